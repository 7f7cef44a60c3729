import Verif.Cert.N3
import Verif.Cert.N5
import Verif.Cert.N8
import Verif.Cert.N9
import Verif.RagelLexFast
import Verif.LexisTable

/-! Generated by tools/gen_certs.py. -/

namespace Ohcount.Cert
open Ohcount.Ragel Ohcount.Gram

set_option maxRecDepth 100000
set_option maxHeartbeats 0

def css_line_lex : Lexis := [⟨[47,42],[[42,47]],.lcomment,true,false,false,true,false,false,true,false,none,false,false,false,false,[]⟩,⟨[39],[[39]],.lcode,true,false,true,true,false,false,false,false,none,false,false,false,false,[]⟩,⟨[34],[[34]],.lcode,true,false,true,true,false,false,false,false,none,false,false,false,false,[]⟩]
theorem css_line_lex_eq : LexisTable.css_line = css_line_lex := by decide +kernel
def css_line_lmasks : List Nat := [4294967808,140737488355328,549755813888,17179869184,8192,1024,4096,115792089237316195423570985008687907853269984665640564039457584007908834656767,4398046511104,115792089237316195423570985008687907853269984665640564039457584007908834658815,115792089237316195423570985008687907853269984665635612279300442486259482348031,4951760157141521099596496896,115792089237316195423570985008687907853269984665640564039457584007913129626623,115792089237316195423570985008687907853269984665635612279300442486792058292735]
def css_line_lcs : List (Nat × Nat) := [(0,115792089237316195423570985008687907853269984665635612279300442341106767610367),(9,4294967808),(10,1024),(11,2048),(12,4096),(13,8192),(34,17179869184),(39,549755813888),(42,4398046511104),(47,140737488355328),(92,4951760157141521099596496896)]
theorem css_line_lmasksIn : masksIn css_line_nfa css_line_lmasks = true := by decide +kernel
theorem css_line_lrepOk : repOk css_line_lmasks css_line_lcs = true := by decide +kernel
def css_line_lrows : List Row := [⟨[],none,[],[⟨256,.other,false,some ⟨0,[.setEnt (.own 9)],some 4,true⟩⟩,⟨256,.ws,false,some ⟨1,[.setEnt (.own 0)],some 0,false⟩⟩,⟨256,.lf,false,some ⟨0,[.setEnt .newline],some 3,true⟩⟩,⟨256,.vt,false,none⟩,⟨256,.ff,false,some ⟨0,[.setEnt .newline],some 3,true⟩⟩,⟨256,.cr,false,some ⟨2,[.setEnt .newline],none,false⟩⟩,⟨256,.cr,true,some ⟨3,[.setEnt .newline],some 3,false⟩⟩,⟨34,.other,false,some ⟨4,[.code,.setEnt (.own 9)],some 4,false⟩⟩,⟨39,.other,false,some ⟨5,[.code,.setEnt (.own 9)],some 4,false⟩⟩,⟨42,.other,false,some ⟨0,[.setEnt (.own 9)],some 4,true⟩⟩,⟨47,.other,false,some ⟨6,[.setEnt (.own 9)],some 4,false⟩⟩,⟨92,.other,false,some ⟨0,[.setEnt (.own 9)],some 4,true⟩⟩]⟩,⟨[0],some 0,[],[⟨256,.other,false,none⟩,⟨256,.ws,false,some ⟨1,[.setEnt (.own 0)],some 0,false⟩⟩,⟨256,.lf,false,none⟩,⟨256,.vt,false,none⟩,⟨256,.ff,false,none⟩,⟨256,.cr,false,none⟩,⟨256,.cr,true,none⟩,⟨34,.other,false,none⟩,⟨39,.other,false,none⟩,⟨42,.other,false,none⟩,⟨47,.other,false,none⟩,⟨92,.other,false,none⟩]⟩,⟨[34],none,[],[⟨256,.other,false,none⟩,⟨256,.ws,false,none⟩,⟨256,.lf,false,some ⟨0,[.setEnt .newline],some 3,true⟩⟩,⟨256,.vt,false,none⟩,⟨256,.ff,false,none⟩,⟨256,.cr,false,none⟩,⟨256,.cr,true,none⟩,⟨34,.other,false,none⟩,⟨39,.other,false,none⟩,⟨42,.other,false,none⟩,⟨47,.other,false,none⟩,⟨92,.other,false,none⟩]⟩,⟨[34,38],some 3,[],[⟨256,.other,false,none⟩,⟨256,.ws,false,none⟩,⟨256,.lf,false,some ⟨0,[.setEnt .newline],some 3,true⟩⟩,⟨256,.vt,false,none⟩,⟨256,.ff,false,none⟩,⟨256,.cr,false,none⟩,⟨256,.cr,true,none⟩,⟨34,.other,false,none⟩,⟨39,.other,false,none⟩,⟨42,.other,false,none⟩,⟨47,.other,false,none⟩,⟨92,.other,false,none⟩]⟩,⟨[23,39],some 4,[],[⟨256,.other,false,some ⟨7,[.code],none,false⟩⟩,⟨256,.ws,false,some ⟨8,[],none,false⟩⟩,⟨256,.lf,false,some ⟨9,[],none,false⟩⟩,⟨256,.vt,false,some ⟨7,[.code],none,false⟩⟩,⟨256,.ff,false,some ⟨10,[],none,false⟩⟩,⟨256,.cr,false,some ⟨11,[],none,false⟩⟩,⟨256,.cr,true,some ⟨12,[],none,false⟩⟩,⟨34,.other,false,some ⟨0,[],some 2,true⟩⟩,⟨39,.other,false,some ⟨7,[.code],none,false⟩⟩,⟨42,.other,false,some ⟨7,[.code],none,false⟩⟩,⟨47,.other,false,some ⟨7,[.code],none,false⟩⟩,⟨92,.other,false,some ⟨13,[],none,false⟩⟩]⟩,⟨[12,39],some 4,[],[⟨256,.other,false,some ⟨14,[.code],none,false⟩⟩,⟨256,.ws,false,some ⟨15,[],none,false⟩⟩,⟨256,.lf,false,some ⟨16,[],none,false⟩⟩,⟨256,.vt,false,some ⟨14,[.code],none,false⟩⟩,⟨256,.ff,false,some ⟨17,[],none,false⟩⟩,⟨256,.cr,false,some ⟨18,[],none,false⟩⟩,⟨256,.cr,true,some ⟨19,[],none,false⟩⟩,⟨34,.other,false,some ⟨14,[.code],none,false⟩⟩,⟨39,.other,false,some ⟨0,[],some 2,true⟩⟩,⟨42,.other,false,some ⟨14,[.code],none,false⟩⟩,⟨47,.other,false,some ⟨14,[.code],none,false⟩⟩,⟨92,.other,false,some ⟨20,[],none,false⟩⟩]⟩,⟨[1,39],some 4,[],[⟨256,.other,false,none⟩,⟨256,.ws,false,none⟩,⟨256,.lf,false,none⟩,⟨256,.vt,false,none⟩,⟨256,.ff,false,none⟩,⟨256,.cr,false,none⟩,⟨256,.cr,true,none⟩,⟨34,.other,false,none⟩,⟨39,.other,false,none⟩,⟨42,.other,false,some ⟨21,[.comment],none,false⟩⟩,⟨47,.other,false,none⟩,⟨92,.other,false,none⟩]⟩,⟨[30],none,[],[⟨256,.other,false,some ⟨7,[.code],none,false⟩⟩,⟨256,.ws,false,some ⟨8,[],none,false⟩⟩,⟨256,.lf,false,some ⟨9,[],none,false⟩⟩,⟨256,.vt,false,some ⟨7,[.code],none,false⟩⟩,⟨256,.ff,false,some ⟨10,[],none,false⟩⟩,⟨256,.cr,false,some ⟨11,[],none,false⟩⟩,⟨256,.cr,true,some ⟨12,[],none,false⟩⟩,⟨34,.other,false,some ⟨0,[],some 2,true⟩⟩,⟨39,.other,false,some ⟨7,[.code],none,false⟩⟩,⟨42,.other,false,some ⟨7,[.code],none,false⟩⟩,⟨47,.other,false,some ⟨7,[.code],none,false⟩⟩,⟨92,.other,false,some ⟨13,[],none,false⟩⟩]⟩,⟨[29],none,[],[⟨256,.other,false,some ⟨7,[.code],none,false⟩⟩,⟨256,.ws,false,some ⟨8,[],none,false⟩⟩,⟨256,.lf,false,some ⟨9,[],none,false⟩⟩,⟨256,.vt,false,some ⟨7,[.code],none,false⟩⟩,⟨256,.ff,false,some ⟨10,[],none,false⟩⟩,⟨256,.cr,false,some ⟨11,[],none,false⟩⟩,⟨256,.cr,true,some ⟨12,[],none,false⟩⟩,⟨34,.other,false,some ⟨0,[],some 2,true⟩⟩,⟨39,.other,false,some ⟨7,[.code],none,false⟩⟩,⟨42,.other,false,some ⟨7,[.code],none,false⟩⟩,⟨47,.other,false,some ⟨7,[.code],none,false⟩⟩,⟨92,.other,false,some ⟨13,[],none,false⟩⟩]⟩,⟨[26],none,[],[⟨256,.other,false,some ⟨7,[.setEnt .internalNl,.cb,.code],none,false⟩⟩,⟨256,.ws,false,some ⟨8,[.setEnt .internalNl,.cb],none,false⟩⟩,⟨256,.lf,false,some ⟨9,[.setEnt .internalNl,.cb],none,false⟩⟩,⟨256,.vt,false,some ⟨7,[.setEnt .internalNl,.cb,.code],none,false⟩⟩,⟨256,.ff,false,some ⟨10,[.setEnt .internalNl,.cb],none,false⟩⟩,⟨256,.cr,false,some ⟨11,[.setEnt .internalNl,.cb],none,false⟩⟩,⟨256,.cr,true,some ⟨12,[.setEnt .internalNl,.cb],none,false⟩⟩,⟨34,.other,false,some ⟨0,[.setEnt .internalNl,.cb],some 2,true⟩⟩,⟨39,.other,false,some ⟨7,[.setEnt .internalNl,.cb,.code],none,false⟩⟩,⟨42,.other,false,some ⟨7,[.setEnt .internalNl,.cb,.code],none,false⟩⟩,⟨47,.other,false,some ⟨7,[.setEnt .internalNl,.cb,.code],none,false⟩⟩,⟨92,.other,false,some ⟨13,[.setEnt .internalNl,.cb],none,false⟩⟩]⟩,⟨[27],none,[],[⟨256,.other,false,some ⟨7,[.setEnt .internalNl,.cb,.code],none,false⟩⟩,⟨256,.ws,false,some ⟨8,[.setEnt .internalNl,.cb],none,false⟩⟩,⟨256,.lf,false,some ⟨9,[.setEnt .internalNl,.cb],none,false⟩⟩,⟨256,.vt,false,some ⟨7,[.setEnt .internalNl,.cb,.code],none,false⟩⟩,⟨256,.ff,false,some ⟨10,[.setEnt .internalNl,.cb],none,false⟩⟩,⟨256,.cr,false,some ⟨11,[.setEnt .internalNl,.cb],none,false⟩⟩,⟨256,.cr,true,some ⟨12,[.setEnt .internalNl,.cb],none,false⟩⟩,⟨34,.other,false,some ⟨0,[.setEnt .internalNl,.cb],some 2,true⟩⟩,⟨39,.other,false,some ⟨7,[.setEnt .internalNl,.cb,.code],none,false⟩⟩,⟨42,.other,false,some ⟨7,[.setEnt .internalNl,.cb,.code],none,false⟩⟩,⟨47,.other,false,some ⟨7,[.setEnt .internalNl,.cb,.code],none,false⟩⟩,⟨92,.other,false,some ⟨13,[.setEnt .internalNl,.cb],none,false⟩⟩]⟩,⟨[24],none,[],[⟨256,.other,false,none⟩,⟨256,.ws,false,none⟩,⟨256,.lf,false,some ⟨22,[],none,false⟩⟩,⟨256,.vt,false,none⟩,⟨256,.ff,false,none⟩,⟨256,.cr,false,none⟩,⟨256,.cr,true,none⟩,⟨34,.other,false,none⟩,⟨39,.other,false,none⟩,⟨42,.other,false,none⟩,⟨47,.other,false,none⟩,⟨92,.other,false,none⟩]⟩,⟨[24,28],none,[],[⟨256,.other,false,some ⟨7,[.setEnt .internalNl,.cb,.code],none,false⟩⟩,⟨256,.ws,false,some ⟨8,[.setEnt .internalNl,.cb],none,false⟩⟩,⟨256,.lf,false,some ⟨23,[.setEnt .internalNl,.cb],none,false⟩⟩,⟨256,.vt,false,some ⟨7,[.setEnt .internalNl,.cb,.code],none,false⟩⟩,⟨256,.ff,false,some ⟨10,[.setEnt .internalNl,.cb],none,false⟩⟩,⟨256,.cr,false,some ⟨11,[.setEnt .internalNl,.cb],none,false⟩⟩,⟨256,.cr,true,some ⟨12,[.setEnt .internalNl,.cb],none,false⟩⟩,⟨34,.other,false,some ⟨0,[.setEnt .internalNl,.cb],some 2,true⟩⟩,⟨39,.other,false,some ⟨7,[.setEnt .internalNl,.cb,.code],none,false⟩⟩,⟨42,.other,false,some ⟨7,[.setEnt .internalNl,.cb,.code],none,false⟩⟩,⟨47,.other,false,some ⟨7,[.setEnt .internalNl,.cb,.code],none,false⟩⟩,⟨92,.other,false,some ⟨13,[.setEnt .internalNl,.cb],none,false⟩⟩]⟩,⟨[31],none,[],[⟨256,.other,false,some ⟨24,[.code],none,false⟩⟩,⟨256,.ws,false,some ⟨24,[.code],none,false⟩⟩,⟨256,.lf,false,none⟩,⟨256,.vt,false,some ⟨24,[.code],none,false⟩⟩,⟨256,.ff,false,none⟩,⟨256,.cr,false,none⟩,⟨256,.cr,true,none⟩,⟨34,.other,false,some ⟨24,[.code],none,false⟩⟩,⟨39,.other,false,some ⟨24,[.code],none,false⟩⟩,⟨42,.other,false,some ⟨24,[.code],none,false⟩⟩,⟨47,.other,false,some ⟨24,[.code],none,false⟩⟩,⟨92,.other,false,some ⟨24,[.code],none,false⟩⟩]⟩,⟨[19],none,[],[⟨256,.other,false,some ⟨14,[.code],none,false⟩⟩,⟨256,.ws,false,some ⟨15,[],none,false⟩⟩,⟨256,.lf,false,some ⟨16,[],none,false⟩⟩,⟨256,.vt,false,some ⟨14,[.code],none,false⟩⟩,⟨256,.ff,false,some ⟨17,[],none,false⟩⟩,⟨256,.cr,false,some ⟨18,[],none,false⟩⟩,⟨256,.cr,true,some ⟨19,[],none,false⟩⟩,⟨34,.other,false,some ⟨14,[.code],none,false⟩⟩,⟨39,.other,false,some ⟨0,[],some 2,true⟩⟩,⟨42,.other,false,some ⟨14,[.code],none,false⟩⟩,⟨47,.other,false,some ⟨14,[.code],none,false⟩⟩,⟨92,.other,false,some ⟨20,[],none,false⟩⟩]⟩,⟨[18],none,[],[⟨256,.other,false,some ⟨14,[.code],none,false⟩⟩,⟨256,.ws,false,some ⟨15,[],none,false⟩⟩,⟨256,.lf,false,some ⟨16,[],none,false⟩⟩,⟨256,.vt,false,some ⟨14,[.code],none,false⟩⟩,⟨256,.ff,false,some ⟨17,[],none,false⟩⟩,⟨256,.cr,false,some ⟨18,[],none,false⟩⟩,⟨256,.cr,true,some ⟨19,[],none,false⟩⟩,⟨34,.other,false,some ⟨14,[.code],none,false⟩⟩,⟨39,.other,false,some ⟨0,[],some 2,true⟩⟩,⟨42,.other,false,some ⟨14,[.code],none,false⟩⟩,⟨47,.other,false,some ⟨14,[.code],none,false⟩⟩,⟨92,.other,false,some ⟨20,[],none,false⟩⟩]⟩,⟨[15],none,[],[⟨256,.other,false,some ⟨14,[.setEnt .internalNl,.cb,.code],none,false⟩⟩,⟨256,.ws,false,some ⟨15,[.setEnt .internalNl,.cb],none,false⟩⟩,⟨256,.lf,false,some ⟨16,[.setEnt .internalNl,.cb],none,false⟩⟩,⟨256,.vt,false,some ⟨14,[.setEnt .internalNl,.cb,.code],none,false⟩⟩,⟨256,.ff,false,some ⟨17,[.setEnt .internalNl,.cb],none,false⟩⟩,⟨256,.cr,false,some ⟨18,[.setEnt .internalNl,.cb],none,false⟩⟩,⟨256,.cr,true,some ⟨19,[.setEnt .internalNl,.cb],none,false⟩⟩,⟨34,.other,false,some ⟨14,[.setEnt .internalNl,.cb,.code],none,false⟩⟩,⟨39,.other,false,some ⟨0,[.setEnt .internalNl,.cb],some 2,true⟩⟩,⟨42,.other,false,some ⟨14,[.setEnt .internalNl,.cb,.code],none,false⟩⟩,⟨47,.other,false,some ⟨14,[.setEnt .internalNl,.cb,.code],none,false⟩⟩,⟨92,.other,false,some ⟨20,[.setEnt .internalNl,.cb],none,false⟩⟩]⟩,⟨[16],none,[],[⟨256,.other,false,some ⟨14,[.setEnt .internalNl,.cb,.code],none,false⟩⟩,⟨256,.ws,false,some ⟨15,[.setEnt .internalNl,.cb],none,false⟩⟩,⟨256,.lf,false,some ⟨16,[.setEnt .internalNl,.cb],none,false⟩⟩,⟨256,.vt,false,some ⟨14,[.setEnt .internalNl,.cb,.code],none,false⟩⟩,⟨256,.ff,false,some ⟨17,[.setEnt .internalNl,.cb],none,false⟩⟩,⟨256,.cr,false,some ⟨18,[.setEnt .internalNl,.cb],none,false⟩⟩,⟨256,.cr,true,some ⟨19,[.setEnt .internalNl,.cb],none,false⟩⟩,⟨34,.other,false,some ⟨14,[.setEnt .internalNl,.cb,.code],none,false⟩⟩,⟨39,.other,false,some ⟨0,[.setEnt .internalNl,.cb],some 2,true⟩⟩,⟨42,.other,false,some ⟨14,[.setEnt .internalNl,.cb,.code],none,false⟩⟩,⟨47,.other,false,some ⟨14,[.setEnt .internalNl,.cb,.code],none,false⟩⟩,⟨92,.other,false,some ⟨20,[.setEnt .internalNl,.cb],none,false⟩⟩]⟩,⟨[13],none,[],[⟨256,.other,false,none⟩,⟨256,.ws,false,none⟩,⟨256,.lf,false,some ⟨25,[],none,false⟩⟩,⟨256,.vt,false,none⟩,⟨256,.ff,false,none⟩,⟨256,.cr,false,none⟩,⟨256,.cr,true,none⟩,⟨34,.other,false,none⟩,⟨39,.other,false,none⟩,⟨42,.other,false,none⟩,⟨47,.other,false,none⟩,⟨92,.other,false,none⟩]⟩,⟨[13,17],none,[],[⟨256,.other,false,some ⟨14,[.setEnt .internalNl,.cb,.code],none,false⟩⟩,⟨256,.ws,false,some ⟨15,[.setEnt .internalNl,.cb],none,false⟩⟩,⟨256,.lf,false,some ⟨26,[.setEnt .internalNl,.cb],none,false⟩⟩,⟨256,.vt,false,some ⟨14,[.setEnt .internalNl,.cb,.code],none,false⟩⟩,⟨256,.ff,false,some ⟨17,[.setEnt .internalNl,.cb],none,false⟩⟩,⟨256,.cr,false,some ⟨18,[.setEnt .internalNl,.cb],none,false⟩⟩,⟨256,.cr,true,some ⟨19,[.setEnt .internalNl,.cb],none,false⟩⟩,⟨34,.other,false,some ⟨14,[.setEnt .internalNl,.cb,.code],none,false⟩⟩,⟨39,.other,false,some ⟨0,[.setEnt .internalNl,.cb],some 2,true⟩⟩,⟨42,.other,false,some ⟨14,[.setEnt .internalNl,.cb,.code],none,false⟩⟩,⟨47,.other,false,some ⟨14,[.setEnt .internalNl,.cb,.code],none,false⟩⟩,⟨92,.other,false,some ⟨20,[.setEnt .internalNl,.cb],none,false⟩⟩]⟩,⟨[20],none,[],[⟨256,.other,false,some ⟨27,[.code],none,false⟩⟩,⟨256,.ws,false,some ⟨27,[.code],none,false⟩⟩,⟨256,.lf,false,none⟩,⟨256,.vt,false,some ⟨27,[.code],none,false⟩⟩,⟨256,.ff,false,none⟩,⟨256,.cr,false,none⟩,⟨256,.cr,true,none⟩,⟨34,.other,false,some ⟨27,[.code],none,false⟩⟩,⟨39,.other,false,some ⟨27,[.code],none,false⟩⟩,⟨42,.other,false,some ⟨27,[.code],none,false⟩⟩,⟨47,.other,false,some ⟨27,[.code],none,false⟩⟩,⟨92,.other,false,some ⟨27,[.code],none,false⟩⟩]⟩,⟨[2],none,[],[⟨256,.other,false,some ⟨28,[.comment],none,false⟩⟩,⟨256,.ws,false,some ⟨29,[],none,false⟩⟩,⟨256,.lf,false,some ⟨30,[],none,false⟩⟩,⟨256,.vt,false,some ⟨28,[.comment],none,false⟩⟩,⟨256,.ff,false,some ⟨31,[],none,false⟩⟩,⟨256,.cr,false,some ⟨32,[],none,false⟩⟩,⟨256,.cr,true,some ⟨33,[],none,false⟩⟩,⟨34,.other,false,some ⟨28,[.comment],none,false⟩⟩,⟨39,.other,false,some ⟨28,[.comment],none,false⟩⟩,⟨42,.other,false,some ⟨34,[.comment],none,false⟩⟩,⟨47,.other,false,some ⟨28,[.comment],none,false⟩⟩,⟨92,.other,false,some ⟨28,[.comment],none,false⟩⟩]⟩,⟨[25],none,[],[⟨256,.other,false,some ⟨7,[.setEnt .internalNl,.cb,.code],none,false⟩⟩,⟨256,.ws,false,some ⟨8,[.setEnt .internalNl,.cb],none,false⟩⟩,⟨256,.lf,false,some ⟨9,[.setEnt .internalNl,.cb],none,false⟩⟩,⟨256,.vt,false,some ⟨7,[.setEnt .internalNl,.cb,.code],none,false⟩⟩,⟨256,.ff,false,some ⟨10,[.setEnt .internalNl,.cb],none,false⟩⟩,⟨256,.cr,false,some ⟨11,[.setEnt .internalNl,.cb],none,false⟩⟩,⟨256,.cr,true,some ⟨12,[.setEnt .internalNl,.cb],none,false⟩⟩,⟨34,.other,false,some ⟨0,[.setEnt .internalNl,.cb],some 2,true⟩⟩,⟨39,.other,false,some ⟨7,[.setEnt .internalNl,.cb,.code],none,false⟩⟩,⟨42,.other,false,some ⟨7,[.setEnt .internalNl,.cb,.code],none,false⟩⟩,⟨47,.other,false,some ⟨7,[.setEnt .internalNl,.cb,.code],none,false⟩⟩,⟨92,.other,false,some ⟨13,[.setEnt .internalNl,.cb],none,false⟩⟩]⟩,⟨[25,26],none,[],[⟨256,.other,false,some ⟨7,[.setEnt .internalNl,.cb,.code],none,false⟩⟩,⟨256,.ws,false,some ⟨8,[.setEnt .internalNl,.cb],none,false⟩⟩,⟨256,.lf,false,some ⟨9,[.setEnt .internalNl,.cb],none,false⟩⟩,⟨256,.vt,false,some ⟨7,[.setEnt .internalNl,.cb,.code],none,false⟩⟩,⟨256,.ff,false,some ⟨10,[.setEnt .internalNl,.cb],none,false⟩⟩,⟨256,.cr,false,some ⟨11,[.setEnt .internalNl,.cb],none,false⟩⟩,⟨256,.cr,true,some ⟨12,[.setEnt .internalNl,.cb],none,false⟩⟩,⟨34,.other,false,some ⟨0,[.setEnt .internalNl,.cb],some 2,true⟩⟩,⟨39,.other,false,some ⟨7,[.setEnt .internalNl,.cb,.code],none,false⟩⟩,⟨42,.other,false,some ⟨7,[.setEnt .internalNl,.cb,.code],none,false⟩⟩,⟨47,.other,false,some ⟨7,[.setEnt .internalNl,.cb,.code],none,false⟩⟩,⟨92,.other,false,some ⟨13,[.setEnt .internalNl,.cb],none,false⟩⟩]⟩,⟨[32],none,[],[⟨256,.other,false,some ⟨7,[.code],none,false⟩⟩,⟨256,.ws,false,some ⟨8,[],none,false⟩⟩,⟨256,.lf,false,some ⟨9,[],none,false⟩⟩,⟨256,.vt,false,some ⟨7,[.code],none,false⟩⟩,⟨256,.ff,false,some ⟨10,[],none,false⟩⟩,⟨256,.cr,false,some ⟨11,[],none,false⟩⟩,⟨256,.cr,true,some ⟨12,[],none,false⟩⟩,⟨34,.other,false,some ⟨0,[],some 2,true⟩⟩,⟨39,.other,false,some ⟨7,[.code],none,false⟩⟩,⟨42,.other,false,some ⟨7,[.code],none,false⟩⟩,⟨47,.other,false,some ⟨7,[.code],none,false⟩⟩,⟨92,.other,false,some ⟨13,[],none,false⟩⟩]⟩,⟨[14],none,[],[⟨256,.other,false,some ⟨14,[.setEnt .internalNl,.cb,.code],none,false⟩⟩,⟨256,.ws,false,some ⟨15,[.setEnt .internalNl,.cb],none,false⟩⟩,⟨256,.lf,false,some ⟨16,[.setEnt .internalNl,.cb],none,false⟩⟩,⟨256,.vt,false,some ⟨14,[.setEnt .internalNl,.cb,.code],none,false⟩⟩,⟨256,.ff,false,some ⟨17,[.setEnt .internalNl,.cb],none,false⟩⟩,⟨256,.cr,false,some ⟨18,[.setEnt .internalNl,.cb],none,false⟩⟩,⟨256,.cr,true,some ⟨19,[.setEnt .internalNl,.cb],none,false⟩⟩,⟨34,.other,false,some ⟨14,[.setEnt .internalNl,.cb,.code],none,false⟩⟩,⟨39,.other,false,some ⟨0,[.setEnt .internalNl,.cb],some 2,true⟩⟩,⟨42,.other,false,some ⟨14,[.setEnt .internalNl,.cb,.code],none,false⟩⟩,⟨47,.other,false,some ⟨14,[.setEnt .internalNl,.cb,.code],none,false⟩⟩,⟨92,.other,false,some ⟨20,[.setEnt .internalNl,.cb],none,false⟩⟩]⟩,⟨[14,15],none,[],[⟨256,.other,false,some ⟨14,[.setEnt .internalNl,.cb,.code],none,false⟩⟩,⟨256,.ws,false,some ⟨15,[.setEnt .internalNl,.cb],none,false⟩⟩,⟨256,.lf,false,some ⟨16,[.setEnt .internalNl,.cb],none,false⟩⟩,⟨256,.vt,false,some ⟨14,[.setEnt .internalNl,.cb,.code],none,false⟩⟩,⟨256,.ff,false,some ⟨17,[.setEnt .internalNl,.cb],none,false⟩⟩,⟨256,.cr,false,some ⟨18,[.setEnt .internalNl,.cb],none,false⟩⟩,⟨256,.cr,true,some ⟨19,[.setEnt .internalNl,.cb],none,false⟩⟩,⟨34,.other,false,some ⟨14,[.setEnt .internalNl,.cb,.code],none,false⟩⟩,⟨39,.other,false,some ⟨0,[.setEnt .internalNl,.cb],some 2,true⟩⟩,⟨42,.other,false,some ⟨14,[.setEnt .internalNl,.cb,.code],none,false⟩⟩,⟨47,.other,false,some ⟨14,[.setEnt .internalNl,.cb,.code],none,false⟩⟩,⟨92,.other,false,some ⟨20,[.setEnt .internalNl,.cb],none,false⟩⟩]⟩,⟨[21],none,[],[⟨256,.other,false,some ⟨14,[.code],none,false⟩⟩,⟨256,.ws,false,some ⟨15,[],none,false⟩⟩,⟨256,.lf,false,some ⟨16,[],none,false⟩⟩,⟨256,.vt,false,some ⟨14,[.code],none,false⟩⟩,⟨256,.ff,false,some ⟨17,[],none,false⟩⟩,⟨256,.cr,false,some ⟨18,[],none,false⟩⟩,⟨256,.cr,true,some ⟨19,[],none,false⟩⟩,⟨34,.other,false,some ⟨14,[.code],none,false⟩⟩,⟨39,.other,false,some ⟨0,[],some 2,true⟩⟩,⟨42,.other,false,some ⟨14,[.code],none,false⟩⟩,⟨47,.other,false,some ⟨14,[.code],none,false⟩⟩,⟨92,.other,false,some ⟨20,[],none,false⟩⟩]⟩,⟨[9],none,[],[⟨256,.other,false,some ⟨28,[.comment],none,false⟩⟩,⟨256,.ws,false,some ⟨29,[],none,false⟩⟩,⟨256,.lf,false,some ⟨30,[],none,false⟩⟩,⟨256,.vt,false,some ⟨28,[.comment],none,false⟩⟩,⟨256,.ff,false,some ⟨31,[],none,false⟩⟩,⟨256,.cr,false,some ⟨32,[],none,false⟩⟩,⟨256,.cr,true,some ⟨33,[],none,false⟩⟩,⟨34,.other,false,some ⟨28,[.comment],none,false⟩⟩,⟨39,.other,false,some ⟨28,[.comment],none,false⟩⟩,⟨42,.other,false,some ⟨34,[.comment],none,false⟩⟩,⟨47,.other,false,some ⟨28,[.comment],none,false⟩⟩,⟨92,.other,false,some ⟨28,[.comment],none,false⟩⟩]⟩,⟨[8],none,[],[⟨256,.other,false,some ⟨28,[.comment],none,false⟩⟩,⟨256,.ws,false,some ⟨29,[],none,false⟩⟩,⟨256,.lf,false,some ⟨30,[],none,false⟩⟩,⟨256,.vt,false,some ⟨28,[.comment],none,false⟩⟩,⟨256,.ff,false,some ⟨31,[],none,false⟩⟩,⟨256,.cr,false,some ⟨32,[],none,false⟩⟩,⟨256,.cr,true,some ⟨33,[],none,false⟩⟩,⟨34,.other,false,some ⟨28,[.comment],none,false⟩⟩,⟨39,.other,false,some ⟨28,[.comment],none,false⟩⟩,⟨42,.other,false,some ⟨34,[.comment],none,false⟩⟩,⟨47,.other,false,some ⟨28,[.comment],none,false⟩⟩,⟨92,.other,false,some ⟨28,[.comment],none,false⟩⟩]⟩,⟨[5],none,[],[⟨256,.other,false,some ⟨28,[.setEnt .internalNl,.cb,.comment],none,false⟩⟩,⟨256,.ws,false,some ⟨29,[.setEnt .internalNl,.cb],none,false⟩⟩,⟨256,.lf,false,some ⟨30,[.setEnt .internalNl,.cb],none,false⟩⟩,⟨256,.vt,false,some ⟨28,[.setEnt .internalNl,.cb,.comment],none,false⟩⟩,⟨256,.ff,false,some ⟨31,[.setEnt .internalNl,.cb],none,false⟩⟩,⟨256,.cr,false,some ⟨32,[.setEnt .internalNl,.cb],none,false⟩⟩,⟨256,.cr,true,some ⟨33,[.setEnt .internalNl,.cb],none,false⟩⟩,⟨34,.other,false,some ⟨28,[.setEnt .internalNl,.cb,.comment],none,false⟩⟩,⟨39,.other,false,some ⟨28,[.setEnt .internalNl,.cb,.comment],none,false⟩⟩,⟨42,.other,false,some ⟨34,[.setEnt .internalNl,.cb,.comment],none,false⟩⟩,⟨47,.other,false,some ⟨28,[.setEnt .internalNl,.cb,.comment],none,false⟩⟩,⟨92,.other,false,some ⟨28,[.setEnt .internalNl,.cb,.comment],none,false⟩⟩]⟩,⟨[6],none,[],[⟨256,.other,false,some ⟨28,[.setEnt .internalNl,.cb,.comment],none,false⟩⟩,⟨256,.ws,false,some ⟨29,[.setEnt .internalNl,.cb],none,false⟩⟩,⟨256,.lf,false,some ⟨30,[.setEnt .internalNl,.cb],none,false⟩⟩,⟨256,.vt,false,some ⟨28,[.setEnt .internalNl,.cb,.comment],none,false⟩⟩,⟨256,.ff,false,some ⟨31,[.setEnt .internalNl,.cb],none,false⟩⟩,⟨256,.cr,false,some ⟨32,[.setEnt .internalNl,.cb],none,false⟩⟩,⟨256,.cr,true,some ⟨33,[.setEnt .internalNl,.cb],none,false⟩⟩,⟨34,.other,false,some ⟨28,[.setEnt .internalNl,.cb,.comment],none,false⟩⟩,⟨39,.other,false,some ⟨28,[.setEnt .internalNl,.cb,.comment],none,false⟩⟩,⟨42,.other,false,some ⟨34,[.setEnt .internalNl,.cb,.comment],none,false⟩⟩,⟨47,.other,false,some ⟨28,[.setEnt .internalNl,.cb,.comment],none,false⟩⟩,⟨92,.other,false,some ⟨28,[.setEnt .internalNl,.cb,.comment],none,false⟩⟩]⟩,⟨[3],none,[],[⟨256,.other,false,none⟩,⟨256,.ws,false,none⟩,⟨256,.lf,false,some ⟨35,[],none,false⟩⟩,⟨256,.vt,false,none⟩,⟨256,.ff,false,none⟩,⟨256,.cr,false,none⟩,⟨256,.cr,true,none⟩,⟨34,.other,false,none⟩,⟨39,.other,false,none⟩,⟨42,.other,false,none⟩,⟨47,.other,false,none⟩,⟨92,.other,false,none⟩]⟩,⟨[3,7],none,[],[⟨256,.other,false,some ⟨28,[.setEnt .internalNl,.cb,.comment],none,false⟩⟩,⟨256,.ws,false,some ⟨29,[.setEnt .internalNl,.cb],none,false⟩⟩,⟨256,.lf,false,some ⟨36,[.setEnt .internalNl,.cb],none,false⟩⟩,⟨256,.vt,false,some ⟨28,[.setEnt .internalNl,.cb,.comment],none,false⟩⟩,⟨256,.ff,false,some ⟨31,[.setEnt .internalNl,.cb],none,false⟩⟩,⟨256,.cr,false,some ⟨32,[.setEnt .internalNl,.cb],none,false⟩⟩,⟨256,.cr,true,some ⟨33,[.setEnt .internalNl,.cb],none,false⟩⟩,⟨34,.other,false,some ⟨28,[.setEnt .internalNl,.cb,.comment],none,false⟩⟩,⟨39,.other,false,some ⟨28,[.setEnt .internalNl,.cb,.comment],none,false⟩⟩,⟨42,.other,false,some ⟨34,[.setEnt .internalNl,.cb,.comment],none,false⟩⟩,⟨47,.other,false,some ⟨28,[.setEnt .internalNl,.cb,.comment],none,false⟩⟩,⟨92,.other,false,some ⟨28,[.setEnt .internalNl,.cb,.comment],none,false⟩⟩]⟩,⟨[9,10],none,[],[⟨256,.other,false,some ⟨28,[.comment],none,false⟩⟩,⟨256,.ws,false,some ⟨29,[],none,false⟩⟩,⟨256,.lf,false,some ⟨30,[],none,false⟩⟩,⟨256,.vt,false,some ⟨28,[.comment],none,false⟩⟩,⟨256,.ff,false,some ⟨31,[],none,false⟩⟩,⟨256,.cr,false,some ⟨32,[],none,false⟩⟩,⟨256,.cr,true,some ⟨33,[],none,false⟩⟩,⟨34,.other,false,some ⟨28,[.comment],none,false⟩⟩,⟨39,.other,false,some ⟨28,[.comment],none,false⟩⟩,⟨42,.other,false,some ⟨34,[.comment],none,false⟩⟩,⟨47,.other,false,some ⟨0,[],some 1,true⟩⟩,⟨92,.other,false,some ⟨28,[.comment],none,false⟩⟩]⟩,⟨[4],none,[],[⟨256,.other,false,some ⟨28,[.setEnt .internalNl,.cb,.comment],none,false⟩⟩,⟨256,.ws,false,some ⟨29,[.setEnt .internalNl,.cb],none,false⟩⟩,⟨256,.lf,false,some ⟨30,[.setEnt .internalNl,.cb],none,false⟩⟩,⟨256,.vt,false,some ⟨28,[.setEnt .internalNl,.cb,.comment],none,false⟩⟩,⟨256,.ff,false,some ⟨31,[.setEnt .internalNl,.cb],none,false⟩⟩,⟨256,.cr,false,some ⟨32,[.setEnt .internalNl,.cb],none,false⟩⟩,⟨256,.cr,true,some ⟨33,[.setEnt .internalNl,.cb],none,false⟩⟩,⟨34,.other,false,some ⟨28,[.setEnt .internalNl,.cb,.comment],none,false⟩⟩,⟨39,.other,false,some ⟨28,[.setEnt .internalNl,.cb,.comment],none,false⟩⟩,⟨42,.other,false,some ⟨34,[.setEnt .internalNl,.cb,.comment],none,false⟩⟩,⟨47,.other,false,some ⟨28,[.setEnt .internalNl,.cb,.comment],none,false⟩⟩,⟨92,.other,false,some ⟨28,[.setEnt .internalNl,.cb,.comment],none,false⟩⟩]⟩,⟨[4,5],none,[],[⟨256,.other,false,some ⟨28,[.setEnt .internalNl,.cb,.comment],none,false⟩⟩,⟨256,.ws,false,some ⟨29,[.setEnt .internalNl,.cb],none,false⟩⟩,⟨256,.lf,false,some ⟨30,[.setEnt .internalNl,.cb],none,false⟩⟩,⟨256,.vt,false,some ⟨28,[.setEnt .internalNl,.cb,.comment],none,false⟩⟩,⟨256,.ff,false,some ⟨31,[.setEnt .internalNl,.cb],none,false⟩⟩,⟨256,.cr,false,some ⟨32,[.setEnt .internalNl,.cb],none,false⟩⟩,⟨256,.cr,true,some ⟨33,[.setEnt .internalNl,.cb],none,false⟩⟩,⟨34,.other,false,some ⟨28,[.setEnt .internalNl,.cb,.comment],none,false⟩⟩,⟨39,.other,false,some ⟨28,[.setEnt .internalNl,.cb,.comment],none,false⟩⟩,⟨42,.other,false,some ⟨34,[.setEnt .internalNl,.cb,.comment],none,false⟩⟩,⟨47,.other,false,some ⟨28,[.setEnt .internalNl,.cb,.comment],none,false⟩⟩,⟨92,.other,false,some ⟨28,[.setEnt .internalNl,.cb,.comment],none,false⟩⟩]⟩]
theorem css_line_lrowsOk : rowsOk css_line_nfa css_line_lex.rel (css_line_lcs.map (·.1)) css_line_lrows = true := by decide +kernel
def css_line_lfr : List CA.FRow := [⟨true,none,[],[⟨256,.other,false,false,none,some ([.setEnt (.own 9)],(some 4,true))⟩,⟨9,.ws,false,false,some 1,some ([.setEnt (.own 0)],(some 0,false))⟩,⟨10,.lf,false,true,none,some ([.setEnt .newline],(some 3,true))⟩,⟨11,.vt,false,false,none,none⟩,⟨12,.ff,false,true,none,some ([.setEnt .newline],(some 3,true))⟩,⟨13,.cr,false,false,some 2,some ([.setEnt .newline],(none,false))⟩,⟨13,.cr,true,true,some 3,some ([.setEnt .newline],(some 3,false))⟩,⟨34,.other,false,false,some 4,some ([.code,.setEnt (.own 9)],(some 4,false))⟩,⟨39,.other,false,false,some 5,some ([.code,.setEnt (.own 9)],(some 4,false))⟩,⟨42,.other,false,false,none,some ([.setEnt (.own 9)],(some 4,true))⟩,⟨47,.other,false,false,some 6,some ([.setEnt (.own 9)],(some 4,false))⟩,⟨92,.other,false,false,none,some ([.setEnt (.own 9)],(some 4,true))⟩]⟩,⟨false,some 0,[],[⟨256,.other,false,false,none,none⟩,⟨9,.ws,false,false,some 1,some ([.setEnt (.own 0)],(some 0,false))⟩,⟨10,.lf,false,true,none,none⟩,⟨11,.vt,false,false,none,none⟩,⟨12,.ff,false,true,none,none⟩,⟨13,.cr,false,false,none,none⟩,⟨13,.cr,true,true,none,none⟩,⟨34,.other,false,false,none,none⟩,⟨39,.other,false,false,none,none⟩,⟨42,.other,false,false,none,none⟩,⟨47,.other,false,false,none,none⟩,⟨92,.other,false,false,none,none⟩]⟩,⟨false,none,[],[⟨256,.other,false,false,none,none⟩,⟨9,.ws,false,false,none,none⟩,⟨10,.lf,false,true,none,some ([.setEnt .newline],(some 3,true))⟩,⟨11,.vt,false,false,none,none⟩,⟨12,.ff,false,true,none,none⟩,⟨13,.cr,false,false,none,none⟩,⟨13,.cr,true,true,none,none⟩,⟨34,.other,false,false,none,none⟩,⟨39,.other,false,false,none,none⟩,⟨42,.other,false,false,none,none⟩,⟨47,.other,false,false,none,none⟩,⟨92,.other,false,false,none,none⟩]⟩,⟨false,some 3,[],[⟨256,.other,false,false,none,none⟩,⟨9,.ws,false,false,none,none⟩,⟨10,.lf,false,true,none,some ([.setEnt .newline],(some 3,true))⟩,⟨11,.vt,false,false,none,none⟩,⟨12,.ff,false,true,none,none⟩,⟨13,.cr,false,false,none,none⟩,⟨13,.cr,true,true,none,none⟩,⟨34,.other,false,false,none,none⟩,⟨39,.other,false,false,none,none⟩,⟨42,.other,false,false,none,none⟩,⟨47,.other,false,false,none,none⟩,⟨92,.other,false,false,none,none⟩]⟩,⟨false,some 4,[],[⟨256,.other,false,false,some 7,some ([.code],(none,false))⟩,⟨9,.ws,false,false,some 8,some ([],(none,false))⟩,⟨10,.lf,false,true,some 9,some ([],(none,false))⟩,⟨11,.vt,false,false,some 7,some ([.code],(none,false))⟩,⟨12,.ff,false,true,some 10,some ([],(none,false))⟩,⟨13,.cr,false,false,some 11,some ([],(none,false))⟩,⟨13,.cr,true,true,some 12,some ([],(none,false))⟩,⟨34,.other,false,false,none,some ([],(some 2,true))⟩,⟨39,.other,false,false,some 7,some ([.code],(none,false))⟩,⟨42,.other,false,false,some 7,some ([.code],(none,false))⟩,⟨47,.other,false,false,some 7,some ([.code],(none,false))⟩,⟨92,.other,false,false,some 13,some ([],(none,false))⟩]⟩,⟨false,some 4,[],[⟨256,.other,false,false,some 14,some ([.code],(none,false))⟩,⟨9,.ws,false,false,some 15,some ([],(none,false))⟩,⟨10,.lf,false,true,some 16,some ([],(none,false))⟩,⟨11,.vt,false,false,some 14,some ([.code],(none,false))⟩,⟨12,.ff,false,true,some 17,some ([],(none,false))⟩,⟨13,.cr,false,false,some 18,some ([],(none,false))⟩,⟨13,.cr,true,true,some 19,some ([],(none,false))⟩,⟨34,.other,false,false,some 14,some ([.code],(none,false))⟩,⟨39,.other,false,false,none,some ([],(some 2,true))⟩,⟨42,.other,false,false,some 14,some ([.code],(none,false))⟩,⟨47,.other,false,false,some 14,some ([.code],(none,false))⟩,⟨92,.other,false,false,some 20,some ([],(none,false))⟩]⟩,⟨false,some 4,[],[⟨256,.other,false,false,none,none⟩,⟨9,.ws,false,false,none,none⟩,⟨10,.lf,false,true,none,none⟩,⟨11,.vt,false,false,none,none⟩,⟨12,.ff,false,true,none,none⟩,⟨13,.cr,false,false,none,none⟩,⟨13,.cr,true,true,none,none⟩,⟨34,.other,false,false,none,none⟩,⟨39,.other,false,false,none,none⟩,⟨42,.other,false,false,some 21,some ([.comment],(none,false))⟩,⟨47,.other,false,false,none,none⟩,⟨92,.other,false,false,none,none⟩]⟩,⟨false,none,[],[⟨256,.other,false,false,some 7,some ([.code],(none,false))⟩,⟨9,.ws,false,false,some 8,some ([],(none,false))⟩,⟨10,.lf,false,true,some 9,some ([],(none,false))⟩,⟨11,.vt,false,false,some 7,some ([.code],(none,false))⟩,⟨12,.ff,false,true,some 10,some ([],(none,false))⟩,⟨13,.cr,false,false,some 11,some ([],(none,false))⟩,⟨13,.cr,true,true,some 12,some ([],(none,false))⟩,⟨34,.other,false,false,none,some ([],(some 2,true))⟩,⟨39,.other,false,false,some 7,some ([.code],(none,false))⟩,⟨42,.other,false,false,some 7,some ([.code],(none,false))⟩,⟨47,.other,false,false,some 7,some ([.code],(none,false))⟩,⟨92,.other,false,false,some 13,some ([],(none,false))⟩]⟩,⟨false,none,[],[⟨256,.other,false,false,some 7,some ([.code],(none,false))⟩,⟨9,.ws,false,false,some 8,some ([],(none,false))⟩,⟨10,.lf,false,true,some 9,some ([],(none,false))⟩,⟨11,.vt,false,false,some 7,some ([.code],(none,false))⟩,⟨12,.ff,false,true,some 10,some ([],(none,false))⟩,⟨13,.cr,false,false,some 11,some ([],(none,false))⟩,⟨13,.cr,true,true,some 12,some ([],(none,false))⟩,⟨34,.other,false,false,none,some ([],(some 2,true))⟩,⟨39,.other,false,false,some 7,some ([.code],(none,false))⟩,⟨42,.other,false,false,some 7,some ([.code],(none,false))⟩,⟨47,.other,false,false,some 7,some ([.code],(none,false))⟩,⟨92,.other,false,false,some 13,some ([],(none,false))⟩]⟩,⟨false,none,[],[⟨256,.other,false,false,some 7,some ([.setEnt .internalNl,.cb,.code],(none,false))⟩,⟨9,.ws,false,false,some 8,some ([.setEnt .internalNl,.cb],(none,false))⟩,⟨10,.lf,false,true,some 9,some ([.setEnt .internalNl,.cb],(none,false))⟩,⟨11,.vt,false,false,some 7,some ([.setEnt .internalNl,.cb,.code],(none,false))⟩,⟨12,.ff,false,true,some 10,some ([.setEnt .internalNl,.cb],(none,false))⟩,⟨13,.cr,false,false,some 11,some ([.setEnt .internalNl,.cb],(none,false))⟩,⟨13,.cr,true,true,some 12,some ([.setEnt .internalNl,.cb],(none,false))⟩,⟨34,.other,false,false,none,some ([.setEnt .internalNl,.cb],(some 2,true))⟩,⟨39,.other,false,false,some 7,some ([.setEnt .internalNl,.cb,.code],(none,false))⟩,⟨42,.other,false,false,some 7,some ([.setEnt .internalNl,.cb,.code],(none,false))⟩,⟨47,.other,false,false,some 7,some ([.setEnt .internalNl,.cb,.code],(none,false))⟩,⟨92,.other,false,false,some 13,some ([.setEnt .internalNl,.cb],(none,false))⟩]⟩,⟨false,none,[],[⟨256,.other,false,false,some 7,some ([.setEnt .internalNl,.cb,.code],(none,false))⟩,⟨9,.ws,false,false,some 8,some ([.setEnt .internalNl,.cb],(none,false))⟩,⟨10,.lf,false,true,some 9,some ([.setEnt .internalNl,.cb],(none,false))⟩,⟨11,.vt,false,false,some 7,some ([.setEnt .internalNl,.cb,.code],(none,false))⟩,⟨12,.ff,false,true,some 10,some ([.setEnt .internalNl,.cb],(none,false))⟩,⟨13,.cr,false,false,some 11,some ([.setEnt .internalNl,.cb],(none,false))⟩,⟨13,.cr,true,true,some 12,some ([.setEnt .internalNl,.cb],(none,false))⟩,⟨34,.other,false,false,none,some ([.setEnt .internalNl,.cb],(some 2,true))⟩,⟨39,.other,false,false,some 7,some ([.setEnt .internalNl,.cb,.code],(none,false))⟩,⟨42,.other,false,false,some 7,some ([.setEnt .internalNl,.cb,.code],(none,false))⟩,⟨47,.other,false,false,some 7,some ([.setEnt .internalNl,.cb,.code],(none,false))⟩,⟨92,.other,false,false,some 13,some ([.setEnt .internalNl,.cb],(none,false))⟩]⟩,⟨false,none,[],[⟨256,.other,false,false,none,none⟩,⟨9,.ws,false,false,none,none⟩,⟨10,.lf,false,true,some 22,some ([],(none,false))⟩,⟨11,.vt,false,false,none,none⟩,⟨12,.ff,false,true,none,none⟩,⟨13,.cr,false,false,none,none⟩,⟨13,.cr,true,true,none,none⟩,⟨34,.other,false,false,none,none⟩,⟨39,.other,false,false,none,none⟩,⟨42,.other,false,false,none,none⟩,⟨47,.other,false,false,none,none⟩,⟨92,.other,false,false,none,none⟩]⟩,⟨false,none,[],[⟨256,.other,false,false,some 7,some ([.setEnt .internalNl,.cb,.code],(none,false))⟩,⟨9,.ws,false,false,some 8,some ([.setEnt .internalNl,.cb],(none,false))⟩,⟨10,.lf,false,true,some 23,some ([.setEnt .internalNl,.cb],(none,false))⟩,⟨11,.vt,false,false,some 7,some ([.setEnt .internalNl,.cb,.code],(none,false))⟩,⟨12,.ff,false,true,some 10,some ([.setEnt .internalNl,.cb],(none,false))⟩,⟨13,.cr,false,false,some 11,some ([.setEnt .internalNl,.cb],(none,false))⟩,⟨13,.cr,true,true,some 12,some ([.setEnt .internalNl,.cb],(none,false))⟩,⟨34,.other,false,false,none,some ([.setEnt .internalNl,.cb],(some 2,true))⟩,⟨39,.other,false,false,some 7,some ([.setEnt .internalNl,.cb,.code],(none,false))⟩,⟨42,.other,false,false,some 7,some ([.setEnt .internalNl,.cb,.code],(none,false))⟩,⟨47,.other,false,false,some 7,some ([.setEnt .internalNl,.cb,.code],(none,false))⟩,⟨92,.other,false,false,some 13,some ([.setEnt .internalNl,.cb],(none,false))⟩]⟩,⟨false,none,[],[⟨256,.other,false,false,some 24,some ([.code],(none,false))⟩,⟨9,.ws,false,false,some 24,some ([.code],(none,false))⟩,⟨10,.lf,false,true,none,none⟩,⟨11,.vt,false,false,some 24,some ([.code],(none,false))⟩,⟨12,.ff,false,true,none,none⟩,⟨13,.cr,false,false,none,none⟩,⟨13,.cr,true,true,none,none⟩,⟨34,.other,false,false,some 24,some ([.code],(none,false))⟩,⟨39,.other,false,false,some 24,some ([.code],(none,false))⟩,⟨42,.other,false,false,some 24,some ([.code],(none,false))⟩,⟨47,.other,false,false,some 24,some ([.code],(none,false))⟩,⟨92,.other,false,false,some 24,some ([.code],(none,false))⟩]⟩,⟨false,none,[],[⟨256,.other,false,false,some 14,some ([.code],(none,false))⟩,⟨9,.ws,false,false,some 15,some ([],(none,false))⟩,⟨10,.lf,false,true,some 16,some ([],(none,false))⟩,⟨11,.vt,false,false,some 14,some ([.code],(none,false))⟩,⟨12,.ff,false,true,some 17,some ([],(none,false))⟩,⟨13,.cr,false,false,some 18,some ([],(none,false))⟩,⟨13,.cr,true,true,some 19,some ([],(none,false))⟩,⟨34,.other,false,false,some 14,some ([.code],(none,false))⟩,⟨39,.other,false,false,none,some ([],(some 2,true))⟩,⟨42,.other,false,false,some 14,some ([.code],(none,false))⟩,⟨47,.other,false,false,some 14,some ([.code],(none,false))⟩,⟨92,.other,false,false,some 20,some ([],(none,false))⟩]⟩,⟨false,none,[],[⟨256,.other,false,false,some 14,some ([.code],(none,false))⟩,⟨9,.ws,false,false,some 15,some ([],(none,false))⟩,⟨10,.lf,false,true,some 16,some ([],(none,false))⟩,⟨11,.vt,false,false,some 14,some ([.code],(none,false))⟩,⟨12,.ff,false,true,some 17,some ([],(none,false))⟩,⟨13,.cr,false,false,some 18,some ([],(none,false))⟩,⟨13,.cr,true,true,some 19,some ([],(none,false))⟩,⟨34,.other,false,false,some 14,some ([.code],(none,false))⟩,⟨39,.other,false,false,none,some ([],(some 2,true))⟩,⟨42,.other,false,false,some 14,some ([.code],(none,false))⟩,⟨47,.other,false,false,some 14,some ([.code],(none,false))⟩,⟨92,.other,false,false,some 20,some ([],(none,false))⟩]⟩,⟨false,none,[],[⟨256,.other,false,false,some 14,some ([.setEnt .internalNl,.cb,.code],(none,false))⟩,⟨9,.ws,false,false,some 15,some ([.setEnt .internalNl,.cb],(none,false))⟩,⟨10,.lf,false,true,some 16,some ([.setEnt .internalNl,.cb],(none,false))⟩,⟨11,.vt,false,false,some 14,some ([.setEnt .internalNl,.cb,.code],(none,false))⟩,⟨12,.ff,false,true,some 17,some ([.setEnt .internalNl,.cb],(none,false))⟩,⟨13,.cr,false,false,some 18,some ([.setEnt .internalNl,.cb],(none,false))⟩,⟨13,.cr,true,true,some 19,some ([.setEnt .internalNl,.cb],(none,false))⟩,⟨34,.other,false,false,some 14,some ([.setEnt .internalNl,.cb,.code],(none,false))⟩,⟨39,.other,false,false,none,some ([.setEnt .internalNl,.cb],(some 2,true))⟩,⟨42,.other,false,false,some 14,some ([.setEnt .internalNl,.cb,.code],(none,false))⟩,⟨47,.other,false,false,some 14,some ([.setEnt .internalNl,.cb,.code],(none,false))⟩,⟨92,.other,false,false,some 20,some ([.setEnt .internalNl,.cb],(none,false))⟩]⟩,⟨false,none,[],[⟨256,.other,false,false,some 14,some ([.setEnt .internalNl,.cb,.code],(none,false))⟩,⟨9,.ws,false,false,some 15,some ([.setEnt .internalNl,.cb],(none,false))⟩,⟨10,.lf,false,true,some 16,some ([.setEnt .internalNl,.cb],(none,false))⟩,⟨11,.vt,false,false,some 14,some ([.setEnt .internalNl,.cb,.code],(none,false))⟩,⟨12,.ff,false,true,some 17,some ([.setEnt .internalNl,.cb],(none,false))⟩,⟨13,.cr,false,false,some 18,some ([.setEnt .internalNl,.cb],(none,false))⟩,⟨13,.cr,true,true,some 19,some ([.setEnt .internalNl,.cb],(none,false))⟩,⟨34,.other,false,false,some 14,some ([.setEnt .internalNl,.cb,.code],(none,false))⟩,⟨39,.other,false,false,none,some ([.setEnt .internalNl,.cb],(some 2,true))⟩,⟨42,.other,false,false,some 14,some ([.setEnt .internalNl,.cb,.code],(none,false))⟩,⟨47,.other,false,false,some 14,some ([.setEnt .internalNl,.cb,.code],(none,false))⟩,⟨92,.other,false,false,some 20,some ([.setEnt .internalNl,.cb],(none,false))⟩]⟩,⟨false,none,[],[⟨256,.other,false,false,none,none⟩,⟨9,.ws,false,false,none,none⟩,⟨10,.lf,false,true,some 25,some ([],(none,false))⟩,⟨11,.vt,false,false,none,none⟩,⟨12,.ff,false,true,none,none⟩,⟨13,.cr,false,false,none,none⟩,⟨13,.cr,true,true,none,none⟩,⟨34,.other,false,false,none,none⟩,⟨39,.other,false,false,none,none⟩,⟨42,.other,false,false,none,none⟩,⟨47,.other,false,false,none,none⟩,⟨92,.other,false,false,none,none⟩]⟩,⟨false,none,[],[⟨256,.other,false,false,some 14,some ([.setEnt .internalNl,.cb,.code],(none,false))⟩,⟨9,.ws,false,false,some 15,some ([.setEnt .internalNl,.cb],(none,false))⟩,⟨10,.lf,false,true,some 26,some ([.setEnt .internalNl,.cb],(none,false))⟩,⟨11,.vt,false,false,some 14,some ([.setEnt .internalNl,.cb,.code],(none,false))⟩,⟨12,.ff,false,true,some 17,some ([.setEnt .internalNl,.cb],(none,false))⟩,⟨13,.cr,false,false,some 18,some ([.setEnt .internalNl,.cb],(none,false))⟩,⟨13,.cr,true,true,some 19,some ([.setEnt .internalNl,.cb],(none,false))⟩,⟨34,.other,false,false,some 14,some ([.setEnt .internalNl,.cb,.code],(none,false))⟩,⟨39,.other,false,false,none,some ([.setEnt .internalNl,.cb],(some 2,true))⟩,⟨42,.other,false,false,some 14,some ([.setEnt .internalNl,.cb,.code],(none,false))⟩,⟨47,.other,false,false,some 14,some ([.setEnt .internalNl,.cb,.code],(none,false))⟩,⟨92,.other,false,false,some 20,some ([.setEnt .internalNl,.cb],(none,false))⟩]⟩,⟨false,none,[],[⟨256,.other,false,false,some 27,some ([.code],(none,false))⟩,⟨9,.ws,false,false,some 27,some ([.code],(none,false))⟩,⟨10,.lf,false,true,none,none⟩,⟨11,.vt,false,false,some 27,some ([.code],(none,false))⟩,⟨12,.ff,false,true,none,none⟩,⟨13,.cr,false,false,none,none⟩,⟨13,.cr,true,true,none,none⟩,⟨34,.other,false,false,some 27,some ([.code],(none,false))⟩,⟨39,.other,false,false,some 27,some ([.code],(none,false))⟩,⟨42,.other,false,false,some 27,some ([.code],(none,false))⟩,⟨47,.other,false,false,some 27,some ([.code],(none,false))⟩,⟨92,.other,false,false,some 27,some ([.code],(none,false))⟩]⟩,⟨false,none,[],[⟨256,.other,false,false,some 28,some ([.comment],(none,false))⟩,⟨9,.ws,false,false,some 29,some ([],(none,false))⟩,⟨10,.lf,false,true,some 30,some ([],(none,false))⟩,⟨11,.vt,false,false,some 28,some ([.comment],(none,false))⟩,⟨12,.ff,false,true,some 31,some ([],(none,false))⟩,⟨13,.cr,false,false,some 32,some ([],(none,false))⟩,⟨13,.cr,true,true,some 33,some ([],(none,false))⟩,⟨34,.other,false,false,some 28,some ([.comment],(none,false))⟩,⟨39,.other,false,false,some 28,some ([.comment],(none,false))⟩,⟨42,.other,false,false,some 34,some ([.comment],(none,false))⟩,⟨47,.other,false,false,some 28,some ([.comment],(none,false))⟩,⟨92,.other,false,false,some 28,some ([.comment],(none,false))⟩]⟩,⟨false,none,[],[⟨256,.other,false,false,some 7,some ([.setEnt .internalNl,.cb,.code],(none,false))⟩,⟨9,.ws,false,false,some 8,some ([.setEnt .internalNl,.cb],(none,false))⟩,⟨10,.lf,false,true,some 9,some ([.setEnt .internalNl,.cb],(none,false))⟩,⟨11,.vt,false,false,some 7,some ([.setEnt .internalNl,.cb,.code],(none,false))⟩,⟨12,.ff,false,true,some 10,some ([.setEnt .internalNl,.cb],(none,false))⟩,⟨13,.cr,false,false,some 11,some ([.setEnt .internalNl,.cb],(none,false))⟩,⟨13,.cr,true,true,some 12,some ([.setEnt .internalNl,.cb],(none,false))⟩,⟨34,.other,false,false,none,some ([.setEnt .internalNl,.cb],(some 2,true))⟩,⟨39,.other,false,false,some 7,some ([.setEnt .internalNl,.cb,.code],(none,false))⟩,⟨42,.other,false,false,some 7,some ([.setEnt .internalNl,.cb,.code],(none,false))⟩,⟨47,.other,false,false,some 7,some ([.setEnt .internalNl,.cb,.code],(none,false))⟩,⟨92,.other,false,false,some 13,some ([.setEnt .internalNl,.cb],(none,false))⟩]⟩,⟨false,none,[],[⟨256,.other,false,false,some 7,some ([.setEnt .internalNl,.cb,.code],(none,false))⟩,⟨9,.ws,false,false,some 8,some ([.setEnt .internalNl,.cb],(none,false))⟩,⟨10,.lf,false,true,some 9,some ([.setEnt .internalNl,.cb],(none,false))⟩,⟨11,.vt,false,false,some 7,some ([.setEnt .internalNl,.cb,.code],(none,false))⟩,⟨12,.ff,false,true,some 10,some ([.setEnt .internalNl,.cb],(none,false))⟩,⟨13,.cr,false,false,some 11,some ([.setEnt .internalNl,.cb],(none,false))⟩,⟨13,.cr,true,true,some 12,some ([.setEnt .internalNl,.cb],(none,false))⟩,⟨34,.other,false,false,none,some ([.setEnt .internalNl,.cb],(some 2,true))⟩,⟨39,.other,false,false,some 7,some ([.setEnt .internalNl,.cb,.code],(none,false))⟩,⟨42,.other,false,false,some 7,some ([.setEnt .internalNl,.cb,.code],(none,false))⟩,⟨47,.other,false,false,some 7,some ([.setEnt .internalNl,.cb,.code],(none,false))⟩,⟨92,.other,false,false,some 13,some ([.setEnt .internalNl,.cb],(none,false))⟩]⟩,⟨false,none,[],[⟨256,.other,false,false,some 7,some ([.code],(none,false))⟩,⟨9,.ws,false,false,some 8,some ([],(none,false))⟩,⟨10,.lf,false,true,some 9,some ([],(none,false))⟩,⟨11,.vt,false,false,some 7,some ([.code],(none,false))⟩,⟨12,.ff,false,true,some 10,some ([],(none,false))⟩,⟨13,.cr,false,false,some 11,some ([],(none,false))⟩,⟨13,.cr,true,true,some 12,some ([],(none,false))⟩,⟨34,.other,false,false,none,some ([],(some 2,true))⟩,⟨39,.other,false,false,some 7,some ([.code],(none,false))⟩,⟨42,.other,false,false,some 7,some ([.code],(none,false))⟩,⟨47,.other,false,false,some 7,some ([.code],(none,false))⟩,⟨92,.other,false,false,some 13,some ([],(none,false))⟩]⟩,⟨false,none,[],[⟨256,.other,false,false,some 14,some ([.setEnt .internalNl,.cb,.code],(none,false))⟩,⟨9,.ws,false,false,some 15,some ([.setEnt .internalNl,.cb],(none,false))⟩,⟨10,.lf,false,true,some 16,some ([.setEnt .internalNl,.cb],(none,false))⟩,⟨11,.vt,false,false,some 14,some ([.setEnt .internalNl,.cb,.code],(none,false))⟩,⟨12,.ff,false,true,some 17,some ([.setEnt .internalNl,.cb],(none,false))⟩,⟨13,.cr,false,false,some 18,some ([.setEnt .internalNl,.cb],(none,false))⟩,⟨13,.cr,true,true,some 19,some ([.setEnt .internalNl,.cb],(none,false))⟩,⟨34,.other,false,false,some 14,some ([.setEnt .internalNl,.cb,.code],(none,false))⟩,⟨39,.other,false,false,none,some ([.setEnt .internalNl,.cb],(some 2,true))⟩,⟨42,.other,false,false,some 14,some ([.setEnt .internalNl,.cb,.code],(none,false))⟩,⟨47,.other,false,false,some 14,some ([.setEnt .internalNl,.cb,.code],(none,false))⟩,⟨92,.other,false,false,some 20,some ([.setEnt .internalNl,.cb],(none,false))⟩]⟩,⟨false,none,[],[⟨256,.other,false,false,some 14,some ([.setEnt .internalNl,.cb,.code],(none,false))⟩,⟨9,.ws,false,false,some 15,some ([.setEnt .internalNl,.cb],(none,false))⟩,⟨10,.lf,false,true,some 16,some ([.setEnt .internalNl,.cb],(none,false))⟩,⟨11,.vt,false,false,some 14,some ([.setEnt .internalNl,.cb,.code],(none,false))⟩,⟨12,.ff,false,true,some 17,some ([.setEnt .internalNl,.cb],(none,false))⟩,⟨13,.cr,false,false,some 18,some ([.setEnt .internalNl,.cb],(none,false))⟩,⟨13,.cr,true,true,some 19,some ([.setEnt .internalNl,.cb],(none,false))⟩,⟨34,.other,false,false,some 14,some ([.setEnt .internalNl,.cb,.code],(none,false))⟩,⟨39,.other,false,false,none,some ([.setEnt .internalNl,.cb],(some 2,true))⟩,⟨42,.other,false,false,some 14,some ([.setEnt .internalNl,.cb,.code],(none,false))⟩,⟨47,.other,false,false,some 14,some ([.setEnt .internalNl,.cb,.code],(none,false))⟩,⟨92,.other,false,false,some 20,some ([.setEnt .internalNl,.cb],(none,false))⟩]⟩,⟨false,none,[],[⟨256,.other,false,false,some 14,some ([.code],(none,false))⟩,⟨9,.ws,false,false,some 15,some ([],(none,false))⟩,⟨10,.lf,false,true,some 16,some ([],(none,false))⟩,⟨11,.vt,false,false,some 14,some ([.code],(none,false))⟩,⟨12,.ff,false,true,some 17,some ([],(none,false))⟩,⟨13,.cr,false,false,some 18,some ([],(none,false))⟩,⟨13,.cr,true,true,some 19,some ([],(none,false))⟩,⟨34,.other,false,false,some 14,some ([.code],(none,false))⟩,⟨39,.other,false,false,none,some ([],(some 2,true))⟩,⟨42,.other,false,false,some 14,some ([.code],(none,false))⟩,⟨47,.other,false,false,some 14,some ([.code],(none,false))⟩,⟨92,.other,false,false,some 20,some ([],(none,false))⟩]⟩,⟨false,none,[],[⟨256,.other,false,false,some 28,some ([.comment],(none,false))⟩,⟨9,.ws,false,false,some 29,some ([],(none,false))⟩,⟨10,.lf,false,true,some 30,some ([],(none,false))⟩,⟨11,.vt,false,false,some 28,some ([.comment],(none,false))⟩,⟨12,.ff,false,true,some 31,some ([],(none,false))⟩,⟨13,.cr,false,false,some 32,some ([],(none,false))⟩,⟨13,.cr,true,true,some 33,some ([],(none,false))⟩,⟨34,.other,false,false,some 28,some ([.comment],(none,false))⟩,⟨39,.other,false,false,some 28,some ([.comment],(none,false))⟩,⟨42,.other,false,false,some 34,some ([.comment],(none,false))⟩,⟨47,.other,false,false,some 28,some ([.comment],(none,false))⟩,⟨92,.other,false,false,some 28,some ([.comment],(none,false))⟩]⟩,⟨false,none,[],[⟨256,.other,false,false,some 28,some ([.comment],(none,false))⟩,⟨9,.ws,false,false,some 29,some ([],(none,false))⟩,⟨10,.lf,false,true,some 30,some ([],(none,false))⟩,⟨11,.vt,false,false,some 28,some ([.comment],(none,false))⟩,⟨12,.ff,false,true,some 31,some ([],(none,false))⟩,⟨13,.cr,false,false,some 32,some ([],(none,false))⟩,⟨13,.cr,true,true,some 33,some ([],(none,false))⟩,⟨34,.other,false,false,some 28,some ([.comment],(none,false))⟩,⟨39,.other,false,false,some 28,some ([.comment],(none,false))⟩,⟨42,.other,false,false,some 34,some ([.comment],(none,false))⟩,⟨47,.other,false,false,some 28,some ([.comment],(none,false))⟩,⟨92,.other,false,false,some 28,some ([.comment],(none,false))⟩]⟩,⟨false,none,[],[⟨256,.other,false,false,some 28,some ([.setEnt .internalNl,.cb,.comment],(none,false))⟩,⟨9,.ws,false,false,some 29,some ([.setEnt .internalNl,.cb],(none,false))⟩,⟨10,.lf,false,true,some 30,some ([.setEnt .internalNl,.cb],(none,false))⟩,⟨11,.vt,false,false,some 28,some ([.setEnt .internalNl,.cb,.comment],(none,false))⟩,⟨12,.ff,false,true,some 31,some ([.setEnt .internalNl,.cb],(none,false))⟩,⟨13,.cr,false,false,some 32,some ([.setEnt .internalNl,.cb],(none,false))⟩,⟨13,.cr,true,true,some 33,some ([.setEnt .internalNl,.cb],(none,false))⟩,⟨34,.other,false,false,some 28,some ([.setEnt .internalNl,.cb,.comment],(none,false))⟩,⟨39,.other,false,false,some 28,some ([.setEnt .internalNl,.cb,.comment],(none,false))⟩,⟨42,.other,false,false,some 34,some ([.setEnt .internalNl,.cb,.comment],(none,false))⟩,⟨47,.other,false,false,some 28,some ([.setEnt .internalNl,.cb,.comment],(none,false))⟩,⟨92,.other,false,false,some 28,some ([.setEnt .internalNl,.cb,.comment],(none,false))⟩]⟩,⟨false,none,[],[⟨256,.other,false,false,some 28,some ([.setEnt .internalNl,.cb,.comment],(none,false))⟩,⟨9,.ws,false,false,some 29,some ([.setEnt .internalNl,.cb],(none,false))⟩,⟨10,.lf,false,true,some 30,some ([.setEnt .internalNl,.cb],(none,false))⟩,⟨11,.vt,false,false,some 28,some ([.setEnt .internalNl,.cb,.comment],(none,false))⟩,⟨12,.ff,false,true,some 31,some ([.setEnt .internalNl,.cb],(none,false))⟩,⟨13,.cr,false,false,some 32,some ([.setEnt .internalNl,.cb],(none,false))⟩,⟨13,.cr,true,true,some 33,some ([.setEnt .internalNl,.cb],(none,false))⟩,⟨34,.other,false,false,some 28,some ([.setEnt .internalNl,.cb,.comment],(none,false))⟩,⟨39,.other,false,false,some 28,some ([.setEnt .internalNl,.cb,.comment],(none,false))⟩,⟨42,.other,false,false,some 34,some ([.setEnt .internalNl,.cb,.comment],(none,false))⟩,⟨47,.other,false,false,some 28,some ([.setEnt .internalNl,.cb,.comment],(none,false))⟩,⟨92,.other,false,false,some 28,some ([.setEnt .internalNl,.cb,.comment],(none,false))⟩]⟩,⟨false,none,[],[⟨256,.other,false,false,none,none⟩,⟨9,.ws,false,false,none,none⟩,⟨10,.lf,false,true,some 35,some ([],(none,false))⟩,⟨11,.vt,false,false,none,none⟩,⟨12,.ff,false,true,none,none⟩,⟨13,.cr,false,false,none,none⟩,⟨13,.cr,true,true,none,none⟩,⟨34,.other,false,false,none,none⟩,⟨39,.other,false,false,none,none⟩,⟨42,.other,false,false,none,none⟩,⟨47,.other,false,false,none,none⟩,⟨92,.other,false,false,none,none⟩]⟩,⟨false,none,[],[⟨256,.other,false,false,some 28,some ([.setEnt .internalNl,.cb,.comment],(none,false))⟩,⟨9,.ws,false,false,some 29,some ([.setEnt .internalNl,.cb],(none,false))⟩,⟨10,.lf,false,true,some 36,some ([.setEnt .internalNl,.cb],(none,false))⟩,⟨11,.vt,false,false,some 28,some ([.setEnt .internalNl,.cb,.comment],(none,false))⟩,⟨12,.ff,false,true,some 31,some ([.setEnt .internalNl,.cb],(none,false))⟩,⟨13,.cr,false,false,some 32,some ([.setEnt .internalNl,.cb],(none,false))⟩,⟨13,.cr,true,true,some 33,some ([.setEnt .internalNl,.cb],(none,false))⟩,⟨34,.other,false,false,some 28,some ([.setEnt .internalNl,.cb,.comment],(none,false))⟩,⟨39,.other,false,false,some 28,some ([.setEnt .internalNl,.cb,.comment],(none,false))⟩,⟨42,.other,false,false,some 34,some ([.setEnt .internalNl,.cb,.comment],(none,false))⟩,⟨47,.other,false,false,some 28,some ([.setEnt .internalNl,.cb,.comment],(none,false))⟩,⟨92,.other,false,false,some 28,some ([.setEnt .internalNl,.cb,.comment],(none,false))⟩]⟩,⟨false,none,[],[⟨256,.other,false,false,some 28,some ([.comment],(none,false))⟩,⟨9,.ws,false,false,some 29,some ([],(none,false))⟩,⟨10,.lf,false,true,some 30,some ([],(none,false))⟩,⟨11,.vt,false,false,some 28,some ([.comment],(none,false))⟩,⟨12,.ff,false,true,some 31,some ([],(none,false))⟩,⟨13,.cr,false,false,some 32,some ([],(none,false))⟩,⟨13,.cr,true,true,some 33,some ([],(none,false))⟩,⟨34,.other,false,false,some 28,some ([.comment],(none,false))⟩,⟨39,.other,false,false,some 28,some ([.comment],(none,false))⟩,⟨42,.other,false,false,some 34,some ([.comment],(none,false))⟩,⟨47,.other,false,false,none,some ([],(some 1,true))⟩,⟨92,.other,false,false,some 28,some ([.comment],(none,false))⟩]⟩,⟨false,none,[],[⟨256,.other,false,false,some 28,some ([.setEnt .internalNl,.cb,.comment],(none,false))⟩,⟨9,.ws,false,false,some 29,some ([.setEnt .internalNl,.cb],(none,false))⟩,⟨10,.lf,false,true,some 30,some ([.setEnt .internalNl,.cb],(none,false))⟩,⟨11,.vt,false,false,some 28,some ([.setEnt .internalNl,.cb,.comment],(none,false))⟩,⟨12,.ff,false,true,some 31,some ([.setEnt .internalNl,.cb],(none,false))⟩,⟨13,.cr,false,false,some 32,some ([.setEnt .internalNl,.cb],(none,false))⟩,⟨13,.cr,true,true,some 33,some ([.setEnt .internalNl,.cb],(none,false))⟩,⟨34,.other,false,false,some 28,some ([.setEnt .internalNl,.cb,.comment],(none,false))⟩,⟨39,.other,false,false,some 28,some ([.setEnt .internalNl,.cb,.comment],(none,false))⟩,⟨42,.other,false,false,some 34,some ([.setEnt .internalNl,.cb,.comment],(none,false))⟩,⟨47,.other,false,false,some 28,some ([.setEnt .internalNl,.cb,.comment],(none,false))⟩,⟨92,.other,false,false,some 28,some ([.setEnt .internalNl,.cb,.comment],(none,false))⟩]⟩,⟨false,none,[],[⟨256,.other,false,false,some 28,some ([.setEnt .internalNl,.cb,.comment],(none,false))⟩,⟨9,.ws,false,false,some 29,some ([.setEnt .internalNl,.cb],(none,false))⟩,⟨10,.lf,false,true,some 30,some ([.setEnt .internalNl,.cb],(none,false))⟩,⟨11,.vt,false,false,some 28,some ([.setEnt .internalNl,.cb,.comment],(none,false))⟩,⟨12,.ff,false,true,some 31,some ([.setEnt .internalNl,.cb],(none,false))⟩,⟨13,.cr,false,false,some 32,some ([.setEnt .internalNl,.cb],(none,false))⟩,⟨13,.cr,true,true,some 33,some ([.setEnt .internalNl,.cb],(none,false))⟩,⟨34,.other,false,false,some 28,some ([.setEnt .internalNl,.cb,.comment],(none,false))⟩,⟨39,.other,false,false,some 28,some ([.setEnt .internalNl,.cb,.comment],(none,false))⟩,⟨42,.other,false,false,some 34,some ([.setEnt .internalNl,.cb,.comment],(none,false))⟩,⟨47,.other,false,false,some 28,some ([.setEnt .internalNl,.cb,.comment],(none,false))⟩,⟨92,.other,false,false,some 28,some ([.setEnt .internalNl,.cb,.comment],(none,false))⟩]⟩]
theorem css_line_lfrOk : css_line_lrows.map (CA.prep css_line_lex) = css_line_lfr := by decide +kernel
def css_line_lTab : List CT := [(.node (.node (.node (.node (.node (.node .leaf 128 [⟨⟨.code,[],.lcode,false,[],false⟩,false,false,[],none,none,none,false,false,false,none,false,⟨.lcode,none,false,.lblank⟩⟩] .leaf) 38019 [⟨⟨.code,[],.lcode,true,[],false⟩,false,false,[],none,none,none,false,false,false,none,false,⟨.lblank,none,false,.lblank⟩⟩] .leaf) 148108 [⟨⟨.code,[],.lcomment,false,[],false⟩,false,false,[],none,none,none,false,false,false,none,false,⟨.lcomment,none,false,.lblank⟩⟩] (.node .leaf 185487 [⟨⟨.code,[],.lcomment,true,[],false⟩,false,false,[],none,none,none,false,false,false,none,false,⟨.lblank,none,false,.lblank⟩⟩] .leaf)) 296088 [⟨⟨.code,[],.lblank,false,[],false⟩,false,false,[],none,none,none,false,false,false,none,false,⟨.lblank,none,false,.lblank⟩⟩] (.node (.node (.node .leaf 332955 [⟨⟨.code,[],.lblank,true,[],false⟩,false,false,[],none,none,none,false,false,false,none,false,⟨.lblank,none,false,.lblank⟩⟩] .leaf) 1769744 [⟨⟨.code,[47],.lcode,false,[],false⟩,false,false,[none],none,none,none,false,false,false,none,false,⟨.lcode,none,false,.lblank⟩⟩] .leaf) 20769801 [⟨⟨.code,[47],.lcode,false,[],false⟩,false,false,[some (9,(.ws,false))],none,none,none,false,false,false,none,false,⟨.lcode,none,false,.lblank⟩⟩] (.node .leaf 21088052 [⟨⟨.code,[47],.lcomment,false,[],false⟩,false,false,[none],none,none,none,false,false,false,none,false,⟨.lcode,none,false,.lblank⟩⟩] .leaf))) 22769807 [⟨⟨.code,[47],.lcode,false,[],false⟩,false,false,[some (10,(.lf,false))],none,none,none,false,false,false,none,false,⟨.lcode,none,false,.lblank⟩⟩] (.node (.node (.node (.node .leaf 26769819 [⟨⟨.code,[47],.lcode,false,[],false⟩,false,false,[some (12,(.ff,false))],none,none,none,false,false,false,none,false,⟨.lcode,none,false,.lblank⟩⟩] .leaf) 28769825 [⟨⟨.code,[47],.lcode,false,[],false⟩,false,false,[some (13,(.cr,false))],none,none,none,false,false,false,none,false,⟨.lcode,none,false,.lblank⟩⟩] .leaf) 29769828 [⟨⟨.code,[47],.lcode,false,[],false⟩,false,false,[some (13,(.cr,true))],none,none,none,false,false,false,none,false,⟨.lcode,none,false,.lblank⟩⟩] (.node .leaf 40088109 [⟨⟨.code,[47],.lcomment,false,[],false⟩,false,false,[some (9,(.ws,false))],none,none,none,false,false,false,none,false,⟨.lcode,none,false,.lblank⟩⟩] .leaf)) 40406360 [⟨⟨.code,[47],.lblank,false,[],false⟩,false,false,[none],none,none,none,false,false,false,none,false,⟨.lcode,none,false,.lblank⟩⟩] (.node (.node (.node .leaf 42088115 [⟨⟨.code,[47],.lcomment,false,[],false⟩,false,false,[some (10,(.lf,false))],none,none,none,false,false,false,none,false,⟨.lcode,none,false,.lblank⟩⟩] .leaf) 46088127 [⟨⟨.code,[47],.lcomment,false,[],false⟩,false,false,[some (12,(.ff,false))],none,none,none,false,false,false,none,false,⟨.lcode,none,false,.lblank⟩⟩] .leaf) 48088133 [⟨⟨.code,[47],.lcomment,false,[],false⟩,false,false,[some (13,(.cr,false))],none,none,none,false,false,false,none,false,⟨.lcode,none,false,.lblank⟩⟩] (.node .leaf 49088136 [⟨⟨.code,[47],.lcomment,false,[],false⟩,false,false,[some (13,(.cr,true))],none,none,none,false,false,false,none,false,⟨.lcode,none,false,.lblank⟩⟩] .leaf)))) 59406417 [⟨⟨.code,[47],.lblank,false,[],false⟩,false,false,[some (9,(.ws,false))],none,none,none,false,false,false,none,false,⟨.lcode,none,false,.lblank⟩⟩] (.node (.node (.node (.node (.node .leaf 61406423 [⟨⟨.code,[47],.lblank,false,[],false⟩,false,false,[some (10,(.lf,false))],none,none,none,false,false,false,none,false,⟨.lcode,none,false,.lblank⟩⟩] .leaf) 65406435 [⟨⟨.code,[47],.lblank,false,[],false⟩,false,false,[some (12,(.ff,false))],none,none,none,false,false,false,none,false,⟨.lcode,none,false,.lblank⟩⟩] .leaf) 67406441 [⟨⟨.code,[47],.lblank,false,[],false⟩,false,false,[some (13,(.cr,false))],none,none,none,false,false,false,none,false,⟨.lcode,none,false,.lblank⟩⟩] (.node .leaf 68406444 [⟨⟨.code,[47],.lblank,false,[],false⟩,false,false,[some (13,(.cr,true))],none,none,none,false,false,false,none,false,⟨.lcode,none,false,.lblank⟩⟩] .leaf)) 70769951 [⟨⟨.code,[47],.lcode,false,[],false⟩,false,false,[some (34,(.other,false))],none,none,none,false,false,false,none,false,⟨.lcode,none,false,.lblank⟩⟩] (.node (.node (.node .leaf 80769981 [⟨⟨.code,[47],.lcode,false,[],false⟩,false,false,[some (39,(.other,false))],none,none,none,false,false,false,none,false,⟨.lcode,none,false,.lblank⟩⟩] .leaf) 90088259 [⟨⟨.code,[47],.lcomment,false,[],false⟩,false,false,[some (34,(.other,false))],none,none,none,false,false,false,none,false,⟨.lcode,none,false,.lblank⟩⟩] .leaf) 96770029 [⟨⟨.code,[47],.lcode,false,[],false⟩,false,false,[some (47,(.other,false))],none,none,none,false,false,false,none,false,⟨.lcode,none,false,.lblank⟩⟩] (.node .leaf 100088289 [⟨⟨.code,[47],.lcomment,false,[],false⟩,false,false,[some (39,(.other,false))],none,none,none,false,false,false,none,false,⟨.lcode,none,false,.lblank⟩⟩] .leaf))) 109406567 [⟨⟨.code,[47],.lblank,false,[],false⟩,false,false,[some (34,(.other,false))],none,none,none,false,false,false,none,false,⟨.lcode,none,false,.lblank⟩⟩] (.node (.node (.node (.node .leaf 116088337 [⟨⟨.code,[47],.lcomment,false,[],false⟩,false,false,[some (47,(.other,false))],none,none,none,false,false,false,none,false,⟨.lcode,none,false,.lblank⟩⟩] .leaf) 119406597 [⟨⟨.code,[47],.lblank,false,[],false⟩,false,false,[some (39,(.other,false))],none,none,none,false,false,false,none,false,⟨.lcode,none,false,.lblank⟩⟩] .leaf) 135406645 [⟨⟨.code,[47],.lblank,false,[],false⟩,false,false,[some (47,(.other,false))],none,none,none,false,false,false,none,false,⟨.lcode,none,false,.lblank⟩⟩] (.node .leaf 186770299 [⟨⟨.code,[47],.lcode,false,[],false⟩,false,false,[some (92,(.other,false))],none,none,none,false,false,false,none,false,⟨.lcode,none,false,.lblank⟩⟩] .leaf)) 206088607 [⟨⟨.code,[47],.lcomment,false,[],false⟩,false,false,[some (92,(.other,false))],none,none,none,false,false,false,none,false,⟨.lcode,none,false,.lblank⟩⟩] (.node (.node (.node .leaf 225406915 [⟨⟨.code,[47],.lblank,false,[],false⟩,false,false,[some (92,(.other,false))],none,none,none,false,false,false,none,false,⟨.lcode,none,false,.lblank⟩⟩] .leaf) 514771283 [⟨⟨.code,[47],.lcode,false,[],false⟩,false,false,[some (256,(.other,false))],none,none,none,false,false,false,none,false,⟨.lcode,none,false,.lblank⟩⟩] .leaf) 534089591 [⟨⟨.code,[47],.lcomment,false,[],false⟩,false,false,[some (256,(.other,false))],none,none,none,false,false,false,none,false,⟨.lcode,none,false,.lblank⟩⟩] (.node .leaf 553407899 [⟨⟨.code,[47],.lblank,false,[],false⟩,false,false,[some (256,(.other,false))],none,none,none,false,false,false,none,false,⟨.lcode,none,false,.lblank⟩⟩] .leaf))))),(.node (.node .leaf 128 [⟨⟨.code,[],.lcode,false,[],false⟩,false,false,[],none,none,none,false,false,false,none,false,⟨.lcode,some (.own 0),false,.lblank⟩⟩] .leaf) 148108 [⟨⟨.code,[],.lcomment,false,[],false⟩,false,false,[],none,none,none,false,false,false,none,false,⟨.lcomment,some (.own 0),false,.lblank⟩⟩] (.node .leaf 296088 [⟨⟨.code,[],.lblank,false,[],false⟩,false,false,[],none,none,none,false,false,false,none,false,⟨.lblank,some (.own 0),false,.lblank⟩⟩] .leaf)),(.node (.node .leaf 160 [⟨⟨.code,[],.lcode,false,[],false⟩,true,false,[],none,none,none,false,false,false,none,false,⟨.lcode,some .newline,false,.lblank⟩⟩] .leaf) 148140 [⟨⟨.code,[],.lcomment,false,[],false⟩,true,false,[],none,none,none,false,false,false,none,false,⟨.lcomment,some .newline,false,.lblank⟩⟩] (.node .leaf 296120 [⟨⟨.code,[],.lblank,false,[],false⟩,true,false,[],none,none,none,false,false,false,none,false,⟨.lblank,some .newline,false,.lblank⟩⟩] .leaf)),(.node (.node .leaf 37011 [⟨⟨.code,[],.lcode,true,[],false⟩,false,true,[],none,none,none,false,false,false,none,false,⟨.lcode,some .newline,false,.lblank⟩⟩] .leaf) 184991 [⟨⟨.code,[],.lcomment,true,[],false⟩,false,true,[],none,none,none,false,false,false,none,false,⟨.lcomment,some .newline,false,.lblank⟩⟩] (.node .leaf 332971 [⟨⟨.code,[],.lblank,true,[],false⟩,false,true,[],none,none,none,false,false,false,none,false,⟨.lblank,some .newline,false,.lblank⟩⟩] .leaf)),(.node .leaf 7078592 [⟨⟨(.inside 2),[],.lcode,false,[],false⟩,false,false,[],none,none,none,false,false,false,none,false,⟨.lcode,some (.own 9),false,.lblank⟩⟩] .leaf),(.node .leaf 4129232 [⟨⟨(.inside 1),[],.lcode,false,[],false⟩,false,false,[],none,none,none,false,false,false,none,false,⟨.lcode,some (.own 9),false,.lblank⟩⟩] .leaf),(.node (.node (.node .leaf 1769744 [⟨⟨.code,[47],.lcode,false,[],false⟩,false,false,[],none,none,none,false,false,false,none,false,⟨.lcode,some (.own 9),false,.lblank⟩⟩] .leaf) 1769746 [⟨⟨.code,[47],.lcode,false,[],false⟩,false,false,[],none,none,none,false,false,true,none,false,⟨.lcode,some (.own 9),false,.lblank⟩⟩] .leaf) 21088566 [⟨⟨.code,[47],.lcomment,false,[],false⟩,false,false,[],none,none,none,false,false,true,none,false,⟨.lcomment,some (.own 9),false,.lblank⟩⟩] (.node .leaf 40407386 [⟨⟨.code,[47],.lblank,false,[],false⟩,false,false,[],none,none,none,false,false,true,none,false,⟨.lblank,some (.own 9),false,.lblank⟩⟩] .leaf)),(.node (.node .leaf 7522021 [⟨⟨(.inside 2),[],.lcode,false,[],false⟩,false,false,[],some 4,some ⟨(.inside 2),[],.lcode,false,[],false⟩,none,false,false,false,none,false,⟨.lcode,some (.own 9),false,.lblank⟩⟩] .leaf) 7522029 [⟨⟨(.inside 2),[],.lcode,false,[],false⟩,false,false,[],some 4,some ⟨(.inside 2),[],.lcode,false,[],false⟩,none,true,false,false,none,false,⟨.lcode,some .internalNl,false,.lblank⟩⟩] .leaf),(.node (.node .leaf 7522021 [⟨⟨(.inside 2),[],.lcode,false,[],false⟩,false,false,[],some 4,some ⟨(.inside 2),[],.lcode,false,[],false⟩,none,false,false,false,none,false,⟨.lcode,some (.own 9),false,.lblank⟩⟩] .leaf) 7522029 [⟨⟨(.inside 2),[],.lcode,false,[],false⟩,false,false,[],some 4,some ⟨(.inside 2),[],.lcode,false,[],false⟩,none,true,false,false,none,false,⟨.lcode,some .internalNl,false,.lblank⟩⟩] (.node .leaf 7817989 [⟨⟨(.inside 2),[],.lblank,false,[],false⟩,false,false,[],some 4,some ⟨(.inside 2),[],.lcode,false,[],false⟩,none,true,false,false,none,false,⟨.lblank,some .internalNl,false,.lblank⟩⟩] .leaf)),(.node (.node .leaf 7558888 [⟨⟨(.inside 2),[],.lcode,true,[],false⟩,false,false,[],some 4,some ⟨(.inside 2),[],.lcode,false,[],false⟩,none,false,false,false,none,false,⟨.lcode,some (.own 9),false,.lblank⟩⟩] .leaf) 7558896 [⟨⟨(.inside 2),[],.lcode,true,[],false⟩,false,false,[],some 4,some ⟨(.inside 2),[],.lcode,false,[],false⟩,none,true,false,false,none,false,⟨.lcode,some .internalNl,false,.lblank⟩⟩] (.node .leaf 7854856 [⟨⟨(.inside 2),[],.lblank,true,[],false⟩,false,false,[],some 4,some ⟨(.inside 2),[],.lcode,false,[],false⟩,none,true,false,false,none,false,⟨.lblank,some .internalNl,false,.lblank⟩⟩] .leaf)),(.node (.node .leaf 7558888 [⟨⟨(.inside 2),[],.lcode,true,[],false⟩,false,false,[],some 4,some ⟨(.inside 2),[],.lcode,false,[],false⟩,none,false,false,false,none,false,⟨.lcode,some (.own 9),false,.lblank⟩⟩] .leaf) 7558896 [⟨⟨(.inside 2),[],.lcode,true,[],false⟩,false,false,[],some 4,some ⟨(.inside 2),[],.lcode,false,[],false⟩,none,true,false,false,none,false,⟨.lcode,some .internalNl,false,.lblank⟩⟩] (.node .leaf 7854856 [⟨⟨(.inside 2),[],.lblank,true,[],false⟩,false,false,[],some 4,some ⟨(.inside 2),[],.lcode,false,[],false⟩,none,true,false,false,none,false,⟨.lblank,some .internalNl,false,.lblank⟩⟩] .leaf)),(.node (.node .leaf 7522053 [⟨⟨(.inside 2),[],.lcode,false,[],false⟩,true,false,[],some 4,some ⟨(.inside 2),[],.lcode,false,[],false⟩,none,false,false,false,none,false,⟨.lcode,some (.own 9),false,.lblank⟩⟩] .leaf) 7522061 [⟨⟨(.inside 2),[],.lcode,false,[],false⟩,true,false,[],some 4,some ⟨(.inside 2),[],.lcode,false,[],false⟩,none,true,false,false,none,false,⟨.lcode,some .internalNl,false,.lblank⟩⟩] (.node .leaf 7818021 [⟨⟨(.inside 2),[],.lblank,false,[],false⟩,true,false,[],some 4,some ⟨(.inside 2),[],.lcode,false,[],false⟩,none,true,false,false,none,false,⟨.lblank,some .internalNl,false,.lblank⟩⟩] .leaf)),(.node (.node .leaf 7558904 [⟨⟨(.inside 2),[],.lcode,true,[],false⟩,false,true,[],some 4,some ⟨(.inside 2),[],.lcode,false,[],false⟩,none,false,false,false,none,false,⟨.lcode,some (.own 9),false,.lblank⟩⟩] .leaf) 7558912 [⟨⟨(.inside 2),[],.lcode,true,[],false⟩,false,true,[],some 4,some ⟨(.inside 2),[],.lcode,false,[],false⟩,none,true,false,false,none,false,⟨.lcode,some .internalNl,false,.lblank⟩⟩] (.node .leaf 7854872 [⟨⟨(.inside 2),[],.lblank,true,[],false⟩,false,true,[],some 4,some ⟨(.inside 2),[],.lcode,false,[],false⟩,none,true,false,false,none,false,⟨.lblank,some .internalNl,false,.lblank⟩⟩] .leaf)),(.node (.node .leaf 931150972 [⟨⟨(.inside 2),[92],.lcode,false,[],false⟩,false,false,[],some 4,some ⟨(.inside 2),[],.lcode,false,[],false⟩,none,false,false,false,none,false,⟨.lcode,some (.own 9),false,.lblank⟩⟩] .leaf) 931150980 [⟨⟨(.inside 2),[92],.lcode,false,[],false⟩,false,false,[],some 4,some ⟨(.inside 2),[],.lcode,false,[],false⟩,none,true,false,false,none,false,⟨.lcode,some .internalNl,false,.lblank⟩⟩] (.node .leaf 969788620 [⟨⟨(.inside 2),[92],.lblank,false,[],false⟩,false,false,[],some 4,some ⟨(.inside 2),[],.lcode,false,[],false⟩,none,true,false,false,none,false,⟨.lblank,some .internalNl,false,.lblank⟩⟩] .leaf)),(.node (.node .leaf 4388101 [⟨⟨(.inside 1),[],.lcode,false,[],false⟩,false,false,[],some 4,some ⟨(.inside 1),[],.lcode,false,[],false⟩,none,false,false,false,none,false,⟨.lcode,some (.own 9),false,.lblank⟩⟩] .leaf) 4388109 [⟨⟨(.inside 1),[],.lcode,false,[],false⟩,false,false,[],some 4,some ⟨(.inside 1),[],.lcode,false,[],false⟩,none,true,false,false,none,false,⟨.lcode,some .internalNl,false,.lblank⟩⟩] .leaf),(.node (.node .leaf 4388101 [⟨⟨(.inside 1),[],.lcode,false,[],false⟩,false,false,[],some 4,some ⟨(.inside 1),[],.lcode,false,[],false⟩,none,false,false,false,none,false,⟨.lcode,some (.own 9),false,.lblank⟩⟩] .leaf) 4388109 [⟨⟨(.inside 1),[],.lcode,false,[],false⟩,false,false,[],some 4,some ⟨(.inside 1),[],.lcode,false,[],false⟩,none,true,false,false,none,false,⟨.lcode,some .internalNl,false,.lblank⟩⟩] (.node .leaf 4684069 [⟨⟨(.inside 1),[],.lblank,false,[],false⟩,false,false,[],some 4,some ⟨(.inside 1),[],.lcode,false,[],false⟩,none,true,false,false,none,false,⟨.lblank,some .internalNl,false,.lblank⟩⟩] .leaf)),(.node (.node .leaf 4424968 [⟨⟨(.inside 1),[],.lcode,true,[],false⟩,false,false,[],some 4,some ⟨(.inside 1),[],.lcode,false,[],false⟩,none,false,false,false,none,false,⟨.lcode,some (.own 9),false,.lblank⟩⟩] .leaf) 4424976 [⟨⟨(.inside 1),[],.lcode,true,[],false⟩,false,false,[],some 4,some ⟨(.inside 1),[],.lcode,false,[],false⟩,none,true,false,false,none,false,⟨.lcode,some .internalNl,false,.lblank⟩⟩] (.node .leaf 4720936 [⟨⟨(.inside 1),[],.lblank,true,[],false⟩,false,false,[],some 4,some ⟨(.inside 1),[],.lcode,false,[],false⟩,none,true,false,false,none,false,⟨.lblank,some .internalNl,false,.lblank⟩⟩] .leaf)),(.node (.node .leaf 4424968 [⟨⟨(.inside 1),[],.lcode,true,[],false⟩,false,false,[],some 4,some ⟨(.inside 1),[],.lcode,false,[],false⟩,none,false,false,false,none,false,⟨.lcode,some (.own 9),false,.lblank⟩⟩] .leaf) 4424976 [⟨⟨(.inside 1),[],.lcode,true,[],false⟩,false,false,[],some 4,some ⟨(.inside 1),[],.lcode,false,[],false⟩,none,true,false,false,none,false,⟨.lcode,some .internalNl,false,.lblank⟩⟩] (.node .leaf 4720936 [⟨⟨(.inside 1),[],.lblank,true,[],false⟩,false,false,[],some 4,some ⟨(.inside 1),[],.lcode,false,[],false⟩,none,true,false,false,none,false,⟨.lblank,some .internalNl,false,.lblank⟩⟩] .leaf)),(.node (.node .leaf 4388133 [⟨⟨(.inside 1),[],.lcode,false,[],false⟩,true,false,[],some 4,some ⟨(.inside 1),[],.lcode,false,[],false⟩,none,false,false,false,none,false,⟨.lcode,some (.own 9),false,.lblank⟩⟩] .leaf) 4388141 [⟨⟨(.inside 1),[],.lcode,false,[],false⟩,true,false,[],some 4,some ⟨(.inside 1),[],.lcode,false,[],false⟩,none,true,false,false,none,false,⟨.lcode,some .internalNl,false,.lblank⟩⟩] (.node .leaf 4684101 [⟨⟨(.inside 1),[],.lblank,false,[],false⟩,true,false,[],some 4,some ⟨(.inside 1),[],.lcode,false,[],false⟩,none,true,false,false,none,false,⟨.lblank,some .internalNl,false,.lblank⟩⟩] .leaf)),(.node (.node .leaf 4424984 [⟨⟨(.inside 1),[],.lcode,true,[],false⟩,false,true,[],some 4,some ⟨(.inside 1),[],.lcode,false,[],false⟩,none,false,false,false,none,false,⟨.lcode,some (.own 9),false,.lblank⟩⟩] .leaf) 4424992 [⟨⟨(.inside 1),[],.lcode,true,[],false⟩,false,true,[],some 4,some ⟨(.inside 1),[],.lcode,false,[],false⟩,none,true,false,false,none,false,⟨.lcode,some .internalNl,false,.lblank⟩⟩] (.node .leaf 4720952 [⟨⟨(.inside 1),[],.lblank,true,[],false⟩,false,true,[],some 4,some ⟨(.inside 1),[],.lcode,false,[],false⟩,none,true,false,false,none,false,⟨.lblank,some .internalNl,false,.lblank⟩⟩] .leaf)),(.node (.node .leaf 544600252 [⟨⟨(.inside 1),[92],.lcode,false,[],false⟩,false,false,[],some 4,some ⟨(.inside 1),[],.lcode,false,[],false⟩,none,false,false,false,none,false,⟨.lcode,some (.own 9),false,.lblank⟩⟩] .leaf) 544600260 [⟨⟨(.inside 1),[92],.lcode,false,[],false⟩,false,false,[],some 4,some ⟨(.inside 1),[],.lcode,false,[],false⟩,none,true,false,false,none,false,⟨.lcode,some .internalNl,false,.lblank⟩⟩] (.node .leaf 583237900 [⟨⟨(.inside 1),[92],.lblank,false,[],false⟩,false,false,[],some 4,some ⟨(.inside 1),[],.lcode,false,[],false⟩,none,true,false,false,none,false,⟨.lblank,some .internalNl,false,.lblank⟩⟩] .leaf)),(.node (.node .leaf 607292911 [⟨⟨(.inside 0),[],.lcode,false,[],false⟩,false,false,[],some 4,some ⟨.code,[47],.lcode,false,[],false⟩,some ([(42,(.other,false))],false),false,false,false,none,false,⟨.lcode,some (.own 9),false,.lblank⟩⟩] .leaf) 608649759 [⟨⟨(.inside 0),[],.lcomment,false,[],false⟩,false,false,[],some 4,some ⟨.code,[47],.lcomment,false,[],false⟩,some ([(42,(.other,false))],false),false,false,false,none,false,⟨.lcomment,some (.own 9),false,.lblank⟩⟩] (.node .leaf 609858627 [⟨⟨(.inside 0),[],.lcomment,false,[],false⟩,false,false,[],some 4,some ⟨.code,[47],.lblank,false,[],false⟩,some ([(42,(.other,false))],false),false,false,false,none,false,⟨.lcomment,some (.own 9),false,.lblank⟩⟩] .leaf)),(.node (.node .leaf 7558888 [⟨⟨(.inside 2),[],.lcode,true,[],false⟩,false,false,[],some 4,some ⟨(.inside 2),[],.lcode,false,[],false⟩,none,false,false,false,none,false,⟨.lcode,some (.own 9),false,.lblank⟩⟩] .leaf) 7558896 [⟨⟨(.inside 2),[],.lcode,true,[],false⟩,false,false,[],some 4,some ⟨(.inside 2),[],.lcode,false,[],false⟩,none,true,false,false,none,false,⟨.lcode,some .internalNl,false,.lblank⟩⟩] (.node .leaf 7854856 [⟨⟨(.inside 2),[],.lblank,true,[],false⟩,false,false,[],some 4,some ⟨(.inside 2),[],.lcode,false,[],false⟩,none,true,false,false,none,false,⟨.lblank,some .internalNl,false,.lblank⟩⟩] .leaf)),.leaf,(.node (.node .leaf 7522021 [⟨⟨(.inside 2),[],.lcode,false,[],false⟩,false,false,[],some 4,some ⟨(.inside 2),[],.lcode,false,[],false⟩,none,false,false,false,none,false,⟨.lcode,some (.own 9),false,.lblank⟩⟩] .leaf) 7522029 [⟨⟨(.inside 2),[],.lcode,false,[],false⟩,false,false,[],some 4,some ⟨(.inside 2),[],.lcode,false,[],false⟩,none,true,false,false,none,false,⟨.lcode,some .internalNl,false,.lblank⟩⟩] .leaf),(.node (.node .leaf 4424968 [⟨⟨(.inside 1),[],.lcode,true,[],false⟩,false,false,[],some 4,some ⟨(.inside 1),[],.lcode,false,[],false⟩,none,false,false,false,none,false,⟨.lcode,some (.own 9),false,.lblank⟩⟩] .leaf) 4424976 [⟨⟨(.inside 1),[],.lcode,true,[],false⟩,false,false,[],some 4,some ⟨(.inside 1),[],.lcode,false,[],false⟩,none,true,false,false,none,false,⟨.lcode,some .internalNl,false,.lblank⟩⟩] (.node .leaf 4720936 [⟨⟨(.inside 1),[],.lblank,true,[],false⟩,false,false,[],some 4,some ⟨(.inside 1),[],.lcode,false,[],false⟩,none,true,false,false,none,false,⟨.lblank,some .internalNl,false,.lblank⟩⟩] .leaf)),.leaf,(.node (.node .leaf 4388101 [⟨⟨(.inside 1),[],.lcode,false,[],false⟩,false,false,[],some 4,some ⟨(.inside 1),[],.lcode,false,[],false⟩,none,false,false,false,none,false,⟨.lcode,some (.own 9),false,.lblank⟩⟩] .leaf) 4388109 [⟨⟨(.inside 1),[],.lcode,false,[],false⟩,false,false,[],some 4,some ⟨(.inside 1),[],.lcode,false,[],false⟩,none,true,false,false,none,false,⟨.lcode,some .internalNl,false,.lblank⟩⟩] .leaf),(.node (.node (.node .leaf 607292911 [⟨⟨(.inside 0),[],.lcode,false,[],false⟩,false,false,[],some 4,some ⟨.code,[47],.lcode,false,[],false⟩,some ([(42,(.other,false))],false),false,false,false,none,false,⟨.lcode,some (.own 9),false,.lblank⟩⟩] .leaf) 607440899 [⟨⟨(.inside 0),[],.lcomment,false,[],false⟩,false,false,[],some 4,some ⟨.code,[47],.lcode,false,[],false⟩,some ([(42,(.other,false))],false),true,false,false,none,false,⟨.lcomment,some .internalNl,false,.lblank⟩⟩] (.node .leaf 608649759 [⟨⟨(.inside 0),[],.lcomment,false,[],false⟩,false,false,[],some 4,some ⟨.code,[47],.lcomment,false,[],false⟩,some ([(42,(.other,false))],false),false,false,false,none,false,⟨.lcomment,some (.own 9),false,.lblank⟩⟩] .leaf)) 608649767 [⟨⟨(.inside 0),[],.lcomment,false,[],false⟩,false,false,[],some 4,some ⟨.code,[47],.lcomment,false,[],false⟩,some ([(42,(.other,false))],false),true,false,false,none,false,⟨.lcomment,some .internalNl,false,.lblank⟩⟩] (.node (.node .leaf 609858627 [⟨⟨(.inside 0),[],.lcomment,false,[],false⟩,false,false,[],some 4,some ⟨.code,[47],.lblank,false,[],false⟩,some ([(42,(.other,false))],false),false,false,false,none,false,⟨.lcomment,some (.own 9),false,.lblank⟩⟩] .leaf) 609858635 [⟨⟨(.inside 0),[],.lcomment,false,[],false⟩,false,false,[],some 4,some ⟨.code,[47],.lblank,false,[],false⟩,some ([(42,(.other,false))],false),true,false,false,none,false,⟨.lcomment,some .internalNl,false,.lblank⟩⟩] .leaf)),(.node (.node (.node (.node .leaf 607292911 [⟨⟨(.inside 0),[],.lcode,false,[],false⟩,false,false,[],some 4,some ⟨.code,[47],.lcode,false,[],false⟩,some ([(42,(.other,false))],false),false,false,false,none,false,⟨.lcode,some (.own 9),false,.lblank⟩⟩] .leaf) 607440899 [⟨⟨(.inside 0),[],.lcomment,false,[],false⟩,false,false,[],some 4,some ⟨.code,[47],.lcode,false,[],false⟩,some ([(42,(.other,false))],false),true,false,false,none,false,⟨.lcomment,some .internalNl,false,.lblank⟩⟩] .leaf) 607588879 [⟨⟨(.inside 0),[],.lblank,false,[],false⟩,false,false,[],some 4,some ⟨.code,[47],.lcode,false,[],false⟩,some ([(42,(.other,false))],false),true,false,false,none,false,⟨.lblank,some .internalNl,false,.lblank⟩⟩] (.node .leaf 608649759 [⟨⟨(.inside 0),[],.lcomment,false,[],false⟩,false,false,[],some 4,some ⟨.code,[47],.lcomment,false,[],false⟩,some ([(42,(.other,false))],false),false,false,false,none,false,⟨.lcomment,some (.own 9),false,.lblank⟩⟩] .leaf)) 608649767 [⟨⟨(.inside 0),[],.lcomment,false,[],false⟩,false,false,[],some 4,some ⟨.code,[47],.lcomment,false,[],false⟩,some ([(42,(.other,false))],false),true,false,false,none,false,⟨.lcomment,some .internalNl,false,.lblank⟩⟩] (.node (.node (.node .leaf 608797747 [⟨⟨(.inside 0),[],.lblank,false,[],false⟩,false,false,[],some 4,some ⟨.code,[47],.lcomment,false,[],false⟩,some ([(42,(.other,false))],false),true,false,false,none,false,⟨.lblank,some .internalNl,false,.lblank⟩⟩] .leaf) 609858627 [⟨⟨(.inside 0),[],.lcomment,false,[],false⟩,false,false,[],some 4,some ⟨.code,[47],.lblank,false,[],false⟩,some ([(42,(.other,false))],false),false,false,false,none,false,⟨.lcomment,some (.own 9),false,.lblank⟩⟩] .leaf) 609858635 [⟨⟨(.inside 0),[],.lcomment,false,[],false⟩,false,false,[],some 4,some ⟨.code,[47],.lblank,false,[],false⟩,some ([(42,(.other,false))],false),true,false,false,none,false,⟨.lcomment,some .internalNl,false,.lblank⟩⟩] (.node .leaf 610006615 [⟨⟨(.inside 0),[],.lblank,false,[],false⟩,false,false,[],some 4,some ⟨.code,[47],.lblank,false,[],false⟩,some ([(42,(.other,false))],false),true,false,false,none,false,⟨.lblank,some .internalNl,false,.lblank⟩⟩] .leaf))),(.node (.node (.node (.node .leaf 607329778 [⟨⟨(.inside 0),[],.lcode,true,[],false⟩,false,false,[],some 4,some ⟨.code,[47],.lcode,false,[],false⟩,some ([(42,(.other,false))],false),false,false,false,none,false,⟨.lcode,some (.own 9),false,.lblank⟩⟩] .leaf) 607477766 [⟨⟨(.inside 0),[],.lcomment,true,[],false⟩,false,false,[],some 4,some ⟨.code,[47],.lcode,false,[],false⟩,some ([(42,(.other,false))],false),true,false,false,none,false,⟨.lcomment,some .internalNl,false,.lblank⟩⟩] .leaf) 607625746 [⟨⟨(.inside 0),[],.lblank,true,[],false⟩,false,false,[],some 4,some ⟨.code,[47],.lcode,false,[],false⟩,some ([(42,(.other,false))],false),true,false,false,none,false,⟨.lblank,some .internalNl,false,.lblank⟩⟩] (.node .leaf 608686626 [⟨⟨(.inside 0),[],.lcomment,true,[],false⟩,false,false,[],some 4,some ⟨.code,[47],.lcomment,false,[],false⟩,some ([(42,(.other,false))],false),false,false,false,none,false,⟨.lcomment,some (.own 9),false,.lblank⟩⟩] .leaf)) 608686634 [⟨⟨(.inside 0),[],.lcomment,true,[],false⟩,false,false,[],some 4,some ⟨.code,[47],.lcomment,false,[],false⟩,some ([(42,(.other,false))],false),true,false,false,none,false,⟨.lcomment,some .internalNl,false,.lblank⟩⟩] (.node (.node (.node .leaf 608834614 [⟨⟨(.inside 0),[],.lblank,true,[],false⟩,false,false,[],some 4,some ⟨.code,[47],.lcomment,false,[],false⟩,some ([(42,(.other,false))],false),true,false,false,none,false,⟨.lblank,some .internalNl,false,.lblank⟩⟩] .leaf) 609895494 [⟨⟨(.inside 0),[],.lcomment,true,[],false⟩,false,false,[],some 4,some ⟨.code,[47],.lblank,false,[],false⟩,some ([(42,(.other,false))],false),false,false,false,none,false,⟨.lcomment,some (.own 9),false,.lblank⟩⟩] .leaf) 609895502 [⟨⟨(.inside 0),[],.lcomment,true,[],false⟩,false,false,[],some 4,some ⟨.code,[47],.lblank,false,[],false⟩,some ([(42,(.other,false))],false),true,false,false,none,false,⟨.lcomment,some .internalNl,false,.lblank⟩⟩] (.node .leaf 610043482 [⟨⟨(.inside 0),[],.lblank,true,[],false⟩,false,false,[],some 4,some ⟨.code,[47],.lblank,false,[],false⟩,some ([(42,(.other,false))],false),true,false,false,none,false,⟨.lblank,some .internalNl,false,.lblank⟩⟩] .leaf))),(.node (.node (.node (.node .leaf 607329778 [⟨⟨(.inside 0),[],.lcode,true,[],false⟩,false,false,[],some 4,some ⟨.code,[47],.lcode,false,[],false⟩,some ([(42,(.other,false))],false),false,false,false,none,false,⟨.lcode,some (.own 9),false,.lblank⟩⟩] .leaf) 607477766 [⟨⟨(.inside 0),[],.lcomment,true,[],false⟩,false,false,[],some 4,some ⟨.code,[47],.lcode,false,[],false⟩,some ([(42,(.other,false))],false),true,false,false,none,false,⟨.lcomment,some .internalNl,false,.lblank⟩⟩] .leaf) 607625746 [⟨⟨(.inside 0),[],.lblank,true,[],false⟩,false,false,[],some 4,some ⟨.code,[47],.lcode,false,[],false⟩,some ([(42,(.other,false))],false),true,false,false,none,false,⟨.lblank,some .internalNl,false,.lblank⟩⟩] (.node .leaf 608686626 [⟨⟨(.inside 0),[],.lcomment,true,[],false⟩,false,false,[],some 4,some ⟨.code,[47],.lcomment,false,[],false⟩,some ([(42,(.other,false))],false),false,false,false,none,false,⟨.lcomment,some (.own 9),false,.lblank⟩⟩] .leaf)) 608686634 [⟨⟨(.inside 0),[],.lcomment,true,[],false⟩,false,false,[],some 4,some ⟨.code,[47],.lcomment,false,[],false⟩,some ([(42,(.other,false))],false),true,false,false,none,false,⟨.lcomment,some .internalNl,false,.lblank⟩⟩] (.node (.node (.node .leaf 608834614 [⟨⟨(.inside 0),[],.lblank,true,[],false⟩,false,false,[],some 4,some ⟨.code,[47],.lcomment,false,[],false⟩,some ([(42,(.other,false))],false),true,false,false,none,false,⟨.lblank,some .internalNl,false,.lblank⟩⟩] .leaf) 609895494 [⟨⟨(.inside 0),[],.lcomment,true,[],false⟩,false,false,[],some 4,some ⟨.code,[47],.lblank,false,[],false⟩,some ([(42,(.other,false))],false),false,false,false,none,false,⟨.lcomment,some (.own 9),false,.lblank⟩⟩] .leaf) 609895502 [⟨⟨(.inside 0),[],.lcomment,true,[],false⟩,false,false,[],some 4,some ⟨.code,[47],.lblank,false,[],false⟩,some ([(42,(.other,false))],false),true,false,false,none,false,⟨.lcomment,some .internalNl,false,.lblank⟩⟩] (.node .leaf 610043482 [⟨⟨(.inside 0),[],.lblank,true,[],false⟩,false,false,[],some 4,some ⟨.code,[47],.lblank,false,[],false⟩,some ([(42,(.other,false))],false),true,false,false,none,false,⟨.lblank,some .internalNl,false,.lblank⟩⟩] .leaf))),(.node (.node (.node (.node .leaf 607292943 [⟨⟨(.inside 0),[],.lcode,false,[],false⟩,true,false,[],some 4,some ⟨.code,[47],.lcode,false,[],false⟩,some ([(42,(.other,false))],false),false,false,false,none,false,⟨.lcode,some (.own 9),false,.lblank⟩⟩] .leaf) 607440931 [⟨⟨(.inside 0),[],.lcomment,false,[],false⟩,true,false,[],some 4,some ⟨.code,[47],.lcode,false,[],false⟩,some ([(42,(.other,false))],false),true,false,false,none,false,⟨.lcomment,some .internalNl,false,.lblank⟩⟩] .leaf) 607588911 [⟨⟨(.inside 0),[],.lblank,false,[],false⟩,true,false,[],some 4,some ⟨.code,[47],.lcode,false,[],false⟩,some ([(42,(.other,false))],false),true,false,false,none,false,⟨.lblank,some .internalNl,false,.lblank⟩⟩] (.node .leaf 608649791 [⟨⟨(.inside 0),[],.lcomment,false,[],false⟩,true,false,[],some 4,some ⟨.code,[47],.lcomment,false,[],false⟩,some ([(42,(.other,false))],false),false,false,false,none,false,⟨.lcomment,some (.own 9),false,.lblank⟩⟩] .leaf)) 608649799 [⟨⟨(.inside 0),[],.lcomment,false,[],false⟩,true,false,[],some 4,some ⟨.code,[47],.lcomment,false,[],false⟩,some ([(42,(.other,false))],false),true,false,false,none,false,⟨.lcomment,some .internalNl,false,.lblank⟩⟩] (.node (.node (.node .leaf 608797779 [⟨⟨(.inside 0),[],.lblank,false,[],false⟩,true,false,[],some 4,some ⟨.code,[47],.lcomment,false,[],false⟩,some ([(42,(.other,false))],false),true,false,false,none,false,⟨.lblank,some .internalNl,false,.lblank⟩⟩] .leaf) 609858659 [⟨⟨(.inside 0),[],.lcomment,false,[],false⟩,true,false,[],some 4,some ⟨.code,[47],.lblank,false,[],false⟩,some ([(42,(.other,false))],false),false,false,false,none,false,⟨.lcomment,some (.own 9),false,.lblank⟩⟩] .leaf) 609858667 [⟨⟨(.inside 0),[],.lcomment,false,[],false⟩,true,false,[],some 4,some ⟨.code,[47],.lblank,false,[],false⟩,some ([(42,(.other,false))],false),true,false,false,none,false,⟨.lcomment,some .internalNl,false,.lblank⟩⟩] (.node .leaf 610006647 [⟨⟨(.inside 0),[],.lblank,false,[],false⟩,true,false,[],some 4,some ⟨.code,[47],.lblank,false,[],false⟩,some ([(42,(.other,false))],false),true,false,false,none,false,⟨.lblank,some .internalNl,false,.lblank⟩⟩] .leaf))),(.node (.node (.node (.node .leaf 607329794 [⟨⟨(.inside 0),[],.lcode,true,[],false⟩,false,true,[],some 4,some ⟨.code,[47],.lcode,false,[],false⟩,some ([(42,(.other,false))],false),false,false,false,none,false,⟨.lcode,some (.own 9),false,.lblank⟩⟩] .leaf) 607477782 [⟨⟨(.inside 0),[],.lcomment,true,[],false⟩,false,true,[],some 4,some ⟨.code,[47],.lcode,false,[],false⟩,some ([(42,(.other,false))],false),true,false,false,none,false,⟨.lcomment,some .internalNl,false,.lblank⟩⟩] .leaf) 607625762 [⟨⟨(.inside 0),[],.lblank,true,[],false⟩,false,true,[],some 4,some ⟨.code,[47],.lcode,false,[],false⟩,some ([(42,(.other,false))],false),true,false,false,none,false,⟨.lblank,some .internalNl,false,.lblank⟩⟩] (.node .leaf 608686642 [⟨⟨(.inside 0),[],.lcomment,true,[],false⟩,false,true,[],some 4,some ⟨.code,[47],.lcomment,false,[],false⟩,some ([(42,(.other,false))],false),false,false,false,none,false,⟨.lcomment,some (.own 9),false,.lblank⟩⟩] .leaf)) 608686650 [⟨⟨(.inside 0),[],.lcomment,true,[],false⟩,false,true,[],some 4,some ⟨.code,[47],.lcomment,false,[],false⟩,some ([(42,(.other,false))],false),true,false,false,none,false,⟨.lcomment,some .internalNl,false,.lblank⟩⟩] (.node (.node (.node .leaf 608834630 [⟨⟨(.inside 0),[],.lblank,true,[],false⟩,false,true,[],some 4,some ⟨.code,[47],.lcomment,false,[],false⟩,some ([(42,(.other,false))],false),true,false,false,none,false,⟨.lblank,some .internalNl,false,.lblank⟩⟩] .leaf) 609895510 [⟨⟨(.inside 0),[],.lcomment,true,[],false⟩,false,true,[],some 4,some ⟨.code,[47],.lblank,false,[],false⟩,some ([(42,(.other,false))],false),false,false,false,none,false,⟨.lcomment,some (.own 9),false,.lblank⟩⟩] .leaf) 609895518 [⟨⟨(.inside 0),[],.lcomment,true,[],false⟩,false,true,[],some 4,some ⟨.code,[47],.lblank,false,[],false⟩,some ([(42,(.other,false))],false),true,false,false,none,false,⟨.lcomment,some .internalNl,false,.lblank⟩⟩] (.node .leaf 610043498 [⟨⟨(.inside 0),[],.lblank,true,[],false⟩,false,true,[],some 4,some ⟨.code,[47],.lblank,false,[],false⟩,some ([(42,(.other,false))],false),true,false,false,none,false,⟨.lblank,some .internalNl,false,.lblank⟩⟩] .leaf))),(.node (.node (.node (.node .leaf 762244912 [⟨⟨(.inside 0),[42],.lcode,false,[],false⟩,false,false,[],some 4,some ⟨.code,[47],.lcode,false,[],false⟩,some ([(42,(.other,false))],false),false,false,false,none,false,⟨.lcode,some (.own 9),false,.lblank⟩⟩] .leaf) 781563740 [⟨⟨(.inside 0),[42],.lcomment,false,[],false⟩,false,false,[],some 4,some ⟨.code,[47],.lcode,false,[],false⟩,some ([(42,(.other,false))],false),true,false,false,none,false,⟨.lcomment,some .internalNl,false,.lblank⟩⟩] .leaf) 782772600 [⟨⟨(.inside 0),[42],.lcomment,false,[],false⟩,false,false,[],some 4,some ⟨.code,[47],.lcomment,false,[],false⟩,some ([(42,(.other,false))],false),false,false,false,none,false,⟨.lcomment,some (.own 9),false,.lblank⟩⟩] (.node .leaf 782772608 [⟨⟨(.inside 0),[42],.lcomment,false,[],false⟩,false,false,[],some 4,some ⟨.code,[47],.lcomment,false,[],false⟩,some ([(42,(.other,false))],false),true,false,false,none,false,⟨.lcomment,some .internalNl,false,.lblank⟩⟩] .leaf)) 783981468 [⟨⟨(.inside 0),[42],.lcomment,false,[],false⟩,false,false,[],some 4,some ⟨.code,[47],.lblank,false,[],false⟩,some ([(42,(.other,false))],false),false,false,false,none,false,⟨.lcomment,some (.own 9),false,.lblank⟩⟩] (.node (.node (.node .leaf 783981476 [⟨⟨(.inside 0),[42],.lcomment,false,[],false⟩,false,false,[],some 4,some ⟨.code,[47],.lblank,false,[],false⟩,some ([(42,(.other,false))],false),true,false,false,none,false,⟨.lcomment,some .internalNl,false,.lblank⟩⟩] .leaf) 800882048 [⟨⟨(.inside 0),[42],.lblank,false,[],false⟩,false,false,[],some 4,some ⟨.code,[47],.lcode,false,[],false⟩,some ([(42,(.other,false))],false),true,false,false,none,false,⟨.lcomment,some .internalNl,false,.lblank⟩⟩] .leaf) 802090916 [⟨⟨(.inside 0),[42],.lblank,false,[],false⟩,false,false,[],some 4,some ⟨.code,[47],.lcomment,false,[],false⟩,some ([(42,(.other,false))],false),true,false,false,none,false,⟨.lcomment,some .internalNl,false,.lblank⟩⟩] (.node .leaf 803299784 [⟨⟨(.inside 0),[42],.lblank,false,[],false⟩,false,false,[],some 4,some ⟨.code,[47],.lblank,false,[],false⟩,some ([(42,(.other,false))],false),true,false,false,none,false,⟨.lcomment,some .internalNl,false,.lblank⟩⟩] .leaf))),(.node (.node (.node (.node .leaf 607329778 [⟨⟨(.inside 0),[],.lcode,true,[],false⟩,false,false,[],some 4,some ⟨.code,[47],.lcode,false,[],false⟩,some ([(42,(.other,false))],false),false,false,false,none,false,⟨.lcode,some (.own 9),false,.lblank⟩⟩] .leaf) 607477766 [⟨⟨(.inside 0),[],.lcomment,true,[],false⟩,false,false,[],some 4,some ⟨.code,[47],.lcode,false,[],false⟩,some ([(42,(.other,false))],false),true,false,false,none,false,⟨.lcomment,some .internalNl,false,.lblank⟩⟩] .leaf) 607625746 [⟨⟨(.inside 0),[],.lblank,true,[],false⟩,false,false,[],some 4,some ⟨.code,[47],.lcode,false,[],false⟩,some ([(42,(.other,false))],false),true,false,false,none,false,⟨.lblank,some .internalNl,false,.lblank⟩⟩] (.node .leaf 608686626 [⟨⟨(.inside 0),[],.lcomment,true,[],false⟩,false,false,[],some 4,some ⟨.code,[47],.lcomment,false,[],false⟩,some ([(42,(.other,false))],false),false,false,false,none,false,⟨.lcomment,some (.own 9),false,.lblank⟩⟩] .leaf)) 608686634 [⟨⟨(.inside 0),[],.lcomment,true,[],false⟩,false,false,[],some 4,some ⟨.code,[47],.lcomment,false,[],false⟩,some ([(42,(.other,false))],false),true,false,false,none,false,⟨.lcomment,some .internalNl,false,.lblank⟩⟩] (.node (.node (.node .leaf 608834614 [⟨⟨(.inside 0),[],.lblank,true,[],false⟩,false,false,[],some 4,some ⟨.code,[47],.lcomment,false,[],false⟩,some ([(42,(.other,false))],false),true,false,false,none,false,⟨.lblank,some .internalNl,false,.lblank⟩⟩] .leaf) 609895494 [⟨⟨(.inside 0),[],.lcomment,true,[],false⟩,false,false,[],some 4,some ⟨.code,[47],.lblank,false,[],false⟩,some ([(42,(.other,false))],false),false,false,false,none,false,⟨.lcomment,some (.own 9),false,.lblank⟩⟩] .leaf) 609895502 [⟨⟨(.inside 0),[],.lcomment,true,[],false⟩,false,false,[],some 4,some ⟨.code,[47],.lblank,false,[],false⟩,some ([(42,(.other,false))],false),true,false,false,none,false,⟨.lcomment,some .internalNl,false,.lblank⟩⟩] (.node .leaf 610043482 [⟨⟨(.inside 0),[],.lblank,true,[],false⟩,false,false,[],some 4,some ⟨.code,[47],.lblank,false,[],false⟩,some ([(42,(.other,false))],false),true,false,false,none,false,⟨.lblank,some .internalNl,false,.lblank⟩⟩] .leaf))),.leaf]
theorem css_line_lClosed : CA.closedF css_line_M css_line_lex true false css_line_lfr css_line_lTab = true := by decide +kernel
def css_line_L : LCert LexisTable.css_line css_line_M := css_line_lex_eq ▸ ⟨⟨css_line_lmasks, css_line_lex.rel, css_line_lcs, css_line_lrows, css_line_lmasksIn, css_line_lrepOk, css_line_lrowsOk⟩,
  _, rfl, by decide +kernel, by decide +kernel, true, false, CA.closed_of css_line_lfrOk css_line_lClosed⟩
theorem css_line_L_chk : css_line_L.chk = true := by
  have : ∀ (l : Lexis) (h : LexisTable.css_line = l) (C : LCert l css_line_M), (h ▸ C : LCert LexisTable.css_line css_line_M).chk = C.chk := by rintro _ rfl _; rfl
  exact this _ css_line_lex_eq _

def grace_line_lex : Lexis := [⟨[47,47],[],.lcomment,false,false,false,true,false,false,true,false,none,false,false,false,false,[]⟩,⟨[34],[[34]],.lcode,true,false,false,true,false,false,false,false,none,false,false,false,false,[[92]]⟩]
theorem grace_line_lex_eq : LexisTable.grace_line = grace_line_lex := by decide +kernel
def grace_line_lmasks : List Nat := [4294967808,140737488355328,17179869184,8192,1024,4096,115792089237316195423570985008687907853269984665640564039457584007908834656767,115792089237316195423570985008687907853269984665640564039457584007913129626623,115792089237316195423570985008687907853269984665635612279300442486792058292735,4951760157141521099596496896]
def grace_line_lcs : List (Nat × Nat) := [(0,115792089237316195423570985008687907853269984665635612279300442346054569935359),(9,4294967808),(10,1024),(11,2048),(12,4096),(13,8192),(34,17179869184),(47,140737488355328),(92,4951760157141521099596496896)]
theorem grace_line_lmasksIn : masksIn grace_line_nfa grace_line_lmasks = true := by decide +kernel
theorem grace_line_lrepOk : repOk grace_line_lmasks grace_line_lcs = true := by decide +kernel
def grace_line_lrows : List Row := [⟨[],none,[],[⟨256,.other,false,some ⟨0,[.setEnt (.own 3)],some 4,true⟩⟩,⟨256,.ws,false,some ⟨1,[.setEnt (.own 0)],some 0,false⟩⟩,⟨256,.lf,false,some ⟨0,[.setEnt .newline],some 3,true⟩⟩,⟨256,.vt,false,none⟩,⟨256,.ff,false,some ⟨0,[.setEnt .newline],some 3,true⟩⟩,⟨256,.cr,false,some ⟨2,[.setEnt .newline],none,false⟩⟩,⟨256,.cr,true,some ⟨3,[.setEnt .newline],some 3,false⟩⟩,⟨34,.other,false,some ⟨4,[.enqueue,.code,.setEnt (.own 3)],some 4,false⟩⟩,⟨47,.other,false,some ⟨5,[.setEnt (.own 3)],some 4,false⟩⟩,⟨92,.other,false,some ⟨0,[.setEnt (.own 3)],some 4,true⟩⟩]⟩,⟨[0],some 0,[],[⟨256,.other,false,none⟩,⟨256,.ws,false,some ⟨1,[.setEnt (.own 0)],some 0,false⟩⟩,⟨256,.lf,false,none⟩,⟨256,.vt,false,none⟩,⟨256,.ff,false,none⟩,⟨256,.cr,false,none⟩,⟨256,.cr,true,none⟩,⟨34,.other,false,none⟩,⟨47,.other,false,none⟩,⟨92,.other,false,none⟩]⟩,⟨[13],none,[],[⟨256,.other,false,none⟩,⟨256,.ws,false,none⟩,⟨256,.lf,false,some ⟨0,[.setEnt .newline],some 3,true⟩⟩,⟨256,.vt,false,none⟩,⟨256,.ff,false,none⟩,⟨256,.cr,false,none⟩,⟨256,.cr,true,none⟩,⟨34,.other,false,none⟩,⟨47,.other,false,none⟩,⟨92,.other,false,none⟩]⟩,⟨[13,17],some 3,[],[⟨256,.other,false,none⟩,⟨256,.ws,false,none⟩,⟨256,.lf,false,some ⟨0,[.setEnt .newline],some 3,true⟩⟩,⟨256,.vt,false,none⟩,⟨256,.ff,false,none⟩,⟨256,.cr,false,none⟩,⟨256,.cr,true,none⟩,⟨34,.other,false,none⟩,⟨47,.other,false,none⟩,⟨92,.other,false,none⟩]⟩,⟨[4,18],some 4,[],[⟨256,.other,false,some ⟨6,[.code],none,false⟩⟩,⟨256,.ws,false,some ⟨7,[],none,false⟩⟩,⟨256,.lf,false,some ⟨8,[],none,false⟩⟩,⟨256,.vt,false,some ⟨6,[.code],none,false⟩⟩,⟨256,.ff,false,some ⟨9,[],none,false⟩⟩,⟨256,.cr,false,some ⟨10,[],none,false⟩⟩,⟨256,.cr,true,some ⟨11,[],none,false⟩⟩,⟨34,.other,false,some ⟨0,[.commit],some 2,true⟩⟩,⟨47,.other,false,some ⟨6,[.code],none,false⟩⟩,⟨92,.other,false,none⟩]⟩,⟨[1,18],some 4,[],[⟨256,.other,false,none⟩,⟨256,.ws,false,none⟩,⟨256,.lf,false,none⟩,⟨256,.vt,false,none⟩,⟨256,.ff,false,none⟩,⟨256,.cr,false,none⟩,⟨256,.cr,true,none⟩,⟨34,.other,false,none⟩,⟨47,.other,false,some ⟨12,[.comment],some 1,false⟩⟩,⟨92,.other,false,none⟩]⟩,⟨[11],none,[],[⟨256,.other,false,some ⟨6,[.code],none,false⟩⟩,⟨256,.ws,false,some ⟨7,[],none,false⟩⟩,⟨256,.lf,false,some ⟨8,[],none,false⟩⟩,⟨256,.vt,false,some ⟨6,[.code],none,false⟩⟩,⟨256,.ff,false,some ⟨9,[],none,false⟩⟩,⟨256,.cr,false,some ⟨10,[],none,false⟩⟩,⟨256,.cr,true,some ⟨11,[],none,false⟩⟩,⟨34,.other,false,some ⟨0,[.commit],some 2,true⟩⟩,⟨47,.other,false,some ⟨6,[.code],none,false⟩⟩,⟨92,.other,false,none⟩]⟩,⟨[10],none,[],[⟨256,.other,false,some ⟨6,[.code],none,false⟩⟩,⟨256,.ws,false,some ⟨7,[],none,false⟩⟩,⟨256,.lf,false,some ⟨8,[],none,false⟩⟩,⟨256,.vt,false,some ⟨6,[.code],none,false⟩⟩,⟨256,.ff,false,some ⟨9,[],none,false⟩⟩,⟨256,.cr,false,some ⟨10,[],none,false⟩⟩,⟨256,.cr,true,some ⟨11,[],none,false⟩⟩,⟨34,.other,false,some ⟨0,[.commit],some 2,true⟩⟩,⟨47,.other,false,some ⟨6,[.code],none,false⟩⟩,⟨92,.other,false,none⟩]⟩,⟨[7],none,[],[⟨256,.other,false,some ⟨6,[.setEnt .internalNl,.cb,.code],none,false⟩⟩,⟨256,.ws,false,some ⟨7,[.setEnt .internalNl,.cb],none,false⟩⟩,⟨256,.lf,false,some ⟨8,[.setEnt .internalNl,.cb],none,false⟩⟩,⟨256,.vt,false,some ⟨6,[.setEnt .internalNl,.cb,.code],none,false⟩⟩,⟨256,.ff,false,some ⟨9,[.setEnt .internalNl,.cb],none,false⟩⟩,⟨256,.cr,false,some ⟨10,[.setEnt .internalNl,.cb],none,false⟩⟩,⟨256,.cr,true,some ⟨11,[.setEnt .internalNl,.cb],none,false⟩⟩,⟨34,.other,false,some ⟨0,[.setEnt .internalNl,.cb,.commit],some 2,true⟩⟩,⟨47,.other,false,some ⟨6,[.setEnt .internalNl,.cb,.code],none,false⟩⟩,⟨92,.other,false,none⟩]⟩,⟨[8],none,[],[⟨256,.other,false,some ⟨6,[.setEnt .internalNl,.cb,.code],none,false⟩⟩,⟨256,.ws,false,some ⟨7,[.setEnt .internalNl,.cb],none,false⟩⟩,⟨256,.lf,false,some ⟨8,[.setEnt .internalNl,.cb],none,false⟩⟩,⟨256,.vt,false,some ⟨6,[.setEnt .internalNl,.cb,.code],none,false⟩⟩,⟨256,.ff,false,some ⟨9,[.setEnt .internalNl,.cb],none,false⟩⟩,⟨256,.cr,false,some ⟨10,[.setEnt .internalNl,.cb],none,false⟩⟩,⟨256,.cr,true,some ⟨11,[.setEnt .internalNl,.cb],none,false⟩⟩,⟨34,.other,false,some ⟨0,[.setEnt .internalNl,.cb,.commit],some 2,true⟩⟩,⟨47,.other,false,some ⟨6,[.setEnt .internalNl,.cb,.code],none,false⟩⟩,⟨92,.other,false,none⟩]⟩,⟨[5],none,[],[⟨256,.other,false,none⟩,⟨256,.ws,false,none⟩,⟨256,.lf,false,some ⟨13,[],none,false⟩⟩,⟨256,.vt,false,none⟩,⟨256,.ff,false,none⟩,⟨256,.cr,false,none⟩,⟨256,.cr,true,none⟩,⟨34,.other,false,none⟩,⟨47,.other,false,none⟩,⟨92,.other,false,none⟩]⟩,⟨[5,9],none,[],[⟨256,.other,false,some ⟨6,[.setEnt .internalNl,.cb,.code],none,false⟩⟩,⟨256,.ws,false,some ⟨7,[.setEnt .internalNl,.cb],none,false⟩⟩,⟨256,.lf,false,some ⟨14,[.setEnt .internalNl,.cb],none,false⟩⟩,⟨256,.vt,false,some ⟨6,[.setEnt .internalNl,.cb,.code],none,false⟩⟩,⟨256,.ff,false,some ⟨9,[.setEnt .internalNl,.cb],none,false⟩⟩,⟨256,.cr,false,some ⟨10,[.setEnt .internalNl,.cb],none,false⟩⟩,⟨256,.cr,true,some ⟨11,[.setEnt .internalNl,.cb],none,false⟩⟩,⟨34,.other,false,some ⟨0,[.setEnt .internalNl,.cb,.commit],some 2,true⟩⟩,⟨47,.other,false,some ⟨6,[.setEnt .internalNl,.cb,.code],none,false⟩⟩,⟨92,.other,false,none⟩]⟩,⟨[2],some 1,[],[⟨256,.other,false,some ⟨15,[],some 1,false⟩⟩,⟨256,.ws,false,some ⟨15,[],some 1,false⟩⟩,⟨256,.lf,false,none⟩,⟨256,.vt,false,some ⟨15,[],some 1,false⟩⟩,⟨256,.ff,false,none⟩,⟨256,.cr,false,none⟩,⟨256,.cr,true,none⟩,⟨34,.other,false,some ⟨15,[],some 1,false⟩⟩,⟨47,.other,false,some ⟨15,[],some 1,false⟩⟩,⟨92,.other,false,some ⟨15,[],some 1,false⟩⟩]⟩,⟨[6],none,[],[⟨256,.other,false,some ⟨6,[.setEnt .internalNl,.cb,.code],none,false⟩⟩,⟨256,.ws,false,some ⟨7,[.setEnt .internalNl,.cb],none,false⟩⟩,⟨256,.lf,false,some ⟨8,[.setEnt .internalNl,.cb],none,false⟩⟩,⟨256,.vt,false,some ⟨6,[.setEnt .internalNl,.cb,.code],none,false⟩⟩,⟨256,.ff,false,some ⟨9,[.setEnt .internalNl,.cb],none,false⟩⟩,⟨256,.cr,false,some ⟨10,[.setEnt .internalNl,.cb],none,false⟩⟩,⟨256,.cr,true,some ⟨11,[.setEnt .internalNl,.cb],none,false⟩⟩,⟨34,.other,false,some ⟨0,[.setEnt .internalNl,.cb,.commit],some 2,true⟩⟩,⟨47,.other,false,some ⟨6,[.setEnt .internalNl,.cb,.code],none,false⟩⟩,⟨92,.other,false,none⟩]⟩,⟨[6,7],none,[],[⟨256,.other,false,some ⟨6,[.setEnt .internalNl,.cb,.code],none,false⟩⟩,⟨256,.ws,false,some ⟨7,[.setEnt .internalNl,.cb],none,false⟩⟩,⟨256,.lf,false,some ⟨8,[.setEnt .internalNl,.cb],none,false⟩⟩,⟨256,.vt,false,some ⟨6,[.setEnt .internalNl,.cb,.code],none,false⟩⟩,⟨256,.ff,false,some ⟨9,[.setEnt .internalNl,.cb],none,false⟩⟩,⟨256,.cr,false,some ⟨10,[.setEnt .internalNl,.cb],none,false⟩⟩,⟨256,.cr,true,some ⟨11,[.setEnt .internalNl,.cb],none,false⟩⟩,⟨34,.other,false,some ⟨0,[.setEnt .internalNl,.cb,.commit],some 2,true⟩⟩,⟨47,.other,false,some ⟨6,[.setEnt .internalNl,.cb,.code],none,false⟩⟩,⟨92,.other,false,none⟩]⟩,⟨[3],some 1,[],[⟨256,.other,false,some ⟨15,[],some 1,false⟩⟩,⟨256,.ws,false,some ⟨15,[],some 1,false⟩⟩,⟨256,.lf,false,none⟩,⟨256,.vt,false,some ⟨15,[],some 1,false⟩⟩,⟨256,.ff,false,none⟩,⟨256,.cr,false,none⟩,⟨256,.cr,true,none⟩,⟨34,.other,false,some ⟨15,[],some 1,false⟩⟩,⟨47,.other,false,some ⟨15,[],some 1,false⟩⟩,⟨92,.other,false,some ⟨15,[],some 1,false⟩⟩]⟩]
theorem grace_line_lrowsOk : rowsOk grace_line_nfa grace_line_lex.rel (grace_line_lcs.map (·.1)) grace_line_lrows = true := by decide +kernel
def grace_line_lfr : List CA.FRow := [⟨true,none,[],[⟨256,.other,false,false,none,some ([.setEnt (.own 3)],(some 4,true))⟩,⟨9,.ws,false,false,some 1,some ([.setEnt (.own 0)],(some 0,false))⟩,⟨10,.lf,false,true,none,some ([.setEnt .newline],(some 3,true))⟩,⟨11,.vt,false,false,none,none⟩,⟨12,.ff,false,true,none,some ([.setEnt .newline],(some 3,true))⟩,⟨13,.cr,false,false,some 2,some ([.setEnt .newline],(none,false))⟩,⟨13,.cr,true,true,some 3,some ([.setEnt .newline],(some 3,false))⟩,⟨34,.other,false,false,some 4,some ([.enqueue,.code,.setEnt (.own 3)],(some 4,false))⟩,⟨47,.other,false,false,some 5,some ([.setEnt (.own 3)],(some 4,false))⟩,⟨92,.other,false,false,none,some ([.setEnt (.own 3)],(some 4,true))⟩]⟩,⟨false,some 0,[],[⟨256,.other,false,false,none,none⟩,⟨9,.ws,false,false,some 1,some ([.setEnt (.own 0)],(some 0,false))⟩,⟨10,.lf,false,true,none,none⟩,⟨11,.vt,false,false,none,none⟩,⟨12,.ff,false,true,none,none⟩,⟨13,.cr,false,false,none,none⟩,⟨13,.cr,true,true,none,none⟩,⟨34,.other,false,false,none,none⟩,⟨47,.other,false,false,none,none⟩,⟨92,.other,false,false,none,none⟩]⟩,⟨false,none,[],[⟨256,.other,false,false,none,none⟩,⟨9,.ws,false,false,none,none⟩,⟨10,.lf,false,true,none,some ([.setEnt .newline],(some 3,true))⟩,⟨11,.vt,false,false,none,none⟩,⟨12,.ff,false,true,none,none⟩,⟨13,.cr,false,false,none,none⟩,⟨13,.cr,true,true,none,none⟩,⟨34,.other,false,false,none,none⟩,⟨47,.other,false,false,none,none⟩,⟨92,.other,false,false,none,none⟩]⟩,⟨false,some 3,[],[⟨256,.other,false,false,none,none⟩,⟨9,.ws,false,false,none,none⟩,⟨10,.lf,false,true,none,some ([.setEnt .newline],(some 3,true))⟩,⟨11,.vt,false,false,none,none⟩,⟨12,.ff,false,true,none,none⟩,⟨13,.cr,false,false,none,none⟩,⟨13,.cr,true,true,none,none⟩,⟨34,.other,false,false,none,none⟩,⟨47,.other,false,false,none,none⟩,⟨92,.other,false,false,none,none⟩]⟩,⟨false,some 4,[],[⟨256,.other,false,false,some 6,some ([.code],(none,false))⟩,⟨9,.ws,false,false,some 7,some ([],(none,false))⟩,⟨10,.lf,false,true,some 8,some ([],(none,false))⟩,⟨11,.vt,false,false,some 6,some ([.code],(none,false))⟩,⟨12,.ff,false,true,some 9,some ([],(none,false))⟩,⟨13,.cr,false,false,some 10,some ([],(none,false))⟩,⟨13,.cr,true,true,some 11,some ([],(none,false))⟩,⟨34,.other,false,false,none,some ([.commit],(some 2,true))⟩,⟨47,.other,false,false,some 6,some ([.code],(none,false))⟩,⟨92,.other,false,false,none,none⟩]⟩,⟨false,some 4,[],[⟨256,.other,false,false,none,none⟩,⟨9,.ws,false,false,none,none⟩,⟨10,.lf,false,true,none,none⟩,⟨11,.vt,false,false,none,none⟩,⟨12,.ff,false,true,none,none⟩,⟨13,.cr,false,false,none,none⟩,⟨13,.cr,true,true,none,none⟩,⟨34,.other,false,false,none,none⟩,⟨47,.other,false,false,some 12,some ([.comment],(some 1,false))⟩,⟨92,.other,false,false,none,none⟩]⟩,⟨false,none,[],[⟨256,.other,false,false,some 6,some ([.code],(none,false))⟩,⟨9,.ws,false,false,some 7,some ([],(none,false))⟩,⟨10,.lf,false,true,some 8,some ([],(none,false))⟩,⟨11,.vt,false,false,some 6,some ([.code],(none,false))⟩,⟨12,.ff,false,true,some 9,some ([],(none,false))⟩,⟨13,.cr,false,false,some 10,some ([],(none,false))⟩,⟨13,.cr,true,true,some 11,some ([],(none,false))⟩,⟨34,.other,false,false,none,some ([.commit],(some 2,true))⟩,⟨47,.other,false,false,some 6,some ([.code],(none,false))⟩,⟨92,.other,false,false,none,none⟩]⟩,⟨false,none,[],[⟨256,.other,false,false,some 6,some ([.code],(none,false))⟩,⟨9,.ws,false,false,some 7,some ([],(none,false))⟩,⟨10,.lf,false,true,some 8,some ([],(none,false))⟩,⟨11,.vt,false,false,some 6,some ([.code],(none,false))⟩,⟨12,.ff,false,true,some 9,some ([],(none,false))⟩,⟨13,.cr,false,false,some 10,some ([],(none,false))⟩,⟨13,.cr,true,true,some 11,some ([],(none,false))⟩,⟨34,.other,false,false,none,some ([.commit],(some 2,true))⟩,⟨47,.other,false,false,some 6,some ([.code],(none,false))⟩,⟨92,.other,false,false,none,none⟩]⟩,⟨false,none,[],[⟨256,.other,false,false,some 6,some ([.setEnt .internalNl,.cb,.code],(none,false))⟩,⟨9,.ws,false,false,some 7,some ([.setEnt .internalNl,.cb],(none,false))⟩,⟨10,.lf,false,true,some 8,some ([.setEnt .internalNl,.cb],(none,false))⟩,⟨11,.vt,false,false,some 6,some ([.setEnt .internalNl,.cb,.code],(none,false))⟩,⟨12,.ff,false,true,some 9,some ([.setEnt .internalNl,.cb],(none,false))⟩,⟨13,.cr,false,false,some 10,some ([.setEnt .internalNl,.cb],(none,false))⟩,⟨13,.cr,true,true,some 11,some ([.setEnt .internalNl,.cb],(none,false))⟩,⟨34,.other,false,false,none,some ([.setEnt .internalNl,.cb,.commit],(some 2,true))⟩,⟨47,.other,false,false,some 6,some ([.setEnt .internalNl,.cb,.code],(none,false))⟩,⟨92,.other,false,false,none,none⟩]⟩,⟨false,none,[],[⟨256,.other,false,false,some 6,some ([.setEnt .internalNl,.cb,.code],(none,false))⟩,⟨9,.ws,false,false,some 7,some ([.setEnt .internalNl,.cb],(none,false))⟩,⟨10,.lf,false,true,some 8,some ([.setEnt .internalNl,.cb],(none,false))⟩,⟨11,.vt,false,false,some 6,some ([.setEnt .internalNl,.cb,.code],(none,false))⟩,⟨12,.ff,false,true,some 9,some ([.setEnt .internalNl,.cb],(none,false))⟩,⟨13,.cr,false,false,some 10,some ([.setEnt .internalNl,.cb],(none,false))⟩,⟨13,.cr,true,true,some 11,some ([.setEnt .internalNl,.cb],(none,false))⟩,⟨34,.other,false,false,none,some ([.setEnt .internalNl,.cb,.commit],(some 2,true))⟩,⟨47,.other,false,false,some 6,some ([.setEnt .internalNl,.cb,.code],(none,false))⟩,⟨92,.other,false,false,none,none⟩]⟩,⟨false,none,[],[⟨256,.other,false,false,none,none⟩,⟨9,.ws,false,false,none,none⟩,⟨10,.lf,false,true,some 13,some ([],(none,false))⟩,⟨11,.vt,false,false,none,none⟩,⟨12,.ff,false,true,none,none⟩,⟨13,.cr,false,false,none,none⟩,⟨13,.cr,true,true,none,none⟩,⟨34,.other,false,false,none,none⟩,⟨47,.other,false,false,none,none⟩,⟨92,.other,false,false,none,none⟩]⟩,⟨false,none,[],[⟨256,.other,false,false,some 6,some ([.setEnt .internalNl,.cb,.code],(none,false))⟩,⟨9,.ws,false,false,some 7,some ([.setEnt .internalNl,.cb],(none,false))⟩,⟨10,.lf,false,true,some 14,some ([.setEnt .internalNl,.cb],(none,false))⟩,⟨11,.vt,false,false,some 6,some ([.setEnt .internalNl,.cb,.code],(none,false))⟩,⟨12,.ff,false,true,some 9,some ([.setEnt .internalNl,.cb],(none,false))⟩,⟨13,.cr,false,false,some 10,some ([.setEnt .internalNl,.cb],(none,false))⟩,⟨13,.cr,true,true,some 11,some ([.setEnt .internalNl,.cb],(none,false))⟩,⟨34,.other,false,false,none,some ([.setEnt .internalNl,.cb,.commit],(some 2,true))⟩,⟨47,.other,false,false,some 6,some ([.setEnt .internalNl,.cb,.code],(none,false))⟩,⟨92,.other,false,false,none,none⟩]⟩,⟨false,some 1,[],[⟨256,.other,false,false,some 15,some ([],(some 1,false))⟩,⟨9,.ws,false,false,some 15,some ([],(some 1,false))⟩,⟨10,.lf,false,true,none,none⟩,⟨11,.vt,false,false,some 15,some ([],(some 1,false))⟩,⟨12,.ff,false,true,none,none⟩,⟨13,.cr,false,false,none,none⟩,⟨13,.cr,true,true,none,none⟩,⟨34,.other,false,false,some 15,some ([],(some 1,false))⟩,⟨47,.other,false,false,some 15,some ([],(some 1,false))⟩,⟨92,.other,false,false,some 15,some ([],(some 1,false))⟩]⟩,⟨false,none,[],[⟨256,.other,false,false,some 6,some ([.setEnt .internalNl,.cb,.code],(none,false))⟩,⟨9,.ws,false,false,some 7,some ([.setEnt .internalNl,.cb],(none,false))⟩,⟨10,.lf,false,true,some 8,some ([.setEnt .internalNl,.cb],(none,false))⟩,⟨11,.vt,false,false,some 6,some ([.setEnt .internalNl,.cb,.code],(none,false))⟩,⟨12,.ff,false,true,some 9,some ([.setEnt .internalNl,.cb],(none,false))⟩,⟨13,.cr,false,false,some 10,some ([.setEnt .internalNl,.cb],(none,false))⟩,⟨13,.cr,true,true,some 11,some ([.setEnt .internalNl,.cb],(none,false))⟩,⟨34,.other,false,false,none,some ([.setEnt .internalNl,.cb,.commit],(some 2,true))⟩,⟨47,.other,false,false,some 6,some ([.setEnt .internalNl,.cb,.code],(none,false))⟩,⟨92,.other,false,false,none,none⟩]⟩,⟨false,none,[],[⟨256,.other,false,false,some 6,some ([.setEnt .internalNl,.cb,.code],(none,false))⟩,⟨9,.ws,false,false,some 7,some ([.setEnt .internalNl,.cb],(none,false))⟩,⟨10,.lf,false,true,some 8,some ([.setEnt .internalNl,.cb],(none,false))⟩,⟨11,.vt,false,false,some 6,some ([.setEnt .internalNl,.cb,.code],(none,false))⟩,⟨12,.ff,false,true,some 9,some ([.setEnt .internalNl,.cb],(none,false))⟩,⟨13,.cr,false,false,some 10,some ([.setEnt .internalNl,.cb],(none,false))⟩,⟨13,.cr,true,true,some 11,some ([.setEnt .internalNl,.cb],(none,false))⟩,⟨34,.other,false,false,none,some ([.setEnt .internalNl,.cb,.commit],(some 2,true))⟩,⟨47,.other,false,false,some 6,some ([.setEnt .internalNl,.cb,.code],(none,false))⟩,⟨92,.other,false,false,none,none⟩]⟩,⟨false,some 1,[],[⟨256,.other,false,false,some 15,some ([],(some 1,false))⟩,⟨9,.ws,false,false,some 15,some ([],(some 1,false))⟩,⟨10,.lf,false,true,none,none⟩,⟨11,.vt,false,false,some 15,some ([],(some 1,false))⟩,⟨12,.ff,false,true,none,none⟩,⟨13,.cr,false,false,none,none⟩,⟨13,.cr,true,true,none,none⟩,⟨34,.other,false,false,some 15,some ([],(some 1,false))⟩,⟨47,.other,false,false,some 15,some ([],(some 1,false))⟩,⟨92,.other,false,false,some 15,some ([],(some 1,false))⟩]⟩]
theorem grace_line_lfrOk : grace_line_lrows.map (CA.prep grace_line_lex) = grace_line_lfr := by decide +kernel
def grace_line_lTab : List CT := [(.node (.node (.node (.node (.node (.node .leaf 128 [⟨⟨.code,[],.lcode,false,[],false⟩,false,false,[],none,none,none,false,false,false,none,false,⟨.lcode,none,false,.lblank⟩⟩] .leaf) 38019 [⟨⟨.code,[],.lcode,true,[],false⟩,false,false,[],none,none,none,false,false,false,none,false,⟨.lblank,none,false,.lblank⟩⟩] .leaf) 185487 [⟨⟨.code,[],.lcomment,true,[],false⟩,false,false,[],none,none,none,false,false,false,none,false,⟨.lblank,none,false,.lblank⟩⟩] (.node .leaf 296088 [⟨⟨.code,[],.lblank,false,[],false⟩,false,false,[],none,none,none,false,false,false,none,false,⟨.lblank,none,false,.lblank⟩⟩] .leaf)) 332955 [⟨⟨.code,[],.lblank,true,[],false⟩,false,false,[],none,none,none,false,false,false,none,false,⟨.lblank,none,false,.lblank⟩⟩] (.node (.node .leaf 1179872 [⟨⟨(.inside 0),[],.lcode,false,[],false⟩,false,false,[none],none,none,none,false,false,false,none,false,⟨.lcode,none,false,.lblank⟩⟩] .leaf) 1327852 [⟨⟨(.inside 0),[],.lcomment,false,[],false⟩,false,false,[none],none,none,none,false,false,false,none,false,⟨.lcomment,none,false,.lblank⟩⟩] (.node .leaf 1769744 [⟨⟨.code,[47],.lcode,false,[],false⟩,false,false,[none],none,none,none,false,false,false,none,false,⟨.lcode,none,false,.lblank⟩⟩] .leaf))) 20769801 [⟨⟨.code,[47],.lcode,false,[],false⟩,false,false,[some (9,(.ws,false))],none,none,none,false,false,false,none,false,⟨.lcode,none,false,.lblank⟩⟩] (.node (.node (.node .leaf 22179935 [⟨⟨(.inside 0),[],.lcode,false,[],false⟩,false,false,[some (10,(.lf,false))],none,none,none,false,false,false,none,false,⟨.lcode,none,false,.lblank⟩⟩] .leaf) 22327915 [⟨⟨(.inside 0),[],.lcomment,false,[],false⟩,false,false,[some (10,(.lf,false))],none,none,none,false,false,false,none,false,⟨.lcomment,none,false,.lblank⟩⟩] (.node .leaf 22769807 [⟨⟨.code,[47],.lcode,false,[],false⟩,false,false,[some (10,(.lf,false))],none,none,none,false,false,false,none,false,⟨.lcode,none,false,.lblank⟩⟩] .leaf)) 26179947 [⟨⟨(.inside 0),[],.lcode,false,[],false⟩,false,false,[some (12,(.ff,false))],none,none,none,false,false,false,none,false,⟨.lcode,none,false,.lblank⟩⟩] (.node (.node .leaf 26327927 [⟨⟨(.inside 0),[],.lcomment,false,[],false⟩,false,false,[some (12,(.ff,false))],none,none,none,false,false,false,none,false,⟨.lcomment,none,false,.lblank⟩⟩] .leaf) 26769819 [⟨⟨.code,[47],.lcode,false,[],false⟩,false,false,[some (12,(.ff,false))],none,none,none,false,false,false,none,false,⟨.lcode,none,false,.lblank⟩⟩] (.node .leaf 28179953 [⟨⟨(.inside 0),[],.lcode,false,[],false⟩,false,false,[some (13,(.cr,false))],none,none,none,false,false,false,none,false,⟨.lcode,none,false,.lblank⟩⟩] .leaf)))) 28327933 [⟨⟨(.inside 0),[],.lcomment,false,[],false⟩,false,false,[some (13,(.cr,false))],none,none,none,false,false,false,none,false,⟨.lcomment,none,false,.lblank⟩⟩] (.node (.node (.node (.node (.node .leaf 28769825 [⟨⟨.code,[47],.lcode,false,[],false⟩,false,false,[some (13,(.cr,false))],none,none,none,false,false,false,none,false,⟨.lcode,none,false,.lblank⟩⟩] .leaf) 29179956 [⟨⟨(.inside 0),[],.lcode,false,[],false⟩,false,false,[some (13,(.cr,true))],none,none,none,false,false,false,none,false,⟨.lcode,none,false,.lblank⟩⟩] .leaf) 29327936 [⟨⟨(.inside 0),[],.lcomment,false,[],false⟩,false,false,[some (13,(.cr,true))],none,none,none,false,false,false,none,false,⟨.lcomment,none,false,.lblank⟩⟩] (.node .leaf 29769828 [⟨⟨.code,[47],.lcode,false,[],false⟩,false,false,[some (13,(.cr,true))],none,none,none,false,false,false,none,false,⟨.lcode,none,false,.lblank⟩⟩] .leaf)) 40406360 [⟨⟨.code,[47],.lblank,false,[],false⟩,false,false,[none],none,none,none,false,false,false,none,false,⟨.lcode,none,false,.lblank⟩⟩] (.node (.node .leaf 59406417 [⟨⟨.code,[47],.lblank,false,[],false⟩,false,false,[some (9,(.ws,false))],none,none,none,false,false,false,none,false,⟨.lcode,none,false,.lblank⟩⟩] .leaf) 61406423 [⟨⟨.code,[47],.lblank,false,[],false⟩,false,false,[some (10,(.lf,false))],none,none,none,false,false,false,none,false,⟨.lcode,none,false,.lblank⟩⟩] (.node .leaf 65406435 [⟨⟨.code,[47],.lblank,false,[],false⟩,false,false,[some (12,(.ff,false))],none,none,none,false,false,false,none,false,⟨.lcode,none,false,.lblank⟩⟩] .leaf))) 67406441 [⟨⟨.code,[47],.lblank,false,[],false⟩,false,false,[some (13,(.cr,false))],none,none,none,false,false,false,none,false,⟨.lcode,none,false,.lblank⟩⟩] (.node (.node (.node .leaf 68406444 [⟨⟨.code,[47],.lblank,false,[],false⟩,false,false,[some (13,(.cr,true))],none,none,none,false,false,false,none,false,⟨.lcode,none,false,.lblank⟩⟩] .leaf) 70769951 [⟨⟨.code,[47],.lcode,false,[],false⟩,false,false,[some (34,(.other,false))],none,none,none,false,false,false,none,false,⟨.lcode,none,false,.lblank⟩⟩] (.node .leaf 109406567 [⟨⟨.code,[47],.lblank,false,[],false⟩,false,false,[some (34,(.other,false))],none,none,none,false,false,false,none,false,⟨.lcode,none,false,.lblank⟩⟩] .leaf)) 186770299 [⟨⟨.code,[47],.lcode,false,[],false⟩,false,false,[some (92,(.other,false))],none,none,none,false,false,false,none,false,⟨.lcode,none,false,.lblank⟩⟩] (.node (.node .leaf 225406915 [⟨⟨.code,[47],.lblank,false,[],false⟩,false,false,[some (92,(.other,false))],none,none,none,false,false,false,none,false,⟨.lcode,none,false,.lblank⟩⟩] .leaf) 514771283 [⟨⟨.code,[47],.lcode,false,[],false⟩,false,false,[some (256,(.other,false))],none,none,none,false,false,false,none,false,⟨.lcode,none,false,.lblank⟩⟩] (.node .leaf 553407899 [⟨⟨.code,[47],.lblank,false,[],false⟩,false,false,[some (256,(.other,false))],none,none,none,false,false,false,none,false,⟨.lcode,none,false,.lblank⟩⟩] .leaf))))),(.node (.node .leaf 128 [⟨⟨.code,[],.lcode,false,[],false⟩,false,false,[],none,none,none,false,false,false,none,false,⟨.lcode,some (.own 0),false,.lblank⟩⟩] .leaf) 296088 [⟨⟨.code,[],.lblank,false,[],false⟩,false,false,[],none,none,none,false,false,false,none,false,⟨.lblank,some (.own 0),false,.lblank⟩⟩] .leaf),(.node (.node .leaf 160 [⟨⟨.code,[],.lcode,false,[],false⟩,true,false,[],none,none,none,false,false,false,none,false,⟨.lcode,some .newline,false,.lblank⟩⟩] .leaf) 148140 [⟨⟨.code,[],.lcomment,false,[],false⟩,true,false,[],none,none,none,false,false,false,none,false,⟨.lcomment,some .newline,false,.lblank⟩⟩] (.node .leaf 296120 [⟨⟨.code,[],.lblank,false,[],false⟩,true,false,[],none,none,none,false,false,false,none,false,⟨.lblank,some .newline,false,.lblank⟩⟩] .leaf)),(.node (.node .leaf 37011 [⟨⟨.code,[],.lcode,true,[],false⟩,false,true,[],none,none,none,false,false,false,none,false,⟨.lcode,some .newline,false,.lblank⟩⟩] .leaf) 184991 [⟨⟨.code,[],.lcomment,true,[],false⟩,false,true,[],none,none,none,false,false,false,none,false,⟨.lcomment,some .newline,false,.lblank⟩⟩] (.node .leaf 332971 [⟨⟨.code,[],.lblank,true,[],false⟩,false,true,[],none,none,none,false,false,false,none,false,⟨.lblank,some .newline,false,.lblank⟩⟩] .leaf)),(.node (.node .leaf 4129360 [⟨⟨(.inside 1),[],.lcode,false,[],false⟩,false,false,[],none,none,none,false,false,false,none,false,⟨.lcode,some (.own 3),true,.lcode⟩⟩] .leaf) 4129488 [⟨⟨(.inside 1),[],.lcode,false,[],false⟩,false,false,[],none,none,none,false,false,false,none,false,⟨.lcode,some (.own 3),true,.lblank⟩⟩] .leaf),(.node (.node .leaf 1769746 [⟨⟨.code,[47],.lcode,false,[],false⟩,false,false,[],none,none,none,false,false,true,none,false,⟨.lcode,some (.own 3),false,.lblank⟩⟩] .leaf) 40407386 [⟨⟨.code,[47],.lblank,false,[],false⟩,false,false,[],none,none,none,false,false,true,none,false,⟨.lblank,some (.own 3),false,.lblank⟩⟩] .leaf),(.node (.node (.node .leaf 4388229 [⟨⟨(.inside 1),[],.lcode,false,[],false⟩,false,false,[],some 4,some ⟨(.inside 1),[],.lcode,false,[],false⟩,none,false,false,false,none,false,⟨.lcode,some (.own 3),true,.lcode⟩⟩] .leaf) 4388237 [⟨⟨(.inside 1),[],.lcode,false,[],false⟩,false,false,[],some 4,some ⟨(.inside 1),[],.lcode,false,[],false⟩,none,true,false,false,none,false,⟨.lcode,some .internalNl,true,.lcode⟩⟩] .leaf) 4388357 [⟨⟨(.inside 1),[],.lcode,false,[],false⟩,false,false,[],some 4,some ⟨(.inside 1),[],.lcode,false,[],false⟩,none,false,false,false,none,false,⟨.lcode,some (.own 3),true,.lblank⟩⟩] (.node .leaf 4388365 [⟨⟨(.inside 1),[],.lcode,false,[],false⟩,false,false,[],some 4,some ⟨(.inside 1),[],.lcode,false,[],false⟩,none,true,false,false,none,false,⟨.lcode,some .internalNl,true,.lblank⟩⟩] .leaf)),(.node (.node (.node .leaf 4388229 [⟨⟨(.inside 1),[],.lcode,false,[],false⟩,false,false,[],some 4,some ⟨(.inside 1),[],.lcode,false,[],false⟩,none,false,false,false,none,false,⟨.lcode,some (.own 3),true,.lcode⟩⟩] .leaf) 4388237 [⟨⟨(.inside 1),[],.lcode,false,[],false⟩,false,false,[],some 4,some ⟨(.inside 1),[],.lcode,false,[],false⟩,none,true,false,false,none,false,⟨.lcode,some .internalNl,true,.lcode⟩⟩] (.node .leaf 4388357 [⟨⟨(.inside 1),[],.lcode,false,[],false⟩,false,false,[],some 4,some ⟨(.inside 1),[],.lcode,false,[],false⟩,none,false,false,false,none,false,⟨.lcode,some (.own 3),true,.lblank⟩⟩] .leaf)) 4388365 [⟨⟨(.inside 1),[],.lcode,false,[],false⟩,false,false,[],some 4,some ⟨(.inside 1),[],.lcode,false,[],false⟩,none,true,false,false,none,false,⟨.lcode,some .internalNl,true,.lblank⟩⟩] (.node (.node .leaf 4684197 [⟨⟨(.inside 1),[],.lblank,false,[],false⟩,false,false,[],some 4,some ⟨(.inside 1),[],.lcode,false,[],false⟩,none,true,false,false,none,false,⟨.lblank,some .internalNl,true,.lcode⟩⟩] .leaf) 4684325 [⟨⟨(.inside 1),[],.lblank,false,[],false⟩,false,false,[],some 4,some ⟨(.inside 1),[],.lcode,false,[],false⟩,none,true,false,false,none,false,⟨.lblank,some .internalNl,true,.lblank⟩⟩] .leaf)),(.node (.node (.node .leaf 4425096 [⟨⟨(.inside 1),[],.lcode,true,[],false⟩,false,false,[],some 4,some ⟨(.inside 1),[],.lcode,false,[],false⟩,none,false,false,false,none,false,⟨.lcode,some (.own 3),true,.lcode⟩⟩] .leaf) 4425104 [⟨⟨(.inside 1),[],.lcode,true,[],false⟩,false,false,[],some 4,some ⟨(.inside 1),[],.lcode,false,[],false⟩,none,true,false,false,none,false,⟨.lcode,some .internalNl,true,.lcode⟩⟩] (.node .leaf 4425224 [⟨⟨(.inside 1),[],.lcode,true,[],false⟩,false,false,[],some 4,some ⟨(.inside 1),[],.lcode,false,[],false⟩,none,false,false,false,none,false,⟨.lcode,some (.own 3),true,.lblank⟩⟩] .leaf)) 4425232 [⟨⟨(.inside 1),[],.lcode,true,[],false⟩,false,false,[],some 4,some ⟨(.inside 1),[],.lcode,false,[],false⟩,none,true,false,false,none,false,⟨.lcode,some .internalNl,true,.lblank⟩⟩] (.node (.node .leaf 4721064 [⟨⟨(.inside 1),[],.lblank,true,[],false⟩,false,false,[],some 4,some ⟨(.inside 1),[],.lcode,false,[],false⟩,none,true,false,false,none,false,⟨.lblank,some .internalNl,true,.lcode⟩⟩] .leaf) 4721192 [⟨⟨(.inside 1),[],.lblank,true,[],false⟩,false,false,[],some 4,some ⟨(.inside 1),[],.lcode,false,[],false⟩,none,true,false,false,none,false,⟨.lblank,some .internalNl,true,.lblank⟩⟩] .leaf)),(.node (.node (.node .leaf 4425096 [⟨⟨(.inside 1),[],.lcode,true,[],false⟩,false,false,[],some 4,some ⟨(.inside 1),[],.lcode,false,[],false⟩,none,false,false,false,none,false,⟨.lcode,some (.own 3),true,.lcode⟩⟩] .leaf) 4425104 [⟨⟨(.inside 1),[],.lcode,true,[],false⟩,false,false,[],some 4,some ⟨(.inside 1),[],.lcode,false,[],false⟩,none,true,false,false,none,false,⟨.lcode,some .internalNl,true,.lcode⟩⟩] (.node .leaf 4425224 [⟨⟨(.inside 1),[],.lcode,true,[],false⟩,false,false,[],some 4,some ⟨(.inside 1),[],.lcode,false,[],false⟩,none,false,false,false,none,false,⟨.lcode,some (.own 3),true,.lblank⟩⟩] .leaf)) 4425232 [⟨⟨(.inside 1),[],.lcode,true,[],false⟩,false,false,[],some 4,some ⟨(.inside 1),[],.lcode,false,[],false⟩,none,true,false,false,none,false,⟨.lcode,some .internalNl,true,.lblank⟩⟩] (.node (.node .leaf 4721064 [⟨⟨(.inside 1),[],.lblank,true,[],false⟩,false,false,[],some 4,some ⟨(.inside 1),[],.lcode,false,[],false⟩,none,true,false,false,none,false,⟨.lblank,some .internalNl,true,.lcode⟩⟩] .leaf) 4721192 [⟨⟨(.inside 1),[],.lblank,true,[],false⟩,false,false,[],some 4,some ⟨(.inside 1),[],.lcode,false,[],false⟩,none,true,false,false,none,false,⟨.lblank,some .internalNl,true,.lblank⟩⟩] .leaf)),(.node (.node (.node .leaf 4388261 [⟨⟨(.inside 1),[],.lcode,false,[],false⟩,true,false,[],some 4,some ⟨(.inside 1),[],.lcode,false,[],false⟩,none,false,false,false,none,false,⟨.lcode,some (.own 3),true,.lcode⟩⟩] .leaf) 4388269 [⟨⟨(.inside 1),[],.lcode,false,[],false⟩,true,false,[],some 4,some ⟨(.inside 1),[],.lcode,false,[],false⟩,none,true,false,false,none,false,⟨.lcode,some .internalNl,true,.lcode⟩⟩] (.node .leaf 4388389 [⟨⟨(.inside 1),[],.lcode,false,[],false⟩,true,false,[],some 4,some ⟨(.inside 1),[],.lcode,false,[],false⟩,none,false,false,false,none,false,⟨.lcode,some (.own 3),true,.lblank⟩⟩] .leaf)) 4388397 [⟨⟨(.inside 1),[],.lcode,false,[],false⟩,true,false,[],some 4,some ⟨(.inside 1),[],.lcode,false,[],false⟩,none,true,false,false,none,false,⟨.lcode,some .internalNl,true,.lblank⟩⟩] (.node (.node .leaf 4684229 [⟨⟨(.inside 1),[],.lblank,false,[],false⟩,true,false,[],some 4,some ⟨(.inside 1),[],.lcode,false,[],false⟩,none,true,false,false,none,false,⟨.lblank,some .internalNl,true,.lcode⟩⟩] .leaf) 4684357 [⟨⟨(.inside 1),[],.lblank,false,[],false⟩,true,false,[],some 4,some ⟨(.inside 1),[],.lcode,false,[],false⟩,none,true,false,false,none,false,⟨.lblank,some .internalNl,true,.lblank⟩⟩] .leaf)),(.node (.node (.node .leaf 4425112 [⟨⟨(.inside 1),[],.lcode,true,[],false⟩,false,true,[],some 4,some ⟨(.inside 1),[],.lcode,false,[],false⟩,none,false,false,false,none,false,⟨.lcode,some (.own 3),true,.lcode⟩⟩] .leaf) 4425120 [⟨⟨(.inside 1),[],.lcode,true,[],false⟩,false,true,[],some 4,some ⟨(.inside 1),[],.lcode,false,[],false⟩,none,true,false,false,none,false,⟨.lcode,some .internalNl,true,.lcode⟩⟩] (.node .leaf 4425240 [⟨⟨(.inside 1),[],.lcode,true,[],false⟩,false,true,[],some 4,some ⟨(.inside 1),[],.lcode,false,[],false⟩,none,false,false,false,none,false,⟨.lcode,some (.own 3),true,.lblank⟩⟩] .leaf)) 4425248 [⟨⟨(.inside 1),[],.lcode,true,[],false⟩,false,true,[],some 4,some ⟨(.inside 1),[],.lcode,false,[],false⟩,none,true,false,false,none,false,⟨.lcode,some .internalNl,true,.lblank⟩⟩] (.node (.node .leaf 4721080 [⟨⟨(.inside 1),[],.lblank,true,[],false⟩,false,true,[],some 4,some ⟨(.inside 1),[],.lcode,false,[],false⟩,none,true,false,false,none,false,⟨.lblank,some .internalNl,true,.lcode⟩⟩] .leaf) 4721208 [⟨⟨(.inside 1),[],.lblank,true,[],false⟩,false,true,[],some 4,some ⟨(.inside 1),[],.lcode,false,[],false⟩,none,true,false,false,none,false,⟨.lblank,some .internalNl,true,.lblank⟩⟩] .leaf)),(.node (.node .leaf 1179872 [⟨⟨(.inside 0),[],.lcode,false,[],false⟩,false,false,[],none,none,none,false,false,false,none,false,⟨.lcode,some (.own 3),false,.lblank⟩⟩] .leaf) 1327852 [⟨⟨(.inside 0),[],.lcomment,false,[],false⟩,false,false,[],none,none,none,false,false,false,none,false,⟨.lcomment,some (.own 3),false,.lblank⟩⟩] .leaf),(.node (.node (.node .leaf 4425096 [⟨⟨(.inside 1),[],.lcode,true,[],false⟩,false,false,[],some 4,some ⟨(.inside 1),[],.lcode,false,[],false⟩,none,false,false,false,none,false,⟨.lcode,some (.own 3),true,.lcode⟩⟩] .leaf) 4425104 [⟨⟨(.inside 1),[],.lcode,true,[],false⟩,false,false,[],some 4,some ⟨(.inside 1),[],.lcode,false,[],false⟩,none,true,false,false,none,false,⟨.lcode,some .internalNl,true,.lcode⟩⟩] (.node .leaf 4425224 [⟨⟨(.inside 1),[],.lcode,true,[],false⟩,false,false,[],some 4,some ⟨(.inside 1),[],.lcode,false,[],false⟩,none,false,false,false,none,false,⟨.lcode,some (.own 3),true,.lblank⟩⟩] .leaf)) 4425232 [⟨⟨(.inside 1),[],.lcode,true,[],false⟩,false,false,[],some 4,some ⟨(.inside 1),[],.lcode,false,[],false⟩,none,true,false,false,none,false,⟨.lcode,some .internalNl,true,.lblank⟩⟩] (.node (.node .leaf 4721064 [⟨⟨(.inside 1),[],.lblank,true,[],false⟩,false,false,[],some 4,some ⟨(.inside 1),[],.lcode,false,[],false⟩,none,true,false,false,none,false,⟨.lblank,some .internalNl,true,.lcode⟩⟩] .leaf) 4721192 [⟨⟨(.inside 1),[],.lblank,true,[],false⟩,false,false,[],some 4,some ⟨(.inside 1),[],.lcode,false,[],false⟩,none,true,false,false,none,false,⟨.lblank,some .internalNl,true,.lblank⟩⟩] .leaf)),.leaf,(.node (.node .leaf 1179872 [⟨⟨(.inside 0),[],.lcode,false,[],false⟩,false,false,[],none,none,none,false,false,false,none,false,⟨.lcode,some (.own 3),false,.lblank⟩⟩] .leaf) 1327852 [⟨⟨(.inside 0),[],.lcomment,false,[],false⟩,false,false,[],none,none,none,false,false,false,none,false,⟨.lcomment,some (.own 3),false,.lblank⟩⟩] .leaf)]
theorem grace_line_lClosed : CA.closedF grace_line_M grace_line_lex true false grace_line_lfr grace_line_lTab = true := by decide +kernel
def grace_line_L : LCert LexisTable.grace_line grace_line_M := grace_line_lex_eq ▸ ⟨⟨grace_line_lmasks, grace_line_lex.rel, grace_line_lcs, grace_line_lrows, grace_line_lmasksIn, grace_line_lrepOk, grace_line_lrowsOk⟩,
  _, rfl, by decide +kernel, by decide +kernel, true, false, CA.closed_of grace_line_lfrOk grace_line_lClosed⟩
theorem grace_line_L_chk : grace_line_L.chk = true := by
  have : ∀ (l : Lexis) (h : LexisTable.grace_line = l) (C : LCert l grace_line_M), (h ▸ C : LCert LexisTable.grace_line grace_line_M).chk = C.chk := by rintro _ rfl _; rfl
  exact this _ grace_line_lex_eq _

def hx_line_lex : Lexis := [⟨[47,47],[],.lcomment,false,false,true,false,true,true,true,false,none,false,false,false,false,[]⟩,⟨[47,42],[[42,47]],.lcomment,true,false,false,true,false,false,true,false,none,false,false,false,false,[]⟩,⟨[39],[[39]],.lcode,false,true,true,true,false,false,true,false,none,false,false,false,false,[]⟩,⟨[34],[[34]],.lcode,false,true,true,true,false,false,true,false,none,false,false,false,false,[]⟩]
theorem hx_line_lex_eq : LexisTable.hx_line = hx_line_lex := by decide +kernel
def hx_line_lmasks : List Nat := [4294967808,140737488355328,549755813888,17179869184,8192,1024,4096,115792089237316195423570985008687907853269984665640564039457584007908834656767,4951760157141521099596496896,115792089237316195423570985008687907853269984665640564039457584007908834658815,4398046511104,115792089237316195423570985008687907853269984665635612279300442486263777315839,115792089237316195423570985008687907853269984665640564039457584007913129626623,115792089237316195423570985008687907853269984665635612279300442486796353260543]
def hx_line_lcs : List (Nat × Nat) := [(0,115792089237316195423570985008687907853269984665635612279300442341106767610367),(9,4294967808),(10,1024),(11,2048),(12,4096),(13,8192),(34,17179869184),(39,549755813888),(42,4398046511104),(47,140737488355328),(92,4951760157141521099596496896)]
theorem hx_line_lmasksIn : masksIn hx_line_nfa hx_line_lmasks = true := by decide +kernel
theorem hx_line_lrepOk : repOk hx_line_lmasks hx_line_lcs = true := by decide +kernel
def hx_line_lrows : List Row := [⟨[],none,[],[⟨256,.other,false,some ⟨0,[.setEnt (.own 3)],some 4,true⟩⟩,⟨256,.ws,false,some ⟨1,[.setEnt (.own 0)],some 0,false⟩⟩,⟨256,.lf,false,some ⟨0,[.setEnt .newline],some 3,true⟩⟩,⟨256,.vt,false,none⟩,⟨256,.ff,false,some ⟨0,[.setEnt .newline],some 3,true⟩⟩,⟨256,.cr,false,some ⟨2,[.setEnt .newline],none,false⟩⟩,⟨256,.cr,true,some ⟨3,[.setEnt .newline],some 3,false⟩⟩,⟨34,.other,false,some ⟨4,[.code,.setEnt (.own 3)],some 4,false⟩⟩,⟨39,.other,false,some ⟨5,[.code,.setEnt (.own 3)],some 4,false⟩⟩,⟨42,.other,false,some ⟨0,[.setEnt (.own 3)],some 4,true⟩⟩,⟨47,.other,false,some ⟨6,[.setEnt (.own 3)],some 4,false⟩⟩,⟨92,.other,false,some ⟨0,[.setEnt (.own 3)],some 4,true⟩⟩]⟩,⟨[0],some 0,[],[⟨256,.other,false,none⟩,⟨256,.ws,false,some ⟨1,[.setEnt (.own 0)],some 0,false⟩⟩,⟨256,.lf,false,none⟩,⟨256,.vt,false,none⟩,⟨256,.ff,false,none⟩,⟨256,.cr,false,none⟩,⟨256,.cr,true,none⟩,⟨34,.other,false,none⟩,⟨39,.other,false,none⟩,⟨42,.other,false,none⟩,⟨47,.other,false,none⟩,⟨92,.other,false,none⟩]⟩,⟨[32],none,[],[⟨256,.other,false,none⟩,⟨256,.ws,false,none⟩,⟨256,.lf,false,some ⟨0,[.setEnt .newline],some 3,true⟩⟩,⟨256,.vt,false,none⟩,⟨256,.ff,false,none⟩,⟨256,.cr,false,none⟩,⟨256,.cr,true,none⟩,⟨34,.other,false,none⟩,⟨39,.other,false,none⟩,⟨42,.other,false,none⟩,⟨47,.other,false,none⟩,⟨92,.other,false,none⟩]⟩,⟨[32,36],some 3,[],[⟨256,.other,false,none⟩,⟨256,.ws,false,none⟩,⟨256,.lf,false,some ⟨0,[.setEnt .newline],some 3,true⟩⟩,⟨256,.vt,false,none⟩,⟨256,.ff,false,none⟩,⟨256,.cr,false,none⟩,⟨256,.cr,true,none⟩,⟨34,.other,false,none⟩,⟨39,.other,false,none⟩,⟨42,.other,false,none⟩,⟨47,.other,false,none⟩,⟨92,.other,false,none⟩]⟩,⟨[27,37],some 4,[],[⟨256,.other,false,some ⟨7,[],none,false⟩⟩,⟨256,.ws,false,some ⟨7,[],none,false⟩⟩,⟨256,.lf,false,none⟩,⟨256,.vt,false,some ⟨7,[],none,false⟩⟩,⟨256,.ff,false,none⟩,⟨256,.cr,false,none⟩,⟨256,.cr,true,none⟩,⟨34,.other,false,some ⟨0,[],some 2,true⟩⟩,⟨39,.other,false,some ⟨7,[],none,false⟩⟩,⟨42,.other,false,some ⟨7,[],none,false⟩⟩,⟨47,.other,false,some ⟨7,[],none,false⟩⟩,⟨92,.other,false,some ⟨8,[],none,false⟩⟩]⟩,⟨[22,37],some 4,[],[⟨256,.other,false,some ⟨9,[],none,false⟩⟩,⟨256,.ws,false,some ⟨9,[],none,false⟩⟩,⟨256,.lf,false,none⟩,⟨256,.vt,false,some ⟨9,[],none,false⟩⟩,⟨256,.ff,false,none⟩,⟨256,.cr,false,none⟩,⟨256,.cr,true,none⟩,⟨34,.other,false,some ⟨9,[],none,false⟩⟩,⟨39,.other,false,some ⟨0,[],some 2,true⟩⟩,⟨42,.other,false,some ⟨9,[],none,false⟩⟩,⟨47,.other,false,some ⟨9,[],none,false⟩⟩,⟨92,.other,false,some ⟨10,[],none,false⟩⟩]⟩,⟨[1,11,37],some 4,[],[⟨256,.other,false,none⟩,⟨256,.ws,false,none⟩,⟨256,.lf,false,none⟩,⟨256,.vt,false,none⟩,⟨256,.ff,false,none⟩,⟨256,.cr,false,none⟩,⟨256,.cr,true,none⟩,⟨34,.other,false,none⟩,⟨39,.other,false,none⟩,⟨42,.other,false,some ⟨11,[.comment],none,false⟩⟩,⟨47,.other,false,some ⟨12,[.comment],some 1,false⟩⟩,⟨92,.other,false,none⟩]⟩,⟨[28],none,[],[⟨256,.other,false,some ⟨7,[],none,false⟩⟩,⟨256,.ws,false,some ⟨7,[],none,false⟩⟩,⟨256,.lf,false,none⟩,⟨256,.vt,false,some ⟨7,[],none,false⟩⟩,⟨256,.ff,false,none⟩,⟨256,.cr,false,none⟩,⟨256,.cr,true,none⟩,⟨34,.other,false,some ⟨0,[],some 2,true⟩⟩,⟨39,.other,false,some ⟨7,[],none,false⟩⟩,⟨42,.other,false,some ⟨7,[],none,false⟩⟩,⟨47,.other,false,some ⟨7,[],none,false⟩⟩,⟨92,.other,false,some ⟨8,[],none,false⟩⟩]⟩,⟨[29],none,[],[⟨256,.other,false,some ⟨13,[],none,false⟩⟩,⟨256,.ws,false,some ⟨13,[],none,false⟩⟩,⟨256,.lf,false,none⟩,⟨256,.vt,false,some ⟨13,[],none,false⟩⟩,⟨256,.ff,false,none⟩,⟨256,.cr,false,none⟩,⟨256,.cr,true,none⟩,⟨34,.other,false,some ⟨13,[],none,false⟩⟩,⟨39,.other,false,some ⟨13,[],none,false⟩⟩,⟨42,.other,false,some ⟨13,[],none,false⟩⟩,⟨47,.other,false,some ⟨13,[],none,false⟩⟩,⟨92,.other,false,some ⟨13,[],none,false⟩⟩]⟩,⟨[23],none,[],[⟨256,.other,false,some ⟨9,[],none,false⟩⟩,⟨256,.ws,false,some ⟨9,[],none,false⟩⟩,⟨256,.lf,false,none⟩,⟨256,.vt,false,some ⟨9,[],none,false⟩⟩,⟨256,.ff,false,none⟩,⟨256,.cr,false,none⟩,⟨256,.cr,true,none⟩,⟨34,.other,false,some ⟨9,[],none,false⟩⟩,⟨39,.other,false,some ⟨0,[],some 2,true⟩⟩,⟨42,.other,false,some ⟨9,[],none,false⟩⟩,⟨47,.other,false,some ⟨9,[],none,false⟩⟩,⟨92,.other,false,some ⟨10,[],none,false⟩⟩]⟩,⟨[24],none,[],[⟨256,.other,false,some ⟨14,[],none,false⟩⟩,⟨256,.ws,false,some ⟨14,[],none,false⟩⟩,⟨256,.lf,false,none⟩,⟨256,.vt,false,some ⟨14,[],none,false⟩⟩,⟨256,.ff,false,none⟩,⟨256,.cr,false,none⟩,⟨256,.cr,true,none⟩,⟨34,.other,false,some ⟨14,[],none,false⟩⟩,⟨39,.other,false,some ⟨14,[],none,false⟩⟩,⟨42,.other,false,some ⟨14,[],none,false⟩⟩,⟨47,.other,false,some ⟨14,[],none,false⟩⟩,⟨92,.other,false,some ⟨14,[],none,false⟩⟩]⟩,⟨[12],none,[],[⟨256,.other,false,some ⟨15,[.comment],none,false⟩⟩,⟨256,.ws,false,some ⟨16,[],none,false⟩⟩,⟨256,.lf,false,some ⟨17,[],none,false⟩⟩,⟨256,.vt,false,some ⟨15,[.comment],none,false⟩⟩,⟨256,.ff,false,some ⟨18,[],none,false⟩⟩,⟨256,.cr,false,some ⟨19,[],none,false⟩⟩,⟨256,.cr,true,some ⟨20,[],none,false⟩⟩,⟨34,.other,false,some ⟨15,[.comment],none,false⟩⟩,⟨39,.other,false,some ⟨15,[.comment],none,false⟩⟩,⟨42,.other,false,some ⟨21,[.comment],none,false⟩⟩,⟨47,.other,false,some ⟨15,[.comment],none,false⟩⟩,⟨92,.other,false,some ⟨15,[.comment],none,false⟩⟩]⟩,⟨[2],some 1,[],[⟨256,.other,false,some ⟨22,[.comment],some 1,false⟩⟩,⟨256,.ws,false,some ⟨23,[],some 1,false⟩⟩,⟨256,.lf,false,none⟩,⟨256,.vt,false,some ⟨22,[.comment],some 1,false⟩⟩,⟨256,.ff,false,none⟩,⟨256,.cr,false,none⟩,⟨256,.cr,true,none⟩,⟨34,.other,false,some ⟨22,[.comment],some 1,false⟩⟩,⟨39,.other,false,some ⟨22,[.comment],some 1,false⟩⟩,⟨42,.other,false,some ⟨22,[.comment],some 1,false⟩⟩,⟨47,.other,false,some ⟨22,[.comment],some 1,false⟩⟩,⟨92,.other,false,some ⟨24,[.comment],some 1,false⟩⟩]⟩,⟨[30],none,[],[⟨256,.other,false,some ⟨7,[],none,false⟩⟩,⟨256,.ws,false,some ⟨7,[],none,false⟩⟩,⟨256,.lf,false,none⟩,⟨256,.vt,false,some ⟨7,[],none,false⟩⟩,⟨256,.ff,false,none⟩,⟨256,.cr,false,none⟩,⟨256,.cr,true,none⟩,⟨34,.other,false,some ⟨0,[],some 2,true⟩⟩,⟨39,.other,false,some ⟨7,[],none,false⟩⟩,⟨42,.other,false,some ⟨7,[],none,false⟩⟩,⟨47,.other,false,some ⟨7,[],none,false⟩⟩,⟨92,.other,false,some ⟨8,[],none,false⟩⟩]⟩,⟨[25],none,[],[⟨256,.other,false,some ⟨9,[],none,false⟩⟩,⟨256,.ws,false,some ⟨9,[],none,false⟩⟩,⟨256,.lf,false,none⟩,⟨256,.vt,false,some ⟨9,[],none,false⟩⟩,⟨256,.ff,false,none⟩,⟨256,.cr,false,none⟩,⟨256,.cr,true,none⟩,⟨34,.other,false,some ⟨9,[],none,false⟩⟩,⟨39,.other,false,some ⟨0,[],some 2,true⟩⟩,⟨42,.other,false,some ⟨9,[],none,false⟩⟩,⟨47,.other,false,some ⟨9,[],none,false⟩⟩,⟨92,.other,false,some ⟨10,[],none,false⟩⟩]⟩,⟨[19],none,[],[⟨256,.other,false,some ⟨15,[.comment],none,false⟩⟩,⟨256,.ws,false,some ⟨16,[],none,false⟩⟩,⟨256,.lf,false,some ⟨17,[],none,false⟩⟩,⟨256,.vt,false,some ⟨15,[.comment],none,false⟩⟩,⟨256,.ff,false,some ⟨18,[],none,false⟩⟩,⟨256,.cr,false,some ⟨19,[],none,false⟩⟩,⟨256,.cr,true,some ⟨20,[],none,false⟩⟩,⟨34,.other,false,some ⟨15,[.comment],none,false⟩⟩,⟨39,.other,false,some ⟨15,[.comment],none,false⟩⟩,⟨42,.other,false,some ⟨21,[.comment],none,false⟩⟩,⟨47,.other,false,some ⟨15,[.comment],none,false⟩⟩,⟨92,.other,false,some ⟨15,[.comment],none,false⟩⟩]⟩,⟨[18],none,[],[⟨256,.other,false,some ⟨15,[.comment],none,false⟩⟩,⟨256,.ws,false,some ⟨16,[],none,false⟩⟩,⟨256,.lf,false,some ⟨17,[],none,false⟩⟩,⟨256,.vt,false,some ⟨15,[.comment],none,false⟩⟩,⟨256,.ff,false,some ⟨18,[],none,false⟩⟩,⟨256,.cr,false,some ⟨19,[],none,false⟩⟩,⟨256,.cr,true,some ⟨20,[],none,false⟩⟩,⟨34,.other,false,some ⟨15,[.comment],none,false⟩⟩,⟨39,.other,false,some ⟨15,[.comment],none,false⟩⟩,⟨42,.other,false,some ⟨21,[.comment],none,false⟩⟩,⟨47,.other,false,some ⟨15,[.comment],none,false⟩⟩,⟨92,.other,false,some ⟨15,[.comment],none,false⟩⟩]⟩,⟨[15],none,[],[⟨256,.other,false,some ⟨15,[.setEnt .internalNl,.cb,.comment],none,false⟩⟩,⟨256,.ws,false,some ⟨16,[.setEnt .internalNl,.cb],none,false⟩⟩,⟨256,.lf,false,some ⟨17,[.setEnt .internalNl,.cb],none,false⟩⟩,⟨256,.vt,false,some ⟨15,[.setEnt .internalNl,.cb,.comment],none,false⟩⟩,⟨256,.ff,false,some ⟨18,[.setEnt .internalNl,.cb],none,false⟩⟩,⟨256,.cr,false,some ⟨19,[.setEnt .internalNl,.cb],none,false⟩⟩,⟨256,.cr,true,some ⟨20,[.setEnt .internalNl,.cb],none,false⟩⟩,⟨34,.other,false,some ⟨15,[.setEnt .internalNl,.cb,.comment],none,false⟩⟩,⟨39,.other,false,some ⟨15,[.setEnt .internalNl,.cb,.comment],none,false⟩⟩,⟨42,.other,false,some ⟨21,[.setEnt .internalNl,.cb,.comment],none,false⟩⟩,⟨47,.other,false,some ⟨15,[.setEnt .internalNl,.cb,.comment],none,false⟩⟩,⟨92,.other,false,some ⟨15,[.setEnt .internalNl,.cb,.comment],none,false⟩⟩]⟩,⟨[16],none,[],[⟨256,.other,false,some ⟨15,[.setEnt .internalNl,.cb,.comment],none,false⟩⟩,⟨256,.ws,false,some ⟨16,[.setEnt .internalNl,.cb],none,false⟩⟩,⟨256,.lf,false,some ⟨17,[.setEnt .internalNl,.cb],none,false⟩⟩,⟨256,.vt,false,some ⟨15,[.setEnt .internalNl,.cb,.comment],none,false⟩⟩,⟨256,.ff,false,some ⟨18,[.setEnt .internalNl,.cb],none,false⟩⟩,⟨256,.cr,false,some ⟨19,[.setEnt .internalNl,.cb],none,false⟩⟩,⟨256,.cr,true,some ⟨20,[.setEnt .internalNl,.cb],none,false⟩⟩,⟨34,.other,false,some ⟨15,[.setEnt .internalNl,.cb,.comment],none,false⟩⟩,⟨39,.other,false,some ⟨15,[.setEnt .internalNl,.cb,.comment],none,false⟩⟩,⟨42,.other,false,some ⟨21,[.setEnt .internalNl,.cb,.comment],none,false⟩⟩,⟨47,.other,false,some ⟨15,[.setEnt .internalNl,.cb,.comment],none,false⟩⟩,⟨92,.other,false,some ⟨15,[.setEnt .internalNl,.cb,.comment],none,false⟩⟩]⟩,⟨[13],none,[],[⟨256,.other,false,none⟩,⟨256,.ws,false,none⟩,⟨256,.lf,false,some ⟨25,[],none,false⟩⟩,⟨256,.vt,false,none⟩,⟨256,.ff,false,none⟩,⟨256,.cr,false,none⟩,⟨256,.cr,true,none⟩,⟨34,.other,false,none⟩,⟨39,.other,false,none⟩,⟨42,.other,false,none⟩,⟨47,.other,false,none⟩,⟨92,.other,false,none⟩]⟩,⟨[13,17],none,[],[⟨256,.other,false,some ⟨15,[.setEnt .internalNl,.cb,.comment],none,false⟩⟩,⟨256,.ws,false,some ⟨16,[.setEnt .internalNl,.cb],none,false⟩⟩,⟨256,.lf,false,some ⟨26,[.setEnt .internalNl,.cb],none,false⟩⟩,⟨256,.vt,false,some ⟨15,[.setEnt .internalNl,.cb,.comment],none,false⟩⟩,⟨256,.ff,false,some ⟨18,[.setEnt .internalNl,.cb],none,false⟩⟩,⟨256,.cr,false,some ⟨19,[.setEnt .internalNl,.cb],none,false⟩⟩,⟨256,.cr,true,some ⟨20,[.setEnt .internalNl,.cb],none,false⟩⟩,⟨34,.other,false,some ⟨15,[.setEnt .internalNl,.cb,.comment],none,false⟩⟩,⟨39,.other,false,some ⟨15,[.setEnt .internalNl,.cb,.comment],none,false⟩⟩,⟨42,.other,false,some ⟨21,[.setEnt .internalNl,.cb,.comment],none,false⟩⟩,⟨47,.other,false,some ⟨15,[.setEnt .internalNl,.cb,.comment],none,false⟩⟩,⟨92,.other,false,some ⟨15,[.setEnt .internalNl,.cb,.comment],none,false⟩⟩]⟩,⟨[19,20],none,[],[⟨256,.other,false,some ⟨15,[.comment],none,false⟩⟩,⟨256,.ws,false,some ⟨16,[],none,false⟩⟩,⟨256,.lf,false,some ⟨17,[],none,false⟩⟩,⟨256,.vt,false,some ⟨15,[.comment],none,false⟩⟩,⟨256,.ff,false,some ⟨18,[],none,false⟩⟩,⟨256,.cr,false,some ⟨19,[],none,false⟩⟩,⟨256,.cr,true,some ⟨20,[],none,false⟩⟩,⟨34,.other,false,some ⟨15,[.comment],none,false⟩⟩,⟨39,.other,false,some ⟨15,[.comment],none,false⟩⟩,⟨42,.other,false,some ⟨21,[.comment],none,false⟩⟩,⟨47,.other,false,some ⟨0,[],some 1,true⟩⟩,⟨92,.other,false,some ⟨15,[.comment],none,false⟩⟩]⟩,⟨[10],some 1,[],[⟨256,.other,false,some ⟨22,[.comment],some 1,false⟩⟩,⟨256,.ws,false,some ⟨23,[],some 1,false⟩⟩,⟨256,.lf,false,none⟩,⟨256,.vt,false,some ⟨22,[.comment],some 1,false⟩⟩,⟨256,.ff,false,none⟩,⟨256,.cr,false,none⟩,⟨256,.cr,true,none⟩,⟨34,.other,false,some ⟨22,[.comment],some 1,false⟩⟩,⟨39,.other,false,some ⟨22,[.comment],some 1,false⟩⟩,⟨42,.other,false,some ⟨22,[.comment],some 1,false⟩⟩,⟨47,.other,false,some ⟨22,[.comment],some 1,false⟩⟩,⟨92,.other,false,some ⟨24,[.comment],some 1,false⟩⟩]⟩,⟨[9],some 1,[],[⟨256,.other,false,some ⟨22,[.comment],some 1,false⟩⟩,⟨256,.ws,false,some ⟨23,[],some 1,false⟩⟩,⟨256,.lf,false,none⟩,⟨256,.vt,false,some ⟨22,[.comment],some 1,false⟩⟩,⟨256,.ff,false,none⟩,⟨256,.cr,false,none⟩,⟨256,.cr,true,none⟩,⟨34,.other,false,some ⟨22,[.comment],some 1,false⟩⟩,⟨39,.other,false,some ⟨22,[.comment],some 1,false⟩⟩,⟨42,.other,false,some ⟨22,[.comment],some 1,false⟩⟩,⟨47,.other,false,some ⟨22,[.comment],some 1,false⟩⟩,⟨92,.other,false,some ⟨24,[.comment],some 1,false⟩⟩]⟩,⟨[3,10],some 1,[],[⟨256,.other,false,some ⟨22,[.comment],some 1,false⟩⟩,⟨256,.ws,false,some ⟨23,[],some 1,false⟩⟩,⟨256,.lf,false,some ⟨27,[],some 1,false⟩⟩,⟨256,.vt,false,some ⟨22,[.comment],some 1,false⟩⟩,⟨256,.ff,false,some ⟨28,[],some 1,false⟩⟩,⟨256,.cr,false,some ⟨29,[],none,false⟩⟩,⟨256,.cr,true,some ⟨30,[],some 1,false⟩⟩,⟨34,.other,false,some ⟨22,[.comment],some 1,false⟩⟩,⟨39,.other,false,some ⟨22,[.comment],some 1,false⟩⟩,⟨42,.other,false,some ⟨22,[.comment],some 1,false⟩⟩,⟨47,.other,false,some ⟨22,[.comment],some 1,false⟩⟩,⟨92,.other,false,some ⟨24,[.comment],some 1,false⟩⟩]⟩,⟨[14],none,[],[⟨256,.other,false,some ⟨15,[.setEnt .internalNl,.cb,.comment],none,false⟩⟩,⟨256,.ws,false,some ⟨16,[.setEnt .internalNl,.cb],none,false⟩⟩,⟨256,.lf,false,some ⟨17,[.setEnt .internalNl,.cb],none,false⟩⟩,⟨256,.vt,false,some ⟨15,[.setEnt .internalNl,.cb,.comment],none,false⟩⟩,⟨256,.ff,false,some ⟨18,[.setEnt .internalNl,.cb],none,false⟩⟩,⟨256,.cr,false,some ⟨19,[.setEnt .internalNl,.cb],none,false⟩⟩,⟨256,.cr,true,some ⟨20,[.setEnt .internalNl,.cb],none,false⟩⟩,⟨34,.other,false,some ⟨15,[.setEnt .internalNl,.cb,.comment],none,false⟩⟩,⟨39,.other,false,some ⟨15,[.setEnt .internalNl,.cb,.comment],none,false⟩⟩,⟨42,.other,false,some ⟨21,[.setEnt .internalNl,.cb,.comment],none,false⟩⟩,⟨47,.other,false,some ⟨15,[.setEnt .internalNl,.cb,.comment],none,false⟩⟩,⟨92,.other,false,some ⟨15,[.setEnt .internalNl,.cb,.comment],none,false⟩⟩]⟩,⟨[14,15],none,[],[⟨256,.other,false,some ⟨15,[.setEnt .internalNl,.cb,.comment],none,false⟩⟩,⟨256,.ws,false,some ⟨16,[.setEnt .internalNl,.cb],none,false⟩⟩,⟨256,.lf,false,some ⟨17,[.setEnt .internalNl,.cb],none,false⟩⟩,⟨256,.vt,false,some ⟨15,[.setEnt .internalNl,.cb,.comment],none,false⟩⟩,⟨256,.ff,false,some ⟨18,[.setEnt .internalNl,.cb],none,false⟩⟩,⟨256,.cr,false,some ⟨19,[.setEnt .internalNl,.cb],none,false⟩⟩,⟨256,.cr,true,some ⟨20,[.setEnt .internalNl,.cb],none,false⟩⟩,⟨34,.other,false,some ⟨15,[.setEnt .internalNl,.cb,.comment],none,false⟩⟩,⟨39,.other,false,some ⟨15,[.setEnt .internalNl,.cb,.comment],none,false⟩⟩,⟨42,.other,false,some ⟨21,[.setEnt .internalNl,.cb,.comment],none,false⟩⟩,⟨47,.other,false,some ⟨15,[.setEnt .internalNl,.cb,.comment],none,false⟩⟩,⟨92,.other,false,some ⟨15,[.setEnt .internalNl,.cb,.comment],none,false⟩⟩]⟩,⟨[6],some 1,[.setEnt .internalNl,.cb],[⟨256,.other,false,some ⟨22,[.setEnt .internalNl,.cb,.comment],some 1,false⟩⟩,⟨256,.ws,false,some ⟨23,[.setEnt .internalNl,.cb],some 1,false⟩⟩,⟨256,.lf,false,none⟩,⟨256,.vt,false,some ⟨22,[.setEnt .internalNl,.cb,.comment],some 1,false⟩⟩,⟨256,.ff,false,none⟩,⟨256,.cr,false,none⟩,⟨256,.cr,true,none⟩,⟨34,.other,false,some ⟨22,[.setEnt .internalNl,.cb,.comment],some 1,false⟩⟩,⟨39,.other,false,some ⟨22,[.setEnt .internalNl,.cb,.comment],some 1,false⟩⟩,⟨42,.other,false,some ⟨22,[.setEnt .internalNl,.cb,.comment],some 1,false⟩⟩,⟨47,.other,false,some ⟨22,[.setEnt .internalNl,.cb,.comment],some 1,false⟩⟩,⟨92,.other,false,some ⟨24,[.setEnt .internalNl,.cb,.comment],some 1,false⟩⟩]⟩,⟨[7],some 1,[.setEnt .internalNl,.cb],[⟨256,.other,false,some ⟨22,[.setEnt .internalNl,.cb,.comment],some 1,false⟩⟩,⟨256,.ws,false,some ⟨23,[.setEnt .internalNl,.cb],some 1,false⟩⟩,⟨256,.lf,false,none⟩,⟨256,.vt,false,some ⟨22,[.setEnt .internalNl,.cb,.comment],some 1,false⟩⟩,⟨256,.ff,false,none⟩,⟨256,.cr,false,none⟩,⟨256,.cr,true,none⟩,⟨34,.other,false,some ⟨22,[.setEnt .internalNl,.cb,.comment],some 1,false⟩⟩,⟨39,.other,false,some ⟨22,[.setEnt .internalNl,.cb,.comment],some 1,false⟩⟩,⟨42,.other,false,some ⟨22,[.setEnt .internalNl,.cb,.comment],some 1,false⟩⟩,⟨47,.other,false,some ⟨22,[.setEnt .internalNl,.cb,.comment],some 1,false⟩⟩,⟨92,.other,false,some ⟨24,[.setEnt .internalNl,.cb,.comment],some 1,false⟩⟩]⟩,⟨[4],none,[],[⟨256,.other,false,none⟩,⟨256,.ws,false,none⟩,⟨256,.lf,false,some ⟨31,[],some 1,false⟩⟩,⟨256,.vt,false,none⟩,⟨256,.ff,false,none⟩,⟨256,.cr,false,none⟩,⟨256,.cr,true,none⟩,⟨34,.other,false,none⟩,⟨39,.other,false,none⟩,⟨42,.other,false,none⟩,⟨47,.other,false,none⟩,⟨92,.other,false,none⟩]⟩,⟨[4,8],some 1,[.setEnt .internalNl,.cb],[⟨256,.other,false,some ⟨22,[.setEnt .internalNl,.cb,.comment],some 1,false⟩⟩,⟨256,.ws,false,some ⟨23,[.setEnt .internalNl,.cb],some 1,false⟩⟩,⟨256,.lf,false,some ⟨31,[],some 1,false⟩⟩,⟨256,.vt,false,some ⟨22,[.setEnt .internalNl,.cb,.comment],some 1,false⟩⟩,⟨256,.ff,false,none⟩,⟨256,.cr,false,none⟩,⟨256,.cr,true,none⟩,⟨34,.other,false,some ⟨22,[.setEnt .internalNl,.cb,.comment],some 1,false⟩⟩,⟨39,.other,false,some ⟨22,[.setEnt .internalNl,.cb,.comment],some 1,false⟩⟩,⟨42,.other,false,some ⟨22,[.setEnt .internalNl,.cb,.comment],some 1,false⟩⟩,⟨47,.other,false,some ⟨22,[.setEnt .internalNl,.cb,.comment],some 1,false⟩⟩,⟨92,.other,false,some ⟨24,[.setEnt .internalNl,.cb,.comment],some 1,false⟩⟩]⟩,⟨[5],some 1,[.setEnt .internalNl,.cb],[⟨256,.other,false,some ⟨22,[.setEnt .internalNl,.cb,.comment],some 1,false⟩⟩,⟨256,.ws,false,some ⟨23,[.setEnt .internalNl,.cb],some 1,false⟩⟩,⟨256,.lf,false,none⟩,⟨256,.vt,false,some ⟨22,[.setEnt .internalNl,.cb,.comment],some 1,false⟩⟩,⟨256,.ff,false,none⟩,⟨256,.cr,false,none⟩,⟨256,.cr,true,none⟩,⟨34,.other,false,some ⟨22,[.setEnt .internalNl,.cb,.comment],some 1,false⟩⟩,⟨39,.other,false,some ⟨22,[.setEnt .internalNl,.cb,.comment],some 1,false⟩⟩,⟨42,.other,false,some ⟨22,[.setEnt .internalNl,.cb,.comment],some 1,false⟩⟩,⟨47,.other,false,some ⟨22,[.setEnt .internalNl,.cb,.comment],some 1,false⟩⟩,⟨92,.other,false,some ⟨24,[.setEnt .internalNl,.cb,.comment],some 1,false⟩⟩]⟩]
theorem hx_line_lrowsOk : rowsOk hx_line_nfa hx_line_lex.rel (hx_line_lcs.map (·.1)) hx_line_lrows = true := by decide +kernel
def hx_line_lfr : List CA.FRow := [⟨true,none,[],[⟨256,.other,false,false,none,some ([.setEnt (.own 3)],(some 4,true))⟩,⟨9,.ws,false,false,some 1,some ([.setEnt (.own 0)],(some 0,false))⟩,⟨10,.lf,false,true,none,some ([.setEnt .newline],(some 3,true))⟩,⟨11,.vt,false,false,none,none⟩,⟨12,.ff,false,true,none,some ([.setEnt .newline],(some 3,true))⟩,⟨13,.cr,false,false,some 2,some ([.setEnt .newline],(none,false))⟩,⟨13,.cr,true,true,some 3,some ([.setEnt .newline],(some 3,false))⟩,⟨34,.other,false,false,some 4,some ([.code,.setEnt (.own 3)],(some 4,false))⟩,⟨39,.other,false,false,some 5,some ([.code,.setEnt (.own 3)],(some 4,false))⟩,⟨42,.other,false,false,none,some ([.setEnt (.own 3)],(some 4,true))⟩,⟨47,.other,false,false,some 6,some ([.setEnt (.own 3)],(some 4,false))⟩,⟨92,.other,false,false,none,some ([.setEnt (.own 3)],(some 4,true))⟩]⟩,⟨false,some 0,[],[⟨256,.other,false,false,none,none⟩,⟨9,.ws,false,false,some 1,some ([.setEnt (.own 0)],(some 0,false))⟩,⟨10,.lf,false,true,none,none⟩,⟨11,.vt,false,false,none,none⟩,⟨12,.ff,false,true,none,none⟩,⟨13,.cr,false,false,none,none⟩,⟨13,.cr,true,true,none,none⟩,⟨34,.other,false,false,none,none⟩,⟨39,.other,false,false,none,none⟩,⟨42,.other,false,false,none,none⟩,⟨47,.other,false,false,none,none⟩,⟨92,.other,false,false,none,none⟩]⟩,⟨false,none,[],[⟨256,.other,false,false,none,none⟩,⟨9,.ws,false,false,none,none⟩,⟨10,.lf,false,true,none,some ([.setEnt .newline],(some 3,true))⟩,⟨11,.vt,false,false,none,none⟩,⟨12,.ff,false,true,none,none⟩,⟨13,.cr,false,false,none,none⟩,⟨13,.cr,true,true,none,none⟩,⟨34,.other,false,false,none,none⟩,⟨39,.other,false,false,none,none⟩,⟨42,.other,false,false,none,none⟩,⟨47,.other,false,false,none,none⟩,⟨92,.other,false,false,none,none⟩]⟩,⟨false,some 3,[],[⟨256,.other,false,false,none,none⟩,⟨9,.ws,false,false,none,none⟩,⟨10,.lf,false,true,none,some ([.setEnt .newline],(some 3,true))⟩,⟨11,.vt,false,false,none,none⟩,⟨12,.ff,false,true,none,none⟩,⟨13,.cr,false,false,none,none⟩,⟨13,.cr,true,true,none,none⟩,⟨34,.other,false,false,none,none⟩,⟨39,.other,false,false,none,none⟩,⟨42,.other,false,false,none,none⟩,⟨47,.other,false,false,none,none⟩,⟨92,.other,false,false,none,none⟩]⟩,⟨false,some 4,[],[⟨256,.other,false,false,some 7,some ([],(none,false))⟩,⟨9,.ws,false,false,some 7,some ([],(none,false))⟩,⟨10,.lf,false,true,none,none⟩,⟨11,.vt,false,false,some 7,some ([],(none,false))⟩,⟨12,.ff,false,true,none,none⟩,⟨13,.cr,false,false,none,none⟩,⟨13,.cr,true,true,none,none⟩,⟨34,.other,false,false,none,some ([],(some 2,true))⟩,⟨39,.other,false,false,some 7,some ([],(none,false))⟩,⟨42,.other,false,false,some 7,some ([],(none,false))⟩,⟨47,.other,false,false,some 7,some ([],(none,false))⟩,⟨92,.other,false,false,some 8,some ([],(none,false))⟩]⟩,⟨false,some 4,[],[⟨256,.other,false,false,some 9,some ([],(none,false))⟩,⟨9,.ws,false,false,some 9,some ([],(none,false))⟩,⟨10,.lf,false,true,none,none⟩,⟨11,.vt,false,false,some 9,some ([],(none,false))⟩,⟨12,.ff,false,true,none,none⟩,⟨13,.cr,false,false,none,none⟩,⟨13,.cr,true,true,none,none⟩,⟨34,.other,false,false,some 9,some ([],(none,false))⟩,⟨39,.other,false,false,none,some ([],(some 2,true))⟩,⟨42,.other,false,false,some 9,some ([],(none,false))⟩,⟨47,.other,false,false,some 9,some ([],(none,false))⟩,⟨92,.other,false,false,some 10,some ([],(none,false))⟩]⟩,⟨false,some 4,[],[⟨256,.other,false,false,none,none⟩,⟨9,.ws,false,false,none,none⟩,⟨10,.lf,false,true,none,none⟩,⟨11,.vt,false,false,none,none⟩,⟨12,.ff,false,true,none,none⟩,⟨13,.cr,false,false,none,none⟩,⟨13,.cr,true,true,none,none⟩,⟨34,.other,false,false,none,none⟩,⟨39,.other,false,false,none,none⟩,⟨42,.other,false,false,some 11,some ([.comment],(none,false))⟩,⟨47,.other,false,false,some 12,some ([.comment],(some 1,false))⟩,⟨92,.other,false,false,none,none⟩]⟩,⟨false,none,[],[⟨256,.other,false,false,some 7,some ([],(none,false))⟩,⟨9,.ws,false,false,some 7,some ([],(none,false))⟩,⟨10,.lf,false,true,none,none⟩,⟨11,.vt,false,false,some 7,some ([],(none,false))⟩,⟨12,.ff,false,true,none,none⟩,⟨13,.cr,false,false,none,none⟩,⟨13,.cr,true,true,none,none⟩,⟨34,.other,false,false,none,some ([],(some 2,true))⟩,⟨39,.other,false,false,some 7,some ([],(none,false))⟩,⟨42,.other,false,false,some 7,some ([],(none,false))⟩,⟨47,.other,false,false,some 7,some ([],(none,false))⟩,⟨92,.other,false,false,some 8,some ([],(none,false))⟩]⟩,⟨false,none,[],[⟨256,.other,false,false,some 13,some ([],(none,false))⟩,⟨9,.ws,false,false,some 13,some ([],(none,false))⟩,⟨10,.lf,false,true,none,none⟩,⟨11,.vt,false,false,some 13,some ([],(none,false))⟩,⟨12,.ff,false,true,none,none⟩,⟨13,.cr,false,false,none,none⟩,⟨13,.cr,true,true,none,none⟩,⟨34,.other,false,false,some 13,some ([],(none,false))⟩,⟨39,.other,false,false,some 13,some ([],(none,false))⟩,⟨42,.other,false,false,some 13,some ([],(none,false))⟩,⟨47,.other,false,false,some 13,some ([],(none,false))⟩,⟨92,.other,false,false,some 13,some ([],(none,false))⟩]⟩,⟨false,none,[],[⟨256,.other,false,false,some 9,some ([],(none,false))⟩,⟨9,.ws,false,false,some 9,some ([],(none,false))⟩,⟨10,.lf,false,true,none,none⟩,⟨11,.vt,false,false,some 9,some ([],(none,false))⟩,⟨12,.ff,false,true,none,none⟩,⟨13,.cr,false,false,none,none⟩,⟨13,.cr,true,true,none,none⟩,⟨34,.other,false,false,some 9,some ([],(none,false))⟩,⟨39,.other,false,false,none,some ([],(some 2,true))⟩,⟨42,.other,false,false,some 9,some ([],(none,false))⟩,⟨47,.other,false,false,some 9,some ([],(none,false))⟩,⟨92,.other,false,false,some 10,some ([],(none,false))⟩]⟩,⟨false,none,[],[⟨256,.other,false,false,some 14,some ([],(none,false))⟩,⟨9,.ws,false,false,some 14,some ([],(none,false))⟩,⟨10,.lf,false,true,none,none⟩,⟨11,.vt,false,false,some 14,some ([],(none,false))⟩,⟨12,.ff,false,true,none,none⟩,⟨13,.cr,false,false,none,none⟩,⟨13,.cr,true,true,none,none⟩,⟨34,.other,false,false,some 14,some ([],(none,false))⟩,⟨39,.other,false,false,some 14,some ([],(none,false))⟩,⟨42,.other,false,false,some 14,some ([],(none,false))⟩,⟨47,.other,false,false,some 14,some ([],(none,false))⟩,⟨92,.other,false,false,some 14,some ([],(none,false))⟩]⟩,⟨false,none,[],[⟨256,.other,false,false,some 15,some ([.comment],(none,false))⟩,⟨9,.ws,false,false,some 16,some ([],(none,false))⟩,⟨10,.lf,false,true,some 17,some ([],(none,false))⟩,⟨11,.vt,false,false,some 15,some ([.comment],(none,false))⟩,⟨12,.ff,false,true,some 18,some ([],(none,false))⟩,⟨13,.cr,false,false,some 19,some ([],(none,false))⟩,⟨13,.cr,true,true,some 20,some ([],(none,false))⟩,⟨34,.other,false,false,some 15,some ([.comment],(none,false))⟩,⟨39,.other,false,false,some 15,some ([.comment],(none,false))⟩,⟨42,.other,false,false,some 21,some ([.comment],(none,false))⟩,⟨47,.other,false,false,some 15,some ([.comment],(none,false))⟩,⟨92,.other,false,false,some 15,some ([.comment],(none,false))⟩]⟩,⟨false,some 1,[],[⟨256,.other,false,false,some 22,some ([.comment],(some 1,false))⟩,⟨9,.ws,false,false,some 23,some ([],(some 1,false))⟩,⟨10,.lf,false,true,none,none⟩,⟨11,.vt,false,false,some 22,some ([.comment],(some 1,false))⟩,⟨12,.ff,false,true,none,none⟩,⟨13,.cr,false,false,none,none⟩,⟨13,.cr,true,true,none,none⟩,⟨34,.other,false,false,some 22,some ([.comment],(some 1,false))⟩,⟨39,.other,false,false,some 22,some ([.comment],(some 1,false))⟩,⟨42,.other,false,false,some 22,some ([.comment],(some 1,false))⟩,⟨47,.other,false,false,some 22,some ([.comment],(some 1,false))⟩,⟨92,.other,false,false,some 24,some ([.comment],(some 1,false))⟩]⟩,⟨false,none,[],[⟨256,.other,false,false,some 7,some ([],(none,false))⟩,⟨9,.ws,false,false,some 7,some ([],(none,false))⟩,⟨10,.lf,false,true,none,none⟩,⟨11,.vt,false,false,some 7,some ([],(none,false))⟩,⟨12,.ff,false,true,none,none⟩,⟨13,.cr,false,false,none,none⟩,⟨13,.cr,true,true,none,none⟩,⟨34,.other,false,false,none,some ([],(some 2,true))⟩,⟨39,.other,false,false,some 7,some ([],(none,false))⟩,⟨42,.other,false,false,some 7,some ([],(none,false))⟩,⟨47,.other,false,false,some 7,some ([],(none,false))⟩,⟨92,.other,false,false,some 8,some ([],(none,false))⟩]⟩,⟨false,none,[],[⟨256,.other,false,false,some 9,some ([],(none,false))⟩,⟨9,.ws,false,false,some 9,some ([],(none,false))⟩,⟨10,.lf,false,true,none,none⟩,⟨11,.vt,false,false,some 9,some ([],(none,false))⟩,⟨12,.ff,false,true,none,none⟩,⟨13,.cr,false,false,none,none⟩,⟨13,.cr,true,true,none,none⟩,⟨34,.other,false,false,some 9,some ([],(none,false))⟩,⟨39,.other,false,false,none,some ([],(some 2,true))⟩,⟨42,.other,false,false,some 9,some ([],(none,false))⟩,⟨47,.other,false,false,some 9,some ([],(none,false))⟩,⟨92,.other,false,false,some 10,some ([],(none,false))⟩]⟩,⟨false,none,[],[⟨256,.other,false,false,some 15,some ([.comment],(none,false))⟩,⟨9,.ws,false,false,some 16,some ([],(none,false))⟩,⟨10,.lf,false,true,some 17,some ([],(none,false))⟩,⟨11,.vt,false,false,some 15,some ([.comment],(none,false))⟩,⟨12,.ff,false,true,some 18,some ([],(none,false))⟩,⟨13,.cr,false,false,some 19,some ([],(none,false))⟩,⟨13,.cr,true,true,some 20,some ([],(none,false))⟩,⟨34,.other,false,false,some 15,some ([.comment],(none,false))⟩,⟨39,.other,false,false,some 15,some ([.comment],(none,false))⟩,⟨42,.other,false,false,some 21,some ([.comment],(none,false))⟩,⟨47,.other,false,false,some 15,some ([.comment],(none,false))⟩,⟨92,.other,false,false,some 15,some ([.comment],(none,false))⟩]⟩,⟨false,none,[],[⟨256,.other,false,false,some 15,some ([.comment],(none,false))⟩,⟨9,.ws,false,false,some 16,some ([],(none,false))⟩,⟨10,.lf,false,true,some 17,some ([],(none,false))⟩,⟨11,.vt,false,false,some 15,some ([.comment],(none,false))⟩,⟨12,.ff,false,true,some 18,some ([],(none,false))⟩,⟨13,.cr,false,false,some 19,some ([],(none,false))⟩,⟨13,.cr,true,true,some 20,some ([],(none,false))⟩,⟨34,.other,false,false,some 15,some ([.comment],(none,false))⟩,⟨39,.other,false,false,some 15,some ([.comment],(none,false))⟩,⟨42,.other,false,false,some 21,some ([.comment],(none,false))⟩,⟨47,.other,false,false,some 15,some ([.comment],(none,false))⟩,⟨92,.other,false,false,some 15,some ([.comment],(none,false))⟩]⟩,⟨false,none,[],[⟨256,.other,false,false,some 15,some ([.setEnt .internalNl,.cb,.comment],(none,false))⟩,⟨9,.ws,false,false,some 16,some ([.setEnt .internalNl,.cb],(none,false))⟩,⟨10,.lf,false,true,some 17,some ([.setEnt .internalNl,.cb],(none,false))⟩,⟨11,.vt,false,false,some 15,some ([.setEnt .internalNl,.cb,.comment],(none,false))⟩,⟨12,.ff,false,true,some 18,some ([.setEnt .internalNl,.cb],(none,false))⟩,⟨13,.cr,false,false,some 19,some ([.setEnt .internalNl,.cb],(none,false))⟩,⟨13,.cr,true,true,some 20,some ([.setEnt .internalNl,.cb],(none,false))⟩,⟨34,.other,false,false,some 15,some ([.setEnt .internalNl,.cb,.comment],(none,false))⟩,⟨39,.other,false,false,some 15,some ([.setEnt .internalNl,.cb,.comment],(none,false))⟩,⟨42,.other,false,false,some 21,some ([.setEnt .internalNl,.cb,.comment],(none,false))⟩,⟨47,.other,false,false,some 15,some ([.setEnt .internalNl,.cb,.comment],(none,false))⟩,⟨92,.other,false,false,some 15,some ([.setEnt .internalNl,.cb,.comment],(none,false))⟩]⟩,⟨false,none,[],[⟨256,.other,false,false,some 15,some ([.setEnt .internalNl,.cb,.comment],(none,false))⟩,⟨9,.ws,false,false,some 16,some ([.setEnt .internalNl,.cb],(none,false))⟩,⟨10,.lf,false,true,some 17,some ([.setEnt .internalNl,.cb],(none,false))⟩,⟨11,.vt,false,false,some 15,some ([.setEnt .internalNl,.cb,.comment],(none,false))⟩,⟨12,.ff,false,true,some 18,some ([.setEnt .internalNl,.cb],(none,false))⟩,⟨13,.cr,false,false,some 19,some ([.setEnt .internalNl,.cb],(none,false))⟩,⟨13,.cr,true,true,some 20,some ([.setEnt .internalNl,.cb],(none,false))⟩,⟨34,.other,false,false,some 15,some ([.setEnt .internalNl,.cb,.comment],(none,false))⟩,⟨39,.other,false,false,some 15,some ([.setEnt .internalNl,.cb,.comment],(none,false))⟩,⟨42,.other,false,false,some 21,some ([.setEnt .internalNl,.cb,.comment],(none,false))⟩,⟨47,.other,false,false,some 15,some ([.setEnt .internalNl,.cb,.comment],(none,false))⟩,⟨92,.other,false,false,some 15,some ([.setEnt .internalNl,.cb,.comment],(none,false))⟩]⟩,⟨false,none,[],[⟨256,.other,false,false,none,none⟩,⟨9,.ws,false,false,none,none⟩,⟨10,.lf,false,true,some 25,some ([],(none,false))⟩,⟨11,.vt,false,false,none,none⟩,⟨12,.ff,false,true,none,none⟩,⟨13,.cr,false,false,none,none⟩,⟨13,.cr,true,true,none,none⟩,⟨34,.other,false,false,none,none⟩,⟨39,.other,false,false,none,none⟩,⟨42,.other,false,false,none,none⟩,⟨47,.other,false,false,none,none⟩,⟨92,.other,false,false,none,none⟩]⟩,⟨false,none,[],[⟨256,.other,false,false,some 15,some ([.setEnt .internalNl,.cb,.comment],(none,false))⟩,⟨9,.ws,false,false,some 16,some ([.setEnt .internalNl,.cb],(none,false))⟩,⟨10,.lf,false,true,some 26,some ([.setEnt .internalNl,.cb],(none,false))⟩,⟨11,.vt,false,false,some 15,some ([.setEnt .internalNl,.cb,.comment],(none,false))⟩,⟨12,.ff,false,true,some 18,some ([.setEnt .internalNl,.cb],(none,false))⟩,⟨13,.cr,false,false,some 19,some ([.setEnt .internalNl,.cb],(none,false))⟩,⟨13,.cr,true,true,some 20,some ([.setEnt .internalNl,.cb],(none,false))⟩,⟨34,.other,false,false,some 15,some ([.setEnt .internalNl,.cb,.comment],(none,false))⟩,⟨39,.other,false,false,some 15,some ([.setEnt .internalNl,.cb,.comment],(none,false))⟩,⟨42,.other,false,false,some 21,some ([.setEnt .internalNl,.cb,.comment],(none,false))⟩,⟨47,.other,false,false,some 15,some ([.setEnt .internalNl,.cb,.comment],(none,false))⟩,⟨92,.other,false,false,some 15,some ([.setEnt .internalNl,.cb,.comment],(none,false))⟩]⟩,⟨false,none,[],[⟨256,.other,false,false,some 15,some ([.comment],(none,false))⟩,⟨9,.ws,false,false,some 16,some ([],(none,false))⟩,⟨10,.lf,false,true,some 17,some ([],(none,false))⟩,⟨11,.vt,false,false,some 15,some ([.comment],(none,false))⟩,⟨12,.ff,false,true,some 18,some ([],(none,false))⟩,⟨13,.cr,false,false,some 19,some ([],(none,false))⟩,⟨13,.cr,true,true,some 20,some ([],(none,false))⟩,⟨34,.other,false,false,some 15,some ([.comment],(none,false))⟩,⟨39,.other,false,false,some 15,some ([.comment],(none,false))⟩,⟨42,.other,false,false,some 21,some ([.comment],(none,false))⟩,⟨47,.other,false,false,none,some ([],(some 1,true))⟩,⟨92,.other,false,false,some 15,some ([.comment],(none,false))⟩]⟩,⟨false,some 1,[],[⟨256,.other,false,false,some 22,some ([.comment],(some 1,false))⟩,⟨9,.ws,false,false,some 23,some ([],(some 1,false))⟩,⟨10,.lf,false,true,none,none⟩,⟨11,.vt,false,false,some 22,some ([.comment],(some 1,false))⟩,⟨12,.ff,false,true,none,none⟩,⟨13,.cr,false,false,none,none⟩,⟨13,.cr,true,true,none,none⟩,⟨34,.other,false,false,some 22,some ([.comment],(some 1,false))⟩,⟨39,.other,false,false,some 22,some ([.comment],(some 1,false))⟩,⟨42,.other,false,false,some 22,some ([.comment],(some 1,false))⟩,⟨47,.other,false,false,some 22,some ([.comment],(some 1,false))⟩,⟨92,.other,false,false,some 24,some ([.comment],(some 1,false))⟩]⟩,⟨false,some 1,[],[⟨256,.other,false,false,some 22,some ([.comment],(some 1,false))⟩,⟨9,.ws,false,false,some 23,some ([],(some 1,false))⟩,⟨10,.lf,false,true,none,none⟩,⟨11,.vt,false,false,some 22,some ([.comment],(some 1,false))⟩,⟨12,.ff,false,true,none,none⟩,⟨13,.cr,false,false,none,none⟩,⟨13,.cr,true,true,none,none⟩,⟨34,.other,false,false,some 22,some ([.comment],(some 1,false))⟩,⟨39,.other,false,false,some 22,some ([.comment],(some 1,false))⟩,⟨42,.other,false,false,some 22,some ([.comment],(some 1,false))⟩,⟨47,.other,false,false,some 22,some ([.comment],(some 1,false))⟩,⟨92,.other,false,false,some 24,some ([.comment],(some 1,false))⟩]⟩,⟨false,some 1,[],[⟨256,.other,false,false,some 22,some ([.comment],(some 1,false))⟩,⟨9,.ws,false,false,some 23,some ([],(some 1,false))⟩,⟨10,.lf,false,true,some 27,some ([],(some 1,false))⟩,⟨11,.vt,false,false,some 22,some ([.comment],(some 1,false))⟩,⟨12,.ff,false,true,some 28,some ([],(some 1,false))⟩,⟨13,.cr,false,false,some 29,some ([],(none,false))⟩,⟨13,.cr,true,true,some 30,some ([],(some 1,false))⟩,⟨34,.other,false,false,some 22,some ([.comment],(some 1,false))⟩,⟨39,.other,false,false,some 22,some ([.comment],(some 1,false))⟩,⟨42,.other,false,false,some 22,some ([.comment],(some 1,false))⟩,⟨47,.other,false,false,some 22,some ([.comment],(some 1,false))⟩,⟨92,.other,false,false,some 24,some ([.comment],(some 1,false))⟩]⟩,⟨false,none,[],[⟨256,.other,false,false,some 15,some ([.setEnt .internalNl,.cb,.comment],(none,false))⟩,⟨9,.ws,false,false,some 16,some ([.setEnt .internalNl,.cb],(none,false))⟩,⟨10,.lf,false,true,some 17,some ([.setEnt .internalNl,.cb],(none,false))⟩,⟨11,.vt,false,false,some 15,some ([.setEnt .internalNl,.cb,.comment],(none,false))⟩,⟨12,.ff,false,true,some 18,some ([.setEnt .internalNl,.cb],(none,false))⟩,⟨13,.cr,false,false,some 19,some ([.setEnt .internalNl,.cb],(none,false))⟩,⟨13,.cr,true,true,some 20,some ([.setEnt .internalNl,.cb],(none,false))⟩,⟨34,.other,false,false,some 15,some ([.setEnt .internalNl,.cb,.comment],(none,false))⟩,⟨39,.other,false,false,some 15,some ([.setEnt .internalNl,.cb,.comment],(none,false))⟩,⟨42,.other,false,false,some 21,some ([.setEnt .internalNl,.cb,.comment],(none,false))⟩,⟨47,.other,false,false,some 15,some ([.setEnt .internalNl,.cb,.comment],(none,false))⟩,⟨92,.other,false,false,some 15,some ([.setEnt .internalNl,.cb,.comment],(none,false))⟩]⟩,⟨false,none,[],[⟨256,.other,false,false,some 15,some ([.setEnt .internalNl,.cb,.comment],(none,false))⟩,⟨9,.ws,false,false,some 16,some ([.setEnt .internalNl,.cb],(none,false))⟩,⟨10,.lf,false,true,some 17,some ([.setEnt .internalNl,.cb],(none,false))⟩,⟨11,.vt,false,false,some 15,some ([.setEnt .internalNl,.cb,.comment],(none,false))⟩,⟨12,.ff,false,true,some 18,some ([.setEnt .internalNl,.cb],(none,false))⟩,⟨13,.cr,false,false,some 19,some ([.setEnt .internalNl,.cb],(none,false))⟩,⟨13,.cr,true,true,some 20,some ([.setEnt .internalNl,.cb],(none,false))⟩,⟨34,.other,false,false,some 15,some ([.setEnt .internalNl,.cb,.comment],(none,false))⟩,⟨39,.other,false,false,some 15,some ([.setEnt .internalNl,.cb,.comment],(none,false))⟩,⟨42,.other,false,false,some 21,some ([.setEnt .internalNl,.cb,.comment],(none,false))⟩,⟨47,.other,false,false,some 15,some ([.setEnt .internalNl,.cb,.comment],(none,false))⟩,⟨92,.other,false,false,some 15,some ([.setEnt .internalNl,.cb,.comment],(none,false))⟩]⟩,⟨false,some 1,[.setEnt .internalNl,.cb],[⟨256,.other,false,false,some 22,some ([.setEnt .internalNl,.cb,.comment],(some 1,false))⟩,⟨9,.ws,false,false,some 23,some ([.setEnt .internalNl,.cb],(some 1,false))⟩,⟨10,.lf,false,true,none,none⟩,⟨11,.vt,false,false,some 22,some ([.setEnt .internalNl,.cb,.comment],(some 1,false))⟩,⟨12,.ff,false,true,none,none⟩,⟨13,.cr,false,false,none,none⟩,⟨13,.cr,true,true,none,none⟩,⟨34,.other,false,false,some 22,some ([.setEnt .internalNl,.cb,.comment],(some 1,false))⟩,⟨39,.other,false,false,some 22,some ([.setEnt .internalNl,.cb,.comment],(some 1,false))⟩,⟨42,.other,false,false,some 22,some ([.setEnt .internalNl,.cb,.comment],(some 1,false))⟩,⟨47,.other,false,false,some 22,some ([.setEnt .internalNl,.cb,.comment],(some 1,false))⟩,⟨92,.other,false,false,some 24,some ([.setEnt .internalNl,.cb,.comment],(some 1,false))⟩]⟩,⟨false,some 1,[.setEnt .internalNl,.cb],[⟨256,.other,false,false,some 22,some ([.setEnt .internalNl,.cb,.comment],(some 1,false))⟩,⟨9,.ws,false,false,some 23,some ([.setEnt .internalNl,.cb],(some 1,false))⟩,⟨10,.lf,false,true,none,none⟩,⟨11,.vt,false,false,some 22,some ([.setEnt .internalNl,.cb,.comment],(some 1,false))⟩,⟨12,.ff,false,true,none,none⟩,⟨13,.cr,false,false,none,none⟩,⟨13,.cr,true,true,none,none⟩,⟨34,.other,false,false,some 22,some ([.setEnt .internalNl,.cb,.comment],(some 1,false))⟩,⟨39,.other,false,false,some 22,some ([.setEnt .internalNl,.cb,.comment],(some 1,false))⟩,⟨42,.other,false,false,some 22,some ([.setEnt .internalNl,.cb,.comment],(some 1,false))⟩,⟨47,.other,false,false,some 22,some ([.setEnt .internalNl,.cb,.comment],(some 1,false))⟩,⟨92,.other,false,false,some 24,some ([.setEnt .internalNl,.cb,.comment],(some 1,false))⟩]⟩,⟨false,none,[],[⟨256,.other,false,false,none,none⟩,⟨9,.ws,false,false,none,none⟩,⟨10,.lf,false,true,some 31,some ([],(some 1,false))⟩,⟨11,.vt,false,false,none,none⟩,⟨12,.ff,false,true,none,none⟩,⟨13,.cr,false,false,none,none⟩,⟨13,.cr,true,true,none,none⟩,⟨34,.other,false,false,none,none⟩,⟨39,.other,false,false,none,none⟩,⟨42,.other,false,false,none,none⟩,⟨47,.other,false,false,none,none⟩,⟨92,.other,false,false,none,none⟩]⟩,⟨false,some 1,[.setEnt .internalNl,.cb],[⟨256,.other,false,false,some 22,some ([.setEnt .internalNl,.cb,.comment],(some 1,false))⟩,⟨9,.ws,false,false,some 23,some ([.setEnt .internalNl,.cb],(some 1,false))⟩,⟨10,.lf,false,true,some 31,some ([],(some 1,false))⟩,⟨11,.vt,false,false,some 22,some ([.setEnt .internalNl,.cb,.comment],(some 1,false))⟩,⟨12,.ff,false,true,none,none⟩,⟨13,.cr,false,false,none,none⟩,⟨13,.cr,true,true,none,none⟩,⟨34,.other,false,false,some 22,some ([.setEnt .internalNl,.cb,.comment],(some 1,false))⟩,⟨39,.other,false,false,some 22,some ([.setEnt .internalNl,.cb,.comment],(some 1,false))⟩,⟨42,.other,false,false,some 22,some ([.setEnt .internalNl,.cb,.comment],(some 1,false))⟩,⟨47,.other,false,false,some 22,some ([.setEnt .internalNl,.cb,.comment],(some 1,false))⟩,⟨92,.other,false,false,some 24,some ([.setEnt .internalNl,.cb,.comment],(some 1,false))⟩]⟩,⟨false,some 1,[.setEnt .internalNl,.cb],[⟨256,.other,false,false,some 22,some ([.setEnt .internalNl,.cb,.comment],(some 1,false))⟩,⟨9,.ws,false,false,some 23,some ([.setEnt .internalNl,.cb],(some 1,false))⟩,⟨10,.lf,false,true,none,none⟩,⟨11,.vt,false,false,some 22,some ([.setEnt .internalNl,.cb,.comment],(some 1,false))⟩,⟨12,.ff,false,true,none,none⟩,⟨13,.cr,false,false,none,none⟩,⟨13,.cr,true,true,none,none⟩,⟨34,.other,false,false,some 22,some ([.setEnt .internalNl,.cb,.comment],(some 1,false))⟩,⟨39,.other,false,false,some 22,some ([.setEnt .internalNl,.cb,.comment],(some 1,false))⟩,⟨42,.other,false,false,some 22,some ([.setEnt .internalNl,.cb,.comment],(some 1,false))⟩,⟨47,.other,false,false,some 22,some ([.setEnt .internalNl,.cb,.comment],(some 1,false))⟩,⟨92,.other,false,false,some 24,some ([.setEnt .internalNl,.cb,.comment],(some 1,false))⟩]⟩]
theorem hx_line_lfrOk : hx_line_lrows.map (CA.prep hx_line_lex) = hx_line_lfr := by decide +kernel
def hx_line_lTab : List CT := [(.node (.node (.node (.node (.node (.node (.node (.node .leaf 128 [⟨⟨.code,[],.lcode,false,[],false⟩,false,false,[],none,none,none,false,false,false,none,false,⟨.lcode,none,false,.lblank⟩⟩] .leaf) 38019 [⟨⟨.code,[],.lcode,true,[],false⟩,false,false,[],none,none,none,false,false,false,none,false,⟨.lblank,none,false,.lblank⟩⟩] .leaf) 148108 [⟨⟨.code,[],.lcomment,false,[],false⟩,false,false,[],none,none,none,false,false,false,none,false,⟨.lcomment,none,false,.lblank⟩⟩] (.node (.node .leaf 184463 [⟨⟨.code,[],.lcode,false,[(2,0)],false⟩,false,false,[],none,none,none,false,false,false,none,false,⟨.lcode,none,false,.lblank⟩⟩] .leaf) 185487 [⟨⟨.code,[],.lcomment,true,[],false⟩,false,false,[],none,none,none,false,false,false,none,false,⟨.lblank,none,false,.lblank⟩⟩] .leaf)) 196752 [⟨⟨.code,[],.lcode,false,[(2,1)],false⟩,false,false,[],none,none,none,false,false,false,none,false,⟨.lcode,none,false,.lblank⟩⟩] (.node (.node (.node .leaf 270486 [⟨⟨.code,[],.lcode,false,[(3,0)],false⟩,false,false,[],none,none,none,false,false,false,none,false,⟨.lcode,none,false,.lblank⟩⟩] .leaf) 282775 [⟨⟨.code,[],.lcode,false,[(3,1)],false⟩,false,false,[],none,none,none,false,false,false,none,false,⟨.lcode,none,false,.lblank⟩⟩] .leaf) 296088 [⟨⟨.code,[],.lblank,false,[],false⟩,false,false,[],none,none,none,false,false,false,none,false,⟨.lblank,none,false,.lblank⟩⟩] (.node .leaf 332955 [⟨⟨.code,[],.lblank,true,[],false⟩,false,false,[],none,none,none,false,false,false,none,false,⟨.lblank,none,false,.lblank⟩⟩] .leaf))) 1179872 [⟨⟨(.inside 0),[],.lcode,false,[],false⟩,false,false,[none],none,none,none,false,false,false,none,false,⟨.lcode,none,false,.lblank⟩⟩] (.node (.node (.node (.node .leaf 1217763 [⟨⟨(.inside 0),[],.lcode,true,[],false⟩,false,false,[none],none,none,none,false,false,false,none,false,⟨.lblank,none,false,.lblank⟩⟩] .leaf) 1327852 [⟨⟨(.inside 0),[],.lcomment,false,[],false⟩,false,false,[none],none,none,none,false,false,false,none,false,⟨.lcomment,none,false,.lblank⟩⟩] .leaf) 1365231 [⟨⟨(.inside 0),[],.lcomment,true,[],false⟩,false,false,[none],none,none,none,false,false,false,none,false,⟨.lblank,none,false,.lblank⟩⟩] (.node (.node .leaf 1475832 [⟨⟨(.inside 0),[],.lblank,false,[],false⟩,false,false,[none],none,none,none,false,false,false,none,false,⟨.lblank,none,false,.lblank⟩⟩] .leaf) 1769744 [⟨⟨.code,[47],.lcode,false,[],false⟩,false,false,[none],none,none,none,false,false,false,none,false,⟨.lcode,none,false,.lblank⟩⟩] .leaf)) 20769801 [⟨⟨.code,[47],.lcode,false,[],false⟩,false,false,[some (9,(.ws,false))],none,none,none,false,false,false,none,false,⟨.lcode,none,false,.lblank⟩⟩] (.node (.node (.node .leaf 21088052 [⟨⟨.code,[47],.lcomment,false,[],false⟩,false,false,[none],none,none,none,false,false,false,none,false,⟨.lcode,none,false,.lblank⟩⟩] .leaf) 22179935 [⟨⟨(.inside 0),[],.lcode,false,[],false⟩,false,false,[some (10,(.lf,false))],none,none,none,false,false,false,none,false,⟨.lcode,none,false,.lblank⟩⟩] .leaf) 22217826 [⟨⟨(.inside 0),[],.lcode,true,[],false⟩,false,false,[some (10,(.lf,false))],none,none,none,false,false,false,none,false,⟨.lblank,none,false,.lblank⟩⟩] (.node .leaf 22327915 [⟨⟨(.inside 0),[],.lcomment,false,[],false⟩,false,false,[some (10,(.lf,false))],none,none,none,false,false,false,none,false,⟨.lcomment,none,false,.lblank⟩⟩] .leaf)))) 22365294 [⟨⟨(.inside 0),[],.lcomment,true,[],false⟩,false,false,[some (10,(.lf,false))],none,none,none,false,false,false,none,false,⟨.lblank,none,false,.lblank⟩⟩] (.node (.node (.node (.node (.node .leaf 22475895 [⟨⟨(.inside 0),[],.lblank,false,[],false⟩,false,false,[some (10,(.lf,false))],none,none,none,false,false,false,none,false,⟨.lblank,none,false,.lblank⟩⟩] .leaf) 22769807 [⟨⟨.code,[47],.lcode,false,[],false⟩,false,false,[some (10,(.lf,false))],none,none,none,false,false,false,none,false,⟨.lcode,none,false,.lblank⟩⟩] .leaf) 24418371 [⟨⟨.code,[],.lcode,false,[(2,0),(3,0)],false⟩,false,false,[],none,none,none,false,false,false,none,false,⟨.lcode,none,false,.lblank⟩⟩] (.node (.node .leaf 26040519 [⟨⟨.code,[],.lcode,false,[(2,1),(3,1)],false⟩,false,false,[],none,none,none,false,false,false,none,false,⟨.lcode,none,false,.lblank⟩⟩] .leaf) 26179947 [⟨⟨(.inside 0),[],.lcode,false,[],false⟩,false,false,[some (12,(.ff,false))],none,none,none,false,false,false,none,false,⟨.lcode,none,false,.lblank⟩⟩] .leaf)) 26217838 [⟨⟨(.inside 0),[],.lcode,true,[],false⟩,false,false,[some (12,(.ff,false))],none,none,none,false,false,false,none,false,⟨.lblank,none,false,.lblank⟩⟩] (.node (.node (.node .leaf 26327927 [⟨⟨(.inside 0),[],.lcomment,false,[],false⟩,false,false,[some (12,(.ff,false))],none,none,none,false,false,false,none,false,⟨.lcomment,none,false,.lblank⟩⟩] .leaf) 26365306 [⟨⟨(.inside 0),[],.lcomment,true,[],false⟩,false,false,[some (12,(.ff,false))],none,none,none,false,false,false,none,false,⟨.lblank,none,false,.lblank⟩⟩] .leaf) 26475907 [⟨⟨(.inside 0),[],.lblank,false,[],false⟩,false,false,[some (12,(.ff,false))],none,none,none,false,false,false,none,false,⟨.lblank,none,false,.lblank⟩⟩] (.node .leaf 26769819 [⟨⟨.code,[47],.lcode,false,[],false⟩,false,false,[some (12,(.ff,false))],none,none,none,false,false,false,none,false,⟨.lcode,none,false,.lblank⟩⟩] .leaf))) 27397582 [⟨⟨(.escapedCr 0),[],.lcode,true,[],false⟩,false,false,[some (12,(.ff,false))],none,none,none,false,false,false,none,false,⟨.lblank,none,false,.lblank⟩⟩] (.node (.node (.node (.node .leaf 27545050 [⟨⟨(.escapedCr 0),[],.lcomment,true,[],false⟩,false,false,[some (12,(.ff,false))],none,none,none,false,false,false,none,false,⟨.lblank,none,false,.lblank⟩⟩] .leaf) 28179953 [⟨⟨(.inside 0),[],.lcode,false,[],false⟩,false,false,[some (13,(.cr,false))],none,none,none,false,false,false,none,false,⟨.lcode,none,false,.lblank⟩⟩] .leaf) 28217844 [⟨⟨(.inside 0),[],.lcode,true,[],false⟩,false,false,[some (13,(.cr,false))],none,none,none,false,false,false,none,false,⟨.lblank,none,false,.lblank⟩⟩] (.node (.node .leaf 28327933 [⟨⟨(.inside 0),[],.lcomment,false,[],false⟩,false,false,[some (13,(.cr,false))],none,none,none,false,false,false,none,false,⟨.lcomment,none,false,.lblank⟩⟩] .leaf) 28365312 [⟨⟨(.inside 0),[],.lcomment,true,[],false⟩,false,false,[some (13,(.cr,false))],none,none,none,false,false,false,none,false,⟨.lblank,none,false,.lblank⟩⟩] .leaf)) 28475913 [⟨⟨(.inside 0),[],.lblank,false,[],false⟩,false,false,[some (13,(.cr,false))],none,none,none,false,false,false,none,false,⟨.lblank,none,false,.lblank⟩⟩] (.node (.node (.node .leaf 28769825 [⟨⟨.code,[47],.lcode,false,[],false⟩,false,false,[some (13,(.cr,false))],none,none,none,false,false,false,none,false,⟨.lcode,none,false,.lblank⟩⟩] .leaf) 29179956 [⟨⟨(.inside 0),[],.lcode,false,[],false⟩,false,false,[some (13,(.cr,true))],none,none,none,false,false,false,none,false,⟨.lcode,none,false,.lblank⟩⟩] .leaf) 29217847 [⟨⟨(.inside 0),[],.lcode,true,[],false⟩,false,false,[some (13,(.cr,true))],none,none,none,false,false,false,none,false,⟨.lblank,none,false,.lblank⟩⟩] (.node .leaf 29327936 [⟨⟨(.inside 0),[],.lcomment,false,[],false⟩,false,false,[some (13,(.cr,true))],none,none,none,false,false,false,none,false,⟨.lcomment,none,false,.lblank⟩⟩] .leaf))))) 29365315 [⟨⟨(.inside 0),[],.lcomment,true,[],false⟩,false,false,[some (13,(.cr,true))],none,none,none,false,false,false,none,false,⟨.lblank,none,false,.lblank⟩⟩] (.node (.node (.node (.node (.node (.node .leaf 29397588 [⟨⟨(.escapedCr 0),[],.lcode,true,[],false⟩,false,false,[some (13,(.cr,false))],none,none,none,false,false,false,none,false,⟨.lblank,none,false,.lblank⟩⟩] .leaf) 29475916 [⟨⟨(.inside 0),[],.lblank,false,[],false⟩,false,false,[some (13,(.cr,true))],none,none,none,false,false,false,none,false,⟨.lblank,none,false,.lblank⟩⟩] .leaf) 29545056 [⟨⟨(.escapedCr 0),[],.lcomment,true,[],false⟩,false,false,[some (13,(.cr,false))],none,none,none,false,false,false,none,false,⟨.lblank,none,false,.lblank⟩⟩] (.node (.node .leaf 29769828 [⟨⟨.code,[47],.lcode,false,[],false⟩,false,false,[some (13,(.cr,true))],none,none,none,false,false,false,none,false,⟨.lcode,none,false,.lblank⟩⟩] .leaf) 30397591 [⟨⟨(.escapedCr 0),[],.lcode,true,[],false⟩,false,false,[some (13,(.cr,true))],none,none,none,false,false,false,none,false,⟨.lblank,none,false,.lblank⟩⟩] .leaf)) 30545059 [⟨⟨(.escapedCr 0),[],.lcomment,true,[],false⟩,false,false,[some (13,(.cr,true))],none,none,none,false,false,false,none,false,⟨.lblank,none,false,.lblank⟩⟩] (.node (.node (.node .leaf 35601361 [⟨⟨.code,[],.lcode,false,[(3,0),(2,0)],false⟩,false,false,[],none,none,none,false,false,false,none,false,⟨.lcode,none,false,.lblank⟩⟩] .leaf) 37223509 [⟨⟨.code,[],.lcode,false,[(3,1),(2,1)],false⟩,false,false,[],none,none,none,false,false,false,none,false,⟨.lcode,none,false,.lblank⟩⟩] .leaf) 40088109 [⟨⟨.code,[47],.lcomment,false,[],false⟩,false,false,[some (9,(.ws,false))],none,none,none,false,false,false,none,false,⟨.lcode,none,false,.lblank⟩⟩] (.node .leaf 40406360 [⟨⟨.code,[47],.lblank,false,[],false⟩,false,false,[none],none,none,none,false,false,false,none,false,⟨.lcode,none,false,.lblank⟩⟩] .leaf))) 42088115 [⟨⟨.code,[47],.lcomment,false,[],false⟩,false,false,[some (10,(.lf,false))],none,none,none,false,false,false,none,false,⟨.lcode,none,false,.lblank⟩⟩] (.node (.node (.node (.node .leaf 46088127 [⟨⟨.code,[47],.lcomment,false,[],false⟩,false,false,[some (12,(.ff,false))],none,none,none,false,false,false,none,false,⟨.lcode,none,false,.lblank⟩⟩] .leaf) 48088133 [⟨⟨.code,[47],.lcomment,false,[],false⟩,false,false,[some (13,(.cr,false))],none,none,none,false,false,false,none,false,⟨.lcode,none,false,.lblank⟩⟩] .leaf) 49088136 [⟨⟨.code,[47],.lcomment,false,[],false⟩,false,false,[some (13,(.cr,true))],none,none,none,false,false,false,none,false,⟨.lcode,none,false,.lblank⟩⟩] (.node (.node .leaf 59406417 [⟨⟨.code,[47],.lblank,false,[],false⟩,false,false,[some (9,(.ws,false))],none,none,none,false,false,false,none,false,⟨.lcode,none,false,.lblank⟩⟩] .leaf) 61406423 [⟨⟨.code,[47],.lblank,false,[],false⟩,false,false,[some (10,(.lf,false))],none,none,none,false,false,false,none,false,⟨.lcode,none,false,.lblank⟩⟩] .leaf)) 65406435 [⟨⟨.code,[47],.lblank,false,[],false⟩,false,false,[some (12,(.ff,false))],none,none,none,false,false,false,none,false,⟨.lcode,none,false,.lblank⟩⟩] (.node (.node (.node .leaf 67406441 [⟨⟨.code,[47],.lblank,false,[],false⟩,false,false,[some (13,(.cr,false))],none,none,none,false,false,false,none,false,⟨.lcode,none,false,.lblank⟩⟩] .leaf) 68406444 [⟨⟨.code,[47],.lblank,false,[],false⟩,false,false,[some (13,(.cr,true))],none,none,none,false,false,false,none,false,⟨.lcode,none,false,.lblank⟩⟩] .leaf) 70769951 [⟨⟨.code,[47],.lcode,false,[],false⟩,false,false,[some (34,(.other,false))],none,none,none,false,false,false,none,false,⟨.lcode,none,false,.lblank⟩⟩] (.node .leaf 80769981 [⟨⟨.code,[47],.lcode,false,[],false⟩,false,false,[some (39,(.other,false))],none,none,none,false,false,false,none,false,⟨.lcode,none,false,.lblank⟩⟩] .leaf)))) 90088259 [⟨⟨.code,[47],.lcomment,false,[],false⟩,false,false,[some (34,(.other,false))],none,none,none,false,false,false,none,false,⟨.lcode,none,false,.lblank⟩⟩] (.node (.node (.node (.node (.node .leaf 100088289 [⟨⟨.code,[47],.lcomment,false,[],false⟩,false,false,[some (39,(.other,false))],none,none,none,false,false,false,none,false,⟨.lcode,none,false,.lblank⟩⟩] .leaf) 109406567 [⟨⟨.code,[47],.lblank,false,[],false⟩,false,false,[some (34,(.other,false))],none,none,none,false,false,false,none,false,⟨.lcode,none,false,.lblank⟩⟩] .leaf) 119406597 [⟨⟨.code,[47],.lblank,false,[],false⟩,false,false,[some (39,(.other,false))],none,none,none,false,false,false,none,false,⟨.lcode,none,false,.lblank⟩⟩] (.node (.node .leaf 154730927 [⟨⟨(.inside 0),[],.lcode,false,[(2,0)],false⟩,false,false,[none],none,none,none,false,false,false,none,false,⟨.lcode,none,false,.lblank⟩⟩] .leaf) 154816950 [⟨⟨(.inside 0),[],.lcode,false,[(3,0)],false⟩,false,false,[none],none,none,none,false,false,false,none,false,⟨.lcode,none,false,.lblank⟩⟩] .leaf)) 157975223 [⟨⟨(.inside 0),[92],.lcode,false,[],false⟩,false,false,[none],none,none,none,false,false,false,none,false,⟨.lcode,none,false,.lblank⟩⟩] (.node (.node (.node .leaf 175730990 [⟨⟨(.inside 0),[],.lcode,false,[(2,0)],false⟩,false,false,[some (10,(.lf,false))],none,none,none,false,false,false,none,false,⟨.lcode,none,false,.lblank⟩⟩] .leaf) 175817013 [⟨⟨(.inside 0),[],.lcode,false,[(3,0)],false⟩,false,false,[some (10,(.lf,false))],none,none,none,false,false,false,none,false,⟨.lcode,none,false,.lblank⟩⟩] .leaf) 177294043 [⟨⟨(.inside 0),[92],.lcomment,false,[],false⟩,false,false,[none],none,none,none,false,false,false,none,false,⟨.lcomment,none,false,.lblank⟩⟩] (.node .leaf 179731002 [⟨⟨(.inside 0),[],.lcode,false,[(2,0)],false⟩,false,false,[some (12,(.ff,false))],none,none,none,false,false,false,none,false,⟨.lcode,none,false,.lblank⟩⟩] .leaf))) 179817025 [⟨⟨(.inside 0),[],.lcode,false,[(3,0)],false⟩,false,false,[some (12,(.ff,false))],none,none,none,false,false,false,none,false,⟨.lcode,none,false,.lblank⟩⟩] (.node (.node (.node (.node .leaf 181731008 [⟨⟨(.inside 0),[],.lcode,false,[(2,0)],false⟩,false,false,[some (13,(.cr,false))],none,none,none,false,false,false,none,false,⟨.lcode,none,false,.lblank⟩⟩] .leaf) 181817031 [⟨⟨(.inside 0),[],.lcode,false,[(3,0)],false⟩,false,false,[some (13,(.cr,false))],none,none,none,false,false,false,none,false,⟨.lcode,none,false,.lblank⟩⟩] .leaf) 182731011 [⟨⟨(.inside 0),[],.lcode,false,[(2,0)],false⟩,false,false,[some (13,(.cr,true))],none,none,none,false,false,false,none,false,⟨.lcode,none,false,.lblank⟩⟩] (.node (.node .leaf 182817034 [⟨⟨(.inside 0),[],.lcode,false,[(3,0)],false⟩,false,false,[some (13,(.cr,true))],none,none,none,false,false,false,none,false,⟨.lcode,none,false,.lblank⟩⟩] .leaf) 186770299 [⟨⟨.code,[47],.lcode,false,[],false⟩,false,false,[some (92,(.other,false))],none,none,none,false,false,false,none,false,⟨.lcode,none,false,.lblank⟩⟩] .leaf)) 196612351 [⟨⟨(.inside 0),[92],.lblank,false,[],false⟩,false,false,[none],none,none,none,false,false,false,none,false,⟨.lcomment,none,false,.lblank⟩⟩] (.node (.node (.node .leaf 206088607 [⟨⟨.code,[47],.lcomment,false,[],false⟩,false,false,[some (92,(.other,false))],none,none,none,false,false,false,none,false,⟨.lcode,none,false,.lblank⟩⟩] .leaf) 225406915 [⟨⟨.code,[47],.lblank,false,[],false⟩,false,false,[some (92,(.other,false))],none,none,none,false,false,false,none,false,⟨.lcode,none,false,.lblank⟩⟩] .leaf) 232004159 [⟨⟨.code,[47],.lcode,false,[(2,0)],false⟩,false,false,[none],none,none,none,false,false,false,none,false,⟨.lcode,none,false,.lblank⟩⟩] (.node .leaf 232016448 [⟨⟨.code,[47],.lcode,false,[(2,1)],false⟩,false,false,[none],none,none,none,false,false,false,none,false,⟨.lcode,none,false,.lblank⟩⟩] .leaf)))))) 232090182 [⟨⟨.code,[47],.lcode,false,[(3,0)],false⟩,false,false,[none],none,none,none,false,false,false,none,false,⟨.lcode,none,false,.lblank⟩⟩] (.node (.node (.node (.node (.node (.node (.node .leaf 232102471 [⟨⟨.code,[47],.lcode,false,[(3,1)],false⟩,false,false,[none],none,none,none,false,false,false,none,false,⟨.lcode,none,false,.lblank⟩⟩] .leaf) 251004216 [⟨⟨.code,[47],.lcode,false,[(2,0)],false⟩,false,false,[some (9,(.ws,false))],none,none,none,false,false,false,none,false,⟨.lcode,none,false,.lblank⟩⟩] .leaf) 251016505 [⟨⟨.code,[47],.lcode,false,[(2,1)],false⟩,false,false,[some (9,(.ws,false))],none,none,none,false,false,false,none,false,⟨.lcode,none,false,.lblank⟩⟩] (.node (.node .leaf 251090239 [⟨⟨.code,[47],.lcode,false,[(3,0)],false⟩,false,false,[some (9,(.ws,false))],none,none,none,false,false,false,none,false,⟨.lcode,none,false,.lblank⟩⟩] .leaf) 251102528 [⟨⟨.code,[47],.lcode,false,[(3,1)],false⟩,false,false,[some (9,(.ws,false))],none,none,none,false,false,false,none,false,⟨.lcode,none,false,.lblank⟩⟩] .leaf)) 253004222 [⟨⟨.code,[47],.lcode,false,[(2,0)],false⟩,false,false,[some (10,(.lf,false))],none,none,none,false,false,false,none,false,⟨.lcode,none,false,.lblank⟩⟩] (.node (.node (.node .leaf 253016511 [⟨⟨.code,[47],.lcode,false,[(2,1)],false⟩,false,false,[some (10,(.lf,false))],none,none,none,false,false,false,none,false,⟨.lcode,none,false,.lblank⟩⟩] .leaf) 253090245 [⟨⟨.code,[47],.lcode,false,[(3,0)],false⟩,false,false,[some (10,(.lf,false))],none,none,none,false,false,false,none,false,⟨.lcode,none,false,.lblank⟩⟩] .leaf) 253102534 [⟨⟨.code,[47],.lcode,false,[(3,1)],false⟩,false,false,[some (10,(.lf,false))],none,none,none,false,false,false,none,false,⟨.lcode,none,false,.lblank⟩⟩] (.node .leaf 257004234 [⟨⟨.code,[47],.lcode,false,[(2,0)],false⟩,false,false,[some (12,(.ff,false))],none,none,none,false,false,false,none,false,⟨.lcode,none,false,.lblank⟩⟩] .leaf))) 257016523 [⟨⟨.code,[47],.lcode,false,[(2,1)],false⟩,false,false,[some (12,(.ff,false))],none,none,none,false,false,false,none,false,⟨.lcode,none,false,.lblank⟩⟩] (.node (.node (.node (.node .leaf 257090257 [⟨⟨.code,[47],.lcode,false,[(3,0)],false⟩,false,false,[some (12,(.ff,false))],none,none,none,false,false,false,none,false,⟨.lcode,none,false,.lblank⟩⟩] .leaf) 257102546 [⟨⟨.code,[47],.lcode,false,[(3,1)],false⟩,false,false,[some (12,(.ff,false))],none,none,none,false,false,false,none,false,⟨.lcode,none,false,.lblank⟩⟩] .leaf) 259004240 [⟨⟨.code,[47],.lcode,false,[(2,0)],false⟩,false,false,[some (13,(.cr,false))],none,none,none,false,false,false,none,false,⟨.lcode,none,false,.lblank⟩⟩] (.node (.node .leaf 259016529 [⟨⟨.code,[47],.lcode,false,[(2,1)],false⟩,false,false,[some (13,(.cr,false))],none,none,none,false,false,false,none,false,⟨.lcode,none,false,.lblank⟩⟩] .leaf) 259090263 [⟨⟨.code,[47],.lcode,false,[(3,0)],false⟩,false,false,[some (13,(.cr,false))],none,none,none,false,false,false,none,false,⟨.lcode,none,false,.lblank⟩⟩] .leaf)) 259102552 [⟨⟨.code,[47],.lcode,false,[(3,1)],false⟩,false,false,[some (13,(.cr,false))],none,none,none,false,false,false,none,false,⟨.lcode,none,false,.lblank⟩⟩] (.node (.node (.node .leaf 260004243 [⟨⟨.code,[47],.lcode,false,[(2,0)],false⟩,false,false,[some (13,(.cr,true))],none,none,none,false,false,false,none,false,⟨.lcode,none,false,.lblank⟩⟩] .leaf) 260016532 [⟨⟨.code,[47],.lcode,false,[(2,1)],false⟩,false,false,[some (13,(.cr,true))],none,none,none,false,false,false,none,false,⟨.lcode,none,false,.lblank⟩⟩] .leaf) 260090266 [⟨⟨.code,[47],.lcode,false,[(3,0)],false⟩,false,false,[some (13,(.cr,true))],none,none,none,false,false,false,none,false,⟨.lcode,none,false,.lblank⟩⟩] (.node .leaf 260102555 [⟨⟨.code,[47],.lcode,false,[(3,1)],false⟩,false,false,[some (13,(.cr,true))],none,none,none,false,false,false,none,false,⟨.lcode,none,false,.lblank⟩⟩] .leaf)))) 301004366 [⟨⟨.code,[47],.lcode,false,[(2,0)],false⟩,false,false,[some (34,(.other,false))],none,none,none,false,false,false,none,false,⟨.lcode,none,false,.lblank⟩⟩] (.node (.node (.node (.node (.node .leaf 301016655 [⟨⟨.code,[47],.lcode,false,[(2,1)],false⟩,false,false,[some (34,(.other,false))],none,none,none,false,false,false,none,false,⟨.lcode,none,false,.lblank⟩⟩] .leaf) 311090419 [⟨⟨.code,[47],.lcode,false,[(3,0)],false⟩,false,false,[some (39,(.other,false))],none,none,none,false,false,false,none,false,⟨.lcode,none,false,.lblank⟩⟩] .leaf) 311102708 [⟨⟨.code,[47],.lcode,false,[(3,1)],false⟩,false,false,[some (39,(.other,false))],none,none,none,false,false,false,none,false,⟨.lcode,none,false,.lblank⟩⟩] (.node (.node .leaf 351158815 [⟨⟨(.escapedCr 0),[92],.lblank,false,[],false⟩,false,false,[none],none,none,none,false,false,false,none,false,⟨.lcomment,none,false,.lblank⟩⟩] .leaf) 417004714 [⟨⟨.code,[47],.lcode,false,[(2,0)],false⟩,false,false,[some (92,(.other,false))],none,none,none,false,false,false,none,false,⟨.lcode,none,false,.lblank⟩⟩] .leaf)) 417017003 [⟨⟨.code,[47],.lcode,false,[(2,1)],false⟩,false,false,[some (92,(.other,false))],none,none,none,false,false,false,none,false,⟨.lcode,none,false,.lblank⟩⟩] (.node (.node (.node .leaf 417090737 [⟨⟨.code,[47],.lcode,false,[(3,0)],false⟩,false,false,[some (92,(.other,false))],none,none,none,false,false,false,none,false,⟨.lcode,none,false,.lblank⟩⟩] .leaf) 417103026 [⟨⟨.code,[47],.lcode,false,[(3,1)],false⟩,false,false,[some (92,(.other,false))],none,none,none,false,false,false,none,false,⟨.lcode,none,false,.lblank⟩⟩] .leaf) 514771283 [⟨⟨.code,[47],.lcode,false,[],false⟩,false,false,[some (256,(.other,false))],none,none,none,false,false,false,none,false,⟨.lcode,none,false,.lblank⟩⟩] (.node .leaf 534089591 [⟨⟨.code,[47],.lcomment,false,[],false⟩,false,false,[some (256,(.other,false))],none,none,none,false,false,false,none,false,⟨.lcode,none,false,.lblank⟩⟩] .leaf))) 553407899 [⟨⟨.code,[47],.lblank,false,[],false⟩,false,false,[some (256,(.other,false))],none,none,none,false,false,false,none,false,⟨.lcode,none,false,.lblank⟩⟩] (.node (.node (.node (.node .leaf 745005698 [⟨⟨.code,[47],.lcode,false,[(2,0)],false⟩,false,false,[some (256,(.other,false))],none,none,none,false,false,false,none,false,⟨.lcode,none,false,.lblank⟩⟩] .leaf) 745017987 [⟨⟨.code,[47],.lcode,false,[(2,1)],false⟩,false,false,[some (256,(.other,false))],none,none,none,false,false,false,none,false,⟨.lcode,none,false,.lblank⟩⟩] .leaf) 745091721 [⟨⟨.code,[47],.lcode,false,[(3,0)],false⟩,false,false,[some (256,(.other,false))],none,none,none,false,false,false,none,false,⟨.lcode,none,false,.lblank⟩⟩] (.node (.node .leaf 745104010 [⟨⟨.code,[47],.lcode,false,[(3,1)],false⟩,false,false,[some (256,(.other,false))],none,none,none,false,false,false,none,false,⟨.lcode,none,false,.lblank⟩⟩] .leaf) 20270005155 [⟨⟨(.inside 0),[],.lcode,false,[(2,0),(3,0)],false⟩,false,false,[none],none,none,none,false,false,false,none,false,⟨.lcode,none,false,.lblank⟩⟩] .leaf)) 20281188145 [⟨⟨(.inside 0),[],.lcode,false,[(3,0),(2,0)],false⟩,false,false,[none],none,none,none,false,false,false,none,false,⟨.lcode,none,false,.lblank⟩⟩] (.node (.node (.node .leaf 20291005218 [⟨⟨(.inside 0),[],.lcode,false,[(2,0),(3,0)],false⟩,false,false,[some (10,(.lf,false))],none,none,none,false,false,false,none,false,⟨.lcode,none,false,.lblank⟩⟩] .leaf) 20295005230 [⟨⟨(.inside 0),[],.lcode,false,[(2,0),(3,0)],false⟩,false,false,[some (12,(.ff,false))],none,none,none,false,false,false,none,false,⟨.lcode,none,false,.lblank⟩⟩] .leaf) 20297005236 [⟨⟨(.inside 0),[],.lcode,false,[(2,0),(3,0)],false⟩,false,false,[some (13,(.cr,false))],none,none,none,false,false,false,none,false,⟨.lcode,none,false,.lblank⟩⟩] (.node .leaf 20298005239 [⟨⟨(.inside 0),[],.lcode,false,[(2,0),(3,0)],false⟩,false,false,[some (13,(.cr,true))],none,none,none,false,false,false,none,false,⟨.lcode,none,false,.lblank⟩⟩] .leaf))))) 20302188208 [⟨⟨(.inside 0),[],.lcode,false,[(3,0),(2,0)],false⟩,false,false,[some (10,(.lf,false))],none,none,none,false,false,false,none,false,⟨.lcode,none,false,.lblank⟩⟩] (.node (.node (.node (.node (.node (.node .leaf 20306188220 [⟨⟨(.inside 0),[],.lcode,false,[(3,0),(2,0)],false⟩,false,false,[some (12,(.ff,false))],none,none,none,false,false,false,none,false,⟨.lcode,none,false,.lblank⟩⟩] .leaf) 20308188226 [⟨⟨(.inside 0),[],.lcode,false,[(3,0),(2,0)],false⟩,false,false,[some (13,(.cr,false))],none,none,none,false,false,false,none,false,⟨.lcode,none,false,.lblank⟩⟩] .leaf) 20309188229 [⟨⟨(.inside 0),[],.lcode,false,[(3,0),(2,0)],false⟩,false,false,[some (13,(.cr,true))],none,none,none,false,false,false,none,false,⟨.lcode,none,false,.lblank⟩⟩] (.node (.node .leaf 20694921908 [⟨⟨(.inside 0),[92],.lcode,false,[(2,0)],false⟩,false,false,[none],none,none,none,false,false,false,none,false,⟨.lcode,none,false,.lblank⟩⟩] .leaf) 20694934197 [⟨⟨(.inside 0),[92],.lcode,false,[(2,1)],false⟩,false,false,[none],none,none,none,false,false,false,none,false,⟨.lcode,none,false,.lblank⟩⟩] .leaf)) 20695007931 [⟨⟨(.inside 0),[92],.lcode,false,[(3,0)],false⟩,false,false,[none],none,none,none,false,false,false,none,false,⟨.lcode,none,false,.lblank⟩⟩] (.node (.node (.node .leaf 20695020220 [⟨⟨(.inside 0),[92],.lcode,false,[(3,1)],false⟩,false,false,[none],none,none,none,false,false,false,none,false,⟨.lcode,none,false,.lblank⟩⟩] .leaf) 30392798547 [⟨⟨.code,[47],.lcode,false,[(2,0),(3,0)],false⟩,false,false,[none],none,none,none,false,false,false,none,false,⟨.lcode,none,false,.lblank⟩⟩] .leaf) 30394420695 [⟨⟨.code,[47],.lcode,false,[(2,1),(3,1)],false⟩,false,false,[none],none,none,none,false,false,false,none,false,⟨.lcode,none,false,.lblank⟩⟩] (.node .leaf 30403981537 [⟨⟨.code,[47],.lcode,false,[(3,0),(2,0)],false⟩,false,false,[none],none,none,none,false,false,false,none,false,⟨.lcode,none,false,.lblank⟩⟩] .leaf))) 30405603685 [⟨⟨.code,[47],.lcode,false,[(3,1),(2,1)],false⟩,false,false,[none],none,none,none,false,false,false,none,false,⟨.lcode,none,false,.lblank⟩⟩] (.node (.node (.node (.node .leaf 30411798604 [⟨⟨.code,[47],.lcode,false,[(2,0),(3,0)],false⟩,false,false,[some (9,(.ws,false))],none,none,none,false,false,false,none,false,⟨.lcode,none,false,.lblank⟩⟩] .leaf) 30413420752 [⟨⟨.code,[47],.lcode,false,[(2,1),(3,1)],false⟩,false,false,[some (9,(.ws,false))],none,none,none,false,false,false,none,false,⟨.lcode,none,false,.lblank⟩⟩] .leaf) 30413798610 [⟨⟨.code,[47],.lcode,false,[(2,0),(3,0)],false⟩,false,false,[some (10,(.lf,false))],none,none,none,false,false,false,none,false,⟨.lcode,none,false,.lblank⟩⟩] (.node (.node .leaf 30415420758 [⟨⟨.code,[47],.lcode,false,[(2,1),(3,1)],false⟩,false,false,[some (10,(.lf,false))],none,none,none,false,false,false,none,false,⟨.lcode,none,false,.lblank⟩⟩] .leaf) 30417798622 [⟨⟨.code,[47],.lcode,false,[(2,0),(3,0)],false⟩,false,false,[some (12,(.ff,false))],none,none,none,false,false,false,none,false,⟨.lcode,none,false,.lblank⟩⟩] .leaf)) 30419420770 [⟨⟨.code,[47],.lcode,false,[(2,1),(3,1)],false⟩,false,false,[some (12,(.ff,false))],none,none,none,false,false,false,none,false,⟨.lcode,none,false,.lblank⟩⟩] (.node (.node (.node .leaf 30419798628 [⟨⟨.code,[47],.lcode,false,[(2,0),(3,0)],false⟩,false,false,[some (13,(.cr,false))],none,none,none,false,false,false,none,false,⟨.lcode,none,false,.lblank⟩⟩] .leaf) 30420798631 [⟨⟨.code,[47],.lcode,false,[(2,0),(3,0)],false⟩,false,false,[some (13,(.cr,true))],none,none,none,false,false,false,none,false,⟨.lcode,none,false,.lblank⟩⟩] .leaf) 30421420776 [⟨⟨.code,[47],.lcode,false,[(2,1),(3,1)],false⟩,false,false,[some (13,(.cr,false))],none,none,none,false,false,false,none,false,⟨.lcode,none,false,.lblank⟩⟩] (.node .leaf 30422420779 [⟨⟨.code,[47],.lcode,false,[(2,1),(3,1)],false⟩,false,false,[some (13,(.cr,true))],none,none,none,false,false,false,none,false,⟨.lcode,none,false,.lblank⟩⟩] .leaf)))) 30422981594 [⟨⟨.code,[47],.lcode,false,[(3,0),(2,0)],false⟩,false,false,[some (9,(.ws,false))],none,none,none,false,false,false,none,false,⟨.lcode,none,false,.lblank⟩⟩] (.node (.node (.node (.node (.node .leaf 30424603742 [⟨⟨.code,[47],.lcode,false,[(3,1),(2,1)],false⟩,false,false,[some (9,(.ws,false))],none,none,none,false,false,false,none,false,⟨.lcode,none,false,.lblank⟩⟩] .leaf) 30424981600 [⟨⟨.code,[47],.lcode,false,[(3,0),(2,0)],false⟩,false,false,[some (10,(.lf,false))],none,none,none,false,false,false,none,false,⟨.lcode,none,false,.lblank⟩⟩] .leaf) 30426603748 [⟨⟨.code,[47],.lcode,false,[(3,1),(2,1)],false⟩,false,false,[some (10,(.lf,false))],none,none,none,false,false,false,none,false,⟨.lcode,none,false,.lblank⟩⟩] (.node (.node .leaf 30428981612 [⟨⟨.code,[47],.lcode,false,[(3,0),(2,0)],false⟩,false,false,[some (12,(.ff,false))],none,none,none,false,false,false,none,false,⟨.lcode,none,false,.lblank⟩⟩] .leaf) 30430603760 [⟨⟨.code,[47],.lcode,false,[(3,1),(2,1)],false⟩,false,false,[some (12,(.ff,false))],none,none,none,false,false,false,none,false,⟨.lcode,none,false,.lblank⟩⟩] .leaf)) 30430981618 [⟨⟨.code,[47],.lcode,false,[(3,0),(2,0)],false⟩,false,false,[some (13,(.cr,false))],none,none,none,false,false,false,none,false,⟨.lcode,none,false,.lblank⟩⟩] (.node (.node (.node .leaf 30431981621 [⟨⟨.code,[47],.lcode,false,[(3,0),(2,0)],false⟩,false,false,[some (13,(.cr,true))],none,none,none,false,false,false,none,false,⟨.lcode,none,false,.lblank⟩⟩] .leaf) 30432603766 [⟨⟨.code,[47],.lcode,false,[(3,1),(2,1)],false⟩,false,false,[some (13,(.cr,false))],none,none,none,false,false,false,none,false,⟨.lcode,none,false,.lblank⟩⟩] .leaf) 30433603769 [⟨⟨.code,[47],.lcode,false,[(3,1),(2,1)],false⟩,false,false,[some (13,(.cr,true))],none,none,none,false,false,false,none,false,⟨.lcode,none,false,.lblank⟩⟩] (.node .leaf 30577799102 [⟨⟨.code,[47],.lcode,false,[(2,0),(3,0)],false⟩,false,false,[some (92,(.other,false))],none,none,none,false,false,false,none,false,⟨.lcode,none,false,.lblank⟩⟩] .leaf))) 30579421250 [⟨⟨.code,[47],.lcode,false,[(2,1),(3,1)],false⟩,false,false,[some (92,(.other,false))],none,none,none,false,false,false,none,false,⟨.lcode,none,false,.lblank⟩⟩] (.node (.node (.node (.node .leaf 30588982092 [⟨⟨.code,[47],.lcode,false,[(3,0),(2,0)],false⟩,false,false,[some (92,(.other,false))],none,none,none,false,false,false,none,false,⟨.lcode,none,false,.lblank⟩⟩] .leaf) 30590604240 [⟨⟨.code,[47],.lcode,false,[(3,1),(2,1)],false⟩,false,false,[some (92,(.other,false))],none,none,none,false,false,false,none,false,⟨.lcode,none,false,.lblank⟩⟩] .leaf) 30905800086 [⟨⟨.code,[47],.lcode,false,[(2,0),(3,0)],false⟩,false,false,[some (256,(.other,false))],none,none,none,false,false,false,none,false,⟨.lcode,none,false,.lblank⟩⟩] (.node (.node .leaf 30907422234 [⟨⟨.code,[47],.lcode,false,[(2,1),(3,1)],false⟩,false,false,[some (256,(.other,false))],none,none,none,false,false,false,none,false,⟨.lcode,none,false,.lblank⟩⟩] .leaf) 30916983076 [⟨⟨.code,[47],.lcode,false,[(3,0),(2,0)],false⟩,false,false,[some (256,(.other,false))],none,none,none,false,false,false,none,false,⟨.lcode,none,false,.lblank⟩⟩] .leaf)) 30918605224 [⟨⟨.code,[47],.lcode,false,[(3,1),(2,1)],false⟩,false,false,[some (256,(.other,false))],none,none,none,false,false,false,none,false,⟨.lcode,none,false,.lblank⟩⟩] (.node (.node (.node .leaf 2711035023666 [⟨⟨(.inside 0),[92],.lcode,false,[(2,0),(3,0)],false⟩,false,false,[none],none,none,none,false,false,false,none,false,⟨.lcode,none,false,.lblank⟩⟩] .leaf) 2711036645814 [⟨⟨(.inside 0),[92],.lcode,false,[(2,1),(3,1)],false⟩,false,false,[none],none,none,none,false,false,false,none,false,⟨.lcode,none,false,.lblank⟩⟩] .leaf) 2711046206656 [⟨⟨(.inside 0),[92],.lcode,false,[(3,0),(2,0)],false⟩,false,false,[none],none,none,none,false,false,false,none,false,⟨.lcode,none,false,.lblank⟩⟩] (.node .leaf 2711047828804 [⟨⟨(.inside 0),[92],.lcode,false,[(3,1),(2,1)],false⟩,false,false,[none],none,none,none,false,false,false,none,false,⟨.lcode,none,false,.lblank⟩⟩] .leaf))))))),(.node (.node (.node .leaf 128 [⟨⟨.code,[],.lcode,false,[],false⟩,false,false,[],none,none,none,false,false,false,none,false,⟨.lcode,some (.own 0),false,.lblank⟩⟩] .leaf) 148108 [⟨⟨.code,[],.lcomment,false,[],false⟩,false,false,[],none,none,none,false,false,false,none,false,⟨.lcomment,some (.own 0),false,.lblank⟩⟩] (.node .leaf 184463 [⟨⟨.code,[],.lcode,false,[(2,0)],false⟩,false,false,[],none,none,none,false,false,false,none,false,⟨.lcode,some (.own 0),false,.lblank⟩⟩] .leaf)) 270486 [⟨⟨.code,[],.lcode,false,[(3,0)],false⟩,false,false,[],none,none,none,false,false,false,none,false,⟨.lcode,some (.own 0),false,.lblank⟩⟩] (.node (.node .leaf 296088 [⟨⟨.code,[],.lblank,false,[],false⟩,false,false,[],none,none,none,false,false,false,none,false,⟨.lblank,some (.own 0),false,.lblank⟩⟩] .leaf) 24418371 [⟨⟨.code,[],.lcode,false,[(2,0),(3,0)],false⟩,false,false,[],none,none,none,false,false,false,none,false,⟨.lcode,some (.own 0),false,.lblank⟩⟩] (.node .leaf 35601361 [⟨⟨.code,[],.lcode,false,[(3,0),(2,0)],false⟩,false,false,[],none,none,none,false,false,false,none,false,⟨.lcode,some (.own 0),false,.lblank⟩⟩] .leaf))),(.node (.node .leaf 160 [⟨⟨.code,[],.lcode,false,[],false⟩,true,false,[],none,none,none,false,false,false,none,false,⟨.lcode,some .newline,false,.lblank⟩⟩] .leaf) 148140 [⟨⟨.code,[],.lcomment,false,[],false⟩,true,false,[],none,none,none,false,false,false,none,false,⟨.lcomment,some .newline,false,.lblank⟩⟩] (.node .leaf 296120 [⟨⟨.code,[],.lblank,false,[],false⟩,true,false,[],none,none,none,false,false,false,none,false,⟨.lblank,some .newline,false,.lblank⟩⟩] .leaf)),(.node (.node .leaf 37011 [⟨⟨.code,[],.lcode,true,[],false⟩,false,true,[],none,none,none,false,false,false,none,false,⟨.lcode,some .newline,false,.lblank⟩⟩] .leaf) 184991 [⟨⟨.code,[],.lcomment,true,[],false⟩,false,true,[],none,none,none,false,false,false,none,false,⟨.lcomment,some .newline,false,.lblank⟩⟩] (.node .leaf 332971 [⟨⟨.code,[],.lblank,true,[],false⟩,false,true,[],none,none,none,false,false,false,none,false,⟨.lblank,some .newline,false,.lblank⟩⟩] .leaf)),(.node (.node (.node (.node .leaf 270486 [⟨⟨.code,[],.lcode,false,[(3,0)],false⟩,false,false,[],none,none,none,false,false,false,none,false,⟨.lcode,some (.own 3),false,.lblank⟩⟩] .leaf) 270490 [⟨⟨.code,[],.lcode,false,[(3,0)],false⟩,false,false,[],none,none,none,false,true,false,none,false,⟨.lcode,some (.own 3),false,.lblank⟩⟩] .leaf) 10027952 [⟨⟨(.inside 3),[],.lcode,false,[],false⟩,false,false,[],none,none,none,false,false,false,none,false,⟨.lcode,some (.own 3),false,.lblank⟩⟩] (.node (.node .leaf 24418371 [⟨⟨.code,[],.lcode,false,[(2,0),(3,0)],false⟩,false,false,[],none,none,none,false,false,false,none,false,⟨.lcode,some (.own 3),false,.lblank⟩⟩] .leaf) 35601361 [⟨⟨.code,[],.lcode,false,[(3,0),(2,0)],false⟩,false,false,[],none,none,none,false,false,false,none,false,⟨.lcode,some (.own 3),false,.lblank⟩⟩] .leaf)) 35601365 [⟨⟨.code,[],.lcode,false,[(3,0),(2,0)],false⟩,false,false,[],none,none,none,false,true,false,none,false,⟨.lcode,some (.own 3),false,.lblank⟩⟩] (.node (.node (.node .leaf 1313829407 [⟨⟨(.inside 3),[],.lcode,false,[(2,0)],false⟩,false,false,[],none,none,none,false,false,false,none,false,⟨.lcode,some (.own 3),false,.lblank⟩⟩] .leaf) 1313915430 [⟨⟨(.inside 3),[],.lcode,false,[(3,0)],false⟩,false,false,[],none,none,none,false,false,false,none,false,⟨.lcode,some (.own 3),false,.lblank⟩⟩] .leaf) 172111906035 [⟨⟨(.inside 3),[],.lcode,false,[(2,0),(3,0)],false⟩,false,false,[],none,none,none,false,false,false,none,false,⟨.lcode,some (.own 3),false,.lblank⟩⟩] (.node .leaf 172123089025 [⟨⟨(.inside 3),[],.lcode,false,[(3,0),(2,0)],false⟩,false,false,[],none,none,none,false,false,false,none,false,⟨.lcode,some (.own 3),false,.lblank⟩⟩] .leaf))),(.node (.node (.node (.node .leaf 184463 [⟨⟨.code,[],.lcode,false,[(2,0)],false⟩,false,false,[],none,none,none,false,false,false,none,false,⟨.lcode,some (.own 3),false,.lblank⟩⟩] .leaf) 184467 [⟨⟨.code,[],.lcode,false,[(2,0)],false⟩,false,false,[],none,none,none,false,true,false,none,false,⟨.lcode,some (.own 3),false,.lblank⟩⟩] .leaf) 7078592 [⟨⟨(.inside 2),[],.lcode,false,[],false⟩,false,false,[],none,none,none,false,false,false,none,false,⟨.lcode,some (.own 3),false,.lblank⟩⟩] (.node (.node .leaf 24418371 [⟨⟨.code,[],.lcode,false,[(2,0),(3,0)],false⟩,false,false,[],none,none,none,false,false,false,none,false,⟨.lcode,some (.own 3),false,.lblank⟩⟩] .leaf) 24418375 [⟨⟨.code,[],.lcode,false,[(2,0),(3,0)],false⟩,false,false,[],none,none,none,false,true,false,none,false,⟨.lcode,some (.own 3),false,.lblank⟩⟩] .leaf)) 35601361 [⟨⟨.code,[],.lcode,false,[(3,0),(2,0)],false⟩,false,false,[],none,none,none,false,false,false,none,false,⟨.lcode,some (.own 3),false,.lblank⟩⟩] (.node (.node (.node .leaf 927463247 [⟨⟨(.inside 2),[],.lcode,false,[(2,0)],false⟩,false,false,[],none,none,none,false,false,false,none,false,⟨.lcode,some (.own 3),false,.lblank⟩⟩] .leaf) 927549270 [⟨⟨(.inside 2),[],.lcode,false,[(3,0)],false⟩,false,false,[],none,none,none,false,false,false,none,false,⟨.lcode,some (.own 3),false,.lblank⟩⟩] .leaf) 121497939075 [⟨⟨(.inside 2),[],.lcode,false,[(2,0),(3,0)],false⟩,false,false,[],none,none,none,false,false,false,none,false,⟨.lcode,some (.own 3),false,.lblank⟩⟩] (.node .leaf 121509122065 [⟨⟨(.inside 2),[],.lcode,false,[(3,0),(2,0)],false⟩,false,false,[],none,none,none,false,false,false,none,false,⟨.lcode,some (.own 3),false,.lblank⟩⟩] .leaf))),(.node (.node (.node (.node .leaf 1769746 [⟨⟨.code,[47],.lcode,false,[],false⟩,false,false,[],none,none,none,false,false,true,none,false,⟨.lcode,some (.own 3),false,.lblank⟩⟩] .leaf) 21088566 [⟨⟨.code,[47],.lcomment,false,[],false⟩,false,false,[],none,none,none,false,false,true,none,false,⟨.lcomment,some (.own 3),false,.lblank⟩⟩] .leaf) 40407386 [⟨⟨.code,[47],.lblank,false,[],false⟩,false,false,[],none,none,none,false,false,true,none,false,⟨.lblank,some (.own 3),false,.lblank⟩⟩] (.node (.node .leaf 232004161 [⟨⟨.code,[47],.lcode,false,[(2,0)],false⟩,false,false,[],none,none,none,false,false,true,none,false,⟨.lcode,some (.own 3),false,.lblank⟩⟩] .leaf) 232016450 [⟨⟨.code,[47],.lcode,false,[(2,1)],false⟩,false,false,[],none,none,none,false,false,true,none,false,⟨.lcode,some (.own 3),false,.lblank⟩⟩] .leaf)) 232090184 [⟨⟨.code,[47],.lcode,false,[(3,0)],false⟩,false,false,[],none,none,none,false,false,true,none,false,⟨.lcode,some (.own 3),false,.lblank⟩⟩] (.node (.node (.node .leaf 232102473 [⟨⟨.code,[47],.lcode,false,[(3,1)],false⟩,false,false,[],none,none,none,false,false,true,none,false,⟨.lcode,some (.own 3),false,.lblank⟩⟩] .leaf) 30392798549 [⟨⟨.code,[47],.lcode,false,[(2,0),(3,0)],false⟩,false,false,[],none,none,none,false,false,true,none,false,⟨.lcode,some (.own 3),false,.lblank⟩⟩] .leaf) 30394420697 [⟨⟨.code,[47],.lcode,false,[(2,1),(3,1)],false⟩,false,false,[],none,none,none,false,false,true,none,false,⟨.lcode,some (.own 3),false,.lblank⟩⟩] (.node (.node .leaf 30403981539 [⟨⟨.code,[47],.lcode,false,[(3,0),(2,0)],false⟩,false,false,[],none,none,none,false,false,true,none,false,⟨.lcode,some (.own 3),false,.lblank⟩⟩] .leaf) 30405603687 [⟨⟨.code,[47],.lcode,false,[(3,1),(2,1)],false⟩,false,false,[],none,none,none,false,false,true,none,false,⟨.lcode,some (.own 3),false,.lblank⟩⟩] .leaf))),(.node (.node (.node (.node (.node (.node .leaf 287889 [⟨⟨.code,[],.lcode,false,[(3,0)],false⟩,false,false,[],some 4,some ⟨.code,[],.lcode,false,[(3,0)],false⟩,none,false,false,false,none,false,⟨.lcode,some (.own 3),false,.lblank⟩⟩] .leaf) 10655941 [⟨⟨(.inside 3),[],.lcode,false,[],false⟩,false,false,[],some 4,some ⟨(.inside 3),[],.lcode,false,[],false⟩,none,false,false,false,none,false,⟨.lcode,some (.own 3),false,.lblank⟩⟩] .leaf) 24435774 [⟨⟨.code,[],.lcode,false,[(2,0),(3,0)],false⟩,false,false,[],some 4,some ⟨.code,[],.lcode,false,[(3,0)],false⟩,none,false,false,false,none,false,⟨.lcode,some (.own 3),false,.lblank⟩⟩] (.node .leaf 25946859 [⟨⟨.code,[],.lcode,false,[(2,0),(3,0)],false⟩,false,false,[],some 4,some ⟨.code,[],.lcode,false,[(2,0),(3,0)],false⟩,none,false,false,false,none,false,⟨.lcode,some (.own 3),false,.lblank⟩⟩] .leaf)) 37829639 [⟨⟨.code,[],.lcode,false,[(3,0),(2,0)],false⟩,false,false,[],some 4,some ⟨.code,[],.lcode,false,[(3,0),(2,0)],false⟩,none,false,false,false,none,false,⟨.lcode,some (.own 3),false,.lblank⟩⟩] (.node (.node (.node .leaf 48583663 [⟨⟨.code,[],.lblank,false,[(3,0)],true⟩,false,false,[],some 4,some ⟨.code,[],.lcode,false,[(3,0)],false⟩,none,false,true,false,none,false,⟨.lcode,some (.own 3),false,.lblank⟩⟩] .leaf) 154834353 [⟨⟨(.inside 0),[],.lcode,false,[(3,0)],false⟩,false,false,[],some 4,some ⟨.code,[],.lcode,false,[(3,0)],false⟩,none,false,false,false,none,false,⟨.lcode,some (.own 3),false,.lblank⟩⟩] .leaf) 232107585 [⟨⟨.code,[47],.lcode,false,[(3,0)],false⟩,false,false,[],some 4,some ⟨.code,[],.lcode,false,[(3,0)],false⟩,none,false,false,false,none,false,⟨.lcode,some (.own 3),false,.lblank⟩⟩] (.node .leaf 541200513 [⟨⟨(.inside 1),[],.lcode,false,[(3,0)],false⟩,false,false,[],some 4,some ⟨.code,[],.lcode,false,[(3,0)],false⟩,none,false,false,false,none,false,⟨.lcode,some (.own 3),false,.lblank⟩⟩] .leaf))) 927566673 [⟨⟨(.inside 2),[],.lcode,false,[(3,0)],false⟩,false,false,[],some 4,some ⟨.code,[],.lcode,false,[(3,0)],false⟩,none,false,false,false,none,false,⟨.lcode,some (.own 3),false,.lblank⟩⟩] (.node (.node (.node (.node .leaf 1313932833 [⟨⟨(.inside 3),[],.lcode,false,[(3,0)],false⟩,false,false,[],some 4,some ⟨.code,[],.lcode,false,[(3,0)],false⟩,none,false,false,false,none,false,⟨.lcode,some (.own 3),false,.lblank⟩⟩] .leaf) 1396044451 [⟨⟨(.inside 3),[],.lcode,false,[(2,0)],false⟩,false,false,[],some 4,some ⟨(.inside 3),[],.lcode,false,[(2,0)],false⟩,none,false,false,false,none,false,⟨.lcode,some (.own 3),false,.lblank⟩⟩] .leaf) 1396135857 [⟨⟨(.inside 3),[],.lcode,false,[(3,0)],false⟩,false,false,[],some 4,some ⟨(.inside 3),[],.lcode,false,[(3,0)],false⟩,none,false,false,false,none,false,⟨.lcode,some (.own 3),false,.lblank⟩⟩] (.node .leaf 6351181648 [⟨⟨.code,[],.lblank,false,[(2,0),(3,0)],true⟩,false,false,[],some 4,some ⟨.code,[],.lcode,false,[(3,0)],false⟩,none,false,true,false,none,false,⟨.lcode,some (.own 3),false,.lblank⟩⟩] .leaf)) 6364575513 [⟨⟨.code,[],.lblank,false,[(3,0),(2,0)],true⟩,false,false,[],some 4,some ⟨.code,[],.lcode,false,[(3,0),(2,0)],false⟩,none,false,true,false,none,false,⟨.lcode,some (.own 3),false,.lblank⟩⟩] (.node (.node .leaf 20270022558 [⟨⟨(.inside 0),[],.lcode,false,[(2,0),(3,0)],false⟩,false,false,[],some 4,some ⟨.code,[],.lcode,false,[(3,0)],false⟩,none,false,false,false,none,false,⟨.lcode,some (.own 3),false,.lblank⟩⟩] .leaf) 20271533643 [⟨⟨(.inside 0),[],.lcode,false,[(2,0),(3,0)],false⟩,false,false,[],some 4,some ⟨.code,[],.lcode,false,[(2,0),(3,0)],false⟩,none,false,false,false,none,false,⟨.lcode,some (.own 3),false,.lblank⟩⟩] (.node .leaf 20283416423 [⟨⟨(.inside 0),[],.lcode,false,[(3,0),(2,0)],false⟩,false,false,[],some 4,some ⟨.code,[],.lcode,false,[(3,0),(2,0)],false⟩,none,false,false,false,none,false,⟨.lcode,some (.own 3),false,.lblank⟩⟩] .leaf)))) 30392815950 [⟨⟨.code,[47],.lcode,false,[(2,0),(3,0)],false⟩,false,false,[],some 4,some ⟨.code,[],.lcode,false,[(3,0)],false⟩,none,false,false,false,none,false,⟨.lcode,some (.own 3),false,.lblank⟩⟩] (.node (.node (.node (.node (.node .leaf 30394327035 [⟨⟨.code,[47],.lcode,false,[(2,0),(3,0)],false⟩,false,false,[],some 4,some ⟨.code,[],.lcode,false,[(2,0),(3,0)],false⟩,none,false,false,false,none,false,⟨.lcode,some (.own 3),false,.lblank⟩⟩] .leaf) 30406209815 [⟨⟨.code,[47],.lcode,false,[(3,0),(2,0)],false⟩,false,false,[],some 4,some ⟨.code,[],.lcode,false,[(3,0),(2,0)],false⟩,none,false,false,false,none,false,⟨.lcode,some (.own 3),false,.lblank⟩⟩] .leaf) 70883989518 [⟨⟨(.inside 1),[],.lcode,false,[(2,0),(3,0)],false⟩,false,false,[],some 4,some ⟨.code,[],.lcode,false,[(3,0)],false⟩,none,false,false,false,none,false,⟨.lcode,some (.own 3),false,.lblank⟩⟩] (.node .leaf 70885500603 [⟨⟨(.inside 1),[],.lcode,false,[(2,0),(3,0)],false⟩,false,false,[],some 4,some ⟨.code,[],.lcode,false,[(2,0),(3,0)],false⟩,none,false,false,false,none,false,⟨.lcode,some (.own 3),false,.lblank⟩⟩] .leaf)) 70897383383 [⟨⟨(.inside 1),[],.lcode,false,[(3,0),(2,0)],false⟩,false,false,[],some 4,some ⟨.code,[],.lcode,false,[(3,0),(2,0)],false⟩,none,false,false,false,none,false,⟨.lcode,some (.own 3),false,.lblank⟩⟩] (.node (.node .leaf 71067513444 [⟨⟨(.inside 1),[42],.lcode,false,[(3,0)],false⟩,false,false,[],some 4,some ⟨.code,[],.lcode,false,[(3,0)],false⟩,none,false,false,false,none,false,⟨.lcode,some (.own 3),false,.lblank⟩⟩] .leaf) 121497956478 [⟨⟨(.inside 2),[],.lcode,false,[(2,0),(3,0)],false⟩,false,false,[],some 4,some ⟨.code,[],.lcode,false,[(3,0)],false⟩,none,false,false,false,none,false,⟨.lcode,some (.own 3),false,.lblank⟩⟩] (.node .leaf 121499467563 [⟨⟨(.inside 2),[],.lcode,false,[(2,0),(3,0)],false⟩,false,false,[],some 4,some ⟨.code,[],.lcode,false,[(2,0),(3,0)],false⟩,none,false,false,false,none,false,⟨.lcode,some (.own 3),false,.lblank⟩⟩] .leaf))) 121511350343 [⟨⟨(.inside 2),[],.lcode,false,[(3,0),(2,0)],false⟩,false,false,[],some 4,some ⟨.code,[],.lcode,false,[(3,0),(2,0)],false⟩,none,false,false,false,none,false,⟨.lcode,some (.own 3),false,.lblank⟩⟩] (.node (.node (.node (.node .leaf 172111923438 [⟨⟨(.inside 3),[],.lcode,false,[(2,0),(3,0)],false⟩,false,false,[],some 4,some ⟨.code,[],.lcode,false,[(3,0)],false⟩,none,false,false,false,none,false,⟨.lcode,some (.own 3),false,.lblank⟩⟩] .leaf) 172113434523 [⟨⟨(.inside 3),[],.lcode,false,[(2,0),(3,0)],false⟩,false,false,[],some 4,some ⟨.code,[],.lcode,false,[(2,0),(3,0)],false⟩,none,false,false,false,none,false,⟨.lcode,some (.own 3),false,.lblank⟩⟩] .leaf) 172125317303 [⟨⟨(.inside 3),[],.lcode,false,[(3,0),(2,0)],false⟩,false,false,[],some 4,some ⟨.code,[],.lcode,false,[(3,0),(2,0)],false⟩,none,false,false,false,none,false,⟨.lcode,some (.own 3),false,.lblank⟩⟩] (.node .leaf 182882030667 [⟨⟨(.inside 3),[],.lcode,false,[(2,0),(3,0)],false⟩,false,false,[],some 4,some ⟨(.inside 3),[],.lcode,false,[(2,0),(3,0)],false⟩,none,false,false,false,none,false,⟨.lcode,some (.own 3),false,.lblank⟩⟩] .leaf)) 182893913447 [⟨⟨(.inside 3),[],.lcode,false,[(3,0),(2,0)],false⟩,false,false,[],some 4,some ⟨(.inside 3),[],.lcode,false,[(3,0),(2,0)],false⟩,none,false,false,false,none,false,⟨.lcode,some (.own 3),false,.lblank⟩⟩] (.node (.node .leaf 9309830983479 [⟨⟨(.inside 1),[42],.lcode,false,[(2,0),(3,0)],false⟩,false,false,[],some 4,some ⟨.code,[],.lcode,false,[(3,0)],false⟩,none,false,false,false,none,false,⟨.lcode,some (.own 3),false,.lblank⟩⟩] .leaf) 9309832494564 [⟨⟨(.inside 1),[42],.lcode,false,[(2,0),(3,0)],false⟩,false,false,[],some 4,some ⟨.code,[],.lcode,false,[(2,0),(3,0)],false⟩,none,false,false,false,none,false,⟨.lcode,some (.own 3),false,.lblank⟩⟩] (.node .leaf 9309844377344 [⟨⟨(.inside 1),[42],.lcode,false,[(3,0),(2,0)],false⟩,false,false,[],some 4,some ⟨.code,[],.lcode,false,[(3,0),(2,0)],false⟩,none,false,false,false,none,false,⟨.lcode,some (.own 3),false,.lblank⟩⟩] .leaf))))),(.node (.node (.node (.node (.node .leaf 300178 [⟨⟨.code,[],.lcode,false,[(3,1)],false⟩,false,false,[],some 4,some ⟨.code,[],.lcode,false,[(3,0)],false⟩,none,false,false,false,none,false,⟨.lcode,some (.own 3),false,.lblank⟩⟩] .leaf) 26057922 [⟨⟨.code,[],.lcode,false,[(2,1),(3,1)],false⟩,false,false,[],some 4,some ⟨.code,[],.lcode,false,[(3,0)],false⟩,none,false,false,false,none,false,⟨.lcode,some (.own 3),false,.lblank⟩⟩] (.node .leaf 27569007 [⟨⟨.code,[],.lcode,false,[(2,1),(3,1)],false⟩,false,false,[],some 4,some ⟨.code,[],.lcode,false,[(2,0),(3,0)],false⟩,none,false,false,false,none,false,⟨.lcode,some (.own 3),false,.lblank⟩⟩] .leaf)) 39451787 [⟨⟨.code,[],.lcode,false,[(3,1),(2,1)],false⟩,false,false,[],some 4,some ⟨.code,[],.lcode,false,[(3,0),(2,0)],false⟩,none,false,false,false,none,false,⟨.lcode,some (.own 3),false,.lblank⟩⟩] (.node (.node .leaf 48595952 [⟨⟨.code,[],.lblank,false,[(3,1)],true⟩,false,false,[],some 4,some ⟨.code,[],.lcode,false,[(3,0)],false⟩,none,false,true,false,none,false,⟨.lcode,some (.own 3),false,.lblank⟩⟩] .leaf) 541212802 [⟨⟨(.inside 1),[],.lcode,false,[(3,1)],false⟩,false,false,[],some 4,some ⟨.code,[],.lcode,false,[(3,0)],false⟩,none,false,false,false,none,false,⟨.lcode,some (.own 3),false,.lblank⟩⟩] (.node .leaf 1317701692 [⟨⟨(.inside 3),[92],.lcode,false,[],false⟩,false,false,[],some 4,some ⟨(.inside 3),[],.lcode,false,[],false⟩,none,false,false,false,none,false,⟨.lcode,some (.own 3),false,.lblank⟩⟩] .leaf))) 6352803796 [⟨⟨.code,[],.lblank,false,[(2,1),(3,1)],true⟩,false,false,[],some 4,some ⟨.code,[],.lcode,false,[(3,0)],false⟩,none,false,true,false,none,false,⟨.lcode,some (.own 3),false,.lblank⟩⟩] (.node (.node (.node .leaf 6366197661 [⟨⟨.code,[],.lblank,false,[(3,1),(2,1)],true⟩,false,false,[],some 4,some ⟨.code,[],.lcode,false,[(3,0),(2,0)],false⟩,none,false,true,false,none,false,⟨.lcode,some (.own 3),false,.lblank⟩⟩] .leaf) 20695025334 [⟨⟨(.inside 0),[92],.lcode,false,[(3,0)],false⟩,false,false,[],some 4,some ⟨.code,[],.lcode,false,[(3,0)],false⟩,none,false,false,false,none,false,⟨.lcode,some (.own 3),false,.lblank⟩⟩] (.node .leaf 70885611666 [⟨⟨(.inside 1),[],.lcode,false,[(2,1),(3,1)],false⟩,false,false,[],some 4,some ⟨.code,[],.lcode,false,[(3,0)],false⟩,none,false,false,false,none,false,⟨.lcode,some (.own 3),false,.lblank⟩⟩] .leaf)) 70887122751 [⟨⟨(.inside 1),[],.lcode,false,[(2,1),(3,1)],false⟩,false,false,[],some 4,some ⟨.code,[],.lcode,false,[(2,0),(3,0)],false⟩,none,false,false,false,none,false,⟨.lcode,some (.own 3),false,.lblank⟩⟩] (.node (.node .leaf 70899005531 [⟨⟨(.inside 1),[],.lcode,false,[(3,1),(2,1)],false⟩,false,false,[],some 4,some ⟨.code,[],.lcode,false,[(3,0),(2,0)],false⟩,none,false,false,false,none,false,⟨.lcode,some (.own 3),false,.lblank⟩⟩] .leaf) 121922959254 [⟨⟨(.inside 2),[92],.lcode,false,[(3,0)],false⟩,false,false,[],some 4,some ⟨.code,[],.lcode,false,[(3,0)],false⟩,none,false,false,false,none,false,⟨.lcode,some (.own 3),false,.lblank⟩⟩] .leaf))) 172536926214 [⟨⟨(.inside 3),[92],.lcode,false,[(3,0)],false⟩,false,false,[],some 4,some ⟨.code,[],.lcode,false,[(3,0)],false⟩,none,false,false,false,none,false,⟨.lcode,some (.own 3),false,.lblank⟩⟩] (.node (.node (.node (.node .leaf 172619037832 [⟨⟨(.inside 3),[92],.lcode,false,[(2,0)],false⟩,false,false,[],some 4,some ⟨(.inside 3),[],.lcode,false,[(2,0)],false⟩,none,false,false,false,none,false,⟨.lcode,some (.own 3),false,.lblank⟩⟩] .leaf) 172619129238 [⟨⟨(.inside 3),[92],.lcode,false,[(3,0)],false⟩,false,false,[],some 4,some ⟨(.inside 3),[],.lcode,false,[(3,0)],false⟩,none,false,false,false,none,false,⟨.lcode,some (.own 3),false,.lblank⟩⟩] (.node .leaf 2711035041069 [⟨⟨(.inside 0),[92],.lcode,false,[(2,0),(3,0)],false⟩,false,false,[],some 4,some ⟨.code,[],.lcode,false,[(3,0)],false⟩,none,false,false,false,none,false,⟨.lcode,some (.own 3),false,.lblank⟩⟩] .leaf)) 2711036552154 [⟨⟨(.inside 0),[92],.lcode,false,[(2,0),(3,0)],false⟩,false,false,[],some 4,some ⟨.code,[],.lcode,false,[(2,0),(3,0)],false⟩,none,false,false,false,none,false,⟨.lcode,some (.own 3),false,.lblank⟩⟩] (.node (.node .leaf 2711048434934 [⟨⟨(.inside 0),[92],.lcode,false,[(3,0),(2,0)],false⟩,false,false,[],some 4,some ⟨.code,[],.lcode,false,[(3,0),(2,0)],false⟩,none,false,false,false,none,false,⟨.lcode,some (.own 3),false,.lblank⟩⟩] .leaf) 15971894384589 [⟨⟨(.inside 2),[92],.lcode,false,[(2,0),(3,0)],false⟩,false,false,[],some 4,some ⟨.code,[],.lcode,false,[(3,0)],false⟩,none,false,false,false,none,false,⟨.lcode,some (.own 3),false,.lblank⟩⟩] .leaf)) 15971895895674 [⟨⟨(.inside 2),[92],.lcode,false,[(2,0),(3,0)],false⟩,false,false,[],some 4,some ⟨.code,[],.lcode,false,[(2,0),(3,0)],false⟩,none,false,false,false,none,false,⟨.lcode,some (.own 3),false,.lblank⟩⟩] (.node (.node (.node .leaf 15971907778454 [⟨⟨(.inside 2),[92],.lcode,false,[(3,0),(2,0)],false⟩,false,false,[],some 4,some ⟨.code,[],.lcode,false,[(3,0),(2,0)],false⟩,none,false,false,false,none,false,⟨.lcode,some (.own 3),false,.lblank⟩⟩] .leaf) 22602324056349 [⟨⟨(.inside 3),[92],.lcode,false,[(2,0),(3,0)],false⟩,false,false,[],some 4,some ⟨.code,[],.lcode,false,[(3,0)],false⟩,none,false,false,false,none,false,⟨.lcode,some (.own 3),false,.lblank⟩⟩] (.node .leaf 22602325567434 [⟨⟨(.inside 3),[92],.lcode,false,[(2,0),(3,0)],false⟩,false,false,[],some 4,some ⟨.code,[],.lcode,false,[(2,0),(3,0)],false⟩,none,false,false,false,none,false,⟨.lcode,some (.own 3),false,.lblank⟩⟩] .leaf)) 22602337450214 [⟨⟨(.inside 3),[92],.lcode,false,[(3,0),(2,0)],false⟩,false,false,[],some 4,some ⟨.code,[],.lcode,false,[(3,0),(2,0)],false⟩,none,false,false,false,none,false,⟨.lcode,some (.own 3),false,.lblank⟩⟩] (.node (.node .leaf 22613094163578 [⟨⟨(.inside 3),[92],.lcode,false,[(2,0),(3,0)],false⟩,false,false,[],some 4,some ⟨(.inside 3),[],.lcode,false,[(2,0),(3,0)],false⟩,none,false,false,false,none,false,⟨.lcode,some (.own 3),false,.lblank⟩⟩] .leaf) 22613106046358 [⟨⟨(.inside 3),[92],.lcode,false,[(3,0),(2,0)],false⟩,false,false,[],some 4,some ⟨(.inside 3),[],.lcode,false,[(3,0),(2,0)],false⟩,none,false,false,false,none,false,⟨.lcode,some (.own 3),false,.lblank⟩⟩] .leaf)))),(.node (.node (.node (.node (.node (.node .leaf 196483 [⟨⟨.code,[],.lcode,false,[(2,0)],false⟩,false,false,[],some 4,some ⟨.code,[],.lcode,false,[(2,0)],false⟩,none,false,false,false,none,false,⟨.lcode,some (.own 3),false,.lblank⟩⟩] .leaf) 7522021 [⟨⟨(.inside 2),[],.lcode,false,[],false⟩,false,false,[],some 4,some ⟨(.inside 2),[],.lcode,false,[],false⟩,none,false,false,false,none,false,⟨.lcode,some (.own 3),false,.lblank⟩⟩] .leaf) 25946859 [⟨⟨.code,[],.lcode,false,[(2,0),(3,0)],false⟩,false,false,[],some 4,some ⟨.code,[],.lcode,false,[(2,0),(3,0)],false⟩,none,false,false,false,none,false,⟨.lcode,some (.own 3),false,.lblank⟩⟩] (.node .leaf 35613381 [⟨⟨.code,[],.lcode,false,[(3,0),(2,0)],false⟩,false,false,[],some 4,some ⟨.code,[],.lcode,false,[(2,0)],false⟩,none,false,false,false,none,false,⟨.lcode,some (.own 3),false,.lblank⟩⟩] .leaf)) 37829639 [⟨⟨.code,[],.lcode,false,[(3,0),(2,0)],false⟩,false,false,[],some 4,some ⟨.code,[],.lcode,false,[(3,0),(2,0)],false⟩,none,false,false,false,none,false,⟨.lcode,some (.own 3),false,.lblank⟩⟩] (.node (.node (.node .leaf 48492257 [⟨⟨.code,[],.lblank,false,[(2,0)],true⟩,false,false,[],some 4,some ⟨.code,[],.lcode,false,[(2,0)],false⟩,none,false,true,false,none,false,⟨.lcode,some (.own 3),false,.lblank⟩⟩] .leaf) 154742947 [⟨⟨(.inside 0),[],.lcode,false,[(2,0)],false⟩,false,false,[],some 4,some ⟨.code,[],.lcode,false,[(2,0)],false⟩,none,false,false,false,none,false,⟨.lcode,some (.own 3),false,.lblank⟩⟩] .leaf) 232016179 [⟨⟨.code,[47],.lcode,false,[(2,0)],false⟩,false,false,[],some 4,some ⟨.code,[],.lcode,false,[(2,0)],false⟩,none,false,false,false,none,false,⟨.lcode,some (.own 3),false,.lblank⟩⟩] (.node .leaf 541109107 [⟨⟨(.inside 1),[],.lcode,false,[(2,0)],false⟩,false,false,[],some 4,some ⟨.code,[],.lcode,false,[(2,0)],false⟩,none,false,false,false,none,false,⟨.lcode,some (.own 3),false,.lblank⟩⟩] .leaf))) 927475267 [⟨⟨(.inside 2),[],.lcode,false,[(2,0)],false⟩,false,false,[],some 4,some ⟨.code,[],.lcode,false,[(2,0)],false⟩,none,false,false,false,none,false,⟨.lcode,some (.own 3),false,.lblank⟩⟩] (.node (.node (.node (.node .leaf 985500931 [⟨⟨(.inside 2),[],.lcode,false,[(2,0)],false⟩,false,false,[],some 4,some ⟨(.inside 2),[],.lcode,false,[(2,0)],false⟩,none,false,false,false,none,false,⟨.lcode,some (.own 3),false,.lblank⟩⟩] .leaf) 985592337 [⟨⟨(.inside 2),[],.lcode,false,[(3,0)],false⟩,false,false,[],some 4,some ⟨(.inside 2),[],.lcode,false,[(3,0)],false⟩,none,false,false,false,none,false,⟨.lcode,some (.own 3),false,.lblank⟩⟩] .leaf) 1313841427 [⟨⟨(.inside 3),[],.lcode,false,[(2,0)],false⟩,false,false,[],some 4,some ⟨.code,[],.lcode,false,[(2,0)],false⟩,none,false,false,false,none,false,⟨.lcode,some (.own 3),false,.lblank⟩⟩] (.node .leaf 6352692733 [⟨⟨.code,[],.lblank,false,[(2,0),(3,0)],true⟩,false,false,[],some 4,some ⟨.code,[],.lcode,false,[(2,0),(3,0)],false⟩,none,false,true,false,none,false,⟨.lcode,some (.own 3),false,.lblank⟩⟩] .leaf)) 6362359255 [⟨⟨.code,[],.lblank,false,[(3,0),(2,0)],true⟩,false,false,[],some 4,some ⟨.code,[],.lcode,false,[(2,0)],false⟩,none,false,true,false,none,false,⟨.lcode,some (.own 3),false,.lblank⟩⟩] (.node (.node .leaf 20271533643 [⟨⟨(.inside 0),[],.lcode,false,[(2,0),(3,0)],false⟩,false,false,[],some 4,some ⟨.code,[],.lcode,false,[(2,0),(3,0)],false⟩,none,false,false,false,none,false,⟨.lcode,some (.own 3),false,.lblank⟩⟩] .leaf) 20281200165 [⟨⟨(.inside 0),[],.lcode,false,[(3,0),(2,0)],false⟩,false,false,[],some 4,some ⟨.code,[],.lcode,false,[(2,0)],false⟩,none,false,false,false,none,false,⟨.lcode,some (.own 3),false,.lblank⟩⟩] (.node .leaf 20283416423 [⟨⟨(.inside 0),[],.lcode,false,[(3,0),(2,0)],false⟩,false,false,[],some 4,some ⟨.code,[],.lcode,false,[(3,0),(2,0)],false⟩,none,false,false,false,none,false,⟨.lcode,some (.own 3),false,.lblank⟩⟩] .leaf)))) 30394327035 [⟨⟨.code,[47],.lcode,false,[(2,0),(3,0)],false⟩,false,false,[],some 4,some ⟨.code,[],.lcode,false,[(2,0),(3,0)],false⟩,none,false,false,false,none,false,⟨.lcode,some (.own 3),false,.lblank⟩⟩] (.node (.node (.node (.node (.node .leaf 30403993557 [⟨⟨.code,[47],.lcode,false,[(3,0),(2,0)],false⟩,false,false,[],some 4,some ⟨.code,[],.lcode,false,[(2,0)],false⟩,none,false,false,false,none,false,⟨.lcode,some (.own 3),false,.lblank⟩⟩] .leaf) 30406209815 [⟨⟨.code,[47],.lcode,false,[(3,0),(2,0)],false⟩,false,false,[],some 4,some ⟨.code,[],.lcode,false,[(3,0),(2,0)],false⟩,none,false,false,false,none,false,⟨.lcode,some (.own 3),false,.lblank⟩⟩] .leaf) 70885500603 [⟨⟨(.inside 1),[],.lcode,false,[(2,0),(3,0)],false⟩,false,false,[],some 4,some ⟨.code,[],.lcode,false,[(2,0),(3,0)],false⟩,none,false,false,false,none,false,⟨.lcode,some (.own 3),false,.lblank⟩⟩] (.node .leaf 70895167125 [⟨⟨(.inside 1),[],.lcode,false,[(3,0),(2,0)],false⟩,false,false,[],some 4,some ⟨.code,[],.lcode,false,[(2,0)],false⟩,none,false,false,false,none,false,⟨.lcode,some (.own 3),false,.lblank⟩⟩] .leaf)) 70897383383 [⟨⟨(.inside 1),[],.lcode,false,[(3,0),(2,0)],false⟩,false,false,[],some 4,some ⟨.code,[],.lcode,false,[(3,0),(2,0)],false⟩,none,false,false,false,none,false,⟨.lcode,some (.own 3),false,.lblank⟩⟩] (.node (.node .leaf 71067422038 [⟨⟨(.inside 1),[42],.lcode,false,[(2,0)],false⟩,false,false,[],some 4,some ⟨.code,[],.lcode,false,[(2,0)],false⟩,none,false,false,false,none,false,⟨.lcode,some (.own 3),false,.lblank⟩⟩] .leaf) 121499467563 [⟨⟨(.inside 2),[],.lcode,false,[(2,0),(3,0)],false⟩,false,false,[],some 4,some ⟨.code,[],.lcode,false,[(2,0),(3,0)],false⟩,none,false,false,false,none,false,⟨.lcode,some (.own 3),false,.lblank⟩⟩] (.node .leaf 121509134085 [⟨⟨(.inside 2),[],.lcode,false,[(3,0),(2,0)],false⟩,false,false,[],some 4,some ⟨.code,[],.lcode,false,[(2,0)],false⟩,none,false,false,false,none,false,⟨.lcode,some (.own 3),false,.lblank⟩⟩] .leaf))) 121511350343 [⟨⟨(.inside 2),[],.lcode,false,[(3,0),(2,0)],false⟩,false,false,[],some 4,some ⟨.code,[],.lcode,false,[(3,0),(2,0)],false⟩,none,false,false,false,none,false,⟨.lcode,some (.own 3),false,.lblank⟩⟩] (.node (.node (.node (.node .leaf 129100829547 [⟨⟨(.inside 2),[],.lcode,false,[(2,0),(3,0)],false⟩,false,false,[],some 4,some ⟨(.inside 2),[],.lcode,false,[(2,0),(3,0)],false⟩,none,false,false,false,none,false,⟨.lcode,some (.own 3),false,.lblank⟩⟩] .leaf) 129112712327 [⟨⟨(.inside 2),[],.lcode,false,[(3,0),(2,0)],false⟩,false,false,[],some 4,some ⟨(.inside 2),[],.lcode,false,[(3,0),(2,0)],false⟩,none,false,false,false,none,false,⟨.lcode,some (.own 3),false,.lblank⟩⟩] .leaf) 172113434523 [⟨⟨(.inside 3),[],.lcode,false,[(2,0),(3,0)],false⟩,false,false,[],some 4,some ⟨.code,[],.lcode,false,[(2,0),(3,0)],false⟩,none,false,false,false,none,false,⟨.lcode,some (.own 3),false,.lblank⟩⟩] (.node .leaf 172123101045 [⟨⟨(.inside 3),[],.lcode,false,[(3,0),(2,0)],false⟩,false,false,[],some 4,some ⟨.code,[],.lcode,false,[(2,0)],false⟩,none,false,false,false,none,false,⟨.lcode,some (.own 3),false,.lblank⟩⟩] .leaf)) 172125317303 [⟨⟨(.inside 3),[],.lcode,false,[(3,0),(2,0)],false⟩,false,false,[],some 4,some ⟨.code,[],.lcode,false,[(3,0),(2,0)],false⟩,none,false,false,false,none,false,⟨.lcode,some (.own 3),false,.lblank⟩⟩] (.node (.node .leaf 9309832494564 [⟨⟨(.inside 1),[42],.lcode,false,[(2,0),(3,0)],false⟩,false,false,[],some 4,some ⟨.code,[],.lcode,false,[(2,0),(3,0)],false⟩,none,false,false,false,none,false,⟨.lcode,some (.own 3),false,.lblank⟩⟩] .leaf) 9309842161086 [⟨⟨(.inside 1),[42],.lcode,false,[(3,0),(2,0)],false⟩,false,false,[],some 4,some ⟨.code,[],.lcode,false,[(2,0)],false⟩,none,false,false,false,none,false,⟨.lcode,some (.own 3),false,.lblank⟩⟩] (.node .leaf 9309844377344 [⟨⟨(.inside 1),[42],.lcode,false,[(3,0),(2,0)],false⟩,false,false,[],some 4,some ⟨.code,[],.lcode,false,[(3,0),(2,0)],false⟩,none,false,false,false,none,false,⟨.lcode,some (.own 3),false,.lblank⟩⟩] .leaf))))),(.node (.node (.node (.node (.node .leaf 208772 [⟨⟨.code,[],.lcode,false,[(2,1)],false⟩,false,false,[],some 4,some ⟨.code,[],.lcode,false,[(2,0)],false⟩,none,false,false,false,none,false,⟨.lcode,some (.own 3),false,.lblank⟩⟩] .leaf) 27569007 [⟨⟨.code,[],.lcode,false,[(2,1),(3,1)],false⟩,false,false,[],some 4,some ⟨.code,[],.lcode,false,[(2,0),(3,0)],false⟩,none,false,false,false,none,false,⟨.lcode,some (.own 3),false,.lblank⟩⟩] (.node .leaf 37235529 [⟨⟨.code,[],.lcode,false,[(3,1),(2,1)],false⟩,false,false,[],some 4,some ⟨.code,[],.lcode,false,[(2,0)],false⟩,none,false,false,false,none,false,⟨.lcode,some (.own 3),false,.lblank⟩⟩] .leaf)) 39451787 [⟨⟨.code,[],.lcode,false,[(3,1),(2,1)],false⟩,false,false,[],some 4,some ⟨.code,[],.lcode,false,[(3,0),(2,0)],false⟩,none,false,false,false,none,false,⟨.lcode,some (.own 3),false,.lblank⟩⟩] (.node (.node .leaf 48504546 [⟨⟨.code,[],.lblank,false,[(2,1)],true⟩,false,false,[],some 4,some ⟨.code,[],.lcode,false,[(2,0)],false⟩,none,false,true,false,none,false,⟨.lcode,some (.own 3),false,.lblank⟩⟩] .leaf) 541121396 [⟨⟨(.inside 1),[],.lcode,false,[(2,1)],false⟩,false,false,[],some 4,some ⟨.code,[],.lcode,false,[(2,0)],false⟩,none,false,false,false,none,false,⟨.lcode,some (.own 3),false,.lblank⟩⟩] (.node .leaf 931150972 [⟨⟨(.inside 2),[92],.lcode,false,[],false⟩,false,false,[],some 4,some ⟨(.inside 2),[],.lcode,false,[],false⟩,none,false,false,false,none,false,⟨.lcode,some (.own 3),false,.lblank⟩⟩] .leaf))) 6354314881 [⟨⟨.code,[],.lblank,false,[(2,1),(3,1)],true⟩,false,false,[],some 4,some ⟨.code,[],.lcode,false,[(2,0),(3,0)],false⟩,none,false,true,false,none,false,⟨.lcode,some (.own 3),false,.lblank⟩⟩] (.node (.node (.node .leaf 6363981403 [⟨⟨.code,[],.lblank,false,[(3,1),(2,1)],true⟩,false,false,[],some 4,some ⟨.code,[],.lcode,false,[(2,0)],false⟩,none,false,true,false,none,false,⟨.lcode,some (.own 3),false,.lblank⟩⟩] .leaf) 20694933928 [⟨⟨(.inside 0),[92],.lcode,false,[(2,0)],false⟩,false,false,[],some 4,some ⟨.code,[],.lcode,false,[(2,0)],false⟩,none,false,false,false,none,false,⟨.lcode,some (.own 3),false,.lblank⟩⟩] (.node .leaf 70887122751 [⟨⟨(.inside 1),[],.lcode,false,[(2,1),(3,1)],false⟩,false,false,[],some 4,some ⟨.code,[],.lcode,false,[(2,0),(3,0)],false⟩,none,false,false,false,none,false,⟨.lcode,some (.own 3),false,.lblank⟩⟩] .leaf)) 70896789273 [⟨⟨(.inside 1),[],.lcode,false,[(3,1),(2,1)],false⟩,false,false,[],some 4,some ⟨.code,[],.lcode,false,[(2,0)],false⟩,none,false,false,false,none,false,⟨.lcode,some (.own 3),false,.lblank⟩⟩] (.node (.node .leaf 70899005531 [⟨⟨(.inside 1),[],.lcode,false,[(3,1),(2,1)],false⟩,false,false,[],some 4,some ⟨.code,[],.lcode,false,[(3,0),(2,0)],false⟩,none,false,false,false,none,false,⟨.lcode,some (.own 3),false,.lblank⟩⟩] .leaf) 121922867848 [⟨⟨(.inside 2),[92],.lcode,false,[(2,0)],false⟩,false,false,[],some 4,some ⟨.code,[],.lcode,false,[(2,0)],false⟩,none,false,false,false,none,false,⟨.lcode,some (.own 3),false,.lblank⟩⟩] .leaf))) 121980893512 [⟨⟨(.inside 2),[92],.lcode,false,[(2,0)],false⟩,false,false,[],some 4,some ⟨(.inside 2),[],.lcode,false,[(2,0)],false⟩,none,false,false,false,none,false,⟨.lcode,some (.own 3),false,.lblank⟩⟩] (.node (.node (.node (.node .leaf 121980984918 [⟨⟨(.inside 2),[92],.lcode,false,[(3,0)],false⟩,false,false,[],some 4,some ⟨(.inside 2),[],.lcode,false,[(3,0)],false⟩,none,false,false,false,none,false,⟨.lcode,some (.own 3),false,.lblank⟩⟩] .leaf) 172536834808 [⟨⟨(.inside 3),[92],.lcode,false,[(2,0)],false⟩,false,false,[],some 4,some ⟨.code,[],.lcode,false,[(2,0)],false⟩,none,false,false,false,none,false,⟨.lcode,some (.own 3),false,.lblank⟩⟩] (.node .leaf 2711036552154 [⟨⟨(.inside 0),[92],.lcode,false,[(2,0),(3,0)],false⟩,false,false,[],some 4,some ⟨.code,[],.lcode,false,[(2,0),(3,0)],false⟩,none,false,false,false,none,false,⟨.lcode,some (.own 3),false,.lblank⟩⟩] .leaf)) 2711046218676 [⟨⟨(.inside 0),[92],.lcode,false,[(3,0),(2,0)],false⟩,false,false,[],some 4,some ⟨.code,[],.lcode,false,[(2,0)],false⟩,none,false,false,false,none,false,⟨.lcode,some (.own 3),false,.lblank⟩⟩] (.node (.node .leaf 2711048434934 [⟨⟨(.inside 0),[92],.lcode,false,[(3,0),(2,0)],false⟩,false,false,[],some 4,some ⟨.code,[],.lcode,false,[(3,0),(2,0)],false⟩,none,false,false,false,none,false,⟨.lcode,some (.own 3),false,.lblank⟩⟩] .leaf) 15971895895674 [⟨⟨(.inside 2),[92],.lcode,false,[(2,0),(3,0)],false⟩,false,false,[],some 4,some ⟨.code,[],.lcode,false,[(2,0),(3,0)],false⟩,none,false,false,false,none,false,⟨.lcode,some (.own 3),false,.lblank⟩⟩] .leaf)) 15971905562196 [⟨⟨(.inside 2),[92],.lcode,false,[(3,0),(2,0)],false⟩,false,false,[],some 4,some ⟨.code,[],.lcode,false,[(2,0)],false⟩,none,false,false,false,none,false,⟨.lcode,some (.own 3),false,.lblank⟩⟩] (.node (.node (.node .leaf 15971907778454 [⟨⟨(.inside 2),[92],.lcode,false,[(3,0),(2,0)],false⟩,false,false,[],some 4,some ⟨.code,[],.lcode,false,[(3,0),(2,0)],false⟩,none,false,false,false,none,false,⟨.lcode,some (.own 3),false,.lblank⟩⟩] .leaf) 15979497257658 [⟨⟨(.inside 2),[92],.lcode,false,[(2,0),(3,0)],false⟩,false,false,[],some 4,some ⟨(.inside 2),[],.lcode,false,[(2,0),(3,0)],false⟩,none,false,false,false,none,false,⟨.lcode,some (.own 3),false,.lblank⟩⟩] (.node .leaf 15979509140438 [⟨⟨(.inside 2),[92],.lcode,false,[(3,0),(2,0)],false⟩,false,false,[],some 4,some ⟨(.inside 2),[],.lcode,false,[(3,0),(2,0)],false⟩,none,false,false,false,none,false,⟨.lcode,some (.own 3),false,.lblank⟩⟩] .leaf)) 22602325567434 [⟨⟨(.inside 3),[92],.lcode,false,[(2,0),(3,0)],false⟩,false,false,[],some 4,some ⟨.code,[],.lcode,false,[(2,0),(3,0)],false⟩,none,false,false,false,none,false,⟨.lcode,some (.own 3),false,.lblank⟩⟩] (.node (.node .leaf 22602335233956 [⟨⟨(.inside 3),[92],.lcode,false,[(3,0),(2,0)],false⟩,false,false,[],some 4,some ⟨.code,[],.lcode,false,[(2,0)],false⟩,none,false,false,false,none,false,⟨.lcode,some (.own 3),false,.lblank⟩⟩] .leaf) 22602337450214 [⟨⟨(.inside 3),[92],.lcode,false,[(3,0),(2,0)],false⟩,false,false,[],some 4,some ⟨.code,[],.lcode,false,[(3,0),(2,0)],false⟩,none,false,false,false,none,false,⟨.lcode,some (.own 3),false,.lblank⟩⟩] .leaf)))),(.node (.node (.node (.node .leaf 610242271 [⟨⟨(.inside 1),[],.lcode,false,[],false⟩,false,false,[],some 4,some ⟨.code,[47],.lcode,false,[],false⟩,some ([(42,(.other,false))],false),false,false,false,none,false,⟨.lcode,some (.own 3),false,.lblank⟩⟩] .leaf) 611599119 [⟨⟨(.inside 1),[],.lcomment,false,[],false⟩,false,false,[],some 4,some ⟨.code,[47],.lcomment,false,[],false⟩,some ([(42,(.other,false))],false),false,false,false,none,false,⟨.lcomment,some (.own 3),false,.lblank⟩⟩] .leaf) 612807987 [⟨⟨(.inside 1),[],.lcomment,false,[],false⟩,false,false,[],some 4,some ⟨.code,[47],.lblank,false,[],false⟩,some ([(42,(.other,false))],false),false,false,false,none,false,⟨.lcomment,some (.own 3),false,.lblank⟩⟩] (.node (.node .leaf 1161617341 [⟨⟨(.inside 1),[],.lcode,false,[(2,0)],false⟩,false,false,[],some 4,some ⟨.code,[47],.lcode,false,[(2,0)],false⟩,some ([(42,(.other,false))],false),false,false,false,none,false,⟨.lcode,some (.own 3),false,.lblank⟩⟩] .leaf) 1161618110 [⟨⟨(.inside 1),[],.lcode,false,[(2,0)],false⟩,false,false,[],some 4,some ⟨.code,[47],.lcode,false,[(2,1)],false⟩,some ([(42,(.other,false))],false),false,false,false,none,false,⟨.lcode,some (.own 3),false,.lblank⟩⟩] .leaf)) 1161708747 [⟨⟨(.inside 1),[],.lcode,false,[(3,0)],false⟩,false,false,[],some 4,some ⟨.code,[47],.lcode,false,[(3,0)],false⟩,some ([(42,(.other,false))],false),false,false,false,none,false,⟨.lcode,some (.own 3),false,.lblank⟩⟩] (.node (.node (.node .leaf 1161709516 [⟨⟨(.inside 1),[],.lcode,false,[(3,0)],false⟩,false,false,[],some 4,some ⟨.code,[47],.lcode,false,[(3,1)],false⟩,some ([(42,(.other,false))],false),false,false,false,none,false,⟨.lcode,some (.own 3),false,.lblank⟩⟩] .leaf) 73391842917 [⟨⟨(.inside 1),[],.lcode,false,[(2,0),(3,0)],false⟩,false,false,[],some 4,some ⟨.code,[47],.lcode,false,[(2,0),(3,0)],false⟩,some ([(42,(.other,false))],false),false,false,false,none,false,⟨.lcode,some (.own 3),false,.lblank⟩⟩] .leaf) 73391944425 [⟨⟨(.inside 1),[],.lcode,false,[(2,0),(3,0)],false⟩,false,false,[],some 4,some ⟨.code,[47],.lcode,false,[(2,1),(3,1)],false⟩,some ([(42,(.other,false))],false),false,false,false,none,false,⟨.lcode,some (.own 3),false,.lblank⟩⟩] (.node (.node .leaf 73403725697 [⟨⟨(.inside 1),[],.lcode,false,[(3,0),(2,0)],false⟩,false,false,[],some 4,some ⟨.code,[47],.lcode,false,[(3,0),(2,0)],false⟩,some ([(42,(.other,false))],false),false,false,false,none,false,⟨.lcode,some (.own 3),false,.lblank⟩⟩] .leaf) 73403827205 [⟨⟨(.inside 1),[],.lcode,false,[(3,0),(2,0)],false⟩,false,false,[],some 4,some ⟨.code,[47],.lcode,false,[(3,1),(2,1)],false⟩,some ([(42,(.other,false))],false),false,false,false,none,false,⟨.lcode,some (.own 3),false,.lblank⟩⟩] .leaf))),(.node (.node (.node .leaf 1179872 [⟨⟨(.inside 0),[],.lcode,false,[],false⟩,false,false,[],none,none,none,false,false,false,none,false,⟨.lcode,some (.own 3),false,.lblank⟩⟩] .leaf) 1327852 [⟨⟨(.inside 0),[],.lcomment,false,[],false⟩,false,false,[],none,none,none,false,false,false,none,false,⟨.lcomment,some (.own 3),false,.lblank⟩⟩] (.node .leaf 154730927 [⟨⟨(.inside 0),[],.lcode,false,[(2,0)],false⟩,false,false,[],none,none,none,false,false,false,none,false,⟨.lcode,some (.own 3),false,.lblank⟩⟩] .leaf)) 154816950 [⟨⟨(.inside 0),[],.lcode,false,[(3,0)],false⟩,false,false,[],none,none,none,false,false,false,none,false,⟨.lcode,some (.own 3),false,.lblank⟩⟩] (.node (.node .leaf 20270005155 [⟨⟨(.inside 0),[],.lcode,false,[(2,0),(3,0)],false⟩,false,false,[],none,none,none,false,false,false,none,false,⟨.lcode,some (.own 3),false,.lblank⟩⟩] .leaf) 20281188145 [⟨⟨(.inside 0),[],.lcode,false,[(3,0),(2,0)],false⟩,false,false,[],none,none,none,false,false,false,none,false,⟨.lcode,some (.own 3),false,.lblank⟩⟩] .leaf)),(.node (.node (.node (.node (.node (.node .leaf 287889 [⟨⟨.code,[],.lcode,false,[(3,0)],false⟩,false,false,[],some 4,some ⟨.code,[],.lcode,false,[(3,0)],false⟩,none,false,false,false,none,false,⟨.lcode,some (.own 3),false,.lblank⟩⟩] .leaf) 10655941 [⟨⟨(.inside 3),[],.lcode,false,[],false⟩,false,false,[],some 4,some ⟨(.inside 3),[],.lcode,false,[],false⟩,none,false,false,false,none,false,⟨.lcode,some (.own 3),false,.lblank⟩⟩] .leaf) 24435774 [⟨⟨.code,[],.lcode,false,[(2,0),(3,0)],false⟩,false,false,[],some 4,some ⟨.code,[],.lcode,false,[(3,0)],false⟩,none,false,false,false,none,false,⟨.lcode,some (.own 3),false,.lblank⟩⟩] (.node (.node .leaf 25946859 [⟨⟨.code,[],.lcode,false,[(2,0),(3,0)],false⟩,false,false,[],some 4,some ⟨.code,[],.lcode,false,[(2,0),(3,0)],false⟩,none,false,false,false,none,false,⟨.lcode,some (.own 3),false,.lblank⟩⟩] .leaf) 37829639 [⟨⟨.code,[],.lcode,false,[(3,0),(2,0)],false⟩,false,false,[],some 4,some ⟨.code,[],.lcode,false,[(3,0),(2,0)],false⟩,none,false,false,false,none,false,⟨.lcode,some (.own 3),false,.lblank⟩⟩] .leaf)) 48583663 [⟨⟨.code,[],.lblank,false,[(3,0)],true⟩,false,false,[],some 4,some ⟨.code,[],.lcode,false,[(3,0)],false⟩,none,false,true,false,none,false,⟨.lcode,some (.own 3),false,.lblank⟩⟩] (.node (.node (.node .leaf 154834353 [⟨⟨(.inside 0),[],.lcode,false,[(3,0)],false⟩,false,false,[],some 4,some ⟨.code,[],.lcode,false,[(3,0)],false⟩,none,false,false,false,none,false,⟨.lcode,some (.own 3),false,.lblank⟩⟩] .leaf) 232119874 [⟨⟨.code,[47],.lcode,false,[(3,1)],false⟩,false,false,[],some 4,some ⟨.code,[],.lcode,false,[(3,0)],false⟩,none,false,false,false,none,false,⟨.lcode,some (.own 3),false,.lblank⟩⟩] .leaf) 541200513 [⟨⟨(.inside 1),[],.lcode,false,[(3,0)],false⟩,false,false,[],some 4,some ⟨.code,[],.lcode,false,[(3,0)],false⟩,none,false,false,false,none,false,⟨.lcode,some (.own 3),false,.lblank⟩⟩] (.node .leaf 927566673 [⟨⟨(.inside 2),[],.lcode,false,[(3,0)],false⟩,false,false,[],some 4,some ⟨.code,[],.lcode,false,[(3,0)],false⟩,none,false,false,false,none,false,⟨.lcode,some (.own 3),false,.lblank⟩⟩] .leaf))) 1313932833 [⟨⟨(.inside 3),[],.lcode,false,[(3,0)],false⟩,false,false,[],some 4,some ⟨.code,[],.lcode,false,[(3,0)],false⟩,none,false,false,false,none,false,⟨.lcode,some (.own 3),false,.lblank⟩⟩] (.node (.node (.node (.node .leaf 1396044451 [⟨⟨(.inside 3),[],.lcode,false,[(2,0)],false⟩,false,false,[],some 4,some ⟨(.inside 3),[],.lcode,false,[(2,0)],false⟩,none,false,false,false,none,false,⟨.lcode,some (.own 3),false,.lblank⟩⟩] .leaf) 1396135857 [⟨⟨(.inside 3),[],.lcode,false,[(3,0)],false⟩,false,false,[],some 4,some ⟨(.inside 3),[],.lcode,false,[(3,0)],false⟩,none,false,false,false,none,false,⟨.lcode,some (.own 3),false,.lblank⟩⟩] .leaf) 6351181648 [⟨⟨.code,[],.lblank,false,[(2,0),(3,0)],true⟩,false,false,[],some 4,some ⟨.code,[],.lcode,false,[(3,0)],false⟩,none,false,true,false,none,false,⟨.lcode,some (.own 3),false,.lblank⟩⟩] (.node .leaf 6364575513 [⟨⟨.code,[],.lblank,false,[(3,0),(2,0)],true⟩,false,false,[],some 4,some ⟨.code,[],.lcode,false,[(3,0),(2,0)],false⟩,none,false,true,false,none,false,⟨.lcode,some (.own 3),false,.lblank⟩⟩] .leaf)) 20270022558 [⟨⟨(.inside 0),[],.lcode,false,[(2,0),(3,0)],false⟩,false,false,[],some 4,some ⟨.code,[],.lcode,false,[(3,0)],false⟩,none,false,false,false,none,false,⟨.lcode,some (.own 3),false,.lblank⟩⟩] (.node (.node (.node .leaf 20271533643 [⟨⟨(.inside 0),[],.lcode,false,[(2,0),(3,0)],false⟩,false,false,[],some 4,some ⟨.code,[],.lcode,false,[(2,0),(3,0)],false⟩,none,false,false,false,none,false,⟨.lcode,some (.own 3),false,.lblank⟩⟩] .leaf) 20283416423 [⟨⟨(.inside 0),[],.lcode,false,[(3,0),(2,0)],false⟩,false,false,[],some 4,some ⟨.code,[],.lcode,false,[(3,0),(2,0)],false⟩,none,false,false,false,none,false,⟨.lcode,some (.own 3),false,.lblank⟩⟩] .leaf) 20695037623 [⟨⟨(.inside 0),[92],.lcode,false,[(3,1)],false⟩,false,false,[],some 4,some ⟨.code,[],.lcode,false,[(3,0)],false⟩,none,false,false,false,none,false,⟨.lcode,some (.own 3),false,.lblank⟩⟩] (.node .leaf 30394438098 [⟨⟨.code,[47],.lcode,false,[(2,1),(3,1)],false⟩,false,false,[],some 4,some ⟨.code,[],.lcode,false,[(3,0)],false⟩,none,false,false,false,none,false,⟨.lcode,some (.own 3),false,.lblank⟩⟩] .leaf)))) 30395949183 [⟨⟨.code,[47],.lcode,false,[(2,1),(3,1)],false⟩,false,false,[],some 4,some ⟨.code,[],.lcode,false,[(2,0),(3,0)],false⟩,none,false,false,false,none,false,⟨.lcode,some (.own 3),false,.lblank⟩⟩] (.node (.node (.node (.node (.node .leaf 30407831963 [⟨⟨.code,[47],.lcode,false,[(3,1),(2,1)],false⟩,false,false,[],some 4,some ⟨.code,[],.lcode,false,[(3,0),(2,0)],false⟩,none,false,false,false,none,false,⟨.lcode,some (.own 3),false,.lblank⟩⟩] .leaf) 70883989518 [⟨⟨(.inside 1),[],.lcode,false,[(2,0),(3,0)],false⟩,false,false,[],some 4,some ⟨.code,[],.lcode,false,[(3,0)],false⟩,none,false,false,false,none,false,⟨.lcode,some (.own 3),false,.lblank⟩⟩] .leaf) 70885500603 [⟨⟨(.inside 1),[],.lcode,false,[(2,0),(3,0)],false⟩,false,false,[],some 4,some ⟨.code,[],.lcode,false,[(2,0),(3,0)],false⟩,none,false,false,false,none,false,⟨.lcode,some (.own 3),false,.lblank⟩⟩] (.node .leaf 70897383383 [⟨⟨(.inside 1),[],.lcode,false,[(3,0),(2,0)],false⟩,false,false,[],some 4,some ⟨.code,[],.lcode,false,[(3,0),(2,0)],false⟩,none,false,false,false,none,false,⟨.lcode,some (.own 3),false,.lblank⟩⟩] .leaf)) 71067525733 [⟨⟨(.inside 1),[42],.lcode,false,[(3,1)],false⟩,false,false,[],some 4,some ⟨.code,[],.lcode,false,[(3,0)],false⟩,none,false,false,false,none,false,⟨.lcode,some (.own 3),false,.lblank⟩⟩] (.node (.node (.node .leaf 121497956478 [⟨⟨(.inside 2),[],.lcode,false,[(2,0),(3,0)],false⟩,false,false,[],some 4,some ⟨.code,[],.lcode,false,[(3,0)],false⟩,none,false,false,false,none,false,⟨.lcode,some (.own 3),false,.lblank⟩⟩] .leaf) 121499467563 [⟨⟨(.inside 2),[],.lcode,false,[(2,0),(3,0)],false⟩,false,false,[],some 4,some ⟨.code,[],.lcode,false,[(2,0),(3,0)],false⟩,none,false,false,false,none,false,⟨.lcode,some (.own 3),false,.lblank⟩⟩] .leaf) 121511350343 [⟨⟨(.inside 2),[],.lcode,false,[(3,0),(2,0)],false⟩,false,false,[],some 4,some ⟨.code,[],.lcode,false,[(3,0),(2,0)],false⟩,none,false,false,false,none,false,⟨.lcode,some (.own 3),false,.lblank⟩⟩] (.node .leaf 172111923438 [⟨⟨(.inside 3),[],.lcode,false,[(2,0),(3,0)],false⟩,false,false,[],some 4,some ⟨.code,[],.lcode,false,[(3,0)],false⟩,none,false,false,false,none,false,⟨.lcode,some (.own 3),false,.lblank⟩⟩] .leaf))) 172113434523 [⟨⟨(.inside 3),[],.lcode,false,[(2,0),(3,0)],false⟩,false,false,[],some 4,some ⟨.code,[],.lcode,false,[(2,0),(3,0)],false⟩,none,false,false,false,none,false,⟨.lcode,some (.own 3),false,.lblank⟩⟩] (.node (.node (.node (.node .leaf 172125317303 [⟨⟨(.inside 3),[],.lcode,false,[(3,0),(2,0)],false⟩,false,false,[],some 4,some ⟨.code,[],.lcode,false,[(3,0),(2,0)],false⟩,none,false,false,false,none,false,⟨.lcode,some (.own 3),false,.lblank⟩⟩] .leaf) 182882030667 [⟨⟨(.inside 3),[],.lcode,false,[(2,0),(3,0)],false⟩,false,false,[],some 4,some ⟨(.inside 3),[],.lcode,false,[(2,0),(3,0)],false⟩,none,false,false,false,none,false,⟨.lcode,some (.own 3),false,.lblank⟩⟩] .leaf) 182893913447 [⟨⟨(.inside 3),[],.lcode,false,[(3,0),(2,0)],false⟩,false,false,[],some 4,some ⟨(.inside 3),[],.lcode,false,[(3,0),(2,0)],false⟩,none,false,false,false,none,false,⟨.lcode,some (.own 3),false,.lblank⟩⟩] (.node .leaf 2711036663217 [⟨⟨(.inside 0),[92],.lcode,false,[(2,1),(3,1)],false⟩,false,false,[],some 4,some ⟨.code,[],.lcode,false,[(3,0)],false⟩,none,false,false,false,none,false,⟨.lcode,some (.own 3),false,.lblank⟩⟩] .leaf)) 2711038174302 [⟨⟨(.inside 0),[92],.lcode,false,[(2,1),(3,1)],false⟩,false,false,[],some 4,some ⟨.code,[],.lcode,false,[(2,0),(3,0)],false⟩,none,false,false,false,none,false,⟨.lcode,some (.own 3),false,.lblank⟩⟩] (.node (.node (.node .leaf 2711050057082 [⟨⟨(.inside 0),[92],.lcode,false,[(3,1),(2,1)],false⟩,false,false,[],some 4,some ⟨.code,[],.lcode,false,[(3,0),(2,0)],false⟩,none,false,false,false,none,false,⟨.lcode,some (.own 3),false,.lblank⟩⟩] .leaf) 9309832605627 [⟨⟨(.inside 1),[42],.lcode,false,[(2,1),(3,1)],false⟩,false,false,[],some 4,some ⟨.code,[],.lcode,false,[(3,0)],false⟩,none,false,false,false,none,false,⟨.lcode,some (.own 3),false,.lblank⟩⟩] .leaf) 9309834116712 [⟨⟨(.inside 1),[42],.lcode,false,[(2,1),(3,1)],false⟩,false,false,[],some 4,some ⟨.code,[],.lcode,false,[(2,0),(3,0)],false⟩,none,false,false,false,none,false,⟨.lcode,some (.own 3),false,.lblank⟩⟩] (.node .leaf 9309845999492 [⟨⟨(.inside 1),[42],.lcode,false,[(3,1),(2,1)],false⟩,false,false,[],some 4,some ⟨.code,[],.lcode,false,[(3,0),(2,0)],false⟩,none,false,false,false,none,false,⟨.lcode,some (.own 3),false,.lblank⟩⟩] .leaf))))),(.node (.node (.node (.node (.node (.node .leaf 196483 [⟨⟨.code,[],.lcode,false,[(2,0)],false⟩,false,false,[],some 4,some ⟨.code,[],.lcode,false,[(2,0)],false⟩,none,false,false,false,none,false,⟨.lcode,some (.own 3),false,.lblank⟩⟩] .leaf) 7522021 [⟨⟨(.inside 2),[],.lcode,false,[],false⟩,false,false,[],some 4,some ⟨(.inside 2),[],.lcode,false,[],false⟩,none,false,false,false,none,false,⟨.lcode,some (.own 3),false,.lblank⟩⟩] .leaf) 25946859 [⟨⟨.code,[],.lcode,false,[(2,0),(3,0)],false⟩,false,false,[],some 4,some ⟨.code,[],.lcode,false,[(2,0),(3,0)],false⟩,none,false,false,false,none,false,⟨.lcode,some (.own 3),false,.lblank⟩⟩] (.node (.node .leaf 35613381 [⟨⟨.code,[],.lcode,false,[(3,0),(2,0)],false⟩,false,false,[],some 4,some ⟨.code,[],.lcode,false,[(2,0)],false⟩,none,false,false,false,none,false,⟨.lcode,some (.own 3),false,.lblank⟩⟩] .leaf) 37829639 [⟨⟨.code,[],.lcode,false,[(3,0),(2,0)],false⟩,false,false,[],some 4,some ⟨.code,[],.lcode,false,[(3,0),(2,0)],false⟩,none,false,false,false,none,false,⟨.lcode,some (.own 3),false,.lblank⟩⟩] .leaf)) 48492257 [⟨⟨.code,[],.lblank,false,[(2,0)],true⟩,false,false,[],some 4,some ⟨.code,[],.lcode,false,[(2,0)],false⟩,none,false,true,false,none,false,⟨.lcode,some (.own 3),false,.lblank⟩⟩] (.node (.node (.node .leaf 154742947 [⟨⟨(.inside 0),[],.lcode,false,[(2,0)],false⟩,false,false,[],some 4,some ⟨.code,[],.lcode,false,[(2,0)],false⟩,none,false,false,false,none,false,⟨.lcode,some (.own 3),false,.lblank⟩⟩] .leaf) 232028468 [⟨⟨.code,[47],.lcode,false,[(2,1)],false⟩,false,false,[],some 4,some ⟨.code,[],.lcode,false,[(2,0)],false⟩,none,false,false,false,none,false,⟨.lcode,some (.own 3),false,.lblank⟩⟩] .leaf) 541109107 [⟨⟨(.inside 1),[],.lcode,false,[(2,0)],false⟩,false,false,[],some 4,some ⟨.code,[],.lcode,false,[(2,0)],false⟩,none,false,false,false,none,false,⟨.lcode,some (.own 3),false,.lblank⟩⟩] (.node .leaf 927475267 [⟨⟨(.inside 2),[],.lcode,false,[(2,0)],false⟩,false,false,[],some 4,some ⟨.code,[],.lcode,false,[(2,0)],false⟩,none,false,false,false,none,false,⟨.lcode,some (.own 3),false,.lblank⟩⟩] .leaf))) 985500931 [⟨⟨(.inside 2),[],.lcode,false,[(2,0)],false⟩,false,false,[],some 4,some ⟨(.inside 2),[],.lcode,false,[(2,0)],false⟩,none,false,false,false,none,false,⟨.lcode,some (.own 3),false,.lblank⟩⟩] (.node (.node (.node (.node .leaf 985592337 [⟨⟨(.inside 2),[],.lcode,false,[(3,0)],false⟩,false,false,[],some 4,some ⟨(.inside 2),[],.lcode,false,[(3,0)],false⟩,none,false,false,false,none,false,⟨.lcode,some (.own 3),false,.lblank⟩⟩] .leaf) 1313841427 [⟨⟨(.inside 3),[],.lcode,false,[(2,0)],false⟩,false,false,[],some 4,some ⟨.code,[],.lcode,false,[(2,0)],false⟩,none,false,false,false,none,false,⟨.lcode,some (.own 3),false,.lblank⟩⟩] .leaf) 6352692733 [⟨⟨.code,[],.lblank,false,[(2,0),(3,0)],true⟩,false,false,[],some 4,some ⟨.code,[],.lcode,false,[(2,0),(3,0)],false⟩,none,false,true,false,none,false,⟨.lcode,some (.own 3),false,.lblank⟩⟩] (.node .leaf 6362359255 [⟨⟨.code,[],.lblank,false,[(3,0),(2,0)],true⟩,false,false,[],some 4,some ⟨.code,[],.lcode,false,[(2,0)],false⟩,none,false,true,false,none,false,⟨.lcode,some (.own 3),false,.lblank⟩⟩] .leaf)) 20271533643 [⟨⟨(.inside 0),[],.lcode,false,[(2,0),(3,0)],false⟩,false,false,[],some 4,some ⟨.code,[],.lcode,false,[(2,0),(3,0)],false⟩,none,false,false,false,none,false,⟨.lcode,some (.own 3),false,.lblank⟩⟩] (.node (.node (.node .leaf 20281200165 [⟨⟨(.inside 0),[],.lcode,false,[(3,0),(2,0)],false⟩,false,false,[],some 4,some ⟨.code,[],.lcode,false,[(2,0)],false⟩,none,false,false,false,none,false,⟨.lcode,some (.own 3),false,.lblank⟩⟩] .leaf) 20283416423 [⟨⟨(.inside 0),[],.lcode,false,[(3,0),(2,0)],false⟩,false,false,[],some 4,some ⟨.code,[],.lcode,false,[(3,0),(2,0)],false⟩,none,false,false,false,none,false,⟨.lcode,some (.own 3),false,.lblank⟩⟩] .leaf) 20694946217 [⟨⟨(.inside 0),[92],.lcode,false,[(2,1)],false⟩,false,false,[],some 4,some ⟨.code,[],.lcode,false,[(2,0)],false⟩,none,false,false,false,none,false,⟨.lcode,some (.own 3),false,.lblank⟩⟩] (.node .leaf 30395949183 [⟨⟨.code,[47],.lcode,false,[(2,1),(3,1)],false⟩,false,false,[],some 4,some ⟨.code,[],.lcode,false,[(2,0),(3,0)],false⟩,none,false,false,false,none,false,⟨.lcode,some (.own 3),false,.lblank⟩⟩] .leaf)))) 30405615705 [⟨⟨.code,[47],.lcode,false,[(3,1),(2,1)],false⟩,false,false,[],some 4,some ⟨.code,[],.lcode,false,[(2,0)],false⟩,none,false,false,false,none,false,⟨.lcode,some (.own 3),false,.lblank⟩⟩] (.node (.node (.node (.node (.node .leaf 30407831963 [⟨⟨.code,[47],.lcode,false,[(3,1),(2,1)],false⟩,false,false,[],some 4,some ⟨.code,[],.lcode,false,[(3,0),(2,0)],false⟩,none,false,false,false,none,false,⟨.lcode,some (.own 3),false,.lblank⟩⟩] .leaf) 70885500603 [⟨⟨(.inside 1),[],.lcode,false,[(2,0),(3,0)],false⟩,false,false,[],some 4,some ⟨.code,[],.lcode,false,[(2,0),(3,0)],false⟩,none,false,false,false,none,false,⟨.lcode,some (.own 3),false,.lblank⟩⟩] .leaf) 70895167125 [⟨⟨(.inside 1),[],.lcode,false,[(3,0),(2,0)],false⟩,false,false,[],some 4,some ⟨.code,[],.lcode,false,[(2,0)],false⟩,none,false,false,false,none,false,⟨.lcode,some (.own 3),false,.lblank⟩⟩] (.node .leaf 70897383383 [⟨⟨(.inside 1),[],.lcode,false,[(3,0),(2,0)],false⟩,false,false,[],some 4,some ⟨.code,[],.lcode,false,[(3,0),(2,0)],false⟩,none,false,false,false,none,false,⟨.lcode,some (.own 3),false,.lblank⟩⟩] .leaf)) 71067434327 [⟨⟨(.inside 1),[42],.lcode,false,[(2,1)],false⟩,false,false,[],some 4,some ⟨.code,[],.lcode,false,[(2,0)],false⟩,none,false,false,false,none,false,⟨.lcode,some (.own 3),false,.lblank⟩⟩] (.node (.node (.node .leaf 121499467563 [⟨⟨(.inside 2),[],.lcode,false,[(2,0),(3,0)],false⟩,false,false,[],some 4,some ⟨.code,[],.lcode,false,[(2,0),(3,0)],false⟩,none,false,false,false,none,false,⟨.lcode,some (.own 3),false,.lblank⟩⟩] .leaf) 121509134085 [⟨⟨(.inside 2),[],.lcode,false,[(3,0),(2,0)],false⟩,false,false,[],some 4,some ⟨.code,[],.lcode,false,[(2,0)],false⟩,none,false,false,false,none,false,⟨.lcode,some (.own 3),false,.lblank⟩⟩] .leaf) 121511350343 [⟨⟨(.inside 2),[],.lcode,false,[(3,0),(2,0)],false⟩,false,false,[],some 4,some ⟨.code,[],.lcode,false,[(3,0),(2,0)],false⟩,none,false,false,false,none,false,⟨.lcode,some (.own 3),false,.lblank⟩⟩] (.node .leaf 129100829547 [⟨⟨(.inside 2),[],.lcode,false,[(2,0),(3,0)],false⟩,false,false,[],some 4,some ⟨(.inside 2),[],.lcode,false,[(2,0),(3,0)],false⟩,none,false,false,false,none,false,⟨.lcode,some (.own 3),false,.lblank⟩⟩] .leaf))) 129112712327 [⟨⟨(.inside 2),[],.lcode,false,[(3,0),(2,0)],false⟩,false,false,[],some 4,some ⟨(.inside 2),[],.lcode,false,[(3,0),(2,0)],false⟩,none,false,false,false,none,false,⟨.lcode,some (.own 3),false,.lblank⟩⟩] (.node (.node (.node (.node .leaf 172113434523 [⟨⟨(.inside 3),[],.lcode,false,[(2,0),(3,0)],false⟩,false,false,[],some 4,some ⟨.code,[],.lcode,false,[(2,0),(3,0)],false⟩,none,false,false,false,none,false,⟨.lcode,some (.own 3),false,.lblank⟩⟩] .leaf) 172123101045 [⟨⟨(.inside 3),[],.lcode,false,[(3,0),(2,0)],false⟩,false,false,[],some 4,some ⟨.code,[],.lcode,false,[(2,0)],false⟩,none,false,false,false,none,false,⟨.lcode,some (.own 3),false,.lblank⟩⟩] .leaf) 172125317303 [⟨⟨(.inside 3),[],.lcode,false,[(3,0),(2,0)],false⟩,false,false,[],some 4,some ⟨.code,[],.lcode,false,[(3,0),(2,0)],false⟩,none,false,false,false,none,false,⟨.lcode,some (.own 3),false,.lblank⟩⟩] (.node .leaf 2711038174302 [⟨⟨(.inside 0),[92],.lcode,false,[(2,1),(3,1)],false⟩,false,false,[],some 4,some ⟨.code,[],.lcode,false,[(2,0),(3,0)],false⟩,none,false,false,false,none,false,⟨.lcode,some (.own 3),false,.lblank⟩⟩] .leaf)) 2711047840824 [⟨⟨(.inside 0),[92],.lcode,false,[(3,1),(2,1)],false⟩,false,false,[],some 4,some ⟨.code,[],.lcode,false,[(2,0)],false⟩,none,false,false,false,none,false,⟨.lcode,some (.own 3),false,.lblank⟩⟩] (.node (.node (.node .leaf 2711050057082 [⟨⟨(.inside 0),[92],.lcode,false,[(3,1),(2,1)],false⟩,false,false,[],some 4,some ⟨.code,[],.lcode,false,[(3,0),(2,0)],false⟩,none,false,false,false,none,false,⟨.lcode,some (.own 3),false,.lblank⟩⟩] .leaf) 9309834116712 [⟨⟨(.inside 1),[42],.lcode,false,[(2,1),(3,1)],false⟩,false,false,[],some 4,some ⟨.code,[],.lcode,false,[(2,0),(3,0)],false⟩,none,false,false,false,none,false,⟨.lcode,some (.own 3),false,.lblank⟩⟩] .leaf) 9309843783234 [⟨⟨(.inside 1),[42],.lcode,false,[(3,1),(2,1)],false⟩,false,false,[],some 4,some ⟨.code,[],.lcode,false,[(2,0)],false⟩,none,false,false,false,none,false,⟨.lcode,some (.own 3),false,.lblank⟩⟩] (.node .leaf 9309845999492 [⟨⟨(.inside 1),[42],.lcode,false,[(3,1),(2,1)],false⟩,false,false,[],some 4,some ⟨.code,[],.lcode,false,[(3,0),(2,0)],false⟩,none,false,false,false,none,false,⟨.lcode,some (.own 3),false,.lblank⟩⟩] .leaf))))),(.node (.node (.node (.node (.node .leaf 610242271 [⟨⟨(.inside 1),[],.lcode,false,[],false⟩,false,false,[],some 4,some ⟨.code,[47],.lcode,false,[],false⟩,some ([(42,(.other,false))],false),false,false,false,none,false,⟨.lcode,some (.own 3),false,.lblank⟩⟩] .leaf) 610390259 [⟨⟨(.inside 1),[],.lcomment,false,[],false⟩,false,false,[],some 4,some ⟨.code,[47],.lcode,false,[],false⟩,some ([(42,(.other,false))],false),true,false,false,none,false,⟨.lcomment,some .internalNl,false,.lblank⟩⟩] (.node .leaf 611599119 [⟨⟨(.inside 1),[],.lcomment,false,[],false⟩,false,false,[],some 4,some ⟨.code,[47],.lcomment,false,[],false⟩,some ([(42,(.other,false))],false),false,false,false,none,false,⟨.lcomment,some (.own 3),false,.lblank⟩⟩] .leaf)) 611599127 [⟨⟨(.inside 1),[],.lcomment,false,[],false⟩,false,false,[],some 4,some ⟨.code,[47],.lcomment,false,[],false⟩,some ([(42,(.other,false))],false),true,false,false,none,false,⟨.lcomment,some .internalNl,false,.lblank⟩⟩] (.node (.node .leaf 612807987 [⟨⟨(.inside 1),[],.lcomment,false,[],false⟩,false,false,[],some 4,some ⟨.code,[47],.lblank,false,[],false⟩,some ([(42,(.other,false))],false),false,false,false,none,false,⟨.lcomment,some (.own 3),false,.lblank⟩⟩] .leaf) 612807995 [⟨⟨(.inside 1),[],.lcomment,false,[],false⟩,false,false,[],some 4,some ⟨.code,[47],.lblank,false,[],false⟩,some ([(42,(.other,false))],false),true,false,false,none,false,⟨.lcomment,some .internalNl,false,.lblank⟩⟩] (.node .leaf 624797474 [⟨⟨(.inside 1),[],.lcomment,false,[],false⟩,false,false,[],some 4,some ⟨.code,[47],.lcode,false,[(2,0)],false⟩,some ([(42,(.other,false))],false),true,false,false,none,false,⟨.lcomment,some .internalNl,false,.lblank⟩⟩] .leaf))) 624798243 [⟨⟨(.inside 1),[],.lcomment,false,[],false⟩,false,false,[],some 4,some ⟨.code,[47],.lcode,false,[(2,1)],false⟩,some ([(42,(.other,false))],false),true,false,false,none,false,⟨.lcomment,some .internalNl,false,.lblank⟩⟩] (.node (.node (.node .leaf 624802857 [⟨⟨(.inside 1),[],.lcomment,false,[],false⟩,false,false,[],some 4,some ⟨.code,[47],.lcode,false,[(3,0)],false⟩,some ([(42,(.other,false))],false),true,false,false,none,false,⟨.lcomment,some .internalNl,false,.lblank⟩⟩] .leaf) 624803626 [⟨⟨(.inside 1),[],.lcomment,false,[],false⟩,false,false,[],some 4,some ⟨.code,[47],.lcode,false,[(3,1)],false⟩,some ([(42,(.other,false))],false),true,false,false,none,false,⟨.lcomment,some .internalNl,false,.lblank⟩⟩] (.node .leaf 1161617341 [⟨⟨(.inside 1),[],.lcode,false,[(2,0)],false⟩,false,false,[],some 4,some ⟨.code,[47],.lcode,false,[(2,0)],false⟩,some ([(42,(.other,false))],false),false,false,false,none,false,⟨.lcode,some (.own 3),false,.lblank⟩⟩] .leaf)) 1161618110 [⟨⟨(.inside 1),[],.lcode,false,[(2,0)],false⟩,false,false,[],some 4,some ⟨.code,[47],.lcode,false,[(2,1)],false⟩,some ([(42,(.other,false))],false),false,false,false,none,false,⟨.lcode,some (.own 3),false,.lblank⟩⟩] (.node (.node .leaf 1161629630 [⟨⟨(.inside 1),[],.lcode,false,[(2,1)],false⟩,false,false,[],some 4,some ⟨.code,[47],.lcode,false,[(2,0)],false⟩,some ([(42,(.other,false))],false),false,false,false,none,false,⟨.lcode,some (.own 3),false,.lblank⟩⟩] .leaf) 1161630399 [⟨⟨(.inside 1),[],.lcode,false,[(2,1)],false⟩,false,false,[],some 4,some ⟨.code,[47],.lcode,false,[(2,1)],false⟩,some ([(42,(.other,false))],false),false,false,false,none,false,⟨.lcode,some (.own 3),false,.lblank⟩⟩] (.node .leaf 1161708747 [⟨⟨(.inside 1),[],.lcode,false,[(3,0)],false⟩,false,false,[],some 4,some ⟨.code,[47],.lcode,false,[(3,0)],false⟩,some ([(42,(.other,false))],false),false,false,false,none,false,⟨.lcode,some (.own 3),false,.lblank⟩⟩] .leaf)))) 1161709516 [⟨⟨(.inside 1),[],.lcode,false,[(3,0)],false⟩,false,false,[],some 4,some ⟨.code,[47],.lcode,false,[(3,1)],false⟩,some ([(42,(.other,false))],false),false,false,false,none,false,⟨.lcode,some (.own 3),false,.lblank⟩⟩] (.node (.node (.node (.node .leaf 1161721036 [⟨⟨(.inside 1),[],.lcode,false,[(3,1)],false⟩,false,false,[],some 4,some ⟨.code,[47],.lcode,false,[(3,0)],false⟩,some ([(42,(.other,false))],false),false,false,false,none,false,⟨.lcode,some (.own 3),false,.lblank⟩⟩] .leaf) 1161721805 [⟨⟨(.inside 1),[],.lcode,false,[(3,1)],false⟩,false,false,[],some 4,some ⟨.code,[47],.lcode,false,[(3,1)],false⟩,some ([(42,(.other,false))],false),false,false,false,none,false,⟨.lcode,some (.own 3),false,.lblank⟩⟩] (.node .leaf 2512148022 [⟨⟨(.inside 1),[],.lcomment,false,[],false⟩,false,false,[],some 4,some ⟨.code,[47],.lcode,false,[(2,0),(3,0)],false⟩,some ([(42,(.other,false))],false),true,false,false,none,false,⟨.lcomment,some .internalNl,false,.lblank⟩⟩] .leaf)) 2512249530 [⟨⟨(.inside 1),[],.lcomment,false,[],false⟩,false,false,[],some 4,some ⟨.code,[47],.lcode,false,[(2,1),(3,1)],false⟩,some ([(42,(.other,false))],false),true,false,false,none,false,⟨.lcomment,some .internalNl,false,.lblank⟩⟩] (.node (.node .leaf 2512847812 [⟨⟨(.inside 1),[],.lcomment,false,[],false⟩,false,false,[],some 4,some ⟨.code,[47],.lcode,false,[(3,0),(2,0)],false⟩,some ([(42,(.other,false))],false),true,false,false,none,false,⟨.lcomment,some .internalNl,false,.lblank⟩⟩] .leaf) 2512949320 [⟨⟨(.inside 1),[],.lcomment,false,[],false⟩,false,false,[],some 4,some ⟨.code,[47],.lcode,false,[(3,1),(2,1)],false⟩,some ([(42,(.other,false))],false),true,false,false,none,false,⟨.lcomment,some .internalNl,false,.lblank⟩⟩] (.node .leaf 73391842917 [⟨⟨(.inside 1),[],.lcode,false,[(2,0),(3,0)],false⟩,false,false,[],some 4,some ⟨.code,[47],.lcode,false,[(2,0),(3,0)],false⟩,some ([(42,(.other,false))],false),false,false,false,none,false,⟨.lcode,some (.own 3),false,.lblank⟩⟩] .leaf))) 73391944425 [⟨⟨(.inside 1),[],.lcode,false,[(2,0),(3,0)],false⟩,false,false,[],some 4,some ⟨.code,[47],.lcode,false,[(2,1),(3,1)],false⟩,some ([(42,(.other,false))],false),false,false,false,none,false,⟨.lcode,some (.own 3),false,.lblank⟩⟩] (.node (.node (.node .leaf 73393465065 [⟨⟨(.inside 1),[],.lcode,false,[(2,1),(3,1)],false⟩,false,false,[],some 4,some ⟨.code,[47],.lcode,false,[(2,0),(3,0)],false⟩,some ([(42,(.other,false))],false),false,false,false,none,false,⟨.lcode,some (.own 3),false,.lblank⟩⟩] .leaf) 73393566573 [⟨⟨(.inside 1),[],.lcode,false,[(2,1),(3,1)],false⟩,false,false,[],some 4,some ⟨.code,[47],.lcode,false,[(2,1),(3,1)],false⟩,some ([(42,(.other,false))],false),false,false,false,none,false,⟨.lcode,some (.own 3),false,.lblank⟩⟩] (.node .leaf 73403725697 [⟨⟨(.inside 1),[],.lcode,false,[(3,0),(2,0)],false⟩,false,false,[],some 4,some ⟨.code,[47],.lcode,false,[(3,0),(2,0)],false⟩,some ([(42,(.other,false))],false),false,false,false,none,false,⟨.lcode,some (.own 3),false,.lblank⟩⟩] .leaf)) 73403827205 [⟨⟨(.inside 1),[],.lcode,false,[(3,0),(2,0)],false⟩,false,false,[],some 4,some ⟨.code,[47],.lcode,false,[(3,1),(2,1)],false⟩,some ([(42,(.other,false))],false),false,false,false,none,false,⟨.lcode,some (.own 3),false,.lblank⟩⟩] (.node (.node .leaf 73405347845 [⟨⟨(.inside 1),[],.lcode,false,[(3,1),(2,1)],false⟩,false,false,[],some 4,some ⟨.code,[47],.lcode,false,[(3,0),(2,0)],false⟩,some ([(42,(.other,false))],false),false,false,false,none,false,⟨.lcode,some (.own 3),false,.lblank⟩⟩] .leaf) 73405449353 [⟨⟨(.inside 1),[],.lcode,false,[(3,1),(2,1)],false⟩,false,false,[],some 4,some ⟨.code,[47],.lcode,false,[(3,1),(2,1)],false⟩,some ([(42,(.other,false))],false),false,false,false,none,false,⟨.lcode,some (.own 3),false,.lblank⟩⟩] .leaf)))),(.node (.node (.node (.node (.node (.node .leaf 610242271 [⟨⟨(.inside 1),[],.lcode,false,[],false⟩,false,false,[],some 4,some ⟨.code,[47],.lcode,false,[],false⟩,some ([(42,(.other,false))],false),false,false,false,none,false,⟨.lcode,some (.own 3),false,.lblank⟩⟩] .leaf) 610390259 [⟨⟨(.inside 1),[],.lcomment,false,[],false⟩,false,false,[],some 4,some ⟨.code,[47],.lcode,false,[],false⟩,some ([(42,(.other,false))],false),true,false,false,none,false,⟨.lcomment,some .internalNl,false,.lblank⟩⟩] .leaf) 610538239 [⟨⟨(.inside 1),[],.lblank,false,[],false⟩,false,false,[],some 4,some ⟨.code,[47],.lcode,false,[],false⟩,some ([(42,(.other,false))],false),true,false,false,none,false,⟨.lblank,some .internalNl,false,.lblank⟩⟩] (.node .leaf 611599119 [⟨⟨(.inside 1),[],.lcomment,false,[],false⟩,false,false,[],some 4,some ⟨.code,[47],.lcomment,false,[],false⟩,some ([(42,(.other,false))],false),false,false,false,none,false,⟨.lcomment,some (.own 3),false,.lblank⟩⟩] .leaf)) 611599127 [⟨⟨(.inside 1),[],.lcomment,false,[],false⟩,false,false,[],some 4,some ⟨.code,[47],.lcomment,false,[],false⟩,some ([(42,(.other,false))],false),true,false,false,none,false,⟨.lcomment,some .internalNl,false,.lblank⟩⟩] (.node (.node .leaf 611747107 [⟨⟨(.inside 1),[],.lblank,false,[],false⟩,false,false,[],some 4,some ⟨.code,[47],.lcomment,false,[],false⟩,some ([(42,(.other,false))],false),true,false,false,none,false,⟨.lblank,some .internalNl,false,.lblank⟩⟩] .leaf) 612807987 [⟨⟨(.inside 1),[],.lcomment,false,[],false⟩,false,false,[],some 4,some ⟨.code,[47],.lblank,false,[],false⟩,some ([(42,(.other,false))],false),false,false,false,none,false,⟨.lcomment,some (.own 3),false,.lblank⟩⟩] (.node .leaf 612807995 [⟨⟨(.inside 1),[],.lcomment,false,[],false⟩,false,false,[],some 4,some ⟨.code,[47],.lblank,false,[],false⟩,some ([(42,(.other,false))],false),true,false,false,none,false,⟨.lcomment,some .internalNl,false,.lblank⟩⟩] .leaf))) 612955975 [⟨⟨(.inside 1),[],.lblank,false,[],false⟩,false,false,[],some 4,some ⟨.code,[47],.lblank,false,[],false⟩,some ([(42,(.other,false))],false),true,false,false,none,false,⟨.lblank,some .internalNl,false,.lblank⟩⟩] (.node (.node (.node .leaf 624797474 [⟨⟨(.inside 1),[],.lcomment,false,[],false⟩,false,false,[],some 4,some ⟨.code,[47],.lcode,false,[(2,0)],false⟩,some ([(42,(.other,false))],false),true,false,false,none,false,⟨.lcomment,some .internalNl,false,.lblank⟩⟩] .leaf) 624798243 [⟨⟨(.inside 1),[],.lcomment,false,[],false⟩,false,false,[],some 4,some ⟨.code,[47],.lcode,false,[(2,1)],false⟩,some ([(42,(.other,false))],false),true,false,false,none,false,⟨.lcomment,some .internalNl,false,.lblank⟩⟩] (.node .leaf 624802857 [⟨⟨(.inside 1),[],.lcomment,false,[],false⟩,false,false,[],some 4,some ⟨.code,[47],.lcode,false,[(3,0)],false⟩,some ([(42,(.other,false))],false),true,false,false,none,false,⟨.lcomment,some .internalNl,false,.lblank⟩⟩] .leaf)) 624803626 [⟨⟨(.inside 1),[],.lcomment,false,[],false⟩,false,false,[],some 4,some ⟨.code,[47],.lcode,false,[(3,1)],false⟩,some ([(42,(.other,false))],false),true,false,false,none,false,⟨.lcomment,some .internalNl,false,.lblank⟩⟩] (.node (.node .leaf 624945454 [⟨⟨(.inside 1),[],.lblank,false,[],false⟩,false,false,[],some 4,some ⟨.code,[47],.lcode,false,[(2,0)],false⟩,some ([(42,(.other,false))],false),true,false,false,none,false,⟨.lblank,some .internalNl,false,.lblank⟩⟩] .leaf) 624946223 [⟨⟨(.inside 1),[],.lblank,false,[],false⟩,false,false,[],some 4,some ⟨.code,[47],.lcode,false,[(2,1)],false⟩,some ([(42,(.other,false))],false),true,false,false,none,false,⟨.lblank,some .internalNl,false,.lblank⟩⟩] (.node .leaf 624950837 [⟨⟨(.inside 1),[],.lblank,false,[],false⟩,false,false,[],some 4,some ⟨.code,[47],.lcode,false,[(3,0)],false⟩,some ([(42,(.other,false))],false),true,false,false,none,false,⟨.lblank,some .internalNl,false,.lblank⟩⟩] .leaf)))) 624951606 [⟨⟨(.inside 1),[],.lblank,false,[],false⟩,false,false,[],some 4,some ⟨.code,[47],.lcode,false,[(3,1)],false⟩,some ([(42,(.other,false))],false),true,false,false,none,false,⟨.lblank,some .internalNl,false,.lblank⟩⟩] (.node (.node (.node (.node (.node .leaf 1161617341 [⟨⟨(.inside 1),[],.lcode,false,[(2,0)],false⟩,false,false,[],some 4,some ⟨.code,[47],.lcode,false,[(2,0)],false⟩,some ([(42,(.other,false))],false),false,false,false,none,false,⟨.lcode,some (.own 3),false,.lblank⟩⟩] .leaf) 1161618110 [⟨⟨(.inside 1),[],.lcode,false,[(2,0)],false⟩,false,false,[],some 4,some ⟨.code,[47],.lcode,false,[(2,1)],false⟩,some ([(42,(.other,false))],false),false,false,false,none,false,⟨.lcode,some (.own 3),false,.lblank⟩⟩] .leaf) 1161708747 [⟨⟨(.inside 1),[],.lcode,false,[(3,0)],false⟩,false,false,[],some 4,some ⟨.code,[47],.lcode,false,[(3,0)],false⟩,some ([(42,(.other,false))],false),false,false,false,none,false,⟨.lcode,some (.own 3),false,.lblank⟩⟩] (.node .leaf 1161709516 [⟨⟨(.inside 1),[],.lcode,false,[(3,0)],false⟩,false,false,[],some 4,some ⟨.code,[47],.lcode,false,[(3,1)],false⟩,some ([(42,(.other,false))],false),false,false,false,none,false,⟨.lcode,some (.own 3),false,.lblank⟩⟩] .leaf)) 2512148022 [⟨⟨(.inside 1),[],.lcomment,false,[],false⟩,false,false,[],some 4,some ⟨.code,[47],.lcode,false,[(2,0),(3,0)],false⟩,some ([(42,(.other,false))],false),true,false,false,none,false,⟨.lcomment,some .internalNl,false,.lblank⟩⟩] (.node (.node .leaf 2512249530 [⟨⟨(.inside 1),[],.lcomment,false,[],false⟩,false,false,[],some 4,some ⟨.code,[47],.lcode,false,[(2,1),(3,1)],false⟩,some ([(42,(.other,false))],false),true,false,false,none,false,⟨.lcomment,some .internalNl,false,.lblank⟩⟩] .leaf) 2512296002 [⟨⟨(.inside 1),[],.lblank,false,[],false⟩,false,false,[],some 4,some ⟨.code,[47],.lcode,false,[(2,0),(3,0)],false⟩,some ([(42,(.other,false))],false),true,false,false,none,false,⟨.lblank,some .internalNl,false,.lblank⟩⟩] (.node .leaf 2512397510 [⟨⟨(.inside 1),[],.lblank,false,[],false⟩,false,false,[],some 4,some ⟨.code,[47],.lcode,false,[(2,1),(3,1)],false⟩,some ([(42,(.other,false))],false),true,false,false,none,false,⟨.lblank,some .internalNl,false,.lblank⟩⟩] .leaf))) 2512847812 [⟨⟨(.inside 1),[],.lcomment,false,[],false⟩,false,false,[],some 4,some ⟨.code,[47],.lcode,false,[(3,0),(2,0)],false⟩,some ([(42,(.other,false))],false),true,false,false,none,false,⟨.lcomment,some .internalNl,false,.lblank⟩⟩] (.node (.node (.node .leaf 2512949320 [⟨⟨(.inside 1),[],.lcomment,false,[],false⟩,false,false,[],some 4,some ⟨.code,[47],.lcode,false,[(3,1),(2,1)],false⟩,some ([(42,(.other,false))],false),true,false,false,none,false,⟨.lcomment,some .internalNl,false,.lblank⟩⟩] .leaf) 2512995792 [⟨⟨(.inside 1),[],.lblank,false,[],false⟩,false,false,[],some 4,some ⟨.code,[47],.lcode,false,[(3,0),(2,0)],false⟩,some ([(42,(.other,false))],false),true,false,false,none,false,⟨.lblank,some .internalNl,false,.lblank⟩⟩] (.node .leaf 2513097300 [⟨⟨(.inside 1),[],.lblank,false,[],false⟩,false,false,[],some 4,some ⟨.code,[47],.lcode,false,[(3,1),(2,1)],false⟩,some ([(42,(.other,false))],false),true,false,false,none,false,⟨.lblank,some .internalNl,false,.lblank⟩⟩] .leaf)) 73391842917 [⟨⟨(.inside 1),[],.lcode,false,[(2,0),(3,0)],false⟩,false,false,[],some 4,some ⟨.code,[47],.lcode,false,[(2,0),(3,0)],false⟩,some ([(42,(.other,false))],false),false,false,false,none,false,⟨.lcode,some (.own 3),false,.lblank⟩⟩] (.node (.node .leaf 73391944425 [⟨⟨(.inside 1),[],.lcode,false,[(2,0),(3,0)],false⟩,false,false,[],some 4,some ⟨.code,[47],.lcode,false,[(2,1),(3,1)],false⟩,some ([(42,(.other,false))],false),false,false,false,none,false,⟨.lcode,some (.own 3),false,.lblank⟩⟩] .leaf) 73403725697 [⟨⟨(.inside 1),[],.lcode,false,[(3,0),(2,0)],false⟩,false,false,[],some 4,some ⟨.code,[47],.lcode,false,[(3,0),(2,0)],false⟩,some ([(42,(.other,false))],false),false,false,false,none,false,⟨.lcode,some (.own 3),false,.lblank⟩⟩] (.node .leaf 73403827205 [⟨⟨(.inside 1),[],.lcode,false,[(3,0),(2,0)],false⟩,false,false,[],some 4,some ⟨.code,[47],.lcode,false,[(3,1),(2,1)],false⟩,some ([(42,(.other,false))],false),false,false,false,none,false,⟨.lcode,some (.own 3),false,.lblank⟩⟩] .leaf))))),(.node (.node (.node (.node (.node (.node .leaf 610279138 [⟨⟨(.inside 1),[],.lcode,true,[],false⟩,false,false,[],some 4,some ⟨.code,[47],.lcode,false,[],false⟩,some ([(42,(.other,false))],false),false,false,false,none,false,⟨.lcode,some (.own 3),false,.lblank⟩⟩] .leaf) 610427126 [⟨⟨(.inside 1),[],.lcomment,true,[],false⟩,false,false,[],some 4,some ⟨.code,[47],.lcode,false,[],false⟩,some ([(42,(.other,false))],false),true,false,false,none,false,⟨.lcomment,some .internalNl,false,.lblank⟩⟩] .leaf) 610575106 [⟨⟨(.inside 1),[],.lblank,true,[],false⟩,false,false,[],some 4,some ⟨.code,[47],.lcode,false,[],false⟩,some ([(42,(.other,false))],false),true,false,false,none,false,⟨.lblank,some .internalNl,false,.lblank⟩⟩] (.node .leaf 611635986 [⟨⟨(.inside 1),[],.lcomment,true,[],false⟩,false,false,[],some 4,some ⟨.code,[47],.lcomment,false,[],false⟩,some ([(42,(.other,false))],false),false,false,false,none,false,⟨.lcomment,some (.own 3),false,.lblank⟩⟩] .leaf)) 611635994 [⟨⟨(.inside 1),[],.lcomment,true,[],false⟩,false,false,[],some 4,some ⟨.code,[47],.lcomment,false,[],false⟩,some ([(42,(.other,false))],false),true,false,false,none,false,⟨.lcomment,some .internalNl,false,.lblank⟩⟩] (.node (.node .leaf 611783974 [⟨⟨(.inside 1),[],.lblank,true,[],false⟩,false,false,[],some 4,some ⟨.code,[47],.lcomment,false,[],false⟩,some ([(42,(.other,false))],false),true,false,false,none,false,⟨.lblank,some .internalNl,false,.lblank⟩⟩] .leaf) 612844854 [⟨⟨(.inside 1),[],.lcomment,true,[],false⟩,false,false,[],some 4,some ⟨.code,[47],.lblank,false,[],false⟩,some ([(42,(.other,false))],false),false,false,false,none,false,⟨.lcomment,some (.own 3),false,.lblank⟩⟩] (.node .leaf 612844862 [⟨⟨(.inside 1),[],.lcomment,true,[],false⟩,false,false,[],some 4,some ⟨.code,[47],.lblank,false,[],false⟩,some ([(42,(.other,false))],false),true,false,false,none,false,⟨.lcomment,some .internalNl,false,.lblank⟩⟩] .leaf))) 612992842 [⟨⟨(.inside 1),[],.lblank,true,[],false⟩,false,false,[],some 4,some ⟨.code,[47],.lblank,false,[],false⟩,some ([(42,(.other,false))],false),true,false,false,none,false,⟨.lblank,some .internalNl,false,.lblank⟩⟩] (.node (.node (.node .leaf 624686353 [⟨⟨(.inside 1),[],.lcode,true,[],false⟩,false,false,[],some 4,some ⟨.code,[47],.lcode,false,[(2,0)],false⟩,some ([(42,(.other,false))],false),false,false,false,none,false,⟨.lcode,some (.own 3),false,.lblank⟩⟩] .leaf) 624687122 [⟨⟨(.inside 1),[],.lcode,true,[],false⟩,false,false,[],some 4,some ⟨.code,[47],.lcode,false,[(2,1)],false⟩,some ([(42,(.other,false))],false),false,false,false,none,false,⟨.lcode,some (.own 3),false,.lblank⟩⟩] (.node .leaf 624691736 [⟨⟨(.inside 1),[],.lcode,true,[],false⟩,false,false,[],some 4,some ⟨.code,[47],.lcode,false,[(3,0)],false⟩,some ([(42,(.other,false))],false),false,false,false,none,false,⟨.lcode,some (.own 3),false,.lblank⟩⟩] .leaf)) 624692505 [⟨⟨(.inside 1),[],.lcode,true,[],false⟩,false,false,[],some 4,some ⟨.code,[47],.lcode,false,[(3,1)],false⟩,some ([(42,(.other,false))],false),false,false,false,none,false,⟨.lcode,some (.own 3),false,.lblank⟩⟩] (.node (.node .leaf 624834341 [⟨⟨(.inside 1),[],.lcomment,true,[],false⟩,false,false,[],some 4,some ⟨.code,[47],.lcode,false,[(2,0)],false⟩,some ([(42,(.other,false))],false),true,false,false,none,false,⟨.lcomment,some .internalNl,false,.lblank⟩⟩] .leaf) 624835110 [⟨⟨(.inside 1),[],.lcomment,true,[],false⟩,false,false,[],some 4,some ⟨.code,[47],.lcode,false,[(2,1)],false⟩,some ([(42,(.other,false))],false),true,false,false,none,false,⟨.lcomment,some .internalNl,false,.lblank⟩⟩] (.node .leaf 624839724 [⟨⟨(.inside 1),[],.lcomment,true,[],false⟩,false,false,[],some 4,some ⟨.code,[47],.lcode,false,[(3,0)],false⟩,some ([(42,(.other,false))],false),true,false,false,none,false,⟨.lcomment,some .internalNl,false,.lblank⟩⟩] .leaf)))) 624840493 [⟨⟨(.inside 1),[],.lcomment,true,[],false⟩,false,false,[],some 4,some ⟨.code,[47],.lcode,false,[(3,1)],false⟩,some ([(42,(.other,false))],false),true,false,false,none,false,⟨.lcomment,some .internalNl,false,.lblank⟩⟩] (.node (.node (.node (.node (.node .leaf 624982321 [⟨⟨(.inside 1),[],.lblank,true,[],false⟩,false,false,[],some 4,some ⟨.code,[47],.lcode,false,[(2,0)],false⟩,some ([(42,(.other,false))],false),true,false,false,none,false,⟨.lblank,some .internalNl,false,.lblank⟩⟩] .leaf) 624983090 [⟨⟨(.inside 1),[],.lblank,true,[],false⟩,false,false,[],some 4,some ⟨.code,[47],.lcode,false,[(2,1)],false⟩,some ([(42,(.other,false))],false),true,false,false,none,false,⟨.lblank,some .internalNl,false,.lblank⟩⟩] .leaf) 624987704 [⟨⟨(.inside 1),[],.lblank,true,[],false⟩,false,false,[],some 4,some ⟨.code,[47],.lcode,false,[(3,0)],false⟩,some ([(42,(.other,false))],false),true,false,false,none,false,⟨.lblank,some .internalNl,false,.lblank⟩⟩] (.node .leaf 624988473 [⟨⟨(.inside 1),[],.lblank,true,[],false⟩,false,false,[],some 4,some ⟨.code,[47],.lcode,false,[(3,1)],false⟩,some ([(42,(.other,false))],false),true,false,false,none,false,⟨.lblank,some .internalNl,false,.lblank⟩⟩] .leaf)) 2512036901 [⟨⟨(.inside 1),[],.lcode,true,[],false⟩,false,false,[],some 4,some ⟨.code,[47],.lcode,false,[(2,0),(3,0)],false⟩,some ([(42,(.other,false))],false),false,false,false,none,false,⟨.lcode,some (.own 3),false,.lblank⟩⟩] (.node (.node .leaf 2512138409 [⟨⟨(.inside 1),[],.lcode,true,[],false⟩,false,false,[],some 4,some ⟨.code,[47],.lcode,false,[(2,1),(3,1)],false⟩,some ([(42,(.other,false))],false),false,false,false,none,false,⟨.lcode,some (.own 3),false,.lblank⟩⟩] .leaf) 2512184889 [⟨⟨(.inside 1),[],.lcomment,true,[],false⟩,false,false,[],some 4,some ⟨.code,[47],.lcode,false,[(2,0),(3,0)],false⟩,some ([(42,(.other,false))],false),true,false,false,none,false,⟨.lcomment,some .internalNl,false,.lblank⟩⟩] (.node .leaf 2512286397 [⟨⟨(.inside 1),[],.lcomment,true,[],false⟩,false,false,[],some 4,some ⟨.code,[47],.lcode,false,[(2,1),(3,1)],false⟩,some ([(42,(.other,false))],false),true,false,false,none,false,⟨.lcomment,some .internalNl,false,.lblank⟩⟩] .leaf))) 2512332869 [⟨⟨(.inside 1),[],.lblank,true,[],false⟩,false,false,[],some 4,some ⟨.code,[47],.lcode,false,[(2,0),(3,0)],false⟩,some ([(42,(.other,false))],false),true,false,false,none,false,⟨.lblank,some .internalNl,false,.lblank⟩⟩] (.node (.node (.node .leaf 2512434377 [⟨⟨(.inside 1),[],.lblank,true,[],false⟩,false,false,[],some 4,some ⟨.code,[47],.lcode,false,[(2,1),(3,1)],false⟩,some ([(42,(.other,false))],false),true,false,false,none,false,⟨.lblank,some .internalNl,false,.lblank⟩⟩] .leaf) 2512736691 [⟨⟨(.inside 1),[],.lcode,true,[],false⟩,false,false,[],some 4,some ⟨.code,[47],.lcode,false,[(3,0),(2,0)],false⟩,some ([(42,(.other,false))],false),false,false,false,none,false,⟨.lcode,some (.own 3),false,.lblank⟩⟩] (.node .leaf 2512838199 [⟨⟨(.inside 1),[],.lcode,true,[],false⟩,false,false,[],some 4,some ⟨.code,[47],.lcode,false,[(3,1),(2,1)],false⟩,some ([(42,(.other,false))],false),false,false,false,none,false,⟨.lcode,some (.own 3),false,.lblank⟩⟩] .leaf)) 2512884679 [⟨⟨(.inside 1),[],.lcomment,true,[],false⟩,false,false,[],some 4,some ⟨.code,[47],.lcode,false,[(3,0),(2,0)],false⟩,some ([(42,(.other,false))],false),true,false,false,none,false,⟨.lcomment,some .internalNl,false,.lblank⟩⟩] (.node (.node .leaf 2512986187 [⟨⟨(.inside 1),[],.lcomment,true,[],false⟩,false,false,[],some 4,some ⟨.code,[47],.lcode,false,[(3,1),(2,1)],false⟩,some ([(42,(.other,false))],false),true,false,false,none,false,⟨.lcomment,some .internalNl,false,.lblank⟩⟩] .leaf) 2513032659 [⟨⟨(.inside 1),[],.lblank,true,[],false⟩,false,false,[],some 4,some ⟨.code,[47],.lcode,false,[(3,0),(2,0)],false⟩,some ([(42,(.other,false))],false),true,false,false,none,false,⟨.lblank,some .internalNl,false,.lblank⟩⟩] (.node .leaf 2513134167 [⟨⟨(.inside 1),[],.lblank,true,[],false⟩,false,false,[],some 4,some ⟨.code,[47],.lcode,false,[(3,1),(2,1)],false⟩,some ([(42,(.other,false))],false),true,false,false,none,false,⟨.lblank,some .internalNl,false,.lblank⟩⟩] .leaf))))),(.node (.node (.node (.node (.node (.node .leaf 610279138 [⟨⟨(.inside 1),[],.lcode,true,[],false⟩,false,false,[],some 4,some ⟨.code,[47],.lcode,false,[],false⟩,some ([(42,(.other,false))],false),false,false,false,none,false,⟨.lcode,some (.own 3),false,.lblank⟩⟩] .leaf) 610427126 [⟨⟨(.inside 1),[],.lcomment,true,[],false⟩,false,false,[],some 4,some ⟨.code,[47],.lcode,false,[],false⟩,some ([(42,(.other,false))],false),true,false,false,none,false,⟨.lcomment,some .internalNl,false,.lblank⟩⟩] .leaf) 610575106 [⟨⟨(.inside 1),[],.lblank,true,[],false⟩,false,false,[],some 4,some ⟨.code,[47],.lcode,false,[],false⟩,some ([(42,(.other,false))],false),true,false,false,none,false,⟨.lblank,some .internalNl,false,.lblank⟩⟩] (.node .leaf 611635986 [⟨⟨(.inside 1),[],.lcomment,true,[],false⟩,false,false,[],some 4,some ⟨.code,[47],.lcomment,false,[],false⟩,some ([(42,(.other,false))],false),false,false,false,none,false,⟨.lcomment,some (.own 3),false,.lblank⟩⟩] .leaf)) 611635994 [⟨⟨(.inside 1),[],.lcomment,true,[],false⟩,false,false,[],some 4,some ⟨.code,[47],.lcomment,false,[],false⟩,some ([(42,(.other,false))],false),true,false,false,none,false,⟨.lcomment,some .internalNl,false,.lblank⟩⟩] (.node (.node .leaf 611783974 [⟨⟨(.inside 1),[],.lblank,true,[],false⟩,false,false,[],some 4,some ⟨.code,[47],.lcomment,false,[],false⟩,some ([(42,(.other,false))],false),true,false,false,none,false,⟨.lblank,some .internalNl,false,.lblank⟩⟩] .leaf) 612844854 [⟨⟨(.inside 1),[],.lcomment,true,[],false⟩,false,false,[],some 4,some ⟨.code,[47],.lblank,false,[],false⟩,some ([(42,(.other,false))],false),false,false,false,none,false,⟨.lcomment,some (.own 3),false,.lblank⟩⟩] (.node .leaf 612844862 [⟨⟨(.inside 1),[],.lcomment,true,[],false⟩,false,false,[],some 4,some ⟨.code,[47],.lblank,false,[],false⟩,some ([(42,(.other,false))],false),true,false,false,none,false,⟨.lcomment,some .internalNl,false,.lblank⟩⟩] .leaf))) 612992842 [⟨⟨(.inside 1),[],.lblank,true,[],false⟩,false,false,[],some 4,some ⟨.code,[47],.lblank,false,[],false⟩,some ([(42,(.other,false))],false),true,false,false,none,false,⟨.lblank,some .internalNl,false,.lblank⟩⟩] (.node (.node (.node .leaf 624686353 [⟨⟨(.inside 1),[],.lcode,true,[],false⟩,false,false,[],some 4,some ⟨.code,[47],.lcode,false,[(2,0)],false⟩,some ([(42,(.other,false))],false),false,false,false,none,false,⟨.lcode,some (.own 3),false,.lblank⟩⟩] .leaf) 624687122 [⟨⟨(.inside 1),[],.lcode,true,[],false⟩,false,false,[],some 4,some ⟨.code,[47],.lcode,false,[(2,1)],false⟩,some ([(42,(.other,false))],false),false,false,false,none,false,⟨.lcode,some (.own 3),false,.lblank⟩⟩] (.node .leaf 624691736 [⟨⟨(.inside 1),[],.lcode,true,[],false⟩,false,false,[],some 4,some ⟨.code,[47],.lcode,false,[(3,0)],false⟩,some ([(42,(.other,false))],false),false,false,false,none,false,⟨.lcode,some (.own 3),false,.lblank⟩⟩] .leaf)) 624692505 [⟨⟨(.inside 1),[],.lcode,true,[],false⟩,false,false,[],some 4,some ⟨.code,[47],.lcode,false,[(3,1)],false⟩,some ([(42,(.other,false))],false),false,false,false,none,false,⟨.lcode,some (.own 3),false,.lblank⟩⟩] (.node (.node .leaf 624834341 [⟨⟨(.inside 1),[],.lcomment,true,[],false⟩,false,false,[],some 4,some ⟨.code,[47],.lcode,false,[(2,0)],false⟩,some ([(42,(.other,false))],false),true,false,false,none,false,⟨.lcomment,some .internalNl,false,.lblank⟩⟩] .leaf) 624835110 [⟨⟨(.inside 1),[],.lcomment,true,[],false⟩,false,false,[],some 4,some ⟨.code,[47],.lcode,false,[(2,1)],false⟩,some ([(42,(.other,false))],false),true,false,false,none,false,⟨.lcomment,some .internalNl,false,.lblank⟩⟩] (.node .leaf 624839724 [⟨⟨(.inside 1),[],.lcomment,true,[],false⟩,false,false,[],some 4,some ⟨.code,[47],.lcode,false,[(3,0)],false⟩,some ([(42,(.other,false))],false),true,false,false,none,false,⟨.lcomment,some .internalNl,false,.lblank⟩⟩] .leaf)))) 624840493 [⟨⟨(.inside 1),[],.lcomment,true,[],false⟩,false,false,[],some 4,some ⟨.code,[47],.lcode,false,[(3,1)],false⟩,some ([(42,(.other,false))],false),true,false,false,none,false,⟨.lcomment,some .internalNl,false,.lblank⟩⟩] (.node (.node (.node (.node (.node .leaf 624982321 [⟨⟨(.inside 1),[],.lblank,true,[],false⟩,false,false,[],some 4,some ⟨.code,[47],.lcode,false,[(2,0)],false⟩,some ([(42,(.other,false))],false),true,false,false,none,false,⟨.lblank,some .internalNl,false,.lblank⟩⟩] .leaf) 624983090 [⟨⟨(.inside 1),[],.lblank,true,[],false⟩,false,false,[],some 4,some ⟨.code,[47],.lcode,false,[(2,1)],false⟩,some ([(42,(.other,false))],false),true,false,false,none,false,⟨.lblank,some .internalNl,false,.lblank⟩⟩] .leaf) 624987704 [⟨⟨(.inside 1),[],.lblank,true,[],false⟩,false,false,[],some 4,some ⟨.code,[47],.lcode,false,[(3,0)],false⟩,some ([(42,(.other,false))],false),true,false,false,none,false,⟨.lblank,some .internalNl,false,.lblank⟩⟩] (.node .leaf 624988473 [⟨⟨(.inside 1),[],.lblank,true,[],false⟩,false,false,[],some 4,some ⟨.code,[47],.lcode,false,[(3,1)],false⟩,some ([(42,(.other,false))],false),true,false,false,none,false,⟨.lblank,some .internalNl,false,.lblank⟩⟩] .leaf)) 2512036901 [⟨⟨(.inside 1),[],.lcode,true,[],false⟩,false,false,[],some 4,some ⟨.code,[47],.lcode,false,[(2,0),(3,0)],false⟩,some ([(42,(.other,false))],false),false,false,false,none,false,⟨.lcode,some (.own 3),false,.lblank⟩⟩] (.node (.node .leaf 2512138409 [⟨⟨(.inside 1),[],.lcode,true,[],false⟩,false,false,[],some 4,some ⟨.code,[47],.lcode,false,[(2,1),(3,1)],false⟩,some ([(42,(.other,false))],false),false,false,false,none,false,⟨.lcode,some (.own 3),false,.lblank⟩⟩] .leaf) 2512184889 [⟨⟨(.inside 1),[],.lcomment,true,[],false⟩,false,false,[],some 4,some ⟨.code,[47],.lcode,false,[(2,0),(3,0)],false⟩,some ([(42,(.other,false))],false),true,false,false,none,false,⟨.lcomment,some .internalNl,false,.lblank⟩⟩] (.node .leaf 2512286397 [⟨⟨(.inside 1),[],.lcomment,true,[],false⟩,false,false,[],some 4,some ⟨.code,[47],.lcode,false,[(2,1),(3,1)],false⟩,some ([(42,(.other,false))],false),true,false,false,none,false,⟨.lcomment,some .internalNl,false,.lblank⟩⟩] .leaf))) 2512332869 [⟨⟨(.inside 1),[],.lblank,true,[],false⟩,false,false,[],some 4,some ⟨.code,[47],.lcode,false,[(2,0),(3,0)],false⟩,some ([(42,(.other,false))],false),true,false,false,none,false,⟨.lblank,some .internalNl,false,.lblank⟩⟩] (.node (.node (.node .leaf 2512434377 [⟨⟨(.inside 1),[],.lblank,true,[],false⟩,false,false,[],some 4,some ⟨.code,[47],.lcode,false,[(2,1),(3,1)],false⟩,some ([(42,(.other,false))],false),true,false,false,none,false,⟨.lblank,some .internalNl,false,.lblank⟩⟩] .leaf) 2512736691 [⟨⟨(.inside 1),[],.lcode,true,[],false⟩,false,false,[],some 4,some ⟨.code,[47],.lcode,false,[(3,0),(2,0)],false⟩,some ([(42,(.other,false))],false),false,false,false,none,false,⟨.lcode,some (.own 3),false,.lblank⟩⟩] (.node .leaf 2512838199 [⟨⟨(.inside 1),[],.lcode,true,[],false⟩,false,false,[],some 4,some ⟨.code,[47],.lcode,false,[(3,1),(2,1)],false⟩,some ([(42,(.other,false))],false),false,false,false,none,false,⟨.lcode,some (.own 3),false,.lblank⟩⟩] .leaf)) 2512884679 [⟨⟨(.inside 1),[],.lcomment,true,[],false⟩,false,false,[],some 4,some ⟨.code,[47],.lcode,false,[(3,0),(2,0)],false⟩,some ([(42,(.other,false))],false),true,false,false,none,false,⟨.lcomment,some .internalNl,false,.lblank⟩⟩] (.node (.node .leaf 2512986187 [⟨⟨(.inside 1),[],.lcomment,true,[],false⟩,false,false,[],some 4,some ⟨.code,[47],.lcode,false,[(3,1),(2,1)],false⟩,some ([(42,(.other,false))],false),true,false,false,none,false,⟨.lcomment,some .internalNl,false,.lblank⟩⟩] .leaf) 2513032659 [⟨⟨(.inside 1),[],.lblank,true,[],false⟩,false,false,[],some 4,some ⟨.code,[47],.lcode,false,[(3,0),(2,0)],false⟩,some ([(42,(.other,false))],false),true,false,false,none,false,⟨.lblank,some .internalNl,false,.lblank⟩⟩] (.node .leaf 2513134167 [⟨⟨(.inside 1),[],.lblank,true,[],false⟩,false,false,[],some 4,some ⟨.code,[47],.lcode,false,[(3,1),(2,1)],false⟩,some ([(42,(.other,false))],false),true,false,false,none,false,⟨.lblank,some .internalNl,false,.lblank⟩⟩] .leaf))))),(.node (.node (.node (.node (.node (.node .leaf 610242303 [⟨⟨(.inside 1),[],.lcode,false,[],false⟩,true,false,[],some 4,some ⟨.code,[47],.lcode,false,[],false⟩,some ([(42,(.other,false))],false),false,false,false,none,false,⟨.lcode,some (.own 3),false,.lblank⟩⟩] .leaf) 610390291 [⟨⟨(.inside 1),[],.lcomment,false,[],false⟩,true,false,[],some 4,some ⟨.code,[47],.lcode,false,[],false⟩,some ([(42,(.other,false))],false),true,false,false,none,false,⟨.lcomment,some .internalNl,false,.lblank⟩⟩] .leaf) 610538271 [⟨⟨(.inside 1),[],.lblank,false,[],false⟩,true,false,[],some 4,some ⟨.code,[47],.lcode,false,[],false⟩,some ([(42,(.other,false))],false),true,false,false,none,false,⟨.lblank,some .internalNl,false,.lblank⟩⟩] (.node .leaf 611599151 [⟨⟨(.inside 1),[],.lcomment,false,[],false⟩,true,false,[],some 4,some ⟨.code,[47],.lcomment,false,[],false⟩,some ([(42,(.other,false))],false),false,false,false,none,false,⟨.lcomment,some (.own 3),false,.lblank⟩⟩] .leaf)) 611599159 [⟨⟨(.inside 1),[],.lcomment,false,[],false⟩,true,false,[],some 4,some ⟨.code,[47],.lcomment,false,[],false⟩,some ([(42,(.other,false))],false),true,false,false,none,false,⟨.lcomment,some .internalNl,false,.lblank⟩⟩] (.node (.node .leaf 611747139 [⟨⟨(.inside 1),[],.lblank,false,[],false⟩,true,false,[],some 4,some ⟨.code,[47],.lcomment,false,[],false⟩,some ([(42,(.other,false))],false),true,false,false,none,false,⟨.lblank,some .internalNl,false,.lblank⟩⟩] .leaf) 612808019 [⟨⟨(.inside 1),[],.lcomment,false,[],false⟩,true,false,[],some 4,some ⟨.code,[47],.lblank,false,[],false⟩,some ([(42,(.other,false))],false),false,false,false,none,false,⟨.lcomment,some (.own 3),false,.lblank⟩⟩] (.node .leaf 612808027 [⟨⟨(.inside 1),[],.lcomment,false,[],false⟩,true,false,[],some 4,some ⟨.code,[47],.lblank,false,[],false⟩,some ([(42,(.other,false))],false),true,false,false,none,false,⟨.lcomment,some .internalNl,false,.lblank⟩⟩] .leaf))) 612956007 [⟨⟨(.inside 1),[],.lblank,false,[],false⟩,true,false,[],some 4,some ⟨.code,[47],.lblank,false,[],false⟩,some ([(42,(.other,false))],false),true,false,false,none,false,⟨.lblank,some .internalNl,false,.lblank⟩⟩] (.node (.node (.node .leaf 624649518 [⟨⟨(.inside 1),[],.lcode,false,[],false⟩,true,false,[],some 4,some ⟨.code,[47],.lcode,false,[(2,0)],false⟩,some ([(42,(.other,false))],false),false,false,false,none,false,⟨.lcode,some (.own 3),false,.lblank⟩⟩] .leaf) 624650287 [⟨⟨(.inside 1),[],.lcode,false,[],false⟩,true,false,[],some 4,some ⟨.code,[47],.lcode,false,[(2,1)],false⟩,some ([(42,(.other,false))],false),false,false,false,none,false,⟨.lcode,some (.own 3),false,.lblank⟩⟩] (.node .leaf 624654901 [⟨⟨(.inside 1),[],.lcode,false,[],false⟩,true,false,[],some 4,some ⟨.code,[47],.lcode,false,[(3,0)],false⟩,some ([(42,(.other,false))],false),false,false,false,none,false,⟨.lcode,some (.own 3),false,.lblank⟩⟩] .leaf)) 624655670 [⟨⟨(.inside 1),[],.lcode,false,[],false⟩,true,false,[],some 4,some ⟨.code,[47],.lcode,false,[(3,1)],false⟩,some ([(42,(.other,false))],false),false,false,false,none,false,⟨.lcode,some (.own 3),false,.lblank⟩⟩] (.node (.node .leaf 624797506 [⟨⟨(.inside 1),[],.lcomment,false,[],false⟩,true,false,[],some 4,some ⟨.code,[47],.lcode,false,[(2,0)],false⟩,some ([(42,(.other,false))],false),true,false,false,none,false,⟨.lcomment,some .internalNl,false,.lblank⟩⟩] .leaf) 624798275 [⟨⟨(.inside 1),[],.lcomment,false,[],false⟩,true,false,[],some 4,some ⟨.code,[47],.lcode,false,[(2,1)],false⟩,some ([(42,(.other,false))],false),true,false,false,none,false,⟨.lcomment,some .internalNl,false,.lblank⟩⟩] (.node .leaf 624802889 [⟨⟨(.inside 1),[],.lcomment,false,[],false⟩,true,false,[],some 4,some ⟨.code,[47],.lcode,false,[(3,0)],false⟩,some ([(42,(.other,false))],false),true,false,false,none,false,⟨.lcomment,some .internalNl,false,.lblank⟩⟩] .leaf)))) 624803658 [⟨⟨(.inside 1),[],.lcomment,false,[],false⟩,true,false,[],some 4,some ⟨.code,[47],.lcode,false,[(3,1)],false⟩,some ([(42,(.other,false))],false),true,false,false,none,false,⟨.lcomment,some .internalNl,false,.lblank⟩⟩] (.node (.node (.node (.node (.node .leaf 624945486 [⟨⟨(.inside 1),[],.lblank,false,[],false⟩,true,false,[],some 4,some ⟨.code,[47],.lcode,false,[(2,0)],false⟩,some ([(42,(.other,false))],false),true,false,false,none,false,⟨.lblank,some .internalNl,false,.lblank⟩⟩] .leaf) 624946255 [⟨⟨(.inside 1),[],.lblank,false,[],false⟩,true,false,[],some 4,some ⟨.code,[47],.lcode,false,[(2,1)],false⟩,some ([(42,(.other,false))],false),true,false,false,none,false,⟨.lblank,some .internalNl,false,.lblank⟩⟩] .leaf) 624950869 [⟨⟨(.inside 1),[],.lblank,false,[],false⟩,true,false,[],some 4,some ⟨.code,[47],.lcode,false,[(3,0)],false⟩,some ([(42,(.other,false))],false),true,false,false,none,false,⟨.lblank,some .internalNl,false,.lblank⟩⟩] (.node .leaf 624951638 [⟨⟨(.inside 1),[],.lblank,false,[],false⟩,true,false,[],some 4,some ⟨.code,[47],.lcode,false,[(3,1)],false⟩,some ([(42,(.other,false))],false),true,false,false,none,false,⟨.lblank,some .internalNl,false,.lblank⟩⟩] .leaf)) 2512000066 [⟨⟨(.inside 1),[],.lcode,false,[],false⟩,true,false,[],some 4,some ⟨.code,[47],.lcode,false,[(2,0),(3,0)],false⟩,some ([(42,(.other,false))],false),false,false,false,none,false,⟨.lcode,some (.own 3),false,.lblank⟩⟩] (.node (.node .leaf 2512101574 [⟨⟨(.inside 1),[],.lcode,false,[],false⟩,true,false,[],some 4,some ⟨.code,[47],.lcode,false,[(2,1),(3,1)],false⟩,some ([(42,(.other,false))],false),false,false,false,none,false,⟨.lcode,some (.own 3),false,.lblank⟩⟩] .leaf) 2512148054 [⟨⟨(.inside 1),[],.lcomment,false,[],false⟩,true,false,[],some 4,some ⟨.code,[47],.lcode,false,[(2,0),(3,0)],false⟩,some ([(42,(.other,false))],false),true,false,false,none,false,⟨.lcomment,some .internalNl,false,.lblank⟩⟩] (.node .leaf 2512249562 [⟨⟨(.inside 1),[],.lcomment,false,[],false⟩,true,false,[],some 4,some ⟨.code,[47],.lcode,false,[(2,1),(3,1)],false⟩,some ([(42,(.other,false))],false),true,false,false,none,false,⟨.lcomment,some .internalNl,false,.lblank⟩⟩] .leaf))) 2512296034 [⟨⟨(.inside 1),[],.lblank,false,[],false⟩,true,false,[],some 4,some ⟨.code,[47],.lcode,false,[(2,0),(3,0)],false⟩,some ([(42,(.other,false))],false),true,false,false,none,false,⟨.lblank,some .internalNl,false,.lblank⟩⟩] (.node (.node (.node .leaf 2512397542 [⟨⟨(.inside 1),[],.lblank,false,[],false⟩,true,false,[],some 4,some ⟨.code,[47],.lcode,false,[(2,1),(3,1)],false⟩,some ([(42,(.other,false))],false),true,false,false,none,false,⟨.lblank,some .internalNl,false,.lblank⟩⟩] .leaf) 2512699856 [⟨⟨(.inside 1),[],.lcode,false,[],false⟩,true,false,[],some 4,some ⟨.code,[47],.lcode,false,[(3,0),(2,0)],false⟩,some ([(42,(.other,false))],false),false,false,false,none,false,⟨.lcode,some (.own 3),false,.lblank⟩⟩] (.node .leaf 2512801364 [⟨⟨(.inside 1),[],.lcode,false,[],false⟩,true,false,[],some 4,some ⟨.code,[47],.lcode,false,[(3,1),(2,1)],false⟩,some ([(42,(.other,false))],false),false,false,false,none,false,⟨.lcode,some (.own 3),false,.lblank⟩⟩] .leaf)) 2512847844 [⟨⟨(.inside 1),[],.lcomment,false,[],false⟩,true,false,[],some 4,some ⟨.code,[47],.lcode,false,[(3,0),(2,0)],false⟩,some ([(42,(.other,false))],false),true,false,false,none,false,⟨.lcomment,some .internalNl,false,.lblank⟩⟩] (.node (.node .leaf 2512949352 [⟨⟨(.inside 1),[],.lcomment,false,[],false⟩,true,false,[],some 4,some ⟨.code,[47],.lcode,false,[(3,1),(2,1)],false⟩,some ([(42,(.other,false))],false),true,false,false,none,false,⟨.lcomment,some .internalNl,false,.lblank⟩⟩] .leaf) 2512995824 [⟨⟨(.inside 1),[],.lblank,false,[],false⟩,true,false,[],some 4,some ⟨.code,[47],.lcode,false,[(3,0),(2,0)],false⟩,some ([(42,(.other,false))],false),true,false,false,none,false,⟨.lblank,some .internalNl,false,.lblank⟩⟩] (.node .leaf 2513097332 [⟨⟨(.inside 1),[],.lblank,false,[],false⟩,true,false,[],some 4,some ⟨.code,[47],.lcode,false,[(3,1),(2,1)],false⟩,some ([(42,(.other,false))],false),true,false,false,none,false,⟨.lblank,some .internalNl,false,.lblank⟩⟩] .leaf))))),(.node (.node (.node (.node (.node (.node .leaf 610279154 [⟨⟨(.inside 1),[],.lcode,true,[],false⟩,false,true,[],some 4,some ⟨.code,[47],.lcode,false,[],false⟩,some ([(42,(.other,false))],false),false,false,false,none,false,⟨.lcode,some (.own 3),false,.lblank⟩⟩] .leaf) 610427142 [⟨⟨(.inside 1),[],.lcomment,true,[],false⟩,false,true,[],some 4,some ⟨.code,[47],.lcode,false,[],false⟩,some ([(42,(.other,false))],false),true,false,false,none,false,⟨.lcomment,some .internalNl,false,.lblank⟩⟩] .leaf) 610575122 [⟨⟨(.inside 1),[],.lblank,true,[],false⟩,false,true,[],some 4,some ⟨.code,[47],.lcode,false,[],false⟩,some ([(42,(.other,false))],false),true,false,false,none,false,⟨.lblank,some .internalNl,false,.lblank⟩⟩] (.node .leaf 611636002 [⟨⟨(.inside 1),[],.lcomment,true,[],false⟩,false,true,[],some 4,some ⟨.code,[47],.lcomment,false,[],false⟩,some ([(42,(.other,false))],false),false,false,false,none,false,⟨.lcomment,some (.own 3),false,.lblank⟩⟩] .leaf)) 611636010 [⟨⟨(.inside 1),[],.lcomment,true,[],false⟩,false,true,[],some 4,some ⟨.code,[47],.lcomment,false,[],false⟩,some ([(42,(.other,false))],false),true,false,false,none,false,⟨.lcomment,some .internalNl,false,.lblank⟩⟩] (.node (.node .leaf 611783990 [⟨⟨(.inside 1),[],.lblank,true,[],false⟩,false,true,[],some 4,some ⟨.code,[47],.lcomment,false,[],false⟩,some ([(42,(.other,false))],false),true,false,false,none,false,⟨.lblank,some .internalNl,false,.lblank⟩⟩] .leaf) 612844870 [⟨⟨(.inside 1),[],.lcomment,true,[],false⟩,false,true,[],some 4,some ⟨.code,[47],.lblank,false,[],false⟩,some ([(42,(.other,false))],false),false,false,false,none,false,⟨.lcomment,some (.own 3),false,.lblank⟩⟩] (.node .leaf 612844878 [⟨⟨(.inside 1),[],.lcomment,true,[],false⟩,false,true,[],some 4,some ⟨.code,[47],.lblank,false,[],false⟩,some ([(42,(.other,false))],false),true,false,false,none,false,⟨.lcomment,some .internalNl,false,.lblank⟩⟩] .leaf))) 612992858 [⟨⟨(.inside 1),[],.lblank,true,[],false⟩,false,true,[],some 4,some ⟨.code,[47],.lblank,false,[],false⟩,some ([(42,(.other,false))],false),true,false,false,none,false,⟨.lblank,some .internalNl,false,.lblank⟩⟩] (.node (.node (.node .leaf 624686369 [⟨⟨(.inside 1),[],.lcode,true,[],false⟩,false,true,[],some 4,some ⟨.code,[47],.lcode,false,[(2,0)],false⟩,some ([(42,(.other,false))],false),false,false,false,none,false,⟨.lcode,some (.own 3),false,.lblank⟩⟩] .leaf) 624687138 [⟨⟨(.inside 1),[],.lcode,true,[],false⟩,false,true,[],some 4,some ⟨.code,[47],.lcode,false,[(2,1)],false⟩,some ([(42,(.other,false))],false),false,false,false,none,false,⟨.lcode,some (.own 3),false,.lblank⟩⟩] (.node .leaf 624691752 [⟨⟨(.inside 1),[],.lcode,true,[],false⟩,false,true,[],some 4,some ⟨.code,[47],.lcode,false,[(3,0)],false⟩,some ([(42,(.other,false))],false),false,false,false,none,false,⟨.lcode,some (.own 3),false,.lblank⟩⟩] .leaf)) 624692521 [⟨⟨(.inside 1),[],.lcode,true,[],false⟩,false,true,[],some 4,some ⟨.code,[47],.lcode,false,[(3,1)],false⟩,some ([(42,(.other,false))],false),false,false,false,none,false,⟨.lcode,some (.own 3),false,.lblank⟩⟩] (.node (.node .leaf 624834357 [⟨⟨(.inside 1),[],.lcomment,true,[],false⟩,false,true,[],some 4,some ⟨.code,[47],.lcode,false,[(2,0)],false⟩,some ([(42,(.other,false))],false),true,false,false,none,false,⟨.lcomment,some .internalNl,false,.lblank⟩⟩] .leaf) 624835126 [⟨⟨(.inside 1),[],.lcomment,true,[],false⟩,false,true,[],some 4,some ⟨.code,[47],.lcode,false,[(2,1)],false⟩,some ([(42,(.other,false))],false),true,false,false,none,false,⟨.lcomment,some .internalNl,false,.lblank⟩⟩] (.node .leaf 624839740 [⟨⟨(.inside 1),[],.lcomment,true,[],false⟩,false,true,[],some 4,some ⟨.code,[47],.lcode,false,[(3,0)],false⟩,some ([(42,(.other,false))],false),true,false,false,none,false,⟨.lcomment,some .internalNl,false,.lblank⟩⟩] .leaf)))) 624840509 [⟨⟨(.inside 1),[],.lcomment,true,[],false⟩,false,true,[],some 4,some ⟨.code,[47],.lcode,false,[(3,1)],false⟩,some ([(42,(.other,false))],false),true,false,false,none,false,⟨.lcomment,some .internalNl,false,.lblank⟩⟩] (.node (.node (.node (.node (.node .leaf 624982337 [⟨⟨(.inside 1),[],.lblank,true,[],false⟩,false,true,[],some 4,some ⟨.code,[47],.lcode,false,[(2,0)],false⟩,some ([(42,(.other,false))],false),true,false,false,none,false,⟨.lblank,some .internalNl,false,.lblank⟩⟩] .leaf) 624983106 [⟨⟨(.inside 1),[],.lblank,true,[],false⟩,false,true,[],some 4,some ⟨.code,[47],.lcode,false,[(2,1)],false⟩,some ([(42,(.other,false))],false),true,false,false,none,false,⟨.lblank,some .internalNl,false,.lblank⟩⟩] .leaf) 624987720 [⟨⟨(.inside 1),[],.lblank,true,[],false⟩,false,true,[],some 4,some ⟨.code,[47],.lcode,false,[(3,0)],false⟩,some ([(42,(.other,false))],false),true,false,false,none,false,⟨.lblank,some .internalNl,false,.lblank⟩⟩] (.node .leaf 624988489 [⟨⟨(.inside 1),[],.lblank,true,[],false⟩,false,true,[],some 4,some ⟨.code,[47],.lcode,false,[(3,1)],false⟩,some ([(42,(.other,false))],false),true,false,false,none,false,⟨.lblank,some .internalNl,false,.lblank⟩⟩] .leaf)) 2512036917 [⟨⟨(.inside 1),[],.lcode,true,[],false⟩,false,true,[],some 4,some ⟨.code,[47],.lcode,false,[(2,0),(3,0)],false⟩,some ([(42,(.other,false))],false),false,false,false,none,false,⟨.lcode,some (.own 3),false,.lblank⟩⟩] (.node (.node .leaf 2512138425 [⟨⟨(.inside 1),[],.lcode,true,[],false⟩,false,true,[],some 4,some ⟨.code,[47],.lcode,false,[(2,1),(3,1)],false⟩,some ([(42,(.other,false))],false),false,false,false,none,false,⟨.lcode,some (.own 3),false,.lblank⟩⟩] .leaf) 2512184905 [⟨⟨(.inside 1),[],.lcomment,true,[],false⟩,false,true,[],some 4,some ⟨.code,[47],.lcode,false,[(2,0),(3,0)],false⟩,some ([(42,(.other,false))],false),true,false,false,none,false,⟨.lcomment,some .internalNl,false,.lblank⟩⟩] (.node .leaf 2512286413 [⟨⟨(.inside 1),[],.lcomment,true,[],false⟩,false,true,[],some 4,some ⟨.code,[47],.lcode,false,[(2,1),(3,1)],false⟩,some ([(42,(.other,false))],false),true,false,false,none,false,⟨.lcomment,some .internalNl,false,.lblank⟩⟩] .leaf))) 2512332885 [⟨⟨(.inside 1),[],.lblank,true,[],false⟩,false,true,[],some 4,some ⟨.code,[47],.lcode,false,[(2,0),(3,0)],false⟩,some ([(42,(.other,false))],false),true,false,false,none,false,⟨.lblank,some .internalNl,false,.lblank⟩⟩] (.node (.node (.node .leaf 2512434393 [⟨⟨(.inside 1),[],.lblank,true,[],false⟩,false,true,[],some 4,some ⟨.code,[47],.lcode,false,[(2,1),(3,1)],false⟩,some ([(42,(.other,false))],false),true,false,false,none,false,⟨.lblank,some .internalNl,false,.lblank⟩⟩] .leaf) 2512736707 [⟨⟨(.inside 1),[],.lcode,true,[],false⟩,false,true,[],some 4,some ⟨.code,[47],.lcode,false,[(3,0),(2,0)],false⟩,some ([(42,(.other,false))],false),false,false,false,none,false,⟨.lcode,some (.own 3),false,.lblank⟩⟩] (.node .leaf 2512838215 [⟨⟨(.inside 1),[],.lcode,true,[],false⟩,false,true,[],some 4,some ⟨.code,[47],.lcode,false,[(3,1),(2,1)],false⟩,some ([(42,(.other,false))],false),false,false,false,none,false,⟨.lcode,some (.own 3),false,.lblank⟩⟩] .leaf)) 2512884695 [⟨⟨(.inside 1),[],.lcomment,true,[],false⟩,false,true,[],some 4,some ⟨.code,[47],.lcode,false,[(3,0),(2,0)],false⟩,some ([(42,(.other,false))],false),true,false,false,none,false,⟨.lcomment,some .internalNl,false,.lblank⟩⟩] (.node (.node .leaf 2512986203 [⟨⟨(.inside 1),[],.lcomment,true,[],false⟩,false,true,[],some 4,some ⟨.code,[47],.lcode,false,[(3,1),(2,1)],false⟩,some ([(42,(.other,false))],false),true,false,false,none,false,⟨.lcomment,some .internalNl,false,.lblank⟩⟩] .leaf) 2513032675 [⟨⟨(.inside 1),[],.lblank,true,[],false⟩,false,true,[],some 4,some ⟨.code,[47],.lcode,false,[(3,0),(2,0)],false⟩,some ([(42,(.other,false))],false),true,false,false,none,false,⟨.lblank,some .internalNl,false,.lblank⟩⟩] (.node .leaf 2513134183 [⟨⟨(.inside 1),[],.lblank,true,[],false⟩,false,true,[],some 4,some ⟨.code,[47],.lcode,false,[(3,1),(2,1)],false⟩,some ([(42,(.other,false))],false),true,false,false,none,false,⟨.lblank,some .internalNl,false,.lblank⟩⟩] .leaf))))),(.node (.node (.node (.node (.node (.node .leaf 1148611072 [⟨⟨(.inside 1),[42],.lcode,false,[],false⟩,false,false,[],some 4,some ⟨.code,[47],.lcode,false,[],false⟩,some ([(42,(.other,false))],false),false,false,false,none,false,⟨.lcode,some (.own 3),false,.lblank⟩⟩] .leaf) 1167929900 [⟨⟨(.inside 1),[42],.lcomment,false,[],false⟩,false,false,[],some 4,some ⟨.code,[47],.lcode,false,[],false⟩,some ([(42,(.other,false))],false),true,false,false,none,false,⟨.lcomment,some .internalNl,false,.lblank⟩⟩] .leaf) 1169138760 [⟨⟨(.inside 1),[42],.lcomment,false,[],false⟩,false,false,[],some 4,some ⟨.code,[47],.lcomment,false,[],false⟩,some ([(42,(.other,false))],false),false,false,false,none,false,⟨.lcomment,some (.own 3),false,.lblank⟩⟩] (.node (.node .leaf 1169138768 [⟨⟨(.inside 1),[42],.lcomment,false,[],false⟩,false,false,[],some 4,some ⟨.code,[47],.lcomment,false,[],false⟩,some ([(42,(.other,false))],false),true,false,false,none,false,⟨.lcomment,some .internalNl,false,.lblank⟩⟩] .leaf) 1170347628 [⟨⟨(.inside 1),[42],.lcomment,false,[],false⟩,false,false,[],some 4,some ⟨.code,[47],.lblank,false,[],false⟩,some ([(42,(.other,false))],false),false,false,false,none,false,⟨.lcomment,some (.own 3),false,.lblank⟩⟩] .leaf)) 1170347636 [⟨⟨(.inside 1),[42],.lcomment,false,[],false⟩,false,false,[],some 4,some ⟨.code,[47],.lblank,false,[],false⟩,some ([(42,(.other,false))],false),true,false,false,none,false,⟨.lcomment,some .internalNl,false,.lblank⟩⟩] (.node (.node (.node .leaf 1182337115 [⟨⟨(.inside 1),[42],.lcomment,false,[],false⟩,false,false,[],some 4,some ⟨.code,[47],.lcode,false,[(2,0)],false⟩,some ([(42,(.other,false))],false),true,false,false,none,false,⟨.lcomment,some .internalNl,false,.lblank⟩⟩] .leaf) 1182337884 [⟨⟨(.inside 1),[42],.lcomment,false,[],false⟩,false,false,[],some 4,some ⟨.code,[47],.lcode,false,[(2,1)],false⟩,some ([(42,(.other,false))],false),true,false,false,none,false,⟨.lcomment,some .internalNl,false,.lblank⟩⟩] .leaf) 1182342498 [⟨⟨(.inside 1),[42],.lcomment,false,[],false⟩,false,false,[],some 4,some ⟨.code,[47],.lcode,false,[(3,0)],false⟩,some ([(42,(.other,false))],false),true,false,false,none,false,⟨.lcomment,some .internalNl,false,.lblank⟩⟩] (.node .leaf 1182343267 [⟨⟨(.inside 1),[42],.lcomment,false,[],false⟩,false,false,[],some 4,some ⟨.code,[47],.lcode,false,[(3,1)],false⟩,some ([(42,(.other,false))],false),true,false,false,none,false,⟨.lcomment,some .internalNl,false,.lblank⟩⟩] .leaf))) 1187248208 [⟨⟨(.inside 1),[42],.lblank,false,[],false⟩,false,false,[],some 4,some ⟨.code,[47],.lcode,false,[],false⟩,some ([(42,(.other,false))],false),true,false,false,none,false,⟨.lcomment,some .internalNl,false,.lblank⟩⟩] (.node (.node (.node (.node .leaf 1188457076 [⟨⟨(.inside 1),[42],.lblank,false,[],false⟩,false,false,[],some 4,some ⟨.code,[47],.lcomment,false,[],false⟩,some ([(42,(.other,false))],false),true,false,false,none,false,⟨.lcomment,some .internalNl,false,.lblank⟩⟩] .leaf) 1189665944 [⟨⟨(.inside 1),[42],.lblank,false,[],false⟩,false,false,[],some 4,some ⟨.code,[47],.lblank,false,[],false⟩,some ([(42,(.other,false))],false),true,false,false,none,false,⟨.lcomment,some .internalNl,false,.lblank⟩⟩] .leaf) 1201655423 [⟨⟨(.inside 1),[42],.lblank,false,[],false⟩,false,false,[],some 4,some ⟨.code,[47],.lcode,false,[(2,0)],false⟩,some ([(42,(.other,false))],false),true,false,false,none,false,⟨.lcomment,some .internalNl,false,.lblank⟩⟩] (.node .leaf 1201656192 [⟨⟨(.inside 1),[42],.lblank,false,[],false⟩,false,false,[],some 4,some ⟨.code,[47],.lcode,false,[(2,1)],false⟩,some ([(42,(.other,false))],false),true,false,false,none,false,⟨.lcomment,some .internalNl,false,.lblank⟩⟩] .leaf)) 1201660806 [⟨⟨(.inside 1),[42],.lblank,false,[],false⟩,false,false,[],some 4,some ⟨.code,[47],.lcode,false,[(3,0)],false⟩,some ([(42,(.other,false))],false),true,false,false,none,false,⟨.lcomment,some .internalNl,false,.lblank⟩⟩] (.node (.node (.node .leaf 1201661575 [⟨⟨(.inside 1),[42],.lblank,false,[],false⟩,false,false,[],some 4,some ⟨.code,[47],.lcode,false,[(3,1)],false⟩,some ([(42,(.other,false))],false),true,false,false,none,false,⟨.lcomment,some .internalNl,false,.lblank⟩⟩] .leaf) 3069687663 [⟨⟨(.inside 1),[42],.lcomment,false,[],false⟩,false,false,[],some 4,some ⟨.code,[47],.lcode,false,[(2,0),(3,0)],false⟩,some ([(42,(.other,false))],false),true,false,false,none,false,⟨.lcomment,some .internalNl,false,.lblank⟩⟩] .leaf) 3069789171 [⟨⟨(.inside 1),[42],.lcomment,false,[],false⟩,false,false,[],some 4,some ⟨.code,[47],.lcode,false,[(2,1),(3,1)],false⟩,some ([(42,(.other,false))],false),true,false,false,none,false,⟨.lcomment,some .internalNl,false,.lblank⟩⟩] (.node .leaf 3070387453 [⟨⟨(.inside 1),[42],.lcomment,false,[],false⟩,false,false,[],some 4,some ⟨.code,[47],.lcode,false,[(3,0),(2,0)],false⟩,some ([(42,(.other,false))],false),true,false,false,none,false,⟨.lcomment,some .internalNl,false,.lblank⟩⟩] .leaf)))) 3070488961 [⟨⟨(.inside 1),[42],.lcomment,false,[],false⟩,false,false,[],some 4,some ⟨.code,[47],.lcode,false,[(3,1),(2,1)],false⟩,some ([(42,(.other,false))],false),true,false,false,none,false,⟨.lcomment,some .internalNl,false,.lblank⟩⟩] (.node (.node (.node (.node (.node .leaf 3089005971 [⟨⟨(.inside 1),[42],.lblank,false,[],false⟩,false,false,[],some 4,some ⟨.code,[47],.lcode,false,[(2,0),(3,0)],false⟩,some ([(42,(.other,false))],false),true,false,false,none,false,⟨.lcomment,some .internalNl,false,.lblank⟩⟩] .leaf) 3089107479 [⟨⟨(.inside 1),[42],.lblank,false,[],false⟩,false,false,[],some 4,some ⟨.code,[47],.lcode,false,[(2,1),(3,1)],false⟩,some ([(42,(.other,false))],false),true,false,false,none,false,⟨.lcomment,some .internalNl,false,.lblank⟩⟩] .leaf) 3089705761 [⟨⟨(.inside 1),[42],.lblank,false,[],false⟩,false,false,[],some 4,some ⟨.code,[47],.lcode,false,[(3,0),(2,0)],false⟩,some ([(42,(.other,false))],false),true,false,false,none,false,⟨.lcomment,some .internalNl,false,.lblank⟩⟩] (.node (.node .leaf 3089807269 [⟨⟨(.inside 1),[42],.lblank,false,[],false⟩,false,false,[],some 4,some ⟨.code,[47],.lcode,false,[(3,1),(2,1)],false⟩,some ([(42,(.other,false))],false),true,false,false,none,false,⟨.lcomment,some .internalNl,false,.lblank⟩⟩] .leaf) 71687930272 [⟨⟨(.inside 1),[42],.lcode,false,[(2,0)],false⟩,false,false,[],some 4,some ⟨.code,[47],.lcode,false,[(2,0)],false⟩,some ([(42,(.other,false))],false),false,false,false,none,false,⟨.lcode,some (.own 3),false,.lblank⟩⟩] .leaf)) 71687931041 [⟨⟨(.inside 1),[42],.lcode,false,[(2,0)],false⟩,false,false,[],some 4,some ⟨.code,[47],.lcode,false,[(2,1)],false⟩,some ([(42,(.other,false))],false),false,false,false,none,false,⟨.lcode,some (.own 3),false,.lblank⟩⟩] (.node (.node (.node .leaf 71687942561 [⟨⟨(.inside 1),[42],.lcode,false,[(2,1)],false⟩,false,false,[],some 4,some ⟨.code,[47],.lcode,false,[(2,0)],false⟩,some ([(42,(.other,false))],false),false,false,false,none,false,⟨.lcode,some (.own 3),false,.lblank⟩⟩] .leaf) 71687943330 [⟨⟨(.inside 1),[42],.lcode,false,[(2,1)],false⟩,false,false,[],some 4,some ⟨.code,[47],.lcode,false,[(2,1)],false⟩,some ([(42,(.other,false))],false),false,false,false,none,false,⟨.lcode,some (.own 3),false,.lblank⟩⟩] .leaf) 71688021678 [⟨⟨(.inside 1),[42],.lcode,false,[(3,0)],false⟩,false,false,[],some 4,some ⟨.code,[47],.lcode,false,[(3,0)],false⟩,some ([(42,(.other,false))],false),false,false,false,none,false,⟨.lcode,some (.own 3),false,.lblank⟩⟩] (.node .leaf 71688022447 [⟨⟨(.inside 1),[42],.lcode,false,[(3,0)],false⟩,false,false,[],some 4,some ⟨.code,[47],.lcode,false,[(3,1)],false⟩,some ([(42,(.other,false))],false),false,false,false,none,false,⟨.lcode,some (.own 3),false,.lblank⟩⟩] .leaf))) 71688033967 [⟨⟨(.inside 1),[42],.lcode,false,[(3,1)],false⟩,false,false,[],some 4,some ⟨.code,[47],.lcode,false,[(3,0)],false⟩,some ([(42,(.other,false))],false),false,false,false,none,false,⟨.lcode,some (.own 3),false,.lblank⟩⟩] (.node (.node (.node (.node .leaf 71688034736 [⟨⟨(.inside 1),[42],.lcode,false,[(3,1)],false⟩,false,false,[],some 4,some ⟨.code,[47],.lcode,false,[(3,1)],false⟩,some ([(42,(.other,false))],false),false,false,false,none,false,⟨.lcode,some (.own 3),false,.lblank⟩⟩] .leaf) 9312338836878 [⟨⟨(.inside 1),[42],.lcode,false,[(2,0),(3,0)],false⟩,false,false,[],some 4,some ⟨.code,[47],.lcode,false,[(2,0),(3,0)],false⟩,some ([(42,(.other,false))],false),false,false,false,none,false,⟨.lcode,some (.own 3),false,.lblank⟩⟩] .leaf) 9312338938386 [⟨⟨(.inside 1),[42],.lcode,false,[(2,0),(3,0)],false⟩,false,false,[],some 4,some ⟨.code,[47],.lcode,false,[(2,1),(3,1)],false⟩,some ([(42,(.other,false))],false),false,false,false,none,false,⟨.lcode,some (.own 3),false,.lblank⟩⟩] (.node .leaf 9312340459026 [⟨⟨(.inside 1),[42],.lcode,false,[(2,1),(3,1)],false⟩,false,false,[],some 4,some ⟨.code,[47],.lcode,false,[(2,0),(3,0)],false⟩,some ([(42,(.other,false))],false),false,false,false,none,false,⟨.lcode,some (.own 3),false,.lblank⟩⟩] .leaf)) 9312340560534 [⟨⟨(.inside 1),[42],.lcode,false,[(2,1),(3,1)],false⟩,false,false,[],some 4,some ⟨.code,[47],.lcode,false,[(2,1),(3,1)],false⟩,some ([(42,(.other,false))],false),false,false,false,none,false,⟨.lcode,some (.own 3),false,.lblank⟩⟩] (.node (.node (.node .leaf 9312350719658 [⟨⟨(.inside 1),[42],.lcode,false,[(3,0),(2,0)],false⟩,false,false,[],some 4,some ⟨.code,[47],.lcode,false,[(3,0),(2,0)],false⟩,some ([(42,(.other,false))],false),false,false,false,none,false,⟨.lcode,some (.own 3),false,.lblank⟩⟩] .leaf) 9312350821166 [⟨⟨(.inside 1),[42],.lcode,false,[(3,0),(2,0)],false⟩,false,false,[],some 4,some ⟨.code,[47],.lcode,false,[(3,1),(2,1)],false⟩,some ([(42,(.other,false))],false),false,false,false,none,false,⟨.lcode,some (.own 3),false,.lblank⟩⟩] .leaf) 9312352341806 [⟨⟨(.inside 1),[42],.lcode,false,[(3,1),(2,1)],false⟩,false,false,[],some 4,some ⟨.code,[47],.lcode,false,[(3,0),(2,0)],false⟩,some ([(42,(.other,false))],false),false,false,false,none,false,⟨.lcode,some (.own 3),false,.lblank⟩⟩] (.node .leaf 9312352443314 [⟨⟨(.inside 1),[42],.lcode,false,[(3,1),(2,1)],false⟩,false,false,[],some 4,some ⟨.code,[47],.lcode,false,[(3,1),(2,1)],false⟩,some ([(42,(.other,false))],false),false,false,false,none,false,⟨.lcode,some (.own 3),false,.lblank⟩⟩] .leaf))))),(.node (.node (.node .leaf 1179872 [⟨⟨(.inside 0),[],.lcode,false,[],false⟩,false,false,[],none,none,none,false,false,false,none,false,⟨.lcode,some (.own 3),false,.lblank⟩⟩] .leaf) 1327852 [⟨⟨(.inside 0),[],.lcomment,false,[],false⟩,false,false,[],none,none,none,false,false,false,none,false,⟨.lcomment,some .internalNl,false,.lblank⟩⟩,⟨⟨(.inside 0),[],.lcomment,false,[],false⟩,false,false,[],none,none,none,false,false,false,none,false,⟨.lcomment,some (.own 3),false,.lblank⟩⟩] (.node .leaf 154730927 [⟨⟨(.inside 0),[],.lcode,false,[(2,0)],false⟩,false,false,[],none,none,none,false,false,false,none,false,⟨.lcode,some (.own 3),false,.lblank⟩⟩] .leaf)) 154816950 [⟨⟨(.inside 0),[],.lcode,false,[(3,0)],false⟩,false,false,[],none,none,none,false,false,false,none,false,⟨.lcode,some (.own 3),false,.lblank⟩⟩] (.node (.node .leaf 20270005155 [⟨⟨(.inside 0),[],.lcode,false,[(2,0),(3,0)],false⟩,false,false,[],none,none,none,false,false,false,none,false,⟨.lcode,some (.own 3),false,.lblank⟩⟩] .leaf) 20281188145 [⟨⟨(.inside 0),[],.lcode,false,[(3,0),(2,0)],false⟩,false,false,[],none,none,none,false,false,false,none,false,⟨.lcode,some (.own 3),false,.lblank⟩⟩] .leaf)),(.node (.node (.node .leaf 1179872 [⟨⟨(.inside 0),[],.lcode,false,[],false⟩,false,false,[],none,none,none,false,false,false,none,false,⟨.lcode,some (.own 3),false,.lblank⟩⟩] .leaf) 1327852 [⟨⟨(.inside 0),[],.lcomment,false,[],false⟩,false,false,[],none,none,none,false,false,false,none,false,⟨.lcomment,some .internalNl,false,.lblank⟩⟩,⟨⟨(.inside 0),[],.lcomment,false,[],false⟩,false,false,[],none,none,none,false,false,false,none,false,⟨.lcomment,some (.own 3),false,.lblank⟩⟩] (.node .leaf 1475832 [⟨⟨(.inside 0),[],.lblank,false,[],false⟩,false,false,[],none,none,none,false,false,false,none,false,⟨.lblank,some .internalNl,false,.lblank⟩⟩] .leaf)) 154730927 [⟨⟨(.inside 0),[],.lcode,false,[(2,0)],false⟩,false,false,[],none,none,none,false,false,false,none,false,⟨.lcode,some (.own 3),false,.lblank⟩⟩] (.node (.node .leaf 154816950 [⟨⟨(.inside 0),[],.lcode,false,[(3,0)],false⟩,false,false,[],none,none,none,false,false,false,none,false,⟨.lcode,some (.own 3),false,.lblank⟩⟩] .leaf) 20270005155 [⟨⟨(.inside 0),[],.lcode,false,[(2,0),(3,0)],false⟩,false,false,[],none,none,none,false,false,false,none,false,⟨.lcode,some (.own 3),false,.lblank⟩⟩] (.node .leaf 20281188145 [⟨⟨(.inside 0),[],.lcode,false,[(3,0),(2,0)],false⟩,false,false,[],none,none,none,false,false,false,none,false,⟨.lcode,some (.own 3),false,.lblank⟩⟩] .leaf))),(.node (.node (.node (.node .leaf 157975223 [⟨⟨(.inside 0),[92],.lcode,false,[],false⟩,false,false,[],none,none,none,false,false,false,none,false,⟨.lcode,some (.own 3),false,.lblank⟩⟩] .leaf) 177294043 [⟨⟨(.inside 0),[92],.lcomment,false,[],false⟩,false,false,[],none,none,none,false,false,false,none,false,⟨.lcomment,some .internalNl,false,.lblank⟩⟩,⟨⟨(.inside 0),[92],.lcomment,false,[],false⟩,false,false,[],none,none,none,false,false,false,none,false,⟨.lcomment,some (.own 3),false,.lblank⟩⟩] (.node .leaf 196612351 [⟨⟨(.inside 0),[92],.lblank,false,[],false⟩,false,false,[],none,none,none,false,false,false,none,false,⟨.lcomment,some .internalNl,false,.lblank⟩⟩] .leaf)) 351158815 [⟨⟨(.escapedCr 0),[92],.lblank,false,[],false⟩,false,false,[],none,none,none,false,false,false,none,false,⟨.lcomment,some .internalNl,false,.lblank⟩⟩] (.node (.node .leaf 20694921908 [⟨⟨(.inside 0),[92],.lcode,false,[(2,0)],false⟩,false,false,[],none,none,none,false,false,false,none,false,⟨.lcode,some (.own 3),false,.lblank⟩⟩] .leaf) 20694934197 [⟨⟨(.inside 0),[92],.lcode,false,[(2,1)],false⟩,false,false,[],none,none,none,false,false,false,none,false,⟨.lcode,some (.own 3),false,.lblank⟩⟩] .leaf)) 20695007931 [⟨⟨(.inside 0),[92],.lcode,false,[(3,0)],false⟩,false,false,[],none,none,none,false,false,false,none,false,⟨.lcode,some (.own 3),false,.lblank⟩⟩] (.node (.node (.node .leaf 20695020220 [⟨⟨(.inside 0),[92],.lcode,false,[(3,1)],false⟩,false,false,[],none,none,none,false,false,false,none,false,⟨.lcode,some (.own 3),false,.lblank⟩⟩] .leaf) 2711035023666 [⟨⟨(.inside 0),[92],.lcode,false,[(2,0),(3,0)],false⟩,false,false,[],none,none,none,false,false,false,none,false,⟨.lcode,some (.own 3),false,.lblank⟩⟩] .leaf) 2711036645814 [⟨⟨(.inside 0),[92],.lcode,false,[(2,1),(3,1)],false⟩,false,false,[],none,none,none,false,false,false,none,false,⟨.lcode,some (.own 3),false,.lblank⟩⟩] (.node (.node .leaf 2711046206656 [⟨⟨(.inside 0),[92],.lcode,false,[(3,0),(2,0)],false⟩,false,false,[],none,none,none,false,false,false,none,false,⟨.lcode,some (.own 3),false,.lblank⟩⟩] .leaf) 2711047828804 [⟨⟨(.inside 0),[92],.lcode,false,[(3,1),(2,1)],false⟩,false,false,[],none,none,none,false,false,false,none,false,⟨.lcode,some (.own 3),false,.lblank⟩⟩] .leaf))),(.node (.node (.node (.node (.node (.node .leaf 610279138 [⟨⟨(.inside 1),[],.lcode,true,[],false⟩,false,false,[],some 4,some ⟨.code,[47],.lcode,false,[],false⟩,some ([(42,(.other,false))],false),false,false,false,none,false,⟨.lcode,some (.own 3),false,.lblank⟩⟩] .leaf) 610427126 [⟨⟨(.inside 1),[],.lcomment,true,[],false⟩,false,false,[],some 4,some ⟨.code,[47],.lcode,false,[],false⟩,some ([(42,(.other,false))],false),true,false,false,none,false,⟨.lcomment,some .internalNl,false,.lblank⟩⟩] .leaf) 610575106 [⟨⟨(.inside 1),[],.lblank,true,[],false⟩,false,false,[],some 4,some ⟨.code,[47],.lcode,false,[],false⟩,some ([(42,(.other,false))],false),true,false,false,none,false,⟨.lblank,some .internalNl,false,.lblank⟩⟩] (.node .leaf 611635986 [⟨⟨(.inside 1),[],.lcomment,true,[],false⟩,false,false,[],some 4,some ⟨.code,[47],.lcomment,false,[],false⟩,some ([(42,(.other,false))],false),false,false,false,none,false,⟨.lcomment,some (.own 3),false,.lblank⟩⟩] .leaf)) 611635994 [⟨⟨(.inside 1),[],.lcomment,true,[],false⟩,false,false,[],some 4,some ⟨.code,[47],.lcomment,false,[],false⟩,some ([(42,(.other,false))],false),true,false,false,none,false,⟨.lcomment,some .internalNl,false,.lblank⟩⟩] (.node (.node .leaf 611783974 [⟨⟨(.inside 1),[],.lblank,true,[],false⟩,false,false,[],some 4,some ⟨.code,[47],.lcomment,false,[],false⟩,some ([(42,(.other,false))],false),true,false,false,none,false,⟨.lblank,some .internalNl,false,.lblank⟩⟩] .leaf) 612844854 [⟨⟨(.inside 1),[],.lcomment,true,[],false⟩,false,false,[],some 4,some ⟨.code,[47],.lblank,false,[],false⟩,some ([(42,(.other,false))],false),false,false,false,none,false,⟨.lcomment,some (.own 3),false,.lblank⟩⟩] (.node .leaf 612844862 [⟨⟨(.inside 1),[],.lcomment,true,[],false⟩,false,false,[],some 4,some ⟨.code,[47],.lblank,false,[],false⟩,some ([(42,(.other,false))],false),true,false,false,none,false,⟨.lcomment,some .internalNl,false,.lblank⟩⟩] .leaf))) 612992842 [⟨⟨(.inside 1),[],.lblank,true,[],false⟩,false,false,[],some 4,some ⟨.code,[47],.lblank,false,[],false⟩,some ([(42,(.other,false))],false),true,false,false,none,false,⟨.lblank,some .internalNl,false,.lblank⟩⟩] (.node (.node (.node .leaf 624686353 [⟨⟨(.inside 1),[],.lcode,true,[],false⟩,false,false,[],some 4,some ⟨.code,[47],.lcode,false,[(2,0)],false⟩,some ([(42,(.other,false))],false),false,false,false,none,false,⟨.lcode,some (.own 3),false,.lblank⟩⟩] .leaf) 624687122 [⟨⟨(.inside 1),[],.lcode,true,[],false⟩,false,false,[],some 4,some ⟨.code,[47],.lcode,false,[(2,1)],false⟩,some ([(42,(.other,false))],false),false,false,false,none,false,⟨.lcode,some (.own 3),false,.lblank⟩⟩] (.node .leaf 624691736 [⟨⟨(.inside 1),[],.lcode,true,[],false⟩,false,false,[],some 4,some ⟨.code,[47],.lcode,false,[(3,0)],false⟩,some ([(42,(.other,false))],false),false,false,false,none,false,⟨.lcode,some (.own 3),false,.lblank⟩⟩] .leaf)) 624692505 [⟨⟨(.inside 1),[],.lcode,true,[],false⟩,false,false,[],some 4,some ⟨.code,[47],.lcode,false,[(3,1)],false⟩,some ([(42,(.other,false))],false),false,false,false,none,false,⟨.lcode,some (.own 3),false,.lblank⟩⟩] (.node (.node .leaf 624834341 [⟨⟨(.inside 1),[],.lcomment,true,[],false⟩,false,false,[],some 4,some ⟨.code,[47],.lcode,false,[(2,0)],false⟩,some ([(42,(.other,false))],false),true,false,false,none,false,⟨.lcomment,some .internalNl,false,.lblank⟩⟩] .leaf) 624835110 [⟨⟨(.inside 1),[],.lcomment,true,[],false⟩,false,false,[],some 4,some ⟨.code,[47],.lcode,false,[(2,1)],false⟩,some ([(42,(.other,false))],false),true,false,false,none,false,⟨.lcomment,some .internalNl,false,.lblank⟩⟩] (.node .leaf 624839724 [⟨⟨(.inside 1),[],.lcomment,true,[],false⟩,false,false,[],some 4,some ⟨.code,[47],.lcode,false,[(3,0)],false⟩,some ([(42,(.other,false))],false),true,false,false,none,false,⟨.lcomment,some .internalNl,false,.lblank⟩⟩] .leaf)))) 624840493 [⟨⟨(.inside 1),[],.lcomment,true,[],false⟩,false,false,[],some 4,some ⟨.code,[47],.lcode,false,[(3,1)],false⟩,some ([(42,(.other,false))],false),true,false,false,none,false,⟨.lcomment,some .internalNl,false,.lblank⟩⟩] (.node (.node (.node (.node (.node .leaf 624982321 [⟨⟨(.inside 1),[],.lblank,true,[],false⟩,false,false,[],some 4,some ⟨.code,[47],.lcode,false,[(2,0)],false⟩,some ([(42,(.other,false))],false),true,false,false,none,false,⟨.lblank,some .internalNl,false,.lblank⟩⟩] .leaf) 624983090 [⟨⟨(.inside 1),[],.lblank,true,[],false⟩,false,false,[],some 4,some ⟨.code,[47],.lcode,false,[(2,1)],false⟩,some ([(42,(.other,false))],false),true,false,false,none,false,⟨.lblank,some .internalNl,false,.lblank⟩⟩] .leaf) 624987704 [⟨⟨(.inside 1),[],.lblank,true,[],false⟩,false,false,[],some 4,some ⟨.code,[47],.lcode,false,[(3,0)],false⟩,some ([(42,(.other,false))],false),true,false,false,none,false,⟨.lblank,some .internalNl,false,.lblank⟩⟩] (.node .leaf 624988473 [⟨⟨(.inside 1),[],.lblank,true,[],false⟩,false,false,[],some 4,some ⟨.code,[47],.lcode,false,[(3,1)],false⟩,some ([(42,(.other,false))],false),true,false,false,none,false,⟨.lblank,some .internalNl,false,.lblank⟩⟩] .leaf)) 2512036901 [⟨⟨(.inside 1),[],.lcode,true,[],false⟩,false,false,[],some 4,some ⟨.code,[47],.lcode,false,[(2,0),(3,0)],false⟩,some ([(42,(.other,false))],false),false,false,false,none,false,⟨.lcode,some (.own 3),false,.lblank⟩⟩] (.node (.node .leaf 2512138409 [⟨⟨(.inside 1),[],.lcode,true,[],false⟩,false,false,[],some 4,some ⟨.code,[47],.lcode,false,[(2,1),(3,1)],false⟩,some ([(42,(.other,false))],false),false,false,false,none,false,⟨.lcode,some (.own 3),false,.lblank⟩⟩] .leaf) 2512184889 [⟨⟨(.inside 1),[],.lcomment,true,[],false⟩,false,false,[],some 4,some ⟨.code,[47],.lcode,false,[(2,0),(3,0)],false⟩,some ([(42,(.other,false))],false),true,false,false,none,false,⟨.lcomment,some .internalNl,false,.lblank⟩⟩] (.node .leaf 2512286397 [⟨⟨(.inside 1),[],.lcomment,true,[],false⟩,false,false,[],some 4,some ⟨.code,[47],.lcode,false,[(2,1),(3,1)],false⟩,some ([(42,(.other,false))],false),true,false,false,none,false,⟨.lcomment,some .internalNl,false,.lblank⟩⟩] .leaf))) 2512332869 [⟨⟨(.inside 1),[],.lblank,true,[],false⟩,false,false,[],some 4,some ⟨.code,[47],.lcode,false,[(2,0),(3,0)],false⟩,some ([(42,(.other,false))],false),true,false,false,none,false,⟨.lblank,some .internalNl,false,.lblank⟩⟩] (.node (.node (.node .leaf 2512434377 [⟨⟨(.inside 1),[],.lblank,true,[],false⟩,false,false,[],some 4,some ⟨.code,[47],.lcode,false,[(2,1),(3,1)],false⟩,some ([(42,(.other,false))],false),true,false,false,none,false,⟨.lblank,some .internalNl,false,.lblank⟩⟩] .leaf) 2512736691 [⟨⟨(.inside 1),[],.lcode,true,[],false⟩,false,false,[],some 4,some ⟨.code,[47],.lcode,false,[(3,0),(2,0)],false⟩,some ([(42,(.other,false))],false),false,false,false,none,false,⟨.lcode,some (.own 3),false,.lblank⟩⟩] (.node .leaf 2512838199 [⟨⟨(.inside 1),[],.lcode,true,[],false⟩,false,false,[],some 4,some ⟨.code,[47],.lcode,false,[(3,1),(2,1)],false⟩,some ([(42,(.other,false))],false),false,false,false,none,false,⟨.lcode,some (.own 3),false,.lblank⟩⟩] .leaf)) 2512884679 [⟨⟨(.inside 1),[],.lcomment,true,[],false⟩,false,false,[],some 4,some ⟨.code,[47],.lcode,false,[(3,0),(2,0)],false⟩,some ([(42,(.other,false))],false),true,false,false,none,false,⟨.lcomment,some .internalNl,false,.lblank⟩⟩] (.node (.node .leaf 2512986187 [⟨⟨(.inside 1),[],.lcomment,true,[],false⟩,false,false,[],some 4,some ⟨.code,[47],.lcode,false,[(3,1),(2,1)],false⟩,some ([(42,(.other,false))],false),true,false,false,none,false,⟨.lcomment,some .internalNl,false,.lblank⟩⟩] .leaf) 2513032659 [⟨⟨(.inside 1),[],.lblank,true,[],false⟩,false,false,[],some 4,some ⟨.code,[47],.lcode,false,[(3,0),(2,0)],false⟩,some ([(42,(.other,false))],false),true,false,false,none,false,⟨.lblank,some .internalNl,false,.lblank⟩⟩] (.node .leaf 2513134167 [⟨⟨(.inside 1),[],.lblank,true,[],false⟩,false,false,[],some 4,some ⟨.code,[47],.lcode,false,[(3,1),(2,1)],false⟩,some ([(42,(.other,false))],false),true,false,false,none,false,⟨.lblank,some .internalNl,false,.lblank⟩⟩] .leaf))))),.leaf,(.node (.node .leaf 1216739 [⟨⟨(.inside 0),[],.lcode,true,[],false⟩,false,false,[],none,none,none,false,false,false,none,false,⟨.lcode,some (.own 3),false,.lblank⟩⟩] .leaf) 1364719 [⟨⟨(.inside 0),[],.lcomment,true,[],false⟩,false,false,[],none,none,none,false,false,false,none,false,⟨.lcomment,some (.own 3),false,.lblank⟩⟩,⟨⟨(.inside 0),[],.lcomment,true,[],false⟩,false,false,[],none,none,none,false,false,false,none,false,⟨.lcomment,some .internalNl,false,.lblank⟩⟩] .leaf),(.node (.node .leaf 1216739 [⟨⟨(.inside 0),[],.lcode,true,[],false⟩,false,false,[],none,none,none,false,false,false,none,false,⟨.lcode,some (.own 3),false,.lblank⟩⟩] .leaf) 1364719 [⟨⟨(.inside 0),[],.lcomment,true,[],false⟩,false,false,[],none,none,none,false,false,false,none,false,⟨.lcomment,some (.own 3),false,.lblank⟩⟩,⟨⟨(.inside 0),[],.lcomment,true,[],false⟩,false,false,[],none,none,none,false,false,false,none,false,⟨.lcomment,some .internalNl,false,.lblank⟩⟩] .leaf),(.node (.node (.node (.node .leaf 560246981 [⟨⟨(.escapedCr 0),[],.lcode,false,[],false⟩,true,false,[],some 1,some ⟨(.inside 0),[92],.lcode,false,[],false⟩,some ([(13,(.cr,false))],false),false,false,false,none,false,⟨.lcode,some (.own 3),false,.lblank⟩⟩] .leaf) 561603829 [⟨⟨(.escapedCr 0),[],.lcomment,false,[],false⟩,true,false,[],some 1,some ⟨(.inside 0),[92],.lcomment,false,[],false⟩,some ([(13,(.cr,false))],false),false,false,false,none,false,⟨.lcomment,some .internalNl,false,.lblank⟩⟩,⟨⟨(.escapedCr 0),[],.lcomment,false,[],false⟩,true,false,[],some 1,some ⟨(.inside 0),[92],.lcomment,false,[],false⟩,some ([(13,(.cr,false))],false),false,false,false,none,false,⟨.lcomment,some (.own 3),false,.lblank⟩⟩] (.node .leaf 562812697 [⟨⟨(.escapedCr 0),[],.lcomment,false,[],false⟩,true,false,[],some 1,some ⟨(.inside 0),[92],.lblank,false,[],false⟩,some ([(13,(.cr,false))],false),false,false,false,none,false,⟨.lcomment,some .internalNl,false,.lblank⟩⟩] .leaf)) 572483641 [⟨⟨(.escapedCr 0),[],.lcomment,false,[],false⟩,true,false,[],some 1,some ⟨(.escapedCr 0),[92],.lblank,false,[],false⟩,some ([(13,(.cr,false))],false),false,false,false,none,false,⟨.lcomment,some .internalNl,false,.lblank⟩⟩] (.node (.node .leaf 1845372866 [⟨⟨(.escapedCr 0),[],.lcode,false,[],false⟩,true,false,[],some 1,some ⟨(.inside 0),[92],.lcode,false,[(2,0)],false⟩,some ([(13,(.cr,false))],false),false,false,false,none,false,⟨.lcode,some (.own 3),false,.lblank⟩⟩] .leaf) 1845373635 [⟨⟨(.escapedCr 0),[],.lcode,false,[],false⟩,true,false,[],some 1,some ⟨(.inside 0),[92],.lcode,false,[(2,1)],false⟩,some ([(13,(.cr,false))],false),false,false,false,none,false,⟨.lcode,some (.own 3),false,.lblank⟩⟩] .leaf)) 1845378249 [⟨⟨(.escapedCr 0),[],.lcode,false,[],false⟩,true,false,[],some 1,some ⟨(.inside 0),[92],.lcode,false,[(3,0)],false⟩,some ([(13,(.cr,false))],false),false,false,false,none,false,⟨.lcode,some (.own 3),false,.lblank⟩⟩] (.node (.node (.node .leaf 1845379018 [⟨⟨(.escapedCr 0),[],.lcode,false,[],false⟩,true,false,[],some 1,some ⟨(.inside 0),[92],.lcode,false,[(3,1)],false⟩,some ([(13,(.cr,false))],false),false,false,false,none,false,⟨.lcode,some (.own 3),false,.lblank⟩⟩] .leaf) 170196869184 [⟨⟨(.escapedCr 0),[],.lcode,false,[],false⟩,true,false,[],some 1,some ⟨(.inside 0),[92],.lcode,false,[(2,0),(3,0)],false⟩,some ([(13,(.cr,false))],false),false,false,false,none,false,⟨.lcode,some (.own 3),false,.lblank⟩⟩] .leaf) 170196970692 [⟨⟨(.escapedCr 0),[],.lcode,false,[],false⟩,true,false,[],some 1,some ⟨(.inside 0),[92],.lcode,false,[(2,1),(3,1)],false⟩,some ([(13,(.cr,false))],false),false,false,false,none,false,⟨.lcode,some (.own 3),false,.lblank⟩⟩] (.node (.node .leaf 170197568974 [⟨⟨(.escapedCr 0),[],.lcode,false,[],false⟩,true,false,[],some 1,some ⟨(.inside 0),[92],.lcode,false,[(3,0),(2,0)],false⟩,some ([(13,(.cr,false))],false),false,false,false,none,false,⟨.lcode,some (.own 3),false,.lblank⟩⟩] .leaf) 170197670482 [⟨⟨(.escapedCr 0),[],.lcode,false,[],false⟩,true,false,[],some 1,some ⟨(.inside 0),[92],.lcode,false,[(3,1),(2,1)],false⟩,some ([(13,(.cr,false))],false),false,false,false,none,false,⟨.lcode,some (.own 3),false,.lblank⟩⟩] .leaf))),(.node (.node .leaf 2396499 [⟨⟨(.escapedCr 0),[],.lcode,true,[],false⟩,false,true,[],none,none,none,false,false,false,none,false,⟨.lcode,some (.own 3),false,.lblank⟩⟩] .leaf) 2544479 [⟨⟨(.escapedCr 0),[],.lcomment,true,[],false⟩,false,true,[],none,none,none,false,false,false,none,false,⟨.lcomment,some (.own 3),false,.lblank⟩⟩,⟨⟨(.escapedCr 0),[],.lcomment,true,[],false⟩,false,true,[],none,none,none,false,false,false,none,false,⟨.lcomment,some .internalNl,false,.lblank⟩⟩] .leaf),(.node (.node .leaf 1216739 [⟨⟨(.inside 0),[],.lcode,true,[],false⟩,false,false,[],none,none,none,false,false,false,none,false,⟨.lcode,some (.own 3),false,.lblank⟩⟩] .leaf) 1364719 [⟨⟨(.inside 0),[],.lcomment,true,[],false⟩,false,false,[],none,none,none,false,false,false,none,false,⟨.lcomment,some (.own 3),false,.lblank⟩⟩,⟨⟨(.inside 0),[],.lcomment,true,[],false⟩,false,false,[],none,none,none,false,false,false,none,false,⟨.lcomment,some .internalNl,false,.lblank⟩⟩] .leaf)]
theorem hx_line_lClosed : CA.closedF hx_line_M hx_line_lex true false hx_line_lfr hx_line_lTab = true := by decide +kernel
def hx_line_L : LCert LexisTable.hx_line hx_line_M := hx_line_lex_eq ▸ ⟨⟨hx_line_lmasks, hx_line_lex.rel, hx_line_lcs, hx_line_lrows, hx_line_lmasksIn, hx_line_lrepOk, hx_line_lrowsOk⟩,
  _, rfl, by decide +kernel, by decide +kernel, true, false, CA.closed_of hx_line_lfrOk hx_line_lClosed⟩
theorem hx_line_L_chk : hx_line_L.chk = true := by
  have : ∀ (l : Lexis) (h : LexisTable.hx_line = l) (C : LCert l hx_line_M), (h ▸ C : LCert LexisTable.hx_line hx_line_M).chk = C.chk := by rintro _ rfl _; rfl
  exact this _ hx_line_lex_eq _

def tex_line_lex : Lexis := [⟨[37],[],.lcomment,false,false,false,true,false,false,true,false,none,false,false,false,false,[]⟩]
theorem tex_line_lex_eq : LexisTable.tex_line = tex_line_lex := by decide +kernel
def tex_line_lmasks : List Nat := [4294967808,137438953472,8192,1024,4096,115792089237316195423570985008687907853269984665640564039457584007908834656767,115792089237316195423570985008687907853269984665640564039457584007913129626623,4951760157141521099596496896]
def tex_line_lcs : List (Nat × Nat) := [(0,115792089237316195423570985008687907853269984665635612279300442486671799206399),(9,4294967808),(10,1024),(11,2048),(12,4096),(13,8192),(37,137438953472),(92,4951760157141521099596496896)]
theorem tex_line_lmasksIn : masksIn tex_line_nfa tex_line_lmasks = true := by decide +kernel
theorem tex_line_lrepOk : repOk tex_line_lmasks tex_line_lcs = true := by decide +kernel
def tex_line_lrows : List Row := [⟨[],none,[],[⟨256,.other,false,some ⟨0,[.setEnt (.own 3)],some 3,true⟩⟩,⟨256,.ws,false,some ⟨1,[.setEnt (.own 0)],some 0,false⟩⟩,⟨256,.lf,false,some ⟨0,[.setEnt .newline],some 2,true⟩⟩,⟨256,.vt,false,none⟩,⟨256,.ff,false,some ⟨0,[.setEnt .newline],some 2,true⟩⟩,⟨256,.cr,false,some ⟨2,[.setEnt .newline],none,false⟩⟩,⟨256,.cr,true,some ⟨3,[.setEnt .newline],some 2,false⟩⟩,⟨37,.other,false,some ⟨4,[.comment,.setEnt (.own 3)],some 1,false⟩⟩,⟨92,.other,false,some ⟨0,[.setEnt (.own 3)],some 3,true⟩⟩]⟩,⟨[0],some 0,[],[⟨256,.other,false,none⟩,⟨256,.ws,false,some ⟨1,[.setEnt (.own 0)],some 0,false⟩⟩,⟨256,.lf,false,none⟩,⟨256,.vt,false,none⟩,⟨256,.ff,false,none⟩,⟨256,.cr,false,none⟩,⟨256,.cr,true,none⟩,⟨37,.other,false,none⟩,⟨92,.other,false,none⟩]⟩,⟨[3],none,[],[⟨256,.other,false,none⟩,⟨256,.ws,false,none⟩,⟨256,.lf,false,some ⟨0,[.setEnt .newline],some 2,true⟩⟩,⟨256,.vt,false,none⟩,⟨256,.ff,false,none⟩,⟨256,.cr,false,none⟩,⟨256,.cr,true,none⟩,⟨37,.other,false,none⟩,⟨92,.other,false,none⟩]⟩,⟨[3,7],some 2,[],[⟨256,.other,false,none⟩,⟨256,.ws,false,none⟩,⟨256,.lf,false,some ⟨0,[.setEnt .newline],some 2,true⟩⟩,⟨256,.vt,false,none⟩,⟨256,.ff,false,none⟩,⟨256,.cr,false,none⟩,⟨256,.cr,true,none⟩,⟨37,.other,false,none⟩,⟨92,.other,false,none⟩]⟩,⟨[1,8],some 1,[],[⟨256,.other,false,some ⟨5,[],some 1,false⟩⟩,⟨256,.ws,false,some ⟨5,[],some 1,false⟩⟩,⟨256,.lf,false,none⟩,⟨256,.vt,false,some ⟨5,[],some 1,false⟩⟩,⟨256,.ff,false,none⟩,⟨256,.cr,false,none⟩,⟨256,.cr,true,none⟩,⟨37,.other,false,some ⟨5,[],some 1,false⟩⟩,⟨92,.other,false,some ⟨5,[],some 1,false⟩⟩]⟩,⟨[2],some 1,[],[⟨256,.other,false,some ⟨5,[],some 1,false⟩⟩,⟨256,.ws,false,some ⟨5,[],some 1,false⟩⟩,⟨256,.lf,false,none⟩,⟨256,.vt,false,some ⟨5,[],some 1,false⟩⟩,⟨256,.ff,false,none⟩,⟨256,.cr,false,none⟩,⟨256,.cr,true,none⟩,⟨37,.other,false,some ⟨5,[],some 1,false⟩⟩,⟨92,.other,false,some ⟨5,[],some 1,false⟩⟩]⟩]
theorem tex_line_lrowsOk : rowsOk tex_line_nfa tex_line_lex.rel (tex_line_lcs.map (·.1)) tex_line_lrows = true := by decide +kernel
def tex_line_lfr : List CA.FRow := [⟨true,none,[],[⟨256,.other,false,false,none,some ([.setEnt (.own 3)],(some 3,true))⟩,⟨9,.ws,false,false,some 1,some ([.setEnt (.own 0)],(some 0,false))⟩,⟨10,.lf,false,true,none,some ([.setEnt .newline],(some 2,true))⟩,⟨11,.vt,false,false,none,none⟩,⟨12,.ff,false,true,none,some ([.setEnt .newline],(some 2,true))⟩,⟨13,.cr,false,false,some 2,some ([.setEnt .newline],(none,false))⟩,⟨13,.cr,true,true,some 3,some ([.setEnt .newline],(some 2,false))⟩,⟨37,.other,false,false,some 4,some ([.comment,.setEnt (.own 3)],(some 1,false))⟩,⟨92,.other,false,false,none,some ([.setEnt (.own 3)],(some 3,true))⟩]⟩,⟨false,some 0,[],[⟨256,.other,false,false,none,none⟩,⟨9,.ws,false,false,some 1,some ([.setEnt (.own 0)],(some 0,false))⟩,⟨10,.lf,false,true,none,none⟩,⟨11,.vt,false,false,none,none⟩,⟨12,.ff,false,true,none,none⟩,⟨13,.cr,false,false,none,none⟩,⟨13,.cr,true,true,none,none⟩,⟨37,.other,false,false,none,none⟩,⟨92,.other,false,false,none,none⟩]⟩,⟨false,none,[],[⟨256,.other,false,false,none,none⟩,⟨9,.ws,false,false,none,none⟩,⟨10,.lf,false,true,none,some ([.setEnt .newline],(some 2,true))⟩,⟨11,.vt,false,false,none,none⟩,⟨12,.ff,false,true,none,none⟩,⟨13,.cr,false,false,none,none⟩,⟨13,.cr,true,true,none,none⟩,⟨37,.other,false,false,none,none⟩,⟨92,.other,false,false,none,none⟩]⟩,⟨false,some 2,[],[⟨256,.other,false,false,none,none⟩,⟨9,.ws,false,false,none,none⟩,⟨10,.lf,false,true,none,some ([.setEnt .newline],(some 2,true))⟩,⟨11,.vt,false,false,none,none⟩,⟨12,.ff,false,true,none,none⟩,⟨13,.cr,false,false,none,none⟩,⟨13,.cr,true,true,none,none⟩,⟨37,.other,false,false,none,none⟩,⟨92,.other,false,false,none,none⟩]⟩,⟨false,some 1,[],[⟨256,.other,false,false,some 5,some ([],(some 1,false))⟩,⟨9,.ws,false,false,some 5,some ([],(some 1,false))⟩,⟨10,.lf,false,true,none,none⟩,⟨11,.vt,false,false,some 5,some ([],(some 1,false))⟩,⟨12,.ff,false,true,none,none⟩,⟨13,.cr,false,false,none,none⟩,⟨13,.cr,true,true,none,none⟩,⟨37,.other,false,false,some 5,some ([],(some 1,false))⟩,⟨92,.other,false,false,some 5,some ([],(some 1,false))⟩]⟩,⟨false,some 1,[],[⟨256,.other,false,false,some 5,some ([],(some 1,false))⟩,⟨9,.ws,false,false,some 5,some ([],(some 1,false))⟩,⟨10,.lf,false,true,none,none⟩,⟨11,.vt,false,false,some 5,some ([],(some 1,false))⟩,⟨12,.ff,false,true,none,none⟩,⟨13,.cr,false,false,none,none⟩,⟨13,.cr,true,true,none,none⟩,⟨37,.other,false,false,some 5,some ([],(some 1,false))⟩,⟨92,.other,false,false,some 5,some ([],(some 1,false))⟩]⟩]
theorem tex_line_lfrOk : tex_line_lrows.map (CA.prep tex_line_lex) = tex_line_lfr := by decide +kernel
def tex_line_lTab : List CT := [(.node (.node (.node (.node .leaf 128 [⟨⟨.code,[],.lcode,false,[],false⟩,false,false,[],none,none,none,false,false,false,none,false,⟨.lcode,none,false,.lblank⟩⟩] .leaf) 38019 [⟨⟨.code,[],.lcode,true,[],false⟩,false,false,[],none,none,none,false,false,false,none,false,⟨.lblank,none,false,.lblank⟩⟩] (.node .leaf 185487 [⟨⟨.code,[],.lcomment,true,[],false⟩,false,false,[],none,none,none,false,false,false,none,false,⟨.lblank,none,false,.lblank⟩⟩] .leaf)) 296088 [⟨⟨.code,[],.lblank,false,[],false⟩,false,false,[],none,none,none,false,false,false,none,false,⟨.lblank,none,false,.lblank⟩⟩] (.node (.node .leaf 332955 [⟨⟨.code,[],.lblank,true,[],false⟩,false,false,[],none,none,none,false,false,false,none,false,⟨.lblank,none,false,.lblank⟩⟩] .leaf) 1179872 [⟨⟨(.inside 0),[],.lcode,false,[],false⟩,false,false,[none],none,none,none,false,false,false,none,false,⟨.lcode,none,false,.lblank⟩⟩] (.node .leaf 1327852 [⟨⟨(.inside 0),[],.lcomment,false,[],false⟩,false,false,[none],none,none,none,false,false,false,none,false,⟨.lcomment,none,false,.lblank⟩⟩] .leaf))) 22179935 [⟨⟨(.inside 0),[],.lcode,false,[],false⟩,false,false,[some (10,(.lf,false))],none,none,none,false,false,false,none,false,⟨.lcode,none,false,.lblank⟩⟩] (.node (.node (.node .leaf 22327915 [⟨⟨(.inside 0),[],.lcomment,false,[],false⟩,false,false,[some (10,(.lf,false))],none,none,none,false,false,false,none,false,⟨.lcomment,none,false,.lblank⟩⟩] .leaf) 26179947 [⟨⟨(.inside 0),[],.lcode,false,[],false⟩,false,false,[some (12,(.ff,false))],none,none,none,false,false,false,none,false,⟨.lcode,none,false,.lblank⟩⟩] (.node .leaf 26327927 [⟨⟨(.inside 0),[],.lcomment,false,[],false⟩,false,false,[some (12,(.ff,false))],none,none,none,false,false,false,none,false,⟨.lcomment,none,false,.lblank⟩⟩] .leaf)) 28179953 [⟨⟨(.inside 0),[],.lcode,false,[],false⟩,false,false,[some (13,(.cr,false))],none,none,none,false,false,false,none,false,⟨.lcode,none,false,.lblank⟩⟩] (.node (.node .leaf 28327933 [⟨⟨(.inside 0),[],.lcomment,false,[],false⟩,false,false,[some (13,(.cr,false))],none,none,none,false,false,false,none,false,⟨.lcomment,none,false,.lblank⟩⟩] .leaf) 29179956 [⟨⟨(.inside 0),[],.lcode,false,[],false⟩,false,false,[some (13,(.cr,true))],none,none,none,false,false,false,none,false,⟨.lcode,none,false,.lblank⟩⟩] (.node .leaf 29327936 [⟨⟨(.inside 0),[],.lcomment,false,[],false⟩,false,false,[some (13,(.cr,true))],none,none,none,false,false,false,none,false,⟨.lcomment,none,false,.lblank⟩⟩] .leaf)))),(.node (.node .leaf 128 [⟨⟨.code,[],.lcode,false,[],false⟩,false,false,[],none,none,none,false,false,false,none,false,⟨.lcode,some (.own 0),false,.lblank⟩⟩] .leaf) 296088 [⟨⟨.code,[],.lblank,false,[],false⟩,false,false,[],none,none,none,false,false,false,none,false,⟨.lblank,some (.own 0),false,.lblank⟩⟩] .leaf),(.node (.node .leaf 160 [⟨⟨.code,[],.lcode,false,[],false⟩,true,false,[],none,none,none,false,false,false,none,false,⟨.lcode,some .newline,false,.lblank⟩⟩] .leaf) 148140 [⟨⟨.code,[],.lcomment,false,[],false⟩,true,false,[],none,none,none,false,false,false,none,false,⟨.lcomment,some .newline,false,.lblank⟩⟩] (.node .leaf 296120 [⟨⟨.code,[],.lblank,false,[],false⟩,true,false,[],none,none,none,false,false,false,none,false,⟨.lblank,some .newline,false,.lblank⟩⟩] .leaf)),(.node (.node .leaf 37011 [⟨⟨.code,[],.lcode,true,[],false⟩,false,true,[],none,none,none,false,false,false,none,false,⟨.lcode,some .newline,false,.lblank⟩⟩] .leaf) 184991 [⟨⟨.code,[],.lcomment,true,[],false⟩,false,true,[],none,none,none,false,false,false,none,false,⟨.lcomment,some .newline,false,.lblank⟩⟩] (.node .leaf 332971 [⟨⟨.code,[],.lblank,true,[],false⟩,false,true,[],none,none,none,false,false,false,none,false,⟨.lblank,some .newline,false,.lblank⟩⟩] .leaf)),(.node (.node .leaf 1179872 [⟨⟨(.inside 0),[],.lcode,false,[],false⟩,false,false,[],none,none,none,false,false,false,none,false,⟨.lcode,some (.own 3),false,.lblank⟩⟩] .leaf) 1327852 [⟨⟨(.inside 0),[],.lcomment,false,[],false⟩,false,false,[],none,none,none,false,false,false,none,false,⟨.lcomment,some (.own 3),false,.lblank⟩⟩] .leaf),(.node (.node .leaf 1179872 [⟨⟨(.inside 0),[],.lcode,false,[],false⟩,false,false,[],none,none,none,false,false,false,none,false,⟨.lcode,some (.own 3),false,.lblank⟩⟩] .leaf) 1327852 [⟨⟨(.inside 0),[],.lcomment,false,[],false⟩,false,false,[],none,none,none,false,false,false,none,false,⟨.lcomment,some (.own 3),false,.lblank⟩⟩] .leaf)]
theorem tex_line_lClosed : CA.closedF tex_line_M tex_line_lex true false tex_line_lfr tex_line_lTab = true := by decide +kernel
def tex_line_L : LCert LexisTable.tex_line tex_line_M := tex_line_lex_eq ▸ ⟨⟨tex_line_lmasks, tex_line_lex.rel, tex_line_lcs, tex_line_lrows, tex_line_lmasksIn, tex_line_lrepOk, tex_line_lrowsOk⟩,
  _, rfl, by decide +kernel, by decide +kernel, true, false, CA.closed_of tex_line_lfrOk tex_line_lClosed⟩
theorem tex_line_L_chk : tex_line_L.chk = true := by
  have : ∀ (l : Lexis) (h : LexisTable.tex_line = l) (C : LCert l tex_line_M), (h ▸ C : LCert LexisTable.tex_line tex_line_M).chk = C.chk := by rintro _ rfl _; rfl
  exact this _ tex_line_lex_eq _

end Ohcount.Cert
