import Verif.Cert.N4
import Verif.Cert.N7
import Verif.Cert.N8
import Verif.Cert.N12
import Verif.RagelLexFast
import Verif.LexisTable

/-! Generated by tools/gen_certs.py. -/

namespace Ohcount.Cert
open Ohcount.Ragel Ohcount.Gram

set_option maxRecDepth 100000
set_option maxHeartbeats 0

def dylan_line_lex : Lexis := [⟨[47,47],[],.lcomment,false,false,false,true,false,false,true,false,none,false,false,false,false,[]⟩,⟨[47,42],[[42,47]],.lcomment,true,false,false,true,false,false,true,false,none,false,false,false,false,[]⟩,⟨[39],[[39]],.lcode,false,true,true,true,false,false,true,false,none,true,false,false,false,[]⟩,⟨[34],[[34]],.lcode,false,true,true,true,false,false,true,false,none,false,false,false,false,[]⟩]
theorem dylan_line_lex_eq : LexisTable.dylan_line = dylan_line_lex := by decide +kernel
def dylan_line_lmasks : List Nat := [4294967808,140737488355328,549755813888,17179869184,8192,1024,4096,115792089237316195423570985008687907853269984665640564039457584007908834656767,115792089237316195423570985008687907853269984665640564039457584007913129626623,4398046511104,115792089237316195423570985008687907853269984665640564039457584007908834658815,115792089237316195423570985008687907853269984665635612279300442486263777315839,4951760157141521099596496896,115792089237316195423570985008687907853269984665635612279300442486796353260543]
def dylan_line_lcs : List (Nat × Nat) := [(0,115792089237316195423570985008687907853269984665635612279300442341106767610367),(9,4294967808),(10,1024),(11,2048),(12,4096),(13,8192),(34,17179869184),(39,549755813888),(42,4398046511104),(47,140737488355328),(92,4951760157141521099596496896)]
theorem dylan_line_lmasksIn : masksIn dylan_line_nfa dylan_line_lmasks = true := by decide +kernel
theorem dylan_line_lrepOk : repOk dylan_line_lmasks dylan_line_lcs = true := by decide +kernel
def dylan_line_lrows : List Row := [⟨[],none,[],[⟨256,.other,false,some ⟨0,[.setEnt (.own 3)],some 4,true⟩⟩,⟨256,.ws,false,some ⟨1,[.setEnt (.own 0)],some 0,false⟩⟩,⟨256,.lf,false,some ⟨0,[.setEnt .newline],some 3,true⟩⟩,⟨256,.vt,false,none⟩,⟨256,.ff,false,some ⟨0,[.setEnt .newline],some 3,true⟩⟩,⟨256,.cr,false,some ⟨2,[.setEnt .newline],none,false⟩⟩,⟨256,.cr,true,some ⟨3,[.setEnt .newline],some 3,false⟩⟩,⟨34,.other,false,some ⟨4,[.code,.setEnt (.own 3)],some 4,false⟩⟩,⟨39,.other,false,some ⟨5,[.code,.setEnt (.own 3)],some 4,false⟩⟩,⟨42,.other,false,some ⟨0,[.setEnt (.own 3)],some 4,true⟩⟩,⟨47,.other,false,some ⟨6,[.setEnt (.own 3)],some 4,false⟩⟩,⟨92,.other,false,some ⟨0,[.setEnt (.own 3)],some 4,true⟩⟩]⟩,⟨[0],some 0,[],[⟨256,.other,false,none⟩,⟨256,.ws,false,some ⟨1,[.setEnt (.own 0)],some 0,false⟩⟩,⟨256,.lf,false,none⟩,⟨256,.vt,false,none⟩,⟨256,.ff,false,none⟩,⟨256,.cr,false,none⟩,⟨256,.cr,true,none⟩,⟨34,.other,false,none⟩,⟨39,.other,false,none⟩,⟨42,.other,false,none⟩,⟨47,.other,false,none⟩,⟨92,.other,false,none⟩]⟩,⟨[25],none,[],[⟨256,.other,false,none⟩,⟨256,.ws,false,none⟩,⟨256,.lf,false,some ⟨0,[.setEnt .newline],some 3,true⟩⟩,⟨256,.vt,false,none⟩,⟨256,.ff,false,none⟩,⟨256,.cr,false,none⟩,⟨256,.cr,true,none⟩,⟨34,.other,false,none⟩,⟨39,.other,false,none⟩,⟨42,.other,false,none⟩,⟨47,.other,false,none⟩,⟨92,.other,false,none⟩]⟩,⟨[25,29],some 3,[],[⟨256,.other,false,none⟩,⟨256,.ws,false,none⟩,⟨256,.lf,false,some ⟨0,[.setEnt .newline],some 3,true⟩⟩,⟨256,.vt,false,none⟩,⟨256,.ff,false,none⟩,⟨256,.cr,false,none⟩,⟨256,.cr,true,none⟩,⟨34,.other,false,none⟩,⟨39,.other,false,none⟩,⟨42,.other,false,none⟩,⟨47,.other,false,none⟩,⟨92,.other,false,none⟩]⟩,⟨[20,30],some 4,[],[⟨256,.other,false,some ⟨7,[],none,false⟩⟩,⟨256,.ws,false,some ⟨7,[],none,false⟩⟩,⟨256,.lf,false,none⟩,⟨256,.vt,false,some ⟨7,[],none,false⟩⟩,⟨256,.ff,false,none⟩,⟨256,.cr,false,none⟩,⟨256,.cr,true,none⟩,⟨34,.other,false,some ⟨0,[],some 2,true⟩⟩,⟨39,.other,false,some ⟨7,[],none,false⟩⟩,⟨42,.other,false,some ⟨7,[],none,false⟩⟩,⟨47,.other,false,some ⟨7,[],none,false⟩⟩,⟨92,.other,false,some ⟨8,[],none,false⟩⟩]⟩,⟨[15,30],some 4,[],[⟨256,.other,false,some ⟨9,[],none,false⟩⟩,⟨256,.ws,false,some ⟨9,[],none,false⟩⟩,⟨256,.lf,false,none⟩,⟨256,.vt,false,some ⟨9,[],none,false⟩⟩,⟨256,.ff,false,none⟩,⟨256,.cr,false,none⟩,⟨256,.cr,true,none⟩,⟨34,.other,false,some ⟨9,[],none,false⟩⟩,⟨39,.other,false,none⟩,⟨42,.other,false,some ⟨9,[],none,false⟩⟩,⟨47,.other,false,some ⟨9,[],none,false⟩⟩,⟨92,.other,false,some ⟨10,[],none,false⟩⟩]⟩,⟨[1,4,30],some 4,[],[⟨256,.other,false,none⟩,⟨256,.ws,false,none⟩,⟨256,.lf,false,none⟩,⟨256,.vt,false,none⟩,⟨256,.ff,false,none⟩,⟨256,.cr,false,none⟩,⟨256,.cr,true,none⟩,⟨34,.other,false,none⟩,⟨39,.other,false,none⟩,⟨42,.other,false,some ⟨11,[.comment],none,false⟩⟩,⟨47,.other,false,some ⟨12,[.comment],some 1,false⟩⟩,⟨92,.other,false,none⟩]⟩,⟨[21],none,[],[⟨256,.other,false,some ⟨7,[],none,false⟩⟩,⟨256,.ws,false,some ⟨7,[],none,false⟩⟩,⟨256,.lf,false,none⟩,⟨256,.vt,false,some ⟨7,[],none,false⟩⟩,⟨256,.ff,false,none⟩,⟨256,.cr,false,none⟩,⟨256,.cr,true,none⟩,⟨34,.other,false,some ⟨0,[],some 2,true⟩⟩,⟨39,.other,false,some ⟨7,[],none,false⟩⟩,⟨42,.other,false,some ⟨7,[],none,false⟩⟩,⟨47,.other,false,some ⟨7,[],none,false⟩⟩,⟨92,.other,false,some ⟨8,[],none,false⟩⟩]⟩,⟨[22],none,[],[⟨256,.other,false,some ⟨13,[],none,false⟩⟩,⟨256,.ws,false,some ⟨13,[],none,false⟩⟩,⟨256,.lf,false,none⟩,⟨256,.vt,false,some ⟨13,[],none,false⟩⟩,⟨256,.ff,false,none⟩,⟨256,.cr,false,none⟩,⟨256,.cr,true,none⟩,⟨34,.other,false,some ⟨13,[],none,false⟩⟩,⟨39,.other,false,some ⟨13,[],none,false⟩⟩,⟨42,.other,false,some ⟨13,[],none,false⟩⟩,⟨47,.other,false,some ⟨13,[],none,false⟩⟩,⟨92,.other,false,some ⟨13,[],none,false⟩⟩]⟩,⟨[16],none,[],[⟨256,.other,false,none⟩,⟨256,.ws,false,none⟩,⟨256,.lf,false,none⟩,⟨256,.vt,false,none⟩,⟨256,.ff,false,none⟩,⟨256,.cr,false,none⟩,⟨256,.cr,true,none⟩,⟨34,.other,false,none⟩,⟨39,.other,false,some ⟨0,[],some 2,true⟩⟩,⟨42,.other,false,none⟩,⟨47,.other,false,none⟩,⟨92,.other,false,none⟩]⟩,⟨[17],none,[],[⟨256,.other,false,some ⟨14,[],none,false⟩⟩,⟨256,.ws,false,some ⟨14,[],none,false⟩⟩,⟨256,.lf,false,none⟩,⟨256,.vt,false,some ⟨14,[],none,false⟩⟩,⟨256,.ff,false,none⟩,⟨256,.cr,false,none⟩,⟨256,.cr,true,none⟩,⟨34,.other,false,some ⟨14,[],none,false⟩⟩,⟨39,.other,false,some ⟨14,[],none,false⟩⟩,⟨42,.other,false,some ⟨14,[],none,false⟩⟩,⟨47,.other,false,some ⟨14,[],none,false⟩⟩,⟨92,.other,false,some ⟨14,[],none,false⟩⟩]⟩,⟨[5],none,[],[⟨256,.other,false,some ⟨15,[.comment],none,false⟩⟩,⟨256,.ws,false,some ⟨16,[],none,false⟩⟩,⟨256,.lf,false,some ⟨17,[],none,false⟩⟩,⟨256,.vt,false,some ⟨15,[.comment],none,false⟩⟩,⟨256,.ff,false,some ⟨18,[],none,false⟩⟩,⟨256,.cr,false,some ⟨19,[],none,false⟩⟩,⟨256,.cr,true,some ⟨20,[],none,false⟩⟩,⟨34,.other,false,some ⟨15,[.comment],none,false⟩⟩,⟨39,.other,false,some ⟨15,[.comment],none,false⟩⟩,⟨42,.other,false,some ⟨21,[.comment],none,false⟩⟩,⟨47,.other,false,some ⟨15,[.comment],none,false⟩⟩,⟨92,.other,false,some ⟨15,[.comment],none,false⟩⟩]⟩,⟨[2],some 1,[],[⟨256,.other,false,some ⟨22,[],some 1,false⟩⟩,⟨256,.ws,false,some ⟨22,[],some 1,false⟩⟩,⟨256,.lf,false,none⟩,⟨256,.vt,false,some ⟨22,[],some 1,false⟩⟩,⟨256,.ff,false,none⟩,⟨256,.cr,false,none⟩,⟨256,.cr,true,none⟩,⟨34,.other,false,some ⟨22,[],some 1,false⟩⟩,⟨39,.other,false,some ⟨22,[],some 1,false⟩⟩,⟨42,.other,false,some ⟨22,[],some 1,false⟩⟩,⟨47,.other,false,some ⟨22,[],some 1,false⟩⟩,⟨92,.other,false,some ⟨22,[],some 1,false⟩⟩]⟩,⟨[23],none,[],[⟨256,.other,false,some ⟨7,[],none,false⟩⟩,⟨256,.ws,false,some ⟨7,[],none,false⟩⟩,⟨256,.lf,false,none⟩,⟨256,.vt,false,some ⟨7,[],none,false⟩⟩,⟨256,.ff,false,none⟩,⟨256,.cr,false,none⟩,⟨256,.cr,true,none⟩,⟨34,.other,false,some ⟨0,[],some 2,true⟩⟩,⟨39,.other,false,some ⟨7,[],none,false⟩⟩,⟨42,.other,false,some ⟨7,[],none,false⟩⟩,⟨47,.other,false,some ⟨7,[],none,false⟩⟩,⟨92,.other,false,some ⟨8,[],none,false⟩⟩]⟩,⟨[18],none,[],[⟨256,.other,false,none⟩,⟨256,.ws,false,none⟩,⟨256,.lf,false,none⟩,⟨256,.vt,false,none⟩,⟨256,.ff,false,none⟩,⟨256,.cr,false,none⟩,⟨256,.cr,true,none⟩,⟨34,.other,false,none⟩,⟨39,.other,false,some ⟨0,[],some 2,true⟩⟩,⟨42,.other,false,none⟩,⟨47,.other,false,none⟩,⟨92,.other,false,none⟩]⟩,⟨[12],none,[],[⟨256,.other,false,some ⟨15,[.comment],none,false⟩⟩,⟨256,.ws,false,some ⟨16,[],none,false⟩⟩,⟨256,.lf,false,some ⟨17,[],none,false⟩⟩,⟨256,.vt,false,some ⟨15,[.comment],none,false⟩⟩,⟨256,.ff,false,some ⟨18,[],none,false⟩⟩,⟨256,.cr,false,some ⟨19,[],none,false⟩⟩,⟨256,.cr,true,some ⟨20,[],none,false⟩⟩,⟨34,.other,false,some ⟨15,[.comment],none,false⟩⟩,⟨39,.other,false,some ⟨15,[.comment],none,false⟩⟩,⟨42,.other,false,some ⟨21,[.comment],none,false⟩⟩,⟨47,.other,false,some ⟨15,[.comment],none,false⟩⟩,⟨92,.other,false,some ⟨15,[.comment],none,false⟩⟩]⟩,⟨[11],none,[],[⟨256,.other,false,some ⟨15,[.comment],none,false⟩⟩,⟨256,.ws,false,some ⟨16,[],none,false⟩⟩,⟨256,.lf,false,some ⟨17,[],none,false⟩⟩,⟨256,.vt,false,some ⟨15,[.comment],none,false⟩⟩,⟨256,.ff,false,some ⟨18,[],none,false⟩⟩,⟨256,.cr,false,some ⟨19,[],none,false⟩⟩,⟨256,.cr,true,some ⟨20,[],none,false⟩⟩,⟨34,.other,false,some ⟨15,[.comment],none,false⟩⟩,⟨39,.other,false,some ⟨15,[.comment],none,false⟩⟩,⟨42,.other,false,some ⟨21,[.comment],none,false⟩⟩,⟨47,.other,false,some ⟨15,[.comment],none,false⟩⟩,⟨92,.other,false,some ⟨15,[.comment],none,false⟩⟩]⟩,⟨[8],none,[],[⟨256,.other,false,some ⟨15,[.setEnt .internalNl,.cb,.comment],none,false⟩⟩,⟨256,.ws,false,some ⟨16,[.setEnt .internalNl,.cb],none,false⟩⟩,⟨256,.lf,false,some ⟨17,[.setEnt .internalNl,.cb],none,false⟩⟩,⟨256,.vt,false,some ⟨15,[.setEnt .internalNl,.cb,.comment],none,false⟩⟩,⟨256,.ff,false,some ⟨18,[.setEnt .internalNl,.cb],none,false⟩⟩,⟨256,.cr,false,some ⟨19,[.setEnt .internalNl,.cb],none,false⟩⟩,⟨256,.cr,true,some ⟨20,[.setEnt .internalNl,.cb],none,false⟩⟩,⟨34,.other,false,some ⟨15,[.setEnt .internalNl,.cb,.comment],none,false⟩⟩,⟨39,.other,false,some ⟨15,[.setEnt .internalNl,.cb,.comment],none,false⟩⟩,⟨42,.other,false,some ⟨21,[.setEnt .internalNl,.cb,.comment],none,false⟩⟩,⟨47,.other,false,some ⟨15,[.setEnt .internalNl,.cb,.comment],none,false⟩⟩,⟨92,.other,false,some ⟨15,[.setEnt .internalNl,.cb,.comment],none,false⟩⟩]⟩,⟨[9],none,[],[⟨256,.other,false,some ⟨15,[.setEnt .internalNl,.cb,.comment],none,false⟩⟩,⟨256,.ws,false,some ⟨16,[.setEnt .internalNl,.cb],none,false⟩⟩,⟨256,.lf,false,some ⟨17,[.setEnt .internalNl,.cb],none,false⟩⟩,⟨256,.vt,false,some ⟨15,[.setEnt .internalNl,.cb,.comment],none,false⟩⟩,⟨256,.ff,false,some ⟨18,[.setEnt .internalNl,.cb],none,false⟩⟩,⟨256,.cr,false,some ⟨19,[.setEnt .internalNl,.cb],none,false⟩⟩,⟨256,.cr,true,some ⟨20,[.setEnt .internalNl,.cb],none,false⟩⟩,⟨34,.other,false,some ⟨15,[.setEnt .internalNl,.cb,.comment],none,false⟩⟩,⟨39,.other,false,some ⟨15,[.setEnt .internalNl,.cb,.comment],none,false⟩⟩,⟨42,.other,false,some ⟨21,[.setEnt .internalNl,.cb,.comment],none,false⟩⟩,⟨47,.other,false,some ⟨15,[.setEnt .internalNl,.cb,.comment],none,false⟩⟩,⟨92,.other,false,some ⟨15,[.setEnt .internalNl,.cb,.comment],none,false⟩⟩]⟩,⟨[6],none,[],[⟨256,.other,false,none⟩,⟨256,.ws,false,none⟩,⟨256,.lf,false,some ⟨23,[],none,false⟩⟩,⟨256,.vt,false,none⟩,⟨256,.ff,false,none⟩,⟨256,.cr,false,none⟩,⟨256,.cr,true,none⟩,⟨34,.other,false,none⟩,⟨39,.other,false,none⟩,⟨42,.other,false,none⟩,⟨47,.other,false,none⟩,⟨92,.other,false,none⟩]⟩,⟨[6,10],none,[],[⟨256,.other,false,some ⟨15,[.setEnt .internalNl,.cb,.comment],none,false⟩⟩,⟨256,.ws,false,some ⟨16,[.setEnt .internalNl,.cb],none,false⟩⟩,⟨256,.lf,false,some ⟨24,[.setEnt .internalNl,.cb],none,false⟩⟩,⟨256,.vt,false,some ⟨15,[.setEnt .internalNl,.cb,.comment],none,false⟩⟩,⟨256,.ff,false,some ⟨18,[.setEnt .internalNl,.cb],none,false⟩⟩,⟨256,.cr,false,some ⟨19,[.setEnt .internalNl,.cb],none,false⟩⟩,⟨256,.cr,true,some ⟨20,[.setEnt .internalNl,.cb],none,false⟩⟩,⟨34,.other,false,some ⟨15,[.setEnt .internalNl,.cb,.comment],none,false⟩⟩,⟨39,.other,false,some ⟨15,[.setEnt .internalNl,.cb,.comment],none,false⟩⟩,⟨42,.other,false,some ⟨21,[.setEnt .internalNl,.cb,.comment],none,false⟩⟩,⟨47,.other,false,some ⟨15,[.setEnt .internalNl,.cb,.comment],none,false⟩⟩,⟨92,.other,false,some ⟨15,[.setEnt .internalNl,.cb,.comment],none,false⟩⟩]⟩,⟨[12,13],none,[],[⟨256,.other,false,some ⟨15,[.comment],none,false⟩⟩,⟨256,.ws,false,some ⟨16,[],none,false⟩⟩,⟨256,.lf,false,some ⟨17,[],none,false⟩⟩,⟨256,.vt,false,some ⟨15,[.comment],none,false⟩⟩,⟨256,.ff,false,some ⟨18,[],none,false⟩⟩,⟨256,.cr,false,some ⟨19,[],none,false⟩⟩,⟨256,.cr,true,some ⟨20,[],none,false⟩⟩,⟨34,.other,false,some ⟨15,[.comment],none,false⟩⟩,⟨39,.other,false,some ⟨15,[.comment],none,false⟩⟩,⟨42,.other,false,some ⟨21,[.comment],none,false⟩⟩,⟨47,.other,false,some ⟨0,[],some 1,true⟩⟩,⟨92,.other,false,some ⟨15,[.comment],none,false⟩⟩]⟩,⟨[3],some 1,[],[⟨256,.other,false,some ⟨22,[],some 1,false⟩⟩,⟨256,.ws,false,some ⟨22,[],some 1,false⟩⟩,⟨256,.lf,false,none⟩,⟨256,.vt,false,some ⟨22,[],some 1,false⟩⟩,⟨256,.ff,false,none⟩,⟨256,.cr,false,none⟩,⟨256,.cr,true,none⟩,⟨34,.other,false,some ⟨22,[],some 1,false⟩⟩,⟨39,.other,false,some ⟨22,[],some 1,false⟩⟩,⟨42,.other,false,some ⟨22,[],some 1,false⟩⟩,⟨47,.other,false,some ⟨22,[],some 1,false⟩⟩,⟨92,.other,false,some ⟨22,[],some 1,false⟩⟩]⟩,⟨[7],none,[],[⟨256,.other,false,some ⟨15,[.setEnt .internalNl,.cb,.comment],none,false⟩⟩,⟨256,.ws,false,some ⟨16,[.setEnt .internalNl,.cb],none,false⟩⟩,⟨256,.lf,false,some ⟨17,[.setEnt .internalNl,.cb],none,false⟩⟩,⟨256,.vt,false,some ⟨15,[.setEnt .internalNl,.cb,.comment],none,false⟩⟩,⟨256,.ff,false,some ⟨18,[.setEnt .internalNl,.cb],none,false⟩⟩,⟨256,.cr,false,some ⟨19,[.setEnt .internalNl,.cb],none,false⟩⟩,⟨256,.cr,true,some ⟨20,[.setEnt .internalNl,.cb],none,false⟩⟩,⟨34,.other,false,some ⟨15,[.setEnt .internalNl,.cb,.comment],none,false⟩⟩,⟨39,.other,false,some ⟨15,[.setEnt .internalNl,.cb,.comment],none,false⟩⟩,⟨42,.other,false,some ⟨21,[.setEnt .internalNl,.cb,.comment],none,false⟩⟩,⟨47,.other,false,some ⟨15,[.setEnt .internalNl,.cb,.comment],none,false⟩⟩,⟨92,.other,false,some ⟨15,[.setEnt .internalNl,.cb,.comment],none,false⟩⟩]⟩,⟨[7,8],none,[],[⟨256,.other,false,some ⟨15,[.setEnt .internalNl,.cb,.comment],none,false⟩⟩,⟨256,.ws,false,some ⟨16,[.setEnt .internalNl,.cb],none,false⟩⟩,⟨256,.lf,false,some ⟨17,[.setEnt .internalNl,.cb],none,false⟩⟩,⟨256,.vt,false,some ⟨15,[.setEnt .internalNl,.cb,.comment],none,false⟩⟩,⟨256,.ff,false,some ⟨18,[.setEnt .internalNl,.cb],none,false⟩⟩,⟨256,.cr,false,some ⟨19,[.setEnt .internalNl,.cb],none,false⟩⟩,⟨256,.cr,true,some ⟨20,[.setEnt .internalNl,.cb],none,false⟩⟩,⟨34,.other,false,some ⟨15,[.setEnt .internalNl,.cb,.comment],none,false⟩⟩,⟨39,.other,false,some ⟨15,[.setEnt .internalNl,.cb,.comment],none,false⟩⟩,⟨42,.other,false,some ⟨21,[.setEnt .internalNl,.cb,.comment],none,false⟩⟩,⟨47,.other,false,some ⟨15,[.setEnt .internalNl,.cb,.comment],none,false⟩⟩,⟨92,.other,false,some ⟨15,[.setEnt .internalNl,.cb,.comment],none,false⟩⟩]⟩]
theorem dylan_line_lrowsOk : rowsOk dylan_line_nfa dylan_line_lex.rel (dylan_line_lcs.map (·.1)) dylan_line_lrows = true := by decide +kernel
def dylan_line_lfr : List CA.FRow := [⟨true,none,[],[⟨256,.other,false,false,none,some ([.setEnt (.own 3)],(some 4,true))⟩,⟨9,.ws,false,false,some 1,some ([.setEnt (.own 0)],(some 0,false))⟩,⟨10,.lf,false,true,none,some ([.setEnt .newline],(some 3,true))⟩,⟨11,.vt,false,false,none,none⟩,⟨12,.ff,false,true,none,some ([.setEnt .newline],(some 3,true))⟩,⟨13,.cr,false,false,some 2,some ([.setEnt .newline],(none,false))⟩,⟨13,.cr,true,true,some 3,some ([.setEnt .newline],(some 3,false))⟩,⟨34,.other,false,false,some 4,some ([.code,.setEnt (.own 3)],(some 4,false))⟩,⟨39,.other,false,false,some 5,some ([.code,.setEnt (.own 3)],(some 4,false))⟩,⟨42,.other,false,false,none,some ([.setEnt (.own 3)],(some 4,true))⟩,⟨47,.other,false,false,some 6,some ([.setEnt (.own 3)],(some 4,false))⟩,⟨92,.other,false,false,none,some ([.setEnt (.own 3)],(some 4,true))⟩]⟩,⟨false,some 0,[],[⟨256,.other,false,false,none,none⟩,⟨9,.ws,false,false,some 1,some ([.setEnt (.own 0)],(some 0,false))⟩,⟨10,.lf,false,true,none,none⟩,⟨11,.vt,false,false,none,none⟩,⟨12,.ff,false,true,none,none⟩,⟨13,.cr,false,false,none,none⟩,⟨13,.cr,true,true,none,none⟩,⟨34,.other,false,false,none,none⟩,⟨39,.other,false,false,none,none⟩,⟨42,.other,false,false,none,none⟩,⟨47,.other,false,false,none,none⟩,⟨92,.other,false,false,none,none⟩]⟩,⟨false,none,[],[⟨256,.other,false,false,none,none⟩,⟨9,.ws,false,false,none,none⟩,⟨10,.lf,false,true,none,some ([.setEnt .newline],(some 3,true))⟩,⟨11,.vt,false,false,none,none⟩,⟨12,.ff,false,true,none,none⟩,⟨13,.cr,false,false,none,none⟩,⟨13,.cr,true,true,none,none⟩,⟨34,.other,false,false,none,none⟩,⟨39,.other,false,false,none,none⟩,⟨42,.other,false,false,none,none⟩,⟨47,.other,false,false,none,none⟩,⟨92,.other,false,false,none,none⟩]⟩,⟨false,some 3,[],[⟨256,.other,false,false,none,none⟩,⟨9,.ws,false,false,none,none⟩,⟨10,.lf,false,true,none,some ([.setEnt .newline],(some 3,true))⟩,⟨11,.vt,false,false,none,none⟩,⟨12,.ff,false,true,none,none⟩,⟨13,.cr,false,false,none,none⟩,⟨13,.cr,true,true,none,none⟩,⟨34,.other,false,false,none,none⟩,⟨39,.other,false,false,none,none⟩,⟨42,.other,false,false,none,none⟩,⟨47,.other,false,false,none,none⟩,⟨92,.other,false,false,none,none⟩]⟩,⟨false,some 4,[],[⟨256,.other,false,false,some 7,some ([],(none,false))⟩,⟨9,.ws,false,false,some 7,some ([],(none,false))⟩,⟨10,.lf,false,true,none,none⟩,⟨11,.vt,false,false,some 7,some ([],(none,false))⟩,⟨12,.ff,false,true,none,none⟩,⟨13,.cr,false,false,none,none⟩,⟨13,.cr,true,true,none,none⟩,⟨34,.other,false,false,none,some ([],(some 2,true))⟩,⟨39,.other,false,false,some 7,some ([],(none,false))⟩,⟨42,.other,false,false,some 7,some ([],(none,false))⟩,⟨47,.other,false,false,some 7,some ([],(none,false))⟩,⟨92,.other,false,false,some 8,some ([],(none,false))⟩]⟩,⟨false,some 4,[],[⟨256,.other,false,false,some 9,some ([],(none,false))⟩,⟨9,.ws,false,false,some 9,some ([],(none,false))⟩,⟨10,.lf,false,true,none,none⟩,⟨11,.vt,false,false,some 9,some ([],(none,false))⟩,⟨12,.ff,false,true,none,none⟩,⟨13,.cr,false,false,none,none⟩,⟨13,.cr,true,true,none,none⟩,⟨34,.other,false,false,some 9,some ([],(none,false))⟩,⟨39,.other,false,false,none,none⟩,⟨42,.other,false,false,some 9,some ([],(none,false))⟩,⟨47,.other,false,false,some 9,some ([],(none,false))⟩,⟨92,.other,false,false,some 10,some ([],(none,false))⟩]⟩,⟨false,some 4,[],[⟨256,.other,false,false,none,none⟩,⟨9,.ws,false,false,none,none⟩,⟨10,.lf,false,true,none,none⟩,⟨11,.vt,false,false,none,none⟩,⟨12,.ff,false,true,none,none⟩,⟨13,.cr,false,false,none,none⟩,⟨13,.cr,true,true,none,none⟩,⟨34,.other,false,false,none,none⟩,⟨39,.other,false,false,none,none⟩,⟨42,.other,false,false,some 11,some ([.comment],(none,false))⟩,⟨47,.other,false,false,some 12,some ([.comment],(some 1,false))⟩,⟨92,.other,false,false,none,none⟩]⟩,⟨false,none,[],[⟨256,.other,false,false,some 7,some ([],(none,false))⟩,⟨9,.ws,false,false,some 7,some ([],(none,false))⟩,⟨10,.lf,false,true,none,none⟩,⟨11,.vt,false,false,some 7,some ([],(none,false))⟩,⟨12,.ff,false,true,none,none⟩,⟨13,.cr,false,false,none,none⟩,⟨13,.cr,true,true,none,none⟩,⟨34,.other,false,false,none,some ([],(some 2,true))⟩,⟨39,.other,false,false,some 7,some ([],(none,false))⟩,⟨42,.other,false,false,some 7,some ([],(none,false))⟩,⟨47,.other,false,false,some 7,some ([],(none,false))⟩,⟨92,.other,false,false,some 8,some ([],(none,false))⟩]⟩,⟨false,none,[],[⟨256,.other,false,false,some 13,some ([],(none,false))⟩,⟨9,.ws,false,false,some 13,some ([],(none,false))⟩,⟨10,.lf,false,true,none,none⟩,⟨11,.vt,false,false,some 13,some ([],(none,false))⟩,⟨12,.ff,false,true,none,none⟩,⟨13,.cr,false,false,none,none⟩,⟨13,.cr,true,true,none,none⟩,⟨34,.other,false,false,some 13,some ([],(none,false))⟩,⟨39,.other,false,false,some 13,some ([],(none,false))⟩,⟨42,.other,false,false,some 13,some ([],(none,false))⟩,⟨47,.other,false,false,some 13,some ([],(none,false))⟩,⟨92,.other,false,false,some 13,some ([],(none,false))⟩]⟩,⟨false,none,[],[⟨256,.other,false,false,none,none⟩,⟨9,.ws,false,false,none,none⟩,⟨10,.lf,false,true,none,none⟩,⟨11,.vt,false,false,none,none⟩,⟨12,.ff,false,true,none,none⟩,⟨13,.cr,false,false,none,none⟩,⟨13,.cr,true,true,none,none⟩,⟨34,.other,false,false,none,none⟩,⟨39,.other,false,false,none,some ([],(some 2,true))⟩,⟨42,.other,false,false,none,none⟩,⟨47,.other,false,false,none,none⟩,⟨92,.other,false,false,none,none⟩]⟩,⟨false,none,[],[⟨256,.other,false,false,some 14,some ([],(none,false))⟩,⟨9,.ws,false,false,some 14,some ([],(none,false))⟩,⟨10,.lf,false,true,none,none⟩,⟨11,.vt,false,false,some 14,some ([],(none,false))⟩,⟨12,.ff,false,true,none,none⟩,⟨13,.cr,false,false,none,none⟩,⟨13,.cr,true,true,none,none⟩,⟨34,.other,false,false,some 14,some ([],(none,false))⟩,⟨39,.other,false,false,some 14,some ([],(none,false))⟩,⟨42,.other,false,false,some 14,some ([],(none,false))⟩,⟨47,.other,false,false,some 14,some ([],(none,false))⟩,⟨92,.other,false,false,some 14,some ([],(none,false))⟩]⟩,⟨false,none,[],[⟨256,.other,false,false,some 15,some ([.comment],(none,false))⟩,⟨9,.ws,false,false,some 16,some ([],(none,false))⟩,⟨10,.lf,false,true,some 17,some ([],(none,false))⟩,⟨11,.vt,false,false,some 15,some ([.comment],(none,false))⟩,⟨12,.ff,false,true,some 18,some ([],(none,false))⟩,⟨13,.cr,false,false,some 19,some ([],(none,false))⟩,⟨13,.cr,true,true,some 20,some ([],(none,false))⟩,⟨34,.other,false,false,some 15,some ([.comment],(none,false))⟩,⟨39,.other,false,false,some 15,some ([.comment],(none,false))⟩,⟨42,.other,false,false,some 21,some ([.comment],(none,false))⟩,⟨47,.other,false,false,some 15,some ([.comment],(none,false))⟩,⟨92,.other,false,false,some 15,some ([.comment],(none,false))⟩]⟩,⟨false,some 1,[],[⟨256,.other,false,false,some 22,some ([],(some 1,false))⟩,⟨9,.ws,false,false,some 22,some ([],(some 1,false))⟩,⟨10,.lf,false,true,none,none⟩,⟨11,.vt,false,false,some 22,some ([],(some 1,false))⟩,⟨12,.ff,false,true,none,none⟩,⟨13,.cr,false,false,none,none⟩,⟨13,.cr,true,true,none,none⟩,⟨34,.other,false,false,some 22,some ([],(some 1,false))⟩,⟨39,.other,false,false,some 22,some ([],(some 1,false))⟩,⟨42,.other,false,false,some 22,some ([],(some 1,false))⟩,⟨47,.other,false,false,some 22,some ([],(some 1,false))⟩,⟨92,.other,false,false,some 22,some ([],(some 1,false))⟩]⟩,⟨false,none,[],[⟨256,.other,false,false,some 7,some ([],(none,false))⟩,⟨9,.ws,false,false,some 7,some ([],(none,false))⟩,⟨10,.lf,false,true,none,none⟩,⟨11,.vt,false,false,some 7,some ([],(none,false))⟩,⟨12,.ff,false,true,none,none⟩,⟨13,.cr,false,false,none,none⟩,⟨13,.cr,true,true,none,none⟩,⟨34,.other,false,false,none,some ([],(some 2,true))⟩,⟨39,.other,false,false,some 7,some ([],(none,false))⟩,⟨42,.other,false,false,some 7,some ([],(none,false))⟩,⟨47,.other,false,false,some 7,some ([],(none,false))⟩,⟨92,.other,false,false,some 8,some ([],(none,false))⟩]⟩,⟨false,none,[],[⟨256,.other,false,false,none,none⟩,⟨9,.ws,false,false,none,none⟩,⟨10,.lf,false,true,none,none⟩,⟨11,.vt,false,false,none,none⟩,⟨12,.ff,false,true,none,none⟩,⟨13,.cr,false,false,none,none⟩,⟨13,.cr,true,true,none,none⟩,⟨34,.other,false,false,none,none⟩,⟨39,.other,false,false,none,some ([],(some 2,true))⟩,⟨42,.other,false,false,none,none⟩,⟨47,.other,false,false,none,none⟩,⟨92,.other,false,false,none,none⟩]⟩,⟨false,none,[],[⟨256,.other,false,false,some 15,some ([.comment],(none,false))⟩,⟨9,.ws,false,false,some 16,some ([],(none,false))⟩,⟨10,.lf,false,true,some 17,some ([],(none,false))⟩,⟨11,.vt,false,false,some 15,some ([.comment],(none,false))⟩,⟨12,.ff,false,true,some 18,some ([],(none,false))⟩,⟨13,.cr,false,false,some 19,some ([],(none,false))⟩,⟨13,.cr,true,true,some 20,some ([],(none,false))⟩,⟨34,.other,false,false,some 15,some ([.comment],(none,false))⟩,⟨39,.other,false,false,some 15,some ([.comment],(none,false))⟩,⟨42,.other,false,false,some 21,some ([.comment],(none,false))⟩,⟨47,.other,false,false,some 15,some ([.comment],(none,false))⟩,⟨92,.other,false,false,some 15,some ([.comment],(none,false))⟩]⟩,⟨false,none,[],[⟨256,.other,false,false,some 15,some ([.comment],(none,false))⟩,⟨9,.ws,false,false,some 16,some ([],(none,false))⟩,⟨10,.lf,false,true,some 17,some ([],(none,false))⟩,⟨11,.vt,false,false,some 15,some ([.comment],(none,false))⟩,⟨12,.ff,false,true,some 18,some ([],(none,false))⟩,⟨13,.cr,false,false,some 19,some ([],(none,false))⟩,⟨13,.cr,true,true,some 20,some ([],(none,false))⟩,⟨34,.other,false,false,some 15,some ([.comment],(none,false))⟩,⟨39,.other,false,false,some 15,some ([.comment],(none,false))⟩,⟨42,.other,false,false,some 21,some ([.comment],(none,false))⟩,⟨47,.other,false,false,some 15,some ([.comment],(none,false))⟩,⟨92,.other,false,false,some 15,some ([.comment],(none,false))⟩]⟩,⟨false,none,[],[⟨256,.other,false,false,some 15,some ([.setEnt .internalNl,.cb,.comment],(none,false))⟩,⟨9,.ws,false,false,some 16,some ([.setEnt .internalNl,.cb],(none,false))⟩,⟨10,.lf,false,true,some 17,some ([.setEnt .internalNl,.cb],(none,false))⟩,⟨11,.vt,false,false,some 15,some ([.setEnt .internalNl,.cb,.comment],(none,false))⟩,⟨12,.ff,false,true,some 18,some ([.setEnt .internalNl,.cb],(none,false))⟩,⟨13,.cr,false,false,some 19,some ([.setEnt .internalNl,.cb],(none,false))⟩,⟨13,.cr,true,true,some 20,some ([.setEnt .internalNl,.cb],(none,false))⟩,⟨34,.other,false,false,some 15,some ([.setEnt .internalNl,.cb,.comment],(none,false))⟩,⟨39,.other,false,false,some 15,some ([.setEnt .internalNl,.cb,.comment],(none,false))⟩,⟨42,.other,false,false,some 21,some ([.setEnt .internalNl,.cb,.comment],(none,false))⟩,⟨47,.other,false,false,some 15,some ([.setEnt .internalNl,.cb,.comment],(none,false))⟩,⟨92,.other,false,false,some 15,some ([.setEnt .internalNl,.cb,.comment],(none,false))⟩]⟩,⟨false,none,[],[⟨256,.other,false,false,some 15,some ([.setEnt .internalNl,.cb,.comment],(none,false))⟩,⟨9,.ws,false,false,some 16,some ([.setEnt .internalNl,.cb],(none,false))⟩,⟨10,.lf,false,true,some 17,some ([.setEnt .internalNl,.cb],(none,false))⟩,⟨11,.vt,false,false,some 15,some ([.setEnt .internalNl,.cb,.comment],(none,false))⟩,⟨12,.ff,false,true,some 18,some ([.setEnt .internalNl,.cb],(none,false))⟩,⟨13,.cr,false,false,some 19,some ([.setEnt .internalNl,.cb],(none,false))⟩,⟨13,.cr,true,true,some 20,some ([.setEnt .internalNl,.cb],(none,false))⟩,⟨34,.other,false,false,some 15,some ([.setEnt .internalNl,.cb,.comment],(none,false))⟩,⟨39,.other,false,false,some 15,some ([.setEnt .internalNl,.cb,.comment],(none,false))⟩,⟨42,.other,false,false,some 21,some ([.setEnt .internalNl,.cb,.comment],(none,false))⟩,⟨47,.other,false,false,some 15,some ([.setEnt .internalNl,.cb,.comment],(none,false))⟩,⟨92,.other,false,false,some 15,some ([.setEnt .internalNl,.cb,.comment],(none,false))⟩]⟩,⟨false,none,[],[⟨256,.other,false,false,none,none⟩,⟨9,.ws,false,false,none,none⟩,⟨10,.lf,false,true,some 23,some ([],(none,false))⟩,⟨11,.vt,false,false,none,none⟩,⟨12,.ff,false,true,none,none⟩,⟨13,.cr,false,false,none,none⟩,⟨13,.cr,true,true,none,none⟩,⟨34,.other,false,false,none,none⟩,⟨39,.other,false,false,none,none⟩,⟨42,.other,false,false,none,none⟩,⟨47,.other,false,false,none,none⟩,⟨92,.other,false,false,none,none⟩]⟩,⟨false,none,[],[⟨256,.other,false,false,some 15,some ([.setEnt .internalNl,.cb,.comment],(none,false))⟩,⟨9,.ws,false,false,some 16,some ([.setEnt .internalNl,.cb],(none,false))⟩,⟨10,.lf,false,true,some 24,some ([.setEnt .internalNl,.cb],(none,false))⟩,⟨11,.vt,false,false,some 15,some ([.setEnt .internalNl,.cb,.comment],(none,false))⟩,⟨12,.ff,false,true,some 18,some ([.setEnt .internalNl,.cb],(none,false))⟩,⟨13,.cr,false,false,some 19,some ([.setEnt .internalNl,.cb],(none,false))⟩,⟨13,.cr,true,true,some 20,some ([.setEnt .internalNl,.cb],(none,false))⟩,⟨34,.other,false,false,some 15,some ([.setEnt .internalNl,.cb,.comment],(none,false))⟩,⟨39,.other,false,false,some 15,some ([.setEnt .internalNl,.cb,.comment],(none,false))⟩,⟨42,.other,false,false,some 21,some ([.setEnt .internalNl,.cb,.comment],(none,false))⟩,⟨47,.other,false,false,some 15,some ([.setEnt .internalNl,.cb,.comment],(none,false))⟩,⟨92,.other,false,false,some 15,some ([.setEnt .internalNl,.cb,.comment],(none,false))⟩]⟩,⟨false,none,[],[⟨256,.other,false,false,some 15,some ([.comment],(none,false))⟩,⟨9,.ws,false,false,some 16,some ([],(none,false))⟩,⟨10,.lf,false,true,some 17,some ([],(none,false))⟩,⟨11,.vt,false,false,some 15,some ([.comment],(none,false))⟩,⟨12,.ff,false,true,some 18,some ([],(none,false))⟩,⟨13,.cr,false,false,some 19,some ([],(none,false))⟩,⟨13,.cr,true,true,some 20,some ([],(none,false))⟩,⟨34,.other,false,false,some 15,some ([.comment],(none,false))⟩,⟨39,.other,false,false,some 15,some ([.comment],(none,false))⟩,⟨42,.other,false,false,some 21,some ([.comment],(none,false))⟩,⟨47,.other,false,false,none,some ([],(some 1,true))⟩,⟨92,.other,false,false,some 15,some ([.comment],(none,false))⟩]⟩,⟨false,some 1,[],[⟨256,.other,false,false,some 22,some ([],(some 1,false))⟩,⟨9,.ws,false,false,some 22,some ([],(some 1,false))⟩,⟨10,.lf,false,true,none,none⟩,⟨11,.vt,false,false,some 22,some ([],(some 1,false))⟩,⟨12,.ff,false,true,none,none⟩,⟨13,.cr,false,false,none,none⟩,⟨13,.cr,true,true,none,none⟩,⟨34,.other,false,false,some 22,some ([],(some 1,false))⟩,⟨39,.other,false,false,some 22,some ([],(some 1,false))⟩,⟨42,.other,false,false,some 22,some ([],(some 1,false))⟩,⟨47,.other,false,false,some 22,some ([],(some 1,false))⟩,⟨92,.other,false,false,some 22,some ([],(some 1,false))⟩]⟩,⟨false,none,[],[⟨256,.other,false,false,some 15,some ([.setEnt .internalNl,.cb,.comment],(none,false))⟩,⟨9,.ws,false,false,some 16,some ([.setEnt .internalNl,.cb],(none,false))⟩,⟨10,.lf,false,true,some 17,some ([.setEnt .internalNl,.cb],(none,false))⟩,⟨11,.vt,false,false,some 15,some ([.setEnt .internalNl,.cb,.comment],(none,false))⟩,⟨12,.ff,false,true,some 18,some ([.setEnt .internalNl,.cb],(none,false))⟩,⟨13,.cr,false,false,some 19,some ([.setEnt .internalNl,.cb],(none,false))⟩,⟨13,.cr,true,true,some 20,some ([.setEnt .internalNl,.cb],(none,false))⟩,⟨34,.other,false,false,some 15,some ([.setEnt .internalNl,.cb,.comment],(none,false))⟩,⟨39,.other,false,false,some 15,some ([.setEnt .internalNl,.cb,.comment],(none,false))⟩,⟨42,.other,false,false,some 21,some ([.setEnt .internalNl,.cb,.comment],(none,false))⟩,⟨47,.other,false,false,some 15,some ([.setEnt .internalNl,.cb,.comment],(none,false))⟩,⟨92,.other,false,false,some 15,some ([.setEnt .internalNl,.cb,.comment],(none,false))⟩]⟩,⟨false,none,[],[⟨256,.other,false,false,some 15,some ([.setEnt .internalNl,.cb,.comment],(none,false))⟩,⟨9,.ws,false,false,some 16,some ([.setEnt .internalNl,.cb],(none,false))⟩,⟨10,.lf,false,true,some 17,some ([.setEnt .internalNl,.cb],(none,false))⟩,⟨11,.vt,false,false,some 15,some ([.setEnt .internalNl,.cb,.comment],(none,false))⟩,⟨12,.ff,false,true,some 18,some ([.setEnt .internalNl,.cb],(none,false))⟩,⟨13,.cr,false,false,some 19,some ([.setEnt .internalNl,.cb],(none,false))⟩,⟨13,.cr,true,true,some 20,some ([.setEnt .internalNl,.cb],(none,false))⟩,⟨34,.other,false,false,some 15,some ([.setEnt .internalNl,.cb,.comment],(none,false))⟩,⟨39,.other,false,false,some 15,some ([.setEnt .internalNl,.cb,.comment],(none,false))⟩,⟨42,.other,false,false,some 21,some ([.setEnt .internalNl,.cb,.comment],(none,false))⟩,⟨47,.other,false,false,some 15,some ([.setEnt .internalNl,.cb,.comment],(none,false))⟩,⟨92,.other,false,false,some 15,some ([.setEnt .internalNl,.cb,.comment],(none,false))⟩]⟩]
theorem dylan_line_lfrOk : dylan_line_lrows.map (CA.prep dylan_line_lex) = dylan_line_lfr := by decide +kernel
def dylan_line_lTab : List CT := [(.node (.node (.node (.node (.node (.node (.node (.node .leaf 128 [⟨⟨.code,[],.lcode,false,[],false⟩,false,false,[],none,none,none,false,false,false,none,false,⟨.lcode,none,false,.lblank⟩⟩] .leaf) 38019 [⟨⟨.code,[],.lcode,true,[],false⟩,false,false,[],none,none,none,false,false,false,none,false,⟨.lblank,none,false,.lblank⟩⟩] .leaf) 148108 [⟨⟨.code,[],.lcomment,false,[],false⟩,false,false,[],none,none,none,false,false,false,none,false,⟨.lcomment,none,false,.lblank⟩⟩] (.node (.node .leaf 185487 [⟨⟨.code,[],.lcomment,true,[],false⟩,false,false,[],none,none,none,false,false,false,none,false,⟨.lblank,none,false,.lblank⟩⟩] .leaf) 209041 [⟨⟨.code,[],.lcode,false,[(2,2)],false⟩,false,false,[],none,none,none,false,false,false,none,false,⟨.lcode,none,false,.lblank⟩⟩] .leaf)) 221330 [⟨⟨.code,[],.lcode,false,[(2,3)],false⟩,false,false,[],none,none,none,false,false,false,none,false,⟨.lcode,none,false,.lblank⟩⟩] (.node (.node (.node .leaf 233619 [⟨⟨.code,[],.lcode,false,[(2,4)],false⟩,false,false,[],none,none,none,false,false,false,none,false,⟨.lcode,none,false,.lblank⟩⟩] .leaf) 270486 [⟨⟨.code,[],.lcode,false,[(3,0)],false⟩,false,false,[],none,none,none,false,false,false,none,false,⟨.lcode,none,false,.lblank⟩⟩] .leaf) 282775 [⟨⟨.code,[],.lcode,false,[(3,1)],false⟩,false,false,[],none,none,none,false,false,false,none,false,⟨.lcode,none,false,.lblank⟩⟩] (.node .leaf 296088 [⟨⟨.code,[],.lblank,false,[],false⟩,false,false,[],none,none,none,false,false,false,none,false,⟨.lblank,none,false,.lblank⟩⟩] .leaf))) 332955 [⟨⟨.code,[],.lblank,true,[],false⟩,false,false,[],none,none,none,false,false,false,none,false,⟨.lblank,none,false,.lblank⟩⟩] (.node (.node (.node (.node .leaf 1179872 [⟨⟨(.inside 0),[],.lcode,false,[],false⟩,false,false,[none],none,none,none,false,false,false,none,false,⟨.lcode,none,false,.lblank⟩⟩] .leaf) 1327852 [⟨⟨(.inside 0),[],.lcomment,false,[],false⟩,false,false,[none],none,none,none,false,false,false,none,false,⟨.lcomment,none,false,.lblank⟩⟩] .leaf) 1769744 [⟨⟨.code,[47],.lcode,false,[],false⟩,false,false,[none],none,none,none,false,false,false,none,false,⟨.lcode,none,false,.lblank⟩⟩] (.node .leaf 20769801 [⟨⟨.code,[47],.lcode,false,[],false⟩,false,false,[some (9,(.ws,false))],none,none,none,false,false,false,none,false,⟨.lcode,none,false,.lblank⟩⟩] .leaf)) 21088052 [⟨⟨.code,[47],.lcomment,false,[],false⟩,false,false,[none],none,none,none,false,false,false,none,false,⟨.lcode,none,false,.lblank⟩⟩] (.node (.node (.node .leaf 22179935 [⟨⟨(.inside 0),[],.lcode,false,[],false⟩,false,false,[some (10,(.lf,false))],none,none,none,false,false,false,none,false,⟨.lcode,none,false,.lblank⟩⟩] .leaf) 22327915 [⟨⟨(.inside 0),[],.lcomment,false,[],false⟩,false,false,[some (10,(.lf,false))],none,none,none,false,false,false,none,false,⟨.lcomment,none,false,.lblank⟩⟩] .leaf) 22769807 [⟨⟨.code,[47],.lcode,false,[],false⟩,false,false,[some (10,(.lf,false))],none,none,none,false,false,false,none,false,⟨.lcode,none,false,.lblank⟩⟩] (.node .leaf 26179947 [⟨⟨(.inside 0),[],.lcode,false,[],false⟩,false,false,[some (12,(.ff,false))],none,none,none,false,false,false,none,false,⟨.lcode,none,false,.lblank⟩⟩] .leaf)))) 26327927 [⟨⟨(.inside 0),[],.lcomment,false,[],false⟩,false,false,[some (12,(.ff,false))],none,none,none,false,false,false,none,false,⟨.lcomment,none,false,.lblank⟩⟩] (.node (.node (.node (.node (.node .leaf 26769819 [⟨⟨.code,[47],.lcode,false,[],false⟩,false,false,[some (12,(.ff,false))],none,none,none,false,false,false,none,false,⟨.lcode,none,false,.lblank⟩⟩] .leaf) 27601222 [⟨⟨.code,[],.lcode,false,[(2,2),(2,4)],false⟩,false,false,[],none,none,none,false,false,false,none,false,⟨.lcode,none,false,.lblank⟩⟩] .leaf) 27638089 [⟨⟨.code,[],.lcode,false,[(2,2),(3,0)],false⟩,false,false,[],none,none,none,false,false,false,none,false,⟨.lcode,none,false,.lblank⟩⟩] (.node (.node .leaf 28179953 [⟨⟨(.inside 0),[],.lcode,false,[],false⟩,false,false,[some (13,(.cr,false))],none,none,none,false,false,false,none,false,⟨.lcode,none,false,.lblank⟩⟩] .leaf) 28327933 [⟨⟨(.inside 0),[],.lcomment,false,[],false⟩,false,false,[some (13,(.cr,false))],none,none,none,false,false,false,none,false,⟨.lcomment,none,false,.lblank⟩⟩] .leaf)) 28769825 [⟨⟨.code,[47],.lcode,false,[],false⟩,false,false,[some (13,(.cr,false))],none,none,none,false,false,false,none,false,⟨.lcode,none,false,.lblank⟩⟩] (.node (.node (.node .leaf 29179956 [⟨⟨(.inside 0),[],.lcode,false,[],false⟩,false,false,[some (13,(.cr,true))],none,none,none,false,false,false,none,false,⟨.lcode,none,false,.lblank⟩⟩] .leaf) 29260237 [⟨⟨.code,[],.lcode,false,[(2,3),(3,1)],false⟩,false,false,[],none,none,none,false,false,false,none,false,⟨.lcode,none,false,.lblank⟩⟩] .leaf) 29327936 [⟨⟨(.inside 0),[],.lcomment,false,[],false⟩,false,false,[some (13,(.cr,true))],none,none,none,false,false,false,none,false,⟨.lcomment,none,false,.lblank⟩⟩] (.node .leaf 29769828 [⟨⟨.code,[47],.lcode,false,[],false⟩,false,false,[some (13,(.cr,true))],none,none,none,false,false,false,none,false,⟨.lcode,none,false,.lblank⟩⟩] .leaf))) 30857807 [⟨⟨.code,[],.lcode,false,[(2,4),(3,0)],false⟩,false,false,[],none,none,none,false,false,false,none,false,⟨.lcode,none,false,.lblank⟩⟩] (.node (.node (.node (.node .leaf 35650517 [⟨⟨.code,[],.lcode,false,[(3,0),(2,4)],false⟩,false,false,[],none,none,none,false,false,false,none,false,⟨.lcode,none,false,.lblank⟩⟩] .leaf) 40088109 [⟨⟨.code,[47],.lcomment,false,[],false⟩,false,false,[some (9,(.ws,false))],none,none,none,false,false,false,none,false,⟨.lcode,none,false,.lblank⟩⟩] .leaf) 40406360 [⟨⟨.code,[47],.lblank,false,[],false⟩,false,false,[none],none,none,none,false,false,false,none,false,⟨.lcode,none,false,.lblank⟩⟩] (.node .leaf 42088115 [⟨⟨.code,[47],.lcomment,false,[],false⟩,false,false,[some (10,(.lf,false))],none,none,none,false,false,false,none,false,⟨.lcode,none,false,.lblank⟩⟩] .leaf)) 46088127 [⟨⟨.code,[47],.lcomment,false,[],false⟩,false,false,[some (12,(.ff,false))],none,none,none,false,false,false,none,false,⟨.lcode,none,false,.lblank⟩⟩] (.node (.node (.node .leaf 48088133 [⟨⟨.code,[47],.lcomment,false,[],false⟩,false,false,[some (13,(.cr,false))],none,none,none,false,false,false,none,false,⟨.lcode,none,false,.lblank⟩⟩] .leaf) 49088136 [⟨⟨.code,[47],.lcomment,false,[],false⟩,false,false,[some (13,(.cr,true))],none,none,none,false,false,false,none,false,⟨.lcode,none,false,.lblank⟩⟩] .leaf) 59406417 [⟨⟨.code,[47],.lblank,false,[],false⟩,false,false,[some (9,(.ws,false))],none,none,none,false,false,false,none,false,⟨.lcode,none,false,.lblank⟩⟩] (.node .leaf 61406423 [⟨⟨.code,[47],.lblank,false,[],false⟩,false,false,[some (10,(.lf,false))],none,none,none,false,false,false,none,false,⟨.lcode,none,false,.lblank⟩⟩] .leaf))))) 65406435 [⟨⟨.code,[47],.lblank,false,[],false⟩,false,false,[some (12,(.ff,false))],none,none,none,false,false,false,none,false,⟨.lcode,none,false,.lblank⟩⟩] (.node (.node (.node (.node (.node (.node .leaf 67406441 [⟨⟨.code,[47],.lblank,false,[],false⟩,false,false,[some (13,(.cr,false))],none,none,none,false,false,false,none,false,⟨.lcode,none,false,.lblank⟩⟩] .leaf) 68406444 [⟨⟨.code,[47],.lblank,false,[],false⟩,false,false,[some (13,(.cr,true))],none,none,none,false,false,false,none,false,⟨.lcode,none,false,.lblank⟩⟩] .leaf) 70769951 [⟨⟨.code,[47],.lcode,false,[],false⟩,false,false,[some (34,(.other,false))],none,none,none,false,false,false,none,false,⟨.lcode,none,false,.lblank⟩⟩] (.node (.node .leaf 80769981 [⟨⟨.code,[47],.lcode,false,[],false⟩,false,false,[some (39,(.other,false))],none,none,none,false,false,false,none,false,⟨.lcode,none,false,.lblank⟩⟩] .leaf) 90088259 [⟨⟨.code,[47],.lcomment,false,[],false⟩,false,false,[some (34,(.other,false))],none,none,none,false,false,false,none,false,⟨.lcode,none,false,.lblank⟩⟩] .leaf)) 100088289 [⟨⟨.code,[47],.lcomment,false,[],false⟩,false,false,[some (39,(.other,false))],none,none,none,false,false,false,none,false,⟨.lcode,none,false,.lblank⟩⟩] (.node (.node (.node .leaf 109406567 [⟨⟨.code,[47],.lblank,false,[],false⟩,false,false,[some (34,(.other,false))],none,none,none,false,false,false,none,false,⟨.lcode,none,false,.lblank⟩⟩] .leaf) 119406597 [⟨⟨.code,[47],.lblank,false,[],false⟩,false,false,[some (39,(.other,false))],none,none,none,false,false,false,none,false,⟨.lcode,none,false,.lblank⟩⟩] .leaf) 154816950 [⟨⟨(.inside 0),[],.lcode,false,[(3,0)],false⟩,false,false,[none],none,none,none,false,false,false,none,false,⟨.lcode,none,false,.lblank⟩⟩] (.node .leaf 154829239 [⟨⟨(.inside 0),[],.lcode,false,[(3,1)],false⟩,false,false,[none],none,none,none,false,false,false,none,false,⟨.lcode,none,false,.lblank⟩⟩] .leaf))) 175817013 [⟨⟨(.inside 0),[],.lcode,false,[(3,0)],false⟩,false,false,[some (10,(.lf,false))],none,none,none,false,false,false,none,false,⟨.lcode,none,false,.lblank⟩⟩] (.node (.node (.node (.node .leaf 175829302 [⟨⟨(.inside 0),[],.lcode,false,[(3,1)],false⟩,false,false,[some (10,(.lf,false))],none,none,none,false,false,false,none,false,⟨.lcode,none,false,.lblank⟩⟩] .leaf) 179817025 [⟨⟨(.inside 0),[],.lcode,false,[(3,0)],false⟩,false,false,[some (12,(.ff,false))],none,none,none,false,false,false,none,false,⟨.lcode,none,false,.lblank⟩⟩] .leaf) 179829314 [⟨⟨(.inside 0),[],.lcode,false,[(3,1)],false⟩,false,false,[some (12,(.ff,false))],none,none,none,false,false,false,none,false,⟨.lcode,none,false,.lblank⟩⟩] (.node .leaf 181817031 [⟨⟨(.inside 0),[],.lcode,false,[(3,0)],false⟩,false,false,[some (13,(.cr,false))],none,none,none,false,false,false,none,false,⟨.lcode,none,false,.lblank⟩⟩] .leaf)) 181829320 [⟨⟨(.inside 0),[],.lcode,false,[(3,1)],false⟩,false,false,[some (13,(.cr,false))],none,none,none,false,false,false,none,false,⟨.lcode,none,false,.lblank⟩⟩] (.node (.node (.node .leaf 182817034 [⟨⟨(.inside 0),[],.lcode,false,[(3,0)],false⟩,false,false,[some (13,(.cr,true))],none,none,none,false,false,false,none,false,⟨.lcode,none,false,.lblank⟩⟩] .leaf) 182829323 [⟨⟨(.inside 0),[],.lcode,false,[(3,1)],false⟩,false,false,[some (13,(.cr,true))],none,none,none,false,false,false,none,false,⟨.lcode,none,false,.lblank⟩⟩] .leaf) 186770299 [⟨⟨.code,[47],.lcode,false,[],false⟩,false,false,[some (92,(.other,false))],none,none,none,false,false,false,none,false,⟨.lcode,none,false,.lblank⟩⟩] (.node .leaf 206088607 [⟨⟨.code,[47],.lcomment,false,[],false⟩,false,false,[some (92,(.other,false))],none,none,none,false,false,false,none,false,⟨.lcode,none,false,.lblank⟩⟩] .leaf)))) 225406915 [⟨⟨.code,[47],.lblank,false,[],false⟩,false,false,[some (92,(.other,false))],none,none,none,false,false,false,none,false,⟨.lcode,none,false,.lblank⟩⟩] (.node (.node (.node (.node (.node .leaf 232028737 [⟨⟨.code,[47],.lcode,false,[(2,2)],false⟩,false,false,[none],none,none,none,false,false,false,none,false,⟨.lcode,none,false,.lblank⟩⟩] .leaf) 232041026 [⟨⟨.code,[47],.lcode,false,[(2,3)],false⟩,false,false,[none],none,none,none,false,false,false,none,false,⟨.lcode,none,false,.lblank⟩⟩] .leaf) 232053315 [⟨⟨.code,[47],.lcode,false,[(2,4)],false⟩,false,false,[none],none,none,none,false,false,false,none,false,⟨.lcode,none,false,.lblank⟩⟩] (.node .leaf 232090182 [⟨⟨.code,[47],.lcode,false,[(3,0)],false⟩,false,false,[none],none,none,none,false,false,false,none,false,⟨.lcode,none,false,.lblank⟩⟩] .leaf)) 232102471 [⟨⟨.code,[47],.lcode,false,[(3,1)],false⟩,false,false,[none],none,none,none,false,false,false,none,false,⟨.lcode,none,false,.lblank⟩⟩] (.node (.node (.node .leaf 251028794 [⟨⟨.code,[47],.lcode,false,[(2,2)],false⟩,false,false,[some (9,(.ws,false))],none,none,none,false,false,false,none,false,⟨.lcode,none,false,.lblank⟩⟩] .leaf) 251041083 [⟨⟨.code,[47],.lcode,false,[(2,3)],false⟩,false,false,[some (9,(.ws,false))],none,none,none,false,false,false,none,false,⟨.lcode,none,false,.lblank⟩⟩] .leaf) 251053372 [⟨⟨.code,[47],.lcode,false,[(2,4)],false⟩,false,false,[some (9,(.ws,false))],none,none,none,false,false,false,none,false,⟨.lcode,none,false,.lblank⟩⟩] (.node .leaf 251090239 [⟨⟨.code,[47],.lcode,false,[(3,0)],false⟩,false,false,[some (9,(.ws,false))],none,none,none,false,false,false,none,false,⟨.lcode,none,false,.lblank⟩⟩] .leaf))) 251102528 [⟨⟨.code,[47],.lcode,false,[(3,1)],false⟩,false,false,[some (9,(.ws,false))],none,none,none,false,false,false,none,false,⟨.lcode,none,false,.lblank⟩⟩] (.node (.node (.node (.node .leaf 253028800 [⟨⟨.code,[47],.lcode,false,[(2,2)],false⟩,false,false,[some (10,(.lf,false))],none,none,none,false,false,false,none,false,⟨.lcode,none,false,.lblank⟩⟩] .leaf) 253041089 [⟨⟨.code,[47],.lcode,false,[(2,3)],false⟩,false,false,[some (10,(.lf,false))],none,none,none,false,false,false,none,false,⟨.lcode,none,false,.lblank⟩⟩] .leaf) 253053378 [⟨⟨.code,[47],.lcode,false,[(2,4)],false⟩,false,false,[some (10,(.lf,false))],none,none,none,false,false,false,none,false,⟨.lcode,none,false,.lblank⟩⟩] (.node .leaf 253090245 [⟨⟨.code,[47],.lcode,false,[(3,0)],false⟩,false,false,[some (10,(.lf,false))],none,none,none,false,false,false,none,false,⟨.lcode,none,false,.lblank⟩⟩] .leaf)) 253102534 [⟨⟨.code,[47],.lcode,false,[(3,1)],false⟩,false,false,[some (10,(.lf,false))],none,none,none,false,false,false,none,false,⟨.lcode,none,false,.lblank⟩⟩] (.node (.node (.node .leaf 257028812 [⟨⟨.code,[47],.lcode,false,[(2,2)],false⟩,false,false,[some (12,(.ff,false))],none,none,none,false,false,false,none,false,⟨.lcode,none,false,.lblank⟩⟩] .leaf) 257041101 [⟨⟨.code,[47],.lcode,false,[(2,3)],false⟩,false,false,[some (12,(.ff,false))],none,none,none,false,false,false,none,false,⟨.lcode,none,false,.lblank⟩⟩] .leaf) 257053390 [⟨⟨.code,[47],.lcode,false,[(2,4)],false⟩,false,false,[some (12,(.ff,false))],none,none,none,false,false,false,none,false,⟨.lcode,none,false,.lblank⟩⟩] (.node .leaf 257090257 [⟨⟨.code,[47],.lcode,false,[(3,0)],false⟩,false,false,[some (12,(.ff,false))],none,none,none,false,false,false,none,false,⟨.lcode,none,false,.lblank⟩⟩] .leaf)))))) 257102546 [⟨⟨.code,[47],.lcode,false,[(3,1)],false⟩,false,false,[some (12,(.ff,false))],none,none,none,false,false,false,none,false,⟨.lcode,none,false,.lblank⟩⟩] (.node (.node (.node (.node (.node (.node (.node .leaf 259028818 [⟨⟨.code,[47],.lcode,false,[(2,2)],false⟩,false,false,[some (13,(.cr,false))],none,none,none,false,false,false,none,false,⟨.lcode,none,false,.lblank⟩⟩] .leaf) 259041107 [⟨⟨.code,[47],.lcode,false,[(2,3)],false⟩,false,false,[some (13,(.cr,false))],none,none,none,false,false,false,none,false,⟨.lcode,none,false,.lblank⟩⟩] .leaf) 259053396 [⟨⟨.code,[47],.lcode,false,[(2,4)],false⟩,false,false,[some (13,(.cr,false))],none,none,none,false,false,false,none,false,⟨.lcode,none,false,.lblank⟩⟩] (.node (.node .leaf 259090263 [⟨⟨.code,[47],.lcode,false,[(3,0)],false⟩,false,false,[some (13,(.cr,false))],none,none,none,false,false,false,none,false,⟨.lcode,none,false,.lblank⟩⟩] .leaf) 259102552 [⟨⟨.code,[47],.lcode,false,[(3,1)],false⟩,false,false,[some (13,(.cr,false))],none,none,none,false,false,false,none,false,⟨.lcode,none,false,.lblank⟩⟩] .leaf)) 260028821 [⟨⟨.code,[47],.lcode,false,[(2,2)],false⟩,false,false,[some (13,(.cr,true))],none,none,none,false,false,false,none,false,⟨.lcode,none,false,.lblank⟩⟩] (.node (.node (.node .leaf 260041110 [⟨⟨.code,[47],.lcode,false,[(2,3)],false⟩,false,false,[some (13,(.cr,true))],none,none,none,false,false,false,none,false,⟨.lcode,none,false,.lblank⟩⟩] .leaf) 260053399 [⟨⟨.code,[47],.lcode,false,[(2,4)],false⟩,false,false,[some (13,(.cr,true))],none,none,none,false,false,false,none,false,⟨.lcode,none,false,.lblank⟩⟩] .leaf) 260090266 [⟨⟨.code,[47],.lcode,false,[(3,0)],false⟩,false,false,[some (13,(.cr,true))],none,none,none,false,false,false,none,false,⟨.lcode,none,false,.lblank⟩⟩] (.node .leaf 260102555 [⟨⟨.code,[47],.lcode,false,[(3,1)],false⟩,false,false,[some (13,(.cr,true))],none,none,none,false,false,false,none,false,⟨.lcode,none,false,.lblank⟩⟩] .leaf))) 301028944 [⟨⟨.code,[47],.lcode,false,[(2,2)],false⟩,false,false,[some (34,(.other,false))],none,none,none,false,false,false,none,false,⟨.lcode,none,false,.lblank⟩⟩] (.node (.node (.node (.node .leaf 301041233 [⟨⟨.code,[47],.lcode,false,[(2,3)],false⟩,false,false,[some (34,(.other,false))],none,none,none,false,false,false,none,false,⟨.lcode,none,false,.lblank⟩⟩] .leaf) 301053522 [⟨⟨.code,[47],.lcode,false,[(2,4)],false⟩,false,false,[some (34,(.other,false))],none,none,none,false,false,false,none,false,⟨.lcode,none,false,.lblank⟩⟩] .leaf) 311053552 [⟨⟨.code,[47],.lcode,false,[(2,4)],false⟩,false,false,[some (39,(.other,false))],none,none,none,false,false,false,none,false,⟨.lcode,none,false,.lblank⟩⟩] (.node .leaf 311090419 [⟨⟨.code,[47],.lcode,false,[(3,0)],false⟩,false,false,[some (39,(.other,false))],none,none,none,false,false,false,none,false,⟨.lcode,none,false,.lblank⟩⟩] .leaf)) 311102708 [⟨⟨.code,[47],.lcode,false,[(3,1)],false⟩,false,false,[some (39,(.other,false))],none,none,none,false,false,false,none,false,⟨.lcode,none,false,.lblank⟩⟩] (.node (.node (.node .leaf 417029292 [⟨⟨.code,[47],.lcode,false,[(2,2)],false⟩,false,false,[some (92,(.other,false))],none,none,none,false,false,false,none,false,⟨.lcode,none,false,.lblank⟩⟩] .leaf) 417041581 [⟨⟨.code,[47],.lcode,false,[(2,3)],false⟩,false,false,[some (92,(.other,false))],none,none,none,false,false,false,none,false,⟨.lcode,none,false,.lblank⟩⟩] .leaf) 417053870 [⟨⟨.code,[47],.lcode,false,[(2,4)],false⟩,false,false,[some (92,(.other,false))],none,none,none,false,false,false,none,false,⟨.lcode,none,false,.lblank⟩⟩] (.node .leaf 417090737 [⟨⟨.code,[47],.lcode,false,[(3,0)],false⟩,false,false,[some (92,(.other,false))],none,none,none,false,false,false,none,false,⟨.lcode,none,false,.lblank⟩⟩] .leaf)))) 417103026 [⟨⟨.code,[47],.lcode,false,[(3,1)],false⟩,false,false,[some (92,(.other,false))],none,none,none,false,false,false,none,false,⟨.lcode,none,false,.lblank⟩⟩] (.node (.node (.node (.node (.node .leaf 514771283 [⟨⟨.code,[47],.lcode,false,[],false⟩,false,false,[some (256,(.other,false))],none,none,none,false,false,false,none,false,⟨.lcode,none,false,.lblank⟩⟩] .leaf) 534089591 [⟨⟨.code,[47],.lcomment,false,[],false⟩,false,false,[some (256,(.other,false))],none,none,none,false,false,false,none,false,⟨.lcode,none,false,.lblank⟩⟩] .leaf) 553407899 [⟨⟨.code,[47],.lblank,false,[],false⟩,false,false,[some (256,(.other,false))],none,none,none,false,false,false,none,false,⟨.lcode,none,false,.lblank⟩⟩] (.node .leaf 745030276 [⟨⟨.code,[47],.lcode,false,[(2,2)],false⟩,false,false,[some (256,(.other,false))],none,none,none,false,false,false,none,false,⟨.lcode,none,false,.lblank⟩⟩] .leaf)) 745042565 [⟨⟨.code,[47],.lcode,false,[(2,3)],false⟩,false,false,[some (256,(.other,false))],none,none,none,false,false,false,none,false,⟨.lcode,none,false,.lblank⟩⟩] (.node (.node (.node .leaf 745054854 [⟨⟨.code,[47],.lcode,false,[(2,4)],false⟩,false,false,[some (256,(.other,false))],none,none,none,false,false,false,none,false,⟨.lcode,none,false,.lblank⟩⟩] .leaf) 745091721 [⟨⟨.code,[47],.lcode,false,[(3,0)],false⟩,false,false,[some (256,(.other,false))],none,none,none,false,false,false,none,false,⟨.lcode,none,false,.lblank⟩⟩] .leaf) 745104010 [⟨⟨.code,[47],.lcode,false,[(3,1)],false⟩,false,false,[some (256,(.other,false))],none,none,none,false,false,false,none,false,⟨.lcode,none,false,.lblank⟩⟩] (.node .leaf 3616013800 [⟨⟨.code,[],.lcode,false,[(2,2),(2,4),(3,0)],false⟩,false,false,[],none,none,none,false,false,false,none,false,⟨.lcode,none,false,.lblank⟩⟩] .leaf))) 30395981398 [⟨⟨.code,[47],.lcode,false,[(2,2),(2,4)],false⟩,false,false,[none],none,none,none,false,false,false,none,false,⟨.lcode,none,false,.lblank⟩⟩] (.node (.node (.node (.node .leaf 30396018265 [⟨⟨.code,[47],.lcode,false,[(2,2),(3,0)],false⟩,false,false,[none],none,none,none,false,false,false,none,false,⟨.lcode,none,false,.lblank⟩⟩] .leaf) 30397640413 [⟨⟨.code,[47],.lcode,false,[(2,3),(3,1)],false⟩,false,false,[none],none,none,none,false,false,false,none,false,⟨.lcode,none,false,.lblank⟩⟩] .leaf) 30399237983 [⟨⟨.code,[47],.lcode,false,[(2,4),(3,0)],false⟩,false,false,[none],none,none,none,false,false,false,none,false,⟨.lcode,none,false,.lblank⟩⟩] (.node .leaf 30404030693 [⟨⟨.code,[47],.lcode,false,[(3,0),(2,4)],false⟩,false,false,[none],none,none,none,false,false,false,none,false,⟨.lcode,none,false,.lblank⟩⟩] .leaf)) 30414981455 [⟨⟨.code,[47],.lcode,false,[(2,2),(2,4)],false⟩,false,false,[some (9,(.ws,false))],none,none,none,false,false,false,none,false,⟨.lcode,none,false,.lblank⟩⟩] (.node (.node (.node .leaf 30415018322 [⟨⟨.code,[47],.lcode,false,[(2,2),(3,0)],false⟩,false,false,[some (9,(.ws,false))],none,none,none,false,false,false,none,false,⟨.lcode,none,false,.lblank⟩⟩] .leaf) 30416640470 [⟨⟨.code,[47],.lcode,false,[(2,3),(3,1)],false⟩,false,false,[some (9,(.ws,false))],none,none,none,false,false,false,none,false,⟨.lcode,none,false,.lblank⟩⟩] .leaf) 30416981461 [⟨⟨.code,[47],.lcode,false,[(2,2),(2,4)],false⟩,false,false,[some (10,(.lf,false))],none,none,none,false,false,false,none,false,⟨.lcode,none,false,.lblank⟩⟩] (.node .leaf 30417018328 [⟨⟨.code,[47],.lcode,false,[(2,2),(3,0)],false⟩,false,false,[some (10,(.lf,false))],none,none,none,false,false,false,none,false,⟨.lcode,none,false,.lblank⟩⟩] .leaf))))) 30418238040 [⟨⟨.code,[47],.lcode,false,[(2,4),(3,0)],false⟩,false,false,[some (9,(.ws,false))],none,none,none,false,false,false,none,false,⟨.lcode,none,false,.lblank⟩⟩] (.node (.node (.node (.node (.node (.node .leaf 30418640476 [⟨⟨.code,[47],.lcode,false,[(2,3),(3,1)],false⟩,false,false,[some (10,(.lf,false))],none,none,none,false,false,false,none,false,⟨.lcode,none,false,.lblank⟩⟩] .leaf) 30420238046 [⟨⟨.code,[47],.lcode,false,[(2,4),(3,0)],false⟩,false,false,[some (10,(.lf,false))],none,none,none,false,false,false,none,false,⟨.lcode,none,false,.lblank⟩⟩] .leaf) 30420981473 [⟨⟨.code,[47],.lcode,false,[(2,2),(2,4)],false⟩,false,false,[some (12,(.ff,false))],none,none,none,false,false,false,none,false,⟨.lcode,none,false,.lblank⟩⟩] (.node (.node .leaf 30421018340 [⟨⟨.code,[47],.lcode,false,[(2,2),(3,0)],false⟩,false,false,[some (12,(.ff,false))],none,none,none,false,false,false,none,false,⟨.lcode,none,false,.lblank⟩⟩] .leaf) 30422640488 [⟨⟨.code,[47],.lcode,false,[(2,3),(3,1)],false⟩,false,false,[some (12,(.ff,false))],none,none,none,false,false,false,none,false,⟨.lcode,none,false,.lblank⟩⟩] .leaf)) 30422981479 [⟨⟨.code,[47],.lcode,false,[(2,2),(2,4)],false⟩,false,false,[some (13,(.cr,false))],none,none,none,false,false,false,none,false,⟨.lcode,none,false,.lblank⟩⟩] (.node (.node (.node .leaf 30423018346 [⟨⟨.code,[47],.lcode,false,[(2,2),(3,0)],false⟩,false,false,[some (13,(.cr,false))],none,none,none,false,false,false,none,false,⟨.lcode,none,false,.lblank⟩⟩] .leaf) 30423030750 [⟨⟨.code,[47],.lcode,false,[(3,0),(2,4)],false⟩,false,false,[some (9,(.ws,false))],none,none,none,false,false,false,none,false,⟨.lcode,none,false,.lblank⟩⟩] .leaf) 30423981482 [⟨⟨.code,[47],.lcode,false,[(2,2),(2,4)],false⟩,false,false,[some (13,(.cr,true))],none,none,none,false,false,false,none,false,⟨.lcode,none,false,.lblank⟩⟩] (.node .leaf 30424018349 [⟨⟨.code,[47],.lcode,false,[(2,2),(3,0)],false⟩,false,false,[some (13,(.cr,true))],none,none,none,false,false,false,none,false,⟨.lcode,none,false,.lblank⟩⟩] .leaf))) 30424238058 [⟨⟨.code,[47],.lcode,false,[(2,4),(3,0)],false⟩,false,false,[some (12,(.ff,false))],none,none,none,false,false,false,none,false,⟨.lcode,none,false,.lblank⟩⟩] (.node (.node (.node (.node .leaf 30424640494 [⟨⟨.code,[47],.lcode,false,[(2,3),(3,1)],false⟩,false,false,[some (13,(.cr,false))],none,none,none,false,false,false,none,false,⟨.lcode,none,false,.lblank⟩⟩] .leaf) 30425030756 [⟨⟨.code,[47],.lcode,false,[(3,0),(2,4)],false⟩,false,false,[some (10,(.lf,false))],none,none,none,false,false,false,none,false,⟨.lcode,none,false,.lblank⟩⟩] .leaf) 30425640497 [⟨⟨.code,[47],.lcode,false,[(2,3),(3,1)],false⟩,false,false,[some (13,(.cr,true))],none,none,none,false,false,false,none,false,⟨.lcode,none,false,.lblank⟩⟩] (.node .leaf 30426238064 [⟨⟨.code,[47],.lcode,false,[(2,4),(3,0)],false⟩,false,false,[some (13,(.cr,false))],none,none,none,false,false,false,none,false,⟨.lcode,none,false,.lblank⟩⟩] .leaf)) 30427238067 [⟨⟨.code,[47],.lcode,false,[(2,4),(3,0)],false⟩,false,false,[some (13,(.cr,true))],none,none,none,false,false,false,none,false,⟨.lcode,none,false,.lblank⟩⟩] (.node (.node (.node .leaf 30429030768 [⟨⟨.code,[47],.lcode,false,[(3,0),(2,4)],false⟩,false,false,[some (12,(.ff,false))],none,none,none,false,false,false,none,false,⟨.lcode,none,false,.lblank⟩⟩] .leaf) 30431030774 [⟨⟨.code,[47],.lcode,false,[(3,0),(2,4)],false⟩,false,false,[some (13,(.cr,false))],none,none,none,false,false,false,none,false,⟨.lcode,none,false,.lblank⟩⟩] .leaf) 30432030777 [⟨⟨.code,[47],.lcode,false,[(3,0),(2,4)],false⟩,false,false,[some (13,(.cr,true))],none,none,none,false,false,false,none,false,⟨.lcode,none,false,.lblank⟩⟩] (.node .leaf 30464981605 [⟨⟨.code,[47],.lcode,false,[(2,2),(2,4)],false⟩,false,false,[some (34,(.other,false))],none,none,none,false,false,false,none,false,⟨.lcode,none,false,.lblank⟩⟩] .leaf)))) 30478238220 [⟨⟨.code,[47],.lcode,false,[(2,4),(3,0)],false⟩,false,false,[some (39,(.other,false))],none,none,none,false,false,false,none,false,⟨.lcode,none,false,.lblank⟩⟩] (.node (.node (.node (.node (.node .leaf 30483030930 [⟨⟨.code,[47],.lcode,false,[(3,0),(2,4)],false⟩,false,false,[some (39,(.other,false))],none,none,none,false,false,false,none,false,⟨.lcode,none,false,.lblank⟩⟩] .leaf) 30580981953 [⟨⟨.code,[47],.lcode,false,[(2,2),(2,4)],false⟩,false,false,[some (92,(.other,false))],none,none,none,false,false,false,none,false,⟨.lcode,none,false,.lblank⟩⟩] .leaf) 30581018820 [⟨⟨.code,[47],.lcode,false,[(2,2),(3,0)],false⟩,false,false,[some (92,(.other,false))],none,none,none,false,false,false,none,false,⟨.lcode,none,false,.lblank⟩⟩] (.node .leaf 30582640968 [⟨⟨.code,[47],.lcode,false,[(2,3),(3,1)],false⟩,false,false,[some (92,(.other,false))],none,none,none,false,false,false,none,false,⟨.lcode,none,false,.lblank⟩⟩] .leaf)) 30584238538 [⟨⟨.code,[47],.lcode,false,[(2,4),(3,0)],false⟩,false,false,[some (92,(.other,false))],none,none,none,false,false,false,none,false,⟨.lcode,none,false,.lblank⟩⟩] (.node (.node (.node .leaf 30589031248 [⟨⟨.code,[47],.lcode,false,[(3,0),(2,4)],false⟩,false,false,[some (92,(.other,false))],none,none,none,false,false,false,none,false,⟨.lcode,none,false,.lblank⟩⟩] .leaf) 30908982937 [⟨⟨.code,[47],.lcode,false,[(2,2),(2,4)],false⟩,false,false,[some (256,(.other,false))],none,none,none,false,false,false,none,false,⟨.lcode,none,false,.lblank⟩⟩] .leaf) 30909019804 [⟨⟨.code,[47],.lcode,false,[(2,2),(3,0)],false⟩,false,false,[some (256,(.other,false))],none,none,none,false,false,false,none,false,⟨.lcode,none,false,.lblank⟩⟩] (.node .leaf 30910641952 [⟨⟨.code,[47],.lcode,false,[(2,3),(3,1)],false⟩,false,false,[some (256,(.other,false))],none,none,none,false,false,false,none,false,⟨.lcode,none,false,.lblank⟩⟩] .leaf))) 30912239522 [⟨⟨.code,[47],.lcode,false,[(2,4),(3,0)],false⟩,false,false,[some (256,(.other,false))],none,none,none,false,false,false,none,false,⟨.lcode,none,false,.lblank⟩⟩] (.node (.node (.node (.node .leaf 30917032232 [⟨⟨.code,[47],.lcode,false,[(3,0),(2,4)],false⟩,false,false,[some (256,(.other,false))],none,none,none,false,false,false,none,false,⟨.lcode,none,false,.lblank⟩⟩] .leaf) 3981873816856 [⟨⟨.code,[47],.lcode,false,[(2,2),(2,4),(3,0)],false⟩,false,false,[none],none,none,none,false,false,false,none,false,⟨.lcode,none,false,.lblank⟩⟩] .leaf) 3981892816913 [⟨⟨.code,[47],.lcode,false,[(2,2),(2,4),(3,0)],false⟩,false,false,[some (9,(.ws,false))],none,none,none,false,false,false,none,false,⟨.lcode,none,false,.lblank⟩⟩] (.node .leaf 3981894816919 [⟨⟨.code,[47],.lcode,false,[(2,2),(2,4),(3,0)],false⟩,false,false,[some (10,(.lf,false))],none,none,none,false,false,false,none,false,⟨.lcode,none,false,.lblank⟩⟩] .leaf)) 3981898816931 [⟨⟨.code,[47],.lcode,false,[(2,2),(2,4),(3,0)],false⟩,false,false,[some (12,(.ff,false))],none,none,none,false,false,false,none,false,⟨.lcode,none,false,.lblank⟩⟩] (.node (.node (.node .leaf 3981900816937 [⟨⟨.code,[47],.lcode,false,[(2,2),(2,4),(3,0)],false⟩,false,false,[some (13,(.cr,false))],none,none,none,false,false,false,none,false,⟨.lcode,none,false,.lblank⟩⟩] .leaf) 3981901816940 [⟨⟨.code,[47],.lcode,false,[(2,2),(2,4),(3,0)],false⟩,false,false,[some (13,(.cr,true))],none,none,none,false,false,false,none,false,⟨.lcode,none,false,.lblank⟩⟩] .leaf) 3982058817411 [⟨⟨.code,[47],.lcode,false,[(2,2),(2,4),(3,0)],false⟩,false,false,[some (92,(.other,false))],none,none,none,false,false,false,none,false,⟨.lcode,none,false,.lblank⟩⟩] (.node .leaf 3982386818395 [⟨⟨.code,[47],.lcode,false,[(2,2),(2,4),(3,0)],false⟩,false,false,[some (256,(.other,false))],none,none,none,false,false,false,none,false,⟨.lcode,none,false,.lblank⟩⟩] .leaf))))))),(.node (.node (.node .leaf 128 [⟨⟨.code,[],.lcode,false,[],false⟩,false,false,[],none,none,none,false,false,false,none,false,⟨.lcode,some (.own 0),false,.lblank⟩⟩] .leaf) 148108 [⟨⟨.code,[],.lcomment,false,[],false⟩,false,false,[],none,none,none,false,false,false,none,false,⟨.lcomment,some (.own 0),false,.lblank⟩⟩] (.node .leaf 233619 [⟨⟨.code,[],.lcode,false,[(2,4)],false⟩,false,false,[],none,none,none,false,false,false,none,false,⟨.lcode,some (.own 0),false,.lblank⟩⟩] .leaf)) 270486 [⟨⟨.code,[],.lcode,false,[(3,0)],false⟩,false,false,[],none,none,none,false,false,false,none,false,⟨.lcode,some (.own 0),false,.lblank⟩⟩] (.node (.node .leaf 296088 [⟨⟨.code,[],.lblank,false,[],false⟩,false,false,[],none,none,none,false,false,false,none,false,⟨.lblank,some (.own 0),false,.lblank⟩⟩] .leaf) 30857807 [⟨⟨.code,[],.lcode,false,[(2,4),(3,0)],false⟩,false,false,[],none,none,none,false,false,false,none,false,⟨.lcode,some (.own 0),false,.lblank⟩⟩] .leaf)),(.node (.node .leaf 160 [⟨⟨.code,[],.lcode,false,[],false⟩,true,false,[],none,none,none,false,false,false,none,false,⟨.lcode,some .newline,false,.lblank⟩⟩] .leaf) 148140 [⟨⟨.code,[],.lcomment,false,[],false⟩,true,false,[],none,none,none,false,false,false,none,false,⟨.lcomment,some .newline,false,.lblank⟩⟩] (.node .leaf 296120 [⟨⟨.code,[],.lblank,false,[],false⟩,true,false,[],none,none,none,false,false,false,none,false,⟨.lblank,some .newline,false,.lblank⟩⟩] .leaf)),(.node (.node .leaf 37011 [⟨⟨.code,[],.lcode,true,[],false⟩,false,true,[],none,none,none,false,false,false,none,false,⟨.lcode,some .newline,false,.lblank⟩⟩] .leaf) 184991 [⟨⟨.code,[],.lcomment,true,[],false⟩,false,true,[],none,none,none,false,false,false,none,false,⟨.lcomment,some .newline,false,.lblank⟩⟩] (.node .leaf 332971 [⟨⟨.code,[],.lblank,true,[],false⟩,false,true,[],none,none,none,false,false,false,none,false,⟨.lblank,some .newline,false,.lblank⟩⟩] .leaf)),(.node (.node (.node (.node .leaf 270486 [⟨⟨.code,[],.lcode,false,[(3,0)],false⟩,false,false,[],none,none,none,false,false,false,none,false,⟨.lcode,some (.own 3),false,.lblank⟩⟩] .leaf) 270490 [⟨⟨.code,[],.lcode,false,[(3,0)],false⟩,false,false,[],none,none,none,false,true,false,none,false,⟨.lcode,some (.own 3),false,.lblank⟩⟩] .leaf) 10027952 [⟨⟨(.inside 3),[],.lcode,false,[],false⟩,false,false,[],none,none,none,false,false,false,none,false,⟨.lcode,some (.own 3),false,.lblank⟩⟩] (.node .leaf 30857807 [⟨⟨.code,[],.lcode,false,[(2,4),(3,0)],false⟩,false,false,[],none,none,none,false,false,false,none,false,⟨.lcode,some (.own 3),false,.lblank⟩⟩] .leaf)) 35650521 [⟨⟨.code,[],.lcode,false,[(3,0),(2,4)],false⟩,false,false,[],none,none,none,false,true,false,none,false,⟨.lcode,some (.own 3),false,.lblank⟩⟩] (.node (.node .leaf 1313878563 [⟨⟨(.inside 3),[],.lcode,false,[(2,4)],false⟩,false,false,[],none,none,none,false,false,false,none,false,⟨.lcode,some (.own 3),false,.lblank⟩⟩] .leaf) 1313915430 [⟨⟨(.inside 3),[],.lcode,false,[(3,0)],false⟩,false,false,[],none,none,none,false,false,false,none,false,⟨.lcode,some (.own 3),false,.lblank⟩⟩] (.node .leaf 172118345471 [⟨⟨(.inside 3),[],.lcode,false,[(2,4),(3,0)],false⟩,false,false,[],none,none,none,false,false,false,none,false,⟨.lcode,some (.own 3),false,.lblank⟩⟩] .leaf))),(.node (.node (.node (.node .leaf 209041 [⟨⟨.code,[],.lcode,false,[(2,2)],false⟩,false,false,[],none,none,none,false,false,false,none,false,⟨.lcode,some (.own 3),false,.lblank⟩⟩] .leaf) 209045 [⟨⟨.code,[],.lcode,false,[(2,2)],false⟩,false,false,[],none,none,none,false,true,false,none,false,⟨.lcode,some (.own 3),false,.lblank⟩⟩] .leaf) 7078592 [⟨⟨(.inside 2),[],.lcode,false,[],false⟩,false,false,[],none,none,none,false,false,false,none,false,⟨.lcode,some (.own 3),false,.lblank⟩⟩] (.node (.node .leaf 27601222 [⟨⟨.code,[],.lcode,false,[(2,2),(2,4)],false⟩,false,false,[],none,none,none,false,false,false,none,false,⟨.lcode,some (.own 3),false,.lblank⟩⟩] .leaf) 27638089 [⟨⟨.code,[],.lcode,false,[(2,2),(3,0)],false⟩,false,false,[],none,none,none,false,false,false,none,false,⟨.lcode,some (.own 3),false,.lblank⟩⟩] .leaf)) 27638093 [⟨⟨.code,[],.lcode,false,[(2,2),(3,0)],false⟩,false,false,[],none,none,none,false,true,false,none,false,⟨.lcode,some (.own 3),false,.lblank⟩⟩] (.node (.node (.node .leaf 927512403 [⟨⟨(.inside 2),[],.lcode,false,[(2,4)],false⟩,false,false,[],none,none,none,false,false,false,none,false,⟨.lcode,some (.own 3),false,.lblank⟩⟩] .leaf) 927549270 [⟨⟨(.inside 2),[],.lcode,false,[(3,0)],false⟩,false,false,[],none,none,none,false,false,false,none,false,⟨.lcode,some (.own 3),false,.lblank⟩⟩] .leaf) 3616013800 [⟨⟨.code,[],.lcode,false,[(2,2),(2,4),(3,0)],false⟩,false,false,[],none,none,none,false,false,false,none,false,⟨.lcode,some (.own 3),false,.lblank⟩⟩] (.node .leaf 121504378511 [⟨⟨(.inside 2),[],.lcode,false,[(2,4),(3,0)],false⟩,false,false,[],none,none,none,false,false,false,none,false,⟨.lcode,some (.own 3),false,.lblank⟩⟩] .leaf))),(.node (.node (.node (.node .leaf 1769746 [⟨⟨.code,[47],.lcode,false,[],false⟩,false,false,[],none,none,none,false,false,true,none,false,⟨.lcode,some (.own 3),false,.lblank⟩⟩] .leaf) 21088566 [⟨⟨.code,[47],.lcomment,false,[],false⟩,false,false,[],none,none,none,false,false,true,none,false,⟨.lcomment,some (.own 3),false,.lblank⟩⟩] (.node .leaf 40407386 [⟨⟨.code,[47],.lblank,false,[],false⟩,false,false,[],none,none,none,false,false,true,none,false,⟨.lblank,some (.own 3),false,.lblank⟩⟩] .leaf)) 232028739 [⟨⟨.code,[47],.lcode,false,[(2,2)],false⟩,false,false,[],none,none,none,false,false,true,none,false,⟨.lcode,some (.own 3),false,.lblank⟩⟩] (.node (.node .leaf 232041028 [⟨⟨.code,[47],.lcode,false,[(2,3)],false⟩,false,false,[],none,none,none,false,false,true,none,false,⟨.lcode,some (.own 3),false,.lblank⟩⟩] .leaf) 232053317 [⟨⟨.code,[47],.lcode,false,[(2,4)],false⟩,false,false,[],none,none,none,false,false,true,none,false,⟨.lcode,some (.own 3),false,.lblank⟩⟩] (.node .leaf 232090184 [⟨⟨.code,[47],.lcode,false,[(3,0)],false⟩,false,false,[],none,none,none,false,false,true,none,false,⟨.lcode,some (.own 3),false,.lblank⟩⟩] .leaf))) 232102473 [⟨⟨.code,[47],.lcode,false,[(3,1)],false⟩,false,false,[],none,none,none,false,false,true,none,false,⟨.lcode,some (.own 3),false,.lblank⟩⟩] (.node (.node (.node .leaf 30395981400 [⟨⟨.code,[47],.lcode,false,[(2,2),(2,4)],false⟩,false,false,[],none,none,none,false,false,true,none,false,⟨.lcode,some (.own 3),false,.lblank⟩⟩] .leaf) 30396018267 [⟨⟨.code,[47],.lcode,false,[(2,2),(3,0)],false⟩,false,false,[],none,none,none,false,false,true,none,false,⟨.lcode,some (.own 3),false,.lblank⟩⟩] (.node .leaf 30397640415 [⟨⟨.code,[47],.lcode,false,[(2,3),(3,1)],false⟩,false,false,[],none,none,none,false,false,true,none,false,⟨.lcode,some (.own 3),false,.lblank⟩⟩] .leaf)) 30399237985 [⟨⟨.code,[47],.lcode,false,[(2,4),(3,0)],false⟩,false,false,[],none,none,none,false,false,true,none,false,⟨.lcode,some (.own 3),false,.lblank⟩⟩] (.node (.node .leaf 30404030695 [⟨⟨.code,[47],.lcode,false,[(3,0),(2,4)],false⟩,false,false,[],none,none,none,false,false,true,none,false,⟨.lcode,some (.own 3),false,.lblank⟩⟩] .leaf) 3981873816858 [⟨⟨.code,[47],.lcode,false,[(2,2),(2,4),(3,0)],false⟩,false,false,[],none,none,none,false,false,true,none,false,⟨.lcode,some (.own 3),false,.lblank⟩⟩] .leaf))),(.node (.node (.node (.node (.node (.node .leaf 287889 [⟨⟨.code,[],.lcode,false,[(3,0)],false⟩,false,false,[],some 4,some ⟨.code,[],.lcode,false,[(3,0)],false⟩,none,false,false,false,none,false,⟨.lcode,some (.own 3),false,.lblank⟩⟩] .leaf) 2201930 [⟨⟨.code,[],.lcode,false,[(3,0)],false⟩,false,false,[],some 4,some ⟨.code,[],.lcode,false,[(2,4),(3,0)],false⟩,none,false,false,false,none,false,⟨.lcode,some (.own 3),false,.lblank⟩⟩] .leaf) 10655941 [⟨⟨(.inside 3),[],.lcode,false,[],false⟩,false,false,[],some 4,some ⟨(.inside 3),[],.lcode,false,[],false⟩,none,false,false,false,none,false,⟨.lcode,some (.own 3),false,.lblank⟩⟩] (.node .leaf 27655492 [⟨⟨.code,[],.lcode,false,[(2,2),(3,0)],false⟩,false,false,[],some 4,some ⟨.code,[],.lcode,false,[(3,0)],false⟩,none,false,false,false,none,false,⟨.lcode,some (.own 3),false,.lblank⟩⟩] .leaf)) 29569533 [⟨⟨.code,[],.lcode,false,[(2,2),(3,0)],false⟩,false,false,[],some 4,some ⟨.code,[],.lcode,false,[(2,4),(3,0)],false⟩,none,false,false,false,none,false,⟨.lcode,some (.own 3),false,.lblank⟩⟩] (.node (.node .leaf 30875210 [⟨⟨.code,[],.lcode,false,[(2,4),(3,0)],false⟩,false,false,[],some 4,some ⟨.code,[],.lcode,false,[(3,0)],false⟩,none,false,false,false,none,false,⟨.lcode,some (.own 3),false,.lblank⟩⟩] .leaf) 32789251 [⟨⟨.code,[],.lcode,false,[(2,4),(3,0)],false⟩,false,false,[],some 4,some ⟨.code,[],.lcode,false,[(2,4),(3,0)],false⟩,none,false,false,false,none,false,⟨.lcode,some (.own 3),false,.lblank⟩⟩] (.node .leaf 48583663 [⟨⟨.code,[],.lblank,false,[(3,0)],true⟩,false,false,[],some 4,some ⟨.code,[],.lcode,false,[(3,0)],false⟩,none,false,true,false,none,false,⟨.lcode,some (.own 3),false,.lblank⟩⟩] .leaf))) 50797614 [⟨⟨.code,[],.lblank,false,[(3,0)],true⟩,false,false,[],some 4,some ⟨.code,[],.lcode,false,[(3,0),(2,4)],false⟩,none,false,true,false,none,false,⟨.lcode,some (.own 3),false,.lblank⟩⟩] (.node (.node (.node (.node .leaf 92246072 [⟨⟨(.inside 3),[],.lcode,false,[],false⟩,false,false,[],some 4,some ⟨(.inside 3),[],.lcode,false,[(2,4)],false⟩,none,false,false,false,none,false,⟨.lcode,some (.own 3),false,.lblank⟩⟩] .leaf) 154834353 [⟨⟨(.inside 0),[],.lcode,false,[(3,0)],false⟩,false,false,[],some 4,some ⟨.code,[],.lcode,false,[(3,0)],false⟩,none,false,false,false,none,false,⟨.lcode,some (.own 3),false,.lblank⟩⟩] .leaf) 156748394 [⟨⟨(.inside 0),[],.lcode,false,[(3,0)],false⟩,false,false,[],some 4,some ⟨.code,[],.lcode,false,[(2,4),(3,0)],false⟩,none,false,false,false,none,false,⟨.lcode,some (.own 3),false,.lblank⟩⟩] (.node .leaf 232107585 [⟨⟨.code,[47],.lcode,false,[(3,0)],false⟩,false,false,[],some 4,some ⟨.code,[],.lcode,false,[(3,0)],false⟩,none,false,false,false,none,false,⟨.lcode,some (.own 3),false,.lblank⟩⟩] .leaf)) 234021626 [⟨⟨.code,[47],.lcode,false,[(3,0)],false⟩,false,false,[],some 4,some ⟨.code,[],.lcode,false,[(2,4),(3,0)],false⟩,none,false,false,false,none,false,⟨.lcode,some (.own 3),false,.lblank⟩⟩] (.node (.node .leaf 541200513 [⟨⟨(.inside 1),[],.lcode,false,[(3,0)],false⟩,false,false,[],some 4,some ⟨.code,[],.lcode,false,[(3,0)],false⟩,none,false,false,false,none,false,⟨.lcode,some (.own 3),false,.lblank⟩⟩] .leaf) 543114554 [⟨⟨(.inside 1),[],.lcode,false,[(3,0)],false⟩,false,false,[],some 4,some ⟨.code,[],.lcode,false,[(2,4),(3,0)],false⟩,none,false,false,false,none,false,⟨.lcode,some (.own 3),false,.lblank⟩⟩] (.node .leaf 927566673 [⟨⟨(.inside 2),[],.lcode,false,[(3,0)],false⟩,false,false,[],some 4,some ⟨.code,[],.lcode,false,[(3,0)],false⟩,none,false,false,false,none,false,⟨.lcode,some (.own 3),false,.lblank⟩⟩] .leaf)))) 929480714 [⟨⟨(.inside 2),[],.lcode,false,[(3,0)],false⟩,false,false,[],some 4,some ⟨.code,[],.lcode,false,[(2,4),(3,0)],false⟩,none,false,false,false,none,false,⟨.lcode,some (.own 3),false,.lblank⟩⟩] (.node (.node (.node (.node (.node .leaf 1159386369 [⟨⟨(.closing 2),[],.lcode,false,[(3,0)],false⟩,false,false,[],some 4,some ⟨.code,[],.lcode,false,[(3,0)],false⟩,none,false,false,false,none,false,⟨.lcode,some (.own 3),false,.lblank⟩⟩] .leaf) 1161300410 [⟨⟨(.closing 2),[],.lcode,false,[(3,0)],false⟩,false,false,[],some 4,some ⟨.code,[],.lcode,false,[(2,4),(3,0)],false⟩,none,false,false,false,none,false,⟨.lcode,some (.own 3),false,.lblank⟩⟩] .leaf) 1313932833 [⟨⟨(.inside 3),[],.lcode,false,[(3,0)],false⟩,false,false,[],some 4,some ⟨.code,[],.lcode,false,[(3,0)],false⟩,none,false,false,false,none,false,⟨.lcode,some (.own 3),false,.lblank⟩⟩] (.node .leaf 1315846874 [⟨⟨(.inside 3),[],.lcode,false,[(3,0)],false⟩,false,false,[],some 4,some ⟨.code,[],.lcode,false,[(2,4),(3,0)],false⟩,none,false,false,false,none,false,⟨.lcode,some (.own 3),false,.lblank⟩⟩] .leaf)) 1396135857 [⟨⟨(.inside 3),[],.lcode,false,[(3,0)],false⟩,false,false,[],some 4,some ⟨(.inside 3),[],.lcode,false,[(3,0)],false⟩,none,false,false,false,none,false,⟨.lcode,some (.own 3),false,.lblank⟩⟩] (.node (.node .leaf 6354401366 [⟨⟨.code,[],.lblank,false,[(2,2),(3,0)],true⟩,false,false,[],some 4,some ⟨.code,[],.lcode,false,[(3,0)],false⟩,none,false,true,false,none,false,⟨.lcode,some (.own 3),false,.lblank⟩⟩] .leaf) 6357621084 [⟨⟨.code,[],.lblank,false,[(2,4),(3,0)],true⟩,false,false,[],some 4,some ⟨.code,[],.lcode,false,[(3,0)],false⟩,none,false,true,false,none,false,⟨.lcode,some (.own 3),false,.lblank⟩⟩] (.node .leaf 12084443018 [⟨⟨(.inside 3),[],.lcode,false,[(3,0)],false⟩,false,false,[],some 4,some ⟨(.inside 3),[],.lcode,false,[(2,4),(3,0)],false⟩,none,false,false,false,none,false,⟨.lcode,some (.own 3),false,.lblank⟩⟩] .leaf))) 30396035668 [⟨⟨.code,[47],.lcode,false,[(2,2),(3,0)],false⟩,false,false,[],some 4,some ⟨.code,[],.lcode,false,[(3,0)],false⟩,none,false,false,false,none,false,⟨.lcode,some (.own 3),false,.lblank⟩⟩] (.node (.node (.node .leaf 30397949709 [⟨⟨.code,[47],.lcode,false,[(2,2),(3,0)],false⟩,false,false,[],some 4,some ⟨.code,[],.lcode,false,[(2,4),(3,0)],false⟩,none,false,false,false,none,false,⟨.lcode,some (.own 3),false,.lblank⟩⟩] .leaf) 30399255386 [⟨⟨.code,[47],.lcode,false,[(2,4),(3,0)],false⟩,false,false,[],some 4,some ⟨.code,[],.lcode,false,[(3,0)],false⟩,none,false,false,false,none,false,⟨.lcode,some (.own 3),false,.lblank⟩⟩] (.node .leaf 30401169427 [⟨⟨.code,[47],.lcode,false,[(2,4),(3,0)],false⟩,false,false,[],some 4,some ⟨.code,[],.lcode,false,[(2,4),(3,0)],false⟩,none,false,false,false,none,false,⟨.lcode,some (.own 3),false,.lblank⟩⟩] .leaf)) 71067513444 [⟨⟨(.inside 1),[42],.lcode,false,[(3,0)],false⟩,false,false,[],some 4,some ⟨.code,[],.lcode,false,[(3,0)],false⟩,none,false,false,false,none,false,⟨.lcode,some (.own 3),false,.lblank⟩⟩] (.node (.node .leaf 71069427485 [⟨⟨(.inside 1),[42],.lcode,false,[(3,0)],false⟩,false,false,[],some 4,some ⟨.code,[],.lcode,false,[(2,4),(3,0)],false⟩,none,false,false,false,none,false,⟨.lcode,some (.own 3),false,.lblank⟩⟩] .leaf) 3981873834259 [⟨⟨.code,[47],.lcode,false,[(2,2),(2,4),(3,0)],false⟩,false,false,[],some 4,some ⟨.code,[],.lcode,false,[(3,0)],false⟩,none,false,false,false,none,false,⟨.lcode,some (.own 3),false,.lblank⟩⟩] (.node .leaf 3981875748300 [⟨⟨.code,[47],.lcode,false,[(2,2),(2,4),(3,0)],false⟩,false,false,[],some 4,some ⟨.code,[],.lcode,false,[(2,4),(3,0)],false⟩,none,false,false,false,none,false,⟨.lcode,some (.own 3),false,.lblank⟩⟩] .leaf))))),(.node (.node (.node (.node (.node .leaf 300178 [⟨⟨.code,[],.lcode,false,[(3,1)],false⟩,false,false,[],some 4,some ⟨.code,[],.lcode,false,[(3,0)],false⟩,none,false,false,false,none,false,⟨.lcode,some (.own 3),false,.lblank⟩⟩] .leaf) 2214219 [⟨⟨.code,[],.lcode,false,[(3,1)],false⟩,false,false,[],some 4,some ⟨.code,[],.lcode,false,[(2,4),(3,0)],false⟩,none,false,false,false,none,false,⟨.lcode,some (.own 3),false,.lblank⟩⟩] (.node .leaf 29277640 [⟨⟨.code,[],.lcode,false,[(2,3),(3,1)],false⟩,false,false,[],some 4,some ⟨.code,[],.lcode,false,[(3,0)],false⟩,none,false,false,false,none,false,⟨.lcode,some (.own 3),false,.lblank⟩⟩] .leaf)) 31191681 [⟨⟨.code,[],.lcode,false,[(2,3),(3,1)],false⟩,false,false,[],some 4,some ⟨.code,[],.lcode,false,[(2,4),(3,0)],false⟩,none,false,false,false,none,false,⟨.lcode,some (.own 3),false,.lblank⟩⟩] (.node (.node .leaf 48595952 [⟨⟨.code,[],.lblank,false,[(3,1)],true⟩,false,false,[],some 4,some ⟨.code,[],.lcode,false,[(3,0)],false⟩,none,false,true,false,none,false,⟨.lcode,some (.own 3),false,.lblank⟩⟩] .leaf) 50809903 [⟨⟨.code,[],.lblank,false,[(3,1)],true⟩,false,false,[],some 4,some ⟨.code,[],.lcode,false,[(3,0),(2,4)],false⟩,none,false,true,false,none,false,⟨.lcode,some (.own 3),false,.lblank⟩⟩] .leaf)) 154846642 [⟨⟨(.inside 0),[],.lcode,false,[(3,1)],false⟩,false,false,[],some 4,some ⟨.code,[],.lcode,false,[(3,0)],false⟩,none,false,false,false,none,false,⟨.lcode,some (.own 3),false,.lblank⟩⟩] (.node (.node (.node .leaf 156760683 [⟨⟨(.inside 0),[],.lcode,false,[(3,1)],false⟩,false,false,[],some 4,some ⟨.code,[],.lcode,false,[(2,4),(3,0)],false⟩,none,false,false,false,none,false,⟨.lcode,some (.own 3),false,.lblank⟩⟩] .leaf) 541212802 [⟨⟨(.inside 1),[],.lcode,false,[(3,1)],false⟩,false,false,[],some 4,some ⟨.code,[],.lcode,false,[(3,0)],false⟩,none,false,false,false,none,false,⟨.lcode,some (.own 3),false,.lblank⟩⟩] .leaf) 543126843 [⟨⟨(.inside 1),[],.lcode,false,[(3,1)],false⟩,false,false,[],some 4,some ⟨.code,[],.lcode,false,[(2,4),(3,0)],false⟩,none,false,false,false,none,false,⟨.lcode,some (.own 3),false,.lblank⟩⟩] (.node (.node .leaf 1317701692 [⟨⟨(.inside 3),[92],.lcode,false,[],false⟩,false,false,[],some 4,some ⟨(.inside 3),[],.lcode,false,[],false⟩,none,false,false,false,none,false,⟨.lcode,some (.own 3),false,.lblank⟩⟩] .leaf) 1399291823 [⟨⟨(.inside 3),[92],.lcode,false,[],false⟩,false,false,[],some 4,some ⟨(.inside 3),[],.lcode,false,[(2,4)],false⟩,none,false,false,false,none,false,⟨.lcode,some (.own 3),false,.lblank⟩⟩] .leaf))) 6356023514 [⟨⟨.code,[],.lblank,false,[(2,3),(3,1)],true⟩,false,false,[],some 4,some ⟨.code,[],.lcode,false,[(3,0)],false⟩,none,false,true,false,none,false,⟨.lcode,some (.own 3),false,.lblank⟩⟩] (.node (.node (.node (.node .leaf 121922959254 [⟨⟨(.inside 2),[92],.lcode,false,[(3,0)],false⟩,false,false,[],some 4,some ⟨.code,[],.lcode,false,[(3,0)],false⟩,none,false,false,false,none,false,⟨.lcode,some (.own 3),false,.lblank⟩⟩] .leaf) 121924873295 [⟨⟨(.inside 2),[92],.lcode,false,[(3,0)],false⟩,false,false,[],some 4,some ⟨.code,[],.lcode,false,[(2,4),(3,0)],false⟩,none,false,false,false,none,false,⟨.lcode,some (.own 3),false,.lblank⟩⟩] (.node .leaf 172536926214 [⟨⟨(.inside 3),[92],.lcode,false,[(3,0)],false⟩,false,false,[],some 4,some ⟨.code,[],.lcode,false,[(3,0)],false⟩,none,false,false,false,none,false,⟨.lcode,some (.own 3),false,.lblank⟩⟩] .leaf)) 172538840255 [⟨⟨(.inside 3),[92],.lcode,false,[(3,0)],false⟩,false,false,[],some 4,some ⟨.code,[],.lcode,false,[(2,4),(3,0)],false⟩,none,false,false,false,none,false,⟨.lcode,some (.own 3),false,.lblank⟩⟩] (.node (.node .leaf 172619090064 [⟨⟨(.inside 3),[92],.lcode,false,[(2,4)],false⟩,false,false,[],some 4,some ⟨(.inside 3),[],.lcode,false,[(2,4)],false⟩,none,false,false,false,none,false,⟨.lcode,some (.own 3),false,.lblank⟩⟩] .leaf) 172619129238 [⟨⟨(.inside 3),[92],.lcode,false,[(3,0)],false⟩,false,false,[],some 4,some ⟨(.inside 3),[],.lcode,false,[(3,0)],false⟩,none,false,false,false,none,false,⟨.lcode,some (.own 3),false,.lblank⟩⟩] .leaf)) 183307436399 [⟨⟨(.inside 3),[92],.lcode,false,[(3,0)],false⟩,false,false,[],some 4,some ⟨(.inside 3),[],.lcode,false,[(2,4),(3,0)],false⟩,none,false,false,false,none,false,⟨.lcode,some (.own 3),false,.lblank⟩⟩] (.node (.node (.node .leaf 15971900824025 [⟨⟨(.inside 2),[92],.lcode,false,[(2,4),(3,0)],false⟩,false,false,[],some 4,some ⟨.code,[],.lcode,false,[(3,0)],false⟩,none,false,false,false,none,false,⟨.lcode,some (.own 3),false,.lblank⟩⟩] .leaf) 15971902738066 [⟨⟨(.inside 2),[92],.lcode,false,[(2,4),(3,0)],false⟩,false,false,[],some 4,some ⟨.code,[],.lcode,false,[(2,4),(3,0)],false⟩,none,false,false,false,none,false,⟨.lcode,some (.own 3),false,.lblank⟩⟩] .leaf) 22602330495785 [⟨⟨(.inside 3),[92],.lcode,false,[(2,4),(3,0)],false⟩,false,false,[],some 4,some ⟨.code,[],.lcode,false,[(3,0)],false⟩,none,false,false,false,none,false,⟨.lcode,some (.own 3),false,.lblank⟩⟩] (.node (.node .leaf 22602332409826 [⟨⟨(.inside 3),[92],.lcode,false,[(2,4),(3,0)],false⟩,false,false,[],some 4,some ⟨.code,[],.lcode,false,[(2,4),(3,0)],false⟩,none,false,false,false,none,false,⟨.lcode,some (.own 3),false,.lblank⟩⟩] .leaf) 22613101005970 [⟨⟨(.inside 3),[92],.lcode,false,[(2,4),(3,0)],false⟩,false,false,[],some 4,some ⟨(.inside 3),[],.lcode,false,[(2,4),(3,0)],false⟩,none,false,false,false,none,false,⟨.lcode,some (.own 3),false,.lblank⟩⟩] .leaf)))),(.node (.node (.node (.node (.node .leaf 247177 [⟨⟨.code,[],.lcode,false,[(2,4)],false⟩,false,false,[],some 4,some ⟨.code,[],.lcode,false,[(2,2)],false⟩,none,false,false,false,none,false,⟨.lcode,some (.own 3),false,.lblank⟩⟩] .leaf) 1961278 [⟨⟨.code,[],.lcode,false,[(2,4)],false⟩,false,false,[],some 4,some ⟨.code,[],.lcode,false,[(2,2),(2,4)],false⟩,none,false,false,false,none,false,⟨.lcode,some (.own 3),false,.lblank⟩⟩] .leaf) 9291637 [⟨⟨(.closing 2),[],.lcode,false,[],false⟩,false,false,[],some 4,some ⟨(.inside 2),[],.lcode,false,[],false⟩,none,false,false,false,none,false,⟨.lcode,some (.own 3),false,.lblank⟩⟩] (.node .leaf 32587773 [⟨⟨.code,[],.lcode,false,[(2,4),(3,0)],false⟩,false,false,[],some 4,some ⟨.code,[],.lcode,false,[(2,2),(3,0)],false⟩,none,false,false,false,none,false,⟨.lcode,some (.own 3),false,.lblank⟩⟩] .leaf)) 35664075 [⟨⟨.code,[],.lcode,false,[(3,0),(2,4)],false⟩,false,false,[],some 4,some ⟨.code,[],.lcode,false,[(2,2)],false⟩,none,false,false,false,none,false,⟨.lcode,some (.own 3),false,.lblank⟩⟩] (.node (.node (.node .leaf 37378176 [⟨⟨.code,[],.lcode,false,[(3,0),(2,4)],false⟩,false,false,[],some 4,some ⟨.code,[],.lcode,false,[(2,2),(2,4)],false⟩,none,false,false,false,none,false,⟨.lcode,some (.own 3),false,.lblank⟩⟩] .leaf) 48542951 [⟨⟨.code,[],.lblank,false,[(2,4)],true⟩,false,false,[],some 4,some ⟨.code,[],.lcode,false,[(2,2)],false⟩,none,false,true,false,none,false,⟨.lcode,some (.own 3),false,.lblank⟩⟩] .leaf) 66888968 [⟨⟨(.closing 2),[],.lcode,false,[],false⟩,false,false,[],some 4,some ⟨(.inside 2),[],.lcode,false,[(2,4)],false⟩,none,false,false,false,none,false,⟨.lcode,some (.own 3),false,.lblank⟩⟩] (.node .leaf 232042295 [⟨⟨.code,[47],.lcode,false,[(2,2)],false⟩,false,false,[],some 4,some ⟨.code,[],.lcode,false,[(2,2)],false⟩,none,false,false,false,none,false,⟨.lcode,some (.own 3),false,.lblank⟩⟩] .leaf))) 257135004 [⟨⟨.code,[],.lcode,false,[(2,4),(3,0)],false⟩,false,false,[],some 4,some ⟨.code,[],.lcode,false,[(2,2),(2,4),(3,0)],false⟩,none,false,false,false,none,false,⟨.lcode,some (.own 3),false,.lblank⟩⟩] (.node (.node (.node (.node .leaf 1217412033 [⟨⟨(.closing 2),[],.lcode,false,[(3,0)],false⟩,false,false,[],some 4,some ⟨(.inside 2),[],.lcode,false,[(3,0)],false⟩,none,false,false,false,none,false,⟨.lcode,some (.own 3),false,.lblank⟩⟩] .leaf) 1313892121 [⟨⟨(.inside 3),[],.lcode,false,[(2,4)],false⟩,false,false,[],some 4,some ⟨.code,[],.lcode,false,[(2,2)],false⟩,none,false,false,false,none,false,⟨.lcode,some (.own 3),false,.lblank⟩⟩] .leaf) 1315606222 [⟨⟨(.inside 3),[],.lcode,false,[(2,4)],false⟩,false,false,[],some 4,some ⟨.code,[],.lcode,false,[(2,2),(2,4)],false⟩,none,false,false,false,none,false,⟨.lcode,some (.own 3),false,.lblank⟩⟩] (.node .leaf 6359333647 [⟨⟨.code,[],.lblank,false,[(2,4),(3,0)],true⟩,false,false,[],some 4,some ⟨.code,[],.lcode,false,[(2,2),(3,0)],false⟩,none,false,true,false,none,false,⟨.lcode,some (.own 3),false,.lblank⟩⟩] .leaf)) 6362409949 [⟨⟨.code,[],.lblank,false,[(3,0),(2,4)],true⟩,false,false,[],some 4,some ⟨.code,[],.lcode,false,[(2,2)],false⟩,none,false,true,false,none,false,⟨.lcode,some (.own 3),false,.lblank⟩⟩] (.node (.node (.node .leaf 8762662394 [⟨⟨(.closing 2),[],.lcode,false,[(3,0)],false⟩,false,false,[],some 4,some ⟨(.inside 2),[],.lcode,false,[(2,4),(3,0)],false⟩,none,false,false,false,none,false,⟨.lcode,some (.own 3),false,.lblank⟩⟩] .leaf) 30397709057 [⟨⟨.code,[47],.lcode,false,[(2,2),(2,4)],false⟩,false,false,[],some 4,some ⟨.code,[],.lcode,false,[(2,2),(2,4)],false⟩,none,false,false,false,none,false,⟨.lcode,some (.own 3),false,.lblank⟩⟩] .leaf) 30397748231 [⟨⟨.code,[47],.lcode,false,[(2,2),(3,0)],false⟩,false,false,[],some 4,some ⟨.code,[],.lcode,false,[(2,2),(3,0)],false⟩,none,false,false,false,none,false,⟨.lcode,some (.own 3),false,.lblank⟩⟩] (.node .leaf 3982100094053 [⟨⟨.code,[47],.lcode,false,[(2,2),(2,4),(3,0)],false⟩,false,false,[],some 4,some ⟨.code,[],.lcode,false,[(2,2),(2,4),(3,0)],false⟩,none,false,false,false,none,false,⟨.lcode,some (.own 3),false,.lblank⟩⟩] .leaf)))),(.node (.node (.node (.node .leaf 234888 [⟨⟨.code,[],.lcode,false,[(2,3)],false⟩,false,false,[],some 4,some ⟨.code,[],.lcode,false,[(2,2)],false⟩,none,false,false,false,none,false,⟨.lcode,some (.own 3),false,.lblank⟩⟩] .leaf) 1948989 [⟨⟨.code,[],.lcode,false,[(2,3)],false⟩,false,false,[],some 4,some ⟨.code,[],.lcode,false,[(2,2),(2,4)],false⟩,none,false,false,false,none,false,⟨.lcode,some (.own 3),false,.lblank⟩⟩] .leaf) 30990203 [⟨⟨.code,[],.lcode,false,[(2,3),(3,1)],false⟩,false,false,[],some 4,some ⟨.code,[],.lcode,false,[(2,2),(3,0)],false⟩,none,false,false,false,none,false,⟨.lcode,some (.own 3),false,.lblank⟩⟩] (.node (.node .leaf 48530662 [⟨⟨.code,[],.lblank,false,[(2,3)],true⟩,false,false,[],some 4,some ⟨.code,[],.lcode,false,[(2,2)],false⟩,none,false,true,false,none,false,⟨.lcode,some (.own 3),false,.lblank⟩⟩] .leaf) 255537434 [⟨⟨.code,[],.lcode,false,[(2,3),(3,1)],false⟩,false,false,[],some 4,some ⟨.code,[],.lcode,false,[(2,2),(2,4),(3,0)],false⟩,none,false,false,false,none,false,⟨.lcode,some (.own 3),false,.lblank⟩⟩] .leaf)) 931150972 [⟨⟨(.inside 2),[92],.lcode,false,[],false⟩,false,false,[],some 4,some ⟨(.inside 2),[],.lcode,false,[],false⟩,none,false,false,false,none,false,⟨.lcode,some (.own 3),false,.lblank⟩⟩] (.node (.node (.node .leaf 6357736077 [⟨⟨.code,[],.lblank,false,[(2,3),(3,1)],true⟩,false,false,[],some 4,some ⟨.code,[],.lcode,false,[(2,2),(3,0)],false⟩,none,false,true,false,none,false,⟨.lcode,some (.own 3),false,.lblank⟩⟩] .leaf) 121980945744 [⟨⟨(.inside 2),[92],.lcode,false,[(2,4)],false⟩,false,false,[],some 4,some ⟨(.inside 2),[],.lcode,false,[(2,4)],false⟩,none,false,false,false,none,false,⟨.lcode,some (.own 3),false,.lblank⟩⟩] .leaf) 121980984918 [⟨⟨(.inside 2),[92],.lcode,false,[(3,0)],false⟩,false,false,[],some 4,some ⟨(.inside 2),[],.lcode,false,[(3,0)],false⟩,none,false,false,false,none,false,⟨.lcode,some (.own 3),false,.lblank⟩⟩] (.node .leaf 15979504100050 [⟨⟨(.inside 2),[92],.lcode,false,[(2,4),(3,0)],false⟩,false,false,[],some 4,some ⟨(.inside 2),[],.lcode,false,[(2,4),(3,0)],false⟩,none,false,false,false,none,false,⟨.lcode,some (.own 3),false,.lblank⟩⟩] .leaf))),(.node (.node (.node (.node .leaf 610242271 [⟨⟨(.inside 1),[],.lcode,false,[],false⟩,false,false,[],some 4,some ⟨.code,[47],.lcode,false,[],false⟩,some ([(42,(.other,false))],false),false,false,false,none,false,⟨.lcode,some (.own 3),false,.lblank⟩⟩] .leaf) 611599119 [⟨⟨(.inside 1),[],.lcomment,false,[],false⟩,false,false,[],some 4,some ⟨.code,[47],.lcomment,false,[],false⟩,some ([(42,(.other,false))],false),false,false,false,none,false,⟨.lcomment,some (.own 3),false,.lblank⟩⟩] (.node .leaf 612807987 [⟨⟨(.inside 1),[],.lcomment,false,[],false⟩,false,false,[],some 4,some ⟨.code,[47],.lblank,false,[],false⟩,some ([(42,(.other,false))],false),false,false,false,none,false,⟨.lcomment,some (.own 3),false,.lblank⟩⟩] .leaf)) 624651024 [⟨⟨(.inside 1),[],.lcode,false,[],false⟩,false,false,[],some 4,some ⟨.code,[47],.lcode,false,[(2,2)],false⟩,some ([(42,(.other,false))],false),false,false,false,none,false,⟨.lcode,some (.own 3),false,.lblank⟩⟩] (.node (.node .leaf 624651793 [⟨⟨(.inside 1),[],.lcode,false,[],false⟩,false,false,[],some 4,some ⟨.code,[47],.lcode,false,[(2,3)],false⟩,some ([(42,(.other,false))],false),false,false,false,none,false,⟨.lcode,some (.own 3),false,.lblank⟩⟩] .leaf) 624652562 [⟨⟨(.inside 1),[],.lcode,false,[],false⟩,false,false,[],some 4,some ⟨.code,[47],.lcode,false,[(2,4)],false⟩,some ([(42,(.other,false))],false),false,false,false,none,false,⟨.lcode,some (.own 3),false,.lblank⟩⟩] (.node .leaf 1161708747 [⟨⟨(.inside 1),[],.lcode,false,[(3,0)],false⟩,false,false,[],some 4,some ⟨.code,[47],.lcode,false,[(3,0)],false⟩,some ([(42,(.other,false))],false),false,false,false,none,false,⟨.lcode,some (.own 3),false,.lblank⟩⟩] .leaf))) 1161709516 [⟨⟨(.inside 1),[],.lcode,false,[(3,0)],false⟩,false,false,[],some 4,some ⟨.code,[47],.lcode,false,[(3,1)],false⟩,some ([(42,(.other,false))],false),false,false,false,none,false,⟨.lcode,some (.own 3),false,.lblank⟩⟩] (.node (.node (.node .leaf 2512199205 [⟨⟨(.inside 1),[],.lcode,false,[],false⟩,false,false,[],some 4,some ⟨.code,[47],.lcode,false,[(2,2),(2,4)],false⟩,some ([(42,(.other,false))],false),false,false,false,none,false,⟨.lcode,some (.own 3),false,.lblank⟩⟩] .leaf) 3049255390 [⟨⟨(.inside 1),[],.lcode,false,[(3,0)],false⟩,false,false,[],some 4,some ⟨.code,[47],.lcode,false,[(2,2),(3,0)],false⟩,some ([(42,(.other,false))],false),false,false,false,none,false,⟨.lcode,some (.own 3),false,.lblank⟩⟩] (.node .leaf 3049356898 [⟨⟨(.inside 1),[],.lcode,false,[(3,0)],false⟩,false,false,[],some 4,some ⟨.code,[47],.lcode,false,[(2,3),(3,1)],false⟩,some ([(42,(.other,false))],false),false,false,false,none,false,⟨.lcode,some (.own 3),false,.lblank⟩⟩] .leaf)) 3049456868 [⟨⟨(.inside 1),[],.lcode,false,[(3,0)],false⟩,false,false,[],some 4,some ⟨.code,[47],.lcode,false,[(2,4),(3,0)],false⟩,some ([(42,(.other,false))],false),false,false,false,none,false,⟨.lcode,some (.own 3),false,.lblank⟩⟩] (.node (.node .leaf 3049756778 [⟨⟨(.inside 1),[],.lcode,false,[(3,0)],false⟩,false,false,[],some 4,some ⟨.code,[47],.lcode,false,[(3,0),(2,4)],false⟩,some ([(42,(.other,false))],false),false,false,false,none,false,⟨.lcode,some (.own 3),false,.lblank⟩⟩] .leaf) 250318067101 [⟨⟨(.inside 1),[],.lcode,false,[(3,0)],false⟩,false,false,[],some 4,some ⟨.code,[47],.lcode,false,[(2,2),(2,4),(3,0)],false⟩,some ([(42,(.other,false))],false),false,false,false,none,false,⟨.lcode,some (.own 3),false,.lblank⟩⟩] .leaf))),(.node (.node .leaf 1179872 [⟨⟨(.inside 0),[],.lcode,false,[],false⟩,false,false,[],none,none,none,false,false,false,none,false,⟨.lcode,some (.own 3),false,.lblank⟩⟩] .leaf) 1327852 [⟨⟨(.inside 0),[],.lcomment,false,[],false⟩,false,false,[],none,none,none,false,false,false,none,false,⟨.lcomment,some (.own 3),false,.lblank⟩⟩] (.node .leaf 154816950 [⟨⟨(.inside 0),[],.lcode,false,[(3,0)],false⟩,false,false,[],none,none,none,false,false,false,none,false,⟨.lcode,some (.own 3),false,.lblank⟩⟩] .leaf)),(.node (.node (.node (.node (.node (.node .leaf 287889 [⟨⟨.code,[],.lcode,false,[(3,0)],false⟩,false,false,[],some 4,some ⟨.code,[],.lcode,false,[(3,0)],false⟩,none,false,false,false,none,false,⟨.lcode,some (.own 3),false,.lblank⟩⟩] .leaf) 2201930 [⟨⟨.code,[],.lcode,false,[(3,0)],false⟩,false,false,[],some 4,some ⟨.code,[],.lcode,false,[(2,4),(3,0)],false⟩,none,false,false,false,none,false,⟨.lcode,some (.own 3),false,.lblank⟩⟩] .leaf) 10655941 [⟨⟨(.inside 3),[],.lcode,false,[],false⟩,false,false,[],some 4,some ⟨(.inside 3),[],.lcode,false,[],false⟩,none,false,false,false,none,false,⟨.lcode,some (.own 3),false,.lblank⟩⟩] (.node .leaf 27655492 [⟨⟨.code,[],.lcode,false,[(2,2),(3,0)],false⟩,false,false,[],some 4,some ⟨.code,[],.lcode,false,[(3,0)],false⟩,none,false,false,false,none,false,⟨.lcode,some (.own 3),false,.lblank⟩⟩] .leaf)) 29569533 [⟨⟨.code,[],.lcode,false,[(2,2),(3,0)],false⟩,false,false,[],some 4,some ⟨.code,[],.lcode,false,[(2,4),(3,0)],false⟩,none,false,false,false,none,false,⟨.lcode,some (.own 3),false,.lblank⟩⟩] (.node (.node .leaf 30875210 [⟨⟨.code,[],.lcode,false,[(2,4),(3,0)],false⟩,false,false,[],some 4,some ⟨.code,[],.lcode,false,[(3,0)],false⟩,none,false,false,false,none,false,⟨.lcode,some (.own 3),false,.lblank⟩⟩] .leaf) 32789251 [⟨⟨.code,[],.lcode,false,[(2,4),(3,0)],false⟩,false,false,[],some 4,some ⟨.code,[],.lcode,false,[(2,4),(3,0)],false⟩,none,false,false,false,none,false,⟨.lcode,some (.own 3),false,.lblank⟩⟩] (.node .leaf 48583663 [⟨⟨.code,[],.lblank,false,[(3,0)],true⟩,false,false,[],some 4,some ⟨.code,[],.lcode,false,[(3,0)],false⟩,none,false,true,false,none,false,⟨.lcode,some (.own 3),false,.lblank⟩⟩] .leaf))) 50797614 [⟨⟨.code,[],.lblank,false,[(3,0)],true⟩,false,false,[],some 4,some ⟨.code,[],.lcode,false,[(3,0),(2,4)],false⟩,none,false,true,false,none,false,⟨.lcode,some (.own 3),false,.lblank⟩⟩] (.node (.node (.node (.node .leaf 92246072 [⟨⟨(.inside 3),[],.lcode,false,[],false⟩,false,false,[],some 4,some ⟨(.inside 3),[],.lcode,false,[(2,4)],false⟩,none,false,false,false,none,false,⟨.lcode,some (.own 3),false,.lblank⟩⟩] .leaf) 154834353 [⟨⟨(.inside 0),[],.lcode,false,[(3,0)],false⟩,false,false,[],some 4,some ⟨.code,[],.lcode,false,[(3,0)],false⟩,none,false,false,false,none,false,⟨.lcode,some (.own 3),false,.lblank⟩⟩] .leaf) 156748394 [⟨⟨(.inside 0),[],.lcode,false,[(3,0)],false⟩,false,false,[],some 4,some ⟨.code,[],.lcode,false,[(2,4),(3,0)],false⟩,none,false,false,false,none,false,⟨.lcode,some (.own 3),false,.lblank⟩⟩] (.node .leaf 232119874 [⟨⟨.code,[47],.lcode,false,[(3,1)],false⟩,false,false,[],some 4,some ⟨.code,[],.lcode,false,[(3,0)],false⟩,none,false,false,false,none,false,⟨.lcode,some (.own 3),false,.lblank⟩⟩] .leaf)) 234033915 [⟨⟨.code,[47],.lcode,false,[(3,1)],false⟩,false,false,[],some 4,some ⟨.code,[],.lcode,false,[(2,4),(3,0)],false⟩,none,false,false,false,none,false,⟨.lcode,some (.own 3),false,.lblank⟩⟩] (.node (.node .leaf 541200513 [⟨⟨(.inside 1),[],.lcode,false,[(3,0)],false⟩,false,false,[],some 4,some ⟨.code,[],.lcode,false,[(3,0)],false⟩,none,false,false,false,none,false,⟨.lcode,some (.own 3),false,.lblank⟩⟩] .leaf) 543114554 [⟨⟨(.inside 1),[],.lcode,false,[(3,0)],false⟩,false,false,[],some 4,some ⟨.code,[],.lcode,false,[(2,4),(3,0)],false⟩,none,false,false,false,none,false,⟨.lcode,some (.own 3),false,.lblank⟩⟩] (.node .leaf 927566673 [⟨⟨(.inside 2),[],.lcode,false,[(3,0)],false⟩,false,false,[],some 4,some ⟨.code,[],.lcode,false,[(3,0)],false⟩,none,false,false,false,none,false,⟨.lcode,some (.own 3),false,.lblank⟩⟩] .leaf)))) 929480714 [⟨⟨(.inside 2),[],.lcode,false,[(3,0)],false⟩,false,false,[],some 4,some ⟨.code,[],.lcode,false,[(2,4),(3,0)],false⟩,none,false,false,false,none,false,⟨.lcode,some (.own 3),false,.lblank⟩⟩] (.node (.node (.node (.node (.node .leaf 1159386369 [⟨⟨(.closing 2),[],.lcode,false,[(3,0)],false⟩,false,false,[],some 4,some ⟨.code,[],.lcode,false,[(3,0)],false⟩,none,false,false,false,none,false,⟨.lcode,some (.own 3),false,.lblank⟩⟩] .leaf) 1161300410 [⟨⟨(.closing 2),[],.lcode,false,[(3,0)],false⟩,false,false,[],some 4,some ⟨.code,[],.lcode,false,[(2,4),(3,0)],false⟩,none,false,false,false,none,false,⟨.lcode,some (.own 3),false,.lblank⟩⟩] .leaf) 1313932833 [⟨⟨(.inside 3),[],.lcode,false,[(3,0)],false⟩,false,false,[],some 4,some ⟨.code,[],.lcode,false,[(3,0)],false⟩,none,false,false,false,none,false,⟨.lcode,some (.own 3),false,.lblank⟩⟩] (.node .leaf 1315846874 [⟨⟨(.inside 3),[],.lcode,false,[(3,0)],false⟩,false,false,[],some 4,some ⟨.code,[],.lcode,false,[(2,4),(3,0)],false⟩,none,false,false,false,none,false,⟨.lcode,some (.own 3),false,.lblank⟩⟩] .leaf)) 1396135857 [⟨⟨(.inside 3),[],.lcode,false,[(3,0)],false⟩,false,false,[],some 4,some ⟨(.inside 3),[],.lcode,false,[(3,0)],false⟩,none,false,false,false,none,false,⟨.lcode,some (.own 3),false,.lblank⟩⟩] (.node (.node .leaf 3616031203 [⟨⟨.code,[],.lcode,false,[(2,2),(2,4),(3,0)],false⟩,false,false,[],some 4,some ⟨.code,[],.lcode,false,[(3,0)],false⟩,none,false,false,false,none,false,⟨.lcode,some (.own 3),false,.lblank⟩⟩] .leaf) 3617945244 [⟨⟨.code,[],.lcode,false,[(2,2),(2,4),(3,0)],false⟩,false,false,[],some 4,some ⟨.code,[],.lcode,false,[(2,4),(3,0)],false⟩,none,false,false,false,none,false,⟨.lcode,some (.own 3),false,.lblank⟩⟩] (.node .leaf 6357621084 [⟨⟨.code,[],.lblank,false,[(2,4),(3,0)],true⟩,false,false,[],some 4,some ⟨.code,[],.lcode,false,[(3,0)],false⟩,none,false,true,false,none,false,⟨.lcode,some (.own 3),false,.lblank⟩⟩] .leaf))) 12084443018 [⟨⟨(.inside 3),[],.lcode,false,[(3,0)],false⟩,false,false,[],some 4,some ⟨(.inside 3),[],.lcode,false,[(2,4),(3,0)],false⟩,none,false,false,false,none,false,⟨.lcode,some (.own 3),false,.lblank⟩⟩] (.node (.node (.node (.node .leaf 30397657816 [⟨⟨.code,[47],.lcode,false,[(2,3),(3,1)],false⟩,false,false,[],some 4,some ⟨.code,[],.lcode,false,[(3,0)],false⟩,none,false,false,false,none,false,⟨.lcode,some (.own 3),false,.lblank⟩⟩] .leaf) 30399571857 [⟨⟨.code,[47],.lcode,false,[(2,3),(3,1)],false⟩,false,false,[],some 4,some ⟨.code,[],.lcode,false,[(2,4),(3,0)],false⟩,none,false,false,false,none,false,⟨.lcode,some (.own 3),false,.lblank⟩⟩] .leaf) 71067525733 [⟨⟨(.inside 1),[42],.lcode,false,[(3,1)],false⟩,false,false,[],some 4,some ⟨.code,[],.lcode,false,[(3,0)],false⟩,none,false,false,false,none,false,⟨.lcode,some (.own 3),false,.lblank⟩⟩] (.node .leaf 71069439774 [⟨⟨(.inside 1),[42],.lcode,false,[(3,1)],false⟩,false,false,[],some 4,some ⟨.code,[],.lcode,false,[(2,4),(3,0)],false⟩,none,false,false,false,none,false,⟨.lcode,some (.own 3),false,.lblank⟩⟩] .leaf)) 121504395914 [⟨⟨(.inside 2),[],.lcode,false,[(2,4),(3,0)],false⟩,false,false,[],some 4,some ⟨.code,[],.lcode,false,[(3,0)],false⟩,none,false,false,false,none,false,⟨.lcode,some (.own 3),false,.lblank⟩⟩] (.node (.node .leaf 121506309955 [⟨⟨(.inside 2),[],.lcode,false,[(2,4),(3,0)],false⟩,false,false,[],some 4,some ⟨.code,[],.lcode,false,[(2,4),(3,0)],false⟩,none,false,false,false,none,false,⟨.lcode,some (.own 3),false,.lblank⟩⟩] .leaf) 172118362874 [⟨⟨(.inside 3),[],.lcode,false,[(2,4),(3,0)],false⟩,false,false,[],some 4,some ⟨.code,[],.lcode,false,[(3,0)],false⟩,none,false,false,false,none,false,⟨.lcode,some (.own 3),false,.lblank⟩⟩] (.node .leaf 172120276915 [⟨⟨(.inside 3),[],.lcode,false,[(2,4),(3,0)],false⟩,false,false,[],some 4,some ⟨.code,[],.lcode,false,[(2,4),(3,0)],false⟩,none,false,false,false,none,false,⟨.lcode,some (.own 3),false,.lblank⟩⟩] .leaf))))),(.node (.node (.node (.node (.node .leaf 247177 [⟨⟨.code,[],.lcode,false,[(2,4)],false⟩,false,false,[],some 4,some ⟨.code,[],.lcode,false,[(2,2)],false⟩,none,false,false,false,none,false,⟨.lcode,some (.own 3),false,.lblank⟩⟩] .leaf) 1961278 [⟨⟨.code,[],.lcode,false,[(2,4)],false⟩,false,false,[],some 4,some ⟨.code,[],.lcode,false,[(2,2),(2,4)],false⟩,none,false,false,false,none,false,⟨.lcode,some (.own 3),false,.lblank⟩⟩] (.node .leaf 9291637 [⟨⟨(.closing 2),[],.lcode,false,[],false⟩,false,false,[],some 4,some ⟨(.inside 2),[],.lcode,false,[],false⟩,none,false,false,false,none,false,⟨.lcode,some (.own 3),false,.lblank⟩⟩] .leaf)) 27614780 [⟨⟨.code,[],.lcode,false,[(2,2),(2,4)],false⟩,false,false,[],some 4,some ⟨.code,[],.lcode,false,[(2,2)],false⟩,none,false,false,false,none,false,⟨.lcode,some (.own 3),false,.lblank⟩⟩] (.node (.node .leaf 29328881 [⟨⟨.code,[],.lcode,false,[(2,2),(2,4)],false⟩,false,false,[],some 4,some ⟨.code,[],.lcode,false,[(2,2),(2,4)],false⟩,none,false,false,false,none,false,⟨.lcode,some (.own 3),false,.lblank⟩⟩] .leaf) 32587773 [⟨⟨.code,[],.lcode,false,[(2,4),(3,0)],false⟩,false,false,[],some 4,some ⟨.code,[],.lcode,false,[(2,2),(3,0)],false⟩,none,false,false,false,none,false,⟨.lcode,some (.own 3),false,.lblank⟩⟩] (.node .leaf 35664075 [⟨⟨.code,[],.lcode,false,[(3,0),(2,4)],false⟩,false,false,[],some 4,some ⟨.code,[],.lcode,false,[(2,2)],false⟩,none,false,false,false,none,false,⟨.lcode,some (.own 3),false,.lblank⟩⟩] .leaf))) 37378176 [⟨⟨.code,[],.lcode,false,[(3,0),(2,4)],false⟩,false,false,[],some 4,some ⟨.code,[],.lcode,false,[(2,2),(2,4)],false⟩,none,false,false,false,none,false,⟨.lcode,some (.own 3),false,.lblank⟩⟩] (.node (.node (.node .leaf 48542951 [⟨⟨.code,[],.lblank,false,[(2,4)],true⟩,false,false,[],some 4,some ⟨.code,[],.lcode,false,[(2,2)],false⟩,none,false,true,false,none,false,⟨.lcode,some (.own 3),false,.lblank⟩⟩] .leaf) 66888968 [⟨⟨(.closing 2),[],.lcode,false,[],false⟩,false,false,[],some 4,some ⟨(.inside 2),[],.lcode,false,[(2,4)],false⟩,none,false,false,false,none,false,⟨.lcode,some (.own 3),false,.lblank⟩⟩] (.node .leaf 232054584 [⟨⟨.code,[47],.lcode,false,[(2,3)],false⟩,false,false,[],some 4,some ⟨.code,[],.lcode,false,[(2,2)],false⟩,none,false,false,false,none,false,⟨.lcode,some (.own 3),false,.lblank⟩⟩] .leaf)) 233768685 [⟨⟨.code,[47],.lcode,false,[(2,3)],false⟩,false,false,[],some 4,some ⟨.code,[],.lcode,false,[(2,2),(2,4)],false⟩,none,false,false,false,none,false,⟨.lcode,some (.own 3),false,.lblank⟩⟩] (.node (.node .leaf 257135004 [⟨⟨.code,[],.lcode,false,[(2,4),(3,0)],false⟩,false,false,[],some 4,some ⟨.code,[],.lcode,false,[(2,2),(2,4),(3,0)],false⟩,none,false,false,false,none,false,⟨.lcode,some (.own 3),false,.lblank⟩⟩] .leaf) 927525961 [⟨⟨(.inside 2),[],.lcode,false,[(2,4)],false⟩,false,false,[],some 4,some ⟨.code,[],.lcode,false,[(2,2)],false⟩,none,false,false,false,none,false,⟨.lcode,some (.own 3),false,.lblank⟩⟩] .leaf))) 929240062 [⟨⟨(.inside 2),[],.lcode,false,[(2,4)],false⟩,false,false,[],some 4,some ⟨.code,[],.lcode,false,[(2,2),(2,4)],false⟩,none,false,false,false,none,false,⟨.lcode,some (.own 3),false,.lblank⟩⟩] (.node (.node (.node (.node .leaf 1217412033 [⟨⟨(.closing 2),[],.lcode,false,[(3,0)],false⟩,false,false,[],some 4,some ⟨(.inside 2),[],.lcode,false,[(3,0)],false⟩,none,false,false,false,none,false,⟨.lcode,some (.own 3),false,.lblank⟩⟩] .leaf) 1313892121 [⟨⟨(.inside 3),[],.lcode,false,[(2,4)],false⟩,false,false,[],some 4,some ⟨.code,[],.lcode,false,[(2,2)],false⟩,none,false,false,false,none,false,⟨.lcode,some (.own 3),false,.lblank⟩⟩] (.node .leaf 1315606222 [⟨⟨(.inside 3),[],.lcode,false,[(2,4)],false⟩,false,false,[],some 4,some ⟨.code,[],.lcode,false,[(2,2),(2,4)],false⟩,none,false,false,false,none,false,⟨.lcode,some (.own 3),false,.lblank⟩⟩] .leaf)) 3617743766 [⟨⟨.code,[],.lcode,false,[(2,2),(2,4),(3,0)],false⟩,false,false,[],some 4,some ⟨.code,[],.lcode,false,[(2,2),(3,0)],false⟩,none,false,false,false,none,false,⟨.lcode,some (.own 3),false,.lblank⟩⟩] (.node (.node .leaf 3842290997 [⟨⟨.code,[],.lcode,false,[(2,2),(2,4),(3,0)],false⟩,false,false,[],some 4,some ⟨.code,[],.lcode,false,[(2,2),(2,4),(3,0)],false⟩,none,false,false,false,none,false,⟨.lcode,some (.own 3),false,.lblank⟩⟩] .leaf) 6359333647 [⟨⟨.code,[],.lblank,false,[(2,4),(3,0)],true⟩,false,false,[],some 4,some ⟨.code,[],.lcode,false,[(2,2),(3,0)],false⟩,none,false,true,false,none,false,⟨.lcode,some (.own 3),false,.lblank⟩⟩] .leaf)) 8762662394 [⟨⟨(.closing 2),[],.lcode,false,[(3,0)],false⟩,false,false,[],some 4,some ⟨(.inside 2),[],.lcode,false,[(2,4),(3,0)],false⟩,none,false,false,false,none,false,⟨.lcode,some (.own 3),false,.lblank⟩⟩] (.node (.node (.node .leaf 30399370379 [⟨⟨.code,[47],.lcode,false,[(2,3),(3,1)],false⟩,false,false,[],some 4,some ⟨.code,[],.lcode,false,[(2,2),(3,0)],false⟩,none,false,false,false,none,false,⟨.lcode,some (.own 3),false,.lblank⟩⟩] .leaf) 30623917610 [⟨⟨.code,[47],.lcode,false,[(2,3),(3,1)],false⟩,false,false,[],some 4,some ⟨.code,[],.lcode,false,[(2,2),(2,4),(3,0)],false⟩,none,false,false,false,none,false,⟨.lcode,some (.own 3),false,.lblank⟩⟩] (.node .leaf 121506108477 [⟨⟨(.inside 2),[],.lcode,false,[(2,4),(3,0)],false⟩,false,false,[],some 4,some ⟨.code,[],.lcode,false,[(2,2),(3,0)],false⟩,none,false,false,false,none,false,⟨.lcode,some (.own 3),false,.lblank⟩⟩] .leaf)) 121730655708 [⟨⟨(.inside 2),[],.lcode,false,[(2,4),(3,0)],false⟩,false,false,[],some 4,some ⟨.code,[],.lcode,false,[(2,2),(2,4),(3,0)],false⟩,none,false,false,false,none,false,⟨.lcode,some (.own 3),false,.lblank⟩⟩] (.node (.node .leaf 172120075437 [⟨⟨(.inside 3),[],.lcode,false,[(2,4),(3,0)],false⟩,false,false,[],some 4,some ⟨.code,[],.lcode,false,[(2,2),(3,0)],false⟩,none,false,false,false,none,false,⟨.lcode,some (.own 3),false,.lblank⟩⟩] .leaf) 172344622668 [⟨⟨(.inside 3),[],.lcode,false,[(2,4),(3,0)],false⟩,false,false,[],some 4,some ⟨.code,[],.lcode,false,[(2,2),(2,4),(3,0)],false⟩,none,false,false,false,none,false,⟨.lcode,some (.own 3),false,.lblank⟩⟩] .leaf)))),(.node (.node (.node (.node (.node (.node .leaf 610242271 [⟨⟨(.inside 1),[],.lcode,false,[],false⟩,false,false,[],some 4,some ⟨.code,[47],.lcode,false,[],false⟩,some ([(42,(.other,false))],false),false,false,false,none,false,⟨.lcode,some (.own 3),false,.lblank⟩⟩] .leaf) 610390259 [⟨⟨(.inside 1),[],.lcomment,false,[],false⟩,false,false,[],some 4,some ⟨.code,[47],.lcode,false,[],false⟩,some ([(42,(.other,false))],false),true,false,false,none,false,⟨.lcomment,some .internalNl,false,.lblank⟩⟩] .leaf) 611599119 [⟨⟨(.inside 1),[],.lcomment,false,[],false⟩,false,false,[],some 4,some ⟨.code,[47],.lcomment,false,[],false⟩,some ([(42,(.other,false))],false),false,false,false,none,false,⟨.lcomment,some (.own 3),false,.lblank⟩⟩] (.node .leaf 611599127 [⟨⟨(.inside 1),[],.lcomment,false,[],false⟩,false,false,[],some 4,some ⟨.code,[47],.lcomment,false,[],false⟩,some ([(42,(.other,false))],false),true,false,false,none,false,⟨.lcomment,some .internalNl,false,.lblank⟩⟩] .leaf)) 612807987 [⟨⟨(.inside 1),[],.lcomment,false,[],false⟩,false,false,[],some 4,some ⟨.code,[47],.lblank,false,[],false⟩,some ([(42,(.other,false))],false),false,false,false,none,false,⟨.lcomment,some (.own 3),false,.lblank⟩⟩] (.node (.node .leaf 612807995 [⟨⟨(.inside 1),[],.lcomment,false,[],false⟩,false,false,[],some 4,some ⟨.code,[47],.lblank,false,[],false⟩,some ([(42,(.other,false))],false),true,false,false,none,false,⟨.lcomment,some .internalNl,false,.lblank⟩⟩] .leaf) 624651024 [⟨⟨(.inside 1),[],.lcode,false,[],false⟩,false,false,[],some 4,some ⟨.code,[47],.lcode,false,[(2,2)],false⟩,some ([(42,(.other,false))],false),false,false,false,none,false,⟨.lcode,some (.own 3),false,.lblank⟩⟩] (.node .leaf 624651793 [⟨⟨(.inside 1),[],.lcode,false,[],false⟩,false,false,[],some 4,some ⟨.code,[47],.lcode,false,[(2,3)],false⟩,some ([(42,(.other,false))],false),false,false,false,none,false,⟨.lcode,some (.own 3),false,.lblank⟩⟩] .leaf))) 624652562 [⟨⟨(.inside 1),[],.lcode,false,[],false⟩,false,false,[],some 4,some ⟨.code,[47],.lcode,false,[(2,4)],false⟩,some ([(42,(.other,false))],false),false,false,false,none,false,⟨.lcode,some (.own 3),false,.lblank⟩⟩] (.node (.node (.node (.node .leaf 624799012 [⟨⟨(.inside 1),[],.lcomment,false,[],false⟩,false,false,[],some 4,some ⟨.code,[47],.lcode,false,[(2,2)],false⟩,some ([(42,(.other,false))],false),true,false,false,none,false,⟨.lcomment,some .internalNl,false,.lblank⟩⟩] .leaf) 624799781 [⟨⟨(.inside 1),[],.lcomment,false,[],false⟩,false,false,[],some 4,some ⟨.code,[47],.lcode,false,[(2,3)],false⟩,some ([(42,(.other,false))],false),true,false,false,none,false,⟨.lcomment,some .internalNl,false,.lblank⟩⟩] .leaf) 624800550 [⟨⟨(.inside 1),[],.lcomment,false,[],false⟩,false,false,[],some 4,some ⟨.code,[47],.lcode,false,[(2,4)],false⟩,some ([(42,(.other,false))],false),true,false,false,none,false,⟨.lcomment,some .internalNl,false,.lblank⟩⟩] (.node .leaf 624802857 [⟨⟨(.inside 1),[],.lcomment,false,[],false⟩,false,false,[],some 4,some ⟨.code,[47],.lcode,false,[(3,0)],false⟩,some ([(42,(.other,false))],false),true,false,false,none,false,⟨.lcomment,some .internalNl,false,.lblank⟩⟩] .leaf)) 624803626 [⟨⟨(.inside 1),[],.lcomment,false,[],false⟩,false,false,[],some 4,some ⟨.code,[47],.lcode,false,[(3,1)],false⟩,some ([(42,(.other,false))],false),true,false,false,none,false,⟨.lcomment,some .internalNl,false,.lblank⟩⟩] (.node (.node .leaf 1161708747 [⟨⟨(.inside 1),[],.lcode,false,[(3,0)],false⟩,false,false,[],some 4,some ⟨.code,[47],.lcode,false,[(3,0)],false⟩,some ([(42,(.other,false))],false),false,false,false,none,false,⟨.lcode,some (.own 3),false,.lblank⟩⟩] .leaf) 1161709516 [⟨⟨(.inside 1),[],.lcode,false,[(3,0)],false⟩,false,false,[],some 4,some ⟨.code,[47],.lcode,false,[(3,1)],false⟩,some ([(42,(.other,false))],false),false,false,false,none,false,⟨.lcode,some (.own 3),false,.lblank⟩⟩] (.node .leaf 1161721036 [⟨⟨(.inside 1),[],.lcode,false,[(3,1)],false⟩,false,false,[],some 4,some ⟨.code,[47],.lcode,false,[(3,0)],false⟩,some ([(42,(.other,false))],false),false,false,false,none,false,⟨.lcode,some (.own 3),false,.lblank⟩⟩] .leaf)))) 1161721805 [⟨⟨(.inside 1),[],.lcode,false,[(3,1)],false⟩,false,false,[],some 4,some ⟨.code,[47],.lcode,false,[(3,1)],false⟩,some ([(42,(.other,false))],false),false,false,false,none,false,⟨.lcode,some (.own 3),false,.lblank⟩⟩] (.node (.node (.node (.node (.node .leaf 2512199205 [⟨⟨(.inside 1),[],.lcode,false,[],false⟩,false,false,[],some 4,some ⟨.code,[47],.lcode,false,[(2,2),(2,4)],false⟩,some ([(42,(.other,false))],false),false,false,false,none,false,⟨.lcode,some (.own 3),false,.lblank⟩⟩] .leaf) 2512347193 [⟨⟨(.inside 1),[],.lcomment,false,[],false⟩,false,false,[],some 4,some ⟨.code,[47],.lcode,false,[(2,2),(2,4)],false⟩,some ([(42,(.other,false))],false),true,false,false,none,false,⟨.lcomment,some .internalNl,false,.lblank⟩⟩] .leaf) 2512349500 [⟨⟨(.inside 1),[],.lcomment,false,[],false⟩,false,false,[],some 4,some ⟨.code,[47],.lcode,false,[(2,2),(3,0)],false⟩,some ([(42,(.other,false))],false),true,false,false,none,false,⟨.lcomment,some .internalNl,false,.lblank⟩⟩] (.node .leaf 2512451008 [⟨⟨(.inside 1),[],.lcomment,false,[],false⟩,false,false,[],some 4,some ⟨.code,[47],.lcode,false,[(2,3),(3,1)],false⟩,some ([(42,(.other,false))],false),true,false,false,none,false,⟨.lcomment,some .internalNl,false,.lblank⟩⟩] .leaf)) 2512550978 [⟨⟨(.inside 1),[],.lcomment,false,[],false⟩,false,false,[],some 4,some ⟨.code,[47],.lcode,false,[(2,4),(3,0)],false⟩,some ([(42,(.other,false))],false),true,false,false,none,false,⟨.lcomment,some .internalNl,false,.lblank⟩⟩] (.node (.node .leaf 2512850888 [⟨⟨(.inside 1),[],.lcomment,false,[],false⟩,false,false,[],some 4,some ⟨.code,[47],.lcode,false,[(3,0),(2,4)],false⟩,some ([(42,(.other,false))],false),true,false,false,none,false,⟨.lcomment,some .internalNl,false,.lblank⟩⟩] .leaf) 3049255390 [⟨⟨(.inside 1),[],.lcode,false,[(3,0)],false⟩,false,false,[],some 4,some ⟨.code,[47],.lcode,false,[(2,2),(3,0)],false⟩,some ([(42,(.other,false))],false),false,false,false,none,false,⟨.lcode,some (.own 3),false,.lblank⟩⟩] (.node .leaf 3049267679 [⟨⟨(.inside 1),[],.lcode,false,[(3,1)],false⟩,false,false,[],some 4,some ⟨.code,[47],.lcode,false,[(2,2),(3,0)],false⟩,some ([(42,(.other,false))],false),false,false,false,none,false,⟨.lcode,some (.own 3),false,.lblank⟩⟩] .leaf))) 3049356898 [⟨⟨(.inside 1),[],.lcode,false,[(3,0)],false⟩,false,false,[],some 4,some ⟨.code,[47],.lcode,false,[(2,3),(3,1)],false⟩,some ([(42,(.other,false))],false),false,false,false,none,false,⟨.lcode,some (.own 3),false,.lblank⟩⟩] (.node (.node (.node (.node .leaf 3049369187 [⟨⟨(.inside 1),[],.lcode,false,[(3,1)],false⟩,false,false,[],some 4,some ⟨.code,[47],.lcode,false,[(2,3),(3,1)],false⟩,some ([(42,(.other,false))],false),false,false,false,none,false,⟨.lcode,some (.own 3),false,.lblank⟩⟩] .leaf) 3049456868 [⟨⟨(.inside 1),[],.lcode,false,[(3,0)],false⟩,false,false,[],some 4,some ⟨.code,[47],.lcode,false,[(2,4),(3,0)],false⟩,some ([(42,(.other,false))],false),false,false,false,none,false,⟨.lcode,some (.own 3),false,.lblank⟩⟩] .leaf) 3049469157 [⟨⟨(.inside 1),[],.lcode,false,[(3,1)],false⟩,false,false,[],some 4,some ⟨.code,[47],.lcode,false,[(2,4),(3,0)],false⟩,some ([(42,(.other,false))],false),false,false,false,none,false,⟨.lcode,some (.own 3),false,.lblank⟩⟩] (.node .leaf 3049756778 [⟨⟨(.inside 1),[],.lcode,false,[(3,0)],false⟩,false,false,[],some 4,some ⟨.code,[47],.lcode,false,[(3,0),(2,4)],false⟩,some ([(42,(.other,false))],false),false,false,false,none,false,⟨.lcode,some (.own 3),false,.lblank⟩⟩] .leaf)) 3049769067 [⟨⟨(.inside 1),[],.lcode,false,[(3,1)],false⟩,false,false,[],some 4,some ⟨.code,[47],.lcode,false,[(3,0),(2,4)],false⟩,some ([(42,(.other,false))],false),false,false,false,none,false,⟨.lcode,some (.own 3),false,.lblank⟩⟩] (.node (.node .leaf 249781161211 [⟨⟨(.inside 1),[],.lcomment,false,[],false⟩,false,false,[],some 4,some ⟨.code,[47],.lcode,false,[(2,2),(2,4),(3,0)],false⟩,some ([(42,(.other,false))],false),true,false,false,none,false,⟨.lcomment,some .internalNl,false,.lblank⟩⟩] .leaf) 250318067101 [⟨⟨(.inside 1),[],.lcode,false,[(3,0)],false⟩,false,false,[],some 4,some ⟨.code,[47],.lcode,false,[(2,2),(2,4),(3,0)],false⟩,some ([(42,(.other,false))],false),false,false,false,none,false,⟨.lcode,some (.own 3),false,.lblank⟩⟩] (.node .leaf 250318079390 [⟨⟨(.inside 1),[],.lcode,false,[(3,1)],false⟩,false,false,[],some 4,some ⟨.code,[47],.lcode,false,[(2,2),(2,4),(3,0)],false⟩,some ([(42,(.other,false))],false),false,false,false,none,false,⟨.lcode,some (.own 3),false,.lblank⟩⟩] .leaf))))),(.node (.node (.node (.node (.node (.node .leaf 610242271 [⟨⟨(.inside 1),[],.lcode,false,[],false⟩,false,false,[],some 4,some ⟨.code,[47],.lcode,false,[],false⟩,some ([(42,(.other,false))],false),false,false,false,none,false,⟨.lcode,some (.own 3),false,.lblank⟩⟩] .leaf) 610390259 [⟨⟨(.inside 1),[],.lcomment,false,[],false⟩,false,false,[],some 4,some ⟨.code,[47],.lcode,false,[],false⟩,some ([(42,(.other,false))],false),true,false,false,none,false,⟨.lcomment,some .internalNl,false,.lblank⟩⟩] .leaf) 610538239 [⟨⟨(.inside 1),[],.lblank,false,[],false⟩,false,false,[],some 4,some ⟨.code,[47],.lcode,false,[],false⟩,some ([(42,(.other,false))],false),true,false,false,none,false,⟨.lblank,some .internalNl,false,.lblank⟩⟩] (.node (.node .leaf 611599119 [⟨⟨(.inside 1),[],.lcomment,false,[],false⟩,false,false,[],some 4,some ⟨.code,[47],.lcomment,false,[],false⟩,some ([(42,(.other,false))],false),false,false,false,none,false,⟨.lcomment,some (.own 3),false,.lblank⟩⟩] .leaf) 611599127 [⟨⟨(.inside 1),[],.lcomment,false,[],false⟩,false,false,[],some 4,some ⟨.code,[47],.lcomment,false,[],false⟩,some ([(42,(.other,false))],false),true,false,false,none,false,⟨.lcomment,some .internalNl,false,.lblank⟩⟩] .leaf)) 611747107 [⟨⟨(.inside 1),[],.lblank,false,[],false⟩,false,false,[],some 4,some ⟨.code,[47],.lcomment,false,[],false⟩,some ([(42,(.other,false))],false),true,false,false,none,false,⟨.lblank,some .internalNl,false,.lblank⟩⟩] (.node (.node (.node .leaf 612807987 [⟨⟨(.inside 1),[],.lcomment,false,[],false⟩,false,false,[],some 4,some ⟨.code,[47],.lblank,false,[],false⟩,some ([(42,(.other,false))],false),false,false,false,none,false,⟨.lcomment,some (.own 3),false,.lblank⟩⟩] .leaf) 612807995 [⟨⟨(.inside 1),[],.lcomment,false,[],false⟩,false,false,[],some 4,some ⟨.code,[47],.lblank,false,[],false⟩,some ([(42,(.other,false))],false),true,false,false,none,false,⟨.lcomment,some .internalNl,false,.lblank⟩⟩] .leaf) 612955975 [⟨⟨(.inside 1),[],.lblank,false,[],false⟩,false,false,[],some 4,some ⟨.code,[47],.lblank,false,[],false⟩,some ([(42,(.other,false))],false),true,false,false,none,false,⟨.lblank,some .internalNl,false,.lblank⟩⟩] (.node .leaf 624651024 [⟨⟨(.inside 1),[],.lcode,false,[],false⟩,false,false,[],some 4,some ⟨.code,[47],.lcode,false,[(2,2)],false⟩,some ([(42,(.other,false))],false),false,false,false,none,false,⟨.lcode,some (.own 3),false,.lblank⟩⟩] .leaf))) 624651793 [⟨⟨(.inside 1),[],.lcode,false,[],false⟩,false,false,[],some 4,some ⟨.code,[47],.lcode,false,[(2,3)],false⟩,some ([(42,(.other,false))],false),false,false,false,none,false,⟨.lcode,some (.own 3),false,.lblank⟩⟩] (.node (.node (.node (.node .leaf 624652562 [⟨⟨(.inside 1),[],.lcode,false,[],false⟩,false,false,[],some 4,some ⟨.code,[47],.lcode,false,[(2,4)],false⟩,some ([(42,(.other,false))],false),false,false,false,none,false,⟨.lcode,some (.own 3),false,.lblank⟩⟩] .leaf) 624799012 [⟨⟨(.inside 1),[],.lcomment,false,[],false⟩,false,false,[],some 4,some ⟨.code,[47],.lcode,false,[(2,2)],false⟩,some ([(42,(.other,false))],false),true,false,false,none,false,⟨.lcomment,some .internalNl,false,.lblank⟩⟩] .leaf) 624799781 [⟨⟨(.inside 1),[],.lcomment,false,[],false⟩,false,false,[],some 4,some ⟨.code,[47],.lcode,false,[(2,3)],false⟩,some ([(42,(.other,false))],false),true,false,false,none,false,⟨.lcomment,some .internalNl,false,.lblank⟩⟩] (.node (.node .leaf 624800550 [⟨⟨(.inside 1),[],.lcomment,false,[],false⟩,false,false,[],some 4,some ⟨.code,[47],.lcode,false,[(2,4)],false⟩,some ([(42,(.other,false))],false),true,false,false,none,false,⟨.lcomment,some .internalNl,false,.lblank⟩⟩] .leaf) 624802857 [⟨⟨(.inside 1),[],.lcomment,false,[],false⟩,false,false,[],some 4,some ⟨.code,[47],.lcode,false,[(3,0)],false⟩,some ([(42,(.other,false))],false),true,false,false,none,false,⟨.lcomment,some .internalNl,false,.lblank⟩⟩] .leaf)) 624803626 [⟨⟨(.inside 1),[],.lcomment,false,[],false⟩,false,false,[],some 4,some ⟨.code,[47],.lcode,false,[(3,1)],false⟩,some ([(42,(.other,false))],false),true,false,false,none,false,⟨.lcomment,some .internalNl,false,.lblank⟩⟩] (.node (.node (.node .leaf 624946992 [⟨⟨(.inside 1),[],.lblank,false,[],false⟩,false,false,[],some 4,some ⟨.code,[47],.lcode,false,[(2,2)],false⟩,some ([(42,(.other,false))],false),true,false,false,none,false,⟨.lblank,some .internalNl,false,.lblank⟩⟩] .leaf) 624947761 [⟨⟨(.inside 1),[],.lblank,false,[],false⟩,false,false,[],some 4,some ⟨.code,[47],.lcode,false,[(2,3)],false⟩,some ([(42,(.other,false))],false),true,false,false,none,false,⟨.lblank,some .internalNl,false,.lblank⟩⟩] .leaf) 624948530 [⟨⟨(.inside 1),[],.lblank,false,[],false⟩,false,false,[],some 4,some ⟨.code,[47],.lcode,false,[(2,4)],false⟩,some ([(42,(.other,false))],false),true,false,false,none,false,⟨.lblank,some .internalNl,false,.lblank⟩⟩] (.node .leaf 624950837 [⟨⟨(.inside 1),[],.lblank,false,[],false⟩,false,false,[],some 4,some ⟨.code,[47],.lcode,false,[(3,0)],false⟩,some ([(42,(.other,false))],false),true,false,false,none,false,⟨.lblank,some .internalNl,false,.lblank⟩⟩] .leaf)))) 624951606 [⟨⟨(.inside 1),[],.lblank,false,[],false⟩,false,false,[],some 4,some ⟨.code,[47],.lcode,false,[(3,1)],false⟩,some ([(42,(.other,false))],false),true,false,false,none,false,⟨.lblank,some .internalNl,false,.lblank⟩⟩] (.node (.node (.node (.node (.node .leaf 1161708747 [⟨⟨(.inside 1),[],.lcode,false,[(3,0)],false⟩,false,false,[],some 4,some ⟨.code,[47],.lcode,false,[(3,0)],false⟩,some ([(42,(.other,false))],false),false,false,false,none,false,⟨.lcode,some (.own 3),false,.lblank⟩⟩] .leaf) 1161709516 [⟨⟨(.inside 1),[],.lcode,false,[(3,0)],false⟩,false,false,[],some 4,some ⟨.code,[47],.lcode,false,[(3,1)],false⟩,some ([(42,(.other,false))],false),false,false,false,none,false,⟨.lcode,some (.own 3),false,.lblank⟩⟩] .leaf) 2512199205 [⟨⟨(.inside 1),[],.lcode,false,[],false⟩,false,false,[],some 4,some ⟨.code,[47],.lcode,false,[(2,2),(2,4)],false⟩,some ([(42,(.other,false))],false),false,false,false,none,false,⟨.lcode,some (.own 3),false,.lblank⟩⟩] (.node (.node .leaf 2512347193 [⟨⟨(.inside 1),[],.lcomment,false,[],false⟩,false,false,[],some 4,some ⟨.code,[47],.lcode,false,[(2,2),(2,4)],false⟩,some ([(42,(.other,false))],false),true,false,false,none,false,⟨.lcomment,some .internalNl,false,.lblank⟩⟩] .leaf) 2512349500 [⟨⟨(.inside 1),[],.lcomment,false,[],false⟩,false,false,[],some 4,some ⟨.code,[47],.lcode,false,[(2,2),(3,0)],false⟩,some ([(42,(.other,false))],false),true,false,false,none,false,⟨.lcomment,some .internalNl,false,.lblank⟩⟩] .leaf)) 2512451008 [⟨⟨(.inside 1),[],.lcomment,false,[],false⟩,false,false,[],some 4,some ⟨.code,[47],.lcode,false,[(2,3),(3,1)],false⟩,some ([(42,(.other,false))],false),true,false,false,none,false,⟨.lcomment,some .internalNl,false,.lblank⟩⟩] (.node (.node (.node .leaf 2512495173 [⟨⟨(.inside 1),[],.lblank,false,[],false⟩,false,false,[],some 4,some ⟨.code,[47],.lcode,false,[(2,2),(2,4)],false⟩,some ([(42,(.other,false))],false),true,false,false,none,false,⟨.lblank,some .internalNl,false,.lblank⟩⟩] .leaf) 2512497480 [⟨⟨(.inside 1),[],.lblank,false,[],false⟩,false,false,[],some 4,some ⟨.code,[47],.lcode,false,[(2,2),(3,0)],false⟩,some ([(42,(.other,false))],false),true,false,false,none,false,⟨.lblank,some .internalNl,false,.lblank⟩⟩] .leaf) 2512550978 [⟨⟨(.inside 1),[],.lcomment,false,[],false⟩,false,false,[],some 4,some ⟨.code,[47],.lcode,false,[(2,4),(3,0)],false⟩,some ([(42,(.other,false))],false),true,false,false,none,false,⟨.lcomment,some .internalNl,false,.lblank⟩⟩] (.node .leaf 2512598988 [⟨⟨(.inside 1),[],.lblank,false,[],false⟩,false,false,[],some 4,some ⟨.code,[47],.lcode,false,[(2,3),(3,1)],false⟩,some ([(42,(.other,false))],false),true,false,false,none,false,⟨.lblank,some .internalNl,false,.lblank⟩⟩] .leaf))) 2512698958 [⟨⟨(.inside 1),[],.lblank,false,[],false⟩,false,false,[],some 4,some ⟨.code,[47],.lcode,false,[(2,4),(3,0)],false⟩,some ([(42,(.other,false))],false),true,false,false,none,false,⟨.lblank,some .internalNl,false,.lblank⟩⟩] (.node (.node (.node (.node .leaf 2512850888 [⟨⟨(.inside 1),[],.lcomment,false,[],false⟩,false,false,[],some 4,some ⟨.code,[47],.lcode,false,[(3,0),(2,4)],false⟩,some ([(42,(.other,false))],false),true,false,false,none,false,⟨.lcomment,some .internalNl,false,.lblank⟩⟩] .leaf) 2512998868 [⟨⟨(.inside 1),[],.lblank,false,[],false⟩,false,false,[],some 4,some ⟨.code,[47],.lcode,false,[(3,0),(2,4)],false⟩,some ([(42,(.other,false))],false),true,false,false,none,false,⟨.lblank,some .internalNl,false,.lblank⟩⟩] .leaf) 3049255390 [⟨⟨(.inside 1),[],.lcode,false,[(3,0)],false⟩,false,false,[],some 4,some ⟨.code,[47],.lcode,false,[(2,2),(3,0)],false⟩,some ([(42,(.other,false))],false),false,false,false,none,false,⟨.lcode,some (.own 3),false,.lblank⟩⟩] (.node .leaf 3049356898 [⟨⟨(.inside 1),[],.lcode,false,[(3,0)],false⟩,false,false,[],some 4,some ⟨.code,[47],.lcode,false,[(2,3),(3,1)],false⟩,some ([(42,(.other,false))],false),false,false,false,none,false,⟨.lcode,some (.own 3),false,.lblank⟩⟩] .leaf)) 3049456868 [⟨⟨(.inside 1),[],.lcode,false,[(3,0)],false⟩,false,false,[],some 4,some ⟨.code,[47],.lcode,false,[(2,4),(3,0)],false⟩,some ([(42,(.other,false))],false),false,false,false,none,false,⟨.lcode,some (.own 3),false,.lblank⟩⟩] (.node (.node (.node .leaf 3049756778 [⟨⟨(.inside 1),[],.lcode,false,[(3,0)],false⟩,false,false,[],some 4,some ⟨.code,[47],.lcode,false,[(3,0),(2,4)],false⟩,some ([(42,(.other,false))],false),false,false,false,none,false,⟨.lcode,some (.own 3),false,.lblank⟩⟩] .leaf) 249781161211 [⟨⟨(.inside 1),[],.lcomment,false,[],false⟩,false,false,[],some 4,some ⟨.code,[47],.lcode,false,[(2,2),(2,4),(3,0)],false⟩,some ([(42,(.other,false))],false),true,false,false,none,false,⟨.lcomment,some .internalNl,false,.lblank⟩⟩] .leaf) 249781309191 [⟨⟨(.inside 1),[],.lblank,false,[],false⟩,false,false,[],some 4,some ⟨.code,[47],.lcode,false,[(2,2),(2,4),(3,0)],false⟩,some ([(42,(.other,false))],false),true,false,false,none,false,⟨.lblank,some .internalNl,false,.lblank⟩⟩] (.node .leaf 250318067101 [⟨⟨(.inside 1),[],.lcode,false,[(3,0)],false⟩,false,false,[],some 4,some ⟨.code,[47],.lcode,false,[(2,2),(2,4),(3,0)],false⟩,some ([(42,(.other,false))],false),false,false,false,none,false,⟨.lcode,some (.own 3),false,.lblank⟩⟩] .leaf))))),(.node (.node (.node (.node (.node (.node .leaf 610279138 [⟨⟨(.inside 1),[],.lcode,true,[],false⟩,false,false,[],some 4,some ⟨.code,[47],.lcode,false,[],false⟩,some ([(42,(.other,false))],false),false,false,false,none,false,⟨.lcode,some (.own 3),false,.lblank⟩⟩] .leaf) 610427126 [⟨⟨(.inside 1),[],.lcomment,true,[],false⟩,false,false,[],some 4,some ⟨.code,[47],.lcode,false,[],false⟩,some ([(42,(.other,false))],false),true,false,false,none,false,⟨.lcomment,some .internalNl,false,.lblank⟩⟩] .leaf) 610575106 [⟨⟨(.inside 1),[],.lblank,true,[],false⟩,false,false,[],some 4,some ⟨.code,[47],.lcode,false,[],false⟩,some ([(42,(.other,false))],false),true,false,false,none,false,⟨.lblank,some .internalNl,false,.lblank⟩⟩] (.node (.node .leaf 611635986 [⟨⟨(.inside 1),[],.lcomment,true,[],false⟩,false,false,[],some 4,some ⟨.code,[47],.lcomment,false,[],false⟩,some ([(42,(.other,false))],false),false,false,false,none,false,⟨.lcomment,some (.own 3),false,.lblank⟩⟩] .leaf) 611635994 [⟨⟨(.inside 1),[],.lcomment,true,[],false⟩,false,false,[],some 4,some ⟨.code,[47],.lcomment,false,[],false⟩,some ([(42,(.other,false))],false),true,false,false,none,false,⟨.lcomment,some .internalNl,false,.lblank⟩⟩] .leaf)) 611783974 [⟨⟨(.inside 1),[],.lblank,true,[],false⟩,false,false,[],some 4,some ⟨.code,[47],.lcomment,false,[],false⟩,some ([(42,(.other,false))],false),true,false,false,none,false,⟨.lblank,some .internalNl,false,.lblank⟩⟩] (.node (.node (.node .leaf 612844854 [⟨⟨(.inside 1),[],.lcomment,true,[],false⟩,false,false,[],some 4,some ⟨.code,[47],.lblank,false,[],false⟩,some ([(42,(.other,false))],false),false,false,false,none,false,⟨.lcomment,some (.own 3),false,.lblank⟩⟩] .leaf) 612844862 [⟨⟨(.inside 1),[],.lcomment,true,[],false⟩,false,false,[],some 4,some ⟨.code,[47],.lblank,false,[],false⟩,some ([(42,(.other,false))],false),true,false,false,none,false,⟨.lcomment,some .internalNl,false,.lblank⟩⟩] .leaf) 612992842 [⟨⟨(.inside 1),[],.lblank,true,[],false⟩,false,false,[],some 4,some ⟨.code,[47],.lblank,false,[],false⟩,some ([(42,(.other,false))],false),true,false,false,none,false,⟨.lblank,some .internalNl,false,.lblank⟩⟩] (.node .leaf 624687891 [⟨⟨(.inside 1),[],.lcode,true,[],false⟩,false,false,[],some 4,some ⟨.code,[47],.lcode,false,[(2,2)],false⟩,some ([(42,(.other,false))],false),false,false,false,none,false,⟨.lcode,some (.own 3),false,.lblank⟩⟩] .leaf))) 624688660 [⟨⟨(.inside 1),[],.lcode,true,[],false⟩,false,false,[],some 4,some ⟨.code,[47],.lcode,false,[(2,3)],false⟩,some ([(42,(.other,false))],false),false,false,false,none,false,⟨.lcode,some (.own 3),false,.lblank⟩⟩] (.node (.node (.node (.node .leaf 624689429 [⟨⟨(.inside 1),[],.lcode,true,[],false⟩,false,false,[],some 4,some ⟨.code,[47],.lcode,false,[(2,4)],false⟩,some ([(42,(.other,false))],false),false,false,false,none,false,⟨.lcode,some (.own 3),false,.lblank⟩⟩] .leaf) 624691736 [⟨⟨(.inside 1),[],.lcode,true,[],false⟩,false,false,[],some 4,some ⟨.code,[47],.lcode,false,[(3,0)],false⟩,some ([(42,(.other,false))],false),false,false,false,none,false,⟨.lcode,some (.own 3),false,.lblank⟩⟩] .leaf) 624692505 [⟨⟨(.inside 1),[],.lcode,true,[],false⟩,false,false,[],some 4,some ⟨.code,[47],.lcode,false,[(3,1)],false⟩,some ([(42,(.other,false))],false),false,false,false,none,false,⟨.lcode,some (.own 3),false,.lblank⟩⟩] (.node (.node .leaf 624835879 [⟨⟨(.inside 1),[],.lcomment,true,[],false⟩,false,false,[],some 4,some ⟨.code,[47],.lcode,false,[(2,2)],false⟩,some ([(42,(.other,false))],false),true,false,false,none,false,⟨.lcomment,some .internalNl,false,.lblank⟩⟩] .leaf) 624836648 [⟨⟨(.inside 1),[],.lcomment,true,[],false⟩,false,false,[],some 4,some ⟨.code,[47],.lcode,false,[(2,3)],false⟩,some ([(42,(.other,false))],false),true,false,false,none,false,⟨.lcomment,some .internalNl,false,.lblank⟩⟩] .leaf)) 624837417 [⟨⟨(.inside 1),[],.lcomment,true,[],false⟩,false,false,[],some 4,some ⟨.code,[47],.lcode,false,[(2,4)],false⟩,some ([(42,(.other,false))],false),true,false,false,none,false,⟨.lcomment,some .internalNl,false,.lblank⟩⟩] (.node (.node (.node .leaf 624839724 [⟨⟨(.inside 1),[],.lcomment,true,[],false⟩,false,false,[],some 4,some ⟨.code,[47],.lcode,false,[(3,0)],false⟩,some ([(42,(.other,false))],false),true,false,false,none,false,⟨.lcomment,some .internalNl,false,.lblank⟩⟩] .leaf) 624840493 [⟨⟨(.inside 1),[],.lcomment,true,[],false⟩,false,false,[],some 4,some ⟨.code,[47],.lcode,false,[(3,1)],false⟩,some ([(42,(.other,false))],false),true,false,false,none,false,⟨.lcomment,some .internalNl,false,.lblank⟩⟩] .leaf) 624983859 [⟨⟨(.inside 1),[],.lblank,true,[],false⟩,false,false,[],some 4,some ⟨.code,[47],.lcode,false,[(2,2)],false⟩,some ([(42,(.other,false))],false),true,false,false,none,false,⟨.lblank,some .internalNl,false,.lblank⟩⟩] (.node .leaf 624984628 [⟨⟨(.inside 1),[],.lblank,true,[],false⟩,false,false,[],some 4,some ⟨.code,[47],.lcode,false,[(2,3)],false⟩,some ([(42,(.other,false))],false),true,false,false,none,false,⟨.lblank,some .internalNl,false,.lblank⟩⟩] .leaf)))) 624985397 [⟨⟨(.inside 1),[],.lblank,true,[],false⟩,false,false,[],some 4,some ⟨.code,[47],.lcode,false,[(2,4)],false⟩,some ([(42,(.other,false))],false),true,false,false,none,false,⟨.lblank,some .internalNl,false,.lblank⟩⟩] (.node (.node (.node (.node (.node .leaf 624987704 [⟨⟨(.inside 1),[],.lblank,true,[],false⟩,false,false,[],some 4,some ⟨.code,[47],.lcode,false,[(3,0)],false⟩,some ([(42,(.other,false))],false),true,false,false,none,false,⟨.lblank,some .internalNl,false,.lblank⟩⟩] .leaf) 624988473 [⟨⟨(.inside 1),[],.lblank,true,[],false⟩,false,false,[],some 4,some ⟨.code,[47],.lcode,false,[(3,1)],false⟩,some ([(42,(.other,false))],false),true,false,false,none,false,⟨.lblank,some .internalNl,false,.lblank⟩⟩] .leaf) 2512236072 [⟨⟨(.inside 1),[],.lcode,true,[],false⟩,false,false,[],some 4,some ⟨.code,[47],.lcode,false,[(2,2),(2,4)],false⟩,some ([(42,(.other,false))],false),false,false,false,none,false,⟨.lcode,some (.own 3),false,.lblank⟩⟩] (.node (.node .leaf 2512238379 [⟨⟨(.inside 1),[],.lcode,true,[],false⟩,false,false,[],some 4,some ⟨.code,[47],.lcode,false,[(2,2),(3,0)],false⟩,some ([(42,(.other,false))],false),false,false,false,none,false,⟨.lcode,some (.own 3),false,.lblank⟩⟩] .leaf) 2512339887 [⟨⟨(.inside 1),[],.lcode,true,[],false⟩,false,false,[],some 4,some ⟨.code,[47],.lcode,false,[(2,3),(3,1)],false⟩,some ([(42,(.other,false))],false),false,false,false,none,false,⟨.lcode,some (.own 3),false,.lblank⟩⟩] .leaf)) 2512384060 [⟨⟨(.inside 1),[],.lcomment,true,[],false⟩,false,false,[],some 4,some ⟨.code,[47],.lcode,false,[(2,2),(2,4)],false⟩,some ([(42,(.other,false))],false),true,false,false,none,false,⟨.lcomment,some .internalNl,false,.lblank⟩⟩] (.node (.node (.node .leaf 2512386367 [⟨⟨(.inside 1),[],.lcomment,true,[],false⟩,false,false,[],some 4,some ⟨.code,[47],.lcode,false,[(2,2),(3,0)],false⟩,some ([(42,(.other,false))],false),true,false,false,none,false,⟨.lcomment,some .internalNl,false,.lblank⟩⟩] .leaf) 2512439857 [⟨⟨(.inside 1),[],.lcode,true,[],false⟩,false,false,[],some 4,some ⟨.code,[47],.lcode,false,[(2,4),(3,0)],false⟩,some ([(42,(.other,false))],false),false,false,false,none,false,⟨.lcode,some (.own 3),false,.lblank⟩⟩] .leaf) 2512487875 [⟨⟨(.inside 1),[],.lcomment,true,[],false⟩,false,false,[],some 4,some ⟨.code,[47],.lcode,false,[(2,3),(3,1)],false⟩,some ([(42,(.other,false))],false),true,false,false,none,false,⟨.lcomment,some .internalNl,false,.lblank⟩⟩] (.node .leaf 2512532040 [⟨⟨(.inside 1),[],.lblank,true,[],false⟩,false,false,[],some 4,some ⟨.code,[47],.lcode,false,[(2,2),(2,4)],false⟩,some ([(42,(.other,false))],false),true,false,false,none,false,⟨.lblank,some .internalNl,false,.lblank⟩⟩] .leaf))) 2512534347 [⟨⟨(.inside 1),[],.lblank,true,[],false⟩,false,false,[],some 4,some ⟨.code,[47],.lcode,false,[(2,2),(3,0)],false⟩,some ([(42,(.other,false))],false),true,false,false,none,false,⟨.lblank,some .internalNl,false,.lblank⟩⟩] (.node (.node (.node (.node .leaf 2512587845 [⟨⟨(.inside 1),[],.lcomment,true,[],false⟩,false,false,[],some 4,some ⟨.code,[47],.lcode,false,[(2,4),(3,0)],false⟩,some ([(42,(.other,false))],false),true,false,false,none,false,⟨.lcomment,some .internalNl,false,.lblank⟩⟩] .leaf) 2512635855 [⟨⟨(.inside 1),[],.lblank,true,[],false⟩,false,false,[],some 4,some ⟨.code,[47],.lcode,false,[(2,3),(3,1)],false⟩,some ([(42,(.other,false))],false),true,false,false,none,false,⟨.lblank,some .internalNl,false,.lblank⟩⟩] .leaf) 2512735825 [⟨⟨(.inside 1),[],.lblank,true,[],false⟩,false,false,[],some 4,some ⟨.code,[47],.lcode,false,[(2,4),(3,0)],false⟩,some ([(42,(.other,false))],false),true,false,false,none,false,⟨.lblank,some .internalNl,false,.lblank⟩⟩] (.node .leaf 2512739767 [⟨⟨(.inside 1),[],.lcode,true,[],false⟩,false,false,[],some 4,some ⟨.code,[47],.lcode,false,[(3,0),(2,4)],false⟩,some ([(42,(.other,false))],false),false,false,false,none,false,⟨.lcode,some (.own 3),false,.lblank⟩⟩] .leaf)) 2512887755 [⟨⟨(.inside 1),[],.lcomment,true,[],false⟩,false,false,[],some 4,some ⟨.code,[47],.lcode,false,[(3,0),(2,4)],false⟩,some ([(42,(.other,false))],false),true,false,false,none,false,⟨.lcomment,some .internalNl,false,.lblank⟩⟩] (.node (.node (.node .leaf 2513035735 [⟨⟨(.inside 1),[],.lblank,true,[],false⟩,false,false,[],some 4,some ⟨.code,[47],.lcode,false,[(3,0),(2,4)],false⟩,some ([(42,(.other,false))],false),true,false,false,none,false,⟨.lblank,some .internalNl,false,.lblank⟩⟩] .leaf) 249781050090 [⟨⟨(.inside 1),[],.lcode,true,[],false⟩,false,false,[],some 4,some ⟨.code,[47],.lcode,false,[(2,2),(2,4),(3,0)],false⟩,some ([(42,(.other,false))],false),false,false,false,none,false,⟨.lcode,some (.own 3),false,.lblank⟩⟩] .leaf) 249781198078 [⟨⟨(.inside 1),[],.lcomment,true,[],false⟩,false,false,[],some 4,some ⟨.code,[47],.lcode,false,[(2,2),(2,4),(3,0)],false⟩,some ([(42,(.other,false))],false),true,false,false,none,false,⟨.lcomment,some .internalNl,false,.lblank⟩⟩] (.node .leaf 249781346058 [⟨⟨(.inside 1),[],.lblank,true,[],false⟩,false,false,[],some 4,some ⟨.code,[47],.lcode,false,[(2,2),(2,4),(3,0)],false⟩,some ([(42,(.other,false))],false),true,false,false,none,false,⟨.lblank,some .internalNl,false,.lblank⟩⟩] .leaf))))),(.node (.node (.node (.node (.node (.node .leaf 610279138 [⟨⟨(.inside 1),[],.lcode,true,[],false⟩,false,false,[],some 4,some ⟨.code,[47],.lcode,false,[],false⟩,some ([(42,(.other,false))],false),false,false,false,none,false,⟨.lcode,some (.own 3),false,.lblank⟩⟩] .leaf) 610427126 [⟨⟨(.inside 1),[],.lcomment,true,[],false⟩,false,false,[],some 4,some ⟨.code,[47],.lcode,false,[],false⟩,some ([(42,(.other,false))],false),true,false,false,none,false,⟨.lcomment,some .internalNl,false,.lblank⟩⟩] .leaf) 610575106 [⟨⟨(.inside 1),[],.lblank,true,[],false⟩,false,false,[],some 4,some ⟨.code,[47],.lcode,false,[],false⟩,some ([(42,(.other,false))],false),true,false,false,none,false,⟨.lblank,some .internalNl,false,.lblank⟩⟩] (.node (.node .leaf 611635986 [⟨⟨(.inside 1),[],.lcomment,true,[],false⟩,false,false,[],some 4,some ⟨.code,[47],.lcomment,false,[],false⟩,some ([(42,(.other,false))],false),false,false,false,none,false,⟨.lcomment,some (.own 3),false,.lblank⟩⟩] .leaf) 611635994 [⟨⟨(.inside 1),[],.lcomment,true,[],false⟩,false,false,[],some 4,some ⟨.code,[47],.lcomment,false,[],false⟩,some ([(42,(.other,false))],false),true,false,false,none,false,⟨.lcomment,some .internalNl,false,.lblank⟩⟩] .leaf)) 611783974 [⟨⟨(.inside 1),[],.lblank,true,[],false⟩,false,false,[],some 4,some ⟨.code,[47],.lcomment,false,[],false⟩,some ([(42,(.other,false))],false),true,false,false,none,false,⟨.lblank,some .internalNl,false,.lblank⟩⟩] (.node (.node (.node .leaf 612844854 [⟨⟨(.inside 1),[],.lcomment,true,[],false⟩,false,false,[],some 4,some ⟨.code,[47],.lblank,false,[],false⟩,some ([(42,(.other,false))],false),false,false,false,none,false,⟨.lcomment,some (.own 3),false,.lblank⟩⟩] .leaf) 612844862 [⟨⟨(.inside 1),[],.lcomment,true,[],false⟩,false,false,[],some 4,some ⟨.code,[47],.lblank,false,[],false⟩,some ([(42,(.other,false))],false),true,false,false,none,false,⟨.lcomment,some .internalNl,false,.lblank⟩⟩] .leaf) 612992842 [⟨⟨(.inside 1),[],.lblank,true,[],false⟩,false,false,[],some 4,some ⟨.code,[47],.lblank,false,[],false⟩,some ([(42,(.other,false))],false),true,false,false,none,false,⟨.lblank,some .internalNl,false,.lblank⟩⟩] (.node .leaf 624687891 [⟨⟨(.inside 1),[],.lcode,true,[],false⟩,false,false,[],some 4,some ⟨.code,[47],.lcode,false,[(2,2)],false⟩,some ([(42,(.other,false))],false),false,false,false,none,false,⟨.lcode,some (.own 3),false,.lblank⟩⟩] .leaf))) 624688660 [⟨⟨(.inside 1),[],.lcode,true,[],false⟩,false,false,[],some 4,some ⟨.code,[47],.lcode,false,[(2,3)],false⟩,some ([(42,(.other,false))],false),false,false,false,none,false,⟨.lcode,some (.own 3),false,.lblank⟩⟩] (.node (.node (.node (.node .leaf 624689429 [⟨⟨(.inside 1),[],.lcode,true,[],false⟩,false,false,[],some 4,some ⟨.code,[47],.lcode,false,[(2,4)],false⟩,some ([(42,(.other,false))],false),false,false,false,none,false,⟨.lcode,some (.own 3),false,.lblank⟩⟩] .leaf) 624691736 [⟨⟨(.inside 1),[],.lcode,true,[],false⟩,false,false,[],some 4,some ⟨.code,[47],.lcode,false,[(3,0)],false⟩,some ([(42,(.other,false))],false),false,false,false,none,false,⟨.lcode,some (.own 3),false,.lblank⟩⟩] .leaf) 624692505 [⟨⟨(.inside 1),[],.lcode,true,[],false⟩,false,false,[],some 4,some ⟨.code,[47],.lcode,false,[(3,1)],false⟩,some ([(42,(.other,false))],false),false,false,false,none,false,⟨.lcode,some (.own 3),false,.lblank⟩⟩] (.node (.node .leaf 624835879 [⟨⟨(.inside 1),[],.lcomment,true,[],false⟩,false,false,[],some 4,some ⟨.code,[47],.lcode,false,[(2,2)],false⟩,some ([(42,(.other,false))],false),true,false,false,none,false,⟨.lcomment,some .internalNl,false,.lblank⟩⟩] .leaf) 624836648 [⟨⟨(.inside 1),[],.lcomment,true,[],false⟩,false,false,[],some 4,some ⟨.code,[47],.lcode,false,[(2,3)],false⟩,some ([(42,(.other,false))],false),true,false,false,none,false,⟨.lcomment,some .internalNl,false,.lblank⟩⟩] .leaf)) 624837417 [⟨⟨(.inside 1),[],.lcomment,true,[],false⟩,false,false,[],some 4,some ⟨.code,[47],.lcode,false,[(2,4)],false⟩,some ([(42,(.other,false))],false),true,false,false,none,false,⟨.lcomment,some .internalNl,false,.lblank⟩⟩] (.node (.node (.node .leaf 624839724 [⟨⟨(.inside 1),[],.lcomment,true,[],false⟩,false,false,[],some 4,some ⟨.code,[47],.lcode,false,[(3,0)],false⟩,some ([(42,(.other,false))],false),true,false,false,none,false,⟨.lcomment,some .internalNl,false,.lblank⟩⟩] .leaf) 624840493 [⟨⟨(.inside 1),[],.lcomment,true,[],false⟩,false,false,[],some 4,some ⟨.code,[47],.lcode,false,[(3,1)],false⟩,some ([(42,(.other,false))],false),true,false,false,none,false,⟨.lcomment,some .internalNl,false,.lblank⟩⟩] .leaf) 624983859 [⟨⟨(.inside 1),[],.lblank,true,[],false⟩,false,false,[],some 4,some ⟨.code,[47],.lcode,false,[(2,2)],false⟩,some ([(42,(.other,false))],false),true,false,false,none,false,⟨.lblank,some .internalNl,false,.lblank⟩⟩] (.node .leaf 624984628 [⟨⟨(.inside 1),[],.lblank,true,[],false⟩,false,false,[],some 4,some ⟨.code,[47],.lcode,false,[(2,3)],false⟩,some ([(42,(.other,false))],false),true,false,false,none,false,⟨.lblank,some .internalNl,false,.lblank⟩⟩] .leaf)))) 624985397 [⟨⟨(.inside 1),[],.lblank,true,[],false⟩,false,false,[],some 4,some ⟨.code,[47],.lcode,false,[(2,4)],false⟩,some ([(42,(.other,false))],false),true,false,false,none,false,⟨.lblank,some .internalNl,false,.lblank⟩⟩] (.node (.node (.node (.node (.node .leaf 624987704 [⟨⟨(.inside 1),[],.lblank,true,[],false⟩,false,false,[],some 4,some ⟨.code,[47],.lcode,false,[(3,0)],false⟩,some ([(42,(.other,false))],false),true,false,false,none,false,⟨.lblank,some .internalNl,false,.lblank⟩⟩] .leaf) 624988473 [⟨⟨(.inside 1),[],.lblank,true,[],false⟩,false,false,[],some 4,some ⟨.code,[47],.lcode,false,[(3,1)],false⟩,some ([(42,(.other,false))],false),true,false,false,none,false,⟨.lblank,some .internalNl,false,.lblank⟩⟩] .leaf) 2512236072 [⟨⟨(.inside 1),[],.lcode,true,[],false⟩,false,false,[],some 4,some ⟨.code,[47],.lcode,false,[(2,2),(2,4)],false⟩,some ([(42,(.other,false))],false),false,false,false,none,false,⟨.lcode,some (.own 3),false,.lblank⟩⟩] (.node (.node .leaf 2512238379 [⟨⟨(.inside 1),[],.lcode,true,[],false⟩,false,false,[],some 4,some ⟨.code,[47],.lcode,false,[(2,2),(3,0)],false⟩,some ([(42,(.other,false))],false),false,false,false,none,false,⟨.lcode,some (.own 3),false,.lblank⟩⟩] .leaf) 2512339887 [⟨⟨(.inside 1),[],.lcode,true,[],false⟩,false,false,[],some 4,some ⟨.code,[47],.lcode,false,[(2,3),(3,1)],false⟩,some ([(42,(.other,false))],false),false,false,false,none,false,⟨.lcode,some (.own 3),false,.lblank⟩⟩] .leaf)) 2512384060 [⟨⟨(.inside 1),[],.lcomment,true,[],false⟩,false,false,[],some 4,some ⟨.code,[47],.lcode,false,[(2,2),(2,4)],false⟩,some ([(42,(.other,false))],false),true,false,false,none,false,⟨.lcomment,some .internalNl,false,.lblank⟩⟩] (.node (.node (.node .leaf 2512386367 [⟨⟨(.inside 1),[],.lcomment,true,[],false⟩,false,false,[],some 4,some ⟨.code,[47],.lcode,false,[(2,2),(3,0)],false⟩,some ([(42,(.other,false))],false),true,false,false,none,false,⟨.lcomment,some .internalNl,false,.lblank⟩⟩] .leaf) 2512439857 [⟨⟨(.inside 1),[],.lcode,true,[],false⟩,false,false,[],some 4,some ⟨.code,[47],.lcode,false,[(2,4),(3,0)],false⟩,some ([(42,(.other,false))],false),false,false,false,none,false,⟨.lcode,some (.own 3),false,.lblank⟩⟩] .leaf) 2512487875 [⟨⟨(.inside 1),[],.lcomment,true,[],false⟩,false,false,[],some 4,some ⟨.code,[47],.lcode,false,[(2,3),(3,1)],false⟩,some ([(42,(.other,false))],false),true,false,false,none,false,⟨.lcomment,some .internalNl,false,.lblank⟩⟩] (.node .leaf 2512532040 [⟨⟨(.inside 1),[],.lblank,true,[],false⟩,false,false,[],some 4,some ⟨.code,[47],.lcode,false,[(2,2),(2,4)],false⟩,some ([(42,(.other,false))],false),true,false,false,none,false,⟨.lblank,some .internalNl,false,.lblank⟩⟩] .leaf))) 2512534347 [⟨⟨(.inside 1),[],.lblank,true,[],false⟩,false,false,[],some 4,some ⟨.code,[47],.lcode,false,[(2,2),(3,0)],false⟩,some ([(42,(.other,false))],false),true,false,false,none,false,⟨.lblank,some .internalNl,false,.lblank⟩⟩] (.node (.node (.node (.node .leaf 2512587845 [⟨⟨(.inside 1),[],.lcomment,true,[],false⟩,false,false,[],some 4,some ⟨.code,[47],.lcode,false,[(2,4),(3,0)],false⟩,some ([(42,(.other,false))],false),true,false,false,none,false,⟨.lcomment,some .internalNl,false,.lblank⟩⟩] .leaf) 2512635855 [⟨⟨(.inside 1),[],.lblank,true,[],false⟩,false,false,[],some 4,some ⟨.code,[47],.lcode,false,[(2,3),(3,1)],false⟩,some ([(42,(.other,false))],false),true,false,false,none,false,⟨.lblank,some .internalNl,false,.lblank⟩⟩] .leaf) 2512735825 [⟨⟨(.inside 1),[],.lblank,true,[],false⟩,false,false,[],some 4,some ⟨.code,[47],.lcode,false,[(2,4),(3,0)],false⟩,some ([(42,(.other,false))],false),true,false,false,none,false,⟨.lblank,some .internalNl,false,.lblank⟩⟩] (.node .leaf 2512739767 [⟨⟨(.inside 1),[],.lcode,true,[],false⟩,false,false,[],some 4,some ⟨.code,[47],.lcode,false,[(3,0),(2,4)],false⟩,some ([(42,(.other,false))],false),false,false,false,none,false,⟨.lcode,some (.own 3),false,.lblank⟩⟩] .leaf)) 2512887755 [⟨⟨(.inside 1),[],.lcomment,true,[],false⟩,false,false,[],some 4,some ⟨.code,[47],.lcode,false,[(3,0),(2,4)],false⟩,some ([(42,(.other,false))],false),true,false,false,none,false,⟨.lcomment,some .internalNl,false,.lblank⟩⟩] (.node (.node (.node .leaf 2513035735 [⟨⟨(.inside 1),[],.lblank,true,[],false⟩,false,false,[],some 4,some ⟨.code,[47],.lcode,false,[(3,0),(2,4)],false⟩,some ([(42,(.other,false))],false),true,false,false,none,false,⟨.lblank,some .internalNl,false,.lblank⟩⟩] .leaf) 249781050090 [⟨⟨(.inside 1),[],.lcode,true,[],false⟩,false,false,[],some 4,some ⟨.code,[47],.lcode,false,[(2,2),(2,4),(3,0)],false⟩,some ([(42,(.other,false))],false),false,false,false,none,false,⟨.lcode,some (.own 3),false,.lblank⟩⟩] .leaf) 249781198078 [⟨⟨(.inside 1),[],.lcomment,true,[],false⟩,false,false,[],some 4,some ⟨.code,[47],.lcode,false,[(2,2),(2,4),(3,0)],false⟩,some ([(42,(.other,false))],false),true,false,false,none,false,⟨.lcomment,some .internalNl,false,.lblank⟩⟩] (.node .leaf 249781346058 [⟨⟨(.inside 1),[],.lblank,true,[],false⟩,false,false,[],some 4,some ⟨.code,[47],.lcode,false,[(2,2),(2,4),(3,0)],false⟩,some ([(42,(.other,false))],false),true,false,false,none,false,⟨.lblank,some .internalNl,false,.lblank⟩⟩] .leaf))))),(.node (.node (.node (.node (.node (.node .leaf 610242303 [⟨⟨(.inside 1),[],.lcode,false,[],false⟩,true,false,[],some 4,some ⟨.code,[47],.lcode,false,[],false⟩,some ([(42,(.other,false))],false),false,false,false,none,false,⟨.lcode,some (.own 3),false,.lblank⟩⟩] .leaf) 610390291 [⟨⟨(.inside 1),[],.lcomment,false,[],false⟩,true,false,[],some 4,some ⟨.code,[47],.lcode,false,[],false⟩,some ([(42,(.other,false))],false),true,false,false,none,false,⟨.lcomment,some .internalNl,false,.lblank⟩⟩] .leaf) 610538271 [⟨⟨(.inside 1),[],.lblank,false,[],false⟩,true,false,[],some 4,some ⟨.code,[47],.lcode,false,[],false⟩,some ([(42,(.other,false))],false),true,false,false,none,false,⟨.lblank,some .internalNl,false,.lblank⟩⟩] (.node (.node .leaf 611599151 [⟨⟨(.inside 1),[],.lcomment,false,[],false⟩,true,false,[],some 4,some ⟨.code,[47],.lcomment,false,[],false⟩,some ([(42,(.other,false))],false),false,false,false,none,false,⟨.lcomment,some (.own 3),false,.lblank⟩⟩] .leaf) 611599159 [⟨⟨(.inside 1),[],.lcomment,false,[],false⟩,true,false,[],some 4,some ⟨.code,[47],.lcomment,false,[],false⟩,some ([(42,(.other,false))],false),true,false,false,none,false,⟨.lcomment,some .internalNl,false,.lblank⟩⟩] .leaf)) 611747139 [⟨⟨(.inside 1),[],.lblank,false,[],false⟩,true,false,[],some 4,some ⟨.code,[47],.lcomment,false,[],false⟩,some ([(42,(.other,false))],false),true,false,false,none,false,⟨.lblank,some .internalNl,false,.lblank⟩⟩] (.node (.node (.node .leaf 612808019 [⟨⟨(.inside 1),[],.lcomment,false,[],false⟩,true,false,[],some 4,some ⟨.code,[47],.lblank,false,[],false⟩,some ([(42,(.other,false))],false),false,false,false,none,false,⟨.lcomment,some (.own 3),false,.lblank⟩⟩] .leaf) 612808027 [⟨⟨(.inside 1),[],.lcomment,false,[],false⟩,true,false,[],some 4,some ⟨.code,[47],.lblank,false,[],false⟩,some ([(42,(.other,false))],false),true,false,false,none,false,⟨.lcomment,some .internalNl,false,.lblank⟩⟩] .leaf) 612956007 [⟨⟨(.inside 1),[],.lblank,false,[],false⟩,true,false,[],some 4,some ⟨.code,[47],.lblank,false,[],false⟩,some ([(42,(.other,false))],false),true,false,false,none,false,⟨.lblank,some .internalNl,false,.lblank⟩⟩] (.node .leaf 624651056 [⟨⟨(.inside 1),[],.lcode,false,[],false⟩,true,false,[],some 4,some ⟨.code,[47],.lcode,false,[(2,2)],false⟩,some ([(42,(.other,false))],false),false,false,false,none,false,⟨.lcode,some (.own 3),false,.lblank⟩⟩] .leaf))) 624651825 [⟨⟨(.inside 1),[],.lcode,false,[],false⟩,true,false,[],some 4,some ⟨.code,[47],.lcode,false,[(2,3)],false⟩,some ([(42,(.other,false))],false),false,false,false,none,false,⟨.lcode,some (.own 3),false,.lblank⟩⟩] (.node (.node (.node (.node .leaf 624652594 [⟨⟨(.inside 1),[],.lcode,false,[],false⟩,true,false,[],some 4,some ⟨.code,[47],.lcode,false,[(2,4)],false⟩,some ([(42,(.other,false))],false),false,false,false,none,false,⟨.lcode,some (.own 3),false,.lblank⟩⟩] .leaf) 624654901 [⟨⟨(.inside 1),[],.lcode,false,[],false⟩,true,false,[],some 4,some ⟨.code,[47],.lcode,false,[(3,0)],false⟩,some ([(42,(.other,false))],false),false,false,false,none,false,⟨.lcode,some (.own 3),false,.lblank⟩⟩] .leaf) 624655670 [⟨⟨(.inside 1),[],.lcode,false,[],false⟩,true,false,[],some 4,some ⟨.code,[47],.lcode,false,[(3,1)],false⟩,some ([(42,(.other,false))],false),false,false,false,none,false,⟨.lcode,some (.own 3),false,.lblank⟩⟩] (.node (.node .leaf 624799044 [⟨⟨(.inside 1),[],.lcomment,false,[],false⟩,true,false,[],some 4,some ⟨.code,[47],.lcode,false,[(2,2)],false⟩,some ([(42,(.other,false))],false),true,false,false,none,false,⟨.lcomment,some .internalNl,false,.lblank⟩⟩] .leaf) 624799813 [⟨⟨(.inside 1),[],.lcomment,false,[],false⟩,true,false,[],some 4,some ⟨.code,[47],.lcode,false,[(2,3)],false⟩,some ([(42,(.other,false))],false),true,false,false,none,false,⟨.lcomment,some .internalNl,false,.lblank⟩⟩] .leaf)) 624800582 [⟨⟨(.inside 1),[],.lcomment,false,[],false⟩,true,false,[],some 4,some ⟨.code,[47],.lcode,false,[(2,4)],false⟩,some ([(42,(.other,false))],false),true,false,false,none,false,⟨.lcomment,some .internalNl,false,.lblank⟩⟩] (.node (.node (.node .leaf 624802889 [⟨⟨(.inside 1),[],.lcomment,false,[],false⟩,true,false,[],some 4,some ⟨.code,[47],.lcode,false,[(3,0)],false⟩,some ([(42,(.other,false))],false),true,false,false,none,false,⟨.lcomment,some .internalNl,false,.lblank⟩⟩] .leaf) 624803658 [⟨⟨(.inside 1),[],.lcomment,false,[],false⟩,true,false,[],some 4,some ⟨.code,[47],.lcode,false,[(3,1)],false⟩,some ([(42,(.other,false))],false),true,false,false,none,false,⟨.lcomment,some .internalNl,false,.lblank⟩⟩] .leaf) 624947024 [⟨⟨(.inside 1),[],.lblank,false,[],false⟩,true,false,[],some 4,some ⟨.code,[47],.lcode,false,[(2,2)],false⟩,some ([(42,(.other,false))],false),true,false,false,none,false,⟨.lblank,some .internalNl,false,.lblank⟩⟩] (.node .leaf 624947793 [⟨⟨(.inside 1),[],.lblank,false,[],false⟩,true,false,[],some 4,some ⟨.code,[47],.lcode,false,[(2,3)],false⟩,some ([(42,(.other,false))],false),true,false,false,none,false,⟨.lblank,some .internalNl,false,.lblank⟩⟩] .leaf)))) 624948562 [⟨⟨(.inside 1),[],.lblank,false,[],false⟩,true,false,[],some 4,some ⟨.code,[47],.lcode,false,[(2,4)],false⟩,some ([(42,(.other,false))],false),true,false,false,none,false,⟨.lblank,some .internalNl,false,.lblank⟩⟩] (.node (.node (.node (.node (.node .leaf 624950869 [⟨⟨(.inside 1),[],.lblank,false,[],false⟩,true,false,[],some 4,some ⟨.code,[47],.lcode,false,[(3,0)],false⟩,some ([(42,(.other,false))],false),true,false,false,none,false,⟨.lblank,some .internalNl,false,.lblank⟩⟩] .leaf) 624951638 [⟨⟨(.inside 1),[],.lblank,false,[],false⟩,true,false,[],some 4,some ⟨.code,[47],.lcode,false,[(3,1)],false⟩,some ([(42,(.other,false))],false),true,false,false,none,false,⟨.lblank,some .internalNl,false,.lblank⟩⟩] .leaf) 2512199237 [⟨⟨(.inside 1),[],.lcode,false,[],false⟩,true,false,[],some 4,some ⟨.code,[47],.lcode,false,[(2,2),(2,4)],false⟩,some ([(42,(.other,false))],false),false,false,false,none,false,⟨.lcode,some (.own 3),false,.lblank⟩⟩] (.node (.node .leaf 2512201544 [⟨⟨(.inside 1),[],.lcode,false,[],false⟩,true,false,[],some 4,some ⟨.code,[47],.lcode,false,[(2,2),(3,0)],false⟩,some ([(42,(.other,false))],false),false,false,false,none,false,⟨.lcode,some (.own 3),false,.lblank⟩⟩] .leaf) 2512303052 [⟨⟨(.inside 1),[],.lcode,false,[],false⟩,true,false,[],some 4,some ⟨.code,[47],.lcode,false,[(2,3),(3,1)],false⟩,some ([(42,(.other,false))],false),false,false,false,none,false,⟨.lcode,some (.own 3),false,.lblank⟩⟩] .leaf)) 2512347225 [⟨⟨(.inside 1),[],.lcomment,false,[],false⟩,true,false,[],some 4,some ⟨.code,[47],.lcode,false,[(2,2),(2,4)],false⟩,some ([(42,(.other,false))],false),true,false,false,none,false,⟨.lcomment,some .internalNl,false,.lblank⟩⟩] (.node (.node (.node .leaf 2512349532 [⟨⟨(.inside 1),[],.lcomment,false,[],false⟩,true,false,[],some 4,some ⟨.code,[47],.lcode,false,[(2,2),(3,0)],false⟩,some ([(42,(.other,false))],false),true,false,false,none,false,⟨.lcomment,some .internalNl,false,.lblank⟩⟩] .leaf) 2512403022 [⟨⟨(.inside 1),[],.lcode,false,[],false⟩,true,false,[],some 4,some ⟨.code,[47],.lcode,false,[(2,4),(3,0)],false⟩,some ([(42,(.other,false))],false),false,false,false,none,false,⟨.lcode,some (.own 3),false,.lblank⟩⟩] .leaf) 2512451040 [⟨⟨(.inside 1),[],.lcomment,false,[],false⟩,true,false,[],some 4,some ⟨.code,[47],.lcode,false,[(2,3),(3,1)],false⟩,some ([(42,(.other,false))],false),true,false,false,none,false,⟨.lcomment,some .internalNl,false,.lblank⟩⟩] (.node .leaf 2512495205 [⟨⟨(.inside 1),[],.lblank,false,[],false⟩,true,false,[],some 4,some ⟨.code,[47],.lcode,false,[(2,2),(2,4)],false⟩,some ([(42,(.other,false))],false),true,false,false,none,false,⟨.lblank,some .internalNl,false,.lblank⟩⟩] .leaf))) 2512497512 [⟨⟨(.inside 1),[],.lblank,false,[],false⟩,true,false,[],some 4,some ⟨.code,[47],.lcode,false,[(2,2),(3,0)],false⟩,some ([(42,(.other,false))],false),true,false,false,none,false,⟨.lblank,some .internalNl,false,.lblank⟩⟩] (.node (.node (.node (.node .leaf 2512551010 [⟨⟨(.inside 1),[],.lcomment,false,[],false⟩,true,false,[],some 4,some ⟨.code,[47],.lcode,false,[(2,4),(3,0)],false⟩,some ([(42,(.other,false))],false),true,false,false,none,false,⟨.lcomment,some .internalNl,false,.lblank⟩⟩] .leaf) 2512599020 [⟨⟨(.inside 1),[],.lblank,false,[],false⟩,true,false,[],some 4,some ⟨.code,[47],.lcode,false,[(2,3),(3,1)],false⟩,some ([(42,(.other,false))],false),true,false,false,none,false,⟨.lblank,some .internalNl,false,.lblank⟩⟩] .leaf) 2512698990 [⟨⟨(.inside 1),[],.lblank,false,[],false⟩,true,false,[],some 4,some ⟨.code,[47],.lcode,false,[(2,4),(3,0)],false⟩,some ([(42,(.other,false))],false),true,false,false,none,false,⟨.lblank,some .internalNl,false,.lblank⟩⟩] (.node .leaf 2512702932 [⟨⟨(.inside 1),[],.lcode,false,[],false⟩,true,false,[],some 4,some ⟨.code,[47],.lcode,false,[(3,0),(2,4)],false⟩,some ([(42,(.other,false))],false),false,false,false,none,false,⟨.lcode,some (.own 3),false,.lblank⟩⟩] .leaf)) 2512850920 [⟨⟨(.inside 1),[],.lcomment,false,[],false⟩,true,false,[],some 4,some ⟨.code,[47],.lcode,false,[(3,0),(2,4)],false⟩,some ([(42,(.other,false))],false),true,false,false,none,false,⟨.lcomment,some .internalNl,false,.lblank⟩⟩] (.node (.node (.node .leaf 2512998900 [⟨⟨(.inside 1),[],.lblank,false,[],false⟩,true,false,[],some 4,some ⟨.code,[47],.lcode,false,[(3,0),(2,4)],false⟩,some ([(42,(.other,false))],false),true,false,false,none,false,⟨.lblank,some .internalNl,false,.lblank⟩⟩] .leaf) 249781013255 [⟨⟨(.inside 1),[],.lcode,false,[],false⟩,true,false,[],some 4,some ⟨.code,[47],.lcode,false,[(2,2),(2,4),(3,0)],false⟩,some ([(42,(.other,false))],false),false,false,false,none,false,⟨.lcode,some (.own 3),false,.lblank⟩⟩] .leaf) 249781161243 [⟨⟨(.inside 1),[],.lcomment,false,[],false⟩,true,false,[],some 4,some ⟨.code,[47],.lcode,false,[(2,2),(2,4),(3,0)],false⟩,some ([(42,(.other,false))],false),true,false,false,none,false,⟨.lcomment,some .internalNl,false,.lblank⟩⟩] (.node .leaf 249781309223 [⟨⟨(.inside 1),[],.lblank,false,[],false⟩,true,false,[],some 4,some ⟨.code,[47],.lcode,false,[(2,2),(2,4),(3,0)],false⟩,some ([(42,(.other,false))],false),true,false,false,none,false,⟨.lblank,some .internalNl,false,.lblank⟩⟩] .leaf))))),(.node (.node (.node (.node (.node (.node .leaf 610279154 [⟨⟨(.inside 1),[],.lcode,true,[],false⟩,false,true,[],some 4,some ⟨.code,[47],.lcode,false,[],false⟩,some ([(42,(.other,false))],false),false,false,false,none,false,⟨.lcode,some (.own 3),false,.lblank⟩⟩] .leaf) 610427142 [⟨⟨(.inside 1),[],.lcomment,true,[],false⟩,false,true,[],some 4,some ⟨.code,[47],.lcode,false,[],false⟩,some ([(42,(.other,false))],false),true,false,false,none,false,⟨.lcomment,some .internalNl,false,.lblank⟩⟩] .leaf) 610575122 [⟨⟨(.inside 1),[],.lblank,true,[],false⟩,false,true,[],some 4,some ⟨.code,[47],.lcode,false,[],false⟩,some ([(42,(.other,false))],false),true,false,false,none,false,⟨.lblank,some .internalNl,false,.lblank⟩⟩] (.node (.node .leaf 611636002 [⟨⟨(.inside 1),[],.lcomment,true,[],false⟩,false,true,[],some 4,some ⟨.code,[47],.lcomment,false,[],false⟩,some ([(42,(.other,false))],false),false,false,false,none,false,⟨.lcomment,some (.own 3),false,.lblank⟩⟩] .leaf) 611636010 [⟨⟨(.inside 1),[],.lcomment,true,[],false⟩,false,true,[],some 4,some ⟨.code,[47],.lcomment,false,[],false⟩,some ([(42,(.other,false))],false),true,false,false,none,false,⟨.lcomment,some .internalNl,false,.lblank⟩⟩] .leaf)) 611783990 [⟨⟨(.inside 1),[],.lblank,true,[],false⟩,false,true,[],some 4,some ⟨.code,[47],.lcomment,false,[],false⟩,some ([(42,(.other,false))],false),true,false,false,none,false,⟨.lblank,some .internalNl,false,.lblank⟩⟩] (.node (.node (.node .leaf 612844870 [⟨⟨(.inside 1),[],.lcomment,true,[],false⟩,false,true,[],some 4,some ⟨.code,[47],.lblank,false,[],false⟩,some ([(42,(.other,false))],false),false,false,false,none,false,⟨.lcomment,some (.own 3),false,.lblank⟩⟩] .leaf) 612844878 [⟨⟨(.inside 1),[],.lcomment,true,[],false⟩,false,true,[],some 4,some ⟨.code,[47],.lblank,false,[],false⟩,some ([(42,(.other,false))],false),true,false,false,none,false,⟨.lcomment,some .internalNl,false,.lblank⟩⟩] .leaf) 612992858 [⟨⟨(.inside 1),[],.lblank,true,[],false⟩,false,true,[],some 4,some ⟨.code,[47],.lblank,false,[],false⟩,some ([(42,(.other,false))],false),true,false,false,none,false,⟨.lblank,some .internalNl,false,.lblank⟩⟩] (.node .leaf 624687907 [⟨⟨(.inside 1),[],.lcode,true,[],false⟩,false,true,[],some 4,some ⟨.code,[47],.lcode,false,[(2,2)],false⟩,some ([(42,(.other,false))],false),false,false,false,none,false,⟨.lcode,some (.own 3),false,.lblank⟩⟩] .leaf))) 624688676 [⟨⟨(.inside 1),[],.lcode,true,[],false⟩,false,true,[],some 4,some ⟨.code,[47],.lcode,false,[(2,3)],false⟩,some ([(42,(.other,false))],false),false,false,false,none,false,⟨.lcode,some (.own 3),false,.lblank⟩⟩] (.node (.node (.node (.node .leaf 624689445 [⟨⟨(.inside 1),[],.lcode,true,[],false⟩,false,true,[],some 4,some ⟨.code,[47],.lcode,false,[(2,4)],false⟩,some ([(42,(.other,false))],false),false,false,false,none,false,⟨.lcode,some (.own 3),false,.lblank⟩⟩] .leaf) 624691752 [⟨⟨(.inside 1),[],.lcode,true,[],false⟩,false,true,[],some 4,some ⟨.code,[47],.lcode,false,[(3,0)],false⟩,some ([(42,(.other,false))],false),false,false,false,none,false,⟨.lcode,some (.own 3),false,.lblank⟩⟩] .leaf) 624692521 [⟨⟨(.inside 1),[],.lcode,true,[],false⟩,false,true,[],some 4,some ⟨.code,[47],.lcode,false,[(3,1)],false⟩,some ([(42,(.other,false))],false),false,false,false,none,false,⟨.lcode,some (.own 3),false,.lblank⟩⟩] (.node (.node .leaf 624835895 [⟨⟨(.inside 1),[],.lcomment,true,[],false⟩,false,true,[],some 4,some ⟨.code,[47],.lcode,false,[(2,2)],false⟩,some ([(42,(.other,false))],false),true,false,false,none,false,⟨.lcomment,some .internalNl,false,.lblank⟩⟩] .leaf) 624836664 [⟨⟨(.inside 1),[],.lcomment,true,[],false⟩,false,true,[],some 4,some ⟨.code,[47],.lcode,false,[(2,3)],false⟩,some ([(42,(.other,false))],false),true,false,false,none,false,⟨.lcomment,some .internalNl,false,.lblank⟩⟩] .leaf)) 624837433 [⟨⟨(.inside 1),[],.lcomment,true,[],false⟩,false,true,[],some 4,some ⟨.code,[47],.lcode,false,[(2,4)],false⟩,some ([(42,(.other,false))],false),true,false,false,none,false,⟨.lcomment,some .internalNl,false,.lblank⟩⟩] (.node (.node (.node .leaf 624839740 [⟨⟨(.inside 1),[],.lcomment,true,[],false⟩,false,true,[],some 4,some ⟨.code,[47],.lcode,false,[(3,0)],false⟩,some ([(42,(.other,false))],false),true,false,false,none,false,⟨.lcomment,some .internalNl,false,.lblank⟩⟩] .leaf) 624840509 [⟨⟨(.inside 1),[],.lcomment,true,[],false⟩,false,true,[],some 4,some ⟨.code,[47],.lcode,false,[(3,1)],false⟩,some ([(42,(.other,false))],false),true,false,false,none,false,⟨.lcomment,some .internalNl,false,.lblank⟩⟩] .leaf) 624983875 [⟨⟨(.inside 1),[],.lblank,true,[],false⟩,false,true,[],some 4,some ⟨.code,[47],.lcode,false,[(2,2)],false⟩,some ([(42,(.other,false))],false),true,false,false,none,false,⟨.lblank,some .internalNl,false,.lblank⟩⟩] (.node .leaf 624984644 [⟨⟨(.inside 1),[],.lblank,true,[],false⟩,false,true,[],some 4,some ⟨.code,[47],.lcode,false,[(2,3)],false⟩,some ([(42,(.other,false))],false),true,false,false,none,false,⟨.lblank,some .internalNl,false,.lblank⟩⟩] .leaf)))) 624985413 [⟨⟨(.inside 1),[],.lblank,true,[],false⟩,false,true,[],some 4,some ⟨.code,[47],.lcode,false,[(2,4)],false⟩,some ([(42,(.other,false))],false),true,false,false,none,false,⟨.lblank,some .internalNl,false,.lblank⟩⟩] (.node (.node (.node (.node (.node .leaf 624987720 [⟨⟨(.inside 1),[],.lblank,true,[],false⟩,false,true,[],some 4,some ⟨.code,[47],.lcode,false,[(3,0)],false⟩,some ([(42,(.other,false))],false),true,false,false,none,false,⟨.lblank,some .internalNl,false,.lblank⟩⟩] .leaf) 624988489 [⟨⟨(.inside 1),[],.lblank,true,[],false⟩,false,true,[],some 4,some ⟨.code,[47],.lcode,false,[(3,1)],false⟩,some ([(42,(.other,false))],false),true,false,false,none,false,⟨.lblank,some .internalNl,false,.lblank⟩⟩] .leaf) 2512236088 [⟨⟨(.inside 1),[],.lcode,true,[],false⟩,false,true,[],some 4,some ⟨.code,[47],.lcode,false,[(2,2),(2,4)],false⟩,some ([(42,(.other,false))],false),false,false,false,none,false,⟨.lcode,some (.own 3),false,.lblank⟩⟩] (.node (.node .leaf 2512238395 [⟨⟨(.inside 1),[],.lcode,true,[],false⟩,false,true,[],some 4,some ⟨.code,[47],.lcode,false,[(2,2),(3,0)],false⟩,some ([(42,(.other,false))],false),false,false,false,none,false,⟨.lcode,some (.own 3),false,.lblank⟩⟩] .leaf) 2512339903 [⟨⟨(.inside 1),[],.lcode,true,[],false⟩,false,true,[],some 4,some ⟨.code,[47],.lcode,false,[(2,3),(3,1)],false⟩,some ([(42,(.other,false))],false),false,false,false,none,false,⟨.lcode,some (.own 3),false,.lblank⟩⟩] .leaf)) 2512384076 [⟨⟨(.inside 1),[],.lcomment,true,[],false⟩,false,true,[],some 4,some ⟨.code,[47],.lcode,false,[(2,2),(2,4)],false⟩,some ([(42,(.other,false))],false),true,false,false,none,false,⟨.lcomment,some .internalNl,false,.lblank⟩⟩] (.node (.node (.node .leaf 2512386383 [⟨⟨(.inside 1),[],.lcomment,true,[],false⟩,false,true,[],some 4,some ⟨.code,[47],.lcode,false,[(2,2),(3,0)],false⟩,some ([(42,(.other,false))],false),true,false,false,none,false,⟨.lcomment,some .internalNl,false,.lblank⟩⟩] .leaf) 2512439873 [⟨⟨(.inside 1),[],.lcode,true,[],false⟩,false,true,[],some 4,some ⟨.code,[47],.lcode,false,[(2,4),(3,0)],false⟩,some ([(42,(.other,false))],false),false,false,false,none,false,⟨.lcode,some (.own 3),false,.lblank⟩⟩] .leaf) 2512487891 [⟨⟨(.inside 1),[],.lcomment,true,[],false⟩,false,true,[],some 4,some ⟨.code,[47],.lcode,false,[(2,3),(3,1)],false⟩,some ([(42,(.other,false))],false),true,false,false,none,false,⟨.lcomment,some .internalNl,false,.lblank⟩⟩] (.node .leaf 2512532056 [⟨⟨(.inside 1),[],.lblank,true,[],false⟩,false,true,[],some 4,some ⟨.code,[47],.lcode,false,[(2,2),(2,4)],false⟩,some ([(42,(.other,false))],false),true,false,false,none,false,⟨.lblank,some .internalNl,false,.lblank⟩⟩] .leaf))) 2512534363 [⟨⟨(.inside 1),[],.lblank,true,[],false⟩,false,true,[],some 4,some ⟨.code,[47],.lcode,false,[(2,2),(3,0)],false⟩,some ([(42,(.other,false))],false),true,false,false,none,false,⟨.lblank,some .internalNl,false,.lblank⟩⟩] (.node (.node (.node (.node .leaf 2512587861 [⟨⟨(.inside 1),[],.lcomment,true,[],false⟩,false,true,[],some 4,some ⟨.code,[47],.lcode,false,[(2,4),(3,0)],false⟩,some ([(42,(.other,false))],false),true,false,false,none,false,⟨.lcomment,some .internalNl,false,.lblank⟩⟩] .leaf) 2512635871 [⟨⟨(.inside 1),[],.lblank,true,[],false⟩,false,true,[],some 4,some ⟨.code,[47],.lcode,false,[(2,3),(3,1)],false⟩,some ([(42,(.other,false))],false),true,false,false,none,false,⟨.lblank,some .internalNl,false,.lblank⟩⟩] .leaf) 2512735841 [⟨⟨(.inside 1),[],.lblank,true,[],false⟩,false,true,[],some 4,some ⟨.code,[47],.lcode,false,[(2,4),(3,0)],false⟩,some ([(42,(.other,false))],false),true,false,false,none,false,⟨.lblank,some .internalNl,false,.lblank⟩⟩] (.node .leaf 2512739783 [⟨⟨(.inside 1),[],.lcode,true,[],false⟩,false,true,[],some 4,some ⟨.code,[47],.lcode,false,[(3,0),(2,4)],false⟩,some ([(42,(.other,false))],false),false,false,false,none,false,⟨.lcode,some (.own 3),false,.lblank⟩⟩] .leaf)) 2512887771 [⟨⟨(.inside 1),[],.lcomment,true,[],false⟩,false,true,[],some 4,some ⟨.code,[47],.lcode,false,[(3,0),(2,4)],false⟩,some ([(42,(.other,false))],false),true,false,false,none,false,⟨.lcomment,some .internalNl,false,.lblank⟩⟩] (.node (.node (.node .leaf 2513035751 [⟨⟨(.inside 1),[],.lblank,true,[],false⟩,false,true,[],some 4,some ⟨.code,[47],.lcode,false,[(3,0),(2,4)],false⟩,some ([(42,(.other,false))],false),true,false,false,none,false,⟨.lblank,some .internalNl,false,.lblank⟩⟩] .leaf) 249781050106 [⟨⟨(.inside 1),[],.lcode,true,[],false⟩,false,true,[],some 4,some ⟨.code,[47],.lcode,false,[(2,2),(2,4),(3,0)],false⟩,some ([(42,(.other,false))],false),false,false,false,none,false,⟨.lcode,some (.own 3),false,.lblank⟩⟩] .leaf) 249781198094 [⟨⟨(.inside 1),[],.lcomment,true,[],false⟩,false,true,[],some 4,some ⟨.code,[47],.lcode,false,[(2,2),(2,4),(3,0)],false⟩,some ([(42,(.other,false))],false),true,false,false,none,false,⟨.lcomment,some .internalNl,false,.lblank⟩⟩] (.node .leaf 249781346074 [⟨⟨(.inside 1),[],.lblank,true,[],false⟩,false,true,[],some 4,some ⟨.code,[47],.lcode,false,[(2,2),(2,4),(3,0)],false⟩,some ([(42,(.other,false))],false),true,false,false,none,false,⟨.lblank,some .internalNl,false,.lblank⟩⟩] .leaf))))),(.node (.node (.node (.node (.node (.node .leaf 1148611072 [⟨⟨(.inside 1),[42],.lcode,false,[],false⟩,false,false,[],some 4,some ⟨.code,[47],.lcode,false,[],false⟩,some ([(42,(.other,false))],false),false,false,false,none,false,⟨.lcode,some (.own 3),false,.lblank⟩⟩] .leaf) 1163019825 [⟨⟨(.inside 1),[42],.lcode,false,[],false⟩,false,false,[],some 4,some ⟨.code,[47],.lcode,false,[(2,2)],false⟩,some ([(42,(.other,false))],false),false,false,false,none,false,⟨.lcode,some (.own 3),false,.lblank⟩⟩] (.node .leaf 1163020594 [⟨⟨(.inside 1),[42],.lcode,false,[],false⟩,false,false,[],some 4,some ⟨.code,[47],.lcode,false,[(2,3)],false⟩,some ([(42,(.other,false))],false),false,false,false,none,false,⟨.lcode,some (.own 3),false,.lblank⟩⟩] .leaf)) 1163021363 [⟨⟨(.inside 1),[42],.lcode,false,[],false⟩,false,false,[],some 4,some ⟨.code,[47],.lcode,false,[(2,4)],false⟩,some ([(42,(.other,false))],false),false,false,false,none,false,⟨.lcode,some (.own 3),false,.lblank⟩⟩] (.node (.node .leaf 1167929900 [⟨⟨(.inside 1),[42],.lcomment,false,[],false⟩,false,false,[],some 4,some ⟨.code,[47],.lcode,false,[],false⟩,some ([(42,(.other,false))],false),true,false,false,none,false,⟨.lcomment,some .internalNl,false,.lblank⟩⟩] .leaf) 1169138760 [⟨⟨(.inside 1),[42],.lcomment,false,[],false⟩,false,false,[],some 4,some ⟨.code,[47],.lcomment,false,[],false⟩,some ([(42,(.other,false))],false),false,false,false,none,false,⟨.lcomment,some (.own 3),false,.lblank⟩⟩] .leaf)) 1169138768 [⟨⟨(.inside 1),[42],.lcomment,false,[],false⟩,false,false,[],some 4,some ⟨.code,[47],.lcomment,false,[],false⟩,some ([(42,(.other,false))],false),true,false,false,none,false,⟨.lcomment,some .internalNl,false,.lblank⟩⟩] (.node (.node (.node .leaf 1170347628 [⟨⟨(.inside 1),[42],.lcomment,false,[],false⟩,false,false,[],some 4,some ⟨.code,[47],.lblank,false,[],false⟩,some ([(42,(.other,false))],false),false,false,false,none,false,⟨.lcomment,some (.own 3),false,.lblank⟩⟩] .leaf) 1170347636 [⟨⟨(.inside 1),[42],.lcomment,false,[],false⟩,false,false,[],some 4,some ⟨.code,[47],.lblank,false,[],false⟩,some ([(42,(.other,false))],false),true,false,false,none,false,⟨.lcomment,some .internalNl,false,.lblank⟩⟩] .leaf) 1182338653 [⟨⟨(.inside 1),[42],.lcomment,false,[],false⟩,false,false,[],some 4,some ⟨.code,[47],.lcode,false,[(2,2)],false⟩,some ([(42,(.other,false))],false),true,false,false,none,false,⟨.lcomment,some .internalNl,false,.lblank⟩⟩] (.node (.node .leaf 1182339422 [⟨⟨(.inside 1),[42],.lcomment,false,[],false⟩,false,false,[],some 4,some ⟨.code,[47],.lcode,false,[(2,3)],false⟩,some ([(42,(.other,false))],false),true,false,false,none,false,⟨.lcomment,some .internalNl,false,.lblank⟩⟩] .leaf) 1182340191 [⟨⟨(.inside 1),[42],.lcomment,false,[],false⟩,false,false,[],some 4,some ⟨.code,[47],.lcode,false,[(2,4)],false⟩,some ([(42,(.other,false))],false),true,false,false,none,false,⟨.lcomment,some .internalNl,false,.lblank⟩⟩] .leaf))) 1182342498 [⟨⟨(.inside 1),[42],.lcomment,false,[],false⟩,false,false,[],some 4,some ⟨.code,[47],.lcode,false,[(3,0)],false⟩,some ([(42,(.other,false))],false),true,false,false,none,false,⟨.lcomment,some .internalNl,false,.lblank⟩⟩] (.node (.node (.node (.node .leaf 1182343267 [⟨⟨(.inside 1),[42],.lcomment,false,[],false⟩,false,false,[],some 4,some ⟨.code,[47],.lcode,false,[(3,1)],false⟩,some ([(42,(.other,false))],false),true,false,false,none,false,⟨.lcomment,some .internalNl,false,.lblank⟩⟩] .leaf) 1187248208 [⟨⟨(.inside 1),[42],.lblank,false,[],false⟩,false,false,[],some 4,some ⟨.code,[47],.lcode,false,[],false⟩,some ([(42,(.other,false))],false),true,false,false,none,false,⟨.lcomment,some .internalNl,false,.lblank⟩⟩] .leaf) 1188457076 [⟨⟨(.inside 1),[42],.lblank,false,[],false⟩,false,false,[],some 4,some ⟨.code,[47],.lcomment,false,[],false⟩,some ([(42,(.other,false))],false),true,false,false,none,false,⟨.lcomment,some .internalNl,false,.lblank⟩⟩] (.node (.node .leaf 1189665944 [⟨⟨(.inside 1),[42],.lblank,false,[],false⟩,false,false,[],some 4,some ⟨.code,[47],.lblank,false,[],false⟩,some ([(42,(.other,false))],false),true,false,false,none,false,⟨.lcomment,some .internalNl,false,.lblank⟩⟩] .leaf) 1201656961 [⟨⟨(.inside 1),[42],.lblank,false,[],false⟩,false,false,[],some 4,some ⟨.code,[47],.lcode,false,[(2,2)],false⟩,some ([(42,(.other,false))],false),true,false,false,none,false,⟨.lcomment,some .internalNl,false,.lblank⟩⟩] .leaf)) 1201657730 [⟨⟨(.inside 1),[42],.lblank,false,[],false⟩,false,false,[],some 4,some ⟨.code,[47],.lcode,false,[(2,3)],false⟩,some ([(42,(.other,false))],false),true,false,false,none,false,⟨.lcomment,some .internalNl,false,.lblank⟩⟩] (.node (.node (.node .leaf 1201658499 [⟨⟨(.inside 1),[42],.lblank,false,[],false⟩,false,false,[],some 4,some ⟨.code,[47],.lcode,false,[(2,4)],false⟩,some ([(42,(.other,false))],false),true,false,false,none,false,⟨.lcomment,some .internalNl,false,.lblank⟩⟩] .leaf) 1201660806 [⟨⟨(.inside 1),[42],.lblank,false,[],false⟩,false,false,[],some 4,some ⟨.code,[47],.lcode,false,[(3,0)],false⟩,some ([(42,(.other,false))],false),true,false,false,none,false,⟨.lcomment,some .internalNl,false,.lblank⟩⟩] .leaf) 1201661575 [⟨⟨(.inside 1),[42],.lblank,false,[],false⟩,false,false,[],some 4,some ⟨.code,[47],.lcode,false,[(3,1)],false⟩,some ([(42,(.other,false))],false),true,false,false,none,false,⟨.lcomment,some .internalNl,false,.lblank⟩⟩] (.node (.node .leaf 3050568006 [⟨⟨(.inside 1),[42],.lcode,false,[],false⟩,false,false,[],some 4,some ⟨.code,[47],.lcode,false,[(2,2),(2,4)],false⟩,some ([(42,(.other,false))],false),false,false,false,none,false,⟨.lcode,some (.own 3),false,.lblank⟩⟩] .leaf) 3069886834 [⟨⟨(.inside 1),[42],.lcomment,false,[],false⟩,false,false,[],some 4,some ⟨.code,[47],.lcode,false,[(2,2),(2,4)],false⟩,some ([(42,(.other,false))],false),true,false,false,none,false,⟨.lcomment,some .internalNl,false,.lblank⟩⟩] .leaf)))) 3069889141 [⟨⟨(.inside 1),[42],.lcomment,false,[],false⟩,false,false,[],some 4,some ⟨.code,[47],.lcode,false,[(2,2),(3,0)],false⟩,some ([(42,(.other,false))],false),true,false,false,none,false,⟨.lcomment,some .internalNl,false,.lblank⟩⟩] (.node (.node (.node (.node (.node .leaf 3069990649 [⟨⟨(.inside 1),[42],.lcomment,false,[],false⟩,false,false,[],some 4,some ⟨.code,[47],.lcode,false,[(2,3),(3,1)],false⟩,some ([(42,(.other,false))],false),true,false,false,none,false,⟨.lcomment,some .internalNl,false,.lblank⟩⟩] .leaf) 3070090619 [⟨⟨(.inside 1),[42],.lcomment,false,[],false⟩,false,false,[],some 4,some ⟨.code,[47],.lcode,false,[(2,4),(3,0)],false⟩,some ([(42,(.other,false))],false),true,false,false,none,false,⟨.lcomment,some .internalNl,false,.lblank⟩⟩] (.node .leaf 3070390529 [⟨⟨(.inside 1),[42],.lcomment,false,[],false⟩,false,false,[],some 4,some ⟨.code,[47],.lcode,false,[(3,0),(2,4)],false⟩,some ([(42,(.other,false))],false),true,false,false,none,false,⟨.lcomment,some .internalNl,false,.lblank⟩⟩] .leaf)) 3089205142 [⟨⟨(.inside 1),[42],.lblank,false,[],false⟩,false,false,[],some 4,some ⟨.code,[47],.lcode,false,[(2,2),(2,4)],false⟩,some ([(42,(.other,false))],false),true,false,false,none,false,⟨.lcomment,some .internalNl,false,.lblank⟩⟩] (.node (.node .leaf 3089207449 [⟨⟨(.inside 1),[42],.lblank,false,[],false⟩,false,false,[],some 4,some ⟨.code,[47],.lcode,false,[(2,2),(3,0)],false⟩,some ([(42,(.other,false))],false),true,false,false,none,false,⟨.lcomment,some .internalNl,false,.lblank⟩⟩] .leaf) 3089308957 [⟨⟨(.inside 1),[42],.lblank,false,[],false⟩,false,false,[],some 4,some ⟨.code,[47],.lcode,false,[(2,3),(3,1)],false⟩,some ([(42,(.other,false))],false),true,false,false,none,false,⟨.lcomment,some .internalNl,false,.lblank⟩⟩] .leaf)) 3089408927 [⟨⟨(.inside 1),[42],.lblank,false,[],false⟩,false,false,[],some 4,some ⟨.code,[47],.lcode,false,[(2,4),(3,0)],false⟩,some ([(42,(.other,false))],false),true,false,false,none,false,⟨.lcomment,some .internalNl,false,.lblank⟩⟩] (.node (.node (.node .leaf 3089708837 [⟨⟨(.inside 1),[42],.lblank,false,[],false⟩,false,false,[],some 4,some ⟨.code,[47],.lcode,false,[(3,0),(2,4)],false⟩,some ([(42,(.other,false))],false),true,false,false,none,false,⟨.lcomment,some .internalNl,false,.lblank⟩⟩] .leaf) 71688021678 [⟨⟨(.inside 1),[42],.lcode,false,[(3,0)],false⟩,false,false,[],some 4,some ⟨.code,[47],.lcode,false,[(3,0)],false⟩,some ([(42,(.other,false))],false),false,false,false,none,false,⟨.lcode,some (.own 3),false,.lblank⟩⟩] .leaf) 71688022447 [⟨⟨(.inside 1),[42],.lcode,false,[(3,0)],false⟩,false,false,[],some 4,some ⟨.code,[47],.lcode,false,[(3,1)],false⟩,some ([(42,(.other,false))],false),false,false,false,none,false,⟨.lcode,some (.own 3),false,.lblank⟩⟩] (.node (.node .leaf 71688033967 [⟨⟨(.inside 1),[42],.lcode,false,[(3,1)],false⟩,false,false,[],some 4,some ⟨.code,[47],.lcode,false,[(3,0)],false⟩,some ([(42,(.other,false))],false),false,false,false,none,false,⟨.lcode,some (.own 3),false,.lblank⟩⟩] .leaf) 71688034736 [⟨⟨(.inside 1),[42],.lcode,false,[(3,1)],false⟩,false,false,[],some 4,some ⟨.code,[47],.lcode,false,[(3,1)],false⟩,some ([(42,(.other,false))],false),false,false,false,none,false,⟨.lcode,some (.own 3),false,.lblank⟩⟩] .leaf))) 73575568321 [⟨⟨(.inside 1),[42],.lcode,false,[(3,0)],false⟩,false,false,[],some 4,some ⟨.code,[47],.lcode,false,[(2,2),(3,0)],false⟩,some ([(42,(.other,false))],false),false,false,false,none,false,⟨.lcode,some (.own 3),false,.lblank⟩⟩] (.node (.node (.node (.node .leaf 73575580610 [⟨⟨(.inside 1),[42],.lcode,false,[(3,1)],false⟩,false,false,[],some 4,some ⟨.code,[47],.lcode,false,[(2,2),(3,0)],false⟩,some ([(42,(.other,false))],false),false,false,false,none,false,⟨.lcode,some (.own 3),false,.lblank⟩⟩] .leaf) 73575669829 [⟨⟨(.inside 1),[42],.lcode,false,[(3,0)],false⟩,false,false,[],some 4,some ⟨.code,[47],.lcode,false,[(2,3),(3,1)],false⟩,some ([(42,(.other,false))],false),false,false,false,none,false,⟨.lcode,some (.own 3),false,.lblank⟩⟩] .leaf) 73575682118 [⟨⟨(.inside 1),[42],.lcode,false,[(3,1)],false⟩,false,false,[],some 4,some ⟨.code,[47],.lcode,false,[(2,3),(3,1)],false⟩,some ([(42,(.other,false))],false),false,false,false,none,false,⟨.lcode,some (.own 3),false,.lblank⟩⟩] (.node (.node .leaf 73575769799 [⟨⟨(.inside 1),[42],.lcode,false,[(3,0)],false⟩,false,false,[],some 4,some ⟨.code,[47],.lcode,false,[(2,4),(3,0)],false⟩,some ([(42,(.other,false))],false),false,false,false,none,false,⟨.lcode,some (.own 3),false,.lblank⟩⟩] .leaf) 73575782088 [⟨⟨(.inside 1),[42],.lcode,false,[(3,1)],false⟩,false,false,[],some 4,some ⟨.code,[47],.lcode,false,[(2,4),(3,0)],false⟩,some ([(42,(.other,false))],false),false,false,false,none,false,⟨.lcode,some (.own 3),false,.lblank⟩⟩] .leaf)) 73576069709 [⟨⟨(.inside 1),[42],.lcode,false,[(3,0)],false⟩,false,false,[],some 4,some ⟨.code,[47],.lcode,false,[(3,0),(2,4)],false⟩,some ([(42,(.other,false))],false),false,false,false,none,false,⟨.lcode,some (.own 3),false,.lblank⟩⟩] (.node (.node (.node .leaf 73576081998 [⟨⟨(.inside 1),[42],.lcode,false,[(3,1)],false⟩,false,false,[],some 4,some ⟨.code,[47],.lcode,false,[(3,0),(2,4)],false⟩,some ([(42,(.other,false))],false),false,false,false,none,false,⟨.lcode,some (.own 3),false,.lblank⟩⟩] .leaf) 250338700852 [⟨⟨(.inside 1),[42],.lcomment,false,[],false⟩,false,false,[],some 4,some ⟨.code,[47],.lcode,false,[(2,2),(2,4),(3,0)],false⟩,some ([(42,(.other,false))],false),true,false,false,none,false,⟨.lcomment,some .internalNl,false,.lblank⟩⟩] .leaf) 250358019160 [⟨⟨(.inside 1),[42],.lblank,false,[],false⟩,false,false,[],some 4,some ⟨.code,[47],.lcode,false,[(2,2),(2,4),(3,0)],false⟩,some ([(42,(.other,false))],false),true,false,false,none,false,⟨.lcomment,some .internalNl,false,.lblank⟩⟩] (.node (.node .leaf 320844380032 [⟨⟨(.inside 1),[42],.lcode,false,[(3,0)],false⟩,false,false,[],some 4,some ⟨.code,[47],.lcode,false,[(2,2),(2,4),(3,0)],false⟩,some ([(42,(.other,false))],false),false,false,false,none,false,⟨.lcode,some (.own 3),false,.lblank⟩⟩] .leaf) 320844392321 [⟨⟨(.inside 1),[42],.lcode,false,[(3,1)],false⟩,false,false,[],some 4,some ⟨.code,[47],.lcode,false,[(2,2),(2,4),(3,0)],false⟩,some ([(42,(.other,false))],false),false,false,false,none,false,⟨.lcode,some (.own 3),false,.lblank⟩⟩] .leaf))))),(.node (.node (.node .leaf 1179872 [⟨⟨(.inside 0),[],.lcode,false,[],false⟩,false,false,[],none,none,none,false,false,false,none,false,⟨.lcode,some (.own 3),false,.lblank⟩⟩] .leaf) 1327852 [⟨⟨(.inside 0),[],.lcomment,false,[],false⟩,false,false,[],none,none,none,false,false,false,none,false,⟨.lcomment,some (.own 3),false,.lblank⟩⟩] .leaf) 154816950 [⟨⟨(.inside 0),[],.lcode,false,[(3,0)],false⟩,false,false,[],none,none,none,false,false,false,none,false,⟨.lcode,some (.own 3),false,.lblank⟩⟩] (.node .leaf 154829239 [⟨⟨(.inside 0),[],.lcode,false,[(3,1)],false⟩,false,false,[],none,none,none,false,false,false,none,false,⟨.lcode,some (.own 3),false,.lblank⟩⟩] .leaf)),(.node (.node (.node (.node (.node (.node .leaf 610279138 [⟨⟨(.inside 1),[],.lcode,true,[],false⟩,false,false,[],some 4,some ⟨.code,[47],.lcode,false,[],false⟩,some ([(42,(.other,false))],false),false,false,false,none,false,⟨.lcode,some (.own 3),false,.lblank⟩⟩] .leaf) 610427126 [⟨⟨(.inside 1),[],.lcomment,true,[],false⟩,false,false,[],some 4,some ⟨.code,[47],.lcode,false,[],false⟩,some ([(42,(.other,false))],false),true,false,false,none,false,⟨.lcomment,some .internalNl,false,.lblank⟩⟩] .leaf) 610575106 [⟨⟨(.inside 1),[],.lblank,true,[],false⟩,false,false,[],some 4,some ⟨.code,[47],.lcode,false,[],false⟩,some ([(42,(.other,false))],false),true,false,false,none,false,⟨.lblank,some .internalNl,false,.lblank⟩⟩] (.node (.node .leaf 611635986 [⟨⟨(.inside 1),[],.lcomment,true,[],false⟩,false,false,[],some 4,some ⟨.code,[47],.lcomment,false,[],false⟩,some ([(42,(.other,false))],false),false,false,false,none,false,⟨.lcomment,some (.own 3),false,.lblank⟩⟩] .leaf) 611635994 [⟨⟨(.inside 1),[],.lcomment,true,[],false⟩,false,false,[],some 4,some ⟨.code,[47],.lcomment,false,[],false⟩,some ([(42,(.other,false))],false),true,false,false,none,false,⟨.lcomment,some .internalNl,false,.lblank⟩⟩] .leaf)) 611783974 [⟨⟨(.inside 1),[],.lblank,true,[],false⟩,false,false,[],some 4,some ⟨.code,[47],.lcomment,false,[],false⟩,some ([(42,(.other,false))],false),true,false,false,none,false,⟨.lblank,some .internalNl,false,.lblank⟩⟩] (.node (.node (.node .leaf 612844854 [⟨⟨(.inside 1),[],.lcomment,true,[],false⟩,false,false,[],some 4,some ⟨.code,[47],.lblank,false,[],false⟩,some ([(42,(.other,false))],false),false,false,false,none,false,⟨.lcomment,some (.own 3),false,.lblank⟩⟩] .leaf) 612844862 [⟨⟨(.inside 1),[],.lcomment,true,[],false⟩,false,false,[],some 4,some ⟨.code,[47],.lblank,false,[],false⟩,some ([(42,(.other,false))],false),true,false,false,none,false,⟨.lcomment,some .internalNl,false,.lblank⟩⟩] .leaf) 612992842 [⟨⟨(.inside 1),[],.lblank,true,[],false⟩,false,false,[],some 4,some ⟨.code,[47],.lblank,false,[],false⟩,some ([(42,(.other,false))],false),true,false,false,none,false,⟨.lblank,some .internalNl,false,.lblank⟩⟩] (.node .leaf 624687891 [⟨⟨(.inside 1),[],.lcode,true,[],false⟩,false,false,[],some 4,some ⟨.code,[47],.lcode,false,[(2,2)],false⟩,some ([(42,(.other,false))],false),false,false,false,none,false,⟨.lcode,some (.own 3),false,.lblank⟩⟩] .leaf))) 624688660 [⟨⟨(.inside 1),[],.lcode,true,[],false⟩,false,false,[],some 4,some ⟨.code,[47],.lcode,false,[(2,3)],false⟩,some ([(42,(.other,false))],false),false,false,false,none,false,⟨.lcode,some (.own 3),false,.lblank⟩⟩] (.node (.node (.node (.node .leaf 624689429 [⟨⟨(.inside 1),[],.lcode,true,[],false⟩,false,false,[],some 4,some ⟨.code,[47],.lcode,false,[(2,4)],false⟩,some ([(42,(.other,false))],false),false,false,false,none,false,⟨.lcode,some (.own 3),false,.lblank⟩⟩] .leaf) 624691736 [⟨⟨(.inside 1),[],.lcode,true,[],false⟩,false,false,[],some 4,some ⟨.code,[47],.lcode,false,[(3,0)],false⟩,some ([(42,(.other,false))],false),false,false,false,none,false,⟨.lcode,some (.own 3),false,.lblank⟩⟩] .leaf) 624692505 [⟨⟨(.inside 1),[],.lcode,true,[],false⟩,false,false,[],some 4,some ⟨.code,[47],.lcode,false,[(3,1)],false⟩,some ([(42,(.other,false))],false),false,false,false,none,false,⟨.lcode,some (.own 3),false,.lblank⟩⟩] (.node (.node .leaf 624835879 [⟨⟨(.inside 1),[],.lcomment,true,[],false⟩,false,false,[],some 4,some ⟨.code,[47],.lcode,false,[(2,2)],false⟩,some ([(42,(.other,false))],false),true,false,false,none,false,⟨.lcomment,some .internalNl,false,.lblank⟩⟩] .leaf) 624836648 [⟨⟨(.inside 1),[],.lcomment,true,[],false⟩,false,false,[],some 4,some ⟨.code,[47],.lcode,false,[(2,3)],false⟩,some ([(42,(.other,false))],false),true,false,false,none,false,⟨.lcomment,some .internalNl,false,.lblank⟩⟩] .leaf)) 624837417 [⟨⟨(.inside 1),[],.lcomment,true,[],false⟩,false,false,[],some 4,some ⟨.code,[47],.lcode,false,[(2,4)],false⟩,some ([(42,(.other,false))],false),true,false,false,none,false,⟨.lcomment,some .internalNl,false,.lblank⟩⟩] (.node (.node (.node .leaf 624839724 [⟨⟨(.inside 1),[],.lcomment,true,[],false⟩,false,false,[],some 4,some ⟨.code,[47],.lcode,false,[(3,0)],false⟩,some ([(42,(.other,false))],false),true,false,false,none,false,⟨.lcomment,some .internalNl,false,.lblank⟩⟩] .leaf) 624840493 [⟨⟨(.inside 1),[],.lcomment,true,[],false⟩,false,false,[],some 4,some ⟨.code,[47],.lcode,false,[(3,1)],false⟩,some ([(42,(.other,false))],false),true,false,false,none,false,⟨.lcomment,some .internalNl,false,.lblank⟩⟩] .leaf) 624983859 [⟨⟨(.inside 1),[],.lblank,true,[],false⟩,false,false,[],some 4,some ⟨.code,[47],.lcode,false,[(2,2)],false⟩,some ([(42,(.other,false))],false),true,false,false,none,false,⟨.lblank,some .internalNl,false,.lblank⟩⟩] (.node .leaf 624984628 [⟨⟨(.inside 1),[],.lblank,true,[],false⟩,false,false,[],some 4,some ⟨.code,[47],.lcode,false,[(2,3)],false⟩,some ([(42,(.other,false))],false),true,false,false,none,false,⟨.lblank,some .internalNl,false,.lblank⟩⟩] .leaf)))) 624985397 [⟨⟨(.inside 1),[],.lblank,true,[],false⟩,false,false,[],some 4,some ⟨.code,[47],.lcode,false,[(2,4)],false⟩,some ([(42,(.other,false))],false),true,false,false,none,false,⟨.lblank,some .internalNl,false,.lblank⟩⟩] (.node (.node (.node (.node (.node .leaf 624987704 [⟨⟨(.inside 1),[],.lblank,true,[],false⟩,false,false,[],some 4,some ⟨.code,[47],.lcode,false,[(3,0)],false⟩,some ([(42,(.other,false))],false),true,false,false,none,false,⟨.lblank,some .internalNl,false,.lblank⟩⟩] .leaf) 624988473 [⟨⟨(.inside 1),[],.lblank,true,[],false⟩,false,false,[],some 4,some ⟨.code,[47],.lcode,false,[(3,1)],false⟩,some ([(42,(.other,false))],false),true,false,false,none,false,⟨.lblank,some .internalNl,false,.lblank⟩⟩] .leaf) 2512236072 [⟨⟨(.inside 1),[],.lcode,true,[],false⟩,false,false,[],some 4,some ⟨.code,[47],.lcode,false,[(2,2),(2,4)],false⟩,some ([(42,(.other,false))],false),false,false,false,none,false,⟨.lcode,some (.own 3),false,.lblank⟩⟩] (.node (.node .leaf 2512238379 [⟨⟨(.inside 1),[],.lcode,true,[],false⟩,false,false,[],some 4,some ⟨.code,[47],.lcode,false,[(2,2),(3,0)],false⟩,some ([(42,(.other,false))],false),false,false,false,none,false,⟨.lcode,some (.own 3),false,.lblank⟩⟩] .leaf) 2512339887 [⟨⟨(.inside 1),[],.lcode,true,[],false⟩,false,false,[],some 4,some ⟨.code,[47],.lcode,false,[(2,3),(3,1)],false⟩,some ([(42,(.other,false))],false),false,false,false,none,false,⟨.lcode,some (.own 3),false,.lblank⟩⟩] .leaf)) 2512384060 [⟨⟨(.inside 1),[],.lcomment,true,[],false⟩,false,false,[],some 4,some ⟨.code,[47],.lcode,false,[(2,2),(2,4)],false⟩,some ([(42,(.other,false))],false),true,false,false,none,false,⟨.lcomment,some .internalNl,false,.lblank⟩⟩] (.node (.node (.node .leaf 2512386367 [⟨⟨(.inside 1),[],.lcomment,true,[],false⟩,false,false,[],some 4,some ⟨.code,[47],.lcode,false,[(2,2),(3,0)],false⟩,some ([(42,(.other,false))],false),true,false,false,none,false,⟨.lcomment,some .internalNl,false,.lblank⟩⟩] .leaf) 2512439857 [⟨⟨(.inside 1),[],.lcode,true,[],false⟩,false,false,[],some 4,some ⟨.code,[47],.lcode,false,[(2,4),(3,0)],false⟩,some ([(42,(.other,false))],false),false,false,false,none,false,⟨.lcode,some (.own 3),false,.lblank⟩⟩] .leaf) 2512487875 [⟨⟨(.inside 1),[],.lcomment,true,[],false⟩,false,false,[],some 4,some ⟨.code,[47],.lcode,false,[(2,3),(3,1)],false⟩,some ([(42,(.other,false))],false),true,false,false,none,false,⟨.lcomment,some .internalNl,false,.lblank⟩⟩] (.node .leaf 2512532040 [⟨⟨(.inside 1),[],.lblank,true,[],false⟩,false,false,[],some 4,some ⟨.code,[47],.lcode,false,[(2,2),(2,4)],false⟩,some ([(42,(.other,false))],false),true,false,false,none,false,⟨.lblank,some .internalNl,false,.lblank⟩⟩] .leaf))) 2512534347 [⟨⟨(.inside 1),[],.lblank,true,[],false⟩,false,false,[],some 4,some ⟨.code,[47],.lcode,false,[(2,2),(3,0)],false⟩,some ([(42,(.other,false))],false),true,false,false,none,false,⟨.lblank,some .internalNl,false,.lblank⟩⟩] (.node (.node (.node (.node .leaf 2512587845 [⟨⟨(.inside 1),[],.lcomment,true,[],false⟩,false,false,[],some 4,some ⟨.code,[47],.lcode,false,[(2,4),(3,0)],false⟩,some ([(42,(.other,false))],false),true,false,false,none,false,⟨.lcomment,some .internalNl,false,.lblank⟩⟩] .leaf) 2512635855 [⟨⟨(.inside 1),[],.lblank,true,[],false⟩,false,false,[],some 4,some ⟨.code,[47],.lcode,false,[(2,3),(3,1)],false⟩,some ([(42,(.other,false))],false),true,false,false,none,false,⟨.lblank,some .internalNl,false,.lblank⟩⟩] .leaf) 2512735825 [⟨⟨(.inside 1),[],.lblank,true,[],false⟩,false,false,[],some 4,some ⟨.code,[47],.lcode,false,[(2,4),(3,0)],false⟩,some ([(42,(.other,false))],false),true,false,false,none,false,⟨.lblank,some .internalNl,false,.lblank⟩⟩] (.node .leaf 2512739767 [⟨⟨(.inside 1),[],.lcode,true,[],false⟩,false,false,[],some 4,some ⟨.code,[47],.lcode,false,[(3,0),(2,4)],false⟩,some ([(42,(.other,false))],false),false,false,false,none,false,⟨.lcode,some (.own 3),false,.lblank⟩⟩] .leaf)) 2512887755 [⟨⟨(.inside 1),[],.lcomment,true,[],false⟩,false,false,[],some 4,some ⟨.code,[47],.lcode,false,[(3,0),(2,4)],false⟩,some ([(42,(.other,false))],false),true,false,false,none,false,⟨.lcomment,some .internalNl,false,.lblank⟩⟩] (.node (.node (.node .leaf 2513035735 [⟨⟨(.inside 1),[],.lblank,true,[],false⟩,false,false,[],some 4,some ⟨.code,[47],.lcode,false,[(3,0),(2,4)],false⟩,some ([(42,(.other,false))],false),true,false,false,none,false,⟨.lblank,some .internalNl,false,.lblank⟩⟩] .leaf) 249781050090 [⟨⟨(.inside 1),[],.lcode,true,[],false⟩,false,false,[],some 4,some ⟨.code,[47],.lcode,false,[(2,2),(2,4),(3,0)],false⟩,some ([(42,(.other,false))],false),false,false,false,none,false,⟨.lcode,some (.own 3),false,.lblank⟩⟩] .leaf) 249781198078 [⟨⟨(.inside 1),[],.lcomment,true,[],false⟩,false,false,[],some 4,some ⟨.code,[47],.lcode,false,[(2,2),(2,4),(3,0)],false⟩,some ([(42,(.other,false))],false),true,false,false,none,false,⟨.lcomment,some .internalNl,false,.lblank⟩⟩] (.node .leaf 249781346058 [⟨⟨(.inside 1),[],.lblank,true,[],false⟩,false,false,[],some 4,some ⟨.code,[47],.lcode,false,[(2,2),(2,4),(3,0)],false⟩,some ([(42,(.other,false))],false),true,false,false,none,false,⟨.lblank,some .internalNl,false,.lblank⟩⟩] .leaf))))),.leaf]
theorem dylan_line_lClosed : CA.closedF dylan_line_M dylan_line_lex true false dylan_line_lfr dylan_line_lTab = true := by decide +kernel
def dylan_line_L : LCert LexisTable.dylan_line dylan_line_M := dylan_line_lex_eq ▸ ⟨⟨dylan_line_lmasks, dylan_line_lex.rel, dylan_line_lcs, dylan_line_lrows, dylan_line_lmasksIn, dylan_line_lrepOk, dylan_line_lrowsOk⟩,
  _, rfl, by decide +kernel, by decide +kernel, true, false, CA.closed_of dylan_line_lfrOk dylan_line_lClosed⟩
theorem dylan_line_L_chk : dylan_line_L.chk = true := by
  have : ∀ (l : Lexis) (h : LexisTable.dylan_line = l) (C : LCert l dylan_line_M), (h ▸ C : LCert LexisTable.dylan_line dylan_line_M).chk = C.chk := by rintro _ rfl _; rfl
  exact this _ dylan_line_lex_eq _

def idl_pvwave_line_lex : Lexis := [⟨[59],[],.lcomment,false,false,false,true,false,false,true,false,none,false,false,false,false,[]⟩]
theorem idl_pvwave_line_lex_eq : LexisTable.idl_pvwave_line = idl_pvwave_line_lex := by decide +kernel
def idl_pvwave_line_lmasks : List Nat := [4294967808,576460752303423488,8192,1024,4096,115792089237316195423570985008687907853269984665640564039457584007908834656767,115792089237316195423570985008687907853269984665640564039457584007913129626623,4951760157141521099596496896]
def idl_pvwave_line_lcs : List (Nat × Nat) := [(0,115792089237316195423570985008687907853269984665635612279299866026056934736383),(9,4294967808),(10,1024),(11,2048),(12,4096),(13,8192),(59,576460752303423488),(92,4951760157141521099596496896)]
theorem idl_pvwave_line_lmasksIn : masksIn idl_pvwave_line_nfa idl_pvwave_line_lmasks = true := by decide +kernel
theorem idl_pvwave_line_lrepOk : repOk idl_pvwave_line_lmasks idl_pvwave_line_lcs = true := by decide +kernel
def idl_pvwave_line_lrows : List Row := [⟨[],none,[],[⟨256,.other,false,some ⟨0,[.setEnt (.own 3)],some 3,true⟩⟩,⟨256,.ws,false,some ⟨1,[.setEnt (.own 0)],some 0,false⟩⟩,⟨256,.lf,false,some ⟨0,[.setEnt .newline],some 2,true⟩⟩,⟨256,.vt,false,none⟩,⟨256,.ff,false,some ⟨0,[.setEnt .newline],some 2,true⟩⟩,⟨256,.cr,false,some ⟨2,[.setEnt .newline],none,false⟩⟩,⟨256,.cr,true,some ⟨3,[.setEnt .newline],some 2,false⟩⟩,⟨59,.other,false,some ⟨4,[.comment,.setEnt (.own 3)],some 1,false⟩⟩,⟨92,.other,false,some ⟨0,[.setEnt (.own 3)],some 3,true⟩⟩]⟩,⟨[0],some 0,[],[⟨256,.other,false,none⟩,⟨256,.ws,false,some ⟨1,[.setEnt (.own 0)],some 0,false⟩⟩,⟨256,.lf,false,none⟩,⟨256,.vt,false,none⟩,⟨256,.ff,false,none⟩,⟨256,.cr,false,none⟩,⟨256,.cr,true,none⟩,⟨59,.other,false,none⟩,⟨92,.other,false,none⟩]⟩,⟨[3],none,[],[⟨256,.other,false,none⟩,⟨256,.ws,false,none⟩,⟨256,.lf,false,some ⟨0,[.setEnt .newline],some 2,true⟩⟩,⟨256,.vt,false,none⟩,⟨256,.ff,false,none⟩,⟨256,.cr,false,none⟩,⟨256,.cr,true,none⟩,⟨59,.other,false,none⟩,⟨92,.other,false,none⟩]⟩,⟨[3,7],some 2,[],[⟨256,.other,false,none⟩,⟨256,.ws,false,none⟩,⟨256,.lf,false,some ⟨0,[.setEnt .newline],some 2,true⟩⟩,⟨256,.vt,false,none⟩,⟨256,.ff,false,none⟩,⟨256,.cr,false,none⟩,⟨256,.cr,true,none⟩,⟨59,.other,false,none⟩,⟨92,.other,false,none⟩]⟩,⟨[1,8],some 1,[],[⟨256,.other,false,some ⟨5,[],some 1,false⟩⟩,⟨256,.ws,false,some ⟨5,[],some 1,false⟩⟩,⟨256,.lf,false,none⟩,⟨256,.vt,false,some ⟨5,[],some 1,false⟩⟩,⟨256,.ff,false,none⟩,⟨256,.cr,false,none⟩,⟨256,.cr,true,none⟩,⟨59,.other,false,some ⟨5,[],some 1,false⟩⟩,⟨92,.other,false,some ⟨5,[],some 1,false⟩⟩]⟩,⟨[2],some 1,[],[⟨256,.other,false,some ⟨5,[],some 1,false⟩⟩,⟨256,.ws,false,some ⟨5,[],some 1,false⟩⟩,⟨256,.lf,false,none⟩,⟨256,.vt,false,some ⟨5,[],some 1,false⟩⟩,⟨256,.ff,false,none⟩,⟨256,.cr,false,none⟩,⟨256,.cr,true,none⟩,⟨59,.other,false,some ⟨5,[],some 1,false⟩⟩,⟨92,.other,false,some ⟨5,[],some 1,false⟩⟩]⟩]
theorem idl_pvwave_line_lrowsOk : rowsOk idl_pvwave_line_nfa idl_pvwave_line_lex.rel (idl_pvwave_line_lcs.map (·.1)) idl_pvwave_line_lrows = true := by decide +kernel
def idl_pvwave_line_lfr : List CA.FRow := [⟨true,none,[],[⟨256,.other,false,false,none,some ([.setEnt (.own 3)],(some 3,true))⟩,⟨9,.ws,false,false,some 1,some ([.setEnt (.own 0)],(some 0,false))⟩,⟨10,.lf,false,true,none,some ([.setEnt .newline],(some 2,true))⟩,⟨11,.vt,false,false,none,none⟩,⟨12,.ff,false,true,none,some ([.setEnt .newline],(some 2,true))⟩,⟨13,.cr,false,false,some 2,some ([.setEnt .newline],(none,false))⟩,⟨13,.cr,true,true,some 3,some ([.setEnt .newline],(some 2,false))⟩,⟨59,.other,false,false,some 4,some ([.comment,.setEnt (.own 3)],(some 1,false))⟩,⟨92,.other,false,false,none,some ([.setEnt (.own 3)],(some 3,true))⟩]⟩,⟨false,some 0,[],[⟨256,.other,false,false,none,none⟩,⟨9,.ws,false,false,some 1,some ([.setEnt (.own 0)],(some 0,false))⟩,⟨10,.lf,false,true,none,none⟩,⟨11,.vt,false,false,none,none⟩,⟨12,.ff,false,true,none,none⟩,⟨13,.cr,false,false,none,none⟩,⟨13,.cr,true,true,none,none⟩,⟨59,.other,false,false,none,none⟩,⟨92,.other,false,false,none,none⟩]⟩,⟨false,none,[],[⟨256,.other,false,false,none,none⟩,⟨9,.ws,false,false,none,none⟩,⟨10,.lf,false,true,none,some ([.setEnt .newline],(some 2,true))⟩,⟨11,.vt,false,false,none,none⟩,⟨12,.ff,false,true,none,none⟩,⟨13,.cr,false,false,none,none⟩,⟨13,.cr,true,true,none,none⟩,⟨59,.other,false,false,none,none⟩,⟨92,.other,false,false,none,none⟩]⟩,⟨false,some 2,[],[⟨256,.other,false,false,none,none⟩,⟨9,.ws,false,false,none,none⟩,⟨10,.lf,false,true,none,some ([.setEnt .newline],(some 2,true))⟩,⟨11,.vt,false,false,none,none⟩,⟨12,.ff,false,true,none,none⟩,⟨13,.cr,false,false,none,none⟩,⟨13,.cr,true,true,none,none⟩,⟨59,.other,false,false,none,none⟩,⟨92,.other,false,false,none,none⟩]⟩,⟨false,some 1,[],[⟨256,.other,false,false,some 5,some ([],(some 1,false))⟩,⟨9,.ws,false,false,some 5,some ([],(some 1,false))⟩,⟨10,.lf,false,true,none,none⟩,⟨11,.vt,false,false,some 5,some ([],(some 1,false))⟩,⟨12,.ff,false,true,none,none⟩,⟨13,.cr,false,false,none,none⟩,⟨13,.cr,true,true,none,none⟩,⟨59,.other,false,false,some 5,some ([],(some 1,false))⟩,⟨92,.other,false,false,some 5,some ([],(some 1,false))⟩]⟩,⟨false,some 1,[],[⟨256,.other,false,false,some 5,some ([],(some 1,false))⟩,⟨9,.ws,false,false,some 5,some ([],(some 1,false))⟩,⟨10,.lf,false,true,none,none⟩,⟨11,.vt,false,false,some 5,some ([],(some 1,false))⟩,⟨12,.ff,false,true,none,none⟩,⟨13,.cr,false,false,none,none⟩,⟨13,.cr,true,true,none,none⟩,⟨59,.other,false,false,some 5,some ([],(some 1,false))⟩,⟨92,.other,false,false,some 5,some ([],(some 1,false))⟩]⟩]
theorem idl_pvwave_line_lfrOk : idl_pvwave_line_lrows.map (CA.prep idl_pvwave_line_lex) = idl_pvwave_line_lfr := by decide +kernel
def idl_pvwave_line_lTab : List CT := [(.node (.node (.node (.node .leaf 128 [⟨⟨.code,[],.lcode,false,[],false⟩,false,false,[],none,none,none,false,false,false,none,false,⟨.lcode,none,false,.lblank⟩⟩] .leaf) 38019 [⟨⟨.code,[],.lcode,true,[],false⟩,false,false,[],none,none,none,false,false,false,none,false,⟨.lblank,none,false,.lblank⟩⟩] (.node .leaf 185487 [⟨⟨.code,[],.lcomment,true,[],false⟩,false,false,[],none,none,none,false,false,false,none,false,⟨.lblank,none,false,.lblank⟩⟩] .leaf)) 296088 [⟨⟨.code,[],.lblank,false,[],false⟩,false,false,[],none,none,none,false,false,false,none,false,⟨.lblank,none,false,.lblank⟩⟩] (.node (.node .leaf 332955 [⟨⟨.code,[],.lblank,true,[],false⟩,false,false,[],none,none,none,false,false,false,none,false,⟨.lblank,none,false,.lblank⟩⟩] .leaf) 1179872 [⟨⟨(.inside 0),[],.lcode,false,[],false⟩,false,false,[none],none,none,none,false,false,false,none,false,⟨.lcode,none,false,.lblank⟩⟩] (.node .leaf 1327852 [⟨⟨(.inside 0),[],.lcomment,false,[],false⟩,false,false,[none],none,none,none,false,false,false,none,false,⟨.lcomment,none,false,.lblank⟩⟩] .leaf))) 22179935 [⟨⟨(.inside 0),[],.lcode,false,[],false⟩,false,false,[some (10,(.lf,false))],none,none,none,false,false,false,none,false,⟨.lcode,none,false,.lblank⟩⟩] (.node (.node (.node .leaf 22327915 [⟨⟨(.inside 0),[],.lcomment,false,[],false⟩,false,false,[some (10,(.lf,false))],none,none,none,false,false,false,none,false,⟨.lcomment,none,false,.lblank⟩⟩] .leaf) 26179947 [⟨⟨(.inside 0),[],.lcode,false,[],false⟩,false,false,[some (12,(.ff,false))],none,none,none,false,false,false,none,false,⟨.lcode,none,false,.lblank⟩⟩] (.node .leaf 26327927 [⟨⟨(.inside 0),[],.lcomment,false,[],false⟩,false,false,[some (12,(.ff,false))],none,none,none,false,false,false,none,false,⟨.lcomment,none,false,.lblank⟩⟩] .leaf)) 28179953 [⟨⟨(.inside 0),[],.lcode,false,[],false⟩,false,false,[some (13,(.cr,false))],none,none,none,false,false,false,none,false,⟨.lcode,none,false,.lblank⟩⟩] (.node (.node .leaf 28327933 [⟨⟨(.inside 0),[],.lcomment,false,[],false⟩,false,false,[some (13,(.cr,false))],none,none,none,false,false,false,none,false,⟨.lcomment,none,false,.lblank⟩⟩] .leaf) 29179956 [⟨⟨(.inside 0),[],.lcode,false,[],false⟩,false,false,[some (13,(.cr,true))],none,none,none,false,false,false,none,false,⟨.lcode,none,false,.lblank⟩⟩] (.node .leaf 29327936 [⟨⟨(.inside 0),[],.lcomment,false,[],false⟩,false,false,[some (13,(.cr,true))],none,none,none,false,false,false,none,false,⟨.lcomment,none,false,.lblank⟩⟩] .leaf)))),(.node (.node .leaf 128 [⟨⟨.code,[],.lcode,false,[],false⟩,false,false,[],none,none,none,false,false,false,none,false,⟨.lcode,some (.own 0),false,.lblank⟩⟩] .leaf) 296088 [⟨⟨.code,[],.lblank,false,[],false⟩,false,false,[],none,none,none,false,false,false,none,false,⟨.lblank,some (.own 0),false,.lblank⟩⟩] .leaf),(.node (.node .leaf 160 [⟨⟨.code,[],.lcode,false,[],false⟩,true,false,[],none,none,none,false,false,false,none,false,⟨.lcode,some .newline,false,.lblank⟩⟩] .leaf) 148140 [⟨⟨.code,[],.lcomment,false,[],false⟩,true,false,[],none,none,none,false,false,false,none,false,⟨.lcomment,some .newline,false,.lblank⟩⟩] (.node .leaf 296120 [⟨⟨.code,[],.lblank,false,[],false⟩,true,false,[],none,none,none,false,false,false,none,false,⟨.lblank,some .newline,false,.lblank⟩⟩] .leaf)),(.node (.node .leaf 37011 [⟨⟨.code,[],.lcode,true,[],false⟩,false,true,[],none,none,none,false,false,false,none,false,⟨.lcode,some .newline,false,.lblank⟩⟩] .leaf) 184991 [⟨⟨.code,[],.lcomment,true,[],false⟩,false,true,[],none,none,none,false,false,false,none,false,⟨.lcomment,some .newline,false,.lblank⟩⟩] (.node .leaf 332971 [⟨⟨.code,[],.lblank,true,[],false⟩,false,true,[],none,none,none,false,false,false,none,false,⟨.lblank,some .newline,false,.lblank⟩⟩] .leaf)),(.node (.node .leaf 1179872 [⟨⟨(.inside 0),[],.lcode,false,[],false⟩,false,false,[],none,none,none,false,false,false,none,false,⟨.lcode,some (.own 3),false,.lblank⟩⟩] .leaf) 1327852 [⟨⟨(.inside 0),[],.lcomment,false,[],false⟩,false,false,[],none,none,none,false,false,false,none,false,⟨.lcomment,some (.own 3),false,.lblank⟩⟩] .leaf),(.node (.node .leaf 1179872 [⟨⟨(.inside 0),[],.lcode,false,[],false⟩,false,false,[],none,none,none,false,false,false,none,false,⟨.lcode,some (.own 3),false,.lblank⟩⟩] .leaf) 1327852 [⟨⟨(.inside 0),[],.lcomment,false,[],false⟩,false,false,[],none,none,none,false,false,false,none,false,⟨.lcomment,some (.own 3),false,.lblank⟩⟩] .leaf)]
theorem idl_pvwave_line_lClosed : CA.closedF idl_pvwave_line_M idl_pvwave_line_lex true false idl_pvwave_line_lfr idl_pvwave_line_lTab = true := by decide +kernel
def idl_pvwave_line_L : LCert LexisTable.idl_pvwave_line idl_pvwave_line_M := idl_pvwave_line_lex_eq ▸ ⟨⟨idl_pvwave_line_lmasks, idl_pvwave_line_lex.rel, idl_pvwave_line_lcs, idl_pvwave_line_lrows, idl_pvwave_line_lmasksIn, idl_pvwave_line_lrepOk, idl_pvwave_line_lrowsOk⟩,
  _, rfl, by decide +kernel, by decide +kernel, true, false, CA.closed_of idl_pvwave_line_lfrOk idl_pvwave_line_lClosed⟩
theorem idl_pvwave_line_L_chk : idl_pvwave_line_L.chk = true := by
  have : ∀ (l : Lexis) (h : LexisTable.idl_pvwave_line = l) (C : LCert l idl_pvwave_line_M), (h ▸ C : LCert LexisTable.idl_pvwave_line idl_pvwave_line_M).chk = C.chk := by rintro _ rfl _; rfl
  exact this _ idl_pvwave_line_lex_eq _

def tcl_line_lex : Lexis := [⟨[35],[],.lcomment,false,false,true,false,true,true,true,false,none,false,false,false,false,[]⟩,⟨[34],[[34]],.lcode,false,false,true,true,true,false,false,false,none,false,false,false,false,[]⟩]
theorem tcl_line_lex_eq : LexisTable.tcl_line = tcl_line_lex := by decide +kernel
def tcl_line_lmasks : List Nat := [4294967808,34359738368,17179869184,8192,1024,4096,115792089237316195423570985008687907853269984665640564039457584007908834656767,4951760157141521099596496896,115792089237316195423570985008687907853269984665640564039457584007908834658815,115792089237316195423570985008687907853269984665635612279300442486792058292735,115792089237316195423570985008687907853269984665640564039457584007913129626623]
def tcl_line_lcs : List (Nat × Nat) := [(0,115792089237316195423570985008687907853269984665635612279300442486757698552319),(9,4294967808),(10,1024),(11,2048),(12,4096),(13,8192),(34,17179869184),(35,34359738368),(92,4951760157141521099596496896)]
theorem tcl_line_lmasksIn : masksIn tcl_line_nfa tcl_line_lmasks = true := by decide +kernel
theorem tcl_line_lrepOk : repOk tcl_line_lmasks tcl_line_lcs = true := by decide +kernel
def tcl_line_lrows : List Row := [⟨[],none,[],[⟨256,.other,false,some ⟨0,[.setEnt (.own 3)],some 4,true⟩⟩,⟨256,.ws,false,some ⟨1,[.setEnt (.own 0)],some 0,false⟩⟩,⟨256,.lf,false,some ⟨0,[.setEnt .newline],some 3,true⟩⟩,⟨256,.vt,false,none⟩,⟨256,.ff,false,some ⟨0,[.setEnt .newline],some 3,true⟩⟩,⟨256,.cr,false,some ⟨2,[.setEnt .newline],none,false⟩⟩,⟨256,.cr,true,some ⟨3,[.setEnt .newline],some 3,false⟩⟩,⟨34,.other,false,some ⟨4,[.code,.setEnt (.own 3)],some 4,false⟩⟩,⟨35,.other,false,some ⟨5,[.comment,.setEnt (.own 3)],some 1,false⟩⟩,⟨92,.other,false,some ⟨0,[.setEnt (.own 3)],some 4,true⟩⟩]⟩,⟨[0],some 0,[],[⟨256,.other,false,none⟩,⟨256,.ws,false,some ⟨1,[.setEnt (.own 0)],some 0,false⟩⟩,⟨256,.lf,false,none⟩,⟨256,.vt,false,none⟩,⟨256,.ff,false,none⟩,⟨256,.cr,false,none⟩,⟨256,.cr,true,none⟩,⟨34,.other,false,none⟩,⟨35,.other,false,none⟩,⟨92,.other,false,none⟩]⟩,⟨[22],none,[],[⟨256,.other,false,none⟩,⟨256,.ws,false,none⟩,⟨256,.lf,false,some ⟨0,[.setEnt .newline],some 3,true⟩⟩,⟨256,.vt,false,none⟩,⟨256,.ff,false,none⟩,⟨256,.cr,false,none⟩,⟨256,.cr,true,none⟩,⟨34,.other,false,none⟩,⟨35,.other,false,none⟩,⟨92,.other,false,none⟩]⟩,⟨[22,26],some 3,[],[⟨256,.other,false,none⟩,⟨256,.ws,false,none⟩,⟨256,.lf,false,some ⟨0,[.setEnt .newline],some 3,true⟩⟩,⟨256,.vt,false,none⟩,⟨256,.ff,false,none⟩,⟨256,.cr,false,none⟩,⟨256,.cr,true,none⟩,⟨34,.other,false,none⟩,⟨35,.other,false,none⟩,⟨92,.other,false,none⟩]⟩,⟨[10,27],some 4,[],[⟨256,.other,false,some ⟨6,[.code],none,false⟩⟩,⟨256,.ws,false,some ⟨7,[],none,false⟩⟩,⟨256,.lf,false,none⟩,⟨256,.vt,false,some ⟨6,[.code],none,false⟩⟩,⟨256,.ff,false,none⟩,⟨256,.cr,false,none⟩,⟨256,.cr,true,none⟩,⟨34,.other,false,some ⟨0,[],some 2,true⟩⟩,⟨35,.other,false,some ⟨6,[.code],none,false⟩⟩,⟨92,.other,false,some ⟨8,[],none,false⟩⟩]⟩,⟨[1,27],some 1,[],[⟨256,.other,false,some ⟨9,[.comment],some 1,false⟩⟩,⟨256,.ws,false,some ⟨10,[],some 1,false⟩⟩,⟨256,.lf,false,none⟩,⟨256,.vt,false,some ⟨9,[.comment],some 1,false⟩⟩,⟨256,.ff,false,none⟩,⟨256,.cr,false,none⟩,⟨256,.cr,true,none⟩,⟨34,.other,false,some ⟨9,[.comment],some 1,false⟩⟩,⟨35,.other,false,some ⟨9,[.comment],some 1,false⟩⟩,⟨92,.other,false,some ⟨11,[.comment],some 1,false⟩⟩]⟩,⟨[18],none,[],[⟨256,.other,false,some ⟨6,[.code],none,false⟩⟩,⟨256,.ws,false,some ⟨7,[],none,false⟩⟩,⟨256,.lf,false,none⟩,⟨256,.vt,false,some ⟨6,[.code],none,false⟩⟩,⟨256,.ff,false,none⟩,⟨256,.cr,false,none⟩,⟨256,.cr,true,none⟩,⟨34,.other,false,some ⟨0,[],some 2,true⟩⟩,⟨35,.other,false,some ⟨6,[.code],none,false⟩⟩,⟨92,.other,false,some ⟨8,[],none,false⟩⟩]⟩,⟨[17],none,[],[⟨256,.other,false,some ⟨6,[.code],none,false⟩⟩,⟨256,.ws,false,some ⟨7,[],none,false⟩⟩,⟨256,.lf,false,none⟩,⟨256,.vt,false,some ⟨6,[.code],none,false⟩⟩,⟨256,.ff,false,none⟩,⟨256,.cr,false,none⟩,⟨256,.cr,true,none⟩,⟨34,.other,false,some ⟨0,[],some 2,true⟩⟩,⟨35,.other,false,some ⟨6,[.code],none,false⟩⟩,⟨92,.other,false,some ⟨8,[],none,false⟩⟩]⟩,⟨[11,19],none,[],[⟨256,.other,false,some ⟨12,[.code],none,false⟩⟩,⟨256,.ws,false,some ⟨12,[.code],none,false⟩⟩,⟨256,.lf,false,some ⟨13,[],none,false⟩⟩,⟨256,.vt,false,some ⟨12,[.code],none,false⟩⟩,⟨256,.ff,false,some ⟨14,[],none,false⟩⟩,⟨256,.cr,false,some ⟨15,[],none,false⟩⟩,⟨256,.cr,true,some ⟨16,[],none,false⟩⟩,⟨34,.other,false,some ⟨12,[.code],none,false⟩⟩,⟨35,.other,false,some ⟨12,[.code],none,false⟩⟩,⟨92,.other,false,some ⟨12,[.code],none,false⟩⟩]⟩,⟨[9],some 1,[],[⟨256,.other,false,some ⟨9,[.comment],some 1,false⟩⟩,⟨256,.ws,false,some ⟨10,[],some 1,false⟩⟩,⟨256,.lf,false,none⟩,⟨256,.vt,false,some ⟨9,[.comment],some 1,false⟩⟩,⟨256,.ff,false,none⟩,⟨256,.cr,false,none⟩,⟨256,.cr,true,none⟩,⟨34,.other,false,some ⟨9,[.comment],some 1,false⟩⟩,⟨35,.other,false,some ⟨9,[.comment],some 1,false⟩⟩,⟨92,.other,false,some ⟨11,[.comment],some 1,false⟩⟩]⟩,⟨[8],some 1,[],[⟨256,.other,false,some ⟨9,[.comment],some 1,false⟩⟩,⟨256,.ws,false,some ⟨10,[],some 1,false⟩⟩,⟨256,.lf,false,none⟩,⟨256,.vt,false,some ⟨9,[.comment],some 1,false⟩⟩,⟨256,.ff,false,none⟩,⟨256,.cr,false,none⟩,⟨256,.cr,true,none⟩,⟨34,.other,false,some ⟨9,[.comment],some 1,false⟩⟩,⟨35,.other,false,some ⟨9,[.comment],some 1,false⟩⟩,⟨92,.other,false,some ⟨11,[.comment],some 1,false⟩⟩]⟩,⟨[2,9],some 1,[],[⟨256,.other,false,some ⟨9,[.comment],some 1,false⟩⟩,⟨256,.ws,false,some ⟨10,[],some 1,false⟩⟩,⟨256,.lf,false,some ⟨17,[],some 1,false⟩⟩,⟨256,.vt,false,some ⟨9,[.comment],some 1,false⟩⟩,⟨256,.ff,false,some ⟨18,[],some 1,false⟩⟩,⟨256,.cr,false,some ⟨19,[],none,false⟩⟩,⟨256,.cr,true,some ⟨20,[],some 1,false⟩⟩,⟨34,.other,false,some ⟨9,[.comment],some 1,false⟩⟩,⟨35,.other,false,some ⟨9,[.comment],some 1,false⟩⟩,⟨92,.other,false,some ⟨11,[.comment],some 1,false⟩⟩]⟩,⟨[20],none,[],[⟨256,.other,false,some ⟨6,[.code],none,false⟩⟩,⟨256,.ws,false,some ⟨7,[],none,false⟩⟩,⟨256,.lf,false,none⟩,⟨256,.vt,false,some ⟨6,[.code],none,false⟩⟩,⟨256,.ff,false,none⟩,⟨256,.cr,false,none⟩,⟨256,.cr,true,none⟩,⟨34,.other,false,some ⟨0,[],some 2,true⟩⟩,⟨35,.other,false,some ⟨6,[.code],none,false⟩⟩,⟨92,.other,false,some ⟨8,[],none,false⟩⟩]⟩,⟨[14],none,[],[⟨256,.other,false,some ⟨6,[.setEnt .internalNl,.cb,.code],none,false⟩⟩,⟨256,.ws,false,some ⟨7,[.setEnt .internalNl,.cb],none,false⟩⟩,⟨256,.lf,false,none⟩,⟨256,.vt,false,some ⟨6,[.setEnt .internalNl,.cb,.code],none,false⟩⟩,⟨256,.ff,false,none⟩,⟨256,.cr,false,none⟩,⟨256,.cr,true,none⟩,⟨34,.other,false,some ⟨0,[.setEnt .internalNl,.cb],some 2,true⟩⟩,⟨35,.other,false,some ⟨6,[.setEnt .internalNl,.cb,.code],none,false⟩⟩,⟨92,.other,false,some ⟨8,[.setEnt .internalNl,.cb],none,false⟩⟩]⟩,⟨[15],none,[],[⟨256,.other,false,some ⟨6,[.setEnt .internalNl,.cb,.code],none,false⟩⟩,⟨256,.ws,false,some ⟨7,[.setEnt .internalNl,.cb],none,false⟩⟩,⟨256,.lf,false,none⟩,⟨256,.vt,false,some ⟨6,[.setEnt .internalNl,.cb,.code],none,false⟩⟩,⟨256,.ff,false,none⟩,⟨256,.cr,false,none⟩,⟨256,.cr,true,none⟩,⟨34,.other,false,some ⟨0,[.setEnt .internalNl,.cb],some 2,true⟩⟩,⟨35,.other,false,some ⟨6,[.setEnt .internalNl,.cb,.code],none,false⟩⟩,⟨92,.other,false,some ⟨8,[.setEnt .internalNl,.cb],none,false⟩⟩]⟩,⟨[12],none,[],[⟨256,.other,false,none⟩,⟨256,.ws,false,none⟩,⟨256,.lf,false,some ⟨21,[],none,false⟩⟩,⟨256,.vt,false,none⟩,⟨256,.ff,false,none⟩,⟨256,.cr,false,none⟩,⟨256,.cr,true,none⟩,⟨34,.other,false,none⟩,⟨35,.other,false,none⟩,⟨92,.other,false,none⟩]⟩,⟨[12,16],none,[],[⟨256,.other,false,some ⟨6,[.setEnt .internalNl,.cb,.code],none,false⟩⟩,⟨256,.ws,false,some ⟨7,[.setEnt .internalNl,.cb],none,false⟩⟩,⟨256,.lf,false,some ⟨21,[],none,false⟩⟩,⟨256,.vt,false,some ⟨6,[.setEnt .internalNl,.cb,.code],none,false⟩⟩,⟨256,.ff,false,none⟩,⟨256,.cr,false,none⟩,⟨256,.cr,true,none⟩,⟨34,.other,false,some ⟨0,[.setEnt .internalNl,.cb],some 2,true⟩⟩,⟨35,.other,false,some ⟨6,[.setEnt .internalNl,.cb,.code],none,false⟩⟩,⟨92,.other,false,some ⟨8,[.setEnt .internalNl,.cb],none,false⟩⟩]⟩,⟨[5],some 1,[.setEnt .internalNl,.cb],[⟨256,.other,false,some ⟨9,[.setEnt .internalNl,.cb,.comment],some 1,false⟩⟩,⟨256,.ws,false,some ⟨10,[.setEnt .internalNl,.cb],some 1,false⟩⟩,⟨256,.lf,false,none⟩,⟨256,.vt,false,some ⟨9,[.setEnt .internalNl,.cb,.comment],some 1,false⟩⟩,⟨256,.ff,false,none⟩,⟨256,.cr,false,none⟩,⟨256,.cr,true,none⟩,⟨34,.other,false,some ⟨9,[.setEnt .internalNl,.cb,.comment],some 1,false⟩⟩,⟨35,.other,false,some ⟨9,[.setEnt .internalNl,.cb,.comment],some 1,false⟩⟩,⟨92,.other,false,some ⟨11,[.setEnt .internalNl,.cb,.comment],some 1,false⟩⟩]⟩,⟨[6],some 1,[.setEnt .internalNl,.cb],[⟨256,.other,false,some ⟨9,[.setEnt .internalNl,.cb,.comment],some 1,false⟩⟩,⟨256,.ws,false,some ⟨10,[.setEnt .internalNl,.cb],some 1,false⟩⟩,⟨256,.lf,false,none⟩,⟨256,.vt,false,some ⟨9,[.setEnt .internalNl,.cb,.comment],some 1,false⟩⟩,⟨256,.ff,false,none⟩,⟨256,.cr,false,none⟩,⟨256,.cr,true,none⟩,⟨34,.other,false,some ⟨9,[.setEnt .internalNl,.cb,.comment],some 1,false⟩⟩,⟨35,.other,false,some ⟨9,[.setEnt .internalNl,.cb,.comment],some 1,false⟩⟩,⟨92,.other,false,some ⟨11,[.setEnt .internalNl,.cb,.comment],some 1,false⟩⟩]⟩,⟨[3],none,[],[⟨256,.other,false,none⟩,⟨256,.ws,false,none⟩,⟨256,.lf,false,some ⟨22,[],some 1,false⟩⟩,⟨256,.vt,false,none⟩,⟨256,.ff,false,none⟩,⟨256,.cr,false,none⟩,⟨256,.cr,true,none⟩,⟨34,.other,false,none⟩,⟨35,.other,false,none⟩,⟨92,.other,false,none⟩]⟩,⟨[3,7],some 1,[.setEnt .internalNl,.cb],[⟨256,.other,false,some ⟨9,[.setEnt .internalNl,.cb,.comment],some 1,false⟩⟩,⟨256,.ws,false,some ⟨10,[.setEnt .internalNl,.cb],some 1,false⟩⟩,⟨256,.lf,false,some ⟨22,[],some 1,false⟩⟩,⟨256,.vt,false,some ⟨9,[.setEnt .internalNl,.cb,.comment],some 1,false⟩⟩,⟨256,.ff,false,none⟩,⟨256,.cr,false,none⟩,⟨256,.cr,true,none⟩,⟨34,.other,false,some ⟨9,[.setEnt .internalNl,.cb,.comment],some 1,false⟩⟩,⟨35,.other,false,some ⟨9,[.setEnt .internalNl,.cb,.comment],some 1,false⟩⟩,⟨92,.other,false,some ⟨11,[.setEnt .internalNl,.cb,.comment],some 1,false⟩⟩]⟩,⟨[13],none,[],[⟨256,.other,false,some ⟨6,[.setEnt .internalNl,.cb,.code],none,false⟩⟩,⟨256,.ws,false,some ⟨7,[.setEnt .internalNl,.cb],none,false⟩⟩,⟨256,.lf,false,none⟩,⟨256,.vt,false,some ⟨6,[.setEnt .internalNl,.cb,.code],none,false⟩⟩,⟨256,.ff,false,none⟩,⟨256,.cr,false,none⟩,⟨256,.cr,true,none⟩,⟨34,.other,false,some ⟨0,[.setEnt .internalNl,.cb],some 2,true⟩⟩,⟨35,.other,false,some ⟨6,[.setEnt .internalNl,.cb,.code],none,false⟩⟩,⟨92,.other,false,some ⟨8,[.setEnt .internalNl,.cb],none,false⟩⟩]⟩,⟨[4],some 1,[.setEnt .internalNl,.cb],[⟨256,.other,false,some ⟨9,[.setEnt .internalNl,.cb,.comment],some 1,false⟩⟩,⟨256,.ws,false,some ⟨10,[.setEnt .internalNl,.cb],some 1,false⟩⟩,⟨256,.lf,false,none⟩,⟨256,.vt,false,some ⟨9,[.setEnt .internalNl,.cb,.comment],some 1,false⟩⟩,⟨256,.ff,false,none⟩,⟨256,.cr,false,none⟩,⟨256,.cr,true,none⟩,⟨34,.other,false,some ⟨9,[.setEnt .internalNl,.cb,.comment],some 1,false⟩⟩,⟨35,.other,false,some ⟨9,[.setEnt .internalNl,.cb,.comment],some 1,false⟩⟩,⟨92,.other,false,some ⟨11,[.setEnt .internalNl,.cb,.comment],some 1,false⟩⟩]⟩]
theorem tcl_line_lrowsOk : rowsOk tcl_line_nfa tcl_line_lex.rel (tcl_line_lcs.map (·.1)) tcl_line_lrows = true := by decide +kernel
def tcl_line_lfr : List CA.FRow := [⟨true,none,[],[⟨256,.other,false,false,none,some ([.setEnt (.own 3)],(some 4,true))⟩,⟨9,.ws,false,false,some 1,some ([.setEnt (.own 0)],(some 0,false))⟩,⟨10,.lf,false,true,none,some ([.setEnt .newline],(some 3,true))⟩,⟨11,.vt,false,false,none,none⟩,⟨12,.ff,false,true,none,some ([.setEnt .newline],(some 3,true))⟩,⟨13,.cr,false,false,some 2,some ([.setEnt .newline],(none,false))⟩,⟨13,.cr,true,true,some 3,some ([.setEnt .newline],(some 3,false))⟩,⟨34,.other,false,false,some 4,some ([.code,.setEnt (.own 3)],(some 4,false))⟩,⟨35,.other,false,false,some 5,some ([.comment,.setEnt (.own 3)],(some 1,false))⟩,⟨92,.other,false,false,none,some ([.setEnt (.own 3)],(some 4,true))⟩]⟩,⟨false,some 0,[],[⟨256,.other,false,false,none,none⟩,⟨9,.ws,false,false,some 1,some ([.setEnt (.own 0)],(some 0,false))⟩,⟨10,.lf,false,true,none,none⟩,⟨11,.vt,false,false,none,none⟩,⟨12,.ff,false,true,none,none⟩,⟨13,.cr,false,false,none,none⟩,⟨13,.cr,true,true,none,none⟩,⟨34,.other,false,false,none,none⟩,⟨35,.other,false,false,none,none⟩,⟨92,.other,false,false,none,none⟩]⟩,⟨false,none,[],[⟨256,.other,false,false,none,none⟩,⟨9,.ws,false,false,none,none⟩,⟨10,.lf,false,true,none,some ([.setEnt .newline],(some 3,true))⟩,⟨11,.vt,false,false,none,none⟩,⟨12,.ff,false,true,none,none⟩,⟨13,.cr,false,false,none,none⟩,⟨13,.cr,true,true,none,none⟩,⟨34,.other,false,false,none,none⟩,⟨35,.other,false,false,none,none⟩,⟨92,.other,false,false,none,none⟩]⟩,⟨false,some 3,[],[⟨256,.other,false,false,none,none⟩,⟨9,.ws,false,false,none,none⟩,⟨10,.lf,false,true,none,some ([.setEnt .newline],(some 3,true))⟩,⟨11,.vt,false,false,none,none⟩,⟨12,.ff,false,true,none,none⟩,⟨13,.cr,false,false,none,none⟩,⟨13,.cr,true,true,none,none⟩,⟨34,.other,false,false,none,none⟩,⟨35,.other,false,false,none,none⟩,⟨92,.other,false,false,none,none⟩]⟩,⟨false,some 4,[],[⟨256,.other,false,false,some 6,some ([.code],(none,false))⟩,⟨9,.ws,false,false,some 7,some ([],(none,false))⟩,⟨10,.lf,false,true,none,none⟩,⟨11,.vt,false,false,some 6,some ([.code],(none,false))⟩,⟨12,.ff,false,true,none,none⟩,⟨13,.cr,false,false,none,none⟩,⟨13,.cr,true,true,none,none⟩,⟨34,.other,false,false,none,some ([],(some 2,true))⟩,⟨35,.other,false,false,some 6,some ([.code],(none,false))⟩,⟨92,.other,false,false,some 8,some ([],(none,false))⟩]⟩,⟨false,some 1,[],[⟨256,.other,false,false,some 9,some ([.comment],(some 1,false))⟩,⟨9,.ws,false,false,some 10,some ([],(some 1,false))⟩,⟨10,.lf,false,true,none,none⟩,⟨11,.vt,false,false,some 9,some ([.comment],(some 1,false))⟩,⟨12,.ff,false,true,none,none⟩,⟨13,.cr,false,false,none,none⟩,⟨13,.cr,true,true,none,none⟩,⟨34,.other,false,false,some 9,some ([.comment],(some 1,false))⟩,⟨35,.other,false,false,some 9,some ([.comment],(some 1,false))⟩,⟨92,.other,false,false,some 11,some ([.comment],(some 1,false))⟩]⟩,⟨false,none,[],[⟨256,.other,false,false,some 6,some ([.code],(none,false))⟩,⟨9,.ws,false,false,some 7,some ([],(none,false))⟩,⟨10,.lf,false,true,none,none⟩,⟨11,.vt,false,false,some 6,some ([.code],(none,false))⟩,⟨12,.ff,false,true,none,none⟩,⟨13,.cr,false,false,none,none⟩,⟨13,.cr,true,true,none,none⟩,⟨34,.other,false,false,none,some ([],(some 2,true))⟩,⟨35,.other,false,false,some 6,some ([.code],(none,false))⟩,⟨92,.other,false,false,some 8,some ([],(none,false))⟩]⟩,⟨false,none,[],[⟨256,.other,false,false,some 6,some ([.code],(none,false))⟩,⟨9,.ws,false,false,some 7,some ([],(none,false))⟩,⟨10,.lf,false,true,none,none⟩,⟨11,.vt,false,false,some 6,some ([.code],(none,false))⟩,⟨12,.ff,false,true,none,none⟩,⟨13,.cr,false,false,none,none⟩,⟨13,.cr,true,true,none,none⟩,⟨34,.other,false,false,none,some ([],(some 2,true))⟩,⟨35,.other,false,false,some 6,some ([.code],(none,false))⟩,⟨92,.other,false,false,some 8,some ([],(none,false))⟩]⟩,⟨false,none,[],[⟨256,.other,false,false,some 12,some ([.code],(none,false))⟩,⟨9,.ws,false,false,some 12,some ([.code],(none,false))⟩,⟨10,.lf,false,true,some 13,some ([],(none,false))⟩,⟨11,.vt,false,false,some 12,some ([.code],(none,false))⟩,⟨12,.ff,false,true,some 14,some ([],(none,false))⟩,⟨13,.cr,false,false,some 15,some ([],(none,false))⟩,⟨13,.cr,true,true,some 16,some ([],(none,false))⟩,⟨34,.other,false,false,some 12,some ([.code],(none,false))⟩,⟨35,.other,false,false,some 12,some ([.code],(none,false))⟩,⟨92,.other,false,false,some 12,some ([.code],(none,false))⟩]⟩,⟨false,some 1,[],[⟨256,.other,false,false,some 9,some ([.comment],(some 1,false))⟩,⟨9,.ws,false,false,some 10,some ([],(some 1,false))⟩,⟨10,.lf,false,true,none,none⟩,⟨11,.vt,false,false,some 9,some ([.comment],(some 1,false))⟩,⟨12,.ff,false,true,none,none⟩,⟨13,.cr,false,false,none,none⟩,⟨13,.cr,true,true,none,none⟩,⟨34,.other,false,false,some 9,some ([.comment],(some 1,false))⟩,⟨35,.other,false,false,some 9,some ([.comment],(some 1,false))⟩,⟨92,.other,false,false,some 11,some ([.comment],(some 1,false))⟩]⟩,⟨false,some 1,[],[⟨256,.other,false,false,some 9,some ([.comment],(some 1,false))⟩,⟨9,.ws,false,false,some 10,some ([],(some 1,false))⟩,⟨10,.lf,false,true,none,none⟩,⟨11,.vt,false,false,some 9,some ([.comment],(some 1,false))⟩,⟨12,.ff,false,true,none,none⟩,⟨13,.cr,false,false,none,none⟩,⟨13,.cr,true,true,none,none⟩,⟨34,.other,false,false,some 9,some ([.comment],(some 1,false))⟩,⟨35,.other,false,false,some 9,some ([.comment],(some 1,false))⟩,⟨92,.other,false,false,some 11,some ([.comment],(some 1,false))⟩]⟩,⟨false,some 1,[],[⟨256,.other,false,false,some 9,some ([.comment],(some 1,false))⟩,⟨9,.ws,false,false,some 10,some ([],(some 1,false))⟩,⟨10,.lf,false,true,some 17,some ([],(some 1,false))⟩,⟨11,.vt,false,false,some 9,some ([.comment],(some 1,false))⟩,⟨12,.ff,false,true,some 18,some ([],(some 1,false))⟩,⟨13,.cr,false,false,some 19,some ([],(none,false))⟩,⟨13,.cr,true,true,some 20,some ([],(some 1,false))⟩,⟨34,.other,false,false,some 9,some ([.comment],(some 1,false))⟩,⟨35,.other,false,false,some 9,some ([.comment],(some 1,false))⟩,⟨92,.other,false,false,some 11,some ([.comment],(some 1,false))⟩]⟩,⟨false,none,[],[⟨256,.other,false,false,some 6,some ([.code],(none,false))⟩,⟨9,.ws,false,false,some 7,some ([],(none,false))⟩,⟨10,.lf,false,true,none,none⟩,⟨11,.vt,false,false,some 6,some ([.code],(none,false))⟩,⟨12,.ff,false,true,none,none⟩,⟨13,.cr,false,false,none,none⟩,⟨13,.cr,true,true,none,none⟩,⟨34,.other,false,false,none,some ([],(some 2,true))⟩,⟨35,.other,false,false,some 6,some ([.code],(none,false))⟩,⟨92,.other,false,false,some 8,some ([],(none,false))⟩]⟩,⟨false,none,[],[⟨256,.other,false,false,some 6,some ([.setEnt .internalNl,.cb,.code],(none,false))⟩,⟨9,.ws,false,false,some 7,some ([.setEnt .internalNl,.cb],(none,false))⟩,⟨10,.lf,false,true,none,none⟩,⟨11,.vt,false,false,some 6,some ([.setEnt .internalNl,.cb,.code],(none,false))⟩,⟨12,.ff,false,true,none,none⟩,⟨13,.cr,false,false,none,none⟩,⟨13,.cr,true,true,none,none⟩,⟨34,.other,false,false,none,some ([.setEnt .internalNl,.cb],(some 2,true))⟩,⟨35,.other,false,false,some 6,some ([.setEnt .internalNl,.cb,.code],(none,false))⟩,⟨92,.other,false,false,some 8,some ([.setEnt .internalNl,.cb],(none,false))⟩]⟩,⟨false,none,[],[⟨256,.other,false,false,some 6,some ([.setEnt .internalNl,.cb,.code],(none,false))⟩,⟨9,.ws,false,false,some 7,some ([.setEnt .internalNl,.cb],(none,false))⟩,⟨10,.lf,false,true,none,none⟩,⟨11,.vt,false,false,some 6,some ([.setEnt .internalNl,.cb,.code],(none,false))⟩,⟨12,.ff,false,true,none,none⟩,⟨13,.cr,false,false,none,none⟩,⟨13,.cr,true,true,none,none⟩,⟨34,.other,false,false,none,some ([.setEnt .internalNl,.cb],(some 2,true))⟩,⟨35,.other,false,false,some 6,some ([.setEnt .internalNl,.cb,.code],(none,false))⟩,⟨92,.other,false,false,some 8,some ([.setEnt .internalNl,.cb],(none,false))⟩]⟩,⟨false,none,[],[⟨256,.other,false,false,none,none⟩,⟨9,.ws,false,false,none,none⟩,⟨10,.lf,false,true,some 21,some ([],(none,false))⟩,⟨11,.vt,false,false,none,none⟩,⟨12,.ff,false,true,none,none⟩,⟨13,.cr,false,false,none,none⟩,⟨13,.cr,true,true,none,none⟩,⟨34,.other,false,false,none,none⟩,⟨35,.other,false,false,none,none⟩,⟨92,.other,false,false,none,none⟩]⟩,⟨false,none,[],[⟨256,.other,false,false,some 6,some ([.setEnt .internalNl,.cb,.code],(none,false))⟩,⟨9,.ws,false,false,some 7,some ([.setEnt .internalNl,.cb],(none,false))⟩,⟨10,.lf,false,true,some 21,some ([],(none,false))⟩,⟨11,.vt,false,false,some 6,some ([.setEnt .internalNl,.cb,.code],(none,false))⟩,⟨12,.ff,false,true,none,none⟩,⟨13,.cr,false,false,none,none⟩,⟨13,.cr,true,true,none,none⟩,⟨34,.other,false,false,none,some ([.setEnt .internalNl,.cb],(some 2,true))⟩,⟨35,.other,false,false,some 6,some ([.setEnt .internalNl,.cb,.code],(none,false))⟩,⟨92,.other,false,false,some 8,some ([.setEnt .internalNl,.cb],(none,false))⟩]⟩,⟨false,some 1,[.setEnt .internalNl,.cb],[⟨256,.other,false,false,some 9,some ([.setEnt .internalNl,.cb,.comment],(some 1,false))⟩,⟨9,.ws,false,false,some 10,some ([.setEnt .internalNl,.cb],(some 1,false))⟩,⟨10,.lf,false,true,none,none⟩,⟨11,.vt,false,false,some 9,some ([.setEnt .internalNl,.cb,.comment],(some 1,false))⟩,⟨12,.ff,false,true,none,none⟩,⟨13,.cr,false,false,none,none⟩,⟨13,.cr,true,true,none,none⟩,⟨34,.other,false,false,some 9,some ([.setEnt .internalNl,.cb,.comment],(some 1,false))⟩,⟨35,.other,false,false,some 9,some ([.setEnt .internalNl,.cb,.comment],(some 1,false))⟩,⟨92,.other,false,false,some 11,some ([.setEnt .internalNl,.cb,.comment],(some 1,false))⟩]⟩,⟨false,some 1,[.setEnt .internalNl,.cb],[⟨256,.other,false,false,some 9,some ([.setEnt .internalNl,.cb,.comment],(some 1,false))⟩,⟨9,.ws,false,false,some 10,some ([.setEnt .internalNl,.cb],(some 1,false))⟩,⟨10,.lf,false,true,none,none⟩,⟨11,.vt,false,false,some 9,some ([.setEnt .internalNl,.cb,.comment],(some 1,false))⟩,⟨12,.ff,false,true,none,none⟩,⟨13,.cr,false,false,none,none⟩,⟨13,.cr,true,true,none,none⟩,⟨34,.other,false,false,some 9,some ([.setEnt .internalNl,.cb,.comment],(some 1,false))⟩,⟨35,.other,false,false,some 9,some ([.setEnt .internalNl,.cb,.comment],(some 1,false))⟩,⟨92,.other,false,false,some 11,some ([.setEnt .internalNl,.cb,.comment],(some 1,false))⟩]⟩,⟨false,none,[],[⟨256,.other,false,false,none,none⟩,⟨9,.ws,false,false,none,none⟩,⟨10,.lf,false,true,some 22,some ([],(some 1,false))⟩,⟨11,.vt,false,false,none,none⟩,⟨12,.ff,false,true,none,none⟩,⟨13,.cr,false,false,none,none⟩,⟨13,.cr,true,true,none,none⟩,⟨34,.other,false,false,none,none⟩,⟨35,.other,false,false,none,none⟩,⟨92,.other,false,false,none,none⟩]⟩,⟨false,some 1,[.setEnt .internalNl,.cb],[⟨256,.other,false,false,some 9,some ([.setEnt .internalNl,.cb,.comment],(some 1,false))⟩,⟨9,.ws,false,false,some 10,some ([.setEnt .internalNl,.cb],(some 1,false))⟩,⟨10,.lf,false,true,some 22,some ([],(some 1,false))⟩,⟨11,.vt,false,false,some 9,some ([.setEnt .internalNl,.cb,.comment],(some 1,false))⟩,⟨12,.ff,false,true,none,none⟩,⟨13,.cr,false,false,none,none⟩,⟨13,.cr,true,true,none,none⟩,⟨34,.other,false,false,some 9,some ([.setEnt .internalNl,.cb,.comment],(some 1,false))⟩,⟨35,.other,false,false,some 9,some ([.setEnt .internalNl,.cb,.comment],(some 1,false))⟩,⟨92,.other,false,false,some 11,some ([.setEnt .internalNl,.cb,.comment],(some 1,false))⟩]⟩,⟨false,none,[],[⟨256,.other,false,false,some 6,some ([.setEnt .internalNl,.cb,.code],(none,false))⟩,⟨9,.ws,false,false,some 7,some ([.setEnt .internalNl,.cb],(none,false))⟩,⟨10,.lf,false,true,none,none⟩,⟨11,.vt,false,false,some 6,some ([.setEnt .internalNl,.cb,.code],(none,false))⟩,⟨12,.ff,false,true,none,none⟩,⟨13,.cr,false,false,none,none⟩,⟨13,.cr,true,true,none,none⟩,⟨34,.other,false,false,none,some ([.setEnt .internalNl,.cb],(some 2,true))⟩,⟨35,.other,false,false,some 6,some ([.setEnt .internalNl,.cb,.code],(none,false))⟩,⟨92,.other,false,false,some 8,some ([.setEnt .internalNl,.cb],(none,false))⟩]⟩,⟨false,some 1,[.setEnt .internalNl,.cb],[⟨256,.other,false,false,some 9,some ([.setEnt .internalNl,.cb,.comment],(some 1,false))⟩,⟨9,.ws,false,false,some 10,some ([.setEnt .internalNl,.cb],(some 1,false))⟩,⟨10,.lf,false,true,none,none⟩,⟨11,.vt,false,false,some 9,some ([.setEnt .internalNl,.cb,.comment],(some 1,false))⟩,⟨12,.ff,false,true,none,none⟩,⟨13,.cr,false,false,none,none⟩,⟨13,.cr,true,true,none,none⟩,⟨34,.other,false,false,some 9,some ([.setEnt .internalNl,.cb,.comment],(some 1,false))⟩,⟨35,.other,false,false,some 9,some ([.setEnt .internalNl,.cb,.comment],(some 1,false))⟩,⟨92,.other,false,false,some 11,some ([.setEnt .internalNl,.cb,.comment],(some 1,false))⟩]⟩]
theorem tcl_line_lfrOk : tcl_line_lrows.map (CA.prep tcl_line_lex) = tcl_line_lfr := by decide +kernel
def tcl_line_lTab : List CT := [(.node (.node (.node (.node (.node (.node .leaf 128 [⟨⟨.code,[],.lcode,false,[],false⟩,false,false,[],none,none,none,false,false,false,none,false,⟨.lcode,none,false,.lblank⟩⟩] .leaf) 38019 [⟨⟨.code,[],.lcode,true,[],false⟩,false,false,[],none,none,none,false,false,false,none,false,⟨.lblank,none,false,.lblank⟩⟩] .leaf) 185487 [⟨⟨.code,[],.lcomment,true,[],false⟩,false,false,[],none,none,none,false,false,false,none,false,⟨.lblank,none,false,.lblank⟩⟩] (.node (.node .leaf 296088 [⟨⟨.code,[],.lblank,false,[],false⟩,false,false,[],none,none,none,false,false,false,none,false,⟨.lblank,none,false,.lblank⟩⟩] .leaf) 332955 [⟨⟨.code,[],.lblank,true,[],false⟩,false,false,[],none,none,none,false,false,false,none,false,⟨.lblank,none,false,.lblank⟩⟩] .leaf)) 1179872 [⟨⟨(.inside 0),[],.lcode,false,[],false⟩,false,false,[none],none,none,none,false,false,false,none,false,⟨.lcode,none,false,.lblank⟩⟩] (.node (.node (.node .leaf 1217763 [⟨⟨(.inside 0),[],.lcode,true,[],false⟩,false,false,[none],none,none,none,false,false,false,none,false,⟨.lblank,none,false,.lblank⟩⟩] .leaf) 1327852 [⟨⟨(.inside 0),[],.lcomment,false,[],false⟩,false,false,[none],none,none,none,false,false,false,none,false,⟨.lcomment,none,false,.lblank⟩⟩] .leaf) 1365231 [⟨⟨(.inside 0),[],.lcomment,true,[],false⟩,false,false,[none],none,none,none,false,false,false,none,false,⟨.lblank,none,false,.lblank⟩⟩] (.node .leaf 1475832 [⟨⟨(.inside 0),[],.lblank,false,[],false⟩,false,false,[none],none,none,none,false,false,false,none,false,⟨.lblank,none,false,.lblank⟩⟩] .leaf))) 22179935 [⟨⟨(.inside 0),[],.lcode,false,[],false⟩,false,false,[some (10,(.lf,false))],none,none,none,false,false,false,none,false,⟨.lcode,none,false,.lblank⟩⟩] (.node (.node (.node (.node .leaf 22217826 [⟨⟨(.inside 0),[],.lcode,true,[],false⟩,false,false,[some (10,(.lf,false))],none,none,none,false,false,false,none,false,⟨.lblank,none,false,.lblank⟩⟩] .leaf) 22327915 [⟨⟨(.inside 0),[],.lcomment,false,[],false⟩,false,false,[some (10,(.lf,false))],none,none,none,false,false,false,none,false,⟨.lcomment,none,false,.lblank⟩⟩] .leaf) 22365294 [⟨⟨(.inside 0),[],.lcomment,true,[],false⟩,false,false,[some (10,(.lf,false))],none,none,none,false,false,false,none,false,⟨.lblank,none,false,.lblank⟩⟩] (.node .leaf 22475895 [⟨⟨(.inside 0),[],.lblank,false,[],false⟩,false,false,[some (10,(.lf,false))],none,none,none,false,false,false,none,false,⟨.lblank,none,false,.lblank⟩⟩] .leaf)) 26179947 [⟨⟨(.inside 0),[],.lcode,false,[],false⟩,false,false,[some (12,(.ff,false))],none,none,none,false,false,false,none,false,⟨.lcode,none,false,.lblank⟩⟩] (.node (.node (.node .leaf 26217838 [⟨⟨(.inside 0),[],.lcode,true,[],false⟩,false,false,[some (12,(.ff,false))],none,none,none,false,false,false,none,false,⟨.lblank,none,false,.lblank⟩⟩] .leaf) 26327927 [⟨⟨(.inside 0),[],.lcomment,false,[],false⟩,false,false,[some (12,(.ff,false))],none,none,none,false,false,false,none,false,⟨.lcomment,none,false,.lblank⟩⟩] .leaf) 26365306 [⟨⟨(.inside 0),[],.lcomment,true,[],false⟩,false,false,[some (12,(.ff,false))],none,none,none,false,false,false,none,false,⟨.lblank,none,false,.lblank⟩⟩] (.node .leaf 26475907 [⟨⟨(.inside 0),[],.lblank,false,[],false⟩,false,false,[some (12,(.ff,false))],none,none,none,false,false,false,none,false,⟨.lblank,none,false,.lblank⟩⟩] .leaf)))) 27397582 [⟨⟨(.escapedCr 0),[],.lcode,true,[],false⟩,false,false,[some (12,(.ff,false))],none,none,none,false,false,false,none,false,⟨.lblank,none,false,.lblank⟩⟩] (.node (.node (.node (.node (.node .leaf 27545050 [⟨⟨(.escapedCr 0),[],.lcomment,true,[],false⟩,false,false,[some (12,(.ff,false))],none,none,none,false,false,false,none,false,⟨.lblank,none,false,.lblank⟩⟩] .leaf) 28179953 [⟨⟨(.inside 0),[],.lcode,false,[],false⟩,false,false,[some (13,(.cr,false))],none,none,none,false,false,false,none,false,⟨.lcode,none,false,.lblank⟩⟩] .leaf) 28217844 [⟨⟨(.inside 0),[],.lcode,true,[],false⟩,false,false,[some (13,(.cr,false))],none,none,none,false,false,false,none,false,⟨.lblank,none,false,.lblank⟩⟩] (.node .leaf 28327933 [⟨⟨(.inside 0),[],.lcomment,false,[],false⟩,false,false,[some (13,(.cr,false))],none,none,none,false,false,false,none,false,⟨.lcomment,none,false,.lblank⟩⟩] .leaf)) 28365312 [⟨⟨(.inside 0),[],.lcomment,true,[],false⟩,false,false,[some (13,(.cr,false))],none,none,none,false,false,false,none,false,⟨.lblank,none,false,.lblank⟩⟩] (.node (.node (.node .leaf 28475913 [⟨⟨(.inside 0),[],.lblank,false,[],false⟩,false,false,[some (13,(.cr,false))],none,none,none,false,false,false,none,false,⟨.lblank,none,false,.lblank⟩⟩] .leaf) 29179956 [⟨⟨(.inside 0),[],.lcode,false,[],false⟩,false,false,[some (13,(.cr,true))],none,none,none,false,false,false,none,false,⟨.lcode,none,false,.lblank⟩⟩] .leaf) 29217847 [⟨⟨(.inside 0),[],.lcode,true,[],false⟩,false,false,[some (13,(.cr,true))],none,none,none,false,false,false,none,false,⟨.lblank,none,false,.lblank⟩⟩] (.node .leaf 29327936 [⟨⟨(.inside 0),[],.lcomment,false,[],false⟩,false,false,[some (13,(.cr,true))],none,none,none,false,false,false,none,false,⟨.lcomment,none,false,.lblank⟩⟩] .leaf))) 29365315 [⟨⟨(.inside 0),[],.lcomment,true,[],false⟩,false,false,[some (13,(.cr,true))],none,none,none,false,false,false,none,false,⟨.lblank,none,false,.lblank⟩⟩] (.node (.node (.node (.node .leaf 29397588 [⟨⟨(.escapedCr 0),[],.lcode,true,[],false⟩,false,false,[some (13,(.cr,false))],none,none,none,false,false,false,none,false,⟨.lblank,none,false,.lblank⟩⟩] .leaf) 29475916 [⟨⟨(.inside 0),[],.lblank,false,[],false⟩,false,false,[some (13,(.cr,true))],none,none,none,false,false,false,none,false,⟨.lblank,none,false,.lblank⟩⟩] .leaf) 29545056 [⟨⟨(.escapedCr 0),[],.lcomment,true,[],false⟩,false,false,[some (13,(.cr,false))],none,none,none,false,false,false,none,false,⟨.lblank,none,false,.lblank⟩⟩] (.node .leaf 30397591 [⟨⟨(.escapedCr 0),[],.lcode,true,[],false⟩,false,false,[some (13,(.cr,true))],none,none,none,false,false,false,none,false,⟨.lblank,none,false,.lblank⟩⟩] .leaf)) 30545059 [⟨⟨(.escapedCr 0),[],.lcomment,true,[],false⟩,false,false,[some (13,(.cr,true))],none,none,none,false,false,false,none,false,⟨.lblank,none,false,.lblank⟩⟩] (.node (.node (.node .leaf 157975223 [⟨⟨(.inside 0),[92],.lcode,false,[],false⟩,false,false,[none],none,none,none,false,false,false,none,false,⟨.lcode,none,false,.lblank⟩⟩] .leaf) 177294043 [⟨⟨(.inside 0),[92],.lcomment,false,[],false⟩,false,false,[none],none,none,none,false,false,false,none,false,⟨.lcomment,none,false,.lblank⟩⟩] .leaf) 196612351 [⟨⟨(.inside 0),[92],.lblank,false,[],false⟩,false,false,[none],none,none,none,false,false,false,none,false,⟨.lcomment,none,false,.lblank⟩⟩] (.node .leaf 351158815 [⟨⟨(.escapedCr 0),[92],.lblank,false,[],false⟩,false,false,[none],none,none,none,false,false,false,none,false,⟨.lcomment,none,false,.lblank⟩⟩] .leaf))))),(.node (.node .leaf 128 [⟨⟨.code,[],.lcode,false,[],false⟩,false,false,[],none,none,none,false,false,false,none,false,⟨.lcode,some (.own 0),false,.lblank⟩⟩] .leaf) 296088 [⟨⟨.code,[],.lblank,false,[],false⟩,false,false,[],none,none,none,false,false,false,none,false,⟨.lblank,some (.own 0),false,.lblank⟩⟩] .leaf),(.node (.node .leaf 160 [⟨⟨.code,[],.lcode,false,[],false⟩,true,false,[],none,none,none,false,false,false,none,false,⟨.lcode,some .newline,false,.lblank⟩⟩] .leaf) 148140 [⟨⟨.code,[],.lcomment,false,[],false⟩,true,false,[],none,none,none,false,false,false,none,false,⟨.lcomment,some .newline,false,.lblank⟩⟩] (.node .leaf 296120 [⟨⟨.code,[],.lblank,false,[],false⟩,true,false,[],none,none,none,false,false,false,none,false,⟨.lblank,some .newline,false,.lblank⟩⟩] .leaf)),(.node (.node .leaf 37011 [⟨⟨.code,[],.lcode,true,[],false⟩,false,true,[],none,none,none,false,false,false,none,false,⟨.lcode,some .newline,false,.lblank⟩⟩] .leaf) 184991 [⟨⟨.code,[],.lcomment,true,[],false⟩,false,true,[],none,none,none,false,false,false,none,false,⟨.lcomment,some .newline,false,.lblank⟩⟩] (.node .leaf 332971 [⟨⟨.code,[],.lblank,true,[],false⟩,false,true,[],none,none,none,false,false,false,none,false,⟨.lblank,some .newline,false,.lblank⟩⟩] .leaf)),(.node .leaf 4129232 [⟨⟨(.inside 1),[],.lcode,false,[],false⟩,false,false,[],none,none,none,false,false,false,none,false,⟨.lcode,some (.own 3),false,.lblank⟩⟩] .leaf),(.node (.node .leaf 1179872 [⟨⟨(.inside 0),[],.lcode,false,[],false⟩,false,false,[],none,none,none,false,false,false,none,false,⟨.lcode,some (.own 3),false,.lblank⟩⟩] .leaf) 1327852 [⟨⟨(.inside 0),[],.lcomment,false,[],false⟩,false,false,[],none,none,none,false,false,false,none,false,⟨.lcomment,some (.own 3),false,.lblank⟩⟩] .leaf),(.node (.node .leaf 4388101 [⟨⟨(.inside 1),[],.lcode,false,[],false⟩,false,false,[],some 4,some ⟨(.inside 1),[],.lcode,false,[],false⟩,none,false,false,false,none,false,⟨.lcode,some (.own 3),false,.lblank⟩⟩] .leaf) 4388109 [⟨⟨(.inside 1),[],.lcode,false,[],false⟩,false,false,[],some 4,some ⟨(.inside 1),[],.lcode,false,[],false⟩,none,true,false,false,none,false,⟨.lcode,some .internalNl,false,.lblank⟩⟩] .leaf),(.node (.node .leaf 4388101 [⟨⟨(.inside 1),[],.lcode,false,[],false⟩,false,false,[],some 4,some ⟨(.inside 1),[],.lcode,false,[],false⟩,none,false,false,false,none,false,⟨.lcode,some (.own 3),false,.lblank⟩⟩] .leaf) 4388109 [⟨⟨(.inside 1),[],.lcode,false,[],false⟩,false,false,[],some 4,some ⟨(.inside 1),[],.lcode,false,[],false⟩,none,true,false,false,none,false,⟨.lcode,some .internalNl,false,.lblank⟩⟩] (.node .leaf 4684069 [⟨⟨(.inside 1),[],.lblank,false,[],false⟩,false,false,[],some 4,some ⟨(.inside 1),[],.lcode,false,[],false⟩,none,true,false,false,none,false,⟨.lblank,some .internalNl,false,.lblank⟩⟩] .leaf)),(.node (.node (.node .leaf 544600252 [⟨⟨(.inside 1),[92],.lcode,false,[],false⟩,false,false,[],some 4,some ⟨(.inside 1),[],.lcode,false,[],false⟩,none,false,false,false,none,false,⟨.lcode,some (.own 3),false,.lblank⟩⟩] .leaf) 544600260 [⟨⟨(.inside 1),[92],.lcode,false,[],false⟩,false,false,[],some 4,some ⟨(.inside 1),[],.lcode,false,[],false⟩,none,true,false,false,none,false,⟨.lcode,some .internalNl,false,.lblank⟩⟩] .leaf) 583237900 [⟨⟨(.inside 1),[92],.lblank,false,[],false⟩,false,false,[],some 4,some ⟨(.inside 1),[],.lcode,false,[],false⟩,none,true,false,false,none,false,⟨.lblank,some .internalNl,false,.lblank⟩⟩] (.node .leaf 737784364 [⟨⟨(.escapedCr 1),[92],.lblank,false,[],false⟩,false,false,[],some 4,some ⟨(.inside 1),[],.lcode,false,[],false⟩,none,true,false,false,none,false,⟨.lblank,some .internalNl,false,.lblank⟩⟩] .leaf)),(.node (.node .leaf 1179872 [⟨⟨(.inside 0),[],.lcode,false,[],false⟩,false,false,[],none,none,none,false,false,false,none,false,⟨.lcode,some (.own 3),false,.lblank⟩⟩] .leaf) 1327852 [⟨⟨(.inside 0),[],.lcomment,false,[],false⟩,false,false,[],none,none,none,false,false,false,none,false,⟨.lcomment,some (.own 3),false,.lblank⟩⟩,⟨⟨(.inside 0),[],.lcomment,false,[],false⟩,false,false,[],none,none,none,false,false,false,none,false,⟨.lcomment,some .internalNl,false,.lblank⟩⟩] .leaf),(.node (.node .leaf 1179872 [⟨⟨(.inside 0),[],.lcode,false,[],false⟩,false,false,[],none,none,none,false,false,false,none,false,⟨.lcode,some (.own 3),false,.lblank⟩⟩] .leaf) 1327852 [⟨⟨(.inside 0),[],.lcomment,false,[],false⟩,false,false,[],none,none,none,false,false,false,none,false,⟨.lcomment,some (.own 3),false,.lblank⟩⟩,⟨⟨(.inside 0),[],.lcomment,false,[],false⟩,false,false,[],none,none,none,false,false,false,none,false,⟨.lcomment,some .internalNl,false,.lblank⟩⟩] (.node .leaf 1475832 [⟨⟨(.inside 0),[],.lblank,false,[],false⟩,false,false,[],none,none,none,false,false,false,none,false,⟨.lblank,some .internalNl,false,.lblank⟩⟩] .leaf)),(.node (.node (.node .leaf 157975223 [⟨⟨(.inside 0),[92],.lcode,false,[],false⟩,false,false,[],none,none,none,false,false,false,none,false,⟨.lcode,some (.own 3),false,.lblank⟩⟩] .leaf) 177294043 [⟨⟨(.inside 0),[92],.lcomment,false,[],false⟩,false,false,[],none,none,none,false,false,false,none,false,⟨.lcomment,some (.own 3),false,.lblank⟩⟩,⟨⟨(.inside 0),[92],.lcomment,false,[],false⟩,false,false,[],none,none,none,false,false,false,none,false,⟨.lcomment,some .internalNl,false,.lblank⟩⟩] .leaf) 196612351 [⟨⟨(.inside 0),[92],.lblank,false,[],false⟩,false,false,[],none,none,none,false,false,false,none,false,⟨.lcomment,some .internalNl,false,.lblank⟩⟩] (.node .leaf 351158815 [⟨⟨(.escapedCr 0),[92],.lblank,false,[],false⟩,false,false,[],none,none,none,false,false,false,none,false,⟨.lcomment,some .internalNl,false,.lblank⟩⟩] .leaf)),(.node (.node .leaf 4388101 [⟨⟨(.inside 1),[],.lcode,false,[],false⟩,false,false,[],some 4,some ⟨(.inside 1),[],.lcode,false,[],false⟩,none,false,false,false,none,false,⟨.lcode,some (.own 3),false,.lblank⟩⟩] .leaf) 4388109 [⟨⟨(.inside 1),[],.lcode,false,[],false⟩,false,false,[],some 4,some ⟨(.inside 1),[],.lcode,false,[],false⟩,none,true,false,false,none,false,⟨.lcode,some .internalNl,false,.lblank⟩⟩] .leaf),(.node (.node .leaf 4424968 [⟨⟨(.inside 1),[],.lcode,true,[],false⟩,false,false,[],some 4,some ⟨(.inside 1),[],.lcode,false,[],false⟩,none,false,false,false,none,false,⟨.lcode,some (.own 3),false,.lblank⟩⟩] .leaf) 4424976 [⟨⟨(.inside 1),[],.lcode,true,[],false⟩,false,false,[],some 4,some ⟨(.inside 1),[],.lcode,false,[],false⟩,none,true,false,false,none,false,⟨.lcode,some .internalNl,false,.lblank⟩⟩] (.node .leaf 4720936 [⟨⟨(.inside 1),[],.lblank,true,[],false⟩,false,false,[],some 4,some ⟨(.inside 1),[],.lcode,false,[],false⟩,none,true,false,false,none,false,⟨.lblank,some .internalNl,false,.lblank⟩⟩] .leaf)),(.node (.node .leaf 4424968 [⟨⟨(.inside 1),[],.lcode,true,[],false⟩,false,false,[],some 4,some ⟨(.inside 1),[],.lcode,false,[],false⟩,none,false,false,false,none,false,⟨.lcode,some (.own 3),false,.lblank⟩⟩] .leaf) 4424976 [⟨⟨(.inside 1),[],.lcode,true,[],false⟩,false,false,[],some 4,some ⟨(.inside 1),[],.lcode,false,[],false⟩,none,true,false,false,none,false,⟨.lcode,some .internalNl,false,.lblank⟩⟩] (.node .leaf 4720936 [⟨⟨(.inside 1),[],.lblank,true,[],false⟩,false,false,[],some 4,some ⟨(.inside 1),[],.lcode,false,[],false⟩,none,true,false,false,none,false,⟨.lblank,some .internalNl,false,.lblank⟩⟩] .leaf)),(.node (.node .leaf 5567877 [⟨⟨(.escapedCr 1),[],.lcode,false,[],false⟩,true,false,[],some 4,some ⟨(.inside 1),[],.lcode,false,[],false⟩,none,false,false,false,none,false,⟨.lcode,some (.own 3),false,.lblank⟩⟩] .leaf) 5567885 [⟨⟨(.escapedCr 1),[],.lcode,false,[],false⟩,true,false,[],some 4,some ⟨(.inside 1),[],.lcode,false,[],false⟩,none,true,false,false,none,false,⟨.lcode,some .internalNl,false,.lblank⟩⟩] (.node .leaf 5863845 [⟨⟨(.escapedCr 1),[],.lblank,false,[],false⟩,true,false,[],some 4,some ⟨(.inside 1),[],.lcode,false,[],false⟩,none,true,false,false,none,false,⟨.lblank,some .internalNl,false,.lblank⟩⟩] .leaf)),(.node (.node .leaf 5604728 [⟨⟨(.escapedCr 1),[],.lcode,true,[],false⟩,false,true,[],some 4,some ⟨(.inside 1),[],.lcode,false,[],false⟩,none,false,false,false,none,false,⟨.lcode,some (.own 3),false,.lblank⟩⟩] .leaf) 5604736 [⟨⟨(.escapedCr 1),[],.lcode,true,[],false⟩,false,true,[],some 4,some ⟨(.inside 1),[],.lcode,false,[],false⟩,none,true,false,false,none,false,⟨.lcode,some .internalNl,false,.lblank⟩⟩] (.node .leaf 5900696 [⟨⟨(.escapedCr 1),[],.lblank,true,[],false⟩,false,true,[],some 4,some ⟨(.inside 1),[],.lcode,false,[],false⟩,none,true,false,false,none,false,⟨.lblank,some .internalNl,false,.lblank⟩⟩] .leaf)),(.node (.node .leaf 1216739 [⟨⟨(.inside 0),[],.lcode,true,[],false⟩,false,false,[],none,none,none,false,false,false,none,false,⟨.lcode,some (.own 3),false,.lblank⟩⟩] .leaf) 1364719 [⟨⟨(.inside 0),[],.lcomment,true,[],false⟩,false,false,[],none,none,none,false,false,false,none,false,⟨.lcomment,some (.own 3),false,.lblank⟩⟩,⟨⟨(.inside 0),[],.lcomment,true,[],false⟩,false,false,[],none,none,none,false,false,false,none,false,⟨.lcomment,some .internalNl,false,.lblank⟩⟩] .leaf),(.node (.node .leaf 1216739 [⟨⟨(.inside 0),[],.lcode,true,[],false⟩,false,false,[],none,none,none,false,false,false,none,false,⟨.lcode,some (.own 3),false,.lblank⟩⟩] .leaf) 1364719 [⟨⟨(.inside 0),[],.lcomment,true,[],false⟩,false,false,[],none,none,none,false,false,false,none,false,⟨.lcomment,some (.own 3),false,.lblank⟩⟩,⟨⟨(.inside 0),[],.lcomment,true,[],false⟩,false,false,[],none,none,none,false,false,false,none,false,⟨.lcomment,some .internalNl,false,.lblank⟩⟩] .leaf),(.node (.node (.node .leaf 560246981 [⟨⟨(.escapedCr 0),[],.lcode,false,[],false⟩,true,false,[],some 1,some ⟨(.inside 0),[92],.lcode,false,[],false⟩,some ([(13,(.cr,false))],false),false,false,false,none,false,⟨.lcode,some (.own 3),false,.lblank⟩⟩] .leaf) 561603829 [⟨⟨(.escapedCr 0),[],.lcomment,false,[],false⟩,true,false,[],some 1,some ⟨(.inside 0),[92],.lcomment,false,[],false⟩,some ([(13,(.cr,false))],false),false,false,false,none,false,⟨.lcomment,some (.own 3),false,.lblank⟩⟩,⟨⟨(.escapedCr 0),[],.lcomment,false,[],false⟩,true,false,[],some 1,some ⟨(.inside 0),[92],.lcomment,false,[],false⟩,some ([(13,(.cr,false))],false),false,false,false,none,false,⟨.lcomment,some .internalNl,false,.lblank⟩⟩] .leaf) 562812697 [⟨⟨(.escapedCr 0),[],.lcomment,false,[],false⟩,true,false,[],some 1,some ⟨(.inside 0),[92],.lblank,false,[],false⟩,some ([(13,(.cr,false))],false),false,false,false,none,false,⟨.lcomment,some .internalNl,false,.lblank⟩⟩] (.node .leaf 572483641 [⟨⟨(.escapedCr 0),[],.lcomment,false,[],false⟩,true,false,[],some 1,some ⟨(.escapedCr 0),[92],.lblank,false,[],false⟩,some ([(13,(.cr,false))],false),false,false,false,none,false,⟨.lcomment,some .internalNl,false,.lblank⟩⟩] .leaf)),(.node (.node .leaf 2396499 [⟨⟨(.escapedCr 0),[],.lcode,true,[],false⟩,false,true,[],none,none,none,false,false,false,none,false,⟨.lcode,some (.own 3),false,.lblank⟩⟩] .leaf) 2544479 [⟨⟨(.escapedCr 0),[],.lcomment,true,[],false⟩,false,true,[],none,none,none,false,false,false,none,false,⟨.lcomment,some (.own 3),false,.lblank⟩⟩,⟨⟨(.escapedCr 0),[],.lcomment,true,[],false⟩,false,true,[],none,none,none,false,false,false,none,false,⟨.lcomment,some .internalNl,false,.lblank⟩⟩] .leaf),(.node (.node .leaf 4424968 [⟨⟨(.inside 1),[],.lcode,true,[],false⟩,false,false,[],some 4,some ⟨(.inside 1),[],.lcode,false,[],false⟩,none,false,false,false,none,false,⟨.lcode,some (.own 3),false,.lblank⟩⟩] .leaf) 4424976 [⟨⟨(.inside 1),[],.lcode,true,[],false⟩,false,false,[],some 4,some ⟨(.inside 1),[],.lcode,false,[],false⟩,none,true,false,false,none,false,⟨.lcode,some .internalNl,false,.lblank⟩⟩] (.node .leaf 4720936 [⟨⟨(.inside 1),[],.lblank,true,[],false⟩,false,false,[],some 4,some ⟨(.inside 1),[],.lcode,false,[],false⟩,none,true,false,false,none,false,⟨.lblank,some .internalNl,false,.lblank⟩⟩] .leaf)),(.node (.node .leaf 1216739 [⟨⟨(.inside 0),[],.lcode,true,[],false⟩,false,false,[],none,none,none,false,false,false,none,false,⟨.lcode,some (.own 3),false,.lblank⟩⟩] .leaf) 1364719 [⟨⟨(.inside 0),[],.lcomment,true,[],false⟩,false,false,[],none,none,none,false,false,false,none,false,⟨.lcomment,some (.own 3),false,.lblank⟩⟩,⟨⟨(.inside 0),[],.lcomment,true,[],false⟩,false,false,[],none,none,none,false,false,false,none,false,⟨.lcomment,some .internalNl,false,.lblank⟩⟩] .leaf)]
theorem tcl_line_lClosed : CA.closedF tcl_line_M tcl_line_lex true false tcl_line_lfr tcl_line_lTab = true := by decide +kernel
def tcl_line_L : LCert LexisTable.tcl_line tcl_line_M := tcl_line_lex_eq ▸ ⟨⟨tcl_line_lmasks, tcl_line_lex.rel, tcl_line_lcs, tcl_line_lrows, tcl_line_lmasksIn, tcl_line_lrepOk, tcl_line_lrowsOk⟩,
  _, rfl, by decide +kernel, by decide +kernel, true, false, CA.closed_of tcl_line_lfrOk tcl_line_lClosed⟩
theorem tcl_line_L_chk : tcl_line_L.chk = true := by
  have : ∀ (l : Lexis) (h : LexisTable.tcl_line = l) (C : LCert l tcl_line_M), (h ▸ C : LCert LexisTable.tcl_line tcl_line_M).chk = C.chk := by rintro _ rfl _; rfl
  exact this _ tcl_line_lex_eq _

def unrealscript_line_lex : Lexis := [⟨[47,47],[],.lcomment,false,false,false,true,false,false,true,false,none,false,false,false,false,[]⟩,⟨[47,42],[[42,47]],.lcomment,true,false,false,true,false,false,true,false,none,false,false,false,false,[]⟩,⟨[39],[[39]],.lcode,false,false,true,true,true,false,false,false,none,false,false,false,false,[]⟩,⟨[34],[[34]],.lcode,false,false,true,true,true,false,false,false,none,false,false,false,false,[]⟩]
theorem unrealscript_line_lex_eq : LexisTable.unrealscript_line = unrealscript_line_lex := by decide +kernel
def unrealscript_line_lmasks : List Nat := [4294967808,140737488355328,549755813888,17179869184,8192,1024,4096,115792089237316195423570985008687907853269984665640564039457584007908834656767,115792089237316195423570985008687907853269984665640564039457584007913129626623,4398046511104,115792089237316195423570985008687907853269984665640564039457584007908834658815,4951760157141521099596496896,115792089237316195423570985008687907853269984665635612279300442486259482361343,115792089237316195423570985008687907853269984665635612279300442486792058306047]
def unrealscript_line_lcs : List (Nat × Nat) := [(0,115792089237316195423570985008687907853269984665635612279300442341106767610367),(9,4294967808),(10,1024),(11,2048),(12,4096),(13,8192),(34,17179869184),(39,549755813888),(42,4398046511104),(47,140737488355328),(92,4951760157141521099596496896)]
theorem unrealscript_line_lmasksIn : masksIn unrealscript_line_nfa unrealscript_line_lmasks = true := by decide +kernel
theorem unrealscript_line_lrepOk : repOk unrealscript_line_lmasks unrealscript_line_lcs = true := by decide +kernel
def unrealscript_line_lrows : List Row := [⟨[],none,[],[⟨256,.other,false,some ⟨0,[.setEnt (.own 3)],some 4,true⟩⟩,⟨256,.ws,false,some ⟨1,[.setEnt (.own 0)],some 0,false⟩⟩,⟨256,.lf,false,some ⟨0,[.setEnt .newline],some 3,true⟩⟩,⟨256,.vt,false,none⟩,⟨256,.ff,false,some ⟨0,[.setEnt .newline],some 3,true⟩⟩,⟨256,.cr,false,some ⟨2,[.setEnt .newline],none,false⟩⟩,⟨256,.cr,true,some ⟨3,[.setEnt .newline],some 3,false⟩⟩,⟨34,.other,false,some ⟨4,[.code,.setEnt (.own 3)],some 4,false⟩⟩,⟨39,.other,false,some ⟨5,[.code,.setEnt (.own 3)],some 4,false⟩⟩,⟨42,.other,false,some ⟨0,[.setEnt (.own 3)],some 4,true⟩⟩,⟨47,.other,false,some ⟨6,[.setEnt (.own 3)],some 4,false⟩⟩,⟨92,.other,false,some ⟨0,[.setEnt (.own 3)],some 4,true⟩⟩]⟩,⟨[0],some 0,[],[⟨256,.other,false,none⟩,⟨256,.ws,false,some ⟨1,[.setEnt (.own 0)],some 0,false⟩⟩,⟨256,.lf,false,none⟩,⟨256,.vt,false,none⟩,⟨256,.ff,false,none⟩,⟨256,.cr,false,none⟩,⟨256,.cr,true,none⟩,⟨34,.other,false,none⟩,⟨39,.other,false,none⟩,⟨42,.other,false,none⟩,⟨47,.other,false,none⟩,⟨92,.other,false,none⟩]⟩,⟨[39],none,[],[⟨256,.other,false,none⟩,⟨256,.ws,false,none⟩,⟨256,.lf,false,some ⟨0,[.setEnt .newline],some 3,true⟩⟩,⟨256,.vt,false,none⟩,⟨256,.ff,false,none⟩,⟨256,.cr,false,none⟩,⟨256,.cr,true,none⟩,⟨34,.other,false,none⟩,⟨39,.other,false,none⟩,⟨42,.other,false,none⟩,⟨47,.other,false,none⟩,⟨92,.other,false,none⟩]⟩,⟨[39,43],some 3,[],[⟨256,.other,false,none⟩,⟨256,.ws,false,none⟩,⟨256,.lf,false,some ⟨0,[.setEnt .newline],some 3,true⟩⟩,⟨256,.vt,false,none⟩,⟨256,.ff,false,none⟩,⟨256,.cr,false,none⟩,⟨256,.cr,true,none⟩,⟨34,.other,false,none⟩,⟨39,.other,false,none⟩,⟨42,.other,false,none⟩,⟨47,.other,false,none⟩,⟨92,.other,false,none⟩]⟩,⟨[27,44],some 4,[],[⟨256,.other,false,some ⟨7,[.code],none,false⟩⟩,⟨256,.ws,false,some ⟨8,[],none,false⟩⟩,⟨256,.lf,false,some ⟨7,[.code],none,false⟩⟩,⟨256,.vt,false,some ⟨7,[.code],none,false⟩⟩,⟨256,.ff,false,some ⟨7,[.code],none,false⟩⟩,⟨256,.cr,false,some ⟨7,[.code],none,false⟩⟩,⟨256,.cr,true,some ⟨7,[.code],none,false⟩⟩,⟨34,.other,false,some ⟨0,[],some 2,true⟩⟩,⟨39,.other,false,some ⟨7,[.code],none,false⟩⟩,⟨42,.other,false,some ⟨7,[.code],none,false⟩⟩,⟨47,.other,false,some ⟨7,[.code],none,false⟩⟩,⟨92,.other,false,some ⟨9,[],none,false⟩⟩]⟩,⟨[15,44],some 4,[],[⟨256,.other,false,some ⟨10,[.code],none,false⟩⟩,⟨256,.ws,false,some ⟨11,[],none,false⟩⟩,⟨256,.lf,false,some ⟨10,[.code],none,false⟩⟩,⟨256,.vt,false,some ⟨10,[.code],none,false⟩⟩,⟨256,.ff,false,some ⟨10,[.code],none,false⟩⟩,⟨256,.cr,false,some ⟨10,[.code],none,false⟩⟩,⟨256,.cr,true,some ⟨10,[.code],none,false⟩⟩,⟨34,.other,false,some ⟨10,[.code],none,false⟩⟩,⟨39,.other,false,some ⟨0,[],some 2,true⟩⟩,⟨42,.other,false,some ⟨10,[.code],none,false⟩⟩,⟨47,.other,false,some ⟨10,[.code],none,false⟩⟩,⟨92,.other,false,some ⟨12,[],none,false⟩⟩]⟩,⟨[1,4,44],some 4,[],[⟨256,.other,false,none⟩,⟨256,.ws,false,none⟩,⟨256,.lf,false,none⟩,⟨256,.vt,false,none⟩,⟨256,.ff,false,none⟩,⟨256,.cr,false,none⟩,⟨256,.cr,true,none⟩,⟨34,.other,false,none⟩,⟨39,.other,false,none⟩,⟨42,.other,false,some ⟨13,[.comment],none,false⟩⟩,⟨47,.other,false,some ⟨14,[.comment],some 1,false⟩⟩,⟨92,.other,false,none⟩]⟩,⟨[35],none,[],[⟨256,.other,false,some ⟨7,[.code],none,false⟩⟩,⟨256,.ws,false,some ⟨8,[],none,false⟩⟩,⟨256,.lf,false,some ⟨7,[.code],none,false⟩⟩,⟨256,.vt,false,some ⟨7,[.code],none,false⟩⟩,⟨256,.ff,false,some ⟨7,[.code],none,false⟩⟩,⟨256,.cr,false,some ⟨7,[.code],none,false⟩⟩,⟨256,.cr,true,some ⟨7,[.code],none,false⟩⟩,⟨34,.other,false,some ⟨0,[],some 2,true⟩⟩,⟨39,.other,false,some ⟨7,[.code],none,false⟩⟩,⟨42,.other,false,some ⟨7,[.code],none,false⟩⟩,⟨47,.other,false,some ⟨7,[.code],none,false⟩⟩,⟨92,.other,false,some ⟨9,[],none,false⟩⟩]⟩,⟨[34],none,[],[⟨256,.other,false,some ⟨7,[.code],none,false⟩⟩,⟨256,.ws,false,some ⟨8,[],none,false⟩⟩,⟨256,.lf,false,some ⟨7,[.code],none,false⟩⟩,⟨256,.vt,false,some ⟨7,[.code],none,false⟩⟩,⟨256,.ff,false,some ⟨7,[.code],none,false⟩⟩,⟨256,.cr,false,some ⟨7,[.code],none,false⟩⟩,⟨256,.cr,true,some ⟨7,[.code],none,false⟩⟩,⟨34,.other,false,some ⟨0,[],some 2,true⟩⟩,⟨39,.other,false,some ⟨7,[.code],none,false⟩⟩,⟨42,.other,false,some ⟨7,[.code],none,false⟩⟩,⟨47,.other,false,some ⟨7,[.code],none,false⟩⟩,⟨92,.other,false,some ⟨9,[],none,false⟩⟩]⟩,⟨[28,36],none,[],[⟨256,.other,false,some ⟨15,[.code],none,false⟩⟩,⟨256,.ws,false,some ⟨15,[.code],none,false⟩⟩,⟨256,.lf,false,some ⟨16,[],none,false⟩⟩,⟨256,.vt,false,some ⟨15,[.code],none,false⟩⟩,⟨256,.ff,false,some ⟨17,[],none,false⟩⟩,⟨256,.cr,false,some ⟨18,[],none,false⟩⟩,⟨256,.cr,true,some ⟨19,[],none,false⟩⟩,⟨34,.other,false,some ⟨15,[.code],none,false⟩⟩,⟨39,.other,false,some ⟨15,[.code],none,false⟩⟩,⟨42,.other,false,some ⟨15,[.code],none,false⟩⟩,⟨47,.other,false,some ⟨15,[.code],none,false⟩⟩,⟨92,.other,false,some ⟨15,[.code],none,false⟩⟩]⟩,⟨[23],none,[],[⟨256,.other,false,some ⟨10,[.code],none,false⟩⟩,⟨256,.ws,false,some ⟨11,[],none,false⟩⟩,⟨256,.lf,false,some ⟨10,[.code],none,false⟩⟩,⟨256,.vt,false,some ⟨10,[.code],none,false⟩⟩,⟨256,.ff,false,some ⟨10,[.code],none,false⟩⟩,⟨256,.cr,false,some ⟨10,[.code],none,false⟩⟩,⟨256,.cr,true,some ⟨10,[.code],none,false⟩⟩,⟨34,.other,false,some ⟨10,[.code],none,false⟩⟩,⟨39,.other,false,some ⟨0,[],some 2,true⟩⟩,⟨42,.other,false,some ⟨10,[.code],none,false⟩⟩,⟨47,.other,false,some ⟨10,[.code],none,false⟩⟩,⟨92,.other,false,some ⟨12,[],none,false⟩⟩]⟩,⟨[22],none,[],[⟨256,.other,false,some ⟨10,[.code],none,false⟩⟩,⟨256,.ws,false,some ⟨11,[],none,false⟩⟩,⟨256,.lf,false,some ⟨10,[.code],none,false⟩⟩,⟨256,.vt,false,some ⟨10,[.code],none,false⟩⟩,⟨256,.ff,false,some ⟨10,[.code],none,false⟩⟩,⟨256,.cr,false,some ⟨10,[.code],none,false⟩⟩,⟨256,.cr,true,some ⟨10,[.code],none,false⟩⟩,⟨34,.other,false,some ⟨10,[.code],none,false⟩⟩,⟨39,.other,false,some ⟨0,[],some 2,true⟩⟩,⟨42,.other,false,some ⟨10,[.code],none,false⟩⟩,⟨47,.other,false,some ⟨10,[.code],none,false⟩⟩,⟨92,.other,false,some ⟨12,[],none,false⟩⟩]⟩,⟨[16,24],none,[],[⟨256,.other,false,some ⟨20,[.code],none,false⟩⟩,⟨256,.ws,false,some ⟨20,[.code],none,false⟩⟩,⟨256,.lf,false,some ⟨21,[],none,false⟩⟩,⟨256,.vt,false,some ⟨20,[.code],none,false⟩⟩,⟨256,.ff,false,some ⟨22,[],none,false⟩⟩,⟨256,.cr,false,some ⟨23,[],none,false⟩⟩,⟨256,.cr,true,some ⟨24,[],none,false⟩⟩,⟨34,.other,false,some ⟨20,[.code],none,false⟩⟩,⟨39,.other,false,some ⟨20,[.code],none,false⟩⟩,⟨42,.other,false,some ⟨20,[.code],none,false⟩⟩,⟨47,.other,false,some ⟨20,[.code],none,false⟩⟩,⟨92,.other,false,some ⟨20,[.code],none,false⟩⟩]⟩,⟨[5],none,[],[⟨256,.other,false,some ⟨25,[.comment],none,false⟩⟩,⟨256,.ws,false,some ⟨26,[],none,false⟩⟩,⟨256,.lf,false,some ⟨27,[],none,false⟩⟩,⟨256,.vt,false,some ⟨25,[.comment],none,false⟩⟩,⟨256,.ff,false,some ⟨28,[],none,false⟩⟩,⟨256,.cr,false,some ⟨29,[],none,false⟩⟩,⟨256,.cr,true,some ⟨30,[],none,false⟩⟩,⟨34,.other,false,some ⟨25,[.comment],none,false⟩⟩,⟨39,.other,false,some ⟨25,[.comment],none,false⟩⟩,⟨42,.other,false,some ⟨31,[.comment],none,false⟩⟩,⟨47,.other,false,some ⟨25,[.comment],none,false⟩⟩,⟨92,.other,false,some ⟨25,[.comment],none,false⟩⟩]⟩,⟨[2],some 1,[],[⟨256,.other,false,some ⟨32,[],some 1,false⟩⟩,⟨256,.ws,false,some ⟨32,[],some 1,false⟩⟩,⟨256,.lf,false,none⟩,⟨256,.vt,false,some ⟨32,[],some 1,false⟩⟩,⟨256,.ff,false,none⟩,⟨256,.cr,false,none⟩,⟨256,.cr,true,none⟩,⟨34,.other,false,some ⟨32,[],some 1,false⟩⟩,⟨39,.other,false,some ⟨32,[],some 1,false⟩⟩,⟨42,.other,false,some ⟨32,[],some 1,false⟩⟩,⟨47,.other,false,some ⟨32,[],some 1,false⟩⟩,⟨92,.other,false,some ⟨32,[],some 1,false⟩⟩]⟩,⟨[37],none,[],[⟨256,.other,false,some ⟨7,[.code],none,false⟩⟩,⟨256,.ws,false,some ⟨8,[],none,false⟩⟩,⟨256,.lf,false,some ⟨7,[.code],none,false⟩⟩,⟨256,.vt,false,some ⟨7,[.code],none,false⟩⟩,⟨256,.ff,false,some ⟨7,[.code],none,false⟩⟩,⟨256,.cr,false,some ⟨7,[.code],none,false⟩⟩,⟨256,.cr,true,some ⟨7,[.code],none,false⟩⟩,⟨34,.other,false,some ⟨0,[],some 2,true⟩⟩,⟨39,.other,false,some ⟨7,[.code],none,false⟩⟩,⟨42,.other,false,some ⟨7,[.code],none,false⟩⟩,⟨47,.other,false,some ⟨7,[.code],none,false⟩⟩,⟨92,.other,false,some ⟨9,[],none,false⟩⟩]⟩,⟨[31],none,[],[⟨256,.other,false,some ⟨7,[.setEnt .internalNl,.cb,.code],none,false⟩⟩,⟨256,.ws,false,some ⟨8,[.setEnt .internalNl,.cb],none,false⟩⟩,⟨256,.lf,false,some ⟨7,[.setEnt .internalNl,.cb,.code],none,false⟩⟩,⟨256,.vt,false,some ⟨7,[.setEnt .internalNl,.cb,.code],none,false⟩⟩,⟨256,.ff,false,some ⟨7,[.setEnt .internalNl,.cb,.code],none,false⟩⟩,⟨256,.cr,false,some ⟨7,[.setEnt .internalNl,.cb,.code],none,false⟩⟩,⟨256,.cr,true,some ⟨7,[.setEnt .internalNl,.cb,.code],none,false⟩⟩,⟨34,.other,false,some ⟨0,[.setEnt .internalNl,.cb],some 2,true⟩⟩,⟨39,.other,false,some ⟨7,[.setEnt .internalNl,.cb,.code],none,false⟩⟩,⟨42,.other,false,some ⟨7,[.setEnt .internalNl,.cb,.code],none,false⟩⟩,⟨47,.other,false,some ⟨7,[.setEnt .internalNl,.cb,.code],none,false⟩⟩,⟨92,.other,false,some ⟨9,[.setEnt .internalNl,.cb],none,false⟩⟩]⟩,⟨[32],none,[],[⟨256,.other,false,some ⟨7,[.setEnt .internalNl,.cb,.code],none,false⟩⟩,⟨256,.ws,false,some ⟨8,[.setEnt .internalNl,.cb],none,false⟩⟩,⟨256,.lf,false,some ⟨7,[.setEnt .internalNl,.cb,.code],none,false⟩⟩,⟨256,.vt,false,some ⟨7,[.setEnt .internalNl,.cb,.code],none,false⟩⟩,⟨256,.ff,false,some ⟨7,[.setEnt .internalNl,.cb,.code],none,false⟩⟩,⟨256,.cr,false,some ⟨7,[.setEnt .internalNl,.cb,.code],none,false⟩⟩,⟨256,.cr,true,some ⟨7,[.setEnt .internalNl,.cb,.code],none,false⟩⟩,⟨34,.other,false,some ⟨0,[.setEnt .internalNl,.cb],some 2,true⟩⟩,⟨39,.other,false,some ⟨7,[.setEnt .internalNl,.cb,.code],none,false⟩⟩,⟨42,.other,false,some ⟨7,[.setEnt .internalNl,.cb,.code],none,false⟩⟩,⟨47,.other,false,some ⟨7,[.setEnt .internalNl,.cb,.code],none,false⟩⟩,⟨92,.other,false,some ⟨9,[.setEnt .internalNl,.cb],none,false⟩⟩]⟩,⟨[29],none,[],[⟨256,.other,false,none⟩,⟨256,.ws,false,none⟩,⟨256,.lf,false,some ⟨33,[],none,false⟩⟩,⟨256,.vt,false,none⟩,⟨256,.ff,false,none⟩,⟨256,.cr,false,none⟩,⟨256,.cr,true,none⟩,⟨34,.other,false,none⟩,⟨39,.other,false,none⟩,⟨42,.other,false,none⟩,⟨47,.other,false,none⟩,⟨92,.other,false,none⟩]⟩,⟨[29,33],none,[],[⟨256,.other,false,some ⟨7,[.setEnt .internalNl,.cb,.code],none,false⟩⟩,⟨256,.ws,false,some ⟨8,[.setEnt .internalNl,.cb],none,false⟩⟩,⟨256,.lf,false,some ⟨34,[.setEnt .internalNl,.cb,.code],none,false⟩⟩,⟨256,.vt,false,some ⟨7,[.setEnt .internalNl,.cb,.code],none,false⟩⟩,⟨256,.ff,false,some ⟨7,[.setEnt .internalNl,.cb,.code],none,false⟩⟩,⟨256,.cr,false,some ⟨7,[.setEnt .internalNl,.cb,.code],none,false⟩⟩,⟨256,.cr,true,some ⟨7,[.setEnt .internalNl,.cb,.code],none,false⟩⟩,⟨34,.other,false,some ⟨0,[.setEnt .internalNl,.cb],some 2,true⟩⟩,⟨39,.other,false,some ⟨7,[.setEnt .internalNl,.cb,.code],none,false⟩⟩,⟨42,.other,false,some ⟨7,[.setEnt .internalNl,.cb,.code],none,false⟩⟩,⟨47,.other,false,some ⟨7,[.setEnt .internalNl,.cb,.code],none,false⟩⟩,⟨92,.other,false,some ⟨9,[.setEnt .internalNl,.cb],none,false⟩⟩]⟩,⟨[25],none,[],[⟨256,.other,false,some ⟨10,[.code],none,false⟩⟩,⟨256,.ws,false,some ⟨11,[],none,false⟩⟩,⟨256,.lf,false,some ⟨10,[.code],none,false⟩⟩,⟨256,.vt,false,some ⟨10,[.code],none,false⟩⟩,⟨256,.ff,false,some ⟨10,[.code],none,false⟩⟩,⟨256,.cr,false,some ⟨10,[.code],none,false⟩⟩,⟨256,.cr,true,some ⟨10,[.code],none,false⟩⟩,⟨34,.other,false,some ⟨10,[.code],none,false⟩⟩,⟨39,.other,false,some ⟨0,[],some 2,true⟩⟩,⟨42,.other,false,some ⟨10,[.code],none,false⟩⟩,⟨47,.other,false,some ⟨10,[.code],none,false⟩⟩,⟨92,.other,false,some ⟨12,[],none,false⟩⟩]⟩,⟨[19],none,[],[⟨256,.other,false,some ⟨10,[.setEnt .internalNl,.cb,.code],none,false⟩⟩,⟨256,.ws,false,some ⟨11,[.setEnt .internalNl,.cb],none,false⟩⟩,⟨256,.lf,false,some ⟨10,[.setEnt .internalNl,.cb,.code],none,false⟩⟩,⟨256,.vt,false,some ⟨10,[.setEnt .internalNl,.cb,.code],none,false⟩⟩,⟨256,.ff,false,some ⟨10,[.setEnt .internalNl,.cb,.code],none,false⟩⟩,⟨256,.cr,false,some ⟨10,[.setEnt .internalNl,.cb,.code],none,false⟩⟩,⟨256,.cr,true,some ⟨10,[.setEnt .internalNl,.cb,.code],none,false⟩⟩,⟨34,.other,false,some ⟨10,[.setEnt .internalNl,.cb,.code],none,false⟩⟩,⟨39,.other,false,some ⟨0,[.setEnt .internalNl,.cb],some 2,true⟩⟩,⟨42,.other,false,some ⟨10,[.setEnt .internalNl,.cb,.code],none,false⟩⟩,⟨47,.other,false,some ⟨10,[.setEnt .internalNl,.cb,.code],none,false⟩⟩,⟨92,.other,false,some ⟨12,[.setEnt .internalNl,.cb],none,false⟩⟩]⟩,⟨[20],none,[],[⟨256,.other,false,some ⟨10,[.setEnt .internalNl,.cb,.code],none,false⟩⟩,⟨256,.ws,false,some ⟨11,[.setEnt .internalNl,.cb],none,false⟩⟩,⟨256,.lf,false,some ⟨10,[.setEnt .internalNl,.cb,.code],none,false⟩⟩,⟨256,.vt,false,some ⟨10,[.setEnt .internalNl,.cb,.code],none,false⟩⟩,⟨256,.ff,false,some ⟨10,[.setEnt .internalNl,.cb,.code],none,false⟩⟩,⟨256,.cr,false,some ⟨10,[.setEnt .internalNl,.cb,.code],none,false⟩⟩,⟨256,.cr,true,some ⟨10,[.setEnt .internalNl,.cb,.code],none,false⟩⟩,⟨34,.other,false,some ⟨10,[.setEnt .internalNl,.cb,.code],none,false⟩⟩,⟨39,.other,false,some ⟨0,[.setEnt .internalNl,.cb],some 2,true⟩⟩,⟨42,.other,false,some ⟨10,[.setEnt .internalNl,.cb,.code],none,false⟩⟩,⟨47,.other,false,some ⟨10,[.setEnt .internalNl,.cb,.code],none,false⟩⟩,⟨92,.other,false,some ⟨12,[.setEnt .internalNl,.cb],none,false⟩⟩]⟩,⟨[17],none,[],[⟨256,.other,false,none⟩,⟨256,.ws,false,none⟩,⟨256,.lf,false,some ⟨35,[],none,false⟩⟩,⟨256,.vt,false,none⟩,⟨256,.ff,false,none⟩,⟨256,.cr,false,none⟩,⟨256,.cr,true,none⟩,⟨34,.other,false,none⟩,⟨39,.other,false,none⟩,⟨42,.other,false,none⟩,⟨47,.other,false,none⟩,⟨92,.other,false,none⟩]⟩,⟨[17,21],none,[],[⟨256,.other,false,some ⟨10,[.setEnt .internalNl,.cb,.code],none,false⟩⟩,⟨256,.ws,false,some ⟨11,[.setEnt .internalNl,.cb],none,false⟩⟩,⟨256,.lf,false,some ⟨36,[.setEnt .internalNl,.cb,.code],none,false⟩⟩,⟨256,.vt,false,some ⟨10,[.setEnt .internalNl,.cb,.code],none,false⟩⟩,⟨256,.ff,false,some ⟨10,[.setEnt .internalNl,.cb,.code],none,false⟩⟩,⟨256,.cr,false,some ⟨10,[.setEnt .internalNl,.cb,.code],none,false⟩⟩,⟨256,.cr,true,some ⟨10,[.setEnt .internalNl,.cb,.code],none,false⟩⟩,⟨34,.other,false,some ⟨10,[.setEnt .internalNl,.cb,.code],none,false⟩⟩,⟨39,.other,false,some ⟨0,[.setEnt .internalNl,.cb],some 2,true⟩⟩,⟨42,.other,false,some ⟨10,[.setEnt .internalNl,.cb,.code],none,false⟩⟩,⟨47,.other,false,some ⟨10,[.setEnt .internalNl,.cb,.code],none,false⟩⟩,⟨92,.other,false,some ⟨12,[.setEnt .internalNl,.cb],none,false⟩⟩]⟩,⟨[12],none,[],[⟨256,.other,false,some ⟨25,[.comment],none,false⟩⟩,⟨256,.ws,false,some ⟨26,[],none,false⟩⟩,⟨256,.lf,false,some ⟨27,[],none,false⟩⟩,⟨256,.vt,false,some ⟨25,[.comment],none,false⟩⟩,⟨256,.ff,false,some ⟨28,[],none,false⟩⟩,⟨256,.cr,false,some ⟨29,[],none,false⟩⟩,⟨256,.cr,true,some ⟨30,[],none,false⟩⟩,⟨34,.other,false,some ⟨25,[.comment],none,false⟩⟩,⟨39,.other,false,some ⟨25,[.comment],none,false⟩⟩,⟨42,.other,false,some ⟨31,[.comment],none,false⟩⟩,⟨47,.other,false,some ⟨25,[.comment],none,false⟩⟩,⟨92,.other,false,some ⟨25,[.comment],none,false⟩⟩]⟩,⟨[11],none,[],[⟨256,.other,false,some ⟨25,[.comment],none,false⟩⟩,⟨256,.ws,false,some ⟨26,[],none,false⟩⟩,⟨256,.lf,false,some ⟨27,[],none,false⟩⟩,⟨256,.vt,false,some ⟨25,[.comment],none,false⟩⟩,⟨256,.ff,false,some ⟨28,[],none,false⟩⟩,⟨256,.cr,false,some ⟨29,[],none,false⟩⟩,⟨256,.cr,true,some ⟨30,[],none,false⟩⟩,⟨34,.other,false,some ⟨25,[.comment],none,false⟩⟩,⟨39,.other,false,some ⟨25,[.comment],none,false⟩⟩,⟨42,.other,false,some ⟨31,[.comment],none,false⟩⟩,⟨47,.other,false,some ⟨25,[.comment],none,false⟩⟩,⟨92,.other,false,some ⟨25,[.comment],none,false⟩⟩]⟩,⟨[8],none,[],[⟨256,.other,false,some ⟨25,[.setEnt .internalNl,.cb,.comment],none,false⟩⟩,⟨256,.ws,false,some ⟨26,[.setEnt .internalNl,.cb],none,false⟩⟩,⟨256,.lf,false,some ⟨27,[.setEnt .internalNl,.cb],none,false⟩⟩,⟨256,.vt,false,some ⟨25,[.setEnt .internalNl,.cb,.comment],none,false⟩⟩,⟨256,.ff,false,some ⟨28,[.setEnt .internalNl,.cb],none,false⟩⟩,⟨256,.cr,false,some ⟨29,[.setEnt .internalNl,.cb],none,false⟩⟩,⟨256,.cr,true,some ⟨30,[.setEnt .internalNl,.cb],none,false⟩⟩,⟨34,.other,false,some ⟨25,[.setEnt .internalNl,.cb,.comment],none,false⟩⟩,⟨39,.other,false,some ⟨25,[.setEnt .internalNl,.cb,.comment],none,false⟩⟩,⟨42,.other,false,some ⟨31,[.setEnt .internalNl,.cb,.comment],none,false⟩⟩,⟨47,.other,false,some ⟨25,[.setEnt .internalNl,.cb,.comment],none,false⟩⟩,⟨92,.other,false,some ⟨25,[.setEnt .internalNl,.cb,.comment],none,false⟩⟩]⟩,⟨[9],none,[],[⟨256,.other,false,some ⟨25,[.setEnt .internalNl,.cb,.comment],none,false⟩⟩,⟨256,.ws,false,some ⟨26,[.setEnt .internalNl,.cb],none,false⟩⟩,⟨256,.lf,false,some ⟨27,[.setEnt .internalNl,.cb],none,false⟩⟩,⟨256,.vt,false,some ⟨25,[.setEnt .internalNl,.cb,.comment],none,false⟩⟩,⟨256,.ff,false,some ⟨28,[.setEnt .internalNl,.cb],none,false⟩⟩,⟨256,.cr,false,some ⟨29,[.setEnt .internalNl,.cb],none,false⟩⟩,⟨256,.cr,true,some ⟨30,[.setEnt .internalNl,.cb],none,false⟩⟩,⟨34,.other,false,some ⟨25,[.setEnt .internalNl,.cb,.comment],none,false⟩⟩,⟨39,.other,false,some ⟨25,[.setEnt .internalNl,.cb,.comment],none,false⟩⟩,⟨42,.other,false,some ⟨31,[.setEnt .internalNl,.cb,.comment],none,false⟩⟩,⟨47,.other,false,some ⟨25,[.setEnt .internalNl,.cb,.comment],none,false⟩⟩,⟨92,.other,false,some ⟨25,[.setEnt .internalNl,.cb,.comment],none,false⟩⟩]⟩,⟨[6],none,[],[⟨256,.other,false,none⟩,⟨256,.ws,false,none⟩,⟨256,.lf,false,some ⟨37,[],none,false⟩⟩,⟨256,.vt,false,none⟩,⟨256,.ff,false,none⟩,⟨256,.cr,false,none⟩,⟨256,.cr,true,none⟩,⟨34,.other,false,none⟩,⟨39,.other,false,none⟩,⟨42,.other,false,none⟩,⟨47,.other,false,none⟩,⟨92,.other,false,none⟩]⟩,⟨[6,10],none,[],[⟨256,.other,false,some ⟨25,[.setEnt .internalNl,.cb,.comment],none,false⟩⟩,⟨256,.ws,false,some ⟨26,[.setEnt .internalNl,.cb],none,false⟩⟩,⟨256,.lf,false,some ⟨38,[.setEnt .internalNl,.cb],none,false⟩⟩,⟨256,.vt,false,some ⟨25,[.setEnt .internalNl,.cb,.comment],none,false⟩⟩,⟨256,.ff,false,some ⟨28,[.setEnt .internalNl,.cb],none,false⟩⟩,⟨256,.cr,false,some ⟨29,[.setEnt .internalNl,.cb],none,false⟩⟩,⟨256,.cr,true,some ⟨30,[.setEnt .internalNl,.cb],none,false⟩⟩,⟨34,.other,false,some ⟨25,[.setEnt .internalNl,.cb,.comment],none,false⟩⟩,⟨39,.other,false,some ⟨25,[.setEnt .internalNl,.cb,.comment],none,false⟩⟩,⟨42,.other,false,some ⟨31,[.setEnt .internalNl,.cb,.comment],none,false⟩⟩,⟨47,.other,false,some ⟨25,[.setEnt .internalNl,.cb,.comment],none,false⟩⟩,⟨92,.other,false,some ⟨25,[.setEnt .internalNl,.cb,.comment],none,false⟩⟩]⟩,⟨[12,13],none,[],[⟨256,.other,false,some ⟨25,[.comment],none,false⟩⟩,⟨256,.ws,false,some ⟨26,[],none,false⟩⟩,⟨256,.lf,false,some ⟨27,[],none,false⟩⟩,⟨256,.vt,false,some ⟨25,[.comment],none,false⟩⟩,⟨256,.ff,false,some ⟨28,[],none,false⟩⟩,⟨256,.cr,false,some ⟨29,[],none,false⟩⟩,⟨256,.cr,true,some ⟨30,[],none,false⟩⟩,⟨34,.other,false,some ⟨25,[.comment],none,false⟩⟩,⟨39,.other,false,some ⟨25,[.comment],none,false⟩⟩,⟨42,.other,false,some ⟨31,[.comment],none,false⟩⟩,⟨47,.other,false,some ⟨0,[],some 1,true⟩⟩,⟨92,.other,false,some ⟨25,[.comment],none,false⟩⟩]⟩,⟨[3],some 1,[],[⟨256,.other,false,some ⟨32,[],some 1,false⟩⟩,⟨256,.ws,false,some ⟨32,[],some 1,false⟩⟩,⟨256,.lf,false,none⟩,⟨256,.vt,false,some ⟨32,[],some 1,false⟩⟩,⟨256,.ff,false,none⟩,⟨256,.cr,false,none⟩,⟨256,.cr,true,none⟩,⟨34,.other,false,some ⟨32,[],some 1,false⟩⟩,⟨39,.other,false,some ⟨32,[],some 1,false⟩⟩,⟨42,.other,false,some ⟨32,[],some 1,false⟩⟩,⟨47,.other,false,some ⟨32,[],some 1,false⟩⟩,⟨92,.other,false,some ⟨32,[],some 1,false⟩⟩]⟩,⟨[30],none,[],[⟨256,.other,false,some ⟨7,[.setEnt .internalNl,.cb,.code],none,false⟩⟩,⟨256,.ws,false,some ⟨8,[.setEnt .internalNl,.cb],none,false⟩⟩,⟨256,.lf,false,some ⟨7,[.setEnt .internalNl,.cb,.code],none,false⟩⟩,⟨256,.vt,false,some ⟨7,[.setEnt .internalNl,.cb,.code],none,false⟩⟩,⟨256,.ff,false,some ⟨7,[.setEnt .internalNl,.cb,.code],none,false⟩⟩,⟨256,.cr,false,some ⟨7,[.setEnt .internalNl,.cb,.code],none,false⟩⟩,⟨256,.cr,true,some ⟨7,[.setEnt .internalNl,.cb,.code],none,false⟩⟩,⟨34,.other,false,some ⟨0,[.setEnt .internalNl,.cb],some 2,true⟩⟩,⟨39,.other,false,some ⟨7,[.setEnt .internalNl,.cb,.code],none,false⟩⟩,⟨42,.other,false,some ⟨7,[.setEnt .internalNl,.cb,.code],none,false⟩⟩,⟨47,.other,false,some ⟨7,[.setEnt .internalNl,.cb,.code],none,false⟩⟩,⟨92,.other,false,some ⟨9,[.setEnt .internalNl,.cb],none,false⟩⟩]⟩,⟨[30,35],none,[],[⟨256,.other,false,some ⟨7,[.setEnt .internalNl,.cb,.code],none,false⟩⟩,⟨256,.ws,false,some ⟨8,[.setEnt .internalNl,.cb],none,false⟩⟩,⟨256,.lf,false,some ⟨7,[.setEnt .internalNl,.cb,.code],none,false⟩⟩,⟨256,.vt,false,some ⟨7,[.setEnt .internalNl,.cb,.code],none,false⟩⟩,⟨256,.ff,false,some ⟨7,[.setEnt .internalNl,.cb,.code],none,false⟩⟩,⟨256,.cr,false,some ⟨7,[.setEnt .internalNl,.cb,.code],none,false⟩⟩,⟨256,.cr,true,some ⟨7,[.setEnt .internalNl,.cb,.code],none,false⟩⟩,⟨34,.other,false,some ⟨0,[.setEnt .internalNl,.cb],some 2,true⟩⟩,⟨39,.other,false,some ⟨7,[.setEnt .internalNl,.cb,.code],none,false⟩⟩,⟨42,.other,false,some ⟨7,[.setEnt .internalNl,.cb,.code],none,false⟩⟩,⟨47,.other,false,some ⟨7,[.setEnt .internalNl,.cb,.code],none,false⟩⟩,⟨92,.other,false,some ⟨9,[.setEnt .internalNl,.cb],none,false⟩⟩]⟩,⟨[18],none,[],[⟨256,.other,false,some ⟨10,[.setEnt .internalNl,.cb,.code],none,false⟩⟩,⟨256,.ws,false,some ⟨11,[.setEnt .internalNl,.cb],none,false⟩⟩,⟨256,.lf,false,some ⟨10,[.setEnt .internalNl,.cb,.code],none,false⟩⟩,⟨256,.vt,false,some ⟨10,[.setEnt .internalNl,.cb,.code],none,false⟩⟩,⟨256,.ff,false,some ⟨10,[.setEnt .internalNl,.cb,.code],none,false⟩⟩,⟨256,.cr,false,some ⟨10,[.setEnt .internalNl,.cb,.code],none,false⟩⟩,⟨256,.cr,true,some ⟨10,[.setEnt .internalNl,.cb,.code],none,false⟩⟩,⟨34,.other,false,some ⟨10,[.setEnt .internalNl,.cb,.code],none,false⟩⟩,⟨39,.other,false,some ⟨0,[.setEnt .internalNl,.cb],some 2,true⟩⟩,⟨42,.other,false,some ⟨10,[.setEnt .internalNl,.cb,.code],none,false⟩⟩,⟨47,.other,false,some ⟨10,[.setEnt .internalNl,.cb,.code],none,false⟩⟩,⟨92,.other,false,some ⟨12,[.setEnt .internalNl,.cb],none,false⟩⟩]⟩,⟨[18,23],none,[],[⟨256,.other,false,some ⟨10,[.setEnt .internalNl,.cb,.code],none,false⟩⟩,⟨256,.ws,false,some ⟨11,[.setEnt .internalNl,.cb],none,false⟩⟩,⟨256,.lf,false,some ⟨10,[.setEnt .internalNl,.cb,.code],none,false⟩⟩,⟨256,.vt,false,some ⟨10,[.setEnt .internalNl,.cb,.code],none,false⟩⟩,⟨256,.ff,false,some ⟨10,[.setEnt .internalNl,.cb,.code],none,false⟩⟩,⟨256,.cr,false,some ⟨10,[.setEnt .internalNl,.cb,.code],none,false⟩⟩,⟨256,.cr,true,some ⟨10,[.setEnt .internalNl,.cb,.code],none,false⟩⟩,⟨34,.other,false,some ⟨10,[.setEnt .internalNl,.cb,.code],none,false⟩⟩,⟨39,.other,false,some ⟨0,[.setEnt .internalNl,.cb],some 2,true⟩⟩,⟨42,.other,false,some ⟨10,[.setEnt .internalNl,.cb,.code],none,false⟩⟩,⟨47,.other,false,some ⟨10,[.setEnt .internalNl,.cb,.code],none,false⟩⟩,⟨92,.other,false,some ⟨12,[.setEnt .internalNl,.cb],none,false⟩⟩]⟩,⟨[7],none,[],[⟨256,.other,false,some ⟨25,[.setEnt .internalNl,.cb,.comment],none,false⟩⟩,⟨256,.ws,false,some ⟨26,[.setEnt .internalNl,.cb],none,false⟩⟩,⟨256,.lf,false,some ⟨27,[.setEnt .internalNl,.cb],none,false⟩⟩,⟨256,.vt,false,some ⟨25,[.setEnt .internalNl,.cb,.comment],none,false⟩⟩,⟨256,.ff,false,some ⟨28,[.setEnt .internalNl,.cb],none,false⟩⟩,⟨256,.cr,false,some ⟨29,[.setEnt .internalNl,.cb],none,false⟩⟩,⟨256,.cr,true,some ⟨30,[.setEnt .internalNl,.cb],none,false⟩⟩,⟨34,.other,false,some ⟨25,[.setEnt .internalNl,.cb,.comment],none,false⟩⟩,⟨39,.other,false,some ⟨25,[.setEnt .internalNl,.cb,.comment],none,false⟩⟩,⟨42,.other,false,some ⟨31,[.setEnt .internalNl,.cb,.comment],none,false⟩⟩,⟨47,.other,false,some ⟨25,[.setEnt .internalNl,.cb,.comment],none,false⟩⟩,⟨92,.other,false,some ⟨25,[.setEnt .internalNl,.cb,.comment],none,false⟩⟩]⟩,⟨[7,8],none,[],[⟨256,.other,false,some ⟨25,[.setEnt .internalNl,.cb,.comment],none,false⟩⟩,⟨256,.ws,false,some ⟨26,[.setEnt .internalNl,.cb],none,false⟩⟩,⟨256,.lf,false,some ⟨27,[.setEnt .internalNl,.cb],none,false⟩⟩,⟨256,.vt,false,some ⟨25,[.setEnt .internalNl,.cb,.comment],none,false⟩⟩,⟨256,.ff,false,some ⟨28,[.setEnt .internalNl,.cb],none,false⟩⟩,⟨256,.cr,false,some ⟨29,[.setEnt .internalNl,.cb],none,false⟩⟩,⟨256,.cr,true,some ⟨30,[.setEnt .internalNl,.cb],none,false⟩⟩,⟨34,.other,false,some ⟨25,[.setEnt .internalNl,.cb,.comment],none,false⟩⟩,⟨39,.other,false,some ⟨25,[.setEnt .internalNl,.cb,.comment],none,false⟩⟩,⟨42,.other,false,some ⟨31,[.setEnt .internalNl,.cb,.comment],none,false⟩⟩,⟨47,.other,false,some ⟨25,[.setEnt .internalNl,.cb,.comment],none,false⟩⟩,⟨92,.other,false,some ⟨25,[.setEnt .internalNl,.cb,.comment],none,false⟩⟩]⟩]
theorem unrealscript_line_lrowsOk : rowsOk unrealscript_line_nfa unrealscript_line_lex.rel (unrealscript_line_lcs.map (·.1)) unrealscript_line_lrows = true := by decide +kernel
def unrealscript_line_lfr : List CA.FRow := [⟨true,none,[],[⟨256,.other,false,false,none,some ([.setEnt (.own 3)],(some 4,true))⟩,⟨9,.ws,false,false,some 1,some ([.setEnt (.own 0)],(some 0,false))⟩,⟨10,.lf,false,true,none,some ([.setEnt .newline],(some 3,true))⟩,⟨11,.vt,false,false,none,none⟩,⟨12,.ff,false,true,none,some ([.setEnt .newline],(some 3,true))⟩,⟨13,.cr,false,false,some 2,some ([.setEnt .newline],(none,false))⟩,⟨13,.cr,true,true,some 3,some ([.setEnt .newline],(some 3,false))⟩,⟨34,.other,false,false,some 4,some ([.code,.setEnt (.own 3)],(some 4,false))⟩,⟨39,.other,false,false,some 5,some ([.code,.setEnt (.own 3)],(some 4,false))⟩,⟨42,.other,false,false,none,some ([.setEnt (.own 3)],(some 4,true))⟩,⟨47,.other,false,false,some 6,some ([.setEnt (.own 3)],(some 4,false))⟩,⟨92,.other,false,false,none,some ([.setEnt (.own 3)],(some 4,true))⟩]⟩,⟨false,some 0,[],[⟨256,.other,false,false,none,none⟩,⟨9,.ws,false,false,some 1,some ([.setEnt (.own 0)],(some 0,false))⟩,⟨10,.lf,false,true,none,none⟩,⟨11,.vt,false,false,none,none⟩,⟨12,.ff,false,true,none,none⟩,⟨13,.cr,false,false,none,none⟩,⟨13,.cr,true,true,none,none⟩,⟨34,.other,false,false,none,none⟩,⟨39,.other,false,false,none,none⟩,⟨42,.other,false,false,none,none⟩,⟨47,.other,false,false,none,none⟩,⟨92,.other,false,false,none,none⟩]⟩,⟨false,none,[],[⟨256,.other,false,false,none,none⟩,⟨9,.ws,false,false,none,none⟩,⟨10,.lf,false,true,none,some ([.setEnt .newline],(some 3,true))⟩,⟨11,.vt,false,false,none,none⟩,⟨12,.ff,false,true,none,none⟩,⟨13,.cr,false,false,none,none⟩,⟨13,.cr,true,true,none,none⟩,⟨34,.other,false,false,none,none⟩,⟨39,.other,false,false,none,none⟩,⟨42,.other,false,false,none,none⟩,⟨47,.other,false,false,none,none⟩,⟨92,.other,false,false,none,none⟩]⟩,⟨false,some 3,[],[⟨256,.other,false,false,none,none⟩,⟨9,.ws,false,false,none,none⟩,⟨10,.lf,false,true,none,some ([.setEnt .newline],(some 3,true))⟩,⟨11,.vt,false,false,none,none⟩,⟨12,.ff,false,true,none,none⟩,⟨13,.cr,false,false,none,none⟩,⟨13,.cr,true,true,none,none⟩,⟨34,.other,false,false,none,none⟩,⟨39,.other,false,false,none,none⟩,⟨42,.other,false,false,none,none⟩,⟨47,.other,false,false,none,none⟩,⟨92,.other,false,false,none,none⟩]⟩,⟨false,some 4,[],[⟨256,.other,false,false,some 7,some ([.code],(none,false))⟩,⟨9,.ws,false,false,some 8,some ([],(none,false))⟩,⟨10,.lf,false,true,some 7,some ([.code],(none,false))⟩,⟨11,.vt,false,false,some 7,some ([.code],(none,false))⟩,⟨12,.ff,false,true,some 7,some ([.code],(none,false))⟩,⟨13,.cr,false,false,some 7,some ([.code],(none,false))⟩,⟨13,.cr,true,true,some 7,some ([.code],(none,false))⟩,⟨34,.other,false,false,none,some ([],(some 2,true))⟩,⟨39,.other,false,false,some 7,some ([.code],(none,false))⟩,⟨42,.other,false,false,some 7,some ([.code],(none,false))⟩,⟨47,.other,false,false,some 7,some ([.code],(none,false))⟩,⟨92,.other,false,false,some 9,some ([],(none,false))⟩]⟩,⟨false,some 4,[],[⟨256,.other,false,false,some 10,some ([.code],(none,false))⟩,⟨9,.ws,false,false,some 11,some ([],(none,false))⟩,⟨10,.lf,false,true,some 10,some ([.code],(none,false))⟩,⟨11,.vt,false,false,some 10,some ([.code],(none,false))⟩,⟨12,.ff,false,true,some 10,some ([.code],(none,false))⟩,⟨13,.cr,false,false,some 10,some ([.code],(none,false))⟩,⟨13,.cr,true,true,some 10,some ([.code],(none,false))⟩,⟨34,.other,false,false,some 10,some ([.code],(none,false))⟩,⟨39,.other,false,false,none,some ([],(some 2,true))⟩,⟨42,.other,false,false,some 10,some ([.code],(none,false))⟩,⟨47,.other,false,false,some 10,some ([.code],(none,false))⟩,⟨92,.other,false,false,some 12,some ([],(none,false))⟩]⟩,⟨false,some 4,[],[⟨256,.other,false,false,none,none⟩,⟨9,.ws,false,false,none,none⟩,⟨10,.lf,false,true,none,none⟩,⟨11,.vt,false,false,none,none⟩,⟨12,.ff,false,true,none,none⟩,⟨13,.cr,false,false,none,none⟩,⟨13,.cr,true,true,none,none⟩,⟨34,.other,false,false,none,none⟩,⟨39,.other,false,false,none,none⟩,⟨42,.other,false,false,some 13,some ([.comment],(none,false))⟩,⟨47,.other,false,false,some 14,some ([.comment],(some 1,false))⟩,⟨92,.other,false,false,none,none⟩]⟩,⟨false,none,[],[⟨256,.other,false,false,some 7,some ([.code],(none,false))⟩,⟨9,.ws,false,false,some 8,some ([],(none,false))⟩,⟨10,.lf,false,true,some 7,some ([.code],(none,false))⟩,⟨11,.vt,false,false,some 7,some ([.code],(none,false))⟩,⟨12,.ff,false,true,some 7,some ([.code],(none,false))⟩,⟨13,.cr,false,false,some 7,some ([.code],(none,false))⟩,⟨13,.cr,true,true,some 7,some ([.code],(none,false))⟩,⟨34,.other,false,false,none,some ([],(some 2,true))⟩,⟨39,.other,false,false,some 7,some ([.code],(none,false))⟩,⟨42,.other,false,false,some 7,some ([.code],(none,false))⟩,⟨47,.other,false,false,some 7,some ([.code],(none,false))⟩,⟨92,.other,false,false,some 9,some ([],(none,false))⟩]⟩,⟨false,none,[],[⟨256,.other,false,false,some 7,some ([.code],(none,false))⟩,⟨9,.ws,false,false,some 8,some ([],(none,false))⟩,⟨10,.lf,false,true,some 7,some ([.code],(none,false))⟩,⟨11,.vt,false,false,some 7,some ([.code],(none,false))⟩,⟨12,.ff,false,true,some 7,some ([.code],(none,false))⟩,⟨13,.cr,false,false,some 7,some ([.code],(none,false))⟩,⟨13,.cr,true,true,some 7,some ([.code],(none,false))⟩,⟨34,.other,false,false,none,some ([],(some 2,true))⟩,⟨39,.other,false,false,some 7,some ([.code],(none,false))⟩,⟨42,.other,false,false,some 7,some ([.code],(none,false))⟩,⟨47,.other,false,false,some 7,some ([.code],(none,false))⟩,⟨92,.other,false,false,some 9,some ([],(none,false))⟩]⟩,⟨false,none,[],[⟨256,.other,false,false,some 15,some ([.code],(none,false))⟩,⟨9,.ws,false,false,some 15,some ([.code],(none,false))⟩,⟨10,.lf,false,true,some 16,some ([],(none,false))⟩,⟨11,.vt,false,false,some 15,some ([.code],(none,false))⟩,⟨12,.ff,false,true,some 17,some ([],(none,false))⟩,⟨13,.cr,false,false,some 18,some ([],(none,false))⟩,⟨13,.cr,true,true,some 19,some ([],(none,false))⟩,⟨34,.other,false,false,some 15,some ([.code],(none,false))⟩,⟨39,.other,false,false,some 15,some ([.code],(none,false))⟩,⟨42,.other,false,false,some 15,some ([.code],(none,false))⟩,⟨47,.other,false,false,some 15,some ([.code],(none,false))⟩,⟨92,.other,false,false,some 15,some ([.code],(none,false))⟩]⟩,⟨false,none,[],[⟨256,.other,false,false,some 10,some ([.code],(none,false))⟩,⟨9,.ws,false,false,some 11,some ([],(none,false))⟩,⟨10,.lf,false,true,some 10,some ([.code],(none,false))⟩,⟨11,.vt,false,false,some 10,some ([.code],(none,false))⟩,⟨12,.ff,false,true,some 10,some ([.code],(none,false))⟩,⟨13,.cr,false,false,some 10,some ([.code],(none,false))⟩,⟨13,.cr,true,true,some 10,some ([.code],(none,false))⟩,⟨34,.other,false,false,some 10,some ([.code],(none,false))⟩,⟨39,.other,false,false,none,some ([],(some 2,true))⟩,⟨42,.other,false,false,some 10,some ([.code],(none,false))⟩,⟨47,.other,false,false,some 10,some ([.code],(none,false))⟩,⟨92,.other,false,false,some 12,some ([],(none,false))⟩]⟩,⟨false,none,[],[⟨256,.other,false,false,some 10,some ([.code],(none,false))⟩,⟨9,.ws,false,false,some 11,some ([],(none,false))⟩,⟨10,.lf,false,true,some 10,some ([.code],(none,false))⟩,⟨11,.vt,false,false,some 10,some ([.code],(none,false))⟩,⟨12,.ff,false,true,some 10,some ([.code],(none,false))⟩,⟨13,.cr,false,false,some 10,some ([.code],(none,false))⟩,⟨13,.cr,true,true,some 10,some ([.code],(none,false))⟩,⟨34,.other,false,false,some 10,some ([.code],(none,false))⟩,⟨39,.other,false,false,none,some ([],(some 2,true))⟩,⟨42,.other,false,false,some 10,some ([.code],(none,false))⟩,⟨47,.other,false,false,some 10,some ([.code],(none,false))⟩,⟨92,.other,false,false,some 12,some ([],(none,false))⟩]⟩,⟨false,none,[],[⟨256,.other,false,false,some 20,some ([.code],(none,false))⟩,⟨9,.ws,false,false,some 20,some ([.code],(none,false))⟩,⟨10,.lf,false,true,some 21,some ([],(none,false))⟩,⟨11,.vt,false,false,some 20,some ([.code],(none,false))⟩,⟨12,.ff,false,true,some 22,some ([],(none,false))⟩,⟨13,.cr,false,false,some 23,some ([],(none,false))⟩,⟨13,.cr,true,true,some 24,some ([],(none,false))⟩,⟨34,.other,false,false,some 20,some ([.code],(none,false))⟩,⟨39,.other,false,false,some 20,some ([.code],(none,false))⟩,⟨42,.other,false,false,some 20,some ([.code],(none,false))⟩,⟨47,.other,false,false,some 20,some ([.code],(none,false))⟩,⟨92,.other,false,false,some 20,some ([.code],(none,false))⟩]⟩,⟨false,none,[],[⟨256,.other,false,false,some 25,some ([.comment],(none,false))⟩,⟨9,.ws,false,false,some 26,some ([],(none,false))⟩,⟨10,.lf,false,true,some 27,some ([],(none,false))⟩,⟨11,.vt,false,false,some 25,some ([.comment],(none,false))⟩,⟨12,.ff,false,true,some 28,some ([],(none,false))⟩,⟨13,.cr,false,false,some 29,some ([],(none,false))⟩,⟨13,.cr,true,true,some 30,some ([],(none,false))⟩,⟨34,.other,false,false,some 25,some ([.comment],(none,false))⟩,⟨39,.other,false,false,some 25,some ([.comment],(none,false))⟩,⟨42,.other,false,false,some 31,some ([.comment],(none,false))⟩,⟨47,.other,false,false,some 25,some ([.comment],(none,false))⟩,⟨92,.other,false,false,some 25,some ([.comment],(none,false))⟩]⟩,⟨false,some 1,[],[⟨256,.other,false,false,some 32,some ([],(some 1,false))⟩,⟨9,.ws,false,false,some 32,some ([],(some 1,false))⟩,⟨10,.lf,false,true,none,none⟩,⟨11,.vt,false,false,some 32,some ([],(some 1,false))⟩,⟨12,.ff,false,true,none,none⟩,⟨13,.cr,false,false,none,none⟩,⟨13,.cr,true,true,none,none⟩,⟨34,.other,false,false,some 32,some ([],(some 1,false))⟩,⟨39,.other,false,false,some 32,some ([],(some 1,false))⟩,⟨42,.other,false,false,some 32,some ([],(some 1,false))⟩,⟨47,.other,false,false,some 32,some ([],(some 1,false))⟩,⟨92,.other,false,false,some 32,some ([],(some 1,false))⟩]⟩,⟨false,none,[],[⟨256,.other,false,false,some 7,some ([.code],(none,false))⟩,⟨9,.ws,false,false,some 8,some ([],(none,false))⟩,⟨10,.lf,false,true,some 7,some ([.code],(none,false))⟩,⟨11,.vt,false,false,some 7,some ([.code],(none,false))⟩,⟨12,.ff,false,true,some 7,some ([.code],(none,false))⟩,⟨13,.cr,false,false,some 7,some ([.code],(none,false))⟩,⟨13,.cr,true,true,some 7,some ([.code],(none,false))⟩,⟨34,.other,false,false,none,some ([],(some 2,true))⟩,⟨39,.other,false,false,some 7,some ([.code],(none,false))⟩,⟨42,.other,false,false,some 7,some ([.code],(none,false))⟩,⟨47,.other,false,false,some 7,some ([.code],(none,false))⟩,⟨92,.other,false,false,some 9,some ([],(none,false))⟩]⟩,⟨false,none,[],[⟨256,.other,false,false,some 7,some ([.setEnt .internalNl,.cb,.code],(none,false))⟩,⟨9,.ws,false,false,some 8,some ([.setEnt .internalNl,.cb],(none,false))⟩,⟨10,.lf,false,true,some 7,some ([.setEnt .internalNl,.cb,.code],(none,false))⟩,⟨11,.vt,false,false,some 7,some ([.setEnt .internalNl,.cb,.code],(none,false))⟩,⟨12,.ff,false,true,some 7,some ([.setEnt .internalNl,.cb,.code],(none,false))⟩,⟨13,.cr,false,false,some 7,some ([.setEnt .internalNl,.cb,.code],(none,false))⟩,⟨13,.cr,true,true,some 7,some ([.setEnt .internalNl,.cb,.code],(none,false))⟩,⟨34,.other,false,false,none,some ([.setEnt .internalNl,.cb],(some 2,true))⟩,⟨39,.other,false,false,some 7,some ([.setEnt .internalNl,.cb,.code],(none,false))⟩,⟨42,.other,false,false,some 7,some ([.setEnt .internalNl,.cb,.code],(none,false))⟩,⟨47,.other,false,false,some 7,some ([.setEnt .internalNl,.cb,.code],(none,false))⟩,⟨92,.other,false,false,some 9,some ([.setEnt .internalNl,.cb],(none,false))⟩]⟩,⟨false,none,[],[⟨256,.other,false,false,some 7,some ([.setEnt .internalNl,.cb,.code],(none,false))⟩,⟨9,.ws,false,false,some 8,some ([.setEnt .internalNl,.cb],(none,false))⟩,⟨10,.lf,false,true,some 7,some ([.setEnt .internalNl,.cb,.code],(none,false))⟩,⟨11,.vt,false,false,some 7,some ([.setEnt .internalNl,.cb,.code],(none,false))⟩,⟨12,.ff,false,true,some 7,some ([.setEnt .internalNl,.cb,.code],(none,false))⟩,⟨13,.cr,false,false,some 7,some ([.setEnt .internalNl,.cb,.code],(none,false))⟩,⟨13,.cr,true,true,some 7,some ([.setEnt .internalNl,.cb,.code],(none,false))⟩,⟨34,.other,false,false,none,some ([.setEnt .internalNl,.cb],(some 2,true))⟩,⟨39,.other,false,false,some 7,some ([.setEnt .internalNl,.cb,.code],(none,false))⟩,⟨42,.other,false,false,some 7,some ([.setEnt .internalNl,.cb,.code],(none,false))⟩,⟨47,.other,false,false,some 7,some ([.setEnt .internalNl,.cb,.code],(none,false))⟩,⟨92,.other,false,false,some 9,some ([.setEnt .internalNl,.cb],(none,false))⟩]⟩,⟨false,none,[],[⟨256,.other,false,false,none,none⟩,⟨9,.ws,false,false,none,none⟩,⟨10,.lf,false,true,some 33,some ([],(none,false))⟩,⟨11,.vt,false,false,none,none⟩,⟨12,.ff,false,true,none,none⟩,⟨13,.cr,false,false,none,none⟩,⟨13,.cr,true,true,none,none⟩,⟨34,.other,false,false,none,none⟩,⟨39,.other,false,false,none,none⟩,⟨42,.other,false,false,none,none⟩,⟨47,.other,false,false,none,none⟩,⟨92,.other,false,false,none,none⟩]⟩,⟨false,none,[],[⟨256,.other,false,false,some 7,some ([.setEnt .internalNl,.cb,.code],(none,false))⟩,⟨9,.ws,false,false,some 8,some ([.setEnt .internalNl,.cb],(none,false))⟩,⟨10,.lf,false,true,some 34,some ([.setEnt .internalNl,.cb,.code],(none,false))⟩,⟨11,.vt,false,false,some 7,some ([.setEnt .internalNl,.cb,.code],(none,false))⟩,⟨12,.ff,false,true,some 7,some ([.setEnt .internalNl,.cb,.code],(none,false))⟩,⟨13,.cr,false,false,some 7,some ([.setEnt .internalNl,.cb,.code],(none,false))⟩,⟨13,.cr,true,true,some 7,some ([.setEnt .internalNl,.cb,.code],(none,false))⟩,⟨34,.other,false,false,none,some ([.setEnt .internalNl,.cb],(some 2,true))⟩,⟨39,.other,false,false,some 7,some ([.setEnt .internalNl,.cb,.code],(none,false))⟩,⟨42,.other,false,false,some 7,some ([.setEnt .internalNl,.cb,.code],(none,false))⟩,⟨47,.other,false,false,some 7,some ([.setEnt .internalNl,.cb,.code],(none,false))⟩,⟨92,.other,false,false,some 9,some ([.setEnt .internalNl,.cb],(none,false))⟩]⟩,⟨false,none,[],[⟨256,.other,false,false,some 10,some ([.code],(none,false))⟩,⟨9,.ws,false,false,some 11,some ([],(none,false))⟩,⟨10,.lf,false,true,some 10,some ([.code],(none,false))⟩,⟨11,.vt,false,false,some 10,some ([.code],(none,false))⟩,⟨12,.ff,false,true,some 10,some ([.code],(none,false))⟩,⟨13,.cr,false,false,some 10,some ([.code],(none,false))⟩,⟨13,.cr,true,true,some 10,some ([.code],(none,false))⟩,⟨34,.other,false,false,some 10,some ([.code],(none,false))⟩,⟨39,.other,false,false,none,some ([],(some 2,true))⟩,⟨42,.other,false,false,some 10,some ([.code],(none,false))⟩,⟨47,.other,false,false,some 10,some ([.code],(none,false))⟩,⟨92,.other,false,false,some 12,some ([],(none,false))⟩]⟩,⟨false,none,[],[⟨256,.other,false,false,some 10,some ([.setEnt .internalNl,.cb,.code],(none,false))⟩,⟨9,.ws,false,false,some 11,some ([.setEnt .internalNl,.cb],(none,false))⟩,⟨10,.lf,false,true,some 10,some ([.setEnt .internalNl,.cb,.code],(none,false))⟩,⟨11,.vt,false,false,some 10,some ([.setEnt .internalNl,.cb,.code],(none,false))⟩,⟨12,.ff,false,true,some 10,some ([.setEnt .internalNl,.cb,.code],(none,false))⟩,⟨13,.cr,false,false,some 10,some ([.setEnt .internalNl,.cb,.code],(none,false))⟩,⟨13,.cr,true,true,some 10,some ([.setEnt .internalNl,.cb,.code],(none,false))⟩,⟨34,.other,false,false,some 10,some ([.setEnt .internalNl,.cb,.code],(none,false))⟩,⟨39,.other,false,false,none,some ([.setEnt .internalNl,.cb],(some 2,true))⟩,⟨42,.other,false,false,some 10,some ([.setEnt .internalNl,.cb,.code],(none,false))⟩,⟨47,.other,false,false,some 10,some ([.setEnt .internalNl,.cb,.code],(none,false))⟩,⟨92,.other,false,false,some 12,some ([.setEnt .internalNl,.cb],(none,false))⟩]⟩,⟨false,none,[],[⟨256,.other,false,false,some 10,some ([.setEnt .internalNl,.cb,.code],(none,false))⟩,⟨9,.ws,false,false,some 11,some ([.setEnt .internalNl,.cb],(none,false))⟩,⟨10,.lf,false,true,some 10,some ([.setEnt .internalNl,.cb,.code],(none,false))⟩,⟨11,.vt,false,false,some 10,some ([.setEnt .internalNl,.cb,.code],(none,false))⟩,⟨12,.ff,false,true,some 10,some ([.setEnt .internalNl,.cb,.code],(none,false))⟩,⟨13,.cr,false,false,some 10,some ([.setEnt .internalNl,.cb,.code],(none,false))⟩,⟨13,.cr,true,true,some 10,some ([.setEnt .internalNl,.cb,.code],(none,false))⟩,⟨34,.other,false,false,some 10,some ([.setEnt .internalNl,.cb,.code],(none,false))⟩,⟨39,.other,false,false,none,some ([.setEnt .internalNl,.cb],(some 2,true))⟩,⟨42,.other,false,false,some 10,some ([.setEnt .internalNl,.cb,.code],(none,false))⟩,⟨47,.other,false,false,some 10,some ([.setEnt .internalNl,.cb,.code],(none,false))⟩,⟨92,.other,false,false,some 12,some ([.setEnt .internalNl,.cb],(none,false))⟩]⟩,⟨false,none,[],[⟨256,.other,false,false,none,none⟩,⟨9,.ws,false,false,none,none⟩,⟨10,.lf,false,true,some 35,some ([],(none,false))⟩,⟨11,.vt,false,false,none,none⟩,⟨12,.ff,false,true,none,none⟩,⟨13,.cr,false,false,none,none⟩,⟨13,.cr,true,true,none,none⟩,⟨34,.other,false,false,none,none⟩,⟨39,.other,false,false,none,none⟩,⟨42,.other,false,false,none,none⟩,⟨47,.other,false,false,none,none⟩,⟨92,.other,false,false,none,none⟩]⟩,⟨false,none,[],[⟨256,.other,false,false,some 10,some ([.setEnt .internalNl,.cb,.code],(none,false))⟩,⟨9,.ws,false,false,some 11,some ([.setEnt .internalNl,.cb],(none,false))⟩,⟨10,.lf,false,true,some 36,some ([.setEnt .internalNl,.cb,.code],(none,false))⟩,⟨11,.vt,false,false,some 10,some ([.setEnt .internalNl,.cb,.code],(none,false))⟩,⟨12,.ff,false,true,some 10,some ([.setEnt .internalNl,.cb,.code],(none,false))⟩,⟨13,.cr,false,false,some 10,some ([.setEnt .internalNl,.cb,.code],(none,false))⟩,⟨13,.cr,true,true,some 10,some ([.setEnt .internalNl,.cb,.code],(none,false))⟩,⟨34,.other,false,false,some 10,some ([.setEnt .internalNl,.cb,.code],(none,false))⟩,⟨39,.other,false,false,none,some ([.setEnt .internalNl,.cb],(some 2,true))⟩,⟨42,.other,false,false,some 10,some ([.setEnt .internalNl,.cb,.code],(none,false))⟩,⟨47,.other,false,false,some 10,some ([.setEnt .internalNl,.cb,.code],(none,false))⟩,⟨92,.other,false,false,some 12,some ([.setEnt .internalNl,.cb],(none,false))⟩]⟩,⟨false,none,[],[⟨256,.other,false,false,some 25,some ([.comment],(none,false))⟩,⟨9,.ws,false,false,some 26,some ([],(none,false))⟩,⟨10,.lf,false,true,some 27,some ([],(none,false))⟩,⟨11,.vt,false,false,some 25,some ([.comment],(none,false))⟩,⟨12,.ff,false,true,some 28,some ([],(none,false))⟩,⟨13,.cr,false,false,some 29,some ([],(none,false))⟩,⟨13,.cr,true,true,some 30,some ([],(none,false))⟩,⟨34,.other,false,false,some 25,some ([.comment],(none,false))⟩,⟨39,.other,false,false,some 25,some ([.comment],(none,false))⟩,⟨42,.other,false,false,some 31,some ([.comment],(none,false))⟩,⟨47,.other,false,false,some 25,some ([.comment],(none,false))⟩,⟨92,.other,false,false,some 25,some ([.comment],(none,false))⟩]⟩,⟨false,none,[],[⟨256,.other,false,false,some 25,some ([.comment],(none,false))⟩,⟨9,.ws,false,false,some 26,some ([],(none,false))⟩,⟨10,.lf,false,true,some 27,some ([],(none,false))⟩,⟨11,.vt,false,false,some 25,some ([.comment],(none,false))⟩,⟨12,.ff,false,true,some 28,some ([],(none,false))⟩,⟨13,.cr,false,false,some 29,some ([],(none,false))⟩,⟨13,.cr,true,true,some 30,some ([],(none,false))⟩,⟨34,.other,false,false,some 25,some ([.comment],(none,false))⟩,⟨39,.other,false,false,some 25,some ([.comment],(none,false))⟩,⟨42,.other,false,false,some 31,some ([.comment],(none,false))⟩,⟨47,.other,false,false,some 25,some ([.comment],(none,false))⟩,⟨92,.other,false,false,some 25,some ([.comment],(none,false))⟩]⟩,⟨false,none,[],[⟨256,.other,false,false,some 25,some ([.setEnt .internalNl,.cb,.comment],(none,false))⟩,⟨9,.ws,false,false,some 26,some ([.setEnt .internalNl,.cb],(none,false))⟩,⟨10,.lf,false,true,some 27,some ([.setEnt .internalNl,.cb],(none,false))⟩,⟨11,.vt,false,false,some 25,some ([.setEnt .internalNl,.cb,.comment],(none,false))⟩,⟨12,.ff,false,true,some 28,some ([.setEnt .internalNl,.cb],(none,false))⟩,⟨13,.cr,false,false,some 29,some ([.setEnt .internalNl,.cb],(none,false))⟩,⟨13,.cr,true,true,some 30,some ([.setEnt .internalNl,.cb],(none,false))⟩,⟨34,.other,false,false,some 25,some ([.setEnt .internalNl,.cb,.comment],(none,false))⟩,⟨39,.other,false,false,some 25,some ([.setEnt .internalNl,.cb,.comment],(none,false))⟩,⟨42,.other,false,false,some 31,some ([.setEnt .internalNl,.cb,.comment],(none,false))⟩,⟨47,.other,false,false,some 25,some ([.setEnt .internalNl,.cb,.comment],(none,false))⟩,⟨92,.other,false,false,some 25,some ([.setEnt .internalNl,.cb,.comment],(none,false))⟩]⟩,⟨false,none,[],[⟨256,.other,false,false,some 25,some ([.setEnt .internalNl,.cb,.comment],(none,false))⟩,⟨9,.ws,false,false,some 26,some ([.setEnt .internalNl,.cb],(none,false))⟩,⟨10,.lf,false,true,some 27,some ([.setEnt .internalNl,.cb],(none,false))⟩,⟨11,.vt,false,false,some 25,some ([.setEnt .internalNl,.cb,.comment],(none,false))⟩,⟨12,.ff,false,true,some 28,some ([.setEnt .internalNl,.cb],(none,false))⟩,⟨13,.cr,false,false,some 29,some ([.setEnt .internalNl,.cb],(none,false))⟩,⟨13,.cr,true,true,some 30,some ([.setEnt .internalNl,.cb],(none,false))⟩,⟨34,.other,false,false,some 25,some ([.setEnt .internalNl,.cb,.comment],(none,false))⟩,⟨39,.other,false,false,some 25,some ([.setEnt .internalNl,.cb,.comment],(none,false))⟩,⟨42,.other,false,false,some 31,some ([.setEnt .internalNl,.cb,.comment],(none,false))⟩,⟨47,.other,false,false,some 25,some ([.setEnt .internalNl,.cb,.comment],(none,false))⟩,⟨92,.other,false,false,some 25,some ([.setEnt .internalNl,.cb,.comment],(none,false))⟩]⟩,⟨false,none,[],[⟨256,.other,false,false,none,none⟩,⟨9,.ws,false,false,none,none⟩,⟨10,.lf,false,true,some 37,some ([],(none,false))⟩,⟨11,.vt,false,false,none,none⟩,⟨12,.ff,false,true,none,none⟩,⟨13,.cr,false,false,none,none⟩,⟨13,.cr,true,true,none,none⟩,⟨34,.other,false,false,none,none⟩,⟨39,.other,false,false,none,none⟩,⟨42,.other,false,false,none,none⟩,⟨47,.other,false,false,none,none⟩,⟨92,.other,false,false,none,none⟩]⟩,⟨false,none,[],[⟨256,.other,false,false,some 25,some ([.setEnt .internalNl,.cb,.comment],(none,false))⟩,⟨9,.ws,false,false,some 26,some ([.setEnt .internalNl,.cb],(none,false))⟩,⟨10,.lf,false,true,some 38,some ([.setEnt .internalNl,.cb],(none,false))⟩,⟨11,.vt,false,false,some 25,some ([.setEnt .internalNl,.cb,.comment],(none,false))⟩,⟨12,.ff,false,true,some 28,some ([.setEnt .internalNl,.cb],(none,false))⟩,⟨13,.cr,false,false,some 29,some ([.setEnt .internalNl,.cb],(none,false))⟩,⟨13,.cr,true,true,some 30,some ([.setEnt .internalNl,.cb],(none,false))⟩,⟨34,.other,false,false,some 25,some ([.setEnt .internalNl,.cb,.comment],(none,false))⟩,⟨39,.other,false,false,some 25,some ([.setEnt .internalNl,.cb,.comment],(none,false))⟩,⟨42,.other,false,false,some 31,some ([.setEnt .internalNl,.cb,.comment],(none,false))⟩,⟨47,.other,false,false,some 25,some ([.setEnt .internalNl,.cb,.comment],(none,false))⟩,⟨92,.other,false,false,some 25,some ([.setEnt .internalNl,.cb,.comment],(none,false))⟩]⟩,⟨false,none,[],[⟨256,.other,false,false,some 25,some ([.comment],(none,false))⟩,⟨9,.ws,false,false,some 26,some ([],(none,false))⟩,⟨10,.lf,false,true,some 27,some ([],(none,false))⟩,⟨11,.vt,false,false,some 25,some ([.comment],(none,false))⟩,⟨12,.ff,false,true,some 28,some ([],(none,false))⟩,⟨13,.cr,false,false,some 29,some ([],(none,false))⟩,⟨13,.cr,true,true,some 30,some ([],(none,false))⟩,⟨34,.other,false,false,some 25,some ([.comment],(none,false))⟩,⟨39,.other,false,false,some 25,some ([.comment],(none,false))⟩,⟨42,.other,false,false,some 31,some ([.comment],(none,false))⟩,⟨47,.other,false,false,none,some ([],(some 1,true))⟩,⟨92,.other,false,false,some 25,some ([.comment],(none,false))⟩]⟩,⟨false,some 1,[],[⟨256,.other,false,false,some 32,some ([],(some 1,false))⟩,⟨9,.ws,false,false,some 32,some ([],(some 1,false))⟩,⟨10,.lf,false,true,none,none⟩,⟨11,.vt,false,false,some 32,some ([],(some 1,false))⟩,⟨12,.ff,false,true,none,none⟩,⟨13,.cr,false,false,none,none⟩,⟨13,.cr,true,true,none,none⟩,⟨34,.other,false,false,some 32,some ([],(some 1,false))⟩,⟨39,.other,false,false,some 32,some ([],(some 1,false))⟩,⟨42,.other,false,false,some 32,some ([],(some 1,false))⟩,⟨47,.other,false,false,some 32,some ([],(some 1,false))⟩,⟨92,.other,false,false,some 32,some ([],(some 1,false))⟩]⟩,⟨false,none,[],[⟨256,.other,false,false,some 7,some ([.setEnt .internalNl,.cb,.code],(none,false))⟩,⟨9,.ws,false,false,some 8,some ([.setEnt .internalNl,.cb],(none,false))⟩,⟨10,.lf,false,true,some 7,some ([.setEnt .internalNl,.cb,.code],(none,false))⟩,⟨11,.vt,false,false,some 7,some ([.setEnt .internalNl,.cb,.code],(none,false))⟩,⟨12,.ff,false,true,some 7,some ([.setEnt .internalNl,.cb,.code],(none,false))⟩,⟨13,.cr,false,false,some 7,some ([.setEnt .internalNl,.cb,.code],(none,false))⟩,⟨13,.cr,true,true,some 7,some ([.setEnt .internalNl,.cb,.code],(none,false))⟩,⟨34,.other,false,false,none,some ([.setEnt .internalNl,.cb],(some 2,true))⟩,⟨39,.other,false,false,some 7,some ([.setEnt .internalNl,.cb,.code],(none,false))⟩,⟨42,.other,false,false,some 7,some ([.setEnt .internalNl,.cb,.code],(none,false))⟩,⟨47,.other,false,false,some 7,some ([.setEnt .internalNl,.cb,.code],(none,false))⟩,⟨92,.other,false,false,some 9,some ([.setEnt .internalNl,.cb],(none,false))⟩]⟩,⟨false,none,[],[⟨256,.other,false,false,some 7,some ([.setEnt .internalNl,.cb,.code],(none,false))⟩,⟨9,.ws,false,false,some 8,some ([.setEnt .internalNl,.cb],(none,false))⟩,⟨10,.lf,false,true,some 7,some ([.setEnt .internalNl,.cb,.code],(none,false))⟩,⟨11,.vt,false,false,some 7,some ([.setEnt .internalNl,.cb,.code],(none,false))⟩,⟨12,.ff,false,true,some 7,some ([.setEnt .internalNl,.cb,.code],(none,false))⟩,⟨13,.cr,false,false,some 7,some ([.setEnt .internalNl,.cb,.code],(none,false))⟩,⟨13,.cr,true,true,some 7,some ([.setEnt .internalNl,.cb,.code],(none,false))⟩,⟨34,.other,false,false,none,some ([.setEnt .internalNl,.cb],(some 2,true))⟩,⟨39,.other,false,false,some 7,some ([.setEnt .internalNl,.cb,.code],(none,false))⟩,⟨42,.other,false,false,some 7,some ([.setEnt .internalNl,.cb,.code],(none,false))⟩,⟨47,.other,false,false,some 7,some ([.setEnt .internalNl,.cb,.code],(none,false))⟩,⟨92,.other,false,false,some 9,some ([.setEnt .internalNl,.cb],(none,false))⟩]⟩,⟨false,none,[],[⟨256,.other,false,false,some 10,some ([.setEnt .internalNl,.cb,.code],(none,false))⟩,⟨9,.ws,false,false,some 11,some ([.setEnt .internalNl,.cb],(none,false))⟩,⟨10,.lf,false,true,some 10,some ([.setEnt .internalNl,.cb,.code],(none,false))⟩,⟨11,.vt,false,false,some 10,some ([.setEnt .internalNl,.cb,.code],(none,false))⟩,⟨12,.ff,false,true,some 10,some ([.setEnt .internalNl,.cb,.code],(none,false))⟩,⟨13,.cr,false,false,some 10,some ([.setEnt .internalNl,.cb,.code],(none,false))⟩,⟨13,.cr,true,true,some 10,some ([.setEnt .internalNl,.cb,.code],(none,false))⟩,⟨34,.other,false,false,some 10,some ([.setEnt .internalNl,.cb,.code],(none,false))⟩,⟨39,.other,false,false,none,some ([.setEnt .internalNl,.cb],(some 2,true))⟩,⟨42,.other,false,false,some 10,some ([.setEnt .internalNl,.cb,.code],(none,false))⟩,⟨47,.other,false,false,some 10,some ([.setEnt .internalNl,.cb,.code],(none,false))⟩,⟨92,.other,false,false,some 12,some ([.setEnt .internalNl,.cb],(none,false))⟩]⟩,⟨false,none,[],[⟨256,.other,false,false,some 10,some ([.setEnt .internalNl,.cb,.code],(none,false))⟩,⟨9,.ws,false,false,some 11,some ([.setEnt .internalNl,.cb],(none,false))⟩,⟨10,.lf,false,true,some 10,some ([.setEnt .internalNl,.cb,.code],(none,false))⟩,⟨11,.vt,false,false,some 10,some ([.setEnt .internalNl,.cb,.code],(none,false))⟩,⟨12,.ff,false,true,some 10,some ([.setEnt .internalNl,.cb,.code],(none,false))⟩,⟨13,.cr,false,false,some 10,some ([.setEnt .internalNl,.cb,.code],(none,false))⟩,⟨13,.cr,true,true,some 10,some ([.setEnt .internalNl,.cb,.code],(none,false))⟩,⟨34,.other,false,false,some 10,some ([.setEnt .internalNl,.cb,.code],(none,false))⟩,⟨39,.other,false,false,none,some ([.setEnt .internalNl,.cb],(some 2,true))⟩,⟨42,.other,false,false,some 10,some ([.setEnt .internalNl,.cb,.code],(none,false))⟩,⟨47,.other,false,false,some 10,some ([.setEnt .internalNl,.cb,.code],(none,false))⟩,⟨92,.other,false,false,some 12,some ([.setEnt .internalNl,.cb],(none,false))⟩]⟩,⟨false,none,[],[⟨256,.other,false,false,some 25,some ([.setEnt .internalNl,.cb,.comment],(none,false))⟩,⟨9,.ws,false,false,some 26,some ([.setEnt .internalNl,.cb],(none,false))⟩,⟨10,.lf,false,true,some 27,some ([.setEnt .internalNl,.cb],(none,false))⟩,⟨11,.vt,false,false,some 25,some ([.setEnt .internalNl,.cb,.comment],(none,false))⟩,⟨12,.ff,false,true,some 28,some ([.setEnt .internalNl,.cb],(none,false))⟩,⟨13,.cr,false,false,some 29,some ([.setEnt .internalNl,.cb],(none,false))⟩,⟨13,.cr,true,true,some 30,some ([.setEnt .internalNl,.cb],(none,false))⟩,⟨34,.other,false,false,some 25,some ([.setEnt .internalNl,.cb,.comment],(none,false))⟩,⟨39,.other,false,false,some 25,some ([.setEnt .internalNl,.cb,.comment],(none,false))⟩,⟨42,.other,false,false,some 31,some ([.setEnt .internalNl,.cb,.comment],(none,false))⟩,⟨47,.other,false,false,some 25,some ([.setEnt .internalNl,.cb,.comment],(none,false))⟩,⟨92,.other,false,false,some 25,some ([.setEnt .internalNl,.cb,.comment],(none,false))⟩]⟩,⟨false,none,[],[⟨256,.other,false,false,some 25,some ([.setEnt .internalNl,.cb,.comment],(none,false))⟩,⟨9,.ws,false,false,some 26,some ([.setEnt .internalNl,.cb],(none,false))⟩,⟨10,.lf,false,true,some 27,some ([.setEnt .internalNl,.cb],(none,false))⟩,⟨11,.vt,false,false,some 25,some ([.setEnt .internalNl,.cb,.comment],(none,false))⟩,⟨12,.ff,false,true,some 28,some ([.setEnt .internalNl,.cb],(none,false))⟩,⟨13,.cr,false,false,some 29,some ([.setEnt .internalNl,.cb],(none,false))⟩,⟨13,.cr,true,true,some 30,some ([.setEnt .internalNl,.cb],(none,false))⟩,⟨34,.other,false,false,some 25,some ([.setEnt .internalNl,.cb,.comment],(none,false))⟩,⟨39,.other,false,false,some 25,some ([.setEnt .internalNl,.cb,.comment],(none,false))⟩,⟨42,.other,false,false,some 31,some ([.setEnt .internalNl,.cb,.comment],(none,false))⟩,⟨47,.other,false,false,some 25,some ([.setEnt .internalNl,.cb,.comment],(none,false))⟩,⟨92,.other,false,false,some 25,some ([.setEnt .internalNl,.cb,.comment],(none,false))⟩]⟩]
theorem unrealscript_line_lfrOk : unrealscript_line_lrows.map (CA.prep unrealscript_line_lex) = unrealscript_line_lfr := by decide +kernel
def unrealscript_line_lTab : List CT := [(.node (.node (.node (.node (.node (.node .leaf 128 [⟨⟨.code,[],.lcode,false,[],false⟩,false,false,[],none,none,none,false,false,false,none,false,⟨.lcode,none,false,.lblank⟩⟩] .leaf) 38019 [⟨⟨.code,[],.lcode,true,[],false⟩,false,false,[],none,none,none,false,false,false,none,false,⟨.lblank,none,false,.lblank⟩⟩] .leaf) 148108 [⟨⟨.code,[],.lcomment,false,[],false⟩,false,false,[],none,none,none,false,false,false,none,false,⟨.lcomment,none,false,.lblank⟩⟩] (.node (.node .leaf 185487 [⟨⟨.code,[],.lcomment,true,[],false⟩,false,false,[],none,none,none,false,false,false,none,false,⟨.lblank,none,false,.lblank⟩⟩] .leaf) 296088 [⟨⟨.code,[],.lblank,false,[],false⟩,false,false,[],none,none,none,false,false,false,none,false,⟨.lblank,none,false,.lblank⟩⟩] .leaf)) 332955 [⟨⟨.code,[],.lblank,true,[],false⟩,false,false,[],none,none,none,false,false,false,none,false,⟨.lblank,none,false,.lblank⟩⟩] (.node (.node (.node .leaf 1179872 [⟨⟨(.inside 0),[],.lcode,false,[],false⟩,false,false,[none],none,none,none,false,false,false,none,false,⟨.lcode,none,false,.lblank⟩⟩] .leaf) 1327852 [⟨⟨(.inside 0),[],.lcomment,false,[],false⟩,false,false,[none],none,none,none,false,false,false,none,false,⟨.lcomment,none,false,.lblank⟩⟩] .leaf) 1769744 [⟨⟨.code,[47],.lcode,false,[],false⟩,false,false,[none],none,none,none,false,false,false,none,false,⟨.lcode,none,false,.lblank⟩⟩] (.node (.node .leaf 20769801 [⟨⟨.code,[47],.lcode,false,[],false⟩,false,false,[some (9,(.ws,false))],none,none,none,false,false,false,none,false,⟨.lcode,none,false,.lblank⟩⟩] .leaf) 21088052 [⟨⟨.code,[47],.lcomment,false,[],false⟩,false,false,[none],none,none,none,false,false,false,none,false,⟨.lcode,none,false,.lblank⟩⟩] .leaf))) 22179935 [⟨⟨(.inside 0),[],.lcode,false,[],false⟩,false,false,[some (10,(.lf,false))],none,none,none,false,false,false,none,false,⟨.lcode,none,false,.lblank⟩⟩] (.node (.node (.node (.node .leaf 22327915 [⟨⟨(.inside 0),[],.lcomment,false,[],false⟩,false,false,[some (10,(.lf,false))],none,none,none,false,false,false,none,false,⟨.lcomment,none,false,.lblank⟩⟩] .leaf) 22769807 [⟨⟨.code,[47],.lcode,false,[],false⟩,false,false,[some (10,(.lf,false))],none,none,none,false,false,false,none,false,⟨.lcode,none,false,.lblank⟩⟩] .leaf) 26179947 [⟨⟨(.inside 0),[],.lcode,false,[],false⟩,false,false,[some (12,(.ff,false))],none,none,none,false,false,false,none,false,⟨.lcode,none,false,.lblank⟩⟩] (.node (.node .leaf 26327927 [⟨⟨(.inside 0),[],.lcomment,false,[],false⟩,false,false,[some (12,(.ff,false))],none,none,none,false,false,false,none,false,⟨.lcomment,none,false,.lblank⟩⟩] .leaf) 26769819 [⟨⟨.code,[47],.lcode,false,[],false⟩,false,false,[some (12,(.ff,false))],none,none,none,false,false,false,none,false,⟨.lcode,none,false,.lblank⟩⟩] .leaf)) 28179953 [⟨⟨(.inside 0),[],.lcode,false,[],false⟩,false,false,[some (13,(.cr,false))],none,none,none,false,false,false,none,false,⟨.lcode,none,false,.lblank⟩⟩] (.node (.node (.node .leaf 28327933 [⟨⟨(.inside 0),[],.lcomment,false,[],false⟩,false,false,[some (13,(.cr,false))],none,none,none,false,false,false,none,false,⟨.lcomment,none,false,.lblank⟩⟩] .leaf) 28769825 [⟨⟨.code,[47],.lcode,false,[],false⟩,false,false,[some (13,(.cr,false))],none,none,none,false,false,false,none,false,⟨.lcode,none,false,.lblank⟩⟩] .leaf) 29179956 [⟨⟨(.inside 0),[],.lcode,false,[],false⟩,false,false,[some (13,(.cr,true))],none,none,none,false,false,false,none,false,⟨.lcode,none,false,.lblank⟩⟩] (.node (.node .leaf 29327936 [⟨⟨(.inside 0),[],.lcomment,false,[],false⟩,false,false,[some (13,(.cr,true))],none,none,none,false,false,false,none,false,⟨.lcomment,none,false,.lblank⟩⟩] .leaf) 29769828 [⟨⟨.code,[47],.lcode,false,[],false⟩,false,false,[some (13,(.cr,true))],none,none,none,false,false,false,none,false,⟨.lcode,none,false,.lblank⟩⟩] .leaf)))) 40088109 [⟨⟨.code,[47],.lcomment,false,[],false⟩,false,false,[some (9,(.ws,false))],none,none,none,false,false,false,none,false,⟨.lcode,none,false,.lblank⟩⟩] (.node (.node (.node (.node (.node .leaf 40406360 [⟨⟨.code,[47],.lblank,false,[],false⟩,false,false,[none],none,none,none,false,false,false,none,false,⟨.lcode,none,false,.lblank⟩⟩] .leaf) 42088115 [⟨⟨.code,[47],.lcomment,false,[],false⟩,false,false,[some (10,(.lf,false))],none,none,none,false,false,false,none,false,⟨.lcode,none,false,.lblank⟩⟩] .leaf) 46088127 [⟨⟨.code,[47],.lcomment,false,[],false⟩,false,false,[some (12,(.ff,false))],none,none,none,false,false,false,none,false,⟨.lcode,none,false,.lblank⟩⟩] (.node (.node .leaf 48088133 [⟨⟨.code,[47],.lcomment,false,[],false⟩,false,false,[some (13,(.cr,false))],none,none,none,false,false,false,none,false,⟨.lcode,none,false,.lblank⟩⟩] .leaf) 49088136 [⟨⟨.code,[47],.lcomment,false,[],false⟩,false,false,[some (13,(.cr,true))],none,none,none,false,false,false,none,false,⟨.lcode,none,false,.lblank⟩⟩] .leaf)) 59406417 [⟨⟨.code,[47],.lblank,false,[],false⟩,false,false,[some (9,(.ws,false))],none,none,none,false,false,false,none,false,⟨.lcode,none,false,.lblank⟩⟩] (.node (.node (.node .leaf 61406423 [⟨⟨.code,[47],.lblank,false,[],false⟩,false,false,[some (10,(.lf,false))],none,none,none,false,false,false,none,false,⟨.lcode,none,false,.lblank⟩⟩] .leaf) 65406435 [⟨⟨.code,[47],.lblank,false,[],false⟩,false,false,[some (12,(.ff,false))],none,none,none,false,false,false,none,false,⟨.lcode,none,false,.lblank⟩⟩] .leaf) 67406441 [⟨⟨.code,[47],.lblank,false,[],false⟩,false,false,[some (13,(.cr,false))],none,none,none,false,false,false,none,false,⟨.lcode,none,false,.lblank⟩⟩] (.node (.node .leaf 68406444 [⟨⟨.code,[47],.lblank,false,[],false⟩,false,false,[some (13,(.cr,true))],none,none,none,false,false,false,none,false,⟨.lcode,none,false,.lblank⟩⟩] .leaf) 70769951 [⟨⟨.code,[47],.lcode,false,[],false⟩,false,false,[some (34,(.other,false))],none,none,none,false,false,false,none,false,⟨.lcode,none,false,.lblank⟩⟩] .leaf))) 80769981 [⟨⟨.code,[47],.lcode,false,[],false⟩,false,false,[some (39,(.other,false))],none,none,none,false,false,false,none,false,⟨.lcode,none,false,.lblank⟩⟩] (.node (.node (.node (.node .leaf 90088259 [⟨⟨.code,[47],.lcomment,false,[],false⟩,false,false,[some (34,(.other,false))],none,none,none,false,false,false,none,false,⟨.lcode,none,false,.lblank⟩⟩] .leaf) 100088289 [⟨⟨.code,[47],.lcomment,false,[],false⟩,false,false,[some (39,(.other,false))],none,none,none,false,false,false,none,false,⟨.lcode,none,false,.lblank⟩⟩] .leaf) 109406567 [⟨⟨.code,[47],.lblank,false,[],false⟩,false,false,[some (34,(.other,false))],none,none,none,false,false,false,none,false,⟨.lcode,none,false,.lblank⟩⟩] (.node (.node .leaf 119406597 [⟨⟨.code,[47],.lblank,false,[],false⟩,false,false,[some (39,(.other,false))],none,none,none,false,false,false,none,false,⟨.lcode,none,false,.lblank⟩⟩] .leaf) 186770299 [⟨⟨.code,[47],.lcode,false,[],false⟩,false,false,[some (92,(.other,false))],none,none,none,false,false,false,none,false,⟨.lcode,none,false,.lblank⟩⟩] .leaf)) 206088607 [⟨⟨.code,[47],.lcomment,false,[],false⟩,false,false,[some (92,(.other,false))],none,none,none,false,false,false,none,false,⟨.lcode,none,false,.lblank⟩⟩] (.node (.node (.node .leaf 225406915 [⟨⟨.code,[47],.lblank,false,[],false⟩,false,false,[some (92,(.other,false))],none,none,none,false,false,false,none,false,⟨.lcode,none,false,.lblank⟩⟩] .leaf) 514771283 [⟨⟨.code,[47],.lcode,false,[],false⟩,false,false,[some (256,(.other,false))],none,none,none,false,false,false,none,false,⟨.lcode,none,false,.lblank⟩⟩] .leaf) 534089591 [⟨⟨.code,[47],.lcomment,false,[],false⟩,false,false,[some (256,(.other,false))],none,none,none,false,false,false,none,false,⟨.lcode,none,false,.lblank⟩⟩] (.node .leaf 553407899 [⟨⟨.code,[47],.lblank,false,[],false⟩,false,false,[some (256,(.other,false))],none,none,none,false,false,false,none,false,⟨.lcode,none,false,.lblank⟩⟩] .leaf))))),(.node (.node .leaf 128 [⟨⟨.code,[],.lcode,false,[],false⟩,false,false,[],none,none,none,false,false,false,none,false,⟨.lcode,some (.own 0),false,.lblank⟩⟩] .leaf) 148108 [⟨⟨.code,[],.lcomment,false,[],false⟩,false,false,[],none,none,none,false,false,false,none,false,⟨.lcomment,some (.own 0),false,.lblank⟩⟩] (.node .leaf 296088 [⟨⟨.code,[],.lblank,false,[],false⟩,false,false,[],none,none,none,false,false,false,none,false,⟨.lblank,some (.own 0),false,.lblank⟩⟩] .leaf)),(.node (.node .leaf 160 [⟨⟨.code,[],.lcode,false,[],false⟩,true,false,[],none,none,none,false,false,false,none,false,⟨.lcode,some .newline,false,.lblank⟩⟩] .leaf) 148140 [⟨⟨.code,[],.lcomment,false,[],false⟩,true,false,[],none,none,none,false,false,false,none,false,⟨.lcomment,some .newline,false,.lblank⟩⟩] (.node .leaf 296120 [⟨⟨.code,[],.lblank,false,[],false⟩,true,false,[],none,none,none,false,false,false,none,false,⟨.lblank,some .newline,false,.lblank⟩⟩] .leaf)),(.node (.node .leaf 37011 [⟨⟨.code,[],.lcode,true,[],false⟩,false,true,[],none,none,none,false,false,false,none,false,⟨.lcode,some .newline,false,.lblank⟩⟩] .leaf) 184991 [⟨⟨.code,[],.lcomment,true,[],false⟩,false,true,[],none,none,none,false,false,false,none,false,⟨.lcomment,some .newline,false,.lblank⟩⟩] (.node .leaf 332971 [⟨⟨.code,[],.lblank,true,[],false⟩,false,true,[],none,none,none,false,false,false,none,false,⟨.lblank,some .newline,false,.lblank⟩⟩] .leaf)),(.node .leaf 10027952 [⟨⟨(.inside 3),[],.lcode,false,[],false⟩,false,false,[],none,none,none,false,false,false,none,false,⟨.lcode,some (.own 3),false,.lblank⟩⟩] .leaf),(.node .leaf 7078592 [⟨⟨(.inside 2),[],.lcode,false,[],false⟩,false,false,[],none,none,none,false,false,false,none,false,⟨.lcode,some (.own 3),false,.lblank⟩⟩] .leaf),(.node (.node .leaf 1769746 [⟨⟨.code,[47],.lcode,false,[],false⟩,false,false,[],none,none,none,false,false,true,none,false,⟨.lcode,some (.own 3),false,.lblank⟩⟩] .leaf) 21088566 [⟨⟨.code,[47],.lcomment,false,[],false⟩,false,false,[],none,none,none,false,false,true,none,false,⟨.lcomment,some (.own 3),false,.lblank⟩⟩] (.node .leaf 40407386 [⟨⟨.code,[47],.lblank,false,[],false⟩,false,false,[],none,none,none,false,false,true,none,false,⟨.lblank,some (.own 3),false,.lblank⟩⟩] .leaf)),(.node (.node .leaf 10655941 [⟨⟨(.inside 3),[],.lcode,false,[],false⟩,false,false,[],some 4,some ⟨(.inside 3),[],.lcode,false,[],false⟩,none,false,false,false,none,false,⟨.lcode,some (.own 3),false,.lblank⟩⟩] .leaf) 10655949 [⟨⟨(.inside 3),[],.lcode,false,[],false⟩,false,false,[],some 4,some ⟨(.inside 3),[],.lcode,false,[],false⟩,none,true,false,false,none,false,⟨.lcode,some .internalNl,false,.lblank⟩⟩] .leaf),(.node (.node .leaf 10655941 [⟨⟨(.inside 3),[],.lcode,false,[],false⟩,false,false,[],some 4,some ⟨(.inside 3),[],.lcode,false,[],false⟩,none,false,false,false,none,false,⟨.lcode,some (.own 3),false,.lblank⟩⟩] .leaf) 10655949 [⟨⟨(.inside 3),[],.lcode,false,[],false⟩,false,false,[],some 4,some ⟨(.inside 3),[],.lcode,false,[],false⟩,none,true,false,false,none,false,⟨.lcode,some .internalNl,false,.lblank⟩⟩] (.node .leaf 10951909 [⟨⟨(.inside 3),[],.lblank,false,[],false⟩,false,false,[],some 4,some ⟨(.inside 3),[],.lcode,false,[],false⟩,none,true,false,false,none,false,⟨.lblank,some .internalNl,false,.lblank⟩⟩] .leaf)),(.node (.node (.node .leaf 1317701692 [⟨⟨(.inside 3),[92],.lcode,false,[],false⟩,false,false,[],some 4,some ⟨(.inside 3),[],.lcode,false,[],false⟩,none,false,false,false,none,false,⟨.lcode,some (.own 3),false,.lblank⟩⟩] .leaf) 1317701700 [⟨⟨(.inside 3),[92],.lcode,false,[],false⟩,false,false,[],some 4,some ⟨(.inside 3),[],.lcode,false,[],false⟩,none,true,false,false,none,false,⟨.lcode,some .internalNl,false,.lblank⟩⟩] .leaf) 1356339340 [⟨⟨(.inside 3),[92],.lblank,false,[],false⟩,false,false,[],some 4,some ⟨(.inside 3),[],.lcode,false,[],false⟩,none,true,false,false,none,false,⟨.lblank,some .internalNl,false,.lblank⟩⟩] (.node .leaf 1510885804 [⟨⟨(.escapedCr 3),[92],.lblank,false,[],false⟩,false,false,[],some 4,some ⟨(.inside 3),[],.lcode,false,[],false⟩,none,true,false,false,none,false,⟨.lblank,some .internalNl,false,.lblank⟩⟩] .leaf)),(.node (.node .leaf 7522021 [⟨⟨(.inside 2),[],.lcode,false,[],false⟩,false,false,[],some 4,some ⟨(.inside 2),[],.lcode,false,[],false⟩,none,false,false,false,none,false,⟨.lcode,some (.own 3),false,.lblank⟩⟩] .leaf) 7522029 [⟨⟨(.inside 2),[],.lcode,false,[],false⟩,false,false,[],some 4,some ⟨(.inside 2),[],.lcode,false,[],false⟩,none,true,false,false,none,false,⟨.lcode,some .internalNl,false,.lblank⟩⟩] .leaf),(.node (.node .leaf 7522021 [⟨⟨(.inside 2),[],.lcode,false,[],false⟩,false,false,[],some 4,some ⟨(.inside 2),[],.lcode,false,[],false⟩,none,false,false,false,none,false,⟨.lcode,some (.own 3),false,.lblank⟩⟩] .leaf) 7522029 [⟨⟨(.inside 2),[],.lcode,false,[],false⟩,false,false,[],some 4,some ⟨(.inside 2),[],.lcode,false,[],false⟩,none,true,false,false,none,false,⟨.lcode,some .internalNl,false,.lblank⟩⟩] (.node .leaf 7817989 [⟨⟨(.inside 2),[],.lblank,false,[],false⟩,false,false,[],some 4,some ⟨(.inside 2),[],.lcode,false,[],false⟩,none,true,false,false,none,false,⟨.lblank,some .internalNl,false,.lblank⟩⟩] .leaf)),(.node (.node (.node .leaf 931150972 [⟨⟨(.inside 2),[92],.lcode,false,[],false⟩,false,false,[],some 4,some ⟨(.inside 2),[],.lcode,false,[],false⟩,none,false,false,false,none,false,⟨.lcode,some (.own 3),false,.lblank⟩⟩] .leaf) 931150980 [⟨⟨(.inside 2),[92],.lcode,false,[],false⟩,false,false,[],some 4,some ⟨(.inside 2),[],.lcode,false,[],false⟩,none,true,false,false,none,false,⟨.lcode,some .internalNl,false,.lblank⟩⟩] .leaf) 969788620 [⟨⟨(.inside 2),[92],.lblank,false,[],false⟩,false,false,[],some 4,some ⟨(.inside 2),[],.lcode,false,[],false⟩,none,true,false,false,none,false,⟨.lblank,some .internalNl,false,.lblank⟩⟩] (.node .leaf 1124335084 [⟨⟨(.escapedCr 2),[92],.lblank,false,[],false⟩,false,false,[],some 4,some ⟨(.inside 2),[],.lcode,false,[],false⟩,none,true,false,false,none,false,⟨.lblank,some .internalNl,false,.lblank⟩⟩] .leaf)),(.node (.node .leaf 610242271 [⟨⟨(.inside 1),[],.lcode,false,[],false⟩,false,false,[],some 4,some ⟨.code,[47],.lcode,false,[],false⟩,some ([(42,(.other,false))],false),false,false,false,none,false,⟨.lcode,some (.own 3),false,.lblank⟩⟩] .leaf) 611599119 [⟨⟨(.inside 1),[],.lcomment,false,[],false⟩,false,false,[],some 4,some ⟨.code,[47],.lcomment,false,[],false⟩,some ([(42,(.other,false))],false),false,false,false,none,false,⟨.lcomment,some (.own 3),false,.lblank⟩⟩] (.node .leaf 612807987 [⟨⟨(.inside 1),[],.lcomment,false,[],false⟩,false,false,[],some 4,some ⟨.code,[47],.lblank,false,[],false⟩,some ([(42,(.other,false))],false),false,false,false,none,false,⟨.lcomment,some (.own 3),false,.lblank⟩⟩] .leaf)),(.node (.node .leaf 1179872 [⟨⟨(.inside 0),[],.lcode,false,[],false⟩,false,false,[],none,none,none,false,false,false,none,false,⟨.lcode,some (.own 3),false,.lblank⟩⟩] .leaf) 1327852 [⟨⟨(.inside 0),[],.lcomment,false,[],false⟩,false,false,[],none,none,none,false,false,false,none,false,⟨.lcomment,some (.own 3),false,.lblank⟩⟩] .leaf),(.node (.node .leaf 10655941 [⟨⟨(.inside 3),[],.lcode,false,[],false⟩,false,false,[],some 4,some ⟨(.inside 3),[],.lcode,false,[],false⟩,none,false,false,false,none,false,⟨.lcode,some (.own 3),false,.lblank⟩⟩] .leaf) 10655949 [⟨⟨(.inside 3),[],.lcode,false,[],false⟩,false,false,[],some 4,some ⟨(.inside 3),[],.lcode,false,[],false⟩,none,true,false,false,none,false,⟨.lcode,some .internalNl,false,.lblank⟩⟩] .leaf),(.node (.node .leaf 10692808 [⟨⟨(.inside 3),[],.lcode,true,[],false⟩,false,false,[],some 4,some ⟨(.inside 3),[],.lcode,false,[],false⟩,none,false,false,false,none,false,⟨.lcode,some (.own 3),false,.lblank⟩⟩] .leaf) 10692816 [⟨⟨(.inside 3),[],.lcode,true,[],false⟩,false,false,[],some 4,some ⟨(.inside 3),[],.lcode,false,[],false⟩,none,true,false,false,none,false,⟨.lcode,some .internalNl,false,.lblank⟩⟩] (.node .leaf 10988776 [⟨⟨(.inside 3),[],.lblank,true,[],false⟩,false,false,[],some 4,some ⟨(.inside 3),[],.lcode,false,[],false⟩,none,true,false,false,none,false,⟨.lblank,some .internalNl,false,.lblank⟩⟩] .leaf)),(.node (.node .leaf 10692808 [⟨⟨(.inside 3),[],.lcode,true,[],false⟩,false,false,[],some 4,some ⟨(.inside 3),[],.lcode,false,[],false⟩,none,false,false,false,none,false,⟨.lcode,some (.own 3),false,.lblank⟩⟩] .leaf) 10692816 [⟨⟨(.inside 3),[],.lcode,true,[],false⟩,false,false,[],some 4,some ⟨(.inside 3),[],.lcode,false,[],false⟩,none,true,false,false,none,false,⟨.lcode,some .internalNl,false,.lblank⟩⟩] (.node .leaf 10988776 [⟨⟨(.inside 3),[],.lblank,true,[],false⟩,false,false,[],some 4,some ⟨(.inside 3),[],.lcode,false,[],false⟩,none,true,false,false,none,false,⟨.lblank,some .internalNl,false,.lblank⟩⟩] .leaf)),(.node (.node .leaf 11835717 [⟨⟨(.escapedCr 3),[],.lcode,false,[],false⟩,true,false,[],some 4,some ⟨(.inside 3),[],.lcode,false,[],false⟩,none,false,false,false,none,false,⟨.lcode,some (.own 3),false,.lblank⟩⟩] .leaf) 11835725 [⟨⟨(.escapedCr 3),[],.lcode,false,[],false⟩,true,false,[],some 4,some ⟨(.inside 3),[],.lcode,false,[],false⟩,none,true,false,false,none,false,⟨.lcode,some .internalNl,false,.lblank⟩⟩] (.node .leaf 12131685 [⟨⟨(.escapedCr 3),[],.lblank,false,[],false⟩,true,false,[],some 4,some ⟨(.inside 3),[],.lcode,false,[],false⟩,none,true,false,false,none,false,⟨.lblank,some .internalNl,false,.lblank⟩⟩] .leaf)),(.node (.node .leaf 11872568 [⟨⟨(.escapedCr 3),[],.lcode,true,[],false⟩,false,true,[],some 4,some ⟨(.inside 3),[],.lcode,false,[],false⟩,none,false,false,false,none,false,⟨.lcode,some (.own 3),false,.lblank⟩⟩] .leaf) 11872576 [⟨⟨(.escapedCr 3),[],.lcode,true,[],false⟩,false,true,[],some 4,some ⟨(.inside 3),[],.lcode,false,[],false⟩,none,true,false,false,none,false,⟨.lcode,some .internalNl,false,.lblank⟩⟩] (.node .leaf 12168536 [⟨⟨(.escapedCr 3),[],.lblank,true,[],false⟩,false,true,[],some 4,some ⟨(.inside 3),[],.lcode,false,[],false⟩,none,true,false,false,none,false,⟨.lblank,some .internalNl,false,.lblank⟩⟩] .leaf)),(.node (.node .leaf 7522021 [⟨⟨(.inside 2),[],.lcode,false,[],false⟩,false,false,[],some 4,some ⟨(.inside 2),[],.lcode,false,[],false⟩,none,false,false,false,none,false,⟨.lcode,some (.own 3),false,.lblank⟩⟩] .leaf) 7522029 [⟨⟨(.inside 2),[],.lcode,false,[],false⟩,false,false,[],some 4,some ⟨(.inside 2),[],.lcode,false,[],false⟩,none,true,false,false,none,false,⟨.lcode,some .internalNl,false,.lblank⟩⟩] .leaf),(.node (.node .leaf 7558888 [⟨⟨(.inside 2),[],.lcode,true,[],false⟩,false,false,[],some 4,some ⟨(.inside 2),[],.lcode,false,[],false⟩,none,false,false,false,none,false,⟨.lcode,some (.own 3),false,.lblank⟩⟩] .leaf) 7558896 [⟨⟨(.inside 2),[],.lcode,true,[],false⟩,false,false,[],some 4,some ⟨(.inside 2),[],.lcode,false,[],false⟩,none,true,false,false,none,false,⟨.lcode,some .internalNl,false,.lblank⟩⟩] (.node .leaf 7854856 [⟨⟨(.inside 2),[],.lblank,true,[],false⟩,false,false,[],some 4,some ⟨(.inside 2),[],.lcode,false,[],false⟩,none,true,false,false,none,false,⟨.lblank,some .internalNl,false,.lblank⟩⟩] .leaf)),(.node (.node .leaf 7558888 [⟨⟨(.inside 2),[],.lcode,true,[],false⟩,false,false,[],some 4,some ⟨(.inside 2),[],.lcode,false,[],false⟩,none,false,false,false,none,false,⟨.lcode,some (.own 3),false,.lblank⟩⟩] .leaf) 7558896 [⟨⟨(.inside 2),[],.lcode,true,[],false⟩,false,false,[],some 4,some ⟨(.inside 2),[],.lcode,false,[],false⟩,none,true,false,false,none,false,⟨.lcode,some .internalNl,false,.lblank⟩⟩] (.node .leaf 7854856 [⟨⟨(.inside 2),[],.lblank,true,[],false⟩,false,false,[],some 4,some ⟨(.inside 2),[],.lcode,false,[],false⟩,none,true,false,false,none,false,⟨.lblank,some .internalNl,false,.lblank⟩⟩] .leaf)),(.node (.node .leaf 8701797 [⟨⟨(.escapedCr 2),[],.lcode,false,[],false⟩,true,false,[],some 4,some ⟨(.inside 2),[],.lcode,false,[],false⟩,none,false,false,false,none,false,⟨.lcode,some (.own 3),false,.lblank⟩⟩] .leaf) 8701805 [⟨⟨(.escapedCr 2),[],.lcode,false,[],false⟩,true,false,[],some 4,some ⟨(.inside 2),[],.lcode,false,[],false⟩,none,true,false,false,none,false,⟨.lcode,some .internalNl,false,.lblank⟩⟩] (.node .leaf 8997765 [⟨⟨(.escapedCr 2),[],.lblank,false,[],false⟩,true,false,[],some 4,some ⟨(.inside 2),[],.lcode,false,[],false⟩,none,true,false,false,none,false,⟨.lblank,some .internalNl,false,.lblank⟩⟩] .leaf)),(.node (.node .leaf 8738648 [⟨⟨(.escapedCr 2),[],.lcode,true,[],false⟩,false,true,[],some 4,some ⟨(.inside 2),[],.lcode,false,[],false⟩,none,false,false,false,none,false,⟨.lcode,some (.own 3),false,.lblank⟩⟩] .leaf) 8738656 [⟨⟨(.escapedCr 2),[],.lcode,true,[],false⟩,false,true,[],some 4,some ⟨(.inside 2),[],.lcode,false,[],false⟩,none,true,false,false,none,false,⟨.lcode,some .internalNl,false,.lblank⟩⟩] (.node .leaf 9034616 [⟨⟨(.escapedCr 2),[],.lblank,true,[],false⟩,false,true,[],some 4,some ⟨(.inside 2),[],.lcode,false,[],false⟩,none,true,false,false,none,false,⟨.lblank,some .internalNl,false,.lblank⟩⟩] .leaf)),(.node (.node (.node .leaf 610242271 [⟨⟨(.inside 1),[],.lcode,false,[],false⟩,false,false,[],some 4,some ⟨.code,[47],.lcode,false,[],false⟩,some ([(42,(.other,false))],false),false,false,false,none,false,⟨.lcode,some (.own 3),false,.lblank⟩⟩] .leaf) 610390259 [⟨⟨(.inside 1),[],.lcomment,false,[],false⟩,false,false,[],some 4,some ⟨.code,[47],.lcode,false,[],false⟩,some ([(42,(.other,false))],false),true,false,false,none,false,⟨.lcomment,some .internalNl,false,.lblank⟩⟩] (.node .leaf 611599119 [⟨⟨(.inside 1),[],.lcomment,false,[],false⟩,false,false,[],some 4,some ⟨.code,[47],.lcomment,false,[],false⟩,some ([(42,(.other,false))],false),false,false,false,none,false,⟨.lcomment,some (.own 3),false,.lblank⟩⟩] .leaf)) 611599127 [⟨⟨(.inside 1),[],.lcomment,false,[],false⟩,false,false,[],some 4,some ⟨.code,[47],.lcomment,false,[],false⟩,some ([(42,(.other,false))],false),true,false,false,none,false,⟨.lcomment,some .internalNl,false,.lblank⟩⟩] (.node (.node .leaf 612807987 [⟨⟨(.inside 1),[],.lcomment,false,[],false⟩,false,false,[],some 4,some ⟨.code,[47],.lblank,false,[],false⟩,some ([(42,(.other,false))],false),false,false,false,none,false,⟨.lcomment,some (.own 3),false,.lblank⟩⟩] .leaf) 612807995 [⟨⟨(.inside 1),[],.lcomment,false,[],false⟩,false,false,[],some 4,some ⟨.code,[47],.lblank,false,[],false⟩,some ([(42,(.other,false))],false),true,false,false,none,false,⟨.lcomment,some .internalNl,false,.lblank⟩⟩] .leaf)),(.node (.node (.node (.node .leaf 610242271 [⟨⟨(.inside 1),[],.lcode,false,[],false⟩,false,false,[],some 4,some ⟨.code,[47],.lcode,false,[],false⟩,some ([(42,(.other,false))],false),false,false,false,none,false,⟨.lcode,some (.own 3),false,.lblank⟩⟩] .leaf) 610390259 [⟨⟨(.inside 1),[],.lcomment,false,[],false⟩,false,false,[],some 4,some ⟨.code,[47],.lcode,false,[],false⟩,some ([(42,(.other,false))],false),true,false,false,none,false,⟨.lcomment,some .internalNl,false,.lblank⟩⟩] .leaf) 610538239 [⟨⟨(.inside 1),[],.lblank,false,[],false⟩,false,false,[],some 4,some ⟨.code,[47],.lcode,false,[],false⟩,some ([(42,(.other,false))],false),true,false,false,none,false,⟨.lblank,some .internalNl,false,.lblank⟩⟩] (.node .leaf 611599119 [⟨⟨(.inside 1),[],.lcomment,false,[],false⟩,false,false,[],some 4,some ⟨.code,[47],.lcomment,false,[],false⟩,some ([(42,(.other,false))],false),false,false,false,none,false,⟨.lcomment,some (.own 3),false,.lblank⟩⟩] .leaf)) 611599127 [⟨⟨(.inside 1),[],.lcomment,false,[],false⟩,false,false,[],some 4,some ⟨.code,[47],.lcomment,false,[],false⟩,some ([(42,(.other,false))],false),true,false,false,none,false,⟨.lcomment,some .internalNl,false,.lblank⟩⟩] (.node (.node (.node .leaf 611747107 [⟨⟨(.inside 1),[],.lblank,false,[],false⟩,false,false,[],some 4,some ⟨.code,[47],.lcomment,false,[],false⟩,some ([(42,(.other,false))],false),true,false,false,none,false,⟨.lblank,some .internalNl,false,.lblank⟩⟩] .leaf) 612807987 [⟨⟨(.inside 1),[],.lcomment,false,[],false⟩,false,false,[],some 4,some ⟨.code,[47],.lblank,false,[],false⟩,some ([(42,(.other,false))],false),false,false,false,none,false,⟨.lcomment,some (.own 3),false,.lblank⟩⟩] .leaf) 612807995 [⟨⟨(.inside 1),[],.lcomment,false,[],false⟩,false,false,[],some 4,some ⟨.code,[47],.lblank,false,[],false⟩,some ([(42,(.other,false))],false),true,false,false,none,false,⟨.lcomment,some .internalNl,false,.lblank⟩⟩] (.node .leaf 612955975 [⟨⟨(.inside 1),[],.lblank,false,[],false⟩,false,false,[],some 4,some ⟨.code,[47],.lblank,false,[],false⟩,some ([(42,(.other,false))],false),true,false,false,none,false,⟨.lblank,some .internalNl,false,.lblank⟩⟩] .leaf))),(.node (.node (.node (.node .leaf 610279138 [⟨⟨(.inside 1),[],.lcode,true,[],false⟩,false,false,[],some 4,some ⟨.code,[47],.lcode,false,[],false⟩,some ([(42,(.other,false))],false),false,false,false,none,false,⟨.lcode,some (.own 3),false,.lblank⟩⟩] .leaf) 610427126 [⟨⟨(.inside 1),[],.lcomment,true,[],false⟩,false,false,[],some 4,some ⟨.code,[47],.lcode,false,[],false⟩,some ([(42,(.other,false))],false),true,false,false,none,false,⟨.lcomment,some .internalNl,false,.lblank⟩⟩] .leaf) 610575106 [⟨⟨(.inside 1),[],.lblank,true,[],false⟩,false,false,[],some 4,some ⟨.code,[47],.lcode,false,[],false⟩,some ([(42,(.other,false))],false),true,false,false,none,false,⟨.lblank,some .internalNl,false,.lblank⟩⟩] (.node .leaf 611635986 [⟨⟨(.inside 1),[],.lcomment,true,[],false⟩,false,false,[],some 4,some ⟨.code,[47],.lcomment,false,[],false⟩,some ([(42,(.other,false))],false),false,false,false,none,false,⟨.lcomment,some (.own 3),false,.lblank⟩⟩] .leaf)) 611635994 [⟨⟨(.inside 1),[],.lcomment,true,[],false⟩,false,false,[],some 4,some ⟨.code,[47],.lcomment,false,[],false⟩,some ([(42,(.other,false))],false),true,false,false,none,false,⟨.lcomment,some .internalNl,false,.lblank⟩⟩] (.node (.node (.node .leaf 611783974 [⟨⟨(.inside 1),[],.lblank,true,[],false⟩,false,false,[],some 4,some ⟨.code,[47],.lcomment,false,[],false⟩,some ([(42,(.other,false))],false),true,false,false,none,false,⟨.lblank,some .internalNl,false,.lblank⟩⟩] .leaf) 612844854 [⟨⟨(.inside 1),[],.lcomment,true,[],false⟩,false,false,[],some 4,some ⟨.code,[47],.lblank,false,[],false⟩,some ([(42,(.other,false))],false),false,false,false,none,false,⟨.lcomment,some (.own 3),false,.lblank⟩⟩] .leaf) 612844862 [⟨⟨(.inside 1),[],.lcomment,true,[],false⟩,false,false,[],some 4,some ⟨.code,[47],.lblank,false,[],false⟩,some ([(42,(.other,false))],false),true,false,false,none,false,⟨.lcomment,some .internalNl,false,.lblank⟩⟩] (.node .leaf 612992842 [⟨⟨(.inside 1),[],.lblank,true,[],false⟩,false,false,[],some 4,some ⟨.code,[47],.lblank,false,[],false⟩,some ([(42,(.other,false))],false),true,false,false,none,false,⟨.lblank,some .internalNl,false,.lblank⟩⟩] .leaf))),(.node (.node (.node (.node .leaf 610279138 [⟨⟨(.inside 1),[],.lcode,true,[],false⟩,false,false,[],some 4,some ⟨.code,[47],.lcode,false,[],false⟩,some ([(42,(.other,false))],false),false,false,false,none,false,⟨.lcode,some (.own 3),false,.lblank⟩⟩] .leaf) 610427126 [⟨⟨(.inside 1),[],.lcomment,true,[],false⟩,false,false,[],some 4,some ⟨.code,[47],.lcode,false,[],false⟩,some ([(42,(.other,false))],false),true,false,false,none,false,⟨.lcomment,some .internalNl,false,.lblank⟩⟩] .leaf) 610575106 [⟨⟨(.inside 1),[],.lblank,true,[],false⟩,false,false,[],some 4,some ⟨.code,[47],.lcode,false,[],false⟩,some ([(42,(.other,false))],false),true,false,false,none,false,⟨.lblank,some .internalNl,false,.lblank⟩⟩] (.node .leaf 611635986 [⟨⟨(.inside 1),[],.lcomment,true,[],false⟩,false,false,[],some 4,some ⟨.code,[47],.lcomment,false,[],false⟩,some ([(42,(.other,false))],false),false,false,false,none,false,⟨.lcomment,some (.own 3),false,.lblank⟩⟩] .leaf)) 611635994 [⟨⟨(.inside 1),[],.lcomment,true,[],false⟩,false,false,[],some 4,some ⟨.code,[47],.lcomment,false,[],false⟩,some ([(42,(.other,false))],false),true,false,false,none,false,⟨.lcomment,some .internalNl,false,.lblank⟩⟩] (.node (.node (.node .leaf 611783974 [⟨⟨(.inside 1),[],.lblank,true,[],false⟩,false,false,[],some 4,some ⟨.code,[47],.lcomment,false,[],false⟩,some ([(42,(.other,false))],false),true,false,false,none,false,⟨.lblank,some .internalNl,false,.lblank⟩⟩] .leaf) 612844854 [⟨⟨(.inside 1),[],.lcomment,true,[],false⟩,false,false,[],some 4,some ⟨.code,[47],.lblank,false,[],false⟩,some ([(42,(.other,false))],false),false,false,false,none,false,⟨.lcomment,some (.own 3),false,.lblank⟩⟩] .leaf) 612844862 [⟨⟨(.inside 1),[],.lcomment,true,[],false⟩,false,false,[],some 4,some ⟨.code,[47],.lblank,false,[],false⟩,some ([(42,(.other,false))],false),true,false,false,none,false,⟨.lcomment,some .internalNl,false,.lblank⟩⟩] (.node .leaf 612992842 [⟨⟨(.inside 1),[],.lblank,true,[],false⟩,false,false,[],some 4,some ⟨.code,[47],.lblank,false,[],false⟩,some ([(42,(.other,false))],false),true,false,false,none,false,⟨.lblank,some .internalNl,false,.lblank⟩⟩] .leaf))),(.node (.node (.node (.node .leaf 610242303 [⟨⟨(.inside 1),[],.lcode,false,[],false⟩,true,false,[],some 4,some ⟨.code,[47],.lcode,false,[],false⟩,some ([(42,(.other,false))],false),false,false,false,none,false,⟨.lcode,some (.own 3),false,.lblank⟩⟩] .leaf) 610390291 [⟨⟨(.inside 1),[],.lcomment,false,[],false⟩,true,false,[],some 4,some ⟨.code,[47],.lcode,false,[],false⟩,some ([(42,(.other,false))],false),true,false,false,none,false,⟨.lcomment,some .internalNl,false,.lblank⟩⟩] .leaf) 610538271 [⟨⟨(.inside 1),[],.lblank,false,[],false⟩,true,false,[],some 4,some ⟨.code,[47],.lcode,false,[],false⟩,some ([(42,(.other,false))],false),true,false,false,none,false,⟨.lblank,some .internalNl,false,.lblank⟩⟩] (.node .leaf 611599151 [⟨⟨(.inside 1),[],.lcomment,false,[],false⟩,true,false,[],some 4,some ⟨.code,[47],.lcomment,false,[],false⟩,some ([(42,(.other,false))],false),false,false,false,none,false,⟨.lcomment,some (.own 3),false,.lblank⟩⟩] .leaf)) 611599159 [⟨⟨(.inside 1),[],.lcomment,false,[],false⟩,true,false,[],some 4,some ⟨.code,[47],.lcomment,false,[],false⟩,some ([(42,(.other,false))],false),true,false,false,none,false,⟨.lcomment,some .internalNl,false,.lblank⟩⟩] (.node (.node (.node .leaf 611747139 [⟨⟨(.inside 1),[],.lblank,false,[],false⟩,true,false,[],some 4,some ⟨.code,[47],.lcomment,false,[],false⟩,some ([(42,(.other,false))],false),true,false,false,none,false,⟨.lblank,some .internalNl,false,.lblank⟩⟩] .leaf) 612808019 [⟨⟨(.inside 1),[],.lcomment,false,[],false⟩,true,false,[],some 4,some ⟨.code,[47],.lblank,false,[],false⟩,some ([(42,(.other,false))],false),false,false,false,none,false,⟨.lcomment,some (.own 3),false,.lblank⟩⟩] .leaf) 612808027 [⟨⟨(.inside 1),[],.lcomment,false,[],false⟩,true,false,[],some 4,some ⟨.code,[47],.lblank,false,[],false⟩,some ([(42,(.other,false))],false),true,false,false,none,false,⟨.lcomment,some .internalNl,false,.lblank⟩⟩] (.node .leaf 612956007 [⟨⟨(.inside 1),[],.lblank,false,[],false⟩,true,false,[],some 4,some ⟨.code,[47],.lblank,false,[],false⟩,some ([(42,(.other,false))],false),true,false,false,none,false,⟨.lblank,some .internalNl,false,.lblank⟩⟩] .leaf))),(.node (.node (.node (.node .leaf 610279154 [⟨⟨(.inside 1),[],.lcode,true,[],false⟩,false,true,[],some 4,some ⟨.code,[47],.lcode,false,[],false⟩,some ([(42,(.other,false))],false),false,false,false,none,false,⟨.lcode,some (.own 3),false,.lblank⟩⟩] .leaf) 610427142 [⟨⟨(.inside 1),[],.lcomment,true,[],false⟩,false,true,[],some 4,some ⟨.code,[47],.lcode,false,[],false⟩,some ([(42,(.other,false))],false),true,false,false,none,false,⟨.lcomment,some .internalNl,false,.lblank⟩⟩] .leaf) 610575122 [⟨⟨(.inside 1),[],.lblank,true,[],false⟩,false,true,[],some 4,some ⟨.code,[47],.lcode,false,[],false⟩,some ([(42,(.other,false))],false),true,false,false,none,false,⟨.lblank,some .internalNl,false,.lblank⟩⟩] (.node .leaf 611636002 [⟨⟨(.inside 1),[],.lcomment,true,[],false⟩,false,true,[],some 4,some ⟨.code,[47],.lcomment,false,[],false⟩,some ([(42,(.other,false))],false),false,false,false,none,false,⟨.lcomment,some (.own 3),false,.lblank⟩⟩] .leaf)) 611636010 [⟨⟨(.inside 1),[],.lcomment,true,[],false⟩,false,true,[],some 4,some ⟨.code,[47],.lcomment,false,[],false⟩,some ([(42,(.other,false))],false),true,false,false,none,false,⟨.lcomment,some .internalNl,false,.lblank⟩⟩] (.node (.node (.node .leaf 611783990 [⟨⟨(.inside 1),[],.lblank,true,[],false⟩,false,true,[],some 4,some ⟨.code,[47],.lcomment,false,[],false⟩,some ([(42,(.other,false))],false),true,false,false,none,false,⟨.lblank,some .internalNl,false,.lblank⟩⟩] .leaf) 612844870 [⟨⟨(.inside 1),[],.lcomment,true,[],false⟩,false,true,[],some 4,some ⟨.code,[47],.lblank,false,[],false⟩,some ([(42,(.other,false))],false),false,false,false,none,false,⟨.lcomment,some (.own 3),false,.lblank⟩⟩] .leaf) 612844878 [⟨⟨(.inside 1),[],.lcomment,true,[],false⟩,false,true,[],some 4,some ⟨.code,[47],.lblank,false,[],false⟩,some ([(42,(.other,false))],false),true,false,false,none,false,⟨.lcomment,some .internalNl,false,.lblank⟩⟩] (.node .leaf 612992858 [⟨⟨(.inside 1),[],.lblank,true,[],false⟩,false,true,[],some 4,some ⟨.code,[47],.lblank,false,[],false⟩,some ([(42,(.other,false))],false),true,false,false,none,false,⟨.lblank,some .internalNl,false,.lblank⟩⟩] .leaf))),(.node (.node (.node (.node .leaf 1148611072 [⟨⟨(.inside 1),[42],.lcode,false,[],false⟩,false,false,[],some 4,some ⟨.code,[47],.lcode,false,[],false⟩,some ([(42,(.other,false))],false),false,false,false,none,false,⟨.lcode,some (.own 3),false,.lblank⟩⟩] .leaf) 1167929900 [⟨⟨(.inside 1),[42],.lcomment,false,[],false⟩,false,false,[],some 4,some ⟨.code,[47],.lcode,false,[],false⟩,some ([(42,(.other,false))],false),true,false,false,none,false,⟨.lcomment,some .internalNl,false,.lblank⟩⟩] .leaf) 1169138760 [⟨⟨(.inside 1),[42],.lcomment,false,[],false⟩,false,false,[],some 4,some ⟨.code,[47],.lcomment,false,[],false⟩,some ([(42,(.other,false))],false),false,false,false,none,false,⟨.lcomment,some (.own 3),false,.lblank⟩⟩] (.node .leaf 1169138768 [⟨⟨(.inside 1),[42],.lcomment,false,[],false⟩,false,false,[],some 4,some ⟨.code,[47],.lcomment,false,[],false⟩,some ([(42,(.other,false))],false),true,false,false,none,false,⟨.lcomment,some .internalNl,false,.lblank⟩⟩] .leaf)) 1170347628 [⟨⟨(.inside 1),[42],.lcomment,false,[],false⟩,false,false,[],some 4,some ⟨.code,[47],.lblank,false,[],false⟩,some ([(42,(.other,false))],false),false,false,false,none,false,⟨.lcomment,some (.own 3),false,.lblank⟩⟩] (.node (.node (.node .leaf 1170347636 [⟨⟨(.inside 1),[42],.lcomment,false,[],false⟩,false,false,[],some 4,some ⟨.code,[47],.lblank,false,[],false⟩,some ([(42,(.other,false))],false),true,false,false,none,false,⟨.lcomment,some .internalNl,false,.lblank⟩⟩] .leaf) 1187248208 [⟨⟨(.inside 1),[42],.lblank,false,[],false⟩,false,false,[],some 4,some ⟨.code,[47],.lcode,false,[],false⟩,some ([(42,(.other,false))],false),true,false,false,none,false,⟨.lcomment,some .internalNl,false,.lblank⟩⟩] .leaf) 1188457076 [⟨⟨(.inside 1),[42],.lblank,false,[],false⟩,false,false,[],some 4,some ⟨.code,[47],.lcomment,false,[],false⟩,some ([(42,(.other,false))],false),true,false,false,none,false,⟨.lcomment,some .internalNl,false,.lblank⟩⟩] (.node .leaf 1189665944 [⟨⟨(.inside 1),[42],.lblank,false,[],false⟩,false,false,[],some 4,some ⟨.code,[47],.lblank,false,[],false⟩,some ([(42,(.other,false))],false),true,false,false,none,false,⟨.lcomment,some .internalNl,false,.lblank⟩⟩] .leaf))),(.node (.node .leaf 1179872 [⟨⟨(.inside 0),[],.lcode,false,[],false⟩,false,false,[],none,none,none,false,false,false,none,false,⟨.lcode,some (.own 3),false,.lblank⟩⟩] .leaf) 1327852 [⟨⟨(.inside 0),[],.lcomment,false,[],false⟩,false,false,[],none,none,none,false,false,false,none,false,⟨.lcomment,some (.own 3),false,.lblank⟩⟩] .leaf),(.node (.node .leaf 10692808 [⟨⟨(.inside 3),[],.lcode,true,[],false⟩,false,false,[],some 4,some ⟨(.inside 3),[],.lcode,false,[],false⟩,none,false,false,false,none,false,⟨.lcode,some (.own 3),false,.lblank⟩⟩] .leaf) 10692816 [⟨⟨(.inside 3),[],.lcode,true,[],false⟩,false,false,[],some 4,some ⟨(.inside 3),[],.lcode,false,[],false⟩,none,true,false,false,none,false,⟨.lcode,some .internalNl,false,.lblank⟩⟩] (.node .leaf 10988776 [⟨⟨(.inside 3),[],.lblank,true,[],false⟩,false,false,[],some 4,some ⟨(.inside 3),[],.lcode,false,[],false⟩,none,true,false,false,none,false,⟨.lblank,some .internalNl,false,.lblank⟩⟩] .leaf)),.leaf,(.node (.node .leaf 7558888 [⟨⟨(.inside 2),[],.lcode,true,[],false⟩,false,false,[],some 4,some ⟨(.inside 2),[],.lcode,false,[],false⟩,none,false,false,false,none,false,⟨.lcode,some (.own 3),false,.lblank⟩⟩] .leaf) 7558896 [⟨⟨(.inside 2),[],.lcode,true,[],false⟩,false,false,[],some 4,some ⟨(.inside 2),[],.lcode,false,[],false⟩,none,true,false,false,none,false,⟨.lcode,some .internalNl,false,.lblank⟩⟩] (.node .leaf 7854856 [⟨⟨(.inside 2),[],.lblank,true,[],false⟩,false,false,[],some 4,some ⟨(.inside 2),[],.lcode,false,[],false⟩,none,true,false,false,none,false,⟨.lblank,some .internalNl,false,.lblank⟩⟩] .leaf)),.leaf,(.node (.node (.node (.node .leaf 610279138 [⟨⟨(.inside 1),[],.lcode,true,[],false⟩,false,false,[],some 4,some ⟨.code,[47],.lcode,false,[],false⟩,some ([(42,(.other,false))],false),false,false,false,none,false,⟨.lcode,some (.own 3),false,.lblank⟩⟩] .leaf) 610427126 [⟨⟨(.inside 1),[],.lcomment,true,[],false⟩,false,false,[],some 4,some ⟨.code,[47],.lcode,false,[],false⟩,some ([(42,(.other,false))],false),true,false,false,none,false,⟨.lcomment,some .internalNl,false,.lblank⟩⟩] .leaf) 610575106 [⟨⟨(.inside 1),[],.lblank,true,[],false⟩,false,false,[],some 4,some ⟨.code,[47],.lcode,false,[],false⟩,some ([(42,(.other,false))],false),true,false,false,none,false,⟨.lblank,some .internalNl,false,.lblank⟩⟩] (.node .leaf 611635986 [⟨⟨(.inside 1),[],.lcomment,true,[],false⟩,false,false,[],some 4,some ⟨.code,[47],.lcomment,false,[],false⟩,some ([(42,(.other,false))],false),false,false,false,none,false,⟨.lcomment,some (.own 3),false,.lblank⟩⟩] .leaf)) 611635994 [⟨⟨(.inside 1),[],.lcomment,true,[],false⟩,false,false,[],some 4,some ⟨.code,[47],.lcomment,false,[],false⟩,some ([(42,(.other,false))],false),true,false,false,none,false,⟨.lcomment,some .internalNl,false,.lblank⟩⟩] (.node (.node (.node .leaf 611783974 [⟨⟨(.inside 1),[],.lblank,true,[],false⟩,false,false,[],some 4,some ⟨.code,[47],.lcomment,false,[],false⟩,some ([(42,(.other,false))],false),true,false,false,none,false,⟨.lblank,some .internalNl,false,.lblank⟩⟩] .leaf) 612844854 [⟨⟨(.inside 1),[],.lcomment,true,[],false⟩,false,false,[],some 4,some ⟨.code,[47],.lblank,false,[],false⟩,some ([(42,(.other,false))],false),false,false,false,none,false,⟨.lcomment,some (.own 3),false,.lblank⟩⟩] .leaf) 612844862 [⟨⟨(.inside 1),[],.lcomment,true,[],false⟩,false,false,[],some 4,some ⟨.code,[47],.lblank,false,[],false⟩,some ([(42,(.other,false))],false),true,false,false,none,false,⟨.lcomment,some .internalNl,false,.lblank⟩⟩] (.node .leaf 612992842 [⟨⟨(.inside 1),[],.lblank,true,[],false⟩,false,false,[],some 4,some ⟨.code,[47],.lblank,false,[],false⟩,some ([(42,(.other,false))],false),true,false,false,none,false,⟨.lblank,some .internalNl,false,.lblank⟩⟩] .leaf))),.leaf]
theorem unrealscript_line_lClosed : CA.closedF unrealscript_line_M unrealscript_line_lex true false unrealscript_line_lfr unrealscript_line_lTab = true := by decide +kernel
def unrealscript_line_L : LCert LexisTable.unrealscript_line unrealscript_line_M := unrealscript_line_lex_eq ▸ ⟨⟨unrealscript_line_lmasks, unrealscript_line_lex.rel, unrealscript_line_lcs, unrealscript_line_lrows, unrealscript_line_lmasksIn, unrealscript_line_lrepOk, unrealscript_line_lrowsOk⟩,
  _, rfl, by decide +kernel, by decide +kernel, true, false, CA.closed_of unrealscript_line_lfrOk unrealscript_line_lClosed⟩
theorem unrealscript_line_L_chk : unrealscript_line_L.chk = true := by
  have : ∀ (l : Lexis) (h : LexisTable.unrealscript_line = l) (C : LCert l unrealscript_line_M), (h ▸ C : LCert LexisTable.unrealscript_line unrealscript_line_M).chk = C.chk := by rintro _ rfl _; rfl
  exact this _ unrealscript_line_lex_eq _

end Ohcount.Cert
