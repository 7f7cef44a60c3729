import Verif.Cert.N7
import Verif.Cert.N10
import Verif.Cert.N11
import Verif.RagelLexFast
import Verif.LexisTable

/-! Generated by tools/gen_certs.py. -/

namespace Ohcount.Cert
open Ohcount.Ragel Ohcount.Gram

set_option maxRecDepth 100000
set_option maxHeartbeats 0

def awk_line_lex : Lexis := [⟨[35],[],.lcomment,false,false,false,true,false,false,true,false,none,false,false,false,false,[]⟩,⟨[34],[[34]],.lcode,false,true,true,true,false,false,true,false,none,false,false,false,false,[]⟩,⟨[47],[[47]],.lcode,false,true,true,true,false,false,true,false,none,false,false,false,false,[]⟩]
theorem awk_line_lex_eq : LexisTable.awk_line = awk_line_lex := by decide +kernel
def awk_line_lmasks : List Nat := [4294967808,34359738368,17179869184,140737488355328,8192,1024,4096,115792089237316195423570985008687907853269984665640564039457584007908834656767,115792089237316195423570985008687907853269984665640564039457584007913129626623,115792089237316195423570985008687907853269984665635612279300442486796353260543,4951760157141521099596496896,115792089237316195423570985008687907853269984665635612279300442346076044774399]
def awk_line_lcs : List (Nat × Nat) := [(0,115792089237316195423570985008687907853269984665635612279300442346020210196991),(9,4294967808),(10,1024),(11,2048),(12,4096),(13,8192),(34,17179869184),(35,34359738368),(47,140737488355328),(92,4951760157141521099596496896)]
theorem awk_line_lmasksIn : masksIn awk_line_nfa awk_line_lmasks = true := by decide +kernel
theorem awk_line_lrepOk : repOk awk_line_lmasks awk_line_lcs = true := by decide +kernel
def awk_line_lrows : List Row := [⟨[],none,[],[⟨256,.other,false,some ⟨0,[.setEnt (.own 3)],some 4,true⟩⟩,⟨256,.ws,false,some ⟨1,[.setEnt (.own 0)],some 0,false⟩⟩,⟨256,.lf,false,some ⟨0,[.setEnt .newline],some 3,true⟩⟩,⟨256,.vt,false,none⟩,⟨256,.ff,false,some ⟨0,[.setEnt .newline],some 3,true⟩⟩,⟨256,.cr,false,some ⟨2,[.setEnt .newline],none,false⟩⟩,⟨256,.cr,true,some ⟨3,[.setEnt .newline],some 3,false⟩⟩,⟨34,.other,false,some ⟨4,[.code,.setEnt (.own 3)],some 4,false⟩⟩,⟨35,.other,false,some ⟨5,[.comment,.setEnt (.own 3)],some 1,false⟩⟩,⟨47,.other,false,some ⟨6,[.code,.setEnt (.own 3)],some 4,false⟩⟩,⟨92,.other,false,some ⟨0,[.setEnt (.own 3)],some 4,true⟩⟩]⟩,⟨[0],some 0,[],[⟨256,.other,false,none⟩,⟨256,.ws,false,some ⟨1,[.setEnt (.own 0)],some 0,false⟩⟩,⟨256,.lf,false,none⟩,⟨256,.vt,false,none⟩,⟨256,.ff,false,none⟩,⟨256,.cr,false,none⟩,⟨256,.cr,true,none⟩,⟨34,.other,false,none⟩,⟨35,.other,false,none⟩,⟨47,.other,false,none⟩,⟨92,.other,false,none⟩]⟩,⟨[13],none,[],[⟨256,.other,false,none⟩,⟨256,.ws,false,none⟩,⟨256,.lf,false,some ⟨0,[.setEnt .newline],some 3,true⟩⟩,⟨256,.vt,false,none⟩,⟨256,.ff,false,none⟩,⟨256,.cr,false,none⟩,⟨256,.cr,true,none⟩,⟨34,.other,false,none⟩,⟨35,.other,false,none⟩,⟨47,.other,false,none⟩,⟨92,.other,false,none⟩]⟩,⟨[13,17],some 3,[],[⟨256,.other,false,none⟩,⟨256,.ws,false,none⟩,⟨256,.lf,false,some ⟨0,[.setEnt .newline],some 3,true⟩⟩,⟨256,.vt,false,none⟩,⟨256,.ff,false,none⟩,⟨256,.cr,false,none⟩,⟨256,.cr,true,none⟩,⟨34,.other,false,none⟩,⟨35,.other,false,none⟩,⟨47,.other,false,none⟩,⟨92,.other,false,none⟩]⟩,⟨[3,18],some 4,[],[⟨256,.other,false,some ⟨7,[],none,false⟩⟩,⟨256,.ws,false,some ⟨7,[],none,false⟩⟩,⟨256,.lf,false,none⟩,⟨256,.vt,false,some ⟨7,[],none,false⟩⟩,⟨256,.ff,false,none⟩,⟨256,.cr,false,none⟩,⟨256,.cr,true,none⟩,⟨34,.other,false,some ⟨0,[],some 2,true⟩⟩,⟨35,.other,false,some ⟨7,[],none,false⟩⟩,⟨47,.other,false,some ⟨7,[],none,false⟩⟩,⟨92,.other,false,some ⟨8,[],none,false⟩⟩]⟩,⟨[1,18],some 1,[],[⟨256,.other,false,some ⟨9,[],some 1,false⟩⟩,⟨256,.ws,false,some ⟨9,[],some 1,false⟩⟩,⟨256,.lf,false,none⟩,⟨256,.vt,false,some ⟨9,[],some 1,false⟩⟩,⟨256,.ff,false,none⟩,⟨256,.cr,false,none⟩,⟨256,.cr,true,none⟩,⟨34,.other,false,some ⟨9,[],some 1,false⟩⟩,⟨35,.other,false,some ⟨9,[],some 1,false⟩⟩,⟨47,.other,false,some ⟨9,[],some 1,false⟩⟩,⟨92,.other,false,some ⟨9,[],some 1,false⟩⟩]⟩,⟨[8,18],some 4,[],[⟨256,.other,false,some ⟨10,[],none,false⟩⟩,⟨256,.ws,false,some ⟨10,[],none,false⟩⟩,⟨256,.lf,false,none⟩,⟨256,.vt,false,some ⟨10,[],none,false⟩⟩,⟨256,.ff,false,none⟩,⟨256,.cr,false,none⟩,⟨256,.cr,true,none⟩,⟨34,.other,false,some ⟨10,[],none,false⟩⟩,⟨35,.other,false,some ⟨10,[],none,false⟩⟩,⟨47,.other,false,some ⟨0,[],some 2,true⟩⟩,⟨92,.other,false,some ⟨11,[],none,false⟩⟩]⟩,⟨[4],none,[],[⟨256,.other,false,some ⟨7,[],none,false⟩⟩,⟨256,.ws,false,some ⟨7,[],none,false⟩⟩,⟨256,.lf,false,none⟩,⟨256,.vt,false,some ⟨7,[],none,false⟩⟩,⟨256,.ff,false,none⟩,⟨256,.cr,false,none⟩,⟨256,.cr,true,none⟩,⟨34,.other,false,some ⟨0,[],some 2,true⟩⟩,⟨35,.other,false,some ⟨7,[],none,false⟩⟩,⟨47,.other,false,some ⟨7,[],none,false⟩⟩,⟨92,.other,false,some ⟨8,[],none,false⟩⟩]⟩,⟨[5],none,[],[⟨256,.other,false,some ⟨12,[],none,false⟩⟩,⟨256,.ws,false,some ⟨12,[],none,false⟩⟩,⟨256,.lf,false,none⟩,⟨256,.vt,false,some ⟨12,[],none,false⟩⟩,⟨256,.ff,false,none⟩,⟨256,.cr,false,none⟩,⟨256,.cr,true,none⟩,⟨34,.other,false,some ⟨12,[],none,false⟩⟩,⟨35,.other,false,some ⟨12,[],none,false⟩⟩,⟨47,.other,false,some ⟨12,[],none,false⟩⟩,⟨92,.other,false,some ⟨12,[],none,false⟩⟩]⟩,⟨[2],some 1,[],[⟨256,.other,false,some ⟨9,[],some 1,false⟩⟩,⟨256,.ws,false,some ⟨9,[],some 1,false⟩⟩,⟨256,.lf,false,none⟩,⟨256,.vt,false,some ⟨9,[],some 1,false⟩⟩,⟨256,.ff,false,none⟩,⟨256,.cr,false,none⟩,⟨256,.cr,true,none⟩,⟨34,.other,false,some ⟨9,[],some 1,false⟩⟩,⟨35,.other,false,some ⟨9,[],some 1,false⟩⟩,⟨47,.other,false,some ⟨9,[],some 1,false⟩⟩,⟨92,.other,false,some ⟨9,[],some 1,false⟩⟩]⟩,⟨[9],none,[],[⟨256,.other,false,some ⟨10,[],none,false⟩⟩,⟨256,.ws,false,some ⟨10,[],none,false⟩⟩,⟨256,.lf,false,none⟩,⟨256,.vt,false,some ⟨10,[],none,false⟩⟩,⟨256,.ff,false,none⟩,⟨256,.cr,false,none⟩,⟨256,.cr,true,none⟩,⟨34,.other,false,some ⟨10,[],none,false⟩⟩,⟨35,.other,false,some ⟨10,[],none,false⟩⟩,⟨47,.other,false,some ⟨0,[],some 2,true⟩⟩,⟨92,.other,false,some ⟨11,[],none,false⟩⟩]⟩,⟨[10],none,[],[⟨256,.other,false,some ⟨13,[],none,false⟩⟩,⟨256,.ws,false,some ⟨13,[],none,false⟩⟩,⟨256,.lf,false,none⟩,⟨256,.vt,false,some ⟨13,[],none,false⟩⟩,⟨256,.ff,false,none⟩,⟨256,.cr,false,none⟩,⟨256,.cr,true,none⟩,⟨34,.other,false,some ⟨13,[],none,false⟩⟩,⟨35,.other,false,some ⟨13,[],none,false⟩⟩,⟨47,.other,false,some ⟨13,[],none,false⟩⟩,⟨92,.other,false,some ⟨13,[],none,false⟩⟩]⟩,⟨[6],none,[],[⟨256,.other,false,some ⟨7,[],none,false⟩⟩,⟨256,.ws,false,some ⟨7,[],none,false⟩⟩,⟨256,.lf,false,none⟩,⟨256,.vt,false,some ⟨7,[],none,false⟩⟩,⟨256,.ff,false,none⟩,⟨256,.cr,false,none⟩,⟨256,.cr,true,none⟩,⟨34,.other,false,some ⟨0,[],some 2,true⟩⟩,⟨35,.other,false,some ⟨7,[],none,false⟩⟩,⟨47,.other,false,some ⟨7,[],none,false⟩⟩,⟨92,.other,false,some ⟨8,[],none,false⟩⟩]⟩,⟨[11],none,[],[⟨256,.other,false,some ⟨10,[],none,false⟩⟩,⟨256,.ws,false,some ⟨10,[],none,false⟩⟩,⟨256,.lf,false,none⟩,⟨256,.vt,false,some ⟨10,[],none,false⟩⟩,⟨256,.ff,false,none⟩,⟨256,.cr,false,none⟩,⟨256,.cr,true,none⟩,⟨34,.other,false,some ⟨10,[],none,false⟩⟩,⟨35,.other,false,some ⟨10,[],none,false⟩⟩,⟨47,.other,false,some ⟨0,[],some 2,true⟩⟩,⟨92,.other,false,some ⟨11,[],none,false⟩⟩]⟩]
theorem awk_line_lrowsOk : rowsOk awk_line_nfa awk_line_lex.rel (awk_line_lcs.map (·.1)) awk_line_lrows = true := by decide +kernel
def awk_line_lfr : List CA.FRow := [⟨true,none,[],[⟨256,.other,false,false,none,some ([.setEnt (.own 3)],(some 4,true))⟩,⟨9,.ws,false,false,some 1,some ([.setEnt (.own 0)],(some 0,false))⟩,⟨10,.lf,false,true,none,some ([.setEnt .newline],(some 3,true))⟩,⟨11,.vt,false,false,none,none⟩,⟨12,.ff,false,true,none,some ([.setEnt .newline],(some 3,true))⟩,⟨13,.cr,false,false,some 2,some ([.setEnt .newline],(none,false))⟩,⟨13,.cr,true,true,some 3,some ([.setEnt .newline],(some 3,false))⟩,⟨34,.other,false,false,some 4,some ([.code,.setEnt (.own 3)],(some 4,false))⟩,⟨35,.other,false,false,some 5,some ([.comment,.setEnt (.own 3)],(some 1,false))⟩,⟨47,.other,false,false,some 6,some ([.code,.setEnt (.own 3)],(some 4,false))⟩,⟨92,.other,false,false,none,some ([.setEnt (.own 3)],(some 4,true))⟩]⟩,⟨false,some 0,[],[⟨256,.other,false,false,none,none⟩,⟨9,.ws,false,false,some 1,some ([.setEnt (.own 0)],(some 0,false))⟩,⟨10,.lf,false,true,none,none⟩,⟨11,.vt,false,false,none,none⟩,⟨12,.ff,false,true,none,none⟩,⟨13,.cr,false,false,none,none⟩,⟨13,.cr,true,true,none,none⟩,⟨34,.other,false,false,none,none⟩,⟨35,.other,false,false,none,none⟩,⟨47,.other,false,false,none,none⟩,⟨92,.other,false,false,none,none⟩]⟩,⟨false,none,[],[⟨256,.other,false,false,none,none⟩,⟨9,.ws,false,false,none,none⟩,⟨10,.lf,false,true,none,some ([.setEnt .newline],(some 3,true))⟩,⟨11,.vt,false,false,none,none⟩,⟨12,.ff,false,true,none,none⟩,⟨13,.cr,false,false,none,none⟩,⟨13,.cr,true,true,none,none⟩,⟨34,.other,false,false,none,none⟩,⟨35,.other,false,false,none,none⟩,⟨47,.other,false,false,none,none⟩,⟨92,.other,false,false,none,none⟩]⟩,⟨false,some 3,[],[⟨256,.other,false,false,none,none⟩,⟨9,.ws,false,false,none,none⟩,⟨10,.lf,false,true,none,some ([.setEnt .newline],(some 3,true))⟩,⟨11,.vt,false,false,none,none⟩,⟨12,.ff,false,true,none,none⟩,⟨13,.cr,false,false,none,none⟩,⟨13,.cr,true,true,none,none⟩,⟨34,.other,false,false,none,none⟩,⟨35,.other,false,false,none,none⟩,⟨47,.other,false,false,none,none⟩,⟨92,.other,false,false,none,none⟩]⟩,⟨false,some 4,[],[⟨256,.other,false,false,some 7,some ([],(none,false))⟩,⟨9,.ws,false,false,some 7,some ([],(none,false))⟩,⟨10,.lf,false,true,none,none⟩,⟨11,.vt,false,false,some 7,some ([],(none,false))⟩,⟨12,.ff,false,true,none,none⟩,⟨13,.cr,false,false,none,none⟩,⟨13,.cr,true,true,none,none⟩,⟨34,.other,false,false,none,some ([],(some 2,true))⟩,⟨35,.other,false,false,some 7,some ([],(none,false))⟩,⟨47,.other,false,false,some 7,some ([],(none,false))⟩,⟨92,.other,false,false,some 8,some ([],(none,false))⟩]⟩,⟨false,some 1,[],[⟨256,.other,false,false,some 9,some ([],(some 1,false))⟩,⟨9,.ws,false,false,some 9,some ([],(some 1,false))⟩,⟨10,.lf,false,true,none,none⟩,⟨11,.vt,false,false,some 9,some ([],(some 1,false))⟩,⟨12,.ff,false,true,none,none⟩,⟨13,.cr,false,false,none,none⟩,⟨13,.cr,true,true,none,none⟩,⟨34,.other,false,false,some 9,some ([],(some 1,false))⟩,⟨35,.other,false,false,some 9,some ([],(some 1,false))⟩,⟨47,.other,false,false,some 9,some ([],(some 1,false))⟩,⟨92,.other,false,false,some 9,some ([],(some 1,false))⟩]⟩,⟨false,some 4,[],[⟨256,.other,false,false,some 10,some ([],(none,false))⟩,⟨9,.ws,false,false,some 10,some ([],(none,false))⟩,⟨10,.lf,false,true,none,none⟩,⟨11,.vt,false,false,some 10,some ([],(none,false))⟩,⟨12,.ff,false,true,none,none⟩,⟨13,.cr,false,false,none,none⟩,⟨13,.cr,true,true,none,none⟩,⟨34,.other,false,false,some 10,some ([],(none,false))⟩,⟨35,.other,false,false,some 10,some ([],(none,false))⟩,⟨47,.other,false,false,none,some ([],(some 2,true))⟩,⟨92,.other,false,false,some 11,some ([],(none,false))⟩]⟩,⟨false,none,[],[⟨256,.other,false,false,some 7,some ([],(none,false))⟩,⟨9,.ws,false,false,some 7,some ([],(none,false))⟩,⟨10,.lf,false,true,none,none⟩,⟨11,.vt,false,false,some 7,some ([],(none,false))⟩,⟨12,.ff,false,true,none,none⟩,⟨13,.cr,false,false,none,none⟩,⟨13,.cr,true,true,none,none⟩,⟨34,.other,false,false,none,some ([],(some 2,true))⟩,⟨35,.other,false,false,some 7,some ([],(none,false))⟩,⟨47,.other,false,false,some 7,some ([],(none,false))⟩,⟨92,.other,false,false,some 8,some ([],(none,false))⟩]⟩,⟨false,none,[],[⟨256,.other,false,false,some 12,some ([],(none,false))⟩,⟨9,.ws,false,false,some 12,some ([],(none,false))⟩,⟨10,.lf,false,true,none,none⟩,⟨11,.vt,false,false,some 12,some ([],(none,false))⟩,⟨12,.ff,false,true,none,none⟩,⟨13,.cr,false,false,none,none⟩,⟨13,.cr,true,true,none,none⟩,⟨34,.other,false,false,some 12,some ([],(none,false))⟩,⟨35,.other,false,false,some 12,some ([],(none,false))⟩,⟨47,.other,false,false,some 12,some ([],(none,false))⟩,⟨92,.other,false,false,some 12,some ([],(none,false))⟩]⟩,⟨false,some 1,[],[⟨256,.other,false,false,some 9,some ([],(some 1,false))⟩,⟨9,.ws,false,false,some 9,some ([],(some 1,false))⟩,⟨10,.lf,false,true,none,none⟩,⟨11,.vt,false,false,some 9,some ([],(some 1,false))⟩,⟨12,.ff,false,true,none,none⟩,⟨13,.cr,false,false,none,none⟩,⟨13,.cr,true,true,none,none⟩,⟨34,.other,false,false,some 9,some ([],(some 1,false))⟩,⟨35,.other,false,false,some 9,some ([],(some 1,false))⟩,⟨47,.other,false,false,some 9,some ([],(some 1,false))⟩,⟨92,.other,false,false,some 9,some ([],(some 1,false))⟩]⟩,⟨false,none,[],[⟨256,.other,false,false,some 10,some ([],(none,false))⟩,⟨9,.ws,false,false,some 10,some ([],(none,false))⟩,⟨10,.lf,false,true,none,none⟩,⟨11,.vt,false,false,some 10,some ([],(none,false))⟩,⟨12,.ff,false,true,none,none⟩,⟨13,.cr,false,false,none,none⟩,⟨13,.cr,true,true,none,none⟩,⟨34,.other,false,false,some 10,some ([],(none,false))⟩,⟨35,.other,false,false,some 10,some ([],(none,false))⟩,⟨47,.other,false,false,none,some ([],(some 2,true))⟩,⟨92,.other,false,false,some 11,some ([],(none,false))⟩]⟩,⟨false,none,[],[⟨256,.other,false,false,some 13,some ([],(none,false))⟩,⟨9,.ws,false,false,some 13,some ([],(none,false))⟩,⟨10,.lf,false,true,none,none⟩,⟨11,.vt,false,false,some 13,some ([],(none,false))⟩,⟨12,.ff,false,true,none,none⟩,⟨13,.cr,false,false,none,none⟩,⟨13,.cr,true,true,none,none⟩,⟨34,.other,false,false,some 13,some ([],(none,false))⟩,⟨35,.other,false,false,some 13,some ([],(none,false))⟩,⟨47,.other,false,false,some 13,some ([],(none,false))⟩,⟨92,.other,false,false,some 13,some ([],(none,false))⟩]⟩,⟨false,none,[],[⟨256,.other,false,false,some 7,some ([],(none,false))⟩,⟨9,.ws,false,false,some 7,some ([],(none,false))⟩,⟨10,.lf,false,true,none,none⟩,⟨11,.vt,false,false,some 7,some ([],(none,false))⟩,⟨12,.ff,false,true,none,none⟩,⟨13,.cr,false,false,none,none⟩,⟨13,.cr,true,true,none,none⟩,⟨34,.other,false,false,none,some ([],(some 2,true))⟩,⟨35,.other,false,false,some 7,some ([],(none,false))⟩,⟨47,.other,false,false,some 7,some ([],(none,false))⟩,⟨92,.other,false,false,some 8,some ([],(none,false))⟩]⟩,⟨false,none,[],[⟨256,.other,false,false,some 10,some ([],(none,false))⟩,⟨9,.ws,false,false,some 10,some ([],(none,false))⟩,⟨10,.lf,false,true,none,none⟩,⟨11,.vt,false,false,some 10,some ([],(none,false))⟩,⟨12,.ff,false,true,none,none⟩,⟨13,.cr,false,false,none,none⟩,⟨13,.cr,true,true,none,none⟩,⟨34,.other,false,false,some 10,some ([],(none,false))⟩,⟨35,.other,false,false,some 10,some ([],(none,false))⟩,⟨47,.other,false,false,none,some ([],(some 2,true))⟩,⟨92,.other,false,false,some 11,some ([],(none,false))⟩]⟩]
theorem awk_line_lfrOk : awk_line_lrows.map (CA.prep awk_line_lex) = awk_line_lfr := by decide +kernel
def awk_line_lTab : List CT := [(.node (.node (.node (.node (.node (.node .leaf 128 [⟨⟨.code,[],.lcode,false,[],false⟩,false,false,[],none,none,none,false,false,false,none,false,⟨.lcode,none,false,.lblank⟩⟩] .leaf) 38019 [⟨⟨.code,[],.lcode,true,[],false⟩,false,false,[],none,none,none,false,false,false,none,false,⟨.lblank,none,false,.lblank⟩⟩] (.node .leaf 98440 [⟨⟨.code,[],.lcode,false,[(1,0)],false⟩,false,false,[],none,none,none,false,false,false,none,false,⟨.lcode,none,false,.lblank⟩⟩] .leaf)) 110729 [⟨⟨.code,[],.lcode,false,[(1,1)],false⟩,false,false,[],none,none,none,false,false,false,none,false,⟨.lcode,none,false,.lblank⟩⟩] (.node (.node .leaf 184463 [⟨⟨.code,[],.lcode,false,[(2,0)],false⟩,false,false,[],none,none,none,false,false,false,none,false,⟨.lcode,none,false,.lblank⟩⟩] .leaf) 185487 [⟨⟨.code,[],.lcomment,true,[],false⟩,false,false,[],none,none,none,false,false,false,none,false,⟨.lblank,none,false,.lblank⟩⟩] (.node .leaf 196752 [⟨⟨.code,[],.lcode,false,[(2,1)],false⟩,false,false,[],none,none,none,false,false,false,none,false,⟨.lcode,none,false,.lblank⟩⟩] .leaf))) 296088 [⟨⟨.code,[],.lblank,false,[],false⟩,false,false,[],none,none,none,false,false,false,none,false,⟨.lblank,none,false,.lblank⟩⟩] (.node (.node (.node .leaf 332955 [⟨⟨.code,[],.lblank,true,[],false⟩,false,false,[],none,none,none,false,false,false,none,false,⟨.lblank,none,false,.lblank⟩⟩] .leaf) 1179872 [⟨⟨(.inside 0),[],.lcode,false,[],false⟩,false,false,[none],none,none,none,false,false,false,none,false,⟨.lcode,none,false,.lblank⟩⟩] (.node .leaf 1327852 [⟨⟨(.inside 0),[],.lcomment,false,[],false⟩,false,false,[none],none,none,none,false,false,false,none,false,⟨.lcomment,none,false,.lblank⟩⟩] .leaf)) 13063335 [⟨⟨.code,[],.lcode,false,[(1,0),(2,0)],false⟩,false,false,[],none,none,none,false,false,false,none,false,⟨.lcode,none,false,.lblank⟩⟩] (.node (.node .leaf 14685483 [⟨⟨.code,[],.lcode,false,[(1,1),(2,1)],false⟩,false,false,[],none,none,none,false,false,false,none,false,⟨.lcode,none,false,.lblank⟩⟩] .leaf) 22179935 [⟨⟨(.inside 0),[],.lcode,false,[],false⟩,false,false,[some (10,(.lf,false))],none,none,none,false,false,false,none,false,⟨.lcode,none,false,.lblank⟩⟩] (.node .leaf 22327915 [⟨⟨(.inside 0),[],.lcomment,false,[],false⟩,false,false,[some (10,(.lf,false))],none,none,none,false,false,false,none,false,⟨.lcomment,none,false,.lblank⟩⟩] .leaf)))) 24246325 [⟨⟨.code,[],.lcode,false,[(2,0),(1,0)],false⟩,false,false,[],none,none,none,false,false,false,none,false,⟨.lcode,none,false,.lblank⟩⟩] (.node (.node (.node (.node .leaf 25868473 [⟨⟨.code,[],.lcode,false,[(2,1),(1,1)],false⟩,false,false,[],none,none,none,false,false,false,none,false,⟨.lcode,none,false,.lblank⟩⟩] .leaf) 26179947 [⟨⟨(.inside 0),[],.lcode,false,[],false⟩,false,false,[some (12,(.ff,false))],none,none,none,false,false,false,none,false,⟨.lcode,none,false,.lblank⟩⟩] (.node .leaf 26327927 [⟨⟨(.inside 0),[],.lcomment,false,[],false⟩,false,false,[some (12,(.ff,false))],none,none,none,false,false,false,none,false,⟨.lcomment,none,false,.lblank⟩⟩] .leaf)) 28179953 [⟨⟨(.inside 0),[],.lcode,false,[],false⟩,false,false,[some (13,(.cr,false))],none,none,none,false,false,false,none,false,⟨.lcode,none,false,.lblank⟩⟩] (.node (.node .leaf 28327933 [⟨⟨(.inside 0),[],.lcomment,false,[],false⟩,false,false,[some (13,(.cr,false))],none,none,none,false,false,false,none,false,⟨.lcomment,none,false,.lblank⟩⟩] .leaf) 29179956 [⟨⟨(.inside 0),[],.lcode,false,[],false⟩,false,false,[some (13,(.cr,true))],none,none,none,false,false,false,none,false,⟨.lcode,none,false,.lblank⟩⟩] (.node .leaf 29327936 [⟨⟨(.inside 0),[],.lcomment,false,[],false⟩,false,false,[some (13,(.cr,true))],none,none,none,false,false,false,none,false,⟨.lcomment,none,false,.lblank⟩⟩] .leaf))) 154644904 [⟨⟨(.inside 0),[],.lcode,false,[(1,0)],false⟩,false,false,[none],none,none,none,false,false,false,none,false,⟨.lcode,none,false,.lblank⟩⟩] (.node (.node (.node .leaf 154657193 [⟨⟨(.inside 0),[],.lcode,false,[(1,1)],false⟩,false,false,[none],none,none,none,false,false,false,none,false,⟨.lcode,none,false,.lblank⟩⟩] .leaf) 154730927 [⟨⟨(.inside 0),[],.lcode,false,[(2,0)],false⟩,false,false,[none],none,none,none,false,false,false,none,false,⟨.lcode,none,false,.lblank⟩⟩] (.node .leaf 154743216 [⟨⟨(.inside 0),[],.lcode,false,[(2,1)],false⟩,false,false,[none],none,none,none,false,false,false,none,false,⟨.lcode,none,false,.lblank⟩⟩] .leaf)) 175644967 [⟨⟨(.inside 0),[],.lcode,false,[(1,0)],false⟩,false,false,[some (10,(.lf,false))],none,none,none,false,false,false,none,false,⟨.lcode,none,false,.lblank⟩⟩] (.node (.node .leaf 175657256 [⟨⟨(.inside 0),[],.lcode,false,[(1,1)],false⟩,false,false,[some (10,(.lf,false))],none,none,none,false,false,false,none,false,⟨.lcode,none,false,.lblank⟩⟩] .leaf) 175730990 [⟨⟨(.inside 0),[],.lcode,false,[(2,0)],false⟩,false,false,[some (10,(.lf,false))],none,none,none,false,false,false,none,false,⟨.lcode,none,false,.lblank⟩⟩] (.node .leaf 175743279 [⟨⟨(.inside 0),[],.lcode,false,[(2,1)],false⟩,false,false,[some (10,(.lf,false))],none,none,none,false,false,false,none,false,⟨.lcode,none,false,.lblank⟩⟩] .leaf))))) 179644979 [⟨⟨(.inside 0),[],.lcode,false,[(1,0)],false⟩,false,false,[some (12,(.ff,false))],none,none,none,false,false,false,none,false,⟨.lcode,none,false,.lblank⟩⟩] (.node (.node (.node (.node (.node .leaf 179657268 [⟨⟨(.inside 0),[],.lcode,false,[(1,1)],false⟩,false,false,[some (12,(.ff,false))],none,none,none,false,false,false,none,false,⟨.lcode,none,false,.lblank⟩⟩] .leaf) 179731002 [⟨⟨(.inside 0),[],.lcode,false,[(2,0)],false⟩,false,false,[some (12,(.ff,false))],none,none,none,false,false,false,none,false,⟨.lcode,none,false,.lblank⟩⟩] (.node .leaf 179743291 [⟨⟨(.inside 0),[],.lcode,false,[(2,1)],false⟩,false,false,[some (12,(.ff,false))],none,none,none,false,false,false,none,false,⟨.lcode,none,false,.lblank⟩⟩] .leaf)) 181644985 [⟨⟨(.inside 0),[],.lcode,false,[(1,0)],false⟩,false,false,[some (13,(.cr,false))],none,none,none,false,false,false,none,false,⟨.lcode,none,false,.lblank⟩⟩] (.node (.node .leaf 181657274 [⟨⟨(.inside 0),[],.lcode,false,[(1,1)],false⟩,false,false,[some (13,(.cr,false))],none,none,none,false,false,false,none,false,⟨.lcode,none,false,.lblank⟩⟩] .leaf) 181731008 [⟨⟨(.inside 0),[],.lcode,false,[(2,0)],false⟩,false,false,[some (13,(.cr,false))],none,none,none,false,false,false,none,false,⟨.lcode,none,false,.lblank⟩⟩] (.node .leaf 181743297 [⟨⟨(.inside 0),[],.lcode,false,[(2,1)],false⟩,false,false,[some (13,(.cr,false))],none,none,none,false,false,false,none,false,⟨.lcode,none,false,.lblank⟩⟩] .leaf))) 182644988 [⟨⟨(.inside 0),[],.lcode,false,[(1,0)],false⟩,false,false,[some (13,(.cr,true))],none,none,none,false,false,false,none,false,⟨.lcode,none,false,.lblank⟩⟩] (.node (.node (.node .leaf 182657277 [⟨⟨(.inside 0),[],.lcode,false,[(1,1)],false⟩,false,false,[some (13,(.cr,true))],none,none,none,false,false,false,none,false,⟨.lcode,none,false,.lblank⟩⟩] .leaf) 182731011 [⟨⟨(.inside 0),[],.lcode,false,[(2,0)],false⟩,false,false,[some (13,(.cr,true))],none,none,none,false,false,false,none,false,⟨.lcode,none,false,.lblank⟩⟩] (.node .leaf 182743300 [⟨⟨(.inside 0),[],.lcode,false,[(2,1)],false⟩,false,false,[some (13,(.cr,true))],none,none,none,false,false,false,none,false,⟨.lcode,none,false,.lblank⟩⟩] .leaf)) 20258650119 [⟨⟨(.inside 0),[],.lcode,false,[(1,0),(2,0)],false⟩,false,false,[none],none,none,none,false,false,false,none,false,⟨.lcode,none,false,.lblank⟩⟩] (.node (.node .leaf 20260272267 [⟨⟨(.inside 0),[],.lcode,false,[(1,1),(2,1)],false⟩,false,false,[none],none,none,none,false,false,false,none,false,⟨.lcode,none,false,.lblank⟩⟩] .leaf) 20269833109 [⟨⟨(.inside 0),[],.lcode,false,[(2,0),(1,0)],false⟩,false,false,[none],none,none,none,false,false,false,none,false,⟨.lcode,none,false,.lblank⟩⟩] (.node .leaf 20271455257 [⟨⟨(.inside 0),[],.lcode,false,[(2,1),(1,1)],false⟩,false,false,[none],none,none,none,false,false,false,none,false,⟨.lcode,none,false,.lblank⟩⟩] .leaf)))) 20279650182 [⟨⟨(.inside 0),[],.lcode,false,[(1,0),(2,0)],false⟩,false,false,[some (10,(.lf,false))],none,none,none,false,false,false,none,false,⟨.lcode,none,false,.lblank⟩⟩] (.node (.node (.node (.node .leaf 20281272330 [⟨⟨(.inside 0),[],.lcode,false,[(1,1),(2,1)],false⟩,false,false,[some (10,(.lf,false))],none,none,none,false,false,false,none,false,⟨.lcode,none,false,.lblank⟩⟩] .leaf) 20283650194 [⟨⟨(.inside 0),[],.lcode,false,[(1,0),(2,0)],false⟩,false,false,[some (12,(.ff,false))],none,none,none,false,false,false,none,false,⟨.lcode,none,false,.lblank⟩⟩] (.node .leaf 20285272342 [⟨⟨(.inside 0),[],.lcode,false,[(1,1),(2,1)],false⟩,false,false,[some (12,(.ff,false))],none,none,none,false,false,false,none,false,⟨.lcode,none,false,.lblank⟩⟩] .leaf)) 20285650200 [⟨⟨(.inside 0),[],.lcode,false,[(1,0),(2,0)],false⟩,false,false,[some (13,(.cr,false))],none,none,none,false,false,false,none,false,⟨.lcode,none,false,.lblank⟩⟩] (.node (.node .leaf 20286650203 [⟨⟨(.inside 0),[],.lcode,false,[(1,0),(2,0)],false⟩,false,false,[some (13,(.cr,true))],none,none,none,false,false,false,none,false,⟨.lcode,none,false,.lblank⟩⟩] .leaf) 20287272348 [⟨⟨(.inside 0),[],.lcode,false,[(1,1),(2,1)],false⟩,false,false,[some (13,(.cr,false))],none,none,none,false,false,false,none,false,⟨.lcode,none,false,.lblank⟩⟩] (.node .leaf 20288272351 [⟨⟨(.inside 0),[],.lcode,false,[(1,1),(2,1)],false⟩,false,false,[some (13,(.cr,true))],none,none,none,false,false,false,none,false,⟨.lcode,none,false,.lblank⟩⟩] .leaf))) 20290833172 [⟨⟨(.inside 0),[],.lcode,false,[(2,0),(1,0)],false⟩,false,false,[some (10,(.lf,false))],none,none,none,false,false,false,none,false,⟨.lcode,none,false,.lblank⟩⟩] (.node (.node (.node .leaf 20292455320 [⟨⟨(.inside 0),[],.lcode,false,[(2,1),(1,1)],false⟩,false,false,[some (10,(.lf,false))],none,none,none,false,false,false,none,false,⟨.lcode,none,false,.lblank⟩⟩] .leaf) 20294833184 [⟨⟨(.inside 0),[],.lcode,false,[(2,0),(1,0)],false⟩,false,false,[some (12,(.ff,false))],none,none,none,false,false,false,none,false,⟨.lcode,none,false,.lblank⟩⟩] (.node .leaf 20296455332 [⟨⟨(.inside 0),[],.lcode,false,[(2,1),(1,1)],false⟩,false,false,[some (12,(.ff,false))],none,none,none,false,false,false,none,false,⟨.lcode,none,false,.lblank⟩⟩] .leaf)) 20296833190 [⟨⟨(.inside 0),[],.lcode,false,[(2,0),(1,0)],false⟩,false,false,[some (13,(.cr,false))],none,none,none,false,false,false,none,false,⟨.lcode,none,false,.lblank⟩⟩] (.node (.node .leaf 20297833193 [⟨⟨(.inside 0),[],.lcode,false,[(2,0),(1,0)],false⟩,false,false,[some (13,(.cr,true))],none,none,none,false,false,false,none,false,⟨.lcode,none,false,.lblank⟩⟩] .leaf) 20298455338 [⟨⟨(.inside 0),[],.lcode,false,[(2,1),(1,1)],false⟩,false,false,[some (13,(.cr,false))],none,none,none,false,false,false,none,false,⟨.lcode,none,false,.lblank⟩⟩] (.node .leaf 20299455341 [⟨⟨(.inside 0),[],.lcode,false,[(2,1),(1,1)],false⟩,false,false,[some (13,(.cr,true))],none,none,none,false,false,false,none,false,⟨.lcode,none,false,.lblank⟩⟩] .leaf)))))),(.node (.node (.node .leaf 128 [⟨⟨.code,[],.lcode,false,[],false⟩,false,false,[],none,none,none,false,false,false,none,false,⟨.lcode,some (.own 0),false,.lblank⟩⟩] .leaf) 98440 [⟨⟨.code,[],.lcode,false,[(1,0)],false⟩,false,false,[],none,none,none,false,false,false,none,false,⟨.lcode,some (.own 0),false,.lblank⟩⟩] (.node .leaf 184463 [⟨⟨.code,[],.lcode,false,[(2,0)],false⟩,false,false,[],none,none,none,false,false,false,none,false,⟨.lcode,some (.own 0),false,.lblank⟩⟩] .leaf)) 296088 [⟨⟨.code,[],.lblank,false,[],false⟩,false,false,[],none,none,none,false,false,false,none,false,⟨.lblank,some (.own 0),false,.lblank⟩⟩] (.node (.node .leaf 13063335 [⟨⟨.code,[],.lcode,false,[(1,0),(2,0)],false⟩,false,false,[],none,none,none,false,false,false,none,false,⟨.lcode,some (.own 0),false,.lblank⟩⟩] .leaf) 24246325 [⟨⟨.code,[],.lcode,false,[(2,0),(1,0)],false⟩,false,false,[],none,none,none,false,false,false,none,false,⟨.lcode,some (.own 0),false,.lblank⟩⟩] .leaf)),(.node (.node .leaf 160 [⟨⟨.code,[],.lcode,false,[],false⟩,true,false,[],none,none,none,false,false,false,none,false,⟨.lcode,some .newline,false,.lblank⟩⟩] .leaf) 148140 [⟨⟨.code,[],.lcomment,false,[],false⟩,true,false,[],none,none,none,false,false,false,none,false,⟨.lcomment,some .newline,false,.lblank⟩⟩] (.node .leaf 296120 [⟨⟨.code,[],.lblank,false,[],false⟩,true,false,[],none,none,none,false,false,false,none,false,⟨.lblank,some .newline,false,.lblank⟩⟩] .leaf)),(.node (.node .leaf 37011 [⟨⟨.code,[],.lcode,true,[],false⟩,false,true,[],none,none,none,false,false,false,none,false,⟨.lcode,some .newline,false,.lblank⟩⟩] .leaf) 184991 [⟨⟨.code,[],.lcomment,true,[],false⟩,false,true,[],none,none,none,false,false,false,none,false,⟨.lcomment,some .newline,false,.lblank⟩⟩] (.node .leaf 332971 [⟨⟨.code,[],.lblank,true,[],false⟩,false,true,[],none,none,none,false,false,false,none,false,⟨.lblank,some .newline,false,.lblank⟩⟩] .leaf)),(.node (.node (.node (.node .leaf 98440 [⟨⟨.code,[],.lcode,false,[(1,0)],false⟩,false,false,[],none,none,none,false,false,false,none,false,⟨.lcode,some (.own 3),false,.lblank⟩⟩] .leaf) 98444 [⟨⟨.code,[],.lcode,false,[(1,0)],false⟩,false,false,[],none,none,none,false,true,false,none,false,⟨.lcode,some (.own 3),false,.lblank⟩⟩] .leaf) 4129232 [⟨⟨(.inside 1),[],.lcode,false,[],false⟩,false,false,[],none,none,none,false,false,false,none,false,⟨.lcode,some (.own 3),false,.lblank⟩⟩] (.node (.node .leaf 13063335 [⟨⟨.code,[],.lcode,false,[(1,0),(2,0)],false⟩,false,false,[],none,none,none,false,false,false,none,false,⟨.lcode,some (.own 3),false,.lblank⟩⟩] .leaf) 13063339 [⟨⟨.code,[],.lcode,false,[(1,0),(2,0)],false⟩,false,false,[],none,none,none,false,true,false,none,false,⟨.lcode,some (.own 3),false,.lblank⟩⟩] .leaf)) 24246325 [⟨⟨.code,[],.lcode,false,[(2,0),(1,0)],false⟩,false,false,[],none,none,none,false,false,false,none,false,⟨.lcode,some (.own 3),false,.lblank⟩⟩] (.node (.node (.node .leaf 541011064 [⟨⟨(.inside 1),[],.lcode,false,[(1,0)],false⟩,false,false,[],none,none,none,false,false,false,none,false,⟨.lcode,some (.own 3),false,.lblank⟩⟩] .leaf) 541097087 [⟨⟨(.inside 1),[],.lcode,false,[(2,0)],false⟩,false,false,[],none,none,none,false,false,false,none,false,⟨.lcode,some (.own 3),false,.lblank⟩⟩] .leaf) 70872617079 [⟨⟨(.inside 1),[],.lcode,false,[(1,0),(2,0)],false⟩,false,false,[],none,none,none,false,false,false,none,false,⟨.lcode,some (.own 3),false,.lblank⟩⟩] (.node .leaf 70883800069 [⟨⟨(.inside 1),[],.lcode,false,[(2,0),(1,0)],false⟩,false,false,[],none,none,none,false,false,false,none,false,⟨.lcode,some (.own 3),false,.lblank⟩⟩] .leaf))),(.node (.node (.node .leaf 1179872 [⟨⟨(.inside 0),[],.lcode,false,[],false⟩,false,false,[],none,none,none,false,false,false,none,false,⟨.lcode,some (.own 3),false,.lblank⟩⟩] .leaf) 1327852 [⟨⟨(.inside 0),[],.lcomment,false,[],false⟩,false,false,[],none,none,none,false,false,false,none,false,⟨.lcomment,some (.own 3),false,.lblank⟩⟩] (.node .leaf 154644904 [⟨⟨(.inside 0),[],.lcode,false,[(1,0)],false⟩,false,false,[],none,none,none,false,false,false,none,false,⟨.lcode,some (.own 3),false,.lblank⟩⟩] .leaf)) 154730927 [⟨⟨(.inside 0),[],.lcode,false,[(2,0)],false⟩,false,false,[],none,none,none,false,false,false,none,false,⟨.lcode,some (.own 3),false,.lblank⟩⟩] (.node (.node .leaf 20258650119 [⟨⟨(.inside 0),[],.lcode,false,[(1,0),(2,0)],false⟩,false,false,[],none,none,none,false,false,false,none,false,⟨.lcode,some (.own 3),false,.lblank⟩⟩] .leaf) 20269833109 [⟨⟨(.inside 0),[],.lcode,false,[(2,0),(1,0)],false⟩,false,false,[],none,none,none,false,false,false,none,false,⟨.lcode,some (.own 3),false,.lblank⟩⟩] .leaf)),(.node (.node (.node (.node .leaf 184463 [⟨⟨.code,[],.lcode,false,[(2,0)],false⟩,false,false,[],none,none,none,false,false,false,none,false,⟨.lcode,some (.own 3),false,.lblank⟩⟩] .leaf) 184467 [⟨⟨.code,[],.lcode,false,[(2,0)],false⟩,false,false,[],none,none,none,false,true,false,none,false,⟨.lcode,some (.own 3),false,.lblank⟩⟩] .leaf) 7078592 [⟨⟨(.inside 2),[],.lcode,false,[],false⟩,false,false,[],none,none,none,false,false,false,none,false,⟨.lcode,some (.own 3),false,.lblank⟩⟩] (.node (.node .leaf 13063335 [⟨⟨.code,[],.lcode,false,[(1,0),(2,0)],false⟩,false,false,[],none,none,none,false,false,false,none,false,⟨.lcode,some (.own 3),false,.lblank⟩⟩] .leaf) 24246325 [⟨⟨.code,[],.lcode,false,[(2,0),(1,0)],false⟩,false,false,[],none,none,none,false,false,false,none,false,⟨.lcode,some (.own 3),false,.lblank⟩⟩] .leaf)) 24246329 [⟨⟨.code,[],.lcode,false,[(2,0),(1,0)],false⟩,false,false,[],none,none,none,false,true,false,none,false,⟨.lcode,some (.own 3),false,.lblank⟩⟩] (.node (.node (.node .leaf 927377224 [⟨⟨(.inside 2),[],.lcode,false,[(1,0)],false⟩,false,false,[],none,none,none,false,false,false,none,false,⟨.lcode,some (.own 3),false,.lblank⟩⟩] .leaf) 927463247 [⟨⟨(.inside 2),[],.lcode,false,[(2,0)],false⟩,false,false,[],none,none,none,false,false,false,none,false,⟨.lcode,some (.own 3),false,.lblank⟩⟩] .leaf) 121486584039 [⟨⟨(.inside 2),[],.lcode,false,[(1,0),(2,0)],false⟩,false,false,[],none,none,none,false,false,false,none,false,⟨.lcode,some (.own 3),false,.lblank⟩⟩] (.node .leaf 121497767029 [⟨⟨(.inside 2),[],.lcode,false,[(2,0),(1,0)],false⟩,false,false,[],none,none,none,false,false,false,none,false,⟨.lcode,some (.own 3),false,.lblank⟩⟩] .leaf))),(.node (.node (.node (.node (.node .leaf 105077 [⟨⟨.code,[],.lcode,false,[(1,0)],false⟩,false,false,[],some 4,some ⟨.code,[],.lcode,false,[(1,0)],false⟩,none,false,false,false,none,false,⟨.lcode,some (.own 3),false,.lblank⟩⟩] .leaf) 4388101 [⟨⟨(.inside 1),[],.lcode,false,[],false⟩,false,false,[],some 4,some ⟨(.inside 1),[],.lcode,false,[],false⟩,none,false,false,false,none,false,⟨.lcode,some (.own 3),false,.lblank⟩⟩] (.node .leaf 13881267 [⟨⟨.code,[],.lcode,false,[(1,0),(2,0)],false⟩,false,false,[],some 4,some ⟨.code,[],.lcode,false,[(1,0),(2,0)],false⟩,none,false,false,false,none,false,⟨.lcode,some (.own 3),false,.lblank⟩⟩] .leaf)) 24252962 [⟨⟨.code,[],.lcode,false,[(2,0),(1,0)],false⟩,false,false,[],some 4,some ⟨.code,[],.lcode,false,[(1,0)],false⟩,none,false,false,false,none,false,⟨.lcode,some (.own 3),false,.lblank⟩⟩] (.node (.node .leaf 25764047 [⟨⟨.code,[],.lcode,false,[(2,0),(1,0)],false⟩,false,false,[],some 4,some ⟨.code,[],.lcode,false,[(2,0),(1,0)],false⟩,none,false,false,false,none,false,⟨.lcode,some (.own 3),false,.lblank⟩⟩] .leaf) 48400851 [⟨⟨.code,[],.lblank,false,[(1,0)],true⟩,false,false,[],some 4,some ⟨.code,[],.lcode,false,[(1,0)],false⟩,none,false,true,false,none,false,⟨.lcode,some (.own 3),false,.lblank⟩⟩] .leaf)) 154651541 [⟨⟨(.inside 0),[],.lcode,false,[(1,0)],false⟩,false,false,[],some 4,some ⟨.code,[],.lcode,false,[(1,0)],false⟩,none,false,false,false,none,false,⟨.lcode,some (.own 3),false,.lblank⟩⟩] (.node (.node (.node .leaf 541017701 [⟨⟨(.inside 1),[],.lcode,false,[(1,0)],false⟩,false,false,[],some 4,some ⟨.code,[],.lcode,false,[(1,0)],false⟩,none,false,false,false,none,false,⟨.lcode,some (.own 3),false,.lblank⟩⟩] .leaf) 574866005 [⟨⟨(.inside 1),[],.lcode,false,[(1,0)],false⟩,false,false,[],some 4,some ⟨(.inside 1),[],.lcode,false,[(1,0)],false⟩,none,false,false,false,none,false,⟨.lcode,some (.own 3),false,.lblank⟩⟩] .leaf) 574957411 [⟨⟨(.inside 1),[],.lcode,false,[(2,0)],false⟩,false,false,[],some 4,some ⟨(.inside 1),[],.lcode,false,[(2,0)],false⟩,none,false,false,false,none,false,⟨.lcode,some (.own 3),false,.lblank⟩⟩] (.node (.node .leaf 927383861 [⟨⟨(.inside 2),[],.lcode,false,[(1,0)],false⟩,false,false,[],some 4,some ⟨.code,[],.lcode,false,[(1,0)],false⟩,none,false,false,false,none,false,⟨.lcode,some (.own 3),false,.lblank⟩⟩] .leaf) 6340627141 [⟨⟨.code,[],.lblank,false,[(1,0),(2,0)],true⟩,false,false,[],some 4,some ⟨.code,[],.lcode,false,[(1,0),(2,0)],false⟩,none,false,true,false,none,false,⟨.lcode,some (.own 3),false,.lblank⟩⟩] .leaf))) 6350998836 [⟨⟨.code,[],.lblank,false,[(2,0),(1,0)],true⟩,false,false,[],some 4,some ⟨.code,[],.lcode,false,[(1,0)],false⟩,none,false,true,false,none,false,⟨.lcode,some (.own 3),false,.lblank⟩⟩] (.node (.node (.node (.node .leaf 20259468051 [⟨⟨(.inside 0),[],.lcode,false,[(1,0),(2,0)],false⟩,false,false,[],some 4,some ⟨.code,[],.lcode,false,[(1,0),(2,0)],false⟩,none,false,false,false,none,false,⟨.lcode,some (.own 3),false,.lblank⟩⟩] .leaf) 20269839746 [⟨⟨(.inside 0),[],.lcode,false,[(2,0),(1,0)],false⟩,false,false,[],some 4,some ⟨.code,[],.lcode,false,[(1,0)],false⟩,none,false,false,false,none,false,⟨.lcode,some (.own 3),false,.lblank⟩⟩] .leaf) 20271350831 [⟨⟨(.inside 0),[],.lcode,false,[(2,0),(1,0)],false⟩,false,false,[],some 4,some ⟨.code,[],.lcode,false,[(2,0),(1,0)],false⟩,none,false,false,false,none,false,⟨.lcode,some (.own 3),false,.lblank⟩⟩] (.node (.node .leaf 70873435011 [⟨⟨(.inside 1),[],.lcode,false,[(1,0),(2,0)],false⟩,false,false,[],some 4,some ⟨.code,[],.lcode,false,[(1,0),(2,0)],false⟩,none,false,false,false,none,false,⟨.lcode,some (.own 3),false,.lblank⟩⟩] .leaf) 70883806706 [⟨⟨(.inside 1),[],.lcode,false,[(2,0),(1,0)],false⟩,false,false,[],some 4,some ⟨.code,[],.lcode,false,[(1,0)],false⟩,none,false,false,false,none,false,⟨.lcode,some (.own 3),false,.lblank⟩⟩] .leaf)) 70885317791 [⟨⟨(.inside 1),[],.lcode,false,[(2,0),(1,0)],false⟩,false,false,[],some 4,some ⟨.code,[],.lcode,false,[(2,0),(1,0)],false⟩,none,false,false,false,none,false,⟨.lcode,some (.own 3),false,.lblank⟩⟩] (.node (.node (.node .leaf 75307562835 [⟨⟨(.inside 1),[],.lcode,false,[(1,0),(2,0)],false⟩,false,false,[],some 4,some ⟨(.inside 1),[],.lcode,false,[(1,0),(2,0)],false⟩,none,false,false,false,none,false,⟨.lcode,some (.own 3),false,.lblank⟩⟩] .leaf) 75319445615 [⟨⟨(.inside 1),[],.lcode,false,[(2,0),(1,0)],false⟩,false,false,[],some 4,some ⟨(.inside 1),[],.lcode,false,[(2,0),(1,0)],false⟩,none,false,false,false,none,false,⟨.lcode,some (.own 3),false,.lblank⟩⟩] .leaf) 121487401971 [⟨⟨(.inside 2),[],.lcode,false,[(1,0),(2,0)],false⟩,false,false,[],some 4,some ⟨.code,[],.lcode,false,[(1,0),(2,0)],false⟩,none,false,false,false,none,false,⟨.lcode,some (.own 3),false,.lblank⟩⟩] (.node (.node .leaf 121497773666 [⟨⟨(.inside 2),[],.lcode,false,[(2,0),(1,0)],false⟩,false,false,[],some 4,some ⟨.code,[],.lcode,false,[(1,0)],false⟩,none,false,false,false,none,false,⟨.lcode,some (.own 3),false,.lblank⟩⟩] .leaf) 121499284751 [⟨⟨(.inside 2),[],.lcode,false,[(2,0),(1,0)],false⟩,false,false,[],some 4,some ⟨.code,[],.lcode,false,[(2,0),(1,0)],false⟩,none,false,false,false,none,false,⟨.lcode,some (.own 3),false,.lblank⟩⟩] .leaf)))),(.node (.node (.node (.node (.node .leaf 117366 [⟨⟨.code,[],.lcode,false,[(1,1)],false⟩,false,false,[],some 4,some ⟨.code,[],.lcode,false,[(1,0)],false⟩,none,false,false,false,none,false,⟨.lcode,some (.own 3),false,.lblank⟩⟩] .leaf) 15503415 [⟨⟨.code,[],.lcode,false,[(1,1),(2,1)],false⟩,false,false,[],some 4,some ⟨.code,[],.lcode,false,[(1,0),(2,0)],false⟩,none,false,false,false,none,false,⟨.lcode,some (.own 3),false,.lblank⟩⟩] (.node .leaf 25875110 [⟨⟨.code,[],.lcode,false,[(2,1),(1,1)],false⟩,false,false,[],some 4,some ⟨.code,[],.lcode,false,[(1,0)],false⟩,none,false,false,false,none,false,⟨.lcode,some (.own 3),false,.lblank⟩⟩] .leaf)) 27386195 [⟨⟨.code,[],.lcode,false,[(2,1),(1,1)],false⟩,false,false,[],some 4,some ⟨.code,[],.lcode,false,[(2,0),(1,0)],false⟩,none,false,false,false,none,false,⟨.lcode,some (.own 3),false,.lblank⟩⟩] (.node (.node .leaf 48413140 [⟨⟨.code,[],.lblank,false,[(1,1)],true⟩,false,false,[],some 4,some ⟨.code,[],.lcode,false,[(1,0)],false⟩,none,false,true,false,none,false,⟨.lcode,some (.own 3),false,.lblank⟩⟩] .leaf) 154663830 [⟨⟨(.inside 0),[],.lcode,false,[(1,1)],false⟩,false,false,[],some 4,some ⟨.code,[],.lcode,false,[(1,0)],false⟩,none,false,false,false,none,false,⟨.lcode,some (.own 3),false,.lblank⟩⟩] .leaf)) 544600252 [⟨⟨(.inside 1),[92],.lcode,false,[],false⟩,false,false,[],some 4,some ⟨(.inside 1),[],.lcode,false,[],false⟩,none,false,false,false,none,false,⟨.lcode,some (.own 3),false,.lblank⟩⟩] (.node (.node (.node .leaf 6342249289 [⟨⟨.code,[],.lblank,false,[(1,1),(2,1)],true⟩,false,false,[],some 4,some ⟨.code,[],.lcode,false,[(1,0),(2,0)],false⟩,none,false,true,false,none,false,⟨.lcode,some (.own 3),false,.lblank⟩⟩] .leaf) 6352620984 [⟨⟨.code,[],.lblank,false,[(2,1),(1,1)],true⟩,false,false,[],some 4,some ⟨.code,[],.lcode,false,[(1,0)],false⟩,none,false,true,false,none,false,⟨.lcode,some (.own 3),false,.lblank⟩⟩] .leaf) 20261090199 [⟨⟨(.inside 0),[],.lcode,false,[(1,1),(2,1)],false⟩,false,false,[],some 4,some ⟨.code,[],.lcode,false,[(1,0),(2,0)],false⟩,none,false,false,false,none,false,⟨.lcode,some (.own 3),false,.lblank⟩⟩] (.node (.node .leaf 20271461894 [⟨⟨(.inside 0),[],.lcode,false,[(2,1),(1,1)],false⟩,false,false,[],some 4,some ⟨.code,[],.lcode,false,[(1,0)],false⟩,none,false,false,false,none,false,⟨.lcode,some (.own 3),false,.lblank⟩⟩] .leaf) 20272972979 [⟨⟨(.inside 0),[],.lcode,false,[(2,1),(1,1)],false⟩,false,false,[],some 4,some ⟨.code,[],.lcode,false,[(2,0),(1,0)],false⟩,none,false,false,false,none,false,⟨.lcode,some (.own 3),false,.lblank⟩⟩] .leaf))) 71308809482 [⟨⟨(.inside 1),[92],.lcode,false,[(1,0)],false⟩,false,false,[],some 4,some ⟨.code,[],.lcode,false,[(1,0)],false⟩,none,false,false,false,none,false,⟨.lcode,some (.own 3),false,.lblank⟩⟩] (.node (.node (.node (.node .leaf 71342657786 [⟨⟨(.inside 1),[92],.lcode,false,[(1,0)],false⟩,false,false,[],some 4,some ⟨(.inside 1),[],.lcode,false,[(1,0)],false⟩,none,false,false,false,none,false,⟨.lcode,some (.own 3),false,.lblank⟩⟩] .leaf) 71342749192 [⟨⟨(.inside 1),[92],.lcode,false,[(2,0)],false⟩,false,false,[],some 4,some ⟨(.inside 1),[],.lcode,false,[(2,0)],false⟩,none,false,false,false,none,false,⟨.lcode,some (.own 3),false,.lblank⟩⟩] .leaf) 121922776442 [⟨⟨(.inside 2),[92],.lcode,false,[(1,0)],false⟩,false,false,[],some 4,some ⟨.code,[],.lcode,false,[(1,0)],false⟩,none,false,false,false,none,false,⟨.lcode,some (.own 3),false,.lblank⟩⟩] (.node (.node .leaf 9341454158322 [⟨⟨(.inside 1),[92],.lcode,false,[(1,0),(2,0)],false⟩,false,false,[],some 4,some ⟨.code,[],.lcode,false,[(1,0),(2,0)],false⟩,none,false,false,false,none,false,⟨.lcode,some (.own 3),false,.lblank⟩⟩] .leaf) 9341464530017 [⟨⟨(.inside 1),[92],.lcode,false,[(2,0),(1,0)],false⟩,false,false,[],some 4,some ⟨.code,[],.lcode,false,[(1,0)],false⟩,none,false,false,false,none,false,⟨.lcode,some (.own 3),false,.lblank⟩⟩] .leaf)) 9341466041102 [⟨⟨(.inside 1),[92],.lcode,false,[(2,0),(1,0)],false⟩,false,false,[],some 4,some ⟨.code,[],.lcode,false,[(2,0),(1,0)],false⟩,none,false,false,false,none,false,⟨.lcode,some (.own 3),false,.lblank⟩⟩] (.node (.node (.node .leaf 9345888286146 [⟨⟨(.inside 1),[92],.lcode,false,[(1,0),(2,0)],false⟩,false,false,[],some 4,some ⟨(.inside 1),[],.lcode,false,[(1,0),(2,0)],false⟩,none,false,false,false,none,false,⟨.lcode,some (.own 3),false,.lblank⟩⟩] .leaf) 9345900168926 [⟨⟨(.inside 1),[92],.lcode,false,[(2,0),(1,0)],false⟩,false,false,[],some 4,some ⟨(.inside 1),[],.lcode,false,[(2,0),(1,0)],false⟩,none,false,false,false,none,false,⟨.lcode,some (.own 3),false,.lblank⟩⟩] .leaf) 15971883830082 [⟨⟨(.inside 2),[92],.lcode,false,[(1,0),(2,0)],false⟩,false,false,[],some 4,some ⟨.code,[],.lcode,false,[(1,0),(2,0)],false⟩,none,false,false,false,none,false,⟨.lcode,some (.own 3),false,.lblank⟩⟩] (.node (.node .leaf 15971894201777 [⟨⟨(.inside 2),[92],.lcode,false,[(2,0),(1,0)],false⟩,false,false,[],some 4,some ⟨.code,[],.lcode,false,[(1,0)],false⟩,none,false,false,false,none,false,⟨.lcode,some (.own 3),false,.lblank⟩⟩] .leaf) 15971895712862 [⟨⟨(.inside 2),[92],.lcode,false,[(2,0),(1,0)],false⟩,false,false,[],some 4,some ⟨.code,[],.lcode,false,[(2,0),(1,0)],false⟩,none,false,false,false,none,false,⟨.lcode,some (.own 3),false,.lblank⟩⟩] .leaf)))),(.node (.node (.node (.node .leaf 1179872 [⟨⟨(.inside 0),[],.lcode,false,[],false⟩,false,false,[],none,none,none,false,false,false,none,false,⟨.lcode,some (.own 3),false,.lblank⟩⟩] .leaf) 1327852 [⟨⟨(.inside 0),[],.lcomment,false,[],false⟩,false,false,[],none,none,none,false,false,false,none,false,⟨.lcomment,some (.own 3),false,.lblank⟩⟩] .leaf) 154644904 [⟨⟨(.inside 0),[],.lcode,false,[(1,0)],false⟩,false,false,[],none,none,none,false,false,false,none,false,⟨.lcode,some (.own 3),false,.lblank⟩⟩] (.node (.node .leaf 154657193 [⟨⟨(.inside 0),[],.lcode,false,[(1,1)],false⟩,false,false,[],none,none,none,false,false,false,none,false,⟨.lcode,some (.own 3),false,.lblank⟩⟩] .leaf) 154730927 [⟨⟨(.inside 0),[],.lcode,false,[(2,0)],false⟩,false,false,[],none,none,none,false,false,false,none,false,⟨.lcode,some (.own 3),false,.lblank⟩⟩] .leaf)) 154743216 [⟨⟨(.inside 0),[],.lcode,false,[(2,1)],false⟩,false,false,[],none,none,none,false,false,false,none,false,⟨.lcode,some (.own 3),false,.lblank⟩⟩] (.node (.node (.node .leaf 20258650119 [⟨⟨(.inside 0),[],.lcode,false,[(1,0),(2,0)],false⟩,false,false,[],none,none,none,false,false,false,none,false,⟨.lcode,some (.own 3),false,.lblank⟩⟩] .leaf) 20260272267 [⟨⟨(.inside 0),[],.lcode,false,[(1,1),(2,1)],false⟩,false,false,[],none,none,none,false,false,false,none,false,⟨.lcode,some (.own 3),false,.lblank⟩⟩] .leaf) 20269833109 [⟨⟨(.inside 0),[],.lcode,false,[(2,0),(1,0)],false⟩,false,false,[],none,none,none,false,false,false,none,false,⟨.lcode,some (.own 3),false,.lblank⟩⟩] (.node .leaf 20271455257 [⟨⟨(.inside 0),[],.lcode,false,[(2,1),(1,1)],false⟩,false,false,[],none,none,none,false,false,false,none,false,⟨.lcode,some (.own 3),false,.lblank⟩⟩] .leaf))),(.node (.node (.node (.node (.node .leaf 196483 [⟨⟨.code,[],.lcode,false,[(2,0)],false⟩,false,false,[],some 4,some ⟨.code,[],.lcode,false,[(2,0)],false⟩,none,false,false,false,none,false,⟨.lcode,some (.own 3),false,.lblank⟩⟩] .leaf) 7522021 [⟨⟨(.inside 2),[],.lcode,false,[],false⟩,false,false,[],some 4,some ⟨(.inside 2),[],.lcode,false,[],false⟩,none,false,false,false,none,false,⟨.lcode,some (.own 3),false,.lblank⟩⟩] (.node .leaf 13075355 [⟨⟨.code,[],.lcode,false,[(1,0),(2,0)],false⟩,false,false,[],some 4,some ⟨.code,[],.lcode,false,[(2,0)],false⟩,none,false,false,false,none,false,⟨.lcode,some (.own 3),false,.lblank⟩⟩] .leaf)) 13881267 [⟨⟨.code,[],.lcode,false,[(1,0),(2,0)],false⟩,false,false,[],some 4,some ⟨.code,[],.lcode,false,[(1,0),(2,0)],false⟩,none,false,false,false,none,false,⟨.lcode,some (.own 3),false,.lblank⟩⟩] (.node (.node .leaf 25764047 [⟨⟨.code,[],.lcode,false,[(2,0),(1,0)],false⟩,false,false,[],some 4,some ⟨.code,[],.lcode,false,[(2,0),(1,0)],false⟩,none,false,false,false,none,false,⟨.lcode,some (.own 3),false,.lblank⟩⟩] .leaf) 48492257 [⟨⟨.code,[],.lblank,false,[(2,0)],true⟩,false,false,[],some 4,some ⟨.code,[],.lcode,false,[(2,0)],false⟩,none,false,true,false,none,false,⟨.lcode,some (.own 3),false,.lblank⟩⟩] .leaf)) 154742947 [⟨⟨(.inside 0),[],.lcode,false,[(2,0)],false⟩,false,false,[],some 4,some ⟨.code,[],.lcode,false,[(2,0)],false⟩,none,false,false,false,none,false,⟨.lcode,some (.own 3),false,.lblank⟩⟩] (.node (.node (.node .leaf 541109107 [⟨⟨(.inside 1),[],.lcode,false,[(2,0)],false⟩,false,false,[],some 4,some ⟨.code,[],.lcode,false,[(2,0)],false⟩,none,false,false,false,none,false,⟨.lcode,some (.own 3),false,.lblank⟩⟩] .leaf) 927475267 [⟨⟨(.inside 2),[],.lcode,false,[(2,0)],false⟩,false,false,[],some 4,some ⟨.code,[],.lcode,false,[(2,0)],false⟩,none,false,false,false,none,false,⟨.lcode,some (.own 3),false,.lblank⟩⟩] .leaf) 985409525 [⟨⟨(.inside 2),[],.lcode,false,[(1,0)],false⟩,false,false,[],some 4,some ⟨(.inside 2),[],.lcode,false,[(1,0)],false⟩,none,false,false,false,none,false,⟨.lcode,some (.own 3),false,.lblank⟩⟩] (.node (.node .leaf 985500931 [⟨⟨(.inside 2),[],.lcode,false,[(2,0)],false⟩,false,false,[],some 4,some ⟨(.inside 2),[],.lcode,false,[(2,0)],false⟩,none,false,false,false,none,false,⟨.lcode,some (.own 3),false,.lblank⟩⟩] .leaf) 6339821229 [⟨⟨.code,[],.lblank,false,[(1,0),(2,0)],true⟩,false,false,[],some 4,some ⟨.code,[],.lcode,false,[(2,0)],false⟩,none,false,true,false,none,false,⟨.lcode,some (.own 3),false,.lblank⟩⟩] .leaf))) 6352509921 [⟨⟨.code,[],.lblank,false,[(2,0),(1,0)],true⟩,false,false,[],some 4,some ⟨.code,[],.lcode,false,[(2,0),(1,0)],false⟩,none,false,true,false,none,false,⟨.lcode,some (.own 3),false,.lblank⟩⟩] (.node (.node (.node (.node .leaf 20258662139 [⟨⟨(.inside 0),[],.lcode,false,[(1,0),(2,0)],false⟩,false,false,[],some 4,some ⟨.code,[],.lcode,false,[(2,0)],false⟩,none,false,false,false,none,false,⟨.lcode,some (.own 3),false,.lblank⟩⟩] .leaf) 20259468051 [⟨⟨(.inside 0),[],.lcode,false,[(1,0),(2,0)],false⟩,false,false,[],some 4,some ⟨.code,[],.lcode,false,[(1,0),(2,0)],false⟩,none,false,false,false,none,false,⟨.lcode,some (.own 3),false,.lblank⟩⟩] .leaf) 20271350831 [⟨⟨(.inside 0),[],.lcode,false,[(2,0),(1,0)],false⟩,false,false,[],some 4,some ⟨.code,[],.lcode,false,[(2,0),(1,0)],false⟩,none,false,false,false,none,false,⟨.lcode,some (.own 3),false,.lblank⟩⟩] (.node (.node .leaf 70872629099 [⟨⟨(.inside 1),[],.lcode,false,[(1,0),(2,0)],false⟩,false,false,[],some 4,some ⟨.code,[],.lcode,false,[(2,0)],false⟩,none,false,false,false,none,false,⟨.lcode,some (.own 3),false,.lblank⟩⟩] .leaf) 70873435011 [⟨⟨(.inside 1),[],.lcode,false,[(1,0),(2,0)],false⟩,false,false,[],some 4,some ⟨.code,[],.lcode,false,[(1,0),(2,0)],false⟩,none,false,false,false,none,false,⟨.lcode,some (.own 3),false,.lblank⟩⟩] .leaf)) 70885317791 [⟨⟨(.inside 1),[],.lcode,false,[(2,0),(1,0)],false⟩,false,false,[],some 4,some ⟨.code,[],.lcode,false,[(2,0),(1,0)],false⟩,none,false,false,false,none,false,⟨.lcode,some (.own 3),false,.lblank⟩⟩] (.node (.node (.node .leaf 121486596059 [⟨⟨(.inside 2),[],.lcode,false,[(1,0),(2,0)],false⟩,false,false,[],some 4,some ⟨.code,[],.lcode,false,[(2,0)],false⟩,none,false,false,false,none,false,⟨.lcode,some (.own 3),false,.lblank⟩⟩] .leaf) 121487401971 [⟨⟨(.inside 2),[],.lcode,false,[(1,0),(2,0)],false⟩,false,false,[],some 4,some ⟨.code,[],.lcode,false,[(1,0),(2,0)],false⟩,none,false,false,false,none,false,⟨.lcode,some (.own 3),false,.lblank⟩⟩] .leaf) 121499284751 [⟨⟨(.inside 2),[],.lcode,false,[(2,0),(1,0)],false⟩,false,false,[],some 4,some ⟨.code,[],.lcode,false,[(2,0),(1,0)],false⟩,none,false,false,false,none,false,⟨.lcode,some (.own 3),false,.lblank⟩⟩] (.node (.node .leaf 129088763955 [⟨⟨(.inside 2),[],.lcode,false,[(1,0),(2,0)],false⟩,false,false,[],some 4,some ⟨(.inside 2),[],.lcode,false,[(1,0),(2,0)],false⟩,none,false,false,false,none,false,⟨.lcode,some (.own 3),false,.lblank⟩⟩] .leaf) 129100646735 [⟨⟨(.inside 2),[],.lcode,false,[(2,0),(1,0)],false⟩,false,false,[],some 4,some ⟨(.inside 2),[],.lcode,false,[(2,0),(1,0)],false⟩,none,false,false,false,none,false,⟨.lcode,some (.own 3),false,.lblank⟩⟩] .leaf)))),(.node (.node (.node (.node (.node .leaf 208772 [⟨⟨.code,[],.lcode,false,[(2,1)],false⟩,false,false,[],some 4,some ⟨.code,[],.lcode,false,[(2,0)],false⟩,none,false,false,false,none,false,⟨.lcode,some (.own 3),false,.lblank⟩⟩] .leaf) 14697503 [⟨⟨.code,[],.lcode,false,[(1,1),(2,1)],false⟩,false,false,[],some 4,some ⟨.code,[],.lcode,false,[(2,0)],false⟩,none,false,false,false,none,false,⟨.lcode,some (.own 3),false,.lblank⟩⟩] (.node .leaf 15503415 [⟨⟨.code,[],.lcode,false,[(1,1),(2,1)],false⟩,false,false,[],some 4,some ⟨.code,[],.lcode,false,[(1,0),(2,0)],false⟩,none,false,false,false,none,false,⟨.lcode,some (.own 3),false,.lblank⟩⟩] .leaf)) 27386195 [⟨⟨.code,[],.lcode,false,[(2,1),(1,1)],false⟩,false,false,[],some 4,some ⟨.code,[],.lcode,false,[(2,0),(1,0)],false⟩,none,false,false,false,none,false,⟨.lcode,some (.own 3),false,.lblank⟩⟩] (.node (.node .leaf 48504546 [⟨⟨.code,[],.lblank,false,[(2,1)],true⟩,false,false,[],some 4,some ⟨.code,[],.lcode,false,[(2,0)],false⟩,none,false,true,false,none,false,⟨.lcode,some (.own 3),false,.lblank⟩⟩] .leaf) 154755236 [⟨⟨(.inside 0),[],.lcode,false,[(2,1)],false⟩,false,false,[],some 4,some ⟨.code,[],.lcode,false,[(2,0)],false⟩,none,false,false,false,none,false,⟨.lcode,some (.own 3),false,.lblank⟩⟩] .leaf)) 931150972 [⟨⟨(.inside 2),[92],.lcode,false,[],false⟩,false,false,[],some 4,some ⟨(.inside 2),[],.lcode,false,[],false⟩,none,false,false,false,none,false,⟨.lcode,some (.own 3),false,.lblank⟩⟩] (.node (.node (.node .leaf 6341443377 [⟨⟨.code,[],.lblank,false,[(1,1),(2,1)],true⟩,false,false,[],some 4,some ⟨.code,[],.lcode,false,[(2,0)],false⟩,none,false,true,false,none,false,⟨.lcode,some (.own 3),false,.lblank⟩⟩] .leaf) 6354132069 [⟨⟨.code,[],.lblank,false,[(2,1),(1,1)],true⟩,false,false,[],some 4,some ⟨.code,[],.lcode,false,[(2,0),(1,0)],false⟩,none,false,true,false,none,false,⟨.lcode,some (.own 3),false,.lblank⟩⟩] .leaf) 20260284287 [⟨⟨(.inside 0),[],.lcode,false,[(1,1),(2,1)],false⟩,false,false,[],some 4,some ⟨.code,[],.lcode,false,[(2,0)],false⟩,none,false,false,false,none,false,⟨.lcode,some (.own 3),false,.lblank⟩⟩] (.node (.node .leaf 20261090199 [⟨⟨(.inside 0),[],.lcode,false,[(1,1),(2,1)],false⟩,false,false,[],some 4,some ⟨.code,[],.lcode,false,[(1,0),(2,0)],false⟩,none,false,false,false,none,false,⟨.lcode,some (.own 3),false,.lblank⟩⟩] .leaf) 20272972979 [⟨⟨(.inside 0),[],.lcode,false,[(2,1),(1,1)],false⟩,false,false,[],some 4,some ⟨.code,[],.lcode,false,[(2,0),(1,0)],false⟩,none,false,false,false,none,false,⟨.lcode,some (.own 3),false,.lblank⟩⟩] .leaf))) 71308900888 [⟨⟨(.inside 1),[92],.lcode,false,[(2,0)],false⟩,false,false,[],some 4,some ⟨.code,[],.lcode,false,[(2,0)],false⟩,none,false,false,false,none,false,⟨.lcode,some (.own 3),false,.lblank⟩⟩] (.node (.node (.node (.node .leaf 121922867848 [⟨⟨(.inside 2),[92],.lcode,false,[(2,0)],false⟩,false,false,[],some 4,some ⟨.code,[],.lcode,false,[(2,0)],false⟩,none,false,false,false,none,false,⟨.lcode,some (.own 3),false,.lblank⟩⟩] .leaf) 121980802106 [⟨⟨(.inside 2),[92],.lcode,false,[(1,0)],false⟩,false,false,[],some 4,some ⟨(.inside 2),[],.lcode,false,[(1,0)],false⟩,none,false,false,false,none,false,⟨.lcode,some (.own 3),false,.lblank⟩⟩] .leaf) 121980893512 [⟨⟨(.inside 2),[92],.lcode,false,[(2,0)],false⟩,false,false,[],some 4,some ⟨(.inside 2),[],.lcode,false,[(2,0)],false⟩,none,false,false,false,none,false,⟨.lcode,some (.own 3),false,.lblank⟩⟩] (.node (.node .leaf 9341453352410 [⟨⟨(.inside 1),[92],.lcode,false,[(1,0),(2,0)],false⟩,false,false,[],some 4,some ⟨.code,[],.lcode,false,[(2,0)],false⟩,none,false,false,false,none,false,⟨.lcode,some (.own 3),false,.lblank⟩⟩] .leaf) 9341454158322 [⟨⟨(.inside 1),[92],.lcode,false,[(1,0),(2,0)],false⟩,false,false,[],some 4,some ⟨.code,[],.lcode,false,[(1,0),(2,0)],false⟩,none,false,false,false,none,false,⟨.lcode,some (.own 3),false,.lblank⟩⟩] .leaf)) 9341466041102 [⟨⟨(.inside 1),[92],.lcode,false,[(2,0),(1,0)],false⟩,false,false,[],some 4,some ⟨.code,[],.lcode,false,[(2,0),(1,0)],false⟩,none,false,false,false,none,false,⟨.lcode,some (.own 3),false,.lblank⟩⟩] (.node (.node (.node .leaf 15971883024170 [⟨⟨(.inside 2),[92],.lcode,false,[(1,0),(2,0)],false⟩,false,false,[],some 4,some ⟨.code,[],.lcode,false,[(2,0)],false⟩,none,false,false,false,none,false,⟨.lcode,some (.own 3),false,.lblank⟩⟩] .leaf) 15971883830082 [⟨⟨(.inside 2),[92],.lcode,false,[(1,0),(2,0)],false⟩,false,false,[],some 4,some ⟨.code,[],.lcode,false,[(1,0),(2,0)],false⟩,none,false,false,false,none,false,⟨.lcode,some (.own 3),false,.lblank⟩⟩] .leaf) 15971895712862 [⟨⟨(.inside 2),[92],.lcode,false,[(2,0),(1,0)],false⟩,false,false,[],some 4,some ⟨.code,[],.lcode,false,[(2,0),(1,0)],false⟩,none,false,false,false,none,false,⟨.lcode,some (.own 3),false,.lblank⟩⟩] (.node (.node .leaf 15979485192066 [⟨⟨(.inside 2),[92],.lcode,false,[(1,0),(2,0)],false⟩,false,false,[],some 4,some ⟨(.inside 2),[],.lcode,false,[(1,0),(2,0)],false⟩,none,false,false,false,none,false,⟨.lcode,some (.own 3),false,.lblank⟩⟩] .leaf) 15979497074846 [⟨⟨(.inside 2),[92],.lcode,false,[(2,0),(1,0)],false⟩,false,false,[],some 4,some ⟨(.inside 2),[],.lcode,false,[(2,0),(1,0)],false⟩,none,false,false,false,none,false,⟨.lcode,some (.own 3),false,.lblank⟩⟩] .leaf)))),(.node (.node (.node (.node (.node .leaf 105077 [⟨⟨.code,[],.lcode,false,[(1,0)],false⟩,false,false,[],some 4,some ⟨.code,[],.lcode,false,[(1,0)],false⟩,none,false,false,false,none,false,⟨.lcode,some (.own 3),false,.lblank⟩⟩] .leaf) 4388101 [⟨⟨(.inside 1),[],.lcode,false,[],false⟩,false,false,[],some 4,some ⟨(.inside 1),[],.lcode,false,[],false⟩,none,false,false,false,none,false,⟨.lcode,some (.own 3),false,.lblank⟩⟩] (.node .leaf 13881267 [⟨⟨.code,[],.lcode,false,[(1,0),(2,0)],false⟩,false,false,[],some 4,some ⟨.code,[],.lcode,false,[(1,0),(2,0)],false⟩,none,false,false,false,none,false,⟨.lcode,some (.own 3),false,.lblank⟩⟩] .leaf)) 24252962 [⟨⟨.code,[],.lcode,false,[(2,0),(1,0)],false⟩,false,false,[],some 4,some ⟨.code,[],.lcode,false,[(1,0)],false⟩,none,false,false,false,none,false,⟨.lcode,some (.own 3),false,.lblank⟩⟩] (.node (.node .leaf 25764047 [⟨⟨.code,[],.lcode,false,[(2,0),(1,0)],false⟩,false,false,[],some 4,some ⟨.code,[],.lcode,false,[(2,0),(1,0)],false⟩,none,false,false,false,none,false,⟨.lcode,some (.own 3),false,.lblank⟩⟩] .leaf) 48400851 [⟨⟨.code,[],.lblank,false,[(1,0)],true⟩,false,false,[],some 4,some ⟨.code,[],.lcode,false,[(1,0)],false⟩,none,false,true,false,none,false,⟨.lcode,some (.own 3),false,.lblank⟩⟩] .leaf)) 154651541 [⟨⟨(.inside 0),[],.lcode,false,[(1,0)],false⟩,false,false,[],some 4,some ⟨.code,[],.lcode,false,[(1,0)],false⟩,none,false,false,false,none,false,⟨.lcode,some (.own 3),false,.lblank⟩⟩] (.node (.node (.node .leaf 541017701 [⟨⟨(.inside 1),[],.lcode,false,[(1,0)],false⟩,false,false,[],some 4,some ⟨.code,[],.lcode,false,[(1,0)],false⟩,none,false,false,false,none,false,⟨.lcode,some (.own 3),false,.lblank⟩⟩] .leaf) 574866005 [⟨⟨(.inside 1),[],.lcode,false,[(1,0)],false⟩,false,false,[],some 4,some ⟨(.inside 1),[],.lcode,false,[(1,0)],false⟩,none,false,false,false,none,false,⟨.lcode,some (.own 3),false,.lblank⟩⟩] .leaf) 574957411 [⟨⟨(.inside 1),[],.lcode,false,[(2,0)],false⟩,false,false,[],some 4,some ⟨(.inside 1),[],.lcode,false,[(2,0)],false⟩,none,false,false,false,none,false,⟨.lcode,some (.own 3),false,.lblank⟩⟩] (.node (.node .leaf 927383861 [⟨⟨(.inside 2),[],.lcode,false,[(1,0)],false⟩,false,false,[],some 4,some ⟨.code,[],.lcode,false,[(1,0)],false⟩,none,false,false,false,none,false,⟨.lcode,some (.own 3),false,.lblank⟩⟩] .leaf) 6340627141 [⟨⟨.code,[],.lblank,false,[(1,0),(2,0)],true⟩,false,false,[],some 4,some ⟨.code,[],.lcode,false,[(1,0),(2,0)],false⟩,none,false,true,false,none,false,⟨.lcode,some (.own 3),false,.lblank⟩⟩] .leaf))) 6350998836 [⟨⟨.code,[],.lblank,false,[(2,0),(1,0)],true⟩,false,false,[],some 4,some ⟨.code,[],.lcode,false,[(1,0)],false⟩,none,false,true,false,none,false,⟨.lcode,some (.own 3),false,.lblank⟩⟩] (.node (.node (.node (.node .leaf 20259468051 [⟨⟨(.inside 0),[],.lcode,false,[(1,0),(2,0)],false⟩,false,false,[],some 4,some ⟨.code,[],.lcode,false,[(1,0),(2,0)],false⟩,none,false,false,false,none,false,⟨.lcode,some (.own 3),false,.lblank⟩⟩] .leaf) 20269839746 [⟨⟨(.inside 0),[],.lcode,false,[(2,0),(1,0)],false⟩,false,false,[],some 4,some ⟨.code,[],.lcode,false,[(1,0)],false⟩,none,false,false,false,none,false,⟨.lcode,some (.own 3),false,.lblank⟩⟩] .leaf) 20271350831 [⟨⟨(.inside 0),[],.lcode,false,[(2,0),(1,0)],false⟩,false,false,[],some 4,some ⟨.code,[],.lcode,false,[(2,0),(1,0)],false⟩,none,false,false,false,none,false,⟨.lcode,some (.own 3),false,.lblank⟩⟩] (.node (.node .leaf 70873435011 [⟨⟨(.inside 1),[],.lcode,false,[(1,0),(2,0)],false⟩,false,false,[],some 4,some ⟨.code,[],.lcode,false,[(1,0),(2,0)],false⟩,none,false,false,false,none,false,⟨.lcode,some (.own 3),false,.lblank⟩⟩] .leaf) 70883806706 [⟨⟨(.inside 1),[],.lcode,false,[(2,0),(1,0)],false⟩,false,false,[],some 4,some ⟨.code,[],.lcode,false,[(1,0)],false⟩,none,false,false,false,none,false,⟨.lcode,some (.own 3),false,.lblank⟩⟩] .leaf)) 70885317791 [⟨⟨(.inside 1),[],.lcode,false,[(2,0),(1,0)],false⟩,false,false,[],some 4,some ⟨.code,[],.lcode,false,[(2,0),(1,0)],false⟩,none,false,false,false,none,false,⟨.lcode,some (.own 3),false,.lblank⟩⟩] (.node (.node (.node .leaf 75307562835 [⟨⟨(.inside 1),[],.lcode,false,[(1,0),(2,0)],false⟩,false,false,[],some 4,some ⟨(.inside 1),[],.lcode,false,[(1,0),(2,0)],false⟩,none,false,false,false,none,false,⟨.lcode,some (.own 3),false,.lblank⟩⟩] .leaf) 75319445615 [⟨⟨(.inside 1),[],.lcode,false,[(2,0),(1,0)],false⟩,false,false,[],some 4,some ⟨(.inside 1),[],.lcode,false,[(2,0),(1,0)],false⟩,none,false,false,false,none,false,⟨.lcode,some (.own 3),false,.lblank⟩⟩] .leaf) 121487401971 [⟨⟨(.inside 2),[],.lcode,false,[(1,0),(2,0)],false⟩,false,false,[],some 4,some ⟨.code,[],.lcode,false,[(1,0),(2,0)],false⟩,none,false,false,false,none,false,⟨.lcode,some (.own 3),false,.lblank⟩⟩] (.node (.node .leaf 121497773666 [⟨⟨(.inside 2),[],.lcode,false,[(2,0),(1,0)],false⟩,false,false,[],some 4,some ⟨.code,[],.lcode,false,[(1,0)],false⟩,none,false,false,false,none,false,⟨.lcode,some (.own 3),false,.lblank⟩⟩] .leaf) 121499284751 [⟨⟨(.inside 2),[],.lcode,false,[(2,0),(1,0)],false⟩,false,false,[],some 4,some ⟨.code,[],.lcode,false,[(2,0),(1,0)],false⟩,none,false,false,false,none,false,⟨.lcode,some (.own 3),false,.lblank⟩⟩] .leaf)))),(.node (.node (.node (.node (.node .leaf 196483 [⟨⟨.code,[],.lcode,false,[(2,0)],false⟩,false,false,[],some 4,some ⟨.code,[],.lcode,false,[(2,0)],false⟩,none,false,false,false,none,false,⟨.lcode,some (.own 3),false,.lblank⟩⟩] .leaf) 7522021 [⟨⟨(.inside 2),[],.lcode,false,[],false⟩,false,false,[],some 4,some ⟨(.inside 2),[],.lcode,false,[],false⟩,none,false,false,false,none,false,⟨.lcode,some (.own 3),false,.lblank⟩⟩] (.node .leaf 13075355 [⟨⟨.code,[],.lcode,false,[(1,0),(2,0)],false⟩,false,false,[],some 4,some ⟨.code,[],.lcode,false,[(2,0)],false⟩,none,false,false,false,none,false,⟨.lcode,some (.own 3),false,.lblank⟩⟩] .leaf)) 13881267 [⟨⟨.code,[],.lcode,false,[(1,0),(2,0)],false⟩,false,false,[],some 4,some ⟨.code,[],.lcode,false,[(1,0),(2,0)],false⟩,none,false,false,false,none,false,⟨.lcode,some (.own 3),false,.lblank⟩⟩] (.node (.node .leaf 25764047 [⟨⟨.code,[],.lcode,false,[(2,0),(1,0)],false⟩,false,false,[],some 4,some ⟨.code,[],.lcode,false,[(2,0),(1,0)],false⟩,none,false,false,false,none,false,⟨.lcode,some (.own 3),false,.lblank⟩⟩] .leaf) 48492257 [⟨⟨.code,[],.lblank,false,[(2,0)],true⟩,false,false,[],some 4,some ⟨.code,[],.lcode,false,[(2,0)],false⟩,none,false,true,false,none,false,⟨.lcode,some (.own 3),false,.lblank⟩⟩] .leaf)) 154742947 [⟨⟨(.inside 0),[],.lcode,false,[(2,0)],false⟩,false,false,[],some 4,some ⟨.code,[],.lcode,false,[(2,0)],false⟩,none,false,false,false,none,false,⟨.lcode,some (.own 3),false,.lblank⟩⟩] (.node (.node (.node .leaf 541109107 [⟨⟨(.inside 1),[],.lcode,false,[(2,0)],false⟩,false,false,[],some 4,some ⟨.code,[],.lcode,false,[(2,0)],false⟩,none,false,false,false,none,false,⟨.lcode,some (.own 3),false,.lblank⟩⟩] .leaf) 927475267 [⟨⟨(.inside 2),[],.lcode,false,[(2,0)],false⟩,false,false,[],some 4,some ⟨.code,[],.lcode,false,[(2,0)],false⟩,none,false,false,false,none,false,⟨.lcode,some (.own 3),false,.lblank⟩⟩] .leaf) 985409525 [⟨⟨(.inside 2),[],.lcode,false,[(1,0)],false⟩,false,false,[],some 4,some ⟨(.inside 2),[],.lcode,false,[(1,0)],false⟩,none,false,false,false,none,false,⟨.lcode,some (.own 3),false,.lblank⟩⟩] (.node (.node .leaf 985500931 [⟨⟨(.inside 2),[],.lcode,false,[(2,0)],false⟩,false,false,[],some 4,some ⟨(.inside 2),[],.lcode,false,[(2,0)],false⟩,none,false,false,false,none,false,⟨.lcode,some (.own 3),false,.lblank⟩⟩] .leaf) 6339821229 [⟨⟨.code,[],.lblank,false,[(1,0),(2,0)],true⟩,false,false,[],some 4,some ⟨.code,[],.lcode,false,[(2,0)],false⟩,none,false,true,false,none,false,⟨.lcode,some (.own 3),false,.lblank⟩⟩] .leaf))) 6352509921 [⟨⟨.code,[],.lblank,false,[(2,0),(1,0)],true⟩,false,false,[],some 4,some ⟨.code,[],.lcode,false,[(2,0),(1,0)],false⟩,none,false,true,false,none,false,⟨.lcode,some (.own 3),false,.lblank⟩⟩] (.node (.node (.node (.node .leaf 20258662139 [⟨⟨(.inside 0),[],.lcode,false,[(1,0),(2,0)],false⟩,false,false,[],some 4,some ⟨.code,[],.lcode,false,[(2,0)],false⟩,none,false,false,false,none,false,⟨.lcode,some (.own 3),false,.lblank⟩⟩] .leaf) 20259468051 [⟨⟨(.inside 0),[],.lcode,false,[(1,0),(2,0)],false⟩,false,false,[],some 4,some ⟨.code,[],.lcode,false,[(1,0),(2,0)],false⟩,none,false,false,false,none,false,⟨.lcode,some (.own 3),false,.lblank⟩⟩] .leaf) 20271350831 [⟨⟨(.inside 0),[],.lcode,false,[(2,0),(1,0)],false⟩,false,false,[],some 4,some ⟨.code,[],.lcode,false,[(2,0),(1,0)],false⟩,none,false,false,false,none,false,⟨.lcode,some (.own 3),false,.lblank⟩⟩] (.node (.node .leaf 70872629099 [⟨⟨(.inside 1),[],.lcode,false,[(1,0),(2,0)],false⟩,false,false,[],some 4,some ⟨.code,[],.lcode,false,[(2,0)],false⟩,none,false,false,false,none,false,⟨.lcode,some (.own 3),false,.lblank⟩⟩] .leaf) 70873435011 [⟨⟨(.inside 1),[],.lcode,false,[(1,0),(2,0)],false⟩,false,false,[],some 4,some ⟨.code,[],.lcode,false,[(1,0),(2,0)],false⟩,none,false,false,false,none,false,⟨.lcode,some (.own 3),false,.lblank⟩⟩] .leaf)) 70885317791 [⟨⟨(.inside 1),[],.lcode,false,[(2,0),(1,0)],false⟩,false,false,[],some 4,some ⟨.code,[],.lcode,false,[(2,0),(1,0)],false⟩,none,false,false,false,none,false,⟨.lcode,some (.own 3),false,.lblank⟩⟩] (.node (.node (.node .leaf 121486596059 [⟨⟨(.inside 2),[],.lcode,false,[(1,0),(2,0)],false⟩,false,false,[],some 4,some ⟨.code,[],.lcode,false,[(2,0)],false⟩,none,false,false,false,none,false,⟨.lcode,some (.own 3),false,.lblank⟩⟩] .leaf) 121487401971 [⟨⟨(.inside 2),[],.lcode,false,[(1,0),(2,0)],false⟩,false,false,[],some 4,some ⟨.code,[],.lcode,false,[(1,0),(2,0)],false⟩,none,false,false,false,none,false,⟨.lcode,some (.own 3),false,.lblank⟩⟩] .leaf) 121499284751 [⟨⟨(.inside 2),[],.lcode,false,[(2,0),(1,0)],false⟩,false,false,[],some 4,some ⟨.code,[],.lcode,false,[(2,0),(1,0)],false⟩,none,false,false,false,none,false,⟨.lcode,some (.own 3),false,.lblank⟩⟩] (.node (.node .leaf 129088763955 [⟨⟨(.inside 2),[],.lcode,false,[(1,0),(2,0)],false⟩,false,false,[],some 4,some ⟨(.inside 2),[],.lcode,false,[(1,0),(2,0)],false⟩,none,false,false,false,none,false,⟨.lcode,some (.own 3),false,.lblank⟩⟩] .leaf) 129100646735 [⟨⟨(.inside 2),[],.lcode,false,[(2,0),(1,0)],false⟩,false,false,[],some 4,some ⟨(.inside 2),[],.lcode,false,[(2,0),(1,0)],false⟩,none,false,false,false,none,false,⟨.lcode,some (.own 3),false,.lblank⟩⟩] .leaf))))]
theorem awk_line_lClosed : CA.closedF awk_line_M awk_line_lex true false awk_line_lfr awk_line_lTab = true := by decide +kernel
def awk_line_L : LCert LexisTable.awk_line awk_line_M := awk_line_lex_eq ▸ ⟨⟨awk_line_lmasks, awk_line_lex.rel, awk_line_lcs, awk_line_lrows, awk_line_lmasksIn, awk_line_lrepOk, awk_line_lrowsOk⟩,
  _, rfl, by decide +kernel, by decide +kernel, true, false, CA.closed_of awk_line_lfrOk awk_line_lClosed⟩
theorem awk_line_L_chk : awk_line_L.chk = true := by
  have : ∀ (l : Lexis) (h : LexisTable.awk_line = l) (C : LCert l awk_line_M), (h ▸ C : LCert LexisTable.awk_line awk_line_M).chk = C.chk := by rintro _ rfl _; rfl
  exact this _ awk_line_lex_eq _

def fsharp_line_lex : Lexis := [⟨[47,47],[],.lcomment,false,false,true,false,true,true,true,false,none,false,false,false,false,[]⟩,⟨[40,42],[[42,41]],.lcomment,true,false,false,true,false,false,true,false,none,false,false,false,false,[]⟩,⟨[39],[[39]],.lcode,false,false,true,true,true,false,false,false,none,false,false,false,false,[]⟩,⟨[34],[[34]],.lcode,false,false,true,true,true,false,false,false,none,false,false,false,false,[]⟩]
theorem fsharp_line_lex_eq : LexisTable.fsharp_line = fsharp_line_lex := by decide +kernel
def fsharp_line_lmasks : List Nat := [4294967808,140737488355328,1099511627776,549755813888,17179869184,8192,1024,4096,115792089237316195423570985008687907853269984665640564039457584007908834656767,4951760157141521099596496896,115792089237316195423570985008687907853269984665640564039457584007908834658815,4398046511104,2199023255552,115792089237316195423570985008687907853269984665635612279300442486259482361343,115792089237316195423570985008687907853269984665640564039457584007913129626623,115792089237316195423570985008687907853269984665635612279300442486792058306047]
def fsharp_line_lcs : List (Nat × Nat) := [(0,115792089237316195423570985008687907853269984665635612279300442337808232727039),(9,4294967808),(10,1024),(11,2048),(12,4096),(13,8192),(34,17179869184),(39,549755813888),(40,1099511627776),(41,2199023255552),(42,4398046511104),(47,140737488355328),(92,4951760157141521099596496896)]
theorem fsharp_line_lmasksIn : masksIn fsharp_line_nfa fsharp_line_lmasks = true := by decide +kernel
theorem fsharp_line_lrepOk : repOk fsharp_line_lmasks fsharp_line_lcs = true := by decide +kernel
def fsharp_line_lrows : List Row := [⟨[],none,[],[⟨256,.other,false,some ⟨0,[.setEnt (.own 8)],some 4,true⟩⟩,⟨256,.ws,false,some ⟨1,[.setEnt (.own 0)],some 0,false⟩⟩,⟨256,.lf,false,some ⟨0,[.setEnt .newline],some 3,true⟩⟩,⟨256,.vt,false,none⟩,⟨256,.ff,false,some ⟨0,[.setEnt .newline],some 3,true⟩⟩,⟨256,.cr,false,some ⟨2,[.setEnt .newline],none,false⟩⟩,⟨256,.cr,true,some ⟨3,[.setEnt .newline],some 3,false⟩⟩,⟨34,.other,false,some ⟨4,[.code,.setEnt (.own 8)],some 4,false⟩⟩,⟨39,.other,false,some ⟨5,[.code,.setEnt (.own 8)],some 4,false⟩⟩,⟨40,.other,false,some ⟨6,[.setEnt (.own 8)],some 4,false⟩⟩,⟨41,.other,false,some ⟨0,[.setEnt (.own 8)],some 4,true⟩⟩,⟨42,.other,false,some ⟨0,[.setEnt (.own 8)],some 4,true⟩⟩,⟨47,.other,false,some ⟨7,[.setEnt (.own 8)],some 4,false⟩⟩,⟨92,.other,false,some ⟨0,[.setEnt (.own 8)],some 4,true⟩⟩]⟩,⟨[0],some 0,[],[⟨256,.other,false,none⟩,⟨256,.ws,false,some ⟨1,[.setEnt (.own 0)],some 0,false⟩⟩,⟨256,.lf,false,none⟩,⟨256,.vt,false,none⟩,⟨256,.ff,false,none⟩,⟨256,.cr,false,none⟩,⟨256,.cr,true,none⟩,⟨34,.other,false,none⟩,⟨39,.other,false,none⟩,⟨40,.other,false,none⟩,⟨41,.other,false,none⟩,⟨42,.other,false,none⟩,⟨47,.other,false,none⟩,⟨92,.other,false,none⟩]⟩,⟨[46],none,[],[⟨256,.other,false,none⟩,⟨256,.ws,false,none⟩,⟨256,.lf,false,some ⟨0,[.setEnt .newline],some 3,true⟩⟩,⟨256,.vt,false,none⟩,⟨256,.ff,false,none⟩,⟨256,.cr,false,none⟩,⟨256,.cr,true,none⟩,⟨34,.other,false,none⟩,⟨39,.other,false,none⟩,⟨40,.other,false,none⟩,⟨41,.other,false,none⟩,⟨42,.other,false,none⟩,⟨47,.other,false,none⟩,⟨92,.other,false,none⟩]⟩,⟨[46,50],some 3,[],[⟨256,.other,false,none⟩,⟨256,.ws,false,none⟩,⟨256,.lf,false,some ⟨0,[.setEnt .newline],some 3,true⟩⟩,⟨256,.vt,false,none⟩,⟨256,.ff,false,none⟩,⟨256,.cr,false,none⟩,⟨256,.cr,true,none⟩,⟨34,.other,false,none⟩,⟨39,.other,false,none⟩,⟨40,.other,false,none⟩,⟨41,.other,false,none⟩,⟨42,.other,false,none⟩,⟨47,.other,false,none⟩,⟨92,.other,false,none⟩]⟩,⟨[34,51],some 4,[],[⟨256,.other,false,some ⟨8,[.code],none,false⟩⟩,⟨256,.ws,false,some ⟨9,[],none,false⟩⟩,⟨256,.lf,false,some ⟨8,[.code],none,false⟩⟩,⟨256,.vt,false,some ⟨8,[.code],none,false⟩⟩,⟨256,.ff,false,some ⟨8,[.code],none,false⟩⟩,⟨256,.cr,false,some ⟨8,[.code],none,false⟩⟩,⟨256,.cr,true,some ⟨8,[.code],none,false⟩⟩,⟨34,.other,false,some ⟨0,[],some 2,true⟩⟩,⟨39,.other,false,some ⟨8,[.code],none,false⟩⟩,⟨40,.other,false,some ⟨8,[.code],none,false⟩⟩,⟨41,.other,false,some ⟨8,[.code],none,false⟩⟩,⟨42,.other,false,some ⟨8,[.code],none,false⟩⟩,⟨47,.other,false,some ⟨8,[.code],none,false⟩⟩,⟨92,.other,false,some ⟨10,[],none,false⟩⟩]⟩,⟨[22,51],some 4,[],[⟨256,.other,false,some ⟨11,[.code],none,false⟩⟩,⟨256,.ws,false,some ⟨12,[],none,false⟩⟩,⟨256,.lf,false,some ⟨11,[.code],none,false⟩⟩,⟨256,.vt,false,some ⟨11,[.code],none,false⟩⟩,⟨256,.ff,false,some ⟨11,[.code],none,false⟩⟩,⟨256,.cr,false,some ⟨11,[.code],none,false⟩⟩,⟨256,.cr,true,some ⟨11,[.code],none,false⟩⟩,⟨34,.other,false,some ⟨11,[.code],none,false⟩⟩,⟨39,.other,false,some ⟨0,[],some 2,true⟩⟩,⟨40,.other,false,some ⟨11,[.code],none,false⟩⟩,⟨41,.other,false,some ⟨11,[.code],none,false⟩⟩,⟨42,.other,false,some ⟨11,[.code],none,false⟩⟩,⟨47,.other,false,some ⟨11,[.code],none,false⟩⟩,⟨92,.other,false,some ⟨13,[],none,false⟩⟩]⟩,⟨[11,51],some 4,[],[⟨256,.other,false,none⟩,⟨256,.ws,false,none⟩,⟨256,.lf,false,none⟩,⟨256,.vt,false,none⟩,⟨256,.ff,false,none⟩,⟨256,.cr,false,none⟩,⟨256,.cr,true,none⟩,⟨34,.other,false,none⟩,⟨39,.other,false,none⟩,⟨40,.other,false,none⟩,⟨41,.other,false,none⟩,⟨42,.other,false,some ⟨14,[.comment],none,false⟩⟩,⟨47,.other,false,none⟩,⟨92,.other,false,none⟩]⟩,⟨[1,51],some 4,[],[⟨256,.other,false,none⟩,⟨256,.ws,false,none⟩,⟨256,.lf,false,none⟩,⟨256,.vt,false,none⟩,⟨256,.ff,false,none⟩,⟨256,.cr,false,none⟩,⟨256,.cr,true,none⟩,⟨34,.other,false,none⟩,⟨39,.other,false,none⟩,⟨40,.other,false,none⟩,⟨41,.other,false,none⟩,⟨42,.other,false,none⟩,⟨47,.other,false,some ⟨15,[.comment],some 1,false⟩⟩,⟨92,.other,false,none⟩]⟩,⟨[42],none,[],[⟨256,.other,false,some ⟨8,[.code],none,false⟩⟩,⟨256,.ws,false,some ⟨9,[],none,false⟩⟩,⟨256,.lf,false,some ⟨8,[.code],none,false⟩⟩,⟨256,.vt,false,some ⟨8,[.code],none,false⟩⟩,⟨256,.ff,false,some ⟨8,[.code],none,false⟩⟩,⟨256,.cr,false,some ⟨8,[.code],none,false⟩⟩,⟨256,.cr,true,some ⟨8,[.code],none,false⟩⟩,⟨34,.other,false,some ⟨0,[],some 2,true⟩⟩,⟨39,.other,false,some ⟨8,[.code],none,false⟩⟩,⟨40,.other,false,some ⟨8,[.code],none,false⟩⟩,⟨41,.other,false,some ⟨8,[.code],none,false⟩⟩,⟨42,.other,false,some ⟨8,[.code],none,false⟩⟩,⟨47,.other,false,some ⟨8,[.code],none,false⟩⟩,⟨92,.other,false,some ⟨10,[],none,false⟩⟩]⟩,⟨[41],none,[],[⟨256,.other,false,some ⟨8,[.code],none,false⟩⟩,⟨256,.ws,false,some ⟨9,[],none,false⟩⟩,⟨256,.lf,false,some ⟨8,[.code],none,false⟩⟩,⟨256,.vt,false,some ⟨8,[.code],none,false⟩⟩,⟨256,.ff,false,some ⟨8,[.code],none,false⟩⟩,⟨256,.cr,false,some ⟨8,[.code],none,false⟩⟩,⟨256,.cr,true,some ⟨8,[.code],none,false⟩⟩,⟨34,.other,false,some ⟨0,[],some 2,true⟩⟩,⟨39,.other,false,some ⟨8,[.code],none,false⟩⟩,⟨40,.other,false,some ⟨8,[.code],none,false⟩⟩,⟨41,.other,false,some ⟨8,[.code],none,false⟩⟩,⟨42,.other,false,some ⟨8,[.code],none,false⟩⟩,⟨47,.other,false,some ⟨8,[.code],none,false⟩⟩,⟨92,.other,false,some ⟨10,[],none,false⟩⟩]⟩,⟨[35,43],none,[],[⟨256,.other,false,some ⟨16,[.code],none,false⟩⟩,⟨256,.ws,false,some ⟨16,[.code],none,false⟩⟩,⟨256,.lf,false,some ⟨17,[],none,false⟩⟩,⟨256,.vt,false,some ⟨16,[.code],none,false⟩⟩,⟨256,.ff,false,some ⟨18,[],none,false⟩⟩,⟨256,.cr,false,some ⟨19,[],none,false⟩⟩,⟨256,.cr,true,some ⟨20,[],none,false⟩⟩,⟨34,.other,false,some ⟨16,[.code],none,false⟩⟩,⟨39,.other,false,some ⟨16,[.code],none,false⟩⟩,⟨40,.other,false,some ⟨16,[.code],none,false⟩⟩,⟨41,.other,false,some ⟨16,[.code],none,false⟩⟩,⟨42,.other,false,some ⟨16,[.code],none,false⟩⟩,⟨47,.other,false,some ⟨16,[.code],none,false⟩⟩,⟨92,.other,false,some ⟨16,[.code],none,false⟩⟩]⟩,⟨[30],none,[],[⟨256,.other,false,some ⟨11,[.code],none,false⟩⟩,⟨256,.ws,false,some ⟨12,[],none,false⟩⟩,⟨256,.lf,false,some ⟨11,[.code],none,false⟩⟩,⟨256,.vt,false,some ⟨11,[.code],none,false⟩⟩,⟨256,.ff,false,some ⟨11,[.code],none,false⟩⟩,⟨256,.cr,false,some ⟨11,[.code],none,false⟩⟩,⟨256,.cr,true,some ⟨11,[.code],none,false⟩⟩,⟨34,.other,false,some ⟨11,[.code],none,false⟩⟩,⟨39,.other,false,some ⟨0,[],some 2,true⟩⟩,⟨40,.other,false,some ⟨11,[.code],none,false⟩⟩,⟨41,.other,false,some ⟨11,[.code],none,false⟩⟩,⟨42,.other,false,some ⟨11,[.code],none,false⟩⟩,⟨47,.other,false,some ⟨11,[.code],none,false⟩⟩,⟨92,.other,false,some ⟨13,[],none,false⟩⟩]⟩,⟨[29],none,[],[⟨256,.other,false,some ⟨11,[.code],none,false⟩⟩,⟨256,.ws,false,some ⟨12,[],none,false⟩⟩,⟨256,.lf,false,some ⟨11,[.code],none,false⟩⟩,⟨256,.vt,false,some ⟨11,[.code],none,false⟩⟩,⟨256,.ff,false,some ⟨11,[.code],none,false⟩⟩,⟨256,.cr,false,some ⟨11,[.code],none,false⟩⟩,⟨256,.cr,true,some ⟨11,[.code],none,false⟩⟩,⟨34,.other,false,some ⟨11,[.code],none,false⟩⟩,⟨39,.other,false,some ⟨0,[],some 2,true⟩⟩,⟨40,.other,false,some ⟨11,[.code],none,false⟩⟩,⟨41,.other,false,some ⟨11,[.code],none,false⟩⟩,⟨42,.other,false,some ⟨11,[.code],none,false⟩⟩,⟨47,.other,false,some ⟨11,[.code],none,false⟩⟩,⟨92,.other,false,some ⟨13,[],none,false⟩⟩]⟩,⟨[23,31],none,[],[⟨256,.other,false,some ⟨21,[.code],none,false⟩⟩,⟨256,.ws,false,some ⟨21,[.code],none,false⟩⟩,⟨256,.lf,false,some ⟨22,[],none,false⟩⟩,⟨256,.vt,false,some ⟨21,[.code],none,false⟩⟩,⟨256,.ff,false,some ⟨23,[],none,false⟩⟩,⟨256,.cr,false,some ⟨24,[],none,false⟩⟩,⟨256,.cr,true,some ⟨25,[],none,false⟩⟩,⟨34,.other,false,some ⟨21,[.code],none,false⟩⟩,⟨39,.other,false,some ⟨21,[.code],none,false⟩⟩,⟨40,.other,false,some ⟨21,[.code],none,false⟩⟩,⟨41,.other,false,some ⟨21,[.code],none,false⟩⟩,⟨42,.other,false,some ⟨21,[.code],none,false⟩⟩,⟨47,.other,false,some ⟨21,[.code],none,false⟩⟩,⟨92,.other,false,some ⟨21,[.code],none,false⟩⟩]⟩,⟨[12],none,[],[⟨256,.other,false,some ⟨26,[.comment],none,false⟩⟩,⟨256,.ws,false,some ⟨27,[],none,false⟩⟩,⟨256,.lf,false,some ⟨28,[],none,false⟩⟩,⟨256,.vt,false,some ⟨26,[.comment],none,false⟩⟩,⟨256,.ff,false,some ⟨29,[],none,false⟩⟩,⟨256,.cr,false,some ⟨30,[],none,false⟩⟩,⟨256,.cr,true,some ⟨31,[],none,false⟩⟩,⟨34,.other,false,some ⟨26,[.comment],none,false⟩⟩,⟨39,.other,false,some ⟨26,[.comment],none,false⟩⟩,⟨40,.other,false,some ⟨26,[.comment],none,false⟩⟩,⟨41,.other,false,some ⟨26,[.comment],none,false⟩⟩,⟨42,.other,false,some ⟨32,[.comment],none,false⟩⟩,⟨47,.other,false,some ⟨26,[.comment],none,false⟩⟩,⟨92,.other,false,some ⟨26,[.comment],none,false⟩⟩]⟩,⟨[2],some 1,[],[⟨256,.other,false,some ⟨33,[.comment],some 1,false⟩⟩,⟨256,.ws,false,some ⟨34,[],some 1,false⟩⟩,⟨256,.lf,false,none⟩,⟨256,.vt,false,some ⟨33,[.comment],some 1,false⟩⟩,⟨256,.ff,false,none⟩,⟨256,.cr,false,none⟩,⟨256,.cr,true,none⟩,⟨34,.other,false,some ⟨33,[.comment],some 1,false⟩⟩,⟨39,.other,false,some ⟨33,[.comment],some 1,false⟩⟩,⟨40,.other,false,some ⟨33,[.comment],some 1,false⟩⟩,⟨41,.other,false,some ⟨33,[.comment],some 1,false⟩⟩,⟨42,.other,false,some ⟨33,[.comment],some 1,false⟩⟩,⟨47,.other,false,some ⟨33,[.comment],some 1,false⟩⟩,⟨92,.other,false,some ⟨35,[.comment],some 1,false⟩⟩]⟩,⟨[44],none,[],[⟨256,.other,false,some ⟨8,[.code],none,false⟩⟩,⟨256,.ws,false,some ⟨9,[],none,false⟩⟩,⟨256,.lf,false,some ⟨8,[.code],none,false⟩⟩,⟨256,.vt,false,some ⟨8,[.code],none,false⟩⟩,⟨256,.ff,false,some ⟨8,[.code],none,false⟩⟩,⟨256,.cr,false,some ⟨8,[.code],none,false⟩⟩,⟨256,.cr,true,some ⟨8,[.code],none,false⟩⟩,⟨34,.other,false,some ⟨0,[],some 2,true⟩⟩,⟨39,.other,false,some ⟨8,[.code],none,false⟩⟩,⟨40,.other,false,some ⟨8,[.code],none,false⟩⟩,⟨41,.other,false,some ⟨8,[.code],none,false⟩⟩,⟨42,.other,false,some ⟨8,[.code],none,false⟩⟩,⟨47,.other,false,some ⟨8,[.code],none,false⟩⟩,⟨92,.other,false,some ⟨10,[],none,false⟩⟩]⟩,⟨[38],none,[],[⟨256,.other,false,some ⟨8,[.setEnt .internalNl,.cb,.code],none,false⟩⟩,⟨256,.ws,false,some ⟨9,[.setEnt .internalNl,.cb],none,false⟩⟩,⟨256,.lf,false,some ⟨8,[.setEnt .internalNl,.cb,.code],none,false⟩⟩,⟨256,.vt,false,some ⟨8,[.setEnt .internalNl,.cb,.code],none,false⟩⟩,⟨256,.ff,false,some ⟨8,[.setEnt .internalNl,.cb,.code],none,false⟩⟩,⟨256,.cr,false,some ⟨8,[.setEnt .internalNl,.cb,.code],none,false⟩⟩,⟨256,.cr,true,some ⟨8,[.setEnt .internalNl,.cb,.code],none,false⟩⟩,⟨34,.other,false,some ⟨0,[.setEnt .internalNl,.cb],some 2,true⟩⟩,⟨39,.other,false,some ⟨8,[.setEnt .internalNl,.cb,.code],none,false⟩⟩,⟨40,.other,false,some ⟨8,[.setEnt .internalNl,.cb,.code],none,false⟩⟩,⟨41,.other,false,some ⟨8,[.setEnt .internalNl,.cb,.code],none,false⟩⟩,⟨42,.other,false,some ⟨8,[.setEnt .internalNl,.cb,.code],none,false⟩⟩,⟨47,.other,false,some ⟨8,[.setEnt .internalNl,.cb,.code],none,false⟩⟩,⟨92,.other,false,some ⟨10,[.setEnt .internalNl,.cb],none,false⟩⟩]⟩,⟨[39],none,[],[⟨256,.other,false,some ⟨8,[.setEnt .internalNl,.cb,.code],none,false⟩⟩,⟨256,.ws,false,some ⟨9,[.setEnt .internalNl,.cb],none,false⟩⟩,⟨256,.lf,false,some ⟨8,[.setEnt .internalNl,.cb,.code],none,false⟩⟩,⟨256,.vt,false,some ⟨8,[.setEnt .internalNl,.cb,.code],none,false⟩⟩,⟨256,.ff,false,some ⟨8,[.setEnt .internalNl,.cb,.code],none,false⟩⟩,⟨256,.cr,false,some ⟨8,[.setEnt .internalNl,.cb,.code],none,false⟩⟩,⟨256,.cr,true,some ⟨8,[.setEnt .internalNl,.cb,.code],none,false⟩⟩,⟨34,.other,false,some ⟨0,[.setEnt .internalNl,.cb],some 2,true⟩⟩,⟨39,.other,false,some ⟨8,[.setEnt .internalNl,.cb,.code],none,false⟩⟩,⟨40,.other,false,some ⟨8,[.setEnt .internalNl,.cb,.code],none,false⟩⟩,⟨41,.other,false,some ⟨8,[.setEnt .internalNl,.cb,.code],none,false⟩⟩,⟨42,.other,false,some ⟨8,[.setEnt .internalNl,.cb,.code],none,false⟩⟩,⟨47,.other,false,some ⟨8,[.setEnt .internalNl,.cb,.code],none,false⟩⟩,⟨92,.other,false,some ⟨10,[.setEnt .internalNl,.cb],none,false⟩⟩]⟩,⟨[36],none,[],[⟨256,.other,false,none⟩,⟨256,.ws,false,none⟩,⟨256,.lf,false,some ⟨36,[],none,false⟩⟩,⟨256,.vt,false,none⟩,⟨256,.ff,false,none⟩,⟨256,.cr,false,none⟩,⟨256,.cr,true,none⟩,⟨34,.other,false,none⟩,⟨39,.other,false,none⟩,⟨40,.other,false,none⟩,⟨41,.other,false,none⟩,⟨42,.other,false,none⟩,⟨47,.other,false,none⟩,⟨92,.other,false,none⟩]⟩,⟨[36,40],none,[],[⟨256,.other,false,some ⟨8,[.setEnt .internalNl,.cb,.code],none,false⟩⟩,⟨256,.ws,false,some ⟨9,[.setEnt .internalNl,.cb],none,false⟩⟩,⟨256,.lf,false,some ⟨37,[.setEnt .internalNl,.cb,.code],none,false⟩⟩,⟨256,.vt,false,some ⟨8,[.setEnt .internalNl,.cb,.code],none,false⟩⟩,⟨256,.ff,false,some ⟨8,[.setEnt .internalNl,.cb,.code],none,false⟩⟩,⟨256,.cr,false,some ⟨8,[.setEnt .internalNl,.cb,.code],none,false⟩⟩,⟨256,.cr,true,some ⟨8,[.setEnt .internalNl,.cb,.code],none,false⟩⟩,⟨34,.other,false,some ⟨0,[.setEnt .internalNl,.cb],some 2,true⟩⟩,⟨39,.other,false,some ⟨8,[.setEnt .internalNl,.cb,.code],none,false⟩⟩,⟨40,.other,false,some ⟨8,[.setEnt .internalNl,.cb,.code],none,false⟩⟩,⟨41,.other,false,some ⟨8,[.setEnt .internalNl,.cb,.code],none,false⟩⟩,⟨42,.other,false,some ⟨8,[.setEnt .internalNl,.cb,.code],none,false⟩⟩,⟨47,.other,false,some ⟨8,[.setEnt .internalNl,.cb,.code],none,false⟩⟩,⟨92,.other,false,some ⟨10,[.setEnt .internalNl,.cb],none,false⟩⟩]⟩,⟨[32],none,[],[⟨256,.other,false,some ⟨11,[.code],none,false⟩⟩,⟨256,.ws,false,some ⟨12,[],none,false⟩⟩,⟨256,.lf,false,some ⟨11,[.code],none,false⟩⟩,⟨256,.vt,false,some ⟨11,[.code],none,false⟩⟩,⟨256,.ff,false,some ⟨11,[.code],none,false⟩⟩,⟨256,.cr,false,some ⟨11,[.code],none,false⟩⟩,⟨256,.cr,true,some ⟨11,[.code],none,false⟩⟩,⟨34,.other,false,some ⟨11,[.code],none,false⟩⟩,⟨39,.other,false,some ⟨0,[],some 2,true⟩⟩,⟨40,.other,false,some ⟨11,[.code],none,false⟩⟩,⟨41,.other,false,some ⟨11,[.code],none,false⟩⟩,⟨42,.other,false,some ⟨11,[.code],none,false⟩⟩,⟨47,.other,false,some ⟨11,[.code],none,false⟩⟩,⟨92,.other,false,some ⟨13,[],none,false⟩⟩]⟩,⟨[26],none,[],[⟨256,.other,false,some ⟨11,[.setEnt .internalNl,.cb,.code],none,false⟩⟩,⟨256,.ws,false,some ⟨12,[.setEnt .internalNl,.cb],none,false⟩⟩,⟨256,.lf,false,some ⟨11,[.setEnt .internalNl,.cb,.code],none,false⟩⟩,⟨256,.vt,false,some ⟨11,[.setEnt .internalNl,.cb,.code],none,false⟩⟩,⟨256,.ff,false,some ⟨11,[.setEnt .internalNl,.cb,.code],none,false⟩⟩,⟨256,.cr,false,some ⟨11,[.setEnt .internalNl,.cb,.code],none,false⟩⟩,⟨256,.cr,true,some ⟨11,[.setEnt .internalNl,.cb,.code],none,false⟩⟩,⟨34,.other,false,some ⟨11,[.setEnt .internalNl,.cb,.code],none,false⟩⟩,⟨39,.other,false,some ⟨0,[.setEnt .internalNl,.cb],some 2,true⟩⟩,⟨40,.other,false,some ⟨11,[.setEnt .internalNl,.cb,.code],none,false⟩⟩,⟨41,.other,false,some ⟨11,[.setEnt .internalNl,.cb,.code],none,false⟩⟩,⟨42,.other,false,some ⟨11,[.setEnt .internalNl,.cb,.code],none,false⟩⟩,⟨47,.other,false,some ⟨11,[.setEnt .internalNl,.cb,.code],none,false⟩⟩,⟨92,.other,false,some ⟨13,[.setEnt .internalNl,.cb],none,false⟩⟩]⟩,⟨[27],none,[],[⟨256,.other,false,some ⟨11,[.setEnt .internalNl,.cb,.code],none,false⟩⟩,⟨256,.ws,false,some ⟨12,[.setEnt .internalNl,.cb],none,false⟩⟩,⟨256,.lf,false,some ⟨11,[.setEnt .internalNl,.cb,.code],none,false⟩⟩,⟨256,.vt,false,some ⟨11,[.setEnt .internalNl,.cb,.code],none,false⟩⟩,⟨256,.ff,false,some ⟨11,[.setEnt .internalNl,.cb,.code],none,false⟩⟩,⟨256,.cr,false,some ⟨11,[.setEnt .internalNl,.cb,.code],none,false⟩⟩,⟨256,.cr,true,some ⟨11,[.setEnt .internalNl,.cb,.code],none,false⟩⟩,⟨34,.other,false,some ⟨11,[.setEnt .internalNl,.cb,.code],none,false⟩⟩,⟨39,.other,false,some ⟨0,[.setEnt .internalNl,.cb],some 2,true⟩⟩,⟨40,.other,false,some ⟨11,[.setEnt .internalNl,.cb,.code],none,false⟩⟩,⟨41,.other,false,some ⟨11,[.setEnt .internalNl,.cb,.code],none,false⟩⟩,⟨42,.other,false,some ⟨11,[.setEnt .internalNl,.cb,.code],none,false⟩⟩,⟨47,.other,false,some ⟨11,[.setEnt .internalNl,.cb,.code],none,false⟩⟩,⟨92,.other,false,some ⟨13,[.setEnt .internalNl,.cb],none,false⟩⟩]⟩,⟨[24],none,[],[⟨256,.other,false,none⟩,⟨256,.ws,false,none⟩,⟨256,.lf,false,some ⟨38,[],none,false⟩⟩,⟨256,.vt,false,none⟩,⟨256,.ff,false,none⟩,⟨256,.cr,false,none⟩,⟨256,.cr,true,none⟩,⟨34,.other,false,none⟩,⟨39,.other,false,none⟩,⟨40,.other,false,none⟩,⟨41,.other,false,none⟩,⟨42,.other,false,none⟩,⟨47,.other,false,none⟩,⟨92,.other,false,none⟩]⟩,⟨[24,28],none,[],[⟨256,.other,false,some ⟨11,[.setEnt .internalNl,.cb,.code],none,false⟩⟩,⟨256,.ws,false,some ⟨12,[.setEnt .internalNl,.cb],none,false⟩⟩,⟨256,.lf,false,some ⟨39,[.setEnt .internalNl,.cb,.code],none,false⟩⟩,⟨256,.vt,false,some ⟨11,[.setEnt .internalNl,.cb,.code],none,false⟩⟩,⟨256,.ff,false,some ⟨11,[.setEnt .internalNl,.cb,.code],none,false⟩⟩,⟨256,.cr,false,some ⟨11,[.setEnt .internalNl,.cb,.code],none,false⟩⟩,⟨256,.cr,true,some ⟨11,[.setEnt .internalNl,.cb,.code],none,false⟩⟩,⟨34,.other,false,some ⟨11,[.setEnt .internalNl,.cb,.code],none,false⟩⟩,⟨39,.other,false,some ⟨0,[.setEnt .internalNl,.cb],some 2,true⟩⟩,⟨40,.other,false,some ⟨11,[.setEnt .internalNl,.cb,.code],none,false⟩⟩,⟨41,.other,false,some ⟨11,[.setEnt .internalNl,.cb,.code],none,false⟩⟩,⟨42,.other,false,some ⟨11,[.setEnt .internalNl,.cb,.code],none,false⟩⟩,⟨47,.other,false,some ⟨11,[.setEnt .internalNl,.cb,.code],none,false⟩⟩,⟨92,.other,false,some ⟨13,[.setEnt .internalNl,.cb],none,false⟩⟩]⟩,⟨[19],none,[],[⟨256,.other,false,some ⟨26,[.comment],none,false⟩⟩,⟨256,.ws,false,some ⟨27,[],none,false⟩⟩,⟨256,.lf,false,some ⟨28,[],none,false⟩⟩,⟨256,.vt,false,some ⟨26,[.comment],none,false⟩⟩,⟨256,.ff,false,some ⟨29,[],none,false⟩⟩,⟨256,.cr,false,some ⟨30,[],none,false⟩⟩,⟨256,.cr,true,some ⟨31,[],none,false⟩⟩,⟨34,.other,false,some ⟨26,[.comment],none,false⟩⟩,⟨39,.other,false,some ⟨26,[.comment],none,false⟩⟩,⟨40,.other,false,some ⟨26,[.comment],none,false⟩⟩,⟨41,.other,false,some ⟨26,[.comment],none,false⟩⟩,⟨42,.other,false,some ⟨32,[.comment],none,false⟩⟩,⟨47,.other,false,some ⟨26,[.comment],none,false⟩⟩,⟨92,.other,false,some ⟨26,[.comment],none,false⟩⟩]⟩,⟨[18],none,[],[⟨256,.other,false,some ⟨26,[.comment],none,false⟩⟩,⟨256,.ws,false,some ⟨27,[],none,false⟩⟩,⟨256,.lf,false,some ⟨28,[],none,false⟩⟩,⟨256,.vt,false,some ⟨26,[.comment],none,false⟩⟩,⟨256,.ff,false,some ⟨29,[],none,false⟩⟩,⟨256,.cr,false,some ⟨30,[],none,false⟩⟩,⟨256,.cr,true,some ⟨31,[],none,false⟩⟩,⟨34,.other,false,some ⟨26,[.comment],none,false⟩⟩,⟨39,.other,false,some ⟨26,[.comment],none,false⟩⟩,⟨40,.other,false,some ⟨26,[.comment],none,false⟩⟩,⟨41,.other,false,some ⟨26,[.comment],none,false⟩⟩,⟨42,.other,false,some ⟨32,[.comment],none,false⟩⟩,⟨47,.other,false,some ⟨26,[.comment],none,false⟩⟩,⟨92,.other,false,some ⟨26,[.comment],none,false⟩⟩]⟩,⟨[15],none,[],[⟨256,.other,false,some ⟨26,[.setEnt .internalNl,.cb,.comment],none,false⟩⟩,⟨256,.ws,false,some ⟨27,[.setEnt .internalNl,.cb],none,false⟩⟩,⟨256,.lf,false,some ⟨28,[.setEnt .internalNl,.cb],none,false⟩⟩,⟨256,.vt,false,some ⟨26,[.setEnt .internalNl,.cb,.comment],none,false⟩⟩,⟨256,.ff,false,some ⟨29,[.setEnt .internalNl,.cb],none,false⟩⟩,⟨256,.cr,false,some ⟨30,[.setEnt .internalNl,.cb],none,false⟩⟩,⟨256,.cr,true,some ⟨31,[.setEnt .internalNl,.cb],none,false⟩⟩,⟨34,.other,false,some ⟨26,[.setEnt .internalNl,.cb,.comment],none,false⟩⟩,⟨39,.other,false,some ⟨26,[.setEnt .internalNl,.cb,.comment],none,false⟩⟩,⟨40,.other,false,some ⟨26,[.setEnt .internalNl,.cb,.comment],none,false⟩⟩,⟨41,.other,false,some ⟨26,[.setEnt .internalNl,.cb,.comment],none,false⟩⟩,⟨42,.other,false,some ⟨32,[.setEnt .internalNl,.cb,.comment],none,false⟩⟩,⟨47,.other,false,some ⟨26,[.setEnt .internalNl,.cb,.comment],none,false⟩⟩,⟨92,.other,false,some ⟨26,[.setEnt .internalNl,.cb,.comment],none,false⟩⟩]⟩,⟨[16],none,[],[⟨256,.other,false,some ⟨26,[.setEnt .internalNl,.cb,.comment],none,false⟩⟩,⟨256,.ws,false,some ⟨27,[.setEnt .internalNl,.cb],none,false⟩⟩,⟨256,.lf,false,some ⟨28,[.setEnt .internalNl,.cb],none,false⟩⟩,⟨256,.vt,false,some ⟨26,[.setEnt .internalNl,.cb,.comment],none,false⟩⟩,⟨256,.ff,false,some ⟨29,[.setEnt .internalNl,.cb],none,false⟩⟩,⟨256,.cr,false,some ⟨30,[.setEnt .internalNl,.cb],none,false⟩⟩,⟨256,.cr,true,some ⟨31,[.setEnt .internalNl,.cb],none,false⟩⟩,⟨34,.other,false,some ⟨26,[.setEnt .internalNl,.cb,.comment],none,false⟩⟩,⟨39,.other,false,some ⟨26,[.setEnt .internalNl,.cb,.comment],none,false⟩⟩,⟨40,.other,false,some ⟨26,[.setEnt .internalNl,.cb,.comment],none,false⟩⟩,⟨41,.other,false,some ⟨26,[.setEnt .internalNl,.cb,.comment],none,false⟩⟩,⟨42,.other,false,some ⟨32,[.setEnt .internalNl,.cb,.comment],none,false⟩⟩,⟨47,.other,false,some ⟨26,[.setEnt .internalNl,.cb,.comment],none,false⟩⟩,⟨92,.other,false,some ⟨26,[.setEnt .internalNl,.cb,.comment],none,false⟩⟩]⟩,⟨[13],none,[],[⟨256,.other,false,none⟩,⟨256,.ws,false,none⟩,⟨256,.lf,false,some ⟨40,[],none,false⟩⟩,⟨256,.vt,false,none⟩,⟨256,.ff,false,none⟩,⟨256,.cr,false,none⟩,⟨256,.cr,true,none⟩,⟨34,.other,false,none⟩,⟨39,.other,false,none⟩,⟨40,.other,false,none⟩,⟨41,.other,false,none⟩,⟨42,.other,false,none⟩,⟨47,.other,false,none⟩,⟨92,.other,false,none⟩]⟩,⟨[13,17],none,[],[⟨256,.other,false,some ⟨26,[.setEnt .internalNl,.cb,.comment],none,false⟩⟩,⟨256,.ws,false,some ⟨27,[.setEnt .internalNl,.cb],none,false⟩⟩,⟨256,.lf,false,some ⟨41,[.setEnt .internalNl,.cb],none,false⟩⟩,⟨256,.vt,false,some ⟨26,[.setEnt .internalNl,.cb,.comment],none,false⟩⟩,⟨256,.ff,false,some ⟨29,[.setEnt .internalNl,.cb],none,false⟩⟩,⟨256,.cr,false,some ⟨30,[.setEnt .internalNl,.cb],none,false⟩⟩,⟨256,.cr,true,some ⟨31,[.setEnt .internalNl,.cb],none,false⟩⟩,⟨34,.other,false,some ⟨26,[.setEnt .internalNl,.cb,.comment],none,false⟩⟩,⟨39,.other,false,some ⟨26,[.setEnt .internalNl,.cb,.comment],none,false⟩⟩,⟨40,.other,false,some ⟨26,[.setEnt .internalNl,.cb,.comment],none,false⟩⟩,⟨41,.other,false,some ⟨26,[.setEnt .internalNl,.cb,.comment],none,false⟩⟩,⟨42,.other,false,some ⟨32,[.setEnt .internalNl,.cb,.comment],none,false⟩⟩,⟨47,.other,false,some ⟨26,[.setEnt .internalNl,.cb,.comment],none,false⟩⟩,⟨92,.other,false,some ⟨26,[.setEnt .internalNl,.cb,.comment],none,false⟩⟩]⟩,⟨[19,20],none,[],[⟨256,.other,false,some ⟨26,[.comment],none,false⟩⟩,⟨256,.ws,false,some ⟨27,[],none,false⟩⟩,⟨256,.lf,false,some ⟨28,[],none,false⟩⟩,⟨256,.vt,false,some ⟨26,[.comment],none,false⟩⟩,⟨256,.ff,false,some ⟨29,[],none,false⟩⟩,⟨256,.cr,false,some ⟨30,[],none,false⟩⟩,⟨256,.cr,true,some ⟨31,[],none,false⟩⟩,⟨34,.other,false,some ⟨26,[.comment],none,false⟩⟩,⟨39,.other,false,some ⟨26,[.comment],none,false⟩⟩,⟨40,.other,false,some ⟨26,[.comment],none,false⟩⟩,⟨41,.other,false,some ⟨0,[],some 1,true⟩⟩,⟨42,.other,false,some ⟨32,[.comment],none,false⟩⟩,⟨47,.other,false,some ⟨26,[.comment],none,false⟩⟩,⟨92,.other,false,some ⟨26,[.comment],none,false⟩⟩]⟩,⟨[10],some 1,[],[⟨256,.other,false,some ⟨33,[.comment],some 1,false⟩⟩,⟨256,.ws,false,some ⟨34,[],some 1,false⟩⟩,⟨256,.lf,false,none⟩,⟨256,.vt,false,some ⟨33,[.comment],some 1,false⟩⟩,⟨256,.ff,false,none⟩,⟨256,.cr,false,none⟩,⟨256,.cr,true,none⟩,⟨34,.other,false,some ⟨33,[.comment],some 1,false⟩⟩,⟨39,.other,false,some ⟨33,[.comment],some 1,false⟩⟩,⟨40,.other,false,some ⟨33,[.comment],some 1,false⟩⟩,⟨41,.other,false,some ⟨33,[.comment],some 1,false⟩⟩,⟨42,.other,false,some ⟨33,[.comment],some 1,false⟩⟩,⟨47,.other,false,some ⟨33,[.comment],some 1,false⟩⟩,⟨92,.other,false,some ⟨35,[.comment],some 1,false⟩⟩]⟩,⟨[9],some 1,[],[⟨256,.other,false,some ⟨33,[.comment],some 1,false⟩⟩,⟨256,.ws,false,some ⟨34,[],some 1,false⟩⟩,⟨256,.lf,false,none⟩,⟨256,.vt,false,some ⟨33,[.comment],some 1,false⟩⟩,⟨256,.ff,false,none⟩,⟨256,.cr,false,none⟩,⟨256,.cr,true,none⟩,⟨34,.other,false,some ⟨33,[.comment],some 1,false⟩⟩,⟨39,.other,false,some ⟨33,[.comment],some 1,false⟩⟩,⟨40,.other,false,some ⟨33,[.comment],some 1,false⟩⟩,⟨41,.other,false,some ⟨33,[.comment],some 1,false⟩⟩,⟨42,.other,false,some ⟨33,[.comment],some 1,false⟩⟩,⟨47,.other,false,some ⟨33,[.comment],some 1,false⟩⟩,⟨92,.other,false,some ⟨35,[.comment],some 1,false⟩⟩]⟩,⟨[3,10],some 1,[],[⟨256,.other,false,some ⟨33,[.comment],some 1,false⟩⟩,⟨256,.ws,false,some ⟨34,[],some 1,false⟩⟩,⟨256,.lf,false,some ⟨42,[],some 1,false⟩⟩,⟨256,.vt,false,some ⟨33,[.comment],some 1,false⟩⟩,⟨256,.ff,false,some ⟨43,[],some 1,false⟩⟩,⟨256,.cr,false,some ⟨44,[],none,false⟩⟩,⟨256,.cr,true,some ⟨45,[],some 1,false⟩⟩,⟨34,.other,false,some ⟨33,[.comment],some 1,false⟩⟩,⟨39,.other,false,some ⟨33,[.comment],some 1,false⟩⟩,⟨40,.other,false,some ⟨33,[.comment],some 1,false⟩⟩,⟨41,.other,false,some ⟨33,[.comment],some 1,false⟩⟩,⟨42,.other,false,some ⟨33,[.comment],some 1,false⟩⟩,⟨47,.other,false,some ⟨33,[.comment],some 1,false⟩⟩,⟨92,.other,false,some ⟨35,[.comment],some 1,false⟩⟩]⟩,⟨[37],none,[],[⟨256,.other,false,some ⟨8,[.setEnt .internalNl,.cb,.code],none,false⟩⟩,⟨256,.ws,false,some ⟨9,[.setEnt .internalNl,.cb],none,false⟩⟩,⟨256,.lf,false,some ⟨8,[.setEnt .internalNl,.cb,.code],none,false⟩⟩,⟨256,.vt,false,some ⟨8,[.setEnt .internalNl,.cb,.code],none,false⟩⟩,⟨256,.ff,false,some ⟨8,[.setEnt .internalNl,.cb,.code],none,false⟩⟩,⟨256,.cr,false,some ⟨8,[.setEnt .internalNl,.cb,.code],none,false⟩⟩,⟨256,.cr,true,some ⟨8,[.setEnt .internalNl,.cb,.code],none,false⟩⟩,⟨34,.other,false,some ⟨0,[.setEnt .internalNl,.cb],some 2,true⟩⟩,⟨39,.other,false,some ⟨8,[.setEnt .internalNl,.cb,.code],none,false⟩⟩,⟨40,.other,false,some ⟨8,[.setEnt .internalNl,.cb,.code],none,false⟩⟩,⟨41,.other,false,some ⟨8,[.setEnt .internalNl,.cb,.code],none,false⟩⟩,⟨42,.other,false,some ⟨8,[.setEnt .internalNl,.cb,.code],none,false⟩⟩,⟨47,.other,false,some ⟨8,[.setEnt .internalNl,.cb,.code],none,false⟩⟩,⟨92,.other,false,some ⟨10,[.setEnt .internalNl,.cb],none,false⟩⟩]⟩,⟨[37,42],none,[],[⟨256,.other,false,some ⟨8,[.setEnt .internalNl,.cb,.code],none,false⟩⟩,⟨256,.ws,false,some ⟨9,[.setEnt .internalNl,.cb],none,false⟩⟩,⟨256,.lf,false,some ⟨8,[.setEnt .internalNl,.cb,.code],none,false⟩⟩,⟨256,.vt,false,some ⟨8,[.setEnt .internalNl,.cb,.code],none,false⟩⟩,⟨256,.ff,false,some ⟨8,[.setEnt .internalNl,.cb,.code],none,false⟩⟩,⟨256,.cr,false,some ⟨8,[.setEnt .internalNl,.cb,.code],none,false⟩⟩,⟨256,.cr,true,some ⟨8,[.setEnt .internalNl,.cb,.code],none,false⟩⟩,⟨34,.other,false,some ⟨0,[.setEnt .internalNl,.cb],some 2,true⟩⟩,⟨39,.other,false,some ⟨8,[.setEnt .internalNl,.cb,.code],none,false⟩⟩,⟨40,.other,false,some ⟨8,[.setEnt .internalNl,.cb,.code],none,false⟩⟩,⟨41,.other,false,some ⟨8,[.setEnt .internalNl,.cb,.code],none,false⟩⟩,⟨42,.other,false,some ⟨8,[.setEnt .internalNl,.cb,.code],none,false⟩⟩,⟨47,.other,false,some ⟨8,[.setEnt .internalNl,.cb,.code],none,false⟩⟩,⟨92,.other,false,some ⟨10,[.setEnt .internalNl,.cb],none,false⟩⟩]⟩,⟨[25],none,[],[⟨256,.other,false,some ⟨11,[.setEnt .internalNl,.cb,.code],none,false⟩⟩,⟨256,.ws,false,some ⟨12,[.setEnt .internalNl,.cb],none,false⟩⟩,⟨256,.lf,false,some ⟨11,[.setEnt .internalNl,.cb,.code],none,false⟩⟩,⟨256,.vt,false,some ⟨11,[.setEnt .internalNl,.cb,.code],none,false⟩⟩,⟨256,.ff,false,some ⟨11,[.setEnt .internalNl,.cb,.code],none,false⟩⟩,⟨256,.cr,false,some ⟨11,[.setEnt .internalNl,.cb,.code],none,false⟩⟩,⟨256,.cr,true,some ⟨11,[.setEnt .internalNl,.cb,.code],none,false⟩⟩,⟨34,.other,false,some ⟨11,[.setEnt .internalNl,.cb,.code],none,false⟩⟩,⟨39,.other,false,some ⟨0,[.setEnt .internalNl,.cb],some 2,true⟩⟩,⟨40,.other,false,some ⟨11,[.setEnt .internalNl,.cb,.code],none,false⟩⟩,⟨41,.other,false,some ⟨11,[.setEnt .internalNl,.cb,.code],none,false⟩⟩,⟨42,.other,false,some ⟨11,[.setEnt .internalNl,.cb,.code],none,false⟩⟩,⟨47,.other,false,some ⟨11,[.setEnt .internalNl,.cb,.code],none,false⟩⟩,⟨92,.other,false,some ⟨13,[.setEnt .internalNl,.cb],none,false⟩⟩]⟩,⟨[25,30],none,[],[⟨256,.other,false,some ⟨11,[.setEnt .internalNl,.cb,.code],none,false⟩⟩,⟨256,.ws,false,some ⟨12,[.setEnt .internalNl,.cb],none,false⟩⟩,⟨256,.lf,false,some ⟨11,[.setEnt .internalNl,.cb,.code],none,false⟩⟩,⟨256,.vt,false,some ⟨11,[.setEnt .internalNl,.cb,.code],none,false⟩⟩,⟨256,.ff,false,some ⟨11,[.setEnt .internalNl,.cb,.code],none,false⟩⟩,⟨256,.cr,false,some ⟨11,[.setEnt .internalNl,.cb,.code],none,false⟩⟩,⟨256,.cr,true,some ⟨11,[.setEnt .internalNl,.cb,.code],none,false⟩⟩,⟨34,.other,false,some ⟨11,[.setEnt .internalNl,.cb,.code],none,false⟩⟩,⟨39,.other,false,some ⟨0,[.setEnt .internalNl,.cb],some 2,true⟩⟩,⟨40,.other,false,some ⟨11,[.setEnt .internalNl,.cb,.code],none,false⟩⟩,⟨41,.other,false,some ⟨11,[.setEnt .internalNl,.cb,.code],none,false⟩⟩,⟨42,.other,false,some ⟨11,[.setEnt .internalNl,.cb,.code],none,false⟩⟩,⟨47,.other,false,some ⟨11,[.setEnt .internalNl,.cb,.code],none,false⟩⟩,⟨92,.other,false,some ⟨13,[.setEnt .internalNl,.cb],none,false⟩⟩]⟩,⟨[14],none,[],[⟨256,.other,false,some ⟨26,[.setEnt .internalNl,.cb,.comment],none,false⟩⟩,⟨256,.ws,false,some ⟨27,[.setEnt .internalNl,.cb],none,false⟩⟩,⟨256,.lf,false,some ⟨28,[.setEnt .internalNl,.cb],none,false⟩⟩,⟨256,.vt,false,some ⟨26,[.setEnt .internalNl,.cb,.comment],none,false⟩⟩,⟨256,.ff,false,some ⟨29,[.setEnt .internalNl,.cb],none,false⟩⟩,⟨256,.cr,false,some ⟨30,[.setEnt .internalNl,.cb],none,false⟩⟩,⟨256,.cr,true,some ⟨31,[.setEnt .internalNl,.cb],none,false⟩⟩,⟨34,.other,false,some ⟨26,[.setEnt .internalNl,.cb,.comment],none,false⟩⟩,⟨39,.other,false,some ⟨26,[.setEnt .internalNl,.cb,.comment],none,false⟩⟩,⟨40,.other,false,some ⟨26,[.setEnt .internalNl,.cb,.comment],none,false⟩⟩,⟨41,.other,false,some ⟨26,[.setEnt .internalNl,.cb,.comment],none,false⟩⟩,⟨42,.other,false,some ⟨32,[.setEnt .internalNl,.cb,.comment],none,false⟩⟩,⟨47,.other,false,some ⟨26,[.setEnt .internalNl,.cb,.comment],none,false⟩⟩,⟨92,.other,false,some ⟨26,[.setEnt .internalNl,.cb,.comment],none,false⟩⟩]⟩,⟨[14,15],none,[],[⟨256,.other,false,some ⟨26,[.setEnt .internalNl,.cb,.comment],none,false⟩⟩,⟨256,.ws,false,some ⟨27,[.setEnt .internalNl,.cb],none,false⟩⟩,⟨256,.lf,false,some ⟨28,[.setEnt .internalNl,.cb],none,false⟩⟩,⟨256,.vt,false,some ⟨26,[.setEnt .internalNl,.cb,.comment],none,false⟩⟩,⟨256,.ff,false,some ⟨29,[.setEnt .internalNl,.cb],none,false⟩⟩,⟨256,.cr,false,some ⟨30,[.setEnt .internalNl,.cb],none,false⟩⟩,⟨256,.cr,true,some ⟨31,[.setEnt .internalNl,.cb],none,false⟩⟩,⟨34,.other,false,some ⟨26,[.setEnt .internalNl,.cb,.comment],none,false⟩⟩,⟨39,.other,false,some ⟨26,[.setEnt .internalNl,.cb,.comment],none,false⟩⟩,⟨40,.other,false,some ⟨26,[.setEnt .internalNl,.cb,.comment],none,false⟩⟩,⟨41,.other,false,some ⟨26,[.setEnt .internalNl,.cb,.comment],none,false⟩⟩,⟨42,.other,false,some ⟨32,[.setEnt .internalNl,.cb,.comment],none,false⟩⟩,⟨47,.other,false,some ⟨26,[.setEnt .internalNl,.cb,.comment],none,false⟩⟩,⟨92,.other,false,some ⟨26,[.setEnt .internalNl,.cb,.comment],none,false⟩⟩]⟩,⟨[6],some 1,[.setEnt .internalNl,.cb],[⟨256,.other,false,some ⟨33,[.setEnt .internalNl,.cb,.comment],some 1,false⟩⟩,⟨256,.ws,false,some ⟨34,[.setEnt .internalNl,.cb],some 1,false⟩⟩,⟨256,.lf,false,none⟩,⟨256,.vt,false,some ⟨33,[.setEnt .internalNl,.cb,.comment],some 1,false⟩⟩,⟨256,.ff,false,none⟩,⟨256,.cr,false,none⟩,⟨256,.cr,true,none⟩,⟨34,.other,false,some ⟨33,[.setEnt .internalNl,.cb,.comment],some 1,false⟩⟩,⟨39,.other,false,some ⟨33,[.setEnt .internalNl,.cb,.comment],some 1,false⟩⟩,⟨40,.other,false,some ⟨33,[.setEnt .internalNl,.cb,.comment],some 1,false⟩⟩,⟨41,.other,false,some ⟨33,[.setEnt .internalNl,.cb,.comment],some 1,false⟩⟩,⟨42,.other,false,some ⟨33,[.setEnt .internalNl,.cb,.comment],some 1,false⟩⟩,⟨47,.other,false,some ⟨33,[.setEnt .internalNl,.cb,.comment],some 1,false⟩⟩,⟨92,.other,false,some ⟨35,[.setEnt .internalNl,.cb,.comment],some 1,false⟩⟩]⟩,⟨[7],some 1,[.setEnt .internalNl,.cb],[⟨256,.other,false,some ⟨33,[.setEnt .internalNl,.cb,.comment],some 1,false⟩⟩,⟨256,.ws,false,some ⟨34,[.setEnt .internalNl,.cb],some 1,false⟩⟩,⟨256,.lf,false,none⟩,⟨256,.vt,false,some ⟨33,[.setEnt .internalNl,.cb,.comment],some 1,false⟩⟩,⟨256,.ff,false,none⟩,⟨256,.cr,false,none⟩,⟨256,.cr,true,none⟩,⟨34,.other,false,some ⟨33,[.setEnt .internalNl,.cb,.comment],some 1,false⟩⟩,⟨39,.other,false,some ⟨33,[.setEnt .internalNl,.cb,.comment],some 1,false⟩⟩,⟨40,.other,false,some ⟨33,[.setEnt .internalNl,.cb,.comment],some 1,false⟩⟩,⟨41,.other,false,some ⟨33,[.setEnt .internalNl,.cb,.comment],some 1,false⟩⟩,⟨42,.other,false,some ⟨33,[.setEnt .internalNl,.cb,.comment],some 1,false⟩⟩,⟨47,.other,false,some ⟨33,[.setEnt .internalNl,.cb,.comment],some 1,false⟩⟩,⟨92,.other,false,some ⟨35,[.setEnt .internalNl,.cb,.comment],some 1,false⟩⟩]⟩,⟨[4],none,[],[⟨256,.other,false,none⟩,⟨256,.ws,false,none⟩,⟨256,.lf,false,some ⟨46,[],some 1,false⟩⟩,⟨256,.vt,false,none⟩,⟨256,.ff,false,none⟩,⟨256,.cr,false,none⟩,⟨256,.cr,true,none⟩,⟨34,.other,false,none⟩,⟨39,.other,false,none⟩,⟨40,.other,false,none⟩,⟨41,.other,false,none⟩,⟨42,.other,false,none⟩,⟨47,.other,false,none⟩,⟨92,.other,false,none⟩]⟩,⟨[4,8],some 1,[.setEnt .internalNl,.cb],[⟨256,.other,false,some ⟨33,[.setEnt .internalNl,.cb,.comment],some 1,false⟩⟩,⟨256,.ws,false,some ⟨34,[.setEnt .internalNl,.cb],some 1,false⟩⟩,⟨256,.lf,false,some ⟨46,[],some 1,false⟩⟩,⟨256,.vt,false,some ⟨33,[.setEnt .internalNl,.cb,.comment],some 1,false⟩⟩,⟨256,.ff,false,none⟩,⟨256,.cr,false,none⟩,⟨256,.cr,true,none⟩,⟨34,.other,false,some ⟨33,[.setEnt .internalNl,.cb,.comment],some 1,false⟩⟩,⟨39,.other,false,some ⟨33,[.setEnt .internalNl,.cb,.comment],some 1,false⟩⟩,⟨40,.other,false,some ⟨33,[.setEnt .internalNl,.cb,.comment],some 1,false⟩⟩,⟨41,.other,false,some ⟨33,[.setEnt .internalNl,.cb,.comment],some 1,false⟩⟩,⟨42,.other,false,some ⟨33,[.setEnt .internalNl,.cb,.comment],some 1,false⟩⟩,⟨47,.other,false,some ⟨33,[.setEnt .internalNl,.cb,.comment],some 1,false⟩⟩,⟨92,.other,false,some ⟨35,[.setEnt .internalNl,.cb,.comment],some 1,false⟩⟩]⟩,⟨[5],some 1,[.setEnt .internalNl,.cb],[⟨256,.other,false,some ⟨33,[.setEnt .internalNl,.cb,.comment],some 1,false⟩⟩,⟨256,.ws,false,some ⟨34,[.setEnt .internalNl,.cb],some 1,false⟩⟩,⟨256,.lf,false,none⟩,⟨256,.vt,false,some ⟨33,[.setEnt .internalNl,.cb,.comment],some 1,false⟩⟩,⟨256,.ff,false,none⟩,⟨256,.cr,false,none⟩,⟨256,.cr,true,none⟩,⟨34,.other,false,some ⟨33,[.setEnt .internalNl,.cb,.comment],some 1,false⟩⟩,⟨39,.other,false,some ⟨33,[.setEnt .internalNl,.cb,.comment],some 1,false⟩⟩,⟨40,.other,false,some ⟨33,[.setEnt .internalNl,.cb,.comment],some 1,false⟩⟩,⟨41,.other,false,some ⟨33,[.setEnt .internalNl,.cb,.comment],some 1,false⟩⟩,⟨42,.other,false,some ⟨33,[.setEnt .internalNl,.cb,.comment],some 1,false⟩⟩,⟨47,.other,false,some ⟨33,[.setEnt .internalNl,.cb,.comment],some 1,false⟩⟩,⟨92,.other,false,some ⟨35,[.setEnt .internalNl,.cb,.comment],some 1,false⟩⟩]⟩]
theorem fsharp_line_lrowsOk : rowsOk fsharp_line_nfa fsharp_line_lex.rel (fsharp_line_lcs.map (·.1)) fsharp_line_lrows = true := by decide +kernel
def fsharp_line_lfr : List CA.FRow := [⟨true,none,[],[⟨256,.other,false,false,none,some ([.setEnt (.own 8)],(some 4,true))⟩,⟨9,.ws,false,false,some 1,some ([.setEnt (.own 0)],(some 0,false))⟩,⟨10,.lf,false,true,none,some ([.setEnt .newline],(some 3,true))⟩,⟨11,.vt,false,false,none,none⟩,⟨12,.ff,false,true,none,some ([.setEnt .newline],(some 3,true))⟩,⟨13,.cr,false,false,some 2,some ([.setEnt .newline],(none,false))⟩,⟨13,.cr,true,true,some 3,some ([.setEnt .newline],(some 3,false))⟩,⟨34,.other,false,false,some 4,some ([.code,.setEnt (.own 8)],(some 4,false))⟩,⟨39,.other,false,false,some 5,some ([.code,.setEnt (.own 8)],(some 4,false))⟩,⟨40,.other,false,false,some 6,some ([.setEnt (.own 8)],(some 4,false))⟩,⟨41,.other,false,false,none,some ([.setEnt (.own 8)],(some 4,true))⟩,⟨42,.other,false,false,none,some ([.setEnt (.own 8)],(some 4,true))⟩,⟨47,.other,false,false,some 7,some ([.setEnt (.own 8)],(some 4,false))⟩,⟨92,.other,false,false,none,some ([.setEnt (.own 8)],(some 4,true))⟩]⟩,⟨false,some 0,[],[⟨256,.other,false,false,none,none⟩,⟨9,.ws,false,false,some 1,some ([.setEnt (.own 0)],(some 0,false))⟩,⟨10,.lf,false,true,none,none⟩,⟨11,.vt,false,false,none,none⟩,⟨12,.ff,false,true,none,none⟩,⟨13,.cr,false,false,none,none⟩,⟨13,.cr,true,true,none,none⟩,⟨34,.other,false,false,none,none⟩,⟨39,.other,false,false,none,none⟩,⟨40,.other,false,false,none,none⟩,⟨41,.other,false,false,none,none⟩,⟨42,.other,false,false,none,none⟩,⟨47,.other,false,false,none,none⟩,⟨92,.other,false,false,none,none⟩]⟩,⟨false,none,[],[⟨256,.other,false,false,none,none⟩,⟨9,.ws,false,false,none,none⟩,⟨10,.lf,false,true,none,some ([.setEnt .newline],(some 3,true))⟩,⟨11,.vt,false,false,none,none⟩,⟨12,.ff,false,true,none,none⟩,⟨13,.cr,false,false,none,none⟩,⟨13,.cr,true,true,none,none⟩,⟨34,.other,false,false,none,none⟩,⟨39,.other,false,false,none,none⟩,⟨40,.other,false,false,none,none⟩,⟨41,.other,false,false,none,none⟩,⟨42,.other,false,false,none,none⟩,⟨47,.other,false,false,none,none⟩,⟨92,.other,false,false,none,none⟩]⟩,⟨false,some 3,[],[⟨256,.other,false,false,none,none⟩,⟨9,.ws,false,false,none,none⟩,⟨10,.lf,false,true,none,some ([.setEnt .newline],(some 3,true))⟩,⟨11,.vt,false,false,none,none⟩,⟨12,.ff,false,true,none,none⟩,⟨13,.cr,false,false,none,none⟩,⟨13,.cr,true,true,none,none⟩,⟨34,.other,false,false,none,none⟩,⟨39,.other,false,false,none,none⟩,⟨40,.other,false,false,none,none⟩,⟨41,.other,false,false,none,none⟩,⟨42,.other,false,false,none,none⟩,⟨47,.other,false,false,none,none⟩,⟨92,.other,false,false,none,none⟩]⟩,⟨false,some 4,[],[⟨256,.other,false,false,some 8,some ([.code],(none,false))⟩,⟨9,.ws,false,false,some 9,some ([],(none,false))⟩,⟨10,.lf,false,true,some 8,some ([.code],(none,false))⟩,⟨11,.vt,false,false,some 8,some ([.code],(none,false))⟩,⟨12,.ff,false,true,some 8,some ([.code],(none,false))⟩,⟨13,.cr,false,false,some 8,some ([.code],(none,false))⟩,⟨13,.cr,true,true,some 8,some ([.code],(none,false))⟩,⟨34,.other,false,false,none,some ([],(some 2,true))⟩,⟨39,.other,false,false,some 8,some ([.code],(none,false))⟩,⟨40,.other,false,false,some 8,some ([.code],(none,false))⟩,⟨41,.other,false,false,some 8,some ([.code],(none,false))⟩,⟨42,.other,false,false,some 8,some ([.code],(none,false))⟩,⟨47,.other,false,false,some 8,some ([.code],(none,false))⟩,⟨92,.other,false,false,some 10,some ([],(none,false))⟩]⟩,⟨false,some 4,[],[⟨256,.other,false,false,some 11,some ([.code],(none,false))⟩,⟨9,.ws,false,false,some 12,some ([],(none,false))⟩,⟨10,.lf,false,true,some 11,some ([.code],(none,false))⟩,⟨11,.vt,false,false,some 11,some ([.code],(none,false))⟩,⟨12,.ff,false,true,some 11,some ([.code],(none,false))⟩,⟨13,.cr,false,false,some 11,some ([.code],(none,false))⟩,⟨13,.cr,true,true,some 11,some ([.code],(none,false))⟩,⟨34,.other,false,false,some 11,some ([.code],(none,false))⟩,⟨39,.other,false,false,none,some ([],(some 2,true))⟩,⟨40,.other,false,false,some 11,some ([.code],(none,false))⟩,⟨41,.other,false,false,some 11,some ([.code],(none,false))⟩,⟨42,.other,false,false,some 11,some ([.code],(none,false))⟩,⟨47,.other,false,false,some 11,some ([.code],(none,false))⟩,⟨92,.other,false,false,some 13,some ([],(none,false))⟩]⟩,⟨false,some 4,[],[⟨256,.other,false,false,none,none⟩,⟨9,.ws,false,false,none,none⟩,⟨10,.lf,false,true,none,none⟩,⟨11,.vt,false,false,none,none⟩,⟨12,.ff,false,true,none,none⟩,⟨13,.cr,false,false,none,none⟩,⟨13,.cr,true,true,none,none⟩,⟨34,.other,false,false,none,none⟩,⟨39,.other,false,false,none,none⟩,⟨40,.other,false,false,none,none⟩,⟨41,.other,false,false,none,none⟩,⟨42,.other,false,false,some 14,some ([.comment],(none,false))⟩,⟨47,.other,false,false,none,none⟩,⟨92,.other,false,false,none,none⟩]⟩,⟨false,some 4,[],[⟨256,.other,false,false,none,none⟩,⟨9,.ws,false,false,none,none⟩,⟨10,.lf,false,true,none,none⟩,⟨11,.vt,false,false,none,none⟩,⟨12,.ff,false,true,none,none⟩,⟨13,.cr,false,false,none,none⟩,⟨13,.cr,true,true,none,none⟩,⟨34,.other,false,false,none,none⟩,⟨39,.other,false,false,none,none⟩,⟨40,.other,false,false,none,none⟩,⟨41,.other,false,false,none,none⟩,⟨42,.other,false,false,none,none⟩,⟨47,.other,false,false,some 15,some ([.comment],(some 1,false))⟩,⟨92,.other,false,false,none,none⟩]⟩,⟨false,none,[],[⟨256,.other,false,false,some 8,some ([.code],(none,false))⟩,⟨9,.ws,false,false,some 9,some ([],(none,false))⟩,⟨10,.lf,false,true,some 8,some ([.code],(none,false))⟩,⟨11,.vt,false,false,some 8,some ([.code],(none,false))⟩,⟨12,.ff,false,true,some 8,some ([.code],(none,false))⟩,⟨13,.cr,false,false,some 8,some ([.code],(none,false))⟩,⟨13,.cr,true,true,some 8,some ([.code],(none,false))⟩,⟨34,.other,false,false,none,some ([],(some 2,true))⟩,⟨39,.other,false,false,some 8,some ([.code],(none,false))⟩,⟨40,.other,false,false,some 8,some ([.code],(none,false))⟩,⟨41,.other,false,false,some 8,some ([.code],(none,false))⟩,⟨42,.other,false,false,some 8,some ([.code],(none,false))⟩,⟨47,.other,false,false,some 8,some ([.code],(none,false))⟩,⟨92,.other,false,false,some 10,some ([],(none,false))⟩]⟩,⟨false,none,[],[⟨256,.other,false,false,some 8,some ([.code],(none,false))⟩,⟨9,.ws,false,false,some 9,some ([],(none,false))⟩,⟨10,.lf,false,true,some 8,some ([.code],(none,false))⟩,⟨11,.vt,false,false,some 8,some ([.code],(none,false))⟩,⟨12,.ff,false,true,some 8,some ([.code],(none,false))⟩,⟨13,.cr,false,false,some 8,some ([.code],(none,false))⟩,⟨13,.cr,true,true,some 8,some ([.code],(none,false))⟩,⟨34,.other,false,false,none,some ([],(some 2,true))⟩,⟨39,.other,false,false,some 8,some ([.code],(none,false))⟩,⟨40,.other,false,false,some 8,some ([.code],(none,false))⟩,⟨41,.other,false,false,some 8,some ([.code],(none,false))⟩,⟨42,.other,false,false,some 8,some ([.code],(none,false))⟩,⟨47,.other,false,false,some 8,some ([.code],(none,false))⟩,⟨92,.other,false,false,some 10,some ([],(none,false))⟩]⟩,⟨false,none,[],[⟨256,.other,false,false,some 16,some ([.code],(none,false))⟩,⟨9,.ws,false,false,some 16,some ([.code],(none,false))⟩,⟨10,.lf,false,true,some 17,some ([],(none,false))⟩,⟨11,.vt,false,false,some 16,some ([.code],(none,false))⟩,⟨12,.ff,false,true,some 18,some ([],(none,false))⟩,⟨13,.cr,false,false,some 19,some ([],(none,false))⟩,⟨13,.cr,true,true,some 20,some ([],(none,false))⟩,⟨34,.other,false,false,some 16,some ([.code],(none,false))⟩,⟨39,.other,false,false,some 16,some ([.code],(none,false))⟩,⟨40,.other,false,false,some 16,some ([.code],(none,false))⟩,⟨41,.other,false,false,some 16,some ([.code],(none,false))⟩,⟨42,.other,false,false,some 16,some ([.code],(none,false))⟩,⟨47,.other,false,false,some 16,some ([.code],(none,false))⟩,⟨92,.other,false,false,some 16,some ([.code],(none,false))⟩]⟩,⟨false,none,[],[⟨256,.other,false,false,some 11,some ([.code],(none,false))⟩,⟨9,.ws,false,false,some 12,some ([],(none,false))⟩,⟨10,.lf,false,true,some 11,some ([.code],(none,false))⟩,⟨11,.vt,false,false,some 11,some ([.code],(none,false))⟩,⟨12,.ff,false,true,some 11,some ([.code],(none,false))⟩,⟨13,.cr,false,false,some 11,some ([.code],(none,false))⟩,⟨13,.cr,true,true,some 11,some ([.code],(none,false))⟩,⟨34,.other,false,false,some 11,some ([.code],(none,false))⟩,⟨39,.other,false,false,none,some ([],(some 2,true))⟩,⟨40,.other,false,false,some 11,some ([.code],(none,false))⟩,⟨41,.other,false,false,some 11,some ([.code],(none,false))⟩,⟨42,.other,false,false,some 11,some ([.code],(none,false))⟩,⟨47,.other,false,false,some 11,some ([.code],(none,false))⟩,⟨92,.other,false,false,some 13,some ([],(none,false))⟩]⟩,⟨false,none,[],[⟨256,.other,false,false,some 11,some ([.code],(none,false))⟩,⟨9,.ws,false,false,some 12,some ([],(none,false))⟩,⟨10,.lf,false,true,some 11,some ([.code],(none,false))⟩,⟨11,.vt,false,false,some 11,some ([.code],(none,false))⟩,⟨12,.ff,false,true,some 11,some ([.code],(none,false))⟩,⟨13,.cr,false,false,some 11,some ([.code],(none,false))⟩,⟨13,.cr,true,true,some 11,some ([.code],(none,false))⟩,⟨34,.other,false,false,some 11,some ([.code],(none,false))⟩,⟨39,.other,false,false,none,some ([],(some 2,true))⟩,⟨40,.other,false,false,some 11,some ([.code],(none,false))⟩,⟨41,.other,false,false,some 11,some ([.code],(none,false))⟩,⟨42,.other,false,false,some 11,some ([.code],(none,false))⟩,⟨47,.other,false,false,some 11,some ([.code],(none,false))⟩,⟨92,.other,false,false,some 13,some ([],(none,false))⟩]⟩,⟨false,none,[],[⟨256,.other,false,false,some 21,some ([.code],(none,false))⟩,⟨9,.ws,false,false,some 21,some ([.code],(none,false))⟩,⟨10,.lf,false,true,some 22,some ([],(none,false))⟩,⟨11,.vt,false,false,some 21,some ([.code],(none,false))⟩,⟨12,.ff,false,true,some 23,some ([],(none,false))⟩,⟨13,.cr,false,false,some 24,some ([],(none,false))⟩,⟨13,.cr,true,true,some 25,some ([],(none,false))⟩,⟨34,.other,false,false,some 21,some ([.code],(none,false))⟩,⟨39,.other,false,false,some 21,some ([.code],(none,false))⟩,⟨40,.other,false,false,some 21,some ([.code],(none,false))⟩,⟨41,.other,false,false,some 21,some ([.code],(none,false))⟩,⟨42,.other,false,false,some 21,some ([.code],(none,false))⟩,⟨47,.other,false,false,some 21,some ([.code],(none,false))⟩,⟨92,.other,false,false,some 21,some ([.code],(none,false))⟩]⟩,⟨false,none,[],[⟨256,.other,false,false,some 26,some ([.comment],(none,false))⟩,⟨9,.ws,false,false,some 27,some ([],(none,false))⟩,⟨10,.lf,false,true,some 28,some ([],(none,false))⟩,⟨11,.vt,false,false,some 26,some ([.comment],(none,false))⟩,⟨12,.ff,false,true,some 29,some ([],(none,false))⟩,⟨13,.cr,false,false,some 30,some ([],(none,false))⟩,⟨13,.cr,true,true,some 31,some ([],(none,false))⟩,⟨34,.other,false,false,some 26,some ([.comment],(none,false))⟩,⟨39,.other,false,false,some 26,some ([.comment],(none,false))⟩,⟨40,.other,false,false,some 26,some ([.comment],(none,false))⟩,⟨41,.other,false,false,some 26,some ([.comment],(none,false))⟩,⟨42,.other,false,false,some 32,some ([.comment],(none,false))⟩,⟨47,.other,false,false,some 26,some ([.comment],(none,false))⟩,⟨92,.other,false,false,some 26,some ([.comment],(none,false))⟩]⟩,⟨false,some 1,[],[⟨256,.other,false,false,some 33,some ([.comment],(some 1,false))⟩,⟨9,.ws,false,false,some 34,some ([],(some 1,false))⟩,⟨10,.lf,false,true,none,none⟩,⟨11,.vt,false,false,some 33,some ([.comment],(some 1,false))⟩,⟨12,.ff,false,true,none,none⟩,⟨13,.cr,false,false,none,none⟩,⟨13,.cr,true,true,none,none⟩,⟨34,.other,false,false,some 33,some ([.comment],(some 1,false))⟩,⟨39,.other,false,false,some 33,some ([.comment],(some 1,false))⟩,⟨40,.other,false,false,some 33,some ([.comment],(some 1,false))⟩,⟨41,.other,false,false,some 33,some ([.comment],(some 1,false))⟩,⟨42,.other,false,false,some 33,some ([.comment],(some 1,false))⟩,⟨47,.other,false,false,some 33,some ([.comment],(some 1,false))⟩,⟨92,.other,false,false,some 35,some ([.comment],(some 1,false))⟩]⟩,⟨false,none,[],[⟨256,.other,false,false,some 8,some ([.code],(none,false))⟩,⟨9,.ws,false,false,some 9,some ([],(none,false))⟩,⟨10,.lf,false,true,some 8,some ([.code],(none,false))⟩,⟨11,.vt,false,false,some 8,some ([.code],(none,false))⟩,⟨12,.ff,false,true,some 8,some ([.code],(none,false))⟩,⟨13,.cr,false,false,some 8,some ([.code],(none,false))⟩,⟨13,.cr,true,true,some 8,some ([.code],(none,false))⟩,⟨34,.other,false,false,none,some ([],(some 2,true))⟩,⟨39,.other,false,false,some 8,some ([.code],(none,false))⟩,⟨40,.other,false,false,some 8,some ([.code],(none,false))⟩,⟨41,.other,false,false,some 8,some ([.code],(none,false))⟩,⟨42,.other,false,false,some 8,some ([.code],(none,false))⟩,⟨47,.other,false,false,some 8,some ([.code],(none,false))⟩,⟨92,.other,false,false,some 10,some ([],(none,false))⟩]⟩,⟨false,none,[],[⟨256,.other,false,false,some 8,some ([.setEnt .internalNl,.cb,.code],(none,false))⟩,⟨9,.ws,false,false,some 9,some ([.setEnt .internalNl,.cb],(none,false))⟩,⟨10,.lf,false,true,some 8,some ([.setEnt .internalNl,.cb,.code],(none,false))⟩,⟨11,.vt,false,false,some 8,some ([.setEnt .internalNl,.cb,.code],(none,false))⟩,⟨12,.ff,false,true,some 8,some ([.setEnt .internalNl,.cb,.code],(none,false))⟩,⟨13,.cr,false,false,some 8,some ([.setEnt .internalNl,.cb,.code],(none,false))⟩,⟨13,.cr,true,true,some 8,some ([.setEnt .internalNl,.cb,.code],(none,false))⟩,⟨34,.other,false,false,none,some ([.setEnt .internalNl,.cb],(some 2,true))⟩,⟨39,.other,false,false,some 8,some ([.setEnt .internalNl,.cb,.code],(none,false))⟩,⟨40,.other,false,false,some 8,some ([.setEnt .internalNl,.cb,.code],(none,false))⟩,⟨41,.other,false,false,some 8,some ([.setEnt .internalNl,.cb,.code],(none,false))⟩,⟨42,.other,false,false,some 8,some ([.setEnt .internalNl,.cb,.code],(none,false))⟩,⟨47,.other,false,false,some 8,some ([.setEnt .internalNl,.cb,.code],(none,false))⟩,⟨92,.other,false,false,some 10,some ([.setEnt .internalNl,.cb],(none,false))⟩]⟩,⟨false,none,[],[⟨256,.other,false,false,some 8,some ([.setEnt .internalNl,.cb,.code],(none,false))⟩,⟨9,.ws,false,false,some 9,some ([.setEnt .internalNl,.cb],(none,false))⟩,⟨10,.lf,false,true,some 8,some ([.setEnt .internalNl,.cb,.code],(none,false))⟩,⟨11,.vt,false,false,some 8,some ([.setEnt .internalNl,.cb,.code],(none,false))⟩,⟨12,.ff,false,true,some 8,some ([.setEnt .internalNl,.cb,.code],(none,false))⟩,⟨13,.cr,false,false,some 8,some ([.setEnt .internalNl,.cb,.code],(none,false))⟩,⟨13,.cr,true,true,some 8,some ([.setEnt .internalNl,.cb,.code],(none,false))⟩,⟨34,.other,false,false,none,some ([.setEnt .internalNl,.cb],(some 2,true))⟩,⟨39,.other,false,false,some 8,some ([.setEnt .internalNl,.cb,.code],(none,false))⟩,⟨40,.other,false,false,some 8,some ([.setEnt .internalNl,.cb,.code],(none,false))⟩,⟨41,.other,false,false,some 8,some ([.setEnt .internalNl,.cb,.code],(none,false))⟩,⟨42,.other,false,false,some 8,some ([.setEnt .internalNl,.cb,.code],(none,false))⟩,⟨47,.other,false,false,some 8,some ([.setEnt .internalNl,.cb,.code],(none,false))⟩,⟨92,.other,false,false,some 10,some ([.setEnt .internalNl,.cb],(none,false))⟩]⟩,⟨false,none,[],[⟨256,.other,false,false,none,none⟩,⟨9,.ws,false,false,none,none⟩,⟨10,.lf,false,true,some 36,some ([],(none,false))⟩,⟨11,.vt,false,false,none,none⟩,⟨12,.ff,false,true,none,none⟩,⟨13,.cr,false,false,none,none⟩,⟨13,.cr,true,true,none,none⟩,⟨34,.other,false,false,none,none⟩,⟨39,.other,false,false,none,none⟩,⟨40,.other,false,false,none,none⟩,⟨41,.other,false,false,none,none⟩,⟨42,.other,false,false,none,none⟩,⟨47,.other,false,false,none,none⟩,⟨92,.other,false,false,none,none⟩]⟩,⟨false,none,[],[⟨256,.other,false,false,some 8,some ([.setEnt .internalNl,.cb,.code],(none,false))⟩,⟨9,.ws,false,false,some 9,some ([.setEnt .internalNl,.cb],(none,false))⟩,⟨10,.lf,false,true,some 37,some ([.setEnt .internalNl,.cb,.code],(none,false))⟩,⟨11,.vt,false,false,some 8,some ([.setEnt .internalNl,.cb,.code],(none,false))⟩,⟨12,.ff,false,true,some 8,some ([.setEnt .internalNl,.cb,.code],(none,false))⟩,⟨13,.cr,false,false,some 8,some ([.setEnt .internalNl,.cb,.code],(none,false))⟩,⟨13,.cr,true,true,some 8,some ([.setEnt .internalNl,.cb,.code],(none,false))⟩,⟨34,.other,false,false,none,some ([.setEnt .internalNl,.cb],(some 2,true))⟩,⟨39,.other,false,false,some 8,some ([.setEnt .internalNl,.cb,.code],(none,false))⟩,⟨40,.other,false,false,some 8,some ([.setEnt .internalNl,.cb,.code],(none,false))⟩,⟨41,.other,false,false,some 8,some ([.setEnt .internalNl,.cb,.code],(none,false))⟩,⟨42,.other,false,false,some 8,some ([.setEnt .internalNl,.cb,.code],(none,false))⟩,⟨47,.other,false,false,some 8,some ([.setEnt .internalNl,.cb,.code],(none,false))⟩,⟨92,.other,false,false,some 10,some ([.setEnt .internalNl,.cb],(none,false))⟩]⟩,⟨false,none,[],[⟨256,.other,false,false,some 11,some ([.code],(none,false))⟩,⟨9,.ws,false,false,some 12,some ([],(none,false))⟩,⟨10,.lf,false,true,some 11,some ([.code],(none,false))⟩,⟨11,.vt,false,false,some 11,some ([.code],(none,false))⟩,⟨12,.ff,false,true,some 11,some ([.code],(none,false))⟩,⟨13,.cr,false,false,some 11,some ([.code],(none,false))⟩,⟨13,.cr,true,true,some 11,some ([.code],(none,false))⟩,⟨34,.other,false,false,some 11,some ([.code],(none,false))⟩,⟨39,.other,false,false,none,some ([],(some 2,true))⟩,⟨40,.other,false,false,some 11,some ([.code],(none,false))⟩,⟨41,.other,false,false,some 11,some ([.code],(none,false))⟩,⟨42,.other,false,false,some 11,some ([.code],(none,false))⟩,⟨47,.other,false,false,some 11,some ([.code],(none,false))⟩,⟨92,.other,false,false,some 13,some ([],(none,false))⟩]⟩,⟨false,none,[],[⟨256,.other,false,false,some 11,some ([.setEnt .internalNl,.cb,.code],(none,false))⟩,⟨9,.ws,false,false,some 12,some ([.setEnt .internalNl,.cb],(none,false))⟩,⟨10,.lf,false,true,some 11,some ([.setEnt .internalNl,.cb,.code],(none,false))⟩,⟨11,.vt,false,false,some 11,some ([.setEnt .internalNl,.cb,.code],(none,false))⟩,⟨12,.ff,false,true,some 11,some ([.setEnt .internalNl,.cb,.code],(none,false))⟩,⟨13,.cr,false,false,some 11,some ([.setEnt .internalNl,.cb,.code],(none,false))⟩,⟨13,.cr,true,true,some 11,some ([.setEnt .internalNl,.cb,.code],(none,false))⟩,⟨34,.other,false,false,some 11,some ([.setEnt .internalNl,.cb,.code],(none,false))⟩,⟨39,.other,false,false,none,some ([.setEnt .internalNl,.cb],(some 2,true))⟩,⟨40,.other,false,false,some 11,some ([.setEnt .internalNl,.cb,.code],(none,false))⟩,⟨41,.other,false,false,some 11,some ([.setEnt .internalNl,.cb,.code],(none,false))⟩,⟨42,.other,false,false,some 11,some ([.setEnt .internalNl,.cb,.code],(none,false))⟩,⟨47,.other,false,false,some 11,some ([.setEnt .internalNl,.cb,.code],(none,false))⟩,⟨92,.other,false,false,some 13,some ([.setEnt .internalNl,.cb],(none,false))⟩]⟩,⟨false,none,[],[⟨256,.other,false,false,some 11,some ([.setEnt .internalNl,.cb,.code],(none,false))⟩,⟨9,.ws,false,false,some 12,some ([.setEnt .internalNl,.cb],(none,false))⟩,⟨10,.lf,false,true,some 11,some ([.setEnt .internalNl,.cb,.code],(none,false))⟩,⟨11,.vt,false,false,some 11,some ([.setEnt .internalNl,.cb,.code],(none,false))⟩,⟨12,.ff,false,true,some 11,some ([.setEnt .internalNl,.cb,.code],(none,false))⟩,⟨13,.cr,false,false,some 11,some ([.setEnt .internalNl,.cb,.code],(none,false))⟩,⟨13,.cr,true,true,some 11,some ([.setEnt .internalNl,.cb,.code],(none,false))⟩,⟨34,.other,false,false,some 11,some ([.setEnt .internalNl,.cb,.code],(none,false))⟩,⟨39,.other,false,false,none,some ([.setEnt .internalNl,.cb],(some 2,true))⟩,⟨40,.other,false,false,some 11,some ([.setEnt .internalNl,.cb,.code],(none,false))⟩,⟨41,.other,false,false,some 11,some ([.setEnt .internalNl,.cb,.code],(none,false))⟩,⟨42,.other,false,false,some 11,some ([.setEnt .internalNl,.cb,.code],(none,false))⟩,⟨47,.other,false,false,some 11,some ([.setEnt .internalNl,.cb,.code],(none,false))⟩,⟨92,.other,false,false,some 13,some ([.setEnt .internalNl,.cb],(none,false))⟩]⟩,⟨false,none,[],[⟨256,.other,false,false,none,none⟩,⟨9,.ws,false,false,none,none⟩,⟨10,.lf,false,true,some 38,some ([],(none,false))⟩,⟨11,.vt,false,false,none,none⟩,⟨12,.ff,false,true,none,none⟩,⟨13,.cr,false,false,none,none⟩,⟨13,.cr,true,true,none,none⟩,⟨34,.other,false,false,none,none⟩,⟨39,.other,false,false,none,none⟩,⟨40,.other,false,false,none,none⟩,⟨41,.other,false,false,none,none⟩,⟨42,.other,false,false,none,none⟩,⟨47,.other,false,false,none,none⟩,⟨92,.other,false,false,none,none⟩]⟩,⟨false,none,[],[⟨256,.other,false,false,some 11,some ([.setEnt .internalNl,.cb,.code],(none,false))⟩,⟨9,.ws,false,false,some 12,some ([.setEnt .internalNl,.cb],(none,false))⟩,⟨10,.lf,false,true,some 39,some ([.setEnt .internalNl,.cb,.code],(none,false))⟩,⟨11,.vt,false,false,some 11,some ([.setEnt .internalNl,.cb,.code],(none,false))⟩,⟨12,.ff,false,true,some 11,some ([.setEnt .internalNl,.cb,.code],(none,false))⟩,⟨13,.cr,false,false,some 11,some ([.setEnt .internalNl,.cb,.code],(none,false))⟩,⟨13,.cr,true,true,some 11,some ([.setEnt .internalNl,.cb,.code],(none,false))⟩,⟨34,.other,false,false,some 11,some ([.setEnt .internalNl,.cb,.code],(none,false))⟩,⟨39,.other,false,false,none,some ([.setEnt .internalNl,.cb],(some 2,true))⟩,⟨40,.other,false,false,some 11,some ([.setEnt .internalNl,.cb,.code],(none,false))⟩,⟨41,.other,false,false,some 11,some ([.setEnt .internalNl,.cb,.code],(none,false))⟩,⟨42,.other,false,false,some 11,some ([.setEnt .internalNl,.cb,.code],(none,false))⟩,⟨47,.other,false,false,some 11,some ([.setEnt .internalNl,.cb,.code],(none,false))⟩,⟨92,.other,false,false,some 13,some ([.setEnt .internalNl,.cb],(none,false))⟩]⟩,⟨false,none,[],[⟨256,.other,false,false,some 26,some ([.comment],(none,false))⟩,⟨9,.ws,false,false,some 27,some ([],(none,false))⟩,⟨10,.lf,false,true,some 28,some ([],(none,false))⟩,⟨11,.vt,false,false,some 26,some ([.comment],(none,false))⟩,⟨12,.ff,false,true,some 29,some ([],(none,false))⟩,⟨13,.cr,false,false,some 30,some ([],(none,false))⟩,⟨13,.cr,true,true,some 31,some ([],(none,false))⟩,⟨34,.other,false,false,some 26,some ([.comment],(none,false))⟩,⟨39,.other,false,false,some 26,some ([.comment],(none,false))⟩,⟨40,.other,false,false,some 26,some ([.comment],(none,false))⟩,⟨41,.other,false,false,some 26,some ([.comment],(none,false))⟩,⟨42,.other,false,false,some 32,some ([.comment],(none,false))⟩,⟨47,.other,false,false,some 26,some ([.comment],(none,false))⟩,⟨92,.other,false,false,some 26,some ([.comment],(none,false))⟩]⟩,⟨false,none,[],[⟨256,.other,false,false,some 26,some ([.comment],(none,false))⟩,⟨9,.ws,false,false,some 27,some ([],(none,false))⟩,⟨10,.lf,false,true,some 28,some ([],(none,false))⟩,⟨11,.vt,false,false,some 26,some ([.comment],(none,false))⟩,⟨12,.ff,false,true,some 29,some ([],(none,false))⟩,⟨13,.cr,false,false,some 30,some ([],(none,false))⟩,⟨13,.cr,true,true,some 31,some ([],(none,false))⟩,⟨34,.other,false,false,some 26,some ([.comment],(none,false))⟩,⟨39,.other,false,false,some 26,some ([.comment],(none,false))⟩,⟨40,.other,false,false,some 26,some ([.comment],(none,false))⟩,⟨41,.other,false,false,some 26,some ([.comment],(none,false))⟩,⟨42,.other,false,false,some 32,some ([.comment],(none,false))⟩,⟨47,.other,false,false,some 26,some ([.comment],(none,false))⟩,⟨92,.other,false,false,some 26,some ([.comment],(none,false))⟩]⟩,⟨false,none,[],[⟨256,.other,false,false,some 26,some ([.setEnt .internalNl,.cb,.comment],(none,false))⟩,⟨9,.ws,false,false,some 27,some ([.setEnt .internalNl,.cb],(none,false))⟩,⟨10,.lf,false,true,some 28,some ([.setEnt .internalNl,.cb],(none,false))⟩,⟨11,.vt,false,false,some 26,some ([.setEnt .internalNl,.cb,.comment],(none,false))⟩,⟨12,.ff,false,true,some 29,some ([.setEnt .internalNl,.cb],(none,false))⟩,⟨13,.cr,false,false,some 30,some ([.setEnt .internalNl,.cb],(none,false))⟩,⟨13,.cr,true,true,some 31,some ([.setEnt .internalNl,.cb],(none,false))⟩,⟨34,.other,false,false,some 26,some ([.setEnt .internalNl,.cb,.comment],(none,false))⟩,⟨39,.other,false,false,some 26,some ([.setEnt .internalNl,.cb,.comment],(none,false))⟩,⟨40,.other,false,false,some 26,some ([.setEnt .internalNl,.cb,.comment],(none,false))⟩,⟨41,.other,false,false,some 26,some ([.setEnt .internalNl,.cb,.comment],(none,false))⟩,⟨42,.other,false,false,some 32,some ([.setEnt .internalNl,.cb,.comment],(none,false))⟩,⟨47,.other,false,false,some 26,some ([.setEnt .internalNl,.cb,.comment],(none,false))⟩,⟨92,.other,false,false,some 26,some ([.setEnt .internalNl,.cb,.comment],(none,false))⟩]⟩,⟨false,none,[],[⟨256,.other,false,false,some 26,some ([.setEnt .internalNl,.cb,.comment],(none,false))⟩,⟨9,.ws,false,false,some 27,some ([.setEnt .internalNl,.cb],(none,false))⟩,⟨10,.lf,false,true,some 28,some ([.setEnt .internalNl,.cb],(none,false))⟩,⟨11,.vt,false,false,some 26,some ([.setEnt .internalNl,.cb,.comment],(none,false))⟩,⟨12,.ff,false,true,some 29,some ([.setEnt .internalNl,.cb],(none,false))⟩,⟨13,.cr,false,false,some 30,some ([.setEnt .internalNl,.cb],(none,false))⟩,⟨13,.cr,true,true,some 31,some ([.setEnt .internalNl,.cb],(none,false))⟩,⟨34,.other,false,false,some 26,some ([.setEnt .internalNl,.cb,.comment],(none,false))⟩,⟨39,.other,false,false,some 26,some ([.setEnt .internalNl,.cb,.comment],(none,false))⟩,⟨40,.other,false,false,some 26,some ([.setEnt .internalNl,.cb,.comment],(none,false))⟩,⟨41,.other,false,false,some 26,some ([.setEnt .internalNl,.cb,.comment],(none,false))⟩,⟨42,.other,false,false,some 32,some ([.setEnt .internalNl,.cb,.comment],(none,false))⟩,⟨47,.other,false,false,some 26,some ([.setEnt .internalNl,.cb,.comment],(none,false))⟩,⟨92,.other,false,false,some 26,some ([.setEnt .internalNl,.cb,.comment],(none,false))⟩]⟩,⟨false,none,[],[⟨256,.other,false,false,none,none⟩,⟨9,.ws,false,false,none,none⟩,⟨10,.lf,false,true,some 40,some ([],(none,false))⟩,⟨11,.vt,false,false,none,none⟩,⟨12,.ff,false,true,none,none⟩,⟨13,.cr,false,false,none,none⟩,⟨13,.cr,true,true,none,none⟩,⟨34,.other,false,false,none,none⟩,⟨39,.other,false,false,none,none⟩,⟨40,.other,false,false,none,none⟩,⟨41,.other,false,false,none,none⟩,⟨42,.other,false,false,none,none⟩,⟨47,.other,false,false,none,none⟩,⟨92,.other,false,false,none,none⟩]⟩,⟨false,none,[],[⟨256,.other,false,false,some 26,some ([.setEnt .internalNl,.cb,.comment],(none,false))⟩,⟨9,.ws,false,false,some 27,some ([.setEnt .internalNl,.cb],(none,false))⟩,⟨10,.lf,false,true,some 41,some ([.setEnt .internalNl,.cb],(none,false))⟩,⟨11,.vt,false,false,some 26,some ([.setEnt .internalNl,.cb,.comment],(none,false))⟩,⟨12,.ff,false,true,some 29,some ([.setEnt .internalNl,.cb],(none,false))⟩,⟨13,.cr,false,false,some 30,some ([.setEnt .internalNl,.cb],(none,false))⟩,⟨13,.cr,true,true,some 31,some ([.setEnt .internalNl,.cb],(none,false))⟩,⟨34,.other,false,false,some 26,some ([.setEnt .internalNl,.cb,.comment],(none,false))⟩,⟨39,.other,false,false,some 26,some ([.setEnt .internalNl,.cb,.comment],(none,false))⟩,⟨40,.other,false,false,some 26,some ([.setEnt .internalNl,.cb,.comment],(none,false))⟩,⟨41,.other,false,false,some 26,some ([.setEnt .internalNl,.cb,.comment],(none,false))⟩,⟨42,.other,false,false,some 32,some ([.setEnt .internalNl,.cb,.comment],(none,false))⟩,⟨47,.other,false,false,some 26,some ([.setEnt .internalNl,.cb,.comment],(none,false))⟩,⟨92,.other,false,false,some 26,some ([.setEnt .internalNl,.cb,.comment],(none,false))⟩]⟩,⟨false,none,[],[⟨256,.other,false,false,some 26,some ([.comment],(none,false))⟩,⟨9,.ws,false,false,some 27,some ([],(none,false))⟩,⟨10,.lf,false,true,some 28,some ([],(none,false))⟩,⟨11,.vt,false,false,some 26,some ([.comment],(none,false))⟩,⟨12,.ff,false,true,some 29,some ([],(none,false))⟩,⟨13,.cr,false,false,some 30,some ([],(none,false))⟩,⟨13,.cr,true,true,some 31,some ([],(none,false))⟩,⟨34,.other,false,false,some 26,some ([.comment],(none,false))⟩,⟨39,.other,false,false,some 26,some ([.comment],(none,false))⟩,⟨40,.other,false,false,some 26,some ([.comment],(none,false))⟩,⟨41,.other,false,false,none,some ([],(some 1,true))⟩,⟨42,.other,false,false,some 32,some ([.comment],(none,false))⟩,⟨47,.other,false,false,some 26,some ([.comment],(none,false))⟩,⟨92,.other,false,false,some 26,some ([.comment],(none,false))⟩]⟩,⟨false,some 1,[],[⟨256,.other,false,false,some 33,some ([.comment],(some 1,false))⟩,⟨9,.ws,false,false,some 34,some ([],(some 1,false))⟩,⟨10,.lf,false,true,none,none⟩,⟨11,.vt,false,false,some 33,some ([.comment],(some 1,false))⟩,⟨12,.ff,false,true,none,none⟩,⟨13,.cr,false,false,none,none⟩,⟨13,.cr,true,true,none,none⟩,⟨34,.other,false,false,some 33,some ([.comment],(some 1,false))⟩,⟨39,.other,false,false,some 33,some ([.comment],(some 1,false))⟩,⟨40,.other,false,false,some 33,some ([.comment],(some 1,false))⟩,⟨41,.other,false,false,some 33,some ([.comment],(some 1,false))⟩,⟨42,.other,false,false,some 33,some ([.comment],(some 1,false))⟩,⟨47,.other,false,false,some 33,some ([.comment],(some 1,false))⟩,⟨92,.other,false,false,some 35,some ([.comment],(some 1,false))⟩]⟩,⟨false,some 1,[],[⟨256,.other,false,false,some 33,some ([.comment],(some 1,false))⟩,⟨9,.ws,false,false,some 34,some ([],(some 1,false))⟩,⟨10,.lf,false,true,none,none⟩,⟨11,.vt,false,false,some 33,some ([.comment],(some 1,false))⟩,⟨12,.ff,false,true,none,none⟩,⟨13,.cr,false,false,none,none⟩,⟨13,.cr,true,true,none,none⟩,⟨34,.other,false,false,some 33,some ([.comment],(some 1,false))⟩,⟨39,.other,false,false,some 33,some ([.comment],(some 1,false))⟩,⟨40,.other,false,false,some 33,some ([.comment],(some 1,false))⟩,⟨41,.other,false,false,some 33,some ([.comment],(some 1,false))⟩,⟨42,.other,false,false,some 33,some ([.comment],(some 1,false))⟩,⟨47,.other,false,false,some 33,some ([.comment],(some 1,false))⟩,⟨92,.other,false,false,some 35,some ([.comment],(some 1,false))⟩]⟩,⟨false,some 1,[],[⟨256,.other,false,false,some 33,some ([.comment],(some 1,false))⟩,⟨9,.ws,false,false,some 34,some ([],(some 1,false))⟩,⟨10,.lf,false,true,some 42,some ([],(some 1,false))⟩,⟨11,.vt,false,false,some 33,some ([.comment],(some 1,false))⟩,⟨12,.ff,false,true,some 43,some ([],(some 1,false))⟩,⟨13,.cr,false,false,some 44,some ([],(none,false))⟩,⟨13,.cr,true,true,some 45,some ([],(some 1,false))⟩,⟨34,.other,false,false,some 33,some ([.comment],(some 1,false))⟩,⟨39,.other,false,false,some 33,some ([.comment],(some 1,false))⟩,⟨40,.other,false,false,some 33,some ([.comment],(some 1,false))⟩,⟨41,.other,false,false,some 33,some ([.comment],(some 1,false))⟩,⟨42,.other,false,false,some 33,some ([.comment],(some 1,false))⟩,⟨47,.other,false,false,some 33,some ([.comment],(some 1,false))⟩,⟨92,.other,false,false,some 35,some ([.comment],(some 1,false))⟩]⟩,⟨false,none,[],[⟨256,.other,false,false,some 8,some ([.setEnt .internalNl,.cb,.code],(none,false))⟩,⟨9,.ws,false,false,some 9,some ([.setEnt .internalNl,.cb],(none,false))⟩,⟨10,.lf,false,true,some 8,some ([.setEnt .internalNl,.cb,.code],(none,false))⟩,⟨11,.vt,false,false,some 8,some ([.setEnt .internalNl,.cb,.code],(none,false))⟩,⟨12,.ff,false,true,some 8,some ([.setEnt .internalNl,.cb,.code],(none,false))⟩,⟨13,.cr,false,false,some 8,some ([.setEnt .internalNl,.cb,.code],(none,false))⟩,⟨13,.cr,true,true,some 8,some ([.setEnt .internalNl,.cb,.code],(none,false))⟩,⟨34,.other,false,false,none,some ([.setEnt .internalNl,.cb],(some 2,true))⟩,⟨39,.other,false,false,some 8,some ([.setEnt .internalNl,.cb,.code],(none,false))⟩,⟨40,.other,false,false,some 8,some ([.setEnt .internalNl,.cb,.code],(none,false))⟩,⟨41,.other,false,false,some 8,some ([.setEnt .internalNl,.cb,.code],(none,false))⟩,⟨42,.other,false,false,some 8,some ([.setEnt .internalNl,.cb,.code],(none,false))⟩,⟨47,.other,false,false,some 8,some ([.setEnt .internalNl,.cb,.code],(none,false))⟩,⟨92,.other,false,false,some 10,some ([.setEnt .internalNl,.cb],(none,false))⟩]⟩,⟨false,none,[],[⟨256,.other,false,false,some 8,some ([.setEnt .internalNl,.cb,.code],(none,false))⟩,⟨9,.ws,false,false,some 9,some ([.setEnt .internalNl,.cb],(none,false))⟩,⟨10,.lf,false,true,some 8,some ([.setEnt .internalNl,.cb,.code],(none,false))⟩,⟨11,.vt,false,false,some 8,some ([.setEnt .internalNl,.cb,.code],(none,false))⟩,⟨12,.ff,false,true,some 8,some ([.setEnt .internalNl,.cb,.code],(none,false))⟩,⟨13,.cr,false,false,some 8,some ([.setEnt .internalNl,.cb,.code],(none,false))⟩,⟨13,.cr,true,true,some 8,some ([.setEnt .internalNl,.cb,.code],(none,false))⟩,⟨34,.other,false,false,none,some ([.setEnt .internalNl,.cb],(some 2,true))⟩,⟨39,.other,false,false,some 8,some ([.setEnt .internalNl,.cb,.code],(none,false))⟩,⟨40,.other,false,false,some 8,some ([.setEnt .internalNl,.cb,.code],(none,false))⟩,⟨41,.other,false,false,some 8,some ([.setEnt .internalNl,.cb,.code],(none,false))⟩,⟨42,.other,false,false,some 8,some ([.setEnt .internalNl,.cb,.code],(none,false))⟩,⟨47,.other,false,false,some 8,some ([.setEnt .internalNl,.cb,.code],(none,false))⟩,⟨92,.other,false,false,some 10,some ([.setEnt .internalNl,.cb],(none,false))⟩]⟩,⟨false,none,[],[⟨256,.other,false,false,some 11,some ([.setEnt .internalNl,.cb,.code],(none,false))⟩,⟨9,.ws,false,false,some 12,some ([.setEnt .internalNl,.cb],(none,false))⟩,⟨10,.lf,false,true,some 11,some ([.setEnt .internalNl,.cb,.code],(none,false))⟩,⟨11,.vt,false,false,some 11,some ([.setEnt .internalNl,.cb,.code],(none,false))⟩,⟨12,.ff,false,true,some 11,some ([.setEnt .internalNl,.cb,.code],(none,false))⟩,⟨13,.cr,false,false,some 11,some ([.setEnt .internalNl,.cb,.code],(none,false))⟩,⟨13,.cr,true,true,some 11,some ([.setEnt .internalNl,.cb,.code],(none,false))⟩,⟨34,.other,false,false,some 11,some ([.setEnt .internalNl,.cb,.code],(none,false))⟩,⟨39,.other,false,false,none,some ([.setEnt .internalNl,.cb],(some 2,true))⟩,⟨40,.other,false,false,some 11,some ([.setEnt .internalNl,.cb,.code],(none,false))⟩,⟨41,.other,false,false,some 11,some ([.setEnt .internalNl,.cb,.code],(none,false))⟩,⟨42,.other,false,false,some 11,some ([.setEnt .internalNl,.cb,.code],(none,false))⟩,⟨47,.other,false,false,some 11,some ([.setEnt .internalNl,.cb,.code],(none,false))⟩,⟨92,.other,false,false,some 13,some ([.setEnt .internalNl,.cb],(none,false))⟩]⟩,⟨false,none,[],[⟨256,.other,false,false,some 11,some ([.setEnt .internalNl,.cb,.code],(none,false))⟩,⟨9,.ws,false,false,some 12,some ([.setEnt .internalNl,.cb],(none,false))⟩,⟨10,.lf,false,true,some 11,some ([.setEnt .internalNl,.cb,.code],(none,false))⟩,⟨11,.vt,false,false,some 11,some ([.setEnt .internalNl,.cb,.code],(none,false))⟩,⟨12,.ff,false,true,some 11,some ([.setEnt .internalNl,.cb,.code],(none,false))⟩,⟨13,.cr,false,false,some 11,some ([.setEnt .internalNl,.cb,.code],(none,false))⟩,⟨13,.cr,true,true,some 11,some ([.setEnt .internalNl,.cb,.code],(none,false))⟩,⟨34,.other,false,false,some 11,some ([.setEnt .internalNl,.cb,.code],(none,false))⟩,⟨39,.other,false,false,none,some ([.setEnt .internalNl,.cb],(some 2,true))⟩,⟨40,.other,false,false,some 11,some ([.setEnt .internalNl,.cb,.code],(none,false))⟩,⟨41,.other,false,false,some 11,some ([.setEnt .internalNl,.cb,.code],(none,false))⟩,⟨42,.other,false,false,some 11,some ([.setEnt .internalNl,.cb,.code],(none,false))⟩,⟨47,.other,false,false,some 11,some ([.setEnt .internalNl,.cb,.code],(none,false))⟩,⟨92,.other,false,false,some 13,some ([.setEnt .internalNl,.cb],(none,false))⟩]⟩,⟨false,none,[],[⟨256,.other,false,false,some 26,some ([.setEnt .internalNl,.cb,.comment],(none,false))⟩,⟨9,.ws,false,false,some 27,some ([.setEnt .internalNl,.cb],(none,false))⟩,⟨10,.lf,false,true,some 28,some ([.setEnt .internalNl,.cb],(none,false))⟩,⟨11,.vt,false,false,some 26,some ([.setEnt .internalNl,.cb,.comment],(none,false))⟩,⟨12,.ff,false,true,some 29,some ([.setEnt .internalNl,.cb],(none,false))⟩,⟨13,.cr,false,false,some 30,some ([.setEnt .internalNl,.cb],(none,false))⟩,⟨13,.cr,true,true,some 31,some ([.setEnt .internalNl,.cb],(none,false))⟩,⟨34,.other,false,false,some 26,some ([.setEnt .internalNl,.cb,.comment],(none,false))⟩,⟨39,.other,false,false,some 26,some ([.setEnt .internalNl,.cb,.comment],(none,false))⟩,⟨40,.other,false,false,some 26,some ([.setEnt .internalNl,.cb,.comment],(none,false))⟩,⟨41,.other,false,false,some 26,some ([.setEnt .internalNl,.cb,.comment],(none,false))⟩,⟨42,.other,false,false,some 32,some ([.setEnt .internalNl,.cb,.comment],(none,false))⟩,⟨47,.other,false,false,some 26,some ([.setEnt .internalNl,.cb,.comment],(none,false))⟩,⟨92,.other,false,false,some 26,some ([.setEnt .internalNl,.cb,.comment],(none,false))⟩]⟩,⟨false,none,[],[⟨256,.other,false,false,some 26,some ([.setEnt .internalNl,.cb,.comment],(none,false))⟩,⟨9,.ws,false,false,some 27,some ([.setEnt .internalNl,.cb],(none,false))⟩,⟨10,.lf,false,true,some 28,some ([.setEnt .internalNl,.cb],(none,false))⟩,⟨11,.vt,false,false,some 26,some ([.setEnt .internalNl,.cb,.comment],(none,false))⟩,⟨12,.ff,false,true,some 29,some ([.setEnt .internalNl,.cb],(none,false))⟩,⟨13,.cr,false,false,some 30,some ([.setEnt .internalNl,.cb],(none,false))⟩,⟨13,.cr,true,true,some 31,some ([.setEnt .internalNl,.cb],(none,false))⟩,⟨34,.other,false,false,some 26,some ([.setEnt .internalNl,.cb,.comment],(none,false))⟩,⟨39,.other,false,false,some 26,some ([.setEnt .internalNl,.cb,.comment],(none,false))⟩,⟨40,.other,false,false,some 26,some ([.setEnt .internalNl,.cb,.comment],(none,false))⟩,⟨41,.other,false,false,some 26,some ([.setEnt .internalNl,.cb,.comment],(none,false))⟩,⟨42,.other,false,false,some 32,some ([.setEnt .internalNl,.cb,.comment],(none,false))⟩,⟨47,.other,false,false,some 26,some ([.setEnt .internalNl,.cb,.comment],(none,false))⟩,⟨92,.other,false,false,some 26,some ([.setEnt .internalNl,.cb,.comment],(none,false))⟩]⟩,⟨false,some 1,[.setEnt .internalNl,.cb],[⟨256,.other,false,false,some 33,some ([.setEnt .internalNl,.cb,.comment],(some 1,false))⟩,⟨9,.ws,false,false,some 34,some ([.setEnt .internalNl,.cb],(some 1,false))⟩,⟨10,.lf,false,true,none,none⟩,⟨11,.vt,false,false,some 33,some ([.setEnt .internalNl,.cb,.comment],(some 1,false))⟩,⟨12,.ff,false,true,none,none⟩,⟨13,.cr,false,false,none,none⟩,⟨13,.cr,true,true,none,none⟩,⟨34,.other,false,false,some 33,some ([.setEnt .internalNl,.cb,.comment],(some 1,false))⟩,⟨39,.other,false,false,some 33,some ([.setEnt .internalNl,.cb,.comment],(some 1,false))⟩,⟨40,.other,false,false,some 33,some ([.setEnt .internalNl,.cb,.comment],(some 1,false))⟩,⟨41,.other,false,false,some 33,some ([.setEnt .internalNl,.cb,.comment],(some 1,false))⟩,⟨42,.other,false,false,some 33,some ([.setEnt .internalNl,.cb,.comment],(some 1,false))⟩,⟨47,.other,false,false,some 33,some ([.setEnt .internalNl,.cb,.comment],(some 1,false))⟩,⟨92,.other,false,false,some 35,some ([.setEnt .internalNl,.cb,.comment],(some 1,false))⟩]⟩,⟨false,some 1,[.setEnt .internalNl,.cb],[⟨256,.other,false,false,some 33,some ([.setEnt .internalNl,.cb,.comment],(some 1,false))⟩,⟨9,.ws,false,false,some 34,some ([.setEnt .internalNl,.cb],(some 1,false))⟩,⟨10,.lf,false,true,none,none⟩,⟨11,.vt,false,false,some 33,some ([.setEnt .internalNl,.cb,.comment],(some 1,false))⟩,⟨12,.ff,false,true,none,none⟩,⟨13,.cr,false,false,none,none⟩,⟨13,.cr,true,true,none,none⟩,⟨34,.other,false,false,some 33,some ([.setEnt .internalNl,.cb,.comment],(some 1,false))⟩,⟨39,.other,false,false,some 33,some ([.setEnt .internalNl,.cb,.comment],(some 1,false))⟩,⟨40,.other,false,false,some 33,some ([.setEnt .internalNl,.cb,.comment],(some 1,false))⟩,⟨41,.other,false,false,some 33,some ([.setEnt .internalNl,.cb,.comment],(some 1,false))⟩,⟨42,.other,false,false,some 33,some ([.setEnt .internalNl,.cb,.comment],(some 1,false))⟩,⟨47,.other,false,false,some 33,some ([.setEnt .internalNl,.cb,.comment],(some 1,false))⟩,⟨92,.other,false,false,some 35,some ([.setEnt .internalNl,.cb,.comment],(some 1,false))⟩]⟩,⟨false,none,[],[⟨256,.other,false,false,none,none⟩,⟨9,.ws,false,false,none,none⟩,⟨10,.lf,false,true,some 46,some ([],(some 1,false))⟩,⟨11,.vt,false,false,none,none⟩,⟨12,.ff,false,true,none,none⟩,⟨13,.cr,false,false,none,none⟩,⟨13,.cr,true,true,none,none⟩,⟨34,.other,false,false,none,none⟩,⟨39,.other,false,false,none,none⟩,⟨40,.other,false,false,none,none⟩,⟨41,.other,false,false,none,none⟩,⟨42,.other,false,false,none,none⟩,⟨47,.other,false,false,none,none⟩,⟨92,.other,false,false,none,none⟩]⟩,⟨false,some 1,[.setEnt .internalNl,.cb],[⟨256,.other,false,false,some 33,some ([.setEnt .internalNl,.cb,.comment],(some 1,false))⟩,⟨9,.ws,false,false,some 34,some ([.setEnt .internalNl,.cb],(some 1,false))⟩,⟨10,.lf,false,true,some 46,some ([],(some 1,false))⟩,⟨11,.vt,false,false,some 33,some ([.setEnt .internalNl,.cb,.comment],(some 1,false))⟩,⟨12,.ff,false,true,none,none⟩,⟨13,.cr,false,false,none,none⟩,⟨13,.cr,true,true,none,none⟩,⟨34,.other,false,false,some 33,some ([.setEnt .internalNl,.cb,.comment],(some 1,false))⟩,⟨39,.other,false,false,some 33,some ([.setEnt .internalNl,.cb,.comment],(some 1,false))⟩,⟨40,.other,false,false,some 33,some ([.setEnt .internalNl,.cb,.comment],(some 1,false))⟩,⟨41,.other,false,false,some 33,some ([.setEnt .internalNl,.cb,.comment],(some 1,false))⟩,⟨42,.other,false,false,some 33,some ([.setEnt .internalNl,.cb,.comment],(some 1,false))⟩,⟨47,.other,false,false,some 33,some ([.setEnt .internalNl,.cb,.comment],(some 1,false))⟩,⟨92,.other,false,false,some 35,some ([.setEnt .internalNl,.cb,.comment],(some 1,false))⟩]⟩,⟨false,some 1,[.setEnt .internalNl,.cb],[⟨256,.other,false,false,some 33,some ([.setEnt .internalNl,.cb,.comment],(some 1,false))⟩,⟨9,.ws,false,false,some 34,some ([.setEnt .internalNl,.cb],(some 1,false))⟩,⟨10,.lf,false,true,none,none⟩,⟨11,.vt,false,false,some 33,some ([.setEnt .internalNl,.cb,.comment],(some 1,false))⟩,⟨12,.ff,false,true,none,none⟩,⟨13,.cr,false,false,none,none⟩,⟨13,.cr,true,true,none,none⟩,⟨34,.other,false,false,some 33,some ([.setEnt .internalNl,.cb,.comment],(some 1,false))⟩,⟨39,.other,false,false,some 33,some ([.setEnt .internalNl,.cb,.comment],(some 1,false))⟩,⟨40,.other,false,false,some 33,some ([.setEnt .internalNl,.cb,.comment],(some 1,false))⟩,⟨41,.other,false,false,some 33,some ([.setEnt .internalNl,.cb,.comment],(some 1,false))⟩,⟨42,.other,false,false,some 33,some ([.setEnt .internalNl,.cb,.comment],(some 1,false))⟩,⟨47,.other,false,false,some 33,some ([.setEnt .internalNl,.cb,.comment],(some 1,false))⟩,⟨92,.other,false,false,some 35,some ([.setEnt .internalNl,.cb,.comment],(some 1,false))⟩]⟩]
theorem fsharp_line_lfrOk : fsharp_line_lrows.map (CA.prep fsharp_line_lex) = fsharp_line_lfr := by decide +kernel
def fsharp_line_lTab : List CT := [(.node (.node (.node (.node (.node (.node (.node .leaf 128 [⟨⟨.code,[],.lcode,false,[],false⟩,false,false,[],none,none,none,false,false,false,none,false,⟨.lcode,none,false,.lblank⟩⟩] .leaf) 38019 [⟨⟨.code,[],.lcode,true,[],false⟩,false,false,[],none,none,none,false,false,false,none,false,⟨.lblank,none,false,.lblank⟩⟩] (.node .leaf 148108 [⟨⟨.code,[],.lcomment,false,[],false⟩,false,false,[],none,none,none,false,false,false,none,false,⟨.lcomment,none,false,.lblank⟩⟩] .leaf)) 185487 [⟨⟨.code,[],.lcomment,true,[],false⟩,false,false,[],none,none,none,false,false,false,none,false,⟨.lblank,none,false,.lblank⟩⟩] (.node (.node .leaf 296088 [⟨⟨.code,[],.lblank,false,[],false⟩,false,false,[],none,none,none,false,false,false,none,false,⟨.lblank,none,false,.lblank⟩⟩] .leaf) 332955 [⟨⟨.code,[],.lblank,true,[],false⟩,false,false,[],none,none,none,false,false,false,none,false,⟨.lblank,none,false,.lblank⟩⟩] (.node .leaf 1179872 [⟨⟨(.inside 0),[],.lcode,false,[],false⟩,false,false,[none],none,none,none,false,false,false,none,false,⟨.lcode,none,false,.lblank⟩⟩] .leaf))) 1217763 [⟨⟨(.inside 0),[],.lcode,true,[],false⟩,false,false,[none],none,none,none,false,false,false,none,false,⟨.lblank,none,false,.lblank⟩⟩] (.node (.node (.node .leaf 1327852 [⟨⟨(.inside 0),[],.lcomment,false,[],false⟩,false,false,[none],none,none,none,false,false,false,none,false,⟨.lcomment,none,false,.lblank⟩⟩] .leaf) 1365231 [⟨⟨(.inside 0),[],.lcomment,true,[],false⟩,false,false,[none],none,none,none,false,false,false,none,false,⟨.lblank,none,false,.lblank⟩⟩] (.node .leaf 1475832 [⟨⟨(.inside 0),[],.lblank,false,[],false⟩,false,false,[none],none,none,none,false,false,false,none,false,⟨.lblank,none,false,.lblank⟩⟩] .leaf)) 1511675 [⟨⟨.code,[40],.lcode,false,[],false⟩,false,false,[none],none,none,none,false,false,false,none,false,⟨.lcode,none,false,.lblank⟩⟩] (.node (.node .leaf 1769744 [⟨⟨.code,[47],.lcode,false,[],false⟩,false,false,[none],none,none,none,false,false,false,none,false,⟨.lcode,none,false,.lblank⟩⟩] .leaf) 20511732 [⟨⟨.code,[40],.lcode,false,[],false⟩,false,false,[some (9,(.ws,false))],none,none,none,false,false,false,none,false,⟨.lcode,none,false,.lblank⟩⟩] .leaf))) 20769801 [⟨⟨.code,[47],.lcode,false,[],false⟩,false,false,[some (9,(.ws,false))],none,none,none,false,false,false,none,false,⟨.lcode,none,false,.lblank⟩⟩] (.node (.node (.node (.node .leaf 20829983 [⟨⟨.code,[40],.lcomment,false,[],false⟩,false,false,[none],none,none,none,false,false,false,none,false,⟨.lcode,none,false,.lblank⟩⟩] .leaf) 21088052 [⟨⟨.code,[47],.lcomment,false,[],false⟩,false,false,[none],none,none,none,false,false,false,none,false,⟨.lcode,none,false,.lblank⟩⟩] (.node .leaf 22179935 [⟨⟨(.inside 0),[],.lcode,false,[],false⟩,false,false,[some (10,(.lf,false))],none,none,none,false,false,false,none,false,⟨.lcode,none,false,.lblank⟩⟩] .leaf)) 22217826 [⟨⟨(.inside 0),[],.lcode,true,[],false⟩,false,false,[some (10,(.lf,false))],none,none,none,false,false,false,none,false,⟨.lblank,none,false,.lblank⟩⟩] (.node (.node .leaf 22327915 [⟨⟨(.inside 0),[],.lcomment,false,[],false⟩,false,false,[some (10,(.lf,false))],none,none,none,false,false,false,none,false,⟨.lcomment,none,false,.lblank⟩⟩] .leaf) 22365294 [⟨⟨(.inside 0),[],.lcomment,true,[],false⟩,false,false,[some (10,(.lf,false))],none,none,none,false,false,false,none,false,⟨.lblank,none,false,.lblank⟩⟩] (.node .leaf 22475895 [⟨⟨(.inside 0),[],.lblank,false,[],false⟩,false,false,[some (10,(.lf,false))],none,none,none,false,false,false,none,false,⟨.lblank,none,false,.lblank⟩⟩] .leaf))) 22511738 [⟨⟨.code,[40],.lcode,false,[],false⟩,false,false,[some (10,(.lf,false))],none,none,none,false,false,false,none,false,⟨.lcode,none,false,.lblank⟩⟩] (.node (.node (.node .leaf 22769807 [⟨⟨.code,[47],.lcode,false,[],false⟩,false,false,[some (10,(.lf,false))],none,none,none,false,false,false,none,false,⟨.lcode,none,false,.lblank⟩⟩] .leaf) 26179947 [⟨⟨(.inside 0),[],.lcode,false,[],false⟩,false,false,[some (12,(.ff,false))],none,none,none,false,false,false,none,false,⟨.lcode,none,false,.lblank⟩⟩] (.node .leaf 26217838 [⟨⟨(.inside 0),[],.lcode,true,[],false⟩,false,false,[some (12,(.ff,false))],none,none,none,false,false,false,none,false,⟨.lblank,none,false,.lblank⟩⟩] .leaf)) 26327927 [⟨⟨(.inside 0),[],.lcomment,false,[],false⟩,false,false,[some (12,(.ff,false))],none,none,none,false,false,false,none,false,⟨.lcomment,none,false,.lblank⟩⟩] (.node (.node .leaf 26365306 [⟨⟨(.inside 0),[],.lcomment,true,[],false⟩,false,false,[some (12,(.ff,false))],none,none,none,false,false,false,none,false,⟨.lblank,none,false,.lblank⟩⟩] .leaf) 26475907 [⟨⟨(.inside 0),[],.lblank,false,[],false⟩,false,false,[some (12,(.ff,false))],none,none,none,false,false,false,none,false,⟨.lblank,none,false,.lblank⟩⟩] .leaf)))) 26511750 [⟨⟨.code,[40],.lcode,false,[],false⟩,false,false,[some (12,(.ff,false))],none,none,none,false,false,false,none,false,⟨.lcode,none,false,.lblank⟩⟩] (.node (.node (.node (.node (.node .leaf 26769819 [⟨⟨.code,[47],.lcode,false,[],false⟩,false,false,[some (12,(.ff,false))],none,none,none,false,false,false,none,false,⟨.lcode,none,false,.lblank⟩⟩] .leaf) 27397582 [⟨⟨(.escapedCr 0),[],.lcode,true,[],false⟩,false,false,[some (12,(.ff,false))],none,none,none,false,false,false,none,false,⟨.lblank,none,false,.lblank⟩⟩] (.node .leaf 27545050 [⟨⟨(.escapedCr 0),[],.lcomment,true,[],false⟩,false,false,[some (12,(.ff,false))],none,none,none,false,false,false,none,false,⟨.lblank,none,false,.lblank⟩⟩] .leaf)) 28179953 [⟨⟨(.inside 0),[],.lcode,false,[],false⟩,false,false,[some (13,(.cr,false))],none,none,none,false,false,false,none,false,⟨.lcode,none,false,.lblank⟩⟩] (.node (.node .leaf 28217844 [⟨⟨(.inside 0),[],.lcode,true,[],false⟩,false,false,[some (13,(.cr,false))],none,none,none,false,false,false,none,false,⟨.lblank,none,false,.lblank⟩⟩] .leaf) 28327933 [⟨⟨(.inside 0),[],.lcomment,false,[],false⟩,false,false,[some (13,(.cr,false))],none,none,none,false,false,false,none,false,⟨.lcomment,none,false,.lblank⟩⟩] (.node .leaf 28365312 [⟨⟨(.inside 0),[],.lcomment,true,[],false⟩,false,false,[some (13,(.cr,false))],none,none,none,false,false,false,none,false,⟨.lblank,none,false,.lblank⟩⟩] .leaf))) 28475913 [⟨⟨(.inside 0),[],.lblank,false,[],false⟩,false,false,[some (13,(.cr,false))],none,none,none,false,false,false,none,false,⟨.lblank,none,false,.lblank⟩⟩] (.node (.node (.node .leaf 28511756 [⟨⟨.code,[40],.lcode,false,[],false⟩,false,false,[some (13,(.cr,false))],none,none,none,false,false,false,none,false,⟨.lcode,none,false,.lblank⟩⟩] .leaf) 28769825 [⟨⟨.code,[47],.lcode,false,[],false⟩,false,false,[some (13,(.cr,false))],none,none,none,false,false,false,none,false,⟨.lcode,none,false,.lblank⟩⟩] (.node .leaf 29179956 [⟨⟨(.inside 0),[],.lcode,false,[],false⟩,false,false,[some (13,(.cr,true))],none,none,none,false,false,false,none,false,⟨.lcode,none,false,.lblank⟩⟩] .leaf)) 29217847 [⟨⟨(.inside 0),[],.lcode,true,[],false⟩,false,false,[some (13,(.cr,true))],none,none,none,false,false,false,none,false,⟨.lblank,none,false,.lblank⟩⟩] (.node (.node .leaf 29327936 [⟨⟨(.inside 0),[],.lcomment,false,[],false⟩,false,false,[some (13,(.cr,true))],none,none,none,false,false,false,none,false,⟨.lcomment,none,false,.lblank⟩⟩] .leaf) 29365315 [⟨⟨(.inside 0),[],.lcomment,true,[],false⟩,false,false,[some (13,(.cr,true))],none,none,none,false,false,false,none,false,⟨.lblank,none,false,.lblank⟩⟩] .leaf))) 29397588 [⟨⟨(.escapedCr 0),[],.lcode,true,[],false⟩,false,false,[some (13,(.cr,false))],none,none,none,false,false,false,none,false,⟨.lblank,none,false,.lblank⟩⟩] (.node (.node (.node (.node .leaf 29475916 [⟨⟨(.inside 0),[],.lblank,false,[],false⟩,false,false,[some (13,(.cr,true))],none,none,none,false,false,false,none,false,⟨.lblank,none,false,.lblank⟩⟩] .leaf) 29511759 [⟨⟨.code,[40],.lcode,false,[],false⟩,false,false,[some (13,(.cr,true))],none,none,none,false,false,false,none,false,⟨.lcode,none,false,.lblank⟩⟩] (.node .leaf 29545056 [⟨⟨(.escapedCr 0),[],.lcomment,true,[],false⟩,false,false,[some (13,(.cr,false))],none,none,none,false,false,false,none,false,⟨.lblank,none,false,.lblank⟩⟩] .leaf)) 29769828 [⟨⟨.code,[47],.lcode,false,[],false⟩,false,false,[some (13,(.cr,true))],none,none,none,false,false,false,none,false,⟨.lcode,none,false,.lblank⟩⟩] (.node (.node .leaf 30397591 [⟨⟨(.escapedCr 0),[],.lcode,true,[],false⟩,false,false,[some (13,(.cr,true))],none,none,none,false,false,false,none,false,⟨.lblank,none,false,.lblank⟩⟩] .leaf) 30545059 [⟨⟨(.escapedCr 0),[],.lcomment,true,[],false⟩,false,false,[some (13,(.cr,true))],none,none,none,false,false,false,none,false,⟨.lblank,none,false,.lblank⟩⟩] (.node .leaf 39830040 [⟨⟨.code,[40],.lcomment,false,[],false⟩,false,false,[some (9,(.ws,false))],none,none,none,false,false,false,none,false,⟨.lcode,none,false,.lblank⟩⟩] .leaf))) 40088109 [⟨⟨.code,[47],.lcomment,false,[],false⟩,false,false,[some (9,(.ws,false))],none,none,none,false,false,false,none,false,⟨.lcode,none,false,.lblank⟩⟩] (.node (.node (.node .leaf 40148291 [⟨⟨.code,[40],.lblank,false,[],false⟩,false,false,[none],none,none,none,false,false,false,none,false,⟨.lcode,none,false,.lblank⟩⟩] .leaf) 40406360 [⟨⟨.code,[47],.lblank,false,[],false⟩,false,false,[none],none,none,none,false,false,false,none,false,⟨.lcode,none,false,.lblank⟩⟩] (.node .leaf 41830046 [⟨⟨.code,[40],.lcomment,false,[],false⟩,false,false,[some (10,(.lf,false))],none,none,none,false,false,false,none,false,⟨.lcode,none,false,.lblank⟩⟩] .leaf)) 42088115 [⟨⟨.code,[47],.lcomment,false,[],false⟩,false,false,[some (10,(.lf,false))],none,none,none,false,false,false,none,false,⟨.lcode,none,false,.lblank⟩⟩] (.node (.node .leaf 45830058 [⟨⟨.code,[40],.lcomment,false,[],false⟩,false,false,[some (12,(.ff,false))],none,none,none,false,false,false,none,false,⟨.lcode,none,false,.lblank⟩⟩] .leaf) 46088127 [⟨⟨.code,[47],.lcomment,false,[],false⟩,false,false,[some (12,(.ff,false))],none,none,none,false,false,false,none,false,⟨.lcode,none,false,.lblank⟩⟩] .leaf))))) 47830064 [⟨⟨.code,[40],.lcomment,false,[],false⟩,false,false,[some (13,(.cr,false))],none,none,none,false,false,false,none,false,⟨.lcode,none,false,.lblank⟩⟩] (.node (.node (.node (.node (.node (.node .leaf 48088133 [⟨⟨.code,[47],.lcomment,false,[],false⟩,false,false,[some (13,(.cr,false))],none,none,none,false,false,false,none,false,⟨.lcode,none,false,.lblank⟩⟩] .leaf) 48830067 [⟨⟨.code,[40],.lcomment,false,[],false⟩,false,false,[some (13,(.cr,true))],none,none,none,false,false,false,none,false,⟨.lcode,none,false,.lblank⟩⟩] (.node .leaf 49088136 [⟨⟨.code,[47],.lcomment,false,[],false⟩,false,false,[some (13,(.cr,true))],none,none,none,false,false,false,none,false,⟨.lcode,none,false,.lblank⟩⟩] .leaf)) 59148348 [⟨⟨.code,[40],.lblank,false,[],false⟩,false,false,[some (9,(.ws,false))],none,none,none,false,false,false,none,false,⟨.lcode,none,false,.lblank⟩⟩] (.node (.node .leaf 59406417 [⟨⟨.code,[47],.lblank,false,[],false⟩,false,false,[some (9,(.ws,false))],none,none,none,false,false,false,none,false,⟨.lcode,none,false,.lblank⟩⟩] .leaf) 61148354 [⟨⟨.code,[40],.lblank,false,[],false⟩,false,false,[some (10,(.lf,false))],none,none,none,false,false,false,none,false,⟨.lcode,none,false,.lblank⟩⟩] (.node .leaf 61406423 [⟨⟨.code,[47],.lblank,false,[],false⟩,false,false,[some (10,(.lf,false))],none,none,none,false,false,false,none,false,⟨.lcode,none,false,.lblank⟩⟩] .leaf))) 65148366 [⟨⟨.code,[40],.lblank,false,[],false⟩,false,false,[some (12,(.ff,false))],none,none,none,false,false,false,none,false,⟨.lcode,none,false,.lblank⟩⟩] (.node (.node (.node .leaf 65406435 [⟨⟨.code,[47],.lblank,false,[],false⟩,false,false,[some (12,(.ff,false))],none,none,none,false,false,false,none,false,⟨.lcode,none,false,.lblank⟩⟩] .leaf) 67148372 [⟨⟨.code,[40],.lblank,false,[],false⟩,false,false,[some (13,(.cr,false))],none,none,none,false,false,false,none,false,⟨.lcode,none,false,.lblank⟩⟩] (.node .leaf 67406441 [⟨⟨.code,[47],.lblank,false,[],false⟩,false,false,[some (13,(.cr,false))],none,none,none,false,false,false,none,false,⟨.lcode,none,false,.lblank⟩⟩] .leaf)) 68148375 [⟨⟨.code,[40],.lblank,false,[],false⟩,false,false,[some (13,(.cr,true))],none,none,none,false,false,false,none,false,⟨.lcode,none,false,.lblank⟩⟩] (.node (.node .leaf 68406444 [⟨⟨.code,[47],.lblank,false,[],false⟩,false,false,[some (13,(.cr,true))],none,none,none,false,false,false,none,false,⟨.lcode,none,false,.lblank⟩⟩] .leaf) 70511882 [⟨⟨.code,[40],.lcode,false,[],false⟩,false,false,[some (34,(.other,false))],none,none,none,false,false,false,none,false,⟨.lcode,none,false,.lblank⟩⟩] .leaf))) 70769951 [⟨⟨.code,[47],.lcode,false,[],false⟩,false,false,[some (34,(.other,false))],none,none,none,false,false,false,none,false,⟨.lcode,none,false,.lblank⟩⟩] (.node (.node (.node (.node .leaf 80511912 [⟨⟨.code,[40],.lcode,false,[],false⟩,false,false,[some (39,(.other,false))],none,none,none,false,false,false,none,false,⟨.lcode,none,false,.lblank⟩⟩] .leaf) 80769981 [⟨⟨.code,[47],.lcode,false,[],false⟩,false,false,[some (39,(.other,false))],none,none,none,false,false,false,none,false,⟨.lcode,none,false,.lblank⟩⟩] (.node .leaf 82511918 [⟨⟨.code,[40],.lcode,false,[],false⟩,false,false,[some (40,(.other,false))],none,none,none,false,false,false,none,false,⟨.lcode,none,false,.lblank⟩⟩] .leaf)) 82769987 [⟨⟨.code,[47],.lcode,false,[],false⟩,false,false,[some (40,(.other,false))],none,none,none,false,false,false,none,false,⟨.lcode,none,false,.lblank⟩⟩] (.node (.node .leaf 84511924 [⟨⟨.code,[40],.lcode,false,[],false⟩,false,false,[some (41,(.other,false))],none,none,none,false,false,false,none,false,⟨.lcode,none,false,.lblank⟩⟩] .leaf) 84769993 [⟨⟨.code,[47],.lcode,false,[],false⟩,false,false,[some (41,(.other,false))],none,none,none,false,false,false,none,false,⟨.lcode,none,false,.lblank⟩⟩] (.node .leaf 86769999 [⟨⟨.code,[47],.lcode,false,[],false⟩,false,false,[some (42,(.other,false))],none,none,none,false,false,false,none,false,⟨.lcode,none,false,.lblank⟩⟩] .leaf))) 89830190 [⟨⟨.code,[40],.lcomment,false,[],false⟩,false,false,[some (34,(.other,false))],none,none,none,false,false,false,none,false,⟨.lcode,none,false,.lblank⟩⟩] (.node (.node (.node .leaf 90088259 [⟨⟨.code,[47],.lcomment,false,[],false⟩,false,false,[some (34,(.other,false))],none,none,none,false,false,false,none,false,⟨.lcode,none,false,.lblank⟩⟩] .leaf) 96511960 [⟨⟨.code,[40],.lcode,false,[],false⟩,false,false,[some (47,(.other,false))],none,none,none,false,false,false,none,false,⟨.lcode,none,false,.lblank⟩⟩] (.node .leaf 99830220 [⟨⟨.code,[40],.lcomment,false,[],false⟩,false,false,[some (39,(.other,false))],none,none,none,false,false,false,none,false,⟨.lcode,none,false,.lblank⟩⟩] .leaf)) 100088289 [⟨⟨.code,[47],.lcomment,false,[],false⟩,false,false,[some (39,(.other,false))],none,none,none,false,false,false,none,false,⟨.lcode,none,false,.lblank⟩⟩] (.node (.node .leaf 101830226 [⟨⟨.code,[40],.lcomment,false,[],false⟩,false,false,[some (40,(.other,false))],none,none,none,false,false,false,none,false,⟨.lcode,none,false,.lblank⟩⟩] .leaf) 102088295 [⟨⟨.code,[47],.lcomment,false,[],false⟩,false,false,[some (40,(.other,false))],none,none,none,false,false,false,none,false,⟨.lcode,none,false,.lblank⟩⟩] .leaf)))) 103830232 [⟨⟨.code,[40],.lcomment,false,[],false⟩,false,false,[some (41,(.other,false))],none,none,none,false,false,false,none,false,⟨.lcode,none,false,.lblank⟩⟩] (.node (.node (.node (.node (.node .leaf 104088301 [⟨⟨.code,[47],.lcomment,false,[],false⟩,false,false,[some (41,(.other,false))],none,none,none,false,false,false,none,false,⟨.lcode,none,false,.lblank⟩⟩] .leaf) 106088307 [⟨⟨.code,[47],.lcomment,false,[],false⟩,false,false,[some (42,(.other,false))],none,none,none,false,false,false,none,false,⟨.lcode,none,false,.lblank⟩⟩] (.node .leaf 109148498 [⟨⟨.code,[40],.lblank,false,[],false⟩,false,false,[some (34,(.other,false))],none,none,none,false,false,false,none,false,⟨.lcode,none,false,.lblank⟩⟩] .leaf)) 109406567 [⟨⟨.code,[47],.lblank,false,[],false⟩,false,false,[some (34,(.other,false))],none,none,none,false,false,false,none,false,⟨.lcode,none,false,.lblank⟩⟩] (.node (.node .leaf 115830268 [⟨⟨.code,[40],.lcomment,false,[],false⟩,false,false,[some (47,(.other,false))],none,none,none,false,false,false,none,false,⟨.lcode,none,false,.lblank⟩⟩] .leaf) 119148528 [⟨⟨.code,[40],.lblank,false,[],false⟩,false,false,[some (39,(.other,false))],none,none,none,false,false,false,none,false,⟨.lcode,none,false,.lblank⟩⟩] (.node .leaf 119406597 [⟨⟨.code,[47],.lblank,false,[],false⟩,false,false,[some (39,(.other,false))],none,none,none,false,false,false,none,false,⟨.lcode,none,false,.lblank⟩⟩] .leaf))) 121148534 [⟨⟨.code,[40],.lblank,false,[],false⟩,false,false,[some (40,(.other,false))],none,none,none,false,false,false,none,false,⟨.lcode,none,false,.lblank⟩⟩] (.node (.node (.node .leaf 121406603 [⟨⟨.code,[47],.lblank,false,[],false⟩,false,false,[some (40,(.other,false))],none,none,none,false,false,false,none,false,⟨.lcode,none,false,.lblank⟩⟩] .leaf) 123148540 [⟨⟨.code,[40],.lblank,false,[],false⟩,false,false,[some (41,(.other,false))],none,none,none,false,false,false,none,false,⟨.lcode,none,false,.lblank⟩⟩] (.node .leaf 123406609 [⟨⟨.code,[47],.lblank,false,[],false⟩,false,false,[some (41,(.other,false))],none,none,none,false,false,false,none,false,⟨.lcode,none,false,.lblank⟩⟩] .leaf)) 125406615 [⟨⟨.code,[47],.lblank,false,[],false⟩,false,false,[some (42,(.other,false))],none,none,none,false,false,false,none,false,⟨.lcode,none,false,.lblank⟩⟩] (.node (.node .leaf 135148576 [⟨⟨.code,[40],.lblank,false,[],false⟩,false,false,[some (47,(.other,false))],none,none,none,false,false,false,none,false,⟨.lcode,none,false,.lblank⟩⟩] .leaf) 157975223 [⟨⟨(.inside 0),[92],.lcode,false,[],false⟩,false,false,[none],none,none,none,false,false,false,none,false,⟨.lcode,none,false,.lblank⟩⟩] .leaf))) 177294043 [⟨⟨(.inside 0),[92],.lcomment,false,[],false⟩,false,false,[none],none,none,none,false,false,false,none,false,⟨.lcomment,none,false,.lblank⟩⟩] (.node (.node (.node (.node .leaf 186512230 [⟨⟨.code,[40],.lcode,false,[],false⟩,false,false,[some (92,(.other,false))],none,none,none,false,false,false,none,false,⟨.lcode,none,false,.lblank⟩⟩] .leaf) 186770299 [⟨⟨.code,[47],.lcode,false,[],false⟩,false,false,[some (92,(.other,false))],none,none,none,false,false,false,none,false,⟨.lcode,none,false,.lblank⟩⟩] (.node .leaf 196612351 [⟨⟨(.inside 0),[92],.lblank,false,[],false⟩,false,false,[none],none,none,none,false,false,false,none,false,⟨.lcomment,none,false,.lblank⟩⟩] .leaf)) 205830538 [⟨⟨.code,[40],.lcomment,false,[],false⟩,false,false,[some (92,(.other,false))],none,none,none,false,false,false,none,false,⟨.lcode,none,false,.lblank⟩⟩] (.node (.node .leaf 206088607 [⟨⟨.code,[47],.lcomment,false,[],false⟩,false,false,[some (92,(.other,false))],none,none,none,false,false,false,none,false,⟨.lcode,none,false,.lblank⟩⟩] .leaf) 225148846 [⟨⟨.code,[40],.lblank,false,[],false⟩,false,false,[some (92,(.other,false))],none,none,none,false,false,false,none,false,⟨.lcode,none,false,.lblank⟩⟩] (.node .leaf 225406915 [⟨⟨.code,[47],.lblank,false,[],false⟩,false,false,[some (92,(.other,false))],none,none,none,false,false,false,none,false,⟨.lcode,none,false,.lblank⟩⟩] .leaf))) 351158815 [⟨⟨(.escapedCr 0),[92],.lblank,false,[],false⟩,false,false,[none],none,none,none,false,false,false,none,false,⟨.lcomment,none,false,.lblank⟩⟩] (.node (.node (.node .leaf 514513214 [⟨⟨.code,[40],.lcode,false,[],false⟩,false,false,[some (256,(.other,false))],none,none,none,false,false,false,none,false,⟨.lcode,none,false,.lblank⟩⟩] .leaf) 514771283 [⟨⟨.code,[47],.lcode,false,[],false⟩,false,false,[some (256,(.other,false))],none,none,none,false,false,false,none,false,⟨.lcode,none,false,.lblank⟩⟩] (.node .leaf 533831522 [⟨⟨.code,[40],.lcomment,false,[],false⟩,false,false,[some (256,(.other,false))],none,none,none,false,false,false,none,false,⟨.lcode,none,false,.lblank⟩⟩] .leaf)) 534089591 [⟨⟨.code,[47],.lcomment,false,[],false⟩,false,false,[some (256,(.other,false))],none,none,none,false,false,false,none,false,⟨.lcode,none,false,.lblank⟩⟩] (.node (.node .leaf 553149830 [⟨⟨.code,[40],.lblank,false,[],false⟩,false,false,[some (256,(.other,false))],none,none,none,false,false,false,none,false,⟨.lcode,none,false,.lblank⟩⟩] .leaf) 553407899 [⟨⟨.code,[47],.lblank,false,[],false⟩,false,false,[some (256,(.other,false))],none,none,none,false,false,false,none,false,⟨.lcode,none,false,.lblank⟩⟩] .leaf)))))),(.node (.node .leaf 128 [⟨⟨.code,[],.lcode,false,[],false⟩,false,false,[],none,none,none,false,false,false,none,false,⟨.lcode,some (.own 0),false,.lblank⟩⟩] .leaf) 148108 [⟨⟨.code,[],.lcomment,false,[],false⟩,false,false,[],none,none,none,false,false,false,none,false,⟨.lcomment,some (.own 0),false,.lblank⟩⟩] (.node .leaf 296088 [⟨⟨.code,[],.lblank,false,[],false⟩,false,false,[],none,none,none,false,false,false,none,false,⟨.lblank,some (.own 0),false,.lblank⟩⟩] .leaf)),(.node (.node .leaf 160 [⟨⟨.code,[],.lcode,false,[],false⟩,true,false,[],none,none,none,false,false,false,none,false,⟨.lcode,some .newline,false,.lblank⟩⟩] .leaf) 148140 [⟨⟨.code,[],.lcomment,false,[],false⟩,true,false,[],none,none,none,false,false,false,none,false,⟨.lcomment,some .newline,false,.lblank⟩⟩] (.node .leaf 296120 [⟨⟨.code,[],.lblank,false,[],false⟩,true,false,[],none,none,none,false,false,false,none,false,⟨.lblank,some .newline,false,.lblank⟩⟩] .leaf)),(.node (.node .leaf 37011 [⟨⟨.code,[],.lcode,true,[],false⟩,false,true,[],none,none,none,false,false,false,none,false,⟨.lcode,some .newline,false,.lblank⟩⟩] .leaf) 184991 [⟨⟨.code,[],.lcomment,true,[],false⟩,false,true,[],none,none,none,false,false,false,none,false,⟨.lcomment,some .newline,false,.lblank⟩⟩] (.node .leaf 332971 [⟨⟨.code,[],.lblank,true,[],false⟩,false,true,[],none,none,none,false,false,false,none,false,⟨.lblank,some .newline,false,.lblank⟩⟩] .leaf)),(.node .leaf 10027952 [⟨⟨(.inside 3),[],.lcode,false,[],false⟩,false,false,[],none,none,none,false,false,false,none,false,⟨.lcode,some (.own 8),false,.lblank⟩⟩] .leaf),(.node .leaf 7078592 [⟨⟨(.inside 2),[],.lcode,false,[],false⟩,false,false,[],none,none,none,false,false,false,none,false,⟨.lcode,some (.own 8),false,.lblank⟩⟩] .leaf),(.node (.node (.node .leaf 1511675 [⟨⟨.code,[40],.lcode,false,[],false⟩,false,false,[],none,none,none,false,false,false,none,false,⟨.lcode,some (.own 8),false,.lblank⟩⟩] .leaf) 1511677 [⟨⟨.code,[40],.lcode,false,[],false⟩,false,false,[],none,none,none,false,false,true,none,false,⟨.lcode,some (.own 8),false,.lblank⟩⟩] .leaf) 20830497 [⟨⟨.code,[40],.lcomment,false,[],false⟩,false,false,[],none,none,none,false,false,true,none,false,⟨.lcomment,some (.own 8),false,.lblank⟩⟩] (.node .leaf 40149317 [⟨⟨.code,[40],.lblank,false,[],false⟩,false,false,[],none,none,none,false,false,true,none,false,⟨.lblank,some (.own 8),false,.lblank⟩⟩] .leaf)),(.node (.node (.node .leaf 1769744 [⟨⟨.code,[47],.lcode,false,[],false⟩,false,false,[],none,none,none,false,false,false,none,false,⟨.lcode,some (.own 8),false,.lblank⟩⟩] .leaf) 1769746 [⟨⟨.code,[47],.lcode,false,[],false⟩,false,false,[],none,none,none,false,false,true,none,false,⟨.lcode,some (.own 8),false,.lblank⟩⟩] .leaf) 21088566 [⟨⟨.code,[47],.lcomment,false,[],false⟩,false,false,[],none,none,none,false,false,true,none,false,⟨.lcomment,some (.own 8),false,.lblank⟩⟩] (.node .leaf 40407386 [⟨⟨.code,[47],.lblank,false,[],false⟩,false,false,[],none,none,none,false,false,true,none,false,⟨.lblank,some (.own 8),false,.lblank⟩⟩] .leaf)),(.node (.node .leaf 10655941 [⟨⟨(.inside 3),[],.lcode,false,[],false⟩,false,false,[],some 4,some ⟨(.inside 3),[],.lcode,false,[],false⟩,none,false,false,false,none,false,⟨.lcode,some (.own 8),false,.lblank⟩⟩] .leaf) 10655949 [⟨⟨(.inside 3),[],.lcode,false,[],false⟩,false,false,[],some 4,some ⟨(.inside 3),[],.lcode,false,[],false⟩,none,true,false,false,none,false,⟨.lcode,some .internalNl,false,.lblank⟩⟩] .leaf),(.node (.node .leaf 10655941 [⟨⟨(.inside 3),[],.lcode,false,[],false⟩,false,false,[],some 4,some ⟨(.inside 3),[],.lcode,false,[],false⟩,none,false,false,false,none,false,⟨.lcode,some (.own 8),false,.lblank⟩⟩] .leaf) 10655949 [⟨⟨(.inside 3),[],.lcode,false,[],false⟩,false,false,[],some 4,some ⟨(.inside 3),[],.lcode,false,[],false⟩,none,true,false,false,none,false,⟨.lcode,some .internalNl,false,.lblank⟩⟩] (.node .leaf 10951909 [⟨⟨(.inside 3),[],.lblank,false,[],false⟩,false,false,[],some 4,some ⟨(.inside 3),[],.lcode,false,[],false⟩,none,true,false,false,none,false,⟨.lblank,some .internalNl,false,.lblank⟩⟩] .leaf)),(.node (.node (.node .leaf 1317701692 [⟨⟨(.inside 3),[92],.lcode,false,[],false⟩,false,false,[],some 4,some ⟨(.inside 3),[],.lcode,false,[],false⟩,none,false,false,false,none,false,⟨.lcode,some (.own 8),false,.lblank⟩⟩] .leaf) 1317701700 [⟨⟨(.inside 3),[92],.lcode,false,[],false⟩,false,false,[],some 4,some ⟨(.inside 3),[],.lcode,false,[],false⟩,none,true,false,false,none,false,⟨.lcode,some .internalNl,false,.lblank⟩⟩] .leaf) 1356339340 [⟨⟨(.inside 3),[92],.lblank,false,[],false⟩,false,false,[],some 4,some ⟨(.inside 3),[],.lcode,false,[],false⟩,none,true,false,false,none,false,⟨.lblank,some .internalNl,false,.lblank⟩⟩] (.node .leaf 1510885804 [⟨⟨(.escapedCr 3),[92],.lblank,false,[],false⟩,false,false,[],some 4,some ⟨(.inside 3),[],.lcode,false,[],false⟩,none,true,false,false,none,false,⟨.lblank,some .internalNl,false,.lblank⟩⟩] .leaf)),(.node (.node .leaf 7522021 [⟨⟨(.inside 2),[],.lcode,false,[],false⟩,false,false,[],some 4,some ⟨(.inside 2),[],.lcode,false,[],false⟩,none,false,false,false,none,false,⟨.lcode,some (.own 8),false,.lblank⟩⟩] .leaf) 7522029 [⟨⟨(.inside 2),[],.lcode,false,[],false⟩,false,false,[],some 4,some ⟨(.inside 2),[],.lcode,false,[],false⟩,none,true,false,false,none,false,⟨.lcode,some .internalNl,false,.lblank⟩⟩] .leaf),(.node (.node .leaf 7522021 [⟨⟨(.inside 2),[],.lcode,false,[],false⟩,false,false,[],some 4,some ⟨(.inside 2),[],.lcode,false,[],false⟩,none,false,false,false,none,false,⟨.lcode,some (.own 8),false,.lblank⟩⟩] .leaf) 7522029 [⟨⟨(.inside 2),[],.lcode,false,[],false⟩,false,false,[],some 4,some ⟨(.inside 2),[],.lcode,false,[],false⟩,none,true,false,false,none,false,⟨.lcode,some .internalNl,false,.lblank⟩⟩] (.node .leaf 7817989 [⟨⟨(.inside 2),[],.lblank,false,[],false⟩,false,false,[],some 4,some ⟨(.inside 2),[],.lcode,false,[],false⟩,none,true,false,false,none,false,⟨.lblank,some .internalNl,false,.lblank⟩⟩] .leaf)),(.node (.node (.node .leaf 931150972 [⟨⟨(.inside 2),[92],.lcode,false,[],false⟩,false,false,[],some 4,some ⟨(.inside 2),[],.lcode,false,[],false⟩,none,false,false,false,none,false,⟨.lcode,some (.own 8),false,.lblank⟩⟩] .leaf) 931150980 [⟨⟨(.inside 2),[92],.lcode,false,[],false⟩,false,false,[],some 4,some ⟨(.inside 2),[],.lcode,false,[],false⟩,none,true,false,false,none,false,⟨.lcode,some .internalNl,false,.lblank⟩⟩] .leaf) 969788620 [⟨⟨(.inside 2),[92],.lblank,false,[],false⟩,false,false,[],some 4,some ⟨(.inside 2),[],.lcode,false,[],false⟩,none,true,false,false,none,false,⟨.lblank,some .internalNl,false,.lblank⟩⟩] (.node .leaf 1124335084 [⟨⟨(.escapedCr 2),[92],.lblank,false,[],false⟩,false,false,[],some 4,some ⟨(.inside 2),[],.lcode,false,[],false⟩,none,true,false,false,none,false,⟨.lblank,some .internalNl,false,.lblank⟩⟩] .leaf)),(.node (.node .leaf 610226122 [⟨⟨(.inside 1),[],.lcode,false,[],false⟩,false,false,[],some 4,some ⟨.code,[40],.lcode,false,[],false⟩,some ([(42,(.other,false))],false),false,false,false,none,false,⟨.lcode,some (.own 8),false,.lblank⟩⟩] .leaf) 611582970 [⟨⟨(.inside 1),[],.lcomment,false,[],false⟩,false,false,[],some 4,some ⟨.code,[40],.lcomment,false,[],false⟩,some ([(42,(.other,false))],false),false,false,false,none,false,⟨.lcomment,some (.own 8),false,.lblank⟩⟩] (.node .leaf 612791838 [⟨⟨(.inside 1),[],.lcomment,false,[],false⟩,false,false,[],some 4,some ⟨.code,[40],.lblank,false,[],false⟩,some ([(42,(.other,false))],false),false,false,false,none,false,⟨.lcomment,some (.own 8),false,.lblank⟩⟩] .leaf)),(.node (.node .leaf 1179872 [⟨⟨(.inside 0),[],.lcode,false,[],false⟩,false,false,[],none,none,none,false,false,false,none,false,⟨.lcode,some (.own 8),false,.lblank⟩⟩] .leaf) 1327852 [⟨⟨(.inside 0),[],.lcomment,false,[],false⟩,false,false,[],none,none,none,false,false,false,none,false,⟨.lcomment,some (.own 8),false,.lblank⟩⟩] .leaf),(.node (.node .leaf 10655941 [⟨⟨(.inside 3),[],.lcode,false,[],false⟩,false,false,[],some 4,some ⟨(.inside 3),[],.lcode,false,[],false⟩,none,false,false,false,none,false,⟨.lcode,some (.own 8),false,.lblank⟩⟩] .leaf) 10655949 [⟨⟨(.inside 3),[],.lcode,false,[],false⟩,false,false,[],some 4,some ⟨(.inside 3),[],.lcode,false,[],false⟩,none,true,false,false,none,false,⟨.lcode,some .internalNl,false,.lblank⟩⟩] .leaf),(.node (.node .leaf 10692808 [⟨⟨(.inside 3),[],.lcode,true,[],false⟩,false,false,[],some 4,some ⟨(.inside 3),[],.lcode,false,[],false⟩,none,false,false,false,none,false,⟨.lcode,some (.own 8),false,.lblank⟩⟩] .leaf) 10692816 [⟨⟨(.inside 3),[],.lcode,true,[],false⟩,false,false,[],some 4,some ⟨(.inside 3),[],.lcode,false,[],false⟩,none,true,false,false,none,false,⟨.lcode,some .internalNl,false,.lblank⟩⟩] (.node .leaf 10988776 [⟨⟨(.inside 3),[],.lblank,true,[],false⟩,false,false,[],some 4,some ⟨(.inside 3),[],.lcode,false,[],false⟩,none,true,false,false,none,false,⟨.lblank,some .internalNl,false,.lblank⟩⟩] .leaf)),(.node (.node .leaf 10692808 [⟨⟨(.inside 3),[],.lcode,true,[],false⟩,false,false,[],some 4,some ⟨(.inside 3),[],.lcode,false,[],false⟩,none,false,false,false,none,false,⟨.lcode,some (.own 8),false,.lblank⟩⟩] .leaf) 10692816 [⟨⟨(.inside 3),[],.lcode,true,[],false⟩,false,false,[],some 4,some ⟨(.inside 3),[],.lcode,false,[],false⟩,none,true,false,false,none,false,⟨.lcode,some .internalNl,false,.lblank⟩⟩] (.node .leaf 10988776 [⟨⟨(.inside 3),[],.lblank,true,[],false⟩,false,false,[],some 4,some ⟨(.inside 3),[],.lcode,false,[],false⟩,none,true,false,false,none,false,⟨.lblank,some .internalNl,false,.lblank⟩⟩] .leaf)),(.node (.node .leaf 11835717 [⟨⟨(.escapedCr 3),[],.lcode,false,[],false⟩,true,false,[],some 4,some ⟨(.inside 3),[],.lcode,false,[],false⟩,none,false,false,false,none,false,⟨.lcode,some (.own 8),false,.lblank⟩⟩] .leaf) 11835725 [⟨⟨(.escapedCr 3),[],.lcode,false,[],false⟩,true,false,[],some 4,some ⟨(.inside 3),[],.lcode,false,[],false⟩,none,true,false,false,none,false,⟨.lcode,some .internalNl,false,.lblank⟩⟩] (.node .leaf 12131685 [⟨⟨(.escapedCr 3),[],.lblank,false,[],false⟩,true,false,[],some 4,some ⟨(.inside 3),[],.lcode,false,[],false⟩,none,true,false,false,none,false,⟨.lblank,some .internalNl,false,.lblank⟩⟩] .leaf)),(.node (.node .leaf 11872568 [⟨⟨(.escapedCr 3),[],.lcode,true,[],false⟩,false,true,[],some 4,some ⟨(.inside 3),[],.lcode,false,[],false⟩,none,false,false,false,none,false,⟨.lcode,some (.own 8),false,.lblank⟩⟩] .leaf) 11872576 [⟨⟨(.escapedCr 3),[],.lcode,true,[],false⟩,false,true,[],some 4,some ⟨(.inside 3),[],.lcode,false,[],false⟩,none,true,false,false,none,false,⟨.lcode,some .internalNl,false,.lblank⟩⟩] (.node .leaf 12168536 [⟨⟨(.escapedCr 3),[],.lblank,true,[],false⟩,false,true,[],some 4,some ⟨(.inside 3),[],.lcode,false,[],false⟩,none,true,false,false,none,false,⟨.lblank,some .internalNl,false,.lblank⟩⟩] .leaf)),(.node (.node .leaf 7522021 [⟨⟨(.inside 2),[],.lcode,false,[],false⟩,false,false,[],some 4,some ⟨(.inside 2),[],.lcode,false,[],false⟩,none,false,false,false,none,false,⟨.lcode,some (.own 8),false,.lblank⟩⟩] .leaf) 7522029 [⟨⟨(.inside 2),[],.lcode,false,[],false⟩,false,false,[],some 4,some ⟨(.inside 2),[],.lcode,false,[],false⟩,none,true,false,false,none,false,⟨.lcode,some .internalNl,false,.lblank⟩⟩] .leaf),(.node (.node .leaf 7558888 [⟨⟨(.inside 2),[],.lcode,true,[],false⟩,false,false,[],some 4,some ⟨(.inside 2),[],.lcode,false,[],false⟩,none,false,false,false,none,false,⟨.lcode,some (.own 8),false,.lblank⟩⟩] .leaf) 7558896 [⟨⟨(.inside 2),[],.lcode,true,[],false⟩,false,false,[],some 4,some ⟨(.inside 2),[],.lcode,false,[],false⟩,none,true,false,false,none,false,⟨.lcode,some .internalNl,false,.lblank⟩⟩] (.node .leaf 7854856 [⟨⟨(.inside 2),[],.lblank,true,[],false⟩,false,false,[],some 4,some ⟨(.inside 2),[],.lcode,false,[],false⟩,none,true,false,false,none,false,⟨.lblank,some .internalNl,false,.lblank⟩⟩] .leaf)),(.node (.node .leaf 7558888 [⟨⟨(.inside 2),[],.lcode,true,[],false⟩,false,false,[],some 4,some ⟨(.inside 2),[],.lcode,false,[],false⟩,none,false,false,false,none,false,⟨.lcode,some (.own 8),false,.lblank⟩⟩] .leaf) 7558896 [⟨⟨(.inside 2),[],.lcode,true,[],false⟩,false,false,[],some 4,some ⟨(.inside 2),[],.lcode,false,[],false⟩,none,true,false,false,none,false,⟨.lcode,some .internalNl,false,.lblank⟩⟩] (.node .leaf 7854856 [⟨⟨(.inside 2),[],.lblank,true,[],false⟩,false,false,[],some 4,some ⟨(.inside 2),[],.lcode,false,[],false⟩,none,true,false,false,none,false,⟨.lblank,some .internalNl,false,.lblank⟩⟩] .leaf)),(.node (.node .leaf 8701797 [⟨⟨(.escapedCr 2),[],.lcode,false,[],false⟩,true,false,[],some 4,some ⟨(.inside 2),[],.lcode,false,[],false⟩,none,false,false,false,none,false,⟨.lcode,some (.own 8),false,.lblank⟩⟩] .leaf) 8701805 [⟨⟨(.escapedCr 2),[],.lcode,false,[],false⟩,true,false,[],some 4,some ⟨(.inside 2),[],.lcode,false,[],false⟩,none,true,false,false,none,false,⟨.lcode,some .internalNl,false,.lblank⟩⟩] (.node .leaf 8997765 [⟨⟨(.escapedCr 2),[],.lblank,false,[],false⟩,true,false,[],some 4,some ⟨(.inside 2),[],.lcode,false,[],false⟩,none,true,false,false,none,false,⟨.lblank,some .internalNl,false,.lblank⟩⟩] .leaf)),(.node (.node .leaf 8738648 [⟨⟨(.escapedCr 2),[],.lcode,true,[],false⟩,false,true,[],some 4,some ⟨(.inside 2),[],.lcode,false,[],false⟩,none,false,false,false,none,false,⟨.lcode,some (.own 8),false,.lblank⟩⟩] .leaf) 8738656 [⟨⟨(.escapedCr 2),[],.lcode,true,[],false⟩,false,true,[],some 4,some ⟨(.inside 2),[],.lcode,false,[],false⟩,none,true,false,false,none,false,⟨.lcode,some .internalNl,false,.lblank⟩⟩] (.node .leaf 9034616 [⟨⟨(.escapedCr 2),[],.lblank,true,[],false⟩,false,true,[],some 4,some ⟨(.inside 2),[],.lcode,false,[],false⟩,none,true,false,false,none,false,⟨.lblank,some .internalNl,false,.lblank⟩⟩] .leaf)),(.node (.node (.node .leaf 610226122 [⟨⟨(.inside 1),[],.lcode,false,[],false⟩,false,false,[],some 4,some ⟨.code,[40],.lcode,false,[],false⟩,some ([(42,(.other,false))],false),false,false,false,none,false,⟨.lcode,some (.own 8),false,.lblank⟩⟩] .leaf) 610374110 [⟨⟨(.inside 1),[],.lcomment,false,[],false⟩,false,false,[],some 4,some ⟨.code,[40],.lcode,false,[],false⟩,some ([(42,(.other,false))],false),true,false,false,none,false,⟨.lcomment,some .internalNl,false,.lblank⟩⟩] (.node .leaf 611582970 [⟨⟨(.inside 1),[],.lcomment,false,[],false⟩,false,false,[],some 4,some ⟨.code,[40],.lcomment,false,[],false⟩,some ([(42,(.other,false))],false),false,false,false,none,false,⟨.lcomment,some (.own 8),false,.lblank⟩⟩] .leaf)) 611582978 [⟨⟨(.inside 1),[],.lcomment,false,[],false⟩,false,false,[],some 4,some ⟨.code,[40],.lcomment,false,[],false⟩,some ([(42,(.other,false))],false),true,false,false,none,false,⟨.lcomment,some .internalNl,false,.lblank⟩⟩] (.node (.node .leaf 612791838 [⟨⟨(.inside 1),[],.lcomment,false,[],false⟩,false,false,[],some 4,some ⟨.code,[40],.lblank,false,[],false⟩,some ([(42,(.other,false))],false),false,false,false,none,false,⟨.lcomment,some (.own 8),false,.lblank⟩⟩] .leaf) 612791846 [⟨⟨(.inside 1),[],.lcomment,false,[],false⟩,false,false,[],some 4,some ⟨.code,[40],.lblank,false,[],false⟩,some ([(42,(.other,false))],false),true,false,false,none,false,⟨.lcomment,some .internalNl,false,.lblank⟩⟩] .leaf)),(.node (.node (.node (.node .leaf 610226122 [⟨⟨(.inside 1),[],.lcode,false,[],false⟩,false,false,[],some 4,some ⟨.code,[40],.lcode,false,[],false⟩,some ([(42,(.other,false))],false),false,false,false,none,false,⟨.lcode,some (.own 8),false,.lblank⟩⟩] .leaf) 610374110 [⟨⟨(.inside 1),[],.lcomment,false,[],false⟩,false,false,[],some 4,some ⟨.code,[40],.lcode,false,[],false⟩,some ([(42,(.other,false))],false),true,false,false,none,false,⟨.lcomment,some .internalNl,false,.lblank⟩⟩] .leaf) 610522090 [⟨⟨(.inside 1),[],.lblank,false,[],false⟩,false,false,[],some 4,some ⟨.code,[40],.lcode,false,[],false⟩,some ([(42,(.other,false))],false),true,false,false,none,false,⟨.lblank,some .internalNl,false,.lblank⟩⟩] (.node .leaf 611582970 [⟨⟨(.inside 1),[],.lcomment,false,[],false⟩,false,false,[],some 4,some ⟨.code,[40],.lcomment,false,[],false⟩,some ([(42,(.other,false))],false),false,false,false,none,false,⟨.lcomment,some (.own 8),false,.lblank⟩⟩] .leaf)) 611582978 [⟨⟨(.inside 1),[],.lcomment,false,[],false⟩,false,false,[],some 4,some ⟨.code,[40],.lcomment,false,[],false⟩,some ([(42,(.other,false))],false),true,false,false,none,false,⟨.lcomment,some .internalNl,false,.lblank⟩⟩] (.node (.node (.node .leaf 611730958 [⟨⟨(.inside 1),[],.lblank,false,[],false⟩,false,false,[],some 4,some ⟨.code,[40],.lcomment,false,[],false⟩,some ([(42,(.other,false))],false),true,false,false,none,false,⟨.lblank,some .internalNl,false,.lblank⟩⟩] .leaf) 612791838 [⟨⟨(.inside 1),[],.lcomment,false,[],false⟩,false,false,[],some 4,some ⟨.code,[40],.lblank,false,[],false⟩,some ([(42,(.other,false))],false),false,false,false,none,false,⟨.lcomment,some (.own 8),false,.lblank⟩⟩] .leaf) 612791846 [⟨⟨(.inside 1),[],.lcomment,false,[],false⟩,false,false,[],some 4,some ⟨.code,[40],.lblank,false,[],false⟩,some ([(42,(.other,false))],false),true,false,false,none,false,⟨.lcomment,some .internalNl,false,.lblank⟩⟩] (.node .leaf 612939826 [⟨⟨(.inside 1),[],.lblank,false,[],false⟩,false,false,[],some 4,some ⟨.code,[40],.lblank,false,[],false⟩,some ([(42,(.other,false))],false),true,false,false,none,false,⟨.lblank,some .internalNl,false,.lblank⟩⟩] .leaf))),(.node (.node (.node (.node .leaf 610262989 [⟨⟨(.inside 1),[],.lcode,true,[],false⟩,false,false,[],some 4,some ⟨.code,[40],.lcode,false,[],false⟩,some ([(42,(.other,false))],false),false,false,false,none,false,⟨.lcode,some (.own 8),false,.lblank⟩⟩] .leaf) 610410977 [⟨⟨(.inside 1),[],.lcomment,true,[],false⟩,false,false,[],some 4,some ⟨.code,[40],.lcode,false,[],false⟩,some ([(42,(.other,false))],false),true,false,false,none,false,⟨.lcomment,some .internalNl,false,.lblank⟩⟩] .leaf) 610558957 [⟨⟨(.inside 1),[],.lblank,true,[],false⟩,false,false,[],some 4,some ⟨.code,[40],.lcode,false,[],false⟩,some ([(42,(.other,false))],false),true,false,false,none,false,⟨.lblank,some .internalNl,false,.lblank⟩⟩] (.node .leaf 611619837 [⟨⟨(.inside 1),[],.lcomment,true,[],false⟩,false,false,[],some 4,some ⟨.code,[40],.lcomment,false,[],false⟩,some ([(42,(.other,false))],false),false,false,false,none,false,⟨.lcomment,some (.own 8),false,.lblank⟩⟩] .leaf)) 611619845 [⟨⟨(.inside 1),[],.lcomment,true,[],false⟩,false,false,[],some 4,some ⟨.code,[40],.lcomment,false,[],false⟩,some ([(42,(.other,false))],false),true,false,false,none,false,⟨.lcomment,some .internalNl,false,.lblank⟩⟩] (.node (.node (.node .leaf 611767825 [⟨⟨(.inside 1),[],.lblank,true,[],false⟩,false,false,[],some 4,some ⟨.code,[40],.lcomment,false,[],false⟩,some ([(42,(.other,false))],false),true,false,false,none,false,⟨.lblank,some .internalNl,false,.lblank⟩⟩] .leaf) 612828705 [⟨⟨(.inside 1),[],.lcomment,true,[],false⟩,false,false,[],some 4,some ⟨.code,[40],.lblank,false,[],false⟩,some ([(42,(.other,false))],false),false,false,false,none,false,⟨.lcomment,some (.own 8),false,.lblank⟩⟩] .leaf) 612828713 [⟨⟨(.inside 1),[],.lcomment,true,[],false⟩,false,false,[],some 4,some ⟨.code,[40],.lblank,false,[],false⟩,some ([(42,(.other,false))],false),true,false,false,none,false,⟨.lcomment,some .internalNl,false,.lblank⟩⟩] (.node .leaf 612976693 [⟨⟨(.inside 1),[],.lblank,true,[],false⟩,false,false,[],some 4,some ⟨.code,[40],.lblank,false,[],false⟩,some ([(42,(.other,false))],false),true,false,false,none,false,⟨.lblank,some .internalNl,false,.lblank⟩⟩] .leaf))),(.node (.node (.node (.node .leaf 610262989 [⟨⟨(.inside 1),[],.lcode,true,[],false⟩,false,false,[],some 4,some ⟨.code,[40],.lcode,false,[],false⟩,some ([(42,(.other,false))],false),false,false,false,none,false,⟨.lcode,some (.own 8),false,.lblank⟩⟩] .leaf) 610410977 [⟨⟨(.inside 1),[],.lcomment,true,[],false⟩,false,false,[],some 4,some ⟨.code,[40],.lcode,false,[],false⟩,some ([(42,(.other,false))],false),true,false,false,none,false,⟨.lcomment,some .internalNl,false,.lblank⟩⟩] .leaf) 610558957 [⟨⟨(.inside 1),[],.lblank,true,[],false⟩,false,false,[],some 4,some ⟨.code,[40],.lcode,false,[],false⟩,some ([(42,(.other,false))],false),true,false,false,none,false,⟨.lblank,some .internalNl,false,.lblank⟩⟩] (.node .leaf 611619837 [⟨⟨(.inside 1),[],.lcomment,true,[],false⟩,false,false,[],some 4,some ⟨.code,[40],.lcomment,false,[],false⟩,some ([(42,(.other,false))],false),false,false,false,none,false,⟨.lcomment,some (.own 8),false,.lblank⟩⟩] .leaf)) 611619845 [⟨⟨(.inside 1),[],.lcomment,true,[],false⟩,false,false,[],some 4,some ⟨.code,[40],.lcomment,false,[],false⟩,some ([(42,(.other,false))],false),true,false,false,none,false,⟨.lcomment,some .internalNl,false,.lblank⟩⟩] (.node (.node (.node .leaf 611767825 [⟨⟨(.inside 1),[],.lblank,true,[],false⟩,false,false,[],some 4,some ⟨.code,[40],.lcomment,false,[],false⟩,some ([(42,(.other,false))],false),true,false,false,none,false,⟨.lblank,some .internalNl,false,.lblank⟩⟩] .leaf) 612828705 [⟨⟨(.inside 1),[],.lcomment,true,[],false⟩,false,false,[],some 4,some ⟨.code,[40],.lblank,false,[],false⟩,some ([(42,(.other,false))],false),false,false,false,none,false,⟨.lcomment,some (.own 8),false,.lblank⟩⟩] .leaf) 612828713 [⟨⟨(.inside 1),[],.lcomment,true,[],false⟩,false,false,[],some 4,some ⟨.code,[40],.lblank,false,[],false⟩,some ([(42,(.other,false))],false),true,false,false,none,false,⟨.lcomment,some .internalNl,false,.lblank⟩⟩] (.node .leaf 612976693 [⟨⟨(.inside 1),[],.lblank,true,[],false⟩,false,false,[],some 4,some ⟨.code,[40],.lblank,false,[],false⟩,some ([(42,(.other,false))],false),true,false,false,none,false,⟨.lblank,some .internalNl,false,.lblank⟩⟩] .leaf))),(.node (.node (.node (.node .leaf 610226154 [⟨⟨(.inside 1),[],.lcode,false,[],false⟩,true,false,[],some 4,some ⟨.code,[40],.lcode,false,[],false⟩,some ([(42,(.other,false))],false),false,false,false,none,false,⟨.lcode,some (.own 8),false,.lblank⟩⟩] .leaf) 610374142 [⟨⟨(.inside 1),[],.lcomment,false,[],false⟩,true,false,[],some 4,some ⟨.code,[40],.lcode,false,[],false⟩,some ([(42,(.other,false))],false),true,false,false,none,false,⟨.lcomment,some .internalNl,false,.lblank⟩⟩] .leaf) 610522122 [⟨⟨(.inside 1),[],.lblank,false,[],false⟩,true,false,[],some 4,some ⟨.code,[40],.lcode,false,[],false⟩,some ([(42,(.other,false))],false),true,false,false,none,false,⟨.lblank,some .internalNl,false,.lblank⟩⟩] (.node .leaf 611583002 [⟨⟨(.inside 1),[],.lcomment,false,[],false⟩,true,false,[],some 4,some ⟨.code,[40],.lcomment,false,[],false⟩,some ([(42,(.other,false))],false),false,false,false,none,false,⟨.lcomment,some (.own 8),false,.lblank⟩⟩] .leaf)) 611583010 [⟨⟨(.inside 1),[],.lcomment,false,[],false⟩,true,false,[],some 4,some ⟨.code,[40],.lcomment,false,[],false⟩,some ([(42,(.other,false))],false),true,false,false,none,false,⟨.lcomment,some .internalNl,false,.lblank⟩⟩] (.node (.node (.node .leaf 611730990 [⟨⟨(.inside 1),[],.lblank,false,[],false⟩,true,false,[],some 4,some ⟨.code,[40],.lcomment,false,[],false⟩,some ([(42,(.other,false))],false),true,false,false,none,false,⟨.lblank,some .internalNl,false,.lblank⟩⟩] .leaf) 612791870 [⟨⟨(.inside 1),[],.lcomment,false,[],false⟩,true,false,[],some 4,some ⟨.code,[40],.lblank,false,[],false⟩,some ([(42,(.other,false))],false),false,false,false,none,false,⟨.lcomment,some (.own 8),false,.lblank⟩⟩] .leaf) 612791878 [⟨⟨(.inside 1),[],.lcomment,false,[],false⟩,true,false,[],some 4,some ⟨.code,[40],.lblank,false,[],false⟩,some ([(42,(.other,false))],false),true,false,false,none,false,⟨.lcomment,some .internalNl,false,.lblank⟩⟩] (.node .leaf 612939858 [⟨⟨(.inside 1),[],.lblank,false,[],false⟩,true,false,[],some 4,some ⟨.code,[40],.lblank,false,[],false⟩,some ([(42,(.other,false))],false),true,false,false,none,false,⟨.lblank,some .internalNl,false,.lblank⟩⟩] .leaf))),(.node (.node (.node (.node .leaf 610263005 [⟨⟨(.inside 1),[],.lcode,true,[],false⟩,false,true,[],some 4,some ⟨.code,[40],.lcode,false,[],false⟩,some ([(42,(.other,false))],false),false,false,false,none,false,⟨.lcode,some (.own 8),false,.lblank⟩⟩] .leaf) 610410993 [⟨⟨(.inside 1),[],.lcomment,true,[],false⟩,false,true,[],some 4,some ⟨.code,[40],.lcode,false,[],false⟩,some ([(42,(.other,false))],false),true,false,false,none,false,⟨.lcomment,some .internalNl,false,.lblank⟩⟩] .leaf) 610558973 [⟨⟨(.inside 1),[],.lblank,true,[],false⟩,false,true,[],some 4,some ⟨.code,[40],.lcode,false,[],false⟩,some ([(42,(.other,false))],false),true,false,false,none,false,⟨.lblank,some .internalNl,false,.lblank⟩⟩] (.node .leaf 611619853 [⟨⟨(.inside 1),[],.lcomment,true,[],false⟩,false,true,[],some 4,some ⟨.code,[40],.lcomment,false,[],false⟩,some ([(42,(.other,false))],false),false,false,false,none,false,⟨.lcomment,some (.own 8),false,.lblank⟩⟩] .leaf)) 611619861 [⟨⟨(.inside 1),[],.lcomment,true,[],false⟩,false,true,[],some 4,some ⟨.code,[40],.lcomment,false,[],false⟩,some ([(42,(.other,false))],false),true,false,false,none,false,⟨.lcomment,some .internalNl,false,.lblank⟩⟩] (.node (.node (.node .leaf 611767841 [⟨⟨(.inside 1),[],.lblank,true,[],false⟩,false,true,[],some 4,some ⟨.code,[40],.lcomment,false,[],false⟩,some ([(42,(.other,false))],false),true,false,false,none,false,⟨.lblank,some .internalNl,false,.lblank⟩⟩] .leaf) 612828721 [⟨⟨(.inside 1),[],.lcomment,true,[],false⟩,false,true,[],some 4,some ⟨.code,[40],.lblank,false,[],false⟩,some ([(42,(.other,false))],false),false,false,false,none,false,⟨.lcomment,some (.own 8),false,.lblank⟩⟩] .leaf) 612828729 [⟨⟨(.inside 1),[],.lcomment,true,[],false⟩,false,true,[],some 4,some ⟨.code,[40],.lblank,false,[],false⟩,some ([(42,(.other,false))],false),true,false,false,none,false,⟨.lcomment,some .internalNl,false,.lblank⟩⟩] (.node .leaf 612976709 [⟨⟨(.inside 1),[],.lblank,true,[],false⟩,false,true,[],some 4,some ⟨.code,[40],.lblank,false,[],false⟩,some ([(42,(.other,false))],false),true,false,false,none,false,⟨.lblank,some .internalNl,false,.lblank⟩⟩] .leaf))),(.node (.node (.node (.node .leaf 1148594923 [⟨⟨(.inside 1),[42],.lcode,false,[],false⟩,false,false,[],some 4,some ⟨.code,[40],.lcode,false,[],false⟩,some ([(42,(.other,false))],false),false,false,false,none,false,⟨.lcode,some (.own 8),false,.lblank⟩⟩] .leaf) 1167913751 [⟨⟨(.inside 1),[42],.lcomment,false,[],false⟩,false,false,[],some 4,some ⟨.code,[40],.lcode,false,[],false⟩,some ([(42,(.other,false))],false),true,false,false,none,false,⟨.lcomment,some .internalNl,false,.lblank⟩⟩] .leaf) 1169122611 [⟨⟨(.inside 1),[42],.lcomment,false,[],false⟩,false,false,[],some 4,some ⟨.code,[40],.lcomment,false,[],false⟩,some ([(42,(.other,false))],false),false,false,false,none,false,⟨.lcomment,some (.own 8),false,.lblank⟩⟩] (.node .leaf 1169122619 [⟨⟨(.inside 1),[42],.lcomment,false,[],false⟩,false,false,[],some 4,some ⟨.code,[40],.lcomment,false,[],false⟩,some ([(42,(.other,false))],false),true,false,false,none,false,⟨.lcomment,some .internalNl,false,.lblank⟩⟩] .leaf)) 1170331479 [⟨⟨(.inside 1),[42],.lcomment,false,[],false⟩,false,false,[],some 4,some ⟨.code,[40],.lblank,false,[],false⟩,some ([(42,(.other,false))],false),false,false,false,none,false,⟨.lcomment,some (.own 8),false,.lblank⟩⟩] (.node (.node (.node .leaf 1170331487 [⟨⟨(.inside 1),[42],.lcomment,false,[],false⟩,false,false,[],some 4,some ⟨.code,[40],.lblank,false,[],false⟩,some ([(42,(.other,false))],false),true,false,false,none,false,⟨.lcomment,some .internalNl,false,.lblank⟩⟩] .leaf) 1187232059 [⟨⟨(.inside 1),[42],.lblank,false,[],false⟩,false,false,[],some 4,some ⟨.code,[40],.lcode,false,[],false⟩,some ([(42,(.other,false))],false),true,false,false,none,false,⟨.lcomment,some .internalNl,false,.lblank⟩⟩] .leaf) 1188440927 [⟨⟨(.inside 1),[42],.lblank,false,[],false⟩,false,false,[],some 4,some ⟨.code,[40],.lcomment,false,[],false⟩,some ([(42,(.other,false))],false),true,false,false,none,false,⟨.lcomment,some .internalNl,false,.lblank⟩⟩] (.node .leaf 1189649795 [⟨⟨(.inside 1),[42],.lblank,false,[],false⟩,false,false,[],some 4,some ⟨.code,[40],.lblank,false,[],false⟩,some ([(42,(.other,false))],false),true,false,false,none,false,⟨.lcomment,some .internalNl,false,.lblank⟩⟩] .leaf))),(.node (.node .leaf 1179872 [⟨⟨(.inside 0),[],.lcode,false,[],false⟩,false,false,[],none,none,none,false,false,false,none,false,⟨.lcode,some (.own 8),false,.lblank⟩⟩] .leaf) 1327852 [⟨⟨(.inside 0),[],.lcomment,false,[],false⟩,false,false,[],none,none,none,false,false,false,none,false,⟨.lcomment,some (.own 8),false,.lblank⟩⟩,⟨⟨(.inside 0),[],.lcomment,false,[],false⟩,false,false,[],none,none,none,false,false,false,none,false,⟨.lcomment,some .internalNl,false,.lblank⟩⟩] .leaf),(.node (.node .leaf 1179872 [⟨⟨(.inside 0),[],.lcode,false,[],false⟩,false,false,[],none,none,none,false,false,false,none,false,⟨.lcode,some (.own 8),false,.lblank⟩⟩] .leaf) 1327852 [⟨⟨(.inside 0),[],.lcomment,false,[],false⟩,false,false,[],none,none,none,false,false,false,none,false,⟨.lcomment,some (.own 8),false,.lblank⟩⟩,⟨⟨(.inside 0),[],.lcomment,false,[],false⟩,false,false,[],none,none,none,false,false,false,none,false,⟨.lcomment,some .internalNl,false,.lblank⟩⟩] (.node .leaf 1475832 [⟨⟨(.inside 0),[],.lblank,false,[],false⟩,false,false,[],none,none,none,false,false,false,none,false,⟨.lblank,some .internalNl,false,.lblank⟩⟩] .leaf)),(.node (.node (.node .leaf 157975223 [⟨⟨(.inside 0),[92],.lcode,false,[],false⟩,false,false,[],none,none,none,false,false,false,none,false,⟨.lcode,some (.own 8),false,.lblank⟩⟩] .leaf) 177294043 [⟨⟨(.inside 0),[92],.lcomment,false,[],false⟩,false,false,[],none,none,none,false,false,false,none,false,⟨.lcomment,some (.own 8),false,.lblank⟩⟩,⟨⟨(.inside 0),[92],.lcomment,false,[],false⟩,false,false,[],none,none,none,false,false,false,none,false,⟨.lcomment,some .internalNl,false,.lblank⟩⟩] .leaf) 196612351 [⟨⟨(.inside 0),[92],.lblank,false,[],false⟩,false,false,[],none,none,none,false,false,false,none,false,⟨.lcomment,some .internalNl,false,.lblank⟩⟩] (.node .leaf 351158815 [⟨⟨(.escapedCr 0),[92],.lblank,false,[],false⟩,false,false,[],none,none,none,false,false,false,none,false,⟨.lcomment,some .internalNl,false,.lblank⟩⟩] .leaf)),(.node (.node .leaf 10692808 [⟨⟨(.inside 3),[],.lcode,true,[],false⟩,false,false,[],some 4,some ⟨(.inside 3),[],.lcode,false,[],false⟩,none,false,false,false,none,false,⟨.lcode,some (.own 8),false,.lblank⟩⟩] .leaf) 10692816 [⟨⟨(.inside 3),[],.lcode,true,[],false⟩,false,false,[],some 4,some ⟨(.inside 3),[],.lcode,false,[],false⟩,none,true,false,false,none,false,⟨.lcode,some .internalNl,false,.lblank⟩⟩] (.node .leaf 10988776 [⟨⟨(.inside 3),[],.lblank,true,[],false⟩,false,false,[],some 4,some ⟨(.inside 3),[],.lcode,false,[],false⟩,none,true,false,false,none,false,⟨.lblank,some .internalNl,false,.lblank⟩⟩] .leaf)),.leaf,(.node (.node .leaf 7558888 [⟨⟨(.inside 2),[],.lcode,true,[],false⟩,false,false,[],some 4,some ⟨(.inside 2),[],.lcode,false,[],false⟩,none,false,false,false,none,false,⟨.lcode,some (.own 8),false,.lblank⟩⟩] .leaf) 7558896 [⟨⟨(.inside 2),[],.lcode,true,[],false⟩,false,false,[],some 4,some ⟨(.inside 2),[],.lcode,false,[],false⟩,none,true,false,false,none,false,⟨.lcode,some .internalNl,false,.lblank⟩⟩] (.node .leaf 7854856 [⟨⟨(.inside 2),[],.lblank,true,[],false⟩,false,false,[],some 4,some ⟨(.inside 2),[],.lcode,false,[],false⟩,none,true,false,false,none,false,⟨.lblank,some .internalNl,false,.lblank⟩⟩] .leaf)),.leaf,(.node (.node (.node (.node .leaf 610262989 [⟨⟨(.inside 1),[],.lcode,true,[],false⟩,false,false,[],some 4,some ⟨.code,[40],.lcode,false,[],false⟩,some ([(42,(.other,false))],false),false,false,false,none,false,⟨.lcode,some (.own 8),false,.lblank⟩⟩] .leaf) 610410977 [⟨⟨(.inside 1),[],.lcomment,true,[],false⟩,false,false,[],some 4,some ⟨.code,[40],.lcode,false,[],false⟩,some ([(42,(.other,false))],false),true,false,false,none,false,⟨.lcomment,some .internalNl,false,.lblank⟩⟩] .leaf) 610558957 [⟨⟨(.inside 1),[],.lblank,true,[],false⟩,false,false,[],some 4,some ⟨.code,[40],.lcode,false,[],false⟩,some ([(42,(.other,false))],false),true,false,false,none,false,⟨.lblank,some .internalNl,false,.lblank⟩⟩] (.node .leaf 611619837 [⟨⟨(.inside 1),[],.lcomment,true,[],false⟩,false,false,[],some 4,some ⟨.code,[40],.lcomment,false,[],false⟩,some ([(42,(.other,false))],false),false,false,false,none,false,⟨.lcomment,some (.own 8),false,.lblank⟩⟩] .leaf)) 611619845 [⟨⟨(.inside 1),[],.lcomment,true,[],false⟩,false,false,[],some 4,some ⟨.code,[40],.lcomment,false,[],false⟩,some ([(42,(.other,false))],false),true,false,false,none,false,⟨.lcomment,some .internalNl,false,.lblank⟩⟩] (.node (.node (.node .leaf 611767825 [⟨⟨(.inside 1),[],.lblank,true,[],false⟩,false,false,[],some 4,some ⟨.code,[40],.lcomment,false,[],false⟩,some ([(42,(.other,false))],false),true,false,false,none,false,⟨.lblank,some .internalNl,false,.lblank⟩⟩] .leaf) 612828705 [⟨⟨(.inside 1),[],.lcomment,true,[],false⟩,false,false,[],some 4,some ⟨.code,[40],.lblank,false,[],false⟩,some ([(42,(.other,false))],false),false,false,false,none,false,⟨.lcomment,some (.own 8),false,.lblank⟩⟩] .leaf) 612828713 [⟨⟨(.inside 1),[],.lcomment,true,[],false⟩,false,false,[],some 4,some ⟨.code,[40],.lblank,false,[],false⟩,some ([(42,(.other,false))],false),true,false,false,none,false,⟨.lcomment,some .internalNl,false,.lblank⟩⟩] (.node .leaf 612976693 [⟨⟨(.inside 1),[],.lblank,true,[],false⟩,false,false,[],some 4,some ⟨.code,[40],.lblank,false,[],false⟩,some ([(42,(.other,false))],false),true,false,false,none,false,⟨.lblank,some .internalNl,false,.lblank⟩⟩] .leaf))),.leaf,(.node (.node .leaf 1216739 [⟨⟨(.inside 0),[],.lcode,true,[],false⟩,false,false,[],none,none,none,false,false,false,none,false,⟨.lcode,some (.own 8),false,.lblank⟩⟩] .leaf) 1364719 [⟨⟨(.inside 0),[],.lcomment,true,[],false⟩,false,false,[],none,none,none,false,false,false,none,false,⟨.lcomment,some (.own 8),false,.lblank⟩⟩,⟨⟨(.inside 0),[],.lcomment,true,[],false⟩,false,false,[],none,none,none,false,false,false,none,false,⟨.lcomment,some .internalNl,false,.lblank⟩⟩] .leaf),(.node (.node .leaf 1216739 [⟨⟨(.inside 0),[],.lcode,true,[],false⟩,false,false,[],none,none,none,false,false,false,none,false,⟨.lcode,some (.own 8),false,.lblank⟩⟩] .leaf) 1364719 [⟨⟨(.inside 0),[],.lcomment,true,[],false⟩,false,false,[],none,none,none,false,false,false,none,false,⟨.lcomment,some (.own 8),false,.lblank⟩⟩,⟨⟨(.inside 0),[],.lcomment,true,[],false⟩,false,false,[],none,none,none,false,false,false,none,false,⟨.lcomment,some .internalNl,false,.lblank⟩⟩] .leaf),(.node (.node (.node .leaf 560246981 [⟨⟨(.escapedCr 0),[],.lcode,false,[],false⟩,true,false,[],some 1,some ⟨(.inside 0),[92],.lcode,false,[],false⟩,some ([(13,(.cr,false))],false),false,false,false,none,false,⟨.lcode,some (.own 8),false,.lblank⟩⟩] .leaf) 561603829 [⟨⟨(.escapedCr 0),[],.lcomment,false,[],false⟩,true,false,[],some 1,some ⟨(.inside 0),[92],.lcomment,false,[],false⟩,some ([(13,(.cr,false))],false),false,false,false,none,false,⟨.lcomment,some (.own 8),false,.lblank⟩⟩,⟨⟨(.escapedCr 0),[],.lcomment,false,[],false⟩,true,false,[],some 1,some ⟨(.inside 0),[92],.lcomment,false,[],false⟩,some ([(13,(.cr,false))],false),false,false,false,none,false,⟨.lcomment,some .internalNl,false,.lblank⟩⟩] .leaf) 562812697 [⟨⟨(.escapedCr 0),[],.lcomment,false,[],false⟩,true,false,[],some 1,some ⟨(.inside 0),[92],.lblank,false,[],false⟩,some ([(13,(.cr,false))],false),false,false,false,none,false,⟨.lcomment,some .internalNl,false,.lblank⟩⟩] (.node .leaf 572483641 [⟨⟨(.escapedCr 0),[],.lcomment,false,[],false⟩,true,false,[],some 1,some ⟨(.escapedCr 0),[92],.lblank,false,[],false⟩,some ([(13,(.cr,false))],false),false,false,false,none,false,⟨.lcomment,some .internalNl,false,.lblank⟩⟩] .leaf)),(.node (.node .leaf 2396499 [⟨⟨(.escapedCr 0),[],.lcode,true,[],false⟩,false,true,[],none,none,none,false,false,false,none,false,⟨.lcode,some (.own 8),false,.lblank⟩⟩] .leaf) 2544479 [⟨⟨(.escapedCr 0),[],.lcomment,true,[],false⟩,false,true,[],none,none,none,false,false,false,none,false,⟨.lcomment,some (.own 8),false,.lblank⟩⟩,⟨⟨(.escapedCr 0),[],.lcomment,true,[],false⟩,false,true,[],none,none,none,false,false,false,none,false,⟨.lcomment,some .internalNl,false,.lblank⟩⟩] .leaf),(.node (.node .leaf 1216739 [⟨⟨(.inside 0),[],.lcode,true,[],false⟩,false,false,[],none,none,none,false,false,false,none,false,⟨.lcode,some (.own 8),false,.lblank⟩⟩] .leaf) 1364719 [⟨⟨(.inside 0),[],.lcomment,true,[],false⟩,false,false,[],none,none,none,false,false,false,none,false,⟨.lcomment,some (.own 8),false,.lblank⟩⟩,⟨⟨(.inside 0),[],.lcomment,true,[],false⟩,false,false,[],none,none,none,false,false,false,none,false,⟨.lcomment,some .internalNl,false,.lblank⟩⟩] .leaf)]
theorem fsharp_line_lClosed : CA.closedF fsharp_line_M fsharp_line_lex true false fsharp_line_lfr fsharp_line_lTab = true := by decide +kernel
def fsharp_line_L : LCert LexisTable.fsharp_line fsharp_line_M := fsharp_line_lex_eq ▸ ⟨⟨fsharp_line_lmasks, fsharp_line_lex.rel, fsharp_line_lcs, fsharp_line_lrows, fsharp_line_lmasksIn, fsharp_line_lrepOk, fsharp_line_lrowsOk⟩,
  _, rfl, by decide +kernel, by decide +kernel, true, false, CA.closed_of fsharp_line_lfrOk fsharp_line_lClosed⟩
theorem fsharp_line_L_chk : fsharp_line_L.chk = true := by
  have : ∀ (l : Lexis) (h : LexisTable.fsharp_line = l) (C : LCert l fsharp_line_M), (h ▸ C : LCert LexisTable.fsharp_line fsharp_line_M).chk = C.chk := by rintro _ rfl _; rfl
  exact this _ fsharp_line_lex_eq _

def livecode_line_lex : Lexis := [⟨[45,45],[],.lcomment,false,false,false,true,false,false,true,false,none,false,false,false,false,[]⟩,⟨[35],[],.lcomment,false,false,false,true,false,false,true,false,none,false,false,false,false,[]⟩,⟨[47,47],[],.lcomment,false,false,false,true,false,false,true,false,none,false,false,false,false,[]⟩,⟨[47,42],[[42,47]],.lcomment,true,false,false,true,false,false,true,false,none,false,false,false,false,[]⟩,⟨[34],[[34]],.lcode,false,true,true,true,false,false,true,false,none,false,false,false,false,[]⟩]
theorem livecode_line_lex_eq : LexisTable.livecode_line = livecode_line_lex := by decide +kernel
def livecode_line_lmasks : List Nat := [4294967808,35184372088832,34359738368,140737488355328,17179869184,8192,1024,4096,115792089237316195423570985008687907853269984665640564039457584007908834656767,115792089237316195423570985008687907853269984665640564039457584007913129626623,4398046511104,115792089237316195423570985008687907853269984665640564039457584007908834658815,115792089237316195423570985008687907853269984665635612279300442486796353260543,4951760157141521099596496896]
def livecode_line_lcs : List (Nat × Nat) := [(0,115792089237316195423570985008687907853269984665635612279300442306437791597055),(9,4294967808),(10,1024),(11,2048),(12,4096),(13,8192),(34,17179869184),(35,34359738368),(42,4398046511104),(45,35184372088832),(47,140737488355328),(92,4951760157141521099596496896)]
theorem livecode_line_lmasksIn : masksIn livecode_line_nfa livecode_line_lmasks = true := by decide +kernel
theorem livecode_line_lrepOk : repOk livecode_line_lmasks livecode_line_lcs = true := by decide +kernel
def livecode_line_lrows : List Row := [⟨[],none,[],[⟨256,.other,false,some ⟨0,[.setEnt (.own 3)],some 4,true⟩⟩,⟨256,.ws,false,some ⟨1,[.setEnt (.own 0)],some 0,false⟩⟩,⟨256,.lf,false,some ⟨0,[.setEnt .newline],some 3,true⟩⟩,⟨256,.vt,false,none⟩,⟨256,.ff,false,some ⟨0,[.setEnt .newline],some 3,true⟩⟩,⟨256,.cr,false,some ⟨2,[.setEnt .newline],none,false⟩⟩,⟨256,.cr,true,some ⟨3,[.setEnt .newline],some 3,false⟩⟩,⟨34,.other,false,some ⟨4,[.code,.setEnt (.own 3)],some 4,false⟩⟩,⟨35,.other,false,some ⟨5,[.comment,.setEnt (.own 3)],some 1,false⟩⟩,⟨42,.other,false,some ⟨0,[.setEnt (.own 3)],some 4,true⟩⟩,⟨45,.other,false,some ⟨6,[.setEnt (.own 3)],some 4,false⟩⟩,⟨47,.other,false,some ⟨7,[.setEnt (.own 3)],some 4,false⟩⟩,⟨92,.other,false,some ⟨0,[.setEnt (.own 3)],some 4,true⟩⟩]⟩,⟨[0],some 0,[],[⟨256,.other,false,none⟩,⟨256,.ws,false,some ⟨1,[.setEnt (.own 0)],some 0,false⟩⟩,⟨256,.lf,false,none⟩,⟨256,.vt,false,none⟩,⟨256,.ff,false,none⟩,⟨256,.cr,false,none⟩,⟨256,.cr,true,none⟩,⟨34,.other,false,none⟩,⟨35,.other,false,none⟩,⟨42,.other,false,none⟩,⟨45,.other,false,none⟩,⟨47,.other,false,none⟩,⟨92,.other,false,none⟩]⟩,⟨[23],none,[],[⟨256,.other,false,none⟩,⟨256,.ws,false,none⟩,⟨256,.lf,false,some ⟨0,[.setEnt .newline],some 3,true⟩⟩,⟨256,.vt,false,none⟩,⟨256,.ff,false,none⟩,⟨256,.cr,false,none⟩,⟨256,.cr,true,none⟩,⟨34,.other,false,none⟩,⟨35,.other,false,none⟩,⟨42,.other,false,none⟩,⟨45,.other,false,none⟩,⟨47,.other,false,none⟩,⟨92,.other,false,none⟩]⟩,⟨[23,27],some 3,[],[⟨256,.other,false,none⟩,⟨256,.ws,false,none⟩,⟨256,.lf,false,some ⟨0,[.setEnt .newline],some 3,true⟩⟩,⟨256,.vt,false,none⟩,⟨256,.ff,false,none⟩,⟨256,.cr,false,none⟩,⟨256,.cr,true,none⟩,⟨34,.other,false,none⟩,⟨35,.other,false,none⟩,⟨42,.other,false,none⟩,⟨45,.other,false,none⟩,⟨47,.other,false,none⟩,⟨92,.other,false,none⟩]⟩,⟨[18,28],some 4,[],[⟨256,.other,false,some ⟨8,[],none,false⟩⟩,⟨256,.ws,false,some ⟨8,[],none,false⟩⟩,⟨256,.lf,false,none⟩,⟨256,.vt,false,some ⟨8,[],none,false⟩⟩,⟨256,.ff,false,none⟩,⟨256,.cr,false,none⟩,⟨256,.cr,true,none⟩,⟨34,.other,false,some ⟨0,[],some 2,true⟩⟩,⟨35,.other,false,some ⟨8,[],none,false⟩⟩,⟨42,.other,false,some ⟨8,[],none,false⟩⟩,⟨45,.other,false,some ⟨8,[],none,false⟩⟩,⟨47,.other,false,some ⟨8,[],none,false⟩⟩,⟨92,.other,false,some ⟨9,[],none,false⟩⟩]⟩,⟨[3,28],some 1,[],[⟨256,.other,false,some ⟨10,[],some 1,false⟩⟩,⟨256,.ws,false,some ⟨10,[],some 1,false⟩⟩,⟨256,.lf,false,none⟩,⟨256,.vt,false,some ⟨10,[],some 1,false⟩⟩,⟨256,.ff,false,none⟩,⟨256,.cr,false,none⟩,⟨256,.cr,true,none⟩,⟨34,.other,false,some ⟨10,[],some 1,false⟩⟩,⟨35,.other,false,some ⟨10,[],some 1,false⟩⟩,⟨42,.other,false,some ⟨10,[],some 1,false⟩⟩,⟨45,.other,false,some ⟨10,[],some 1,false⟩⟩,⟨47,.other,false,some ⟨10,[],some 1,false⟩⟩,⟨92,.other,false,some ⟨10,[],some 1,false⟩⟩]⟩,⟨[1,28],some 4,[],[⟨256,.other,false,none⟩,⟨256,.ws,false,none⟩,⟨256,.lf,false,none⟩,⟨256,.vt,false,none⟩,⟨256,.ff,false,none⟩,⟨256,.cr,false,none⟩,⟨256,.cr,true,none⟩,⟨34,.other,false,none⟩,⟨35,.other,false,none⟩,⟨42,.other,false,none⟩,⟨45,.other,false,some ⟨11,[.comment],some 1,false⟩⟩,⟨47,.other,false,none⟩,⟨92,.other,false,none⟩]⟩,⟨[4,7,28],some 4,[],[⟨256,.other,false,none⟩,⟨256,.ws,false,none⟩,⟨256,.lf,false,none⟩,⟨256,.vt,false,none⟩,⟨256,.ff,false,none⟩,⟨256,.cr,false,none⟩,⟨256,.cr,true,none⟩,⟨34,.other,false,none⟩,⟨35,.other,false,none⟩,⟨42,.other,false,some ⟨12,[.comment],none,false⟩⟩,⟨45,.other,false,none⟩,⟨47,.other,false,some ⟨13,[.comment],some 1,false⟩⟩,⟨92,.other,false,none⟩]⟩,⟨[19],none,[],[⟨256,.other,false,some ⟨8,[],none,false⟩⟩,⟨256,.ws,false,some ⟨8,[],none,false⟩⟩,⟨256,.lf,false,none⟩,⟨256,.vt,false,some ⟨8,[],none,false⟩⟩,⟨256,.ff,false,none⟩,⟨256,.cr,false,none⟩,⟨256,.cr,true,none⟩,⟨34,.other,false,some ⟨0,[],some 2,true⟩⟩,⟨35,.other,false,some ⟨8,[],none,false⟩⟩,⟨42,.other,false,some ⟨8,[],none,false⟩⟩,⟨45,.other,false,some ⟨8,[],none,false⟩⟩,⟨47,.other,false,some ⟨8,[],none,false⟩⟩,⟨92,.other,false,some ⟨9,[],none,false⟩⟩]⟩,⟨[20],none,[],[⟨256,.other,false,some ⟨14,[],none,false⟩⟩,⟨256,.ws,false,some ⟨14,[],none,false⟩⟩,⟨256,.lf,false,none⟩,⟨256,.vt,false,some ⟨14,[],none,false⟩⟩,⟨256,.ff,false,none⟩,⟨256,.cr,false,none⟩,⟨256,.cr,true,none⟩,⟨34,.other,false,some ⟨14,[],none,false⟩⟩,⟨35,.other,false,some ⟨14,[],none,false⟩⟩,⟨42,.other,false,some ⟨14,[],none,false⟩⟩,⟨45,.other,false,some ⟨14,[],none,false⟩⟩,⟨47,.other,false,some ⟨14,[],none,false⟩⟩,⟨92,.other,false,some ⟨14,[],none,false⟩⟩]⟩,⟨[6],some 1,[],[⟨256,.other,false,some ⟨10,[],some 1,false⟩⟩,⟨256,.ws,false,some ⟨10,[],some 1,false⟩⟩,⟨256,.lf,false,none⟩,⟨256,.vt,false,some ⟨10,[],some 1,false⟩⟩,⟨256,.ff,false,none⟩,⟨256,.cr,false,none⟩,⟨256,.cr,true,none⟩,⟨34,.other,false,some ⟨10,[],some 1,false⟩⟩,⟨35,.other,false,some ⟨10,[],some 1,false⟩⟩,⟨42,.other,false,some ⟨10,[],some 1,false⟩⟩,⟨45,.other,false,some ⟨10,[],some 1,false⟩⟩,⟨47,.other,false,some ⟨10,[],some 1,false⟩⟩,⟨92,.other,false,some ⟨10,[],some 1,false⟩⟩]⟩,⟨[2],some 1,[],[⟨256,.other,false,some ⟨10,[],some 1,false⟩⟩,⟨256,.ws,false,some ⟨10,[],some 1,false⟩⟩,⟨256,.lf,false,none⟩,⟨256,.vt,false,some ⟨10,[],some 1,false⟩⟩,⟨256,.ff,false,none⟩,⟨256,.cr,false,none⟩,⟨256,.cr,true,none⟩,⟨34,.other,false,some ⟨10,[],some 1,false⟩⟩,⟨35,.other,false,some ⟨10,[],some 1,false⟩⟩,⟨42,.other,false,some ⟨10,[],some 1,false⟩⟩,⟨45,.other,false,some ⟨10,[],some 1,false⟩⟩,⟨47,.other,false,some ⟨10,[],some 1,false⟩⟩,⟨92,.other,false,some ⟨10,[],some 1,false⟩⟩]⟩,⟨[8],none,[],[⟨256,.other,false,some ⟨15,[.comment],none,false⟩⟩,⟨256,.ws,false,some ⟨16,[],none,false⟩⟩,⟨256,.lf,false,some ⟨17,[],none,false⟩⟩,⟨256,.vt,false,some ⟨15,[.comment],none,false⟩⟩,⟨256,.ff,false,some ⟨18,[],none,false⟩⟩,⟨256,.cr,false,some ⟨19,[],none,false⟩⟩,⟨256,.cr,true,some ⟨20,[],none,false⟩⟩,⟨34,.other,false,some ⟨15,[.comment],none,false⟩⟩,⟨35,.other,false,some ⟨15,[.comment],none,false⟩⟩,⟨42,.other,false,some ⟨21,[.comment],none,false⟩⟩,⟨45,.other,false,some ⟨15,[.comment],none,false⟩⟩,⟨47,.other,false,some ⟨15,[.comment],none,false⟩⟩,⟨92,.other,false,some ⟨15,[.comment],none,false⟩⟩]⟩,⟨[5],some 1,[],[⟨256,.other,false,some ⟨10,[],some 1,false⟩⟩,⟨256,.ws,false,some ⟨10,[],some 1,false⟩⟩,⟨256,.lf,false,none⟩,⟨256,.vt,false,some ⟨10,[],some 1,false⟩⟩,⟨256,.ff,false,none⟩,⟨256,.cr,false,none⟩,⟨256,.cr,true,none⟩,⟨34,.other,false,some ⟨10,[],some 1,false⟩⟩,⟨35,.other,false,some ⟨10,[],some 1,false⟩⟩,⟨42,.other,false,some ⟨10,[],some 1,false⟩⟩,⟨45,.other,false,some ⟨10,[],some 1,false⟩⟩,⟨47,.other,false,some ⟨10,[],some 1,false⟩⟩,⟨92,.other,false,some ⟨10,[],some 1,false⟩⟩]⟩,⟨[21],none,[],[⟨256,.other,false,some ⟨8,[],none,false⟩⟩,⟨256,.ws,false,some ⟨8,[],none,false⟩⟩,⟨256,.lf,false,none⟩,⟨256,.vt,false,some ⟨8,[],none,false⟩⟩,⟨256,.ff,false,none⟩,⟨256,.cr,false,none⟩,⟨256,.cr,true,none⟩,⟨34,.other,false,some ⟨0,[],some 2,true⟩⟩,⟨35,.other,false,some ⟨8,[],none,false⟩⟩,⟨42,.other,false,some ⟨8,[],none,false⟩⟩,⟨45,.other,false,some ⟨8,[],none,false⟩⟩,⟨47,.other,false,some ⟨8,[],none,false⟩⟩,⟨92,.other,false,some ⟨9,[],none,false⟩⟩]⟩,⟨[15],none,[],[⟨256,.other,false,some ⟨15,[.comment],none,false⟩⟩,⟨256,.ws,false,some ⟨16,[],none,false⟩⟩,⟨256,.lf,false,some ⟨17,[],none,false⟩⟩,⟨256,.vt,false,some ⟨15,[.comment],none,false⟩⟩,⟨256,.ff,false,some ⟨18,[],none,false⟩⟩,⟨256,.cr,false,some ⟨19,[],none,false⟩⟩,⟨256,.cr,true,some ⟨20,[],none,false⟩⟩,⟨34,.other,false,some ⟨15,[.comment],none,false⟩⟩,⟨35,.other,false,some ⟨15,[.comment],none,false⟩⟩,⟨42,.other,false,some ⟨21,[.comment],none,false⟩⟩,⟨45,.other,false,some ⟨15,[.comment],none,false⟩⟩,⟨47,.other,false,some ⟨15,[.comment],none,false⟩⟩,⟨92,.other,false,some ⟨15,[.comment],none,false⟩⟩]⟩,⟨[14],none,[],[⟨256,.other,false,some ⟨15,[.comment],none,false⟩⟩,⟨256,.ws,false,some ⟨16,[],none,false⟩⟩,⟨256,.lf,false,some ⟨17,[],none,false⟩⟩,⟨256,.vt,false,some ⟨15,[.comment],none,false⟩⟩,⟨256,.ff,false,some ⟨18,[],none,false⟩⟩,⟨256,.cr,false,some ⟨19,[],none,false⟩⟩,⟨256,.cr,true,some ⟨20,[],none,false⟩⟩,⟨34,.other,false,some ⟨15,[.comment],none,false⟩⟩,⟨35,.other,false,some ⟨15,[.comment],none,false⟩⟩,⟨42,.other,false,some ⟨21,[.comment],none,false⟩⟩,⟨45,.other,false,some ⟨15,[.comment],none,false⟩⟩,⟨47,.other,false,some ⟨15,[.comment],none,false⟩⟩,⟨92,.other,false,some ⟨15,[.comment],none,false⟩⟩]⟩,⟨[11],none,[],[⟨256,.other,false,some ⟨15,[.setEnt .internalNl,.cb,.comment],none,false⟩⟩,⟨256,.ws,false,some ⟨16,[.setEnt .internalNl,.cb],none,false⟩⟩,⟨256,.lf,false,some ⟨17,[.setEnt .internalNl,.cb],none,false⟩⟩,⟨256,.vt,false,some ⟨15,[.setEnt .internalNl,.cb,.comment],none,false⟩⟩,⟨256,.ff,false,some ⟨18,[.setEnt .internalNl,.cb],none,false⟩⟩,⟨256,.cr,false,some ⟨19,[.setEnt .internalNl,.cb],none,false⟩⟩,⟨256,.cr,true,some ⟨20,[.setEnt .internalNl,.cb],none,false⟩⟩,⟨34,.other,false,some ⟨15,[.setEnt .internalNl,.cb,.comment],none,false⟩⟩,⟨35,.other,false,some ⟨15,[.setEnt .internalNl,.cb,.comment],none,false⟩⟩,⟨42,.other,false,some ⟨21,[.setEnt .internalNl,.cb,.comment],none,false⟩⟩,⟨45,.other,false,some ⟨15,[.setEnt .internalNl,.cb,.comment],none,false⟩⟩,⟨47,.other,false,some ⟨15,[.setEnt .internalNl,.cb,.comment],none,false⟩⟩,⟨92,.other,false,some ⟨15,[.setEnt .internalNl,.cb,.comment],none,false⟩⟩]⟩,⟨[12],none,[],[⟨256,.other,false,some ⟨15,[.setEnt .internalNl,.cb,.comment],none,false⟩⟩,⟨256,.ws,false,some ⟨16,[.setEnt .internalNl,.cb],none,false⟩⟩,⟨256,.lf,false,some ⟨17,[.setEnt .internalNl,.cb],none,false⟩⟩,⟨256,.vt,false,some ⟨15,[.setEnt .internalNl,.cb,.comment],none,false⟩⟩,⟨256,.ff,false,some ⟨18,[.setEnt .internalNl,.cb],none,false⟩⟩,⟨256,.cr,false,some ⟨19,[.setEnt .internalNl,.cb],none,false⟩⟩,⟨256,.cr,true,some ⟨20,[.setEnt .internalNl,.cb],none,false⟩⟩,⟨34,.other,false,some ⟨15,[.setEnt .internalNl,.cb,.comment],none,false⟩⟩,⟨35,.other,false,some ⟨15,[.setEnt .internalNl,.cb,.comment],none,false⟩⟩,⟨42,.other,false,some ⟨21,[.setEnt .internalNl,.cb,.comment],none,false⟩⟩,⟨45,.other,false,some ⟨15,[.setEnt .internalNl,.cb,.comment],none,false⟩⟩,⟨47,.other,false,some ⟨15,[.setEnt .internalNl,.cb,.comment],none,false⟩⟩,⟨92,.other,false,some ⟨15,[.setEnt .internalNl,.cb,.comment],none,false⟩⟩]⟩,⟨[9],none,[],[⟨256,.other,false,none⟩,⟨256,.ws,false,none⟩,⟨256,.lf,false,some ⟨22,[],none,false⟩⟩,⟨256,.vt,false,none⟩,⟨256,.ff,false,none⟩,⟨256,.cr,false,none⟩,⟨256,.cr,true,none⟩,⟨34,.other,false,none⟩,⟨35,.other,false,none⟩,⟨42,.other,false,none⟩,⟨45,.other,false,none⟩,⟨47,.other,false,none⟩,⟨92,.other,false,none⟩]⟩,⟨[9,13],none,[],[⟨256,.other,false,some ⟨15,[.setEnt .internalNl,.cb,.comment],none,false⟩⟩,⟨256,.ws,false,some ⟨16,[.setEnt .internalNl,.cb],none,false⟩⟩,⟨256,.lf,false,some ⟨23,[.setEnt .internalNl,.cb],none,false⟩⟩,⟨256,.vt,false,some ⟨15,[.setEnt .internalNl,.cb,.comment],none,false⟩⟩,⟨256,.ff,false,some ⟨18,[.setEnt .internalNl,.cb],none,false⟩⟩,⟨256,.cr,false,some ⟨19,[.setEnt .internalNl,.cb],none,false⟩⟩,⟨256,.cr,true,some ⟨20,[.setEnt .internalNl,.cb],none,false⟩⟩,⟨34,.other,false,some ⟨15,[.setEnt .internalNl,.cb,.comment],none,false⟩⟩,⟨35,.other,false,some ⟨15,[.setEnt .internalNl,.cb,.comment],none,false⟩⟩,⟨42,.other,false,some ⟨21,[.setEnt .internalNl,.cb,.comment],none,false⟩⟩,⟨45,.other,false,some ⟨15,[.setEnt .internalNl,.cb,.comment],none,false⟩⟩,⟨47,.other,false,some ⟨15,[.setEnt .internalNl,.cb,.comment],none,false⟩⟩,⟨92,.other,false,some ⟨15,[.setEnt .internalNl,.cb,.comment],none,false⟩⟩]⟩,⟨[15,16],none,[],[⟨256,.other,false,some ⟨15,[.comment],none,false⟩⟩,⟨256,.ws,false,some ⟨16,[],none,false⟩⟩,⟨256,.lf,false,some ⟨17,[],none,false⟩⟩,⟨256,.vt,false,some ⟨15,[.comment],none,false⟩⟩,⟨256,.ff,false,some ⟨18,[],none,false⟩⟩,⟨256,.cr,false,some ⟨19,[],none,false⟩⟩,⟨256,.cr,true,some ⟨20,[],none,false⟩⟩,⟨34,.other,false,some ⟨15,[.comment],none,false⟩⟩,⟨35,.other,false,some ⟨15,[.comment],none,false⟩⟩,⟨42,.other,false,some ⟨21,[.comment],none,false⟩⟩,⟨45,.other,false,some ⟨15,[.comment],none,false⟩⟩,⟨47,.other,false,some ⟨0,[],some 1,true⟩⟩,⟨92,.other,false,some ⟨15,[.comment],none,false⟩⟩]⟩,⟨[10],none,[],[⟨256,.other,false,some ⟨15,[.setEnt .internalNl,.cb,.comment],none,false⟩⟩,⟨256,.ws,false,some ⟨16,[.setEnt .internalNl,.cb],none,false⟩⟩,⟨256,.lf,false,some ⟨17,[.setEnt .internalNl,.cb],none,false⟩⟩,⟨256,.vt,false,some ⟨15,[.setEnt .internalNl,.cb,.comment],none,false⟩⟩,⟨256,.ff,false,some ⟨18,[.setEnt .internalNl,.cb],none,false⟩⟩,⟨256,.cr,false,some ⟨19,[.setEnt .internalNl,.cb],none,false⟩⟩,⟨256,.cr,true,some ⟨20,[.setEnt .internalNl,.cb],none,false⟩⟩,⟨34,.other,false,some ⟨15,[.setEnt .internalNl,.cb,.comment],none,false⟩⟩,⟨35,.other,false,some ⟨15,[.setEnt .internalNl,.cb,.comment],none,false⟩⟩,⟨42,.other,false,some ⟨21,[.setEnt .internalNl,.cb,.comment],none,false⟩⟩,⟨45,.other,false,some ⟨15,[.setEnt .internalNl,.cb,.comment],none,false⟩⟩,⟨47,.other,false,some ⟨15,[.setEnt .internalNl,.cb,.comment],none,false⟩⟩,⟨92,.other,false,some ⟨15,[.setEnt .internalNl,.cb,.comment],none,false⟩⟩]⟩,⟨[10,11],none,[],[⟨256,.other,false,some ⟨15,[.setEnt .internalNl,.cb,.comment],none,false⟩⟩,⟨256,.ws,false,some ⟨16,[.setEnt .internalNl,.cb],none,false⟩⟩,⟨256,.lf,false,some ⟨17,[.setEnt .internalNl,.cb],none,false⟩⟩,⟨256,.vt,false,some ⟨15,[.setEnt .internalNl,.cb,.comment],none,false⟩⟩,⟨256,.ff,false,some ⟨18,[.setEnt .internalNl,.cb],none,false⟩⟩,⟨256,.cr,false,some ⟨19,[.setEnt .internalNl,.cb],none,false⟩⟩,⟨256,.cr,true,some ⟨20,[.setEnt .internalNl,.cb],none,false⟩⟩,⟨34,.other,false,some ⟨15,[.setEnt .internalNl,.cb,.comment],none,false⟩⟩,⟨35,.other,false,some ⟨15,[.setEnt .internalNl,.cb,.comment],none,false⟩⟩,⟨42,.other,false,some ⟨21,[.setEnt .internalNl,.cb,.comment],none,false⟩⟩,⟨45,.other,false,some ⟨15,[.setEnt .internalNl,.cb,.comment],none,false⟩⟩,⟨47,.other,false,some ⟨15,[.setEnt .internalNl,.cb,.comment],none,false⟩⟩,⟨92,.other,false,some ⟨15,[.setEnt .internalNl,.cb,.comment],none,false⟩⟩]⟩]
theorem livecode_line_lrowsOk : rowsOk livecode_line_nfa livecode_line_lex.rel (livecode_line_lcs.map (·.1)) livecode_line_lrows = true := by decide +kernel
def livecode_line_lfr : List CA.FRow := [⟨true,none,[],[⟨256,.other,false,false,none,some ([.setEnt (.own 3)],(some 4,true))⟩,⟨9,.ws,false,false,some 1,some ([.setEnt (.own 0)],(some 0,false))⟩,⟨10,.lf,false,true,none,some ([.setEnt .newline],(some 3,true))⟩,⟨11,.vt,false,false,none,none⟩,⟨12,.ff,false,true,none,some ([.setEnt .newline],(some 3,true))⟩,⟨13,.cr,false,false,some 2,some ([.setEnt .newline],(none,false))⟩,⟨13,.cr,true,true,some 3,some ([.setEnt .newline],(some 3,false))⟩,⟨34,.other,false,false,some 4,some ([.code,.setEnt (.own 3)],(some 4,false))⟩,⟨35,.other,false,false,some 5,some ([.comment,.setEnt (.own 3)],(some 1,false))⟩,⟨42,.other,false,false,none,some ([.setEnt (.own 3)],(some 4,true))⟩,⟨45,.other,false,false,some 6,some ([.setEnt (.own 3)],(some 4,false))⟩,⟨47,.other,false,false,some 7,some ([.setEnt (.own 3)],(some 4,false))⟩,⟨92,.other,false,false,none,some ([.setEnt (.own 3)],(some 4,true))⟩]⟩,⟨false,some 0,[],[⟨256,.other,false,false,none,none⟩,⟨9,.ws,false,false,some 1,some ([.setEnt (.own 0)],(some 0,false))⟩,⟨10,.lf,false,true,none,none⟩,⟨11,.vt,false,false,none,none⟩,⟨12,.ff,false,true,none,none⟩,⟨13,.cr,false,false,none,none⟩,⟨13,.cr,true,true,none,none⟩,⟨34,.other,false,false,none,none⟩,⟨35,.other,false,false,none,none⟩,⟨42,.other,false,false,none,none⟩,⟨45,.other,false,false,none,none⟩,⟨47,.other,false,false,none,none⟩,⟨92,.other,false,false,none,none⟩]⟩,⟨false,none,[],[⟨256,.other,false,false,none,none⟩,⟨9,.ws,false,false,none,none⟩,⟨10,.lf,false,true,none,some ([.setEnt .newline],(some 3,true))⟩,⟨11,.vt,false,false,none,none⟩,⟨12,.ff,false,true,none,none⟩,⟨13,.cr,false,false,none,none⟩,⟨13,.cr,true,true,none,none⟩,⟨34,.other,false,false,none,none⟩,⟨35,.other,false,false,none,none⟩,⟨42,.other,false,false,none,none⟩,⟨45,.other,false,false,none,none⟩,⟨47,.other,false,false,none,none⟩,⟨92,.other,false,false,none,none⟩]⟩,⟨false,some 3,[],[⟨256,.other,false,false,none,none⟩,⟨9,.ws,false,false,none,none⟩,⟨10,.lf,false,true,none,some ([.setEnt .newline],(some 3,true))⟩,⟨11,.vt,false,false,none,none⟩,⟨12,.ff,false,true,none,none⟩,⟨13,.cr,false,false,none,none⟩,⟨13,.cr,true,true,none,none⟩,⟨34,.other,false,false,none,none⟩,⟨35,.other,false,false,none,none⟩,⟨42,.other,false,false,none,none⟩,⟨45,.other,false,false,none,none⟩,⟨47,.other,false,false,none,none⟩,⟨92,.other,false,false,none,none⟩]⟩,⟨false,some 4,[],[⟨256,.other,false,false,some 8,some ([],(none,false))⟩,⟨9,.ws,false,false,some 8,some ([],(none,false))⟩,⟨10,.lf,false,true,none,none⟩,⟨11,.vt,false,false,some 8,some ([],(none,false))⟩,⟨12,.ff,false,true,none,none⟩,⟨13,.cr,false,false,none,none⟩,⟨13,.cr,true,true,none,none⟩,⟨34,.other,false,false,none,some ([],(some 2,true))⟩,⟨35,.other,false,false,some 8,some ([],(none,false))⟩,⟨42,.other,false,false,some 8,some ([],(none,false))⟩,⟨45,.other,false,false,some 8,some ([],(none,false))⟩,⟨47,.other,false,false,some 8,some ([],(none,false))⟩,⟨92,.other,false,false,some 9,some ([],(none,false))⟩]⟩,⟨false,some 1,[],[⟨256,.other,false,false,some 10,some ([],(some 1,false))⟩,⟨9,.ws,false,false,some 10,some ([],(some 1,false))⟩,⟨10,.lf,false,true,none,none⟩,⟨11,.vt,false,false,some 10,some ([],(some 1,false))⟩,⟨12,.ff,false,true,none,none⟩,⟨13,.cr,false,false,none,none⟩,⟨13,.cr,true,true,none,none⟩,⟨34,.other,false,false,some 10,some ([],(some 1,false))⟩,⟨35,.other,false,false,some 10,some ([],(some 1,false))⟩,⟨42,.other,false,false,some 10,some ([],(some 1,false))⟩,⟨45,.other,false,false,some 10,some ([],(some 1,false))⟩,⟨47,.other,false,false,some 10,some ([],(some 1,false))⟩,⟨92,.other,false,false,some 10,some ([],(some 1,false))⟩]⟩,⟨false,some 4,[],[⟨256,.other,false,false,none,none⟩,⟨9,.ws,false,false,none,none⟩,⟨10,.lf,false,true,none,none⟩,⟨11,.vt,false,false,none,none⟩,⟨12,.ff,false,true,none,none⟩,⟨13,.cr,false,false,none,none⟩,⟨13,.cr,true,true,none,none⟩,⟨34,.other,false,false,none,none⟩,⟨35,.other,false,false,none,none⟩,⟨42,.other,false,false,none,none⟩,⟨45,.other,false,false,some 11,some ([.comment],(some 1,false))⟩,⟨47,.other,false,false,none,none⟩,⟨92,.other,false,false,none,none⟩]⟩,⟨false,some 4,[],[⟨256,.other,false,false,none,none⟩,⟨9,.ws,false,false,none,none⟩,⟨10,.lf,false,true,none,none⟩,⟨11,.vt,false,false,none,none⟩,⟨12,.ff,false,true,none,none⟩,⟨13,.cr,false,false,none,none⟩,⟨13,.cr,true,true,none,none⟩,⟨34,.other,false,false,none,none⟩,⟨35,.other,false,false,none,none⟩,⟨42,.other,false,false,some 12,some ([.comment],(none,false))⟩,⟨45,.other,false,false,none,none⟩,⟨47,.other,false,false,some 13,some ([.comment],(some 1,false))⟩,⟨92,.other,false,false,none,none⟩]⟩,⟨false,none,[],[⟨256,.other,false,false,some 8,some ([],(none,false))⟩,⟨9,.ws,false,false,some 8,some ([],(none,false))⟩,⟨10,.lf,false,true,none,none⟩,⟨11,.vt,false,false,some 8,some ([],(none,false))⟩,⟨12,.ff,false,true,none,none⟩,⟨13,.cr,false,false,none,none⟩,⟨13,.cr,true,true,none,none⟩,⟨34,.other,false,false,none,some ([],(some 2,true))⟩,⟨35,.other,false,false,some 8,some ([],(none,false))⟩,⟨42,.other,false,false,some 8,some ([],(none,false))⟩,⟨45,.other,false,false,some 8,some ([],(none,false))⟩,⟨47,.other,false,false,some 8,some ([],(none,false))⟩,⟨92,.other,false,false,some 9,some ([],(none,false))⟩]⟩,⟨false,none,[],[⟨256,.other,false,false,some 14,some ([],(none,false))⟩,⟨9,.ws,false,false,some 14,some ([],(none,false))⟩,⟨10,.lf,false,true,none,none⟩,⟨11,.vt,false,false,some 14,some ([],(none,false))⟩,⟨12,.ff,false,true,none,none⟩,⟨13,.cr,false,false,none,none⟩,⟨13,.cr,true,true,none,none⟩,⟨34,.other,false,false,some 14,some ([],(none,false))⟩,⟨35,.other,false,false,some 14,some ([],(none,false))⟩,⟨42,.other,false,false,some 14,some ([],(none,false))⟩,⟨45,.other,false,false,some 14,some ([],(none,false))⟩,⟨47,.other,false,false,some 14,some ([],(none,false))⟩,⟨92,.other,false,false,some 14,some ([],(none,false))⟩]⟩,⟨false,some 1,[],[⟨256,.other,false,false,some 10,some ([],(some 1,false))⟩,⟨9,.ws,false,false,some 10,some ([],(some 1,false))⟩,⟨10,.lf,false,true,none,none⟩,⟨11,.vt,false,false,some 10,some ([],(some 1,false))⟩,⟨12,.ff,false,true,none,none⟩,⟨13,.cr,false,false,none,none⟩,⟨13,.cr,true,true,none,none⟩,⟨34,.other,false,false,some 10,some ([],(some 1,false))⟩,⟨35,.other,false,false,some 10,some ([],(some 1,false))⟩,⟨42,.other,false,false,some 10,some ([],(some 1,false))⟩,⟨45,.other,false,false,some 10,some ([],(some 1,false))⟩,⟨47,.other,false,false,some 10,some ([],(some 1,false))⟩,⟨92,.other,false,false,some 10,some ([],(some 1,false))⟩]⟩,⟨false,some 1,[],[⟨256,.other,false,false,some 10,some ([],(some 1,false))⟩,⟨9,.ws,false,false,some 10,some ([],(some 1,false))⟩,⟨10,.lf,false,true,none,none⟩,⟨11,.vt,false,false,some 10,some ([],(some 1,false))⟩,⟨12,.ff,false,true,none,none⟩,⟨13,.cr,false,false,none,none⟩,⟨13,.cr,true,true,none,none⟩,⟨34,.other,false,false,some 10,some ([],(some 1,false))⟩,⟨35,.other,false,false,some 10,some ([],(some 1,false))⟩,⟨42,.other,false,false,some 10,some ([],(some 1,false))⟩,⟨45,.other,false,false,some 10,some ([],(some 1,false))⟩,⟨47,.other,false,false,some 10,some ([],(some 1,false))⟩,⟨92,.other,false,false,some 10,some ([],(some 1,false))⟩]⟩,⟨false,none,[],[⟨256,.other,false,false,some 15,some ([.comment],(none,false))⟩,⟨9,.ws,false,false,some 16,some ([],(none,false))⟩,⟨10,.lf,false,true,some 17,some ([],(none,false))⟩,⟨11,.vt,false,false,some 15,some ([.comment],(none,false))⟩,⟨12,.ff,false,true,some 18,some ([],(none,false))⟩,⟨13,.cr,false,false,some 19,some ([],(none,false))⟩,⟨13,.cr,true,true,some 20,some ([],(none,false))⟩,⟨34,.other,false,false,some 15,some ([.comment],(none,false))⟩,⟨35,.other,false,false,some 15,some ([.comment],(none,false))⟩,⟨42,.other,false,false,some 21,some ([.comment],(none,false))⟩,⟨45,.other,false,false,some 15,some ([.comment],(none,false))⟩,⟨47,.other,false,false,some 15,some ([.comment],(none,false))⟩,⟨92,.other,false,false,some 15,some ([.comment],(none,false))⟩]⟩,⟨false,some 1,[],[⟨256,.other,false,false,some 10,some ([],(some 1,false))⟩,⟨9,.ws,false,false,some 10,some ([],(some 1,false))⟩,⟨10,.lf,false,true,none,none⟩,⟨11,.vt,false,false,some 10,some ([],(some 1,false))⟩,⟨12,.ff,false,true,none,none⟩,⟨13,.cr,false,false,none,none⟩,⟨13,.cr,true,true,none,none⟩,⟨34,.other,false,false,some 10,some ([],(some 1,false))⟩,⟨35,.other,false,false,some 10,some ([],(some 1,false))⟩,⟨42,.other,false,false,some 10,some ([],(some 1,false))⟩,⟨45,.other,false,false,some 10,some ([],(some 1,false))⟩,⟨47,.other,false,false,some 10,some ([],(some 1,false))⟩,⟨92,.other,false,false,some 10,some ([],(some 1,false))⟩]⟩,⟨false,none,[],[⟨256,.other,false,false,some 8,some ([],(none,false))⟩,⟨9,.ws,false,false,some 8,some ([],(none,false))⟩,⟨10,.lf,false,true,none,none⟩,⟨11,.vt,false,false,some 8,some ([],(none,false))⟩,⟨12,.ff,false,true,none,none⟩,⟨13,.cr,false,false,none,none⟩,⟨13,.cr,true,true,none,none⟩,⟨34,.other,false,false,none,some ([],(some 2,true))⟩,⟨35,.other,false,false,some 8,some ([],(none,false))⟩,⟨42,.other,false,false,some 8,some ([],(none,false))⟩,⟨45,.other,false,false,some 8,some ([],(none,false))⟩,⟨47,.other,false,false,some 8,some ([],(none,false))⟩,⟨92,.other,false,false,some 9,some ([],(none,false))⟩]⟩,⟨false,none,[],[⟨256,.other,false,false,some 15,some ([.comment],(none,false))⟩,⟨9,.ws,false,false,some 16,some ([],(none,false))⟩,⟨10,.lf,false,true,some 17,some ([],(none,false))⟩,⟨11,.vt,false,false,some 15,some ([.comment],(none,false))⟩,⟨12,.ff,false,true,some 18,some ([],(none,false))⟩,⟨13,.cr,false,false,some 19,some ([],(none,false))⟩,⟨13,.cr,true,true,some 20,some ([],(none,false))⟩,⟨34,.other,false,false,some 15,some ([.comment],(none,false))⟩,⟨35,.other,false,false,some 15,some ([.comment],(none,false))⟩,⟨42,.other,false,false,some 21,some ([.comment],(none,false))⟩,⟨45,.other,false,false,some 15,some ([.comment],(none,false))⟩,⟨47,.other,false,false,some 15,some ([.comment],(none,false))⟩,⟨92,.other,false,false,some 15,some ([.comment],(none,false))⟩]⟩,⟨false,none,[],[⟨256,.other,false,false,some 15,some ([.comment],(none,false))⟩,⟨9,.ws,false,false,some 16,some ([],(none,false))⟩,⟨10,.lf,false,true,some 17,some ([],(none,false))⟩,⟨11,.vt,false,false,some 15,some ([.comment],(none,false))⟩,⟨12,.ff,false,true,some 18,some ([],(none,false))⟩,⟨13,.cr,false,false,some 19,some ([],(none,false))⟩,⟨13,.cr,true,true,some 20,some ([],(none,false))⟩,⟨34,.other,false,false,some 15,some ([.comment],(none,false))⟩,⟨35,.other,false,false,some 15,some ([.comment],(none,false))⟩,⟨42,.other,false,false,some 21,some ([.comment],(none,false))⟩,⟨45,.other,false,false,some 15,some ([.comment],(none,false))⟩,⟨47,.other,false,false,some 15,some ([.comment],(none,false))⟩,⟨92,.other,false,false,some 15,some ([.comment],(none,false))⟩]⟩,⟨false,none,[],[⟨256,.other,false,false,some 15,some ([.setEnt .internalNl,.cb,.comment],(none,false))⟩,⟨9,.ws,false,false,some 16,some ([.setEnt .internalNl,.cb],(none,false))⟩,⟨10,.lf,false,true,some 17,some ([.setEnt .internalNl,.cb],(none,false))⟩,⟨11,.vt,false,false,some 15,some ([.setEnt .internalNl,.cb,.comment],(none,false))⟩,⟨12,.ff,false,true,some 18,some ([.setEnt .internalNl,.cb],(none,false))⟩,⟨13,.cr,false,false,some 19,some ([.setEnt .internalNl,.cb],(none,false))⟩,⟨13,.cr,true,true,some 20,some ([.setEnt .internalNl,.cb],(none,false))⟩,⟨34,.other,false,false,some 15,some ([.setEnt .internalNl,.cb,.comment],(none,false))⟩,⟨35,.other,false,false,some 15,some ([.setEnt .internalNl,.cb,.comment],(none,false))⟩,⟨42,.other,false,false,some 21,some ([.setEnt .internalNl,.cb,.comment],(none,false))⟩,⟨45,.other,false,false,some 15,some ([.setEnt .internalNl,.cb,.comment],(none,false))⟩,⟨47,.other,false,false,some 15,some ([.setEnt .internalNl,.cb,.comment],(none,false))⟩,⟨92,.other,false,false,some 15,some ([.setEnt .internalNl,.cb,.comment],(none,false))⟩]⟩,⟨false,none,[],[⟨256,.other,false,false,some 15,some ([.setEnt .internalNl,.cb,.comment],(none,false))⟩,⟨9,.ws,false,false,some 16,some ([.setEnt .internalNl,.cb],(none,false))⟩,⟨10,.lf,false,true,some 17,some ([.setEnt .internalNl,.cb],(none,false))⟩,⟨11,.vt,false,false,some 15,some ([.setEnt .internalNl,.cb,.comment],(none,false))⟩,⟨12,.ff,false,true,some 18,some ([.setEnt .internalNl,.cb],(none,false))⟩,⟨13,.cr,false,false,some 19,some ([.setEnt .internalNl,.cb],(none,false))⟩,⟨13,.cr,true,true,some 20,some ([.setEnt .internalNl,.cb],(none,false))⟩,⟨34,.other,false,false,some 15,some ([.setEnt .internalNl,.cb,.comment],(none,false))⟩,⟨35,.other,false,false,some 15,some ([.setEnt .internalNl,.cb,.comment],(none,false))⟩,⟨42,.other,false,false,some 21,some ([.setEnt .internalNl,.cb,.comment],(none,false))⟩,⟨45,.other,false,false,some 15,some ([.setEnt .internalNl,.cb,.comment],(none,false))⟩,⟨47,.other,false,false,some 15,some ([.setEnt .internalNl,.cb,.comment],(none,false))⟩,⟨92,.other,false,false,some 15,some ([.setEnt .internalNl,.cb,.comment],(none,false))⟩]⟩,⟨false,none,[],[⟨256,.other,false,false,none,none⟩,⟨9,.ws,false,false,none,none⟩,⟨10,.lf,false,true,some 22,some ([],(none,false))⟩,⟨11,.vt,false,false,none,none⟩,⟨12,.ff,false,true,none,none⟩,⟨13,.cr,false,false,none,none⟩,⟨13,.cr,true,true,none,none⟩,⟨34,.other,false,false,none,none⟩,⟨35,.other,false,false,none,none⟩,⟨42,.other,false,false,none,none⟩,⟨45,.other,false,false,none,none⟩,⟨47,.other,false,false,none,none⟩,⟨92,.other,false,false,none,none⟩]⟩,⟨false,none,[],[⟨256,.other,false,false,some 15,some ([.setEnt .internalNl,.cb,.comment],(none,false))⟩,⟨9,.ws,false,false,some 16,some ([.setEnt .internalNl,.cb],(none,false))⟩,⟨10,.lf,false,true,some 23,some ([.setEnt .internalNl,.cb],(none,false))⟩,⟨11,.vt,false,false,some 15,some ([.setEnt .internalNl,.cb,.comment],(none,false))⟩,⟨12,.ff,false,true,some 18,some ([.setEnt .internalNl,.cb],(none,false))⟩,⟨13,.cr,false,false,some 19,some ([.setEnt .internalNl,.cb],(none,false))⟩,⟨13,.cr,true,true,some 20,some ([.setEnt .internalNl,.cb],(none,false))⟩,⟨34,.other,false,false,some 15,some ([.setEnt .internalNl,.cb,.comment],(none,false))⟩,⟨35,.other,false,false,some 15,some ([.setEnt .internalNl,.cb,.comment],(none,false))⟩,⟨42,.other,false,false,some 21,some ([.setEnt .internalNl,.cb,.comment],(none,false))⟩,⟨45,.other,false,false,some 15,some ([.setEnt .internalNl,.cb,.comment],(none,false))⟩,⟨47,.other,false,false,some 15,some ([.setEnt .internalNl,.cb,.comment],(none,false))⟩,⟨92,.other,false,false,some 15,some ([.setEnt .internalNl,.cb,.comment],(none,false))⟩]⟩,⟨false,none,[],[⟨256,.other,false,false,some 15,some ([.comment],(none,false))⟩,⟨9,.ws,false,false,some 16,some ([],(none,false))⟩,⟨10,.lf,false,true,some 17,some ([],(none,false))⟩,⟨11,.vt,false,false,some 15,some ([.comment],(none,false))⟩,⟨12,.ff,false,true,some 18,some ([],(none,false))⟩,⟨13,.cr,false,false,some 19,some ([],(none,false))⟩,⟨13,.cr,true,true,some 20,some ([],(none,false))⟩,⟨34,.other,false,false,some 15,some ([.comment],(none,false))⟩,⟨35,.other,false,false,some 15,some ([.comment],(none,false))⟩,⟨42,.other,false,false,some 21,some ([.comment],(none,false))⟩,⟨45,.other,false,false,some 15,some ([.comment],(none,false))⟩,⟨47,.other,false,false,none,some ([],(some 1,true))⟩,⟨92,.other,false,false,some 15,some ([.comment],(none,false))⟩]⟩,⟨false,none,[],[⟨256,.other,false,false,some 15,some ([.setEnt .internalNl,.cb,.comment],(none,false))⟩,⟨9,.ws,false,false,some 16,some ([.setEnt .internalNl,.cb],(none,false))⟩,⟨10,.lf,false,true,some 17,some ([.setEnt .internalNl,.cb],(none,false))⟩,⟨11,.vt,false,false,some 15,some ([.setEnt .internalNl,.cb,.comment],(none,false))⟩,⟨12,.ff,false,true,some 18,some ([.setEnt .internalNl,.cb],(none,false))⟩,⟨13,.cr,false,false,some 19,some ([.setEnt .internalNl,.cb],(none,false))⟩,⟨13,.cr,true,true,some 20,some ([.setEnt .internalNl,.cb],(none,false))⟩,⟨34,.other,false,false,some 15,some ([.setEnt .internalNl,.cb,.comment],(none,false))⟩,⟨35,.other,false,false,some 15,some ([.setEnt .internalNl,.cb,.comment],(none,false))⟩,⟨42,.other,false,false,some 21,some ([.setEnt .internalNl,.cb,.comment],(none,false))⟩,⟨45,.other,false,false,some 15,some ([.setEnt .internalNl,.cb,.comment],(none,false))⟩,⟨47,.other,false,false,some 15,some ([.setEnt .internalNl,.cb,.comment],(none,false))⟩,⟨92,.other,false,false,some 15,some ([.setEnt .internalNl,.cb,.comment],(none,false))⟩]⟩,⟨false,none,[],[⟨256,.other,false,false,some 15,some ([.setEnt .internalNl,.cb,.comment],(none,false))⟩,⟨9,.ws,false,false,some 16,some ([.setEnt .internalNl,.cb],(none,false))⟩,⟨10,.lf,false,true,some 17,some ([.setEnt .internalNl,.cb],(none,false))⟩,⟨11,.vt,false,false,some 15,some ([.setEnt .internalNl,.cb,.comment],(none,false))⟩,⟨12,.ff,false,true,some 18,some ([.setEnt .internalNl,.cb],(none,false))⟩,⟨13,.cr,false,false,some 19,some ([.setEnt .internalNl,.cb],(none,false))⟩,⟨13,.cr,true,true,some 20,some ([.setEnt .internalNl,.cb],(none,false))⟩,⟨34,.other,false,false,some 15,some ([.setEnt .internalNl,.cb,.comment],(none,false))⟩,⟨35,.other,false,false,some 15,some ([.setEnt .internalNl,.cb,.comment],(none,false))⟩,⟨42,.other,false,false,some 21,some ([.setEnt .internalNl,.cb,.comment],(none,false))⟩,⟨45,.other,false,false,some 15,some ([.setEnt .internalNl,.cb,.comment],(none,false))⟩,⟨47,.other,false,false,some 15,some ([.setEnt .internalNl,.cb,.comment],(none,false))⟩,⟨92,.other,false,false,some 15,some ([.setEnt .internalNl,.cb,.comment],(none,false))⟩]⟩]
theorem livecode_line_lfrOk : livecode_line_lrows.map (CA.prep livecode_line_lex) = livecode_line_lfr := by decide +kernel
def livecode_line_lTab : List CT := [(.node (.node (.node (.node (.node (.node (.node (.node .leaf 128 [⟨⟨.code,[],.lcode,false,[],false⟩,false,false,[],none,none,none,false,false,false,none,false,⟨.lcode,none,false,.lblank⟩⟩] .leaf) 38019 [⟨⟨.code,[],.lcode,true,[],false⟩,false,false,[],none,none,none,false,false,false,none,false,⟨.lblank,none,false,.lblank⟩⟩] .leaf) 148108 [⟨⟨.code,[],.lcomment,false,[],false⟩,false,false,[],none,none,none,false,false,false,none,false,⟨.lcomment,none,false,.lblank⟩⟩] (.node (.node .leaf 185487 [⟨⟨.code,[],.lcomment,true,[],false⟩,false,false,[],none,none,none,false,false,false,none,false,⟨.lblank,none,false,.lblank⟩⟩] .leaf) 296088 [⟨⟨.code,[],.lblank,false,[],false⟩,false,false,[],none,none,none,false,false,false,none,false,⟨.lblank,none,false,.lblank⟩⟩] .leaf)) 332955 [⟨⟨.code,[],.lblank,true,[],false⟩,false,false,[],none,none,none,false,false,false,none,false,⟨.lblank,none,false,.lblank⟩⟩] (.node (.node (.node .leaf 356509 [⟨⟨.code,[],.lcode,false,[(4,0)],false⟩,false,false,[],none,none,none,false,false,false,none,false,⟨.lcode,none,false,.lblank⟩⟩] .leaf) 368798 [⟨⟨.code,[],.lcode,false,[(4,1)],false⟩,false,false,[],none,none,none,false,false,false,none,false,⟨.lcode,none,false,.lblank⟩⟩] .leaf) 1179872 [⟨⟨(.inside 0),[],.lcode,false,[],false⟩,false,false,[none],none,none,none,false,false,false,none,false,⟨.lcode,none,false,.lblank⟩⟩] (.node (.node .leaf 1327852 [⟨⟨(.inside 0),[],.lcomment,false,[],false⟩,false,false,[none],none,none,none,false,false,false,none,false,⟨.lcomment,none,false,.lblank⟩⟩] .leaf) 1696010 [⟨⟨.code,[45],.lcode,false,[],false⟩,false,false,[none],none,none,none,false,false,false,none,false,⟨.lcode,none,false,.lblank⟩⟩] .leaf))) 1769744 [⟨⟨.code,[47],.lcode,false,[],false⟩,false,false,[none],none,none,none,false,false,false,none,false,⟨.lcode,none,false,.lblank⟩⟩] (.node (.node (.node (.node .leaf 4129232 [⟨⟨(.inside 1),[],.lcode,false,[],false⟩,false,false,[none],none,none,none,false,false,false,none,false,⟨.lcode,none,false,.lblank⟩⟩] .leaf) 4277212 [⟨⟨(.inside 1),[],.lcomment,false,[],false⟩,false,false,[none],none,none,none,false,false,false,none,false,⟨.lcomment,none,false,.lblank⟩⟩] .leaf) 7078592 [⟨⟨(.inside 2),[],.lcode,false,[],false⟩,false,false,[none],none,none,none,false,false,false,none,false,⟨.lcode,none,false,.lblank⟩⟩] (.node (.node .leaf 7226572 [⟨⟨(.inside 2),[],.lcomment,false,[],false⟩,false,false,[none],none,none,none,false,false,false,none,false,⟨.lcomment,none,false,.lblank⟩⟩] .leaf) 20696067 [⟨⟨.code,[45],.lcode,false,[],false⟩,false,false,[some (9,(.ws,false))],none,none,none,false,false,false,none,false,⟨.lcode,none,false,.lblank⟩⟩] .leaf)) 20769801 [⟨⟨.code,[47],.lcode,false,[],false⟩,false,false,[some (9,(.ws,false))],none,none,none,false,false,false,none,false,⟨.lcode,none,false,.lblank⟩⟩] (.node (.node (.node .leaf 21014318 [⟨⟨.code,[45],.lcomment,false,[],false⟩,false,false,[none],none,none,none,false,false,false,none,false,⟨.lcode,none,false,.lblank⟩⟩] .leaf) 21088052 [⟨⟨.code,[47],.lcomment,false,[],false⟩,false,false,[none],none,none,none,false,false,false,none,false,⟨.lcode,none,false,.lblank⟩⟩] .leaf) 22179935 [⟨⟨(.inside 0),[],.lcode,false,[],false⟩,false,false,[some (10,(.lf,false))],none,none,none,false,false,false,none,false,⟨.lcode,none,false,.lblank⟩⟩] (.node .leaf 22327915 [⟨⟨(.inside 0),[],.lcomment,false,[],false⟩,false,false,[some (10,(.lf,false))],none,none,none,false,false,false,none,false,⟨.lcomment,none,false,.lblank⟩⟩] .leaf)))) 22696073 [⟨⟨.code,[45],.lcode,false,[],false⟩,false,false,[some (10,(.lf,false))],none,none,none,false,false,false,none,false,⟨.lcode,none,false,.lblank⟩⟩] (.node (.node (.node (.node (.node .leaf 22769807 [⟨⟨.code,[47],.lcode,false,[],false⟩,false,false,[some (10,(.lf,false))],none,none,none,false,false,false,none,false,⟨.lcode,none,false,.lblank⟩⟩] .leaf) 25129295 [⟨⟨(.inside 1),[],.lcode,false,[],false⟩,false,false,[some (10,(.lf,false))],none,none,none,false,false,false,none,false,⟨.lcode,none,false,.lblank⟩⟩] .leaf) 25277275 [⟨⟨(.inside 1),[],.lcomment,false,[],false⟩,false,false,[some (10,(.lf,false))],none,none,none,false,false,false,none,false,⟨.lcomment,none,false,.lblank⟩⟩] (.node (.node .leaf 26179947 [⟨⟨(.inside 0),[],.lcode,false,[],false⟩,false,false,[some (12,(.ff,false))],none,none,none,false,false,false,none,false,⟨.lcode,none,false,.lblank⟩⟩] .leaf) 26327927 [⟨⟨(.inside 0),[],.lcomment,false,[],false⟩,false,false,[some (12,(.ff,false))],none,none,none,false,false,false,none,false,⟨.lcomment,none,false,.lblank⟩⟩] .leaf)) 26696085 [⟨⟨.code,[45],.lcode,false,[],false⟩,false,false,[some (12,(.ff,false))],none,none,none,false,false,false,none,false,⟨.lcode,none,false,.lblank⟩⟩] (.node (.node (.node .leaf 26769819 [⟨⟨.code,[47],.lcode,false,[],false⟩,false,false,[some (12,(.ff,false))],none,none,none,false,false,false,none,false,⟨.lcode,none,false,.lblank⟩⟩] .leaf) 28078655 [⟨⟨(.inside 2),[],.lcode,false,[],false⟩,false,false,[some (10,(.lf,false))],none,none,none,false,false,false,none,false,⟨.lcode,none,false,.lblank⟩⟩] .leaf) 28179953 [⟨⟨(.inside 0),[],.lcode,false,[],false⟩,false,false,[some (13,(.cr,false))],none,none,none,false,false,false,none,false,⟨.lcode,none,false,.lblank⟩⟩] (.node .leaf 28226635 [⟨⟨(.inside 2),[],.lcomment,false,[],false⟩,false,false,[some (10,(.lf,false))],none,none,none,false,false,false,none,false,⟨.lcomment,none,false,.lblank⟩⟩] .leaf))) 28327933 [⟨⟨(.inside 0),[],.lcomment,false,[],false⟩,false,false,[some (13,(.cr,false))],none,none,none,false,false,false,none,false,⟨.lcomment,none,false,.lblank⟩⟩] (.node (.node (.node (.node .leaf 28696091 [⟨⟨.code,[45],.lcode,false,[],false⟩,false,false,[some (13,(.cr,false))],none,none,none,false,false,false,none,false,⟨.lcode,none,false,.lblank⟩⟩] .leaf) 28769825 [⟨⟨.code,[47],.lcode,false,[],false⟩,false,false,[some (13,(.cr,false))],none,none,none,false,false,false,none,false,⟨.lcode,none,false,.lblank⟩⟩] .leaf) 29129307 [⟨⟨(.inside 1),[],.lcode,false,[],false⟩,false,false,[some (12,(.ff,false))],none,none,none,false,false,false,none,false,⟨.lcode,none,false,.lblank⟩⟩] (.node (.node .leaf 29179956 [⟨⟨(.inside 0),[],.lcode,false,[],false⟩,false,false,[some (13,(.cr,true))],none,none,none,false,false,false,none,false,⟨.lcode,none,false,.lblank⟩⟩] .leaf) 29277287 [⟨⟨(.inside 1),[],.lcomment,false,[],false⟩,false,false,[some (12,(.ff,false))],none,none,none,false,false,false,none,false,⟨.lcomment,none,false,.lblank⟩⟩] .leaf)) 29327936 [⟨⟨(.inside 0),[],.lcomment,false,[],false⟩,false,false,[some (13,(.cr,true))],none,none,none,false,false,false,none,false,⟨.lcomment,none,false,.lblank⟩⟩] (.node (.node (.node .leaf 29696094 [⟨⟨.code,[45],.lcode,false,[],false⟩,false,false,[some (13,(.cr,true))],none,none,none,false,false,false,none,false,⟨.lcode,none,false,.lblank⟩⟩] .leaf) 29769828 [⟨⟨.code,[47],.lcode,false,[],false⟩,false,false,[some (13,(.cr,true))],none,none,none,false,false,false,none,false,⟨.lcode,none,false,.lblank⟩⟩] .leaf) 31129313 [⟨⟨(.inside 1),[],.lcode,false,[],false⟩,false,false,[some (13,(.cr,false))],none,none,none,false,false,false,none,false,⟨.lcode,none,false,.lblank⟩⟩] (.node .leaf 31277293 [⟨⟨(.inside 1),[],.lcomment,false,[],false⟩,false,false,[some (13,(.cr,false))],none,none,none,false,false,false,none,false,⟨.lcomment,none,false,.lblank⟩⟩] .leaf))))) 32078667 [⟨⟨(.inside 2),[],.lcode,false,[],false⟩,false,false,[some (12,(.ff,false))],none,none,none,false,false,false,none,false,⟨.lcode,none,false,.lblank⟩⟩] (.node (.node (.node (.node (.node (.node .leaf 32129316 [⟨⟨(.inside 1),[],.lcode,false,[],false⟩,false,false,[some (13,(.cr,true))],none,none,none,false,false,false,none,false,⟨.lcode,none,false,.lblank⟩⟩] .leaf) 32226647 [⟨⟨(.inside 2),[],.lcomment,false,[],false⟩,false,false,[some (12,(.ff,false))],none,none,none,false,false,false,none,false,⟨.lcomment,none,false,.lblank⟩⟩] .leaf) 32277296 [⟨⟨(.inside 1),[],.lcomment,false,[],false⟩,false,false,[some (13,(.cr,true))],none,none,none,false,false,false,none,false,⟨.lcomment,none,false,.lblank⟩⟩] (.node (.node .leaf 34078673 [⟨⟨(.inside 2),[],.lcode,false,[],false⟩,false,false,[some (13,(.cr,false))],none,none,none,false,false,false,none,false,⟨.lcode,none,false,.lblank⟩⟩] .leaf) 34226653 [⟨⟨(.inside 2),[],.lcomment,false,[],false⟩,false,false,[some (13,(.cr,false))],none,none,none,false,false,false,none,false,⟨.lcomment,none,false,.lblank⟩⟩] .leaf)) 35078676 [⟨⟨(.inside 2),[],.lcode,false,[],false⟩,false,false,[some (13,(.cr,true))],none,none,none,false,false,false,none,false,⟨.lcode,none,false,.lblank⟩⟩] (.node (.node (.node .leaf 35226656 [⟨⟨(.inside 2),[],.lcomment,false,[],false⟩,false,false,[some (13,(.cr,true))],none,none,none,false,false,false,none,false,⟨.lcomment,none,false,.lblank⟩⟩] .leaf) 40014375 [⟨⟨.code,[45],.lcomment,false,[],false⟩,false,false,[some (9,(.ws,false))],none,none,none,false,false,false,none,false,⟨.lcode,none,false,.lblank⟩⟩] .leaf) 40088109 [⟨⟨.code,[47],.lcomment,false,[],false⟩,false,false,[some (9,(.ws,false))],none,none,none,false,false,false,none,false,⟨.lcode,none,false,.lblank⟩⟩] (.node (.node .leaf 40332626 [⟨⟨.code,[45],.lblank,false,[],false⟩,false,false,[none],none,none,none,false,false,false,none,false,⟨.lcode,none,false,.lblank⟩⟩] .leaf) 40406360 [⟨⟨.code,[47],.lblank,false,[],false⟩,false,false,[none],none,none,none,false,false,false,none,false,⟨.lcode,none,false,.lblank⟩⟩] .leaf))) 42014381 [⟨⟨.code,[45],.lcomment,false,[],false⟩,false,false,[some (10,(.lf,false))],none,none,none,false,false,false,none,false,⟨.lcode,none,false,.lblank⟩⟩] (.node (.node (.node (.node .leaf 42088115 [⟨⟨.code,[47],.lcomment,false,[],false⟩,false,false,[some (10,(.lf,false))],none,none,none,false,false,false,none,false,⟨.lcode,none,false,.lblank⟩⟩] .leaf) 46014393 [⟨⟨.code,[45],.lcomment,false,[],false⟩,false,false,[some (12,(.ff,false))],none,none,none,false,false,false,none,false,⟨.lcode,none,false,.lblank⟩⟩] .leaf) 46088127 [⟨⟨.code,[47],.lcomment,false,[],false⟩,false,false,[some (12,(.ff,false))],none,none,none,false,false,false,none,false,⟨.lcode,none,false,.lblank⟩⟩] (.node (.node .leaf 48014399 [⟨⟨.code,[45],.lcomment,false,[],false⟩,false,false,[some (13,(.cr,false))],none,none,none,false,false,false,none,false,⟨.lcode,none,false,.lblank⟩⟩] .leaf) 48088133 [⟨⟨.code,[47],.lcomment,false,[],false⟩,false,false,[some (13,(.cr,false))],none,none,none,false,false,false,none,false,⟨.lcode,none,false,.lblank⟩⟩] .leaf)) 49014402 [⟨⟨.code,[45],.lcomment,false,[],false⟩,false,false,[some (13,(.cr,true))],none,none,none,false,false,false,none,false,⟨.lcode,none,false,.lblank⟩⟩] (.node (.node (.node .leaf 49088136 [⟨⟨.code,[47],.lcomment,false,[],false⟩,false,false,[some (13,(.cr,true))],none,none,none,false,false,false,none,false,⟨.lcode,none,false,.lblank⟩⟩] .leaf) 59332683 [⟨⟨.code,[45],.lblank,false,[],false⟩,false,false,[some (9,(.ws,false))],none,none,none,false,false,false,none,false,⟨.lcode,none,false,.lblank⟩⟩] .leaf) 59406417 [⟨⟨.code,[47],.lblank,false,[],false⟩,false,false,[some (9,(.ws,false))],none,none,none,false,false,false,none,false,⟨.lcode,none,false,.lblank⟩⟩] (.node .leaf 61332689 [⟨⟨.code,[45],.lblank,false,[],false⟩,false,false,[some (10,(.lf,false))],none,none,none,false,false,false,none,false,⟨.lcode,none,false,.lblank⟩⟩] .leaf)))) 61406423 [⟨⟨.code,[47],.lblank,false,[],false⟩,false,false,[some (10,(.lf,false))],none,none,none,false,false,false,none,false,⟨.lcode,none,false,.lblank⟩⟩] (.node (.node (.node (.node (.node .leaf 65332701 [⟨⟨.code,[45],.lblank,false,[],false⟩,false,false,[some (12,(.ff,false))],none,none,none,false,false,false,none,false,⟨.lcode,none,false,.lblank⟩⟩] .leaf) 65406435 [⟨⟨.code,[47],.lblank,false,[],false⟩,false,false,[some (12,(.ff,false))],none,none,none,false,false,false,none,false,⟨.lcode,none,false,.lblank⟩⟩] .leaf) 67332707 [⟨⟨.code,[45],.lblank,false,[],false⟩,false,false,[some (13,(.cr,false))],none,none,none,false,false,false,none,false,⟨.lcode,none,false,.lblank⟩⟩] (.node (.node .leaf 67406441 [⟨⟨.code,[47],.lblank,false,[],false⟩,false,false,[some (13,(.cr,false))],none,none,none,false,false,false,none,false,⟨.lcode,none,false,.lblank⟩⟩] .leaf) 68332710 [⟨⟨.code,[45],.lblank,false,[],false⟩,false,false,[some (13,(.cr,true))],none,none,none,false,false,false,none,false,⟨.lcode,none,false,.lblank⟩⟩] .leaf)) 68406444 [⟨⟨.code,[47],.lblank,false,[],false⟩,false,false,[some (13,(.cr,true))],none,none,none,false,false,false,none,false,⟨.lcode,none,false,.lblank⟩⟩] (.node (.node (.node .leaf 70696217 [⟨⟨.code,[45],.lcode,false,[],false⟩,false,false,[some (34,(.other,false))],none,none,none,false,false,false,none,false,⟨.lcode,none,false,.lblank⟩⟩] .leaf) 70769951 [⟨⟨.code,[47],.lcode,false,[],false⟩,false,false,[some (34,(.other,false))],none,none,none,false,false,false,none,false,⟨.lcode,none,false,.lblank⟩⟩] .leaf) 72696223 [⟨⟨.code,[45],.lcode,false,[],false⟩,false,false,[some (35,(.other,false))],none,none,none,false,false,false,none,false,⟨.lcode,none,false,.lblank⟩⟩] (.node .leaf 72769957 [⟨⟨.code,[47],.lcode,false,[],false⟩,false,false,[some (35,(.other,false))],none,none,none,false,false,false,none,false,⟨.lcode,none,false,.lblank⟩⟩] .leaf))) 86696265 [⟨⟨.code,[45],.lcode,false,[],false⟩,false,false,[some (42,(.other,false))],none,none,none,false,false,false,none,false,⟨.lcode,none,false,.lblank⟩⟩] (.node (.node (.node (.node .leaf 90014525 [⟨⟨.code,[45],.lcomment,false,[],false⟩,false,false,[some (34,(.other,false))],none,none,none,false,false,false,none,false,⟨.lcode,none,false,.lblank⟩⟩] .leaf) 90088259 [⟨⟨.code,[47],.lcomment,false,[],false⟩,false,false,[some (34,(.other,false))],none,none,none,false,false,false,none,false,⟨.lcode,none,false,.lblank⟩⟩] .leaf) 92014531 [⟨⟨.code,[45],.lcomment,false,[],false⟩,false,false,[some (35,(.other,false))],none,none,none,false,false,false,none,false,⟨.lcode,none,false,.lblank⟩⟩] (.node (.node .leaf 92088265 [⟨⟨.code,[47],.lcomment,false,[],false⟩,false,false,[some (35,(.other,false))],none,none,none,false,false,false,none,false,⟨.lcode,none,false,.lblank⟩⟩] .leaf) 92770017 [⟨⟨.code,[47],.lcode,false,[],false⟩,false,false,[some (45,(.other,false))],none,none,none,false,false,false,none,false,⟨.lcode,none,false,.lblank⟩⟩] .leaf)) 96696295 [⟨⟨.code,[45],.lcode,false,[],false⟩,false,false,[some (47,(.other,false))],none,none,none,false,false,false,none,false,⟨.lcode,none,false,.lblank⟩⟩] (.node (.node (.node .leaf 106014573 [⟨⟨.code,[45],.lcomment,false,[],false⟩,false,false,[some (42,(.other,false))],none,none,none,false,false,false,none,false,⟨.lcode,none,false,.lblank⟩⟩] .leaf) 109332833 [⟨⟨.code,[45],.lblank,false,[],false⟩,false,false,[some (34,(.other,false))],none,none,none,false,false,false,none,false,⟨.lcode,none,false,.lblank⟩⟩] .leaf) 109406567 [⟨⟨.code,[47],.lblank,false,[],false⟩,false,false,[some (34,(.other,false))],none,none,none,false,false,false,none,false,⟨.lcode,none,false,.lblank⟩⟩] (.node .leaf 111332839 [⟨⟨.code,[45],.lblank,false,[],false⟩,false,false,[some (35,(.other,false))],none,none,none,false,false,false,none,false,⟨.lcode,none,false,.lblank⟩⟩] .leaf)))))) 111406573 [⟨⟨.code,[47],.lblank,false,[],false⟩,false,false,[some (35,(.other,false))],none,none,none,false,false,false,none,false,⟨.lcode,none,false,.lblank⟩⟩] (.node (.node (.node (.node (.node (.node (.node .leaf 112088325 [⟨⟨.code,[47],.lcomment,false,[],false⟩,false,false,[some (45,(.other,false))],none,none,none,false,false,false,none,false,⟨.lcode,none,false,.lblank⟩⟩] .leaf) 116014603 [⟨⟨.code,[45],.lcomment,false,[],false⟩,false,false,[some (47,(.other,false))],none,none,none,false,false,false,none,false,⟨.lcode,none,false,.lblank⟩⟩] .leaf) 125332881 [⟨⟨.code,[45],.lblank,false,[],false⟩,false,false,[some (42,(.other,false))],none,none,none,false,false,false,none,false,⟨.lcode,none,false,.lblank⟩⟩] (.node (.node .leaf 131406633 [⟨⟨.code,[47],.lblank,false,[],false⟩,false,false,[some (45,(.other,false))],none,none,none,false,false,false,none,false,⟨.lcode,none,false,.lblank⟩⟩] .leaf) 135332911 [⟨⟨.code,[45],.lblank,false,[],false⟩,false,false,[some (47,(.other,false))],none,none,none,false,false,false,none,false,⟨.lcode,none,false,.lblank⟩⟩] .leaf)) 154902973 [⟨⟨(.inside 0),[],.lcode,false,[(4,0)],false⟩,false,false,[none],none,none,none,false,false,false,none,false,⟨.lcode,none,false,.lblank⟩⟩] (.node (.node (.node .leaf 154915262 [⟨⟨(.inside 0),[],.lcode,false,[(4,1)],false⟩,false,false,[none],none,none,none,false,false,false,none,false,⟨.lcode,none,false,.lblank⟩⟩] .leaf) 175903036 [⟨⟨(.inside 0),[],.lcode,false,[(4,0)],false⟩,false,false,[some (10,(.lf,false))],none,none,none,false,false,false,none,false,⟨.lcode,none,false,.lblank⟩⟩] .leaf) 175915325 [⟨⟨(.inside 0),[],.lcode,false,[(4,1)],false⟩,false,false,[some (10,(.lf,false))],none,none,none,false,false,false,none,false,⟨.lcode,none,false,.lblank⟩⟩] (.node (.node .leaf 179903048 [⟨⟨(.inside 0),[],.lcode,false,[(4,0)],false⟩,false,false,[some (12,(.ff,false))],none,none,none,false,false,false,none,false,⟨.lcode,none,false,.lblank⟩⟩] .leaf) 179915337 [⟨⟨(.inside 0),[],.lcode,false,[(4,1)],false⟩,false,false,[some (12,(.ff,false))],none,none,none,false,false,false,none,false,⟨.lcode,none,false,.lblank⟩⟩] .leaf))) 181903054 [⟨⟨(.inside 0),[],.lcode,false,[(4,0)],false⟩,false,false,[some (13,(.cr,false))],none,none,none,false,false,false,none,false,⟨.lcode,none,false,.lblank⟩⟩] (.node (.node (.node (.node .leaf 181915343 [⟨⟨(.inside 0),[],.lcode,false,[(4,1)],false⟩,false,false,[some (13,(.cr,false))],none,none,none,false,false,false,none,false,⟨.lcode,none,false,.lblank⟩⟩] .leaf) 182903057 [⟨⟨(.inside 0),[],.lcode,false,[(4,0)],false⟩,false,false,[some (13,(.cr,true))],none,none,none,false,false,false,none,false,⟨.lcode,none,false,.lblank⟩⟩] .leaf) 182915346 [⟨⟨(.inside 0),[],.lcode,false,[(4,1)],false⟩,false,false,[some (13,(.cr,true))],none,none,none,false,false,false,none,false,⟨.lcode,none,false,.lblank⟩⟩] (.node (.node .leaf 186696565 [⟨⟨.code,[45],.lcode,false,[],false⟩,false,false,[some (92,(.other,false))],none,none,none,false,false,false,none,false,⟨.lcode,none,false,.lblank⟩⟩] .leaf) 186770299 [⟨⟨.code,[47],.lcode,false,[],false⟩,false,false,[some (92,(.other,false))],none,none,none,false,false,false,none,false,⟨.lcode,none,false,.lblank⟩⟩] .leaf)) 206014873 [⟨⟨.code,[45],.lcomment,false,[],false⟩,false,false,[some (92,(.other,false))],none,none,none,false,false,false,none,false,⟨.lcode,none,false,.lblank⟩⟩] (.node (.node (.node .leaf 206088607 [⟨⟨.code,[47],.lcomment,false,[],false⟩,false,false,[some (92,(.other,false))],none,none,none,false,false,false,none,false,⟨.lcode,none,false,.lblank⟩⟩] .leaf) 222517051 [⟨⟨.code,[45],.lcode,false,[(4,0)],false⟩,false,false,[none],none,none,none,false,false,false,none,false,⟨.lcode,none,false,.lblank⟩⟩] .leaf) 222529340 [⟨⟨.code,[45],.lcode,false,[(4,1)],false⟩,false,false,[none],none,none,none,false,false,false,none,false,⟨.lcode,none,false,.lblank⟩⟩] (.node .leaf 225333181 [⟨⟨.code,[45],.lblank,false,[],false⟩,false,false,[some (92,(.other,false))],none,none,none,false,false,false,none,false,⟨.lcode,none,false,.lblank⟩⟩] .leaf)))) 225406915 [⟨⟨.code,[47],.lblank,false,[],false⟩,false,false,[some (92,(.other,false))],none,none,none,false,false,false,none,false,⟨.lcode,none,false,.lblank⟩⟩] (.node (.node (.node (.node (.node .leaf 232176205 [⟨⟨.code,[47],.lcode,false,[(4,0)],false⟩,false,false,[none],none,none,none,false,false,false,none,false,⟨.lcode,none,false,.lblank⟩⟩] .leaf) 232188494 [⟨⟨.code,[47],.lcode,false,[(4,1)],false⟩,false,false,[none],none,none,none,false,false,false,none,false,⟨.lcode,none,false,.lblank⟩⟩] .leaf) 241517108 [⟨⟨.code,[45],.lcode,false,[(4,0)],false⟩,false,false,[some (9,(.ws,false))],none,none,none,false,false,false,none,false,⟨.lcode,none,false,.lblank⟩⟩] (.node (.node .leaf 241529397 [⟨⟨.code,[45],.lcode,false,[(4,1)],false⟩,false,false,[some (9,(.ws,false))],none,none,none,false,false,false,none,false,⟨.lcode,none,false,.lblank⟩⟩] .leaf) 243517114 [⟨⟨.code,[45],.lcode,false,[(4,0)],false⟩,false,false,[some (10,(.lf,false))],none,none,none,false,false,false,none,false,⟨.lcode,none,false,.lblank⟩⟩] .leaf)) 243529403 [⟨⟨.code,[45],.lcode,false,[(4,1)],false⟩,false,false,[some (10,(.lf,false))],none,none,none,false,false,false,none,false,⟨.lcode,none,false,.lblank⟩⟩] (.node (.node (.node .leaf 247517126 [⟨⟨.code,[45],.lcode,false,[(4,0)],false⟩,false,false,[some (12,(.ff,false))],none,none,none,false,false,false,none,false,⟨.lcode,none,false,.lblank⟩⟩] .leaf) 247529415 [⟨⟨.code,[45],.lcode,false,[(4,1)],false⟩,false,false,[some (12,(.ff,false))],none,none,none,false,false,false,none,false,⟨.lcode,none,false,.lblank⟩⟩] .leaf) 249517132 [⟨⟨.code,[45],.lcode,false,[(4,0)],false⟩,false,false,[some (13,(.cr,false))],none,none,none,false,false,false,none,false,⟨.lcode,none,false,.lblank⟩⟩] (.node .leaf 249529421 [⟨⟨.code,[45],.lcode,false,[(4,1)],false⟩,false,false,[some (13,(.cr,false))],none,none,none,false,false,false,none,false,⟨.lcode,none,false,.lblank⟩⟩] .leaf))) 250517135 [⟨⟨.code,[45],.lcode,false,[(4,0)],false⟩,false,false,[some (13,(.cr,true))],none,none,none,false,false,false,none,false,⟨.lcode,none,false,.lblank⟩⟩] (.node (.node (.node (.node .leaf 250529424 [⟨⟨.code,[45],.lcode,false,[(4,1)],false⟩,false,false,[some (13,(.cr,true))],none,none,none,false,false,false,none,false,⟨.lcode,none,false,.lblank⟩⟩] .leaf) 251176262 [⟨⟨.code,[47],.lcode,false,[(4,0)],false⟩,false,false,[some (9,(.ws,false))],none,none,none,false,false,false,none,false,⟨.lcode,none,false,.lblank⟩⟩] .leaf) 251188551 [⟨⟨.code,[47],.lcode,false,[(4,1)],false⟩,false,false,[some (9,(.ws,false))],none,none,none,false,false,false,none,false,⟨.lcode,none,false,.lblank⟩⟩] (.node (.node .leaf 253176268 [⟨⟨.code,[47],.lcode,false,[(4,0)],false⟩,false,false,[some (10,(.lf,false))],none,none,none,false,false,false,none,false,⟨.lcode,none,false,.lblank⟩⟩] .leaf) 253188557 [⟨⟨.code,[47],.lcode,false,[(4,1)],false⟩,false,false,[some (10,(.lf,false))],none,none,none,false,false,false,none,false,⟨.lcode,none,false,.lblank⟩⟩] .leaf)) 257176280 [⟨⟨.code,[47],.lcode,false,[(4,0)],false⟩,false,false,[some (12,(.ff,false))],none,none,none,false,false,false,none,false,⟨.lcode,none,false,.lblank⟩⟩] (.node (.node (.node .leaf 257188569 [⟨⟨.code,[47],.lcode,false,[(4,1)],false⟩,false,false,[some (12,(.ff,false))],none,none,none,false,false,false,none,false,⟨.lcode,none,false,.lblank⟩⟩] .leaf) 259176286 [⟨⟨.code,[47],.lcode,false,[(4,0)],false⟩,false,false,[some (13,(.cr,false))],none,none,none,false,false,false,none,false,⟨.lcode,none,false,.lblank⟩⟩] .leaf) 259188575 [⟨⟨.code,[47],.lcode,false,[(4,1)],false⟩,false,false,[some (13,(.cr,false))],none,none,none,false,false,false,none,false,⟨.lcode,none,false,.lblank⟩⟩] (.node .leaf 260176289 [⟨⟨.code,[47],.lcode,false,[(4,0)],false⟩,false,false,[some (13,(.cr,true))],none,none,none,false,false,false,none,false,⟨.lcode,none,false,.lblank⟩⟩] .leaf))))) 260188578 [⟨⟨.code,[47],.lcode,false,[(4,1)],false⟩,false,false,[some (13,(.cr,true))],none,none,none,false,false,false,none,false,⟨.lcode,none,false,.lblank⟩⟩] (.node (.node (.node (.node (.node (.node .leaf 293517264 [⟨⟨.code,[45],.lcode,false,[(4,0)],false⟩,false,false,[some (35,(.other,false))],none,none,none,false,false,false,none,false,⟨.lcode,none,false,.lblank⟩⟩] .leaf) 293529553 [⟨⟨.code,[45],.lcode,false,[(4,1)],false⟩,false,false,[some (35,(.other,false))],none,none,none,false,false,false,none,false,⟨.lcode,none,false,.lblank⟩⟩] .leaf) 303176418 [⟨⟨.code,[47],.lcode,false,[(4,0)],false⟩,false,false,[some (35,(.other,false))],none,none,none,false,false,false,none,false,⟨.lcode,none,false,.lblank⟩⟩] (.node (.node .leaf 303188707 [⟨⟨.code,[47],.lcode,false,[(4,1)],false⟩,false,false,[some (35,(.other,false))],none,none,none,false,false,false,none,false,⟨.lcode,none,false,.lblank⟩⟩] .leaf) 307517306 [⟨⟨.code,[45],.lcode,false,[(4,0)],false⟩,false,false,[some (42,(.other,false))],none,none,none,false,false,false,none,false,⟨.lcode,none,false,.lblank⟩⟩] .leaf)) 307529595 [⟨⟨.code,[45],.lcode,false,[(4,1)],false⟩,false,false,[some (42,(.other,false))],none,none,none,false,false,false,none,false,⟨.lcode,none,false,.lblank⟩⟩] (.node (.node (.node .leaf 317517336 [⟨⟨.code,[45],.lcode,false,[(4,0)],false⟩,false,false,[some (47,(.other,false))],none,none,none,false,false,false,none,false,⟨.lcode,none,false,.lblank⟩⟩] .leaf) 317529625 [⟨⟨.code,[45],.lcode,false,[(4,1)],false⟩,false,false,[some (47,(.other,false))],none,none,none,false,false,false,none,false,⟨.lcode,none,false,.lblank⟩⟩] .leaf) 323176478 [⟨⟨.code,[47],.lcode,false,[(4,0)],false⟩,false,false,[some (45,(.other,false))],none,none,none,false,false,false,none,false,⟨.lcode,none,false,.lblank⟩⟩] (.node (.node .leaf 323188767 [⟨⟨.code,[47],.lcode,false,[(4,1)],false⟩,false,false,[some (45,(.other,false))],none,none,none,false,false,false,none,false,⟨.lcode,none,false,.lblank⟩⟩] .leaf) 407517606 [⟨⟨.code,[45],.lcode,false,[(4,0)],false⟩,false,false,[some (92,(.other,false))],none,none,none,false,false,false,none,false,⟨.lcode,none,false,.lblank⟩⟩] .leaf))) 407529895 [⟨⟨.code,[45],.lcode,false,[(4,1)],false⟩,false,false,[some (92,(.other,false))],none,none,none,false,false,false,none,false,⟨.lcode,none,false,.lblank⟩⟩] (.node (.node (.node (.node .leaf 417176760 [⟨⟨.code,[47],.lcode,false,[(4,0)],false⟩,false,false,[some (92,(.other,false))],none,none,none,false,false,false,none,false,⟨.lcode,none,false,.lblank⟩⟩] .leaf) 417189049 [⟨⟨.code,[47],.lcode,false,[(4,1)],false⟩,false,false,[some (92,(.other,false))],none,none,none,false,false,false,none,false,⟨.lcode,none,false,.lblank⟩⟩] .leaf) 514697549 [⟨⟨.code,[45],.lcode,false,[],false⟩,false,false,[some (256,(.other,false))],none,none,none,false,false,false,none,false,⟨.lcode,none,false,.lblank⟩⟩] (.node (.node .leaf 514771283 [⟨⟨.code,[47],.lcode,false,[],false⟩,false,false,[some (256,(.other,false))],none,none,none,false,false,false,none,false,⟨.lcode,none,false,.lblank⟩⟩] .leaf) 534015857 [⟨⟨.code,[45],.lcomment,false,[],false⟩,false,false,[some (256,(.other,false))],none,none,none,false,false,false,none,false,⟨.lcode,none,false,.lblank⟩⟩] .leaf)) 534089591 [⟨⟨.code,[47],.lcomment,false,[],false⟩,false,false,[some (256,(.other,false))],none,none,none,false,false,false,none,false,⟨.lcode,none,false,.lblank⟩⟩] (.node (.node (.node .leaf 541269133 [⟨⟨(.inside 1),[],.lcode,false,[(4,0)],false⟩,false,false,[none],none,none,none,false,false,false,none,false,⟨.lcode,none,false,.lblank⟩⟩] .leaf) 541281422 [⟨⟨(.inside 1),[],.lcode,false,[(4,1)],false⟩,false,false,[none],none,none,none,false,false,false,none,false,⟨.lcode,none,false,.lblank⟩⟩] .leaf) 553334165 [⟨⟨.code,[45],.lblank,false,[],false⟩,false,false,[some (256,(.other,false))],none,none,none,false,false,false,none,false,⟨.lcode,none,false,.lblank⟩⟩] (.node .leaf 553407899 [⟨⟨.code,[47],.lblank,false,[],false⟩,false,false,[some (256,(.other,false))],none,none,none,false,false,false,none,false,⟨.lcode,none,false,.lblank⟩⟩] .leaf)))) 562269196 [⟨⟨(.inside 1),[],.lcode,false,[(4,0)],false⟩,false,false,[some (10,(.lf,false))],none,none,none,false,false,false,none,false,⟨.lcode,none,false,.lblank⟩⟩] (.node (.node (.node (.node (.node .leaf 562281485 [⟨⟨(.inside 1),[],.lcode,false,[(4,1)],false⟩,false,false,[some (10,(.lf,false))],none,none,none,false,false,false,none,false,⟨.lcode,none,false,.lblank⟩⟩] .leaf) 566269208 [⟨⟨(.inside 1),[],.lcode,false,[(4,0)],false⟩,false,false,[some (12,(.ff,false))],none,none,none,false,false,false,none,false,⟨.lcode,none,false,.lblank⟩⟩] .leaf) 566281497 [⟨⟨(.inside 1),[],.lcode,false,[(4,1)],false⟩,false,false,[some (12,(.ff,false))],none,none,none,false,false,false,none,false,⟨.lcode,none,false,.lblank⟩⟩] (.node (.node .leaf 568269214 [⟨⟨(.inside 1),[],.lcode,false,[(4,0)],false⟩,false,false,[some (13,(.cr,false))],none,none,none,false,false,false,none,false,⟨.lcode,none,false,.lblank⟩⟩] .leaf) 568281503 [⟨⟨(.inside 1),[],.lcode,false,[(4,1)],false⟩,false,false,[some (13,(.cr,false))],none,none,none,false,false,false,none,false,⟨.lcode,none,false,.lblank⟩⟩] .leaf)) 569269217 [⟨⟨(.inside 1),[],.lcode,false,[(4,0)],false⟩,false,false,[some (13,(.cr,true))],none,none,none,false,false,false,none,false,⟨.lcode,none,false,.lblank⟩⟩] (.node (.node (.node .leaf 569281506 [⟨⟨(.inside 1),[],.lcode,false,[(4,1)],false⟩,false,false,[some (13,(.cr,true))],none,none,none,false,false,false,none,false,⟨.lcode,none,false,.lblank⟩⟩] .leaf) 735518590 [⟨⟨.code,[45],.lcode,false,[(4,0)],false⟩,false,false,[some (256,(.other,false))],none,none,none,false,false,false,none,false,⟨.lcode,none,false,.lblank⟩⟩] .leaf) 735530879 [⟨⟨.code,[45],.lcode,false,[(4,1)],false⟩,false,false,[some (256,(.other,false))],none,none,none,false,false,false,none,false,⟨.lcode,none,false,.lblank⟩⟩] (.node .leaf 745177744 [⟨⟨.code,[47],.lcode,false,[(4,0)],false⟩,false,false,[some (256,(.other,false))],none,none,none,false,false,false,none,false,⟨.lcode,none,false,.lblank⟩⟩] .leaf))) 745190033 [⟨⟨.code,[47],.lcode,false,[(4,1)],false⟩,false,false,[some (256,(.other,false))],none,none,none,false,false,false,none,false,⟨.lcode,none,false,.lblank⟩⟩] (.node (.node (.node (.node .leaf 927635293 [⟨⟨(.inside 2),[],.lcode,false,[(4,0)],false⟩,false,false,[none],none,none,none,false,false,false,none,false,⟨.lcode,none,false,.lblank⟩⟩] .leaf) 927647582 [⟨⟨(.inside 2),[],.lcode,false,[(4,1)],false⟩,false,false,[none],none,none,none,false,false,false,none,false,⟨.lcode,none,false,.lblank⟩⟩] .leaf) 948635356 [⟨⟨(.inside 2),[],.lcode,false,[(4,0)],false⟩,false,false,[some (10,(.lf,false))],none,none,none,false,false,false,none,false,⟨.lcode,none,false,.lblank⟩⟩] (.node (.node .leaf 948647645 [⟨⟨(.inside 2),[],.lcode,false,[(4,1)],false⟩,false,false,[some (10,(.lf,false))],none,none,none,false,false,false,none,false,⟨.lcode,none,false,.lblank⟩⟩] .leaf) 952635368 [⟨⟨(.inside 2),[],.lcode,false,[(4,0)],false⟩,false,false,[some (12,(.ff,false))],none,none,none,false,false,false,none,false,⟨.lcode,none,false,.lblank⟩⟩] .leaf)) 952647657 [⟨⟨(.inside 2),[],.lcode,false,[(4,1)],false⟩,false,false,[some (12,(.ff,false))],none,none,none,false,false,false,none,false,⟨.lcode,none,false,.lblank⟩⟩] (.node (.node (.node .leaf 954635374 [⟨⟨(.inside 2),[],.lcode,false,[(4,0)],false⟩,false,false,[some (13,(.cr,false))],none,none,none,false,false,false,none,false,⟨.lcode,none,false,.lblank⟩⟩] .leaf) 954647663 [⟨⟨(.inside 2),[],.lcode,false,[(4,1)],false⟩,false,false,[some (13,(.cr,false))],none,none,none,false,false,false,none,false,⟨.lcode,none,false,.lblank⟩⟩] .leaf) 955635377 [⟨⟨(.inside 2),[],.lcode,false,[(4,0)],false⟩,false,false,[some (13,(.cr,true))],none,none,none,false,false,false,none,false,⟨.lcode,none,false,.lblank⟩⟩] (.node .leaf 955647666 [⟨⟨(.inside 2),[],.lcode,false,[(4,1)],false⟩,false,false,[some (13,(.cr,true))],none,none,none,false,false,false,none,false,⟨.lcode,none,false,.lblank⟩⟩] .leaf))))))),(.node (.node (.node .leaf 128 [⟨⟨.code,[],.lcode,false,[],false⟩,false,false,[],none,none,none,false,false,false,none,false,⟨.lcode,some (.own 0),false,.lblank⟩⟩] .leaf) 148108 [⟨⟨.code,[],.lcomment,false,[],false⟩,false,false,[],none,none,none,false,false,false,none,false,⟨.lcomment,some (.own 0),false,.lblank⟩⟩] .leaf) 296088 [⟨⟨.code,[],.lblank,false,[],false⟩,false,false,[],none,none,none,false,false,false,none,false,⟨.lblank,some (.own 0),false,.lblank⟩⟩] (.node .leaf 356509 [⟨⟨.code,[],.lcode,false,[(4,0)],false⟩,false,false,[],none,none,none,false,false,false,none,false,⟨.lcode,some (.own 0),false,.lblank⟩⟩] .leaf)),(.node (.node .leaf 160 [⟨⟨.code,[],.lcode,false,[],false⟩,true,false,[],none,none,none,false,false,false,none,false,⟨.lcode,some .newline,false,.lblank⟩⟩] .leaf) 148140 [⟨⟨.code,[],.lcomment,false,[],false⟩,true,false,[],none,none,none,false,false,false,none,false,⟨.lcomment,some .newline,false,.lblank⟩⟩] (.node .leaf 296120 [⟨⟨.code,[],.lblank,false,[],false⟩,true,false,[],none,none,none,false,false,false,none,false,⟨.lblank,some .newline,false,.lblank⟩⟩] .leaf)),(.node (.node .leaf 37011 [⟨⟨.code,[],.lcode,true,[],false⟩,false,true,[],none,none,none,false,false,false,none,false,⟨.lcode,some .newline,false,.lblank⟩⟩] .leaf) 184991 [⟨⟨.code,[],.lcomment,true,[],false⟩,false,true,[],none,none,none,false,false,false,none,false,⟨.lcomment,some .newline,false,.lblank⟩⟩] (.node .leaf 332971 [⟨⟨.code,[],.lblank,true,[],false⟩,false,true,[],none,none,none,false,false,false,none,false,⟨.lblank,some .newline,false,.lblank⟩⟩] .leaf)),(.node (.node (.node .leaf 356509 [⟨⟨.code,[],.lcode,false,[(4,0)],false⟩,false,false,[],none,none,none,false,false,false,none,false,⟨.lcode,some (.own 3),false,.lblank⟩⟩] .leaf) 356513 [⟨⟨.code,[],.lcode,false,[(4,0)],false⟩,false,false,[],none,none,none,false,true,false,none,false,⟨.lcode,some (.own 3),false,.lblank⟩⟩] .leaf) 12977312 [⟨⟨(.inside 4),[],.lcode,false,[],false⟩,false,false,[],none,none,none,false,false,false,none,false,⟨.lcode,some (.own 3),false,.lblank⟩⟩] (.node .leaf 1700367613 [⟨⟨(.inside 4),[],.lcode,false,[(4,0)],false⟩,false,false,[],none,none,none,false,false,false,none,false,⟨.lcode,some (.own 3),false,.lblank⟩⟩] .leaf)),(.node (.node .leaf 4129232 [⟨⟨(.inside 1),[],.lcode,false,[],false⟩,false,false,[],none,none,none,false,false,false,none,false,⟨.lcode,some (.own 3),false,.lblank⟩⟩] .leaf) 4277212 [⟨⟨(.inside 1),[],.lcomment,false,[],false⟩,false,false,[],none,none,none,false,false,false,none,false,⟨.lcomment,some (.own 3),false,.lblank⟩⟩] (.node .leaf 541269133 [⟨⟨(.inside 1),[],.lcode,false,[(4,0)],false⟩,false,false,[],none,none,none,false,false,false,none,false,⟨.lcode,some (.own 3),false,.lblank⟩⟩] .leaf)),(.node (.node (.node .leaf 1696010 [⟨⟨.code,[45],.lcode,false,[],false⟩,false,false,[],none,none,none,false,false,false,none,false,⟨.lcode,some (.own 3),false,.lblank⟩⟩] .leaf) 1696012 [⟨⟨.code,[45],.lcode,false,[],false⟩,false,false,[],none,none,none,false,false,true,none,false,⟨.lcode,some (.own 3),false,.lblank⟩⟩] (.node .leaf 21014832 [⟨⟨.code,[45],.lcomment,false,[],false⟩,false,false,[],none,none,none,false,false,true,none,false,⟨.lcomment,some (.own 3),false,.lblank⟩⟩] .leaf)) 40333652 [⟨⟨.code,[45],.lblank,false,[],false⟩,false,false,[],none,none,none,false,false,true,none,false,⟨.lblank,some (.own 3),false,.lblank⟩⟩] (.node (.node .leaf 222517051 [⟨⟨.code,[45],.lcode,false,[(4,0)],false⟩,false,false,[],none,none,none,false,false,false,none,false,⟨.lcode,some (.own 3),false,.lblank⟩⟩] .leaf) 222517053 [⟨⟨.code,[45],.lcode,false,[(4,0)],false⟩,false,false,[],none,none,none,false,false,true,none,false,⟨.lcode,some (.own 3),false,.lblank⟩⟩] (.node .leaf 222529342 [⟨⟨.code,[45],.lcode,false,[(4,1)],false⟩,false,false,[],none,none,none,false,false,true,none,false,⟨.lcode,some (.own 3),false,.lblank⟩⟩] .leaf))),(.node (.node (.node .leaf 1769744 [⟨⟨.code,[47],.lcode,false,[],false⟩,false,false,[],none,none,none,false,false,false,none,false,⟨.lcode,some (.own 3),false,.lblank⟩⟩] .leaf) 1769746 [⟨⟨.code,[47],.lcode,false,[],false⟩,false,false,[],none,none,none,false,false,true,none,false,⟨.lcode,some (.own 3),false,.lblank⟩⟩] (.node .leaf 21088566 [⟨⟨.code,[47],.lcomment,false,[],false⟩,false,false,[],none,none,none,false,false,true,none,false,⟨.lcomment,some (.own 3),false,.lblank⟩⟩] .leaf)) 40407386 [⟨⟨.code,[47],.lblank,false,[],false⟩,false,false,[],none,none,none,false,false,true,none,false,⟨.lblank,some (.own 3),false,.lblank⟩⟩] (.node (.node .leaf 232176205 [⟨⟨.code,[47],.lcode,false,[(4,0)],false⟩,false,false,[],none,none,none,false,false,false,none,false,⟨.lcode,some (.own 3),false,.lblank⟩⟩] .leaf) 232176207 [⟨⟨.code,[47],.lcode,false,[(4,0)],false⟩,false,false,[],none,none,none,false,false,true,none,false,⟨.lcode,some (.own 3),false,.lblank⟩⟩] (.node .leaf 232188496 [⟨⟨.code,[47],.lcode,false,[(4,1)],false⟩,false,false,[],none,none,none,false,false,true,none,false,⟨.lcode,some (.own 3),false,.lblank⟩⟩] .leaf))),(.node (.node (.node (.node .leaf 379295 [⟨⟨.code,[],.lcode,false,[(4,0)],false⟩,false,false,[],some 4,some ⟨.code,[],.lcode,false,[(4,0)],false⟩,none,false,false,false,none,false,⟨.lcode,some (.own 3),false,.lblank⟩⟩] .leaf) 13789861 [⟨⟨(.inside 4),[],.lcode,false,[],false⟩,false,false,[],some 4,some ⟨(.inside 4),[],.lcode,false,[],false⟩,none,false,false,false,none,false,⟨.lcode,some (.own 3),false,.lblank⟩⟩] (.node .leaf 48675069 [⟨⟨.code,[],.lblank,false,[(4,0)],true⟩,false,false,[],some 4,some ⟨.code,[],.lcode,false,[(4,0)],false⟩,none,false,true,false,none,false,⟨.lcode,some (.own 3),false,.lblank⟩⟩] .leaf)) 154925759 [⟨⟨(.inside 0),[],.lcode,false,[(4,0)],false⟩,false,false,[],some 4,some ⟨.code,[],.lcode,false,[(4,0)],false⟩,none,false,false,false,none,false,⟨.lcode,some (.own 3),false,.lblank⟩⟩] (.node (.node .leaf 222539837 [⟨⟨.code,[45],.lcode,false,[(4,0)],false⟩,false,false,[],some 4,some ⟨.code,[],.lcode,false,[(4,0)],false⟩,none,false,false,false,none,false,⟨.lcode,some (.own 3),false,.lblank⟩⟩] .leaf) 232198991 [⟨⟨.code,[47],.lcode,false,[(4,0)],false⟩,false,false,[],some 4,some ⟨.code,[],.lcode,false,[(4,0)],false⟩,none,false,false,false,none,false,⟨.lcode,some (.own 3),false,.lblank⟩⟩] .leaf)) 541291919 [⟨⟨(.inside 1),[],.lcode,false,[(4,0)],false⟩,false,false,[],some 4,some ⟨.code,[],.lcode,false,[(4,0)],false⟩,none,false,false,false,none,false,⟨.lcode,some (.own 3),false,.lblank⟩⟩] (.node (.node (.node .leaf 927658079 [⟨⟨(.inside 2),[],.lcode,false,[(4,0)],false⟩,false,false,[],some 4,some ⟨.code,[],.lcode,false,[(4,0)],false⟩,none,false,false,false,none,false,⟨.lcode,some (.own 3),false,.lblank⟩⟩] .leaf) 1314024239 [⟨⟨(.inside 3),[],.lcode,false,[(4,0)],false⟩,false,false,[],some 4,some ⟨.code,[],.lcode,false,[(4,0)],false⟩,none,false,false,false,none,false,⟨.lcode,some (.own 3),false,.lblank⟩⟩] .leaf) 1700390399 [⟨⟨(.inside 4),[],.lcode,false,[(4,0)],false⟩,false,false,[],some 4,some ⟨.code,[],.lcode,false,[(4,0)],false⟩,none,false,false,false,none,false,⟨.lcode,some (.own 3),false,.lblank⟩⟩] (.node (.node .leaf 1806770783 [⟨⟨(.inside 4),[],.lcode,false,[(4,0)],false⟩,false,false,[],some 4,some ⟨(.inside 4),[],.lcode,false,[(4,0)],false⟩,none,false,false,false,none,false,⟨.lcode,some (.own 3),false,.lblank⟩⟩] .leaf) 172295538770 [⟨⟨(.inside 3),[42],.lcode,false,[(4,0)],false⟩,false,false,[],some 4,some ⟨.code,[],.lcode,false,[(4,0)],false⟩,none,false,false,false,none,false,⟨.lcode,some (.own 3),false,.lblank⟩⟩] .leaf))),(.node (.node (.node (.node .leaf 391584 [⟨⟨.code,[],.lcode,false,[(4,1)],false⟩,false,false,[],some 4,some ⟨.code,[],.lcode,false,[(4,0)],false⟩,none,false,false,false,none,false,⟨.lcode,some (.own 3),false,.lblank⟩⟩] .leaf) 48687358 [⟨⟨.code,[],.lblank,false,[(4,1)],true⟩,false,false,[],some 4,some ⟨.code,[],.lcode,false,[(4,0)],false⟩,none,false,true,false,none,false,⟨.lcode,some (.own 3),false,.lblank⟩⟩] .leaf) 154938048 [⟨⟨(.inside 0),[],.lcode,false,[(4,1)],false⟩,false,false,[],some 4,some ⟨.code,[],.lcode,false,[(4,0)],false⟩,none,false,false,false,none,false,⟨.lcode,some (.own 3),false,.lblank⟩⟩] (.node .leaf 541304208 [⟨⟨(.inside 1),[],.lcode,false,[(4,1)],false⟩,false,false,[],some 4,some ⟨.code,[],.lcode,false,[(4,0)],false⟩,none,false,false,false,none,false,⟨.lcode,some (.own 3),false,.lblank⟩⟩] .leaf)) 927670368 [⟨⟨(.inside 2),[],.lcode,false,[(4,1)],false⟩,false,false,[],some 4,some ⟨.code,[],.lcode,false,[(4,0)],false⟩,none,false,false,false,none,false,⟨.lcode,some (.own 3),false,.lblank⟩⟩] (.node (.node (.node .leaf 1314036528 [⟨⟨(.inside 3),[],.lcode,false,[(4,1)],false⟩,false,false,[],some 4,some ⟨.code,[],.lcode,false,[(4,0)],false⟩,none,false,false,false,none,false,⟨.lcode,some (.own 3),false,.lblank⟩⟩] .leaf) 1704252412 [⟨⟨(.inside 4),[92],.lcode,false,[],false⟩,false,false,[],some 4,some ⟨(.inside 4),[],.lcode,false,[],false⟩,none,false,false,false,none,false,⟨.lcode,some (.own 3),false,.lblank⟩⟩] .leaf) 223150984580 [⟨⟨(.inside 4),[92],.lcode,false,[(4,0)],false⟩,false,false,[],some 4,some ⟨.code,[],.lcode,false,[(4,0)],false⟩,none,false,false,false,none,false,⟨.lcode,some (.own 3),false,.lblank⟩⟩] (.node .leaf 223257364964 [⟨⟨(.inside 4),[92],.lcode,false,[(4,0)],false⟩,false,false,[],some 4,some ⟨(.inside 4),[],.lcode,false,[(4,0)],false⟩,none,false,false,false,none,false,⟨.lcode,some (.own 3),false,.lblank⟩⟩] .leaf))),(.node (.node (.node (.node .leaf 1179872 [⟨⟨(.inside 0),[],.lcode,false,[],false⟩,false,false,[],none,none,none,false,false,false,none,false,⟨.lcode,some (.own 3),false,.lblank⟩⟩] .leaf) 1327852 [⟨⟨(.inside 0),[],.lcomment,false,[],false⟩,false,false,[],none,none,none,false,false,false,none,false,⟨.lcomment,some (.own 3),false,.lblank⟩⟩] (.node .leaf 4129232 [⟨⟨(.inside 1),[],.lcode,false,[],false⟩,false,false,[],none,none,none,false,false,false,none,false,⟨.lcode,some (.own 3),false,.lblank⟩⟩] .leaf)) 4277212 [⟨⟨(.inside 1),[],.lcomment,false,[],false⟩,false,false,[],none,none,none,false,false,false,none,false,⟨.lcomment,some (.own 3),false,.lblank⟩⟩] (.node (.node .leaf 7078592 [⟨⟨(.inside 2),[],.lcode,false,[],false⟩,false,false,[],none,none,none,false,false,false,none,false,⟨.lcode,some (.own 3),false,.lblank⟩⟩] .leaf) 7226572 [⟨⟨(.inside 2),[],.lcomment,false,[],false⟩,false,false,[],none,none,none,false,false,false,none,false,⟨.lcomment,some (.own 3),false,.lblank⟩⟩] .leaf)) 154902973 [⟨⟨(.inside 0),[],.lcode,false,[(4,0)],false⟩,false,false,[],none,none,none,false,false,false,none,false,⟨.lcode,some (.own 3),false,.lblank⟩⟩] (.node (.node (.node .leaf 154915262 [⟨⟨(.inside 0),[],.lcode,false,[(4,1)],false⟩,false,false,[],none,none,none,false,false,false,none,false,⟨.lcode,some (.own 3),false,.lblank⟩⟩] .leaf) 541269133 [⟨⟨(.inside 1),[],.lcode,false,[(4,0)],false⟩,false,false,[],none,none,none,false,false,false,none,false,⟨.lcode,some (.own 3),false,.lblank⟩⟩] .leaf) 541281422 [⟨⟨(.inside 1),[],.lcode,false,[(4,1)],false⟩,false,false,[],none,none,none,false,false,false,none,false,⟨.lcode,some (.own 3),false,.lblank⟩⟩] (.node (.node .leaf 927635293 [⟨⟨(.inside 2),[],.lcode,false,[(4,0)],false⟩,false,false,[],none,none,none,false,false,false,none,false,⟨.lcode,some (.own 3),false,.lblank⟩⟩] .leaf) 927647582 [⟨⟨(.inside 2),[],.lcode,false,[(4,1)],false⟩,false,false,[],none,none,none,false,false,false,none,false,⟨.lcode,some (.own 3),false,.lblank⟩⟩] .leaf))),(.node (.node .leaf 1179872 [⟨⟨(.inside 0),[],.lcode,false,[],false⟩,false,false,[],none,none,none,false,false,false,none,false,⟨.lcode,some (.own 3),false,.lblank⟩⟩] .leaf) 1327852 [⟨⟨(.inside 0),[],.lcomment,false,[],false⟩,false,false,[],none,none,none,false,false,false,none,false,⟨.lcomment,some (.own 3),false,.lblank⟩⟩] (.node .leaf 154902973 [⟨⟨(.inside 0),[],.lcode,false,[(4,0)],false⟩,false,false,[],none,none,none,false,false,false,none,false,⟨.lcode,some (.own 3),false,.lblank⟩⟩] .leaf)),(.node (.node (.node .leaf 616140991 [⟨⟨(.inside 3),[],.lcode,false,[],false⟩,false,false,[],some 4,some ⟨.code,[47],.lcode,false,[],false⟩,some ([(42,(.other,false))],false),false,false,false,none,false,⟨.lcode,some (.own 3),false,.lblank⟩⟩] .leaf) 617497839 [⟨⟨(.inside 3),[],.lcomment,false,[],false⟩,false,false,[],some 4,some ⟨.code,[47],.lcomment,false,[],false⟩,some ([(42,(.other,false))],false),false,false,false,none,false,⟨.lcomment,some (.own 3),false,.lblank⟩⟩] .leaf) 618706707 [⟨⟨(.inside 3),[],.lcomment,false,[],false⟩,false,false,[],some 4,some ⟨.code,[47],.lblank,false,[],false⟩,some ([(42,(.other,false))],false),false,false,false,none,false,⟨.lcomment,some (.own 3),false,.lblank⟩⟩] (.node (.node .leaf 1934532473 [⟨⟨(.inside 3),[],.lcode,false,[(4,0)],false⟩,false,false,[],some 4,some ⟨.code,[47],.lcode,false,[(4,0)],false⟩,some ([(42,(.other,false))],false),false,false,false,none,false,⟨.lcode,some (.own 3),false,.lblank⟩⟩] .leaf) 1934533242 [⟨⟨(.inside 3),[],.lcode,false,[(4,0)],false⟩,false,false,[],some 4,some ⟨.code,[47],.lcode,false,[(4,1)],false⟩,some ([(42,(.other,false))],false),false,false,false,none,false,⟨.lcode,some (.own 3),false,.lblank⟩⟩] .leaf)),(.node (.node .leaf 7078592 [⟨⟨(.inside 2),[],.lcode,false,[],false⟩,false,false,[],none,none,none,false,false,false,none,false,⟨.lcode,some (.own 3),false,.lblank⟩⟩] .leaf) 7226572 [⟨⟨(.inside 2),[],.lcomment,false,[],false⟩,false,false,[],none,none,none,false,false,false,none,false,⟨.lcomment,some (.own 3),false,.lblank⟩⟩] (.node .leaf 927635293 [⟨⟨(.inside 2),[],.lcode,false,[(4,0)],false⟩,false,false,[],none,none,none,false,false,false,none,false,⟨.lcode,some (.own 3),false,.lblank⟩⟩] .leaf)),(.node (.node (.node (.node .leaf 379295 [⟨⟨.code,[],.lcode,false,[(4,0)],false⟩,false,false,[],some 4,some ⟨.code,[],.lcode,false,[(4,0)],false⟩,none,false,false,false,none,false,⟨.lcode,some (.own 3),false,.lblank⟩⟩] .leaf) 13789861 [⟨⟨(.inside 4),[],.lcode,false,[],false⟩,false,false,[],some 4,some ⟨(.inside 4),[],.lcode,false,[],false⟩,none,false,false,false,none,false,⟨.lcode,some (.own 3),false,.lblank⟩⟩] (.node .leaf 48675069 [⟨⟨.code,[],.lblank,false,[(4,0)],true⟩,false,false,[],some 4,some ⟨.code,[],.lcode,false,[(4,0)],false⟩,none,false,true,false,none,false,⟨.lcode,some (.own 3),false,.lblank⟩⟩] .leaf)) 154925759 [⟨⟨(.inside 0),[],.lcode,false,[(4,0)],false⟩,false,false,[],some 4,some ⟨.code,[],.lcode,false,[(4,0)],false⟩,none,false,false,false,none,false,⟨.lcode,some (.own 3),false,.lblank⟩⟩] (.node (.node .leaf 222552126 [⟨⟨.code,[45],.lcode,false,[(4,1)],false⟩,false,false,[],some 4,some ⟨.code,[],.lcode,false,[(4,0)],false⟩,none,false,false,false,none,false,⟨.lcode,some (.own 3),false,.lblank⟩⟩] .leaf) 232211280 [⟨⟨.code,[47],.lcode,false,[(4,1)],false⟩,false,false,[],some 4,some ⟨.code,[],.lcode,false,[(4,0)],false⟩,none,false,false,false,none,false,⟨.lcode,some (.own 3),false,.lblank⟩⟩] .leaf)) 541291919 [⟨⟨(.inside 1),[],.lcode,false,[(4,0)],false⟩,false,false,[],some 4,some ⟨.code,[],.lcode,false,[(4,0)],false⟩,none,false,false,false,none,false,⟨.lcode,some (.own 3),false,.lblank⟩⟩] (.node (.node (.node .leaf 927658079 [⟨⟨(.inside 2),[],.lcode,false,[(4,0)],false⟩,false,false,[],some 4,some ⟨.code,[],.lcode,false,[(4,0)],false⟩,none,false,false,false,none,false,⟨.lcode,some (.own 3),false,.lblank⟩⟩] .leaf) 1314024239 [⟨⟨(.inside 3),[],.lcode,false,[(4,0)],false⟩,false,false,[],some 4,some ⟨.code,[],.lcode,false,[(4,0)],false⟩,none,false,false,false,none,false,⟨.lcode,some (.own 3),false,.lblank⟩⟩] .leaf) 1700390399 [⟨⟨(.inside 4),[],.lcode,false,[(4,0)],false⟩,false,false,[],some 4,some ⟨.code,[],.lcode,false,[(4,0)],false⟩,none,false,false,false,none,false,⟨.lcode,some (.own 3),false,.lblank⟩⟩] (.node (.node .leaf 1806770783 [⟨⟨(.inside 4),[],.lcode,false,[(4,0)],false⟩,false,false,[],some 4,some ⟨(.inside 4),[],.lcode,false,[(4,0)],false⟩,none,false,false,false,none,false,⟨.lcode,some (.own 3),false,.lblank⟩⟩] .leaf) 172295551059 [⟨⟨(.inside 3),[42],.lcode,false,[(4,1)],false⟩,false,false,[],some 4,some ⟨.code,[],.lcode,false,[(4,0)],false⟩,none,false,false,false,none,false,⟨.lcode,some (.own 3),false,.lblank⟩⟩] .leaf))),(.node (.node (.node (.node .leaf 616140991 [⟨⟨(.inside 3),[],.lcode,false,[],false⟩,false,false,[],some 4,some ⟨.code,[47],.lcode,false,[],false⟩,some ([(42,(.other,false))],false),false,false,false,none,false,⟨.lcode,some (.own 3),false,.lblank⟩⟩] .leaf) 616288979 [⟨⟨(.inside 3),[],.lcomment,false,[],false⟩,false,false,[],some 4,some ⟨.code,[47],.lcode,false,[],false⟩,some ([(42,(.other,false))],false),true,false,false,none,false,⟨.lcomment,some .internalNl,false,.lblank⟩⟩] (.node .leaf 617497839 [⟨⟨(.inside 3),[],.lcomment,false,[],false⟩,false,false,[],some 4,some ⟨.code,[47],.lcomment,false,[],false⟩,some ([(42,(.other,false))],false),false,false,false,none,false,⟨.lcomment,some (.own 3),false,.lblank⟩⟩] .leaf)) 617497847 [⟨⟨(.inside 3),[],.lcomment,false,[],false⟩,false,false,[],some 4,some ⟨.code,[47],.lcomment,false,[],false⟩,some ([(42,(.other,false))],false),true,false,false,none,false,⟨.lcomment,some .internalNl,false,.lblank⟩⟩] (.node (.node .leaf 618706707 [⟨⟨(.inside 3),[],.lcomment,false,[],false⟩,false,false,[],some 4,some ⟨.code,[47],.lblank,false,[],false⟩,some ([(42,(.other,false))],false),false,false,false,none,false,⟨.lcomment,some (.own 3),false,.lblank⟩⟩] .leaf) 618706715 [⟨⟨(.inside 3),[],.lcomment,false,[],false⟩,false,false,[],some 4,some ⟨.code,[47],.lblank,false,[],false⟩,some ([(42,(.other,false))],false),true,false,false,none,false,⟨.lcomment,some .internalNl,false,.lblank⟩⟩] .leaf)) 630706960 [⟨⟨(.inside 3),[],.lcomment,false,[],false⟩,false,false,[],some 4,some ⟨.code,[47],.lcode,false,[(4,0)],false⟩,some ([(42,(.other,false))],false),true,false,false,none,false,⟨.lcomment,some .internalNl,false,.lblank⟩⟩] (.node (.node (.node .leaf 630707729 [⟨⟨(.inside 3),[],.lcomment,false,[],false⟩,false,false,[],some 4,some ⟨.code,[47],.lcode,false,[(4,1)],false⟩,some ([(42,(.other,false))],false),true,false,false,none,false,⟨.lcomment,some .internalNl,false,.lblank⟩⟩] .leaf) 1934532473 [⟨⟨(.inside 3),[],.lcode,false,[(4,0)],false⟩,false,false,[],some 4,some ⟨.code,[47],.lcode,false,[(4,0)],false⟩,some ([(42,(.other,false))],false),false,false,false,none,false,⟨.lcode,some (.own 3),false,.lblank⟩⟩] .leaf) 1934533242 [⟨⟨(.inside 3),[],.lcode,false,[(4,0)],false⟩,false,false,[],some 4,some ⟨.code,[47],.lcode,false,[(4,1)],false⟩,some ([(42,(.other,false))],false),false,false,false,none,false,⟨.lcode,some (.own 3),false,.lblank⟩⟩] (.node (.node .leaf 1934544762 [⟨⟨(.inside 3),[],.lcode,false,[(4,1)],false⟩,false,false,[],some 4,some ⟨.code,[47],.lcode,false,[(4,0)],false⟩,some ([(42,(.other,false))],false),false,false,false,none,false,⟨.lcode,some (.own 3),false,.lblank⟩⟩] .leaf) 1934545531 [⟨⟨(.inside 3),[],.lcode,false,[(4,1)],false⟩,false,false,[],some 4,some ⟨.code,[47],.lcode,false,[(4,1)],false⟩,some ([(42,(.other,false))],false),false,false,false,none,false,⟨.lcode,some (.own 3),false,.lblank⟩⟩] .leaf))),(.node (.node (.node (.node .leaf 616140991 [⟨⟨(.inside 3),[],.lcode,false,[],false⟩,false,false,[],some 4,some ⟨.code,[47],.lcode,false,[],false⟩,some ([(42,(.other,false))],false),false,false,false,none,false,⟨.lcode,some (.own 3),false,.lblank⟩⟩] .leaf) 616288979 [⟨⟨(.inside 3),[],.lcomment,false,[],false⟩,false,false,[],some 4,some ⟨.code,[47],.lcode,false,[],false⟩,some ([(42,(.other,false))],false),true,false,false,none,false,⟨.lcomment,some .internalNl,false,.lblank⟩⟩] (.node .leaf 616436959 [⟨⟨(.inside 3),[],.lblank,false,[],false⟩,false,false,[],some 4,some ⟨.code,[47],.lcode,false,[],false⟩,some ([(42,(.other,false))],false),true,false,false,none,false,⟨.lblank,some .internalNl,false,.lblank⟩⟩] .leaf)) 617497839 [⟨⟨(.inside 3),[],.lcomment,false,[],false⟩,false,false,[],some 4,some ⟨.code,[47],.lcomment,false,[],false⟩,some ([(42,(.other,false))],false),false,false,false,none,false,⟨.lcomment,some (.own 3),false,.lblank⟩⟩] (.node (.node .leaf 617497847 [⟨⟨(.inside 3),[],.lcomment,false,[],false⟩,false,false,[],some 4,some ⟨.code,[47],.lcomment,false,[],false⟩,some ([(42,(.other,false))],false),true,false,false,none,false,⟨.lcomment,some .internalNl,false,.lblank⟩⟩] .leaf) 617645827 [⟨⟨(.inside 3),[],.lblank,false,[],false⟩,false,false,[],some 4,some ⟨.code,[47],.lcomment,false,[],false⟩,some ([(42,(.other,false))],false),true,false,false,none,false,⟨.lblank,some .internalNl,false,.lblank⟩⟩] (.node .leaf 618706707 [⟨⟨(.inside 3),[],.lcomment,false,[],false⟩,false,false,[],some 4,some ⟨.code,[47],.lblank,false,[],false⟩,some ([(42,(.other,false))],false),false,false,false,none,false,⟨.lcomment,some (.own 3),false,.lblank⟩⟩] .leaf))) 618706715 [⟨⟨(.inside 3),[],.lcomment,false,[],false⟩,false,false,[],some 4,some ⟨.code,[47],.lblank,false,[],false⟩,some ([(42,(.other,false))],false),true,false,false,none,false,⟨.lcomment,some .internalNl,false,.lblank⟩⟩] (.node (.node (.node .leaf 618854695 [⟨⟨(.inside 3),[],.lblank,false,[],false⟩,false,false,[],some 4,some ⟨.code,[47],.lblank,false,[],false⟩,some ([(42,(.other,false))],false),true,false,false,none,false,⟨.lblank,some .internalNl,false,.lblank⟩⟩] .leaf) 630706960 [⟨⟨(.inside 3),[],.lcomment,false,[],false⟩,false,false,[],some 4,some ⟨.code,[47],.lcode,false,[(4,0)],false⟩,some ([(42,(.other,false))],false),true,false,false,none,false,⟨.lcomment,some .internalNl,false,.lblank⟩⟩] (.node .leaf 630707729 [⟨⟨(.inside 3),[],.lcomment,false,[],false⟩,false,false,[],some 4,some ⟨.code,[47],.lcode,false,[(4,1)],false⟩,some ([(42,(.other,false))],false),true,false,false,none,false,⟨.lcomment,some .internalNl,false,.lblank⟩⟩] .leaf)) 630854940 [⟨⟨(.inside 3),[],.lblank,false,[],false⟩,false,false,[],some 4,some ⟨.code,[47],.lcode,false,[(4,0)],false⟩,some ([(42,(.other,false))],false),true,false,false,none,false,⟨.lblank,some .internalNl,false,.lblank⟩⟩] (.node (.node .leaf 630855709 [⟨⟨(.inside 3),[],.lblank,false,[],false⟩,false,false,[],some 4,some ⟨.code,[47],.lcode,false,[(4,1)],false⟩,some ([(42,(.other,false))],false),true,false,false,none,false,⟨.lblank,some .internalNl,false,.lblank⟩⟩] .leaf) 1934532473 [⟨⟨(.inside 3),[],.lcode,false,[(4,0)],false⟩,false,false,[],some 4,some ⟨.code,[47],.lcode,false,[(4,0)],false⟩,some ([(42,(.other,false))],false),false,false,false,none,false,⟨.lcode,some (.own 3),false,.lblank⟩⟩] (.node .leaf 1934533242 [⟨⟨(.inside 3),[],.lcode,false,[(4,0)],false⟩,false,false,[],some 4,some ⟨.code,[47],.lcode,false,[(4,1)],false⟩,some ([(42,(.other,false))],false),false,false,false,none,false,⟨.lcode,some (.own 3),false,.lblank⟩⟩] .leaf)))),(.node (.node (.node (.node .leaf 616177858 [⟨⟨(.inside 3),[],.lcode,true,[],false⟩,false,false,[],some 4,some ⟨.code,[47],.lcode,false,[],false⟩,some ([(42,(.other,false))],false),false,false,false,none,false,⟨.lcode,some (.own 3),false,.lblank⟩⟩] .leaf) 616325846 [⟨⟨(.inside 3),[],.lcomment,true,[],false⟩,false,false,[],some 4,some ⟨.code,[47],.lcode,false,[],false⟩,some ([(42,(.other,false))],false),true,false,false,none,false,⟨.lcomment,some .internalNl,false,.lblank⟩⟩] (.node .leaf 616473826 [⟨⟨(.inside 3),[],.lblank,true,[],false⟩,false,false,[],some 4,some ⟨.code,[47],.lcode,false,[],false⟩,some ([(42,(.other,false))],false),true,false,false,none,false,⟨.lblank,some .internalNl,false,.lblank⟩⟩] .leaf)) 617534706 [⟨⟨(.inside 3),[],.lcomment,true,[],false⟩,false,false,[],some 4,some ⟨.code,[47],.lcomment,false,[],false⟩,some ([(42,(.other,false))],false),false,false,false,none,false,⟨.lcomment,some (.own 3),false,.lblank⟩⟩] (.node (.node .leaf 617534714 [⟨⟨(.inside 3),[],.lcomment,true,[],false⟩,false,false,[],some 4,some ⟨.code,[47],.lcomment,false,[],false⟩,some ([(42,(.other,false))],false),true,false,false,none,false,⟨.lcomment,some .internalNl,false,.lblank⟩⟩] .leaf) 617682694 [⟨⟨(.inside 3),[],.lblank,true,[],false⟩,false,false,[],some 4,some ⟨.code,[47],.lcomment,false,[],false⟩,some ([(42,(.other,false))],false),true,false,false,none,false,⟨.lblank,some .internalNl,false,.lblank⟩⟩] (.node .leaf 618743574 [⟨⟨(.inside 3),[],.lcomment,true,[],false⟩,false,false,[],some 4,some ⟨.code,[47],.lblank,false,[],false⟩,some ([(42,(.other,false))],false),false,false,false,none,false,⟨.lcomment,some (.own 3),false,.lblank⟩⟩] .leaf))) 618743582 [⟨⟨(.inside 3),[],.lcomment,true,[],false⟩,false,false,[],some 4,some ⟨.code,[47],.lblank,false,[],false⟩,some ([(42,(.other,false))],false),true,false,false,none,false,⟨.lcomment,some .internalNl,false,.lblank⟩⟩] (.node (.node (.node .leaf 618891562 [⟨⟨(.inside 3),[],.lblank,true,[],false⟩,false,false,[],some 4,some ⟨.code,[47],.lblank,false,[],false⟩,some ([(42,(.other,false))],false),true,false,false,none,false,⟨.lblank,some .internalNl,false,.lblank⟩⟩] .leaf) 630595839 [⟨⟨(.inside 3),[],.lcode,true,[],false⟩,false,false,[],some 4,some ⟨.code,[47],.lcode,false,[(4,0)],false⟩,some ([(42,(.other,false))],false),false,false,false,none,false,⟨.lcode,some (.own 3),false,.lblank⟩⟩] (.node .leaf 630596608 [⟨⟨(.inside 3),[],.lcode,true,[],false⟩,false,false,[],some 4,some ⟨.code,[47],.lcode,false,[(4,1)],false⟩,some ([(42,(.other,false))],false),false,false,false,none,false,⟨.lcode,some (.own 3),false,.lblank⟩⟩] .leaf)) 630743827 [⟨⟨(.inside 3),[],.lcomment,true,[],false⟩,false,false,[],some 4,some ⟨.code,[47],.lcode,false,[(4,0)],false⟩,some ([(42,(.other,false))],false),true,false,false,none,false,⟨.lcomment,some .internalNl,false,.lblank⟩⟩] (.node (.node .leaf 630744596 [⟨⟨(.inside 3),[],.lcomment,true,[],false⟩,false,false,[],some 4,some ⟨.code,[47],.lcode,false,[(4,1)],false⟩,some ([(42,(.other,false))],false),true,false,false,none,false,⟨.lcomment,some .internalNl,false,.lblank⟩⟩] .leaf) 630891807 [⟨⟨(.inside 3),[],.lblank,true,[],false⟩,false,false,[],some 4,some ⟨.code,[47],.lcode,false,[(4,0)],false⟩,some ([(42,(.other,false))],false),true,false,false,none,false,⟨.lblank,some .internalNl,false,.lblank⟩⟩] (.node .leaf 630892576 [⟨⟨(.inside 3),[],.lblank,true,[],false⟩,false,false,[],some 4,some ⟨.code,[47],.lcode,false,[(4,1)],false⟩,some ([(42,(.other,false))],false),true,false,false,none,false,⟨.lblank,some .internalNl,false,.lblank⟩⟩] .leaf)))),(.node (.node (.node (.node .leaf 616177858 [⟨⟨(.inside 3),[],.lcode,true,[],false⟩,false,false,[],some 4,some ⟨.code,[47],.lcode,false,[],false⟩,some ([(42,(.other,false))],false),false,false,false,none,false,⟨.lcode,some (.own 3),false,.lblank⟩⟩] .leaf) 616325846 [⟨⟨(.inside 3),[],.lcomment,true,[],false⟩,false,false,[],some 4,some ⟨.code,[47],.lcode,false,[],false⟩,some ([(42,(.other,false))],false),true,false,false,none,false,⟨.lcomment,some .internalNl,false,.lblank⟩⟩] (.node .leaf 616473826 [⟨⟨(.inside 3),[],.lblank,true,[],false⟩,false,false,[],some 4,some ⟨.code,[47],.lcode,false,[],false⟩,some ([(42,(.other,false))],false),true,false,false,none,false,⟨.lblank,some .internalNl,false,.lblank⟩⟩] .leaf)) 617534706 [⟨⟨(.inside 3),[],.lcomment,true,[],false⟩,false,false,[],some 4,some ⟨.code,[47],.lcomment,false,[],false⟩,some ([(42,(.other,false))],false),false,false,false,none,false,⟨.lcomment,some (.own 3),false,.lblank⟩⟩] (.node (.node .leaf 617534714 [⟨⟨(.inside 3),[],.lcomment,true,[],false⟩,false,false,[],some 4,some ⟨.code,[47],.lcomment,false,[],false⟩,some ([(42,(.other,false))],false),true,false,false,none,false,⟨.lcomment,some .internalNl,false,.lblank⟩⟩] .leaf) 617682694 [⟨⟨(.inside 3),[],.lblank,true,[],false⟩,false,false,[],some 4,some ⟨.code,[47],.lcomment,false,[],false⟩,some ([(42,(.other,false))],false),true,false,false,none,false,⟨.lblank,some .internalNl,false,.lblank⟩⟩] (.node .leaf 618743574 [⟨⟨(.inside 3),[],.lcomment,true,[],false⟩,false,false,[],some 4,some ⟨.code,[47],.lblank,false,[],false⟩,some ([(42,(.other,false))],false),false,false,false,none,false,⟨.lcomment,some (.own 3),false,.lblank⟩⟩] .leaf))) 618743582 [⟨⟨(.inside 3),[],.lcomment,true,[],false⟩,false,false,[],some 4,some ⟨.code,[47],.lblank,false,[],false⟩,some ([(42,(.other,false))],false),true,false,false,none,false,⟨.lcomment,some .internalNl,false,.lblank⟩⟩] (.node (.node (.node .leaf 618891562 [⟨⟨(.inside 3),[],.lblank,true,[],false⟩,false,false,[],some 4,some ⟨.code,[47],.lblank,false,[],false⟩,some ([(42,(.other,false))],false),true,false,false,none,false,⟨.lblank,some .internalNl,false,.lblank⟩⟩] .leaf) 630595839 [⟨⟨(.inside 3),[],.lcode,true,[],false⟩,false,false,[],some 4,some ⟨.code,[47],.lcode,false,[(4,0)],false⟩,some ([(42,(.other,false))],false),false,false,false,none,false,⟨.lcode,some (.own 3),false,.lblank⟩⟩] (.node .leaf 630596608 [⟨⟨(.inside 3),[],.lcode,true,[],false⟩,false,false,[],some 4,some ⟨.code,[47],.lcode,false,[(4,1)],false⟩,some ([(42,(.other,false))],false),false,false,false,none,false,⟨.lcode,some (.own 3),false,.lblank⟩⟩] .leaf)) 630743827 [⟨⟨(.inside 3),[],.lcomment,true,[],false⟩,false,false,[],some 4,some ⟨.code,[47],.lcode,false,[(4,0)],false⟩,some ([(42,(.other,false))],false),true,false,false,none,false,⟨.lcomment,some .internalNl,false,.lblank⟩⟩] (.node (.node .leaf 630744596 [⟨⟨(.inside 3),[],.lcomment,true,[],false⟩,false,false,[],some 4,some ⟨.code,[47],.lcode,false,[(4,1)],false⟩,some ([(42,(.other,false))],false),true,false,false,none,false,⟨.lcomment,some .internalNl,false,.lblank⟩⟩] .leaf) 630891807 [⟨⟨(.inside 3),[],.lblank,true,[],false⟩,false,false,[],some 4,some ⟨.code,[47],.lcode,false,[(4,0)],false⟩,some ([(42,(.other,false))],false),true,false,false,none,false,⟨.lblank,some .internalNl,false,.lblank⟩⟩] (.node .leaf 630892576 [⟨⟨(.inside 3),[],.lblank,true,[],false⟩,false,false,[],some 4,some ⟨.code,[47],.lcode,false,[(4,1)],false⟩,some ([(42,(.other,false))],false),true,false,false,none,false,⟨.lblank,some .internalNl,false,.lblank⟩⟩] .leaf)))),(.node (.node (.node (.node .leaf 616141023 [⟨⟨(.inside 3),[],.lcode,false,[],false⟩,true,false,[],some 4,some ⟨.code,[47],.lcode,false,[],false⟩,some ([(42,(.other,false))],false),false,false,false,none,false,⟨.lcode,some (.own 3),false,.lblank⟩⟩] .leaf) 616289011 [⟨⟨(.inside 3),[],.lcomment,false,[],false⟩,true,false,[],some 4,some ⟨.code,[47],.lcode,false,[],false⟩,some ([(42,(.other,false))],false),true,false,false,none,false,⟨.lcomment,some .internalNl,false,.lblank⟩⟩] (.node .leaf 616436991 [⟨⟨(.inside 3),[],.lblank,false,[],false⟩,true,false,[],some 4,some ⟨.code,[47],.lcode,false,[],false⟩,some ([(42,(.other,false))],false),true,false,false,none,false,⟨.lblank,some .internalNl,false,.lblank⟩⟩] .leaf)) 617497871 [⟨⟨(.inside 3),[],.lcomment,false,[],false⟩,true,false,[],some 4,some ⟨.code,[47],.lcomment,false,[],false⟩,some ([(42,(.other,false))],false),false,false,false,none,false,⟨.lcomment,some (.own 3),false,.lblank⟩⟩] (.node (.node .leaf 617497879 [⟨⟨(.inside 3),[],.lcomment,false,[],false⟩,true,false,[],some 4,some ⟨.code,[47],.lcomment,false,[],false⟩,some ([(42,(.other,false))],false),true,false,false,none,false,⟨.lcomment,some .internalNl,false,.lblank⟩⟩] .leaf) 617645859 [⟨⟨(.inside 3),[],.lblank,false,[],false⟩,true,false,[],some 4,some ⟨.code,[47],.lcomment,false,[],false⟩,some ([(42,(.other,false))],false),true,false,false,none,false,⟨.lblank,some .internalNl,false,.lblank⟩⟩] (.node .leaf 618706739 [⟨⟨(.inside 3),[],.lcomment,false,[],false⟩,true,false,[],some 4,some ⟨.code,[47],.lblank,false,[],false⟩,some ([(42,(.other,false))],false),false,false,false,none,false,⟨.lcomment,some (.own 3),false,.lblank⟩⟩] .leaf))) 618706747 [⟨⟨(.inside 3),[],.lcomment,false,[],false⟩,true,false,[],some 4,some ⟨.code,[47],.lblank,false,[],false⟩,some ([(42,(.other,false))],false),true,false,false,none,false,⟨.lcomment,some .internalNl,false,.lblank⟩⟩] (.node (.node (.node .leaf 618854727 [⟨⟨(.inside 3),[],.lblank,false,[],false⟩,true,false,[],some 4,some ⟨.code,[47],.lblank,false,[],false⟩,some ([(42,(.other,false))],false),true,false,false,none,false,⟨.lblank,some .internalNl,false,.lblank⟩⟩] .leaf) 630559004 [⟨⟨(.inside 3),[],.lcode,false,[],false⟩,true,false,[],some 4,some ⟨.code,[47],.lcode,false,[(4,0)],false⟩,some ([(42,(.other,false))],false),false,false,false,none,false,⟨.lcode,some (.own 3),false,.lblank⟩⟩] (.node .leaf 630559773 [⟨⟨(.inside 3),[],.lcode,false,[],false⟩,true,false,[],some 4,some ⟨.code,[47],.lcode,false,[(4,1)],false⟩,some ([(42,(.other,false))],false),false,false,false,none,false,⟨.lcode,some (.own 3),false,.lblank⟩⟩] .leaf)) 630706992 [⟨⟨(.inside 3),[],.lcomment,false,[],false⟩,true,false,[],some 4,some ⟨.code,[47],.lcode,false,[(4,0)],false⟩,some ([(42,(.other,false))],false),true,false,false,none,false,⟨.lcomment,some .internalNl,false,.lblank⟩⟩] (.node (.node .leaf 630707761 [⟨⟨(.inside 3),[],.lcomment,false,[],false⟩,true,false,[],some 4,some ⟨.code,[47],.lcode,false,[(4,1)],false⟩,some ([(42,(.other,false))],false),true,false,false,none,false,⟨.lcomment,some .internalNl,false,.lblank⟩⟩] .leaf) 630854972 [⟨⟨(.inside 3),[],.lblank,false,[],false⟩,true,false,[],some 4,some ⟨.code,[47],.lcode,false,[(4,0)],false⟩,some ([(42,(.other,false))],false),true,false,false,none,false,⟨.lblank,some .internalNl,false,.lblank⟩⟩] (.node .leaf 630855741 [⟨⟨(.inside 3),[],.lblank,false,[],false⟩,true,false,[],some 4,some ⟨.code,[47],.lcode,false,[(4,1)],false⟩,some ([(42,(.other,false))],false),true,false,false,none,false,⟨.lblank,some .internalNl,false,.lblank⟩⟩] .leaf)))),(.node (.node (.node (.node .leaf 616177874 [⟨⟨(.inside 3),[],.lcode,true,[],false⟩,false,true,[],some 4,some ⟨.code,[47],.lcode,false,[],false⟩,some ([(42,(.other,false))],false),false,false,false,none,false,⟨.lcode,some (.own 3),false,.lblank⟩⟩] .leaf) 616325862 [⟨⟨(.inside 3),[],.lcomment,true,[],false⟩,false,true,[],some 4,some ⟨.code,[47],.lcode,false,[],false⟩,some ([(42,(.other,false))],false),true,false,false,none,false,⟨.lcomment,some .internalNl,false,.lblank⟩⟩] (.node .leaf 616473842 [⟨⟨(.inside 3),[],.lblank,true,[],false⟩,false,true,[],some 4,some ⟨.code,[47],.lcode,false,[],false⟩,some ([(42,(.other,false))],false),true,false,false,none,false,⟨.lblank,some .internalNl,false,.lblank⟩⟩] .leaf)) 617534722 [⟨⟨(.inside 3),[],.lcomment,true,[],false⟩,false,true,[],some 4,some ⟨.code,[47],.lcomment,false,[],false⟩,some ([(42,(.other,false))],false),false,false,false,none,false,⟨.lcomment,some (.own 3),false,.lblank⟩⟩] (.node (.node .leaf 617534730 [⟨⟨(.inside 3),[],.lcomment,true,[],false⟩,false,true,[],some 4,some ⟨.code,[47],.lcomment,false,[],false⟩,some ([(42,(.other,false))],false),true,false,false,none,false,⟨.lcomment,some .internalNl,false,.lblank⟩⟩] .leaf) 617682710 [⟨⟨(.inside 3),[],.lblank,true,[],false⟩,false,true,[],some 4,some ⟨.code,[47],.lcomment,false,[],false⟩,some ([(42,(.other,false))],false),true,false,false,none,false,⟨.lblank,some .internalNl,false,.lblank⟩⟩] (.node .leaf 618743590 [⟨⟨(.inside 3),[],.lcomment,true,[],false⟩,false,true,[],some 4,some ⟨.code,[47],.lblank,false,[],false⟩,some ([(42,(.other,false))],false),false,false,false,none,false,⟨.lcomment,some (.own 3),false,.lblank⟩⟩] .leaf))) 618743598 [⟨⟨(.inside 3),[],.lcomment,true,[],false⟩,false,true,[],some 4,some ⟨.code,[47],.lblank,false,[],false⟩,some ([(42,(.other,false))],false),true,false,false,none,false,⟨.lcomment,some .internalNl,false,.lblank⟩⟩] (.node (.node (.node .leaf 618891578 [⟨⟨(.inside 3),[],.lblank,true,[],false⟩,false,true,[],some 4,some ⟨.code,[47],.lblank,false,[],false⟩,some ([(42,(.other,false))],false),true,false,false,none,false,⟨.lblank,some .internalNl,false,.lblank⟩⟩] .leaf) 630595855 [⟨⟨(.inside 3),[],.lcode,true,[],false⟩,false,true,[],some 4,some ⟨.code,[47],.lcode,false,[(4,0)],false⟩,some ([(42,(.other,false))],false),false,false,false,none,false,⟨.lcode,some (.own 3),false,.lblank⟩⟩] (.node .leaf 630596624 [⟨⟨(.inside 3),[],.lcode,true,[],false⟩,false,true,[],some 4,some ⟨.code,[47],.lcode,false,[(4,1)],false⟩,some ([(42,(.other,false))],false),false,false,false,none,false,⟨.lcode,some (.own 3),false,.lblank⟩⟩] .leaf)) 630743843 [⟨⟨(.inside 3),[],.lcomment,true,[],false⟩,false,true,[],some 4,some ⟨.code,[47],.lcode,false,[(4,0)],false⟩,some ([(42,(.other,false))],false),true,false,false,none,false,⟨.lcomment,some .internalNl,false,.lblank⟩⟩] (.node (.node .leaf 630744612 [⟨⟨(.inside 3),[],.lcomment,true,[],false⟩,false,true,[],some 4,some ⟨.code,[47],.lcode,false,[(4,1)],false⟩,some ([(42,(.other,false))],false),true,false,false,none,false,⟨.lcomment,some .internalNl,false,.lblank⟩⟩] .leaf) 630891823 [⟨⟨(.inside 3),[],.lblank,true,[],false⟩,false,true,[],some 4,some ⟨.code,[47],.lcode,false,[(4,0)],false⟩,some ([(42,(.other,false))],false),true,false,false,none,false,⟨.lblank,some .internalNl,false,.lblank⟩⟩] (.node .leaf 630892592 [⟨⟨(.inside 3),[],.lblank,true,[],false⟩,false,true,[],some 4,some ⟨.code,[47],.lcode,false,[(4,1)],false⟩,some ([(42,(.other,false))],false),true,false,false,none,false,⟨.lblank,some .internalNl,false,.lblank⟩⟩] .leaf)))),(.node (.node (.node (.node (.node .leaf 1921343392 [⟨⟨(.inside 3),[42],.lcode,false,[],false⟩,false,false,[],some 4,some ⟨.code,[47],.lcode,false,[],false⟩,some ([(42,(.other,false))],false),false,false,false,none,false,⟨.lcode,some (.own 3),false,.lblank⟩⟩] .leaf) 1940662220 [⟨⟨(.inside 3),[42],.lcomment,false,[],false⟩,false,false,[],some 4,some ⟨.code,[47],.lcode,false,[],false⟩,some ([(42,(.other,false))],false),true,false,false,none,false,⟨.lcomment,some .internalNl,false,.lblank⟩⟩] .leaf) 1941871080 [⟨⟨(.inside 3),[42],.lcomment,false,[],false⟩,false,false,[],some 4,some ⟨.code,[47],.lcomment,false,[],false⟩,some ([(42,(.other,false))],false),false,false,false,none,false,⟨.lcomment,some (.own 3),false,.lblank⟩⟩] (.node .leaf 1941871088 [⟨⟨(.inside 3),[42],.lcomment,false,[],false⟩,false,false,[],some 4,some ⟨.code,[47],.lcomment,false,[],false⟩,some ([(42,(.other,false))],false),true,false,false,none,false,⟨.lcomment,some .internalNl,false,.lblank⟩⟩] .leaf)) 1943079948 [⟨⟨(.inside 3),[42],.lcomment,false,[],false⟩,false,false,[],some 4,some ⟨.code,[47],.lblank,false,[],false⟩,some ([(42,(.other,false))],false),false,false,false,none,false,⟨.lcomment,some (.own 3),false,.lblank⟩⟩] (.node (.node .leaf 1943079956 [⟨⟨(.inside 3),[42],.lcomment,false,[],false⟩,false,false,[],some 4,some ⟨.code,[47],.lblank,false,[],false⟩,some ([(42,(.other,false))],false),true,false,false,none,false,⟨.lcomment,some .internalNl,false,.lblank⟩⟩] .leaf) 1955080201 [⟨⟨(.inside 3),[42],.lcomment,false,[],false⟩,false,false,[],some 4,some ⟨.code,[47],.lcode,false,[(4,0)],false⟩,some ([(42,(.other,false))],false),true,false,false,none,false,⟨.lcomment,some .internalNl,false,.lblank⟩⟩] (.node .leaf 1955080970 [⟨⟨(.inside 3),[42],.lcomment,false,[],false⟩,false,false,[],some 4,some ⟨.code,[47],.lcode,false,[(4,1)],false⟩,some ([(42,(.other,false))],false),true,false,false,none,false,⟨.lcomment,some .internalNl,false,.lblank⟩⟩] .leaf))) 1959980528 [⟨⟨(.inside 3),[42],.lblank,false,[],false⟩,false,false,[],some 4,some ⟨.code,[47],.lcode,false,[],false⟩,some ([(42,(.other,false))],false),true,false,false,none,false,⟨.lcomment,some .internalNl,false,.lblank⟩⟩] (.node (.node (.node (.node .leaf 1961189396 [⟨⟨(.inside 3),[42],.lblank,false,[],false⟩,false,false,[],some 4,some ⟨.code,[47],.lcomment,false,[],false⟩,some ([(42,(.other,false))],false),true,false,false,none,false,⟨.lcomment,some .internalNl,false,.lblank⟩⟩] .leaf) 1962398264 [⟨⟨(.inside 3),[42],.lblank,false,[],false⟩,false,false,[],some 4,some ⟨.code,[47],.lblank,false,[],false⟩,some ([(42,(.other,false))],false),true,false,false,none,false,⟨.lcomment,some .internalNl,false,.lblank⟩⟩] .leaf) 1974398509 [⟨⟨(.inside 3),[42],.lblank,false,[],false⟩,false,false,[],some 4,some ⟨.code,[47],.lcode,false,[(4,0)],false⟩,some ([(42,(.other,false))],false),true,false,false,none,false,⟨.lcomment,some .internalNl,false,.lblank⟩⟩] (.node .leaf 1974399278 [⟨⟨(.inside 3),[42],.lblank,false,[],false⟩,false,false,[],some 4,some ⟨.code,[47],.lcode,false,[(4,1)],false⟩,some ([(42,(.other,false))],false),true,false,false,none,false,⟨.lcomment,some .internalNl,false,.lblank⟩⟩] .leaf)) 172916047004 [⟨⟨(.inside 3),[42],.lcode,false,[(4,0)],false⟩,false,false,[],some 4,some ⟨.code,[47],.lcode,false,[(4,0)],false⟩,some ([(42,(.other,false))],false),false,false,false,none,false,⟨.lcode,some (.own 3),false,.lblank⟩⟩] (.node (.node .leaf 172916047773 [⟨⟨(.inside 3),[42],.lcode,false,[(4,0)],false⟩,false,false,[],some 4,some ⟨.code,[47],.lcode,false,[(4,1)],false⟩,some ([(42,(.other,false))],false),false,false,false,none,false,⟨.lcode,some (.own 3),false,.lblank⟩⟩] .leaf) 172916059293 [⟨⟨(.inside 3),[42],.lcode,false,[(4,1)],false⟩,false,false,[],some 4,some ⟨.code,[47],.lcode,false,[(4,0)],false⟩,some ([(42,(.other,false))],false),false,false,false,none,false,⟨.lcode,some (.own 3),false,.lblank⟩⟩] (.node .leaf 172916060062 [⟨⟨(.inside 3),[42],.lcode,false,[(4,1)],false⟩,false,false,[],some 4,some ⟨.code,[47],.lcode,false,[(4,1)],false⟩,some ([(42,(.other,false))],false),false,false,false,none,false,⟨.lcode,some (.own 3),false,.lblank⟩⟩] .leaf)))),(.node (.node (.node (.node .leaf 616177858 [⟨⟨(.inside 3),[],.lcode,true,[],false⟩,false,false,[],some 4,some ⟨.code,[47],.lcode,false,[],false⟩,some ([(42,(.other,false))],false),false,false,false,none,false,⟨.lcode,some (.own 3),false,.lblank⟩⟩] .leaf) 616325846 [⟨⟨(.inside 3),[],.lcomment,true,[],false⟩,false,false,[],some 4,some ⟨.code,[47],.lcode,false,[],false⟩,some ([(42,(.other,false))],false),true,false,false,none,false,⟨.lcomment,some .internalNl,false,.lblank⟩⟩] (.node .leaf 616473826 [⟨⟨(.inside 3),[],.lblank,true,[],false⟩,false,false,[],some 4,some ⟨.code,[47],.lcode,false,[],false⟩,some ([(42,(.other,false))],false),true,false,false,none,false,⟨.lblank,some .internalNl,false,.lblank⟩⟩] .leaf)) 617534706 [⟨⟨(.inside 3),[],.lcomment,true,[],false⟩,false,false,[],some 4,some ⟨.code,[47],.lcomment,false,[],false⟩,some ([(42,(.other,false))],false),false,false,false,none,false,⟨.lcomment,some (.own 3),false,.lblank⟩⟩] (.node (.node .leaf 617534714 [⟨⟨(.inside 3),[],.lcomment,true,[],false⟩,false,false,[],some 4,some ⟨.code,[47],.lcomment,false,[],false⟩,some ([(42,(.other,false))],false),true,false,false,none,false,⟨.lcomment,some .internalNl,false,.lblank⟩⟩] .leaf) 617682694 [⟨⟨(.inside 3),[],.lblank,true,[],false⟩,false,false,[],some 4,some ⟨.code,[47],.lcomment,false,[],false⟩,some ([(42,(.other,false))],false),true,false,false,none,false,⟨.lblank,some .internalNl,false,.lblank⟩⟩] (.node .leaf 618743574 [⟨⟨(.inside 3),[],.lcomment,true,[],false⟩,false,false,[],some 4,some ⟨.code,[47],.lblank,false,[],false⟩,some ([(42,(.other,false))],false),false,false,false,none,false,⟨.lcomment,some (.own 3),false,.lblank⟩⟩] .leaf))) 618743582 [⟨⟨(.inside 3),[],.lcomment,true,[],false⟩,false,false,[],some 4,some ⟨.code,[47],.lblank,false,[],false⟩,some ([(42,(.other,false))],false),true,false,false,none,false,⟨.lcomment,some .internalNl,false,.lblank⟩⟩] (.node (.node (.node .leaf 618891562 [⟨⟨(.inside 3),[],.lblank,true,[],false⟩,false,false,[],some 4,some ⟨.code,[47],.lblank,false,[],false⟩,some ([(42,(.other,false))],false),true,false,false,none,false,⟨.lblank,some .internalNl,false,.lblank⟩⟩] .leaf) 630595839 [⟨⟨(.inside 3),[],.lcode,true,[],false⟩,false,false,[],some 4,some ⟨.code,[47],.lcode,false,[(4,0)],false⟩,some ([(42,(.other,false))],false),false,false,false,none,false,⟨.lcode,some (.own 3),false,.lblank⟩⟩] (.node .leaf 630596608 [⟨⟨(.inside 3),[],.lcode,true,[],false⟩,false,false,[],some 4,some ⟨.code,[47],.lcode,false,[(4,1)],false⟩,some ([(42,(.other,false))],false),false,false,false,none,false,⟨.lcode,some (.own 3),false,.lblank⟩⟩] .leaf)) 630743827 [⟨⟨(.inside 3),[],.lcomment,true,[],false⟩,false,false,[],some 4,some ⟨.code,[47],.lcode,false,[(4,0)],false⟩,some ([(42,(.other,false))],false),true,false,false,none,false,⟨.lcomment,some .internalNl,false,.lblank⟩⟩] (.node (.node .leaf 630744596 [⟨⟨(.inside 3),[],.lcomment,true,[],false⟩,false,false,[],some 4,some ⟨.code,[47],.lcode,false,[(4,1)],false⟩,some ([(42,(.other,false))],false),true,false,false,none,false,⟨.lcomment,some .internalNl,false,.lblank⟩⟩] .leaf) 630891807 [⟨⟨(.inside 3),[],.lblank,true,[],false⟩,false,false,[],some 4,some ⟨.code,[47],.lcode,false,[(4,0)],false⟩,some ([(42,(.other,false))],false),true,false,false,none,false,⟨.lblank,some .internalNl,false,.lblank⟩⟩] (.node .leaf 630892576 [⟨⟨(.inside 3),[],.lblank,true,[],false⟩,false,false,[],some 4,some ⟨.code,[47],.lcode,false,[(4,1)],false⟩,some ([(42,(.other,false))],false),true,false,false,none,false,⟨.lblank,some .internalNl,false,.lblank⟩⟩] .leaf)))),.leaf]
theorem livecode_line_lClosed : CA.closedF livecode_line_M livecode_line_lex true false livecode_line_lfr livecode_line_lTab = true := by decide +kernel
def livecode_line_L : LCert LexisTable.livecode_line livecode_line_M := livecode_line_lex_eq ▸ ⟨⟨livecode_line_lmasks, livecode_line_lex.rel, livecode_line_lcs, livecode_line_lrows, livecode_line_lmasksIn, livecode_line_lrepOk, livecode_line_lrowsOk⟩,
  _, rfl, by decide +kernel, by decide +kernel, true, false, CA.closed_of livecode_line_lfrOk livecode_line_lClosed⟩
theorem livecode_line_L_chk : livecode_line_L.chk = true := by
  have : ∀ (l : Lexis) (h : LexisTable.livecode_line = l) (C : LCert l livecode_line_M), (h ▸ C : LCert LexisTable.livecode_line livecode_line_M).chk = C.chk := by rintro _ rfl _; rfl
  exact this _ livecode_line_lex_eq _

def metafont_line_lex : Lexis := [⟨[37],[],.lcomment,false,false,false,true,false,false,true,false,none,false,false,false,false,[]⟩,⟨[34],[[34]],.lcode,false,true,true,true,false,false,true,false,none,false,false,false,false,[]⟩]
theorem metafont_line_lex_eq : LexisTable.metafont_line = metafont_line_lex := by decide +kernel
def metafont_line_lmasks : List Nat := [4294967808,137438953472,17179869184,8192,1024,4096,115792089237316195423570985008687907853269984665640564039457584007908834656767,115792089237316195423570985008687907853269984665640564039457584007913129626623,115792089237316195423570985008687907853269984665635612279300442486796353260543,4951760157141521099596496896]
def metafont_line_lcs : List (Nat × Nat) := [(0,115792089237316195423570985008687907853269984665635612279300442486654619337215),(9,4294967808),(10,1024),(11,2048),(12,4096),(13,8192),(34,17179869184),(37,137438953472),(92,4951760157141521099596496896)]
theorem metafont_line_lmasksIn : masksIn metafont_line_nfa metafont_line_lmasks = true := by decide +kernel
theorem metafont_line_lrepOk : repOk metafont_line_lmasks metafont_line_lcs = true := by decide +kernel
def metafont_line_lrows : List Row := [⟨[],none,[],[⟨0,.other,false,some ⟨0,[.setEnt (.own 3)],some 4,true⟩⟩,⟨9,.ws,false,some ⟨1,[.setEnt (.own 0)],some 0,false⟩⟩,⟨10,.lf,false,some ⟨0,[.setEnt .newline],some 3,true⟩⟩,⟨11,.vt,false,none⟩,⟨12,.ff,false,some ⟨0,[.setEnt .newline],some 3,true⟩⟩,⟨13,.cr,false,some ⟨2,[.setEnt .newline],none,false⟩⟩,⟨13,.cr,true,some ⟨3,[.setEnt .newline],some 3,false⟩⟩,⟨34,.other,false,some ⟨4,[.code,.setEnt (.own 3)],some 4,false⟩⟩,⟨37,.other,false,some ⟨5,[.fhold 0,.comment,.setEnt (.own 3)],some 1,false⟩⟩,⟨92,.other,false,some ⟨0,[.setEnt (.own 3)],some 4,true⟩⟩]⟩,⟨[0],some 0,[],[⟨0,.other,false,none⟩,⟨9,.ws,false,some ⟨1,[.setEnt (.own 0)],some 0,false⟩⟩,⟨10,.lf,false,none⟩,⟨11,.vt,false,none⟩,⟨12,.ff,false,none⟩,⟨13,.cr,false,none⟩,⟨13,.cr,true,none⟩,⟨34,.other,false,none⟩,⟨37,.other,false,none⟩,⟨92,.other,false,none⟩]⟩,⟨[8],none,[],[⟨0,.other,false,none⟩,⟨9,.ws,false,none⟩,⟨10,.lf,false,some ⟨0,[.setEnt .newline],some 3,true⟩⟩,⟨11,.vt,false,none⟩,⟨12,.ff,false,none⟩,⟨13,.cr,false,none⟩,⟨13,.cr,true,none⟩,⟨34,.other,false,none⟩,⟨37,.other,false,none⟩,⟨92,.other,false,none⟩]⟩,⟨[8,12],some 3,[],[⟨0,.other,false,none⟩,⟨9,.ws,false,none⟩,⟨10,.lf,false,some ⟨0,[.setEnt .newline],some 3,true⟩⟩,⟨11,.vt,false,none⟩,⟨12,.ff,false,none⟩,⟨13,.cr,false,none⟩,⟨13,.cr,true,none⟩,⟨34,.other,false,none⟩,⟨37,.other,false,none⟩,⟨92,.other,false,none⟩]⟩,⟨[3,13],some 4,[],[⟨0,.other,false,some ⟨6,[],none,false⟩⟩,⟨9,.ws,false,some ⟨6,[],none,false⟩⟩,⟨10,.lf,false,none⟩,⟨11,.vt,false,some ⟨6,[],none,false⟩⟩,⟨12,.ff,false,none⟩,⟨13,.cr,false,none⟩,⟨13,.cr,true,none⟩,⟨34,.other,false,some ⟨0,[],some 2,true⟩⟩,⟨37,.other,false,some ⟨6,[],none,false⟩⟩,⟨92,.other,false,some ⟨7,[],none,false⟩⟩]⟩,⟨[1,13],some 1,[],[⟨0,.other,false,some ⟨8,[],some 1,false⟩⟩,⟨9,.ws,false,some ⟨8,[],some 1,false⟩⟩,⟨10,.lf,false,none⟩,⟨11,.vt,false,some ⟨8,[],some 1,false⟩⟩,⟨12,.ff,false,none⟩,⟨13,.cr,false,none⟩,⟨13,.cr,true,none⟩,⟨34,.other,false,some ⟨8,[],some 1,false⟩⟩,⟨37,.other,false,some ⟨8,[],some 1,false⟩⟩,⟨92,.other,false,some ⟨8,[],some 1,false⟩⟩]⟩,⟨[4],none,[],[⟨0,.other,false,some ⟨6,[],none,false⟩⟩,⟨9,.ws,false,some ⟨6,[],none,false⟩⟩,⟨10,.lf,false,none⟩,⟨11,.vt,false,some ⟨6,[],none,false⟩⟩,⟨12,.ff,false,none⟩,⟨13,.cr,false,none⟩,⟨13,.cr,true,none⟩,⟨34,.other,false,some ⟨0,[],some 2,true⟩⟩,⟨37,.other,false,some ⟨6,[],none,false⟩⟩,⟨92,.other,false,some ⟨7,[],none,false⟩⟩]⟩,⟨[5],none,[],[⟨0,.other,false,some ⟨9,[],none,false⟩⟩,⟨9,.ws,false,some ⟨9,[],none,false⟩⟩,⟨10,.lf,false,none⟩,⟨11,.vt,false,some ⟨9,[],none,false⟩⟩,⟨12,.ff,false,none⟩,⟨13,.cr,false,none⟩,⟨13,.cr,true,none⟩,⟨34,.other,false,some ⟨9,[],none,false⟩⟩,⟨37,.other,false,some ⟨9,[],none,false⟩⟩,⟨92,.other,false,some ⟨9,[],none,false⟩⟩]⟩,⟨[2],some 1,[],[⟨0,.other,false,some ⟨8,[],some 1,false⟩⟩,⟨9,.ws,false,some ⟨8,[],some 1,false⟩⟩,⟨10,.lf,false,none⟩,⟨11,.vt,false,some ⟨8,[],some 1,false⟩⟩,⟨12,.ff,false,none⟩,⟨13,.cr,false,none⟩,⟨13,.cr,true,none⟩,⟨34,.other,false,some ⟨8,[],some 1,false⟩⟩,⟨37,.other,false,some ⟨8,[],some 1,false⟩⟩,⟨92,.other,false,some ⟨8,[],some 1,false⟩⟩]⟩,⟨[6],none,[],[⟨0,.other,false,some ⟨6,[],none,false⟩⟩,⟨9,.ws,false,some ⟨6,[],none,false⟩⟩,⟨10,.lf,false,none⟩,⟨11,.vt,false,some ⟨6,[],none,false⟩⟩,⟨12,.ff,false,none⟩,⟨13,.cr,false,none⟩,⟨13,.cr,true,none⟩,⟨34,.other,false,some ⟨0,[],some 2,true⟩⟩,⟨37,.other,false,some ⟨6,[],none,false⟩⟩,⟨92,.other,false,some ⟨7,[],none,false⟩⟩]⟩]
theorem metafont_line_lrowsOk : rowsOk metafont_line_nfa metafont_line_lex.rel (metafont_line_lcs.map (·.1)) metafont_line_lrows = true := by decide +kernel
def metafont_line_lfr : List CA.FRow := [⟨true,none,[],[⟨256,.other,false,false,none,some ([.setEnt (.own 3)],(some 4,true))⟩,⟨9,.ws,false,false,some 1,some ([.setEnt (.own 0)],(some 0,false))⟩,⟨10,.lf,false,true,none,some ([.setEnt .newline],(some 3,true))⟩,⟨11,.vt,false,false,none,none⟩,⟨12,.ff,false,true,none,some ([.setEnt .newline],(some 3,true))⟩,⟨13,.cr,false,false,some 2,some ([.setEnt .newline],(none,false))⟩,⟨13,.cr,true,true,some 3,some ([.setEnt .newline],(some 3,false))⟩,⟨34,.other,false,false,some 4,some ([.code,.setEnt (.own 3)],(some 4,false))⟩,⟨37,.other,false,false,some 5,some ([.fhold 0,.comment,.setEnt (.own 3)],(some 1,false))⟩,⟨92,.other,false,false,none,some ([.setEnt (.own 3)],(some 4,true))⟩]⟩,⟨false,some 0,[],[⟨256,.other,false,false,none,none⟩,⟨9,.ws,false,false,some 1,some ([.setEnt (.own 0)],(some 0,false))⟩,⟨10,.lf,false,true,none,none⟩,⟨11,.vt,false,false,none,none⟩,⟨12,.ff,false,true,none,none⟩,⟨13,.cr,false,false,none,none⟩,⟨13,.cr,true,true,none,none⟩,⟨34,.other,false,false,none,none⟩,⟨37,.other,false,false,none,none⟩,⟨92,.other,false,false,none,none⟩]⟩,⟨false,none,[],[⟨256,.other,false,false,none,none⟩,⟨9,.ws,false,false,none,none⟩,⟨10,.lf,false,true,none,some ([.setEnt .newline],(some 3,true))⟩,⟨11,.vt,false,false,none,none⟩,⟨12,.ff,false,true,none,none⟩,⟨13,.cr,false,false,none,none⟩,⟨13,.cr,true,true,none,none⟩,⟨34,.other,false,false,none,none⟩,⟨37,.other,false,false,none,none⟩,⟨92,.other,false,false,none,none⟩]⟩,⟨false,some 3,[],[⟨256,.other,false,false,none,none⟩,⟨9,.ws,false,false,none,none⟩,⟨10,.lf,false,true,none,some ([.setEnt .newline],(some 3,true))⟩,⟨11,.vt,false,false,none,none⟩,⟨12,.ff,false,true,none,none⟩,⟨13,.cr,false,false,none,none⟩,⟨13,.cr,true,true,none,none⟩,⟨34,.other,false,false,none,none⟩,⟨37,.other,false,false,none,none⟩,⟨92,.other,false,false,none,none⟩]⟩,⟨false,some 4,[],[⟨256,.other,false,false,some 6,some ([],(none,false))⟩,⟨9,.ws,false,false,some 6,some ([],(none,false))⟩,⟨10,.lf,false,true,none,none⟩,⟨11,.vt,false,false,some 6,some ([],(none,false))⟩,⟨12,.ff,false,true,none,none⟩,⟨13,.cr,false,false,none,none⟩,⟨13,.cr,true,true,none,none⟩,⟨34,.other,false,false,none,some ([],(some 2,true))⟩,⟨37,.other,false,false,some 6,some ([],(none,false))⟩,⟨92,.other,false,false,some 7,some ([],(none,false))⟩]⟩,⟨false,some 1,[],[⟨256,.other,false,false,some 8,some ([],(some 1,false))⟩,⟨9,.ws,false,false,some 8,some ([],(some 1,false))⟩,⟨10,.lf,false,true,none,none⟩,⟨11,.vt,false,false,some 8,some ([],(some 1,false))⟩,⟨12,.ff,false,true,none,none⟩,⟨13,.cr,false,false,none,none⟩,⟨13,.cr,true,true,none,none⟩,⟨34,.other,false,false,some 8,some ([],(some 1,false))⟩,⟨37,.other,false,false,some 8,some ([],(some 1,false))⟩,⟨92,.other,false,false,some 8,some ([],(some 1,false))⟩]⟩,⟨false,none,[],[⟨256,.other,false,false,some 6,some ([],(none,false))⟩,⟨9,.ws,false,false,some 6,some ([],(none,false))⟩,⟨10,.lf,false,true,none,none⟩,⟨11,.vt,false,false,some 6,some ([],(none,false))⟩,⟨12,.ff,false,true,none,none⟩,⟨13,.cr,false,false,none,none⟩,⟨13,.cr,true,true,none,none⟩,⟨34,.other,false,false,none,some ([],(some 2,true))⟩,⟨37,.other,false,false,some 6,some ([],(none,false))⟩,⟨92,.other,false,false,some 7,some ([],(none,false))⟩]⟩,⟨false,none,[],[⟨256,.other,false,false,some 9,some ([],(none,false))⟩,⟨9,.ws,false,false,some 9,some ([],(none,false))⟩,⟨10,.lf,false,true,none,none⟩,⟨11,.vt,false,false,some 9,some ([],(none,false))⟩,⟨12,.ff,false,true,none,none⟩,⟨13,.cr,false,false,none,none⟩,⟨13,.cr,true,true,none,none⟩,⟨34,.other,false,false,some 9,some ([],(none,false))⟩,⟨37,.other,false,false,some 9,some ([],(none,false))⟩,⟨92,.other,false,false,some 9,some ([],(none,false))⟩]⟩,⟨false,some 1,[],[⟨256,.other,false,false,some 8,some ([],(some 1,false))⟩,⟨9,.ws,false,false,some 8,some ([],(some 1,false))⟩,⟨10,.lf,false,true,none,none⟩,⟨11,.vt,false,false,some 8,some ([],(some 1,false))⟩,⟨12,.ff,false,true,none,none⟩,⟨13,.cr,false,false,none,none⟩,⟨13,.cr,true,true,none,none⟩,⟨34,.other,false,false,some 8,some ([],(some 1,false))⟩,⟨37,.other,false,false,some 8,some ([],(some 1,false))⟩,⟨92,.other,false,false,some 8,some ([],(some 1,false))⟩]⟩,⟨false,none,[],[⟨256,.other,false,false,some 6,some ([],(none,false))⟩,⟨9,.ws,false,false,some 6,some ([],(none,false))⟩,⟨10,.lf,false,true,none,none⟩,⟨11,.vt,false,false,some 6,some ([],(none,false))⟩,⟨12,.ff,false,true,none,none⟩,⟨13,.cr,false,false,none,none⟩,⟨13,.cr,true,true,none,none⟩,⟨34,.other,false,false,none,some ([],(some 2,true))⟩,⟨37,.other,false,false,some 6,some ([],(none,false))⟩,⟨92,.other,false,false,some 7,some ([],(none,false))⟩]⟩]
theorem metafont_line_lfrOk : metafont_line_lrows.map (CA.prep metafont_line_lex) = metafont_line_lfr := by decide +kernel
def metafont_line_lTab : List CT := [(.node (.node (.node (.node (.node .leaf 128 [⟨⟨.code,[],.lcode,false,[],false⟩,false,false,[],none,none,none,false,false,false,none,false,⟨.lcode,none,false,.lblank⟩⟩] .leaf) 38019 [⟨⟨.code,[],.lcode,true,[],false⟩,false,false,[],none,none,none,false,false,false,none,false,⟨.lblank,none,false,.lblank⟩⟩] (.node .leaf 98440 [⟨⟨.code,[],.lcode,false,[(1,0)],false⟩,false,false,[],none,none,none,false,false,false,none,false,⟨.lcode,none,false,.lblank⟩⟩] .leaf)) 110729 [⟨⟨.code,[],.lcode,false,[(1,1)],false⟩,false,false,[],none,none,none,false,false,false,none,false,⟨.lcode,none,false,.lblank⟩⟩] (.node (.node .leaf 185487 [⟨⟨.code,[],.lcomment,true,[],false⟩,false,false,[],none,none,none,false,false,false,none,false,⟨.lblank,none,false,.lblank⟩⟩] .leaf) 296088 [⟨⟨.code,[],.lblank,false,[],false⟩,false,false,[],none,none,none,false,false,false,none,false,⟨.lblank,none,false,.lblank⟩⟩] .leaf)) 332955 [⟨⟨.code,[],.lblank,true,[],false⟩,false,false,[],none,none,none,false,false,false,none,false,⟨.lblank,none,false,.lblank⟩⟩] (.node (.node (.node .leaf 1179872 [⟨⟨(.inside 0),[],.lcode,false,[],false⟩,false,false,[none],none,none,none,false,false,false,none,false,⟨.lcode,none,false,.lblank⟩⟩] .leaf) 1327852 [⟨⟨(.inside 0),[],.lcomment,false,[],false⟩,false,false,[none],none,none,none,false,false,false,none,false,⟨.lcomment,none,false,.lblank⟩⟩] (.node .leaf 22179935 [⟨⟨(.inside 0),[],.lcode,false,[],false⟩,false,false,[some (10,(.lf,false))],none,none,none,false,false,false,none,false,⟨.lcode,none,false,.lblank⟩⟩] .leaf)) 22327915 [⟨⟨(.inside 0),[],.lcomment,false,[],false⟩,false,false,[some (10,(.lf,false))],none,none,none,false,false,false,none,false,⟨.lcomment,none,false,.lblank⟩⟩] (.node (.node .leaf 26179947 [⟨⟨(.inside 0),[],.lcode,false,[],false⟩,false,false,[some (12,(.ff,false))],none,none,none,false,false,false,none,false,⟨.lcode,none,false,.lblank⟩⟩] .leaf) 26327927 [⟨⟨(.inside 0),[],.lcomment,false,[],false⟩,false,false,[some (12,(.ff,false))],none,none,none,false,false,false,none,false,⟨.lcomment,none,false,.lblank⟩⟩] .leaf))) 28179953 [⟨⟨(.inside 0),[],.lcode,false,[],false⟩,false,false,[some (13,(.cr,false))],none,none,none,false,false,false,none,false,⟨.lcode,none,false,.lblank⟩⟩] (.node (.node (.node (.node .leaf 28327933 [⟨⟨(.inside 0),[],.lcomment,false,[],false⟩,false,false,[some (13,(.cr,false))],none,none,none,false,false,false,none,false,⟨.lcomment,none,false,.lblank⟩⟩] .leaf) 29179956 [⟨⟨(.inside 0),[],.lcode,false,[],false⟩,false,false,[some (13,(.cr,true))],none,none,none,false,false,false,none,false,⟨.lcode,none,false,.lblank⟩⟩] (.node .leaf 29327936 [⟨⟨(.inside 0),[],.lcomment,false,[],false⟩,false,false,[some (13,(.cr,true))],none,none,none,false,false,false,none,false,⟨.lcomment,none,false,.lblank⟩⟩] .leaf)) 154644904 [⟨⟨(.inside 0),[],.lcode,false,[(1,0)],false⟩,false,false,[none],none,none,none,false,false,false,none,false,⟨.lcode,none,false,.lblank⟩⟩] (.node (.node .leaf 154657193 [⟨⟨(.inside 0),[],.lcode,false,[(1,1)],false⟩,false,false,[none],none,none,none,false,false,false,none,false,⟨.lcode,none,false,.lblank⟩⟩] .leaf) 175644967 [⟨⟨(.inside 0),[],.lcode,false,[(1,0)],false⟩,false,false,[some (10,(.lf,false))],none,none,none,false,false,false,none,false,⟨.lcode,none,false,.lblank⟩⟩] .leaf)) 175657256 [⟨⟨(.inside 0),[],.lcode,false,[(1,1)],false⟩,false,false,[some (10,(.lf,false))],none,none,none,false,false,false,none,false,⟨.lcode,none,false,.lblank⟩⟩] (.node (.node (.node .leaf 179644979 [⟨⟨(.inside 0),[],.lcode,false,[(1,0)],false⟩,false,false,[some (12,(.ff,false))],none,none,none,false,false,false,none,false,⟨.lcode,none,false,.lblank⟩⟩] .leaf) 179657268 [⟨⟨(.inside 0),[],.lcode,false,[(1,1)],false⟩,false,false,[some (12,(.ff,false))],none,none,none,false,false,false,none,false,⟨.lcode,none,false,.lblank⟩⟩] (.node .leaf 181644985 [⟨⟨(.inside 0),[],.lcode,false,[(1,0)],false⟩,false,false,[some (13,(.cr,false))],none,none,none,false,false,false,none,false,⟨.lcode,none,false,.lblank⟩⟩] .leaf)) 181657274 [⟨⟨(.inside 0),[],.lcode,false,[(1,1)],false⟩,false,false,[some (13,(.cr,false))],none,none,none,false,false,false,none,false,⟨.lcode,none,false,.lblank⟩⟩] (.node (.node .leaf 182644988 [⟨⟨(.inside 0),[],.lcode,false,[(1,0)],false⟩,false,false,[some (13,(.cr,true))],none,none,none,false,false,false,none,false,⟨.lcode,none,false,.lblank⟩⟩] .leaf) 182657277 [⟨⟨(.inside 0),[],.lcode,false,[(1,1)],false⟩,false,false,[some (13,(.cr,true))],none,none,none,false,false,false,none,false,⟨.lcode,none,false,.lblank⟩⟩] .leaf)))),(.node (.node .leaf 128 [⟨⟨.code,[],.lcode,false,[],false⟩,false,false,[],none,none,none,false,false,false,none,false,⟨.lcode,some (.own 0),false,.lblank⟩⟩] .leaf) 98440 [⟨⟨.code,[],.lcode,false,[(1,0)],false⟩,false,false,[],none,none,none,false,false,false,none,false,⟨.lcode,some (.own 0),false,.lblank⟩⟩] (.node .leaf 296088 [⟨⟨.code,[],.lblank,false,[],false⟩,false,false,[],none,none,none,false,false,false,none,false,⟨.lblank,some (.own 0),false,.lblank⟩⟩] .leaf)),(.node (.node .leaf 160 [⟨⟨.code,[],.lcode,false,[],false⟩,true,false,[],none,none,none,false,false,false,none,false,⟨.lcode,some .newline,false,.lblank⟩⟩] .leaf) 148140 [⟨⟨.code,[],.lcomment,false,[],false⟩,true,false,[],none,none,none,false,false,false,none,false,⟨.lcomment,some .newline,false,.lblank⟩⟩] (.node .leaf 296120 [⟨⟨.code,[],.lblank,false,[],false⟩,true,false,[],none,none,none,false,false,false,none,false,⟨.lblank,some .newline,false,.lblank⟩⟩] .leaf)),(.node (.node .leaf 37011 [⟨⟨.code,[],.lcode,true,[],false⟩,false,true,[],none,none,none,false,false,false,none,false,⟨.lcode,some .newline,false,.lblank⟩⟩] .leaf) 184991 [⟨⟨.code,[],.lcomment,true,[],false⟩,false,true,[],none,none,none,false,false,false,none,false,⟨.lcomment,some .newline,false,.lblank⟩⟩] (.node .leaf 332971 [⟨⟨.code,[],.lblank,true,[],false⟩,false,true,[],none,none,none,false,false,false,none,false,⟨.lblank,some .newline,false,.lblank⟩⟩] .leaf)),(.node (.node (.node .leaf 98440 [⟨⟨.code,[],.lcode,false,[(1,0)],false⟩,false,false,[],none,none,none,false,false,false,none,false,⟨.lcode,some (.own 3),false,.lblank⟩⟩] .leaf) 98444 [⟨⟨.code,[],.lcode,false,[(1,0)],false⟩,false,false,[],none,none,none,false,true,false,none,false,⟨.lcode,some (.own 3),false,.lblank⟩⟩] .leaf) 4129232 [⟨⟨(.inside 1),[],.lcode,false,[],false⟩,false,false,[],none,none,none,false,false,false,none,false,⟨.lcode,some (.own 3),false,.lblank⟩⟩] (.node .leaf 541011064 [⟨⟨(.inside 1),[],.lcode,false,[(1,0)],false⟩,false,false,[],none,none,none,false,false,false,none,false,⟨.lcode,some (.own 3),false,.lblank⟩⟩] .leaf)),(.node (.node (.node .leaf 75000354 [⟨⟨.code,[],.lcode,false,[],false⟩,false,false,[some (37,(.other,false))],none,none,none,false,false,false,none,true,⟨.lcode,some (.own 3),false,.lblank⟩⟩] .leaf) 75037733 [⟨⟨.code,[],.lcode,true,[],false⟩,false,false,[some (37,(.other,false))],none,none,none,false,false,false,none,true,⟨.lcomment,some (.own 3),false,.lblank⟩⟩] (.node .leaf 75098666 [⟨⟨.code,[],.lcode,false,[(1,0)],false⟩,false,false,[some (37,(.other,false))],none,none,none,false,false,false,none,true,⟨.lcode,some (.own 3),false,.lblank⟩⟩] .leaf)) 75110955 [⟨⟨.code,[],.lcode,false,[(1,1)],false⟩,false,false,[some (37,(.other,false))],none,none,none,false,false,false,none,true,⟨.lcode,some (.own 3),false,.lblank⟩⟩] (.node (.node .leaf 75185201 [⟨⟨.code,[],.lcomment,true,[],false⟩,false,false,[some (37,(.other,false))],none,none,none,false,false,false,none,true,⟨.lcomment,some (.own 3),false,.lblank⟩⟩] .leaf) 75295802 [⟨⟨.code,[],.lblank,false,[],false⟩,false,false,[some (37,(.other,false))],none,none,none,false,false,false,none,true,⟨.lcomment,some (.own 3),false,.lblank⟩⟩] (.node .leaf 75332669 [⟨⟨.code,[],.lblank,true,[],false⟩,false,false,[some (37,(.other,false))],none,none,none,false,false,false,none,true,⟨.lcomment,some (.own 3),false,.lblank⟩⟩] .leaf))),(.node (.node (.node .leaf 105077 [⟨⟨.code,[],.lcode,false,[(1,0)],false⟩,false,false,[],some 4,some ⟨.code,[],.lcode,false,[(1,0)],false⟩,none,false,false,false,none,false,⟨.lcode,some (.own 3),false,.lblank⟩⟩] .leaf) 4388101 [⟨⟨(.inside 1),[],.lcode,false,[],false⟩,false,false,[],some 4,some ⟨(.inside 1),[],.lcode,false,[],false⟩,none,false,false,false,none,false,⟨.lcode,some (.own 3),false,.lblank⟩⟩] (.node .leaf 48400851 [⟨⟨.code,[],.lblank,false,[(1,0)],true⟩,false,false,[],some 4,some ⟨.code,[],.lcode,false,[(1,0)],false⟩,none,false,true,false,none,false,⟨.lcode,some (.own 3),false,.lblank⟩⟩] .leaf)) 154651541 [⟨⟨(.inside 0),[],.lcode,false,[(1,0)],false⟩,false,false,[],some 4,some ⟨.code,[],.lcode,false,[(1,0)],false⟩,none,false,false,false,none,false,⟨.lcode,some (.own 3),false,.lblank⟩⟩] (.node (.node .leaf 541017701 [⟨⟨(.inside 1),[],.lcode,false,[(1,0)],false⟩,false,false,[],some 4,some ⟨.code,[],.lcode,false,[(1,0)],false⟩,none,false,false,false,none,false,⟨.lcode,some (.own 3),false,.lblank⟩⟩] .leaf) 574866005 [⟨⟨(.inside 1),[],.lcode,false,[(1,0)],false⟩,false,false,[],some 4,some ⟨(.inside 1),[],.lcode,false,[(1,0)],false⟩,none,false,false,false,none,false,⟨.lcode,some (.own 3),false,.lblank⟩⟩] .leaf)),(.node (.node (.node .leaf 117366 [⟨⟨.code,[],.lcode,false,[(1,1)],false⟩,false,false,[],some 4,some ⟨.code,[],.lcode,false,[(1,0)],false⟩,none,false,false,false,none,false,⟨.lcode,some (.own 3),false,.lblank⟩⟩] .leaf) 48413140 [⟨⟨.code,[],.lblank,false,[(1,1)],true⟩,false,false,[],some 4,some ⟨.code,[],.lcode,false,[(1,0)],false⟩,none,false,true,false,none,false,⟨.lcode,some (.own 3),false,.lblank⟩⟩] (.node .leaf 154663830 [⟨⟨(.inside 0),[],.lcode,false,[(1,1)],false⟩,false,false,[],some 4,some ⟨.code,[],.lcode,false,[(1,0)],false⟩,none,false,false,false,none,false,⟨.lcode,some (.own 3),false,.lblank⟩⟩] .leaf)) 544600252 [⟨⟨(.inside 1),[92],.lcode,false,[],false⟩,false,false,[],some 4,some ⟨(.inside 1),[],.lcode,false,[],false⟩,none,false,false,false,none,false,⟨.lcode,some (.own 3),false,.lblank⟩⟩] (.node (.node .leaf 71308809482 [⟨⟨(.inside 1),[92],.lcode,false,[(1,0)],false⟩,false,false,[],some 4,some ⟨.code,[],.lcode,false,[(1,0)],false⟩,none,false,false,false,none,false,⟨.lcode,some (.own 3),false,.lblank⟩⟩] .leaf) 71342657786 [⟨⟨(.inside 1),[92],.lcode,false,[(1,0)],false⟩,false,false,[],some 4,some ⟨(.inside 1),[],.lcode,false,[(1,0)],false⟩,none,false,false,false,none,false,⟨.lcode,some (.own 3),false,.lblank⟩⟩] .leaf)),(.node (.node (.node .leaf 1179872 [⟨⟨(.inside 0),[],.lcode,false,[],false⟩,false,false,[],none,none,none,false,false,false,none,false,⟨.lcode,some (.own 3),false,.lblank⟩⟩] .leaf) 1327852 [⟨⟨(.inside 0),[],.lcomment,false,[],false⟩,false,false,[],none,none,none,false,false,false,none,false,⟨.lcomment,some (.own 3),false,.lblank⟩⟩] .leaf) 154644904 [⟨⟨(.inside 0),[],.lcode,false,[(1,0)],false⟩,false,false,[],none,none,none,false,false,false,none,false,⟨.lcode,some (.own 3),false,.lblank⟩⟩] (.node .leaf 154657193 [⟨⟨(.inside 0),[],.lcode,false,[(1,1)],false⟩,false,false,[],none,none,none,false,false,false,none,false,⟨.lcode,some (.own 3),false,.lblank⟩⟩] .leaf)),(.node (.node (.node .leaf 105077 [⟨⟨.code,[],.lcode,false,[(1,0)],false⟩,false,false,[],some 4,some ⟨.code,[],.lcode,false,[(1,0)],false⟩,none,false,false,false,none,false,⟨.lcode,some (.own 3),false,.lblank⟩⟩] .leaf) 4388101 [⟨⟨(.inside 1),[],.lcode,false,[],false⟩,false,false,[],some 4,some ⟨(.inside 1),[],.lcode,false,[],false⟩,none,false,false,false,none,false,⟨.lcode,some (.own 3),false,.lblank⟩⟩] (.node .leaf 48400851 [⟨⟨.code,[],.lblank,false,[(1,0)],true⟩,false,false,[],some 4,some ⟨.code,[],.lcode,false,[(1,0)],false⟩,none,false,true,false,none,false,⟨.lcode,some (.own 3),false,.lblank⟩⟩] .leaf)) 154651541 [⟨⟨(.inside 0),[],.lcode,false,[(1,0)],false⟩,false,false,[],some 4,some ⟨.code,[],.lcode,false,[(1,0)],false⟩,none,false,false,false,none,false,⟨.lcode,some (.own 3),false,.lblank⟩⟩] (.node (.node .leaf 541017701 [⟨⟨(.inside 1),[],.lcode,false,[(1,0)],false⟩,false,false,[],some 4,some ⟨.code,[],.lcode,false,[(1,0)],false⟩,none,false,false,false,none,false,⟨.lcode,some (.own 3),false,.lblank⟩⟩] .leaf) 574866005 [⟨⟨(.inside 1),[],.lcode,false,[(1,0)],false⟩,false,false,[],some 4,some ⟨(.inside 1),[],.lcode,false,[(1,0)],false⟩,none,false,false,false,none,false,⟨.lcode,some (.own 3),false,.lblank⟩⟩] .leaf))]
theorem metafont_line_lClosed : CA.closedF metafont_line_M metafont_line_lex false false metafont_line_lfr metafont_line_lTab = true := by decide +kernel
def metafont_line_L : LCert LexisTable.metafont_line metafont_line_M := metafont_line_lex_eq ▸ ⟨⟨metafont_line_lmasks, metafont_line_lex.rel, metafont_line_lcs, metafont_line_lrows, metafont_line_lmasksIn, metafont_line_lrepOk, metafont_line_lrowsOk⟩,
  _, rfl, by decide +kernel, by decide +kernel, false, false, CA.closed_of metafont_line_lfrOk metafont_line_lClosed⟩
theorem metafont_line_L_chk : metafont_line_L.chk = false := by
  have : ∀ (l : Lexis) (h : LexisTable.metafont_line = l) (C : LCert l metafont_line_M), (h ▸ C : LCert LexisTable.metafont_line metafont_line_M).chk = C.chk := by rintro _ rfl _; rfl
  exact this _ metafont_line_lex_eq _

def puppet_line_lex : Lexis := [⟨[35],[],.lcomment,false,false,false,true,false,false,true,false,none,false,false,false,false,[]⟩,⟨[47,42],[[42,47]],.lcode,true,false,false,true,false,false,true,false,some .lcomment,false,false,false,false,[]⟩,⟨[39],[[39]],.lcode,true,false,true,true,false,false,false,false,none,false,false,false,false,[]⟩]
theorem puppet_line_lex_eq : LexisTable.puppet_line = puppet_line_lex := by decide +kernel
def puppet_line_lmasks : List Nat := [4294967808,34359738368,140737488355328,549755813888,8192,1024,4096,115792089237316195423570985008687907853269984665640564039457584007908834656767,115792089237316195423570985008687907853269984665640564039457584007913129626623,4398046511104,115792089237316195423570985008687907853269984665640564039457584007908834658815,115792089237316195423570985008687907853269984665635612279300442486259482348031,4951760157141521099596496896]
def puppet_line_lcs : List (Nat × Nat) := [(0,115792089237316195423570985008687907853269984665635612279300442341089587741183),(9,4294967808),(10,1024),(11,2048),(12,4096),(13,8192),(35,34359738368),(39,549755813888),(42,4398046511104),(47,140737488355328),(92,4951760157141521099596496896)]
theorem puppet_line_lmasksIn : masksIn puppet_line_nfa puppet_line_lmasks = true := by decide +kernel
theorem puppet_line_lrepOk : repOk puppet_line_lmasks puppet_line_lcs = true := by decide +kernel
def puppet_line_lrows : List Row := [⟨[],none,[],[⟨256,.other,false,some ⟨0,[.setEnt (.own 3)],some 4,true⟩⟩,⟨256,.ws,false,some ⟨1,[.setEnt (.own 0)],some 0,false⟩⟩,⟨256,.lf,false,some ⟨0,[.setEnt .newline],some 3,true⟩⟩,⟨256,.vt,false,none⟩,⟨256,.ff,false,some ⟨0,[.setEnt .newline],some 3,true⟩⟩,⟨256,.cr,false,some ⟨2,[.setEnt .newline],none,false⟩⟩,⟨256,.cr,true,some ⟨3,[.setEnt .newline],some 3,false⟩⟩,⟨35,.other,false,some ⟨4,[.comment,.setEnt (.own 3)],some 1,false⟩⟩,⟨39,.other,false,some ⟨5,[.code,.setEnt (.own 3)],some 4,false⟩⟩,⟨42,.other,false,some ⟨0,[.setEnt (.own 3)],some 4,true⟩⟩,⟨47,.other,false,some ⟨6,[.setEnt (.own 3)],some 4,false⟩⟩,⟨92,.other,false,some ⟨0,[.setEnt (.own 3)],some 4,true⟩⟩]⟩,⟨[0],some 0,[],[⟨256,.other,false,none⟩,⟨256,.ws,false,some ⟨1,[.setEnt (.own 0)],some 0,false⟩⟩,⟨256,.lf,false,none⟩,⟨256,.vt,false,none⟩,⟨256,.ff,false,none⟩,⟨256,.cr,false,none⟩,⟨256,.cr,true,none⟩,⟨35,.other,false,none⟩,⟨39,.other,false,none⟩,⟨42,.other,false,none⟩,⟨47,.other,false,none⟩,⟨92,.other,false,none⟩]⟩,⟨[25],none,[],[⟨256,.other,false,none⟩,⟨256,.ws,false,none⟩,⟨256,.lf,false,some ⟨0,[.setEnt .newline],some 3,true⟩⟩,⟨256,.vt,false,none⟩,⟨256,.ff,false,none⟩,⟨256,.cr,false,none⟩,⟨256,.cr,true,none⟩,⟨35,.other,false,none⟩,⟨39,.other,false,none⟩,⟨42,.other,false,none⟩,⟨47,.other,false,none⟩,⟨92,.other,false,none⟩]⟩,⟨[25,29],some 3,[],[⟨256,.other,false,none⟩,⟨256,.ws,false,none⟩,⟨256,.lf,false,some ⟨0,[.setEnt .newline],some 3,true⟩⟩,⟨256,.vt,false,none⟩,⟨256,.ff,false,none⟩,⟨256,.cr,false,none⟩,⟨256,.cr,true,none⟩,⟨35,.other,false,none⟩,⟨39,.other,false,none⟩,⟨42,.other,false,none⟩,⟨47,.other,false,none⟩,⟨92,.other,false,none⟩]⟩,⟨[1,30],some 1,[],[⟨256,.other,false,some ⟨7,[],some 1,false⟩⟩,⟨256,.ws,false,some ⟨7,[],some 1,false⟩⟩,⟨256,.lf,false,none⟩,⟨256,.vt,false,some ⟨7,[],some 1,false⟩⟩,⟨256,.ff,false,none⟩,⟨256,.cr,false,none⟩,⟨256,.cr,true,none⟩,⟨35,.other,false,some ⟨7,[],some 1,false⟩⟩,⟨39,.other,false,some ⟨7,[],some 1,false⟩⟩,⟨42,.other,false,some ⟨7,[],some 1,false⟩⟩,⟨47,.other,false,some ⟨7,[],some 1,false⟩⟩,⟨92,.other,false,some ⟨7,[],some 1,false⟩⟩]⟩,⟨[14,30],some 4,[],[⟨256,.other,false,some ⟨8,[.code],none,false⟩⟩,⟨256,.ws,false,some ⟨9,[],none,false⟩⟩,⟨256,.lf,false,some ⟨10,[],none,false⟩⟩,⟨256,.vt,false,some ⟨8,[.code],none,false⟩⟩,⟨256,.ff,false,some ⟨11,[],none,false⟩⟩,⟨256,.cr,false,some ⟨12,[],none,false⟩⟩,⟨256,.cr,true,some ⟨13,[],none,false⟩⟩,⟨35,.other,false,some ⟨8,[.code],none,false⟩⟩,⟨39,.other,false,some ⟨0,[],some 2,true⟩⟩,⟨42,.other,false,some ⟨8,[.code],none,false⟩⟩,⟨47,.other,false,some ⟨8,[.code],none,false⟩⟩,⟨92,.other,false,some ⟨14,[],none,false⟩⟩]⟩,⟨[3,30],some 4,[],[⟨256,.other,false,none⟩,⟨256,.ws,false,none⟩,⟨256,.lf,false,none⟩,⟨256,.vt,false,none⟩,⟨256,.ff,false,none⟩,⟨256,.cr,false,none⟩,⟨256,.cr,true,none⟩,⟨35,.other,false,none⟩,⟨39,.other,false,none⟩,⟨42,.other,false,some ⟨15,[.comment],none,false⟩⟩,⟨47,.other,false,none⟩,⟨92,.other,false,none⟩]⟩,⟨[2],some 1,[],[⟨256,.other,false,some ⟨7,[],some 1,false⟩⟩,⟨256,.ws,false,some ⟨7,[],some 1,false⟩⟩,⟨256,.lf,false,none⟩,⟨256,.vt,false,some ⟨7,[],some 1,false⟩⟩,⟨256,.ff,false,none⟩,⟨256,.cr,false,none⟩,⟨256,.cr,true,none⟩,⟨35,.other,false,some ⟨7,[],some 1,false⟩⟩,⟨39,.other,false,some ⟨7,[],some 1,false⟩⟩,⟨42,.other,false,some ⟨7,[],some 1,false⟩⟩,⟨47,.other,false,some ⟨7,[],some 1,false⟩⟩,⟨92,.other,false,some ⟨7,[],some 1,false⟩⟩]⟩,⟨[21],none,[],[⟨256,.other,false,some ⟨8,[.code],none,false⟩⟩,⟨256,.ws,false,some ⟨9,[],none,false⟩⟩,⟨256,.lf,false,some ⟨10,[],none,false⟩⟩,⟨256,.vt,false,some ⟨8,[.code],none,false⟩⟩,⟨256,.ff,false,some ⟨11,[],none,false⟩⟩,⟨256,.cr,false,some ⟨12,[],none,false⟩⟩,⟨256,.cr,true,some ⟨13,[],none,false⟩⟩,⟨35,.other,false,some ⟨8,[.code],none,false⟩⟩,⟨39,.other,false,some ⟨0,[],some 2,true⟩⟩,⟨42,.other,false,some ⟨8,[.code],none,false⟩⟩,⟨47,.other,false,some ⟨8,[.code],none,false⟩⟩,⟨92,.other,false,some ⟨14,[],none,false⟩⟩]⟩,⟨[20],none,[],[⟨256,.other,false,some ⟨8,[.code],none,false⟩⟩,⟨256,.ws,false,some ⟨9,[],none,false⟩⟩,⟨256,.lf,false,some ⟨10,[],none,false⟩⟩,⟨256,.vt,false,some ⟨8,[.code],none,false⟩⟩,⟨256,.ff,false,some ⟨11,[],none,false⟩⟩,⟨256,.cr,false,some ⟨12,[],none,false⟩⟩,⟨256,.cr,true,some ⟨13,[],none,false⟩⟩,⟨35,.other,false,some ⟨8,[.code],none,false⟩⟩,⟨39,.other,false,some ⟨0,[],some 2,true⟩⟩,⟨42,.other,false,some ⟨8,[.code],none,false⟩⟩,⟨47,.other,false,some ⟨8,[.code],none,false⟩⟩,⟨92,.other,false,some ⟨14,[],none,false⟩⟩]⟩,⟨[17],none,[],[⟨256,.other,false,some ⟨8,[.setEnt .internalNl,.cb,.code],none,false⟩⟩,⟨256,.ws,false,some ⟨9,[.setEnt .internalNl,.cb],none,false⟩⟩,⟨256,.lf,false,some ⟨10,[.setEnt .internalNl,.cb],none,false⟩⟩,⟨256,.vt,false,some ⟨8,[.setEnt .internalNl,.cb,.code],none,false⟩⟩,⟨256,.ff,false,some ⟨11,[.setEnt .internalNl,.cb],none,false⟩⟩,⟨256,.cr,false,some ⟨12,[.setEnt .internalNl,.cb],none,false⟩⟩,⟨256,.cr,true,some ⟨13,[.setEnt .internalNl,.cb],none,false⟩⟩,⟨35,.other,false,some ⟨8,[.setEnt .internalNl,.cb,.code],none,false⟩⟩,⟨39,.other,false,some ⟨0,[.setEnt .internalNl,.cb],some 2,true⟩⟩,⟨42,.other,false,some ⟨8,[.setEnt .internalNl,.cb,.code],none,false⟩⟩,⟨47,.other,false,some ⟨8,[.setEnt .internalNl,.cb,.code],none,false⟩⟩,⟨92,.other,false,some ⟨14,[.setEnt .internalNl,.cb],none,false⟩⟩]⟩,⟨[18],none,[],[⟨256,.other,false,some ⟨8,[.setEnt .internalNl,.cb,.code],none,false⟩⟩,⟨256,.ws,false,some ⟨9,[.setEnt .internalNl,.cb],none,false⟩⟩,⟨256,.lf,false,some ⟨10,[.setEnt .internalNl,.cb],none,false⟩⟩,⟨256,.vt,false,some ⟨8,[.setEnt .internalNl,.cb,.code],none,false⟩⟩,⟨256,.ff,false,some ⟨11,[.setEnt .internalNl,.cb],none,false⟩⟩,⟨256,.cr,false,some ⟨12,[.setEnt .internalNl,.cb],none,false⟩⟩,⟨256,.cr,true,some ⟨13,[.setEnt .internalNl,.cb],none,false⟩⟩,⟨35,.other,false,some ⟨8,[.setEnt .internalNl,.cb,.code],none,false⟩⟩,⟨39,.other,false,some ⟨0,[.setEnt .internalNl,.cb],some 2,true⟩⟩,⟨42,.other,false,some ⟨8,[.setEnt .internalNl,.cb,.code],none,false⟩⟩,⟨47,.other,false,some ⟨8,[.setEnt .internalNl,.cb,.code],none,false⟩⟩,⟨92,.other,false,some ⟨14,[.setEnt .internalNl,.cb],none,false⟩⟩]⟩,⟨[15],none,[],[⟨256,.other,false,none⟩,⟨256,.ws,false,none⟩,⟨256,.lf,false,some ⟨16,[],none,false⟩⟩,⟨256,.vt,false,none⟩,⟨256,.ff,false,none⟩,⟨256,.cr,false,none⟩,⟨256,.cr,true,none⟩,⟨35,.other,false,none⟩,⟨39,.other,false,none⟩,⟨42,.other,false,none⟩,⟨47,.other,false,none⟩,⟨92,.other,false,none⟩]⟩,⟨[15,19],none,[],[⟨256,.other,false,some ⟨8,[.setEnt .internalNl,.cb,.code],none,false⟩⟩,⟨256,.ws,false,some ⟨9,[.setEnt .internalNl,.cb],none,false⟩⟩,⟨256,.lf,false,some ⟨17,[.setEnt .internalNl,.cb],none,false⟩⟩,⟨256,.vt,false,some ⟨8,[.setEnt .internalNl,.cb,.code],none,false⟩⟩,⟨256,.ff,false,some ⟨11,[.setEnt .internalNl,.cb],none,false⟩⟩,⟨256,.cr,false,some ⟨12,[.setEnt .internalNl,.cb],none,false⟩⟩,⟨256,.cr,true,some ⟨13,[.setEnt .internalNl,.cb],none,false⟩⟩,⟨35,.other,false,some ⟨8,[.setEnt .internalNl,.cb,.code],none,false⟩⟩,⟨39,.other,false,some ⟨0,[.setEnt .internalNl,.cb],some 2,true⟩⟩,⟨42,.other,false,some ⟨8,[.setEnt .internalNl,.cb,.code],none,false⟩⟩,⟨47,.other,false,some ⟨8,[.setEnt .internalNl,.cb,.code],none,false⟩⟩,⟨92,.other,false,some ⟨14,[.setEnt .internalNl,.cb],none,false⟩⟩]⟩,⟨[22],none,[],[⟨256,.other,false,some ⟨18,[.code],none,false⟩⟩,⟨256,.ws,false,some ⟨18,[.code],none,false⟩⟩,⟨256,.lf,false,none⟩,⟨256,.vt,false,some ⟨18,[.code],none,false⟩⟩,⟨256,.ff,false,none⟩,⟨256,.cr,false,none⟩,⟨256,.cr,true,none⟩,⟨35,.other,false,some ⟨18,[.code],none,false⟩⟩,⟨39,.other,false,some ⟨18,[.code],none,false⟩⟩,⟨42,.other,false,some ⟨18,[.code],none,false⟩⟩,⟨47,.other,false,some ⟨18,[.code],none,false⟩⟩,⟨92,.other,false,some ⟨18,[.code],none,false⟩⟩]⟩,⟨[4],none,[],[⟨256,.other,false,some ⟨19,[.code],none,false⟩⟩,⟨256,.ws,false,some ⟨20,[],none,false⟩⟩,⟨256,.lf,false,some ⟨21,[],none,false⟩⟩,⟨256,.vt,false,some ⟨19,[.code],none,false⟩⟩,⟨256,.ff,false,some ⟨22,[],none,false⟩⟩,⟨256,.cr,false,some ⟨23,[],none,false⟩⟩,⟨256,.cr,true,some ⟨24,[],none,false⟩⟩,⟨35,.other,false,some ⟨19,[.code],none,false⟩⟩,⟨39,.other,false,some ⟨19,[.code],none,false⟩⟩,⟨42,.other,false,some ⟨25,[.code],none,false⟩⟩,⟨47,.other,false,some ⟨19,[.code],none,false⟩⟩,⟨92,.other,false,some ⟨19,[.code],none,false⟩⟩]⟩,⟨[16],none,[],[⟨256,.other,false,some ⟨8,[.setEnt .internalNl,.cb,.code],none,false⟩⟩,⟨256,.ws,false,some ⟨9,[.setEnt .internalNl,.cb],none,false⟩⟩,⟨256,.lf,false,some ⟨10,[.setEnt .internalNl,.cb],none,false⟩⟩,⟨256,.vt,false,some ⟨8,[.setEnt .internalNl,.cb,.code],none,false⟩⟩,⟨256,.ff,false,some ⟨11,[.setEnt .internalNl,.cb],none,false⟩⟩,⟨256,.cr,false,some ⟨12,[.setEnt .internalNl,.cb],none,false⟩⟩,⟨256,.cr,true,some ⟨13,[.setEnt .internalNl,.cb],none,false⟩⟩,⟨35,.other,false,some ⟨8,[.setEnt .internalNl,.cb,.code],none,false⟩⟩,⟨39,.other,false,some ⟨0,[.setEnt .internalNl,.cb],some 2,true⟩⟩,⟨42,.other,false,some ⟨8,[.setEnt .internalNl,.cb,.code],none,false⟩⟩,⟨47,.other,false,some ⟨8,[.setEnt .internalNl,.cb,.code],none,false⟩⟩,⟨92,.other,false,some ⟨14,[.setEnt .internalNl,.cb],none,false⟩⟩]⟩,⟨[16,17],none,[],[⟨256,.other,false,some ⟨8,[.setEnt .internalNl,.cb,.code],none,false⟩⟩,⟨256,.ws,false,some ⟨9,[.setEnt .internalNl,.cb],none,false⟩⟩,⟨256,.lf,false,some ⟨10,[.setEnt .internalNl,.cb],none,false⟩⟩,⟨256,.vt,false,some ⟨8,[.setEnt .internalNl,.cb,.code],none,false⟩⟩,⟨256,.ff,false,some ⟨11,[.setEnt .internalNl,.cb],none,false⟩⟩,⟨256,.cr,false,some ⟨12,[.setEnt .internalNl,.cb],none,false⟩⟩,⟨256,.cr,true,some ⟨13,[.setEnt .internalNl,.cb],none,false⟩⟩,⟨35,.other,false,some ⟨8,[.setEnt .internalNl,.cb,.code],none,false⟩⟩,⟨39,.other,false,some ⟨0,[.setEnt .internalNl,.cb],some 2,true⟩⟩,⟨42,.other,false,some ⟨8,[.setEnt .internalNl,.cb,.code],none,false⟩⟩,⟨47,.other,false,some ⟨8,[.setEnt .internalNl,.cb,.code],none,false⟩⟩,⟨92,.other,false,some ⟨14,[.setEnt .internalNl,.cb],none,false⟩⟩]⟩,⟨[23],none,[],[⟨256,.other,false,some ⟨8,[.code],none,false⟩⟩,⟨256,.ws,false,some ⟨9,[],none,false⟩⟩,⟨256,.lf,false,some ⟨10,[],none,false⟩⟩,⟨256,.vt,false,some ⟨8,[.code],none,false⟩⟩,⟨256,.ff,false,some ⟨11,[],none,false⟩⟩,⟨256,.cr,false,some ⟨12,[],none,false⟩⟩,⟨256,.cr,true,some ⟨13,[],none,false⟩⟩,⟨35,.other,false,some ⟨8,[.code],none,false⟩⟩,⟨39,.other,false,some ⟨0,[],some 2,true⟩⟩,⟨42,.other,false,some ⟨8,[.code],none,false⟩⟩,⟨47,.other,false,some ⟨8,[.code],none,false⟩⟩,⟨92,.other,false,some ⟨14,[],none,false⟩⟩]⟩,⟨[11],none,[],[⟨256,.other,false,some ⟨19,[.code],none,false⟩⟩,⟨256,.ws,false,some ⟨20,[],none,false⟩⟩,⟨256,.lf,false,some ⟨21,[],none,false⟩⟩,⟨256,.vt,false,some ⟨19,[.code],none,false⟩⟩,⟨256,.ff,false,some ⟨22,[],none,false⟩⟩,⟨256,.cr,false,some ⟨23,[],none,false⟩⟩,⟨256,.cr,true,some ⟨24,[],none,false⟩⟩,⟨35,.other,false,some ⟨19,[.code],none,false⟩⟩,⟨39,.other,false,some ⟨19,[.code],none,false⟩⟩,⟨42,.other,false,some ⟨25,[.code],none,false⟩⟩,⟨47,.other,false,some ⟨19,[.code],none,false⟩⟩,⟨92,.other,false,some ⟨19,[.code],none,false⟩⟩]⟩,⟨[10],none,[],[⟨256,.other,false,some ⟨19,[.code],none,false⟩⟩,⟨256,.ws,false,some ⟨20,[],none,false⟩⟩,⟨256,.lf,false,some ⟨21,[],none,false⟩⟩,⟨256,.vt,false,some ⟨19,[.code],none,false⟩⟩,⟨256,.ff,false,some ⟨22,[],none,false⟩⟩,⟨256,.cr,false,some ⟨23,[],none,false⟩⟩,⟨256,.cr,true,some ⟨24,[],none,false⟩⟩,⟨35,.other,false,some ⟨19,[.code],none,false⟩⟩,⟨39,.other,false,some ⟨19,[.code],none,false⟩⟩,⟨42,.other,false,some ⟨25,[.code],none,false⟩⟩,⟨47,.other,false,some ⟨19,[.code],none,false⟩⟩,⟨92,.other,false,some ⟨19,[.code],none,false⟩⟩]⟩,⟨[7],none,[],[⟨256,.other,false,some ⟨19,[.setEnt .internalNl,.cb,.code],none,false⟩⟩,⟨256,.ws,false,some ⟨20,[.setEnt .internalNl,.cb],none,false⟩⟩,⟨256,.lf,false,some ⟨21,[.setEnt .internalNl,.cb],none,false⟩⟩,⟨256,.vt,false,some ⟨19,[.setEnt .internalNl,.cb,.code],none,false⟩⟩,⟨256,.ff,false,some ⟨22,[.setEnt .internalNl,.cb],none,false⟩⟩,⟨256,.cr,false,some ⟨23,[.setEnt .internalNl,.cb],none,false⟩⟩,⟨256,.cr,true,some ⟨24,[.setEnt .internalNl,.cb],none,false⟩⟩,⟨35,.other,false,some ⟨19,[.setEnt .internalNl,.cb,.code],none,false⟩⟩,⟨39,.other,false,some ⟨19,[.setEnt .internalNl,.cb,.code],none,false⟩⟩,⟨42,.other,false,some ⟨25,[.setEnt .internalNl,.cb,.code],none,false⟩⟩,⟨47,.other,false,some ⟨19,[.setEnt .internalNl,.cb,.code],none,false⟩⟩,⟨92,.other,false,some ⟨19,[.setEnt .internalNl,.cb,.code],none,false⟩⟩]⟩,⟨[8],none,[],[⟨256,.other,false,some ⟨19,[.setEnt .internalNl,.cb,.code],none,false⟩⟩,⟨256,.ws,false,some ⟨20,[.setEnt .internalNl,.cb],none,false⟩⟩,⟨256,.lf,false,some ⟨21,[.setEnt .internalNl,.cb],none,false⟩⟩,⟨256,.vt,false,some ⟨19,[.setEnt .internalNl,.cb,.code],none,false⟩⟩,⟨256,.ff,false,some ⟨22,[.setEnt .internalNl,.cb],none,false⟩⟩,⟨256,.cr,false,some ⟨23,[.setEnt .internalNl,.cb],none,false⟩⟩,⟨256,.cr,true,some ⟨24,[.setEnt .internalNl,.cb],none,false⟩⟩,⟨35,.other,false,some ⟨19,[.setEnt .internalNl,.cb,.code],none,false⟩⟩,⟨39,.other,false,some ⟨19,[.setEnt .internalNl,.cb,.code],none,false⟩⟩,⟨42,.other,false,some ⟨25,[.setEnt .internalNl,.cb,.code],none,false⟩⟩,⟨47,.other,false,some ⟨19,[.setEnt .internalNl,.cb,.code],none,false⟩⟩,⟨92,.other,false,some ⟨19,[.setEnt .internalNl,.cb,.code],none,false⟩⟩]⟩,⟨[5],none,[],[⟨256,.other,false,none⟩,⟨256,.ws,false,none⟩,⟨256,.lf,false,some ⟨26,[],none,false⟩⟩,⟨256,.vt,false,none⟩,⟨256,.ff,false,none⟩,⟨256,.cr,false,none⟩,⟨256,.cr,true,none⟩,⟨35,.other,false,none⟩,⟨39,.other,false,none⟩,⟨42,.other,false,none⟩,⟨47,.other,false,none⟩,⟨92,.other,false,none⟩]⟩,⟨[5,9],none,[],[⟨256,.other,false,some ⟨19,[.setEnt .internalNl,.cb,.code],none,false⟩⟩,⟨256,.ws,false,some ⟨20,[.setEnt .internalNl,.cb],none,false⟩⟩,⟨256,.lf,false,some ⟨27,[.setEnt .internalNl,.cb],none,false⟩⟩,⟨256,.vt,false,some ⟨19,[.setEnt .internalNl,.cb,.code],none,false⟩⟩,⟨256,.ff,false,some ⟨22,[.setEnt .internalNl,.cb],none,false⟩⟩,⟨256,.cr,false,some ⟨23,[.setEnt .internalNl,.cb],none,false⟩⟩,⟨256,.cr,true,some ⟨24,[.setEnt .internalNl,.cb],none,false⟩⟩,⟨35,.other,false,some ⟨19,[.setEnt .internalNl,.cb,.code],none,false⟩⟩,⟨39,.other,false,some ⟨19,[.setEnt .internalNl,.cb,.code],none,false⟩⟩,⟨42,.other,false,some ⟨25,[.setEnt .internalNl,.cb,.code],none,false⟩⟩,⟨47,.other,false,some ⟨19,[.setEnt .internalNl,.cb,.code],none,false⟩⟩,⟨92,.other,false,some ⟨19,[.setEnt .internalNl,.cb,.code],none,false⟩⟩]⟩,⟨[11,12],none,[],[⟨256,.other,false,some ⟨19,[.code],none,false⟩⟩,⟨256,.ws,false,some ⟨20,[],none,false⟩⟩,⟨256,.lf,false,some ⟨21,[],none,false⟩⟩,⟨256,.vt,false,some ⟨19,[.code],none,false⟩⟩,⟨256,.ff,false,some ⟨22,[],none,false⟩⟩,⟨256,.cr,false,some ⟨23,[],none,false⟩⟩,⟨256,.cr,true,some ⟨24,[],none,false⟩⟩,⟨35,.other,false,some ⟨19,[.code],none,false⟩⟩,⟨39,.other,false,some ⟨19,[.code],none,false⟩⟩,⟨42,.other,false,some ⟨25,[.code],none,false⟩⟩,⟨47,.other,false,some ⟨0,[],some 1,true⟩⟩,⟨92,.other,false,some ⟨19,[.code],none,false⟩⟩]⟩,⟨[6],none,[],[⟨256,.other,false,some ⟨19,[.setEnt .internalNl,.cb,.code],none,false⟩⟩,⟨256,.ws,false,some ⟨20,[.setEnt .internalNl,.cb],none,false⟩⟩,⟨256,.lf,false,some ⟨21,[.setEnt .internalNl,.cb],none,false⟩⟩,⟨256,.vt,false,some ⟨19,[.setEnt .internalNl,.cb,.code],none,false⟩⟩,⟨256,.ff,false,some ⟨22,[.setEnt .internalNl,.cb],none,false⟩⟩,⟨256,.cr,false,some ⟨23,[.setEnt .internalNl,.cb],none,false⟩⟩,⟨256,.cr,true,some ⟨24,[.setEnt .internalNl,.cb],none,false⟩⟩,⟨35,.other,false,some ⟨19,[.setEnt .internalNl,.cb,.code],none,false⟩⟩,⟨39,.other,false,some ⟨19,[.setEnt .internalNl,.cb,.code],none,false⟩⟩,⟨42,.other,false,some ⟨25,[.setEnt .internalNl,.cb,.code],none,false⟩⟩,⟨47,.other,false,some ⟨19,[.setEnt .internalNl,.cb,.code],none,false⟩⟩,⟨92,.other,false,some ⟨19,[.setEnt .internalNl,.cb,.code],none,false⟩⟩]⟩,⟨[6,7],none,[],[⟨256,.other,false,some ⟨19,[.setEnt .internalNl,.cb,.code],none,false⟩⟩,⟨256,.ws,false,some ⟨20,[.setEnt .internalNl,.cb],none,false⟩⟩,⟨256,.lf,false,some ⟨21,[.setEnt .internalNl,.cb],none,false⟩⟩,⟨256,.vt,false,some ⟨19,[.setEnt .internalNl,.cb,.code],none,false⟩⟩,⟨256,.ff,false,some ⟨22,[.setEnt .internalNl,.cb],none,false⟩⟩,⟨256,.cr,false,some ⟨23,[.setEnt .internalNl,.cb],none,false⟩⟩,⟨256,.cr,true,some ⟨24,[.setEnt .internalNl,.cb],none,false⟩⟩,⟨35,.other,false,some ⟨19,[.setEnt .internalNl,.cb,.code],none,false⟩⟩,⟨39,.other,false,some ⟨19,[.setEnt .internalNl,.cb,.code],none,false⟩⟩,⟨42,.other,false,some ⟨25,[.setEnt .internalNl,.cb,.code],none,false⟩⟩,⟨47,.other,false,some ⟨19,[.setEnt .internalNl,.cb,.code],none,false⟩⟩,⟨92,.other,false,some ⟨19,[.setEnt .internalNl,.cb,.code],none,false⟩⟩]⟩]
theorem puppet_line_lrowsOk : rowsOk puppet_line_nfa puppet_line_lex.rel (puppet_line_lcs.map (·.1)) puppet_line_lrows = true := by decide +kernel
def puppet_line_lfr : List CA.FRow := [⟨true,none,[],[⟨256,.other,false,false,none,some ([.setEnt (.own 3)],(some 4,true))⟩,⟨9,.ws,false,false,some 1,some ([.setEnt (.own 0)],(some 0,false))⟩,⟨10,.lf,false,true,none,some ([.setEnt .newline],(some 3,true))⟩,⟨11,.vt,false,false,none,none⟩,⟨12,.ff,false,true,none,some ([.setEnt .newline],(some 3,true))⟩,⟨13,.cr,false,false,some 2,some ([.setEnt .newline],(none,false))⟩,⟨13,.cr,true,true,some 3,some ([.setEnt .newline],(some 3,false))⟩,⟨35,.other,false,false,some 4,some ([.comment,.setEnt (.own 3)],(some 1,false))⟩,⟨39,.other,false,false,some 5,some ([.code,.setEnt (.own 3)],(some 4,false))⟩,⟨42,.other,false,false,none,some ([.setEnt (.own 3)],(some 4,true))⟩,⟨47,.other,false,false,some 6,some ([.setEnt (.own 3)],(some 4,false))⟩,⟨92,.other,false,false,none,some ([.setEnt (.own 3)],(some 4,true))⟩]⟩,⟨false,some 0,[],[⟨256,.other,false,false,none,none⟩,⟨9,.ws,false,false,some 1,some ([.setEnt (.own 0)],(some 0,false))⟩,⟨10,.lf,false,true,none,none⟩,⟨11,.vt,false,false,none,none⟩,⟨12,.ff,false,true,none,none⟩,⟨13,.cr,false,false,none,none⟩,⟨13,.cr,true,true,none,none⟩,⟨35,.other,false,false,none,none⟩,⟨39,.other,false,false,none,none⟩,⟨42,.other,false,false,none,none⟩,⟨47,.other,false,false,none,none⟩,⟨92,.other,false,false,none,none⟩]⟩,⟨false,none,[],[⟨256,.other,false,false,none,none⟩,⟨9,.ws,false,false,none,none⟩,⟨10,.lf,false,true,none,some ([.setEnt .newline],(some 3,true))⟩,⟨11,.vt,false,false,none,none⟩,⟨12,.ff,false,true,none,none⟩,⟨13,.cr,false,false,none,none⟩,⟨13,.cr,true,true,none,none⟩,⟨35,.other,false,false,none,none⟩,⟨39,.other,false,false,none,none⟩,⟨42,.other,false,false,none,none⟩,⟨47,.other,false,false,none,none⟩,⟨92,.other,false,false,none,none⟩]⟩,⟨false,some 3,[],[⟨256,.other,false,false,none,none⟩,⟨9,.ws,false,false,none,none⟩,⟨10,.lf,false,true,none,some ([.setEnt .newline],(some 3,true))⟩,⟨11,.vt,false,false,none,none⟩,⟨12,.ff,false,true,none,none⟩,⟨13,.cr,false,false,none,none⟩,⟨13,.cr,true,true,none,none⟩,⟨35,.other,false,false,none,none⟩,⟨39,.other,false,false,none,none⟩,⟨42,.other,false,false,none,none⟩,⟨47,.other,false,false,none,none⟩,⟨92,.other,false,false,none,none⟩]⟩,⟨false,some 1,[],[⟨256,.other,false,false,some 7,some ([],(some 1,false))⟩,⟨9,.ws,false,false,some 7,some ([],(some 1,false))⟩,⟨10,.lf,false,true,none,none⟩,⟨11,.vt,false,false,some 7,some ([],(some 1,false))⟩,⟨12,.ff,false,true,none,none⟩,⟨13,.cr,false,false,none,none⟩,⟨13,.cr,true,true,none,none⟩,⟨35,.other,false,false,some 7,some ([],(some 1,false))⟩,⟨39,.other,false,false,some 7,some ([],(some 1,false))⟩,⟨42,.other,false,false,some 7,some ([],(some 1,false))⟩,⟨47,.other,false,false,some 7,some ([],(some 1,false))⟩,⟨92,.other,false,false,some 7,some ([],(some 1,false))⟩]⟩,⟨false,some 4,[],[⟨256,.other,false,false,some 8,some ([.code],(none,false))⟩,⟨9,.ws,false,false,some 9,some ([],(none,false))⟩,⟨10,.lf,false,true,some 10,some ([],(none,false))⟩,⟨11,.vt,false,false,some 8,some ([.code],(none,false))⟩,⟨12,.ff,false,true,some 11,some ([],(none,false))⟩,⟨13,.cr,false,false,some 12,some ([],(none,false))⟩,⟨13,.cr,true,true,some 13,some ([],(none,false))⟩,⟨35,.other,false,false,some 8,some ([.code],(none,false))⟩,⟨39,.other,false,false,none,some ([],(some 2,true))⟩,⟨42,.other,false,false,some 8,some ([.code],(none,false))⟩,⟨47,.other,false,false,some 8,some ([.code],(none,false))⟩,⟨92,.other,false,false,some 14,some ([],(none,false))⟩]⟩,⟨false,some 4,[],[⟨256,.other,false,false,none,none⟩,⟨9,.ws,false,false,none,none⟩,⟨10,.lf,false,true,none,none⟩,⟨11,.vt,false,false,none,none⟩,⟨12,.ff,false,true,none,none⟩,⟨13,.cr,false,false,none,none⟩,⟨13,.cr,true,true,none,none⟩,⟨35,.other,false,false,none,none⟩,⟨39,.other,false,false,none,none⟩,⟨42,.other,false,false,some 15,some ([.comment],(none,false))⟩,⟨47,.other,false,false,none,none⟩,⟨92,.other,false,false,none,none⟩]⟩,⟨false,some 1,[],[⟨256,.other,false,false,some 7,some ([],(some 1,false))⟩,⟨9,.ws,false,false,some 7,some ([],(some 1,false))⟩,⟨10,.lf,false,true,none,none⟩,⟨11,.vt,false,false,some 7,some ([],(some 1,false))⟩,⟨12,.ff,false,true,none,none⟩,⟨13,.cr,false,false,none,none⟩,⟨13,.cr,true,true,none,none⟩,⟨35,.other,false,false,some 7,some ([],(some 1,false))⟩,⟨39,.other,false,false,some 7,some ([],(some 1,false))⟩,⟨42,.other,false,false,some 7,some ([],(some 1,false))⟩,⟨47,.other,false,false,some 7,some ([],(some 1,false))⟩,⟨92,.other,false,false,some 7,some ([],(some 1,false))⟩]⟩,⟨false,none,[],[⟨256,.other,false,false,some 8,some ([.code],(none,false))⟩,⟨9,.ws,false,false,some 9,some ([],(none,false))⟩,⟨10,.lf,false,true,some 10,some ([],(none,false))⟩,⟨11,.vt,false,false,some 8,some ([.code],(none,false))⟩,⟨12,.ff,false,true,some 11,some ([],(none,false))⟩,⟨13,.cr,false,false,some 12,some ([],(none,false))⟩,⟨13,.cr,true,true,some 13,some ([],(none,false))⟩,⟨35,.other,false,false,some 8,some ([.code],(none,false))⟩,⟨39,.other,false,false,none,some ([],(some 2,true))⟩,⟨42,.other,false,false,some 8,some ([.code],(none,false))⟩,⟨47,.other,false,false,some 8,some ([.code],(none,false))⟩,⟨92,.other,false,false,some 14,some ([],(none,false))⟩]⟩,⟨false,none,[],[⟨256,.other,false,false,some 8,some ([.code],(none,false))⟩,⟨9,.ws,false,false,some 9,some ([],(none,false))⟩,⟨10,.lf,false,true,some 10,some ([],(none,false))⟩,⟨11,.vt,false,false,some 8,some ([.code],(none,false))⟩,⟨12,.ff,false,true,some 11,some ([],(none,false))⟩,⟨13,.cr,false,false,some 12,some ([],(none,false))⟩,⟨13,.cr,true,true,some 13,some ([],(none,false))⟩,⟨35,.other,false,false,some 8,some ([.code],(none,false))⟩,⟨39,.other,false,false,none,some ([],(some 2,true))⟩,⟨42,.other,false,false,some 8,some ([.code],(none,false))⟩,⟨47,.other,false,false,some 8,some ([.code],(none,false))⟩,⟨92,.other,false,false,some 14,some ([],(none,false))⟩]⟩,⟨false,none,[],[⟨256,.other,false,false,some 8,some ([.setEnt .internalNl,.cb,.code],(none,false))⟩,⟨9,.ws,false,false,some 9,some ([.setEnt .internalNl,.cb],(none,false))⟩,⟨10,.lf,false,true,some 10,some ([.setEnt .internalNl,.cb],(none,false))⟩,⟨11,.vt,false,false,some 8,some ([.setEnt .internalNl,.cb,.code],(none,false))⟩,⟨12,.ff,false,true,some 11,some ([.setEnt .internalNl,.cb],(none,false))⟩,⟨13,.cr,false,false,some 12,some ([.setEnt .internalNl,.cb],(none,false))⟩,⟨13,.cr,true,true,some 13,some ([.setEnt .internalNl,.cb],(none,false))⟩,⟨35,.other,false,false,some 8,some ([.setEnt .internalNl,.cb,.code],(none,false))⟩,⟨39,.other,false,false,none,some ([.setEnt .internalNl,.cb],(some 2,true))⟩,⟨42,.other,false,false,some 8,some ([.setEnt .internalNl,.cb,.code],(none,false))⟩,⟨47,.other,false,false,some 8,some ([.setEnt .internalNl,.cb,.code],(none,false))⟩,⟨92,.other,false,false,some 14,some ([.setEnt .internalNl,.cb],(none,false))⟩]⟩,⟨false,none,[],[⟨256,.other,false,false,some 8,some ([.setEnt .internalNl,.cb,.code],(none,false))⟩,⟨9,.ws,false,false,some 9,some ([.setEnt .internalNl,.cb],(none,false))⟩,⟨10,.lf,false,true,some 10,some ([.setEnt .internalNl,.cb],(none,false))⟩,⟨11,.vt,false,false,some 8,some ([.setEnt .internalNl,.cb,.code],(none,false))⟩,⟨12,.ff,false,true,some 11,some ([.setEnt .internalNl,.cb],(none,false))⟩,⟨13,.cr,false,false,some 12,some ([.setEnt .internalNl,.cb],(none,false))⟩,⟨13,.cr,true,true,some 13,some ([.setEnt .internalNl,.cb],(none,false))⟩,⟨35,.other,false,false,some 8,some ([.setEnt .internalNl,.cb,.code],(none,false))⟩,⟨39,.other,false,false,none,some ([.setEnt .internalNl,.cb],(some 2,true))⟩,⟨42,.other,false,false,some 8,some ([.setEnt .internalNl,.cb,.code],(none,false))⟩,⟨47,.other,false,false,some 8,some ([.setEnt .internalNl,.cb,.code],(none,false))⟩,⟨92,.other,false,false,some 14,some ([.setEnt .internalNl,.cb],(none,false))⟩]⟩,⟨false,none,[],[⟨256,.other,false,false,none,none⟩,⟨9,.ws,false,false,none,none⟩,⟨10,.lf,false,true,some 16,some ([],(none,false))⟩,⟨11,.vt,false,false,none,none⟩,⟨12,.ff,false,true,none,none⟩,⟨13,.cr,false,false,none,none⟩,⟨13,.cr,true,true,none,none⟩,⟨35,.other,false,false,none,none⟩,⟨39,.other,false,false,none,none⟩,⟨42,.other,false,false,none,none⟩,⟨47,.other,false,false,none,none⟩,⟨92,.other,false,false,none,none⟩]⟩,⟨false,none,[],[⟨256,.other,false,false,some 8,some ([.setEnt .internalNl,.cb,.code],(none,false))⟩,⟨9,.ws,false,false,some 9,some ([.setEnt .internalNl,.cb],(none,false))⟩,⟨10,.lf,false,true,some 17,some ([.setEnt .internalNl,.cb],(none,false))⟩,⟨11,.vt,false,false,some 8,some ([.setEnt .internalNl,.cb,.code],(none,false))⟩,⟨12,.ff,false,true,some 11,some ([.setEnt .internalNl,.cb],(none,false))⟩,⟨13,.cr,false,false,some 12,some ([.setEnt .internalNl,.cb],(none,false))⟩,⟨13,.cr,true,true,some 13,some ([.setEnt .internalNl,.cb],(none,false))⟩,⟨35,.other,false,false,some 8,some ([.setEnt .internalNl,.cb,.code],(none,false))⟩,⟨39,.other,false,false,none,some ([.setEnt .internalNl,.cb],(some 2,true))⟩,⟨42,.other,false,false,some 8,some ([.setEnt .internalNl,.cb,.code],(none,false))⟩,⟨47,.other,false,false,some 8,some ([.setEnt .internalNl,.cb,.code],(none,false))⟩,⟨92,.other,false,false,some 14,some ([.setEnt .internalNl,.cb],(none,false))⟩]⟩,⟨false,none,[],[⟨256,.other,false,false,some 18,some ([.code],(none,false))⟩,⟨9,.ws,false,false,some 18,some ([.code],(none,false))⟩,⟨10,.lf,false,true,none,none⟩,⟨11,.vt,false,false,some 18,some ([.code],(none,false))⟩,⟨12,.ff,false,true,none,none⟩,⟨13,.cr,false,false,none,none⟩,⟨13,.cr,true,true,none,none⟩,⟨35,.other,false,false,some 18,some ([.code],(none,false))⟩,⟨39,.other,false,false,some 18,some ([.code],(none,false))⟩,⟨42,.other,false,false,some 18,some ([.code],(none,false))⟩,⟨47,.other,false,false,some 18,some ([.code],(none,false))⟩,⟨92,.other,false,false,some 18,some ([.code],(none,false))⟩]⟩,⟨false,none,[],[⟨256,.other,false,false,some 19,some ([.code],(none,false))⟩,⟨9,.ws,false,false,some 20,some ([],(none,false))⟩,⟨10,.lf,false,true,some 21,some ([],(none,false))⟩,⟨11,.vt,false,false,some 19,some ([.code],(none,false))⟩,⟨12,.ff,false,true,some 22,some ([],(none,false))⟩,⟨13,.cr,false,false,some 23,some ([],(none,false))⟩,⟨13,.cr,true,true,some 24,some ([],(none,false))⟩,⟨35,.other,false,false,some 19,some ([.code],(none,false))⟩,⟨39,.other,false,false,some 19,some ([.code],(none,false))⟩,⟨42,.other,false,false,some 25,some ([.code],(none,false))⟩,⟨47,.other,false,false,some 19,some ([.code],(none,false))⟩,⟨92,.other,false,false,some 19,some ([.code],(none,false))⟩]⟩,⟨false,none,[],[⟨256,.other,false,false,some 8,some ([.setEnt .internalNl,.cb,.code],(none,false))⟩,⟨9,.ws,false,false,some 9,some ([.setEnt .internalNl,.cb],(none,false))⟩,⟨10,.lf,false,true,some 10,some ([.setEnt .internalNl,.cb],(none,false))⟩,⟨11,.vt,false,false,some 8,some ([.setEnt .internalNl,.cb,.code],(none,false))⟩,⟨12,.ff,false,true,some 11,some ([.setEnt .internalNl,.cb],(none,false))⟩,⟨13,.cr,false,false,some 12,some ([.setEnt .internalNl,.cb],(none,false))⟩,⟨13,.cr,true,true,some 13,some ([.setEnt .internalNl,.cb],(none,false))⟩,⟨35,.other,false,false,some 8,some ([.setEnt .internalNl,.cb,.code],(none,false))⟩,⟨39,.other,false,false,none,some ([.setEnt .internalNl,.cb],(some 2,true))⟩,⟨42,.other,false,false,some 8,some ([.setEnt .internalNl,.cb,.code],(none,false))⟩,⟨47,.other,false,false,some 8,some ([.setEnt .internalNl,.cb,.code],(none,false))⟩,⟨92,.other,false,false,some 14,some ([.setEnt .internalNl,.cb],(none,false))⟩]⟩,⟨false,none,[],[⟨256,.other,false,false,some 8,some ([.setEnt .internalNl,.cb,.code],(none,false))⟩,⟨9,.ws,false,false,some 9,some ([.setEnt .internalNl,.cb],(none,false))⟩,⟨10,.lf,false,true,some 10,some ([.setEnt .internalNl,.cb],(none,false))⟩,⟨11,.vt,false,false,some 8,some ([.setEnt .internalNl,.cb,.code],(none,false))⟩,⟨12,.ff,false,true,some 11,some ([.setEnt .internalNl,.cb],(none,false))⟩,⟨13,.cr,false,false,some 12,some ([.setEnt .internalNl,.cb],(none,false))⟩,⟨13,.cr,true,true,some 13,some ([.setEnt .internalNl,.cb],(none,false))⟩,⟨35,.other,false,false,some 8,some ([.setEnt .internalNl,.cb,.code],(none,false))⟩,⟨39,.other,false,false,none,some ([.setEnt .internalNl,.cb],(some 2,true))⟩,⟨42,.other,false,false,some 8,some ([.setEnt .internalNl,.cb,.code],(none,false))⟩,⟨47,.other,false,false,some 8,some ([.setEnt .internalNl,.cb,.code],(none,false))⟩,⟨92,.other,false,false,some 14,some ([.setEnt .internalNl,.cb],(none,false))⟩]⟩,⟨false,none,[],[⟨256,.other,false,false,some 8,some ([.code],(none,false))⟩,⟨9,.ws,false,false,some 9,some ([],(none,false))⟩,⟨10,.lf,false,true,some 10,some ([],(none,false))⟩,⟨11,.vt,false,false,some 8,some ([.code],(none,false))⟩,⟨12,.ff,false,true,some 11,some ([],(none,false))⟩,⟨13,.cr,false,false,some 12,some ([],(none,false))⟩,⟨13,.cr,true,true,some 13,some ([],(none,false))⟩,⟨35,.other,false,false,some 8,some ([.code],(none,false))⟩,⟨39,.other,false,false,none,some ([],(some 2,true))⟩,⟨42,.other,false,false,some 8,some ([.code],(none,false))⟩,⟨47,.other,false,false,some 8,some ([.code],(none,false))⟩,⟨92,.other,false,false,some 14,some ([],(none,false))⟩]⟩,⟨false,none,[],[⟨256,.other,false,false,some 19,some ([.code],(none,false))⟩,⟨9,.ws,false,false,some 20,some ([],(none,false))⟩,⟨10,.lf,false,true,some 21,some ([],(none,false))⟩,⟨11,.vt,false,false,some 19,some ([.code],(none,false))⟩,⟨12,.ff,false,true,some 22,some ([],(none,false))⟩,⟨13,.cr,false,false,some 23,some ([],(none,false))⟩,⟨13,.cr,true,true,some 24,some ([],(none,false))⟩,⟨35,.other,false,false,some 19,some ([.code],(none,false))⟩,⟨39,.other,false,false,some 19,some ([.code],(none,false))⟩,⟨42,.other,false,false,some 25,some ([.code],(none,false))⟩,⟨47,.other,false,false,some 19,some ([.code],(none,false))⟩,⟨92,.other,false,false,some 19,some ([.code],(none,false))⟩]⟩,⟨false,none,[],[⟨256,.other,false,false,some 19,some ([.code],(none,false))⟩,⟨9,.ws,false,false,some 20,some ([],(none,false))⟩,⟨10,.lf,false,true,some 21,some ([],(none,false))⟩,⟨11,.vt,false,false,some 19,some ([.code],(none,false))⟩,⟨12,.ff,false,true,some 22,some ([],(none,false))⟩,⟨13,.cr,false,false,some 23,some ([],(none,false))⟩,⟨13,.cr,true,true,some 24,some ([],(none,false))⟩,⟨35,.other,false,false,some 19,some ([.code],(none,false))⟩,⟨39,.other,false,false,some 19,some ([.code],(none,false))⟩,⟨42,.other,false,false,some 25,some ([.code],(none,false))⟩,⟨47,.other,false,false,some 19,some ([.code],(none,false))⟩,⟨92,.other,false,false,some 19,some ([.code],(none,false))⟩]⟩,⟨false,none,[],[⟨256,.other,false,false,some 19,some ([.setEnt .internalNl,.cb,.code],(none,false))⟩,⟨9,.ws,false,false,some 20,some ([.setEnt .internalNl,.cb],(none,false))⟩,⟨10,.lf,false,true,some 21,some ([.setEnt .internalNl,.cb],(none,false))⟩,⟨11,.vt,false,false,some 19,some ([.setEnt .internalNl,.cb,.code],(none,false))⟩,⟨12,.ff,false,true,some 22,some ([.setEnt .internalNl,.cb],(none,false))⟩,⟨13,.cr,false,false,some 23,some ([.setEnt .internalNl,.cb],(none,false))⟩,⟨13,.cr,true,true,some 24,some ([.setEnt .internalNl,.cb],(none,false))⟩,⟨35,.other,false,false,some 19,some ([.setEnt .internalNl,.cb,.code],(none,false))⟩,⟨39,.other,false,false,some 19,some ([.setEnt .internalNl,.cb,.code],(none,false))⟩,⟨42,.other,false,false,some 25,some ([.setEnt .internalNl,.cb,.code],(none,false))⟩,⟨47,.other,false,false,some 19,some ([.setEnt .internalNl,.cb,.code],(none,false))⟩,⟨92,.other,false,false,some 19,some ([.setEnt .internalNl,.cb,.code],(none,false))⟩]⟩,⟨false,none,[],[⟨256,.other,false,false,some 19,some ([.setEnt .internalNl,.cb,.code],(none,false))⟩,⟨9,.ws,false,false,some 20,some ([.setEnt .internalNl,.cb],(none,false))⟩,⟨10,.lf,false,true,some 21,some ([.setEnt .internalNl,.cb],(none,false))⟩,⟨11,.vt,false,false,some 19,some ([.setEnt .internalNl,.cb,.code],(none,false))⟩,⟨12,.ff,false,true,some 22,some ([.setEnt .internalNl,.cb],(none,false))⟩,⟨13,.cr,false,false,some 23,some ([.setEnt .internalNl,.cb],(none,false))⟩,⟨13,.cr,true,true,some 24,some ([.setEnt .internalNl,.cb],(none,false))⟩,⟨35,.other,false,false,some 19,some ([.setEnt .internalNl,.cb,.code],(none,false))⟩,⟨39,.other,false,false,some 19,some ([.setEnt .internalNl,.cb,.code],(none,false))⟩,⟨42,.other,false,false,some 25,some ([.setEnt .internalNl,.cb,.code],(none,false))⟩,⟨47,.other,false,false,some 19,some ([.setEnt .internalNl,.cb,.code],(none,false))⟩,⟨92,.other,false,false,some 19,some ([.setEnt .internalNl,.cb,.code],(none,false))⟩]⟩,⟨false,none,[],[⟨256,.other,false,false,none,none⟩,⟨9,.ws,false,false,none,none⟩,⟨10,.lf,false,true,some 26,some ([],(none,false))⟩,⟨11,.vt,false,false,none,none⟩,⟨12,.ff,false,true,none,none⟩,⟨13,.cr,false,false,none,none⟩,⟨13,.cr,true,true,none,none⟩,⟨35,.other,false,false,none,none⟩,⟨39,.other,false,false,none,none⟩,⟨42,.other,false,false,none,none⟩,⟨47,.other,false,false,none,none⟩,⟨92,.other,false,false,none,none⟩]⟩,⟨false,none,[],[⟨256,.other,false,false,some 19,some ([.setEnt .internalNl,.cb,.code],(none,false))⟩,⟨9,.ws,false,false,some 20,some ([.setEnt .internalNl,.cb],(none,false))⟩,⟨10,.lf,false,true,some 27,some ([.setEnt .internalNl,.cb],(none,false))⟩,⟨11,.vt,false,false,some 19,some ([.setEnt .internalNl,.cb,.code],(none,false))⟩,⟨12,.ff,false,true,some 22,some ([.setEnt .internalNl,.cb],(none,false))⟩,⟨13,.cr,false,false,some 23,some ([.setEnt .internalNl,.cb],(none,false))⟩,⟨13,.cr,true,true,some 24,some ([.setEnt .internalNl,.cb],(none,false))⟩,⟨35,.other,false,false,some 19,some ([.setEnt .internalNl,.cb,.code],(none,false))⟩,⟨39,.other,false,false,some 19,some ([.setEnt .internalNl,.cb,.code],(none,false))⟩,⟨42,.other,false,false,some 25,some ([.setEnt .internalNl,.cb,.code],(none,false))⟩,⟨47,.other,false,false,some 19,some ([.setEnt .internalNl,.cb,.code],(none,false))⟩,⟨92,.other,false,false,some 19,some ([.setEnt .internalNl,.cb,.code],(none,false))⟩]⟩,⟨false,none,[],[⟨256,.other,false,false,some 19,some ([.code],(none,false))⟩,⟨9,.ws,false,false,some 20,some ([],(none,false))⟩,⟨10,.lf,false,true,some 21,some ([],(none,false))⟩,⟨11,.vt,false,false,some 19,some ([.code],(none,false))⟩,⟨12,.ff,false,true,some 22,some ([],(none,false))⟩,⟨13,.cr,false,false,some 23,some ([],(none,false))⟩,⟨13,.cr,true,true,some 24,some ([],(none,false))⟩,⟨35,.other,false,false,some 19,some ([.code],(none,false))⟩,⟨39,.other,false,false,some 19,some ([.code],(none,false))⟩,⟨42,.other,false,false,some 25,some ([.code],(none,false))⟩,⟨47,.other,false,false,none,some ([],(some 1,true))⟩,⟨92,.other,false,false,some 19,some ([.code],(none,false))⟩]⟩,⟨false,none,[],[⟨256,.other,false,false,some 19,some ([.setEnt .internalNl,.cb,.code],(none,false))⟩,⟨9,.ws,false,false,some 20,some ([.setEnt .internalNl,.cb],(none,false))⟩,⟨10,.lf,false,true,some 21,some ([.setEnt .internalNl,.cb],(none,false))⟩,⟨11,.vt,false,false,some 19,some ([.setEnt .internalNl,.cb,.code],(none,false))⟩,⟨12,.ff,false,true,some 22,some ([.setEnt .internalNl,.cb],(none,false))⟩,⟨13,.cr,false,false,some 23,some ([.setEnt .internalNl,.cb],(none,false))⟩,⟨13,.cr,true,true,some 24,some ([.setEnt .internalNl,.cb],(none,false))⟩,⟨35,.other,false,false,some 19,some ([.setEnt .internalNl,.cb,.code],(none,false))⟩,⟨39,.other,false,false,some 19,some ([.setEnt .internalNl,.cb,.code],(none,false))⟩,⟨42,.other,false,false,some 25,some ([.setEnt .internalNl,.cb,.code],(none,false))⟩,⟨47,.other,false,false,some 19,some ([.setEnt .internalNl,.cb,.code],(none,false))⟩,⟨92,.other,false,false,some 19,some ([.setEnt .internalNl,.cb,.code],(none,false))⟩]⟩,⟨false,none,[],[⟨256,.other,false,false,some 19,some ([.setEnt .internalNl,.cb,.code],(none,false))⟩,⟨9,.ws,false,false,some 20,some ([.setEnt .internalNl,.cb],(none,false))⟩,⟨10,.lf,false,true,some 21,some ([.setEnt .internalNl,.cb],(none,false))⟩,⟨11,.vt,false,false,some 19,some ([.setEnt .internalNl,.cb,.code],(none,false))⟩,⟨12,.ff,false,true,some 22,some ([.setEnt .internalNl,.cb],(none,false))⟩,⟨13,.cr,false,false,some 23,some ([.setEnt .internalNl,.cb],(none,false))⟩,⟨13,.cr,true,true,some 24,some ([.setEnt .internalNl,.cb],(none,false))⟩,⟨35,.other,false,false,some 19,some ([.setEnt .internalNl,.cb,.code],(none,false))⟩,⟨39,.other,false,false,some 19,some ([.setEnt .internalNl,.cb,.code],(none,false))⟩,⟨42,.other,false,false,some 25,some ([.setEnt .internalNl,.cb,.code],(none,false))⟩,⟨47,.other,false,false,some 19,some ([.setEnt .internalNl,.cb,.code],(none,false))⟩,⟨92,.other,false,false,some 19,some ([.setEnt .internalNl,.cb,.code],(none,false))⟩]⟩]
theorem puppet_line_lfrOk : puppet_line_lrows.map (CA.prep puppet_line_lex) = puppet_line_lfr := by decide +kernel
def puppet_line_lTab : List CT := [(.node (.node (.node (.node (.node (.node .leaf 128 [⟨⟨.code,[],.lcode,false,[],false⟩,false,false,[],none,none,none,false,false,false,none,false,⟨.lcode,none,false,.lblank⟩⟩] .leaf) 38019 [⟨⟨.code,[],.lcode,true,[],false⟩,false,false,[],none,none,none,false,false,false,none,false,⟨.lblank,none,false,.lblank⟩⟩] .leaf) 185487 [⟨⟨.code,[],.lcomment,true,[],false⟩,false,false,[],none,none,none,false,false,false,none,false,⟨.lblank,none,false,.lblank⟩⟩] (.node .leaf 296088 [⟨⟨.code,[],.lblank,false,[],false⟩,false,false,[],none,none,none,false,false,false,none,false,⟨.lblank,none,false,.lblank⟩⟩] .leaf)) 332955 [⟨⟨.code,[],.lblank,true,[],false⟩,false,false,[],none,none,none,false,false,false,none,false,⟨.lblank,none,false,.lblank⟩⟩] (.node (.node (.node .leaf 1179872 [⟨⟨(.inside 0),[],.lcode,false,[],false⟩,false,false,[none],none,none,none,false,false,false,none,false,⟨.lcode,none,false,.lblank⟩⟩] .leaf) 1327852 [⟨⟨(.inside 0),[],.lcomment,false,[],false⟩,false,false,[none],none,none,none,false,false,false,none,false,⟨.lcomment,none,false,.lblank⟩⟩] .leaf) 1769744 [⟨⟨.code,[47],.lcode,false,[],false⟩,false,false,[none],none,none,none,false,false,false,none,false,⟨.lcode,none,false,.lblank⟩⟩] (.node .leaf 20769801 [⟨⟨.code,[47],.lcode,false,[],false⟩,false,false,[some (9,(.ws,false))],none,none,none,false,false,false,none,false,⟨.lcode,none,false,.lblank⟩⟩] .leaf))) 22179935 [⟨⟨(.inside 0),[],.lcode,false,[],false⟩,false,false,[some (10,(.lf,false))],none,none,none,false,false,false,none,false,⟨.lcode,none,false,.lblank⟩⟩] (.node (.node (.node (.node .leaf 22327915 [⟨⟨(.inside 0),[],.lcomment,false,[],false⟩,false,false,[some (10,(.lf,false))],none,none,none,false,false,false,none,false,⟨.lcomment,none,false,.lblank⟩⟩] .leaf) 22769807 [⟨⟨.code,[47],.lcode,false,[],false⟩,false,false,[some (10,(.lf,false))],none,none,none,false,false,false,none,false,⟨.lcode,none,false,.lblank⟩⟩] .leaf) 26179947 [⟨⟨(.inside 0),[],.lcode,false,[],false⟩,false,false,[some (12,(.ff,false))],none,none,none,false,false,false,none,false,⟨.lcode,none,false,.lblank⟩⟩] (.node .leaf 26327927 [⟨⟨(.inside 0),[],.lcomment,false,[],false⟩,false,false,[some (12,(.ff,false))],none,none,none,false,false,false,none,false,⟨.lcomment,none,false,.lblank⟩⟩] .leaf)) 26769819 [⟨⟨.code,[47],.lcode,false,[],false⟩,false,false,[some (12,(.ff,false))],none,none,none,false,false,false,none,false,⟨.lcode,none,false,.lblank⟩⟩] (.node (.node .leaf 28179953 [⟨⟨(.inside 0),[],.lcode,false,[],false⟩,false,false,[some (13,(.cr,false))],none,none,none,false,false,false,none,false,⟨.lcode,none,false,.lblank⟩⟩] .leaf) 28327933 [⟨⟨(.inside 0),[],.lcomment,false,[],false⟩,false,false,[some (13,(.cr,false))],none,none,none,false,false,false,none,false,⟨.lcomment,none,false,.lblank⟩⟩] (.node .leaf 28769825 [⟨⟨.code,[47],.lcode,false,[],false⟩,false,false,[some (13,(.cr,false))],none,none,none,false,false,false,none,false,⟨.lcode,none,false,.lblank⟩⟩] .leaf)))) 29179956 [⟨⟨(.inside 0),[],.lcode,false,[],false⟩,false,false,[some (13,(.cr,true))],none,none,none,false,false,false,none,false,⟨.lcode,none,false,.lblank⟩⟩] (.node (.node (.node (.node (.node .leaf 29327936 [⟨⟨(.inside 0),[],.lcomment,false,[],false⟩,false,false,[some (13,(.cr,true))],none,none,none,false,false,false,none,false,⟨.lcomment,none,false,.lblank⟩⟩] .leaf) 29769828 [⟨⟨.code,[47],.lcode,false,[],false⟩,false,false,[some (13,(.cr,true))],none,none,none,false,false,false,none,false,⟨.lcode,none,false,.lblank⟩⟩] .leaf) 40406360 [⟨⟨.code,[47],.lblank,false,[],false⟩,false,false,[none],none,none,none,false,false,false,none,false,⟨.lcode,none,false,.lblank⟩⟩] (.node .leaf 59406417 [⟨⟨.code,[47],.lblank,false,[],false⟩,false,false,[some (9,(.ws,false))],none,none,none,false,false,false,none,false,⟨.lcode,none,false,.lblank⟩⟩] .leaf)) 61406423 [⟨⟨.code,[47],.lblank,false,[],false⟩,false,false,[some (10,(.lf,false))],none,none,none,false,false,false,none,false,⟨.lcode,none,false,.lblank⟩⟩] (.node (.node (.node .leaf 65406435 [⟨⟨.code,[47],.lblank,false,[],false⟩,false,false,[some (12,(.ff,false))],none,none,none,false,false,false,none,false,⟨.lcode,none,false,.lblank⟩⟩] .leaf) 67406441 [⟨⟨.code,[47],.lblank,false,[],false⟩,false,false,[some (13,(.cr,false))],none,none,none,false,false,false,none,false,⟨.lcode,none,false,.lblank⟩⟩] .leaf) 68406444 [⟨⟨.code,[47],.lblank,false,[],false⟩,false,false,[some (13,(.cr,true))],none,none,none,false,false,false,none,false,⟨.lcode,none,false,.lblank⟩⟩] (.node .leaf 72769957 [⟨⟨.code,[47],.lcode,false,[],false⟩,false,false,[some (35,(.other,false))],none,none,none,false,false,false,none,false,⟨.lcode,none,false,.lblank⟩⟩] .leaf))) 80769981 [⟨⟨.code,[47],.lcode,false,[],false⟩,false,false,[some (39,(.other,false))],none,none,none,false,false,false,none,false,⟨.lcode,none,false,.lblank⟩⟩] (.node (.node (.node (.node .leaf 96770029 [⟨⟨.code,[47],.lcode,false,[],false⟩,false,false,[some (47,(.other,false))],none,none,none,false,false,false,none,false,⟨.lcode,none,false,.lblank⟩⟩] .leaf) 111406573 [⟨⟨.code,[47],.lblank,false,[],false⟩,false,false,[some (35,(.other,false))],none,none,none,false,false,false,none,false,⟨.lcode,none,false,.lblank⟩⟩] .leaf) 119406597 [⟨⟨.code,[47],.lblank,false,[],false⟩,false,false,[some (39,(.other,false))],none,none,none,false,false,false,none,false,⟨.lcode,none,false,.lblank⟩⟩] (.node .leaf 135406645 [⟨⟨.code,[47],.lblank,false,[],false⟩,false,false,[some (47,(.other,false))],none,none,none,false,false,false,none,false,⟨.lcode,none,false,.lblank⟩⟩] .leaf)) 186770299 [⟨⟨.code,[47],.lcode,false,[],false⟩,false,false,[some (92,(.other,false))],none,none,none,false,false,false,none,false,⟨.lcode,none,false,.lblank⟩⟩] (.node (.node .leaf 225406915 [⟨⟨.code,[47],.lblank,false,[],false⟩,false,false,[some (92,(.other,false))],none,none,none,false,false,false,none,false,⟨.lcode,none,false,.lblank⟩⟩] .leaf) 514771283 [⟨⟨.code,[47],.lcode,false,[],false⟩,false,false,[some (256,(.other,false))],none,none,none,false,false,false,none,false,⟨.lcode,none,false,.lblank⟩⟩] (.node .leaf 553407899 [⟨⟨.code,[47],.lblank,false,[],false⟩,false,false,[some (256,(.other,false))],none,none,none,false,false,false,none,false,⟨.lcode,none,false,.lblank⟩⟩] .leaf))))),(.node (.node .leaf 128 [⟨⟨.code,[],.lcode,false,[],false⟩,false,false,[],none,none,none,false,false,false,none,false,⟨.lcode,some (.own 0),false,.lblank⟩⟩] .leaf) 296088 [⟨⟨.code,[],.lblank,false,[],false⟩,false,false,[],none,none,none,false,false,false,none,false,⟨.lblank,some (.own 0),false,.lblank⟩⟩] .leaf),(.node (.node .leaf 160 [⟨⟨.code,[],.lcode,false,[],false⟩,true,false,[],none,none,none,false,false,false,none,false,⟨.lcode,some .newline,false,.lblank⟩⟩] .leaf) 148140 [⟨⟨.code,[],.lcomment,false,[],false⟩,true,false,[],none,none,none,false,false,false,none,false,⟨.lcomment,some .newline,false,.lblank⟩⟩] (.node .leaf 296120 [⟨⟨.code,[],.lblank,false,[],false⟩,true,false,[],none,none,none,false,false,false,none,false,⟨.lblank,some .newline,false,.lblank⟩⟩] .leaf)),(.node (.node .leaf 37011 [⟨⟨.code,[],.lcode,true,[],false⟩,false,true,[],none,none,none,false,false,false,none,false,⟨.lcode,some .newline,false,.lblank⟩⟩] .leaf) 184991 [⟨⟨.code,[],.lcomment,true,[],false⟩,false,true,[],none,none,none,false,false,false,none,false,⟨.lcomment,some .newline,false,.lblank⟩⟩] (.node .leaf 332971 [⟨⟨.code,[],.lblank,true,[],false⟩,false,true,[],none,none,none,false,false,false,none,false,⟨.lblank,some .newline,false,.lblank⟩⟩] .leaf)),(.node (.node .leaf 1179872 [⟨⟨(.inside 0),[],.lcode,false,[],false⟩,false,false,[],none,none,none,false,false,false,none,false,⟨.lcode,some (.own 3),false,.lblank⟩⟩] .leaf) 1327852 [⟨⟨(.inside 0),[],.lcomment,false,[],false⟩,false,false,[],none,none,none,false,false,false,none,false,⟨.lcomment,some (.own 3),false,.lblank⟩⟩] .leaf),(.node .leaf 7078592 [⟨⟨(.inside 2),[],.lcode,false,[],false⟩,false,false,[],none,none,none,false,false,false,none,false,⟨.lcode,some (.own 3),false,.lblank⟩⟩] .leaf),(.node (.node .leaf 1769744 [⟨⟨.code,[47],.lcode,false,[],false⟩,false,false,[],none,none,none,false,false,false,none,false,⟨.lcode,some (.own 3),false,.lblank⟩⟩] .leaf) 1769746 [⟨⟨.code,[47],.lcode,false,[],false⟩,false,false,[],none,none,none,false,false,true,none,false,⟨.lcode,some (.own 3),false,.lblank⟩⟩] (.node .leaf 40407386 [⟨⟨.code,[47],.lblank,false,[],false⟩,false,false,[],none,none,none,false,false,true,none,false,⟨.lblank,some (.own 3),false,.lblank⟩⟩] .leaf)),(.node (.node .leaf 1179872 [⟨⟨(.inside 0),[],.lcode,false,[],false⟩,false,false,[],none,none,none,false,false,false,none,false,⟨.lcode,some (.own 3),false,.lblank⟩⟩] .leaf) 1327852 [⟨⟨(.inside 0),[],.lcomment,false,[],false⟩,false,false,[],none,none,none,false,false,false,none,false,⟨.lcomment,some (.own 3),false,.lblank⟩⟩] .leaf),(.node (.node .leaf 7522021 [⟨⟨(.inside 2),[],.lcode,false,[],false⟩,false,false,[],some 4,some ⟨(.inside 2),[],.lcode,false,[],false⟩,none,false,false,false,none,false,⟨.lcode,some (.own 3),false,.lblank⟩⟩] .leaf) 7522029 [⟨⟨(.inside 2),[],.lcode,false,[],false⟩,false,false,[],some 4,some ⟨(.inside 2),[],.lcode,false,[],false⟩,none,true,false,false,none,false,⟨.lcode,some .internalNl,false,.lblank⟩⟩] .leaf),(.node (.node .leaf 7522021 [⟨⟨(.inside 2),[],.lcode,false,[],false⟩,false,false,[],some 4,some ⟨(.inside 2),[],.lcode,false,[],false⟩,none,false,false,false,none,false,⟨.lcode,some (.own 3),false,.lblank⟩⟩] .leaf) 7522029 [⟨⟨(.inside 2),[],.lcode,false,[],false⟩,false,false,[],some 4,some ⟨(.inside 2),[],.lcode,false,[],false⟩,none,true,false,false,none,false,⟨.lcode,some .internalNl,false,.lblank⟩⟩] (.node .leaf 7817989 [⟨⟨(.inside 2),[],.lblank,false,[],false⟩,false,false,[],some 4,some ⟨(.inside 2),[],.lcode,false,[],false⟩,none,true,false,false,none,false,⟨.lblank,some .internalNl,false,.lblank⟩⟩] .leaf)),(.node (.node .leaf 7558888 [⟨⟨(.inside 2),[],.lcode,true,[],false⟩,false,false,[],some 4,some ⟨(.inside 2),[],.lcode,false,[],false⟩,none,false,false,false,none,false,⟨.lcode,some (.own 3),false,.lblank⟩⟩] .leaf) 7558896 [⟨⟨(.inside 2),[],.lcode,true,[],false⟩,false,false,[],some 4,some ⟨(.inside 2),[],.lcode,false,[],false⟩,none,true,false,false,none,false,⟨.lcode,some .internalNl,false,.lblank⟩⟩] (.node .leaf 7854856 [⟨⟨(.inside 2),[],.lblank,true,[],false⟩,false,false,[],some 4,some ⟨(.inside 2),[],.lcode,false,[],false⟩,none,true,false,false,none,false,⟨.lblank,some .internalNl,false,.lblank⟩⟩] .leaf)),(.node (.node .leaf 7558888 [⟨⟨(.inside 2),[],.lcode,true,[],false⟩,false,false,[],some 4,some ⟨(.inside 2),[],.lcode,false,[],false⟩,none,false,false,false,none,false,⟨.lcode,some (.own 3),false,.lblank⟩⟩] .leaf) 7558896 [⟨⟨(.inside 2),[],.lcode,true,[],false⟩,false,false,[],some 4,some ⟨(.inside 2),[],.lcode,false,[],false⟩,none,true,false,false,none,false,⟨.lcode,some .internalNl,false,.lblank⟩⟩] (.node .leaf 7854856 [⟨⟨(.inside 2),[],.lblank,true,[],false⟩,false,false,[],some 4,some ⟨(.inside 2),[],.lcode,false,[],false⟩,none,true,false,false,none,false,⟨.lblank,some .internalNl,false,.lblank⟩⟩] .leaf)),(.node (.node .leaf 7522053 [⟨⟨(.inside 2),[],.lcode,false,[],false⟩,true,false,[],some 4,some ⟨(.inside 2),[],.lcode,false,[],false⟩,none,false,false,false,none,false,⟨.lcode,some (.own 3),false,.lblank⟩⟩] .leaf) 7522061 [⟨⟨(.inside 2),[],.lcode,false,[],false⟩,true,false,[],some 4,some ⟨(.inside 2),[],.lcode,false,[],false⟩,none,true,false,false,none,false,⟨.lcode,some .internalNl,false,.lblank⟩⟩] (.node .leaf 7818021 [⟨⟨(.inside 2),[],.lblank,false,[],false⟩,true,false,[],some 4,some ⟨(.inside 2),[],.lcode,false,[],false⟩,none,true,false,false,none,false,⟨.lblank,some .internalNl,false,.lblank⟩⟩] .leaf)),(.node (.node .leaf 7558904 [⟨⟨(.inside 2),[],.lcode,true,[],false⟩,false,true,[],some 4,some ⟨(.inside 2),[],.lcode,false,[],false⟩,none,false,false,false,none,false,⟨.lcode,some (.own 3),false,.lblank⟩⟩] .leaf) 7558912 [⟨⟨(.inside 2),[],.lcode,true,[],false⟩,false,true,[],some 4,some ⟨(.inside 2),[],.lcode,false,[],false⟩,none,true,false,false,none,false,⟨.lcode,some .internalNl,false,.lblank⟩⟩] (.node .leaf 7854872 [⟨⟨(.inside 2),[],.lblank,true,[],false⟩,false,true,[],some 4,some ⟨(.inside 2),[],.lcode,false,[],false⟩,none,true,false,false,none,false,⟨.lblank,some .internalNl,false,.lblank⟩⟩] .leaf)),(.node (.node .leaf 931150972 [⟨⟨(.inside 2),[92],.lcode,false,[],false⟩,false,false,[],some 4,some ⟨(.inside 2),[],.lcode,false,[],false⟩,none,false,false,false,none,false,⟨.lcode,some (.own 3),false,.lblank⟩⟩] .leaf) 931150980 [⟨⟨(.inside 2),[92],.lcode,false,[],false⟩,false,false,[],some 4,some ⟨(.inside 2),[],.lcode,false,[],false⟩,none,true,false,false,none,false,⟨.lcode,some .internalNl,false,.lblank⟩⟩] (.node .leaf 969788620 [⟨⟨(.inside 2),[92],.lblank,false,[],false⟩,false,false,[],some 4,some ⟨(.inside 2),[],.lcode,false,[],false⟩,none,true,false,false,none,false,⟨.lblank,some .internalNl,false,.lblank⟩⟩] .leaf)),(.node (.node .leaf 610242271 [⟨⟨(.inside 1),[],.lcode,false,[],false⟩,false,false,[],some 4,some ⟨.code,[47],.lcode,false,[],false⟩,some ([(42,(.other,false))],false),false,false,false,none,false,⟨.lcode,some (.own 3),false,.lblank⟩⟩] .leaf) 612807987 [⟨⟨(.inside 1),[],.lcomment,false,[],false⟩,false,false,[],some 4,some ⟨.code,[47],.lblank,false,[],false⟩,some ([(42,(.other,false))],false),false,false,false,none,false,⟨.lcomment,some (.own 3),false,.lblank⟩⟩] .leaf),(.node (.node .leaf 7558888 [⟨⟨(.inside 2),[],.lcode,true,[],false⟩,false,false,[],some 4,some ⟨(.inside 2),[],.lcode,false,[],false⟩,none,false,false,false,none,false,⟨.lcode,some (.own 3),false,.lblank⟩⟩] .leaf) 7558896 [⟨⟨(.inside 2),[],.lcode,true,[],false⟩,false,false,[],some 4,some ⟨(.inside 2),[],.lcode,false,[],false⟩,none,true,false,false,none,false,⟨.lcode,some .internalNl,false,.lblank⟩⟩] (.node .leaf 7854856 [⟨⟨(.inside 2),[],.lblank,true,[],false⟩,false,false,[],some 4,some ⟨(.inside 2),[],.lcode,false,[],false⟩,none,true,false,false,none,false,⟨.lblank,some .internalNl,false,.lblank⟩⟩] .leaf)),.leaf,(.node (.node .leaf 7522021 [⟨⟨(.inside 2),[],.lcode,false,[],false⟩,false,false,[],some 4,some ⟨(.inside 2),[],.lcode,false,[],false⟩,none,false,false,false,none,false,⟨.lcode,some (.own 3),false,.lblank⟩⟩] .leaf) 7522029 [⟨⟨(.inside 2),[],.lcode,false,[],false⟩,false,false,[],some 4,some ⟨(.inside 2),[],.lcode,false,[],false⟩,none,true,false,false,none,false,⟨.lcode,some .internalNl,false,.lblank⟩⟩] .leaf),(.node (.node (.node .leaf 610242271 [⟨⟨(.inside 1),[],.lcode,false,[],false⟩,false,false,[],some 4,some ⟨.code,[47],.lcode,false,[],false⟩,some ([(42,(.other,false))],false),false,false,false,none,false,⟨.lcode,some (.own 3),false,.lblank⟩⟩] .leaf) 610242279 [⟨⟨(.inside 1),[],.lcode,false,[],false⟩,false,false,[],some 4,some ⟨.code,[47],.lcode,false,[],false⟩,some ([(42,(.other,false))],false),true,false,false,none,false,⟨.lcode,some .internalNl,false,.lblank⟩⟩] .leaf) 612660007 [⟨⟨(.inside 1),[],.lcode,false,[],false⟩,false,false,[],some 4,some ⟨.code,[47],.lblank,false,[],false⟩,some ([(42,(.other,false))],false),false,false,false,none,false,⟨.lcode,some (.own 3),false,.lblank⟩⟩] (.node .leaf 612660015 [⟨⟨(.inside 1),[],.lcode,false,[],false⟩,false,false,[],some 4,some ⟨.code,[47],.lblank,false,[],false⟩,some ([(42,(.other,false))],false),true,false,false,none,false,⟨.lcode,some .internalNl,false,.lblank⟩⟩] .leaf)),(.node (.node (.node .leaf 610242271 [⟨⟨(.inside 1),[],.lcode,false,[],false⟩,false,false,[],some 4,some ⟨.code,[47],.lcode,false,[],false⟩,some ([(42,(.other,false))],false),false,false,false,none,false,⟨.lcode,some (.own 3),false,.lblank⟩⟩] .leaf) 610242279 [⟨⟨(.inside 1),[],.lcode,false,[],false⟩,false,false,[],some 4,some ⟨.code,[47],.lcode,false,[],false⟩,some ([(42,(.other,false))],false),true,false,false,none,false,⟨.lcode,some .internalNl,false,.lblank⟩⟩] (.node .leaf 610538239 [⟨⟨(.inside 1),[],.lblank,false,[],false⟩,false,false,[],some 4,some ⟨.code,[47],.lcode,false,[],false⟩,some ([(42,(.other,false))],false),true,false,false,none,false,⟨.lblank,some .internalNl,false,.lblank⟩⟩] .leaf)) 612660007 [⟨⟨(.inside 1),[],.lcode,false,[],false⟩,false,false,[],some 4,some ⟨.code,[47],.lblank,false,[],false⟩,some ([(42,(.other,false))],false),false,false,false,none,false,⟨.lcode,some (.own 3),false,.lblank⟩⟩] (.node (.node .leaf 612660015 [⟨⟨(.inside 1),[],.lcode,false,[],false⟩,false,false,[],some 4,some ⟨.code,[47],.lblank,false,[],false⟩,some ([(42,(.other,false))],false),true,false,false,none,false,⟨.lcode,some .internalNl,false,.lblank⟩⟩] .leaf) 612807987 [⟨⟨(.inside 1),[],.lcomment,false,[],false⟩,false,false,[],some 4,some ⟨.code,[47],.lblank,false,[],false⟩,some ([(42,(.other,false))],false),false,false,false,none,false,⟨.lcomment,some (.own 3),false,.lblank⟩⟩] (.node .leaf 612955975 [⟨⟨(.inside 1),[],.lblank,false,[],false⟩,false,false,[],some 4,some ⟨.code,[47],.lblank,false,[],false⟩,some ([(42,(.other,false))],false),true,false,false,none,false,⟨.lblank,some .internalNl,false,.lblank⟩⟩] .leaf))),(.node (.node (.node .leaf 610279138 [⟨⟨(.inside 1),[],.lcode,true,[],false⟩,false,false,[],some 4,some ⟨.code,[47],.lcode,false,[],false⟩,some ([(42,(.other,false))],false),false,false,false,none,false,⟨.lcode,some (.own 3),false,.lblank⟩⟩] .leaf) 610279146 [⟨⟨(.inside 1),[],.lcode,true,[],false⟩,false,false,[],some 4,some ⟨.code,[47],.lcode,false,[],false⟩,some ([(42,(.other,false))],false),true,false,false,none,false,⟨.lcode,some .internalNl,false,.lblank⟩⟩] (.node .leaf 610575106 [⟨⟨(.inside 1),[],.lblank,true,[],false⟩,false,false,[],some 4,some ⟨.code,[47],.lcode,false,[],false⟩,some ([(42,(.other,false))],false),true,false,false,none,false,⟨.lblank,some .internalNl,false,.lblank⟩⟩] .leaf)) 612696874 [⟨⟨(.inside 1),[],.lcode,true,[],false⟩,false,false,[],some 4,some ⟨.code,[47],.lblank,false,[],false⟩,some ([(42,(.other,false))],false),false,false,false,none,false,⟨.lcode,some (.own 3),false,.lblank⟩⟩] (.node (.node .leaf 612696882 [⟨⟨(.inside 1),[],.lcode,true,[],false⟩,false,false,[],some 4,some ⟨.code,[47],.lblank,false,[],false⟩,some ([(42,(.other,false))],false),true,false,false,none,false,⟨.lcode,some .internalNl,false,.lblank⟩⟩] .leaf) 612844854 [⟨⟨(.inside 1),[],.lcomment,true,[],false⟩,false,false,[],some 4,some ⟨.code,[47],.lblank,false,[],false⟩,some ([(42,(.other,false))],false),false,false,false,none,false,⟨.lcomment,some (.own 3),false,.lblank⟩⟩] (.node .leaf 612992842 [⟨⟨(.inside 1),[],.lblank,true,[],false⟩,false,false,[],some 4,some ⟨.code,[47],.lblank,false,[],false⟩,some ([(42,(.other,false))],false),true,false,false,none,false,⟨.lblank,some .internalNl,false,.lblank⟩⟩] .leaf))),(.node (.node (.node .leaf 610279138 [⟨⟨(.inside 1),[],.lcode,true,[],false⟩,false,false,[],some 4,some ⟨.code,[47],.lcode,false,[],false⟩,some ([(42,(.other,false))],false),false,false,false,none,false,⟨.lcode,some (.own 3),false,.lblank⟩⟩] .leaf) 610279146 [⟨⟨(.inside 1),[],.lcode,true,[],false⟩,false,false,[],some 4,some ⟨.code,[47],.lcode,false,[],false⟩,some ([(42,(.other,false))],false),true,false,false,none,false,⟨.lcode,some .internalNl,false,.lblank⟩⟩] (.node .leaf 610575106 [⟨⟨(.inside 1),[],.lblank,true,[],false⟩,false,false,[],some 4,some ⟨.code,[47],.lcode,false,[],false⟩,some ([(42,(.other,false))],false),true,false,false,none,false,⟨.lblank,some .internalNl,false,.lblank⟩⟩] .leaf)) 612696874 [⟨⟨(.inside 1),[],.lcode,true,[],false⟩,false,false,[],some 4,some ⟨.code,[47],.lblank,false,[],false⟩,some ([(42,(.other,false))],false),false,false,false,none,false,⟨.lcode,some (.own 3),false,.lblank⟩⟩] (.node (.node .leaf 612696882 [⟨⟨(.inside 1),[],.lcode,true,[],false⟩,false,false,[],some 4,some ⟨.code,[47],.lblank,false,[],false⟩,some ([(42,(.other,false))],false),true,false,false,none,false,⟨.lcode,some .internalNl,false,.lblank⟩⟩] .leaf) 612844854 [⟨⟨(.inside 1),[],.lcomment,true,[],false⟩,false,false,[],some 4,some ⟨.code,[47],.lblank,false,[],false⟩,some ([(42,(.other,false))],false),false,false,false,none,false,⟨.lcomment,some (.own 3),false,.lblank⟩⟩] (.node .leaf 612992842 [⟨⟨(.inside 1),[],.lblank,true,[],false⟩,false,false,[],some 4,some ⟨.code,[47],.lblank,false,[],false⟩,some ([(42,(.other,false))],false),true,false,false,none,false,⟨.lblank,some .internalNl,false,.lblank⟩⟩] .leaf))),(.node (.node (.node .leaf 610242303 [⟨⟨(.inside 1),[],.lcode,false,[],false⟩,true,false,[],some 4,some ⟨.code,[47],.lcode,false,[],false⟩,some ([(42,(.other,false))],false),false,false,false,none,false,⟨.lcode,some (.own 3),false,.lblank⟩⟩] .leaf) 610242311 [⟨⟨(.inside 1),[],.lcode,false,[],false⟩,true,false,[],some 4,some ⟨.code,[47],.lcode,false,[],false⟩,some ([(42,(.other,false))],false),true,false,false,none,false,⟨.lcode,some .internalNl,false,.lblank⟩⟩] (.node .leaf 610538271 [⟨⟨(.inside 1),[],.lblank,false,[],false⟩,true,false,[],some 4,some ⟨.code,[47],.lcode,false,[],false⟩,some ([(42,(.other,false))],false),true,false,false,none,false,⟨.lblank,some .internalNl,false,.lblank⟩⟩] .leaf)) 612660039 [⟨⟨(.inside 1),[],.lcode,false,[],false⟩,true,false,[],some 4,some ⟨.code,[47],.lblank,false,[],false⟩,some ([(42,(.other,false))],false),false,false,false,none,false,⟨.lcode,some (.own 3),false,.lblank⟩⟩] (.node (.node .leaf 612660047 [⟨⟨(.inside 1),[],.lcode,false,[],false⟩,true,false,[],some 4,some ⟨.code,[47],.lblank,false,[],false⟩,some ([(42,(.other,false))],false),true,false,false,none,false,⟨.lcode,some .internalNl,false,.lblank⟩⟩] .leaf) 612808019 [⟨⟨(.inside 1),[],.lcomment,false,[],false⟩,true,false,[],some 4,some ⟨.code,[47],.lblank,false,[],false⟩,some ([(42,(.other,false))],false),false,false,false,none,false,⟨.lcomment,some (.own 3),false,.lblank⟩⟩] (.node .leaf 612956007 [⟨⟨(.inside 1),[],.lblank,false,[],false⟩,true,false,[],some 4,some ⟨.code,[47],.lblank,false,[],false⟩,some ([(42,(.other,false))],false),true,false,false,none,false,⟨.lblank,some .internalNl,false,.lblank⟩⟩] .leaf))),(.node (.node (.node .leaf 610279154 [⟨⟨(.inside 1),[],.lcode,true,[],false⟩,false,true,[],some 4,some ⟨.code,[47],.lcode,false,[],false⟩,some ([(42,(.other,false))],false),false,false,false,none,false,⟨.lcode,some (.own 3),false,.lblank⟩⟩] .leaf) 610279162 [⟨⟨(.inside 1),[],.lcode,true,[],false⟩,false,true,[],some 4,some ⟨.code,[47],.lcode,false,[],false⟩,some ([(42,(.other,false))],false),true,false,false,none,false,⟨.lcode,some .internalNl,false,.lblank⟩⟩] (.node .leaf 610575122 [⟨⟨(.inside 1),[],.lblank,true,[],false⟩,false,true,[],some 4,some ⟨.code,[47],.lcode,false,[],false⟩,some ([(42,(.other,false))],false),true,false,false,none,false,⟨.lblank,some .internalNl,false,.lblank⟩⟩] .leaf)) 612696890 [⟨⟨(.inside 1),[],.lcode,true,[],false⟩,false,true,[],some 4,some ⟨.code,[47],.lblank,false,[],false⟩,some ([(42,(.other,false))],false),false,false,false,none,false,⟨.lcode,some (.own 3),false,.lblank⟩⟩] (.node (.node .leaf 612696898 [⟨⟨(.inside 1),[],.lcode,true,[],false⟩,false,true,[],some 4,some ⟨.code,[47],.lblank,false,[],false⟩,some ([(42,(.other,false))],false),true,false,false,none,false,⟨.lcode,some .internalNl,false,.lblank⟩⟩] .leaf) 612844870 [⟨⟨(.inside 1),[],.lcomment,true,[],false⟩,false,true,[],some 4,some ⟨.code,[47],.lblank,false,[],false⟩,some ([(42,(.other,false))],false),false,false,false,none,false,⟨.lcomment,some (.own 3),false,.lblank⟩⟩] (.node .leaf 612992858 [⟨⟨(.inside 1),[],.lblank,true,[],false⟩,false,true,[],some 4,some ⟨.code,[47],.lblank,false,[],false⟩,some ([(42,(.other,false))],false),true,false,false,none,false,⟨.lblank,some .internalNl,false,.lblank⟩⟩] .leaf))),(.node (.node (.node .leaf 1148611072 [⟨⟨(.inside 1),[42],.lcode,false,[],false⟩,false,false,[],some 4,some ⟨.code,[47],.lcode,false,[],false⟩,some ([(42,(.other,false))],false),false,false,false,none,false,⟨.lcode,some (.own 3),false,.lblank⟩⟩] .leaf) 1148611080 [⟨⟨(.inside 1),[42],.lcode,false,[],false⟩,false,false,[],some 4,some ⟨.code,[47],.lcode,false,[],false⟩,some ([(42,(.other,false))],false),true,false,false,none,false,⟨.lcode,some .internalNl,false,.lblank⟩⟩] (.node .leaf 1151028808 [⟨⟨(.inside 1),[42],.lcode,false,[],false⟩,false,false,[],some 4,some ⟨.code,[47],.lblank,false,[],false⟩,some ([(42,(.other,false))],false),false,false,false,none,false,⟨.lcode,some (.own 3),false,.lblank⟩⟩] .leaf)) 1151028816 [⟨⟨(.inside 1),[42],.lcode,false,[],false⟩,false,false,[],some 4,some ⟨.code,[47],.lblank,false,[],false⟩,some ([(42,(.other,false))],false),true,false,false,none,false,⟨.lcode,some .internalNl,false,.lblank⟩⟩] (.node (.node .leaf 1170347116 [⟨⟨(.inside 1),[42],.lcomment,false,[],false⟩,false,false,[],some 4,some ⟨.code,[47],.lblank,false,[],false⟩,some ([(42,(.other,false))],false),false,false,false,none,false,⟨.lcode,some (.own 3),false,.lblank⟩⟩] .leaf) 1187247696 [⟨⟨(.inside 1),[42],.lblank,false,[],false⟩,false,false,[],some 4,some ⟨.code,[47],.lcode,false,[],false⟩,some ([(42,(.other,false))],false),true,false,false,none,false,⟨.lcode,some .internalNl,false,.lblank⟩⟩] (.node .leaf 1189665432 [⟨⟨(.inside 1),[42],.lblank,false,[],false⟩,false,false,[],some 4,some ⟨.code,[47],.lblank,false,[],false⟩,some ([(42,(.other,false))],false),true,false,false,none,false,⟨.lcode,some .internalNl,false,.lblank⟩⟩] .leaf))),(.node (.node (.node .leaf 610279138 [⟨⟨(.inside 1),[],.lcode,true,[],false⟩,false,false,[],some 4,some ⟨.code,[47],.lcode,false,[],false⟩,some ([(42,(.other,false))],false),false,false,false,none,false,⟨.lcode,some (.own 3),false,.lblank⟩⟩] .leaf) 610279146 [⟨⟨(.inside 1),[],.lcode,true,[],false⟩,false,false,[],some 4,some ⟨.code,[47],.lcode,false,[],false⟩,some ([(42,(.other,false))],false),true,false,false,none,false,⟨.lcode,some .internalNl,false,.lblank⟩⟩] (.node .leaf 610575106 [⟨⟨(.inside 1),[],.lblank,true,[],false⟩,false,false,[],some 4,some ⟨.code,[47],.lcode,false,[],false⟩,some ([(42,(.other,false))],false),true,false,false,none,false,⟨.lblank,some .internalNl,false,.lblank⟩⟩] .leaf)) 612696874 [⟨⟨(.inside 1),[],.lcode,true,[],false⟩,false,false,[],some 4,some ⟨.code,[47],.lblank,false,[],false⟩,some ([(42,(.other,false))],false),false,false,false,none,false,⟨.lcode,some (.own 3),false,.lblank⟩⟩] (.node (.node .leaf 612696882 [⟨⟨(.inside 1),[],.lcode,true,[],false⟩,false,false,[],some 4,some ⟨.code,[47],.lblank,false,[],false⟩,some ([(42,(.other,false))],false),true,false,false,none,false,⟨.lcode,some .internalNl,false,.lblank⟩⟩] .leaf) 612844854 [⟨⟨(.inside 1),[],.lcomment,true,[],false⟩,false,false,[],some 4,some ⟨.code,[47],.lblank,false,[],false⟩,some ([(42,(.other,false))],false),false,false,false,none,false,⟨.lcomment,some (.own 3),false,.lblank⟩⟩] (.node .leaf 612992842 [⟨⟨(.inside 1),[],.lblank,true,[],false⟩,false,false,[],some 4,some ⟨.code,[47],.lblank,false,[],false⟩,some ([(42,(.other,false))],false),true,false,false,none,false,⟨.lblank,some .internalNl,false,.lblank⟩⟩] .leaf))),.leaf]
theorem puppet_line_lClosed : CA.closedF puppet_line_M puppet_line_lex true false puppet_line_lfr puppet_line_lTab = true := by decide +kernel
def puppet_line_L : LCert LexisTable.puppet_line puppet_line_M := puppet_line_lex_eq ▸ ⟨⟨puppet_line_lmasks, puppet_line_lex.rel, puppet_line_lcs, puppet_line_lrows, puppet_line_lmasksIn, puppet_line_lrepOk, puppet_line_lrowsOk⟩,
  _, rfl, by decide +kernel, by decide +kernel, true, false, CA.closed_of puppet_line_lfrOk puppet_line_lClosed⟩
theorem puppet_line_L_chk : puppet_line_L.chk = true := by
  have : ∀ (l : Lexis) (h : LexisTable.puppet_line = l) (C : LCert l puppet_line_M), (h ▸ C : LCert LexisTable.puppet_line puppet_line_M).chk = C.chk := by rintro _ rfl _; rfl
  exact this _ puppet_line_lex_eq _

end Ohcount.Cert
