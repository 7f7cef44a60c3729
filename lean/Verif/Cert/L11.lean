import Verif.Cert.N1
import Verif.Cert.N2
import Verif.Cert.N10
import Verif.Cert.N12
import Verif.RagelLexFast
import Verif.LexisTable

/-! Generated by tools/gen_certs.py. -/

namespace Ohcount.Cert
open Ohcount.Ragel Ohcount.Gram

set_option maxRecDepth 100000
set_option maxHeartbeats 0

def ampl_line_lex : Lexis := [⟨[35],[],.lcomment,false,false,false,true,false,false,true,false,none,false,false,false,false,[]⟩,⟨[47,42],[[42,47]],.lcomment,true,false,false,true,false,false,true,false,none,false,false,false,false,[]⟩]
theorem ampl_line_lex_eq : LexisTable.ampl_line = ampl_line_lex := by decide +kernel
def ampl_line_lmasks : List Nat := [4294967808,34359738368,140737488355328,8192,1024,4096,115792089237316195423570985008687907853269984665640564039457584007908834656767,115792089237316195423570985008687907853269984665640564039457584007913129626623,4398046511104,115792089237316195423570985008687907853269984665640564039457584007908834658815,4951760157141521099596496896]
def ampl_line_lcs : List (Nat × Nat) := [(0,115792089237316195423570985008687907853269984665635612279300442341639343555071),(9,4294967808),(10,1024),(11,2048),(12,4096),(13,8192),(35,34359738368),(42,4398046511104),(47,140737488355328),(92,4951760157141521099596496896)]
theorem ampl_line_lmasksIn : masksIn ampl_line_nfa ampl_line_lmasks = true := by decide +kernel
theorem ampl_line_lrepOk : repOk ampl_line_lmasks ampl_line_lcs = true := by decide +kernel
def ampl_line_lrows : List Row := [⟨[],none,[],[⟨256,.other,false,some ⟨0,[.setEnt (.own 2)],some 3,true⟩⟩,⟨256,.ws,false,some ⟨1,[.setEnt (.own 0)],some 0,false⟩⟩,⟨256,.lf,false,some ⟨0,[.setEnt .newline],some 2,true⟩⟩,⟨256,.vt,false,none⟩,⟨256,.ff,false,some ⟨0,[.setEnt .newline],some 2,true⟩⟩,⟨256,.cr,false,some ⟨2,[.setEnt .newline],none,false⟩⟩,⟨256,.cr,true,some ⟨3,[.setEnt .newline],some 2,false⟩⟩,⟨35,.other,false,some ⟨4,[.comment,.setEnt (.own 2)],some 1,false⟩⟩,⟨42,.other,false,some ⟨0,[.setEnt (.own 2)],some 3,true⟩⟩,⟨47,.other,false,some ⟨5,[.setEnt (.own 2)],some 3,false⟩⟩,⟨92,.other,false,some ⟨0,[.setEnt (.own 2)],some 3,true⟩⟩]⟩,⟨[0],some 0,[],[⟨256,.other,false,none⟩,⟨256,.ws,false,some ⟨1,[.setEnt (.own 0)],some 0,false⟩⟩,⟨256,.lf,false,none⟩,⟨256,.vt,false,none⟩,⟨256,.ff,false,none⟩,⟨256,.cr,false,none⟩,⟨256,.cr,true,none⟩,⟨35,.other,false,none⟩,⟨42,.other,false,none⟩,⟨47,.other,false,none⟩,⟨92,.other,false,none⟩]⟩,⟨[14],none,[],[⟨256,.other,false,none⟩,⟨256,.ws,false,none⟩,⟨256,.lf,false,some ⟨0,[.setEnt .newline],some 2,true⟩⟩,⟨256,.vt,false,none⟩,⟨256,.ff,false,none⟩,⟨256,.cr,false,none⟩,⟨256,.cr,true,none⟩,⟨35,.other,false,none⟩,⟨42,.other,false,none⟩,⟨47,.other,false,none⟩,⟨92,.other,false,none⟩]⟩,⟨[14,18],some 2,[],[⟨256,.other,false,none⟩,⟨256,.ws,false,none⟩,⟨256,.lf,false,some ⟨0,[.setEnt .newline],some 2,true⟩⟩,⟨256,.vt,false,none⟩,⟨256,.ff,false,none⟩,⟨256,.cr,false,none⟩,⟨256,.cr,true,none⟩,⟨35,.other,false,none⟩,⟨42,.other,false,none⟩,⟨47,.other,false,none⟩,⟨92,.other,false,none⟩]⟩,⟨[1,19],some 1,[],[⟨256,.other,false,some ⟨6,[],some 1,false⟩⟩,⟨256,.ws,false,some ⟨6,[],some 1,false⟩⟩,⟨256,.lf,false,none⟩,⟨256,.vt,false,some ⟨6,[],some 1,false⟩⟩,⟨256,.ff,false,none⟩,⟨256,.cr,false,none⟩,⟨256,.cr,true,none⟩,⟨35,.other,false,some ⟨6,[],some 1,false⟩⟩,⟨42,.other,false,some ⟨6,[],some 1,false⟩⟩,⟨47,.other,false,some ⟨6,[],some 1,false⟩⟩,⟨92,.other,false,some ⟨6,[],some 1,false⟩⟩]⟩,⟨[3,19],some 3,[],[⟨256,.other,false,none⟩,⟨256,.ws,false,none⟩,⟨256,.lf,false,none⟩,⟨256,.vt,false,none⟩,⟨256,.ff,false,none⟩,⟨256,.cr,false,none⟩,⟨256,.cr,true,none⟩,⟨35,.other,false,none⟩,⟨42,.other,false,some ⟨7,[.comment],none,false⟩⟩,⟨47,.other,false,none⟩,⟨92,.other,false,none⟩]⟩,⟨[2],some 1,[],[⟨256,.other,false,some ⟨6,[],some 1,false⟩⟩,⟨256,.ws,false,some ⟨6,[],some 1,false⟩⟩,⟨256,.lf,false,none⟩,⟨256,.vt,false,some ⟨6,[],some 1,false⟩⟩,⟨256,.ff,false,none⟩,⟨256,.cr,false,none⟩,⟨256,.cr,true,none⟩,⟨35,.other,false,some ⟨6,[],some 1,false⟩⟩,⟨42,.other,false,some ⟨6,[],some 1,false⟩⟩,⟨47,.other,false,some ⟨6,[],some 1,false⟩⟩,⟨92,.other,false,some ⟨6,[],some 1,false⟩⟩]⟩,⟨[4],none,[],[⟨256,.other,false,some ⟨8,[.comment],none,false⟩⟩,⟨256,.ws,false,some ⟨9,[],none,false⟩⟩,⟨256,.lf,false,some ⟨10,[],none,false⟩⟩,⟨256,.vt,false,some ⟨8,[.comment],none,false⟩⟩,⟨256,.ff,false,some ⟨11,[],none,false⟩⟩,⟨256,.cr,false,some ⟨12,[],none,false⟩⟩,⟨256,.cr,true,some ⟨13,[],none,false⟩⟩,⟨35,.other,false,some ⟨8,[.comment],none,false⟩⟩,⟨42,.other,false,some ⟨14,[.comment],none,false⟩⟩,⟨47,.other,false,some ⟨8,[.comment],none,false⟩⟩,⟨92,.other,false,some ⟨8,[.comment],none,false⟩⟩]⟩,⟨[11],none,[],[⟨256,.other,false,some ⟨8,[.comment],none,false⟩⟩,⟨256,.ws,false,some ⟨9,[],none,false⟩⟩,⟨256,.lf,false,some ⟨10,[],none,false⟩⟩,⟨256,.vt,false,some ⟨8,[.comment],none,false⟩⟩,⟨256,.ff,false,some ⟨11,[],none,false⟩⟩,⟨256,.cr,false,some ⟨12,[],none,false⟩⟩,⟨256,.cr,true,some ⟨13,[],none,false⟩⟩,⟨35,.other,false,some ⟨8,[.comment],none,false⟩⟩,⟨42,.other,false,some ⟨14,[.comment],none,false⟩⟩,⟨47,.other,false,some ⟨8,[.comment],none,false⟩⟩,⟨92,.other,false,some ⟨8,[.comment],none,false⟩⟩]⟩,⟨[10],none,[],[⟨256,.other,false,some ⟨8,[.comment],none,false⟩⟩,⟨256,.ws,false,some ⟨9,[],none,false⟩⟩,⟨256,.lf,false,some ⟨10,[],none,false⟩⟩,⟨256,.vt,false,some ⟨8,[.comment],none,false⟩⟩,⟨256,.ff,false,some ⟨11,[],none,false⟩⟩,⟨256,.cr,false,some ⟨12,[],none,false⟩⟩,⟨256,.cr,true,some ⟨13,[],none,false⟩⟩,⟨35,.other,false,some ⟨8,[.comment],none,false⟩⟩,⟨42,.other,false,some ⟨14,[.comment],none,false⟩⟩,⟨47,.other,false,some ⟨8,[.comment],none,false⟩⟩,⟨92,.other,false,some ⟨8,[.comment],none,false⟩⟩]⟩,⟨[7],none,[],[⟨256,.other,false,some ⟨8,[.setEnt .internalNl,.cb,.comment],none,false⟩⟩,⟨256,.ws,false,some ⟨9,[.setEnt .internalNl,.cb],none,false⟩⟩,⟨256,.lf,false,some ⟨10,[.setEnt .internalNl,.cb],none,false⟩⟩,⟨256,.vt,false,some ⟨8,[.setEnt .internalNl,.cb,.comment],none,false⟩⟩,⟨256,.ff,false,some ⟨11,[.setEnt .internalNl,.cb],none,false⟩⟩,⟨256,.cr,false,some ⟨12,[.setEnt .internalNl,.cb],none,false⟩⟩,⟨256,.cr,true,some ⟨13,[.setEnt .internalNl,.cb],none,false⟩⟩,⟨35,.other,false,some ⟨8,[.setEnt .internalNl,.cb,.comment],none,false⟩⟩,⟨42,.other,false,some ⟨14,[.setEnt .internalNl,.cb,.comment],none,false⟩⟩,⟨47,.other,false,some ⟨8,[.setEnt .internalNl,.cb,.comment],none,false⟩⟩,⟨92,.other,false,some ⟨8,[.setEnt .internalNl,.cb,.comment],none,false⟩⟩]⟩,⟨[8],none,[],[⟨256,.other,false,some ⟨8,[.setEnt .internalNl,.cb,.comment],none,false⟩⟩,⟨256,.ws,false,some ⟨9,[.setEnt .internalNl,.cb],none,false⟩⟩,⟨256,.lf,false,some ⟨10,[.setEnt .internalNl,.cb],none,false⟩⟩,⟨256,.vt,false,some ⟨8,[.setEnt .internalNl,.cb,.comment],none,false⟩⟩,⟨256,.ff,false,some ⟨11,[.setEnt .internalNl,.cb],none,false⟩⟩,⟨256,.cr,false,some ⟨12,[.setEnt .internalNl,.cb],none,false⟩⟩,⟨256,.cr,true,some ⟨13,[.setEnt .internalNl,.cb],none,false⟩⟩,⟨35,.other,false,some ⟨8,[.setEnt .internalNl,.cb,.comment],none,false⟩⟩,⟨42,.other,false,some ⟨14,[.setEnt .internalNl,.cb,.comment],none,false⟩⟩,⟨47,.other,false,some ⟨8,[.setEnt .internalNl,.cb,.comment],none,false⟩⟩,⟨92,.other,false,some ⟨8,[.setEnt .internalNl,.cb,.comment],none,false⟩⟩]⟩,⟨[5],none,[],[⟨256,.other,false,none⟩,⟨256,.ws,false,none⟩,⟨256,.lf,false,some ⟨15,[],none,false⟩⟩,⟨256,.vt,false,none⟩,⟨256,.ff,false,none⟩,⟨256,.cr,false,none⟩,⟨256,.cr,true,none⟩,⟨35,.other,false,none⟩,⟨42,.other,false,none⟩,⟨47,.other,false,none⟩,⟨92,.other,false,none⟩]⟩,⟨[5,9],none,[],[⟨256,.other,false,some ⟨8,[.setEnt .internalNl,.cb,.comment],none,false⟩⟩,⟨256,.ws,false,some ⟨9,[.setEnt .internalNl,.cb],none,false⟩⟩,⟨256,.lf,false,some ⟨16,[.setEnt .internalNl,.cb],none,false⟩⟩,⟨256,.vt,false,some ⟨8,[.setEnt .internalNl,.cb,.comment],none,false⟩⟩,⟨256,.ff,false,some ⟨11,[.setEnt .internalNl,.cb],none,false⟩⟩,⟨256,.cr,false,some ⟨12,[.setEnt .internalNl,.cb],none,false⟩⟩,⟨256,.cr,true,some ⟨13,[.setEnt .internalNl,.cb],none,false⟩⟩,⟨35,.other,false,some ⟨8,[.setEnt .internalNl,.cb,.comment],none,false⟩⟩,⟨42,.other,false,some ⟨14,[.setEnt .internalNl,.cb,.comment],none,false⟩⟩,⟨47,.other,false,some ⟨8,[.setEnt .internalNl,.cb,.comment],none,false⟩⟩,⟨92,.other,false,some ⟨8,[.setEnt .internalNl,.cb,.comment],none,false⟩⟩]⟩,⟨[11,12],none,[],[⟨256,.other,false,some ⟨8,[.comment],none,false⟩⟩,⟨256,.ws,false,some ⟨9,[],none,false⟩⟩,⟨256,.lf,false,some ⟨10,[],none,false⟩⟩,⟨256,.vt,false,some ⟨8,[.comment],none,false⟩⟩,⟨256,.ff,false,some ⟨11,[],none,false⟩⟩,⟨256,.cr,false,some ⟨12,[],none,false⟩⟩,⟨256,.cr,true,some ⟨13,[],none,false⟩⟩,⟨35,.other,false,some ⟨8,[.comment],none,false⟩⟩,⟨42,.other,false,some ⟨14,[.comment],none,false⟩⟩,⟨47,.other,false,some ⟨0,[],some 1,true⟩⟩,⟨92,.other,false,some ⟨8,[.comment],none,false⟩⟩]⟩,⟨[6],none,[],[⟨256,.other,false,some ⟨8,[.setEnt .internalNl,.cb,.comment],none,false⟩⟩,⟨256,.ws,false,some ⟨9,[.setEnt .internalNl,.cb],none,false⟩⟩,⟨256,.lf,false,some ⟨10,[.setEnt .internalNl,.cb],none,false⟩⟩,⟨256,.vt,false,some ⟨8,[.setEnt .internalNl,.cb,.comment],none,false⟩⟩,⟨256,.ff,false,some ⟨11,[.setEnt .internalNl,.cb],none,false⟩⟩,⟨256,.cr,false,some ⟨12,[.setEnt .internalNl,.cb],none,false⟩⟩,⟨256,.cr,true,some ⟨13,[.setEnt .internalNl,.cb],none,false⟩⟩,⟨35,.other,false,some ⟨8,[.setEnt .internalNl,.cb,.comment],none,false⟩⟩,⟨42,.other,false,some ⟨14,[.setEnt .internalNl,.cb,.comment],none,false⟩⟩,⟨47,.other,false,some ⟨8,[.setEnt .internalNl,.cb,.comment],none,false⟩⟩,⟨92,.other,false,some ⟨8,[.setEnt .internalNl,.cb,.comment],none,false⟩⟩]⟩,⟨[6,7],none,[],[⟨256,.other,false,some ⟨8,[.setEnt .internalNl,.cb,.comment],none,false⟩⟩,⟨256,.ws,false,some ⟨9,[.setEnt .internalNl,.cb],none,false⟩⟩,⟨256,.lf,false,some ⟨10,[.setEnt .internalNl,.cb],none,false⟩⟩,⟨256,.vt,false,some ⟨8,[.setEnt .internalNl,.cb,.comment],none,false⟩⟩,⟨256,.ff,false,some ⟨11,[.setEnt .internalNl,.cb],none,false⟩⟩,⟨256,.cr,false,some ⟨12,[.setEnt .internalNl,.cb],none,false⟩⟩,⟨256,.cr,true,some ⟨13,[.setEnt .internalNl,.cb],none,false⟩⟩,⟨35,.other,false,some ⟨8,[.setEnt .internalNl,.cb,.comment],none,false⟩⟩,⟨42,.other,false,some ⟨14,[.setEnt .internalNl,.cb,.comment],none,false⟩⟩,⟨47,.other,false,some ⟨8,[.setEnt .internalNl,.cb,.comment],none,false⟩⟩,⟨92,.other,false,some ⟨8,[.setEnt .internalNl,.cb,.comment],none,false⟩⟩]⟩]
theorem ampl_line_lrowsOk : rowsOk ampl_line_nfa ampl_line_lex.rel (ampl_line_lcs.map (·.1)) ampl_line_lrows = true := by decide +kernel
def ampl_line_lfr : List CA.FRow := [⟨true,none,[],[⟨256,.other,false,false,none,some ([.setEnt (.own 2)],(some 3,true))⟩,⟨9,.ws,false,false,some 1,some ([.setEnt (.own 0)],(some 0,false))⟩,⟨10,.lf,false,true,none,some ([.setEnt .newline],(some 2,true))⟩,⟨11,.vt,false,false,none,none⟩,⟨12,.ff,false,true,none,some ([.setEnt .newline],(some 2,true))⟩,⟨13,.cr,false,false,some 2,some ([.setEnt .newline],(none,false))⟩,⟨13,.cr,true,true,some 3,some ([.setEnt .newline],(some 2,false))⟩,⟨35,.other,false,false,some 4,some ([.comment,.setEnt (.own 2)],(some 1,false))⟩,⟨42,.other,false,false,none,some ([.setEnt (.own 2)],(some 3,true))⟩,⟨47,.other,false,false,some 5,some ([.setEnt (.own 2)],(some 3,false))⟩,⟨92,.other,false,false,none,some ([.setEnt (.own 2)],(some 3,true))⟩]⟩,⟨false,some 0,[],[⟨256,.other,false,false,none,none⟩,⟨9,.ws,false,false,some 1,some ([.setEnt (.own 0)],(some 0,false))⟩,⟨10,.lf,false,true,none,none⟩,⟨11,.vt,false,false,none,none⟩,⟨12,.ff,false,true,none,none⟩,⟨13,.cr,false,false,none,none⟩,⟨13,.cr,true,true,none,none⟩,⟨35,.other,false,false,none,none⟩,⟨42,.other,false,false,none,none⟩,⟨47,.other,false,false,none,none⟩,⟨92,.other,false,false,none,none⟩]⟩,⟨false,none,[],[⟨256,.other,false,false,none,none⟩,⟨9,.ws,false,false,none,none⟩,⟨10,.lf,false,true,none,some ([.setEnt .newline],(some 2,true))⟩,⟨11,.vt,false,false,none,none⟩,⟨12,.ff,false,true,none,none⟩,⟨13,.cr,false,false,none,none⟩,⟨13,.cr,true,true,none,none⟩,⟨35,.other,false,false,none,none⟩,⟨42,.other,false,false,none,none⟩,⟨47,.other,false,false,none,none⟩,⟨92,.other,false,false,none,none⟩]⟩,⟨false,some 2,[],[⟨256,.other,false,false,none,none⟩,⟨9,.ws,false,false,none,none⟩,⟨10,.lf,false,true,none,some ([.setEnt .newline],(some 2,true))⟩,⟨11,.vt,false,false,none,none⟩,⟨12,.ff,false,true,none,none⟩,⟨13,.cr,false,false,none,none⟩,⟨13,.cr,true,true,none,none⟩,⟨35,.other,false,false,none,none⟩,⟨42,.other,false,false,none,none⟩,⟨47,.other,false,false,none,none⟩,⟨92,.other,false,false,none,none⟩]⟩,⟨false,some 1,[],[⟨256,.other,false,false,some 6,some ([],(some 1,false))⟩,⟨9,.ws,false,false,some 6,some ([],(some 1,false))⟩,⟨10,.lf,false,true,none,none⟩,⟨11,.vt,false,false,some 6,some ([],(some 1,false))⟩,⟨12,.ff,false,true,none,none⟩,⟨13,.cr,false,false,none,none⟩,⟨13,.cr,true,true,none,none⟩,⟨35,.other,false,false,some 6,some ([],(some 1,false))⟩,⟨42,.other,false,false,some 6,some ([],(some 1,false))⟩,⟨47,.other,false,false,some 6,some ([],(some 1,false))⟩,⟨92,.other,false,false,some 6,some ([],(some 1,false))⟩]⟩,⟨false,some 3,[],[⟨256,.other,false,false,none,none⟩,⟨9,.ws,false,false,none,none⟩,⟨10,.lf,false,true,none,none⟩,⟨11,.vt,false,false,none,none⟩,⟨12,.ff,false,true,none,none⟩,⟨13,.cr,false,false,none,none⟩,⟨13,.cr,true,true,none,none⟩,⟨35,.other,false,false,none,none⟩,⟨42,.other,false,false,some 7,some ([.comment],(none,false))⟩,⟨47,.other,false,false,none,none⟩,⟨92,.other,false,false,none,none⟩]⟩,⟨false,some 1,[],[⟨256,.other,false,false,some 6,some ([],(some 1,false))⟩,⟨9,.ws,false,false,some 6,some ([],(some 1,false))⟩,⟨10,.lf,false,true,none,none⟩,⟨11,.vt,false,false,some 6,some ([],(some 1,false))⟩,⟨12,.ff,false,true,none,none⟩,⟨13,.cr,false,false,none,none⟩,⟨13,.cr,true,true,none,none⟩,⟨35,.other,false,false,some 6,some ([],(some 1,false))⟩,⟨42,.other,false,false,some 6,some ([],(some 1,false))⟩,⟨47,.other,false,false,some 6,some ([],(some 1,false))⟩,⟨92,.other,false,false,some 6,some ([],(some 1,false))⟩]⟩,⟨false,none,[],[⟨256,.other,false,false,some 8,some ([.comment],(none,false))⟩,⟨9,.ws,false,false,some 9,some ([],(none,false))⟩,⟨10,.lf,false,true,some 10,some ([],(none,false))⟩,⟨11,.vt,false,false,some 8,some ([.comment],(none,false))⟩,⟨12,.ff,false,true,some 11,some ([],(none,false))⟩,⟨13,.cr,false,false,some 12,some ([],(none,false))⟩,⟨13,.cr,true,true,some 13,some ([],(none,false))⟩,⟨35,.other,false,false,some 8,some ([.comment],(none,false))⟩,⟨42,.other,false,false,some 14,some ([.comment],(none,false))⟩,⟨47,.other,false,false,some 8,some ([.comment],(none,false))⟩,⟨92,.other,false,false,some 8,some ([.comment],(none,false))⟩]⟩,⟨false,none,[],[⟨256,.other,false,false,some 8,some ([.comment],(none,false))⟩,⟨9,.ws,false,false,some 9,some ([],(none,false))⟩,⟨10,.lf,false,true,some 10,some ([],(none,false))⟩,⟨11,.vt,false,false,some 8,some ([.comment],(none,false))⟩,⟨12,.ff,false,true,some 11,some ([],(none,false))⟩,⟨13,.cr,false,false,some 12,some ([],(none,false))⟩,⟨13,.cr,true,true,some 13,some ([],(none,false))⟩,⟨35,.other,false,false,some 8,some ([.comment],(none,false))⟩,⟨42,.other,false,false,some 14,some ([.comment],(none,false))⟩,⟨47,.other,false,false,some 8,some ([.comment],(none,false))⟩,⟨92,.other,false,false,some 8,some ([.comment],(none,false))⟩]⟩,⟨false,none,[],[⟨256,.other,false,false,some 8,some ([.comment],(none,false))⟩,⟨9,.ws,false,false,some 9,some ([],(none,false))⟩,⟨10,.lf,false,true,some 10,some ([],(none,false))⟩,⟨11,.vt,false,false,some 8,some ([.comment],(none,false))⟩,⟨12,.ff,false,true,some 11,some ([],(none,false))⟩,⟨13,.cr,false,false,some 12,some ([],(none,false))⟩,⟨13,.cr,true,true,some 13,some ([],(none,false))⟩,⟨35,.other,false,false,some 8,some ([.comment],(none,false))⟩,⟨42,.other,false,false,some 14,some ([.comment],(none,false))⟩,⟨47,.other,false,false,some 8,some ([.comment],(none,false))⟩,⟨92,.other,false,false,some 8,some ([.comment],(none,false))⟩]⟩,⟨false,none,[],[⟨256,.other,false,false,some 8,some ([.setEnt .internalNl,.cb,.comment],(none,false))⟩,⟨9,.ws,false,false,some 9,some ([.setEnt .internalNl,.cb],(none,false))⟩,⟨10,.lf,false,true,some 10,some ([.setEnt .internalNl,.cb],(none,false))⟩,⟨11,.vt,false,false,some 8,some ([.setEnt .internalNl,.cb,.comment],(none,false))⟩,⟨12,.ff,false,true,some 11,some ([.setEnt .internalNl,.cb],(none,false))⟩,⟨13,.cr,false,false,some 12,some ([.setEnt .internalNl,.cb],(none,false))⟩,⟨13,.cr,true,true,some 13,some ([.setEnt .internalNl,.cb],(none,false))⟩,⟨35,.other,false,false,some 8,some ([.setEnt .internalNl,.cb,.comment],(none,false))⟩,⟨42,.other,false,false,some 14,some ([.setEnt .internalNl,.cb,.comment],(none,false))⟩,⟨47,.other,false,false,some 8,some ([.setEnt .internalNl,.cb,.comment],(none,false))⟩,⟨92,.other,false,false,some 8,some ([.setEnt .internalNl,.cb,.comment],(none,false))⟩]⟩,⟨false,none,[],[⟨256,.other,false,false,some 8,some ([.setEnt .internalNl,.cb,.comment],(none,false))⟩,⟨9,.ws,false,false,some 9,some ([.setEnt .internalNl,.cb],(none,false))⟩,⟨10,.lf,false,true,some 10,some ([.setEnt .internalNl,.cb],(none,false))⟩,⟨11,.vt,false,false,some 8,some ([.setEnt .internalNl,.cb,.comment],(none,false))⟩,⟨12,.ff,false,true,some 11,some ([.setEnt .internalNl,.cb],(none,false))⟩,⟨13,.cr,false,false,some 12,some ([.setEnt .internalNl,.cb],(none,false))⟩,⟨13,.cr,true,true,some 13,some ([.setEnt .internalNl,.cb],(none,false))⟩,⟨35,.other,false,false,some 8,some ([.setEnt .internalNl,.cb,.comment],(none,false))⟩,⟨42,.other,false,false,some 14,some ([.setEnt .internalNl,.cb,.comment],(none,false))⟩,⟨47,.other,false,false,some 8,some ([.setEnt .internalNl,.cb,.comment],(none,false))⟩,⟨92,.other,false,false,some 8,some ([.setEnt .internalNl,.cb,.comment],(none,false))⟩]⟩,⟨false,none,[],[⟨256,.other,false,false,none,none⟩,⟨9,.ws,false,false,none,none⟩,⟨10,.lf,false,true,some 15,some ([],(none,false))⟩,⟨11,.vt,false,false,none,none⟩,⟨12,.ff,false,true,none,none⟩,⟨13,.cr,false,false,none,none⟩,⟨13,.cr,true,true,none,none⟩,⟨35,.other,false,false,none,none⟩,⟨42,.other,false,false,none,none⟩,⟨47,.other,false,false,none,none⟩,⟨92,.other,false,false,none,none⟩]⟩,⟨false,none,[],[⟨256,.other,false,false,some 8,some ([.setEnt .internalNl,.cb,.comment],(none,false))⟩,⟨9,.ws,false,false,some 9,some ([.setEnt .internalNl,.cb],(none,false))⟩,⟨10,.lf,false,true,some 16,some ([.setEnt .internalNl,.cb],(none,false))⟩,⟨11,.vt,false,false,some 8,some ([.setEnt .internalNl,.cb,.comment],(none,false))⟩,⟨12,.ff,false,true,some 11,some ([.setEnt .internalNl,.cb],(none,false))⟩,⟨13,.cr,false,false,some 12,some ([.setEnt .internalNl,.cb],(none,false))⟩,⟨13,.cr,true,true,some 13,some ([.setEnt .internalNl,.cb],(none,false))⟩,⟨35,.other,false,false,some 8,some ([.setEnt .internalNl,.cb,.comment],(none,false))⟩,⟨42,.other,false,false,some 14,some ([.setEnt .internalNl,.cb,.comment],(none,false))⟩,⟨47,.other,false,false,some 8,some ([.setEnt .internalNl,.cb,.comment],(none,false))⟩,⟨92,.other,false,false,some 8,some ([.setEnt .internalNl,.cb,.comment],(none,false))⟩]⟩,⟨false,none,[],[⟨256,.other,false,false,some 8,some ([.comment],(none,false))⟩,⟨9,.ws,false,false,some 9,some ([],(none,false))⟩,⟨10,.lf,false,true,some 10,some ([],(none,false))⟩,⟨11,.vt,false,false,some 8,some ([.comment],(none,false))⟩,⟨12,.ff,false,true,some 11,some ([],(none,false))⟩,⟨13,.cr,false,false,some 12,some ([],(none,false))⟩,⟨13,.cr,true,true,some 13,some ([],(none,false))⟩,⟨35,.other,false,false,some 8,some ([.comment],(none,false))⟩,⟨42,.other,false,false,some 14,some ([.comment],(none,false))⟩,⟨47,.other,false,false,none,some ([],(some 1,true))⟩,⟨92,.other,false,false,some 8,some ([.comment],(none,false))⟩]⟩,⟨false,none,[],[⟨256,.other,false,false,some 8,some ([.setEnt .internalNl,.cb,.comment],(none,false))⟩,⟨9,.ws,false,false,some 9,some ([.setEnt .internalNl,.cb],(none,false))⟩,⟨10,.lf,false,true,some 10,some ([.setEnt .internalNl,.cb],(none,false))⟩,⟨11,.vt,false,false,some 8,some ([.setEnt .internalNl,.cb,.comment],(none,false))⟩,⟨12,.ff,false,true,some 11,some ([.setEnt .internalNl,.cb],(none,false))⟩,⟨13,.cr,false,false,some 12,some ([.setEnt .internalNl,.cb],(none,false))⟩,⟨13,.cr,true,true,some 13,some ([.setEnt .internalNl,.cb],(none,false))⟩,⟨35,.other,false,false,some 8,some ([.setEnt .internalNl,.cb,.comment],(none,false))⟩,⟨42,.other,false,false,some 14,some ([.setEnt .internalNl,.cb,.comment],(none,false))⟩,⟨47,.other,false,false,some 8,some ([.setEnt .internalNl,.cb,.comment],(none,false))⟩,⟨92,.other,false,false,some 8,some ([.setEnt .internalNl,.cb,.comment],(none,false))⟩]⟩,⟨false,none,[],[⟨256,.other,false,false,some 8,some ([.setEnt .internalNl,.cb,.comment],(none,false))⟩,⟨9,.ws,false,false,some 9,some ([.setEnt .internalNl,.cb],(none,false))⟩,⟨10,.lf,false,true,some 10,some ([.setEnt .internalNl,.cb],(none,false))⟩,⟨11,.vt,false,false,some 8,some ([.setEnt .internalNl,.cb,.comment],(none,false))⟩,⟨12,.ff,false,true,some 11,some ([.setEnt .internalNl,.cb],(none,false))⟩,⟨13,.cr,false,false,some 12,some ([.setEnt .internalNl,.cb],(none,false))⟩,⟨13,.cr,true,true,some 13,some ([.setEnt .internalNl,.cb],(none,false))⟩,⟨35,.other,false,false,some 8,some ([.setEnt .internalNl,.cb,.comment],(none,false))⟩,⟨42,.other,false,false,some 14,some ([.setEnt .internalNl,.cb,.comment],(none,false))⟩,⟨47,.other,false,false,some 8,some ([.setEnt .internalNl,.cb,.comment],(none,false))⟩,⟨92,.other,false,false,some 8,some ([.setEnt .internalNl,.cb,.comment],(none,false))⟩]⟩]
theorem ampl_line_lfrOk : ampl_line_lrows.map (CA.prep ampl_line_lex) = ampl_line_lfr := by decide +kernel
def ampl_line_lTab : List CT := [(.node (.node (.node (.node (.node (.node .leaf 128 [⟨⟨.code,[],.lcode,false,[],false⟩,false,false,[],none,none,none,false,false,false,none,false,⟨.lcode,none,false,.lblank⟩⟩] .leaf) 38019 [⟨⟨.code,[],.lcode,true,[],false⟩,false,false,[],none,none,none,false,false,false,none,false,⟨.lblank,none,false,.lblank⟩⟩] .leaf) 148108 [⟨⟨.code,[],.lcomment,false,[],false⟩,false,false,[],none,none,none,false,false,false,none,false,⟨.lcomment,none,false,.lblank⟩⟩] (.node (.node .leaf 185487 [⟨⟨.code,[],.lcomment,true,[],false⟩,false,false,[],none,none,none,false,false,false,none,false,⟨.lblank,none,false,.lblank⟩⟩] .leaf) 296088 [⟨⟨.code,[],.lblank,false,[],false⟩,false,false,[],none,none,none,false,false,false,none,false,⟨.lblank,none,false,.lblank⟩⟩] .leaf)) 332955 [⟨⟨.code,[],.lblank,true,[],false⟩,false,false,[],none,none,none,false,false,false,none,false,⟨.lblank,none,false,.lblank⟩⟩] (.node (.node (.node .leaf 1179872 [⟨⟨(.inside 0),[],.lcode,false,[],false⟩,false,false,[none],none,none,none,false,false,false,none,false,⟨.lcode,none,false,.lblank⟩⟩] .leaf) 1327852 [⟨⟨(.inside 0),[],.lcomment,false,[],false⟩,false,false,[none],none,none,none,false,false,false,none,false,⟨.lcomment,none,false,.lblank⟩⟩] .leaf) 1769744 [⟨⟨.code,[47],.lcode,false,[],false⟩,false,false,[none],none,none,none,false,false,false,none,false,⟨.lcode,none,false,.lblank⟩⟩] (.node (.node .leaf 20769801 [⟨⟨.code,[47],.lcode,false,[],false⟩,false,false,[some (9,(.ws,false))],none,none,none,false,false,false,none,false,⟨.lcode,none,false,.lblank⟩⟩] .leaf) 21088052 [⟨⟨.code,[47],.lcomment,false,[],false⟩,false,false,[none],none,none,none,false,false,false,none,false,⟨.lcode,none,false,.lblank⟩⟩] .leaf))) 22179935 [⟨⟨(.inside 0),[],.lcode,false,[],false⟩,false,false,[some (10,(.lf,false))],none,none,none,false,false,false,none,false,⟨.lcode,none,false,.lblank⟩⟩] (.node (.node (.node (.node .leaf 22327915 [⟨⟨(.inside 0),[],.lcomment,false,[],false⟩,false,false,[some (10,(.lf,false))],none,none,none,false,false,false,none,false,⟨.lcomment,none,false,.lblank⟩⟩] .leaf) 22769807 [⟨⟨.code,[47],.lcode,false,[],false⟩,false,false,[some (10,(.lf,false))],none,none,none,false,false,false,none,false,⟨.lcode,none,false,.lblank⟩⟩] .leaf) 26179947 [⟨⟨(.inside 0),[],.lcode,false,[],false⟩,false,false,[some (12,(.ff,false))],none,none,none,false,false,false,none,false,⟨.lcode,none,false,.lblank⟩⟩] (.node (.node .leaf 26327927 [⟨⟨(.inside 0),[],.lcomment,false,[],false⟩,false,false,[some (12,(.ff,false))],none,none,none,false,false,false,none,false,⟨.lcomment,none,false,.lblank⟩⟩] .leaf) 26769819 [⟨⟨.code,[47],.lcode,false,[],false⟩,false,false,[some (12,(.ff,false))],none,none,none,false,false,false,none,false,⟨.lcode,none,false,.lblank⟩⟩] .leaf)) 28179953 [⟨⟨(.inside 0),[],.lcode,false,[],false⟩,false,false,[some (13,(.cr,false))],none,none,none,false,false,false,none,false,⟨.lcode,none,false,.lblank⟩⟩] (.node (.node (.node .leaf 28327933 [⟨⟨(.inside 0),[],.lcomment,false,[],false⟩,false,false,[some (13,(.cr,false))],none,none,none,false,false,false,none,false,⟨.lcomment,none,false,.lblank⟩⟩] .leaf) 28769825 [⟨⟨.code,[47],.lcode,false,[],false⟩,false,false,[some (13,(.cr,false))],none,none,none,false,false,false,none,false,⟨.lcode,none,false,.lblank⟩⟩] .leaf) 29179956 [⟨⟨(.inside 0),[],.lcode,false,[],false⟩,false,false,[some (13,(.cr,true))],none,none,none,false,false,false,none,false,⟨.lcode,none,false,.lblank⟩⟩] (.node (.node .leaf 29327936 [⟨⟨(.inside 0),[],.lcomment,false,[],false⟩,false,false,[some (13,(.cr,true))],none,none,none,false,false,false,none,false,⟨.lcomment,none,false,.lblank⟩⟩] .leaf) 29769828 [⟨⟨.code,[47],.lcode,false,[],false⟩,false,false,[some (13,(.cr,true))],none,none,none,false,false,false,none,false,⟨.lcode,none,false,.lblank⟩⟩] .leaf)))) 40088109 [⟨⟨.code,[47],.lcomment,false,[],false⟩,false,false,[some (9,(.ws,false))],none,none,none,false,false,false,none,false,⟨.lcode,none,false,.lblank⟩⟩] (.node (.node (.node (.node (.node .leaf 40406360 [⟨⟨.code,[47],.lblank,false,[],false⟩,false,false,[none],none,none,none,false,false,false,none,false,⟨.lcode,none,false,.lblank⟩⟩] .leaf) 42088115 [⟨⟨.code,[47],.lcomment,false,[],false⟩,false,false,[some (10,(.lf,false))],none,none,none,false,false,false,none,false,⟨.lcode,none,false,.lblank⟩⟩] .leaf) 46088127 [⟨⟨.code,[47],.lcomment,false,[],false⟩,false,false,[some (12,(.ff,false))],none,none,none,false,false,false,none,false,⟨.lcode,none,false,.lblank⟩⟩] (.node (.node .leaf 48088133 [⟨⟨.code,[47],.lcomment,false,[],false⟩,false,false,[some (13,(.cr,false))],none,none,none,false,false,false,none,false,⟨.lcode,none,false,.lblank⟩⟩] .leaf) 49088136 [⟨⟨.code,[47],.lcomment,false,[],false⟩,false,false,[some (13,(.cr,true))],none,none,none,false,false,false,none,false,⟨.lcode,none,false,.lblank⟩⟩] .leaf)) 59406417 [⟨⟨.code,[47],.lblank,false,[],false⟩,false,false,[some (9,(.ws,false))],none,none,none,false,false,false,none,false,⟨.lcode,none,false,.lblank⟩⟩] (.node (.node (.node .leaf 61406423 [⟨⟨.code,[47],.lblank,false,[],false⟩,false,false,[some (10,(.lf,false))],none,none,none,false,false,false,none,false,⟨.lcode,none,false,.lblank⟩⟩] .leaf) 65406435 [⟨⟨.code,[47],.lblank,false,[],false⟩,false,false,[some (12,(.ff,false))],none,none,none,false,false,false,none,false,⟨.lcode,none,false,.lblank⟩⟩] .leaf) 67406441 [⟨⟨.code,[47],.lblank,false,[],false⟩,false,false,[some (13,(.cr,false))],none,none,none,false,false,false,none,false,⟨.lcode,none,false,.lblank⟩⟩] (.node (.node .leaf 68406444 [⟨⟨.code,[47],.lblank,false,[],false⟩,false,false,[some (13,(.cr,true))],none,none,none,false,false,false,none,false,⟨.lcode,none,false,.lblank⟩⟩] .leaf) 72769957 [⟨⟨.code,[47],.lcode,false,[],false⟩,false,false,[some (35,(.other,false))],none,none,none,false,false,false,none,false,⟨.lcode,none,false,.lblank⟩⟩] .leaf))) 92088265 [⟨⟨.code,[47],.lcomment,false,[],false⟩,false,false,[some (35,(.other,false))],none,none,none,false,false,false,none,false,⟨.lcode,none,false,.lblank⟩⟩] (.node (.node (.node (.node .leaf 96770029 [⟨⟨.code,[47],.lcode,false,[],false⟩,false,false,[some (47,(.other,false))],none,none,none,false,false,false,none,false,⟨.lcode,none,false,.lblank⟩⟩] .leaf) 111406573 [⟨⟨.code,[47],.lblank,false,[],false⟩,false,false,[some (35,(.other,false))],none,none,none,false,false,false,none,false,⟨.lcode,none,false,.lblank⟩⟩] .leaf) 116088337 [⟨⟨.code,[47],.lcomment,false,[],false⟩,false,false,[some (47,(.other,false))],none,none,none,false,false,false,none,false,⟨.lcode,none,false,.lblank⟩⟩] (.node (.node .leaf 135406645 [⟨⟨.code,[47],.lblank,false,[],false⟩,false,false,[some (47,(.other,false))],none,none,none,false,false,false,none,false,⟨.lcode,none,false,.lblank⟩⟩] .leaf) 186770299 [⟨⟨.code,[47],.lcode,false,[],false⟩,false,false,[some (92,(.other,false))],none,none,none,false,false,false,none,false,⟨.lcode,none,false,.lblank⟩⟩] .leaf)) 206088607 [⟨⟨.code,[47],.lcomment,false,[],false⟩,false,false,[some (92,(.other,false))],none,none,none,false,false,false,none,false,⟨.lcode,none,false,.lblank⟩⟩] (.node (.node (.node .leaf 225406915 [⟨⟨.code,[47],.lblank,false,[],false⟩,false,false,[some (92,(.other,false))],none,none,none,false,false,false,none,false,⟨.lcode,none,false,.lblank⟩⟩] .leaf) 514771283 [⟨⟨.code,[47],.lcode,false,[],false⟩,false,false,[some (256,(.other,false))],none,none,none,false,false,false,none,false,⟨.lcode,none,false,.lblank⟩⟩] .leaf) 534089591 [⟨⟨.code,[47],.lcomment,false,[],false⟩,false,false,[some (256,(.other,false))],none,none,none,false,false,false,none,false,⟨.lcode,none,false,.lblank⟩⟩] (.node .leaf 553407899 [⟨⟨.code,[47],.lblank,false,[],false⟩,false,false,[some (256,(.other,false))],none,none,none,false,false,false,none,false,⟨.lcode,none,false,.lblank⟩⟩] .leaf))))),(.node (.node .leaf 128 [⟨⟨.code,[],.lcode,false,[],false⟩,false,false,[],none,none,none,false,false,false,none,false,⟨.lcode,some (.own 0),false,.lblank⟩⟩] .leaf) 148108 [⟨⟨.code,[],.lcomment,false,[],false⟩,false,false,[],none,none,none,false,false,false,none,false,⟨.lcomment,some (.own 0),false,.lblank⟩⟩] (.node .leaf 296088 [⟨⟨.code,[],.lblank,false,[],false⟩,false,false,[],none,none,none,false,false,false,none,false,⟨.lblank,some (.own 0),false,.lblank⟩⟩] .leaf)),(.node (.node .leaf 160 [⟨⟨.code,[],.lcode,false,[],false⟩,true,false,[],none,none,none,false,false,false,none,false,⟨.lcode,some .newline,false,.lblank⟩⟩] .leaf) 148140 [⟨⟨.code,[],.lcomment,false,[],false⟩,true,false,[],none,none,none,false,false,false,none,false,⟨.lcomment,some .newline,false,.lblank⟩⟩] (.node .leaf 296120 [⟨⟨.code,[],.lblank,false,[],false⟩,true,false,[],none,none,none,false,false,false,none,false,⟨.lblank,some .newline,false,.lblank⟩⟩] .leaf)),(.node (.node .leaf 37011 [⟨⟨.code,[],.lcode,true,[],false⟩,false,true,[],none,none,none,false,false,false,none,false,⟨.lcode,some .newline,false,.lblank⟩⟩] .leaf) 184991 [⟨⟨.code,[],.lcomment,true,[],false⟩,false,true,[],none,none,none,false,false,false,none,false,⟨.lcomment,some .newline,false,.lblank⟩⟩] (.node .leaf 332971 [⟨⟨.code,[],.lblank,true,[],false⟩,false,true,[],none,none,none,false,false,false,none,false,⟨.lblank,some .newline,false,.lblank⟩⟩] .leaf)),(.node (.node .leaf 1179872 [⟨⟨(.inside 0),[],.lcode,false,[],false⟩,false,false,[],none,none,none,false,false,false,none,false,⟨.lcode,some (.own 2),false,.lblank⟩⟩] .leaf) 1327852 [⟨⟨(.inside 0),[],.lcomment,false,[],false⟩,false,false,[],none,none,none,false,false,false,none,false,⟨.lcomment,some (.own 2),false,.lblank⟩⟩] .leaf),(.node (.node (.node .leaf 1769744 [⟨⟨.code,[47],.lcode,false,[],false⟩,false,false,[],none,none,none,false,false,false,none,false,⟨.lcode,some (.own 2),false,.lblank⟩⟩] .leaf) 1769746 [⟨⟨.code,[47],.lcode,false,[],false⟩,false,false,[],none,none,none,false,false,true,none,false,⟨.lcode,some (.own 2),false,.lblank⟩⟩] .leaf) 21088566 [⟨⟨.code,[47],.lcomment,false,[],false⟩,false,false,[],none,none,none,false,false,true,none,false,⟨.lcomment,some (.own 2),false,.lblank⟩⟩] (.node .leaf 40407386 [⟨⟨.code,[47],.lblank,false,[],false⟩,false,false,[],none,none,none,false,false,true,none,false,⟨.lblank,some (.own 2),false,.lblank⟩⟩] .leaf)),(.node (.node .leaf 1179872 [⟨⟨(.inside 0),[],.lcode,false,[],false⟩,false,false,[],none,none,none,false,false,false,none,false,⟨.lcode,some (.own 2),false,.lblank⟩⟩] .leaf) 1327852 [⟨⟨(.inside 0),[],.lcomment,false,[],false⟩,false,false,[],none,none,none,false,false,false,none,false,⟨.lcomment,some (.own 2),false,.lblank⟩⟩] .leaf),(.node (.node .leaf 610242174 [⟨⟨(.inside 1),[],.lcode,false,[],false⟩,false,false,[],some 3,some ⟨.code,[47],.lcode,false,[],false⟩,some ([(42,(.other,false))],false),false,false,false,none,false,⟨.lcode,some (.own 2),false,.lblank⟩⟩] .leaf) 611599022 [⟨⟨(.inside 1),[],.lcomment,false,[],false⟩,false,false,[],some 3,some ⟨.code,[47],.lcomment,false,[],false⟩,some ([(42,(.other,false))],false),false,false,false,none,false,⟨.lcomment,some (.own 2),false,.lblank⟩⟩] (.node .leaf 612807890 [⟨⟨(.inside 1),[],.lcomment,false,[],false⟩,false,false,[],some 3,some ⟨.code,[47],.lblank,false,[],false⟩,some ([(42,(.other,false))],false),false,false,false,none,false,⟨.lcomment,some (.own 2),false,.lblank⟩⟩] .leaf)),(.node (.node (.node .leaf 610242174 [⟨⟨(.inside 1),[],.lcode,false,[],false⟩,false,false,[],some 3,some ⟨.code,[47],.lcode,false,[],false⟩,some ([(42,(.other,false))],false),false,false,false,none,false,⟨.lcode,some (.own 2),false,.lblank⟩⟩] .leaf) 610390162 [⟨⟨(.inside 1),[],.lcomment,false,[],false⟩,false,false,[],some 3,some ⟨.code,[47],.lcode,false,[],false⟩,some ([(42,(.other,false))],false),true,false,false,none,false,⟨.lcomment,some .internalNl,false,.lblank⟩⟩] (.node .leaf 611599022 [⟨⟨(.inside 1),[],.lcomment,false,[],false⟩,false,false,[],some 3,some ⟨.code,[47],.lcomment,false,[],false⟩,some ([(42,(.other,false))],false),false,false,false,none,false,⟨.lcomment,some (.own 2),false,.lblank⟩⟩] .leaf)) 611599030 [⟨⟨(.inside 1),[],.lcomment,false,[],false⟩,false,false,[],some 3,some ⟨.code,[47],.lcomment,false,[],false⟩,some ([(42,(.other,false))],false),true,false,false,none,false,⟨.lcomment,some .internalNl,false,.lblank⟩⟩] (.node (.node .leaf 612807890 [⟨⟨(.inside 1),[],.lcomment,false,[],false⟩,false,false,[],some 3,some ⟨.code,[47],.lblank,false,[],false⟩,some ([(42,(.other,false))],false),false,false,false,none,false,⟨.lcomment,some (.own 2),false,.lblank⟩⟩] .leaf) 612807898 [⟨⟨(.inside 1),[],.lcomment,false,[],false⟩,false,false,[],some 3,some ⟨.code,[47],.lblank,false,[],false⟩,some ([(42,(.other,false))],false),true,false,false,none,false,⟨.lcomment,some .internalNl,false,.lblank⟩⟩] .leaf)),(.node (.node (.node (.node .leaf 610242174 [⟨⟨(.inside 1),[],.lcode,false,[],false⟩,false,false,[],some 3,some ⟨.code,[47],.lcode,false,[],false⟩,some ([(42,(.other,false))],false),false,false,false,none,false,⟨.lcode,some (.own 2),false,.lblank⟩⟩] .leaf) 610390162 [⟨⟨(.inside 1),[],.lcomment,false,[],false⟩,false,false,[],some 3,some ⟨.code,[47],.lcode,false,[],false⟩,some ([(42,(.other,false))],false),true,false,false,none,false,⟨.lcomment,some .internalNl,false,.lblank⟩⟩] .leaf) 610538142 [⟨⟨(.inside 1),[],.lblank,false,[],false⟩,false,false,[],some 3,some ⟨.code,[47],.lcode,false,[],false⟩,some ([(42,(.other,false))],false),true,false,false,none,false,⟨.lblank,some .internalNl,false,.lblank⟩⟩] (.node .leaf 611599022 [⟨⟨(.inside 1),[],.lcomment,false,[],false⟩,false,false,[],some 3,some ⟨.code,[47],.lcomment,false,[],false⟩,some ([(42,(.other,false))],false),false,false,false,none,false,⟨.lcomment,some (.own 2),false,.lblank⟩⟩] .leaf)) 611599030 [⟨⟨(.inside 1),[],.lcomment,false,[],false⟩,false,false,[],some 3,some ⟨.code,[47],.lcomment,false,[],false⟩,some ([(42,(.other,false))],false),true,false,false,none,false,⟨.lcomment,some .internalNl,false,.lblank⟩⟩] (.node (.node (.node .leaf 611747010 [⟨⟨(.inside 1),[],.lblank,false,[],false⟩,false,false,[],some 3,some ⟨.code,[47],.lcomment,false,[],false⟩,some ([(42,(.other,false))],false),true,false,false,none,false,⟨.lblank,some .internalNl,false,.lblank⟩⟩] .leaf) 612807890 [⟨⟨(.inside 1),[],.lcomment,false,[],false⟩,false,false,[],some 3,some ⟨.code,[47],.lblank,false,[],false⟩,some ([(42,(.other,false))],false),false,false,false,none,false,⟨.lcomment,some (.own 2),false,.lblank⟩⟩] .leaf) 612807898 [⟨⟨(.inside 1),[],.lcomment,false,[],false⟩,false,false,[],some 3,some ⟨.code,[47],.lblank,false,[],false⟩,some ([(42,(.other,false))],false),true,false,false,none,false,⟨.lcomment,some .internalNl,false,.lblank⟩⟩] (.node .leaf 612955878 [⟨⟨(.inside 1),[],.lblank,false,[],false⟩,false,false,[],some 3,some ⟨.code,[47],.lblank,false,[],false⟩,some ([(42,(.other,false))],false),true,false,false,none,false,⟨.lblank,some .internalNl,false,.lblank⟩⟩] .leaf))),(.node (.node (.node (.node .leaf 610279041 [⟨⟨(.inside 1),[],.lcode,true,[],false⟩,false,false,[],some 3,some ⟨.code,[47],.lcode,false,[],false⟩,some ([(42,(.other,false))],false),false,false,false,none,false,⟨.lcode,some (.own 2),false,.lblank⟩⟩] .leaf) 610427029 [⟨⟨(.inside 1),[],.lcomment,true,[],false⟩,false,false,[],some 3,some ⟨.code,[47],.lcode,false,[],false⟩,some ([(42,(.other,false))],false),true,false,false,none,false,⟨.lcomment,some .internalNl,false,.lblank⟩⟩] .leaf) 610575009 [⟨⟨(.inside 1),[],.lblank,true,[],false⟩,false,false,[],some 3,some ⟨.code,[47],.lcode,false,[],false⟩,some ([(42,(.other,false))],false),true,false,false,none,false,⟨.lblank,some .internalNl,false,.lblank⟩⟩] (.node .leaf 611635889 [⟨⟨(.inside 1),[],.lcomment,true,[],false⟩,false,false,[],some 3,some ⟨.code,[47],.lcomment,false,[],false⟩,some ([(42,(.other,false))],false),false,false,false,none,false,⟨.lcomment,some (.own 2),false,.lblank⟩⟩] .leaf)) 611635897 [⟨⟨(.inside 1),[],.lcomment,true,[],false⟩,false,false,[],some 3,some ⟨.code,[47],.lcomment,false,[],false⟩,some ([(42,(.other,false))],false),true,false,false,none,false,⟨.lcomment,some .internalNl,false,.lblank⟩⟩] (.node (.node (.node .leaf 611783877 [⟨⟨(.inside 1),[],.lblank,true,[],false⟩,false,false,[],some 3,some ⟨.code,[47],.lcomment,false,[],false⟩,some ([(42,(.other,false))],false),true,false,false,none,false,⟨.lblank,some .internalNl,false,.lblank⟩⟩] .leaf) 612844757 [⟨⟨(.inside 1),[],.lcomment,true,[],false⟩,false,false,[],some 3,some ⟨.code,[47],.lblank,false,[],false⟩,some ([(42,(.other,false))],false),false,false,false,none,false,⟨.lcomment,some (.own 2),false,.lblank⟩⟩] .leaf) 612844765 [⟨⟨(.inside 1),[],.lcomment,true,[],false⟩,false,false,[],some 3,some ⟨.code,[47],.lblank,false,[],false⟩,some ([(42,(.other,false))],false),true,false,false,none,false,⟨.lcomment,some .internalNl,false,.lblank⟩⟩] (.node .leaf 612992745 [⟨⟨(.inside 1),[],.lblank,true,[],false⟩,false,false,[],some 3,some ⟨.code,[47],.lblank,false,[],false⟩,some ([(42,(.other,false))],false),true,false,false,none,false,⟨.lblank,some .internalNl,false,.lblank⟩⟩] .leaf))),(.node (.node (.node (.node .leaf 610279041 [⟨⟨(.inside 1),[],.lcode,true,[],false⟩,false,false,[],some 3,some ⟨.code,[47],.lcode,false,[],false⟩,some ([(42,(.other,false))],false),false,false,false,none,false,⟨.lcode,some (.own 2),false,.lblank⟩⟩] .leaf) 610427029 [⟨⟨(.inside 1),[],.lcomment,true,[],false⟩,false,false,[],some 3,some ⟨.code,[47],.lcode,false,[],false⟩,some ([(42,(.other,false))],false),true,false,false,none,false,⟨.lcomment,some .internalNl,false,.lblank⟩⟩] .leaf) 610575009 [⟨⟨(.inside 1),[],.lblank,true,[],false⟩,false,false,[],some 3,some ⟨.code,[47],.lcode,false,[],false⟩,some ([(42,(.other,false))],false),true,false,false,none,false,⟨.lblank,some .internalNl,false,.lblank⟩⟩] (.node .leaf 611635889 [⟨⟨(.inside 1),[],.lcomment,true,[],false⟩,false,false,[],some 3,some ⟨.code,[47],.lcomment,false,[],false⟩,some ([(42,(.other,false))],false),false,false,false,none,false,⟨.lcomment,some (.own 2),false,.lblank⟩⟩] .leaf)) 611635897 [⟨⟨(.inside 1),[],.lcomment,true,[],false⟩,false,false,[],some 3,some ⟨.code,[47],.lcomment,false,[],false⟩,some ([(42,(.other,false))],false),true,false,false,none,false,⟨.lcomment,some .internalNl,false,.lblank⟩⟩] (.node (.node (.node .leaf 611783877 [⟨⟨(.inside 1),[],.lblank,true,[],false⟩,false,false,[],some 3,some ⟨.code,[47],.lcomment,false,[],false⟩,some ([(42,(.other,false))],false),true,false,false,none,false,⟨.lblank,some .internalNl,false,.lblank⟩⟩] .leaf) 612844757 [⟨⟨(.inside 1),[],.lcomment,true,[],false⟩,false,false,[],some 3,some ⟨.code,[47],.lblank,false,[],false⟩,some ([(42,(.other,false))],false),false,false,false,none,false,⟨.lcomment,some (.own 2),false,.lblank⟩⟩] .leaf) 612844765 [⟨⟨(.inside 1),[],.lcomment,true,[],false⟩,false,false,[],some 3,some ⟨.code,[47],.lblank,false,[],false⟩,some ([(42,(.other,false))],false),true,false,false,none,false,⟨.lcomment,some .internalNl,false,.lblank⟩⟩] (.node .leaf 612992745 [⟨⟨(.inside 1),[],.lblank,true,[],false⟩,false,false,[],some 3,some ⟨.code,[47],.lblank,false,[],false⟩,some ([(42,(.other,false))],false),true,false,false,none,false,⟨.lblank,some .internalNl,false,.lblank⟩⟩] .leaf))),(.node (.node (.node (.node .leaf 610242206 [⟨⟨(.inside 1),[],.lcode,false,[],false⟩,true,false,[],some 3,some ⟨.code,[47],.lcode,false,[],false⟩,some ([(42,(.other,false))],false),false,false,false,none,false,⟨.lcode,some (.own 2),false,.lblank⟩⟩] .leaf) 610390194 [⟨⟨(.inside 1),[],.lcomment,false,[],false⟩,true,false,[],some 3,some ⟨.code,[47],.lcode,false,[],false⟩,some ([(42,(.other,false))],false),true,false,false,none,false,⟨.lcomment,some .internalNl,false,.lblank⟩⟩] .leaf) 610538174 [⟨⟨(.inside 1),[],.lblank,false,[],false⟩,true,false,[],some 3,some ⟨.code,[47],.lcode,false,[],false⟩,some ([(42,(.other,false))],false),true,false,false,none,false,⟨.lblank,some .internalNl,false,.lblank⟩⟩] (.node .leaf 611599054 [⟨⟨(.inside 1),[],.lcomment,false,[],false⟩,true,false,[],some 3,some ⟨.code,[47],.lcomment,false,[],false⟩,some ([(42,(.other,false))],false),false,false,false,none,false,⟨.lcomment,some (.own 2),false,.lblank⟩⟩] .leaf)) 611599062 [⟨⟨(.inside 1),[],.lcomment,false,[],false⟩,true,false,[],some 3,some ⟨.code,[47],.lcomment,false,[],false⟩,some ([(42,(.other,false))],false),true,false,false,none,false,⟨.lcomment,some .internalNl,false,.lblank⟩⟩] (.node (.node (.node .leaf 611747042 [⟨⟨(.inside 1),[],.lblank,false,[],false⟩,true,false,[],some 3,some ⟨.code,[47],.lcomment,false,[],false⟩,some ([(42,(.other,false))],false),true,false,false,none,false,⟨.lblank,some .internalNl,false,.lblank⟩⟩] .leaf) 612807922 [⟨⟨(.inside 1),[],.lcomment,false,[],false⟩,true,false,[],some 3,some ⟨.code,[47],.lblank,false,[],false⟩,some ([(42,(.other,false))],false),false,false,false,none,false,⟨.lcomment,some (.own 2),false,.lblank⟩⟩] .leaf) 612807930 [⟨⟨(.inside 1),[],.lcomment,false,[],false⟩,true,false,[],some 3,some ⟨.code,[47],.lblank,false,[],false⟩,some ([(42,(.other,false))],false),true,false,false,none,false,⟨.lcomment,some .internalNl,false,.lblank⟩⟩] (.node .leaf 612955910 [⟨⟨(.inside 1),[],.lblank,false,[],false⟩,true,false,[],some 3,some ⟨.code,[47],.lblank,false,[],false⟩,some ([(42,(.other,false))],false),true,false,false,none,false,⟨.lblank,some .internalNl,false,.lblank⟩⟩] .leaf))),(.node (.node (.node (.node .leaf 610279057 [⟨⟨(.inside 1),[],.lcode,true,[],false⟩,false,true,[],some 3,some ⟨.code,[47],.lcode,false,[],false⟩,some ([(42,(.other,false))],false),false,false,false,none,false,⟨.lcode,some (.own 2),false,.lblank⟩⟩] .leaf) 610427045 [⟨⟨(.inside 1),[],.lcomment,true,[],false⟩,false,true,[],some 3,some ⟨.code,[47],.lcode,false,[],false⟩,some ([(42,(.other,false))],false),true,false,false,none,false,⟨.lcomment,some .internalNl,false,.lblank⟩⟩] .leaf) 610575025 [⟨⟨(.inside 1),[],.lblank,true,[],false⟩,false,true,[],some 3,some ⟨.code,[47],.lcode,false,[],false⟩,some ([(42,(.other,false))],false),true,false,false,none,false,⟨.lblank,some .internalNl,false,.lblank⟩⟩] (.node .leaf 611635905 [⟨⟨(.inside 1),[],.lcomment,true,[],false⟩,false,true,[],some 3,some ⟨.code,[47],.lcomment,false,[],false⟩,some ([(42,(.other,false))],false),false,false,false,none,false,⟨.lcomment,some (.own 2),false,.lblank⟩⟩] .leaf)) 611635913 [⟨⟨(.inside 1),[],.lcomment,true,[],false⟩,false,true,[],some 3,some ⟨.code,[47],.lcomment,false,[],false⟩,some ([(42,(.other,false))],false),true,false,false,none,false,⟨.lcomment,some .internalNl,false,.lblank⟩⟩] (.node (.node (.node .leaf 611783893 [⟨⟨(.inside 1),[],.lblank,true,[],false⟩,false,true,[],some 3,some ⟨.code,[47],.lcomment,false,[],false⟩,some ([(42,(.other,false))],false),true,false,false,none,false,⟨.lblank,some .internalNl,false,.lblank⟩⟩] .leaf) 612844773 [⟨⟨(.inside 1),[],.lcomment,true,[],false⟩,false,true,[],some 3,some ⟨.code,[47],.lblank,false,[],false⟩,some ([(42,(.other,false))],false),false,false,false,none,false,⟨.lcomment,some (.own 2),false,.lblank⟩⟩] .leaf) 612844781 [⟨⟨(.inside 1),[],.lcomment,true,[],false⟩,false,true,[],some 3,some ⟨.code,[47],.lblank,false,[],false⟩,some ([(42,(.other,false))],false),true,false,false,none,false,⟨.lcomment,some .internalNl,false,.lblank⟩⟩] (.node .leaf 612992761 [⟨⟨(.inside 1),[],.lblank,true,[],false⟩,false,true,[],some 3,some ⟨.code,[47],.lblank,false,[],false⟩,some ([(42,(.other,false))],false),true,false,false,none,false,⟨.lblank,some .internalNl,false,.lblank⟩⟩] .leaf))),(.node (.node (.node (.node .leaf 1148610975 [⟨⟨(.inside 1),[42],.lcode,false,[],false⟩,false,false,[],some 3,some ⟨.code,[47],.lcode,false,[],false⟩,some ([(42,(.other,false))],false),false,false,false,none,false,⟨.lcode,some (.own 2),false,.lblank⟩⟩] .leaf) 1167929803 [⟨⟨(.inside 1),[42],.lcomment,false,[],false⟩,false,false,[],some 3,some ⟨.code,[47],.lcode,false,[],false⟩,some ([(42,(.other,false))],false),true,false,false,none,false,⟨.lcomment,some .internalNl,false,.lblank⟩⟩] .leaf) 1169138663 [⟨⟨(.inside 1),[42],.lcomment,false,[],false⟩,false,false,[],some 3,some ⟨.code,[47],.lcomment,false,[],false⟩,some ([(42,(.other,false))],false),false,false,false,none,false,⟨.lcomment,some (.own 2),false,.lblank⟩⟩] (.node .leaf 1169138671 [⟨⟨(.inside 1),[42],.lcomment,false,[],false⟩,false,false,[],some 3,some ⟨.code,[47],.lcomment,false,[],false⟩,some ([(42,(.other,false))],false),true,false,false,none,false,⟨.lcomment,some .internalNl,false,.lblank⟩⟩] .leaf)) 1170347531 [⟨⟨(.inside 1),[42],.lcomment,false,[],false⟩,false,false,[],some 3,some ⟨.code,[47],.lblank,false,[],false⟩,some ([(42,(.other,false))],false),false,false,false,none,false,⟨.lcomment,some (.own 2),false,.lblank⟩⟩] (.node (.node (.node .leaf 1170347539 [⟨⟨(.inside 1),[42],.lcomment,false,[],false⟩,false,false,[],some 3,some ⟨.code,[47],.lblank,false,[],false⟩,some ([(42,(.other,false))],false),true,false,false,none,false,⟨.lcomment,some .internalNl,false,.lblank⟩⟩] .leaf) 1187248111 [⟨⟨(.inside 1),[42],.lblank,false,[],false⟩,false,false,[],some 3,some ⟨.code,[47],.lcode,false,[],false⟩,some ([(42,(.other,false))],false),true,false,false,none,false,⟨.lcomment,some .internalNl,false,.lblank⟩⟩] .leaf) 1188456979 [⟨⟨(.inside 1),[42],.lblank,false,[],false⟩,false,false,[],some 3,some ⟨.code,[47],.lcomment,false,[],false⟩,some ([(42,(.other,false))],false),true,false,false,none,false,⟨.lcomment,some .internalNl,false,.lblank⟩⟩] (.node .leaf 1189665847 [⟨⟨(.inside 1),[42],.lblank,false,[],false⟩,false,false,[],some 3,some ⟨.code,[47],.lblank,false,[],false⟩,some ([(42,(.other,false))],false),true,false,false,none,false,⟨.lcomment,some .internalNl,false,.lblank⟩⟩] .leaf))),(.node (.node (.node (.node .leaf 610279041 [⟨⟨(.inside 1),[],.lcode,true,[],false⟩,false,false,[],some 3,some ⟨.code,[47],.lcode,false,[],false⟩,some ([(42,(.other,false))],false),false,false,false,none,false,⟨.lcode,some (.own 2),false,.lblank⟩⟩] .leaf) 610427029 [⟨⟨(.inside 1),[],.lcomment,true,[],false⟩,false,false,[],some 3,some ⟨.code,[47],.lcode,false,[],false⟩,some ([(42,(.other,false))],false),true,false,false,none,false,⟨.lcomment,some .internalNl,false,.lblank⟩⟩] .leaf) 610575009 [⟨⟨(.inside 1),[],.lblank,true,[],false⟩,false,false,[],some 3,some ⟨.code,[47],.lcode,false,[],false⟩,some ([(42,(.other,false))],false),true,false,false,none,false,⟨.lblank,some .internalNl,false,.lblank⟩⟩] (.node .leaf 611635889 [⟨⟨(.inside 1),[],.lcomment,true,[],false⟩,false,false,[],some 3,some ⟨.code,[47],.lcomment,false,[],false⟩,some ([(42,(.other,false))],false),false,false,false,none,false,⟨.lcomment,some (.own 2),false,.lblank⟩⟩] .leaf)) 611635897 [⟨⟨(.inside 1),[],.lcomment,true,[],false⟩,false,false,[],some 3,some ⟨.code,[47],.lcomment,false,[],false⟩,some ([(42,(.other,false))],false),true,false,false,none,false,⟨.lcomment,some .internalNl,false,.lblank⟩⟩] (.node (.node (.node .leaf 611783877 [⟨⟨(.inside 1),[],.lblank,true,[],false⟩,false,false,[],some 3,some ⟨.code,[47],.lcomment,false,[],false⟩,some ([(42,(.other,false))],false),true,false,false,none,false,⟨.lblank,some .internalNl,false,.lblank⟩⟩] .leaf) 612844757 [⟨⟨(.inside 1),[],.lcomment,true,[],false⟩,false,false,[],some 3,some ⟨.code,[47],.lblank,false,[],false⟩,some ([(42,(.other,false))],false),false,false,false,none,false,⟨.lcomment,some (.own 2),false,.lblank⟩⟩] .leaf) 612844765 [⟨⟨(.inside 1),[],.lcomment,true,[],false⟩,false,false,[],some 3,some ⟨.code,[47],.lblank,false,[],false⟩,some ([(42,(.other,false))],false),true,false,false,none,false,⟨.lcomment,some .internalNl,false,.lblank⟩⟩] (.node .leaf 612992745 [⟨⟨(.inside 1),[],.lblank,true,[],false⟩,false,false,[],some 3,some ⟨.code,[47],.lblank,false,[],false⟩,some ([(42,(.other,false))],false),true,false,false,none,false,⟨.lblank,some .internalNl,false,.lblank⟩⟩] .leaf))),.leaf]
theorem ampl_line_lClosed : CA.closedF ampl_line_M ampl_line_lex true false ampl_line_lfr ampl_line_lTab = true := by decide +kernel
def ampl_line_L : LCert LexisTable.ampl_line ampl_line_M := ampl_line_lex_eq ▸ ⟨⟨ampl_line_lmasks, ampl_line_lex.rel, ampl_line_lcs, ampl_line_lrows, ampl_line_lmasksIn, ampl_line_lrepOk, ampl_line_lrowsOk⟩,
  _, rfl, by decide +kernel, by decide +kernel, true, false, CA.closed_of ampl_line_lfrOk ampl_line_lClosed⟩
theorem ampl_line_L_chk : ampl_line_L.chk = true := by
  have : ∀ (l : Lexis) (h : LexisTable.ampl_line = l) (C : LCert l ampl_line_M), (h ▸ C : LCert LexisTable.ampl_line ampl_line_M).chk = C.chk := by rintro _ rfl _; rfl
  exact this _ ampl_line_lex_eq _

def asm_line_lex : Lexis := [⟨[47,47],[],.lcomment,false,false,false,true,false,false,true,false,none,false,false,false,false,[]⟩,⟨[59],[],.lcomment,false,false,false,true,false,false,true,false,none,false,false,false,false,[]⟩,⟨[33],[],.lcomment,false,false,false,true,false,false,true,false,none,false,false,false,false,[]⟩,⟨[47,42],[[42,47]],.lcomment,true,false,false,true,false,false,true,false,none,false,false,false,false,[]⟩,⟨[34],[[34]],.lcode,false,true,true,true,false,false,true,false,none,false,false,false,false,[]⟩]
theorem asm_line_lex_eq : LexisTable.asm_line = asm_line_lex := by decide +kernel
def asm_line_lmasks : List Nat := [4294967808,140737488355328,576460752303423488,8589934592,17179869184,8192,1024,4096,115792089237316195423570985008687907853269984665640564039457584007908834656767,115792089237316195423570985008687907853269984665640564039457584007913129626623,4398046511104,115792089237316195423570985008687907853269984665640564039457584007908834658815,115792089237316195423570985008687907853269984665635612279300442486796353260543,4951760157141521099596496896]
def asm_line_lcs : List (Nat × Nat) := [(0,115792089237316195423570985008687907853269984665635612279299865880895630066175),(9,4294967808),(10,1024),(11,2048),(12,4096),(13,8192),(33,8589934592),(34,17179869184),(42,4398046511104),(47,140737488355328),(59,576460752303423488),(92,4951760157141521099596496896)]
theorem asm_line_lmasksIn : masksIn asm_line_nfa asm_line_lmasks = true := by decide +kernel
theorem asm_line_lrepOk : repOk asm_line_lmasks asm_line_lcs = true := by decide +kernel
def asm_line_lrows : List Row := [⟨[],none,[],[⟨256,.other,false,some ⟨0,[.setEnt (.own 7)],some 4,true⟩⟩,⟨256,.ws,false,some ⟨1,[.setEnt (.own 0)],some 0,false⟩⟩,⟨256,.lf,false,some ⟨0,[.setEnt .newline],some 3,true⟩⟩,⟨256,.vt,false,none⟩,⟨256,.ff,false,some ⟨0,[.setEnt .newline],some 3,true⟩⟩,⟨256,.cr,false,some ⟨2,[.setEnt .newline],none,false⟩⟩,⟨256,.cr,true,some ⟨3,[.setEnt .newline],some 3,false⟩⟩,⟨33,.other,false,some ⟨4,[.comment,.setEnt (.own 7)],some 1,false⟩⟩,⟨34,.other,false,some ⟨5,[.code,.setEnt (.own 7)],some 4,false⟩⟩,⟨42,.other,false,some ⟨0,[.setEnt (.own 7)],some 4,true⟩⟩,⟨47,.other,false,some ⟨6,[.setEnt (.own 7)],some 4,false⟩⟩,⟨59,.other,false,some ⟨7,[.comment,.setEnt (.own 7)],some 1,false⟩⟩,⟨92,.other,false,some ⟨0,[.setEnt (.own 7)],some 4,true⟩⟩]⟩,⟨[0],some 0,[],[⟨256,.other,false,none⟩,⟨256,.ws,false,some ⟨1,[.setEnt (.own 0)],some 0,false⟩⟩,⟨256,.lf,false,none⟩,⟨256,.vt,false,none⟩,⟨256,.ff,false,none⟩,⟨256,.cr,false,none⟩,⟨256,.cr,true,none⟩,⟨33,.other,false,none⟩,⟨34,.other,false,none⟩,⟨42,.other,false,none⟩,⟨47,.other,false,none⟩,⟨59,.other,false,none⟩,⟨92,.other,false,none⟩]⟩,⟨[22],none,[],[⟨256,.other,false,none⟩,⟨256,.ws,false,none⟩,⟨256,.lf,false,some ⟨0,[.setEnt .newline],some 3,true⟩⟩,⟨256,.vt,false,none⟩,⟨256,.ff,false,none⟩,⟨256,.cr,false,none⟩,⟨256,.cr,true,none⟩,⟨33,.other,false,none⟩,⟨34,.other,false,none⟩,⟨42,.other,false,none⟩,⟨47,.other,false,none⟩,⟨59,.other,false,none⟩,⟨92,.other,false,none⟩]⟩,⟨[22,26],some 3,[],[⟨256,.other,false,none⟩,⟨256,.ws,false,none⟩,⟨256,.lf,false,some ⟨0,[.setEnt .newline],some 3,true⟩⟩,⟨256,.vt,false,none⟩,⟨256,.ff,false,none⟩,⟨256,.cr,false,none⟩,⟨256,.cr,true,none⟩,⟨33,.other,false,none⟩,⟨34,.other,false,none⟩,⟨42,.other,false,none⟩,⟨47,.other,false,none⟩,⟨59,.other,false,none⟩,⟨92,.other,false,none⟩]⟩,⟨[4,27],some 1,[],[⟨256,.other,false,some ⟨8,[],some 1,false⟩⟩,⟨256,.ws,false,some ⟨8,[],some 1,false⟩⟩,⟨256,.lf,false,none⟩,⟨256,.vt,false,some ⟨8,[],some 1,false⟩⟩,⟨256,.ff,false,none⟩,⟨256,.cr,false,none⟩,⟨256,.cr,true,none⟩,⟨33,.other,false,some ⟨8,[],some 1,false⟩⟩,⟨34,.other,false,some ⟨8,[],some 1,false⟩⟩,⟨42,.other,false,some ⟨8,[],some 1,false⟩⟩,⟨47,.other,false,some ⟨8,[],some 1,false⟩⟩,⟨59,.other,false,some ⟨8,[],some 1,false⟩⟩,⟨92,.other,false,some ⟨8,[],some 1,false⟩⟩]⟩,⟨[17,27],some 4,[],[⟨256,.other,false,some ⟨9,[],none,false⟩⟩,⟨256,.ws,false,some ⟨9,[],none,false⟩⟩,⟨256,.lf,false,none⟩,⟨256,.vt,false,some ⟨9,[],none,false⟩⟩,⟨256,.ff,false,none⟩,⟨256,.cr,false,none⟩,⟨256,.cr,true,none⟩,⟨33,.other,false,some ⟨9,[],none,false⟩⟩,⟨34,.other,false,some ⟨0,[],some 2,true⟩⟩,⟨42,.other,false,some ⟨9,[],none,false⟩⟩,⟨47,.other,false,some ⟨9,[],none,false⟩⟩,⟨59,.other,false,some ⟨9,[],none,false⟩⟩,⟨92,.other,false,some ⟨10,[],none,false⟩⟩]⟩,⟨[1,6,27],some 4,[],[⟨256,.other,false,none⟩,⟨256,.ws,false,none⟩,⟨256,.lf,false,none⟩,⟨256,.vt,false,none⟩,⟨256,.ff,false,none⟩,⟨256,.cr,false,none⟩,⟨256,.cr,true,none⟩,⟨33,.other,false,none⟩,⟨34,.other,false,none⟩,⟨42,.other,false,some ⟨11,[.comment],none,false⟩⟩,⟨47,.other,false,some ⟨12,[.comment],some 1,false⟩⟩,⟨59,.other,false,none⟩,⟨92,.other,false,none⟩]⟩,⟨[3,27],some 1,[],[⟨256,.other,false,some ⟨8,[],some 1,false⟩⟩,⟨256,.ws,false,some ⟨8,[],some 1,false⟩⟩,⟨256,.lf,false,none⟩,⟨256,.vt,false,some ⟨8,[],some 1,false⟩⟩,⟨256,.ff,false,none⟩,⟨256,.cr,false,none⟩,⟨256,.cr,true,none⟩,⟨33,.other,false,some ⟨8,[],some 1,false⟩⟩,⟨34,.other,false,some ⟨8,[],some 1,false⟩⟩,⟨42,.other,false,some ⟨8,[],some 1,false⟩⟩,⟨47,.other,false,some ⟨8,[],some 1,false⟩⟩,⟨59,.other,false,some ⟨8,[],some 1,false⟩⟩,⟨92,.other,false,some ⟨8,[],some 1,false⟩⟩]⟩,⟨[5],some 1,[],[⟨256,.other,false,some ⟨8,[],some 1,false⟩⟩,⟨256,.ws,false,some ⟨8,[],some 1,false⟩⟩,⟨256,.lf,false,none⟩,⟨256,.vt,false,some ⟨8,[],some 1,false⟩⟩,⟨256,.ff,false,none⟩,⟨256,.cr,false,none⟩,⟨256,.cr,true,none⟩,⟨33,.other,false,some ⟨8,[],some 1,false⟩⟩,⟨34,.other,false,some ⟨8,[],some 1,false⟩⟩,⟨42,.other,false,some ⟨8,[],some 1,false⟩⟩,⟨47,.other,false,some ⟨8,[],some 1,false⟩⟩,⟨59,.other,false,some ⟨8,[],some 1,false⟩⟩,⟨92,.other,false,some ⟨8,[],some 1,false⟩⟩]⟩,⟨[18],none,[],[⟨256,.other,false,some ⟨9,[],none,false⟩⟩,⟨256,.ws,false,some ⟨9,[],none,false⟩⟩,⟨256,.lf,false,none⟩,⟨256,.vt,false,some ⟨9,[],none,false⟩⟩,⟨256,.ff,false,none⟩,⟨256,.cr,false,none⟩,⟨256,.cr,true,none⟩,⟨33,.other,false,some ⟨9,[],none,false⟩⟩,⟨34,.other,false,some ⟨0,[],some 2,true⟩⟩,⟨42,.other,false,some ⟨9,[],none,false⟩⟩,⟨47,.other,false,some ⟨9,[],none,false⟩⟩,⟨59,.other,false,some ⟨9,[],none,false⟩⟩,⟨92,.other,false,some ⟨10,[],none,false⟩⟩]⟩,⟨[19],none,[],[⟨256,.other,false,some ⟨13,[],none,false⟩⟩,⟨256,.ws,false,some ⟨13,[],none,false⟩⟩,⟨256,.lf,false,none⟩,⟨256,.vt,false,some ⟨13,[],none,false⟩⟩,⟨256,.ff,false,none⟩,⟨256,.cr,false,none⟩,⟨256,.cr,true,none⟩,⟨33,.other,false,some ⟨13,[],none,false⟩⟩,⟨34,.other,false,some ⟨13,[],none,false⟩⟩,⟨42,.other,false,some ⟨13,[],none,false⟩⟩,⟨47,.other,false,some ⟨13,[],none,false⟩⟩,⟨59,.other,false,some ⟨13,[],none,false⟩⟩,⟨92,.other,false,some ⟨13,[],none,false⟩⟩]⟩,⟨[7],none,[],[⟨256,.other,false,some ⟨14,[.comment],none,false⟩⟩,⟨256,.ws,false,some ⟨15,[],none,false⟩⟩,⟨256,.lf,false,some ⟨16,[],none,false⟩⟩,⟨256,.vt,false,some ⟨14,[.comment],none,false⟩⟩,⟨256,.ff,false,some ⟨17,[],none,false⟩⟩,⟨256,.cr,false,some ⟨18,[],none,false⟩⟩,⟨256,.cr,true,some ⟨19,[],none,false⟩⟩,⟨33,.other,false,some ⟨14,[.comment],none,false⟩⟩,⟨34,.other,false,some ⟨14,[.comment],none,false⟩⟩,⟨42,.other,false,some ⟨20,[.comment],none,false⟩⟩,⟨47,.other,false,some ⟨14,[.comment],none,false⟩⟩,⟨59,.other,false,some ⟨14,[.comment],none,false⟩⟩,⟨92,.other,false,some ⟨14,[.comment],none,false⟩⟩]⟩,⟨[2],some 1,[],[⟨256,.other,false,some ⟨8,[],some 1,false⟩⟩,⟨256,.ws,false,some ⟨8,[],some 1,false⟩⟩,⟨256,.lf,false,none⟩,⟨256,.vt,false,some ⟨8,[],some 1,false⟩⟩,⟨256,.ff,false,none⟩,⟨256,.cr,false,none⟩,⟨256,.cr,true,none⟩,⟨33,.other,false,some ⟨8,[],some 1,false⟩⟩,⟨34,.other,false,some ⟨8,[],some 1,false⟩⟩,⟨42,.other,false,some ⟨8,[],some 1,false⟩⟩,⟨47,.other,false,some ⟨8,[],some 1,false⟩⟩,⟨59,.other,false,some ⟨8,[],some 1,false⟩⟩,⟨92,.other,false,some ⟨8,[],some 1,false⟩⟩]⟩,⟨[20],none,[],[⟨256,.other,false,some ⟨9,[],none,false⟩⟩,⟨256,.ws,false,some ⟨9,[],none,false⟩⟩,⟨256,.lf,false,none⟩,⟨256,.vt,false,some ⟨9,[],none,false⟩⟩,⟨256,.ff,false,none⟩,⟨256,.cr,false,none⟩,⟨256,.cr,true,none⟩,⟨33,.other,false,some ⟨9,[],none,false⟩⟩,⟨34,.other,false,some ⟨0,[],some 2,true⟩⟩,⟨42,.other,false,some ⟨9,[],none,false⟩⟩,⟨47,.other,false,some ⟨9,[],none,false⟩⟩,⟨59,.other,false,some ⟨9,[],none,false⟩⟩,⟨92,.other,false,some ⟨10,[],none,false⟩⟩]⟩,⟨[14],none,[],[⟨256,.other,false,some ⟨14,[.comment],none,false⟩⟩,⟨256,.ws,false,some ⟨15,[],none,false⟩⟩,⟨256,.lf,false,some ⟨16,[],none,false⟩⟩,⟨256,.vt,false,some ⟨14,[.comment],none,false⟩⟩,⟨256,.ff,false,some ⟨17,[],none,false⟩⟩,⟨256,.cr,false,some ⟨18,[],none,false⟩⟩,⟨256,.cr,true,some ⟨19,[],none,false⟩⟩,⟨33,.other,false,some ⟨14,[.comment],none,false⟩⟩,⟨34,.other,false,some ⟨14,[.comment],none,false⟩⟩,⟨42,.other,false,some ⟨20,[.comment],none,false⟩⟩,⟨47,.other,false,some ⟨14,[.comment],none,false⟩⟩,⟨59,.other,false,some ⟨14,[.comment],none,false⟩⟩,⟨92,.other,false,some ⟨14,[.comment],none,false⟩⟩]⟩,⟨[13],none,[],[⟨256,.other,false,some ⟨14,[.comment],none,false⟩⟩,⟨256,.ws,false,some ⟨15,[],none,false⟩⟩,⟨256,.lf,false,some ⟨16,[],none,false⟩⟩,⟨256,.vt,false,some ⟨14,[.comment],none,false⟩⟩,⟨256,.ff,false,some ⟨17,[],none,false⟩⟩,⟨256,.cr,false,some ⟨18,[],none,false⟩⟩,⟨256,.cr,true,some ⟨19,[],none,false⟩⟩,⟨33,.other,false,some ⟨14,[.comment],none,false⟩⟩,⟨34,.other,false,some ⟨14,[.comment],none,false⟩⟩,⟨42,.other,false,some ⟨20,[.comment],none,false⟩⟩,⟨47,.other,false,some ⟨14,[.comment],none,false⟩⟩,⟨59,.other,false,some ⟨14,[.comment],none,false⟩⟩,⟨92,.other,false,some ⟨14,[.comment],none,false⟩⟩]⟩,⟨[10],none,[],[⟨256,.other,false,some ⟨14,[.setEnt .internalNl,.cb,.comment],none,false⟩⟩,⟨256,.ws,false,some ⟨15,[.setEnt .internalNl,.cb],none,false⟩⟩,⟨256,.lf,false,some ⟨16,[.setEnt .internalNl,.cb],none,false⟩⟩,⟨256,.vt,false,some ⟨14,[.setEnt .internalNl,.cb,.comment],none,false⟩⟩,⟨256,.ff,false,some ⟨17,[.setEnt .internalNl,.cb],none,false⟩⟩,⟨256,.cr,false,some ⟨18,[.setEnt .internalNl,.cb],none,false⟩⟩,⟨256,.cr,true,some ⟨19,[.setEnt .internalNl,.cb],none,false⟩⟩,⟨33,.other,false,some ⟨14,[.setEnt .internalNl,.cb,.comment],none,false⟩⟩,⟨34,.other,false,some ⟨14,[.setEnt .internalNl,.cb,.comment],none,false⟩⟩,⟨42,.other,false,some ⟨20,[.setEnt .internalNl,.cb,.comment],none,false⟩⟩,⟨47,.other,false,some ⟨14,[.setEnt .internalNl,.cb,.comment],none,false⟩⟩,⟨59,.other,false,some ⟨14,[.setEnt .internalNl,.cb,.comment],none,false⟩⟩,⟨92,.other,false,some ⟨14,[.setEnt .internalNl,.cb,.comment],none,false⟩⟩]⟩,⟨[11],none,[],[⟨256,.other,false,some ⟨14,[.setEnt .internalNl,.cb,.comment],none,false⟩⟩,⟨256,.ws,false,some ⟨15,[.setEnt .internalNl,.cb],none,false⟩⟩,⟨256,.lf,false,some ⟨16,[.setEnt .internalNl,.cb],none,false⟩⟩,⟨256,.vt,false,some ⟨14,[.setEnt .internalNl,.cb,.comment],none,false⟩⟩,⟨256,.ff,false,some ⟨17,[.setEnt .internalNl,.cb],none,false⟩⟩,⟨256,.cr,false,some ⟨18,[.setEnt .internalNl,.cb],none,false⟩⟩,⟨256,.cr,true,some ⟨19,[.setEnt .internalNl,.cb],none,false⟩⟩,⟨33,.other,false,some ⟨14,[.setEnt .internalNl,.cb,.comment],none,false⟩⟩,⟨34,.other,false,some ⟨14,[.setEnt .internalNl,.cb,.comment],none,false⟩⟩,⟨42,.other,false,some ⟨20,[.setEnt .internalNl,.cb,.comment],none,false⟩⟩,⟨47,.other,false,some ⟨14,[.setEnt .internalNl,.cb,.comment],none,false⟩⟩,⟨59,.other,false,some ⟨14,[.setEnt .internalNl,.cb,.comment],none,false⟩⟩,⟨92,.other,false,some ⟨14,[.setEnt .internalNl,.cb,.comment],none,false⟩⟩]⟩,⟨[8],none,[],[⟨256,.other,false,none⟩,⟨256,.ws,false,none⟩,⟨256,.lf,false,some ⟨21,[],none,false⟩⟩,⟨256,.vt,false,none⟩,⟨256,.ff,false,none⟩,⟨256,.cr,false,none⟩,⟨256,.cr,true,none⟩,⟨33,.other,false,none⟩,⟨34,.other,false,none⟩,⟨42,.other,false,none⟩,⟨47,.other,false,none⟩,⟨59,.other,false,none⟩,⟨92,.other,false,none⟩]⟩,⟨[8,12],none,[],[⟨256,.other,false,some ⟨14,[.setEnt .internalNl,.cb,.comment],none,false⟩⟩,⟨256,.ws,false,some ⟨15,[.setEnt .internalNl,.cb],none,false⟩⟩,⟨256,.lf,false,some ⟨22,[.setEnt .internalNl,.cb],none,false⟩⟩,⟨256,.vt,false,some ⟨14,[.setEnt .internalNl,.cb,.comment],none,false⟩⟩,⟨256,.ff,false,some ⟨17,[.setEnt .internalNl,.cb],none,false⟩⟩,⟨256,.cr,false,some ⟨18,[.setEnt .internalNl,.cb],none,false⟩⟩,⟨256,.cr,true,some ⟨19,[.setEnt .internalNl,.cb],none,false⟩⟩,⟨33,.other,false,some ⟨14,[.setEnt .internalNl,.cb,.comment],none,false⟩⟩,⟨34,.other,false,some ⟨14,[.setEnt .internalNl,.cb,.comment],none,false⟩⟩,⟨42,.other,false,some ⟨20,[.setEnt .internalNl,.cb,.comment],none,false⟩⟩,⟨47,.other,false,some ⟨14,[.setEnt .internalNl,.cb,.comment],none,false⟩⟩,⟨59,.other,false,some ⟨14,[.setEnt .internalNl,.cb,.comment],none,false⟩⟩,⟨92,.other,false,some ⟨14,[.setEnt .internalNl,.cb,.comment],none,false⟩⟩]⟩,⟨[14,15],none,[],[⟨256,.other,false,some ⟨14,[.comment],none,false⟩⟩,⟨256,.ws,false,some ⟨15,[],none,false⟩⟩,⟨256,.lf,false,some ⟨16,[],none,false⟩⟩,⟨256,.vt,false,some ⟨14,[.comment],none,false⟩⟩,⟨256,.ff,false,some ⟨17,[],none,false⟩⟩,⟨256,.cr,false,some ⟨18,[],none,false⟩⟩,⟨256,.cr,true,some ⟨19,[],none,false⟩⟩,⟨33,.other,false,some ⟨14,[.comment],none,false⟩⟩,⟨34,.other,false,some ⟨14,[.comment],none,false⟩⟩,⟨42,.other,false,some ⟨20,[.comment],none,false⟩⟩,⟨47,.other,false,some ⟨0,[],some 1,true⟩⟩,⟨59,.other,false,some ⟨14,[.comment],none,false⟩⟩,⟨92,.other,false,some ⟨14,[.comment],none,false⟩⟩]⟩,⟨[9],none,[],[⟨256,.other,false,some ⟨14,[.setEnt .internalNl,.cb,.comment],none,false⟩⟩,⟨256,.ws,false,some ⟨15,[.setEnt .internalNl,.cb],none,false⟩⟩,⟨256,.lf,false,some ⟨16,[.setEnt .internalNl,.cb],none,false⟩⟩,⟨256,.vt,false,some ⟨14,[.setEnt .internalNl,.cb,.comment],none,false⟩⟩,⟨256,.ff,false,some ⟨17,[.setEnt .internalNl,.cb],none,false⟩⟩,⟨256,.cr,false,some ⟨18,[.setEnt .internalNl,.cb],none,false⟩⟩,⟨256,.cr,true,some ⟨19,[.setEnt .internalNl,.cb],none,false⟩⟩,⟨33,.other,false,some ⟨14,[.setEnt .internalNl,.cb,.comment],none,false⟩⟩,⟨34,.other,false,some ⟨14,[.setEnt .internalNl,.cb,.comment],none,false⟩⟩,⟨42,.other,false,some ⟨20,[.setEnt .internalNl,.cb,.comment],none,false⟩⟩,⟨47,.other,false,some ⟨14,[.setEnt .internalNl,.cb,.comment],none,false⟩⟩,⟨59,.other,false,some ⟨14,[.setEnt .internalNl,.cb,.comment],none,false⟩⟩,⟨92,.other,false,some ⟨14,[.setEnt .internalNl,.cb,.comment],none,false⟩⟩]⟩,⟨[9,10],none,[],[⟨256,.other,false,some ⟨14,[.setEnt .internalNl,.cb,.comment],none,false⟩⟩,⟨256,.ws,false,some ⟨15,[.setEnt .internalNl,.cb],none,false⟩⟩,⟨256,.lf,false,some ⟨16,[.setEnt .internalNl,.cb],none,false⟩⟩,⟨256,.vt,false,some ⟨14,[.setEnt .internalNl,.cb,.comment],none,false⟩⟩,⟨256,.ff,false,some ⟨17,[.setEnt .internalNl,.cb],none,false⟩⟩,⟨256,.cr,false,some ⟨18,[.setEnt .internalNl,.cb],none,false⟩⟩,⟨256,.cr,true,some ⟨19,[.setEnt .internalNl,.cb],none,false⟩⟩,⟨33,.other,false,some ⟨14,[.setEnt .internalNl,.cb,.comment],none,false⟩⟩,⟨34,.other,false,some ⟨14,[.setEnt .internalNl,.cb,.comment],none,false⟩⟩,⟨42,.other,false,some ⟨20,[.setEnt .internalNl,.cb,.comment],none,false⟩⟩,⟨47,.other,false,some ⟨14,[.setEnt .internalNl,.cb,.comment],none,false⟩⟩,⟨59,.other,false,some ⟨14,[.setEnt .internalNl,.cb,.comment],none,false⟩⟩,⟨92,.other,false,some ⟨14,[.setEnt .internalNl,.cb,.comment],none,false⟩⟩]⟩]
theorem asm_line_lrowsOk : rowsOk asm_line_nfa asm_line_lex.rel (asm_line_lcs.map (·.1)) asm_line_lrows = true := by decide +kernel
def asm_line_lfr : List CA.FRow := [⟨true,none,[],[⟨256,.other,false,false,none,some ([.setEnt (.own 7)],(some 4,true))⟩,⟨9,.ws,false,false,some 1,some ([.setEnt (.own 0)],(some 0,false))⟩,⟨10,.lf,false,true,none,some ([.setEnt .newline],(some 3,true))⟩,⟨11,.vt,false,false,none,none⟩,⟨12,.ff,false,true,none,some ([.setEnt .newline],(some 3,true))⟩,⟨13,.cr,false,false,some 2,some ([.setEnt .newline],(none,false))⟩,⟨13,.cr,true,true,some 3,some ([.setEnt .newline],(some 3,false))⟩,⟨33,.other,false,false,some 4,some ([.comment,.setEnt (.own 7)],(some 1,false))⟩,⟨34,.other,false,false,some 5,some ([.code,.setEnt (.own 7)],(some 4,false))⟩,⟨42,.other,false,false,none,some ([.setEnt (.own 7)],(some 4,true))⟩,⟨47,.other,false,false,some 6,some ([.setEnt (.own 7)],(some 4,false))⟩,⟨59,.other,false,false,some 7,some ([.comment,.setEnt (.own 7)],(some 1,false))⟩,⟨92,.other,false,false,none,some ([.setEnt (.own 7)],(some 4,true))⟩]⟩,⟨false,some 0,[],[⟨256,.other,false,false,none,none⟩,⟨9,.ws,false,false,some 1,some ([.setEnt (.own 0)],(some 0,false))⟩,⟨10,.lf,false,true,none,none⟩,⟨11,.vt,false,false,none,none⟩,⟨12,.ff,false,true,none,none⟩,⟨13,.cr,false,false,none,none⟩,⟨13,.cr,true,true,none,none⟩,⟨33,.other,false,false,none,none⟩,⟨34,.other,false,false,none,none⟩,⟨42,.other,false,false,none,none⟩,⟨47,.other,false,false,none,none⟩,⟨59,.other,false,false,none,none⟩,⟨92,.other,false,false,none,none⟩]⟩,⟨false,none,[],[⟨256,.other,false,false,none,none⟩,⟨9,.ws,false,false,none,none⟩,⟨10,.lf,false,true,none,some ([.setEnt .newline],(some 3,true))⟩,⟨11,.vt,false,false,none,none⟩,⟨12,.ff,false,true,none,none⟩,⟨13,.cr,false,false,none,none⟩,⟨13,.cr,true,true,none,none⟩,⟨33,.other,false,false,none,none⟩,⟨34,.other,false,false,none,none⟩,⟨42,.other,false,false,none,none⟩,⟨47,.other,false,false,none,none⟩,⟨59,.other,false,false,none,none⟩,⟨92,.other,false,false,none,none⟩]⟩,⟨false,some 3,[],[⟨256,.other,false,false,none,none⟩,⟨9,.ws,false,false,none,none⟩,⟨10,.lf,false,true,none,some ([.setEnt .newline],(some 3,true))⟩,⟨11,.vt,false,false,none,none⟩,⟨12,.ff,false,true,none,none⟩,⟨13,.cr,false,false,none,none⟩,⟨13,.cr,true,true,none,none⟩,⟨33,.other,false,false,none,none⟩,⟨34,.other,false,false,none,none⟩,⟨42,.other,false,false,none,none⟩,⟨47,.other,false,false,none,none⟩,⟨59,.other,false,false,none,none⟩,⟨92,.other,false,false,none,none⟩]⟩,⟨false,some 1,[],[⟨256,.other,false,false,some 8,some ([],(some 1,false))⟩,⟨9,.ws,false,false,some 8,some ([],(some 1,false))⟩,⟨10,.lf,false,true,none,none⟩,⟨11,.vt,false,false,some 8,some ([],(some 1,false))⟩,⟨12,.ff,false,true,none,none⟩,⟨13,.cr,false,false,none,none⟩,⟨13,.cr,true,true,none,none⟩,⟨33,.other,false,false,some 8,some ([],(some 1,false))⟩,⟨34,.other,false,false,some 8,some ([],(some 1,false))⟩,⟨42,.other,false,false,some 8,some ([],(some 1,false))⟩,⟨47,.other,false,false,some 8,some ([],(some 1,false))⟩,⟨59,.other,false,false,some 8,some ([],(some 1,false))⟩,⟨92,.other,false,false,some 8,some ([],(some 1,false))⟩]⟩,⟨false,some 4,[],[⟨256,.other,false,false,some 9,some ([],(none,false))⟩,⟨9,.ws,false,false,some 9,some ([],(none,false))⟩,⟨10,.lf,false,true,none,none⟩,⟨11,.vt,false,false,some 9,some ([],(none,false))⟩,⟨12,.ff,false,true,none,none⟩,⟨13,.cr,false,false,none,none⟩,⟨13,.cr,true,true,none,none⟩,⟨33,.other,false,false,some 9,some ([],(none,false))⟩,⟨34,.other,false,false,none,some ([],(some 2,true))⟩,⟨42,.other,false,false,some 9,some ([],(none,false))⟩,⟨47,.other,false,false,some 9,some ([],(none,false))⟩,⟨59,.other,false,false,some 9,some ([],(none,false))⟩,⟨92,.other,false,false,some 10,some ([],(none,false))⟩]⟩,⟨false,some 4,[],[⟨256,.other,false,false,none,none⟩,⟨9,.ws,false,false,none,none⟩,⟨10,.lf,false,true,none,none⟩,⟨11,.vt,false,false,none,none⟩,⟨12,.ff,false,true,none,none⟩,⟨13,.cr,false,false,none,none⟩,⟨13,.cr,true,true,none,none⟩,⟨33,.other,false,false,none,none⟩,⟨34,.other,false,false,none,none⟩,⟨42,.other,false,false,some 11,some ([.comment],(none,false))⟩,⟨47,.other,false,false,some 12,some ([.comment],(some 1,false))⟩,⟨59,.other,false,false,none,none⟩,⟨92,.other,false,false,none,none⟩]⟩,⟨false,some 1,[],[⟨256,.other,false,false,some 8,some ([],(some 1,false))⟩,⟨9,.ws,false,false,some 8,some ([],(some 1,false))⟩,⟨10,.lf,false,true,none,none⟩,⟨11,.vt,false,false,some 8,some ([],(some 1,false))⟩,⟨12,.ff,false,true,none,none⟩,⟨13,.cr,false,false,none,none⟩,⟨13,.cr,true,true,none,none⟩,⟨33,.other,false,false,some 8,some ([],(some 1,false))⟩,⟨34,.other,false,false,some 8,some ([],(some 1,false))⟩,⟨42,.other,false,false,some 8,some ([],(some 1,false))⟩,⟨47,.other,false,false,some 8,some ([],(some 1,false))⟩,⟨59,.other,false,false,some 8,some ([],(some 1,false))⟩,⟨92,.other,false,false,some 8,some ([],(some 1,false))⟩]⟩,⟨false,some 1,[],[⟨256,.other,false,false,some 8,some ([],(some 1,false))⟩,⟨9,.ws,false,false,some 8,some ([],(some 1,false))⟩,⟨10,.lf,false,true,none,none⟩,⟨11,.vt,false,false,some 8,some ([],(some 1,false))⟩,⟨12,.ff,false,true,none,none⟩,⟨13,.cr,false,false,none,none⟩,⟨13,.cr,true,true,none,none⟩,⟨33,.other,false,false,some 8,some ([],(some 1,false))⟩,⟨34,.other,false,false,some 8,some ([],(some 1,false))⟩,⟨42,.other,false,false,some 8,some ([],(some 1,false))⟩,⟨47,.other,false,false,some 8,some ([],(some 1,false))⟩,⟨59,.other,false,false,some 8,some ([],(some 1,false))⟩,⟨92,.other,false,false,some 8,some ([],(some 1,false))⟩]⟩,⟨false,none,[],[⟨256,.other,false,false,some 9,some ([],(none,false))⟩,⟨9,.ws,false,false,some 9,some ([],(none,false))⟩,⟨10,.lf,false,true,none,none⟩,⟨11,.vt,false,false,some 9,some ([],(none,false))⟩,⟨12,.ff,false,true,none,none⟩,⟨13,.cr,false,false,none,none⟩,⟨13,.cr,true,true,none,none⟩,⟨33,.other,false,false,some 9,some ([],(none,false))⟩,⟨34,.other,false,false,none,some ([],(some 2,true))⟩,⟨42,.other,false,false,some 9,some ([],(none,false))⟩,⟨47,.other,false,false,some 9,some ([],(none,false))⟩,⟨59,.other,false,false,some 9,some ([],(none,false))⟩,⟨92,.other,false,false,some 10,some ([],(none,false))⟩]⟩,⟨false,none,[],[⟨256,.other,false,false,some 13,some ([],(none,false))⟩,⟨9,.ws,false,false,some 13,some ([],(none,false))⟩,⟨10,.lf,false,true,none,none⟩,⟨11,.vt,false,false,some 13,some ([],(none,false))⟩,⟨12,.ff,false,true,none,none⟩,⟨13,.cr,false,false,none,none⟩,⟨13,.cr,true,true,none,none⟩,⟨33,.other,false,false,some 13,some ([],(none,false))⟩,⟨34,.other,false,false,some 13,some ([],(none,false))⟩,⟨42,.other,false,false,some 13,some ([],(none,false))⟩,⟨47,.other,false,false,some 13,some ([],(none,false))⟩,⟨59,.other,false,false,some 13,some ([],(none,false))⟩,⟨92,.other,false,false,some 13,some ([],(none,false))⟩]⟩,⟨false,none,[],[⟨256,.other,false,false,some 14,some ([.comment],(none,false))⟩,⟨9,.ws,false,false,some 15,some ([],(none,false))⟩,⟨10,.lf,false,true,some 16,some ([],(none,false))⟩,⟨11,.vt,false,false,some 14,some ([.comment],(none,false))⟩,⟨12,.ff,false,true,some 17,some ([],(none,false))⟩,⟨13,.cr,false,false,some 18,some ([],(none,false))⟩,⟨13,.cr,true,true,some 19,some ([],(none,false))⟩,⟨33,.other,false,false,some 14,some ([.comment],(none,false))⟩,⟨34,.other,false,false,some 14,some ([.comment],(none,false))⟩,⟨42,.other,false,false,some 20,some ([.comment],(none,false))⟩,⟨47,.other,false,false,some 14,some ([.comment],(none,false))⟩,⟨59,.other,false,false,some 14,some ([.comment],(none,false))⟩,⟨92,.other,false,false,some 14,some ([.comment],(none,false))⟩]⟩,⟨false,some 1,[],[⟨256,.other,false,false,some 8,some ([],(some 1,false))⟩,⟨9,.ws,false,false,some 8,some ([],(some 1,false))⟩,⟨10,.lf,false,true,none,none⟩,⟨11,.vt,false,false,some 8,some ([],(some 1,false))⟩,⟨12,.ff,false,true,none,none⟩,⟨13,.cr,false,false,none,none⟩,⟨13,.cr,true,true,none,none⟩,⟨33,.other,false,false,some 8,some ([],(some 1,false))⟩,⟨34,.other,false,false,some 8,some ([],(some 1,false))⟩,⟨42,.other,false,false,some 8,some ([],(some 1,false))⟩,⟨47,.other,false,false,some 8,some ([],(some 1,false))⟩,⟨59,.other,false,false,some 8,some ([],(some 1,false))⟩,⟨92,.other,false,false,some 8,some ([],(some 1,false))⟩]⟩,⟨false,none,[],[⟨256,.other,false,false,some 9,some ([],(none,false))⟩,⟨9,.ws,false,false,some 9,some ([],(none,false))⟩,⟨10,.lf,false,true,none,none⟩,⟨11,.vt,false,false,some 9,some ([],(none,false))⟩,⟨12,.ff,false,true,none,none⟩,⟨13,.cr,false,false,none,none⟩,⟨13,.cr,true,true,none,none⟩,⟨33,.other,false,false,some 9,some ([],(none,false))⟩,⟨34,.other,false,false,none,some ([],(some 2,true))⟩,⟨42,.other,false,false,some 9,some ([],(none,false))⟩,⟨47,.other,false,false,some 9,some ([],(none,false))⟩,⟨59,.other,false,false,some 9,some ([],(none,false))⟩,⟨92,.other,false,false,some 10,some ([],(none,false))⟩]⟩,⟨false,none,[],[⟨256,.other,false,false,some 14,some ([.comment],(none,false))⟩,⟨9,.ws,false,false,some 15,some ([],(none,false))⟩,⟨10,.lf,false,true,some 16,some ([],(none,false))⟩,⟨11,.vt,false,false,some 14,some ([.comment],(none,false))⟩,⟨12,.ff,false,true,some 17,some ([],(none,false))⟩,⟨13,.cr,false,false,some 18,some ([],(none,false))⟩,⟨13,.cr,true,true,some 19,some ([],(none,false))⟩,⟨33,.other,false,false,some 14,some ([.comment],(none,false))⟩,⟨34,.other,false,false,some 14,some ([.comment],(none,false))⟩,⟨42,.other,false,false,some 20,some ([.comment],(none,false))⟩,⟨47,.other,false,false,some 14,some ([.comment],(none,false))⟩,⟨59,.other,false,false,some 14,some ([.comment],(none,false))⟩,⟨92,.other,false,false,some 14,some ([.comment],(none,false))⟩]⟩,⟨false,none,[],[⟨256,.other,false,false,some 14,some ([.comment],(none,false))⟩,⟨9,.ws,false,false,some 15,some ([],(none,false))⟩,⟨10,.lf,false,true,some 16,some ([],(none,false))⟩,⟨11,.vt,false,false,some 14,some ([.comment],(none,false))⟩,⟨12,.ff,false,true,some 17,some ([],(none,false))⟩,⟨13,.cr,false,false,some 18,some ([],(none,false))⟩,⟨13,.cr,true,true,some 19,some ([],(none,false))⟩,⟨33,.other,false,false,some 14,some ([.comment],(none,false))⟩,⟨34,.other,false,false,some 14,some ([.comment],(none,false))⟩,⟨42,.other,false,false,some 20,some ([.comment],(none,false))⟩,⟨47,.other,false,false,some 14,some ([.comment],(none,false))⟩,⟨59,.other,false,false,some 14,some ([.comment],(none,false))⟩,⟨92,.other,false,false,some 14,some ([.comment],(none,false))⟩]⟩,⟨false,none,[],[⟨256,.other,false,false,some 14,some ([.setEnt .internalNl,.cb,.comment],(none,false))⟩,⟨9,.ws,false,false,some 15,some ([.setEnt .internalNl,.cb],(none,false))⟩,⟨10,.lf,false,true,some 16,some ([.setEnt .internalNl,.cb],(none,false))⟩,⟨11,.vt,false,false,some 14,some ([.setEnt .internalNl,.cb,.comment],(none,false))⟩,⟨12,.ff,false,true,some 17,some ([.setEnt .internalNl,.cb],(none,false))⟩,⟨13,.cr,false,false,some 18,some ([.setEnt .internalNl,.cb],(none,false))⟩,⟨13,.cr,true,true,some 19,some ([.setEnt .internalNl,.cb],(none,false))⟩,⟨33,.other,false,false,some 14,some ([.setEnt .internalNl,.cb,.comment],(none,false))⟩,⟨34,.other,false,false,some 14,some ([.setEnt .internalNl,.cb,.comment],(none,false))⟩,⟨42,.other,false,false,some 20,some ([.setEnt .internalNl,.cb,.comment],(none,false))⟩,⟨47,.other,false,false,some 14,some ([.setEnt .internalNl,.cb,.comment],(none,false))⟩,⟨59,.other,false,false,some 14,some ([.setEnt .internalNl,.cb,.comment],(none,false))⟩,⟨92,.other,false,false,some 14,some ([.setEnt .internalNl,.cb,.comment],(none,false))⟩]⟩,⟨false,none,[],[⟨256,.other,false,false,some 14,some ([.setEnt .internalNl,.cb,.comment],(none,false))⟩,⟨9,.ws,false,false,some 15,some ([.setEnt .internalNl,.cb],(none,false))⟩,⟨10,.lf,false,true,some 16,some ([.setEnt .internalNl,.cb],(none,false))⟩,⟨11,.vt,false,false,some 14,some ([.setEnt .internalNl,.cb,.comment],(none,false))⟩,⟨12,.ff,false,true,some 17,some ([.setEnt .internalNl,.cb],(none,false))⟩,⟨13,.cr,false,false,some 18,some ([.setEnt .internalNl,.cb],(none,false))⟩,⟨13,.cr,true,true,some 19,some ([.setEnt .internalNl,.cb],(none,false))⟩,⟨33,.other,false,false,some 14,some ([.setEnt .internalNl,.cb,.comment],(none,false))⟩,⟨34,.other,false,false,some 14,some ([.setEnt .internalNl,.cb,.comment],(none,false))⟩,⟨42,.other,false,false,some 20,some ([.setEnt .internalNl,.cb,.comment],(none,false))⟩,⟨47,.other,false,false,some 14,some ([.setEnt .internalNl,.cb,.comment],(none,false))⟩,⟨59,.other,false,false,some 14,some ([.setEnt .internalNl,.cb,.comment],(none,false))⟩,⟨92,.other,false,false,some 14,some ([.setEnt .internalNl,.cb,.comment],(none,false))⟩]⟩,⟨false,none,[],[⟨256,.other,false,false,none,none⟩,⟨9,.ws,false,false,none,none⟩,⟨10,.lf,false,true,some 21,some ([],(none,false))⟩,⟨11,.vt,false,false,none,none⟩,⟨12,.ff,false,true,none,none⟩,⟨13,.cr,false,false,none,none⟩,⟨13,.cr,true,true,none,none⟩,⟨33,.other,false,false,none,none⟩,⟨34,.other,false,false,none,none⟩,⟨42,.other,false,false,none,none⟩,⟨47,.other,false,false,none,none⟩,⟨59,.other,false,false,none,none⟩,⟨92,.other,false,false,none,none⟩]⟩,⟨false,none,[],[⟨256,.other,false,false,some 14,some ([.setEnt .internalNl,.cb,.comment],(none,false))⟩,⟨9,.ws,false,false,some 15,some ([.setEnt .internalNl,.cb],(none,false))⟩,⟨10,.lf,false,true,some 22,some ([.setEnt .internalNl,.cb],(none,false))⟩,⟨11,.vt,false,false,some 14,some ([.setEnt .internalNl,.cb,.comment],(none,false))⟩,⟨12,.ff,false,true,some 17,some ([.setEnt .internalNl,.cb],(none,false))⟩,⟨13,.cr,false,false,some 18,some ([.setEnt .internalNl,.cb],(none,false))⟩,⟨13,.cr,true,true,some 19,some ([.setEnt .internalNl,.cb],(none,false))⟩,⟨33,.other,false,false,some 14,some ([.setEnt .internalNl,.cb,.comment],(none,false))⟩,⟨34,.other,false,false,some 14,some ([.setEnt .internalNl,.cb,.comment],(none,false))⟩,⟨42,.other,false,false,some 20,some ([.setEnt .internalNl,.cb,.comment],(none,false))⟩,⟨47,.other,false,false,some 14,some ([.setEnt .internalNl,.cb,.comment],(none,false))⟩,⟨59,.other,false,false,some 14,some ([.setEnt .internalNl,.cb,.comment],(none,false))⟩,⟨92,.other,false,false,some 14,some ([.setEnt .internalNl,.cb,.comment],(none,false))⟩]⟩,⟨false,none,[],[⟨256,.other,false,false,some 14,some ([.comment],(none,false))⟩,⟨9,.ws,false,false,some 15,some ([],(none,false))⟩,⟨10,.lf,false,true,some 16,some ([],(none,false))⟩,⟨11,.vt,false,false,some 14,some ([.comment],(none,false))⟩,⟨12,.ff,false,true,some 17,some ([],(none,false))⟩,⟨13,.cr,false,false,some 18,some ([],(none,false))⟩,⟨13,.cr,true,true,some 19,some ([],(none,false))⟩,⟨33,.other,false,false,some 14,some ([.comment],(none,false))⟩,⟨34,.other,false,false,some 14,some ([.comment],(none,false))⟩,⟨42,.other,false,false,some 20,some ([.comment],(none,false))⟩,⟨47,.other,false,false,none,some ([],(some 1,true))⟩,⟨59,.other,false,false,some 14,some ([.comment],(none,false))⟩,⟨92,.other,false,false,some 14,some ([.comment],(none,false))⟩]⟩,⟨false,none,[],[⟨256,.other,false,false,some 14,some ([.setEnt .internalNl,.cb,.comment],(none,false))⟩,⟨9,.ws,false,false,some 15,some ([.setEnt .internalNl,.cb],(none,false))⟩,⟨10,.lf,false,true,some 16,some ([.setEnt .internalNl,.cb],(none,false))⟩,⟨11,.vt,false,false,some 14,some ([.setEnt .internalNl,.cb,.comment],(none,false))⟩,⟨12,.ff,false,true,some 17,some ([.setEnt .internalNl,.cb],(none,false))⟩,⟨13,.cr,false,false,some 18,some ([.setEnt .internalNl,.cb],(none,false))⟩,⟨13,.cr,true,true,some 19,some ([.setEnt .internalNl,.cb],(none,false))⟩,⟨33,.other,false,false,some 14,some ([.setEnt .internalNl,.cb,.comment],(none,false))⟩,⟨34,.other,false,false,some 14,some ([.setEnt .internalNl,.cb,.comment],(none,false))⟩,⟨42,.other,false,false,some 20,some ([.setEnt .internalNl,.cb,.comment],(none,false))⟩,⟨47,.other,false,false,some 14,some ([.setEnt .internalNl,.cb,.comment],(none,false))⟩,⟨59,.other,false,false,some 14,some ([.setEnt .internalNl,.cb,.comment],(none,false))⟩,⟨92,.other,false,false,some 14,some ([.setEnt .internalNl,.cb,.comment],(none,false))⟩]⟩,⟨false,none,[],[⟨256,.other,false,false,some 14,some ([.setEnt .internalNl,.cb,.comment],(none,false))⟩,⟨9,.ws,false,false,some 15,some ([.setEnt .internalNl,.cb],(none,false))⟩,⟨10,.lf,false,true,some 16,some ([.setEnt .internalNl,.cb],(none,false))⟩,⟨11,.vt,false,false,some 14,some ([.setEnt .internalNl,.cb,.comment],(none,false))⟩,⟨12,.ff,false,true,some 17,some ([.setEnt .internalNl,.cb],(none,false))⟩,⟨13,.cr,false,false,some 18,some ([.setEnt .internalNl,.cb],(none,false))⟩,⟨13,.cr,true,true,some 19,some ([.setEnt .internalNl,.cb],(none,false))⟩,⟨33,.other,false,false,some 14,some ([.setEnt .internalNl,.cb,.comment],(none,false))⟩,⟨34,.other,false,false,some 14,some ([.setEnt .internalNl,.cb,.comment],(none,false))⟩,⟨42,.other,false,false,some 20,some ([.setEnt .internalNl,.cb,.comment],(none,false))⟩,⟨47,.other,false,false,some 14,some ([.setEnt .internalNl,.cb,.comment],(none,false))⟩,⟨59,.other,false,false,some 14,some ([.setEnt .internalNl,.cb,.comment],(none,false))⟩,⟨92,.other,false,false,some 14,some ([.setEnt .internalNl,.cb,.comment],(none,false))⟩]⟩]
theorem asm_line_lfrOk : asm_line_lrows.map (CA.prep asm_line_lex) = asm_line_lfr := by decide +kernel
def asm_line_lTab : List CT := [(.node (.node (.node (.node (.node (.node (.node .leaf 128 [⟨⟨.code,[],.lcode,false,[],false⟩,false,false,[],none,none,none,false,false,false,none,false,⟨.lcode,none,false,.lblank⟩⟩] .leaf) 38019 [⟨⟨.code,[],.lcode,true,[],false⟩,false,false,[],none,none,none,false,false,false,none,false,⟨.lblank,none,false,.lblank⟩⟩] (.node .leaf 148108 [⟨⟨.code,[],.lcomment,false,[],false⟩,false,false,[],none,none,none,false,false,false,none,false,⟨.lcomment,none,false,.lblank⟩⟩] .leaf)) 185487 [⟨⟨.code,[],.lcomment,true,[],false⟩,false,false,[],none,none,none,false,false,false,none,false,⟨.lblank,none,false,.lblank⟩⟩] (.node (.node .leaf 296088 [⟨⟨.code,[],.lblank,false,[],false⟩,false,false,[],none,none,none,false,false,false,none,false,⟨.lblank,none,false,.lblank⟩⟩] .leaf) 332955 [⟨⟨.code,[],.lblank,true,[],false⟩,false,false,[],none,none,none,false,false,false,none,false,⟨.lblank,none,false,.lblank⟩⟩] (.node .leaf 356509 [⟨⟨.code,[],.lcode,false,[(4,0)],false⟩,false,false,[],none,none,none,false,false,false,none,false,⟨.lcode,none,false,.lblank⟩⟩] .leaf))) 368798 [⟨⟨.code,[],.lcode,false,[(4,1)],false⟩,false,false,[],none,none,none,false,false,false,none,false,⟨.lcode,none,false,.lblank⟩⟩] (.node (.node (.node .leaf 1179872 [⟨⟨(.inside 0),[],.lcode,false,[],false⟩,false,false,[none],none,none,none,false,false,false,none,false,⟨.lcode,none,false,.lblank⟩⟩] .leaf) 1327852 [⟨⟨(.inside 0),[],.lcomment,false,[],false⟩,false,false,[none],none,none,none,false,false,false,none,false,⟨.lcomment,none,false,.lblank⟩⟩] (.node .leaf 1769744 [⟨⟨.code,[47],.lcode,false,[],false⟩,false,false,[none],none,none,none,false,false,false,none,false,⟨.lcode,none,false,.lblank⟩⟩] .leaf)) 4129232 [⟨⟨(.inside 1),[],.lcode,false,[],false⟩,false,false,[none],none,none,none,false,false,false,none,false,⟨.lcode,none,false,.lblank⟩⟩] (.node (.node .leaf 4277212 [⟨⟨(.inside 1),[],.lcomment,false,[],false⟩,false,false,[none],none,none,none,false,false,false,none,false,⟨.lcomment,none,false,.lblank⟩⟩] .leaf) 7078592 [⟨⟨(.inside 2),[],.lcode,false,[],false⟩,false,false,[none],none,none,none,false,false,false,none,false,⟨.lcode,none,false,.lblank⟩⟩] (.node .leaf 7226572 [⟨⟨(.inside 2),[],.lcomment,false,[],false⟩,false,false,[none],none,none,none,false,false,false,none,false,⟨.lcomment,none,false,.lblank⟩⟩] .leaf)))) 20769801 [⟨⟨.code,[47],.lcode,false,[],false⟩,false,false,[some (9,(.ws,false))],none,none,none,false,false,false,none,false,⟨.lcode,none,false,.lblank⟩⟩] (.node (.node (.node (.node .leaf 21088052 [⟨⟨.code,[47],.lcomment,false,[],false⟩,false,false,[none],none,none,none,false,false,false,none,false,⟨.lcode,none,false,.lblank⟩⟩] .leaf) 22179935 [⟨⟨(.inside 0),[],.lcode,false,[],false⟩,false,false,[some (10,(.lf,false))],none,none,none,false,false,false,none,false,⟨.lcode,none,false,.lblank⟩⟩] (.node .leaf 22327915 [⟨⟨(.inside 0),[],.lcomment,false,[],false⟩,false,false,[some (10,(.lf,false))],none,none,none,false,false,false,none,false,⟨.lcomment,none,false,.lblank⟩⟩] .leaf)) 22769807 [⟨⟨.code,[47],.lcode,false,[],false⟩,false,false,[some (10,(.lf,false))],none,none,none,false,false,false,none,false,⟨.lcode,none,false,.lblank⟩⟩] (.node (.node .leaf 25129295 [⟨⟨(.inside 1),[],.lcode,false,[],false⟩,false,false,[some (10,(.lf,false))],none,none,none,false,false,false,none,false,⟨.lcode,none,false,.lblank⟩⟩] .leaf) 25277275 [⟨⟨(.inside 1),[],.lcomment,false,[],false⟩,false,false,[some (10,(.lf,false))],none,none,none,false,false,false,none,false,⟨.lcomment,none,false,.lblank⟩⟩] (.node .leaf 26179947 [⟨⟨(.inside 0),[],.lcode,false,[],false⟩,false,false,[some (12,(.ff,false))],none,none,none,false,false,false,none,false,⟨.lcode,none,false,.lblank⟩⟩] .leaf))) 26327927 [⟨⟨(.inside 0),[],.lcomment,false,[],false⟩,false,false,[some (12,(.ff,false))],none,none,none,false,false,false,none,false,⟨.lcomment,none,false,.lblank⟩⟩] (.node (.node (.node .leaf 26769819 [⟨⟨.code,[47],.lcode,false,[],false⟩,false,false,[some (12,(.ff,false))],none,none,none,false,false,false,none,false,⟨.lcode,none,false,.lblank⟩⟩] .leaf) 28078655 [⟨⟨(.inside 2),[],.lcode,false,[],false⟩,false,false,[some (10,(.lf,false))],none,none,none,false,false,false,none,false,⟨.lcode,none,false,.lblank⟩⟩] (.node .leaf 28179953 [⟨⟨(.inside 0),[],.lcode,false,[],false⟩,false,false,[some (13,(.cr,false))],none,none,none,false,false,false,none,false,⟨.lcode,none,false,.lblank⟩⟩] .leaf)) 28226635 [⟨⟨(.inside 2),[],.lcomment,false,[],false⟩,false,false,[some (10,(.lf,false))],none,none,none,false,false,false,none,false,⟨.lcomment,none,false,.lblank⟩⟩] (.node (.node .leaf 28327933 [⟨⟨(.inside 0),[],.lcomment,false,[],false⟩,false,false,[some (13,(.cr,false))],none,none,none,false,false,false,none,false,⟨.lcomment,none,false,.lblank⟩⟩] .leaf) 28769825 [⟨⟨.code,[47],.lcode,false,[],false⟩,false,false,[some (13,(.cr,false))],none,none,none,false,false,false,none,false,⟨.lcode,none,false,.lblank⟩⟩] .leaf)))) 29129307 [⟨⟨(.inside 1),[],.lcode,false,[],false⟩,false,false,[some (12,(.ff,false))],none,none,none,false,false,false,none,false,⟨.lcode,none,false,.lblank⟩⟩] (.node (.node (.node (.node (.node .leaf 29179956 [⟨⟨(.inside 0),[],.lcode,false,[],false⟩,false,false,[some (13,(.cr,true))],none,none,none,false,false,false,none,false,⟨.lcode,none,false,.lblank⟩⟩] .leaf) 29277287 [⟨⟨(.inside 1),[],.lcomment,false,[],false⟩,false,false,[some (12,(.ff,false))],none,none,none,false,false,false,none,false,⟨.lcomment,none,false,.lblank⟩⟩] (.node .leaf 29327936 [⟨⟨(.inside 0),[],.lcomment,false,[],false⟩,false,false,[some (13,(.cr,true))],none,none,none,false,false,false,none,false,⟨.lcomment,none,false,.lblank⟩⟩] .leaf)) 29769828 [⟨⟨.code,[47],.lcode,false,[],false⟩,false,false,[some (13,(.cr,true))],none,none,none,false,false,false,none,false,⟨.lcode,none,false,.lblank⟩⟩] (.node (.node .leaf 31129313 [⟨⟨(.inside 1),[],.lcode,false,[],false⟩,false,false,[some (13,(.cr,false))],none,none,none,false,false,false,none,false,⟨.lcode,none,false,.lblank⟩⟩] .leaf) 31277293 [⟨⟨(.inside 1),[],.lcomment,false,[],false⟩,false,false,[some (13,(.cr,false))],none,none,none,false,false,false,none,false,⟨.lcomment,none,false,.lblank⟩⟩] (.node .leaf 32078667 [⟨⟨(.inside 2),[],.lcode,false,[],false⟩,false,false,[some (12,(.ff,false))],none,none,none,false,false,false,none,false,⟨.lcode,none,false,.lblank⟩⟩] .leaf))) 32129316 [⟨⟨(.inside 1),[],.lcode,false,[],false⟩,false,false,[some (13,(.cr,true))],none,none,none,false,false,false,none,false,⟨.lcode,none,false,.lblank⟩⟩] (.node (.node (.node .leaf 32226647 [⟨⟨(.inside 2),[],.lcomment,false,[],false⟩,false,false,[some (12,(.ff,false))],none,none,none,false,false,false,none,false,⟨.lcomment,none,false,.lblank⟩⟩] .leaf) 32277296 [⟨⟨(.inside 1),[],.lcomment,false,[],false⟩,false,false,[some (13,(.cr,true))],none,none,none,false,false,false,none,false,⟨.lcomment,none,false,.lblank⟩⟩] (.node .leaf 34078673 [⟨⟨(.inside 2),[],.lcode,false,[],false⟩,false,false,[some (13,(.cr,false))],none,none,none,false,false,false,none,false,⟨.lcode,none,false,.lblank⟩⟩] .leaf)) 34226653 [⟨⟨(.inside 2),[],.lcomment,false,[],false⟩,false,false,[some (13,(.cr,false))],none,none,none,false,false,false,none,false,⟨.lcomment,none,false,.lblank⟩⟩] (.node (.node .leaf 35078676 [⟨⟨(.inside 2),[],.lcode,false,[],false⟩,false,false,[some (13,(.cr,true))],none,none,none,false,false,false,none,false,⟨.lcode,none,false,.lblank⟩⟩] .leaf) 35226656 [⟨⟨(.inside 2),[],.lcomment,false,[],false⟩,false,false,[some (13,(.cr,true))],none,none,none,false,false,false,none,false,⟨.lcomment,none,false,.lblank⟩⟩] .leaf))) 40088109 [⟨⟨.code,[47],.lcomment,false,[],false⟩,false,false,[some (9,(.ws,false))],none,none,none,false,false,false,none,false,⟨.lcode,none,false,.lblank⟩⟩] (.node (.node (.node (.node .leaf 40406360 [⟨⟨.code,[47],.lblank,false,[],false⟩,false,false,[none],none,none,none,false,false,false,none,false,⟨.lcode,none,false,.lblank⟩⟩] .leaf) 42088115 [⟨⟨.code,[47],.lcomment,false,[],false⟩,false,false,[some (10,(.lf,false))],none,none,none,false,false,false,none,false,⟨.lcode,none,false,.lblank⟩⟩] (.node .leaf 46088127 [⟨⟨.code,[47],.lcomment,false,[],false⟩,false,false,[some (12,(.ff,false))],none,none,none,false,false,false,none,false,⟨.lcode,none,false,.lblank⟩⟩] .leaf)) 48088133 [⟨⟨.code,[47],.lcomment,false,[],false⟩,false,false,[some (13,(.cr,false))],none,none,none,false,false,false,none,false,⟨.lcode,none,false,.lblank⟩⟩] (.node (.node .leaf 49088136 [⟨⟨.code,[47],.lcomment,false,[],false⟩,false,false,[some (13,(.cr,true))],none,none,none,false,false,false,none,false,⟨.lcode,none,false,.lblank⟩⟩] .leaf) 59406417 [⟨⟨.code,[47],.lblank,false,[],false⟩,false,false,[some (9,(.ws,false))],none,none,none,false,false,false,none,false,⟨.lcode,none,false,.lblank⟩⟩] (.node .leaf 61406423 [⟨⟨.code,[47],.lblank,false,[],false⟩,false,false,[some (10,(.lf,false))],none,none,none,false,false,false,none,false,⟨.lcode,none,false,.lblank⟩⟩] .leaf))) 65406435 [⟨⟨.code,[47],.lblank,false,[],false⟩,false,false,[some (12,(.ff,false))],none,none,none,false,false,false,none,false,⟨.lcode,none,false,.lblank⟩⟩] (.node (.node (.node .leaf 67406441 [⟨⟨.code,[47],.lblank,false,[],false⟩,false,false,[some (13,(.cr,false))],none,none,none,false,false,false,none,false,⟨.lcode,none,false,.lblank⟩⟩] .leaf) 68406444 [⟨⟨.code,[47],.lblank,false,[],false⟩,false,false,[some (13,(.cr,true))],none,none,none,false,false,false,none,false,⟨.lcode,none,false,.lblank⟩⟩] (.node .leaf 68769945 [⟨⟨.code,[47],.lcode,false,[],false⟩,false,false,[some (33,(.other,false))],none,none,none,false,false,false,none,false,⟨.lcode,none,false,.lblank⟩⟩] .leaf)) 70769951 [⟨⟨.code,[47],.lcode,false,[],false⟩,false,false,[some (34,(.other,false))],none,none,none,false,false,false,none,false,⟨.lcode,none,false,.lblank⟩⟩] (.node (.node .leaf 88088253 [⟨⟨.code,[47],.lcomment,false,[],false⟩,false,false,[some (33,(.other,false))],none,none,none,false,false,false,none,false,⟨.lcode,none,false,.lblank⟩⟩] .leaf) 90088259 [⟨⟨.code,[47],.lcomment,false,[],false⟩,false,false,[some (34,(.other,false))],none,none,none,false,false,false,none,false,⟨.lcode,none,false,.lblank⟩⟩] .leaf))))) 107406561 [⟨⟨.code,[47],.lblank,false,[],false⟩,false,false,[some (33,(.other,false))],none,none,none,false,false,false,none,false,⟨.lcode,none,false,.lblank⟩⟩] (.node (.node (.node (.node (.node (.node .leaf 109406567 [⟨⟨.code,[47],.lblank,false,[],false⟩,false,false,[some (34,(.other,false))],none,none,none,false,false,false,none,false,⟨.lcode,none,false,.lblank⟩⟩] .leaf) 120770101 [⟨⟨.code,[47],.lcode,false,[],false⟩,false,false,[some (59,(.other,false))],none,none,none,false,false,false,none,false,⟨.lcode,none,false,.lblank⟩⟩] (.node .leaf 140088409 [⟨⟨.code,[47],.lcomment,false,[],false⟩,false,false,[some (59,(.other,false))],none,none,none,false,false,false,none,false,⟨.lcode,none,false,.lblank⟩⟩] .leaf)) 154902973 [⟨⟨(.inside 0),[],.lcode,false,[(4,0)],false⟩,false,false,[none],none,none,none,false,false,false,none,false,⟨.lcode,none,false,.lblank⟩⟩] (.node (.node .leaf 154915262 [⟨⟨(.inside 0),[],.lcode,false,[(4,1)],false⟩,false,false,[none],none,none,none,false,false,false,none,false,⟨.lcode,none,false,.lblank⟩⟩] .leaf) 159406717 [⟨⟨.code,[47],.lblank,false,[],false⟩,false,false,[some (59,(.other,false))],none,none,none,false,false,false,none,false,⟨.lcode,none,false,.lblank⟩⟩] (.node .leaf 175903036 [⟨⟨(.inside 0),[],.lcode,false,[(4,0)],false⟩,false,false,[some (10,(.lf,false))],none,none,none,false,false,false,none,false,⟨.lcode,none,false,.lblank⟩⟩] .leaf))) 175915325 [⟨⟨(.inside 0),[],.lcode,false,[(4,1)],false⟩,false,false,[some (10,(.lf,false))],none,none,none,false,false,false,none,false,⟨.lcode,none,false,.lblank⟩⟩] (.node (.node (.node .leaf 179903048 [⟨⟨(.inside 0),[],.lcode,false,[(4,0)],false⟩,false,false,[some (12,(.ff,false))],none,none,none,false,false,false,none,false,⟨.lcode,none,false,.lblank⟩⟩] .leaf) 179915337 [⟨⟨(.inside 0),[],.lcode,false,[(4,1)],false⟩,false,false,[some (12,(.ff,false))],none,none,none,false,false,false,none,false,⟨.lcode,none,false,.lblank⟩⟩] (.node .leaf 181903054 [⟨⟨(.inside 0),[],.lcode,false,[(4,0)],false⟩,false,false,[some (13,(.cr,false))],none,none,none,false,false,false,none,false,⟨.lcode,none,false,.lblank⟩⟩] .leaf)) 181915343 [⟨⟨(.inside 0),[],.lcode,false,[(4,1)],false⟩,false,false,[some (13,(.cr,false))],none,none,none,false,false,false,none,false,⟨.lcode,none,false,.lblank⟩⟩] (.node (.node .leaf 182903057 [⟨⟨(.inside 0),[],.lcode,false,[(4,0)],false⟩,false,false,[some (13,(.cr,true))],none,none,none,false,false,false,none,false,⟨.lcode,none,false,.lblank⟩⟩] .leaf) 182915346 [⟨⟨(.inside 0),[],.lcode,false,[(4,1)],false⟩,false,false,[some (13,(.cr,true))],none,none,none,false,false,false,none,false,⟨.lcode,none,false,.lblank⟩⟩] (.node .leaf 186770299 [⟨⟨.code,[47],.lcode,false,[],false⟩,false,false,[some (92,(.other,false))],none,none,none,false,false,false,none,false,⟨.lcode,none,false,.lblank⟩⟩] .leaf)))) 206088607 [⟨⟨.code,[47],.lcomment,false,[],false⟩,false,false,[some (92,(.other,false))],none,none,none,false,false,false,none,false,⟨.lcode,none,false,.lblank⟩⟩] (.node (.node (.node (.node .leaf 225406915 [⟨⟨.code,[47],.lblank,false,[],false⟩,false,false,[some (92,(.other,false))],none,none,none,false,false,false,none,false,⟨.lcode,none,false,.lblank⟩⟩] .leaf) 232176205 [⟨⟨.code,[47],.lcode,false,[(4,0)],false⟩,false,false,[none],none,none,none,false,false,false,none,false,⟨.lcode,none,false,.lblank⟩⟩] (.node .leaf 232188494 [⟨⟨.code,[47],.lcode,false,[(4,1)],false⟩,false,false,[none],none,none,none,false,false,false,none,false,⟨.lcode,none,false,.lblank⟩⟩] .leaf)) 251176262 [⟨⟨.code,[47],.lcode,false,[(4,0)],false⟩,false,false,[some (9,(.ws,false))],none,none,none,false,false,false,none,false,⟨.lcode,none,false,.lblank⟩⟩] (.node (.node .leaf 251188551 [⟨⟨.code,[47],.lcode,false,[(4,1)],false⟩,false,false,[some (9,(.ws,false))],none,none,none,false,false,false,none,false,⟨.lcode,none,false,.lblank⟩⟩] .leaf) 253176268 [⟨⟨.code,[47],.lcode,false,[(4,0)],false⟩,false,false,[some (10,(.lf,false))],none,none,none,false,false,false,none,false,⟨.lcode,none,false,.lblank⟩⟩] (.node .leaf 253188557 [⟨⟨.code,[47],.lcode,false,[(4,1)],false⟩,false,false,[some (10,(.lf,false))],none,none,none,false,false,false,none,false,⟨.lcode,none,false,.lblank⟩⟩] .leaf))) 257176280 [⟨⟨.code,[47],.lcode,false,[(4,0)],false⟩,false,false,[some (12,(.ff,false))],none,none,none,false,false,false,none,false,⟨.lcode,none,false,.lblank⟩⟩] (.node (.node (.node .leaf 257188569 [⟨⟨.code,[47],.lcode,false,[(4,1)],false⟩,false,false,[some (12,(.ff,false))],none,none,none,false,false,false,none,false,⟨.lcode,none,false,.lblank⟩⟩] .leaf) 259176286 [⟨⟨.code,[47],.lcode,false,[(4,0)],false⟩,false,false,[some (13,(.cr,false))],none,none,none,false,false,false,none,false,⟨.lcode,none,false,.lblank⟩⟩] (.node .leaf 259188575 [⟨⟨.code,[47],.lcode,false,[(4,1)],false⟩,false,false,[some (13,(.cr,false))],none,none,none,false,false,false,none,false,⟨.lcode,none,false,.lblank⟩⟩] .leaf)) 260176289 [⟨⟨.code,[47],.lcode,false,[(4,0)],false⟩,false,false,[some (13,(.cr,true))],none,none,none,false,false,false,none,false,⟨.lcode,none,false,.lblank⟩⟩] (.node (.node .leaf 260188578 [⟨⟨.code,[47],.lcode,false,[(4,1)],false⟩,false,false,[some (13,(.cr,true))],none,none,none,false,false,false,none,false,⟨.lcode,none,false,.lblank⟩⟩] .leaf) 299176406 [⟨⟨.code,[47],.lcode,false,[(4,0)],false⟩,false,false,[some (33,(.other,false))],none,none,none,false,false,false,none,false,⟨.lcode,none,false,.lblank⟩⟩] .leaf)))) 299188695 [⟨⟨.code,[47],.lcode,false,[(4,1)],false⟩,false,false,[some (33,(.other,false))],none,none,none,false,false,false,none,false,⟨.lcode,none,false,.lblank⟩⟩] (.node (.node (.node (.node (.node .leaf 351176562 [⟨⟨.code,[47],.lcode,false,[(4,0)],false⟩,false,false,[some (59,(.other,false))],none,none,none,false,false,false,none,false,⟨.lcode,none,false,.lblank⟩⟩] .leaf) 351188851 [⟨⟨.code,[47],.lcode,false,[(4,1)],false⟩,false,false,[some (59,(.other,false))],none,none,none,false,false,false,none,false,⟨.lcode,none,false,.lblank⟩⟩] (.node .leaf 417176760 [⟨⟨.code,[47],.lcode,false,[(4,0)],false⟩,false,false,[some (92,(.other,false))],none,none,none,false,false,false,none,false,⟨.lcode,none,false,.lblank⟩⟩] .leaf)) 417189049 [⟨⟨.code,[47],.lcode,false,[(4,1)],false⟩,false,false,[some (92,(.other,false))],none,none,none,false,false,false,none,false,⟨.lcode,none,false,.lblank⟩⟩] (.node (.node .leaf 514771283 [⟨⟨.code,[47],.lcode,false,[],false⟩,false,false,[some (256,(.other,false))],none,none,none,false,false,false,none,false,⟨.lcode,none,false,.lblank⟩⟩] .leaf) 534089591 [⟨⟨.code,[47],.lcomment,false,[],false⟩,false,false,[some (256,(.other,false))],none,none,none,false,false,false,none,false,⟨.lcode,none,false,.lblank⟩⟩] (.node .leaf 541269133 [⟨⟨(.inside 1),[],.lcode,false,[(4,0)],false⟩,false,false,[none],none,none,none,false,false,false,none,false,⟨.lcode,none,false,.lblank⟩⟩] .leaf))) 541281422 [⟨⟨(.inside 1),[],.lcode,false,[(4,1)],false⟩,false,false,[none],none,none,none,false,false,false,none,false,⟨.lcode,none,false,.lblank⟩⟩] (.node (.node (.node .leaf 553407899 [⟨⟨.code,[47],.lblank,false,[],false⟩,false,false,[some (256,(.other,false))],none,none,none,false,false,false,none,false,⟨.lcode,none,false,.lblank⟩⟩] .leaf) 562269196 [⟨⟨(.inside 1),[],.lcode,false,[(4,0)],false⟩,false,false,[some (10,(.lf,false))],none,none,none,false,false,false,none,false,⟨.lcode,none,false,.lblank⟩⟩] (.node .leaf 562281485 [⟨⟨(.inside 1),[],.lcode,false,[(4,1)],false⟩,false,false,[some (10,(.lf,false))],none,none,none,false,false,false,none,false,⟨.lcode,none,false,.lblank⟩⟩] .leaf)) 566269208 [⟨⟨(.inside 1),[],.lcode,false,[(4,0)],false⟩,false,false,[some (12,(.ff,false))],none,none,none,false,false,false,none,false,⟨.lcode,none,false,.lblank⟩⟩] (.node (.node .leaf 566281497 [⟨⟨(.inside 1),[],.lcode,false,[(4,1)],false⟩,false,false,[some (12,(.ff,false))],none,none,none,false,false,false,none,false,⟨.lcode,none,false,.lblank⟩⟩] .leaf) 568269214 [⟨⟨(.inside 1),[],.lcode,false,[(4,0)],false⟩,false,false,[some (13,(.cr,false))],none,none,none,false,false,false,none,false,⟨.lcode,none,false,.lblank⟩⟩] .leaf))) 568281503 [⟨⟨(.inside 1),[],.lcode,false,[(4,1)],false⟩,false,false,[some (13,(.cr,false))],none,none,none,false,false,false,none,false,⟨.lcode,none,false,.lblank⟩⟩] (.node (.node (.node (.node .leaf 569269217 [⟨⟨(.inside 1),[],.lcode,false,[(4,0)],false⟩,false,false,[some (13,(.cr,true))],none,none,none,false,false,false,none,false,⟨.lcode,none,false,.lblank⟩⟩] .leaf) 569281506 [⟨⟨(.inside 1),[],.lcode,false,[(4,1)],false⟩,false,false,[some (13,(.cr,true))],none,none,none,false,false,false,none,false,⟨.lcode,none,false,.lblank⟩⟩] (.node .leaf 745177744 [⟨⟨.code,[47],.lcode,false,[(4,0)],false⟩,false,false,[some (256,(.other,false))],none,none,none,false,false,false,none,false,⟨.lcode,none,false,.lblank⟩⟩] .leaf)) 745190033 [⟨⟨.code,[47],.lcode,false,[(4,1)],false⟩,false,false,[some (256,(.other,false))],none,none,none,false,false,false,none,false,⟨.lcode,none,false,.lblank⟩⟩] (.node (.node .leaf 927635293 [⟨⟨(.inside 2),[],.lcode,false,[(4,0)],false⟩,false,false,[none],none,none,none,false,false,false,none,false,⟨.lcode,none,false,.lblank⟩⟩] .leaf) 927647582 [⟨⟨(.inside 2),[],.lcode,false,[(4,1)],false⟩,false,false,[none],none,none,none,false,false,false,none,false,⟨.lcode,none,false,.lblank⟩⟩] (.node .leaf 948635356 [⟨⟨(.inside 2),[],.lcode,false,[(4,0)],false⟩,false,false,[some (10,(.lf,false))],none,none,none,false,false,false,none,false,⟨.lcode,none,false,.lblank⟩⟩] .leaf))) 948647645 [⟨⟨(.inside 2),[],.lcode,false,[(4,1)],false⟩,false,false,[some (10,(.lf,false))],none,none,none,false,false,false,none,false,⟨.lcode,none,false,.lblank⟩⟩] (.node (.node (.node .leaf 952635368 [⟨⟨(.inside 2),[],.lcode,false,[(4,0)],false⟩,false,false,[some (12,(.ff,false))],none,none,none,false,false,false,none,false,⟨.lcode,none,false,.lblank⟩⟩] .leaf) 952647657 [⟨⟨(.inside 2),[],.lcode,false,[(4,1)],false⟩,false,false,[some (12,(.ff,false))],none,none,none,false,false,false,none,false,⟨.lcode,none,false,.lblank⟩⟩] (.node .leaf 954635374 [⟨⟨(.inside 2),[],.lcode,false,[(4,0)],false⟩,false,false,[some (13,(.cr,false))],none,none,none,false,false,false,none,false,⟨.lcode,none,false,.lblank⟩⟩] .leaf)) 954647663 [⟨⟨(.inside 2),[],.lcode,false,[(4,1)],false⟩,false,false,[some (13,(.cr,false))],none,none,none,false,false,false,none,false,⟨.lcode,none,false,.lblank⟩⟩] (.node (.node .leaf 955635377 [⟨⟨(.inside 2),[],.lcode,false,[(4,0)],false⟩,false,false,[some (13,(.cr,true))],none,none,none,false,false,false,none,false,⟨.lcode,none,false,.lblank⟩⟩] .leaf) 955647666 [⟨⟨(.inside 2),[],.lcode,false,[(4,1)],false⟩,false,false,[some (13,(.cr,true))],none,none,none,false,false,false,none,false,⟨.lcode,none,false,.lblank⟩⟩] .leaf)))))),(.node (.node (.node .leaf 128 [⟨⟨.code,[],.lcode,false,[],false⟩,false,false,[],none,none,none,false,false,false,none,false,⟨.lcode,some (.own 0),false,.lblank⟩⟩] .leaf) 148108 [⟨⟨.code,[],.lcomment,false,[],false⟩,false,false,[],none,none,none,false,false,false,none,false,⟨.lcomment,some (.own 0),false,.lblank⟩⟩] .leaf) 296088 [⟨⟨.code,[],.lblank,false,[],false⟩,false,false,[],none,none,none,false,false,false,none,false,⟨.lblank,some (.own 0),false,.lblank⟩⟩] (.node .leaf 356509 [⟨⟨.code,[],.lcode,false,[(4,0)],false⟩,false,false,[],none,none,none,false,false,false,none,false,⟨.lcode,some (.own 0),false,.lblank⟩⟩] .leaf)),(.node (.node .leaf 160 [⟨⟨.code,[],.lcode,false,[],false⟩,true,false,[],none,none,none,false,false,false,none,false,⟨.lcode,some .newline,false,.lblank⟩⟩] .leaf) 148140 [⟨⟨.code,[],.lcomment,false,[],false⟩,true,false,[],none,none,none,false,false,false,none,false,⟨.lcomment,some .newline,false,.lblank⟩⟩] (.node .leaf 296120 [⟨⟨.code,[],.lblank,false,[],false⟩,true,false,[],none,none,none,false,false,false,none,false,⟨.lblank,some .newline,false,.lblank⟩⟩] .leaf)),(.node (.node .leaf 37011 [⟨⟨.code,[],.lcode,true,[],false⟩,false,true,[],none,none,none,false,false,false,none,false,⟨.lcode,some .newline,false,.lblank⟩⟩] .leaf) 184991 [⟨⟨.code,[],.lcomment,true,[],false⟩,false,true,[],none,none,none,false,false,false,none,false,⟨.lcomment,some .newline,false,.lblank⟩⟩] (.node .leaf 332971 [⟨⟨.code,[],.lblank,true,[],false⟩,false,true,[],none,none,none,false,false,false,none,false,⟨.lblank,some .newline,false,.lblank⟩⟩] .leaf)),(.node (.node .leaf 7078592 [⟨⟨(.inside 2),[],.lcode,false,[],false⟩,false,false,[],none,none,none,false,false,false,none,false,⟨.lcode,some (.own 7),false,.lblank⟩⟩] .leaf) 7226572 [⟨⟨(.inside 2),[],.lcomment,false,[],false⟩,false,false,[],none,none,none,false,false,false,none,false,⟨.lcomment,some (.own 7),false,.lblank⟩⟩] (.node .leaf 927635293 [⟨⟨(.inside 2),[],.lcode,false,[(4,0)],false⟩,false,false,[],none,none,none,false,false,false,none,false,⟨.lcode,some (.own 7),false,.lblank⟩⟩] .leaf)),(.node (.node (.node .leaf 356509 [⟨⟨.code,[],.lcode,false,[(4,0)],false⟩,false,false,[],none,none,none,false,false,false,none,false,⟨.lcode,some (.own 7),false,.lblank⟩⟩] .leaf) 356513 [⟨⟨.code,[],.lcode,false,[(4,0)],false⟩,false,false,[],none,none,none,false,true,false,none,false,⟨.lcode,some (.own 7),false,.lblank⟩⟩] .leaf) 12977312 [⟨⟨(.inside 4),[],.lcode,false,[],false⟩,false,false,[],none,none,none,false,false,false,none,false,⟨.lcode,some (.own 7),false,.lblank⟩⟩] (.node .leaf 1700367613 [⟨⟨(.inside 4),[],.lcode,false,[(4,0)],false⟩,false,false,[],none,none,none,false,false,false,none,false,⟨.lcode,some (.own 7),false,.lblank⟩⟩] .leaf)),(.node (.node (.node .leaf 1769746 [⟨⟨.code,[47],.lcode,false,[],false⟩,false,false,[],none,none,none,false,false,true,none,false,⟨.lcode,some (.own 7),false,.lblank⟩⟩] .leaf) 21088566 [⟨⟨.code,[47],.lcomment,false,[],false⟩,false,false,[],none,none,none,false,false,true,none,false,⟨.lcomment,some (.own 7),false,.lblank⟩⟩] .leaf) 40407386 [⟨⟨.code,[47],.lblank,false,[],false⟩,false,false,[],none,none,none,false,false,true,none,false,⟨.lblank,some (.own 7),false,.lblank⟩⟩] (.node (.node .leaf 232176207 [⟨⟨.code,[47],.lcode,false,[(4,0)],false⟩,false,false,[],none,none,none,false,false,true,none,false,⟨.lcode,some (.own 7),false,.lblank⟩⟩] .leaf) 232188496 [⟨⟨.code,[47],.lcode,false,[(4,1)],false⟩,false,false,[],none,none,none,false,false,true,none,false,⟨.lcode,some (.own 7),false,.lblank⟩⟩] .leaf)),(.node (.node .leaf 4129232 [⟨⟨(.inside 1),[],.lcode,false,[],false⟩,false,false,[],none,none,none,false,false,false,none,false,⟨.lcode,some (.own 7),false,.lblank⟩⟩] .leaf) 4277212 [⟨⟨(.inside 1),[],.lcomment,false,[],false⟩,false,false,[],none,none,none,false,false,false,none,false,⟨.lcomment,some (.own 7),false,.lblank⟩⟩] (.node .leaf 541269133 [⟨⟨(.inside 1),[],.lcode,false,[(4,0)],false⟩,false,false,[],none,none,none,false,false,false,none,false,⟨.lcode,some (.own 7),false,.lblank⟩⟩] .leaf)),(.node (.node (.node (.node .leaf 1179872 [⟨⟨(.inside 0),[],.lcode,false,[],false⟩,false,false,[],none,none,none,false,false,false,none,false,⟨.lcode,some (.own 7),false,.lblank⟩⟩] .leaf) 1327852 [⟨⟨(.inside 0),[],.lcomment,false,[],false⟩,false,false,[],none,none,none,false,false,false,none,false,⟨.lcomment,some (.own 7),false,.lblank⟩⟩] (.node .leaf 4129232 [⟨⟨(.inside 1),[],.lcode,false,[],false⟩,false,false,[],none,none,none,false,false,false,none,false,⟨.lcode,some (.own 7),false,.lblank⟩⟩] .leaf)) 4277212 [⟨⟨(.inside 1),[],.lcomment,false,[],false⟩,false,false,[],none,none,none,false,false,false,none,false,⟨.lcomment,some (.own 7),false,.lblank⟩⟩] (.node (.node .leaf 7078592 [⟨⟨(.inside 2),[],.lcode,false,[],false⟩,false,false,[],none,none,none,false,false,false,none,false,⟨.lcode,some (.own 7),false,.lblank⟩⟩] .leaf) 7226572 [⟨⟨(.inside 2),[],.lcomment,false,[],false⟩,false,false,[],none,none,none,false,false,false,none,false,⟨.lcomment,some (.own 7),false,.lblank⟩⟩] .leaf)) 154902973 [⟨⟨(.inside 0),[],.lcode,false,[(4,0)],false⟩,false,false,[],none,none,none,false,false,false,none,false,⟨.lcode,some (.own 7),false,.lblank⟩⟩] (.node (.node (.node .leaf 154915262 [⟨⟨(.inside 0),[],.lcode,false,[(4,1)],false⟩,false,false,[],none,none,none,false,false,false,none,false,⟨.lcode,some (.own 7),false,.lblank⟩⟩] .leaf) 541269133 [⟨⟨(.inside 1),[],.lcode,false,[(4,0)],false⟩,false,false,[],none,none,none,false,false,false,none,false,⟨.lcode,some (.own 7),false,.lblank⟩⟩] .leaf) 541281422 [⟨⟨(.inside 1),[],.lcode,false,[(4,1)],false⟩,false,false,[],none,none,none,false,false,false,none,false,⟨.lcode,some (.own 7),false,.lblank⟩⟩] (.node (.node .leaf 927635293 [⟨⟨(.inside 2),[],.lcode,false,[(4,0)],false⟩,false,false,[],none,none,none,false,false,false,none,false,⟨.lcode,some (.own 7),false,.lblank⟩⟩] .leaf) 927647582 [⟨⟨(.inside 2),[],.lcode,false,[(4,1)],false⟩,false,false,[],none,none,none,false,false,false,none,false,⟨.lcode,some (.own 7),false,.lblank⟩⟩] .leaf))),(.node (.node (.node (.node .leaf 379295 [⟨⟨.code,[],.lcode,false,[(4,0)],false⟩,false,false,[],some 4,some ⟨.code,[],.lcode,false,[(4,0)],false⟩,none,false,false,false,none,false,⟨.lcode,some (.own 7),false,.lblank⟩⟩] .leaf) 13789861 [⟨⟨(.inside 4),[],.lcode,false,[],false⟩,false,false,[],some 4,some ⟨(.inside 4),[],.lcode,false,[],false⟩,none,false,false,false,none,false,⟨.lcode,some (.own 7),false,.lblank⟩⟩] .leaf) 48675069 [⟨⟨.code,[],.lblank,false,[(4,0)],true⟩,false,false,[],some 4,some ⟨.code,[],.lcode,false,[(4,0)],false⟩,none,false,true,false,none,false,⟨.lcode,some (.own 7),false,.lblank⟩⟩] (.node (.node .leaf 154925759 [⟨⟨(.inside 0),[],.lcode,false,[(4,0)],false⟩,false,false,[],some 4,some ⟨.code,[],.lcode,false,[(4,0)],false⟩,none,false,false,false,none,false,⟨.lcode,some (.own 7),false,.lblank⟩⟩] .leaf) 232198991 [⟨⟨.code,[47],.lcode,false,[(4,0)],false⟩,false,false,[],some 4,some ⟨.code,[],.lcode,false,[(4,0)],false⟩,none,false,false,false,none,false,⟨.lcode,some (.own 7),false,.lblank⟩⟩] .leaf)) 541291919 [⟨⟨(.inside 1),[],.lcode,false,[(4,0)],false⟩,false,false,[],some 4,some ⟨.code,[],.lcode,false,[(4,0)],false⟩,none,false,false,false,none,false,⟨.lcode,some (.own 7),false,.lblank⟩⟩] (.node (.node (.node .leaf 927658079 [⟨⟨(.inside 2),[],.lcode,false,[(4,0)],false⟩,false,false,[],some 4,some ⟨.code,[],.lcode,false,[(4,0)],false⟩,none,false,false,false,none,false,⟨.lcode,some (.own 7),false,.lblank⟩⟩] .leaf) 1314024239 [⟨⟨(.inside 3),[],.lcode,false,[(4,0)],false⟩,false,false,[],some 4,some ⟨.code,[],.lcode,false,[(4,0)],false⟩,none,false,false,false,none,false,⟨.lcode,some (.own 7),false,.lblank⟩⟩] .leaf) 1700390399 [⟨⟨(.inside 4),[],.lcode,false,[(4,0)],false⟩,false,false,[],some 4,some ⟨.code,[],.lcode,false,[(4,0)],false⟩,none,false,false,false,none,false,⟨.lcode,some (.own 7),false,.lblank⟩⟩] (.node (.node .leaf 1806770783 [⟨⟨(.inside 4),[],.lcode,false,[(4,0)],false⟩,false,false,[],some 4,some ⟨(.inside 4),[],.lcode,false,[(4,0)],false⟩,none,false,false,false,none,false,⟨.lcode,some (.own 7),false,.lblank⟩⟩] .leaf) 172295538770 [⟨⟨(.inside 3),[42],.lcode,false,[(4,0)],false⟩,false,false,[],some 4,some ⟨.code,[],.lcode,false,[(4,0)],false⟩,none,false,false,false,none,false,⟨.lcode,some (.own 7),false,.lblank⟩⟩] .leaf))),(.node (.node (.node (.node .leaf 391584 [⟨⟨.code,[],.lcode,false,[(4,1)],false⟩,false,false,[],some 4,some ⟨.code,[],.lcode,false,[(4,0)],false⟩,none,false,false,false,none,false,⟨.lcode,some (.own 7),false,.lblank⟩⟩] .leaf) 48687358 [⟨⟨.code,[],.lblank,false,[(4,1)],true⟩,false,false,[],some 4,some ⟨.code,[],.lcode,false,[(4,0)],false⟩,none,false,true,false,none,false,⟨.lcode,some (.own 7),false,.lblank⟩⟩] .leaf) 154938048 [⟨⟨(.inside 0),[],.lcode,false,[(4,1)],false⟩,false,false,[],some 4,some ⟨.code,[],.lcode,false,[(4,0)],false⟩,none,false,false,false,none,false,⟨.lcode,some (.own 7),false,.lblank⟩⟩] (.node .leaf 541304208 [⟨⟨(.inside 1),[],.lcode,false,[(4,1)],false⟩,false,false,[],some 4,some ⟨.code,[],.lcode,false,[(4,0)],false⟩,none,false,false,false,none,false,⟨.lcode,some (.own 7),false,.lblank⟩⟩] .leaf)) 927670368 [⟨⟨(.inside 2),[],.lcode,false,[(4,1)],false⟩,false,false,[],some 4,some ⟨.code,[],.lcode,false,[(4,0)],false⟩,none,false,false,false,none,false,⟨.lcode,some (.own 7),false,.lblank⟩⟩] (.node (.node (.node .leaf 1314036528 [⟨⟨(.inside 3),[],.lcode,false,[(4,1)],false⟩,false,false,[],some 4,some ⟨.code,[],.lcode,false,[(4,0)],false⟩,none,false,false,false,none,false,⟨.lcode,some (.own 7),false,.lblank⟩⟩] .leaf) 1704252412 [⟨⟨(.inside 4),[92],.lcode,false,[],false⟩,false,false,[],some 4,some ⟨(.inside 4),[],.lcode,false,[],false⟩,none,false,false,false,none,false,⟨.lcode,some (.own 7),false,.lblank⟩⟩] .leaf) 223150984580 [⟨⟨(.inside 4),[92],.lcode,false,[(4,0)],false⟩,false,false,[],some 4,some ⟨.code,[],.lcode,false,[(4,0)],false⟩,none,false,false,false,none,false,⟨.lcode,some (.own 7),false,.lblank⟩⟩] (.node .leaf 223257364964 [⟨⟨(.inside 4),[92],.lcode,false,[(4,0)],false⟩,false,false,[],some 4,some ⟨(.inside 4),[],.lcode,false,[(4,0)],false⟩,none,false,false,false,none,false,⟨.lcode,some (.own 7),false,.lblank⟩⟩] .leaf))),(.node (.node (.node .leaf 616140991 [⟨⟨(.inside 3),[],.lcode,false,[],false⟩,false,false,[],some 4,some ⟨.code,[47],.lcode,false,[],false⟩,some ([(42,(.other,false))],false),false,false,false,none,false,⟨.lcode,some (.own 7),false,.lblank⟩⟩] .leaf) 617497839 [⟨⟨(.inside 3),[],.lcomment,false,[],false⟩,false,false,[],some 4,some ⟨.code,[47],.lcomment,false,[],false⟩,some ([(42,(.other,false))],false),false,false,false,none,false,⟨.lcomment,some (.own 7),false,.lblank⟩⟩] .leaf) 618706707 [⟨⟨(.inside 3),[],.lcomment,false,[],false⟩,false,false,[],some 4,some ⟨.code,[47],.lblank,false,[],false⟩,some ([(42,(.other,false))],false),false,false,false,none,false,⟨.lcomment,some (.own 7),false,.lblank⟩⟩] (.node (.node .leaf 1934532473 [⟨⟨(.inside 3),[],.lcode,false,[(4,0)],false⟩,false,false,[],some 4,some ⟨.code,[47],.lcode,false,[(4,0)],false⟩,some ([(42,(.other,false))],false),false,false,false,none,false,⟨.lcode,some (.own 7),false,.lblank⟩⟩] .leaf) 1934533242 [⟨⟨(.inside 3),[],.lcode,false,[(4,0)],false⟩,false,false,[],some 4,some ⟨.code,[47],.lcode,false,[(4,1)],false⟩,some ([(42,(.other,false))],false),false,false,false,none,false,⟨.lcode,some (.own 7),false,.lblank⟩⟩] .leaf)),(.node (.node .leaf 1179872 [⟨⟨(.inside 0),[],.lcode,false,[],false⟩,false,false,[],none,none,none,false,false,false,none,false,⟨.lcode,some (.own 7),false,.lblank⟩⟩] .leaf) 1327852 [⟨⟨(.inside 0),[],.lcomment,false,[],false⟩,false,false,[],none,none,none,false,false,false,none,false,⟨.lcomment,some (.own 7),false,.lblank⟩⟩] (.node .leaf 154902973 [⟨⟨(.inside 0),[],.lcode,false,[(4,0)],false⟩,false,false,[],none,none,none,false,false,false,none,false,⟨.lcode,some (.own 7),false,.lblank⟩⟩] .leaf)),(.node (.node (.node (.node .leaf 379295 [⟨⟨.code,[],.lcode,false,[(4,0)],false⟩,false,false,[],some 4,some ⟨.code,[],.lcode,false,[(4,0)],false⟩,none,false,false,false,none,false,⟨.lcode,some (.own 7),false,.lblank⟩⟩] .leaf) 13789861 [⟨⟨(.inside 4),[],.lcode,false,[],false⟩,false,false,[],some 4,some ⟨(.inside 4),[],.lcode,false,[],false⟩,none,false,false,false,none,false,⟨.lcode,some (.own 7),false,.lblank⟩⟩] .leaf) 48675069 [⟨⟨.code,[],.lblank,false,[(4,0)],true⟩,false,false,[],some 4,some ⟨.code,[],.lcode,false,[(4,0)],false⟩,none,false,true,false,none,false,⟨.lcode,some (.own 7),false,.lblank⟩⟩] (.node (.node .leaf 154925759 [⟨⟨(.inside 0),[],.lcode,false,[(4,0)],false⟩,false,false,[],some 4,some ⟨.code,[],.lcode,false,[(4,0)],false⟩,none,false,false,false,none,false,⟨.lcode,some (.own 7),false,.lblank⟩⟩] .leaf) 232211280 [⟨⟨.code,[47],.lcode,false,[(4,1)],false⟩,false,false,[],some 4,some ⟨.code,[],.lcode,false,[(4,0)],false⟩,none,false,false,false,none,false,⟨.lcode,some (.own 7),false,.lblank⟩⟩] .leaf)) 541291919 [⟨⟨(.inside 1),[],.lcode,false,[(4,0)],false⟩,false,false,[],some 4,some ⟨.code,[],.lcode,false,[(4,0)],false⟩,none,false,false,false,none,false,⟨.lcode,some (.own 7),false,.lblank⟩⟩] (.node (.node (.node .leaf 927658079 [⟨⟨(.inside 2),[],.lcode,false,[(4,0)],false⟩,false,false,[],some 4,some ⟨.code,[],.lcode,false,[(4,0)],false⟩,none,false,false,false,none,false,⟨.lcode,some (.own 7),false,.lblank⟩⟩] .leaf) 1314024239 [⟨⟨(.inside 3),[],.lcode,false,[(4,0)],false⟩,false,false,[],some 4,some ⟨.code,[],.lcode,false,[(4,0)],false⟩,none,false,false,false,none,false,⟨.lcode,some (.own 7),false,.lblank⟩⟩] .leaf) 1700390399 [⟨⟨(.inside 4),[],.lcode,false,[(4,0)],false⟩,false,false,[],some 4,some ⟨.code,[],.lcode,false,[(4,0)],false⟩,none,false,false,false,none,false,⟨.lcode,some (.own 7),false,.lblank⟩⟩] (.node (.node .leaf 1806770783 [⟨⟨(.inside 4),[],.lcode,false,[(4,0)],false⟩,false,false,[],some 4,some ⟨(.inside 4),[],.lcode,false,[(4,0)],false⟩,none,false,false,false,none,false,⟨.lcode,some (.own 7),false,.lblank⟩⟩] .leaf) 172295551059 [⟨⟨(.inside 3),[42],.lcode,false,[(4,1)],false⟩,false,false,[],some 4,some ⟨.code,[],.lcode,false,[(4,0)],false⟩,none,false,false,false,none,false,⟨.lcode,some (.own 7),false,.lblank⟩⟩] .leaf))),(.node (.node (.node (.node .leaf 616140991 [⟨⟨(.inside 3),[],.lcode,false,[],false⟩,false,false,[],some 4,some ⟨.code,[47],.lcode,false,[],false⟩,some ([(42,(.other,false))],false),false,false,false,none,false,⟨.lcode,some (.own 7),false,.lblank⟩⟩] .leaf) 616288979 [⟨⟨(.inside 3),[],.lcomment,false,[],false⟩,false,false,[],some 4,some ⟨.code,[47],.lcode,false,[],false⟩,some ([(42,(.other,false))],false),true,false,false,none,false,⟨.lcomment,some .internalNl,false,.lblank⟩⟩] (.node .leaf 617497839 [⟨⟨(.inside 3),[],.lcomment,false,[],false⟩,false,false,[],some 4,some ⟨.code,[47],.lcomment,false,[],false⟩,some ([(42,(.other,false))],false),false,false,false,none,false,⟨.lcomment,some (.own 7),false,.lblank⟩⟩] .leaf)) 617497847 [⟨⟨(.inside 3),[],.lcomment,false,[],false⟩,false,false,[],some 4,some ⟨.code,[47],.lcomment,false,[],false⟩,some ([(42,(.other,false))],false),true,false,false,none,false,⟨.lcomment,some .internalNl,false,.lblank⟩⟩] (.node (.node .leaf 618706707 [⟨⟨(.inside 3),[],.lcomment,false,[],false⟩,false,false,[],some 4,some ⟨.code,[47],.lblank,false,[],false⟩,some ([(42,(.other,false))],false),false,false,false,none,false,⟨.lcomment,some (.own 7),false,.lblank⟩⟩] .leaf) 618706715 [⟨⟨(.inside 3),[],.lcomment,false,[],false⟩,false,false,[],some 4,some ⟨.code,[47],.lblank,false,[],false⟩,some ([(42,(.other,false))],false),true,false,false,none,false,⟨.lcomment,some .internalNl,false,.lblank⟩⟩] .leaf)) 630706960 [⟨⟨(.inside 3),[],.lcomment,false,[],false⟩,false,false,[],some 4,some ⟨.code,[47],.lcode,false,[(4,0)],false⟩,some ([(42,(.other,false))],false),true,false,false,none,false,⟨.lcomment,some .internalNl,false,.lblank⟩⟩] (.node (.node (.node .leaf 630707729 [⟨⟨(.inside 3),[],.lcomment,false,[],false⟩,false,false,[],some 4,some ⟨.code,[47],.lcode,false,[(4,1)],false⟩,some ([(42,(.other,false))],false),true,false,false,none,false,⟨.lcomment,some .internalNl,false,.lblank⟩⟩] .leaf) 1934532473 [⟨⟨(.inside 3),[],.lcode,false,[(4,0)],false⟩,false,false,[],some 4,some ⟨.code,[47],.lcode,false,[(4,0)],false⟩,some ([(42,(.other,false))],false),false,false,false,none,false,⟨.lcode,some (.own 7),false,.lblank⟩⟩] .leaf) 1934533242 [⟨⟨(.inside 3),[],.lcode,false,[(4,0)],false⟩,false,false,[],some 4,some ⟨.code,[47],.lcode,false,[(4,1)],false⟩,some ([(42,(.other,false))],false),false,false,false,none,false,⟨.lcode,some (.own 7),false,.lblank⟩⟩] (.node (.node .leaf 1934544762 [⟨⟨(.inside 3),[],.lcode,false,[(4,1)],false⟩,false,false,[],some 4,some ⟨.code,[47],.lcode,false,[(4,0)],false⟩,some ([(42,(.other,false))],false),false,false,false,none,false,⟨.lcode,some (.own 7),false,.lblank⟩⟩] .leaf) 1934545531 [⟨⟨(.inside 3),[],.lcode,false,[(4,1)],false⟩,false,false,[],some 4,some ⟨.code,[47],.lcode,false,[(4,1)],false⟩,some ([(42,(.other,false))],false),false,false,false,none,false,⟨.lcode,some (.own 7),false,.lblank⟩⟩] .leaf))),(.node (.node (.node (.node .leaf 616140991 [⟨⟨(.inside 3),[],.lcode,false,[],false⟩,false,false,[],some 4,some ⟨.code,[47],.lcode,false,[],false⟩,some ([(42,(.other,false))],false),false,false,false,none,false,⟨.lcode,some (.own 7),false,.lblank⟩⟩] .leaf) 616288979 [⟨⟨(.inside 3),[],.lcomment,false,[],false⟩,false,false,[],some 4,some ⟨.code,[47],.lcode,false,[],false⟩,some ([(42,(.other,false))],false),true,false,false,none,false,⟨.lcomment,some .internalNl,false,.lblank⟩⟩] (.node .leaf 616436959 [⟨⟨(.inside 3),[],.lblank,false,[],false⟩,false,false,[],some 4,some ⟨.code,[47],.lcode,false,[],false⟩,some ([(42,(.other,false))],false),true,false,false,none,false,⟨.lblank,some .internalNl,false,.lblank⟩⟩] .leaf)) 617497839 [⟨⟨(.inside 3),[],.lcomment,false,[],false⟩,false,false,[],some 4,some ⟨.code,[47],.lcomment,false,[],false⟩,some ([(42,(.other,false))],false),false,false,false,none,false,⟨.lcomment,some (.own 7),false,.lblank⟩⟩] (.node (.node .leaf 617497847 [⟨⟨(.inside 3),[],.lcomment,false,[],false⟩,false,false,[],some 4,some ⟨.code,[47],.lcomment,false,[],false⟩,some ([(42,(.other,false))],false),true,false,false,none,false,⟨.lcomment,some .internalNl,false,.lblank⟩⟩] .leaf) 617645827 [⟨⟨(.inside 3),[],.lblank,false,[],false⟩,false,false,[],some 4,some ⟨.code,[47],.lcomment,false,[],false⟩,some ([(42,(.other,false))],false),true,false,false,none,false,⟨.lblank,some .internalNl,false,.lblank⟩⟩] (.node .leaf 618706707 [⟨⟨(.inside 3),[],.lcomment,false,[],false⟩,false,false,[],some 4,some ⟨.code,[47],.lblank,false,[],false⟩,some ([(42,(.other,false))],false),false,false,false,none,false,⟨.lcomment,some (.own 7),false,.lblank⟩⟩] .leaf))) 618706715 [⟨⟨(.inside 3),[],.lcomment,false,[],false⟩,false,false,[],some 4,some ⟨.code,[47],.lblank,false,[],false⟩,some ([(42,(.other,false))],false),true,false,false,none,false,⟨.lcomment,some .internalNl,false,.lblank⟩⟩] (.node (.node (.node .leaf 618854695 [⟨⟨(.inside 3),[],.lblank,false,[],false⟩,false,false,[],some 4,some ⟨.code,[47],.lblank,false,[],false⟩,some ([(42,(.other,false))],false),true,false,false,none,false,⟨.lblank,some .internalNl,false,.lblank⟩⟩] .leaf) 630706960 [⟨⟨(.inside 3),[],.lcomment,false,[],false⟩,false,false,[],some 4,some ⟨.code,[47],.lcode,false,[(4,0)],false⟩,some ([(42,(.other,false))],false),true,false,false,none,false,⟨.lcomment,some .internalNl,false,.lblank⟩⟩] (.node .leaf 630707729 [⟨⟨(.inside 3),[],.lcomment,false,[],false⟩,false,false,[],some 4,some ⟨.code,[47],.lcode,false,[(4,1)],false⟩,some ([(42,(.other,false))],false),true,false,false,none,false,⟨.lcomment,some .internalNl,false,.lblank⟩⟩] .leaf)) 630854940 [⟨⟨(.inside 3),[],.lblank,false,[],false⟩,false,false,[],some 4,some ⟨.code,[47],.lcode,false,[(4,0)],false⟩,some ([(42,(.other,false))],false),true,false,false,none,false,⟨.lblank,some .internalNl,false,.lblank⟩⟩] (.node (.node .leaf 630855709 [⟨⟨(.inside 3),[],.lblank,false,[],false⟩,false,false,[],some 4,some ⟨.code,[47],.lcode,false,[(4,1)],false⟩,some ([(42,(.other,false))],false),true,false,false,none,false,⟨.lblank,some .internalNl,false,.lblank⟩⟩] .leaf) 1934532473 [⟨⟨(.inside 3),[],.lcode,false,[(4,0)],false⟩,false,false,[],some 4,some ⟨.code,[47],.lcode,false,[(4,0)],false⟩,some ([(42,(.other,false))],false),false,false,false,none,false,⟨.lcode,some (.own 7),false,.lblank⟩⟩] (.node .leaf 1934533242 [⟨⟨(.inside 3),[],.lcode,false,[(4,0)],false⟩,false,false,[],some 4,some ⟨.code,[47],.lcode,false,[(4,1)],false⟩,some ([(42,(.other,false))],false),false,false,false,none,false,⟨.lcode,some (.own 7),false,.lblank⟩⟩] .leaf)))),(.node (.node (.node (.node .leaf 616177858 [⟨⟨(.inside 3),[],.lcode,true,[],false⟩,false,false,[],some 4,some ⟨.code,[47],.lcode,false,[],false⟩,some ([(42,(.other,false))],false),false,false,false,none,false,⟨.lcode,some (.own 7),false,.lblank⟩⟩] .leaf) 616325846 [⟨⟨(.inside 3),[],.lcomment,true,[],false⟩,false,false,[],some 4,some ⟨.code,[47],.lcode,false,[],false⟩,some ([(42,(.other,false))],false),true,false,false,none,false,⟨.lcomment,some .internalNl,false,.lblank⟩⟩] (.node .leaf 616473826 [⟨⟨(.inside 3),[],.lblank,true,[],false⟩,false,false,[],some 4,some ⟨.code,[47],.lcode,false,[],false⟩,some ([(42,(.other,false))],false),true,false,false,none,false,⟨.lblank,some .internalNl,false,.lblank⟩⟩] .leaf)) 617534706 [⟨⟨(.inside 3),[],.lcomment,true,[],false⟩,false,false,[],some 4,some ⟨.code,[47],.lcomment,false,[],false⟩,some ([(42,(.other,false))],false),false,false,false,none,false,⟨.lcomment,some (.own 7),false,.lblank⟩⟩] (.node (.node .leaf 617534714 [⟨⟨(.inside 3),[],.lcomment,true,[],false⟩,false,false,[],some 4,some ⟨.code,[47],.lcomment,false,[],false⟩,some ([(42,(.other,false))],false),true,false,false,none,false,⟨.lcomment,some .internalNl,false,.lblank⟩⟩] .leaf) 617682694 [⟨⟨(.inside 3),[],.lblank,true,[],false⟩,false,false,[],some 4,some ⟨.code,[47],.lcomment,false,[],false⟩,some ([(42,(.other,false))],false),true,false,false,none,false,⟨.lblank,some .internalNl,false,.lblank⟩⟩] (.node .leaf 618743574 [⟨⟨(.inside 3),[],.lcomment,true,[],false⟩,false,false,[],some 4,some ⟨.code,[47],.lblank,false,[],false⟩,some ([(42,(.other,false))],false),false,false,false,none,false,⟨.lcomment,some (.own 7),false,.lblank⟩⟩] .leaf))) 618743582 [⟨⟨(.inside 3),[],.lcomment,true,[],false⟩,false,false,[],some 4,some ⟨.code,[47],.lblank,false,[],false⟩,some ([(42,(.other,false))],false),true,false,false,none,false,⟨.lcomment,some .internalNl,false,.lblank⟩⟩] (.node (.node (.node .leaf 618891562 [⟨⟨(.inside 3),[],.lblank,true,[],false⟩,false,false,[],some 4,some ⟨.code,[47],.lblank,false,[],false⟩,some ([(42,(.other,false))],false),true,false,false,none,false,⟨.lblank,some .internalNl,false,.lblank⟩⟩] .leaf) 630595839 [⟨⟨(.inside 3),[],.lcode,true,[],false⟩,false,false,[],some 4,some ⟨.code,[47],.lcode,false,[(4,0)],false⟩,some ([(42,(.other,false))],false),false,false,false,none,false,⟨.lcode,some (.own 7),false,.lblank⟩⟩] (.node .leaf 630596608 [⟨⟨(.inside 3),[],.lcode,true,[],false⟩,false,false,[],some 4,some ⟨.code,[47],.lcode,false,[(4,1)],false⟩,some ([(42,(.other,false))],false),false,false,false,none,false,⟨.lcode,some (.own 7),false,.lblank⟩⟩] .leaf)) 630743827 [⟨⟨(.inside 3),[],.lcomment,true,[],false⟩,false,false,[],some 4,some ⟨.code,[47],.lcode,false,[(4,0)],false⟩,some ([(42,(.other,false))],false),true,false,false,none,false,⟨.lcomment,some .internalNl,false,.lblank⟩⟩] (.node (.node .leaf 630744596 [⟨⟨(.inside 3),[],.lcomment,true,[],false⟩,false,false,[],some 4,some ⟨.code,[47],.lcode,false,[(4,1)],false⟩,some ([(42,(.other,false))],false),true,false,false,none,false,⟨.lcomment,some .internalNl,false,.lblank⟩⟩] .leaf) 630891807 [⟨⟨(.inside 3),[],.lblank,true,[],false⟩,false,false,[],some 4,some ⟨.code,[47],.lcode,false,[(4,0)],false⟩,some ([(42,(.other,false))],false),true,false,false,none,false,⟨.lblank,some .internalNl,false,.lblank⟩⟩] (.node .leaf 630892576 [⟨⟨(.inside 3),[],.lblank,true,[],false⟩,false,false,[],some 4,some ⟨.code,[47],.lcode,false,[(4,1)],false⟩,some ([(42,(.other,false))],false),true,false,false,none,false,⟨.lblank,some .internalNl,false,.lblank⟩⟩] .leaf)))),(.node (.node (.node (.node .leaf 616177858 [⟨⟨(.inside 3),[],.lcode,true,[],false⟩,false,false,[],some 4,some ⟨.code,[47],.lcode,false,[],false⟩,some ([(42,(.other,false))],false),false,false,false,none,false,⟨.lcode,some (.own 7),false,.lblank⟩⟩] .leaf) 616325846 [⟨⟨(.inside 3),[],.lcomment,true,[],false⟩,false,false,[],some 4,some ⟨.code,[47],.lcode,false,[],false⟩,some ([(42,(.other,false))],false),true,false,false,none,false,⟨.lcomment,some .internalNl,false,.lblank⟩⟩] (.node .leaf 616473826 [⟨⟨(.inside 3),[],.lblank,true,[],false⟩,false,false,[],some 4,some ⟨.code,[47],.lcode,false,[],false⟩,some ([(42,(.other,false))],false),true,false,false,none,false,⟨.lblank,some .internalNl,false,.lblank⟩⟩] .leaf)) 617534706 [⟨⟨(.inside 3),[],.lcomment,true,[],false⟩,false,false,[],some 4,some ⟨.code,[47],.lcomment,false,[],false⟩,some ([(42,(.other,false))],false),false,false,false,none,false,⟨.lcomment,some (.own 7),false,.lblank⟩⟩] (.node (.node .leaf 617534714 [⟨⟨(.inside 3),[],.lcomment,true,[],false⟩,false,false,[],some 4,some ⟨.code,[47],.lcomment,false,[],false⟩,some ([(42,(.other,false))],false),true,false,false,none,false,⟨.lcomment,some .internalNl,false,.lblank⟩⟩] .leaf) 617682694 [⟨⟨(.inside 3),[],.lblank,true,[],false⟩,false,false,[],some 4,some ⟨.code,[47],.lcomment,false,[],false⟩,some ([(42,(.other,false))],false),true,false,false,none,false,⟨.lblank,some .internalNl,false,.lblank⟩⟩] (.node .leaf 618743574 [⟨⟨(.inside 3),[],.lcomment,true,[],false⟩,false,false,[],some 4,some ⟨.code,[47],.lblank,false,[],false⟩,some ([(42,(.other,false))],false),false,false,false,none,false,⟨.lcomment,some (.own 7),false,.lblank⟩⟩] .leaf))) 618743582 [⟨⟨(.inside 3),[],.lcomment,true,[],false⟩,false,false,[],some 4,some ⟨.code,[47],.lblank,false,[],false⟩,some ([(42,(.other,false))],false),true,false,false,none,false,⟨.lcomment,some .internalNl,false,.lblank⟩⟩] (.node (.node (.node .leaf 618891562 [⟨⟨(.inside 3),[],.lblank,true,[],false⟩,false,false,[],some 4,some ⟨.code,[47],.lblank,false,[],false⟩,some ([(42,(.other,false))],false),true,false,false,none,false,⟨.lblank,some .internalNl,false,.lblank⟩⟩] .leaf) 630595839 [⟨⟨(.inside 3),[],.lcode,true,[],false⟩,false,false,[],some 4,some ⟨.code,[47],.lcode,false,[(4,0)],false⟩,some ([(42,(.other,false))],false),false,false,false,none,false,⟨.lcode,some (.own 7),false,.lblank⟩⟩] (.node .leaf 630596608 [⟨⟨(.inside 3),[],.lcode,true,[],false⟩,false,false,[],some 4,some ⟨.code,[47],.lcode,false,[(4,1)],false⟩,some ([(42,(.other,false))],false),false,false,false,none,false,⟨.lcode,some (.own 7),false,.lblank⟩⟩] .leaf)) 630743827 [⟨⟨(.inside 3),[],.lcomment,true,[],false⟩,false,false,[],some 4,some ⟨.code,[47],.lcode,false,[(4,0)],false⟩,some ([(42,(.other,false))],false),true,false,false,none,false,⟨.lcomment,some .internalNl,false,.lblank⟩⟩] (.node (.node .leaf 630744596 [⟨⟨(.inside 3),[],.lcomment,true,[],false⟩,false,false,[],some 4,some ⟨.code,[47],.lcode,false,[(4,1)],false⟩,some ([(42,(.other,false))],false),true,false,false,none,false,⟨.lcomment,some .internalNl,false,.lblank⟩⟩] .leaf) 630891807 [⟨⟨(.inside 3),[],.lblank,true,[],false⟩,false,false,[],some 4,some ⟨.code,[47],.lcode,false,[(4,0)],false⟩,some ([(42,(.other,false))],false),true,false,false,none,false,⟨.lblank,some .internalNl,false,.lblank⟩⟩] (.node .leaf 630892576 [⟨⟨(.inside 3),[],.lblank,true,[],false⟩,false,false,[],some 4,some ⟨.code,[47],.lcode,false,[(4,1)],false⟩,some ([(42,(.other,false))],false),true,false,false,none,false,⟨.lblank,some .internalNl,false,.lblank⟩⟩] .leaf)))),(.node (.node (.node (.node .leaf 616141023 [⟨⟨(.inside 3),[],.lcode,false,[],false⟩,true,false,[],some 4,some ⟨.code,[47],.lcode,false,[],false⟩,some ([(42,(.other,false))],false),false,false,false,none,false,⟨.lcode,some (.own 7),false,.lblank⟩⟩] .leaf) 616289011 [⟨⟨(.inside 3),[],.lcomment,false,[],false⟩,true,false,[],some 4,some ⟨.code,[47],.lcode,false,[],false⟩,some ([(42,(.other,false))],false),true,false,false,none,false,⟨.lcomment,some .internalNl,false,.lblank⟩⟩] (.node .leaf 616436991 [⟨⟨(.inside 3),[],.lblank,false,[],false⟩,true,false,[],some 4,some ⟨.code,[47],.lcode,false,[],false⟩,some ([(42,(.other,false))],false),true,false,false,none,false,⟨.lblank,some .internalNl,false,.lblank⟩⟩] .leaf)) 617497871 [⟨⟨(.inside 3),[],.lcomment,false,[],false⟩,true,false,[],some 4,some ⟨.code,[47],.lcomment,false,[],false⟩,some ([(42,(.other,false))],false),false,false,false,none,false,⟨.lcomment,some (.own 7),false,.lblank⟩⟩] (.node (.node .leaf 617497879 [⟨⟨(.inside 3),[],.lcomment,false,[],false⟩,true,false,[],some 4,some ⟨.code,[47],.lcomment,false,[],false⟩,some ([(42,(.other,false))],false),true,false,false,none,false,⟨.lcomment,some .internalNl,false,.lblank⟩⟩] .leaf) 617645859 [⟨⟨(.inside 3),[],.lblank,false,[],false⟩,true,false,[],some 4,some ⟨.code,[47],.lcomment,false,[],false⟩,some ([(42,(.other,false))],false),true,false,false,none,false,⟨.lblank,some .internalNl,false,.lblank⟩⟩] (.node .leaf 618706739 [⟨⟨(.inside 3),[],.lcomment,false,[],false⟩,true,false,[],some 4,some ⟨.code,[47],.lblank,false,[],false⟩,some ([(42,(.other,false))],false),false,false,false,none,false,⟨.lcomment,some (.own 7),false,.lblank⟩⟩] .leaf))) 618706747 [⟨⟨(.inside 3),[],.lcomment,false,[],false⟩,true,false,[],some 4,some ⟨.code,[47],.lblank,false,[],false⟩,some ([(42,(.other,false))],false),true,false,false,none,false,⟨.lcomment,some .internalNl,false,.lblank⟩⟩] (.node (.node (.node .leaf 618854727 [⟨⟨(.inside 3),[],.lblank,false,[],false⟩,true,false,[],some 4,some ⟨.code,[47],.lblank,false,[],false⟩,some ([(42,(.other,false))],false),true,false,false,none,false,⟨.lblank,some .internalNl,false,.lblank⟩⟩] .leaf) 630559004 [⟨⟨(.inside 3),[],.lcode,false,[],false⟩,true,false,[],some 4,some ⟨.code,[47],.lcode,false,[(4,0)],false⟩,some ([(42,(.other,false))],false),false,false,false,none,false,⟨.lcode,some (.own 7),false,.lblank⟩⟩] (.node .leaf 630559773 [⟨⟨(.inside 3),[],.lcode,false,[],false⟩,true,false,[],some 4,some ⟨.code,[47],.lcode,false,[(4,1)],false⟩,some ([(42,(.other,false))],false),false,false,false,none,false,⟨.lcode,some (.own 7),false,.lblank⟩⟩] .leaf)) 630706992 [⟨⟨(.inside 3),[],.lcomment,false,[],false⟩,true,false,[],some 4,some ⟨.code,[47],.lcode,false,[(4,0)],false⟩,some ([(42,(.other,false))],false),true,false,false,none,false,⟨.lcomment,some .internalNl,false,.lblank⟩⟩] (.node (.node .leaf 630707761 [⟨⟨(.inside 3),[],.lcomment,false,[],false⟩,true,false,[],some 4,some ⟨.code,[47],.lcode,false,[(4,1)],false⟩,some ([(42,(.other,false))],false),true,false,false,none,false,⟨.lcomment,some .internalNl,false,.lblank⟩⟩] .leaf) 630854972 [⟨⟨(.inside 3),[],.lblank,false,[],false⟩,true,false,[],some 4,some ⟨.code,[47],.lcode,false,[(4,0)],false⟩,some ([(42,(.other,false))],false),true,false,false,none,false,⟨.lblank,some .internalNl,false,.lblank⟩⟩] (.node .leaf 630855741 [⟨⟨(.inside 3),[],.lblank,false,[],false⟩,true,false,[],some 4,some ⟨.code,[47],.lcode,false,[(4,1)],false⟩,some ([(42,(.other,false))],false),true,false,false,none,false,⟨.lblank,some .internalNl,false,.lblank⟩⟩] .leaf)))),(.node (.node (.node (.node .leaf 616177874 [⟨⟨(.inside 3),[],.lcode,true,[],false⟩,false,true,[],some 4,some ⟨.code,[47],.lcode,false,[],false⟩,some ([(42,(.other,false))],false),false,false,false,none,false,⟨.lcode,some (.own 7),false,.lblank⟩⟩] .leaf) 616325862 [⟨⟨(.inside 3),[],.lcomment,true,[],false⟩,false,true,[],some 4,some ⟨.code,[47],.lcode,false,[],false⟩,some ([(42,(.other,false))],false),true,false,false,none,false,⟨.lcomment,some .internalNl,false,.lblank⟩⟩] (.node .leaf 616473842 [⟨⟨(.inside 3),[],.lblank,true,[],false⟩,false,true,[],some 4,some ⟨.code,[47],.lcode,false,[],false⟩,some ([(42,(.other,false))],false),true,false,false,none,false,⟨.lblank,some .internalNl,false,.lblank⟩⟩] .leaf)) 617534722 [⟨⟨(.inside 3),[],.lcomment,true,[],false⟩,false,true,[],some 4,some ⟨.code,[47],.lcomment,false,[],false⟩,some ([(42,(.other,false))],false),false,false,false,none,false,⟨.lcomment,some (.own 7),false,.lblank⟩⟩] (.node (.node .leaf 617534730 [⟨⟨(.inside 3),[],.lcomment,true,[],false⟩,false,true,[],some 4,some ⟨.code,[47],.lcomment,false,[],false⟩,some ([(42,(.other,false))],false),true,false,false,none,false,⟨.lcomment,some .internalNl,false,.lblank⟩⟩] .leaf) 617682710 [⟨⟨(.inside 3),[],.lblank,true,[],false⟩,false,true,[],some 4,some ⟨.code,[47],.lcomment,false,[],false⟩,some ([(42,(.other,false))],false),true,false,false,none,false,⟨.lblank,some .internalNl,false,.lblank⟩⟩] (.node .leaf 618743590 [⟨⟨(.inside 3),[],.lcomment,true,[],false⟩,false,true,[],some 4,some ⟨.code,[47],.lblank,false,[],false⟩,some ([(42,(.other,false))],false),false,false,false,none,false,⟨.lcomment,some (.own 7),false,.lblank⟩⟩] .leaf))) 618743598 [⟨⟨(.inside 3),[],.lcomment,true,[],false⟩,false,true,[],some 4,some ⟨.code,[47],.lblank,false,[],false⟩,some ([(42,(.other,false))],false),true,false,false,none,false,⟨.lcomment,some .internalNl,false,.lblank⟩⟩] (.node (.node (.node .leaf 618891578 [⟨⟨(.inside 3),[],.lblank,true,[],false⟩,false,true,[],some 4,some ⟨.code,[47],.lblank,false,[],false⟩,some ([(42,(.other,false))],false),true,false,false,none,false,⟨.lblank,some .internalNl,false,.lblank⟩⟩] .leaf) 630595855 [⟨⟨(.inside 3),[],.lcode,true,[],false⟩,false,true,[],some 4,some ⟨.code,[47],.lcode,false,[(4,0)],false⟩,some ([(42,(.other,false))],false),false,false,false,none,false,⟨.lcode,some (.own 7),false,.lblank⟩⟩] (.node .leaf 630596624 [⟨⟨(.inside 3),[],.lcode,true,[],false⟩,false,true,[],some 4,some ⟨.code,[47],.lcode,false,[(4,1)],false⟩,some ([(42,(.other,false))],false),false,false,false,none,false,⟨.lcode,some (.own 7),false,.lblank⟩⟩] .leaf)) 630743843 [⟨⟨(.inside 3),[],.lcomment,true,[],false⟩,false,true,[],some 4,some ⟨.code,[47],.lcode,false,[(4,0)],false⟩,some ([(42,(.other,false))],false),true,false,false,none,false,⟨.lcomment,some .internalNl,false,.lblank⟩⟩] (.node (.node .leaf 630744612 [⟨⟨(.inside 3),[],.lcomment,true,[],false⟩,false,true,[],some 4,some ⟨.code,[47],.lcode,false,[(4,1)],false⟩,some ([(42,(.other,false))],false),true,false,false,none,false,⟨.lcomment,some .internalNl,false,.lblank⟩⟩] .leaf) 630891823 [⟨⟨(.inside 3),[],.lblank,true,[],false⟩,false,true,[],some 4,some ⟨.code,[47],.lcode,false,[(4,0)],false⟩,some ([(42,(.other,false))],false),true,false,false,none,false,⟨.lblank,some .internalNl,false,.lblank⟩⟩] (.node .leaf 630892592 [⟨⟨(.inside 3),[],.lblank,true,[],false⟩,false,true,[],some 4,some ⟨.code,[47],.lcode,false,[(4,1)],false⟩,some ([(42,(.other,false))],false),true,false,false,none,false,⟨.lblank,some .internalNl,false,.lblank⟩⟩] .leaf)))),(.node (.node (.node (.node (.node .leaf 1921343392 [⟨⟨(.inside 3),[42],.lcode,false,[],false⟩,false,false,[],some 4,some ⟨.code,[47],.lcode,false,[],false⟩,some ([(42,(.other,false))],false),false,false,false,none,false,⟨.lcode,some (.own 7),false,.lblank⟩⟩] .leaf) 1940662220 [⟨⟨(.inside 3),[42],.lcomment,false,[],false⟩,false,false,[],some 4,some ⟨.code,[47],.lcode,false,[],false⟩,some ([(42,(.other,false))],false),true,false,false,none,false,⟨.lcomment,some .internalNl,false,.lblank⟩⟩] .leaf) 1941871080 [⟨⟨(.inside 3),[42],.lcomment,false,[],false⟩,false,false,[],some 4,some ⟨.code,[47],.lcomment,false,[],false⟩,some ([(42,(.other,false))],false),false,false,false,none,false,⟨.lcomment,some (.own 7),false,.lblank⟩⟩] (.node .leaf 1941871088 [⟨⟨(.inside 3),[42],.lcomment,false,[],false⟩,false,false,[],some 4,some ⟨.code,[47],.lcomment,false,[],false⟩,some ([(42,(.other,false))],false),true,false,false,none,false,⟨.lcomment,some .internalNl,false,.lblank⟩⟩] .leaf)) 1943079948 [⟨⟨(.inside 3),[42],.lcomment,false,[],false⟩,false,false,[],some 4,some ⟨.code,[47],.lblank,false,[],false⟩,some ([(42,(.other,false))],false),false,false,false,none,false,⟨.lcomment,some (.own 7),false,.lblank⟩⟩] (.node (.node .leaf 1943079956 [⟨⟨(.inside 3),[42],.lcomment,false,[],false⟩,false,false,[],some 4,some ⟨.code,[47],.lblank,false,[],false⟩,some ([(42,(.other,false))],false),true,false,false,none,false,⟨.lcomment,some .internalNl,false,.lblank⟩⟩] .leaf) 1955080201 [⟨⟨(.inside 3),[42],.lcomment,false,[],false⟩,false,false,[],some 4,some ⟨.code,[47],.lcode,false,[(4,0)],false⟩,some ([(42,(.other,false))],false),true,false,false,none,false,⟨.lcomment,some .internalNl,false,.lblank⟩⟩] (.node .leaf 1955080970 [⟨⟨(.inside 3),[42],.lcomment,false,[],false⟩,false,false,[],some 4,some ⟨.code,[47],.lcode,false,[(4,1)],false⟩,some ([(42,(.other,false))],false),true,false,false,none,false,⟨.lcomment,some .internalNl,false,.lblank⟩⟩] .leaf))) 1959980528 [⟨⟨(.inside 3),[42],.lblank,false,[],false⟩,false,false,[],some 4,some ⟨.code,[47],.lcode,false,[],false⟩,some ([(42,(.other,false))],false),true,false,false,none,false,⟨.lcomment,some .internalNl,false,.lblank⟩⟩] (.node (.node (.node (.node .leaf 1961189396 [⟨⟨(.inside 3),[42],.lblank,false,[],false⟩,false,false,[],some 4,some ⟨.code,[47],.lcomment,false,[],false⟩,some ([(42,(.other,false))],false),true,false,false,none,false,⟨.lcomment,some .internalNl,false,.lblank⟩⟩] .leaf) 1962398264 [⟨⟨(.inside 3),[42],.lblank,false,[],false⟩,false,false,[],some 4,some ⟨.code,[47],.lblank,false,[],false⟩,some ([(42,(.other,false))],false),true,false,false,none,false,⟨.lcomment,some .internalNl,false,.lblank⟩⟩] .leaf) 1974398509 [⟨⟨(.inside 3),[42],.lblank,false,[],false⟩,false,false,[],some 4,some ⟨.code,[47],.lcode,false,[(4,0)],false⟩,some ([(42,(.other,false))],false),true,false,false,none,false,⟨.lcomment,some .internalNl,false,.lblank⟩⟩] (.node .leaf 1974399278 [⟨⟨(.inside 3),[42],.lblank,false,[],false⟩,false,false,[],some 4,some ⟨.code,[47],.lcode,false,[(4,1)],false⟩,some ([(42,(.other,false))],false),true,false,false,none,false,⟨.lcomment,some .internalNl,false,.lblank⟩⟩] .leaf)) 172916047004 [⟨⟨(.inside 3),[42],.lcode,false,[(4,0)],false⟩,false,false,[],some 4,some ⟨.code,[47],.lcode,false,[(4,0)],false⟩,some ([(42,(.other,false))],false),false,false,false,none,false,⟨.lcode,some (.own 7),false,.lblank⟩⟩] (.node (.node .leaf 172916047773 [⟨⟨(.inside 3),[42],.lcode,false,[(4,0)],false⟩,false,false,[],some 4,some ⟨.code,[47],.lcode,false,[(4,1)],false⟩,some ([(42,(.other,false))],false),false,false,false,none,false,⟨.lcode,some (.own 7),false,.lblank⟩⟩] .leaf) 172916059293 [⟨⟨(.inside 3),[42],.lcode,false,[(4,1)],false⟩,false,false,[],some 4,some ⟨.code,[47],.lcode,false,[(4,0)],false⟩,some ([(42,(.other,false))],false),false,false,false,none,false,⟨.lcode,some (.own 7),false,.lblank⟩⟩] (.node .leaf 172916060062 [⟨⟨(.inside 3),[42],.lcode,false,[(4,1)],false⟩,false,false,[],some 4,some ⟨.code,[47],.lcode,false,[(4,1)],false⟩,some ([(42,(.other,false))],false),false,false,false,none,false,⟨.lcode,some (.own 7),false,.lblank⟩⟩] .leaf)))),(.node (.node (.node (.node .leaf 616177858 [⟨⟨(.inside 3),[],.lcode,true,[],false⟩,false,false,[],some 4,some ⟨.code,[47],.lcode,false,[],false⟩,some ([(42,(.other,false))],false),false,false,false,none,false,⟨.lcode,some (.own 7),false,.lblank⟩⟩] .leaf) 616325846 [⟨⟨(.inside 3),[],.lcomment,true,[],false⟩,false,false,[],some 4,some ⟨.code,[47],.lcode,false,[],false⟩,some ([(42,(.other,false))],false),true,false,false,none,false,⟨.lcomment,some .internalNl,false,.lblank⟩⟩] (.node .leaf 616473826 [⟨⟨(.inside 3),[],.lblank,true,[],false⟩,false,false,[],some 4,some ⟨.code,[47],.lcode,false,[],false⟩,some ([(42,(.other,false))],false),true,false,false,none,false,⟨.lblank,some .internalNl,false,.lblank⟩⟩] .leaf)) 617534706 [⟨⟨(.inside 3),[],.lcomment,true,[],false⟩,false,false,[],some 4,some ⟨.code,[47],.lcomment,false,[],false⟩,some ([(42,(.other,false))],false),false,false,false,none,false,⟨.lcomment,some (.own 7),false,.lblank⟩⟩] (.node (.node .leaf 617534714 [⟨⟨(.inside 3),[],.lcomment,true,[],false⟩,false,false,[],some 4,some ⟨.code,[47],.lcomment,false,[],false⟩,some ([(42,(.other,false))],false),true,false,false,none,false,⟨.lcomment,some .internalNl,false,.lblank⟩⟩] .leaf) 617682694 [⟨⟨(.inside 3),[],.lblank,true,[],false⟩,false,false,[],some 4,some ⟨.code,[47],.lcomment,false,[],false⟩,some ([(42,(.other,false))],false),true,false,false,none,false,⟨.lblank,some .internalNl,false,.lblank⟩⟩] (.node .leaf 618743574 [⟨⟨(.inside 3),[],.lcomment,true,[],false⟩,false,false,[],some 4,some ⟨.code,[47],.lblank,false,[],false⟩,some ([(42,(.other,false))],false),false,false,false,none,false,⟨.lcomment,some (.own 7),false,.lblank⟩⟩] .leaf))) 618743582 [⟨⟨(.inside 3),[],.lcomment,true,[],false⟩,false,false,[],some 4,some ⟨.code,[47],.lblank,false,[],false⟩,some ([(42,(.other,false))],false),true,false,false,none,false,⟨.lcomment,some .internalNl,false,.lblank⟩⟩] (.node (.node (.node .leaf 618891562 [⟨⟨(.inside 3),[],.lblank,true,[],false⟩,false,false,[],some 4,some ⟨.code,[47],.lblank,false,[],false⟩,some ([(42,(.other,false))],false),true,false,false,none,false,⟨.lblank,some .internalNl,false,.lblank⟩⟩] .leaf) 630595839 [⟨⟨(.inside 3),[],.lcode,true,[],false⟩,false,false,[],some 4,some ⟨.code,[47],.lcode,false,[(4,0)],false⟩,some ([(42,(.other,false))],false),false,false,false,none,false,⟨.lcode,some (.own 7),false,.lblank⟩⟩] (.node .leaf 630596608 [⟨⟨(.inside 3),[],.lcode,true,[],false⟩,false,false,[],some 4,some ⟨.code,[47],.lcode,false,[(4,1)],false⟩,some ([(42,(.other,false))],false),false,false,false,none,false,⟨.lcode,some (.own 7),false,.lblank⟩⟩] .leaf)) 630743827 [⟨⟨(.inside 3),[],.lcomment,true,[],false⟩,false,false,[],some 4,some ⟨.code,[47],.lcode,false,[(4,0)],false⟩,some ([(42,(.other,false))],false),true,false,false,none,false,⟨.lcomment,some .internalNl,false,.lblank⟩⟩] (.node (.node .leaf 630744596 [⟨⟨(.inside 3),[],.lcomment,true,[],false⟩,false,false,[],some 4,some ⟨.code,[47],.lcode,false,[(4,1)],false⟩,some ([(42,(.other,false))],false),true,false,false,none,false,⟨.lcomment,some .internalNl,false,.lblank⟩⟩] .leaf) 630891807 [⟨⟨(.inside 3),[],.lblank,true,[],false⟩,false,false,[],some 4,some ⟨.code,[47],.lcode,false,[(4,0)],false⟩,some ([(42,(.other,false))],false),true,false,false,none,false,⟨.lblank,some .internalNl,false,.lblank⟩⟩] (.node .leaf 630892576 [⟨⟨(.inside 3),[],.lblank,true,[],false⟩,false,false,[],some 4,some ⟨.code,[47],.lcode,false,[(4,1)],false⟩,some ([(42,(.other,false))],false),true,false,false,none,false,⟨.lblank,some .internalNl,false,.lblank⟩⟩] .leaf)))),.leaf]
theorem asm_line_lClosed : CA.closedF asm_line_M asm_line_lex true false asm_line_lfr asm_line_lTab = true := by decide +kernel
def asm_line_L : LCert LexisTable.asm_line asm_line_M := asm_line_lex_eq ▸ ⟨⟨asm_line_lmasks, asm_line_lex.rel, asm_line_lcs, asm_line_lrows, asm_line_lmasksIn, asm_line_lrepOk, asm_line_lrowsOk⟩,
  _, rfl, by decide +kernel, by decide +kernel, true, false, CA.closed_of asm_line_lfrOk asm_line_lClosed⟩
theorem asm_line_L_chk : asm_line_L.chk = true := by
  have : ∀ (l : Lexis) (h : LexisTable.asm_line = l) (C : LCert l asm_line_M), (h ▸ C : LCert LexisTable.asm_line asm_line_M).chk = C.chk := by rintro _ rfl _; rfl
  exact this _ asm_line_lex_eq _

def c_line_lex : Lexis := [⟨[47,47],[],.lcomment,false,false,true,false,true,true,true,false,none,false,false,false,false,[]⟩,⟨[47,42],[[42,47]],.lcomment,true,false,false,true,false,false,true,false,none,false,false,false,false,[]⟩,⟨[39],[[39]],.lcode,false,false,true,true,true,false,false,false,none,false,false,false,false,[]⟩,⟨[34],[[34]],.lcode,false,false,true,true,true,false,false,false,none,false,false,false,false,[]⟩]
theorem c_line_lex_eq : LexisTable.c_line = c_line_lex := by decide +kernel
def c_line_lmasks : List Nat := [4294967808,140737488355328,549755813888,17179869184,8192,1024,4096,115792089237316195423570985008687907853269984665640564039457584007908834656767,4951760157141521099596496896,115792089237316195423570985008687907853269984665640564039457584007908834658815,4398046511104,115792089237316195423570985008687907853269984665635612279300442486259482361343,115792089237316195423570985008687907853269984665640564039457584007913129626623,115792089237316195423570985008687907853269984665635612279300442486792058306047]
def c_line_lcs : List (Nat × Nat) := [(0,115792089237316195423570985008687907853269984665635612279300442341106767610367),(9,4294967808),(10,1024),(11,2048),(12,4096),(13,8192),(34,17179869184),(39,549755813888),(42,4398046511104),(47,140737488355328),(92,4951760157141521099596496896)]
theorem c_line_lmasksIn : masksIn c_line_nfa c_line_lmasks = true := by decide +kernel
theorem c_line_lrepOk : repOk c_line_lmasks c_line_lcs = true := by decide +kernel
def c_line_lrows : List Row := [⟨[],none,[],[⟨256,.other,false,some ⟨0,[.setEnt (.own 8)],some 4,true⟩⟩,⟨256,.ws,false,some ⟨1,[.setEnt (.own 0)],some 0,false⟩⟩,⟨256,.lf,false,some ⟨0,[.setEnt .newline],some 3,true⟩⟩,⟨256,.vt,false,none⟩,⟨256,.ff,false,some ⟨0,[.setEnt .newline],some 3,true⟩⟩,⟨256,.cr,false,some ⟨2,[.setEnt .newline],none,false⟩⟩,⟨256,.cr,true,some ⟨3,[.setEnt .newline],some 3,false⟩⟩,⟨34,.other,false,some ⟨4,[.code,.setEnt (.own 8)],some 4,false⟩⟩,⟨39,.other,false,some ⟨5,[.code,.setEnt (.own 8)],some 4,false⟩⟩,⟨42,.other,false,some ⟨0,[.setEnt (.own 8)],some 4,true⟩⟩,⟨47,.other,false,some ⟨6,[.setEnt (.own 8)],some 4,false⟩⟩,⟨92,.other,false,some ⟨0,[.setEnt (.own 8)],some 4,true⟩⟩]⟩,⟨[0],some 0,[],[⟨256,.other,false,none⟩,⟨256,.ws,false,some ⟨1,[.setEnt (.own 0)],some 0,false⟩⟩,⟨256,.lf,false,none⟩,⟨256,.vt,false,none⟩,⟨256,.ff,false,none⟩,⟨256,.cr,false,none⟩,⟨256,.cr,true,none⟩,⟨34,.other,false,none⟩,⟨39,.other,false,none⟩,⟨42,.other,false,none⟩,⟨47,.other,false,none⟩,⟨92,.other,false,none⟩]⟩,⟨[46],none,[],[⟨256,.other,false,none⟩,⟨256,.ws,false,none⟩,⟨256,.lf,false,some ⟨0,[.setEnt .newline],some 3,true⟩⟩,⟨256,.vt,false,none⟩,⟨256,.ff,false,none⟩,⟨256,.cr,false,none⟩,⟨256,.cr,true,none⟩,⟨34,.other,false,none⟩,⟨39,.other,false,none⟩,⟨42,.other,false,none⟩,⟨47,.other,false,none⟩,⟨92,.other,false,none⟩]⟩,⟨[46,50],some 3,[],[⟨256,.other,false,none⟩,⟨256,.ws,false,none⟩,⟨256,.lf,false,some ⟨0,[.setEnt .newline],some 3,true⟩⟩,⟨256,.vt,false,none⟩,⟨256,.ff,false,none⟩,⟨256,.cr,false,none⟩,⟨256,.cr,true,none⟩,⟨34,.other,false,none⟩,⟨39,.other,false,none⟩,⟨42,.other,false,none⟩,⟨47,.other,false,none⟩,⟨92,.other,false,none⟩]⟩,⟨[34,51],some 4,[],[⟨256,.other,false,some ⟨7,[.code],none,false⟩⟩,⟨256,.ws,false,some ⟨8,[],none,false⟩⟩,⟨256,.lf,false,some ⟨7,[.code],none,false⟩⟩,⟨256,.vt,false,some ⟨7,[.code],none,false⟩⟩,⟨256,.ff,false,some ⟨7,[.code],none,false⟩⟩,⟨256,.cr,false,some ⟨7,[.code],none,false⟩⟩,⟨256,.cr,true,some ⟨7,[.code],none,false⟩⟩,⟨34,.other,false,some ⟨0,[],some 2,true⟩⟩,⟨39,.other,false,some ⟨7,[.code],none,false⟩⟩,⟨42,.other,false,some ⟨7,[.code],none,false⟩⟩,⟨47,.other,false,some ⟨7,[.code],none,false⟩⟩,⟨92,.other,false,some ⟨9,[],none,false⟩⟩]⟩,⟨[22,51],some 4,[],[⟨256,.other,false,some ⟨10,[.code],none,false⟩⟩,⟨256,.ws,false,some ⟨11,[],none,false⟩⟩,⟨256,.lf,false,some ⟨10,[.code],none,false⟩⟩,⟨256,.vt,false,some ⟨10,[.code],none,false⟩⟩,⟨256,.ff,false,some ⟨10,[.code],none,false⟩⟩,⟨256,.cr,false,some ⟨10,[.code],none,false⟩⟩,⟨256,.cr,true,some ⟨10,[.code],none,false⟩⟩,⟨34,.other,false,some ⟨10,[.code],none,false⟩⟩,⟨39,.other,false,some ⟨0,[],some 2,true⟩⟩,⟨42,.other,false,some ⟨10,[.code],none,false⟩⟩,⟨47,.other,false,some ⟨10,[.code],none,false⟩⟩,⟨92,.other,false,some ⟨12,[],none,false⟩⟩]⟩,⟨[1,11,51],some 4,[],[⟨256,.other,false,none⟩,⟨256,.ws,false,none⟩,⟨256,.lf,false,none⟩,⟨256,.vt,false,none⟩,⟨256,.ff,false,none⟩,⟨256,.cr,false,none⟩,⟨256,.cr,true,none⟩,⟨34,.other,false,none⟩,⟨39,.other,false,none⟩,⟨42,.other,false,some ⟨13,[.comment],none,false⟩⟩,⟨47,.other,false,some ⟨14,[.comment],some 1,false⟩⟩,⟨92,.other,false,none⟩]⟩,⟨[42],none,[],[⟨256,.other,false,some ⟨7,[.code],none,false⟩⟩,⟨256,.ws,false,some ⟨8,[],none,false⟩⟩,⟨256,.lf,false,some ⟨7,[.code],none,false⟩⟩,⟨256,.vt,false,some ⟨7,[.code],none,false⟩⟩,⟨256,.ff,false,some ⟨7,[.code],none,false⟩⟩,⟨256,.cr,false,some ⟨7,[.code],none,false⟩⟩,⟨256,.cr,true,some ⟨7,[.code],none,false⟩⟩,⟨34,.other,false,some ⟨0,[],some 2,true⟩⟩,⟨39,.other,false,some ⟨7,[.code],none,false⟩⟩,⟨42,.other,false,some ⟨7,[.code],none,false⟩⟩,⟨47,.other,false,some ⟨7,[.code],none,false⟩⟩,⟨92,.other,false,some ⟨9,[],none,false⟩⟩]⟩,⟨[41],none,[],[⟨256,.other,false,some ⟨7,[.code],none,false⟩⟩,⟨256,.ws,false,some ⟨8,[],none,false⟩⟩,⟨256,.lf,false,some ⟨7,[.code],none,false⟩⟩,⟨256,.vt,false,some ⟨7,[.code],none,false⟩⟩,⟨256,.ff,false,some ⟨7,[.code],none,false⟩⟩,⟨256,.cr,false,some ⟨7,[.code],none,false⟩⟩,⟨256,.cr,true,some ⟨7,[.code],none,false⟩⟩,⟨34,.other,false,some ⟨0,[],some 2,true⟩⟩,⟨39,.other,false,some ⟨7,[.code],none,false⟩⟩,⟨42,.other,false,some ⟨7,[.code],none,false⟩⟩,⟨47,.other,false,some ⟨7,[.code],none,false⟩⟩,⟨92,.other,false,some ⟨9,[],none,false⟩⟩]⟩,⟨[35,43],none,[],[⟨256,.other,false,some ⟨15,[.code],none,false⟩⟩,⟨256,.ws,false,some ⟨15,[.code],none,false⟩⟩,⟨256,.lf,false,some ⟨16,[],none,false⟩⟩,⟨256,.vt,false,some ⟨15,[.code],none,false⟩⟩,⟨256,.ff,false,some ⟨17,[],none,false⟩⟩,⟨256,.cr,false,some ⟨18,[],none,false⟩⟩,⟨256,.cr,true,some ⟨19,[],none,false⟩⟩,⟨34,.other,false,some ⟨15,[.code],none,false⟩⟩,⟨39,.other,false,some ⟨15,[.code],none,false⟩⟩,⟨42,.other,false,some ⟨15,[.code],none,false⟩⟩,⟨47,.other,false,some ⟨15,[.code],none,false⟩⟩,⟨92,.other,false,some ⟨15,[.code],none,false⟩⟩]⟩,⟨[30],none,[],[⟨256,.other,false,some ⟨10,[.code],none,false⟩⟩,⟨256,.ws,false,some ⟨11,[],none,false⟩⟩,⟨256,.lf,false,some ⟨10,[.code],none,false⟩⟩,⟨256,.vt,false,some ⟨10,[.code],none,false⟩⟩,⟨256,.ff,false,some ⟨10,[.code],none,false⟩⟩,⟨256,.cr,false,some ⟨10,[.code],none,false⟩⟩,⟨256,.cr,true,some ⟨10,[.code],none,false⟩⟩,⟨34,.other,false,some ⟨10,[.code],none,false⟩⟩,⟨39,.other,false,some ⟨0,[],some 2,true⟩⟩,⟨42,.other,false,some ⟨10,[.code],none,false⟩⟩,⟨47,.other,false,some ⟨10,[.code],none,false⟩⟩,⟨92,.other,false,some ⟨12,[],none,false⟩⟩]⟩,⟨[29],none,[],[⟨256,.other,false,some ⟨10,[.code],none,false⟩⟩,⟨256,.ws,false,some ⟨11,[],none,false⟩⟩,⟨256,.lf,false,some ⟨10,[.code],none,false⟩⟩,⟨256,.vt,false,some ⟨10,[.code],none,false⟩⟩,⟨256,.ff,false,some ⟨10,[.code],none,false⟩⟩,⟨256,.cr,false,some ⟨10,[.code],none,false⟩⟩,⟨256,.cr,true,some ⟨10,[.code],none,false⟩⟩,⟨34,.other,false,some ⟨10,[.code],none,false⟩⟩,⟨39,.other,false,some ⟨0,[],some 2,true⟩⟩,⟨42,.other,false,some ⟨10,[.code],none,false⟩⟩,⟨47,.other,false,some ⟨10,[.code],none,false⟩⟩,⟨92,.other,false,some ⟨12,[],none,false⟩⟩]⟩,⟨[23,31],none,[],[⟨256,.other,false,some ⟨20,[.code],none,false⟩⟩,⟨256,.ws,false,some ⟨20,[.code],none,false⟩⟩,⟨256,.lf,false,some ⟨21,[],none,false⟩⟩,⟨256,.vt,false,some ⟨20,[.code],none,false⟩⟩,⟨256,.ff,false,some ⟨22,[],none,false⟩⟩,⟨256,.cr,false,some ⟨23,[],none,false⟩⟩,⟨256,.cr,true,some ⟨24,[],none,false⟩⟩,⟨34,.other,false,some ⟨20,[.code],none,false⟩⟩,⟨39,.other,false,some ⟨20,[.code],none,false⟩⟩,⟨42,.other,false,some ⟨20,[.code],none,false⟩⟩,⟨47,.other,false,some ⟨20,[.code],none,false⟩⟩,⟨92,.other,false,some ⟨20,[.code],none,false⟩⟩]⟩,⟨[12],none,[],[⟨256,.other,false,some ⟨25,[.comment],none,false⟩⟩,⟨256,.ws,false,some ⟨26,[],none,false⟩⟩,⟨256,.lf,false,some ⟨27,[],none,false⟩⟩,⟨256,.vt,false,some ⟨25,[.comment],none,false⟩⟩,⟨256,.ff,false,some ⟨28,[],none,false⟩⟩,⟨256,.cr,false,some ⟨29,[],none,false⟩⟩,⟨256,.cr,true,some ⟨30,[],none,false⟩⟩,⟨34,.other,false,some ⟨25,[.comment],none,false⟩⟩,⟨39,.other,false,some ⟨25,[.comment],none,false⟩⟩,⟨42,.other,false,some ⟨31,[.comment],none,false⟩⟩,⟨47,.other,false,some ⟨25,[.comment],none,false⟩⟩,⟨92,.other,false,some ⟨25,[.comment],none,false⟩⟩]⟩,⟨[2],some 1,[],[⟨256,.other,false,some ⟨32,[.comment],some 1,false⟩⟩,⟨256,.ws,false,some ⟨33,[],some 1,false⟩⟩,⟨256,.lf,false,none⟩,⟨256,.vt,false,some ⟨32,[.comment],some 1,false⟩⟩,⟨256,.ff,false,none⟩,⟨256,.cr,false,none⟩,⟨256,.cr,true,none⟩,⟨34,.other,false,some ⟨32,[.comment],some 1,false⟩⟩,⟨39,.other,false,some ⟨32,[.comment],some 1,false⟩⟩,⟨42,.other,false,some ⟨32,[.comment],some 1,false⟩⟩,⟨47,.other,false,some ⟨32,[.comment],some 1,false⟩⟩,⟨92,.other,false,some ⟨34,[.comment],some 1,false⟩⟩]⟩,⟨[44],none,[],[⟨256,.other,false,some ⟨7,[.code],none,false⟩⟩,⟨256,.ws,false,some ⟨8,[],none,false⟩⟩,⟨256,.lf,false,some ⟨7,[.code],none,false⟩⟩,⟨256,.vt,false,some ⟨7,[.code],none,false⟩⟩,⟨256,.ff,false,some ⟨7,[.code],none,false⟩⟩,⟨256,.cr,false,some ⟨7,[.code],none,false⟩⟩,⟨256,.cr,true,some ⟨7,[.code],none,false⟩⟩,⟨34,.other,false,some ⟨0,[],some 2,true⟩⟩,⟨39,.other,false,some ⟨7,[.code],none,false⟩⟩,⟨42,.other,false,some ⟨7,[.code],none,false⟩⟩,⟨47,.other,false,some ⟨7,[.code],none,false⟩⟩,⟨92,.other,false,some ⟨9,[],none,false⟩⟩]⟩,⟨[38],none,[],[⟨256,.other,false,some ⟨7,[.setEnt .internalNl,.cb,.code],none,false⟩⟩,⟨256,.ws,false,some ⟨8,[.setEnt .internalNl,.cb],none,false⟩⟩,⟨256,.lf,false,some ⟨7,[.setEnt .internalNl,.cb,.code],none,false⟩⟩,⟨256,.vt,false,some ⟨7,[.setEnt .internalNl,.cb,.code],none,false⟩⟩,⟨256,.ff,false,some ⟨7,[.setEnt .internalNl,.cb,.code],none,false⟩⟩,⟨256,.cr,false,some ⟨7,[.setEnt .internalNl,.cb,.code],none,false⟩⟩,⟨256,.cr,true,some ⟨7,[.setEnt .internalNl,.cb,.code],none,false⟩⟩,⟨34,.other,false,some ⟨0,[.setEnt .internalNl,.cb],some 2,true⟩⟩,⟨39,.other,false,some ⟨7,[.setEnt .internalNl,.cb,.code],none,false⟩⟩,⟨42,.other,false,some ⟨7,[.setEnt .internalNl,.cb,.code],none,false⟩⟩,⟨47,.other,false,some ⟨7,[.setEnt .internalNl,.cb,.code],none,false⟩⟩,⟨92,.other,false,some ⟨9,[.setEnt .internalNl,.cb],none,false⟩⟩]⟩,⟨[39],none,[],[⟨256,.other,false,some ⟨7,[.setEnt .internalNl,.cb,.code],none,false⟩⟩,⟨256,.ws,false,some ⟨8,[.setEnt .internalNl,.cb],none,false⟩⟩,⟨256,.lf,false,some ⟨7,[.setEnt .internalNl,.cb,.code],none,false⟩⟩,⟨256,.vt,false,some ⟨7,[.setEnt .internalNl,.cb,.code],none,false⟩⟩,⟨256,.ff,false,some ⟨7,[.setEnt .internalNl,.cb,.code],none,false⟩⟩,⟨256,.cr,false,some ⟨7,[.setEnt .internalNl,.cb,.code],none,false⟩⟩,⟨256,.cr,true,some ⟨7,[.setEnt .internalNl,.cb,.code],none,false⟩⟩,⟨34,.other,false,some ⟨0,[.setEnt .internalNl,.cb],some 2,true⟩⟩,⟨39,.other,false,some ⟨7,[.setEnt .internalNl,.cb,.code],none,false⟩⟩,⟨42,.other,false,some ⟨7,[.setEnt .internalNl,.cb,.code],none,false⟩⟩,⟨47,.other,false,some ⟨7,[.setEnt .internalNl,.cb,.code],none,false⟩⟩,⟨92,.other,false,some ⟨9,[.setEnt .internalNl,.cb],none,false⟩⟩]⟩,⟨[36],none,[],[⟨256,.other,false,none⟩,⟨256,.ws,false,none⟩,⟨256,.lf,false,some ⟨35,[],none,false⟩⟩,⟨256,.vt,false,none⟩,⟨256,.ff,false,none⟩,⟨256,.cr,false,none⟩,⟨256,.cr,true,none⟩,⟨34,.other,false,none⟩,⟨39,.other,false,none⟩,⟨42,.other,false,none⟩,⟨47,.other,false,none⟩,⟨92,.other,false,none⟩]⟩,⟨[36,40],none,[],[⟨256,.other,false,some ⟨7,[.setEnt .internalNl,.cb,.code],none,false⟩⟩,⟨256,.ws,false,some ⟨8,[.setEnt .internalNl,.cb],none,false⟩⟩,⟨256,.lf,false,some ⟨36,[.setEnt .internalNl,.cb,.code],none,false⟩⟩,⟨256,.vt,false,some ⟨7,[.setEnt .internalNl,.cb,.code],none,false⟩⟩,⟨256,.ff,false,some ⟨7,[.setEnt .internalNl,.cb,.code],none,false⟩⟩,⟨256,.cr,false,some ⟨7,[.setEnt .internalNl,.cb,.code],none,false⟩⟩,⟨256,.cr,true,some ⟨7,[.setEnt .internalNl,.cb,.code],none,false⟩⟩,⟨34,.other,false,some ⟨0,[.setEnt .internalNl,.cb],some 2,true⟩⟩,⟨39,.other,false,some ⟨7,[.setEnt .internalNl,.cb,.code],none,false⟩⟩,⟨42,.other,false,some ⟨7,[.setEnt .internalNl,.cb,.code],none,false⟩⟩,⟨47,.other,false,some ⟨7,[.setEnt .internalNl,.cb,.code],none,false⟩⟩,⟨92,.other,false,some ⟨9,[.setEnt .internalNl,.cb],none,false⟩⟩]⟩,⟨[32],none,[],[⟨256,.other,false,some ⟨10,[.code],none,false⟩⟩,⟨256,.ws,false,some ⟨11,[],none,false⟩⟩,⟨256,.lf,false,some ⟨10,[.code],none,false⟩⟩,⟨256,.vt,false,some ⟨10,[.code],none,false⟩⟩,⟨256,.ff,false,some ⟨10,[.code],none,false⟩⟩,⟨256,.cr,false,some ⟨10,[.code],none,false⟩⟩,⟨256,.cr,true,some ⟨10,[.code],none,false⟩⟩,⟨34,.other,false,some ⟨10,[.code],none,false⟩⟩,⟨39,.other,false,some ⟨0,[],some 2,true⟩⟩,⟨42,.other,false,some ⟨10,[.code],none,false⟩⟩,⟨47,.other,false,some ⟨10,[.code],none,false⟩⟩,⟨92,.other,false,some ⟨12,[],none,false⟩⟩]⟩,⟨[26],none,[],[⟨256,.other,false,some ⟨10,[.setEnt .internalNl,.cb,.code],none,false⟩⟩,⟨256,.ws,false,some ⟨11,[.setEnt .internalNl,.cb],none,false⟩⟩,⟨256,.lf,false,some ⟨10,[.setEnt .internalNl,.cb,.code],none,false⟩⟩,⟨256,.vt,false,some ⟨10,[.setEnt .internalNl,.cb,.code],none,false⟩⟩,⟨256,.ff,false,some ⟨10,[.setEnt .internalNl,.cb,.code],none,false⟩⟩,⟨256,.cr,false,some ⟨10,[.setEnt .internalNl,.cb,.code],none,false⟩⟩,⟨256,.cr,true,some ⟨10,[.setEnt .internalNl,.cb,.code],none,false⟩⟩,⟨34,.other,false,some ⟨10,[.setEnt .internalNl,.cb,.code],none,false⟩⟩,⟨39,.other,false,some ⟨0,[.setEnt .internalNl,.cb],some 2,true⟩⟩,⟨42,.other,false,some ⟨10,[.setEnt .internalNl,.cb,.code],none,false⟩⟩,⟨47,.other,false,some ⟨10,[.setEnt .internalNl,.cb,.code],none,false⟩⟩,⟨92,.other,false,some ⟨12,[.setEnt .internalNl,.cb],none,false⟩⟩]⟩,⟨[27],none,[],[⟨256,.other,false,some ⟨10,[.setEnt .internalNl,.cb,.code],none,false⟩⟩,⟨256,.ws,false,some ⟨11,[.setEnt .internalNl,.cb],none,false⟩⟩,⟨256,.lf,false,some ⟨10,[.setEnt .internalNl,.cb,.code],none,false⟩⟩,⟨256,.vt,false,some ⟨10,[.setEnt .internalNl,.cb,.code],none,false⟩⟩,⟨256,.ff,false,some ⟨10,[.setEnt .internalNl,.cb,.code],none,false⟩⟩,⟨256,.cr,false,some ⟨10,[.setEnt .internalNl,.cb,.code],none,false⟩⟩,⟨256,.cr,true,some ⟨10,[.setEnt .internalNl,.cb,.code],none,false⟩⟩,⟨34,.other,false,some ⟨10,[.setEnt .internalNl,.cb,.code],none,false⟩⟩,⟨39,.other,false,some ⟨0,[.setEnt .internalNl,.cb],some 2,true⟩⟩,⟨42,.other,false,some ⟨10,[.setEnt .internalNl,.cb,.code],none,false⟩⟩,⟨47,.other,false,some ⟨10,[.setEnt .internalNl,.cb,.code],none,false⟩⟩,⟨92,.other,false,some ⟨12,[.setEnt .internalNl,.cb],none,false⟩⟩]⟩,⟨[24],none,[],[⟨256,.other,false,none⟩,⟨256,.ws,false,none⟩,⟨256,.lf,false,some ⟨37,[],none,false⟩⟩,⟨256,.vt,false,none⟩,⟨256,.ff,false,none⟩,⟨256,.cr,false,none⟩,⟨256,.cr,true,none⟩,⟨34,.other,false,none⟩,⟨39,.other,false,none⟩,⟨42,.other,false,none⟩,⟨47,.other,false,none⟩,⟨92,.other,false,none⟩]⟩,⟨[24,28],none,[],[⟨256,.other,false,some ⟨10,[.setEnt .internalNl,.cb,.code],none,false⟩⟩,⟨256,.ws,false,some ⟨11,[.setEnt .internalNl,.cb],none,false⟩⟩,⟨256,.lf,false,some ⟨38,[.setEnt .internalNl,.cb,.code],none,false⟩⟩,⟨256,.vt,false,some ⟨10,[.setEnt .internalNl,.cb,.code],none,false⟩⟩,⟨256,.ff,false,some ⟨10,[.setEnt .internalNl,.cb,.code],none,false⟩⟩,⟨256,.cr,false,some ⟨10,[.setEnt .internalNl,.cb,.code],none,false⟩⟩,⟨256,.cr,true,some ⟨10,[.setEnt .internalNl,.cb,.code],none,false⟩⟩,⟨34,.other,false,some ⟨10,[.setEnt .internalNl,.cb,.code],none,false⟩⟩,⟨39,.other,false,some ⟨0,[.setEnt .internalNl,.cb],some 2,true⟩⟩,⟨42,.other,false,some ⟨10,[.setEnt .internalNl,.cb,.code],none,false⟩⟩,⟨47,.other,false,some ⟨10,[.setEnt .internalNl,.cb,.code],none,false⟩⟩,⟨92,.other,false,some ⟨12,[.setEnt .internalNl,.cb],none,false⟩⟩]⟩,⟨[19],none,[],[⟨256,.other,false,some ⟨25,[.comment],none,false⟩⟩,⟨256,.ws,false,some ⟨26,[],none,false⟩⟩,⟨256,.lf,false,some ⟨27,[],none,false⟩⟩,⟨256,.vt,false,some ⟨25,[.comment],none,false⟩⟩,⟨256,.ff,false,some ⟨28,[],none,false⟩⟩,⟨256,.cr,false,some ⟨29,[],none,false⟩⟩,⟨256,.cr,true,some ⟨30,[],none,false⟩⟩,⟨34,.other,false,some ⟨25,[.comment],none,false⟩⟩,⟨39,.other,false,some ⟨25,[.comment],none,false⟩⟩,⟨42,.other,false,some ⟨31,[.comment],none,false⟩⟩,⟨47,.other,false,some ⟨25,[.comment],none,false⟩⟩,⟨92,.other,false,some ⟨25,[.comment],none,false⟩⟩]⟩,⟨[18],none,[],[⟨256,.other,false,some ⟨25,[.comment],none,false⟩⟩,⟨256,.ws,false,some ⟨26,[],none,false⟩⟩,⟨256,.lf,false,some ⟨27,[],none,false⟩⟩,⟨256,.vt,false,some ⟨25,[.comment],none,false⟩⟩,⟨256,.ff,false,some ⟨28,[],none,false⟩⟩,⟨256,.cr,false,some ⟨29,[],none,false⟩⟩,⟨256,.cr,true,some ⟨30,[],none,false⟩⟩,⟨34,.other,false,some ⟨25,[.comment],none,false⟩⟩,⟨39,.other,false,some ⟨25,[.comment],none,false⟩⟩,⟨42,.other,false,some ⟨31,[.comment],none,false⟩⟩,⟨47,.other,false,some ⟨25,[.comment],none,false⟩⟩,⟨92,.other,false,some ⟨25,[.comment],none,false⟩⟩]⟩,⟨[15],none,[],[⟨256,.other,false,some ⟨25,[.setEnt .internalNl,.cb,.comment],none,false⟩⟩,⟨256,.ws,false,some ⟨26,[.setEnt .internalNl,.cb],none,false⟩⟩,⟨256,.lf,false,some ⟨27,[.setEnt .internalNl,.cb],none,false⟩⟩,⟨256,.vt,false,some ⟨25,[.setEnt .internalNl,.cb,.comment],none,false⟩⟩,⟨256,.ff,false,some ⟨28,[.setEnt .internalNl,.cb],none,false⟩⟩,⟨256,.cr,false,some ⟨29,[.setEnt .internalNl,.cb],none,false⟩⟩,⟨256,.cr,true,some ⟨30,[.setEnt .internalNl,.cb],none,false⟩⟩,⟨34,.other,false,some ⟨25,[.setEnt .internalNl,.cb,.comment],none,false⟩⟩,⟨39,.other,false,some ⟨25,[.setEnt .internalNl,.cb,.comment],none,false⟩⟩,⟨42,.other,false,some ⟨31,[.setEnt .internalNl,.cb,.comment],none,false⟩⟩,⟨47,.other,false,some ⟨25,[.setEnt .internalNl,.cb,.comment],none,false⟩⟩,⟨92,.other,false,some ⟨25,[.setEnt .internalNl,.cb,.comment],none,false⟩⟩]⟩,⟨[16],none,[],[⟨256,.other,false,some ⟨25,[.setEnt .internalNl,.cb,.comment],none,false⟩⟩,⟨256,.ws,false,some ⟨26,[.setEnt .internalNl,.cb],none,false⟩⟩,⟨256,.lf,false,some ⟨27,[.setEnt .internalNl,.cb],none,false⟩⟩,⟨256,.vt,false,some ⟨25,[.setEnt .internalNl,.cb,.comment],none,false⟩⟩,⟨256,.ff,false,some ⟨28,[.setEnt .internalNl,.cb],none,false⟩⟩,⟨256,.cr,false,some ⟨29,[.setEnt .internalNl,.cb],none,false⟩⟩,⟨256,.cr,true,some ⟨30,[.setEnt .internalNl,.cb],none,false⟩⟩,⟨34,.other,false,some ⟨25,[.setEnt .internalNl,.cb,.comment],none,false⟩⟩,⟨39,.other,false,some ⟨25,[.setEnt .internalNl,.cb,.comment],none,false⟩⟩,⟨42,.other,false,some ⟨31,[.setEnt .internalNl,.cb,.comment],none,false⟩⟩,⟨47,.other,false,some ⟨25,[.setEnt .internalNl,.cb,.comment],none,false⟩⟩,⟨92,.other,false,some ⟨25,[.setEnt .internalNl,.cb,.comment],none,false⟩⟩]⟩,⟨[13],none,[],[⟨256,.other,false,none⟩,⟨256,.ws,false,none⟩,⟨256,.lf,false,some ⟨39,[],none,false⟩⟩,⟨256,.vt,false,none⟩,⟨256,.ff,false,none⟩,⟨256,.cr,false,none⟩,⟨256,.cr,true,none⟩,⟨34,.other,false,none⟩,⟨39,.other,false,none⟩,⟨42,.other,false,none⟩,⟨47,.other,false,none⟩,⟨92,.other,false,none⟩]⟩,⟨[13,17],none,[],[⟨256,.other,false,some ⟨25,[.setEnt .internalNl,.cb,.comment],none,false⟩⟩,⟨256,.ws,false,some ⟨26,[.setEnt .internalNl,.cb],none,false⟩⟩,⟨256,.lf,false,some ⟨40,[.setEnt .internalNl,.cb],none,false⟩⟩,⟨256,.vt,false,some ⟨25,[.setEnt .internalNl,.cb,.comment],none,false⟩⟩,⟨256,.ff,false,some ⟨28,[.setEnt .internalNl,.cb],none,false⟩⟩,⟨256,.cr,false,some ⟨29,[.setEnt .internalNl,.cb],none,false⟩⟩,⟨256,.cr,true,some ⟨30,[.setEnt .internalNl,.cb],none,false⟩⟩,⟨34,.other,false,some ⟨25,[.setEnt .internalNl,.cb,.comment],none,false⟩⟩,⟨39,.other,false,some ⟨25,[.setEnt .internalNl,.cb,.comment],none,false⟩⟩,⟨42,.other,false,some ⟨31,[.setEnt .internalNl,.cb,.comment],none,false⟩⟩,⟨47,.other,false,some ⟨25,[.setEnt .internalNl,.cb,.comment],none,false⟩⟩,⟨92,.other,false,some ⟨25,[.setEnt .internalNl,.cb,.comment],none,false⟩⟩]⟩,⟨[19,20],none,[],[⟨256,.other,false,some ⟨25,[.comment],none,false⟩⟩,⟨256,.ws,false,some ⟨26,[],none,false⟩⟩,⟨256,.lf,false,some ⟨27,[],none,false⟩⟩,⟨256,.vt,false,some ⟨25,[.comment],none,false⟩⟩,⟨256,.ff,false,some ⟨28,[],none,false⟩⟩,⟨256,.cr,false,some ⟨29,[],none,false⟩⟩,⟨256,.cr,true,some ⟨30,[],none,false⟩⟩,⟨34,.other,false,some ⟨25,[.comment],none,false⟩⟩,⟨39,.other,false,some ⟨25,[.comment],none,false⟩⟩,⟨42,.other,false,some ⟨31,[.comment],none,false⟩⟩,⟨47,.other,false,some ⟨0,[],some 1,true⟩⟩,⟨92,.other,false,some ⟨25,[.comment],none,false⟩⟩]⟩,⟨[10],some 1,[],[⟨256,.other,false,some ⟨32,[.comment],some 1,false⟩⟩,⟨256,.ws,false,some ⟨33,[],some 1,false⟩⟩,⟨256,.lf,false,none⟩,⟨256,.vt,false,some ⟨32,[.comment],some 1,false⟩⟩,⟨256,.ff,false,none⟩,⟨256,.cr,false,none⟩,⟨256,.cr,true,none⟩,⟨34,.other,false,some ⟨32,[.comment],some 1,false⟩⟩,⟨39,.other,false,some ⟨32,[.comment],some 1,false⟩⟩,⟨42,.other,false,some ⟨32,[.comment],some 1,false⟩⟩,⟨47,.other,false,some ⟨32,[.comment],some 1,false⟩⟩,⟨92,.other,false,some ⟨34,[.comment],some 1,false⟩⟩]⟩,⟨[9],some 1,[],[⟨256,.other,false,some ⟨32,[.comment],some 1,false⟩⟩,⟨256,.ws,false,some ⟨33,[],some 1,false⟩⟩,⟨256,.lf,false,none⟩,⟨256,.vt,false,some ⟨32,[.comment],some 1,false⟩⟩,⟨256,.ff,false,none⟩,⟨256,.cr,false,none⟩,⟨256,.cr,true,none⟩,⟨34,.other,false,some ⟨32,[.comment],some 1,false⟩⟩,⟨39,.other,false,some ⟨32,[.comment],some 1,false⟩⟩,⟨42,.other,false,some ⟨32,[.comment],some 1,false⟩⟩,⟨47,.other,false,some ⟨32,[.comment],some 1,false⟩⟩,⟨92,.other,false,some ⟨34,[.comment],some 1,false⟩⟩]⟩,⟨[3,10],some 1,[],[⟨256,.other,false,some ⟨32,[.comment],some 1,false⟩⟩,⟨256,.ws,false,some ⟨33,[],some 1,false⟩⟩,⟨256,.lf,false,some ⟨41,[],some 1,false⟩⟩,⟨256,.vt,false,some ⟨32,[.comment],some 1,false⟩⟩,⟨256,.ff,false,some ⟨42,[],some 1,false⟩⟩,⟨256,.cr,false,some ⟨43,[],none,false⟩⟩,⟨256,.cr,true,some ⟨44,[],some 1,false⟩⟩,⟨34,.other,false,some ⟨32,[.comment],some 1,false⟩⟩,⟨39,.other,false,some ⟨32,[.comment],some 1,false⟩⟩,⟨42,.other,false,some ⟨32,[.comment],some 1,false⟩⟩,⟨47,.other,false,some ⟨32,[.comment],some 1,false⟩⟩,⟨92,.other,false,some ⟨34,[.comment],some 1,false⟩⟩]⟩,⟨[37],none,[],[⟨256,.other,false,some ⟨7,[.setEnt .internalNl,.cb,.code],none,false⟩⟩,⟨256,.ws,false,some ⟨8,[.setEnt .internalNl,.cb],none,false⟩⟩,⟨256,.lf,false,some ⟨7,[.setEnt .internalNl,.cb,.code],none,false⟩⟩,⟨256,.vt,false,some ⟨7,[.setEnt .internalNl,.cb,.code],none,false⟩⟩,⟨256,.ff,false,some ⟨7,[.setEnt .internalNl,.cb,.code],none,false⟩⟩,⟨256,.cr,false,some ⟨7,[.setEnt .internalNl,.cb,.code],none,false⟩⟩,⟨256,.cr,true,some ⟨7,[.setEnt .internalNl,.cb,.code],none,false⟩⟩,⟨34,.other,false,some ⟨0,[.setEnt .internalNl,.cb],some 2,true⟩⟩,⟨39,.other,false,some ⟨7,[.setEnt .internalNl,.cb,.code],none,false⟩⟩,⟨42,.other,false,some ⟨7,[.setEnt .internalNl,.cb,.code],none,false⟩⟩,⟨47,.other,false,some ⟨7,[.setEnt .internalNl,.cb,.code],none,false⟩⟩,⟨92,.other,false,some ⟨9,[.setEnt .internalNl,.cb],none,false⟩⟩]⟩,⟨[37,42],none,[],[⟨256,.other,false,some ⟨7,[.setEnt .internalNl,.cb,.code],none,false⟩⟩,⟨256,.ws,false,some ⟨8,[.setEnt .internalNl,.cb],none,false⟩⟩,⟨256,.lf,false,some ⟨7,[.setEnt .internalNl,.cb,.code],none,false⟩⟩,⟨256,.vt,false,some ⟨7,[.setEnt .internalNl,.cb,.code],none,false⟩⟩,⟨256,.ff,false,some ⟨7,[.setEnt .internalNl,.cb,.code],none,false⟩⟩,⟨256,.cr,false,some ⟨7,[.setEnt .internalNl,.cb,.code],none,false⟩⟩,⟨256,.cr,true,some ⟨7,[.setEnt .internalNl,.cb,.code],none,false⟩⟩,⟨34,.other,false,some ⟨0,[.setEnt .internalNl,.cb],some 2,true⟩⟩,⟨39,.other,false,some ⟨7,[.setEnt .internalNl,.cb,.code],none,false⟩⟩,⟨42,.other,false,some ⟨7,[.setEnt .internalNl,.cb,.code],none,false⟩⟩,⟨47,.other,false,some ⟨7,[.setEnt .internalNl,.cb,.code],none,false⟩⟩,⟨92,.other,false,some ⟨9,[.setEnt .internalNl,.cb],none,false⟩⟩]⟩,⟨[25],none,[],[⟨256,.other,false,some ⟨10,[.setEnt .internalNl,.cb,.code],none,false⟩⟩,⟨256,.ws,false,some ⟨11,[.setEnt .internalNl,.cb],none,false⟩⟩,⟨256,.lf,false,some ⟨10,[.setEnt .internalNl,.cb,.code],none,false⟩⟩,⟨256,.vt,false,some ⟨10,[.setEnt .internalNl,.cb,.code],none,false⟩⟩,⟨256,.ff,false,some ⟨10,[.setEnt .internalNl,.cb,.code],none,false⟩⟩,⟨256,.cr,false,some ⟨10,[.setEnt .internalNl,.cb,.code],none,false⟩⟩,⟨256,.cr,true,some ⟨10,[.setEnt .internalNl,.cb,.code],none,false⟩⟩,⟨34,.other,false,some ⟨10,[.setEnt .internalNl,.cb,.code],none,false⟩⟩,⟨39,.other,false,some ⟨0,[.setEnt .internalNl,.cb],some 2,true⟩⟩,⟨42,.other,false,some ⟨10,[.setEnt .internalNl,.cb,.code],none,false⟩⟩,⟨47,.other,false,some ⟨10,[.setEnt .internalNl,.cb,.code],none,false⟩⟩,⟨92,.other,false,some ⟨12,[.setEnt .internalNl,.cb],none,false⟩⟩]⟩,⟨[25,30],none,[],[⟨256,.other,false,some ⟨10,[.setEnt .internalNl,.cb,.code],none,false⟩⟩,⟨256,.ws,false,some ⟨11,[.setEnt .internalNl,.cb],none,false⟩⟩,⟨256,.lf,false,some ⟨10,[.setEnt .internalNl,.cb,.code],none,false⟩⟩,⟨256,.vt,false,some ⟨10,[.setEnt .internalNl,.cb,.code],none,false⟩⟩,⟨256,.ff,false,some ⟨10,[.setEnt .internalNl,.cb,.code],none,false⟩⟩,⟨256,.cr,false,some ⟨10,[.setEnt .internalNl,.cb,.code],none,false⟩⟩,⟨256,.cr,true,some ⟨10,[.setEnt .internalNl,.cb,.code],none,false⟩⟩,⟨34,.other,false,some ⟨10,[.setEnt .internalNl,.cb,.code],none,false⟩⟩,⟨39,.other,false,some ⟨0,[.setEnt .internalNl,.cb],some 2,true⟩⟩,⟨42,.other,false,some ⟨10,[.setEnt .internalNl,.cb,.code],none,false⟩⟩,⟨47,.other,false,some ⟨10,[.setEnt .internalNl,.cb,.code],none,false⟩⟩,⟨92,.other,false,some ⟨12,[.setEnt .internalNl,.cb],none,false⟩⟩]⟩,⟨[14],none,[],[⟨256,.other,false,some ⟨25,[.setEnt .internalNl,.cb,.comment],none,false⟩⟩,⟨256,.ws,false,some ⟨26,[.setEnt .internalNl,.cb],none,false⟩⟩,⟨256,.lf,false,some ⟨27,[.setEnt .internalNl,.cb],none,false⟩⟩,⟨256,.vt,false,some ⟨25,[.setEnt .internalNl,.cb,.comment],none,false⟩⟩,⟨256,.ff,false,some ⟨28,[.setEnt .internalNl,.cb],none,false⟩⟩,⟨256,.cr,false,some ⟨29,[.setEnt .internalNl,.cb],none,false⟩⟩,⟨256,.cr,true,some ⟨30,[.setEnt .internalNl,.cb],none,false⟩⟩,⟨34,.other,false,some ⟨25,[.setEnt .internalNl,.cb,.comment],none,false⟩⟩,⟨39,.other,false,some ⟨25,[.setEnt .internalNl,.cb,.comment],none,false⟩⟩,⟨42,.other,false,some ⟨31,[.setEnt .internalNl,.cb,.comment],none,false⟩⟩,⟨47,.other,false,some ⟨25,[.setEnt .internalNl,.cb,.comment],none,false⟩⟩,⟨92,.other,false,some ⟨25,[.setEnt .internalNl,.cb,.comment],none,false⟩⟩]⟩,⟨[14,15],none,[],[⟨256,.other,false,some ⟨25,[.setEnt .internalNl,.cb,.comment],none,false⟩⟩,⟨256,.ws,false,some ⟨26,[.setEnt .internalNl,.cb],none,false⟩⟩,⟨256,.lf,false,some ⟨27,[.setEnt .internalNl,.cb],none,false⟩⟩,⟨256,.vt,false,some ⟨25,[.setEnt .internalNl,.cb,.comment],none,false⟩⟩,⟨256,.ff,false,some ⟨28,[.setEnt .internalNl,.cb],none,false⟩⟩,⟨256,.cr,false,some ⟨29,[.setEnt .internalNl,.cb],none,false⟩⟩,⟨256,.cr,true,some ⟨30,[.setEnt .internalNl,.cb],none,false⟩⟩,⟨34,.other,false,some ⟨25,[.setEnt .internalNl,.cb,.comment],none,false⟩⟩,⟨39,.other,false,some ⟨25,[.setEnt .internalNl,.cb,.comment],none,false⟩⟩,⟨42,.other,false,some ⟨31,[.setEnt .internalNl,.cb,.comment],none,false⟩⟩,⟨47,.other,false,some ⟨25,[.setEnt .internalNl,.cb,.comment],none,false⟩⟩,⟨92,.other,false,some ⟨25,[.setEnt .internalNl,.cb,.comment],none,false⟩⟩]⟩,⟨[6],some 1,[.setEnt .internalNl,.cb],[⟨256,.other,false,some ⟨32,[.setEnt .internalNl,.cb,.comment],some 1,false⟩⟩,⟨256,.ws,false,some ⟨33,[.setEnt .internalNl,.cb],some 1,false⟩⟩,⟨256,.lf,false,none⟩,⟨256,.vt,false,some ⟨32,[.setEnt .internalNl,.cb,.comment],some 1,false⟩⟩,⟨256,.ff,false,none⟩,⟨256,.cr,false,none⟩,⟨256,.cr,true,none⟩,⟨34,.other,false,some ⟨32,[.setEnt .internalNl,.cb,.comment],some 1,false⟩⟩,⟨39,.other,false,some ⟨32,[.setEnt .internalNl,.cb,.comment],some 1,false⟩⟩,⟨42,.other,false,some ⟨32,[.setEnt .internalNl,.cb,.comment],some 1,false⟩⟩,⟨47,.other,false,some ⟨32,[.setEnt .internalNl,.cb,.comment],some 1,false⟩⟩,⟨92,.other,false,some ⟨34,[.setEnt .internalNl,.cb,.comment],some 1,false⟩⟩]⟩,⟨[7],some 1,[.setEnt .internalNl,.cb],[⟨256,.other,false,some ⟨32,[.setEnt .internalNl,.cb,.comment],some 1,false⟩⟩,⟨256,.ws,false,some ⟨33,[.setEnt .internalNl,.cb],some 1,false⟩⟩,⟨256,.lf,false,none⟩,⟨256,.vt,false,some ⟨32,[.setEnt .internalNl,.cb,.comment],some 1,false⟩⟩,⟨256,.ff,false,none⟩,⟨256,.cr,false,none⟩,⟨256,.cr,true,none⟩,⟨34,.other,false,some ⟨32,[.setEnt .internalNl,.cb,.comment],some 1,false⟩⟩,⟨39,.other,false,some ⟨32,[.setEnt .internalNl,.cb,.comment],some 1,false⟩⟩,⟨42,.other,false,some ⟨32,[.setEnt .internalNl,.cb,.comment],some 1,false⟩⟩,⟨47,.other,false,some ⟨32,[.setEnt .internalNl,.cb,.comment],some 1,false⟩⟩,⟨92,.other,false,some ⟨34,[.setEnt .internalNl,.cb,.comment],some 1,false⟩⟩]⟩,⟨[4],none,[],[⟨256,.other,false,none⟩,⟨256,.ws,false,none⟩,⟨256,.lf,false,some ⟨45,[],some 1,false⟩⟩,⟨256,.vt,false,none⟩,⟨256,.ff,false,none⟩,⟨256,.cr,false,none⟩,⟨256,.cr,true,none⟩,⟨34,.other,false,none⟩,⟨39,.other,false,none⟩,⟨42,.other,false,none⟩,⟨47,.other,false,none⟩,⟨92,.other,false,none⟩]⟩,⟨[4,8],some 1,[.setEnt .internalNl,.cb],[⟨256,.other,false,some ⟨32,[.setEnt .internalNl,.cb,.comment],some 1,false⟩⟩,⟨256,.ws,false,some ⟨33,[.setEnt .internalNl,.cb],some 1,false⟩⟩,⟨256,.lf,false,some ⟨45,[],some 1,false⟩⟩,⟨256,.vt,false,some ⟨32,[.setEnt .internalNl,.cb,.comment],some 1,false⟩⟩,⟨256,.ff,false,none⟩,⟨256,.cr,false,none⟩,⟨256,.cr,true,none⟩,⟨34,.other,false,some ⟨32,[.setEnt .internalNl,.cb,.comment],some 1,false⟩⟩,⟨39,.other,false,some ⟨32,[.setEnt .internalNl,.cb,.comment],some 1,false⟩⟩,⟨42,.other,false,some ⟨32,[.setEnt .internalNl,.cb,.comment],some 1,false⟩⟩,⟨47,.other,false,some ⟨32,[.setEnt .internalNl,.cb,.comment],some 1,false⟩⟩,⟨92,.other,false,some ⟨34,[.setEnt .internalNl,.cb,.comment],some 1,false⟩⟩]⟩,⟨[5],some 1,[.setEnt .internalNl,.cb],[⟨256,.other,false,some ⟨32,[.setEnt .internalNl,.cb,.comment],some 1,false⟩⟩,⟨256,.ws,false,some ⟨33,[.setEnt .internalNl,.cb],some 1,false⟩⟩,⟨256,.lf,false,none⟩,⟨256,.vt,false,some ⟨32,[.setEnt .internalNl,.cb,.comment],some 1,false⟩⟩,⟨256,.ff,false,none⟩,⟨256,.cr,false,none⟩,⟨256,.cr,true,none⟩,⟨34,.other,false,some ⟨32,[.setEnt .internalNl,.cb,.comment],some 1,false⟩⟩,⟨39,.other,false,some ⟨32,[.setEnt .internalNl,.cb,.comment],some 1,false⟩⟩,⟨42,.other,false,some ⟨32,[.setEnt .internalNl,.cb,.comment],some 1,false⟩⟩,⟨47,.other,false,some ⟨32,[.setEnt .internalNl,.cb,.comment],some 1,false⟩⟩,⟨92,.other,false,some ⟨34,[.setEnt .internalNl,.cb,.comment],some 1,false⟩⟩]⟩]
theorem c_line_lrowsOk : rowsOk c_line_nfa c_line_lex.rel (c_line_lcs.map (·.1)) c_line_lrows = true := by decide +kernel
def c_line_lfr : List CA.FRow := [⟨true,none,[],[⟨256,.other,false,false,none,some ([.setEnt (.own 8)],(some 4,true))⟩,⟨9,.ws,false,false,some 1,some ([.setEnt (.own 0)],(some 0,false))⟩,⟨10,.lf,false,true,none,some ([.setEnt .newline],(some 3,true))⟩,⟨11,.vt,false,false,none,none⟩,⟨12,.ff,false,true,none,some ([.setEnt .newline],(some 3,true))⟩,⟨13,.cr,false,false,some 2,some ([.setEnt .newline],(none,false))⟩,⟨13,.cr,true,true,some 3,some ([.setEnt .newline],(some 3,false))⟩,⟨34,.other,false,false,some 4,some ([.code,.setEnt (.own 8)],(some 4,false))⟩,⟨39,.other,false,false,some 5,some ([.code,.setEnt (.own 8)],(some 4,false))⟩,⟨42,.other,false,false,none,some ([.setEnt (.own 8)],(some 4,true))⟩,⟨47,.other,false,false,some 6,some ([.setEnt (.own 8)],(some 4,false))⟩,⟨92,.other,false,false,none,some ([.setEnt (.own 8)],(some 4,true))⟩]⟩,⟨false,some 0,[],[⟨256,.other,false,false,none,none⟩,⟨9,.ws,false,false,some 1,some ([.setEnt (.own 0)],(some 0,false))⟩,⟨10,.lf,false,true,none,none⟩,⟨11,.vt,false,false,none,none⟩,⟨12,.ff,false,true,none,none⟩,⟨13,.cr,false,false,none,none⟩,⟨13,.cr,true,true,none,none⟩,⟨34,.other,false,false,none,none⟩,⟨39,.other,false,false,none,none⟩,⟨42,.other,false,false,none,none⟩,⟨47,.other,false,false,none,none⟩,⟨92,.other,false,false,none,none⟩]⟩,⟨false,none,[],[⟨256,.other,false,false,none,none⟩,⟨9,.ws,false,false,none,none⟩,⟨10,.lf,false,true,none,some ([.setEnt .newline],(some 3,true))⟩,⟨11,.vt,false,false,none,none⟩,⟨12,.ff,false,true,none,none⟩,⟨13,.cr,false,false,none,none⟩,⟨13,.cr,true,true,none,none⟩,⟨34,.other,false,false,none,none⟩,⟨39,.other,false,false,none,none⟩,⟨42,.other,false,false,none,none⟩,⟨47,.other,false,false,none,none⟩,⟨92,.other,false,false,none,none⟩]⟩,⟨false,some 3,[],[⟨256,.other,false,false,none,none⟩,⟨9,.ws,false,false,none,none⟩,⟨10,.lf,false,true,none,some ([.setEnt .newline],(some 3,true))⟩,⟨11,.vt,false,false,none,none⟩,⟨12,.ff,false,true,none,none⟩,⟨13,.cr,false,false,none,none⟩,⟨13,.cr,true,true,none,none⟩,⟨34,.other,false,false,none,none⟩,⟨39,.other,false,false,none,none⟩,⟨42,.other,false,false,none,none⟩,⟨47,.other,false,false,none,none⟩,⟨92,.other,false,false,none,none⟩]⟩,⟨false,some 4,[],[⟨256,.other,false,false,some 7,some ([.code],(none,false))⟩,⟨9,.ws,false,false,some 8,some ([],(none,false))⟩,⟨10,.lf,false,true,some 7,some ([.code],(none,false))⟩,⟨11,.vt,false,false,some 7,some ([.code],(none,false))⟩,⟨12,.ff,false,true,some 7,some ([.code],(none,false))⟩,⟨13,.cr,false,false,some 7,some ([.code],(none,false))⟩,⟨13,.cr,true,true,some 7,some ([.code],(none,false))⟩,⟨34,.other,false,false,none,some ([],(some 2,true))⟩,⟨39,.other,false,false,some 7,some ([.code],(none,false))⟩,⟨42,.other,false,false,some 7,some ([.code],(none,false))⟩,⟨47,.other,false,false,some 7,some ([.code],(none,false))⟩,⟨92,.other,false,false,some 9,some ([],(none,false))⟩]⟩,⟨false,some 4,[],[⟨256,.other,false,false,some 10,some ([.code],(none,false))⟩,⟨9,.ws,false,false,some 11,some ([],(none,false))⟩,⟨10,.lf,false,true,some 10,some ([.code],(none,false))⟩,⟨11,.vt,false,false,some 10,some ([.code],(none,false))⟩,⟨12,.ff,false,true,some 10,some ([.code],(none,false))⟩,⟨13,.cr,false,false,some 10,some ([.code],(none,false))⟩,⟨13,.cr,true,true,some 10,some ([.code],(none,false))⟩,⟨34,.other,false,false,some 10,some ([.code],(none,false))⟩,⟨39,.other,false,false,none,some ([],(some 2,true))⟩,⟨42,.other,false,false,some 10,some ([.code],(none,false))⟩,⟨47,.other,false,false,some 10,some ([.code],(none,false))⟩,⟨92,.other,false,false,some 12,some ([],(none,false))⟩]⟩,⟨false,some 4,[],[⟨256,.other,false,false,none,none⟩,⟨9,.ws,false,false,none,none⟩,⟨10,.lf,false,true,none,none⟩,⟨11,.vt,false,false,none,none⟩,⟨12,.ff,false,true,none,none⟩,⟨13,.cr,false,false,none,none⟩,⟨13,.cr,true,true,none,none⟩,⟨34,.other,false,false,none,none⟩,⟨39,.other,false,false,none,none⟩,⟨42,.other,false,false,some 13,some ([.comment],(none,false))⟩,⟨47,.other,false,false,some 14,some ([.comment],(some 1,false))⟩,⟨92,.other,false,false,none,none⟩]⟩,⟨false,none,[],[⟨256,.other,false,false,some 7,some ([.code],(none,false))⟩,⟨9,.ws,false,false,some 8,some ([],(none,false))⟩,⟨10,.lf,false,true,some 7,some ([.code],(none,false))⟩,⟨11,.vt,false,false,some 7,some ([.code],(none,false))⟩,⟨12,.ff,false,true,some 7,some ([.code],(none,false))⟩,⟨13,.cr,false,false,some 7,some ([.code],(none,false))⟩,⟨13,.cr,true,true,some 7,some ([.code],(none,false))⟩,⟨34,.other,false,false,none,some ([],(some 2,true))⟩,⟨39,.other,false,false,some 7,some ([.code],(none,false))⟩,⟨42,.other,false,false,some 7,some ([.code],(none,false))⟩,⟨47,.other,false,false,some 7,some ([.code],(none,false))⟩,⟨92,.other,false,false,some 9,some ([],(none,false))⟩]⟩,⟨false,none,[],[⟨256,.other,false,false,some 7,some ([.code],(none,false))⟩,⟨9,.ws,false,false,some 8,some ([],(none,false))⟩,⟨10,.lf,false,true,some 7,some ([.code],(none,false))⟩,⟨11,.vt,false,false,some 7,some ([.code],(none,false))⟩,⟨12,.ff,false,true,some 7,some ([.code],(none,false))⟩,⟨13,.cr,false,false,some 7,some ([.code],(none,false))⟩,⟨13,.cr,true,true,some 7,some ([.code],(none,false))⟩,⟨34,.other,false,false,none,some ([],(some 2,true))⟩,⟨39,.other,false,false,some 7,some ([.code],(none,false))⟩,⟨42,.other,false,false,some 7,some ([.code],(none,false))⟩,⟨47,.other,false,false,some 7,some ([.code],(none,false))⟩,⟨92,.other,false,false,some 9,some ([],(none,false))⟩]⟩,⟨false,none,[],[⟨256,.other,false,false,some 15,some ([.code],(none,false))⟩,⟨9,.ws,false,false,some 15,some ([.code],(none,false))⟩,⟨10,.lf,false,true,some 16,some ([],(none,false))⟩,⟨11,.vt,false,false,some 15,some ([.code],(none,false))⟩,⟨12,.ff,false,true,some 17,some ([],(none,false))⟩,⟨13,.cr,false,false,some 18,some ([],(none,false))⟩,⟨13,.cr,true,true,some 19,some ([],(none,false))⟩,⟨34,.other,false,false,some 15,some ([.code],(none,false))⟩,⟨39,.other,false,false,some 15,some ([.code],(none,false))⟩,⟨42,.other,false,false,some 15,some ([.code],(none,false))⟩,⟨47,.other,false,false,some 15,some ([.code],(none,false))⟩,⟨92,.other,false,false,some 15,some ([.code],(none,false))⟩]⟩,⟨false,none,[],[⟨256,.other,false,false,some 10,some ([.code],(none,false))⟩,⟨9,.ws,false,false,some 11,some ([],(none,false))⟩,⟨10,.lf,false,true,some 10,some ([.code],(none,false))⟩,⟨11,.vt,false,false,some 10,some ([.code],(none,false))⟩,⟨12,.ff,false,true,some 10,some ([.code],(none,false))⟩,⟨13,.cr,false,false,some 10,some ([.code],(none,false))⟩,⟨13,.cr,true,true,some 10,some ([.code],(none,false))⟩,⟨34,.other,false,false,some 10,some ([.code],(none,false))⟩,⟨39,.other,false,false,none,some ([],(some 2,true))⟩,⟨42,.other,false,false,some 10,some ([.code],(none,false))⟩,⟨47,.other,false,false,some 10,some ([.code],(none,false))⟩,⟨92,.other,false,false,some 12,some ([],(none,false))⟩]⟩,⟨false,none,[],[⟨256,.other,false,false,some 10,some ([.code],(none,false))⟩,⟨9,.ws,false,false,some 11,some ([],(none,false))⟩,⟨10,.lf,false,true,some 10,some ([.code],(none,false))⟩,⟨11,.vt,false,false,some 10,some ([.code],(none,false))⟩,⟨12,.ff,false,true,some 10,some ([.code],(none,false))⟩,⟨13,.cr,false,false,some 10,some ([.code],(none,false))⟩,⟨13,.cr,true,true,some 10,some ([.code],(none,false))⟩,⟨34,.other,false,false,some 10,some ([.code],(none,false))⟩,⟨39,.other,false,false,none,some ([],(some 2,true))⟩,⟨42,.other,false,false,some 10,some ([.code],(none,false))⟩,⟨47,.other,false,false,some 10,some ([.code],(none,false))⟩,⟨92,.other,false,false,some 12,some ([],(none,false))⟩]⟩,⟨false,none,[],[⟨256,.other,false,false,some 20,some ([.code],(none,false))⟩,⟨9,.ws,false,false,some 20,some ([.code],(none,false))⟩,⟨10,.lf,false,true,some 21,some ([],(none,false))⟩,⟨11,.vt,false,false,some 20,some ([.code],(none,false))⟩,⟨12,.ff,false,true,some 22,some ([],(none,false))⟩,⟨13,.cr,false,false,some 23,some ([],(none,false))⟩,⟨13,.cr,true,true,some 24,some ([],(none,false))⟩,⟨34,.other,false,false,some 20,some ([.code],(none,false))⟩,⟨39,.other,false,false,some 20,some ([.code],(none,false))⟩,⟨42,.other,false,false,some 20,some ([.code],(none,false))⟩,⟨47,.other,false,false,some 20,some ([.code],(none,false))⟩,⟨92,.other,false,false,some 20,some ([.code],(none,false))⟩]⟩,⟨false,none,[],[⟨256,.other,false,false,some 25,some ([.comment],(none,false))⟩,⟨9,.ws,false,false,some 26,some ([],(none,false))⟩,⟨10,.lf,false,true,some 27,some ([],(none,false))⟩,⟨11,.vt,false,false,some 25,some ([.comment],(none,false))⟩,⟨12,.ff,false,true,some 28,some ([],(none,false))⟩,⟨13,.cr,false,false,some 29,some ([],(none,false))⟩,⟨13,.cr,true,true,some 30,some ([],(none,false))⟩,⟨34,.other,false,false,some 25,some ([.comment],(none,false))⟩,⟨39,.other,false,false,some 25,some ([.comment],(none,false))⟩,⟨42,.other,false,false,some 31,some ([.comment],(none,false))⟩,⟨47,.other,false,false,some 25,some ([.comment],(none,false))⟩,⟨92,.other,false,false,some 25,some ([.comment],(none,false))⟩]⟩,⟨false,some 1,[],[⟨256,.other,false,false,some 32,some ([.comment],(some 1,false))⟩,⟨9,.ws,false,false,some 33,some ([],(some 1,false))⟩,⟨10,.lf,false,true,none,none⟩,⟨11,.vt,false,false,some 32,some ([.comment],(some 1,false))⟩,⟨12,.ff,false,true,none,none⟩,⟨13,.cr,false,false,none,none⟩,⟨13,.cr,true,true,none,none⟩,⟨34,.other,false,false,some 32,some ([.comment],(some 1,false))⟩,⟨39,.other,false,false,some 32,some ([.comment],(some 1,false))⟩,⟨42,.other,false,false,some 32,some ([.comment],(some 1,false))⟩,⟨47,.other,false,false,some 32,some ([.comment],(some 1,false))⟩,⟨92,.other,false,false,some 34,some ([.comment],(some 1,false))⟩]⟩,⟨false,none,[],[⟨256,.other,false,false,some 7,some ([.code],(none,false))⟩,⟨9,.ws,false,false,some 8,some ([],(none,false))⟩,⟨10,.lf,false,true,some 7,some ([.code],(none,false))⟩,⟨11,.vt,false,false,some 7,some ([.code],(none,false))⟩,⟨12,.ff,false,true,some 7,some ([.code],(none,false))⟩,⟨13,.cr,false,false,some 7,some ([.code],(none,false))⟩,⟨13,.cr,true,true,some 7,some ([.code],(none,false))⟩,⟨34,.other,false,false,none,some ([],(some 2,true))⟩,⟨39,.other,false,false,some 7,some ([.code],(none,false))⟩,⟨42,.other,false,false,some 7,some ([.code],(none,false))⟩,⟨47,.other,false,false,some 7,some ([.code],(none,false))⟩,⟨92,.other,false,false,some 9,some ([],(none,false))⟩]⟩,⟨false,none,[],[⟨256,.other,false,false,some 7,some ([.setEnt .internalNl,.cb,.code],(none,false))⟩,⟨9,.ws,false,false,some 8,some ([.setEnt .internalNl,.cb],(none,false))⟩,⟨10,.lf,false,true,some 7,some ([.setEnt .internalNl,.cb,.code],(none,false))⟩,⟨11,.vt,false,false,some 7,some ([.setEnt .internalNl,.cb,.code],(none,false))⟩,⟨12,.ff,false,true,some 7,some ([.setEnt .internalNl,.cb,.code],(none,false))⟩,⟨13,.cr,false,false,some 7,some ([.setEnt .internalNl,.cb,.code],(none,false))⟩,⟨13,.cr,true,true,some 7,some ([.setEnt .internalNl,.cb,.code],(none,false))⟩,⟨34,.other,false,false,none,some ([.setEnt .internalNl,.cb],(some 2,true))⟩,⟨39,.other,false,false,some 7,some ([.setEnt .internalNl,.cb,.code],(none,false))⟩,⟨42,.other,false,false,some 7,some ([.setEnt .internalNl,.cb,.code],(none,false))⟩,⟨47,.other,false,false,some 7,some ([.setEnt .internalNl,.cb,.code],(none,false))⟩,⟨92,.other,false,false,some 9,some ([.setEnt .internalNl,.cb],(none,false))⟩]⟩,⟨false,none,[],[⟨256,.other,false,false,some 7,some ([.setEnt .internalNl,.cb,.code],(none,false))⟩,⟨9,.ws,false,false,some 8,some ([.setEnt .internalNl,.cb],(none,false))⟩,⟨10,.lf,false,true,some 7,some ([.setEnt .internalNl,.cb,.code],(none,false))⟩,⟨11,.vt,false,false,some 7,some ([.setEnt .internalNl,.cb,.code],(none,false))⟩,⟨12,.ff,false,true,some 7,some ([.setEnt .internalNl,.cb,.code],(none,false))⟩,⟨13,.cr,false,false,some 7,some ([.setEnt .internalNl,.cb,.code],(none,false))⟩,⟨13,.cr,true,true,some 7,some ([.setEnt .internalNl,.cb,.code],(none,false))⟩,⟨34,.other,false,false,none,some ([.setEnt .internalNl,.cb],(some 2,true))⟩,⟨39,.other,false,false,some 7,some ([.setEnt .internalNl,.cb,.code],(none,false))⟩,⟨42,.other,false,false,some 7,some ([.setEnt .internalNl,.cb,.code],(none,false))⟩,⟨47,.other,false,false,some 7,some ([.setEnt .internalNl,.cb,.code],(none,false))⟩,⟨92,.other,false,false,some 9,some ([.setEnt .internalNl,.cb],(none,false))⟩]⟩,⟨false,none,[],[⟨256,.other,false,false,none,none⟩,⟨9,.ws,false,false,none,none⟩,⟨10,.lf,false,true,some 35,some ([],(none,false))⟩,⟨11,.vt,false,false,none,none⟩,⟨12,.ff,false,true,none,none⟩,⟨13,.cr,false,false,none,none⟩,⟨13,.cr,true,true,none,none⟩,⟨34,.other,false,false,none,none⟩,⟨39,.other,false,false,none,none⟩,⟨42,.other,false,false,none,none⟩,⟨47,.other,false,false,none,none⟩,⟨92,.other,false,false,none,none⟩]⟩,⟨false,none,[],[⟨256,.other,false,false,some 7,some ([.setEnt .internalNl,.cb,.code],(none,false))⟩,⟨9,.ws,false,false,some 8,some ([.setEnt .internalNl,.cb],(none,false))⟩,⟨10,.lf,false,true,some 36,some ([.setEnt .internalNl,.cb,.code],(none,false))⟩,⟨11,.vt,false,false,some 7,some ([.setEnt .internalNl,.cb,.code],(none,false))⟩,⟨12,.ff,false,true,some 7,some ([.setEnt .internalNl,.cb,.code],(none,false))⟩,⟨13,.cr,false,false,some 7,some ([.setEnt .internalNl,.cb,.code],(none,false))⟩,⟨13,.cr,true,true,some 7,some ([.setEnt .internalNl,.cb,.code],(none,false))⟩,⟨34,.other,false,false,none,some ([.setEnt .internalNl,.cb],(some 2,true))⟩,⟨39,.other,false,false,some 7,some ([.setEnt .internalNl,.cb,.code],(none,false))⟩,⟨42,.other,false,false,some 7,some ([.setEnt .internalNl,.cb,.code],(none,false))⟩,⟨47,.other,false,false,some 7,some ([.setEnt .internalNl,.cb,.code],(none,false))⟩,⟨92,.other,false,false,some 9,some ([.setEnt .internalNl,.cb],(none,false))⟩]⟩,⟨false,none,[],[⟨256,.other,false,false,some 10,some ([.code],(none,false))⟩,⟨9,.ws,false,false,some 11,some ([],(none,false))⟩,⟨10,.lf,false,true,some 10,some ([.code],(none,false))⟩,⟨11,.vt,false,false,some 10,some ([.code],(none,false))⟩,⟨12,.ff,false,true,some 10,some ([.code],(none,false))⟩,⟨13,.cr,false,false,some 10,some ([.code],(none,false))⟩,⟨13,.cr,true,true,some 10,some ([.code],(none,false))⟩,⟨34,.other,false,false,some 10,some ([.code],(none,false))⟩,⟨39,.other,false,false,none,some ([],(some 2,true))⟩,⟨42,.other,false,false,some 10,some ([.code],(none,false))⟩,⟨47,.other,false,false,some 10,some ([.code],(none,false))⟩,⟨92,.other,false,false,some 12,some ([],(none,false))⟩]⟩,⟨false,none,[],[⟨256,.other,false,false,some 10,some ([.setEnt .internalNl,.cb,.code],(none,false))⟩,⟨9,.ws,false,false,some 11,some ([.setEnt .internalNl,.cb],(none,false))⟩,⟨10,.lf,false,true,some 10,some ([.setEnt .internalNl,.cb,.code],(none,false))⟩,⟨11,.vt,false,false,some 10,some ([.setEnt .internalNl,.cb,.code],(none,false))⟩,⟨12,.ff,false,true,some 10,some ([.setEnt .internalNl,.cb,.code],(none,false))⟩,⟨13,.cr,false,false,some 10,some ([.setEnt .internalNl,.cb,.code],(none,false))⟩,⟨13,.cr,true,true,some 10,some ([.setEnt .internalNl,.cb,.code],(none,false))⟩,⟨34,.other,false,false,some 10,some ([.setEnt .internalNl,.cb,.code],(none,false))⟩,⟨39,.other,false,false,none,some ([.setEnt .internalNl,.cb],(some 2,true))⟩,⟨42,.other,false,false,some 10,some ([.setEnt .internalNl,.cb,.code],(none,false))⟩,⟨47,.other,false,false,some 10,some ([.setEnt .internalNl,.cb,.code],(none,false))⟩,⟨92,.other,false,false,some 12,some ([.setEnt .internalNl,.cb],(none,false))⟩]⟩,⟨false,none,[],[⟨256,.other,false,false,some 10,some ([.setEnt .internalNl,.cb,.code],(none,false))⟩,⟨9,.ws,false,false,some 11,some ([.setEnt .internalNl,.cb],(none,false))⟩,⟨10,.lf,false,true,some 10,some ([.setEnt .internalNl,.cb,.code],(none,false))⟩,⟨11,.vt,false,false,some 10,some ([.setEnt .internalNl,.cb,.code],(none,false))⟩,⟨12,.ff,false,true,some 10,some ([.setEnt .internalNl,.cb,.code],(none,false))⟩,⟨13,.cr,false,false,some 10,some ([.setEnt .internalNl,.cb,.code],(none,false))⟩,⟨13,.cr,true,true,some 10,some ([.setEnt .internalNl,.cb,.code],(none,false))⟩,⟨34,.other,false,false,some 10,some ([.setEnt .internalNl,.cb,.code],(none,false))⟩,⟨39,.other,false,false,none,some ([.setEnt .internalNl,.cb],(some 2,true))⟩,⟨42,.other,false,false,some 10,some ([.setEnt .internalNl,.cb,.code],(none,false))⟩,⟨47,.other,false,false,some 10,some ([.setEnt .internalNl,.cb,.code],(none,false))⟩,⟨92,.other,false,false,some 12,some ([.setEnt .internalNl,.cb],(none,false))⟩]⟩,⟨false,none,[],[⟨256,.other,false,false,none,none⟩,⟨9,.ws,false,false,none,none⟩,⟨10,.lf,false,true,some 37,some ([],(none,false))⟩,⟨11,.vt,false,false,none,none⟩,⟨12,.ff,false,true,none,none⟩,⟨13,.cr,false,false,none,none⟩,⟨13,.cr,true,true,none,none⟩,⟨34,.other,false,false,none,none⟩,⟨39,.other,false,false,none,none⟩,⟨42,.other,false,false,none,none⟩,⟨47,.other,false,false,none,none⟩,⟨92,.other,false,false,none,none⟩]⟩,⟨false,none,[],[⟨256,.other,false,false,some 10,some ([.setEnt .internalNl,.cb,.code],(none,false))⟩,⟨9,.ws,false,false,some 11,some ([.setEnt .internalNl,.cb],(none,false))⟩,⟨10,.lf,false,true,some 38,some ([.setEnt .internalNl,.cb,.code],(none,false))⟩,⟨11,.vt,false,false,some 10,some ([.setEnt .internalNl,.cb,.code],(none,false))⟩,⟨12,.ff,false,true,some 10,some ([.setEnt .internalNl,.cb,.code],(none,false))⟩,⟨13,.cr,false,false,some 10,some ([.setEnt .internalNl,.cb,.code],(none,false))⟩,⟨13,.cr,true,true,some 10,some ([.setEnt .internalNl,.cb,.code],(none,false))⟩,⟨34,.other,false,false,some 10,some ([.setEnt .internalNl,.cb,.code],(none,false))⟩,⟨39,.other,false,false,none,some ([.setEnt .internalNl,.cb],(some 2,true))⟩,⟨42,.other,false,false,some 10,some ([.setEnt .internalNl,.cb,.code],(none,false))⟩,⟨47,.other,false,false,some 10,some ([.setEnt .internalNl,.cb,.code],(none,false))⟩,⟨92,.other,false,false,some 12,some ([.setEnt .internalNl,.cb],(none,false))⟩]⟩,⟨false,none,[],[⟨256,.other,false,false,some 25,some ([.comment],(none,false))⟩,⟨9,.ws,false,false,some 26,some ([],(none,false))⟩,⟨10,.lf,false,true,some 27,some ([],(none,false))⟩,⟨11,.vt,false,false,some 25,some ([.comment],(none,false))⟩,⟨12,.ff,false,true,some 28,some ([],(none,false))⟩,⟨13,.cr,false,false,some 29,some ([],(none,false))⟩,⟨13,.cr,true,true,some 30,some ([],(none,false))⟩,⟨34,.other,false,false,some 25,some ([.comment],(none,false))⟩,⟨39,.other,false,false,some 25,some ([.comment],(none,false))⟩,⟨42,.other,false,false,some 31,some ([.comment],(none,false))⟩,⟨47,.other,false,false,some 25,some ([.comment],(none,false))⟩,⟨92,.other,false,false,some 25,some ([.comment],(none,false))⟩]⟩,⟨false,none,[],[⟨256,.other,false,false,some 25,some ([.comment],(none,false))⟩,⟨9,.ws,false,false,some 26,some ([],(none,false))⟩,⟨10,.lf,false,true,some 27,some ([],(none,false))⟩,⟨11,.vt,false,false,some 25,some ([.comment],(none,false))⟩,⟨12,.ff,false,true,some 28,some ([],(none,false))⟩,⟨13,.cr,false,false,some 29,some ([],(none,false))⟩,⟨13,.cr,true,true,some 30,some ([],(none,false))⟩,⟨34,.other,false,false,some 25,some ([.comment],(none,false))⟩,⟨39,.other,false,false,some 25,some ([.comment],(none,false))⟩,⟨42,.other,false,false,some 31,some ([.comment],(none,false))⟩,⟨47,.other,false,false,some 25,some ([.comment],(none,false))⟩,⟨92,.other,false,false,some 25,some ([.comment],(none,false))⟩]⟩,⟨false,none,[],[⟨256,.other,false,false,some 25,some ([.setEnt .internalNl,.cb,.comment],(none,false))⟩,⟨9,.ws,false,false,some 26,some ([.setEnt .internalNl,.cb],(none,false))⟩,⟨10,.lf,false,true,some 27,some ([.setEnt .internalNl,.cb],(none,false))⟩,⟨11,.vt,false,false,some 25,some ([.setEnt .internalNl,.cb,.comment],(none,false))⟩,⟨12,.ff,false,true,some 28,some ([.setEnt .internalNl,.cb],(none,false))⟩,⟨13,.cr,false,false,some 29,some ([.setEnt .internalNl,.cb],(none,false))⟩,⟨13,.cr,true,true,some 30,some ([.setEnt .internalNl,.cb],(none,false))⟩,⟨34,.other,false,false,some 25,some ([.setEnt .internalNl,.cb,.comment],(none,false))⟩,⟨39,.other,false,false,some 25,some ([.setEnt .internalNl,.cb,.comment],(none,false))⟩,⟨42,.other,false,false,some 31,some ([.setEnt .internalNl,.cb,.comment],(none,false))⟩,⟨47,.other,false,false,some 25,some ([.setEnt .internalNl,.cb,.comment],(none,false))⟩,⟨92,.other,false,false,some 25,some ([.setEnt .internalNl,.cb,.comment],(none,false))⟩]⟩,⟨false,none,[],[⟨256,.other,false,false,some 25,some ([.setEnt .internalNl,.cb,.comment],(none,false))⟩,⟨9,.ws,false,false,some 26,some ([.setEnt .internalNl,.cb],(none,false))⟩,⟨10,.lf,false,true,some 27,some ([.setEnt .internalNl,.cb],(none,false))⟩,⟨11,.vt,false,false,some 25,some ([.setEnt .internalNl,.cb,.comment],(none,false))⟩,⟨12,.ff,false,true,some 28,some ([.setEnt .internalNl,.cb],(none,false))⟩,⟨13,.cr,false,false,some 29,some ([.setEnt .internalNl,.cb],(none,false))⟩,⟨13,.cr,true,true,some 30,some ([.setEnt .internalNl,.cb],(none,false))⟩,⟨34,.other,false,false,some 25,some ([.setEnt .internalNl,.cb,.comment],(none,false))⟩,⟨39,.other,false,false,some 25,some ([.setEnt .internalNl,.cb,.comment],(none,false))⟩,⟨42,.other,false,false,some 31,some ([.setEnt .internalNl,.cb,.comment],(none,false))⟩,⟨47,.other,false,false,some 25,some ([.setEnt .internalNl,.cb,.comment],(none,false))⟩,⟨92,.other,false,false,some 25,some ([.setEnt .internalNl,.cb,.comment],(none,false))⟩]⟩,⟨false,none,[],[⟨256,.other,false,false,none,none⟩,⟨9,.ws,false,false,none,none⟩,⟨10,.lf,false,true,some 39,some ([],(none,false))⟩,⟨11,.vt,false,false,none,none⟩,⟨12,.ff,false,true,none,none⟩,⟨13,.cr,false,false,none,none⟩,⟨13,.cr,true,true,none,none⟩,⟨34,.other,false,false,none,none⟩,⟨39,.other,false,false,none,none⟩,⟨42,.other,false,false,none,none⟩,⟨47,.other,false,false,none,none⟩,⟨92,.other,false,false,none,none⟩]⟩,⟨false,none,[],[⟨256,.other,false,false,some 25,some ([.setEnt .internalNl,.cb,.comment],(none,false))⟩,⟨9,.ws,false,false,some 26,some ([.setEnt .internalNl,.cb],(none,false))⟩,⟨10,.lf,false,true,some 40,some ([.setEnt .internalNl,.cb],(none,false))⟩,⟨11,.vt,false,false,some 25,some ([.setEnt .internalNl,.cb,.comment],(none,false))⟩,⟨12,.ff,false,true,some 28,some ([.setEnt .internalNl,.cb],(none,false))⟩,⟨13,.cr,false,false,some 29,some ([.setEnt .internalNl,.cb],(none,false))⟩,⟨13,.cr,true,true,some 30,some ([.setEnt .internalNl,.cb],(none,false))⟩,⟨34,.other,false,false,some 25,some ([.setEnt .internalNl,.cb,.comment],(none,false))⟩,⟨39,.other,false,false,some 25,some ([.setEnt .internalNl,.cb,.comment],(none,false))⟩,⟨42,.other,false,false,some 31,some ([.setEnt .internalNl,.cb,.comment],(none,false))⟩,⟨47,.other,false,false,some 25,some ([.setEnt .internalNl,.cb,.comment],(none,false))⟩,⟨92,.other,false,false,some 25,some ([.setEnt .internalNl,.cb,.comment],(none,false))⟩]⟩,⟨false,none,[],[⟨256,.other,false,false,some 25,some ([.comment],(none,false))⟩,⟨9,.ws,false,false,some 26,some ([],(none,false))⟩,⟨10,.lf,false,true,some 27,some ([],(none,false))⟩,⟨11,.vt,false,false,some 25,some ([.comment],(none,false))⟩,⟨12,.ff,false,true,some 28,some ([],(none,false))⟩,⟨13,.cr,false,false,some 29,some ([],(none,false))⟩,⟨13,.cr,true,true,some 30,some ([],(none,false))⟩,⟨34,.other,false,false,some 25,some ([.comment],(none,false))⟩,⟨39,.other,false,false,some 25,some ([.comment],(none,false))⟩,⟨42,.other,false,false,some 31,some ([.comment],(none,false))⟩,⟨47,.other,false,false,none,some ([],(some 1,true))⟩,⟨92,.other,false,false,some 25,some ([.comment],(none,false))⟩]⟩,⟨false,some 1,[],[⟨256,.other,false,false,some 32,some ([.comment],(some 1,false))⟩,⟨9,.ws,false,false,some 33,some ([],(some 1,false))⟩,⟨10,.lf,false,true,none,none⟩,⟨11,.vt,false,false,some 32,some ([.comment],(some 1,false))⟩,⟨12,.ff,false,true,none,none⟩,⟨13,.cr,false,false,none,none⟩,⟨13,.cr,true,true,none,none⟩,⟨34,.other,false,false,some 32,some ([.comment],(some 1,false))⟩,⟨39,.other,false,false,some 32,some ([.comment],(some 1,false))⟩,⟨42,.other,false,false,some 32,some ([.comment],(some 1,false))⟩,⟨47,.other,false,false,some 32,some ([.comment],(some 1,false))⟩,⟨92,.other,false,false,some 34,some ([.comment],(some 1,false))⟩]⟩,⟨false,some 1,[],[⟨256,.other,false,false,some 32,some ([.comment],(some 1,false))⟩,⟨9,.ws,false,false,some 33,some ([],(some 1,false))⟩,⟨10,.lf,false,true,none,none⟩,⟨11,.vt,false,false,some 32,some ([.comment],(some 1,false))⟩,⟨12,.ff,false,true,none,none⟩,⟨13,.cr,false,false,none,none⟩,⟨13,.cr,true,true,none,none⟩,⟨34,.other,false,false,some 32,some ([.comment],(some 1,false))⟩,⟨39,.other,false,false,some 32,some ([.comment],(some 1,false))⟩,⟨42,.other,false,false,some 32,some ([.comment],(some 1,false))⟩,⟨47,.other,false,false,some 32,some ([.comment],(some 1,false))⟩,⟨92,.other,false,false,some 34,some ([.comment],(some 1,false))⟩]⟩,⟨false,some 1,[],[⟨256,.other,false,false,some 32,some ([.comment],(some 1,false))⟩,⟨9,.ws,false,false,some 33,some ([],(some 1,false))⟩,⟨10,.lf,false,true,some 41,some ([],(some 1,false))⟩,⟨11,.vt,false,false,some 32,some ([.comment],(some 1,false))⟩,⟨12,.ff,false,true,some 42,some ([],(some 1,false))⟩,⟨13,.cr,false,false,some 43,some ([],(none,false))⟩,⟨13,.cr,true,true,some 44,some ([],(some 1,false))⟩,⟨34,.other,false,false,some 32,some ([.comment],(some 1,false))⟩,⟨39,.other,false,false,some 32,some ([.comment],(some 1,false))⟩,⟨42,.other,false,false,some 32,some ([.comment],(some 1,false))⟩,⟨47,.other,false,false,some 32,some ([.comment],(some 1,false))⟩,⟨92,.other,false,false,some 34,some ([.comment],(some 1,false))⟩]⟩,⟨false,none,[],[⟨256,.other,false,false,some 7,some ([.setEnt .internalNl,.cb,.code],(none,false))⟩,⟨9,.ws,false,false,some 8,some ([.setEnt .internalNl,.cb],(none,false))⟩,⟨10,.lf,false,true,some 7,some ([.setEnt .internalNl,.cb,.code],(none,false))⟩,⟨11,.vt,false,false,some 7,some ([.setEnt .internalNl,.cb,.code],(none,false))⟩,⟨12,.ff,false,true,some 7,some ([.setEnt .internalNl,.cb,.code],(none,false))⟩,⟨13,.cr,false,false,some 7,some ([.setEnt .internalNl,.cb,.code],(none,false))⟩,⟨13,.cr,true,true,some 7,some ([.setEnt .internalNl,.cb,.code],(none,false))⟩,⟨34,.other,false,false,none,some ([.setEnt .internalNl,.cb],(some 2,true))⟩,⟨39,.other,false,false,some 7,some ([.setEnt .internalNl,.cb,.code],(none,false))⟩,⟨42,.other,false,false,some 7,some ([.setEnt .internalNl,.cb,.code],(none,false))⟩,⟨47,.other,false,false,some 7,some ([.setEnt .internalNl,.cb,.code],(none,false))⟩,⟨92,.other,false,false,some 9,some ([.setEnt .internalNl,.cb],(none,false))⟩]⟩,⟨false,none,[],[⟨256,.other,false,false,some 7,some ([.setEnt .internalNl,.cb,.code],(none,false))⟩,⟨9,.ws,false,false,some 8,some ([.setEnt .internalNl,.cb],(none,false))⟩,⟨10,.lf,false,true,some 7,some ([.setEnt .internalNl,.cb,.code],(none,false))⟩,⟨11,.vt,false,false,some 7,some ([.setEnt .internalNl,.cb,.code],(none,false))⟩,⟨12,.ff,false,true,some 7,some ([.setEnt .internalNl,.cb,.code],(none,false))⟩,⟨13,.cr,false,false,some 7,some ([.setEnt .internalNl,.cb,.code],(none,false))⟩,⟨13,.cr,true,true,some 7,some ([.setEnt .internalNl,.cb,.code],(none,false))⟩,⟨34,.other,false,false,none,some ([.setEnt .internalNl,.cb],(some 2,true))⟩,⟨39,.other,false,false,some 7,some ([.setEnt .internalNl,.cb,.code],(none,false))⟩,⟨42,.other,false,false,some 7,some ([.setEnt .internalNl,.cb,.code],(none,false))⟩,⟨47,.other,false,false,some 7,some ([.setEnt .internalNl,.cb,.code],(none,false))⟩,⟨92,.other,false,false,some 9,some ([.setEnt .internalNl,.cb],(none,false))⟩]⟩,⟨false,none,[],[⟨256,.other,false,false,some 10,some ([.setEnt .internalNl,.cb,.code],(none,false))⟩,⟨9,.ws,false,false,some 11,some ([.setEnt .internalNl,.cb],(none,false))⟩,⟨10,.lf,false,true,some 10,some ([.setEnt .internalNl,.cb,.code],(none,false))⟩,⟨11,.vt,false,false,some 10,some ([.setEnt .internalNl,.cb,.code],(none,false))⟩,⟨12,.ff,false,true,some 10,some ([.setEnt .internalNl,.cb,.code],(none,false))⟩,⟨13,.cr,false,false,some 10,some ([.setEnt .internalNl,.cb,.code],(none,false))⟩,⟨13,.cr,true,true,some 10,some ([.setEnt .internalNl,.cb,.code],(none,false))⟩,⟨34,.other,false,false,some 10,some ([.setEnt .internalNl,.cb,.code],(none,false))⟩,⟨39,.other,false,false,none,some ([.setEnt .internalNl,.cb],(some 2,true))⟩,⟨42,.other,false,false,some 10,some ([.setEnt .internalNl,.cb,.code],(none,false))⟩,⟨47,.other,false,false,some 10,some ([.setEnt .internalNl,.cb,.code],(none,false))⟩,⟨92,.other,false,false,some 12,some ([.setEnt .internalNl,.cb],(none,false))⟩]⟩,⟨false,none,[],[⟨256,.other,false,false,some 10,some ([.setEnt .internalNl,.cb,.code],(none,false))⟩,⟨9,.ws,false,false,some 11,some ([.setEnt .internalNl,.cb],(none,false))⟩,⟨10,.lf,false,true,some 10,some ([.setEnt .internalNl,.cb,.code],(none,false))⟩,⟨11,.vt,false,false,some 10,some ([.setEnt .internalNl,.cb,.code],(none,false))⟩,⟨12,.ff,false,true,some 10,some ([.setEnt .internalNl,.cb,.code],(none,false))⟩,⟨13,.cr,false,false,some 10,some ([.setEnt .internalNl,.cb,.code],(none,false))⟩,⟨13,.cr,true,true,some 10,some ([.setEnt .internalNl,.cb,.code],(none,false))⟩,⟨34,.other,false,false,some 10,some ([.setEnt .internalNl,.cb,.code],(none,false))⟩,⟨39,.other,false,false,none,some ([.setEnt .internalNl,.cb],(some 2,true))⟩,⟨42,.other,false,false,some 10,some ([.setEnt .internalNl,.cb,.code],(none,false))⟩,⟨47,.other,false,false,some 10,some ([.setEnt .internalNl,.cb,.code],(none,false))⟩,⟨92,.other,false,false,some 12,some ([.setEnt .internalNl,.cb],(none,false))⟩]⟩,⟨false,none,[],[⟨256,.other,false,false,some 25,some ([.setEnt .internalNl,.cb,.comment],(none,false))⟩,⟨9,.ws,false,false,some 26,some ([.setEnt .internalNl,.cb],(none,false))⟩,⟨10,.lf,false,true,some 27,some ([.setEnt .internalNl,.cb],(none,false))⟩,⟨11,.vt,false,false,some 25,some ([.setEnt .internalNl,.cb,.comment],(none,false))⟩,⟨12,.ff,false,true,some 28,some ([.setEnt .internalNl,.cb],(none,false))⟩,⟨13,.cr,false,false,some 29,some ([.setEnt .internalNl,.cb],(none,false))⟩,⟨13,.cr,true,true,some 30,some ([.setEnt .internalNl,.cb],(none,false))⟩,⟨34,.other,false,false,some 25,some ([.setEnt .internalNl,.cb,.comment],(none,false))⟩,⟨39,.other,false,false,some 25,some ([.setEnt .internalNl,.cb,.comment],(none,false))⟩,⟨42,.other,false,false,some 31,some ([.setEnt .internalNl,.cb,.comment],(none,false))⟩,⟨47,.other,false,false,some 25,some ([.setEnt .internalNl,.cb,.comment],(none,false))⟩,⟨92,.other,false,false,some 25,some ([.setEnt .internalNl,.cb,.comment],(none,false))⟩]⟩,⟨false,none,[],[⟨256,.other,false,false,some 25,some ([.setEnt .internalNl,.cb,.comment],(none,false))⟩,⟨9,.ws,false,false,some 26,some ([.setEnt .internalNl,.cb],(none,false))⟩,⟨10,.lf,false,true,some 27,some ([.setEnt .internalNl,.cb],(none,false))⟩,⟨11,.vt,false,false,some 25,some ([.setEnt .internalNl,.cb,.comment],(none,false))⟩,⟨12,.ff,false,true,some 28,some ([.setEnt .internalNl,.cb],(none,false))⟩,⟨13,.cr,false,false,some 29,some ([.setEnt .internalNl,.cb],(none,false))⟩,⟨13,.cr,true,true,some 30,some ([.setEnt .internalNl,.cb],(none,false))⟩,⟨34,.other,false,false,some 25,some ([.setEnt .internalNl,.cb,.comment],(none,false))⟩,⟨39,.other,false,false,some 25,some ([.setEnt .internalNl,.cb,.comment],(none,false))⟩,⟨42,.other,false,false,some 31,some ([.setEnt .internalNl,.cb,.comment],(none,false))⟩,⟨47,.other,false,false,some 25,some ([.setEnt .internalNl,.cb,.comment],(none,false))⟩,⟨92,.other,false,false,some 25,some ([.setEnt .internalNl,.cb,.comment],(none,false))⟩]⟩,⟨false,some 1,[.setEnt .internalNl,.cb],[⟨256,.other,false,false,some 32,some ([.setEnt .internalNl,.cb,.comment],(some 1,false))⟩,⟨9,.ws,false,false,some 33,some ([.setEnt .internalNl,.cb],(some 1,false))⟩,⟨10,.lf,false,true,none,none⟩,⟨11,.vt,false,false,some 32,some ([.setEnt .internalNl,.cb,.comment],(some 1,false))⟩,⟨12,.ff,false,true,none,none⟩,⟨13,.cr,false,false,none,none⟩,⟨13,.cr,true,true,none,none⟩,⟨34,.other,false,false,some 32,some ([.setEnt .internalNl,.cb,.comment],(some 1,false))⟩,⟨39,.other,false,false,some 32,some ([.setEnt .internalNl,.cb,.comment],(some 1,false))⟩,⟨42,.other,false,false,some 32,some ([.setEnt .internalNl,.cb,.comment],(some 1,false))⟩,⟨47,.other,false,false,some 32,some ([.setEnt .internalNl,.cb,.comment],(some 1,false))⟩,⟨92,.other,false,false,some 34,some ([.setEnt .internalNl,.cb,.comment],(some 1,false))⟩]⟩,⟨false,some 1,[.setEnt .internalNl,.cb],[⟨256,.other,false,false,some 32,some ([.setEnt .internalNl,.cb,.comment],(some 1,false))⟩,⟨9,.ws,false,false,some 33,some ([.setEnt .internalNl,.cb],(some 1,false))⟩,⟨10,.lf,false,true,none,none⟩,⟨11,.vt,false,false,some 32,some ([.setEnt .internalNl,.cb,.comment],(some 1,false))⟩,⟨12,.ff,false,true,none,none⟩,⟨13,.cr,false,false,none,none⟩,⟨13,.cr,true,true,none,none⟩,⟨34,.other,false,false,some 32,some ([.setEnt .internalNl,.cb,.comment],(some 1,false))⟩,⟨39,.other,false,false,some 32,some ([.setEnt .internalNl,.cb,.comment],(some 1,false))⟩,⟨42,.other,false,false,some 32,some ([.setEnt .internalNl,.cb,.comment],(some 1,false))⟩,⟨47,.other,false,false,some 32,some ([.setEnt .internalNl,.cb,.comment],(some 1,false))⟩,⟨92,.other,false,false,some 34,some ([.setEnt .internalNl,.cb,.comment],(some 1,false))⟩]⟩,⟨false,none,[],[⟨256,.other,false,false,none,none⟩,⟨9,.ws,false,false,none,none⟩,⟨10,.lf,false,true,some 45,some ([],(some 1,false))⟩,⟨11,.vt,false,false,none,none⟩,⟨12,.ff,false,true,none,none⟩,⟨13,.cr,false,false,none,none⟩,⟨13,.cr,true,true,none,none⟩,⟨34,.other,false,false,none,none⟩,⟨39,.other,false,false,none,none⟩,⟨42,.other,false,false,none,none⟩,⟨47,.other,false,false,none,none⟩,⟨92,.other,false,false,none,none⟩]⟩,⟨false,some 1,[.setEnt .internalNl,.cb],[⟨256,.other,false,false,some 32,some ([.setEnt .internalNl,.cb,.comment],(some 1,false))⟩,⟨9,.ws,false,false,some 33,some ([.setEnt .internalNl,.cb],(some 1,false))⟩,⟨10,.lf,false,true,some 45,some ([],(some 1,false))⟩,⟨11,.vt,false,false,some 32,some ([.setEnt .internalNl,.cb,.comment],(some 1,false))⟩,⟨12,.ff,false,true,none,none⟩,⟨13,.cr,false,false,none,none⟩,⟨13,.cr,true,true,none,none⟩,⟨34,.other,false,false,some 32,some ([.setEnt .internalNl,.cb,.comment],(some 1,false))⟩,⟨39,.other,false,false,some 32,some ([.setEnt .internalNl,.cb,.comment],(some 1,false))⟩,⟨42,.other,false,false,some 32,some ([.setEnt .internalNl,.cb,.comment],(some 1,false))⟩,⟨47,.other,false,false,some 32,some ([.setEnt .internalNl,.cb,.comment],(some 1,false))⟩,⟨92,.other,false,false,some 34,some ([.setEnt .internalNl,.cb,.comment],(some 1,false))⟩]⟩,⟨false,some 1,[.setEnt .internalNl,.cb],[⟨256,.other,false,false,some 32,some ([.setEnt .internalNl,.cb,.comment],(some 1,false))⟩,⟨9,.ws,false,false,some 33,some ([.setEnt .internalNl,.cb],(some 1,false))⟩,⟨10,.lf,false,true,none,none⟩,⟨11,.vt,false,false,some 32,some ([.setEnt .internalNl,.cb,.comment],(some 1,false))⟩,⟨12,.ff,false,true,none,none⟩,⟨13,.cr,false,false,none,none⟩,⟨13,.cr,true,true,none,none⟩,⟨34,.other,false,false,some 32,some ([.setEnt .internalNl,.cb,.comment],(some 1,false))⟩,⟨39,.other,false,false,some 32,some ([.setEnt .internalNl,.cb,.comment],(some 1,false))⟩,⟨42,.other,false,false,some 32,some ([.setEnt .internalNl,.cb,.comment],(some 1,false))⟩,⟨47,.other,false,false,some 32,some ([.setEnt .internalNl,.cb,.comment],(some 1,false))⟩,⟨92,.other,false,false,some 34,some ([.setEnt .internalNl,.cb,.comment],(some 1,false))⟩]⟩]
theorem c_line_lfrOk : c_line_lrows.map (CA.prep c_line_lex) = c_line_lfr := by decide +kernel
def c_line_lTab : List CT := [(.node (.node (.node (.node (.node (.node (.node .leaf 128 [⟨⟨.code,[],.lcode,false,[],false⟩,false,false,[],none,none,none,false,false,false,none,false,⟨.lcode,none,false,.lblank⟩⟩] .leaf) 38019 [⟨⟨.code,[],.lcode,true,[],false⟩,false,false,[],none,none,none,false,false,false,none,false,⟨.lblank,none,false,.lblank⟩⟩] .leaf) 148108 [⟨⟨.code,[],.lcomment,false,[],false⟩,false,false,[],none,none,none,false,false,false,none,false,⟨.lcomment,none,false,.lblank⟩⟩] (.node .leaf 185487 [⟨⟨.code,[],.lcomment,true,[],false⟩,false,false,[],none,none,none,false,false,false,none,false,⟨.lblank,none,false,.lblank⟩⟩] .leaf)) 296088 [⟨⟨.code,[],.lblank,false,[],false⟩,false,false,[],none,none,none,false,false,false,none,false,⟨.lblank,none,false,.lblank⟩⟩] (.node (.node .leaf 332955 [⟨⟨.code,[],.lblank,true,[],false⟩,false,false,[],none,none,none,false,false,false,none,false,⟨.lblank,none,false,.lblank⟩⟩] .leaf) 1179872 [⟨⟨(.inside 0),[],.lcode,false,[],false⟩,false,false,[none],none,none,none,false,false,false,none,false,⟨.lcode,none,false,.lblank⟩⟩] (.node .leaf 1217763 [⟨⟨(.inside 0),[],.lcode,true,[],false⟩,false,false,[none],none,none,none,false,false,false,none,false,⟨.lblank,none,false,.lblank⟩⟩] .leaf))) 1327852 [⟨⟨(.inside 0),[],.lcomment,false,[],false⟩,false,false,[none],none,none,none,false,false,false,none,false,⟨.lcomment,none,false,.lblank⟩⟩] (.node (.node (.node (.node .leaf 1365231 [⟨⟨(.inside 0),[],.lcomment,true,[],false⟩,false,false,[none],none,none,none,false,false,false,none,false,⟨.lblank,none,false,.lblank⟩⟩] .leaf) 1475832 [⟨⟨(.inside 0),[],.lblank,false,[],false⟩,false,false,[none],none,none,none,false,false,false,none,false,⟨.lblank,none,false,.lblank⟩⟩] .leaf) 1769744 [⟨⟨.code,[47],.lcode,false,[],false⟩,false,false,[none],none,none,none,false,false,false,none,false,⟨.lcode,none,false,.lblank⟩⟩] (.node .leaf 20769801 [⟨⟨.code,[47],.lcode,false,[],false⟩,false,false,[some (9,(.ws,false))],none,none,none,false,false,false,none,false,⟨.lcode,none,false,.lblank⟩⟩] .leaf)) 21088052 [⟨⟨.code,[47],.lcomment,false,[],false⟩,false,false,[none],none,none,none,false,false,false,none,false,⟨.lcode,none,false,.lblank⟩⟩] (.node (.node .leaf 22179935 [⟨⟨(.inside 0),[],.lcode,false,[],false⟩,false,false,[some (10,(.lf,false))],none,none,none,false,false,false,none,false,⟨.lcode,none,false,.lblank⟩⟩] .leaf) 22217826 [⟨⟨(.inside 0),[],.lcode,true,[],false⟩,false,false,[some (10,(.lf,false))],none,none,none,false,false,false,none,false,⟨.lblank,none,false,.lblank⟩⟩] (.node .leaf 22327915 [⟨⟨(.inside 0),[],.lcomment,false,[],false⟩,false,false,[some (10,(.lf,false))],none,none,none,false,false,false,none,false,⟨.lcomment,none,false,.lblank⟩⟩] .leaf)))) 22365294 [⟨⟨(.inside 0),[],.lcomment,true,[],false⟩,false,false,[some (10,(.lf,false))],none,none,none,false,false,false,none,false,⟨.lblank,none,false,.lblank⟩⟩] (.node (.node (.node (.node (.node .leaf 22475895 [⟨⟨(.inside 0),[],.lblank,false,[],false⟩,false,false,[some (10,(.lf,false))],none,none,none,false,false,false,none,false,⟨.lblank,none,false,.lblank⟩⟩] .leaf) 22769807 [⟨⟨.code,[47],.lcode,false,[],false⟩,false,false,[some (10,(.lf,false))],none,none,none,false,false,false,none,false,⟨.lcode,none,false,.lblank⟩⟩] .leaf) 26179947 [⟨⟨(.inside 0),[],.lcode,false,[],false⟩,false,false,[some (12,(.ff,false))],none,none,none,false,false,false,none,false,⟨.lcode,none,false,.lblank⟩⟩] (.node .leaf 26217838 [⟨⟨(.inside 0),[],.lcode,true,[],false⟩,false,false,[some (12,(.ff,false))],none,none,none,false,false,false,none,false,⟨.lblank,none,false,.lblank⟩⟩] .leaf)) 26327927 [⟨⟨(.inside 0),[],.lcomment,false,[],false⟩,false,false,[some (12,(.ff,false))],none,none,none,false,false,false,none,false,⟨.lcomment,none,false,.lblank⟩⟩] (.node (.node .leaf 26365306 [⟨⟨(.inside 0),[],.lcomment,true,[],false⟩,false,false,[some (12,(.ff,false))],none,none,none,false,false,false,none,false,⟨.lblank,none,false,.lblank⟩⟩] .leaf) 26475907 [⟨⟨(.inside 0),[],.lblank,false,[],false⟩,false,false,[some (12,(.ff,false))],none,none,none,false,false,false,none,false,⟨.lblank,none,false,.lblank⟩⟩] (.node .leaf 26769819 [⟨⟨.code,[47],.lcode,false,[],false⟩,false,false,[some (12,(.ff,false))],none,none,none,false,false,false,none,false,⟨.lcode,none,false,.lblank⟩⟩] .leaf))) 27397582 [⟨⟨(.escapedCr 0),[],.lcode,true,[],false⟩,false,false,[some (12,(.ff,false))],none,none,none,false,false,false,none,false,⟨.lblank,none,false,.lblank⟩⟩] (.node (.node (.node (.node .leaf 27545050 [⟨⟨(.escapedCr 0),[],.lcomment,true,[],false⟩,false,false,[some (12,(.ff,false))],none,none,none,false,false,false,none,false,⟨.lblank,none,false,.lblank⟩⟩] .leaf) 28179953 [⟨⟨(.inside 0),[],.lcode,false,[],false⟩,false,false,[some (13,(.cr,false))],none,none,none,false,false,false,none,false,⟨.lcode,none,false,.lblank⟩⟩] .leaf) 28217844 [⟨⟨(.inside 0),[],.lcode,true,[],false⟩,false,false,[some (13,(.cr,false))],none,none,none,false,false,false,none,false,⟨.lblank,none,false,.lblank⟩⟩] (.node .leaf 28327933 [⟨⟨(.inside 0),[],.lcomment,false,[],false⟩,false,false,[some (13,(.cr,false))],none,none,none,false,false,false,none,false,⟨.lcomment,none,false,.lblank⟩⟩] .leaf)) 28365312 [⟨⟨(.inside 0),[],.lcomment,true,[],false⟩,false,false,[some (13,(.cr,false))],none,none,none,false,false,false,none,false,⟨.lblank,none,false,.lblank⟩⟩] (.node (.node .leaf 28475913 [⟨⟨(.inside 0),[],.lblank,false,[],false⟩,false,false,[some (13,(.cr,false))],none,none,none,false,false,false,none,false,⟨.lblank,none,false,.lblank⟩⟩] .leaf) 28769825 [⟨⟨.code,[47],.lcode,false,[],false⟩,false,false,[some (13,(.cr,false))],none,none,none,false,false,false,none,false,⟨.lcode,none,false,.lblank⟩⟩] (.node .leaf 29179956 [⟨⟨(.inside 0),[],.lcode,false,[],false⟩,false,false,[some (13,(.cr,true))],none,none,none,false,false,false,none,false,⟨.lcode,none,false,.lblank⟩⟩] .leaf))))) 29217847 [⟨⟨(.inside 0),[],.lcode,true,[],false⟩,false,false,[some (13,(.cr,true))],none,none,none,false,false,false,none,false,⟨.lblank,none,false,.lblank⟩⟩] (.node (.node (.node (.node (.node (.node .leaf 29327936 [⟨⟨(.inside 0),[],.lcomment,false,[],false⟩,false,false,[some (13,(.cr,true))],none,none,none,false,false,false,none,false,⟨.lcomment,none,false,.lblank⟩⟩] .leaf) 29365315 [⟨⟨(.inside 0),[],.lcomment,true,[],false⟩,false,false,[some (13,(.cr,true))],none,none,none,false,false,false,none,false,⟨.lblank,none,false,.lblank⟩⟩] .leaf) 29397588 [⟨⟨(.escapedCr 0),[],.lcode,true,[],false⟩,false,false,[some (13,(.cr,false))],none,none,none,false,false,false,none,false,⟨.lblank,none,false,.lblank⟩⟩] (.node .leaf 29475916 [⟨⟨(.inside 0),[],.lblank,false,[],false⟩,false,false,[some (13,(.cr,true))],none,none,none,false,false,false,none,false,⟨.lblank,none,false,.lblank⟩⟩] .leaf)) 29545056 [⟨⟨(.escapedCr 0),[],.lcomment,true,[],false⟩,false,false,[some (13,(.cr,false))],none,none,none,false,false,false,none,false,⟨.lblank,none,false,.lblank⟩⟩] (.node (.node .leaf 29769828 [⟨⟨.code,[47],.lcode,false,[],false⟩,false,false,[some (13,(.cr,true))],none,none,none,false,false,false,none,false,⟨.lcode,none,false,.lblank⟩⟩] .leaf) 30397591 [⟨⟨(.escapedCr 0),[],.lcode,true,[],false⟩,false,false,[some (13,(.cr,true))],none,none,none,false,false,false,none,false,⟨.lblank,none,false,.lblank⟩⟩] (.node .leaf 30545059 [⟨⟨(.escapedCr 0),[],.lcomment,true,[],false⟩,false,false,[some (13,(.cr,true))],none,none,none,false,false,false,none,false,⟨.lblank,none,false,.lblank⟩⟩] .leaf))) 40088109 [⟨⟨.code,[47],.lcomment,false,[],false⟩,false,false,[some (9,(.ws,false))],none,none,none,false,false,false,none,false,⟨.lcode,none,false,.lblank⟩⟩] (.node (.node (.node (.node .leaf 40406360 [⟨⟨.code,[47],.lblank,false,[],false⟩,false,false,[none],none,none,none,false,false,false,none,false,⟨.lcode,none,false,.lblank⟩⟩] .leaf) 42088115 [⟨⟨.code,[47],.lcomment,false,[],false⟩,false,false,[some (10,(.lf,false))],none,none,none,false,false,false,none,false,⟨.lcode,none,false,.lblank⟩⟩] .leaf) 46088127 [⟨⟨.code,[47],.lcomment,false,[],false⟩,false,false,[some (12,(.ff,false))],none,none,none,false,false,false,none,false,⟨.lcode,none,false,.lblank⟩⟩] (.node .leaf 48088133 [⟨⟨.code,[47],.lcomment,false,[],false⟩,false,false,[some (13,(.cr,false))],none,none,none,false,false,false,none,false,⟨.lcode,none,false,.lblank⟩⟩] .leaf)) 49088136 [⟨⟨.code,[47],.lcomment,false,[],false⟩,false,false,[some (13,(.cr,true))],none,none,none,false,false,false,none,false,⟨.lcode,none,false,.lblank⟩⟩] (.node (.node .leaf 59406417 [⟨⟨.code,[47],.lblank,false,[],false⟩,false,false,[some (9,(.ws,false))],none,none,none,false,false,false,none,false,⟨.lcode,none,false,.lblank⟩⟩] .leaf) 61406423 [⟨⟨.code,[47],.lblank,false,[],false⟩,false,false,[some (10,(.lf,false))],none,none,none,false,false,false,none,false,⟨.lcode,none,false,.lblank⟩⟩] (.node .leaf 65406435 [⟨⟨.code,[47],.lblank,false,[],false⟩,false,false,[some (12,(.ff,false))],none,none,none,false,false,false,none,false,⟨.lcode,none,false,.lblank⟩⟩] .leaf)))) 67406441 [⟨⟨.code,[47],.lblank,false,[],false⟩,false,false,[some (13,(.cr,false))],none,none,none,false,false,false,none,false,⟨.lcode,none,false,.lblank⟩⟩] (.node (.node (.node (.node (.node .leaf 68406444 [⟨⟨.code,[47],.lblank,false,[],false⟩,false,false,[some (13,(.cr,true))],none,none,none,false,false,false,none,false,⟨.lcode,none,false,.lblank⟩⟩] .leaf) 70769951 [⟨⟨.code,[47],.lcode,false,[],false⟩,false,false,[some (34,(.other,false))],none,none,none,false,false,false,none,false,⟨.lcode,none,false,.lblank⟩⟩] .leaf) 80769981 [⟨⟨.code,[47],.lcode,false,[],false⟩,false,false,[some (39,(.other,false))],none,none,none,false,false,false,none,false,⟨.lcode,none,false,.lblank⟩⟩] (.node .leaf 90088259 [⟨⟨.code,[47],.lcomment,false,[],false⟩,false,false,[some (34,(.other,false))],none,none,none,false,false,false,none,false,⟨.lcode,none,false,.lblank⟩⟩] .leaf)) 100088289 [⟨⟨.code,[47],.lcomment,false,[],false⟩,false,false,[some (39,(.other,false))],none,none,none,false,false,false,none,false,⟨.lcode,none,false,.lblank⟩⟩] (.node (.node .leaf 109406567 [⟨⟨.code,[47],.lblank,false,[],false⟩,false,false,[some (34,(.other,false))],none,none,none,false,false,false,none,false,⟨.lcode,none,false,.lblank⟩⟩] .leaf) 119406597 [⟨⟨.code,[47],.lblank,false,[],false⟩,false,false,[some (39,(.other,false))],none,none,none,false,false,false,none,false,⟨.lcode,none,false,.lblank⟩⟩] (.node .leaf 157975223 [⟨⟨(.inside 0),[92],.lcode,false,[],false⟩,false,false,[none],none,none,none,false,false,false,none,false,⟨.lcode,none,false,.lblank⟩⟩] .leaf))) 177294043 [⟨⟨(.inside 0),[92],.lcomment,false,[],false⟩,false,false,[none],none,none,none,false,false,false,none,false,⟨.lcomment,none,false,.lblank⟩⟩] (.node (.node (.node (.node .leaf 186770299 [⟨⟨.code,[47],.lcode,false,[],false⟩,false,false,[some (92,(.other,false))],none,none,none,false,false,false,none,false,⟨.lcode,none,false,.lblank⟩⟩] .leaf) 196612351 [⟨⟨(.inside 0),[92],.lblank,false,[],false⟩,false,false,[none],none,none,none,false,false,false,none,false,⟨.lcomment,none,false,.lblank⟩⟩] .leaf) 206088607 [⟨⟨.code,[47],.lcomment,false,[],false⟩,false,false,[some (92,(.other,false))],none,none,none,false,false,false,none,false,⟨.lcode,none,false,.lblank⟩⟩] (.node .leaf 225406915 [⟨⟨.code,[47],.lblank,false,[],false⟩,false,false,[some (92,(.other,false))],none,none,none,false,false,false,none,false,⟨.lcode,none,false,.lblank⟩⟩] .leaf)) 351158815 [⟨⟨(.escapedCr 0),[92],.lblank,false,[],false⟩,false,false,[none],none,none,none,false,false,false,none,false,⟨.lcomment,none,false,.lblank⟩⟩] (.node (.node .leaf 514771283 [⟨⟨.code,[47],.lcode,false,[],false⟩,false,false,[some (256,(.other,false))],none,none,none,false,false,false,none,false,⟨.lcode,none,false,.lblank⟩⟩] .leaf) 534089591 [⟨⟨.code,[47],.lcomment,false,[],false⟩,false,false,[some (256,(.other,false))],none,none,none,false,false,false,none,false,⟨.lcode,none,false,.lblank⟩⟩] (.node .leaf 553407899 [⟨⟨.code,[47],.lblank,false,[],false⟩,false,false,[some (256,(.other,false))],none,none,none,false,false,false,none,false,⟨.lcode,none,false,.lblank⟩⟩] .leaf)))))),(.node (.node .leaf 128 [⟨⟨.code,[],.lcode,false,[],false⟩,false,false,[],none,none,none,false,false,false,none,false,⟨.lcode,some (.own 0),false,.lblank⟩⟩] .leaf) 148108 [⟨⟨.code,[],.lcomment,false,[],false⟩,false,false,[],none,none,none,false,false,false,none,false,⟨.lcomment,some (.own 0),false,.lblank⟩⟩] (.node .leaf 296088 [⟨⟨.code,[],.lblank,false,[],false⟩,false,false,[],none,none,none,false,false,false,none,false,⟨.lblank,some (.own 0),false,.lblank⟩⟩] .leaf)),(.node (.node .leaf 160 [⟨⟨.code,[],.lcode,false,[],false⟩,true,false,[],none,none,none,false,false,false,none,false,⟨.lcode,some .newline,false,.lblank⟩⟩] .leaf) 148140 [⟨⟨.code,[],.lcomment,false,[],false⟩,true,false,[],none,none,none,false,false,false,none,false,⟨.lcomment,some .newline,false,.lblank⟩⟩] (.node .leaf 296120 [⟨⟨.code,[],.lblank,false,[],false⟩,true,false,[],none,none,none,false,false,false,none,false,⟨.lblank,some .newline,false,.lblank⟩⟩] .leaf)),(.node (.node .leaf 37011 [⟨⟨.code,[],.lcode,true,[],false⟩,false,true,[],none,none,none,false,false,false,none,false,⟨.lcode,some .newline,false,.lblank⟩⟩] .leaf) 184991 [⟨⟨.code,[],.lcomment,true,[],false⟩,false,true,[],none,none,none,false,false,false,none,false,⟨.lcomment,some .newline,false,.lblank⟩⟩] (.node .leaf 332971 [⟨⟨.code,[],.lblank,true,[],false⟩,false,true,[],none,none,none,false,false,false,none,false,⟨.lblank,some .newline,false,.lblank⟩⟩] .leaf)),(.node .leaf 10027952 [⟨⟨(.inside 3),[],.lcode,false,[],false⟩,false,false,[],none,none,none,false,false,false,none,false,⟨.lcode,some (.own 8),false,.lblank⟩⟩] .leaf),(.node .leaf 7078592 [⟨⟨(.inside 2),[],.lcode,false,[],false⟩,false,false,[],none,none,none,false,false,false,none,false,⟨.lcode,some (.own 8),false,.lblank⟩⟩] .leaf),(.node (.node .leaf 1769746 [⟨⟨.code,[47],.lcode,false,[],false⟩,false,false,[],none,none,none,false,false,true,none,false,⟨.lcode,some (.own 8),false,.lblank⟩⟩] .leaf) 21088566 [⟨⟨.code,[47],.lcomment,false,[],false⟩,false,false,[],none,none,none,false,false,true,none,false,⟨.lcomment,some (.own 8),false,.lblank⟩⟩] (.node .leaf 40407386 [⟨⟨.code,[47],.lblank,false,[],false⟩,false,false,[],none,none,none,false,false,true,none,false,⟨.lblank,some (.own 8),false,.lblank⟩⟩] .leaf)),(.node (.node .leaf 10655941 [⟨⟨(.inside 3),[],.lcode,false,[],false⟩,false,false,[],some 4,some ⟨(.inside 3),[],.lcode,false,[],false⟩,none,false,false,false,none,false,⟨.lcode,some (.own 8),false,.lblank⟩⟩] .leaf) 10655949 [⟨⟨(.inside 3),[],.lcode,false,[],false⟩,false,false,[],some 4,some ⟨(.inside 3),[],.lcode,false,[],false⟩,none,true,false,false,none,false,⟨.lcode,some .internalNl,false,.lblank⟩⟩] .leaf),(.node (.node .leaf 10655941 [⟨⟨(.inside 3),[],.lcode,false,[],false⟩,false,false,[],some 4,some ⟨(.inside 3),[],.lcode,false,[],false⟩,none,false,false,false,none,false,⟨.lcode,some (.own 8),false,.lblank⟩⟩] .leaf) 10655949 [⟨⟨(.inside 3),[],.lcode,false,[],false⟩,false,false,[],some 4,some ⟨(.inside 3),[],.lcode,false,[],false⟩,none,true,false,false,none,false,⟨.lcode,some .internalNl,false,.lblank⟩⟩] (.node .leaf 10951909 [⟨⟨(.inside 3),[],.lblank,false,[],false⟩,false,false,[],some 4,some ⟨(.inside 3),[],.lcode,false,[],false⟩,none,true,false,false,none,false,⟨.lblank,some .internalNl,false,.lblank⟩⟩] .leaf)),(.node (.node (.node .leaf 1317701692 [⟨⟨(.inside 3),[92],.lcode,false,[],false⟩,false,false,[],some 4,some ⟨(.inside 3),[],.lcode,false,[],false⟩,none,false,false,false,none,false,⟨.lcode,some (.own 8),false,.lblank⟩⟩] .leaf) 1317701700 [⟨⟨(.inside 3),[92],.lcode,false,[],false⟩,false,false,[],some 4,some ⟨(.inside 3),[],.lcode,false,[],false⟩,none,true,false,false,none,false,⟨.lcode,some .internalNl,false,.lblank⟩⟩] .leaf) 1356339340 [⟨⟨(.inside 3),[92],.lblank,false,[],false⟩,false,false,[],some 4,some ⟨(.inside 3),[],.lcode,false,[],false⟩,none,true,false,false,none,false,⟨.lblank,some .internalNl,false,.lblank⟩⟩] (.node .leaf 1510885804 [⟨⟨(.escapedCr 3),[92],.lblank,false,[],false⟩,false,false,[],some 4,some ⟨(.inside 3),[],.lcode,false,[],false⟩,none,true,false,false,none,false,⟨.lblank,some .internalNl,false,.lblank⟩⟩] .leaf)),(.node (.node .leaf 7522021 [⟨⟨(.inside 2),[],.lcode,false,[],false⟩,false,false,[],some 4,some ⟨(.inside 2),[],.lcode,false,[],false⟩,none,false,false,false,none,false,⟨.lcode,some (.own 8),false,.lblank⟩⟩] .leaf) 7522029 [⟨⟨(.inside 2),[],.lcode,false,[],false⟩,false,false,[],some 4,some ⟨(.inside 2),[],.lcode,false,[],false⟩,none,true,false,false,none,false,⟨.lcode,some .internalNl,false,.lblank⟩⟩] .leaf),(.node (.node .leaf 7522021 [⟨⟨(.inside 2),[],.lcode,false,[],false⟩,false,false,[],some 4,some ⟨(.inside 2),[],.lcode,false,[],false⟩,none,false,false,false,none,false,⟨.lcode,some (.own 8),false,.lblank⟩⟩] .leaf) 7522029 [⟨⟨(.inside 2),[],.lcode,false,[],false⟩,false,false,[],some 4,some ⟨(.inside 2),[],.lcode,false,[],false⟩,none,true,false,false,none,false,⟨.lcode,some .internalNl,false,.lblank⟩⟩] (.node .leaf 7817989 [⟨⟨(.inside 2),[],.lblank,false,[],false⟩,false,false,[],some 4,some ⟨(.inside 2),[],.lcode,false,[],false⟩,none,true,false,false,none,false,⟨.lblank,some .internalNl,false,.lblank⟩⟩] .leaf)),(.node (.node (.node .leaf 931150972 [⟨⟨(.inside 2),[92],.lcode,false,[],false⟩,false,false,[],some 4,some ⟨(.inside 2),[],.lcode,false,[],false⟩,none,false,false,false,none,false,⟨.lcode,some (.own 8),false,.lblank⟩⟩] .leaf) 931150980 [⟨⟨(.inside 2),[92],.lcode,false,[],false⟩,false,false,[],some 4,some ⟨(.inside 2),[],.lcode,false,[],false⟩,none,true,false,false,none,false,⟨.lcode,some .internalNl,false,.lblank⟩⟩] .leaf) 969788620 [⟨⟨(.inside 2),[92],.lblank,false,[],false⟩,false,false,[],some 4,some ⟨(.inside 2),[],.lcode,false,[],false⟩,none,true,false,false,none,false,⟨.lblank,some .internalNl,false,.lblank⟩⟩] (.node .leaf 1124335084 [⟨⟨(.escapedCr 2),[92],.lblank,false,[],false⟩,false,false,[],some 4,some ⟨(.inside 2),[],.lcode,false,[],false⟩,none,true,false,false,none,false,⟨.lblank,some .internalNl,false,.lblank⟩⟩] .leaf)),(.node (.node .leaf 610242271 [⟨⟨(.inside 1),[],.lcode,false,[],false⟩,false,false,[],some 4,some ⟨.code,[47],.lcode,false,[],false⟩,some ([(42,(.other,false))],false),false,false,false,none,false,⟨.lcode,some (.own 8),false,.lblank⟩⟩] .leaf) 611599119 [⟨⟨(.inside 1),[],.lcomment,false,[],false⟩,false,false,[],some 4,some ⟨.code,[47],.lcomment,false,[],false⟩,some ([(42,(.other,false))],false),false,false,false,none,false,⟨.lcomment,some (.own 8),false,.lblank⟩⟩] (.node .leaf 612807987 [⟨⟨(.inside 1),[],.lcomment,false,[],false⟩,false,false,[],some 4,some ⟨.code,[47],.lblank,false,[],false⟩,some ([(42,(.other,false))],false),false,false,false,none,false,⟨.lcomment,some (.own 8),false,.lblank⟩⟩] .leaf)),(.node (.node .leaf 1179872 [⟨⟨(.inside 0),[],.lcode,false,[],false⟩,false,false,[],none,none,none,false,false,false,none,false,⟨.lcode,some (.own 8),false,.lblank⟩⟩] .leaf) 1327852 [⟨⟨(.inside 0),[],.lcomment,false,[],false⟩,false,false,[],none,none,none,false,false,false,none,false,⟨.lcomment,some (.own 8),false,.lblank⟩⟩] .leaf),(.node (.node .leaf 10655941 [⟨⟨(.inside 3),[],.lcode,false,[],false⟩,false,false,[],some 4,some ⟨(.inside 3),[],.lcode,false,[],false⟩,none,false,false,false,none,false,⟨.lcode,some (.own 8),false,.lblank⟩⟩] .leaf) 10655949 [⟨⟨(.inside 3),[],.lcode,false,[],false⟩,false,false,[],some 4,some ⟨(.inside 3),[],.lcode,false,[],false⟩,none,true,false,false,none,false,⟨.lcode,some .internalNl,false,.lblank⟩⟩] .leaf),(.node (.node .leaf 10692808 [⟨⟨(.inside 3),[],.lcode,true,[],false⟩,false,false,[],some 4,some ⟨(.inside 3),[],.lcode,false,[],false⟩,none,false,false,false,none,false,⟨.lcode,some (.own 8),false,.lblank⟩⟩] .leaf) 10692816 [⟨⟨(.inside 3),[],.lcode,true,[],false⟩,false,false,[],some 4,some ⟨(.inside 3),[],.lcode,false,[],false⟩,none,true,false,false,none,false,⟨.lcode,some .internalNl,false,.lblank⟩⟩] (.node .leaf 10988776 [⟨⟨(.inside 3),[],.lblank,true,[],false⟩,false,false,[],some 4,some ⟨(.inside 3),[],.lcode,false,[],false⟩,none,true,false,false,none,false,⟨.lblank,some .internalNl,false,.lblank⟩⟩] .leaf)),(.node (.node .leaf 10692808 [⟨⟨(.inside 3),[],.lcode,true,[],false⟩,false,false,[],some 4,some ⟨(.inside 3),[],.lcode,false,[],false⟩,none,false,false,false,none,false,⟨.lcode,some (.own 8),false,.lblank⟩⟩] .leaf) 10692816 [⟨⟨(.inside 3),[],.lcode,true,[],false⟩,false,false,[],some 4,some ⟨(.inside 3),[],.lcode,false,[],false⟩,none,true,false,false,none,false,⟨.lcode,some .internalNl,false,.lblank⟩⟩] (.node .leaf 10988776 [⟨⟨(.inside 3),[],.lblank,true,[],false⟩,false,false,[],some 4,some ⟨(.inside 3),[],.lcode,false,[],false⟩,none,true,false,false,none,false,⟨.lblank,some .internalNl,false,.lblank⟩⟩] .leaf)),(.node (.node .leaf 11835717 [⟨⟨(.escapedCr 3),[],.lcode,false,[],false⟩,true,false,[],some 4,some ⟨(.inside 3),[],.lcode,false,[],false⟩,none,false,false,false,none,false,⟨.lcode,some (.own 8),false,.lblank⟩⟩] .leaf) 11835725 [⟨⟨(.escapedCr 3),[],.lcode,false,[],false⟩,true,false,[],some 4,some ⟨(.inside 3),[],.lcode,false,[],false⟩,none,true,false,false,none,false,⟨.lcode,some .internalNl,false,.lblank⟩⟩] (.node .leaf 12131685 [⟨⟨(.escapedCr 3),[],.lblank,false,[],false⟩,true,false,[],some 4,some ⟨(.inside 3),[],.lcode,false,[],false⟩,none,true,false,false,none,false,⟨.lblank,some .internalNl,false,.lblank⟩⟩] .leaf)),(.node (.node .leaf 11872568 [⟨⟨(.escapedCr 3),[],.lcode,true,[],false⟩,false,true,[],some 4,some ⟨(.inside 3),[],.lcode,false,[],false⟩,none,false,false,false,none,false,⟨.lcode,some (.own 8),false,.lblank⟩⟩] .leaf) 11872576 [⟨⟨(.escapedCr 3),[],.lcode,true,[],false⟩,false,true,[],some 4,some ⟨(.inside 3),[],.lcode,false,[],false⟩,none,true,false,false,none,false,⟨.lcode,some .internalNl,false,.lblank⟩⟩] (.node .leaf 12168536 [⟨⟨(.escapedCr 3),[],.lblank,true,[],false⟩,false,true,[],some 4,some ⟨(.inside 3),[],.lcode,false,[],false⟩,none,true,false,false,none,false,⟨.lblank,some .internalNl,false,.lblank⟩⟩] .leaf)),(.node (.node .leaf 7522021 [⟨⟨(.inside 2),[],.lcode,false,[],false⟩,false,false,[],some 4,some ⟨(.inside 2),[],.lcode,false,[],false⟩,none,false,false,false,none,false,⟨.lcode,some (.own 8),false,.lblank⟩⟩] .leaf) 7522029 [⟨⟨(.inside 2),[],.lcode,false,[],false⟩,false,false,[],some 4,some ⟨(.inside 2),[],.lcode,false,[],false⟩,none,true,false,false,none,false,⟨.lcode,some .internalNl,false,.lblank⟩⟩] .leaf),(.node (.node .leaf 7558888 [⟨⟨(.inside 2),[],.lcode,true,[],false⟩,false,false,[],some 4,some ⟨(.inside 2),[],.lcode,false,[],false⟩,none,false,false,false,none,false,⟨.lcode,some (.own 8),false,.lblank⟩⟩] .leaf) 7558896 [⟨⟨(.inside 2),[],.lcode,true,[],false⟩,false,false,[],some 4,some ⟨(.inside 2),[],.lcode,false,[],false⟩,none,true,false,false,none,false,⟨.lcode,some .internalNl,false,.lblank⟩⟩] (.node .leaf 7854856 [⟨⟨(.inside 2),[],.lblank,true,[],false⟩,false,false,[],some 4,some ⟨(.inside 2),[],.lcode,false,[],false⟩,none,true,false,false,none,false,⟨.lblank,some .internalNl,false,.lblank⟩⟩] .leaf)),(.node (.node .leaf 7558888 [⟨⟨(.inside 2),[],.lcode,true,[],false⟩,false,false,[],some 4,some ⟨(.inside 2),[],.lcode,false,[],false⟩,none,false,false,false,none,false,⟨.lcode,some (.own 8),false,.lblank⟩⟩] .leaf) 7558896 [⟨⟨(.inside 2),[],.lcode,true,[],false⟩,false,false,[],some 4,some ⟨(.inside 2),[],.lcode,false,[],false⟩,none,true,false,false,none,false,⟨.lcode,some .internalNl,false,.lblank⟩⟩] (.node .leaf 7854856 [⟨⟨(.inside 2),[],.lblank,true,[],false⟩,false,false,[],some 4,some ⟨(.inside 2),[],.lcode,false,[],false⟩,none,true,false,false,none,false,⟨.lblank,some .internalNl,false,.lblank⟩⟩] .leaf)),(.node (.node .leaf 8701797 [⟨⟨(.escapedCr 2),[],.lcode,false,[],false⟩,true,false,[],some 4,some ⟨(.inside 2),[],.lcode,false,[],false⟩,none,false,false,false,none,false,⟨.lcode,some (.own 8),false,.lblank⟩⟩] .leaf) 8701805 [⟨⟨(.escapedCr 2),[],.lcode,false,[],false⟩,true,false,[],some 4,some ⟨(.inside 2),[],.lcode,false,[],false⟩,none,true,false,false,none,false,⟨.lcode,some .internalNl,false,.lblank⟩⟩] (.node .leaf 8997765 [⟨⟨(.escapedCr 2),[],.lblank,false,[],false⟩,true,false,[],some 4,some ⟨(.inside 2),[],.lcode,false,[],false⟩,none,true,false,false,none,false,⟨.lblank,some .internalNl,false,.lblank⟩⟩] .leaf)),(.node (.node .leaf 8738648 [⟨⟨(.escapedCr 2),[],.lcode,true,[],false⟩,false,true,[],some 4,some ⟨(.inside 2),[],.lcode,false,[],false⟩,none,false,false,false,none,false,⟨.lcode,some (.own 8),false,.lblank⟩⟩] .leaf) 8738656 [⟨⟨(.escapedCr 2),[],.lcode,true,[],false⟩,false,true,[],some 4,some ⟨(.inside 2),[],.lcode,false,[],false⟩,none,true,false,false,none,false,⟨.lcode,some .internalNl,false,.lblank⟩⟩] (.node .leaf 9034616 [⟨⟨(.escapedCr 2),[],.lblank,true,[],false⟩,false,true,[],some 4,some ⟨(.inside 2),[],.lcode,false,[],false⟩,none,true,false,false,none,false,⟨.lblank,some .internalNl,false,.lblank⟩⟩] .leaf)),(.node (.node (.node .leaf 610242271 [⟨⟨(.inside 1),[],.lcode,false,[],false⟩,false,false,[],some 4,some ⟨.code,[47],.lcode,false,[],false⟩,some ([(42,(.other,false))],false),false,false,false,none,false,⟨.lcode,some (.own 8),false,.lblank⟩⟩] .leaf) 610390259 [⟨⟨(.inside 1),[],.lcomment,false,[],false⟩,false,false,[],some 4,some ⟨.code,[47],.lcode,false,[],false⟩,some ([(42,(.other,false))],false),true,false,false,none,false,⟨.lcomment,some .internalNl,false,.lblank⟩⟩] (.node .leaf 611599119 [⟨⟨(.inside 1),[],.lcomment,false,[],false⟩,false,false,[],some 4,some ⟨.code,[47],.lcomment,false,[],false⟩,some ([(42,(.other,false))],false),false,false,false,none,false,⟨.lcomment,some (.own 8),false,.lblank⟩⟩] .leaf)) 611599127 [⟨⟨(.inside 1),[],.lcomment,false,[],false⟩,false,false,[],some 4,some ⟨.code,[47],.lcomment,false,[],false⟩,some ([(42,(.other,false))],false),true,false,false,none,false,⟨.lcomment,some .internalNl,false,.lblank⟩⟩] (.node (.node .leaf 612807987 [⟨⟨(.inside 1),[],.lcomment,false,[],false⟩,false,false,[],some 4,some ⟨.code,[47],.lblank,false,[],false⟩,some ([(42,(.other,false))],false),false,false,false,none,false,⟨.lcomment,some (.own 8),false,.lblank⟩⟩] .leaf) 612807995 [⟨⟨(.inside 1),[],.lcomment,false,[],false⟩,false,false,[],some 4,some ⟨.code,[47],.lblank,false,[],false⟩,some ([(42,(.other,false))],false),true,false,false,none,false,⟨.lcomment,some .internalNl,false,.lblank⟩⟩] .leaf)),(.node (.node (.node (.node .leaf 610242271 [⟨⟨(.inside 1),[],.lcode,false,[],false⟩,false,false,[],some 4,some ⟨.code,[47],.lcode,false,[],false⟩,some ([(42,(.other,false))],false),false,false,false,none,false,⟨.lcode,some (.own 8),false,.lblank⟩⟩] .leaf) 610390259 [⟨⟨(.inside 1),[],.lcomment,false,[],false⟩,false,false,[],some 4,some ⟨.code,[47],.lcode,false,[],false⟩,some ([(42,(.other,false))],false),true,false,false,none,false,⟨.lcomment,some .internalNl,false,.lblank⟩⟩] .leaf) 610538239 [⟨⟨(.inside 1),[],.lblank,false,[],false⟩,false,false,[],some 4,some ⟨.code,[47],.lcode,false,[],false⟩,some ([(42,(.other,false))],false),true,false,false,none,false,⟨.lblank,some .internalNl,false,.lblank⟩⟩] (.node .leaf 611599119 [⟨⟨(.inside 1),[],.lcomment,false,[],false⟩,false,false,[],some 4,some ⟨.code,[47],.lcomment,false,[],false⟩,some ([(42,(.other,false))],false),false,false,false,none,false,⟨.lcomment,some (.own 8),false,.lblank⟩⟩] .leaf)) 611599127 [⟨⟨(.inside 1),[],.lcomment,false,[],false⟩,false,false,[],some 4,some ⟨.code,[47],.lcomment,false,[],false⟩,some ([(42,(.other,false))],false),true,false,false,none,false,⟨.lcomment,some .internalNl,false,.lblank⟩⟩] (.node (.node (.node .leaf 611747107 [⟨⟨(.inside 1),[],.lblank,false,[],false⟩,false,false,[],some 4,some ⟨.code,[47],.lcomment,false,[],false⟩,some ([(42,(.other,false))],false),true,false,false,none,false,⟨.lblank,some .internalNl,false,.lblank⟩⟩] .leaf) 612807987 [⟨⟨(.inside 1),[],.lcomment,false,[],false⟩,false,false,[],some 4,some ⟨.code,[47],.lblank,false,[],false⟩,some ([(42,(.other,false))],false),false,false,false,none,false,⟨.lcomment,some (.own 8),false,.lblank⟩⟩] .leaf) 612807995 [⟨⟨(.inside 1),[],.lcomment,false,[],false⟩,false,false,[],some 4,some ⟨.code,[47],.lblank,false,[],false⟩,some ([(42,(.other,false))],false),true,false,false,none,false,⟨.lcomment,some .internalNl,false,.lblank⟩⟩] (.node .leaf 612955975 [⟨⟨(.inside 1),[],.lblank,false,[],false⟩,false,false,[],some 4,some ⟨.code,[47],.lblank,false,[],false⟩,some ([(42,(.other,false))],false),true,false,false,none,false,⟨.lblank,some .internalNl,false,.lblank⟩⟩] .leaf))),(.node (.node (.node (.node .leaf 610279138 [⟨⟨(.inside 1),[],.lcode,true,[],false⟩,false,false,[],some 4,some ⟨.code,[47],.lcode,false,[],false⟩,some ([(42,(.other,false))],false),false,false,false,none,false,⟨.lcode,some (.own 8),false,.lblank⟩⟩] .leaf) 610427126 [⟨⟨(.inside 1),[],.lcomment,true,[],false⟩,false,false,[],some 4,some ⟨.code,[47],.lcode,false,[],false⟩,some ([(42,(.other,false))],false),true,false,false,none,false,⟨.lcomment,some .internalNl,false,.lblank⟩⟩] .leaf) 610575106 [⟨⟨(.inside 1),[],.lblank,true,[],false⟩,false,false,[],some 4,some ⟨.code,[47],.lcode,false,[],false⟩,some ([(42,(.other,false))],false),true,false,false,none,false,⟨.lblank,some .internalNl,false,.lblank⟩⟩] (.node .leaf 611635986 [⟨⟨(.inside 1),[],.lcomment,true,[],false⟩,false,false,[],some 4,some ⟨.code,[47],.lcomment,false,[],false⟩,some ([(42,(.other,false))],false),false,false,false,none,false,⟨.lcomment,some (.own 8),false,.lblank⟩⟩] .leaf)) 611635994 [⟨⟨(.inside 1),[],.lcomment,true,[],false⟩,false,false,[],some 4,some ⟨.code,[47],.lcomment,false,[],false⟩,some ([(42,(.other,false))],false),true,false,false,none,false,⟨.lcomment,some .internalNl,false,.lblank⟩⟩] (.node (.node (.node .leaf 611783974 [⟨⟨(.inside 1),[],.lblank,true,[],false⟩,false,false,[],some 4,some ⟨.code,[47],.lcomment,false,[],false⟩,some ([(42,(.other,false))],false),true,false,false,none,false,⟨.lblank,some .internalNl,false,.lblank⟩⟩] .leaf) 612844854 [⟨⟨(.inside 1),[],.lcomment,true,[],false⟩,false,false,[],some 4,some ⟨.code,[47],.lblank,false,[],false⟩,some ([(42,(.other,false))],false),false,false,false,none,false,⟨.lcomment,some (.own 8),false,.lblank⟩⟩] .leaf) 612844862 [⟨⟨(.inside 1),[],.lcomment,true,[],false⟩,false,false,[],some 4,some ⟨.code,[47],.lblank,false,[],false⟩,some ([(42,(.other,false))],false),true,false,false,none,false,⟨.lcomment,some .internalNl,false,.lblank⟩⟩] (.node .leaf 612992842 [⟨⟨(.inside 1),[],.lblank,true,[],false⟩,false,false,[],some 4,some ⟨.code,[47],.lblank,false,[],false⟩,some ([(42,(.other,false))],false),true,false,false,none,false,⟨.lblank,some .internalNl,false,.lblank⟩⟩] .leaf))),(.node (.node (.node (.node .leaf 610279138 [⟨⟨(.inside 1),[],.lcode,true,[],false⟩,false,false,[],some 4,some ⟨.code,[47],.lcode,false,[],false⟩,some ([(42,(.other,false))],false),false,false,false,none,false,⟨.lcode,some (.own 8),false,.lblank⟩⟩] .leaf) 610427126 [⟨⟨(.inside 1),[],.lcomment,true,[],false⟩,false,false,[],some 4,some ⟨.code,[47],.lcode,false,[],false⟩,some ([(42,(.other,false))],false),true,false,false,none,false,⟨.lcomment,some .internalNl,false,.lblank⟩⟩] .leaf) 610575106 [⟨⟨(.inside 1),[],.lblank,true,[],false⟩,false,false,[],some 4,some ⟨.code,[47],.lcode,false,[],false⟩,some ([(42,(.other,false))],false),true,false,false,none,false,⟨.lblank,some .internalNl,false,.lblank⟩⟩] (.node .leaf 611635986 [⟨⟨(.inside 1),[],.lcomment,true,[],false⟩,false,false,[],some 4,some ⟨.code,[47],.lcomment,false,[],false⟩,some ([(42,(.other,false))],false),false,false,false,none,false,⟨.lcomment,some (.own 8),false,.lblank⟩⟩] .leaf)) 611635994 [⟨⟨(.inside 1),[],.lcomment,true,[],false⟩,false,false,[],some 4,some ⟨.code,[47],.lcomment,false,[],false⟩,some ([(42,(.other,false))],false),true,false,false,none,false,⟨.lcomment,some .internalNl,false,.lblank⟩⟩] (.node (.node (.node .leaf 611783974 [⟨⟨(.inside 1),[],.lblank,true,[],false⟩,false,false,[],some 4,some ⟨.code,[47],.lcomment,false,[],false⟩,some ([(42,(.other,false))],false),true,false,false,none,false,⟨.lblank,some .internalNl,false,.lblank⟩⟩] .leaf) 612844854 [⟨⟨(.inside 1),[],.lcomment,true,[],false⟩,false,false,[],some 4,some ⟨.code,[47],.lblank,false,[],false⟩,some ([(42,(.other,false))],false),false,false,false,none,false,⟨.lcomment,some (.own 8),false,.lblank⟩⟩] .leaf) 612844862 [⟨⟨(.inside 1),[],.lcomment,true,[],false⟩,false,false,[],some 4,some ⟨.code,[47],.lblank,false,[],false⟩,some ([(42,(.other,false))],false),true,false,false,none,false,⟨.lcomment,some .internalNl,false,.lblank⟩⟩] (.node .leaf 612992842 [⟨⟨(.inside 1),[],.lblank,true,[],false⟩,false,false,[],some 4,some ⟨.code,[47],.lblank,false,[],false⟩,some ([(42,(.other,false))],false),true,false,false,none,false,⟨.lblank,some .internalNl,false,.lblank⟩⟩] .leaf))),(.node (.node (.node (.node .leaf 610242303 [⟨⟨(.inside 1),[],.lcode,false,[],false⟩,true,false,[],some 4,some ⟨.code,[47],.lcode,false,[],false⟩,some ([(42,(.other,false))],false),false,false,false,none,false,⟨.lcode,some (.own 8),false,.lblank⟩⟩] .leaf) 610390291 [⟨⟨(.inside 1),[],.lcomment,false,[],false⟩,true,false,[],some 4,some ⟨.code,[47],.lcode,false,[],false⟩,some ([(42,(.other,false))],false),true,false,false,none,false,⟨.lcomment,some .internalNl,false,.lblank⟩⟩] .leaf) 610538271 [⟨⟨(.inside 1),[],.lblank,false,[],false⟩,true,false,[],some 4,some ⟨.code,[47],.lcode,false,[],false⟩,some ([(42,(.other,false))],false),true,false,false,none,false,⟨.lblank,some .internalNl,false,.lblank⟩⟩] (.node .leaf 611599151 [⟨⟨(.inside 1),[],.lcomment,false,[],false⟩,true,false,[],some 4,some ⟨.code,[47],.lcomment,false,[],false⟩,some ([(42,(.other,false))],false),false,false,false,none,false,⟨.lcomment,some (.own 8),false,.lblank⟩⟩] .leaf)) 611599159 [⟨⟨(.inside 1),[],.lcomment,false,[],false⟩,true,false,[],some 4,some ⟨.code,[47],.lcomment,false,[],false⟩,some ([(42,(.other,false))],false),true,false,false,none,false,⟨.lcomment,some .internalNl,false,.lblank⟩⟩] (.node (.node (.node .leaf 611747139 [⟨⟨(.inside 1),[],.lblank,false,[],false⟩,true,false,[],some 4,some ⟨.code,[47],.lcomment,false,[],false⟩,some ([(42,(.other,false))],false),true,false,false,none,false,⟨.lblank,some .internalNl,false,.lblank⟩⟩] .leaf) 612808019 [⟨⟨(.inside 1),[],.lcomment,false,[],false⟩,true,false,[],some 4,some ⟨.code,[47],.lblank,false,[],false⟩,some ([(42,(.other,false))],false),false,false,false,none,false,⟨.lcomment,some (.own 8),false,.lblank⟩⟩] .leaf) 612808027 [⟨⟨(.inside 1),[],.lcomment,false,[],false⟩,true,false,[],some 4,some ⟨.code,[47],.lblank,false,[],false⟩,some ([(42,(.other,false))],false),true,false,false,none,false,⟨.lcomment,some .internalNl,false,.lblank⟩⟩] (.node .leaf 612956007 [⟨⟨(.inside 1),[],.lblank,false,[],false⟩,true,false,[],some 4,some ⟨.code,[47],.lblank,false,[],false⟩,some ([(42,(.other,false))],false),true,false,false,none,false,⟨.lblank,some .internalNl,false,.lblank⟩⟩] .leaf))),(.node (.node (.node (.node .leaf 610279154 [⟨⟨(.inside 1),[],.lcode,true,[],false⟩,false,true,[],some 4,some ⟨.code,[47],.lcode,false,[],false⟩,some ([(42,(.other,false))],false),false,false,false,none,false,⟨.lcode,some (.own 8),false,.lblank⟩⟩] .leaf) 610427142 [⟨⟨(.inside 1),[],.lcomment,true,[],false⟩,false,true,[],some 4,some ⟨.code,[47],.lcode,false,[],false⟩,some ([(42,(.other,false))],false),true,false,false,none,false,⟨.lcomment,some .internalNl,false,.lblank⟩⟩] .leaf) 610575122 [⟨⟨(.inside 1),[],.lblank,true,[],false⟩,false,true,[],some 4,some ⟨.code,[47],.lcode,false,[],false⟩,some ([(42,(.other,false))],false),true,false,false,none,false,⟨.lblank,some .internalNl,false,.lblank⟩⟩] (.node .leaf 611636002 [⟨⟨(.inside 1),[],.lcomment,true,[],false⟩,false,true,[],some 4,some ⟨.code,[47],.lcomment,false,[],false⟩,some ([(42,(.other,false))],false),false,false,false,none,false,⟨.lcomment,some (.own 8),false,.lblank⟩⟩] .leaf)) 611636010 [⟨⟨(.inside 1),[],.lcomment,true,[],false⟩,false,true,[],some 4,some ⟨.code,[47],.lcomment,false,[],false⟩,some ([(42,(.other,false))],false),true,false,false,none,false,⟨.lcomment,some .internalNl,false,.lblank⟩⟩] (.node (.node (.node .leaf 611783990 [⟨⟨(.inside 1),[],.lblank,true,[],false⟩,false,true,[],some 4,some ⟨.code,[47],.lcomment,false,[],false⟩,some ([(42,(.other,false))],false),true,false,false,none,false,⟨.lblank,some .internalNl,false,.lblank⟩⟩] .leaf) 612844870 [⟨⟨(.inside 1),[],.lcomment,true,[],false⟩,false,true,[],some 4,some ⟨.code,[47],.lblank,false,[],false⟩,some ([(42,(.other,false))],false),false,false,false,none,false,⟨.lcomment,some (.own 8),false,.lblank⟩⟩] .leaf) 612844878 [⟨⟨(.inside 1),[],.lcomment,true,[],false⟩,false,true,[],some 4,some ⟨.code,[47],.lblank,false,[],false⟩,some ([(42,(.other,false))],false),true,false,false,none,false,⟨.lcomment,some .internalNl,false,.lblank⟩⟩] (.node .leaf 612992858 [⟨⟨(.inside 1),[],.lblank,true,[],false⟩,false,true,[],some 4,some ⟨.code,[47],.lblank,false,[],false⟩,some ([(42,(.other,false))],false),true,false,false,none,false,⟨.lblank,some .internalNl,false,.lblank⟩⟩] .leaf))),(.node (.node (.node (.node .leaf 1148611072 [⟨⟨(.inside 1),[42],.lcode,false,[],false⟩,false,false,[],some 4,some ⟨.code,[47],.lcode,false,[],false⟩,some ([(42,(.other,false))],false),false,false,false,none,false,⟨.lcode,some (.own 8),false,.lblank⟩⟩] .leaf) 1167929900 [⟨⟨(.inside 1),[42],.lcomment,false,[],false⟩,false,false,[],some 4,some ⟨.code,[47],.lcode,false,[],false⟩,some ([(42,(.other,false))],false),true,false,false,none,false,⟨.lcomment,some .internalNl,false,.lblank⟩⟩] .leaf) 1169138760 [⟨⟨(.inside 1),[42],.lcomment,false,[],false⟩,false,false,[],some 4,some ⟨.code,[47],.lcomment,false,[],false⟩,some ([(42,(.other,false))],false),false,false,false,none,false,⟨.lcomment,some (.own 8),false,.lblank⟩⟩] (.node .leaf 1169138768 [⟨⟨(.inside 1),[42],.lcomment,false,[],false⟩,false,false,[],some 4,some ⟨.code,[47],.lcomment,false,[],false⟩,some ([(42,(.other,false))],false),true,false,false,none,false,⟨.lcomment,some .internalNl,false,.lblank⟩⟩] .leaf)) 1170347628 [⟨⟨(.inside 1),[42],.lcomment,false,[],false⟩,false,false,[],some 4,some ⟨.code,[47],.lblank,false,[],false⟩,some ([(42,(.other,false))],false),false,false,false,none,false,⟨.lcomment,some (.own 8),false,.lblank⟩⟩] (.node (.node (.node .leaf 1170347636 [⟨⟨(.inside 1),[42],.lcomment,false,[],false⟩,false,false,[],some 4,some ⟨.code,[47],.lblank,false,[],false⟩,some ([(42,(.other,false))],false),true,false,false,none,false,⟨.lcomment,some .internalNl,false,.lblank⟩⟩] .leaf) 1187248208 [⟨⟨(.inside 1),[42],.lblank,false,[],false⟩,false,false,[],some 4,some ⟨.code,[47],.lcode,false,[],false⟩,some ([(42,(.other,false))],false),true,false,false,none,false,⟨.lcomment,some .internalNl,false,.lblank⟩⟩] .leaf) 1188457076 [⟨⟨(.inside 1),[42],.lblank,false,[],false⟩,false,false,[],some 4,some ⟨.code,[47],.lcomment,false,[],false⟩,some ([(42,(.other,false))],false),true,false,false,none,false,⟨.lcomment,some .internalNl,false,.lblank⟩⟩] (.node .leaf 1189665944 [⟨⟨(.inside 1),[42],.lblank,false,[],false⟩,false,false,[],some 4,some ⟨.code,[47],.lblank,false,[],false⟩,some ([(42,(.other,false))],false),true,false,false,none,false,⟨.lcomment,some .internalNl,false,.lblank⟩⟩] .leaf))),(.node (.node .leaf 1179872 [⟨⟨(.inside 0),[],.lcode,false,[],false⟩,false,false,[],none,none,none,false,false,false,none,false,⟨.lcode,some (.own 8),false,.lblank⟩⟩] .leaf) 1327852 [⟨⟨(.inside 0),[],.lcomment,false,[],false⟩,false,false,[],none,none,none,false,false,false,none,false,⟨.lcomment,some (.own 8),false,.lblank⟩⟩,⟨⟨(.inside 0),[],.lcomment,false,[],false⟩,false,false,[],none,none,none,false,false,false,none,false,⟨.lcomment,some .internalNl,false,.lblank⟩⟩] .leaf),(.node (.node .leaf 1179872 [⟨⟨(.inside 0),[],.lcode,false,[],false⟩,false,false,[],none,none,none,false,false,false,none,false,⟨.lcode,some (.own 8),false,.lblank⟩⟩] .leaf) 1327852 [⟨⟨(.inside 0),[],.lcomment,false,[],false⟩,false,false,[],none,none,none,false,false,false,none,false,⟨.lcomment,some (.own 8),false,.lblank⟩⟩,⟨⟨(.inside 0),[],.lcomment,false,[],false⟩,false,false,[],none,none,none,false,false,false,none,false,⟨.lcomment,some .internalNl,false,.lblank⟩⟩] (.node .leaf 1475832 [⟨⟨(.inside 0),[],.lblank,false,[],false⟩,false,false,[],none,none,none,false,false,false,none,false,⟨.lblank,some .internalNl,false,.lblank⟩⟩] .leaf)),(.node (.node (.node .leaf 157975223 [⟨⟨(.inside 0),[92],.lcode,false,[],false⟩,false,false,[],none,none,none,false,false,false,none,false,⟨.lcode,some (.own 8),false,.lblank⟩⟩] .leaf) 177294043 [⟨⟨(.inside 0),[92],.lcomment,false,[],false⟩,false,false,[],none,none,none,false,false,false,none,false,⟨.lcomment,some (.own 8),false,.lblank⟩⟩,⟨⟨(.inside 0),[92],.lcomment,false,[],false⟩,false,false,[],none,none,none,false,false,false,none,false,⟨.lcomment,some .internalNl,false,.lblank⟩⟩] .leaf) 196612351 [⟨⟨(.inside 0),[92],.lblank,false,[],false⟩,false,false,[],none,none,none,false,false,false,none,false,⟨.lcomment,some .internalNl,false,.lblank⟩⟩] (.node .leaf 351158815 [⟨⟨(.escapedCr 0),[92],.lblank,false,[],false⟩,false,false,[],none,none,none,false,false,false,none,false,⟨.lcomment,some .internalNl,false,.lblank⟩⟩] .leaf)),(.node (.node .leaf 10692808 [⟨⟨(.inside 3),[],.lcode,true,[],false⟩,false,false,[],some 4,some ⟨(.inside 3),[],.lcode,false,[],false⟩,none,false,false,false,none,false,⟨.lcode,some (.own 8),false,.lblank⟩⟩] .leaf) 10692816 [⟨⟨(.inside 3),[],.lcode,true,[],false⟩,false,false,[],some 4,some ⟨(.inside 3),[],.lcode,false,[],false⟩,none,true,false,false,none,false,⟨.lcode,some .internalNl,false,.lblank⟩⟩] (.node .leaf 10988776 [⟨⟨(.inside 3),[],.lblank,true,[],false⟩,false,false,[],some 4,some ⟨(.inside 3),[],.lcode,false,[],false⟩,none,true,false,false,none,false,⟨.lblank,some .internalNl,false,.lblank⟩⟩] .leaf)),.leaf,(.node (.node .leaf 7558888 [⟨⟨(.inside 2),[],.lcode,true,[],false⟩,false,false,[],some 4,some ⟨(.inside 2),[],.lcode,false,[],false⟩,none,false,false,false,none,false,⟨.lcode,some (.own 8),false,.lblank⟩⟩] .leaf) 7558896 [⟨⟨(.inside 2),[],.lcode,true,[],false⟩,false,false,[],some 4,some ⟨(.inside 2),[],.lcode,false,[],false⟩,none,true,false,false,none,false,⟨.lcode,some .internalNl,false,.lblank⟩⟩] (.node .leaf 7854856 [⟨⟨(.inside 2),[],.lblank,true,[],false⟩,false,false,[],some 4,some ⟨(.inside 2),[],.lcode,false,[],false⟩,none,true,false,false,none,false,⟨.lblank,some .internalNl,false,.lblank⟩⟩] .leaf)),.leaf,(.node (.node (.node (.node .leaf 610279138 [⟨⟨(.inside 1),[],.lcode,true,[],false⟩,false,false,[],some 4,some ⟨.code,[47],.lcode,false,[],false⟩,some ([(42,(.other,false))],false),false,false,false,none,false,⟨.lcode,some (.own 8),false,.lblank⟩⟩] .leaf) 610427126 [⟨⟨(.inside 1),[],.lcomment,true,[],false⟩,false,false,[],some 4,some ⟨.code,[47],.lcode,false,[],false⟩,some ([(42,(.other,false))],false),true,false,false,none,false,⟨.lcomment,some .internalNl,false,.lblank⟩⟩] .leaf) 610575106 [⟨⟨(.inside 1),[],.lblank,true,[],false⟩,false,false,[],some 4,some ⟨.code,[47],.lcode,false,[],false⟩,some ([(42,(.other,false))],false),true,false,false,none,false,⟨.lblank,some .internalNl,false,.lblank⟩⟩] (.node .leaf 611635986 [⟨⟨(.inside 1),[],.lcomment,true,[],false⟩,false,false,[],some 4,some ⟨.code,[47],.lcomment,false,[],false⟩,some ([(42,(.other,false))],false),false,false,false,none,false,⟨.lcomment,some (.own 8),false,.lblank⟩⟩] .leaf)) 611635994 [⟨⟨(.inside 1),[],.lcomment,true,[],false⟩,false,false,[],some 4,some ⟨.code,[47],.lcomment,false,[],false⟩,some ([(42,(.other,false))],false),true,false,false,none,false,⟨.lcomment,some .internalNl,false,.lblank⟩⟩] (.node (.node (.node .leaf 611783974 [⟨⟨(.inside 1),[],.lblank,true,[],false⟩,false,false,[],some 4,some ⟨.code,[47],.lcomment,false,[],false⟩,some ([(42,(.other,false))],false),true,false,false,none,false,⟨.lblank,some .internalNl,false,.lblank⟩⟩] .leaf) 612844854 [⟨⟨(.inside 1),[],.lcomment,true,[],false⟩,false,false,[],some 4,some ⟨.code,[47],.lblank,false,[],false⟩,some ([(42,(.other,false))],false),false,false,false,none,false,⟨.lcomment,some (.own 8),false,.lblank⟩⟩] .leaf) 612844862 [⟨⟨(.inside 1),[],.lcomment,true,[],false⟩,false,false,[],some 4,some ⟨.code,[47],.lblank,false,[],false⟩,some ([(42,(.other,false))],false),true,false,false,none,false,⟨.lcomment,some .internalNl,false,.lblank⟩⟩] (.node .leaf 612992842 [⟨⟨(.inside 1),[],.lblank,true,[],false⟩,false,false,[],some 4,some ⟨.code,[47],.lblank,false,[],false⟩,some ([(42,(.other,false))],false),true,false,false,none,false,⟨.lblank,some .internalNl,false,.lblank⟩⟩] .leaf))),.leaf,(.node (.node .leaf 1216739 [⟨⟨(.inside 0),[],.lcode,true,[],false⟩,false,false,[],none,none,none,false,false,false,none,false,⟨.lcode,some (.own 8),false,.lblank⟩⟩] .leaf) 1364719 [⟨⟨(.inside 0),[],.lcomment,true,[],false⟩,false,false,[],none,none,none,false,false,false,none,false,⟨.lcomment,some (.own 8),false,.lblank⟩⟩,⟨⟨(.inside 0),[],.lcomment,true,[],false⟩,false,false,[],none,none,none,false,false,false,none,false,⟨.lcomment,some .internalNl,false,.lblank⟩⟩] .leaf),(.node (.node .leaf 1216739 [⟨⟨(.inside 0),[],.lcode,true,[],false⟩,false,false,[],none,none,none,false,false,false,none,false,⟨.lcode,some (.own 8),false,.lblank⟩⟩] .leaf) 1364719 [⟨⟨(.inside 0),[],.lcomment,true,[],false⟩,false,false,[],none,none,none,false,false,false,none,false,⟨.lcomment,some (.own 8),false,.lblank⟩⟩,⟨⟨(.inside 0),[],.lcomment,true,[],false⟩,false,false,[],none,none,none,false,false,false,none,false,⟨.lcomment,some .internalNl,false,.lblank⟩⟩] .leaf),(.node (.node (.node .leaf 560246981 [⟨⟨(.escapedCr 0),[],.lcode,false,[],false⟩,true,false,[],some 1,some ⟨(.inside 0),[92],.lcode,false,[],false⟩,some ([(13,(.cr,false))],false),false,false,false,none,false,⟨.lcode,some (.own 8),false,.lblank⟩⟩] .leaf) 561603829 [⟨⟨(.escapedCr 0),[],.lcomment,false,[],false⟩,true,false,[],some 1,some ⟨(.inside 0),[92],.lcomment,false,[],false⟩,some ([(13,(.cr,false))],false),false,false,false,none,false,⟨.lcomment,some (.own 8),false,.lblank⟩⟩,⟨⟨(.escapedCr 0),[],.lcomment,false,[],false⟩,true,false,[],some 1,some ⟨(.inside 0),[92],.lcomment,false,[],false⟩,some ([(13,(.cr,false))],false),false,false,false,none,false,⟨.lcomment,some .internalNl,false,.lblank⟩⟩] .leaf) 562812697 [⟨⟨(.escapedCr 0),[],.lcomment,false,[],false⟩,true,false,[],some 1,some ⟨(.inside 0),[92],.lblank,false,[],false⟩,some ([(13,(.cr,false))],false),false,false,false,none,false,⟨.lcomment,some .internalNl,false,.lblank⟩⟩] (.node .leaf 572483641 [⟨⟨(.escapedCr 0),[],.lcomment,false,[],false⟩,true,false,[],some 1,some ⟨(.escapedCr 0),[92],.lblank,false,[],false⟩,some ([(13,(.cr,false))],false),false,false,false,none,false,⟨.lcomment,some .internalNl,false,.lblank⟩⟩] .leaf)),(.node (.node .leaf 2396499 [⟨⟨(.escapedCr 0),[],.lcode,true,[],false⟩,false,true,[],none,none,none,false,false,false,none,false,⟨.lcode,some (.own 8),false,.lblank⟩⟩] .leaf) 2544479 [⟨⟨(.escapedCr 0),[],.lcomment,true,[],false⟩,false,true,[],none,none,none,false,false,false,none,false,⟨.lcomment,some (.own 8),false,.lblank⟩⟩,⟨⟨(.escapedCr 0),[],.lcomment,true,[],false⟩,false,true,[],none,none,none,false,false,false,none,false,⟨.lcomment,some .internalNl,false,.lblank⟩⟩] .leaf),(.node (.node .leaf 1216739 [⟨⟨(.inside 0),[],.lcode,true,[],false⟩,false,false,[],none,none,none,false,false,false,none,false,⟨.lcode,some (.own 8),false,.lblank⟩⟩] .leaf) 1364719 [⟨⟨(.inside 0),[],.lcomment,true,[],false⟩,false,false,[],none,none,none,false,false,false,none,false,⟨.lcomment,some (.own 8),false,.lblank⟩⟩,⟨⟨(.inside 0),[],.lcomment,true,[],false⟩,false,false,[],none,none,none,false,false,false,none,false,⟨.lcomment,some .internalNl,false,.lblank⟩⟩] .leaf)]
theorem c_line_lClosed : CA.closedF c_line_M c_line_lex true false c_line_lfr c_line_lTab = true := by decide +kernel
def c_line_L : LCert LexisTable.c_line c_line_M := c_line_lex_eq ▸ ⟨⟨c_line_lmasks, c_line_lex.rel, c_line_lcs, c_line_lrows, c_line_lmasksIn, c_line_lrepOk, c_line_lrowsOk⟩,
  _, rfl, by decide +kernel, by decide +kernel, true, false, CA.closed_of c_line_lfrOk c_line_lClosed⟩
theorem c_line_L_chk : c_line_L.chk = true := by
  have : ∀ (l : Lexis) (h : LexisTable.c_line = l) (C : LCert l c_line_M), (h ▸ C : LCert LexisTable.c_line c_line_M).chk = C.chk := by rintro _ rfl _; rfl
  exact this _ c_line_lex_eq _

def cs_line_lex : Lexis := [⟨[35],[],.lcomment,false,false,false,true,false,false,true,false,none,false,false,false,false,[]⟩,⟨[34],[[34]],.lcode,false,true,true,true,false,false,true,false,none,false,false,false,false,[]⟩]
theorem cs_line_lex_eq : LexisTable.cs_line = cs_line_lex := by decide +kernel
def cs_line_lmasks : List Nat := [4294967808,34359738368,17179869184,8192,1024,4096,115792089237316195423570985008687907853269984665640564039457584007908834656767,115792089237316195423570985008687907853269984665640564039457584007913129626623,115792089237316195423570985008687907853269984665635612279300442486796353260543,4951760157141521099596496896]
def cs_line_lcs : List (Nat × Nat) := [(0,115792089237316195423570985008687907853269984665635612279300442486757698552319),(9,4294967808),(10,1024),(11,2048),(12,4096),(13,8192),(34,17179869184),(35,34359738368),(92,4951760157141521099596496896)]
theorem cs_line_lmasksIn : masksIn cs_line_nfa cs_line_lmasks = true := by decide +kernel
theorem cs_line_lrepOk : repOk cs_line_lmasks cs_line_lcs = true := by decide +kernel
def cs_line_lrows : List Row := [⟨[],none,[],[⟨256,.other,false,some ⟨0,[.setEnt (.own 3)],some 4,true⟩⟩,⟨256,.ws,false,some ⟨1,[.setEnt (.own 0)],some 0,false⟩⟩,⟨256,.lf,false,some ⟨0,[.setEnt .newline],some 3,true⟩⟩,⟨256,.vt,false,none⟩,⟨256,.ff,false,some ⟨0,[.setEnt .newline],some 3,true⟩⟩,⟨256,.cr,false,some ⟨2,[.setEnt .newline],none,false⟩⟩,⟨256,.cr,true,some ⟨3,[.setEnt .newline],some 3,false⟩⟩,⟨34,.other,false,some ⟨4,[.code,.setEnt (.own 3)],some 4,false⟩⟩,⟨35,.other,false,some ⟨5,[.comment,.setEnt (.own 3)],some 1,false⟩⟩,⟨92,.other,false,some ⟨0,[.setEnt (.own 3)],some 4,true⟩⟩]⟩,⟨[0],some 0,[],[⟨256,.other,false,none⟩,⟨256,.ws,false,some ⟨1,[.setEnt (.own 0)],some 0,false⟩⟩,⟨256,.lf,false,none⟩,⟨256,.vt,false,none⟩,⟨256,.ff,false,none⟩,⟨256,.cr,false,none⟩,⟨256,.cr,true,none⟩,⟨34,.other,false,none⟩,⟨35,.other,false,none⟩,⟨92,.other,false,none⟩]⟩,⟨[8],none,[],[⟨256,.other,false,none⟩,⟨256,.ws,false,none⟩,⟨256,.lf,false,some ⟨0,[.setEnt .newline],some 3,true⟩⟩,⟨256,.vt,false,none⟩,⟨256,.ff,false,none⟩,⟨256,.cr,false,none⟩,⟨256,.cr,true,none⟩,⟨34,.other,false,none⟩,⟨35,.other,false,none⟩,⟨92,.other,false,none⟩]⟩,⟨[8,12],some 3,[],[⟨256,.other,false,none⟩,⟨256,.ws,false,none⟩,⟨256,.lf,false,some ⟨0,[.setEnt .newline],some 3,true⟩⟩,⟨256,.vt,false,none⟩,⟨256,.ff,false,none⟩,⟨256,.cr,false,none⟩,⟨256,.cr,true,none⟩,⟨34,.other,false,none⟩,⟨35,.other,false,none⟩,⟨92,.other,false,none⟩]⟩,⟨[3,13],some 4,[],[⟨256,.other,false,some ⟨6,[],none,false⟩⟩,⟨256,.ws,false,some ⟨6,[],none,false⟩⟩,⟨256,.lf,false,none⟩,⟨256,.vt,false,some ⟨6,[],none,false⟩⟩,⟨256,.ff,false,none⟩,⟨256,.cr,false,none⟩,⟨256,.cr,true,none⟩,⟨34,.other,false,some ⟨0,[],some 2,true⟩⟩,⟨35,.other,false,some ⟨6,[],none,false⟩⟩,⟨92,.other,false,some ⟨7,[],none,false⟩⟩]⟩,⟨[1,13],some 1,[],[⟨256,.other,false,some ⟨8,[],some 1,false⟩⟩,⟨256,.ws,false,some ⟨8,[],some 1,false⟩⟩,⟨256,.lf,false,none⟩,⟨256,.vt,false,some ⟨8,[],some 1,false⟩⟩,⟨256,.ff,false,none⟩,⟨256,.cr,false,none⟩,⟨256,.cr,true,none⟩,⟨34,.other,false,some ⟨8,[],some 1,false⟩⟩,⟨35,.other,false,some ⟨8,[],some 1,false⟩⟩,⟨92,.other,false,some ⟨8,[],some 1,false⟩⟩]⟩,⟨[4],none,[],[⟨256,.other,false,some ⟨6,[],none,false⟩⟩,⟨256,.ws,false,some ⟨6,[],none,false⟩⟩,⟨256,.lf,false,none⟩,⟨256,.vt,false,some ⟨6,[],none,false⟩⟩,⟨256,.ff,false,none⟩,⟨256,.cr,false,none⟩,⟨256,.cr,true,none⟩,⟨34,.other,false,some ⟨0,[],some 2,true⟩⟩,⟨35,.other,false,some ⟨6,[],none,false⟩⟩,⟨92,.other,false,some ⟨7,[],none,false⟩⟩]⟩,⟨[5],none,[],[⟨256,.other,false,some ⟨9,[],none,false⟩⟩,⟨256,.ws,false,some ⟨9,[],none,false⟩⟩,⟨256,.lf,false,none⟩,⟨256,.vt,false,some ⟨9,[],none,false⟩⟩,⟨256,.ff,false,none⟩,⟨256,.cr,false,none⟩,⟨256,.cr,true,none⟩,⟨34,.other,false,some ⟨9,[],none,false⟩⟩,⟨35,.other,false,some ⟨9,[],none,false⟩⟩,⟨92,.other,false,some ⟨9,[],none,false⟩⟩]⟩,⟨[2],some 1,[],[⟨256,.other,false,some ⟨8,[],some 1,false⟩⟩,⟨256,.ws,false,some ⟨8,[],some 1,false⟩⟩,⟨256,.lf,false,none⟩,⟨256,.vt,false,some ⟨8,[],some 1,false⟩⟩,⟨256,.ff,false,none⟩,⟨256,.cr,false,none⟩,⟨256,.cr,true,none⟩,⟨34,.other,false,some ⟨8,[],some 1,false⟩⟩,⟨35,.other,false,some ⟨8,[],some 1,false⟩⟩,⟨92,.other,false,some ⟨8,[],some 1,false⟩⟩]⟩,⟨[6],none,[],[⟨256,.other,false,some ⟨6,[],none,false⟩⟩,⟨256,.ws,false,some ⟨6,[],none,false⟩⟩,⟨256,.lf,false,none⟩,⟨256,.vt,false,some ⟨6,[],none,false⟩⟩,⟨256,.ff,false,none⟩,⟨256,.cr,false,none⟩,⟨256,.cr,true,none⟩,⟨34,.other,false,some ⟨0,[],some 2,true⟩⟩,⟨35,.other,false,some ⟨6,[],none,false⟩⟩,⟨92,.other,false,some ⟨7,[],none,false⟩⟩]⟩]
theorem cs_line_lrowsOk : rowsOk cs_line_nfa cs_line_lex.rel (cs_line_lcs.map (·.1)) cs_line_lrows = true := by decide +kernel
def cs_line_lfr : List CA.FRow := [⟨true,none,[],[⟨256,.other,false,false,none,some ([.setEnt (.own 3)],(some 4,true))⟩,⟨9,.ws,false,false,some 1,some ([.setEnt (.own 0)],(some 0,false))⟩,⟨10,.lf,false,true,none,some ([.setEnt .newline],(some 3,true))⟩,⟨11,.vt,false,false,none,none⟩,⟨12,.ff,false,true,none,some ([.setEnt .newline],(some 3,true))⟩,⟨13,.cr,false,false,some 2,some ([.setEnt .newline],(none,false))⟩,⟨13,.cr,true,true,some 3,some ([.setEnt .newline],(some 3,false))⟩,⟨34,.other,false,false,some 4,some ([.code,.setEnt (.own 3)],(some 4,false))⟩,⟨35,.other,false,false,some 5,some ([.comment,.setEnt (.own 3)],(some 1,false))⟩,⟨92,.other,false,false,none,some ([.setEnt (.own 3)],(some 4,true))⟩]⟩,⟨false,some 0,[],[⟨256,.other,false,false,none,none⟩,⟨9,.ws,false,false,some 1,some ([.setEnt (.own 0)],(some 0,false))⟩,⟨10,.lf,false,true,none,none⟩,⟨11,.vt,false,false,none,none⟩,⟨12,.ff,false,true,none,none⟩,⟨13,.cr,false,false,none,none⟩,⟨13,.cr,true,true,none,none⟩,⟨34,.other,false,false,none,none⟩,⟨35,.other,false,false,none,none⟩,⟨92,.other,false,false,none,none⟩]⟩,⟨false,none,[],[⟨256,.other,false,false,none,none⟩,⟨9,.ws,false,false,none,none⟩,⟨10,.lf,false,true,none,some ([.setEnt .newline],(some 3,true))⟩,⟨11,.vt,false,false,none,none⟩,⟨12,.ff,false,true,none,none⟩,⟨13,.cr,false,false,none,none⟩,⟨13,.cr,true,true,none,none⟩,⟨34,.other,false,false,none,none⟩,⟨35,.other,false,false,none,none⟩,⟨92,.other,false,false,none,none⟩]⟩,⟨false,some 3,[],[⟨256,.other,false,false,none,none⟩,⟨9,.ws,false,false,none,none⟩,⟨10,.lf,false,true,none,some ([.setEnt .newline],(some 3,true))⟩,⟨11,.vt,false,false,none,none⟩,⟨12,.ff,false,true,none,none⟩,⟨13,.cr,false,false,none,none⟩,⟨13,.cr,true,true,none,none⟩,⟨34,.other,false,false,none,none⟩,⟨35,.other,false,false,none,none⟩,⟨92,.other,false,false,none,none⟩]⟩,⟨false,some 4,[],[⟨256,.other,false,false,some 6,some ([],(none,false))⟩,⟨9,.ws,false,false,some 6,some ([],(none,false))⟩,⟨10,.lf,false,true,none,none⟩,⟨11,.vt,false,false,some 6,some ([],(none,false))⟩,⟨12,.ff,false,true,none,none⟩,⟨13,.cr,false,false,none,none⟩,⟨13,.cr,true,true,none,none⟩,⟨34,.other,false,false,none,some ([],(some 2,true))⟩,⟨35,.other,false,false,some 6,some ([],(none,false))⟩,⟨92,.other,false,false,some 7,some ([],(none,false))⟩]⟩,⟨false,some 1,[],[⟨256,.other,false,false,some 8,some ([],(some 1,false))⟩,⟨9,.ws,false,false,some 8,some ([],(some 1,false))⟩,⟨10,.lf,false,true,none,none⟩,⟨11,.vt,false,false,some 8,some ([],(some 1,false))⟩,⟨12,.ff,false,true,none,none⟩,⟨13,.cr,false,false,none,none⟩,⟨13,.cr,true,true,none,none⟩,⟨34,.other,false,false,some 8,some ([],(some 1,false))⟩,⟨35,.other,false,false,some 8,some ([],(some 1,false))⟩,⟨92,.other,false,false,some 8,some ([],(some 1,false))⟩]⟩,⟨false,none,[],[⟨256,.other,false,false,some 6,some ([],(none,false))⟩,⟨9,.ws,false,false,some 6,some ([],(none,false))⟩,⟨10,.lf,false,true,none,none⟩,⟨11,.vt,false,false,some 6,some ([],(none,false))⟩,⟨12,.ff,false,true,none,none⟩,⟨13,.cr,false,false,none,none⟩,⟨13,.cr,true,true,none,none⟩,⟨34,.other,false,false,none,some ([],(some 2,true))⟩,⟨35,.other,false,false,some 6,some ([],(none,false))⟩,⟨92,.other,false,false,some 7,some ([],(none,false))⟩]⟩,⟨false,none,[],[⟨256,.other,false,false,some 9,some ([],(none,false))⟩,⟨9,.ws,false,false,some 9,some ([],(none,false))⟩,⟨10,.lf,false,true,none,none⟩,⟨11,.vt,false,false,some 9,some ([],(none,false))⟩,⟨12,.ff,false,true,none,none⟩,⟨13,.cr,false,false,none,none⟩,⟨13,.cr,true,true,none,none⟩,⟨34,.other,false,false,some 9,some ([],(none,false))⟩,⟨35,.other,false,false,some 9,some ([],(none,false))⟩,⟨92,.other,false,false,some 9,some ([],(none,false))⟩]⟩,⟨false,some 1,[],[⟨256,.other,false,false,some 8,some ([],(some 1,false))⟩,⟨9,.ws,false,false,some 8,some ([],(some 1,false))⟩,⟨10,.lf,false,true,none,none⟩,⟨11,.vt,false,false,some 8,some ([],(some 1,false))⟩,⟨12,.ff,false,true,none,none⟩,⟨13,.cr,false,false,none,none⟩,⟨13,.cr,true,true,none,none⟩,⟨34,.other,false,false,some 8,some ([],(some 1,false))⟩,⟨35,.other,false,false,some 8,some ([],(some 1,false))⟩,⟨92,.other,false,false,some 8,some ([],(some 1,false))⟩]⟩,⟨false,none,[],[⟨256,.other,false,false,some 6,some ([],(none,false))⟩,⟨9,.ws,false,false,some 6,some ([],(none,false))⟩,⟨10,.lf,false,true,none,none⟩,⟨11,.vt,false,false,some 6,some ([],(none,false))⟩,⟨12,.ff,false,true,none,none⟩,⟨13,.cr,false,false,none,none⟩,⟨13,.cr,true,true,none,none⟩,⟨34,.other,false,false,none,some ([],(some 2,true))⟩,⟨35,.other,false,false,some 6,some ([],(none,false))⟩,⟨92,.other,false,false,some 7,some ([],(none,false))⟩]⟩]
theorem cs_line_lfrOk : cs_line_lrows.map (CA.prep cs_line_lex) = cs_line_lfr := by decide +kernel
def cs_line_lTab : List CT := [(.node (.node (.node (.node (.node .leaf 128 [⟨⟨.code,[],.lcode,false,[],false⟩,false,false,[],none,none,none,false,false,false,none,false,⟨.lcode,none,false,.lblank⟩⟩] .leaf) 38019 [⟨⟨.code,[],.lcode,true,[],false⟩,false,false,[],none,none,none,false,false,false,none,false,⟨.lblank,none,false,.lblank⟩⟩] (.node .leaf 98440 [⟨⟨.code,[],.lcode,false,[(1,0)],false⟩,false,false,[],none,none,none,false,false,false,none,false,⟨.lcode,none,false,.lblank⟩⟩] .leaf)) 110729 [⟨⟨.code,[],.lcode,false,[(1,1)],false⟩,false,false,[],none,none,none,false,false,false,none,false,⟨.lcode,none,false,.lblank⟩⟩] (.node (.node .leaf 185487 [⟨⟨.code,[],.lcomment,true,[],false⟩,false,false,[],none,none,none,false,false,false,none,false,⟨.lblank,none,false,.lblank⟩⟩] .leaf) 296088 [⟨⟨.code,[],.lblank,false,[],false⟩,false,false,[],none,none,none,false,false,false,none,false,⟨.lblank,none,false,.lblank⟩⟩] .leaf)) 332955 [⟨⟨.code,[],.lblank,true,[],false⟩,false,false,[],none,none,none,false,false,false,none,false,⟨.lblank,none,false,.lblank⟩⟩] (.node (.node (.node .leaf 1179872 [⟨⟨(.inside 0),[],.lcode,false,[],false⟩,false,false,[none],none,none,none,false,false,false,none,false,⟨.lcode,none,false,.lblank⟩⟩] .leaf) 1327852 [⟨⟨(.inside 0),[],.lcomment,false,[],false⟩,false,false,[none],none,none,none,false,false,false,none,false,⟨.lcomment,none,false,.lblank⟩⟩] (.node .leaf 22179935 [⟨⟨(.inside 0),[],.lcode,false,[],false⟩,false,false,[some (10,(.lf,false))],none,none,none,false,false,false,none,false,⟨.lcode,none,false,.lblank⟩⟩] .leaf)) 22327915 [⟨⟨(.inside 0),[],.lcomment,false,[],false⟩,false,false,[some (10,(.lf,false))],none,none,none,false,false,false,none,false,⟨.lcomment,none,false,.lblank⟩⟩] (.node (.node .leaf 26179947 [⟨⟨(.inside 0),[],.lcode,false,[],false⟩,false,false,[some (12,(.ff,false))],none,none,none,false,false,false,none,false,⟨.lcode,none,false,.lblank⟩⟩] .leaf) 26327927 [⟨⟨(.inside 0),[],.lcomment,false,[],false⟩,false,false,[some (12,(.ff,false))],none,none,none,false,false,false,none,false,⟨.lcomment,none,false,.lblank⟩⟩] .leaf))) 28179953 [⟨⟨(.inside 0),[],.lcode,false,[],false⟩,false,false,[some (13,(.cr,false))],none,none,none,false,false,false,none,false,⟨.lcode,none,false,.lblank⟩⟩] (.node (.node (.node (.node .leaf 28327933 [⟨⟨(.inside 0),[],.lcomment,false,[],false⟩,false,false,[some (13,(.cr,false))],none,none,none,false,false,false,none,false,⟨.lcomment,none,false,.lblank⟩⟩] .leaf) 29179956 [⟨⟨(.inside 0),[],.lcode,false,[],false⟩,false,false,[some (13,(.cr,true))],none,none,none,false,false,false,none,false,⟨.lcode,none,false,.lblank⟩⟩] (.node .leaf 29327936 [⟨⟨(.inside 0),[],.lcomment,false,[],false⟩,false,false,[some (13,(.cr,true))],none,none,none,false,false,false,none,false,⟨.lcomment,none,false,.lblank⟩⟩] .leaf)) 154644904 [⟨⟨(.inside 0),[],.lcode,false,[(1,0)],false⟩,false,false,[none],none,none,none,false,false,false,none,false,⟨.lcode,none,false,.lblank⟩⟩] (.node (.node .leaf 154657193 [⟨⟨(.inside 0),[],.lcode,false,[(1,1)],false⟩,false,false,[none],none,none,none,false,false,false,none,false,⟨.lcode,none,false,.lblank⟩⟩] .leaf) 175644967 [⟨⟨(.inside 0),[],.lcode,false,[(1,0)],false⟩,false,false,[some (10,(.lf,false))],none,none,none,false,false,false,none,false,⟨.lcode,none,false,.lblank⟩⟩] .leaf)) 175657256 [⟨⟨(.inside 0),[],.lcode,false,[(1,1)],false⟩,false,false,[some (10,(.lf,false))],none,none,none,false,false,false,none,false,⟨.lcode,none,false,.lblank⟩⟩] (.node (.node (.node .leaf 179644979 [⟨⟨(.inside 0),[],.lcode,false,[(1,0)],false⟩,false,false,[some (12,(.ff,false))],none,none,none,false,false,false,none,false,⟨.lcode,none,false,.lblank⟩⟩] .leaf) 179657268 [⟨⟨(.inside 0),[],.lcode,false,[(1,1)],false⟩,false,false,[some (12,(.ff,false))],none,none,none,false,false,false,none,false,⟨.lcode,none,false,.lblank⟩⟩] (.node .leaf 181644985 [⟨⟨(.inside 0),[],.lcode,false,[(1,0)],false⟩,false,false,[some (13,(.cr,false))],none,none,none,false,false,false,none,false,⟨.lcode,none,false,.lblank⟩⟩] .leaf)) 181657274 [⟨⟨(.inside 0),[],.lcode,false,[(1,1)],false⟩,false,false,[some (13,(.cr,false))],none,none,none,false,false,false,none,false,⟨.lcode,none,false,.lblank⟩⟩] (.node (.node .leaf 182644988 [⟨⟨(.inside 0),[],.lcode,false,[(1,0)],false⟩,false,false,[some (13,(.cr,true))],none,none,none,false,false,false,none,false,⟨.lcode,none,false,.lblank⟩⟩] .leaf) 182657277 [⟨⟨(.inside 0),[],.lcode,false,[(1,1)],false⟩,false,false,[some (13,(.cr,true))],none,none,none,false,false,false,none,false,⟨.lcode,none,false,.lblank⟩⟩] .leaf)))),(.node (.node .leaf 128 [⟨⟨.code,[],.lcode,false,[],false⟩,false,false,[],none,none,none,false,false,false,none,false,⟨.lcode,some (.own 0),false,.lblank⟩⟩] .leaf) 98440 [⟨⟨.code,[],.lcode,false,[(1,0)],false⟩,false,false,[],none,none,none,false,false,false,none,false,⟨.lcode,some (.own 0),false,.lblank⟩⟩] (.node .leaf 296088 [⟨⟨.code,[],.lblank,false,[],false⟩,false,false,[],none,none,none,false,false,false,none,false,⟨.lblank,some (.own 0),false,.lblank⟩⟩] .leaf)),(.node (.node .leaf 160 [⟨⟨.code,[],.lcode,false,[],false⟩,true,false,[],none,none,none,false,false,false,none,false,⟨.lcode,some .newline,false,.lblank⟩⟩] .leaf) 148140 [⟨⟨.code,[],.lcomment,false,[],false⟩,true,false,[],none,none,none,false,false,false,none,false,⟨.lcomment,some .newline,false,.lblank⟩⟩] (.node .leaf 296120 [⟨⟨.code,[],.lblank,false,[],false⟩,true,false,[],none,none,none,false,false,false,none,false,⟨.lblank,some .newline,false,.lblank⟩⟩] .leaf)),(.node (.node .leaf 37011 [⟨⟨.code,[],.lcode,true,[],false⟩,false,true,[],none,none,none,false,false,false,none,false,⟨.lcode,some .newline,false,.lblank⟩⟩] .leaf) 184991 [⟨⟨.code,[],.lcomment,true,[],false⟩,false,true,[],none,none,none,false,false,false,none,false,⟨.lcomment,some .newline,false,.lblank⟩⟩] (.node .leaf 332971 [⟨⟨.code,[],.lblank,true,[],false⟩,false,true,[],none,none,none,false,false,false,none,false,⟨.lblank,some .newline,false,.lblank⟩⟩] .leaf)),(.node (.node (.node .leaf 98440 [⟨⟨.code,[],.lcode,false,[(1,0)],false⟩,false,false,[],none,none,none,false,false,false,none,false,⟨.lcode,some (.own 3),false,.lblank⟩⟩] .leaf) 98444 [⟨⟨.code,[],.lcode,false,[(1,0)],false⟩,false,false,[],none,none,none,false,true,false,none,false,⟨.lcode,some (.own 3),false,.lblank⟩⟩] .leaf) 4129232 [⟨⟨(.inside 1),[],.lcode,false,[],false⟩,false,false,[],none,none,none,false,false,false,none,false,⟨.lcode,some (.own 3),false,.lblank⟩⟩] (.node .leaf 541011064 [⟨⟨(.inside 1),[],.lcode,false,[(1,0)],false⟩,false,false,[],none,none,none,false,false,false,none,false,⟨.lcode,some (.own 3),false,.lblank⟩⟩] .leaf)),(.node (.node .leaf 1179872 [⟨⟨(.inside 0),[],.lcode,false,[],false⟩,false,false,[],none,none,none,false,false,false,none,false,⟨.lcode,some (.own 3),false,.lblank⟩⟩] .leaf) 1327852 [⟨⟨(.inside 0),[],.lcomment,false,[],false⟩,false,false,[],none,none,none,false,false,false,none,false,⟨.lcomment,some (.own 3),false,.lblank⟩⟩] (.node .leaf 154644904 [⟨⟨(.inside 0),[],.lcode,false,[(1,0)],false⟩,false,false,[],none,none,none,false,false,false,none,false,⟨.lcode,some (.own 3),false,.lblank⟩⟩] .leaf)),(.node (.node (.node .leaf 105077 [⟨⟨.code,[],.lcode,false,[(1,0)],false⟩,false,false,[],some 4,some ⟨.code,[],.lcode,false,[(1,0)],false⟩,none,false,false,false,none,false,⟨.lcode,some (.own 3),false,.lblank⟩⟩] .leaf) 4388101 [⟨⟨(.inside 1),[],.lcode,false,[],false⟩,false,false,[],some 4,some ⟨(.inside 1),[],.lcode,false,[],false⟩,none,false,false,false,none,false,⟨.lcode,some (.own 3),false,.lblank⟩⟩] (.node .leaf 48400851 [⟨⟨.code,[],.lblank,false,[(1,0)],true⟩,false,false,[],some 4,some ⟨.code,[],.lcode,false,[(1,0)],false⟩,none,false,true,false,none,false,⟨.lcode,some (.own 3),false,.lblank⟩⟩] .leaf)) 154651541 [⟨⟨(.inside 0),[],.lcode,false,[(1,0)],false⟩,false,false,[],some 4,some ⟨.code,[],.lcode,false,[(1,0)],false⟩,none,false,false,false,none,false,⟨.lcode,some (.own 3),false,.lblank⟩⟩] (.node (.node .leaf 541017701 [⟨⟨(.inside 1),[],.lcode,false,[(1,0)],false⟩,false,false,[],some 4,some ⟨.code,[],.lcode,false,[(1,0)],false⟩,none,false,false,false,none,false,⟨.lcode,some (.own 3),false,.lblank⟩⟩] .leaf) 574866005 [⟨⟨(.inside 1),[],.lcode,false,[(1,0)],false⟩,false,false,[],some 4,some ⟨(.inside 1),[],.lcode,false,[(1,0)],false⟩,none,false,false,false,none,false,⟨.lcode,some (.own 3),false,.lblank⟩⟩] .leaf)),(.node (.node (.node .leaf 117366 [⟨⟨.code,[],.lcode,false,[(1,1)],false⟩,false,false,[],some 4,some ⟨.code,[],.lcode,false,[(1,0)],false⟩,none,false,false,false,none,false,⟨.lcode,some (.own 3),false,.lblank⟩⟩] .leaf) 48413140 [⟨⟨.code,[],.lblank,false,[(1,1)],true⟩,false,false,[],some 4,some ⟨.code,[],.lcode,false,[(1,0)],false⟩,none,false,true,false,none,false,⟨.lcode,some (.own 3),false,.lblank⟩⟩] (.node .leaf 154663830 [⟨⟨(.inside 0),[],.lcode,false,[(1,1)],false⟩,false,false,[],some 4,some ⟨.code,[],.lcode,false,[(1,0)],false⟩,none,false,false,false,none,false,⟨.lcode,some (.own 3),false,.lblank⟩⟩] .leaf)) 544600252 [⟨⟨(.inside 1),[92],.lcode,false,[],false⟩,false,false,[],some 4,some ⟨(.inside 1),[],.lcode,false,[],false⟩,none,false,false,false,none,false,⟨.lcode,some (.own 3),false,.lblank⟩⟩] (.node (.node .leaf 71308809482 [⟨⟨(.inside 1),[92],.lcode,false,[(1,0)],false⟩,false,false,[],some 4,some ⟨.code,[],.lcode,false,[(1,0)],false⟩,none,false,false,false,none,false,⟨.lcode,some (.own 3),false,.lblank⟩⟩] .leaf) 71342657786 [⟨⟨(.inside 1),[92],.lcode,false,[(1,0)],false⟩,false,false,[],some 4,some ⟨(.inside 1),[],.lcode,false,[(1,0)],false⟩,none,false,false,false,none,false,⟨.lcode,some (.own 3),false,.lblank⟩⟩] .leaf)),(.node (.node (.node .leaf 1179872 [⟨⟨(.inside 0),[],.lcode,false,[],false⟩,false,false,[],none,none,none,false,false,false,none,false,⟨.lcode,some (.own 3),false,.lblank⟩⟩] .leaf) 1327852 [⟨⟨(.inside 0),[],.lcomment,false,[],false⟩,false,false,[],none,none,none,false,false,false,none,false,⟨.lcomment,some (.own 3),false,.lblank⟩⟩] .leaf) 154644904 [⟨⟨(.inside 0),[],.lcode,false,[(1,0)],false⟩,false,false,[],none,none,none,false,false,false,none,false,⟨.lcode,some (.own 3),false,.lblank⟩⟩] (.node .leaf 154657193 [⟨⟨(.inside 0),[],.lcode,false,[(1,1)],false⟩,false,false,[],none,none,none,false,false,false,none,false,⟨.lcode,some (.own 3),false,.lblank⟩⟩] .leaf)),(.node (.node (.node .leaf 105077 [⟨⟨.code,[],.lcode,false,[(1,0)],false⟩,false,false,[],some 4,some ⟨.code,[],.lcode,false,[(1,0)],false⟩,none,false,false,false,none,false,⟨.lcode,some (.own 3),false,.lblank⟩⟩] .leaf) 4388101 [⟨⟨(.inside 1),[],.lcode,false,[],false⟩,false,false,[],some 4,some ⟨(.inside 1),[],.lcode,false,[],false⟩,none,false,false,false,none,false,⟨.lcode,some (.own 3),false,.lblank⟩⟩] (.node .leaf 48400851 [⟨⟨.code,[],.lblank,false,[(1,0)],true⟩,false,false,[],some 4,some ⟨.code,[],.lcode,false,[(1,0)],false⟩,none,false,true,false,none,false,⟨.lcode,some (.own 3),false,.lblank⟩⟩] .leaf)) 154651541 [⟨⟨(.inside 0),[],.lcode,false,[(1,0)],false⟩,false,false,[],some 4,some ⟨.code,[],.lcode,false,[(1,0)],false⟩,none,false,false,false,none,false,⟨.lcode,some (.own 3),false,.lblank⟩⟩] (.node (.node .leaf 541017701 [⟨⟨(.inside 1),[],.lcode,false,[(1,0)],false⟩,false,false,[],some 4,some ⟨.code,[],.lcode,false,[(1,0)],false⟩,none,false,false,false,none,false,⟨.lcode,some (.own 3),false,.lblank⟩⟩] .leaf) 574866005 [⟨⟨(.inside 1),[],.lcode,false,[(1,0)],false⟩,false,false,[],some 4,some ⟨(.inside 1),[],.lcode,false,[(1,0)],false⟩,none,false,false,false,none,false,⟨.lcode,some (.own 3),false,.lblank⟩⟩] .leaf))]
theorem cs_line_lClosed : CA.closedF cs_line_M cs_line_lex true false cs_line_lfr cs_line_lTab = true := by decide +kernel
def cs_line_L : LCert LexisTable.cs_line cs_line_M := cs_line_lex_eq ▸ ⟨⟨cs_line_lmasks, cs_line_lex.rel, cs_line_lcs, cs_line_lrows, cs_line_lmasksIn, cs_line_lrepOk, cs_line_lrowsOk⟩,
  _, rfl, by decide +kernel, by decide +kernel, true, false, CA.closed_of cs_line_lfrOk cs_line_lClosed⟩
theorem cs_line_L_chk : cs_line_L.chk = true := by
  have : ∀ (l : Lexis) (h : LexisTable.cs_line = l) (C : LCert l cs_line_M), (h ▸ C : LCert LexisTable.cs_line cs_line_M).chk = C.chk := by rintro _ rfl _; rfl
  exact this _ cs_line_lex_eq _

def erlang_line_lex : Lexis := [⟨[37,37],[],.lcomment,false,false,false,true,false,false,true,false,none,false,false,false,false,[]⟩,⟨[39],[[39]],.lcode,false,true,true,true,false,false,true,false,none,false,false,false,false,[]⟩,⟨[34],[[34]],.lcode,false,true,true,true,false,false,true,false,none,false,false,false,false,[]⟩]
theorem erlang_line_lex_eq : LexisTable.erlang_line = erlang_line_lex := by decide +kernel
def erlang_line_lmasks : List Nat := [4294967808,137438953472,549755813888,17179869184,8192,1024,4096,115792089237316195423570985008687907853269984665640564039457584007908834656767,115792089237316195423570985008687907853269984665640564039457584007913129626623,115792089237316195423570985008687907853269984665635612279300442486263777315839,4951760157141521099596496896,115792089237316195423570985008687907853269984665635612279300442486796353260543]
def erlang_line_lcs : List (Nat × Nat) := [(0,115792089237316195423570985008687907853269984665635612279300442486104863523327),(9,4294967808),(10,1024),(11,2048),(12,4096),(13,8192),(34,17179869184),(37,137438953472),(39,549755813888),(92,4951760157141521099596496896)]
theorem erlang_line_lmasksIn : masksIn erlang_line_nfa erlang_line_lmasks = true := by decide +kernel
theorem erlang_line_lrepOk : repOk erlang_line_lmasks erlang_line_lcs = true := by decide +kernel
def erlang_line_lrows : List Row := [⟨[],none,[],[⟨256,.other,false,some ⟨0,[.setEnt (.own 3)],some 4,true⟩⟩,⟨256,.ws,false,some ⟨1,[.setEnt (.own 0)],some 0,false⟩⟩,⟨256,.lf,false,some ⟨0,[.setEnt .newline],some 3,true⟩⟩,⟨256,.vt,false,none⟩,⟨256,.ff,false,some ⟨0,[.setEnt .newline],some 3,true⟩⟩,⟨256,.cr,false,some ⟨2,[.setEnt .newline],none,false⟩⟩,⟨256,.cr,true,some ⟨3,[.setEnt .newline],some 3,false⟩⟩,⟨34,.other,false,some ⟨4,[.code,.setEnt (.own 3)],some 4,false⟩⟩,⟨37,.other,false,some ⟨5,[.setEnt (.own 3)],some 4,false⟩⟩,⟨39,.other,false,some ⟨6,[.code,.setEnt (.own 3)],some 4,false⟩⟩,⟨92,.other,false,some ⟨0,[.setEnt (.own 3)],some 4,true⟩⟩]⟩,⟨[0],some 0,[],[⟨256,.other,false,none⟩,⟨256,.ws,false,some ⟨1,[.setEnt (.own 0)],some 0,false⟩⟩,⟨256,.lf,false,none⟩,⟨256,.vt,false,none⟩,⟨256,.ff,false,none⟩,⟨256,.cr,false,none⟩,⟨256,.cr,true,none⟩,⟨34,.other,false,none⟩,⟨37,.other,false,none⟩,⟨39,.other,false,none⟩,⟨92,.other,false,none⟩]⟩,⟨[14],none,[],[⟨256,.other,false,none⟩,⟨256,.ws,false,none⟩,⟨256,.lf,false,some ⟨0,[.setEnt .newline],some 3,true⟩⟩,⟨256,.vt,false,none⟩,⟨256,.ff,false,none⟩,⟨256,.cr,false,none⟩,⟨256,.cr,true,none⟩,⟨34,.other,false,none⟩,⟨37,.other,false,none⟩,⟨39,.other,false,none⟩,⟨92,.other,false,none⟩]⟩,⟨[14,18],some 3,[],[⟨256,.other,false,none⟩,⟨256,.ws,false,none⟩,⟨256,.lf,false,some ⟨0,[.setEnt .newline],some 3,true⟩⟩,⟨256,.vt,false,none⟩,⟨256,.ff,false,none⟩,⟨256,.cr,false,none⟩,⟨256,.cr,true,none⟩,⟨34,.other,false,none⟩,⟨37,.other,false,none⟩,⟨39,.other,false,none⟩,⟨92,.other,false,none⟩]⟩,⟨[9,19],some 4,[],[⟨256,.other,false,some ⟨7,[],none,false⟩⟩,⟨256,.ws,false,some ⟨7,[],none,false⟩⟩,⟨256,.lf,false,none⟩,⟨256,.vt,false,some ⟨7,[],none,false⟩⟩,⟨256,.ff,false,none⟩,⟨256,.cr,false,none⟩,⟨256,.cr,true,none⟩,⟨34,.other,false,some ⟨0,[],some 2,true⟩⟩,⟨37,.other,false,some ⟨7,[],none,false⟩⟩,⟨39,.other,false,some ⟨7,[],none,false⟩⟩,⟨92,.other,false,some ⟨8,[],none,false⟩⟩]⟩,⟨[1,19],some 4,[],[⟨256,.other,false,none⟩,⟨256,.ws,false,none⟩,⟨256,.lf,false,none⟩,⟨256,.vt,false,none⟩,⟨256,.ff,false,none⟩,⟨256,.cr,false,none⟩,⟨256,.cr,true,none⟩,⟨34,.other,false,none⟩,⟨37,.other,false,some ⟨9,[.comment],some 1,false⟩⟩,⟨39,.other,false,none⟩,⟨92,.other,false,none⟩]⟩,⟨[4,19],some 4,[],[⟨256,.other,false,some ⟨10,[],none,false⟩⟩,⟨256,.ws,false,some ⟨10,[],none,false⟩⟩,⟨256,.lf,false,none⟩,⟨256,.vt,false,some ⟨10,[],none,false⟩⟩,⟨256,.ff,false,none⟩,⟨256,.cr,false,none⟩,⟨256,.cr,true,none⟩,⟨34,.other,false,some ⟨10,[],none,false⟩⟩,⟨37,.other,false,some ⟨10,[],none,false⟩⟩,⟨39,.other,false,some ⟨0,[],some 2,true⟩⟩,⟨92,.other,false,some ⟨11,[],none,false⟩⟩]⟩,⟨[10],none,[],[⟨256,.other,false,some ⟨7,[],none,false⟩⟩,⟨256,.ws,false,some ⟨7,[],none,false⟩⟩,⟨256,.lf,false,none⟩,⟨256,.vt,false,some ⟨7,[],none,false⟩⟩,⟨256,.ff,false,none⟩,⟨256,.cr,false,none⟩,⟨256,.cr,true,none⟩,⟨34,.other,false,some ⟨0,[],some 2,true⟩⟩,⟨37,.other,false,some ⟨7,[],none,false⟩⟩,⟨39,.other,false,some ⟨7,[],none,false⟩⟩,⟨92,.other,false,some ⟨8,[],none,false⟩⟩]⟩,⟨[11],none,[],[⟨256,.other,false,some ⟨12,[],none,false⟩⟩,⟨256,.ws,false,some ⟨12,[],none,false⟩⟩,⟨256,.lf,false,none⟩,⟨256,.vt,false,some ⟨12,[],none,false⟩⟩,⟨256,.ff,false,none⟩,⟨256,.cr,false,none⟩,⟨256,.cr,true,none⟩,⟨34,.other,false,some ⟨12,[],none,false⟩⟩,⟨37,.other,false,some ⟨12,[],none,false⟩⟩,⟨39,.other,false,some ⟨12,[],none,false⟩⟩,⟨92,.other,false,some ⟨12,[],none,false⟩⟩]⟩,⟨[2],some 1,[],[⟨256,.other,false,some ⟨13,[],some 1,false⟩⟩,⟨256,.ws,false,some ⟨13,[],some 1,false⟩⟩,⟨256,.lf,false,none⟩,⟨256,.vt,false,some ⟨13,[],some 1,false⟩⟩,⟨256,.ff,false,none⟩,⟨256,.cr,false,none⟩,⟨256,.cr,true,none⟩,⟨34,.other,false,some ⟨13,[],some 1,false⟩⟩,⟨37,.other,false,some ⟨13,[],some 1,false⟩⟩,⟨39,.other,false,some ⟨13,[],some 1,false⟩⟩,⟨92,.other,false,some ⟨13,[],some 1,false⟩⟩]⟩,⟨[5],none,[],[⟨256,.other,false,some ⟨10,[],none,false⟩⟩,⟨256,.ws,false,some ⟨10,[],none,false⟩⟩,⟨256,.lf,false,none⟩,⟨256,.vt,false,some ⟨10,[],none,false⟩⟩,⟨256,.ff,false,none⟩,⟨256,.cr,false,none⟩,⟨256,.cr,true,none⟩,⟨34,.other,false,some ⟨10,[],none,false⟩⟩,⟨37,.other,false,some ⟨10,[],none,false⟩⟩,⟨39,.other,false,some ⟨0,[],some 2,true⟩⟩,⟨92,.other,false,some ⟨11,[],none,false⟩⟩]⟩,⟨[6],none,[],[⟨256,.other,false,some ⟨14,[],none,false⟩⟩,⟨256,.ws,false,some ⟨14,[],none,false⟩⟩,⟨256,.lf,false,none⟩,⟨256,.vt,false,some ⟨14,[],none,false⟩⟩,⟨256,.ff,false,none⟩,⟨256,.cr,false,none⟩,⟨256,.cr,true,none⟩,⟨34,.other,false,some ⟨14,[],none,false⟩⟩,⟨37,.other,false,some ⟨14,[],none,false⟩⟩,⟨39,.other,false,some ⟨14,[],none,false⟩⟩,⟨92,.other,false,some ⟨14,[],none,false⟩⟩]⟩,⟨[12],none,[],[⟨256,.other,false,some ⟨7,[],none,false⟩⟩,⟨256,.ws,false,some ⟨7,[],none,false⟩⟩,⟨256,.lf,false,none⟩,⟨256,.vt,false,some ⟨7,[],none,false⟩⟩,⟨256,.ff,false,none⟩,⟨256,.cr,false,none⟩,⟨256,.cr,true,none⟩,⟨34,.other,false,some ⟨0,[],some 2,true⟩⟩,⟨37,.other,false,some ⟨7,[],none,false⟩⟩,⟨39,.other,false,some ⟨7,[],none,false⟩⟩,⟨92,.other,false,some ⟨8,[],none,false⟩⟩]⟩,⟨[3],some 1,[],[⟨256,.other,false,some ⟨13,[],some 1,false⟩⟩,⟨256,.ws,false,some ⟨13,[],some 1,false⟩⟩,⟨256,.lf,false,none⟩,⟨256,.vt,false,some ⟨13,[],some 1,false⟩⟩,⟨256,.ff,false,none⟩,⟨256,.cr,false,none⟩,⟨256,.cr,true,none⟩,⟨34,.other,false,some ⟨13,[],some 1,false⟩⟩,⟨37,.other,false,some ⟨13,[],some 1,false⟩⟩,⟨39,.other,false,some ⟨13,[],some 1,false⟩⟩,⟨92,.other,false,some ⟨13,[],some 1,false⟩⟩]⟩,⟨[7],none,[],[⟨256,.other,false,some ⟨10,[],none,false⟩⟩,⟨256,.ws,false,some ⟨10,[],none,false⟩⟩,⟨256,.lf,false,none⟩,⟨256,.vt,false,some ⟨10,[],none,false⟩⟩,⟨256,.ff,false,none⟩,⟨256,.cr,false,none⟩,⟨256,.cr,true,none⟩,⟨34,.other,false,some ⟨10,[],none,false⟩⟩,⟨37,.other,false,some ⟨10,[],none,false⟩⟩,⟨39,.other,false,some ⟨0,[],some 2,true⟩⟩,⟨92,.other,false,some ⟨11,[],none,false⟩⟩]⟩]
theorem erlang_line_lrowsOk : rowsOk erlang_line_nfa erlang_line_lex.rel (erlang_line_lcs.map (·.1)) erlang_line_lrows = true := by decide +kernel
def erlang_line_lfr : List CA.FRow := [⟨true,none,[],[⟨256,.other,false,false,none,some ([.setEnt (.own 3)],(some 4,true))⟩,⟨9,.ws,false,false,some 1,some ([.setEnt (.own 0)],(some 0,false))⟩,⟨10,.lf,false,true,none,some ([.setEnt .newline],(some 3,true))⟩,⟨11,.vt,false,false,none,none⟩,⟨12,.ff,false,true,none,some ([.setEnt .newline],(some 3,true))⟩,⟨13,.cr,false,false,some 2,some ([.setEnt .newline],(none,false))⟩,⟨13,.cr,true,true,some 3,some ([.setEnt .newline],(some 3,false))⟩,⟨34,.other,false,false,some 4,some ([.code,.setEnt (.own 3)],(some 4,false))⟩,⟨37,.other,false,false,some 5,some ([.setEnt (.own 3)],(some 4,false))⟩,⟨39,.other,false,false,some 6,some ([.code,.setEnt (.own 3)],(some 4,false))⟩,⟨92,.other,false,false,none,some ([.setEnt (.own 3)],(some 4,true))⟩]⟩,⟨false,some 0,[],[⟨256,.other,false,false,none,none⟩,⟨9,.ws,false,false,some 1,some ([.setEnt (.own 0)],(some 0,false))⟩,⟨10,.lf,false,true,none,none⟩,⟨11,.vt,false,false,none,none⟩,⟨12,.ff,false,true,none,none⟩,⟨13,.cr,false,false,none,none⟩,⟨13,.cr,true,true,none,none⟩,⟨34,.other,false,false,none,none⟩,⟨37,.other,false,false,none,none⟩,⟨39,.other,false,false,none,none⟩,⟨92,.other,false,false,none,none⟩]⟩,⟨false,none,[],[⟨256,.other,false,false,none,none⟩,⟨9,.ws,false,false,none,none⟩,⟨10,.lf,false,true,none,some ([.setEnt .newline],(some 3,true))⟩,⟨11,.vt,false,false,none,none⟩,⟨12,.ff,false,true,none,none⟩,⟨13,.cr,false,false,none,none⟩,⟨13,.cr,true,true,none,none⟩,⟨34,.other,false,false,none,none⟩,⟨37,.other,false,false,none,none⟩,⟨39,.other,false,false,none,none⟩,⟨92,.other,false,false,none,none⟩]⟩,⟨false,some 3,[],[⟨256,.other,false,false,none,none⟩,⟨9,.ws,false,false,none,none⟩,⟨10,.lf,false,true,none,some ([.setEnt .newline],(some 3,true))⟩,⟨11,.vt,false,false,none,none⟩,⟨12,.ff,false,true,none,none⟩,⟨13,.cr,false,false,none,none⟩,⟨13,.cr,true,true,none,none⟩,⟨34,.other,false,false,none,none⟩,⟨37,.other,false,false,none,none⟩,⟨39,.other,false,false,none,none⟩,⟨92,.other,false,false,none,none⟩]⟩,⟨false,some 4,[],[⟨256,.other,false,false,some 7,some ([],(none,false))⟩,⟨9,.ws,false,false,some 7,some ([],(none,false))⟩,⟨10,.lf,false,true,none,none⟩,⟨11,.vt,false,false,some 7,some ([],(none,false))⟩,⟨12,.ff,false,true,none,none⟩,⟨13,.cr,false,false,none,none⟩,⟨13,.cr,true,true,none,none⟩,⟨34,.other,false,false,none,some ([],(some 2,true))⟩,⟨37,.other,false,false,some 7,some ([],(none,false))⟩,⟨39,.other,false,false,some 7,some ([],(none,false))⟩,⟨92,.other,false,false,some 8,some ([],(none,false))⟩]⟩,⟨false,some 4,[],[⟨256,.other,false,false,none,none⟩,⟨9,.ws,false,false,none,none⟩,⟨10,.lf,false,true,none,none⟩,⟨11,.vt,false,false,none,none⟩,⟨12,.ff,false,true,none,none⟩,⟨13,.cr,false,false,none,none⟩,⟨13,.cr,true,true,none,none⟩,⟨34,.other,false,false,none,none⟩,⟨37,.other,false,false,some 9,some ([.comment],(some 1,false))⟩,⟨39,.other,false,false,none,none⟩,⟨92,.other,false,false,none,none⟩]⟩,⟨false,some 4,[],[⟨256,.other,false,false,some 10,some ([],(none,false))⟩,⟨9,.ws,false,false,some 10,some ([],(none,false))⟩,⟨10,.lf,false,true,none,none⟩,⟨11,.vt,false,false,some 10,some ([],(none,false))⟩,⟨12,.ff,false,true,none,none⟩,⟨13,.cr,false,false,none,none⟩,⟨13,.cr,true,true,none,none⟩,⟨34,.other,false,false,some 10,some ([],(none,false))⟩,⟨37,.other,false,false,some 10,some ([],(none,false))⟩,⟨39,.other,false,false,none,some ([],(some 2,true))⟩,⟨92,.other,false,false,some 11,some ([],(none,false))⟩]⟩,⟨false,none,[],[⟨256,.other,false,false,some 7,some ([],(none,false))⟩,⟨9,.ws,false,false,some 7,some ([],(none,false))⟩,⟨10,.lf,false,true,none,none⟩,⟨11,.vt,false,false,some 7,some ([],(none,false))⟩,⟨12,.ff,false,true,none,none⟩,⟨13,.cr,false,false,none,none⟩,⟨13,.cr,true,true,none,none⟩,⟨34,.other,false,false,none,some ([],(some 2,true))⟩,⟨37,.other,false,false,some 7,some ([],(none,false))⟩,⟨39,.other,false,false,some 7,some ([],(none,false))⟩,⟨92,.other,false,false,some 8,some ([],(none,false))⟩]⟩,⟨false,none,[],[⟨256,.other,false,false,some 12,some ([],(none,false))⟩,⟨9,.ws,false,false,some 12,some ([],(none,false))⟩,⟨10,.lf,false,true,none,none⟩,⟨11,.vt,false,false,some 12,some ([],(none,false))⟩,⟨12,.ff,false,true,none,none⟩,⟨13,.cr,false,false,none,none⟩,⟨13,.cr,true,true,none,none⟩,⟨34,.other,false,false,some 12,some ([],(none,false))⟩,⟨37,.other,false,false,some 12,some ([],(none,false))⟩,⟨39,.other,false,false,some 12,some ([],(none,false))⟩,⟨92,.other,false,false,some 12,some ([],(none,false))⟩]⟩,⟨false,some 1,[],[⟨256,.other,false,false,some 13,some ([],(some 1,false))⟩,⟨9,.ws,false,false,some 13,some ([],(some 1,false))⟩,⟨10,.lf,false,true,none,none⟩,⟨11,.vt,false,false,some 13,some ([],(some 1,false))⟩,⟨12,.ff,false,true,none,none⟩,⟨13,.cr,false,false,none,none⟩,⟨13,.cr,true,true,none,none⟩,⟨34,.other,false,false,some 13,some ([],(some 1,false))⟩,⟨37,.other,false,false,some 13,some ([],(some 1,false))⟩,⟨39,.other,false,false,some 13,some ([],(some 1,false))⟩,⟨92,.other,false,false,some 13,some ([],(some 1,false))⟩]⟩,⟨false,none,[],[⟨256,.other,false,false,some 10,some ([],(none,false))⟩,⟨9,.ws,false,false,some 10,some ([],(none,false))⟩,⟨10,.lf,false,true,none,none⟩,⟨11,.vt,false,false,some 10,some ([],(none,false))⟩,⟨12,.ff,false,true,none,none⟩,⟨13,.cr,false,false,none,none⟩,⟨13,.cr,true,true,none,none⟩,⟨34,.other,false,false,some 10,some ([],(none,false))⟩,⟨37,.other,false,false,some 10,some ([],(none,false))⟩,⟨39,.other,false,false,none,some ([],(some 2,true))⟩,⟨92,.other,false,false,some 11,some ([],(none,false))⟩]⟩,⟨false,none,[],[⟨256,.other,false,false,some 14,some ([],(none,false))⟩,⟨9,.ws,false,false,some 14,some ([],(none,false))⟩,⟨10,.lf,false,true,none,none⟩,⟨11,.vt,false,false,some 14,some ([],(none,false))⟩,⟨12,.ff,false,true,none,none⟩,⟨13,.cr,false,false,none,none⟩,⟨13,.cr,true,true,none,none⟩,⟨34,.other,false,false,some 14,some ([],(none,false))⟩,⟨37,.other,false,false,some 14,some ([],(none,false))⟩,⟨39,.other,false,false,some 14,some ([],(none,false))⟩,⟨92,.other,false,false,some 14,some ([],(none,false))⟩]⟩,⟨false,none,[],[⟨256,.other,false,false,some 7,some ([],(none,false))⟩,⟨9,.ws,false,false,some 7,some ([],(none,false))⟩,⟨10,.lf,false,true,none,none⟩,⟨11,.vt,false,false,some 7,some ([],(none,false))⟩,⟨12,.ff,false,true,none,none⟩,⟨13,.cr,false,false,none,none⟩,⟨13,.cr,true,true,none,none⟩,⟨34,.other,false,false,none,some ([],(some 2,true))⟩,⟨37,.other,false,false,some 7,some ([],(none,false))⟩,⟨39,.other,false,false,some 7,some ([],(none,false))⟩,⟨92,.other,false,false,some 8,some ([],(none,false))⟩]⟩,⟨false,some 1,[],[⟨256,.other,false,false,some 13,some ([],(some 1,false))⟩,⟨9,.ws,false,false,some 13,some ([],(some 1,false))⟩,⟨10,.lf,false,true,none,none⟩,⟨11,.vt,false,false,some 13,some ([],(some 1,false))⟩,⟨12,.ff,false,true,none,none⟩,⟨13,.cr,false,false,none,none⟩,⟨13,.cr,true,true,none,none⟩,⟨34,.other,false,false,some 13,some ([],(some 1,false))⟩,⟨37,.other,false,false,some 13,some ([],(some 1,false))⟩,⟨39,.other,false,false,some 13,some ([],(some 1,false))⟩,⟨92,.other,false,false,some 13,some ([],(some 1,false))⟩]⟩,⟨false,none,[],[⟨256,.other,false,false,some 10,some ([],(none,false))⟩,⟨9,.ws,false,false,some 10,some ([],(none,false))⟩,⟨10,.lf,false,true,none,none⟩,⟨11,.vt,false,false,some 10,some ([],(none,false))⟩,⟨12,.ff,false,true,none,none⟩,⟨13,.cr,false,false,none,none⟩,⟨13,.cr,true,true,none,none⟩,⟨34,.other,false,false,some 10,some ([],(none,false))⟩,⟨37,.other,false,false,some 10,some ([],(none,false))⟩,⟨39,.other,false,false,none,some ([],(some 2,true))⟩,⟨92,.other,false,false,some 11,some ([],(none,false))⟩]⟩]
theorem erlang_line_lfrOk : erlang_line_lrows.map (CA.prep erlang_line_lex) = erlang_line_lfr := by decide +kernel
def erlang_line_lTab : List CT := [(.node (.node (.node (.node (.node (.node (.node (.node .leaf 128 [⟨⟨.code,[],.lcode,false,[],false⟩,false,false,[],none,none,none,false,false,false,none,false,⟨.lcode,none,false,.lblank⟩⟩] .leaf) 38019 [⟨⟨.code,[],.lcode,true,[],false⟩,false,false,[],none,none,none,false,false,false,none,false,⟨.lblank,none,false,.lblank⟩⟩] .leaf) 98440 [⟨⟨.code,[],.lcode,false,[(1,0)],false⟩,false,false,[],none,none,none,false,false,false,none,false,⟨.lcode,none,false,.lblank⟩⟩] (.node .leaf 110729 [⟨⟨.code,[],.lcode,false,[(1,1)],false⟩,false,false,[],none,none,none,false,false,false,none,false,⟨.lcode,none,false,.lblank⟩⟩] .leaf)) 184463 [⟨⟨.code,[],.lcode,false,[(2,0)],false⟩,false,false,[],none,none,none,false,false,false,none,false,⟨.lcode,none,false,.lblank⟩⟩] (.node (.node (.node .leaf 185487 [⟨⟨.code,[],.lcomment,true,[],false⟩,false,false,[],none,none,none,false,false,false,none,false,⟨.lblank,none,false,.lblank⟩⟩] .leaf) 196752 [⟨⟨.code,[],.lcode,false,[(2,1)],false⟩,false,false,[],none,none,none,false,false,false,none,false,⟨.lcode,none,false,.lblank⟩⟩] .leaf) 296088 [⟨⟨.code,[],.lblank,false,[],false⟩,false,false,[],none,none,none,false,false,false,none,false,⟨.lblank,none,false,.lblank⟩⟩] (.node .leaf 332955 [⟨⟨.code,[],.lblank,true,[],false⟩,false,false,[],none,none,none,false,false,false,none,false,⟨.lblank,none,false,.lblank⟩⟩] .leaf))) 1179872 [⟨⟨(.inside 0),[],.lcode,false,[],false⟩,false,false,[none],none,none,none,false,false,false,none,false,⟨.lcode,none,false,.lblank⟩⟩] (.node (.node (.node (.node .leaf 1327852 [⟨⟨(.inside 0),[],.lcomment,false,[],false⟩,false,false,[none],none,none,none,false,false,false,none,false,⟨.lcomment,none,false,.lblank⟩⟩] .leaf) 1401074 [⟨⟨.code,[37],.lcode,false,[],false⟩,false,false,[none],none,none,none,false,false,false,none,false,⟨.lcode,none,false,.lblank⟩⟩] .leaf) 13063335 [⟨⟨.code,[],.lcode,false,[(1,0),(2,0)],false⟩,false,false,[],none,none,none,false,false,false,none,false,⟨.lcode,none,false,.lblank⟩⟩] (.node .leaf 14685483 [⟨⟨.code,[],.lcode,false,[(1,1),(2,1)],false⟩,false,false,[],none,none,none,false,false,false,none,false,⟨.lcode,none,false,.lblank⟩⟩] .leaf)) 20401131 [⟨⟨.code,[37],.lcode,false,[],false⟩,false,false,[some (9,(.ws,false))],none,none,none,false,false,false,none,false,⟨.lcode,none,false,.lblank⟩⟩] (.node (.node .leaf 22179935 [⟨⟨(.inside 0),[],.lcode,false,[],false⟩,false,false,[some (10,(.lf,false))],none,none,none,false,false,false,none,false,⟨.lcode,none,false,.lblank⟩⟩] .leaf) 22327915 [⟨⟨(.inside 0),[],.lcomment,false,[],false⟩,false,false,[some (10,(.lf,false))],none,none,none,false,false,false,none,false,⟨.lcomment,none,false,.lblank⟩⟩] (.node .leaf 22401137 [⟨⟨.code,[37],.lcode,false,[],false⟩,false,false,[some (10,(.lf,false))],none,none,none,false,false,false,none,false,⟨.lcode,none,false,.lblank⟩⟩] .leaf)))) 24246325 [⟨⟨.code,[],.lcode,false,[(2,0),(1,0)],false⟩,false,false,[],none,none,none,false,false,false,none,false,⟨.lcode,none,false,.lblank⟩⟩] (.node (.node (.node (.node (.node .leaf 25868473 [⟨⟨.code,[],.lcode,false,[(2,1),(1,1)],false⟩,false,false,[],none,none,none,false,false,false,none,false,⟨.lcode,none,false,.lblank⟩⟩] .leaf) 26179947 [⟨⟨(.inside 0),[],.lcode,false,[],false⟩,false,false,[some (12,(.ff,false))],none,none,none,false,false,false,none,false,⟨.lcode,none,false,.lblank⟩⟩] .leaf) 26327927 [⟨⟨(.inside 0),[],.lcomment,false,[],false⟩,false,false,[some (12,(.ff,false))],none,none,none,false,false,false,none,false,⟨.lcomment,none,false,.lblank⟩⟩] (.node .leaf 26401149 [⟨⟨.code,[37],.lcode,false,[],false⟩,false,false,[some (12,(.ff,false))],none,none,none,false,false,false,none,false,⟨.lcode,none,false,.lblank⟩⟩] .leaf)) 28179953 [⟨⟨(.inside 0),[],.lcode,false,[],false⟩,false,false,[some (13,(.cr,false))],none,none,none,false,false,false,none,false,⟨.lcode,none,false,.lblank⟩⟩] (.node (.node (.node .leaf 28327933 [⟨⟨(.inside 0),[],.lcomment,false,[],false⟩,false,false,[some (13,(.cr,false))],none,none,none,false,false,false,none,false,⟨.lcomment,none,false,.lblank⟩⟩] .leaf) 28401155 [⟨⟨.code,[37],.lcode,false,[],false⟩,false,false,[some (13,(.cr,false))],none,none,none,false,false,false,none,false,⟨.lcode,none,false,.lblank⟩⟩] .leaf) 29179956 [⟨⟨(.inside 0),[],.lcode,false,[],false⟩,false,false,[some (13,(.cr,true))],none,none,none,false,false,false,none,false,⟨.lcode,none,false,.lblank⟩⟩] (.node .leaf 29327936 [⟨⟨(.inside 0),[],.lcomment,false,[],false⟩,false,false,[some (13,(.cr,true))],none,none,none,false,false,false,none,false,⟨.lcomment,none,false,.lblank⟩⟩] .leaf))) 29401158 [⟨⟨.code,[37],.lcode,false,[],false⟩,false,false,[some (13,(.cr,true))],none,none,none,false,false,false,none,false,⟨.lcode,none,false,.lblank⟩⟩] (.node (.node (.node (.node .leaf 40037690 [⟨⟨.code,[37],.lblank,false,[],false⟩,false,false,[none],none,none,none,false,false,false,none,false,⟨.lcode,none,false,.lblank⟩⟩] .leaf) 59037747 [⟨⟨.code,[37],.lblank,false,[],false⟩,false,false,[some (9,(.ws,false))],none,none,none,false,false,false,none,false,⟨.lcode,none,false,.lblank⟩⟩] .leaf) 61037753 [⟨⟨.code,[37],.lblank,false,[],false⟩,false,false,[some (10,(.lf,false))],none,none,none,false,false,false,none,false,⟨.lcode,none,false,.lblank⟩⟩] (.node .leaf 65037765 [⟨⟨.code,[37],.lblank,false,[],false⟩,false,false,[some (12,(.ff,false))],none,none,none,false,false,false,none,false,⟨.lcode,none,false,.lblank⟩⟩] .leaf)) 67037771 [⟨⟨.code,[37],.lblank,false,[],false⟩,false,false,[some (13,(.cr,false))],none,none,none,false,false,false,none,false,⟨.lcode,none,false,.lblank⟩⟩] (.node (.node .leaf 68037774 [⟨⟨.code,[37],.lblank,false,[],false⟩,false,false,[some (13,(.cr,true))],none,none,none,false,false,false,none,false,⟨.lcode,none,false,.lblank⟩⟩] .leaf) 70401281 [⟨⟨.code,[37],.lcode,false,[],false⟩,false,false,[some (34,(.other,false))],none,none,none,false,false,false,none,false,⟨.lcode,none,false,.lblank⟩⟩] (.node .leaf 80401311 [⟨⟨.code,[37],.lcode,false,[],false⟩,false,false,[some (39,(.other,false))],none,none,none,false,false,false,none,false,⟨.lcode,none,false,.lblank⟩⟩] .leaf))))) 109037897 [⟨⟨.code,[37],.lblank,false,[],false⟩,false,false,[some (34,(.other,false))],none,none,none,false,false,false,none,false,⟨.lcode,none,false,.lblank⟩⟩] (.node (.node (.node (.node (.node (.node .leaf 119037927 [⟨⟨.code,[37],.lblank,false,[],false⟩,false,false,[some (39,(.other,false))],none,none,none,false,false,false,none,false,⟨.lcode,none,false,.lblank⟩⟩] .leaf) 154644904 [⟨⟨(.inside 0),[],.lcode,false,[(1,0)],false⟩,false,false,[none],none,none,none,false,false,false,none,false,⟨.lcode,none,false,.lblank⟩⟩] .leaf) 154657193 [⟨⟨(.inside 0),[],.lcode,false,[(1,1)],false⟩,false,false,[none],none,none,none,false,false,false,none,false,⟨.lcode,none,false,.lblank⟩⟩] (.node .leaf 154730927 [⟨⟨(.inside 0),[],.lcode,false,[(2,0)],false⟩,false,false,[none],none,none,none,false,false,false,none,false,⟨.lcode,none,false,.lblank⟩⟩] .leaf)) 154743216 [⟨⟨(.inside 0),[],.lcode,false,[(2,1)],false⟩,false,false,[none],none,none,none,false,false,false,none,false,⟨.lcode,none,false,.lblank⟩⟩] (.node (.node (.node .leaf 175644967 [⟨⟨(.inside 0),[],.lcode,false,[(1,0)],false⟩,false,false,[some (10,(.lf,false))],none,none,none,false,false,false,none,false,⟨.lcode,none,false,.lblank⟩⟩] .leaf) 175657256 [⟨⟨(.inside 0),[],.lcode,false,[(1,1)],false⟩,false,false,[some (10,(.lf,false))],none,none,none,false,false,false,none,false,⟨.lcode,none,false,.lblank⟩⟩] .leaf) 175730990 [⟨⟨(.inside 0),[],.lcode,false,[(2,0)],false⟩,false,false,[some (10,(.lf,false))],none,none,none,false,false,false,none,false,⟨.lcode,none,false,.lblank⟩⟩] (.node .leaf 175743279 [⟨⟨(.inside 0),[],.lcode,false,[(2,1)],false⟩,false,false,[some (10,(.lf,false))],none,none,none,false,false,false,none,false,⟨.lcode,none,false,.lblank⟩⟩] .leaf))) 179644979 [⟨⟨(.inside 0),[],.lcode,false,[(1,0)],false⟩,false,false,[some (12,(.ff,false))],none,none,none,false,false,false,none,false,⟨.lcode,none,false,.lblank⟩⟩] (.node (.node (.node (.node .leaf 179657268 [⟨⟨(.inside 0),[],.lcode,false,[(1,1)],false⟩,false,false,[some (12,(.ff,false))],none,none,none,false,false,false,none,false,⟨.lcode,none,false,.lblank⟩⟩] .leaf) 179731002 [⟨⟨(.inside 0),[],.lcode,false,[(2,0)],false⟩,false,false,[some (12,(.ff,false))],none,none,none,false,false,false,none,false,⟨.lcode,none,false,.lblank⟩⟩] .leaf) 179743291 [⟨⟨(.inside 0),[],.lcode,false,[(2,1)],false⟩,false,false,[some (12,(.ff,false))],none,none,none,false,false,false,none,false,⟨.lcode,none,false,.lblank⟩⟩] (.node .leaf 181644985 [⟨⟨(.inside 0),[],.lcode,false,[(1,0)],false⟩,false,false,[some (13,(.cr,false))],none,none,none,false,false,false,none,false,⟨.lcode,none,false,.lblank⟩⟩] .leaf)) 181657274 [⟨⟨(.inside 0),[],.lcode,false,[(1,1)],false⟩,false,false,[some (13,(.cr,false))],none,none,none,false,false,false,none,false,⟨.lcode,none,false,.lblank⟩⟩] (.node (.node .leaf 181731008 [⟨⟨(.inside 0),[],.lcode,false,[(2,0)],false⟩,false,false,[some (13,(.cr,false))],none,none,none,false,false,false,none,false,⟨.lcode,none,false,.lblank⟩⟩] .leaf) 181743297 [⟨⟨(.inside 0),[],.lcode,false,[(2,1)],false⟩,false,false,[some (13,(.cr,false))],none,none,none,false,false,false,none,false,⟨.lcode,none,false,.lblank⟩⟩] (.node .leaf 182644988 [⟨⟨(.inside 0),[],.lcode,false,[(1,0)],false⟩,false,false,[some (13,(.cr,true))],none,none,none,false,false,false,none,false,⟨.lcode,none,false,.lblank⟩⟩] .leaf)))) 182657277 [⟨⟨(.inside 0),[],.lcode,false,[(1,1)],false⟩,false,false,[some (13,(.cr,true))],none,none,none,false,false,false,none,false,⟨.lcode,none,false,.lblank⟩⟩] (.node (.node (.node (.node (.node .leaf 182731011 [⟨⟨(.inside 0),[],.lcode,false,[(2,0)],false⟩,false,false,[some (13,(.cr,true))],none,none,none,false,false,false,none,false,⟨.lcode,none,false,.lblank⟩⟩] .leaf) 182743300 [⟨⟨(.inside 0),[],.lcode,false,[(2,1)],false⟩,false,false,[some (13,(.cr,true))],none,none,none,false,false,false,none,false,⟨.lcode,none,false,.lblank⟩⟩] .leaf) 183622366 [⟨⟨.code,[37],.lcode,false,[(1,0)],false⟩,false,false,[none],none,none,none,false,false,false,none,false,⟨.lcode,none,false,.lblank⟩⟩] (.node .leaf 183634655 [⟨⟨.code,[37],.lcode,false,[(1,1)],false⟩,false,false,[none],none,none,none,false,false,false,none,false,⟨.lcode,none,false,.lblank⟩⟩] .leaf)) 183708389 [⟨⟨.code,[37],.lcode,false,[(2,0)],false⟩,false,false,[none],none,none,none,false,false,false,none,false,⟨.lcode,none,false,.lblank⟩⟩] (.node (.node (.node .leaf 183720678 [⟨⟨.code,[37],.lcode,false,[(2,1)],false⟩,false,false,[none],none,none,none,false,false,false,none,false,⟨.lcode,none,false,.lblank⟩⟩] .leaf) 186401629 [⟨⟨.code,[37],.lcode,false,[],false⟩,false,false,[some (92,(.other,false))],none,none,none,false,false,false,none,false,⟨.lcode,none,false,.lblank⟩⟩] .leaf) 202622423 [⟨⟨.code,[37],.lcode,false,[(1,0)],false⟩,false,false,[some (9,(.ws,false))],none,none,none,false,false,false,none,false,⟨.lcode,none,false,.lblank⟩⟩] (.node .leaf 202634712 [⟨⟨.code,[37],.lcode,false,[(1,1)],false⟩,false,false,[some (9,(.ws,false))],none,none,none,false,false,false,none,false,⟨.lcode,none,false,.lblank⟩⟩] .leaf))) 202708446 [⟨⟨.code,[37],.lcode,false,[(2,0)],false⟩,false,false,[some (9,(.ws,false))],none,none,none,false,false,false,none,false,⟨.lcode,none,false,.lblank⟩⟩] (.node (.node (.node (.node .leaf 202720735 [⟨⟨.code,[37],.lcode,false,[(2,1)],false⟩,false,false,[some (9,(.ws,false))],none,none,none,false,false,false,none,false,⟨.lcode,none,false,.lblank⟩⟩] .leaf) 204622429 [⟨⟨.code,[37],.lcode,false,[(1,0)],false⟩,false,false,[some (10,(.lf,false))],none,none,none,false,false,false,none,false,⟨.lcode,none,false,.lblank⟩⟩] .leaf) 204634718 [⟨⟨.code,[37],.lcode,false,[(1,1)],false⟩,false,false,[some (10,(.lf,false))],none,none,none,false,false,false,none,false,⟨.lcode,none,false,.lblank⟩⟩] (.node .leaf 204708452 [⟨⟨.code,[37],.lcode,false,[(2,0)],false⟩,false,false,[some (10,(.lf,false))],none,none,none,false,false,false,none,false,⟨.lcode,none,false,.lblank⟩⟩] .leaf)) 204720741 [⟨⟨.code,[37],.lcode,false,[(2,1)],false⟩,false,false,[some (10,(.lf,false))],none,none,none,false,false,false,none,false,⟨.lcode,none,false,.lblank⟩⟩] (.node (.node .leaf 208622441 [⟨⟨.code,[37],.lcode,false,[(1,0)],false⟩,false,false,[some (12,(.ff,false))],none,none,none,false,false,false,none,false,⟨.lcode,none,false,.lblank⟩⟩] .leaf) 208634730 [⟨⟨.code,[37],.lcode,false,[(1,1)],false⟩,false,false,[some (12,(.ff,false))],none,none,none,false,false,false,none,false,⟨.lcode,none,false,.lblank⟩⟩] (.node .leaf 208708464 [⟨⟨.code,[37],.lcode,false,[(2,0)],false⟩,false,false,[some (12,(.ff,false))],none,none,none,false,false,false,none,false,⟨.lcode,none,false,.lblank⟩⟩] .leaf)))))) 208720753 [⟨⟨.code,[37],.lcode,false,[(2,1)],false⟩,false,false,[some (12,(.ff,false))],none,none,none,false,false,false,none,false,⟨.lcode,none,false,.lblank⟩⟩] (.node (.node (.node (.node (.node (.node (.node .leaf 210622447 [⟨⟨.code,[37],.lcode,false,[(1,0)],false⟩,false,false,[some (13,(.cr,false))],none,none,none,false,false,false,none,false,⟨.lcode,none,false,.lblank⟩⟩] .leaf) 210634736 [⟨⟨.code,[37],.lcode,false,[(1,1)],false⟩,false,false,[some (13,(.cr,false))],none,none,none,false,false,false,none,false,⟨.lcode,none,false,.lblank⟩⟩] .leaf) 210708470 [⟨⟨.code,[37],.lcode,false,[(2,0)],false⟩,false,false,[some (13,(.cr,false))],none,none,none,false,false,false,none,false,⟨.lcode,none,false,.lblank⟩⟩] (.node .leaf 210720759 [⟨⟨.code,[37],.lcode,false,[(2,1)],false⟩,false,false,[some (13,(.cr,false))],none,none,none,false,false,false,none,false,⟨.lcode,none,false,.lblank⟩⟩] .leaf)) 211622450 [⟨⟨.code,[37],.lcode,false,[(1,0)],false⟩,false,false,[some (13,(.cr,true))],none,none,none,false,false,false,none,false,⟨.lcode,none,false,.lblank⟩⟩] (.node (.node (.node .leaf 211634739 [⟨⟨.code,[37],.lcode,false,[(1,1)],false⟩,false,false,[some (13,(.cr,true))],none,none,none,false,false,false,none,false,⟨.lcode,none,false,.lblank⟩⟩] .leaf) 211708473 [⟨⟨.code,[37],.lcode,false,[(2,0)],false⟩,false,false,[some (13,(.cr,true))],none,none,none,false,false,false,none,false,⟨.lcode,none,false,.lblank⟩⟩] .leaf) 211720762 [⟨⟨.code,[37],.lcode,false,[(2,1)],false⟩,false,false,[some (13,(.cr,true))],none,none,none,false,false,false,none,false,⟨.lcode,none,false,.lblank⟩⟩] (.node .leaf 225038245 [⟨⟨.code,[37],.lblank,false,[],false⟩,false,false,[some (92,(.other,false))],none,none,none,false,false,false,none,false,⟨.lcode,none,false,.lblank⟩⟩] .leaf))) 252622573 [⟨⟨.code,[37],.lcode,false,[(1,0)],false⟩,false,false,[some (34,(.other,false))],none,none,none,false,false,false,none,false,⟨.lcode,none,false,.lblank⟩⟩] (.node (.node (.node (.node .leaf 252634862 [⟨⟨.code,[37],.lcode,false,[(1,1)],false⟩,false,false,[some (34,(.other,false))],none,none,none,false,false,false,none,false,⟨.lcode,none,false,.lblank⟩⟩] .leaf) 262708626 [⟨⟨.code,[37],.lcode,false,[(2,0)],false⟩,false,false,[some (39,(.other,false))],none,none,none,false,false,false,none,false,⟨.lcode,none,false,.lblank⟩⟩] .leaf) 262720915 [⟨⟨.code,[37],.lcode,false,[(2,1)],false⟩,false,false,[some (39,(.other,false))],none,none,none,false,false,false,none,false,⟨.lcode,none,false,.lblank⟩⟩] (.node .leaf 368622921 [⟨⟨.code,[37],.lcode,false,[(1,0)],false⟩,false,false,[some (92,(.other,false))],none,none,none,false,false,false,none,false,⟨.lcode,none,false,.lblank⟩⟩] .leaf)) 368635210 [⟨⟨.code,[37],.lcode,false,[(1,1)],false⟩,false,false,[some (92,(.other,false))],none,none,none,false,false,false,none,false,⟨.lcode,none,false,.lblank⟩⟩] (.node (.node .leaf 368708944 [⟨⟨.code,[37],.lcode,false,[(2,0)],false⟩,false,false,[some (92,(.other,false))],none,none,none,false,false,false,none,false,⟨.lcode,none,false,.lblank⟩⟩] .leaf) 368721233 [⟨⟨.code,[37],.lcode,false,[(2,1)],false⟩,false,false,[some (92,(.other,false))],none,none,none,false,false,false,none,false,⟨.lcode,none,false,.lblank⟩⟩] (.node .leaf 514402613 [⟨⟨.code,[37],.lcode,false,[],false⟩,false,false,[some (256,(.other,false))],none,none,none,false,false,false,none,false,⟨.lcode,none,false,.lblank⟩⟩] .leaf)))) 553039229 [⟨⟨.code,[37],.lblank,false,[],false⟩,false,false,[some (256,(.other,false))],none,none,none,false,false,false,none,false,⟨.lcode,none,false,.lblank⟩⟩] (.node (.node (.node (.node (.node .leaf 696623905 [⟨⟨.code,[37],.lcode,false,[(1,0)],false⟩,false,false,[some (256,(.other,false))],none,none,none,false,false,false,none,false,⟨.lcode,none,false,.lblank⟩⟩] .leaf) 696636194 [⟨⟨.code,[37],.lcode,false,[(1,1)],false⟩,false,false,[some (256,(.other,false))],none,none,none,false,false,false,none,false,⟨.lcode,none,false,.lblank⟩⟩] .leaf) 696709928 [⟨⟨.code,[37],.lcode,false,[(2,0)],false⟩,false,false,[some (256,(.other,false))],none,none,none,false,false,false,none,false,⟨.lcode,none,false,.lblank⟩⟩] (.node .leaf 696722217 [⟨⟨.code,[37],.lcode,false,[(2,1)],false⟩,false,false,[some (256,(.other,false))],none,none,none,false,false,false,none,false,⟨.lcode,none,false,.lblank⟩⟩] .leaf)) 20258650119 [⟨⟨(.inside 0),[],.lcode,false,[(1,0),(2,0)],false⟩,false,false,[none],none,none,none,false,false,false,none,false,⟨.lcode,none,false,.lblank⟩⟩] (.node (.node (.node .leaf 20260272267 [⟨⟨(.inside 0),[],.lcode,false,[(1,1),(2,1)],false⟩,false,false,[none],none,none,none,false,false,false,none,false,⟨.lcode,none,false,.lblank⟩⟩] .leaf) 20269833109 [⟨⟨(.inside 0),[],.lcode,false,[(2,0),(1,0)],false⟩,false,false,[none],none,none,none,false,false,false,none,false,⟨.lcode,none,false,.lblank⟩⟩] .leaf) 20271455257 [⟨⟨(.inside 0),[],.lcode,false,[(2,1),(1,1)],false⟩,false,false,[none],none,none,none,false,false,false,none,false,⟨.lcode,none,false,.lblank⟩⟩] (.node .leaf 20279650182 [⟨⟨(.inside 0),[],.lcode,false,[(1,0),(2,0)],false⟩,false,false,[some (10,(.lf,false))],none,none,none,false,false,false,none,false,⟨.lcode,none,false,.lblank⟩⟩] .leaf))) 20281272330 [⟨⟨(.inside 0),[],.lcode,false,[(1,1),(2,1)],false⟩,false,false,[some (10,(.lf,false))],none,none,none,false,false,false,none,false,⟨.lcode,none,false,.lblank⟩⟩] (.node (.node (.node (.node .leaf 20283650194 [⟨⟨(.inside 0),[],.lcode,false,[(1,0),(2,0)],false⟩,false,false,[some (12,(.ff,false))],none,none,none,false,false,false,none,false,⟨.lcode,none,false,.lblank⟩⟩] .leaf) 20285272342 [⟨⟨(.inside 0),[],.lcode,false,[(1,1),(2,1)],false⟩,false,false,[some (12,(.ff,false))],none,none,none,false,false,false,none,false,⟨.lcode,none,false,.lblank⟩⟩] .leaf) 20285650200 [⟨⟨(.inside 0),[],.lcode,false,[(1,0),(2,0)],false⟩,false,false,[some (13,(.cr,false))],none,none,none,false,false,false,none,false,⟨.lcode,none,false,.lblank⟩⟩] (.node .leaf 20286650203 [⟨⟨(.inside 0),[],.lcode,false,[(1,0),(2,0)],false⟩,false,false,[some (13,(.cr,true))],none,none,none,false,false,false,none,false,⟨.lcode,none,false,.lblank⟩⟩] .leaf)) 20287272348 [⟨⟨(.inside 0),[],.lcode,false,[(1,1),(2,1)],false⟩,false,false,[some (13,(.cr,false))],none,none,none,false,false,false,none,false,⟨.lcode,none,false,.lblank⟩⟩] (.node (.node .leaf 20288272351 [⟨⟨(.inside 0),[],.lcode,false,[(1,1),(2,1)],false⟩,false,false,[some (13,(.cr,true))],none,none,none,false,false,false,none,false,⟨.lcode,none,false,.lblank⟩⟩] .leaf) 20290833172 [⟨⟨(.inside 0),[],.lcode,false,[(2,0),(1,0)],false⟩,false,false,[some (10,(.lf,false))],none,none,none,false,false,false,none,false,⟨.lcode,none,false,.lblank⟩⟩] (.node .leaf 20292455320 [⟨⟨(.inside 0),[],.lcode,false,[(2,1),(1,1)],false⟩,false,false,[some (10,(.lf,false))],none,none,none,false,false,false,none,false,⟨.lcode,none,false,.lblank⟩⟩] .leaf))))) 20294833184 [⟨⟨(.inside 0),[],.lcode,false,[(2,0),(1,0)],false⟩,false,false,[some (12,(.ff,false))],none,none,none,false,false,false,none,false,⟨.lcode,none,false,.lblank⟩⟩] (.node (.node (.node (.node (.node (.node .leaf 20296455332 [⟨⟨(.inside 0),[],.lcode,false,[(2,1),(1,1)],false⟩,false,false,[some (12,(.ff,false))],none,none,none,false,false,false,none,false,⟨.lcode,none,false,.lblank⟩⟩] .leaf) 20296833190 [⟨⟨(.inside 0),[],.lcode,false,[(2,0),(1,0)],false⟩,false,false,[some (13,(.cr,false))],none,none,none,false,false,false,none,false,⟨.lcode,none,false,.lblank⟩⟩] .leaf) 20297833193 [⟨⟨(.inside 0),[],.lcode,false,[(2,0),(1,0)],false⟩,false,false,[some (13,(.cr,true))],none,none,none,false,false,false,none,false,⟨.lcode,none,false,.lblank⟩⟩] (.node .leaf 20298455338 [⟨⟨(.inside 0),[],.lcode,false,[(2,1),(1,1)],false⟩,false,false,[some (13,(.cr,false))],none,none,none,false,false,false,none,false,⟨.lcode,none,false,.lblank⟩⟩] .leaf)) 20299455341 [⟨⟨(.inside 0),[],.lcode,false,[(2,1),(1,1)],false⟩,false,false,[some (13,(.cr,true))],none,none,none,false,false,false,none,false,⟨.lcode,none,false,.lblank⟩⟩] (.node (.node (.node .leaf 24054697641 [⟨⟨.code,[37],.lcode,false,[(1,0),(2,0)],false⟩,false,false,[none],none,none,none,false,false,false,none,false,⟨.lcode,none,false,.lblank⟩⟩] .leaf) 24056319789 [⟨⟨.code,[37],.lcode,false,[(1,1),(2,1)],false⟩,false,false,[none],none,none,none,false,false,false,none,false,⟨.lcode,none,false,.lblank⟩⟩] .leaf) 24065880631 [⟨⟨.code,[37],.lcode,false,[(2,0),(1,0)],false⟩,false,false,[none],none,none,none,false,false,false,none,false,⟨.lcode,none,false,.lblank⟩⟩] (.node .leaf 24067502779 [⟨⟨.code,[37],.lcode,false,[(2,1),(1,1)],false⟩,false,false,[none],none,none,none,false,false,false,none,false,⟨.lcode,none,false,.lblank⟩⟩] .leaf))) 24073697698 [⟨⟨.code,[37],.lcode,false,[(1,0),(2,0)],false⟩,false,false,[some (9,(.ws,false))],none,none,none,false,false,false,none,false,⟨.lcode,none,false,.lblank⟩⟩] (.node (.node (.node (.node .leaf 24075319846 [⟨⟨.code,[37],.lcode,false,[(1,1),(2,1)],false⟩,false,false,[some (9,(.ws,false))],none,none,none,false,false,false,none,false,⟨.lcode,none,false,.lblank⟩⟩] .leaf) 24075697704 [⟨⟨.code,[37],.lcode,false,[(1,0),(2,0)],false⟩,false,false,[some (10,(.lf,false))],none,none,none,false,false,false,none,false,⟨.lcode,none,false,.lblank⟩⟩] .leaf) 24077319852 [⟨⟨.code,[37],.lcode,false,[(1,1),(2,1)],false⟩,false,false,[some (10,(.lf,false))],none,none,none,false,false,false,none,false,⟨.lcode,none,false,.lblank⟩⟩] (.node .leaf 24079697716 [⟨⟨.code,[37],.lcode,false,[(1,0),(2,0)],false⟩,false,false,[some (12,(.ff,false))],none,none,none,false,false,false,none,false,⟨.lcode,none,false,.lblank⟩⟩] .leaf)) 24081319864 [⟨⟨.code,[37],.lcode,false,[(1,1),(2,1)],false⟩,false,false,[some (12,(.ff,false))],none,none,none,false,false,false,none,false,⟨.lcode,none,false,.lblank⟩⟩] (.node (.node .leaf 24081697722 [⟨⟨.code,[37],.lcode,false,[(1,0),(2,0)],false⟩,false,false,[some (13,(.cr,false))],none,none,none,false,false,false,none,false,⟨.lcode,none,false,.lblank⟩⟩] .leaf) 24082697725 [⟨⟨.code,[37],.lcode,false,[(1,0),(2,0)],false⟩,false,false,[some (13,(.cr,true))],none,none,none,false,false,false,none,false,⟨.lcode,none,false,.lblank⟩⟩] (.node .leaf 24083319870 [⟨⟨.code,[37],.lcode,false,[(1,1),(2,1)],false⟩,false,false,[some (13,(.cr,false))],none,none,none,false,false,false,none,false,⟨.lcode,none,false,.lblank⟩⟩] .leaf)))) 24084319873 [⟨⟨.code,[37],.lcode,false,[(1,1),(2,1)],false⟩,false,false,[some (13,(.cr,true))],none,none,none,false,false,false,none,false,⟨.lcode,none,false,.lblank⟩⟩] (.node (.node (.node (.node (.node .leaf 24084880688 [⟨⟨.code,[37],.lcode,false,[(2,0),(1,0)],false⟩,false,false,[some (9,(.ws,false))],none,none,none,false,false,false,none,false,⟨.lcode,none,false,.lblank⟩⟩] .leaf) 24086502836 [⟨⟨.code,[37],.lcode,false,[(2,1),(1,1)],false⟩,false,false,[some (9,(.ws,false))],none,none,none,false,false,false,none,false,⟨.lcode,none,false,.lblank⟩⟩] .leaf) 24086880694 [⟨⟨.code,[37],.lcode,false,[(2,0),(1,0)],false⟩,false,false,[some (10,(.lf,false))],none,none,none,false,false,false,none,false,⟨.lcode,none,false,.lblank⟩⟩] (.node .leaf 24088502842 [⟨⟨.code,[37],.lcode,false,[(2,1),(1,1)],false⟩,false,false,[some (10,(.lf,false))],none,none,none,false,false,false,none,false,⟨.lcode,none,false,.lblank⟩⟩] .leaf)) 24090880706 [⟨⟨.code,[37],.lcode,false,[(2,0),(1,0)],false⟩,false,false,[some (12,(.ff,false))],none,none,none,false,false,false,none,false,⟨.lcode,none,false,.lblank⟩⟩] (.node (.node (.node .leaf 24092502854 [⟨⟨.code,[37],.lcode,false,[(2,1),(1,1)],false⟩,false,false,[some (12,(.ff,false))],none,none,none,false,false,false,none,false,⟨.lcode,none,false,.lblank⟩⟩] .leaf) 24092880712 [⟨⟨.code,[37],.lcode,false,[(2,0),(1,0)],false⟩,false,false,[some (13,(.cr,false))],none,none,none,false,false,false,none,false,⟨.lcode,none,false,.lblank⟩⟩] .leaf) 24093880715 [⟨⟨.code,[37],.lcode,false,[(2,0),(1,0)],false⟩,false,false,[some (13,(.cr,true))],none,none,none,false,false,false,none,false,⟨.lcode,none,false,.lblank⟩⟩] (.node .leaf 24094502860 [⟨⟨.code,[37],.lcode,false,[(2,1),(1,1)],false⟩,false,false,[some (13,(.cr,false))],none,none,none,false,false,false,none,false,⟨.lcode,none,false,.lblank⟩⟩] .leaf))) 24095502863 [⟨⟨.code,[37],.lcode,false,[(2,1),(1,1)],false⟩,false,false,[some (13,(.cr,true))],none,none,none,false,false,false,none,false,⟨.lcode,none,false,.lblank⟩⟩] (.node (.node (.node (.node .leaf 24239698196 [⟨⟨.code,[37],.lcode,false,[(1,0),(2,0)],false⟩,false,false,[some (92,(.other,false))],none,none,none,false,false,false,none,false,⟨.lcode,none,false,.lblank⟩⟩] .leaf) 24241320344 [⟨⟨.code,[37],.lcode,false,[(1,1),(2,1)],false⟩,false,false,[some (92,(.other,false))],none,none,none,false,false,false,none,false,⟨.lcode,none,false,.lblank⟩⟩] .leaf) 24250881186 [⟨⟨.code,[37],.lcode,false,[(2,0),(1,0)],false⟩,false,false,[some (92,(.other,false))],none,none,none,false,false,false,none,false,⟨.lcode,none,false,.lblank⟩⟩] (.node .leaf 24252503334 [⟨⟨.code,[37],.lcode,false,[(2,1),(1,1)],false⟩,false,false,[some (92,(.other,false))],none,none,none,false,false,false,none,false,⟨.lcode,none,false,.lblank⟩⟩] .leaf)) 24567699180 [⟨⟨.code,[37],.lcode,false,[(1,0),(2,0)],false⟩,false,false,[some (256,(.other,false))],none,none,none,false,false,false,none,false,⟨.lcode,none,false,.lblank⟩⟩] (.node (.node .leaf 24569321328 [⟨⟨.code,[37],.lcode,false,[(1,1),(2,1)],false⟩,false,false,[some (256,(.other,false))],none,none,none,false,false,false,none,false,⟨.lcode,none,false,.lblank⟩⟩] .leaf) 24578882170 [⟨⟨.code,[37],.lcode,false,[(2,0),(1,0)],false⟩,false,false,[some (256,(.other,false))],none,none,none,false,false,false,none,false,⟨.lcode,none,false,.lblank⟩⟩] (.node .leaf 24580504318 [⟨⟨.code,[37],.lcode,false,[(2,1),(1,1)],false⟩,false,false,[some (256,(.other,false))],none,none,none,false,false,false,none,false,⟨.lcode,none,false,.lblank⟩⟩] .leaf))))))),(.node (.node (.node .leaf 128 [⟨⟨.code,[],.lcode,false,[],false⟩,false,false,[],none,none,none,false,false,false,none,false,⟨.lcode,some (.own 0),false,.lblank⟩⟩] .leaf) 98440 [⟨⟨.code,[],.lcode,false,[(1,0)],false⟩,false,false,[],none,none,none,false,false,false,none,false,⟨.lcode,some (.own 0),false,.lblank⟩⟩] (.node .leaf 184463 [⟨⟨.code,[],.lcode,false,[(2,0)],false⟩,false,false,[],none,none,none,false,false,false,none,false,⟨.lcode,some (.own 0),false,.lblank⟩⟩] .leaf)) 296088 [⟨⟨.code,[],.lblank,false,[],false⟩,false,false,[],none,none,none,false,false,false,none,false,⟨.lblank,some (.own 0),false,.lblank⟩⟩] (.node (.node .leaf 13063335 [⟨⟨.code,[],.lcode,false,[(1,0),(2,0)],false⟩,false,false,[],none,none,none,false,false,false,none,false,⟨.lcode,some (.own 0),false,.lblank⟩⟩] .leaf) 24246325 [⟨⟨.code,[],.lcode,false,[(2,0),(1,0)],false⟩,false,false,[],none,none,none,false,false,false,none,false,⟨.lcode,some (.own 0),false,.lblank⟩⟩] .leaf)),(.node (.node .leaf 160 [⟨⟨.code,[],.lcode,false,[],false⟩,true,false,[],none,none,none,false,false,false,none,false,⟨.lcode,some .newline,false,.lblank⟩⟩] .leaf) 148140 [⟨⟨.code,[],.lcomment,false,[],false⟩,true,false,[],none,none,none,false,false,false,none,false,⟨.lcomment,some .newline,false,.lblank⟩⟩] (.node .leaf 296120 [⟨⟨.code,[],.lblank,false,[],false⟩,true,false,[],none,none,none,false,false,false,none,false,⟨.lblank,some .newline,false,.lblank⟩⟩] .leaf)),(.node (.node .leaf 37011 [⟨⟨.code,[],.lcode,true,[],false⟩,false,true,[],none,none,none,false,false,false,none,false,⟨.lcode,some .newline,false,.lblank⟩⟩] .leaf) 184991 [⟨⟨.code,[],.lcomment,true,[],false⟩,false,true,[],none,none,none,false,false,false,none,false,⟨.lcomment,some .newline,false,.lblank⟩⟩] (.node .leaf 332971 [⟨⟨.code,[],.lblank,true,[],false⟩,false,true,[],none,none,none,false,false,false,none,false,⟨.lblank,some .newline,false,.lblank⟩⟩] .leaf)),(.node (.node (.node (.node .leaf 184463 [⟨⟨.code,[],.lcode,false,[(2,0)],false⟩,false,false,[],none,none,none,false,false,false,none,false,⟨.lcode,some (.own 3),false,.lblank⟩⟩] .leaf) 184467 [⟨⟨.code,[],.lcode,false,[(2,0)],false⟩,false,false,[],none,none,none,false,true,false,none,false,⟨.lcode,some (.own 3),false,.lblank⟩⟩] .leaf) 7078592 [⟨⟨(.inside 2),[],.lcode,false,[],false⟩,false,false,[],none,none,none,false,false,false,none,false,⟨.lcode,some (.own 3),false,.lblank⟩⟩] (.node (.node .leaf 13063335 [⟨⟨.code,[],.lcode,false,[(1,0),(2,0)],false⟩,false,false,[],none,none,none,false,false,false,none,false,⟨.lcode,some (.own 3),false,.lblank⟩⟩] .leaf) 24246325 [⟨⟨.code,[],.lcode,false,[(2,0),(1,0)],false⟩,false,false,[],none,none,none,false,false,false,none,false,⟨.lcode,some (.own 3),false,.lblank⟩⟩] .leaf)) 24246329 [⟨⟨.code,[],.lcode,false,[(2,0),(1,0)],false⟩,false,false,[],none,none,none,false,true,false,none,false,⟨.lcode,some (.own 3),false,.lblank⟩⟩] (.node (.node (.node .leaf 927377224 [⟨⟨(.inside 2),[],.lcode,false,[(1,0)],false⟩,false,false,[],none,none,none,false,false,false,none,false,⟨.lcode,some (.own 3),false,.lblank⟩⟩] .leaf) 927463247 [⟨⟨(.inside 2),[],.lcode,false,[(2,0)],false⟩,false,false,[],none,none,none,false,false,false,none,false,⟨.lcode,some (.own 3),false,.lblank⟩⟩] .leaf) 121486584039 [⟨⟨(.inside 2),[],.lcode,false,[(1,0),(2,0)],false⟩,false,false,[],none,none,none,false,false,false,none,false,⟨.lcode,some (.own 3),false,.lblank⟩⟩] (.node .leaf 121497767029 [⟨⟨(.inside 2),[],.lcode,false,[(2,0),(1,0)],false⟩,false,false,[],none,none,none,false,false,false,none,false,⟨.lcode,some (.own 3),false,.lblank⟩⟩] .leaf))),(.node (.node (.node (.node .leaf 1401076 [⟨⟨.code,[37],.lcode,false,[],false⟩,false,false,[],none,none,none,false,false,true,none,false,⟨.lcode,some (.own 3),false,.lblank⟩⟩] .leaf) 40038716 [⟨⟨.code,[37],.lblank,false,[],false⟩,false,false,[],none,none,none,false,false,true,none,false,⟨.lblank,some (.own 3),false,.lblank⟩⟩] .leaf) 183622368 [⟨⟨.code,[37],.lcode,false,[(1,0)],false⟩,false,false,[],none,none,none,false,false,true,none,false,⟨.lcode,some (.own 3),false,.lblank⟩⟩] (.node (.node .leaf 183634657 [⟨⟨.code,[37],.lcode,false,[(1,1)],false⟩,false,false,[],none,none,none,false,false,true,none,false,⟨.lcode,some (.own 3),false,.lblank⟩⟩] .leaf) 183708391 [⟨⟨.code,[37],.lcode,false,[(2,0)],false⟩,false,false,[],none,none,none,false,false,true,none,false,⟨.lcode,some (.own 3),false,.lblank⟩⟩] .leaf)) 183720680 [⟨⟨.code,[37],.lcode,false,[(2,1)],false⟩,false,false,[],none,none,none,false,false,true,none,false,⟨.lcode,some (.own 3),false,.lblank⟩⟩] (.node (.node (.node .leaf 24054697643 [⟨⟨.code,[37],.lcode,false,[(1,0),(2,0)],false⟩,false,false,[],none,none,none,false,false,true,none,false,⟨.lcode,some (.own 3),false,.lblank⟩⟩] .leaf) 24056319791 [⟨⟨.code,[37],.lcode,false,[(1,1),(2,1)],false⟩,false,false,[],none,none,none,false,false,true,none,false,⟨.lcode,some (.own 3),false,.lblank⟩⟩] .leaf) 24065880633 [⟨⟨.code,[37],.lcode,false,[(2,0),(1,0)],false⟩,false,false,[],none,none,none,false,false,true,none,false,⟨.lcode,some (.own 3),false,.lblank⟩⟩] (.node .leaf 24067502781 [⟨⟨.code,[37],.lcode,false,[(2,1),(1,1)],false⟩,false,false,[],none,none,none,false,false,true,none,false,⟨.lcode,some (.own 3),false,.lblank⟩⟩] .leaf))),(.node (.node (.node (.node .leaf 98440 [⟨⟨.code,[],.lcode,false,[(1,0)],false⟩,false,false,[],none,none,none,false,false,false,none,false,⟨.lcode,some (.own 3),false,.lblank⟩⟩] .leaf) 98444 [⟨⟨.code,[],.lcode,false,[(1,0)],false⟩,false,false,[],none,none,none,false,true,false,none,false,⟨.lcode,some (.own 3),false,.lblank⟩⟩] .leaf) 4129232 [⟨⟨(.inside 1),[],.lcode,false,[],false⟩,false,false,[],none,none,none,false,false,false,none,false,⟨.lcode,some (.own 3),false,.lblank⟩⟩] (.node (.node .leaf 13063335 [⟨⟨.code,[],.lcode,false,[(1,0),(2,0)],false⟩,false,false,[],none,none,none,false,false,false,none,false,⟨.lcode,some (.own 3),false,.lblank⟩⟩] .leaf) 13063339 [⟨⟨.code,[],.lcode,false,[(1,0),(2,0)],false⟩,false,false,[],none,none,none,false,true,false,none,false,⟨.lcode,some (.own 3),false,.lblank⟩⟩] .leaf)) 24246325 [⟨⟨.code,[],.lcode,false,[(2,0),(1,0)],false⟩,false,false,[],none,none,none,false,false,false,none,false,⟨.lcode,some (.own 3),false,.lblank⟩⟩] (.node (.node (.node .leaf 541011064 [⟨⟨(.inside 1),[],.lcode,false,[(1,0)],false⟩,false,false,[],none,none,none,false,false,false,none,false,⟨.lcode,some (.own 3),false,.lblank⟩⟩] .leaf) 541097087 [⟨⟨(.inside 1),[],.lcode,false,[(2,0)],false⟩,false,false,[],none,none,none,false,false,false,none,false,⟨.lcode,some (.own 3),false,.lblank⟩⟩] .leaf) 70872617079 [⟨⟨(.inside 1),[],.lcode,false,[(1,0),(2,0)],false⟩,false,false,[],none,none,none,false,false,false,none,false,⟨.lcode,some (.own 3),false,.lblank⟩⟩] (.node .leaf 70883800069 [⟨⟨(.inside 1),[],.lcode,false,[(2,0),(1,0)],false⟩,false,false,[],none,none,none,false,false,false,none,false,⟨.lcode,some (.own 3),false,.lblank⟩⟩] .leaf))),(.node (.node (.node (.node (.node .leaf 196483 [⟨⟨.code,[],.lcode,false,[(2,0)],false⟩,false,false,[],some 4,some ⟨.code,[],.lcode,false,[(2,0)],false⟩,none,false,false,false,none,false,⟨.lcode,some (.own 3),false,.lblank⟩⟩] .leaf) 7522021 [⟨⟨(.inside 2),[],.lcode,false,[],false⟩,false,false,[],some 4,some ⟨(.inside 2),[],.lcode,false,[],false⟩,none,false,false,false,none,false,⟨.lcode,some (.own 3),false,.lblank⟩⟩] (.node .leaf 13075355 [⟨⟨.code,[],.lcode,false,[(1,0),(2,0)],false⟩,false,false,[],some 4,some ⟨.code,[],.lcode,false,[(2,0)],false⟩,none,false,false,false,none,false,⟨.lcode,some (.own 3),false,.lblank⟩⟩] .leaf)) 13881267 [⟨⟨.code,[],.lcode,false,[(1,0),(2,0)],false⟩,false,false,[],some 4,some ⟨.code,[],.lcode,false,[(1,0),(2,0)],false⟩,none,false,false,false,none,false,⟨.lcode,some (.own 3),false,.lblank⟩⟩] (.node (.node .leaf 25764047 [⟨⟨.code,[],.lcode,false,[(2,0),(1,0)],false⟩,false,false,[],some 4,some ⟨.code,[],.lcode,false,[(2,0),(1,0)],false⟩,none,false,false,false,none,false,⟨.lcode,some (.own 3),false,.lblank⟩⟩] .leaf) 48492257 [⟨⟨.code,[],.lblank,false,[(2,0)],true⟩,false,false,[],some 4,some ⟨.code,[],.lcode,false,[(2,0)],false⟩,none,false,true,false,none,false,⟨.lcode,some (.own 3),false,.lblank⟩⟩] (.node .leaf 154742947 [⟨⟨(.inside 0),[],.lcode,false,[(2,0)],false⟩,false,false,[],some 4,some ⟨.code,[],.lcode,false,[(2,0)],false⟩,none,false,false,false,none,false,⟨.lcode,some (.own 3),false,.lblank⟩⟩] .leaf))) 183720409 [⟨⟨.code,[37],.lcode,false,[(2,0)],false⟩,false,false,[],some 4,some ⟨.code,[],.lcode,false,[(2,0)],false⟩,none,false,false,false,none,false,⟨.lcode,some (.own 3),false,.lblank⟩⟩] (.node (.node (.node .leaf 541109107 [⟨⟨(.inside 1),[],.lcode,false,[(2,0)],false⟩,false,false,[],some 4,some ⟨.code,[],.lcode,false,[(2,0)],false⟩,none,false,false,false,none,false,⟨.lcode,some (.own 3),false,.lblank⟩⟩] .leaf) 927475267 [⟨⟨(.inside 2),[],.lcode,false,[(2,0)],false⟩,false,false,[],some 4,some ⟨.code,[],.lcode,false,[(2,0)],false⟩,none,false,false,false,none,false,⟨.lcode,some (.own 3),false,.lblank⟩⟩] (.node .leaf 985409525 [⟨⟨(.inside 2),[],.lcode,false,[(1,0)],false⟩,false,false,[],some 4,some ⟨(.inside 2),[],.lcode,false,[(1,0)],false⟩,none,false,false,false,none,false,⟨.lcode,some (.own 3),false,.lblank⟩⟩] .leaf)) 985500931 [⟨⟨(.inside 2),[],.lcode,false,[(2,0)],false⟩,false,false,[],some 4,some ⟨(.inside 2),[],.lcode,false,[(2,0)],false⟩,none,false,false,false,none,false,⟨.lcode,some (.own 3),false,.lblank⟩⟩] (.node (.node .leaf 6339821229 [⟨⟨.code,[],.lblank,false,[(1,0),(2,0)],true⟩,false,false,[],some 4,some ⟨.code,[],.lcode,false,[(2,0)],false⟩,none,false,true,false,none,false,⟨.lcode,some (.own 3),false,.lblank⟩⟩] .leaf) 6352509921 [⟨⟨.code,[],.lblank,false,[(2,0),(1,0)],true⟩,false,false,[],some 4,some ⟨.code,[],.lcode,false,[(2,0),(1,0)],false⟩,none,false,true,false,none,false,⟨.lcode,some (.own 3),false,.lblank⟩⟩] .leaf))) 20258662139 [⟨⟨(.inside 0),[],.lcode,false,[(1,0),(2,0)],false⟩,false,false,[],some 4,some ⟨.code,[],.lcode,false,[(2,0)],false⟩,none,false,false,false,none,false,⟨.lcode,some (.own 3),false,.lblank⟩⟩] (.node (.node (.node (.node .leaf 20259468051 [⟨⟨(.inside 0),[],.lcode,false,[(1,0),(2,0)],false⟩,false,false,[],some 4,some ⟨.code,[],.lcode,false,[(1,0),(2,0)],false⟩,none,false,false,false,none,false,⟨.lcode,some (.own 3),false,.lblank⟩⟩] .leaf) 20271350831 [⟨⟨(.inside 0),[],.lcode,false,[(2,0),(1,0)],false⟩,false,false,[],some 4,some ⟨.code,[],.lcode,false,[(2,0),(1,0)],false⟩,none,false,false,false,none,false,⟨.lcode,some (.own 3),false,.lblank⟩⟩] (.node .leaf 24054709661 [⟨⟨.code,[37],.lcode,false,[(1,0),(2,0)],false⟩,false,false,[],some 4,some ⟨.code,[],.lcode,false,[(2,0)],false⟩,none,false,false,false,none,false,⟨.lcode,some (.own 3),false,.lblank⟩⟩] .leaf)) 24055515573 [⟨⟨.code,[37],.lcode,false,[(1,0),(2,0)],false⟩,false,false,[],some 4,some ⟨.code,[],.lcode,false,[(1,0),(2,0)],false⟩,none,false,false,false,none,false,⟨.lcode,some (.own 3),false,.lblank⟩⟩] (.node (.node .leaf 24067398353 [⟨⟨.code,[37],.lcode,false,[(2,0),(1,0)],false⟩,false,false,[],some 4,some ⟨.code,[],.lcode,false,[(2,0),(1,0)],false⟩,none,false,false,false,none,false,⟨.lcode,some (.own 3),false,.lblank⟩⟩] .leaf) 70872629099 [⟨⟨(.inside 1),[],.lcode,false,[(1,0),(2,0)],false⟩,false,false,[],some 4,some ⟨.code,[],.lcode,false,[(2,0)],false⟩,none,false,false,false,none,false,⟨.lcode,some (.own 3),false,.lblank⟩⟩] .leaf)) 70873435011 [⟨⟨(.inside 1),[],.lcode,false,[(1,0),(2,0)],false⟩,false,false,[],some 4,some ⟨.code,[],.lcode,false,[(1,0),(2,0)],false⟩,none,false,false,false,none,false,⟨.lcode,some (.own 3),false,.lblank⟩⟩] (.node (.node (.node .leaf 70885317791 [⟨⟨(.inside 1),[],.lcode,false,[(2,0),(1,0)],false⟩,false,false,[],some 4,some ⟨.code,[],.lcode,false,[(2,0),(1,0)],false⟩,none,false,false,false,none,false,⟨.lcode,some (.own 3),false,.lblank⟩⟩] .leaf) 121486596059 [⟨⟨(.inside 2),[],.lcode,false,[(1,0),(2,0)],false⟩,false,false,[],some 4,some ⟨.code,[],.lcode,false,[(2,0)],false⟩,none,false,false,false,none,false,⟨.lcode,some (.own 3),false,.lblank⟩⟩] (.node .leaf 121487401971 [⟨⟨(.inside 2),[],.lcode,false,[(1,0),(2,0)],false⟩,false,false,[],some 4,some ⟨.code,[],.lcode,false,[(1,0),(2,0)],false⟩,none,false,false,false,none,false,⟨.lcode,some (.own 3),false,.lblank⟩⟩] .leaf)) 121499284751 [⟨⟨(.inside 2),[],.lcode,false,[(2,0),(1,0)],false⟩,false,false,[],some 4,some ⟨.code,[],.lcode,false,[(2,0),(1,0)],false⟩,none,false,false,false,none,false,⟨.lcode,some (.own 3),false,.lblank⟩⟩] (.node (.node .leaf 129088763955 [⟨⟨(.inside 2),[],.lcode,false,[(1,0),(2,0)],false⟩,false,false,[],some 4,some ⟨(.inside 2),[],.lcode,false,[(1,0),(2,0)],false⟩,none,false,false,false,none,false,⟨.lcode,some (.own 3),false,.lblank⟩⟩] .leaf) 129100646735 [⟨⟨(.inside 2),[],.lcode,false,[(2,0),(1,0)],false⟩,false,false,[],some 4,some ⟨(.inside 2),[],.lcode,false,[(2,0),(1,0)],false⟩,none,false,false,false,none,false,⟨.lcode,some (.own 3),false,.lblank⟩⟩] .leaf)))),(.node (.node (.node (.node (.node .leaf 208772 [⟨⟨.code,[],.lcode,false,[(2,1)],false⟩,false,false,[],some 4,some ⟨.code,[],.lcode,false,[(2,0)],false⟩,none,false,false,false,none,false,⟨.lcode,some (.own 3),false,.lblank⟩⟩] .leaf) 14697503 [⟨⟨.code,[],.lcode,false,[(1,1),(2,1)],false⟩,false,false,[],some 4,some ⟨.code,[],.lcode,false,[(2,0)],false⟩,none,false,false,false,none,false,⟨.lcode,some (.own 3),false,.lblank⟩⟩] (.node .leaf 15503415 [⟨⟨.code,[],.lcode,false,[(1,1),(2,1)],false⟩,false,false,[],some 4,some ⟨.code,[],.lcode,false,[(1,0),(2,0)],false⟩,none,false,false,false,none,false,⟨.lcode,some (.own 3),false,.lblank⟩⟩] .leaf)) 27386195 [⟨⟨.code,[],.lcode,false,[(2,1),(1,1)],false⟩,false,false,[],some 4,some ⟨.code,[],.lcode,false,[(2,0),(1,0)],false⟩,none,false,false,false,none,false,⟨.lcode,some (.own 3),false,.lblank⟩⟩] (.node (.node .leaf 48504546 [⟨⟨.code,[],.lblank,false,[(2,1)],true⟩,false,false,[],some 4,some ⟨.code,[],.lcode,false,[(2,0)],false⟩,none,false,true,false,none,false,⟨.lcode,some (.own 3),false,.lblank⟩⟩] .leaf) 154755236 [⟨⟨(.inside 0),[],.lcode,false,[(2,1)],false⟩,false,false,[],some 4,some ⟨.code,[],.lcode,false,[(2,0)],false⟩,none,false,false,false,none,false,⟨.lcode,some (.own 3),false,.lblank⟩⟩] .leaf)) 931150972 [⟨⟨(.inside 2),[92],.lcode,false,[],false⟩,false,false,[],some 4,some ⟨(.inside 2),[],.lcode,false,[],false⟩,none,false,false,false,none,false,⟨.lcode,some (.own 3),false,.lblank⟩⟩] (.node (.node (.node .leaf 6341443377 [⟨⟨.code,[],.lblank,false,[(1,1),(2,1)],true⟩,false,false,[],some 4,some ⟨.code,[],.lcode,false,[(2,0)],false⟩,none,false,true,false,none,false,⟨.lcode,some (.own 3),false,.lblank⟩⟩] .leaf) 6354132069 [⟨⟨.code,[],.lblank,false,[(2,1),(1,1)],true⟩,false,false,[],some 4,some ⟨.code,[],.lcode,false,[(2,0),(1,0)],false⟩,none,false,true,false,none,false,⟨.lcode,some (.own 3),false,.lblank⟩⟩] .leaf) 20260284287 [⟨⟨(.inside 0),[],.lcode,false,[(1,1),(2,1)],false⟩,false,false,[],some 4,some ⟨.code,[],.lcode,false,[(2,0)],false⟩,none,false,false,false,none,false,⟨.lcode,some (.own 3),false,.lblank⟩⟩] (.node (.node .leaf 20261090199 [⟨⟨(.inside 0),[],.lcode,false,[(1,1),(2,1)],false⟩,false,false,[],some 4,some ⟨.code,[],.lcode,false,[(1,0),(2,0)],false⟩,none,false,false,false,none,false,⟨.lcode,some (.own 3),false,.lblank⟩⟩] .leaf) 20272972979 [⟨⟨(.inside 0),[],.lcode,false,[(2,1),(1,1)],false⟩,false,false,[],some 4,some ⟨.code,[],.lcode,false,[(2,0),(1,0)],false⟩,none,false,false,false,none,false,⟨.lcode,some (.own 3),false,.lblank⟩⟩] .leaf))) 71308900888 [⟨⟨(.inside 1),[92],.lcode,false,[(2,0)],false⟩,false,false,[],some 4,some ⟨.code,[],.lcode,false,[(2,0)],false⟩,none,false,false,false,none,false,⟨.lcode,some (.own 3),false,.lblank⟩⟩] (.node (.node (.node (.node .leaf 121922867848 [⟨⟨(.inside 2),[92],.lcode,false,[(2,0)],false⟩,false,false,[],some 4,some ⟨.code,[],.lcode,false,[(2,0)],false⟩,none,false,false,false,none,false,⟨.lcode,some (.own 3),false,.lblank⟩⟩] .leaf) 121980802106 [⟨⟨(.inside 2),[92],.lcode,false,[(1,0)],false⟩,false,false,[],some 4,some ⟨(.inside 2),[],.lcode,false,[(1,0)],false⟩,none,false,false,false,none,false,⟨.lcode,some (.own 3),false,.lblank⟩⟩] .leaf) 121980893512 [⟨⟨(.inside 2),[92],.lcode,false,[(2,0)],false⟩,false,false,[],some 4,some ⟨(.inside 2),[],.lcode,false,[(2,0)],false⟩,none,false,false,false,none,false,⟨.lcode,some (.own 3),false,.lblank⟩⟩] (.node (.node .leaf 9341453352410 [⟨⟨(.inside 1),[92],.lcode,false,[(1,0),(2,0)],false⟩,false,false,[],some 4,some ⟨.code,[],.lcode,false,[(2,0)],false⟩,none,false,false,false,none,false,⟨.lcode,some (.own 3),false,.lblank⟩⟩] .leaf) 9341454158322 [⟨⟨(.inside 1),[92],.lcode,false,[(1,0),(2,0)],false⟩,false,false,[],some 4,some ⟨.code,[],.lcode,false,[(1,0),(2,0)],false⟩,none,false,false,false,none,false,⟨.lcode,some (.own 3),false,.lblank⟩⟩] .leaf)) 9341466041102 [⟨⟨(.inside 1),[92],.lcode,false,[(2,0),(1,0)],false⟩,false,false,[],some 4,some ⟨.code,[],.lcode,false,[(2,0),(1,0)],false⟩,none,false,false,false,none,false,⟨.lcode,some (.own 3),false,.lblank⟩⟩] (.node (.node (.node .leaf 15971883024170 [⟨⟨(.inside 2),[92],.lcode,false,[(1,0),(2,0)],false⟩,false,false,[],some 4,some ⟨.code,[],.lcode,false,[(2,0)],false⟩,none,false,false,false,none,false,⟨.lcode,some (.own 3),false,.lblank⟩⟩] .leaf) 15971883830082 [⟨⟨(.inside 2),[92],.lcode,false,[(1,0),(2,0)],false⟩,false,false,[],some 4,some ⟨.code,[],.lcode,false,[(1,0),(2,0)],false⟩,none,false,false,false,none,false,⟨.lcode,some (.own 3),false,.lblank⟩⟩] .leaf) 15971895712862 [⟨⟨(.inside 2),[92],.lcode,false,[(2,0),(1,0)],false⟩,false,false,[],some 4,some ⟨.code,[],.lcode,false,[(2,0),(1,0)],false⟩,none,false,false,false,none,false,⟨.lcode,some (.own 3),false,.lblank⟩⟩] (.node (.node .leaf 15979485192066 [⟨⟨(.inside 2),[92],.lcode,false,[(1,0),(2,0)],false⟩,false,false,[],some 4,some ⟨(.inside 2),[],.lcode,false,[(1,0),(2,0)],false⟩,none,false,false,false,none,false,⟨.lcode,some (.own 3),false,.lblank⟩⟩] .leaf) 15979497074846 [⟨⟨(.inside 2),[92],.lcode,false,[(2,0),(1,0)],false⟩,false,false,[],some 4,some ⟨(.inside 2),[],.lcode,false,[(2,0),(1,0)],false⟩,none,false,false,false,none,false,⟨.lcode,some (.own 3),false,.lblank⟩⟩] .leaf)))),(.node (.node (.node .leaf 1179872 [⟨⟨(.inside 0),[],.lcode,false,[],false⟩,false,false,[],none,none,none,false,false,false,none,false,⟨.lcode,some (.own 3),false,.lblank⟩⟩] .leaf) 1327852 [⟨⟨(.inside 0),[],.lcomment,false,[],false⟩,false,false,[],none,none,none,false,false,false,none,false,⟨.lcomment,some (.own 3),false,.lblank⟩⟩] (.node .leaf 154644904 [⟨⟨(.inside 0),[],.lcode,false,[(1,0)],false⟩,false,false,[],none,none,none,false,false,false,none,false,⟨.lcode,some (.own 3),false,.lblank⟩⟩] .leaf)) 154730927 [⟨⟨(.inside 0),[],.lcode,false,[(2,0)],false⟩,false,false,[],none,none,none,false,false,false,none,false,⟨.lcode,some (.own 3),false,.lblank⟩⟩] (.node (.node .leaf 20258650119 [⟨⟨(.inside 0),[],.lcode,false,[(1,0),(2,0)],false⟩,false,false,[],none,none,none,false,false,false,none,false,⟨.lcode,some (.own 3),false,.lblank⟩⟩] .leaf) 20269833109 [⟨⟨(.inside 0),[],.lcode,false,[(2,0),(1,0)],false⟩,false,false,[],none,none,none,false,false,false,none,false,⟨.lcode,some (.own 3),false,.lblank⟩⟩] .leaf)),(.node (.node (.node (.node (.node .leaf 105077 [⟨⟨.code,[],.lcode,false,[(1,0)],false⟩,false,false,[],some 4,some ⟨.code,[],.lcode,false,[(1,0)],false⟩,none,false,false,false,none,false,⟨.lcode,some (.own 3),false,.lblank⟩⟩] .leaf) 4388101 [⟨⟨(.inside 1),[],.lcode,false,[],false⟩,false,false,[],some 4,some ⟨(.inside 1),[],.lcode,false,[],false⟩,none,false,false,false,none,false,⟨.lcode,some (.own 3),false,.lblank⟩⟩] (.node .leaf 13881267 [⟨⟨.code,[],.lcode,false,[(1,0),(2,0)],false⟩,false,false,[],some 4,some ⟨.code,[],.lcode,false,[(1,0),(2,0)],false⟩,none,false,false,false,none,false,⟨.lcode,some (.own 3),false,.lblank⟩⟩] .leaf)) 24252962 [⟨⟨.code,[],.lcode,false,[(2,0),(1,0)],false⟩,false,false,[],some 4,some ⟨.code,[],.lcode,false,[(1,0)],false⟩,none,false,false,false,none,false,⟨.lcode,some (.own 3),false,.lblank⟩⟩] (.node (.node .leaf 25764047 [⟨⟨.code,[],.lcode,false,[(2,0),(1,0)],false⟩,false,false,[],some 4,some ⟨.code,[],.lcode,false,[(2,0),(1,0)],false⟩,none,false,false,false,none,false,⟨.lcode,some (.own 3),false,.lblank⟩⟩] .leaf) 48400851 [⟨⟨.code,[],.lblank,false,[(1,0)],true⟩,false,false,[],some 4,some ⟨.code,[],.lcode,false,[(1,0)],false⟩,none,false,true,false,none,false,⟨.lcode,some (.own 3),false,.lblank⟩⟩] (.node .leaf 154651541 [⟨⟨(.inside 0),[],.lcode,false,[(1,0)],false⟩,false,false,[],some 4,some ⟨.code,[],.lcode,false,[(1,0)],false⟩,none,false,false,false,none,false,⟨.lcode,some (.own 3),false,.lblank⟩⟩] .leaf))) 183629003 [⟨⟨.code,[37],.lcode,false,[(1,0)],false⟩,false,false,[],some 4,some ⟨.code,[],.lcode,false,[(1,0)],false⟩,none,false,false,false,none,false,⟨.lcode,some (.own 3),false,.lblank⟩⟩] (.node (.node (.node .leaf 541017701 [⟨⟨(.inside 1),[],.lcode,false,[(1,0)],false⟩,false,false,[],some 4,some ⟨.code,[],.lcode,false,[(1,0)],false⟩,none,false,false,false,none,false,⟨.lcode,some (.own 3),false,.lblank⟩⟩] .leaf) 574866005 [⟨⟨(.inside 1),[],.lcode,false,[(1,0)],false⟩,false,false,[],some 4,some ⟨(.inside 1),[],.lcode,false,[(1,0)],false⟩,none,false,false,false,none,false,⟨.lcode,some (.own 3),false,.lblank⟩⟩] (.node .leaf 574957411 [⟨⟨(.inside 1),[],.lcode,false,[(2,0)],false⟩,false,false,[],some 4,some ⟨(.inside 1),[],.lcode,false,[(2,0)],false⟩,none,false,false,false,none,false,⟨.lcode,some (.own 3),false,.lblank⟩⟩] .leaf)) 927383861 [⟨⟨(.inside 2),[],.lcode,false,[(1,0)],false⟩,false,false,[],some 4,some ⟨.code,[],.lcode,false,[(1,0)],false⟩,none,false,false,false,none,false,⟨.lcode,some (.own 3),false,.lblank⟩⟩] (.node (.node .leaf 6340627141 [⟨⟨.code,[],.lblank,false,[(1,0),(2,0)],true⟩,false,false,[],some 4,some ⟨.code,[],.lcode,false,[(1,0),(2,0)],false⟩,none,false,true,false,none,false,⟨.lcode,some (.own 3),false,.lblank⟩⟩] .leaf) 6350998836 [⟨⟨.code,[],.lblank,false,[(2,0),(1,0)],true⟩,false,false,[],some 4,some ⟨.code,[],.lcode,false,[(1,0)],false⟩,none,false,true,false,none,false,⟨.lcode,some (.own 3),false,.lblank⟩⟩] .leaf))) 20259468051 [⟨⟨(.inside 0),[],.lcode,false,[(1,0),(2,0)],false⟩,false,false,[],some 4,some ⟨.code,[],.lcode,false,[(1,0),(2,0)],false⟩,none,false,false,false,none,false,⟨.lcode,some (.own 3),false,.lblank⟩⟩] (.node (.node (.node (.node .leaf 20269839746 [⟨⟨(.inside 0),[],.lcode,false,[(2,0),(1,0)],false⟩,false,false,[],some 4,some ⟨.code,[],.lcode,false,[(1,0)],false⟩,none,false,false,false,none,false,⟨.lcode,some (.own 3),false,.lblank⟩⟩] .leaf) 20271350831 [⟨⟨(.inside 0),[],.lcode,false,[(2,0),(1,0)],false⟩,false,false,[],some 4,some ⟨.code,[],.lcode,false,[(2,0),(1,0)],false⟩,none,false,false,false,none,false,⟨.lcode,some (.own 3),false,.lblank⟩⟩] (.node .leaf 24055515573 [⟨⟨.code,[37],.lcode,false,[(1,0),(2,0)],false⟩,false,false,[],some 4,some ⟨.code,[],.lcode,false,[(1,0),(2,0)],false⟩,none,false,false,false,none,false,⟨.lcode,some (.own 3),false,.lblank⟩⟩] .leaf)) 24065887268 [⟨⟨.code,[37],.lcode,false,[(2,0),(1,0)],false⟩,false,false,[],some 4,some ⟨.code,[],.lcode,false,[(1,0)],false⟩,none,false,false,false,none,false,⟨.lcode,some (.own 3),false,.lblank⟩⟩] (.node (.node .leaf 24067398353 [⟨⟨.code,[37],.lcode,false,[(2,0),(1,0)],false⟩,false,false,[],some 4,some ⟨.code,[],.lcode,false,[(2,0),(1,0)],false⟩,none,false,false,false,none,false,⟨.lcode,some (.own 3),false,.lblank⟩⟩] .leaf) 70873435011 [⟨⟨(.inside 1),[],.lcode,false,[(1,0),(2,0)],false⟩,false,false,[],some 4,some ⟨.code,[],.lcode,false,[(1,0),(2,0)],false⟩,none,false,false,false,none,false,⟨.lcode,some (.own 3),false,.lblank⟩⟩] .leaf)) 70883806706 [⟨⟨(.inside 1),[],.lcode,false,[(2,0),(1,0)],false⟩,false,false,[],some 4,some ⟨.code,[],.lcode,false,[(1,0)],false⟩,none,false,false,false,none,false,⟨.lcode,some (.own 3),false,.lblank⟩⟩] (.node (.node (.node .leaf 70885317791 [⟨⟨(.inside 1),[],.lcode,false,[(2,0),(1,0)],false⟩,false,false,[],some 4,some ⟨.code,[],.lcode,false,[(2,0),(1,0)],false⟩,none,false,false,false,none,false,⟨.lcode,some (.own 3),false,.lblank⟩⟩] .leaf) 75307562835 [⟨⟨(.inside 1),[],.lcode,false,[(1,0),(2,0)],false⟩,false,false,[],some 4,some ⟨(.inside 1),[],.lcode,false,[(1,0),(2,0)],false⟩,none,false,false,false,none,false,⟨.lcode,some (.own 3),false,.lblank⟩⟩] (.node .leaf 75319445615 [⟨⟨(.inside 1),[],.lcode,false,[(2,0),(1,0)],false⟩,false,false,[],some 4,some ⟨(.inside 1),[],.lcode,false,[(2,0),(1,0)],false⟩,none,false,false,false,none,false,⟨.lcode,some (.own 3),false,.lblank⟩⟩] .leaf)) 121487401971 [⟨⟨(.inside 2),[],.lcode,false,[(1,0),(2,0)],false⟩,false,false,[],some 4,some ⟨.code,[],.lcode,false,[(1,0),(2,0)],false⟩,none,false,false,false,none,false,⟨.lcode,some (.own 3),false,.lblank⟩⟩] (.node (.node .leaf 121497773666 [⟨⟨(.inside 2),[],.lcode,false,[(2,0),(1,0)],false⟩,false,false,[],some 4,some ⟨.code,[],.lcode,false,[(1,0)],false⟩,none,false,false,false,none,false,⟨.lcode,some (.own 3),false,.lblank⟩⟩] .leaf) 121499284751 [⟨⟨(.inside 2),[],.lcode,false,[(2,0),(1,0)],false⟩,false,false,[],some 4,some ⟨.code,[],.lcode,false,[(2,0),(1,0)],false⟩,none,false,false,false,none,false,⟨.lcode,some (.own 3),false,.lblank⟩⟩] .leaf)))),(.node (.node (.node (.node (.node .leaf 117366 [⟨⟨.code,[],.lcode,false,[(1,1)],false⟩,false,false,[],some 4,some ⟨.code,[],.lcode,false,[(1,0)],false⟩,none,false,false,false,none,false,⟨.lcode,some (.own 3),false,.lblank⟩⟩] .leaf) 15503415 [⟨⟨.code,[],.lcode,false,[(1,1),(2,1)],false⟩,false,false,[],some 4,some ⟨.code,[],.lcode,false,[(1,0),(2,0)],false⟩,none,false,false,false,none,false,⟨.lcode,some (.own 3),false,.lblank⟩⟩] (.node .leaf 25875110 [⟨⟨.code,[],.lcode,false,[(2,1),(1,1)],false⟩,false,false,[],some 4,some ⟨.code,[],.lcode,false,[(1,0)],false⟩,none,false,false,false,none,false,⟨.lcode,some (.own 3),false,.lblank⟩⟩] .leaf)) 27386195 [⟨⟨.code,[],.lcode,false,[(2,1),(1,1)],false⟩,false,false,[],some 4,some ⟨.code,[],.lcode,false,[(2,0),(1,0)],false⟩,none,false,false,false,none,false,⟨.lcode,some (.own 3),false,.lblank⟩⟩] (.node (.node .leaf 48413140 [⟨⟨.code,[],.lblank,false,[(1,1)],true⟩,false,false,[],some 4,some ⟨.code,[],.lcode,false,[(1,0)],false⟩,none,false,true,false,none,false,⟨.lcode,some (.own 3),false,.lblank⟩⟩] .leaf) 154663830 [⟨⟨(.inside 0),[],.lcode,false,[(1,1)],false⟩,false,false,[],some 4,some ⟨.code,[],.lcode,false,[(1,0)],false⟩,none,false,false,false,none,false,⟨.lcode,some (.own 3),false,.lblank⟩⟩] .leaf)) 544600252 [⟨⟨(.inside 1),[92],.lcode,false,[],false⟩,false,false,[],some 4,some ⟨(.inside 1),[],.lcode,false,[],false⟩,none,false,false,false,none,false,⟨.lcode,some (.own 3),false,.lblank⟩⟩] (.node (.node (.node .leaf 6342249289 [⟨⟨.code,[],.lblank,false,[(1,1),(2,1)],true⟩,false,false,[],some 4,some ⟨.code,[],.lcode,false,[(1,0),(2,0)],false⟩,none,false,true,false,none,false,⟨.lcode,some (.own 3),false,.lblank⟩⟩] .leaf) 6352620984 [⟨⟨.code,[],.lblank,false,[(2,1),(1,1)],true⟩,false,false,[],some 4,some ⟨.code,[],.lcode,false,[(1,0)],false⟩,none,false,true,false,none,false,⟨.lcode,some (.own 3),false,.lblank⟩⟩] .leaf) 20261090199 [⟨⟨(.inside 0),[],.lcode,false,[(1,1),(2,1)],false⟩,false,false,[],some 4,some ⟨.code,[],.lcode,false,[(1,0),(2,0)],false⟩,none,false,false,false,none,false,⟨.lcode,some (.own 3),false,.lblank⟩⟩] (.node (.node .leaf 20271461894 [⟨⟨(.inside 0),[],.lcode,false,[(2,1),(1,1)],false⟩,false,false,[],some 4,some ⟨.code,[],.lcode,false,[(1,0)],false⟩,none,false,false,false,none,false,⟨.lcode,some (.own 3),false,.lblank⟩⟩] .leaf) 20272972979 [⟨⟨(.inside 0),[],.lcode,false,[(2,1),(1,1)],false⟩,false,false,[],some 4,some ⟨.code,[],.lcode,false,[(2,0),(1,0)],false⟩,none,false,false,false,none,false,⟨.lcode,some (.own 3),false,.lblank⟩⟩] .leaf))) 71308809482 [⟨⟨(.inside 1),[92],.lcode,false,[(1,0)],false⟩,false,false,[],some 4,some ⟨.code,[],.lcode,false,[(1,0)],false⟩,none,false,false,false,none,false,⟨.lcode,some (.own 3),false,.lblank⟩⟩] (.node (.node (.node (.node .leaf 71342657786 [⟨⟨(.inside 1),[92],.lcode,false,[(1,0)],false⟩,false,false,[],some 4,some ⟨(.inside 1),[],.lcode,false,[(1,0)],false⟩,none,false,false,false,none,false,⟨.lcode,some (.own 3),false,.lblank⟩⟩] .leaf) 71342749192 [⟨⟨(.inside 1),[92],.lcode,false,[(2,0)],false⟩,false,false,[],some 4,some ⟨(.inside 1),[],.lcode,false,[(2,0)],false⟩,none,false,false,false,none,false,⟨.lcode,some (.own 3),false,.lblank⟩⟩] .leaf) 121922776442 [⟨⟨(.inside 2),[92],.lcode,false,[(1,0)],false⟩,false,false,[],some 4,some ⟨.code,[],.lcode,false,[(1,0)],false⟩,none,false,false,false,none,false,⟨.lcode,some (.own 3),false,.lblank⟩⟩] (.node (.node .leaf 9341454158322 [⟨⟨(.inside 1),[92],.lcode,false,[(1,0),(2,0)],false⟩,false,false,[],some 4,some ⟨.code,[],.lcode,false,[(1,0),(2,0)],false⟩,none,false,false,false,none,false,⟨.lcode,some (.own 3),false,.lblank⟩⟩] .leaf) 9341464530017 [⟨⟨(.inside 1),[92],.lcode,false,[(2,0),(1,0)],false⟩,false,false,[],some 4,some ⟨.code,[],.lcode,false,[(1,0)],false⟩,none,false,false,false,none,false,⟨.lcode,some (.own 3),false,.lblank⟩⟩] .leaf)) 9341466041102 [⟨⟨(.inside 1),[92],.lcode,false,[(2,0),(1,0)],false⟩,false,false,[],some 4,some ⟨.code,[],.lcode,false,[(2,0),(1,0)],false⟩,none,false,false,false,none,false,⟨.lcode,some (.own 3),false,.lblank⟩⟩] (.node (.node (.node .leaf 9345888286146 [⟨⟨(.inside 1),[92],.lcode,false,[(1,0),(2,0)],false⟩,false,false,[],some 4,some ⟨(.inside 1),[],.lcode,false,[(1,0),(2,0)],false⟩,none,false,false,false,none,false,⟨.lcode,some (.own 3),false,.lblank⟩⟩] .leaf) 9345900168926 [⟨⟨(.inside 1),[92],.lcode,false,[(2,0),(1,0)],false⟩,false,false,[],some 4,some ⟨(.inside 1),[],.lcode,false,[(2,0),(1,0)],false⟩,none,false,false,false,none,false,⟨.lcode,some (.own 3),false,.lblank⟩⟩] .leaf) 15971883830082 [⟨⟨(.inside 2),[92],.lcode,false,[(1,0),(2,0)],false⟩,false,false,[],some 4,some ⟨.code,[],.lcode,false,[(1,0),(2,0)],false⟩,none,false,false,false,none,false,⟨.lcode,some (.own 3),false,.lblank⟩⟩] (.node (.node .leaf 15971894201777 [⟨⟨(.inside 2),[92],.lcode,false,[(2,0),(1,0)],false⟩,false,false,[],some 4,some ⟨.code,[],.lcode,false,[(1,0)],false⟩,none,false,false,false,none,false,⟨.lcode,some (.own 3),false,.lblank⟩⟩] .leaf) 15971895712862 [⟨⟨(.inside 2),[92],.lcode,false,[(2,0),(1,0)],false⟩,false,false,[],some 4,some ⟨.code,[],.lcode,false,[(2,0),(1,0)],false⟩,none,false,false,false,none,false,⟨.lcode,some (.own 3),false,.lblank⟩⟩] .leaf)))),(.node (.node (.node (.node (.node .leaf 196483 [⟨⟨.code,[],.lcode,false,[(2,0)],false⟩,false,false,[],some 4,some ⟨.code,[],.lcode,false,[(2,0)],false⟩,none,false,false,false,none,false,⟨.lcode,some (.own 3),false,.lblank⟩⟩] .leaf) 7522021 [⟨⟨(.inside 2),[],.lcode,false,[],false⟩,false,false,[],some 4,some ⟨(.inside 2),[],.lcode,false,[],false⟩,none,false,false,false,none,false,⟨.lcode,some (.own 3),false,.lblank⟩⟩] (.node .leaf 13075355 [⟨⟨.code,[],.lcode,false,[(1,0),(2,0)],false⟩,false,false,[],some 4,some ⟨.code,[],.lcode,false,[(2,0)],false⟩,none,false,false,false,none,false,⟨.lcode,some (.own 3),false,.lblank⟩⟩] .leaf)) 13881267 [⟨⟨.code,[],.lcode,false,[(1,0),(2,0)],false⟩,false,false,[],some 4,some ⟨.code,[],.lcode,false,[(1,0),(2,0)],false⟩,none,false,false,false,none,false,⟨.lcode,some (.own 3),false,.lblank⟩⟩] (.node (.node .leaf 25764047 [⟨⟨.code,[],.lcode,false,[(2,0),(1,0)],false⟩,false,false,[],some 4,some ⟨.code,[],.lcode,false,[(2,0),(1,0)],false⟩,none,false,false,false,none,false,⟨.lcode,some (.own 3),false,.lblank⟩⟩] .leaf) 48492257 [⟨⟨.code,[],.lblank,false,[(2,0)],true⟩,false,false,[],some 4,some ⟨.code,[],.lcode,false,[(2,0)],false⟩,none,false,true,false,none,false,⟨.lcode,some (.own 3),false,.lblank⟩⟩] (.node .leaf 154742947 [⟨⟨(.inside 0),[],.lcode,false,[(2,0)],false⟩,false,false,[],some 4,some ⟨.code,[],.lcode,false,[(2,0)],false⟩,none,false,false,false,none,false,⟨.lcode,some (.own 3),false,.lblank⟩⟩] .leaf))) 183732698 [⟨⟨.code,[37],.lcode,false,[(2,1)],false⟩,false,false,[],some 4,some ⟨.code,[],.lcode,false,[(2,0)],false⟩,none,false,false,false,none,false,⟨.lcode,some (.own 3),false,.lblank⟩⟩] (.node (.node (.node .leaf 541109107 [⟨⟨(.inside 1),[],.lcode,false,[(2,0)],false⟩,false,false,[],some 4,some ⟨.code,[],.lcode,false,[(2,0)],false⟩,none,false,false,false,none,false,⟨.lcode,some (.own 3),false,.lblank⟩⟩] .leaf) 927475267 [⟨⟨(.inside 2),[],.lcode,false,[(2,0)],false⟩,false,false,[],some 4,some ⟨.code,[],.lcode,false,[(2,0)],false⟩,none,false,false,false,none,false,⟨.lcode,some (.own 3),false,.lblank⟩⟩] (.node .leaf 985409525 [⟨⟨(.inside 2),[],.lcode,false,[(1,0)],false⟩,false,false,[],some 4,some ⟨(.inside 2),[],.lcode,false,[(1,0)],false⟩,none,false,false,false,none,false,⟨.lcode,some (.own 3),false,.lblank⟩⟩] .leaf)) 985500931 [⟨⟨(.inside 2),[],.lcode,false,[(2,0)],false⟩,false,false,[],some 4,some ⟨(.inside 2),[],.lcode,false,[(2,0)],false⟩,none,false,false,false,none,false,⟨.lcode,some (.own 3),false,.lblank⟩⟩] (.node (.node .leaf 6339821229 [⟨⟨.code,[],.lblank,false,[(1,0),(2,0)],true⟩,false,false,[],some 4,some ⟨.code,[],.lcode,false,[(2,0)],false⟩,none,false,true,false,none,false,⟨.lcode,some (.own 3),false,.lblank⟩⟩] .leaf) 6352509921 [⟨⟨.code,[],.lblank,false,[(2,0),(1,0)],true⟩,false,false,[],some 4,some ⟨.code,[],.lcode,false,[(2,0),(1,0)],false⟩,none,false,true,false,none,false,⟨.lcode,some (.own 3),false,.lblank⟩⟩] .leaf))) 20258662139 [⟨⟨(.inside 0),[],.lcode,false,[(1,0),(2,0)],false⟩,false,false,[],some 4,some ⟨.code,[],.lcode,false,[(2,0)],false⟩,none,false,false,false,none,false,⟨.lcode,some (.own 3),false,.lblank⟩⟩] (.node (.node (.node (.node .leaf 20259468051 [⟨⟨(.inside 0),[],.lcode,false,[(1,0),(2,0)],false⟩,false,false,[],some 4,some ⟨.code,[],.lcode,false,[(1,0),(2,0)],false⟩,none,false,false,false,none,false,⟨.lcode,some (.own 3),false,.lblank⟩⟩] .leaf) 20271350831 [⟨⟨(.inside 0),[],.lcode,false,[(2,0),(1,0)],false⟩,false,false,[],some 4,some ⟨.code,[],.lcode,false,[(2,0),(1,0)],false⟩,none,false,false,false,none,false,⟨.lcode,some (.own 3),false,.lblank⟩⟩] (.node .leaf 24056331809 [⟨⟨.code,[37],.lcode,false,[(1,1),(2,1)],false⟩,false,false,[],some 4,some ⟨.code,[],.lcode,false,[(2,0)],false⟩,none,false,false,false,none,false,⟨.lcode,some (.own 3),false,.lblank⟩⟩] .leaf)) 24057137721 [⟨⟨.code,[37],.lcode,false,[(1,1),(2,1)],false⟩,false,false,[],some 4,some ⟨.code,[],.lcode,false,[(1,0),(2,0)],false⟩,none,false,false,false,none,false,⟨.lcode,some (.own 3),false,.lblank⟩⟩] (.node (.node .leaf 24069020501 [⟨⟨.code,[37],.lcode,false,[(2,1),(1,1)],false⟩,false,false,[],some 4,some ⟨.code,[],.lcode,false,[(2,0),(1,0)],false⟩,none,false,false,false,none,false,⟨.lcode,some (.own 3),false,.lblank⟩⟩] .leaf) 70872629099 [⟨⟨(.inside 1),[],.lcode,false,[(1,0),(2,0)],false⟩,false,false,[],some 4,some ⟨.code,[],.lcode,false,[(2,0)],false⟩,none,false,false,false,none,false,⟨.lcode,some (.own 3),false,.lblank⟩⟩] .leaf)) 70873435011 [⟨⟨(.inside 1),[],.lcode,false,[(1,0),(2,0)],false⟩,false,false,[],some 4,some ⟨.code,[],.lcode,false,[(1,0),(2,0)],false⟩,none,false,false,false,none,false,⟨.lcode,some (.own 3),false,.lblank⟩⟩] (.node (.node (.node .leaf 70885317791 [⟨⟨(.inside 1),[],.lcode,false,[(2,0),(1,0)],false⟩,false,false,[],some 4,some ⟨.code,[],.lcode,false,[(2,0),(1,0)],false⟩,none,false,false,false,none,false,⟨.lcode,some (.own 3),false,.lblank⟩⟩] .leaf) 121486596059 [⟨⟨(.inside 2),[],.lcode,false,[(1,0),(2,0)],false⟩,false,false,[],some 4,some ⟨.code,[],.lcode,false,[(2,0)],false⟩,none,false,false,false,none,false,⟨.lcode,some (.own 3),false,.lblank⟩⟩] (.node .leaf 121487401971 [⟨⟨(.inside 2),[],.lcode,false,[(1,0),(2,0)],false⟩,false,false,[],some 4,some ⟨.code,[],.lcode,false,[(1,0),(2,0)],false⟩,none,false,false,false,none,false,⟨.lcode,some (.own 3),false,.lblank⟩⟩] .leaf)) 121499284751 [⟨⟨(.inside 2),[],.lcode,false,[(2,0),(1,0)],false⟩,false,false,[],some 4,some ⟨.code,[],.lcode,false,[(2,0),(1,0)],false⟩,none,false,false,false,none,false,⟨.lcode,some (.own 3),false,.lblank⟩⟩] (.node (.node .leaf 129088763955 [⟨⟨(.inside 2),[],.lcode,false,[(1,0),(2,0)],false⟩,false,false,[],some 4,some ⟨(.inside 2),[],.lcode,false,[(1,0),(2,0)],false⟩,none,false,false,false,none,false,⟨.lcode,some (.own 3),false,.lblank⟩⟩] .leaf) 129100646735 [⟨⟨(.inside 2),[],.lcode,false,[(2,0),(1,0)],false⟩,false,false,[],some 4,some ⟨(.inside 2),[],.lcode,false,[(2,0),(1,0)],false⟩,none,false,false,false,none,false,⟨.lcode,some (.own 3),false,.lblank⟩⟩] .leaf)))),(.node (.node (.node (.node .leaf 1179872 [⟨⟨(.inside 0),[],.lcode,false,[],false⟩,false,false,[],none,none,none,false,false,false,none,false,⟨.lcode,some (.own 3),false,.lblank⟩⟩] .leaf) 1327852 [⟨⟨(.inside 0),[],.lcomment,false,[],false⟩,false,false,[],none,none,none,false,false,false,none,false,⟨.lcomment,some (.own 3),false,.lblank⟩⟩] .leaf) 154644904 [⟨⟨(.inside 0),[],.lcode,false,[(1,0)],false⟩,false,false,[],none,none,none,false,false,false,none,false,⟨.lcode,some (.own 3),false,.lblank⟩⟩] (.node (.node .leaf 154657193 [⟨⟨(.inside 0),[],.lcode,false,[(1,1)],false⟩,false,false,[],none,none,none,false,false,false,none,false,⟨.lcode,some (.own 3),false,.lblank⟩⟩] .leaf) 154730927 [⟨⟨(.inside 0),[],.lcode,false,[(2,0)],false⟩,false,false,[],none,none,none,false,false,false,none,false,⟨.lcode,some (.own 3),false,.lblank⟩⟩] .leaf)) 154743216 [⟨⟨(.inside 0),[],.lcode,false,[(2,1)],false⟩,false,false,[],none,none,none,false,false,false,none,false,⟨.lcode,some (.own 3),false,.lblank⟩⟩] (.node (.node (.node .leaf 20258650119 [⟨⟨(.inside 0),[],.lcode,false,[(1,0),(2,0)],false⟩,false,false,[],none,none,none,false,false,false,none,false,⟨.lcode,some (.own 3),false,.lblank⟩⟩] .leaf) 20260272267 [⟨⟨(.inside 0),[],.lcode,false,[(1,1),(2,1)],false⟩,false,false,[],none,none,none,false,false,false,none,false,⟨.lcode,some (.own 3),false,.lblank⟩⟩] .leaf) 20269833109 [⟨⟨(.inside 0),[],.lcode,false,[(2,0),(1,0)],false⟩,false,false,[],none,none,none,false,false,false,none,false,⟨.lcode,some (.own 3),false,.lblank⟩⟩] (.node .leaf 20271455257 [⟨⟨(.inside 0),[],.lcode,false,[(2,1),(1,1)],false⟩,false,false,[],none,none,none,false,false,false,none,false,⟨.lcode,some (.own 3),false,.lblank⟩⟩] .leaf))),(.node (.node (.node (.node (.node .leaf 105077 [⟨⟨.code,[],.lcode,false,[(1,0)],false⟩,false,false,[],some 4,some ⟨.code,[],.lcode,false,[(1,0)],false⟩,none,false,false,false,none,false,⟨.lcode,some (.own 3),false,.lblank⟩⟩] .leaf) 4388101 [⟨⟨(.inside 1),[],.lcode,false,[],false⟩,false,false,[],some 4,some ⟨(.inside 1),[],.lcode,false,[],false⟩,none,false,false,false,none,false,⟨.lcode,some (.own 3),false,.lblank⟩⟩] (.node .leaf 13881267 [⟨⟨.code,[],.lcode,false,[(1,0),(2,0)],false⟩,false,false,[],some 4,some ⟨.code,[],.lcode,false,[(1,0),(2,0)],false⟩,none,false,false,false,none,false,⟨.lcode,some (.own 3),false,.lblank⟩⟩] .leaf)) 24252962 [⟨⟨.code,[],.lcode,false,[(2,0),(1,0)],false⟩,false,false,[],some 4,some ⟨.code,[],.lcode,false,[(1,0)],false⟩,none,false,false,false,none,false,⟨.lcode,some (.own 3),false,.lblank⟩⟩] (.node (.node .leaf 25764047 [⟨⟨.code,[],.lcode,false,[(2,0),(1,0)],false⟩,false,false,[],some 4,some ⟨.code,[],.lcode,false,[(2,0),(1,0)],false⟩,none,false,false,false,none,false,⟨.lcode,some (.own 3),false,.lblank⟩⟩] .leaf) 48400851 [⟨⟨.code,[],.lblank,false,[(1,0)],true⟩,false,false,[],some 4,some ⟨.code,[],.lcode,false,[(1,0)],false⟩,none,false,true,false,none,false,⟨.lcode,some (.own 3),false,.lblank⟩⟩] (.node .leaf 154651541 [⟨⟨(.inside 0),[],.lcode,false,[(1,0)],false⟩,false,false,[],some 4,some ⟨.code,[],.lcode,false,[(1,0)],false⟩,none,false,false,false,none,false,⟨.lcode,some (.own 3),false,.lblank⟩⟩] .leaf))) 183641292 [⟨⟨.code,[37],.lcode,false,[(1,1)],false⟩,false,false,[],some 4,some ⟨.code,[],.lcode,false,[(1,0)],false⟩,none,false,false,false,none,false,⟨.lcode,some (.own 3),false,.lblank⟩⟩] (.node (.node (.node .leaf 541017701 [⟨⟨(.inside 1),[],.lcode,false,[(1,0)],false⟩,false,false,[],some 4,some ⟨.code,[],.lcode,false,[(1,0)],false⟩,none,false,false,false,none,false,⟨.lcode,some (.own 3),false,.lblank⟩⟩] .leaf) 574866005 [⟨⟨(.inside 1),[],.lcode,false,[(1,0)],false⟩,false,false,[],some 4,some ⟨(.inside 1),[],.lcode,false,[(1,0)],false⟩,none,false,false,false,none,false,⟨.lcode,some (.own 3),false,.lblank⟩⟩] (.node .leaf 574957411 [⟨⟨(.inside 1),[],.lcode,false,[(2,0)],false⟩,false,false,[],some 4,some ⟨(.inside 1),[],.lcode,false,[(2,0)],false⟩,none,false,false,false,none,false,⟨.lcode,some (.own 3),false,.lblank⟩⟩] .leaf)) 927383861 [⟨⟨(.inside 2),[],.lcode,false,[(1,0)],false⟩,false,false,[],some 4,some ⟨.code,[],.lcode,false,[(1,0)],false⟩,none,false,false,false,none,false,⟨.lcode,some (.own 3),false,.lblank⟩⟩] (.node (.node .leaf 6340627141 [⟨⟨.code,[],.lblank,false,[(1,0),(2,0)],true⟩,false,false,[],some 4,some ⟨.code,[],.lcode,false,[(1,0),(2,0)],false⟩,none,false,true,false,none,false,⟨.lcode,some (.own 3),false,.lblank⟩⟩] .leaf) 6350998836 [⟨⟨.code,[],.lblank,false,[(2,0),(1,0)],true⟩,false,false,[],some 4,some ⟨.code,[],.lcode,false,[(1,0)],false⟩,none,false,true,false,none,false,⟨.lcode,some (.own 3),false,.lblank⟩⟩] .leaf))) 20259468051 [⟨⟨(.inside 0),[],.lcode,false,[(1,0),(2,0)],false⟩,false,false,[],some 4,some ⟨.code,[],.lcode,false,[(1,0),(2,0)],false⟩,none,false,false,false,none,false,⟨.lcode,some (.own 3),false,.lblank⟩⟩] (.node (.node (.node (.node .leaf 20269839746 [⟨⟨(.inside 0),[],.lcode,false,[(2,0),(1,0)],false⟩,false,false,[],some 4,some ⟨.code,[],.lcode,false,[(1,0)],false⟩,none,false,false,false,none,false,⟨.lcode,some (.own 3),false,.lblank⟩⟩] .leaf) 20271350831 [⟨⟨(.inside 0),[],.lcode,false,[(2,0),(1,0)],false⟩,false,false,[],some 4,some ⟨.code,[],.lcode,false,[(2,0),(1,0)],false⟩,none,false,false,false,none,false,⟨.lcode,some (.own 3),false,.lblank⟩⟩] (.node .leaf 24057137721 [⟨⟨.code,[37],.lcode,false,[(1,1),(2,1)],false⟩,false,false,[],some 4,some ⟨.code,[],.lcode,false,[(1,0),(2,0)],false⟩,none,false,false,false,none,false,⟨.lcode,some (.own 3),false,.lblank⟩⟩] .leaf)) 24067509416 [⟨⟨.code,[37],.lcode,false,[(2,1),(1,1)],false⟩,false,false,[],some 4,some ⟨.code,[],.lcode,false,[(1,0)],false⟩,none,false,false,false,none,false,⟨.lcode,some (.own 3),false,.lblank⟩⟩] (.node (.node .leaf 24069020501 [⟨⟨.code,[37],.lcode,false,[(2,1),(1,1)],false⟩,false,false,[],some 4,some ⟨.code,[],.lcode,false,[(2,0),(1,0)],false⟩,none,false,false,false,none,false,⟨.lcode,some (.own 3),false,.lblank⟩⟩] .leaf) 70873435011 [⟨⟨(.inside 1),[],.lcode,false,[(1,0),(2,0)],false⟩,false,false,[],some 4,some ⟨.code,[],.lcode,false,[(1,0),(2,0)],false⟩,none,false,false,false,none,false,⟨.lcode,some (.own 3),false,.lblank⟩⟩] .leaf)) 70883806706 [⟨⟨(.inside 1),[],.lcode,false,[(2,0),(1,0)],false⟩,false,false,[],some 4,some ⟨.code,[],.lcode,false,[(1,0)],false⟩,none,false,false,false,none,false,⟨.lcode,some (.own 3),false,.lblank⟩⟩] (.node (.node (.node .leaf 70885317791 [⟨⟨(.inside 1),[],.lcode,false,[(2,0),(1,0)],false⟩,false,false,[],some 4,some ⟨.code,[],.lcode,false,[(2,0),(1,0)],false⟩,none,false,false,false,none,false,⟨.lcode,some (.own 3),false,.lblank⟩⟩] .leaf) 75307562835 [⟨⟨(.inside 1),[],.lcode,false,[(1,0),(2,0)],false⟩,false,false,[],some 4,some ⟨(.inside 1),[],.lcode,false,[(1,0),(2,0)],false⟩,none,false,false,false,none,false,⟨.lcode,some (.own 3),false,.lblank⟩⟩] (.node .leaf 75319445615 [⟨⟨(.inside 1),[],.lcode,false,[(2,0),(1,0)],false⟩,false,false,[],some 4,some ⟨(.inside 1),[],.lcode,false,[(2,0),(1,0)],false⟩,none,false,false,false,none,false,⟨.lcode,some (.own 3),false,.lblank⟩⟩] .leaf)) 121487401971 [⟨⟨(.inside 2),[],.lcode,false,[(1,0),(2,0)],false⟩,false,false,[],some 4,some ⟨.code,[],.lcode,false,[(1,0),(2,0)],false⟩,none,false,false,false,none,false,⟨.lcode,some (.own 3),false,.lblank⟩⟩] (.node (.node .leaf 121497773666 [⟨⟨(.inside 2),[],.lcode,false,[(2,0),(1,0)],false⟩,false,false,[],some 4,some ⟨.code,[],.lcode,false,[(1,0)],false⟩,none,false,false,false,none,false,⟨.lcode,some (.own 3),false,.lblank⟩⟩] .leaf) 121499284751 [⟨⟨(.inside 2),[],.lcode,false,[(2,0),(1,0)],false⟩,false,false,[],some 4,some ⟨.code,[],.lcode,false,[(2,0),(1,0)],false⟩,none,false,false,false,none,false,⟨.lcode,some (.own 3),false,.lblank⟩⟩] .leaf))))]
theorem erlang_line_lClosed : CA.closedF erlang_line_M erlang_line_lex true false erlang_line_lfr erlang_line_lTab = true := by decide +kernel
def erlang_line_L : LCert LexisTable.erlang_line erlang_line_M := erlang_line_lex_eq ▸ ⟨⟨erlang_line_lmasks, erlang_line_lex.rel, erlang_line_lcs, erlang_line_lrows, erlang_line_lmasksIn, erlang_line_lrepOk, erlang_line_lrowsOk⟩,
  _, rfl, by decide +kernel, by decide +kernel, true, false, CA.closed_of erlang_line_lfrOk erlang_line_lClosed⟩
theorem erlang_line_L_chk : erlang_line_L.chk = true := by
  have : ∀ (l : Lexis) (h : LexisTable.erlang_line = l) (C : LCert l erlang_line_M), (h ▸ C : LCert LexisTable.erlang_line erlang_line_M).chk = C.chk := by rintro _ rfl _; rfl
  exact this _ erlang_line_lex_eq _

end Ohcount.Cert
