import Verif.Cert.N1
import Verif.RagelLexFast
import Verif.LexisTable

/-! Generated by tools/gen_certs.py. -/

namespace Ohcount.Cert
open Ohcount.Ragel Ohcount.Gram

set_option maxRecDepth 100000
set_option maxHeartbeats 0

def sql_line_lex : Lexis := [⟨[45,45],[],.lcomment,false,false,false,true,false,false,true,false,none,false,false,false,false,[]⟩,⟨[35],[],.lcomment,false,false,false,true,false,false,true,false,none,false,false,false,false,[]⟩,⟨[47,47],[],.lcomment,false,false,false,true,false,false,true,false,none,false,false,false,false,[]⟩,⟨[47,42],[[42,47]],.lcomment,true,false,false,true,false,false,true,false,none,false,false,false,false,[]⟩,⟨[123],[[125]],.lcomment,true,false,false,true,false,false,false,false,none,false,false,false,false,[]⟩,⟨[39],[[39]],.lcode,false,true,true,true,false,false,true,false,none,false,false,false,false,[]⟩,⟨[34],[[34]],.lcode,false,true,true,true,false,false,true,false,none,false,false,false,false,[]⟩]
theorem sql_line_lex_eq : LexisTable.sql_line = sql_line_lex := by decide +kernel
def sql_line_lmasks : List Nat := [4294967808,35184372088832,34359738368,140737488355328,10633823966279326983230456482242756608,549755813888,17179869184,8192,1024,4096,115792089237316195423570985008687907853269984665640564039457584007908834656767,115792089237316195423570985008687907853269984665640564039457584007913129626623,4398046511104,115792089237316195423570985008687907853269984665640564039457584007908834658815,42535295865117307932921825928971026432,115792089237316195423570985008687907853269984665635612279300442486263777315839,4951760157141521099596496896,115792089237316195423570985008687907853269984665635612279300442486796353260543]
def sql_line_lcs : List (Nat × Nat) := [(0,115792089237316195423570985008687907853216815545804215644384290023476822000127),(9,4294967808),(10,1024),(11,2048),(12,4096),(13,8192),(34,17179869184),(35,34359738368),(39,549755813888),(42,4398046511104),(45,35184372088832),(47,140737488355328),(92,4951760157141521099596496896),(123,10633823966279326983230456482242756608),(125,42535295865117307932921825928971026432)]
theorem sql_line_lmasksIn : masksIn sql_line_nfa sql_line_lmasks = true := by decide +kernel
theorem sql_line_lrepOk : repOk sql_line_lmasks sql_line_lcs = true := by decide +kernel
def sql_line_lrows : List Row := [⟨[],none,[],[⟨256,.other,false,some ⟨0,[.setEnt (.own 3)],some 4,true⟩⟩,⟨256,.ws,false,some ⟨1,[.setEnt (.own 0)],some 0,false⟩⟩,⟨256,.lf,false,some ⟨0,[.setEnt .newline],some 3,true⟩⟩,⟨256,.vt,false,none⟩,⟨256,.ff,false,some ⟨0,[.setEnt .newline],some 3,true⟩⟩,⟨256,.cr,false,some ⟨2,[.setEnt .newline],none,false⟩⟩,⟨256,.cr,true,some ⟨3,[.setEnt .newline],some 3,false⟩⟩,⟨34,.other,false,some ⟨4,[.code,.setEnt (.own 3)],some 4,false⟩⟩,⟨35,.other,false,some ⟨5,[.comment,.setEnt (.own 3)],some 1,false⟩⟩,⟨39,.other,false,some ⟨6,[.code,.setEnt (.own 3)],some 4,false⟩⟩,⟨42,.other,false,some ⟨0,[.setEnt (.own 3)],some 4,true⟩⟩,⟨45,.other,false,some ⟨7,[.setEnt (.own 3)],some 4,false⟩⟩,⟨47,.other,false,some ⟨8,[.setEnt (.own 3)],some 4,false⟩⟩,⟨92,.other,false,some ⟨0,[.setEnt (.own 3)],some 4,true⟩⟩,⟨123,.other,false,some ⟨9,[.comment,.setEnt (.own 3)],some 4,false⟩⟩,⟨125,.other,false,some ⟨0,[.setEnt (.own 3)],some 4,true⟩⟩]⟩,⟨[0],some 0,[],[⟨256,.other,false,none⟩,⟨256,.ws,false,some ⟨1,[.setEnt (.own 0)],some 0,false⟩⟩,⟨256,.lf,false,none⟩,⟨256,.vt,false,none⟩,⟨256,.ff,false,none⟩,⟨256,.cr,false,none⟩,⟨256,.cr,true,none⟩,⟨34,.other,false,none⟩,⟨35,.other,false,none⟩,⟨39,.other,false,none⟩,⟨42,.other,false,none⟩,⟨45,.other,false,none⟩,⟨47,.other,false,none⟩,⟨92,.other,false,none⟩,⟨123,.other,false,none⟩,⟨125,.other,false,none⟩]⟩,⟨[37],none,[],[⟨256,.other,false,none⟩,⟨256,.ws,false,none⟩,⟨256,.lf,false,some ⟨0,[.setEnt .newline],some 3,true⟩⟩,⟨256,.vt,false,none⟩,⟨256,.ff,false,none⟩,⟨256,.cr,false,none⟩,⟨256,.cr,true,none⟩,⟨34,.other,false,none⟩,⟨35,.other,false,none⟩,⟨39,.other,false,none⟩,⟨42,.other,false,none⟩,⟨45,.other,false,none⟩,⟨47,.other,false,none⟩,⟨92,.other,false,none⟩,⟨123,.other,false,none⟩,⟨125,.other,false,none⟩]⟩,⟨[37,41],some 3,[],[⟨256,.other,false,none⟩,⟨256,.ws,false,none⟩,⟨256,.lf,false,some ⟨0,[.setEnt .newline],some 3,true⟩⟩,⟨256,.vt,false,none⟩,⟨256,.ff,false,none⟩,⟨256,.cr,false,none⟩,⟨256,.cr,true,none⟩,⟨34,.other,false,none⟩,⟨35,.other,false,none⟩,⟨39,.other,false,none⟩,⟨42,.other,false,none⟩,⟨45,.other,false,none⟩,⟨47,.other,false,none⟩,⟨92,.other,false,none⟩,⟨123,.other,false,none⟩,⟨125,.other,false,none⟩]⟩,⟨[32,42],some 4,[],[⟨256,.other,false,some ⟨10,[],none,false⟩⟩,⟨256,.ws,false,some ⟨10,[],none,false⟩⟩,⟨256,.lf,false,none⟩,⟨256,.vt,false,some ⟨10,[],none,false⟩⟩,⟨256,.ff,false,none⟩,⟨256,.cr,false,none⟩,⟨256,.cr,true,none⟩,⟨34,.other,false,some ⟨0,[],some 2,true⟩⟩,⟨35,.other,false,some ⟨10,[],none,false⟩⟩,⟨39,.other,false,some ⟨10,[],none,false⟩⟩,⟨42,.other,false,some ⟨10,[],none,false⟩⟩,⟨45,.other,false,some ⟨10,[],none,false⟩⟩,⟨47,.other,false,some ⟨10,[],none,false⟩⟩,⟨92,.other,false,some ⟨11,[],none,false⟩⟩,⟨123,.other,false,some ⟨10,[],none,false⟩⟩,⟨125,.other,false,some ⟨10,[],none,false⟩⟩]⟩,⟨[3,42],some 1,[],[⟨256,.other,false,some ⟨12,[],some 1,false⟩⟩,⟨256,.ws,false,some ⟨12,[],some 1,false⟩⟩,⟨256,.lf,false,none⟩,⟨256,.vt,false,some ⟨12,[],some 1,false⟩⟩,⟨256,.ff,false,none⟩,⟨256,.cr,false,none⟩,⟨256,.cr,true,none⟩,⟨34,.other,false,some ⟨12,[],some 1,false⟩⟩,⟨35,.other,false,some ⟨12,[],some 1,false⟩⟩,⟨39,.other,false,some ⟨12,[],some 1,false⟩⟩,⟨42,.other,false,some ⟨12,[],some 1,false⟩⟩,⟨45,.other,false,some ⟨12,[],some 1,false⟩⟩,⟨47,.other,false,some ⟨12,[],some 1,false⟩⟩,⟨92,.other,false,some ⟨12,[],some 1,false⟩⟩,⟨123,.other,false,some ⟨12,[],some 1,false⟩⟩,⟨125,.other,false,some ⟨12,[],some 1,false⟩⟩]⟩,⟨[27,42],some 4,[],[⟨256,.other,false,some ⟨13,[],none,false⟩⟩,⟨256,.ws,false,some ⟨13,[],none,false⟩⟩,⟨256,.lf,false,none⟩,⟨256,.vt,false,some ⟨13,[],none,false⟩⟩,⟨256,.ff,false,none⟩,⟨256,.cr,false,none⟩,⟨256,.cr,true,none⟩,⟨34,.other,false,some ⟨13,[],none,false⟩⟩,⟨35,.other,false,some ⟨13,[],none,false⟩⟩,⟨39,.other,false,some ⟨0,[],some 2,true⟩⟩,⟨42,.other,false,some ⟨13,[],none,false⟩⟩,⟨45,.other,false,some ⟨13,[],none,false⟩⟩,⟨47,.other,false,some ⟨13,[],none,false⟩⟩,⟨92,.other,false,some ⟨14,[],none,false⟩⟩,⟨123,.other,false,some ⟨13,[],none,false⟩⟩,⟨125,.other,false,some ⟨13,[],none,false⟩⟩]⟩,⟨[1,42],some 4,[],[⟨256,.other,false,none⟩,⟨256,.ws,false,none⟩,⟨256,.lf,false,none⟩,⟨256,.vt,false,none⟩,⟨256,.ff,false,none⟩,⟨256,.cr,false,none⟩,⟨256,.cr,true,none⟩,⟨34,.other,false,none⟩,⟨35,.other,false,none⟩,⟨39,.other,false,none⟩,⟨42,.other,false,none⟩,⟨45,.other,false,some ⟨15,[.comment],some 1,false⟩⟩,⟨47,.other,false,none⟩,⟨92,.other,false,none⟩,⟨123,.other,false,none⟩,⟨125,.other,false,none⟩]⟩,⟨[4,7,42],some 4,[],[⟨256,.other,false,none⟩,⟨256,.ws,false,none⟩,⟨256,.lf,false,none⟩,⟨256,.vt,false,none⟩,⟨256,.ff,false,none⟩,⟨256,.cr,false,none⟩,⟨256,.cr,true,none⟩,⟨34,.other,false,none⟩,⟨35,.other,false,none⟩,⟨39,.other,false,none⟩,⟨42,.other,false,some ⟨16,[.comment],none,false⟩⟩,⟨45,.other,false,none⟩,⟨47,.other,false,some ⟨17,[.comment],some 1,false⟩⟩,⟨92,.other,false,none⟩,⟨123,.other,false,none⟩,⟨125,.other,false,none⟩]⟩,⟨[18,42],some 4,[],[⟨256,.other,false,some ⟨18,[.comment],none,false⟩⟩,⟨256,.ws,false,some ⟨19,[],none,false⟩⟩,⟨256,.lf,false,some ⟨20,[],none,false⟩⟩,⟨256,.vt,false,some ⟨18,[.comment],none,false⟩⟩,⟨256,.ff,false,some ⟨21,[],none,false⟩⟩,⟨256,.cr,false,some ⟨22,[],none,false⟩⟩,⟨256,.cr,true,some ⟨23,[],none,false⟩⟩,⟨34,.other,false,some ⟨18,[.comment],none,false⟩⟩,⟨35,.other,false,some ⟨18,[.comment],none,false⟩⟩,⟨39,.other,false,some ⟨18,[.comment],none,false⟩⟩,⟨42,.other,false,some ⟨18,[.comment],none,false⟩⟩,⟨45,.other,false,some ⟨18,[.comment],none,false⟩⟩,⟨47,.other,false,some ⟨18,[.comment],none,false⟩⟩,⟨92,.other,false,some ⟨18,[.comment],none,false⟩⟩,⟨123,.other,false,some ⟨18,[.comment],none,false⟩⟩,⟨125,.other,false,some ⟨0,[],some 1,true⟩⟩]⟩,⟨[33],none,[],[⟨256,.other,false,some ⟨10,[],none,false⟩⟩,⟨256,.ws,false,some ⟨10,[],none,false⟩⟩,⟨256,.lf,false,none⟩,⟨256,.vt,false,some ⟨10,[],none,false⟩⟩,⟨256,.ff,false,none⟩,⟨256,.cr,false,none⟩,⟨256,.cr,true,none⟩,⟨34,.other,false,some ⟨0,[],some 2,true⟩⟩,⟨35,.other,false,some ⟨10,[],none,false⟩⟩,⟨39,.other,false,some ⟨10,[],none,false⟩⟩,⟨42,.other,false,some ⟨10,[],none,false⟩⟩,⟨45,.other,false,some ⟨10,[],none,false⟩⟩,⟨47,.other,false,some ⟨10,[],none,false⟩⟩,⟨92,.other,false,some ⟨11,[],none,false⟩⟩,⟨123,.other,false,some ⟨10,[],none,false⟩⟩,⟨125,.other,false,some ⟨10,[],none,false⟩⟩]⟩,⟨[34],none,[],[⟨256,.other,false,some ⟨24,[],none,false⟩⟩,⟨256,.ws,false,some ⟨24,[],none,false⟩⟩,⟨256,.lf,false,none⟩,⟨256,.vt,false,some ⟨24,[],none,false⟩⟩,⟨256,.ff,false,none⟩,⟨256,.cr,false,none⟩,⟨256,.cr,true,none⟩,⟨34,.other,false,some ⟨24,[],none,false⟩⟩,⟨35,.other,false,some ⟨24,[],none,false⟩⟩,⟨39,.other,false,some ⟨24,[],none,false⟩⟩,⟨42,.other,false,some ⟨24,[],none,false⟩⟩,⟨45,.other,false,some ⟨24,[],none,false⟩⟩,⟨47,.other,false,some ⟨24,[],none,false⟩⟩,⟨92,.other,false,some ⟨24,[],none,false⟩⟩,⟨123,.other,false,some ⟨24,[],none,false⟩⟩,⟨125,.other,false,some ⟨24,[],none,false⟩⟩]⟩,⟨[6],some 1,[],[⟨256,.other,false,some ⟨12,[],some 1,false⟩⟩,⟨256,.ws,false,some ⟨12,[],some 1,false⟩⟩,⟨256,.lf,false,none⟩,⟨256,.vt,false,some ⟨12,[],some 1,false⟩⟩,⟨256,.ff,false,none⟩,⟨256,.cr,false,none⟩,⟨256,.cr,true,none⟩,⟨34,.other,false,some ⟨12,[],some 1,false⟩⟩,⟨35,.other,false,some ⟨12,[],some 1,false⟩⟩,⟨39,.other,false,some ⟨12,[],some 1,false⟩⟩,⟨42,.other,false,some ⟨12,[],some 1,false⟩⟩,⟨45,.other,false,some ⟨12,[],some 1,false⟩⟩,⟨47,.other,false,some ⟨12,[],some 1,false⟩⟩,⟨92,.other,false,some ⟨12,[],some 1,false⟩⟩,⟨123,.other,false,some ⟨12,[],some 1,false⟩⟩,⟨125,.other,false,some ⟨12,[],some 1,false⟩⟩]⟩,⟨[28],none,[],[⟨256,.other,false,some ⟨13,[],none,false⟩⟩,⟨256,.ws,false,some ⟨13,[],none,false⟩⟩,⟨256,.lf,false,none⟩,⟨256,.vt,false,some ⟨13,[],none,false⟩⟩,⟨256,.ff,false,none⟩,⟨256,.cr,false,none⟩,⟨256,.cr,true,none⟩,⟨34,.other,false,some ⟨13,[],none,false⟩⟩,⟨35,.other,false,some ⟨13,[],none,false⟩⟩,⟨39,.other,false,some ⟨0,[],some 2,true⟩⟩,⟨42,.other,false,some ⟨13,[],none,false⟩⟩,⟨45,.other,false,some ⟨13,[],none,false⟩⟩,⟨47,.other,false,some ⟨13,[],none,false⟩⟩,⟨92,.other,false,some ⟨14,[],none,false⟩⟩,⟨123,.other,false,some ⟨13,[],none,false⟩⟩,⟨125,.other,false,some ⟨13,[],none,false⟩⟩]⟩,⟨[29],none,[],[⟨256,.other,false,some ⟨25,[],none,false⟩⟩,⟨256,.ws,false,some ⟨25,[],none,false⟩⟩,⟨256,.lf,false,none⟩,⟨256,.vt,false,some ⟨25,[],none,false⟩⟩,⟨256,.ff,false,none⟩,⟨256,.cr,false,none⟩,⟨256,.cr,true,none⟩,⟨34,.other,false,some ⟨25,[],none,false⟩⟩,⟨35,.other,false,some ⟨25,[],none,false⟩⟩,⟨39,.other,false,some ⟨25,[],none,false⟩⟩,⟨42,.other,false,some ⟨25,[],none,false⟩⟩,⟨45,.other,false,some ⟨25,[],none,false⟩⟩,⟨47,.other,false,some ⟨25,[],none,false⟩⟩,⟨92,.other,false,some ⟨25,[],none,false⟩⟩,⟨123,.other,false,some ⟨25,[],none,false⟩⟩,⟨125,.other,false,some ⟨25,[],none,false⟩⟩]⟩,⟨[2],some 1,[],[⟨256,.other,false,some ⟨12,[],some 1,false⟩⟩,⟨256,.ws,false,some ⟨12,[],some 1,false⟩⟩,⟨256,.lf,false,none⟩,⟨256,.vt,false,some ⟨12,[],some 1,false⟩⟩,⟨256,.ff,false,none⟩,⟨256,.cr,false,none⟩,⟨256,.cr,true,none⟩,⟨34,.other,false,some ⟨12,[],some 1,false⟩⟩,⟨35,.other,false,some ⟨12,[],some 1,false⟩⟩,⟨39,.other,false,some ⟨12,[],some 1,false⟩⟩,⟨42,.other,false,some ⟨12,[],some 1,false⟩⟩,⟨45,.other,false,some ⟨12,[],some 1,false⟩⟩,⟨47,.other,false,some ⟨12,[],some 1,false⟩⟩,⟨92,.other,false,some ⟨12,[],some 1,false⟩⟩,⟨123,.other,false,some ⟨12,[],some 1,false⟩⟩,⟨125,.other,false,some ⟨12,[],some 1,false⟩⟩]⟩,⟨[8],none,[],[⟨256,.other,false,some ⟨26,[.comment],none,false⟩⟩,⟨256,.ws,false,some ⟨27,[],none,false⟩⟩,⟨256,.lf,false,some ⟨28,[],none,false⟩⟩,⟨256,.vt,false,some ⟨26,[.comment],none,false⟩⟩,⟨256,.ff,false,some ⟨29,[],none,false⟩⟩,⟨256,.cr,false,some ⟨30,[],none,false⟩⟩,⟨256,.cr,true,some ⟨31,[],none,false⟩⟩,⟨34,.other,false,some ⟨26,[.comment],none,false⟩⟩,⟨35,.other,false,some ⟨26,[.comment],none,false⟩⟩,⟨39,.other,false,some ⟨26,[.comment],none,false⟩⟩,⟨42,.other,false,some ⟨32,[.comment],none,false⟩⟩,⟨45,.other,false,some ⟨26,[.comment],none,false⟩⟩,⟨47,.other,false,some ⟨26,[.comment],none,false⟩⟩,⟨92,.other,false,some ⟨26,[.comment],none,false⟩⟩,⟨123,.other,false,some ⟨26,[.comment],none,false⟩⟩,⟨125,.other,false,some ⟨26,[.comment],none,false⟩⟩]⟩,⟨[5],some 1,[],[⟨256,.other,false,some ⟨12,[],some 1,false⟩⟩,⟨256,.ws,false,some ⟨12,[],some 1,false⟩⟩,⟨256,.lf,false,none⟩,⟨256,.vt,false,some ⟨12,[],some 1,false⟩⟩,⟨256,.ff,false,none⟩,⟨256,.cr,false,none⟩,⟨256,.cr,true,none⟩,⟨34,.other,false,some ⟨12,[],some 1,false⟩⟩,⟨35,.other,false,some ⟨12,[],some 1,false⟩⟩,⟨39,.other,false,some ⟨12,[],some 1,false⟩⟩,⟨42,.other,false,some ⟨12,[],some 1,false⟩⟩,⟨45,.other,false,some ⟨12,[],some 1,false⟩⟩,⟨47,.other,false,some ⟨12,[],some 1,false⟩⟩,⟨92,.other,false,some ⟨12,[],some 1,false⟩⟩,⟨123,.other,false,some ⟨12,[],some 1,false⟩⟩,⟨125,.other,false,some ⟨12,[],some 1,false⟩⟩]⟩,⟨[25],none,[],[⟨256,.other,false,some ⟨18,[.comment],none,false⟩⟩,⟨256,.ws,false,some ⟨19,[],none,false⟩⟩,⟨256,.lf,false,some ⟨20,[],none,false⟩⟩,⟨256,.vt,false,some ⟨18,[.comment],none,false⟩⟩,⟨256,.ff,false,some ⟨21,[],none,false⟩⟩,⟨256,.cr,false,some ⟨22,[],none,false⟩⟩,⟨256,.cr,true,some ⟨23,[],none,false⟩⟩,⟨34,.other,false,some ⟨18,[.comment],none,false⟩⟩,⟨35,.other,false,some ⟨18,[.comment],none,false⟩⟩,⟨39,.other,false,some ⟨18,[.comment],none,false⟩⟩,⟨42,.other,false,some ⟨18,[.comment],none,false⟩⟩,⟨45,.other,false,some ⟨18,[.comment],none,false⟩⟩,⟨47,.other,false,some ⟨18,[.comment],none,false⟩⟩,⟨92,.other,false,some ⟨18,[.comment],none,false⟩⟩,⟨123,.other,false,some ⟨18,[.comment],none,false⟩⟩,⟨125,.other,false,some ⟨0,[],some 1,true⟩⟩]⟩,⟨[24],none,[],[⟨256,.other,false,some ⟨18,[.comment],none,false⟩⟩,⟨256,.ws,false,some ⟨19,[],none,false⟩⟩,⟨256,.lf,false,some ⟨20,[],none,false⟩⟩,⟨256,.vt,false,some ⟨18,[.comment],none,false⟩⟩,⟨256,.ff,false,some ⟨21,[],none,false⟩⟩,⟨256,.cr,false,some ⟨22,[],none,false⟩⟩,⟨256,.cr,true,some ⟨23,[],none,false⟩⟩,⟨34,.other,false,some ⟨18,[.comment],none,false⟩⟩,⟨35,.other,false,some ⟨18,[.comment],none,false⟩⟩,⟨39,.other,false,some ⟨18,[.comment],none,false⟩⟩,⟨42,.other,false,some ⟨18,[.comment],none,false⟩⟩,⟨45,.other,false,some ⟨18,[.comment],none,false⟩⟩,⟨47,.other,false,some ⟨18,[.comment],none,false⟩⟩,⟨92,.other,false,some ⟨18,[.comment],none,false⟩⟩,⟨123,.other,false,some ⟨18,[.comment],none,false⟩⟩,⟨125,.other,false,some ⟨0,[],some 1,true⟩⟩]⟩,⟨[21],none,[],[⟨256,.other,false,some ⟨18,[.setEnt .internalNl,.cb,.comment],none,false⟩⟩,⟨256,.ws,false,some ⟨19,[.setEnt .internalNl,.cb],none,false⟩⟩,⟨256,.lf,false,some ⟨20,[.setEnt .internalNl,.cb],none,false⟩⟩,⟨256,.vt,false,some ⟨18,[.setEnt .internalNl,.cb,.comment],none,false⟩⟩,⟨256,.ff,false,some ⟨21,[.setEnt .internalNl,.cb],none,false⟩⟩,⟨256,.cr,false,some ⟨22,[.setEnt .internalNl,.cb],none,false⟩⟩,⟨256,.cr,true,some ⟨23,[.setEnt .internalNl,.cb],none,false⟩⟩,⟨34,.other,false,some ⟨18,[.setEnt .internalNl,.cb,.comment],none,false⟩⟩,⟨35,.other,false,some ⟨18,[.setEnt .internalNl,.cb,.comment],none,false⟩⟩,⟨39,.other,false,some ⟨18,[.setEnt .internalNl,.cb,.comment],none,false⟩⟩,⟨42,.other,false,some ⟨18,[.setEnt .internalNl,.cb,.comment],none,false⟩⟩,⟨45,.other,false,some ⟨18,[.setEnt .internalNl,.cb,.comment],none,false⟩⟩,⟨47,.other,false,some ⟨18,[.setEnt .internalNl,.cb,.comment],none,false⟩⟩,⟨92,.other,false,some ⟨18,[.setEnt .internalNl,.cb,.comment],none,false⟩⟩,⟨123,.other,false,some ⟨18,[.setEnt .internalNl,.cb,.comment],none,false⟩⟩,⟨125,.other,false,some ⟨0,[.setEnt .internalNl,.cb],some 1,true⟩⟩]⟩,⟨[22],none,[],[⟨256,.other,false,some ⟨18,[.setEnt .internalNl,.cb,.comment],none,false⟩⟩,⟨256,.ws,false,some ⟨19,[.setEnt .internalNl,.cb],none,false⟩⟩,⟨256,.lf,false,some ⟨20,[.setEnt .internalNl,.cb],none,false⟩⟩,⟨256,.vt,false,some ⟨18,[.setEnt .internalNl,.cb,.comment],none,false⟩⟩,⟨256,.ff,false,some ⟨21,[.setEnt .internalNl,.cb],none,false⟩⟩,⟨256,.cr,false,some ⟨22,[.setEnt .internalNl,.cb],none,false⟩⟩,⟨256,.cr,true,some ⟨23,[.setEnt .internalNl,.cb],none,false⟩⟩,⟨34,.other,false,some ⟨18,[.setEnt .internalNl,.cb,.comment],none,false⟩⟩,⟨35,.other,false,some ⟨18,[.setEnt .internalNl,.cb,.comment],none,false⟩⟩,⟨39,.other,false,some ⟨18,[.setEnt .internalNl,.cb,.comment],none,false⟩⟩,⟨42,.other,false,some ⟨18,[.setEnt .internalNl,.cb,.comment],none,false⟩⟩,⟨45,.other,false,some ⟨18,[.setEnt .internalNl,.cb,.comment],none,false⟩⟩,⟨47,.other,false,some ⟨18,[.setEnt .internalNl,.cb,.comment],none,false⟩⟩,⟨92,.other,false,some ⟨18,[.setEnt .internalNl,.cb,.comment],none,false⟩⟩,⟨123,.other,false,some ⟨18,[.setEnt .internalNl,.cb,.comment],none,false⟩⟩,⟨125,.other,false,some ⟨0,[.setEnt .internalNl,.cb],some 1,true⟩⟩]⟩,⟨[19],none,[],[⟨256,.other,false,none⟩,⟨256,.ws,false,none⟩,⟨256,.lf,false,some ⟨33,[],none,false⟩⟩,⟨256,.vt,false,none⟩,⟨256,.ff,false,none⟩,⟨256,.cr,false,none⟩,⟨256,.cr,true,none⟩,⟨34,.other,false,none⟩,⟨35,.other,false,none⟩,⟨39,.other,false,none⟩,⟨42,.other,false,none⟩,⟨45,.other,false,none⟩,⟨47,.other,false,none⟩,⟨92,.other,false,none⟩,⟨123,.other,false,none⟩,⟨125,.other,false,none⟩]⟩,⟨[19,23],none,[],[⟨256,.other,false,some ⟨18,[.setEnt .internalNl,.cb,.comment],none,false⟩⟩,⟨256,.ws,false,some ⟨19,[.setEnt .internalNl,.cb],none,false⟩⟩,⟨256,.lf,false,some ⟨34,[.setEnt .internalNl,.cb],none,false⟩⟩,⟨256,.vt,false,some ⟨18,[.setEnt .internalNl,.cb,.comment],none,false⟩⟩,⟨256,.ff,false,some ⟨21,[.setEnt .internalNl,.cb],none,false⟩⟩,⟨256,.cr,false,some ⟨22,[.setEnt .internalNl,.cb],none,false⟩⟩,⟨256,.cr,true,some ⟨23,[.setEnt .internalNl,.cb],none,false⟩⟩,⟨34,.other,false,some ⟨18,[.setEnt .internalNl,.cb,.comment],none,false⟩⟩,⟨35,.other,false,some ⟨18,[.setEnt .internalNl,.cb,.comment],none,false⟩⟩,⟨39,.other,false,some ⟨18,[.setEnt .internalNl,.cb,.comment],none,false⟩⟩,⟨42,.other,false,some ⟨18,[.setEnt .internalNl,.cb,.comment],none,false⟩⟩,⟨45,.other,false,some ⟨18,[.setEnt .internalNl,.cb,.comment],none,false⟩⟩,⟨47,.other,false,some ⟨18,[.setEnt .internalNl,.cb,.comment],none,false⟩⟩,⟨92,.other,false,some ⟨18,[.setEnt .internalNl,.cb,.comment],none,false⟩⟩,⟨123,.other,false,some ⟨18,[.setEnt .internalNl,.cb,.comment],none,false⟩⟩,⟨125,.other,false,some ⟨0,[.setEnt .internalNl,.cb],some 1,true⟩⟩]⟩,⟨[35],none,[],[⟨256,.other,false,some ⟨10,[],none,false⟩⟩,⟨256,.ws,false,some ⟨10,[],none,false⟩⟩,⟨256,.lf,false,none⟩,⟨256,.vt,false,some ⟨10,[],none,false⟩⟩,⟨256,.ff,false,none⟩,⟨256,.cr,false,none⟩,⟨256,.cr,true,none⟩,⟨34,.other,false,some ⟨0,[],some 2,true⟩⟩,⟨35,.other,false,some ⟨10,[],none,false⟩⟩,⟨39,.other,false,some ⟨10,[],none,false⟩⟩,⟨42,.other,false,some ⟨10,[],none,false⟩⟩,⟨45,.other,false,some ⟨10,[],none,false⟩⟩,⟨47,.other,false,some ⟨10,[],none,false⟩⟩,⟨92,.other,false,some ⟨11,[],none,false⟩⟩,⟨123,.other,false,some ⟨10,[],none,false⟩⟩,⟨125,.other,false,some ⟨10,[],none,false⟩⟩]⟩,⟨[30],none,[],[⟨256,.other,false,some ⟨13,[],none,false⟩⟩,⟨256,.ws,false,some ⟨13,[],none,false⟩⟩,⟨256,.lf,false,none⟩,⟨256,.vt,false,some ⟨13,[],none,false⟩⟩,⟨256,.ff,false,none⟩,⟨256,.cr,false,none⟩,⟨256,.cr,true,none⟩,⟨34,.other,false,some ⟨13,[],none,false⟩⟩,⟨35,.other,false,some ⟨13,[],none,false⟩⟩,⟨39,.other,false,some ⟨0,[],some 2,true⟩⟩,⟨42,.other,false,some ⟨13,[],none,false⟩⟩,⟨45,.other,false,some ⟨13,[],none,false⟩⟩,⟨47,.other,false,some ⟨13,[],none,false⟩⟩,⟨92,.other,false,some ⟨14,[],none,false⟩⟩,⟨123,.other,false,some ⟨13,[],none,false⟩⟩,⟨125,.other,false,some ⟨13,[],none,false⟩⟩]⟩,⟨[15],none,[],[⟨256,.other,false,some ⟨26,[.comment],none,false⟩⟩,⟨256,.ws,false,some ⟨27,[],none,false⟩⟩,⟨256,.lf,false,some ⟨28,[],none,false⟩⟩,⟨256,.vt,false,some ⟨26,[.comment],none,false⟩⟩,⟨256,.ff,false,some ⟨29,[],none,false⟩⟩,⟨256,.cr,false,some ⟨30,[],none,false⟩⟩,⟨256,.cr,true,some ⟨31,[],none,false⟩⟩,⟨34,.other,false,some ⟨26,[.comment],none,false⟩⟩,⟨35,.other,false,some ⟨26,[.comment],none,false⟩⟩,⟨39,.other,false,some ⟨26,[.comment],none,false⟩⟩,⟨42,.other,false,some ⟨32,[.comment],none,false⟩⟩,⟨45,.other,false,some ⟨26,[.comment],none,false⟩⟩,⟨47,.other,false,some ⟨26,[.comment],none,false⟩⟩,⟨92,.other,false,some ⟨26,[.comment],none,false⟩⟩,⟨123,.other,false,some ⟨26,[.comment],none,false⟩⟩,⟨125,.other,false,some ⟨26,[.comment],none,false⟩⟩]⟩,⟨[14],none,[],[⟨256,.other,false,some ⟨26,[.comment],none,false⟩⟩,⟨256,.ws,false,some ⟨27,[],none,false⟩⟩,⟨256,.lf,false,some ⟨28,[],none,false⟩⟩,⟨256,.vt,false,some ⟨26,[.comment],none,false⟩⟩,⟨256,.ff,false,some ⟨29,[],none,false⟩⟩,⟨256,.cr,false,some ⟨30,[],none,false⟩⟩,⟨256,.cr,true,some ⟨31,[],none,false⟩⟩,⟨34,.other,false,some ⟨26,[.comment],none,false⟩⟩,⟨35,.other,false,some ⟨26,[.comment],none,false⟩⟩,⟨39,.other,false,some ⟨26,[.comment],none,false⟩⟩,⟨42,.other,false,some ⟨32,[.comment],none,false⟩⟩,⟨45,.other,false,some ⟨26,[.comment],none,false⟩⟩,⟨47,.other,false,some ⟨26,[.comment],none,false⟩⟩,⟨92,.other,false,some ⟨26,[.comment],none,false⟩⟩,⟨123,.other,false,some ⟨26,[.comment],none,false⟩⟩,⟨125,.other,false,some ⟨26,[.comment],none,false⟩⟩]⟩,⟨[11],none,[],[⟨256,.other,false,some ⟨26,[.setEnt .internalNl,.cb,.comment],none,false⟩⟩,⟨256,.ws,false,some ⟨27,[.setEnt .internalNl,.cb],none,false⟩⟩,⟨256,.lf,false,some ⟨28,[.setEnt .internalNl,.cb],none,false⟩⟩,⟨256,.vt,false,some ⟨26,[.setEnt .internalNl,.cb,.comment],none,false⟩⟩,⟨256,.ff,false,some ⟨29,[.setEnt .internalNl,.cb],none,false⟩⟩,⟨256,.cr,false,some ⟨30,[.setEnt .internalNl,.cb],none,false⟩⟩,⟨256,.cr,true,some ⟨31,[.setEnt .internalNl,.cb],none,false⟩⟩,⟨34,.other,false,some ⟨26,[.setEnt .internalNl,.cb,.comment],none,false⟩⟩,⟨35,.other,false,some ⟨26,[.setEnt .internalNl,.cb,.comment],none,false⟩⟩,⟨39,.other,false,some ⟨26,[.setEnt .internalNl,.cb,.comment],none,false⟩⟩,⟨42,.other,false,some ⟨32,[.setEnt .internalNl,.cb,.comment],none,false⟩⟩,⟨45,.other,false,some ⟨26,[.setEnt .internalNl,.cb,.comment],none,false⟩⟩,⟨47,.other,false,some ⟨26,[.setEnt .internalNl,.cb,.comment],none,false⟩⟩,⟨92,.other,false,some ⟨26,[.setEnt .internalNl,.cb,.comment],none,false⟩⟩,⟨123,.other,false,some ⟨26,[.setEnt .internalNl,.cb,.comment],none,false⟩⟩,⟨125,.other,false,some ⟨26,[.setEnt .internalNl,.cb,.comment],none,false⟩⟩]⟩,⟨[12],none,[],[⟨256,.other,false,some ⟨26,[.setEnt .internalNl,.cb,.comment],none,false⟩⟩,⟨256,.ws,false,some ⟨27,[.setEnt .internalNl,.cb],none,false⟩⟩,⟨256,.lf,false,some ⟨28,[.setEnt .internalNl,.cb],none,false⟩⟩,⟨256,.vt,false,some ⟨26,[.setEnt .internalNl,.cb,.comment],none,false⟩⟩,⟨256,.ff,false,some ⟨29,[.setEnt .internalNl,.cb],none,false⟩⟩,⟨256,.cr,false,some ⟨30,[.setEnt .internalNl,.cb],none,false⟩⟩,⟨256,.cr,true,some ⟨31,[.setEnt .internalNl,.cb],none,false⟩⟩,⟨34,.other,false,some ⟨26,[.setEnt .internalNl,.cb,.comment],none,false⟩⟩,⟨35,.other,false,some ⟨26,[.setEnt .internalNl,.cb,.comment],none,false⟩⟩,⟨39,.other,false,some ⟨26,[.setEnt .internalNl,.cb,.comment],none,false⟩⟩,⟨42,.other,false,some ⟨32,[.setEnt .internalNl,.cb,.comment],none,false⟩⟩,⟨45,.other,false,some ⟨26,[.setEnt .internalNl,.cb,.comment],none,false⟩⟩,⟨47,.other,false,some ⟨26,[.setEnt .internalNl,.cb,.comment],none,false⟩⟩,⟨92,.other,false,some ⟨26,[.setEnt .internalNl,.cb,.comment],none,false⟩⟩,⟨123,.other,false,some ⟨26,[.setEnt .internalNl,.cb,.comment],none,false⟩⟩,⟨125,.other,false,some ⟨26,[.setEnt .internalNl,.cb,.comment],none,false⟩⟩]⟩,⟨[9],none,[],[⟨256,.other,false,none⟩,⟨256,.ws,false,none⟩,⟨256,.lf,false,some ⟨35,[],none,false⟩⟩,⟨256,.vt,false,none⟩,⟨256,.ff,false,none⟩,⟨256,.cr,false,none⟩,⟨256,.cr,true,none⟩,⟨34,.other,false,none⟩,⟨35,.other,false,none⟩,⟨39,.other,false,none⟩,⟨42,.other,false,none⟩,⟨45,.other,false,none⟩,⟨47,.other,false,none⟩,⟨92,.other,false,none⟩,⟨123,.other,false,none⟩,⟨125,.other,false,none⟩]⟩,⟨[9,13],none,[],[⟨256,.other,false,some ⟨26,[.setEnt .internalNl,.cb,.comment],none,false⟩⟩,⟨256,.ws,false,some ⟨27,[.setEnt .internalNl,.cb],none,false⟩⟩,⟨256,.lf,false,some ⟨36,[.setEnt .internalNl,.cb],none,false⟩⟩,⟨256,.vt,false,some ⟨26,[.setEnt .internalNl,.cb,.comment],none,false⟩⟩,⟨256,.ff,false,some ⟨29,[.setEnt .internalNl,.cb],none,false⟩⟩,⟨256,.cr,false,some ⟨30,[.setEnt .internalNl,.cb],none,false⟩⟩,⟨256,.cr,true,some ⟨31,[.setEnt .internalNl,.cb],none,false⟩⟩,⟨34,.other,false,some ⟨26,[.setEnt .internalNl,.cb,.comment],none,false⟩⟩,⟨35,.other,false,some ⟨26,[.setEnt .internalNl,.cb,.comment],none,false⟩⟩,⟨39,.other,false,some ⟨26,[.setEnt .internalNl,.cb,.comment],none,false⟩⟩,⟨42,.other,false,some ⟨32,[.setEnt .internalNl,.cb,.comment],none,false⟩⟩,⟨45,.other,false,some ⟨26,[.setEnt .internalNl,.cb,.comment],none,false⟩⟩,⟨47,.other,false,some ⟨26,[.setEnt .internalNl,.cb,.comment],none,false⟩⟩,⟨92,.other,false,some ⟨26,[.setEnt .internalNl,.cb,.comment],none,false⟩⟩,⟨123,.other,false,some ⟨26,[.setEnt .internalNl,.cb,.comment],none,false⟩⟩,⟨125,.other,false,some ⟨26,[.setEnt .internalNl,.cb,.comment],none,false⟩⟩]⟩,⟨[15,16],none,[],[⟨256,.other,false,some ⟨26,[.comment],none,false⟩⟩,⟨256,.ws,false,some ⟨27,[],none,false⟩⟩,⟨256,.lf,false,some ⟨28,[],none,false⟩⟩,⟨256,.vt,false,some ⟨26,[.comment],none,false⟩⟩,⟨256,.ff,false,some ⟨29,[],none,false⟩⟩,⟨256,.cr,false,some ⟨30,[],none,false⟩⟩,⟨256,.cr,true,some ⟨31,[],none,false⟩⟩,⟨34,.other,false,some ⟨26,[.comment],none,false⟩⟩,⟨35,.other,false,some ⟨26,[.comment],none,false⟩⟩,⟨39,.other,false,some ⟨26,[.comment],none,false⟩⟩,⟨42,.other,false,some ⟨32,[.comment],none,false⟩⟩,⟨45,.other,false,some ⟨26,[.comment],none,false⟩⟩,⟨47,.other,false,some ⟨0,[],some 1,true⟩⟩,⟨92,.other,false,some ⟨26,[.comment],none,false⟩⟩,⟨123,.other,false,some ⟨26,[.comment],none,false⟩⟩,⟨125,.other,false,some ⟨26,[.comment],none,false⟩⟩]⟩,⟨[20],none,[],[⟨256,.other,false,some ⟨18,[.setEnt .internalNl,.cb,.comment],none,false⟩⟩,⟨256,.ws,false,some ⟨19,[.setEnt .internalNl,.cb],none,false⟩⟩,⟨256,.lf,false,some ⟨20,[.setEnt .internalNl,.cb],none,false⟩⟩,⟨256,.vt,false,some ⟨18,[.setEnt .internalNl,.cb,.comment],none,false⟩⟩,⟨256,.ff,false,some ⟨21,[.setEnt .internalNl,.cb],none,false⟩⟩,⟨256,.cr,false,some ⟨22,[.setEnt .internalNl,.cb],none,false⟩⟩,⟨256,.cr,true,some ⟨23,[.setEnt .internalNl,.cb],none,false⟩⟩,⟨34,.other,false,some ⟨18,[.setEnt .internalNl,.cb,.comment],none,false⟩⟩,⟨35,.other,false,some ⟨18,[.setEnt .internalNl,.cb,.comment],none,false⟩⟩,⟨39,.other,false,some ⟨18,[.setEnt .internalNl,.cb,.comment],none,false⟩⟩,⟨42,.other,false,some ⟨18,[.setEnt .internalNl,.cb,.comment],none,false⟩⟩,⟨45,.other,false,some ⟨18,[.setEnt .internalNl,.cb,.comment],none,false⟩⟩,⟨47,.other,false,some ⟨18,[.setEnt .internalNl,.cb,.comment],none,false⟩⟩,⟨92,.other,false,some ⟨18,[.setEnt .internalNl,.cb,.comment],none,false⟩⟩,⟨123,.other,false,some ⟨18,[.setEnt .internalNl,.cb,.comment],none,false⟩⟩,⟨125,.other,false,some ⟨0,[.setEnt .internalNl,.cb],some 1,true⟩⟩]⟩,⟨[20,21],none,[],[⟨256,.other,false,some ⟨18,[.setEnt .internalNl,.cb,.comment],none,false⟩⟩,⟨256,.ws,false,some ⟨19,[.setEnt .internalNl,.cb],none,false⟩⟩,⟨256,.lf,false,some ⟨20,[.setEnt .internalNl,.cb],none,false⟩⟩,⟨256,.vt,false,some ⟨18,[.setEnt .internalNl,.cb,.comment],none,false⟩⟩,⟨256,.ff,false,some ⟨21,[.setEnt .internalNl,.cb],none,false⟩⟩,⟨256,.cr,false,some ⟨22,[.setEnt .internalNl,.cb],none,false⟩⟩,⟨256,.cr,true,some ⟨23,[.setEnt .internalNl,.cb],none,false⟩⟩,⟨34,.other,false,some ⟨18,[.setEnt .internalNl,.cb,.comment],none,false⟩⟩,⟨35,.other,false,some ⟨18,[.setEnt .internalNl,.cb,.comment],none,false⟩⟩,⟨39,.other,false,some ⟨18,[.setEnt .internalNl,.cb,.comment],none,false⟩⟩,⟨42,.other,false,some ⟨18,[.setEnt .internalNl,.cb,.comment],none,false⟩⟩,⟨45,.other,false,some ⟨18,[.setEnt .internalNl,.cb,.comment],none,false⟩⟩,⟨47,.other,false,some ⟨18,[.setEnt .internalNl,.cb,.comment],none,false⟩⟩,⟨92,.other,false,some ⟨18,[.setEnt .internalNl,.cb,.comment],none,false⟩⟩,⟨123,.other,false,some ⟨18,[.setEnt .internalNl,.cb,.comment],none,false⟩⟩,⟨125,.other,false,some ⟨0,[.setEnt .internalNl,.cb],some 1,true⟩⟩]⟩,⟨[10],none,[],[⟨256,.other,false,some ⟨26,[.setEnt .internalNl,.cb,.comment],none,false⟩⟩,⟨256,.ws,false,some ⟨27,[.setEnt .internalNl,.cb],none,false⟩⟩,⟨256,.lf,false,some ⟨28,[.setEnt .internalNl,.cb],none,false⟩⟩,⟨256,.vt,false,some ⟨26,[.setEnt .internalNl,.cb,.comment],none,false⟩⟩,⟨256,.ff,false,some ⟨29,[.setEnt .internalNl,.cb],none,false⟩⟩,⟨256,.cr,false,some ⟨30,[.setEnt .internalNl,.cb],none,false⟩⟩,⟨256,.cr,true,some ⟨31,[.setEnt .internalNl,.cb],none,false⟩⟩,⟨34,.other,false,some ⟨26,[.setEnt .internalNl,.cb,.comment],none,false⟩⟩,⟨35,.other,false,some ⟨26,[.setEnt .internalNl,.cb,.comment],none,false⟩⟩,⟨39,.other,false,some ⟨26,[.setEnt .internalNl,.cb,.comment],none,false⟩⟩,⟨42,.other,false,some ⟨32,[.setEnt .internalNl,.cb,.comment],none,false⟩⟩,⟨45,.other,false,some ⟨26,[.setEnt .internalNl,.cb,.comment],none,false⟩⟩,⟨47,.other,false,some ⟨26,[.setEnt .internalNl,.cb,.comment],none,false⟩⟩,⟨92,.other,false,some ⟨26,[.setEnt .internalNl,.cb,.comment],none,false⟩⟩,⟨123,.other,false,some ⟨26,[.setEnt .internalNl,.cb,.comment],none,false⟩⟩,⟨125,.other,false,some ⟨26,[.setEnt .internalNl,.cb,.comment],none,false⟩⟩]⟩,⟨[10,11],none,[],[⟨256,.other,false,some ⟨26,[.setEnt .internalNl,.cb,.comment],none,false⟩⟩,⟨256,.ws,false,some ⟨27,[.setEnt .internalNl,.cb],none,false⟩⟩,⟨256,.lf,false,some ⟨28,[.setEnt .internalNl,.cb],none,false⟩⟩,⟨256,.vt,false,some ⟨26,[.setEnt .internalNl,.cb,.comment],none,false⟩⟩,⟨256,.ff,false,some ⟨29,[.setEnt .internalNl,.cb],none,false⟩⟩,⟨256,.cr,false,some ⟨30,[.setEnt .internalNl,.cb],none,false⟩⟩,⟨256,.cr,true,some ⟨31,[.setEnt .internalNl,.cb],none,false⟩⟩,⟨34,.other,false,some ⟨26,[.setEnt .internalNl,.cb,.comment],none,false⟩⟩,⟨35,.other,false,some ⟨26,[.setEnt .internalNl,.cb,.comment],none,false⟩⟩,⟨39,.other,false,some ⟨26,[.setEnt .internalNl,.cb,.comment],none,false⟩⟩,⟨42,.other,false,some ⟨32,[.setEnt .internalNl,.cb,.comment],none,false⟩⟩,⟨45,.other,false,some ⟨26,[.setEnt .internalNl,.cb,.comment],none,false⟩⟩,⟨47,.other,false,some ⟨26,[.setEnt .internalNl,.cb,.comment],none,false⟩⟩,⟨92,.other,false,some ⟨26,[.setEnt .internalNl,.cb,.comment],none,false⟩⟩,⟨123,.other,false,some ⟨26,[.setEnt .internalNl,.cb,.comment],none,false⟩⟩,⟨125,.other,false,some ⟨26,[.setEnt .internalNl,.cb,.comment],none,false⟩⟩]⟩]
theorem sql_line_lrowsOk : rowsOk sql_line_nfa sql_line_lex.rel (sql_line_lcs.map (·.1)) sql_line_lrows = true := by decide +kernel
def sql_line_lfr : List CA.FRow := [⟨true,none,[],[⟨256,.other,false,false,none,some ([.setEnt (.own 3)],(some 4,true))⟩,⟨9,.ws,false,false,some 1,some ([.setEnt (.own 0)],(some 0,false))⟩,⟨10,.lf,false,true,none,some ([.setEnt .newline],(some 3,true))⟩,⟨11,.vt,false,false,none,none⟩,⟨12,.ff,false,true,none,some ([.setEnt .newline],(some 3,true))⟩,⟨13,.cr,false,false,some 2,some ([.setEnt .newline],(none,false))⟩,⟨13,.cr,true,true,some 3,some ([.setEnt .newline],(some 3,false))⟩,⟨34,.other,false,false,some 4,some ([.code,.setEnt (.own 3)],(some 4,false))⟩,⟨35,.other,false,false,some 5,some ([.comment,.setEnt (.own 3)],(some 1,false))⟩,⟨39,.other,false,false,some 6,some ([.code,.setEnt (.own 3)],(some 4,false))⟩,⟨42,.other,false,false,none,some ([.setEnt (.own 3)],(some 4,true))⟩,⟨45,.other,false,false,some 7,some ([.setEnt (.own 3)],(some 4,false))⟩,⟨47,.other,false,false,some 8,some ([.setEnt (.own 3)],(some 4,false))⟩,⟨92,.other,false,false,none,some ([.setEnt (.own 3)],(some 4,true))⟩,⟨123,.other,false,false,some 9,some ([.comment,.setEnt (.own 3)],(some 4,false))⟩,⟨125,.other,false,false,none,some ([.setEnt (.own 3)],(some 4,true))⟩]⟩,⟨false,some 0,[],[⟨256,.other,false,false,none,none⟩,⟨9,.ws,false,false,some 1,some ([.setEnt (.own 0)],(some 0,false))⟩,⟨10,.lf,false,true,none,none⟩,⟨11,.vt,false,false,none,none⟩,⟨12,.ff,false,true,none,none⟩,⟨13,.cr,false,false,none,none⟩,⟨13,.cr,true,true,none,none⟩,⟨34,.other,false,false,none,none⟩,⟨35,.other,false,false,none,none⟩,⟨39,.other,false,false,none,none⟩,⟨42,.other,false,false,none,none⟩,⟨45,.other,false,false,none,none⟩,⟨47,.other,false,false,none,none⟩,⟨92,.other,false,false,none,none⟩,⟨123,.other,false,false,none,none⟩,⟨125,.other,false,false,none,none⟩]⟩,⟨false,none,[],[⟨256,.other,false,false,none,none⟩,⟨9,.ws,false,false,none,none⟩,⟨10,.lf,false,true,none,some ([.setEnt .newline],(some 3,true))⟩,⟨11,.vt,false,false,none,none⟩,⟨12,.ff,false,true,none,none⟩,⟨13,.cr,false,false,none,none⟩,⟨13,.cr,true,true,none,none⟩,⟨34,.other,false,false,none,none⟩,⟨35,.other,false,false,none,none⟩,⟨39,.other,false,false,none,none⟩,⟨42,.other,false,false,none,none⟩,⟨45,.other,false,false,none,none⟩,⟨47,.other,false,false,none,none⟩,⟨92,.other,false,false,none,none⟩,⟨123,.other,false,false,none,none⟩,⟨125,.other,false,false,none,none⟩]⟩,⟨false,some 3,[],[⟨256,.other,false,false,none,none⟩,⟨9,.ws,false,false,none,none⟩,⟨10,.lf,false,true,none,some ([.setEnt .newline],(some 3,true))⟩,⟨11,.vt,false,false,none,none⟩,⟨12,.ff,false,true,none,none⟩,⟨13,.cr,false,false,none,none⟩,⟨13,.cr,true,true,none,none⟩,⟨34,.other,false,false,none,none⟩,⟨35,.other,false,false,none,none⟩,⟨39,.other,false,false,none,none⟩,⟨42,.other,false,false,none,none⟩,⟨45,.other,false,false,none,none⟩,⟨47,.other,false,false,none,none⟩,⟨92,.other,false,false,none,none⟩,⟨123,.other,false,false,none,none⟩,⟨125,.other,false,false,none,none⟩]⟩,⟨false,some 4,[],[⟨256,.other,false,false,some 10,some ([],(none,false))⟩,⟨9,.ws,false,false,some 10,some ([],(none,false))⟩,⟨10,.lf,false,true,none,none⟩,⟨11,.vt,false,false,some 10,some ([],(none,false))⟩,⟨12,.ff,false,true,none,none⟩,⟨13,.cr,false,false,none,none⟩,⟨13,.cr,true,true,none,none⟩,⟨34,.other,false,false,none,some ([],(some 2,true))⟩,⟨35,.other,false,false,some 10,some ([],(none,false))⟩,⟨39,.other,false,false,some 10,some ([],(none,false))⟩,⟨42,.other,false,false,some 10,some ([],(none,false))⟩,⟨45,.other,false,false,some 10,some ([],(none,false))⟩,⟨47,.other,false,false,some 10,some ([],(none,false))⟩,⟨92,.other,false,false,some 11,some ([],(none,false))⟩,⟨123,.other,false,false,some 10,some ([],(none,false))⟩,⟨125,.other,false,false,some 10,some ([],(none,false))⟩]⟩,⟨false,some 1,[],[⟨256,.other,false,false,some 12,some ([],(some 1,false))⟩,⟨9,.ws,false,false,some 12,some ([],(some 1,false))⟩,⟨10,.lf,false,true,none,none⟩,⟨11,.vt,false,false,some 12,some ([],(some 1,false))⟩,⟨12,.ff,false,true,none,none⟩,⟨13,.cr,false,false,none,none⟩,⟨13,.cr,true,true,none,none⟩,⟨34,.other,false,false,some 12,some ([],(some 1,false))⟩,⟨35,.other,false,false,some 12,some ([],(some 1,false))⟩,⟨39,.other,false,false,some 12,some ([],(some 1,false))⟩,⟨42,.other,false,false,some 12,some ([],(some 1,false))⟩,⟨45,.other,false,false,some 12,some ([],(some 1,false))⟩,⟨47,.other,false,false,some 12,some ([],(some 1,false))⟩,⟨92,.other,false,false,some 12,some ([],(some 1,false))⟩,⟨123,.other,false,false,some 12,some ([],(some 1,false))⟩,⟨125,.other,false,false,some 12,some ([],(some 1,false))⟩]⟩,⟨false,some 4,[],[⟨256,.other,false,false,some 13,some ([],(none,false))⟩,⟨9,.ws,false,false,some 13,some ([],(none,false))⟩,⟨10,.lf,false,true,none,none⟩,⟨11,.vt,false,false,some 13,some ([],(none,false))⟩,⟨12,.ff,false,true,none,none⟩,⟨13,.cr,false,false,none,none⟩,⟨13,.cr,true,true,none,none⟩,⟨34,.other,false,false,some 13,some ([],(none,false))⟩,⟨35,.other,false,false,some 13,some ([],(none,false))⟩,⟨39,.other,false,false,none,some ([],(some 2,true))⟩,⟨42,.other,false,false,some 13,some ([],(none,false))⟩,⟨45,.other,false,false,some 13,some ([],(none,false))⟩,⟨47,.other,false,false,some 13,some ([],(none,false))⟩,⟨92,.other,false,false,some 14,some ([],(none,false))⟩,⟨123,.other,false,false,some 13,some ([],(none,false))⟩,⟨125,.other,false,false,some 13,some ([],(none,false))⟩]⟩,⟨false,some 4,[],[⟨256,.other,false,false,none,none⟩,⟨9,.ws,false,false,none,none⟩,⟨10,.lf,false,true,none,none⟩,⟨11,.vt,false,false,none,none⟩,⟨12,.ff,false,true,none,none⟩,⟨13,.cr,false,false,none,none⟩,⟨13,.cr,true,true,none,none⟩,⟨34,.other,false,false,none,none⟩,⟨35,.other,false,false,none,none⟩,⟨39,.other,false,false,none,none⟩,⟨42,.other,false,false,none,none⟩,⟨45,.other,false,false,some 15,some ([.comment],(some 1,false))⟩,⟨47,.other,false,false,none,none⟩,⟨92,.other,false,false,none,none⟩,⟨123,.other,false,false,none,none⟩,⟨125,.other,false,false,none,none⟩]⟩,⟨false,some 4,[],[⟨256,.other,false,false,none,none⟩,⟨9,.ws,false,false,none,none⟩,⟨10,.lf,false,true,none,none⟩,⟨11,.vt,false,false,none,none⟩,⟨12,.ff,false,true,none,none⟩,⟨13,.cr,false,false,none,none⟩,⟨13,.cr,true,true,none,none⟩,⟨34,.other,false,false,none,none⟩,⟨35,.other,false,false,none,none⟩,⟨39,.other,false,false,none,none⟩,⟨42,.other,false,false,some 16,some ([.comment],(none,false))⟩,⟨45,.other,false,false,none,none⟩,⟨47,.other,false,false,some 17,some ([.comment],(some 1,false))⟩,⟨92,.other,false,false,none,none⟩,⟨123,.other,false,false,none,none⟩,⟨125,.other,false,false,none,none⟩]⟩,⟨false,some 4,[],[⟨256,.other,false,false,some 18,some ([.comment],(none,false))⟩,⟨9,.ws,false,false,some 19,some ([],(none,false))⟩,⟨10,.lf,false,true,some 20,some ([],(none,false))⟩,⟨11,.vt,false,false,some 18,some ([.comment],(none,false))⟩,⟨12,.ff,false,true,some 21,some ([],(none,false))⟩,⟨13,.cr,false,false,some 22,some ([],(none,false))⟩,⟨13,.cr,true,true,some 23,some ([],(none,false))⟩,⟨34,.other,false,false,some 18,some ([.comment],(none,false))⟩,⟨35,.other,false,false,some 18,some ([.comment],(none,false))⟩,⟨39,.other,false,false,some 18,some ([.comment],(none,false))⟩,⟨42,.other,false,false,some 18,some ([.comment],(none,false))⟩,⟨45,.other,false,false,some 18,some ([.comment],(none,false))⟩,⟨47,.other,false,false,some 18,some ([.comment],(none,false))⟩,⟨92,.other,false,false,some 18,some ([.comment],(none,false))⟩,⟨123,.other,false,false,some 18,some ([.comment],(none,false))⟩,⟨125,.other,false,false,none,some ([],(some 1,true))⟩]⟩,⟨false,none,[],[⟨256,.other,false,false,some 10,some ([],(none,false))⟩,⟨9,.ws,false,false,some 10,some ([],(none,false))⟩,⟨10,.lf,false,true,none,none⟩,⟨11,.vt,false,false,some 10,some ([],(none,false))⟩,⟨12,.ff,false,true,none,none⟩,⟨13,.cr,false,false,none,none⟩,⟨13,.cr,true,true,none,none⟩,⟨34,.other,false,false,none,some ([],(some 2,true))⟩,⟨35,.other,false,false,some 10,some ([],(none,false))⟩,⟨39,.other,false,false,some 10,some ([],(none,false))⟩,⟨42,.other,false,false,some 10,some ([],(none,false))⟩,⟨45,.other,false,false,some 10,some ([],(none,false))⟩,⟨47,.other,false,false,some 10,some ([],(none,false))⟩,⟨92,.other,false,false,some 11,some ([],(none,false))⟩,⟨123,.other,false,false,some 10,some ([],(none,false))⟩,⟨125,.other,false,false,some 10,some ([],(none,false))⟩]⟩,⟨false,none,[],[⟨256,.other,false,false,some 24,some ([],(none,false))⟩,⟨9,.ws,false,false,some 24,some ([],(none,false))⟩,⟨10,.lf,false,true,none,none⟩,⟨11,.vt,false,false,some 24,some ([],(none,false))⟩,⟨12,.ff,false,true,none,none⟩,⟨13,.cr,false,false,none,none⟩,⟨13,.cr,true,true,none,none⟩,⟨34,.other,false,false,some 24,some ([],(none,false))⟩,⟨35,.other,false,false,some 24,some ([],(none,false))⟩,⟨39,.other,false,false,some 24,some ([],(none,false))⟩,⟨42,.other,false,false,some 24,some ([],(none,false))⟩,⟨45,.other,false,false,some 24,some ([],(none,false))⟩,⟨47,.other,false,false,some 24,some ([],(none,false))⟩,⟨92,.other,false,false,some 24,some ([],(none,false))⟩,⟨123,.other,false,false,some 24,some ([],(none,false))⟩,⟨125,.other,false,false,some 24,some ([],(none,false))⟩]⟩,⟨false,some 1,[],[⟨256,.other,false,false,some 12,some ([],(some 1,false))⟩,⟨9,.ws,false,false,some 12,some ([],(some 1,false))⟩,⟨10,.lf,false,true,none,none⟩,⟨11,.vt,false,false,some 12,some ([],(some 1,false))⟩,⟨12,.ff,false,true,none,none⟩,⟨13,.cr,false,false,none,none⟩,⟨13,.cr,true,true,none,none⟩,⟨34,.other,false,false,some 12,some ([],(some 1,false))⟩,⟨35,.other,false,false,some 12,some ([],(some 1,false))⟩,⟨39,.other,false,false,some 12,some ([],(some 1,false))⟩,⟨42,.other,false,false,some 12,some ([],(some 1,false))⟩,⟨45,.other,false,false,some 12,some ([],(some 1,false))⟩,⟨47,.other,false,false,some 12,some ([],(some 1,false))⟩,⟨92,.other,false,false,some 12,some ([],(some 1,false))⟩,⟨123,.other,false,false,some 12,some ([],(some 1,false))⟩,⟨125,.other,false,false,some 12,some ([],(some 1,false))⟩]⟩,⟨false,none,[],[⟨256,.other,false,false,some 13,some ([],(none,false))⟩,⟨9,.ws,false,false,some 13,some ([],(none,false))⟩,⟨10,.lf,false,true,none,none⟩,⟨11,.vt,false,false,some 13,some ([],(none,false))⟩,⟨12,.ff,false,true,none,none⟩,⟨13,.cr,false,false,none,none⟩,⟨13,.cr,true,true,none,none⟩,⟨34,.other,false,false,some 13,some ([],(none,false))⟩,⟨35,.other,false,false,some 13,some ([],(none,false))⟩,⟨39,.other,false,false,none,some ([],(some 2,true))⟩,⟨42,.other,false,false,some 13,some ([],(none,false))⟩,⟨45,.other,false,false,some 13,some ([],(none,false))⟩,⟨47,.other,false,false,some 13,some ([],(none,false))⟩,⟨92,.other,false,false,some 14,some ([],(none,false))⟩,⟨123,.other,false,false,some 13,some ([],(none,false))⟩,⟨125,.other,false,false,some 13,some ([],(none,false))⟩]⟩,⟨false,none,[],[⟨256,.other,false,false,some 25,some ([],(none,false))⟩,⟨9,.ws,false,false,some 25,some ([],(none,false))⟩,⟨10,.lf,false,true,none,none⟩,⟨11,.vt,false,false,some 25,some ([],(none,false))⟩,⟨12,.ff,false,true,none,none⟩,⟨13,.cr,false,false,none,none⟩,⟨13,.cr,true,true,none,none⟩,⟨34,.other,false,false,some 25,some ([],(none,false))⟩,⟨35,.other,false,false,some 25,some ([],(none,false))⟩,⟨39,.other,false,false,some 25,some ([],(none,false))⟩,⟨42,.other,false,false,some 25,some ([],(none,false))⟩,⟨45,.other,false,false,some 25,some ([],(none,false))⟩,⟨47,.other,false,false,some 25,some ([],(none,false))⟩,⟨92,.other,false,false,some 25,some ([],(none,false))⟩,⟨123,.other,false,false,some 25,some ([],(none,false))⟩,⟨125,.other,false,false,some 25,some ([],(none,false))⟩]⟩,⟨false,some 1,[],[⟨256,.other,false,false,some 12,some ([],(some 1,false))⟩,⟨9,.ws,false,false,some 12,some ([],(some 1,false))⟩,⟨10,.lf,false,true,none,none⟩,⟨11,.vt,false,false,some 12,some ([],(some 1,false))⟩,⟨12,.ff,false,true,none,none⟩,⟨13,.cr,false,false,none,none⟩,⟨13,.cr,true,true,none,none⟩,⟨34,.other,false,false,some 12,some ([],(some 1,false))⟩,⟨35,.other,false,false,some 12,some ([],(some 1,false))⟩,⟨39,.other,false,false,some 12,some ([],(some 1,false))⟩,⟨42,.other,false,false,some 12,some ([],(some 1,false))⟩,⟨45,.other,false,false,some 12,some ([],(some 1,false))⟩,⟨47,.other,false,false,some 12,some ([],(some 1,false))⟩,⟨92,.other,false,false,some 12,some ([],(some 1,false))⟩,⟨123,.other,false,false,some 12,some ([],(some 1,false))⟩,⟨125,.other,false,false,some 12,some ([],(some 1,false))⟩]⟩,⟨false,none,[],[⟨256,.other,false,false,some 26,some ([.comment],(none,false))⟩,⟨9,.ws,false,false,some 27,some ([],(none,false))⟩,⟨10,.lf,false,true,some 28,some ([],(none,false))⟩,⟨11,.vt,false,false,some 26,some ([.comment],(none,false))⟩,⟨12,.ff,false,true,some 29,some ([],(none,false))⟩,⟨13,.cr,false,false,some 30,some ([],(none,false))⟩,⟨13,.cr,true,true,some 31,some ([],(none,false))⟩,⟨34,.other,false,false,some 26,some ([.comment],(none,false))⟩,⟨35,.other,false,false,some 26,some ([.comment],(none,false))⟩,⟨39,.other,false,false,some 26,some ([.comment],(none,false))⟩,⟨42,.other,false,false,some 32,some ([.comment],(none,false))⟩,⟨45,.other,false,false,some 26,some ([.comment],(none,false))⟩,⟨47,.other,false,false,some 26,some ([.comment],(none,false))⟩,⟨92,.other,false,false,some 26,some ([.comment],(none,false))⟩,⟨123,.other,false,false,some 26,some ([.comment],(none,false))⟩,⟨125,.other,false,false,some 26,some ([.comment],(none,false))⟩]⟩,⟨false,some 1,[],[⟨256,.other,false,false,some 12,some ([],(some 1,false))⟩,⟨9,.ws,false,false,some 12,some ([],(some 1,false))⟩,⟨10,.lf,false,true,none,none⟩,⟨11,.vt,false,false,some 12,some ([],(some 1,false))⟩,⟨12,.ff,false,true,none,none⟩,⟨13,.cr,false,false,none,none⟩,⟨13,.cr,true,true,none,none⟩,⟨34,.other,false,false,some 12,some ([],(some 1,false))⟩,⟨35,.other,false,false,some 12,some ([],(some 1,false))⟩,⟨39,.other,false,false,some 12,some ([],(some 1,false))⟩,⟨42,.other,false,false,some 12,some ([],(some 1,false))⟩,⟨45,.other,false,false,some 12,some ([],(some 1,false))⟩,⟨47,.other,false,false,some 12,some ([],(some 1,false))⟩,⟨92,.other,false,false,some 12,some ([],(some 1,false))⟩,⟨123,.other,false,false,some 12,some ([],(some 1,false))⟩,⟨125,.other,false,false,some 12,some ([],(some 1,false))⟩]⟩,⟨false,none,[],[⟨256,.other,false,false,some 18,some ([.comment],(none,false))⟩,⟨9,.ws,false,false,some 19,some ([],(none,false))⟩,⟨10,.lf,false,true,some 20,some ([],(none,false))⟩,⟨11,.vt,false,false,some 18,some ([.comment],(none,false))⟩,⟨12,.ff,false,true,some 21,some ([],(none,false))⟩,⟨13,.cr,false,false,some 22,some ([],(none,false))⟩,⟨13,.cr,true,true,some 23,some ([],(none,false))⟩,⟨34,.other,false,false,some 18,some ([.comment],(none,false))⟩,⟨35,.other,false,false,some 18,some ([.comment],(none,false))⟩,⟨39,.other,false,false,some 18,some ([.comment],(none,false))⟩,⟨42,.other,false,false,some 18,some ([.comment],(none,false))⟩,⟨45,.other,false,false,some 18,some ([.comment],(none,false))⟩,⟨47,.other,false,false,some 18,some ([.comment],(none,false))⟩,⟨92,.other,false,false,some 18,some ([.comment],(none,false))⟩,⟨123,.other,false,false,some 18,some ([.comment],(none,false))⟩,⟨125,.other,false,false,none,some ([],(some 1,true))⟩]⟩,⟨false,none,[],[⟨256,.other,false,false,some 18,some ([.comment],(none,false))⟩,⟨9,.ws,false,false,some 19,some ([],(none,false))⟩,⟨10,.lf,false,true,some 20,some ([],(none,false))⟩,⟨11,.vt,false,false,some 18,some ([.comment],(none,false))⟩,⟨12,.ff,false,true,some 21,some ([],(none,false))⟩,⟨13,.cr,false,false,some 22,some ([],(none,false))⟩,⟨13,.cr,true,true,some 23,some ([],(none,false))⟩,⟨34,.other,false,false,some 18,some ([.comment],(none,false))⟩,⟨35,.other,false,false,some 18,some ([.comment],(none,false))⟩,⟨39,.other,false,false,some 18,some ([.comment],(none,false))⟩,⟨42,.other,false,false,some 18,some ([.comment],(none,false))⟩,⟨45,.other,false,false,some 18,some ([.comment],(none,false))⟩,⟨47,.other,false,false,some 18,some ([.comment],(none,false))⟩,⟨92,.other,false,false,some 18,some ([.comment],(none,false))⟩,⟨123,.other,false,false,some 18,some ([.comment],(none,false))⟩,⟨125,.other,false,false,none,some ([],(some 1,true))⟩]⟩,⟨false,none,[],[⟨256,.other,false,false,some 18,some ([.setEnt .internalNl,.cb,.comment],(none,false))⟩,⟨9,.ws,false,false,some 19,some ([.setEnt .internalNl,.cb],(none,false))⟩,⟨10,.lf,false,true,some 20,some ([.setEnt .internalNl,.cb],(none,false))⟩,⟨11,.vt,false,false,some 18,some ([.setEnt .internalNl,.cb,.comment],(none,false))⟩,⟨12,.ff,false,true,some 21,some ([.setEnt .internalNl,.cb],(none,false))⟩,⟨13,.cr,false,false,some 22,some ([.setEnt .internalNl,.cb],(none,false))⟩,⟨13,.cr,true,true,some 23,some ([.setEnt .internalNl,.cb],(none,false))⟩,⟨34,.other,false,false,some 18,some ([.setEnt .internalNl,.cb,.comment],(none,false))⟩,⟨35,.other,false,false,some 18,some ([.setEnt .internalNl,.cb,.comment],(none,false))⟩,⟨39,.other,false,false,some 18,some ([.setEnt .internalNl,.cb,.comment],(none,false))⟩,⟨42,.other,false,false,some 18,some ([.setEnt .internalNl,.cb,.comment],(none,false))⟩,⟨45,.other,false,false,some 18,some ([.setEnt .internalNl,.cb,.comment],(none,false))⟩,⟨47,.other,false,false,some 18,some ([.setEnt .internalNl,.cb,.comment],(none,false))⟩,⟨92,.other,false,false,some 18,some ([.setEnt .internalNl,.cb,.comment],(none,false))⟩,⟨123,.other,false,false,some 18,some ([.setEnt .internalNl,.cb,.comment],(none,false))⟩,⟨125,.other,false,false,none,some ([.setEnt .internalNl,.cb],(some 1,true))⟩]⟩,⟨false,none,[],[⟨256,.other,false,false,some 18,some ([.setEnt .internalNl,.cb,.comment],(none,false))⟩,⟨9,.ws,false,false,some 19,some ([.setEnt .internalNl,.cb],(none,false))⟩,⟨10,.lf,false,true,some 20,some ([.setEnt .internalNl,.cb],(none,false))⟩,⟨11,.vt,false,false,some 18,some ([.setEnt .internalNl,.cb,.comment],(none,false))⟩,⟨12,.ff,false,true,some 21,some ([.setEnt .internalNl,.cb],(none,false))⟩,⟨13,.cr,false,false,some 22,some ([.setEnt .internalNl,.cb],(none,false))⟩,⟨13,.cr,true,true,some 23,some ([.setEnt .internalNl,.cb],(none,false))⟩,⟨34,.other,false,false,some 18,some ([.setEnt .internalNl,.cb,.comment],(none,false))⟩,⟨35,.other,false,false,some 18,some ([.setEnt .internalNl,.cb,.comment],(none,false))⟩,⟨39,.other,false,false,some 18,some ([.setEnt .internalNl,.cb,.comment],(none,false))⟩,⟨42,.other,false,false,some 18,some ([.setEnt .internalNl,.cb,.comment],(none,false))⟩,⟨45,.other,false,false,some 18,some ([.setEnt .internalNl,.cb,.comment],(none,false))⟩,⟨47,.other,false,false,some 18,some ([.setEnt .internalNl,.cb,.comment],(none,false))⟩,⟨92,.other,false,false,some 18,some ([.setEnt .internalNl,.cb,.comment],(none,false))⟩,⟨123,.other,false,false,some 18,some ([.setEnt .internalNl,.cb,.comment],(none,false))⟩,⟨125,.other,false,false,none,some ([.setEnt .internalNl,.cb],(some 1,true))⟩]⟩,⟨false,none,[],[⟨256,.other,false,false,none,none⟩,⟨9,.ws,false,false,none,none⟩,⟨10,.lf,false,true,some 33,some ([],(none,false))⟩,⟨11,.vt,false,false,none,none⟩,⟨12,.ff,false,true,none,none⟩,⟨13,.cr,false,false,none,none⟩,⟨13,.cr,true,true,none,none⟩,⟨34,.other,false,false,none,none⟩,⟨35,.other,false,false,none,none⟩,⟨39,.other,false,false,none,none⟩,⟨42,.other,false,false,none,none⟩,⟨45,.other,false,false,none,none⟩,⟨47,.other,false,false,none,none⟩,⟨92,.other,false,false,none,none⟩,⟨123,.other,false,false,none,none⟩,⟨125,.other,false,false,none,none⟩]⟩,⟨false,none,[],[⟨256,.other,false,false,some 18,some ([.setEnt .internalNl,.cb,.comment],(none,false))⟩,⟨9,.ws,false,false,some 19,some ([.setEnt .internalNl,.cb],(none,false))⟩,⟨10,.lf,false,true,some 34,some ([.setEnt .internalNl,.cb],(none,false))⟩,⟨11,.vt,false,false,some 18,some ([.setEnt .internalNl,.cb,.comment],(none,false))⟩,⟨12,.ff,false,true,some 21,some ([.setEnt .internalNl,.cb],(none,false))⟩,⟨13,.cr,false,false,some 22,some ([.setEnt .internalNl,.cb],(none,false))⟩,⟨13,.cr,true,true,some 23,some ([.setEnt .internalNl,.cb],(none,false))⟩,⟨34,.other,false,false,some 18,some ([.setEnt .internalNl,.cb,.comment],(none,false))⟩,⟨35,.other,false,false,some 18,some ([.setEnt .internalNl,.cb,.comment],(none,false))⟩,⟨39,.other,false,false,some 18,some ([.setEnt .internalNl,.cb,.comment],(none,false))⟩,⟨42,.other,false,false,some 18,some ([.setEnt .internalNl,.cb,.comment],(none,false))⟩,⟨45,.other,false,false,some 18,some ([.setEnt .internalNl,.cb,.comment],(none,false))⟩,⟨47,.other,false,false,some 18,some ([.setEnt .internalNl,.cb,.comment],(none,false))⟩,⟨92,.other,false,false,some 18,some ([.setEnt .internalNl,.cb,.comment],(none,false))⟩,⟨123,.other,false,false,some 18,some ([.setEnt .internalNl,.cb,.comment],(none,false))⟩,⟨125,.other,false,false,none,some ([.setEnt .internalNl,.cb],(some 1,true))⟩]⟩,⟨false,none,[],[⟨256,.other,false,false,some 10,some ([],(none,false))⟩,⟨9,.ws,false,false,some 10,some ([],(none,false))⟩,⟨10,.lf,false,true,none,none⟩,⟨11,.vt,false,false,some 10,some ([],(none,false))⟩,⟨12,.ff,false,true,none,none⟩,⟨13,.cr,false,false,none,none⟩,⟨13,.cr,true,true,none,none⟩,⟨34,.other,false,false,none,some ([],(some 2,true))⟩,⟨35,.other,false,false,some 10,some ([],(none,false))⟩,⟨39,.other,false,false,some 10,some ([],(none,false))⟩,⟨42,.other,false,false,some 10,some ([],(none,false))⟩,⟨45,.other,false,false,some 10,some ([],(none,false))⟩,⟨47,.other,false,false,some 10,some ([],(none,false))⟩,⟨92,.other,false,false,some 11,some ([],(none,false))⟩,⟨123,.other,false,false,some 10,some ([],(none,false))⟩,⟨125,.other,false,false,some 10,some ([],(none,false))⟩]⟩,⟨false,none,[],[⟨256,.other,false,false,some 13,some ([],(none,false))⟩,⟨9,.ws,false,false,some 13,some ([],(none,false))⟩,⟨10,.lf,false,true,none,none⟩,⟨11,.vt,false,false,some 13,some ([],(none,false))⟩,⟨12,.ff,false,true,none,none⟩,⟨13,.cr,false,false,none,none⟩,⟨13,.cr,true,true,none,none⟩,⟨34,.other,false,false,some 13,some ([],(none,false))⟩,⟨35,.other,false,false,some 13,some ([],(none,false))⟩,⟨39,.other,false,false,none,some ([],(some 2,true))⟩,⟨42,.other,false,false,some 13,some ([],(none,false))⟩,⟨45,.other,false,false,some 13,some ([],(none,false))⟩,⟨47,.other,false,false,some 13,some ([],(none,false))⟩,⟨92,.other,false,false,some 14,some ([],(none,false))⟩,⟨123,.other,false,false,some 13,some ([],(none,false))⟩,⟨125,.other,false,false,some 13,some ([],(none,false))⟩]⟩,⟨false,none,[],[⟨256,.other,false,false,some 26,some ([.comment],(none,false))⟩,⟨9,.ws,false,false,some 27,some ([],(none,false))⟩,⟨10,.lf,false,true,some 28,some ([],(none,false))⟩,⟨11,.vt,false,false,some 26,some ([.comment],(none,false))⟩,⟨12,.ff,false,true,some 29,some ([],(none,false))⟩,⟨13,.cr,false,false,some 30,some ([],(none,false))⟩,⟨13,.cr,true,true,some 31,some ([],(none,false))⟩,⟨34,.other,false,false,some 26,some ([.comment],(none,false))⟩,⟨35,.other,false,false,some 26,some ([.comment],(none,false))⟩,⟨39,.other,false,false,some 26,some ([.comment],(none,false))⟩,⟨42,.other,false,false,some 32,some ([.comment],(none,false))⟩,⟨45,.other,false,false,some 26,some ([.comment],(none,false))⟩,⟨47,.other,false,false,some 26,some ([.comment],(none,false))⟩,⟨92,.other,false,false,some 26,some ([.comment],(none,false))⟩,⟨123,.other,false,false,some 26,some ([.comment],(none,false))⟩,⟨125,.other,false,false,some 26,some ([.comment],(none,false))⟩]⟩,⟨false,none,[],[⟨256,.other,false,false,some 26,some ([.comment],(none,false))⟩,⟨9,.ws,false,false,some 27,some ([],(none,false))⟩,⟨10,.lf,false,true,some 28,some ([],(none,false))⟩,⟨11,.vt,false,false,some 26,some ([.comment],(none,false))⟩,⟨12,.ff,false,true,some 29,some ([],(none,false))⟩,⟨13,.cr,false,false,some 30,some ([],(none,false))⟩,⟨13,.cr,true,true,some 31,some ([],(none,false))⟩,⟨34,.other,false,false,some 26,some ([.comment],(none,false))⟩,⟨35,.other,false,false,some 26,some ([.comment],(none,false))⟩,⟨39,.other,false,false,some 26,some ([.comment],(none,false))⟩,⟨42,.other,false,false,some 32,some ([.comment],(none,false))⟩,⟨45,.other,false,false,some 26,some ([.comment],(none,false))⟩,⟨47,.other,false,false,some 26,some ([.comment],(none,false))⟩,⟨92,.other,false,false,some 26,some ([.comment],(none,false))⟩,⟨123,.other,false,false,some 26,some ([.comment],(none,false))⟩,⟨125,.other,false,false,some 26,some ([.comment],(none,false))⟩]⟩,⟨false,none,[],[⟨256,.other,false,false,some 26,some ([.setEnt .internalNl,.cb,.comment],(none,false))⟩,⟨9,.ws,false,false,some 27,some ([.setEnt .internalNl,.cb],(none,false))⟩,⟨10,.lf,false,true,some 28,some ([.setEnt .internalNl,.cb],(none,false))⟩,⟨11,.vt,false,false,some 26,some ([.setEnt .internalNl,.cb,.comment],(none,false))⟩,⟨12,.ff,false,true,some 29,some ([.setEnt .internalNl,.cb],(none,false))⟩,⟨13,.cr,false,false,some 30,some ([.setEnt .internalNl,.cb],(none,false))⟩,⟨13,.cr,true,true,some 31,some ([.setEnt .internalNl,.cb],(none,false))⟩,⟨34,.other,false,false,some 26,some ([.setEnt .internalNl,.cb,.comment],(none,false))⟩,⟨35,.other,false,false,some 26,some ([.setEnt .internalNl,.cb,.comment],(none,false))⟩,⟨39,.other,false,false,some 26,some ([.setEnt .internalNl,.cb,.comment],(none,false))⟩,⟨42,.other,false,false,some 32,some ([.setEnt .internalNl,.cb,.comment],(none,false))⟩,⟨45,.other,false,false,some 26,some ([.setEnt .internalNl,.cb,.comment],(none,false))⟩,⟨47,.other,false,false,some 26,some ([.setEnt .internalNl,.cb,.comment],(none,false))⟩,⟨92,.other,false,false,some 26,some ([.setEnt .internalNl,.cb,.comment],(none,false))⟩,⟨123,.other,false,false,some 26,some ([.setEnt .internalNl,.cb,.comment],(none,false))⟩,⟨125,.other,false,false,some 26,some ([.setEnt .internalNl,.cb,.comment],(none,false))⟩]⟩,⟨false,none,[],[⟨256,.other,false,false,some 26,some ([.setEnt .internalNl,.cb,.comment],(none,false))⟩,⟨9,.ws,false,false,some 27,some ([.setEnt .internalNl,.cb],(none,false))⟩,⟨10,.lf,false,true,some 28,some ([.setEnt .internalNl,.cb],(none,false))⟩,⟨11,.vt,false,false,some 26,some ([.setEnt .internalNl,.cb,.comment],(none,false))⟩,⟨12,.ff,false,true,some 29,some ([.setEnt .internalNl,.cb],(none,false))⟩,⟨13,.cr,false,false,some 30,some ([.setEnt .internalNl,.cb],(none,false))⟩,⟨13,.cr,true,true,some 31,some ([.setEnt .internalNl,.cb],(none,false))⟩,⟨34,.other,false,false,some 26,some ([.setEnt .internalNl,.cb,.comment],(none,false))⟩,⟨35,.other,false,false,some 26,some ([.setEnt .internalNl,.cb,.comment],(none,false))⟩,⟨39,.other,false,false,some 26,some ([.setEnt .internalNl,.cb,.comment],(none,false))⟩,⟨42,.other,false,false,some 32,some ([.setEnt .internalNl,.cb,.comment],(none,false))⟩,⟨45,.other,false,false,some 26,some ([.setEnt .internalNl,.cb,.comment],(none,false))⟩,⟨47,.other,false,false,some 26,some ([.setEnt .internalNl,.cb,.comment],(none,false))⟩,⟨92,.other,false,false,some 26,some ([.setEnt .internalNl,.cb,.comment],(none,false))⟩,⟨123,.other,false,false,some 26,some ([.setEnt .internalNl,.cb,.comment],(none,false))⟩,⟨125,.other,false,false,some 26,some ([.setEnt .internalNl,.cb,.comment],(none,false))⟩]⟩,⟨false,none,[],[⟨256,.other,false,false,none,none⟩,⟨9,.ws,false,false,none,none⟩,⟨10,.lf,false,true,some 35,some ([],(none,false))⟩,⟨11,.vt,false,false,none,none⟩,⟨12,.ff,false,true,none,none⟩,⟨13,.cr,false,false,none,none⟩,⟨13,.cr,true,true,none,none⟩,⟨34,.other,false,false,none,none⟩,⟨35,.other,false,false,none,none⟩,⟨39,.other,false,false,none,none⟩,⟨42,.other,false,false,none,none⟩,⟨45,.other,false,false,none,none⟩,⟨47,.other,false,false,none,none⟩,⟨92,.other,false,false,none,none⟩,⟨123,.other,false,false,none,none⟩,⟨125,.other,false,false,none,none⟩]⟩,⟨false,none,[],[⟨256,.other,false,false,some 26,some ([.setEnt .internalNl,.cb,.comment],(none,false))⟩,⟨9,.ws,false,false,some 27,some ([.setEnt .internalNl,.cb],(none,false))⟩,⟨10,.lf,false,true,some 36,some ([.setEnt .internalNl,.cb],(none,false))⟩,⟨11,.vt,false,false,some 26,some ([.setEnt .internalNl,.cb,.comment],(none,false))⟩,⟨12,.ff,false,true,some 29,some ([.setEnt .internalNl,.cb],(none,false))⟩,⟨13,.cr,false,false,some 30,some ([.setEnt .internalNl,.cb],(none,false))⟩,⟨13,.cr,true,true,some 31,some ([.setEnt .internalNl,.cb],(none,false))⟩,⟨34,.other,false,false,some 26,some ([.setEnt .internalNl,.cb,.comment],(none,false))⟩,⟨35,.other,false,false,some 26,some ([.setEnt .internalNl,.cb,.comment],(none,false))⟩,⟨39,.other,false,false,some 26,some ([.setEnt .internalNl,.cb,.comment],(none,false))⟩,⟨42,.other,false,false,some 32,some ([.setEnt .internalNl,.cb,.comment],(none,false))⟩,⟨45,.other,false,false,some 26,some ([.setEnt .internalNl,.cb,.comment],(none,false))⟩,⟨47,.other,false,false,some 26,some ([.setEnt .internalNl,.cb,.comment],(none,false))⟩,⟨92,.other,false,false,some 26,some ([.setEnt .internalNl,.cb,.comment],(none,false))⟩,⟨123,.other,false,false,some 26,some ([.setEnt .internalNl,.cb,.comment],(none,false))⟩,⟨125,.other,false,false,some 26,some ([.setEnt .internalNl,.cb,.comment],(none,false))⟩]⟩,⟨false,none,[],[⟨256,.other,false,false,some 26,some ([.comment],(none,false))⟩,⟨9,.ws,false,false,some 27,some ([],(none,false))⟩,⟨10,.lf,false,true,some 28,some ([],(none,false))⟩,⟨11,.vt,false,false,some 26,some ([.comment],(none,false))⟩,⟨12,.ff,false,true,some 29,some ([],(none,false))⟩,⟨13,.cr,false,false,some 30,some ([],(none,false))⟩,⟨13,.cr,true,true,some 31,some ([],(none,false))⟩,⟨34,.other,false,false,some 26,some ([.comment],(none,false))⟩,⟨35,.other,false,false,some 26,some ([.comment],(none,false))⟩,⟨39,.other,false,false,some 26,some ([.comment],(none,false))⟩,⟨42,.other,false,false,some 32,some ([.comment],(none,false))⟩,⟨45,.other,false,false,some 26,some ([.comment],(none,false))⟩,⟨47,.other,false,false,none,some ([],(some 1,true))⟩,⟨92,.other,false,false,some 26,some ([.comment],(none,false))⟩,⟨123,.other,false,false,some 26,some ([.comment],(none,false))⟩,⟨125,.other,false,false,some 26,some ([.comment],(none,false))⟩]⟩,⟨false,none,[],[⟨256,.other,false,false,some 18,some ([.setEnt .internalNl,.cb,.comment],(none,false))⟩,⟨9,.ws,false,false,some 19,some ([.setEnt .internalNl,.cb],(none,false))⟩,⟨10,.lf,false,true,some 20,some ([.setEnt .internalNl,.cb],(none,false))⟩,⟨11,.vt,false,false,some 18,some ([.setEnt .internalNl,.cb,.comment],(none,false))⟩,⟨12,.ff,false,true,some 21,some ([.setEnt .internalNl,.cb],(none,false))⟩,⟨13,.cr,false,false,some 22,some ([.setEnt .internalNl,.cb],(none,false))⟩,⟨13,.cr,true,true,some 23,some ([.setEnt .internalNl,.cb],(none,false))⟩,⟨34,.other,false,false,some 18,some ([.setEnt .internalNl,.cb,.comment],(none,false))⟩,⟨35,.other,false,false,some 18,some ([.setEnt .internalNl,.cb,.comment],(none,false))⟩,⟨39,.other,false,false,some 18,some ([.setEnt .internalNl,.cb,.comment],(none,false))⟩,⟨42,.other,false,false,some 18,some ([.setEnt .internalNl,.cb,.comment],(none,false))⟩,⟨45,.other,false,false,some 18,some ([.setEnt .internalNl,.cb,.comment],(none,false))⟩,⟨47,.other,false,false,some 18,some ([.setEnt .internalNl,.cb,.comment],(none,false))⟩,⟨92,.other,false,false,some 18,some ([.setEnt .internalNl,.cb,.comment],(none,false))⟩,⟨123,.other,false,false,some 18,some ([.setEnt .internalNl,.cb,.comment],(none,false))⟩,⟨125,.other,false,false,none,some ([.setEnt .internalNl,.cb],(some 1,true))⟩]⟩,⟨false,none,[],[⟨256,.other,false,false,some 18,some ([.setEnt .internalNl,.cb,.comment],(none,false))⟩,⟨9,.ws,false,false,some 19,some ([.setEnt .internalNl,.cb],(none,false))⟩,⟨10,.lf,false,true,some 20,some ([.setEnt .internalNl,.cb],(none,false))⟩,⟨11,.vt,false,false,some 18,some ([.setEnt .internalNl,.cb,.comment],(none,false))⟩,⟨12,.ff,false,true,some 21,some ([.setEnt .internalNl,.cb],(none,false))⟩,⟨13,.cr,false,false,some 22,some ([.setEnt .internalNl,.cb],(none,false))⟩,⟨13,.cr,true,true,some 23,some ([.setEnt .internalNl,.cb],(none,false))⟩,⟨34,.other,false,false,some 18,some ([.setEnt .internalNl,.cb,.comment],(none,false))⟩,⟨35,.other,false,false,some 18,some ([.setEnt .internalNl,.cb,.comment],(none,false))⟩,⟨39,.other,false,false,some 18,some ([.setEnt .internalNl,.cb,.comment],(none,false))⟩,⟨42,.other,false,false,some 18,some ([.setEnt .internalNl,.cb,.comment],(none,false))⟩,⟨45,.other,false,false,some 18,some ([.setEnt .internalNl,.cb,.comment],(none,false))⟩,⟨47,.other,false,false,some 18,some ([.setEnt .internalNl,.cb,.comment],(none,false))⟩,⟨92,.other,false,false,some 18,some ([.setEnt .internalNl,.cb,.comment],(none,false))⟩,⟨123,.other,false,false,some 18,some ([.setEnt .internalNl,.cb,.comment],(none,false))⟩,⟨125,.other,false,false,none,some ([.setEnt .internalNl,.cb],(some 1,true))⟩]⟩,⟨false,none,[],[⟨256,.other,false,false,some 26,some ([.setEnt .internalNl,.cb,.comment],(none,false))⟩,⟨9,.ws,false,false,some 27,some ([.setEnt .internalNl,.cb],(none,false))⟩,⟨10,.lf,false,true,some 28,some ([.setEnt .internalNl,.cb],(none,false))⟩,⟨11,.vt,false,false,some 26,some ([.setEnt .internalNl,.cb,.comment],(none,false))⟩,⟨12,.ff,false,true,some 29,some ([.setEnt .internalNl,.cb],(none,false))⟩,⟨13,.cr,false,false,some 30,some ([.setEnt .internalNl,.cb],(none,false))⟩,⟨13,.cr,true,true,some 31,some ([.setEnt .internalNl,.cb],(none,false))⟩,⟨34,.other,false,false,some 26,some ([.setEnt .internalNl,.cb,.comment],(none,false))⟩,⟨35,.other,false,false,some 26,some ([.setEnt .internalNl,.cb,.comment],(none,false))⟩,⟨39,.other,false,false,some 26,some ([.setEnt .internalNl,.cb,.comment],(none,false))⟩,⟨42,.other,false,false,some 32,some ([.setEnt .internalNl,.cb,.comment],(none,false))⟩,⟨45,.other,false,false,some 26,some ([.setEnt .internalNl,.cb,.comment],(none,false))⟩,⟨47,.other,false,false,some 26,some ([.setEnt .internalNl,.cb,.comment],(none,false))⟩,⟨92,.other,false,false,some 26,some ([.setEnt .internalNl,.cb,.comment],(none,false))⟩,⟨123,.other,false,false,some 26,some ([.setEnt .internalNl,.cb,.comment],(none,false))⟩,⟨125,.other,false,false,some 26,some ([.setEnt .internalNl,.cb,.comment],(none,false))⟩]⟩,⟨false,none,[],[⟨256,.other,false,false,some 26,some ([.setEnt .internalNl,.cb,.comment],(none,false))⟩,⟨9,.ws,false,false,some 27,some ([.setEnt .internalNl,.cb],(none,false))⟩,⟨10,.lf,false,true,some 28,some ([.setEnt .internalNl,.cb],(none,false))⟩,⟨11,.vt,false,false,some 26,some ([.setEnt .internalNl,.cb,.comment],(none,false))⟩,⟨12,.ff,false,true,some 29,some ([.setEnt .internalNl,.cb],(none,false))⟩,⟨13,.cr,false,false,some 30,some ([.setEnt .internalNl,.cb],(none,false))⟩,⟨13,.cr,true,true,some 31,some ([.setEnt .internalNl,.cb],(none,false))⟩,⟨34,.other,false,false,some 26,some ([.setEnt .internalNl,.cb,.comment],(none,false))⟩,⟨35,.other,false,false,some 26,some ([.setEnt .internalNl,.cb,.comment],(none,false))⟩,⟨39,.other,false,false,some 26,some ([.setEnt .internalNl,.cb,.comment],(none,false))⟩,⟨42,.other,false,false,some 32,some ([.setEnt .internalNl,.cb,.comment],(none,false))⟩,⟨45,.other,false,false,some 26,some ([.setEnt .internalNl,.cb,.comment],(none,false))⟩,⟨47,.other,false,false,some 26,some ([.setEnt .internalNl,.cb,.comment],(none,false))⟩,⟨92,.other,false,false,some 26,some ([.setEnt .internalNl,.cb,.comment],(none,false))⟩,⟨123,.other,false,false,some 26,some ([.setEnt .internalNl,.cb,.comment],(none,false))⟩,⟨125,.other,false,false,some 26,some ([.setEnt .internalNl,.cb,.comment],(none,false))⟩]⟩]
theorem sql_line_lfrOk : sql_line_lrows.map (CA.prep sql_line_lex) = sql_line_lfr := by decide +kernel
def sql_line_lTab : List CT := [(.node (.node (.node (.node (.node (.node (.node (.node (.node .leaf 128 [⟨⟨.code,[],.lcode,false,[],false⟩,false,false,[],none,none,none,false,false,false,none,false,⟨.lcode,none,false,.lblank⟩⟩] .leaf) 38019 [⟨⟨.code,[],.lcode,true,[],false⟩,false,false,[],none,none,none,false,false,false,none,false,⟨.lblank,none,false,.lblank⟩⟩] (.node .leaf 148108 [⟨⟨.code,[],.lcomment,false,[],false⟩,false,false,[],none,none,none,false,false,false,none,false,⟨.lcomment,none,false,.lblank⟩⟩] .leaf)) 185487 [⟨⟨.code,[],.lcomment,true,[],false⟩,false,false,[],none,none,none,false,false,false,none,false,⟨.lblank,none,false,.lblank⟩⟩] (.node (.node .leaf 296088 [⟨⟨.code,[],.lblank,false,[],false⟩,false,false,[],none,none,none,false,false,false,none,false,⟨.lblank,none,false,.lblank⟩⟩] .leaf) 332955 [⟨⟨.code,[],.lblank,true,[],false⟩,false,false,[],none,none,none,false,false,false,none,false,⟨.lblank,none,false,.lblank⟩⟩] (.node .leaf 442532 [⟨⟨.code,[],.lcode,false,[(5,0)],false⟩,false,false,[],none,none,none,false,false,false,none,false,⟨.lcode,none,false,.lblank⟩⟩] .leaf))) 454821 [⟨⟨.code,[],.lcode,false,[(5,1)],false⟩,false,false,[],none,none,none,false,false,false,none,false,⟨.lcode,none,false,.lblank⟩⟩] (.node (.node (.node .leaf 528555 [⟨⟨.code,[],.lcode,false,[(6,0)],false⟩,false,false,[],none,none,none,false,false,false,none,false,⟨.lcode,none,false,.lblank⟩⟩] .leaf) 540844 [⟨⟨.code,[],.lcode,false,[(6,1)],false⟩,false,false,[],none,none,none,false,false,false,none,false,⟨.lcode,none,false,.lblank⟩⟩] (.node .leaf 1179872 [⟨⟨(.inside 0),[],.lcode,false,[],false⟩,false,false,[none],none,none,none,false,false,false,none,false,⟨.lcode,none,false,.lblank⟩⟩] .leaf)) 1327852 [⟨⟨(.inside 0),[],.lcomment,false,[],false⟩,false,false,[none],none,none,none,false,false,false,none,false,⟨.lcomment,none,false,.lblank⟩⟩] (.node (.node .leaf 1696010 [⟨⟨.code,[45],.lcode,false,[],false⟩,false,false,[none],none,none,none,false,false,false,none,false,⟨.lcode,none,false,.lblank⟩⟩] .leaf) 1769744 [⟨⟨.code,[47],.lcode,false,[],false⟩,false,false,[none],none,none,none,false,false,false,none,false,⟨.lcode,none,false,.lblank⟩⟩] .leaf))) 4129232 [⟨⟨(.inside 1),[],.lcode,false,[],false⟩,false,false,[none],none,none,none,false,false,false,none,false,⟨.lcode,none,false,.lblank⟩⟩] (.node (.node (.node (.node .leaf 4277212 [⟨⟨(.inside 1),[],.lcomment,false,[],false⟩,false,false,[none],none,none,none,false,false,false,none,false,⟨.lcomment,none,false,.lblank⟩⟩] .leaf) 7078592 [⟨⟨(.inside 2),[],.lcode,false,[],false⟩,false,false,[none],none,none,none,false,false,false,none,false,⟨.lcode,none,false,.lblank⟩⟩] (.node .leaf 7226572 [⟨⟨(.inside 2),[],.lcomment,false,[],false⟩,false,false,[none],none,none,none,false,false,false,none,false,⟨.lcomment,none,false,.lblank⟩⟩] .leaf)) 20696067 [⟨⟨.code,[45],.lcode,false,[],false⟩,false,false,[some (9,(.ws,false))],none,none,none,false,false,false,none,false,⟨.lcode,none,false,.lblank⟩⟩] (.node (.node .leaf 20769801 [⟨⟨.code,[47],.lcode,false,[],false⟩,false,false,[some (9,(.ws,false))],none,none,none,false,false,false,none,false,⟨.lcode,none,false,.lblank⟩⟩] .leaf) 21014318 [⟨⟨.code,[45],.lcomment,false,[],false⟩,false,false,[none],none,none,none,false,false,false,none,false,⟨.lcode,none,false,.lblank⟩⟩] .leaf)) 21088052 [⟨⟨.code,[47],.lcomment,false,[],false⟩,false,false,[none],none,none,none,false,false,false,none,false,⟨.lcode,none,false,.lblank⟩⟩] (.node (.node (.node .leaf 22179935 [⟨⟨(.inside 0),[],.lcode,false,[],false⟩,false,false,[some (10,(.lf,false))],none,none,none,false,false,false,none,false,⟨.lcode,none,false,.lblank⟩⟩] .leaf) 22327915 [⟨⟨(.inside 0),[],.lcomment,false,[],false⟩,false,false,[some (10,(.lf,false))],none,none,none,false,false,false,none,false,⟨.lcomment,none,false,.lblank⟩⟩] (.node .leaf 22696073 [⟨⟨.code,[45],.lcode,false,[],false⟩,false,false,[some (10,(.lf,false))],none,none,none,false,false,false,none,false,⟨.lcode,none,false,.lblank⟩⟩] .leaf)) 22769807 [⟨⟨.code,[47],.lcode,false,[],false⟩,false,false,[some (10,(.lf,false))],none,none,none,false,false,false,none,false,⟨.lcode,none,false,.lblank⟩⟩] (.node (.node .leaf 25129295 [⟨⟨(.inside 1),[],.lcode,false,[],false⟩,false,false,[some (10,(.lf,false))],none,none,none,false,false,false,none,false,⟨.lcode,none,false,.lblank⟩⟩] .leaf) 25277275 [⟨⟨(.inside 1),[],.lcomment,false,[],false⟩,false,false,[some (10,(.lf,false))],none,none,none,false,false,false,none,false,⟨.lcomment,none,false,.lblank⟩⟩] .leaf)))) 26179947 [⟨⟨(.inside 0),[],.lcode,false,[],false⟩,false,false,[some (12,(.ff,false))],none,none,none,false,false,false,none,false,⟨.lcode,none,false,.lblank⟩⟩] (.node (.node (.node (.node (.node .leaf 26327927 [⟨⟨(.inside 0),[],.lcomment,false,[],false⟩,false,false,[some (12,(.ff,false))],none,none,none,false,false,false,none,false,⟨.lcomment,none,false,.lblank⟩⟩] .leaf) 26696085 [⟨⟨.code,[45],.lcode,false,[],false⟩,false,false,[some (12,(.ff,false))],none,none,none,false,false,false,none,false,⟨.lcode,none,false,.lblank⟩⟩] (.node .leaf 26769819 [⟨⟨.code,[47],.lcode,false,[],false⟩,false,false,[some (12,(.ff,false))],none,none,none,false,false,false,none,false,⟨.lcode,none,false,.lblank⟩⟩] .leaf)) 28078655 [⟨⟨(.inside 2),[],.lcode,false,[],false⟩,false,false,[some (10,(.lf,false))],none,none,none,false,false,false,none,false,⟨.lcode,none,false,.lblank⟩⟩] (.node (.node .leaf 28179953 [⟨⟨(.inside 0),[],.lcode,false,[],false⟩,false,false,[some (13,(.cr,false))],none,none,none,false,false,false,none,false,⟨.lcode,none,false,.lblank⟩⟩] .leaf) 28226635 [⟨⟨(.inside 2),[],.lcomment,false,[],false⟩,false,false,[some (10,(.lf,false))],none,none,none,false,false,false,none,false,⟨.lcomment,none,false,.lblank⟩⟩] (.node .leaf 28327933 [⟨⟨(.inside 0),[],.lcomment,false,[],false⟩,false,false,[some (13,(.cr,false))],none,none,none,false,false,false,none,false,⟨.lcomment,none,false,.lblank⟩⟩] .leaf))) 28696091 [⟨⟨.code,[45],.lcode,false,[],false⟩,false,false,[some (13,(.cr,false))],none,none,none,false,false,false,none,false,⟨.lcode,none,false,.lblank⟩⟩] (.node (.node (.node .leaf 28769825 [⟨⟨.code,[47],.lcode,false,[],false⟩,false,false,[some (13,(.cr,false))],none,none,none,false,false,false,none,false,⟨.lcode,none,false,.lblank⟩⟩] .leaf) 29129307 [⟨⟨(.inside 1),[],.lcode,false,[],false⟩,false,false,[some (12,(.ff,false))],none,none,none,false,false,false,none,false,⟨.lcode,none,false,.lblank⟩⟩] (.node .leaf 29179956 [⟨⟨(.inside 0),[],.lcode,false,[],false⟩,false,false,[some (13,(.cr,true))],none,none,none,false,false,false,none,false,⟨.lcode,none,false,.lblank⟩⟩] .leaf)) 29277287 [⟨⟨(.inside 1),[],.lcomment,false,[],false⟩,false,false,[some (12,(.ff,false))],none,none,none,false,false,false,none,false,⟨.lcomment,none,false,.lblank⟩⟩] (.node (.node .leaf 29327936 [⟨⟨(.inside 0),[],.lcomment,false,[],false⟩,false,false,[some (13,(.cr,true))],none,none,none,false,false,false,none,false,⟨.lcomment,none,false,.lblank⟩⟩] .leaf) 29696094 [⟨⟨.code,[45],.lcode,false,[],false⟩,false,false,[some (13,(.cr,true))],none,none,none,false,false,false,none,false,⟨.lcode,none,false,.lblank⟩⟩] .leaf))) 29769828 [⟨⟨.code,[47],.lcode,false,[],false⟩,false,false,[some (13,(.cr,true))],none,none,none,false,false,false,none,false,⟨.lcode,none,false,.lblank⟩⟩] (.node (.node (.node (.node .leaf 31129313 [⟨⟨(.inside 1),[],.lcode,false,[],false⟩,false,false,[some (13,(.cr,false))],none,none,none,false,false,false,none,false,⟨.lcode,none,false,.lblank⟩⟩] .leaf) 31277293 [⟨⟨(.inside 1),[],.lcomment,false,[],false⟩,false,false,[some (13,(.cr,false))],none,none,none,false,false,false,none,false,⟨.lcomment,none,false,.lblank⟩⟩] (.node .leaf 32078667 [⟨⟨(.inside 2),[],.lcode,false,[],false⟩,false,false,[some (12,(.ff,false))],none,none,none,false,false,false,none,false,⟨.lcode,none,false,.lblank⟩⟩] .leaf)) 32129316 [⟨⟨(.inside 1),[],.lcode,false,[],false⟩,false,false,[some (13,(.cr,true))],none,none,none,false,false,false,none,false,⟨.lcode,none,false,.lblank⟩⟩] (.node (.node .leaf 32226647 [⟨⟨(.inside 2),[],.lcomment,false,[],false⟩,false,false,[some (12,(.ff,false))],none,none,none,false,false,false,none,false,⟨.lcomment,none,false,.lblank⟩⟩] .leaf) 32277296 [⟨⟨(.inside 1),[],.lcomment,false,[],false⟩,false,false,[some (13,(.cr,true))],none,none,none,false,false,false,none,false,⟨.lcomment,none,false,.lblank⟩⟩] .leaf)) 34078673 [⟨⟨(.inside 2),[],.lcode,false,[],false⟩,false,false,[some (13,(.cr,false))],none,none,none,false,false,false,none,false,⟨.lcode,none,false,.lblank⟩⟩] (.node (.node (.node .leaf 34226653 [⟨⟨(.inside 2),[],.lcomment,false,[],false⟩,false,false,[some (13,(.cr,false))],none,none,none,false,false,false,none,false,⟨.lcomment,none,false,.lblank⟩⟩] .leaf) 35078676 [⟨⟨(.inside 2),[],.lcode,false,[],false⟩,false,false,[some (13,(.cr,true))],none,none,none,false,false,false,none,false,⟨.lcode,none,false,.lblank⟩⟩] (.node .leaf 35226656 [⟨⟨(.inside 2),[],.lcomment,false,[],false⟩,false,false,[some (13,(.cr,true))],none,none,none,false,false,false,none,false,⟨.lcomment,none,false,.lblank⟩⟩] .leaf)) 40014375 [⟨⟨.code,[45],.lcomment,false,[],false⟩,false,false,[some (9,(.ws,false))],none,none,none,false,false,false,none,false,⟨.lcode,none,false,.lblank⟩⟩] (.node (.node .leaf 40088109 [⟨⟨.code,[47],.lcomment,false,[],false⟩,false,false,[some (9,(.ws,false))],none,none,none,false,false,false,none,false,⟨.lcode,none,false,.lblank⟩⟩] .leaf) 40332626 [⟨⟨.code,[45],.lblank,false,[],false⟩,false,false,[none],none,none,none,false,false,false,none,false,⟨.lcode,none,false,.lblank⟩⟩] .leaf))))) 40406360 [⟨⟨.code,[47],.lblank,false,[],false⟩,false,false,[none],none,none,none,false,false,false,none,false,⟨.lcode,none,false,.lblank⟩⟩] (.node (.node (.node (.node (.node (.node .leaf 42014381 [⟨⟨.code,[45],.lcomment,false,[],false⟩,false,false,[some (10,(.lf,false))],none,none,none,false,false,false,none,false,⟨.lcode,none,false,.lblank⟩⟩] .leaf) 42088115 [⟨⟨.code,[47],.lcomment,false,[],false⟩,false,false,[some (10,(.lf,false))],none,none,none,false,false,false,none,false,⟨.lcode,none,false,.lblank⟩⟩] (.node .leaf 46014393 [⟨⟨.code,[45],.lcomment,false,[],false⟩,false,false,[some (12,(.ff,false))],none,none,none,false,false,false,none,false,⟨.lcode,none,false,.lblank⟩⟩] .leaf)) 46088127 [⟨⟨.code,[47],.lcomment,false,[],false⟩,false,false,[some (12,(.ff,false))],none,none,none,false,false,false,none,false,⟨.lcode,none,false,.lblank⟩⟩] (.node (.node .leaf 48014399 [⟨⟨.code,[45],.lcomment,false,[],false⟩,false,false,[some (13,(.cr,false))],none,none,none,false,false,false,none,false,⟨.lcode,none,false,.lblank⟩⟩] .leaf) 48088133 [⟨⟨.code,[47],.lcomment,false,[],false⟩,false,false,[some (13,(.cr,false))],none,none,none,false,false,false,none,false,⟨.lcode,none,false,.lblank⟩⟩] (.node .leaf 49014402 [⟨⟨.code,[45],.lcomment,false,[],false⟩,false,false,[some (13,(.cr,true))],none,none,none,false,false,false,none,false,⟨.lcode,none,false,.lblank⟩⟩] .leaf))) 49088136 [⟨⟨.code,[47],.lcomment,false,[],false⟩,false,false,[some (13,(.cr,true))],none,none,none,false,false,false,none,false,⟨.lcode,none,false,.lblank⟩⟩] (.node (.node (.node .leaf 58483479 [⟨⟨.code,[],.lcode,false,[(5,0),(6,0)],false⟩,false,false,[],none,none,none,false,false,false,none,false,⟨.lcode,none,false,.lblank⟩⟩] .leaf) 59332683 [⟨⟨.code,[45],.lblank,false,[],false⟩,false,false,[some (9,(.ws,false))],none,none,none,false,false,false,none,false,⟨.lcode,none,false,.lblank⟩⟩] (.node .leaf 59406417 [⟨⟨.code,[47],.lblank,false,[],false⟩,false,false,[some (9,(.ws,false))],none,none,none,false,false,false,none,false,⟨.lcode,none,false,.lblank⟩⟩] .leaf)) 60105627 [⟨⟨.code,[],.lcode,false,[(5,1),(6,1)],false⟩,false,false,[],none,none,none,false,false,false,none,false,⟨.lcode,none,false,.lblank⟩⟩] (.node (.node .leaf 61332689 [⟨⟨.code,[45],.lblank,false,[],false⟩,false,false,[some (10,(.lf,false))],none,none,none,false,false,false,none,false,⟨.lcode,none,false,.lblank⟩⟩] .leaf) 61406423 [⟨⟨.code,[47],.lblank,false,[],false⟩,false,false,[some (10,(.lf,false))],none,none,none,false,false,false,none,false,⟨.lcode,none,false,.lblank⟩⟩] .leaf))) 65332701 [⟨⟨.code,[45],.lblank,false,[],false⟩,false,false,[some (12,(.ff,false))],none,none,none,false,false,false,none,false,⟨.lcode,none,false,.lblank⟩⟩] (.node (.node (.node (.node .leaf 65406435 [⟨⟨.code,[47],.lblank,false,[],false⟩,false,false,[some (12,(.ff,false))],none,none,none,false,false,false,none,false,⟨.lcode,none,false,.lblank⟩⟩] .leaf) 67332707 [⟨⟨.code,[45],.lblank,false,[],false⟩,false,false,[some (13,(.cr,false))],none,none,none,false,false,false,none,false,⟨.lcode,none,false,.lblank⟩⟩] (.node .leaf 67406441 [⟨⟨.code,[47],.lblank,false,[],false⟩,false,false,[some (13,(.cr,false))],none,none,none,false,false,false,none,false,⟨.lcode,none,false,.lblank⟩⟩] .leaf)) 68332710 [⟨⟨.code,[45],.lblank,false,[],false⟩,false,false,[some (13,(.cr,true))],none,none,none,false,false,false,none,false,⟨.lcode,none,false,.lblank⟩⟩] (.node (.node .leaf 68406444 [⟨⟨.code,[47],.lblank,false,[],false⟩,false,false,[some (13,(.cr,true))],none,none,none,false,false,false,none,false,⟨.lcode,none,false,.lblank⟩⟩] .leaf) 69666469 [⟨⟨.code,[],.lcode,false,[(6,0),(5,0)],false⟩,false,false,[],none,none,none,false,false,false,none,false,⟨.lcode,none,false,.lblank⟩⟩] .leaf)) 70696217 [⟨⟨.code,[45],.lcode,false,[],false⟩,false,false,[some (34,(.other,false))],none,none,none,false,false,false,none,false,⟨.lcode,none,false,.lblank⟩⟩] (.node (.node (.node .leaf 70769951 [⟨⟨.code,[47],.lcode,false,[],false⟩,false,false,[some (34,(.other,false))],none,none,none,false,false,false,none,false,⟨.lcode,none,false,.lblank⟩⟩] .leaf) 71288617 [⟨⟨.code,[],.lcode,false,[(6,1),(5,1)],false⟩,false,false,[],none,none,none,false,false,false,none,false,⟨.lcode,none,false,.lblank⟩⟩] (.node .leaf 72696223 [⟨⟨.code,[45],.lcode,false,[],false⟩,false,false,[some (35,(.other,false))],none,none,none,false,false,false,none,false,⟨.lcode,none,false,.lblank⟩⟩] .leaf)) 72769957 [⟨⟨.code,[47],.lcode,false,[],false⟩,false,false,[some (35,(.other,false))],none,none,none,false,false,false,none,false,⟨.lcode,none,false,.lblank⟩⟩] (.node (.node .leaf 80696247 [⟨⟨.code,[45],.lcode,false,[],false⟩,false,false,[some (39,(.other,false))],none,none,none,false,false,false,none,false,⟨.lcode,none,false,.lblank⟩⟩] .leaf) 80769981 [⟨⟨.code,[47],.lcode,false,[],false⟩,false,false,[some (39,(.other,false))],none,none,none,false,false,false,none,false,⟨.lcode,none,false,.lblank⟩⟩] .leaf)))) 86696265 [⟨⟨.code,[45],.lcode,false,[],false⟩,false,false,[some (42,(.other,false))],none,none,none,false,false,false,none,false,⟨.lcode,none,false,.lblank⟩⟩] (.node (.node (.node (.node (.node .leaf 90014525 [⟨⟨.code,[45],.lcomment,false,[],false⟩,false,false,[some (34,(.other,false))],none,none,none,false,false,false,none,false,⟨.lcode,none,false,.lblank⟩⟩] .leaf) 90088259 [⟨⟨.code,[47],.lcomment,false,[],false⟩,false,false,[some (34,(.other,false))],none,none,none,false,false,false,none,false,⟨.lcode,none,false,.lblank⟩⟩] (.node .leaf 92014531 [⟨⟨.code,[45],.lcomment,false,[],false⟩,false,false,[some (35,(.other,false))],none,none,none,false,false,false,none,false,⟨.lcode,none,false,.lblank⟩⟩] .leaf)) 92088265 [⟨⟨.code,[47],.lcomment,false,[],false⟩,false,false,[some (35,(.other,false))],none,none,none,false,false,false,none,false,⟨.lcode,none,false,.lblank⟩⟩] (.node (.node .leaf 92770017 [⟨⟨.code,[47],.lcode,false,[],false⟩,false,false,[some (45,(.other,false))],none,none,none,false,false,false,none,false,⟨.lcode,none,false,.lblank⟩⟩] .leaf) 96696295 [⟨⟨.code,[45],.lcode,false,[],false⟩,false,false,[some (47,(.other,false))],none,none,none,false,false,false,none,false,⟨.lcode,none,false,.lblank⟩⟩] .leaf)) 100014555 [⟨⟨.code,[45],.lcomment,false,[],false⟩,false,false,[some (39,(.other,false))],none,none,none,false,false,false,none,false,⟨.lcode,none,false,.lblank⟩⟩] (.node (.node (.node .leaf 100088289 [⟨⟨.code,[47],.lcomment,false,[],false⟩,false,false,[some (39,(.other,false))],none,none,none,false,false,false,none,false,⟨.lcode,none,false,.lblank⟩⟩] .leaf) 106014573 [⟨⟨.code,[45],.lcomment,false,[],false⟩,false,false,[some (42,(.other,false))],none,none,none,false,false,false,none,false,⟨.lcode,none,false,.lblank⟩⟩] (.node .leaf 109332833 [⟨⟨.code,[45],.lblank,false,[],false⟩,false,false,[some (34,(.other,false))],none,none,none,false,false,false,none,false,⟨.lcode,none,false,.lblank⟩⟩] .leaf)) 109406567 [⟨⟨.code,[47],.lblank,false,[],false⟩,false,false,[some (34,(.other,false))],none,none,none,false,false,false,none,false,⟨.lcode,none,false,.lblank⟩⟩] (.node (.node .leaf 111332839 [⟨⟨.code,[45],.lblank,false,[],false⟩,false,false,[some (35,(.other,false))],none,none,none,false,false,false,none,false,⟨.lcode,none,false,.lblank⟩⟩] .leaf) 111406573 [⟨⟨.code,[47],.lblank,false,[],false⟩,false,false,[some (35,(.other,false))],none,none,none,false,false,false,none,false,⟨.lcode,none,false,.lblank⟩⟩] .leaf))) 112088325 [⟨⟨.code,[47],.lcomment,false,[],false⟩,false,false,[some (45,(.other,false))],none,none,none,false,false,false,none,false,⟨.lcode,none,false,.lblank⟩⟩] (.node (.node (.node (.node .leaf 116014603 [⟨⟨.code,[45],.lcomment,false,[],false⟩,false,false,[some (47,(.other,false))],none,none,none,false,false,false,none,false,⟨.lcode,none,false,.lblank⟩⟩] .leaf) 119332863 [⟨⟨.code,[45],.lblank,false,[],false⟩,false,false,[some (39,(.other,false))],none,none,none,false,false,false,none,false,⟨.lcode,none,false,.lblank⟩⟩] (.node .leaf 119406597 [⟨⟨.code,[47],.lblank,false,[],false⟩,false,false,[some (39,(.other,false))],none,none,none,false,false,false,none,false,⟨.lcode,none,false,.lblank⟩⟩] .leaf)) 125332881 [⟨⟨.code,[45],.lblank,false,[],false⟩,false,false,[some (42,(.other,false))],none,none,none,false,false,false,none,false,⟨.lcode,none,false,.lblank⟩⟩] (.node (.node .leaf 131406633 [⟨⟨.code,[47],.lblank,false,[],false⟩,false,false,[some (45,(.other,false))],none,none,none,false,false,false,none,false,⟨.lcode,none,false,.lblank⟩⟩] .leaf) 135332911 [⟨⟨.code,[45],.lblank,false,[],false⟩,false,false,[some (47,(.other,false))],none,none,none,false,false,false,none,false,⟨.lcode,none,false,.lblank⟩⟩] .leaf)) 154988996 [⟨⟨(.inside 0),[],.lcode,false,[(5,0)],false⟩,false,false,[none],none,none,none,false,false,false,none,false,⟨.lcode,none,false,.lblank⟩⟩] (.node (.node (.node .leaf 155001285 [⟨⟨(.inside 0),[],.lcode,false,[(5,1)],false⟩,false,false,[none],none,none,none,false,false,false,none,false,⟨.lcode,none,false,.lblank⟩⟩] .leaf) 155075019 [⟨⟨(.inside 0),[],.lcode,false,[(6,0)],false⟩,false,false,[none],none,none,none,false,false,false,none,false,⟨.lcode,none,false,.lblank⟩⟩] (.node .leaf 155087308 [⟨⟨(.inside 0),[],.lcode,false,[(6,1)],false⟩,false,false,[none],none,none,none,false,false,false,none,false,⟨.lcode,none,false,.lblank⟩⟩] .leaf)) 175989059 [⟨⟨(.inside 0),[],.lcode,false,[(5,0)],false⟩,false,false,[some (10,(.lf,false))],none,none,none,false,false,false,none,false,⟨.lcode,none,false,.lblank⟩⟩] (.node (.node .leaf 176001348 [⟨⟨(.inside 0),[],.lcode,false,[(5,1)],false⟩,false,false,[some (10,(.lf,false))],none,none,none,false,false,false,none,false,⟨.lcode,none,false,.lblank⟩⟩] .leaf) 176075082 [⟨⟨(.inside 0),[],.lcode,false,[(6,0)],false⟩,false,false,[some (10,(.lf,false))],none,none,none,false,false,false,none,false,⟨.lcode,none,false,.lblank⟩⟩] .leaf)))))) 176087371 [⟨⟨(.inside 0),[],.lcode,false,[(6,1)],false⟩,false,false,[some (10,(.lf,false))],none,none,none,false,false,false,none,false,⟨.lcode,none,false,.lblank⟩⟩] (.node (.node (.node (.node (.node (.node (.node .leaf 179989071 [⟨⟨(.inside 0),[],.lcode,false,[(5,0)],false⟩,false,false,[some (12,(.ff,false))],none,none,none,false,false,false,none,false,⟨.lcode,none,false,.lblank⟩⟩] .leaf) 180001360 [⟨⟨(.inside 0),[],.lcode,false,[(5,1)],false⟩,false,false,[some (12,(.ff,false))],none,none,none,false,false,false,none,false,⟨.lcode,none,false,.lblank⟩⟩] (.node .leaf 180075094 [⟨⟨(.inside 0),[],.lcode,false,[(6,0)],false⟩,false,false,[some (12,(.ff,false))],none,none,none,false,false,false,none,false,⟨.lcode,none,false,.lblank⟩⟩] .leaf)) 180087383 [⟨⟨(.inside 0),[],.lcode,false,[(6,1)],false⟩,false,false,[some (12,(.ff,false))],none,none,none,false,false,false,none,false,⟨.lcode,none,false,.lblank⟩⟩] (.node (.node .leaf 181989077 [⟨⟨(.inside 0),[],.lcode,false,[(5,0)],false⟩,false,false,[some (13,(.cr,false))],none,none,none,false,false,false,none,false,⟨.lcode,none,false,.lblank⟩⟩] .leaf) 182001366 [⟨⟨(.inside 0),[],.lcode,false,[(5,1)],false⟩,false,false,[some (13,(.cr,false))],none,none,none,false,false,false,none,false,⟨.lcode,none,false,.lblank⟩⟩] (.node .leaf 182075100 [⟨⟨(.inside 0),[],.lcode,false,[(6,0)],false⟩,false,false,[some (13,(.cr,false))],none,none,none,false,false,false,none,false,⟨.lcode,none,false,.lblank⟩⟩] .leaf))) 182087389 [⟨⟨(.inside 0),[],.lcode,false,[(6,1)],false⟩,false,false,[some (13,(.cr,false))],none,none,none,false,false,false,none,false,⟨.lcode,none,false,.lblank⟩⟩] (.node (.node (.node .leaf 182989080 [⟨⟨(.inside 0),[],.lcode,false,[(5,0)],false⟩,false,false,[some (13,(.cr,true))],none,none,none,false,false,false,none,false,⟨.lcode,none,false,.lblank⟩⟩] .leaf) 183001369 [⟨⟨(.inside 0),[],.lcode,false,[(5,1)],false⟩,false,false,[some (13,(.cr,true))],none,none,none,false,false,false,none,false,⟨.lcode,none,false,.lblank⟩⟩] (.node .leaf 183075103 [⟨⟨(.inside 0),[],.lcode,false,[(6,0)],false⟩,false,false,[some (13,(.cr,true))],none,none,none,false,false,false,none,false,⟨.lcode,none,false,.lblank⟩⟩] .leaf)) 183087392 [⟨⟨(.inside 0),[],.lcode,false,[(6,1)],false⟩,false,false,[some (13,(.cr,true))],none,none,none,false,false,false,none,false,⟨.lcode,none,false,.lblank⟩⟩] (.node (.node .leaf 186696565 [⟨⟨.code,[45],.lcode,false,[],false⟩,false,false,[some (92,(.other,false))],none,none,none,false,false,false,none,false,⟨.lcode,none,false,.lblank⟩⟩] .leaf) 186770299 [⟨⟨.code,[47],.lcode,false,[],false⟩,false,false,[some (92,(.other,false))],none,none,none,false,false,false,none,false,⟨.lcode,none,false,.lblank⟩⟩] .leaf))) 206014873 [⟨⟨.code,[45],.lcomment,false,[],false⟩,false,false,[some (92,(.other,false))],none,none,none,false,false,false,none,false,⟨.lcode,none,false,.lblank⟩⟩] (.node (.node (.node (.node .leaf 206088607 [⟨⟨.code,[47],.lcomment,false,[],false⟩,false,false,[some (92,(.other,false))],none,none,none,false,false,false,none,false,⟨.lcode,none,false,.lblank⟩⟩] .leaf) 222603074 [⟨⟨.code,[45],.lcode,false,[(5,0)],false⟩,false,false,[none],none,none,none,false,false,false,none,false,⟨.lcode,none,false,.lblank⟩⟩] (.node .leaf 222615363 [⟨⟨.code,[45],.lcode,false,[(5,1)],false⟩,false,false,[none],none,none,none,false,false,false,none,false,⟨.lcode,none,false,.lblank⟩⟩] .leaf)) 222689097 [⟨⟨.code,[45],.lcode,false,[(6,0)],false⟩,false,false,[none],none,none,none,false,false,false,none,false,⟨.lcode,none,false,.lblank⟩⟩] (.node (.node .leaf 222701386 [⟨⟨.code,[45],.lcode,false,[(6,1)],false⟩,false,false,[none],none,none,none,false,false,false,none,false,⟨.lcode,none,false,.lblank⟩⟩] .leaf) 225333181 [⟨⟨.code,[45],.lblank,false,[],false⟩,false,false,[some (92,(.other,false))],none,none,none,false,false,false,none,false,⟨.lcode,none,false,.lblank⟩⟩] .leaf)) 225406915 [⟨⟨.code,[47],.lblank,false,[],false⟩,false,false,[some (92,(.other,false))],none,none,none,false,false,false,none,false,⟨.lcode,none,false,.lblank⟩⟩] (.node (.node (.node .leaf 232262228 [⟨⟨.code,[47],.lcode,false,[(5,0)],false⟩,false,false,[none],none,none,none,false,false,false,none,false,⟨.lcode,none,false,.lblank⟩⟩] .leaf) 232274517 [⟨⟨.code,[47],.lcode,false,[(5,1)],false⟩,false,false,[none],none,none,none,false,false,false,none,false,⟨.lcode,none,false,.lblank⟩⟩] (.node .leaf 232348251 [⟨⟨.code,[47],.lcode,false,[(6,0)],false⟩,false,false,[none],none,none,none,false,false,false,none,false,⟨.lcode,none,false,.lblank⟩⟩] .leaf)) 232360540 [⟨⟨.code,[47],.lcode,false,[(6,1)],false⟩,false,false,[none],none,none,none,false,false,false,none,false,⟨.lcode,none,false,.lblank⟩⟩] (.node (.node .leaf 241603131 [⟨⟨.code,[45],.lcode,false,[(5,0)],false⟩,false,false,[some (9,(.ws,false))],none,none,none,false,false,false,none,false,⟨.lcode,none,false,.lblank⟩⟩] .leaf) 241615420 [⟨⟨.code,[45],.lcode,false,[(5,1)],false⟩,false,false,[some (9,(.ws,false))],none,none,none,false,false,false,none,false,⟨.lcode,none,false,.lblank⟩⟩] .leaf)))) 241689154 [⟨⟨.code,[45],.lcode,false,[(6,0)],false⟩,false,false,[some (9,(.ws,false))],none,none,none,false,false,false,none,false,⟨.lcode,none,false,.lblank⟩⟩] (.node (.node (.node (.node (.node .leaf 241701443 [⟨⟨.code,[45],.lcode,false,[(6,1)],false⟩,false,false,[some (9,(.ws,false))],none,none,none,false,false,false,none,false,⟨.lcode,none,false,.lblank⟩⟩] .leaf) 243603137 [⟨⟨.code,[45],.lcode,false,[(5,0)],false⟩,false,false,[some (10,(.lf,false))],none,none,none,false,false,false,none,false,⟨.lcode,none,false,.lblank⟩⟩] (.node .leaf 243615426 [⟨⟨.code,[45],.lcode,false,[(5,1)],false⟩,false,false,[some (10,(.lf,false))],none,none,none,false,false,false,none,false,⟨.lcode,none,false,.lblank⟩⟩] .leaf)) 243689160 [⟨⟨.code,[45],.lcode,false,[(6,0)],false⟩,false,false,[some (10,(.lf,false))],none,none,none,false,false,false,none,false,⟨.lcode,none,false,.lblank⟩⟩] (.node (.node .leaf 243701449 [⟨⟨.code,[45],.lcode,false,[(6,1)],false⟩,false,false,[some (10,(.lf,false))],none,none,none,false,false,false,none,false,⟨.lcode,none,false,.lblank⟩⟩] .leaf) 247603149 [⟨⟨.code,[45],.lcode,false,[(5,0)],false⟩,false,false,[some (12,(.ff,false))],none,none,none,false,false,false,none,false,⟨.lcode,none,false,.lblank⟩⟩] (.node .leaf 247615438 [⟨⟨.code,[45],.lcode,false,[(5,1)],false⟩,false,false,[some (12,(.ff,false))],none,none,none,false,false,false,none,false,⟨.lcode,none,false,.lblank⟩⟩] .leaf))) 247689172 [⟨⟨.code,[45],.lcode,false,[(6,0)],false⟩,false,false,[some (12,(.ff,false))],none,none,none,false,false,false,none,false,⟨.lcode,none,false,.lblank⟩⟩] (.node (.node (.node .leaf 247701461 [⟨⟨.code,[45],.lcode,false,[(6,1)],false⟩,false,false,[some (12,(.ff,false))],none,none,none,false,false,false,none,false,⟨.lcode,none,false,.lblank⟩⟩] .leaf) 248696751 [⟨⟨.code,[45],.lcode,false,[],false⟩,false,false,[some (123,(.other,false))],none,none,none,false,false,false,none,false,⟨.lcode,none,false,.lblank⟩⟩] (.node .leaf 248770485 [⟨⟨.code,[47],.lcode,false,[],false⟩,false,false,[some (123,(.other,false))],none,none,none,false,false,false,none,false,⟨.lcode,none,false,.lblank⟩⟩] .leaf)) 249603155 [⟨⟨.code,[45],.lcode,false,[(5,0)],false⟩,false,false,[some (13,(.cr,false))],none,none,none,false,false,false,none,false,⟨.lcode,none,false,.lblank⟩⟩] (.node (.node .leaf 249615444 [⟨⟨.code,[45],.lcode,false,[(5,1)],false⟩,false,false,[some (13,(.cr,false))],none,none,none,false,false,false,none,false,⟨.lcode,none,false,.lblank⟩⟩] .leaf) 249689178 [⟨⟨.code,[45],.lcode,false,[(6,0)],false⟩,false,false,[some (13,(.cr,false))],none,none,none,false,false,false,none,false,⟨.lcode,none,false,.lblank⟩⟩] .leaf))) 249701467 [⟨⟨.code,[45],.lcode,false,[(6,1)],false⟩,false,false,[some (13,(.cr,false))],none,none,none,false,false,false,none,false,⟨.lcode,none,false,.lblank⟩⟩] (.node (.node (.node (.node .leaf 250603158 [⟨⟨.code,[45],.lcode,false,[(5,0)],false⟩,false,false,[some (13,(.cr,true))],none,none,none,false,false,false,none,false,⟨.lcode,none,false,.lblank⟩⟩] .leaf) 250615447 [⟨⟨.code,[45],.lcode,false,[(5,1)],false⟩,false,false,[some (13,(.cr,true))],none,none,none,false,false,false,none,false,⟨.lcode,none,false,.lblank⟩⟩] (.node .leaf 250689181 [⟨⟨.code,[45],.lcode,false,[(6,0)],false⟩,false,false,[some (13,(.cr,true))],none,none,none,false,false,false,none,false,⟨.lcode,none,false,.lblank⟩⟩] .leaf)) 250701470 [⟨⟨.code,[45],.lcode,false,[(6,1)],false⟩,false,false,[some (13,(.cr,true))],none,none,none,false,false,false,none,false,⟨.lcode,none,false,.lblank⟩⟩] (.node (.node .leaf 251262285 [⟨⟨.code,[47],.lcode,false,[(5,0)],false⟩,false,false,[some (9,(.ws,false))],none,none,none,false,false,false,none,false,⟨.lcode,none,false,.lblank⟩⟩] .leaf) 251274574 [⟨⟨.code,[47],.lcode,false,[(5,1)],false⟩,false,false,[some (9,(.ws,false))],none,none,none,false,false,false,none,false,⟨.lcode,none,false,.lblank⟩⟩] .leaf)) 251348308 [⟨⟨.code,[47],.lcode,false,[(6,0)],false⟩,false,false,[some (9,(.ws,false))],none,none,none,false,false,false,none,false,⟨.lcode,none,false,.lblank⟩⟩] (.node (.node (.node .leaf 251360597 [⟨⟨.code,[47],.lcode,false,[(6,1)],false⟩,false,false,[some (9,(.ws,false))],none,none,none,false,false,false,none,false,⟨.lcode,none,false,.lblank⟩⟩] .leaf) 252696763 [⟨⟨.code,[45],.lcode,false,[],false⟩,false,false,[some (125,(.other,false))],none,none,none,false,false,false,none,false,⟨.lcode,none,false,.lblank⟩⟩] (.node .leaf 252770497 [⟨⟨.code,[47],.lcode,false,[],false⟩,false,false,[some (125,(.other,false))],none,none,none,false,false,false,none,false,⟨.lcode,none,false,.lblank⟩⟩] .leaf)) 253262291 [⟨⟨.code,[47],.lcode,false,[(5,0)],false⟩,false,false,[some (10,(.lf,false))],none,none,none,false,false,false,none,false,⟨.lcode,none,false,.lblank⟩⟩] (.node (.node .leaf 253274580 [⟨⟨.code,[47],.lcode,false,[(5,1)],false⟩,false,false,[some (10,(.lf,false))],none,none,none,false,false,false,none,false,⟨.lcode,none,false,.lblank⟩⟩] .leaf) 253348314 [⟨⟨.code,[47],.lcode,false,[(6,0)],false⟩,false,false,[some (10,(.lf,false))],none,none,none,false,false,false,none,false,⟨.lcode,none,false,.lblank⟩⟩] .leaf))))) 253360603 [⟨⟨.code,[47],.lcode,false,[(6,1)],false⟩,false,false,[some (10,(.lf,false))],none,none,none,false,false,false,none,false,⟨.lcode,none,false,.lblank⟩⟩] (.node (.node (.node (.node (.node (.node .leaf 257262303 [⟨⟨.code,[47],.lcode,false,[(5,0)],false⟩,false,false,[some (12,(.ff,false))],none,none,none,false,false,false,none,false,⟨.lcode,none,false,.lblank⟩⟩] .leaf) 257274592 [⟨⟨.code,[47],.lcode,false,[(5,1)],false⟩,false,false,[some (12,(.ff,false))],none,none,none,false,false,false,none,false,⟨.lcode,none,false,.lblank⟩⟩] (.node .leaf 257348326 [⟨⟨.code,[47],.lcode,false,[(6,0)],false⟩,false,false,[some (12,(.ff,false))],none,none,none,false,false,false,none,false,⟨.lcode,none,false,.lblank⟩⟩] .leaf)) 257360615 [⟨⟨.code,[47],.lcode,false,[(6,1)],false⟩,false,false,[some (12,(.ff,false))],none,none,none,false,false,false,none,false,⟨.lcode,none,false,.lblank⟩⟩] (.node (.node .leaf 259262309 [⟨⟨.code,[47],.lcode,false,[(5,0)],false⟩,false,false,[some (13,(.cr,false))],none,none,none,false,false,false,none,false,⟨.lcode,none,false,.lblank⟩⟩] .leaf) 259274598 [⟨⟨.code,[47],.lcode,false,[(5,1)],false⟩,false,false,[some (13,(.cr,false))],none,none,none,false,false,false,none,false,⟨.lcode,none,false,.lblank⟩⟩] (.node .leaf 259348332 [⟨⟨.code,[47],.lcode,false,[(6,0)],false⟩,false,false,[some (13,(.cr,false))],none,none,none,false,false,false,none,false,⟨.lcode,none,false,.lblank⟩⟩] .leaf))) 259360621 [⟨⟨.code,[47],.lcode,false,[(6,1)],false⟩,false,false,[some (13,(.cr,false))],none,none,none,false,false,false,none,false,⟨.lcode,none,false,.lblank⟩⟩] (.node (.node (.node .leaf 260262312 [⟨⟨.code,[47],.lcode,false,[(5,0)],false⟩,false,false,[some (13,(.cr,true))],none,none,none,false,false,false,none,false,⟨.lcode,none,false,.lblank⟩⟩] .leaf) 260274601 [⟨⟨.code,[47],.lcode,false,[(5,1)],false⟩,false,false,[some (13,(.cr,true))],none,none,none,false,false,false,none,false,⟨.lcode,none,false,.lblank⟩⟩] (.node .leaf 260348335 [⟨⟨.code,[47],.lcode,false,[(6,0)],false⟩,false,false,[some (13,(.cr,true))],none,none,none,false,false,false,none,false,⟨.lcode,none,false,.lblank⟩⟩] .leaf)) 260360624 [⟨⟨.code,[47],.lcode,false,[(6,1)],false⟩,false,false,[some (13,(.cr,true))],none,none,none,false,false,false,none,false,⟨.lcode,none,false,.lblank⟩⟩] (.node (.node .leaf 268015059 [⟨⟨.code,[45],.lcomment,false,[],false⟩,false,false,[some (123,(.other,false))],none,none,none,false,false,false,none,false,⟨.lcode,none,false,.lblank⟩⟩] .leaf) 268088793 [⟨⟨.code,[47],.lcomment,false,[],false⟩,false,false,[some (123,(.other,false))],none,none,none,false,false,false,none,false,⟨.lcode,none,false,.lblank⟩⟩] .leaf))) 272015071 [⟨⟨.code,[45],.lcomment,false,[],false⟩,false,false,[some (125,(.other,false))],none,none,none,false,false,false,none,false,⟨.lcode,none,false,.lblank⟩⟩] (.node (.node (.node (.node .leaf 272088805 [⟨⟨.code,[47],.lcomment,false,[],false⟩,false,false,[some (125,(.other,false))],none,none,none,false,false,false,none,false,⟨.lcode,none,false,.lblank⟩⟩] .leaf) 287333367 [⟨⟨.code,[45],.lblank,false,[],false⟩,false,false,[some (123,(.other,false))],none,none,none,false,false,false,none,false,⟨.lcode,none,false,.lblank⟩⟩] (.node .leaf 287407101 [⟨⟨.code,[47],.lblank,false,[],false⟩,false,false,[some (123,(.other,false))],none,none,none,false,false,false,none,false,⟨.lcode,none,false,.lblank⟩⟩] .leaf)) 291333379 [⟨⟨.code,[45],.lblank,false,[],false⟩,false,false,[some (125,(.other,false))],none,none,none,false,false,false,none,false,⟨.lcode,none,false,.lblank⟩⟩] (.node (.node .leaf 291407113 [⟨⟨.code,[47],.lblank,false,[],false⟩,false,false,[some (125,(.other,false))],none,none,none,false,false,false,none,false,⟨.lcode,none,false,.lblank⟩⟩] .leaf) 291603281 [⟨⟨.code,[45],.lcode,false,[(5,0)],false⟩,false,false,[some (34,(.other,false))],none,none,none,false,false,false,none,false,⟨.lcode,none,false,.lblank⟩⟩] .leaf)) 291615570 [⟨⟨.code,[45],.lcode,false,[(5,1)],false⟩,false,false,[some (34,(.other,false))],none,none,none,false,false,false,none,false,⟨.lcode,none,false,.lblank⟩⟩] (.node (.node (.node .leaf 293603287 [⟨⟨.code,[45],.lcode,false,[(5,0)],false⟩,false,false,[some (35,(.other,false))],none,none,none,false,false,false,none,false,⟨.lcode,none,false,.lblank⟩⟩] .leaf) 293615576 [⟨⟨.code,[45],.lcode,false,[(5,1)],false⟩,false,false,[some (35,(.other,false))],none,none,none,false,false,false,none,false,⟨.lcode,none,false,.lblank⟩⟩] (.node .leaf 293689310 [⟨⟨.code,[45],.lcode,false,[(6,0)],false⟩,false,false,[some (35,(.other,false))],none,none,none,false,false,false,none,false,⟨.lcode,none,false,.lblank⟩⟩] .leaf)) 293701599 [⟨⟨.code,[45],.lcode,false,[(6,1)],false⟩,false,false,[some (35,(.other,false))],none,none,none,false,false,false,none,false,⟨.lcode,none,false,.lblank⟩⟩] (.node (.node .leaf 301262435 [⟨⟨.code,[47],.lcode,false,[(5,0)],false⟩,false,false,[some (34,(.other,false))],none,none,none,false,false,false,none,false,⟨.lcode,none,false,.lblank⟩⟩] .leaf) 301274724 [⟨⟨.code,[47],.lcode,false,[(5,1)],false⟩,false,false,[some (34,(.other,false))],none,none,none,false,false,false,none,false,⟨.lcode,none,false,.lblank⟩⟩] .leaf)))) 301689334 [⟨⟨.code,[45],.lcode,false,[(6,0)],false⟩,false,false,[some (39,(.other,false))],none,none,none,false,false,false,none,false,⟨.lcode,none,false,.lblank⟩⟩] (.node (.node (.node (.node (.node .leaf 301701623 [⟨⟨.code,[45],.lcode,false,[(6,1)],false⟩,false,false,[some (39,(.other,false))],none,none,none,false,false,false,none,false,⟨.lcode,none,false,.lblank⟩⟩] .leaf) 303262441 [⟨⟨.code,[47],.lcode,false,[(5,0)],false⟩,false,false,[some (35,(.other,false))],none,none,none,false,false,false,none,false,⟨.lcode,none,false,.lblank⟩⟩] (.node .leaf 303274730 [⟨⟨.code,[47],.lcode,false,[(5,1)],false⟩,false,false,[some (35,(.other,false))],none,none,none,false,false,false,none,false,⟨.lcode,none,false,.lblank⟩⟩] .leaf)) 303348464 [⟨⟨.code,[47],.lcode,false,[(6,0)],false⟩,false,false,[some (35,(.other,false))],none,none,none,false,false,false,none,false,⟨.lcode,none,false,.lblank⟩⟩] (.node (.node .leaf 303360753 [⟨⟨.code,[47],.lcode,false,[(6,1)],false⟩,false,false,[some (35,(.other,false))],none,none,none,false,false,false,none,false,⟨.lcode,none,false,.lblank⟩⟩] .leaf) 307603329 [⟨⟨.code,[45],.lcode,false,[(5,0)],false⟩,false,false,[some (42,(.other,false))],none,none,none,false,false,false,none,false,⟨.lcode,none,false,.lblank⟩⟩] .leaf)) 307615618 [⟨⟨.code,[45],.lcode,false,[(5,1)],false⟩,false,false,[some (42,(.other,false))],none,none,none,false,false,false,none,false,⟨.lcode,none,false,.lblank⟩⟩] (.node (.node (.node .leaf 307689352 [⟨⟨.code,[45],.lcode,false,[(6,0)],false⟩,false,false,[some (42,(.other,false))],none,none,none,false,false,false,none,false,⟨.lcode,none,false,.lblank⟩⟩] .leaf) 307701641 [⟨⟨.code,[45],.lcode,false,[(6,1)],false⟩,false,false,[some (42,(.other,false))],none,none,none,false,false,false,none,false,⟨.lcode,none,false,.lblank⟩⟩] (.node .leaf 311348488 [⟨⟨.code,[47],.lcode,false,[(6,0)],false⟩,false,false,[some (39,(.other,false))],none,none,none,false,false,false,none,false,⟨.lcode,none,false,.lblank⟩⟩] .leaf)) 311360777 [⟨⟨.code,[47],.lcode,false,[(6,1)],false⟩,false,false,[some (39,(.other,false))],none,none,none,false,false,false,none,false,⟨.lcode,none,false,.lblank⟩⟩] (.node (.node .leaf 317603359 [⟨⟨.code,[45],.lcode,false,[(5,0)],false⟩,false,false,[some (47,(.other,false))],none,none,none,false,false,false,none,false,⟨.lcode,none,false,.lblank⟩⟩] .leaf) 317615648 [⟨⟨.code,[45],.lcode,false,[(5,1)],false⟩,false,false,[some (47,(.other,false))],none,none,none,false,false,false,none,false,⟨.lcode,none,false,.lblank⟩⟩] .leaf))) 317689382 [⟨⟨.code,[45],.lcode,false,[(6,0)],false⟩,false,false,[some (47,(.other,false))],none,none,none,false,false,false,none,false,⟨.lcode,none,false,.lblank⟩⟩] (.node (.node (.node (.node .leaf 317701671 [⟨⟨.code,[45],.lcode,false,[(6,1)],false⟩,false,false,[some (47,(.other,false))],none,none,none,false,false,false,none,false,⟨.lcode,none,false,.lblank⟩⟩] .leaf) 323262501 [⟨⟨.code,[47],.lcode,false,[(5,0)],false⟩,false,false,[some (45,(.other,false))],none,none,none,false,false,false,none,false,⟨.lcode,none,false,.lblank⟩⟩] (.node .leaf 323274790 [⟨⟨.code,[47],.lcode,false,[(5,1)],false⟩,false,false,[some (45,(.other,false))],none,none,none,false,false,false,none,false,⟨.lcode,none,false,.lblank⟩⟩] .leaf)) 323348524 [⟨⟨.code,[47],.lcode,false,[(6,0)],false⟩,false,false,[some (45,(.other,false))],none,none,none,false,false,false,none,false,⟨.lcode,none,false,.lblank⟩⟩] (.node (.node .leaf 323360813 [⟨⟨.code,[47],.lcode,false,[(6,1)],false⟩,false,false,[some (45,(.other,false))],none,none,none,false,false,false,none,false,⟨.lcode,none,false,.lblank⟩⟩] .leaf) 407603629 [⟨⟨.code,[45],.lcode,false,[(5,0)],false⟩,false,false,[some (92,(.other,false))],none,none,none,false,false,false,none,false,⟨.lcode,none,false,.lblank⟩⟩] .leaf)) 407615918 [⟨⟨.code,[45],.lcode,false,[(5,1)],false⟩,false,false,[some (92,(.other,false))],none,none,none,false,false,false,none,false,⟨.lcode,none,false,.lblank⟩⟩] (.node (.node (.node .leaf 407689652 [⟨⟨.code,[45],.lcode,false,[(6,0)],false⟩,false,false,[some (92,(.other,false))],none,none,none,false,false,false,none,false,⟨.lcode,none,false,.lblank⟩⟩] .leaf) 407701941 [⟨⟨.code,[45],.lcode,false,[(6,1)],false⟩,false,false,[some (92,(.other,false))],none,none,none,false,false,false,none,false,⟨.lcode,none,false,.lblank⟩⟩] (.node .leaf 417262783 [⟨⟨.code,[47],.lcode,false,[(5,0)],false⟩,false,false,[some (92,(.other,false))],none,none,none,false,false,false,none,false,⟨.lcode,none,false,.lblank⟩⟩] .leaf)) 417275072 [⟨⟨.code,[47],.lcode,false,[(5,1)],false⟩,false,false,[some (92,(.other,false))],none,none,none,false,false,false,none,false,⟨.lcode,none,false,.lblank⟩⟩] (.node (.node .leaf 417348806 [⟨⟨.code,[47],.lcode,false,[(6,0)],false⟩,false,false,[some (92,(.other,false))],none,none,none,false,false,false,none,false,⟨.lcode,none,false,.lblank⟩⟩] .leaf) 417361095 [⟨⟨.code,[47],.lcode,false,[(6,1)],false⟩,false,false,[some (92,(.other,false))],none,none,none,false,false,false,none,false,⟨.lcode,none,false,.lblank⟩⟩] .leaf))))))) 469603815 [⟨⟨.code,[45],.lcode,false,[(5,0)],false⟩,false,false,[some (123,(.other,false))],none,none,none,false,false,false,none,false,⟨.lcode,none,false,.lblank⟩⟩] (.node (.node (.node (.node (.node (.node (.node (.node .leaf 469616104 [⟨⟨.code,[45],.lcode,false,[(5,1)],false⟩,false,false,[some (123,(.other,false))],none,none,none,false,false,false,none,false,⟨.lcode,none,false,.lblank⟩⟩] .leaf) 469689838 [⟨⟨.code,[45],.lcode,false,[(6,0)],false⟩,false,false,[some (123,(.other,false))],none,none,none,false,false,false,none,false,⟨.lcode,none,false,.lblank⟩⟩] (.node .leaf 469702127 [⟨⟨.code,[45],.lcode,false,[(6,1)],false⟩,false,false,[some (123,(.other,false))],none,none,none,false,false,false,none,false,⟨.lcode,none,false,.lblank⟩⟩] .leaf)) 473603827 [⟨⟨.code,[45],.lcode,false,[(5,0)],false⟩,false,false,[some (125,(.other,false))],none,none,none,false,false,false,none,false,⟨.lcode,none,false,.lblank⟩⟩] (.node (.node .leaf 473616116 [⟨⟨.code,[45],.lcode,false,[(5,1)],false⟩,false,false,[some (125,(.other,false))],none,none,none,false,false,false,none,false,⟨.lcode,none,false,.lblank⟩⟩] .leaf) 473689850 [⟨⟨.code,[45],.lcode,false,[(6,0)],false⟩,false,false,[some (125,(.other,false))],none,none,none,false,false,false,none,false,⟨.lcode,none,false,.lblank⟩⟩] (.node .leaf 473702139 [⟨⟨.code,[45],.lcode,false,[(6,1)],false⟩,false,false,[some (125,(.other,false))],none,none,none,false,false,false,none,false,⟨.lcode,none,false,.lblank⟩⟩] .leaf))) 479262969 [⟨⟨.code,[47],.lcode,false,[(5,0)],false⟩,false,false,[some (123,(.other,false))],none,none,none,false,false,false,none,false,⟨.lcode,none,false,.lblank⟩⟩] (.node (.node (.node .leaf 479275258 [⟨⟨.code,[47],.lcode,false,[(5,1)],false⟩,false,false,[some (123,(.other,false))],none,none,none,false,false,false,none,false,⟨.lcode,none,false,.lblank⟩⟩] .leaf) 479348992 [⟨⟨.code,[47],.lcode,false,[(6,0)],false⟩,false,false,[some (123,(.other,false))],none,none,none,false,false,false,none,false,⟨.lcode,none,false,.lblank⟩⟩] (.node .leaf 479361281 [⟨⟨.code,[47],.lcode,false,[(6,1)],false⟩,false,false,[some (123,(.other,false))],none,none,none,false,false,false,none,false,⟨.lcode,none,false,.lblank⟩⟩] .leaf)) 483262981 [⟨⟨.code,[47],.lcode,false,[(5,0)],false⟩,false,false,[some (125,(.other,false))],none,none,none,false,false,false,none,false,⟨.lcode,none,false,.lblank⟩⟩] (.node (.node .leaf 483275270 [⟨⟨.code,[47],.lcode,false,[(5,1)],false⟩,false,false,[some (125,(.other,false))],none,none,none,false,false,false,none,false,⟨.lcode,none,false,.lblank⟩⟩] .leaf) 483349004 [⟨⟨.code,[47],.lcode,false,[(6,0)],false⟩,false,false,[some (125,(.other,false))],none,none,none,false,false,false,none,false,⟨.lcode,none,false,.lblank⟩⟩] .leaf))) 483361293 [⟨⟨.code,[47],.lcode,false,[(6,1)],false⟩,false,false,[some (125,(.other,false))],none,none,none,false,false,false,none,false,⟨.lcode,none,false,.lblank⟩⟩] (.node (.node (.node (.node .leaf 514697549 [⟨⟨.code,[45],.lcode,false,[],false⟩,false,false,[some (256,(.other,false))],none,none,none,false,false,false,none,false,⟨.lcode,none,false,.lblank⟩⟩] .leaf) 514771283 [⟨⟨.code,[47],.lcode,false,[],false⟩,false,false,[some (256,(.other,false))],none,none,none,false,false,false,none,false,⟨.lcode,none,false,.lblank⟩⟩] (.node .leaf 534015857 [⟨⟨.code,[45],.lcomment,false,[],false⟩,false,false,[some (256,(.other,false))],none,none,none,false,false,false,none,false,⟨.lcode,none,false,.lblank⟩⟩] .leaf)) 534089591 [⟨⟨.code,[47],.lcomment,false,[],false⟩,false,false,[some (256,(.other,false))],none,none,none,false,false,false,none,false,⟨.lcode,none,false,.lblank⟩⟩] (.node (.node .leaf 541355156 [⟨⟨(.inside 1),[],.lcode,false,[(5,0)],false⟩,false,false,[none],none,none,none,false,false,false,none,false,⟨.lcode,none,false,.lblank⟩⟩] .leaf) 541367445 [⟨⟨(.inside 1),[],.lcode,false,[(5,1)],false⟩,false,false,[none],none,none,none,false,false,false,none,false,⟨.lcode,none,false,.lblank⟩⟩] .leaf)) 541441179 [⟨⟨(.inside 1),[],.lcode,false,[(6,0)],false⟩,false,false,[none],none,none,none,false,false,false,none,false,⟨.lcode,none,false,.lblank⟩⟩] (.node (.node (.node .leaf 541453468 [⟨⟨(.inside 1),[],.lcode,false,[(6,1)],false⟩,false,false,[none],none,none,none,false,false,false,none,false,⟨.lcode,none,false,.lblank⟩⟩] .leaf) 553334165 [⟨⟨.code,[45],.lblank,false,[],false⟩,false,false,[some (256,(.other,false))],none,none,none,false,false,false,none,false,⟨.lcode,none,false,.lblank⟩⟩] (.node .leaf 553407899 [⟨⟨.code,[47],.lblank,false,[],false⟩,false,false,[some (256,(.other,false))],none,none,none,false,false,false,none,false,⟨.lcode,none,false,.lblank⟩⟩] .leaf)) 562355219 [⟨⟨(.inside 1),[],.lcode,false,[(5,0)],false⟩,false,false,[some (10,(.lf,false))],none,none,none,false,false,false,none,false,⟨.lcode,none,false,.lblank⟩⟩] (.node (.node .leaf 562367508 [⟨⟨(.inside 1),[],.lcode,false,[(5,1)],false⟩,false,false,[some (10,(.lf,false))],none,none,none,false,false,false,none,false,⟨.lcode,none,false,.lblank⟩⟩] .leaf) 562441242 [⟨⟨(.inside 1),[],.lcode,false,[(6,0)],false⟩,false,false,[some (10,(.lf,false))],none,none,none,false,false,false,none,false,⟨.lcode,none,false,.lblank⟩⟩] .leaf)))) 562453531 [⟨⟨(.inside 1),[],.lcode,false,[(6,1)],false⟩,false,false,[some (10,(.lf,false))],none,none,none,false,false,false,none,false,⟨.lcode,none,false,.lblank⟩⟩] (.node (.node (.node (.node (.node .leaf 566355231 [⟨⟨(.inside 1),[],.lcode,false,[(5,0)],false⟩,false,false,[some (12,(.ff,false))],none,none,none,false,false,false,none,false,⟨.lcode,none,false,.lblank⟩⟩] .leaf) 566367520 [⟨⟨(.inside 1),[],.lcode,false,[(5,1)],false⟩,false,false,[some (12,(.ff,false))],none,none,none,false,false,false,none,false,⟨.lcode,none,false,.lblank⟩⟩] (.node .leaf 566441254 [⟨⟨(.inside 1),[],.lcode,false,[(6,0)],false⟩,false,false,[some (12,(.ff,false))],none,none,none,false,false,false,none,false,⟨.lcode,none,false,.lblank⟩⟩] .leaf)) 566453543 [⟨⟨(.inside 1),[],.lcode,false,[(6,1)],false⟩,false,false,[some (12,(.ff,false))],none,none,none,false,false,false,none,false,⟨.lcode,none,false,.lblank⟩⟩] (.node (.node .leaf 568355237 [⟨⟨(.inside 1),[],.lcode,false,[(5,0)],false⟩,false,false,[some (13,(.cr,false))],none,none,none,false,false,false,none,false,⟨.lcode,none,false,.lblank⟩⟩] .leaf) 568367526 [⟨⟨(.inside 1),[],.lcode,false,[(5,1)],false⟩,false,false,[some (13,(.cr,false))],none,none,none,false,false,false,none,false,⟨.lcode,none,false,.lblank⟩⟩] (.node .leaf 568441260 [⟨⟨(.inside 1),[],.lcode,false,[(6,0)],false⟩,false,false,[some (13,(.cr,false))],none,none,none,false,false,false,none,false,⟨.lcode,none,false,.lblank⟩⟩] .leaf))) 568453549 [⟨⟨(.inside 1),[],.lcode,false,[(6,1)],false⟩,false,false,[some (13,(.cr,false))],none,none,none,false,false,false,none,false,⟨.lcode,none,false,.lblank⟩⟩] (.node (.node (.node .leaf 569355240 [⟨⟨(.inside 1),[],.lcode,false,[(5,0)],false⟩,false,false,[some (13,(.cr,true))],none,none,none,false,false,false,none,false,⟨.lcode,none,false,.lblank⟩⟩] .leaf) 569367529 [⟨⟨(.inside 1),[],.lcode,false,[(5,1)],false⟩,false,false,[some (13,(.cr,true))],none,none,none,false,false,false,none,false,⟨.lcode,none,false,.lblank⟩⟩] (.node .leaf 569441263 [⟨⟨(.inside 1),[],.lcode,false,[(6,0)],false⟩,false,false,[some (13,(.cr,true))],none,none,none,false,false,false,none,false,⟨.lcode,none,false,.lblank⟩⟩] .leaf)) 569453552 [⟨⟨(.inside 1),[],.lcode,false,[(6,1)],false⟩,false,false,[some (13,(.cr,true))],none,none,none,false,false,false,none,false,⟨.lcode,none,false,.lblank⟩⟩] (.node (.node .leaf 735604613 [⟨⟨.code,[45],.lcode,false,[(5,0)],false⟩,false,false,[some (256,(.other,false))],none,none,none,false,false,false,none,false,⟨.lcode,none,false,.lblank⟩⟩] .leaf) 735616902 [⟨⟨.code,[45],.lcode,false,[(5,1)],false⟩,false,false,[some (256,(.other,false))],none,none,none,false,false,false,none,false,⟨.lcode,none,false,.lblank⟩⟩] .leaf))) 735690636 [⟨⟨.code,[45],.lcode,false,[(6,0)],false⟩,false,false,[some (256,(.other,false))],none,none,none,false,false,false,none,false,⟨.lcode,none,false,.lblank⟩⟩] (.node (.node (.node (.node .leaf 735702925 [⟨⟨.code,[45],.lcode,false,[(6,1)],false⟩,false,false,[some (256,(.other,false))],none,none,none,false,false,false,none,false,⟨.lcode,none,false,.lblank⟩⟩] .leaf) 745263767 [⟨⟨.code,[47],.lcode,false,[(5,0)],false⟩,false,false,[some (256,(.other,false))],none,none,none,false,false,false,none,false,⟨.lcode,none,false,.lblank⟩⟩] (.node .leaf 745276056 [⟨⟨.code,[47],.lcode,false,[(5,1)],false⟩,false,false,[some (256,(.other,false))],none,none,none,false,false,false,none,false,⟨.lcode,none,false,.lblank⟩⟩] .leaf)) 745349790 [⟨⟨.code,[47],.lcode,false,[(6,0)],false⟩,false,false,[some (256,(.other,false))],none,none,none,false,false,false,none,false,⟨.lcode,none,false,.lblank⟩⟩] (.node (.node .leaf 745362079 [⟨⟨.code,[47],.lcode,false,[(6,1)],false⟩,false,false,[some (256,(.other,false))],none,none,none,false,false,false,none,false,⟨.lcode,none,false,.lblank⟩⟩] .leaf) 927721316 [⟨⟨(.inside 2),[],.lcode,false,[(5,0)],false⟩,false,false,[none],none,none,none,false,false,false,none,false,⟨.lcode,none,false,.lblank⟩⟩] .leaf)) 927733605 [⟨⟨(.inside 2),[],.lcode,false,[(5,1)],false⟩,false,false,[none],none,none,none,false,false,false,none,false,⟨.lcode,none,false,.lblank⟩⟩] (.node (.node (.node .leaf 927807339 [⟨⟨(.inside 2),[],.lcode,false,[(6,0)],false⟩,false,false,[none],none,none,none,false,false,false,none,false,⟨.lcode,none,false,.lblank⟩⟩] .leaf) 927819628 [⟨⟨(.inside 2),[],.lcode,false,[(6,1)],false⟩,false,false,[none],none,none,none,false,false,false,none,false,⟨.lcode,none,false,.lblank⟩⟩] (.node .leaf 948721379 [⟨⟨(.inside 2),[],.lcode,false,[(5,0)],false⟩,false,false,[some (10,(.lf,false))],none,none,none,false,false,false,none,false,⟨.lcode,none,false,.lblank⟩⟩] .leaf)) 948733668 [⟨⟨(.inside 2),[],.lcode,false,[(5,1)],false⟩,false,false,[some (10,(.lf,false))],none,none,none,false,false,false,none,false,⟨.lcode,none,false,.lblank⟩⟩] (.node (.node .leaf 948807402 [⟨⟨(.inside 2),[],.lcode,false,[(6,0)],false⟩,false,false,[some (10,(.lf,false))],none,none,none,false,false,false,none,false,⟨.lcode,none,false,.lblank⟩⟩] .leaf) 948819691 [⟨⟨(.inside 2),[],.lcode,false,[(6,1)],false⟩,false,false,[some (10,(.lf,false))],none,none,none,false,false,false,none,false,⟨.lcode,none,false,.lblank⟩⟩] .leaf))))) 952721391 [⟨⟨(.inside 2),[],.lcode,false,[(5,0)],false⟩,false,false,[some (12,(.ff,false))],none,none,none,false,false,false,none,false,⟨.lcode,none,false,.lblank⟩⟩] (.node (.node (.node (.node (.node (.node .leaf 952733680 [⟨⟨(.inside 2),[],.lcode,false,[(5,1)],false⟩,false,false,[some (12,(.ff,false))],none,none,none,false,false,false,none,false,⟨.lcode,none,false,.lblank⟩⟩] .leaf) 952807414 [⟨⟨(.inside 2),[],.lcode,false,[(6,0)],false⟩,false,false,[some (12,(.ff,false))],none,none,none,false,false,false,none,false,⟨.lcode,none,false,.lblank⟩⟩] (.node .leaf 952819703 [⟨⟨(.inside 2),[],.lcode,false,[(6,1)],false⟩,false,false,[some (12,(.ff,false))],none,none,none,false,false,false,none,false,⟨.lcode,none,false,.lblank⟩⟩] .leaf)) 954721397 [⟨⟨(.inside 2),[],.lcode,false,[(5,0)],false⟩,false,false,[some (13,(.cr,false))],none,none,none,false,false,false,none,false,⟨.lcode,none,false,.lblank⟩⟩] (.node (.node .leaf 954733686 [⟨⟨(.inside 2),[],.lcode,false,[(5,1)],false⟩,false,false,[some (13,(.cr,false))],none,none,none,false,false,false,none,false,⟨.lcode,none,false,.lblank⟩⟩] .leaf) 954807420 [⟨⟨(.inside 2),[],.lcode,false,[(6,0)],false⟩,false,false,[some (13,(.cr,false))],none,none,none,false,false,false,none,false,⟨.lcode,none,false,.lblank⟩⟩] (.node .leaf 954819709 [⟨⟨(.inside 2),[],.lcode,false,[(6,1)],false⟩,false,false,[some (13,(.cr,false))],none,none,none,false,false,false,none,false,⟨.lcode,none,false,.lblank⟩⟩] .leaf))) 955721400 [⟨⟨(.inside 2),[],.lcode,false,[(5,0)],false⟩,false,false,[some (13,(.cr,true))],none,none,none,false,false,false,none,false,⟨.lcode,none,false,.lblank⟩⟩] (.node (.node (.node .leaf 955733689 [⟨⟨(.inside 2),[],.lcode,false,[(5,1)],false⟩,false,false,[some (13,(.cr,true))],none,none,none,false,false,false,none,false,⟨.lcode,none,false,.lblank⟩⟩] .leaf) 955807423 [⟨⟨(.inside 2),[],.lcode,false,[(6,0)],false⟩,false,false,[some (13,(.cr,true))],none,none,none,false,false,false,none,false,⟨.lcode,none,false,.lblank⟩⟩] (.node .leaf 955819712 [⟨⟨(.inside 2),[],.lcode,false,[(6,1)],false⟩,false,false,[some (13,(.cr,true))],none,none,none,false,false,false,none,false,⟨.lcode,none,false,.lblank⟩⟩] .leaf)) 20304070263 [⟨⟨(.inside 0),[],.lcode,false,[(5,0),(6,0)],false⟩,false,false,[none],none,none,none,false,false,false,none,false,⟨.lcode,none,false,.lblank⟩⟩] (.node (.node .leaf 20305692411 [⟨⟨(.inside 0),[],.lcode,false,[(5,1),(6,1)],false⟩,false,false,[none],none,none,none,false,false,false,none,false,⟨.lcode,none,false,.lblank⟩⟩] .leaf) 20315253253 [⟨⟨(.inside 0),[],.lcode,false,[(6,0),(5,0)],false⟩,false,false,[none],none,none,none,false,false,false,none,false,⟨.lcode,none,false,.lblank⟩⟩] .leaf))) 20316875401 [⟨⟨(.inside 0),[],.lcode,false,[(6,1),(5,1)],false⟩,false,false,[none],none,none,none,false,false,false,none,false,⟨.lcode,none,false,.lblank⟩⟩] (.node (.node (.node (.node .leaf 20325070326 [⟨⟨(.inside 0),[],.lcode,false,[(5,0),(6,0)],false⟩,false,false,[some (10,(.lf,false))],none,none,none,false,false,false,none,false,⟨.lcode,none,false,.lblank⟩⟩] .leaf) 20326692474 [⟨⟨(.inside 0),[],.lcode,false,[(5,1),(6,1)],false⟩,false,false,[some (10,(.lf,false))],none,none,none,false,false,false,none,false,⟨.lcode,none,false,.lblank⟩⟩] (.node .leaf 20329070338 [⟨⟨(.inside 0),[],.lcode,false,[(5,0),(6,0)],false⟩,false,false,[some (12,(.ff,false))],none,none,none,false,false,false,none,false,⟨.lcode,none,false,.lblank⟩⟩] .leaf)) 20330692486 [⟨⟨(.inside 0),[],.lcode,false,[(5,1),(6,1)],false⟩,false,false,[some (12,(.ff,false))],none,none,none,false,false,false,none,false,⟨.lcode,none,false,.lblank⟩⟩] (.node (.node .leaf 20331070344 [⟨⟨(.inside 0),[],.lcode,false,[(5,0),(6,0)],false⟩,false,false,[some (13,(.cr,false))],none,none,none,false,false,false,none,false,⟨.lcode,none,false,.lblank⟩⟩] .leaf) 20332070347 [⟨⟨(.inside 0),[],.lcode,false,[(5,0),(6,0)],false⟩,false,false,[some (13,(.cr,true))],none,none,none,false,false,false,none,false,⟨.lcode,none,false,.lblank⟩⟩] .leaf)) 20332692492 [⟨⟨(.inside 0),[],.lcode,false,[(5,1),(6,1)],false⟩,false,false,[some (13,(.cr,false))],none,none,none,false,false,false,none,false,⟨.lcode,none,false,.lblank⟩⟩] (.node (.node (.node .leaf 20333692495 [⟨⟨(.inside 0),[],.lcode,false,[(5,1),(6,1)],false⟩,false,false,[some (13,(.cr,true))],none,none,none,false,false,false,none,false,⟨.lcode,none,false,.lblank⟩⟩] .leaf) 20336253316 [⟨⟨(.inside 0),[],.lcode,false,[(6,0),(5,0)],false⟩,false,false,[some (10,(.lf,false))],none,none,none,false,false,false,none,false,⟨.lcode,none,false,.lblank⟩⟩] (.node .leaf 20337875464 [⟨⟨(.inside 0),[],.lcode,false,[(6,1),(5,1)],false⟩,false,false,[some (10,(.lf,false))],none,none,none,false,false,false,none,false,⟨.lcode,none,false,.lblank⟩⟩] .leaf)) 20340253328 [⟨⟨(.inside 0),[],.lcode,false,[(6,0),(5,0)],false⟩,false,false,[some (12,(.ff,false))],none,none,none,false,false,false,none,false,⟨.lcode,none,false,.lblank⟩⟩] (.node (.node .leaf 20341875476 [⟨⟨(.inside 0),[],.lcode,false,[(6,1),(5,1)],false⟩,false,false,[some (12,(.ff,false))],none,none,none,false,false,false,none,false,⟨.lcode,none,false,.lblank⟩⟩] .leaf) 20342253334 [⟨⟨(.inside 0),[],.lcode,false,[(6,0),(5,0)],false⟩,false,false,[some (13,(.cr,false))],none,none,none,false,false,false,none,false,⟨.lcode,none,false,.lblank⟩⟩] .leaf)))) 20343253337 [⟨⟨(.inside 0),[],.lcode,false,[(6,0),(5,0)],false⟩,false,false,[some (13,(.cr,true))],none,none,none,false,false,false,none,false,⟨.lcode,none,false,.lblank⟩⟩] (.node (.node (.node (.node (.node .leaf 20343875482 [⟨⟨(.inside 0),[],.lcode,false,[(6,1),(5,1)],false⟩,false,false,[some (13,(.cr,false))],none,none,none,false,false,false,none,false,⟨.lcode,none,false,.lblank⟩⟩] .leaf) 20344875485 [⟨⟨(.inside 0),[],.lcode,false,[(6,1),(5,1)],false⟩,false,false,[some (13,(.cr,true))],none,none,none,false,false,false,none,false,⟨.lcode,none,false,.lblank⟩⟩] (.node .leaf 29161514481 [⟨⟨.code,[45],.lcode,false,[(5,0),(6,0)],false⟩,false,false,[none],none,none,none,false,false,false,none,false,⟨.lcode,none,false,.lblank⟩⟩] .leaf)) 29163136629 [⟨⟨.code,[45],.lcode,false,[(5,1),(6,1)],false⟩,false,false,[none],none,none,none,false,false,false,none,false,⟨.lcode,none,false,.lblank⟩⟩] (.node (.node .leaf 29172697471 [⟨⟨.code,[45],.lcode,false,[(6,0),(5,0)],false⟩,false,false,[none],none,none,none,false,false,false,none,false,⟨.lcode,none,false,.lblank⟩⟩] .leaf) 29174319619 [⟨⟨.code,[45],.lcode,false,[(6,1),(5,1)],false⟩,false,false,[none],none,none,none,false,false,false,none,false,⟨.lcode,none,false,.lblank⟩⟩] .leaf)) 29180514538 [⟨⟨.code,[45],.lcode,false,[(5,0),(6,0)],false⟩,false,false,[some (9,(.ws,false))],none,none,none,false,false,false,none,false,⟨.lcode,none,false,.lblank⟩⟩] (.node (.node (.node .leaf 29182136686 [⟨⟨.code,[45],.lcode,false,[(5,1),(6,1)],false⟩,false,false,[some (9,(.ws,false))],none,none,none,false,false,false,none,false,⟨.lcode,none,false,.lblank⟩⟩] .leaf) 29182514544 [⟨⟨.code,[45],.lcode,false,[(5,0),(6,0)],false⟩,false,false,[some (10,(.lf,false))],none,none,none,false,false,false,none,false,⟨.lcode,none,false,.lblank⟩⟩] (.node .leaf 29184136692 [⟨⟨.code,[45],.lcode,false,[(5,1),(6,1)],false⟩,false,false,[some (10,(.lf,false))],none,none,none,false,false,false,none,false,⟨.lcode,none,false,.lblank⟩⟩] .leaf)) 29186514556 [⟨⟨.code,[45],.lcode,false,[(5,0),(6,0)],false⟩,false,false,[some (12,(.ff,false))],none,none,none,false,false,false,none,false,⟨.lcode,none,false,.lblank⟩⟩] (.node (.node .leaf 29188136704 [⟨⟨.code,[45],.lcode,false,[(5,1),(6,1)],false⟩,false,false,[some (12,(.ff,false))],none,none,none,false,false,false,none,false,⟨.lcode,none,false,.lblank⟩⟩] .leaf) 29188514562 [⟨⟨.code,[45],.lcode,false,[(5,0),(6,0)],false⟩,false,false,[some (13,(.cr,false))],none,none,none,false,false,false,none,false,⟨.lcode,none,false,.lblank⟩⟩] .leaf))) 29189514565 [⟨⟨.code,[45],.lcode,false,[(5,0),(6,0)],false⟩,false,false,[some (13,(.cr,true))],none,none,none,false,false,false,none,false,⟨.lcode,none,false,.lblank⟩⟩] (.node (.node (.node (.node .leaf 29190136710 [⟨⟨.code,[45],.lcode,false,[(5,1),(6,1)],false⟩,false,false,[some (13,(.cr,false))],none,none,none,false,false,false,none,false,⟨.lcode,none,false,.lblank⟩⟩] .leaf) 29191136713 [⟨⟨.code,[45],.lcode,false,[(5,1),(6,1)],false⟩,false,false,[some (13,(.cr,true))],none,none,none,false,false,false,none,false,⟨.lcode,none,false,.lblank⟩⟩] (.node .leaf 29191697528 [⟨⟨.code,[45],.lcode,false,[(6,0),(5,0)],false⟩,false,false,[some (9,(.ws,false))],none,none,none,false,false,false,none,false,⟨.lcode,none,false,.lblank⟩⟩] .leaf)) 29193319676 [⟨⟨.code,[45],.lcode,false,[(6,1),(5,1)],false⟩,false,false,[some (9,(.ws,false))],none,none,none,false,false,false,none,false,⟨.lcode,none,false,.lblank⟩⟩] (.node (.node .leaf 29193697534 [⟨⟨.code,[45],.lcode,false,[(6,0),(5,0)],false⟩,false,false,[some (10,(.lf,false))],none,none,none,false,false,false,none,false,⟨.lcode,none,false,.lblank⟩⟩] .leaf) 29195319682 [⟨⟨.code,[45],.lcode,false,[(6,1),(5,1)],false⟩,false,false,[some (10,(.lf,false))],none,none,none,false,false,false,none,false,⟨.lcode,none,false,.lblank⟩⟩] .leaf)) 29197697546 [⟨⟨.code,[45],.lcode,false,[(6,0),(5,0)],false⟩,false,false,[some (12,(.ff,false))],none,none,none,false,false,false,none,false,⟨.lcode,none,false,.lblank⟩⟩] (.node (.node (.node .leaf 29199319694 [⟨⟨.code,[45],.lcode,false,[(6,1),(5,1)],false⟩,false,false,[some (12,(.ff,false))],none,none,none,false,false,false,none,false,⟨.lcode,none,false,.lblank⟩⟩] .leaf) 29199697552 [⟨⟨.code,[45],.lcode,false,[(6,0),(5,0)],false⟩,false,false,[some (13,(.cr,false))],none,none,none,false,false,false,none,false,⟨.lcode,none,false,.lblank⟩⟩] (.node .leaf 29200697555 [⟨⟨.code,[45],.lcode,false,[(6,0),(5,0)],false⟩,false,false,[some (13,(.cr,true))],none,none,none,false,false,false,none,false,⟨.lcode,none,false,.lblank⟩⟩] .leaf)) 29201319700 [⟨⟨.code,[45],.lcode,false,[(6,1),(5,1)],false⟩,false,false,[some (13,(.cr,false))],none,none,none,false,false,false,none,false,⟨.lcode,none,false,.lblank⟩⟩] (.node (.node .leaf 29202319703 [⟨⟨.code,[45],.lcode,false,[(6,1),(5,1)],false⟩,false,false,[some (13,(.cr,true))],none,none,none,false,false,false,none,false,⟨.lcode,none,false,.lblank⟩⟩] .leaf) 29232514694 [⟨⟨.code,[45],.lcode,false,[(5,0),(6,0)],false⟩,false,false,[some (35,(.other,false))],none,none,none,false,false,false,none,false,⟨.lcode,none,false,.lblank⟩⟩] .leaf)))))) 29234136842 [⟨⟨.code,[45],.lcode,false,[(5,1),(6,1)],false⟩,false,false,[some (35,(.other,false))],none,none,none,false,false,false,none,false,⟨.lcode,none,false,.lblank⟩⟩] (.node (.node (.node (.node (.node (.node (.node .leaf 29243697684 [⟨⟨.code,[45],.lcode,false,[(6,0),(5,0)],false⟩,false,false,[some (35,(.other,false))],none,none,none,false,false,false,none,false,⟨.lcode,none,false,.lblank⟩⟩] .leaf) 29245319832 [⟨⟨.code,[45],.lcode,false,[(6,1),(5,1)],false⟩,false,false,[some (35,(.other,false))],none,none,none,false,false,false,none,false,⟨.lcode,none,false,.lblank⟩⟩] (.node .leaf 29246514736 [⟨⟨.code,[45],.lcode,false,[(5,0),(6,0)],false⟩,false,false,[some (42,(.other,false))],none,none,none,false,false,false,none,false,⟨.lcode,none,false,.lblank⟩⟩] .leaf)) 29248136884 [⟨⟨.code,[45],.lcode,false,[(5,1),(6,1)],false⟩,false,false,[some (42,(.other,false))],none,none,none,false,false,false,none,false,⟨.lcode,none,false,.lblank⟩⟩] (.node (.node .leaf 29256514766 [⟨⟨.code,[45],.lcode,false,[(5,0),(6,0)],false⟩,false,false,[some (47,(.other,false))],none,none,none,false,false,false,none,false,⟨.lcode,none,false,.lblank⟩⟩] .leaf) 29257697726 [⟨⟨.code,[45],.lcode,false,[(6,0),(5,0)],false⟩,false,false,[some (42,(.other,false))],none,none,none,false,false,false,none,false,⟨.lcode,none,false,.lblank⟩⟩] (.node .leaf 29258136914 [⟨⟨.code,[45],.lcode,false,[(5,1),(6,1)],false⟩,false,false,[some (47,(.other,false))],none,none,none,false,false,false,none,false,⟨.lcode,none,false,.lblank⟩⟩] .leaf))) 29259319874 [⟨⟨.code,[45],.lcode,false,[(6,1),(5,1)],false⟩,false,false,[some (42,(.other,false))],none,none,none,false,false,false,none,false,⟨.lcode,none,false,.lblank⟩⟩] (.node (.node (.node .leaf 29267697756 [⟨⟨.code,[45],.lcode,false,[(6,0),(5,0)],false⟩,false,false,[some (47,(.other,false))],none,none,none,false,false,false,none,false,⟨.lcode,none,false,.lblank⟩⟩] .leaf) 29269319904 [⟨⟨.code,[45],.lcode,false,[(6,1),(5,1)],false⟩,false,false,[some (47,(.other,false))],none,none,none,false,false,false,none,false,⟨.lcode,none,false,.lblank⟩⟩] (.node .leaf 29346515036 [⟨⟨.code,[45],.lcode,false,[(5,0),(6,0)],false⟩,false,false,[some (92,(.other,false))],none,none,none,false,false,false,none,false,⟨.lcode,none,false,.lblank⟩⟩] .leaf)) 29348137184 [⟨⟨.code,[45],.lcode,false,[(5,1),(6,1)],false⟩,false,false,[some (92,(.other,false))],none,none,none,false,false,false,none,false,⟨.lcode,none,false,.lblank⟩⟩] (.node (.node .leaf 29357698026 [⟨⟨.code,[45],.lcode,false,[(6,0),(5,0)],false⟩,false,false,[some (92,(.other,false))],none,none,none,false,false,false,none,false,⟨.lcode,none,false,.lblank⟩⟩] .leaf) 29359320174 [⟨⟨.code,[45],.lcode,false,[(6,1),(5,1)],false⟩,false,false,[some (92,(.other,false))],none,none,none,false,false,false,none,false,⟨.lcode,none,false,.lblank⟩⟩] .leaf))) 29408515222 [⟨⟨.code,[45],.lcode,false,[(5,0),(6,0)],false⟩,false,false,[some (123,(.other,false))],none,none,none,false,false,false,none,false,⟨.lcode,none,false,.lblank⟩⟩] (.node (.node (.node (.node .leaf 29410137370 [⟨⟨.code,[45],.lcode,false,[(5,1),(6,1)],false⟩,false,false,[some (123,(.other,false))],none,none,none,false,false,false,none,false,⟨.lcode,none,false,.lblank⟩⟩] .leaf) 29412515234 [⟨⟨.code,[45],.lcode,false,[(5,0),(6,0)],false⟩,false,false,[some (125,(.other,false))],none,none,none,false,false,false,none,false,⟨.lcode,none,false,.lblank⟩⟩] (.node .leaf 29414137382 [⟨⟨.code,[45],.lcode,false,[(5,1),(6,1)],false⟩,false,false,[some (125,(.other,false))],none,none,none,false,false,false,none,false,⟨.lcode,none,false,.lblank⟩⟩] .leaf)) 29419698212 [⟨⟨.code,[45],.lcode,false,[(6,0),(5,0)],false⟩,false,false,[some (123,(.other,false))],none,none,none,false,false,false,none,false,⟨.lcode,none,false,.lblank⟩⟩] (.node (.node .leaf 29421320360 [⟨⟨.code,[45],.lcode,false,[(6,1),(5,1)],false⟩,false,false,[some (123,(.other,false))],none,none,none,false,false,false,none,false,⟨.lcode,none,false,.lblank⟩⟩] .leaf) 29423698224 [⟨⟨.code,[45],.lcode,false,[(6,0),(5,0)],false⟩,false,false,[some (125,(.other,false))],none,none,none,false,false,false,none,false,⟨.lcode,none,false,.lblank⟩⟩] .leaf)) 29425320372 [⟨⟨.code,[45],.lcode,false,[(6,1),(5,1)],false⟩,false,false,[some (125,(.other,false))],none,none,none,false,false,false,none,false,⟨.lcode,none,false,.lblank⟩⟩] (.node (.node (.node .leaf 29674516020 [⟨⟨.code,[45],.lcode,false,[(5,0),(6,0)],false⟩,false,false,[some (256,(.other,false))],none,none,none,false,false,false,none,false,⟨.lcode,none,false,.lblank⟩⟩] .leaf) 29676138168 [⟨⟨.code,[45],.lcode,false,[(5,1),(6,1)],false⟩,false,false,[some (256,(.other,false))],none,none,none,false,false,false,none,false,⟨.lcode,none,false,.lblank⟩⟩] (.node .leaf 29685699010 [⟨⟨.code,[45],.lcode,false,[(6,0),(5,0)],false⟩,false,false,[some (256,(.other,false))],none,none,none,false,false,false,none,false,⟨.lcode,none,false,.lblank⟩⟩] .leaf)) 29687321158 [⟨⟨.code,[45],.lcode,false,[(6,1),(5,1)],false⟩,false,false,[some (256,(.other,false))],none,none,none,false,false,false,none,false,⟨.lcode,none,false,.lblank⟩⟩] (.node (.node .leaf 30426863655 [⟨⟨.code,[47],.lcode,false,[(5,0),(6,0)],false⟩,false,false,[none],none,none,none,false,false,false,none,false,⟨.lcode,none,false,.lblank⟩⟩] .leaf) 30428485803 [⟨⟨.code,[47],.lcode,false,[(5,1),(6,1)],false⟩,false,false,[none],none,none,none,false,false,false,none,false,⟨.lcode,none,false,.lblank⟩⟩] .leaf)))) 30438046645 [⟨⟨.code,[47],.lcode,false,[(6,0),(5,0)],false⟩,false,false,[none],none,none,none,false,false,false,none,false,⟨.lcode,none,false,.lblank⟩⟩] (.node (.node (.node (.node (.node .leaf 30439668793 [⟨⟨.code,[47],.lcode,false,[(6,1),(5,1)],false⟩,false,false,[none],none,none,none,false,false,false,none,false,⟨.lcode,none,false,.lblank⟩⟩] .leaf) 30445863712 [⟨⟨.code,[47],.lcode,false,[(5,0),(6,0)],false⟩,false,false,[some (9,(.ws,false))],none,none,none,false,false,false,none,false,⟨.lcode,none,false,.lblank⟩⟩] (.node .leaf 30447485860 [⟨⟨.code,[47],.lcode,false,[(5,1),(6,1)],false⟩,false,false,[some (9,(.ws,false))],none,none,none,false,false,false,none,false,⟨.lcode,none,false,.lblank⟩⟩] .leaf)) 30447863718 [⟨⟨.code,[47],.lcode,false,[(5,0),(6,0)],false⟩,false,false,[some (10,(.lf,false))],none,none,none,false,false,false,none,false,⟨.lcode,none,false,.lblank⟩⟩] (.node (.node .leaf 30449485866 [⟨⟨.code,[47],.lcode,false,[(5,1),(6,1)],false⟩,false,false,[some (10,(.lf,false))],none,none,none,false,false,false,none,false,⟨.lcode,none,false,.lblank⟩⟩] .leaf) 30451863730 [⟨⟨.code,[47],.lcode,false,[(5,0),(6,0)],false⟩,false,false,[some (12,(.ff,false))],none,none,none,false,false,false,none,false,⟨.lcode,none,false,.lblank⟩⟩] (.node .leaf 30453485878 [⟨⟨.code,[47],.lcode,false,[(5,1),(6,1)],false⟩,false,false,[some (12,(.ff,false))],none,none,none,false,false,false,none,false,⟨.lcode,none,false,.lblank⟩⟩] .leaf))) 30453863736 [⟨⟨.code,[47],.lcode,false,[(5,0),(6,0)],false⟩,false,false,[some (13,(.cr,false))],none,none,none,false,false,false,none,false,⟨.lcode,none,false,.lblank⟩⟩] (.node (.node (.node .leaf 30454863739 [⟨⟨.code,[47],.lcode,false,[(5,0),(6,0)],false⟩,false,false,[some (13,(.cr,true))],none,none,none,false,false,false,none,false,⟨.lcode,none,false,.lblank⟩⟩] .leaf) 30455485884 [⟨⟨.code,[47],.lcode,false,[(5,1),(6,1)],false⟩,false,false,[some (13,(.cr,false))],none,none,none,false,false,false,none,false,⟨.lcode,none,false,.lblank⟩⟩] (.node .leaf 30456485887 [⟨⟨.code,[47],.lcode,false,[(5,1),(6,1)],false⟩,false,false,[some (13,(.cr,true))],none,none,none,false,false,false,none,false,⟨.lcode,none,false,.lblank⟩⟩] .leaf)) 30457046702 [⟨⟨.code,[47],.lcode,false,[(6,0),(5,0)],false⟩,false,false,[some (9,(.ws,false))],none,none,none,false,false,false,none,false,⟨.lcode,none,false,.lblank⟩⟩] (.node (.node .leaf 30458668850 [⟨⟨.code,[47],.lcode,false,[(6,1),(5,1)],false⟩,false,false,[some (9,(.ws,false))],none,none,none,false,false,false,none,false,⟨.lcode,none,false,.lblank⟩⟩] .leaf) 30459046708 [⟨⟨.code,[47],.lcode,false,[(6,0),(5,0)],false⟩,false,false,[some (10,(.lf,false))],none,none,none,false,false,false,none,false,⟨.lcode,none,false,.lblank⟩⟩] .leaf))) 30460668856 [⟨⟨.code,[47],.lcode,false,[(6,1),(5,1)],false⟩,false,false,[some (10,(.lf,false))],none,none,none,false,false,false,none,false,⟨.lcode,none,false,.lblank⟩⟩] (.node (.node (.node (.node .leaf 30463046720 [⟨⟨.code,[47],.lcode,false,[(6,0),(5,0)],false⟩,false,false,[some (12,(.ff,false))],none,none,none,false,false,false,none,false,⟨.lcode,none,false,.lblank⟩⟩] .leaf) 30464668868 [⟨⟨.code,[47],.lcode,false,[(6,1),(5,1)],false⟩,false,false,[some (12,(.ff,false))],none,none,none,false,false,false,none,false,⟨.lcode,none,false,.lblank⟩⟩] (.node .leaf 30465046726 [⟨⟨.code,[47],.lcode,false,[(6,0),(5,0)],false⟩,false,false,[some (13,(.cr,false))],none,none,none,false,false,false,none,false,⟨.lcode,none,false,.lblank⟩⟩] .leaf)) 30466046729 [⟨⟨.code,[47],.lcode,false,[(6,0),(5,0)],false⟩,false,false,[some (13,(.cr,true))],none,none,none,false,false,false,none,false,⟨.lcode,none,false,.lblank⟩⟩] (.node (.node .leaf 30466668874 [⟨⟨.code,[47],.lcode,false,[(6,1),(5,1)],false⟩,false,false,[some (13,(.cr,false))],none,none,none,false,false,false,none,false,⟨.lcode,none,false,.lblank⟩⟩] .leaf) 30467668877 [⟨⟨.code,[47],.lcode,false,[(6,1),(5,1)],false⟩,false,false,[some (13,(.cr,true))],none,none,none,false,false,false,none,false,⟨.lcode,none,false,.lblank⟩⟩] .leaf)) 30497863868 [⟨⟨.code,[47],.lcode,false,[(5,0),(6,0)],false⟩,false,false,[some (35,(.other,false))],none,none,none,false,false,false,none,false,⟨.lcode,none,false,.lblank⟩⟩] (.node (.node (.node .leaf 30499486016 [⟨⟨.code,[47],.lcode,false,[(5,1),(6,1)],false⟩,false,false,[some (35,(.other,false))],none,none,none,false,false,false,none,false,⟨.lcode,none,false,.lblank⟩⟩] .leaf) 30509046858 [⟨⟨.code,[47],.lcode,false,[(6,0),(5,0)],false⟩,false,false,[some (35,(.other,false))],none,none,none,false,false,false,none,false,⟨.lcode,none,false,.lblank⟩⟩] (.node .leaf 30510669006 [⟨⟨.code,[47],.lcode,false,[(6,1),(5,1)],false⟩,false,false,[some (35,(.other,false))],none,none,none,false,false,false,none,false,⟨.lcode,none,false,.lblank⟩⟩] .leaf)) 30517863928 [⟨⟨.code,[47],.lcode,false,[(5,0),(6,0)],false⟩,false,false,[some (45,(.other,false))],none,none,none,false,false,false,none,false,⟨.lcode,none,false,.lblank⟩⟩] (.node (.node .leaf 30519486076 [⟨⟨.code,[47],.lcode,false,[(5,1),(6,1)],false⟩,false,false,[some (45,(.other,false))],none,none,none,false,false,false,none,false,⟨.lcode,none,false,.lblank⟩⟩] .leaf) 30529046918 [⟨⟨.code,[47],.lcode,false,[(6,0),(5,0)],false⟩,false,false,[some (45,(.other,false))],none,none,none,false,false,false,none,false,⟨.lcode,none,false,.lblank⟩⟩] .leaf))))) 30530669066 [⟨⟨.code,[47],.lcode,false,[(6,1),(5,1)],false⟩,false,false,[some (45,(.other,false))],none,none,none,false,false,false,none,false,⟨.lcode,none,false,.lblank⟩⟩] (.node (.node (.node (.node (.node (.node .leaf 30611864210 [⟨⟨.code,[47],.lcode,false,[(5,0),(6,0)],false⟩,false,false,[some (92,(.other,false))],none,none,none,false,false,false,none,false,⟨.lcode,none,false,.lblank⟩⟩] .leaf) 30613486358 [⟨⟨.code,[47],.lcode,false,[(5,1),(6,1)],false⟩,false,false,[some (92,(.other,false))],none,none,none,false,false,false,none,false,⟨.lcode,none,false,.lblank⟩⟩] (.node .leaf 30623047200 [⟨⟨.code,[47],.lcode,false,[(6,0),(5,0)],false⟩,false,false,[some (92,(.other,false))],none,none,none,false,false,false,none,false,⟨.lcode,none,false,.lblank⟩⟩] .leaf)) 30624669348 [⟨⟨.code,[47],.lcode,false,[(6,1),(5,1)],false⟩,false,false,[some (92,(.other,false))],none,none,none,false,false,false,none,false,⟨.lcode,none,false,.lblank⟩⟩] (.node (.node .leaf 30673864396 [⟨⟨.code,[47],.lcode,false,[(5,0),(6,0)],false⟩,false,false,[some (123,(.other,false))],none,none,none,false,false,false,none,false,⟨.lcode,none,false,.lblank⟩⟩] .leaf) 30675486544 [⟨⟨.code,[47],.lcode,false,[(5,1),(6,1)],false⟩,false,false,[some (123,(.other,false))],none,none,none,false,false,false,none,false,⟨.lcode,none,false,.lblank⟩⟩] (.node .leaf 30677864408 [⟨⟨.code,[47],.lcode,false,[(5,0),(6,0)],false⟩,false,false,[some (125,(.other,false))],none,none,none,false,false,false,none,false,⟨.lcode,none,false,.lblank⟩⟩] .leaf))) 30679486556 [⟨⟨.code,[47],.lcode,false,[(5,1),(6,1)],false⟩,false,false,[some (125,(.other,false))],none,none,none,false,false,false,none,false,⟨.lcode,none,false,.lblank⟩⟩] (.node (.node (.node .leaf 30685047386 [⟨⟨.code,[47],.lcode,false,[(6,0),(5,0)],false⟩,false,false,[some (123,(.other,false))],none,none,none,false,false,false,none,false,⟨.lcode,none,false,.lblank⟩⟩] .leaf) 30686669534 [⟨⟨.code,[47],.lcode,false,[(6,1),(5,1)],false⟩,false,false,[some (123,(.other,false))],none,none,none,false,false,false,none,false,⟨.lcode,none,false,.lblank⟩⟩] (.node .leaf 30689047398 [⟨⟨.code,[47],.lcode,false,[(6,0),(5,0)],false⟩,false,false,[some (125,(.other,false))],none,none,none,false,false,false,none,false,⟨.lcode,none,false,.lblank⟩⟩] .leaf)) 30690669546 [⟨⟨.code,[47],.lcode,false,[(6,1),(5,1)],false⟩,false,false,[some (125,(.other,false))],none,none,none,false,false,false,none,false,⟨.lcode,none,false,.lblank⟩⟩] (.node (.node .leaf 30939865194 [⟨⟨.code,[47],.lcode,false,[(5,0),(6,0)],false⟩,false,false,[some (256,(.other,false))],none,none,none,false,false,false,none,false,⟨.lcode,none,false,.lblank⟩⟩] .leaf) 30941487342 [⟨⟨.code,[47],.lcode,false,[(5,1),(6,1)],false⟩,false,false,[some (256,(.other,false))],none,none,none,false,false,false,none,false,⟨.lcode,none,false,.lblank⟩⟩] .leaf))) 30951048184 [⟨⟨.code,[47],.lcode,false,[(6,0),(5,0)],false⟩,false,false,[some (256,(.other,false))],none,none,none,false,false,false,none,false,⟨.lcode,none,false,.lblank⟩⟩] (.node (.node (.node (.node .leaf 30952670332 [⟨⟨.code,[47],.lcode,false,[(6,1),(5,1)],false⟩,false,false,[some (256,(.other,false))],none,none,none,false,false,false,none,false,⟨.lcode,none,false,.lblank⟩⟩] .leaf) 70918037223 [⟨⟨(.inside 1),[],.lcode,false,[(5,0),(6,0)],false⟩,false,false,[none],none,none,none,false,false,false,none,false,⟨.lcode,none,false,.lblank⟩⟩] (.node .leaf 70919659371 [⟨⟨(.inside 1),[],.lcode,false,[(5,1),(6,1)],false⟩,false,false,[none],none,none,none,false,false,false,none,false,⟨.lcode,none,false,.lblank⟩⟩] .leaf)) 70929220213 [⟨⟨(.inside 1),[],.lcode,false,[(6,0),(5,0)],false⟩,false,false,[none],none,none,none,false,false,false,none,false,⟨.lcode,none,false,.lblank⟩⟩] (.node (.node .leaf 70930842361 [⟨⟨(.inside 1),[],.lcode,false,[(6,1),(5,1)],false⟩,false,false,[none],none,none,none,false,false,false,none,false,⟨.lcode,none,false,.lblank⟩⟩] .leaf) 70939037286 [⟨⟨(.inside 1),[],.lcode,false,[(5,0),(6,0)],false⟩,false,false,[some (10,(.lf,false))],none,none,none,false,false,false,none,false,⟨.lcode,none,false,.lblank⟩⟩] .leaf)) 70940659434 [⟨⟨(.inside 1),[],.lcode,false,[(5,1),(6,1)],false⟩,false,false,[some (10,(.lf,false))],none,none,none,false,false,false,none,false,⟨.lcode,none,false,.lblank⟩⟩] (.node (.node (.node .leaf 70943037298 [⟨⟨(.inside 1),[],.lcode,false,[(5,0),(6,0)],false⟩,false,false,[some (12,(.ff,false))],none,none,none,false,false,false,none,false,⟨.lcode,none,false,.lblank⟩⟩] .leaf) 70944659446 [⟨⟨(.inside 1),[],.lcode,false,[(5,1),(6,1)],false⟩,false,false,[some (12,(.ff,false))],none,none,none,false,false,false,none,false,⟨.lcode,none,false,.lblank⟩⟩] (.node .leaf 70945037304 [⟨⟨(.inside 1),[],.lcode,false,[(5,0),(6,0)],false⟩,false,false,[some (13,(.cr,false))],none,none,none,false,false,false,none,false,⟨.lcode,none,false,.lblank⟩⟩] .leaf)) 70946037307 [⟨⟨(.inside 1),[],.lcode,false,[(5,0),(6,0)],false⟩,false,false,[some (13,(.cr,true))],none,none,none,false,false,false,none,false,⟨.lcode,none,false,.lblank⟩⟩] (.node (.node .leaf 70946659452 [⟨⟨(.inside 1),[],.lcode,false,[(5,1),(6,1)],false⟩,false,false,[some (13,(.cr,false))],none,none,none,false,false,false,none,false,⟨.lcode,none,false,.lblank⟩⟩] .leaf) 70947659455 [⟨⟨(.inside 1),[],.lcode,false,[(5,1),(6,1)],false⟩,false,false,[some (13,(.cr,true))],none,none,none,false,false,false,none,false,⟨.lcode,none,false,.lblank⟩⟩] .leaf)))) 70950220276 [⟨⟨(.inside 1),[],.lcode,false,[(6,0),(5,0)],false⟩,false,false,[some (10,(.lf,false))],none,none,none,false,false,false,none,false,⟨.lcode,none,false,.lblank⟩⟩] (.node (.node (.node (.node (.node .leaf 70951842424 [⟨⟨(.inside 1),[],.lcode,false,[(6,1),(5,1)],false⟩,false,false,[some (10,(.lf,false))],none,none,none,false,false,false,none,false,⟨.lcode,none,false,.lblank⟩⟩] .leaf) 70954220288 [⟨⟨(.inside 1),[],.lcode,false,[(6,0),(5,0)],false⟩,false,false,[some (12,(.ff,false))],none,none,none,false,false,false,none,false,⟨.lcode,none,false,.lblank⟩⟩] (.node .leaf 70955842436 [⟨⟨(.inside 1),[],.lcode,false,[(6,1),(5,1)],false⟩,false,false,[some (12,(.ff,false))],none,none,none,false,false,false,none,false,⟨.lcode,none,false,.lblank⟩⟩] .leaf)) 70956220294 [⟨⟨(.inside 1),[],.lcode,false,[(6,0),(5,0)],false⟩,false,false,[some (13,(.cr,false))],none,none,none,false,false,false,none,false,⟨.lcode,none,false,.lblank⟩⟩] (.node (.node .leaf 70957220297 [⟨⟨(.inside 1),[],.lcode,false,[(6,0),(5,0)],false⟩,false,false,[some (13,(.cr,true))],none,none,none,false,false,false,none,false,⟨.lcode,none,false,.lblank⟩⟩] .leaf) 70957842442 [⟨⟨(.inside 1),[],.lcode,false,[(6,1),(5,1)],false⟩,false,false,[some (13,(.cr,false))],none,none,none,false,false,false,none,false,⟨.lcode,none,false,.lblank⟩⟩] .leaf)) 70958842445 [⟨⟨(.inside 1),[],.lcode,false,[(6,1),(5,1)],false⟩,false,false,[some (13,(.cr,true))],none,none,none,false,false,false,none,false,⟨.lcode,none,false,.lblank⟩⟩] (.node (.node (.node .leaf 121532004183 [⟨⟨(.inside 2),[],.lcode,false,[(5,0),(6,0)],false⟩,false,false,[none],none,none,none,false,false,false,none,false,⟨.lcode,none,false,.lblank⟩⟩] .leaf) 121533626331 [⟨⟨(.inside 2),[],.lcode,false,[(5,1),(6,1)],false⟩,false,false,[none],none,none,none,false,false,false,none,false,⟨.lcode,none,false,.lblank⟩⟩] (.node .leaf 121543187173 [⟨⟨(.inside 2),[],.lcode,false,[(6,0),(5,0)],false⟩,false,false,[none],none,none,none,false,false,false,none,false,⟨.lcode,none,false,.lblank⟩⟩] .leaf)) 121544809321 [⟨⟨(.inside 2),[],.lcode,false,[(6,1),(5,1)],false⟩,false,false,[none],none,none,none,false,false,false,none,false,⟨.lcode,none,false,.lblank⟩⟩] (.node (.node .leaf 121553004246 [⟨⟨(.inside 2),[],.lcode,false,[(5,0),(6,0)],false⟩,false,false,[some (10,(.lf,false))],none,none,none,false,false,false,none,false,⟨.lcode,none,false,.lblank⟩⟩] .leaf) 121554626394 [⟨⟨(.inside 2),[],.lcode,false,[(5,1),(6,1)],false⟩,false,false,[some (10,(.lf,false))],none,none,none,false,false,false,none,false,⟨.lcode,none,false,.lblank⟩⟩] .leaf))) 121557004258 [⟨⟨(.inside 2),[],.lcode,false,[(5,0),(6,0)],false⟩,false,false,[some (12,(.ff,false))],none,none,none,false,false,false,none,false,⟨.lcode,none,false,.lblank⟩⟩] (.node (.node (.node (.node .leaf 121558626406 [⟨⟨(.inside 2),[],.lcode,false,[(5,1),(6,1)],false⟩,false,false,[some (12,(.ff,false))],none,none,none,false,false,false,none,false,⟨.lcode,none,false,.lblank⟩⟩] .leaf) 121559004264 [⟨⟨(.inside 2),[],.lcode,false,[(5,0),(6,0)],false⟩,false,false,[some (13,(.cr,false))],none,none,none,false,false,false,none,false,⟨.lcode,none,false,.lblank⟩⟩] (.node .leaf 121560004267 [⟨⟨(.inside 2),[],.lcode,false,[(5,0),(6,0)],false⟩,false,false,[some (13,(.cr,true))],none,none,none,false,false,false,none,false,⟨.lcode,none,false,.lblank⟩⟩] .leaf)) 121560626412 [⟨⟨(.inside 2),[],.lcode,false,[(5,1),(6,1)],false⟩,false,false,[some (13,(.cr,false))],none,none,none,false,false,false,none,false,⟨.lcode,none,false,.lblank⟩⟩] (.node (.node .leaf 121561626415 [⟨⟨(.inside 2),[],.lcode,false,[(5,1),(6,1)],false⟩,false,false,[some (13,(.cr,true))],none,none,none,false,false,false,none,false,⟨.lcode,none,false,.lblank⟩⟩] .leaf) 121564187236 [⟨⟨(.inside 2),[],.lcode,false,[(6,0),(5,0)],false⟩,false,false,[some (10,(.lf,false))],none,none,none,false,false,false,none,false,⟨.lcode,none,false,.lblank⟩⟩] .leaf)) 121565809384 [⟨⟨(.inside 2),[],.lcode,false,[(6,1),(5,1)],false⟩,false,false,[some (10,(.lf,false))],none,none,none,false,false,false,none,false,⟨.lcode,none,false,.lblank⟩⟩] (.node (.node (.node .leaf 121568187248 [⟨⟨(.inside 2),[],.lcode,false,[(6,0),(5,0)],false⟩,false,false,[some (12,(.ff,false))],none,none,none,false,false,false,none,false,⟨.lcode,none,false,.lblank⟩⟩] .leaf) 121569809396 [⟨⟨(.inside 2),[],.lcode,false,[(6,1),(5,1)],false⟩,false,false,[some (12,(.ff,false))],none,none,none,false,false,false,none,false,⟨.lcode,none,false,.lblank⟩⟩] (.node .leaf 121570187254 [⟨⟨(.inside 2),[],.lcode,false,[(6,0),(5,0)],false⟩,false,false,[some (13,(.cr,false))],none,none,none,false,false,false,none,false,⟨.lcode,none,false,.lblank⟩⟩] .leaf)) 121571187257 [⟨⟨(.inside 2),[],.lcode,false,[(6,0),(5,0)],false⟩,false,false,[some (13,(.cr,true))],none,none,none,false,false,false,none,false,⟨.lcode,none,false,.lblank⟩⟩] (.node (.node .leaf 121571809402 [⟨⟨(.inside 2),[],.lcode,false,[(6,1),(5,1)],false⟩,false,false,[some (13,(.cr,false))],none,none,none,false,false,false,none,false,⟨.lcode,none,false,.lblank⟩⟩] .leaf) 121572809405 [⟨⟨(.inside 2),[],.lcode,false,[(6,1),(5,1)],false⟩,false,false,[some (13,(.cr,true))],none,none,none,false,false,false,none,false,⟨.lcode,none,false,.lblank⟩⟩] .leaf)))))))),(.node (.node (.node .leaf 128 [⟨⟨.code,[],.lcode,false,[],false⟩,false,false,[],none,none,none,false,false,false,none,false,⟨.lcode,some (.own 0),false,.lblank⟩⟩] .leaf) 148108 [⟨⟨.code,[],.lcomment,false,[],false⟩,false,false,[],none,none,none,false,false,false,none,false,⟨.lcomment,some (.own 0),false,.lblank⟩⟩] (.node .leaf 296088 [⟨⟨.code,[],.lblank,false,[],false⟩,false,false,[],none,none,none,false,false,false,none,false,⟨.lblank,some (.own 0),false,.lblank⟩⟩] .leaf)) 442532 [⟨⟨.code,[],.lcode,false,[(5,0)],false⟩,false,false,[],none,none,none,false,false,false,none,false,⟨.lcode,some (.own 0),false,.lblank⟩⟩] (.node (.node .leaf 528555 [⟨⟨.code,[],.lcode,false,[(6,0)],false⟩,false,false,[],none,none,none,false,false,false,none,false,⟨.lcode,some (.own 0),false,.lblank⟩⟩] .leaf) 58483479 [⟨⟨.code,[],.lcode,false,[(5,0),(6,0)],false⟩,false,false,[],none,none,none,false,false,false,none,false,⟨.lcode,some (.own 0),false,.lblank⟩⟩] (.node .leaf 69666469 [⟨⟨.code,[],.lcode,false,[(6,0),(5,0)],false⟩,false,false,[],none,none,none,false,false,false,none,false,⟨.lcode,some (.own 0),false,.lblank⟩⟩] .leaf))),(.node (.node .leaf 160 [⟨⟨.code,[],.lcode,false,[],false⟩,true,false,[],none,none,none,false,false,false,none,false,⟨.lcode,some .newline,false,.lblank⟩⟩] .leaf) 148140 [⟨⟨.code,[],.lcomment,false,[],false⟩,true,false,[],none,none,none,false,false,false,none,false,⟨.lcomment,some .newline,false,.lblank⟩⟩] (.node .leaf 296120 [⟨⟨.code,[],.lblank,false,[],false⟩,true,false,[],none,none,none,false,false,false,none,false,⟨.lblank,some .newline,false,.lblank⟩⟩] .leaf)),(.node (.node .leaf 37011 [⟨⟨.code,[],.lcode,true,[],false⟩,false,true,[],none,none,none,false,false,false,none,false,⟨.lcode,some .newline,false,.lblank⟩⟩] .leaf) 184991 [⟨⟨.code,[],.lcomment,true,[],false⟩,false,true,[],none,none,none,false,false,false,none,false,⟨.lcomment,some .newline,false,.lblank⟩⟩] (.node .leaf 332971 [⟨⟨.code,[],.lblank,true,[],false⟩,false,true,[],none,none,none,false,false,false,none,false,⟨.lblank,some .newline,false,.lblank⟩⟩] .leaf)),(.node (.node (.node (.node .leaf 528555 [⟨⟨.code,[],.lcode,false,[(6,0)],false⟩,false,false,[],none,none,none,false,false,false,none,false,⟨.lcode,some (.own 3),false,.lblank⟩⟩] .leaf) 528559 [⟨⟨.code,[],.lcode,false,[(6,0)],false⟩,false,false,[],none,none,none,false,true,false,none,false,⟨.lcode,some (.own 3),false,.lblank⟩⟩] .leaf) 18876032 [⟨⟨(.inside 6),[],.lcode,false,[],false⟩,false,false,[],none,none,none,false,false,false,none,false,⟨.lcode,some (.own 3),false,.lblank⟩⟩] (.node (.node .leaf 58483479 [⟨⟨.code,[],.lcode,false,[(5,0),(6,0)],false⟩,false,false,[],none,none,none,false,false,false,none,false,⟨.lcode,some (.own 3),false,.lblank⟩⟩] .leaf) 69666469 [⟨⟨.code,[],.lcode,false,[(6,0),(5,0)],false⟩,false,false,[],none,none,none,false,false,false,none,false,⟨.lcode,some (.own 3),false,.lblank⟩⟩] .leaf)) 69666473 [⟨⟨.code,[],.lcode,false,[(6,0),(5,0)],false⟩,false,false,[],none,none,none,false,true,false,none,false,⟨.lcode,some (.own 3),false,.lblank⟩⟩] (.node (.node (.node .leaf 2473185956 [⟨⟨(.inside 6),[],.lcode,false,[(5,0)],false⟩,false,false,[],none,none,none,false,false,false,none,false,⟨.lcode,some (.own 3),false,.lblank⟩⟩] .leaf) 2473271979 [⟨⟨(.inside 6),[],.lcode,false,[(6,0)],false⟩,false,false,[],none,none,none,false,false,false,none,false,⟨.lcode,some (.own 3),false,.lblank⟩⟩] .leaf) 323987872023 [⟨⟨(.inside 6),[],.lcode,false,[(5,0),(6,0)],false⟩,false,false,[],none,none,none,false,false,false,none,false,⟨.lcode,some (.own 3),false,.lblank⟩⟩] (.node .leaf 323999055013 [⟨⟨(.inside 6),[],.lcode,false,[(6,0),(5,0)],false⟩,false,false,[],none,none,none,false,false,false,none,false,⟨.lcode,some (.own 3),false,.lblank⟩⟩] .leaf))),(.node (.node (.node .leaf 4129232 [⟨⟨(.inside 1),[],.lcode,false,[],false⟩,false,false,[],none,none,none,false,false,false,none,false,⟨.lcode,some (.own 3),false,.lblank⟩⟩] .leaf) 4277212 [⟨⟨(.inside 1),[],.lcomment,false,[],false⟩,false,false,[],none,none,none,false,false,false,none,false,⟨.lcomment,some (.own 3),false,.lblank⟩⟩] (.node .leaf 541355156 [⟨⟨(.inside 1),[],.lcode,false,[(5,0)],false⟩,false,false,[],none,none,none,false,false,false,none,false,⟨.lcode,some (.own 3),false,.lblank⟩⟩] .leaf)) 541441179 [⟨⟨(.inside 1),[],.lcode,false,[(6,0)],false⟩,false,false,[],none,none,none,false,false,false,none,false,⟨.lcode,some (.own 3),false,.lblank⟩⟩] (.node (.node .leaf 70918037223 [⟨⟨(.inside 1),[],.lcode,false,[(5,0),(6,0)],false⟩,false,false,[],none,none,none,false,false,false,none,false,⟨.lcode,some (.own 3),false,.lblank⟩⟩] .leaf) 70929220213 [⟨⟨(.inside 1),[],.lcode,false,[(6,0),(5,0)],false⟩,false,false,[],none,none,none,false,false,false,none,false,⟨.lcode,some (.own 3),false,.lblank⟩⟩] .leaf)),(.node (.node (.node (.node .leaf 442532 [⟨⟨.code,[],.lcode,false,[(5,0)],false⟩,false,false,[],none,none,none,false,false,false,none,false,⟨.lcode,some (.own 3),false,.lblank⟩⟩] .leaf) 442536 [⟨⟨.code,[],.lcode,false,[(5,0)],false⟩,false,false,[],none,none,none,false,true,false,none,false,⟨.lcode,some (.own 3),false,.lblank⟩⟩] .leaf) 15926672 [⟨⟨(.inside 5),[],.lcode,false,[],false⟩,false,false,[],none,none,none,false,false,false,none,false,⟨.lcode,some (.own 3),false,.lblank⟩⟩] (.node (.node .leaf 58483479 [⟨⟨.code,[],.lcode,false,[(5,0),(6,0)],false⟩,false,false,[],none,none,none,false,false,false,none,false,⟨.lcode,some (.own 3),false,.lblank⟩⟩] .leaf) 58483483 [⟨⟨.code,[],.lcode,false,[(5,0),(6,0)],false⟩,false,false,[],none,none,none,false,true,false,none,false,⟨.lcode,some (.own 3),false,.lblank⟩⟩] .leaf)) 69666469 [⟨⟨.code,[],.lcode,false,[(6,0),(5,0)],false⟩,false,false,[],none,none,none,false,false,false,none,false,⟨.lcode,some (.own 3),false,.lblank⟩⟩] (.node (.node (.node .leaf 2086819796 [⟨⟨(.inside 5),[],.lcode,false,[(5,0)],false⟩,false,false,[],none,none,none,false,false,false,none,false,⟨.lcode,some (.own 3),false,.lblank⟩⟩] .leaf) 2086905819 [⟨⟨(.inside 5),[],.lcode,false,[(6,0)],false⟩,false,false,[],none,none,none,false,false,false,none,false,⟨.lcode,some (.own 3),false,.lblank⟩⟩] .leaf) 273373905063 [⟨⟨(.inside 5),[],.lcode,false,[(5,0),(6,0)],false⟩,false,false,[],none,none,none,false,false,false,none,false,⟨.lcode,some (.own 3),false,.lblank⟩⟩] (.node .leaf 273385088053 [⟨⟨(.inside 5),[],.lcode,false,[(6,0),(5,0)],false⟩,false,false,[],none,none,none,false,false,false,none,false,⟨.lcode,some (.own 3),false,.lblank⟩⟩] .leaf))),(.node (.node (.node (.node (.node .leaf 1696010 [⟨⟨.code,[45],.lcode,false,[],false⟩,false,false,[],none,none,none,false,false,false,none,false,⟨.lcode,some (.own 3),false,.lblank⟩⟩] .leaf) 1696012 [⟨⟨.code,[45],.lcode,false,[],false⟩,false,false,[],none,none,none,false,false,true,none,false,⟨.lcode,some (.own 3),false,.lblank⟩⟩] .leaf) 21014832 [⟨⟨.code,[45],.lcomment,false,[],false⟩,false,false,[],none,none,none,false,false,true,none,false,⟨.lcomment,some (.own 3),false,.lblank⟩⟩] (.node .leaf 40333652 [⟨⟨.code,[45],.lblank,false,[],false⟩,false,false,[],none,none,none,false,false,true,none,false,⟨.lblank,some (.own 3),false,.lblank⟩⟩] .leaf)) 222603074 [⟨⟨.code,[45],.lcode,false,[(5,0)],false⟩,false,false,[],none,none,none,false,false,false,none,false,⟨.lcode,some (.own 3),false,.lblank⟩⟩] (.node (.node .leaf 222603076 [⟨⟨.code,[45],.lcode,false,[(5,0)],false⟩,false,false,[],none,none,none,false,false,true,none,false,⟨.lcode,some (.own 3),false,.lblank⟩⟩] .leaf) 222615365 [⟨⟨.code,[45],.lcode,false,[(5,1)],false⟩,false,false,[],none,none,none,false,false,true,none,false,⟨.lcode,some (.own 3),false,.lblank⟩⟩] (.node .leaf 222689097 [⟨⟨.code,[45],.lcode,false,[(6,0)],false⟩,false,false,[],none,none,none,false,false,false,none,false,⟨.lcode,some (.own 3),false,.lblank⟩⟩] .leaf))) 222689099 [⟨⟨.code,[45],.lcode,false,[(6,0)],false⟩,false,false,[],none,none,none,false,false,true,none,false,⟨.lcode,some (.own 3),false,.lblank⟩⟩] (.node (.node (.node .leaf 222701388 [⟨⟨.code,[45],.lcode,false,[(6,1)],false⟩,false,false,[],none,none,none,false,false,true,none,false,⟨.lcode,some (.own 3),false,.lblank⟩⟩] .leaf) 29161514481 [⟨⟨.code,[45],.lcode,false,[(5,0),(6,0)],false⟩,false,false,[],none,none,none,false,false,false,none,false,⟨.lcode,some (.own 3),false,.lblank⟩⟩] (.node .leaf 29161514483 [⟨⟨.code,[45],.lcode,false,[(5,0),(6,0)],false⟩,false,false,[],none,none,none,false,false,true,none,false,⟨.lcode,some (.own 3),false,.lblank⟩⟩] .leaf)) 29163136631 [⟨⟨.code,[45],.lcode,false,[(5,1),(6,1)],false⟩,false,false,[],none,none,none,false,false,true,none,false,⟨.lcode,some (.own 3),false,.lblank⟩⟩] (.node (.node .leaf 29172697471 [⟨⟨.code,[45],.lcode,false,[(6,0),(5,0)],false⟩,false,false,[],none,none,none,false,false,false,none,false,⟨.lcode,some (.own 3),false,.lblank⟩⟩] .leaf) 29172697473 [⟨⟨.code,[45],.lcode,false,[(6,0),(5,0)],false⟩,false,false,[],none,none,none,false,false,true,none,false,⟨.lcode,some (.own 3),false,.lblank⟩⟩] (.node .leaf 29174319621 [⟨⟨.code,[45],.lcode,false,[(6,1),(5,1)],false⟩,false,false,[],none,none,none,false,false,true,none,false,⟨.lcode,some (.own 3),false,.lblank⟩⟩] .leaf)))),(.node (.node (.node (.node (.node .leaf 1769744 [⟨⟨.code,[47],.lcode,false,[],false⟩,false,false,[],none,none,none,false,false,false,none,false,⟨.lcode,some (.own 3),false,.lblank⟩⟩] .leaf) 1769746 [⟨⟨.code,[47],.lcode,false,[],false⟩,false,false,[],none,none,none,false,false,true,none,false,⟨.lcode,some (.own 3),false,.lblank⟩⟩] .leaf) 21088566 [⟨⟨.code,[47],.lcomment,false,[],false⟩,false,false,[],none,none,none,false,false,true,none,false,⟨.lcomment,some (.own 3),false,.lblank⟩⟩] (.node .leaf 40407386 [⟨⟨.code,[47],.lblank,false,[],false⟩,false,false,[],none,none,none,false,false,true,none,false,⟨.lblank,some (.own 3),false,.lblank⟩⟩] .leaf)) 232262228 [⟨⟨.code,[47],.lcode,false,[(5,0)],false⟩,false,false,[],none,none,none,false,false,false,none,false,⟨.lcode,some (.own 3),false,.lblank⟩⟩] (.node (.node .leaf 232262230 [⟨⟨.code,[47],.lcode,false,[(5,0)],false⟩,false,false,[],none,none,none,false,false,true,none,false,⟨.lcode,some (.own 3),false,.lblank⟩⟩] .leaf) 232274519 [⟨⟨.code,[47],.lcode,false,[(5,1)],false⟩,false,false,[],none,none,none,false,false,true,none,false,⟨.lcode,some (.own 3),false,.lblank⟩⟩] (.node .leaf 232348251 [⟨⟨.code,[47],.lcode,false,[(6,0)],false⟩,false,false,[],none,none,none,false,false,false,none,false,⟨.lcode,some (.own 3),false,.lblank⟩⟩] .leaf))) 232348253 [⟨⟨.code,[47],.lcode,false,[(6,0)],false⟩,false,false,[],none,none,none,false,false,true,none,false,⟨.lcode,some (.own 3),false,.lblank⟩⟩] (.node (.node (.node .leaf 232360542 [⟨⟨.code,[47],.lcode,false,[(6,1)],false⟩,false,false,[],none,none,none,false,false,true,none,false,⟨.lcode,some (.own 3),false,.lblank⟩⟩] .leaf) 30426863655 [⟨⟨.code,[47],.lcode,false,[(5,0),(6,0)],false⟩,false,false,[],none,none,none,false,false,false,none,false,⟨.lcode,some (.own 3),false,.lblank⟩⟩] (.node .leaf 30426863657 [⟨⟨.code,[47],.lcode,false,[(5,0),(6,0)],false⟩,false,false,[],none,none,none,false,false,true,none,false,⟨.lcode,some (.own 3),false,.lblank⟩⟩] .leaf)) 30428485805 [⟨⟨.code,[47],.lcode,false,[(5,1),(6,1)],false⟩,false,false,[],none,none,none,false,false,true,none,false,⟨.lcode,some (.own 3),false,.lblank⟩⟩] (.node (.node .leaf 30438046645 [⟨⟨.code,[47],.lcode,false,[(6,0),(5,0)],false⟩,false,false,[],none,none,none,false,false,false,none,false,⟨.lcode,some (.own 3),false,.lblank⟩⟩] .leaf) 30438046647 [⟨⟨.code,[47],.lcode,false,[(6,0),(5,0)],false⟩,false,false,[],none,none,none,false,false,true,none,false,⟨.lcode,some (.own 3),false,.lblank⟩⟩] (.node .leaf 30439668795 [⟨⟨.code,[47],.lcode,false,[(6,1),(5,1)],false⟩,false,false,[],none,none,none,false,false,true,none,false,⟨.lcode,some (.own 3),false,.lblank⟩⟩] .leaf)))),(.node (.node (.node .leaf 12977312 [⟨⟨(.inside 4),[],.lcode,false,[],false⟩,false,false,[],none,none,none,false,false,false,none,false,⟨.lcode,some (.own 3),false,.lblank⟩⟩] .leaf) 13125292 [⟨⟨(.inside 4),[],.lcomment,false,[],false⟩,false,false,[],none,none,none,false,false,false,none,false,⟨.lcomment,some (.own 3),false,.lblank⟩⟩] (.node .leaf 1700453636 [⟨⟨(.inside 4),[],.lcode,false,[(5,0)],false⟩,false,false,[],none,none,none,false,false,false,none,false,⟨.lcode,some (.own 3),false,.lblank⟩⟩] .leaf)) 1700539659 [⟨⟨(.inside 4),[],.lcode,false,[(6,0)],false⟩,false,false,[],none,none,none,false,false,false,none,false,⟨.lcode,some (.own 3),false,.lblank⟩⟩] (.node (.node .leaf 222759938103 [⟨⟨(.inside 4),[],.lcode,false,[(5,0),(6,0)],false⟩,false,false,[],none,none,none,false,false,false,none,false,⟨.lcode,some (.own 3),false,.lblank⟩⟩] .leaf) 222771121093 [⟨⟨(.inside 4),[],.lcode,false,[(6,0),(5,0)],false⟩,false,false,[],none,none,none,false,false,false,none,false,⟨.lcode,some (.own 3),false,.lblank⟩⟩] .leaf)),(.node (.node (.node (.node (.node (.node .leaf 562107 [⟨⟨.code,[],.lcode,false,[(6,0)],false⟩,false,false,[],some 4,some ⟨.code,[],.lcode,false,[(6,0)],false⟩,none,false,false,false,none,false,⟨.lcode,some (.own 3),false,.lblank⟩⟩] .leaf) 20057701 [⟨⟨(.inside 6),[],.lcode,false,[],false⟩,false,false,[],some 4,some ⟨(.inside 6),[],.lcode,false,[],false⟩,none,false,false,false,none,false,⟨.lcode,some (.own 3),false,.lblank⟩⟩] (.node .leaf 48857881 [⟨⟨.code,[],.lblank,false,[(6,0)],true⟩,false,false,[],some 4,some ⟨.code,[],.lcode,false,[(6,0)],false⟩,none,false,true,false,none,false,⟨.lcode,some (.own 3),false,.lblank⟩⟩] .leaf)) 58517031 [⟨⟨.code,[],.lcode,false,[(5,0),(6,0)],false⟩,false,false,[],some 4,some ⟨.code,[],.lcode,false,[(6,0)],false⟩,none,false,false,false,none,false,⟨.lcode,some (.own 3),false,.lblank⟩⟩] (.node (.node .leaf 62143635 [⟨⟨.code,[],.lcode,false,[(5,0),(6,0)],false⟩,false,false,[],some 4,some ⟨.code,[],.lcode,false,[(5,0),(6,0)],false⟩,none,false,false,false,none,false,⟨.lcode,some (.own 3),false,.lblank⟩⟩] .leaf) 74026415 [⟨⟨.code,[],.lcode,false,[(6,0),(5,0)],false⟩,false,false,[],some 4,some ⟨.code,[],.lcode,false,[(6,0),(5,0)],false⟩,none,false,false,false,none,false,⟨.lcode,some (.own 3),false,.lblank⟩⟩] .leaf)) 155108571 [⟨⟨(.inside 0),[],.lcode,false,[(6,0)],false⟩,false,false,[],some 4,some ⟨.code,[],.lcode,false,[(6,0)],false⟩,none,false,false,false,none,false,⟨.lcode,some (.own 3),false,.lblank⟩⟩] (.node (.node (.node .leaf 222722649 [⟨⟨.code,[45],.lcode,false,[(6,0)],false⟩,false,false,[],some 4,some ⟨.code,[],.lcode,false,[(6,0)],false⟩,none,false,false,false,none,false,⟨.lcode,some (.own 3),false,.lblank⟩⟩] .leaf) 232381803 [⟨⟨.code,[47],.lcode,false,[(6,0)],false⟩,false,false,[],some 4,some ⟨.code,[],.lcode,false,[(6,0)],false⟩,none,false,false,false,none,false,⟨.lcode,some (.own 3),false,.lblank⟩⟩] (.node .leaf 541474731 [⟨⟨(.inside 1),[],.lcode,false,[(6,0)],false⟩,false,false,[],some 4,some ⟨.code,[],.lcode,false,[(6,0)],false⟩,none,false,false,false,none,false,⟨.lcode,some (.own 3),false,.lblank⟩⟩] .leaf)) 927840891 [⟨⟨(.inside 2),[],.lcode,false,[(6,0)],false⟩,false,false,[],some 4,some ⟨.code,[],.lcode,false,[(6,0)],false⟩,none,false,false,false,none,false,⟨.lcode,some (.own 3),false,.lblank⟩⟩] (.node (.node .leaf 1314207051 [⟨⟨(.inside 3),[],.lcode,false,[(6,0)],false⟩,false,false,[],some 4,some ⟨.code,[],.lcode,false,[(6,0)],false⟩,none,false,false,false,none,false,⟨.lcode,some (.own 3),false,.lblank⟩⟩] .leaf) 1700573211 [⟨⟨(.inside 4),[],.lcode,false,[(6,0)],false⟩,false,false,[],some 4,some ⟨.code,[],.lcode,false,[(6,0)],false⟩,none,false,false,false,none,false,⟨.lcode,some (.own 3),false,.lblank⟩⟩] .leaf))) 2086939371 [⟨⟨(.inside 5),[],.lcode,false,[(6,0)],false⟩,false,false,[],some 4,some ⟨.code,[],.lcode,false,[(6,0)],false⟩,none,false,false,false,none,false,⟨.lcode,some (.own 3),false,.lblank⟩⟩] (.node (.node (.node (.node .leaf 2473305531 [⟨⟨(.inside 6),[],.lcode,false,[(6,0)],false⟩,false,false,[],some 4,some ⟨.code,[],.lcode,false,[(6,0)],false⟩,none,false,false,false,none,false,⟨.lcode,some (.own 3),false,.lblank⟩⟩] .leaf) 2627949229 [⟨⟨(.inside 6),[],.lcode,false,[(5,0)],false⟩,false,false,[],some 4,some ⟨(.inside 6),[],.lcode,false,[(5,0)],false⟩,none,false,false,false,none,false,⟨.lcode,some (.own 3),false,.lblank⟩⟩] (.node .leaf 2628040635 [⟨⟨(.inside 6),[],.lcode,false,[(6,0)],false⟩,false,false,[],some 4,some ⟨(.inside 6),[],.lcode,false,[(6,0)],false⟩,none,false,false,false,none,false,⟨.lcode,some (.own 3),false,.lblank⟩⟩] .leaf)) 6385262905 [⟨⟨.code,[],.lblank,false,[(5,0),(6,0)],true⟩,false,false,[],some 4,some ⟨.code,[],.lcode,false,[(6,0)],false⟩,none,false,true,false,none,false,⟨.lcode,some (.own 3),false,.lblank⟩⟩] (.node (.node .leaf 6400772289 [⟨⟨.code,[],.lblank,false,[(6,0),(5,0)],true⟩,false,false,[],some 4,some ⟨.code,[],.lcode,false,[(6,0),(5,0)],false⟩,none,false,true,false,none,false,⟨.lcode,some (.own 3),false,.lblank⟩⟩] .leaf) 20304103815 [⟨⟨(.inside 0),[],.lcode,false,[(5,0),(6,0)],false⟩,false,false,[],some 4,some ⟨.code,[],.lcode,false,[(6,0)],false⟩,none,false,false,false,none,false,⟨.lcode,some (.own 3),false,.lblank⟩⟩] .leaf)) 20307730419 [⟨⟨(.inside 0),[],.lcode,false,[(5,0),(6,0)],false⟩,false,false,[],some 4,some ⟨.code,[],.lcode,false,[(5,0),(6,0)],false⟩,none,false,false,false,none,false,⟨.lcode,some (.own 3),false,.lblank⟩⟩] (.node (.node (.node .leaf 20319613199 [⟨⟨(.inside 0),[],.lcode,false,[(6,0),(5,0)],false⟩,false,false,[],some 4,some ⟨.code,[],.lcode,false,[(6,0),(5,0)],false⟩,none,false,false,false,none,false,⟨.lcode,some (.own 3),false,.lblank⟩⟩] .leaf) 29161548033 [⟨⟨.code,[45],.lcode,false,[(5,0),(6,0)],false⟩,false,false,[],some 4,some ⟨.code,[],.lcode,false,[(6,0)],false⟩,none,false,false,false,none,false,⟨.lcode,some (.own 3),false,.lblank⟩⟩] .leaf) 29165174637 [⟨⟨.code,[45],.lcode,false,[(5,0),(6,0)],false⟩,false,false,[],some 4,some ⟨.code,[],.lcode,false,[(5,0),(6,0)],false⟩,none,false,false,false,none,false,⟨.lcode,some (.own 3),false,.lblank⟩⟩] (.node (.node .leaf 29177057417 [⟨⟨.code,[45],.lcode,false,[(6,0),(5,0)],false⟩,false,false,[],some 4,some ⟨.code,[],.lcode,false,[(6,0),(5,0)],false⟩,none,false,false,false,none,false,⟨.lcode,some (.own 3),false,.lblank⟩⟩] .leaf) 30426897207 [⟨⟨.code,[47],.lcode,false,[(5,0),(6,0)],false⟩,false,false,[],some 4,some ⟨.code,[],.lcode,false,[(6,0)],false⟩,none,false,false,false,none,false,⟨.lcode,some (.own 3),false,.lblank⟩⟩] .leaf)))) 30430523811 [⟨⟨.code,[47],.lcode,false,[(5,0),(6,0)],false⟩,false,false,[],some 4,some ⟨.code,[],.lcode,false,[(5,0),(6,0)],false⟩,none,false,false,false,none,false,⟨.lcode,some (.own 3),false,.lblank⟩⟩] (.node (.node (.node (.node (.node .leaf 30442406591 [⟨⟨.code,[47],.lcode,false,[(6,0),(5,0)],false⟩,false,false,[],some 4,some ⟨.code,[],.lcode,false,[(6,0),(5,0)],false⟩,none,false,false,false,none,false,⟨.lcode,some (.own 3),false,.lblank⟩⟩] .leaf) 70918070775 [⟨⟨(.inside 1),[],.lcode,false,[(5,0),(6,0)],false⟩,false,false,[],some 4,some ⟨.code,[],.lcode,false,[(6,0)],false⟩,none,false,false,false,none,false,⟨.lcode,some (.own 3),false,.lblank⟩⟩] (.node .leaf 70921697379 [⟨⟨(.inside 1),[],.lcode,false,[(5,0),(6,0)],false⟩,false,false,[],some 4,some ⟨.code,[],.lcode,false,[(5,0),(6,0)],false⟩,none,false,false,false,none,false,⟨.lcode,some (.own 3),false,.lblank⟩⟩] .leaf)) 70933580159 [⟨⟨(.inside 1),[],.lcode,false,[(6,0),(5,0)],false⟩,false,false,[],some 4,some ⟨.code,[],.lcode,false,[(6,0),(5,0)],false⟩,none,false,false,false,none,false,⟨.lcode,some (.own 3),false,.lblank⟩⟩] (.node (.node .leaf 121532037735 [⟨⟨(.inside 2),[],.lcode,false,[(5,0),(6,0)],false⟩,false,false,[],some 4,some ⟨.code,[],.lcode,false,[(6,0)],false⟩,none,false,false,false,none,false,⟨.lcode,some (.own 3),false,.lblank⟩⟩] .leaf) 121535664339 [⟨⟨(.inside 2),[],.lcode,false,[(5,0),(6,0)],false⟩,false,false,[],some 4,some ⟨.code,[],.lcode,false,[(5,0),(6,0)],false⟩,none,false,false,false,none,false,⟨.lcode,some (.own 3),false,.lblank⟩⟩] .leaf)) 121547547119 [⟨⟨(.inside 2),[],.lcode,false,[(6,0),(5,0)],false⟩,false,false,[],some 4,some ⟨.code,[],.lcode,false,[(6,0),(5,0)],false⟩,none,false,false,false,none,false,⟨.lcode,some (.own 3),false,.lblank⟩⟩] (.node (.node (.node .leaf 172146004695 [⟨⟨(.inside 3),[],.lcode,false,[(5,0),(6,0)],false⟩,false,false,[],some 4,some ⟨.code,[],.lcode,false,[(6,0)],false⟩,none,false,false,false,none,false,⟨.lcode,some (.own 3),false,.lblank⟩⟩] .leaf) 172149631299 [⟨⟨(.inside 3),[],.lcode,false,[(5,0),(6,0)],false⟩,false,false,[],some 4,some ⟨.code,[],.lcode,false,[(5,0),(6,0)],false⟩,none,false,false,false,none,false,⟨.lcode,some (.own 3),false,.lblank⟩⟩] .leaf) 172161514079 [⟨⟨(.inside 3),[],.lcode,false,[(6,0),(5,0)],false⟩,false,false,[],some 4,some ⟨.code,[],.lcode,false,[(6,0),(5,0)],false⟩,none,false,false,false,none,false,⟨.lcode,some (.own 3),false,.lblank⟩⟩] (.node (.node .leaf 172295721582 [⟨⟨(.inside 3),[42],.lcode,false,[(6,0)],false⟩,false,false,[],some 4,some ⟨.code,[],.lcode,false,[(6,0)],false⟩,none,false,false,false,none,false,⟨.lcode,some (.own 3),false,.lblank⟩⟩] .leaf) 222759971655 [⟨⟨(.inside 4),[],.lcode,false,[(5,0),(6,0)],false⟩,false,false,[],some 4,some ⟨.code,[],.lcode,false,[(6,0)],false⟩,none,false,false,false,none,false,⟨.lcode,some (.own 3),false,.lblank⟩⟩] .leaf))) 222763598259 [⟨⟨(.inside 4),[],.lcode,false,[(5,0),(6,0)],false⟩,false,false,[],some 4,some ⟨.code,[],.lcode,false,[(5,0),(6,0)],false⟩,none,false,false,false,none,false,⟨.lcode,some (.own 3),false,.lblank⟩⟩] (.node (.node (.node (.node .leaf 222775481039 [⟨⟨(.inside 4),[],.lcode,false,[(6,0),(5,0)],false⟩,false,false,[],some 4,some ⟨.code,[],.lcode,false,[(6,0),(5,0)],false⟩,none,false,false,false,none,false,⟨.lcode,some (.own 3),false,.lblank⟩⟩] .leaf) 273373938615 [⟨⟨(.inside 5),[],.lcode,false,[(5,0),(6,0)],false⟩,false,false,[],some 4,some ⟨.code,[],.lcode,false,[(6,0)],false⟩,none,false,false,false,none,false,⟨.lcode,some (.own 3),false,.lblank⟩⟩] (.node .leaf 273377565219 [⟨⟨(.inside 5),[],.lcode,false,[(5,0),(6,0)],false⟩,false,false,[],some 4,some ⟨.code,[],.lcode,false,[(5,0),(6,0)],false⟩,none,false,false,false,none,false,⟨.lcode,some (.own 3),false,.lblank⟩⟩] .leaf)) 273389447999 [⟨⟨(.inside 5),[],.lcode,false,[(6,0),(5,0)],false⟩,false,false,[],some 4,some ⟨.code,[],.lcode,false,[(6,0),(5,0)],false⟩,none,false,false,false,none,false,⟨.lcode,some (.own 3),false,.lblank⟩⟩] (.node (.node .leaf 323987905575 [⟨⟨(.inside 6),[],.lcode,false,[(5,0),(6,0)],false⟩,false,false,[],some 4,some ⟨.code,[],.lcode,false,[(6,0)],false⟩,none,false,false,false,none,false,⟨.lcode,some (.own 3),false,.lblank⟩⟩] .leaf) 323991532179 [⟨⟨(.inside 6),[],.lcode,false,[(5,0),(6,0)],false⟩,false,false,[],some 4,some ⟨.code,[],.lcode,false,[(5,0),(6,0)],false⟩,none,false,false,false,none,false,⟨.lcode,some (.own 3),false,.lblank⟩⟩] .leaf)) 324003414959 [⟨⟨(.inside 6),[],.lcode,false,[(6,0),(5,0)],false⟩,false,false,[],some 4,some ⟨.code,[],.lcode,false,[(6,0),(5,0)],false⟩,none,false,false,false,none,false,⟨.lcode,some (.own 3),false,.lblank⟩⟩] (.node (.node (.node .leaf 344261830803 [⟨⟨(.inside 6),[],.lcode,false,[(5,0),(6,0)],false⟩,false,false,[],some 4,some ⟨(.inside 6),[],.lcode,false,[(5,0),(6,0)],false⟩,none,false,false,false,none,false,⟨.lcode,some (.own 3),false,.lblank⟩⟩] .leaf) 344273713583 [⟨⟨(.inside 6),[],.lcode,false,[(6,0),(5,0)],false⟩,false,false,[],some 4,some ⟨(.inside 6),[],.lcode,false,[(6,0),(5,0)],false⟩,none,false,false,false,none,false,⟨.lcode,some (.own 3),false,.lblank⟩⟩] .leaf) 22570724408256 [⟨⟨(.inside 3),[42],.lcode,false,[(5,0),(6,0)],false⟩,false,false,[],some 4,some ⟨.code,[],.lcode,false,[(6,0)],false⟩,none,false,false,false,none,false,⟨.lcode,some (.own 3),false,.lblank⟩⟩] (.node (.node .leaf 22570728034860 [⟨⟨(.inside 3),[42],.lcode,false,[(5,0),(6,0)],false⟩,false,false,[],some 4,some ⟨.code,[],.lcode,false,[(5,0),(6,0)],false⟩,none,false,false,false,none,false,⟨.lcode,some (.own 3),false,.lblank⟩⟩] .leaf) 22570739917640 [⟨⟨(.inside 3),[42],.lcode,false,[(6,0),(5,0)],false⟩,false,false,[],some 4,some ⟨.code,[],.lcode,false,[(6,0),(5,0)],false⟩,none,false,false,false,none,false,⟨.lcode,some (.own 3),false,.lblank⟩⟩] .leaf))))),(.node (.node (.node (.node (.node (.node .leaf 574396 [⟨⟨.code,[],.lcode,false,[(6,1)],false⟩,false,false,[],some 4,some ⟨.code,[],.lcode,false,[(6,0)],false⟩,none,false,false,false,none,false,⟨.lcode,some (.own 3),false,.lblank⟩⟩] .leaf) 48870170 [⟨⟨.code,[],.lblank,false,[(6,1)],true⟩,false,false,[],some 4,some ⟨.code,[],.lcode,false,[(6,0)],false⟩,none,false,true,false,none,false,⟨.lcode,some (.own 3),false,.lblank⟩⟩] .leaf) 60139179 [⟨⟨.code,[],.lcode,false,[(5,1),(6,1)],false⟩,false,false,[],some 4,some ⟨.code,[],.lcode,false,[(6,0)],false⟩,none,false,false,false,none,false,⟨.lcode,some (.own 3),false,.lblank⟩⟩] (.node (.node .leaf 63765783 [⟨⟨.code,[],.lcode,false,[(5,1),(6,1)],false⟩,false,false,[],some 4,some ⟨.code,[],.lcode,false,[(5,0),(6,0)],false⟩,none,false,false,false,none,false,⟨.lcode,some (.own 3),false,.lblank⟩⟩] .leaf) 75648563 [⟨⟨.code,[],.lcode,false,[(6,1),(5,1)],false⟩,false,false,[],some 4,some ⟨.code,[],.lcode,false,[(6,0),(5,0)],false⟩,none,false,false,false,none,false,⟨.lcode,some (.own 3),false,.lblank⟩⟩] .leaf)) 155120860 [⟨⟨(.inside 0),[],.lcode,false,[(6,1)],false⟩,false,false,[],some 4,some ⟨.code,[],.lcode,false,[(6,0)],false⟩,none,false,false,false,none,false,⟨.lcode,some (.own 3),false,.lblank⟩⟩] (.node (.node (.node .leaf 541487020 [⟨⟨(.inside 1),[],.lcode,false,[(6,1)],false⟩,false,false,[],some 4,some ⟨.code,[],.lcode,false,[(6,0)],false⟩,none,false,false,false,none,false,⟨.lcode,some (.own 3),false,.lblank⟩⟩] .leaf) 927853180 [⟨⟨(.inside 2),[],.lcode,false,[(6,1)],false⟩,false,false,[],some 4,some ⟨.code,[],.lcode,false,[(6,0)],false⟩,none,false,false,false,none,false,⟨.lcode,some (.own 3),false,.lblank⟩⟩] .leaf) 1314219340 [⟨⟨(.inside 3),[],.lcode,false,[(6,1)],false⟩,false,false,[],some 4,some ⟨.code,[],.lcode,false,[(6,0)],false⟩,none,false,false,false,none,false,⟨.lcode,some (.own 3),false,.lblank⟩⟩] (.node .leaf 1700585500 [⟨⟨(.inside 4),[],.lcode,false,[(6,1)],false⟩,false,false,[],some 4,some ⟨.code,[],.lcode,false,[(6,0)],false⟩,none,false,false,false,none,false,⟨.lcode,some (.own 3),false,.lblank⟩⟩] .leaf))) 2477353852 [⟨⟨(.inside 6),[92],.lcode,false,[],false⟩,false,false,[],some 4,some ⟨(.inside 6),[],.lcode,false,[],false⟩,none,false,false,false,none,false,⟨.lcode,some (.own 3),false,.lblank⟩⟩] (.node (.node (.node (.node .leaf 6386885053 [⟨⟨.code,[],.lblank,false,[(5,1),(6,1)],true⟩,false,false,[],some 4,some ⟨.code,[],.lcode,false,[(6,0)],false⟩,none,false,true,false,none,false,⟨.lcode,some (.own 3),false,.lblank⟩⟩] .leaf) 6402394437 [⟨⟨.code,[],.lblank,false,[(6,1),(5,1)],true⟩,false,false,[],some 4,some ⟨.code,[],.lcode,false,[(6,0),(5,0)],false⟩,none,false,true,false,none,false,⟨.lcode,some (.own 3),false,.lblank⟩⟩] .leaf) 20305725963 [⟨⟨(.inside 0),[],.lcode,false,[(5,1),(6,1)],false⟩,false,false,[],some 4,some ⟨.code,[],.lcode,false,[(6,0)],false⟩,none,false,false,false,none,false,⟨.lcode,some (.own 3),false,.lblank⟩⟩] (.node .leaf 20309352567 [⟨⟨(.inside 0),[],.lcode,false,[(5,1),(6,1)],false⟩,false,false,[],some 4,some ⟨.code,[],.lcode,false,[(5,0),(6,0)],false⟩,none,false,false,false,none,false,⟨.lcode,some (.own 3),false,.lblank⟩⟩] .leaf)) 20321235347 [⟨⟨(.inside 0),[],.lcode,false,[(6,1),(5,1)],false⟩,false,false,[],some 4,some ⟨.code,[],.lcode,false,[(6,0),(5,0)],false⟩,none,false,false,false,none,false,⟨.lcode,some (.own 3),false,.lblank⟩⟩] (.node (.node (.node .leaf 70919692923 [⟨⟨(.inside 1),[],.lcode,false,[(5,1),(6,1)],false⟩,false,false,[],some 4,some ⟨.code,[],.lcode,false,[(6,0)],false⟩,none,false,false,false,none,false,⟨.lcode,some (.own 3),false,.lblank⟩⟩] .leaf) 70923319527 [⟨⟨(.inside 1),[],.lcode,false,[(5,1),(6,1)],false⟩,false,false,[],some 4,some ⟨.code,[],.lcode,false,[(5,0),(6,0)],false⟩,none,false,false,false,none,false,⟨.lcode,some (.own 3),false,.lblank⟩⟩] .leaf) 70935202307 [⟨⟨(.inside 1),[],.lcode,false,[(6,1),(5,1)],false⟩,false,false,[],some 4,some ⟨.code,[],.lcode,false,[(6,0),(5,0)],false⟩,none,false,false,false,none,false,⟨.lcode,some (.own 3),false,.lblank⟩⟩] (.node .leaf 121533659883 [⟨⟨(.inside 2),[],.lcode,false,[(5,1),(6,1)],false⟩,false,false,[],some 4,some ⟨.code,[],.lcode,false,[(6,0)],false⟩,none,false,false,false,none,false,⟨.lcode,some (.own 3),false,.lblank⟩⟩] .leaf)))) 121537286487 [⟨⟨(.inside 2),[],.lcode,false,[(5,1),(6,1)],false⟩,false,false,[],some 4,some ⟨.code,[],.lcode,false,[(5,0),(6,0)],false⟩,none,false,false,false,none,false,⟨.lcode,some (.own 3),false,.lblank⟩⟩] (.node (.node (.node (.node (.node .leaf 121549169267 [⟨⟨(.inside 2),[],.lcode,false,[(6,1),(5,1)],false⟩,false,false,[],some 4,some ⟨.code,[],.lcode,false,[(6,0),(5,0)],false⟩,none,false,false,false,none,false,⟨.lcode,some (.own 3),false,.lblank⟩⟩] .leaf) 172147626843 [⟨⟨(.inside 3),[],.lcode,false,[(5,1),(6,1)],false⟩,false,false,[],some 4,some ⟨.code,[],.lcode,false,[(6,0)],false⟩,none,false,false,false,none,false,⟨.lcode,some (.own 3),false,.lblank⟩⟩] .leaf) 172151253447 [⟨⟨(.inside 3),[],.lcode,false,[(5,1),(6,1)],false⟩,false,false,[],some 4,some ⟨.code,[],.lcode,false,[(5,0),(6,0)],false⟩,none,false,false,false,none,false,⟨.lcode,some (.own 3),false,.lblank⟩⟩] (.node .leaf 172163136227 [⟨⟨(.inside 3),[],.lcode,false,[(6,1),(5,1)],false⟩,false,false,[],some 4,some ⟨.code,[],.lcode,false,[(6,0),(5,0)],false⟩,none,false,false,false,none,false,⟨.lcode,some (.own 3),false,.lblank⟩⟩] .leaf)) 222761593803 [⟨⟨(.inside 4),[],.lcode,false,[(5,1),(6,1)],false⟩,false,false,[],some 4,some ⟨.code,[],.lcode,false,[(6,0)],false⟩,none,false,false,false,none,false,⟨.lcode,some (.own 3),false,.lblank⟩⟩] (.node (.node (.node .leaf 222765220407 [⟨⟨(.inside 4),[],.lcode,false,[(5,1),(6,1)],false⟩,false,false,[],some 4,some ⟨.code,[],.lcode,false,[(5,0),(6,0)],false⟩,none,false,false,false,none,false,⟨.lcode,some (.own 3),false,.lblank⟩⟩] .leaf) 222777103187 [⟨⟨(.inside 4),[],.lcode,false,[(6,1),(5,1)],false⟩,false,false,[],some 4,some ⟨.code,[],.lcode,false,[(6,0),(5,0)],false⟩,none,false,false,false,none,false,⟨.lcode,some (.own 3),false,.lblank⟩⟩] .leaf) 273765134352 [⟨⟨(.inside 5),[92],.lcode,false,[(6,0)],false⟩,false,false,[],some 4,some ⟨.code,[],.lcode,false,[(6,0)],false⟩,none,false,false,false,none,false,⟨.lcode,some (.own 3),false,.lblank⟩⟩] (.node .leaf 324379101312 [⟨⟨(.inside 6),[92],.lcode,false,[(6,0)],false⟩,false,false,[],some 4,some ⟨.code,[],.lcode,false,[(6,0)],false⟩,none,false,false,false,none,false,⟨.lcode,some (.own 3),false,.lblank⟩⟩] .leaf))) 324533745010 [⟨⟨(.inside 6),[92],.lcode,false,[(5,0)],false⟩,false,false,[],some 4,some ⟨(.inside 6),[],.lcode,false,[(5,0)],false⟩,none,false,false,false,none,false,⟨.lcode,some (.own 3),false,.lblank⟩⟩] (.node (.node (.node (.node .leaf 324533836416 [⟨⟨(.inside 6),[92],.lcode,false,[(6,0)],false⟩,false,false,[],some 4,some ⟨(.inside 6),[],.lcode,false,[(6,0)],false⟩,none,false,false,false,none,false,⟨.lcode,some (.own 3),false,.lblank⟩⟩] .leaf) 35863217481126 [⟨⟨(.inside 5),[92],.lcode,false,[(5,0),(6,0)],false⟩,false,false,[],some 4,some ⟨.code,[],.lcode,false,[(6,0)],false⟩,none,false,false,false,none,false,⟨.lcode,some (.own 3),false,.lblank⟩⟩] .leaf) 35863221107730 [⟨⟨(.inside 5),[92],.lcode,false,[(5,0),(6,0)],false⟩,false,false,[],some 4,some ⟨.code,[],.lcode,false,[(5,0),(6,0)],false⟩,none,false,false,false,none,false,⟨.lcode,some (.own 3),false,.lblank⟩⟩] (.node .leaf 35863232990510 [⟨⟨(.inside 5),[92],.lcode,false,[(6,0),(5,0)],false⟩,false,false,[],some 4,some ⟨.code,[],.lcode,false,[(6,0),(5,0)],false⟩,none,false,false,false,none,false,⟨.lcode,some (.own 3),false,.lblank⟩⟩] .leaf)) 42493647152886 [⟨⟨(.inside 6),[92],.lcode,false,[(5,0),(6,0)],false⟩,false,false,[],some 4,some ⟨.code,[],.lcode,false,[(6,0)],false⟩,none,false,false,false,none,false,⟨.lcode,some (.own 3),false,.lblank⟩⟩] (.node (.node (.node .leaf 42493650779490 [⟨⟨(.inside 6),[92],.lcode,false,[(5,0),(6,0)],false⟩,false,false,[],some 4,some ⟨.code,[],.lcode,false,[(5,0),(6,0)],false⟩,none,false,false,false,none,false,⟨.lcode,some (.own 3),false,.lblank⟩⟩] .leaf) 42493662662270 [⟨⟨(.inside 6),[92],.lcode,false,[(6,0),(5,0)],false⟩,false,false,[],some 4,some ⟨.code,[],.lcode,false,[(6,0),(5,0)],false⟩,none,false,false,false,none,false,⟨.lcode,some (.own 3),false,.lblank⟩⟩] .leaf) 42513921078114 [⟨⟨(.inside 6),[92],.lcode,false,[(5,0),(6,0)],false⟩,false,false,[],some 4,some ⟨(.inside 6),[],.lcode,false,[(5,0),(6,0)],false⟩,none,false,false,false,none,false,⟨.lcode,some (.own 3),false,.lblank⟩⟩] (.node .leaf 42513932960894 [⟨⟨(.inside 6),[92],.lcode,false,[(6,0),(5,0)],false⟩,false,false,[],some 4,some ⟨(.inside 6),[],.lcode,false,[(6,0),(5,0)],false⟩,none,false,false,false,none,false,⟨.lcode,some (.own 3),false,.lblank⟩⟩] .leaf))))),(.node (.node (.node (.node (.node .leaf 1179872 [⟨⟨(.inside 0),[],.lcode,false,[],false⟩,false,false,[],none,none,none,false,false,false,none,false,⟨.lcode,some (.own 3),false,.lblank⟩⟩] .leaf) 1327852 [⟨⟨(.inside 0),[],.lcomment,false,[],false⟩,false,false,[],none,none,none,false,false,false,none,false,⟨.lcomment,some (.own 3),false,.lblank⟩⟩] (.node .leaf 4129232 [⟨⟨(.inside 1),[],.lcode,false,[],false⟩,false,false,[],none,none,none,false,false,false,none,false,⟨.lcode,some (.own 3),false,.lblank⟩⟩] .leaf)) 4277212 [⟨⟨(.inside 1),[],.lcomment,false,[],false⟩,false,false,[],none,none,none,false,false,false,none,false,⟨.lcomment,some (.own 3),false,.lblank⟩⟩] (.node (.node .leaf 7078592 [⟨⟨(.inside 2),[],.lcode,false,[],false⟩,false,false,[],none,none,none,false,false,false,none,false,⟨.lcode,some (.own 3),false,.lblank⟩⟩] .leaf) 7226572 [⟨⟨(.inside 2),[],.lcomment,false,[],false⟩,false,false,[],none,none,none,false,false,false,none,false,⟨.lcomment,some (.own 3),false,.lblank⟩⟩] (.node .leaf 154988996 [⟨⟨(.inside 0),[],.lcode,false,[(5,0)],false⟩,false,false,[],none,none,none,false,false,false,none,false,⟨.lcode,some (.own 3),false,.lblank⟩⟩] .leaf))) 155001285 [⟨⟨(.inside 0),[],.lcode,false,[(5,1)],false⟩,false,false,[],none,none,none,false,false,false,none,false,⟨.lcode,some (.own 3),false,.lblank⟩⟩] (.node (.node (.node .leaf 155075019 [⟨⟨(.inside 0),[],.lcode,false,[(6,0)],false⟩,false,false,[],none,none,none,false,false,false,none,false,⟨.lcode,some (.own 3),false,.lblank⟩⟩] .leaf) 155087308 [⟨⟨(.inside 0),[],.lcode,false,[(6,1)],false⟩,false,false,[],none,none,none,false,false,false,none,false,⟨.lcode,some (.own 3),false,.lblank⟩⟩] (.node .leaf 541355156 [⟨⟨(.inside 1),[],.lcode,false,[(5,0)],false⟩,false,false,[],none,none,none,false,false,false,none,false,⟨.lcode,some (.own 3),false,.lblank⟩⟩] .leaf)) 541367445 [⟨⟨(.inside 1),[],.lcode,false,[(5,1)],false⟩,false,false,[],none,none,none,false,false,false,none,false,⟨.lcode,some (.own 3),false,.lblank⟩⟩] (.node (.node .leaf 541441179 [⟨⟨(.inside 1),[],.lcode,false,[(6,0)],false⟩,false,false,[],none,none,none,false,false,false,none,false,⟨.lcode,some (.own 3),false,.lblank⟩⟩] .leaf) 541453468 [⟨⟨(.inside 1),[],.lcode,false,[(6,1)],false⟩,false,false,[],none,none,none,false,false,false,none,false,⟨.lcode,some (.own 3),false,.lblank⟩⟩] (.node .leaf 927721316 [⟨⟨(.inside 2),[],.lcode,false,[(5,0)],false⟩,false,false,[],none,none,none,false,false,false,none,false,⟨.lcode,some (.own 3),false,.lblank⟩⟩] .leaf)))) 927733605 [⟨⟨(.inside 2),[],.lcode,false,[(5,1)],false⟩,false,false,[],none,none,none,false,false,false,none,false,⟨.lcode,some (.own 3),false,.lblank⟩⟩] (.node (.node (.node (.node .leaf 927807339 [⟨⟨(.inside 2),[],.lcode,false,[(6,0)],false⟩,false,false,[],none,none,none,false,false,false,none,false,⟨.lcode,some (.own 3),false,.lblank⟩⟩] .leaf) 927819628 [⟨⟨(.inside 2),[],.lcode,false,[(6,1)],false⟩,false,false,[],none,none,none,false,false,false,none,false,⟨.lcode,some (.own 3),false,.lblank⟩⟩] (.node .leaf 20304070263 [⟨⟨(.inside 0),[],.lcode,false,[(5,0),(6,0)],false⟩,false,false,[],none,none,none,false,false,false,none,false,⟨.lcode,some (.own 3),false,.lblank⟩⟩] .leaf)) 20305692411 [⟨⟨(.inside 0),[],.lcode,false,[(5,1),(6,1)],false⟩,false,false,[],none,none,none,false,false,false,none,false,⟨.lcode,some (.own 3),false,.lblank⟩⟩] (.node (.node .leaf 20315253253 [⟨⟨(.inside 0),[],.lcode,false,[(6,0),(5,0)],false⟩,false,false,[],none,none,none,false,false,false,none,false,⟨.lcode,some (.own 3),false,.lblank⟩⟩] .leaf) 20316875401 [⟨⟨(.inside 0),[],.lcode,false,[(6,1),(5,1)],false⟩,false,false,[],none,none,none,false,false,false,none,false,⟨.lcode,some (.own 3),false,.lblank⟩⟩] (.node .leaf 70918037223 [⟨⟨(.inside 1),[],.lcode,false,[(5,0),(6,0)],false⟩,false,false,[],none,none,none,false,false,false,none,false,⟨.lcode,some (.own 3),false,.lblank⟩⟩] .leaf))) 70919659371 [⟨⟨(.inside 1),[],.lcode,false,[(5,1),(6,1)],false⟩,false,false,[],none,none,none,false,false,false,none,false,⟨.lcode,some (.own 3),false,.lblank⟩⟩] (.node (.node (.node .leaf 70929220213 [⟨⟨(.inside 1),[],.lcode,false,[(6,0),(5,0)],false⟩,false,false,[],none,none,none,false,false,false,none,false,⟨.lcode,some (.own 3),false,.lblank⟩⟩] .leaf) 70930842361 [⟨⟨(.inside 1),[],.lcode,false,[(6,1),(5,1)],false⟩,false,false,[],none,none,none,false,false,false,none,false,⟨.lcode,some (.own 3),false,.lblank⟩⟩] (.node .leaf 121532004183 [⟨⟨(.inside 2),[],.lcode,false,[(5,0),(6,0)],false⟩,false,false,[],none,none,none,false,false,false,none,false,⟨.lcode,some (.own 3),false,.lblank⟩⟩] .leaf)) 121533626331 [⟨⟨(.inside 2),[],.lcode,false,[(5,1),(6,1)],false⟩,false,false,[],none,none,none,false,false,false,none,false,⟨.lcode,some (.own 3),false,.lblank⟩⟩] (.node (.node .leaf 121543187173 [⟨⟨(.inside 2),[],.lcode,false,[(6,0),(5,0)],false⟩,false,false,[],none,none,none,false,false,false,none,false,⟨.lcode,some (.own 3),false,.lblank⟩⟩] .leaf) 121544809321 [⟨⟨(.inside 2),[],.lcode,false,[(6,1),(5,1)],false⟩,false,false,[],none,none,none,false,false,false,none,false,⟨.lcode,some (.own 3),false,.lblank⟩⟩] .leaf)))),(.node (.node (.node (.node (.node (.node .leaf 470701 [⟨⟨.code,[],.lcode,false,[(5,0)],false⟩,false,false,[],some 4,some ⟨.code,[],.lcode,false,[(5,0)],false⟩,none,false,false,false,none,false,⟨.lcode,some (.own 3),false,.lblank⟩⟩] .leaf) 16923781 [⟨⟨(.inside 5),[],.lcode,false,[],false⟩,false,false,[],some 4,some ⟨(.inside 5),[],.lcode,false,[],false⟩,none,false,false,false,none,false,⟨.lcode,some (.own 3),false,.lblank⟩⟩] (.node .leaf 48766475 [⟨⟨.code,[],.lblank,false,[(5,0)],true⟩,false,false,[],some 4,some ⟨.code,[],.lcode,false,[(5,0)],false⟩,none,false,true,false,none,false,⟨.lcode,some (.own 3),false,.lblank⟩⟩] .leaf)) 62143635 [⟨⟨.code,[],.lcode,false,[(5,0),(6,0)],false⟩,false,false,[],some 4,some ⟨.code,[],.lcode,false,[(5,0),(6,0)],false⟩,none,false,false,false,none,false,⟨.lcode,some (.own 3),false,.lblank⟩⟩] (.node (.node .leaf 69694638 [⟨⟨.code,[],.lcode,false,[(6,0),(5,0)],false⟩,false,false,[],some 4,some ⟨.code,[],.lcode,false,[(5,0)],false⟩,none,false,false,false,none,false,⟨.lcode,some (.own 3),false,.lblank⟩⟩] .leaf) 74026415 [⟨⟨.code,[],.lcode,false,[(6,0),(5,0)],false⟩,false,false,[],some 4,some ⟨.code,[],.lcode,false,[(6,0),(5,0)],false⟩,none,false,false,false,none,false,⟨.lcode,some (.own 3),false,.lblank⟩⟩] .leaf)) 155017165 [⟨⟨(.inside 0),[],.lcode,false,[(5,0)],false⟩,false,false,[],some 4,some ⟨.code,[],.lcode,false,[(5,0)],false⟩,none,false,false,false,none,false,⟨.lcode,some (.own 3),false,.lblank⟩⟩] (.node (.node (.node .leaf 222631243 [⟨⟨.code,[45],.lcode,false,[(5,0)],false⟩,false,false,[],some 4,some ⟨.code,[],.lcode,false,[(5,0)],false⟩,none,false,false,false,none,false,⟨.lcode,some (.own 3),false,.lblank⟩⟩] .leaf) 232290397 [⟨⟨.code,[47],.lcode,false,[(5,0)],false⟩,false,false,[],some 4,some ⟨.code,[],.lcode,false,[(5,0)],false⟩,none,false,false,false,none,false,⟨.lcode,some (.own 3),false,.lblank⟩⟩] (.node .leaf 541383325 [⟨⟨(.inside 1),[],.lcode,false,[(5,0)],false⟩,false,false,[],some 4,some ⟨.code,[],.lcode,false,[(5,0)],false⟩,none,false,false,false,none,false,⟨.lcode,some (.own 3),false,.lblank⟩⟩] .leaf)) 927749485 [⟨⟨(.inside 2),[],.lcode,false,[(5,0)],false⟩,false,false,[],some 4,some ⟨.code,[],.lcode,false,[(5,0)],false⟩,none,false,false,false,none,false,⟨.lcode,some (.own 3),false,.lblank⟩⟩] (.node (.node .leaf 1314115645 [⟨⟨(.inside 3),[],.lcode,false,[(5,0)],false⟩,false,false,[],some 4,some ⟨.code,[],.lcode,false,[(5,0)],false⟩,none,false,false,false,none,false,⟨.lcode,some (.own 3),false,.lblank⟩⟩] .leaf) 1700481805 [⟨⟨(.inside 4),[],.lcode,false,[(5,0)],false⟩,false,false,[],some 4,some ⟨.code,[],.lcode,false,[(5,0)],false⟩,none,false,false,false,none,false,⟨.lcode,some (.own 3),false,.lblank⟩⟩] .leaf))) 2086847965 [⟨⟨(.inside 5),[],.lcode,false,[(5,0)],false⟩,false,false,[],some 4,some ⟨.code,[],.lcode,false,[(5,0)],false⟩,none,false,false,false,none,false,⟨.lcode,some (.own 3),false,.lblank⟩⟩] (.node (.node (.node (.node .leaf 2217405709 [⟨⟨(.inside 5),[],.lcode,false,[(5,0)],false⟩,false,false,[],some 4,some ⟨(.inside 5),[],.lcode,false,[(5,0)],false⟩,none,false,false,false,none,false,⟨.lcode,some (.own 3),false,.lblank⟩⟩] .leaf) 2217497115 [⟨⟨(.inside 5),[],.lcode,false,[(6,0)],false⟩,false,false,[],some 4,some ⟨(.inside 5),[],.lcode,false,[(6,0)],false⟩,none,false,false,false,none,false,⟨.lcode,some (.own 3),false,.lblank⟩⟩] (.node .leaf 2473214125 [⟨⟨(.inside 6),[],.lcode,false,[(5,0)],false⟩,false,false,[],some 4,some ⟨.code,[],.lcode,false,[(5,0)],false⟩,none,false,false,false,none,false,⟨.lcode,some (.own 3),false,.lblank⟩⟩] .leaf)) 6388889509 [⟨⟨.code,[],.lblank,false,[(5,0),(6,0)],true⟩,false,false,[],some 4,some ⟨.code,[],.lcode,false,[(5,0),(6,0)],false⟩,none,false,true,false,none,false,⟨.lcode,some (.own 3),false,.lblank⟩⟩] (.node (.node .leaf 6396440512 [⟨⟨.code,[],.lblank,false,[(6,0),(5,0)],true⟩,false,false,[],some 4,some ⟨.code,[],.lcode,false,[(5,0)],false⟩,none,false,true,false,none,false,⟨.lcode,some (.own 3),false,.lblank⟩⟩] .leaf) 20307730419 [⟨⟨(.inside 0),[],.lcode,false,[(5,0),(6,0)],false⟩,false,false,[],some 4,some ⟨.code,[],.lcode,false,[(5,0),(6,0)],false⟩,none,false,false,false,none,false,⟨.lcode,some (.own 3),false,.lblank⟩⟩] .leaf)) 20315281422 [⟨⟨(.inside 0),[],.lcode,false,[(6,0),(5,0)],false⟩,false,false,[],some 4,some ⟨.code,[],.lcode,false,[(5,0)],false⟩,none,false,false,false,none,false,⟨.lcode,some (.own 3),false,.lblank⟩⟩] (.node (.node (.node .leaf 20319613199 [⟨⟨(.inside 0),[],.lcode,false,[(6,0),(5,0)],false⟩,false,false,[],some 4,some ⟨.code,[],.lcode,false,[(6,0),(5,0)],false⟩,none,false,false,false,none,false,⟨.lcode,some (.own 3),false,.lblank⟩⟩] .leaf) 29165174637 [⟨⟨.code,[45],.lcode,false,[(5,0),(6,0)],false⟩,false,false,[],some 4,some ⟨.code,[],.lcode,false,[(5,0),(6,0)],false⟩,none,false,false,false,none,false,⟨.lcode,some (.own 3),false,.lblank⟩⟩] .leaf) 29172725640 [⟨⟨.code,[45],.lcode,false,[(6,0),(5,0)],false⟩,false,false,[],some 4,some ⟨.code,[],.lcode,false,[(5,0)],false⟩,none,false,false,false,none,false,⟨.lcode,some (.own 3),false,.lblank⟩⟩] (.node (.node .leaf 29177057417 [⟨⟨.code,[45],.lcode,false,[(6,0),(5,0)],false⟩,false,false,[],some 4,some ⟨.code,[],.lcode,false,[(6,0),(5,0)],false⟩,none,false,false,false,none,false,⟨.lcode,some (.own 3),false,.lblank⟩⟩] .leaf) 30430523811 [⟨⟨.code,[47],.lcode,false,[(5,0),(6,0)],false⟩,false,false,[],some 4,some ⟨.code,[],.lcode,false,[(5,0),(6,0)],false⟩,none,false,false,false,none,false,⟨.lcode,some (.own 3),false,.lblank⟩⟩] .leaf)))) 30438074814 [⟨⟨.code,[47],.lcode,false,[(6,0),(5,0)],false⟩,false,false,[],some 4,some ⟨.code,[],.lcode,false,[(5,0)],false⟩,none,false,false,false,none,false,⟨.lcode,some (.own 3),false,.lblank⟩⟩] (.node (.node (.node (.node (.node .leaf 30442406591 [⟨⟨.code,[47],.lcode,false,[(6,0),(5,0)],false⟩,false,false,[],some 4,some ⟨.code,[],.lcode,false,[(6,0),(5,0)],false⟩,none,false,false,false,none,false,⟨.lcode,some (.own 3),false,.lblank⟩⟩] .leaf) 70921697379 [⟨⟨(.inside 1),[],.lcode,false,[(5,0),(6,0)],false⟩,false,false,[],some 4,some ⟨.code,[],.lcode,false,[(5,0),(6,0)],false⟩,none,false,false,false,none,false,⟨.lcode,some (.own 3),false,.lblank⟩⟩] (.node .leaf 70929248382 [⟨⟨(.inside 1),[],.lcode,false,[(6,0),(5,0)],false⟩,false,false,[],some 4,some ⟨.code,[],.lcode,false,[(5,0)],false⟩,none,false,false,false,none,false,⟨.lcode,some (.own 3),false,.lblank⟩⟩] .leaf)) 70933580159 [⟨⟨(.inside 1),[],.lcode,false,[(6,0),(5,0)],false⟩,false,false,[],some 4,some ⟨.code,[],.lcode,false,[(6,0),(5,0)],false⟩,none,false,false,false,none,false,⟨.lcode,some (.own 3),false,.lblank⟩⟩] (.node (.node .leaf 121535664339 [⟨⟨(.inside 2),[],.lcode,false,[(5,0),(6,0)],false⟩,false,false,[],some 4,some ⟨.code,[],.lcode,false,[(5,0),(6,0)],false⟩,none,false,false,false,none,false,⟨.lcode,some (.own 3),false,.lblank⟩⟩] .leaf) 121543215342 [⟨⟨(.inside 2),[],.lcode,false,[(6,0),(5,0)],false⟩,false,false,[],some 4,some ⟨.code,[],.lcode,false,[(5,0)],false⟩,none,false,false,false,none,false,⟨.lcode,some (.own 3),false,.lblank⟩⟩] .leaf)) 121547547119 [⟨⟨(.inside 2),[],.lcode,false,[(6,0),(5,0)],false⟩,false,false,[],some 4,some ⟨.code,[],.lcode,false,[(6,0),(5,0)],false⟩,none,false,false,false,none,false,⟨.lcode,some (.own 3),false,.lblank⟩⟩] (.node (.node (.node .leaf 172149631299 [⟨⟨(.inside 3),[],.lcode,false,[(5,0),(6,0)],false⟩,false,false,[],some 4,some ⟨.code,[],.lcode,false,[(5,0),(6,0)],false⟩,none,false,false,false,none,false,⟨.lcode,some (.own 3),false,.lblank⟩⟩] .leaf) 172157182302 [⟨⟨(.inside 3),[],.lcode,false,[(6,0),(5,0)],false⟩,false,false,[],some 4,some ⟨.code,[],.lcode,false,[(5,0)],false⟩,none,false,false,false,none,false,⟨.lcode,some (.own 3),false,.lblank⟩⟩] .leaf) 172161514079 [⟨⟨(.inside 3),[],.lcode,false,[(6,0),(5,0)],false⟩,false,false,[],some 4,some ⟨.code,[],.lcode,false,[(6,0),(5,0)],false⟩,none,false,false,false,none,false,⟨.lcode,some (.own 3),false,.lblank⟩⟩] (.node (.node .leaf 172295630176 [⟨⟨(.inside 3),[42],.lcode,false,[(5,0)],false⟩,false,false,[],some 4,some ⟨.code,[],.lcode,false,[(5,0)],false⟩,none,false,false,false,none,false,⟨.lcode,some (.own 3),false,.lblank⟩⟩] .leaf) 222763598259 [⟨⟨(.inside 4),[],.lcode,false,[(5,0),(6,0)],false⟩,false,false,[],some 4,some ⟨.code,[],.lcode,false,[(5,0),(6,0)],false⟩,none,false,false,false,none,false,⟨.lcode,some (.own 3),false,.lblank⟩⟩] .leaf))) 222771149262 [⟨⟨(.inside 4),[],.lcode,false,[(6,0),(5,0)],false⟩,false,false,[],some 4,some ⟨.code,[],.lcode,false,[(5,0)],false⟩,none,false,false,false,none,false,⟨.lcode,some (.own 3),false,.lblank⟩⟩] (.node (.node (.node (.node .leaf 222775481039 [⟨⟨(.inside 4),[],.lcode,false,[(6,0),(5,0)],false⟩,false,false,[],some 4,some ⟨.code,[],.lcode,false,[(6,0),(5,0)],false⟩,none,false,false,false,none,false,⟨.lcode,some (.own 3),false,.lblank⟩⟩] .leaf) 273377565219 [⟨⟨(.inside 5),[],.lcode,false,[(5,0),(6,0)],false⟩,false,false,[],some 4,some ⟨.code,[],.lcode,false,[(5,0),(6,0)],false⟩,none,false,false,false,none,false,⟨.lcode,some (.own 3),false,.lblank⟩⟩] (.node .leaf 273385116222 [⟨⟨(.inside 5),[],.lcode,false,[(6,0),(5,0)],false⟩,false,false,[],some 4,some ⟨.code,[],.lcode,false,[(5,0)],false⟩,none,false,false,false,none,false,⟨.lcode,some (.own 3),false,.lblank⟩⟩] .leaf)) 273389447999 [⟨⟨(.inside 5),[],.lcode,false,[(6,0),(5,0)],false⟩,false,false,[],some 4,some ⟨.code,[],.lcode,false,[(6,0),(5,0)],false⟩,none,false,false,false,none,false,⟨.lcode,some (.own 3),false,.lblank⟩⟩] (.node (.node .leaf 290480629683 [⟨⟨(.inside 5),[],.lcode,false,[(5,0),(6,0)],false⟩,false,false,[],some 4,some ⟨(.inside 5),[],.lcode,false,[(5,0),(6,0)],false⟩,none,false,false,false,none,false,⟨.lcode,some (.own 3),false,.lblank⟩⟩] .leaf) 290492512463 [⟨⟨(.inside 5),[],.lcode,false,[(6,0),(5,0)],false⟩,false,false,[],some 4,some ⟨(.inside 5),[],.lcode,false,[(6,0),(5,0)],false⟩,none,false,false,false,none,false,⟨.lcode,some (.own 3),false,.lblank⟩⟩] .leaf)) 323991532179 [⟨⟨(.inside 6),[],.lcode,false,[(5,0),(6,0)],false⟩,false,false,[],some 4,some ⟨.code,[],.lcode,false,[(5,0),(6,0)],false⟩,none,false,false,false,none,false,⟨.lcode,some (.own 3),false,.lblank⟩⟩] (.node (.node (.node .leaf 323999083182 [⟨⟨(.inside 6),[],.lcode,false,[(6,0),(5,0)],false⟩,false,false,[],some 4,some ⟨.code,[],.lcode,false,[(5,0)],false⟩,none,false,false,false,none,false,⟨.lcode,some (.own 3),false,.lblank⟩⟩] .leaf) 324003414959 [⟨⟨(.inside 6),[],.lcode,false,[(6,0),(5,0)],false⟩,false,false,[],some 4,some ⟨.code,[],.lcode,false,[(6,0),(5,0)],false⟩,none,false,false,false,none,false,⟨.lcode,some (.own 3),false,.lblank⟩⟩] .leaf) 22570728034860 [⟨⟨(.inside 3),[42],.lcode,false,[(5,0),(6,0)],false⟩,false,false,[],some 4,some ⟨.code,[],.lcode,false,[(5,0),(6,0)],false⟩,none,false,false,false,none,false,⟨.lcode,some (.own 3),false,.lblank⟩⟩] (.node (.node .leaf 22570735585863 [⟨⟨(.inside 3),[42],.lcode,false,[(6,0),(5,0)],false⟩,false,false,[],some 4,some ⟨.code,[],.lcode,false,[(5,0)],false⟩,none,false,false,false,none,false,⟨.lcode,some (.own 3),false,.lblank⟩⟩] .leaf) 22570739917640 [⟨⟨(.inside 3),[42],.lcode,false,[(6,0),(5,0)],false⟩,false,false,[],some 4,some ⟨.code,[],.lcode,false,[(6,0),(5,0)],false⟩,none,false,false,false,none,false,⟨.lcode,some (.own 3),false,.lblank⟩⟩] .leaf))))),(.node (.node (.node (.node (.node (.node .leaf 482990 [⟨⟨.code,[],.lcode,false,[(5,1)],false⟩,false,false,[],some 4,some ⟨.code,[],.lcode,false,[(5,0)],false⟩,none,false,false,false,none,false,⟨.lcode,some (.own 3),false,.lblank⟩⟩] .leaf) 48778764 [⟨⟨.code,[],.lblank,false,[(5,1)],true⟩,false,false,[],some 4,some ⟨.code,[],.lcode,false,[(5,0)],false⟩,none,false,true,false,none,false,⟨.lcode,some (.own 3),false,.lblank⟩⟩] .leaf) 63765783 [⟨⟨.code,[],.lcode,false,[(5,1),(6,1)],false⟩,false,false,[],some 4,some ⟨.code,[],.lcode,false,[(5,0),(6,0)],false⟩,none,false,false,false,none,false,⟨.lcode,some (.own 3),false,.lblank⟩⟩] (.node (.node .leaf 71316786 [⟨⟨.code,[],.lcode,false,[(6,1),(5,1)],false⟩,false,false,[],some 4,some ⟨.code,[],.lcode,false,[(5,0)],false⟩,none,false,false,false,none,false,⟨.lcode,some (.own 3),false,.lblank⟩⟩] .leaf) 75648563 [⟨⟨.code,[],.lcode,false,[(6,1),(5,1)],false⟩,false,false,[],some 4,some ⟨.code,[],.lcode,false,[(6,0),(5,0)],false⟩,none,false,false,false,none,false,⟨.lcode,some (.own 3),false,.lblank⟩⟩] .leaf)) 155029454 [⟨⟨(.inside 0),[],.lcode,false,[(5,1)],false⟩,false,false,[],some 4,some ⟨.code,[],.lcode,false,[(5,0)],false⟩,none,false,false,false,none,false,⟨.lcode,some (.own 3),false,.lblank⟩⟩] (.node (.node (.node .leaf 541395614 [⟨⟨(.inside 1),[],.lcode,false,[(5,1)],false⟩,false,false,[],some 4,some ⟨.code,[],.lcode,false,[(5,0)],false⟩,none,false,false,false,none,false,⟨.lcode,some (.own 3),false,.lblank⟩⟩] .leaf) 927761774 [⟨⟨(.inside 2),[],.lcode,false,[(5,1)],false⟩,false,false,[],some 4,some ⟨.code,[],.lcode,false,[(5,0)],false⟩,none,false,false,false,none,false,⟨.lcode,some (.own 3),false,.lblank⟩⟩] .leaf) 1314127934 [⟨⟨(.inside 3),[],.lcode,false,[(5,1)],false⟩,false,false,[],some 4,some ⟨.code,[],.lcode,false,[(5,0)],false⟩,none,false,false,false,none,false,⟨.lcode,some (.own 3),false,.lblank⟩⟩] (.node .leaf 1700494094 [⟨⟨(.inside 4),[],.lcode,false,[(5,1)],false⟩,false,false,[],some 4,some ⟨.code,[],.lcode,false,[(5,0)],false⟩,none,false,false,false,none,false,⟨.lcode,some (.own 3),false,.lblank⟩⟩] .leaf))) 2090803132 [⟨⟨(.inside 5),[92],.lcode,false,[],false⟩,false,false,[],some 4,some ⟨(.inside 5),[],.lcode,false,[],false⟩,none,false,false,false,none,false,⟨.lcode,some (.own 3),false,.lblank⟩⟩] (.node (.node (.node (.node .leaf 6390511657 [⟨⟨.code,[],.lblank,false,[(5,1),(6,1)],true⟩,false,false,[],some 4,some ⟨.code,[],.lcode,false,[(5,0),(6,0)],false⟩,none,false,true,false,none,false,⟨.lcode,some (.own 3),false,.lblank⟩⟩] .leaf) 6398062660 [⟨⟨.code,[],.lblank,false,[(6,1),(5,1)],true⟩,false,false,[],some 4,some ⟨.code,[],.lcode,false,[(5,0)],false⟩,none,false,true,false,none,false,⟨.lcode,some (.own 3),false,.lblank⟩⟩] .leaf) 20309352567 [⟨⟨(.inside 0),[],.lcode,false,[(5,1),(6,1)],false⟩,false,false,[],some 4,some ⟨.code,[],.lcode,false,[(5,0),(6,0)],false⟩,none,false,false,false,none,false,⟨.lcode,some (.own 3),false,.lblank⟩⟩] (.node .leaf 20316903570 [⟨⟨(.inside 0),[],.lcode,false,[(6,1),(5,1)],false⟩,false,false,[],some 4,some ⟨.code,[],.lcode,false,[(5,0)],false⟩,none,false,false,false,none,false,⟨.lcode,some (.own 3),false,.lblank⟩⟩] .leaf)) 20321235347 [⟨⟨(.inside 0),[],.lcode,false,[(6,1),(5,1)],false⟩,false,false,[],some 4,some ⟨.code,[],.lcode,false,[(6,0),(5,0)],false⟩,none,false,false,false,none,false,⟨.lcode,some (.own 3),false,.lblank⟩⟩] (.node (.node (.node .leaf 70923319527 [⟨⟨(.inside 1),[],.lcode,false,[(5,1),(6,1)],false⟩,false,false,[],some 4,some ⟨.code,[],.lcode,false,[(5,0),(6,0)],false⟩,none,false,false,false,none,false,⟨.lcode,some (.own 3),false,.lblank⟩⟩] .leaf) 70930870530 [⟨⟨(.inside 1),[],.lcode,false,[(6,1),(5,1)],false⟩,false,false,[],some 4,some ⟨.code,[],.lcode,false,[(5,0)],false⟩,none,false,false,false,none,false,⟨.lcode,some (.own 3),false,.lblank⟩⟩] .leaf) 70935202307 [⟨⟨(.inside 1),[],.lcode,false,[(6,1),(5,1)],false⟩,false,false,[],some 4,some ⟨.code,[],.lcode,false,[(6,0),(5,0)],false⟩,none,false,false,false,none,false,⟨.lcode,some (.own 3),false,.lblank⟩⟩] (.node .leaf 121537286487 [⟨⟨(.inside 2),[],.lcode,false,[(5,1),(6,1)],false⟩,false,false,[],some 4,some ⟨.code,[],.lcode,false,[(5,0),(6,0)],false⟩,none,false,false,false,none,false,⟨.lcode,some (.own 3),false,.lblank⟩⟩] .leaf)))) 121544837490 [⟨⟨(.inside 2),[],.lcode,false,[(6,1),(5,1)],false⟩,false,false,[],some 4,some ⟨.code,[],.lcode,false,[(5,0)],false⟩,none,false,false,false,none,false,⟨.lcode,some (.own 3),false,.lblank⟩⟩] (.node (.node (.node (.node (.node .leaf 121549169267 [⟨⟨(.inside 2),[],.lcode,false,[(6,1),(5,1)],false⟩,false,false,[],some 4,some ⟨.code,[],.lcode,false,[(6,0),(5,0)],false⟩,none,false,false,false,none,false,⟨.lcode,some (.own 3),false,.lblank⟩⟩] .leaf) 172151253447 [⟨⟨(.inside 3),[],.lcode,false,[(5,1),(6,1)],false⟩,false,false,[],some 4,some ⟨.code,[],.lcode,false,[(5,0),(6,0)],false⟩,none,false,false,false,none,false,⟨.lcode,some (.own 3),false,.lblank⟩⟩] .leaf) 172158804450 [⟨⟨(.inside 3),[],.lcode,false,[(6,1),(5,1)],false⟩,false,false,[],some 4,some ⟨.code,[],.lcode,false,[(5,0)],false⟩,none,false,false,false,none,false,⟨.lcode,some (.own 3),false,.lblank⟩⟩] (.node .leaf 172163136227 [⟨⟨(.inside 3),[],.lcode,false,[(6,1),(5,1)],false⟩,false,false,[],some 4,some ⟨.code,[],.lcode,false,[(6,0),(5,0)],false⟩,none,false,false,false,none,false,⟨.lcode,some (.own 3),false,.lblank⟩⟩] .leaf)) 222765220407 [⟨⟨(.inside 4),[],.lcode,false,[(5,1),(6,1)],false⟩,false,false,[],some 4,some ⟨.code,[],.lcode,false,[(5,0),(6,0)],false⟩,none,false,false,false,none,false,⟨.lcode,some (.own 3),false,.lblank⟩⟩] (.node (.node (.node .leaf 222772771410 [⟨⟨(.inside 4),[],.lcode,false,[(6,1),(5,1)],false⟩,false,false,[],some 4,some ⟨.code,[],.lcode,false,[(5,0)],false⟩,none,false,false,false,none,false,⟨.lcode,some (.own 3),false,.lblank⟩⟩] .leaf) 222777103187 [⟨⟨(.inside 4),[],.lcode,false,[(6,1),(5,1)],false⟩,false,false,[],some 4,some ⟨.code,[],.lcode,false,[(6,0),(5,0)],false⟩,none,false,false,false,none,false,⟨.lcode,some (.own 3),false,.lblank⟩⟩] .leaf) 273765042946 [⟨⟨(.inside 5),[92],.lcode,false,[(5,0)],false⟩,false,false,[],some 4,some ⟨.code,[],.lcode,false,[(5,0)],false⟩,none,false,false,false,none,false,⟨.lcode,some (.own 3),false,.lblank⟩⟩] (.node .leaf 273895600690 [⟨⟨(.inside 5),[92],.lcode,false,[(5,0)],false⟩,false,false,[],some 4,some ⟨(.inside 5),[],.lcode,false,[(5,0)],false⟩,none,false,false,false,none,false,⟨.lcode,some (.own 3),false,.lblank⟩⟩] .leaf))) 273895692096 [⟨⟨(.inside 5),[92],.lcode,false,[(6,0)],false⟩,false,false,[],some 4,some ⟨(.inside 5),[],.lcode,false,[(6,0)],false⟩,none,false,false,false,none,false,⟨.lcode,some (.own 3),false,.lblank⟩⟩] (.node (.node (.node (.node .leaf 324379009906 [⟨⟨(.inside 6),[92],.lcode,false,[(5,0)],false⟩,false,false,[],some 4,some ⟨.code,[],.lcode,false,[(5,0)],false⟩,none,false,false,false,none,false,⟨.lcode,some (.own 3),false,.lblank⟩⟩] .leaf) 35863221107730 [⟨⟨(.inside 5),[92],.lcode,false,[(5,0),(6,0)],false⟩,false,false,[],some 4,some ⟨.code,[],.lcode,false,[(5,0),(6,0)],false⟩,none,false,false,false,none,false,⟨.lcode,some (.own 3),false,.lblank⟩⟩] .leaf) 35863228658733 [⟨⟨(.inside 5),[92],.lcode,false,[(6,0),(5,0)],false⟩,false,false,[],some 4,some ⟨.code,[],.lcode,false,[(5,0)],false⟩,none,false,false,false,none,false,⟨.lcode,some (.own 3),false,.lblank⟩⟩] (.node .leaf 35863232990510 [⟨⟨(.inside 5),[92],.lcode,false,[(6,0),(5,0)],false⟩,false,false,[],some 4,some ⟨.code,[],.lcode,false,[(6,0),(5,0)],false⟩,none,false,false,false,none,false,⟨.lcode,some (.own 3),false,.lblank⟩⟩] .leaf)) 35880324172194 [⟨⟨(.inside 5),[92],.lcode,false,[(5,0),(6,0)],false⟩,false,false,[],some 4,some ⟨(.inside 5),[],.lcode,false,[(5,0),(6,0)],false⟩,none,false,false,false,none,false,⟨.lcode,some (.own 3),false,.lblank⟩⟩] (.node (.node (.node .leaf 35880336054974 [⟨⟨(.inside 5),[92],.lcode,false,[(6,0),(5,0)],false⟩,false,false,[],some 4,some ⟨(.inside 5),[],.lcode,false,[(6,0),(5,0)],false⟩,none,false,false,false,none,false,⟨.lcode,some (.own 3),false,.lblank⟩⟩] .leaf) 42493650779490 [⟨⟨(.inside 6),[92],.lcode,false,[(5,0),(6,0)],false⟩,false,false,[],some 4,some ⟨.code,[],.lcode,false,[(5,0),(6,0)],false⟩,none,false,false,false,none,false,⟨.lcode,some (.own 3),false,.lblank⟩⟩] .leaf) 42493658330493 [⟨⟨(.inside 6),[92],.lcode,false,[(6,0),(5,0)],false⟩,false,false,[],some 4,some ⟨.code,[],.lcode,false,[(5,0)],false⟩,none,false,false,false,none,false,⟨.lcode,some (.own 3),false,.lblank⟩⟩] (.node .leaf 42493662662270 [⟨⟨(.inside 6),[92],.lcode,false,[(6,0),(5,0)],false⟩,false,false,[],some 4,some ⟨.code,[],.lcode,false,[(6,0),(5,0)],false⟩,none,false,false,false,none,false,⟨.lcode,some (.own 3),false,.lblank⟩⟩] .leaf))))),(.node (.node (.node .leaf 1179872 [⟨⟨(.inside 0),[],.lcode,false,[],false⟩,false,false,[],none,none,none,false,false,false,none,false,⟨.lcode,some (.own 3),false,.lblank⟩⟩] .leaf) 1327852 [⟨⟨(.inside 0),[],.lcomment,false,[],false⟩,false,false,[],none,none,none,false,false,false,none,false,⟨.lcomment,some (.own 3),false,.lblank⟩⟩] (.node .leaf 154988996 [⟨⟨(.inside 0),[],.lcode,false,[(5,0)],false⟩,false,false,[],none,none,none,false,false,false,none,false,⟨.lcode,some (.own 3),false,.lblank⟩⟩] .leaf)) 155075019 [⟨⟨(.inside 0),[],.lcode,false,[(6,0)],false⟩,false,false,[],none,none,none,false,false,false,none,false,⟨.lcode,some (.own 3),false,.lblank⟩⟩] (.node (.node .leaf 20304070263 [⟨⟨(.inside 0),[],.lcode,false,[(5,0),(6,0)],false⟩,false,false,[],none,none,none,false,false,false,none,false,⟨.lcode,some (.own 3),false,.lblank⟩⟩] .leaf) 20315253253 [⟨⟨(.inside 0),[],.lcode,false,[(6,0),(5,0)],false⟩,false,false,[],none,none,none,false,false,false,none,false,⟨.lcode,some (.own 3),false,.lblank⟩⟩] .leaf)),(.node (.node (.node (.node .leaf 616140991 [⟨⟨(.inside 3),[],.lcode,false,[],false⟩,false,false,[],some 4,some ⟨.code,[47],.lcode,false,[],false⟩,some ([(42,(.other,false))],false),false,false,false,none,false,⟨.lcode,some (.own 3),false,.lblank⟩⟩] .leaf) 617497839 [⟨⟨(.inside 3),[],.lcomment,false,[],false⟩,false,false,[],some 4,some ⟨.code,[47],.lcomment,false,[],false⟩,some ([(42,(.other,false))],false),false,false,false,none,false,⟨.lcomment,some (.own 3),false,.lblank⟩⟩] .leaf) 618706707 [⟨⟨(.inside 3),[],.lcomment,false,[],false⟩,false,false,[],some 4,some ⟨.code,[47],.lblank,false,[],false⟩,some ([(42,(.other,false))],false),false,false,false,none,false,⟨.lcomment,some (.own 3),false,.lblank⟩⟩] (.node (.node .leaf 1934623879 [⟨⟨(.inside 3),[],.lcode,false,[(5,0)],false⟩,false,false,[],some 4,some ⟨.code,[47],.lcode,false,[(5,0)],false⟩,some ([(42,(.other,false))],false),false,false,false,none,false,⟨.lcode,some (.own 3),false,.lblank⟩⟩] .leaf) 1934624648 [⟨⟨(.inside 3),[],.lcode,false,[(5,0)],false⟩,false,false,[],some 4,some ⟨.code,[47],.lcode,false,[(5,1)],false⟩,some ([(42,(.other,false))],false),false,false,false,none,false,⟨.lcode,some (.own 3),false,.lblank⟩⟩] .leaf)) 1934715285 [⟨⟨(.inside 3),[],.lcode,false,[(6,0)],false⟩,false,false,[],some 4,some ⟨.code,[47],.lcode,false,[(6,0)],false⟩,some ([(42,(.other,false))],false),false,false,false,none,false,⟨.lcode,some (.own 3),false,.lblank⟩⟩] (.node (.node (.node .leaf 1934716054 [⟨⟨(.inside 3),[],.lcode,false,[(6,0)],false⟩,false,false,[],some 4,some ⟨.code,[47],.lcode,false,[(6,1)],false⟩,some ([(42,(.other,false))],false),false,false,false,none,false,⟨.lcode,some (.own 3),false,.lblank⟩⟩] .leaf) 174655973613 [⟨⟨(.inside 3),[],.lcode,false,[(5,0),(6,0)],false⟩,false,false,[],some 4,some ⟨.code,[47],.lcode,false,[(5,0),(6,0)],false⟩,some ([(42,(.other,false))],false),false,false,false,none,false,⟨.lcode,some (.own 3),false,.lblank⟩⟩] .leaf) 174656075121 [⟨⟨(.inside 3),[],.lcode,false,[(5,0),(6,0)],false⟩,false,false,[],some 4,some ⟨.code,[47],.lcode,false,[(5,1),(6,1)],false⟩,some ([(42,(.other,false))],false),false,false,false,none,false,⟨.lcode,some (.own 3),false,.lblank⟩⟩] (.node (.node .leaf 174667856393 [⟨⟨(.inside 3),[],.lcode,false,[(6,0),(5,0)],false⟩,false,false,[],some 4,some ⟨.code,[47],.lcode,false,[(6,0),(5,0)],false⟩,some ([(42,(.other,false))],false),false,false,false,none,false,⟨.lcode,some (.own 3),false,.lblank⟩⟩] .leaf) 174667957901 [⟨⟨(.inside 3),[],.lcode,false,[(6,0),(5,0)],false⟩,false,false,[],some 4,some ⟨.code,[47],.lcode,false,[(6,1),(5,1)],false⟩,some ([(42,(.other,false))],false),false,false,false,none,false,⟨.lcode,some (.own 3),false,.lblank⟩⟩] .leaf))),(.node (.node (.node .leaf 7078592 [⟨⟨(.inside 2),[],.lcode,false,[],false⟩,false,false,[],none,none,none,false,false,false,none,false,⟨.lcode,some (.own 3),false,.lblank⟩⟩] .leaf) 7226572 [⟨⟨(.inside 2),[],.lcomment,false,[],false⟩,false,false,[],none,none,none,false,false,false,none,false,⟨.lcomment,some (.own 3),false,.lblank⟩⟩] (.node .leaf 927721316 [⟨⟨(.inside 2),[],.lcode,false,[(5,0)],false⟩,false,false,[],none,none,none,false,false,false,none,false,⟨.lcode,some (.own 3),false,.lblank⟩⟩] .leaf)) 927807339 [⟨⟨(.inside 2),[],.lcode,false,[(6,0)],false⟩,false,false,[],none,none,none,false,false,false,none,false,⟨.lcode,some (.own 3),false,.lblank⟩⟩] (.node (.node .leaf 121532004183 [⟨⟨(.inside 2),[],.lcode,false,[(5,0),(6,0)],false⟩,false,false,[],none,none,none,false,false,false,none,false,⟨.lcode,some (.own 3),false,.lblank⟩⟩] .leaf) 121543187173 [⟨⟨(.inside 2),[],.lcode,false,[(6,0),(5,0)],false⟩,false,false,[],none,none,none,false,false,false,none,false,⟨.lcode,some (.own 3),false,.lblank⟩⟩] .leaf)),(.node (.node (.node (.node (.node .leaf 13789861 [⟨⟨(.inside 4),[],.lcode,false,[],false⟩,false,false,[],some 4,some ⟨(.inside 4),[],.lcode,false,[],false⟩,none,false,false,false,none,false,⟨.lcode,some (.own 3),false,.lblank⟩⟩] .leaf) 13937849 [⟨⟨(.inside 4),[],.lcomment,false,[],false⟩,false,false,[],some 4,some ⟨(.inside 4),[],.lcode,false,[],false⟩,none,true,false,false,none,false,⟨.lcomment,some .internalNl,false,.lblank⟩⟩] .leaf) 13947069 [⟨⟨(.inside 4),[],.lcomment,false,[],false⟩,false,false,[],some 4,some ⟨(.inside 4),[],.lcomment,false,[],false⟩,none,false,false,false,none,false,⟨.lcomment,some (.own 3),false,.lblank⟩⟩] (.node .leaf 13947077 [⟨⟨(.inside 4),[],.lcomment,false,[],false⟩,false,false,[],some 4,some ⟨(.inside 4),[],.lcomment,false,[],false⟩,none,true,false,false,none,false,⟨.lcomment,some .internalNl,false,.lblank⟩⟩] .leaf)) 119533853 [⟨⟨(.inside 4),[],.lcomment,false,[],false⟩,false,false,[],some 4,some ⟨(.inside 4),[],.lcode,false,[(5,0)],false⟩,none,true,false,false,none,false,⟨.lcomment,some .internalNl,false,.lblank⟩⟩] (.node (.node .leaf 119539236 [⟨⟨(.inside 4),[],.lcomment,false,[],false⟩,false,false,[],some 4,some ⟨(.inside 4),[],.lcode,false,[(6,0)],false⟩,none,true,false,false,none,false,⟨.lcomment,some .internalNl,false,.lblank⟩⟩] .leaf) 1806862189 [⟨⟨(.inside 4),[],.lcode,false,[(5,0)],false⟩,false,false,[],some 4,some ⟨(.inside 4),[],.lcode,false,[(5,0)],false⟩,none,false,false,false,none,false,⟨.lcode,some (.own 3),false,.lblank⟩⟩] (.node .leaf 1806874478 [⟨⟨(.inside 4),[],.lcode,false,[(5,1)],false⟩,false,false,[],some 4,some ⟨(.inside 4),[],.lcode,false,[(5,0)],false⟩,none,false,false,false,none,false,⟨.lcode,some (.own 3),false,.lblank⟩⟩] .leaf))) 1806953595 [⟨⟨(.inside 4),[],.lcode,false,[(6,0)],false⟩,false,false,[],some 4,some ⟨(.inside 4),[],.lcode,false,[(6,0)],false⟩,none,false,false,false,none,false,⟨.lcode,some (.own 3),false,.lblank⟩⟩] (.node (.node (.node .leaf 1806965884 [⟨⟨(.inside 4),[],.lcode,false,[(6,1)],false⟩,false,false,[],some 4,some ⟨(.inside 4),[],.lcode,false,[(6,0)],false⟩,none,false,false,false,none,false,⟨.lcode,some (.own 3),false,.lblank⟩⟩] .leaf) 13952615760 [⟨⟨(.inside 4),[],.lcomment,false,[],false⟩,false,false,[],some 4,some ⟨(.inside 4),[],.lcode,false,[(5,0),(6,0)],false⟩,none,true,false,false,none,false,⟨.lcomment,some .internalNl,false,.lblank⟩⟩] (.node .leaf 13953315550 [⟨⟨(.inside 4),[],.lcomment,false,[],false⟩,false,false,[],some 4,some ⟨(.inside 4),[],.lcode,false,[(6,0),(5,0)],false⟩,none,true,false,false,none,false,⟨.lcomment,some .internalNl,false,.lblank⟩⟩] .leaf)) 236699428563 [⟨⟨(.inside 4),[],.lcode,false,[(5,0),(6,0)],false⟩,false,false,[],some 4,some ⟨(.inside 4),[],.lcode,false,[(5,0),(6,0)],false⟩,none,false,false,false,none,false,⟨.lcode,some (.own 3),false,.lblank⟩⟩] (.node (.node .leaf 236701050711 [⟨⟨(.inside 4),[],.lcode,false,[(5,1),(6,1)],false⟩,false,false,[],some 4,some ⟨(.inside 4),[],.lcode,false,[(5,0),(6,0)],false⟩,none,false,false,false,none,false,⟨.lcode,some (.own 3),false,.lblank⟩⟩] .leaf) 236711311343 [⟨⟨(.inside 4),[],.lcode,false,[(6,0),(5,0)],false⟩,false,false,[],some 4,some ⟨(.inside 4),[],.lcode,false,[(6,0),(5,0)],false⟩,none,false,false,false,none,false,⟨.lcode,some (.own 3),false,.lblank⟩⟩] (.node .leaf 236712933491 [⟨⟨(.inside 4),[],.lcode,false,[(6,1),(5,1)],false⟩,false,false,[],some 4,some ⟨(.inside 4),[],.lcode,false,[(6,0),(5,0)],false⟩,none,false,false,false,none,false,⟨.lcode,some (.own 3),false,.lblank⟩⟩] .leaf)))),(.node (.node (.node (.node (.node .leaf 13789861 [⟨⟨(.inside 4),[],.lcode,false,[],false⟩,false,false,[],some 4,some ⟨(.inside 4),[],.lcode,false,[],false⟩,none,false,false,false,none,false,⟨.lcode,some (.own 3),false,.lblank⟩⟩] .leaf) 13937849 [⟨⟨(.inside 4),[],.lcomment,false,[],false⟩,false,false,[],some 4,some ⟨(.inside 4),[],.lcode,false,[],false⟩,none,true,false,false,none,false,⟨.lcomment,some .internalNl,false,.lblank⟩⟩] .leaf) 13947069 [⟨⟨(.inside 4),[],.lcomment,false,[],false⟩,false,false,[],some 4,some ⟨(.inside 4),[],.lcomment,false,[],false⟩,none,false,false,false,none,false,⟨.lcomment,some (.own 3),false,.lblank⟩⟩] (.node .leaf 13947077 [⟨⟨(.inside 4),[],.lcomment,false,[],false⟩,false,false,[],some 4,some ⟨(.inside 4),[],.lcomment,false,[],false⟩,none,true,false,false,none,false,⟨.lcomment,some .internalNl,false,.lblank⟩⟩] .leaf)) 14085829 [⟨⟨(.inside 4),[],.lblank,false,[],false⟩,false,false,[],some 4,some ⟨(.inside 4),[],.lcode,false,[],false⟩,none,true,false,false,none,false,⟨.lblank,some .internalNl,false,.lblank⟩⟩] (.node (.node (.node .leaf 14095057 [⟨⟨(.inside 4),[],.lblank,false,[],false⟩,false,false,[],some 4,some ⟨(.inside 4),[],.lcomment,false,[],false⟩,none,true,false,false,none,false,⟨.lblank,some .internalNl,false,.lblank⟩⟩] .leaf) 119533853 [⟨⟨(.inside 4),[],.lcomment,false,[],false⟩,false,false,[],some 4,some ⟨(.inside 4),[],.lcode,false,[(5,0)],false⟩,none,true,false,false,none,false,⟨.lcomment,some .internalNl,false,.lblank⟩⟩] .leaf) 119539236 [⟨⟨(.inside 4),[],.lcomment,false,[],false⟩,false,false,[],some 4,some ⟨(.inside 4),[],.lcode,false,[(6,0)],false⟩,none,true,false,false,none,false,⟨.lcomment,some .internalNl,false,.lblank⟩⟩] (.node .leaf 119681833 [⟨⟨(.inside 4),[],.lblank,false,[],false⟩,false,false,[],some 4,some ⟨(.inside 4),[],.lcode,false,[(5,0)],false⟩,none,true,false,false,none,false,⟨.lblank,some .internalNl,false,.lblank⟩⟩] .leaf))) 119687216 [⟨⟨(.inside 4),[],.lblank,false,[],false⟩,false,false,[],some 4,some ⟨(.inside 4),[],.lcode,false,[(6,0)],false⟩,none,true,false,false,none,false,⟨.lblank,some .internalNl,false,.lblank⟩⟩] (.node (.node (.node (.node .leaf 1806862189 [⟨⟨(.inside 4),[],.lcode,false,[(5,0)],false⟩,false,false,[],some 4,some ⟨(.inside 4),[],.lcode,false,[(5,0)],false⟩,none,false,false,false,none,false,⟨.lcode,some (.own 3),false,.lblank⟩⟩] .leaf) 1806953595 [⟨⟨(.inside 4),[],.lcode,false,[(6,0)],false⟩,false,false,[],some 4,some ⟨(.inside 4),[],.lcode,false,[(6,0)],false⟩,none,false,false,false,none,false,⟨.lcode,some (.own 3),false,.lblank⟩⟩] .leaf) 13952615760 [⟨⟨(.inside 4),[],.lcomment,false,[],false⟩,false,false,[],some 4,some ⟨(.inside 4),[],.lcode,false,[(5,0),(6,0)],false⟩,none,true,false,false,none,false,⟨.lcomment,some .internalNl,false,.lblank⟩⟩] (.node .leaf 13952763740 [⟨⟨(.inside 4),[],.lblank,false,[],false⟩,false,false,[],some 4,some ⟨(.inside 4),[],.lcode,false,[(5,0),(6,0)],false⟩,none,true,false,false,none,false,⟨.lblank,some .internalNl,false,.lblank⟩⟩] .leaf)) 13953315550 [⟨⟨(.inside 4),[],.lcomment,false,[],false⟩,false,false,[],some 4,some ⟨(.inside 4),[],.lcode,false,[(6,0),(5,0)],false⟩,none,true,false,false,none,false,⟨.lcomment,some .internalNl,false,.lblank⟩⟩] (.node (.node .leaf 13953463530 [⟨⟨(.inside 4),[],.lblank,false,[],false⟩,false,false,[],some 4,some ⟨(.inside 4),[],.lcode,false,[(6,0),(5,0)],false⟩,none,true,false,false,none,false,⟨.lblank,some .internalNl,false,.lblank⟩⟩] .leaf) 236699428563 [⟨⟨(.inside 4),[],.lcode,false,[(5,0),(6,0)],false⟩,false,false,[],some 4,some ⟨(.inside 4),[],.lcode,false,[(5,0),(6,0)],false⟩,none,false,false,false,none,false,⟨.lcode,some (.own 3),false,.lblank⟩⟩] (.node .leaf 236711311343 [⟨⟨(.inside 4),[],.lcode,false,[(6,0),(5,0)],false⟩,false,false,[],some 4,some ⟨(.inside 4),[],.lcode,false,[(6,0),(5,0)],false⟩,none,false,false,false,none,false,⟨.lcode,some (.own 3),false,.lblank⟩⟩] .leaf)))),(.node (.node (.node (.node (.node .leaf 13826728 [⟨⟨(.inside 4),[],.lcode,true,[],false⟩,false,false,[],some 4,some ⟨(.inside 4),[],.lcode,false,[],false⟩,none,false,false,false,none,false,⟨.lcode,some (.own 3),false,.lblank⟩⟩] .leaf) 13974716 [⟨⟨(.inside 4),[],.lcomment,true,[],false⟩,false,false,[],some 4,some ⟨(.inside 4),[],.lcode,false,[],false⟩,none,true,false,false,none,false,⟨.lcomment,some .internalNl,false,.lblank⟩⟩] .leaf) 13983936 [⟨⟨(.inside 4),[],.lcomment,true,[],false⟩,false,false,[],some 4,some ⟨(.inside 4),[],.lcomment,false,[],false⟩,none,false,false,false,none,false,⟨.lcomment,some (.own 3),false,.lblank⟩⟩] (.node .leaf 13983944 [⟨⟨(.inside 4),[],.lcomment,true,[],false⟩,false,false,[],some 4,some ⟨(.inside 4),[],.lcomment,false,[],false⟩,none,true,false,false,none,false,⟨.lcomment,some .internalNl,false,.lblank⟩⟩] .leaf)) 14122696 [⟨⟨(.inside 4),[],.lblank,true,[],false⟩,false,false,[],some 4,some ⟨(.inside 4),[],.lcode,false,[],false⟩,none,true,false,false,none,false,⟨.lblank,some .internalNl,false,.lblank⟩⟩] (.node (.node (.node .leaf 14131924 [⟨⟨(.inside 4),[],.lblank,true,[],false⟩,false,false,[],some 4,some ⟨(.inside 4),[],.lcomment,false,[],false⟩,none,true,false,false,none,false,⟨.lblank,some .internalNl,false,.lblank⟩⟩] .leaf) 119422732 [⟨⟨(.inside 4),[],.lcode,true,[],false⟩,false,false,[],some 4,some ⟨(.inside 4),[],.lcode,false,[(5,0)],false⟩,none,false,false,false,none,false,⟨.lcode,some (.own 3),false,.lblank⟩⟩] .leaf) 119428115 [⟨⟨(.inside 4),[],.lcode,true,[],false⟩,false,false,[],some 4,some ⟨(.inside 4),[],.lcode,false,[(6,0)],false⟩,none,false,false,false,none,false,⟨.lcode,some (.own 3),false,.lblank⟩⟩] (.node .leaf 119570720 [⟨⟨(.inside 4),[],.lcomment,true,[],false⟩,false,false,[],some 4,some ⟨(.inside 4),[],.lcode,false,[(5,0)],false⟩,none,true,false,false,none,false,⟨.lcomment,some .internalNl,false,.lblank⟩⟩] .leaf))) 119576103 [⟨⟨(.inside 4),[],.lcomment,true,[],false⟩,false,false,[],some 4,some ⟨(.inside 4),[],.lcode,false,[(6,0)],false⟩,none,true,false,false,none,false,⟨.lcomment,some .internalNl,false,.lblank⟩⟩] (.node (.node (.node (.node .leaf 119718700 [⟨⟨(.inside 4),[],.lblank,true,[],false⟩,false,false,[],some 4,some ⟨(.inside 4),[],.lcode,false,[(5,0)],false⟩,none,true,false,false,none,false,⟨.lblank,some .internalNl,false,.lblank⟩⟩] .leaf) 119724083 [⟨⟨(.inside 4),[],.lblank,true,[],false⟩,false,false,[],some 4,some ⟨(.inside 4),[],.lcode,false,[(6,0)],false⟩,none,true,false,false,none,false,⟨.lblank,some .internalNl,false,.lblank⟩⟩] .leaf) 13952504639 [⟨⟨(.inside 4),[],.lcode,true,[],false⟩,false,false,[],some 4,some ⟨(.inside 4),[],.lcode,false,[(5,0),(6,0)],false⟩,none,false,false,false,none,false,⟨.lcode,some (.own 3),false,.lblank⟩⟩] (.node .leaf 13952652627 [⟨⟨(.inside 4),[],.lcomment,true,[],false⟩,false,false,[],some 4,some ⟨(.inside 4),[],.lcode,false,[(5,0),(6,0)],false⟩,none,true,false,false,none,false,⟨.lcomment,some .internalNl,false,.lblank⟩⟩] .leaf)) 13952800607 [⟨⟨(.inside 4),[],.lblank,true,[],false⟩,false,false,[],some 4,some ⟨(.inside 4),[],.lcode,false,[(5,0),(6,0)],false⟩,none,true,false,false,none,false,⟨.lblank,some .internalNl,false,.lblank⟩⟩] (.node (.node .leaf 13953204429 [⟨⟨(.inside 4),[],.lcode,true,[],false⟩,false,false,[],some 4,some ⟨(.inside 4),[],.lcode,false,[(6,0),(5,0)],false⟩,none,false,false,false,none,false,⟨.lcode,some (.own 3),false,.lblank⟩⟩] .leaf) 13953352417 [⟨⟨(.inside 4),[],.lcomment,true,[],false⟩,false,false,[],some 4,some ⟨(.inside 4),[],.lcode,false,[(6,0),(5,0)],false⟩,none,true,false,false,none,false,⟨.lcomment,some .internalNl,false,.lblank⟩⟩] (.node .leaf 13953500397 [⟨⟨(.inside 4),[],.lblank,true,[],false⟩,false,false,[],some 4,some ⟨(.inside 4),[],.lcode,false,[(6,0),(5,0)],false⟩,none,true,false,false,none,false,⟨.lblank,some .internalNl,false,.lblank⟩⟩] .leaf)))),(.node (.node (.node (.node (.node .leaf 13826728 [⟨⟨(.inside 4),[],.lcode,true,[],false⟩,false,false,[],some 4,some ⟨(.inside 4),[],.lcode,false,[],false⟩,none,false,false,false,none,false,⟨.lcode,some (.own 3),false,.lblank⟩⟩] .leaf) 13974716 [⟨⟨(.inside 4),[],.lcomment,true,[],false⟩,false,false,[],some 4,some ⟨(.inside 4),[],.lcode,false,[],false⟩,none,true,false,false,none,false,⟨.lcomment,some .internalNl,false,.lblank⟩⟩] .leaf) 13983936 [⟨⟨(.inside 4),[],.lcomment,true,[],false⟩,false,false,[],some 4,some ⟨(.inside 4),[],.lcomment,false,[],false⟩,none,false,false,false,none,false,⟨.lcomment,some (.own 3),false,.lblank⟩⟩] (.node .leaf 13983944 [⟨⟨(.inside 4),[],.lcomment,true,[],false⟩,false,false,[],some 4,some ⟨(.inside 4),[],.lcomment,false,[],false⟩,none,true,false,false,none,false,⟨.lcomment,some .internalNl,false,.lblank⟩⟩] .leaf)) 14122696 [⟨⟨(.inside 4),[],.lblank,true,[],false⟩,false,false,[],some 4,some ⟨(.inside 4),[],.lcode,false,[],false⟩,none,true,false,false,none,false,⟨.lblank,some .internalNl,false,.lblank⟩⟩] (.node (.node (.node .leaf 14131924 [⟨⟨(.inside 4),[],.lblank,true,[],false⟩,false,false,[],some 4,some ⟨(.inside 4),[],.lcomment,false,[],false⟩,none,true,false,false,none,false,⟨.lblank,some .internalNl,false,.lblank⟩⟩] .leaf) 119422732 [⟨⟨(.inside 4),[],.lcode,true,[],false⟩,false,false,[],some 4,some ⟨(.inside 4),[],.lcode,false,[(5,0)],false⟩,none,false,false,false,none,false,⟨.lcode,some (.own 3),false,.lblank⟩⟩] .leaf) 119428115 [⟨⟨(.inside 4),[],.lcode,true,[],false⟩,false,false,[],some 4,some ⟨(.inside 4),[],.lcode,false,[(6,0)],false⟩,none,false,false,false,none,false,⟨.lcode,some (.own 3),false,.lblank⟩⟩] (.node .leaf 119570720 [⟨⟨(.inside 4),[],.lcomment,true,[],false⟩,false,false,[],some 4,some ⟨(.inside 4),[],.lcode,false,[(5,0)],false⟩,none,true,false,false,none,false,⟨.lcomment,some .internalNl,false,.lblank⟩⟩] .leaf))) 119576103 [⟨⟨(.inside 4),[],.lcomment,true,[],false⟩,false,false,[],some 4,some ⟨(.inside 4),[],.lcode,false,[(6,0)],false⟩,none,true,false,false,none,false,⟨.lcomment,some .internalNl,false,.lblank⟩⟩] (.node (.node (.node (.node .leaf 119718700 [⟨⟨(.inside 4),[],.lblank,true,[],false⟩,false,false,[],some 4,some ⟨(.inside 4),[],.lcode,false,[(5,0)],false⟩,none,true,false,false,none,false,⟨.lblank,some .internalNl,false,.lblank⟩⟩] .leaf) 119724083 [⟨⟨(.inside 4),[],.lblank,true,[],false⟩,false,false,[],some 4,some ⟨(.inside 4),[],.lcode,false,[(6,0)],false⟩,none,true,false,false,none,false,⟨.lblank,some .internalNl,false,.lblank⟩⟩] .leaf) 13952504639 [⟨⟨(.inside 4),[],.lcode,true,[],false⟩,false,false,[],some 4,some ⟨(.inside 4),[],.lcode,false,[(5,0),(6,0)],false⟩,none,false,false,false,none,false,⟨.lcode,some (.own 3),false,.lblank⟩⟩] (.node .leaf 13952652627 [⟨⟨(.inside 4),[],.lcomment,true,[],false⟩,false,false,[],some 4,some ⟨(.inside 4),[],.lcode,false,[(5,0),(6,0)],false⟩,none,true,false,false,none,false,⟨.lcomment,some .internalNl,false,.lblank⟩⟩] .leaf)) 13952800607 [⟨⟨(.inside 4),[],.lblank,true,[],false⟩,false,false,[],some 4,some ⟨(.inside 4),[],.lcode,false,[(5,0),(6,0)],false⟩,none,true,false,false,none,false,⟨.lblank,some .internalNl,false,.lblank⟩⟩] (.node (.node .leaf 13953204429 [⟨⟨(.inside 4),[],.lcode,true,[],false⟩,false,false,[],some 4,some ⟨(.inside 4),[],.lcode,false,[(6,0),(5,0)],false⟩,none,false,false,false,none,false,⟨.lcode,some (.own 3),false,.lblank⟩⟩] .leaf) 13953352417 [⟨⟨(.inside 4),[],.lcomment,true,[],false⟩,false,false,[],some 4,some ⟨(.inside 4),[],.lcode,false,[(6,0),(5,0)],false⟩,none,true,false,false,none,false,⟨.lcomment,some .internalNl,false,.lblank⟩⟩] (.node .leaf 13953500397 [⟨⟨(.inside 4),[],.lblank,true,[],false⟩,false,false,[],some 4,some ⟨(.inside 4),[],.lcode,false,[(6,0),(5,0)],false⟩,none,true,false,false,none,false,⟨.lblank,some .internalNl,false,.lblank⟩⟩] .leaf)))),(.node (.node (.node (.node (.node .leaf 13789893 [⟨⟨(.inside 4),[],.lcode,false,[],false⟩,true,false,[],some 4,some ⟨(.inside 4),[],.lcode,false,[],false⟩,none,false,false,false,none,false,⟨.lcode,some (.own 3),false,.lblank⟩⟩] .leaf) 13937881 [⟨⟨(.inside 4),[],.lcomment,false,[],false⟩,true,false,[],some 4,some ⟨(.inside 4),[],.lcode,false,[],false⟩,none,true,false,false,none,false,⟨.lcomment,some .internalNl,false,.lblank⟩⟩] .leaf) 13947101 [⟨⟨(.inside 4),[],.lcomment,false,[],false⟩,true,false,[],some 4,some ⟨(.inside 4),[],.lcomment,false,[],false⟩,none,false,false,false,none,false,⟨.lcomment,some (.own 3),false,.lblank⟩⟩] (.node .leaf 13947109 [⟨⟨(.inside 4),[],.lcomment,false,[],false⟩,true,false,[],some 4,some ⟨(.inside 4),[],.lcomment,false,[],false⟩,none,true,false,false,none,false,⟨.lcomment,some .internalNl,false,.lblank⟩⟩] .leaf)) 14085861 [⟨⟨(.inside 4),[],.lblank,false,[],false⟩,true,false,[],some 4,some ⟨(.inside 4),[],.lcode,false,[],false⟩,none,true,false,false,none,false,⟨.lblank,some .internalNl,false,.lblank⟩⟩] (.node (.node (.node .leaf 14095089 [⟨⟨(.inside 4),[],.lblank,false,[],false⟩,true,false,[],some 4,some ⟨(.inside 4),[],.lcomment,false,[],false⟩,none,true,false,false,none,false,⟨.lblank,some .internalNl,false,.lblank⟩⟩] .leaf) 119385897 [⟨⟨(.inside 4),[],.lcode,false,[],false⟩,true,false,[],some 4,some ⟨(.inside 4),[],.lcode,false,[(5,0)],false⟩,none,false,false,false,none,false,⟨.lcode,some (.own 3),false,.lblank⟩⟩] .leaf) 119391280 [⟨⟨(.inside 4),[],.lcode,false,[],false⟩,true,false,[],some 4,some ⟨(.inside 4),[],.lcode,false,[(6,0)],false⟩,none,false,false,false,none,false,⟨.lcode,some (.own 3),false,.lblank⟩⟩] (.node .leaf 119533885 [⟨⟨(.inside 4),[],.lcomment,false,[],false⟩,true,false,[],some 4,some ⟨(.inside 4),[],.lcode,false,[(5,0)],false⟩,none,true,false,false,none,false,⟨.lcomment,some .internalNl,false,.lblank⟩⟩] .leaf))) 119539268 [⟨⟨(.inside 4),[],.lcomment,false,[],false⟩,true,false,[],some 4,some ⟨(.inside 4),[],.lcode,false,[(6,0)],false⟩,none,true,false,false,none,false,⟨.lcomment,some .internalNl,false,.lblank⟩⟩] (.node (.node (.node (.node .leaf 119681865 [⟨⟨(.inside 4),[],.lblank,false,[],false⟩,true,false,[],some 4,some ⟨(.inside 4),[],.lcode,false,[(5,0)],false⟩,none,true,false,false,none,false,⟨.lblank,some .internalNl,false,.lblank⟩⟩] .leaf) 119687248 [⟨⟨(.inside 4),[],.lblank,false,[],false⟩,true,false,[],some 4,some ⟨(.inside 4),[],.lcode,false,[(6,0)],false⟩,none,true,false,false,none,false,⟨.lblank,some .internalNl,false,.lblank⟩⟩] .leaf) 13952467804 [⟨⟨(.inside 4),[],.lcode,false,[],false⟩,true,false,[],some 4,some ⟨(.inside 4),[],.lcode,false,[(5,0),(6,0)],false⟩,none,false,false,false,none,false,⟨.lcode,some (.own 3),false,.lblank⟩⟩] (.node .leaf 13952615792 [⟨⟨(.inside 4),[],.lcomment,false,[],false⟩,true,false,[],some 4,some ⟨(.inside 4),[],.lcode,false,[(5,0),(6,0)],false⟩,none,true,false,false,none,false,⟨.lcomment,some .internalNl,false,.lblank⟩⟩] .leaf)) 13952763772 [⟨⟨(.inside 4),[],.lblank,false,[],false⟩,true,false,[],some 4,some ⟨(.inside 4),[],.lcode,false,[(5,0),(6,0)],false⟩,none,true,false,false,none,false,⟨.lblank,some .internalNl,false,.lblank⟩⟩] (.node (.node .leaf 13953167594 [⟨⟨(.inside 4),[],.lcode,false,[],false⟩,true,false,[],some 4,some ⟨(.inside 4),[],.lcode,false,[(6,0),(5,0)],false⟩,none,false,false,false,none,false,⟨.lcode,some (.own 3),false,.lblank⟩⟩] .leaf) 13953315582 [⟨⟨(.inside 4),[],.lcomment,false,[],false⟩,true,false,[],some 4,some ⟨(.inside 4),[],.lcode,false,[(6,0),(5,0)],false⟩,none,true,false,false,none,false,⟨.lcomment,some .internalNl,false,.lblank⟩⟩] (.node .leaf 13953463562 [⟨⟨(.inside 4),[],.lblank,false,[],false⟩,true,false,[],some 4,some ⟨(.inside 4),[],.lcode,false,[(6,0),(5,0)],false⟩,none,true,false,false,none,false,⟨.lblank,some .internalNl,false,.lblank⟩⟩] .leaf)))),(.node (.node (.node (.node (.node .leaf 13826744 [⟨⟨(.inside 4),[],.lcode,true,[],false⟩,false,true,[],some 4,some ⟨(.inside 4),[],.lcode,false,[],false⟩,none,false,false,false,none,false,⟨.lcode,some (.own 3),false,.lblank⟩⟩] .leaf) 13974732 [⟨⟨(.inside 4),[],.lcomment,true,[],false⟩,false,true,[],some 4,some ⟨(.inside 4),[],.lcode,false,[],false⟩,none,true,false,false,none,false,⟨.lcomment,some .internalNl,false,.lblank⟩⟩] .leaf) 13983952 [⟨⟨(.inside 4),[],.lcomment,true,[],false⟩,false,true,[],some 4,some ⟨(.inside 4),[],.lcomment,false,[],false⟩,none,false,false,false,none,false,⟨.lcomment,some (.own 3),false,.lblank⟩⟩] (.node .leaf 13983960 [⟨⟨(.inside 4),[],.lcomment,true,[],false⟩,false,true,[],some 4,some ⟨(.inside 4),[],.lcomment,false,[],false⟩,none,true,false,false,none,false,⟨.lcomment,some .internalNl,false,.lblank⟩⟩] .leaf)) 14122712 [⟨⟨(.inside 4),[],.lblank,true,[],false⟩,false,true,[],some 4,some ⟨(.inside 4),[],.lcode,false,[],false⟩,none,true,false,false,none,false,⟨.lblank,some .internalNl,false,.lblank⟩⟩] (.node (.node (.node .leaf 14131940 [⟨⟨(.inside 4),[],.lblank,true,[],false⟩,false,true,[],some 4,some ⟨(.inside 4),[],.lcomment,false,[],false⟩,none,true,false,false,none,false,⟨.lblank,some .internalNl,false,.lblank⟩⟩] .leaf) 119422748 [⟨⟨(.inside 4),[],.lcode,true,[],false⟩,false,true,[],some 4,some ⟨(.inside 4),[],.lcode,false,[(5,0)],false⟩,none,false,false,false,none,false,⟨.lcode,some (.own 3),false,.lblank⟩⟩] .leaf) 119428131 [⟨⟨(.inside 4),[],.lcode,true,[],false⟩,false,true,[],some 4,some ⟨(.inside 4),[],.lcode,false,[(6,0)],false⟩,none,false,false,false,none,false,⟨.lcode,some (.own 3),false,.lblank⟩⟩] (.node .leaf 119570736 [⟨⟨(.inside 4),[],.lcomment,true,[],false⟩,false,true,[],some 4,some ⟨(.inside 4),[],.lcode,false,[(5,0)],false⟩,none,true,false,false,none,false,⟨.lcomment,some .internalNl,false,.lblank⟩⟩] .leaf))) 119576119 [⟨⟨(.inside 4),[],.lcomment,true,[],false⟩,false,true,[],some 4,some ⟨(.inside 4),[],.lcode,false,[(6,0)],false⟩,none,true,false,false,none,false,⟨.lcomment,some .internalNl,false,.lblank⟩⟩] (.node (.node (.node (.node .leaf 119718716 [⟨⟨(.inside 4),[],.lblank,true,[],false⟩,false,true,[],some 4,some ⟨(.inside 4),[],.lcode,false,[(5,0)],false⟩,none,true,false,false,none,false,⟨.lblank,some .internalNl,false,.lblank⟩⟩] .leaf) 119724099 [⟨⟨(.inside 4),[],.lblank,true,[],false⟩,false,true,[],some 4,some ⟨(.inside 4),[],.lcode,false,[(6,0)],false⟩,none,true,false,false,none,false,⟨.lblank,some .internalNl,false,.lblank⟩⟩] .leaf) 13952504655 [⟨⟨(.inside 4),[],.lcode,true,[],false⟩,false,true,[],some 4,some ⟨(.inside 4),[],.lcode,false,[(5,0),(6,0)],false⟩,none,false,false,false,none,false,⟨.lcode,some (.own 3),false,.lblank⟩⟩] (.node .leaf 13952652643 [⟨⟨(.inside 4),[],.lcomment,true,[],false⟩,false,true,[],some 4,some ⟨(.inside 4),[],.lcode,false,[(5,0),(6,0)],false⟩,none,true,false,false,none,false,⟨.lcomment,some .internalNl,false,.lblank⟩⟩] .leaf)) 13952800623 [⟨⟨(.inside 4),[],.lblank,true,[],false⟩,false,true,[],some 4,some ⟨(.inside 4),[],.lcode,false,[(5,0),(6,0)],false⟩,none,true,false,false,none,false,⟨.lblank,some .internalNl,false,.lblank⟩⟩] (.node (.node .leaf 13953204445 [⟨⟨(.inside 4),[],.lcode,true,[],false⟩,false,true,[],some 4,some ⟨(.inside 4),[],.lcode,false,[(6,0),(5,0)],false⟩,none,false,false,false,none,false,⟨.lcode,some (.own 3),false,.lblank⟩⟩] .leaf) 13953352433 [⟨⟨(.inside 4),[],.lcomment,true,[],false⟩,false,true,[],some 4,some ⟨(.inside 4),[],.lcode,false,[(6,0),(5,0)],false⟩,none,true,false,false,none,false,⟨.lcomment,some .internalNl,false,.lblank⟩⟩] (.node .leaf 13953500413 [⟨⟨(.inside 4),[],.lblank,true,[],false⟩,false,true,[],some 4,some ⟨(.inside 4),[],.lcode,false,[(6,0),(5,0)],false⟩,none,true,false,false,none,false,⟨.lblank,some .internalNl,false,.lblank⟩⟩] .leaf)))),(.node (.node (.node (.node (.node (.node .leaf 562107 [⟨⟨.code,[],.lcode,false,[(6,0)],false⟩,false,false,[],some 4,some ⟨.code,[],.lcode,false,[(6,0)],false⟩,none,false,false,false,none,false,⟨.lcode,some (.own 3),false,.lblank⟩⟩] .leaf) 20057701 [⟨⟨(.inside 6),[],.lcode,false,[],false⟩,false,false,[],some 4,some ⟨(.inside 6),[],.lcode,false,[],false⟩,none,false,false,false,none,false,⟨.lcode,some (.own 3),false,.lblank⟩⟩] (.node .leaf 48857881 [⟨⟨.code,[],.lblank,false,[(6,0)],true⟩,false,false,[],some 4,some ⟨.code,[],.lcode,false,[(6,0)],false⟩,none,false,true,false,none,false,⟨.lcode,some (.own 3),false,.lblank⟩⟩] .leaf)) 58517031 [⟨⟨.code,[],.lcode,false,[(5,0),(6,0)],false⟩,false,false,[],some 4,some ⟨.code,[],.lcode,false,[(6,0)],false⟩,none,false,false,false,none,false,⟨.lcode,some (.own 3),false,.lblank⟩⟩] (.node (.node .leaf 62143635 [⟨⟨.code,[],.lcode,false,[(5,0),(6,0)],false⟩,false,false,[],some 4,some ⟨.code,[],.lcode,false,[(5,0),(6,0)],false⟩,none,false,false,false,none,false,⟨.lcode,some (.own 3),false,.lblank⟩⟩] .leaf) 74026415 [⟨⟨.code,[],.lcode,false,[(6,0),(5,0)],false⟩,false,false,[],some 4,some ⟨.code,[],.lcode,false,[(6,0),(5,0)],false⟩,none,false,false,false,none,false,⟨.lcode,some (.own 3),false,.lblank⟩⟩] .leaf)) 155108571 [⟨⟨(.inside 0),[],.lcode,false,[(6,0)],false⟩,false,false,[],some 4,some ⟨.code,[],.lcode,false,[(6,0)],false⟩,none,false,false,false,none,false,⟨.lcode,some (.own 3),false,.lblank⟩⟩] (.node (.node (.node .leaf 222734938 [⟨⟨.code,[45],.lcode,false,[(6,1)],false⟩,false,false,[],some 4,some ⟨.code,[],.lcode,false,[(6,0)],false⟩,none,false,false,false,none,false,⟨.lcode,some (.own 3),false,.lblank⟩⟩] .leaf) 232394092 [⟨⟨.code,[47],.lcode,false,[(6,1)],false⟩,false,false,[],some 4,some ⟨.code,[],.lcode,false,[(6,0)],false⟩,none,false,false,false,none,false,⟨.lcode,some (.own 3),false,.lblank⟩⟩] (.node .leaf 541474731 [⟨⟨(.inside 1),[],.lcode,false,[(6,0)],false⟩,false,false,[],some 4,some ⟨.code,[],.lcode,false,[(6,0)],false⟩,none,false,false,false,none,false,⟨.lcode,some (.own 3),false,.lblank⟩⟩] .leaf)) 927840891 [⟨⟨(.inside 2),[],.lcode,false,[(6,0)],false⟩,false,false,[],some 4,some ⟨.code,[],.lcode,false,[(6,0)],false⟩,none,false,false,false,none,false,⟨.lcode,some (.own 3),false,.lblank⟩⟩] (.node (.node .leaf 1314207051 [⟨⟨(.inside 3),[],.lcode,false,[(6,0)],false⟩,false,false,[],some 4,some ⟨.code,[],.lcode,false,[(6,0)],false⟩,none,false,false,false,none,false,⟨.lcode,some (.own 3),false,.lblank⟩⟩] .leaf) 1700573211 [⟨⟨(.inside 4),[],.lcode,false,[(6,0)],false⟩,false,false,[],some 4,some ⟨.code,[],.lcode,false,[(6,0)],false⟩,none,false,false,false,none,false,⟨.lcode,some (.own 3),false,.lblank⟩⟩] .leaf))) 2086939371 [⟨⟨(.inside 5),[],.lcode,false,[(6,0)],false⟩,false,false,[],some 4,some ⟨.code,[],.lcode,false,[(6,0)],false⟩,none,false,false,false,none,false,⟨.lcode,some (.own 3),false,.lblank⟩⟩] (.node (.node (.node (.node .leaf 2473305531 [⟨⟨(.inside 6),[],.lcode,false,[(6,0)],false⟩,false,false,[],some 4,some ⟨.code,[],.lcode,false,[(6,0)],false⟩,none,false,false,false,none,false,⟨.lcode,some (.own 3),false,.lblank⟩⟩] .leaf) 2627949229 [⟨⟨(.inside 6),[],.lcode,false,[(5,0)],false⟩,false,false,[],some 4,some ⟨(.inside 6),[],.lcode,false,[(5,0)],false⟩,none,false,false,false,none,false,⟨.lcode,some (.own 3),false,.lblank⟩⟩] (.node .leaf 2628040635 [⟨⟨(.inside 6),[],.lcode,false,[(6,0)],false⟩,false,false,[],some 4,some ⟨(.inside 6),[],.lcode,false,[(6,0)],false⟩,none,false,false,false,none,false,⟨.lcode,some (.own 3),false,.lblank⟩⟩] .leaf)) 6385262905 [⟨⟨.code,[],.lblank,false,[(5,0),(6,0)],true⟩,false,false,[],some 4,some ⟨.code,[],.lcode,false,[(6,0)],false⟩,none,false,true,false,none,false,⟨.lcode,some (.own 3),false,.lblank⟩⟩] (.node (.node .leaf 6400772289 [⟨⟨.code,[],.lblank,false,[(6,0),(5,0)],true⟩,false,false,[],some 4,some ⟨.code,[],.lcode,false,[(6,0),(5,0)],false⟩,none,false,true,false,none,false,⟨.lcode,some (.own 3),false,.lblank⟩⟩] .leaf) 20304103815 [⟨⟨(.inside 0),[],.lcode,false,[(5,0),(6,0)],false⟩,false,false,[],some 4,some ⟨.code,[],.lcode,false,[(6,0)],false⟩,none,false,false,false,none,false,⟨.lcode,some (.own 3),false,.lblank⟩⟩] .leaf)) 20307730419 [⟨⟨(.inside 0),[],.lcode,false,[(5,0),(6,0)],false⟩,false,false,[],some 4,some ⟨.code,[],.lcode,false,[(5,0),(6,0)],false⟩,none,false,false,false,none,false,⟨.lcode,some (.own 3),false,.lblank⟩⟩] (.node (.node (.node .leaf 20319613199 [⟨⟨(.inside 0),[],.lcode,false,[(6,0),(5,0)],false⟩,false,false,[],some 4,some ⟨.code,[],.lcode,false,[(6,0),(5,0)],false⟩,none,false,false,false,none,false,⟨.lcode,some (.own 3),false,.lblank⟩⟩] .leaf) 29163170181 [⟨⟨.code,[45],.lcode,false,[(5,1),(6,1)],false⟩,false,false,[],some 4,some ⟨.code,[],.lcode,false,[(6,0)],false⟩,none,false,false,false,none,false,⟨.lcode,some (.own 3),false,.lblank⟩⟩] .leaf) 29166796785 [⟨⟨.code,[45],.lcode,false,[(5,1),(6,1)],false⟩,false,false,[],some 4,some ⟨.code,[],.lcode,false,[(5,0),(6,0)],false⟩,none,false,false,false,none,false,⟨.lcode,some (.own 3),false,.lblank⟩⟩] (.node (.node .leaf 29178679565 [⟨⟨.code,[45],.lcode,false,[(6,1),(5,1)],false⟩,false,false,[],some 4,some ⟨.code,[],.lcode,false,[(6,0),(5,0)],false⟩,none,false,false,false,none,false,⟨.lcode,some (.own 3),false,.lblank⟩⟩] .leaf) 30428519355 [⟨⟨.code,[47],.lcode,false,[(5,1),(6,1)],false⟩,false,false,[],some 4,some ⟨.code,[],.lcode,false,[(6,0)],false⟩,none,false,false,false,none,false,⟨.lcode,some (.own 3),false,.lblank⟩⟩] .leaf)))) 30432145959 [⟨⟨.code,[47],.lcode,false,[(5,1),(6,1)],false⟩,false,false,[],some 4,some ⟨.code,[],.lcode,false,[(5,0),(6,0)],false⟩,none,false,false,false,none,false,⟨.lcode,some (.own 3),false,.lblank⟩⟩] (.node (.node (.node (.node (.node .leaf 30444028739 [⟨⟨.code,[47],.lcode,false,[(6,1),(5,1)],false⟩,false,false,[],some 4,some ⟨.code,[],.lcode,false,[(6,0),(5,0)],false⟩,none,false,false,false,none,false,⟨.lcode,some (.own 3),false,.lblank⟩⟩] .leaf) 70918070775 [⟨⟨(.inside 1),[],.lcode,false,[(5,0),(6,0)],false⟩,false,false,[],some 4,some ⟨.code,[],.lcode,false,[(6,0)],false⟩,none,false,false,false,none,false,⟨.lcode,some (.own 3),false,.lblank⟩⟩] (.node .leaf 70921697379 [⟨⟨(.inside 1),[],.lcode,false,[(5,0),(6,0)],false⟩,false,false,[],some 4,some ⟨.code,[],.lcode,false,[(5,0),(6,0)],false⟩,none,false,false,false,none,false,⟨.lcode,some (.own 3),false,.lblank⟩⟩] .leaf)) 70933580159 [⟨⟨(.inside 1),[],.lcode,false,[(6,0),(5,0)],false⟩,false,false,[],some 4,some ⟨.code,[],.lcode,false,[(6,0),(5,0)],false⟩,none,false,false,false,none,false,⟨.lcode,some (.own 3),false,.lblank⟩⟩] (.node (.node .leaf 121532037735 [⟨⟨(.inside 2),[],.lcode,false,[(5,0),(6,0)],false⟩,false,false,[],some 4,some ⟨.code,[],.lcode,false,[(6,0)],false⟩,none,false,false,false,none,false,⟨.lcode,some (.own 3),false,.lblank⟩⟩] .leaf) 121535664339 [⟨⟨(.inside 2),[],.lcode,false,[(5,0),(6,0)],false⟩,false,false,[],some 4,some ⟨.code,[],.lcode,false,[(5,0),(6,0)],false⟩,none,false,false,false,none,false,⟨.lcode,some (.own 3),false,.lblank⟩⟩] .leaf)) 121547547119 [⟨⟨(.inside 2),[],.lcode,false,[(6,0),(5,0)],false⟩,false,false,[],some 4,some ⟨.code,[],.lcode,false,[(6,0),(5,0)],false⟩,none,false,false,false,none,false,⟨.lcode,some (.own 3),false,.lblank⟩⟩] (.node (.node (.node .leaf 172146004695 [⟨⟨(.inside 3),[],.lcode,false,[(5,0),(6,0)],false⟩,false,false,[],some 4,some ⟨.code,[],.lcode,false,[(6,0)],false⟩,none,false,false,false,none,false,⟨.lcode,some (.own 3),false,.lblank⟩⟩] .leaf) 172149631299 [⟨⟨(.inside 3),[],.lcode,false,[(5,0),(6,0)],false⟩,false,false,[],some 4,some ⟨.code,[],.lcode,false,[(5,0),(6,0)],false⟩,none,false,false,false,none,false,⟨.lcode,some (.own 3),false,.lblank⟩⟩] .leaf) 172161514079 [⟨⟨(.inside 3),[],.lcode,false,[(6,0),(5,0)],false⟩,false,false,[],some 4,some ⟨.code,[],.lcode,false,[(6,0),(5,0)],false⟩,none,false,false,false,none,false,⟨.lcode,some (.own 3),false,.lblank⟩⟩] (.node (.node .leaf 172295733871 [⟨⟨(.inside 3),[42],.lcode,false,[(6,1)],false⟩,false,false,[],some 4,some ⟨.code,[],.lcode,false,[(6,0)],false⟩,none,false,false,false,none,false,⟨.lcode,some (.own 3),false,.lblank⟩⟩] .leaf) 222759971655 [⟨⟨(.inside 4),[],.lcode,false,[(5,0),(6,0)],false⟩,false,false,[],some 4,some ⟨.code,[],.lcode,false,[(6,0)],false⟩,none,false,false,false,none,false,⟨.lcode,some (.own 3),false,.lblank⟩⟩] .leaf))) 222763598259 [⟨⟨(.inside 4),[],.lcode,false,[(5,0),(6,0)],false⟩,false,false,[],some 4,some ⟨.code,[],.lcode,false,[(5,0),(6,0)],false⟩,none,false,false,false,none,false,⟨.lcode,some (.own 3),false,.lblank⟩⟩] (.node (.node (.node (.node .leaf 222775481039 [⟨⟨(.inside 4),[],.lcode,false,[(6,0),(5,0)],false⟩,false,false,[],some 4,some ⟨.code,[],.lcode,false,[(6,0),(5,0)],false⟩,none,false,false,false,none,false,⟨.lcode,some (.own 3),false,.lblank⟩⟩] .leaf) 273373938615 [⟨⟨(.inside 5),[],.lcode,false,[(5,0),(6,0)],false⟩,false,false,[],some 4,some ⟨.code,[],.lcode,false,[(6,0)],false⟩,none,false,false,false,none,false,⟨.lcode,some (.own 3),false,.lblank⟩⟩] (.node .leaf 273377565219 [⟨⟨(.inside 5),[],.lcode,false,[(5,0),(6,0)],false⟩,false,false,[],some 4,some ⟨.code,[],.lcode,false,[(5,0),(6,0)],false⟩,none,false,false,false,none,false,⟨.lcode,some (.own 3),false,.lblank⟩⟩] .leaf)) 273389447999 [⟨⟨(.inside 5),[],.lcode,false,[(6,0),(5,0)],false⟩,false,false,[],some 4,some ⟨.code,[],.lcode,false,[(6,0),(5,0)],false⟩,none,false,false,false,none,false,⟨.lcode,some (.own 3),false,.lblank⟩⟩] (.node (.node .leaf 323987905575 [⟨⟨(.inside 6),[],.lcode,false,[(5,0),(6,0)],false⟩,false,false,[],some 4,some ⟨.code,[],.lcode,false,[(6,0)],false⟩,none,false,false,false,none,false,⟨.lcode,some (.own 3),false,.lblank⟩⟩] .leaf) 323991532179 [⟨⟨(.inside 6),[],.lcode,false,[(5,0),(6,0)],false⟩,false,false,[],some 4,some ⟨.code,[],.lcode,false,[(5,0),(6,0)],false⟩,none,false,false,false,none,false,⟨.lcode,some (.own 3),false,.lblank⟩⟩] .leaf)) 324003414959 [⟨⟨(.inside 6),[],.lcode,false,[(6,0),(5,0)],false⟩,false,false,[],some 4,some ⟨.code,[],.lcode,false,[(6,0),(5,0)],false⟩,none,false,false,false,none,false,⟨.lcode,some (.own 3),false,.lblank⟩⟩] (.node (.node (.node .leaf 344261830803 [⟨⟨(.inside 6),[],.lcode,false,[(5,0),(6,0)],false⟩,false,false,[],some 4,some ⟨(.inside 6),[],.lcode,false,[(5,0),(6,0)],false⟩,none,false,false,false,none,false,⟨.lcode,some (.own 3),false,.lblank⟩⟩] .leaf) 344273713583 [⟨⟨(.inside 6),[],.lcode,false,[(6,0),(5,0)],false⟩,false,false,[],some 4,some ⟨(.inside 6),[],.lcode,false,[(6,0),(5,0)],false⟩,none,false,false,false,none,false,⟨.lcode,some (.own 3),false,.lblank⟩⟩] .leaf) 22570726030404 [⟨⟨(.inside 3),[42],.lcode,false,[(5,1),(6,1)],false⟩,false,false,[],some 4,some ⟨.code,[],.lcode,false,[(6,0)],false⟩,none,false,false,false,none,false,⟨.lcode,some (.own 3),false,.lblank⟩⟩] (.node (.node .leaf 22570729657008 [⟨⟨(.inside 3),[42],.lcode,false,[(5,1),(6,1)],false⟩,false,false,[],some 4,some ⟨.code,[],.lcode,false,[(5,0),(6,0)],false⟩,none,false,false,false,none,false,⟨.lcode,some (.own 3),false,.lblank⟩⟩] .leaf) 22570741539788 [⟨⟨(.inside 3),[42],.lcode,false,[(6,1),(5,1)],false⟩,false,false,[],some 4,some ⟨.code,[],.lcode,false,[(6,0),(5,0)],false⟩,none,false,false,false,none,false,⟨.lcode,some (.own 3),false,.lblank⟩⟩] .leaf))))),(.node (.node (.node (.node (.node (.node .leaf 470701 [⟨⟨.code,[],.lcode,false,[(5,0)],false⟩,false,false,[],some 4,some ⟨.code,[],.lcode,false,[(5,0)],false⟩,none,false,false,false,none,false,⟨.lcode,some (.own 3),false,.lblank⟩⟩] .leaf) 16923781 [⟨⟨(.inside 5),[],.lcode,false,[],false⟩,false,false,[],some 4,some ⟨(.inside 5),[],.lcode,false,[],false⟩,none,false,false,false,none,false,⟨.lcode,some (.own 3),false,.lblank⟩⟩] (.node .leaf 48766475 [⟨⟨.code,[],.lblank,false,[(5,0)],true⟩,false,false,[],some 4,some ⟨.code,[],.lcode,false,[(5,0)],false⟩,none,false,true,false,none,false,⟨.lcode,some (.own 3),false,.lblank⟩⟩] .leaf)) 62143635 [⟨⟨.code,[],.lcode,false,[(5,0),(6,0)],false⟩,false,false,[],some 4,some ⟨.code,[],.lcode,false,[(5,0),(6,0)],false⟩,none,false,false,false,none,false,⟨.lcode,some (.own 3),false,.lblank⟩⟩] (.node (.node .leaf 69694638 [⟨⟨.code,[],.lcode,false,[(6,0),(5,0)],false⟩,false,false,[],some 4,some ⟨.code,[],.lcode,false,[(5,0)],false⟩,none,false,false,false,none,false,⟨.lcode,some (.own 3),false,.lblank⟩⟩] .leaf) 74026415 [⟨⟨.code,[],.lcode,false,[(6,0),(5,0)],false⟩,false,false,[],some 4,some ⟨.code,[],.lcode,false,[(6,0),(5,0)],false⟩,none,false,false,false,none,false,⟨.lcode,some (.own 3),false,.lblank⟩⟩] .leaf)) 155017165 [⟨⟨(.inside 0),[],.lcode,false,[(5,0)],false⟩,false,false,[],some 4,some ⟨.code,[],.lcode,false,[(5,0)],false⟩,none,false,false,false,none,false,⟨.lcode,some (.own 3),false,.lblank⟩⟩] (.node (.node (.node .leaf 222643532 [⟨⟨.code,[45],.lcode,false,[(5,1)],false⟩,false,false,[],some 4,some ⟨.code,[],.lcode,false,[(5,0)],false⟩,none,false,false,false,none,false,⟨.lcode,some (.own 3),false,.lblank⟩⟩] .leaf) 232302686 [⟨⟨.code,[47],.lcode,false,[(5,1)],false⟩,false,false,[],some 4,some ⟨.code,[],.lcode,false,[(5,0)],false⟩,none,false,false,false,none,false,⟨.lcode,some (.own 3),false,.lblank⟩⟩] (.node .leaf 541383325 [⟨⟨(.inside 1),[],.lcode,false,[(5,0)],false⟩,false,false,[],some 4,some ⟨.code,[],.lcode,false,[(5,0)],false⟩,none,false,false,false,none,false,⟨.lcode,some (.own 3),false,.lblank⟩⟩] .leaf)) 927749485 [⟨⟨(.inside 2),[],.lcode,false,[(5,0)],false⟩,false,false,[],some 4,some ⟨.code,[],.lcode,false,[(5,0)],false⟩,none,false,false,false,none,false,⟨.lcode,some (.own 3),false,.lblank⟩⟩] (.node (.node .leaf 1314115645 [⟨⟨(.inside 3),[],.lcode,false,[(5,0)],false⟩,false,false,[],some 4,some ⟨.code,[],.lcode,false,[(5,0)],false⟩,none,false,false,false,none,false,⟨.lcode,some (.own 3),false,.lblank⟩⟩] .leaf) 1700481805 [⟨⟨(.inside 4),[],.lcode,false,[(5,0)],false⟩,false,false,[],some 4,some ⟨.code,[],.lcode,false,[(5,0)],false⟩,none,false,false,false,none,false,⟨.lcode,some (.own 3),false,.lblank⟩⟩] .leaf))) 2086847965 [⟨⟨(.inside 5),[],.lcode,false,[(5,0)],false⟩,false,false,[],some 4,some ⟨.code,[],.lcode,false,[(5,0)],false⟩,none,false,false,false,none,false,⟨.lcode,some (.own 3),false,.lblank⟩⟩] (.node (.node (.node (.node .leaf 2217405709 [⟨⟨(.inside 5),[],.lcode,false,[(5,0)],false⟩,false,false,[],some 4,some ⟨(.inside 5),[],.lcode,false,[(5,0)],false⟩,none,false,false,false,none,false,⟨.lcode,some (.own 3),false,.lblank⟩⟩] .leaf) 2217497115 [⟨⟨(.inside 5),[],.lcode,false,[(6,0)],false⟩,false,false,[],some 4,some ⟨(.inside 5),[],.lcode,false,[(6,0)],false⟩,none,false,false,false,none,false,⟨.lcode,some (.own 3),false,.lblank⟩⟩] (.node .leaf 2473214125 [⟨⟨(.inside 6),[],.lcode,false,[(5,0)],false⟩,false,false,[],some 4,some ⟨.code,[],.lcode,false,[(5,0)],false⟩,none,false,false,false,none,false,⟨.lcode,some (.own 3),false,.lblank⟩⟩] .leaf)) 6388889509 [⟨⟨.code,[],.lblank,false,[(5,0),(6,0)],true⟩,false,false,[],some 4,some ⟨.code,[],.lcode,false,[(5,0),(6,0)],false⟩,none,false,true,false,none,false,⟨.lcode,some (.own 3),false,.lblank⟩⟩] (.node (.node .leaf 6396440512 [⟨⟨.code,[],.lblank,false,[(6,0),(5,0)],true⟩,false,false,[],some 4,some ⟨.code,[],.lcode,false,[(5,0)],false⟩,none,false,true,false,none,false,⟨.lcode,some (.own 3),false,.lblank⟩⟩] .leaf) 20307730419 [⟨⟨(.inside 0),[],.lcode,false,[(5,0),(6,0)],false⟩,false,false,[],some 4,some ⟨.code,[],.lcode,false,[(5,0),(6,0)],false⟩,none,false,false,false,none,false,⟨.lcode,some (.own 3),false,.lblank⟩⟩] .leaf)) 20315281422 [⟨⟨(.inside 0),[],.lcode,false,[(6,0),(5,0)],false⟩,false,false,[],some 4,some ⟨.code,[],.lcode,false,[(5,0)],false⟩,none,false,false,false,none,false,⟨.lcode,some (.own 3),false,.lblank⟩⟩] (.node (.node (.node .leaf 20319613199 [⟨⟨(.inside 0),[],.lcode,false,[(6,0),(5,0)],false⟩,false,false,[],some 4,some ⟨.code,[],.lcode,false,[(6,0),(5,0)],false⟩,none,false,false,false,none,false,⟨.lcode,some (.own 3),false,.lblank⟩⟩] .leaf) 29166796785 [⟨⟨.code,[45],.lcode,false,[(5,1),(6,1)],false⟩,false,false,[],some 4,some ⟨.code,[],.lcode,false,[(5,0),(6,0)],false⟩,none,false,false,false,none,false,⟨.lcode,some (.own 3),false,.lblank⟩⟩] .leaf) 29174347788 [⟨⟨.code,[45],.lcode,false,[(6,1),(5,1)],false⟩,false,false,[],some 4,some ⟨.code,[],.lcode,false,[(5,0)],false⟩,none,false,false,false,none,false,⟨.lcode,some (.own 3),false,.lblank⟩⟩] (.node (.node .leaf 29178679565 [⟨⟨.code,[45],.lcode,false,[(6,1),(5,1)],false⟩,false,false,[],some 4,some ⟨.code,[],.lcode,false,[(6,0),(5,0)],false⟩,none,false,false,false,none,false,⟨.lcode,some (.own 3),false,.lblank⟩⟩] .leaf) 30432145959 [⟨⟨.code,[47],.lcode,false,[(5,1),(6,1)],false⟩,false,false,[],some 4,some ⟨.code,[],.lcode,false,[(5,0),(6,0)],false⟩,none,false,false,false,none,false,⟨.lcode,some (.own 3),false,.lblank⟩⟩] .leaf)))) 30439696962 [⟨⟨.code,[47],.lcode,false,[(6,1),(5,1)],false⟩,false,false,[],some 4,some ⟨.code,[],.lcode,false,[(5,0)],false⟩,none,false,false,false,none,false,⟨.lcode,some (.own 3),false,.lblank⟩⟩] (.node (.node (.node (.node (.node .leaf 30444028739 [⟨⟨.code,[47],.lcode,false,[(6,1),(5,1)],false⟩,false,false,[],some 4,some ⟨.code,[],.lcode,false,[(6,0),(5,0)],false⟩,none,false,false,false,none,false,⟨.lcode,some (.own 3),false,.lblank⟩⟩] .leaf) 70921697379 [⟨⟨(.inside 1),[],.lcode,false,[(5,0),(6,0)],false⟩,false,false,[],some 4,some ⟨.code,[],.lcode,false,[(5,0),(6,0)],false⟩,none,false,false,false,none,false,⟨.lcode,some (.own 3),false,.lblank⟩⟩] (.node .leaf 70929248382 [⟨⟨(.inside 1),[],.lcode,false,[(6,0),(5,0)],false⟩,false,false,[],some 4,some ⟨.code,[],.lcode,false,[(5,0)],false⟩,none,false,false,false,none,false,⟨.lcode,some (.own 3),false,.lblank⟩⟩] .leaf)) 70933580159 [⟨⟨(.inside 1),[],.lcode,false,[(6,0),(5,0)],false⟩,false,false,[],some 4,some ⟨.code,[],.lcode,false,[(6,0),(5,0)],false⟩,none,false,false,false,none,false,⟨.lcode,some (.own 3),false,.lblank⟩⟩] (.node (.node .leaf 121535664339 [⟨⟨(.inside 2),[],.lcode,false,[(5,0),(6,0)],false⟩,false,false,[],some 4,some ⟨.code,[],.lcode,false,[(5,0),(6,0)],false⟩,none,false,false,false,none,false,⟨.lcode,some (.own 3),false,.lblank⟩⟩] .leaf) 121543215342 [⟨⟨(.inside 2),[],.lcode,false,[(6,0),(5,0)],false⟩,false,false,[],some 4,some ⟨.code,[],.lcode,false,[(5,0)],false⟩,none,false,false,false,none,false,⟨.lcode,some (.own 3),false,.lblank⟩⟩] .leaf)) 121547547119 [⟨⟨(.inside 2),[],.lcode,false,[(6,0),(5,0)],false⟩,false,false,[],some 4,some ⟨.code,[],.lcode,false,[(6,0),(5,0)],false⟩,none,false,false,false,none,false,⟨.lcode,some (.own 3),false,.lblank⟩⟩] (.node (.node (.node .leaf 172149631299 [⟨⟨(.inside 3),[],.lcode,false,[(5,0),(6,0)],false⟩,false,false,[],some 4,some ⟨.code,[],.lcode,false,[(5,0),(6,0)],false⟩,none,false,false,false,none,false,⟨.lcode,some (.own 3),false,.lblank⟩⟩] .leaf) 172157182302 [⟨⟨(.inside 3),[],.lcode,false,[(6,0),(5,0)],false⟩,false,false,[],some 4,some ⟨.code,[],.lcode,false,[(5,0)],false⟩,none,false,false,false,none,false,⟨.lcode,some (.own 3),false,.lblank⟩⟩] .leaf) 172161514079 [⟨⟨(.inside 3),[],.lcode,false,[(6,0),(5,0)],false⟩,false,false,[],some 4,some ⟨.code,[],.lcode,false,[(6,0),(5,0)],false⟩,none,false,false,false,none,false,⟨.lcode,some (.own 3),false,.lblank⟩⟩] (.node (.node .leaf 172295642465 [⟨⟨(.inside 3),[42],.lcode,false,[(5,1)],false⟩,false,false,[],some 4,some ⟨.code,[],.lcode,false,[(5,0)],false⟩,none,false,false,false,none,false,⟨.lcode,some (.own 3),false,.lblank⟩⟩] .leaf) 222763598259 [⟨⟨(.inside 4),[],.lcode,false,[(5,0),(6,0)],false⟩,false,false,[],some 4,some ⟨.code,[],.lcode,false,[(5,0),(6,0)],false⟩,none,false,false,false,none,false,⟨.lcode,some (.own 3),false,.lblank⟩⟩] .leaf))) 222771149262 [⟨⟨(.inside 4),[],.lcode,false,[(6,0),(5,0)],false⟩,false,false,[],some 4,some ⟨.code,[],.lcode,false,[(5,0)],false⟩,none,false,false,false,none,false,⟨.lcode,some (.own 3),false,.lblank⟩⟩] (.node (.node (.node (.node .leaf 222775481039 [⟨⟨(.inside 4),[],.lcode,false,[(6,0),(5,0)],false⟩,false,false,[],some 4,some ⟨.code,[],.lcode,false,[(6,0),(5,0)],false⟩,none,false,false,false,none,false,⟨.lcode,some (.own 3),false,.lblank⟩⟩] .leaf) 273377565219 [⟨⟨(.inside 5),[],.lcode,false,[(5,0),(6,0)],false⟩,false,false,[],some 4,some ⟨.code,[],.lcode,false,[(5,0),(6,0)],false⟩,none,false,false,false,none,false,⟨.lcode,some (.own 3),false,.lblank⟩⟩] (.node .leaf 273385116222 [⟨⟨(.inside 5),[],.lcode,false,[(6,0),(5,0)],false⟩,false,false,[],some 4,some ⟨.code,[],.lcode,false,[(5,0)],false⟩,none,false,false,false,none,false,⟨.lcode,some (.own 3),false,.lblank⟩⟩] .leaf)) 273389447999 [⟨⟨(.inside 5),[],.lcode,false,[(6,0),(5,0)],false⟩,false,false,[],some 4,some ⟨.code,[],.lcode,false,[(6,0),(5,0)],false⟩,none,false,false,false,none,false,⟨.lcode,some (.own 3),false,.lblank⟩⟩] (.node (.node .leaf 290480629683 [⟨⟨(.inside 5),[],.lcode,false,[(5,0),(6,0)],false⟩,false,false,[],some 4,some ⟨(.inside 5),[],.lcode,false,[(5,0),(6,0)],false⟩,none,false,false,false,none,false,⟨.lcode,some (.own 3),false,.lblank⟩⟩] .leaf) 290492512463 [⟨⟨(.inside 5),[],.lcode,false,[(6,0),(5,0)],false⟩,false,false,[],some 4,some ⟨(.inside 5),[],.lcode,false,[(6,0),(5,0)],false⟩,none,false,false,false,none,false,⟨.lcode,some (.own 3),false,.lblank⟩⟩] .leaf)) 323991532179 [⟨⟨(.inside 6),[],.lcode,false,[(5,0),(6,0)],false⟩,false,false,[],some 4,some ⟨.code,[],.lcode,false,[(5,0),(6,0)],false⟩,none,false,false,false,none,false,⟨.lcode,some (.own 3),false,.lblank⟩⟩] (.node (.node (.node .leaf 323999083182 [⟨⟨(.inside 6),[],.lcode,false,[(6,0),(5,0)],false⟩,false,false,[],some 4,some ⟨.code,[],.lcode,false,[(5,0)],false⟩,none,false,false,false,none,false,⟨.lcode,some (.own 3),false,.lblank⟩⟩] .leaf) 324003414959 [⟨⟨(.inside 6),[],.lcode,false,[(6,0),(5,0)],false⟩,false,false,[],some 4,some ⟨.code,[],.lcode,false,[(6,0),(5,0)],false⟩,none,false,false,false,none,false,⟨.lcode,some (.own 3),false,.lblank⟩⟩] .leaf) 22570729657008 [⟨⟨(.inside 3),[42],.lcode,false,[(5,1),(6,1)],false⟩,false,false,[],some 4,some ⟨.code,[],.lcode,false,[(5,0),(6,0)],false⟩,none,false,false,false,none,false,⟨.lcode,some (.own 3),false,.lblank⟩⟩] (.node (.node .leaf 22570737208011 [⟨⟨(.inside 3),[42],.lcode,false,[(6,1),(5,1)],false⟩,false,false,[],some 4,some ⟨.code,[],.lcode,false,[(5,0)],false⟩,none,false,false,false,none,false,⟨.lcode,some (.own 3),false,.lblank⟩⟩] .leaf) 22570741539788 [⟨⟨(.inside 3),[42],.lcode,false,[(6,1),(5,1)],false⟩,false,false,[],some 4,some ⟨.code,[],.lcode,false,[(6,0),(5,0)],false⟩,none,false,false,false,none,false,⟨.lcode,some (.own 3),false,.lblank⟩⟩] .leaf))))),(.node (.node (.node (.node (.node .leaf 616140991 [⟨⟨(.inside 3),[],.lcode,false,[],false⟩,false,false,[],some 4,some ⟨.code,[47],.lcode,false,[],false⟩,some ([(42,(.other,false))],false),false,false,false,none,false,⟨.lcode,some (.own 3),false,.lblank⟩⟩] .leaf) 616288979 [⟨⟨(.inside 3),[],.lcomment,false,[],false⟩,false,false,[],some 4,some ⟨.code,[47],.lcode,false,[],false⟩,some ([(42,(.other,false))],false),true,false,false,none,false,⟨.lcomment,some .internalNl,false,.lblank⟩⟩] (.node .leaf 617497839 [⟨⟨(.inside 3),[],.lcomment,false,[],false⟩,false,false,[],some 4,some ⟨.code,[47],.lcomment,false,[],false⟩,some ([(42,(.other,false))],false),false,false,false,none,false,⟨.lcomment,some (.own 3),false,.lblank⟩⟩] .leaf)) 617497847 [⟨⟨(.inside 3),[],.lcomment,false,[],false⟩,false,false,[],some 4,some ⟨.code,[47],.lcomment,false,[],false⟩,some ([(42,(.other,false))],false),true,false,false,none,false,⟨.lcomment,some .internalNl,false,.lblank⟩⟩] (.node (.node .leaf 618706707 [⟨⟨(.inside 3),[],.lcomment,false,[],false⟩,false,false,[],some 4,some ⟨.code,[47],.lblank,false,[],false⟩,some ([(42,(.other,false))],false),false,false,false,none,false,⟨.lcomment,some (.own 3),false,.lblank⟩⟩] .leaf) 618706715 [⟨⟨(.inside 3),[],.lcomment,false,[],false⟩,false,false,[],some 4,some ⟨.code,[47],.lblank,false,[],false⟩,some ([(42,(.other,false))],false),true,false,false,none,false,⟨.lcomment,some .internalNl,false,.lblank⟩⟩] (.node .leaf 630712343 [⟨⟨(.inside 3),[],.lcomment,false,[],false⟩,false,false,[],some 4,some ⟨.code,[47],.lcode,false,[(5,0)],false⟩,some ([(42,(.other,false))],false),true,false,false,none,false,⟨.lcomment,some .internalNl,false,.lblank⟩⟩] .leaf))) 630713112 [⟨⟨(.inside 3),[],.lcomment,false,[],false⟩,false,false,[],some 4,some ⟨.code,[47],.lcode,false,[(5,1)],false⟩,some ([(42,(.other,false))],false),true,false,false,none,false,⟨.lcomment,some .internalNl,false,.lblank⟩⟩] (.node (.node (.node .leaf 630717726 [⟨⟨(.inside 3),[],.lcomment,false,[],false⟩,false,false,[],some 4,some ⟨.code,[47],.lcode,false,[(6,0)],false⟩,some ([(42,(.other,false))],false),true,false,false,none,false,⟨.lcomment,some .internalNl,false,.lblank⟩⟩] .leaf) 630718495 [⟨⟨(.inside 3),[],.lcomment,false,[],false⟩,false,false,[],some 4,some ⟨.code,[47],.lcode,false,[(6,1)],false⟩,some ([(42,(.other,false))],false),true,false,false,none,false,⟨.lcomment,some .internalNl,false,.lblank⟩⟩] (.node .leaf 1934623879 [⟨⟨(.inside 3),[],.lcode,false,[(5,0)],false⟩,false,false,[],some 4,some ⟨.code,[47],.lcode,false,[(5,0)],false⟩,some ([(42,(.other,false))],false),false,false,false,none,false,⟨.lcode,some (.own 3),false,.lblank⟩⟩] .leaf)) 1934624648 [⟨⟨(.inside 3),[],.lcode,false,[(5,0)],false⟩,false,false,[],some 4,some ⟨.code,[47],.lcode,false,[(5,1)],false⟩,some ([(42,(.other,false))],false),false,false,false,none,false,⟨.lcode,some (.own 3),false,.lblank⟩⟩] (.node (.node .leaf 1934636168 [⟨⟨(.inside 3),[],.lcode,false,[(5,1)],false⟩,false,false,[],some 4,some ⟨.code,[47],.lcode,false,[(5,0)],false⟩,some ([(42,(.other,false))],false),false,false,false,none,false,⟨.lcode,some (.own 3),false,.lblank⟩⟩] .leaf) 1934636937 [⟨⟨(.inside 3),[],.lcode,false,[(5,1)],false⟩,false,false,[],some 4,some ⟨.code,[47],.lcode,false,[(5,1)],false⟩,some ([(42,(.other,false))],false),false,false,false,none,false,⟨.lcode,some (.own 3),false,.lblank⟩⟩] (.node .leaf 1934715285 [⟨⟨(.inside 3),[],.lcode,false,[(6,0)],false⟩,false,false,[],some 4,some ⟨.code,[47],.lcode,false,[(6,0)],false⟩,some ([(42,(.other,false))],false),false,false,false,none,false,⟨.lcode,some (.own 3),false,.lblank⟩⟩] .leaf)))) 1934716054 [⟨⟨(.inside 3),[],.lcode,false,[(6,0)],false⟩,false,false,[],some 4,some ⟨.code,[47],.lcode,false,[(6,1)],false⟩,some ([(42,(.other,false))],false),false,false,false,none,false,⟨.lcode,some (.own 3),false,.lblank⟩⟩] (.node (.node (.node (.node .leaf 1934727574 [⟨⟨(.inside 3),[],.lcode,false,[(6,1)],false⟩,false,false,[],some 4,some ⟨.code,[47],.lcode,false,[(6,0)],false⟩,some ([(42,(.other,false))],false),false,false,false,none,false,⟨.lcode,some (.own 3),false,.lblank⟩⟩] .leaf) 1934728343 [⟨⟨(.inside 3),[],.lcode,false,[(6,1)],false⟩,false,false,[],some 4,some ⟨.code,[47],.lcode,false,[(6,1)],false⟩,some ([(42,(.other,false))],false),false,false,false,none,false,⟨.lcode,some (.own 3),false,.lblank⟩⟩] (.node .leaf 2520178410 [⟨⟨(.inside 3),[],.lcomment,false,[],false⟩,false,false,[],some 4,some ⟨.code,[47],.lcode,false,[(5,0),(6,0)],false⟩,some ([(42,(.other,false))],false),true,false,false,none,false,⟨.lcomment,some .internalNl,false,.lblank⟩⟩] .leaf)) 2520279918 [⟨⟨(.inside 3),[],.lcomment,false,[],false⟩,false,false,[],some 4,some ⟨.code,[47],.lcode,false,[(5,1),(6,1)],false⟩,some ([(42,(.other,false))],false),true,false,false,none,false,⟨.lcomment,some .internalNl,false,.lblank⟩⟩] (.node (.node .leaf 2520878200 [⟨⟨(.inside 3),[],.lcomment,false,[],false⟩,false,false,[],some 4,some ⟨.code,[47],.lcode,false,[(6,0),(5,0)],false⟩,some ([(42,(.other,false))],false),true,false,false,none,false,⟨.lcomment,some .internalNl,false,.lblank⟩⟩] .leaf) 2520979708 [⟨⟨(.inside 3),[],.lcomment,false,[],false⟩,false,false,[],some 4,some ⟨.code,[47],.lcode,false,[(6,1),(5,1)],false⟩,some ([(42,(.other,false))],false),true,false,false,none,false,⟨.lcomment,some .internalNl,false,.lblank⟩⟩] (.node .leaf 174655973613 [⟨⟨(.inside 3),[],.lcode,false,[(5,0),(6,0)],false⟩,false,false,[],some 4,some ⟨.code,[47],.lcode,false,[(5,0),(6,0)],false⟩,some ([(42,(.other,false))],false),false,false,false,none,false,⟨.lcode,some (.own 3),false,.lblank⟩⟩] .leaf))) 174656075121 [⟨⟨(.inside 3),[],.lcode,false,[(5,0),(6,0)],false⟩,false,false,[],some 4,some ⟨.code,[47],.lcode,false,[(5,1),(6,1)],false⟩,some ([(42,(.other,false))],false),false,false,false,none,false,⟨.lcode,some (.own 3),false,.lblank⟩⟩] (.node (.node (.node .leaf 174657595761 [⟨⟨(.inside 3),[],.lcode,false,[(5,1),(6,1)],false⟩,false,false,[],some 4,some ⟨.code,[47],.lcode,false,[(5,0),(6,0)],false⟩,some ([(42,(.other,false))],false),false,false,false,none,false,⟨.lcode,some (.own 3),false,.lblank⟩⟩] .leaf) 174657697269 [⟨⟨(.inside 3),[],.lcode,false,[(5,1),(6,1)],false⟩,false,false,[],some 4,some ⟨.code,[47],.lcode,false,[(5,1),(6,1)],false⟩,some ([(42,(.other,false))],false),false,false,false,none,false,⟨.lcode,some (.own 3),false,.lblank⟩⟩] (.node .leaf 174667856393 [⟨⟨(.inside 3),[],.lcode,false,[(6,0),(5,0)],false⟩,false,false,[],some 4,some ⟨.code,[47],.lcode,false,[(6,0),(5,0)],false⟩,some ([(42,(.other,false))],false),false,false,false,none,false,⟨.lcode,some (.own 3),false,.lblank⟩⟩] .leaf)) 174667957901 [⟨⟨(.inside 3),[],.lcode,false,[(6,0),(5,0)],false⟩,false,false,[],some 4,some ⟨.code,[47],.lcode,false,[(6,1),(5,1)],false⟩,some ([(42,(.other,false))],false),false,false,false,none,false,⟨.lcode,some (.own 3),false,.lblank⟩⟩] (.node (.node .leaf 174669478541 [⟨⟨(.inside 3),[],.lcode,false,[(6,1),(5,1)],false⟩,false,false,[],some 4,some ⟨.code,[47],.lcode,false,[(6,0),(5,0)],false⟩,some ([(42,(.other,false))],false),false,false,false,none,false,⟨.lcode,some (.own 3),false,.lblank⟩⟩] .leaf) 174669580049 [⟨⟨(.inside 3),[],.lcode,false,[(6,1),(5,1)],false⟩,false,false,[],some 4,some ⟨.code,[47],.lcode,false,[(6,1),(5,1)],false⟩,some ([(42,(.other,false))],false),false,false,false,none,false,⟨.lcode,some (.own 3),false,.lblank⟩⟩] .leaf)))),(.node (.node (.node (.node (.node (.node .leaf 616140991 [⟨⟨(.inside 3),[],.lcode,false,[],false⟩,false,false,[],some 4,some ⟨.code,[47],.lcode,false,[],false⟩,some ([(42,(.other,false))],false),false,false,false,none,false,⟨.lcode,some (.own 3),false,.lblank⟩⟩] .leaf) 616288979 [⟨⟨(.inside 3),[],.lcomment,false,[],false⟩,false,false,[],some 4,some ⟨.code,[47],.lcode,false,[],false⟩,some ([(42,(.other,false))],false),true,false,false,none,false,⟨.lcomment,some .internalNl,false,.lblank⟩⟩] .leaf) 616436959 [⟨⟨(.inside 3),[],.lblank,false,[],false⟩,false,false,[],some 4,some ⟨.code,[47],.lcode,false,[],false⟩,some ([(42,(.other,false))],false),true,false,false,none,false,⟨.lblank,some .internalNl,false,.lblank⟩⟩] (.node .leaf 617497839 [⟨⟨(.inside 3),[],.lcomment,false,[],false⟩,false,false,[],some 4,some ⟨.code,[47],.lcomment,false,[],false⟩,some ([(42,(.other,false))],false),false,false,false,none,false,⟨.lcomment,some (.own 3),false,.lblank⟩⟩] .leaf)) 617497847 [⟨⟨(.inside 3),[],.lcomment,false,[],false⟩,false,false,[],some 4,some ⟨.code,[47],.lcomment,false,[],false⟩,some ([(42,(.other,false))],false),true,false,false,none,false,⟨.lcomment,some .internalNl,false,.lblank⟩⟩] (.node (.node .leaf 617645827 [⟨⟨(.inside 3),[],.lblank,false,[],false⟩,false,false,[],some 4,some ⟨.code,[47],.lcomment,false,[],false⟩,some ([(42,(.other,false))],false),true,false,false,none,false,⟨.lblank,some .internalNl,false,.lblank⟩⟩] .leaf) 618706707 [⟨⟨(.inside 3),[],.lcomment,false,[],false⟩,false,false,[],some 4,some ⟨.code,[47],.lblank,false,[],false⟩,some ([(42,(.other,false))],false),false,false,false,none,false,⟨.lcomment,some (.own 3),false,.lblank⟩⟩] (.node .leaf 618706715 [⟨⟨(.inside 3),[],.lcomment,false,[],false⟩,false,false,[],some 4,some ⟨.code,[47],.lblank,false,[],false⟩,some ([(42,(.other,false))],false),true,false,false,none,false,⟨.lcomment,some .internalNl,false,.lblank⟩⟩] .leaf))) 618854695 [⟨⟨(.inside 3),[],.lblank,false,[],false⟩,false,false,[],some 4,some ⟨.code,[47],.lblank,false,[],false⟩,some ([(42,(.other,false))],false),true,false,false,none,false,⟨.lblank,some .internalNl,false,.lblank⟩⟩] (.node (.node (.node .leaf 630712343 [⟨⟨(.inside 3),[],.lcomment,false,[],false⟩,false,false,[],some 4,some ⟨.code,[47],.lcode,false,[(5,0)],false⟩,some ([(42,(.other,false))],false),true,false,false,none,false,⟨.lcomment,some .internalNl,false,.lblank⟩⟩] .leaf) 630713112 [⟨⟨(.inside 3),[],.lcomment,false,[],false⟩,false,false,[],some 4,some ⟨.code,[47],.lcode,false,[(5,1)],false⟩,some ([(42,(.other,false))],false),true,false,false,none,false,⟨.lcomment,some .internalNl,false,.lblank⟩⟩] (.node .leaf 630717726 [⟨⟨(.inside 3),[],.lcomment,false,[],false⟩,false,false,[],some 4,some ⟨.code,[47],.lcode,false,[(6,0)],false⟩,some ([(42,(.other,false))],false),true,false,false,none,false,⟨.lcomment,some .internalNl,false,.lblank⟩⟩] .leaf)) 630718495 [⟨⟨(.inside 3),[],.lcomment,false,[],false⟩,false,false,[],some 4,some ⟨.code,[47],.lcode,false,[(6,1)],false⟩,some ([(42,(.other,false))],false),true,false,false,none,false,⟨.lcomment,some .internalNl,false,.lblank⟩⟩] (.node (.node .leaf 630860323 [⟨⟨(.inside 3),[],.lblank,false,[],false⟩,false,false,[],some 4,some ⟨.code,[47],.lcode,false,[(5,0)],false⟩,some ([(42,(.other,false))],false),true,false,false,none,false,⟨.lblank,some .internalNl,false,.lblank⟩⟩] .leaf) 630861092 [⟨⟨(.inside 3),[],.lblank,false,[],false⟩,false,false,[],some 4,some ⟨.code,[47],.lcode,false,[(5,1)],false⟩,some ([(42,(.other,false))],false),true,false,false,none,false,⟨.lblank,some .internalNl,false,.lblank⟩⟩] (.node .leaf 630865706 [⟨⟨(.inside 3),[],.lblank,false,[],false⟩,false,false,[],some 4,some ⟨.code,[47],.lcode,false,[(6,0)],false⟩,some ([(42,(.other,false))],false),true,false,false,none,false,⟨.lblank,some .internalNl,false,.lblank⟩⟩] .leaf)))) 630866475 [⟨⟨(.inside 3),[],.lblank,false,[],false⟩,false,false,[],some 4,some ⟨.code,[47],.lcode,false,[(6,1)],false⟩,some ([(42,(.other,false))],false),true,false,false,none,false,⟨.lblank,some .internalNl,false,.lblank⟩⟩] (.node (.node (.node (.node (.node .leaf 1934623879 [⟨⟨(.inside 3),[],.lcode,false,[(5,0)],false⟩,false,false,[],some 4,some ⟨.code,[47],.lcode,false,[(5,0)],false⟩,some ([(42,(.other,false))],false),false,false,false,none,false,⟨.lcode,some (.own 3),false,.lblank⟩⟩] .leaf) 1934624648 [⟨⟨(.inside 3),[],.lcode,false,[(5,0)],false⟩,false,false,[],some 4,some ⟨.code,[47],.lcode,false,[(5,1)],false⟩,some ([(42,(.other,false))],false),false,false,false,none,false,⟨.lcode,some (.own 3),false,.lblank⟩⟩] .leaf) 1934715285 [⟨⟨(.inside 3),[],.lcode,false,[(6,0)],false⟩,false,false,[],some 4,some ⟨.code,[47],.lcode,false,[(6,0)],false⟩,some ([(42,(.other,false))],false),false,false,false,none,false,⟨.lcode,some (.own 3),false,.lblank⟩⟩] (.node .leaf 1934716054 [⟨⟨(.inside 3),[],.lcode,false,[(6,0)],false⟩,false,false,[],some 4,some ⟨.code,[47],.lcode,false,[(6,1)],false⟩,some ([(42,(.other,false))],false),false,false,false,none,false,⟨.lcode,some (.own 3),false,.lblank⟩⟩] .leaf)) 2520178410 [⟨⟨(.inside 3),[],.lcomment,false,[],false⟩,false,false,[],some 4,some ⟨.code,[47],.lcode,false,[(5,0),(6,0)],false⟩,some ([(42,(.other,false))],false),true,false,false,none,false,⟨.lcomment,some .internalNl,false,.lblank⟩⟩] (.node (.node .leaf 2520279918 [⟨⟨(.inside 3),[],.lcomment,false,[],false⟩,false,false,[],some 4,some ⟨.code,[47],.lcode,false,[(5,1),(6,1)],false⟩,some ([(42,(.other,false))],false),true,false,false,none,false,⟨.lcomment,some .internalNl,false,.lblank⟩⟩] .leaf) 2520326390 [⟨⟨(.inside 3),[],.lblank,false,[],false⟩,false,false,[],some 4,some ⟨.code,[47],.lcode,false,[(5,0),(6,0)],false⟩,some ([(42,(.other,false))],false),true,false,false,none,false,⟨.lblank,some .internalNl,false,.lblank⟩⟩] (.node .leaf 2520427898 [⟨⟨(.inside 3),[],.lblank,false,[],false⟩,false,false,[],some 4,some ⟨.code,[47],.lcode,false,[(5,1),(6,1)],false⟩,some ([(42,(.other,false))],false),true,false,false,none,false,⟨.lblank,some .internalNl,false,.lblank⟩⟩] .leaf))) 2520878200 [⟨⟨(.inside 3),[],.lcomment,false,[],false⟩,false,false,[],some 4,some ⟨.code,[47],.lcode,false,[(6,0),(5,0)],false⟩,some ([(42,(.other,false))],false),true,false,false,none,false,⟨.lcomment,some .internalNl,false,.lblank⟩⟩] (.node (.node (.node .leaf 2520979708 [⟨⟨(.inside 3),[],.lcomment,false,[],false⟩,false,false,[],some 4,some ⟨.code,[47],.lcode,false,[(6,1),(5,1)],false⟩,some ([(42,(.other,false))],false),true,false,false,none,false,⟨.lcomment,some .internalNl,false,.lblank⟩⟩] .leaf) 2521026180 [⟨⟨(.inside 3),[],.lblank,false,[],false⟩,false,false,[],some 4,some ⟨.code,[47],.lcode,false,[(6,0),(5,0)],false⟩,some ([(42,(.other,false))],false),true,false,false,none,false,⟨.lblank,some .internalNl,false,.lblank⟩⟩] (.node .leaf 2521127688 [⟨⟨(.inside 3),[],.lblank,false,[],false⟩,false,false,[],some 4,some ⟨.code,[47],.lcode,false,[(6,1),(5,1)],false⟩,some ([(42,(.other,false))],false),true,false,false,none,false,⟨.lblank,some .internalNl,false,.lblank⟩⟩] .leaf)) 174655973613 [⟨⟨(.inside 3),[],.lcode,false,[(5,0),(6,0)],false⟩,false,false,[],some 4,some ⟨.code,[47],.lcode,false,[(5,0),(6,0)],false⟩,some ([(42,(.other,false))],false),false,false,false,none,false,⟨.lcode,some (.own 3),false,.lblank⟩⟩] (.node (.node .leaf 174656075121 [⟨⟨(.inside 3),[],.lcode,false,[(5,0),(6,0)],false⟩,false,false,[],some 4,some ⟨.code,[47],.lcode,false,[(5,1),(6,1)],false⟩,some ([(42,(.other,false))],false),false,false,false,none,false,⟨.lcode,some (.own 3),false,.lblank⟩⟩] .leaf) 174667856393 [⟨⟨(.inside 3),[],.lcode,false,[(6,0),(5,0)],false⟩,false,false,[],some 4,some ⟨.code,[47],.lcode,false,[(6,0),(5,0)],false⟩,some ([(42,(.other,false))],false),false,false,false,none,false,⟨.lcode,some (.own 3),false,.lblank⟩⟩] (.node .leaf 174667957901 [⟨⟨(.inside 3),[],.lcode,false,[(6,0),(5,0)],false⟩,false,false,[],some 4,some ⟨.code,[47],.lcode,false,[(6,1),(5,1)],false⟩,some ([(42,(.other,false))],false),false,false,false,none,false,⟨.lcode,some (.own 3),false,.lblank⟩⟩] .leaf))))),(.node (.node (.node (.node (.node (.node .leaf 616177858 [⟨⟨(.inside 3),[],.lcode,true,[],false⟩,false,false,[],some 4,some ⟨.code,[47],.lcode,false,[],false⟩,some ([(42,(.other,false))],false),false,false,false,none,false,⟨.lcode,some (.own 3),false,.lblank⟩⟩] .leaf) 616325846 [⟨⟨(.inside 3),[],.lcomment,true,[],false⟩,false,false,[],some 4,some ⟨.code,[47],.lcode,false,[],false⟩,some ([(42,(.other,false))],false),true,false,false,none,false,⟨.lcomment,some .internalNl,false,.lblank⟩⟩] .leaf) 616473826 [⟨⟨(.inside 3),[],.lblank,true,[],false⟩,false,false,[],some 4,some ⟨.code,[47],.lcode,false,[],false⟩,some ([(42,(.other,false))],false),true,false,false,none,false,⟨.lblank,some .internalNl,false,.lblank⟩⟩] (.node .leaf 617534706 [⟨⟨(.inside 3),[],.lcomment,true,[],false⟩,false,false,[],some 4,some ⟨.code,[47],.lcomment,false,[],false⟩,some ([(42,(.other,false))],false),false,false,false,none,false,⟨.lcomment,some (.own 3),false,.lblank⟩⟩] .leaf)) 617534714 [⟨⟨(.inside 3),[],.lcomment,true,[],false⟩,false,false,[],some 4,some ⟨.code,[47],.lcomment,false,[],false⟩,some ([(42,(.other,false))],false),true,false,false,none,false,⟨.lcomment,some .internalNl,false,.lblank⟩⟩] (.node (.node .leaf 617682694 [⟨⟨(.inside 3),[],.lblank,true,[],false⟩,false,false,[],some 4,some ⟨.code,[47],.lcomment,false,[],false⟩,some ([(42,(.other,false))],false),true,false,false,none,false,⟨.lblank,some .internalNl,false,.lblank⟩⟩] .leaf) 618743574 [⟨⟨(.inside 3),[],.lcomment,true,[],false⟩,false,false,[],some 4,some ⟨.code,[47],.lblank,false,[],false⟩,some ([(42,(.other,false))],false),false,false,false,none,false,⟨.lcomment,some (.own 3),false,.lblank⟩⟩] (.node .leaf 618743582 [⟨⟨(.inside 3),[],.lcomment,true,[],false⟩,false,false,[],some 4,some ⟨.code,[47],.lblank,false,[],false⟩,some ([(42,(.other,false))],false),true,false,false,none,false,⟨.lcomment,some .internalNl,false,.lblank⟩⟩] .leaf))) 618891562 [⟨⟨(.inside 3),[],.lblank,true,[],false⟩,false,false,[],some 4,some ⟨.code,[47],.lblank,false,[],false⟩,some ([(42,(.other,false))],false),true,false,false,none,false,⟨.lblank,some .internalNl,false,.lblank⟩⟩] (.node (.node (.node .leaf 630601222 [⟨⟨(.inside 3),[],.lcode,true,[],false⟩,false,false,[],some 4,some ⟨.code,[47],.lcode,false,[(5,0)],false⟩,some ([(42,(.other,false))],false),false,false,false,none,false,⟨.lcode,some (.own 3),false,.lblank⟩⟩] .leaf) 630601991 [⟨⟨(.inside 3),[],.lcode,true,[],false⟩,false,false,[],some 4,some ⟨.code,[47],.lcode,false,[(5,1)],false⟩,some ([(42,(.other,false))],false),false,false,false,none,false,⟨.lcode,some (.own 3),false,.lblank⟩⟩] (.node .leaf 630606605 [⟨⟨(.inside 3),[],.lcode,true,[],false⟩,false,false,[],some 4,some ⟨.code,[47],.lcode,false,[(6,0)],false⟩,some ([(42,(.other,false))],false),false,false,false,none,false,⟨.lcode,some (.own 3),false,.lblank⟩⟩] .leaf)) 630607374 [⟨⟨(.inside 3),[],.lcode,true,[],false⟩,false,false,[],some 4,some ⟨.code,[47],.lcode,false,[(6,1)],false⟩,some ([(42,(.other,false))],false),false,false,false,none,false,⟨.lcode,some (.own 3),false,.lblank⟩⟩] (.node (.node .leaf 630749210 [⟨⟨(.inside 3),[],.lcomment,true,[],false⟩,false,false,[],some 4,some ⟨.code,[47],.lcode,false,[(5,0)],false⟩,some ([(42,(.other,false))],false),true,false,false,none,false,⟨.lcomment,some .internalNl,false,.lblank⟩⟩] .leaf) 630749979 [⟨⟨(.inside 3),[],.lcomment,true,[],false⟩,false,false,[],some 4,some ⟨.code,[47],.lcode,false,[(5,1)],false⟩,some ([(42,(.other,false))],false),true,false,false,none,false,⟨.lcomment,some .internalNl,false,.lblank⟩⟩] (.node .leaf 630754593 [⟨⟨(.inside 3),[],.lcomment,true,[],false⟩,false,false,[],some 4,some ⟨.code,[47],.lcode,false,[(6,0)],false⟩,some ([(42,(.other,false))],false),true,false,false,none,false,⟨.lcomment,some .internalNl,false,.lblank⟩⟩] .leaf)))) 630755362 [⟨⟨(.inside 3),[],.lcomment,true,[],false⟩,false,false,[],some 4,some ⟨.code,[47],.lcode,false,[(6,1)],false⟩,some ([(42,(.other,false))],false),true,false,false,none,false,⟨.lcomment,some .internalNl,false,.lblank⟩⟩] (.node (.node (.node (.node (.node .leaf 630897190 [⟨⟨(.inside 3),[],.lblank,true,[],false⟩,false,false,[],some 4,some ⟨.code,[47],.lcode,false,[(5,0)],false⟩,some ([(42,(.other,false))],false),true,false,false,none,false,⟨.lblank,some .internalNl,false,.lblank⟩⟩] .leaf) 630897959 [⟨⟨(.inside 3),[],.lblank,true,[],false⟩,false,false,[],some 4,some ⟨.code,[47],.lcode,false,[(5,1)],false⟩,some ([(42,(.other,false))],false),true,false,false,none,false,⟨.lblank,some .internalNl,false,.lblank⟩⟩] .leaf) 630902573 [⟨⟨(.inside 3),[],.lblank,true,[],false⟩,false,false,[],some 4,some ⟨.code,[47],.lcode,false,[(6,0)],false⟩,some ([(42,(.other,false))],false),true,false,false,none,false,⟨.lblank,some .internalNl,false,.lblank⟩⟩] (.node .leaf 630903342 [⟨⟨(.inside 3),[],.lblank,true,[],false⟩,false,false,[],some 4,some ⟨.code,[47],.lcode,false,[(6,1)],false⟩,some ([(42,(.other,false))],false),true,false,false,none,false,⟨.lblank,some .internalNl,false,.lblank⟩⟩] .leaf)) 2520067289 [⟨⟨(.inside 3),[],.lcode,true,[],false⟩,false,false,[],some 4,some ⟨.code,[47],.lcode,false,[(5,0),(6,0)],false⟩,some ([(42,(.other,false))],false),false,false,false,none,false,⟨.lcode,some (.own 3),false,.lblank⟩⟩] (.node (.node .leaf 2520168797 [⟨⟨(.inside 3),[],.lcode,true,[],false⟩,false,false,[],some 4,some ⟨.code,[47],.lcode,false,[(5,1),(6,1)],false⟩,some ([(42,(.other,false))],false),false,false,false,none,false,⟨.lcode,some (.own 3),false,.lblank⟩⟩] .leaf) 2520215277 [⟨⟨(.inside 3),[],.lcomment,true,[],false⟩,false,false,[],some 4,some ⟨.code,[47],.lcode,false,[(5,0),(6,0)],false⟩,some ([(42,(.other,false))],false),true,false,false,none,false,⟨.lcomment,some .internalNl,false,.lblank⟩⟩] (.node .leaf 2520316785 [⟨⟨(.inside 3),[],.lcomment,true,[],false⟩,false,false,[],some 4,some ⟨.code,[47],.lcode,false,[(5,1),(6,1)],false⟩,some ([(42,(.other,false))],false),true,false,false,none,false,⟨.lcomment,some .internalNl,false,.lblank⟩⟩] .leaf))) 2520363257 [⟨⟨(.inside 3),[],.lblank,true,[],false⟩,false,false,[],some 4,some ⟨.code,[47],.lcode,false,[(5,0),(6,0)],false⟩,some ([(42,(.other,false))],false),true,false,false,none,false,⟨.lblank,some .internalNl,false,.lblank⟩⟩] (.node (.node (.node .leaf 2520464765 [⟨⟨(.inside 3),[],.lblank,true,[],false⟩,false,false,[],some 4,some ⟨.code,[47],.lcode,false,[(5,1),(6,1)],false⟩,some ([(42,(.other,false))],false),true,false,false,none,false,⟨.lblank,some .internalNl,false,.lblank⟩⟩] .leaf) 2520767079 [⟨⟨(.inside 3),[],.lcode,true,[],false⟩,false,false,[],some 4,some ⟨.code,[47],.lcode,false,[(6,0),(5,0)],false⟩,some ([(42,(.other,false))],false),false,false,false,none,false,⟨.lcode,some (.own 3),false,.lblank⟩⟩] (.node .leaf 2520868587 [⟨⟨(.inside 3),[],.lcode,true,[],false⟩,false,false,[],some 4,some ⟨.code,[47],.lcode,false,[(6,1),(5,1)],false⟩,some ([(42,(.other,false))],false),false,false,false,none,false,⟨.lcode,some (.own 3),false,.lblank⟩⟩] .leaf)) 2520915067 [⟨⟨(.inside 3),[],.lcomment,true,[],false⟩,false,false,[],some 4,some ⟨.code,[47],.lcode,false,[(6,0),(5,0)],false⟩,some ([(42,(.other,false))],false),true,false,false,none,false,⟨.lcomment,some .internalNl,false,.lblank⟩⟩] (.node (.node .leaf 2521016575 [⟨⟨(.inside 3),[],.lcomment,true,[],false⟩,false,false,[],some 4,some ⟨.code,[47],.lcode,false,[(6,1),(5,1)],false⟩,some ([(42,(.other,false))],false),true,false,false,none,false,⟨.lcomment,some .internalNl,false,.lblank⟩⟩] .leaf) 2521063047 [⟨⟨(.inside 3),[],.lblank,true,[],false⟩,false,false,[],some 4,some ⟨.code,[47],.lcode,false,[(6,0),(5,0)],false⟩,some ([(42,(.other,false))],false),true,false,false,none,false,⟨.lblank,some .internalNl,false,.lblank⟩⟩] (.node .leaf 2521164555 [⟨⟨(.inside 3),[],.lblank,true,[],false⟩,false,false,[],some 4,some ⟨.code,[47],.lcode,false,[(6,1),(5,1)],false⟩,some ([(42,(.other,false))],false),true,false,false,none,false,⟨.lblank,some .internalNl,false,.lblank⟩⟩] .leaf))))),(.node (.node (.node (.node (.node (.node .leaf 616177858 [⟨⟨(.inside 3),[],.lcode,true,[],false⟩,false,false,[],some 4,some ⟨.code,[47],.lcode,false,[],false⟩,some ([(42,(.other,false))],false),false,false,false,none,false,⟨.lcode,some (.own 3),false,.lblank⟩⟩] .leaf) 616325846 [⟨⟨(.inside 3),[],.lcomment,true,[],false⟩,false,false,[],some 4,some ⟨.code,[47],.lcode,false,[],false⟩,some ([(42,(.other,false))],false),true,false,false,none,false,⟨.lcomment,some .internalNl,false,.lblank⟩⟩] .leaf) 616473826 [⟨⟨(.inside 3),[],.lblank,true,[],false⟩,false,false,[],some 4,some ⟨.code,[47],.lcode,false,[],false⟩,some ([(42,(.other,false))],false),true,false,false,none,false,⟨.lblank,some .internalNl,false,.lblank⟩⟩] (.node .leaf 617534706 [⟨⟨(.inside 3),[],.lcomment,true,[],false⟩,false,false,[],some 4,some ⟨.code,[47],.lcomment,false,[],false⟩,some ([(42,(.other,false))],false),false,false,false,none,false,⟨.lcomment,some (.own 3),false,.lblank⟩⟩] .leaf)) 617534714 [⟨⟨(.inside 3),[],.lcomment,true,[],false⟩,false,false,[],some 4,some ⟨.code,[47],.lcomment,false,[],false⟩,some ([(42,(.other,false))],false),true,false,false,none,false,⟨.lcomment,some .internalNl,false,.lblank⟩⟩] (.node (.node .leaf 617682694 [⟨⟨(.inside 3),[],.lblank,true,[],false⟩,false,false,[],some 4,some ⟨.code,[47],.lcomment,false,[],false⟩,some ([(42,(.other,false))],false),true,false,false,none,false,⟨.lblank,some .internalNl,false,.lblank⟩⟩] .leaf) 618743574 [⟨⟨(.inside 3),[],.lcomment,true,[],false⟩,false,false,[],some 4,some ⟨.code,[47],.lblank,false,[],false⟩,some ([(42,(.other,false))],false),false,false,false,none,false,⟨.lcomment,some (.own 3),false,.lblank⟩⟩] (.node .leaf 618743582 [⟨⟨(.inside 3),[],.lcomment,true,[],false⟩,false,false,[],some 4,some ⟨.code,[47],.lblank,false,[],false⟩,some ([(42,(.other,false))],false),true,false,false,none,false,⟨.lcomment,some .internalNl,false,.lblank⟩⟩] .leaf))) 618891562 [⟨⟨(.inside 3),[],.lblank,true,[],false⟩,false,false,[],some 4,some ⟨.code,[47],.lblank,false,[],false⟩,some ([(42,(.other,false))],false),true,false,false,none,false,⟨.lblank,some .internalNl,false,.lblank⟩⟩] (.node (.node (.node .leaf 630601222 [⟨⟨(.inside 3),[],.lcode,true,[],false⟩,false,false,[],some 4,some ⟨.code,[47],.lcode,false,[(5,0)],false⟩,some ([(42,(.other,false))],false),false,false,false,none,false,⟨.lcode,some (.own 3),false,.lblank⟩⟩] .leaf) 630601991 [⟨⟨(.inside 3),[],.lcode,true,[],false⟩,false,false,[],some 4,some ⟨.code,[47],.lcode,false,[(5,1)],false⟩,some ([(42,(.other,false))],false),false,false,false,none,false,⟨.lcode,some (.own 3),false,.lblank⟩⟩] (.node .leaf 630606605 [⟨⟨(.inside 3),[],.lcode,true,[],false⟩,false,false,[],some 4,some ⟨.code,[47],.lcode,false,[(6,0)],false⟩,some ([(42,(.other,false))],false),false,false,false,none,false,⟨.lcode,some (.own 3),false,.lblank⟩⟩] .leaf)) 630607374 [⟨⟨(.inside 3),[],.lcode,true,[],false⟩,false,false,[],some 4,some ⟨.code,[47],.lcode,false,[(6,1)],false⟩,some ([(42,(.other,false))],false),false,false,false,none,false,⟨.lcode,some (.own 3),false,.lblank⟩⟩] (.node (.node .leaf 630749210 [⟨⟨(.inside 3),[],.lcomment,true,[],false⟩,false,false,[],some 4,some ⟨.code,[47],.lcode,false,[(5,0)],false⟩,some ([(42,(.other,false))],false),true,false,false,none,false,⟨.lcomment,some .internalNl,false,.lblank⟩⟩] .leaf) 630749979 [⟨⟨(.inside 3),[],.lcomment,true,[],false⟩,false,false,[],some 4,some ⟨.code,[47],.lcode,false,[(5,1)],false⟩,some ([(42,(.other,false))],false),true,false,false,none,false,⟨.lcomment,some .internalNl,false,.lblank⟩⟩] (.node .leaf 630754593 [⟨⟨(.inside 3),[],.lcomment,true,[],false⟩,false,false,[],some 4,some ⟨.code,[47],.lcode,false,[(6,0)],false⟩,some ([(42,(.other,false))],false),true,false,false,none,false,⟨.lcomment,some .internalNl,false,.lblank⟩⟩] .leaf)))) 630755362 [⟨⟨(.inside 3),[],.lcomment,true,[],false⟩,false,false,[],some 4,some ⟨.code,[47],.lcode,false,[(6,1)],false⟩,some ([(42,(.other,false))],false),true,false,false,none,false,⟨.lcomment,some .internalNl,false,.lblank⟩⟩] (.node (.node (.node (.node (.node .leaf 630897190 [⟨⟨(.inside 3),[],.lblank,true,[],false⟩,false,false,[],some 4,some ⟨.code,[47],.lcode,false,[(5,0)],false⟩,some ([(42,(.other,false))],false),true,false,false,none,false,⟨.lblank,some .internalNl,false,.lblank⟩⟩] .leaf) 630897959 [⟨⟨(.inside 3),[],.lblank,true,[],false⟩,false,false,[],some 4,some ⟨.code,[47],.lcode,false,[(5,1)],false⟩,some ([(42,(.other,false))],false),true,false,false,none,false,⟨.lblank,some .internalNl,false,.lblank⟩⟩] .leaf) 630902573 [⟨⟨(.inside 3),[],.lblank,true,[],false⟩,false,false,[],some 4,some ⟨.code,[47],.lcode,false,[(6,0)],false⟩,some ([(42,(.other,false))],false),true,false,false,none,false,⟨.lblank,some .internalNl,false,.lblank⟩⟩] (.node .leaf 630903342 [⟨⟨(.inside 3),[],.lblank,true,[],false⟩,false,false,[],some 4,some ⟨.code,[47],.lcode,false,[(6,1)],false⟩,some ([(42,(.other,false))],false),true,false,false,none,false,⟨.lblank,some .internalNl,false,.lblank⟩⟩] .leaf)) 2520067289 [⟨⟨(.inside 3),[],.lcode,true,[],false⟩,false,false,[],some 4,some ⟨.code,[47],.lcode,false,[(5,0),(6,0)],false⟩,some ([(42,(.other,false))],false),false,false,false,none,false,⟨.lcode,some (.own 3),false,.lblank⟩⟩] (.node (.node .leaf 2520168797 [⟨⟨(.inside 3),[],.lcode,true,[],false⟩,false,false,[],some 4,some ⟨.code,[47],.lcode,false,[(5,1),(6,1)],false⟩,some ([(42,(.other,false))],false),false,false,false,none,false,⟨.lcode,some (.own 3),false,.lblank⟩⟩] .leaf) 2520215277 [⟨⟨(.inside 3),[],.lcomment,true,[],false⟩,false,false,[],some 4,some ⟨.code,[47],.lcode,false,[(5,0),(6,0)],false⟩,some ([(42,(.other,false))],false),true,false,false,none,false,⟨.lcomment,some .internalNl,false,.lblank⟩⟩] (.node .leaf 2520316785 [⟨⟨(.inside 3),[],.lcomment,true,[],false⟩,false,false,[],some 4,some ⟨.code,[47],.lcode,false,[(5,1),(6,1)],false⟩,some ([(42,(.other,false))],false),true,false,false,none,false,⟨.lcomment,some .internalNl,false,.lblank⟩⟩] .leaf))) 2520363257 [⟨⟨(.inside 3),[],.lblank,true,[],false⟩,false,false,[],some 4,some ⟨.code,[47],.lcode,false,[(5,0),(6,0)],false⟩,some ([(42,(.other,false))],false),true,false,false,none,false,⟨.lblank,some .internalNl,false,.lblank⟩⟩] (.node (.node (.node .leaf 2520464765 [⟨⟨(.inside 3),[],.lblank,true,[],false⟩,false,false,[],some 4,some ⟨.code,[47],.lcode,false,[(5,1),(6,1)],false⟩,some ([(42,(.other,false))],false),true,false,false,none,false,⟨.lblank,some .internalNl,false,.lblank⟩⟩] .leaf) 2520767079 [⟨⟨(.inside 3),[],.lcode,true,[],false⟩,false,false,[],some 4,some ⟨.code,[47],.lcode,false,[(6,0),(5,0)],false⟩,some ([(42,(.other,false))],false),false,false,false,none,false,⟨.lcode,some (.own 3),false,.lblank⟩⟩] (.node .leaf 2520868587 [⟨⟨(.inside 3),[],.lcode,true,[],false⟩,false,false,[],some 4,some ⟨.code,[47],.lcode,false,[(6,1),(5,1)],false⟩,some ([(42,(.other,false))],false),false,false,false,none,false,⟨.lcode,some (.own 3),false,.lblank⟩⟩] .leaf)) 2520915067 [⟨⟨(.inside 3),[],.lcomment,true,[],false⟩,false,false,[],some 4,some ⟨.code,[47],.lcode,false,[(6,0),(5,0)],false⟩,some ([(42,(.other,false))],false),true,false,false,none,false,⟨.lcomment,some .internalNl,false,.lblank⟩⟩] (.node (.node .leaf 2521016575 [⟨⟨(.inside 3),[],.lcomment,true,[],false⟩,false,false,[],some 4,some ⟨.code,[47],.lcode,false,[(6,1),(5,1)],false⟩,some ([(42,(.other,false))],false),true,false,false,none,false,⟨.lcomment,some .internalNl,false,.lblank⟩⟩] .leaf) 2521063047 [⟨⟨(.inside 3),[],.lblank,true,[],false⟩,false,false,[],some 4,some ⟨.code,[47],.lcode,false,[(6,0),(5,0)],false⟩,some ([(42,(.other,false))],false),true,false,false,none,false,⟨.lblank,some .internalNl,false,.lblank⟩⟩] (.node .leaf 2521164555 [⟨⟨(.inside 3),[],.lblank,true,[],false⟩,false,false,[],some 4,some ⟨.code,[47],.lcode,false,[(6,1),(5,1)],false⟩,some ([(42,(.other,false))],false),true,false,false,none,false,⟨.lblank,some .internalNl,false,.lblank⟩⟩] .leaf))))),(.node (.node (.node (.node (.node (.node .leaf 616141023 [⟨⟨(.inside 3),[],.lcode,false,[],false⟩,true,false,[],some 4,some ⟨.code,[47],.lcode,false,[],false⟩,some ([(42,(.other,false))],false),false,false,false,none,false,⟨.lcode,some (.own 3),false,.lblank⟩⟩] .leaf) 616289011 [⟨⟨(.inside 3),[],.lcomment,false,[],false⟩,true,false,[],some 4,some ⟨.code,[47],.lcode,false,[],false⟩,some ([(42,(.other,false))],false),true,false,false,none,false,⟨.lcomment,some .internalNl,false,.lblank⟩⟩] .leaf) 616436991 [⟨⟨(.inside 3),[],.lblank,false,[],false⟩,true,false,[],some 4,some ⟨.code,[47],.lcode,false,[],false⟩,some ([(42,(.other,false))],false),true,false,false,none,false,⟨.lblank,some .internalNl,false,.lblank⟩⟩] (.node .leaf 617497871 [⟨⟨(.inside 3),[],.lcomment,false,[],false⟩,true,false,[],some 4,some ⟨.code,[47],.lcomment,false,[],false⟩,some ([(42,(.other,false))],false),false,false,false,none,false,⟨.lcomment,some (.own 3),false,.lblank⟩⟩] .leaf)) 617497879 [⟨⟨(.inside 3),[],.lcomment,false,[],false⟩,true,false,[],some 4,some ⟨.code,[47],.lcomment,false,[],false⟩,some ([(42,(.other,false))],false),true,false,false,none,false,⟨.lcomment,some .internalNl,false,.lblank⟩⟩] (.node (.node .leaf 617645859 [⟨⟨(.inside 3),[],.lblank,false,[],false⟩,true,false,[],some 4,some ⟨.code,[47],.lcomment,false,[],false⟩,some ([(42,(.other,false))],false),true,false,false,none,false,⟨.lblank,some .internalNl,false,.lblank⟩⟩] .leaf) 618706739 [⟨⟨(.inside 3),[],.lcomment,false,[],false⟩,true,false,[],some 4,some ⟨.code,[47],.lblank,false,[],false⟩,some ([(42,(.other,false))],false),false,false,false,none,false,⟨.lcomment,some (.own 3),false,.lblank⟩⟩] (.node .leaf 618706747 [⟨⟨(.inside 3),[],.lcomment,false,[],false⟩,true,false,[],some 4,some ⟨.code,[47],.lblank,false,[],false⟩,some ([(42,(.other,false))],false),true,false,false,none,false,⟨.lcomment,some .internalNl,false,.lblank⟩⟩] .leaf))) 618854727 [⟨⟨(.inside 3),[],.lblank,false,[],false⟩,true,false,[],some 4,some ⟨.code,[47],.lblank,false,[],false⟩,some ([(42,(.other,false))],false),true,false,false,none,false,⟨.lblank,some .internalNl,false,.lblank⟩⟩] (.node (.node (.node .leaf 630564387 [⟨⟨(.inside 3),[],.lcode,false,[],false⟩,true,false,[],some 4,some ⟨.code,[47],.lcode,false,[(5,0)],false⟩,some ([(42,(.other,false))],false),false,false,false,none,false,⟨.lcode,some (.own 3),false,.lblank⟩⟩] .leaf) 630565156 [⟨⟨(.inside 3),[],.lcode,false,[],false⟩,true,false,[],some 4,some ⟨.code,[47],.lcode,false,[(5,1)],false⟩,some ([(42,(.other,false))],false),false,false,false,none,false,⟨.lcode,some (.own 3),false,.lblank⟩⟩] (.node .leaf 630569770 [⟨⟨(.inside 3),[],.lcode,false,[],false⟩,true,false,[],some 4,some ⟨.code,[47],.lcode,false,[(6,0)],false⟩,some ([(42,(.other,false))],false),false,false,false,none,false,⟨.lcode,some (.own 3),false,.lblank⟩⟩] .leaf)) 630570539 [⟨⟨(.inside 3),[],.lcode,false,[],false⟩,true,false,[],some 4,some ⟨.code,[47],.lcode,false,[(6,1)],false⟩,some ([(42,(.other,false))],false),false,false,false,none,false,⟨.lcode,some (.own 3),false,.lblank⟩⟩] (.node (.node .leaf 630712375 [⟨⟨(.inside 3),[],.lcomment,false,[],false⟩,true,false,[],some 4,some ⟨.code,[47],.lcode,false,[(5,0)],false⟩,some ([(42,(.other,false))],false),true,false,false,none,false,⟨.lcomment,some .internalNl,false,.lblank⟩⟩] .leaf) 630713144 [⟨⟨(.inside 3),[],.lcomment,false,[],false⟩,true,false,[],some 4,some ⟨.code,[47],.lcode,false,[(5,1)],false⟩,some ([(42,(.other,false))],false),true,false,false,none,false,⟨.lcomment,some .internalNl,false,.lblank⟩⟩] (.node .leaf 630717758 [⟨⟨(.inside 3),[],.lcomment,false,[],false⟩,true,false,[],some 4,some ⟨.code,[47],.lcode,false,[(6,0)],false⟩,some ([(42,(.other,false))],false),true,false,false,none,false,⟨.lcomment,some .internalNl,false,.lblank⟩⟩] .leaf)))) 630718527 [⟨⟨(.inside 3),[],.lcomment,false,[],false⟩,true,false,[],some 4,some ⟨.code,[47],.lcode,false,[(6,1)],false⟩,some ([(42,(.other,false))],false),true,false,false,none,false,⟨.lcomment,some .internalNl,false,.lblank⟩⟩] (.node (.node (.node (.node (.node .leaf 630860355 [⟨⟨(.inside 3),[],.lblank,false,[],false⟩,true,false,[],some 4,some ⟨.code,[47],.lcode,false,[(5,0)],false⟩,some ([(42,(.other,false))],false),true,false,false,none,false,⟨.lblank,some .internalNl,false,.lblank⟩⟩] .leaf) 630861124 [⟨⟨(.inside 3),[],.lblank,false,[],false⟩,true,false,[],some 4,some ⟨.code,[47],.lcode,false,[(5,1)],false⟩,some ([(42,(.other,false))],false),true,false,false,none,false,⟨.lblank,some .internalNl,false,.lblank⟩⟩] .leaf) 630865738 [⟨⟨(.inside 3),[],.lblank,false,[],false⟩,true,false,[],some 4,some ⟨.code,[47],.lcode,false,[(6,0)],false⟩,some ([(42,(.other,false))],false),true,false,false,none,false,⟨.lblank,some .internalNl,false,.lblank⟩⟩] (.node .leaf 630866507 [⟨⟨(.inside 3),[],.lblank,false,[],false⟩,true,false,[],some 4,some ⟨.code,[47],.lcode,false,[(6,1)],false⟩,some ([(42,(.other,false))],false),true,false,false,none,false,⟨.lblank,some .internalNl,false,.lblank⟩⟩] .leaf)) 2520030454 [⟨⟨(.inside 3),[],.lcode,false,[],false⟩,true,false,[],some 4,some ⟨.code,[47],.lcode,false,[(5,0),(6,0)],false⟩,some ([(42,(.other,false))],false),false,false,false,none,false,⟨.lcode,some (.own 3),false,.lblank⟩⟩] (.node (.node .leaf 2520131962 [⟨⟨(.inside 3),[],.lcode,false,[],false⟩,true,false,[],some 4,some ⟨.code,[47],.lcode,false,[(5,1),(6,1)],false⟩,some ([(42,(.other,false))],false),false,false,false,none,false,⟨.lcode,some (.own 3),false,.lblank⟩⟩] .leaf) 2520178442 [⟨⟨(.inside 3),[],.lcomment,false,[],false⟩,true,false,[],some 4,some ⟨.code,[47],.lcode,false,[(5,0),(6,0)],false⟩,some ([(42,(.other,false))],false),true,false,false,none,false,⟨.lcomment,some .internalNl,false,.lblank⟩⟩] (.node .leaf 2520279950 [⟨⟨(.inside 3),[],.lcomment,false,[],false⟩,true,false,[],some 4,some ⟨.code,[47],.lcode,false,[(5,1),(6,1)],false⟩,some ([(42,(.other,false))],false),true,false,false,none,false,⟨.lcomment,some .internalNl,false,.lblank⟩⟩] .leaf))) 2520326422 [⟨⟨(.inside 3),[],.lblank,false,[],false⟩,true,false,[],some 4,some ⟨.code,[47],.lcode,false,[(5,0),(6,0)],false⟩,some ([(42,(.other,false))],false),true,false,false,none,false,⟨.lblank,some .internalNl,false,.lblank⟩⟩] (.node (.node (.node .leaf 2520427930 [⟨⟨(.inside 3),[],.lblank,false,[],false⟩,true,false,[],some 4,some ⟨.code,[47],.lcode,false,[(5,1),(6,1)],false⟩,some ([(42,(.other,false))],false),true,false,false,none,false,⟨.lblank,some .internalNl,false,.lblank⟩⟩] .leaf) 2520730244 [⟨⟨(.inside 3),[],.lcode,false,[],false⟩,true,false,[],some 4,some ⟨.code,[47],.lcode,false,[(6,0),(5,0)],false⟩,some ([(42,(.other,false))],false),false,false,false,none,false,⟨.lcode,some (.own 3),false,.lblank⟩⟩] (.node .leaf 2520831752 [⟨⟨(.inside 3),[],.lcode,false,[],false⟩,true,false,[],some 4,some ⟨.code,[47],.lcode,false,[(6,1),(5,1)],false⟩,some ([(42,(.other,false))],false),false,false,false,none,false,⟨.lcode,some (.own 3),false,.lblank⟩⟩] .leaf)) 2520878232 [⟨⟨(.inside 3),[],.lcomment,false,[],false⟩,true,false,[],some 4,some ⟨.code,[47],.lcode,false,[(6,0),(5,0)],false⟩,some ([(42,(.other,false))],false),true,false,false,none,false,⟨.lcomment,some .internalNl,false,.lblank⟩⟩] (.node (.node .leaf 2520979740 [⟨⟨(.inside 3),[],.lcomment,false,[],false⟩,true,false,[],some 4,some ⟨.code,[47],.lcode,false,[(6,1),(5,1)],false⟩,some ([(42,(.other,false))],false),true,false,false,none,false,⟨.lcomment,some .internalNl,false,.lblank⟩⟩] .leaf) 2521026212 [⟨⟨(.inside 3),[],.lblank,false,[],false⟩,true,false,[],some 4,some ⟨.code,[47],.lcode,false,[(6,0),(5,0)],false⟩,some ([(42,(.other,false))],false),true,false,false,none,false,⟨.lblank,some .internalNl,false,.lblank⟩⟩] (.node .leaf 2521127720 [⟨⟨(.inside 3),[],.lblank,false,[],false⟩,true,false,[],some 4,some ⟨.code,[47],.lcode,false,[(6,1),(5,1)],false⟩,some ([(42,(.other,false))],false),true,false,false,none,false,⟨.lblank,some .internalNl,false,.lblank⟩⟩] .leaf))))),(.node (.node (.node (.node (.node (.node .leaf 616177874 [⟨⟨(.inside 3),[],.lcode,true,[],false⟩,false,true,[],some 4,some ⟨.code,[47],.lcode,false,[],false⟩,some ([(42,(.other,false))],false),false,false,false,none,false,⟨.lcode,some (.own 3),false,.lblank⟩⟩] .leaf) 616325862 [⟨⟨(.inside 3),[],.lcomment,true,[],false⟩,false,true,[],some 4,some ⟨.code,[47],.lcode,false,[],false⟩,some ([(42,(.other,false))],false),true,false,false,none,false,⟨.lcomment,some .internalNl,false,.lblank⟩⟩] .leaf) 616473842 [⟨⟨(.inside 3),[],.lblank,true,[],false⟩,false,true,[],some 4,some ⟨.code,[47],.lcode,false,[],false⟩,some ([(42,(.other,false))],false),true,false,false,none,false,⟨.lblank,some .internalNl,false,.lblank⟩⟩] (.node .leaf 617534722 [⟨⟨(.inside 3),[],.lcomment,true,[],false⟩,false,true,[],some 4,some ⟨.code,[47],.lcomment,false,[],false⟩,some ([(42,(.other,false))],false),false,false,false,none,false,⟨.lcomment,some (.own 3),false,.lblank⟩⟩] .leaf)) 617534730 [⟨⟨(.inside 3),[],.lcomment,true,[],false⟩,false,true,[],some 4,some ⟨.code,[47],.lcomment,false,[],false⟩,some ([(42,(.other,false))],false),true,false,false,none,false,⟨.lcomment,some .internalNl,false,.lblank⟩⟩] (.node (.node .leaf 617682710 [⟨⟨(.inside 3),[],.lblank,true,[],false⟩,false,true,[],some 4,some ⟨.code,[47],.lcomment,false,[],false⟩,some ([(42,(.other,false))],false),true,false,false,none,false,⟨.lblank,some .internalNl,false,.lblank⟩⟩] .leaf) 618743590 [⟨⟨(.inside 3),[],.lcomment,true,[],false⟩,false,true,[],some 4,some ⟨.code,[47],.lblank,false,[],false⟩,some ([(42,(.other,false))],false),false,false,false,none,false,⟨.lcomment,some (.own 3),false,.lblank⟩⟩] (.node .leaf 618743598 [⟨⟨(.inside 3),[],.lcomment,true,[],false⟩,false,true,[],some 4,some ⟨.code,[47],.lblank,false,[],false⟩,some ([(42,(.other,false))],false),true,false,false,none,false,⟨.lcomment,some .internalNl,false,.lblank⟩⟩] .leaf))) 618891578 [⟨⟨(.inside 3),[],.lblank,true,[],false⟩,false,true,[],some 4,some ⟨.code,[47],.lblank,false,[],false⟩,some ([(42,(.other,false))],false),true,false,false,none,false,⟨.lblank,some .internalNl,false,.lblank⟩⟩] (.node (.node (.node .leaf 630601238 [⟨⟨(.inside 3),[],.lcode,true,[],false⟩,false,true,[],some 4,some ⟨.code,[47],.lcode,false,[(5,0)],false⟩,some ([(42,(.other,false))],false),false,false,false,none,false,⟨.lcode,some (.own 3),false,.lblank⟩⟩] .leaf) 630602007 [⟨⟨(.inside 3),[],.lcode,true,[],false⟩,false,true,[],some 4,some ⟨.code,[47],.lcode,false,[(5,1)],false⟩,some ([(42,(.other,false))],false),false,false,false,none,false,⟨.lcode,some (.own 3),false,.lblank⟩⟩] (.node .leaf 630606621 [⟨⟨(.inside 3),[],.lcode,true,[],false⟩,false,true,[],some 4,some ⟨.code,[47],.lcode,false,[(6,0)],false⟩,some ([(42,(.other,false))],false),false,false,false,none,false,⟨.lcode,some (.own 3),false,.lblank⟩⟩] .leaf)) 630607390 [⟨⟨(.inside 3),[],.lcode,true,[],false⟩,false,true,[],some 4,some ⟨.code,[47],.lcode,false,[(6,1)],false⟩,some ([(42,(.other,false))],false),false,false,false,none,false,⟨.lcode,some (.own 3),false,.lblank⟩⟩] (.node (.node .leaf 630749226 [⟨⟨(.inside 3),[],.lcomment,true,[],false⟩,false,true,[],some 4,some ⟨.code,[47],.lcode,false,[(5,0)],false⟩,some ([(42,(.other,false))],false),true,false,false,none,false,⟨.lcomment,some .internalNl,false,.lblank⟩⟩] .leaf) 630749995 [⟨⟨(.inside 3),[],.lcomment,true,[],false⟩,false,true,[],some 4,some ⟨.code,[47],.lcode,false,[(5,1)],false⟩,some ([(42,(.other,false))],false),true,false,false,none,false,⟨.lcomment,some .internalNl,false,.lblank⟩⟩] (.node .leaf 630754609 [⟨⟨(.inside 3),[],.lcomment,true,[],false⟩,false,true,[],some 4,some ⟨.code,[47],.lcode,false,[(6,0)],false⟩,some ([(42,(.other,false))],false),true,false,false,none,false,⟨.lcomment,some .internalNl,false,.lblank⟩⟩] .leaf)))) 630755378 [⟨⟨(.inside 3),[],.lcomment,true,[],false⟩,false,true,[],some 4,some ⟨.code,[47],.lcode,false,[(6,1)],false⟩,some ([(42,(.other,false))],false),true,false,false,none,false,⟨.lcomment,some .internalNl,false,.lblank⟩⟩] (.node (.node (.node (.node (.node .leaf 630897206 [⟨⟨(.inside 3),[],.lblank,true,[],false⟩,false,true,[],some 4,some ⟨.code,[47],.lcode,false,[(5,0)],false⟩,some ([(42,(.other,false))],false),true,false,false,none,false,⟨.lblank,some .internalNl,false,.lblank⟩⟩] .leaf) 630897975 [⟨⟨(.inside 3),[],.lblank,true,[],false⟩,false,true,[],some 4,some ⟨.code,[47],.lcode,false,[(5,1)],false⟩,some ([(42,(.other,false))],false),true,false,false,none,false,⟨.lblank,some .internalNl,false,.lblank⟩⟩] .leaf) 630902589 [⟨⟨(.inside 3),[],.lblank,true,[],false⟩,false,true,[],some 4,some ⟨.code,[47],.lcode,false,[(6,0)],false⟩,some ([(42,(.other,false))],false),true,false,false,none,false,⟨.lblank,some .internalNl,false,.lblank⟩⟩] (.node .leaf 630903358 [⟨⟨(.inside 3),[],.lblank,true,[],false⟩,false,true,[],some 4,some ⟨.code,[47],.lcode,false,[(6,1)],false⟩,some ([(42,(.other,false))],false),true,false,false,none,false,⟨.lblank,some .internalNl,false,.lblank⟩⟩] .leaf)) 2520067305 [⟨⟨(.inside 3),[],.lcode,true,[],false⟩,false,true,[],some 4,some ⟨.code,[47],.lcode,false,[(5,0),(6,0)],false⟩,some ([(42,(.other,false))],false),false,false,false,none,false,⟨.lcode,some (.own 3),false,.lblank⟩⟩] (.node (.node .leaf 2520168813 [⟨⟨(.inside 3),[],.lcode,true,[],false⟩,false,true,[],some 4,some ⟨.code,[47],.lcode,false,[(5,1),(6,1)],false⟩,some ([(42,(.other,false))],false),false,false,false,none,false,⟨.lcode,some (.own 3),false,.lblank⟩⟩] .leaf) 2520215293 [⟨⟨(.inside 3),[],.lcomment,true,[],false⟩,false,true,[],some 4,some ⟨.code,[47],.lcode,false,[(5,0),(6,0)],false⟩,some ([(42,(.other,false))],false),true,false,false,none,false,⟨.lcomment,some .internalNl,false,.lblank⟩⟩] (.node .leaf 2520316801 [⟨⟨(.inside 3),[],.lcomment,true,[],false⟩,false,true,[],some 4,some ⟨.code,[47],.lcode,false,[(5,1),(6,1)],false⟩,some ([(42,(.other,false))],false),true,false,false,none,false,⟨.lcomment,some .internalNl,false,.lblank⟩⟩] .leaf))) 2520363273 [⟨⟨(.inside 3),[],.lblank,true,[],false⟩,false,true,[],some 4,some ⟨.code,[47],.lcode,false,[(5,0),(6,0)],false⟩,some ([(42,(.other,false))],false),true,false,false,none,false,⟨.lblank,some .internalNl,false,.lblank⟩⟩] (.node (.node (.node .leaf 2520464781 [⟨⟨(.inside 3),[],.lblank,true,[],false⟩,false,true,[],some 4,some ⟨.code,[47],.lcode,false,[(5,1),(6,1)],false⟩,some ([(42,(.other,false))],false),true,false,false,none,false,⟨.lblank,some .internalNl,false,.lblank⟩⟩] .leaf) 2520767095 [⟨⟨(.inside 3),[],.lcode,true,[],false⟩,false,true,[],some 4,some ⟨.code,[47],.lcode,false,[(6,0),(5,0)],false⟩,some ([(42,(.other,false))],false),false,false,false,none,false,⟨.lcode,some (.own 3),false,.lblank⟩⟩] (.node .leaf 2520868603 [⟨⟨(.inside 3),[],.lcode,true,[],false⟩,false,true,[],some 4,some ⟨.code,[47],.lcode,false,[(6,1),(5,1)],false⟩,some ([(42,(.other,false))],false),false,false,false,none,false,⟨.lcode,some (.own 3),false,.lblank⟩⟩] .leaf)) 2520915083 [⟨⟨(.inside 3),[],.lcomment,true,[],false⟩,false,true,[],some 4,some ⟨.code,[47],.lcode,false,[(6,0),(5,0)],false⟩,some ([(42,(.other,false))],false),true,false,false,none,false,⟨.lcomment,some .internalNl,false,.lblank⟩⟩] (.node (.node .leaf 2521016591 [⟨⟨(.inside 3),[],.lcomment,true,[],false⟩,false,true,[],some 4,some ⟨.code,[47],.lcode,false,[(6,1),(5,1)],false⟩,some ([(42,(.other,false))],false),true,false,false,none,false,⟨.lcomment,some .internalNl,false,.lblank⟩⟩] .leaf) 2521063063 [⟨⟨(.inside 3),[],.lblank,true,[],false⟩,false,true,[],some 4,some ⟨.code,[47],.lcode,false,[(6,0),(5,0)],false⟩,some ([(42,(.other,false))],false),true,false,false,none,false,⟨.lblank,some .internalNl,false,.lblank⟩⟩] (.node .leaf 2521164571 [⟨⟨(.inside 3),[],.lblank,true,[],false⟩,false,true,[],some 4,some ⟨.code,[47],.lcode,false,[(6,1),(5,1)],false⟩,some ([(42,(.other,false))],false),true,false,false,none,false,⟨.lblank,some .internalNl,false,.lblank⟩⟩] .leaf))))),(.node (.node (.node (.node (.node (.node .leaf 1921343392 [⟨⟨(.inside 3),[42],.lcode,false,[],false⟩,false,false,[],some 4,some ⟨.code,[47],.lcode,false,[],false⟩,some ([(42,(.other,false))],false),false,false,false,none,false,⟨.lcode,some (.own 3),false,.lblank⟩⟩] .leaf) 1940662220 [⟨⟨(.inside 3),[42],.lcomment,false,[],false⟩,false,false,[],some 4,some ⟨.code,[47],.lcode,false,[],false⟩,some ([(42,(.other,false))],false),true,false,false,none,false,⟨.lcomment,some .internalNl,false,.lblank⟩⟩] .leaf) 1941871080 [⟨⟨(.inside 3),[42],.lcomment,false,[],false⟩,false,false,[],some 4,some ⟨.code,[47],.lcomment,false,[],false⟩,some ([(42,(.other,false))],false),false,false,false,none,false,⟨.lcomment,some (.own 3),false,.lblank⟩⟩] (.node (.node .leaf 1941871088 [⟨⟨(.inside 3),[42],.lcomment,false,[],false⟩,false,false,[],some 4,some ⟨.code,[47],.lcomment,false,[],false⟩,some ([(42,(.other,false))],false),true,false,false,none,false,⟨.lcomment,some .internalNl,false,.lblank⟩⟩] .leaf) 1943079948 [⟨⟨(.inside 3),[42],.lcomment,false,[],false⟩,false,false,[],some 4,some ⟨.code,[47],.lblank,false,[],false⟩,some ([(42,(.other,false))],false),false,false,false,none,false,⟨.lcomment,some (.own 3),false,.lblank⟩⟩] .leaf)) 1943079956 [⟨⟨(.inside 3),[42],.lcomment,false,[],false⟩,false,false,[],some 4,some ⟨.code,[47],.lblank,false,[],false⟩,some ([(42,(.other,false))],false),true,false,false,none,false,⟨.lcomment,some .internalNl,false,.lblank⟩⟩] (.node (.node (.node .leaf 1955085584 [⟨⟨(.inside 3),[42],.lcomment,false,[],false⟩,false,false,[],some 4,some ⟨.code,[47],.lcode,false,[(5,0)],false⟩,some ([(42,(.other,false))],false),true,false,false,none,false,⟨.lcomment,some .internalNl,false,.lblank⟩⟩] .leaf) 1955086353 [⟨⟨(.inside 3),[42],.lcomment,false,[],false⟩,false,false,[],some 4,some ⟨.code,[47],.lcode,false,[(5,1)],false⟩,some ([(42,(.other,false))],false),true,false,false,none,false,⟨.lcomment,some .internalNl,false,.lblank⟩⟩] .leaf) 1955090967 [⟨⟨(.inside 3),[42],.lcomment,false,[],false⟩,false,false,[],some 4,some ⟨.code,[47],.lcode,false,[(6,0)],false⟩,some ([(42,(.other,false))],false),true,false,false,none,false,⟨.lcomment,some .internalNl,false,.lblank⟩⟩] (.node .leaf 1955091736 [⟨⟨(.inside 3),[42],.lcomment,false,[],false⟩,false,false,[],some 4,some ⟨.code,[47],.lcode,false,[(6,1)],false⟩,some ([(42,(.other,false))],false),true,false,false,none,false,⟨.lcomment,some .internalNl,false,.lblank⟩⟩] .leaf))) 1959980528 [⟨⟨(.inside 3),[42],.lblank,false,[],false⟩,false,false,[],some 4,some ⟨.code,[47],.lcode,false,[],false⟩,some ([(42,(.other,false))],false),true,false,false,none,false,⟨.lcomment,some .internalNl,false,.lblank⟩⟩] (.node (.node (.node (.node .leaf 1961189396 [⟨⟨(.inside 3),[42],.lblank,false,[],false⟩,false,false,[],some 4,some ⟨.code,[47],.lcomment,false,[],false⟩,some ([(42,(.other,false))],false),true,false,false,none,false,⟨.lcomment,some .internalNl,false,.lblank⟩⟩] .leaf) 1962398264 [⟨⟨(.inside 3),[42],.lblank,false,[],false⟩,false,false,[],some 4,some ⟨.code,[47],.lblank,false,[],false⟩,some ([(42,(.other,false))],false),true,false,false,none,false,⟨.lcomment,some .internalNl,false,.lblank⟩⟩] .leaf) 1974403892 [⟨⟨(.inside 3),[42],.lblank,false,[],false⟩,false,false,[],some 4,some ⟨.code,[47],.lcode,false,[(5,0)],false⟩,some ([(42,(.other,false))],false),true,false,false,none,false,⟨.lcomment,some .internalNl,false,.lblank⟩⟩] (.node .leaf 1974404661 [⟨⟨(.inside 3),[42],.lblank,false,[],false⟩,false,false,[],some 4,some ⟨.code,[47],.lcode,false,[(5,1)],false⟩,some ([(42,(.other,false))],false),true,false,false,none,false,⟨.lcomment,some .internalNl,false,.lblank⟩⟩] .leaf)) 1974409275 [⟨⟨(.inside 3),[42],.lblank,false,[],false⟩,false,false,[],some 4,some ⟨.code,[47],.lcode,false,[(6,0)],false⟩,some ([(42,(.other,false))],false),true,false,false,none,false,⟨.lcomment,some .internalNl,false,.lblank⟩⟩] (.node (.node (.node .leaf 1974410044 [⟨⟨(.inside 3),[42],.lblank,false,[],false⟩,false,false,[],some 4,some ⟨.code,[47],.lcode,false,[(6,1)],false⟩,some ([(42,(.other,false))],false),true,false,false,none,false,⟨.lcomment,some .internalNl,false,.lblank⟩⟩] .leaf) 3844551651 [⟨⟨(.inside 3),[42],.lcomment,false,[],false⟩,false,false,[],some 4,some ⟨.code,[47],.lcode,false,[(5,0),(6,0)],false⟩,some ([(42,(.other,false))],false),true,false,false,none,false,⟨.lcomment,some .internalNl,false,.lblank⟩⟩] .leaf) 3844653159 [⟨⟨(.inside 3),[42],.lcomment,false,[],false⟩,false,false,[],some 4,some ⟨.code,[47],.lcode,false,[(5,1),(6,1)],false⟩,some ([(42,(.other,false))],false),true,false,false,none,false,⟨.lcomment,some .internalNl,false,.lblank⟩⟩] (.node .leaf 3845251441 [⟨⟨(.inside 3),[42],.lcomment,false,[],false⟩,false,false,[],some 4,some ⟨.code,[47],.lcode,false,[(6,0),(5,0)],false⟩,some ([(42,(.other,false))],false),true,false,false,none,false,⟨.lcomment,some .internalNl,false,.lblank⟩⟩] .leaf)))) 3845352949 [⟨⟨(.inside 3),[42],.lcomment,false,[],false⟩,false,false,[],some 4,some ⟨.code,[47],.lcode,false,[(6,1),(5,1)],false⟩,some ([(42,(.other,false))],false),true,false,false,none,false,⟨.lcomment,some .internalNl,false,.lblank⟩⟩] (.node (.node (.node (.node (.node .leaf 3863869959 [⟨⟨(.inside 3),[42],.lblank,false,[],false⟩,false,false,[],some 4,some ⟨.code,[47],.lcode,false,[(5,0),(6,0)],false⟩,some ([(42,(.other,false))],false),true,false,false,none,false,⟨.lcomment,some .internalNl,false,.lblank⟩⟩] .leaf) 3863971467 [⟨⟨(.inside 3),[42],.lblank,false,[],false⟩,false,false,[],some 4,some ⟨.code,[47],.lcode,false,[(5,1),(6,1)],false⟩,some ([(42,(.other,false))],false),true,false,false,none,false,⟨.lcomment,some .internalNl,false,.lblank⟩⟩] .leaf) 3864569749 [⟨⟨(.inside 3),[42],.lblank,false,[],false⟩,false,false,[],some 4,some ⟨.code,[47],.lcode,false,[(6,0),(5,0)],false⟩,some ([(42,(.other,false))],false),true,false,false,none,false,⟨.lcomment,some .internalNl,false,.lblank⟩⟩] (.node (.node .leaf 3864671257 [⟨⟨(.inside 3),[42],.lblank,false,[],false⟩,false,false,[],some 4,some ⟨.code,[47],.lcode,false,[(6,1),(5,1)],false⟩,some ([(42,(.other,false))],false),true,false,false,none,false,⟨.lcomment,some .internalNl,false,.lblank⟩⟩] .leaf) 172916138410 [⟨⟨(.inside 3),[42],.lcode,false,[(5,0)],false⟩,false,false,[],some 4,some ⟨.code,[47],.lcode,false,[(5,0)],false⟩,some ([(42,(.other,false))],false),false,false,false,none,false,⟨.lcode,some (.own 3),false,.lblank⟩⟩] .leaf)) 172916139179 [⟨⟨(.inside 3),[42],.lcode,false,[(5,0)],false⟩,false,false,[],some 4,some ⟨.code,[47],.lcode,false,[(5,1)],false⟩,some ([(42,(.other,false))],false),false,false,false,none,false,⟨.lcode,some (.own 3),false,.lblank⟩⟩] (.node (.node (.node .leaf 172916150699 [⟨⟨(.inside 3),[42],.lcode,false,[(5,1)],false⟩,false,false,[],some 4,some ⟨.code,[47],.lcode,false,[(5,0)],false⟩,some ([(42,(.other,false))],false),false,false,false,none,false,⟨.lcode,some (.own 3),false,.lblank⟩⟩] .leaf) 172916151468 [⟨⟨(.inside 3),[42],.lcode,false,[(5,1)],false⟩,false,false,[],some 4,some ⟨.code,[47],.lcode,false,[(5,1)],false⟩,some ([(42,(.other,false))],false),false,false,false,none,false,⟨.lcode,some (.own 3),false,.lblank⟩⟩] .leaf) 172916229816 [⟨⟨(.inside 3),[42],.lcode,false,[(6,0)],false⟩,false,false,[],some 4,some ⟨.code,[47],.lcode,false,[(6,0)],false⟩,some ([(42,(.other,false))],false),false,false,false,none,false,⟨.lcode,some (.own 3),false,.lblank⟩⟩] (.node .leaf 172916230585 [⟨⟨(.inside 3),[42],.lcode,false,[(6,0)],false⟩,false,false,[],some 4,some ⟨.code,[47],.lcode,false,[(6,1)],false⟩,some ([(42,(.other,false))],false),false,false,false,none,false,⟨.lcode,some (.own 3),false,.lblank⟩⟩] .leaf))) 172916242105 [⟨⟨(.inside 3),[42],.lcode,false,[(6,1)],false⟩,false,false,[],some 4,some ⟨.code,[47],.lcode,false,[(6,0)],false⟩,some ([(42,(.other,false))],false),false,false,false,none,false,⟨.lcode,some (.own 3),false,.lblank⟩⟩] (.node (.node (.node (.node .leaf 172916242874 [⟨⟨(.inside 3),[42],.lcode,false,[(6,1)],false⟩,false,false,[],some 4,some ⟨.code,[47],.lcode,false,[(6,1)],false⟩,some ([(42,(.other,false))],false),false,false,false,none,false,⟨.lcode,some (.own 3),false,.lblank⟩⟩] .leaf) 22573234377174 [⟨⟨(.inside 3),[42],.lcode,false,[(5,0),(6,0)],false⟩,false,false,[],some 4,some ⟨.code,[47],.lcode,false,[(5,0),(6,0)],false⟩,some ([(42,(.other,false))],false),false,false,false,none,false,⟨.lcode,some (.own 3),false,.lblank⟩⟩] .leaf) 22573234478682 [⟨⟨(.inside 3),[42],.lcode,false,[(5,0),(6,0)],false⟩,false,false,[],some 4,some ⟨.code,[47],.lcode,false,[(5,1),(6,1)],false⟩,some ([(42,(.other,false))],false),false,false,false,none,false,⟨.lcode,some (.own 3),false,.lblank⟩⟩] (.node .leaf 22573235999322 [⟨⟨(.inside 3),[42],.lcode,false,[(5,1),(6,1)],false⟩,false,false,[],some 4,some ⟨.code,[47],.lcode,false,[(5,0),(6,0)],false⟩,some ([(42,(.other,false))],false),false,false,false,none,false,⟨.lcode,some (.own 3),false,.lblank⟩⟩] .leaf)) 22573236100830 [⟨⟨(.inside 3),[42],.lcode,false,[(5,1),(6,1)],false⟩,false,false,[],some 4,some ⟨.code,[47],.lcode,false,[(5,1),(6,1)],false⟩,some ([(42,(.other,false))],false),false,false,false,none,false,⟨.lcode,some (.own 3),false,.lblank⟩⟩] (.node (.node (.node .leaf 22573246259954 [⟨⟨(.inside 3),[42],.lcode,false,[(6,0),(5,0)],false⟩,false,false,[],some 4,some ⟨.code,[47],.lcode,false,[(6,0),(5,0)],false⟩,some ([(42,(.other,false))],false),false,false,false,none,false,⟨.lcode,some (.own 3),false,.lblank⟩⟩] .leaf) 22573246361462 [⟨⟨(.inside 3),[42],.lcode,false,[(6,0),(5,0)],false⟩,false,false,[],some 4,some ⟨.code,[47],.lcode,false,[(6,1),(5,1)],false⟩,some ([(42,(.other,false))],false),false,false,false,none,false,⟨.lcode,some (.own 3),false,.lblank⟩⟩] .leaf) 22573247882102 [⟨⟨(.inside 3),[42],.lcode,false,[(6,1),(5,1)],false⟩,false,false,[],some 4,some ⟨.code,[47],.lcode,false,[(6,0),(5,0)],false⟩,some ([(42,(.other,false))],false),false,false,false,none,false,⟨.lcode,some (.own 3),false,.lblank⟩⟩] (.node .leaf 22573247983610 [⟨⟨(.inside 3),[42],.lcode,false,[(6,1),(5,1)],false⟩,false,false,[],some 4,some ⟨.code,[47],.lcode,false,[(6,1),(5,1)],false⟩,some ([(42,(.other,false))],false),false,false,false,none,false,⟨.lcode,some (.own 3),false,.lblank⟩⟩] .leaf))))),(.node (.node (.node (.node (.node .leaf 13826728 [⟨⟨(.inside 4),[],.lcode,true,[],false⟩,false,false,[],some 4,some ⟨(.inside 4),[],.lcode,false,[],false⟩,none,false,false,false,none,false,⟨.lcode,some (.own 3),false,.lblank⟩⟩] .leaf) 13974716 [⟨⟨(.inside 4),[],.lcomment,true,[],false⟩,false,false,[],some 4,some ⟨(.inside 4),[],.lcode,false,[],false⟩,none,true,false,false,none,false,⟨.lcomment,some .internalNl,false,.lblank⟩⟩] .leaf) 13983936 [⟨⟨(.inside 4),[],.lcomment,true,[],false⟩,false,false,[],some 4,some ⟨(.inside 4),[],.lcomment,false,[],false⟩,none,false,false,false,none,false,⟨.lcomment,some (.own 3),false,.lblank⟩⟩] (.node .leaf 13983944 [⟨⟨(.inside 4),[],.lcomment,true,[],false⟩,false,false,[],some 4,some ⟨(.inside 4),[],.lcomment,false,[],false⟩,none,true,false,false,none,false,⟨.lcomment,some .internalNl,false,.lblank⟩⟩] .leaf)) 14122696 [⟨⟨(.inside 4),[],.lblank,true,[],false⟩,false,false,[],some 4,some ⟨(.inside 4),[],.lcode,false,[],false⟩,none,true,false,false,none,false,⟨.lblank,some .internalNl,false,.lblank⟩⟩] (.node (.node (.node .leaf 14131924 [⟨⟨(.inside 4),[],.lblank,true,[],false⟩,false,false,[],some 4,some ⟨(.inside 4),[],.lcomment,false,[],false⟩,none,true,false,false,none,false,⟨.lblank,some .internalNl,false,.lblank⟩⟩] .leaf) 119422732 [⟨⟨(.inside 4),[],.lcode,true,[],false⟩,false,false,[],some 4,some ⟨(.inside 4),[],.lcode,false,[(5,0)],false⟩,none,false,false,false,none,false,⟨.lcode,some (.own 3),false,.lblank⟩⟩] .leaf) 119428115 [⟨⟨(.inside 4),[],.lcode,true,[],false⟩,false,false,[],some 4,some ⟨(.inside 4),[],.lcode,false,[(6,0)],false⟩,none,false,false,false,none,false,⟨.lcode,some (.own 3),false,.lblank⟩⟩] (.node .leaf 119570720 [⟨⟨(.inside 4),[],.lcomment,true,[],false⟩,false,false,[],some 4,some ⟨(.inside 4),[],.lcode,false,[(5,0)],false⟩,none,true,false,false,none,false,⟨.lcomment,some .internalNl,false,.lblank⟩⟩] .leaf))) 119576103 [⟨⟨(.inside 4),[],.lcomment,true,[],false⟩,false,false,[],some 4,some ⟨(.inside 4),[],.lcode,false,[(6,0)],false⟩,none,true,false,false,none,false,⟨.lcomment,some .internalNl,false,.lblank⟩⟩] (.node (.node (.node (.node .leaf 119718700 [⟨⟨(.inside 4),[],.lblank,true,[],false⟩,false,false,[],some 4,some ⟨(.inside 4),[],.lcode,false,[(5,0)],false⟩,none,true,false,false,none,false,⟨.lblank,some .internalNl,false,.lblank⟩⟩] .leaf) 119724083 [⟨⟨(.inside 4),[],.lblank,true,[],false⟩,false,false,[],some 4,some ⟨(.inside 4),[],.lcode,false,[(6,0)],false⟩,none,true,false,false,none,false,⟨.lblank,some .internalNl,false,.lblank⟩⟩] .leaf) 13952504639 [⟨⟨(.inside 4),[],.lcode,true,[],false⟩,false,false,[],some 4,some ⟨(.inside 4),[],.lcode,false,[(5,0),(6,0)],false⟩,none,false,false,false,none,false,⟨.lcode,some (.own 3),false,.lblank⟩⟩] (.node .leaf 13952652627 [⟨⟨(.inside 4),[],.lcomment,true,[],false⟩,false,false,[],some 4,some ⟨(.inside 4),[],.lcode,false,[(5,0),(6,0)],false⟩,none,true,false,false,none,false,⟨.lcomment,some .internalNl,false,.lblank⟩⟩] .leaf)) 13952800607 [⟨⟨(.inside 4),[],.lblank,true,[],false⟩,false,false,[],some 4,some ⟨(.inside 4),[],.lcode,false,[(5,0),(6,0)],false⟩,none,true,false,false,none,false,⟨.lblank,some .internalNl,false,.lblank⟩⟩] (.node (.node .leaf 13953204429 [⟨⟨(.inside 4),[],.lcode,true,[],false⟩,false,false,[],some 4,some ⟨(.inside 4),[],.lcode,false,[(6,0),(5,0)],false⟩,none,false,false,false,none,false,⟨.lcode,some (.own 3),false,.lblank⟩⟩] .leaf) 13953352417 [⟨⟨(.inside 4),[],.lcomment,true,[],false⟩,false,false,[],some 4,some ⟨(.inside 4),[],.lcode,false,[(6,0),(5,0)],false⟩,none,true,false,false,none,false,⟨.lcomment,some .internalNl,false,.lblank⟩⟩] (.node .leaf 13953500397 [⟨⟨(.inside 4),[],.lblank,true,[],false⟩,false,false,[],some 4,some ⟨(.inside 4),[],.lcode,false,[(6,0),(5,0)],false⟩,none,true,false,false,none,false,⟨.lblank,some .internalNl,false,.lblank⟩⟩] .leaf)))),.leaf,(.node (.node (.node (.node (.node (.node .leaf 616177858 [⟨⟨(.inside 3),[],.lcode,true,[],false⟩,false,false,[],some 4,some ⟨.code,[47],.lcode,false,[],false⟩,some ([(42,(.other,false))],false),false,false,false,none,false,⟨.lcode,some (.own 3),false,.lblank⟩⟩] .leaf) 616325846 [⟨⟨(.inside 3),[],.lcomment,true,[],false⟩,false,false,[],some 4,some ⟨.code,[47],.lcode,false,[],false⟩,some ([(42,(.other,false))],false),true,false,false,none,false,⟨.lcomment,some .internalNl,false,.lblank⟩⟩] .leaf) 616473826 [⟨⟨(.inside 3),[],.lblank,true,[],false⟩,false,false,[],some 4,some ⟨.code,[47],.lcode,false,[],false⟩,some ([(42,(.other,false))],false),true,false,false,none,false,⟨.lblank,some .internalNl,false,.lblank⟩⟩] (.node .leaf 617534706 [⟨⟨(.inside 3),[],.lcomment,true,[],false⟩,false,false,[],some 4,some ⟨.code,[47],.lcomment,false,[],false⟩,some ([(42,(.other,false))],false),false,false,false,none,false,⟨.lcomment,some (.own 3),false,.lblank⟩⟩] .leaf)) 617534714 [⟨⟨(.inside 3),[],.lcomment,true,[],false⟩,false,false,[],some 4,some ⟨.code,[47],.lcomment,false,[],false⟩,some ([(42,(.other,false))],false),true,false,false,none,false,⟨.lcomment,some .internalNl,false,.lblank⟩⟩] (.node (.node .leaf 617682694 [⟨⟨(.inside 3),[],.lblank,true,[],false⟩,false,false,[],some 4,some ⟨.code,[47],.lcomment,false,[],false⟩,some ([(42,(.other,false))],false),true,false,false,none,false,⟨.lblank,some .internalNl,false,.lblank⟩⟩] .leaf) 618743574 [⟨⟨(.inside 3),[],.lcomment,true,[],false⟩,false,false,[],some 4,some ⟨.code,[47],.lblank,false,[],false⟩,some ([(42,(.other,false))],false),false,false,false,none,false,⟨.lcomment,some (.own 3),false,.lblank⟩⟩] (.node .leaf 618743582 [⟨⟨(.inside 3),[],.lcomment,true,[],false⟩,false,false,[],some 4,some ⟨.code,[47],.lblank,false,[],false⟩,some ([(42,(.other,false))],false),true,false,false,none,false,⟨.lcomment,some .internalNl,false,.lblank⟩⟩] .leaf))) 618891562 [⟨⟨(.inside 3),[],.lblank,true,[],false⟩,false,false,[],some 4,some ⟨.code,[47],.lblank,false,[],false⟩,some ([(42,(.other,false))],false),true,false,false,none,false,⟨.lblank,some .internalNl,false,.lblank⟩⟩] (.node (.node (.node .leaf 630601222 [⟨⟨(.inside 3),[],.lcode,true,[],false⟩,false,false,[],some 4,some ⟨.code,[47],.lcode,false,[(5,0)],false⟩,some ([(42,(.other,false))],false),false,false,false,none,false,⟨.lcode,some (.own 3),false,.lblank⟩⟩] .leaf) 630601991 [⟨⟨(.inside 3),[],.lcode,true,[],false⟩,false,false,[],some 4,some ⟨.code,[47],.lcode,false,[(5,1)],false⟩,some ([(42,(.other,false))],false),false,false,false,none,false,⟨.lcode,some (.own 3),false,.lblank⟩⟩] (.node .leaf 630606605 [⟨⟨(.inside 3),[],.lcode,true,[],false⟩,false,false,[],some 4,some ⟨.code,[47],.lcode,false,[(6,0)],false⟩,some ([(42,(.other,false))],false),false,false,false,none,false,⟨.lcode,some (.own 3),false,.lblank⟩⟩] .leaf)) 630607374 [⟨⟨(.inside 3),[],.lcode,true,[],false⟩,false,false,[],some 4,some ⟨.code,[47],.lcode,false,[(6,1)],false⟩,some ([(42,(.other,false))],false),false,false,false,none,false,⟨.lcode,some (.own 3),false,.lblank⟩⟩] (.node (.node .leaf 630749210 [⟨⟨(.inside 3),[],.lcomment,true,[],false⟩,false,false,[],some 4,some ⟨.code,[47],.lcode,false,[(5,0)],false⟩,some ([(42,(.other,false))],false),true,false,false,none,false,⟨.lcomment,some .internalNl,false,.lblank⟩⟩] .leaf) 630749979 [⟨⟨(.inside 3),[],.lcomment,true,[],false⟩,false,false,[],some 4,some ⟨.code,[47],.lcode,false,[(5,1)],false⟩,some ([(42,(.other,false))],false),true,false,false,none,false,⟨.lcomment,some .internalNl,false,.lblank⟩⟩] (.node .leaf 630754593 [⟨⟨(.inside 3),[],.lcomment,true,[],false⟩,false,false,[],some 4,some ⟨.code,[47],.lcode,false,[(6,0)],false⟩,some ([(42,(.other,false))],false),true,false,false,none,false,⟨.lcomment,some .internalNl,false,.lblank⟩⟩] .leaf)))) 630755362 [⟨⟨(.inside 3),[],.lcomment,true,[],false⟩,false,false,[],some 4,some ⟨.code,[47],.lcode,false,[(6,1)],false⟩,some ([(42,(.other,false))],false),true,false,false,none,false,⟨.lcomment,some .internalNl,false,.lblank⟩⟩] (.node (.node (.node (.node (.node .leaf 630897190 [⟨⟨(.inside 3),[],.lblank,true,[],false⟩,false,false,[],some 4,some ⟨.code,[47],.lcode,false,[(5,0)],false⟩,some ([(42,(.other,false))],false),true,false,false,none,false,⟨.lblank,some .internalNl,false,.lblank⟩⟩] .leaf) 630897959 [⟨⟨(.inside 3),[],.lblank,true,[],false⟩,false,false,[],some 4,some ⟨.code,[47],.lcode,false,[(5,1)],false⟩,some ([(42,(.other,false))],false),true,false,false,none,false,⟨.lblank,some .internalNl,false,.lblank⟩⟩] .leaf) 630902573 [⟨⟨(.inside 3),[],.lblank,true,[],false⟩,false,false,[],some 4,some ⟨.code,[47],.lcode,false,[(6,0)],false⟩,some ([(42,(.other,false))],false),true,false,false,none,false,⟨.lblank,some .internalNl,false,.lblank⟩⟩] (.node .leaf 630903342 [⟨⟨(.inside 3),[],.lblank,true,[],false⟩,false,false,[],some 4,some ⟨.code,[47],.lcode,false,[(6,1)],false⟩,some ([(42,(.other,false))],false),true,false,false,none,false,⟨.lblank,some .internalNl,false,.lblank⟩⟩] .leaf)) 2520067289 [⟨⟨(.inside 3),[],.lcode,true,[],false⟩,false,false,[],some 4,some ⟨.code,[47],.lcode,false,[(5,0),(6,0)],false⟩,some ([(42,(.other,false))],false),false,false,false,none,false,⟨.lcode,some (.own 3),false,.lblank⟩⟩] (.node (.node .leaf 2520168797 [⟨⟨(.inside 3),[],.lcode,true,[],false⟩,false,false,[],some 4,some ⟨.code,[47],.lcode,false,[(5,1),(6,1)],false⟩,some ([(42,(.other,false))],false),false,false,false,none,false,⟨.lcode,some (.own 3),false,.lblank⟩⟩] .leaf) 2520215277 [⟨⟨(.inside 3),[],.lcomment,true,[],false⟩,false,false,[],some 4,some ⟨.code,[47],.lcode,false,[(5,0),(6,0)],false⟩,some ([(42,(.other,false))],false),true,false,false,none,false,⟨.lcomment,some .internalNl,false,.lblank⟩⟩] (.node .leaf 2520316785 [⟨⟨(.inside 3),[],.lcomment,true,[],false⟩,false,false,[],some 4,some ⟨.code,[47],.lcode,false,[(5,1),(6,1)],false⟩,some ([(42,(.other,false))],false),true,false,false,none,false,⟨.lcomment,some .internalNl,false,.lblank⟩⟩] .leaf))) 2520363257 [⟨⟨(.inside 3),[],.lblank,true,[],false⟩,false,false,[],some 4,some ⟨.code,[47],.lcode,false,[(5,0),(6,0)],false⟩,some ([(42,(.other,false))],false),true,false,false,none,false,⟨.lblank,some .internalNl,false,.lblank⟩⟩] (.node (.node (.node .leaf 2520464765 [⟨⟨(.inside 3),[],.lblank,true,[],false⟩,false,false,[],some 4,some ⟨.code,[47],.lcode,false,[(5,1),(6,1)],false⟩,some ([(42,(.other,false))],false),true,false,false,none,false,⟨.lblank,some .internalNl,false,.lblank⟩⟩] .leaf) 2520767079 [⟨⟨(.inside 3),[],.lcode,true,[],false⟩,false,false,[],some 4,some ⟨.code,[47],.lcode,false,[(6,0),(5,0)],false⟩,some ([(42,(.other,false))],false),false,false,false,none,false,⟨.lcode,some (.own 3),false,.lblank⟩⟩] (.node .leaf 2520868587 [⟨⟨(.inside 3),[],.lcode,true,[],false⟩,false,false,[],some 4,some ⟨.code,[47],.lcode,false,[(6,1),(5,1)],false⟩,some ([(42,(.other,false))],false),false,false,false,none,false,⟨.lcode,some (.own 3),false,.lblank⟩⟩] .leaf)) 2520915067 [⟨⟨(.inside 3),[],.lcomment,true,[],false⟩,false,false,[],some 4,some ⟨.code,[47],.lcode,false,[(6,0),(5,0)],false⟩,some ([(42,(.other,false))],false),true,false,false,none,false,⟨.lcomment,some .internalNl,false,.lblank⟩⟩] (.node (.node .leaf 2521016575 [⟨⟨(.inside 3),[],.lcomment,true,[],false⟩,false,false,[],some 4,some ⟨.code,[47],.lcode,false,[(6,1),(5,1)],false⟩,some ([(42,(.other,false))],false),true,false,false,none,false,⟨.lcomment,some .internalNl,false,.lblank⟩⟩] .leaf) 2521063047 [⟨⟨(.inside 3),[],.lblank,true,[],false⟩,false,false,[],some 4,some ⟨.code,[47],.lcode,false,[(6,0),(5,0)],false⟩,some ([(42,(.other,false))],false),true,false,false,none,false,⟨.lblank,some .internalNl,false,.lblank⟩⟩] (.node .leaf 2521164555 [⟨⟨(.inside 3),[],.lblank,true,[],false⟩,false,false,[],some 4,some ⟨.code,[47],.lcode,false,[(6,1),(5,1)],false⟩,some ([(42,(.other,false))],false),true,false,false,none,false,⟨.lblank,some .internalNl,false,.lblank⟩⟩] .leaf))))),.leaf]
theorem sql_line_lClosed : CA.closedF sql_line_M sql_line_lex true false sql_line_lfr sql_line_lTab = true := by decide +kernel
def sql_line_L : LCert LexisTable.sql_line sql_line_M := sql_line_lex_eq ▸ ⟨⟨sql_line_lmasks, sql_line_lex.rel, sql_line_lcs, sql_line_lrows, sql_line_lmasksIn, sql_line_lrepOk, sql_line_lrowsOk⟩,
  _, rfl, by decide +kernel, by decide +kernel, true, false, CA.closed_of sql_line_lfrOk sql_line_lClosed⟩
theorem sql_line_L_chk : sql_line_L.chk = true := by
  have : ∀ (l : Lexis) (h : LexisTable.sql_line = l) (C : LCert l sql_line_M), (h ▸ C : LCert LexisTable.sql_line sql_line_M).chk = C.chk := by rintro _ rfl _; rfl
  exact this _ sql_line_lex_eq _

end Ohcount.Cert
