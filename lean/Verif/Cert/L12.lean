import Verif.Cert.N5
import Verif.Cert.N8
import Verif.Cert.N9
import Verif.Cert.N11
import Verif.RagelLexFast
import Verif.LexisTable

/-! Generated by tools/gen_certs.py. -/

namespace Ohcount.Cert
open Ohcount.Ragel Ohcount.Gram

set_option maxRecDepth 100000
set_option maxHeartbeats 0

def am_line_lex : Lexis := [⟨[35],[],.lcomment,false,false,false,true,false,false,true,false,none,false,false,false,false,[]⟩,⟨[39],[[39]],.lcode,false,true,true,true,false,false,true,false,none,false,false,false,false,[]⟩,⟨[34],[[34]],.lcode,false,true,true,true,false,false,true,false,none,false,false,false,false,[]⟩]
theorem am_line_lex_eq : LexisTable.am_line = am_line_lex := by decide +kernel
def am_line_lmasks : List Nat := [4294967808,34359738368,549755813888,17179869184,8192,1024,4096,115792089237316195423570985008687907853269984665640564039457584007908834656767,115792089237316195423570985008687907853269984665640564039457584007913129626623,115792089237316195423570985008687907853269984665635612279300442486263777315839,4951760157141521099596496896,115792089237316195423570985008687907853269984665635612279300442486796353260543]
def am_line_lcs : List (Nat × Nat) := [(0,115792089237316195423570985008687907853269984665635612279300442486207942738431),(9,4294967808),(10,1024),(11,2048),(12,4096),(13,8192),(34,17179869184),(35,34359738368),(39,549755813888),(92,4951760157141521099596496896)]
theorem am_line_lmasksIn : masksIn am_line_nfa am_line_lmasks = true := by decide +kernel
theorem am_line_lrepOk : repOk am_line_lmasks am_line_lcs = true := by decide +kernel
def am_line_lrows : List Row := [⟨[],none,[],[⟨256,.other,false,some ⟨0,[.setEnt (.own 3)],some 4,true⟩⟩,⟨256,.ws,false,some ⟨1,[.setEnt (.own 0)],some 0,false⟩⟩,⟨256,.lf,false,some ⟨0,[.setEnt .newline],some 3,true⟩⟩,⟨256,.vt,false,none⟩,⟨256,.ff,false,some ⟨0,[.setEnt .newline],some 3,true⟩⟩,⟨256,.cr,false,some ⟨2,[.setEnt .newline],none,false⟩⟩,⟨256,.cr,true,some ⟨3,[.setEnt .newline],some 3,false⟩⟩,⟨34,.other,false,some ⟨4,[.code,.setEnt (.own 3)],some 4,false⟩⟩,⟨35,.other,false,some ⟨5,[.comment,.setEnt (.own 3)],some 1,false⟩⟩,⟨39,.other,false,some ⟨6,[.code,.setEnt (.own 3)],some 4,false⟩⟩,⟨92,.other,false,some ⟨0,[.setEnt (.own 3)],some 4,true⟩⟩]⟩,⟨[0],some 0,[],[⟨256,.other,false,none⟩,⟨256,.ws,false,some ⟨1,[.setEnt (.own 0)],some 0,false⟩⟩,⟨256,.lf,false,none⟩,⟨256,.vt,false,none⟩,⟨256,.ff,false,none⟩,⟨256,.cr,false,none⟩,⟨256,.cr,true,none⟩,⟨34,.other,false,none⟩,⟨35,.other,false,none⟩,⟨39,.other,false,none⟩,⟨92,.other,false,none⟩]⟩,⟨[13],none,[],[⟨256,.other,false,none⟩,⟨256,.ws,false,none⟩,⟨256,.lf,false,some ⟨0,[.setEnt .newline],some 3,true⟩⟩,⟨256,.vt,false,none⟩,⟨256,.ff,false,none⟩,⟨256,.cr,false,none⟩,⟨256,.cr,true,none⟩,⟨34,.other,false,none⟩,⟨35,.other,false,none⟩,⟨39,.other,false,none⟩,⟨92,.other,false,none⟩]⟩,⟨[13,17],some 3,[],[⟨256,.other,false,none⟩,⟨256,.ws,false,none⟩,⟨256,.lf,false,some ⟨0,[.setEnt .newline],some 3,true⟩⟩,⟨256,.vt,false,none⟩,⟨256,.ff,false,none⟩,⟨256,.cr,false,none⟩,⟨256,.cr,true,none⟩,⟨34,.other,false,none⟩,⟨35,.other,false,none⟩,⟨39,.other,false,none⟩,⟨92,.other,false,none⟩]⟩,⟨[8,18],some 4,[],[⟨256,.other,false,some ⟨7,[],none,false⟩⟩,⟨256,.ws,false,some ⟨7,[],none,false⟩⟩,⟨256,.lf,false,none⟩,⟨256,.vt,false,some ⟨7,[],none,false⟩⟩,⟨256,.ff,false,none⟩,⟨256,.cr,false,none⟩,⟨256,.cr,true,none⟩,⟨34,.other,false,some ⟨0,[],some 2,true⟩⟩,⟨35,.other,false,some ⟨7,[],none,false⟩⟩,⟨39,.other,false,some ⟨7,[],none,false⟩⟩,⟨92,.other,false,some ⟨8,[],none,false⟩⟩]⟩,⟨[1,18],some 1,[],[⟨256,.other,false,some ⟨9,[],some 1,false⟩⟩,⟨256,.ws,false,some ⟨9,[],some 1,false⟩⟩,⟨256,.lf,false,none⟩,⟨256,.vt,false,some ⟨9,[],some 1,false⟩⟩,⟨256,.ff,false,none⟩,⟨256,.cr,false,none⟩,⟨256,.cr,true,none⟩,⟨34,.other,false,some ⟨9,[],some 1,false⟩⟩,⟨35,.other,false,some ⟨9,[],some 1,false⟩⟩,⟨39,.other,false,some ⟨9,[],some 1,false⟩⟩,⟨92,.other,false,some ⟨9,[],some 1,false⟩⟩]⟩,⟨[3,18],some 4,[],[⟨256,.other,false,some ⟨10,[],none,false⟩⟩,⟨256,.ws,false,some ⟨10,[],none,false⟩⟩,⟨256,.lf,false,none⟩,⟨256,.vt,false,some ⟨10,[],none,false⟩⟩,⟨256,.ff,false,none⟩,⟨256,.cr,false,none⟩,⟨256,.cr,true,none⟩,⟨34,.other,false,some ⟨10,[],none,false⟩⟩,⟨35,.other,false,some ⟨10,[],none,false⟩⟩,⟨39,.other,false,some ⟨0,[],some 2,true⟩⟩,⟨92,.other,false,some ⟨11,[],none,false⟩⟩]⟩,⟨[9],none,[],[⟨256,.other,false,some ⟨7,[],none,false⟩⟩,⟨256,.ws,false,some ⟨7,[],none,false⟩⟩,⟨256,.lf,false,none⟩,⟨256,.vt,false,some ⟨7,[],none,false⟩⟩,⟨256,.ff,false,none⟩,⟨256,.cr,false,none⟩,⟨256,.cr,true,none⟩,⟨34,.other,false,some ⟨0,[],some 2,true⟩⟩,⟨35,.other,false,some ⟨7,[],none,false⟩⟩,⟨39,.other,false,some ⟨7,[],none,false⟩⟩,⟨92,.other,false,some ⟨8,[],none,false⟩⟩]⟩,⟨[10],none,[],[⟨256,.other,false,some ⟨12,[],none,false⟩⟩,⟨256,.ws,false,some ⟨12,[],none,false⟩⟩,⟨256,.lf,false,none⟩,⟨256,.vt,false,some ⟨12,[],none,false⟩⟩,⟨256,.ff,false,none⟩,⟨256,.cr,false,none⟩,⟨256,.cr,true,none⟩,⟨34,.other,false,some ⟨12,[],none,false⟩⟩,⟨35,.other,false,some ⟨12,[],none,false⟩⟩,⟨39,.other,false,some ⟨12,[],none,false⟩⟩,⟨92,.other,false,some ⟨12,[],none,false⟩⟩]⟩,⟨[2],some 1,[],[⟨256,.other,false,some ⟨9,[],some 1,false⟩⟩,⟨256,.ws,false,some ⟨9,[],some 1,false⟩⟩,⟨256,.lf,false,none⟩,⟨256,.vt,false,some ⟨9,[],some 1,false⟩⟩,⟨256,.ff,false,none⟩,⟨256,.cr,false,none⟩,⟨256,.cr,true,none⟩,⟨34,.other,false,some ⟨9,[],some 1,false⟩⟩,⟨35,.other,false,some ⟨9,[],some 1,false⟩⟩,⟨39,.other,false,some ⟨9,[],some 1,false⟩⟩,⟨92,.other,false,some ⟨9,[],some 1,false⟩⟩]⟩,⟨[4],none,[],[⟨256,.other,false,some ⟨10,[],none,false⟩⟩,⟨256,.ws,false,some ⟨10,[],none,false⟩⟩,⟨256,.lf,false,none⟩,⟨256,.vt,false,some ⟨10,[],none,false⟩⟩,⟨256,.ff,false,none⟩,⟨256,.cr,false,none⟩,⟨256,.cr,true,none⟩,⟨34,.other,false,some ⟨10,[],none,false⟩⟩,⟨35,.other,false,some ⟨10,[],none,false⟩⟩,⟨39,.other,false,some ⟨0,[],some 2,true⟩⟩,⟨92,.other,false,some ⟨11,[],none,false⟩⟩]⟩,⟨[5],none,[],[⟨256,.other,false,some ⟨13,[],none,false⟩⟩,⟨256,.ws,false,some ⟨13,[],none,false⟩⟩,⟨256,.lf,false,none⟩,⟨256,.vt,false,some ⟨13,[],none,false⟩⟩,⟨256,.ff,false,none⟩,⟨256,.cr,false,none⟩,⟨256,.cr,true,none⟩,⟨34,.other,false,some ⟨13,[],none,false⟩⟩,⟨35,.other,false,some ⟨13,[],none,false⟩⟩,⟨39,.other,false,some ⟨13,[],none,false⟩⟩,⟨92,.other,false,some ⟨13,[],none,false⟩⟩]⟩,⟨[11],none,[],[⟨256,.other,false,some ⟨7,[],none,false⟩⟩,⟨256,.ws,false,some ⟨7,[],none,false⟩⟩,⟨256,.lf,false,none⟩,⟨256,.vt,false,some ⟨7,[],none,false⟩⟩,⟨256,.ff,false,none⟩,⟨256,.cr,false,none⟩,⟨256,.cr,true,none⟩,⟨34,.other,false,some ⟨0,[],some 2,true⟩⟩,⟨35,.other,false,some ⟨7,[],none,false⟩⟩,⟨39,.other,false,some ⟨7,[],none,false⟩⟩,⟨92,.other,false,some ⟨8,[],none,false⟩⟩]⟩,⟨[6],none,[],[⟨256,.other,false,some ⟨10,[],none,false⟩⟩,⟨256,.ws,false,some ⟨10,[],none,false⟩⟩,⟨256,.lf,false,none⟩,⟨256,.vt,false,some ⟨10,[],none,false⟩⟩,⟨256,.ff,false,none⟩,⟨256,.cr,false,none⟩,⟨256,.cr,true,none⟩,⟨34,.other,false,some ⟨10,[],none,false⟩⟩,⟨35,.other,false,some ⟨10,[],none,false⟩⟩,⟨39,.other,false,some ⟨0,[],some 2,true⟩⟩,⟨92,.other,false,some ⟨11,[],none,false⟩⟩]⟩]
theorem am_line_lrowsOk : rowsOk am_line_nfa am_line_lex.rel (am_line_lcs.map (·.1)) am_line_lrows = true := by decide +kernel
def am_line_lfr : List CA.FRow := [⟨true,none,[],[⟨256,.other,false,false,none,some ([.setEnt (.own 3)],(some 4,true))⟩,⟨9,.ws,false,false,some 1,some ([.setEnt (.own 0)],(some 0,false))⟩,⟨10,.lf,false,true,none,some ([.setEnt .newline],(some 3,true))⟩,⟨11,.vt,false,false,none,none⟩,⟨12,.ff,false,true,none,some ([.setEnt .newline],(some 3,true))⟩,⟨13,.cr,false,false,some 2,some ([.setEnt .newline],(none,false))⟩,⟨13,.cr,true,true,some 3,some ([.setEnt .newline],(some 3,false))⟩,⟨34,.other,false,false,some 4,some ([.code,.setEnt (.own 3)],(some 4,false))⟩,⟨35,.other,false,false,some 5,some ([.comment,.setEnt (.own 3)],(some 1,false))⟩,⟨39,.other,false,false,some 6,some ([.code,.setEnt (.own 3)],(some 4,false))⟩,⟨92,.other,false,false,none,some ([.setEnt (.own 3)],(some 4,true))⟩]⟩,⟨false,some 0,[],[⟨256,.other,false,false,none,none⟩,⟨9,.ws,false,false,some 1,some ([.setEnt (.own 0)],(some 0,false))⟩,⟨10,.lf,false,true,none,none⟩,⟨11,.vt,false,false,none,none⟩,⟨12,.ff,false,true,none,none⟩,⟨13,.cr,false,false,none,none⟩,⟨13,.cr,true,true,none,none⟩,⟨34,.other,false,false,none,none⟩,⟨35,.other,false,false,none,none⟩,⟨39,.other,false,false,none,none⟩,⟨92,.other,false,false,none,none⟩]⟩,⟨false,none,[],[⟨256,.other,false,false,none,none⟩,⟨9,.ws,false,false,none,none⟩,⟨10,.lf,false,true,none,some ([.setEnt .newline],(some 3,true))⟩,⟨11,.vt,false,false,none,none⟩,⟨12,.ff,false,true,none,none⟩,⟨13,.cr,false,false,none,none⟩,⟨13,.cr,true,true,none,none⟩,⟨34,.other,false,false,none,none⟩,⟨35,.other,false,false,none,none⟩,⟨39,.other,false,false,none,none⟩,⟨92,.other,false,false,none,none⟩]⟩,⟨false,some 3,[],[⟨256,.other,false,false,none,none⟩,⟨9,.ws,false,false,none,none⟩,⟨10,.lf,false,true,none,some ([.setEnt .newline],(some 3,true))⟩,⟨11,.vt,false,false,none,none⟩,⟨12,.ff,false,true,none,none⟩,⟨13,.cr,false,false,none,none⟩,⟨13,.cr,true,true,none,none⟩,⟨34,.other,false,false,none,none⟩,⟨35,.other,false,false,none,none⟩,⟨39,.other,false,false,none,none⟩,⟨92,.other,false,false,none,none⟩]⟩,⟨false,some 4,[],[⟨256,.other,false,false,some 7,some ([],(none,false))⟩,⟨9,.ws,false,false,some 7,some ([],(none,false))⟩,⟨10,.lf,false,true,none,none⟩,⟨11,.vt,false,false,some 7,some ([],(none,false))⟩,⟨12,.ff,false,true,none,none⟩,⟨13,.cr,false,false,none,none⟩,⟨13,.cr,true,true,none,none⟩,⟨34,.other,false,false,none,some ([],(some 2,true))⟩,⟨35,.other,false,false,some 7,some ([],(none,false))⟩,⟨39,.other,false,false,some 7,some ([],(none,false))⟩,⟨92,.other,false,false,some 8,some ([],(none,false))⟩]⟩,⟨false,some 1,[],[⟨256,.other,false,false,some 9,some ([],(some 1,false))⟩,⟨9,.ws,false,false,some 9,some ([],(some 1,false))⟩,⟨10,.lf,false,true,none,none⟩,⟨11,.vt,false,false,some 9,some ([],(some 1,false))⟩,⟨12,.ff,false,true,none,none⟩,⟨13,.cr,false,false,none,none⟩,⟨13,.cr,true,true,none,none⟩,⟨34,.other,false,false,some 9,some ([],(some 1,false))⟩,⟨35,.other,false,false,some 9,some ([],(some 1,false))⟩,⟨39,.other,false,false,some 9,some ([],(some 1,false))⟩,⟨92,.other,false,false,some 9,some ([],(some 1,false))⟩]⟩,⟨false,some 4,[],[⟨256,.other,false,false,some 10,some ([],(none,false))⟩,⟨9,.ws,false,false,some 10,some ([],(none,false))⟩,⟨10,.lf,false,true,none,none⟩,⟨11,.vt,false,false,some 10,some ([],(none,false))⟩,⟨12,.ff,false,true,none,none⟩,⟨13,.cr,false,false,none,none⟩,⟨13,.cr,true,true,none,none⟩,⟨34,.other,false,false,some 10,some ([],(none,false))⟩,⟨35,.other,false,false,some 10,some ([],(none,false))⟩,⟨39,.other,false,false,none,some ([],(some 2,true))⟩,⟨92,.other,false,false,some 11,some ([],(none,false))⟩]⟩,⟨false,none,[],[⟨256,.other,false,false,some 7,some ([],(none,false))⟩,⟨9,.ws,false,false,some 7,some ([],(none,false))⟩,⟨10,.lf,false,true,none,none⟩,⟨11,.vt,false,false,some 7,some ([],(none,false))⟩,⟨12,.ff,false,true,none,none⟩,⟨13,.cr,false,false,none,none⟩,⟨13,.cr,true,true,none,none⟩,⟨34,.other,false,false,none,some ([],(some 2,true))⟩,⟨35,.other,false,false,some 7,some ([],(none,false))⟩,⟨39,.other,false,false,some 7,some ([],(none,false))⟩,⟨92,.other,false,false,some 8,some ([],(none,false))⟩]⟩,⟨false,none,[],[⟨256,.other,false,false,some 12,some ([],(none,false))⟩,⟨9,.ws,false,false,some 12,some ([],(none,false))⟩,⟨10,.lf,false,true,none,none⟩,⟨11,.vt,false,false,some 12,some ([],(none,false))⟩,⟨12,.ff,false,true,none,none⟩,⟨13,.cr,false,false,none,none⟩,⟨13,.cr,true,true,none,none⟩,⟨34,.other,false,false,some 12,some ([],(none,false))⟩,⟨35,.other,false,false,some 12,some ([],(none,false))⟩,⟨39,.other,false,false,some 12,some ([],(none,false))⟩,⟨92,.other,false,false,some 12,some ([],(none,false))⟩]⟩,⟨false,some 1,[],[⟨256,.other,false,false,some 9,some ([],(some 1,false))⟩,⟨9,.ws,false,false,some 9,some ([],(some 1,false))⟩,⟨10,.lf,false,true,none,none⟩,⟨11,.vt,false,false,some 9,some ([],(some 1,false))⟩,⟨12,.ff,false,true,none,none⟩,⟨13,.cr,false,false,none,none⟩,⟨13,.cr,true,true,none,none⟩,⟨34,.other,false,false,some 9,some ([],(some 1,false))⟩,⟨35,.other,false,false,some 9,some ([],(some 1,false))⟩,⟨39,.other,false,false,some 9,some ([],(some 1,false))⟩,⟨92,.other,false,false,some 9,some ([],(some 1,false))⟩]⟩,⟨false,none,[],[⟨256,.other,false,false,some 10,some ([],(none,false))⟩,⟨9,.ws,false,false,some 10,some ([],(none,false))⟩,⟨10,.lf,false,true,none,none⟩,⟨11,.vt,false,false,some 10,some ([],(none,false))⟩,⟨12,.ff,false,true,none,none⟩,⟨13,.cr,false,false,none,none⟩,⟨13,.cr,true,true,none,none⟩,⟨34,.other,false,false,some 10,some ([],(none,false))⟩,⟨35,.other,false,false,some 10,some ([],(none,false))⟩,⟨39,.other,false,false,none,some ([],(some 2,true))⟩,⟨92,.other,false,false,some 11,some ([],(none,false))⟩]⟩,⟨false,none,[],[⟨256,.other,false,false,some 13,some ([],(none,false))⟩,⟨9,.ws,false,false,some 13,some ([],(none,false))⟩,⟨10,.lf,false,true,none,none⟩,⟨11,.vt,false,false,some 13,some ([],(none,false))⟩,⟨12,.ff,false,true,none,none⟩,⟨13,.cr,false,false,none,none⟩,⟨13,.cr,true,true,none,none⟩,⟨34,.other,false,false,some 13,some ([],(none,false))⟩,⟨35,.other,false,false,some 13,some ([],(none,false))⟩,⟨39,.other,false,false,some 13,some ([],(none,false))⟩,⟨92,.other,false,false,some 13,some ([],(none,false))⟩]⟩,⟨false,none,[],[⟨256,.other,false,false,some 7,some ([],(none,false))⟩,⟨9,.ws,false,false,some 7,some ([],(none,false))⟩,⟨10,.lf,false,true,none,none⟩,⟨11,.vt,false,false,some 7,some ([],(none,false))⟩,⟨12,.ff,false,true,none,none⟩,⟨13,.cr,false,false,none,none⟩,⟨13,.cr,true,true,none,none⟩,⟨34,.other,false,false,none,some ([],(some 2,true))⟩,⟨35,.other,false,false,some 7,some ([],(none,false))⟩,⟨39,.other,false,false,some 7,some ([],(none,false))⟩,⟨92,.other,false,false,some 8,some ([],(none,false))⟩]⟩,⟨false,none,[],[⟨256,.other,false,false,some 10,some ([],(none,false))⟩,⟨9,.ws,false,false,some 10,some ([],(none,false))⟩,⟨10,.lf,false,true,none,none⟩,⟨11,.vt,false,false,some 10,some ([],(none,false))⟩,⟨12,.ff,false,true,none,none⟩,⟨13,.cr,false,false,none,none⟩,⟨13,.cr,true,true,none,none⟩,⟨34,.other,false,false,some 10,some ([],(none,false))⟩,⟨35,.other,false,false,some 10,some ([],(none,false))⟩,⟨39,.other,false,false,none,some ([],(some 2,true))⟩,⟨92,.other,false,false,some 11,some ([],(none,false))⟩]⟩]
theorem am_line_lfrOk : am_line_lrows.map (CA.prep am_line_lex) = am_line_lfr := by decide +kernel
def am_line_lTab : List CT := [(.node (.node (.node (.node (.node (.node .leaf 128 [⟨⟨.code,[],.lcode,false,[],false⟩,false,false,[],none,none,none,false,false,false,none,false,⟨.lcode,none,false,.lblank⟩⟩] .leaf) 38019 [⟨⟨.code,[],.lcode,true,[],false⟩,false,false,[],none,none,none,false,false,false,none,false,⟨.lblank,none,false,.lblank⟩⟩] (.node .leaf 98440 [⟨⟨.code,[],.lcode,false,[(1,0)],false⟩,false,false,[],none,none,none,false,false,false,none,false,⟨.lcode,none,false,.lblank⟩⟩] .leaf)) 110729 [⟨⟨.code,[],.lcode,false,[(1,1)],false⟩,false,false,[],none,none,none,false,false,false,none,false,⟨.lcode,none,false,.lblank⟩⟩] (.node (.node .leaf 184463 [⟨⟨.code,[],.lcode,false,[(2,0)],false⟩,false,false,[],none,none,none,false,false,false,none,false,⟨.lcode,none,false,.lblank⟩⟩] .leaf) 185487 [⟨⟨.code,[],.lcomment,true,[],false⟩,false,false,[],none,none,none,false,false,false,none,false,⟨.lblank,none,false,.lblank⟩⟩] (.node .leaf 196752 [⟨⟨.code,[],.lcode,false,[(2,1)],false⟩,false,false,[],none,none,none,false,false,false,none,false,⟨.lcode,none,false,.lblank⟩⟩] .leaf))) 296088 [⟨⟨.code,[],.lblank,false,[],false⟩,false,false,[],none,none,none,false,false,false,none,false,⟨.lblank,none,false,.lblank⟩⟩] (.node (.node (.node .leaf 332955 [⟨⟨.code,[],.lblank,true,[],false⟩,false,false,[],none,none,none,false,false,false,none,false,⟨.lblank,none,false,.lblank⟩⟩] .leaf) 1179872 [⟨⟨(.inside 0),[],.lcode,false,[],false⟩,false,false,[none],none,none,none,false,false,false,none,false,⟨.lcode,none,false,.lblank⟩⟩] (.node .leaf 1327852 [⟨⟨(.inside 0),[],.lcomment,false,[],false⟩,false,false,[none],none,none,none,false,false,false,none,false,⟨.lcomment,none,false,.lblank⟩⟩] .leaf)) 13063335 [⟨⟨.code,[],.lcode,false,[(1,0),(2,0)],false⟩,false,false,[],none,none,none,false,false,false,none,false,⟨.lcode,none,false,.lblank⟩⟩] (.node (.node .leaf 14685483 [⟨⟨.code,[],.lcode,false,[(1,1),(2,1)],false⟩,false,false,[],none,none,none,false,false,false,none,false,⟨.lcode,none,false,.lblank⟩⟩] .leaf) 22179935 [⟨⟨(.inside 0),[],.lcode,false,[],false⟩,false,false,[some (10,(.lf,false))],none,none,none,false,false,false,none,false,⟨.lcode,none,false,.lblank⟩⟩] (.node .leaf 22327915 [⟨⟨(.inside 0),[],.lcomment,false,[],false⟩,false,false,[some (10,(.lf,false))],none,none,none,false,false,false,none,false,⟨.lcomment,none,false,.lblank⟩⟩] .leaf)))) 24246325 [⟨⟨.code,[],.lcode,false,[(2,0),(1,0)],false⟩,false,false,[],none,none,none,false,false,false,none,false,⟨.lcode,none,false,.lblank⟩⟩] (.node (.node (.node (.node .leaf 25868473 [⟨⟨.code,[],.lcode,false,[(2,1),(1,1)],false⟩,false,false,[],none,none,none,false,false,false,none,false,⟨.lcode,none,false,.lblank⟩⟩] .leaf) 26179947 [⟨⟨(.inside 0),[],.lcode,false,[],false⟩,false,false,[some (12,(.ff,false))],none,none,none,false,false,false,none,false,⟨.lcode,none,false,.lblank⟩⟩] (.node .leaf 26327927 [⟨⟨(.inside 0),[],.lcomment,false,[],false⟩,false,false,[some (12,(.ff,false))],none,none,none,false,false,false,none,false,⟨.lcomment,none,false,.lblank⟩⟩] .leaf)) 28179953 [⟨⟨(.inside 0),[],.lcode,false,[],false⟩,false,false,[some (13,(.cr,false))],none,none,none,false,false,false,none,false,⟨.lcode,none,false,.lblank⟩⟩] (.node (.node .leaf 28327933 [⟨⟨(.inside 0),[],.lcomment,false,[],false⟩,false,false,[some (13,(.cr,false))],none,none,none,false,false,false,none,false,⟨.lcomment,none,false,.lblank⟩⟩] .leaf) 29179956 [⟨⟨(.inside 0),[],.lcode,false,[],false⟩,false,false,[some (13,(.cr,true))],none,none,none,false,false,false,none,false,⟨.lcode,none,false,.lblank⟩⟩] (.node .leaf 29327936 [⟨⟨(.inside 0),[],.lcomment,false,[],false⟩,false,false,[some (13,(.cr,true))],none,none,none,false,false,false,none,false,⟨.lcomment,none,false,.lblank⟩⟩] .leaf))) 154644904 [⟨⟨(.inside 0),[],.lcode,false,[(1,0)],false⟩,false,false,[none],none,none,none,false,false,false,none,false,⟨.lcode,none,false,.lblank⟩⟩] (.node (.node (.node .leaf 154657193 [⟨⟨(.inside 0),[],.lcode,false,[(1,1)],false⟩,false,false,[none],none,none,none,false,false,false,none,false,⟨.lcode,none,false,.lblank⟩⟩] .leaf) 154730927 [⟨⟨(.inside 0),[],.lcode,false,[(2,0)],false⟩,false,false,[none],none,none,none,false,false,false,none,false,⟨.lcode,none,false,.lblank⟩⟩] (.node .leaf 154743216 [⟨⟨(.inside 0),[],.lcode,false,[(2,1)],false⟩,false,false,[none],none,none,none,false,false,false,none,false,⟨.lcode,none,false,.lblank⟩⟩] .leaf)) 175644967 [⟨⟨(.inside 0),[],.lcode,false,[(1,0)],false⟩,false,false,[some (10,(.lf,false))],none,none,none,false,false,false,none,false,⟨.lcode,none,false,.lblank⟩⟩] (.node (.node .leaf 175657256 [⟨⟨(.inside 0),[],.lcode,false,[(1,1)],false⟩,false,false,[some (10,(.lf,false))],none,none,none,false,false,false,none,false,⟨.lcode,none,false,.lblank⟩⟩] .leaf) 175730990 [⟨⟨(.inside 0),[],.lcode,false,[(2,0)],false⟩,false,false,[some (10,(.lf,false))],none,none,none,false,false,false,none,false,⟨.lcode,none,false,.lblank⟩⟩] (.node .leaf 175743279 [⟨⟨(.inside 0),[],.lcode,false,[(2,1)],false⟩,false,false,[some (10,(.lf,false))],none,none,none,false,false,false,none,false,⟨.lcode,none,false,.lblank⟩⟩] .leaf))))) 179644979 [⟨⟨(.inside 0),[],.lcode,false,[(1,0)],false⟩,false,false,[some (12,(.ff,false))],none,none,none,false,false,false,none,false,⟨.lcode,none,false,.lblank⟩⟩] (.node (.node (.node (.node (.node .leaf 179657268 [⟨⟨(.inside 0),[],.lcode,false,[(1,1)],false⟩,false,false,[some (12,(.ff,false))],none,none,none,false,false,false,none,false,⟨.lcode,none,false,.lblank⟩⟩] .leaf) 179731002 [⟨⟨(.inside 0),[],.lcode,false,[(2,0)],false⟩,false,false,[some (12,(.ff,false))],none,none,none,false,false,false,none,false,⟨.lcode,none,false,.lblank⟩⟩] (.node .leaf 179743291 [⟨⟨(.inside 0),[],.lcode,false,[(2,1)],false⟩,false,false,[some (12,(.ff,false))],none,none,none,false,false,false,none,false,⟨.lcode,none,false,.lblank⟩⟩] .leaf)) 181644985 [⟨⟨(.inside 0),[],.lcode,false,[(1,0)],false⟩,false,false,[some (13,(.cr,false))],none,none,none,false,false,false,none,false,⟨.lcode,none,false,.lblank⟩⟩] (.node (.node .leaf 181657274 [⟨⟨(.inside 0),[],.lcode,false,[(1,1)],false⟩,false,false,[some (13,(.cr,false))],none,none,none,false,false,false,none,false,⟨.lcode,none,false,.lblank⟩⟩] .leaf) 181731008 [⟨⟨(.inside 0),[],.lcode,false,[(2,0)],false⟩,false,false,[some (13,(.cr,false))],none,none,none,false,false,false,none,false,⟨.lcode,none,false,.lblank⟩⟩] (.node .leaf 181743297 [⟨⟨(.inside 0),[],.lcode,false,[(2,1)],false⟩,false,false,[some (13,(.cr,false))],none,none,none,false,false,false,none,false,⟨.lcode,none,false,.lblank⟩⟩] .leaf))) 182644988 [⟨⟨(.inside 0),[],.lcode,false,[(1,0)],false⟩,false,false,[some (13,(.cr,true))],none,none,none,false,false,false,none,false,⟨.lcode,none,false,.lblank⟩⟩] (.node (.node (.node .leaf 182657277 [⟨⟨(.inside 0),[],.lcode,false,[(1,1)],false⟩,false,false,[some (13,(.cr,true))],none,none,none,false,false,false,none,false,⟨.lcode,none,false,.lblank⟩⟩] .leaf) 182731011 [⟨⟨(.inside 0),[],.lcode,false,[(2,0)],false⟩,false,false,[some (13,(.cr,true))],none,none,none,false,false,false,none,false,⟨.lcode,none,false,.lblank⟩⟩] (.node .leaf 182743300 [⟨⟨(.inside 0),[],.lcode,false,[(2,1)],false⟩,false,false,[some (13,(.cr,true))],none,none,none,false,false,false,none,false,⟨.lcode,none,false,.lblank⟩⟩] .leaf)) 20258650119 [⟨⟨(.inside 0),[],.lcode,false,[(1,0),(2,0)],false⟩,false,false,[none],none,none,none,false,false,false,none,false,⟨.lcode,none,false,.lblank⟩⟩] (.node (.node .leaf 20260272267 [⟨⟨(.inside 0),[],.lcode,false,[(1,1),(2,1)],false⟩,false,false,[none],none,none,none,false,false,false,none,false,⟨.lcode,none,false,.lblank⟩⟩] .leaf) 20269833109 [⟨⟨(.inside 0),[],.lcode,false,[(2,0),(1,0)],false⟩,false,false,[none],none,none,none,false,false,false,none,false,⟨.lcode,none,false,.lblank⟩⟩] (.node .leaf 20271455257 [⟨⟨(.inside 0),[],.lcode,false,[(2,1),(1,1)],false⟩,false,false,[none],none,none,none,false,false,false,none,false,⟨.lcode,none,false,.lblank⟩⟩] .leaf)))) 20279650182 [⟨⟨(.inside 0),[],.lcode,false,[(1,0),(2,0)],false⟩,false,false,[some (10,(.lf,false))],none,none,none,false,false,false,none,false,⟨.lcode,none,false,.lblank⟩⟩] (.node (.node (.node (.node .leaf 20281272330 [⟨⟨(.inside 0),[],.lcode,false,[(1,1),(2,1)],false⟩,false,false,[some (10,(.lf,false))],none,none,none,false,false,false,none,false,⟨.lcode,none,false,.lblank⟩⟩] .leaf) 20283650194 [⟨⟨(.inside 0),[],.lcode,false,[(1,0),(2,0)],false⟩,false,false,[some (12,(.ff,false))],none,none,none,false,false,false,none,false,⟨.lcode,none,false,.lblank⟩⟩] (.node .leaf 20285272342 [⟨⟨(.inside 0),[],.lcode,false,[(1,1),(2,1)],false⟩,false,false,[some (12,(.ff,false))],none,none,none,false,false,false,none,false,⟨.lcode,none,false,.lblank⟩⟩] .leaf)) 20285650200 [⟨⟨(.inside 0),[],.lcode,false,[(1,0),(2,0)],false⟩,false,false,[some (13,(.cr,false))],none,none,none,false,false,false,none,false,⟨.lcode,none,false,.lblank⟩⟩] (.node (.node .leaf 20286650203 [⟨⟨(.inside 0),[],.lcode,false,[(1,0),(2,0)],false⟩,false,false,[some (13,(.cr,true))],none,none,none,false,false,false,none,false,⟨.lcode,none,false,.lblank⟩⟩] .leaf) 20287272348 [⟨⟨(.inside 0),[],.lcode,false,[(1,1),(2,1)],false⟩,false,false,[some (13,(.cr,false))],none,none,none,false,false,false,none,false,⟨.lcode,none,false,.lblank⟩⟩] (.node .leaf 20288272351 [⟨⟨(.inside 0),[],.lcode,false,[(1,1),(2,1)],false⟩,false,false,[some (13,(.cr,true))],none,none,none,false,false,false,none,false,⟨.lcode,none,false,.lblank⟩⟩] .leaf))) 20290833172 [⟨⟨(.inside 0),[],.lcode,false,[(2,0),(1,0)],false⟩,false,false,[some (10,(.lf,false))],none,none,none,false,false,false,none,false,⟨.lcode,none,false,.lblank⟩⟩] (.node (.node (.node .leaf 20292455320 [⟨⟨(.inside 0),[],.lcode,false,[(2,1),(1,1)],false⟩,false,false,[some (10,(.lf,false))],none,none,none,false,false,false,none,false,⟨.lcode,none,false,.lblank⟩⟩] .leaf) 20294833184 [⟨⟨(.inside 0),[],.lcode,false,[(2,0),(1,0)],false⟩,false,false,[some (12,(.ff,false))],none,none,none,false,false,false,none,false,⟨.lcode,none,false,.lblank⟩⟩] (.node .leaf 20296455332 [⟨⟨(.inside 0),[],.lcode,false,[(2,1),(1,1)],false⟩,false,false,[some (12,(.ff,false))],none,none,none,false,false,false,none,false,⟨.lcode,none,false,.lblank⟩⟩] .leaf)) 20296833190 [⟨⟨(.inside 0),[],.lcode,false,[(2,0),(1,0)],false⟩,false,false,[some (13,(.cr,false))],none,none,none,false,false,false,none,false,⟨.lcode,none,false,.lblank⟩⟩] (.node (.node .leaf 20297833193 [⟨⟨(.inside 0),[],.lcode,false,[(2,0),(1,0)],false⟩,false,false,[some (13,(.cr,true))],none,none,none,false,false,false,none,false,⟨.lcode,none,false,.lblank⟩⟩] .leaf) 20298455338 [⟨⟨(.inside 0),[],.lcode,false,[(2,1),(1,1)],false⟩,false,false,[some (13,(.cr,false))],none,none,none,false,false,false,none,false,⟨.lcode,none,false,.lblank⟩⟩] (.node .leaf 20299455341 [⟨⟨(.inside 0),[],.lcode,false,[(2,1),(1,1)],false⟩,false,false,[some (13,(.cr,true))],none,none,none,false,false,false,none,false,⟨.lcode,none,false,.lblank⟩⟩] .leaf)))))),(.node (.node (.node .leaf 128 [⟨⟨.code,[],.lcode,false,[],false⟩,false,false,[],none,none,none,false,false,false,none,false,⟨.lcode,some (.own 0),false,.lblank⟩⟩] .leaf) 98440 [⟨⟨.code,[],.lcode,false,[(1,0)],false⟩,false,false,[],none,none,none,false,false,false,none,false,⟨.lcode,some (.own 0),false,.lblank⟩⟩] (.node .leaf 184463 [⟨⟨.code,[],.lcode,false,[(2,0)],false⟩,false,false,[],none,none,none,false,false,false,none,false,⟨.lcode,some (.own 0),false,.lblank⟩⟩] .leaf)) 296088 [⟨⟨.code,[],.lblank,false,[],false⟩,false,false,[],none,none,none,false,false,false,none,false,⟨.lblank,some (.own 0),false,.lblank⟩⟩] (.node (.node .leaf 13063335 [⟨⟨.code,[],.lcode,false,[(1,0),(2,0)],false⟩,false,false,[],none,none,none,false,false,false,none,false,⟨.lcode,some (.own 0),false,.lblank⟩⟩] .leaf) 24246325 [⟨⟨.code,[],.lcode,false,[(2,0),(1,0)],false⟩,false,false,[],none,none,none,false,false,false,none,false,⟨.lcode,some (.own 0),false,.lblank⟩⟩] .leaf)),(.node (.node .leaf 160 [⟨⟨.code,[],.lcode,false,[],false⟩,true,false,[],none,none,none,false,false,false,none,false,⟨.lcode,some .newline,false,.lblank⟩⟩] .leaf) 148140 [⟨⟨.code,[],.lcomment,false,[],false⟩,true,false,[],none,none,none,false,false,false,none,false,⟨.lcomment,some .newline,false,.lblank⟩⟩] (.node .leaf 296120 [⟨⟨.code,[],.lblank,false,[],false⟩,true,false,[],none,none,none,false,false,false,none,false,⟨.lblank,some .newline,false,.lblank⟩⟩] .leaf)),(.node (.node .leaf 37011 [⟨⟨.code,[],.lcode,true,[],false⟩,false,true,[],none,none,none,false,false,false,none,false,⟨.lcode,some .newline,false,.lblank⟩⟩] .leaf) 184991 [⟨⟨.code,[],.lcomment,true,[],false⟩,false,true,[],none,none,none,false,false,false,none,false,⟨.lcomment,some .newline,false,.lblank⟩⟩] (.node .leaf 332971 [⟨⟨.code,[],.lblank,true,[],false⟩,false,true,[],none,none,none,false,false,false,none,false,⟨.lblank,some .newline,false,.lblank⟩⟩] .leaf)),(.node (.node (.node (.node .leaf 184463 [⟨⟨.code,[],.lcode,false,[(2,0)],false⟩,false,false,[],none,none,none,false,false,false,none,false,⟨.lcode,some (.own 3),false,.lblank⟩⟩] .leaf) 184467 [⟨⟨.code,[],.lcode,false,[(2,0)],false⟩,false,false,[],none,none,none,false,true,false,none,false,⟨.lcode,some (.own 3),false,.lblank⟩⟩] .leaf) 7078592 [⟨⟨(.inside 2),[],.lcode,false,[],false⟩,false,false,[],none,none,none,false,false,false,none,false,⟨.lcode,some (.own 3),false,.lblank⟩⟩] (.node (.node .leaf 13063335 [⟨⟨.code,[],.lcode,false,[(1,0),(2,0)],false⟩,false,false,[],none,none,none,false,false,false,none,false,⟨.lcode,some (.own 3),false,.lblank⟩⟩] .leaf) 24246325 [⟨⟨.code,[],.lcode,false,[(2,0),(1,0)],false⟩,false,false,[],none,none,none,false,false,false,none,false,⟨.lcode,some (.own 3),false,.lblank⟩⟩] .leaf)) 24246329 [⟨⟨.code,[],.lcode,false,[(2,0),(1,0)],false⟩,false,false,[],none,none,none,false,true,false,none,false,⟨.lcode,some (.own 3),false,.lblank⟩⟩] (.node (.node (.node .leaf 927377224 [⟨⟨(.inside 2),[],.lcode,false,[(1,0)],false⟩,false,false,[],none,none,none,false,false,false,none,false,⟨.lcode,some (.own 3),false,.lblank⟩⟩] .leaf) 927463247 [⟨⟨(.inside 2),[],.lcode,false,[(2,0)],false⟩,false,false,[],none,none,none,false,false,false,none,false,⟨.lcode,some (.own 3),false,.lblank⟩⟩] .leaf) 121486584039 [⟨⟨(.inside 2),[],.lcode,false,[(1,0),(2,0)],false⟩,false,false,[],none,none,none,false,false,false,none,false,⟨.lcode,some (.own 3),false,.lblank⟩⟩] (.node .leaf 121497767029 [⟨⟨(.inside 2),[],.lcode,false,[(2,0),(1,0)],false⟩,false,false,[],none,none,none,false,false,false,none,false,⟨.lcode,some (.own 3),false,.lblank⟩⟩] .leaf))),(.node (.node (.node .leaf 1179872 [⟨⟨(.inside 0),[],.lcode,false,[],false⟩,false,false,[],none,none,none,false,false,false,none,false,⟨.lcode,some (.own 3),false,.lblank⟩⟩] .leaf) 1327852 [⟨⟨(.inside 0),[],.lcomment,false,[],false⟩,false,false,[],none,none,none,false,false,false,none,false,⟨.lcomment,some (.own 3),false,.lblank⟩⟩] (.node .leaf 154644904 [⟨⟨(.inside 0),[],.lcode,false,[(1,0)],false⟩,false,false,[],none,none,none,false,false,false,none,false,⟨.lcode,some (.own 3),false,.lblank⟩⟩] .leaf)) 154730927 [⟨⟨(.inside 0),[],.lcode,false,[(2,0)],false⟩,false,false,[],none,none,none,false,false,false,none,false,⟨.lcode,some (.own 3),false,.lblank⟩⟩] (.node (.node .leaf 20258650119 [⟨⟨(.inside 0),[],.lcode,false,[(1,0),(2,0)],false⟩,false,false,[],none,none,none,false,false,false,none,false,⟨.lcode,some (.own 3),false,.lblank⟩⟩] .leaf) 20269833109 [⟨⟨(.inside 0),[],.lcode,false,[(2,0),(1,0)],false⟩,false,false,[],none,none,none,false,false,false,none,false,⟨.lcode,some (.own 3),false,.lblank⟩⟩] .leaf)),(.node (.node (.node (.node .leaf 98440 [⟨⟨.code,[],.lcode,false,[(1,0)],false⟩,false,false,[],none,none,none,false,false,false,none,false,⟨.lcode,some (.own 3),false,.lblank⟩⟩] .leaf) 98444 [⟨⟨.code,[],.lcode,false,[(1,0)],false⟩,false,false,[],none,none,none,false,true,false,none,false,⟨.lcode,some (.own 3),false,.lblank⟩⟩] .leaf) 4129232 [⟨⟨(.inside 1),[],.lcode,false,[],false⟩,false,false,[],none,none,none,false,false,false,none,false,⟨.lcode,some (.own 3),false,.lblank⟩⟩] (.node (.node .leaf 13063335 [⟨⟨.code,[],.lcode,false,[(1,0),(2,0)],false⟩,false,false,[],none,none,none,false,false,false,none,false,⟨.lcode,some (.own 3),false,.lblank⟩⟩] .leaf) 13063339 [⟨⟨.code,[],.lcode,false,[(1,0),(2,0)],false⟩,false,false,[],none,none,none,false,true,false,none,false,⟨.lcode,some (.own 3),false,.lblank⟩⟩] .leaf)) 24246325 [⟨⟨.code,[],.lcode,false,[(2,0),(1,0)],false⟩,false,false,[],none,none,none,false,false,false,none,false,⟨.lcode,some (.own 3),false,.lblank⟩⟩] (.node (.node (.node .leaf 541011064 [⟨⟨(.inside 1),[],.lcode,false,[(1,0)],false⟩,false,false,[],none,none,none,false,false,false,none,false,⟨.lcode,some (.own 3),false,.lblank⟩⟩] .leaf) 541097087 [⟨⟨(.inside 1),[],.lcode,false,[(2,0)],false⟩,false,false,[],none,none,none,false,false,false,none,false,⟨.lcode,some (.own 3),false,.lblank⟩⟩] .leaf) 70872617079 [⟨⟨(.inside 1),[],.lcode,false,[(1,0),(2,0)],false⟩,false,false,[],none,none,none,false,false,false,none,false,⟨.lcode,some (.own 3),false,.lblank⟩⟩] (.node .leaf 70883800069 [⟨⟨(.inside 1),[],.lcode,false,[(2,0),(1,0)],false⟩,false,false,[],none,none,none,false,false,false,none,false,⟨.lcode,some (.own 3),false,.lblank⟩⟩] .leaf))),(.node (.node (.node (.node (.node .leaf 196483 [⟨⟨.code,[],.lcode,false,[(2,0)],false⟩,false,false,[],some 4,some ⟨.code,[],.lcode,false,[(2,0)],false⟩,none,false,false,false,none,false,⟨.lcode,some (.own 3),false,.lblank⟩⟩] .leaf) 7522021 [⟨⟨(.inside 2),[],.lcode,false,[],false⟩,false,false,[],some 4,some ⟨(.inside 2),[],.lcode,false,[],false⟩,none,false,false,false,none,false,⟨.lcode,some (.own 3),false,.lblank⟩⟩] (.node .leaf 13075355 [⟨⟨.code,[],.lcode,false,[(1,0),(2,0)],false⟩,false,false,[],some 4,some ⟨.code,[],.lcode,false,[(2,0)],false⟩,none,false,false,false,none,false,⟨.lcode,some (.own 3),false,.lblank⟩⟩] .leaf)) 13881267 [⟨⟨.code,[],.lcode,false,[(1,0),(2,0)],false⟩,false,false,[],some 4,some ⟨.code,[],.lcode,false,[(1,0),(2,0)],false⟩,none,false,false,false,none,false,⟨.lcode,some (.own 3),false,.lblank⟩⟩] (.node (.node .leaf 25764047 [⟨⟨.code,[],.lcode,false,[(2,0),(1,0)],false⟩,false,false,[],some 4,some ⟨.code,[],.lcode,false,[(2,0),(1,0)],false⟩,none,false,false,false,none,false,⟨.lcode,some (.own 3),false,.lblank⟩⟩] .leaf) 48492257 [⟨⟨.code,[],.lblank,false,[(2,0)],true⟩,false,false,[],some 4,some ⟨.code,[],.lcode,false,[(2,0)],false⟩,none,false,true,false,none,false,⟨.lcode,some (.own 3),false,.lblank⟩⟩] .leaf)) 154742947 [⟨⟨(.inside 0),[],.lcode,false,[(2,0)],false⟩,false,false,[],some 4,some ⟨.code,[],.lcode,false,[(2,0)],false⟩,none,false,false,false,none,false,⟨.lcode,some (.own 3),false,.lblank⟩⟩] (.node (.node (.node .leaf 541109107 [⟨⟨(.inside 1),[],.lcode,false,[(2,0)],false⟩,false,false,[],some 4,some ⟨.code,[],.lcode,false,[(2,0)],false⟩,none,false,false,false,none,false,⟨.lcode,some (.own 3),false,.lblank⟩⟩] .leaf) 927475267 [⟨⟨(.inside 2),[],.lcode,false,[(2,0)],false⟩,false,false,[],some 4,some ⟨.code,[],.lcode,false,[(2,0)],false⟩,none,false,false,false,none,false,⟨.lcode,some (.own 3),false,.lblank⟩⟩] .leaf) 985409525 [⟨⟨(.inside 2),[],.lcode,false,[(1,0)],false⟩,false,false,[],some 4,some ⟨(.inside 2),[],.lcode,false,[(1,0)],false⟩,none,false,false,false,none,false,⟨.lcode,some (.own 3),false,.lblank⟩⟩] (.node (.node .leaf 985500931 [⟨⟨(.inside 2),[],.lcode,false,[(2,0)],false⟩,false,false,[],some 4,some ⟨(.inside 2),[],.lcode,false,[(2,0)],false⟩,none,false,false,false,none,false,⟨.lcode,some (.own 3),false,.lblank⟩⟩] .leaf) 6339821229 [⟨⟨.code,[],.lblank,false,[(1,0),(2,0)],true⟩,false,false,[],some 4,some ⟨.code,[],.lcode,false,[(2,0)],false⟩,none,false,true,false,none,false,⟨.lcode,some (.own 3),false,.lblank⟩⟩] .leaf))) 6352509921 [⟨⟨.code,[],.lblank,false,[(2,0),(1,0)],true⟩,false,false,[],some 4,some ⟨.code,[],.lcode,false,[(2,0),(1,0)],false⟩,none,false,true,false,none,false,⟨.lcode,some (.own 3),false,.lblank⟩⟩] (.node (.node (.node (.node .leaf 20258662139 [⟨⟨(.inside 0),[],.lcode,false,[(1,0),(2,0)],false⟩,false,false,[],some 4,some ⟨.code,[],.lcode,false,[(2,0)],false⟩,none,false,false,false,none,false,⟨.lcode,some (.own 3),false,.lblank⟩⟩] .leaf) 20259468051 [⟨⟨(.inside 0),[],.lcode,false,[(1,0),(2,0)],false⟩,false,false,[],some 4,some ⟨.code,[],.lcode,false,[(1,0),(2,0)],false⟩,none,false,false,false,none,false,⟨.lcode,some (.own 3),false,.lblank⟩⟩] .leaf) 20271350831 [⟨⟨(.inside 0),[],.lcode,false,[(2,0),(1,0)],false⟩,false,false,[],some 4,some ⟨.code,[],.lcode,false,[(2,0),(1,0)],false⟩,none,false,false,false,none,false,⟨.lcode,some (.own 3),false,.lblank⟩⟩] (.node (.node .leaf 70872629099 [⟨⟨(.inside 1),[],.lcode,false,[(1,0),(2,0)],false⟩,false,false,[],some 4,some ⟨.code,[],.lcode,false,[(2,0)],false⟩,none,false,false,false,none,false,⟨.lcode,some (.own 3),false,.lblank⟩⟩] .leaf) 70873435011 [⟨⟨(.inside 1),[],.lcode,false,[(1,0),(2,0)],false⟩,false,false,[],some 4,some ⟨.code,[],.lcode,false,[(1,0),(2,0)],false⟩,none,false,false,false,none,false,⟨.lcode,some (.own 3),false,.lblank⟩⟩] .leaf)) 70885317791 [⟨⟨(.inside 1),[],.lcode,false,[(2,0),(1,0)],false⟩,false,false,[],some 4,some ⟨.code,[],.lcode,false,[(2,0),(1,0)],false⟩,none,false,false,false,none,false,⟨.lcode,some (.own 3),false,.lblank⟩⟩] (.node (.node (.node .leaf 121486596059 [⟨⟨(.inside 2),[],.lcode,false,[(1,0),(2,0)],false⟩,false,false,[],some 4,some ⟨.code,[],.lcode,false,[(2,0)],false⟩,none,false,false,false,none,false,⟨.lcode,some (.own 3),false,.lblank⟩⟩] .leaf) 121487401971 [⟨⟨(.inside 2),[],.lcode,false,[(1,0),(2,0)],false⟩,false,false,[],some 4,some ⟨.code,[],.lcode,false,[(1,0),(2,0)],false⟩,none,false,false,false,none,false,⟨.lcode,some (.own 3),false,.lblank⟩⟩] .leaf) 121499284751 [⟨⟨(.inside 2),[],.lcode,false,[(2,0),(1,0)],false⟩,false,false,[],some 4,some ⟨.code,[],.lcode,false,[(2,0),(1,0)],false⟩,none,false,false,false,none,false,⟨.lcode,some (.own 3),false,.lblank⟩⟩] (.node (.node .leaf 129088763955 [⟨⟨(.inside 2),[],.lcode,false,[(1,0),(2,0)],false⟩,false,false,[],some 4,some ⟨(.inside 2),[],.lcode,false,[(1,0),(2,0)],false⟩,none,false,false,false,none,false,⟨.lcode,some (.own 3),false,.lblank⟩⟩] .leaf) 129100646735 [⟨⟨(.inside 2),[],.lcode,false,[(2,0),(1,0)],false⟩,false,false,[],some 4,some ⟨(.inside 2),[],.lcode,false,[(2,0),(1,0)],false⟩,none,false,false,false,none,false,⟨.lcode,some (.own 3),false,.lblank⟩⟩] .leaf)))),(.node (.node (.node (.node (.node .leaf 208772 [⟨⟨.code,[],.lcode,false,[(2,1)],false⟩,false,false,[],some 4,some ⟨.code,[],.lcode,false,[(2,0)],false⟩,none,false,false,false,none,false,⟨.lcode,some (.own 3),false,.lblank⟩⟩] .leaf) 14697503 [⟨⟨.code,[],.lcode,false,[(1,1),(2,1)],false⟩,false,false,[],some 4,some ⟨.code,[],.lcode,false,[(2,0)],false⟩,none,false,false,false,none,false,⟨.lcode,some (.own 3),false,.lblank⟩⟩] (.node .leaf 15503415 [⟨⟨.code,[],.lcode,false,[(1,1),(2,1)],false⟩,false,false,[],some 4,some ⟨.code,[],.lcode,false,[(1,0),(2,0)],false⟩,none,false,false,false,none,false,⟨.lcode,some (.own 3),false,.lblank⟩⟩] .leaf)) 27386195 [⟨⟨.code,[],.lcode,false,[(2,1),(1,1)],false⟩,false,false,[],some 4,some ⟨.code,[],.lcode,false,[(2,0),(1,0)],false⟩,none,false,false,false,none,false,⟨.lcode,some (.own 3),false,.lblank⟩⟩] (.node (.node .leaf 48504546 [⟨⟨.code,[],.lblank,false,[(2,1)],true⟩,false,false,[],some 4,some ⟨.code,[],.lcode,false,[(2,0)],false⟩,none,false,true,false,none,false,⟨.lcode,some (.own 3),false,.lblank⟩⟩] .leaf) 154755236 [⟨⟨(.inside 0),[],.lcode,false,[(2,1)],false⟩,false,false,[],some 4,some ⟨.code,[],.lcode,false,[(2,0)],false⟩,none,false,false,false,none,false,⟨.lcode,some (.own 3),false,.lblank⟩⟩] .leaf)) 931150972 [⟨⟨(.inside 2),[92],.lcode,false,[],false⟩,false,false,[],some 4,some ⟨(.inside 2),[],.lcode,false,[],false⟩,none,false,false,false,none,false,⟨.lcode,some (.own 3),false,.lblank⟩⟩] (.node (.node (.node .leaf 6341443377 [⟨⟨.code,[],.lblank,false,[(1,1),(2,1)],true⟩,false,false,[],some 4,some ⟨.code,[],.lcode,false,[(2,0)],false⟩,none,false,true,false,none,false,⟨.lcode,some (.own 3),false,.lblank⟩⟩] .leaf) 6354132069 [⟨⟨.code,[],.lblank,false,[(2,1),(1,1)],true⟩,false,false,[],some 4,some ⟨.code,[],.lcode,false,[(2,0),(1,0)],false⟩,none,false,true,false,none,false,⟨.lcode,some (.own 3),false,.lblank⟩⟩] .leaf) 20260284287 [⟨⟨(.inside 0),[],.lcode,false,[(1,1),(2,1)],false⟩,false,false,[],some 4,some ⟨.code,[],.lcode,false,[(2,0)],false⟩,none,false,false,false,none,false,⟨.lcode,some (.own 3),false,.lblank⟩⟩] (.node (.node .leaf 20261090199 [⟨⟨(.inside 0),[],.lcode,false,[(1,1),(2,1)],false⟩,false,false,[],some 4,some ⟨.code,[],.lcode,false,[(1,0),(2,0)],false⟩,none,false,false,false,none,false,⟨.lcode,some (.own 3),false,.lblank⟩⟩] .leaf) 20272972979 [⟨⟨(.inside 0),[],.lcode,false,[(2,1),(1,1)],false⟩,false,false,[],some 4,some ⟨.code,[],.lcode,false,[(2,0),(1,0)],false⟩,none,false,false,false,none,false,⟨.lcode,some (.own 3),false,.lblank⟩⟩] .leaf))) 71308900888 [⟨⟨(.inside 1),[92],.lcode,false,[(2,0)],false⟩,false,false,[],some 4,some ⟨.code,[],.lcode,false,[(2,0)],false⟩,none,false,false,false,none,false,⟨.lcode,some (.own 3),false,.lblank⟩⟩] (.node (.node (.node (.node .leaf 121922867848 [⟨⟨(.inside 2),[92],.lcode,false,[(2,0)],false⟩,false,false,[],some 4,some ⟨.code,[],.lcode,false,[(2,0)],false⟩,none,false,false,false,none,false,⟨.lcode,some (.own 3),false,.lblank⟩⟩] .leaf) 121980802106 [⟨⟨(.inside 2),[92],.lcode,false,[(1,0)],false⟩,false,false,[],some 4,some ⟨(.inside 2),[],.lcode,false,[(1,0)],false⟩,none,false,false,false,none,false,⟨.lcode,some (.own 3),false,.lblank⟩⟩] .leaf) 121980893512 [⟨⟨(.inside 2),[92],.lcode,false,[(2,0)],false⟩,false,false,[],some 4,some ⟨(.inside 2),[],.lcode,false,[(2,0)],false⟩,none,false,false,false,none,false,⟨.lcode,some (.own 3),false,.lblank⟩⟩] (.node (.node .leaf 9341453352410 [⟨⟨(.inside 1),[92],.lcode,false,[(1,0),(2,0)],false⟩,false,false,[],some 4,some ⟨.code,[],.lcode,false,[(2,0)],false⟩,none,false,false,false,none,false,⟨.lcode,some (.own 3),false,.lblank⟩⟩] .leaf) 9341454158322 [⟨⟨(.inside 1),[92],.lcode,false,[(1,0),(2,0)],false⟩,false,false,[],some 4,some ⟨.code,[],.lcode,false,[(1,0),(2,0)],false⟩,none,false,false,false,none,false,⟨.lcode,some (.own 3),false,.lblank⟩⟩] .leaf)) 9341466041102 [⟨⟨(.inside 1),[92],.lcode,false,[(2,0),(1,0)],false⟩,false,false,[],some 4,some ⟨.code,[],.lcode,false,[(2,0),(1,0)],false⟩,none,false,false,false,none,false,⟨.lcode,some (.own 3),false,.lblank⟩⟩] (.node (.node (.node .leaf 15971883024170 [⟨⟨(.inside 2),[92],.lcode,false,[(1,0),(2,0)],false⟩,false,false,[],some 4,some ⟨.code,[],.lcode,false,[(2,0)],false⟩,none,false,false,false,none,false,⟨.lcode,some (.own 3),false,.lblank⟩⟩] .leaf) 15971883830082 [⟨⟨(.inside 2),[92],.lcode,false,[(1,0),(2,0)],false⟩,false,false,[],some 4,some ⟨.code,[],.lcode,false,[(1,0),(2,0)],false⟩,none,false,false,false,none,false,⟨.lcode,some (.own 3),false,.lblank⟩⟩] .leaf) 15971895712862 [⟨⟨(.inside 2),[92],.lcode,false,[(2,0),(1,0)],false⟩,false,false,[],some 4,some ⟨.code,[],.lcode,false,[(2,0),(1,0)],false⟩,none,false,false,false,none,false,⟨.lcode,some (.own 3),false,.lblank⟩⟩] (.node (.node .leaf 15979485192066 [⟨⟨(.inside 2),[92],.lcode,false,[(1,0),(2,0)],false⟩,false,false,[],some 4,some ⟨(.inside 2),[],.lcode,false,[(1,0),(2,0)],false⟩,none,false,false,false,none,false,⟨.lcode,some (.own 3),false,.lblank⟩⟩] .leaf) 15979497074846 [⟨⟨(.inside 2),[92],.lcode,false,[(2,0),(1,0)],false⟩,false,false,[],some 4,some ⟨(.inside 2),[],.lcode,false,[(2,0),(1,0)],false⟩,none,false,false,false,none,false,⟨.lcode,some (.own 3),false,.lblank⟩⟩] .leaf)))),(.node (.node (.node (.node .leaf 1179872 [⟨⟨(.inside 0),[],.lcode,false,[],false⟩,false,false,[],none,none,none,false,false,false,none,false,⟨.lcode,some (.own 3),false,.lblank⟩⟩] .leaf) 1327852 [⟨⟨(.inside 0),[],.lcomment,false,[],false⟩,false,false,[],none,none,none,false,false,false,none,false,⟨.lcomment,some (.own 3),false,.lblank⟩⟩] .leaf) 154644904 [⟨⟨(.inside 0),[],.lcode,false,[(1,0)],false⟩,false,false,[],none,none,none,false,false,false,none,false,⟨.lcode,some (.own 3),false,.lblank⟩⟩] (.node (.node .leaf 154657193 [⟨⟨(.inside 0),[],.lcode,false,[(1,1)],false⟩,false,false,[],none,none,none,false,false,false,none,false,⟨.lcode,some (.own 3),false,.lblank⟩⟩] .leaf) 154730927 [⟨⟨(.inside 0),[],.lcode,false,[(2,0)],false⟩,false,false,[],none,none,none,false,false,false,none,false,⟨.lcode,some (.own 3),false,.lblank⟩⟩] .leaf)) 154743216 [⟨⟨(.inside 0),[],.lcode,false,[(2,1)],false⟩,false,false,[],none,none,none,false,false,false,none,false,⟨.lcode,some (.own 3),false,.lblank⟩⟩] (.node (.node (.node .leaf 20258650119 [⟨⟨(.inside 0),[],.lcode,false,[(1,0),(2,0)],false⟩,false,false,[],none,none,none,false,false,false,none,false,⟨.lcode,some (.own 3),false,.lblank⟩⟩] .leaf) 20260272267 [⟨⟨(.inside 0),[],.lcode,false,[(1,1),(2,1)],false⟩,false,false,[],none,none,none,false,false,false,none,false,⟨.lcode,some (.own 3),false,.lblank⟩⟩] .leaf) 20269833109 [⟨⟨(.inside 0),[],.lcode,false,[(2,0),(1,0)],false⟩,false,false,[],none,none,none,false,false,false,none,false,⟨.lcode,some (.own 3),false,.lblank⟩⟩] (.node .leaf 20271455257 [⟨⟨(.inside 0),[],.lcode,false,[(2,1),(1,1)],false⟩,false,false,[],none,none,none,false,false,false,none,false,⟨.lcode,some (.own 3),false,.lblank⟩⟩] .leaf))),(.node (.node (.node (.node (.node .leaf 105077 [⟨⟨.code,[],.lcode,false,[(1,0)],false⟩,false,false,[],some 4,some ⟨.code,[],.lcode,false,[(1,0)],false⟩,none,false,false,false,none,false,⟨.lcode,some (.own 3),false,.lblank⟩⟩] .leaf) 4388101 [⟨⟨(.inside 1),[],.lcode,false,[],false⟩,false,false,[],some 4,some ⟨(.inside 1),[],.lcode,false,[],false⟩,none,false,false,false,none,false,⟨.lcode,some (.own 3),false,.lblank⟩⟩] (.node .leaf 13881267 [⟨⟨.code,[],.lcode,false,[(1,0),(2,0)],false⟩,false,false,[],some 4,some ⟨.code,[],.lcode,false,[(1,0),(2,0)],false⟩,none,false,false,false,none,false,⟨.lcode,some (.own 3),false,.lblank⟩⟩] .leaf)) 24252962 [⟨⟨.code,[],.lcode,false,[(2,0),(1,0)],false⟩,false,false,[],some 4,some ⟨.code,[],.lcode,false,[(1,0)],false⟩,none,false,false,false,none,false,⟨.lcode,some (.own 3),false,.lblank⟩⟩] (.node (.node .leaf 25764047 [⟨⟨.code,[],.lcode,false,[(2,0),(1,0)],false⟩,false,false,[],some 4,some ⟨.code,[],.lcode,false,[(2,0),(1,0)],false⟩,none,false,false,false,none,false,⟨.lcode,some (.own 3),false,.lblank⟩⟩] .leaf) 48400851 [⟨⟨.code,[],.lblank,false,[(1,0)],true⟩,false,false,[],some 4,some ⟨.code,[],.lcode,false,[(1,0)],false⟩,none,false,true,false,none,false,⟨.lcode,some (.own 3),false,.lblank⟩⟩] .leaf)) 154651541 [⟨⟨(.inside 0),[],.lcode,false,[(1,0)],false⟩,false,false,[],some 4,some ⟨.code,[],.lcode,false,[(1,0)],false⟩,none,false,false,false,none,false,⟨.lcode,some (.own 3),false,.lblank⟩⟩] (.node (.node (.node .leaf 541017701 [⟨⟨(.inside 1),[],.lcode,false,[(1,0)],false⟩,false,false,[],some 4,some ⟨.code,[],.lcode,false,[(1,0)],false⟩,none,false,false,false,none,false,⟨.lcode,some (.own 3),false,.lblank⟩⟩] .leaf) 574866005 [⟨⟨(.inside 1),[],.lcode,false,[(1,0)],false⟩,false,false,[],some 4,some ⟨(.inside 1),[],.lcode,false,[(1,0)],false⟩,none,false,false,false,none,false,⟨.lcode,some (.own 3),false,.lblank⟩⟩] .leaf) 574957411 [⟨⟨(.inside 1),[],.lcode,false,[(2,0)],false⟩,false,false,[],some 4,some ⟨(.inside 1),[],.lcode,false,[(2,0)],false⟩,none,false,false,false,none,false,⟨.lcode,some (.own 3),false,.lblank⟩⟩] (.node (.node .leaf 927383861 [⟨⟨(.inside 2),[],.lcode,false,[(1,0)],false⟩,false,false,[],some 4,some ⟨.code,[],.lcode,false,[(1,0)],false⟩,none,false,false,false,none,false,⟨.lcode,some (.own 3),false,.lblank⟩⟩] .leaf) 6340627141 [⟨⟨.code,[],.lblank,false,[(1,0),(2,0)],true⟩,false,false,[],some 4,some ⟨.code,[],.lcode,false,[(1,0),(2,0)],false⟩,none,false,true,false,none,false,⟨.lcode,some (.own 3),false,.lblank⟩⟩] .leaf))) 6350998836 [⟨⟨.code,[],.lblank,false,[(2,0),(1,0)],true⟩,false,false,[],some 4,some ⟨.code,[],.lcode,false,[(1,0)],false⟩,none,false,true,false,none,false,⟨.lcode,some (.own 3),false,.lblank⟩⟩] (.node (.node (.node (.node .leaf 20259468051 [⟨⟨(.inside 0),[],.lcode,false,[(1,0),(2,0)],false⟩,false,false,[],some 4,some ⟨.code,[],.lcode,false,[(1,0),(2,0)],false⟩,none,false,false,false,none,false,⟨.lcode,some (.own 3),false,.lblank⟩⟩] .leaf) 20269839746 [⟨⟨(.inside 0),[],.lcode,false,[(2,0),(1,0)],false⟩,false,false,[],some 4,some ⟨.code,[],.lcode,false,[(1,0)],false⟩,none,false,false,false,none,false,⟨.lcode,some (.own 3),false,.lblank⟩⟩] .leaf) 20271350831 [⟨⟨(.inside 0),[],.lcode,false,[(2,0),(1,0)],false⟩,false,false,[],some 4,some ⟨.code,[],.lcode,false,[(2,0),(1,0)],false⟩,none,false,false,false,none,false,⟨.lcode,some (.own 3),false,.lblank⟩⟩] (.node (.node .leaf 70873435011 [⟨⟨(.inside 1),[],.lcode,false,[(1,0),(2,0)],false⟩,false,false,[],some 4,some ⟨.code,[],.lcode,false,[(1,0),(2,0)],false⟩,none,false,false,false,none,false,⟨.lcode,some (.own 3),false,.lblank⟩⟩] .leaf) 70883806706 [⟨⟨(.inside 1),[],.lcode,false,[(2,0),(1,0)],false⟩,false,false,[],some 4,some ⟨.code,[],.lcode,false,[(1,0)],false⟩,none,false,false,false,none,false,⟨.lcode,some (.own 3),false,.lblank⟩⟩] .leaf)) 70885317791 [⟨⟨(.inside 1),[],.lcode,false,[(2,0),(1,0)],false⟩,false,false,[],some 4,some ⟨.code,[],.lcode,false,[(2,0),(1,0)],false⟩,none,false,false,false,none,false,⟨.lcode,some (.own 3),false,.lblank⟩⟩] (.node (.node (.node .leaf 75307562835 [⟨⟨(.inside 1),[],.lcode,false,[(1,0),(2,0)],false⟩,false,false,[],some 4,some ⟨(.inside 1),[],.lcode,false,[(1,0),(2,0)],false⟩,none,false,false,false,none,false,⟨.lcode,some (.own 3),false,.lblank⟩⟩] .leaf) 75319445615 [⟨⟨(.inside 1),[],.lcode,false,[(2,0),(1,0)],false⟩,false,false,[],some 4,some ⟨(.inside 1),[],.lcode,false,[(2,0),(1,0)],false⟩,none,false,false,false,none,false,⟨.lcode,some (.own 3),false,.lblank⟩⟩] .leaf) 121487401971 [⟨⟨(.inside 2),[],.lcode,false,[(1,0),(2,0)],false⟩,false,false,[],some 4,some ⟨.code,[],.lcode,false,[(1,0),(2,0)],false⟩,none,false,false,false,none,false,⟨.lcode,some (.own 3),false,.lblank⟩⟩] (.node (.node .leaf 121497773666 [⟨⟨(.inside 2),[],.lcode,false,[(2,0),(1,0)],false⟩,false,false,[],some 4,some ⟨.code,[],.lcode,false,[(1,0)],false⟩,none,false,false,false,none,false,⟨.lcode,some (.own 3),false,.lblank⟩⟩] .leaf) 121499284751 [⟨⟨(.inside 2),[],.lcode,false,[(2,0),(1,0)],false⟩,false,false,[],some 4,some ⟨.code,[],.lcode,false,[(2,0),(1,0)],false⟩,none,false,false,false,none,false,⟨.lcode,some (.own 3),false,.lblank⟩⟩] .leaf)))),(.node (.node (.node (.node (.node .leaf 117366 [⟨⟨.code,[],.lcode,false,[(1,1)],false⟩,false,false,[],some 4,some ⟨.code,[],.lcode,false,[(1,0)],false⟩,none,false,false,false,none,false,⟨.lcode,some (.own 3),false,.lblank⟩⟩] .leaf) 15503415 [⟨⟨.code,[],.lcode,false,[(1,1),(2,1)],false⟩,false,false,[],some 4,some ⟨.code,[],.lcode,false,[(1,0),(2,0)],false⟩,none,false,false,false,none,false,⟨.lcode,some (.own 3),false,.lblank⟩⟩] (.node .leaf 25875110 [⟨⟨.code,[],.lcode,false,[(2,1),(1,1)],false⟩,false,false,[],some 4,some ⟨.code,[],.lcode,false,[(1,0)],false⟩,none,false,false,false,none,false,⟨.lcode,some (.own 3),false,.lblank⟩⟩] .leaf)) 27386195 [⟨⟨.code,[],.lcode,false,[(2,1),(1,1)],false⟩,false,false,[],some 4,some ⟨.code,[],.lcode,false,[(2,0),(1,0)],false⟩,none,false,false,false,none,false,⟨.lcode,some (.own 3),false,.lblank⟩⟩] (.node (.node .leaf 48413140 [⟨⟨.code,[],.lblank,false,[(1,1)],true⟩,false,false,[],some 4,some ⟨.code,[],.lcode,false,[(1,0)],false⟩,none,false,true,false,none,false,⟨.lcode,some (.own 3),false,.lblank⟩⟩] .leaf) 154663830 [⟨⟨(.inside 0),[],.lcode,false,[(1,1)],false⟩,false,false,[],some 4,some ⟨.code,[],.lcode,false,[(1,0)],false⟩,none,false,false,false,none,false,⟨.lcode,some (.own 3),false,.lblank⟩⟩] .leaf)) 544600252 [⟨⟨(.inside 1),[92],.lcode,false,[],false⟩,false,false,[],some 4,some ⟨(.inside 1),[],.lcode,false,[],false⟩,none,false,false,false,none,false,⟨.lcode,some (.own 3),false,.lblank⟩⟩] (.node (.node (.node .leaf 6342249289 [⟨⟨.code,[],.lblank,false,[(1,1),(2,1)],true⟩,false,false,[],some 4,some ⟨.code,[],.lcode,false,[(1,0),(2,0)],false⟩,none,false,true,false,none,false,⟨.lcode,some (.own 3),false,.lblank⟩⟩] .leaf) 6352620984 [⟨⟨.code,[],.lblank,false,[(2,1),(1,1)],true⟩,false,false,[],some 4,some ⟨.code,[],.lcode,false,[(1,0)],false⟩,none,false,true,false,none,false,⟨.lcode,some (.own 3),false,.lblank⟩⟩] .leaf) 20261090199 [⟨⟨(.inside 0),[],.lcode,false,[(1,1),(2,1)],false⟩,false,false,[],some 4,some ⟨.code,[],.lcode,false,[(1,0),(2,0)],false⟩,none,false,false,false,none,false,⟨.lcode,some (.own 3),false,.lblank⟩⟩] (.node (.node .leaf 20271461894 [⟨⟨(.inside 0),[],.lcode,false,[(2,1),(1,1)],false⟩,false,false,[],some 4,some ⟨.code,[],.lcode,false,[(1,0)],false⟩,none,false,false,false,none,false,⟨.lcode,some (.own 3),false,.lblank⟩⟩] .leaf) 20272972979 [⟨⟨(.inside 0),[],.lcode,false,[(2,1),(1,1)],false⟩,false,false,[],some 4,some ⟨.code,[],.lcode,false,[(2,0),(1,0)],false⟩,none,false,false,false,none,false,⟨.lcode,some (.own 3),false,.lblank⟩⟩] .leaf))) 71308809482 [⟨⟨(.inside 1),[92],.lcode,false,[(1,0)],false⟩,false,false,[],some 4,some ⟨.code,[],.lcode,false,[(1,0)],false⟩,none,false,false,false,none,false,⟨.lcode,some (.own 3),false,.lblank⟩⟩] (.node (.node (.node (.node .leaf 71342657786 [⟨⟨(.inside 1),[92],.lcode,false,[(1,0)],false⟩,false,false,[],some 4,some ⟨(.inside 1),[],.lcode,false,[(1,0)],false⟩,none,false,false,false,none,false,⟨.lcode,some (.own 3),false,.lblank⟩⟩] .leaf) 71342749192 [⟨⟨(.inside 1),[92],.lcode,false,[(2,0)],false⟩,false,false,[],some 4,some ⟨(.inside 1),[],.lcode,false,[(2,0)],false⟩,none,false,false,false,none,false,⟨.lcode,some (.own 3),false,.lblank⟩⟩] .leaf) 121922776442 [⟨⟨(.inside 2),[92],.lcode,false,[(1,0)],false⟩,false,false,[],some 4,some ⟨.code,[],.lcode,false,[(1,0)],false⟩,none,false,false,false,none,false,⟨.lcode,some (.own 3),false,.lblank⟩⟩] (.node (.node .leaf 9341454158322 [⟨⟨(.inside 1),[92],.lcode,false,[(1,0),(2,0)],false⟩,false,false,[],some 4,some ⟨.code,[],.lcode,false,[(1,0),(2,0)],false⟩,none,false,false,false,none,false,⟨.lcode,some (.own 3),false,.lblank⟩⟩] .leaf) 9341464530017 [⟨⟨(.inside 1),[92],.lcode,false,[(2,0),(1,0)],false⟩,false,false,[],some 4,some ⟨.code,[],.lcode,false,[(1,0)],false⟩,none,false,false,false,none,false,⟨.lcode,some (.own 3),false,.lblank⟩⟩] .leaf)) 9341466041102 [⟨⟨(.inside 1),[92],.lcode,false,[(2,0),(1,0)],false⟩,false,false,[],some 4,some ⟨.code,[],.lcode,false,[(2,0),(1,0)],false⟩,none,false,false,false,none,false,⟨.lcode,some (.own 3),false,.lblank⟩⟩] (.node (.node (.node .leaf 9345888286146 [⟨⟨(.inside 1),[92],.lcode,false,[(1,0),(2,0)],false⟩,false,false,[],some 4,some ⟨(.inside 1),[],.lcode,false,[(1,0),(2,0)],false⟩,none,false,false,false,none,false,⟨.lcode,some (.own 3),false,.lblank⟩⟩] .leaf) 9345900168926 [⟨⟨(.inside 1),[92],.lcode,false,[(2,0),(1,0)],false⟩,false,false,[],some 4,some ⟨(.inside 1),[],.lcode,false,[(2,0),(1,0)],false⟩,none,false,false,false,none,false,⟨.lcode,some (.own 3),false,.lblank⟩⟩] .leaf) 15971883830082 [⟨⟨(.inside 2),[92],.lcode,false,[(1,0),(2,0)],false⟩,false,false,[],some 4,some ⟨.code,[],.lcode,false,[(1,0),(2,0)],false⟩,none,false,false,false,none,false,⟨.lcode,some (.own 3),false,.lblank⟩⟩] (.node (.node .leaf 15971894201777 [⟨⟨(.inside 2),[92],.lcode,false,[(2,0),(1,0)],false⟩,false,false,[],some 4,some ⟨.code,[],.lcode,false,[(1,0)],false⟩,none,false,false,false,none,false,⟨.lcode,some (.own 3),false,.lblank⟩⟩] .leaf) 15971895712862 [⟨⟨(.inside 2),[92],.lcode,false,[(2,0),(1,0)],false⟩,false,false,[],some 4,some ⟨.code,[],.lcode,false,[(2,0),(1,0)],false⟩,none,false,false,false,none,false,⟨.lcode,some (.own 3),false,.lblank⟩⟩] .leaf)))),(.node (.node (.node (.node (.node .leaf 196483 [⟨⟨.code,[],.lcode,false,[(2,0)],false⟩,false,false,[],some 4,some ⟨.code,[],.lcode,false,[(2,0)],false⟩,none,false,false,false,none,false,⟨.lcode,some (.own 3),false,.lblank⟩⟩] .leaf) 7522021 [⟨⟨(.inside 2),[],.lcode,false,[],false⟩,false,false,[],some 4,some ⟨(.inside 2),[],.lcode,false,[],false⟩,none,false,false,false,none,false,⟨.lcode,some (.own 3),false,.lblank⟩⟩] (.node .leaf 13075355 [⟨⟨.code,[],.lcode,false,[(1,0),(2,0)],false⟩,false,false,[],some 4,some ⟨.code,[],.lcode,false,[(2,0)],false⟩,none,false,false,false,none,false,⟨.lcode,some (.own 3),false,.lblank⟩⟩] .leaf)) 13881267 [⟨⟨.code,[],.lcode,false,[(1,0),(2,0)],false⟩,false,false,[],some 4,some ⟨.code,[],.lcode,false,[(1,0),(2,0)],false⟩,none,false,false,false,none,false,⟨.lcode,some (.own 3),false,.lblank⟩⟩] (.node (.node .leaf 25764047 [⟨⟨.code,[],.lcode,false,[(2,0),(1,0)],false⟩,false,false,[],some 4,some ⟨.code,[],.lcode,false,[(2,0),(1,0)],false⟩,none,false,false,false,none,false,⟨.lcode,some (.own 3),false,.lblank⟩⟩] .leaf) 48492257 [⟨⟨.code,[],.lblank,false,[(2,0)],true⟩,false,false,[],some 4,some ⟨.code,[],.lcode,false,[(2,0)],false⟩,none,false,true,false,none,false,⟨.lcode,some (.own 3),false,.lblank⟩⟩] .leaf)) 154742947 [⟨⟨(.inside 0),[],.lcode,false,[(2,0)],false⟩,false,false,[],some 4,some ⟨.code,[],.lcode,false,[(2,0)],false⟩,none,false,false,false,none,false,⟨.lcode,some (.own 3),false,.lblank⟩⟩] (.node (.node (.node .leaf 541109107 [⟨⟨(.inside 1),[],.lcode,false,[(2,0)],false⟩,false,false,[],some 4,some ⟨.code,[],.lcode,false,[(2,0)],false⟩,none,false,false,false,none,false,⟨.lcode,some (.own 3),false,.lblank⟩⟩] .leaf) 927475267 [⟨⟨(.inside 2),[],.lcode,false,[(2,0)],false⟩,false,false,[],some 4,some ⟨.code,[],.lcode,false,[(2,0)],false⟩,none,false,false,false,none,false,⟨.lcode,some (.own 3),false,.lblank⟩⟩] .leaf) 985409525 [⟨⟨(.inside 2),[],.lcode,false,[(1,0)],false⟩,false,false,[],some 4,some ⟨(.inside 2),[],.lcode,false,[(1,0)],false⟩,none,false,false,false,none,false,⟨.lcode,some (.own 3),false,.lblank⟩⟩] (.node (.node .leaf 985500931 [⟨⟨(.inside 2),[],.lcode,false,[(2,0)],false⟩,false,false,[],some 4,some ⟨(.inside 2),[],.lcode,false,[(2,0)],false⟩,none,false,false,false,none,false,⟨.lcode,some (.own 3),false,.lblank⟩⟩] .leaf) 6339821229 [⟨⟨.code,[],.lblank,false,[(1,0),(2,0)],true⟩,false,false,[],some 4,some ⟨.code,[],.lcode,false,[(2,0)],false⟩,none,false,true,false,none,false,⟨.lcode,some (.own 3),false,.lblank⟩⟩] .leaf))) 6352509921 [⟨⟨.code,[],.lblank,false,[(2,0),(1,0)],true⟩,false,false,[],some 4,some ⟨.code,[],.lcode,false,[(2,0),(1,0)],false⟩,none,false,true,false,none,false,⟨.lcode,some (.own 3),false,.lblank⟩⟩] (.node (.node (.node (.node .leaf 20258662139 [⟨⟨(.inside 0),[],.lcode,false,[(1,0),(2,0)],false⟩,false,false,[],some 4,some ⟨.code,[],.lcode,false,[(2,0)],false⟩,none,false,false,false,none,false,⟨.lcode,some (.own 3),false,.lblank⟩⟩] .leaf) 20259468051 [⟨⟨(.inside 0),[],.lcode,false,[(1,0),(2,0)],false⟩,false,false,[],some 4,some ⟨.code,[],.lcode,false,[(1,0),(2,0)],false⟩,none,false,false,false,none,false,⟨.lcode,some (.own 3),false,.lblank⟩⟩] .leaf) 20271350831 [⟨⟨(.inside 0),[],.lcode,false,[(2,0),(1,0)],false⟩,false,false,[],some 4,some ⟨.code,[],.lcode,false,[(2,0),(1,0)],false⟩,none,false,false,false,none,false,⟨.lcode,some (.own 3),false,.lblank⟩⟩] (.node (.node .leaf 70872629099 [⟨⟨(.inside 1),[],.lcode,false,[(1,0),(2,0)],false⟩,false,false,[],some 4,some ⟨.code,[],.lcode,false,[(2,0)],false⟩,none,false,false,false,none,false,⟨.lcode,some (.own 3),false,.lblank⟩⟩] .leaf) 70873435011 [⟨⟨(.inside 1),[],.lcode,false,[(1,0),(2,0)],false⟩,false,false,[],some 4,some ⟨.code,[],.lcode,false,[(1,0),(2,0)],false⟩,none,false,false,false,none,false,⟨.lcode,some (.own 3),false,.lblank⟩⟩] .leaf)) 70885317791 [⟨⟨(.inside 1),[],.lcode,false,[(2,0),(1,0)],false⟩,false,false,[],some 4,some ⟨.code,[],.lcode,false,[(2,0),(1,0)],false⟩,none,false,false,false,none,false,⟨.lcode,some (.own 3),false,.lblank⟩⟩] (.node (.node (.node .leaf 121486596059 [⟨⟨(.inside 2),[],.lcode,false,[(1,0),(2,0)],false⟩,false,false,[],some 4,some ⟨.code,[],.lcode,false,[(2,0)],false⟩,none,false,false,false,none,false,⟨.lcode,some (.own 3),false,.lblank⟩⟩] .leaf) 121487401971 [⟨⟨(.inside 2),[],.lcode,false,[(1,0),(2,0)],false⟩,false,false,[],some 4,some ⟨.code,[],.lcode,false,[(1,0),(2,0)],false⟩,none,false,false,false,none,false,⟨.lcode,some (.own 3),false,.lblank⟩⟩] .leaf) 121499284751 [⟨⟨(.inside 2),[],.lcode,false,[(2,0),(1,0)],false⟩,false,false,[],some 4,some ⟨.code,[],.lcode,false,[(2,0),(1,0)],false⟩,none,false,false,false,none,false,⟨.lcode,some (.own 3),false,.lblank⟩⟩] (.node (.node .leaf 129088763955 [⟨⟨(.inside 2),[],.lcode,false,[(1,0),(2,0)],false⟩,false,false,[],some 4,some ⟨(.inside 2),[],.lcode,false,[(1,0),(2,0)],false⟩,none,false,false,false,none,false,⟨.lcode,some (.own 3),false,.lblank⟩⟩] .leaf) 129100646735 [⟨⟨(.inside 2),[],.lcode,false,[(2,0),(1,0)],false⟩,false,false,[],some 4,some ⟨(.inside 2),[],.lcode,false,[(2,0),(1,0)],false⟩,none,false,false,false,none,false,⟨.lcode,some (.own 3),false,.lblank⟩⟩] .leaf)))),(.node (.node (.node (.node (.node .leaf 105077 [⟨⟨.code,[],.lcode,false,[(1,0)],false⟩,false,false,[],some 4,some ⟨.code,[],.lcode,false,[(1,0)],false⟩,none,false,false,false,none,false,⟨.lcode,some (.own 3),false,.lblank⟩⟩] .leaf) 4388101 [⟨⟨(.inside 1),[],.lcode,false,[],false⟩,false,false,[],some 4,some ⟨(.inside 1),[],.lcode,false,[],false⟩,none,false,false,false,none,false,⟨.lcode,some (.own 3),false,.lblank⟩⟩] (.node .leaf 13881267 [⟨⟨.code,[],.lcode,false,[(1,0),(2,0)],false⟩,false,false,[],some 4,some ⟨.code,[],.lcode,false,[(1,0),(2,0)],false⟩,none,false,false,false,none,false,⟨.lcode,some (.own 3),false,.lblank⟩⟩] .leaf)) 24252962 [⟨⟨.code,[],.lcode,false,[(2,0),(1,0)],false⟩,false,false,[],some 4,some ⟨.code,[],.lcode,false,[(1,0)],false⟩,none,false,false,false,none,false,⟨.lcode,some (.own 3),false,.lblank⟩⟩] (.node (.node .leaf 25764047 [⟨⟨.code,[],.lcode,false,[(2,0),(1,0)],false⟩,false,false,[],some 4,some ⟨.code,[],.lcode,false,[(2,0),(1,0)],false⟩,none,false,false,false,none,false,⟨.lcode,some (.own 3),false,.lblank⟩⟩] .leaf) 48400851 [⟨⟨.code,[],.lblank,false,[(1,0)],true⟩,false,false,[],some 4,some ⟨.code,[],.lcode,false,[(1,0)],false⟩,none,false,true,false,none,false,⟨.lcode,some (.own 3),false,.lblank⟩⟩] .leaf)) 154651541 [⟨⟨(.inside 0),[],.lcode,false,[(1,0)],false⟩,false,false,[],some 4,some ⟨.code,[],.lcode,false,[(1,0)],false⟩,none,false,false,false,none,false,⟨.lcode,some (.own 3),false,.lblank⟩⟩] (.node (.node (.node .leaf 541017701 [⟨⟨(.inside 1),[],.lcode,false,[(1,0)],false⟩,false,false,[],some 4,some ⟨.code,[],.lcode,false,[(1,0)],false⟩,none,false,false,false,none,false,⟨.lcode,some (.own 3),false,.lblank⟩⟩] .leaf) 574866005 [⟨⟨(.inside 1),[],.lcode,false,[(1,0)],false⟩,false,false,[],some 4,some ⟨(.inside 1),[],.lcode,false,[(1,0)],false⟩,none,false,false,false,none,false,⟨.lcode,some (.own 3),false,.lblank⟩⟩] .leaf) 574957411 [⟨⟨(.inside 1),[],.lcode,false,[(2,0)],false⟩,false,false,[],some 4,some ⟨(.inside 1),[],.lcode,false,[(2,0)],false⟩,none,false,false,false,none,false,⟨.lcode,some (.own 3),false,.lblank⟩⟩] (.node (.node .leaf 927383861 [⟨⟨(.inside 2),[],.lcode,false,[(1,0)],false⟩,false,false,[],some 4,some ⟨.code,[],.lcode,false,[(1,0)],false⟩,none,false,false,false,none,false,⟨.lcode,some (.own 3),false,.lblank⟩⟩] .leaf) 6340627141 [⟨⟨.code,[],.lblank,false,[(1,0),(2,0)],true⟩,false,false,[],some 4,some ⟨.code,[],.lcode,false,[(1,0),(2,0)],false⟩,none,false,true,false,none,false,⟨.lcode,some (.own 3),false,.lblank⟩⟩] .leaf))) 6350998836 [⟨⟨.code,[],.lblank,false,[(2,0),(1,0)],true⟩,false,false,[],some 4,some ⟨.code,[],.lcode,false,[(1,0)],false⟩,none,false,true,false,none,false,⟨.lcode,some (.own 3),false,.lblank⟩⟩] (.node (.node (.node (.node .leaf 20259468051 [⟨⟨(.inside 0),[],.lcode,false,[(1,0),(2,0)],false⟩,false,false,[],some 4,some ⟨.code,[],.lcode,false,[(1,0),(2,0)],false⟩,none,false,false,false,none,false,⟨.lcode,some (.own 3),false,.lblank⟩⟩] .leaf) 20269839746 [⟨⟨(.inside 0),[],.lcode,false,[(2,0),(1,0)],false⟩,false,false,[],some 4,some ⟨.code,[],.lcode,false,[(1,0)],false⟩,none,false,false,false,none,false,⟨.lcode,some (.own 3),false,.lblank⟩⟩] .leaf) 20271350831 [⟨⟨(.inside 0),[],.lcode,false,[(2,0),(1,0)],false⟩,false,false,[],some 4,some ⟨.code,[],.lcode,false,[(2,0),(1,0)],false⟩,none,false,false,false,none,false,⟨.lcode,some (.own 3),false,.lblank⟩⟩] (.node (.node .leaf 70873435011 [⟨⟨(.inside 1),[],.lcode,false,[(1,0),(2,0)],false⟩,false,false,[],some 4,some ⟨.code,[],.lcode,false,[(1,0),(2,0)],false⟩,none,false,false,false,none,false,⟨.lcode,some (.own 3),false,.lblank⟩⟩] .leaf) 70883806706 [⟨⟨(.inside 1),[],.lcode,false,[(2,0),(1,0)],false⟩,false,false,[],some 4,some ⟨.code,[],.lcode,false,[(1,0)],false⟩,none,false,false,false,none,false,⟨.lcode,some (.own 3),false,.lblank⟩⟩] .leaf)) 70885317791 [⟨⟨(.inside 1),[],.lcode,false,[(2,0),(1,0)],false⟩,false,false,[],some 4,some ⟨.code,[],.lcode,false,[(2,0),(1,0)],false⟩,none,false,false,false,none,false,⟨.lcode,some (.own 3),false,.lblank⟩⟩] (.node (.node (.node .leaf 75307562835 [⟨⟨(.inside 1),[],.lcode,false,[(1,0),(2,0)],false⟩,false,false,[],some 4,some ⟨(.inside 1),[],.lcode,false,[(1,0),(2,0)],false⟩,none,false,false,false,none,false,⟨.lcode,some (.own 3),false,.lblank⟩⟩] .leaf) 75319445615 [⟨⟨(.inside 1),[],.lcode,false,[(2,0),(1,0)],false⟩,false,false,[],some 4,some ⟨(.inside 1),[],.lcode,false,[(2,0),(1,0)],false⟩,none,false,false,false,none,false,⟨.lcode,some (.own 3),false,.lblank⟩⟩] .leaf) 121487401971 [⟨⟨(.inside 2),[],.lcode,false,[(1,0),(2,0)],false⟩,false,false,[],some 4,some ⟨.code,[],.lcode,false,[(1,0),(2,0)],false⟩,none,false,false,false,none,false,⟨.lcode,some (.own 3),false,.lblank⟩⟩] (.node (.node .leaf 121497773666 [⟨⟨(.inside 2),[],.lcode,false,[(2,0),(1,0)],false⟩,false,false,[],some 4,some ⟨.code,[],.lcode,false,[(1,0)],false⟩,none,false,false,false,none,false,⟨.lcode,some (.own 3),false,.lblank⟩⟩] .leaf) 121499284751 [⟨⟨(.inside 2),[],.lcode,false,[(2,0),(1,0)],false⟩,false,false,[],some 4,some ⟨.code,[],.lcode,false,[(2,0),(1,0)],false⟩,none,false,false,false,none,false,⟨.lcode,some (.own 3),false,.lblank⟩⟩] .leaf))))]
theorem am_line_lClosed : CA.closedF am_line_M am_line_lex true false am_line_lfr am_line_lTab = true := by decide +kernel
def am_line_L : LCert LexisTable.am_line am_line_M := am_line_lex_eq ▸ ⟨⟨am_line_lmasks, am_line_lex.rel, am_line_lcs, am_line_lrows, am_line_lmasksIn, am_line_lrepOk, am_line_lrowsOk⟩,
  _, rfl, by decide +kernel, by decide +kernel, true, false, CA.closed_of am_line_lfrOk am_line_lClosed⟩
theorem am_line_L_chk : am_line_L.chk = true := by
  have : ∀ (l : Lexis) (h : LexisTable.am_line = l) (C : LCert l am_line_M), (h ▸ C : LCert LexisTable.am_line am_line_M).chk = C.chk := by rintro _ rfl _; rfl
  exact this _ am_line_lex_eq _

def php_line_lex : Lexis := [⟨[47,47],[],.lcomment,false,false,false,true,false,false,true,false,none,false,false,false,false,[]⟩,⟨[35],[],.lcomment,false,false,false,true,false,false,true,false,none,false,false,false,false,[]⟩,⟨[47,42],[[42,47]],.lcomment,true,false,false,true,false,false,true,false,none,false,false,false,false,[]⟩,⟨[39],[[39]],.lcode,true,false,true,true,false,false,true,true,none,false,false,false,false,[]⟩,⟨[34],[[34]],.lcode,true,false,true,true,false,false,true,true,none,false,false,false,false,[]⟩]
theorem php_line_lex_eq : LexisTable.php_line = php_line_lex := by decide +kernel
def php_line_lmasks : List Nat := [4294967808,140737488355328,34359738368,549755813888,17179869184,8192,1024,4096,115792089237316195423570985008687907853269984665640564039457584007908834656767,115792089237316195423570985008687907853269984665640564039457584007913129626623,4398046511104,115792089237316195423570985008687907853269984665640564039457584007908834658815,115792089237316195423570985008687907853269984665635612279300442486263777315839,4951760157141521099596496896,115792089237316195423570985008687907853269984665635612279300442486796353260543]
def php_line_lcs : List (Nat × Nat) := [(0,115792089237316195423570985008687907853269984665635612279300442341072407871999),(9,4294967808),(10,1024),(11,2048),(12,4096),(13,8192),(34,17179869184),(35,34359738368),(39,549755813888),(42,4398046511104),(47,140737488355328),(92,4951760157141521099596496896)]
theorem php_line_lmasksIn : masksIn php_line_nfa php_line_lmasks = true := by decide +kernel
theorem php_line_lrepOk : repOk php_line_lmasks php_line_lcs = true := by decide +kernel
def php_line_lrows : List Row := [⟨[],none,[],[⟨256,.other,false,some ⟨0,[.setEnt (.own 3)],some 4,true⟩⟩,⟨256,.ws,false,some ⟨1,[.setEnt (.own 0)],some 0,false⟩⟩,⟨256,.lf,false,some ⟨0,[.setEnt .newline],some 3,true⟩⟩,⟨256,.vt,false,none⟩,⟨256,.ff,false,some ⟨0,[.setEnt .newline],some 3,true⟩⟩,⟨256,.cr,false,some ⟨2,[.setEnt .newline],none,false⟩⟩,⟨256,.cr,true,some ⟨3,[.setEnt .newline],some 3,false⟩⟩,⟨34,.other,false,some ⟨4,[.enqueue,.code,.setEnt (.own 3)],some 4,false⟩⟩,⟨35,.other,false,some ⟨5,[.comment,.setEnt (.own 3)],some 1,false⟩⟩,⟨39,.other,false,some ⟨6,[.enqueue,.code,.setEnt (.own 3)],some 4,false⟩⟩,⟨42,.other,false,some ⟨0,[.setEnt (.own 3)],some 4,true⟩⟩,⟨47,.other,false,some ⟨7,[.setEnt (.own 3)],some 4,false⟩⟩,⟨92,.other,false,some ⟨0,[.setEnt (.own 3)],some 4,true⟩⟩]⟩,⟨[0],some 0,[],[⟨256,.other,false,none⟩,⟨256,.ws,false,some ⟨1,[.setEnt (.own 0)],some 0,false⟩⟩,⟨256,.lf,false,none⟩,⟨256,.vt,false,none⟩,⟨256,.ff,false,none⟩,⟨256,.cr,false,none⟩,⟨256,.cr,true,none⟩,⟨34,.other,false,none⟩,⟨35,.other,false,none⟩,⟨39,.other,false,none⟩,⟨42,.other,false,none⟩,⟨47,.other,false,none⟩,⟨92,.other,false,none⟩]⟩,⟨[38],none,[],[⟨256,.other,false,none⟩,⟨256,.ws,false,none⟩,⟨256,.lf,false,some ⟨0,[.setEnt .newline],some 3,true⟩⟩,⟨256,.vt,false,none⟩,⟨256,.ff,false,none⟩,⟨256,.cr,false,none⟩,⟨256,.cr,true,none⟩,⟨34,.other,false,none⟩,⟨35,.other,false,none⟩,⟨39,.other,false,none⟩,⟨42,.other,false,none⟩,⟨47,.other,false,none⟩,⟨92,.other,false,none⟩]⟩,⟨[38,42],some 3,[],[⟨256,.other,false,none⟩,⟨256,.ws,false,none⟩,⟨256,.lf,false,some ⟨0,[.setEnt .newline],some 3,true⟩⟩,⟨256,.vt,false,none⟩,⟨256,.ff,false,none⟩,⟨256,.cr,false,none⟩,⟨256,.cr,true,none⟩,⟨34,.other,false,none⟩,⟨35,.other,false,none⟩,⟨39,.other,false,none⟩,⟨42,.other,false,none⟩,⟨47,.other,false,none⟩,⟨92,.other,false,none⟩]⟩,⟨[27,43],some 4,[],[⟨256,.other,false,some ⟨8,[.code],none,false⟩⟩,⟨256,.ws,false,some ⟨9,[.code],none,false⟩⟩,⟨256,.lf,false,some ⟨10,[],none,false⟩⟩,⟨256,.vt,false,some ⟨8,[.code],none,false⟩⟩,⟨256,.ff,false,some ⟨11,[],none,false⟩⟩,⟨256,.cr,false,some ⟨12,[],none,false⟩⟩,⟨256,.cr,true,some ⟨13,[],none,false⟩⟩,⟨34,.other,false,some ⟨0,[.commit,.code],some 2,true⟩⟩,⟨35,.other,false,some ⟨8,[.code],none,false⟩⟩,⟨39,.other,false,some ⟨8,[.code],none,false⟩⟩,⟨42,.other,false,some ⟨8,[.code],none,false⟩⟩,⟨47,.other,false,some ⟨8,[.code],none,false⟩⟩,⟨92,.other,false,some ⟨14,[],none,false⟩⟩]⟩,⟨[3,43],some 1,[],[⟨256,.other,false,some ⟨15,[],some 1,false⟩⟩,⟨256,.ws,false,some ⟨15,[],some 1,false⟩⟩,⟨256,.lf,false,none⟩,⟨256,.vt,false,some ⟨15,[],some 1,false⟩⟩,⟨256,.ff,false,none⟩,⟨256,.cr,false,none⟩,⟨256,.cr,true,none⟩,⟨34,.other,false,some ⟨15,[],some 1,false⟩⟩,⟨35,.other,false,some ⟨15,[],some 1,false⟩⟩,⟨39,.other,false,some ⟨15,[],some 1,false⟩⟩,⟨42,.other,false,some ⟨15,[],some 1,false⟩⟩,⟨47,.other,false,some ⟨15,[],some 1,false⟩⟩,⟨92,.other,false,some ⟨15,[],some 1,false⟩⟩]⟩,⟨[16,43],some 4,[],[⟨256,.other,false,some ⟨16,[.code],none,false⟩⟩,⟨256,.ws,false,some ⟨17,[.code],none,false⟩⟩,⟨256,.lf,false,some ⟨18,[],none,false⟩⟩,⟨256,.vt,false,some ⟨16,[.code],none,false⟩⟩,⟨256,.ff,false,some ⟨19,[],none,false⟩⟩,⟨256,.cr,false,some ⟨20,[],none,false⟩⟩,⟨256,.cr,true,some ⟨21,[],none,false⟩⟩,⟨34,.other,false,some ⟨16,[.code],none,false⟩⟩,⟨35,.other,false,some ⟨16,[.code],none,false⟩⟩,⟨39,.other,false,some ⟨0,[.commit,.code],some 2,true⟩⟩,⟨42,.other,false,some ⟨16,[.code],none,false⟩⟩,⟨47,.other,false,some ⟨16,[.code],none,false⟩⟩,⟨92,.other,false,some ⟨22,[],none,false⟩⟩]⟩,⟨[1,5,43],some 4,[],[⟨256,.other,false,none⟩,⟨256,.ws,false,none⟩,⟨256,.lf,false,none⟩,⟨256,.vt,false,none⟩,⟨256,.ff,false,none⟩,⟨256,.cr,false,none⟩,⟨256,.cr,true,none⟩,⟨34,.other,false,none⟩,⟨35,.other,false,none⟩,⟨39,.other,false,none⟩,⟨42,.other,false,some ⟨23,[.comment],none,false⟩⟩,⟨47,.other,false,some ⟨24,[.comment],some 1,false⟩⟩,⟨92,.other,false,none⟩]⟩,⟨[34],none,[],[⟨256,.other,false,some ⟨8,[.code],none,false⟩⟩,⟨256,.ws,false,some ⟨9,[.code],none,false⟩⟩,⟨256,.lf,false,some ⟨10,[],none,false⟩⟩,⟨256,.vt,false,some ⟨8,[.code],none,false⟩⟩,⟨256,.ff,false,some ⟨11,[],none,false⟩⟩,⟨256,.cr,false,some ⟨12,[],none,false⟩⟩,⟨256,.cr,true,some ⟨13,[],none,false⟩⟩,⟨34,.other,false,some ⟨0,[.commit,.code],some 2,true⟩⟩,⟨35,.other,false,some ⟨8,[.code],none,false⟩⟩,⟨39,.other,false,some ⟨8,[.code],none,false⟩⟩,⟨42,.other,false,some ⟨8,[.code],none,false⟩⟩,⟨47,.other,false,some ⟨8,[.code],none,false⟩⟩,⟨92,.other,false,some ⟨14,[],none,false⟩⟩]⟩,⟨[33,34],none,[],[⟨256,.other,false,some ⟨8,[.code],none,false⟩⟩,⟨256,.ws,false,some ⟨9,[.code],none,false⟩⟩,⟨256,.lf,false,some ⟨10,[],none,false⟩⟩,⟨256,.vt,false,some ⟨8,[.code],none,false⟩⟩,⟨256,.ff,false,some ⟨11,[],none,false⟩⟩,⟨256,.cr,false,some ⟨12,[],none,false⟩⟩,⟨256,.cr,true,some ⟨13,[],none,false⟩⟩,⟨34,.other,false,some ⟨0,[.commit,.code],some 2,true⟩⟩,⟨35,.other,false,some ⟨8,[.code],none,false⟩⟩,⟨39,.other,false,some ⟨8,[.code],none,false⟩⟩,⟨42,.other,false,some ⟨8,[.code],none,false⟩⟩,⟨47,.other,false,some ⟨8,[.code],none,false⟩⟩,⟨92,.other,false,some ⟨14,[],none,false⟩⟩]⟩,⟨[30],none,[],[⟨256,.other,false,some ⟨8,[.setEnt .internalNl,.cb,.code],none,false⟩⟩,⟨256,.ws,false,some ⟨9,[.setEnt .internalNl,.cb,.code],none,false⟩⟩,⟨256,.lf,false,some ⟨10,[.setEnt .internalNl,.cb],none,false⟩⟩,⟨256,.vt,false,some ⟨8,[.setEnt .internalNl,.cb,.code],none,false⟩⟩,⟨256,.ff,false,some ⟨11,[.setEnt .internalNl,.cb],none,false⟩⟩,⟨256,.cr,false,some ⟨12,[.setEnt .internalNl,.cb],none,false⟩⟩,⟨256,.cr,true,some ⟨13,[.setEnt .internalNl,.cb],none,false⟩⟩,⟨34,.other,false,some ⟨0,[.setEnt .internalNl,.cb,.commit,.code],some 2,true⟩⟩,⟨35,.other,false,some ⟨8,[.setEnt .internalNl,.cb,.code],none,false⟩⟩,⟨39,.other,false,some ⟨8,[.setEnt .internalNl,.cb,.code],none,false⟩⟩,⟨42,.other,false,some ⟨8,[.setEnt .internalNl,.cb,.code],none,false⟩⟩,⟨47,.other,false,some ⟨8,[.setEnt .internalNl,.cb,.code],none,false⟩⟩,⟨92,.other,false,some ⟨14,[.setEnt .internalNl,.cb],none,false⟩⟩]⟩,⟨[31],none,[],[⟨256,.other,false,some ⟨8,[.setEnt .internalNl,.cb,.code],none,false⟩⟩,⟨256,.ws,false,some ⟨9,[.setEnt .internalNl,.cb,.code],none,false⟩⟩,⟨256,.lf,false,some ⟨10,[.setEnt .internalNl,.cb],none,false⟩⟩,⟨256,.vt,false,some ⟨8,[.setEnt .internalNl,.cb,.code],none,false⟩⟩,⟨256,.ff,false,some ⟨11,[.setEnt .internalNl,.cb],none,false⟩⟩,⟨256,.cr,false,some ⟨12,[.setEnt .internalNl,.cb],none,false⟩⟩,⟨256,.cr,true,some ⟨13,[.setEnt .internalNl,.cb],none,false⟩⟩,⟨34,.other,false,some ⟨0,[.setEnt .internalNl,.cb,.commit,.code],some 2,true⟩⟩,⟨35,.other,false,some ⟨8,[.setEnt .internalNl,.cb,.code],none,false⟩⟩,⟨39,.other,false,some ⟨8,[.setEnt .internalNl,.cb,.code],none,false⟩⟩,⟨42,.other,false,some ⟨8,[.setEnt .internalNl,.cb,.code],none,false⟩⟩,⟨47,.other,false,some ⟨8,[.setEnt .internalNl,.cb,.code],none,false⟩⟩,⟨92,.other,false,some ⟨14,[.setEnt .internalNl,.cb],none,false⟩⟩]⟩,⟨[28],none,[],[⟨256,.other,false,none⟩,⟨256,.ws,false,none⟩,⟨256,.lf,false,some ⟨25,[],none,false⟩⟩,⟨256,.vt,false,none⟩,⟨256,.ff,false,none⟩,⟨256,.cr,false,none⟩,⟨256,.cr,true,none⟩,⟨34,.other,false,none⟩,⟨35,.other,false,none⟩,⟨39,.other,false,none⟩,⟨42,.other,false,none⟩,⟨47,.other,false,none⟩,⟨92,.other,false,none⟩]⟩,⟨[28,32],none,[],[⟨256,.other,false,some ⟨8,[.setEnt .internalNl,.cb,.code],none,false⟩⟩,⟨256,.ws,false,some ⟨9,[.setEnt .internalNl,.cb,.code],none,false⟩⟩,⟨256,.lf,false,some ⟨26,[.setEnt .internalNl,.cb],none,false⟩⟩,⟨256,.vt,false,some ⟨8,[.setEnt .internalNl,.cb,.code],none,false⟩⟩,⟨256,.ff,false,some ⟨11,[.setEnt .internalNl,.cb],none,false⟩⟩,⟨256,.cr,false,some ⟨12,[.setEnt .internalNl,.cb],none,false⟩⟩,⟨256,.cr,true,some ⟨13,[.setEnt .internalNl,.cb],none,false⟩⟩,⟨34,.other,false,some ⟨0,[.setEnt .internalNl,.cb,.commit,.code],some 2,true⟩⟩,⟨35,.other,false,some ⟨8,[.setEnt .internalNl,.cb,.code],none,false⟩⟩,⟨39,.other,false,some ⟨8,[.setEnt .internalNl,.cb,.code],none,false⟩⟩,⟨42,.other,false,some ⟨8,[.setEnt .internalNl,.cb,.code],none,false⟩⟩,⟨47,.other,false,some ⟨8,[.setEnt .internalNl,.cb,.code],none,false⟩⟩,⟨92,.other,false,some ⟨14,[.setEnt .internalNl,.cb],none,false⟩⟩]⟩,⟨[35],none,[],[⟨256,.other,false,some ⟨27,[.code],none,false⟩⟩,⟨256,.ws,false,some ⟨27,[.code],none,false⟩⟩,⟨256,.lf,false,none⟩,⟨256,.vt,false,some ⟨27,[.code],none,false⟩⟩,⟨256,.ff,false,none⟩,⟨256,.cr,false,none⟩,⟨256,.cr,true,none⟩,⟨34,.other,false,some ⟨27,[.code],none,false⟩⟩,⟨35,.other,false,some ⟨27,[.code],none,false⟩⟩,⟨39,.other,false,some ⟨27,[.code],none,false⟩⟩,⟨42,.other,false,some ⟨27,[.code],none,false⟩⟩,⟨47,.other,false,some ⟨27,[.code],none,false⟩⟩,⟨92,.other,false,some ⟨27,[.code],none,false⟩⟩]⟩,⟨[4],some 1,[],[⟨256,.other,false,some ⟨15,[],some 1,false⟩⟩,⟨256,.ws,false,some ⟨15,[],some 1,false⟩⟩,⟨256,.lf,false,none⟩,⟨256,.vt,false,some ⟨15,[],some 1,false⟩⟩,⟨256,.ff,false,none⟩,⟨256,.cr,false,none⟩,⟨256,.cr,true,none⟩,⟨34,.other,false,some ⟨15,[],some 1,false⟩⟩,⟨35,.other,false,some ⟨15,[],some 1,false⟩⟩,⟨39,.other,false,some ⟨15,[],some 1,false⟩⟩,⟨42,.other,false,some ⟨15,[],some 1,false⟩⟩,⟨47,.other,false,some ⟨15,[],some 1,false⟩⟩,⟨92,.other,false,some ⟨15,[],some 1,false⟩⟩]⟩,⟨[23],none,[],[⟨256,.other,false,some ⟨16,[.code],none,false⟩⟩,⟨256,.ws,false,some ⟨17,[.code],none,false⟩⟩,⟨256,.lf,false,some ⟨18,[],none,false⟩⟩,⟨256,.vt,false,some ⟨16,[.code],none,false⟩⟩,⟨256,.ff,false,some ⟨19,[],none,false⟩⟩,⟨256,.cr,false,some ⟨20,[],none,false⟩⟩,⟨256,.cr,true,some ⟨21,[],none,false⟩⟩,⟨34,.other,false,some ⟨16,[.code],none,false⟩⟩,⟨35,.other,false,some ⟨16,[.code],none,false⟩⟩,⟨39,.other,false,some ⟨0,[.commit,.code],some 2,true⟩⟩,⟨42,.other,false,some ⟨16,[.code],none,false⟩⟩,⟨47,.other,false,some ⟨16,[.code],none,false⟩⟩,⟨92,.other,false,some ⟨22,[],none,false⟩⟩]⟩,⟨[22,23],none,[],[⟨256,.other,false,some ⟨16,[.code],none,false⟩⟩,⟨256,.ws,false,some ⟨17,[.code],none,false⟩⟩,⟨256,.lf,false,some ⟨18,[],none,false⟩⟩,⟨256,.vt,false,some ⟨16,[.code],none,false⟩⟩,⟨256,.ff,false,some ⟨19,[],none,false⟩⟩,⟨256,.cr,false,some ⟨20,[],none,false⟩⟩,⟨256,.cr,true,some ⟨21,[],none,false⟩⟩,⟨34,.other,false,some ⟨16,[.code],none,false⟩⟩,⟨35,.other,false,some ⟨16,[.code],none,false⟩⟩,⟨39,.other,false,some ⟨0,[.commit,.code],some 2,true⟩⟩,⟨42,.other,false,some ⟨16,[.code],none,false⟩⟩,⟨47,.other,false,some ⟨16,[.code],none,false⟩⟩,⟨92,.other,false,some ⟨22,[],none,false⟩⟩]⟩,⟨[19],none,[],[⟨256,.other,false,some ⟨16,[.setEnt .internalNl,.cb,.code],none,false⟩⟩,⟨256,.ws,false,some ⟨17,[.setEnt .internalNl,.cb,.code],none,false⟩⟩,⟨256,.lf,false,some ⟨18,[.setEnt .internalNl,.cb],none,false⟩⟩,⟨256,.vt,false,some ⟨16,[.setEnt .internalNl,.cb,.code],none,false⟩⟩,⟨256,.ff,false,some ⟨19,[.setEnt .internalNl,.cb],none,false⟩⟩,⟨256,.cr,false,some ⟨20,[.setEnt .internalNl,.cb],none,false⟩⟩,⟨256,.cr,true,some ⟨21,[.setEnt .internalNl,.cb],none,false⟩⟩,⟨34,.other,false,some ⟨16,[.setEnt .internalNl,.cb,.code],none,false⟩⟩,⟨35,.other,false,some ⟨16,[.setEnt .internalNl,.cb,.code],none,false⟩⟩,⟨39,.other,false,some ⟨0,[.setEnt .internalNl,.cb,.commit,.code],some 2,true⟩⟩,⟨42,.other,false,some ⟨16,[.setEnt .internalNl,.cb,.code],none,false⟩⟩,⟨47,.other,false,some ⟨16,[.setEnt .internalNl,.cb,.code],none,false⟩⟩,⟨92,.other,false,some ⟨22,[.setEnt .internalNl,.cb],none,false⟩⟩]⟩,⟨[20],none,[],[⟨256,.other,false,some ⟨16,[.setEnt .internalNl,.cb,.code],none,false⟩⟩,⟨256,.ws,false,some ⟨17,[.setEnt .internalNl,.cb,.code],none,false⟩⟩,⟨256,.lf,false,some ⟨18,[.setEnt .internalNl,.cb],none,false⟩⟩,⟨256,.vt,false,some ⟨16,[.setEnt .internalNl,.cb,.code],none,false⟩⟩,⟨256,.ff,false,some ⟨19,[.setEnt .internalNl,.cb],none,false⟩⟩,⟨256,.cr,false,some ⟨20,[.setEnt .internalNl,.cb],none,false⟩⟩,⟨256,.cr,true,some ⟨21,[.setEnt .internalNl,.cb],none,false⟩⟩,⟨34,.other,false,some ⟨16,[.setEnt .internalNl,.cb,.code],none,false⟩⟩,⟨35,.other,false,some ⟨16,[.setEnt .internalNl,.cb,.code],none,false⟩⟩,⟨39,.other,false,some ⟨0,[.setEnt .internalNl,.cb,.commit,.code],some 2,true⟩⟩,⟨42,.other,false,some ⟨16,[.setEnt .internalNl,.cb,.code],none,false⟩⟩,⟨47,.other,false,some ⟨16,[.setEnt .internalNl,.cb,.code],none,false⟩⟩,⟨92,.other,false,some ⟨22,[.setEnt .internalNl,.cb],none,false⟩⟩]⟩,⟨[17],none,[],[⟨256,.other,false,none⟩,⟨256,.ws,false,none⟩,⟨256,.lf,false,some ⟨28,[],none,false⟩⟩,⟨256,.vt,false,none⟩,⟨256,.ff,false,none⟩,⟨256,.cr,false,none⟩,⟨256,.cr,true,none⟩,⟨34,.other,false,none⟩,⟨35,.other,false,none⟩,⟨39,.other,false,none⟩,⟨42,.other,false,none⟩,⟨47,.other,false,none⟩,⟨92,.other,false,none⟩]⟩,⟨[17,21],none,[],[⟨256,.other,false,some ⟨16,[.setEnt .internalNl,.cb,.code],none,false⟩⟩,⟨256,.ws,false,some ⟨17,[.setEnt .internalNl,.cb,.code],none,false⟩⟩,⟨256,.lf,false,some ⟨29,[.setEnt .internalNl,.cb],none,false⟩⟩,⟨256,.vt,false,some ⟨16,[.setEnt .internalNl,.cb,.code],none,false⟩⟩,⟨256,.ff,false,some ⟨19,[.setEnt .internalNl,.cb],none,false⟩⟩,⟨256,.cr,false,some ⟨20,[.setEnt .internalNl,.cb],none,false⟩⟩,⟨256,.cr,true,some ⟨21,[.setEnt .internalNl,.cb],none,false⟩⟩,⟨34,.other,false,some ⟨16,[.setEnt .internalNl,.cb,.code],none,false⟩⟩,⟨35,.other,false,some ⟨16,[.setEnt .internalNl,.cb,.code],none,false⟩⟩,⟨39,.other,false,some ⟨0,[.setEnt .internalNl,.cb,.commit,.code],some 2,true⟩⟩,⟨42,.other,false,some ⟨16,[.setEnt .internalNl,.cb,.code],none,false⟩⟩,⟨47,.other,false,some ⟨16,[.setEnt .internalNl,.cb,.code],none,false⟩⟩,⟨92,.other,false,some ⟨22,[.setEnt .internalNl,.cb],none,false⟩⟩]⟩,⟨[24],none,[],[⟨256,.other,false,some ⟨30,[.code],none,false⟩⟩,⟨256,.ws,false,some ⟨30,[.code],none,false⟩⟩,⟨256,.lf,false,none⟩,⟨256,.vt,false,some ⟨30,[.code],none,false⟩⟩,⟨256,.ff,false,none⟩,⟨256,.cr,false,none⟩,⟨256,.cr,true,none⟩,⟨34,.other,false,some ⟨30,[.code],none,false⟩⟩,⟨35,.other,false,some ⟨30,[.code],none,false⟩⟩,⟨39,.other,false,some ⟨30,[.code],none,false⟩⟩,⟨42,.other,false,some ⟨30,[.code],none,false⟩⟩,⟨47,.other,false,some ⟨30,[.code],none,false⟩⟩,⟨92,.other,false,some ⟨30,[.code],none,false⟩⟩]⟩,⟨[6],none,[],[⟨256,.other,false,some ⟨31,[.comment],none,false⟩⟩,⟨256,.ws,false,some ⟨32,[],none,false⟩⟩,⟨256,.lf,false,some ⟨33,[],none,false⟩⟩,⟨256,.vt,false,some ⟨31,[.comment],none,false⟩⟩,⟨256,.ff,false,some ⟨34,[],none,false⟩⟩,⟨256,.cr,false,some ⟨35,[],none,false⟩⟩,⟨256,.cr,true,some ⟨36,[],none,false⟩⟩,⟨34,.other,false,some ⟨31,[.comment],none,false⟩⟩,⟨35,.other,false,some ⟨31,[.comment],none,false⟩⟩,⟨39,.other,false,some ⟨31,[.comment],none,false⟩⟩,⟨42,.other,false,some ⟨37,[.comment],none,false⟩⟩,⟨47,.other,false,some ⟨31,[.comment],none,false⟩⟩,⟨92,.other,false,some ⟨31,[.comment],none,false⟩⟩]⟩,⟨[2],some 1,[],[⟨256,.other,false,some ⟨15,[],some 1,false⟩⟩,⟨256,.ws,false,some ⟨15,[],some 1,false⟩⟩,⟨256,.lf,false,none⟩,⟨256,.vt,false,some ⟨15,[],some 1,false⟩⟩,⟨256,.ff,false,none⟩,⟨256,.cr,false,none⟩,⟨256,.cr,true,none⟩,⟨34,.other,false,some ⟨15,[],some 1,false⟩⟩,⟨35,.other,false,some ⟨15,[],some 1,false⟩⟩,⟨39,.other,false,some ⟨15,[],some 1,false⟩⟩,⟨42,.other,false,some ⟨15,[],some 1,false⟩⟩,⟨47,.other,false,some ⟨15,[],some 1,false⟩⟩,⟨92,.other,false,some ⟨15,[],some 1,false⟩⟩]⟩,⟨[29],none,[],[⟨256,.other,false,some ⟨8,[.setEnt .internalNl,.cb,.code],none,false⟩⟩,⟨256,.ws,false,some ⟨9,[.setEnt .internalNl,.cb,.code],none,false⟩⟩,⟨256,.lf,false,some ⟨10,[.setEnt .internalNl,.cb],none,false⟩⟩,⟨256,.vt,false,some ⟨8,[.setEnt .internalNl,.cb,.code],none,false⟩⟩,⟨256,.ff,false,some ⟨11,[.setEnt .internalNl,.cb],none,false⟩⟩,⟨256,.cr,false,some ⟨12,[.setEnt .internalNl,.cb],none,false⟩⟩,⟨256,.cr,true,some ⟨13,[.setEnt .internalNl,.cb],none,false⟩⟩,⟨34,.other,false,some ⟨0,[.setEnt .internalNl,.cb,.commit,.code],some 2,true⟩⟩,⟨35,.other,false,some ⟨8,[.setEnt .internalNl,.cb,.code],none,false⟩⟩,⟨39,.other,false,some ⟨8,[.setEnt .internalNl,.cb,.code],none,false⟩⟩,⟨42,.other,false,some ⟨8,[.setEnt .internalNl,.cb,.code],none,false⟩⟩,⟨47,.other,false,some ⟨8,[.setEnt .internalNl,.cb,.code],none,false⟩⟩,⟨92,.other,false,some ⟨14,[.setEnt .internalNl,.cb],none,false⟩⟩]⟩,⟨[29,30],none,[],[⟨256,.other,false,some ⟨8,[.setEnt .internalNl,.cb,.code],none,false⟩⟩,⟨256,.ws,false,some ⟨9,[.setEnt .internalNl,.cb,.code],none,false⟩⟩,⟨256,.lf,false,some ⟨10,[.setEnt .internalNl,.cb],none,false⟩⟩,⟨256,.vt,false,some ⟨8,[.setEnt .internalNl,.cb,.code],none,false⟩⟩,⟨256,.ff,false,some ⟨11,[.setEnt .internalNl,.cb],none,false⟩⟩,⟨256,.cr,false,some ⟨12,[.setEnt .internalNl,.cb],none,false⟩⟩,⟨256,.cr,true,some ⟨13,[.setEnt .internalNl,.cb],none,false⟩⟩,⟨34,.other,false,some ⟨0,[.setEnt .internalNl,.cb,.commit,.code],some 2,true⟩⟩,⟨35,.other,false,some ⟨8,[.setEnt .internalNl,.cb,.code],none,false⟩⟩,⟨39,.other,false,some ⟨8,[.setEnt .internalNl,.cb,.code],none,false⟩⟩,⟨42,.other,false,some ⟨8,[.setEnt .internalNl,.cb,.code],none,false⟩⟩,⟨47,.other,false,some ⟨8,[.setEnt .internalNl,.cb,.code],none,false⟩⟩,⟨92,.other,false,some ⟨14,[.setEnt .internalNl,.cb],none,false⟩⟩]⟩,⟨[36],none,[],[⟨256,.other,false,some ⟨8,[.code],none,false⟩⟩,⟨256,.ws,false,some ⟨9,[.code],none,false⟩⟩,⟨256,.lf,false,some ⟨10,[],none,false⟩⟩,⟨256,.vt,false,some ⟨8,[.code],none,false⟩⟩,⟨256,.ff,false,some ⟨11,[],none,false⟩⟩,⟨256,.cr,false,some ⟨12,[],none,false⟩⟩,⟨256,.cr,true,some ⟨13,[],none,false⟩⟩,⟨34,.other,false,some ⟨0,[.commit,.code],some 2,true⟩⟩,⟨35,.other,false,some ⟨8,[.code],none,false⟩⟩,⟨39,.other,false,some ⟨8,[.code],none,false⟩⟩,⟨42,.other,false,some ⟨8,[.code],none,false⟩⟩,⟨47,.other,false,some ⟨8,[.code],none,false⟩⟩,⟨92,.other,false,some ⟨14,[],none,false⟩⟩]⟩,⟨[18],none,[],[⟨256,.other,false,some ⟨16,[.setEnt .internalNl,.cb,.code],none,false⟩⟩,⟨256,.ws,false,some ⟨17,[.setEnt .internalNl,.cb,.code],none,false⟩⟩,⟨256,.lf,false,some ⟨18,[.setEnt .internalNl,.cb],none,false⟩⟩,⟨256,.vt,false,some ⟨16,[.setEnt .internalNl,.cb,.code],none,false⟩⟩,⟨256,.ff,false,some ⟨19,[.setEnt .internalNl,.cb],none,false⟩⟩,⟨256,.cr,false,some ⟨20,[.setEnt .internalNl,.cb],none,false⟩⟩,⟨256,.cr,true,some ⟨21,[.setEnt .internalNl,.cb],none,false⟩⟩,⟨34,.other,false,some ⟨16,[.setEnt .internalNl,.cb,.code],none,false⟩⟩,⟨35,.other,false,some ⟨16,[.setEnt .internalNl,.cb,.code],none,false⟩⟩,⟨39,.other,false,some ⟨0,[.setEnt .internalNl,.cb,.commit,.code],some 2,true⟩⟩,⟨42,.other,false,some ⟨16,[.setEnt .internalNl,.cb,.code],none,false⟩⟩,⟨47,.other,false,some ⟨16,[.setEnt .internalNl,.cb,.code],none,false⟩⟩,⟨92,.other,false,some ⟨22,[.setEnt .internalNl,.cb],none,false⟩⟩]⟩,⟨[18,19],none,[],[⟨256,.other,false,some ⟨16,[.setEnt .internalNl,.cb,.code],none,false⟩⟩,⟨256,.ws,false,some ⟨17,[.setEnt .internalNl,.cb,.code],none,false⟩⟩,⟨256,.lf,false,some ⟨18,[.setEnt .internalNl,.cb],none,false⟩⟩,⟨256,.vt,false,some ⟨16,[.setEnt .internalNl,.cb,.code],none,false⟩⟩,⟨256,.ff,false,some ⟨19,[.setEnt .internalNl,.cb],none,false⟩⟩,⟨256,.cr,false,some ⟨20,[.setEnt .internalNl,.cb],none,false⟩⟩,⟨256,.cr,true,some ⟨21,[.setEnt .internalNl,.cb],none,false⟩⟩,⟨34,.other,false,some ⟨16,[.setEnt .internalNl,.cb,.code],none,false⟩⟩,⟨35,.other,false,some ⟨16,[.setEnt .internalNl,.cb,.code],none,false⟩⟩,⟨39,.other,false,some ⟨0,[.setEnt .internalNl,.cb,.commit,.code],some 2,true⟩⟩,⟨42,.other,false,some ⟨16,[.setEnt .internalNl,.cb,.code],none,false⟩⟩,⟨47,.other,false,some ⟨16,[.setEnt .internalNl,.cb,.code],none,false⟩⟩,⟨92,.other,false,some ⟨22,[.setEnt .internalNl,.cb],none,false⟩⟩]⟩,⟨[25],none,[],[⟨256,.other,false,some ⟨16,[.code],none,false⟩⟩,⟨256,.ws,false,some ⟨17,[.code],none,false⟩⟩,⟨256,.lf,false,some ⟨18,[],none,false⟩⟩,⟨256,.vt,false,some ⟨16,[.code],none,false⟩⟩,⟨256,.ff,false,some ⟨19,[],none,false⟩⟩,⟨256,.cr,false,some ⟨20,[],none,false⟩⟩,⟨256,.cr,true,some ⟨21,[],none,false⟩⟩,⟨34,.other,false,some ⟨16,[.code],none,false⟩⟩,⟨35,.other,false,some ⟨16,[.code],none,false⟩⟩,⟨39,.other,false,some ⟨0,[.commit,.code],some 2,true⟩⟩,⟨42,.other,false,some ⟨16,[.code],none,false⟩⟩,⟨47,.other,false,some ⟨16,[.code],none,false⟩⟩,⟨92,.other,false,some ⟨22,[],none,false⟩⟩]⟩,⟨[13],none,[],[⟨256,.other,false,some ⟨31,[.comment],none,false⟩⟩,⟨256,.ws,false,some ⟨32,[],none,false⟩⟩,⟨256,.lf,false,some ⟨33,[],none,false⟩⟩,⟨256,.vt,false,some ⟨31,[.comment],none,false⟩⟩,⟨256,.ff,false,some ⟨34,[],none,false⟩⟩,⟨256,.cr,false,some ⟨35,[],none,false⟩⟩,⟨256,.cr,true,some ⟨36,[],none,false⟩⟩,⟨34,.other,false,some ⟨31,[.comment],none,false⟩⟩,⟨35,.other,false,some ⟨31,[.comment],none,false⟩⟩,⟨39,.other,false,some ⟨31,[.comment],none,false⟩⟩,⟨42,.other,false,some ⟨37,[.comment],none,false⟩⟩,⟨47,.other,false,some ⟨31,[.comment],none,false⟩⟩,⟨92,.other,false,some ⟨31,[.comment],none,false⟩⟩]⟩,⟨[12],none,[],[⟨256,.other,false,some ⟨31,[.comment],none,false⟩⟩,⟨256,.ws,false,some ⟨32,[],none,false⟩⟩,⟨256,.lf,false,some ⟨33,[],none,false⟩⟩,⟨256,.vt,false,some ⟨31,[.comment],none,false⟩⟩,⟨256,.ff,false,some ⟨34,[],none,false⟩⟩,⟨256,.cr,false,some ⟨35,[],none,false⟩⟩,⟨256,.cr,true,some ⟨36,[],none,false⟩⟩,⟨34,.other,false,some ⟨31,[.comment],none,false⟩⟩,⟨35,.other,false,some ⟨31,[.comment],none,false⟩⟩,⟨39,.other,false,some ⟨31,[.comment],none,false⟩⟩,⟨42,.other,false,some ⟨37,[.comment],none,false⟩⟩,⟨47,.other,false,some ⟨31,[.comment],none,false⟩⟩,⟨92,.other,false,some ⟨31,[.comment],none,false⟩⟩]⟩,⟨[9],none,[],[⟨256,.other,false,some ⟨31,[.setEnt .internalNl,.cb,.comment],none,false⟩⟩,⟨256,.ws,false,some ⟨32,[.setEnt .internalNl,.cb],none,false⟩⟩,⟨256,.lf,false,some ⟨33,[.setEnt .internalNl,.cb],none,false⟩⟩,⟨256,.vt,false,some ⟨31,[.setEnt .internalNl,.cb,.comment],none,false⟩⟩,⟨256,.ff,false,some ⟨34,[.setEnt .internalNl,.cb],none,false⟩⟩,⟨256,.cr,false,some ⟨35,[.setEnt .internalNl,.cb],none,false⟩⟩,⟨256,.cr,true,some ⟨36,[.setEnt .internalNl,.cb],none,false⟩⟩,⟨34,.other,false,some ⟨31,[.setEnt .internalNl,.cb,.comment],none,false⟩⟩,⟨35,.other,false,some ⟨31,[.setEnt .internalNl,.cb,.comment],none,false⟩⟩,⟨39,.other,false,some ⟨31,[.setEnt .internalNl,.cb,.comment],none,false⟩⟩,⟨42,.other,false,some ⟨37,[.setEnt .internalNl,.cb,.comment],none,false⟩⟩,⟨47,.other,false,some ⟨31,[.setEnt .internalNl,.cb,.comment],none,false⟩⟩,⟨92,.other,false,some ⟨31,[.setEnt .internalNl,.cb,.comment],none,false⟩⟩]⟩,⟨[10],none,[],[⟨256,.other,false,some ⟨31,[.setEnt .internalNl,.cb,.comment],none,false⟩⟩,⟨256,.ws,false,some ⟨32,[.setEnt .internalNl,.cb],none,false⟩⟩,⟨256,.lf,false,some ⟨33,[.setEnt .internalNl,.cb],none,false⟩⟩,⟨256,.vt,false,some ⟨31,[.setEnt .internalNl,.cb,.comment],none,false⟩⟩,⟨256,.ff,false,some ⟨34,[.setEnt .internalNl,.cb],none,false⟩⟩,⟨256,.cr,false,some ⟨35,[.setEnt .internalNl,.cb],none,false⟩⟩,⟨256,.cr,true,some ⟨36,[.setEnt .internalNl,.cb],none,false⟩⟩,⟨34,.other,false,some ⟨31,[.setEnt .internalNl,.cb,.comment],none,false⟩⟩,⟨35,.other,false,some ⟨31,[.setEnt .internalNl,.cb,.comment],none,false⟩⟩,⟨39,.other,false,some ⟨31,[.setEnt .internalNl,.cb,.comment],none,false⟩⟩,⟨42,.other,false,some ⟨37,[.setEnt .internalNl,.cb,.comment],none,false⟩⟩,⟨47,.other,false,some ⟨31,[.setEnt .internalNl,.cb,.comment],none,false⟩⟩,⟨92,.other,false,some ⟨31,[.setEnt .internalNl,.cb,.comment],none,false⟩⟩]⟩,⟨[7],none,[],[⟨256,.other,false,none⟩,⟨256,.ws,false,none⟩,⟨256,.lf,false,some ⟨38,[],none,false⟩⟩,⟨256,.vt,false,none⟩,⟨256,.ff,false,none⟩,⟨256,.cr,false,none⟩,⟨256,.cr,true,none⟩,⟨34,.other,false,none⟩,⟨35,.other,false,none⟩,⟨39,.other,false,none⟩,⟨42,.other,false,none⟩,⟨47,.other,false,none⟩,⟨92,.other,false,none⟩]⟩,⟨[7,11],none,[],[⟨256,.other,false,some ⟨31,[.setEnt .internalNl,.cb,.comment],none,false⟩⟩,⟨256,.ws,false,some ⟨32,[.setEnt .internalNl,.cb],none,false⟩⟩,⟨256,.lf,false,some ⟨39,[.setEnt .internalNl,.cb],none,false⟩⟩,⟨256,.vt,false,some ⟨31,[.setEnt .internalNl,.cb,.comment],none,false⟩⟩,⟨256,.ff,false,some ⟨34,[.setEnt .internalNl,.cb],none,false⟩⟩,⟨256,.cr,false,some ⟨35,[.setEnt .internalNl,.cb],none,false⟩⟩,⟨256,.cr,true,some ⟨36,[.setEnt .internalNl,.cb],none,false⟩⟩,⟨34,.other,false,some ⟨31,[.setEnt .internalNl,.cb,.comment],none,false⟩⟩,⟨35,.other,false,some ⟨31,[.setEnt .internalNl,.cb,.comment],none,false⟩⟩,⟨39,.other,false,some ⟨31,[.setEnt .internalNl,.cb,.comment],none,false⟩⟩,⟨42,.other,false,some ⟨37,[.setEnt .internalNl,.cb,.comment],none,false⟩⟩,⟨47,.other,false,some ⟨31,[.setEnt .internalNl,.cb,.comment],none,false⟩⟩,⟨92,.other,false,some ⟨31,[.setEnt .internalNl,.cb,.comment],none,false⟩⟩]⟩,⟨[13,14],none,[],[⟨256,.other,false,some ⟨31,[.comment],none,false⟩⟩,⟨256,.ws,false,some ⟨32,[],none,false⟩⟩,⟨256,.lf,false,some ⟨33,[],none,false⟩⟩,⟨256,.vt,false,some ⟨31,[.comment],none,false⟩⟩,⟨256,.ff,false,some ⟨34,[],none,false⟩⟩,⟨256,.cr,false,some ⟨35,[],none,false⟩⟩,⟨256,.cr,true,some ⟨36,[],none,false⟩⟩,⟨34,.other,false,some ⟨31,[.comment],none,false⟩⟩,⟨35,.other,false,some ⟨31,[.comment],none,false⟩⟩,⟨39,.other,false,some ⟨31,[.comment],none,false⟩⟩,⟨42,.other,false,some ⟨37,[.comment],none,false⟩⟩,⟨47,.other,false,some ⟨0,[],some 1,true⟩⟩,⟨92,.other,false,some ⟨31,[.comment],none,false⟩⟩]⟩,⟨[8],none,[],[⟨256,.other,false,some ⟨31,[.setEnt .internalNl,.cb,.comment],none,false⟩⟩,⟨256,.ws,false,some ⟨32,[.setEnt .internalNl,.cb],none,false⟩⟩,⟨256,.lf,false,some ⟨33,[.setEnt .internalNl,.cb],none,false⟩⟩,⟨256,.vt,false,some ⟨31,[.setEnt .internalNl,.cb,.comment],none,false⟩⟩,⟨256,.ff,false,some ⟨34,[.setEnt .internalNl,.cb],none,false⟩⟩,⟨256,.cr,false,some ⟨35,[.setEnt .internalNl,.cb],none,false⟩⟩,⟨256,.cr,true,some ⟨36,[.setEnt .internalNl,.cb],none,false⟩⟩,⟨34,.other,false,some ⟨31,[.setEnt .internalNl,.cb,.comment],none,false⟩⟩,⟨35,.other,false,some ⟨31,[.setEnt .internalNl,.cb,.comment],none,false⟩⟩,⟨39,.other,false,some ⟨31,[.setEnt .internalNl,.cb,.comment],none,false⟩⟩,⟨42,.other,false,some ⟨37,[.setEnt .internalNl,.cb,.comment],none,false⟩⟩,⟨47,.other,false,some ⟨31,[.setEnt .internalNl,.cb,.comment],none,false⟩⟩,⟨92,.other,false,some ⟨31,[.setEnt .internalNl,.cb,.comment],none,false⟩⟩]⟩,⟨[8,9],none,[],[⟨256,.other,false,some ⟨31,[.setEnt .internalNl,.cb,.comment],none,false⟩⟩,⟨256,.ws,false,some ⟨32,[.setEnt .internalNl,.cb],none,false⟩⟩,⟨256,.lf,false,some ⟨33,[.setEnt .internalNl,.cb],none,false⟩⟩,⟨256,.vt,false,some ⟨31,[.setEnt .internalNl,.cb,.comment],none,false⟩⟩,⟨256,.ff,false,some ⟨34,[.setEnt .internalNl,.cb],none,false⟩⟩,⟨256,.cr,false,some ⟨35,[.setEnt .internalNl,.cb],none,false⟩⟩,⟨256,.cr,true,some ⟨36,[.setEnt .internalNl,.cb],none,false⟩⟩,⟨34,.other,false,some ⟨31,[.setEnt .internalNl,.cb,.comment],none,false⟩⟩,⟨35,.other,false,some ⟨31,[.setEnt .internalNl,.cb,.comment],none,false⟩⟩,⟨39,.other,false,some ⟨31,[.setEnt .internalNl,.cb,.comment],none,false⟩⟩,⟨42,.other,false,some ⟨37,[.setEnt .internalNl,.cb,.comment],none,false⟩⟩,⟨47,.other,false,some ⟨31,[.setEnt .internalNl,.cb,.comment],none,false⟩⟩,⟨92,.other,false,some ⟨31,[.setEnt .internalNl,.cb,.comment],none,false⟩⟩]⟩]
theorem php_line_lrowsOk : rowsOk php_line_nfa php_line_lex.rel (php_line_lcs.map (·.1)) php_line_lrows = true := by decide +kernel
def php_line_lfr : List CA.FRow := [⟨true,none,[],[⟨256,.other,false,false,none,some ([.setEnt (.own 3)],(some 4,true))⟩,⟨9,.ws,false,false,some 1,some ([.setEnt (.own 0)],(some 0,false))⟩,⟨10,.lf,false,true,none,some ([.setEnt .newline],(some 3,true))⟩,⟨11,.vt,false,false,none,none⟩,⟨12,.ff,false,true,none,some ([.setEnt .newline],(some 3,true))⟩,⟨13,.cr,false,false,some 2,some ([.setEnt .newline],(none,false))⟩,⟨13,.cr,true,true,some 3,some ([.setEnt .newline],(some 3,false))⟩,⟨34,.other,false,false,some 4,some ([.enqueue,.code,.setEnt (.own 3)],(some 4,false))⟩,⟨35,.other,false,false,some 5,some ([.comment,.setEnt (.own 3)],(some 1,false))⟩,⟨39,.other,false,false,some 6,some ([.enqueue,.code,.setEnt (.own 3)],(some 4,false))⟩,⟨42,.other,false,false,none,some ([.setEnt (.own 3)],(some 4,true))⟩,⟨47,.other,false,false,some 7,some ([.setEnt (.own 3)],(some 4,false))⟩,⟨92,.other,false,false,none,some ([.setEnt (.own 3)],(some 4,true))⟩]⟩,⟨false,some 0,[],[⟨256,.other,false,false,none,none⟩,⟨9,.ws,false,false,some 1,some ([.setEnt (.own 0)],(some 0,false))⟩,⟨10,.lf,false,true,none,none⟩,⟨11,.vt,false,false,none,none⟩,⟨12,.ff,false,true,none,none⟩,⟨13,.cr,false,false,none,none⟩,⟨13,.cr,true,true,none,none⟩,⟨34,.other,false,false,none,none⟩,⟨35,.other,false,false,none,none⟩,⟨39,.other,false,false,none,none⟩,⟨42,.other,false,false,none,none⟩,⟨47,.other,false,false,none,none⟩,⟨92,.other,false,false,none,none⟩]⟩,⟨false,none,[],[⟨256,.other,false,false,none,none⟩,⟨9,.ws,false,false,none,none⟩,⟨10,.lf,false,true,none,some ([.setEnt .newline],(some 3,true))⟩,⟨11,.vt,false,false,none,none⟩,⟨12,.ff,false,true,none,none⟩,⟨13,.cr,false,false,none,none⟩,⟨13,.cr,true,true,none,none⟩,⟨34,.other,false,false,none,none⟩,⟨35,.other,false,false,none,none⟩,⟨39,.other,false,false,none,none⟩,⟨42,.other,false,false,none,none⟩,⟨47,.other,false,false,none,none⟩,⟨92,.other,false,false,none,none⟩]⟩,⟨false,some 3,[],[⟨256,.other,false,false,none,none⟩,⟨9,.ws,false,false,none,none⟩,⟨10,.lf,false,true,none,some ([.setEnt .newline],(some 3,true))⟩,⟨11,.vt,false,false,none,none⟩,⟨12,.ff,false,true,none,none⟩,⟨13,.cr,false,false,none,none⟩,⟨13,.cr,true,true,none,none⟩,⟨34,.other,false,false,none,none⟩,⟨35,.other,false,false,none,none⟩,⟨39,.other,false,false,none,none⟩,⟨42,.other,false,false,none,none⟩,⟨47,.other,false,false,none,none⟩,⟨92,.other,false,false,none,none⟩]⟩,⟨false,some 4,[],[⟨256,.other,false,false,some 8,some ([.code],(none,false))⟩,⟨9,.ws,false,false,some 9,some ([.code],(none,false))⟩,⟨10,.lf,false,true,some 10,some ([],(none,false))⟩,⟨11,.vt,false,false,some 8,some ([.code],(none,false))⟩,⟨12,.ff,false,true,some 11,some ([],(none,false))⟩,⟨13,.cr,false,false,some 12,some ([],(none,false))⟩,⟨13,.cr,true,true,some 13,some ([],(none,false))⟩,⟨34,.other,false,false,none,some ([.commit,.code],(some 2,true))⟩,⟨35,.other,false,false,some 8,some ([.code],(none,false))⟩,⟨39,.other,false,false,some 8,some ([.code],(none,false))⟩,⟨42,.other,false,false,some 8,some ([.code],(none,false))⟩,⟨47,.other,false,false,some 8,some ([.code],(none,false))⟩,⟨92,.other,false,false,some 14,some ([],(none,false))⟩]⟩,⟨false,some 1,[],[⟨256,.other,false,false,some 15,some ([],(some 1,false))⟩,⟨9,.ws,false,false,some 15,some ([],(some 1,false))⟩,⟨10,.lf,false,true,none,none⟩,⟨11,.vt,false,false,some 15,some ([],(some 1,false))⟩,⟨12,.ff,false,true,none,none⟩,⟨13,.cr,false,false,none,none⟩,⟨13,.cr,true,true,none,none⟩,⟨34,.other,false,false,some 15,some ([],(some 1,false))⟩,⟨35,.other,false,false,some 15,some ([],(some 1,false))⟩,⟨39,.other,false,false,some 15,some ([],(some 1,false))⟩,⟨42,.other,false,false,some 15,some ([],(some 1,false))⟩,⟨47,.other,false,false,some 15,some ([],(some 1,false))⟩,⟨92,.other,false,false,some 15,some ([],(some 1,false))⟩]⟩,⟨false,some 4,[],[⟨256,.other,false,false,some 16,some ([.code],(none,false))⟩,⟨9,.ws,false,false,some 17,some ([.code],(none,false))⟩,⟨10,.lf,false,true,some 18,some ([],(none,false))⟩,⟨11,.vt,false,false,some 16,some ([.code],(none,false))⟩,⟨12,.ff,false,true,some 19,some ([],(none,false))⟩,⟨13,.cr,false,false,some 20,some ([],(none,false))⟩,⟨13,.cr,true,true,some 21,some ([],(none,false))⟩,⟨34,.other,false,false,some 16,some ([.code],(none,false))⟩,⟨35,.other,false,false,some 16,some ([.code],(none,false))⟩,⟨39,.other,false,false,none,some ([.commit,.code],(some 2,true))⟩,⟨42,.other,false,false,some 16,some ([.code],(none,false))⟩,⟨47,.other,false,false,some 16,some ([.code],(none,false))⟩,⟨92,.other,false,false,some 22,some ([],(none,false))⟩]⟩,⟨false,some 4,[],[⟨256,.other,false,false,none,none⟩,⟨9,.ws,false,false,none,none⟩,⟨10,.lf,false,true,none,none⟩,⟨11,.vt,false,false,none,none⟩,⟨12,.ff,false,true,none,none⟩,⟨13,.cr,false,false,none,none⟩,⟨13,.cr,true,true,none,none⟩,⟨34,.other,false,false,none,none⟩,⟨35,.other,false,false,none,none⟩,⟨39,.other,false,false,none,none⟩,⟨42,.other,false,false,some 23,some ([.comment],(none,false))⟩,⟨47,.other,false,false,some 24,some ([.comment],(some 1,false))⟩,⟨92,.other,false,false,none,none⟩]⟩,⟨false,none,[],[⟨256,.other,false,false,some 8,some ([.code],(none,false))⟩,⟨9,.ws,false,false,some 9,some ([.code],(none,false))⟩,⟨10,.lf,false,true,some 10,some ([],(none,false))⟩,⟨11,.vt,false,false,some 8,some ([.code],(none,false))⟩,⟨12,.ff,false,true,some 11,some ([],(none,false))⟩,⟨13,.cr,false,false,some 12,some ([],(none,false))⟩,⟨13,.cr,true,true,some 13,some ([],(none,false))⟩,⟨34,.other,false,false,none,some ([.commit,.code],(some 2,true))⟩,⟨35,.other,false,false,some 8,some ([.code],(none,false))⟩,⟨39,.other,false,false,some 8,some ([.code],(none,false))⟩,⟨42,.other,false,false,some 8,some ([.code],(none,false))⟩,⟨47,.other,false,false,some 8,some ([.code],(none,false))⟩,⟨92,.other,false,false,some 14,some ([],(none,false))⟩]⟩,⟨false,none,[],[⟨256,.other,false,false,some 8,some ([.code],(none,false))⟩,⟨9,.ws,false,false,some 9,some ([.code],(none,false))⟩,⟨10,.lf,false,true,some 10,some ([],(none,false))⟩,⟨11,.vt,false,false,some 8,some ([.code],(none,false))⟩,⟨12,.ff,false,true,some 11,some ([],(none,false))⟩,⟨13,.cr,false,false,some 12,some ([],(none,false))⟩,⟨13,.cr,true,true,some 13,some ([],(none,false))⟩,⟨34,.other,false,false,none,some ([.commit,.code],(some 2,true))⟩,⟨35,.other,false,false,some 8,some ([.code],(none,false))⟩,⟨39,.other,false,false,some 8,some ([.code],(none,false))⟩,⟨42,.other,false,false,some 8,some ([.code],(none,false))⟩,⟨47,.other,false,false,some 8,some ([.code],(none,false))⟩,⟨92,.other,false,false,some 14,some ([],(none,false))⟩]⟩,⟨false,none,[],[⟨256,.other,false,false,some 8,some ([.setEnt .internalNl,.cb,.code],(none,false))⟩,⟨9,.ws,false,false,some 9,some ([.setEnt .internalNl,.cb,.code],(none,false))⟩,⟨10,.lf,false,true,some 10,some ([.setEnt .internalNl,.cb],(none,false))⟩,⟨11,.vt,false,false,some 8,some ([.setEnt .internalNl,.cb,.code],(none,false))⟩,⟨12,.ff,false,true,some 11,some ([.setEnt .internalNl,.cb],(none,false))⟩,⟨13,.cr,false,false,some 12,some ([.setEnt .internalNl,.cb],(none,false))⟩,⟨13,.cr,true,true,some 13,some ([.setEnt .internalNl,.cb],(none,false))⟩,⟨34,.other,false,false,none,some ([.setEnt .internalNl,.cb,.commit,.code],(some 2,true))⟩,⟨35,.other,false,false,some 8,some ([.setEnt .internalNl,.cb,.code],(none,false))⟩,⟨39,.other,false,false,some 8,some ([.setEnt .internalNl,.cb,.code],(none,false))⟩,⟨42,.other,false,false,some 8,some ([.setEnt .internalNl,.cb,.code],(none,false))⟩,⟨47,.other,false,false,some 8,some ([.setEnt .internalNl,.cb,.code],(none,false))⟩,⟨92,.other,false,false,some 14,some ([.setEnt .internalNl,.cb],(none,false))⟩]⟩,⟨false,none,[],[⟨256,.other,false,false,some 8,some ([.setEnt .internalNl,.cb,.code],(none,false))⟩,⟨9,.ws,false,false,some 9,some ([.setEnt .internalNl,.cb,.code],(none,false))⟩,⟨10,.lf,false,true,some 10,some ([.setEnt .internalNl,.cb],(none,false))⟩,⟨11,.vt,false,false,some 8,some ([.setEnt .internalNl,.cb,.code],(none,false))⟩,⟨12,.ff,false,true,some 11,some ([.setEnt .internalNl,.cb],(none,false))⟩,⟨13,.cr,false,false,some 12,some ([.setEnt .internalNl,.cb],(none,false))⟩,⟨13,.cr,true,true,some 13,some ([.setEnt .internalNl,.cb],(none,false))⟩,⟨34,.other,false,false,none,some ([.setEnt .internalNl,.cb,.commit,.code],(some 2,true))⟩,⟨35,.other,false,false,some 8,some ([.setEnt .internalNl,.cb,.code],(none,false))⟩,⟨39,.other,false,false,some 8,some ([.setEnt .internalNl,.cb,.code],(none,false))⟩,⟨42,.other,false,false,some 8,some ([.setEnt .internalNl,.cb,.code],(none,false))⟩,⟨47,.other,false,false,some 8,some ([.setEnt .internalNl,.cb,.code],(none,false))⟩,⟨92,.other,false,false,some 14,some ([.setEnt .internalNl,.cb],(none,false))⟩]⟩,⟨false,none,[],[⟨256,.other,false,false,none,none⟩,⟨9,.ws,false,false,none,none⟩,⟨10,.lf,false,true,some 25,some ([],(none,false))⟩,⟨11,.vt,false,false,none,none⟩,⟨12,.ff,false,true,none,none⟩,⟨13,.cr,false,false,none,none⟩,⟨13,.cr,true,true,none,none⟩,⟨34,.other,false,false,none,none⟩,⟨35,.other,false,false,none,none⟩,⟨39,.other,false,false,none,none⟩,⟨42,.other,false,false,none,none⟩,⟨47,.other,false,false,none,none⟩,⟨92,.other,false,false,none,none⟩]⟩,⟨false,none,[],[⟨256,.other,false,false,some 8,some ([.setEnt .internalNl,.cb,.code],(none,false))⟩,⟨9,.ws,false,false,some 9,some ([.setEnt .internalNl,.cb,.code],(none,false))⟩,⟨10,.lf,false,true,some 26,some ([.setEnt .internalNl,.cb],(none,false))⟩,⟨11,.vt,false,false,some 8,some ([.setEnt .internalNl,.cb,.code],(none,false))⟩,⟨12,.ff,false,true,some 11,some ([.setEnt .internalNl,.cb],(none,false))⟩,⟨13,.cr,false,false,some 12,some ([.setEnt .internalNl,.cb],(none,false))⟩,⟨13,.cr,true,true,some 13,some ([.setEnt .internalNl,.cb],(none,false))⟩,⟨34,.other,false,false,none,some ([.setEnt .internalNl,.cb,.commit,.code],(some 2,true))⟩,⟨35,.other,false,false,some 8,some ([.setEnt .internalNl,.cb,.code],(none,false))⟩,⟨39,.other,false,false,some 8,some ([.setEnt .internalNl,.cb,.code],(none,false))⟩,⟨42,.other,false,false,some 8,some ([.setEnt .internalNl,.cb,.code],(none,false))⟩,⟨47,.other,false,false,some 8,some ([.setEnt .internalNl,.cb,.code],(none,false))⟩,⟨92,.other,false,false,some 14,some ([.setEnt .internalNl,.cb],(none,false))⟩]⟩,⟨false,none,[],[⟨256,.other,false,false,some 27,some ([.code],(none,false))⟩,⟨9,.ws,false,false,some 27,some ([.code],(none,false))⟩,⟨10,.lf,false,true,none,none⟩,⟨11,.vt,false,false,some 27,some ([.code],(none,false))⟩,⟨12,.ff,false,true,none,none⟩,⟨13,.cr,false,false,none,none⟩,⟨13,.cr,true,true,none,none⟩,⟨34,.other,false,false,some 27,some ([.code],(none,false))⟩,⟨35,.other,false,false,some 27,some ([.code],(none,false))⟩,⟨39,.other,false,false,some 27,some ([.code],(none,false))⟩,⟨42,.other,false,false,some 27,some ([.code],(none,false))⟩,⟨47,.other,false,false,some 27,some ([.code],(none,false))⟩,⟨92,.other,false,false,some 27,some ([.code],(none,false))⟩]⟩,⟨false,some 1,[],[⟨256,.other,false,false,some 15,some ([],(some 1,false))⟩,⟨9,.ws,false,false,some 15,some ([],(some 1,false))⟩,⟨10,.lf,false,true,none,none⟩,⟨11,.vt,false,false,some 15,some ([],(some 1,false))⟩,⟨12,.ff,false,true,none,none⟩,⟨13,.cr,false,false,none,none⟩,⟨13,.cr,true,true,none,none⟩,⟨34,.other,false,false,some 15,some ([],(some 1,false))⟩,⟨35,.other,false,false,some 15,some ([],(some 1,false))⟩,⟨39,.other,false,false,some 15,some ([],(some 1,false))⟩,⟨42,.other,false,false,some 15,some ([],(some 1,false))⟩,⟨47,.other,false,false,some 15,some ([],(some 1,false))⟩,⟨92,.other,false,false,some 15,some ([],(some 1,false))⟩]⟩,⟨false,none,[],[⟨256,.other,false,false,some 16,some ([.code],(none,false))⟩,⟨9,.ws,false,false,some 17,some ([.code],(none,false))⟩,⟨10,.lf,false,true,some 18,some ([],(none,false))⟩,⟨11,.vt,false,false,some 16,some ([.code],(none,false))⟩,⟨12,.ff,false,true,some 19,some ([],(none,false))⟩,⟨13,.cr,false,false,some 20,some ([],(none,false))⟩,⟨13,.cr,true,true,some 21,some ([],(none,false))⟩,⟨34,.other,false,false,some 16,some ([.code],(none,false))⟩,⟨35,.other,false,false,some 16,some ([.code],(none,false))⟩,⟨39,.other,false,false,none,some ([.commit,.code],(some 2,true))⟩,⟨42,.other,false,false,some 16,some ([.code],(none,false))⟩,⟨47,.other,false,false,some 16,some ([.code],(none,false))⟩,⟨92,.other,false,false,some 22,some ([],(none,false))⟩]⟩,⟨false,none,[],[⟨256,.other,false,false,some 16,some ([.code],(none,false))⟩,⟨9,.ws,false,false,some 17,some ([.code],(none,false))⟩,⟨10,.lf,false,true,some 18,some ([],(none,false))⟩,⟨11,.vt,false,false,some 16,some ([.code],(none,false))⟩,⟨12,.ff,false,true,some 19,some ([],(none,false))⟩,⟨13,.cr,false,false,some 20,some ([],(none,false))⟩,⟨13,.cr,true,true,some 21,some ([],(none,false))⟩,⟨34,.other,false,false,some 16,some ([.code],(none,false))⟩,⟨35,.other,false,false,some 16,some ([.code],(none,false))⟩,⟨39,.other,false,false,none,some ([.commit,.code],(some 2,true))⟩,⟨42,.other,false,false,some 16,some ([.code],(none,false))⟩,⟨47,.other,false,false,some 16,some ([.code],(none,false))⟩,⟨92,.other,false,false,some 22,some ([],(none,false))⟩]⟩,⟨false,none,[],[⟨256,.other,false,false,some 16,some ([.setEnt .internalNl,.cb,.code],(none,false))⟩,⟨9,.ws,false,false,some 17,some ([.setEnt .internalNl,.cb,.code],(none,false))⟩,⟨10,.lf,false,true,some 18,some ([.setEnt .internalNl,.cb],(none,false))⟩,⟨11,.vt,false,false,some 16,some ([.setEnt .internalNl,.cb,.code],(none,false))⟩,⟨12,.ff,false,true,some 19,some ([.setEnt .internalNl,.cb],(none,false))⟩,⟨13,.cr,false,false,some 20,some ([.setEnt .internalNl,.cb],(none,false))⟩,⟨13,.cr,true,true,some 21,some ([.setEnt .internalNl,.cb],(none,false))⟩,⟨34,.other,false,false,some 16,some ([.setEnt .internalNl,.cb,.code],(none,false))⟩,⟨35,.other,false,false,some 16,some ([.setEnt .internalNl,.cb,.code],(none,false))⟩,⟨39,.other,false,false,none,some ([.setEnt .internalNl,.cb,.commit,.code],(some 2,true))⟩,⟨42,.other,false,false,some 16,some ([.setEnt .internalNl,.cb,.code],(none,false))⟩,⟨47,.other,false,false,some 16,some ([.setEnt .internalNl,.cb,.code],(none,false))⟩,⟨92,.other,false,false,some 22,some ([.setEnt .internalNl,.cb],(none,false))⟩]⟩,⟨false,none,[],[⟨256,.other,false,false,some 16,some ([.setEnt .internalNl,.cb,.code],(none,false))⟩,⟨9,.ws,false,false,some 17,some ([.setEnt .internalNl,.cb,.code],(none,false))⟩,⟨10,.lf,false,true,some 18,some ([.setEnt .internalNl,.cb],(none,false))⟩,⟨11,.vt,false,false,some 16,some ([.setEnt .internalNl,.cb,.code],(none,false))⟩,⟨12,.ff,false,true,some 19,some ([.setEnt .internalNl,.cb],(none,false))⟩,⟨13,.cr,false,false,some 20,some ([.setEnt .internalNl,.cb],(none,false))⟩,⟨13,.cr,true,true,some 21,some ([.setEnt .internalNl,.cb],(none,false))⟩,⟨34,.other,false,false,some 16,some ([.setEnt .internalNl,.cb,.code],(none,false))⟩,⟨35,.other,false,false,some 16,some ([.setEnt .internalNl,.cb,.code],(none,false))⟩,⟨39,.other,false,false,none,some ([.setEnt .internalNl,.cb,.commit,.code],(some 2,true))⟩,⟨42,.other,false,false,some 16,some ([.setEnt .internalNl,.cb,.code],(none,false))⟩,⟨47,.other,false,false,some 16,some ([.setEnt .internalNl,.cb,.code],(none,false))⟩,⟨92,.other,false,false,some 22,some ([.setEnt .internalNl,.cb],(none,false))⟩]⟩,⟨false,none,[],[⟨256,.other,false,false,none,none⟩,⟨9,.ws,false,false,none,none⟩,⟨10,.lf,false,true,some 28,some ([],(none,false))⟩,⟨11,.vt,false,false,none,none⟩,⟨12,.ff,false,true,none,none⟩,⟨13,.cr,false,false,none,none⟩,⟨13,.cr,true,true,none,none⟩,⟨34,.other,false,false,none,none⟩,⟨35,.other,false,false,none,none⟩,⟨39,.other,false,false,none,none⟩,⟨42,.other,false,false,none,none⟩,⟨47,.other,false,false,none,none⟩,⟨92,.other,false,false,none,none⟩]⟩,⟨false,none,[],[⟨256,.other,false,false,some 16,some ([.setEnt .internalNl,.cb,.code],(none,false))⟩,⟨9,.ws,false,false,some 17,some ([.setEnt .internalNl,.cb,.code],(none,false))⟩,⟨10,.lf,false,true,some 29,some ([.setEnt .internalNl,.cb],(none,false))⟩,⟨11,.vt,false,false,some 16,some ([.setEnt .internalNl,.cb,.code],(none,false))⟩,⟨12,.ff,false,true,some 19,some ([.setEnt .internalNl,.cb],(none,false))⟩,⟨13,.cr,false,false,some 20,some ([.setEnt .internalNl,.cb],(none,false))⟩,⟨13,.cr,true,true,some 21,some ([.setEnt .internalNl,.cb],(none,false))⟩,⟨34,.other,false,false,some 16,some ([.setEnt .internalNl,.cb,.code],(none,false))⟩,⟨35,.other,false,false,some 16,some ([.setEnt .internalNl,.cb,.code],(none,false))⟩,⟨39,.other,false,false,none,some ([.setEnt .internalNl,.cb,.commit,.code],(some 2,true))⟩,⟨42,.other,false,false,some 16,some ([.setEnt .internalNl,.cb,.code],(none,false))⟩,⟨47,.other,false,false,some 16,some ([.setEnt .internalNl,.cb,.code],(none,false))⟩,⟨92,.other,false,false,some 22,some ([.setEnt .internalNl,.cb],(none,false))⟩]⟩,⟨false,none,[],[⟨256,.other,false,false,some 30,some ([.code],(none,false))⟩,⟨9,.ws,false,false,some 30,some ([.code],(none,false))⟩,⟨10,.lf,false,true,none,none⟩,⟨11,.vt,false,false,some 30,some ([.code],(none,false))⟩,⟨12,.ff,false,true,none,none⟩,⟨13,.cr,false,false,none,none⟩,⟨13,.cr,true,true,none,none⟩,⟨34,.other,false,false,some 30,some ([.code],(none,false))⟩,⟨35,.other,false,false,some 30,some ([.code],(none,false))⟩,⟨39,.other,false,false,some 30,some ([.code],(none,false))⟩,⟨42,.other,false,false,some 30,some ([.code],(none,false))⟩,⟨47,.other,false,false,some 30,some ([.code],(none,false))⟩,⟨92,.other,false,false,some 30,some ([.code],(none,false))⟩]⟩,⟨false,none,[],[⟨256,.other,false,false,some 31,some ([.comment],(none,false))⟩,⟨9,.ws,false,false,some 32,some ([],(none,false))⟩,⟨10,.lf,false,true,some 33,some ([],(none,false))⟩,⟨11,.vt,false,false,some 31,some ([.comment],(none,false))⟩,⟨12,.ff,false,true,some 34,some ([],(none,false))⟩,⟨13,.cr,false,false,some 35,some ([],(none,false))⟩,⟨13,.cr,true,true,some 36,some ([],(none,false))⟩,⟨34,.other,false,false,some 31,some ([.comment],(none,false))⟩,⟨35,.other,false,false,some 31,some ([.comment],(none,false))⟩,⟨39,.other,false,false,some 31,some ([.comment],(none,false))⟩,⟨42,.other,false,false,some 37,some ([.comment],(none,false))⟩,⟨47,.other,false,false,some 31,some ([.comment],(none,false))⟩,⟨92,.other,false,false,some 31,some ([.comment],(none,false))⟩]⟩,⟨false,some 1,[],[⟨256,.other,false,false,some 15,some ([],(some 1,false))⟩,⟨9,.ws,false,false,some 15,some ([],(some 1,false))⟩,⟨10,.lf,false,true,none,none⟩,⟨11,.vt,false,false,some 15,some ([],(some 1,false))⟩,⟨12,.ff,false,true,none,none⟩,⟨13,.cr,false,false,none,none⟩,⟨13,.cr,true,true,none,none⟩,⟨34,.other,false,false,some 15,some ([],(some 1,false))⟩,⟨35,.other,false,false,some 15,some ([],(some 1,false))⟩,⟨39,.other,false,false,some 15,some ([],(some 1,false))⟩,⟨42,.other,false,false,some 15,some ([],(some 1,false))⟩,⟨47,.other,false,false,some 15,some ([],(some 1,false))⟩,⟨92,.other,false,false,some 15,some ([],(some 1,false))⟩]⟩,⟨false,none,[],[⟨256,.other,false,false,some 8,some ([.setEnt .internalNl,.cb,.code],(none,false))⟩,⟨9,.ws,false,false,some 9,some ([.setEnt .internalNl,.cb,.code],(none,false))⟩,⟨10,.lf,false,true,some 10,some ([.setEnt .internalNl,.cb],(none,false))⟩,⟨11,.vt,false,false,some 8,some ([.setEnt .internalNl,.cb,.code],(none,false))⟩,⟨12,.ff,false,true,some 11,some ([.setEnt .internalNl,.cb],(none,false))⟩,⟨13,.cr,false,false,some 12,some ([.setEnt .internalNl,.cb],(none,false))⟩,⟨13,.cr,true,true,some 13,some ([.setEnt .internalNl,.cb],(none,false))⟩,⟨34,.other,false,false,none,some ([.setEnt .internalNl,.cb,.commit,.code],(some 2,true))⟩,⟨35,.other,false,false,some 8,some ([.setEnt .internalNl,.cb,.code],(none,false))⟩,⟨39,.other,false,false,some 8,some ([.setEnt .internalNl,.cb,.code],(none,false))⟩,⟨42,.other,false,false,some 8,some ([.setEnt .internalNl,.cb,.code],(none,false))⟩,⟨47,.other,false,false,some 8,some ([.setEnt .internalNl,.cb,.code],(none,false))⟩,⟨92,.other,false,false,some 14,some ([.setEnt .internalNl,.cb],(none,false))⟩]⟩,⟨false,none,[],[⟨256,.other,false,false,some 8,some ([.setEnt .internalNl,.cb,.code],(none,false))⟩,⟨9,.ws,false,false,some 9,some ([.setEnt .internalNl,.cb,.code],(none,false))⟩,⟨10,.lf,false,true,some 10,some ([.setEnt .internalNl,.cb],(none,false))⟩,⟨11,.vt,false,false,some 8,some ([.setEnt .internalNl,.cb,.code],(none,false))⟩,⟨12,.ff,false,true,some 11,some ([.setEnt .internalNl,.cb],(none,false))⟩,⟨13,.cr,false,false,some 12,some ([.setEnt .internalNl,.cb],(none,false))⟩,⟨13,.cr,true,true,some 13,some ([.setEnt .internalNl,.cb],(none,false))⟩,⟨34,.other,false,false,none,some ([.setEnt .internalNl,.cb,.commit,.code],(some 2,true))⟩,⟨35,.other,false,false,some 8,some ([.setEnt .internalNl,.cb,.code],(none,false))⟩,⟨39,.other,false,false,some 8,some ([.setEnt .internalNl,.cb,.code],(none,false))⟩,⟨42,.other,false,false,some 8,some ([.setEnt .internalNl,.cb,.code],(none,false))⟩,⟨47,.other,false,false,some 8,some ([.setEnt .internalNl,.cb,.code],(none,false))⟩,⟨92,.other,false,false,some 14,some ([.setEnt .internalNl,.cb],(none,false))⟩]⟩,⟨false,none,[],[⟨256,.other,false,false,some 8,some ([.code],(none,false))⟩,⟨9,.ws,false,false,some 9,some ([.code],(none,false))⟩,⟨10,.lf,false,true,some 10,some ([],(none,false))⟩,⟨11,.vt,false,false,some 8,some ([.code],(none,false))⟩,⟨12,.ff,false,true,some 11,some ([],(none,false))⟩,⟨13,.cr,false,false,some 12,some ([],(none,false))⟩,⟨13,.cr,true,true,some 13,some ([],(none,false))⟩,⟨34,.other,false,false,none,some ([.commit,.code],(some 2,true))⟩,⟨35,.other,false,false,some 8,some ([.code],(none,false))⟩,⟨39,.other,false,false,some 8,some ([.code],(none,false))⟩,⟨42,.other,false,false,some 8,some ([.code],(none,false))⟩,⟨47,.other,false,false,some 8,some ([.code],(none,false))⟩,⟨92,.other,false,false,some 14,some ([],(none,false))⟩]⟩,⟨false,none,[],[⟨256,.other,false,false,some 16,some ([.setEnt .internalNl,.cb,.code],(none,false))⟩,⟨9,.ws,false,false,some 17,some ([.setEnt .internalNl,.cb,.code],(none,false))⟩,⟨10,.lf,false,true,some 18,some ([.setEnt .internalNl,.cb],(none,false))⟩,⟨11,.vt,false,false,some 16,some ([.setEnt .internalNl,.cb,.code],(none,false))⟩,⟨12,.ff,false,true,some 19,some ([.setEnt .internalNl,.cb],(none,false))⟩,⟨13,.cr,false,false,some 20,some ([.setEnt .internalNl,.cb],(none,false))⟩,⟨13,.cr,true,true,some 21,some ([.setEnt .internalNl,.cb],(none,false))⟩,⟨34,.other,false,false,some 16,some ([.setEnt .internalNl,.cb,.code],(none,false))⟩,⟨35,.other,false,false,some 16,some ([.setEnt .internalNl,.cb,.code],(none,false))⟩,⟨39,.other,false,false,none,some ([.setEnt .internalNl,.cb,.commit,.code],(some 2,true))⟩,⟨42,.other,false,false,some 16,some ([.setEnt .internalNl,.cb,.code],(none,false))⟩,⟨47,.other,false,false,some 16,some ([.setEnt .internalNl,.cb,.code],(none,false))⟩,⟨92,.other,false,false,some 22,some ([.setEnt .internalNl,.cb],(none,false))⟩]⟩,⟨false,none,[],[⟨256,.other,false,false,some 16,some ([.setEnt .internalNl,.cb,.code],(none,false))⟩,⟨9,.ws,false,false,some 17,some ([.setEnt .internalNl,.cb,.code],(none,false))⟩,⟨10,.lf,false,true,some 18,some ([.setEnt .internalNl,.cb],(none,false))⟩,⟨11,.vt,false,false,some 16,some ([.setEnt .internalNl,.cb,.code],(none,false))⟩,⟨12,.ff,false,true,some 19,some ([.setEnt .internalNl,.cb],(none,false))⟩,⟨13,.cr,false,false,some 20,some ([.setEnt .internalNl,.cb],(none,false))⟩,⟨13,.cr,true,true,some 21,some ([.setEnt .internalNl,.cb],(none,false))⟩,⟨34,.other,false,false,some 16,some ([.setEnt .internalNl,.cb,.code],(none,false))⟩,⟨35,.other,false,false,some 16,some ([.setEnt .internalNl,.cb,.code],(none,false))⟩,⟨39,.other,false,false,none,some ([.setEnt .internalNl,.cb,.commit,.code],(some 2,true))⟩,⟨42,.other,false,false,some 16,some ([.setEnt .internalNl,.cb,.code],(none,false))⟩,⟨47,.other,false,false,some 16,some ([.setEnt .internalNl,.cb,.code],(none,false))⟩,⟨92,.other,false,false,some 22,some ([.setEnt .internalNl,.cb],(none,false))⟩]⟩,⟨false,none,[],[⟨256,.other,false,false,some 16,some ([.code],(none,false))⟩,⟨9,.ws,false,false,some 17,some ([.code],(none,false))⟩,⟨10,.lf,false,true,some 18,some ([],(none,false))⟩,⟨11,.vt,false,false,some 16,some ([.code],(none,false))⟩,⟨12,.ff,false,true,some 19,some ([],(none,false))⟩,⟨13,.cr,false,false,some 20,some ([],(none,false))⟩,⟨13,.cr,true,true,some 21,some ([],(none,false))⟩,⟨34,.other,false,false,some 16,some ([.code],(none,false))⟩,⟨35,.other,false,false,some 16,some ([.code],(none,false))⟩,⟨39,.other,false,false,none,some ([.commit,.code],(some 2,true))⟩,⟨42,.other,false,false,some 16,some ([.code],(none,false))⟩,⟨47,.other,false,false,some 16,some ([.code],(none,false))⟩,⟨92,.other,false,false,some 22,some ([],(none,false))⟩]⟩,⟨false,none,[],[⟨256,.other,false,false,some 31,some ([.comment],(none,false))⟩,⟨9,.ws,false,false,some 32,some ([],(none,false))⟩,⟨10,.lf,false,true,some 33,some ([],(none,false))⟩,⟨11,.vt,false,false,some 31,some ([.comment],(none,false))⟩,⟨12,.ff,false,true,some 34,some ([],(none,false))⟩,⟨13,.cr,false,false,some 35,some ([],(none,false))⟩,⟨13,.cr,true,true,some 36,some ([],(none,false))⟩,⟨34,.other,false,false,some 31,some ([.comment],(none,false))⟩,⟨35,.other,false,false,some 31,some ([.comment],(none,false))⟩,⟨39,.other,false,false,some 31,some ([.comment],(none,false))⟩,⟨42,.other,false,false,some 37,some ([.comment],(none,false))⟩,⟨47,.other,false,false,some 31,some ([.comment],(none,false))⟩,⟨92,.other,false,false,some 31,some ([.comment],(none,false))⟩]⟩,⟨false,none,[],[⟨256,.other,false,false,some 31,some ([.comment],(none,false))⟩,⟨9,.ws,false,false,some 32,some ([],(none,false))⟩,⟨10,.lf,false,true,some 33,some ([],(none,false))⟩,⟨11,.vt,false,false,some 31,some ([.comment],(none,false))⟩,⟨12,.ff,false,true,some 34,some ([],(none,false))⟩,⟨13,.cr,false,false,some 35,some ([],(none,false))⟩,⟨13,.cr,true,true,some 36,some ([],(none,false))⟩,⟨34,.other,false,false,some 31,some ([.comment],(none,false))⟩,⟨35,.other,false,false,some 31,some ([.comment],(none,false))⟩,⟨39,.other,false,false,some 31,some ([.comment],(none,false))⟩,⟨42,.other,false,false,some 37,some ([.comment],(none,false))⟩,⟨47,.other,false,false,some 31,some ([.comment],(none,false))⟩,⟨92,.other,false,false,some 31,some ([.comment],(none,false))⟩]⟩,⟨false,none,[],[⟨256,.other,false,false,some 31,some ([.setEnt .internalNl,.cb,.comment],(none,false))⟩,⟨9,.ws,false,false,some 32,some ([.setEnt .internalNl,.cb],(none,false))⟩,⟨10,.lf,false,true,some 33,some ([.setEnt .internalNl,.cb],(none,false))⟩,⟨11,.vt,false,false,some 31,some ([.setEnt .internalNl,.cb,.comment],(none,false))⟩,⟨12,.ff,false,true,some 34,some ([.setEnt .internalNl,.cb],(none,false))⟩,⟨13,.cr,false,false,some 35,some ([.setEnt .internalNl,.cb],(none,false))⟩,⟨13,.cr,true,true,some 36,some ([.setEnt .internalNl,.cb],(none,false))⟩,⟨34,.other,false,false,some 31,some ([.setEnt .internalNl,.cb,.comment],(none,false))⟩,⟨35,.other,false,false,some 31,some ([.setEnt .internalNl,.cb,.comment],(none,false))⟩,⟨39,.other,false,false,some 31,some ([.setEnt .internalNl,.cb,.comment],(none,false))⟩,⟨42,.other,false,false,some 37,some ([.setEnt .internalNl,.cb,.comment],(none,false))⟩,⟨47,.other,false,false,some 31,some ([.setEnt .internalNl,.cb,.comment],(none,false))⟩,⟨92,.other,false,false,some 31,some ([.setEnt .internalNl,.cb,.comment],(none,false))⟩]⟩,⟨false,none,[],[⟨256,.other,false,false,some 31,some ([.setEnt .internalNl,.cb,.comment],(none,false))⟩,⟨9,.ws,false,false,some 32,some ([.setEnt .internalNl,.cb],(none,false))⟩,⟨10,.lf,false,true,some 33,some ([.setEnt .internalNl,.cb],(none,false))⟩,⟨11,.vt,false,false,some 31,some ([.setEnt .internalNl,.cb,.comment],(none,false))⟩,⟨12,.ff,false,true,some 34,some ([.setEnt .internalNl,.cb],(none,false))⟩,⟨13,.cr,false,false,some 35,some ([.setEnt .internalNl,.cb],(none,false))⟩,⟨13,.cr,true,true,some 36,some ([.setEnt .internalNl,.cb],(none,false))⟩,⟨34,.other,false,false,some 31,some ([.setEnt .internalNl,.cb,.comment],(none,false))⟩,⟨35,.other,false,false,some 31,some ([.setEnt .internalNl,.cb,.comment],(none,false))⟩,⟨39,.other,false,false,some 31,some ([.setEnt .internalNl,.cb,.comment],(none,false))⟩,⟨42,.other,false,false,some 37,some ([.setEnt .internalNl,.cb,.comment],(none,false))⟩,⟨47,.other,false,false,some 31,some ([.setEnt .internalNl,.cb,.comment],(none,false))⟩,⟨92,.other,false,false,some 31,some ([.setEnt .internalNl,.cb,.comment],(none,false))⟩]⟩,⟨false,none,[],[⟨256,.other,false,false,none,none⟩,⟨9,.ws,false,false,none,none⟩,⟨10,.lf,false,true,some 38,some ([],(none,false))⟩,⟨11,.vt,false,false,none,none⟩,⟨12,.ff,false,true,none,none⟩,⟨13,.cr,false,false,none,none⟩,⟨13,.cr,true,true,none,none⟩,⟨34,.other,false,false,none,none⟩,⟨35,.other,false,false,none,none⟩,⟨39,.other,false,false,none,none⟩,⟨42,.other,false,false,none,none⟩,⟨47,.other,false,false,none,none⟩,⟨92,.other,false,false,none,none⟩]⟩,⟨false,none,[],[⟨256,.other,false,false,some 31,some ([.setEnt .internalNl,.cb,.comment],(none,false))⟩,⟨9,.ws,false,false,some 32,some ([.setEnt .internalNl,.cb],(none,false))⟩,⟨10,.lf,false,true,some 39,some ([.setEnt .internalNl,.cb],(none,false))⟩,⟨11,.vt,false,false,some 31,some ([.setEnt .internalNl,.cb,.comment],(none,false))⟩,⟨12,.ff,false,true,some 34,some ([.setEnt .internalNl,.cb],(none,false))⟩,⟨13,.cr,false,false,some 35,some ([.setEnt .internalNl,.cb],(none,false))⟩,⟨13,.cr,true,true,some 36,some ([.setEnt .internalNl,.cb],(none,false))⟩,⟨34,.other,false,false,some 31,some ([.setEnt .internalNl,.cb,.comment],(none,false))⟩,⟨35,.other,false,false,some 31,some ([.setEnt .internalNl,.cb,.comment],(none,false))⟩,⟨39,.other,false,false,some 31,some ([.setEnt .internalNl,.cb,.comment],(none,false))⟩,⟨42,.other,false,false,some 37,some ([.setEnt .internalNl,.cb,.comment],(none,false))⟩,⟨47,.other,false,false,some 31,some ([.setEnt .internalNl,.cb,.comment],(none,false))⟩,⟨92,.other,false,false,some 31,some ([.setEnt .internalNl,.cb,.comment],(none,false))⟩]⟩,⟨false,none,[],[⟨256,.other,false,false,some 31,some ([.comment],(none,false))⟩,⟨9,.ws,false,false,some 32,some ([],(none,false))⟩,⟨10,.lf,false,true,some 33,some ([],(none,false))⟩,⟨11,.vt,false,false,some 31,some ([.comment],(none,false))⟩,⟨12,.ff,false,true,some 34,some ([],(none,false))⟩,⟨13,.cr,false,false,some 35,some ([],(none,false))⟩,⟨13,.cr,true,true,some 36,some ([],(none,false))⟩,⟨34,.other,false,false,some 31,some ([.comment],(none,false))⟩,⟨35,.other,false,false,some 31,some ([.comment],(none,false))⟩,⟨39,.other,false,false,some 31,some ([.comment],(none,false))⟩,⟨42,.other,false,false,some 37,some ([.comment],(none,false))⟩,⟨47,.other,false,false,none,some ([],(some 1,true))⟩,⟨92,.other,false,false,some 31,some ([.comment],(none,false))⟩]⟩,⟨false,none,[],[⟨256,.other,false,false,some 31,some ([.setEnt .internalNl,.cb,.comment],(none,false))⟩,⟨9,.ws,false,false,some 32,some ([.setEnt .internalNl,.cb],(none,false))⟩,⟨10,.lf,false,true,some 33,some ([.setEnt .internalNl,.cb],(none,false))⟩,⟨11,.vt,false,false,some 31,some ([.setEnt .internalNl,.cb,.comment],(none,false))⟩,⟨12,.ff,false,true,some 34,some ([.setEnt .internalNl,.cb],(none,false))⟩,⟨13,.cr,false,false,some 35,some ([.setEnt .internalNl,.cb],(none,false))⟩,⟨13,.cr,true,true,some 36,some ([.setEnt .internalNl,.cb],(none,false))⟩,⟨34,.other,false,false,some 31,some ([.setEnt .internalNl,.cb,.comment],(none,false))⟩,⟨35,.other,false,false,some 31,some ([.setEnt .internalNl,.cb,.comment],(none,false))⟩,⟨39,.other,false,false,some 31,some ([.setEnt .internalNl,.cb,.comment],(none,false))⟩,⟨42,.other,false,false,some 37,some ([.setEnt .internalNl,.cb,.comment],(none,false))⟩,⟨47,.other,false,false,some 31,some ([.setEnt .internalNl,.cb,.comment],(none,false))⟩,⟨92,.other,false,false,some 31,some ([.setEnt .internalNl,.cb,.comment],(none,false))⟩]⟩,⟨false,none,[],[⟨256,.other,false,false,some 31,some ([.setEnt .internalNl,.cb,.comment],(none,false))⟩,⟨9,.ws,false,false,some 32,some ([.setEnt .internalNl,.cb],(none,false))⟩,⟨10,.lf,false,true,some 33,some ([.setEnt .internalNl,.cb],(none,false))⟩,⟨11,.vt,false,false,some 31,some ([.setEnt .internalNl,.cb,.comment],(none,false))⟩,⟨12,.ff,false,true,some 34,some ([.setEnt .internalNl,.cb],(none,false))⟩,⟨13,.cr,false,false,some 35,some ([.setEnt .internalNl,.cb],(none,false))⟩,⟨13,.cr,true,true,some 36,some ([.setEnt .internalNl,.cb],(none,false))⟩,⟨34,.other,false,false,some 31,some ([.setEnt .internalNl,.cb,.comment],(none,false))⟩,⟨35,.other,false,false,some 31,some ([.setEnt .internalNl,.cb,.comment],(none,false))⟩,⟨39,.other,false,false,some 31,some ([.setEnt .internalNl,.cb,.comment],(none,false))⟩,⟨42,.other,false,false,some 37,some ([.setEnt .internalNl,.cb,.comment],(none,false))⟩,⟨47,.other,false,false,some 31,some ([.setEnt .internalNl,.cb,.comment],(none,false))⟩,⟨92,.other,false,false,some 31,some ([.setEnt .internalNl,.cb,.comment],(none,false))⟩]⟩]
theorem php_line_lfrOk : php_line_lrows.map (CA.prep php_line_lex) = php_line_lfr := by decide +kernel
def php_line_lTab : List CT := [(.node (.node (.node (.node (.node (.node .leaf 128 [⟨⟨.code,[],.lcode,false,[],false⟩,false,false,[],none,none,none,false,false,false,none,false,⟨.lcode,none,false,.lblank⟩⟩] .leaf) 38019 [⟨⟨.code,[],.lcode,true,[],false⟩,false,false,[],none,none,none,false,false,false,none,false,⟨.lblank,none,false,.lblank⟩⟩] (.node .leaf 148108 [⟨⟨.code,[],.lcomment,false,[],false⟩,false,false,[],none,none,none,false,false,false,none,false,⟨.lcomment,none,false,.lblank⟩⟩] .leaf)) 185487 [⟨⟨.code,[],.lcomment,true,[],false⟩,false,false,[],none,none,none,false,false,false,none,false,⟨.lblank,none,false,.lblank⟩⟩] (.node (.node .leaf 296088 [⟨⟨.code,[],.lblank,false,[],false⟩,false,false,[],none,none,none,false,false,false,none,false,⟨.lblank,none,false,.lblank⟩⟩] .leaf) 332955 [⟨⟨.code,[],.lblank,true,[],false⟩,false,false,[],none,none,none,false,false,false,none,false,⟨.lblank,none,false,.lblank⟩⟩] (.node .leaf 1179872 [⟨⟨(.inside 0),[],.lcode,false,[],false⟩,false,false,[none],none,none,none,false,false,false,none,false,⟨.lcode,none,false,.lblank⟩⟩] .leaf))) 1327852 [⟨⟨(.inside 0),[],.lcomment,false,[],false⟩,false,false,[none],none,none,none,false,false,false,none,false,⟨.lcomment,none,false,.lblank⟩⟩] (.node (.node (.node .leaf 1769744 [⟨⟨.code,[47],.lcode,false,[],false⟩,false,false,[none],none,none,none,false,false,false,none,false,⟨.lcode,none,false,.lblank⟩⟩] .leaf) 4129232 [⟨⟨(.inside 1),[],.lcode,false,[],false⟩,false,false,[none],none,none,none,false,false,false,none,false,⟨.lcode,none,false,.lblank⟩⟩] (.node .leaf 4277212 [⟨⟨(.inside 1),[],.lcomment,false,[],false⟩,false,false,[none],none,none,none,false,false,false,none,false,⟨.lcomment,none,false,.lblank⟩⟩] .leaf)) 20769801 [⟨⟨.code,[47],.lcode,false,[],false⟩,false,false,[some (9,(.ws,false))],none,none,none,false,false,false,none,false,⟨.lcode,none,false,.lblank⟩⟩] (.node (.node .leaf 21088052 [⟨⟨.code,[47],.lcomment,false,[],false⟩,false,false,[none],none,none,none,false,false,false,none,false,⟨.lcode,none,false,.lblank⟩⟩] .leaf) 22179935 [⟨⟨(.inside 0),[],.lcode,false,[],false⟩,false,false,[some (10,(.lf,false))],none,none,none,false,false,false,none,false,⟨.lcode,none,false,.lblank⟩⟩] .leaf))) 22327915 [⟨⟨(.inside 0),[],.lcomment,false,[],false⟩,false,false,[some (10,(.lf,false))],none,none,none,false,false,false,none,false,⟨.lcomment,none,false,.lblank⟩⟩] (.node (.node (.node (.node .leaf 22769807 [⟨⟨.code,[47],.lcode,false,[],false⟩,false,false,[some (10,(.lf,false))],none,none,none,false,false,false,none,false,⟨.lcode,none,false,.lblank⟩⟩] .leaf) 25129295 [⟨⟨(.inside 1),[],.lcode,false,[],false⟩,false,false,[some (10,(.lf,false))],none,none,none,false,false,false,none,false,⟨.lcode,none,false,.lblank⟩⟩] (.node .leaf 25277275 [⟨⟨(.inside 1),[],.lcomment,false,[],false⟩,false,false,[some (10,(.lf,false))],none,none,none,false,false,false,none,false,⟨.lcomment,none,false,.lblank⟩⟩] .leaf)) 26179947 [⟨⟨(.inside 0),[],.lcode,false,[],false⟩,false,false,[some (12,(.ff,false))],none,none,none,false,false,false,none,false,⟨.lcode,none,false,.lblank⟩⟩] (.node (.node .leaf 26327927 [⟨⟨(.inside 0),[],.lcomment,false,[],false⟩,false,false,[some (12,(.ff,false))],none,none,none,false,false,false,none,false,⟨.lcomment,none,false,.lblank⟩⟩] .leaf) 26769819 [⟨⟨.code,[47],.lcode,false,[],false⟩,false,false,[some (12,(.ff,false))],none,none,none,false,false,false,none,false,⟨.lcode,none,false,.lblank⟩⟩] (.node .leaf 28179953 [⟨⟨(.inside 0),[],.lcode,false,[],false⟩,false,false,[some (13,(.cr,false))],none,none,none,false,false,false,none,false,⟨.lcode,none,false,.lblank⟩⟩] .leaf))) 28327933 [⟨⟨(.inside 0),[],.lcomment,false,[],false⟩,false,false,[some (13,(.cr,false))],none,none,none,false,false,false,none,false,⟨.lcomment,none,false,.lblank⟩⟩] (.node (.node (.node .leaf 28769825 [⟨⟨.code,[47],.lcode,false,[],false⟩,false,false,[some (13,(.cr,false))],none,none,none,false,false,false,none,false,⟨.lcode,none,false,.lblank⟩⟩] .leaf) 29129307 [⟨⟨(.inside 1),[],.lcode,false,[],false⟩,false,false,[some (12,(.ff,false))],none,none,none,false,false,false,none,false,⟨.lcode,none,false,.lblank⟩⟩] (.node .leaf 29179956 [⟨⟨(.inside 0),[],.lcode,false,[],false⟩,false,false,[some (13,(.cr,true))],none,none,none,false,false,false,none,false,⟨.lcode,none,false,.lblank⟩⟩] .leaf)) 29277287 [⟨⟨(.inside 1),[],.lcomment,false,[],false⟩,false,false,[some (12,(.ff,false))],none,none,none,false,false,false,none,false,⟨.lcomment,none,false,.lblank⟩⟩] (.node (.node .leaf 29327936 [⟨⟨(.inside 0),[],.lcomment,false,[],false⟩,false,false,[some (13,(.cr,true))],none,none,none,false,false,false,none,false,⟨.lcomment,none,false,.lblank⟩⟩] .leaf) 29769828 [⟨⟨.code,[47],.lcode,false,[],false⟩,false,false,[some (13,(.cr,true))],none,none,none,false,false,false,none,false,⟨.lcode,none,false,.lblank⟩⟩] .leaf)))) 31129313 [⟨⟨(.inside 1),[],.lcode,false,[],false⟩,false,false,[some (13,(.cr,false))],none,none,none,false,false,false,none,false,⟨.lcode,none,false,.lblank⟩⟩] (.node (.node (.node (.node (.node .leaf 31277293 [⟨⟨(.inside 1),[],.lcomment,false,[],false⟩,false,false,[some (13,(.cr,false))],none,none,none,false,false,false,none,false,⟨.lcomment,none,false,.lblank⟩⟩] .leaf) 32129316 [⟨⟨(.inside 1),[],.lcode,false,[],false⟩,false,false,[some (13,(.cr,true))],none,none,none,false,false,false,none,false,⟨.lcode,none,false,.lblank⟩⟩] (.node .leaf 32277296 [⟨⟨(.inside 1),[],.lcomment,false,[],false⟩,false,false,[some (13,(.cr,true))],none,none,none,false,false,false,none,false,⟨.lcomment,none,false,.lblank⟩⟩] .leaf)) 40088109 [⟨⟨.code,[47],.lcomment,false,[],false⟩,false,false,[some (9,(.ws,false))],none,none,none,false,false,false,none,false,⟨.lcode,none,false,.lblank⟩⟩] (.node (.node .leaf 40406360 [⟨⟨.code,[47],.lblank,false,[],false⟩,false,false,[none],none,none,none,false,false,false,none,false,⟨.lcode,none,false,.lblank⟩⟩] .leaf) 42088115 [⟨⟨.code,[47],.lcomment,false,[],false⟩,false,false,[some (10,(.lf,false))],none,none,none,false,false,false,none,false,⟨.lcode,none,false,.lblank⟩⟩] (.node .leaf 46088127 [⟨⟨.code,[47],.lcomment,false,[],false⟩,false,false,[some (12,(.ff,false))],none,none,none,false,false,false,none,false,⟨.lcode,none,false,.lblank⟩⟩] .leaf))) 48088133 [⟨⟨.code,[47],.lcomment,false,[],false⟩,false,false,[some (13,(.cr,false))],none,none,none,false,false,false,none,false,⟨.lcode,none,false,.lblank⟩⟩] (.node (.node (.node .leaf 49088136 [⟨⟨.code,[47],.lcomment,false,[],false⟩,false,false,[some (13,(.cr,true))],none,none,none,false,false,false,none,false,⟨.lcode,none,false,.lblank⟩⟩] .leaf) 59406417 [⟨⟨.code,[47],.lblank,false,[],false⟩,false,false,[some (9,(.ws,false))],none,none,none,false,false,false,none,false,⟨.lcode,none,false,.lblank⟩⟩] (.node .leaf 61406423 [⟨⟨.code,[47],.lblank,false,[],false⟩,false,false,[some (10,(.lf,false))],none,none,none,false,false,false,none,false,⟨.lcode,none,false,.lblank⟩⟩] .leaf)) 65406435 [⟨⟨.code,[47],.lblank,false,[],false⟩,false,false,[some (12,(.ff,false))],none,none,none,false,false,false,none,false,⟨.lcode,none,false,.lblank⟩⟩] (.node (.node .leaf 67406441 [⟨⟨.code,[47],.lblank,false,[],false⟩,false,false,[some (13,(.cr,false))],none,none,none,false,false,false,none,false,⟨.lcode,none,false,.lblank⟩⟩] .leaf) 68406444 [⟨⟨.code,[47],.lblank,false,[],false⟩,false,false,[some (13,(.cr,true))],none,none,none,false,false,false,none,false,⟨.lcode,none,false,.lblank⟩⟩] .leaf))) 70769951 [⟨⟨.code,[47],.lcode,false,[],false⟩,false,false,[some (34,(.other,false))],none,none,none,false,false,false,none,false,⟨.lcode,none,false,.lblank⟩⟩] (.node (.node (.node (.node .leaf 72769957 [⟨⟨.code,[47],.lcode,false,[],false⟩,false,false,[some (35,(.other,false))],none,none,none,false,false,false,none,false,⟨.lcode,none,false,.lblank⟩⟩] .leaf) 80769981 [⟨⟨.code,[47],.lcode,false,[],false⟩,false,false,[some (39,(.other,false))],none,none,none,false,false,false,none,false,⟨.lcode,none,false,.lblank⟩⟩] (.node .leaf 90088259 [⟨⟨.code,[47],.lcomment,false,[],false⟩,false,false,[some (34,(.other,false))],none,none,none,false,false,false,none,false,⟨.lcode,none,false,.lblank⟩⟩] .leaf)) 92088265 [⟨⟨.code,[47],.lcomment,false,[],false⟩,false,false,[some (35,(.other,false))],none,none,none,false,false,false,none,false,⟨.lcode,none,false,.lblank⟩⟩] (.node (.node .leaf 100088289 [⟨⟨.code,[47],.lcomment,false,[],false⟩,false,false,[some (39,(.other,false))],none,none,none,false,false,false,none,false,⟨.lcode,none,false,.lblank⟩⟩] .leaf) 109406567 [⟨⟨.code,[47],.lblank,false,[],false⟩,false,false,[some (34,(.other,false))],none,none,none,false,false,false,none,false,⟨.lcode,none,false,.lblank⟩⟩] (.node .leaf 111406573 [⟨⟨.code,[47],.lblank,false,[],false⟩,false,false,[some (35,(.other,false))],none,none,none,false,false,false,none,false,⟨.lcode,none,false,.lblank⟩⟩] .leaf))) 119406597 [⟨⟨.code,[47],.lblank,false,[],false⟩,false,false,[some (39,(.other,false))],none,none,none,false,false,false,none,false,⟨.lcode,none,false,.lblank⟩⟩] (.node (.node (.node .leaf 186770299 [⟨⟨.code,[47],.lcode,false,[],false⟩,false,false,[some (92,(.other,false))],none,none,none,false,false,false,none,false,⟨.lcode,none,false,.lblank⟩⟩] .leaf) 206088607 [⟨⟨.code,[47],.lcomment,false,[],false⟩,false,false,[some (92,(.other,false))],none,none,none,false,false,false,none,false,⟨.lcode,none,false,.lblank⟩⟩] (.node .leaf 225406915 [⟨⟨.code,[47],.lblank,false,[],false⟩,false,false,[some (92,(.other,false))],none,none,none,false,false,false,none,false,⟨.lcode,none,false,.lblank⟩⟩] .leaf)) 514771283 [⟨⟨.code,[47],.lcode,false,[],false⟩,false,false,[some (256,(.other,false))],none,none,none,false,false,false,none,false,⟨.lcode,none,false,.lblank⟩⟩] (.node (.node .leaf 534089591 [⟨⟨.code,[47],.lcomment,false,[],false⟩,false,false,[some (256,(.other,false))],none,none,none,false,false,false,none,false,⟨.lcode,none,false,.lblank⟩⟩] .leaf) 553407899 [⟨⟨.code,[47],.lblank,false,[],false⟩,false,false,[some (256,(.other,false))],none,none,none,false,false,false,none,false,⟨.lcode,none,false,.lblank⟩⟩] .leaf))))),(.node (.node .leaf 128 [⟨⟨.code,[],.lcode,false,[],false⟩,false,false,[],none,none,none,false,false,false,none,false,⟨.lcode,some (.own 0),false,.lblank⟩⟩] .leaf) 148108 [⟨⟨.code,[],.lcomment,false,[],false⟩,false,false,[],none,none,none,false,false,false,none,false,⟨.lcomment,some (.own 0),false,.lblank⟩⟩] (.node .leaf 296088 [⟨⟨.code,[],.lblank,false,[],false⟩,false,false,[],none,none,none,false,false,false,none,false,⟨.lblank,some (.own 0),false,.lblank⟩⟩] .leaf)),(.node (.node .leaf 160 [⟨⟨.code,[],.lcode,false,[],false⟩,true,false,[],none,none,none,false,false,false,none,false,⟨.lcode,some .newline,false,.lblank⟩⟩] .leaf) 148140 [⟨⟨.code,[],.lcomment,false,[],false⟩,true,false,[],none,none,none,false,false,false,none,false,⟨.lcomment,some .newline,false,.lblank⟩⟩] (.node .leaf 296120 [⟨⟨.code,[],.lblank,false,[],false⟩,true,false,[],none,none,none,false,false,false,none,false,⟨.lblank,some .newline,false,.lblank⟩⟩] .leaf)),(.node (.node .leaf 37011 [⟨⟨.code,[],.lcode,true,[],false⟩,false,true,[],none,none,none,false,false,false,none,false,⟨.lcode,some .newline,false,.lblank⟩⟩] .leaf) 184991 [⟨⟨.code,[],.lcomment,true,[],false⟩,false,true,[],none,none,none,false,false,false,none,false,⟨.lcomment,some .newline,false,.lblank⟩⟩] (.node .leaf 332971 [⟨⟨.code,[],.lblank,true,[],false⟩,false,true,[],none,none,none,false,false,false,none,false,⟨.lblank,some .newline,false,.lblank⟩⟩] .leaf)),(.node (.node .leaf 12977440 [⟨⟨(.inside 4),[],.lcode,false,[],false⟩,false,false,[],none,none,none,false,false,false,none,false,⟨.lcode,some (.own 3),true,.lcode⟩⟩] .leaf) 12977504 [⟨⟨(.inside 4),[],.lcode,false,[],false⟩,false,false,[],none,none,none,false,false,false,none,false,⟨.lcode,some (.own 3),true,.lcomment⟩⟩] (.node .leaf 12977568 [⟨⟨(.inside 4),[],.lcode,false,[],false⟩,false,false,[],none,none,none,false,false,false,none,false,⟨.lcode,some (.own 3),true,.lblank⟩⟩] .leaf)),(.node (.node .leaf 4129232 [⟨⟨(.inside 1),[],.lcode,false,[],false⟩,false,false,[],none,none,none,false,false,false,none,false,⟨.lcode,some (.own 3),false,.lblank⟩⟩] .leaf) 4277212 [⟨⟨(.inside 1),[],.lcomment,false,[],false⟩,false,false,[],none,none,none,false,false,false,none,false,⟨.lcomment,some (.own 3),false,.lblank⟩⟩] .leaf),(.node (.node .leaf 10028080 [⟨⟨(.inside 3),[],.lcode,false,[],false⟩,false,false,[],none,none,none,false,false,false,none,false,⟨.lcode,some (.own 3),true,.lcode⟩⟩] .leaf) 10028144 [⟨⟨(.inside 3),[],.lcode,false,[],false⟩,false,false,[],none,none,none,false,false,false,none,false,⟨.lcode,some (.own 3),true,.lcomment⟩⟩] (.node .leaf 10028208 [⟨⟨(.inside 3),[],.lcode,false,[],false⟩,false,false,[],none,none,none,false,false,false,none,false,⟨.lcode,some (.own 3),true,.lblank⟩⟩] .leaf)),(.node (.node .leaf 1769746 [⟨⟨.code,[47],.lcode,false,[],false⟩,false,false,[],none,none,none,false,false,true,none,false,⟨.lcode,some (.own 3),false,.lblank⟩⟩] .leaf) 21088566 [⟨⟨.code,[47],.lcomment,false,[],false⟩,false,false,[],none,none,none,false,false,true,none,false,⟨.lcomment,some (.own 3),false,.lblank⟩⟩] (.node .leaf 40407386 [⟨⟨.code,[47],.lblank,false,[],false⟩,false,false,[],none,none,none,false,false,true,none,false,⟨.lblank,some (.own 3),false,.lblank⟩⟩] .leaf)),(.node (.node (.node .leaf 13789989 [⟨⟨(.inside 4),[],.lcode,false,[],false⟩,false,false,[],some 4,some ⟨(.inside 4),[],.lcode,false,[],false⟩,none,false,false,false,none,false,⟨.lcode,some (.own 3),true,.lcode⟩⟩] .leaf) 13789997 [⟨⟨(.inside 4),[],.lcode,false,[],false⟩,false,false,[],some 4,some ⟨(.inside 4),[],.lcode,false,[],false⟩,none,true,false,false,none,false,⟨.lcode,some .internalNl,true,.lcode⟩⟩] (.node .leaf 13790053 [⟨⟨(.inside 4),[],.lcode,false,[],false⟩,false,false,[],some 4,some ⟨(.inside 4),[],.lcode,false,[],false⟩,none,false,false,false,none,false,⟨.lcode,some (.own 3),true,.lcomment⟩⟩] .leaf)) 13790061 [⟨⟨(.inside 4),[],.lcode,false,[],false⟩,false,false,[],some 4,some ⟨(.inside 4),[],.lcode,false,[],false⟩,none,true,false,false,none,false,⟨.lcode,some .internalNl,true,.lcomment⟩⟩] (.node (.node .leaf 13790117 [⟨⟨(.inside 4),[],.lcode,false,[],false⟩,false,false,[],some 4,some ⟨(.inside 4),[],.lcode,false,[],false⟩,none,false,false,false,none,false,⟨.lcode,some (.own 3),true,.lblank⟩⟩] .leaf) 13790125 [⟨⟨(.inside 4),[],.lcode,false,[],false⟩,false,false,[],some 4,some ⟨(.inside 4),[],.lcode,false,[],false⟩,none,true,false,false,none,false,⟨.lcode,some .internalNl,true,.lblank⟩⟩] .leaf)),(.node (.node (.node .leaf 13789989 [⟨⟨(.inside 4),[],.lcode,false,[],false⟩,false,false,[],some 4,some ⟨(.inside 4),[],.lcode,false,[],false⟩,none,false,false,false,none,false,⟨.lcode,some (.own 3),true,.lcode⟩⟩] .leaf) 13789997 [⟨⟨(.inside 4),[],.lcode,false,[],false⟩,false,false,[],some 4,some ⟨(.inside 4),[],.lcode,false,[],false⟩,none,true,false,false,none,false,⟨.lcode,some .internalNl,true,.lcode⟩⟩] (.node .leaf 13790053 [⟨⟨(.inside 4),[],.lcode,false,[],false⟩,false,false,[],some 4,some ⟨(.inside 4),[],.lcode,false,[],false⟩,none,false,false,false,none,false,⟨.lcode,some (.own 3),true,.lcomment⟩⟩] .leaf)) 13790061 [⟨⟨(.inside 4),[],.lcode,false,[],false⟩,false,false,[],some 4,some ⟨(.inside 4),[],.lcode,false,[],false⟩,none,true,false,false,none,false,⟨.lcode,some .internalNl,true,.lcomment⟩⟩] (.node (.node .leaf 13790117 [⟨⟨(.inside 4),[],.lcode,false,[],false⟩,false,false,[],some 4,some ⟨(.inside 4),[],.lcode,false,[],false⟩,none,false,false,false,none,false,⟨.lcode,some (.own 3),true,.lblank⟩⟩] .leaf) 13790125 [⟨⟨(.inside 4),[],.lcode,false,[],false⟩,false,false,[],some 4,some ⟨(.inside 4),[],.lcode,false,[],false⟩,none,true,false,false,none,false,⟨.lcode,some .internalNl,true,.lblank⟩⟩] .leaf)),(.node (.node (.node (.node .leaf 13826856 [⟨⟨(.inside 4),[],.lcode,true,[],false⟩,false,false,[],some 4,some ⟨(.inside 4),[],.lcode,false,[],false⟩,none,false,false,false,none,false,⟨.lcode,some (.own 3),true,.lcode⟩⟩] .leaf) 13826864 [⟨⟨(.inside 4),[],.lcode,true,[],false⟩,false,false,[],some 4,some ⟨(.inside 4),[],.lcode,false,[],false⟩,none,true,false,false,none,false,⟨.lcode,some .internalNl,true,.lcode⟩⟩] .leaf) 13826920 [⟨⟨(.inside 4),[],.lcode,true,[],false⟩,false,false,[],some 4,some ⟨(.inside 4),[],.lcode,false,[],false⟩,none,false,false,false,none,false,⟨.lcode,some (.own 3),true,.lcomment⟩⟩] (.node .leaf 13826928 [⟨⟨(.inside 4),[],.lcode,true,[],false⟩,false,false,[],some 4,some ⟨(.inside 4),[],.lcode,false,[],false⟩,none,true,false,false,none,false,⟨.lcode,some .internalNl,true,.lcomment⟩⟩] .leaf)) 13826984 [⟨⟨(.inside 4),[],.lcode,true,[],false⟩,false,false,[],some 4,some ⟨(.inside 4),[],.lcode,false,[],false⟩,none,false,false,false,none,false,⟨.lcode,some (.own 3),true,.lblank⟩⟩] (.node (.node (.node .leaf 13826992 [⟨⟨(.inside 4),[],.lcode,true,[],false⟩,false,false,[],some 4,some ⟨(.inside 4),[],.lcode,false,[],false⟩,none,true,false,false,none,false,⟨.lcode,some .internalNl,true,.lblank⟩⟩] .leaf) 14122824 [⟨⟨(.inside 4),[],.lblank,true,[],false⟩,false,false,[],some 4,some ⟨(.inside 4),[],.lcode,false,[],false⟩,none,true,false,false,none,false,⟨.lblank,some .internalNl,true,.lcode⟩⟩] .leaf) 14122888 [⟨⟨(.inside 4),[],.lblank,true,[],false⟩,false,false,[],some 4,some ⟨(.inside 4),[],.lcode,false,[],false⟩,none,true,false,false,none,false,⟨.lblank,some .internalNl,true,.lcomment⟩⟩] (.node .leaf 14122952 [⟨⟨(.inside 4),[],.lblank,true,[],false⟩,false,false,[],some 4,some ⟨(.inside 4),[],.lcode,false,[],false⟩,none,true,false,false,none,false,⟨.lblank,some .internalNl,true,.lblank⟩⟩] .leaf))),(.node (.node (.node (.node .leaf 13826856 [⟨⟨(.inside 4),[],.lcode,true,[],false⟩,false,false,[],some 4,some ⟨(.inside 4),[],.lcode,false,[],false⟩,none,false,false,false,none,false,⟨.lcode,some (.own 3),true,.lcode⟩⟩] .leaf) 13826864 [⟨⟨(.inside 4),[],.lcode,true,[],false⟩,false,false,[],some 4,some ⟨(.inside 4),[],.lcode,false,[],false⟩,none,true,false,false,none,false,⟨.lcode,some .internalNl,true,.lcode⟩⟩] .leaf) 13826920 [⟨⟨(.inside 4),[],.lcode,true,[],false⟩,false,false,[],some 4,some ⟨(.inside 4),[],.lcode,false,[],false⟩,none,false,false,false,none,false,⟨.lcode,some (.own 3),true,.lcomment⟩⟩] (.node .leaf 13826928 [⟨⟨(.inside 4),[],.lcode,true,[],false⟩,false,false,[],some 4,some ⟨(.inside 4),[],.lcode,false,[],false⟩,none,true,false,false,none,false,⟨.lcode,some .internalNl,true,.lcomment⟩⟩] .leaf)) 13826984 [⟨⟨(.inside 4),[],.lcode,true,[],false⟩,false,false,[],some 4,some ⟨(.inside 4),[],.lcode,false,[],false⟩,none,false,false,false,none,false,⟨.lcode,some (.own 3),true,.lblank⟩⟩] (.node (.node (.node .leaf 13826992 [⟨⟨(.inside 4),[],.lcode,true,[],false⟩,false,false,[],some 4,some ⟨(.inside 4),[],.lcode,false,[],false⟩,none,true,false,false,none,false,⟨.lcode,some .internalNl,true,.lblank⟩⟩] .leaf) 14122824 [⟨⟨(.inside 4),[],.lblank,true,[],false⟩,false,false,[],some 4,some ⟨(.inside 4),[],.lcode,false,[],false⟩,none,true,false,false,none,false,⟨.lblank,some .internalNl,true,.lcode⟩⟩] .leaf) 14122888 [⟨⟨(.inside 4),[],.lblank,true,[],false⟩,false,false,[],some 4,some ⟨(.inside 4),[],.lcode,false,[],false⟩,none,true,false,false,none,false,⟨.lblank,some .internalNl,true,.lcomment⟩⟩] (.node .leaf 14122952 [⟨⟨(.inside 4),[],.lblank,true,[],false⟩,false,false,[],some 4,some ⟨(.inside 4),[],.lcode,false,[],false⟩,none,true,false,false,none,false,⟨.lblank,some .internalNl,true,.lblank⟩⟩] .leaf))),(.node (.node (.node (.node .leaf 13790021 [⟨⟨(.inside 4),[],.lcode,false,[],false⟩,true,false,[],some 4,some ⟨(.inside 4),[],.lcode,false,[],false⟩,none,false,false,false,none,false,⟨.lcode,some (.own 3),true,.lcode⟩⟩] .leaf) 13790029 [⟨⟨(.inside 4),[],.lcode,false,[],false⟩,true,false,[],some 4,some ⟨(.inside 4),[],.lcode,false,[],false⟩,none,true,false,false,none,false,⟨.lcode,some .internalNl,true,.lcode⟩⟩] .leaf) 13790085 [⟨⟨(.inside 4),[],.lcode,false,[],false⟩,true,false,[],some 4,some ⟨(.inside 4),[],.lcode,false,[],false⟩,none,false,false,false,none,false,⟨.lcode,some (.own 3),true,.lcomment⟩⟩] (.node .leaf 13790093 [⟨⟨(.inside 4),[],.lcode,false,[],false⟩,true,false,[],some 4,some ⟨(.inside 4),[],.lcode,false,[],false⟩,none,true,false,false,none,false,⟨.lcode,some .internalNl,true,.lcomment⟩⟩] .leaf)) 13790149 [⟨⟨(.inside 4),[],.lcode,false,[],false⟩,true,false,[],some 4,some ⟨(.inside 4),[],.lcode,false,[],false⟩,none,false,false,false,none,false,⟨.lcode,some (.own 3),true,.lblank⟩⟩] (.node (.node (.node .leaf 13790157 [⟨⟨(.inside 4),[],.lcode,false,[],false⟩,true,false,[],some 4,some ⟨(.inside 4),[],.lcode,false,[],false⟩,none,true,false,false,none,false,⟨.lcode,some .internalNl,true,.lblank⟩⟩] .leaf) 14085989 [⟨⟨(.inside 4),[],.lblank,false,[],false⟩,true,false,[],some 4,some ⟨(.inside 4),[],.lcode,false,[],false⟩,none,true,false,false,none,false,⟨.lblank,some .internalNl,true,.lcode⟩⟩] .leaf) 14086053 [⟨⟨(.inside 4),[],.lblank,false,[],false⟩,true,false,[],some 4,some ⟨(.inside 4),[],.lcode,false,[],false⟩,none,true,false,false,none,false,⟨.lblank,some .internalNl,true,.lcomment⟩⟩] (.node .leaf 14086117 [⟨⟨(.inside 4),[],.lblank,false,[],false⟩,true,false,[],some 4,some ⟨(.inside 4),[],.lcode,false,[],false⟩,none,true,false,false,none,false,⟨.lblank,some .internalNl,true,.lblank⟩⟩] .leaf))),(.node (.node (.node (.node .leaf 13826872 [⟨⟨(.inside 4),[],.lcode,true,[],false⟩,false,true,[],some 4,some ⟨(.inside 4),[],.lcode,false,[],false⟩,none,false,false,false,none,false,⟨.lcode,some (.own 3),true,.lcode⟩⟩] .leaf) 13826880 [⟨⟨(.inside 4),[],.lcode,true,[],false⟩,false,true,[],some 4,some ⟨(.inside 4),[],.lcode,false,[],false⟩,none,true,false,false,none,false,⟨.lcode,some .internalNl,true,.lcode⟩⟩] .leaf) 13826936 [⟨⟨(.inside 4),[],.lcode,true,[],false⟩,false,true,[],some 4,some ⟨(.inside 4),[],.lcode,false,[],false⟩,none,false,false,false,none,false,⟨.lcode,some (.own 3),true,.lcomment⟩⟩] (.node .leaf 13826944 [⟨⟨(.inside 4),[],.lcode,true,[],false⟩,false,true,[],some 4,some ⟨(.inside 4),[],.lcode,false,[],false⟩,none,true,false,false,none,false,⟨.lcode,some .internalNl,true,.lcomment⟩⟩] .leaf)) 13827000 [⟨⟨(.inside 4),[],.lcode,true,[],false⟩,false,true,[],some 4,some ⟨(.inside 4),[],.lcode,false,[],false⟩,none,false,false,false,none,false,⟨.lcode,some (.own 3),true,.lblank⟩⟩] (.node (.node (.node .leaf 13827008 [⟨⟨(.inside 4),[],.lcode,true,[],false⟩,false,true,[],some 4,some ⟨(.inside 4),[],.lcode,false,[],false⟩,none,true,false,false,none,false,⟨.lcode,some .internalNl,true,.lblank⟩⟩] .leaf) 14122840 [⟨⟨(.inside 4),[],.lblank,true,[],false⟩,false,true,[],some 4,some ⟨(.inside 4),[],.lcode,false,[],false⟩,none,true,false,false,none,false,⟨.lblank,some .internalNl,true,.lcode⟩⟩] .leaf) 14122904 [⟨⟨(.inside 4),[],.lblank,true,[],false⟩,false,true,[],some 4,some ⟨(.inside 4),[],.lcode,false,[],false⟩,none,true,false,false,none,false,⟨.lblank,some .internalNl,true,.lcomment⟩⟩] (.node .leaf 14122968 [⟨⟨(.inside 4),[],.lblank,true,[],false⟩,false,true,[],some 4,some ⟨(.inside 4),[],.lcode,false,[],false⟩,none,true,false,false,none,false,⟨.lblank,some .internalNl,true,.lblank⟩⟩] .leaf))),(.node (.node (.node (.node .leaf 1704252540 [⟨⟨(.inside 4),[92],.lcode,false,[],false⟩,false,false,[],some 4,some ⟨(.inside 4),[],.lcode,false,[],false⟩,none,false,false,false,none,false,⟨.lcode,some (.own 3),true,.lcode⟩⟩] .leaf) 1704252548 [⟨⟨(.inside 4),[92],.lcode,false,[],false⟩,false,false,[],some 4,some ⟨(.inside 4),[],.lcode,false,[],false⟩,none,true,false,false,none,false,⟨.lcode,some .internalNl,true,.lcode⟩⟩] .leaf) 1704252604 [⟨⟨(.inside 4),[92],.lcode,false,[],false⟩,false,false,[],some 4,some ⟨(.inside 4),[],.lcode,false,[],false⟩,none,false,false,false,none,false,⟨.lcode,some (.own 3),true,.lcomment⟩⟩] (.node .leaf 1704252612 [⟨⟨(.inside 4),[92],.lcode,false,[],false⟩,false,false,[],some 4,some ⟨(.inside 4),[],.lcode,false,[],false⟩,none,true,false,false,none,false,⟨.lcode,some .internalNl,true,.lcomment⟩⟩] .leaf)) 1704252668 [⟨⟨(.inside 4),[92],.lcode,false,[],false⟩,false,false,[],some 4,some ⟨(.inside 4),[],.lcode,false,[],false⟩,none,false,false,false,none,false,⟨.lcode,some (.own 3),true,.lblank⟩⟩] (.node (.node (.node .leaf 1704252676 [⟨⟨(.inside 4),[92],.lcode,false,[],false⟩,false,false,[],some 4,some ⟨(.inside 4),[],.lcode,false,[],false⟩,none,true,false,false,none,false,⟨.lcode,some .internalNl,true,.lblank⟩⟩] .leaf) 1742890188 [⟨⟨(.inside 4),[92],.lblank,false,[],false⟩,false,false,[],some 4,some ⟨(.inside 4),[],.lcode,false,[],false⟩,none,true,false,false,none,false,⟨.lblank,some .internalNl,true,.lcode⟩⟩] .leaf) 1742890252 [⟨⟨(.inside 4),[92],.lblank,false,[],false⟩,false,false,[],some 4,some ⟨(.inside 4),[],.lcode,false,[],false⟩,none,true,false,false,none,false,⟨.lblank,some .internalNl,true,.lcomment⟩⟩] (.node .leaf 1742890316 [⟨⟨(.inside 4),[92],.lblank,false,[],false⟩,false,false,[],some 4,some ⟨(.inside 4),[],.lcode,false,[],false⟩,none,true,false,false,none,false,⟨.lblank,some .internalNl,true,.lblank⟩⟩] .leaf))),(.node (.node (.node .leaf 1179872 [⟨⟨(.inside 0),[],.lcode,false,[],false⟩,false,false,[],none,none,none,false,false,false,none,false,⟨.lcode,some (.own 3),false,.lblank⟩⟩] .leaf) 1327852 [⟨⟨(.inside 0),[],.lcomment,false,[],false⟩,false,false,[],none,none,none,false,false,false,none,false,⟨.lcomment,some (.own 3),false,.lblank⟩⟩] .leaf) 4129232 [⟨⟨(.inside 1),[],.lcode,false,[],false⟩,false,false,[],none,none,none,false,false,false,none,false,⟨.lcode,some (.own 3),false,.lblank⟩⟩] (.node .leaf 4277212 [⟨⟨(.inside 1),[],.lcomment,false,[],false⟩,false,false,[],none,none,none,false,false,false,none,false,⟨.lcomment,some (.own 3),false,.lblank⟩⟩] .leaf)),(.node (.node (.node .leaf 10656069 [⟨⟨(.inside 3),[],.lcode,false,[],false⟩,false,false,[],some 4,some ⟨(.inside 3),[],.lcode,false,[],false⟩,none,false,false,false,none,false,⟨.lcode,some (.own 3),true,.lcode⟩⟩] .leaf) 10656077 [⟨⟨(.inside 3),[],.lcode,false,[],false⟩,false,false,[],some 4,some ⟨(.inside 3),[],.lcode,false,[],false⟩,none,true,false,false,none,false,⟨.lcode,some .internalNl,true,.lcode⟩⟩] (.node .leaf 10656133 [⟨⟨(.inside 3),[],.lcode,false,[],false⟩,false,false,[],some 4,some ⟨(.inside 3),[],.lcode,false,[],false⟩,none,false,false,false,none,false,⟨.lcode,some (.own 3),true,.lcomment⟩⟩] .leaf)) 10656141 [⟨⟨(.inside 3),[],.lcode,false,[],false⟩,false,false,[],some 4,some ⟨(.inside 3),[],.lcode,false,[],false⟩,none,true,false,false,none,false,⟨.lcode,some .internalNl,true,.lcomment⟩⟩] (.node (.node .leaf 10656197 [⟨⟨(.inside 3),[],.lcode,false,[],false⟩,false,false,[],some 4,some ⟨(.inside 3),[],.lcode,false,[],false⟩,none,false,false,false,none,false,⟨.lcode,some (.own 3),true,.lblank⟩⟩] .leaf) 10656205 [⟨⟨(.inside 3),[],.lcode,false,[],false⟩,false,false,[],some 4,some ⟨(.inside 3),[],.lcode,false,[],false⟩,none,true,false,false,none,false,⟨.lcode,some .internalNl,true,.lblank⟩⟩] .leaf)),(.node (.node (.node .leaf 10656069 [⟨⟨(.inside 3),[],.lcode,false,[],false⟩,false,false,[],some 4,some ⟨(.inside 3),[],.lcode,false,[],false⟩,none,false,false,false,none,false,⟨.lcode,some (.own 3),true,.lcode⟩⟩] .leaf) 10656077 [⟨⟨(.inside 3),[],.lcode,false,[],false⟩,false,false,[],some 4,some ⟨(.inside 3),[],.lcode,false,[],false⟩,none,true,false,false,none,false,⟨.lcode,some .internalNl,true,.lcode⟩⟩] (.node .leaf 10656133 [⟨⟨(.inside 3),[],.lcode,false,[],false⟩,false,false,[],some 4,some ⟨(.inside 3),[],.lcode,false,[],false⟩,none,false,false,false,none,false,⟨.lcode,some (.own 3),true,.lcomment⟩⟩] .leaf)) 10656141 [⟨⟨(.inside 3),[],.lcode,false,[],false⟩,false,false,[],some 4,some ⟨(.inside 3),[],.lcode,false,[],false⟩,none,true,false,false,none,false,⟨.lcode,some .internalNl,true,.lcomment⟩⟩] (.node (.node .leaf 10656197 [⟨⟨(.inside 3),[],.lcode,false,[],false⟩,false,false,[],some 4,some ⟨(.inside 3),[],.lcode,false,[],false⟩,none,false,false,false,none,false,⟨.lcode,some (.own 3),true,.lblank⟩⟩] .leaf) 10656205 [⟨⟨(.inside 3),[],.lcode,false,[],false⟩,false,false,[],some 4,some ⟨(.inside 3),[],.lcode,false,[],false⟩,none,true,false,false,none,false,⟨.lcode,some .internalNl,true,.lblank⟩⟩] .leaf)),(.node (.node (.node (.node .leaf 10692936 [⟨⟨(.inside 3),[],.lcode,true,[],false⟩,false,false,[],some 4,some ⟨(.inside 3),[],.lcode,false,[],false⟩,none,false,false,false,none,false,⟨.lcode,some (.own 3),true,.lcode⟩⟩] .leaf) 10692944 [⟨⟨(.inside 3),[],.lcode,true,[],false⟩,false,false,[],some 4,some ⟨(.inside 3),[],.lcode,false,[],false⟩,none,true,false,false,none,false,⟨.lcode,some .internalNl,true,.lcode⟩⟩] .leaf) 10693000 [⟨⟨(.inside 3),[],.lcode,true,[],false⟩,false,false,[],some 4,some ⟨(.inside 3),[],.lcode,false,[],false⟩,none,false,false,false,none,false,⟨.lcode,some (.own 3),true,.lcomment⟩⟩] (.node .leaf 10693008 [⟨⟨(.inside 3),[],.lcode,true,[],false⟩,false,false,[],some 4,some ⟨(.inside 3),[],.lcode,false,[],false⟩,none,true,false,false,none,false,⟨.lcode,some .internalNl,true,.lcomment⟩⟩] .leaf)) 10693064 [⟨⟨(.inside 3),[],.lcode,true,[],false⟩,false,false,[],some 4,some ⟨(.inside 3),[],.lcode,false,[],false⟩,none,false,false,false,none,false,⟨.lcode,some (.own 3),true,.lblank⟩⟩] (.node (.node (.node .leaf 10693072 [⟨⟨(.inside 3),[],.lcode,true,[],false⟩,false,false,[],some 4,some ⟨(.inside 3),[],.lcode,false,[],false⟩,none,true,false,false,none,false,⟨.lcode,some .internalNl,true,.lblank⟩⟩] .leaf) 10988904 [⟨⟨(.inside 3),[],.lblank,true,[],false⟩,false,false,[],some 4,some ⟨(.inside 3),[],.lcode,false,[],false⟩,none,true,false,false,none,false,⟨.lblank,some .internalNl,true,.lcode⟩⟩] .leaf) 10988968 [⟨⟨(.inside 3),[],.lblank,true,[],false⟩,false,false,[],some 4,some ⟨(.inside 3),[],.lcode,false,[],false⟩,none,true,false,false,none,false,⟨.lblank,some .internalNl,true,.lcomment⟩⟩] (.node .leaf 10989032 [⟨⟨(.inside 3),[],.lblank,true,[],false⟩,false,false,[],some 4,some ⟨(.inside 3),[],.lcode,false,[],false⟩,none,true,false,false,none,false,⟨.lblank,some .internalNl,true,.lblank⟩⟩] .leaf))),(.node (.node (.node (.node .leaf 10692936 [⟨⟨(.inside 3),[],.lcode,true,[],false⟩,false,false,[],some 4,some ⟨(.inside 3),[],.lcode,false,[],false⟩,none,false,false,false,none,false,⟨.lcode,some (.own 3),true,.lcode⟩⟩] .leaf) 10692944 [⟨⟨(.inside 3),[],.lcode,true,[],false⟩,false,false,[],some 4,some ⟨(.inside 3),[],.lcode,false,[],false⟩,none,true,false,false,none,false,⟨.lcode,some .internalNl,true,.lcode⟩⟩] .leaf) 10693000 [⟨⟨(.inside 3),[],.lcode,true,[],false⟩,false,false,[],some 4,some ⟨(.inside 3),[],.lcode,false,[],false⟩,none,false,false,false,none,false,⟨.lcode,some (.own 3),true,.lcomment⟩⟩] (.node .leaf 10693008 [⟨⟨(.inside 3),[],.lcode,true,[],false⟩,false,false,[],some 4,some ⟨(.inside 3),[],.lcode,false,[],false⟩,none,true,false,false,none,false,⟨.lcode,some .internalNl,true,.lcomment⟩⟩] .leaf)) 10693064 [⟨⟨(.inside 3),[],.lcode,true,[],false⟩,false,false,[],some 4,some ⟨(.inside 3),[],.lcode,false,[],false⟩,none,false,false,false,none,false,⟨.lcode,some (.own 3),true,.lblank⟩⟩] (.node (.node (.node .leaf 10693072 [⟨⟨(.inside 3),[],.lcode,true,[],false⟩,false,false,[],some 4,some ⟨(.inside 3),[],.lcode,false,[],false⟩,none,true,false,false,none,false,⟨.lcode,some .internalNl,true,.lblank⟩⟩] .leaf) 10988904 [⟨⟨(.inside 3),[],.lblank,true,[],false⟩,false,false,[],some 4,some ⟨(.inside 3),[],.lcode,false,[],false⟩,none,true,false,false,none,false,⟨.lblank,some .internalNl,true,.lcode⟩⟩] .leaf) 10988968 [⟨⟨(.inside 3),[],.lblank,true,[],false⟩,false,false,[],some 4,some ⟨(.inside 3),[],.lcode,false,[],false⟩,none,true,false,false,none,false,⟨.lblank,some .internalNl,true,.lcomment⟩⟩] (.node .leaf 10989032 [⟨⟨(.inside 3),[],.lblank,true,[],false⟩,false,false,[],some 4,some ⟨(.inside 3),[],.lcode,false,[],false⟩,none,true,false,false,none,false,⟨.lblank,some .internalNl,true,.lblank⟩⟩] .leaf))),(.node (.node (.node (.node .leaf 10656101 [⟨⟨(.inside 3),[],.lcode,false,[],false⟩,true,false,[],some 4,some ⟨(.inside 3),[],.lcode,false,[],false⟩,none,false,false,false,none,false,⟨.lcode,some (.own 3),true,.lcode⟩⟩] .leaf) 10656109 [⟨⟨(.inside 3),[],.lcode,false,[],false⟩,true,false,[],some 4,some ⟨(.inside 3),[],.lcode,false,[],false⟩,none,true,false,false,none,false,⟨.lcode,some .internalNl,true,.lcode⟩⟩] .leaf) 10656165 [⟨⟨(.inside 3),[],.lcode,false,[],false⟩,true,false,[],some 4,some ⟨(.inside 3),[],.lcode,false,[],false⟩,none,false,false,false,none,false,⟨.lcode,some (.own 3),true,.lcomment⟩⟩] (.node .leaf 10656173 [⟨⟨(.inside 3),[],.lcode,false,[],false⟩,true,false,[],some 4,some ⟨(.inside 3),[],.lcode,false,[],false⟩,none,true,false,false,none,false,⟨.lcode,some .internalNl,true,.lcomment⟩⟩] .leaf)) 10656229 [⟨⟨(.inside 3),[],.lcode,false,[],false⟩,true,false,[],some 4,some ⟨(.inside 3),[],.lcode,false,[],false⟩,none,false,false,false,none,false,⟨.lcode,some (.own 3),true,.lblank⟩⟩] (.node (.node (.node .leaf 10656237 [⟨⟨(.inside 3),[],.lcode,false,[],false⟩,true,false,[],some 4,some ⟨(.inside 3),[],.lcode,false,[],false⟩,none,true,false,false,none,false,⟨.lcode,some .internalNl,true,.lblank⟩⟩] .leaf) 10952069 [⟨⟨(.inside 3),[],.lblank,false,[],false⟩,true,false,[],some 4,some ⟨(.inside 3),[],.lcode,false,[],false⟩,none,true,false,false,none,false,⟨.lblank,some .internalNl,true,.lcode⟩⟩] .leaf) 10952133 [⟨⟨(.inside 3),[],.lblank,false,[],false⟩,true,false,[],some 4,some ⟨(.inside 3),[],.lcode,false,[],false⟩,none,true,false,false,none,false,⟨.lblank,some .internalNl,true,.lcomment⟩⟩] (.node .leaf 10952197 [⟨⟨(.inside 3),[],.lblank,false,[],false⟩,true,false,[],some 4,some ⟨(.inside 3),[],.lcode,false,[],false⟩,none,true,false,false,none,false,⟨.lblank,some .internalNl,true,.lblank⟩⟩] .leaf))),(.node (.node (.node (.node .leaf 10692952 [⟨⟨(.inside 3),[],.lcode,true,[],false⟩,false,true,[],some 4,some ⟨(.inside 3),[],.lcode,false,[],false⟩,none,false,false,false,none,false,⟨.lcode,some (.own 3),true,.lcode⟩⟩] .leaf) 10692960 [⟨⟨(.inside 3),[],.lcode,true,[],false⟩,false,true,[],some 4,some ⟨(.inside 3),[],.lcode,false,[],false⟩,none,true,false,false,none,false,⟨.lcode,some .internalNl,true,.lcode⟩⟩] .leaf) 10693016 [⟨⟨(.inside 3),[],.lcode,true,[],false⟩,false,true,[],some 4,some ⟨(.inside 3),[],.lcode,false,[],false⟩,none,false,false,false,none,false,⟨.lcode,some (.own 3),true,.lcomment⟩⟩] (.node .leaf 10693024 [⟨⟨(.inside 3),[],.lcode,true,[],false⟩,false,true,[],some 4,some ⟨(.inside 3),[],.lcode,false,[],false⟩,none,true,false,false,none,false,⟨.lcode,some .internalNl,true,.lcomment⟩⟩] .leaf)) 10693080 [⟨⟨(.inside 3),[],.lcode,true,[],false⟩,false,true,[],some 4,some ⟨(.inside 3),[],.lcode,false,[],false⟩,none,false,false,false,none,false,⟨.lcode,some (.own 3),true,.lblank⟩⟩] (.node (.node (.node .leaf 10693088 [⟨⟨(.inside 3),[],.lcode,true,[],false⟩,false,true,[],some 4,some ⟨(.inside 3),[],.lcode,false,[],false⟩,none,true,false,false,none,false,⟨.lcode,some .internalNl,true,.lblank⟩⟩] .leaf) 10988920 [⟨⟨(.inside 3),[],.lblank,true,[],false⟩,false,true,[],some 4,some ⟨(.inside 3),[],.lcode,false,[],false⟩,none,true,false,false,none,false,⟨.lblank,some .internalNl,true,.lcode⟩⟩] .leaf) 10988984 [⟨⟨(.inside 3),[],.lblank,true,[],false⟩,false,true,[],some 4,some ⟨(.inside 3),[],.lcode,false,[],false⟩,none,true,false,false,none,false,⟨.lblank,some .internalNl,true,.lcomment⟩⟩] (.node .leaf 10989048 [⟨⟨(.inside 3),[],.lblank,true,[],false⟩,false,true,[],some 4,some ⟨(.inside 3),[],.lcode,false,[],false⟩,none,true,false,false,none,false,⟨.lblank,some .internalNl,true,.lblank⟩⟩] .leaf))),(.node (.node (.node (.node .leaf 1317701820 [⟨⟨(.inside 3),[92],.lcode,false,[],false⟩,false,false,[],some 4,some ⟨(.inside 3),[],.lcode,false,[],false⟩,none,false,false,false,none,false,⟨.lcode,some (.own 3),true,.lcode⟩⟩] .leaf) 1317701828 [⟨⟨(.inside 3),[92],.lcode,false,[],false⟩,false,false,[],some 4,some ⟨(.inside 3),[],.lcode,false,[],false⟩,none,true,false,false,none,false,⟨.lcode,some .internalNl,true,.lcode⟩⟩] .leaf) 1317701884 [⟨⟨(.inside 3),[92],.lcode,false,[],false⟩,false,false,[],some 4,some ⟨(.inside 3),[],.lcode,false,[],false⟩,none,false,false,false,none,false,⟨.lcode,some (.own 3),true,.lcomment⟩⟩] (.node .leaf 1317701892 [⟨⟨(.inside 3),[92],.lcode,false,[],false⟩,false,false,[],some 4,some ⟨(.inside 3),[],.lcode,false,[],false⟩,none,true,false,false,none,false,⟨.lcode,some .internalNl,true,.lcomment⟩⟩] .leaf)) 1317701948 [⟨⟨(.inside 3),[92],.lcode,false,[],false⟩,false,false,[],some 4,some ⟨(.inside 3),[],.lcode,false,[],false⟩,none,false,false,false,none,false,⟨.lcode,some (.own 3),true,.lblank⟩⟩] (.node (.node (.node .leaf 1317701956 [⟨⟨(.inside 3),[92],.lcode,false,[],false⟩,false,false,[],some 4,some ⟨(.inside 3),[],.lcode,false,[],false⟩,none,true,false,false,none,false,⟨.lcode,some .internalNl,true,.lblank⟩⟩] .leaf) 1356339468 [⟨⟨(.inside 3),[92],.lblank,false,[],false⟩,false,false,[],some 4,some ⟨(.inside 3),[],.lcode,false,[],false⟩,none,true,false,false,none,false,⟨.lblank,some .internalNl,true,.lcode⟩⟩] .leaf) 1356339532 [⟨⟨(.inside 3),[92],.lblank,false,[],false⟩,false,false,[],some 4,some ⟨(.inside 3),[],.lcode,false,[],false⟩,none,true,false,false,none,false,⟨.lblank,some .internalNl,true,.lcomment⟩⟩] (.node .leaf 1356339596 [⟨⟨(.inside 3),[92],.lblank,false,[],false⟩,false,false,[],some 4,some ⟨(.inside 3),[],.lcode,false,[],false⟩,none,true,false,false,none,false,⟨.lblank,some .internalNl,true,.lblank⟩⟩] .leaf))),(.node (.node .leaf 613191631 [⟨⟨(.inside 2),[],.lcode,false,[],false⟩,false,false,[],some 4,some ⟨.code,[47],.lcode,false,[],false⟩,some ([(42,(.other,false))],false),false,false,false,none,false,⟨.lcode,some (.own 3),false,.lblank⟩⟩] .leaf) 614548479 [⟨⟨(.inside 2),[],.lcomment,false,[],false⟩,false,false,[],some 4,some ⟨.code,[47],.lcomment,false,[],false⟩,some ([(42,(.other,false))],false),false,false,false,none,false,⟨.lcomment,some (.own 3),false,.lblank⟩⟩] (.node .leaf 615757347 [⟨⟨(.inside 2),[],.lcomment,false,[],false⟩,false,false,[],some 4,some ⟨.code,[47],.lblank,false,[],false⟩,some ([(42,(.other,false))],false),false,false,false,none,false,⟨.lcomment,some (.own 3),false,.lblank⟩⟩] .leaf)),(.node (.node .leaf 1179872 [⟨⟨(.inside 0),[],.lcode,false,[],false⟩,false,false,[],none,none,none,false,false,false,none,false,⟨.lcode,some (.own 3),false,.lblank⟩⟩] .leaf) 1327852 [⟨⟨(.inside 0),[],.lcomment,false,[],false⟩,false,false,[],none,none,none,false,false,false,none,false,⟨.lcomment,some (.own 3),false,.lblank⟩⟩] .leaf),(.node (.node (.node (.node .leaf 13826856 [⟨⟨(.inside 4),[],.lcode,true,[],false⟩,false,false,[],some 4,some ⟨(.inside 4),[],.lcode,false,[],false⟩,none,false,false,false,none,false,⟨.lcode,some (.own 3),true,.lcode⟩⟩] .leaf) 13826864 [⟨⟨(.inside 4),[],.lcode,true,[],false⟩,false,false,[],some 4,some ⟨(.inside 4),[],.lcode,false,[],false⟩,none,true,false,false,none,false,⟨.lcode,some .internalNl,true,.lcode⟩⟩] .leaf) 13826920 [⟨⟨(.inside 4),[],.lcode,true,[],false⟩,false,false,[],some 4,some ⟨(.inside 4),[],.lcode,false,[],false⟩,none,false,false,false,none,false,⟨.lcode,some (.own 3),true,.lcomment⟩⟩] (.node .leaf 13826928 [⟨⟨(.inside 4),[],.lcode,true,[],false⟩,false,false,[],some 4,some ⟨(.inside 4),[],.lcode,false,[],false⟩,none,true,false,false,none,false,⟨.lcode,some .internalNl,true,.lcomment⟩⟩] .leaf)) 13826984 [⟨⟨(.inside 4),[],.lcode,true,[],false⟩,false,false,[],some 4,some ⟨(.inside 4),[],.lcode,false,[],false⟩,none,false,false,false,none,false,⟨.lcode,some (.own 3),true,.lblank⟩⟩] (.node (.node (.node .leaf 13826992 [⟨⟨(.inside 4),[],.lcode,true,[],false⟩,false,false,[],some 4,some ⟨(.inside 4),[],.lcode,false,[],false⟩,none,true,false,false,none,false,⟨.lcode,some .internalNl,true,.lblank⟩⟩] .leaf) 14122824 [⟨⟨(.inside 4),[],.lblank,true,[],false⟩,false,false,[],some 4,some ⟨(.inside 4),[],.lcode,false,[],false⟩,none,true,false,false,none,false,⟨.lblank,some .internalNl,true,.lcode⟩⟩] .leaf) 14122888 [⟨⟨(.inside 4),[],.lblank,true,[],false⟩,false,false,[],some 4,some ⟨(.inside 4),[],.lcode,false,[],false⟩,none,true,false,false,none,false,⟨.lblank,some .internalNl,true,.lcomment⟩⟩] (.node .leaf 14122952 [⟨⟨(.inside 4),[],.lblank,true,[],false⟩,false,false,[],some 4,some ⟨(.inside 4),[],.lcode,false,[],false⟩,none,true,false,false,none,false,⟨.lblank,some .internalNl,true,.lblank⟩⟩] .leaf))),.leaf,(.node (.node (.node .leaf 13789989 [⟨⟨(.inside 4),[],.lcode,false,[],false⟩,false,false,[],some 4,some ⟨(.inside 4),[],.lcode,false,[],false⟩,none,false,false,false,none,false,⟨.lcode,some (.own 3),true,.lcode⟩⟩] .leaf) 13789997 [⟨⟨(.inside 4),[],.lcode,false,[],false⟩,false,false,[],some 4,some ⟨(.inside 4),[],.lcode,false,[],false⟩,none,true,false,false,none,false,⟨.lcode,some .internalNl,true,.lcode⟩⟩] (.node .leaf 13790053 [⟨⟨(.inside 4),[],.lcode,false,[],false⟩,false,false,[],some 4,some ⟨(.inside 4),[],.lcode,false,[],false⟩,none,false,false,false,none,false,⟨.lcode,some (.own 3),true,.lcomment⟩⟩] .leaf)) 13790061 [⟨⟨(.inside 4),[],.lcode,false,[],false⟩,false,false,[],some 4,some ⟨(.inside 4),[],.lcode,false,[],false⟩,none,true,false,false,none,false,⟨.lcode,some .internalNl,true,.lcomment⟩⟩] (.node (.node .leaf 13790117 [⟨⟨(.inside 4),[],.lcode,false,[],false⟩,false,false,[],some 4,some ⟨(.inside 4),[],.lcode,false,[],false⟩,none,false,false,false,none,false,⟨.lcode,some (.own 3),true,.lblank⟩⟩] .leaf) 13790125 [⟨⟨(.inside 4),[],.lcode,false,[],false⟩,false,false,[],some 4,some ⟨(.inside 4),[],.lcode,false,[],false⟩,none,true,false,false,none,false,⟨.lcode,some .internalNl,true,.lblank⟩⟩] .leaf)),(.node (.node (.node (.node .leaf 10692936 [⟨⟨(.inside 3),[],.lcode,true,[],false⟩,false,false,[],some 4,some ⟨(.inside 3),[],.lcode,false,[],false⟩,none,false,false,false,none,false,⟨.lcode,some (.own 3),true,.lcode⟩⟩] .leaf) 10692944 [⟨⟨(.inside 3),[],.lcode,true,[],false⟩,false,false,[],some 4,some ⟨(.inside 3),[],.lcode,false,[],false⟩,none,true,false,false,none,false,⟨.lcode,some .internalNl,true,.lcode⟩⟩] .leaf) 10693000 [⟨⟨(.inside 3),[],.lcode,true,[],false⟩,false,false,[],some 4,some ⟨(.inside 3),[],.lcode,false,[],false⟩,none,false,false,false,none,false,⟨.lcode,some (.own 3),true,.lcomment⟩⟩] (.node .leaf 10693008 [⟨⟨(.inside 3),[],.lcode,true,[],false⟩,false,false,[],some 4,some ⟨(.inside 3),[],.lcode,false,[],false⟩,none,true,false,false,none,false,⟨.lcode,some .internalNl,true,.lcomment⟩⟩] .leaf)) 10693064 [⟨⟨(.inside 3),[],.lcode,true,[],false⟩,false,false,[],some 4,some ⟨(.inside 3),[],.lcode,false,[],false⟩,none,false,false,false,none,false,⟨.lcode,some (.own 3),true,.lblank⟩⟩] (.node (.node (.node .leaf 10693072 [⟨⟨(.inside 3),[],.lcode,true,[],false⟩,false,false,[],some 4,some ⟨(.inside 3),[],.lcode,false,[],false⟩,none,true,false,false,none,false,⟨.lcode,some .internalNl,true,.lblank⟩⟩] .leaf) 10988904 [⟨⟨(.inside 3),[],.lblank,true,[],false⟩,false,false,[],some 4,some ⟨(.inside 3),[],.lcode,false,[],false⟩,none,true,false,false,none,false,⟨.lblank,some .internalNl,true,.lcode⟩⟩] .leaf) 10988968 [⟨⟨(.inside 3),[],.lblank,true,[],false⟩,false,false,[],some 4,some ⟨(.inside 3),[],.lcode,false,[],false⟩,none,true,false,false,none,false,⟨.lblank,some .internalNl,true,.lcomment⟩⟩] (.node .leaf 10989032 [⟨⟨(.inside 3),[],.lblank,true,[],false⟩,false,false,[],some 4,some ⟨(.inside 3),[],.lcode,false,[],false⟩,none,true,false,false,none,false,⟨.lblank,some .internalNl,true,.lblank⟩⟩] .leaf))),.leaf,(.node (.node (.node .leaf 10656069 [⟨⟨(.inside 3),[],.lcode,false,[],false⟩,false,false,[],some 4,some ⟨(.inside 3),[],.lcode,false,[],false⟩,none,false,false,false,none,false,⟨.lcode,some (.own 3),true,.lcode⟩⟩] .leaf) 10656077 [⟨⟨(.inside 3),[],.lcode,false,[],false⟩,false,false,[],some 4,some ⟨(.inside 3),[],.lcode,false,[],false⟩,none,true,false,false,none,false,⟨.lcode,some .internalNl,true,.lcode⟩⟩] (.node .leaf 10656133 [⟨⟨(.inside 3),[],.lcode,false,[],false⟩,false,false,[],some 4,some ⟨(.inside 3),[],.lcode,false,[],false⟩,none,false,false,false,none,false,⟨.lcode,some (.own 3),true,.lcomment⟩⟩] .leaf)) 10656141 [⟨⟨(.inside 3),[],.lcode,false,[],false⟩,false,false,[],some 4,some ⟨(.inside 3),[],.lcode,false,[],false⟩,none,true,false,false,none,false,⟨.lcode,some .internalNl,true,.lcomment⟩⟩] (.node (.node .leaf 10656197 [⟨⟨(.inside 3),[],.lcode,false,[],false⟩,false,false,[],some 4,some ⟨(.inside 3),[],.lcode,false,[],false⟩,none,false,false,false,none,false,⟨.lcode,some (.own 3),true,.lblank⟩⟩] .leaf) 10656205 [⟨⟨(.inside 3),[],.lcode,false,[],false⟩,false,false,[],some 4,some ⟨(.inside 3),[],.lcode,false,[],false⟩,none,true,false,false,none,false,⟨.lcode,some .internalNl,true,.lblank⟩⟩] .leaf)),(.node (.node (.node .leaf 613191631 [⟨⟨(.inside 2),[],.lcode,false,[],false⟩,false,false,[],some 4,some ⟨.code,[47],.lcode,false,[],false⟩,some ([(42,(.other,false))],false),false,false,false,none,false,⟨.lcode,some (.own 3),false,.lblank⟩⟩] .leaf) 613339619 [⟨⟨(.inside 2),[],.lcomment,false,[],false⟩,false,false,[],some 4,some ⟨.code,[47],.lcode,false,[],false⟩,some ([(42,(.other,false))],false),true,false,false,none,false,⟨.lcomment,some .internalNl,false,.lblank⟩⟩] (.node .leaf 614548479 [⟨⟨(.inside 2),[],.lcomment,false,[],false⟩,false,false,[],some 4,some ⟨.code,[47],.lcomment,false,[],false⟩,some ([(42,(.other,false))],false),false,false,false,none,false,⟨.lcomment,some (.own 3),false,.lblank⟩⟩] .leaf)) 614548487 [⟨⟨(.inside 2),[],.lcomment,false,[],false⟩,false,false,[],some 4,some ⟨.code,[47],.lcomment,false,[],false⟩,some ([(42,(.other,false))],false),true,false,false,none,false,⟨.lcomment,some .internalNl,false,.lblank⟩⟩] (.node (.node .leaf 615757347 [⟨⟨(.inside 2),[],.lcomment,false,[],false⟩,false,false,[],some 4,some ⟨.code,[47],.lblank,false,[],false⟩,some ([(42,(.other,false))],false),false,false,false,none,false,⟨.lcomment,some (.own 3),false,.lblank⟩⟩] .leaf) 615757355 [⟨⟨(.inside 2),[],.lcomment,false,[],false⟩,false,false,[],some 4,some ⟨.code,[47],.lblank,false,[],false⟩,some ([(42,(.other,false))],false),true,false,false,none,false,⟨.lcomment,some .internalNl,false,.lblank⟩⟩] .leaf)),(.node (.node (.node (.node .leaf 613191631 [⟨⟨(.inside 2),[],.lcode,false,[],false⟩,false,false,[],some 4,some ⟨.code,[47],.lcode,false,[],false⟩,some ([(42,(.other,false))],false),false,false,false,none,false,⟨.lcode,some (.own 3),false,.lblank⟩⟩] .leaf) 613339619 [⟨⟨(.inside 2),[],.lcomment,false,[],false⟩,false,false,[],some 4,some ⟨.code,[47],.lcode,false,[],false⟩,some ([(42,(.other,false))],false),true,false,false,none,false,⟨.lcomment,some .internalNl,false,.lblank⟩⟩] .leaf) 613487599 [⟨⟨(.inside 2),[],.lblank,false,[],false⟩,false,false,[],some 4,some ⟨.code,[47],.lcode,false,[],false⟩,some ([(42,(.other,false))],false),true,false,false,none,false,⟨.lblank,some .internalNl,false,.lblank⟩⟩] (.node .leaf 614548479 [⟨⟨(.inside 2),[],.lcomment,false,[],false⟩,false,false,[],some 4,some ⟨.code,[47],.lcomment,false,[],false⟩,some ([(42,(.other,false))],false),false,false,false,none,false,⟨.lcomment,some (.own 3),false,.lblank⟩⟩] .leaf)) 614548487 [⟨⟨(.inside 2),[],.lcomment,false,[],false⟩,false,false,[],some 4,some ⟨.code,[47],.lcomment,false,[],false⟩,some ([(42,(.other,false))],false),true,false,false,none,false,⟨.lcomment,some .internalNl,false,.lblank⟩⟩] (.node (.node (.node .leaf 614696467 [⟨⟨(.inside 2),[],.lblank,false,[],false⟩,false,false,[],some 4,some ⟨.code,[47],.lcomment,false,[],false⟩,some ([(42,(.other,false))],false),true,false,false,none,false,⟨.lblank,some .internalNl,false,.lblank⟩⟩] .leaf) 615757347 [⟨⟨(.inside 2),[],.lcomment,false,[],false⟩,false,false,[],some 4,some ⟨.code,[47],.lblank,false,[],false⟩,some ([(42,(.other,false))],false),false,false,false,none,false,⟨.lcomment,some (.own 3),false,.lblank⟩⟩] .leaf) 615757355 [⟨⟨(.inside 2),[],.lcomment,false,[],false⟩,false,false,[],some 4,some ⟨.code,[47],.lblank,false,[],false⟩,some ([(42,(.other,false))],false),true,false,false,none,false,⟨.lcomment,some .internalNl,false,.lblank⟩⟩] (.node .leaf 615905335 [⟨⟨(.inside 2),[],.lblank,false,[],false⟩,false,false,[],some 4,some ⟨.code,[47],.lblank,false,[],false⟩,some ([(42,(.other,false))],false),true,false,false,none,false,⟨.lblank,some .internalNl,false,.lblank⟩⟩] .leaf))),(.node (.node (.node (.node .leaf 613228498 [⟨⟨(.inside 2),[],.lcode,true,[],false⟩,false,false,[],some 4,some ⟨.code,[47],.lcode,false,[],false⟩,some ([(42,(.other,false))],false),false,false,false,none,false,⟨.lcode,some (.own 3),false,.lblank⟩⟩] .leaf) 613376486 [⟨⟨(.inside 2),[],.lcomment,true,[],false⟩,false,false,[],some 4,some ⟨.code,[47],.lcode,false,[],false⟩,some ([(42,(.other,false))],false),true,false,false,none,false,⟨.lcomment,some .internalNl,false,.lblank⟩⟩] .leaf) 613524466 [⟨⟨(.inside 2),[],.lblank,true,[],false⟩,false,false,[],some 4,some ⟨.code,[47],.lcode,false,[],false⟩,some ([(42,(.other,false))],false),true,false,false,none,false,⟨.lblank,some .internalNl,false,.lblank⟩⟩] (.node .leaf 614585346 [⟨⟨(.inside 2),[],.lcomment,true,[],false⟩,false,false,[],some 4,some ⟨.code,[47],.lcomment,false,[],false⟩,some ([(42,(.other,false))],false),false,false,false,none,false,⟨.lcomment,some (.own 3),false,.lblank⟩⟩] .leaf)) 614585354 [⟨⟨(.inside 2),[],.lcomment,true,[],false⟩,false,false,[],some 4,some ⟨.code,[47],.lcomment,false,[],false⟩,some ([(42,(.other,false))],false),true,false,false,none,false,⟨.lcomment,some .internalNl,false,.lblank⟩⟩] (.node (.node (.node .leaf 614733334 [⟨⟨(.inside 2),[],.lblank,true,[],false⟩,false,false,[],some 4,some ⟨.code,[47],.lcomment,false,[],false⟩,some ([(42,(.other,false))],false),true,false,false,none,false,⟨.lblank,some .internalNl,false,.lblank⟩⟩] .leaf) 615794214 [⟨⟨(.inside 2),[],.lcomment,true,[],false⟩,false,false,[],some 4,some ⟨.code,[47],.lblank,false,[],false⟩,some ([(42,(.other,false))],false),false,false,false,none,false,⟨.lcomment,some (.own 3),false,.lblank⟩⟩] .leaf) 615794222 [⟨⟨(.inside 2),[],.lcomment,true,[],false⟩,false,false,[],some 4,some ⟨.code,[47],.lblank,false,[],false⟩,some ([(42,(.other,false))],false),true,false,false,none,false,⟨.lcomment,some .internalNl,false,.lblank⟩⟩] (.node .leaf 615942202 [⟨⟨(.inside 2),[],.lblank,true,[],false⟩,false,false,[],some 4,some ⟨.code,[47],.lblank,false,[],false⟩,some ([(42,(.other,false))],false),true,false,false,none,false,⟨.lblank,some .internalNl,false,.lblank⟩⟩] .leaf))),(.node (.node (.node (.node .leaf 613228498 [⟨⟨(.inside 2),[],.lcode,true,[],false⟩,false,false,[],some 4,some ⟨.code,[47],.lcode,false,[],false⟩,some ([(42,(.other,false))],false),false,false,false,none,false,⟨.lcode,some (.own 3),false,.lblank⟩⟩] .leaf) 613376486 [⟨⟨(.inside 2),[],.lcomment,true,[],false⟩,false,false,[],some 4,some ⟨.code,[47],.lcode,false,[],false⟩,some ([(42,(.other,false))],false),true,false,false,none,false,⟨.lcomment,some .internalNl,false,.lblank⟩⟩] .leaf) 613524466 [⟨⟨(.inside 2),[],.lblank,true,[],false⟩,false,false,[],some 4,some ⟨.code,[47],.lcode,false,[],false⟩,some ([(42,(.other,false))],false),true,false,false,none,false,⟨.lblank,some .internalNl,false,.lblank⟩⟩] (.node .leaf 614585346 [⟨⟨(.inside 2),[],.lcomment,true,[],false⟩,false,false,[],some 4,some ⟨.code,[47],.lcomment,false,[],false⟩,some ([(42,(.other,false))],false),false,false,false,none,false,⟨.lcomment,some (.own 3),false,.lblank⟩⟩] .leaf)) 614585354 [⟨⟨(.inside 2),[],.lcomment,true,[],false⟩,false,false,[],some 4,some ⟨.code,[47],.lcomment,false,[],false⟩,some ([(42,(.other,false))],false),true,false,false,none,false,⟨.lcomment,some .internalNl,false,.lblank⟩⟩] (.node (.node (.node .leaf 614733334 [⟨⟨(.inside 2),[],.lblank,true,[],false⟩,false,false,[],some 4,some ⟨.code,[47],.lcomment,false,[],false⟩,some ([(42,(.other,false))],false),true,false,false,none,false,⟨.lblank,some .internalNl,false,.lblank⟩⟩] .leaf) 615794214 [⟨⟨(.inside 2),[],.lcomment,true,[],false⟩,false,false,[],some 4,some ⟨.code,[47],.lblank,false,[],false⟩,some ([(42,(.other,false))],false),false,false,false,none,false,⟨.lcomment,some (.own 3),false,.lblank⟩⟩] .leaf) 615794222 [⟨⟨(.inside 2),[],.lcomment,true,[],false⟩,false,false,[],some 4,some ⟨.code,[47],.lblank,false,[],false⟩,some ([(42,(.other,false))],false),true,false,false,none,false,⟨.lcomment,some .internalNl,false,.lblank⟩⟩] (.node .leaf 615942202 [⟨⟨(.inside 2),[],.lblank,true,[],false⟩,false,false,[],some 4,some ⟨.code,[47],.lblank,false,[],false⟩,some ([(42,(.other,false))],false),true,false,false,none,false,⟨.lblank,some .internalNl,false,.lblank⟩⟩] .leaf))),(.node (.node (.node (.node .leaf 613191663 [⟨⟨(.inside 2),[],.lcode,false,[],false⟩,true,false,[],some 4,some ⟨.code,[47],.lcode,false,[],false⟩,some ([(42,(.other,false))],false),false,false,false,none,false,⟨.lcode,some (.own 3),false,.lblank⟩⟩] .leaf) 613339651 [⟨⟨(.inside 2),[],.lcomment,false,[],false⟩,true,false,[],some 4,some ⟨.code,[47],.lcode,false,[],false⟩,some ([(42,(.other,false))],false),true,false,false,none,false,⟨.lcomment,some .internalNl,false,.lblank⟩⟩] .leaf) 613487631 [⟨⟨(.inside 2),[],.lblank,false,[],false⟩,true,false,[],some 4,some ⟨.code,[47],.lcode,false,[],false⟩,some ([(42,(.other,false))],false),true,false,false,none,false,⟨.lblank,some .internalNl,false,.lblank⟩⟩] (.node .leaf 614548511 [⟨⟨(.inside 2),[],.lcomment,false,[],false⟩,true,false,[],some 4,some ⟨.code,[47],.lcomment,false,[],false⟩,some ([(42,(.other,false))],false),false,false,false,none,false,⟨.lcomment,some (.own 3),false,.lblank⟩⟩] .leaf)) 614548519 [⟨⟨(.inside 2),[],.lcomment,false,[],false⟩,true,false,[],some 4,some ⟨.code,[47],.lcomment,false,[],false⟩,some ([(42,(.other,false))],false),true,false,false,none,false,⟨.lcomment,some .internalNl,false,.lblank⟩⟩] (.node (.node (.node .leaf 614696499 [⟨⟨(.inside 2),[],.lblank,false,[],false⟩,true,false,[],some 4,some ⟨.code,[47],.lcomment,false,[],false⟩,some ([(42,(.other,false))],false),true,false,false,none,false,⟨.lblank,some .internalNl,false,.lblank⟩⟩] .leaf) 615757379 [⟨⟨(.inside 2),[],.lcomment,false,[],false⟩,true,false,[],some 4,some ⟨.code,[47],.lblank,false,[],false⟩,some ([(42,(.other,false))],false),false,false,false,none,false,⟨.lcomment,some (.own 3),false,.lblank⟩⟩] .leaf) 615757387 [⟨⟨(.inside 2),[],.lcomment,false,[],false⟩,true,false,[],some 4,some ⟨.code,[47],.lblank,false,[],false⟩,some ([(42,(.other,false))],false),true,false,false,none,false,⟨.lcomment,some .internalNl,false,.lblank⟩⟩] (.node .leaf 615905367 [⟨⟨(.inside 2),[],.lblank,false,[],false⟩,true,false,[],some 4,some ⟨.code,[47],.lblank,false,[],false⟩,some ([(42,(.other,false))],false),true,false,false,none,false,⟨.lblank,some .internalNl,false,.lblank⟩⟩] .leaf))),(.node (.node (.node (.node .leaf 613228514 [⟨⟨(.inside 2),[],.lcode,true,[],false⟩,false,true,[],some 4,some ⟨.code,[47],.lcode,false,[],false⟩,some ([(42,(.other,false))],false),false,false,false,none,false,⟨.lcode,some (.own 3),false,.lblank⟩⟩] .leaf) 613376502 [⟨⟨(.inside 2),[],.lcomment,true,[],false⟩,false,true,[],some 4,some ⟨.code,[47],.lcode,false,[],false⟩,some ([(42,(.other,false))],false),true,false,false,none,false,⟨.lcomment,some .internalNl,false,.lblank⟩⟩] .leaf) 613524482 [⟨⟨(.inside 2),[],.lblank,true,[],false⟩,false,true,[],some 4,some ⟨.code,[47],.lcode,false,[],false⟩,some ([(42,(.other,false))],false),true,false,false,none,false,⟨.lblank,some .internalNl,false,.lblank⟩⟩] (.node .leaf 614585362 [⟨⟨(.inside 2),[],.lcomment,true,[],false⟩,false,true,[],some 4,some ⟨.code,[47],.lcomment,false,[],false⟩,some ([(42,(.other,false))],false),false,false,false,none,false,⟨.lcomment,some (.own 3),false,.lblank⟩⟩] .leaf)) 614585370 [⟨⟨(.inside 2),[],.lcomment,true,[],false⟩,false,true,[],some 4,some ⟨.code,[47],.lcomment,false,[],false⟩,some ([(42,(.other,false))],false),true,false,false,none,false,⟨.lcomment,some .internalNl,false,.lblank⟩⟩] (.node (.node (.node .leaf 614733350 [⟨⟨(.inside 2),[],.lblank,true,[],false⟩,false,true,[],some 4,some ⟨.code,[47],.lcomment,false,[],false⟩,some ([(42,(.other,false))],false),true,false,false,none,false,⟨.lblank,some .internalNl,false,.lblank⟩⟩] .leaf) 615794230 [⟨⟨(.inside 2),[],.lcomment,true,[],false⟩,false,true,[],some 4,some ⟨.code,[47],.lblank,false,[],false⟩,some ([(42,(.other,false))],false),false,false,false,none,false,⟨.lcomment,some (.own 3),false,.lblank⟩⟩] .leaf) 615794238 [⟨⟨(.inside 2),[],.lcomment,true,[],false⟩,false,true,[],some 4,some ⟨.code,[47],.lblank,false,[],false⟩,some ([(42,(.other,false))],false),true,false,false,none,false,⟨.lcomment,some .internalNl,false,.lblank⟩⟩] (.node .leaf 615942218 [⟨⟨(.inside 2),[],.lblank,true,[],false⟩,false,true,[],some 4,some ⟨.code,[47],.lblank,false,[],false⟩,some ([(42,(.other,false))],false),true,false,false,none,false,⟨.lblank,some .internalNl,false,.lblank⟩⟩] .leaf))),(.node (.node (.node (.node .leaf 1534977232 [⟨⟨(.inside 2),[42],.lcode,false,[],false⟩,false,false,[],some 4,some ⟨.code,[47],.lcode,false,[],false⟩,some ([(42,(.other,false))],false),false,false,false,none,false,⟨.lcode,some (.own 3),false,.lblank⟩⟩] .leaf) 1554296060 [⟨⟨(.inside 2),[42],.lcomment,false,[],false⟩,false,false,[],some 4,some ⟨.code,[47],.lcode,false,[],false⟩,some ([(42,(.other,false))],false),true,false,false,none,false,⟨.lcomment,some .internalNl,false,.lblank⟩⟩] .leaf) 1555504920 [⟨⟨(.inside 2),[42],.lcomment,false,[],false⟩,false,false,[],some 4,some ⟨.code,[47],.lcomment,false,[],false⟩,some ([(42,(.other,false))],false),false,false,false,none,false,⟨.lcomment,some (.own 3),false,.lblank⟩⟩] (.node .leaf 1555504928 [⟨⟨(.inside 2),[42],.lcomment,false,[],false⟩,false,false,[],some 4,some ⟨.code,[47],.lcomment,false,[],false⟩,some ([(42,(.other,false))],false),true,false,false,none,false,⟨.lcomment,some .internalNl,false,.lblank⟩⟩] .leaf)) 1556713788 [⟨⟨(.inside 2),[42],.lcomment,false,[],false⟩,false,false,[],some 4,some ⟨.code,[47],.lblank,false,[],false⟩,some ([(42,(.other,false))],false),false,false,false,none,false,⟨.lcomment,some (.own 3),false,.lblank⟩⟩] (.node (.node (.node .leaf 1556713796 [⟨⟨(.inside 2),[42],.lcomment,false,[],false⟩,false,false,[],some 4,some ⟨.code,[47],.lblank,false,[],false⟩,some ([(42,(.other,false))],false),true,false,false,none,false,⟨.lcomment,some .internalNl,false,.lblank⟩⟩] .leaf) 1573614368 [⟨⟨(.inside 2),[42],.lblank,false,[],false⟩,false,false,[],some 4,some ⟨.code,[47],.lcode,false,[],false⟩,some ([(42,(.other,false))],false),true,false,false,none,false,⟨.lcomment,some .internalNl,false,.lblank⟩⟩] .leaf) 1574823236 [⟨⟨(.inside 2),[42],.lblank,false,[],false⟩,false,false,[],some 4,some ⟨.code,[47],.lcomment,false,[],false⟩,some ([(42,(.other,false))],false),true,false,false,none,false,⟨.lcomment,some .internalNl,false,.lblank⟩⟩] (.node .leaf 1576032104 [⟨⟨(.inside 2),[42],.lblank,false,[],false⟩,false,false,[],some 4,some ⟨.code,[47],.lblank,false,[],false⟩,some ([(42,(.other,false))],false),true,false,false,none,false,⟨.lcomment,some .internalNl,false,.lblank⟩⟩] .leaf))),(.node (.node (.node (.node .leaf 613228498 [⟨⟨(.inside 2),[],.lcode,true,[],false⟩,false,false,[],some 4,some ⟨.code,[47],.lcode,false,[],false⟩,some ([(42,(.other,false))],false),false,false,false,none,false,⟨.lcode,some (.own 3),false,.lblank⟩⟩] .leaf) 613376486 [⟨⟨(.inside 2),[],.lcomment,true,[],false⟩,false,false,[],some 4,some ⟨.code,[47],.lcode,false,[],false⟩,some ([(42,(.other,false))],false),true,false,false,none,false,⟨.lcomment,some .internalNl,false,.lblank⟩⟩] .leaf) 613524466 [⟨⟨(.inside 2),[],.lblank,true,[],false⟩,false,false,[],some 4,some ⟨.code,[47],.lcode,false,[],false⟩,some ([(42,(.other,false))],false),true,false,false,none,false,⟨.lblank,some .internalNl,false,.lblank⟩⟩] (.node .leaf 614585346 [⟨⟨(.inside 2),[],.lcomment,true,[],false⟩,false,false,[],some 4,some ⟨.code,[47],.lcomment,false,[],false⟩,some ([(42,(.other,false))],false),false,false,false,none,false,⟨.lcomment,some (.own 3),false,.lblank⟩⟩] .leaf)) 614585354 [⟨⟨(.inside 2),[],.lcomment,true,[],false⟩,false,false,[],some 4,some ⟨.code,[47],.lcomment,false,[],false⟩,some ([(42,(.other,false))],false),true,false,false,none,false,⟨.lcomment,some .internalNl,false,.lblank⟩⟩] (.node (.node (.node .leaf 614733334 [⟨⟨(.inside 2),[],.lblank,true,[],false⟩,false,false,[],some 4,some ⟨.code,[47],.lcomment,false,[],false⟩,some ([(42,(.other,false))],false),true,false,false,none,false,⟨.lblank,some .internalNl,false,.lblank⟩⟩] .leaf) 615794214 [⟨⟨(.inside 2),[],.lcomment,true,[],false⟩,false,false,[],some 4,some ⟨.code,[47],.lblank,false,[],false⟩,some ([(42,(.other,false))],false),false,false,false,none,false,⟨.lcomment,some (.own 3),false,.lblank⟩⟩] .leaf) 615794222 [⟨⟨(.inside 2),[],.lcomment,true,[],false⟩,false,false,[],some 4,some ⟨.code,[47],.lblank,false,[],false⟩,some ([(42,(.other,false))],false),true,false,false,none,false,⟨.lcomment,some .internalNl,false,.lblank⟩⟩] (.node .leaf 615942202 [⟨⟨(.inside 2),[],.lblank,true,[],false⟩,false,false,[],some 4,some ⟨.code,[47],.lblank,false,[],false⟩,some ([(42,(.other,false))],false),true,false,false,none,false,⟨.lblank,some .internalNl,false,.lblank⟩⟩] .leaf))),.leaf]
theorem php_line_lClosed : CA.closedF php_line_M php_line_lex true false php_line_lfr php_line_lTab = true := by decide +kernel
def php_line_L : LCert LexisTable.php_line php_line_M := php_line_lex_eq ▸ ⟨⟨php_line_lmasks, php_line_lex.rel, php_line_lcs, php_line_lrows, php_line_lmasksIn, php_line_lrepOk, php_line_lrowsOk⟩,
  _, rfl, by decide +kernel, by decide +kernel, true, false, CA.closed_of php_line_lfrOk php_line_lClosed⟩
theorem php_line_L_chk : php_line_L.chk = true := by
  have : ∀ (l : Lexis) (h : LexisTable.php_line = l) (C : LCert l php_line_M), (h ▸ C : LCert LexisTable.php_line php_line_M).chk = C.chk := by rintro _ rfl _; rfl
  exact this _ php_line_lex_eq _

def postscript_line_lex : Lexis := [⟨[37],[],.lcomment,false,false,false,true,false,false,true,false,none,false,false,false,false,[]⟩,⟨[40],[[41]],.lcode,false,true,false,true,false,false,true,false,none,false,true,false,false,[]⟩]
theorem postscript_line_lex_eq : LexisTable.postscript_line = postscript_line_lex := by decide +kernel
def postscript_line_lmasks : List Nat := [4294967808,137438953472,1099511627776,8192,1024,4096,115792089237316195423570985008687907853269984665640564039457584007908834656767,115792089237316195423570985008687907853269984665640564039457584007913129626623,2199023255552,4951760157141521099596496896]
def postscript_line_lcs : List (Nat × Nat) := [(0,115792089237316195423570985008687907853269984665635612279300442483373264323071),(9,4294967808),(10,1024),(11,2048),(12,4096),(13,8192),(37,137438953472),(40,1099511627776),(41,2199023255552),(92,4951760157141521099596496896)]
theorem postscript_line_lmasksIn : masksIn postscript_line_nfa postscript_line_lmasks = true := by decide +kernel
theorem postscript_line_lrepOk : repOk postscript_line_lmasks postscript_line_lcs = true := by decide +kernel
def postscript_line_lrows : List Row := [⟨[],none,[],[⟨256,.other,false,some ⟨0,[.setEnt (.own 3)],some 4,true⟩⟩,⟨256,.ws,false,some ⟨1,[.setEnt (.own 0)],some 0,false⟩⟩,⟨256,.lf,false,some ⟨0,[.setEnt .newline],some 3,true⟩⟩,⟨256,.vt,false,none⟩,⟨256,.ff,false,some ⟨0,[.setEnt .newline],some 3,true⟩⟩,⟨256,.cr,false,some ⟨2,[.setEnt .newline],none,false⟩⟩,⟨256,.cr,true,some ⟨3,[.setEnt .newline],some 3,false⟩⟩,⟨37,.other,false,some ⟨4,[.comment,.setEnt (.own 3)],some 1,false⟩⟩,⟨40,.other,false,some ⟨5,[.code,.setEnt (.own 3)],some 4,false⟩⟩,⟨41,.other,false,some ⟨0,[.setEnt (.own 3)],some 4,true⟩⟩,⟨92,.other,false,some ⟨0,[.setEnt (.own 3)],some 4,true⟩⟩]⟩,⟨[0],some 0,[],[⟨256,.other,false,none⟩,⟨256,.ws,false,some ⟨1,[.setEnt (.own 0)],some 0,false⟩⟩,⟨256,.lf,false,none⟩,⟨256,.vt,false,none⟩,⟨256,.ff,false,none⟩,⟨256,.cr,false,none⟩,⟨256,.cr,true,none⟩,⟨37,.other,false,none⟩,⟨40,.other,false,none⟩,⟨41,.other,false,none⟩,⟨92,.other,false,none⟩]⟩,⟨[6],none,[],[⟨256,.other,false,none⟩,⟨256,.ws,false,none⟩,⟨256,.lf,false,some ⟨0,[.setEnt .newline],some 3,true⟩⟩,⟨256,.vt,false,none⟩,⟨256,.ff,false,none⟩,⟨256,.cr,false,none⟩,⟨256,.cr,true,none⟩,⟨37,.other,false,none⟩,⟨40,.other,false,none⟩,⟨41,.other,false,none⟩,⟨92,.other,false,none⟩]⟩,⟨[6,10],some 3,[],[⟨256,.other,false,none⟩,⟨256,.ws,false,none⟩,⟨256,.lf,false,some ⟨0,[.setEnt .newline],some 3,true⟩⟩,⟨256,.vt,false,none⟩,⟨256,.ff,false,none⟩,⟨256,.cr,false,none⟩,⟨256,.cr,true,none⟩,⟨37,.other,false,none⟩,⟨40,.other,false,none⟩,⟨41,.other,false,none⟩,⟨92,.other,false,none⟩]⟩,⟨[1,11],some 1,[],[⟨256,.other,false,some ⟨6,[],some 1,false⟩⟩,⟨256,.ws,false,some ⟨6,[],some 1,false⟩⟩,⟨256,.lf,false,none⟩,⟨256,.vt,false,some ⟨6,[],some 1,false⟩⟩,⟨256,.ff,false,none⟩,⟨256,.cr,false,none⟩,⟨256,.cr,true,none⟩,⟨37,.other,false,some ⟨6,[],some 1,false⟩⟩,⟨40,.other,false,some ⟨6,[],some 1,false⟩⟩,⟨41,.other,false,some ⟨6,[],some 1,false⟩⟩,⟨92,.other,false,some ⟨6,[],some 1,false⟩⟩]⟩,⟨[3,11],some 4,[],[⟨256,.other,false,some ⟨7,[],none,false⟩⟩,⟨256,.ws,false,some ⟨7,[],none,false⟩⟩,⟨256,.lf,false,none⟩,⟨256,.vt,false,some ⟨7,[],none,false⟩⟩,⟨256,.ff,false,none⟩,⟨256,.cr,false,none⟩,⟨256,.cr,true,none⟩,⟨37,.other,false,some ⟨7,[],none,false⟩⟩,⟨40,.other,false,some ⟨7,[],none,false⟩⟩,⟨41,.other,false,some ⟨8,[],some 2,false⟩⟩,⟨92,.other,false,some ⟨7,[],none,false⟩⟩]⟩,⟨[2],some 1,[],[⟨256,.other,false,some ⟨6,[],some 1,false⟩⟩,⟨256,.ws,false,some ⟨6,[],some 1,false⟩⟩,⟨256,.lf,false,none⟩,⟨256,.vt,false,some ⟨6,[],some 1,false⟩⟩,⟨256,.ff,false,none⟩,⟨256,.cr,false,none⟩,⟨256,.cr,true,none⟩,⟨37,.other,false,some ⟨6,[],some 1,false⟩⟩,⟨40,.other,false,some ⟨6,[],some 1,false⟩⟩,⟨41,.other,false,some ⟨6,[],some 1,false⟩⟩,⟨92,.other,false,some ⟨6,[],some 1,false⟩⟩]⟩,⟨[4],none,[],[⟨256,.other,false,some ⟨7,[],none,false⟩⟩,⟨256,.ws,false,some ⟨7,[],none,false⟩⟩,⟨256,.lf,false,none⟩,⟨256,.vt,false,some ⟨7,[],none,false⟩⟩,⟨256,.ff,false,none⟩,⟨256,.cr,false,none⟩,⟨256,.cr,true,none⟩,⟨37,.other,false,some ⟨7,[],none,false⟩⟩,⟨40,.other,false,some ⟨7,[],none,false⟩⟩,⟨41,.other,false,some ⟨8,[],some 2,false⟩⟩,⟨92,.other,false,some ⟨7,[],none,false⟩⟩]⟩,⟨[4,5],some 2,[],[⟨256,.other,false,some ⟨7,[],none,false⟩⟩,⟨256,.ws,false,some ⟨7,[],none,false⟩⟩,⟨256,.lf,false,none⟩,⟨256,.vt,false,some ⟨7,[],none,false⟩⟩,⟨256,.ff,false,none⟩,⟨256,.cr,false,none⟩,⟨256,.cr,true,none⟩,⟨37,.other,false,some ⟨7,[],none,false⟩⟩,⟨40,.other,false,some ⟨7,[],none,false⟩⟩,⟨41,.other,false,some ⟨8,[],some 2,false⟩⟩,⟨92,.other,false,some ⟨7,[],none,false⟩⟩]⟩]
theorem postscript_line_lrowsOk : rowsOk postscript_line_nfa postscript_line_lex.rel (postscript_line_lcs.map (·.1)) postscript_line_lrows = true := by decide +kernel
def postscript_line_lfr : List CA.FRow := [⟨true,none,[],[⟨256,.other,false,false,none,some ([.setEnt (.own 3)],(some 4,true))⟩,⟨9,.ws,false,false,some 1,some ([.setEnt (.own 0)],(some 0,false))⟩,⟨10,.lf,false,true,none,some ([.setEnt .newline],(some 3,true))⟩,⟨11,.vt,false,false,none,none⟩,⟨12,.ff,false,true,none,some ([.setEnt .newline],(some 3,true))⟩,⟨13,.cr,false,false,some 2,some ([.setEnt .newline],(none,false))⟩,⟨13,.cr,true,true,some 3,some ([.setEnt .newline],(some 3,false))⟩,⟨37,.other,false,false,some 4,some ([.comment,.setEnt (.own 3)],(some 1,false))⟩,⟨40,.other,false,false,some 5,some ([.code,.setEnt (.own 3)],(some 4,false))⟩,⟨41,.other,false,false,none,some ([.setEnt (.own 3)],(some 4,true))⟩,⟨92,.other,false,false,none,some ([.setEnt (.own 3)],(some 4,true))⟩]⟩,⟨false,some 0,[],[⟨256,.other,false,false,none,none⟩,⟨9,.ws,false,false,some 1,some ([.setEnt (.own 0)],(some 0,false))⟩,⟨10,.lf,false,true,none,none⟩,⟨11,.vt,false,false,none,none⟩,⟨12,.ff,false,true,none,none⟩,⟨13,.cr,false,false,none,none⟩,⟨13,.cr,true,true,none,none⟩,⟨37,.other,false,false,none,none⟩,⟨40,.other,false,false,none,none⟩,⟨41,.other,false,false,none,none⟩,⟨92,.other,false,false,none,none⟩]⟩,⟨false,none,[],[⟨256,.other,false,false,none,none⟩,⟨9,.ws,false,false,none,none⟩,⟨10,.lf,false,true,none,some ([.setEnt .newline],(some 3,true))⟩,⟨11,.vt,false,false,none,none⟩,⟨12,.ff,false,true,none,none⟩,⟨13,.cr,false,false,none,none⟩,⟨13,.cr,true,true,none,none⟩,⟨37,.other,false,false,none,none⟩,⟨40,.other,false,false,none,none⟩,⟨41,.other,false,false,none,none⟩,⟨92,.other,false,false,none,none⟩]⟩,⟨false,some 3,[],[⟨256,.other,false,false,none,none⟩,⟨9,.ws,false,false,none,none⟩,⟨10,.lf,false,true,none,some ([.setEnt .newline],(some 3,true))⟩,⟨11,.vt,false,false,none,none⟩,⟨12,.ff,false,true,none,none⟩,⟨13,.cr,false,false,none,none⟩,⟨13,.cr,true,true,none,none⟩,⟨37,.other,false,false,none,none⟩,⟨40,.other,false,false,none,none⟩,⟨41,.other,false,false,none,none⟩,⟨92,.other,false,false,none,none⟩]⟩,⟨false,some 1,[],[⟨256,.other,false,false,some 6,some ([],(some 1,false))⟩,⟨9,.ws,false,false,some 6,some ([],(some 1,false))⟩,⟨10,.lf,false,true,none,none⟩,⟨11,.vt,false,false,some 6,some ([],(some 1,false))⟩,⟨12,.ff,false,true,none,none⟩,⟨13,.cr,false,false,none,none⟩,⟨13,.cr,true,true,none,none⟩,⟨37,.other,false,false,some 6,some ([],(some 1,false))⟩,⟨40,.other,false,false,some 6,some ([],(some 1,false))⟩,⟨41,.other,false,false,some 6,some ([],(some 1,false))⟩,⟨92,.other,false,false,some 6,some ([],(some 1,false))⟩]⟩,⟨false,some 4,[],[⟨256,.other,false,false,some 7,some ([],(none,false))⟩,⟨9,.ws,false,false,some 7,some ([],(none,false))⟩,⟨10,.lf,false,true,none,none⟩,⟨11,.vt,false,false,some 7,some ([],(none,false))⟩,⟨12,.ff,false,true,none,none⟩,⟨13,.cr,false,false,none,none⟩,⟨13,.cr,true,true,none,none⟩,⟨37,.other,false,false,some 7,some ([],(none,false))⟩,⟨40,.other,false,false,some 7,some ([],(none,false))⟩,⟨41,.other,false,false,some 8,some ([],(some 2,false))⟩,⟨92,.other,false,false,some 7,some ([],(none,false))⟩]⟩,⟨false,some 1,[],[⟨256,.other,false,false,some 6,some ([],(some 1,false))⟩,⟨9,.ws,false,false,some 6,some ([],(some 1,false))⟩,⟨10,.lf,false,true,none,none⟩,⟨11,.vt,false,false,some 6,some ([],(some 1,false))⟩,⟨12,.ff,false,true,none,none⟩,⟨13,.cr,false,false,none,none⟩,⟨13,.cr,true,true,none,none⟩,⟨37,.other,false,false,some 6,some ([],(some 1,false))⟩,⟨40,.other,false,false,some 6,some ([],(some 1,false))⟩,⟨41,.other,false,false,some 6,some ([],(some 1,false))⟩,⟨92,.other,false,false,some 6,some ([],(some 1,false))⟩]⟩,⟨false,none,[],[⟨256,.other,false,false,some 7,some ([],(none,false))⟩,⟨9,.ws,false,false,some 7,some ([],(none,false))⟩,⟨10,.lf,false,true,none,none⟩,⟨11,.vt,false,false,some 7,some ([],(none,false))⟩,⟨12,.ff,false,true,none,none⟩,⟨13,.cr,false,false,none,none⟩,⟨13,.cr,true,true,none,none⟩,⟨37,.other,false,false,some 7,some ([],(none,false))⟩,⟨40,.other,false,false,some 7,some ([],(none,false))⟩,⟨41,.other,false,false,some 8,some ([],(some 2,false))⟩,⟨92,.other,false,false,some 7,some ([],(none,false))⟩]⟩,⟨false,some 2,[],[⟨256,.other,false,false,some 7,some ([],(none,false))⟩,⟨9,.ws,false,false,some 7,some ([],(none,false))⟩,⟨10,.lf,false,true,none,none⟩,⟨11,.vt,false,false,some 7,some ([],(none,false))⟩,⟨12,.ff,false,true,none,none⟩,⟨13,.cr,false,false,none,none⟩,⟨13,.cr,true,true,none,none⟩,⟨37,.other,false,false,some 7,some ([],(none,false))⟩,⟨40,.other,false,false,some 7,some ([],(none,false))⟩,⟨41,.other,false,false,some 8,some ([],(some 2,false))⟩,⟨92,.other,false,false,some 7,some ([],(none,false))⟩]⟩]
theorem postscript_line_lfrOk : postscript_line_lrows.map (CA.prep postscript_line_lex) = postscript_line_lfr := by decide +kernel
def postscript_line_lTab : List CT := [(.node (.node (.node (.node (.node .leaf 128 [⟨⟨.code,[],.lcode,false,[],false⟩,false,false,[],none,none,none,false,false,false,none,false,⟨.lcode,none,false,.lblank⟩⟩] .leaf) 38019 [⟨⟨.code,[],.lcode,true,[],false⟩,false,false,[],none,none,none,false,false,false,none,false,⟨.lblank,none,false,.lblank⟩⟩] .leaf) 98440 [⟨⟨.code,[],.lcode,false,[(1,0)],false⟩,false,false,[],none,none,none,false,false,false,none,false,⟨.lcode,none,false,.lblank⟩⟩] (.node (.node .leaf 185487 [⟨⟨.code,[],.lcomment,true,[],false⟩,false,false,[],none,none,none,false,false,false,none,false,⟨.lblank,none,false,.lblank⟩⟩] .leaf) 296088 [⟨⟨.code,[],.lblank,false,[],false⟩,false,false,[],none,none,none,false,false,false,none,false,⟨.lblank,none,false,.lblank⟩⟩] .leaf)) 332955 [⟨⟨.code,[],.lblank,true,[],false⟩,false,false,[],none,none,none,false,false,false,none,false,⟨.lblank,none,false,.lblank⟩⟩] (.node (.node (.node .leaf 1179872 [⟨⟨(.inside 0),[],.lcode,false,[],false⟩,false,false,[none],none,none,none,false,false,false,none,false,⟨.lcode,none,false,.lblank⟩⟩] .leaf) 1327852 [⟨⟨(.inside 0),[],.lcomment,false,[],false⟩,false,false,[none],none,none,none,false,false,false,none,false,⟨.lcomment,none,false,.lblank⟩⟩] .leaf) 22179935 [⟨⟨(.inside 0),[],.lcode,false,[],false⟩,false,false,[some (10,(.lf,false))],none,none,none,false,false,false,none,false,⟨.lcode,none,false,.lblank⟩⟩] (.node .leaf 22327915 [⟨⟨(.inside 0),[],.lcomment,false,[],false⟩,false,false,[some (10,(.lf,false))],none,none,none,false,false,false,none,false,⟨.lcomment,none,false,.lblank⟩⟩] .leaf))) 26179947 [⟨⟨(.inside 0),[],.lcode,false,[],false⟩,false,false,[some (12,(.ff,false))],none,none,none,false,false,false,none,false,⟨.lcode,none,false,.lblank⟩⟩] (.node (.node (.node (.node .leaf 26327927 [⟨⟨(.inside 0),[],.lcomment,false,[],false⟩,false,false,[some (12,(.ff,false))],none,none,none,false,false,false,none,false,⟨.lcomment,none,false,.lblank⟩⟩] .leaf) 28179953 [⟨⟨(.inside 0),[],.lcode,false,[],false⟩,false,false,[some (13,(.cr,false))],none,none,none,false,false,false,none,false,⟨.lcode,none,false,.lblank⟩⟩] .leaf) 28327933 [⟨⟨(.inside 0),[],.lcomment,false,[],false⟩,false,false,[some (13,(.cr,false))],none,none,none,false,false,false,none,false,⟨.lcomment,none,false,.lblank⟩⟩] (.node (.node .leaf 29179956 [⟨⟨(.inside 0),[],.lcode,false,[],false⟩,false,false,[some (13,(.cr,true))],none,none,none,false,false,false,none,false,⟨.lcode,none,false,.lblank⟩⟩] .leaf) 29327936 [⟨⟨(.inside 0),[],.lcomment,false,[],false⟩,false,false,[some (13,(.cr,true))],none,none,none,false,false,false,none,false,⟨.lcomment,none,false,.lblank⟩⟩] .leaf)) 154644904 [⟨⟨(.inside 0),[],.lcode,false,[(1,0)],false⟩,false,false,[none],none,none,none,false,false,false,none,false,⟨.lcode,none,false,.lblank⟩⟩] (.node (.node (.node .leaf 175644967 [⟨⟨(.inside 0),[],.lcode,false,[(1,0)],false⟩,false,false,[some (10,(.lf,false))],none,none,none,false,false,false,none,false,⟨.lcode,none,false,.lblank⟩⟩] .leaf) 179644979 [⟨⟨(.inside 0),[],.lcode,false,[(1,0)],false⟩,false,false,[some (12,(.ff,false))],none,none,none,false,false,false,none,false,⟨.lcode,none,false,.lblank⟩⟩] .leaf) 181644985 [⟨⟨(.inside 0),[],.lcode,false,[(1,0)],false⟩,false,false,[some (13,(.cr,false))],none,none,none,false,false,false,none,false,⟨.lcode,none,false,.lblank⟩⟩] (.node .leaf 182644988 [⟨⟨(.inside 0),[],.lcode,false,[(1,0)],false⟩,false,false,[some (13,(.cr,true))],none,none,none,false,false,false,none,false,⟨.lcode,none,false,.lblank⟩⟩] .leaf)))),(.node (.node .leaf 128 [⟨⟨.code,[],.lcode,false,[],false⟩,false,false,[],none,none,none,false,false,false,none,false,⟨.lcode,some (.own 0),false,.lblank⟩⟩] .leaf) 98440 [⟨⟨.code,[],.lcode,false,[(1,0)],false⟩,false,false,[],none,none,none,false,false,false,none,false,⟨.lcode,some (.own 0),false,.lblank⟩⟩] (.node .leaf 296088 [⟨⟨.code,[],.lblank,false,[],false⟩,false,false,[],none,none,none,false,false,false,none,false,⟨.lblank,some (.own 0),false,.lblank⟩⟩] .leaf)),(.node (.node .leaf 160 [⟨⟨.code,[],.lcode,false,[],false⟩,true,false,[],none,none,none,false,false,false,none,false,⟨.lcode,some .newline,false,.lblank⟩⟩] .leaf) 148140 [⟨⟨.code,[],.lcomment,false,[],false⟩,true,false,[],none,none,none,false,false,false,none,false,⟨.lcomment,some .newline,false,.lblank⟩⟩] (.node .leaf 296120 [⟨⟨.code,[],.lblank,false,[],false⟩,true,false,[],none,none,none,false,false,false,none,false,⟨.lblank,some .newline,false,.lblank⟩⟩] .leaf)),(.node (.node .leaf 37011 [⟨⟨.code,[],.lcode,true,[],false⟩,false,true,[],none,none,none,false,false,false,none,false,⟨.lcode,some .newline,false,.lblank⟩⟩] .leaf) 184991 [⟨⟨.code,[],.lcomment,true,[],false⟩,false,true,[],none,none,none,false,false,false,none,false,⟨.lcomment,some .newline,false,.lblank⟩⟩] (.node .leaf 332971 [⟨⟨.code,[],.lblank,true,[],false⟩,false,true,[],none,none,none,false,false,false,none,false,⟨.lblank,some .newline,false,.lblank⟩⟩] .leaf)),(.node (.node .leaf 1179872 [⟨⟨(.inside 0),[],.lcode,false,[],false⟩,false,false,[],none,none,none,false,false,false,none,false,⟨.lcode,some (.own 3),false,.lblank⟩⟩] .leaf) 1327852 [⟨⟨(.inside 0),[],.lcomment,false,[],false⟩,false,false,[],none,none,none,false,false,false,none,false,⟨.lcomment,some (.own 3),false,.lblank⟩⟩] (.node .leaf 154644904 [⟨⟨(.inside 0),[],.lcode,false,[(1,0)],false⟩,false,false,[],none,none,none,false,false,false,none,false,⟨.lcode,some (.own 3),false,.lblank⟩⟩] .leaf)),(.node (.node (.node .leaf 98440 [⟨⟨.code,[],.lcode,false,[(1,0)],false⟩,false,false,[],none,none,none,false,false,false,none,false,⟨.lcode,some (.own 3),false,.lblank⟩⟩] .leaf) 98444 [⟨⟨.code,[],.lcode,false,[(1,0)],false⟩,false,false,[],none,none,none,false,true,false,none,false,⟨.lcode,some (.own 3),false,.lblank⟩⟩] .leaf) 4129232 [⟨⟨(.inside 1),[],.lcode,false,[],false⟩,false,false,[],none,none,none,false,false,false,none,false,⟨.lcode,some (.own 3),false,.lblank⟩⟩] (.node .leaf 541011064 [⟨⟨(.inside 1),[],.lcode,false,[(1,0)],false⟩,false,false,[],none,none,none,false,false,false,none,false,⟨.lcode,some (.own 3),false,.lblank⟩⟩] .leaf)),(.node (.node .leaf 1179872 [⟨⟨(.inside 0),[],.lcode,false,[],false⟩,false,false,[],none,none,none,false,false,false,none,false,⟨.lcode,some (.own 3),false,.lblank⟩⟩] .leaf) 1327852 [⟨⟨(.inside 0),[],.lcomment,false,[],false⟩,false,false,[],none,none,none,false,false,false,none,false,⟨.lcomment,some (.own 3),false,.lblank⟩⟩] (.node .leaf 154644904 [⟨⟨(.inside 0),[],.lcode,false,[(1,0)],false⟩,false,false,[],none,none,none,false,false,false,none,false,⟨.lcode,some (.own 3),false,.lblank⟩⟩] .leaf)),(.node (.node (.node (.node .leaf 104883 [⟨⟨.code,[],.lcode,false,[(1,0)],false⟩,false,false,[],some 2,some ⟨.code,[],.lcode,false,[(1,0)],false⟩,none,false,false,false,none,false,⟨.lcode,some (.own 3),false,.lblank⟩⟩] .leaf) 105077 [⟨⟨.code,[],.lcode,false,[(1,0)],false⟩,false,false,[],some 4,some ⟨.code,[],.lcode,false,[(1,0)],false⟩,none,false,false,false,none,false,⟨.lcode,some (.own 3),false,.lblank⟩⟩] .leaf) 4387907 [⟨⟨(.inside 1),[],.lcode,false,[],false⟩,false,false,[],some 2,some ⟨(.inside 1),[],.lcode,false,[],false⟩,none,false,false,false,none,false,⟨.lcode,some (.own 3),false,.lblank⟩⟩] (.node (.node .leaf 4388101 [⟨⟨(.inside 1),[],.lcode,false,[],false⟩,false,false,[],some 4,some ⟨(.inside 1),[],.lcode,false,[],false⟩,none,false,false,false,none,false,⟨.lcode,some (.own 3),false,.lblank⟩⟩] .leaf) 48400851 [⟨⟨.code,[],.lblank,false,[(1,0)],true⟩,false,false,[],some 4,some ⟨.code,[],.lcode,false,[(1,0)],false⟩,none,false,true,false,none,false,⟨.lcode,some (.own 3),false,.lblank⟩⟩] .leaf)) 154651347 [⟨⟨(.inside 0),[],.lcode,false,[(1,0)],false⟩,false,false,[],some 2,some ⟨.code,[],.lcode,false,[(1,0)],false⟩,none,false,false,false,none,false,⟨.lcode,some (.own 3),false,.lblank⟩⟩] (.node (.node (.node .leaf 154651541 [⟨⟨(.inside 0),[],.lcode,false,[(1,0)],false⟩,false,false,[],some 4,some ⟨.code,[],.lcode,false,[(1,0)],false⟩,none,false,false,false,none,false,⟨.lcode,some (.own 3),false,.lblank⟩⟩] .leaf) 541017507 [⟨⟨(.inside 1),[],.lcode,false,[(1,0)],false⟩,false,false,[],some 2,some ⟨.code,[],.lcode,false,[(1,0)],false⟩,none,false,false,false,none,false,⟨.lcode,some (.own 3),false,.lblank⟩⟩] .leaf) 541017701 [⟨⟨(.inside 1),[],.lcode,false,[(1,0)],false⟩,false,false,[],some 4,some ⟨.code,[],.lcode,false,[(1,0)],false⟩,none,false,false,false,none,false,⟨.lcode,some (.own 3),false,.lblank⟩⟩] (.node .leaf 574866005 [⟨⟨(.inside 1),[],.lcode,false,[(1,0)],false⟩,false,false,[],some 4,some ⟨(.inside 1),[],.lcode,false,[(1,0)],false⟩,none,false,false,false,none,false,⟨.lcode,some (.own 3),false,.lblank⟩⟩] .leaf))),(.node (.node .leaf 98440 [⟨⟨.code,[],.lcode,false,[(1,0)],false⟩,false,false,[],none,none,none,false,false,false,none,false,⟨.lcode,some (.own 3),false,.lblank⟩⟩] .leaf) 4129232 [⟨⟨(.inside 1),[],.lcode,false,[],false⟩,false,false,[],none,none,none,false,false,false,none,false,⟨.lcode,some (.own 3),false,.lblank⟩⟩] .leaf)]
theorem postscript_line_lClosed : CA.closedF postscript_line_M postscript_line_lex true false postscript_line_lfr postscript_line_lTab = true := by decide +kernel
def postscript_line_L : LCert LexisTable.postscript_line postscript_line_M := postscript_line_lex_eq ▸ ⟨⟨postscript_line_lmasks, postscript_line_lex.rel, postscript_line_lcs, postscript_line_lrows, postscript_line_lmasksIn, postscript_line_lrepOk, postscript_line_lrowsOk⟩,
  _, rfl, by decide +kernel, by decide +kernel, true, false, CA.closed_of postscript_line_lfrOk postscript_line_lClosed⟩
theorem postscript_line_L_chk : postscript_line_L.chk = true := by
  have : ∀ (l : Lexis) (h : LexisTable.postscript_line = l) (C : LCert l postscript_line_M), (h ▸ C : LCert LexisTable.postscript_line postscript_line_M).chk = C.chk := by rintro _ rfl _; rfl
  exact this _ postscript_line_lex_eq _

def scilab_line_lex : Lexis := [⟨[47,47],[],.lcomment,false,false,false,true,false,false,true,false,none,false,false,false,false,[]⟩,⟨[39],[[39]],.lcode,false,true,true,true,false,false,true,false,none,false,false,false,false,[]⟩,⟨[34],[[34]],.lcode,false,true,true,true,false,false,true,false,none,false,false,false,false,[]⟩]
theorem scilab_line_lex_eq : LexisTable.scilab_line = scilab_line_lex := by decide +kernel
def scilab_line_lmasks : List Nat := [4294967808,140737488355328,549755813888,17179869184,8192,1024,4096,115792089237316195423570985008687907853269984665640564039457584007908834656767,115792089237316195423570985008687907853269984665640564039457584007913129626623,115792089237316195423570985008687907853269984665635612279300442486263777315839,4951760157141521099596496896,115792089237316195423570985008687907853269984665635612279300442486796353260543]
def scilab_line_lcs : List (Nat × Nat) := [(0,115792089237316195423570985008687907853269984665635612279300442345504814121471),(9,4294967808),(10,1024),(11,2048),(12,4096),(13,8192),(34,17179869184),(39,549755813888),(47,140737488355328),(92,4951760157141521099596496896)]
theorem scilab_line_lmasksIn : masksIn scilab_line_nfa scilab_line_lmasks = true := by decide +kernel
theorem scilab_line_lrepOk : repOk scilab_line_lmasks scilab_line_lcs = true := by decide +kernel
def scilab_line_lrows : List Row := [⟨[],none,[],[⟨256,.other,false,some ⟨0,[.setEnt (.own 3)],some 4,true⟩⟩,⟨256,.ws,false,some ⟨1,[.setEnt (.own 0)],some 0,false⟩⟩,⟨256,.lf,false,some ⟨0,[.setEnt .newline],some 3,true⟩⟩,⟨256,.vt,false,none⟩,⟨256,.ff,false,some ⟨0,[.setEnt .newline],some 3,true⟩⟩,⟨256,.cr,false,some ⟨2,[.setEnt .newline],none,false⟩⟩,⟨256,.cr,true,some ⟨3,[.setEnt .newline],some 3,false⟩⟩,⟨34,.other,false,some ⟨4,[.code,.setEnt (.own 3)],some 4,false⟩⟩,⟨39,.other,false,some ⟨5,[.code,.setEnt (.own 3)],some 4,false⟩⟩,⟨47,.other,false,some ⟨6,[.setEnt (.own 3)],some 4,false⟩⟩,⟨92,.other,false,some ⟨0,[.setEnt (.own 3)],some 4,true⟩⟩]⟩,⟨[0],some 0,[],[⟨256,.other,false,none⟩,⟨256,.ws,false,some ⟨1,[.setEnt (.own 0)],some 0,false⟩⟩,⟨256,.lf,false,none⟩,⟨256,.vt,false,none⟩,⟨256,.ff,false,none⟩,⟨256,.cr,false,none⟩,⟨256,.cr,true,none⟩,⟨34,.other,false,none⟩,⟨39,.other,false,none⟩,⟨47,.other,false,none⟩,⟨92,.other,false,none⟩]⟩,⟨[14],none,[],[⟨256,.other,false,none⟩,⟨256,.ws,false,none⟩,⟨256,.lf,false,some ⟨0,[.setEnt .newline],some 3,true⟩⟩,⟨256,.vt,false,none⟩,⟨256,.ff,false,none⟩,⟨256,.cr,false,none⟩,⟨256,.cr,true,none⟩,⟨34,.other,false,none⟩,⟨39,.other,false,none⟩,⟨47,.other,false,none⟩,⟨92,.other,false,none⟩]⟩,⟨[14,18],some 3,[],[⟨256,.other,false,none⟩,⟨256,.ws,false,none⟩,⟨256,.lf,false,some ⟨0,[.setEnt .newline],some 3,true⟩⟩,⟨256,.vt,false,none⟩,⟨256,.ff,false,none⟩,⟨256,.cr,false,none⟩,⟨256,.cr,true,none⟩,⟨34,.other,false,none⟩,⟨39,.other,false,none⟩,⟨47,.other,false,none⟩,⟨92,.other,false,none⟩]⟩,⟨[9,19],some 4,[],[⟨256,.other,false,some ⟨7,[],none,false⟩⟩,⟨256,.ws,false,some ⟨7,[],none,false⟩⟩,⟨256,.lf,false,none⟩,⟨256,.vt,false,some ⟨7,[],none,false⟩⟩,⟨256,.ff,false,none⟩,⟨256,.cr,false,none⟩,⟨256,.cr,true,none⟩,⟨34,.other,false,some ⟨0,[],some 2,true⟩⟩,⟨39,.other,false,some ⟨7,[],none,false⟩⟩,⟨47,.other,false,some ⟨7,[],none,false⟩⟩,⟨92,.other,false,some ⟨8,[],none,false⟩⟩]⟩,⟨[4,19],some 4,[],[⟨256,.other,false,some ⟨9,[],none,false⟩⟩,⟨256,.ws,false,some ⟨9,[],none,false⟩⟩,⟨256,.lf,false,none⟩,⟨256,.vt,false,some ⟨9,[],none,false⟩⟩,⟨256,.ff,false,none⟩,⟨256,.cr,false,none⟩,⟨256,.cr,true,none⟩,⟨34,.other,false,some ⟨9,[],none,false⟩⟩,⟨39,.other,false,some ⟨0,[],some 2,true⟩⟩,⟨47,.other,false,some ⟨9,[],none,false⟩⟩,⟨92,.other,false,some ⟨10,[],none,false⟩⟩]⟩,⟨[1,19],some 4,[],[⟨256,.other,false,none⟩,⟨256,.ws,false,none⟩,⟨256,.lf,false,none⟩,⟨256,.vt,false,none⟩,⟨256,.ff,false,none⟩,⟨256,.cr,false,none⟩,⟨256,.cr,true,none⟩,⟨34,.other,false,none⟩,⟨39,.other,false,none⟩,⟨47,.other,false,some ⟨11,[.comment],some 1,false⟩⟩,⟨92,.other,false,none⟩]⟩,⟨[10],none,[],[⟨256,.other,false,some ⟨7,[],none,false⟩⟩,⟨256,.ws,false,some ⟨7,[],none,false⟩⟩,⟨256,.lf,false,none⟩,⟨256,.vt,false,some ⟨7,[],none,false⟩⟩,⟨256,.ff,false,none⟩,⟨256,.cr,false,none⟩,⟨256,.cr,true,none⟩,⟨34,.other,false,some ⟨0,[],some 2,true⟩⟩,⟨39,.other,false,some ⟨7,[],none,false⟩⟩,⟨47,.other,false,some ⟨7,[],none,false⟩⟩,⟨92,.other,false,some ⟨8,[],none,false⟩⟩]⟩,⟨[11],none,[],[⟨256,.other,false,some ⟨12,[],none,false⟩⟩,⟨256,.ws,false,some ⟨12,[],none,false⟩⟩,⟨256,.lf,false,none⟩,⟨256,.vt,false,some ⟨12,[],none,false⟩⟩,⟨256,.ff,false,none⟩,⟨256,.cr,false,none⟩,⟨256,.cr,true,none⟩,⟨34,.other,false,some ⟨12,[],none,false⟩⟩,⟨39,.other,false,some ⟨12,[],none,false⟩⟩,⟨47,.other,false,some ⟨12,[],none,false⟩⟩,⟨92,.other,false,some ⟨12,[],none,false⟩⟩]⟩,⟨[5],none,[],[⟨256,.other,false,some ⟨9,[],none,false⟩⟩,⟨256,.ws,false,some ⟨9,[],none,false⟩⟩,⟨256,.lf,false,none⟩,⟨256,.vt,false,some ⟨9,[],none,false⟩⟩,⟨256,.ff,false,none⟩,⟨256,.cr,false,none⟩,⟨256,.cr,true,none⟩,⟨34,.other,false,some ⟨9,[],none,false⟩⟩,⟨39,.other,false,some ⟨0,[],some 2,true⟩⟩,⟨47,.other,false,some ⟨9,[],none,false⟩⟩,⟨92,.other,false,some ⟨10,[],none,false⟩⟩]⟩,⟨[6],none,[],[⟨256,.other,false,some ⟨13,[],none,false⟩⟩,⟨256,.ws,false,some ⟨13,[],none,false⟩⟩,⟨256,.lf,false,none⟩,⟨256,.vt,false,some ⟨13,[],none,false⟩⟩,⟨256,.ff,false,none⟩,⟨256,.cr,false,none⟩,⟨256,.cr,true,none⟩,⟨34,.other,false,some ⟨13,[],none,false⟩⟩,⟨39,.other,false,some ⟨13,[],none,false⟩⟩,⟨47,.other,false,some ⟨13,[],none,false⟩⟩,⟨92,.other,false,some ⟨13,[],none,false⟩⟩]⟩,⟨[2],some 1,[],[⟨256,.other,false,some ⟨14,[],some 1,false⟩⟩,⟨256,.ws,false,some ⟨14,[],some 1,false⟩⟩,⟨256,.lf,false,none⟩,⟨256,.vt,false,some ⟨14,[],some 1,false⟩⟩,⟨256,.ff,false,none⟩,⟨256,.cr,false,none⟩,⟨256,.cr,true,none⟩,⟨34,.other,false,some ⟨14,[],some 1,false⟩⟩,⟨39,.other,false,some ⟨14,[],some 1,false⟩⟩,⟨47,.other,false,some ⟨14,[],some 1,false⟩⟩,⟨92,.other,false,some ⟨14,[],some 1,false⟩⟩]⟩,⟨[12],none,[],[⟨256,.other,false,some ⟨7,[],none,false⟩⟩,⟨256,.ws,false,some ⟨7,[],none,false⟩⟩,⟨256,.lf,false,none⟩,⟨256,.vt,false,some ⟨7,[],none,false⟩⟩,⟨256,.ff,false,none⟩,⟨256,.cr,false,none⟩,⟨256,.cr,true,none⟩,⟨34,.other,false,some ⟨0,[],some 2,true⟩⟩,⟨39,.other,false,some ⟨7,[],none,false⟩⟩,⟨47,.other,false,some ⟨7,[],none,false⟩⟩,⟨92,.other,false,some ⟨8,[],none,false⟩⟩]⟩,⟨[7],none,[],[⟨256,.other,false,some ⟨9,[],none,false⟩⟩,⟨256,.ws,false,some ⟨9,[],none,false⟩⟩,⟨256,.lf,false,none⟩,⟨256,.vt,false,some ⟨9,[],none,false⟩⟩,⟨256,.ff,false,none⟩,⟨256,.cr,false,none⟩,⟨256,.cr,true,none⟩,⟨34,.other,false,some ⟨9,[],none,false⟩⟩,⟨39,.other,false,some ⟨0,[],some 2,true⟩⟩,⟨47,.other,false,some ⟨9,[],none,false⟩⟩,⟨92,.other,false,some ⟨10,[],none,false⟩⟩]⟩,⟨[3],some 1,[],[⟨256,.other,false,some ⟨14,[],some 1,false⟩⟩,⟨256,.ws,false,some ⟨14,[],some 1,false⟩⟩,⟨256,.lf,false,none⟩,⟨256,.vt,false,some ⟨14,[],some 1,false⟩⟩,⟨256,.ff,false,none⟩,⟨256,.cr,false,none⟩,⟨256,.cr,true,none⟩,⟨34,.other,false,some ⟨14,[],some 1,false⟩⟩,⟨39,.other,false,some ⟨14,[],some 1,false⟩⟩,⟨47,.other,false,some ⟨14,[],some 1,false⟩⟩,⟨92,.other,false,some ⟨14,[],some 1,false⟩⟩]⟩]
theorem scilab_line_lrowsOk : rowsOk scilab_line_nfa scilab_line_lex.rel (scilab_line_lcs.map (·.1)) scilab_line_lrows = true := by decide +kernel
def scilab_line_lfr : List CA.FRow := [⟨true,none,[],[⟨256,.other,false,false,none,some ([.setEnt (.own 3)],(some 4,true))⟩,⟨9,.ws,false,false,some 1,some ([.setEnt (.own 0)],(some 0,false))⟩,⟨10,.lf,false,true,none,some ([.setEnt .newline],(some 3,true))⟩,⟨11,.vt,false,false,none,none⟩,⟨12,.ff,false,true,none,some ([.setEnt .newline],(some 3,true))⟩,⟨13,.cr,false,false,some 2,some ([.setEnt .newline],(none,false))⟩,⟨13,.cr,true,true,some 3,some ([.setEnt .newline],(some 3,false))⟩,⟨34,.other,false,false,some 4,some ([.code,.setEnt (.own 3)],(some 4,false))⟩,⟨39,.other,false,false,some 5,some ([.code,.setEnt (.own 3)],(some 4,false))⟩,⟨47,.other,false,false,some 6,some ([.setEnt (.own 3)],(some 4,false))⟩,⟨92,.other,false,false,none,some ([.setEnt (.own 3)],(some 4,true))⟩]⟩,⟨false,some 0,[],[⟨256,.other,false,false,none,none⟩,⟨9,.ws,false,false,some 1,some ([.setEnt (.own 0)],(some 0,false))⟩,⟨10,.lf,false,true,none,none⟩,⟨11,.vt,false,false,none,none⟩,⟨12,.ff,false,true,none,none⟩,⟨13,.cr,false,false,none,none⟩,⟨13,.cr,true,true,none,none⟩,⟨34,.other,false,false,none,none⟩,⟨39,.other,false,false,none,none⟩,⟨47,.other,false,false,none,none⟩,⟨92,.other,false,false,none,none⟩]⟩,⟨false,none,[],[⟨256,.other,false,false,none,none⟩,⟨9,.ws,false,false,none,none⟩,⟨10,.lf,false,true,none,some ([.setEnt .newline],(some 3,true))⟩,⟨11,.vt,false,false,none,none⟩,⟨12,.ff,false,true,none,none⟩,⟨13,.cr,false,false,none,none⟩,⟨13,.cr,true,true,none,none⟩,⟨34,.other,false,false,none,none⟩,⟨39,.other,false,false,none,none⟩,⟨47,.other,false,false,none,none⟩,⟨92,.other,false,false,none,none⟩]⟩,⟨false,some 3,[],[⟨256,.other,false,false,none,none⟩,⟨9,.ws,false,false,none,none⟩,⟨10,.lf,false,true,none,some ([.setEnt .newline],(some 3,true))⟩,⟨11,.vt,false,false,none,none⟩,⟨12,.ff,false,true,none,none⟩,⟨13,.cr,false,false,none,none⟩,⟨13,.cr,true,true,none,none⟩,⟨34,.other,false,false,none,none⟩,⟨39,.other,false,false,none,none⟩,⟨47,.other,false,false,none,none⟩,⟨92,.other,false,false,none,none⟩]⟩,⟨false,some 4,[],[⟨256,.other,false,false,some 7,some ([],(none,false))⟩,⟨9,.ws,false,false,some 7,some ([],(none,false))⟩,⟨10,.lf,false,true,none,none⟩,⟨11,.vt,false,false,some 7,some ([],(none,false))⟩,⟨12,.ff,false,true,none,none⟩,⟨13,.cr,false,false,none,none⟩,⟨13,.cr,true,true,none,none⟩,⟨34,.other,false,false,none,some ([],(some 2,true))⟩,⟨39,.other,false,false,some 7,some ([],(none,false))⟩,⟨47,.other,false,false,some 7,some ([],(none,false))⟩,⟨92,.other,false,false,some 8,some ([],(none,false))⟩]⟩,⟨false,some 4,[],[⟨256,.other,false,false,some 9,some ([],(none,false))⟩,⟨9,.ws,false,false,some 9,some ([],(none,false))⟩,⟨10,.lf,false,true,none,none⟩,⟨11,.vt,false,false,some 9,some ([],(none,false))⟩,⟨12,.ff,false,true,none,none⟩,⟨13,.cr,false,false,none,none⟩,⟨13,.cr,true,true,none,none⟩,⟨34,.other,false,false,some 9,some ([],(none,false))⟩,⟨39,.other,false,false,none,some ([],(some 2,true))⟩,⟨47,.other,false,false,some 9,some ([],(none,false))⟩,⟨92,.other,false,false,some 10,some ([],(none,false))⟩]⟩,⟨false,some 4,[],[⟨256,.other,false,false,none,none⟩,⟨9,.ws,false,false,none,none⟩,⟨10,.lf,false,true,none,none⟩,⟨11,.vt,false,false,none,none⟩,⟨12,.ff,false,true,none,none⟩,⟨13,.cr,false,false,none,none⟩,⟨13,.cr,true,true,none,none⟩,⟨34,.other,false,false,none,none⟩,⟨39,.other,false,false,none,none⟩,⟨47,.other,false,false,some 11,some ([.comment],(some 1,false))⟩,⟨92,.other,false,false,none,none⟩]⟩,⟨false,none,[],[⟨256,.other,false,false,some 7,some ([],(none,false))⟩,⟨9,.ws,false,false,some 7,some ([],(none,false))⟩,⟨10,.lf,false,true,none,none⟩,⟨11,.vt,false,false,some 7,some ([],(none,false))⟩,⟨12,.ff,false,true,none,none⟩,⟨13,.cr,false,false,none,none⟩,⟨13,.cr,true,true,none,none⟩,⟨34,.other,false,false,none,some ([],(some 2,true))⟩,⟨39,.other,false,false,some 7,some ([],(none,false))⟩,⟨47,.other,false,false,some 7,some ([],(none,false))⟩,⟨92,.other,false,false,some 8,some ([],(none,false))⟩]⟩,⟨false,none,[],[⟨256,.other,false,false,some 12,some ([],(none,false))⟩,⟨9,.ws,false,false,some 12,some ([],(none,false))⟩,⟨10,.lf,false,true,none,none⟩,⟨11,.vt,false,false,some 12,some ([],(none,false))⟩,⟨12,.ff,false,true,none,none⟩,⟨13,.cr,false,false,none,none⟩,⟨13,.cr,true,true,none,none⟩,⟨34,.other,false,false,some 12,some ([],(none,false))⟩,⟨39,.other,false,false,some 12,some ([],(none,false))⟩,⟨47,.other,false,false,some 12,some ([],(none,false))⟩,⟨92,.other,false,false,some 12,some ([],(none,false))⟩]⟩,⟨false,none,[],[⟨256,.other,false,false,some 9,some ([],(none,false))⟩,⟨9,.ws,false,false,some 9,some ([],(none,false))⟩,⟨10,.lf,false,true,none,none⟩,⟨11,.vt,false,false,some 9,some ([],(none,false))⟩,⟨12,.ff,false,true,none,none⟩,⟨13,.cr,false,false,none,none⟩,⟨13,.cr,true,true,none,none⟩,⟨34,.other,false,false,some 9,some ([],(none,false))⟩,⟨39,.other,false,false,none,some ([],(some 2,true))⟩,⟨47,.other,false,false,some 9,some ([],(none,false))⟩,⟨92,.other,false,false,some 10,some ([],(none,false))⟩]⟩,⟨false,none,[],[⟨256,.other,false,false,some 13,some ([],(none,false))⟩,⟨9,.ws,false,false,some 13,some ([],(none,false))⟩,⟨10,.lf,false,true,none,none⟩,⟨11,.vt,false,false,some 13,some ([],(none,false))⟩,⟨12,.ff,false,true,none,none⟩,⟨13,.cr,false,false,none,none⟩,⟨13,.cr,true,true,none,none⟩,⟨34,.other,false,false,some 13,some ([],(none,false))⟩,⟨39,.other,false,false,some 13,some ([],(none,false))⟩,⟨47,.other,false,false,some 13,some ([],(none,false))⟩,⟨92,.other,false,false,some 13,some ([],(none,false))⟩]⟩,⟨false,some 1,[],[⟨256,.other,false,false,some 14,some ([],(some 1,false))⟩,⟨9,.ws,false,false,some 14,some ([],(some 1,false))⟩,⟨10,.lf,false,true,none,none⟩,⟨11,.vt,false,false,some 14,some ([],(some 1,false))⟩,⟨12,.ff,false,true,none,none⟩,⟨13,.cr,false,false,none,none⟩,⟨13,.cr,true,true,none,none⟩,⟨34,.other,false,false,some 14,some ([],(some 1,false))⟩,⟨39,.other,false,false,some 14,some ([],(some 1,false))⟩,⟨47,.other,false,false,some 14,some ([],(some 1,false))⟩,⟨92,.other,false,false,some 14,some ([],(some 1,false))⟩]⟩,⟨false,none,[],[⟨256,.other,false,false,some 7,some ([],(none,false))⟩,⟨9,.ws,false,false,some 7,some ([],(none,false))⟩,⟨10,.lf,false,true,none,none⟩,⟨11,.vt,false,false,some 7,some ([],(none,false))⟩,⟨12,.ff,false,true,none,none⟩,⟨13,.cr,false,false,none,none⟩,⟨13,.cr,true,true,none,none⟩,⟨34,.other,false,false,none,some ([],(some 2,true))⟩,⟨39,.other,false,false,some 7,some ([],(none,false))⟩,⟨47,.other,false,false,some 7,some ([],(none,false))⟩,⟨92,.other,false,false,some 8,some ([],(none,false))⟩]⟩,⟨false,none,[],[⟨256,.other,false,false,some 9,some ([],(none,false))⟩,⟨9,.ws,false,false,some 9,some ([],(none,false))⟩,⟨10,.lf,false,true,none,none⟩,⟨11,.vt,false,false,some 9,some ([],(none,false))⟩,⟨12,.ff,false,true,none,none⟩,⟨13,.cr,false,false,none,none⟩,⟨13,.cr,true,true,none,none⟩,⟨34,.other,false,false,some 9,some ([],(none,false))⟩,⟨39,.other,false,false,none,some ([],(some 2,true))⟩,⟨47,.other,false,false,some 9,some ([],(none,false))⟩,⟨92,.other,false,false,some 10,some ([],(none,false))⟩]⟩,⟨false,some 1,[],[⟨256,.other,false,false,some 14,some ([],(some 1,false))⟩,⟨9,.ws,false,false,some 14,some ([],(some 1,false))⟩,⟨10,.lf,false,true,none,none⟩,⟨11,.vt,false,false,some 14,some ([],(some 1,false))⟩,⟨12,.ff,false,true,none,none⟩,⟨13,.cr,false,false,none,none⟩,⟨13,.cr,true,true,none,none⟩,⟨34,.other,false,false,some 14,some ([],(some 1,false))⟩,⟨39,.other,false,false,some 14,some ([],(some 1,false))⟩,⟨47,.other,false,false,some 14,some ([],(some 1,false))⟩,⟨92,.other,false,false,some 14,some ([],(some 1,false))⟩]⟩]
theorem scilab_line_lfrOk : scilab_line_lrows.map (CA.prep scilab_line_lex) = scilab_line_lfr := by decide +kernel
def scilab_line_lTab : List CT := [(.node (.node (.node (.node (.node (.node (.node (.node .leaf 128 [⟨⟨.code,[],.lcode,false,[],false⟩,false,false,[],none,none,none,false,false,false,none,false,⟨.lcode,none,false,.lblank⟩⟩] .leaf) 38019 [⟨⟨.code,[],.lcode,true,[],false⟩,false,false,[],none,none,none,false,false,false,none,false,⟨.lblank,none,false,.lblank⟩⟩] .leaf) 98440 [⟨⟨.code,[],.lcode,false,[(1,0)],false⟩,false,false,[],none,none,none,false,false,false,none,false,⟨.lcode,none,false,.lblank⟩⟩] (.node .leaf 110729 [⟨⟨.code,[],.lcode,false,[(1,1)],false⟩,false,false,[],none,none,none,false,false,false,none,false,⟨.lcode,none,false,.lblank⟩⟩] .leaf)) 184463 [⟨⟨.code,[],.lcode,false,[(2,0)],false⟩,false,false,[],none,none,none,false,false,false,none,false,⟨.lcode,none,false,.lblank⟩⟩] (.node (.node (.node .leaf 185487 [⟨⟨.code,[],.lcomment,true,[],false⟩,false,false,[],none,none,none,false,false,false,none,false,⟨.lblank,none,false,.lblank⟩⟩] .leaf) 196752 [⟨⟨.code,[],.lcode,false,[(2,1)],false⟩,false,false,[],none,none,none,false,false,false,none,false,⟨.lcode,none,false,.lblank⟩⟩] .leaf) 296088 [⟨⟨.code,[],.lblank,false,[],false⟩,false,false,[],none,none,none,false,false,false,none,false,⟨.lblank,none,false,.lblank⟩⟩] (.node .leaf 332955 [⟨⟨.code,[],.lblank,true,[],false⟩,false,false,[],none,none,none,false,false,false,none,false,⟨.lblank,none,false,.lblank⟩⟩] .leaf))) 1179872 [⟨⟨(.inside 0),[],.lcode,false,[],false⟩,false,false,[none],none,none,none,false,false,false,none,false,⟨.lcode,none,false,.lblank⟩⟩] (.node (.node (.node (.node .leaf 1327852 [⟨⟨(.inside 0),[],.lcomment,false,[],false⟩,false,false,[none],none,none,none,false,false,false,none,false,⟨.lcomment,none,false,.lblank⟩⟩] .leaf) 1769744 [⟨⟨.code,[47],.lcode,false,[],false⟩,false,false,[none],none,none,none,false,false,false,none,false,⟨.lcode,none,false,.lblank⟩⟩] .leaf) 13063335 [⟨⟨.code,[],.lcode,false,[(1,0),(2,0)],false⟩,false,false,[],none,none,none,false,false,false,none,false,⟨.lcode,none,false,.lblank⟩⟩] (.node .leaf 14685483 [⟨⟨.code,[],.lcode,false,[(1,1),(2,1)],false⟩,false,false,[],none,none,none,false,false,false,none,false,⟨.lcode,none,false,.lblank⟩⟩] .leaf)) 20769801 [⟨⟨.code,[47],.lcode,false,[],false⟩,false,false,[some (9,(.ws,false))],none,none,none,false,false,false,none,false,⟨.lcode,none,false,.lblank⟩⟩] (.node (.node .leaf 22179935 [⟨⟨(.inside 0),[],.lcode,false,[],false⟩,false,false,[some (10,(.lf,false))],none,none,none,false,false,false,none,false,⟨.lcode,none,false,.lblank⟩⟩] .leaf) 22327915 [⟨⟨(.inside 0),[],.lcomment,false,[],false⟩,false,false,[some (10,(.lf,false))],none,none,none,false,false,false,none,false,⟨.lcomment,none,false,.lblank⟩⟩] (.node .leaf 22769807 [⟨⟨.code,[47],.lcode,false,[],false⟩,false,false,[some (10,(.lf,false))],none,none,none,false,false,false,none,false,⟨.lcode,none,false,.lblank⟩⟩] .leaf)))) 24246325 [⟨⟨.code,[],.lcode,false,[(2,0),(1,0)],false⟩,false,false,[],none,none,none,false,false,false,none,false,⟨.lcode,none,false,.lblank⟩⟩] (.node (.node (.node (.node (.node .leaf 25868473 [⟨⟨.code,[],.lcode,false,[(2,1),(1,1)],false⟩,false,false,[],none,none,none,false,false,false,none,false,⟨.lcode,none,false,.lblank⟩⟩] .leaf) 26179947 [⟨⟨(.inside 0),[],.lcode,false,[],false⟩,false,false,[some (12,(.ff,false))],none,none,none,false,false,false,none,false,⟨.lcode,none,false,.lblank⟩⟩] .leaf) 26327927 [⟨⟨(.inside 0),[],.lcomment,false,[],false⟩,false,false,[some (12,(.ff,false))],none,none,none,false,false,false,none,false,⟨.lcomment,none,false,.lblank⟩⟩] (.node .leaf 26769819 [⟨⟨.code,[47],.lcode,false,[],false⟩,false,false,[some (12,(.ff,false))],none,none,none,false,false,false,none,false,⟨.lcode,none,false,.lblank⟩⟩] .leaf)) 28179953 [⟨⟨(.inside 0),[],.lcode,false,[],false⟩,false,false,[some (13,(.cr,false))],none,none,none,false,false,false,none,false,⟨.lcode,none,false,.lblank⟩⟩] (.node (.node (.node .leaf 28327933 [⟨⟨(.inside 0),[],.lcomment,false,[],false⟩,false,false,[some (13,(.cr,false))],none,none,none,false,false,false,none,false,⟨.lcomment,none,false,.lblank⟩⟩] .leaf) 28769825 [⟨⟨.code,[47],.lcode,false,[],false⟩,false,false,[some (13,(.cr,false))],none,none,none,false,false,false,none,false,⟨.lcode,none,false,.lblank⟩⟩] .leaf) 29179956 [⟨⟨(.inside 0),[],.lcode,false,[],false⟩,false,false,[some (13,(.cr,true))],none,none,none,false,false,false,none,false,⟨.lcode,none,false,.lblank⟩⟩] (.node .leaf 29327936 [⟨⟨(.inside 0),[],.lcomment,false,[],false⟩,false,false,[some (13,(.cr,true))],none,none,none,false,false,false,none,false,⟨.lcomment,none,false,.lblank⟩⟩] .leaf))) 29769828 [⟨⟨.code,[47],.lcode,false,[],false⟩,false,false,[some (13,(.cr,true))],none,none,none,false,false,false,none,false,⟨.lcode,none,false,.lblank⟩⟩] (.node (.node (.node (.node .leaf 40406360 [⟨⟨.code,[47],.lblank,false,[],false⟩,false,false,[none],none,none,none,false,false,false,none,false,⟨.lcode,none,false,.lblank⟩⟩] .leaf) 59406417 [⟨⟨.code,[47],.lblank,false,[],false⟩,false,false,[some (9,(.ws,false))],none,none,none,false,false,false,none,false,⟨.lcode,none,false,.lblank⟩⟩] .leaf) 61406423 [⟨⟨.code,[47],.lblank,false,[],false⟩,false,false,[some (10,(.lf,false))],none,none,none,false,false,false,none,false,⟨.lcode,none,false,.lblank⟩⟩] (.node .leaf 65406435 [⟨⟨.code,[47],.lblank,false,[],false⟩,false,false,[some (12,(.ff,false))],none,none,none,false,false,false,none,false,⟨.lcode,none,false,.lblank⟩⟩] .leaf)) 67406441 [⟨⟨.code,[47],.lblank,false,[],false⟩,false,false,[some (13,(.cr,false))],none,none,none,false,false,false,none,false,⟨.lcode,none,false,.lblank⟩⟩] (.node (.node .leaf 68406444 [⟨⟨.code,[47],.lblank,false,[],false⟩,false,false,[some (13,(.cr,true))],none,none,none,false,false,false,none,false,⟨.lcode,none,false,.lblank⟩⟩] .leaf) 70769951 [⟨⟨.code,[47],.lcode,false,[],false⟩,false,false,[some (34,(.other,false))],none,none,none,false,false,false,none,false,⟨.lcode,none,false,.lblank⟩⟩] (.node .leaf 80769981 [⟨⟨.code,[47],.lcode,false,[],false⟩,false,false,[some (39,(.other,false))],none,none,none,false,false,false,none,false,⟨.lcode,none,false,.lblank⟩⟩] .leaf))))) 109406567 [⟨⟨.code,[47],.lblank,false,[],false⟩,false,false,[some (34,(.other,false))],none,none,none,false,false,false,none,false,⟨.lcode,none,false,.lblank⟩⟩] (.node (.node (.node (.node (.node (.node .leaf 119406597 [⟨⟨.code,[47],.lblank,false,[],false⟩,false,false,[some (39,(.other,false))],none,none,none,false,false,false,none,false,⟨.lcode,none,false,.lblank⟩⟩] .leaf) 154644904 [⟨⟨(.inside 0),[],.lcode,false,[(1,0)],false⟩,false,false,[none],none,none,none,false,false,false,none,false,⟨.lcode,none,false,.lblank⟩⟩] .leaf) 154657193 [⟨⟨(.inside 0),[],.lcode,false,[(1,1)],false⟩,false,false,[none],none,none,none,false,false,false,none,false,⟨.lcode,none,false,.lblank⟩⟩] (.node .leaf 154730927 [⟨⟨(.inside 0),[],.lcode,false,[(2,0)],false⟩,false,false,[none],none,none,none,false,false,false,none,false,⟨.lcode,none,false,.lblank⟩⟩] .leaf)) 154743216 [⟨⟨(.inside 0),[],.lcode,false,[(2,1)],false⟩,false,false,[none],none,none,none,false,false,false,none,false,⟨.lcode,none,false,.lblank⟩⟩] (.node (.node (.node .leaf 175644967 [⟨⟨(.inside 0),[],.lcode,false,[(1,0)],false⟩,false,false,[some (10,(.lf,false))],none,none,none,false,false,false,none,false,⟨.lcode,none,false,.lblank⟩⟩] .leaf) 175657256 [⟨⟨(.inside 0),[],.lcode,false,[(1,1)],false⟩,false,false,[some (10,(.lf,false))],none,none,none,false,false,false,none,false,⟨.lcode,none,false,.lblank⟩⟩] .leaf) 175730990 [⟨⟨(.inside 0),[],.lcode,false,[(2,0)],false⟩,false,false,[some (10,(.lf,false))],none,none,none,false,false,false,none,false,⟨.lcode,none,false,.lblank⟩⟩] (.node .leaf 175743279 [⟨⟨(.inside 0),[],.lcode,false,[(2,1)],false⟩,false,false,[some (10,(.lf,false))],none,none,none,false,false,false,none,false,⟨.lcode,none,false,.lblank⟩⟩] .leaf))) 179644979 [⟨⟨(.inside 0),[],.lcode,false,[(1,0)],false⟩,false,false,[some (12,(.ff,false))],none,none,none,false,false,false,none,false,⟨.lcode,none,false,.lblank⟩⟩] (.node (.node (.node (.node .leaf 179657268 [⟨⟨(.inside 0),[],.lcode,false,[(1,1)],false⟩,false,false,[some (12,(.ff,false))],none,none,none,false,false,false,none,false,⟨.lcode,none,false,.lblank⟩⟩] .leaf) 179731002 [⟨⟨(.inside 0),[],.lcode,false,[(2,0)],false⟩,false,false,[some (12,(.ff,false))],none,none,none,false,false,false,none,false,⟨.lcode,none,false,.lblank⟩⟩] .leaf) 179743291 [⟨⟨(.inside 0),[],.lcode,false,[(2,1)],false⟩,false,false,[some (12,(.ff,false))],none,none,none,false,false,false,none,false,⟨.lcode,none,false,.lblank⟩⟩] (.node .leaf 181644985 [⟨⟨(.inside 0),[],.lcode,false,[(1,0)],false⟩,false,false,[some (13,(.cr,false))],none,none,none,false,false,false,none,false,⟨.lcode,none,false,.lblank⟩⟩] .leaf)) 181657274 [⟨⟨(.inside 0),[],.lcode,false,[(1,1)],false⟩,false,false,[some (13,(.cr,false))],none,none,none,false,false,false,none,false,⟨.lcode,none,false,.lblank⟩⟩] (.node (.node .leaf 181731008 [⟨⟨(.inside 0),[],.lcode,false,[(2,0)],false⟩,false,false,[some (13,(.cr,false))],none,none,none,false,false,false,none,false,⟨.lcode,none,false,.lblank⟩⟩] .leaf) 181743297 [⟨⟨(.inside 0),[],.lcode,false,[(2,1)],false⟩,false,false,[some (13,(.cr,false))],none,none,none,false,false,false,none,false,⟨.lcode,none,false,.lblank⟩⟩] (.node .leaf 182644988 [⟨⟨(.inside 0),[],.lcode,false,[(1,0)],false⟩,false,false,[some (13,(.cr,true))],none,none,none,false,false,false,none,false,⟨.lcode,none,false,.lblank⟩⟩] .leaf)))) 182657277 [⟨⟨(.inside 0),[],.lcode,false,[(1,1)],false⟩,false,false,[some (13,(.cr,true))],none,none,none,false,false,false,none,false,⟨.lcode,none,false,.lblank⟩⟩] (.node (.node (.node (.node (.node .leaf 182731011 [⟨⟨(.inside 0),[],.lcode,false,[(2,0)],false⟩,false,false,[some (13,(.cr,true))],none,none,none,false,false,false,none,false,⟨.lcode,none,false,.lblank⟩⟩] .leaf) 182743300 [⟨⟨(.inside 0),[],.lcode,false,[(2,1)],false⟩,false,false,[some (13,(.cr,true))],none,none,none,false,false,false,none,false,⟨.lcode,none,false,.lblank⟩⟩] .leaf) 186770299 [⟨⟨.code,[47],.lcode,false,[],false⟩,false,false,[some (92,(.other,false))],none,none,none,false,false,false,none,false,⟨.lcode,none,false,.lblank⟩⟩] (.node .leaf 225406915 [⟨⟨.code,[47],.lblank,false,[],false⟩,false,false,[some (92,(.other,false))],none,none,none,false,false,false,none,false,⟨.lcode,none,false,.lblank⟩⟩] .leaf)) 231918136 [⟨⟨.code,[47],.lcode,false,[(1,0)],false⟩,false,false,[none],none,none,none,false,false,false,none,false,⟨.lcode,none,false,.lblank⟩⟩] (.node (.node (.node .leaf 231930425 [⟨⟨.code,[47],.lcode,false,[(1,1)],false⟩,false,false,[none],none,none,none,false,false,false,none,false,⟨.lcode,none,false,.lblank⟩⟩] .leaf) 232004159 [⟨⟨.code,[47],.lcode,false,[(2,0)],false⟩,false,false,[none],none,none,none,false,false,false,none,false,⟨.lcode,none,false,.lblank⟩⟩] .leaf) 232016448 [⟨⟨.code,[47],.lcode,false,[(2,1)],false⟩,false,false,[none],none,none,none,false,false,false,none,false,⟨.lcode,none,false,.lblank⟩⟩] (.node .leaf 250918193 [⟨⟨.code,[47],.lcode,false,[(1,0)],false⟩,false,false,[some (9,(.ws,false))],none,none,none,false,false,false,none,false,⟨.lcode,none,false,.lblank⟩⟩] .leaf))) 250930482 [⟨⟨.code,[47],.lcode,false,[(1,1)],false⟩,false,false,[some (9,(.ws,false))],none,none,none,false,false,false,none,false,⟨.lcode,none,false,.lblank⟩⟩] (.node (.node (.node (.node .leaf 251004216 [⟨⟨.code,[47],.lcode,false,[(2,0)],false⟩,false,false,[some (9,(.ws,false))],none,none,none,false,false,false,none,false,⟨.lcode,none,false,.lblank⟩⟩] .leaf) 251016505 [⟨⟨.code,[47],.lcode,false,[(2,1)],false⟩,false,false,[some (9,(.ws,false))],none,none,none,false,false,false,none,false,⟨.lcode,none,false,.lblank⟩⟩] .leaf) 252918199 [⟨⟨.code,[47],.lcode,false,[(1,0)],false⟩,false,false,[some (10,(.lf,false))],none,none,none,false,false,false,none,false,⟨.lcode,none,false,.lblank⟩⟩] (.node .leaf 252930488 [⟨⟨.code,[47],.lcode,false,[(1,1)],false⟩,false,false,[some (10,(.lf,false))],none,none,none,false,false,false,none,false,⟨.lcode,none,false,.lblank⟩⟩] .leaf)) 253004222 [⟨⟨.code,[47],.lcode,false,[(2,0)],false⟩,false,false,[some (10,(.lf,false))],none,none,none,false,false,false,none,false,⟨.lcode,none,false,.lblank⟩⟩] (.node (.node .leaf 253016511 [⟨⟨.code,[47],.lcode,false,[(2,1)],false⟩,false,false,[some (10,(.lf,false))],none,none,none,false,false,false,none,false,⟨.lcode,none,false,.lblank⟩⟩] .leaf) 256918211 [⟨⟨.code,[47],.lcode,false,[(1,0)],false⟩,false,false,[some (12,(.ff,false))],none,none,none,false,false,false,none,false,⟨.lcode,none,false,.lblank⟩⟩] (.node .leaf 256930500 [⟨⟨.code,[47],.lcode,false,[(1,1)],false⟩,false,false,[some (12,(.ff,false))],none,none,none,false,false,false,none,false,⟨.lcode,none,false,.lblank⟩⟩] .leaf)))))) 257004234 [⟨⟨.code,[47],.lcode,false,[(2,0)],false⟩,false,false,[some (12,(.ff,false))],none,none,none,false,false,false,none,false,⟨.lcode,none,false,.lblank⟩⟩] (.node (.node (.node (.node (.node (.node (.node .leaf 257016523 [⟨⟨.code,[47],.lcode,false,[(2,1)],false⟩,false,false,[some (12,(.ff,false))],none,none,none,false,false,false,none,false,⟨.lcode,none,false,.lblank⟩⟩] .leaf) 258918217 [⟨⟨.code,[47],.lcode,false,[(1,0)],false⟩,false,false,[some (13,(.cr,false))],none,none,none,false,false,false,none,false,⟨.lcode,none,false,.lblank⟩⟩] .leaf) 258930506 [⟨⟨.code,[47],.lcode,false,[(1,1)],false⟩,false,false,[some (13,(.cr,false))],none,none,none,false,false,false,none,false,⟨.lcode,none,false,.lblank⟩⟩] (.node .leaf 259004240 [⟨⟨.code,[47],.lcode,false,[(2,0)],false⟩,false,false,[some (13,(.cr,false))],none,none,none,false,false,false,none,false,⟨.lcode,none,false,.lblank⟩⟩] .leaf)) 259016529 [⟨⟨.code,[47],.lcode,false,[(2,1)],false⟩,false,false,[some (13,(.cr,false))],none,none,none,false,false,false,none,false,⟨.lcode,none,false,.lblank⟩⟩] (.node (.node (.node .leaf 259918220 [⟨⟨.code,[47],.lcode,false,[(1,0)],false⟩,false,false,[some (13,(.cr,true))],none,none,none,false,false,false,none,false,⟨.lcode,none,false,.lblank⟩⟩] .leaf) 259930509 [⟨⟨.code,[47],.lcode,false,[(1,1)],false⟩,false,false,[some (13,(.cr,true))],none,none,none,false,false,false,none,false,⟨.lcode,none,false,.lblank⟩⟩] .leaf) 260004243 [⟨⟨.code,[47],.lcode,false,[(2,0)],false⟩,false,false,[some (13,(.cr,true))],none,none,none,false,false,false,none,false,⟨.lcode,none,false,.lblank⟩⟩] (.node .leaf 260016532 [⟨⟨.code,[47],.lcode,false,[(2,1)],false⟩,false,false,[some (13,(.cr,true))],none,none,none,false,false,false,none,false,⟨.lcode,none,false,.lblank⟩⟩] .leaf))) 300918343 [⟨⟨.code,[47],.lcode,false,[(1,0)],false⟩,false,false,[some (34,(.other,false))],none,none,none,false,false,false,none,false,⟨.lcode,none,false,.lblank⟩⟩] (.node (.node (.node (.node .leaf 300930632 [⟨⟨.code,[47],.lcode,false,[(1,1)],false⟩,false,false,[some (34,(.other,false))],none,none,none,false,false,false,none,false,⟨.lcode,none,false,.lblank⟩⟩] .leaf) 311004396 [⟨⟨.code,[47],.lcode,false,[(2,0)],false⟩,false,false,[some (39,(.other,false))],none,none,none,false,false,false,none,false,⟨.lcode,none,false,.lblank⟩⟩] .leaf) 311016685 [⟨⟨.code,[47],.lcode,false,[(2,1)],false⟩,false,false,[some (39,(.other,false))],none,none,none,false,false,false,none,false,⟨.lcode,none,false,.lblank⟩⟩] (.node .leaf 416918691 [⟨⟨.code,[47],.lcode,false,[(1,0)],false⟩,false,false,[some (92,(.other,false))],none,none,none,false,false,false,none,false,⟨.lcode,none,false,.lblank⟩⟩] .leaf)) 416930980 [⟨⟨.code,[47],.lcode,false,[(1,1)],false⟩,false,false,[some (92,(.other,false))],none,none,none,false,false,false,none,false,⟨.lcode,none,false,.lblank⟩⟩] (.node (.node .leaf 417004714 [⟨⟨.code,[47],.lcode,false,[(2,0)],false⟩,false,false,[some (92,(.other,false))],none,none,none,false,false,false,none,false,⟨.lcode,none,false,.lblank⟩⟩] .leaf) 417017003 [⟨⟨.code,[47],.lcode,false,[(2,1)],false⟩,false,false,[some (92,(.other,false))],none,none,none,false,false,false,none,false,⟨.lcode,none,false,.lblank⟩⟩] (.node .leaf 514771283 [⟨⟨.code,[47],.lcode,false,[],false⟩,false,false,[some (256,(.other,false))],none,none,none,false,false,false,none,false,⟨.lcode,none,false,.lblank⟩⟩] .leaf)))) 553407899 [⟨⟨.code,[47],.lblank,false,[],false⟩,false,false,[some (256,(.other,false))],none,none,none,false,false,false,none,false,⟨.lcode,none,false,.lblank⟩⟩] (.node (.node (.node (.node (.node .leaf 744919675 [⟨⟨.code,[47],.lcode,false,[(1,0)],false⟩,false,false,[some (256,(.other,false))],none,none,none,false,false,false,none,false,⟨.lcode,none,false,.lblank⟩⟩] .leaf) 744931964 [⟨⟨.code,[47],.lcode,false,[(1,1)],false⟩,false,false,[some (256,(.other,false))],none,none,none,false,false,false,none,false,⟨.lcode,none,false,.lblank⟩⟩] .leaf) 745005698 [⟨⟨.code,[47],.lcode,false,[(2,0)],false⟩,false,false,[some (256,(.other,false))],none,none,none,false,false,false,none,false,⟨.lcode,none,false,.lblank⟩⟩] (.node .leaf 745017987 [⟨⟨.code,[47],.lcode,false,[(2,1)],false⟩,false,false,[some (256,(.other,false))],none,none,none,false,false,false,none,false,⟨.lcode,none,false,.lblank⟩⟩] .leaf)) 20258650119 [⟨⟨(.inside 0),[],.lcode,false,[(1,0),(2,0)],false⟩,false,false,[none],none,none,none,false,false,false,none,false,⟨.lcode,none,false,.lblank⟩⟩] (.node (.node (.node .leaf 20260272267 [⟨⟨(.inside 0),[],.lcode,false,[(1,1),(2,1)],false⟩,false,false,[none],none,none,none,false,false,false,none,false,⟨.lcode,none,false,.lblank⟩⟩] .leaf) 20269833109 [⟨⟨(.inside 0),[],.lcode,false,[(2,0),(1,0)],false⟩,false,false,[none],none,none,none,false,false,false,none,false,⟨.lcode,none,false,.lblank⟩⟩] .leaf) 20271455257 [⟨⟨(.inside 0),[],.lcode,false,[(2,1),(1,1)],false⟩,false,false,[none],none,none,none,false,false,false,none,false,⟨.lcode,none,false,.lblank⟩⟩] (.node .leaf 20279650182 [⟨⟨(.inside 0),[],.lcode,false,[(1,0),(2,0)],false⟩,false,false,[some (10,(.lf,false))],none,none,none,false,false,false,none,false,⟨.lcode,none,false,.lblank⟩⟩] .leaf))) 20281272330 [⟨⟨(.inside 0),[],.lcode,false,[(1,1),(2,1)],false⟩,false,false,[some (10,(.lf,false))],none,none,none,false,false,false,none,false,⟨.lcode,none,false,.lblank⟩⟩] (.node (.node (.node (.node .leaf 20283650194 [⟨⟨(.inside 0),[],.lcode,false,[(1,0),(2,0)],false⟩,false,false,[some (12,(.ff,false))],none,none,none,false,false,false,none,false,⟨.lcode,none,false,.lblank⟩⟩] .leaf) 20285272342 [⟨⟨(.inside 0),[],.lcode,false,[(1,1),(2,1)],false⟩,false,false,[some (12,(.ff,false))],none,none,none,false,false,false,none,false,⟨.lcode,none,false,.lblank⟩⟩] .leaf) 20285650200 [⟨⟨(.inside 0),[],.lcode,false,[(1,0),(2,0)],false⟩,false,false,[some (13,(.cr,false))],none,none,none,false,false,false,none,false,⟨.lcode,none,false,.lblank⟩⟩] (.node .leaf 20286650203 [⟨⟨(.inside 0),[],.lcode,false,[(1,0),(2,0)],false⟩,false,false,[some (13,(.cr,true))],none,none,none,false,false,false,none,false,⟨.lcode,none,false,.lblank⟩⟩] .leaf)) 20287272348 [⟨⟨(.inside 0),[],.lcode,false,[(1,1),(2,1)],false⟩,false,false,[some (13,(.cr,false))],none,none,none,false,false,false,none,false,⟨.lcode,none,false,.lblank⟩⟩] (.node (.node .leaf 20288272351 [⟨⟨(.inside 0),[],.lcode,false,[(1,1),(2,1)],false⟩,false,false,[some (13,(.cr,true))],none,none,none,false,false,false,none,false,⟨.lcode,none,false,.lblank⟩⟩] .leaf) 20290833172 [⟨⟨(.inside 0),[],.lcode,false,[(2,0),(1,0)],false⟩,false,false,[some (10,(.lf,false))],none,none,none,false,false,false,none,false,⟨.lcode,none,false,.lblank⟩⟩] (.node .leaf 20292455320 [⟨⟨(.inside 0),[],.lcode,false,[(2,1),(1,1)],false⟩,false,false,[some (10,(.lf,false))],none,none,none,false,false,false,none,false,⟨.lcode,none,false,.lblank⟩⟩] .leaf))))) 20294833184 [⟨⟨(.inside 0),[],.lcode,false,[(2,0),(1,0)],false⟩,false,false,[some (12,(.ff,false))],none,none,none,false,false,false,none,false,⟨.lcode,none,false,.lblank⟩⟩] (.node (.node (.node (.node (.node (.node .leaf 20296455332 [⟨⟨(.inside 0),[],.lcode,false,[(2,1),(1,1)],false⟩,false,false,[some (12,(.ff,false))],none,none,none,false,false,false,none,false,⟨.lcode,none,false,.lblank⟩⟩] .leaf) 20296833190 [⟨⟨(.inside 0),[],.lcode,false,[(2,0),(1,0)],false⟩,false,false,[some (13,(.cr,false))],none,none,none,false,false,false,none,false,⟨.lcode,none,false,.lblank⟩⟩] .leaf) 20297833193 [⟨⟨(.inside 0),[],.lcode,false,[(2,0),(1,0)],false⟩,false,false,[some (13,(.cr,true))],none,none,none,false,false,false,none,false,⟨.lcode,none,false,.lblank⟩⟩] (.node .leaf 20298455338 [⟨⟨(.inside 0),[],.lcode,false,[(2,1),(1,1)],false⟩,false,false,[some (13,(.cr,false))],none,none,none,false,false,false,none,false,⟨.lcode,none,false,.lblank⟩⟩] .leaf)) 20299455341 [⟨⟨(.inside 0),[],.lcode,false,[(2,1),(1,1)],false⟩,false,false,[some (13,(.cr,true))],none,none,none,false,false,false,none,false,⟨.lcode,none,false,.lblank⟩⟩] (.node (.node (.node .leaf 30381443511 [⟨⟨.code,[47],.lcode,false,[(1,0),(2,0)],false⟩,false,false,[none],none,none,none,false,false,false,none,false,⟨.lcode,none,false,.lblank⟩⟩] .leaf) 30383065659 [⟨⟨.code,[47],.lcode,false,[(1,1),(2,1)],false⟩,false,false,[none],none,none,none,false,false,false,none,false,⟨.lcode,none,false,.lblank⟩⟩] .leaf) 30392626501 [⟨⟨.code,[47],.lcode,false,[(2,0),(1,0)],false⟩,false,false,[none],none,none,none,false,false,false,none,false,⟨.lcode,none,false,.lblank⟩⟩] (.node .leaf 30394248649 [⟨⟨.code,[47],.lcode,false,[(2,1),(1,1)],false⟩,false,false,[none],none,none,none,false,false,false,none,false,⟨.lcode,none,false,.lblank⟩⟩] .leaf))) 30400443568 [⟨⟨.code,[47],.lcode,false,[(1,0),(2,0)],false⟩,false,false,[some (9,(.ws,false))],none,none,none,false,false,false,none,false,⟨.lcode,none,false,.lblank⟩⟩] (.node (.node (.node (.node .leaf 30402065716 [⟨⟨.code,[47],.lcode,false,[(1,1),(2,1)],false⟩,false,false,[some (9,(.ws,false))],none,none,none,false,false,false,none,false,⟨.lcode,none,false,.lblank⟩⟩] .leaf) 30402443574 [⟨⟨.code,[47],.lcode,false,[(1,0),(2,0)],false⟩,false,false,[some (10,(.lf,false))],none,none,none,false,false,false,none,false,⟨.lcode,none,false,.lblank⟩⟩] .leaf) 30404065722 [⟨⟨.code,[47],.lcode,false,[(1,1),(2,1)],false⟩,false,false,[some (10,(.lf,false))],none,none,none,false,false,false,none,false,⟨.lcode,none,false,.lblank⟩⟩] (.node .leaf 30406443586 [⟨⟨.code,[47],.lcode,false,[(1,0),(2,0)],false⟩,false,false,[some (12,(.ff,false))],none,none,none,false,false,false,none,false,⟨.lcode,none,false,.lblank⟩⟩] .leaf)) 30408065734 [⟨⟨.code,[47],.lcode,false,[(1,1),(2,1)],false⟩,false,false,[some (12,(.ff,false))],none,none,none,false,false,false,none,false,⟨.lcode,none,false,.lblank⟩⟩] (.node (.node .leaf 30408443592 [⟨⟨.code,[47],.lcode,false,[(1,0),(2,0)],false⟩,false,false,[some (13,(.cr,false))],none,none,none,false,false,false,none,false,⟨.lcode,none,false,.lblank⟩⟩] .leaf) 30409443595 [⟨⟨.code,[47],.lcode,false,[(1,0),(2,0)],false⟩,false,false,[some (13,(.cr,true))],none,none,none,false,false,false,none,false,⟨.lcode,none,false,.lblank⟩⟩] (.node .leaf 30410065740 [⟨⟨.code,[47],.lcode,false,[(1,1),(2,1)],false⟩,false,false,[some (13,(.cr,false))],none,none,none,false,false,false,none,false,⟨.lcode,none,false,.lblank⟩⟩] .leaf)))) 30411065743 [⟨⟨.code,[47],.lcode,false,[(1,1),(2,1)],false⟩,false,false,[some (13,(.cr,true))],none,none,none,false,false,false,none,false,⟨.lcode,none,false,.lblank⟩⟩] (.node (.node (.node (.node (.node .leaf 30411626558 [⟨⟨.code,[47],.lcode,false,[(2,0),(1,0)],false⟩,false,false,[some (9,(.ws,false))],none,none,none,false,false,false,none,false,⟨.lcode,none,false,.lblank⟩⟩] .leaf) 30413248706 [⟨⟨.code,[47],.lcode,false,[(2,1),(1,1)],false⟩,false,false,[some (9,(.ws,false))],none,none,none,false,false,false,none,false,⟨.lcode,none,false,.lblank⟩⟩] .leaf) 30413626564 [⟨⟨.code,[47],.lcode,false,[(2,0),(1,0)],false⟩,false,false,[some (10,(.lf,false))],none,none,none,false,false,false,none,false,⟨.lcode,none,false,.lblank⟩⟩] (.node .leaf 30415248712 [⟨⟨.code,[47],.lcode,false,[(2,1),(1,1)],false⟩,false,false,[some (10,(.lf,false))],none,none,none,false,false,false,none,false,⟨.lcode,none,false,.lblank⟩⟩] .leaf)) 30417626576 [⟨⟨.code,[47],.lcode,false,[(2,0),(1,0)],false⟩,false,false,[some (12,(.ff,false))],none,none,none,false,false,false,none,false,⟨.lcode,none,false,.lblank⟩⟩] (.node (.node (.node .leaf 30419248724 [⟨⟨.code,[47],.lcode,false,[(2,1),(1,1)],false⟩,false,false,[some (12,(.ff,false))],none,none,none,false,false,false,none,false,⟨.lcode,none,false,.lblank⟩⟩] .leaf) 30419626582 [⟨⟨.code,[47],.lcode,false,[(2,0),(1,0)],false⟩,false,false,[some (13,(.cr,false))],none,none,none,false,false,false,none,false,⟨.lcode,none,false,.lblank⟩⟩] .leaf) 30420626585 [⟨⟨.code,[47],.lcode,false,[(2,0),(1,0)],false⟩,false,false,[some (13,(.cr,true))],none,none,none,false,false,false,none,false,⟨.lcode,none,false,.lblank⟩⟩] (.node .leaf 30421248730 [⟨⟨.code,[47],.lcode,false,[(2,1),(1,1)],false⟩,false,false,[some (13,(.cr,false))],none,none,none,false,false,false,none,false,⟨.lcode,none,false,.lblank⟩⟩] .leaf))) 30422248733 [⟨⟨.code,[47],.lcode,false,[(2,1),(1,1)],false⟩,false,false,[some (13,(.cr,true))],none,none,none,false,false,false,none,false,⟨.lcode,none,false,.lblank⟩⟩] (.node (.node (.node (.node .leaf 30566444066 [⟨⟨.code,[47],.lcode,false,[(1,0),(2,0)],false⟩,false,false,[some (92,(.other,false))],none,none,none,false,false,false,none,false,⟨.lcode,none,false,.lblank⟩⟩] .leaf) 30568066214 [⟨⟨.code,[47],.lcode,false,[(1,1),(2,1)],false⟩,false,false,[some (92,(.other,false))],none,none,none,false,false,false,none,false,⟨.lcode,none,false,.lblank⟩⟩] .leaf) 30577627056 [⟨⟨.code,[47],.lcode,false,[(2,0),(1,0)],false⟩,false,false,[some (92,(.other,false))],none,none,none,false,false,false,none,false,⟨.lcode,none,false,.lblank⟩⟩] (.node .leaf 30579249204 [⟨⟨.code,[47],.lcode,false,[(2,1),(1,1)],false⟩,false,false,[some (92,(.other,false))],none,none,none,false,false,false,none,false,⟨.lcode,none,false,.lblank⟩⟩] .leaf)) 30894445050 [⟨⟨.code,[47],.lcode,false,[(1,0),(2,0)],false⟩,false,false,[some (256,(.other,false))],none,none,none,false,false,false,none,false,⟨.lcode,none,false,.lblank⟩⟩] (.node (.node .leaf 30896067198 [⟨⟨.code,[47],.lcode,false,[(1,1),(2,1)],false⟩,false,false,[some (256,(.other,false))],none,none,none,false,false,false,none,false,⟨.lcode,none,false,.lblank⟩⟩] .leaf) 30905628040 [⟨⟨.code,[47],.lcode,false,[(2,0),(1,0)],false⟩,false,false,[some (256,(.other,false))],none,none,none,false,false,false,none,false,⟨.lcode,none,false,.lblank⟩⟩] (.node .leaf 30907250188 [⟨⟨.code,[47],.lcode,false,[(2,1),(1,1)],false⟩,false,false,[some (256,(.other,false))],none,none,none,false,false,false,none,false,⟨.lcode,none,false,.lblank⟩⟩] .leaf))))))),(.node (.node (.node .leaf 128 [⟨⟨.code,[],.lcode,false,[],false⟩,false,false,[],none,none,none,false,false,false,none,false,⟨.lcode,some (.own 0),false,.lblank⟩⟩] .leaf) 98440 [⟨⟨.code,[],.lcode,false,[(1,0)],false⟩,false,false,[],none,none,none,false,false,false,none,false,⟨.lcode,some (.own 0),false,.lblank⟩⟩] (.node .leaf 184463 [⟨⟨.code,[],.lcode,false,[(2,0)],false⟩,false,false,[],none,none,none,false,false,false,none,false,⟨.lcode,some (.own 0),false,.lblank⟩⟩] .leaf)) 296088 [⟨⟨.code,[],.lblank,false,[],false⟩,false,false,[],none,none,none,false,false,false,none,false,⟨.lblank,some (.own 0),false,.lblank⟩⟩] (.node (.node .leaf 13063335 [⟨⟨.code,[],.lcode,false,[(1,0),(2,0)],false⟩,false,false,[],none,none,none,false,false,false,none,false,⟨.lcode,some (.own 0),false,.lblank⟩⟩] .leaf) 24246325 [⟨⟨.code,[],.lcode,false,[(2,0),(1,0)],false⟩,false,false,[],none,none,none,false,false,false,none,false,⟨.lcode,some (.own 0),false,.lblank⟩⟩] .leaf)),(.node (.node .leaf 160 [⟨⟨.code,[],.lcode,false,[],false⟩,true,false,[],none,none,none,false,false,false,none,false,⟨.lcode,some .newline,false,.lblank⟩⟩] .leaf) 148140 [⟨⟨.code,[],.lcomment,false,[],false⟩,true,false,[],none,none,none,false,false,false,none,false,⟨.lcomment,some .newline,false,.lblank⟩⟩] (.node .leaf 296120 [⟨⟨.code,[],.lblank,false,[],false⟩,true,false,[],none,none,none,false,false,false,none,false,⟨.lblank,some .newline,false,.lblank⟩⟩] .leaf)),(.node (.node .leaf 37011 [⟨⟨.code,[],.lcode,true,[],false⟩,false,true,[],none,none,none,false,false,false,none,false,⟨.lcode,some .newline,false,.lblank⟩⟩] .leaf) 184991 [⟨⟨.code,[],.lcomment,true,[],false⟩,false,true,[],none,none,none,false,false,false,none,false,⟨.lcomment,some .newline,false,.lblank⟩⟩] (.node .leaf 332971 [⟨⟨.code,[],.lblank,true,[],false⟩,false,true,[],none,none,none,false,false,false,none,false,⟨.lblank,some .newline,false,.lblank⟩⟩] .leaf)),(.node (.node (.node (.node .leaf 184463 [⟨⟨.code,[],.lcode,false,[(2,0)],false⟩,false,false,[],none,none,none,false,false,false,none,false,⟨.lcode,some (.own 3),false,.lblank⟩⟩] .leaf) 184467 [⟨⟨.code,[],.lcode,false,[(2,0)],false⟩,false,false,[],none,none,none,false,true,false,none,false,⟨.lcode,some (.own 3),false,.lblank⟩⟩] .leaf) 7078592 [⟨⟨(.inside 2),[],.lcode,false,[],false⟩,false,false,[],none,none,none,false,false,false,none,false,⟨.lcode,some (.own 3),false,.lblank⟩⟩] (.node (.node .leaf 13063335 [⟨⟨.code,[],.lcode,false,[(1,0),(2,0)],false⟩,false,false,[],none,none,none,false,false,false,none,false,⟨.lcode,some (.own 3),false,.lblank⟩⟩] .leaf) 24246325 [⟨⟨.code,[],.lcode,false,[(2,0),(1,0)],false⟩,false,false,[],none,none,none,false,false,false,none,false,⟨.lcode,some (.own 3),false,.lblank⟩⟩] .leaf)) 24246329 [⟨⟨.code,[],.lcode,false,[(2,0),(1,0)],false⟩,false,false,[],none,none,none,false,true,false,none,false,⟨.lcode,some (.own 3),false,.lblank⟩⟩] (.node (.node (.node .leaf 927377224 [⟨⟨(.inside 2),[],.lcode,false,[(1,0)],false⟩,false,false,[],none,none,none,false,false,false,none,false,⟨.lcode,some (.own 3),false,.lblank⟩⟩] .leaf) 927463247 [⟨⟨(.inside 2),[],.lcode,false,[(2,0)],false⟩,false,false,[],none,none,none,false,false,false,none,false,⟨.lcode,some (.own 3),false,.lblank⟩⟩] .leaf) 121486584039 [⟨⟨(.inside 2),[],.lcode,false,[(1,0),(2,0)],false⟩,false,false,[],none,none,none,false,false,false,none,false,⟨.lcode,some (.own 3),false,.lblank⟩⟩] (.node .leaf 121497767029 [⟨⟨(.inside 2),[],.lcode,false,[(2,0),(1,0)],false⟩,false,false,[],none,none,none,false,false,false,none,false,⟨.lcode,some (.own 3),false,.lblank⟩⟩] .leaf))),(.node (.node (.node (.node .leaf 98440 [⟨⟨.code,[],.lcode,false,[(1,0)],false⟩,false,false,[],none,none,none,false,false,false,none,false,⟨.lcode,some (.own 3),false,.lblank⟩⟩] .leaf) 98444 [⟨⟨.code,[],.lcode,false,[(1,0)],false⟩,false,false,[],none,none,none,false,true,false,none,false,⟨.lcode,some (.own 3),false,.lblank⟩⟩] .leaf) 4129232 [⟨⟨(.inside 1),[],.lcode,false,[],false⟩,false,false,[],none,none,none,false,false,false,none,false,⟨.lcode,some (.own 3),false,.lblank⟩⟩] (.node (.node .leaf 13063335 [⟨⟨.code,[],.lcode,false,[(1,0),(2,0)],false⟩,false,false,[],none,none,none,false,false,false,none,false,⟨.lcode,some (.own 3),false,.lblank⟩⟩] .leaf) 13063339 [⟨⟨.code,[],.lcode,false,[(1,0),(2,0)],false⟩,false,false,[],none,none,none,false,true,false,none,false,⟨.lcode,some (.own 3),false,.lblank⟩⟩] .leaf)) 24246325 [⟨⟨.code,[],.lcode,false,[(2,0),(1,0)],false⟩,false,false,[],none,none,none,false,false,false,none,false,⟨.lcode,some (.own 3),false,.lblank⟩⟩] (.node (.node (.node .leaf 541011064 [⟨⟨(.inside 1),[],.lcode,false,[(1,0)],false⟩,false,false,[],none,none,none,false,false,false,none,false,⟨.lcode,some (.own 3),false,.lblank⟩⟩] .leaf) 541097087 [⟨⟨(.inside 1),[],.lcode,false,[(2,0)],false⟩,false,false,[],none,none,none,false,false,false,none,false,⟨.lcode,some (.own 3),false,.lblank⟩⟩] .leaf) 70872617079 [⟨⟨(.inside 1),[],.lcode,false,[(1,0),(2,0)],false⟩,false,false,[],none,none,none,false,false,false,none,false,⟨.lcode,some (.own 3),false,.lblank⟩⟩] (.node .leaf 70883800069 [⟨⟨(.inside 1),[],.lcode,false,[(2,0),(1,0)],false⟩,false,false,[],none,none,none,false,false,false,none,false,⟨.lcode,some (.own 3),false,.lblank⟩⟩] .leaf))),(.node (.node (.node (.node .leaf 1769746 [⟨⟨.code,[47],.lcode,false,[],false⟩,false,false,[],none,none,none,false,false,true,none,false,⟨.lcode,some (.own 3),false,.lblank⟩⟩] .leaf) 40407386 [⟨⟨.code,[47],.lblank,false,[],false⟩,false,false,[],none,none,none,false,false,true,none,false,⟨.lblank,some (.own 3),false,.lblank⟩⟩] .leaf) 231918138 [⟨⟨.code,[47],.lcode,false,[(1,0)],false⟩,false,false,[],none,none,none,false,false,true,none,false,⟨.lcode,some (.own 3),false,.lblank⟩⟩] (.node (.node .leaf 231930427 [⟨⟨.code,[47],.lcode,false,[(1,1)],false⟩,false,false,[],none,none,none,false,false,true,none,false,⟨.lcode,some (.own 3),false,.lblank⟩⟩] .leaf) 232004161 [⟨⟨.code,[47],.lcode,false,[(2,0)],false⟩,false,false,[],none,none,none,false,false,true,none,false,⟨.lcode,some (.own 3),false,.lblank⟩⟩] .leaf)) 232016450 [⟨⟨.code,[47],.lcode,false,[(2,1)],false⟩,false,false,[],none,none,none,false,false,true,none,false,⟨.lcode,some (.own 3),false,.lblank⟩⟩] (.node (.node (.node .leaf 30381443513 [⟨⟨.code,[47],.lcode,false,[(1,0),(2,0)],false⟩,false,false,[],none,none,none,false,false,true,none,false,⟨.lcode,some (.own 3),false,.lblank⟩⟩] .leaf) 30383065661 [⟨⟨.code,[47],.lcode,false,[(1,1),(2,1)],false⟩,false,false,[],none,none,none,false,false,true,none,false,⟨.lcode,some (.own 3),false,.lblank⟩⟩] .leaf) 30392626503 [⟨⟨.code,[47],.lcode,false,[(2,0),(1,0)],false⟩,false,false,[],none,none,none,false,false,true,none,false,⟨.lcode,some (.own 3),false,.lblank⟩⟩] (.node .leaf 30394248651 [⟨⟨.code,[47],.lcode,false,[(2,1),(1,1)],false⟩,false,false,[],none,none,none,false,false,true,none,false,⟨.lcode,some (.own 3),false,.lblank⟩⟩] .leaf))),(.node (.node (.node (.node (.node .leaf 196483 [⟨⟨.code,[],.lcode,false,[(2,0)],false⟩,false,false,[],some 4,some ⟨.code,[],.lcode,false,[(2,0)],false⟩,none,false,false,false,none,false,⟨.lcode,some (.own 3),false,.lblank⟩⟩] .leaf) 7522021 [⟨⟨(.inside 2),[],.lcode,false,[],false⟩,false,false,[],some 4,some ⟨(.inside 2),[],.lcode,false,[],false⟩,none,false,false,false,none,false,⟨.lcode,some (.own 3),false,.lblank⟩⟩] (.node .leaf 13075355 [⟨⟨.code,[],.lcode,false,[(1,0),(2,0)],false⟩,false,false,[],some 4,some ⟨.code,[],.lcode,false,[(2,0)],false⟩,none,false,false,false,none,false,⟨.lcode,some (.own 3),false,.lblank⟩⟩] .leaf)) 13881267 [⟨⟨.code,[],.lcode,false,[(1,0),(2,0)],false⟩,false,false,[],some 4,some ⟨.code,[],.lcode,false,[(1,0),(2,0)],false⟩,none,false,false,false,none,false,⟨.lcode,some (.own 3),false,.lblank⟩⟩] (.node (.node .leaf 25764047 [⟨⟨.code,[],.lcode,false,[(2,0),(1,0)],false⟩,false,false,[],some 4,some ⟨.code,[],.lcode,false,[(2,0),(1,0)],false⟩,none,false,false,false,none,false,⟨.lcode,some (.own 3),false,.lblank⟩⟩] .leaf) 48492257 [⟨⟨.code,[],.lblank,false,[(2,0)],true⟩,false,false,[],some 4,some ⟨.code,[],.lcode,false,[(2,0)],false⟩,none,false,true,false,none,false,⟨.lcode,some (.own 3),false,.lblank⟩⟩] (.node .leaf 154742947 [⟨⟨(.inside 0),[],.lcode,false,[(2,0)],false⟩,false,false,[],some 4,some ⟨.code,[],.lcode,false,[(2,0)],false⟩,none,false,false,false,none,false,⟨.lcode,some (.own 3),false,.lblank⟩⟩] .leaf))) 232016179 [⟨⟨.code,[47],.lcode,false,[(2,0)],false⟩,false,false,[],some 4,some ⟨.code,[],.lcode,false,[(2,0)],false⟩,none,false,false,false,none,false,⟨.lcode,some (.own 3),false,.lblank⟩⟩] (.node (.node (.node .leaf 541109107 [⟨⟨(.inside 1),[],.lcode,false,[(2,0)],false⟩,false,false,[],some 4,some ⟨.code,[],.lcode,false,[(2,0)],false⟩,none,false,false,false,none,false,⟨.lcode,some (.own 3),false,.lblank⟩⟩] .leaf) 927475267 [⟨⟨(.inside 2),[],.lcode,false,[(2,0)],false⟩,false,false,[],some 4,some ⟨.code,[],.lcode,false,[(2,0)],false⟩,none,false,false,false,none,false,⟨.lcode,some (.own 3),false,.lblank⟩⟩] (.node .leaf 985409525 [⟨⟨(.inside 2),[],.lcode,false,[(1,0)],false⟩,false,false,[],some 4,some ⟨(.inside 2),[],.lcode,false,[(1,0)],false⟩,none,false,false,false,none,false,⟨.lcode,some (.own 3),false,.lblank⟩⟩] .leaf)) 985500931 [⟨⟨(.inside 2),[],.lcode,false,[(2,0)],false⟩,false,false,[],some 4,some ⟨(.inside 2),[],.lcode,false,[(2,0)],false⟩,none,false,false,false,none,false,⟨.lcode,some (.own 3),false,.lblank⟩⟩] (.node (.node .leaf 6339821229 [⟨⟨.code,[],.lblank,false,[(1,0),(2,0)],true⟩,false,false,[],some 4,some ⟨.code,[],.lcode,false,[(2,0)],false⟩,none,false,true,false,none,false,⟨.lcode,some (.own 3),false,.lblank⟩⟩] .leaf) 6352509921 [⟨⟨.code,[],.lblank,false,[(2,0),(1,0)],true⟩,false,false,[],some 4,some ⟨.code,[],.lcode,false,[(2,0),(1,0)],false⟩,none,false,true,false,none,false,⟨.lcode,some (.own 3),false,.lblank⟩⟩] .leaf))) 20258662139 [⟨⟨(.inside 0),[],.lcode,false,[(1,0),(2,0)],false⟩,false,false,[],some 4,some ⟨.code,[],.lcode,false,[(2,0)],false⟩,none,false,false,false,none,false,⟨.lcode,some (.own 3),false,.lblank⟩⟩] (.node (.node (.node (.node .leaf 20259468051 [⟨⟨(.inside 0),[],.lcode,false,[(1,0),(2,0)],false⟩,false,false,[],some 4,some ⟨.code,[],.lcode,false,[(1,0),(2,0)],false⟩,none,false,false,false,none,false,⟨.lcode,some (.own 3),false,.lblank⟩⟩] .leaf) 20271350831 [⟨⟨(.inside 0),[],.lcode,false,[(2,0),(1,0)],false⟩,false,false,[],some 4,some ⟨.code,[],.lcode,false,[(2,0),(1,0)],false⟩,none,false,false,false,none,false,⟨.lcode,some (.own 3),false,.lblank⟩⟩] (.node .leaf 30381455531 [⟨⟨.code,[47],.lcode,false,[(1,0),(2,0)],false⟩,false,false,[],some 4,some ⟨.code,[],.lcode,false,[(2,0)],false⟩,none,false,false,false,none,false,⟨.lcode,some (.own 3),false,.lblank⟩⟩] .leaf)) 30382261443 [⟨⟨.code,[47],.lcode,false,[(1,0),(2,0)],false⟩,false,false,[],some 4,some ⟨.code,[],.lcode,false,[(1,0),(2,0)],false⟩,none,false,false,false,none,false,⟨.lcode,some (.own 3),false,.lblank⟩⟩] (.node (.node .leaf 30394144223 [⟨⟨.code,[47],.lcode,false,[(2,0),(1,0)],false⟩,false,false,[],some 4,some ⟨.code,[],.lcode,false,[(2,0),(1,0)],false⟩,none,false,false,false,none,false,⟨.lcode,some (.own 3),false,.lblank⟩⟩] .leaf) 70872629099 [⟨⟨(.inside 1),[],.lcode,false,[(1,0),(2,0)],false⟩,false,false,[],some 4,some ⟨.code,[],.lcode,false,[(2,0)],false⟩,none,false,false,false,none,false,⟨.lcode,some (.own 3),false,.lblank⟩⟩] .leaf)) 70873435011 [⟨⟨(.inside 1),[],.lcode,false,[(1,0),(2,0)],false⟩,false,false,[],some 4,some ⟨.code,[],.lcode,false,[(1,0),(2,0)],false⟩,none,false,false,false,none,false,⟨.lcode,some (.own 3),false,.lblank⟩⟩] (.node (.node (.node .leaf 70885317791 [⟨⟨(.inside 1),[],.lcode,false,[(2,0),(1,0)],false⟩,false,false,[],some 4,some ⟨.code,[],.lcode,false,[(2,0),(1,0)],false⟩,none,false,false,false,none,false,⟨.lcode,some (.own 3),false,.lblank⟩⟩] .leaf) 121486596059 [⟨⟨(.inside 2),[],.lcode,false,[(1,0),(2,0)],false⟩,false,false,[],some 4,some ⟨.code,[],.lcode,false,[(2,0)],false⟩,none,false,false,false,none,false,⟨.lcode,some (.own 3),false,.lblank⟩⟩] (.node .leaf 121487401971 [⟨⟨(.inside 2),[],.lcode,false,[(1,0),(2,0)],false⟩,false,false,[],some 4,some ⟨.code,[],.lcode,false,[(1,0),(2,0)],false⟩,none,false,false,false,none,false,⟨.lcode,some (.own 3),false,.lblank⟩⟩] .leaf)) 121499284751 [⟨⟨(.inside 2),[],.lcode,false,[(2,0),(1,0)],false⟩,false,false,[],some 4,some ⟨.code,[],.lcode,false,[(2,0),(1,0)],false⟩,none,false,false,false,none,false,⟨.lcode,some (.own 3),false,.lblank⟩⟩] (.node (.node .leaf 129088763955 [⟨⟨(.inside 2),[],.lcode,false,[(1,0),(2,0)],false⟩,false,false,[],some 4,some ⟨(.inside 2),[],.lcode,false,[(1,0),(2,0)],false⟩,none,false,false,false,none,false,⟨.lcode,some (.own 3),false,.lblank⟩⟩] .leaf) 129100646735 [⟨⟨(.inside 2),[],.lcode,false,[(2,0),(1,0)],false⟩,false,false,[],some 4,some ⟨(.inside 2),[],.lcode,false,[(2,0),(1,0)],false⟩,none,false,false,false,none,false,⟨.lcode,some (.own 3),false,.lblank⟩⟩] .leaf)))),(.node (.node (.node (.node (.node .leaf 208772 [⟨⟨.code,[],.lcode,false,[(2,1)],false⟩,false,false,[],some 4,some ⟨.code,[],.lcode,false,[(2,0)],false⟩,none,false,false,false,none,false,⟨.lcode,some (.own 3),false,.lblank⟩⟩] .leaf) 14697503 [⟨⟨.code,[],.lcode,false,[(1,1),(2,1)],false⟩,false,false,[],some 4,some ⟨.code,[],.lcode,false,[(2,0)],false⟩,none,false,false,false,none,false,⟨.lcode,some (.own 3),false,.lblank⟩⟩] (.node .leaf 15503415 [⟨⟨.code,[],.lcode,false,[(1,1),(2,1)],false⟩,false,false,[],some 4,some ⟨.code,[],.lcode,false,[(1,0),(2,0)],false⟩,none,false,false,false,none,false,⟨.lcode,some (.own 3),false,.lblank⟩⟩] .leaf)) 27386195 [⟨⟨.code,[],.lcode,false,[(2,1),(1,1)],false⟩,false,false,[],some 4,some ⟨.code,[],.lcode,false,[(2,0),(1,0)],false⟩,none,false,false,false,none,false,⟨.lcode,some (.own 3),false,.lblank⟩⟩] (.node (.node .leaf 48504546 [⟨⟨.code,[],.lblank,false,[(2,1)],true⟩,false,false,[],some 4,some ⟨.code,[],.lcode,false,[(2,0)],false⟩,none,false,true,false,none,false,⟨.lcode,some (.own 3),false,.lblank⟩⟩] .leaf) 154755236 [⟨⟨(.inside 0),[],.lcode,false,[(2,1)],false⟩,false,false,[],some 4,some ⟨.code,[],.lcode,false,[(2,0)],false⟩,none,false,false,false,none,false,⟨.lcode,some (.own 3),false,.lblank⟩⟩] .leaf)) 931150972 [⟨⟨(.inside 2),[92],.lcode,false,[],false⟩,false,false,[],some 4,some ⟨(.inside 2),[],.lcode,false,[],false⟩,none,false,false,false,none,false,⟨.lcode,some (.own 3),false,.lblank⟩⟩] (.node (.node (.node .leaf 6341443377 [⟨⟨.code,[],.lblank,false,[(1,1),(2,1)],true⟩,false,false,[],some 4,some ⟨.code,[],.lcode,false,[(2,0)],false⟩,none,false,true,false,none,false,⟨.lcode,some (.own 3),false,.lblank⟩⟩] .leaf) 6354132069 [⟨⟨.code,[],.lblank,false,[(2,1),(1,1)],true⟩,false,false,[],some 4,some ⟨.code,[],.lcode,false,[(2,0),(1,0)],false⟩,none,false,true,false,none,false,⟨.lcode,some (.own 3),false,.lblank⟩⟩] .leaf) 20260284287 [⟨⟨(.inside 0),[],.lcode,false,[(1,1),(2,1)],false⟩,false,false,[],some 4,some ⟨.code,[],.lcode,false,[(2,0)],false⟩,none,false,false,false,none,false,⟨.lcode,some (.own 3),false,.lblank⟩⟩] (.node (.node .leaf 20261090199 [⟨⟨(.inside 0),[],.lcode,false,[(1,1),(2,1)],false⟩,false,false,[],some 4,some ⟨.code,[],.lcode,false,[(1,0),(2,0)],false⟩,none,false,false,false,none,false,⟨.lcode,some (.own 3),false,.lblank⟩⟩] .leaf) 20272972979 [⟨⟨(.inside 0),[],.lcode,false,[(2,1),(1,1)],false⟩,false,false,[],some 4,some ⟨.code,[],.lcode,false,[(2,0),(1,0)],false⟩,none,false,false,false,none,false,⟨.lcode,some (.own 3),false,.lblank⟩⟩] .leaf))) 71308900888 [⟨⟨(.inside 1),[92],.lcode,false,[(2,0)],false⟩,false,false,[],some 4,some ⟨.code,[],.lcode,false,[(2,0)],false⟩,none,false,false,false,none,false,⟨.lcode,some (.own 3),false,.lblank⟩⟩] (.node (.node (.node (.node .leaf 121922867848 [⟨⟨(.inside 2),[92],.lcode,false,[(2,0)],false⟩,false,false,[],some 4,some ⟨.code,[],.lcode,false,[(2,0)],false⟩,none,false,false,false,none,false,⟨.lcode,some (.own 3),false,.lblank⟩⟩] .leaf) 121980802106 [⟨⟨(.inside 2),[92],.lcode,false,[(1,0)],false⟩,false,false,[],some 4,some ⟨(.inside 2),[],.lcode,false,[(1,0)],false⟩,none,false,false,false,none,false,⟨.lcode,some (.own 3),false,.lblank⟩⟩] .leaf) 121980893512 [⟨⟨(.inside 2),[92],.lcode,false,[(2,0)],false⟩,false,false,[],some 4,some ⟨(.inside 2),[],.lcode,false,[(2,0)],false⟩,none,false,false,false,none,false,⟨.lcode,some (.own 3),false,.lblank⟩⟩] (.node (.node .leaf 9341453352410 [⟨⟨(.inside 1),[92],.lcode,false,[(1,0),(2,0)],false⟩,false,false,[],some 4,some ⟨.code,[],.lcode,false,[(2,0)],false⟩,none,false,false,false,none,false,⟨.lcode,some (.own 3),false,.lblank⟩⟩] .leaf) 9341454158322 [⟨⟨(.inside 1),[92],.lcode,false,[(1,0),(2,0)],false⟩,false,false,[],some 4,some ⟨.code,[],.lcode,false,[(1,0),(2,0)],false⟩,none,false,false,false,none,false,⟨.lcode,some (.own 3),false,.lblank⟩⟩] .leaf)) 9341466041102 [⟨⟨(.inside 1),[92],.lcode,false,[(2,0),(1,0)],false⟩,false,false,[],some 4,some ⟨.code,[],.lcode,false,[(2,0),(1,0)],false⟩,none,false,false,false,none,false,⟨.lcode,some (.own 3),false,.lblank⟩⟩] (.node (.node (.node .leaf 15971883024170 [⟨⟨(.inside 2),[92],.lcode,false,[(1,0),(2,0)],false⟩,false,false,[],some 4,some ⟨.code,[],.lcode,false,[(2,0)],false⟩,none,false,false,false,none,false,⟨.lcode,some (.own 3),false,.lblank⟩⟩] .leaf) 15971883830082 [⟨⟨(.inside 2),[92],.lcode,false,[(1,0),(2,0)],false⟩,false,false,[],some 4,some ⟨.code,[],.lcode,false,[(1,0),(2,0)],false⟩,none,false,false,false,none,false,⟨.lcode,some (.own 3),false,.lblank⟩⟩] .leaf) 15971895712862 [⟨⟨(.inside 2),[92],.lcode,false,[(2,0),(1,0)],false⟩,false,false,[],some 4,some ⟨.code,[],.lcode,false,[(2,0),(1,0)],false⟩,none,false,false,false,none,false,⟨.lcode,some (.own 3),false,.lblank⟩⟩] (.node (.node .leaf 15979485192066 [⟨⟨(.inside 2),[92],.lcode,false,[(1,0),(2,0)],false⟩,false,false,[],some 4,some ⟨(.inside 2),[],.lcode,false,[(1,0),(2,0)],false⟩,none,false,false,false,none,false,⟨.lcode,some (.own 3),false,.lblank⟩⟩] .leaf) 15979497074846 [⟨⟨(.inside 2),[92],.lcode,false,[(2,0),(1,0)],false⟩,false,false,[],some 4,some ⟨(.inside 2),[],.lcode,false,[(2,0),(1,0)],false⟩,none,false,false,false,none,false,⟨.lcode,some (.own 3),false,.lblank⟩⟩] .leaf)))),(.node (.node (.node (.node (.node .leaf 105077 [⟨⟨.code,[],.lcode,false,[(1,0)],false⟩,false,false,[],some 4,some ⟨.code,[],.lcode,false,[(1,0)],false⟩,none,false,false,false,none,false,⟨.lcode,some (.own 3),false,.lblank⟩⟩] .leaf) 4388101 [⟨⟨(.inside 1),[],.lcode,false,[],false⟩,false,false,[],some 4,some ⟨(.inside 1),[],.lcode,false,[],false⟩,none,false,false,false,none,false,⟨.lcode,some (.own 3),false,.lblank⟩⟩] (.node .leaf 13881267 [⟨⟨.code,[],.lcode,false,[(1,0),(2,0)],false⟩,false,false,[],some 4,some ⟨.code,[],.lcode,false,[(1,0),(2,0)],false⟩,none,false,false,false,none,false,⟨.lcode,some (.own 3),false,.lblank⟩⟩] .leaf)) 24252962 [⟨⟨.code,[],.lcode,false,[(2,0),(1,0)],false⟩,false,false,[],some 4,some ⟨.code,[],.lcode,false,[(1,0)],false⟩,none,false,false,false,none,false,⟨.lcode,some (.own 3),false,.lblank⟩⟩] (.node (.node .leaf 25764047 [⟨⟨.code,[],.lcode,false,[(2,0),(1,0)],false⟩,false,false,[],some 4,some ⟨.code,[],.lcode,false,[(2,0),(1,0)],false⟩,none,false,false,false,none,false,⟨.lcode,some (.own 3),false,.lblank⟩⟩] .leaf) 48400851 [⟨⟨.code,[],.lblank,false,[(1,0)],true⟩,false,false,[],some 4,some ⟨.code,[],.lcode,false,[(1,0)],false⟩,none,false,true,false,none,false,⟨.lcode,some (.own 3),false,.lblank⟩⟩] (.node .leaf 154651541 [⟨⟨(.inside 0),[],.lcode,false,[(1,0)],false⟩,false,false,[],some 4,some ⟨.code,[],.lcode,false,[(1,0)],false⟩,none,false,false,false,none,false,⟨.lcode,some (.own 3),false,.lblank⟩⟩] .leaf))) 231924773 [⟨⟨.code,[47],.lcode,false,[(1,0)],false⟩,false,false,[],some 4,some ⟨.code,[],.lcode,false,[(1,0)],false⟩,none,false,false,false,none,false,⟨.lcode,some (.own 3),false,.lblank⟩⟩] (.node (.node (.node .leaf 541017701 [⟨⟨(.inside 1),[],.lcode,false,[(1,0)],false⟩,false,false,[],some 4,some ⟨.code,[],.lcode,false,[(1,0)],false⟩,none,false,false,false,none,false,⟨.lcode,some (.own 3),false,.lblank⟩⟩] .leaf) 574866005 [⟨⟨(.inside 1),[],.lcode,false,[(1,0)],false⟩,false,false,[],some 4,some ⟨(.inside 1),[],.lcode,false,[(1,0)],false⟩,none,false,false,false,none,false,⟨.lcode,some (.own 3),false,.lblank⟩⟩] (.node .leaf 574957411 [⟨⟨(.inside 1),[],.lcode,false,[(2,0)],false⟩,false,false,[],some 4,some ⟨(.inside 1),[],.lcode,false,[(2,0)],false⟩,none,false,false,false,none,false,⟨.lcode,some (.own 3),false,.lblank⟩⟩] .leaf)) 927383861 [⟨⟨(.inside 2),[],.lcode,false,[(1,0)],false⟩,false,false,[],some 4,some ⟨.code,[],.lcode,false,[(1,0)],false⟩,none,false,false,false,none,false,⟨.lcode,some (.own 3),false,.lblank⟩⟩] (.node (.node .leaf 6340627141 [⟨⟨.code,[],.lblank,false,[(1,0),(2,0)],true⟩,false,false,[],some 4,some ⟨.code,[],.lcode,false,[(1,0),(2,0)],false⟩,none,false,true,false,none,false,⟨.lcode,some (.own 3),false,.lblank⟩⟩] .leaf) 6350998836 [⟨⟨.code,[],.lblank,false,[(2,0),(1,0)],true⟩,false,false,[],some 4,some ⟨.code,[],.lcode,false,[(1,0)],false⟩,none,false,true,false,none,false,⟨.lcode,some (.own 3),false,.lblank⟩⟩] .leaf))) 20259468051 [⟨⟨(.inside 0),[],.lcode,false,[(1,0),(2,0)],false⟩,false,false,[],some 4,some ⟨.code,[],.lcode,false,[(1,0),(2,0)],false⟩,none,false,false,false,none,false,⟨.lcode,some (.own 3),false,.lblank⟩⟩] (.node (.node (.node (.node .leaf 20269839746 [⟨⟨(.inside 0),[],.lcode,false,[(2,0),(1,0)],false⟩,false,false,[],some 4,some ⟨.code,[],.lcode,false,[(1,0)],false⟩,none,false,false,false,none,false,⟨.lcode,some (.own 3),false,.lblank⟩⟩] .leaf) 20271350831 [⟨⟨(.inside 0),[],.lcode,false,[(2,0),(1,0)],false⟩,false,false,[],some 4,some ⟨.code,[],.lcode,false,[(2,0),(1,0)],false⟩,none,false,false,false,none,false,⟨.lcode,some (.own 3),false,.lblank⟩⟩] (.node .leaf 30382261443 [⟨⟨.code,[47],.lcode,false,[(1,0),(2,0)],false⟩,false,false,[],some 4,some ⟨.code,[],.lcode,false,[(1,0),(2,0)],false⟩,none,false,false,false,none,false,⟨.lcode,some (.own 3),false,.lblank⟩⟩] .leaf)) 30392633138 [⟨⟨.code,[47],.lcode,false,[(2,0),(1,0)],false⟩,false,false,[],some 4,some ⟨.code,[],.lcode,false,[(1,0)],false⟩,none,false,false,false,none,false,⟨.lcode,some (.own 3),false,.lblank⟩⟩] (.node (.node .leaf 30394144223 [⟨⟨.code,[47],.lcode,false,[(2,0),(1,0)],false⟩,false,false,[],some 4,some ⟨.code,[],.lcode,false,[(2,0),(1,0)],false⟩,none,false,false,false,none,false,⟨.lcode,some (.own 3),false,.lblank⟩⟩] .leaf) 70873435011 [⟨⟨(.inside 1),[],.lcode,false,[(1,0),(2,0)],false⟩,false,false,[],some 4,some ⟨.code,[],.lcode,false,[(1,0),(2,0)],false⟩,none,false,false,false,none,false,⟨.lcode,some (.own 3),false,.lblank⟩⟩] .leaf)) 70883806706 [⟨⟨(.inside 1),[],.lcode,false,[(2,0),(1,0)],false⟩,false,false,[],some 4,some ⟨.code,[],.lcode,false,[(1,0)],false⟩,none,false,false,false,none,false,⟨.lcode,some (.own 3),false,.lblank⟩⟩] (.node (.node (.node .leaf 70885317791 [⟨⟨(.inside 1),[],.lcode,false,[(2,0),(1,0)],false⟩,false,false,[],some 4,some ⟨.code,[],.lcode,false,[(2,0),(1,0)],false⟩,none,false,false,false,none,false,⟨.lcode,some (.own 3),false,.lblank⟩⟩] .leaf) 75307562835 [⟨⟨(.inside 1),[],.lcode,false,[(1,0),(2,0)],false⟩,false,false,[],some 4,some ⟨(.inside 1),[],.lcode,false,[(1,0),(2,0)],false⟩,none,false,false,false,none,false,⟨.lcode,some (.own 3),false,.lblank⟩⟩] (.node .leaf 75319445615 [⟨⟨(.inside 1),[],.lcode,false,[(2,0),(1,0)],false⟩,false,false,[],some 4,some ⟨(.inside 1),[],.lcode,false,[(2,0),(1,0)],false⟩,none,false,false,false,none,false,⟨.lcode,some (.own 3),false,.lblank⟩⟩] .leaf)) 121487401971 [⟨⟨(.inside 2),[],.lcode,false,[(1,0),(2,0)],false⟩,false,false,[],some 4,some ⟨.code,[],.lcode,false,[(1,0),(2,0)],false⟩,none,false,false,false,none,false,⟨.lcode,some (.own 3),false,.lblank⟩⟩] (.node (.node .leaf 121497773666 [⟨⟨(.inside 2),[],.lcode,false,[(2,0),(1,0)],false⟩,false,false,[],some 4,some ⟨.code,[],.lcode,false,[(1,0)],false⟩,none,false,false,false,none,false,⟨.lcode,some (.own 3),false,.lblank⟩⟩] .leaf) 121499284751 [⟨⟨(.inside 2),[],.lcode,false,[(2,0),(1,0)],false⟩,false,false,[],some 4,some ⟨.code,[],.lcode,false,[(2,0),(1,0)],false⟩,none,false,false,false,none,false,⟨.lcode,some (.own 3),false,.lblank⟩⟩] .leaf)))),(.node (.node (.node (.node (.node .leaf 117366 [⟨⟨.code,[],.lcode,false,[(1,1)],false⟩,false,false,[],some 4,some ⟨.code,[],.lcode,false,[(1,0)],false⟩,none,false,false,false,none,false,⟨.lcode,some (.own 3),false,.lblank⟩⟩] .leaf) 15503415 [⟨⟨.code,[],.lcode,false,[(1,1),(2,1)],false⟩,false,false,[],some 4,some ⟨.code,[],.lcode,false,[(1,0),(2,0)],false⟩,none,false,false,false,none,false,⟨.lcode,some (.own 3),false,.lblank⟩⟩] (.node .leaf 25875110 [⟨⟨.code,[],.lcode,false,[(2,1),(1,1)],false⟩,false,false,[],some 4,some ⟨.code,[],.lcode,false,[(1,0)],false⟩,none,false,false,false,none,false,⟨.lcode,some (.own 3),false,.lblank⟩⟩] .leaf)) 27386195 [⟨⟨.code,[],.lcode,false,[(2,1),(1,1)],false⟩,false,false,[],some 4,some ⟨.code,[],.lcode,false,[(2,0),(1,0)],false⟩,none,false,false,false,none,false,⟨.lcode,some (.own 3),false,.lblank⟩⟩] (.node (.node .leaf 48413140 [⟨⟨.code,[],.lblank,false,[(1,1)],true⟩,false,false,[],some 4,some ⟨.code,[],.lcode,false,[(1,0)],false⟩,none,false,true,false,none,false,⟨.lcode,some (.own 3),false,.lblank⟩⟩] .leaf) 154663830 [⟨⟨(.inside 0),[],.lcode,false,[(1,1)],false⟩,false,false,[],some 4,some ⟨.code,[],.lcode,false,[(1,0)],false⟩,none,false,false,false,none,false,⟨.lcode,some (.own 3),false,.lblank⟩⟩] .leaf)) 544600252 [⟨⟨(.inside 1),[92],.lcode,false,[],false⟩,false,false,[],some 4,some ⟨(.inside 1),[],.lcode,false,[],false⟩,none,false,false,false,none,false,⟨.lcode,some (.own 3),false,.lblank⟩⟩] (.node (.node (.node .leaf 6342249289 [⟨⟨.code,[],.lblank,false,[(1,1),(2,1)],true⟩,false,false,[],some 4,some ⟨.code,[],.lcode,false,[(1,0),(2,0)],false⟩,none,false,true,false,none,false,⟨.lcode,some (.own 3),false,.lblank⟩⟩] .leaf) 6352620984 [⟨⟨.code,[],.lblank,false,[(2,1),(1,1)],true⟩,false,false,[],some 4,some ⟨.code,[],.lcode,false,[(1,0)],false⟩,none,false,true,false,none,false,⟨.lcode,some (.own 3),false,.lblank⟩⟩] .leaf) 20261090199 [⟨⟨(.inside 0),[],.lcode,false,[(1,1),(2,1)],false⟩,false,false,[],some 4,some ⟨.code,[],.lcode,false,[(1,0),(2,0)],false⟩,none,false,false,false,none,false,⟨.lcode,some (.own 3),false,.lblank⟩⟩] (.node (.node .leaf 20271461894 [⟨⟨(.inside 0),[],.lcode,false,[(2,1),(1,1)],false⟩,false,false,[],some 4,some ⟨.code,[],.lcode,false,[(1,0)],false⟩,none,false,false,false,none,false,⟨.lcode,some (.own 3),false,.lblank⟩⟩] .leaf) 20272972979 [⟨⟨(.inside 0),[],.lcode,false,[(2,1),(1,1)],false⟩,false,false,[],some 4,some ⟨.code,[],.lcode,false,[(2,0),(1,0)],false⟩,none,false,false,false,none,false,⟨.lcode,some (.own 3),false,.lblank⟩⟩] .leaf))) 71308809482 [⟨⟨(.inside 1),[92],.lcode,false,[(1,0)],false⟩,false,false,[],some 4,some ⟨.code,[],.lcode,false,[(1,0)],false⟩,none,false,false,false,none,false,⟨.lcode,some (.own 3),false,.lblank⟩⟩] (.node (.node (.node (.node .leaf 71342657786 [⟨⟨(.inside 1),[92],.lcode,false,[(1,0)],false⟩,false,false,[],some 4,some ⟨(.inside 1),[],.lcode,false,[(1,0)],false⟩,none,false,false,false,none,false,⟨.lcode,some (.own 3),false,.lblank⟩⟩] .leaf) 71342749192 [⟨⟨(.inside 1),[92],.lcode,false,[(2,0)],false⟩,false,false,[],some 4,some ⟨(.inside 1),[],.lcode,false,[(2,0)],false⟩,none,false,false,false,none,false,⟨.lcode,some (.own 3),false,.lblank⟩⟩] .leaf) 121922776442 [⟨⟨(.inside 2),[92],.lcode,false,[(1,0)],false⟩,false,false,[],some 4,some ⟨.code,[],.lcode,false,[(1,0)],false⟩,none,false,false,false,none,false,⟨.lcode,some (.own 3),false,.lblank⟩⟩] (.node (.node .leaf 9341454158322 [⟨⟨(.inside 1),[92],.lcode,false,[(1,0),(2,0)],false⟩,false,false,[],some 4,some ⟨.code,[],.lcode,false,[(1,0),(2,0)],false⟩,none,false,false,false,none,false,⟨.lcode,some (.own 3),false,.lblank⟩⟩] .leaf) 9341464530017 [⟨⟨(.inside 1),[92],.lcode,false,[(2,0),(1,0)],false⟩,false,false,[],some 4,some ⟨.code,[],.lcode,false,[(1,0)],false⟩,none,false,false,false,none,false,⟨.lcode,some (.own 3),false,.lblank⟩⟩] .leaf)) 9341466041102 [⟨⟨(.inside 1),[92],.lcode,false,[(2,0),(1,0)],false⟩,false,false,[],some 4,some ⟨.code,[],.lcode,false,[(2,0),(1,0)],false⟩,none,false,false,false,none,false,⟨.lcode,some (.own 3),false,.lblank⟩⟩] (.node (.node (.node .leaf 9345888286146 [⟨⟨(.inside 1),[92],.lcode,false,[(1,0),(2,0)],false⟩,false,false,[],some 4,some ⟨(.inside 1),[],.lcode,false,[(1,0),(2,0)],false⟩,none,false,false,false,none,false,⟨.lcode,some (.own 3),false,.lblank⟩⟩] .leaf) 9345900168926 [⟨⟨(.inside 1),[92],.lcode,false,[(2,0),(1,0)],false⟩,false,false,[],some 4,some ⟨(.inside 1),[],.lcode,false,[(2,0),(1,0)],false⟩,none,false,false,false,none,false,⟨.lcode,some (.own 3),false,.lblank⟩⟩] .leaf) 15971883830082 [⟨⟨(.inside 2),[92],.lcode,false,[(1,0),(2,0)],false⟩,false,false,[],some 4,some ⟨.code,[],.lcode,false,[(1,0),(2,0)],false⟩,none,false,false,false,none,false,⟨.lcode,some (.own 3),false,.lblank⟩⟩] (.node (.node .leaf 15971894201777 [⟨⟨(.inside 2),[92],.lcode,false,[(2,0),(1,0)],false⟩,false,false,[],some 4,some ⟨.code,[],.lcode,false,[(1,0)],false⟩,none,false,false,false,none,false,⟨.lcode,some (.own 3),false,.lblank⟩⟩] .leaf) 15971895712862 [⟨⟨(.inside 2),[92],.lcode,false,[(2,0),(1,0)],false⟩,false,false,[],some 4,some ⟨.code,[],.lcode,false,[(2,0),(1,0)],false⟩,none,false,false,false,none,false,⟨.lcode,some (.own 3),false,.lblank⟩⟩] .leaf)))),(.node (.node (.node .leaf 1179872 [⟨⟨(.inside 0),[],.lcode,false,[],false⟩,false,false,[],none,none,none,false,false,false,none,false,⟨.lcode,some (.own 3),false,.lblank⟩⟩] .leaf) 1327852 [⟨⟨(.inside 0),[],.lcomment,false,[],false⟩,false,false,[],none,none,none,false,false,false,none,false,⟨.lcomment,some (.own 3),false,.lblank⟩⟩] (.node .leaf 154644904 [⟨⟨(.inside 0),[],.lcode,false,[(1,0)],false⟩,false,false,[],none,none,none,false,false,false,none,false,⟨.lcode,some (.own 3),false,.lblank⟩⟩] .leaf)) 154730927 [⟨⟨(.inside 0),[],.lcode,false,[(2,0)],false⟩,false,false,[],none,none,none,false,false,false,none,false,⟨.lcode,some (.own 3),false,.lblank⟩⟩] (.node (.node .leaf 20258650119 [⟨⟨(.inside 0),[],.lcode,false,[(1,0),(2,0)],false⟩,false,false,[],none,none,none,false,false,false,none,false,⟨.lcode,some (.own 3),false,.lblank⟩⟩] .leaf) 20269833109 [⟨⟨(.inside 0),[],.lcode,false,[(2,0),(1,0)],false⟩,false,false,[],none,none,none,false,false,false,none,false,⟨.lcode,some (.own 3),false,.lblank⟩⟩] .leaf)),(.node (.node (.node (.node (.node .leaf 196483 [⟨⟨.code,[],.lcode,false,[(2,0)],false⟩,false,false,[],some 4,some ⟨.code,[],.lcode,false,[(2,0)],false⟩,none,false,false,false,none,false,⟨.lcode,some (.own 3),false,.lblank⟩⟩] .leaf) 7522021 [⟨⟨(.inside 2),[],.lcode,false,[],false⟩,false,false,[],some 4,some ⟨(.inside 2),[],.lcode,false,[],false⟩,none,false,false,false,none,false,⟨.lcode,some (.own 3),false,.lblank⟩⟩] (.node .leaf 13075355 [⟨⟨.code,[],.lcode,false,[(1,0),(2,0)],false⟩,false,false,[],some 4,some ⟨.code,[],.lcode,false,[(2,0)],false⟩,none,false,false,false,none,false,⟨.lcode,some (.own 3),false,.lblank⟩⟩] .leaf)) 13881267 [⟨⟨.code,[],.lcode,false,[(1,0),(2,0)],false⟩,false,false,[],some 4,some ⟨.code,[],.lcode,false,[(1,0),(2,0)],false⟩,none,false,false,false,none,false,⟨.lcode,some (.own 3),false,.lblank⟩⟩] (.node (.node .leaf 25764047 [⟨⟨.code,[],.lcode,false,[(2,0),(1,0)],false⟩,false,false,[],some 4,some ⟨.code,[],.lcode,false,[(2,0),(1,0)],false⟩,none,false,false,false,none,false,⟨.lcode,some (.own 3),false,.lblank⟩⟩] .leaf) 48492257 [⟨⟨.code,[],.lblank,false,[(2,0)],true⟩,false,false,[],some 4,some ⟨.code,[],.lcode,false,[(2,0)],false⟩,none,false,true,false,none,false,⟨.lcode,some (.own 3),false,.lblank⟩⟩] (.node .leaf 154742947 [⟨⟨(.inside 0),[],.lcode,false,[(2,0)],false⟩,false,false,[],some 4,some ⟨.code,[],.lcode,false,[(2,0)],false⟩,none,false,false,false,none,false,⟨.lcode,some (.own 3),false,.lblank⟩⟩] .leaf))) 232028468 [⟨⟨.code,[47],.lcode,false,[(2,1)],false⟩,false,false,[],some 4,some ⟨.code,[],.lcode,false,[(2,0)],false⟩,none,false,false,false,none,false,⟨.lcode,some (.own 3),false,.lblank⟩⟩] (.node (.node (.node .leaf 541109107 [⟨⟨(.inside 1),[],.lcode,false,[(2,0)],false⟩,false,false,[],some 4,some ⟨.code,[],.lcode,false,[(2,0)],false⟩,none,false,false,false,none,false,⟨.lcode,some (.own 3),false,.lblank⟩⟩] .leaf) 927475267 [⟨⟨(.inside 2),[],.lcode,false,[(2,0)],false⟩,false,false,[],some 4,some ⟨.code,[],.lcode,false,[(2,0)],false⟩,none,false,false,false,none,false,⟨.lcode,some (.own 3),false,.lblank⟩⟩] (.node .leaf 985409525 [⟨⟨(.inside 2),[],.lcode,false,[(1,0)],false⟩,false,false,[],some 4,some ⟨(.inside 2),[],.lcode,false,[(1,0)],false⟩,none,false,false,false,none,false,⟨.lcode,some (.own 3),false,.lblank⟩⟩] .leaf)) 985500931 [⟨⟨(.inside 2),[],.lcode,false,[(2,0)],false⟩,false,false,[],some 4,some ⟨(.inside 2),[],.lcode,false,[(2,0)],false⟩,none,false,false,false,none,false,⟨.lcode,some (.own 3),false,.lblank⟩⟩] (.node (.node .leaf 6339821229 [⟨⟨.code,[],.lblank,false,[(1,0),(2,0)],true⟩,false,false,[],some 4,some ⟨.code,[],.lcode,false,[(2,0)],false⟩,none,false,true,false,none,false,⟨.lcode,some (.own 3),false,.lblank⟩⟩] .leaf) 6352509921 [⟨⟨.code,[],.lblank,false,[(2,0),(1,0)],true⟩,false,false,[],some 4,some ⟨.code,[],.lcode,false,[(2,0),(1,0)],false⟩,none,false,true,false,none,false,⟨.lcode,some (.own 3),false,.lblank⟩⟩] .leaf))) 20258662139 [⟨⟨(.inside 0),[],.lcode,false,[(1,0),(2,0)],false⟩,false,false,[],some 4,some ⟨.code,[],.lcode,false,[(2,0)],false⟩,none,false,false,false,none,false,⟨.lcode,some (.own 3),false,.lblank⟩⟩] (.node (.node (.node (.node .leaf 20259468051 [⟨⟨(.inside 0),[],.lcode,false,[(1,0),(2,0)],false⟩,false,false,[],some 4,some ⟨.code,[],.lcode,false,[(1,0),(2,0)],false⟩,none,false,false,false,none,false,⟨.lcode,some (.own 3),false,.lblank⟩⟩] .leaf) 20271350831 [⟨⟨(.inside 0),[],.lcode,false,[(2,0),(1,0)],false⟩,false,false,[],some 4,some ⟨.code,[],.lcode,false,[(2,0),(1,0)],false⟩,none,false,false,false,none,false,⟨.lcode,some (.own 3),false,.lblank⟩⟩] (.node .leaf 30383077679 [⟨⟨.code,[47],.lcode,false,[(1,1),(2,1)],false⟩,false,false,[],some 4,some ⟨.code,[],.lcode,false,[(2,0)],false⟩,none,false,false,false,none,false,⟨.lcode,some (.own 3),false,.lblank⟩⟩] .leaf)) 30383883591 [⟨⟨.code,[47],.lcode,false,[(1,1),(2,1)],false⟩,false,false,[],some 4,some ⟨.code,[],.lcode,false,[(1,0),(2,0)],false⟩,none,false,false,false,none,false,⟨.lcode,some (.own 3),false,.lblank⟩⟩] (.node (.node .leaf 30395766371 [⟨⟨.code,[47],.lcode,false,[(2,1),(1,1)],false⟩,false,false,[],some 4,some ⟨.code,[],.lcode,false,[(2,0),(1,0)],false⟩,none,false,false,false,none,false,⟨.lcode,some (.own 3),false,.lblank⟩⟩] .leaf) 70872629099 [⟨⟨(.inside 1),[],.lcode,false,[(1,0),(2,0)],false⟩,false,false,[],some 4,some ⟨.code,[],.lcode,false,[(2,0)],false⟩,none,false,false,false,none,false,⟨.lcode,some (.own 3),false,.lblank⟩⟩] .leaf)) 70873435011 [⟨⟨(.inside 1),[],.lcode,false,[(1,0),(2,0)],false⟩,false,false,[],some 4,some ⟨.code,[],.lcode,false,[(1,0),(2,0)],false⟩,none,false,false,false,none,false,⟨.lcode,some (.own 3),false,.lblank⟩⟩] (.node (.node (.node .leaf 70885317791 [⟨⟨(.inside 1),[],.lcode,false,[(2,0),(1,0)],false⟩,false,false,[],some 4,some ⟨.code,[],.lcode,false,[(2,0),(1,0)],false⟩,none,false,false,false,none,false,⟨.lcode,some (.own 3),false,.lblank⟩⟩] .leaf) 121486596059 [⟨⟨(.inside 2),[],.lcode,false,[(1,0),(2,0)],false⟩,false,false,[],some 4,some ⟨.code,[],.lcode,false,[(2,0)],false⟩,none,false,false,false,none,false,⟨.lcode,some (.own 3),false,.lblank⟩⟩] (.node .leaf 121487401971 [⟨⟨(.inside 2),[],.lcode,false,[(1,0),(2,0)],false⟩,false,false,[],some 4,some ⟨.code,[],.lcode,false,[(1,0),(2,0)],false⟩,none,false,false,false,none,false,⟨.lcode,some (.own 3),false,.lblank⟩⟩] .leaf)) 121499284751 [⟨⟨(.inside 2),[],.lcode,false,[(2,0),(1,0)],false⟩,false,false,[],some 4,some ⟨.code,[],.lcode,false,[(2,0),(1,0)],false⟩,none,false,false,false,none,false,⟨.lcode,some (.own 3),false,.lblank⟩⟩] (.node (.node .leaf 129088763955 [⟨⟨(.inside 2),[],.lcode,false,[(1,0),(2,0)],false⟩,false,false,[],some 4,some ⟨(.inside 2),[],.lcode,false,[(1,0),(2,0)],false⟩,none,false,false,false,none,false,⟨.lcode,some (.own 3),false,.lblank⟩⟩] .leaf) 129100646735 [⟨⟨(.inside 2),[],.lcode,false,[(2,0),(1,0)],false⟩,false,false,[],some 4,some ⟨(.inside 2),[],.lcode,false,[(2,0),(1,0)],false⟩,none,false,false,false,none,false,⟨.lcode,some (.own 3),false,.lblank⟩⟩] .leaf)))),(.node (.node (.node (.node (.node .leaf 105077 [⟨⟨.code,[],.lcode,false,[(1,0)],false⟩,false,false,[],some 4,some ⟨.code,[],.lcode,false,[(1,0)],false⟩,none,false,false,false,none,false,⟨.lcode,some (.own 3),false,.lblank⟩⟩] .leaf) 4388101 [⟨⟨(.inside 1),[],.lcode,false,[],false⟩,false,false,[],some 4,some ⟨(.inside 1),[],.lcode,false,[],false⟩,none,false,false,false,none,false,⟨.lcode,some (.own 3),false,.lblank⟩⟩] (.node .leaf 13881267 [⟨⟨.code,[],.lcode,false,[(1,0),(2,0)],false⟩,false,false,[],some 4,some ⟨.code,[],.lcode,false,[(1,0),(2,0)],false⟩,none,false,false,false,none,false,⟨.lcode,some (.own 3),false,.lblank⟩⟩] .leaf)) 24252962 [⟨⟨.code,[],.lcode,false,[(2,0),(1,0)],false⟩,false,false,[],some 4,some ⟨.code,[],.lcode,false,[(1,0)],false⟩,none,false,false,false,none,false,⟨.lcode,some (.own 3),false,.lblank⟩⟩] (.node (.node .leaf 25764047 [⟨⟨.code,[],.lcode,false,[(2,0),(1,0)],false⟩,false,false,[],some 4,some ⟨.code,[],.lcode,false,[(2,0),(1,0)],false⟩,none,false,false,false,none,false,⟨.lcode,some (.own 3),false,.lblank⟩⟩] .leaf) 48400851 [⟨⟨.code,[],.lblank,false,[(1,0)],true⟩,false,false,[],some 4,some ⟨.code,[],.lcode,false,[(1,0)],false⟩,none,false,true,false,none,false,⟨.lcode,some (.own 3),false,.lblank⟩⟩] (.node .leaf 154651541 [⟨⟨(.inside 0),[],.lcode,false,[(1,0)],false⟩,false,false,[],some 4,some ⟨.code,[],.lcode,false,[(1,0)],false⟩,none,false,false,false,none,false,⟨.lcode,some (.own 3),false,.lblank⟩⟩] .leaf))) 231937062 [⟨⟨.code,[47],.lcode,false,[(1,1)],false⟩,false,false,[],some 4,some ⟨.code,[],.lcode,false,[(1,0)],false⟩,none,false,false,false,none,false,⟨.lcode,some (.own 3),false,.lblank⟩⟩] (.node (.node (.node .leaf 541017701 [⟨⟨(.inside 1),[],.lcode,false,[(1,0)],false⟩,false,false,[],some 4,some ⟨.code,[],.lcode,false,[(1,0)],false⟩,none,false,false,false,none,false,⟨.lcode,some (.own 3),false,.lblank⟩⟩] .leaf) 574866005 [⟨⟨(.inside 1),[],.lcode,false,[(1,0)],false⟩,false,false,[],some 4,some ⟨(.inside 1),[],.lcode,false,[(1,0)],false⟩,none,false,false,false,none,false,⟨.lcode,some (.own 3),false,.lblank⟩⟩] (.node .leaf 574957411 [⟨⟨(.inside 1),[],.lcode,false,[(2,0)],false⟩,false,false,[],some 4,some ⟨(.inside 1),[],.lcode,false,[(2,0)],false⟩,none,false,false,false,none,false,⟨.lcode,some (.own 3),false,.lblank⟩⟩] .leaf)) 927383861 [⟨⟨(.inside 2),[],.lcode,false,[(1,0)],false⟩,false,false,[],some 4,some ⟨.code,[],.lcode,false,[(1,0)],false⟩,none,false,false,false,none,false,⟨.lcode,some (.own 3),false,.lblank⟩⟩] (.node (.node .leaf 6340627141 [⟨⟨.code,[],.lblank,false,[(1,0),(2,0)],true⟩,false,false,[],some 4,some ⟨.code,[],.lcode,false,[(1,0),(2,0)],false⟩,none,false,true,false,none,false,⟨.lcode,some (.own 3),false,.lblank⟩⟩] .leaf) 6350998836 [⟨⟨.code,[],.lblank,false,[(2,0),(1,0)],true⟩,false,false,[],some 4,some ⟨.code,[],.lcode,false,[(1,0)],false⟩,none,false,true,false,none,false,⟨.lcode,some (.own 3),false,.lblank⟩⟩] .leaf))) 20259468051 [⟨⟨(.inside 0),[],.lcode,false,[(1,0),(2,0)],false⟩,false,false,[],some 4,some ⟨.code,[],.lcode,false,[(1,0),(2,0)],false⟩,none,false,false,false,none,false,⟨.lcode,some (.own 3),false,.lblank⟩⟩] (.node (.node (.node (.node .leaf 20269839746 [⟨⟨(.inside 0),[],.lcode,false,[(2,0),(1,0)],false⟩,false,false,[],some 4,some ⟨.code,[],.lcode,false,[(1,0)],false⟩,none,false,false,false,none,false,⟨.lcode,some (.own 3),false,.lblank⟩⟩] .leaf) 20271350831 [⟨⟨(.inside 0),[],.lcode,false,[(2,0),(1,0)],false⟩,false,false,[],some 4,some ⟨.code,[],.lcode,false,[(2,0),(1,0)],false⟩,none,false,false,false,none,false,⟨.lcode,some (.own 3),false,.lblank⟩⟩] (.node .leaf 30383883591 [⟨⟨.code,[47],.lcode,false,[(1,1),(2,1)],false⟩,false,false,[],some 4,some ⟨.code,[],.lcode,false,[(1,0),(2,0)],false⟩,none,false,false,false,none,false,⟨.lcode,some (.own 3),false,.lblank⟩⟩] .leaf)) 30394255286 [⟨⟨.code,[47],.lcode,false,[(2,1),(1,1)],false⟩,false,false,[],some 4,some ⟨.code,[],.lcode,false,[(1,0)],false⟩,none,false,false,false,none,false,⟨.lcode,some (.own 3),false,.lblank⟩⟩] (.node (.node .leaf 30395766371 [⟨⟨.code,[47],.lcode,false,[(2,1),(1,1)],false⟩,false,false,[],some 4,some ⟨.code,[],.lcode,false,[(2,0),(1,0)],false⟩,none,false,false,false,none,false,⟨.lcode,some (.own 3),false,.lblank⟩⟩] .leaf) 70873435011 [⟨⟨(.inside 1),[],.lcode,false,[(1,0),(2,0)],false⟩,false,false,[],some 4,some ⟨.code,[],.lcode,false,[(1,0),(2,0)],false⟩,none,false,false,false,none,false,⟨.lcode,some (.own 3),false,.lblank⟩⟩] .leaf)) 70883806706 [⟨⟨(.inside 1),[],.lcode,false,[(2,0),(1,0)],false⟩,false,false,[],some 4,some ⟨.code,[],.lcode,false,[(1,0)],false⟩,none,false,false,false,none,false,⟨.lcode,some (.own 3),false,.lblank⟩⟩] (.node (.node (.node .leaf 70885317791 [⟨⟨(.inside 1),[],.lcode,false,[(2,0),(1,0)],false⟩,false,false,[],some 4,some ⟨.code,[],.lcode,false,[(2,0),(1,0)],false⟩,none,false,false,false,none,false,⟨.lcode,some (.own 3),false,.lblank⟩⟩] .leaf) 75307562835 [⟨⟨(.inside 1),[],.lcode,false,[(1,0),(2,0)],false⟩,false,false,[],some 4,some ⟨(.inside 1),[],.lcode,false,[(1,0),(2,0)],false⟩,none,false,false,false,none,false,⟨.lcode,some (.own 3),false,.lblank⟩⟩] (.node .leaf 75319445615 [⟨⟨(.inside 1),[],.lcode,false,[(2,0),(1,0)],false⟩,false,false,[],some 4,some ⟨(.inside 1),[],.lcode,false,[(2,0),(1,0)],false⟩,none,false,false,false,none,false,⟨.lcode,some (.own 3),false,.lblank⟩⟩] .leaf)) 121487401971 [⟨⟨(.inside 2),[],.lcode,false,[(1,0),(2,0)],false⟩,false,false,[],some 4,some ⟨.code,[],.lcode,false,[(1,0),(2,0)],false⟩,none,false,false,false,none,false,⟨.lcode,some (.own 3),false,.lblank⟩⟩] (.node (.node .leaf 121497773666 [⟨⟨(.inside 2),[],.lcode,false,[(2,0),(1,0)],false⟩,false,false,[],some 4,some ⟨.code,[],.lcode,false,[(1,0)],false⟩,none,false,false,false,none,false,⟨.lcode,some (.own 3),false,.lblank⟩⟩] .leaf) 121499284751 [⟨⟨(.inside 2),[],.lcode,false,[(2,0),(1,0)],false⟩,false,false,[],some 4,some ⟨.code,[],.lcode,false,[(2,0),(1,0)],false⟩,none,false,false,false,none,false,⟨.lcode,some (.own 3),false,.lblank⟩⟩] .leaf)))),(.node (.node (.node (.node .leaf 1179872 [⟨⟨(.inside 0),[],.lcode,false,[],false⟩,false,false,[],none,none,none,false,false,false,none,false,⟨.lcode,some (.own 3),false,.lblank⟩⟩] .leaf) 1327852 [⟨⟨(.inside 0),[],.lcomment,false,[],false⟩,false,false,[],none,none,none,false,false,false,none,false,⟨.lcomment,some (.own 3),false,.lblank⟩⟩] .leaf) 154644904 [⟨⟨(.inside 0),[],.lcode,false,[(1,0)],false⟩,false,false,[],none,none,none,false,false,false,none,false,⟨.lcode,some (.own 3),false,.lblank⟩⟩] (.node (.node .leaf 154657193 [⟨⟨(.inside 0),[],.lcode,false,[(1,1)],false⟩,false,false,[],none,none,none,false,false,false,none,false,⟨.lcode,some (.own 3),false,.lblank⟩⟩] .leaf) 154730927 [⟨⟨(.inside 0),[],.lcode,false,[(2,0)],false⟩,false,false,[],none,none,none,false,false,false,none,false,⟨.lcode,some (.own 3),false,.lblank⟩⟩] .leaf)) 154743216 [⟨⟨(.inside 0),[],.lcode,false,[(2,1)],false⟩,false,false,[],none,none,none,false,false,false,none,false,⟨.lcode,some (.own 3),false,.lblank⟩⟩] (.node (.node (.node .leaf 20258650119 [⟨⟨(.inside 0),[],.lcode,false,[(1,0),(2,0)],false⟩,false,false,[],none,none,none,false,false,false,none,false,⟨.lcode,some (.own 3),false,.lblank⟩⟩] .leaf) 20260272267 [⟨⟨(.inside 0),[],.lcode,false,[(1,1),(2,1)],false⟩,false,false,[],none,none,none,false,false,false,none,false,⟨.lcode,some (.own 3),false,.lblank⟩⟩] .leaf) 20269833109 [⟨⟨(.inside 0),[],.lcode,false,[(2,0),(1,0)],false⟩,false,false,[],none,none,none,false,false,false,none,false,⟨.lcode,some (.own 3),false,.lblank⟩⟩] (.node .leaf 20271455257 [⟨⟨(.inside 0),[],.lcode,false,[(2,1),(1,1)],false⟩,false,false,[],none,none,none,false,false,false,none,false,⟨.lcode,some (.own 3),false,.lblank⟩⟩] .leaf)))]
theorem scilab_line_lClosed : CA.closedF scilab_line_M scilab_line_lex true false scilab_line_lfr scilab_line_lTab = true := by decide +kernel
def scilab_line_L : LCert LexisTable.scilab_line scilab_line_M := scilab_line_lex_eq ▸ ⟨⟨scilab_line_lmasks, scilab_line_lex.rel, scilab_line_lcs, scilab_line_lrows, scilab_line_lmasksIn, scilab_line_lrepOk, scilab_line_lrowsOk⟩,
  _, rfl, by decide +kernel, by decide +kernel, true, false, CA.closed_of scilab_line_lfrOk scilab_line_lClosed⟩
theorem scilab_line_L_chk : scilab_line_L.chk = true := by
  have : ∀ (l : Lexis) (h : LexisTable.scilab_line = l) (C : LCert l scilab_line_M), (h ▸ C : LCert LexisTable.scilab_line scilab_line_M).chk = C.chk := by rintro _ rfl _; rfl
  exact this _ scilab_line_lex_eq _

def vhdl_line_lex : Lexis := [⟨[45,45],[],.lcomment,false,false,false,true,false,false,true,false,none,false,false,false,false,[]⟩,⟨[39],[[39]],.lcode,false,true,false,true,false,false,true,false,none,true,false,false,false,[]⟩,⟨[34],[[34]],.lcode,false,true,false,true,false,false,true,false,none,false,false,false,false,[]⟩]
theorem vhdl_line_lex_eq : LexisTable.vhdl_line = vhdl_line_lex := by decide +kernel
def vhdl_line_lmasks : List Nat := [4294967808,35184372088832,549755813888,17179869184,8192,1024,4096,115792089237316195423570985008687907853269984665640564039457584007908834656767,115792089237316195423570985008687907853269984665640564039457584007913129626623,115792089237316195423570985008687907853269984665640564039457584007363373812735,115792089237316195423570985008687907853269984665640564039457584007895949757439,4951760157141521099596496896]
def vhdl_line_lcs : List (Nat × Nat) := [(0,115792089237316195423570985008687907853269984665635612279300442451057930387967),(9,4294967808),(10,1024),(11,2048),(12,4096),(13,8192),(34,17179869184),(39,549755813888),(45,35184372088832),(92,4951760157141521099596496896)]
theorem vhdl_line_lmasksIn : masksIn vhdl_line_nfa vhdl_line_lmasks = true := by decide +kernel
theorem vhdl_line_lrepOk : repOk vhdl_line_lmasks vhdl_line_lcs = true := by decide +kernel
def vhdl_line_lrows : List Row := [⟨[],none,[],[⟨256,.other,false,some ⟨0,[.setEnt (.own 3)],some 4,true⟩⟩,⟨256,.ws,false,some ⟨1,[.setEnt (.own 0)],some 0,false⟩⟩,⟨256,.lf,false,some ⟨0,[.setEnt .newline],some 3,true⟩⟩,⟨256,.vt,false,none⟩,⟨256,.ff,false,some ⟨0,[.setEnt .newline],some 3,true⟩⟩,⟨256,.cr,false,some ⟨2,[.setEnt .newline],none,false⟩⟩,⟨256,.cr,true,some ⟨3,[.setEnt .newline],some 3,false⟩⟩,⟨34,.other,false,some ⟨4,[.code,.setEnt (.own 3)],some 4,false⟩⟩,⟨39,.other,false,some ⟨5,[.code,.setEnt (.own 3)],some 4,false⟩⟩,⟨45,.other,false,some ⟨6,[.setEnt (.own 3)],some 4,false⟩⟩,⟨92,.other,false,some ⟨0,[.setEnt (.own 3)],some 4,true⟩⟩]⟩,⟨[0],some 0,[],[⟨256,.other,false,none⟩,⟨256,.ws,false,some ⟨1,[.setEnt (.own 0)],some 0,false⟩⟩,⟨256,.lf,false,none⟩,⟨256,.vt,false,none⟩,⟨256,.ff,false,none⟩,⟨256,.cr,false,none⟩,⟨256,.cr,true,none⟩,⟨34,.other,false,none⟩,⟨39,.other,false,none⟩,⟨45,.other,false,none⟩,⟨92,.other,false,none⟩]⟩,⟨[10],none,[],[⟨256,.other,false,none⟩,⟨256,.ws,false,none⟩,⟨256,.lf,false,some ⟨0,[.setEnt .newline],some 3,true⟩⟩,⟨256,.vt,false,none⟩,⟨256,.ff,false,none⟩,⟨256,.cr,false,none⟩,⟨256,.cr,true,none⟩,⟨34,.other,false,none⟩,⟨39,.other,false,none⟩,⟨45,.other,false,none⟩,⟨92,.other,false,none⟩]⟩,⟨[10,14],some 3,[],[⟨256,.other,false,none⟩,⟨256,.ws,false,none⟩,⟨256,.lf,false,some ⟨0,[.setEnt .newline],some 3,true⟩⟩,⟨256,.vt,false,none⟩,⟨256,.ff,false,none⟩,⟨256,.cr,false,none⟩,⟨256,.cr,true,none⟩,⟨34,.other,false,none⟩,⟨39,.other,false,none⟩,⟨45,.other,false,none⟩,⟨92,.other,false,none⟩]⟩,⟨[7,15],some 4,[],[⟨256,.other,false,some ⟨7,[],none,false⟩⟩,⟨256,.ws,false,some ⟨7,[],none,false⟩⟩,⟨256,.lf,false,none⟩,⟨256,.vt,false,some ⟨7,[],none,false⟩⟩,⟨256,.ff,false,none⟩,⟨256,.cr,false,none⟩,⟨256,.cr,true,none⟩,⟨34,.other,false,some ⟨0,[],some 2,true⟩⟩,⟨39,.other,false,some ⟨7,[],none,false⟩⟩,⟨45,.other,false,some ⟨7,[],none,false⟩⟩,⟨92,.other,false,some ⟨7,[],none,false⟩⟩]⟩,⟨[4,15],some 4,[],[⟨256,.other,false,some ⟨8,[],none,false⟩⟩,⟨256,.ws,false,some ⟨8,[],none,false⟩⟩,⟨256,.lf,false,none⟩,⟨256,.vt,false,some ⟨8,[],none,false⟩⟩,⟨256,.ff,false,none⟩,⟨256,.cr,false,none⟩,⟨256,.cr,true,none⟩,⟨34,.other,false,some ⟨8,[],none,false⟩⟩,⟨39,.other,false,none⟩,⟨45,.other,false,some ⟨8,[],none,false⟩⟩,⟨92,.other,false,some ⟨8,[],none,false⟩⟩]⟩,⟨[1,15],some 4,[],[⟨256,.other,false,none⟩,⟨256,.ws,false,none⟩,⟨256,.lf,false,none⟩,⟨256,.vt,false,none⟩,⟨256,.ff,false,none⟩,⟨256,.cr,false,none⟩,⟨256,.cr,true,none⟩,⟨34,.other,false,none⟩,⟨39,.other,false,none⟩,⟨45,.other,false,some ⟨9,[.comment],some 1,false⟩⟩,⟨92,.other,false,none⟩]⟩,⟨[8],none,[],[⟨256,.other,false,some ⟨7,[],none,false⟩⟩,⟨256,.ws,false,some ⟨7,[],none,false⟩⟩,⟨256,.lf,false,none⟩,⟨256,.vt,false,some ⟨7,[],none,false⟩⟩,⟨256,.ff,false,none⟩,⟨256,.cr,false,none⟩,⟨256,.cr,true,none⟩,⟨34,.other,false,some ⟨0,[],some 2,true⟩⟩,⟨39,.other,false,some ⟨7,[],none,false⟩⟩,⟨45,.other,false,some ⟨7,[],none,false⟩⟩,⟨92,.other,false,some ⟨7,[],none,false⟩⟩]⟩,⟨[5],none,[],[⟨256,.other,false,none⟩,⟨256,.ws,false,none⟩,⟨256,.lf,false,none⟩,⟨256,.vt,false,none⟩,⟨256,.ff,false,none⟩,⟨256,.cr,false,none⟩,⟨256,.cr,true,none⟩,⟨34,.other,false,none⟩,⟨39,.other,false,some ⟨0,[],some 2,true⟩⟩,⟨45,.other,false,none⟩,⟨92,.other,false,none⟩]⟩,⟨[2],some 1,[],[⟨256,.other,false,some ⟨10,[],some 1,false⟩⟩,⟨256,.ws,false,some ⟨10,[],some 1,false⟩⟩,⟨256,.lf,false,none⟩,⟨256,.vt,false,some ⟨10,[],some 1,false⟩⟩,⟨256,.ff,false,none⟩,⟨256,.cr,false,none⟩,⟨256,.cr,true,none⟩,⟨34,.other,false,some ⟨10,[],some 1,false⟩⟩,⟨39,.other,false,some ⟨10,[],some 1,false⟩⟩,⟨45,.other,false,some ⟨10,[],some 1,false⟩⟩,⟨92,.other,false,some ⟨10,[],some 1,false⟩⟩]⟩,⟨[3],some 1,[],[⟨256,.other,false,some ⟨10,[],some 1,false⟩⟩,⟨256,.ws,false,some ⟨10,[],some 1,false⟩⟩,⟨256,.lf,false,none⟩,⟨256,.vt,false,some ⟨10,[],some 1,false⟩⟩,⟨256,.ff,false,none⟩,⟨256,.cr,false,none⟩,⟨256,.cr,true,none⟩,⟨34,.other,false,some ⟨10,[],some 1,false⟩⟩,⟨39,.other,false,some ⟨10,[],some 1,false⟩⟩,⟨45,.other,false,some ⟨10,[],some 1,false⟩⟩,⟨92,.other,false,some ⟨10,[],some 1,false⟩⟩]⟩]
theorem vhdl_line_lrowsOk : rowsOk vhdl_line_nfa vhdl_line_lex.rel (vhdl_line_lcs.map (·.1)) vhdl_line_lrows = true := by decide +kernel
def vhdl_line_lfr : List CA.FRow := [⟨true,none,[],[⟨256,.other,false,false,none,some ([.setEnt (.own 3)],(some 4,true))⟩,⟨9,.ws,false,false,some 1,some ([.setEnt (.own 0)],(some 0,false))⟩,⟨10,.lf,false,true,none,some ([.setEnt .newline],(some 3,true))⟩,⟨11,.vt,false,false,none,none⟩,⟨12,.ff,false,true,none,some ([.setEnt .newline],(some 3,true))⟩,⟨13,.cr,false,false,some 2,some ([.setEnt .newline],(none,false))⟩,⟨13,.cr,true,true,some 3,some ([.setEnt .newline],(some 3,false))⟩,⟨34,.other,false,false,some 4,some ([.code,.setEnt (.own 3)],(some 4,false))⟩,⟨39,.other,false,false,some 5,some ([.code,.setEnt (.own 3)],(some 4,false))⟩,⟨45,.other,false,false,some 6,some ([.setEnt (.own 3)],(some 4,false))⟩,⟨92,.other,false,false,none,some ([.setEnt (.own 3)],(some 4,true))⟩]⟩,⟨false,some 0,[],[⟨256,.other,false,false,none,none⟩,⟨9,.ws,false,false,some 1,some ([.setEnt (.own 0)],(some 0,false))⟩,⟨10,.lf,false,true,none,none⟩,⟨11,.vt,false,false,none,none⟩,⟨12,.ff,false,true,none,none⟩,⟨13,.cr,false,false,none,none⟩,⟨13,.cr,true,true,none,none⟩,⟨34,.other,false,false,none,none⟩,⟨39,.other,false,false,none,none⟩,⟨45,.other,false,false,none,none⟩,⟨92,.other,false,false,none,none⟩]⟩,⟨false,none,[],[⟨256,.other,false,false,none,none⟩,⟨9,.ws,false,false,none,none⟩,⟨10,.lf,false,true,none,some ([.setEnt .newline],(some 3,true))⟩,⟨11,.vt,false,false,none,none⟩,⟨12,.ff,false,true,none,none⟩,⟨13,.cr,false,false,none,none⟩,⟨13,.cr,true,true,none,none⟩,⟨34,.other,false,false,none,none⟩,⟨39,.other,false,false,none,none⟩,⟨45,.other,false,false,none,none⟩,⟨92,.other,false,false,none,none⟩]⟩,⟨false,some 3,[],[⟨256,.other,false,false,none,none⟩,⟨9,.ws,false,false,none,none⟩,⟨10,.lf,false,true,none,some ([.setEnt .newline],(some 3,true))⟩,⟨11,.vt,false,false,none,none⟩,⟨12,.ff,false,true,none,none⟩,⟨13,.cr,false,false,none,none⟩,⟨13,.cr,true,true,none,none⟩,⟨34,.other,false,false,none,none⟩,⟨39,.other,false,false,none,none⟩,⟨45,.other,false,false,none,none⟩,⟨92,.other,false,false,none,none⟩]⟩,⟨false,some 4,[],[⟨256,.other,false,false,some 7,some ([],(none,false))⟩,⟨9,.ws,false,false,some 7,some ([],(none,false))⟩,⟨10,.lf,false,true,none,none⟩,⟨11,.vt,false,false,some 7,some ([],(none,false))⟩,⟨12,.ff,false,true,none,none⟩,⟨13,.cr,false,false,none,none⟩,⟨13,.cr,true,true,none,none⟩,⟨34,.other,false,false,none,some ([],(some 2,true))⟩,⟨39,.other,false,false,some 7,some ([],(none,false))⟩,⟨45,.other,false,false,some 7,some ([],(none,false))⟩,⟨92,.other,false,false,some 7,some ([],(none,false))⟩]⟩,⟨false,some 4,[],[⟨256,.other,false,false,some 8,some ([],(none,false))⟩,⟨9,.ws,false,false,some 8,some ([],(none,false))⟩,⟨10,.lf,false,true,none,none⟩,⟨11,.vt,false,false,some 8,some ([],(none,false))⟩,⟨12,.ff,false,true,none,none⟩,⟨13,.cr,false,false,none,none⟩,⟨13,.cr,true,true,none,none⟩,⟨34,.other,false,false,some 8,some ([],(none,false))⟩,⟨39,.other,false,false,none,none⟩,⟨45,.other,false,false,some 8,some ([],(none,false))⟩,⟨92,.other,false,false,some 8,some ([],(none,false))⟩]⟩,⟨false,some 4,[],[⟨256,.other,false,false,none,none⟩,⟨9,.ws,false,false,none,none⟩,⟨10,.lf,false,true,none,none⟩,⟨11,.vt,false,false,none,none⟩,⟨12,.ff,false,true,none,none⟩,⟨13,.cr,false,false,none,none⟩,⟨13,.cr,true,true,none,none⟩,⟨34,.other,false,false,none,none⟩,⟨39,.other,false,false,none,none⟩,⟨45,.other,false,false,some 9,some ([.comment],(some 1,false))⟩,⟨92,.other,false,false,none,none⟩]⟩,⟨false,none,[],[⟨256,.other,false,false,some 7,some ([],(none,false))⟩,⟨9,.ws,false,false,some 7,some ([],(none,false))⟩,⟨10,.lf,false,true,none,none⟩,⟨11,.vt,false,false,some 7,some ([],(none,false))⟩,⟨12,.ff,false,true,none,none⟩,⟨13,.cr,false,false,none,none⟩,⟨13,.cr,true,true,none,none⟩,⟨34,.other,false,false,none,some ([],(some 2,true))⟩,⟨39,.other,false,false,some 7,some ([],(none,false))⟩,⟨45,.other,false,false,some 7,some ([],(none,false))⟩,⟨92,.other,false,false,some 7,some ([],(none,false))⟩]⟩,⟨false,none,[],[⟨256,.other,false,false,none,none⟩,⟨9,.ws,false,false,none,none⟩,⟨10,.lf,false,true,none,none⟩,⟨11,.vt,false,false,none,none⟩,⟨12,.ff,false,true,none,none⟩,⟨13,.cr,false,false,none,none⟩,⟨13,.cr,true,true,none,none⟩,⟨34,.other,false,false,none,none⟩,⟨39,.other,false,false,none,some ([],(some 2,true))⟩,⟨45,.other,false,false,none,none⟩,⟨92,.other,false,false,none,none⟩]⟩,⟨false,some 1,[],[⟨256,.other,false,false,some 10,some ([],(some 1,false))⟩,⟨9,.ws,false,false,some 10,some ([],(some 1,false))⟩,⟨10,.lf,false,true,none,none⟩,⟨11,.vt,false,false,some 10,some ([],(some 1,false))⟩,⟨12,.ff,false,true,none,none⟩,⟨13,.cr,false,false,none,none⟩,⟨13,.cr,true,true,none,none⟩,⟨34,.other,false,false,some 10,some ([],(some 1,false))⟩,⟨39,.other,false,false,some 10,some ([],(some 1,false))⟩,⟨45,.other,false,false,some 10,some ([],(some 1,false))⟩,⟨92,.other,false,false,some 10,some ([],(some 1,false))⟩]⟩,⟨false,some 1,[],[⟨256,.other,false,false,some 10,some ([],(some 1,false))⟩,⟨9,.ws,false,false,some 10,some ([],(some 1,false))⟩,⟨10,.lf,false,true,none,none⟩,⟨11,.vt,false,false,some 10,some ([],(some 1,false))⟩,⟨12,.ff,false,true,none,none⟩,⟨13,.cr,false,false,none,none⟩,⟨13,.cr,true,true,none,none⟩,⟨34,.other,false,false,some 10,some ([],(some 1,false))⟩,⟨39,.other,false,false,some 10,some ([],(some 1,false))⟩,⟨45,.other,false,false,some 10,some ([],(some 1,false))⟩,⟨92,.other,false,false,some 10,some ([],(some 1,false))⟩]⟩]
theorem vhdl_line_lfrOk : vhdl_line_lrows.map (CA.prep vhdl_line_lex) = vhdl_line_lfr := by decide +kernel
def vhdl_line_lTab : List CT := [(.node (.node (.node (.node (.node (.node (.node .leaf 128 [⟨⟨.code,[],.lcode,false,[],false⟩,false,false,[],none,none,none,false,false,false,none,false,⟨.lcode,none,false,.lblank⟩⟩] .leaf) 38019 [⟨⟨.code,[],.lcode,true,[],false⟩,false,false,[],none,none,none,false,false,false,none,false,⟨.lblank,none,false,.lblank⟩⟩] (.node .leaf 123018 [⟨⟨.code,[],.lcode,false,[(1,2)],false⟩,false,false,[],none,none,none,false,false,false,none,false,⟨.lcode,none,false,.lblank⟩⟩] .leaf)) 147596 [⟨⟨.code,[],.lcode,false,[(1,4)],false⟩,false,false,[],none,none,none,false,false,false,none,false,⟨.lcode,none,false,.lblank⟩⟩] (.node (.node .leaf 184463 [⟨⟨.code,[],.lcode,false,[(2,0)],false⟩,false,false,[],none,none,none,false,false,false,none,false,⟨.lcode,none,false,.lblank⟩⟩] .leaf) 185487 [⟨⟨.code,[],.lcomment,true,[],false⟩,false,false,[],none,none,none,false,false,false,none,false,⟨.lblank,none,false,.lblank⟩⟩] .leaf)) 296088 [⟨⟨.code,[],.lblank,false,[],false⟩,false,false,[],none,none,none,false,false,false,none,false,⟨.lblank,none,false,.lblank⟩⟩] (.node (.node (.node .leaf 332955 [⟨⟨.code,[],.lblank,true,[],false⟩,false,false,[],none,none,none,false,false,false,none,false,⟨.lblank,none,false,.lblank⟩⟩] .leaf) 1179872 [⟨⟨(.inside 0),[],.lcode,false,[],false⟩,false,false,[none],none,none,none,false,false,false,none,false,⟨.lcode,none,false,.lblank⟩⟩] .leaf) 1327852 [⟨⟨(.inside 0),[],.lcomment,false,[],false⟩,false,false,[none],none,none,none,false,false,false,none,false,⟨.lcomment,none,false,.lblank⟩⟩] (.node (.node .leaf 1696010 [⟨⟨.code,[45],.lcode,false,[],false⟩,false,false,[none],none,none,none,false,false,false,none,false,⟨.lcode,none,false,.lblank⟩⟩] .leaf) 16283053 [⟨⟨.code,[],.lcode,false,[(1,2),(2,0)],false⟩,false,false,[],none,none,none,false,false,false,none,false,⟨.lcode,none,false,.lblank⟩⟩] .leaf))) 19502771 [⟨⟨.code,[],.lcode,false,[(1,4),(2,0)],false⟩,false,false,[],none,none,none,false,false,false,none,false,⟨.lcode,none,false,.lblank⟩⟩] (.node (.node (.node (.node .leaf 20696067 [⟨⟨.code,[45],.lcode,false,[],false⟩,false,false,[some (9,(.ws,false))],none,none,none,false,false,false,none,false,⟨.lcode,none,false,.lblank⟩⟩] .leaf) 22179935 [⟨⟨(.inside 0),[],.lcode,false,[],false⟩,false,false,[some (10,(.lf,false))],none,none,none,false,false,false,none,false,⟨.lcode,none,false,.lblank⟩⟩] (.node .leaf 22327915 [⟨⟨(.inside 0),[],.lcomment,false,[],false⟩,false,false,[some (10,(.lf,false))],none,none,none,false,false,false,none,false,⟨.lcomment,none,false,.lblank⟩⟩] .leaf)) 22696073 [⟨⟨.code,[45],.lcode,false,[],false⟩,false,false,[some (10,(.lf,false))],none,none,none,false,false,false,none,false,⟨.lcode,none,false,.lblank⟩⟩] (.node (.node .leaf 24295481 [⟨⟨.code,[],.lcode,false,[(2,0),(1,4)],false⟩,false,false,[],none,none,none,false,false,false,none,false,⟨.lcode,none,false,.lblank⟩⟩] .leaf) 26179947 [⟨⟨(.inside 0),[],.lcode,false,[],false⟩,false,false,[some (12,(.ff,false))],none,none,none,false,false,false,none,false,⟨.lcode,none,false,.lblank⟩⟩] .leaf)) 26327927 [⟨⟨(.inside 0),[],.lcomment,false,[],false⟩,false,false,[some (12,(.ff,false))],none,none,none,false,false,false,none,false,⟨.lcomment,none,false,.lblank⟩⟩] (.node (.node (.node .leaf 26696085 [⟨⟨.code,[45],.lcode,false,[],false⟩,false,false,[some (12,(.ff,false))],none,none,none,false,false,false,none,false,⟨.lcode,none,false,.lblank⟩⟩] .leaf) 28179953 [⟨⟨(.inside 0),[],.lcode,false,[],false⟩,false,false,[some (13,(.cr,false))],none,none,none,false,false,false,none,false,⟨.lcode,none,false,.lblank⟩⟩] .leaf) 28327933 [⟨⟨(.inside 0),[],.lcomment,false,[],false⟩,false,false,[some (13,(.cr,false))],none,none,none,false,false,false,none,false,⟨.lcomment,none,false,.lblank⟩⟩] (.node (.node .leaf 28696091 [⟨⟨.code,[45],.lcode,false,[],false⟩,false,false,[some (13,(.cr,false))],none,none,none,false,false,false,none,false,⟨.lcode,none,false,.lblank⟩⟩] .leaf) 29179956 [⟨⟨(.inside 0),[],.lcode,false,[],false⟩,false,false,[some (13,(.cr,true))],none,none,none,false,false,false,none,false,⟨.lcode,none,false,.lblank⟩⟩] .leaf)))) 29327936 [⟨⟨(.inside 0),[],.lcomment,false,[],false⟩,false,false,[some (13,(.cr,true))],none,none,none,false,false,false,none,false,⟨.lcomment,none,false,.lblank⟩⟩] (.node (.node (.node (.node (.node .leaf 29696094 [⟨⟨.code,[45],.lcode,false,[],false⟩,false,false,[some (13,(.cr,true))],none,none,none,false,false,false,none,false,⟨.lcode,none,false,.lblank⟩⟩] .leaf) 40332626 [⟨⟨.code,[45],.lblank,false,[],false⟩,false,false,[none],none,none,none,false,false,false,none,false,⟨.lcode,none,false,.lblank⟩⟩] (.node .leaf 59332683 [⟨⟨.code,[45],.lblank,false,[],false⟩,false,false,[some (9,(.ws,false))],none,none,none,false,false,false,none,false,⟨.lcode,none,false,.lblank⟩⟩] .leaf)) 61332689 [⟨⟨.code,[45],.lblank,false,[],false⟩,false,false,[some (10,(.lf,false))],none,none,none,false,false,false,none,false,⟨.lcode,none,false,.lblank⟩⟩] (.node (.node .leaf 65332701 [⟨⟨.code,[45],.lblank,false,[],false⟩,false,false,[some (12,(.ff,false))],none,none,none,false,false,false,none,false,⟨.lcode,none,false,.lblank⟩⟩] .leaf) 67332707 [⟨⟨.code,[45],.lblank,false,[],false⟩,false,false,[some (13,(.cr,false))],none,none,none,false,false,false,none,false,⟨.lcode,none,false,.lblank⟩⟩] .leaf)) 68332710 [⟨⟨.code,[45],.lblank,false,[],false⟩,false,false,[some (13,(.cr,true))],none,none,none,false,false,false,none,false,⟨.lcode,none,false,.lblank⟩⟩] (.node (.node (.node .leaf 70696217 [⟨⟨.code,[45],.lcode,false,[],false⟩,false,false,[some (34,(.other,false))],none,none,none,false,false,false,none,false,⟨.lcode,none,false,.lblank⟩⟩] .leaf) 80696247 [⟨⟨.code,[45],.lcode,false,[],false⟩,false,false,[some (39,(.other,false))],none,none,none,false,false,false,none,false,⟨.lcode,none,false,.lblank⟩⟩] .leaf) 109332833 [⟨⟨.code,[45],.lblank,false,[],false⟩,false,false,[some (34,(.other,false))],none,none,none,false,false,false,none,false,⟨.lcode,none,false,.lblank⟩⟩] (.node (.node .leaf 119332863 [⟨⟨.code,[45],.lblank,false,[],false⟩,false,false,[some (39,(.other,false))],none,none,none,false,false,false,none,false,⟨.lcode,none,false,.lblank⟩⟩] .leaf) 154730927 [⟨⟨(.inside 0),[],.lcode,false,[(2,0)],false⟩,false,false,[none],none,none,none,false,false,false,none,false,⟨.lcode,none,false,.lblank⟩⟩] .leaf))) 175730990 [⟨⟨(.inside 0),[],.lcode,false,[(2,0)],false⟩,false,false,[some (10,(.lf,false))],none,none,none,false,false,false,none,false,⟨.lcode,none,false,.lblank⟩⟩] (.node (.node (.node (.node .leaf 179731002 [⟨⟨(.inside 0),[],.lcode,false,[(2,0)],false⟩,false,false,[some (12,(.ff,false))],none,none,none,false,false,false,none,false,⟨.lcode,none,false,.lblank⟩⟩] .leaf) 181731008 [⟨⟨(.inside 0),[],.lcode,false,[(2,0)],false⟩,false,false,[some (13,(.cr,false))],none,none,none,false,false,false,none,false,⟨.lcode,none,false,.lblank⟩⟩] .leaf) 182731011 [⟨⟨(.inside 0),[],.lcode,false,[(2,0)],false⟩,false,false,[some (13,(.cr,true))],none,none,none,false,false,false,none,false,⟨.lcode,none,false,.lblank⟩⟩] (.node (.node .leaf 186696565 [⟨⟨.code,[45],.lcode,false,[],false⟩,false,false,[some (92,(.other,false))],none,none,none,false,false,false,none,false,⟨.lcode,none,false,.lblank⟩⟩] .leaf) 222283560 [⟨⟨.code,[45],.lcode,false,[(1,2)],false⟩,false,false,[none],none,none,none,false,false,false,none,false,⟨.lcode,none,false,.lblank⟩⟩] .leaf)) 222308138 [⟨⟨.code,[45],.lcode,false,[(1,4)],false⟩,false,false,[none],none,none,none,false,false,false,none,false,⟨.lcode,none,false,.lblank⟩⟩] (.node (.node (.node .leaf 222345005 [⟨⟨.code,[45],.lcode,false,[(2,0)],false⟩,false,false,[none],none,none,none,false,false,false,none,false,⟨.lcode,none,false,.lblank⟩⟩] .leaf) 225333181 [⟨⟨.code,[45],.lblank,false,[],false⟩,false,false,[some (92,(.other,false))],none,none,none,false,false,false,none,false,⟨.lcode,none,false,.lblank⟩⟩] .leaf) 241283617 [⟨⟨.code,[45],.lcode,false,[(1,2)],false⟩,false,false,[some (9,(.ws,false))],none,none,none,false,false,false,none,false,⟨.lcode,none,false,.lblank⟩⟩] (.node (.node .leaf 241308195 [⟨⟨.code,[45],.lcode,false,[(1,4)],false⟩,false,false,[some (9,(.ws,false))],none,none,none,false,false,false,none,false,⟨.lcode,none,false,.lblank⟩⟩] .leaf) 241345062 [⟨⟨.code,[45],.lcode,false,[(2,0)],false⟩,false,false,[some (9,(.ws,false))],none,none,none,false,false,false,none,false,⟨.lcode,none,false,.lblank⟩⟩] .leaf))))) 243283623 [⟨⟨.code,[45],.lcode,false,[(1,2)],false⟩,false,false,[some (10,(.lf,false))],none,none,none,false,false,false,none,false,⟨.lcode,none,false,.lblank⟩⟩] (.node (.node (.node (.node (.node (.node .leaf 243308201 [⟨⟨.code,[45],.lcode,false,[(1,4)],false⟩,false,false,[some (10,(.lf,false))],none,none,none,false,false,false,none,false,⟨.lcode,none,false,.lblank⟩⟩] .leaf) 243345068 [⟨⟨.code,[45],.lcode,false,[(2,0)],false⟩,false,false,[some (10,(.lf,false))],none,none,none,false,false,false,none,false,⟨.lcode,none,false,.lblank⟩⟩] (.node .leaf 247283635 [⟨⟨.code,[45],.lcode,false,[(1,2)],false⟩,false,false,[some (12,(.ff,false))],none,none,none,false,false,false,none,false,⟨.lcode,none,false,.lblank⟩⟩] .leaf)) 247308213 [⟨⟨.code,[45],.lcode,false,[(1,4)],false⟩,false,false,[some (12,(.ff,false))],none,none,none,false,false,false,none,false,⟨.lcode,none,false,.lblank⟩⟩] (.node (.node .leaf 247345080 [⟨⟨.code,[45],.lcode,false,[(2,0)],false⟩,false,false,[some (12,(.ff,false))],none,none,none,false,false,false,none,false,⟨.lcode,none,false,.lblank⟩⟩] .leaf) 249283641 [⟨⟨.code,[45],.lcode,false,[(1,2)],false⟩,false,false,[some (13,(.cr,false))],none,none,none,false,false,false,none,false,⟨.lcode,none,false,.lblank⟩⟩] .leaf)) 249308219 [⟨⟨.code,[45],.lcode,false,[(1,4)],false⟩,false,false,[some (13,(.cr,false))],none,none,none,false,false,false,none,false,⟨.lcode,none,false,.lblank⟩⟩] (.node (.node (.node .leaf 249345086 [⟨⟨.code,[45],.lcode,false,[(2,0)],false⟩,false,false,[some (13,(.cr,false))],none,none,none,false,false,false,none,false,⟨.lcode,none,false,.lblank⟩⟩] .leaf) 250283644 [⟨⟨.code,[45],.lcode,false,[(1,2)],false⟩,false,false,[some (13,(.cr,true))],none,none,none,false,false,false,none,false,⟨.lcode,none,false,.lblank⟩⟩] .leaf) 250308222 [⟨⟨.code,[45],.lcode,false,[(1,4)],false⟩,false,false,[some (13,(.cr,true))],none,none,none,false,false,false,none,false,⟨.lcode,none,false,.lblank⟩⟩] (.node (.node .leaf 250345089 [⟨⟨.code,[45],.lcode,false,[(2,0)],false⟩,false,false,[some (13,(.cr,true))],none,none,none,false,false,false,none,false,⟨.lcode,none,false,.lblank⟩⟩] .leaf) 291283767 [⟨⟨.code,[45],.lcode,false,[(1,2)],false⟩,false,false,[some (34,(.other,false))],none,none,none,false,false,false,none,false,⟨.lcode,none,false,.lblank⟩⟩] .leaf))) 291308345 [⟨⟨.code,[45],.lcode,false,[(1,4)],false⟩,false,false,[some (34,(.other,false))],none,none,none,false,false,false,none,false,⟨.lcode,none,false,.lblank⟩⟩] (.node (.node (.node (.node .leaf 301308375 [⟨⟨.code,[45],.lcode,false,[(1,4)],false⟩,false,false,[some (39,(.other,false))],none,none,none,false,false,false,none,false,⟨.lcode,none,false,.lblank⟩⟩] .leaf) 301345242 [⟨⟨.code,[45],.lcode,false,[(2,0)],false⟩,false,false,[some (39,(.other,false))],none,none,none,false,false,false,none,false,⟨.lcode,none,false,.lblank⟩⟩] .leaf) 407284115 [⟨⟨.code,[45],.lcode,false,[(1,2)],false⟩,false,false,[some (92,(.other,false))],none,none,none,false,false,false,none,false,⟨.lcode,none,false,.lblank⟩⟩] (.node (.node .leaf 407308693 [⟨⟨.code,[45],.lcode,false,[(1,4)],false⟩,false,false,[some (92,(.other,false))],none,none,none,false,false,false,none,false,⟨.lcode,none,false,.lblank⟩⟩] .leaf) 407345560 [⟨⟨.code,[45],.lcode,false,[(2,0)],false⟩,false,false,[some (92,(.other,false))],none,none,none,false,false,false,none,false,⟨.lcode,none,false,.lblank⟩⟩] .leaf)) 514697549 [⟨⟨.code,[45],.lcode,false,[],false⟩,false,false,[some (256,(.other,false))],none,none,none,false,false,false,none,false,⟨.lcode,none,false,.lblank⟩⟩] (.node (.node (.node .leaf 553334165 [⟨⟨.code,[45],.lblank,false,[],false⟩,false,false,[some (256,(.other,false))],none,none,none,false,false,false,none,false,⟨.lcode,none,false,.lblank⟩⟩] .leaf) 735285099 [⟨⟨.code,[45],.lcode,false,[(1,2)],false⟩,false,false,[some (256,(.other,false))],none,none,none,false,false,false,none,false,⟨.lcode,none,false,.lblank⟩⟩] .leaf) 735309677 [⟨⟨.code,[45],.lcode,false,[(1,4)],false⟩,false,false,[some (256,(.other,false))],none,none,none,false,false,false,none,false,⟨.lcode,none,false,.lblank⟩⟩] (.node (.node .leaf 735346544 [⟨⟨.code,[45],.lcode,false,[(2,0)],false⟩,false,false,[some (256,(.other,false))],none,none,none,false,false,false,none,false,⟨.lcode,none,false,.lblank⟩⟩] .leaf) 29119314055 [⟨⟨.code,[45],.lcode,false,[(1,2),(2,0)],false⟩,false,false,[none],none,none,none,false,false,false,none,false,⟨.lcode,none,false,.lblank⟩⟩] .leaf)))) 29122533773 [⟨⟨.code,[45],.lcode,false,[(1,4),(2,0)],false⟩,false,false,[none],none,none,none,false,false,false,none,false,⟨.lcode,none,false,.lblank⟩⟩] (.node (.node (.node (.node (.node .leaf 29127326483 [⟨⟨.code,[45],.lcode,false,[(2,0),(1,4)],false⟩,false,false,[none],none,none,none,false,false,false,none,false,⟨.lcode,none,false,.lblank⟩⟩] .leaf) 29138314112 [⟨⟨.code,[45],.lcode,false,[(1,2),(2,0)],false⟩,false,false,[some (9,(.ws,false))],none,none,none,false,false,false,none,false,⟨.lcode,none,false,.lblank⟩⟩] (.node .leaf 29140314118 [⟨⟨.code,[45],.lcode,false,[(1,2),(2,0)],false⟩,false,false,[some (10,(.lf,false))],none,none,none,false,false,false,none,false,⟨.lcode,none,false,.lblank⟩⟩] .leaf)) 29141533830 [⟨⟨.code,[45],.lcode,false,[(1,4),(2,0)],false⟩,false,false,[some (9,(.ws,false))],none,none,none,false,false,false,none,false,⟨.lcode,none,false,.lblank⟩⟩] (.node (.node .leaf 29143533836 [⟨⟨.code,[45],.lcode,false,[(1,4),(2,0)],false⟩,false,false,[some (10,(.lf,false))],none,none,none,false,false,false,none,false,⟨.lcode,none,false,.lblank⟩⟩] .leaf) 29144314130 [⟨⟨.code,[45],.lcode,false,[(1,2),(2,0)],false⟩,false,false,[some (12,(.ff,false))],none,none,none,false,false,false,none,false,⟨.lcode,none,false,.lblank⟩⟩] .leaf)) 29146314136 [⟨⟨.code,[45],.lcode,false,[(1,2),(2,0)],false⟩,false,false,[some (13,(.cr,false))],none,none,none,false,false,false,none,false,⟨.lcode,none,false,.lblank⟩⟩] (.node (.node (.node .leaf 29146326540 [⟨⟨.code,[45],.lcode,false,[(2,0),(1,4)],false⟩,false,false,[some (9,(.ws,false))],none,none,none,false,false,false,none,false,⟨.lcode,none,false,.lblank⟩⟩] .leaf) 29147314139 [⟨⟨.code,[45],.lcode,false,[(1,2),(2,0)],false⟩,false,false,[some (13,(.cr,true))],none,none,none,false,false,false,none,false,⟨.lcode,none,false,.lblank⟩⟩] .leaf) 29147533848 [⟨⟨.code,[45],.lcode,false,[(1,4),(2,0)],false⟩,false,false,[some (12,(.ff,false))],none,none,none,false,false,false,none,false,⟨.lcode,none,false,.lblank⟩⟩] (.node (.node .leaf 29148326546 [⟨⟨.code,[45],.lcode,false,[(2,0),(1,4)],false⟩,false,false,[some (10,(.lf,false))],none,none,none,false,false,false,none,false,⟨.lcode,none,false,.lblank⟩⟩] .leaf) 29149533854 [⟨⟨.code,[45],.lcode,false,[(1,4),(2,0)],false⟩,false,false,[some (13,(.cr,false))],none,none,none,false,false,false,none,false,⟨.lcode,none,false,.lblank⟩⟩] .leaf))) 29150533857 [⟨⟨.code,[45],.lcode,false,[(1,4),(2,0)],false⟩,false,false,[some (13,(.cr,true))],none,none,none,false,false,false,none,false,⟨.lcode,none,false,.lblank⟩⟩] (.node (.node (.node (.node .leaf 29152326558 [⟨⟨.code,[45],.lcode,false,[(2,0),(1,4)],false⟩,false,false,[some (12,(.ff,false))],none,none,none,false,false,false,none,false,⟨.lcode,none,false,.lblank⟩⟩] .leaf) 29154326564 [⟨⟨.code,[45],.lcode,false,[(2,0),(1,4)],false⟩,false,false,[some (13,(.cr,false))],none,none,none,false,false,false,none,false,⟨.lcode,none,false,.lblank⟩⟩] .leaf) 29155326567 [⟨⟨.code,[45],.lcode,false,[(2,0),(1,4)],false⟩,false,false,[some (13,(.cr,true))],none,none,none,false,false,false,none,false,⟨.lcode,none,false,.lblank⟩⟩] (.node (.node .leaf 29201534010 [⟨⟨.code,[45],.lcode,false,[(1,4),(2,0)],false⟩,false,false,[some (39,(.other,false))],none,none,none,false,false,false,none,false,⟨.lcode,none,false,.lblank⟩⟩] .leaf) 29206326720 [⟨⟨.code,[45],.lcode,false,[(2,0),(1,4)],false⟩,false,false,[some (39,(.other,false))],none,none,none,false,false,false,none,false,⟨.lcode,none,false,.lblank⟩⟩] .leaf)) 29304314610 [⟨⟨.code,[45],.lcode,false,[(1,2),(2,0)],false⟩,false,false,[some (92,(.other,false))],none,none,none,false,false,false,none,false,⟨.lcode,none,false,.lblank⟩⟩] (.node (.node (.node .leaf 29307534328 [⟨⟨.code,[45],.lcode,false,[(1,4),(2,0)],false⟩,false,false,[some (92,(.other,false))],none,none,none,false,false,false,none,false,⟨.lcode,none,false,.lblank⟩⟩] .leaf) 29312327038 [⟨⟨.code,[45],.lcode,false,[(2,0),(1,4)],false⟩,false,false,[some (92,(.other,false))],none,none,none,false,false,false,none,false,⟨.lcode,none,false,.lblank⟩⟩] .leaf) 29632315594 [⟨⟨.code,[45],.lcode,false,[(1,2),(2,0)],false⟩,false,false,[some (256,(.other,false))],none,none,none,false,false,false,none,false,⟨.lcode,none,false,.lblank⟩⟩] (.node (.node .leaf 29635535312 [⟨⟨.code,[45],.lcode,false,[(1,4),(2,0)],false⟩,false,false,[some (256,(.other,false))],none,none,none,false,false,false,none,false,⟨.lcode,none,false,.lblank⟩⟩] .leaf) 29640328022 [⟨⟨.code,[45],.lcode,false,[(2,0),(1,4)],false⟩,false,false,[some (256,(.other,false))],none,none,none,false,false,false,none,false,⟨.lcode,none,false,.lblank⟩⟩] .leaf)))))),(.node (.node (.node .leaf 128 [⟨⟨.code,[],.lcode,false,[],false⟩,false,false,[],none,none,none,false,false,false,none,false,⟨.lcode,some (.own 0),false,.lblank⟩⟩] .leaf) 147596 [⟨⟨.code,[],.lcode,false,[(1,4)],false⟩,false,false,[],none,none,none,false,false,false,none,false,⟨.lcode,some (.own 0),false,.lblank⟩⟩] .leaf) 184463 [⟨⟨.code,[],.lcode,false,[(2,0)],false⟩,false,false,[],none,none,none,false,false,false,none,false,⟨.lcode,some (.own 0),false,.lblank⟩⟩] (.node (.node .leaf 296088 [⟨⟨.code,[],.lblank,false,[],false⟩,false,false,[],none,none,none,false,false,false,none,false,⟨.lblank,some (.own 0),false,.lblank⟩⟩] .leaf) 19502771 [⟨⟨.code,[],.lcode,false,[(1,4),(2,0)],false⟩,false,false,[],none,none,none,false,false,false,none,false,⟨.lcode,some (.own 0),false,.lblank⟩⟩] .leaf)),(.node (.node .leaf 160 [⟨⟨.code,[],.lcode,false,[],false⟩,true,false,[],none,none,none,false,false,false,none,false,⟨.lcode,some .newline,false,.lblank⟩⟩] .leaf) 148140 [⟨⟨.code,[],.lcomment,false,[],false⟩,true,false,[],none,none,none,false,false,false,none,false,⟨.lcomment,some .newline,false,.lblank⟩⟩] (.node .leaf 296120 [⟨⟨.code,[],.lblank,false,[],false⟩,true,false,[],none,none,none,false,false,false,none,false,⟨.lblank,some .newline,false,.lblank⟩⟩] .leaf)),(.node (.node .leaf 37011 [⟨⟨.code,[],.lcode,true,[],false⟩,false,true,[],none,none,none,false,false,false,none,false,⟨.lcode,some .newline,false,.lblank⟩⟩] .leaf) 184991 [⟨⟨.code,[],.lcomment,true,[],false⟩,false,true,[],none,none,none,false,false,false,none,false,⟨.lcomment,some .newline,false,.lblank⟩⟩] (.node .leaf 332971 [⟨⟨.code,[],.lblank,true,[],false⟩,false,true,[],none,none,none,false,false,false,none,false,⟨.lblank,some .newline,false,.lblank⟩⟩] .leaf)),(.node (.node (.node .leaf 184463 [⟨⟨.code,[],.lcode,false,[(2,0)],false⟩,false,false,[],none,none,none,false,false,false,none,false,⟨.lcode,some (.own 3),false,.lblank⟩⟩] .leaf) 184467 [⟨⟨.code,[],.lcode,false,[(2,0)],false⟩,false,false,[],none,none,none,false,true,false,none,false,⟨.lcode,some (.own 3),false,.lblank⟩⟩] .leaf) 7078592 [⟨⟨(.inside 2),[],.lcode,false,[],false⟩,false,false,[],none,none,none,false,false,false,none,false,⟨.lcode,some (.own 3),false,.lblank⟩⟩] (.node (.node .leaf 24295485 [⟨⟨.code,[],.lcode,false,[(2,0),(1,4)],false⟩,false,false,[],none,none,none,false,true,false,none,false,⟨.lcode,some (.own 3),false,.lblank⟩⟩] .leaf) 927426380 [⟨⟨(.inside 2),[],.lcode,false,[(1,4)],false⟩,false,false,[],none,none,none,false,false,false,none,false,⟨.lcode,some (.own 3),false,.lblank⟩⟩] .leaf)),(.node (.node (.node .leaf 123018 [⟨⟨.code,[],.lcode,false,[(1,2)],false⟩,false,false,[],none,none,none,false,false,false,none,false,⟨.lcode,some (.own 3),false,.lblank⟩⟩] .leaf) 123022 [⟨⟨.code,[],.lcode,false,[(1,2)],false⟩,false,false,[],none,none,none,false,true,false,none,false,⟨.lcode,some (.own 3),false,.lblank⟩⟩] (.node .leaf 4129232 [⟨⟨(.inside 1),[],.lcode,false,[],false⟩,false,false,[],none,none,none,false,false,false,none,false,⟨.lcode,some (.own 3),false,.lblank⟩⟩] .leaf)) 16283053 [⟨⟨.code,[],.lcode,false,[(1,2),(2,0)],false⟩,false,false,[],none,none,none,false,false,false,none,false,⟨.lcode,some (.own 3),false,.lblank⟩⟩] (.node (.node .leaf 16283057 [⟨⟨.code,[],.lcode,false,[(1,2),(2,0)],false⟩,false,false,[],none,none,none,false,true,false,none,false,⟨.lcode,some (.own 3),false,.lblank⟩⟩] .leaf) 541097087 [⟨⟨(.inside 1),[],.lcode,false,[(2,0)],false⟩,false,false,[],none,none,none,false,false,false,none,false,⟨.lcode,some (.own 3),false,.lblank⟩⟩] .leaf)),(.node (.node (.node (.node .leaf 1696012 [⟨⟨.code,[45],.lcode,false,[],false⟩,false,false,[],none,none,none,false,false,true,none,false,⟨.lcode,some (.own 3),false,.lblank⟩⟩] .leaf) 40333652 [⟨⟨.code,[45],.lblank,false,[],false⟩,false,false,[],none,none,none,false,false,true,none,false,⟨.lblank,some (.own 3),false,.lblank⟩⟩] .leaf) 222283562 [⟨⟨.code,[45],.lcode,false,[(1,2)],false⟩,false,false,[],none,none,none,false,false,true,none,false,⟨.lcode,some (.own 3),false,.lblank⟩⟩] (.node .leaf 222308140 [⟨⟨.code,[45],.lcode,false,[(1,4)],false⟩,false,false,[],none,none,none,false,false,true,none,false,⟨.lcode,some (.own 3),false,.lblank⟩⟩] .leaf)) 222345007 [⟨⟨.code,[45],.lcode,false,[(2,0)],false⟩,false,false,[],none,none,none,false,false,true,none,false,⟨.lcode,some (.own 3),false,.lblank⟩⟩] (.node (.node .leaf 29119314057 [⟨⟨.code,[45],.lcode,false,[(1,2),(2,0)],false⟩,false,false,[],none,none,none,false,false,true,none,false,⟨.lcode,some (.own 3),false,.lblank⟩⟩] .leaf) 29122533775 [⟨⟨.code,[45],.lcode,false,[(1,4),(2,0)],false⟩,false,false,[],none,none,none,false,false,true,none,false,⟨.lcode,some (.own 3),false,.lblank⟩⟩] (.node .leaf 29127326485 [⟨⟨.code,[45],.lcode,false,[(2,0),(1,4)],false⟩,false,false,[],none,none,none,false,false,true,none,false,⟨.lcode,some (.own 3),false,.lblank⟩⟩] .leaf))),(.node (.node (.node (.node .leaf 196483 [⟨⟨.code,[],.lcode,false,[(2,0)],false⟩,false,false,[],some 4,some ⟨.code,[],.lcode,false,[(2,0)],false⟩,none,false,false,false,none,false,⟨.lcode,some (.own 3),false,.lblank⟩⟩] .leaf) 7522021 [⟨⟨(.inside 2),[],.lcode,false,[],false⟩,false,false,[],some 4,some ⟨(.inside 2),[],.lcode,false,[],false⟩,none,false,false,false,none,false,⟨.lcode,some (.own 3),false,.lblank⟩⟩] (.node .leaf 16295073 [⟨⟨.code,[],.lcode,false,[(1,2),(2,0)],false⟩,false,false,[],some 4,some ⟨.code,[],.lcode,false,[(2,0)],false⟩,none,false,false,false,none,false,⟨.lcode,some (.own 3),false,.lblank⟩⟩] .leaf)) 19514791 [⟨⟨.code,[],.lcode,false,[(1,4),(2,0)],false⟩,false,false,[],some 4,some ⟨.code,[],.lcode,false,[(2,0)],false⟩,none,false,false,false,none,false,⟨.lcode,some (.own 3),false,.lblank⟩⟩] (.node (.node .leaf 48492257 [⟨⟨.code,[],.lblank,false,[(2,0)],true⟩,false,false,[],some 4,some ⟨.code,[],.lcode,false,[(2,0)],false⟩,none,false,true,false,none,false,⟨.lcode,some (.own 3),false,.lblank⟩⟩] .leaf) 50001035 [⟨⟨.code,[],.lblank,false,[(2,0)],true⟩,false,false,[],some 4,some ⟨.code,[],.lcode,false,[(2,0),(1,4)],false⟩,none,false,true,false,none,false,⟨.lcode,some (.own 3),false,.lblank⟩⟩] (.node .leaf 65113969 [⟨⟨(.inside 2),[],.lcode,false,[],false⟩,false,false,[],some 4,some ⟨(.inside 2),[],.lcode,false,[(1,4)],false⟩,none,false,false,false,none,false,⟨.lcode,some (.own 3),false,.lblank⟩⟩] .leaf))) 154742947 [⟨⟨(.inside 0),[],.lcode,false,[(2,0)],false⟩,false,false,[],some 4,some ⟨.code,[],.lcode,false,[(2,0)],false⟩,none,false,false,false,none,false,⟨.lcode,some (.own 3),false,.lblank⟩⟩] (.node (.node (.node .leaf 222357025 [⟨⟨.code,[45],.lcode,false,[(2,0)],false⟩,false,false,[],some 4,some ⟨.code,[],.lcode,false,[(2,0)],false⟩,none,false,false,false,none,false,⟨.lcode,some (.own 3),false,.lblank⟩⟩] .leaf) 541109107 [⟨⟨(.inside 1),[],.lcode,false,[(2,0)],false⟩,false,false,[],some 4,some ⟨.code,[],.lcode,false,[(2,0)],false⟩,none,false,false,false,none,false,⟨.lcode,some (.own 3),false,.lblank⟩⟩] (.node .leaf 772928803 [⟨⟨(.closing 1),[],.lcode,false,[(2,0)],false⟩,false,false,[],some 4,some ⟨.code,[],.lcode,false,[(2,0)],false⟩,none,false,false,false,none,false,⟨.lcode,some (.own 3),false,.lblank⟩⟩] .leaf)) 6343040947 [⟨⟨.code,[],.lblank,false,[(1,2),(2,0)],true⟩,false,false,[],some 4,some ⟨.code,[],.lcode,false,[(2,0)],false⟩,none,false,true,false,none,false,⟨.lcode,some (.own 3),false,.lblank⟩⟩] (.node (.node .leaf 6346260665 [⟨⟨.code,[],.lblank,false,[(1,4),(2,0)],true⟩,false,false,[],some 4,some ⟨.code,[],.lcode,false,[(2,0)],false⟩,none,false,true,false,none,false,⟨.lcode,some (.own 3),false,.lblank⟩⟩] .leaf) 29119326075 [⟨⟨.code,[45],.lcode,false,[(1,2),(2,0)],false⟩,false,false,[],some 4,some ⟨.code,[],.lcode,false,[(2,0)],false⟩,none,false,false,false,none,false,⟨.lcode,some (.own 3),false,.lblank⟩⟩] (.node .leaf 29122545793 [⟨⟨.code,[45],.lcode,false,[(1,4),(2,0)],false⟩,false,false,[],some 4,some ⟨.code,[],.lcode,false,[(2,0)],false⟩,none,false,false,false,none,false,⟨.lcode,some (.own 3),false,.lblank⟩⟩] .leaf)))),(.node (.node (.node (.node .leaf 155771 [⟨⟨.code,[],.lcode,false,[(1,4)],false⟩,false,false,[],some 4,some ⟨.code,[],.lcode,false,[(1,2)],false⟩,none,false,false,false,none,false,⟨.lcode,some (.own 3),false,.lblank⟩⟩] .leaf) 6157717 [⟨⟨(.closing 1),[],.lcode,false,[],false⟩,false,false,[],some 4,some ⟨(.inside 1),[],.lcode,false,[],false⟩,none,false,false,false,none,false,⟨.lcode,some (.own 3),false,.lblank⟩⟩] .leaf) 20522181 [⟨⟨.code,[],.lcode,false,[(1,4),(2,0)],false⟩,false,false,[],some 4,some ⟨.code,[],.lcode,false,[(1,2),(2,0)],false⟩,none,false,false,false,none,false,⟨.lcode,some (.own 3),false,.lblank⟩⟩] (.node (.node .leaf 24303656 [⟨⟨.code,[],.lcode,false,[(2,0),(1,4)],false⟩,false,false,[],some 4,some ⟨.code,[],.lcode,false,[(1,2)],false⟩,none,false,false,false,none,false,⟨.lcode,some (.own 3),false,.lblank⟩⟩] .leaf) 48451545 [⟨⟨.code,[],.lblank,false,[(1,4)],true⟩,false,false,[],some 4,some ⟨.code,[],.lcode,false,[(1,2)],false⟩,none,false,true,false,none,false,⟨.lcode,some (.own 3),false,.lblank⟩⟩] .leaf)) 222291735 [⟨⟨.code,[45],.lcode,false,[(1,2)],false⟩,false,false,[],some 4,some ⟨.code,[],.lcode,false,[(1,2)],false⟩,none,false,false,false,none,false,⟨.lcode,some (.own 3),false,.lblank⟩⟩] (.node (.node (.node .leaf 806777107 [⟨⟨(.closing 1),[],.lcode,false,[(2,0)],false⟩,false,false,[],some 4,some ⟨(.inside 1),[],.lcode,false,[(2,0)],false⟩,none,false,false,false,none,false,⟨.lcode,some (.own 3),false,.lblank⟩⟩] .leaf) 927434555 [⟨⟨(.inside 2),[],.lcode,false,[(1,4)],false⟩,false,false,[],some 4,some ⟨.code,[],.lcode,false,[(1,2)],false⟩,none,false,false,false,none,false,⟨.lcode,some (.own 3),false,.lblank⟩⟩] .leaf) 6347268055 [⟨⟨.code,[],.lblank,false,[(1,4),(2,0)],true⟩,false,false,[],some 4,some ⟨.code,[],.lcode,false,[(1,2),(2,0)],false⟩,none,false,true,false,none,false,⟨.lcode,some (.own 3),false,.lblank⟩⟩] (.node (.node .leaf 6351049530 [⟨⟨.code,[],.lblank,false,[(2,0),(1,4)],true⟩,false,false,[],some 4,some ⟨.code,[],.lcode,false,[(1,2)],false⟩,none,false,true,false,none,false,⟨.lcode,some (.own 3),false,.lblank⟩⟩] .leaf) 29120333465 [⟨⟨.code,[45],.lcode,false,[(1,2),(2,0)],false⟩,false,false,[],some 4,some ⟨.code,[],.lcode,false,[(1,2),(2,0)],false⟩,none,false,false,false,none,false,⟨.lcode,some (.own 3),false,.lblank⟩⟩] .leaf))),(.node (.node .leaf 1179872 [⟨⟨(.inside 0),[],.lcode,false,[],false⟩,false,false,[],none,none,none,false,false,false,none,false,⟨.lcode,some (.own 3),false,.lblank⟩⟩] .leaf) 1327852 [⟨⟨(.inside 0),[],.lcomment,false,[],false⟩,false,false,[],none,none,none,false,false,false,none,false,⟨.lcomment,some (.own 3),false,.lblank⟩⟩] (.node .leaf 154730927 [⟨⟨(.inside 0),[],.lcode,false,[(2,0)],false⟩,false,false,[],none,none,none,false,false,false,none,false,⟨.lcode,some (.own 3),false,.lblank⟩⟩] .leaf)),(.node (.node .leaf 1179872 [⟨⟨(.inside 0),[],.lcode,false,[],false⟩,false,false,[],none,none,none,false,false,false,none,false,⟨.lcode,some (.own 3),false,.lblank⟩⟩] .leaf) 1327852 [⟨⟨(.inside 0),[],.lcomment,false,[],false⟩,false,false,[],none,none,none,false,false,false,none,false,⟨.lcomment,some (.own 3),false,.lblank⟩⟩] (.node .leaf 154730927 [⟨⟨(.inside 0),[],.lcode,false,[(2,0)],false⟩,false,false,[],none,none,none,false,false,false,none,false,⟨.lcode,some (.own 3),false,.lblank⟩⟩] .leaf))]
theorem vhdl_line_lClosed : CA.closedF vhdl_line_M vhdl_line_lex true false vhdl_line_lfr vhdl_line_lTab = true := by decide +kernel
def vhdl_line_L : LCert LexisTable.vhdl_line vhdl_line_M := vhdl_line_lex_eq ▸ ⟨⟨vhdl_line_lmasks, vhdl_line_lex.rel, vhdl_line_lcs, vhdl_line_lrows, vhdl_line_lmasksIn, vhdl_line_lrepOk, vhdl_line_lrowsOk⟩,
  _, rfl, by decide +kernel, by decide +kernel, true, false, CA.closed_of vhdl_line_lfrOk vhdl_line_lClosed⟩
theorem vhdl_line_L_chk : vhdl_line_L.chk = true := by
  have : ∀ (l : Lexis) (h : LexisTable.vhdl_line = l) (C : LCert l vhdl_line_M), (h ▸ C : LCert LexisTable.vhdl_line vhdl_line_M).chk = C.chk := by rintro _ rfl _; rfl
  exact this _ vhdl_line_lex_eq _

end Ohcount.Cert
