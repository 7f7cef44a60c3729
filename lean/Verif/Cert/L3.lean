import Verif.Cert.N1
import Verif.Cert.N8
import Verif.Cert.N10
import Verif.RagelLexFast
import Verif.LexisTable

/-! Generated by tools/gen_certs.py. -/

namespace Ohcount.Cert
open Ohcount.Ragel Ohcount.Gram

set_option maxRecDepth 100000
set_option maxHeartbeats 0

def cmake_line_lex : Lexis := [⟨[35],[],.lcomment,false,false,false,true,false,false,true,false,none,false,false,false,false,[]⟩,⟨[34],[[34]],.lcode,true,false,true,true,false,false,true,false,none,false,false,false,false,[]⟩]
theorem cmake_line_lex_eq : LexisTable.cmake_line = cmake_line_lex := by decide +kernel
def cmake_line_lmasks : List Nat := [4294967808,34359738368,17179869184,8192,1024,4096,115792089237316195423570985008687907853269984665640564039457584007908834656767,115792089237316195423570985008687907853269984665640564039457584007913129626623,115792089237316195423570985008687907853269984665635612279300442486792058292735,4951760157141521099596496896]
def cmake_line_lcs : List (Nat × Nat) := [(0,115792089237316195423570985008687907853269984665635612279300442486757698552319),(9,4294967808),(10,1024),(11,2048),(12,4096),(13,8192),(34,17179869184),(35,34359738368),(92,4951760157141521099596496896)]
theorem cmake_line_lmasksIn : masksIn cmake_line_nfa cmake_line_lmasks = true := by decide +kernel
theorem cmake_line_lrepOk : repOk cmake_line_lmasks cmake_line_lcs = true := by decide +kernel
def cmake_line_lrows : List Row := [⟨[],none,[],[⟨256,.other,false,some ⟨0,[.setEnt (.own 3)],some 4,true⟩⟩,⟨256,.ws,false,some ⟨1,[.setEnt (.own 0)],some 0,false⟩⟩,⟨256,.lf,false,some ⟨0,[.setEnt .newline],some 3,true⟩⟩,⟨256,.vt,false,none⟩,⟨256,.ff,false,some ⟨0,[.setEnt .newline],some 3,true⟩⟩,⟨256,.cr,false,some ⟨2,[.setEnt .newline],none,false⟩⟩,⟨256,.cr,true,some ⟨3,[.setEnt .newline],some 3,false⟩⟩,⟨34,.other,false,some ⟨4,[.enqueue,.code,.setEnt (.own 3)],some 4,false⟩⟩,⟨35,.other,false,some ⟨5,[.comment,.setEnt (.own 3)],some 1,false⟩⟩,⟨92,.other,false,some ⟨0,[.setEnt (.own 3)],some 4,true⟩⟩]⟩,⟨[0],some 0,[],[⟨256,.other,false,none⟩,⟨256,.ws,false,some ⟨1,[.setEnt (.own 0)],some 0,false⟩⟩,⟨256,.lf,false,none⟩,⟨256,.vt,false,none⟩,⟨256,.ff,false,none⟩,⟨256,.cr,false,none⟩,⟨256,.cr,true,none⟩,⟨34,.other,false,none⟩,⟨35,.other,false,none⟩,⟨92,.other,false,none⟩]⟩,⟨[14],none,[],[⟨256,.other,false,none⟩,⟨256,.ws,false,none⟩,⟨256,.lf,false,some ⟨0,[.setEnt .newline],some 3,true⟩⟩,⟨256,.vt,false,none⟩,⟨256,.ff,false,none⟩,⟨256,.cr,false,none⟩,⟨256,.cr,true,none⟩,⟨34,.other,false,none⟩,⟨35,.other,false,none⟩,⟨92,.other,false,none⟩]⟩,⟨[14,18],some 3,[],[⟨256,.other,false,none⟩,⟨256,.ws,false,none⟩,⟨256,.lf,false,some ⟨0,[.setEnt .newline],some 3,true⟩⟩,⟨256,.vt,false,none⟩,⟨256,.ff,false,none⟩,⟨256,.cr,false,none⟩,⟨256,.cr,true,none⟩,⟨34,.other,false,none⟩,⟨35,.other,false,none⟩,⟨92,.other,false,none⟩]⟩,⟨[3,19],some 4,[],[⟨256,.other,false,some ⟨6,[.code],none,false⟩⟩,⟨256,.ws,false,some ⟨7,[],none,false⟩⟩,⟨256,.lf,false,some ⟨8,[],none,false⟩⟩,⟨256,.vt,false,some ⟨6,[.code],none,false⟩⟩,⟨256,.ff,false,some ⟨9,[],none,false⟩⟩,⟨256,.cr,false,some ⟨10,[],none,false⟩⟩,⟨256,.cr,true,some ⟨11,[],none,false⟩⟩,⟨34,.other,false,some ⟨0,[.code,.commit],some 2,true⟩⟩,⟨35,.other,false,some ⟨6,[.code],none,false⟩⟩,⟨92,.other,false,some ⟨12,[],none,false⟩⟩]⟩,⟨[1,19],some 1,[],[⟨256,.other,false,some ⟨13,[],some 1,false⟩⟩,⟨256,.ws,false,some ⟨13,[],some 1,false⟩⟩,⟨256,.lf,false,none⟩,⟨256,.vt,false,some ⟨13,[],some 1,false⟩⟩,⟨256,.ff,false,none⟩,⟨256,.cr,false,none⟩,⟨256,.cr,true,none⟩,⟨34,.other,false,some ⟨13,[],some 1,false⟩⟩,⟨35,.other,false,some ⟨13,[],some 1,false⟩⟩,⟨92,.other,false,some ⟨13,[],some 1,false⟩⟩]⟩,⟨[10],none,[],[⟨256,.other,false,some ⟨6,[.code],none,false⟩⟩,⟨256,.ws,false,some ⟨7,[],none,false⟩⟩,⟨256,.lf,false,some ⟨8,[],none,false⟩⟩,⟨256,.vt,false,some ⟨6,[.code],none,false⟩⟩,⟨256,.ff,false,some ⟨9,[],none,false⟩⟩,⟨256,.cr,false,some ⟨10,[],none,false⟩⟩,⟨256,.cr,true,some ⟨11,[],none,false⟩⟩,⟨34,.other,false,some ⟨0,[.code,.commit],some 2,true⟩⟩,⟨35,.other,false,some ⟨6,[.code],none,false⟩⟩,⟨92,.other,false,some ⟨12,[],none,false⟩⟩]⟩,⟨[9],none,[],[⟨256,.other,false,some ⟨6,[.code],none,false⟩⟩,⟨256,.ws,false,some ⟨7,[],none,false⟩⟩,⟨256,.lf,false,some ⟨8,[],none,false⟩⟩,⟨256,.vt,false,some ⟨6,[.code],none,false⟩⟩,⟨256,.ff,false,some ⟨9,[],none,false⟩⟩,⟨256,.cr,false,some ⟨10,[],none,false⟩⟩,⟨256,.cr,true,some ⟨11,[],none,false⟩⟩,⟨34,.other,false,some ⟨0,[.code,.commit],some 2,true⟩⟩,⟨35,.other,false,some ⟨6,[.code],none,false⟩⟩,⟨92,.other,false,some ⟨12,[],none,false⟩⟩]⟩,⟨[6],none,[],[⟨256,.other,false,some ⟨6,[.setEnt .internalNl,.cb,.code],none,false⟩⟩,⟨256,.ws,false,some ⟨7,[.setEnt .internalNl,.cb],none,false⟩⟩,⟨256,.lf,false,some ⟨8,[.setEnt .internalNl,.cb],none,false⟩⟩,⟨256,.vt,false,some ⟨6,[.setEnt .internalNl,.cb,.code],none,false⟩⟩,⟨256,.ff,false,some ⟨9,[.setEnt .internalNl,.cb],none,false⟩⟩,⟨256,.cr,false,some ⟨10,[.setEnt .internalNl,.cb],none,false⟩⟩,⟨256,.cr,true,some ⟨11,[.setEnt .internalNl,.cb],none,false⟩⟩,⟨34,.other,false,some ⟨0,[.setEnt .internalNl,.cb,.code,.commit],some 2,true⟩⟩,⟨35,.other,false,some ⟨6,[.setEnt .internalNl,.cb,.code],none,false⟩⟩,⟨92,.other,false,some ⟨12,[.setEnt .internalNl,.cb],none,false⟩⟩]⟩,⟨[7],none,[],[⟨256,.other,false,some ⟨6,[.setEnt .internalNl,.cb,.code],none,false⟩⟩,⟨256,.ws,false,some ⟨7,[.setEnt .internalNl,.cb],none,false⟩⟩,⟨256,.lf,false,some ⟨8,[.setEnt .internalNl,.cb],none,false⟩⟩,⟨256,.vt,false,some ⟨6,[.setEnt .internalNl,.cb,.code],none,false⟩⟩,⟨256,.ff,false,some ⟨9,[.setEnt .internalNl,.cb],none,false⟩⟩,⟨256,.cr,false,some ⟨10,[.setEnt .internalNl,.cb],none,false⟩⟩,⟨256,.cr,true,some ⟨11,[.setEnt .internalNl,.cb],none,false⟩⟩,⟨34,.other,false,some ⟨0,[.setEnt .internalNl,.cb,.code,.commit],some 2,true⟩⟩,⟨35,.other,false,some ⟨6,[.setEnt .internalNl,.cb,.code],none,false⟩⟩,⟨92,.other,false,some ⟨12,[.setEnt .internalNl,.cb],none,false⟩⟩]⟩,⟨[4],none,[],[⟨256,.other,false,none⟩,⟨256,.ws,false,none⟩,⟨256,.lf,false,some ⟨14,[],none,false⟩⟩,⟨256,.vt,false,none⟩,⟨256,.ff,false,none⟩,⟨256,.cr,false,none⟩,⟨256,.cr,true,none⟩,⟨34,.other,false,none⟩,⟨35,.other,false,none⟩,⟨92,.other,false,none⟩]⟩,⟨[4,8],none,[],[⟨256,.other,false,some ⟨6,[.setEnt .internalNl,.cb,.code],none,false⟩⟩,⟨256,.ws,false,some ⟨7,[.setEnt .internalNl,.cb],none,false⟩⟩,⟨256,.lf,false,some ⟨15,[.setEnt .internalNl,.cb],none,false⟩⟩,⟨256,.vt,false,some ⟨6,[.setEnt .internalNl,.cb,.code],none,false⟩⟩,⟨256,.ff,false,some ⟨9,[.setEnt .internalNl,.cb],none,false⟩⟩,⟨256,.cr,false,some ⟨10,[.setEnt .internalNl,.cb],none,false⟩⟩,⟨256,.cr,true,some ⟨11,[.setEnt .internalNl,.cb],none,false⟩⟩,⟨34,.other,false,some ⟨0,[.setEnt .internalNl,.cb,.code,.commit],some 2,true⟩⟩,⟨35,.other,false,some ⟨6,[.setEnt .internalNl,.cb,.code],none,false⟩⟩,⟨92,.other,false,some ⟨12,[.setEnt .internalNl,.cb],none,false⟩⟩]⟩,⟨[11],none,[],[⟨256,.other,false,some ⟨16,[.code],none,false⟩⟩,⟨256,.ws,false,some ⟨16,[.code],none,false⟩⟩,⟨256,.lf,false,none⟩,⟨256,.vt,false,some ⟨16,[.code],none,false⟩⟩,⟨256,.ff,false,none⟩,⟨256,.cr,false,none⟩,⟨256,.cr,true,none⟩,⟨34,.other,false,some ⟨16,[.code],none,false⟩⟩,⟨35,.other,false,some ⟨16,[.code],none,false⟩⟩,⟨92,.other,false,some ⟨16,[.code],none,false⟩⟩]⟩,⟨[2],some 1,[],[⟨256,.other,false,some ⟨13,[],some 1,false⟩⟩,⟨256,.ws,false,some ⟨13,[],some 1,false⟩⟩,⟨256,.lf,false,none⟩,⟨256,.vt,false,some ⟨13,[],some 1,false⟩⟩,⟨256,.ff,false,none⟩,⟨256,.cr,false,none⟩,⟨256,.cr,true,none⟩,⟨34,.other,false,some ⟨13,[],some 1,false⟩⟩,⟨35,.other,false,some ⟨13,[],some 1,false⟩⟩,⟨92,.other,false,some ⟨13,[],some 1,false⟩⟩]⟩,⟨[5],none,[],[⟨256,.other,false,some ⟨6,[.setEnt .internalNl,.cb,.code],none,false⟩⟩,⟨256,.ws,false,some ⟨7,[.setEnt .internalNl,.cb],none,false⟩⟩,⟨256,.lf,false,some ⟨8,[.setEnt .internalNl,.cb],none,false⟩⟩,⟨256,.vt,false,some ⟨6,[.setEnt .internalNl,.cb,.code],none,false⟩⟩,⟨256,.ff,false,some ⟨9,[.setEnt .internalNl,.cb],none,false⟩⟩,⟨256,.cr,false,some ⟨10,[.setEnt .internalNl,.cb],none,false⟩⟩,⟨256,.cr,true,some ⟨11,[.setEnt .internalNl,.cb],none,false⟩⟩,⟨34,.other,false,some ⟨0,[.setEnt .internalNl,.cb,.code,.commit],some 2,true⟩⟩,⟨35,.other,false,some ⟨6,[.setEnt .internalNl,.cb,.code],none,false⟩⟩,⟨92,.other,false,some ⟨12,[.setEnt .internalNl,.cb],none,false⟩⟩]⟩,⟨[5,6],none,[],[⟨256,.other,false,some ⟨6,[.setEnt .internalNl,.cb,.code],none,false⟩⟩,⟨256,.ws,false,some ⟨7,[.setEnt .internalNl,.cb],none,false⟩⟩,⟨256,.lf,false,some ⟨8,[.setEnt .internalNl,.cb],none,false⟩⟩,⟨256,.vt,false,some ⟨6,[.setEnt .internalNl,.cb,.code],none,false⟩⟩,⟨256,.ff,false,some ⟨9,[.setEnt .internalNl,.cb],none,false⟩⟩,⟨256,.cr,false,some ⟨10,[.setEnt .internalNl,.cb],none,false⟩⟩,⟨256,.cr,true,some ⟨11,[.setEnt .internalNl,.cb],none,false⟩⟩,⟨34,.other,false,some ⟨0,[.setEnt .internalNl,.cb,.code,.commit],some 2,true⟩⟩,⟨35,.other,false,some ⟨6,[.setEnt .internalNl,.cb,.code],none,false⟩⟩,⟨92,.other,false,some ⟨12,[.setEnt .internalNl,.cb],none,false⟩⟩]⟩,⟨[12],none,[],[⟨256,.other,false,some ⟨6,[.code],none,false⟩⟩,⟨256,.ws,false,some ⟨7,[],none,false⟩⟩,⟨256,.lf,false,some ⟨8,[],none,false⟩⟩,⟨256,.vt,false,some ⟨6,[.code],none,false⟩⟩,⟨256,.ff,false,some ⟨9,[],none,false⟩⟩,⟨256,.cr,false,some ⟨10,[],none,false⟩⟩,⟨256,.cr,true,some ⟨11,[],none,false⟩⟩,⟨34,.other,false,some ⟨0,[.code,.commit],some 2,true⟩⟩,⟨35,.other,false,some ⟨6,[.code],none,false⟩⟩,⟨92,.other,false,some ⟨12,[],none,false⟩⟩]⟩]
theorem cmake_line_lrowsOk : rowsOk cmake_line_nfa cmake_line_lex.rel (cmake_line_lcs.map (·.1)) cmake_line_lrows = true := by decide +kernel
def cmake_line_lfr : List CA.FRow := [⟨true,none,[],[⟨256,.other,false,false,none,some ([.setEnt (.own 3)],(some 4,true))⟩,⟨9,.ws,false,false,some 1,some ([.setEnt (.own 0)],(some 0,false))⟩,⟨10,.lf,false,true,none,some ([.setEnt .newline],(some 3,true))⟩,⟨11,.vt,false,false,none,none⟩,⟨12,.ff,false,true,none,some ([.setEnt .newline],(some 3,true))⟩,⟨13,.cr,false,false,some 2,some ([.setEnt .newline],(none,false))⟩,⟨13,.cr,true,true,some 3,some ([.setEnt .newline],(some 3,false))⟩,⟨34,.other,false,false,some 4,some ([.enqueue,.code,.setEnt (.own 3)],(some 4,false))⟩,⟨35,.other,false,false,some 5,some ([.comment,.setEnt (.own 3)],(some 1,false))⟩,⟨92,.other,false,false,none,some ([.setEnt (.own 3)],(some 4,true))⟩]⟩,⟨false,some 0,[],[⟨256,.other,false,false,none,none⟩,⟨9,.ws,false,false,some 1,some ([.setEnt (.own 0)],(some 0,false))⟩,⟨10,.lf,false,true,none,none⟩,⟨11,.vt,false,false,none,none⟩,⟨12,.ff,false,true,none,none⟩,⟨13,.cr,false,false,none,none⟩,⟨13,.cr,true,true,none,none⟩,⟨34,.other,false,false,none,none⟩,⟨35,.other,false,false,none,none⟩,⟨92,.other,false,false,none,none⟩]⟩,⟨false,none,[],[⟨256,.other,false,false,none,none⟩,⟨9,.ws,false,false,none,none⟩,⟨10,.lf,false,true,none,some ([.setEnt .newline],(some 3,true))⟩,⟨11,.vt,false,false,none,none⟩,⟨12,.ff,false,true,none,none⟩,⟨13,.cr,false,false,none,none⟩,⟨13,.cr,true,true,none,none⟩,⟨34,.other,false,false,none,none⟩,⟨35,.other,false,false,none,none⟩,⟨92,.other,false,false,none,none⟩]⟩,⟨false,some 3,[],[⟨256,.other,false,false,none,none⟩,⟨9,.ws,false,false,none,none⟩,⟨10,.lf,false,true,none,some ([.setEnt .newline],(some 3,true))⟩,⟨11,.vt,false,false,none,none⟩,⟨12,.ff,false,true,none,none⟩,⟨13,.cr,false,false,none,none⟩,⟨13,.cr,true,true,none,none⟩,⟨34,.other,false,false,none,none⟩,⟨35,.other,false,false,none,none⟩,⟨92,.other,false,false,none,none⟩]⟩,⟨false,some 4,[],[⟨256,.other,false,false,some 6,some ([.code],(none,false))⟩,⟨9,.ws,false,false,some 7,some ([],(none,false))⟩,⟨10,.lf,false,true,some 8,some ([],(none,false))⟩,⟨11,.vt,false,false,some 6,some ([.code],(none,false))⟩,⟨12,.ff,false,true,some 9,some ([],(none,false))⟩,⟨13,.cr,false,false,some 10,some ([],(none,false))⟩,⟨13,.cr,true,true,some 11,some ([],(none,false))⟩,⟨34,.other,false,false,none,some ([.code,.commit],(some 2,true))⟩,⟨35,.other,false,false,some 6,some ([.code],(none,false))⟩,⟨92,.other,false,false,some 12,some ([],(none,false))⟩]⟩,⟨false,some 1,[],[⟨256,.other,false,false,some 13,some ([],(some 1,false))⟩,⟨9,.ws,false,false,some 13,some ([],(some 1,false))⟩,⟨10,.lf,false,true,none,none⟩,⟨11,.vt,false,false,some 13,some ([],(some 1,false))⟩,⟨12,.ff,false,true,none,none⟩,⟨13,.cr,false,false,none,none⟩,⟨13,.cr,true,true,none,none⟩,⟨34,.other,false,false,some 13,some ([],(some 1,false))⟩,⟨35,.other,false,false,some 13,some ([],(some 1,false))⟩,⟨92,.other,false,false,some 13,some ([],(some 1,false))⟩]⟩,⟨false,none,[],[⟨256,.other,false,false,some 6,some ([.code],(none,false))⟩,⟨9,.ws,false,false,some 7,some ([],(none,false))⟩,⟨10,.lf,false,true,some 8,some ([],(none,false))⟩,⟨11,.vt,false,false,some 6,some ([.code],(none,false))⟩,⟨12,.ff,false,true,some 9,some ([],(none,false))⟩,⟨13,.cr,false,false,some 10,some ([],(none,false))⟩,⟨13,.cr,true,true,some 11,some ([],(none,false))⟩,⟨34,.other,false,false,none,some ([.code,.commit],(some 2,true))⟩,⟨35,.other,false,false,some 6,some ([.code],(none,false))⟩,⟨92,.other,false,false,some 12,some ([],(none,false))⟩]⟩,⟨false,none,[],[⟨256,.other,false,false,some 6,some ([.code],(none,false))⟩,⟨9,.ws,false,false,some 7,some ([],(none,false))⟩,⟨10,.lf,false,true,some 8,some ([],(none,false))⟩,⟨11,.vt,false,false,some 6,some ([.code],(none,false))⟩,⟨12,.ff,false,true,some 9,some ([],(none,false))⟩,⟨13,.cr,false,false,some 10,some ([],(none,false))⟩,⟨13,.cr,true,true,some 11,some ([],(none,false))⟩,⟨34,.other,false,false,none,some ([.code,.commit],(some 2,true))⟩,⟨35,.other,false,false,some 6,some ([.code],(none,false))⟩,⟨92,.other,false,false,some 12,some ([],(none,false))⟩]⟩,⟨false,none,[],[⟨256,.other,false,false,some 6,some ([.setEnt .internalNl,.cb,.code],(none,false))⟩,⟨9,.ws,false,false,some 7,some ([.setEnt .internalNl,.cb],(none,false))⟩,⟨10,.lf,false,true,some 8,some ([.setEnt .internalNl,.cb],(none,false))⟩,⟨11,.vt,false,false,some 6,some ([.setEnt .internalNl,.cb,.code],(none,false))⟩,⟨12,.ff,false,true,some 9,some ([.setEnt .internalNl,.cb],(none,false))⟩,⟨13,.cr,false,false,some 10,some ([.setEnt .internalNl,.cb],(none,false))⟩,⟨13,.cr,true,true,some 11,some ([.setEnt .internalNl,.cb],(none,false))⟩,⟨34,.other,false,false,none,some ([.setEnt .internalNl,.cb,.code,.commit],(some 2,true))⟩,⟨35,.other,false,false,some 6,some ([.setEnt .internalNl,.cb,.code],(none,false))⟩,⟨92,.other,false,false,some 12,some ([.setEnt .internalNl,.cb],(none,false))⟩]⟩,⟨false,none,[],[⟨256,.other,false,false,some 6,some ([.setEnt .internalNl,.cb,.code],(none,false))⟩,⟨9,.ws,false,false,some 7,some ([.setEnt .internalNl,.cb],(none,false))⟩,⟨10,.lf,false,true,some 8,some ([.setEnt .internalNl,.cb],(none,false))⟩,⟨11,.vt,false,false,some 6,some ([.setEnt .internalNl,.cb,.code],(none,false))⟩,⟨12,.ff,false,true,some 9,some ([.setEnt .internalNl,.cb],(none,false))⟩,⟨13,.cr,false,false,some 10,some ([.setEnt .internalNl,.cb],(none,false))⟩,⟨13,.cr,true,true,some 11,some ([.setEnt .internalNl,.cb],(none,false))⟩,⟨34,.other,false,false,none,some ([.setEnt .internalNl,.cb,.code,.commit],(some 2,true))⟩,⟨35,.other,false,false,some 6,some ([.setEnt .internalNl,.cb,.code],(none,false))⟩,⟨92,.other,false,false,some 12,some ([.setEnt .internalNl,.cb],(none,false))⟩]⟩,⟨false,none,[],[⟨256,.other,false,false,none,none⟩,⟨9,.ws,false,false,none,none⟩,⟨10,.lf,false,true,some 14,some ([],(none,false))⟩,⟨11,.vt,false,false,none,none⟩,⟨12,.ff,false,true,none,none⟩,⟨13,.cr,false,false,none,none⟩,⟨13,.cr,true,true,none,none⟩,⟨34,.other,false,false,none,none⟩,⟨35,.other,false,false,none,none⟩,⟨92,.other,false,false,none,none⟩]⟩,⟨false,none,[],[⟨256,.other,false,false,some 6,some ([.setEnt .internalNl,.cb,.code],(none,false))⟩,⟨9,.ws,false,false,some 7,some ([.setEnt .internalNl,.cb],(none,false))⟩,⟨10,.lf,false,true,some 15,some ([.setEnt .internalNl,.cb],(none,false))⟩,⟨11,.vt,false,false,some 6,some ([.setEnt .internalNl,.cb,.code],(none,false))⟩,⟨12,.ff,false,true,some 9,some ([.setEnt .internalNl,.cb],(none,false))⟩,⟨13,.cr,false,false,some 10,some ([.setEnt .internalNl,.cb],(none,false))⟩,⟨13,.cr,true,true,some 11,some ([.setEnt .internalNl,.cb],(none,false))⟩,⟨34,.other,false,false,none,some ([.setEnt .internalNl,.cb,.code,.commit],(some 2,true))⟩,⟨35,.other,false,false,some 6,some ([.setEnt .internalNl,.cb,.code],(none,false))⟩,⟨92,.other,false,false,some 12,some ([.setEnt .internalNl,.cb],(none,false))⟩]⟩,⟨false,none,[],[⟨256,.other,false,false,some 16,some ([.code],(none,false))⟩,⟨9,.ws,false,false,some 16,some ([.code],(none,false))⟩,⟨10,.lf,false,true,none,none⟩,⟨11,.vt,false,false,some 16,some ([.code],(none,false))⟩,⟨12,.ff,false,true,none,none⟩,⟨13,.cr,false,false,none,none⟩,⟨13,.cr,true,true,none,none⟩,⟨34,.other,false,false,some 16,some ([.code],(none,false))⟩,⟨35,.other,false,false,some 16,some ([.code],(none,false))⟩,⟨92,.other,false,false,some 16,some ([.code],(none,false))⟩]⟩,⟨false,some 1,[],[⟨256,.other,false,false,some 13,some ([],(some 1,false))⟩,⟨9,.ws,false,false,some 13,some ([],(some 1,false))⟩,⟨10,.lf,false,true,none,none⟩,⟨11,.vt,false,false,some 13,some ([],(some 1,false))⟩,⟨12,.ff,false,true,none,none⟩,⟨13,.cr,false,false,none,none⟩,⟨13,.cr,true,true,none,none⟩,⟨34,.other,false,false,some 13,some ([],(some 1,false))⟩,⟨35,.other,false,false,some 13,some ([],(some 1,false))⟩,⟨92,.other,false,false,some 13,some ([],(some 1,false))⟩]⟩,⟨false,none,[],[⟨256,.other,false,false,some 6,some ([.setEnt .internalNl,.cb,.code],(none,false))⟩,⟨9,.ws,false,false,some 7,some ([.setEnt .internalNl,.cb],(none,false))⟩,⟨10,.lf,false,true,some 8,some ([.setEnt .internalNl,.cb],(none,false))⟩,⟨11,.vt,false,false,some 6,some ([.setEnt .internalNl,.cb,.code],(none,false))⟩,⟨12,.ff,false,true,some 9,some ([.setEnt .internalNl,.cb],(none,false))⟩,⟨13,.cr,false,false,some 10,some ([.setEnt .internalNl,.cb],(none,false))⟩,⟨13,.cr,true,true,some 11,some ([.setEnt .internalNl,.cb],(none,false))⟩,⟨34,.other,false,false,none,some ([.setEnt .internalNl,.cb,.code,.commit],(some 2,true))⟩,⟨35,.other,false,false,some 6,some ([.setEnt .internalNl,.cb,.code],(none,false))⟩,⟨92,.other,false,false,some 12,some ([.setEnt .internalNl,.cb],(none,false))⟩]⟩,⟨false,none,[],[⟨256,.other,false,false,some 6,some ([.setEnt .internalNl,.cb,.code],(none,false))⟩,⟨9,.ws,false,false,some 7,some ([.setEnt .internalNl,.cb],(none,false))⟩,⟨10,.lf,false,true,some 8,some ([.setEnt .internalNl,.cb],(none,false))⟩,⟨11,.vt,false,false,some 6,some ([.setEnt .internalNl,.cb,.code],(none,false))⟩,⟨12,.ff,false,true,some 9,some ([.setEnt .internalNl,.cb],(none,false))⟩,⟨13,.cr,false,false,some 10,some ([.setEnt .internalNl,.cb],(none,false))⟩,⟨13,.cr,true,true,some 11,some ([.setEnt .internalNl,.cb],(none,false))⟩,⟨34,.other,false,false,none,some ([.setEnt .internalNl,.cb,.code,.commit],(some 2,true))⟩,⟨35,.other,false,false,some 6,some ([.setEnt .internalNl,.cb,.code],(none,false))⟩,⟨92,.other,false,false,some 12,some ([.setEnt .internalNl,.cb],(none,false))⟩]⟩,⟨false,none,[],[⟨256,.other,false,false,some 6,some ([.code],(none,false))⟩,⟨9,.ws,false,false,some 7,some ([],(none,false))⟩,⟨10,.lf,false,true,some 8,some ([],(none,false))⟩,⟨11,.vt,false,false,some 6,some ([.code],(none,false))⟩,⟨12,.ff,false,true,some 9,some ([],(none,false))⟩,⟨13,.cr,false,false,some 10,some ([],(none,false))⟩,⟨13,.cr,true,true,some 11,some ([],(none,false))⟩,⟨34,.other,false,false,none,some ([.code,.commit],(some 2,true))⟩,⟨35,.other,false,false,some 6,some ([.code],(none,false))⟩,⟨92,.other,false,false,some 12,some ([],(none,false))⟩]⟩]
theorem cmake_line_lfrOk : cmake_line_lrows.map (CA.prep cmake_line_lex) = cmake_line_lfr := by decide +kernel
def cmake_line_lTab : List CT := [(.node (.node (.node (.node .leaf 128 [⟨⟨.code,[],.lcode,false,[],false⟩,false,false,[],none,none,none,false,false,false,none,false,⟨.lcode,none,false,.lblank⟩⟩] .leaf) 38019 [⟨⟨.code,[],.lcode,true,[],false⟩,false,false,[],none,none,none,false,false,false,none,false,⟨.lblank,none,false,.lblank⟩⟩] (.node .leaf 185487 [⟨⟨.code,[],.lcomment,true,[],false⟩,false,false,[],none,none,none,false,false,false,none,false,⟨.lblank,none,false,.lblank⟩⟩] .leaf)) 296088 [⟨⟨.code,[],.lblank,false,[],false⟩,false,false,[],none,none,none,false,false,false,none,false,⟨.lblank,none,false,.lblank⟩⟩] (.node (.node .leaf 332955 [⟨⟨.code,[],.lblank,true,[],false⟩,false,false,[],none,none,none,false,false,false,none,false,⟨.lblank,none,false,.lblank⟩⟩] .leaf) 1179872 [⟨⟨(.inside 0),[],.lcode,false,[],false⟩,false,false,[none],none,none,none,false,false,false,none,false,⟨.lcode,none,false,.lblank⟩⟩] (.node .leaf 1327852 [⟨⟨(.inside 0),[],.lcomment,false,[],false⟩,false,false,[none],none,none,none,false,false,false,none,false,⟨.lcomment,none,false,.lblank⟩⟩] .leaf))) 22179935 [⟨⟨(.inside 0),[],.lcode,false,[],false⟩,false,false,[some (10,(.lf,false))],none,none,none,false,false,false,none,false,⟨.lcode,none,false,.lblank⟩⟩] (.node (.node (.node .leaf 22327915 [⟨⟨(.inside 0),[],.lcomment,false,[],false⟩,false,false,[some (10,(.lf,false))],none,none,none,false,false,false,none,false,⟨.lcomment,none,false,.lblank⟩⟩] .leaf) 26179947 [⟨⟨(.inside 0),[],.lcode,false,[],false⟩,false,false,[some (12,(.ff,false))],none,none,none,false,false,false,none,false,⟨.lcode,none,false,.lblank⟩⟩] (.node .leaf 26327927 [⟨⟨(.inside 0),[],.lcomment,false,[],false⟩,false,false,[some (12,(.ff,false))],none,none,none,false,false,false,none,false,⟨.lcomment,none,false,.lblank⟩⟩] .leaf)) 28179953 [⟨⟨(.inside 0),[],.lcode,false,[],false⟩,false,false,[some (13,(.cr,false))],none,none,none,false,false,false,none,false,⟨.lcode,none,false,.lblank⟩⟩] (.node (.node .leaf 28327933 [⟨⟨(.inside 0),[],.lcomment,false,[],false⟩,false,false,[some (13,(.cr,false))],none,none,none,false,false,false,none,false,⟨.lcomment,none,false,.lblank⟩⟩] .leaf) 29179956 [⟨⟨(.inside 0),[],.lcode,false,[],false⟩,false,false,[some (13,(.cr,true))],none,none,none,false,false,false,none,false,⟨.lcode,none,false,.lblank⟩⟩] (.node .leaf 29327936 [⟨⟨(.inside 0),[],.lcomment,false,[],false⟩,false,false,[some (13,(.cr,true))],none,none,none,false,false,false,none,false,⟨.lcomment,none,false,.lblank⟩⟩] .leaf)))),(.node (.node .leaf 128 [⟨⟨.code,[],.lcode,false,[],false⟩,false,false,[],none,none,none,false,false,false,none,false,⟨.lcode,some (.own 0),false,.lblank⟩⟩] .leaf) 296088 [⟨⟨.code,[],.lblank,false,[],false⟩,false,false,[],none,none,none,false,false,false,none,false,⟨.lblank,some (.own 0),false,.lblank⟩⟩] .leaf),(.node (.node .leaf 160 [⟨⟨.code,[],.lcode,false,[],false⟩,true,false,[],none,none,none,false,false,false,none,false,⟨.lcode,some .newline,false,.lblank⟩⟩] .leaf) 148140 [⟨⟨.code,[],.lcomment,false,[],false⟩,true,false,[],none,none,none,false,false,false,none,false,⟨.lcomment,some .newline,false,.lblank⟩⟩] (.node .leaf 296120 [⟨⟨.code,[],.lblank,false,[],false⟩,true,false,[],none,none,none,false,false,false,none,false,⟨.lblank,some .newline,false,.lblank⟩⟩] .leaf)),(.node (.node .leaf 37011 [⟨⟨.code,[],.lcode,true,[],false⟩,false,true,[],none,none,none,false,false,false,none,false,⟨.lcode,some .newline,false,.lblank⟩⟩] .leaf) 184991 [⟨⟨.code,[],.lcomment,true,[],false⟩,false,true,[],none,none,none,false,false,false,none,false,⟨.lcomment,some .newline,false,.lblank⟩⟩] (.node .leaf 332971 [⟨⟨.code,[],.lblank,true,[],false⟩,false,true,[],none,none,none,false,false,false,none,false,⟨.lblank,some .newline,false,.lblank⟩⟩] .leaf)),(.node (.node .leaf 4129360 [⟨⟨(.inside 1),[],.lcode,false,[],false⟩,false,false,[],none,none,none,false,false,false,none,false,⟨.lcode,some (.own 3),true,.lcode⟩⟩] .leaf) 4129488 [⟨⟨(.inside 1),[],.lcode,false,[],false⟩,false,false,[],none,none,none,false,false,false,none,false,⟨.lcode,some (.own 3),true,.lblank⟩⟩] .leaf),(.node (.node .leaf 1179872 [⟨⟨(.inside 0),[],.lcode,false,[],false⟩,false,false,[],none,none,none,false,false,false,none,false,⟨.lcode,some (.own 3),false,.lblank⟩⟩] .leaf) 1327852 [⟨⟨(.inside 0),[],.lcomment,false,[],false⟩,false,false,[],none,none,none,false,false,false,none,false,⟨.lcomment,some (.own 3),false,.lblank⟩⟩] .leaf),(.node (.node (.node .leaf 4388229 [⟨⟨(.inside 1),[],.lcode,false,[],false⟩,false,false,[],some 4,some ⟨(.inside 1),[],.lcode,false,[],false⟩,none,false,false,false,none,false,⟨.lcode,some (.own 3),true,.lcode⟩⟩] .leaf) 4388237 [⟨⟨(.inside 1),[],.lcode,false,[],false⟩,false,false,[],some 4,some ⟨(.inside 1),[],.lcode,false,[],false⟩,none,true,false,false,none,false,⟨.lcode,some .internalNl,true,.lcode⟩⟩] .leaf) 4388357 [⟨⟨(.inside 1),[],.lcode,false,[],false⟩,false,false,[],some 4,some ⟨(.inside 1),[],.lcode,false,[],false⟩,none,false,false,false,none,false,⟨.lcode,some (.own 3),true,.lblank⟩⟩] (.node .leaf 4388365 [⟨⟨(.inside 1),[],.lcode,false,[],false⟩,false,false,[],some 4,some ⟨(.inside 1),[],.lcode,false,[],false⟩,none,true,false,false,none,false,⟨.lcode,some .internalNl,true,.lblank⟩⟩] .leaf)),(.node (.node (.node .leaf 4388229 [⟨⟨(.inside 1),[],.lcode,false,[],false⟩,false,false,[],some 4,some ⟨(.inside 1),[],.lcode,false,[],false⟩,none,false,false,false,none,false,⟨.lcode,some (.own 3),true,.lcode⟩⟩] .leaf) 4388237 [⟨⟨(.inside 1),[],.lcode,false,[],false⟩,false,false,[],some 4,some ⟨(.inside 1),[],.lcode,false,[],false⟩,none,true,false,false,none,false,⟨.lcode,some .internalNl,true,.lcode⟩⟩] (.node .leaf 4388357 [⟨⟨(.inside 1),[],.lcode,false,[],false⟩,false,false,[],some 4,some ⟨(.inside 1),[],.lcode,false,[],false⟩,none,false,false,false,none,false,⟨.lcode,some (.own 3),true,.lblank⟩⟩] .leaf)) 4388365 [⟨⟨(.inside 1),[],.lcode,false,[],false⟩,false,false,[],some 4,some ⟨(.inside 1),[],.lcode,false,[],false⟩,none,true,false,false,none,false,⟨.lcode,some .internalNl,true,.lblank⟩⟩] (.node (.node .leaf 4684197 [⟨⟨(.inside 1),[],.lblank,false,[],false⟩,false,false,[],some 4,some ⟨(.inside 1),[],.lcode,false,[],false⟩,none,true,false,false,none,false,⟨.lblank,some .internalNl,true,.lcode⟩⟩] .leaf) 4684325 [⟨⟨(.inside 1),[],.lblank,false,[],false⟩,false,false,[],some 4,some ⟨(.inside 1),[],.lcode,false,[],false⟩,none,true,false,false,none,false,⟨.lblank,some .internalNl,true,.lblank⟩⟩] .leaf)),(.node (.node (.node .leaf 4425096 [⟨⟨(.inside 1),[],.lcode,true,[],false⟩,false,false,[],some 4,some ⟨(.inside 1),[],.lcode,false,[],false⟩,none,false,false,false,none,false,⟨.lcode,some (.own 3),true,.lcode⟩⟩] .leaf) 4425104 [⟨⟨(.inside 1),[],.lcode,true,[],false⟩,false,false,[],some 4,some ⟨(.inside 1),[],.lcode,false,[],false⟩,none,true,false,false,none,false,⟨.lcode,some .internalNl,true,.lcode⟩⟩] (.node .leaf 4425224 [⟨⟨(.inside 1),[],.lcode,true,[],false⟩,false,false,[],some 4,some ⟨(.inside 1),[],.lcode,false,[],false⟩,none,false,false,false,none,false,⟨.lcode,some (.own 3),true,.lblank⟩⟩] .leaf)) 4425232 [⟨⟨(.inside 1),[],.lcode,true,[],false⟩,false,false,[],some 4,some ⟨(.inside 1),[],.lcode,false,[],false⟩,none,true,false,false,none,false,⟨.lcode,some .internalNl,true,.lblank⟩⟩] (.node (.node .leaf 4721064 [⟨⟨(.inside 1),[],.lblank,true,[],false⟩,false,false,[],some 4,some ⟨(.inside 1),[],.lcode,false,[],false⟩,none,true,false,false,none,false,⟨.lblank,some .internalNl,true,.lcode⟩⟩] .leaf) 4721192 [⟨⟨(.inside 1),[],.lblank,true,[],false⟩,false,false,[],some 4,some ⟨(.inside 1),[],.lcode,false,[],false⟩,none,true,false,false,none,false,⟨.lblank,some .internalNl,true,.lblank⟩⟩] .leaf)),(.node (.node (.node .leaf 4425096 [⟨⟨(.inside 1),[],.lcode,true,[],false⟩,false,false,[],some 4,some ⟨(.inside 1),[],.lcode,false,[],false⟩,none,false,false,false,none,false,⟨.lcode,some (.own 3),true,.lcode⟩⟩] .leaf) 4425104 [⟨⟨(.inside 1),[],.lcode,true,[],false⟩,false,false,[],some 4,some ⟨(.inside 1),[],.lcode,false,[],false⟩,none,true,false,false,none,false,⟨.lcode,some .internalNl,true,.lcode⟩⟩] (.node .leaf 4425224 [⟨⟨(.inside 1),[],.lcode,true,[],false⟩,false,false,[],some 4,some ⟨(.inside 1),[],.lcode,false,[],false⟩,none,false,false,false,none,false,⟨.lcode,some (.own 3),true,.lblank⟩⟩] .leaf)) 4425232 [⟨⟨(.inside 1),[],.lcode,true,[],false⟩,false,false,[],some 4,some ⟨(.inside 1),[],.lcode,false,[],false⟩,none,true,false,false,none,false,⟨.lcode,some .internalNl,true,.lblank⟩⟩] (.node (.node .leaf 4721064 [⟨⟨(.inside 1),[],.lblank,true,[],false⟩,false,false,[],some 4,some ⟨(.inside 1),[],.lcode,false,[],false⟩,none,true,false,false,none,false,⟨.lblank,some .internalNl,true,.lcode⟩⟩] .leaf) 4721192 [⟨⟨(.inside 1),[],.lblank,true,[],false⟩,false,false,[],some 4,some ⟨(.inside 1),[],.lcode,false,[],false⟩,none,true,false,false,none,false,⟨.lblank,some .internalNl,true,.lblank⟩⟩] .leaf)),(.node (.node (.node .leaf 4388261 [⟨⟨(.inside 1),[],.lcode,false,[],false⟩,true,false,[],some 4,some ⟨(.inside 1),[],.lcode,false,[],false⟩,none,false,false,false,none,false,⟨.lcode,some (.own 3),true,.lcode⟩⟩] .leaf) 4388269 [⟨⟨(.inside 1),[],.lcode,false,[],false⟩,true,false,[],some 4,some ⟨(.inside 1),[],.lcode,false,[],false⟩,none,true,false,false,none,false,⟨.lcode,some .internalNl,true,.lcode⟩⟩] (.node .leaf 4388389 [⟨⟨(.inside 1),[],.lcode,false,[],false⟩,true,false,[],some 4,some ⟨(.inside 1),[],.lcode,false,[],false⟩,none,false,false,false,none,false,⟨.lcode,some (.own 3),true,.lblank⟩⟩] .leaf)) 4388397 [⟨⟨(.inside 1),[],.lcode,false,[],false⟩,true,false,[],some 4,some ⟨(.inside 1),[],.lcode,false,[],false⟩,none,true,false,false,none,false,⟨.lcode,some .internalNl,true,.lblank⟩⟩] (.node (.node .leaf 4684229 [⟨⟨(.inside 1),[],.lblank,false,[],false⟩,true,false,[],some 4,some ⟨(.inside 1),[],.lcode,false,[],false⟩,none,true,false,false,none,false,⟨.lblank,some .internalNl,true,.lcode⟩⟩] .leaf) 4684357 [⟨⟨(.inside 1),[],.lblank,false,[],false⟩,true,false,[],some 4,some ⟨(.inside 1),[],.lcode,false,[],false⟩,none,true,false,false,none,false,⟨.lblank,some .internalNl,true,.lblank⟩⟩] .leaf)),(.node (.node (.node .leaf 4425112 [⟨⟨(.inside 1),[],.lcode,true,[],false⟩,false,true,[],some 4,some ⟨(.inside 1),[],.lcode,false,[],false⟩,none,false,false,false,none,false,⟨.lcode,some (.own 3),true,.lcode⟩⟩] .leaf) 4425120 [⟨⟨(.inside 1),[],.lcode,true,[],false⟩,false,true,[],some 4,some ⟨(.inside 1),[],.lcode,false,[],false⟩,none,true,false,false,none,false,⟨.lcode,some .internalNl,true,.lcode⟩⟩] (.node .leaf 4425240 [⟨⟨(.inside 1),[],.lcode,true,[],false⟩,false,true,[],some 4,some ⟨(.inside 1),[],.lcode,false,[],false⟩,none,false,false,false,none,false,⟨.lcode,some (.own 3),true,.lblank⟩⟩] .leaf)) 4425248 [⟨⟨(.inside 1),[],.lcode,true,[],false⟩,false,true,[],some 4,some ⟨(.inside 1),[],.lcode,false,[],false⟩,none,true,false,false,none,false,⟨.lcode,some .internalNl,true,.lblank⟩⟩] (.node (.node .leaf 4721080 [⟨⟨(.inside 1),[],.lblank,true,[],false⟩,false,true,[],some 4,some ⟨(.inside 1),[],.lcode,false,[],false⟩,none,true,false,false,none,false,⟨.lblank,some .internalNl,true,.lcode⟩⟩] .leaf) 4721208 [⟨⟨(.inside 1),[],.lblank,true,[],false⟩,false,true,[],some 4,some ⟨(.inside 1),[],.lcode,false,[],false⟩,none,true,false,false,none,false,⟨.lblank,some .internalNl,true,.lblank⟩⟩] .leaf)),(.node (.node (.node .leaf 544600380 [⟨⟨(.inside 1),[92],.lcode,false,[],false⟩,false,false,[],some 4,some ⟨(.inside 1),[],.lcode,false,[],false⟩,none,false,false,false,none,false,⟨.lcode,some (.own 3),true,.lcode⟩⟩] .leaf) 544600388 [⟨⟨(.inside 1),[92],.lcode,false,[],false⟩,false,false,[],some 4,some ⟨(.inside 1),[],.lcode,false,[],false⟩,none,true,false,false,none,false,⟨.lcode,some .internalNl,true,.lcode⟩⟩] (.node .leaf 544600508 [⟨⟨(.inside 1),[92],.lcode,false,[],false⟩,false,false,[],some 4,some ⟨(.inside 1),[],.lcode,false,[],false⟩,none,false,false,false,none,false,⟨.lcode,some (.own 3),true,.lblank⟩⟩] .leaf)) 544600516 [⟨⟨(.inside 1),[92],.lcode,false,[],false⟩,false,false,[],some 4,some ⟨(.inside 1),[],.lcode,false,[],false⟩,none,true,false,false,none,false,⟨.lcode,some .internalNl,true,.lblank⟩⟩] (.node (.node .leaf 583238028 [⟨⟨(.inside 1),[92],.lblank,false,[],false⟩,false,false,[],some 4,some ⟨(.inside 1),[],.lcode,false,[],false⟩,none,true,false,false,none,false,⟨.lblank,some .internalNl,true,.lcode⟩⟩] .leaf) 583238156 [⟨⟨(.inside 1),[92],.lblank,false,[],false⟩,false,false,[],some 4,some ⟨(.inside 1),[],.lcode,false,[],false⟩,none,true,false,false,none,false,⟨.lblank,some .internalNl,true,.lblank⟩⟩] .leaf)),(.node (.node .leaf 1179872 [⟨⟨(.inside 0),[],.lcode,false,[],false⟩,false,false,[],none,none,none,false,false,false,none,false,⟨.lcode,some (.own 3),false,.lblank⟩⟩] .leaf) 1327852 [⟨⟨(.inside 0),[],.lcomment,false,[],false⟩,false,false,[],none,none,none,false,false,false,none,false,⟨.lcomment,some (.own 3),false,.lblank⟩⟩] .leaf),(.node (.node (.node .leaf 4425096 [⟨⟨(.inside 1),[],.lcode,true,[],false⟩,false,false,[],some 4,some ⟨(.inside 1),[],.lcode,false,[],false⟩,none,false,false,false,none,false,⟨.lcode,some (.own 3),true,.lcode⟩⟩] .leaf) 4425104 [⟨⟨(.inside 1),[],.lcode,true,[],false⟩,false,false,[],some 4,some ⟨(.inside 1),[],.lcode,false,[],false⟩,none,true,false,false,none,false,⟨.lcode,some .internalNl,true,.lcode⟩⟩] (.node .leaf 4425224 [⟨⟨(.inside 1),[],.lcode,true,[],false⟩,false,false,[],some 4,some ⟨(.inside 1),[],.lcode,false,[],false⟩,none,false,false,false,none,false,⟨.lcode,some (.own 3),true,.lblank⟩⟩] .leaf)) 4425232 [⟨⟨(.inside 1),[],.lcode,true,[],false⟩,false,false,[],some 4,some ⟨(.inside 1),[],.lcode,false,[],false⟩,none,true,false,false,none,false,⟨.lcode,some .internalNl,true,.lblank⟩⟩] (.node (.node .leaf 4721064 [⟨⟨(.inside 1),[],.lblank,true,[],false⟩,false,false,[],some 4,some ⟨(.inside 1),[],.lcode,false,[],false⟩,none,true,false,false,none,false,⟨.lblank,some .internalNl,true,.lcode⟩⟩] .leaf) 4721192 [⟨⟨(.inside 1),[],.lblank,true,[],false⟩,false,false,[],some 4,some ⟨(.inside 1),[],.lcode,false,[],false⟩,none,true,false,false,none,false,⟨.lblank,some .internalNl,true,.lblank⟩⟩] .leaf)),.leaf,(.node (.node (.node .leaf 4388229 [⟨⟨(.inside 1),[],.lcode,false,[],false⟩,false,false,[],some 4,some ⟨(.inside 1),[],.lcode,false,[],false⟩,none,false,false,false,none,false,⟨.lcode,some (.own 3),true,.lcode⟩⟩] .leaf) 4388237 [⟨⟨(.inside 1),[],.lcode,false,[],false⟩,false,false,[],some 4,some ⟨(.inside 1),[],.lcode,false,[],false⟩,none,true,false,false,none,false,⟨.lcode,some .internalNl,true,.lcode⟩⟩] .leaf) 4388357 [⟨⟨(.inside 1),[],.lcode,false,[],false⟩,false,false,[],some 4,some ⟨(.inside 1),[],.lcode,false,[],false⟩,none,false,false,false,none,false,⟨.lcode,some (.own 3),true,.lblank⟩⟩] (.node .leaf 4388365 [⟨⟨(.inside 1),[],.lcode,false,[],false⟩,false,false,[],some 4,some ⟨(.inside 1),[],.lcode,false,[],false⟩,none,true,false,false,none,false,⟨.lcode,some .internalNl,true,.lblank⟩⟩] .leaf))]
theorem cmake_line_lClosed : CA.closedF cmake_line_M cmake_line_lex true false cmake_line_lfr cmake_line_lTab = true := by decide +kernel
def cmake_line_L : LCert LexisTable.cmake_line cmake_line_M := cmake_line_lex_eq ▸ ⟨⟨cmake_line_lmasks, cmake_line_lex.rel, cmake_line_lcs, cmake_line_lrows, cmake_line_lmasksIn, cmake_line_lrepOk, cmake_line_lrowsOk⟩,
  _, rfl, by decide +kernel, by decide +kernel, true, false, CA.closed_of cmake_line_lfrOk cmake_line_lClosed⟩
theorem cmake_line_L_chk : cmake_line_L.chk = true := by
  have : ∀ (l : Lexis) (h : LexisTable.cmake_line = l) (C : LCert l cmake_line_M), (h ▸ C : LCert LexisTable.cmake_line cmake_line_M).chk = C.chk := by rintro _ rfl _; rfl
  exact this _ cmake_line_lex_eq _

def dart_line_lex : Lexis := [⟨[47,47],[],.lcomment,false,false,true,false,true,true,true,false,none,false,false,false,false,[]⟩,⟨[47,42],[[42,47]],.lcomment,true,false,false,true,false,false,true,false,none,false,false,false,false,[]⟩]
theorem dart_line_lex_eq : LexisTable.dart_line = dart_line_lex := by decide +kernel
def dart_line_lmasks : List Nat := [4294967808,140737488355328,8192,1024,4096,115792089237316195423570985008687907853269984665640564039457584007908834656767,4951760157141521099596496896,115792089237316195423570985008687907853269984665640564039457584007908834658815,4398046511104]
def dart_line_lcs : List (Nat × Nat) := [(0,115792089237316195423570985008687907853269984665635612279300442341673703293439),(9,4294967808),(10,1024),(11,2048),(12,4096),(13,8192),(42,4398046511104),(47,140737488355328),(92,4951760157141521099596496896)]
theorem dart_line_lmasksIn : masksIn dart_line_nfa dart_line_lmasks = true := by decide +kernel
theorem dart_line_lrepOk : repOk dart_line_lmasks dart_line_lcs = true := by decide +kernel
def dart_line_lrows : List Row := [⟨[],none,[],[⟨256,.other,false,some ⟨0,[.setEnt (.own 2)],some 3,true⟩⟩,⟨256,.ws,false,some ⟨1,[.setEnt (.own 0)],some 0,false⟩⟩,⟨256,.lf,false,some ⟨0,[.setEnt .newline],some 2,true⟩⟩,⟨256,.vt,false,none⟩,⟨256,.ff,false,some ⟨0,[.setEnt .newline],some 2,true⟩⟩,⟨256,.cr,false,some ⟨2,[.setEnt .newline],none,false⟩⟩,⟨256,.cr,true,some ⟨3,[.setEnt .newline],some 2,false⟩⟩,⟨42,.other,false,some ⟨0,[.setEnt (.own 2)],some 3,true⟩⟩,⟨47,.other,false,some ⟨4,[.setEnt (.own 2)],some 3,false⟩⟩,⟨92,.other,false,some ⟨0,[.setEnt (.own 2)],some 3,true⟩⟩]⟩,⟨[0],some 0,[],[⟨256,.other,false,none⟩,⟨256,.ws,false,some ⟨1,[.setEnt (.own 0)],some 0,false⟩⟩,⟨256,.lf,false,none⟩,⟨256,.vt,false,none⟩,⟨256,.ff,false,none⟩,⟨256,.cr,false,none⟩,⟨256,.cr,true,none⟩,⟨42,.other,false,none⟩,⟨47,.other,false,none⟩,⟨92,.other,false,none⟩]⟩,⟨[22],none,[],[⟨256,.other,false,none⟩,⟨256,.ws,false,none⟩,⟨256,.lf,false,some ⟨0,[.setEnt .newline],some 2,true⟩⟩,⟨256,.vt,false,none⟩,⟨256,.ff,false,none⟩,⟨256,.cr,false,none⟩,⟨256,.cr,true,none⟩,⟨42,.other,false,none⟩,⟨47,.other,false,none⟩,⟨92,.other,false,none⟩]⟩,⟨[22,26],some 2,[],[⟨256,.other,false,none⟩,⟨256,.ws,false,none⟩,⟨256,.lf,false,some ⟨0,[.setEnt .newline],some 2,true⟩⟩,⟨256,.vt,false,none⟩,⟨256,.ff,false,none⟩,⟨256,.cr,false,none⟩,⟨256,.cr,true,none⟩,⟨42,.other,false,none⟩,⟨47,.other,false,none⟩,⟨92,.other,false,none⟩]⟩,⟨[1,11,27],some 3,[],[⟨256,.other,false,none⟩,⟨256,.ws,false,none⟩,⟨256,.lf,false,none⟩,⟨256,.vt,false,none⟩,⟨256,.ff,false,none⟩,⟨256,.cr,false,none⟩,⟨256,.cr,true,none⟩,⟨42,.other,false,some ⟨5,[.comment],none,false⟩⟩,⟨47,.other,false,some ⟨6,[.comment],some 1,false⟩⟩,⟨92,.other,false,none⟩]⟩,⟨[12],none,[],[⟨256,.other,false,some ⟨7,[.comment],none,false⟩⟩,⟨256,.ws,false,some ⟨8,[],none,false⟩⟩,⟨256,.lf,false,some ⟨9,[],none,false⟩⟩,⟨256,.vt,false,some ⟨7,[.comment],none,false⟩⟩,⟨256,.ff,false,some ⟨10,[],none,false⟩⟩,⟨256,.cr,false,some ⟨11,[],none,false⟩⟩,⟨256,.cr,true,some ⟨12,[],none,false⟩⟩,⟨42,.other,false,some ⟨13,[.comment],none,false⟩⟩,⟨47,.other,false,some ⟨7,[.comment],none,false⟩⟩,⟨92,.other,false,some ⟨7,[.comment],none,false⟩⟩]⟩,⟨[2],some 1,[],[⟨256,.other,false,some ⟨14,[.comment],some 1,false⟩⟩,⟨256,.ws,false,some ⟨15,[],some 1,false⟩⟩,⟨256,.lf,false,none⟩,⟨256,.vt,false,some ⟨14,[.comment],some 1,false⟩⟩,⟨256,.ff,false,none⟩,⟨256,.cr,false,none⟩,⟨256,.cr,true,none⟩,⟨42,.other,false,some ⟨14,[.comment],some 1,false⟩⟩,⟨47,.other,false,some ⟨14,[.comment],some 1,false⟩⟩,⟨92,.other,false,some ⟨16,[.comment],some 1,false⟩⟩]⟩,⟨[19],none,[],[⟨256,.other,false,some ⟨7,[.comment],none,false⟩⟩,⟨256,.ws,false,some ⟨8,[],none,false⟩⟩,⟨256,.lf,false,some ⟨9,[],none,false⟩⟩,⟨256,.vt,false,some ⟨7,[.comment],none,false⟩⟩,⟨256,.ff,false,some ⟨10,[],none,false⟩⟩,⟨256,.cr,false,some ⟨11,[],none,false⟩⟩,⟨256,.cr,true,some ⟨12,[],none,false⟩⟩,⟨42,.other,false,some ⟨13,[.comment],none,false⟩⟩,⟨47,.other,false,some ⟨7,[.comment],none,false⟩⟩,⟨92,.other,false,some ⟨7,[.comment],none,false⟩⟩]⟩,⟨[18],none,[],[⟨256,.other,false,some ⟨7,[.comment],none,false⟩⟩,⟨256,.ws,false,some ⟨8,[],none,false⟩⟩,⟨256,.lf,false,some ⟨9,[],none,false⟩⟩,⟨256,.vt,false,some ⟨7,[.comment],none,false⟩⟩,⟨256,.ff,false,some ⟨10,[],none,false⟩⟩,⟨256,.cr,false,some ⟨11,[],none,false⟩⟩,⟨256,.cr,true,some ⟨12,[],none,false⟩⟩,⟨42,.other,false,some ⟨13,[.comment],none,false⟩⟩,⟨47,.other,false,some ⟨7,[.comment],none,false⟩⟩,⟨92,.other,false,some ⟨7,[.comment],none,false⟩⟩]⟩,⟨[15],none,[],[⟨256,.other,false,some ⟨7,[.setEnt .internalNl,.cb,.comment],none,false⟩⟩,⟨256,.ws,false,some ⟨8,[.setEnt .internalNl,.cb],none,false⟩⟩,⟨256,.lf,false,some ⟨9,[.setEnt .internalNl,.cb],none,false⟩⟩,⟨256,.vt,false,some ⟨7,[.setEnt .internalNl,.cb,.comment],none,false⟩⟩,⟨256,.ff,false,some ⟨10,[.setEnt .internalNl,.cb],none,false⟩⟩,⟨256,.cr,false,some ⟨11,[.setEnt .internalNl,.cb],none,false⟩⟩,⟨256,.cr,true,some ⟨12,[.setEnt .internalNl,.cb],none,false⟩⟩,⟨42,.other,false,some ⟨13,[.setEnt .internalNl,.cb,.comment],none,false⟩⟩,⟨47,.other,false,some ⟨7,[.setEnt .internalNl,.cb,.comment],none,false⟩⟩,⟨92,.other,false,some ⟨7,[.setEnt .internalNl,.cb,.comment],none,false⟩⟩]⟩,⟨[16],none,[],[⟨256,.other,false,some ⟨7,[.setEnt .internalNl,.cb,.comment],none,false⟩⟩,⟨256,.ws,false,some ⟨8,[.setEnt .internalNl,.cb],none,false⟩⟩,⟨256,.lf,false,some ⟨9,[.setEnt .internalNl,.cb],none,false⟩⟩,⟨256,.vt,false,some ⟨7,[.setEnt .internalNl,.cb,.comment],none,false⟩⟩,⟨256,.ff,false,some ⟨10,[.setEnt .internalNl,.cb],none,false⟩⟩,⟨256,.cr,false,some ⟨11,[.setEnt .internalNl,.cb],none,false⟩⟩,⟨256,.cr,true,some ⟨12,[.setEnt .internalNl,.cb],none,false⟩⟩,⟨42,.other,false,some ⟨13,[.setEnt .internalNl,.cb,.comment],none,false⟩⟩,⟨47,.other,false,some ⟨7,[.setEnt .internalNl,.cb,.comment],none,false⟩⟩,⟨92,.other,false,some ⟨7,[.setEnt .internalNl,.cb,.comment],none,false⟩⟩]⟩,⟨[13],none,[],[⟨256,.other,false,none⟩,⟨256,.ws,false,none⟩,⟨256,.lf,false,some ⟨17,[],none,false⟩⟩,⟨256,.vt,false,none⟩,⟨256,.ff,false,none⟩,⟨256,.cr,false,none⟩,⟨256,.cr,true,none⟩,⟨42,.other,false,none⟩,⟨47,.other,false,none⟩,⟨92,.other,false,none⟩]⟩,⟨[13,17],none,[],[⟨256,.other,false,some ⟨7,[.setEnt .internalNl,.cb,.comment],none,false⟩⟩,⟨256,.ws,false,some ⟨8,[.setEnt .internalNl,.cb],none,false⟩⟩,⟨256,.lf,false,some ⟨18,[.setEnt .internalNl,.cb],none,false⟩⟩,⟨256,.vt,false,some ⟨7,[.setEnt .internalNl,.cb,.comment],none,false⟩⟩,⟨256,.ff,false,some ⟨10,[.setEnt .internalNl,.cb],none,false⟩⟩,⟨256,.cr,false,some ⟨11,[.setEnt .internalNl,.cb],none,false⟩⟩,⟨256,.cr,true,some ⟨12,[.setEnt .internalNl,.cb],none,false⟩⟩,⟨42,.other,false,some ⟨13,[.setEnt .internalNl,.cb,.comment],none,false⟩⟩,⟨47,.other,false,some ⟨7,[.setEnt .internalNl,.cb,.comment],none,false⟩⟩,⟨92,.other,false,some ⟨7,[.setEnt .internalNl,.cb,.comment],none,false⟩⟩]⟩,⟨[19,20],none,[],[⟨256,.other,false,some ⟨7,[.comment],none,false⟩⟩,⟨256,.ws,false,some ⟨8,[],none,false⟩⟩,⟨256,.lf,false,some ⟨9,[],none,false⟩⟩,⟨256,.vt,false,some ⟨7,[.comment],none,false⟩⟩,⟨256,.ff,false,some ⟨10,[],none,false⟩⟩,⟨256,.cr,false,some ⟨11,[],none,false⟩⟩,⟨256,.cr,true,some ⟨12,[],none,false⟩⟩,⟨42,.other,false,some ⟨13,[.comment],none,false⟩⟩,⟨47,.other,false,some ⟨0,[],some 1,true⟩⟩,⟨92,.other,false,some ⟨7,[.comment],none,false⟩⟩]⟩,⟨[10],some 1,[],[⟨256,.other,false,some ⟨14,[.comment],some 1,false⟩⟩,⟨256,.ws,false,some ⟨15,[],some 1,false⟩⟩,⟨256,.lf,false,none⟩,⟨256,.vt,false,some ⟨14,[.comment],some 1,false⟩⟩,⟨256,.ff,false,none⟩,⟨256,.cr,false,none⟩,⟨256,.cr,true,none⟩,⟨42,.other,false,some ⟨14,[.comment],some 1,false⟩⟩,⟨47,.other,false,some ⟨14,[.comment],some 1,false⟩⟩,⟨92,.other,false,some ⟨16,[.comment],some 1,false⟩⟩]⟩,⟨[9],some 1,[],[⟨256,.other,false,some ⟨14,[.comment],some 1,false⟩⟩,⟨256,.ws,false,some ⟨15,[],some 1,false⟩⟩,⟨256,.lf,false,none⟩,⟨256,.vt,false,some ⟨14,[.comment],some 1,false⟩⟩,⟨256,.ff,false,none⟩,⟨256,.cr,false,none⟩,⟨256,.cr,true,none⟩,⟨42,.other,false,some ⟨14,[.comment],some 1,false⟩⟩,⟨47,.other,false,some ⟨14,[.comment],some 1,false⟩⟩,⟨92,.other,false,some ⟨16,[.comment],some 1,false⟩⟩]⟩,⟨[3,10],some 1,[],[⟨256,.other,false,some ⟨14,[.comment],some 1,false⟩⟩,⟨256,.ws,false,some ⟨15,[],some 1,false⟩⟩,⟨256,.lf,false,some ⟨19,[],some 1,false⟩⟩,⟨256,.vt,false,some ⟨14,[.comment],some 1,false⟩⟩,⟨256,.ff,false,some ⟨20,[],some 1,false⟩⟩,⟨256,.cr,false,some ⟨21,[],none,false⟩⟩,⟨256,.cr,true,some ⟨22,[],some 1,false⟩⟩,⟨42,.other,false,some ⟨14,[.comment],some 1,false⟩⟩,⟨47,.other,false,some ⟨14,[.comment],some 1,false⟩⟩,⟨92,.other,false,some ⟨16,[.comment],some 1,false⟩⟩]⟩,⟨[14],none,[],[⟨256,.other,false,some ⟨7,[.setEnt .internalNl,.cb,.comment],none,false⟩⟩,⟨256,.ws,false,some ⟨8,[.setEnt .internalNl,.cb],none,false⟩⟩,⟨256,.lf,false,some ⟨9,[.setEnt .internalNl,.cb],none,false⟩⟩,⟨256,.vt,false,some ⟨7,[.setEnt .internalNl,.cb,.comment],none,false⟩⟩,⟨256,.ff,false,some ⟨10,[.setEnt .internalNl,.cb],none,false⟩⟩,⟨256,.cr,false,some ⟨11,[.setEnt .internalNl,.cb],none,false⟩⟩,⟨256,.cr,true,some ⟨12,[.setEnt .internalNl,.cb],none,false⟩⟩,⟨42,.other,false,some ⟨13,[.setEnt .internalNl,.cb,.comment],none,false⟩⟩,⟨47,.other,false,some ⟨7,[.setEnt .internalNl,.cb,.comment],none,false⟩⟩,⟨92,.other,false,some ⟨7,[.setEnt .internalNl,.cb,.comment],none,false⟩⟩]⟩,⟨[14,15],none,[],[⟨256,.other,false,some ⟨7,[.setEnt .internalNl,.cb,.comment],none,false⟩⟩,⟨256,.ws,false,some ⟨8,[.setEnt .internalNl,.cb],none,false⟩⟩,⟨256,.lf,false,some ⟨9,[.setEnt .internalNl,.cb],none,false⟩⟩,⟨256,.vt,false,some ⟨7,[.setEnt .internalNl,.cb,.comment],none,false⟩⟩,⟨256,.ff,false,some ⟨10,[.setEnt .internalNl,.cb],none,false⟩⟩,⟨256,.cr,false,some ⟨11,[.setEnt .internalNl,.cb],none,false⟩⟩,⟨256,.cr,true,some ⟨12,[.setEnt .internalNl,.cb],none,false⟩⟩,⟨42,.other,false,some ⟨13,[.setEnt .internalNl,.cb,.comment],none,false⟩⟩,⟨47,.other,false,some ⟨7,[.setEnt .internalNl,.cb,.comment],none,false⟩⟩,⟨92,.other,false,some ⟨7,[.setEnt .internalNl,.cb,.comment],none,false⟩⟩]⟩,⟨[6],some 1,[.setEnt .internalNl,.cb],[⟨256,.other,false,some ⟨14,[.setEnt .internalNl,.cb,.comment],some 1,false⟩⟩,⟨256,.ws,false,some ⟨15,[.setEnt .internalNl,.cb],some 1,false⟩⟩,⟨256,.lf,false,none⟩,⟨256,.vt,false,some ⟨14,[.setEnt .internalNl,.cb,.comment],some 1,false⟩⟩,⟨256,.ff,false,none⟩,⟨256,.cr,false,none⟩,⟨256,.cr,true,none⟩,⟨42,.other,false,some ⟨14,[.setEnt .internalNl,.cb,.comment],some 1,false⟩⟩,⟨47,.other,false,some ⟨14,[.setEnt .internalNl,.cb,.comment],some 1,false⟩⟩,⟨92,.other,false,some ⟨16,[.setEnt .internalNl,.cb,.comment],some 1,false⟩⟩]⟩,⟨[7],some 1,[.setEnt .internalNl,.cb],[⟨256,.other,false,some ⟨14,[.setEnt .internalNl,.cb,.comment],some 1,false⟩⟩,⟨256,.ws,false,some ⟨15,[.setEnt .internalNl,.cb],some 1,false⟩⟩,⟨256,.lf,false,none⟩,⟨256,.vt,false,some ⟨14,[.setEnt .internalNl,.cb,.comment],some 1,false⟩⟩,⟨256,.ff,false,none⟩,⟨256,.cr,false,none⟩,⟨256,.cr,true,none⟩,⟨42,.other,false,some ⟨14,[.setEnt .internalNl,.cb,.comment],some 1,false⟩⟩,⟨47,.other,false,some ⟨14,[.setEnt .internalNl,.cb,.comment],some 1,false⟩⟩,⟨92,.other,false,some ⟨16,[.setEnt .internalNl,.cb,.comment],some 1,false⟩⟩]⟩,⟨[4],none,[],[⟨256,.other,false,none⟩,⟨256,.ws,false,none⟩,⟨256,.lf,false,some ⟨23,[],some 1,false⟩⟩,⟨256,.vt,false,none⟩,⟨256,.ff,false,none⟩,⟨256,.cr,false,none⟩,⟨256,.cr,true,none⟩,⟨42,.other,false,none⟩,⟨47,.other,false,none⟩,⟨92,.other,false,none⟩]⟩,⟨[4,8],some 1,[.setEnt .internalNl,.cb],[⟨256,.other,false,some ⟨14,[.setEnt .internalNl,.cb,.comment],some 1,false⟩⟩,⟨256,.ws,false,some ⟨15,[.setEnt .internalNl,.cb],some 1,false⟩⟩,⟨256,.lf,false,some ⟨23,[],some 1,false⟩⟩,⟨256,.vt,false,some ⟨14,[.setEnt .internalNl,.cb,.comment],some 1,false⟩⟩,⟨256,.ff,false,none⟩,⟨256,.cr,false,none⟩,⟨256,.cr,true,none⟩,⟨42,.other,false,some ⟨14,[.setEnt .internalNl,.cb,.comment],some 1,false⟩⟩,⟨47,.other,false,some ⟨14,[.setEnt .internalNl,.cb,.comment],some 1,false⟩⟩,⟨92,.other,false,some ⟨16,[.setEnt .internalNl,.cb,.comment],some 1,false⟩⟩]⟩,⟨[5],some 1,[.setEnt .internalNl,.cb],[⟨256,.other,false,some ⟨14,[.setEnt .internalNl,.cb,.comment],some 1,false⟩⟩,⟨256,.ws,false,some ⟨15,[.setEnt .internalNl,.cb],some 1,false⟩⟩,⟨256,.lf,false,none⟩,⟨256,.vt,false,some ⟨14,[.setEnt .internalNl,.cb,.comment],some 1,false⟩⟩,⟨256,.ff,false,none⟩,⟨256,.cr,false,none⟩,⟨256,.cr,true,none⟩,⟨42,.other,false,some ⟨14,[.setEnt .internalNl,.cb,.comment],some 1,false⟩⟩,⟨47,.other,false,some ⟨14,[.setEnt .internalNl,.cb,.comment],some 1,false⟩⟩,⟨92,.other,false,some ⟨16,[.setEnt .internalNl,.cb,.comment],some 1,false⟩⟩]⟩]
theorem dart_line_lrowsOk : rowsOk dart_line_nfa dart_line_lex.rel (dart_line_lcs.map (·.1)) dart_line_lrows = true := by decide +kernel
def dart_line_lfr : List CA.FRow := [⟨true,none,[],[⟨256,.other,false,false,none,some ([.setEnt (.own 2)],(some 3,true))⟩,⟨9,.ws,false,false,some 1,some ([.setEnt (.own 0)],(some 0,false))⟩,⟨10,.lf,false,true,none,some ([.setEnt .newline],(some 2,true))⟩,⟨11,.vt,false,false,none,none⟩,⟨12,.ff,false,true,none,some ([.setEnt .newline],(some 2,true))⟩,⟨13,.cr,false,false,some 2,some ([.setEnt .newline],(none,false))⟩,⟨13,.cr,true,true,some 3,some ([.setEnt .newline],(some 2,false))⟩,⟨42,.other,false,false,none,some ([.setEnt (.own 2)],(some 3,true))⟩,⟨47,.other,false,false,some 4,some ([.setEnt (.own 2)],(some 3,false))⟩,⟨92,.other,false,false,none,some ([.setEnt (.own 2)],(some 3,true))⟩]⟩,⟨false,some 0,[],[⟨256,.other,false,false,none,none⟩,⟨9,.ws,false,false,some 1,some ([.setEnt (.own 0)],(some 0,false))⟩,⟨10,.lf,false,true,none,none⟩,⟨11,.vt,false,false,none,none⟩,⟨12,.ff,false,true,none,none⟩,⟨13,.cr,false,false,none,none⟩,⟨13,.cr,true,true,none,none⟩,⟨42,.other,false,false,none,none⟩,⟨47,.other,false,false,none,none⟩,⟨92,.other,false,false,none,none⟩]⟩,⟨false,none,[],[⟨256,.other,false,false,none,none⟩,⟨9,.ws,false,false,none,none⟩,⟨10,.lf,false,true,none,some ([.setEnt .newline],(some 2,true))⟩,⟨11,.vt,false,false,none,none⟩,⟨12,.ff,false,true,none,none⟩,⟨13,.cr,false,false,none,none⟩,⟨13,.cr,true,true,none,none⟩,⟨42,.other,false,false,none,none⟩,⟨47,.other,false,false,none,none⟩,⟨92,.other,false,false,none,none⟩]⟩,⟨false,some 2,[],[⟨256,.other,false,false,none,none⟩,⟨9,.ws,false,false,none,none⟩,⟨10,.lf,false,true,none,some ([.setEnt .newline],(some 2,true))⟩,⟨11,.vt,false,false,none,none⟩,⟨12,.ff,false,true,none,none⟩,⟨13,.cr,false,false,none,none⟩,⟨13,.cr,true,true,none,none⟩,⟨42,.other,false,false,none,none⟩,⟨47,.other,false,false,none,none⟩,⟨92,.other,false,false,none,none⟩]⟩,⟨false,some 3,[],[⟨256,.other,false,false,none,none⟩,⟨9,.ws,false,false,none,none⟩,⟨10,.lf,false,true,none,none⟩,⟨11,.vt,false,false,none,none⟩,⟨12,.ff,false,true,none,none⟩,⟨13,.cr,false,false,none,none⟩,⟨13,.cr,true,true,none,none⟩,⟨42,.other,false,false,some 5,some ([.comment],(none,false))⟩,⟨47,.other,false,false,some 6,some ([.comment],(some 1,false))⟩,⟨92,.other,false,false,none,none⟩]⟩,⟨false,none,[],[⟨256,.other,false,false,some 7,some ([.comment],(none,false))⟩,⟨9,.ws,false,false,some 8,some ([],(none,false))⟩,⟨10,.lf,false,true,some 9,some ([],(none,false))⟩,⟨11,.vt,false,false,some 7,some ([.comment],(none,false))⟩,⟨12,.ff,false,true,some 10,some ([],(none,false))⟩,⟨13,.cr,false,false,some 11,some ([],(none,false))⟩,⟨13,.cr,true,true,some 12,some ([],(none,false))⟩,⟨42,.other,false,false,some 13,some ([.comment],(none,false))⟩,⟨47,.other,false,false,some 7,some ([.comment],(none,false))⟩,⟨92,.other,false,false,some 7,some ([.comment],(none,false))⟩]⟩,⟨false,some 1,[],[⟨256,.other,false,false,some 14,some ([.comment],(some 1,false))⟩,⟨9,.ws,false,false,some 15,some ([],(some 1,false))⟩,⟨10,.lf,false,true,none,none⟩,⟨11,.vt,false,false,some 14,some ([.comment],(some 1,false))⟩,⟨12,.ff,false,true,none,none⟩,⟨13,.cr,false,false,none,none⟩,⟨13,.cr,true,true,none,none⟩,⟨42,.other,false,false,some 14,some ([.comment],(some 1,false))⟩,⟨47,.other,false,false,some 14,some ([.comment],(some 1,false))⟩,⟨92,.other,false,false,some 16,some ([.comment],(some 1,false))⟩]⟩,⟨false,none,[],[⟨256,.other,false,false,some 7,some ([.comment],(none,false))⟩,⟨9,.ws,false,false,some 8,some ([],(none,false))⟩,⟨10,.lf,false,true,some 9,some ([],(none,false))⟩,⟨11,.vt,false,false,some 7,some ([.comment],(none,false))⟩,⟨12,.ff,false,true,some 10,some ([],(none,false))⟩,⟨13,.cr,false,false,some 11,some ([],(none,false))⟩,⟨13,.cr,true,true,some 12,some ([],(none,false))⟩,⟨42,.other,false,false,some 13,some ([.comment],(none,false))⟩,⟨47,.other,false,false,some 7,some ([.comment],(none,false))⟩,⟨92,.other,false,false,some 7,some ([.comment],(none,false))⟩]⟩,⟨false,none,[],[⟨256,.other,false,false,some 7,some ([.comment],(none,false))⟩,⟨9,.ws,false,false,some 8,some ([],(none,false))⟩,⟨10,.lf,false,true,some 9,some ([],(none,false))⟩,⟨11,.vt,false,false,some 7,some ([.comment],(none,false))⟩,⟨12,.ff,false,true,some 10,some ([],(none,false))⟩,⟨13,.cr,false,false,some 11,some ([],(none,false))⟩,⟨13,.cr,true,true,some 12,some ([],(none,false))⟩,⟨42,.other,false,false,some 13,some ([.comment],(none,false))⟩,⟨47,.other,false,false,some 7,some ([.comment],(none,false))⟩,⟨92,.other,false,false,some 7,some ([.comment],(none,false))⟩]⟩,⟨false,none,[],[⟨256,.other,false,false,some 7,some ([.setEnt .internalNl,.cb,.comment],(none,false))⟩,⟨9,.ws,false,false,some 8,some ([.setEnt .internalNl,.cb],(none,false))⟩,⟨10,.lf,false,true,some 9,some ([.setEnt .internalNl,.cb],(none,false))⟩,⟨11,.vt,false,false,some 7,some ([.setEnt .internalNl,.cb,.comment],(none,false))⟩,⟨12,.ff,false,true,some 10,some ([.setEnt .internalNl,.cb],(none,false))⟩,⟨13,.cr,false,false,some 11,some ([.setEnt .internalNl,.cb],(none,false))⟩,⟨13,.cr,true,true,some 12,some ([.setEnt .internalNl,.cb],(none,false))⟩,⟨42,.other,false,false,some 13,some ([.setEnt .internalNl,.cb,.comment],(none,false))⟩,⟨47,.other,false,false,some 7,some ([.setEnt .internalNl,.cb,.comment],(none,false))⟩,⟨92,.other,false,false,some 7,some ([.setEnt .internalNl,.cb,.comment],(none,false))⟩]⟩,⟨false,none,[],[⟨256,.other,false,false,some 7,some ([.setEnt .internalNl,.cb,.comment],(none,false))⟩,⟨9,.ws,false,false,some 8,some ([.setEnt .internalNl,.cb],(none,false))⟩,⟨10,.lf,false,true,some 9,some ([.setEnt .internalNl,.cb],(none,false))⟩,⟨11,.vt,false,false,some 7,some ([.setEnt .internalNl,.cb,.comment],(none,false))⟩,⟨12,.ff,false,true,some 10,some ([.setEnt .internalNl,.cb],(none,false))⟩,⟨13,.cr,false,false,some 11,some ([.setEnt .internalNl,.cb],(none,false))⟩,⟨13,.cr,true,true,some 12,some ([.setEnt .internalNl,.cb],(none,false))⟩,⟨42,.other,false,false,some 13,some ([.setEnt .internalNl,.cb,.comment],(none,false))⟩,⟨47,.other,false,false,some 7,some ([.setEnt .internalNl,.cb,.comment],(none,false))⟩,⟨92,.other,false,false,some 7,some ([.setEnt .internalNl,.cb,.comment],(none,false))⟩]⟩,⟨false,none,[],[⟨256,.other,false,false,none,none⟩,⟨9,.ws,false,false,none,none⟩,⟨10,.lf,false,true,some 17,some ([],(none,false))⟩,⟨11,.vt,false,false,none,none⟩,⟨12,.ff,false,true,none,none⟩,⟨13,.cr,false,false,none,none⟩,⟨13,.cr,true,true,none,none⟩,⟨42,.other,false,false,none,none⟩,⟨47,.other,false,false,none,none⟩,⟨92,.other,false,false,none,none⟩]⟩,⟨false,none,[],[⟨256,.other,false,false,some 7,some ([.setEnt .internalNl,.cb,.comment],(none,false))⟩,⟨9,.ws,false,false,some 8,some ([.setEnt .internalNl,.cb],(none,false))⟩,⟨10,.lf,false,true,some 18,some ([.setEnt .internalNl,.cb],(none,false))⟩,⟨11,.vt,false,false,some 7,some ([.setEnt .internalNl,.cb,.comment],(none,false))⟩,⟨12,.ff,false,true,some 10,some ([.setEnt .internalNl,.cb],(none,false))⟩,⟨13,.cr,false,false,some 11,some ([.setEnt .internalNl,.cb],(none,false))⟩,⟨13,.cr,true,true,some 12,some ([.setEnt .internalNl,.cb],(none,false))⟩,⟨42,.other,false,false,some 13,some ([.setEnt .internalNl,.cb,.comment],(none,false))⟩,⟨47,.other,false,false,some 7,some ([.setEnt .internalNl,.cb,.comment],(none,false))⟩,⟨92,.other,false,false,some 7,some ([.setEnt .internalNl,.cb,.comment],(none,false))⟩]⟩,⟨false,none,[],[⟨256,.other,false,false,some 7,some ([.comment],(none,false))⟩,⟨9,.ws,false,false,some 8,some ([],(none,false))⟩,⟨10,.lf,false,true,some 9,some ([],(none,false))⟩,⟨11,.vt,false,false,some 7,some ([.comment],(none,false))⟩,⟨12,.ff,false,true,some 10,some ([],(none,false))⟩,⟨13,.cr,false,false,some 11,some ([],(none,false))⟩,⟨13,.cr,true,true,some 12,some ([],(none,false))⟩,⟨42,.other,false,false,some 13,some ([.comment],(none,false))⟩,⟨47,.other,false,false,none,some ([],(some 1,true))⟩,⟨92,.other,false,false,some 7,some ([.comment],(none,false))⟩]⟩,⟨false,some 1,[],[⟨256,.other,false,false,some 14,some ([.comment],(some 1,false))⟩,⟨9,.ws,false,false,some 15,some ([],(some 1,false))⟩,⟨10,.lf,false,true,none,none⟩,⟨11,.vt,false,false,some 14,some ([.comment],(some 1,false))⟩,⟨12,.ff,false,true,none,none⟩,⟨13,.cr,false,false,none,none⟩,⟨13,.cr,true,true,none,none⟩,⟨42,.other,false,false,some 14,some ([.comment],(some 1,false))⟩,⟨47,.other,false,false,some 14,some ([.comment],(some 1,false))⟩,⟨92,.other,false,false,some 16,some ([.comment],(some 1,false))⟩]⟩,⟨false,some 1,[],[⟨256,.other,false,false,some 14,some ([.comment],(some 1,false))⟩,⟨9,.ws,false,false,some 15,some ([],(some 1,false))⟩,⟨10,.lf,false,true,none,none⟩,⟨11,.vt,false,false,some 14,some ([.comment],(some 1,false))⟩,⟨12,.ff,false,true,none,none⟩,⟨13,.cr,false,false,none,none⟩,⟨13,.cr,true,true,none,none⟩,⟨42,.other,false,false,some 14,some ([.comment],(some 1,false))⟩,⟨47,.other,false,false,some 14,some ([.comment],(some 1,false))⟩,⟨92,.other,false,false,some 16,some ([.comment],(some 1,false))⟩]⟩,⟨false,some 1,[],[⟨256,.other,false,false,some 14,some ([.comment],(some 1,false))⟩,⟨9,.ws,false,false,some 15,some ([],(some 1,false))⟩,⟨10,.lf,false,true,some 19,some ([],(some 1,false))⟩,⟨11,.vt,false,false,some 14,some ([.comment],(some 1,false))⟩,⟨12,.ff,false,true,some 20,some ([],(some 1,false))⟩,⟨13,.cr,false,false,some 21,some ([],(none,false))⟩,⟨13,.cr,true,true,some 22,some ([],(some 1,false))⟩,⟨42,.other,false,false,some 14,some ([.comment],(some 1,false))⟩,⟨47,.other,false,false,some 14,some ([.comment],(some 1,false))⟩,⟨92,.other,false,false,some 16,some ([.comment],(some 1,false))⟩]⟩,⟨false,none,[],[⟨256,.other,false,false,some 7,some ([.setEnt .internalNl,.cb,.comment],(none,false))⟩,⟨9,.ws,false,false,some 8,some ([.setEnt .internalNl,.cb],(none,false))⟩,⟨10,.lf,false,true,some 9,some ([.setEnt .internalNl,.cb],(none,false))⟩,⟨11,.vt,false,false,some 7,some ([.setEnt .internalNl,.cb,.comment],(none,false))⟩,⟨12,.ff,false,true,some 10,some ([.setEnt .internalNl,.cb],(none,false))⟩,⟨13,.cr,false,false,some 11,some ([.setEnt .internalNl,.cb],(none,false))⟩,⟨13,.cr,true,true,some 12,some ([.setEnt .internalNl,.cb],(none,false))⟩,⟨42,.other,false,false,some 13,some ([.setEnt .internalNl,.cb,.comment],(none,false))⟩,⟨47,.other,false,false,some 7,some ([.setEnt .internalNl,.cb,.comment],(none,false))⟩,⟨92,.other,false,false,some 7,some ([.setEnt .internalNl,.cb,.comment],(none,false))⟩]⟩,⟨false,none,[],[⟨256,.other,false,false,some 7,some ([.setEnt .internalNl,.cb,.comment],(none,false))⟩,⟨9,.ws,false,false,some 8,some ([.setEnt .internalNl,.cb],(none,false))⟩,⟨10,.lf,false,true,some 9,some ([.setEnt .internalNl,.cb],(none,false))⟩,⟨11,.vt,false,false,some 7,some ([.setEnt .internalNl,.cb,.comment],(none,false))⟩,⟨12,.ff,false,true,some 10,some ([.setEnt .internalNl,.cb],(none,false))⟩,⟨13,.cr,false,false,some 11,some ([.setEnt .internalNl,.cb],(none,false))⟩,⟨13,.cr,true,true,some 12,some ([.setEnt .internalNl,.cb],(none,false))⟩,⟨42,.other,false,false,some 13,some ([.setEnt .internalNl,.cb,.comment],(none,false))⟩,⟨47,.other,false,false,some 7,some ([.setEnt .internalNl,.cb,.comment],(none,false))⟩,⟨92,.other,false,false,some 7,some ([.setEnt .internalNl,.cb,.comment],(none,false))⟩]⟩,⟨false,some 1,[.setEnt .internalNl,.cb],[⟨256,.other,false,false,some 14,some ([.setEnt .internalNl,.cb,.comment],(some 1,false))⟩,⟨9,.ws,false,false,some 15,some ([.setEnt .internalNl,.cb],(some 1,false))⟩,⟨10,.lf,false,true,none,none⟩,⟨11,.vt,false,false,some 14,some ([.setEnt .internalNl,.cb,.comment],(some 1,false))⟩,⟨12,.ff,false,true,none,none⟩,⟨13,.cr,false,false,none,none⟩,⟨13,.cr,true,true,none,none⟩,⟨42,.other,false,false,some 14,some ([.setEnt .internalNl,.cb,.comment],(some 1,false))⟩,⟨47,.other,false,false,some 14,some ([.setEnt .internalNl,.cb,.comment],(some 1,false))⟩,⟨92,.other,false,false,some 16,some ([.setEnt .internalNl,.cb,.comment],(some 1,false))⟩]⟩,⟨false,some 1,[.setEnt .internalNl,.cb],[⟨256,.other,false,false,some 14,some ([.setEnt .internalNl,.cb,.comment],(some 1,false))⟩,⟨9,.ws,false,false,some 15,some ([.setEnt .internalNl,.cb],(some 1,false))⟩,⟨10,.lf,false,true,none,none⟩,⟨11,.vt,false,false,some 14,some ([.setEnt .internalNl,.cb,.comment],(some 1,false))⟩,⟨12,.ff,false,true,none,none⟩,⟨13,.cr,false,false,none,none⟩,⟨13,.cr,true,true,none,none⟩,⟨42,.other,false,false,some 14,some ([.setEnt .internalNl,.cb,.comment],(some 1,false))⟩,⟨47,.other,false,false,some 14,some ([.setEnt .internalNl,.cb,.comment],(some 1,false))⟩,⟨92,.other,false,false,some 16,some ([.setEnt .internalNl,.cb,.comment],(some 1,false))⟩]⟩,⟨false,none,[],[⟨256,.other,false,false,none,none⟩,⟨9,.ws,false,false,none,none⟩,⟨10,.lf,false,true,some 23,some ([],(some 1,false))⟩,⟨11,.vt,false,false,none,none⟩,⟨12,.ff,false,true,none,none⟩,⟨13,.cr,false,false,none,none⟩,⟨13,.cr,true,true,none,none⟩,⟨42,.other,false,false,none,none⟩,⟨47,.other,false,false,none,none⟩,⟨92,.other,false,false,none,none⟩]⟩,⟨false,some 1,[.setEnt .internalNl,.cb],[⟨256,.other,false,false,some 14,some ([.setEnt .internalNl,.cb,.comment],(some 1,false))⟩,⟨9,.ws,false,false,some 15,some ([.setEnt .internalNl,.cb],(some 1,false))⟩,⟨10,.lf,false,true,some 23,some ([],(some 1,false))⟩,⟨11,.vt,false,false,some 14,some ([.setEnt .internalNl,.cb,.comment],(some 1,false))⟩,⟨12,.ff,false,true,none,none⟩,⟨13,.cr,false,false,none,none⟩,⟨13,.cr,true,true,none,none⟩,⟨42,.other,false,false,some 14,some ([.setEnt .internalNl,.cb,.comment],(some 1,false))⟩,⟨47,.other,false,false,some 14,some ([.setEnt .internalNl,.cb,.comment],(some 1,false))⟩,⟨92,.other,false,false,some 16,some ([.setEnt .internalNl,.cb,.comment],(some 1,false))⟩]⟩,⟨false,some 1,[.setEnt .internalNl,.cb],[⟨256,.other,false,false,some 14,some ([.setEnt .internalNl,.cb,.comment],(some 1,false))⟩,⟨9,.ws,false,false,some 15,some ([.setEnt .internalNl,.cb],(some 1,false))⟩,⟨10,.lf,false,true,none,none⟩,⟨11,.vt,false,false,some 14,some ([.setEnt .internalNl,.cb,.comment],(some 1,false))⟩,⟨12,.ff,false,true,none,none⟩,⟨13,.cr,false,false,none,none⟩,⟨13,.cr,true,true,none,none⟩,⟨42,.other,false,false,some 14,some ([.setEnt .internalNl,.cb,.comment],(some 1,false))⟩,⟨47,.other,false,false,some 14,some ([.setEnt .internalNl,.cb,.comment],(some 1,false))⟩,⟨92,.other,false,false,some 16,some ([.setEnt .internalNl,.cb,.comment],(some 1,false))⟩]⟩]
theorem dart_line_lfrOk : dart_line_lrows.map (CA.prep dart_line_lex) = dart_line_lfr := by decide +kernel
def dart_line_lTab : List CT := [(.node (.node (.node (.node (.node (.node (.node .leaf 128 [⟨⟨.code,[],.lcode,false,[],false⟩,false,false,[],none,none,none,false,false,false,none,false,⟨.lcode,none,false,.lblank⟩⟩] .leaf) 38019 [⟨⟨.code,[],.lcode,true,[],false⟩,false,false,[],none,none,none,false,false,false,none,false,⟨.lblank,none,false,.lblank⟩⟩] .leaf) 148108 [⟨⟨.code,[],.lcomment,false,[],false⟩,false,false,[],none,none,none,false,false,false,none,false,⟨.lcomment,none,false,.lblank⟩⟩] (.node .leaf 185487 [⟨⟨.code,[],.lcomment,true,[],false⟩,false,false,[],none,none,none,false,false,false,none,false,⟨.lblank,none,false,.lblank⟩⟩] .leaf)) 296088 [⟨⟨.code,[],.lblank,false,[],false⟩,false,false,[],none,none,none,false,false,false,none,false,⟨.lblank,none,false,.lblank⟩⟩] (.node (.node .leaf 332955 [⟨⟨.code,[],.lblank,true,[],false⟩,false,false,[],none,none,none,false,false,false,none,false,⟨.lblank,none,false,.lblank⟩⟩] .leaf) 1179872 [⟨⟨(.inside 0),[],.lcode,false,[],false⟩,false,false,[none],none,none,none,false,false,false,none,false,⟨.lcode,none,false,.lblank⟩⟩] (.node .leaf 1217763 [⟨⟨(.inside 0),[],.lcode,true,[],false⟩,false,false,[none],none,none,none,false,false,false,none,false,⟨.lblank,none,false,.lblank⟩⟩] .leaf))) 1327852 [⟨⟨(.inside 0),[],.lcomment,false,[],false⟩,false,false,[none],none,none,none,false,false,false,none,false,⟨.lcomment,none,false,.lblank⟩⟩] (.node (.node (.node .leaf 1365231 [⟨⟨(.inside 0),[],.lcomment,true,[],false⟩,false,false,[none],none,none,none,false,false,false,none,false,⟨.lblank,none,false,.lblank⟩⟩] .leaf) 1475832 [⟨⟨(.inside 0),[],.lblank,false,[],false⟩,false,false,[none],none,none,none,false,false,false,none,false,⟨.lblank,none,false,.lblank⟩⟩] (.node .leaf 1769744 [⟨⟨.code,[47],.lcode,false,[],false⟩,false,false,[none],none,none,none,false,false,false,none,false,⟨.lcode,none,false,.lblank⟩⟩] .leaf)) 20769801 [⟨⟨.code,[47],.lcode,false,[],false⟩,false,false,[some (9,(.ws,false))],none,none,none,false,false,false,none,false,⟨.lcode,none,false,.lblank⟩⟩] (.node (.node .leaf 21088052 [⟨⟨.code,[47],.lcomment,false,[],false⟩,false,false,[none],none,none,none,false,false,false,none,false,⟨.lcode,none,false,.lblank⟩⟩] .leaf) 22179935 [⟨⟨(.inside 0),[],.lcode,false,[],false⟩,false,false,[some (10,(.lf,false))],none,none,none,false,false,false,none,false,⟨.lcode,none,false,.lblank⟩⟩] (.node .leaf 22217826 [⟨⟨(.inside 0),[],.lcode,true,[],false⟩,false,false,[some (10,(.lf,false))],none,none,none,false,false,false,none,false,⟨.lblank,none,false,.lblank⟩⟩] .leaf)))) 22327915 [⟨⟨(.inside 0),[],.lcomment,false,[],false⟩,false,false,[some (10,(.lf,false))],none,none,none,false,false,false,none,false,⟨.lcomment,none,false,.lblank⟩⟩] (.node (.node (.node (.node .leaf 22365294 [⟨⟨(.inside 0),[],.lcomment,true,[],false⟩,false,false,[some (10,(.lf,false))],none,none,none,false,false,false,none,false,⟨.lblank,none,false,.lblank⟩⟩] .leaf) 22475895 [⟨⟨(.inside 0),[],.lblank,false,[],false⟩,false,false,[some (10,(.lf,false))],none,none,none,false,false,false,none,false,⟨.lblank,none,false,.lblank⟩⟩] (.node .leaf 22769807 [⟨⟨.code,[47],.lcode,false,[],false⟩,false,false,[some (10,(.lf,false))],none,none,none,false,false,false,none,false,⟨.lcode,none,false,.lblank⟩⟩] .leaf)) 26179947 [⟨⟨(.inside 0),[],.lcode,false,[],false⟩,false,false,[some (12,(.ff,false))],none,none,none,false,false,false,none,false,⟨.lcode,none,false,.lblank⟩⟩] (.node (.node .leaf 26217838 [⟨⟨(.inside 0),[],.lcode,true,[],false⟩,false,false,[some (12,(.ff,false))],none,none,none,false,false,false,none,false,⟨.lblank,none,false,.lblank⟩⟩] .leaf) 26327927 [⟨⟨(.inside 0),[],.lcomment,false,[],false⟩,false,false,[some (12,(.ff,false))],none,none,none,false,false,false,none,false,⟨.lcomment,none,false,.lblank⟩⟩] (.node .leaf 26365306 [⟨⟨(.inside 0),[],.lcomment,true,[],false⟩,false,false,[some (12,(.ff,false))],none,none,none,false,false,false,none,false,⟨.lblank,none,false,.lblank⟩⟩] .leaf))) 26475907 [⟨⟨(.inside 0),[],.lblank,false,[],false⟩,false,false,[some (12,(.ff,false))],none,none,none,false,false,false,none,false,⟨.lblank,none,false,.lblank⟩⟩] (.node (.node (.node .leaf 26769819 [⟨⟨.code,[47],.lcode,false,[],false⟩,false,false,[some (12,(.ff,false))],none,none,none,false,false,false,none,false,⟨.lcode,none,false,.lblank⟩⟩] .leaf) 27397582 [⟨⟨(.escapedCr 0),[],.lcode,true,[],false⟩,false,false,[some (12,(.ff,false))],none,none,none,false,false,false,none,false,⟨.lblank,none,false,.lblank⟩⟩] (.node .leaf 27545050 [⟨⟨(.escapedCr 0),[],.lcomment,true,[],false⟩,false,false,[some (12,(.ff,false))],none,none,none,false,false,false,none,false,⟨.lblank,none,false,.lblank⟩⟩] .leaf)) 28179953 [⟨⟨(.inside 0),[],.lcode,false,[],false⟩,false,false,[some (13,(.cr,false))],none,none,none,false,false,false,none,false,⟨.lcode,none,false,.lblank⟩⟩] (.node (.node .leaf 28217844 [⟨⟨(.inside 0),[],.lcode,true,[],false⟩,false,false,[some (13,(.cr,false))],none,none,none,false,false,false,none,false,⟨.lblank,none,false,.lblank⟩⟩] .leaf) 28327933 [⟨⟨(.inside 0),[],.lcomment,false,[],false⟩,false,false,[some (13,(.cr,false))],none,none,none,false,false,false,none,false,⟨.lcomment,none,false,.lblank⟩⟩] (.node .leaf 28365312 [⟨⟨(.inside 0),[],.lcomment,true,[],false⟩,false,false,[some (13,(.cr,false))],none,none,none,false,false,false,none,false,⟨.lblank,none,false,.lblank⟩⟩] .leaf))))) 28475913 [⟨⟨(.inside 0),[],.lblank,false,[],false⟩,false,false,[some (13,(.cr,false))],none,none,none,false,false,false,none,false,⟨.lblank,none,false,.lblank⟩⟩] (.node (.node (.node (.node (.node (.node .leaf 28769825 [⟨⟨.code,[47],.lcode,false,[],false⟩,false,false,[some (13,(.cr,false))],none,none,none,false,false,false,none,false,⟨.lcode,none,false,.lblank⟩⟩] .leaf) 29179956 [⟨⟨(.inside 0),[],.lcode,false,[],false⟩,false,false,[some (13,(.cr,true))],none,none,none,false,false,false,none,false,⟨.lcode,none,false,.lblank⟩⟩] .leaf) 29217847 [⟨⟨(.inside 0),[],.lcode,true,[],false⟩,false,false,[some (13,(.cr,true))],none,none,none,false,false,false,none,false,⟨.lblank,none,false,.lblank⟩⟩] (.node .leaf 29327936 [⟨⟨(.inside 0),[],.lcomment,false,[],false⟩,false,false,[some (13,(.cr,true))],none,none,none,false,false,false,none,false,⟨.lcomment,none,false,.lblank⟩⟩] .leaf)) 29365315 [⟨⟨(.inside 0),[],.lcomment,true,[],false⟩,false,false,[some (13,(.cr,true))],none,none,none,false,false,false,none,false,⟨.lblank,none,false,.lblank⟩⟩] (.node (.node .leaf 29397588 [⟨⟨(.escapedCr 0),[],.lcode,true,[],false⟩,false,false,[some (13,(.cr,false))],none,none,none,false,false,false,none,false,⟨.lblank,none,false,.lblank⟩⟩] .leaf) 29475916 [⟨⟨(.inside 0),[],.lblank,false,[],false⟩,false,false,[some (13,(.cr,true))],none,none,none,false,false,false,none,false,⟨.lblank,none,false,.lblank⟩⟩] (.node .leaf 29545056 [⟨⟨(.escapedCr 0),[],.lcomment,true,[],false⟩,false,false,[some (13,(.cr,false))],none,none,none,false,false,false,none,false,⟨.lblank,none,false,.lblank⟩⟩] .leaf))) 29769828 [⟨⟨.code,[47],.lcode,false,[],false⟩,false,false,[some (13,(.cr,true))],none,none,none,false,false,false,none,false,⟨.lcode,none,false,.lblank⟩⟩] (.node (.node (.node .leaf 30397591 [⟨⟨(.escapedCr 0),[],.lcode,true,[],false⟩,false,false,[some (13,(.cr,true))],none,none,none,false,false,false,none,false,⟨.lblank,none,false,.lblank⟩⟩] .leaf) 30545059 [⟨⟨(.escapedCr 0),[],.lcomment,true,[],false⟩,false,false,[some (13,(.cr,true))],none,none,none,false,false,false,none,false,⟨.lblank,none,false,.lblank⟩⟩] (.node .leaf 40088109 [⟨⟨.code,[47],.lcomment,false,[],false⟩,false,false,[some (9,(.ws,false))],none,none,none,false,false,false,none,false,⟨.lcode,none,false,.lblank⟩⟩] .leaf)) 40406360 [⟨⟨.code,[47],.lblank,false,[],false⟩,false,false,[none],none,none,none,false,false,false,none,false,⟨.lcode,none,false,.lblank⟩⟩] (.node (.node .leaf 42088115 [⟨⟨.code,[47],.lcomment,false,[],false⟩,false,false,[some (10,(.lf,false))],none,none,none,false,false,false,none,false,⟨.lcode,none,false,.lblank⟩⟩] .leaf) 46088127 [⟨⟨.code,[47],.lcomment,false,[],false⟩,false,false,[some (12,(.ff,false))],none,none,none,false,false,false,none,false,⟨.lcode,none,false,.lblank⟩⟩] (.node .leaf 48088133 [⟨⟨.code,[47],.lcomment,false,[],false⟩,false,false,[some (13,(.cr,false))],none,none,none,false,false,false,none,false,⟨.lcode,none,false,.lblank⟩⟩] .leaf)))) 49088136 [⟨⟨.code,[47],.lcomment,false,[],false⟩,false,false,[some (13,(.cr,true))],none,none,none,false,false,false,none,false,⟨.lcode,none,false,.lblank⟩⟩] (.node (.node (.node (.node .leaf 59406417 [⟨⟨.code,[47],.lblank,false,[],false⟩,false,false,[some (9,(.ws,false))],none,none,none,false,false,false,none,false,⟨.lcode,none,false,.lblank⟩⟩] .leaf) 61406423 [⟨⟨.code,[47],.lblank,false,[],false⟩,false,false,[some (10,(.lf,false))],none,none,none,false,false,false,none,false,⟨.lcode,none,false,.lblank⟩⟩] (.node .leaf 65406435 [⟨⟨.code,[47],.lblank,false,[],false⟩,false,false,[some (12,(.ff,false))],none,none,none,false,false,false,none,false,⟨.lcode,none,false,.lblank⟩⟩] .leaf)) 67406441 [⟨⟨.code,[47],.lblank,false,[],false⟩,false,false,[some (13,(.cr,false))],none,none,none,false,false,false,none,false,⟨.lcode,none,false,.lblank⟩⟩] (.node (.node .leaf 68406444 [⟨⟨.code,[47],.lblank,false,[],false⟩,false,false,[some (13,(.cr,true))],none,none,none,false,false,false,none,false,⟨.lcode,none,false,.lblank⟩⟩] .leaf) 157975223 [⟨⟨(.inside 0),[92],.lcode,false,[],false⟩,false,false,[none],none,none,none,false,false,false,none,false,⟨.lcode,none,false,.lblank⟩⟩] (.node .leaf 177294043 [⟨⟨(.inside 0),[92],.lcomment,false,[],false⟩,false,false,[none],none,none,none,false,false,false,none,false,⟨.lcomment,none,false,.lblank⟩⟩] .leaf))) 186770299 [⟨⟨.code,[47],.lcode,false,[],false⟩,false,false,[some (92,(.other,false))],none,none,none,false,false,false,none,false,⟨.lcode,none,false,.lblank⟩⟩] (.node (.node (.node .leaf 196612351 [⟨⟨(.inside 0),[92],.lblank,false,[],false⟩,false,false,[none],none,none,none,false,false,false,none,false,⟨.lcomment,none,false,.lblank⟩⟩] .leaf) 206088607 [⟨⟨.code,[47],.lcomment,false,[],false⟩,false,false,[some (92,(.other,false))],none,none,none,false,false,false,none,false,⟨.lcode,none,false,.lblank⟩⟩] (.node .leaf 225406915 [⟨⟨.code,[47],.lblank,false,[],false⟩,false,false,[some (92,(.other,false))],none,none,none,false,false,false,none,false,⟨.lcode,none,false,.lblank⟩⟩] .leaf)) 351158815 [⟨⟨(.escapedCr 0),[92],.lblank,false,[],false⟩,false,false,[none],none,none,none,false,false,false,none,false,⟨.lcomment,none,false,.lblank⟩⟩] (.node (.node .leaf 514771283 [⟨⟨.code,[47],.lcode,false,[],false⟩,false,false,[some (256,(.other,false))],none,none,none,false,false,false,none,false,⟨.lcode,none,false,.lblank⟩⟩] .leaf) 534089591 [⟨⟨.code,[47],.lcomment,false,[],false⟩,false,false,[some (256,(.other,false))],none,none,none,false,false,false,none,false,⟨.lcode,none,false,.lblank⟩⟩] (.node .leaf 553407899 [⟨⟨.code,[47],.lblank,false,[],false⟩,false,false,[some (256,(.other,false))],none,none,none,false,false,false,none,false,⟨.lcode,none,false,.lblank⟩⟩] .leaf)))))),(.node (.node .leaf 128 [⟨⟨.code,[],.lcode,false,[],false⟩,false,false,[],none,none,none,false,false,false,none,false,⟨.lcode,some (.own 0),false,.lblank⟩⟩] .leaf) 148108 [⟨⟨.code,[],.lcomment,false,[],false⟩,false,false,[],none,none,none,false,false,false,none,false,⟨.lcomment,some (.own 0),false,.lblank⟩⟩] (.node .leaf 296088 [⟨⟨.code,[],.lblank,false,[],false⟩,false,false,[],none,none,none,false,false,false,none,false,⟨.lblank,some (.own 0),false,.lblank⟩⟩] .leaf)),(.node (.node .leaf 160 [⟨⟨.code,[],.lcode,false,[],false⟩,true,false,[],none,none,none,false,false,false,none,false,⟨.lcode,some .newline,false,.lblank⟩⟩] .leaf) 148140 [⟨⟨.code,[],.lcomment,false,[],false⟩,true,false,[],none,none,none,false,false,false,none,false,⟨.lcomment,some .newline,false,.lblank⟩⟩] (.node .leaf 296120 [⟨⟨.code,[],.lblank,false,[],false⟩,true,false,[],none,none,none,false,false,false,none,false,⟨.lblank,some .newline,false,.lblank⟩⟩] .leaf)),(.node (.node .leaf 37011 [⟨⟨.code,[],.lcode,true,[],false⟩,false,true,[],none,none,none,false,false,false,none,false,⟨.lcode,some .newline,false,.lblank⟩⟩] .leaf) 184991 [⟨⟨.code,[],.lcomment,true,[],false⟩,false,true,[],none,none,none,false,false,false,none,false,⟨.lcomment,some .newline,false,.lblank⟩⟩] (.node .leaf 332971 [⟨⟨.code,[],.lblank,true,[],false⟩,false,true,[],none,none,none,false,false,false,none,false,⟨.lblank,some .newline,false,.lblank⟩⟩] .leaf)),(.node (.node .leaf 1769746 [⟨⟨.code,[47],.lcode,false,[],false⟩,false,false,[],none,none,none,false,false,true,none,false,⟨.lcode,some (.own 2),false,.lblank⟩⟩] .leaf) 21088566 [⟨⟨.code,[47],.lcomment,false,[],false⟩,false,false,[],none,none,none,false,false,true,none,false,⟨.lcomment,some (.own 2),false,.lblank⟩⟩] (.node .leaf 40407386 [⟨⟨.code,[47],.lblank,false,[],false⟩,false,false,[],none,none,none,false,false,true,none,false,⟨.lblank,some (.own 2),false,.lblank⟩⟩] .leaf)),(.node (.node .leaf 610242174 [⟨⟨(.inside 1),[],.lcode,false,[],false⟩,false,false,[],some 3,some ⟨.code,[47],.lcode,false,[],false⟩,some ([(42,(.other,false))],false),false,false,false,none,false,⟨.lcode,some (.own 2),false,.lblank⟩⟩] .leaf) 611599022 [⟨⟨(.inside 1),[],.lcomment,false,[],false⟩,false,false,[],some 3,some ⟨.code,[47],.lcomment,false,[],false⟩,some ([(42,(.other,false))],false),false,false,false,none,false,⟨.lcomment,some (.own 2),false,.lblank⟩⟩] (.node .leaf 612807890 [⟨⟨(.inside 1),[],.lcomment,false,[],false⟩,false,false,[],some 3,some ⟨.code,[47],.lblank,false,[],false⟩,some ([(42,(.other,false))],false),false,false,false,none,false,⟨.lcomment,some (.own 2),false,.lblank⟩⟩] .leaf)),(.node (.node .leaf 1179872 [⟨⟨(.inside 0),[],.lcode,false,[],false⟩,false,false,[],none,none,none,false,false,false,none,false,⟨.lcode,some (.own 2),false,.lblank⟩⟩] .leaf) 1327852 [⟨⟨(.inside 0),[],.lcomment,false,[],false⟩,false,false,[],none,none,none,false,false,false,none,false,⟨.lcomment,some (.own 2),false,.lblank⟩⟩] .leaf),(.node (.node (.node .leaf 610242174 [⟨⟨(.inside 1),[],.lcode,false,[],false⟩,false,false,[],some 3,some ⟨.code,[47],.lcode,false,[],false⟩,some ([(42,(.other,false))],false),false,false,false,none,false,⟨.lcode,some (.own 2),false,.lblank⟩⟩] .leaf) 610390162 [⟨⟨(.inside 1),[],.lcomment,false,[],false⟩,false,false,[],some 3,some ⟨.code,[47],.lcode,false,[],false⟩,some ([(42,(.other,false))],false),true,false,false,none,false,⟨.lcomment,some .internalNl,false,.lblank⟩⟩] (.node .leaf 611599022 [⟨⟨(.inside 1),[],.lcomment,false,[],false⟩,false,false,[],some 3,some ⟨.code,[47],.lcomment,false,[],false⟩,some ([(42,(.other,false))],false),false,false,false,none,false,⟨.lcomment,some (.own 2),false,.lblank⟩⟩] .leaf)) 611599030 [⟨⟨(.inside 1),[],.lcomment,false,[],false⟩,false,false,[],some 3,some ⟨.code,[47],.lcomment,false,[],false⟩,some ([(42,(.other,false))],false),true,false,false,none,false,⟨.lcomment,some .internalNl,false,.lblank⟩⟩] (.node (.node .leaf 612807890 [⟨⟨(.inside 1),[],.lcomment,false,[],false⟩,false,false,[],some 3,some ⟨.code,[47],.lblank,false,[],false⟩,some ([(42,(.other,false))],false),false,false,false,none,false,⟨.lcomment,some (.own 2),false,.lblank⟩⟩] .leaf) 612807898 [⟨⟨(.inside 1),[],.lcomment,false,[],false⟩,false,false,[],some 3,some ⟨.code,[47],.lblank,false,[],false⟩,some ([(42,(.other,false))],false),true,false,false,none,false,⟨.lcomment,some .internalNl,false,.lblank⟩⟩] .leaf)),(.node (.node (.node (.node .leaf 610242174 [⟨⟨(.inside 1),[],.lcode,false,[],false⟩,false,false,[],some 3,some ⟨.code,[47],.lcode,false,[],false⟩,some ([(42,(.other,false))],false),false,false,false,none,false,⟨.lcode,some (.own 2),false,.lblank⟩⟩] .leaf) 610390162 [⟨⟨(.inside 1),[],.lcomment,false,[],false⟩,false,false,[],some 3,some ⟨.code,[47],.lcode,false,[],false⟩,some ([(42,(.other,false))],false),true,false,false,none,false,⟨.lcomment,some .internalNl,false,.lblank⟩⟩] .leaf) 610538142 [⟨⟨(.inside 1),[],.lblank,false,[],false⟩,false,false,[],some 3,some ⟨.code,[47],.lcode,false,[],false⟩,some ([(42,(.other,false))],false),true,false,false,none,false,⟨.lblank,some .internalNl,false,.lblank⟩⟩] (.node .leaf 611599022 [⟨⟨(.inside 1),[],.lcomment,false,[],false⟩,false,false,[],some 3,some ⟨.code,[47],.lcomment,false,[],false⟩,some ([(42,(.other,false))],false),false,false,false,none,false,⟨.lcomment,some (.own 2),false,.lblank⟩⟩] .leaf)) 611599030 [⟨⟨(.inside 1),[],.lcomment,false,[],false⟩,false,false,[],some 3,some ⟨.code,[47],.lcomment,false,[],false⟩,some ([(42,(.other,false))],false),true,false,false,none,false,⟨.lcomment,some .internalNl,false,.lblank⟩⟩] (.node (.node (.node .leaf 611747010 [⟨⟨(.inside 1),[],.lblank,false,[],false⟩,false,false,[],some 3,some ⟨.code,[47],.lcomment,false,[],false⟩,some ([(42,(.other,false))],false),true,false,false,none,false,⟨.lblank,some .internalNl,false,.lblank⟩⟩] .leaf) 612807890 [⟨⟨(.inside 1),[],.lcomment,false,[],false⟩,false,false,[],some 3,some ⟨.code,[47],.lblank,false,[],false⟩,some ([(42,(.other,false))],false),false,false,false,none,false,⟨.lcomment,some (.own 2),false,.lblank⟩⟩] .leaf) 612807898 [⟨⟨(.inside 1),[],.lcomment,false,[],false⟩,false,false,[],some 3,some ⟨.code,[47],.lblank,false,[],false⟩,some ([(42,(.other,false))],false),true,false,false,none,false,⟨.lcomment,some .internalNl,false,.lblank⟩⟩] (.node .leaf 612955878 [⟨⟨(.inside 1),[],.lblank,false,[],false⟩,false,false,[],some 3,some ⟨.code,[47],.lblank,false,[],false⟩,some ([(42,(.other,false))],false),true,false,false,none,false,⟨.lblank,some .internalNl,false,.lblank⟩⟩] .leaf))),(.node (.node (.node (.node .leaf 610279041 [⟨⟨(.inside 1),[],.lcode,true,[],false⟩,false,false,[],some 3,some ⟨.code,[47],.lcode,false,[],false⟩,some ([(42,(.other,false))],false),false,false,false,none,false,⟨.lcode,some (.own 2),false,.lblank⟩⟩] .leaf) 610427029 [⟨⟨(.inside 1),[],.lcomment,true,[],false⟩,false,false,[],some 3,some ⟨.code,[47],.lcode,false,[],false⟩,some ([(42,(.other,false))],false),true,false,false,none,false,⟨.lcomment,some .internalNl,false,.lblank⟩⟩] .leaf) 610575009 [⟨⟨(.inside 1),[],.lblank,true,[],false⟩,false,false,[],some 3,some ⟨.code,[47],.lcode,false,[],false⟩,some ([(42,(.other,false))],false),true,false,false,none,false,⟨.lblank,some .internalNl,false,.lblank⟩⟩] (.node .leaf 611635889 [⟨⟨(.inside 1),[],.lcomment,true,[],false⟩,false,false,[],some 3,some ⟨.code,[47],.lcomment,false,[],false⟩,some ([(42,(.other,false))],false),false,false,false,none,false,⟨.lcomment,some (.own 2),false,.lblank⟩⟩] .leaf)) 611635897 [⟨⟨(.inside 1),[],.lcomment,true,[],false⟩,false,false,[],some 3,some ⟨.code,[47],.lcomment,false,[],false⟩,some ([(42,(.other,false))],false),true,false,false,none,false,⟨.lcomment,some .internalNl,false,.lblank⟩⟩] (.node (.node (.node .leaf 611783877 [⟨⟨(.inside 1),[],.lblank,true,[],false⟩,false,false,[],some 3,some ⟨.code,[47],.lcomment,false,[],false⟩,some ([(42,(.other,false))],false),true,false,false,none,false,⟨.lblank,some .internalNl,false,.lblank⟩⟩] .leaf) 612844757 [⟨⟨(.inside 1),[],.lcomment,true,[],false⟩,false,false,[],some 3,some ⟨.code,[47],.lblank,false,[],false⟩,some ([(42,(.other,false))],false),false,false,false,none,false,⟨.lcomment,some (.own 2),false,.lblank⟩⟩] .leaf) 612844765 [⟨⟨(.inside 1),[],.lcomment,true,[],false⟩,false,false,[],some 3,some ⟨.code,[47],.lblank,false,[],false⟩,some ([(42,(.other,false))],false),true,false,false,none,false,⟨.lcomment,some .internalNl,false,.lblank⟩⟩] (.node .leaf 612992745 [⟨⟨(.inside 1),[],.lblank,true,[],false⟩,false,false,[],some 3,some ⟨.code,[47],.lblank,false,[],false⟩,some ([(42,(.other,false))],false),true,false,false,none,false,⟨.lblank,some .internalNl,false,.lblank⟩⟩] .leaf))),(.node (.node (.node (.node .leaf 610279041 [⟨⟨(.inside 1),[],.lcode,true,[],false⟩,false,false,[],some 3,some ⟨.code,[47],.lcode,false,[],false⟩,some ([(42,(.other,false))],false),false,false,false,none,false,⟨.lcode,some (.own 2),false,.lblank⟩⟩] .leaf) 610427029 [⟨⟨(.inside 1),[],.lcomment,true,[],false⟩,false,false,[],some 3,some ⟨.code,[47],.lcode,false,[],false⟩,some ([(42,(.other,false))],false),true,false,false,none,false,⟨.lcomment,some .internalNl,false,.lblank⟩⟩] .leaf) 610575009 [⟨⟨(.inside 1),[],.lblank,true,[],false⟩,false,false,[],some 3,some ⟨.code,[47],.lcode,false,[],false⟩,some ([(42,(.other,false))],false),true,false,false,none,false,⟨.lblank,some .internalNl,false,.lblank⟩⟩] (.node .leaf 611635889 [⟨⟨(.inside 1),[],.lcomment,true,[],false⟩,false,false,[],some 3,some ⟨.code,[47],.lcomment,false,[],false⟩,some ([(42,(.other,false))],false),false,false,false,none,false,⟨.lcomment,some (.own 2),false,.lblank⟩⟩] .leaf)) 611635897 [⟨⟨(.inside 1),[],.lcomment,true,[],false⟩,false,false,[],some 3,some ⟨.code,[47],.lcomment,false,[],false⟩,some ([(42,(.other,false))],false),true,false,false,none,false,⟨.lcomment,some .internalNl,false,.lblank⟩⟩] (.node (.node (.node .leaf 611783877 [⟨⟨(.inside 1),[],.lblank,true,[],false⟩,false,false,[],some 3,some ⟨.code,[47],.lcomment,false,[],false⟩,some ([(42,(.other,false))],false),true,false,false,none,false,⟨.lblank,some .internalNl,false,.lblank⟩⟩] .leaf) 612844757 [⟨⟨(.inside 1),[],.lcomment,true,[],false⟩,false,false,[],some 3,some ⟨.code,[47],.lblank,false,[],false⟩,some ([(42,(.other,false))],false),false,false,false,none,false,⟨.lcomment,some (.own 2),false,.lblank⟩⟩] .leaf) 612844765 [⟨⟨(.inside 1),[],.lcomment,true,[],false⟩,false,false,[],some 3,some ⟨.code,[47],.lblank,false,[],false⟩,some ([(42,(.other,false))],false),true,false,false,none,false,⟨.lcomment,some .internalNl,false,.lblank⟩⟩] (.node .leaf 612992745 [⟨⟨(.inside 1),[],.lblank,true,[],false⟩,false,false,[],some 3,some ⟨.code,[47],.lblank,false,[],false⟩,some ([(42,(.other,false))],false),true,false,false,none,false,⟨.lblank,some .internalNl,false,.lblank⟩⟩] .leaf))),(.node (.node (.node (.node .leaf 610242206 [⟨⟨(.inside 1),[],.lcode,false,[],false⟩,true,false,[],some 3,some ⟨.code,[47],.lcode,false,[],false⟩,some ([(42,(.other,false))],false),false,false,false,none,false,⟨.lcode,some (.own 2),false,.lblank⟩⟩] .leaf) 610390194 [⟨⟨(.inside 1),[],.lcomment,false,[],false⟩,true,false,[],some 3,some ⟨.code,[47],.lcode,false,[],false⟩,some ([(42,(.other,false))],false),true,false,false,none,false,⟨.lcomment,some .internalNl,false,.lblank⟩⟩] .leaf) 610538174 [⟨⟨(.inside 1),[],.lblank,false,[],false⟩,true,false,[],some 3,some ⟨.code,[47],.lcode,false,[],false⟩,some ([(42,(.other,false))],false),true,false,false,none,false,⟨.lblank,some .internalNl,false,.lblank⟩⟩] (.node .leaf 611599054 [⟨⟨(.inside 1),[],.lcomment,false,[],false⟩,true,false,[],some 3,some ⟨.code,[47],.lcomment,false,[],false⟩,some ([(42,(.other,false))],false),false,false,false,none,false,⟨.lcomment,some (.own 2),false,.lblank⟩⟩] .leaf)) 611599062 [⟨⟨(.inside 1),[],.lcomment,false,[],false⟩,true,false,[],some 3,some ⟨.code,[47],.lcomment,false,[],false⟩,some ([(42,(.other,false))],false),true,false,false,none,false,⟨.lcomment,some .internalNl,false,.lblank⟩⟩] (.node (.node (.node .leaf 611747042 [⟨⟨(.inside 1),[],.lblank,false,[],false⟩,true,false,[],some 3,some ⟨.code,[47],.lcomment,false,[],false⟩,some ([(42,(.other,false))],false),true,false,false,none,false,⟨.lblank,some .internalNl,false,.lblank⟩⟩] .leaf) 612807922 [⟨⟨(.inside 1),[],.lcomment,false,[],false⟩,true,false,[],some 3,some ⟨.code,[47],.lblank,false,[],false⟩,some ([(42,(.other,false))],false),false,false,false,none,false,⟨.lcomment,some (.own 2),false,.lblank⟩⟩] .leaf) 612807930 [⟨⟨(.inside 1),[],.lcomment,false,[],false⟩,true,false,[],some 3,some ⟨.code,[47],.lblank,false,[],false⟩,some ([(42,(.other,false))],false),true,false,false,none,false,⟨.lcomment,some .internalNl,false,.lblank⟩⟩] (.node .leaf 612955910 [⟨⟨(.inside 1),[],.lblank,false,[],false⟩,true,false,[],some 3,some ⟨.code,[47],.lblank,false,[],false⟩,some ([(42,(.other,false))],false),true,false,false,none,false,⟨.lblank,some .internalNl,false,.lblank⟩⟩] .leaf))),(.node (.node (.node (.node .leaf 610279057 [⟨⟨(.inside 1),[],.lcode,true,[],false⟩,false,true,[],some 3,some ⟨.code,[47],.lcode,false,[],false⟩,some ([(42,(.other,false))],false),false,false,false,none,false,⟨.lcode,some (.own 2),false,.lblank⟩⟩] .leaf) 610427045 [⟨⟨(.inside 1),[],.lcomment,true,[],false⟩,false,true,[],some 3,some ⟨.code,[47],.lcode,false,[],false⟩,some ([(42,(.other,false))],false),true,false,false,none,false,⟨.lcomment,some .internalNl,false,.lblank⟩⟩] .leaf) 610575025 [⟨⟨(.inside 1),[],.lblank,true,[],false⟩,false,true,[],some 3,some ⟨.code,[47],.lcode,false,[],false⟩,some ([(42,(.other,false))],false),true,false,false,none,false,⟨.lblank,some .internalNl,false,.lblank⟩⟩] (.node .leaf 611635905 [⟨⟨(.inside 1),[],.lcomment,true,[],false⟩,false,true,[],some 3,some ⟨.code,[47],.lcomment,false,[],false⟩,some ([(42,(.other,false))],false),false,false,false,none,false,⟨.lcomment,some (.own 2),false,.lblank⟩⟩] .leaf)) 611635913 [⟨⟨(.inside 1),[],.lcomment,true,[],false⟩,false,true,[],some 3,some ⟨.code,[47],.lcomment,false,[],false⟩,some ([(42,(.other,false))],false),true,false,false,none,false,⟨.lcomment,some .internalNl,false,.lblank⟩⟩] (.node (.node (.node .leaf 611783893 [⟨⟨(.inside 1),[],.lblank,true,[],false⟩,false,true,[],some 3,some ⟨.code,[47],.lcomment,false,[],false⟩,some ([(42,(.other,false))],false),true,false,false,none,false,⟨.lblank,some .internalNl,false,.lblank⟩⟩] .leaf) 612844773 [⟨⟨(.inside 1),[],.lcomment,true,[],false⟩,false,true,[],some 3,some ⟨.code,[47],.lblank,false,[],false⟩,some ([(42,(.other,false))],false),false,false,false,none,false,⟨.lcomment,some (.own 2),false,.lblank⟩⟩] .leaf) 612844781 [⟨⟨(.inside 1),[],.lcomment,true,[],false⟩,false,true,[],some 3,some ⟨.code,[47],.lblank,false,[],false⟩,some ([(42,(.other,false))],false),true,false,false,none,false,⟨.lcomment,some .internalNl,false,.lblank⟩⟩] (.node .leaf 612992761 [⟨⟨(.inside 1),[],.lblank,true,[],false⟩,false,true,[],some 3,some ⟨.code,[47],.lblank,false,[],false⟩,some ([(42,(.other,false))],false),true,false,false,none,false,⟨.lblank,some .internalNl,false,.lblank⟩⟩] .leaf))),(.node (.node (.node (.node .leaf 1148610975 [⟨⟨(.inside 1),[42],.lcode,false,[],false⟩,false,false,[],some 3,some ⟨.code,[47],.lcode,false,[],false⟩,some ([(42,(.other,false))],false),false,false,false,none,false,⟨.lcode,some (.own 2),false,.lblank⟩⟩] .leaf) 1167929803 [⟨⟨(.inside 1),[42],.lcomment,false,[],false⟩,false,false,[],some 3,some ⟨.code,[47],.lcode,false,[],false⟩,some ([(42,(.other,false))],false),true,false,false,none,false,⟨.lcomment,some .internalNl,false,.lblank⟩⟩] .leaf) 1169138663 [⟨⟨(.inside 1),[42],.lcomment,false,[],false⟩,false,false,[],some 3,some ⟨.code,[47],.lcomment,false,[],false⟩,some ([(42,(.other,false))],false),false,false,false,none,false,⟨.lcomment,some (.own 2),false,.lblank⟩⟩] (.node .leaf 1169138671 [⟨⟨(.inside 1),[42],.lcomment,false,[],false⟩,false,false,[],some 3,some ⟨.code,[47],.lcomment,false,[],false⟩,some ([(42,(.other,false))],false),true,false,false,none,false,⟨.lcomment,some .internalNl,false,.lblank⟩⟩] .leaf)) 1170347531 [⟨⟨(.inside 1),[42],.lcomment,false,[],false⟩,false,false,[],some 3,some ⟨.code,[47],.lblank,false,[],false⟩,some ([(42,(.other,false))],false),false,false,false,none,false,⟨.lcomment,some (.own 2),false,.lblank⟩⟩] (.node (.node (.node .leaf 1170347539 [⟨⟨(.inside 1),[42],.lcomment,false,[],false⟩,false,false,[],some 3,some ⟨.code,[47],.lblank,false,[],false⟩,some ([(42,(.other,false))],false),true,false,false,none,false,⟨.lcomment,some .internalNl,false,.lblank⟩⟩] .leaf) 1187248111 [⟨⟨(.inside 1),[42],.lblank,false,[],false⟩,false,false,[],some 3,some ⟨.code,[47],.lcode,false,[],false⟩,some ([(42,(.other,false))],false),true,false,false,none,false,⟨.lcomment,some .internalNl,false,.lblank⟩⟩] .leaf) 1188456979 [⟨⟨(.inside 1),[42],.lblank,false,[],false⟩,false,false,[],some 3,some ⟨.code,[47],.lcomment,false,[],false⟩,some ([(42,(.other,false))],false),true,false,false,none,false,⟨.lcomment,some .internalNl,false,.lblank⟩⟩] (.node .leaf 1189665847 [⟨⟨(.inside 1),[42],.lblank,false,[],false⟩,false,false,[],some 3,some ⟨.code,[47],.lblank,false,[],false⟩,some ([(42,(.other,false))],false),true,false,false,none,false,⟨.lcomment,some .internalNl,false,.lblank⟩⟩] .leaf))),(.node (.node .leaf 1179872 [⟨⟨(.inside 0),[],.lcode,false,[],false⟩,false,false,[],none,none,none,false,false,false,none,false,⟨.lcode,some (.own 2),false,.lblank⟩⟩] .leaf) 1327852 [⟨⟨(.inside 0),[],.lcomment,false,[],false⟩,false,false,[],none,none,none,false,false,false,none,false,⟨.lcomment,some (.own 2),false,.lblank⟩⟩,⟨⟨(.inside 0),[],.lcomment,false,[],false⟩,false,false,[],none,none,none,false,false,false,none,false,⟨.lcomment,some .internalNl,false,.lblank⟩⟩] .leaf),(.node (.node .leaf 1179872 [⟨⟨(.inside 0),[],.lcode,false,[],false⟩,false,false,[],none,none,none,false,false,false,none,false,⟨.lcode,some (.own 2),false,.lblank⟩⟩] .leaf) 1327852 [⟨⟨(.inside 0),[],.lcomment,false,[],false⟩,false,false,[],none,none,none,false,false,false,none,false,⟨.lcomment,some (.own 2),false,.lblank⟩⟩,⟨⟨(.inside 0),[],.lcomment,false,[],false⟩,false,false,[],none,none,none,false,false,false,none,false,⟨.lcomment,some .internalNl,false,.lblank⟩⟩] (.node .leaf 1475832 [⟨⟨(.inside 0),[],.lblank,false,[],false⟩,false,false,[],none,none,none,false,false,false,none,false,⟨.lblank,some .internalNl,false,.lblank⟩⟩] .leaf)),(.node (.node (.node .leaf 157975223 [⟨⟨(.inside 0),[92],.lcode,false,[],false⟩,false,false,[],none,none,none,false,false,false,none,false,⟨.lcode,some (.own 2),false,.lblank⟩⟩] .leaf) 177294043 [⟨⟨(.inside 0),[92],.lcomment,false,[],false⟩,false,false,[],none,none,none,false,false,false,none,false,⟨.lcomment,some (.own 2),false,.lblank⟩⟩,⟨⟨(.inside 0),[92],.lcomment,false,[],false⟩,false,false,[],none,none,none,false,false,false,none,false,⟨.lcomment,some .internalNl,false,.lblank⟩⟩] .leaf) 196612351 [⟨⟨(.inside 0),[92],.lblank,false,[],false⟩,false,false,[],none,none,none,false,false,false,none,false,⟨.lcomment,some .internalNl,false,.lblank⟩⟩] (.node .leaf 351158815 [⟨⟨(.escapedCr 0),[92],.lblank,false,[],false⟩,false,false,[],none,none,none,false,false,false,none,false,⟨.lcomment,some .internalNl,false,.lblank⟩⟩] .leaf)),(.node (.node (.node (.node .leaf 610279041 [⟨⟨(.inside 1),[],.lcode,true,[],false⟩,false,false,[],some 3,some ⟨.code,[47],.lcode,false,[],false⟩,some ([(42,(.other,false))],false),false,false,false,none,false,⟨.lcode,some (.own 2),false,.lblank⟩⟩] .leaf) 610427029 [⟨⟨(.inside 1),[],.lcomment,true,[],false⟩,false,false,[],some 3,some ⟨.code,[47],.lcode,false,[],false⟩,some ([(42,(.other,false))],false),true,false,false,none,false,⟨.lcomment,some .internalNl,false,.lblank⟩⟩] .leaf) 610575009 [⟨⟨(.inside 1),[],.lblank,true,[],false⟩,false,false,[],some 3,some ⟨.code,[47],.lcode,false,[],false⟩,some ([(42,(.other,false))],false),true,false,false,none,false,⟨.lblank,some .internalNl,false,.lblank⟩⟩] (.node .leaf 611635889 [⟨⟨(.inside 1),[],.lcomment,true,[],false⟩,false,false,[],some 3,some ⟨.code,[47],.lcomment,false,[],false⟩,some ([(42,(.other,false))],false),false,false,false,none,false,⟨.lcomment,some (.own 2),false,.lblank⟩⟩] .leaf)) 611635897 [⟨⟨(.inside 1),[],.lcomment,true,[],false⟩,false,false,[],some 3,some ⟨.code,[47],.lcomment,false,[],false⟩,some ([(42,(.other,false))],false),true,false,false,none,false,⟨.lcomment,some .internalNl,false,.lblank⟩⟩] (.node (.node (.node .leaf 611783877 [⟨⟨(.inside 1),[],.lblank,true,[],false⟩,false,false,[],some 3,some ⟨.code,[47],.lcomment,false,[],false⟩,some ([(42,(.other,false))],false),true,false,false,none,false,⟨.lblank,some .internalNl,false,.lblank⟩⟩] .leaf) 612844757 [⟨⟨(.inside 1),[],.lcomment,true,[],false⟩,false,false,[],some 3,some ⟨.code,[47],.lblank,false,[],false⟩,some ([(42,(.other,false))],false),false,false,false,none,false,⟨.lcomment,some (.own 2),false,.lblank⟩⟩] .leaf) 612844765 [⟨⟨(.inside 1),[],.lcomment,true,[],false⟩,false,false,[],some 3,some ⟨.code,[47],.lblank,false,[],false⟩,some ([(42,(.other,false))],false),true,false,false,none,false,⟨.lcomment,some .internalNl,false,.lblank⟩⟩] (.node .leaf 612992745 [⟨⟨(.inside 1),[],.lblank,true,[],false⟩,false,false,[],some 3,some ⟨.code,[47],.lblank,false,[],false⟩,some ([(42,(.other,false))],false),true,false,false,none,false,⟨.lblank,some .internalNl,false,.lblank⟩⟩] .leaf))),.leaf,(.node (.node .leaf 1216739 [⟨⟨(.inside 0),[],.lcode,true,[],false⟩,false,false,[],none,none,none,false,false,false,none,false,⟨.lcode,some (.own 2),false,.lblank⟩⟩] .leaf) 1364719 [⟨⟨(.inside 0),[],.lcomment,true,[],false⟩,false,false,[],none,none,none,false,false,false,none,false,⟨.lcomment,some (.own 2),false,.lblank⟩⟩,⟨⟨(.inside 0),[],.lcomment,true,[],false⟩,false,false,[],none,none,none,false,false,false,none,false,⟨.lcomment,some .internalNl,false,.lblank⟩⟩] .leaf),(.node (.node .leaf 1216739 [⟨⟨(.inside 0),[],.lcode,true,[],false⟩,false,false,[],none,none,none,false,false,false,none,false,⟨.lcode,some (.own 2),false,.lblank⟩⟩] .leaf) 1364719 [⟨⟨(.inside 0),[],.lcomment,true,[],false⟩,false,false,[],none,none,none,false,false,false,none,false,⟨.lcomment,some (.own 2),false,.lblank⟩⟩,⟨⟨(.inside 0),[],.lcomment,true,[],false⟩,false,false,[],none,none,none,false,false,false,none,false,⟨.lcomment,some .internalNl,false,.lblank⟩⟩] .leaf),(.node (.node (.node .leaf 560246981 [⟨⟨(.escapedCr 0),[],.lcode,false,[],false⟩,true,false,[],some 1,some ⟨(.inside 0),[92],.lcode,false,[],false⟩,some ([(13,(.cr,false))],false),false,false,false,none,false,⟨.lcode,some (.own 2),false,.lblank⟩⟩] .leaf) 561603829 [⟨⟨(.escapedCr 0),[],.lcomment,false,[],false⟩,true,false,[],some 1,some ⟨(.inside 0),[92],.lcomment,false,[],false⟩,some ([(13,(.cr,false))],false),false,false,false,none,false,⟨.lcomment,some (.own 2),false,.lblank⟩⟩,⟨⟨(.escapedCr 0),[],.lcomment,false,[],false⟩,true,false,[],some 1,some ⟨(.inside 0),[92],.lcomment,false,[],false⟩,some ([(13,(.cr,false))],false),false,false,false,none,false,⟨.lcomment,some .internalNl,false,.lblank⟩⟩] .leaf) 562812697 [⟨⟨(.escapedCr 0),[],.lcomment,false,[],false⟩,true,false,[],some 1,some ⟨(.inside 0),[92],.lblank,false,[],false⟩,some ([(13,(.cr,false))],false),false,false,false,none,false,⟨.lcomment,some .internalNl,false,.lblank⟩⟩] (.node .leaf 572483641 [⟨⟨(.escapedCr 0),[],.lcomment,false,[],false⟩,true,false,[],some 1,some ⟨(.escapedCr 0),[92],.lblank,false,[],false⟩,some ([(13,(.cr,false))],false),false,false,false,none,false,⟨.lcomment,some .internalNl,false,.lblank⟩⟩] .leaf)),(.node (.node .leaf 2396499 [⟨⟨(.escapedCr 0),[],.lcode,true,[],false⟩,false,true,[],none,none,none,false,false,false,none,false,⟨.lcode,some (.own 2),false,.lblank⟩⟩] .leaf) 2544479 [⟨⟨(.escapedCr 0),[],.lcomment,true,[],false⟩,false,true,[],none,none,none,false,false,false,none,false,⟨.lcomment,some (.own 2),false,.lblank⟩⟩,⟨⟨(.escapedCr 0),[],.lcomment,true,[],false⟩,false,true,[],none,none,none,false,false,false,none,false,⟨.lcomment,some .internalNl,false,.lblank⟩⟩] .leaf),(.node (.node .leaf 1216739 [⟨⟨(.inside 0),[],.lcode,true,[],false⟩,false,false,[],none,none,none,false,false,false,none,false,⟨.lcode,some (.own 2),false,.lblank⟩⟩] .leaf) 1364719 [⟨⟨(.inside 0),[],.lcomment,true,[],false⟩,false,false,[],none,none,none,false,false,false,none,false,⟨.lcomment,some (.own 2),false,.lblank⟩⟩,⟨⟨(.inside 0),[],.lcomment,true,[],false⟩,false,false,[],none,none,none,false,false,false,none,false,⟨.lcomment,some .internalNl,false,.lblank⟩⟩] .leaf)]
theorem dart_line_lClosed : CA.closedF dart_line_M dart_line_lex true false dart_line_lfr dart_line_lTab = true := by decide +kernel
def dart_line_L : LCert LexisTable.dart_line dart_line_M := dart_line_lex_eq ▸ ⟨⟨dart_line_lmasks, dart_line_lex.rel, dart_line_lcs, dart_line_lrows, dart_line_lmasksIn, dart_line_lrepOk, dart_line_lrowsOk⟩,
  _, rfl, by decide +kernel, by decide +kernel, true, false, CA.closed_of dart_line_lfrOk dart_line_lClosed⟩
theorem dart_line_L_chk : dart_line_L.chk = true := by
  have : ∀ (l : Lexis) (h : LexisTable.dart_line = l) (C : LCert l dart_line_M), (h ▸ C : LCert LexisTable.dart_line dart_line_M).chk = C.chk := by rintro _ rfl _; rfl
  exact this _ dart_line_lex_eq _

def sb_line_lex : Lexis := [⟨[39],[],.lcomment,false,false,false,true,false,false,true,false,none,false,false,false,false,[]⟩,⟨[114,101,109],[],.lcomment,false,false,false,true,false,false,true,false,none,false,false,false,false,[]⟩,⟨[82,101,109],[],.lcomment,false,false,false,true,false,false,true,false,none,false,false,false,false,[]⟩,⟨[114,69,109],[],.lcomment,false,false,false,true,false,false,true,false,none,false,false,false,false,[]⟩,⟨[82,69,109],[],.lcomment,false,false,false,true,false,false,true,false,none,false,false,false,false,[]⟩,⟨[114,101,77],[],.lcomment,false,false,false,true,false,false,true,false,none,false,false,false,false,[]⟩,⟨[82,101,77],[],.lcomment,false,false,false,true,false,false,true,false,none,false,false,false,false,[]⟩,⟨[114,69,77],[],.lcomment,false,false,false,true,false,false,true,false,none,false,false,false,false,[]⟩,⟨[82,69,77],[],.lcomment,false,false,false,true,false,false,true,false,none,false,false,false,false,[]⟩,⟨[34],[[34]],.lcode,false,true,true,true,false,false,true,false,none,false,false,false,false,[]⟩]
theorem sb_line_lex_eq : LexisTable.sb_line = sb_line_lex := by decide +kernel
def sb_line_lmasks : List Nat := [4294967808,549755813888,20769187438975013792580502015705088,17179869184,8192,1024,4096,115792089237316195423570985008687907853269984665640564039457584007908834656767,115792089237316195423570985008687907853269984665640564039457584007913129626623,2535301201046754613352112062464,649037107467969181018140687990784,115792089237316195423570985008687907853269984665635612279300442486796353260543,4951760157141521099596496896,20769187434139310514121985316880384,2535301200456458802993406410752,649037107316853453566312041152512,4835703278458516698824704,590295810358705651712,151115727451828646838272]
def sb_line_lcs : List (Nat × Nat) := [(0,115792089237316195423570985008687907853269963244875764635270714274247486718463),(9,4294967808),(10,1024),(11,2048),(12,4096),(13,8192),(34,17179869184),(39,549755813888),(69,590295810358705651712),(77,151115727451828646838272),(82,4835703278458516698824704),(92,4951760157141521099596496896),(101,2535301200456458802993406410752),(109,649037107316853453566312041152512),(114,20769187434139310514121985316880384)]
theorem sb_line_lmasksIn : masksIn sb_line_nfa sb_line_lmasks = true := by decide +kernel
theorem sb_line_lrepOk : repOk sb_line_lmasks sb_line_lcs = true := by decide +kernel
def sb_line_lrows : List Row := [⟨[],none,[],[⟨256,.other,false,some ⟨0,[.setEnt (.own 3)],some 4,true⟩⟩,⟨256,.ws,false,some ⟨1,[.setEnt (.own 0)],some 0,false⟩⟩,⟨256,.lf,false,some ⟨0,[.setEnt .newline],some 3,true⟩⟩,⟨256,.vt,false,none⟩,⟨256,.ff,false,some ⟨0,[.setEnt .newline],some 3,true⟩⟩,⟨256,.cr,false,some ⟨2,[.setEnt .newline],none,false⟩⟩,⟨256,.cr,true,some ⟨3,[.setEnt .newline],some 3,false⟩⟩,⟨34,.other,false,some ⟨4,[.code,.setEnt (.own 3)],some 4,false⟩⟩,⟨39,.other,false,some ⟨5,[.comment,.setEnt (.own 3)],some 1,false⟩⟩,⟨69,.other,false,some ⟨0,[.setEnt (.own 3)],some 4,true⟩⟩,⟨77,.other,false,some ⟨0,[.setEnt (.own 3)],some 4,true⟩⟩,⟨82,.other,false,some ⟨6,[.setEnt (.own 3)],some 4,false⟩⟩,⟨92,.other,false,some ⟨0,[.setEnt (.own 3)],some 4,true⟩⟩,⟨101,.other,false,some ⟨0,[.setEnt (.own 3)],some 4,true⟩⟩,⟨109,.other,false,some ⟨0,[.setEnt (.own 3)],some 4,true⟩⟩,⟨114,.other,false,some ⟨6,[.setEnt (.own 3)],some 4,false⟩⟩]⟩,⟨[0],some 0,[],[⟨256,.other,false,none⟩,⟨256,.ws,false,some ⟨1,[.setEnt (.own 0)],some 0,false⟩⟩,⟨256,.lf,false,none⟩,⟨256,.vt,false,none⟩,⟨256,.ff,false,none⟩,⟨256,.cr,false,none⟩,⟨256,.cr,true,none⟩,⟨34,.other,false,none⟩,⟨39,.other,false,none⟩,⟨69,.other,false,none⟩,⟨77,.other,false,none⟩,⟨82,.other,false,none⟩,⟨92,.other,false,none⟩,⟨101,.other,false,none⟩,⟨109,.other,false,none⟩,⟨114,.other,false,none⟩]⟩,⟨[11],none,[],[⟨256,.other,false,none⟩,⟨256,.ws,false,none⟩,⟨256,.lf,false,some ⟨0,[.setEnt .newline],some 3,true⟩⟩,⟨256,.vt,false,none⟩,⟨256,.ff,false,none⟩,⟨256,.cr,false,none⟩,⟨256,.cr,true,none⟩,⟨34,.other,false,none⟩,⟨39,.other,false,none⟩,⟨69,.other,false,none⟩,⟨77,.other,false,none⟩,⟨82,.other,false,none⟩,⟨92,.other,false,none⟩,⟨101,.other,false,none⟩,⟨109,.other,false,none⟩,⟨114,.other,false,none⟩]⟩,⟨[11,15],some 3,[],[⟨256,.other,false,none⟩,⟨256,.ws,false,none⟩,⟨256,.lf,false,some ⟨0,[.setEnt .newline],some 3,true⟩⟩,⟨256,.vt,false,none⟩,⟨256,.ff,false,none⟩,⟨256,.cr,false,none⟩,⟨256,.cr,true,none⟩,⟨34,.other,false,none⟩,⟨39,.other,false,none⟩,⟨69,.other,false,none⟩,⟨77,.other,false,none⟩,⟨82,.other,false,none⟩,⟨92,.other,false,none⟩,⟨101,.other,false,none⟩,⟨109,.other,false,none⟩,⟨114,.other,false,none⟩]⟩,⟨[6,16],some 4,[],[⟨256,.other,false,some ⟨7,[],none,false⟩⟩,⟨256,.ws,false,some ⟨7,[],none,false⟩⟩,⟨256,.lf,false,none⟩,⟨256,.vt,false,some ⟨7,[],none,false⟩⟩,⟨256,.ff,false,none⟩,⟨256,.cr,false,none⟩,⟨256,.cr,true,none⟩,⟨34,.other,false,some ⟨0,[],some 2,true⟩⟩,⟨39,.other,false,some ⟨7,[],none,false⟩⟩,⟨69,.other,false,some ⟨7,[],none,false⟩⟩,⟨77,.other,false,some ⟨7,[],none,false⟩⟩,⟨82,.other,false,some ⟨7,[],none,false⟩⟩,⟨92,.other,false,some ⟨8,[],none,false⟩⟩,⟨101,.other,false,some ⟨7,[],none,false⟩⟩,⟨109,.other,false,some ⟨7,[],none,false⟩⟩,⟨114,.other,false,some ⟨7,[],none,false⟩⟩]⟩,⟨[1,16],some 1,[],[⟨256,.other,false,some ⟨9,[],some 1,false⟩⟩,⟨256,.ws,false,some ⟨9,[],some 1,false⟩⟩,⟨256,.lf,false,none⟩,⟨256,.vt,false,some ⟨9,[],some 1,false⟩⟩,⟨256,.ff,false,none⟩,⟨256,.cr,false,none⟩,⟨256,.cr,true,none⟩,⟨34,.other,false,some ⟨9,[],some 1,false⟩⟩,⟨39,.other,false,some ⟨9,[],some 1,false⟩⟩,⟨69,.other,false,some ⟨9,[],some 1,false⟩⟩,⟨77,.other,false,some ⟨9,[],some 1,false⟩⟩,⟨82,.other,false,some ⟨9,[],some 1,false⟩⟩,⟨92,.other,false,some ⟨9,[],some 1,false⟩⟩,⟨101,.other,false,some ⟨9,[],some 1,false⟩⟩,⟨109,.other,false,some ⟨9,[],some 1,false⟩⟩,⟨114,.other,false,some ⟨9,[],some 1,false⟩⟩]⟩,⟨[2,16],some 4,[],[⟨256,.other,false,none⟩,⟨256,.ws,false,none⟩,⟨256,.lf,false,none⟩,⟨256,.vt,false,none⟩,⟨256,.ff,false,none⟩,⟨256,.cr,false,none⟩,⟨256,.cr,true,none⟩,⟨34,.other,false,none⟩,⟨39,.other,false,none⟩,⟨69,.other,false,some ⟨10,[],none,false⟩⟩,⟨77,.other,false,none⟩,⟨82,.other,false,none⟩,⟨92,.other,false,none⟩,⟨101,.other,false,some ⟨10,[],none,false⟩⟩,⟨109,.other,false,none⟩,⟨114,.other,false,none⟩]⟩,⟨[7],none,[],[⟨256,.other,false,some ⟨7,[],none,false⟩⟩,⟨256,.ws,false,some ⟨7,[],none,false⟩⟩,⟨256,.lf,false,none⟩,⟨256,.vt,false,some ⟨7,[],none,false⟩⟩,⟨256,.ff,false,none⟩,⟨256,.cr,false,none⟩,⟨256,.cr,true,none⟩,⟨34,.other,false,some ⟨0,[],some 2,true⟩⟩,⟨39,.other,false,some ⟨7,[],none,false⟩⟩,⟨69,.other,false,some ⟨7,[],none,false⟩⟩,⟨77,.other,false,some ⟨7,[],none,false⟩⟩,⟨82,.other,false,some ⟨7,[],none,false⟩⟩,⟨92,.other,false,some ⟨8,[],none,false⟩⟩,⟨101,.other,false,some ⟨7,[],none,false⟩⟩,⟨109,.other,false,some ⟨7,[],none,false⟩⟩,⟨114,.other,false,some ⟨7,[],none,false⟩⟩]⟩,⟨[8],none,[],[⟨256,.other,false,some ⟨11,[],none,false⟩⟩,⟨256,.ws,false,some ⟨11,[],none,false⟩⟩,⟨256,.lf,false,none⟩,⟨256,.vt,false,some ⟨11,[],none,false⟩⟩,⟨256,.ff,false,none⟩,⟨256,.cr,false,none⟩,⟨256,.cr,true,none⟩,⟨34,.other,false,some ⟨11,[],none,false⟩⟩,⟨39,.other,false,some ⟨11,[],none,false⟩⟩,⟨69,.other,false,some ⟨11,[],none,false⟩⟩,⟨77,.other,false,some ⟨11,[],none,false⟩⟩,⟨82,.other,false,some ⟨11,[],none,false⟩⟩,⟨92,.other,false,some ⟨11,[],none,false⟩⟩,⟨101,.other,false,some ⟨11,[],none,false⟩⟩,⟨109,.other,false,some ⟨11,[],none,false⟩⟩,⟨114,.other,false,some ⟨11,[],none,false⟩⟩]⟩,⟨[5],some 1,[],[⟨256,.other,false,some ⟨9,[],some 1,false⟩⟩,⟨256,.ws,false,some ⟨9,[],some 1,false⟩⟩,⟨256,.lf,false,none⟩,⟨256,.vt,false,some ⟨9,[],some 1,false⟩⟩,⟨256,.ff,false,none⟩,⟨256,.cr,false,none⟩,⟨256,.cr,true,none⟩,⟨34,.other,false,some ⟨9,[],some 1,false⟩⟩,⟨39,.other,false,some ⟨9,[],some 1,false⟩⟩,⟨69,.other,false,some ⟨9,[],some 1,false⟩⟩,⟨77,.other,false,some ⟨9,[],some 1,false⟩⟩,⟨82,.other,false,some ⟨9,[],some 1,false⟩⟩,⟨92,.other,false,some ⟨9,[],some 1,false⟩⟩,⟨101,.other,false,some ⟨9,[],some 1,false⟩⟩,⟨109,.other,false,some ⟨9,[],some 1,false⟩⟩,⟨114,.other,false,some ⟨9,[],some 1,false⟩⟩]⟩,⟨[3],none,[],[⟨256,.other,false,none⟩,⟨256,.ws,false,none⟩,⟨256,.lf,false,none⟩,⟨256,.vt,false,none⟩,⟨256,.ff,false,none⟩,⟨256,.cr,false,none⟩,⟨256,.cr,true,none⟩,⟨34,.other,false,none⟩,⟨39,.other,false,none⟩,⟨69,.other,false,none⟩,⟨77,.other,false,some ⟨12,[.comment],some 1,false⟩⟩,⟨82,.other,false,none⟩,⟨92,.other,false,none⟩,⟨101,.other,false,none⟩,⟨109,.other,false,some ⟨12,[.comment],some 1,false⟩⟩,⟨114,.other,false,none⟩]⟩,⟨[9],none,[],[⟨256,.other,false,some ⟨7,[],none,false⟩⟩,⟨256,.ws,false,some ⟨7,[],none,false⟩⟩,⟨256,.lf,false,none⟩,⟨256,.vt,false,some ⟨7,[],none,false⟩⟩,⟨256,.ff,false,none⟩,⟨256,.cr,false,none⟩,⟨256,.cr,true,none⟩,⟨34,.other,false,some ⟨0,[],some 2,true⟩⟩,⟨39,.other,false,some ⟨7,[],none,false⟩⟩,⟨69,.other,false,some ⟨7,[],none,false⟩⟩,⟨77,.other,false,some ⟨7,[],none,false⟩⟩,⟨82,.other,false,some ⟨7,[],none,false⟩⟩,⟨92,.other,false,some ⟨8,[],none,false⟩⟩,⟨101,.other,false,some ⟨7,[],none,false⟩⟩,⟨109,.other,false,some ⟨7,[],none,false⟩⟩,⟨114,.other,false,some ⟨7,[],none,false⟩⟩]⟩,⟨[4],some 1,[],[⟨256,.other,false,some ⟨9,[],some 1,false⟩⟩,⟨256,.ws,false,some ⟨9,[],some 1,false⟩⟩,⟨256,.lf,false,none⟩,⟨256,.vt,false,some ⟨9,[],some 1,false⟩⟩,⟨256,.ff,false,none⟩,⟨256,.cr,false,none⟩,⟨256,.cr,true,none⟩,⟨34,.other,false,some ⟨9,[],some 1,false⟩⟩,⟨39,.other,false,some ⟨9,[],some 1,false⟩⟩,⟨69,.other,false,some ⟨9,[],some 1,false⟩⟩,⟨77,.other,false,some ⟨9,[],some 1,false⟩⟩,⟨82,.other,false,some ⟨9,[],some 1,false⟩⟩,⟨92,.other,false,some ⟨9,[],some 1,false⟩⟩,⟨101,.other,false,some ⟨9,[],some 1,false⟩⟩,⟨109,.other,false,some ⟨9,[],some 1,false⟩⟩,⟨114,.other,false,some ⟨9,[],some 1,false⟩⟩]⟩]
theorem sb_line_lrowsOk : rowsOk sb_line_nfa sb_line_lex.rel (sb_line_lcs.map (·.1)) sb_line_lrows = true := by decide +kernel
def sb_line_lfr : List CA.FRow := [⟨true,none,[],[⟨256,.other,false,false,none,some ([.setEnt (.own 3)],(some 4,true))⟩,⟨9,.ws,false,false,some 1,some ([.setEnt (.own 0)],(some 0,false))⟩,⟨10,.lf,false,true,none,some ([.setEnt .newline],(some 3,true))⟩,⟨11,.vt,false,false,none,none⟩,⟨12,.ff,false,true,none,some ([.setEnt .newline],(some 3,true))⟩,⟨13,.cr,false,false,some 2,some ([.setEnt .newline],(none,false))⟩,⟨13,.cr,true,true,some 3,some ([.setEnt .newline],(some 3,false))⟩,⟨34,.other,false,false,some 4,some ([.code,.setEnt (.own 3)],(some 4,false))⟩,⟨39,.other,false,false,some 5,some ([.comment,.setEnt (.own 3)],(some 1,false))⟩,⟨69,.other,false,false,none,some ([.setEnt (.own 3)],(some 4,true))⟩,⟨77,.other,false,false,none,some ([.setEnt (.own 3)],(some 4,true))⟩,⟨82,.other,false,false,some 6,some ([.setEnt (.own 3)],(some 4,false))⟩,⟨92,.other,false,false,none,some ([.setEnt (.own 3)],(some 4,true))⟩,⟨101,.other,false,false,none,some ([.setEnt (.own 3)],(some 4,true))⟩,⟨109,.other,false,false,none,some ([.setEnt (.own 3)],(some 4,true))⟩,⟨114,.other,false,false,some 6,some ([.setEnt (.own 3)],(some 4,false))⟩]⟩,⟨false,some 0,[],[⟨256,.other,false,false,none,none⟩,⟨9,.ws,false,false,some 1,some ([.setEnt (.own 0)],(some 0,false))⟩,⟨10,.lf,false,true,none,none⟩,⟨11,.vt,false,false,none,none⟩,⟨12,.ff,false,true,none,none⟩,⟨13,.cr,false,false,none,none⟩,⟨13,.cr,true,true,none,none⟩,⟨34,.other,false,false,none,none⟩,⟨39,.other,false,false,none,none⟩,⟨69,.other,false,false,none,none⟩,⟨77,.other,false,false,none,none⟩,⟨82,.other,false,false,none,none⟩,⟨92,.other,false,false,none,none⟩,⟨101,.other,false,false,none,none⟩,⟨109,.other,false,false,none,none⟩,⟨114,.other,false,false,none,none⟩]⟩,⟨false,none,[],[⟨256,.other,false,false,none,none⟩,⟨9,.ws,false,false,none,none⟩,⟨10,.lf,false,true,none,some ([.setEnt .newline],(some 3,true))⟩,⟨11,.vt,false,false,none,none⟩,⟨12,.ff,false,true,none,none⟩,⟨13,.cr,false,false,none,none⟩,⟨13,.cr,true,true,none,none⟩,⟨34,.other,false,false,none,none⟩,⟨39,.other,false,false,none,none⟩,⟨69,.other,false,false,none,none⟩,⟨77,.other,false,false,none,none⟩,⟨82,.other,false,false,none,none⟩,⟨92,.other,false,false,none,none⟩,⟨101,.other,false,false,none,none⟩,⟨109,.other,false,false,none,none⟩,⟨114,.other,false,false,none,none⟩]⟩,⟨false,some 3,[],[⟨256,.other,false,false,none,none⟩,⟨9,.ws,false,false,none,none⟩,⟨10,.lf,false,true,none,some ([.setEnt .newline],(some 3,true))⟩,⟨11,.vt,false,false,none,none⟩,⟨12,.ff,false,true,none,none⟩,⟨13,.cr,false,false,none,none⟩,⟨13,.cr,true,true,none,none⟩,⟨34,.other,false,false,none,none⟩,⟨39,.other,false,false,none,none⟩,⟨69,.other,false,false,none,none⟩,⟨77,.other,false,false,none,none⟩,⟨82,.other,false,false,none,none⟩,⟨92,.other,false,false,none,none⟩,⟨101,.other,false,false,none,none⟩,⟨109,.other,false,false,none,none⟩,⟨114,.other,false,false,none,none⟩]⟩,⟨false,some 4,[],[⟨256,.other,false,false,some 7,some ([],(none,false))⟩,⟨9,.ws,false,false,some 7,some ([],(none,false))⟩,⟨10,.lf,false,true,none,none⟩,⟨11,.vt,false,false,some 7,some ([],(none,false))⟩,⟨12,.ff,false,true,none,none⟩,⟨13,.cr,false,false,none,none⟩,⟨13,.cr,true,true,none,none⟩,⟨34,.other,false,false,none,some ([],(some 2,true))⟩,⟨39,.other,false,false,some 7,some ([],(none,false))⟩,⟨69,.other,false,false,some 7,some ([],(none,false))⟩,⟨77,.other,false,false,some 7,some ([],(none,false))⟩,⟨82,.other,false,false,some 7,some ([],(none,false))⟩,⟨92,.other,false,false,some 8,some ([],(none,false))⟩,⟨101,.other,false,false,some 7,some ([],(none,false))⟩,⟨109,.other,false,false,some 7,some ([],(none,false))⟩,⟨114,.other,false,false,some 7,some ([],(none,false))⟩]⟩,⟨false,some 1,[],[⟨256,.other,false,false,some 9,some ([],(some 1,false))⟩,⟨9,.ws,false,false,some 9,some ([],(some 1,false))⟩,⟨10,.lf,false,true,none,none⟩,⟨11,.vt,false,false,some 9,some ([],(some 1,false))⟩,⟨12,.ff,false,true,none,none⟩,⟨13,.cr,false,false,none,none⟩,⟨13,.cr,true,true,none,none⟩,⟨34,.other,false,false,some 9,some ([],(some 1,false))⟩,⟨39,.other,false,false,some 9,some ([],(some 1,false))⟩,⟨69,.other,false,false,some 9,some ([],(some 1,false))⟩,⟨77,.other,false,false,some 9,some ([],(some 1,false))⟩,⟨82,.other,false,false,some 9,some ([],(some 1,false))⟩,⟨92,.other,false,false,some 9,some ([],(some 1,false))⟩,⟨101,.other,false,false,some 9,some ([],(some 1,false))⟩,⟨109,.other,false,false,some 9,some ([],(some 1,false))⟩,⟨114,.other,false,false,some 9,some ([],(some 1,false))⟩]⟩,⟨false,some 4,[],[⟨256,.other,false,false,none,none⟩,⟨9,.ws,false,false,none,none⟩,⟨10,.lf,false,true,none,none⟩,⟨11,.vt,false,false,none,none⟩,⟨12,.ff,false,true,none,none⟩,⟨13,.cr,false,false,none,none⟩,⟨13,.cr,true,true,none,none⟩,⟨34,.other,false,false,none,none⟩,⟨39,.other,false,false,none,none⟩,⟨69,.other,false,false,some 10,some ([],(none,false))⟩,⟨77,.other,false,false,none,none⟩,⟨82,.other,false,false,none,none⟩,⟨92,.other,false,false,none,none⟩,⟨101,.other,false,false,some 10,some ([],(none,false))⟩,⟨109,.other,false,false,none,none⟩,⟨114,.other,false,false,none,none⟩]⟩,⟨false,none,[],[⟨256,.other,false,false,some 7,some ([],(none,false))⟩,⟨9,.ws,false,false,some 7,some ([],(none,false))⟩,⟨10,.lf,false,true,none,none⟩,⟨11,.vt,false,false,some 7,some ([],(none,false))⟩,⟨12,.ff,false,true,none,none⟩,⟨13,.cr,false,false,none,none⟩,⟨13,.cr,true,true,none,none⟩,⟨34,.other,false,false,none,some ([],(some 2,true))⟩,⟨39,.other,false,false,some 7,some ([],(none,false))⟩,⟨69,.other,false,false,some 7,some ([],(none,false))⟩,⟨77,.other,false,false,some 7,some ([],(none,false))⟩,⟨82,.other,false,false,some 7,some ([],(none,false))⟩,⟨92,.other,false,false,some 8,some ([],(none,false))⟩,⟨101,.other,false,false,some 7,some ([],(none,false))⟩,⟨109,.other,false,false,some 7,some ([],(none,false))⟩,⟨114,.other,false,false,some 7,some ([],(none,false))⟩]⟩,⟨false,none,[],[⟨256,.other,false,false,some 11,some ([],(none,false))⟩,⟨9,.ws,false,false,some 11,some ([],(none,false))⟩,⟨10,.lf,false,true,none,none⟩,⟨11,.vt,false,false,some 11,some ([],(none,false))⟩,⟨12,.ff,false,true,none,none⟩,⟨13,.cr,false,false,none,none⟩,⟨13,.cr,true,true,none,none⟩,⟨34,.other,false,false,some 11,some ([],(none,false))⟩,⟨39,.other,false,false,some 11,some ([],(none,false))⟩,⟨69,.other,false,false,some 11,some ([],(none,false))⟩,⟨77,.other,false,false,some 11,some ([],(none,false))⟩,⟨82,.other,false,false,some 11,some ([],(none,false))⟩,⟨92,.other,false,false,some 11,some ([],(none,false))⟩,⟨101,.other,false,false,some 11,some ([],(none,false))⟩,⟨109,.other,false,false,some 11,some ([],(none,false))⟩,⟨114,.other,false,false,some 11,some ([],(none,false))⟩]⟩,⟨false,some 1,[],[⟨256,.other,false,false,some 9,some ([],(some 1,false))⟩,⟨9,.ws,false,false,some 9,some ([],(some 1,false))⟩,⟨10,.lf,false,true,none,none⟩,⟨11,.vt,false,false,some 9,some ([],(some 1,false))⟩,⟨12,.ff,false,true,none,none⟩,⟨13,.cr,false,false,none,none⟩,⟨13,.cr,true,true,none,none⟩,⟨34,.other,false,false,some 9,some ([],(some 1,false))⟩,⟨39,.other,false,false,some 9,some ([],(some 1,false))⟩,⟨69,.other,false,false,some 9,some ([],(some 1,false))⟩,⟨77,.other,false,false,some 9,some ([],(some 1,false))⟩,⟨82,.other,false,false,some 9,some ([],(some 1,false))⟩,⟨92,.other,false,false,some 9,some ([],(some 1,false))⟩,⟨101,.other,false,false,some 9,some ([],(some 1,false))⟩,⟨109,.other,false,false,some 9,some ([],(some 1,false))⟩,⟨114,.other,false,false,some 9,some ([],(some 1,false))⟩]⟩,⟨false,none,[],[⟨256,.other,false,false,none,none⟩,⟨9,.ws,false,false,none,none⟩,⟨10,.lf,false,true,none,none⟩,⟨11,.vt,false,false,none,none⟩,⟨12,.ff,false,true,none,none⟩,⟨13,.cr,false,false,none,none⟩,⟨13,.cr,true,true,none,none⟩,⟨34,.other,false,false,none,none⟩,⟨39,.other,false,false,none,none⟩,⟨69,.other,false,false,none,none⟩,⟨77,.other,false,false,some 12,some ([.comment],(some 1,false))⟩,⟨82,.other,false,false,none,none⟩,⟨92,.other,false,false,none,none⟩,⟨101,.other,false,false,none,none⟩,⟨109,.other,false,false,some 12,some ([.comment],(some 1,false))⟩,⟨114,.other,false,false,none,none⟩]⟩,⟨false,none,[],[⟨256,.other,false,false,some 7,some ([],(none,false))⟩,⟨9,.ws,false,false,some 7,some ([],(none,false))⟩,⟨10,.lf,false,true,none,none⟩,⟨11,.vt,false,false,some 7,some ([],(none,false))⟩,⟨12,.ff,false,true,none,none⟩,⟨13,.cr,false,false,none,none⟩,⟨13,.cr,true,true,none,none⟩,⟨34,.other,false,false,none,some ([],(some 2,true))⟩,⟨39,.other,false,false,some 7,some ([],(none,false))⟩,⟨69,.other,false,false,some 7,some ([],(none,false))⟩,⟨77,.other,false,false,some 7,some ([],(none,false))⟩,⟨82,.other,false,false,some 7,some ([],(none,false))⟩,⟨92,.other,false,false,some 8,some ([],(none,false))⟩,⟨101,.other,false,false,some 7,some ([],(none,false))⟩,⟨109,.other,false,false,some 7,some ([],(none,false))⟩,⟨114,.other,false,false,some 7,some ([],(none,false))⟩]⟩,⟨false,some 1,[],[⟨256,.other,false,false,some 9,some ([],(some 1,false))⟩,⟨9,.ws,false,false,some 9,some ([],(some 1,false))⟩,⟨10,.lf,false,true,none,none⟩,⟨11,.vt,false,false,some 9,some ([],(some 1,false))⟩,⟨12,.ff,false,true,none,none⟩,⟨13,.cr,false,false,none,none⟩,⟨13,.cr,true,true,none,none⟩,⟨34,.other,false,false,some 9,some ([],(some 1,false))⟩,⟨39,.other,false,false,some 9,some ([],(some 1,false))⟩,⟨69,.other,false,false,some 9,some ([],(some 1,false))⟩,⟨77,.other,false,false,some 9,some ([],(some 1,false))⟩,⟨82,.other,false,false,some 9,some ([],(some 1,false))⟩,⟨92,.other,false,false,some 9,some ([],(some 1,false))⟩,⟨101,.other,false,false,some 9,some ([],(some 1,false))⟩,⟨109,.other,false,false,some 9,some ([],(some 1,false))⟩,⟨114,.other,false,false,some 9,some ([],(some 1,false))⟩]⟩]
theorem sb_line_lfrOk : sb_line_lrows.map (CA.prep sb_line_lex) = sb_line_lfr := by decide +kernel
def sb_line_lTab : List CT := [(.node (.node (.node (.node (.node (.node (.node (.node (.node (.node .leaf 128 [⟨⟨.code,[],.lcode,false,[],false⟩,false,false,[],none,none,none,false,false,false,none,false,⟨.lcode,none,false,.lblank⟩⟩] .leaf) 38019 [⟨⟨.code,[],.lcode,true,[],false⟩,false,false,[],none,none,none,false,false,false,none,false,⟨.lblank,none,false,.lblank⟩⟩] .leaf) 185487 [⟨⟨.code,[],.lcomment,true,[],false⟩,false,false,[],none,none,none,false,false,false,none,false,⟨.lblank,none,false,.lblank⟩⟩] (.node (.node .leaf 296088 [⟨⟨.code,[],.lblank,false,[],false⟩,false,false,[],none,none,none,false,false,false,none,false,⟨.lblank,none,false,.lblank⟩⟩] .leaf) 332955 [⟨⟨.code,[],.lblank,true,[],false⟩,false,false,[],none,none,none,false,false,false,none,false,⟨.lblank,none,false,.lblank⟩⟩] .leaf)) 786624 [⟨⟨.code,[],.lcode,false,[(9,0)],false⟩,false,false,[],none,none,none,false,false,false,none,false,⟨.lcode,none,false,.lblank⟩⟩] (.node (.node (.node .leaf 798913 [⟨⟨.code,[],.lcode,false,[(9,1)],false⟩,false,false,[],none,none,none,false,false,false,none,false,⟨.lcode,none,false,.lblank⟩⟩] .leaf) 1179872 [⟨⟨(.inside 0),[],.lcode,false,[],false⟩,false,false,[none],none,none,none,false,false,false,none,false,⟨.lcode,none,false,.lblank⟩⟩] .leaf) 1327852 [⟨⟨(.inside 0),[],.lcomment,false,[],false⟩,false,false,[none],none,none,none,false,false,false,none,false,⟨.lcomment,none,false,.lblank⟩⟩] (.node (.node .leaf 3060089 [⟨⟨.code,[82],.lcode,false,[],false⟩,false,false,[none],none,none,none,false,false,false,none,false,⟨.lcode,none,false,.lblank⟩⟩] .leaf) 4129232 [⟨⟨(.inside 1),[],.lcode,false,[],false⟩,false,false,[none],none,none,none,false,false,false,none,false,⟨.lcode,none,false,.lblank⟩⟩] .leaf))) 4239833 [⟨⟨.code,[114],.lcode,false,[],false⟩,false,false,[none],none,none,none,false,false,false,none,false,⟨.lcode,none,false,.lblank⟩⟩] (.node (.node (.node (.node .leaf 4277212 [⟨⟨(.inside 1),[],.lcomment,false,[],false⟩,false,false,[none],none,none,none,false,false,false,none,false,⟨.lcomment,none,false,.lblank⟩⟩] .leaf) 7078592 [⟨⟨(.inside 2),[],.lcode,false,[],false⟩,false,false,[none],none,none,none,false,false,false,none,false,⟨.lcode,none,false,.lblank⟩⟩] .leaf) 7226572 [⟨⟨(.inside 2),[],.lcomment,false,[],false⟩,false,false,[none],none,none,none,false,false,false,none,false,⟨.lcomment,none,false,.lblank⟩⟩] (.node (.node .leaf 10027952 [⟨⟨(.inside 3),[],.lcode,false,[],false⟩,false,false,[none],none,none,none,false,false,false,none,false,⟨.lcode,none,false,.lblank⟩⟩] .leaf) 10175932 [⟨⟨(.inside 3),[],.lcomment,false,[],false⟩,false,false,[none],none,none,none,false,false,false,none,false,⟨.lcomment,none,false,.lblank⟩⟩] .leaf)) 12977312 [⟨⟨(.inside 4),[],.lcode,false,[],false⟩,false,false,[none],none,none,none,false,false,false,none,false,⟨.lcode,none,false,.lblank⟩⟩] (.node (.node (.node .leaf 13125292 [⟨⟨(.inside 4),[],.lcomment,false,[],false⟩,false,false,[none],none,none,none,false,false,false,none,false,⟨.lcomment,none,false,.lblank⟩⟩] .leaf) 15926672 [⟨⟨(.inside 5),[],.lcode,false,[],false⟩,false,false,[none],none,none,none,false,false,false,none,false,⟨.lcode,none,false,.lblank⟩⟩] .leaf) 16074652 [⟨⟨(.inside 5),[],.lcomment,false,[],false⟩,false,false,[none],none,none,none,false,false,false,none,false,⟨.lcomment,none,false,.lblank⟩⟩] (.node .leaf 18876032 [⟨⟨(.inside 6),[],.lcode,false,[],false⟩,false,false,[none],none,none,none,false,false,false,none,false,⟨.lcode,none,false,.lblank⟩⟩] .leaf)))) 19024012 [⟨⟨(.inside 6),[],.lcomment,false,[],false⟩,false,false,[none],none,none,none,false,false,false,none,false,⟨.lcomment,none,false,.lblank⟩⟩] (.node (.node (.node (.node (.node .leaf 21825392 [⟨⟨(.inside 7),[],.lcode,false,[],false⟩,false,false,[none],none,none,none,false,false,false,none,false,⟨.lcode,none,false,.lblank⟩⟩] .leaf) 21973372 [⟨⟨(.inside 7),[],.lcomment,false,[],false⟩,false,false,[none],none,none,none,false,false,false,none,false,⟨.lcomment,none,false,.lblank⟩⟩] .leaf) 22060146 [⟨⟨.code,[82],.lcode,false,[],false⟩,false,false,[some (9,(.ws,false))],none,none,none,false,false,false,none,false,⟨.lcode,none,false,.lblank⟩⟩] (.node (.node .leaf 22179935 [⟨⟨(.inside 0),[],.lcode,false,[],false⟩,false,false,[some (10,(.lf,false))],none,none,none,false,false,false,none,false,⟨.lcode,none,false,.lblank⟩⟩] .leaf) 22327915 [⟨⟨(.inside 0),[],.lcomment,false,[],false⟩,false,false,[some (10,(.lf,false))],none,none,none,false,false,false,none,false,⟨.lcomment,none,false,.lblank⟩⟩] .leaf)) 23239890 [⟨⟨.code,[114],.lcode,false,[],false⟩,false,false,[some (9,(.ws,false))],none,none,none,false,false,false,none,false,⟨.lcode,none,false,.lblank⟩⟩] (.node (.node (.node .leaf 24060152 [⟨⟨.code,[82],.lcode,false,[],false⟩,false,false,[some (10,(.lf,false))],none,none,none,false,false,false,none,false,⟨.lcode,none,false,.lblank⟩⟩] .leaf) 24774752 [⟨⟨(.inside 8),[],.lcode,false,[],false⟩,false,false,[none],none,none,none,false,false,false,none,false,⟨.lcode,none,false,.lblank⟩⟩] .leaf) 24922732 [⟨⟨(.inside 8),[],.lcomment,false,[],false⟩,false,false,[none],none,none,none,false,false,false,none,false,⟨.lcomment,none,false,.lblank⟩⟩] (.node (.node .leaf 25129295 [⟨⟨(.inside 1),[],.lcode,false,[],false⟩,false,false,[some (10,(.lf,false))],none,none,none,false,false,false,none,false,⟨.lcode,none,false,.lblank⟩⟩] .leaf) 25239896 [⟨⟨.code,[114],.lcode,false,[],false⟩,false,false,[some (10,(.lf,false))],none,none,none,false,false,false,none,false,⟨.lcode,none,false,.lblank⟩⟩] .leaf))) 25277275 [⟨⟨(.inside 1),[],.lcomment,false,[],false⟩,false,false,[some (10,(.lf,false))],none,none,none,false,false,false,none,false,⟨.lcomment,none,false,.lblank⟩⟩] (.node (.node (.node (.node .leaf 26179947 [⟨⟨(.inside 0),[],.lcode,false,[],false⟩,false,false,[some (12,(.ff,false))],none,none,none,false,false,false,none,false,⟨.lcode,none,false,.lblank⟩⟩] .leaf) 26327927 [⟨⟨(.inside 0),[],.lcomment,false,[],false⟩,false,false,[some (12,(.ff,false))],none,none,none,false,false,false,none,false,⟨.lcomment,none,false,.lblank⟩⟩] .leaf) 28060164 [⟨⟨.code,[82],.lcode,false,[],false⟩,false,false,[some (12,(.ff,false))],none,none,none,false,false,false,none,false,⟨.lcode,none,false,.lblank⟩⟩] (.node (.node .leaf 28078655 [⟨⟨(.inside 2),[],.lcode,false,[],false⟩,false,false,[some (10,(.lf,false))],none,none,none,false,false,false,none,false,⟨.lcode,none,false,.lblank⟩⟩] .leaf) 28179953 [⟨⟨(.inside 0),[],.lcode,false,[],false⟩,false,false,[some (13,(.cr,false))],none,none,none,false,false,false,none,false,⟨.lcode,none,false,.lblank⟩⟩] .leaf)) 28226635 [⟨⟨(.inside 2),[],.lcomment,false,[],false⟩,false,false,[some (10,(.lf,false))],none,none,none,false,false,false,none,false,⟨.lcomment,none,false,.lblank⟩⟩] (.node (.node (.node .leaf 28327933 [⟨⟨(.inside 0),[],.lcomment,false,[],false⟩,false,false,[some (13,(.cr,false))],none,none,none,false,false,false,none,false,⟨.lcomment,none,false,.lblank⟩⟩] .leaf) 29129307 [⟨⟨(.inside 1),[],.lcode,false,[],false⟩,false,false,[some (12,(.ff,false))],none,none,none,false,false,false,none,false,⟨.lcode,none,false,.lblank⟩⟩] .leaf) 29179956 [⟨⟨(.inside 0),[],.lcode,false,[],false⟩,false,false,[some (13,(.cr,true))],none,none,none,false,false,false,none,false,⟨.lcode,none,false,.lblank⟩⟩] (.node .leaf 29239908 [⟨⟨.code,[114],.lcode,false,[],false⟩,false,false,[some (12,(.ff,false))],none,none,none,false,false,false,none,false,⟨.lcode,none,false,.lblank⟩⟩] .leaf))))) 29277287 [⟨⟨(.inside 1),[],.lcomment,false,[],false⟩,false,false,[some (12,(.ff,false))],none,none,none,false,false,false,none,false,⟨.lcomment,none,false,.lblank⟩⟩] (.node (.node (.node (.node (.node (.node .leaf 29327936 [⟨⟨(.inside 0),[],.lcomment,false,[],false⟩,false,false,[some (13,(.cr,true))],none,none,none,false,false,false,none,false,⟨.lcomment,none,false,.lblank⟩⟩] .leaf) 30060170 [⟨⟨.code,[82],.lcode,false,[],false⟩,false,false,[some (13,(.cr,false))],none,none,none,false,false,false,none,false,⟨.lcode,none,false,.lblank⟩⟩] .leaf) 31028015 [⟨⟨(.inside 3),[],.lcode,false,[],false⟩,false,false,[some (10,(.lf,false))],none,none,none,false,false,false,none,false,⟨.lcode,none,false,.lblank⟩⟩] (.node (.node .leaf 31060173 [⟨⟨.code,[82],.lcode,false,[],false⟩,false,false,[some (13,(.cr,true))],none,none,none,false,false,false,none,false,⟨.lcode,none,false,.lblank⟩⟩] .leaf) 31129313 [⟨⟨(.inside 1),[],.lcode,false,[],false⟩,false,false,[some (13,(.cr,false))],none,none,none,false,false,false,none,false,⟨.lcode,none,false,.lblank⟩⟩] .leaf)) 31175995 [⟨⟨(.inside 3),[],.lcomment,false,[],false⟩,false,false,[some (10,(.lf,false))],none,none,none,false,false,false,none,false,⟨.lcomment,none,false,.lblank⟩⟩] (.node (.node (.node .leaf 31239914 [⟨⟨.code,[114],.lcode,false,[],false⟩,false,false,[some (13,(.cr,false))],none,none,none,false,false,false,none,false,⟨.lcode,none,false,.lblank⟩⟩] .leaf) 31277293 [⟨⟨(.inside 1),[],.lcomment,false,[],false⟩,false,false,[some (13,(.cr,false))],none,none,none,false,false,false,none,false,⟨.lcomment,none,false,.lblank⟩⟩] .leaf) 32078667 [⟨⟨(.inside 2),[],.lcode,false,[],false⟩,false,false,[some (12,(.ff,false))],none,none,none,false,false,false,none,false,⟨.lcode,none,false,.lblank⟩⟩] (.node (.node .leaf 32129316 [⟨⟨(.inside 1),[],.lcode,false,[],false⟩,false,false,[some (13,(.cr,true))],none,none,none,false,false,false,none,false,⟨.lcode,none,false,.lblank⟩⟩] .leaf) 32226647 [⟨⟨(.inside 2),[],.lcomment,false,[],false⟩,false,false,[some (12,(.ff,false))],none,none,none,false,false,false,none,false,⟨.lcomment,none,false,.lblank⟩⟩] .leaf))) 32239917 [⟨⟨.code,[114],.lcode,false,[],false⟩,false,false,[some (13,(.cr,true))],none,none,none,false,false,false,none,false,⟨.lcode,none,false,.lblank⟩⟩] (.node (.node (.node (.node .leaf 32277296 [⟨⟨(.inside 1),[],.lcomment,false,[],false⟩,false,false,[some (13,(.cr,true))],none,none,none,false,false,false,none,false,⟨.lcomment,none,false,.lblank⟩⟩] .leaf) 33977375 [⟨⟨(.inside 4),[],.lcode,false,[],false⟩,false,false,[some (10,(.lf,false))],none,none,none,false,false,false,none,false,⟨.lcode,none,false,.lblank⟩⟩] .leaf) 34078673 [⟨⟨(.inside 2),[],.lcode,false,[],false⟩,false,false,[some (13,(.cr,false))],none,none,none,false,false,false,none,false,⟨.lcode,none,false,.lblank⟩⟩] (.node (.node .leaf 34125355 [⟨⟨(.inside 4),[],.lcomment,false,[],false⟩,false,false,[some (10,(.lf,false))],none,none,none,false,false,false,none,false,⟨.lcomment,none,false,.lblank⟩⟩] .leaf) 34226653 [⟨⟨(.inside 2),[],.lcomment,false,[],false⟩,false,false,[some (13,(.cr,false))],none,none,none,false,false,false,none,false,⟨.lcomment,none,false,.lblank⟩⟩] .leaf)) 35028027 [⟨⟨(.inside 3),[],.lcode,false,[],false⟩,false,false,[some (12,(.ff,false))],none,none,none,false,false,false,none,false,⟨.lcode,none,false,.lblank⟩⟩] (.node (.node (.node .leaf 35078676 [⟨⟨(.inside 2),[],.lcode,false,[],false⟩,false,false,[some (13,(.cr,true))],none,none,none,false,false,false,none,false,⟨.lcode,none,false,.lblank⟩⟩] .leaf) 35176007 [⟨⟨(.inside 3),[],.lcomment,false,[],false⟩,false,false,[some (12,(.ff,false))],none,none,none,false,false,false,none,false,⟨.lcomment,none,false,.lblank⟩⟩] .leaf) 35226656 [⟨⟨(.inside 2),[],.lcomment,false,[],false⟩,false,false,[some (13,(.cr,true))],none,none,none,false,false,false,none,false,⟨.lcomment,none,false,.lblank⟩⟩] (.node .leaf 36926735 [⟨⟨(.inside 5),[],.lcode,false,[],false⟩,false,false,[some (10,(.lf,false))],none,none,none,false,false,false,none,false,⟨.lcode,none,false,.lblank⟩⟩] .leaf)))) 37028033 [⟨⟨(.inside 3),[],.lcode,false,[],false⟩,false,false,[some (13,(.cr,false))],none,none,none,false,false,false,none,false,⟨.lcode,none,false,.lblank⟩⟩] (.node (.node (.node (.node (.node .leaf 37074715 [⟨⟨(.inside 5),[],.lcomment,false,[],false⟩,false,false,[some (10,(.lf,false))],none,none,none,false,false,false,none,false,⟨.lcomment,none,false,.lblank⟩⟩] .leaf) 37176013 [⟨⟨(.inside 3),[],.lcomment,false,[],false⟩,false,false,[some (13,(.cr,false))],none,none,none,false,false,false,none,false,⟨.lcomment,none,false,.lblank⟩⟩] .leaf) 37977387 [⟨⟨(.inside 4),[],.lcode,false,[],false⟩,false,false,[some (12,(.ff,false))],none,none,none,false,false,false,none,false,⟨.lcode,none,false,.lblank⟩⟩] (.node (.node .leaf 38028036 [⟨⟨(.inside 3),[],.lcode,false,[],false⟩,false,false,[some (13,(.cr,true))],none,none,none,false,false,false,none,false,⟨.lcode,none,false,.lblank⟩⟩] .leaf) 38125367 [⟨⟨(.inside 4),[],.lcomment,false,[],false⟩,false,false,[some (12,(.ff,false))],none,none,none,false,false,false,none,false,⟨.lcomment,none,false,.lblank⟩⟩] .leaf)) 38176016 [⟨⟨(.inside 3),[],.lcomment,false,[],false⟩,false,false,[some (13,(.cr,true))],none,none,none,false,false,false,none,false,⟨.lcomment,none,false,.lblank⟩⟩] (.node (.node (.node .leaf 39876095 [⟨⟨(.inside 6),[],.lcode,false,[],false⟩,false,false,[some (10,(.lf,false))],none,none,none,false,false,false,none,false,⟨.lcode,none,false,.lblank⟩⟩] .leaf) 39977393 [⟨⟨(.inside 4),[],.lcode,false,[],false⟩,false,false,[some (13,(.cr,false))],none,none,none,false,false,false,none,false,⟨.lcode,none,false,.lblank⟩⟩] .leaf) 40024075 [⟨⟨(.inside 6),[],.lcomment,false,[],false⟩,false,false,[some (10,(.lf,false))],none,none,none,false,false,false,none,false,⟨.lcomment,none,false,.lblank⟩⟩] (.node .leaf 40125373 [⟨⟨(.inside 4),[],.lcomment,false,[],false⟩,false,false,[some (13,(.cr,false))],none,none,none,false,false,false,none,false,⟨.lcomment,none,false,.lblank⟩⟩] .leaf))) 40926747 [⟨⟨(.inside 5),[],.lcode,false,[],false⟩,false,false,[some (12,(.ff,false))],none,none,none,false,false,false,none,false,⟨.lcode,none,false,.lblank⟩⟩] (.node (.node (.node (.node .leaf 40977396 [⟨⟨(.inside 4),[],.lcode,false,[],false⟩,false,false,[some (13,(.cr,true))],none,none,none,false,false,false,none,false,⟨.lcode,none,false,.lblank⟩⟩] .leaf) 41074727 [⟨⟨(.inside 5),[],.lcomment,false,[],false⟩,false,false,[some (12,(.ff,false))],none,none,none,false,false,false,none,false,⟨.lcomment,none,false,.lblank⟩⟩] .leaf) 41125376 [⟨⟨(.inside 4),[],.lcomment,false,[],false⟩,false,false,[some (13,(.cr,true))],none,none,none,false,false,false,none,false,⟨.lcomment,none,false,.lblank⟩⟩] (.node (.node .leaf 41696705 [⟨⟨.code,[82],.lblank,false,[],false⟩,false,false,[none],none,none,none,false,false,false,none,false,⟨.lcode,none,false,.lblank⟩⟩] .leaf) 42825455 [⟨⟨(.inside 7),[],.lcode,false,[],false⟩,false,false,[some (10,(.lf,false))],none,none,none,false,false,false,none,false,⟨.lcode,none,false,.lblank⟩⟩] .leaf)) 42876449 [⟨⟨.code,[114],.lblank,false,[],false⟩,false,false,[none],none,none,none,false,false,false,none,false,⟨.lcode,none,false,.lblank⟩⟩] (.node (.node (.node .leaf 42926753 [⟨⟨(.inside 5),[],.lcode,false,[],false⟩,false,false,[some (13,(.cr,false))],none,none,none,false,false,false,none,false,⟨.lcode,none,false,.lblank⟩⟩] .leaf) 42973435 [⟨⟨(.inside 7),[],.lcomment,false,[],false⟩,false,false,[some (10,(.lf,false))],none,none,none,false,false,false,none,false,⟨.lcomment,none,false,.lblank⟩⟩] .leaf) 43074733 [⟨⟨(.inside 5),[],.lcomment,false,[],false⟩,false,false,[some (13,(.cr,false))],none,none,none,false,false,false,none,false,⟨.lcomment,none,false,.lblank⟩⟩] (.node .leaf 43876107 [⟨⟨(.inside 6),[],.lcode,false,[],false⟩,false,false,[some (12,(.ff,false))],none,none,none,false,false,false,none,false,⟨.lcode,none,false,.lblank⟩⟩] .leaf)))))) 43926756 [⟨⟨(.inside 5),[],.lcode,false,[],false⟩,false,false,[some (13,(.cr,true))],none,none,none,false,false,false,none,false,⟨.lcode,none,false,.lblank⟩⟩] (.node (.node (.node (.node (.node (.node (.node .leaf 44024087 [⟨⟨(.inside 6),[],.lcomment,false,[],false⟩,false,false,[some (12,(.ff,false))],none,none,none,false,false,false,none,false,⟨.lcomment,none,false,.lblank⟩⟩] .leaf) 44074736 [⟨⟨(.inside 5),[],.lcomment,false,[],false⟩,false,false,[some (13,(.cr,true))],none,none,none,false,false,false,none,false,⟨.lcomment,none,false,.lblank⟩⟩] .leaf) 45774815 [⟨⟨(.inside 8),[],.lcode,false,[],false⟩,false,false,[some (10,(.lf,false))],none,none,none,false,false,false,none,false,⟨.lcode,none,false,.lblank⟩⟩] (.node (.node .leaf 45876113 [⟨⟨(.inside 6),[],.lcode,false,[],false⟩,false,false,[some (13,(.cr,false))],none,none,none,false,false,false,none,false,⟨.lcode,none,false,.lblank⟩⟩] .leaf) 45922795 [⟨⟨(.inside 8),[],.lcomment,false,[],false⟩,false,false,[some (10,(.lf,false))],none,none,none,false,false,false,none,false,⟨.lcomment,none,false,.lblank⟩⟩] .leaf)) 46024093 [⟨⟨(.inside 6),[],.lcomment,false,[],false⟩,false,false,[some (13,(.cr,false))],none,none,none,false,false,false,none,false,⟨.lcomment,none,false,.lblank⟩⟩] (.node (.node (.node .leaf 46825467 [⟨⟨(.inside 7),[],.lcode,false,[],false⟩,false,false,[some (12,(.ff,false))],none,none,none,false,false,false,none,false,⟨.lcode,none,false,.lblank⟩⟩] .leaf) 46876116 [⟨⟨(.inside 6),[],.lcode,false,[],false⟩,false,false,[some (13,(.cr,true))],none,none,none,false,false,false,none,false,⟨.lcode,none,false,.lblank⟩⟩] .leaf) 46973447 [⟨⟨(.inside 7),[],.lcomment,false,[],false⟩,false,false,[some (12,(.ff,false))],none,none,none,false,false,false,none,false,⟨.lcomment,none,false,.lblank⟩⟩] (.node (.node .leaf 47024096 [⟨⟨(.inside 6),[],.lcomment,false,[],false⟩,false,false,[some (13,(.cr,true))],none,none,none,false,false,false,none,false,⟨.lcomment,none,false,.lblank⟩⟩] .leaf) 48825473 [⟨⟨(.inside 7),[],.lcode,false,[],false⟩,false,false,[some (13,(.cr,false))],none,none,none,false,false,false,none,false,⟨.lcode,none,false,.lblank⟩⟩] .leaf))) 48973453 [⟨⟨(.inside 7),[],.lcomment,false,[],false⟩,false,false,[some (13,(.cr,false))],none,none,none,false,false,false,none,false,⟨.lcomment,none,false,.lblank⟩⟩] (.node (.node (.node (.node .leaf 49774827 [⟨⟨(.inside 8),[],.lcode,false,[],false⟩,false,false,[some (12,(.ff,false))],none,none,none,false,false,false,none,false,⟨.lcode,none,false,.lblank⟩⟩] .leaf) 49825476 [⟨⟨(.inside 7),[],.lcode,false,[],false⟩,false,false,[some (13,(.cr,true))],none,none,none,false,false,false,none,false,⟨.lcode,none,false,.lblank⟩⟩] .leaf) 49922807 [⟨⟨(.inside 8),[],.lcomment,false,[],false⟩,false,false,[some (12,(.ff,false))],none,none,none,false,false,false,none,false,⟨.lcomment,none,false,.lblank⟩⟩] (.node (.node .leaf 49973456 [⟨⟨(.inside 7),[],.lcomment,false,[],false⟩,false,false,[some (13,(.cr,true))],none,none,none,false,false,false,none,false,⟨.lcomment,none,false,.lblank⟩⟩] .leaf) 51774833 [⟨⟨(.inside 8),[],.lcode,false,[],false⟩,false,false,[some (13,(.cr,false))],none,none,none,false,false,false,none,false,⟨.lcode,none,false,.lblank⟩⟩] .leaf)) 51922813 [⟨⟨(.inside 8),[],.lcomment,false,[],false⟩,false,false,[some (13,(.cr,false))],none,none,none,false,false,false,none,false,⟨.lcomment,none,false,.lblank⟩⟩] (.node (.node (.node .leaf 52774836 [⟨⟨(.inside 8),[],.lcode,false,[],false⟩,false,false,[some (13,(.cr,true))],none,none,none,false,false,false,none,false,⟨.lcode,none,false,.lblank⟩⟩] .leaf) 52922816 [⟨⟨(.inside 8),[],.lcomment,false,[],false⟩,false,false,[some (13,(.cr,true))],none,none,none,false,false,false,none,false,⟨.lcomment,none,false,.lblank⟩⟩] .leaf) 60696762 [⟨⟨.code,[82],.lblank,false,[],false⟩,false,false,[some (9,(.ws,false))],none,none,none,false,false,false,none,false,⟨.lcode,none,false,.lblank⟩⟩] (.node .leaf 61876506 [⟨⟨.code,[114],.lblank,false,[],false⟩,false,false,[some (9,(.ws,false))],none,none,none,false,false,false,none,false,⟨.lcode,none,false,.lblank⟩⟩] .leaf)))) 62696768 [⟨⟨.code,[82],.lblank,false,[],false⟩,false,false,[some (10,(.lf,false))],none,none,none,false,false,false,none,false,⟨.lcode,none,false,.lblank⟩⟩] (.node (.node (.node (.node (.node .leaf 63876512 [⟨⟨.code,[114],.lblank,false,[],false⟩,false,false,[some (10,(.lf,false))],none,none,none,false,false,false,none,false,⟨.lcode,none,false,.lblank⟩⟩] .leaf) 66696780 [⟨⟨.code,[82],.lblank,false,[],false⟩,false,false,[some (12,(.ff,false))],none,none,none,false,false,false,none,false,⟨.lcode,none,false,.lblank⟩⟩] .leaf) 67876524 [⟨⟨.code,[114],.lblank,false,[],false⟩,false,false,[some (12,(.ff,false))],none,none,none,false,false,false,none,false,⟨.lcode,none,false,.lblank⟩⟩] (.node (.node .leaf 68696786 [⟨⟨.code,[82],.lblank,false,[],false⟩,false,false,[some (13,(.cr,false))],none,none,none,false,false,false,none,false,⟨.lcode,none,false,.lblank⟩⟩] .leaf) 69696789 [⟨⟨.code,[82],.lblank,false,[],false⟩,false,false,[some (13,(.cr,true))],none,none,none,false,false,false,none,false,⟨.lcode,none,false,.lblank⟩⟩] .leaf)) 69876530 [⟨⟨.code,[114],.lblank,false,[],false⟩,false,false,[some (13,(.cr,false))],none,none,none,false,false,false,none,false,⟨.lcode,none,false,.lblank⟩⟩] (.node (.node (.node .leaf 70876533 [⟨⟨.code,[114],.lblank,false,[],false⟩,false,false,[some (13,(.cr,true))],none,none,none,false,false,false,none,false,⟨.lcode,none,false,.lblank⟩⟩] .leaf) 72060296 [⟨⟨.code,[82],.lcode,false,[],false⟩,false,false,[some (34,(.other,false))],none,none,none,false,false,false,none,false,⟨.lcode,none,false,.lblank⟩⟩] .leaf) 73240040 [⟨⟨.code,[114],.lcode,false,[],false⟩,false,false,[some (34,(.other,false))],none,none,none,false,false,false,none,false,⟨.lcode,none,false,.lblank⟩⟩] (.node (.node .leaf 82060326 [⟨⟨.code,[82],.lcode,false,[],false⟩,false,false,[some (39,(.other,false))],none,none,none,false,false,false,none,false,⟨.lcode,none,false,.lblank⟩⟩] .leaf) 83240070 [⟨⟨.code,[114],.lcode,false,[],false⟩,false,false,[some (39,(.other,false))],none,none,none,false,false,false,none,false,⟨.lcode,none,false,.lblank⟩⟩] .leaf))) 110696912 [⟨⟨.code,[82],.lblank,false,[],false⟩,false,false,[some (34,(.other,false))],none,none,none,false,false,false,none,false,⟨.lcode,none,false,.lblank⟩⟩] (.node (.node (.node (.node .leaf 111876656 [⟨⟨.code,[114],.lblank,false,[],false⟩,false,false,[some (34,(.other,false))],none,none,none,false,false,false,none,false,⟨.lcode,none,false,.lblank⟩⟩] .leaf) 120696942 [⟨⟨.code,[82],.lblank,false,[],false⟩,false,false,[some (39,(.other,false))],none,none,none,false,false,false,none,false,⟨.lcode,none,false,.lblank⟩⟩] .leaf) 121876686 [⟨⟨.code,[114],.lblank,false,[],false⟩,false,false,[some (39,(.other,false))],none,none,none,false,false,false,none,false,⟨.lcode,none,false,.lblank⟩⟩] (.node (.node .leaf 155333088 [⟨⟨(.inside 0),[],.lcode,false,[(9,0)],false⟩,false,false,[none],none,none,none,false,false,false,none,false,⟨.lcode,none,false,.lblank⟩⟩] .leaf) 155345377 [⟨⟨(.inside 0),[],.lcode,false,[(9,1)],false⟩,false,false,[none],none,none,none,false,false,false,none,false,⟨.lcode,none,false,.lblank⟩⟩] .leaf)) 158060554 [⟨⟨.code,[82],.lcode,false,[],false⟩,false,false,[some (77,(.other,false))],none,none,none,false,false,false,none,false,⟨.lcode,none,false,.lblank⟩⟩] (.node (.node (.node .leaf 159240298 [⟨⟨.code,[114],.lcode,false,[],false⟩,false,false,[some (77,(.other,false))],none,none,none,false,false,false,none,false,⟨.lcode,none,false,.lblank⟩⟩] .leaf) 168060584 [⟨⟨.code,[82],.lcode,false,[],false⟩,false,false,[some (82,(.other,false))],none,none,none,false,false,false,none,false,⟨.lcode,none,false,.lblank⟩⟩] .leaf) 169240328 [⟨⟨.code,[114],.lcode,false,[],false⟩,false,false,[some (82,(.other,false))],none,none,none,false,false,false,none,false,⟨.lcode,none,false,.lblank⟩⟩] (.node .leaf 176333151 [⟨⟨(.inside 0),[],.lcode,false,[(9,0)],false⟩,false,false,[some (10,(.lf,false))],none,none,none,false,false,false,none,false,⟨.lcode,none,false,.lblank⟩⟩] .leaf))))) 176345440 [⟨⟨(.inside 0),[],.lcode,false,[(9,1)],false⟩,false,false,[some (10,(.lf,false))],none,none,none,false,false,false,none,false,⟨.lcode,none,false,.lblank⟩⟩] (.node (.node (.node (.node (.node (.node .leaf 180333163 [⟨⟨(.inside 0),[],.lcode,false,[(9,0)],false⟩,false,false,[some (12,(.ff,false))],none,none,none,false,false,false,none,false,⟨.lcode,none,false,.lblank⟩⟩] .leaf) 180345452 [⟨⟨(.inside 0),[],.lcode,false,[(9,1)],false⟩,false,false,[some (12,(.ff,false))],none,none,none,false,false,false,none,false,⟨.lcode,none,false,.lblank⟩⟩] .leaf) 182333169 [⟨⟨(.inside 0),[],.lcode,false,[(9,0)],false⟩,false,false,[some (13,(.cr,false))],none,none,none,false,false,false,none,false,⟨.lcode,none,false,.lblank⟩⟩] (.node (.node .leaf 182345458 [⟨⟨(.inside 0),[],.lcode,false,[(9,1)],false⟩,false,false,[some (13,(.cr,false))],none,none,none,false,false,false,none,false,⟨.lcode,none,false,.lblank⟩⟩] .leaf) 183333172 [⟨⟨(.inside 0),[],.lcode,false,[(9,0)],false⟩,false,false,[some (13,(.cr,true))],none,none,none,false,false,false,none,false,⟨.lcode,none,false,.lblank⟩⟩] .leaf)) 183345461 [⟨⟨(.inside 0),[],.lcode,false,[(9,1)],false⟩,false,false,[some (13,(.cr,true))],none,none,none,false,false,false,none,false,⟨.lcode,none,false,.lblank⟩⟩] (.node (.node (.node .leaf 188060644 [⟨⟨.code,[82],.lcode,false,[],false⟩,false,false,[some (92,(.other,false))],none,none,none,false,false,false,none,false,⟨.lcode,none,false,.lblank⟩⟩] .leaf) 189240388 [⟨⟨.code,[114],.lcode,false,[],false⟩,false,false,[some (92,(.other,false))],none,none,none,false,false,false,none,false,⟨.lcode,none,false,.lblank⟩⟩] .leaf) 196697170 [⟨⟨.code,[82],.lblank,false,[],false⟩,false,false,[some (77,(.other,false))],none,none,none,false,false,false,none,false,⟨.lcode,none,false,.lblank⟩⟩] (.node (.node .leaf 197876914 [⟨⟨.code,[114],.lblank,false,[],false⟩,false,false,[some (77,(.other,false))],none,none,none,false,false,false,none,false,⟨.lcode,none,false,.lblank⟩⟩] .leaf) 206697200 [⟨⟨.code,[82],.lblank,false,[],false⟩,false,false,[some (82,(.other,false))],none,none,none,false,false,false,none,false,⟨.lcode,none,false,.lblank⟩⟩] .leaf))) 207876944 [⟨⟨.code,[114],.lblank,false,[],false⟩,false,false,[some (82,(.other,false))],none,none,none,false,false,false,none,false,⟨.lcode,none,false,.lblank⟩⟩] (.node (.node (.node (.node .leaf 222060746 [⟨⟨.code,[82],.lcode,false,[],false⟩,false,false,[some (109,(.other,false))],none,none,none,false,false,false,none,false,⟨.lcode,none,false,.lblank⟩⟩] .leaf) 223240490 [⟨⟨.code,[114],.lcode,false,[],false⟩,false,false,[some (109,(.other,false))],none,none,none,false,false,false,none,false,⟨.lcode,none,false,.lblank⟩⟩] .leaf) 226697260 [⟨⟨.code,[82],.lblank,false,[],false⟩,false,false,[some (92,(.other,false))],none,none,none,false,false,false,none,false,⟨.lcode,none,false,.lblank⟩⟩] (.node (.node .leaf 227877004 [⟨⟨.code,[114],.lblank,false,[],false⟩,false,false,[some (92,(.other,false))],none,none,none,false,false,false,none,false,⟨.lcode,none,false,.lblank⟩⟩] .leaf) 232060776 [⟨⟨.code,[82],.lcode,false,[],false⟩,false,false,[some (114,(.other,false))],none,none,none,false,false,false,none,false,⟨.lcode,none,false,.lblank⟩⟩] .leaf)) 233240520 [⟨⟨.code,[114],.lcode,false,[],false⟩,false,false,[some (114,(.other,false))],none,none,none,false,false,false,none,false,⟨.lcode,none,false,.lblank⟩⟩] (.node (.node (.node .leaf 260697362 [⟨⟨.code,[82],.lblank,false,[],false⟩,false,false,[some (109,(.other,false))],none,none,none,false,false,false,none,false,⟨.lcode,none,false,.lblank⟩⟩] .leaf) 261877106 [⟨⟨.code,[114],.lblank,false,[],false⟩,false,false,[some (109,(.other,false))],none,none,none,false,false,false,none,false,⟨.lcode,none,false,.lblank⟩⟩] .leaf) 270697392 [⟨⟨.code,[82],.lblank,false,[],false⟩,false,false,[some (114,(.other,false))],none,none,none,false,false,false,none,false,⟨.lcode,none,false,.lblank⟩⟩] (.node .leaf 271877136 [⟨⟨.code,[114],.lblank,false,[],false⟩,false,false,[some (114,(.other,false))],none,none,none,false,false,false,none,false,⟨.lcode,none,false,.lblank⟩⟩] .leaf)))) 401641515 [⟨⟨.code,[82],.lcode,false,[(9,0)],false⟩,false,false,[none],none,none,none,false,false,false,none,false,⟨.lcode,none,false,.lblank⟩⟩] (.node (.node (.node (.node (.node .leaf 401653804 [⟨⟨.code,[82],.lcode,false,[(9,1)],false⟩,false,false,[none],none,none,none,false,false,false,none,false,⟨.lcode,none,false,.lblank⟩⟩] .leaf) 403435709 [⟨⟨.code,[82,69],.lcode,false,[],false⟩,false,false,[none],none,none,none,false,false,false,none,false,⟨.lcode,none,false,.lblank⟩⟩] .leaf) 404615453 [⟨⟨.code,[82,101],.lcode,false,[],false⟩,false,false,[none],none,none,none,false,false,false,none,false,⟨.lcode,none,false,.lblank⟩⟩] (.node (.node .leaf 420641572 [⟨⟨.code,[82],.lcode,false,[(9,0)],false⟩,false,false,[some (9,(.ws,false))],none,none,none,false,false,false,none,false,⟨.lcode,none,false,.lblank⟩⟩] .leaf) 420653861 [⟨⟨.code,[82],.lcode,false,[(9,1)],false⟩,false,false,[some (9,(.ws,false))],none,none,none,false,false,false,none,false,⟨.lcode,none,false,.lblank⟩⟩] .leaf)) 422435766 [⟨⟨.code,[82,69],.lcode,false,[],false⟩,false,false,[some (9,(.ws,false))],none,none,none,false,false,false,none,false,⟨.lcode,none,false,.lblank⟩⟩] (.node (.node (.node .leaf 422641578 [⟨⟨.code,[82],.lcode,false,[(9,0)],false⟩,false,false,[some (10,(.lf,false))],none,none,none,false,false,false,none,false,⟨.lcode,none,false,.lblank⟩⟩] .leaf) 422653867 [⟨⟨.code,[82],.lcode,false,[(9,1)],false⟩,false,false,[some (10,(.lf,false))],none,none,none,false,false,false,none,false,⟨.lcode,none,false,.lblank⟩⟩] .leaf) 423615510 [⟨⟨.code,[82,101],.lcode,false,[],false⟩,false,false,[some (9,(.ws,false))],none,none,none,false,false,false,none,false,⟨.lcode,none,false,.lblank⟩⟩] (.node .leaf 424435772 [⟨⟨.code,[82,69],.lcode,false,[],false⟩,false,false,[some (10,(.lf,false))],none,none,none,false,false,false,none,false,⟨.lcode,none,false,.lblank⟩⟩] .leaf))) 425615516 [⟨⟨.code,[82,101],.lcode,false,[],false⟩,false,false,[some (10,(.lf,false))],none,none,none,false,false,false,none,false,⟨.lcode,none,false,.lblank⟩⟩] (.node (.node (.node (.node .leaf 426641590 [⟨⟨.code,[82],.lcode,false,[(9,0)],false⟩,false,false,[some (12,(.ff,false))],none,none,none,false,false,false,none,false,⟨.lcode,none,false,.lblank⟩⟩] .leaf) 426653879 [⟨⟨.code,[82],.lcode,false,[(9,1)],false⟩,false,false,[some (12,(.ff,false))],none,none,none,false,false,false,none,false,⟨.lcode,none,false,.lblank⟩⟩] .leaf) 428435784 [⟨⟨.code,[82,69],.lcode,false,[],false⟩,false,false,[some (12,(.ff,false))],none,none,none,false,false,false,none,false,⟨.lcode,none,false,.lblank⟩⟩] (.node (.node .leaf 428641596 [⟨⟨.code,[82],.lcode,false,[(9,0)],false⟩,false,false,[some (13,(.cr,false))],none,none,none,false,false,false,none,false,⟨.lcode,none,false,.lblank⟩⟩] .leaf) 428653885 [⟨⟨.code,[82],.lcode,false,[(9,1)],false⟩,false,false,[some (13,(.cr,false))],none,none,none,false,false,false,none,false,⟨.lcode,none,false,.lblank⟩⟩] .leaf)) 429615528 [⟨⟨.code,[82,101],.lcode,false,[],false⟩,false,false,[some (12,(.ff,false))],none,none,none,false,false,false,none,false,⟨.lcode,none,false,.lblank⟩⟩] (.node (.node (.node .leaf 429641599 [⟨⟨.code,[82],.lcode,false,[(9,0)],false⟩,false,false,[some (13,(.cr,true))],none,none,none,false,false,false,none,false,⟨.lcode,none,false,.lblank⟩⟩] .leaf) 429653888 [⟨⟨.code,[82],.lcode,false,[(9,1)],false⟩,false,false,[some (13,(.cr,true))],none,none,none,false,false,false,none,false,⟨.lcode,none,false,.lblank⟩⟩] .leaf) 430435790 [⟨⟨.code,[82,69],.lcode,false,[],false⟩,false,false,[some (13,(.cr,false))],none,none,none,false,false,false,none,false,⟨.lcode,none,false,.lblank⟩⟩] (.node .leaf 431435793 [⟨⟨.code,[82,69],.lcode,false,[],false⟩,false,false,[some (13,(.cr,true))],none,none,none,false,false,false,none,false,⟨.lcode,none,false,.lblank⟩⟩] .leaf))))))) 431615534 [⟨⟨.code,[82,101],.lcode,false,[],false⟩,false,false,[some (13,(.cr,false))],none,none,none,false,false,false,none,false,⟨.lcode,none,false,.lblank⟩⟩] (.node (.node (.node (.node (.node (.node (.node (.node .leaf 432615537 [⟨⟨.code,[82,101],.lcode,false,[],false⟩,false,false,[some (13,(.cr,true))],none,none,none,false,false,false,none,false,⟨.lcode,none,false,.lblank⟩⟩] .leaf) 472435916 [⟨⟨.code,[82,69],.lcode,false,[],false⟩,false,false,[some (34,(.other,false))],none,none,none,false,false,false,none,false,⟨.lcode,none,false,.lblank⟩⟩] .leaf) 473615660 [⟨⟨.code,[82,101],.lcode,false,[],false⟩,false,false,[some (34,(.other,false))],none,none,none,false,false,false,none,false,⟨.lcode,none,false,.lblank⟩⟩] (.node (.node .leaf 480641752 [⟨⟨.code,[82],.lcode,false,[(9,0)],false⟩,false,false,[some (39,(.other,false))],none,none,none,false,false,false,none,false,⟨.lcode,none,false,.lblank⟩⟩] .leaf) 480654041 [⟨⟨.code,[82],.lcode,false,[(9,1)],false⟩,false,false,[some (39,(.other,false))],none,none,none,false,false,false,none,false,⟨.lcode,none,false,.lblank⟩⟩] .leaf)) 482435946 [⟨⟨.code,[82,69],.lcode,false,[],false⟩,false,false,[some (39,(.other,false))],none,none,none,false,false,false,none,false,⟨.lcode,none,false,.lblank⟩⟩] (.node (.node (.node .leaf 483615690 [⟨⟨.code,[82,101],.lcode,false,[],false⟩,false,false,[some (39,(.other,false))],none,none,none,false,false,false,none,false,⟨.lcode,none,false,.lblank⟩⟩] .leaf) 516061628 [⟨⟨.code,[82],.lcode,false,[],false⟩,false,false,[some (256,(.other,false))],none,none,none,false,false,false,none,false,⟨.lcode,none,false,.lblank⟩⟩] .leaf) 517241372 [⟨⟨.code,[114],.lcode,false,[],false⟩,false,false,[some (256,(.other,false))],none,none,none,false,false,false,none,false,⟨.lcode,none,false,.lblank⟩⟩] (.node (.node .leaf 541699248 [⟨⟨(.inside 1),[],.lcode,false,[(9,0)],false⟩,false,false,[none],none,none,none,false,false,false,none,false,⟨.lcode,none,false,.lblank⟩⟩] .leaf) 541711537 [⟨⟨(.inside 1),[],.lcode,false,[(9,1)],false⟩,false,false,[none],none,none,none,false,false,false,none,false,⟨.lcode,none,false,.lblank⟩⟩] .leaf))) 542436126 [⟨⟨.code,[82,69],.lcode,false,[],false⟩,false,false,[some (69,(.other,false))],none,none,none,false,false,false,none,false,⟨.lcode,none,false,.lblank⟩⟩] (.node (.node (.node (.node .leaf 543615870 [⟨⟨.code,[82,101],.lcode,false,[],false⟩,false,false,[some (69,(.other,false))],none,none,none,false,false,false,none,false,⟨.lcode,none,false,.lblank⟩⟩] .leaf) 554698244 [⟨⟨.code,[82],.lblank,false,[],false⟩,false,false,[some (256,(.other,false))],none,none,none,false,false,false,none,false,⟨.lcode,none,false,.lblank⟩⟩] .leaf) 555877988 [⟨⟨.code,[114],.lblank,false,[],false⟩,false,false,[some (256,(.other,false))],none,none,none,false,false,false,none,false,⟨.lcode,none,false,.lblank⟩⟩] (.node (.node .leaf 556187979 [⟨⟨.code,[114],.lcode,false,[(9,0)],false⟩,false,false,[none],none,none,none,false,false,false,none,false,⟨.lcode,none,false,.lblank⟩⟩] .leaf) 556200268 [⟨⟨.code,[114],.lcode,false,[(9,1)],false⟩,false,false,[none],none,none,none,false,false,false,none,false,⟨.lcode,none,false,.lblank⟩⟩] .leaf)) 556641980 [⟨⟨.code,[82],.lcode,false,[(9,0)],false⟩,false,false,[some (77,(.other,false))],none,none,none,false,false,false,none,false,⟨.lcode,none,false,.lblank⟩⟩] (.node (.node (.node .leaf 556654269 [⟨⟨.code,[82],.lcode,false,[(9,1)],false⟩,false,false,[some (77,(.other,false))],none,none,none,false,false,false,none,false,⟨.lcode,none,false,.lblank⟩⟩] .leaf) 557982173 [⟨⟨.code,[114,69],.lcode,false,[],false⟩,false,false,[none],none,none,none,false,false,false,none,false,⟨.lcode,none,false,.lblank⟩⟩] .leaf) 559161917 [⟨⟨.code,[114,101],.lcode,false,[],false⟩,false,false,[none],none,none,none,false,false,false,none,false,⟨.lcode,none,false,.lblank⟩⟩] (.node .leaf 562699311 [⟨⟨(.inside 1),[],.lcode,false,[(9,0)],false⟩,false,false,[some (10,(.lf,false))],none,none,none,false,false,false,none,false,⟨.lcode,none,false,.lblank⟩⟩] .leaf)))) 562711600 [⟨⟨(.inside 1),[],.lcode,false,[(9,1)],false⟩,false,false,[some (10,(.lf,false))],none,none,none,false,false,false,none,false,⟨.lcode,none,false,.lblank⟩⟩] (.node (.node (.node (.node (.node .leaf 566642010 [⟨⟨.code,[82],.lcode,false,[(9,0)],false⟩,false,false,[some (82,(.other,false))],none,none,none,false,false,false,none,false,⟨.lcode,none,false,.lblank⟩⟩] .leaf) 566654299 [⟨⟨.code,[82],.lcode,false,[(9,1)],false⟩,false,false,[some (82,(.other,false))],none,none,none,false,false,false,none,false,⟨.lcode,none,false,.lblank⟩⟩] .leaf) 566699323 [⟨⟨(.inside 1),[],.lcode,false,[(9,0)],false⟩,false,false,[some (12,(.ff,false))],none,none,none,false,false,false,none,false,⟨.lcode,none,false,.lblank⟩⟩] (.node (.node .leaf 566711612 [⟨⟨(.inside 1),[],.lcode,false,[(9,1)],false⟩,false,false,[some (12,(.ff,false))],none,none,none,false,false,false,none,false,⟨.lcode,none,false,.lblank⟩⟩] .leaf) 568436204 [⟨⟨.code,[82,69],.lcode,false,[],false⟩,false,false,[some (82,(.other,false))],none,none,none,false,false,false,none,false,⟨.lcode,none,false,.lblank⟩⟩] .leaf)) 568699329 [⟨⟨(.inside 1),[],.lcode,false,[(9,0)],false⟩,false,false,[some (13,(.cr,false))],none,none,none,false,false,false,none,false,⟨.lcode,none,false,.lblank⟩⟩] (.node (.node (.node .leaf 568711618 [⟨⟨(.inside 1),[],.lcode,false,[(9,1)],false⟩,false,false,[some (13,(.cr,false))],none,none,none,false,false,false,none,false,⟨.lcode,none,false,.lblank⟩⟩] .leaf) 569615948 [⟨⟨.code,[82,101],.lcode,false,[],false⟩,false,false,[some (82,(.other,false))],none,none,none,false,false,false,none,false,⟨.lcode,none,false,.lblank⟩⟩] .leaf) 569699332 [⟨⟨(.inside 1),[],.lcode,false,[(9,0)],false⟩,false,false,[some (13,(.cr,true))],none,none,none,false,false,false,none,false,⟨.lcode,none,false,.lblank⟩⟩] (.node (.node .leaf 569711621 [⟨⟨(.inside 1),[],.lcode,false,[(9,1)],false⟩,false,false,[some (13,(.cr,true))],none,none,none,false,false,false,none,false,⟨.lcode,none,false,.lblank⟩⟩] .leaf) 575188036 [⟨⟨.code,[114],.lcode,false,[(9,0)],false⟩,false,false,[some (9,(.ws,false))],none,none,none,false,false,false,none,false,⟨.lcode,none,false,.lblank⟩⟩] .leaf))) 575200325 [⟨⟨.code,[114],.lcode,false,[(9,1)],false⟩,false,false,[some (9,(.ws,false))],none,none,none,false,false,false,none,false,⟨.lcode,none,false,.lblank⟩⟩] (.node (.node (.node (.node .leaf 576982230 [⟨⟨.code,[114,69],.lcode,false,[],false⟩,false,false,[some (9,(.ws,false))],none,none,none,false,false,false,none,false,⟨.lcode,none,false,.lblank⟩⟩] .leaf) 577188042 [⟨⟨.code,[114],.lcode,false,[(9,0)],false⟩,false,false,[some (10,(.lf,false))],none,none,none,false,false,false,none,false,⟨.lcode,none,false,.lblank⟩⟩] .leaf) 577200331 [⟨⟨.code,[114],.lcode,false,[(9,1)],false⟩,false,false,[some (10,(.lf,false))],none,none,none,false,false,false,none,false,⟨.lcode,none,false,.lblank⟩⟩] (.node (.node .leaf 578161974 [⟨⟨.code,[114,101],.lcode,false,[],false⟩,false,false,[some (9,(.ws,false))],none,none,none,false,false,false,none,false,⟨.lcode,none,false,.lblank⟩⟩] .leaf) 578982236 [⟨⟨.code,[114,69],.lcode,false,[],false⟩,false,false,[some (10,(.lf,false))],none,none,none,false,false,false,none,false,⟨.lcode,none,false,.lblank⟩⟩] .leaf)) 580161980 [⟨⟨.code,[114,101],.lcode,false,[],false⟩,false,false,[some (10,(.lf,false))],none,none,none,false,false,false,none,false,⟨.lcode,none,false,.lblank⟩⟩] (.node (.node (.node .leaf 581188054 [⟨⟨.code,[114],.lcode,false,[(9,0)],false⟩,false,false,[some (12,(.ff,false))],none,none,none,false,false,false,none,false,⟨.lcode,none,false,.lblank⟩⟩] .leaf) 581200343 [⟨⟨.code,[114],.lcode,false,[(9,1)],false⟩,false,false,[some (12,(.ff,false))],none,none,none,false,false,false,none,false,⟨.lcode,none,false,.lblank⟩⟩] .leaf) 582982248 [⟨⟨.code,[114,69],.lcode,false,[],false⟩,false,false,[some (12,(.ff,false))],none,none,none,false,false,false,none,false,⟨.lcode,none,false,.lblank⟩⟩] (.node .leaf 583188060 [⟨⟨.code,[114],.lcode,false,[(9,0)],false⟩,false,false,[some (13,(.cr,false))],none,none,none,false,false,false,none,false,⟨.lcode,none,false,.lblank⟩⟩] .leaf))))) 583200349 [⟨⟨.code,[114],.lcode,false,[(9,1)],false⟩,false,false,[some (13,(.cr,false))],none,none,none,false,false,false,none,false,⟨.lcode,none,false,.lblank⟩⟩] (.node (.node (.node (.node (.node (.node .leaf 584161992 [⟨⟨.code,[114,101],.lcode,false,[],false⟩,false,false,[some (12,(.ff,false))],none,none,none,false,false,false,none,false,⟨.lcode,none,false,.lblank⟩⟩] .leaf) 584188063 [⟨⟨.code,[114],.lcode,false,[(9,0)],false⟩,false,false,[some (13,(.cr,true))],none,none,none,false,false,false,none,false,⟨.lcode,none,false,.lblank⟩⟩] .leaf) 584200352 [⟨⟨.code,[114],.lcode,false,[(9,1)],false⟩,false,false,[some (13,(.cr,true))],none,none,none,false,false,false,none,false,⟨.lcode,none,false,.lblank⟩⟩] (.node (.node .leaf 584982254 [⟨⟨.code,[114,69],.lcode,false,[],false⟩,false,false,[some (13,(.cr,false))],none,none,none,false,false,false,none,false,⟨.lcode,none,false,.lblank⟩⟩] .leaf) 585982257 [⟨⟨.code,[114,69],.lcode,false,[],false⟩,false,false,[some (13,(.cr,true))],none,none,none,false,false,false,none,false,⟨.lcode,none,false,.lblank⟩⟩] .leaf)) 586161998 [⟨⟨.code,[114,101],.lcode,false,[],false⟩,false,false,[some (13,(.cr,false))],none,none,none,false,false,false,none,false,⟨.lcode,none,false,.lblank⟩⟩] (.node (.node (.node .leaf 586642070 [⟨⟨.code,[82],.lcode,false,[(9,0)],false⟩,false,false,[some (92,(.other,false))],none,none,none,false,false,false,none,false,⟨.lcode,none,false,.lblank⟩⟩] .leaf) 586654359 [⟨⟨.code,[82],.lcode,false,[(9,1)],false⟩,false,false,[some (92,(.other,false))],none,none,none,false,false,false,none,false,⟨.lcode,none,false,.lblank⟩⟩] .leaf) 587162001 [⟨⟨.code,[114,101],.lcode,false,[],false⟩,false,false,[some (13,(.cr,true))],none,none,none,false,false,false,none,false,⟨.lcode,none,false,.lblank⟩⟩] (.node (.node .leaf 588436264 [⟨⟨.code,[82,69],.lcode,false,[],false⟩,false,false,[some (92,(.other,false))],none,none,none,false,false,false,none,false,⟨.lcode,none,false,.lblank⟩⟩] .leaf) 589616008 [⟨⟨.code,[82,101],.lcode,false,[],false⟩,false,false,[some (92,(.other,false))],none,none,none,false,false,false,none,false,⟨.lcode,none,false,.lblank⟩⟩] .leaf))) 606436318 [⟨⟨.code,[82,69],.lcode,false,[],false⟩,false,false,[some (101,(.other,false))],none,none,none,false,false,false,none,false,⟨.lcode,none,false,.lblank⟩⟩] (.node (.node (.node (.node .leaf 607616062 [⟨⟨.code,[82,101],.lcode,false,[],false⟩,false,false,[some (101,(.other,false))],none,none,none,false,false,false,none,false,⟨.lcode,none,false,.lblank⟩⟩] .leaf) 620642172 [⟨⟨.code,[82],.lcode,false,[(9,0)],false⟩,false,false,[some (109,(.other,false))],none,none,none,false,false,false,none,false,⟨.lcode,none,false,.lblank⟩⟩] .leaf) 620654461 [⟨⟨.code,[82],.lcode,false,[(9,1)],false⟩,false,false,[some (109,(.other,false))],none,none,none,false,false,false,none,false,⟨.lcode,none,false,.lblank⟩⟩] (.node (.node .leaf 626982380 [⟨⟨.code,[114,69],.lcode,false,[],false⟩,false,false,[some (34,(.other,false))],none,none,none,false,false,false,none,false,⟨.lcode,none,false,.lblank⟩⟩] .leaf) 628162124 [⟨⟨.code,[114,101],.lcode,false,[],false⟩,false,false,[some (34,(.other,false))],none,none,none,false,false,false,none,false,⟨.lcode,none,false,.lblank⟩⟩] .leaf)) 630642202 [⟨⟨.code,[82],.lcode,false,[(9,0)],false⟩,false,false,[some (114,(.other,false))],none,none,none,false,false,false,none,false,⟨.lcode,none,false,.lblank⟩⟩] (.node (.node (.node .leaf 630654491 [⟨⟨.code,[82],.lcode,false,[(9,1)],false⟩,false,false,[some (114,(.other,false))],none,none,none,false,false,false,none,false,⟨.lcode,none,false,.lblank⟩⟩] .leaf) 632436396 [⟨⟨.code,[82,69],.lcode,false,[],false⟩,false,false,[some (114,(.other,false))],none,none,none,false,false,false,none,false,⟨.lcode,none,false,.lblank⟩⟩] .leaf) 633616140 [⟨⟨.code,[82,101],.lcode,false,[],false⟩,false,false,[some (114,(.other,false))],none,none,none,false,false,false,none,false,⟨.lcode,none,false,.lblank⟩⟩] (.node .leaf 635188216 [⟨⟨.code,[114],.lcode,false,[(9,0)],false⟩,false,false,[some (39,(.other,false))],none,none,none,false,false,false,none,false,⟨.lcode,none,false,.lblank⟩⟩] .leaf)))) 635200505 [⟨⟨.code,[114],.lcode,false,[(9,1)],false⟩,false,false,[some (39,(.other,false))],none,none,none,false,false,false,none,false,⟨.lcode,none,false,.lblank⟩⟩] (.node (.node (.node (.node (.node .leaf 636982410 [⟨⟨.code,[114,69],.lcode,false,[],false⟩,false,false,[some (39,(.other,false))],none,none,none,false,false,false,none,false,⟨.lcode,none,false,.lblank⟩⟩] .leaf) 638162154 [⟨⟨.code,[114,101],.lcode,false,[],false⟩,false,false,[some (39,(.other,false))],none,none,none,false,false,false,none,false,⟨.lcode,none,false,.lblank⟩⟩] .leaf) 696982590 [⟨⟨.code,[114,69],.lcode,false,[],false⟩,false,false,[some (69,(.other,false))],none,none,none,false,false,false,none,false,⟨.lcode,none,false,.lblank⟩⟩] (.node (.node .leaf 698162334 [⟨⟨.code,[114,101],.lcode,false,[],false⟩,false,false,[some (69,(.other,false))],none,none,none,false,false,false,none,false,⟨.lcode,none,false,.lblank⟩⟩] .leaf) 711188444 [⟨⟨.code,[114],.lcode,false,[(9,0)],false⟩,false,false,[some (77,(.other,false))],none,none,none,false,false,false,none,false,⟨.lcode,none,false,.lblank⟩⟩] .leaf)) 711200733 [⟨⟨.code,[114],.lcode,false,[(9,1)],false⟩,false,false,[some (77,(.other,false))],none,none,none,false,false,false,none,false,⟨.lcode,none,false,.lblank⟩⟩] (.node (.node (.node .leaf 721188474 [⟨⟨.code,[114],.lcode,false,[(9,0)],false⟩,false,false,[some (82,(.other,false))],none,none,none,false,false,false,none,false,⟨.lcode,none,false,.lblank⟩⟩] .leaf) 721200763 [⟨⟨.code,[114],.lcode,false,[(9,1)],false⟩,false,false,[some (82,(.other,false))],none,none,none,false,false,false,none,false,⟨.lcode,none,false,.lblank⟩⟩] .leaf) 722982668 [⟨⟨.code,[114,69],.lcode,false,[],false⟩,false,false,[some (82,(.other,false))],none,none,none,false,false,false,none,false,⟨.lcode,none,false,.lblank⟩⟩] (.node .leaf 724162412 [⟨⟨.code,[114,101],.lcode,false,[],false⟩,false,false,[some (82,(.other,false))],none,none,none,false,false,false,none,false,⟨.lcode,none,false,.lblank⟩⟩] .leaf))) 741188534 [⟨⟨.code,[114],.lcode,false,[(9,0)],false⟩,false,false,[some (92,(.other,false))],none,none,none,false,false,false,none,false,⟨.lcode,none,false,.lblank⟩⟩] (.node (.node (.node (.node .leaf 741200823 [⟨⟨.code,[114],.lcode,false,[(9,1)],false⟩,false,false,[some (92,(.other,false))],none,none,none,false,false,false,none,false,⟨.lcode,none,false,.lblank⟩⟩] .leaf) 742982728 [⟨⟨.code,[114,69],.lcode,false,[],false⟩,false,false,[some (92,(.other,false))],none,none,none,false,false,false,none,false,⟨.lcode,none,false,.lblank⟩⟩] .leaf) 744162472 [⟨⟨.code,[114,101],.lcode,false,[],false⟩,false,false,[some (92,(.other,false))],none,none,none,false,false,false,none,false,⟨.lcode,none,false,.lblank⟩⟩] (.node (.node .leaf 760982782 [⟨⟨.code,[114,69],.lcode,false,[],false⟩,false,false,[some (101,(.other,false))],none,none,none,false,false,false,none,false,⟨.lcode,none,false,.lblank⟩⟩] .leaf) 762162526 [⟨⟨.code,[114,101],.lcode,false,[],false⟩,false,false,[some (101,(.other,false))],none,none,none,false,false,false,none,false,⟨.lcode,none,false,.lblank⟩⟩] .leaf)) 775188636 [⟨⟨.code,[114],.lcode,false,[(9,0)],false⟩,false,false,[some (109,(.other,false))],none,none,none,false,false,false,none,false,⟨.lcode,none,false,.lblank⟩⟩] (.node (.node (.node .leaf 775200925 [⟨⟨.code,[114],.lcode,false,[(9,1)],false⟩,false,false,[some (109,(.other,false))],none,none,none,false,false,false,none,false,⟨.lcode,none,false,.lblank⟩⟩] .leaf) 785188666 [⟨⟨.code,[114],.lcode,false,[(9,0)],false⟩,false,false,[some (114,(.other,false))],none,none,none,false,false,false,none,false,⟨.lcode,none,false,.lblank⟩⟩] .leaf) 785200955 [⟨⟨.code,[114],.lcode,false,[(9,1)],false⟩,false,false,[some (114,(.other,false))],none,none,none,false,false,false,none,false,⟨.lcode,none,false,.lblank⟩⟩] (.node .leaf 786982860 [⟨⟨.code,[114,69],.lcode,false,[],false⟩,false,false,[some (114,(.other,false))],none,none,none,false,false,false,none,false,⟨.lcode,none,false,.lblank⟩⟩] .leaf)))))) 788162604 [⟨⟨.code,[114,101],.lcode,false,[],false⟩,false,false,[some (114,(.other,false))],none,none,none,false,false,false,none,false,⟨.lcode,none,false,.lblank⟩⟩] (.node (.node (.node (.node (.node (.node (.node .leaf 914643054 [⟨⟨.code,[82],.lcode,false,[(9,0)],false⟩,false,false,[some (256,(.other,false))],none,none,none,false,false,false,none,false,⟨.lcode,none,false,.lblank⟩⟩] .leaf) 914655343 [⟨⟨.code,[82],.lcode,false,[(9,1)],false⟩,false,false,[some (256,(.other,false))],none,none,none,false,false,false,none,false,⟨.lcode,none,false,.lblank⟩⟩] .leaf) 916437248 [⟨⟨.code,[82,69],.lcode,false,[],false⟩,false,false,[some (256,(.other,false))],none,none,none,false,false,false,none,false,⟨.lcode,none,false,.lblank⟩⟩] (.node (.node .leaf 917616992 [⟨⟨.code,[82,101],.lcode,false,[],false⟩,false,false,[some (256,(.other,false))],none,none,none,false,false,false,none,false,⟨.lcode,none,false,.lblank⟩⟩] .leaf) 928065408 [⟨⟨(.inside 2),[],.lcode,false,[(9,0)],false⟩,false,false,[none],none,none,none,false,false,false,none,false,⟨.lcode,none,false,.lblank⟩⟩] .leaf)) 928077697 [⟨⟨(.inside 2),[],.lcode,false,[(9,1)],false⟩,false,false,[none],none,none,none,false,false,false,none,false,⟨.lcode,none,false,.lblank⟩⟩] (.node (.node (.node .leaf 949065471 [⟨⟨(.inside 2),[],.lcode,false,[(9,0)],false⟩,false,false,[some (10,(.lf,false))],none,none,none,false,false,false,none,false,⟨.lcode,none,false,.lblank⟩⟩] .leaf) 949077760 [⟨⟨(.inside 2),[],.lcode,false,[(9,1)],false⟩,false,false,[some (10,(.lf,false))],none,none,none,false,false,false,none,false,⟨.lcode,none,false,.lblank⟩⟩] .leaf) 953065483 [⟨⟨(.inside 2),[],.lcode,false,[(9,0)],false⟩,false,false,[some (12,(.ff,false))],none,none,none,false,false,false,none,false,⟨.lcode,none,false,.lblank⟩⟩] (.node (.node .leaf 953077772 [⟨⟨(.inside 2),[],.lcode,false,[(9,1)],false⟩,false,false,[some (12,(.ff,false))],none,none,none,false,false,false,none,false,⟨.lcode,none,false,.lblank⟩⟩] .leaf) 955065489 [⟨⟨(.inside 2),[],.lcode,false,[(9,0)],false⟩,false,false,[some (13,(.cr,false))],none,none,none,false,false,false,none,false,⟨.lcode,none,false,.lblank⟩⟩] .leaf))) 955077778 [⟨⟨(.inside 2),[],.lcode,false,[(9,1)],false⟩,false,false,[some (13,(.cr,false))],none,none,none,false,false,false,none,false,⟨.lcode,none,false,.lblank⟩⟩] (.node (.node (.node (.node .leaf 956065492 [⟨⟨(.inside 2),[],.lcode,false,[(9,0)],false⟩,false,false,[some (13,(.cr,true))],none,none,none,false,false,false,none,false,⟨.lcode,none,false,.lblank⟩⟩] .leaf) 956077781 [⟨⟨(.inside 2),[],.lcode,false,[(9,1)],false⟩,false,false,[some (13,(.cr,true))],none,none,none,false,false,false,none,false,⟨.lcode,none,false,.lblank⟩⟩] .leaf) 976063008 [⟨⟨.code,[82],.lcode,false,[],false⟩,false,false,[some (69,(.other,false)),none],none,none,none,false,false,false,none,false,⟨.lcode,none,false,.lblank⟩⟩] (.node (.node .leaf 977242752 [⟨⟨.code,[114],.lcode,false,[],false⟩,false,false,[some (69,(.other,false)),none],none,none,none,false,false,false,none,false,⟨.lcode,none,false,.lblank⟩⟩] .leaf) 1014699624 [⟨⟨.code,[82],.lblank,false,[],false⟩,false,false,[some (69,(.other,false)),none],none,none,none,false,false,false,none,false,⟨.lcode,none,false,.lblank⟩⟩] .leaf)) 1015879368 [⟨⟨.code,[114],.lblank,false,[],false⟩,false,false,[some (69,(.other,false)),none],none,none,none,false,false,false,none,false,⟨.lcode,none,false,.lblank⟩⟩] (.node (.node (.node .leaf 1069189518 [⟨⟨.code,[114],.lcode,false,[(9,0)],false⟩,false,false,[some (256,(.other,false))],none,none,none,false,false,false,none,false,⟨.lcode,none,false,.lblank⟩⟩] .leaf) 1069201807 [⟨⟨.code,[114],.lcode,false,[(9,1)],false⟩,false,false,[some (256,(.other,false))],none,none,none,false,false,false,none,false,⟨.lcode,none,false,.lblank⟩⟩] .leaf) 1070983712 [⟨⟨.code,[114,69],.lcode,false,[],false⟩,false,false,[some (256,(.other,false))],none,none,none,false,false,false,none,false,⟨.lcode,none,false,.lblank⟩⟩] (.node .leaf 1072163456 [⟨⟨.code,[114,101],.lcode,false,[],false⟩,false,false,[some (256,(.other,false))],none,none,none,false,false,false,none,false,⟨.lcode,none,false,.lblank⟩⟩] .leaf)))) 1314431568 [⟨⟨(.inside 3),[],.lcode,false,[(9,0)],false⟩,false,false,[none],none,none,none,false,false,false,none,false,⟨.lcode,none,false,.lblank⟩⟩] (.node (.node (.node (.node (.node .leaf 1314443857 [⟨⟨(.inside 3),[],.lcode,false,[(9,1)],false⟩,false,false,[none],none,none,none,false,false,false,none,false,⟨.lcode,none,false,.lblank⟩⟩] .leaf) 1335431631 [⟨⟨(.inside 3),[],.lcode,false,[(9,0)],false⟩,false,false,[some (10,(.lf,false))],none,none,none,false,false,false,none,false,⟨.lcode,none,false,.lblank⟩⟩] .leaf) 1335443920 [⟨⟨(.inside 3),[],.lcode,false,[(9,1)],false⟩,false,false,[some (10,(.lf,false))],none,none,none,false,false,false,none,false,⟨.lcode,none,false,.lblank⟩⟩] (.node (.node .leaf 1339431643 [⟨⟨(.inside 3),[],.lcode,false,[(9,0)],false⟩,false,false,[some (12,(.ff,false))],none,none,none,false,false,false,none,false,⟨.lcode,none,false,.lblank⟩⟩] .leaf) 1339443932 [⟨⟨(.inside 3),[],.lcode,false,[(9,1)],false⟩,false,false,[some (12,(.ff,false))],none,none,none,false,false,false,none,false,⟨.lcode,none,false,.lblank⟩⟩] .leaf)) 1341431649 [⟨⟨(.inside 3),[],.lcode,false,[(9,0)],false⟩,false,false,[some (13,(.cr,false))],none,none,none,false,false,false,none,false,⟨.lcode,none,false,.lblank⟩⟩] (.node (.node (.node .leaf 1341443938 [⟨⟨(.inside 3),[],.lcode,false,[(9,1)],false⟩,false,false,[some (13,(.cr,false))],none,none,none,false,false,false,none,false,⟨.lcode,none,false,.lblank⟩⟩] .leaf) 1342431652 [⟨⟨(.inside 3),[],.lcode,false,[(9,0)],false⟩,false,false,[some (13,(.cr,true))],none,none,none,false,false,false,none,false,⟨.lcode,none,false,.lblank⟩⟩] .leaf) 1342443941 [⟨⟨(.inside 3),[],.lcode,false,[(9,1)],false⟩,false,false,[some (13,(.cr,true))],none,none,none,false,false,false,none,false,⟨.lcode,none,false,.lblank⟩⟩] (.node (.node .leaf 1374644434 [⟨⟨.code,[82],.lcode,false,[(9,0)],false⟩,false,false,[some (69,(.other,false)),none],none,none,none,false,false,false,none,false,⟨.lcode,none,false,.lblank⟩⟩] .leaf) 1374656723 [⟨⟨.code,[82],.lcode,false,[(9,1)],false⟩,false,false,[some (69,(.other,false)),none],none,none,none,false,false,false,none,false,⟨.lcode,none,false,.lblank⟩⟩] .leaf))) 1424064352 [⟨⟨.code,[82],.lcode,false,[],false⟩,false,false,[some (101,(.other,false)),none],none,none,none,false,false,false,none,false,⟨.lcode,none,false,.lblank⟩⟩] (.node (.node (.node (.node .leaf 1425244096 [⟨⟨.code,[114],.lcode,false,[],false⟩,false,false,[some (101,(.other,false)),none],none,none,none,false,false,false,none,false,⟨.lcode,none,false,.lblank⟩⟩] .leaf) 1462700968 [⟨⟨.code,[82],.lblank,false,[],false⟩,false,false,[some (101,(.other,false)),none],none,none,none,false,false,false,none,false,⟨.lcode,none,false,.lblank⟩⟩] .leaf) 1463880712 [⟨⟨.code,[114],.lblank,false,[],false⟩,false,false,[some (101,(.other,false)),none],none,none,none,false,false,false,none,false,⟨.lcode,none,false,.lblank⟩⟩] (.node (.node .leaf 1529190898 [⟨⟨.code,[114],.lcode,false,[(9,0)],false⟩,false,false,[some (69,(.other,false)),none],none,none,none,false,false,false,none,false,⟨.lcode,none,false,.lblank⟩⟩] .leaf) 1529203187 [⟨⟨.code,[114],.lcode,false,[(9,1)],false⟩,false,false,[some (69,(.other,false)),none],none,none,none,false,false,false,none,false,⟨.lcode,none,false,.lblank⟩⟩] .leaf)) 1700797728 [⟨⟨(.inside 4),[],.lcode,false,[(9,0)],false⟩,false,false,[none],none,none,none,false,false,false,none,false,⟨.lcode,none,false,.lblank⟩⟩] (.node (.node (.node .leaf 1700810017 [⟨⟨(.inside 4),[],.lcode,false,[(9,1)],false⟩,false,false,[none],none,none,none,false,false,false,none,false,⟨.lcode,none,false,.lblank⟩⟩] .leaf) 1721797791 [⟨⟨(.inside 4),[],.lcode,false,[(9,0)],false⟩,false,false,[some (10,(.lf,false))],none,none,none,false,false,false,none,false,⟨.lcode,none,false,.lblank⟩⟩] .leaf) 1721810080 [⟨⟨(.inside 4),[],.lcode,false,[(9,1)],false⟩,false,false,[some (10,(.lf,false))],none,none,none,false,false,false,none,false,⟨.lcode,none,false,.lblank⟩⟩] (.node .leaf 1725797803 [⟨⟨(.inside 4),[],.lcode,false,[(9,0)],false⟩,false,false,[some (12,(.ff,false))],none,none,none,false,false,false,none,false,⟨.lcode,none,false,.lblank⟩⟩] .leaf))))) 1725810092 [⟨⟨(.inside 4),[],.lcode,false,[(9,1)],false⟩,false,false,[some (12,(.ff,false))],none,none,none,false,false,false,none,false,⟨.lcode,none,false,.lblank⟩⟩] (.node (.node (.node (.node (.node (.node .leaf 1727797809 [⟨⟨(.inside 4),[],.lcode,false,[(9,0)],false⟩,false,false,[some (13,(.cr,false))],none,none,none,false,false,false,none,false,⟨.lcode,none,false,.lblank⟩⟩] .leaf) 1727810098 [⟨⟨(.inside 4),[],.lcode,false,[(9,1)],false⟩,false,false,[some (13,(.cr,false))],none,none,none,false,false,false,none,false,⟨.lcode,none,false,.lblank⟩⟩] .leaf) 1728797812 [⟨⟨(.inside 4),[],.lcode,false,[(9,0)],false⟩,false,false,[some (13,(.cr,true))],none,none,none,false,false,false,none,false,⟨.lcode,none,false,.lblank⟩⟩] (.node (.node .leaf 1728810101 [⟨⟨(.inside 4),[],.lcode,false,[(9,1)],false⟩,false,false,[some (13,(.cr,true))],none,none,none,false,false,false,none,false,⟨.lcode,none,false,.lblank⟩⟩] .leaf) 1822645778 [⟨⟨.code,[82],.lcode,false,[(9,0)],false⟩,false,false,[some (101,(.other,false)),none],none,none,none,false,false,false,none,false,⟨.lcode,none,false,.lblank⟩⟩] .leaf)) 1822658067 [⟨⟨.code,[82],.lcode,false,[(9,1)],false⟩,false,false,[some (101,(.other,false)),none],none,none,none,false,false,false,none,false,⟨.lcode,none,false,.lblank⟩⟩] (.node (.node (.node .leaf 1977192242 [⟨⟨.code,[114],.lcode,false,[(9,0)],false⟩,false,false,[some (101,(.other,false)),none],none,none,none,false,false,false,none,false,⟨.lcode,none,false,.lblank⟩⟩] .leaf) 1977204531 [⟨⟨.code,[114],.lcode,false,[(9,1)],false⟩,false,false,[some (101,(.other,false)),none],none,none,none,false,false,false,none,false,⟨.lcode,none,false,.lblank⟩⟩] .leaf) 2087163888 [⟨⟨(.inside 5),[],.lcode,false,[(9,0)],false⟩,false,false,[none],none,none,none,false,false,false,none,false,⟨.lcode,none,false,.lblank⟩⟩] (.node (.node .leaf 2087176177 [⟨⟨(.inside 5),[],.lcode,false,[(9,1)],false⟩,false,false,[none],none,none,none,false,false,false,none,false,⟨.lcode,none,false,.lblank⟩⟩] .leaf) 2108163951 [⟨⟨(.inside 5),[],.lcode,false,[(9,0)],false⟩,false,false,[some (10,(.lf,false))],none,none,none,false,false,false,none,false,⟨.lcode,none,false,.lblank⟩⟩] .leaf))) 2108176240 [⟨⟨(.inside 5),[],.lcode,false,[(9,1)],false⟩,false,false,[some (10,(.lf,false))],none,none,none,false,false,false,none,false,⟨.lcode,none,false,.lblank⟩⟩] (.node (.node (.node (.node .leaf 2112163963 [⟨⟨(.inside 5),[],.lcode,false,[(9,0)],false⟩,false,false,[some (12,(.ff,false))],none,none,none,false,false,false,none,false,⟨.lcode,none,false,.lblank⟩⟩] .leaf) 2112176252 [⟨⟨(.inside 5),[],.lcode,false,[(9,1)],false⟩,false,false,[some (12,(.ff,false))],none,none,none,false,false,false,none,false,⟨.lcode,none,false,.lblank⟩⟩] .leaf) 2114163969 [⟨⟨(.inside 5),[],.lcode,false,[(9,0)],false⟩,false,false,[some (13,(.cr,false))],none,none,none,false,false,false,none,false,⟨.lcode,none,false,.lblank⟩⟩] (.node (.node .leaf 2114176258 [⟨⟨(.inside 5),[],.lcode,false,[(9,1)],false⟩,false,false,[some (13,(.cr,false))],none,none,none,false,false,false,none,false,⟨.lcode,none,false,.lblank⟩⟩] .leaf) 2115163972 [⟨⟨(.inside 5),[],.lcode,false,[(9,0)],false⟩,false,false,[some (13,(.cr,true))],none,none,none,false,false,false,none,false,⟨.lcode,none,false,.lblank⟩⟩] .leaf)) 2115176261 [⟨⟨(.inside 5),[],.lcode,false,[(9,1)],false⟩,false,false,[some (13,(.cr,true))],none,none,none,false,false,false,none,false,⟨.lcode,none,false,.lblank⟩⟩] (.node (.node (.node .leaf 2473530048 [⟨⟨(.inside 6),[],.lcode,false,[(9,0)],false⟩,false,false,[none],none,none,none,false,false,false,none,false,⟨.lcode,none,false,.lblank⟩⟩] .leaf) 2473542337 [⟨⟨(.inside 6),[],.lcode,false,[(9,1)],false⟩,false,false,[none],none,none,none,false,false,false,none,false,⟨.lcode,none,false,.lblank⟩⟩] .leaf) 2494530111 [⟨⟨(.inside 6),[],.lcode,false,[(9,0)],false⟩,false,false,[some (10,(.lf,false))],none,none,none,false,false,false,none,false,⟨.lcode,none,false,.lblank⟩⟩] (.node .leaf 2494542400 [⟨⟨(.inside 6),[],.lcode,false,[(9,1)],false⟩,false,false,[some (10,(.lf,false))],none,none,none,false,false,false,none,false,⟨.lcode,none,false,.lblank⟩⟩] .leaf)))) 2498530123 [⟨⟨(.inside 6),[],.lcode,false,[(9,0)],false⟩,false,false,[some (12,(.ff,false))],none,none,none,false,false,false,none,false,⟨.lcode,none,false,.lblank⟩⟩] (.node (.node (.node (.node (.node .leaf 2498542412 [⟨⟨(.inside 6),[],.lcode,false,[(9,1)],false⟩,false,false,[some (12,(.ff,false))],none,none,none,false,false,false,none,false,⟨.lcode,none,false,.lblank⟩⟩] .leaf) 2500530129 [⟨⟨(.inside 6),[],.lcode,false,[(9,0)],false⟩,false,false,[some (13,(.cr,false))],none,none,none,false,false,false,none,false,⟨.lcode,none,false,.lblank⟩⟩] .leaf) 2500542418 [⟨⟨(.inside 6),[],.lcode,false,[(9,1)],false⟩,false,false,[some (13,(.cr,false))],none,none,none,false,false,false,none,false,⟨.lcode,none,false,.lblank⟩⟩] (.node (.node .leaf 2501530132 [⟨⟨(.inside 6),[],.lcode,false,[(9,0)],false⟩,false,false,[some (13,(.cr,true))],none,none,none,false,false,false,none,false,⟨.lcode,none,false,.lblank⟩⟩] .leaf) 2501542421 [⟨⟨(.inside 6),[],.lcode,false,[(9,1)],false⟩,false,false,[some (13,(.cr,true))],none,none,none,false,false,false,none,false,⟨.lcode,none,false,.lblank⟩⟩] .leaf)) 2859896208 [⟨⟨(.inside 7),[],.lcode,false,[(9,0)],false⟩,false,false,[none],none,none,none,false,false,false,none,false,⟨.lcode,none,false,.lblank⟩⟩] (.node (.node (.node .leaf 2859908497 [⟨⟨(.inside 7),[],.lcode,false,[(9,1)],false⟩,false,false,[none],none,none,none,false,false,false,none,false,⟨.lcode,none,false,.lblank⟩⟩] .leaf) 2880896271 [⟨⟨(.inside 7),[],.lcode,false,[(9,0)],false⟩,false,false,[some (10,(.lf,false))],none,none,none,false,false,false,none,false,⟨.lcode,none,false,.lblank⟩⟩] .leaf) 2880908560 [⟨⟨(.inside 7),[],.lcode,false,[(9,1)],false⟩,false,false,[some (10,(.lf,false))],none,none,none,false,false,false,none,false,⟨.lcode,none,false,.lblank⟩⟩] (.node .leaf 2884896283 [⟨⟨(.inside 7),[],.lcode,false,[(9,0)],false⟩,false,false,[some (12,(.ff,false))],none,none,none,false,false,false,none,false,⟨.lcode,none,false,.lblank⟩⟩] .leaf))) 2884908572 [⟨⟨(.inside 7),[],.lcode,false,[(9,1)],false⟩,false,false,[some (12,(.ff,false))],none,none,none,false,false,false,none,false,⟨.lcode,none,false,.lblank⟩⟩] (.node (.node (.node (.node .leaf 2886896289 [⟨⟨(.inside 7),[],.lcode,false,[(9,0)],false⟩,false,false,[some (13,(.cr,false))],none,none,none,false,false,false,none,false,⟨.lcode,none,false,.lblank⟩⟩] .leaf) 2886908578 [⟨⟨(.inside 7),[],.lcode,false,[(9,1)],false⟩,false,false,[some (13,(.cr,false))],none,none,none,false,false,false,none,false,⟨.lcode,none,false,.lblank⟩⟩] .leaf) 2887896292 [⟨⟨(.inside 7),[],.lcode,false,[(9,0)],false⟩,false,false,[some (13,(.cr,true))],none,none,none,false,false,false,none,false,⟨.lcode,none,false,.lblank⟩⟩] (.node (.node .leaf 2887908581 [⟨⟨(.inside 7),[],.lcode,false,[(9,1)],false⟩,false,false,[some (13,(.cr,true))],none,none,none,false,false,false,none,false,⟨.lcode,none,false,.lblank⟩⟩] .leaf) 3246262368 [⟨⟨(.inside 8),[],.lcode,false,[(9,0)],false⟩,false,false,[none],none,none,none,false,false,false,none,false,⟨.lcode,none,false,.lblank⟩⟩] .leaf)) 3246274657 [⟨⟨(.inside 8),[],.lcode,false,[(9,1)],false⟩,false,false,[none],none,none,none,false,false,false,none,false,⟨.lcode,none,false,.lblank⟩⟩] (.node (.node (.node .leaf 3267262431 [⟨⟨(.inside 8),[],.lcode,false,[(9,0)],false⟩,false,false,[some (10,(.lf,false))],none,none,none,false,false,false,none,false,⟨.lcode,none,false,.lblank⟩⟩] .leaf) 3267274720 [⟨⟨(.inside 8),[],.lcode,false,[(9,1)],false⟩,false,false,[some (10,(.lf,false))],none,none,none,false,false,false,none,false,⟨.lcode,none,false,.lblank⟩⟩] .leaf) 3271262443 [⟨⟨(.inside 8),[],.lcode,false,[(9,0)],false⟩,false,false,[some (12,(.ff,false))],none,none,none,false,false,false,none,false,⟨.lcode,none,false,.lblank⟩⟩] (.node .leaf 3271274732 [⟨⟨(.inside 8),[],.lcode,false,[(9,1)],false⟩,false,false,[some (12,(.ff,false))],none,none,none,false,false,false,none,false,⟨.lcode,none,false,.lblank⟩⟩] .leaf)))))))) 3273262449 [⟨⟨(.inside 8),[],.lcode,false,[(9,0)],false⟩,false,false,[some (13,(.cr,false))],none,none,none,false,false,false,none,false,⟨.lcode,none,false,.lblank⟩⟩] (.node (.node (.node (.node (.node (.node (.node (.node (.node .leaf 3273274738 [⟨⟨(.inside 8),[],.lcode,false,[(9,1)],false⟩,false,false,[some (13,(.cr,false))],none,none,none,false,false,false,none,false,⟨.lcode,none,false,.lblank⟩⟩] .leaf) 3274262452 [⟨⟨(.inside 8),[],.lcode,false,[(9,0)],false⟩,false,false,[some (13,(.cr,true))],none,none,none,false,false,false,none,false,⟨.lcode,none,false,.lblank⟩⟩] .leaf) 3274274741 [⟨⟨(.inside 8),[],.lcode,false,[(9,1)],false⟩,false,false,[some (13,(.cr,true))],none,none,none,false,false,false,none,false,⟨.lcode,none,false,.lblank⟩⟩] (.node (.node .leaf 5464832405 [⟨⟨.code,[82,69],.lblank,false,[],false⟩,false,false,[none],none,none,none,false,false,false,none,false,⟨.lcode,none,false,.lblank⟩⟩] .leaf) 5466012149 [⟨⟨.code,[82,101],.lblank,false,[],false⟩,false,false,[none],none,none,none,false,false,false,none,false,⟨.lcode,none,false,.lblank⟩⟩] .leaf)) 5483832462 [⟨⟨.code,[82,69],.lblank,false,[],false⟩,false,false,[some (9,(.ws,false))],none,none,none,false,false,false,none,false,⟨.lcode,none,false,.lblank⟩⟩] (.node (.node (.node .leaf 5485012206 [⟨⟨.code,[82,101],.lblank,false,[],false⟩,false,false,[some (9,(.ws,false))],none,none,none,false,false,false,none,false,⟨.lcode,none,false,.lblank⟩⟩] .leaf) 5485832468 [⟨⟨.code,[82,69],.lblank,false,[],false⟩,false,false,[some (10,(.lf,false))],none,none,none,false,false,false,none,false,⟨.lcode,none,false,.lblank⟩⟩] .leaf) 5487012212 [⟨⟨.code,[82,101],.lblank,false,[],false⟩,false,false,[some (10,(.lf,false))],none,none,none,false,false,false,none,false,⟨.lcode,none,false,.lblank⟩⟩] (.node (.node .leaf 5489832480 [⟨⟨.code,[82,69],.lblank,false,[],false⟩,false,false,[some (12,(.ff,false))],none,none,none,false,false,false,none,false,⟨.lcode,none,false,.lblank⟩⟩] .leaf) 5491012224 [⟨⟨.code,[82,101],.lblank,false,[],false⟩,false,false,[some (12,(.ff,false))],none,none,none,false,false,false,none,false,⟨.lcode,none,false,.lblank⟩⟩] .leaf))) 5491832486 [⟨⟨.code,[82,69],.lblank,false,[],false⟩,false,false,[some (13,(.cr,false))],none,none,none,false,false,false,none,false,⟨.lcode,none,false,.lblank⟩⟩] (.node (.node (.node (.node .leaf 5492832489 [⟨⟨.code,[82,69],.lblank,false,[],false⟩,false,false,[some (13,(.cr,true))],none,none,none,false,false,false,none,false,⟨.lcode,none,false,.lblank⟩⟩] .leaf) 5493012230 [⟨⟨.code,[82,101],.lblank,false,[],false⟩,false,false,[some (13,(.cr,false))],none,none,none,false,false,false,none,false,⟨.lcode,none,false,.lblank⟩⟩] .leaf) 5494012233 [⟨⟨.code,[82,101],.lblank,false,[],false⟩,false,false,[some (13,(.cr,true))],none,none,none,false,false,false,none,false,⟨.lcode,none,false,.lblank⟩⟩] (.node (.node .leaf 5533832612 [⟨⟨.code,[82,69],.lblank,false,[],false⟩,false,false,[some (34,(.other,false))],none,none,none,false,false,false,none,false,⟨.lcode,none,false,.lblank⟩⟩] .leaf) 5535012356 [⟨⟨.code,[82,101],.lblank,false,[],false⟩,false,false,[some (34,(.other,false))],none,none,none,false,false,false,none,false,⟨.lcode,none,false,.lblank⟩⟩] .leaf)) 5543832642 [⟨⟨.code,[82,69],.lblank,false,[],false⟩,false,false,[some (39,(.other,false))],none,none,none,false,false,false,none,false,⟨.lcode,none,false,.lblank⟩⟩] (.node (.node (.node .leaf 5545012386 [⟨⟨.code,[82,101],.lblank,false,[],false⟩,false,false,[some (39,(.other,false))],none,none,none,false,false,false,none,false,⟨.lcode,none,false,.lblank⟩⟩] .leaf) 5603832822 [⟨⟨.code,[82,69],.lblank,false,[],false⟩,false,false,[some (69,(.other,false))],none,none,none,false,false,false,none,false,⟨.lcode,none,false,.lblank⟩⟩] .leaf) 5605012566 [⟨⟨.code,[82,101],.lblank,false,[],false⟩,false,false,[some (69,(.other,false))],none,none,none,false,false,false,none,false,⟨.lcode,none,false,.lblank⟩⟩] (.node .leaf 5619378869 [⟨⟨.code,[114,69],.lblank,false,[],false⟩,false,false,[none],none,none,none,false,false,false,none,false,⟨.lcode,none,false,.lblank⟩⟩] .leaf)))) 5620558613 [⟨⟨.code,[114,101],.lblank,false,[],false⟩,false,false,[none],none,none,none,false,false,false,none,false,⟨.lcode,none,false,.lblank⟩⟩] (.node (.node (.node (.node (.node .leaf 5629832900 [⟨⟨.code,[82,69],.lblank,false,[],false⟩,false,false,[some (82,(.other,false))],none,none,none,false,false,false,none,false,⟨.lcode,none,false,.lblank⟩⟩] .leaf) 5631012644 [⟨⟨.code,[82,101],.lblank,false,[],false⟩,false,false,[some (82,(.other,false))],none,none,none,false,false,false,none,false,⟨.lcode,none,false,.lblank⟩⟩] .leaf) 5638378926 [⟨⟨.code,[114,69],.lblank,false,[],false⟩,false,false,[some (9,(.ws,false))],none,none,none,false,false,false,none,false,⟨.lcode,none,false,.lblank⟩⟩] (.node (.node .leaf 5639558670 [⟨⟨.code,[114,101],.lblank,false,[],false⟩,false,false,[some (9,(.ws,false))],none,none,none,false,false,false,none,false,⟨.lcode,none,false,.lblank⟩⟩] .leaf) 5640378932 [⟨⟨.code,[114,69],.lblank,false,[],false⟩,false,false,[some (10,(.lf,false))],none,none,none,false,false,false,none,false,⟨.lcode,none,false,.lblank⟩⟩] .leaf)) 5641558676 [⟨⟨.code,[114,101],.lblank,false,[],false⟩,false,false,[some (10,(.lf,false))],none,none,none,false,false,false,none,false,⟨.lcode,none,false,.lblank⟩⟩] (.node (.node (.node .leaf 5644378944 [⟨⟨.code,[114,69],.lblank,false,[],false⟩,false,false,[some (12,(.ff,false))],none,none,none,false,false,false,none,false,⟨.lcode,none,false,.lblank⟩⟩] .leaf) 5645558688 [⟨⟨.code,[114,101],.lblank,false,[],false⟩,false,false,[some (12,(.ff,false))],none,none,none,false,false,false,none,false,⟨.lcode,none,false,.lblank⟩⟩] .leaf) 5646378950 [⟨⟨.code,[114,69],.lblank,false,[],false⟩,false,false,[some (13,(.cr,false))],none,none,none,false,false,false,none,false,⟨.lcode,none,false,.lblank⟩⟩] (.node (.node .leaf 5647378953 [⟨⟨.code,[114,69],.lblank,false,[],false⟩,false,false,[some (13,(.cr,true))],none,none,none,false,false,false,none,false,⟨.lcode,none,false,.lblank⟩⟩] .leaf) 5647558694 [⟨⟨.code,[114,101],.lblank,false,[],false⟩,false,false,[some (13,(.cr,false))],none,none,none,false,false,false,none,false,⟨.lcode,none,false,.lblank⟩⟩] .leaf))) 5648558697 [⟨⟨.code,[114,101],.lblank,false,[],false⟩,false,false,[some (13,(.cr,true))],none,none,none,false,false,false,none,false,⟨.lcode,none,false,.lblank⟩⟩] (.node (.node (.node (.node .leaf 5649832960 [⟨⟨.code,[82,69],.lblank,false,[],false⟩,false,false,[some (92,(.other,false))],none,none,none,false,false,false,none,false,⟨.lcode,none,false,.lblank⟩⟩] .leaf) 5651012704 [⟨⟨.code,[82,101],.lblank,false,[],false⟩,false,false,[some (92,(.other,false))],none,none,none,false,false,false,none,false,⟨.lcode,none,false,.lblank⟩⟩] .leaf) 5667833014 [⟨⟨.code,[82,69],.lblank,false,[],false⟩,false,false,[some (101,(.other,false))],none,none,none,false,false,false,none,false,⟨.lcode,none,false,.lblank⟩⟩] (.node (.node .leaf 5669012758 [⟨⟨.code,[82,101],.lblank,false,[],false⟩,false,false,[some (101,(.other,false))],none,none,none,false,false,false,none,false,⟨.lcode,none,false,.lblank⟩⟩] .leaf) 5688379076 [⟨⟨.code,[114,69],.lblank,false,[],false⟩,false,false,[some (34,(.other,false))],none,none,none,false,false,false,none,false,⟨.lcode,none,false,.lblank⟩⟩] .leaf)) 5689558820 [⟨⟨.code,[114,101],.lblank,false,[],false⟩,false,false,[some (34,(.other,false))],none,none,none,false,false,false,none,false,⟨.lcode,none,false,.lblank⟩⟩] (.node (.node (.node .leaf 5693833092 [⟨⟨.code,[82,69],.lblank,false,[],false⟩,false,false,[some (114,(.other,false))],none,none,none,false,false,false,none,false,⟨.lcode,none,false,.lblank⟩⟩] .leaf) 5695012836 [⟨⟨.code,[82,101],.lblank,false,[],false⟩,false,false,[some (114,(.other,false))],none,none,none,false,false,false,none,false,⟨.lcode,none,false,.lblank⟩⟩] .leaf) 5698379106 [⟨⟨.code,[114,69],.lblank,false,[],false⟩,false,false,[some (39,(.other,false))],none,none,none,false,false,false,none,false,⟨.lcode,none,false,.lblank⟩⟩] (.node .leaf 5699558850 [⟨⟨.code,[114,101],.lblank,false,[],false⟩,false,false,[some (39,(.other,false))],none,none,none,false,false,false,none,false,⟨.lcode,none,false,.lblank⟩⟩] .leaf))))) 5758379286 [⟨⟨.code,[114,69],.lblank,false,[],false⟩,false,false,[some (69,(.other,false))],none,none,none,false,false,false,none,false,⟨.lcode,none,false,.lblank⟩⟩] (.node (.node (.node (.node (.node (.node .leaf 5759559030 [⟨⟨.code,[114,101],.lblank,false,[],false⟩,false,false,[some (69,(.other,false))],none,none,none,false,false,false,none,false,⟨.lcode,none,false,.lblank⟩⟩] .leaf) 5784379364 [⟨⟨.code,[114,69],.lblank,false,[],false⟩,false,false,[some (82,(.other,false))],none,none,none,false,false,false,none,false,⟨.lcode,none,false,.lblank⟩⟩] .leaf) 5785559108 [⟨⟨.code,[114,101],.lblank,false,[],false⟩,false,false,[some (82,(.other,false))],none,none,none,false,false,false,none,false,⟨.lcode,none,false,.lblank⟩⟩] (.node (.node .leaf 5804379424 [⟨⟨.code,[114,69],.lblank,false,[],false⟩,false,false,[some (92,(.other,false))],none,none,none,false,false,false,none,false,⟨.lcode,none,false,.lblank⟩⟩] .leaf) 5805559168 [⟨⟨.code,[114,101],.lblank,false,[],false⟩,false,false,[some (92,(.other,false))],none,none,none,false,false,false,none,false,⟨.lcode,none,false,.lblank⟩⟩] .leaf)) 5822379478 [⟨⟨.code,[114,69],.lblank,false,[],false⟩,false,false,[some (101,(.other,false))],none,none,none,false,false,false,none,false,⟨.lcode,none,false,.lblank⟩⟩] (.node (.node (.node .leaf 5823559222 [⟨⟨.code,[114,101],.lblank,false,[],false⟩,false,false,[some (101,(.other,false))],none,none,none,false,false,false,none,false,⟨.lcode,none,false,.lblank⟩⟩] .leaf) 5848379556 [⟨⟨.code,[114,69],.lblank,false,[],false⟩,false,false,[some (114,(.other,false))],none,none,none,false,false,false,none,false,⟨.lcode,none,false,.lblank⟩⟩] .leaf) 5849559300 [⟨⟨.code,[114,101],.lblank,false,[],false⟩,false,false,[some (114,(.other,false))],none,none,none,false,false,false,none,false,⟨.lcode,none,false,.lblank⟩⟩] (.node (.node .leaf 5977833944 [⟨⟨.code,[82,69],.lblank,false,[],false⟩,false,false,[some (256,(.other,false))],none,none,none,false,false,false,none,false,⟨.lcode,none,false,.lblank⟩⟩] .leaf) 5979013688 [⟨⟨.code,[82,101],.lblank,false,[],false⟩,false,false,[some (256,(.other,false))],none,none,none,false,false,false,none,false,⟨.lcode,none,false,.lblank⟩⟩] .leaf))) 6132380408 [⟨⟨.code,[114,69],.lblank,false,[],false⟩,false,false,[some (256,(.other,false))],none,none,none,false,false,false,none,false,⟨.lcode,none,false,.lblank⟩⟩] (.node (.node (.node (.node .leaf 6133560152 [⟨⟨.code,[114,101],.lblank,false,[],false⟩,false,false,[some (256,(.other,false))],none,none,none,false,false,false,none,false,⟨.lcode,none,false,.lblank⟩⟩] .leaf) 52850847735 [⟨⟨.code,[82,69],.lcode,false,[(9,0)],false⟩,false,false,[none],none,none,none,false,false,false,none,false,⟨.lcode,none,false,.lblank⟩⟩] .leaf) 52850860024 [⟨⟨.code,[82,69],.lcode,false,[(9,1)],false⟩,false,false,[none],none,none,none,false,false,false,none,false,⟨.lcode,none,false,.lblank⟩⟩] (.node (.node .leaf 52869847792 [⟨⟨.code,[82,69],.lcode,false,[(9,0)],false⟩,false,false,[some (9,(.ws,false))],none,none,none,false,false,false,none,false,⟨.lcode,none,false,.lblank⟩⟩] .leaf) 52869860081 [⟨⟨.code,[82,69],.lcode,false,[(9,1)],false⟩,false,false,[some (9,(.ws,false))],none,none,none,false,false,false,none,false,⟨.lcode,none,false,.lblank⟩⟩] .leaf)) 52871847798 [⟨⟨.code,[82,69],.lcode,false,[(9,0)],false⟩,false,false,[some (10,(.lf,false))],none,none,none,false,false,false,none,false,⟨.lcode,none,false,.lblank⟩⟩] (.node (.node (.node .leaf 52871860087 [⟨⟨.code,[82,69],.lcode,false,[(9,1)],false⟩,false,false,[some (10,(.lf,false))],none,none,none,false,false,false,none,false,⟨.lcode,none,false,.lblank⟩⟩] .leaf) 52875847810 [⟨⟨.code,[82,69],.lcode,false,[(9,0)],false⟩,false,false,[some (12,(.ff,false))],none,none,none,false,false,false,none,false,⟨.lcode,none,false,.lblank⟩⟩] .leaf) 52875860099 [⟨⟨.code,[82,69],.lcode,false,[(9,1)],false⟩,false,false,[some (12,(.ff,false))],none,none,none,false,false,false,none,false,⟨.lcode,none,false,.lblank⟩⟩] (.node .leaf 52877847816 [⟨⟨.code,[82,69],.lcode,false,[(9,0)],false⟩,false,false,[some (13,(.cr,false))],none,none,none,false,false,false,none,false,⟨.lcode,none,false,.lblank⟩⟩] .leaf)))) 52877860105 [⟨⟨.code,[82,69],.lcode,false,[(9,1)],false⟩,false,false,[some (13,(.cr,false))],none,none,none,false,false,false,none,false,⟨.lcode,none,false,.lblank⟩⟩] (.node (.node (.node (.node (.node .leaf 52878847819 [⟨⟨.code,[82,69],.lcode,false,[(9,0)],false⟩,false,false,[some (13,(.cr,true))],none,none,none,false,false,false,none,false,⟨.lcode,none,false,.lblank⟩⟩] .leaf) 52878860108 [⟨⟨.code,[82,69],.lcode,false,[(9,1)],false⟩,false,false,[some (13,(.cr,true))],none,none,none,false,false,false,none,false,⟨.lcode,none,false,.lblank⟩⟩] .leaf) 52929847972 [⟨⟨.code,[82,69],.lcode,false,[(9,0)],false⟩,false,false,[some (39,(.other,false))],none,none,none,false,false,false,none,false,⟨.lcode,none,false,.lblank⟩⟩] (.node (.node .leaf 52929860261 [⟨⟨.code,[82,69],.lcode,false,[(9,1)],false⟩,false,false,[some (39,(.other,false))],none,none,none,false,false,false,none,false,⟨.lcode,none,false,.lblank⟩⟩] .leaf) 52989848152 [⟨⟨.code,[82,69],.lcode,false,[(9,0)],false⟩,false,false,[some (69,(.other,false))],none,none,none,false,false,false,none,false,⟨.lcode,none,false,.lblank⟩⟩] .leaf)) 52989860441 [⟨⟨.code,[82,69],.lcode,false,[(9,1)],false⟩,false,false,[some (69,(.other,false))],none,none,none,false,false,false,none,false,⟨.lcode,none,false,.lblank⟩⟩] (.node (.node (.node .leaf 53005394199 [⟨⟨.code,[82,101],.lcode,false,[(9,0)],false⟩,false,false,[none],none,none,none,false,false,false,none,false,⟨.lcode,none,false,.lblank⟩⟩] .leaf) 53005406488 [⟨⟨.code,[82,101],.lcode,false,[(9,1)],false⟩,false,false,[none],none,none,none,false,false,false,none,false,⟨.lcode,none,false,.lblank⟩⟩] .leaf) 53015848230 [⟨⟨.code,[82,69],.lcode,false,[(9,0)],false⟩,false,false,[some (82,(.other,false))],none,none,none,false,false,false,none,false,⟨.lcode,none,false,.lblank⟩⟩] (.node .leaf 53015860519 [⟨⟨.code,[82,69],.lcode,false,[(9,1)],false⟩,false,false,[some (82,(.other,false))],none,none,none,false,false,false,none,false,⟨.lcode,none,false,.lblank⟩⟩] .leaf))) 53024394256 [⟨⟨.code,[82,101],.lcode,false,[(9,0)],false⟩,false,false,[some (9,(.ws,false))],none,none,none,false,false,false,none,false,⟨.lcode,none,false,.lblank⟩⟩] (.node (.node (.node (.node .leaf 53024406545 [⟨⟨.code,[82,101],.lcode,false,[(9,1)],false⟩,false,false,[some (9,(.ws,false))],none,none,none,false,false,false,none,false,⟨.lcode,none,false,.lblank⟩⟩] .leaf) 53026394262 [⟨⟨.code,[82,101],.lcode,false,[(9,0)],false⟩,false,false,[some (10,(.lf,false))],none,none,none,false,false,false,none,false,⟨.lcode,none,false,.lblank⟩⟩] .leaf) 53026406551 [⟨⟨.code,[82,101],.lcode,false,[(9,1)],false⟩,false,false,[some (10,(.lf,false))],none,none,none,false,false,false,none,false,⟨.lcode,none,false,.lblank⟩⟩] (.node (.node .leaf 53030394274 [⟨⟨.code,[82,101],.lcode,false,[(9,0)],false⟩,false,false,[some (12,(.ff,false))],none,none,none,false,false,false,none,false,⟨.lcode,none,false,.lblank⟩⟩] .leaf) 53030406563 [⟨⟨.code,[82,101],.lcode,false,[(9,1)],false⟩,false,false,[some (12,(.ff,false))],none,none,none,false,false,false,none,false,⟨.lcode,none,false,.lblank⟩⟩] .leaf)) 53032394280 [⟨⟨.code,[82,101],.lcode,false,[(9,0)],false⟩,false,false,[some (13,(.cr,false))],none,none,none,false,false,false,none,false,⟨.lcode,none,false,.lblank⟩⟩] (.node (.node (.node .leaf 53032406569 [⟨⟨.code,[82,101],.lcode,false,[(9,1)],false⟩,false,false,[some (13,(.cr,false))],none,none,none,false,false,false,none,false,⟨.lcode,none,false,.lblank⟩⟩] .leaf) 53033394283 [⟨⟨.code,[82,101],.lcode,false,[(9,0)],false⟩,false,false,[some (13,(.cr,true))],none,none,none,false,false,false,none,false,⟨.lcode,none,false,.lblank⟩⟩] .leaf) 53033406572 [⟨⟨.code,[82,101],.lcode,false,[(9,1)],false⟩,false,false,[some (13,(.cr,true))],none,none,none,false,false,false,none,false,⟨.lcode,none,false,.lblank⟩⟩] (.node .leaf 53035848290 [⟨⟨.code,[82,69],.lcode,false,[(9,0)],false⟩,false,false,[some (92,(.other,false))],none,none,none,false,false,false,none,false,⟨.lcode,none,false,.lblank⟩⟩] .leaf)))))) 53035860579 [⟨⟨.code,[82,69],.lcode,false,[(9,1)],false⟩,false,false,[some (92,(.other,false))],none,none,none,false,false,false,none,false,⟨.lcode,none,false,.lblank⟩⟩] (.node (.node (.node (.node (.node (.node (.node .leaf 53053848344 [⟨⟨.code,[82,69],.lcode,false,[(9,0)],false⟩,false,false,[some (101,(.other,false))],none,none,none,false,false,false,none,false,⟨.lcode,none,false,.lblank⟩⟩] .leaf) 53053860633 [⟨⟨.code,[82,69],.lcode,false,[(9,1)],false⟩,false,false,[some (101,(.other,false))],none,none,none,false,false,false,none,false,⟨.lcode,none,false,.lblank⟩⟩] .leaf) 53079848422 [⟨⟨.code,[82,69],.lcode,false,[(9,0)],false⟩,false,false,[some (114,(.other,false))],none,none,none,false,false,false,none,false,⟨.lcode,none,false,.lblank⟩⟩] (.node (.node .leaf 53079860711 [⟨⟨.code,[82,69],.lcode,false,[(9,1)],false⟩,false,false,[some (114,(.other,false))],none,none,none,false,false,false,none,false,⟨.lcode,none,false,.lblank⟩⟩] .leaf) 53084394436 [⟨⟨.code,[82,101],.lcode,false,[(9,0)],false⟩,false,false,[some (39,(.other,false))],none,none,none,false,false,false,none,false,⟨.lcode,none,false,.lblank⟩⟩] .leaf)) 53084406725 [⟨⟨.code,[82,101],.lcode,false,[(9,1)],false⟩,false,false,[some (39,(.other,false))],none,none,none,false,false,false,none,false,⟨.lcode,none,false,.lblank⟩⟩] (.node (.node (.node .leaf 53144394616 [⟨⟨.code,[82,101],.lcode,false,[(9,0)],false⟩,false,false,[some (69,(.other,false))],none,none,none,false,false,false,none,false,⟨.lcode,none,false,.lblank⟩⟩] .leaf) 53144406905 [⟨⟨.code,[82,101],.lcode,false,[(9,1)],false⟩,false,false,[some (69,(.other,false))],none,none,none,false,false,false,none,false,⟨.lcode,none,false,.lblank⟩⟩] .leaf) 53170394694 [⟨⟨.code,[82,101],.lcode,false,[(9,0)],false⟩,false,false,[some (82,(.other,false))],none,none,none,false,false,false,none,false,⟨.lcode,none,false,.lblank⟩⟩] (.node (.node .leaf 53170406983 [⟨⟨.code,[82,101],.lcode,false,[(9,1)],false⟩,false,false,[some (82,(.other,false))],none,none,none,false,false,false,none,false,⟨.lcode,none,false,.lblank⟩⟩] .leaf) 53190394754 [⟨⟨.code,[82,101],.lcode,false,[(9,0)],false⟩,false,false,[some (92,(.other,false))],none,none,none,false,false,false,none,false,⟨.lcode,none,false,.lblank⟩⟩] .leaf))) 53190407043 [⟨⟨.code,[82,101],.lcode,false,[(9,1)],false⟩,false,false,[some (92,(.other,false))],none,none,none,false,false,false,none,false,⟨.lcode,none,false,.lblank⟩⟩] (.node (.node (.node (.node .leaf 53208394808 [⟨⟨.code,[82,101],.lcode,false,[(9,0)],false⟩,false,false,[some (101,(.other,false))],none,none,none,false,false,false,none,false,⟨.lcode,none,false,.lblank⟩⟩] .leaf) 53208407097 [⟨⟨.code,[82,101],.lcode,false,[(9,1)],false⟩,false,false,[some (101,(.other,false))],none,none,none,false,false,false,none,false,⟨.lcode,none,false,.lblank⟩⟩] .leaf) 53234394886 [⟨⟨.code,[82,101],.lcode,false,[(9,0)],false⟩,false,false,[some (114,(.other,false))],none,none,none,false,false,false,none,false,⟨.lcode,none,false,.lblank⟩⟩] (.node (.node .leaf 53234407175 [⟨⟨.code,[82,101],.lcode,false,[(9,1)],false⟩,false,false,[some (114,(.other,false))],none,none,none,false,false,false,none,false,⟨.lcode,none,false,.lblank⟩⟩] .leaf) 53363849274 [⟨⟨.code,[82,69],.lcode,false,[(9,0)],false⟩,false,false,[some (256,(.other,false))],none,none,none,false,false,false,none,false,⟨.lcode,none,false,.lblank⟩⟩] .leaf)) 53363861563 [⟨⟨.code,[82,69],.lcode,false,[(9,1)],false⟩,false,false,[some (256,(.other,false))],none,none,none,false,false,false,none,false,⟨.lcode,none,false,.lblank⟩⟩] (.node (.node (.node .leaf 53518395738 [⟨⟨.code,[82,101],.lcode,false,[(9,0)],false⟩,false,false,[some (256,(.other,false))],none,none,none,false,false,false,none,false,⟨.lcode,none,false,.lblank⟩⟩] .leaf) 53518408027 [⟨⟨.code,[82,101],.lcode,false,[(9,1)],false⟩,false,false,[some (256,(.other,false))],none,none,none,false,false,false,none,false,⟨.lcode,none,false,.lblank⟩⟩] .leaf) 72441277403 [⟨⟨.code,[82],.lcode,false,[],false⟩,false,false,[some (69,(.other,false)),some (9,(.ws,false))],none,none,none,false,false,false,none,false,⟨.lcode,none,false,.lblank⟩⟩] (.node .leaf 72442457147 [⟨⟨.code,[114],.lcode,false,[],false⟩,false,false,[some (69,(.other,false)),some (9,(.ws,false))],none,none,none,false,false,false,none,false,⟨.lcode,none,false,.lblank⟩⟩] .leaf)))) 72443277409 [⟨⟨.code,[82],.lcode,false,[],false⟩,false,false,[some (69,(.other,false)),some (10,(.lf,false))],none,none,none,false,false,false,none,false,⟨.lcode,none,false,.lblank⟩⟩] (.node (.node (.node (.node (.node .leaf 72444457153 [⟨⟨.code,[114],.lcode,false,[],false⟩,false,false,[some (69,(.other,false)),some (10,(.lf,false))],none,none,none,false,false,false,none,false,⟨.lcode,none,false,.lblank⟩⟩] .leaf) 72447277421 [⟨⟨.code,[82],.lcode,false,[],false⟩,false,false,[some (69,(.other,false)),some (12,(.ff,false))],none,none,none,false,false,false,none,false,⟨.lcode,none,false,.lblank⟩⟩] .leaf) 72448457165 [⟨⟨.code,[114],.lcode,false,[],false⟩,false,false,[some (69,(.other,false)),some (12,(.ff,false))],none,none,none,false,false,false,none,false,⟨.lcode,none,false,.lblank⟩⟩] (.node (.node .leaf 72449277427 [⟨⟨.code,[82],.lcode,false,[],false⟩,false,false,[some (69,(.other,false)),some (13,(.cr,false))],none,none,none,false,false,false,none,false,⟨.lcode,none,false,.lblank⟩⟩] .leaf) 72450277430 [⟨⟨.code,[82],.lcode,false,[],false⟩,false,false,[some (69,(.other,false)),some (13,(.cr,true))],none,none,none,false,false,false,none,false,⟨.lcode,none,false,.lblank⟩⟩] .leaf)) 72450457171 [⟨⟨.code,[114],.lcode,false,[],false⟩,false,false,[some (69,(.other,false)),some (13,(.cr,false))],none,none,none,false,false,false,none,false,⟨.lcode,none,false,.lblank⟩⟩] (.node (.node (.node .leaf 72451457174 [⟨⟨.code,[114],.lcode,false,[],false⟩,false,false,[some (69,(.other,false)),some (13,(.cr,true))],none,none,none,false,false,false,none,false,⟨.lcode,none,false,.lblank⟩⟩] .leaf) 72479914019 [⟨⟨.code,[82],.lblank,false,[],false⟩,false,false,[some (69,(.other,false)),some (9,(.ws,false))],none,none,none,false,false,false,none,false,⟨.lcode,none,false,.lblank⟩⟩] .leaf) 72481093763 [⟨⟨.code,[114],.lblank,false,[],false⟩,false,false,[some (69,(.other,false)),some (9,(.ws,false))],none,none,none,false,false,false,none,false,⟨.lcode,none,false,.lblank⟩⟩] (.node (.node .leaf 72481914025 [⟨⟨.code,[82],.lblank,false,[],false⟩,false,false,[some (69,(.other,false)),some (10,(.lf,false))],none,none,none,false,false,false,none,false,⟨.lcode,none,false,.lblank⟩⟩] .leaf) 72483093769 [⟨⟨.code,[114],.lblank,false,[],false⟩,false,false,[some (69,(.other,false)),some (10,(.lf,false))],none,none,none,false,false,false,none,false,⟨.lcode,none,false,.lblank⟩⟩] .leaf))) 72485914037 [⟨⟨.code,[82],.lblank,false,[],false⟩,false,false,[some (69,(.other,false)),some (12,(.ff,false))],none,none,none,false,false,false,none,false,⟨.lcode,none,false,.lblank⟩⟩] (.node (.node (.node (.node .leaf 72487093781 [⟨⟨.code,[114],.lblank,false,[],false⟩,false,false,[some (69,(.other,false)),some (12,(.ff,false))],none,none,none,false,false,false,none,false,⟨.lcode,none,false,.lblank⟩⟩] .leaf) 72487914043 [⟨⟨.code,[82],.lblank,false,[],false⟩,false,false,[some (69,(.other,false)),some (13,(.cr,false))],none,none,none,false,false,false,none,false,⟨.lcode,none,false,.lblank⟩⟩] .leaf) 72488914046 [⟨⟨.code,[82],.lblank,false,[],false⟩,false,false,[some (69,(.other,false)),some (13,(.cr,true))],none,none,none,false,false,false,none,false,⟨.lcode,none,false,.lblank⟩⟩] (.node (.node .leaf 72489093787 [⟨⟨.code,[114],.lblank,false,[],false⟩,false,false,[some (69,(.other,false)),some (13,(.cr,false))],none,none,none,false,false,false,none,false,⟨.lcode,none,false,.lblank⟩⟩] .leaf) 72490093790 [⟨⟨.code,[114],.lblank,false,[],false⟩,false,false,[some (69,(.other,false)),some (13,(.cr,true))],none,none,none,false,false,false,none,false,⟨.lcode,none,false,.lblank⟩⟩] .leaf)) 72491277553 [⟨⟨.code,[82],.lcode,false,[],false⟩,false,false,[some (69,(.other,false)),some (34,(.other,false))],none,none,none,false,false,false,none,false,⟨.lcode,none,false,.lblank⟩⟩] (.node (.node (.node .leaf 72492457297 [⟨⟨.code,[114],.lcode,false,[],false⟩,false,false,[some (69,(.other,false)),some (34,(.other,false))],none,none,none,false,false,false,none,false,⟨.lcode,none,false,.lblank⟩⟩] .leaf) 72501277583 [⟨⟨.code,[82],.lcode,false,[],false⟩,false,false,[some (69,(.other,false)),some (39,(.other,false))],none,none,none,false,false,false,none,false,⟨.lcode,none,false,.lblank⟩⟩] .leaf) 72502457327 [⟨⟨.code,[114],.lcode,false,[],false⟩,false,false,[some (69,(.other,false)),some (39,(.other,false))],none,none,none,false,false,false,none,false,⟨.lcode,none,false,.lblank⟩⟩] (.node .leaf 72529914169 [⟨⟨.code,[82],.lblank,false,[],false⟩,false,false,[some (69,(.other,false)),some (34,(.other,false))],none,none,none,false,false,false,none,false,⟨.lcode,none,false,.lblank⟩⟩] .leaf))))) 72531093913 [⟨⟨.code,[114],.lblank,false,[],false⟩,false,false,[some (69,(.other,false)),some (34,(.other,false))],none,none,none,false,false,false,none,false,⟨.lcode,none,false,.lblank⟩⟩] (.node (.node (.node (.node (.node (.node .leaf 72539914199 [⟨⟨.code,[82],.lblank,false,[],false⟩,false,false,[some (69,(.other,false)),some (39,(.other,false))],none,none,none,false,false,false,none,false,⟨.lcode,none,false,.lblank⟩⟩] .leaf) 72541093943 [⟨⟨.code,[114],.lblank,false,[],false⟩,false,false,[some (69,(.other,false)),some (39,(.other,false))],none,none,none,false,false,false,none,false,⟨.lcode,none,false,.lblank⟩⟩] .leaf) 72561277763 [⟨⟨.code,[82],.lcode,false,[],false⟩,false,false,[some (69,(.other,false)),some (69,(.other,false))],none,none,none,false,false,false,none,false,⟨.lcode,none,false,.lblank⟩⟩] (.node (.node .leaf 72562457507 [⟨⟨.code,[114],.lcode,false,[],false⟩,false,false,[some (69,(.other,false)),some (69,(.other,false))],none,none,none,false,false,false,none,false,⟨.lcode,none,false,.lblank⟩⟩] .leaf) 72587277841 [⟨⟨.code,[82],.lcode,false,[],false⟩,false,false,[some (69,(.other,false)),some (82,(.other,false))],none,none,none,false,false,false,none,false,⟨.lcode,none,false,.lblank⟩⟩] .leaf)) 72588457585 [⟨⟨.code,[114],.lcode,false,[],false⟩,false,false,[some (69,(.other,false)),some (82,(.other,false))],none,none,none,false,false,false,none,false,⟨.lcode,none,false,.lblank⟩⟩] (.node (.node (.node .leaf 72599914379 [⟨⟨.code,[82],.lblank,false,[],false⟩,false,false,[some (69,(.other,false)),some (69,(.other,false))],none,none,none,false,false,false,none,false,⟨.lcode,none,false,.lblank⟩⟩] .leaf) 72601094123 [⟨⟨.code,[114],.lblank,false,[],false⟩,false,false,[some (69,(.other,false)),some (69,(.other,false))],none,none,none,false,false,false,none,false,⟨.lcode,none,false,.lblank⟩⟩] .leaf) 72607277901 [⟨⟨.code,[82],.lcode,false,[],false⟩,false,false,[some (69,(.other,false)),some (92,(.other,false))],none,none,none,false,false,false,none,false,⟨.lcode,none,false,.lblank⟩⟩] (.node (.node .leaf 72608457645 [⟨⟨.code,[114],.lcode,false,[],false⟩,false,false,[some (69,(.other,false)),some (92,(.other,false))],none,none,none,false,false,false,none,false,⟨.lcode,none,false,.lblank⟩⟩] .leaf) 72625277955 [⟨⟨.code,[82],.lcode,false,[],false⟩,false,false,[some (69,(.other,false)),some (101,(.other,false))],none,none,none,false,false,false,none,false,⟨.lcode,none,false,.lblank⟩⟩] .leaf))) 72625914457 [⟨⟨.code,[82],.lblank,false,[],false⟩,false,false,[some (69,(.other,false)),some (82,(.other,false))],none,none,none,false,false,false,none,false,⟨.lcode,none,false,.lblank⟩⟩] (.node (.node (.node (.node .leaf 72626457699 [⟨⟨.code,[114],.lcode,false,[],false⟩,false,false,[some (69,(.other,false)),some (101,(.other,false))],none,none,none,false,false,false,none,false,⟨.lcode,none,false,.lblank⟩⟩] .leaf) 72627094201 [⟨⟨.code,[114],.lblank,false,[],false⟩,false,false,[some (69,(.other,false)),some (82,(.other,false))],none,none,none,false,false,false,none,false,⟨.lcode,none,false,.lblank⟩⟩] .leaf) 72645914517 [⟨⟨.code,[82],.lblank,false,[],false⟩,false,false,[some (69,(.other,false)),some (92,(.other,false))],none,none,none,false,false,false,none,false,⟨.lcode,none,false,.lblank⟩⟩] (.node (.node .leaf 72647094261 [⟨⟨.code,[114],.lblank,false,[],false⟩,false,false,[some (69,(.other,false)),some (92,(.other,false))],none,none,none,false,false,false,none,false,⟨.lcode,none,false,.lblank⟩⟩] .leaf) 72651278033 [⟨⟨.code,[82],.lcode,false,[],false⟩,false,false,[some (69,(.other,false)),some (114,(.other,false))],none,none,none,false,false,false,none,false,⟨.lcode,none,false,.lblank⟩⟩] .leaf)) 72652457777 [⟨⟨.code,[114],.lcode,false,[],false⟩,false,false,[some (69,(.other,false)),some (114,(.other,false))],none,none,none,false,false,false,none,false,⟨.lcode,none,false,.lblank⟩⟩] (.node (.node (.node .leaf 72663914571 [⟨⟨.code,[82],.lblank,false,[],false⟩,false,false,[some (69,(.other,false)),some (101,(.other,false))],none,none,none,false,false,false,none,false,⟨.lcode,none,false,.lblank⟩⟩] .leaf) 72665094315 [⟨⟨.code,[114],.lblank,false,[],false⟩,false,false,[some (69,(.other,false)),some (101,(.other,false))],none,none,none,false,false,false,none,false,⟨.lcode,none,false,.lblank⟩⟩] .leaf) 72689914649 [⟨⟨.code,[82],.lblank,false,[],false⟩,false,false,[some (69,(.other,false)),some (114,(.other,false))],none,none,none,false,false,false,none,false,⟨.lcode,none,false,.lblank⟩⟩] (.node .leaf 72691094393 [⟨⟨.code,[114],.lblank,false,[],false⟩,false,false,[some (69,(.other,false)),some (114,(.other,false))],none,none,none,false,false,false,none,false,⟨.lcode,none,false,.lblank⟩⟩] .leaf)))) 72839858829 [⟨⟨.code,[82],.lcode,false,[(9,0)],false⟩,false,false,[some (69,(.other,false)),some (9,(.ws,false))],none,none,none,false,false,false,none,false,⟨.lcode,none,false,.lblank⟩⟩] (.node (.node (.node (.node (.node .leaf 72839871118 [⟨⟨.code,[82],.lcode,false,[(9,1)],false⟩,false,false,[some (69,(.other,false)),some (9,(.ws,false))],none,none,none,false,false,false,none,false,⟨.lcode,none,false,.lblank⟩⟩] .leaf) 72841858835 [⟨⟨.code,[82],.lcode,false,[(9,0)],false⟩,false,false,[some (69,(.other,false)),some (10,(.lf,false))],none,none,none,false,false,false,none,false,⟨.lcode,none,false,.lblank⟩⟩] .leaf) 72841871124 [⟨⟨.code,[82],.lcode,false,[(9,1)],false⟩,false,false,[some (69,(.other,false)),some (10,(.lf,false))],none,none,none,false,false,false,none,false,⟨.lcode,none,false,.lblank⟩⟩] (.node (.node .leaf 72845858847 [⟨⟨.code,[82],.lcode,false,[(9,0)],false⟩,false,false,[some (69,(.other,false)),some (12,(.ff,false))],none,none,none,false,false,false,none,false,⟨.lcode,none,false,.lblank⟩⟩] .leaf) 72845871136 [⟨⟨.code,[82],.lcode,false,[(9,1)],false⟩,false,false,[some (69,(.other,false)),some (12,(.ff,false))],none,none,none,false,false,false,none,false,⟨.lcode,none,false,.lblank⟩⟩] .leaf)) 72847858853 [⟨⟨.code,[82],.lcode,false,[(9,0)],false⟩,false,false,[some (69,(.other,false)),some (13,(.cr,false))],none,none,none,false,false,false,none,false,⟨.lcode,none,false,.lblank⟩⟩] (.node (.node (.node .leaf 72847871142 [⟨⟨.code,[82],.lcode,false,[(9,1)],false⟩,false,false,[some (69,(.other,false)),some (13,(.cr,false))],none,none,none,false,false,false,none,false,⟨.lcode,none,false,.lblank⟩⟩] .leaf) 72848858856 [⟨⟨.code,[82],.lcode,false,[(9,0)],false⟩,false,false,[some (69,(.other,false)),some (13,(.cr,true))],none,none,none,false,false,false,none,false,⟨.lcode,none,false,.lblank⟩⟩] .leaf) 72848871145 [⟨⟨.code,[82],.lcode,false,[(9,1)],false⟩,false,false,[some (69,(.other,false)),some (13,(.cr,true))],none,none,none,false,false,false,none,false,⟨.lcode,none,false,.lblank⟩⟩] (.node .leaf 72899859009 [⟨⟨.code,[82],.lcode,false,[(9,0)],false⟩,false,false,[some (69,(.other,false)),some (39,(.other,false))],none,none,none,false,false,false,none,false,⟨.lcode,none,false,.lblank⟩⟩] .leaf))) 72899871298 [⟨⟨.code,[82],.lcode,false,[(9,1)],false⟩,false,false,[some (69,(.other,false)),some (39,(.other,false))],none,none,none,false,false,false,none,false,⟨.lcode,none,false,.lblank⟩⟩] (.node (.node (.node (.node .leaf 72935278885 [⟨⟨.code,[82],.lcode,false,[],false⟩,false,false,[some (69,(.other,false)),some (256,(.other,false))],none,none,none,false,false,false,none,false,⟨.lcode,none,false,.lblank⟩⟩] .leaf) 72936458629 [⟨⟨.code,[114],.lcode,false,[],false⟩,false,false,[some (69,(.other,false)),some (256,(.other,false))],none,none,none,false,false,false,none,false,⟨.lcode,none,false,.lblank⟩⟩] .leaf) 72959859189 [⟨⟨.code,[82],.lcode,false,[(9,0)],false⟩,false,false,[some (69,(.other,false)),some (69,(.other,false))],none,none,none,false,false,false,none,false,⟨.lcode,none,false,.lblank⟩⟩] (.node (.node .leaf 72959871478 [⟨⟨.code,[82],.lcode,false,[(9,1)],false⟩,false,false,[some (69,(.other,false)),some (69,(.other,false))],none,none,none,false,false,false,none,false,⟨.lcode,none,false,.lblank⟩⟩] .leaf) 72973915501 [⟨⟨.code,[82],.lblank,false,[],false⟩,false,false,[some (69,(.other,false)),some (256,(.other,false))],none,none,none,false,false,false,none,false,⟨.lcode,none,false,.lblank⟩⟩] .leaf)) 72975095245 [⟨⟨.code,[114],.lblank,false,[],false⟩,false,false,[some (69,(.other,false)),some (256,(.other,false))],none,none,none,false,false,false,none,false,⟨.lcode,none,false,.lblank⟩⟩] (.node (.node (.node .leaf 72985859267 [⟨⟨.code,[82],.lcode,false,[(9,0)],false⟩,false,false,[some (69,(.other,false)),some (82,(.other,false))],none,none,none,false,false,false,none,false,⟨.lcode,none,false,.lblank⟩⟩] .leaf) 72985871556 [⟨⟨.code,[82],.lcode,false,[(9,1)],false⟩,false,false,[some (69,(.other,false)),some (82,(.other,false))],none,none,none,false,false,false,none,false,⟨.lcode,none,false,.lblank⟩⟩] .leaf) 72994405293 [⟨⟨.code,[114],.lcode,false,[(9,0)],false⟩,false,false,[some (69,(.other,false)),some (9,(.ws,false))],none,none,none,false,false,false,none,false,⟨.lcode,none,false,.lblank⟩⟩] (.node .leaf 72994417582 [⟨⟨.code,[114],.lcode,false,[(9,1)],false⟩,false,false,[some (69,(.other,false)),some (9,(.ws,false))],none,none,none,false,false,false,none,false,⟨.lcode,none,false,.lblank⟩⟩] .leaf))))))) 72996405299 [⟨⟨.code,[114],.lcode,false,[(9,0)],false⟩,false,false,[some (69,(.other,false)),some (10,(.lf,false))],none,none,none,false,false,false,none,false,⟨.lcode,none,false,.lblank⟩⟩] (.node (.node (.node (.node (.node (.node (.node (.node .leaf 72996417588 [⟨⟨.code,[114],.lcode,false,[(9,1)],false⟩,false,false,[some (69,(.other,false)),some (10,(.lf,false))],none,none,none,false,false,false,none,false,⟨.lcode,none,false,.lblank⟩⟩] .leaf) 73000405311 [⟨⟨.code,[114],.lcode,false,[(9,0)],false⟩,false,false,[some (69,(.other,false)),some (12,(.ff,false))],none,none,none,false,false,false,none,false,⟨.lcode,none,false,.lblank⟩⟩] .leaf) 73000417600 [⟨⟨.code,[114],.lcode,false,[(9,1)],false⟩,false,false,[some (69,(.other,false)),some (12,(.ff,false))],none,none,none,false,false,false,none,false,⟨.lcode,none,false,.lblank⟩⟩] (.node (.node .leaf 73002405317 [⟨⟨.code,[114],.lcode,false,[(9,0)],false⟩,false,false,[some (69,(.other,false)),some (13,(.cr,false))],none,none,none,false,false,false,none,false,⟨.lcode,none,false,.lblank⟩⟩] .leaf) 73002417606 [⟨⟨.code,[114],.lcode,false,[(9,1)],false⟩,false,false,[some (69,(.other,false)),some (13,(.cr,false))],none,none,none,false,false,false,none,false,⟨.lcode,none,false,.lblank⟩⟩] .leaf)) 73003405320 [⟨⟨.code,[114],.lcode,false,[(9,0)],false⟩,false,false,[some (69,(.other,false)),some (13,(.cr,true))],none,none,none,false,false,false,none,false,⟨.lcode,none,false,.lblank⟩⟩] (.node (.node (.node .leaf 73003417609 [⟨⟨.code,[114],.lcode,false,[(9,1)],false⟩,false,false,[some (69,(.other,false)),some (13,(.cr,true))],none,none,none,false,false,false,none,false,⟨.lcode,none,false,.lblank⟩⟩] .leaf) 73005859327 [⟨⟨.code,[82],.lcode,false,[(9,0)],false⟩,false,false,[some (69,(.other,false)),some (92,(.other,false))],none,none,none,false,false,false,none,false,⟨.lcode,none,false,.lblank⟩⟩] .leaf) 73005871616 [⟨⟨.code,[82],.lcode,false,[(9,1)],false⟩,false,false,[some (69,(.other,false)),some (92,(.other,false))],none,none,none,false,false,false,none,false,⟨.lcode,none,false,.lblank⟩⟩] (.node (.node .leaf 73023859381 [⟨⟨.code,[82],.lcode,false,[(9,0)],false⟩,false,false,[some (69,(.other,false)),some (101,(.other,false))],none,none,none,false,false,false,none,false,⟨.lcode,none,false,.lblank⟩⟩] .leaf) 73023871670 [⟨⟨.code,[82],.lcode,false,[(9,1)],false⟩,false,false,[some (69,(.other,false)),some (101,(.other,false))],none,none,none,false,false,false,none,false,⟨.lcode,none,false,.lblank⟩⟩] .leaf))) 73049859459 [⟨⟨.code,[82],.lcode,false,[(9,0)],false⟩,false,false,[some (69,(.other,false)),some (114,(.other,false))],none,none,none,false,false,false,none,false,⟨.lcode,none,false,.lblank⟩⟩] (.node (.node (.node (.node .leaf 73049871748 [⟨⟨.code,[82],.lcode,false,[(9,1)],false⟩,false,false,[some (69,(.other,false)),some (114,(.other,false))],none,none,none,false,false,false,none,false,⟨.lcode,none,false,.lblank⟩⟩] .leaf) 73054405473 [⟨⟨.code,[114],.lcode,false,[(9,0)],false⟩,false,false,[some (69,(.other,false)),some (39,(.other,false))],none,none,none,false,false,false,none,false,⟨.lcode,none,false,.lblank⟩⟩] .leaf) 73054417762 [⟨⟨.code,[114],.lcode,false,[(9,1)],false⟩,false,false,[some (69,(.other,false)),some (39,(.other,false))],none,none,none,false,false,false,none,false,⟨.lcode,none,false,.lblank⟩⟩] (.node (.node .leaf 73096434519 [⟨⟨.code,[114,69],.lcode,false,[(9,0)],false⟩,false,false,[none],none,none,none,false,false,false,none,false,⟨.lcode,none,false,.lblank⟩⟩] .leaf) 73096446808 [⟨⟨.code,[114,69],.lcode,false,[(9,1)],false⟩,false,false,[none],none,none,none,false,false,false,none,false,⟨.lcode,none,false,.lblank⟩⟩] .leaf)) 73114405653 [⟨⟨.code,[114],.lcode,false,[(9,0)],false⟩,false,false,[some (69,(.other,false)),some (69,(.other,false))],none,none,none,false,false,false,none,false,⟨.lcode,none,false,.lblank⟩⟩] (.node (.node (.node .leaf 73114417942 [⟨⟨.code,[114],.lcode,false,[(9,1)],false⟩,false,false,[some (69,(.other,false)),some (69,(.other,false))],none,none,none,false,false,false,none,false,⟨.lcode,none,false,.lblank⟩⟩] .leaf) 73115434576 [⟨⟨.code,[114,69],.lcode,false,[(9,0)],false⟩,false,false,[some (9,(.ws,false))],none,none,none,false,false,false,none,false,⟨.lcode,none,false,.lblank⟩⟩] .leaf) 73115446865 [⟨⟨.code,[114,69],.lcode,false,[(9,1)],false⟩,false,false,[some (9,(.ws,false))],none,none,none,false,false,false,none,false,⟨.lcode,none,false,.lblank⟩⟩] (.node .leaf 73117434582 [⟨⟨.code,[114,69],.lcode,false,[(9,0)],false⟩,false,false,[some (10,(.lf,false))],none,none,none,false,false,false,none,false,⟨.lcode,none,false,.lblank⟩⟩] .leaf)))) 73117446871 [⟨⟨.code,[114,69],.lcode,false,[(9,1)],false⟩,false,false,[some (10,(.lf,false))],none,none,none,false,false,false,none,false,⟨.lcode,none,false,.lblank⟩⟩] (.node (.node (.node (.node (.node .leaf 73121434594 [⟨⟨.code,[114,69],.lcode,false,[(9,0)],false⟩,false,false,[some (12,(.ff,false))],none,none,none,false,false,false,none,false,⟨.lcode,none,false,.lblank⟩⟩] .leaf) 73121446883 [⟨⟨.code,[114,69],.lcode,false,[(9,1)],false⟩,false,false,[some (12,(.ff,false))],none,none,none,false,false,false,none,false,⟨.lcode,none,false,.lblank⟩⟩] .leaf) 73123434600 [⟨⟨.code,[114,69],.lcode,false,[(9,0)],false⟩,false,false,[some (13,(.cr,false))],none,none,none,false,false,false,none,false,⟨.lcode,none,false,.lblank⟩⟩] (.node (.node .leaf 73123446889 [⟨⟨.code,[114,69],.lcode,false,[(9,1)],false⟩,false,false,[some (13,(.cr,false))],none,none,none,false,false,false,none,false,⟨.lcode,none,false,.lblank⟩⟩] .leaf) 73124434603 [⟨⟨.code,[114,69],.lcode,false,[(9,0)],false⟩,false,false,[some (13,(.cr,true))],none,none,none,false,false,false,none,false,⟨.lcode,none,false,.lblank⟩⟩] .leaf)) 73124446892 [⟨⟨.code,[114,69],.lcode,false,[(9,1)],false⟩,false,false,[some (13,(.cr,true))],none,none,none,false,false,false,none,false,⟨.lcode,none,false,.lblank⟩⟩] (.node (.node (.node .leaf 73140405731 [⟨⟨.code,[114],.lcode,false,[(9,0)],false⟩,false,false,[some (69,(.other,false)),some (82,(.other,false))],none,none,none,false,false,false,none,false,⟨.lcode,none,false,.lblank⟩⟩] .leaf) 73140418020 [⟨⟨.code,[114],.lcode,false,[(9,1)],false⟩,false,false,[some (69,(.other,false)),some (82,(.other,false))],none,none,none,false,false,false,none,false,⟨.lcode,none,false,.lblank⟩⟩] .leaf) 73160405791 [⟨⟨.code,[114],.lcode,false,[(9,0)],false⟩,false,false,[some (69,(.other,false)),some (92,(.other,false))],none,none,none,false,false,false,none,false,⟨.lcode,none,false,.lblank⟩⟩] (.node (.node .leaf 73160418080 [⟨⟨.code,[114],.lcode,false,[(9,1)],false⟩,false,false,[some (69,(.other,false)),some (92,(.other,false))],none,none,none,false,false,false,none,false,⟨.lcode,none,false,.lblank⟩⟩] .leaf) 73175434756 [⟨⟨.code,[114,69],.lcode,false,[(9,0)],false⟩,false,false,[some (39,(.other,false))],none,none,none,false,false,false,none,false,⟨.lcode,none,false,.lblank⟩⟩] .leaf))) 73175447045 [⟨⟨.code,[114,69],.lcode,false,[(9,1)],false⟩,false,false,[some (39,(.other,false))],none,none,none,false,false,false,none,false,⟨.lcode,none,false,.lblank⟩⟩] (.node (.node (.node (.node .leaf 73178405845 [⟨⟨.code,[114],.lcode,false,[(9,0)],false⟩,false,false,[some (69,(.other,false)),some (101,(.other,false))],none,none,none,false,false,false,none,false,⟨.lcode,none,false,.lblank⟩⟩] .leaf) 73178418134 [⟨⟨.code,[114],.lcode,false,[(9,1)],false⟩,false,false,[some (69,(.other,false)),some (101,(.other,false))],none,none,none,false,false,false,none,false,⟨.lcode,none,false,.lblank⟩⟩] .leaf) 73204405923 [⟨⟨.code,[114],.lcode,false,[(9,0)],false⟩,false,false,[some (69,(.other,false)),some (114,(.other,false))],none,none,none,false,false,false,none,false,⟨.lcode,none,false,.lblank⟩⟩] (.node (.node .leaf 73204418212 [⟨⟨.code,[114],.lcode,false,[(9,1)],false⟩,false,false,[some (69,(.other,false)),some (114,(.other,false))],none,none,none,false,false,false,none,false,⟨.lcode,none,false,.lblank⟩⟩] .leaf) 73235434936 [⟨⟨.code,[114,69],.lcode,false,[(9,0)],false⟩,false,false,[some (69,(.other,false))],none,none,none,false,false,false,none,false,⟨.lcode,none,false,.lblank⟩⟩] .leaf)) 73235447225 [⟨⟨.code,[114,69],.lcode,false,[(9,1)],false⟩,false,false,[some (69,(.other,false))],none,none,none,false,false,false,none,false,⟨.lcode,none,false,.lblank⟩⟩] (.node (.node (.node .leaf 73250980983 [⟨⟨.code,[114,101],.lcode,false,[(9,0)],false⟩,false,false,[none],none,none,none,false,false,false,none,false,⟨.lcode,none,false,.lblank⟩⟩] .leaf) 73250993272 [⟨⟨.code,[114,101],.lcode,false,[(9,1)],false⟩,false,false,[none],none,none,none,false,false,false,none,false,⟨.lcode,none,false,.lblank⟩⟩] .leaf) 73261435014 [⟨⟨.code,[114,69],.lcode,false,[(9,0)],false⟩,false,false,[some (82,(.other,false))],none,none,none,false,false,false,none,false,⟨.lcode,none,false,.lblank⟩⟩] (.node .leaf 73261447303 [⟨⟨.code,[114,69],.lcode,false,[(9,1)],false⟩,false,false,[some (82,(.other,false))],none,none,none,false,false,false,none,false,⟨.lcode,none,false,.lblank⟩⟩] .leaf))))) 73269981040 [⟨⟨.code,[114,101],.lcode,false,[(9,0)],false⟩,false,false,[some (9,(.ws,false))],none,none,none,false,false,false,none,false,⟨.lcode,none,false,.lblank⟩⟩] (.node (.node (.node (.node (.node (.node .leaf 73269993329 [⟨⟨.code,[114,101],.lcode,false,[(9,1)],false⟩,false,false,[some (9,(.ws,false))],none,none,none,false,false,false,none,false,⟨.lcode,none,false,.lblank⟩⟩] .leaf) 73271981046 [⟨⟨.code,[114,101],.lcode,false,[(9,0)],false⟩,false,false,[some (10,(.lf,false))],none,none,none,false,false,false,none,false,⟨.lcode,none,false,.lblank⟩⟩] .leaf) 73271993335 [⟨⟨.code,[114,101],.lcode,false,[(9,1)],false⟩,false,false,[some (10,(.lf,false))],none,none,none,false,false,false,none,false,⟨.lcode,none,false,.lblank⟩⟩] (.node (.node .leaf 73275981058 [⟨⟨.code,[114,101],.lcode,false,[(9,0)],false⟩,false,false,[some (12,(.ff,false))],none,none,none,false,false,false,none,false,⟨.lcode,none,false,.lblank⟩⟩] .leaf) 73275993347 [⟨⟨.code,[114,101],.lcode,false,[(9,1)],false⟩,false,false,[some (12,(.ff,false))],none,none,none,false,false,false,none,false,⟨.lcode,none,false,.lblank⟩⟩] .leaf)) 73277981064 [⟨⟨.code,[114,101],.lcode,false,[(9,0)],false⟩,false,false,[some (13,(.cr,false))],none,none,none,false,false,false,none,false,⟨.lcode,none,false,.lblank⟩⟩] (.node (.node (.node .leaf 73277993353 [⟨⟨.code,[114,101],.lcode,false,[(9,1)],false⟩,false,false,[some (13,(.cr,false))],none,none,none,false,false,false,none,false,⟨.lcode,none,false,.lblank⟩⟩] .leaf) 73278981067 [⟨⟨.code,[114,101],.lcode,false,[(9,0)],false⟩,false,false,[some (13,(.cr,true))],none,none,none,false,false,false,none,false,⟨.lcode,none,false,.lblank⟩⟩] .leaf) 73278993356 [⟨⟨.code,[114,101],.lcode,false,[(9,1)],false⟩,false,false,[some (13,(.cr,true))],none,none,none,false,false,false,none,false,⟨.lcode,none,false,.lblank⟩⟩] (.node (.node .leaf 73281435074 [⟨⟨.code,[114,69],.lcode,false,[(9,0)],false⟩,false,false,[some (92,(.other,false))],none,none,none,false,false,false,none,false,⟨.lcode,none,false,.lblank⟩⟩] .leaf) 73281447363 [⟨⟨.code,[114,69],.lcode,false,[(9,1)],false⟩,false,false,[some (92,(.other,false))],none,none,none,false,false,false,none,false,⟨.lcode,none,false,.lblank⟩⟩] .leaf))) 73299435128 [⟨⟨.code,[114,69],.lcode,false,[(9,0)],false⟩,false,false,[some (101,(.other,false))],none,none,none,false,false,false,none,false,⟨.lcode,none,false,.lblank⟩⟩] (.node (.node (.node (.node .leaf 73299447417 [⟨⟨.code,[114,69],.lcode,false,[(9,1)],false⟩,false,false,[some (101,(.other,false))],none,none,none,false,false,false,none,false,⟨.lcode,none,false,.lblank⟩⟩] .leaf) 73325435206 [⟨⟨.code,[114,69],.lcode,false,[(9,0)],false⟩,false,false,[some (114,(.other,false))],none,none,none,false,false,false,none,false,⟨.lcode,none,false,.lblank⟩⟩] .leaf) 73325447495 [⟨⟨.code,[114,69],.lcode,false,[(9,1)],false⟩,false,false,[some (114,(.other,false))],none,none,none,false,false,false,none,false,⟨.lcode,none,false,.lblank⟩⟩] (.node (.node .leaf 73329981220 [⟨⟨.code,[114,101],.lcode,false,[(9,0)],false⟩,false,false,[some (39,(.other,false))],none,none,none,false,false,false,none,false,⟨.lcode,none,false,.lblank⟩⟩] .leaf) 73329993509 [⟨⟨.code,[114,101],.lcode,false,[(9,1)],false⟩,false,false,[some (39,(.other,false))],none,none,none,false,false,false,none,false,⟨.lcode,none,false,.lblank⟩⟩] .leaf)) 73333860311 [⟨⟨.code,[82],.lcode,false,[(9,0)],false⟩,false,false,[some (69,(.other,false)),some (256,(.other,false))],none,none,none,false,false,false,none,false,⟨.lcode,none,false,.lblank⟩⟩] (.node (.node (.node .leaf 73333872600 [⟨⟨.code,[82],.lcode,false,[(9,1)],false⟩,false,false,[some (69,(.other,false)),some (256,(.other,false))],none,none,none,false,false,false,none,false,⟨.lcode,none,false,.lblank⟩⟩] .leaf) 73389981400 [⟨⟨.code,[114,101],.lcode,false,[(9,0)],false⟩,false,false,[some (69,(.other,false))],none,none,none,false,false,false,none,false,⟨.lcode,none,false,.lblank⟩⟩] .leaf) 73389993689 [⟨⟨.code,[114,101],.lcode,false,[(9,1)],false⟩,false,false,[some (69,(.other,false))],none,none,none,false,false,false,none,false,⟨.lcode,none,false,.lblank⟩⟩] (.node .leaf 73415981478 [⟨⟨.code,[114,101],.lcode,false,[(9,0)],false⟩,false,false,[some (82,(.other,false))],none,none,none,false,false,false,none,false,⟨.lcode,none,false,.lblank⟩⟩] .leaf)))) 73415993767 [⟨⟨.code,[114,101],.lcode,false,[(9,1)],false⟩,false,false,[some (82,(.other,false))],none,none,none,false,false,false,none,false,⟨.lcode,none,false,.lblank⟩⟩] (.node (.node (.node (.node (.node .leaf 73435981538 [⟨⟨.code,[114,101],.lcode,false,[(9,0)],false⟩,false,false,[some (92,(.other,false))],none,none,none,false,false,false,none,false,⟨.lcode,none,false,.lblank⟩⟩] .leaf) 73435993827 [⟨⟨.code,[114,101],.lcode,false,[(9,1)],false⟩,false,false,[some (92,(.other,false))],none,none,none,false,false,false,none,false,⟨.lcode,none,false,.lblank⟩⟩] .leaf) 73453981592 [⟨⟨.code,[114,101],.lcode,false,[(9,0)],false⟩,false,false,[some (101,(.other,false))],none,none,none,false,false,false,none,false,⟨.lcode,none,false,.lblank⟩⟩] (.node (.node .leaf 73453993881 [⟨⟨.code,[114,101],.lcode,false,[(9,1)],false⟩,false,false,[some (101,(.other,false))],none,none,none,false,false,false,none,false,⟨.lcode,none,false,.lblank⟩⟩] .leaf) 73479981670 [⟨⟨.code,[114,101],.lcode,false,[(9,0)],false⟩,false,false,[some (114,(.other,false))],none,none,none,false,false,false,none,false,⟨.lcode,none,false,.lblank⟩⟩] .leaf)) 73479993959 [⟨⟨.code,[114,101],.lcode,false,[(9,1)],false⟩,false,false,[some (114,(.other,false))],none,none,none,false,false,false,none,false,⟨.lcode,none,false,.lblank⟩⟩] (.node (.node (.node .leaf 73488406775 [⟨⟨.code,[114],.lcode,false,[(9,0)],false⟩,false,false,[some (69,(.other,false)),some (256,(.other,false))],none,none,none,false,false,false,none,false,⟨.lcode,none,false,.lblank⟩⟩] .leaf) 73488419064 [⟨⟨.code,[114],.lcode,false,[(9,1)],false⟩,false,false,[some (69,(.other,false)),some (256,(.other,false))],none,none,none,false,false,false,none,false,⟨.lcode,none,false,.lblank⟩⟩] .leaf) 73609436058 [⟨⟨.code,[114,69],.lcode,false,[(9,0)],false⟩,false,false,[some (256,(.other,false))],none,none,none,false,false,false,none,false,⟨.lcode,none,false,.lblank⟩⟩] (.node .leaf 73609448347 [⟨⟨.code,[114,69],.lcode,false,[(9,1)],false⟩,false,false,[some (256,(.other,false))],none,none,none,false,false,false,none,false,⟨.lcode,none,false,.lblank⟩⟩] .leaf))) 73763982522 [⟨⟨.code,[114,101],.lcode,false,[(9,0)],false⟩,false,false,[some (256,(.other,false))],none,none,none,false,false,false,none,false,⟨.lcode,none,false,.lblank⟩⟩] (.node (.node (.node (.node .leaf 73763994811 [⟨⟨.code,[114,101],.lcode,false,[(9,1)],false⟩,false,false,[some (256,(.other,false))],none,none,none,false,false,false,none,false,⟨.lcode,none,false,.lblank⟩⟩] .leaf) 105785377435 [⟨⟨.code,[82],.lcode,false,[],false⟩,false,false,[some (101,(.other,false)),some (9,(.ws,false))],none,none,none,false,false,false,none,false,⟨.lcode,none,false,.lblank⟩⟩] .leaf) 105786557179 [⟨⟨.code,[114],.lcode,false,[],false⟩,false,false,[some (101,(.other,false)),some (9,(.ws,false))],none,none,none,false,false,false,none,false,⟨.lcode,none,false,.lblank⟩⟩] (.node (.node .leaf 105787377441 [⟨⟨.code,[82],.lcode,false,[],false⟩,false,false,[some (101,(.other,false)),some (10,(.lf,false))],none,none,none,false,false,false,none,false,⟨.lcode,none,false,.lblank⟩⟩] .leaf) 105788557185 [⟨⟨.code,[114],.lcode,false,[],false⟩,false,false,[some (101,(.other,false)),some (10,(.lf,false))],none,none,none,false,false,false,none,false,⟨.lcode,none,false,.lblank⟩⟩] .leaf)) 105791377453 [⟨⟨.code,[82],.lcode,false,[],false⟩,false,false,[some (101,(.other,false)),some (12,(.ff,false))],none,none,none,false,false,false,none,false,⟨.lcode,none,false,.lblank⟩⟩] (.node (.node (.node .leaf 105792557197 [⟨⟨.code,[114],.lcode,false,[],false⟩,false,false,[some (101,(.other,false)),some (12,(.ff,false))],none,none,none,false,false,false,none,false,⟨.lcode,none,false,.lblank⟩⟩] .leaf) 105793377459 [⟨⟨.code,[82],.lcode,false,[],false⟩,false,false,[some (101,(.other,false)),some (13,(.cr,false))],none,none,none,false,false,false,none,false,⟨.lcode,none,false,.lblank⟩⟩] .leaf) 105794377462 [⟨⟨.code,[82],.lcode,false,[],false⟩,false,false,[some (101,(.other,false)),some (13,(.cr,true))],none,none,none,false,false,false,none,false,⟨.lcode,none,false,.lblank⟩⟩] (.node .leaf 105794557203 [⟨⟨.code,[114],.lcode,false,[],false⟩,false,false,[some (101,(.other,false)),some (13,(.cr,false))],none,none,none,false,false,false,none,false,⟨.lcode,none,false,.lblank⟩⟩] .leaf)))))) 105795557206 [⟨⟨.code,[114],.lcode,false,[],false⟩,false,false,[some (101,(.other,false)),some (13,(.cr,true))],none,none,none,false,false,false,none,false,⟨.lcode,none,false,.lblank⟩⟩] (.node (.node (.node (.node (.node (.node (.node .leaf 105824014051 [⟨⟨.code,[82],.lblank,false,[],false⟩,false,false,[some (101,(.other,false)),some (9,(.ws,false))],none,none,none,false,false,false,none,false,⟨.lcode,none,false,.lblank⟩⟩] .leaf) 105825193795 [⟨⟨.code,[114],.lblank,false,[],false⟩,false,false,[some (101,(.other,false)),some (9,(.ws,false))],none,none,none,false,false,false,none,false,⟨.lcode,none,false,.lblank⟩⟩] .leaf) 105826014057 [⟨⟨.code,[82],.lblank,false,[],false⟩,false,false,[some (101,(.other,false)),some (10,(.lf,false))],none,none,none,false,false,false,none,false,⟨.lcode,none,false,.lblank⟩⟩] (.node (.node .leaf 105827193801 [⟨⟨.code,[114],.lblank,false,[],false⟩,false,false,[some (101,(.other,false)),some (10,(.lf,false))],none,none,none,false,false,false,none,false,⟨.lcode,none,false,.lblank⟩⟩] .leaf) 105830014069 [⟨⟨.code,[82],.lblank,false,[],false⟩,false,false,[some (101,(.other,false)),some (12,(.ff,false))],none,none,none,false,false,false,none,false,⟨.lcode,none,false,.lblank⟩⟩] .leaf)) 105831193813 [⟨⟨.code,[114],.lblank,false,[],false⟩,false,false,[some (101,(.other,false)),some (12,(.ff,false))],none,none,none,false,false,false,none,false,⟨.lcode,none,false,.lblank⟩⟩] (.node (.node (.node .leaf 105832014075 [⟨⟨.code,[82],.lblank,false,[],false⟩,false,false,[some (101,(.other,false)),some (13,(.cr,false))],none,none,none,false,false,false,none,false,⟨.lcode,none,false,.lblank⟩⟩] .leaf) 105833014078 [⟨⟨.code,[82],.lblank,false,[],false⟩,false,false,[some (101,(.other,false)),some (13,(.cr,true))],none,none,none,false,false,false,none,false,⟨.lcode,none,false,.lblank⟩⟩] .leaf) 105833193819 [⟨⟨.code,[114],.lblank,false,[],false⟩,false,false,[some (101,(.other,false)),some (13,(.cr,false))],none,none,none,false,false,false,none,false,⟨.lcode,none,false,.lblank⟩⟩] (.node (.node .leaf 105834193822 [⟨⟨.code,[114],.lblank,false,[],false⟩,false,false,[some (101,(.other,false)),some (13,(.cr,true))],none,none,none,false,false,false,none,false,⟨.lcode,none,false,.lblank⟩⟩] .leaf) 105835377585 [⟨⟨.code,[82],.lcode,false,[],false⟩,false,false,[some (101,(.other,false)),some (34,(.other,false))],none,none,none,false,false,false,none,false,⟨.lcode,none,false,.lblank⟩⟩] .leaf))) 105836557329 [⟨⟨.code,[114],.lcode,false,[],false⟩,false,false,[some (101,(.other,false)),some (34,(.other,false))],none,none,none,false,false,false,none,false,⟨.lcode,none,false,.lblank⟩⟩] (.node (.node (.node (.node .leaf 105845377615 [⟨⟨.code,[82],.lcode,false,[],false⟩,false,false,[some (101,(.other,false)),some (39,(.other,false))],none,none,none,false,false,false,none,false,⟨.lcode,none,false,.lblank⟩⟩] .leaf) 105846557359 [⟨⟨.code,[114],.lcode,false,[],false⟩,false,false,[some (101,(.other,false)),some (39,(.other,false))],none,none,none,false,false,false,none,false,⟨.lcode,none,false,.lblank⟩⟩] .leaf) 105874014201 [⟨⟨.code,[82],.lblank,false,[],false⟩,false,false,[some (101,(.other,false)),some (34,(.other,false))],none,none,none,false,false,false,none,false,⟨.lcode,none,false,.lblank⟩⟩] (.node (.node .leaf 105875193945 [⟨⟨.code,[114],.lblank,false,[],false⟩,false,false,[some (101,(.other,false)),some (34,(.other,false))],none,none,none,false,false,false,none,false,⟨.lcode,none,false,.lblank⟩⟩] .leaf) 105884014231 [⟨⟨.code,[82],.lblank,false,[],false⟩,false,false,[some (101,(.other,false)),some (39,(.other,false))],none,none,none,false,false,false,none,false,⟨.lcode,none,false,.lblank⟩⟩] .leaf)) 105885193975 [⟨⟨.code,[114],.lblank,false,[],false⟩,false,false,[some (101,(.other,false)),some (39,(.other,false))],none,none,none,false,false,false,none,false,⟨.lcode,none,false,.lblank⟩⟩] (.node (.node (.node .leaf 105905377795 [⟨⟨.code,[82],.lcode,false,[],false⟩,false,false,[some (101,(.other,false)),some (69,(.other,false))],none,none,none,false,false,false,none,false,⟨.lcode,none,false,.lblank⟩⟩] .leaf) 105906557539 [⟨⟨.code,[114],.lcode,false,[],false⟩,false,false,[some (101,(.other,false)),some (69,(.other,false))],none,none,none,false,false,false,none,false,⟨.lcode,none,false,.lblank⟩⟩] .leaf) 105931377873 [⟨⟨.code,[82],.lcode,false,[],false⟩,false,false,[some (101,(.other,false)),some (82,(.other,false))],none,none,none,false,false,false,none,false,⟨.lcode,none,false,.lblank⟩⟩] (.node .leaf 105932557617 [⟨⟨.code,[114],.lcode,false,[],false⟩,false,false,[some (101,(.other,false)),some (82,(.other,false))],none,none,none,false,false,false,none,false,⟨.lcode,none,false,.lblank⟩⟩] .leaf)))) 105944014411 [⟨⟨.code,[82],.lblank,false,[],false⟩,false,false,[some (101,(.other,false)),some (69,(.other,false))],none,none,none,false,false,false,none,false,⟨.lcode,none,false,.lblank⟩⟩] (.node (.node (.node (.node (.node .leaf 105945194155 [⟨⟨.code,[114],.lblank,false,[],false⟩,false,false,[some (101,(.other,false)),some (69,(.other,false))],none,none,none,false,false,false,none,false,⟨.lcode,none,false,.lblank⟩⟩] .leaf) 105951377933 [⟨⟨.code,[82],.lcode,false,[],false⟩,false,false,[some (101,(.other,false)),some (92,(.other,false))],none,none,none,false,false,false,none,false,⟨.lcode,none,false,.lblank⟩⟩] .leaf) 105952557677 [⟨⟨.code,[114],.lcode,false,[],false⟩,false,false,[some (101,(.other,false)),some (92,(.other,false))],none,none,none,false,false,false,none,false,⟨.lcode,none,false,.lblank⟩⟩] (.node (.node .leaf 105969377987 [⟨⟨.code,[82],.lcode,false,[],false⟩,false,false,[some (101,(.other,false)),some (101,(.other,false))],none,none,none,false,false,false,none,false,⟨.lcode,none,false,.lblank⟩⟩] .leaf) 105970014489 [⟨⟨.code,[82],.lblank,false,[],false⟩,false,false,[some (101,(.other,false)),some (82,(.other,false))],none,none,none,false,false,false,none,false,⟨.lcode,none,false,.lblank⟩⟩] .leaf)) 105970557731 [⟨⟨.code,[114],.lcode,false,[],false⟩,false,false,[some (101,(.other,false)),some (101,(.other,false))],none,none,none,false,false,false,none,false,⟨.lcode,none,false,.lblank⟩⟩] (.node (.node (.node .leaf 105971194233 [⟨⟨.code,[114],.lblank,false,[],false⟩,false,false,[some (101,(.other,false)),some (82,(.other,false))],none,none,none,false,false,false,none,false,⟨.lcode,none,false,.lblank⟩⟩] .leaf) 105990014549 [⟨⟨.code,[82],.lblank,false,[],false⟩,false,false,[some (101,(.other,false)),some (92,(.other,false))],none,none,none,false,false,false,none,false,⟨.lcode,none,false,.lblank⟩⟩] .leaf) 105991194293 [⟨⟨.code,[114],.lblank,false,[],false⟩,false,false,[some (101,(.other,false)),some (92,(.other,false))],none,none,none,false,false,false,none,false,⟨.lcode,none,false,.lblank⟩⟩] (.node (.node .leaf 105995378065 [⟨⟨.code,[82],.lcode,false,[],false⟩,false,false,[some (101,(.other,false)),some (114,(.other,false))],none,none,none,false,false,false,none,false,⟨.lcode,none,false,.lblank⟩⟩] .leaf) 105996557809 [⟨⟨.code,[114],.lcode,false,[],false⟩,false,false,[some (101,(.other,false)),some (114,(.other,false))],none,none,none,false,false,false,none,false,⟨.lcode,none,false,.lblank⟩⟩] .leaf))) 106008014603 [⟨⟨.code,[82],.lblank,false,[],false⟩,false,false,[some (101,(.other,false)),some (101,(.other,false))],none,none,none,false,false,false,none,false,⟨.lcode,none,false,.lblank⟩⟩] (.node (.node (.node (.node .leaf 106009194347 [⟨⟨.code,[114],.lblank,false,[],false⟩,false,false,[some (101,(.other,false)),some (101,(.other,false))],none,none,none,false,false,false,none,false,⟨.lcode,none,false,.lblank⟩⟩] .leaf) 106034014681 [⟨⟨.code,[82],.lblank,false,[],false⟩,false,false,[some (101,(.other,false)),some (114,(.other,false))],none,none,none,false,false,false,none,false,⟨.lcode,none,false,.lblank⟩⟩] .leaf) 106035194425 [⟨⟨.code,[114],.lblank,false,[],false⟩,false,false,[some (101,(.other,false)),some (114,(.other,false))],none,none,none,false,false,false,none,false,⟨.lcode,none,false,.lblank⟩⟩] (.node (.node .leaf 106183958861 [⟨⟨.code,[82],.lcode,false,[(9,0)],false⟩,false,false,[some (101,(.other,false)),some (9,(.ws,false))],none,none,none,false,false,false,none,false,⟨.lcode,none,false,.lblank⟩⟩] .leaf) 106183971150 [⟨⟨.code,[82],.lcode,false,[(9,1)],false⟩,false,false,[some (101,(.other,false)),some (9,(.ws,false))],none,none,none,false,false,false,none,false,⟨.lcode,none,false,.lblank⟩⟩] .leaf)) 106185958867 [⟨⟨.code,[82],.lcode,false,[(9,0)],false⟩,false,false,[some (101,(.other,false)),some (10,(.lf,false))],none,none,none,false,false,false,none,false,⟨.lcode,none,false,.lblank⟩⟩] (.node (.node (.node .leaf 106185971156 [⟨⟨.code,[82],.lcode,false,[(9,1)],false⟩,false,false,[some (101,(.other,false)),some (10,(.lf,false))],none,none,none,false,false,false,none,false,⟨.lcode,none,false,.lblank⟩⟩] .leaf) 106189958879 [⟨⟨.code,[82],.lcode,false,[(9,0)],false⟩,false,false,[some (101,(.other,false)),some (12,(.ff,false))],none,none,none,false,false,false,none,false,⟨.lcode,none,false,.lblank⟩⟩] .leaf) 106189971168 [⟨⟨.code,[82],.lcode,false,[(9,1)],false⟩,false,false,[some (101,(.other,false)),some (12,(.ff,false))],none,none,none,false,false,false,none,false,⟨.lcode,none,false,.lblank⟩⟩] (.node .leaf 106191958885 [⟨⟨.code,[82],.lcode,false,[(9,0)],false⟩,false,false,[some (101,(.other,false)),some (13,(.cr,false))],none,none,none,false,false,false,none,false,⟨.lcode,none,false,.lblank⟩⟩] .leaf))))) 106191971174 [⟨⟨.code,[82],.lcode,false,[(9,1)],false⟩,false,false,[some (101,(.other,false)),some (13,(.cr,false))],none,none,none,false,false,false,none,false,⟨.lcode,none,false,.lblank⟩⟩] (.node (.node (.node (.node (.node (.node .leaf 106192958888 [⟨⟨.code,[82],.lcode,false,[(9,0)],false⟩,false,false,[some (101,(.other,false)),some (13,(.cr,true))],none,none,none,false,false,false,none,false,⟨.lcode,none,false,.lblank⟩⟩] .leaf) 106192971177 [⟨⟨.code,[82],.lcode,false,[(9,1)],false⟩,false,false,[some (101,(.other,false)),some (13,(.cr,true))],none,none,none,false,false,false,none,false,⟨.lcode,none,false,.lblank⟩⟩] .leaf) 106243959041 [⟨⟨.code,[82],.lcode,false,[(9,0)],false⟩,false,false,[some (101,(.other,false)),some (39,(.other,false))],none,none,none,false,false,false,none,false,⟨.lcode,none,false,.lblank⟩⟩] (.node (.node .leaf 106243971330 [⟨⟨.code,[82],.lcode,false,[(9,1)],false⟩,false,false,[some (101,(.other,false)),some (39,(.other,false))],none,none,none,false,false,false,none,false,⟨.lcode,none,false,.lblank⟩⟩] .leaf) 106279378917 [⟨⟨.code,[82],.lcode,false,[],false⟩,false,false,[some (101,(.other,false)),some (256,(.other,false))],none,none,none,false,false,false,none,false,⟨.lcode,none,false,.lblank⟩⟩] .leaf)) 106280558661 [⟨⟨.code,[114],.lcode,false,[],false⟩,false,false,[some (101,(.other,false)),some (256,(.other,false))],none,none,none,false,false,false,none,false,⟨.lcode,none,false,.lblank⟩⟩] (.node (.node (.node .leaf 106303959221 [⟨⟨.code,[82],.lcode,false,[(9,0)],false⟩,false,false,[some (101,(.other,false)),some (69,(.other,false))],none,none,none,false,false,false,none,false,⟨.lcode,none,false,.lblank⟩⟩] .leaf) 106303971510 [⟨⟨.code,[82],.lcode,false,[(9,1)],false⟩,false,false,[some (101,(.other,false)),some (69,(.other,false))],none,none,none,false,false,false,none,false,⟨.lcode,none,false,.lblank⟩⟩] .leaf) 106318015533 [⟨⟨.code,[82],.lblank,false,[],false⟩,false,false,[some (101,(.other,false)),some (256,(.other,false))],none,none,none,false,false,false,none,false,⟨.lcode,none,false,.lblank⟩⟩] (.node (.node .leaf 106319195277 [⟨⟨.code,[114],.lblank,false,[],false⟩,false,false,[some (101,(.other,false)),some (256,(.other,false))],none,none,none,false,false,false,none,false,⟨.lcode,none,false,.lblank⟩⟩] .leaf) 106329959299 [⟨⟨.code,[82],.lcode,false,[(9,0)],false⟩,false,false,[some (101,(.other,false)),some (82,(.other,false))],none,none,none,false,false,false,none,false,⟨.lcode,none,false,.lblank⟩⟩] .leaf))) 106329971588 [⟨⟨.code,[82],.lcode,false,[(9,1)],false⟩,false,false,[some (101,(.other,false)),some (82,(.other,false))],none,none,none,false,false,false,none,false,⟨.lcode,none,false,.lblank⟩⟩] (.node (.node (.node (.node .leaf 106338505325 [⟨⟨.code,[114],.lcode,false,[(9,0)],false⟩,false,false,[some (101,(.other,false)),some (9,(.ws,false))],none,none,none,false,false,false,none,false,⟨.lcode,none,false,.lblank⟩⟩] .leaf) 106338517614 [⟨⟨.code,[114],.lcode,false,[(9,1)],false⟩,false,false,[some (101,(.other,false)),some (9,(.ws,false))],none,none,none,false,false,false,none,false,⟨.lcode,none,false,.lblank⟩⟩] .leaf) 106340505331 [⟨⟨.code,[114],.lcode,false,[(9,0)],false⟩,false,false,[some (101,(.other,false)),some (10,(.lf,false))],none,none,none,false,false,false,none,false,⟨.lcode,none,false,.lblank⟩⟩] (.node (.node .leaf 106340517620 [⟨⟨.code,[114],.lcode,false,[(9,1)],false⟩,false,false,[some (101,(.other,false)),some (10,(.lf,false))],none,none,none,false,false,false,none,false,⟨.lcode,none,false,.lblank⟩⟩] .leaf) 106344505343 [⟨⟨.code,[114],.lcode,false,[(9,0)],false⟩,false,false,[some (101,(.other,false)),some (12,(.ff,false))],none,none,none,false,false,false,none,false,⟨.lcode,none,false,.lblank⟩⟩] .leaf)) 106344517632 [⟨⟨.code,[114],.lcode,false,[(9,1)],false⟩,false,false,[some (101,(.other,false)),some (12,(.ff,false))],none,none,none,false,false,false,none,false,⟨.lcode,none,false,.lblank⟩⟩] (.node (.node (.node .leaf 106346505349 [⟨⟨.code,[114],.lcode,false,[(9,0)],false⟩,false,false,[some (101,(.other,false)),some (13,(.cr,false))],none,none,none,false,false,false,none,false,⟨.lcode,none,false,.lblank⟩⟩] .leaf) 106346517638 [⟨⟨.code,[114],.lcode,false,[(9,1)],false⟩,false,false,[some (101,(.other,false)),some (13,(.cr,false))],none,none,none,false,false,false,none,false,⟨.lcode,none,false,.lblank⟩⟩] .leaf) 106347505352 [⟨⟨.code,[114],.lcode,false,[(9,0)],false⟩,false,false,[some (101,(.other,false)),some (13,(.cr,true))],none,none,none,false,false,false,none,false,⟨.lcode,none,false,.lblank⟩⟩] (.node .leaf 106347517641 [⟨⟨.code,[114],.lcode,false,[(9,1)],false⟩,false,false,[some (101,(.other,false)),some (13,(.cr,true))],none,none,none,false,false,false,none,false,⟨.lcode,none,false,.lblank⟩⟩] .leaf)))) 106349959359 [⟨⟨.code,[82],.lcode,false,[(9,0)],false⟩,false,false,[some (101,(.other,false)),some (92,(.other,false))],none,none,none,false,false,false,none,false,⟨.lcode,none,false,.lblank⟩⟩] (.node (.node (.node (.node (.node .leaf 106349971648 [⟨⟨.code,[82],.lcode,false,[(9,1)],false⟩,false,false,[some (101,(.other,false)),some (92,(.other,false))],none,none,none,false,false,false,none,false,⟨.lcode,none,false,.lblank⟩⟩] .leaf) 106367959413 [⟨⟨.code,[82],.lcode,false,[(9,0)],false⟩,false,false,[some (101,(.other,false)),some (101,(.other,false))],none,none,none,false,false,false,none,false,⟨.lcode,none,false,.lblank⟩⟩] .leaf) 106367971702 [⟨⟨.code,[82],.lcode,false,[(9,1)],false⟩,false,false,[some (101,(.other,false)),some (101,(.other,false))],none,none,none,false,false,false,none,false,⟨.lcode,none,false,.lblank⟩⟩] (.node (.node .leaf 106393959491 [⟨⟨.code,[82],.lcode,false,[(9,0)],false⟩,false,false,[some (101,(.other,false)),some (114,(.other,false))],none,none,none,false,false,false,none,false,⟨.lcode,none,false,.lblank⟩⟩] .leaf) 106393971780 [⟨⟨.code,[82],.lcode,false,[(9,1)],false⟩,false,false,[some (101,(.other,false)),some (114,(.other,false))],none,none,none,false,false,false,none,false,⟨.lcode,none,false,.lblank⟩⟩] .leaf)) 106398505505 [⟨⟨.code,[114],.lcode,false,[(9,0)],false⟩,false,false,[some (101,(.other,false)),some (39,(.other,false))],none,none,none,false,false,false,none,false,⟨.lcode,none,false,.lblank⟩⟩] (.node (.node (.node .leaf 106398517794 [⟨⟨.code,[114],.lcode,false,[(9,1)],false⟩,false,false,[some (101,(.other,false)),some (39,(.other,false))],none,none,none,false,false,false,none,false,⟨.lcode,none,false,.lblank⟩⟩] .leaf) 106458505685 [⟨⟨.code,[114],.lcode,false,[(9,0)],false⟩,false,false,[some (101,(.other,false)),some (69,(.other,false))],none,none,none,false,false,false,none,false,⟨.lcode,none,false,.lblank⟩⟩] .leaf) 106458517974 [⟨⟨.code,[114],.lcode,false,[(9,1)],false⟩,false,false,[some (101,(.other,false)),some (69,(.other,false))],none,none,none,false,false,false,none,false,⟨.lcode,none,false,.lblank⟩⟩] (.node .leaf 106484505763 [⟨⟨.code,[114],.lcode,false,[(9,0)],false⟩,false,false,[some (101,(.other,false)),some (82,(.other,false))],none,none,none,false,false,false,none,false,⟨.lcode,none,false,.lblank⟩⟩] .leaf))) 106484518052 [⟨⟨.code,[114],.lcode,false,[(9,1)],false⟩,false,false,[some (101,(.other,false)),some (82,(.other,false))],none,none,none,false,false,false,none,false,⟨.lcode,none,false,.lblank⟩⟩] (.node (.node (.node (.node .leaf 106504505823 [⟨⟨.code,[114],.lcode,false,[(9,0)],false⟩,false,false,[some (101,(.other,false)),some (92,(.other,false))],none,none,none,false,false,false,none,false,⟨.lcode,none,false,.lblank⟩⟩] .leaf) 106504518112 [⟨⟨.code,[114],.lcode,false,[(9,1)],false⟩,false,false,[some (101,(.other,false)),some (92,(.other,false))],none,none,none,false,false,false,none,false,⟨.lcode,none,false,.lblank⟩⟩] .leaf) 106522505877 [⟨⟨.code,[114],.lcode,false,[(9,0)],false⟩,false,false,[some (101,(.other,false)),some (101,(.other,false))],none,none,none,false,false,false,none,false,⟨.lcode,none,false,.lblank⟩⟩] (.node (.node .leaf 106522518166 [⟨⟨.code,[114],.lcode,false,[(9,1)],false⟩,false,false,[some (101,(.other,false)),some (101,(.other,false))],none,none,none,false,false,false,none,false,⟨.lcode,none,false,.lblank⟩⟩] .leaf) 106548505955 [⟨⟨.code,[114],.lcode,false,[(9,0)],false⟩,false,false,[some (101,(.other,false)),some (114,(.other,false))],none,none,none,false,false,false,none,false,⟨.lcode,none,false,.lblank⟩⟩] .leaf)) 106548518244 [⟨⟨.code,[114],.lcode,false,[(9,1)],false⟩,false,false,[some (101,(.other,false)),some (114,(.other,false))],none,none,none,false,false,false,none,false,⟨.lcode,none,false,.lblank⟩⟩] (.node (.node (.node .leaf 106677960343 [⟨⟨.code,[82],.lcode,false,[(9,0)],false⟩,false,false,[some (101,(.other,false)),some (256,(.other,false))],none,none,none,false,false,false,none,false,⟨.lcode,none,false,.lblank⟩⟩] .leaf) 106677972632 [⟨⟨.code,[82],.lcode,false,[(9,1)],false⟩,false,false,[some (101,(.other,false)),some (256,(.other,false))],none,none,none,false,false,false,none,false,⟨.lcode,none,false,.lblank⟩⟩] .leaf) 106832506807 [⟨⟨.code,[114],.lcode,false,[(9,0)],false⟩,false,false,[some (101,(.other,false)),some (256,(.other,false))],none,none,none,false,false,false,none,false,⟨.lcode,none,false,.lblank⟩⟩] (.node .leaf 106832519096 [⟨⟨.code,[114],.lcode,false,[(9,1)],false⟩,false,false,[some (101,(.other,false)),some (256,(.other,false))],none,none,none,false,false,false,none,false,⟨.lcode,none,false,.lblank⟩⟩] .leaf))))))))),(.node (.node .leaf 128 [⟨⟨.code,[],.lcode,false,[],false⟩,false,false,[],none,none,none,false,false,false,none,false,⟨.lcode,some (.own 0),false,.lblank⟩⟩] .leaf) 296088 [⟨⟨.code,[],.lblank,false,[],false⟩,false,false,[],none,none,none,false,false,false,none,false,⟨.lblank,some (.own 0),false,.lblank⟩⟩] (.node .leaf 786624 [⟨⟨.code,[],.lcode,false,[(9,0)],false⟩,false,false,[],none,none,none,false,false,false,none,false,⟨.lcode,some (.own 0),false,.lblank⟩⟩] .leaf)),(.node (.node .leaf 160 [⟨⟨.code,[],.lcode,false,[],false⟩,true,false,[],none,none,none,false,false,false,none,false,⟨.lcode,some .newline,false,.lblank⟩⟩] .leaf) 148140 [⟨⟨.code,[],.lcomment,false,[],false⟩,true,false,[],none,none,none,false,false,false,none,false,⟨.lcomment,some .newline,false,.lblank⟩⟩] (.node .leaf 296120 [⟨⟨.code,[],.lblank,false,[],false⟩,true,false,[],none,none,none,false,false,false,none,false,⟨.lblank,some .newline,false,.lblank⟩⟩] .leaf)),(.node (.node .leaf 37011 [⟨⟨.code,[],.lcode,true,[],false⟩,false,true,[],none,none,none,false,false,false,none,false,⟨.lcode,some .newline,false,.lblank⟩⟩] .leaf) 184991 [⟨⟨.code,[],.lcomment,true,[],false⟩,false,true,[],none,none,none,false,false,false,none,false,⟨.lcomment,some .newline,false,.lblank⟩⟩] (.node .leaf 332971 [⟨⟨.code,[],.lblank,true,[],false⟩,false,true,[],none,none,none,false,false,false,none,false,⟨.lblank,some .newline,false,.lblank⟩⟩] .leaf)),(.node (.node (.node .leaf 786624 [⟨⟨.code,[],.lcode,false,[(9,0)],false⟩,false,false,[],none,none,none,false,false,false,none,false,⟨.lcode,some (.own 3),false,.lblank⟩⟩] .leaf) 786628 [⟨⟨.code,[],.lcode,false,[(9,0)],false⟩,false,false,[],none,none,none,false,true,false,none,false,⟨.lcode,some (.own 3),false,.lblank⟩⟩] .leaf) 27724112 [⟨⟨(.inside 9),[],.lcode,false,[],false⟩,false,false,[],none,none,none,false,false,false,none,false,⟨.lcode,some (.own 3),false,.lblank⟩⟩] (.node .leaf 3632628528 [⟨⟨(.inside 9),[],.lcode,false,[(9,0)],false⟩,false,false,[],none,none,none,false,false,false,none,false,⟨.lcode,some (.own 3),false,.lblank⟩⟩] .leaf)),(.node (.node .leaf 1179872 [⟨⟨(.inside 0),[],.lcode,false,[],false⟩,false,false,[],none,none,none,false,false,false,none,false,⟨.lcode,some (.own 3),false,.lblank⟩⟩] .leaf) 1327852 [⟨⟨(.inside 0),[],.lcomment,false,[],false⟩,false,false,[],none,none,none,false,false,false,none,false,⟨.lcomment,some (.own 3),false,.lblank⟩⟩] (.node .leaf 155333088 [⟨⟨(.inside 0),[],.lcode,false,[(9,0)],false⟩,false,false,[],none,none,none,false,false,false,none,false,⟨.lcode,some (.own 3),false,.lblank⟩⟩] .leaf)),(.node (.node (.node (.node .leaf 3060089 [⟨⟨.code,[82],.lcode,false,[],false⟩,false,false,[],none,none,none,false,false,false,none,false,⟨.lcode,some (.own 3),false,.lblank⟩⟩] .leaf) 3060091 [⟨⟨.code,[82],.lcode,false,[],false⟩,false,false,[],none,none,none,false,false,true,none,false,⟨.lcode,some (.own 3),false,.lblank⟩⟩] (.node .leaf 4239833 [⟨⟨.code,[114],.lcode,false,[],false⟩,false,false,[],none,none,none,false,false,false,none,false,⟨.lcode,some (.own 3),false,.lblank⟩⟩] .leaf)) 4239835 [⟨⟨.code,[114],.lcode,false,[],false⟩,false,false,[],none,none,none,false,false,true,none,false,⟨.lcode,some (.own 3),false,.lblank⟩⟩] (.node (.node .leaf 41697731 [⟨⟨.code,[82],.lblank,false,[],false⟩,false,false,[],none,none,none,false,false,true,none,false,⟨.lblank,some (.own 3),false,.lblank⟩⟩] .leaf) 42877475 [⟨⟨.code,[114],.lblank,false,[],false⟩,false,false,[],none,none,none,false,false,true,none,false,⟨.lblank,some (.own 3),false,.lblank⟩⟩] .leaf)) 401641515 [⟨⟨.code,[82],.lcode,false,[(9,0)],false⟩,false,false,[],none,none,none,false,false,false,none,false,⟨.lcode,some (.own 3),false,.lblank⟩⟩] (.node (.node (.node .leaf 401641517 [⟨⟨.code,[82],.lcode,false,[(9,0)],false⟩,false,false,[],none,none,none,false,false,true,none,false,⟨.lcode,some (.own 3),false,.lblank⟩⟩] .leaf) 401653806 [⟨⟨.code,[82],.lcode,false,[(9,1)],false⟩,false,false,[],none,none,none,false,false,true,none,false,⟨.lcode,some (.own 3),false,.lblank⟩⟩] .leaf) 556187979 [⟨⟨.code,[114],.lcode,false,[(9,0)],false⟩,false,false,[],none,none,none,false,false,false,none,false,⟨.lcode,some (.own 3),false,.lblank⟩⟩] (.node (.node .leaf 556187981 [⟨⟨.code,[114],.lcode,false,[(9,0)],false⟩,false,false,[],none,none,none,false,false,true,none,false,⟨.lcode,some (.own 3),false,.lblank⟩⟩] .leaf) 556200270 [⟨⟨.code,[114],.lcode,false,[(9,1)],false⟩,false,false,[],none,none,none,false,false,true,none,false,⟨.lcode,some (.own 3),false,.lblank⟩⟩] .leaf))),(.node (.node (.node (.node (.node .leaf 836325 [⟨⟨.code,[],.lcode,false,[(9,0)],false⟩,false,false,[],some 4,some ⟨.code,[],.lcode,false,[(9,0)],false⟩,none,false,false,false,none,false,⟨.lcode,some (.own 3),false,.lblank⟩⟩] .leaf) 29459461 [⟨⟨(.inside 9),[],.lcode,false,[],false⟩,false,false,[],some 4,some ⟨(.inside 9),[],.lcode,false,[],false⟩,none,false,false,false,none,false,⟨.lcode,some (.own 3),false,.lblank⟩⟩] (.node .leaf 49132099 [⟨⟨.code,[],.lblank,false,[(9,0)],true⟩,false,false,[],some 4,some ⟨.code,[],.lcode,false,[(9,0)],false⟩,none,false,true,false,none,false,⟨.lcode,some (.own 3),false,.lblank⟩⟩] .leaf)) 155382789 [⟨⟨(.inside 0),[],.lcode,false,[(9,0)],false⟩,false,false,[],some 4,some ⟨.code,[],.lcode,false,[(9,0)],false⟩,none,false,false,false,none,false,⟨.lcode,some (.own 3),false,.lblank⟩⟩] (.node (.node .leaf 401691216 [⟨⟨.code,[82],.lcode,false,[(9,0)],false⟩,false,false,[],some 4,some ⟨.code,[],.lcode,false,[(9,0)],false⟩,none,false,false,false,none,false,⟨.lcode,some (.own 3),false,.lblank⟩⟩] .leaf) 541748949 [⟨⟨(.inside 1),[],.lcode,false,[(9,0)],false⟩,false,false,[],some 4,some ⟨.code,[],.lcode,false,[(9,0)],false⟩,none,false,false,false,none,false,⟨.lcode,some (.own 3),false,.lblank⟩⟩] .leaf)) 556237680 [⟨⟨.code,[114],.lcode,false,[(9,0)],false⟩,false,false,[],some 4,some ⟨.code,[],.lcode,false,[(9,0)],false⟩,none,false,false,false,none,false,⟨.lcode,some (.own 3),false,.lblank⟩⟩] (.node (.node (.node .leaf 928115109 [⟨⟨(.inside 2),[],.lcode,false,[(9,0)],false⟩,false,false,[],some 4,some ⟨.code,[],.lcode,false,[(9,0)],false⟩,none,false,false,false,none,false,⟨.lcode,some (.own 3),false,.lblank⟩⟩] .leaf) 1314481269 [⟨⟨(.inside 3),[],.lcode,false,[(9,0)],false⟩,false,false,[],some 4,some ⟨.code,[],.lcode,false,[(9,0)],false⟩,none,false,false,false,none,false,⟨.lcode,some (.own 3),false,.lblank⟩⟩] .leaf) 1700847429 [⟨⟨(.inside 4),[],.lcode,false,[(9,0)],false⟩,false,false,[],some 4,some ⟨.code,[],.lcode,false,[(9,0)],false⟩,none,false,false,false,none,false,⟨.lcode,some (.own 3),false,.lblank⟩⟩] (.node (.node .leaf 2087213589 [⟨⟨(.inside 5),[],.lcode,false,[(9,0)],false⟩,false,false,[],some 4,some ⟨.code,[],.lcode,false,[(9,0)],false⟩,none,false,false,false,none,false,⟨.lcode,some (.own 3),false,.lblank⟩⟩] .leaf) 2473579749 [⟨⟨(.inside 6),[],.lcode,false,[(9,0)],false⟩,false,false,[],some 4,some ⟨.code,[],.lcode,false,[(9,0)],false⟩,none,false,false,false,none,false,⟨.lcode,some (.own 3),false,.lblank⟩⟩] .leaf))) 2859945909 [⟨⟨(.inside 7),[],.lcode,false,[(9,0)],false⟩,false,false,[],some 4,some ⟨.code,[],.lcode,false,[(9,0)],false⟩,none,false,false,false,none,false,⟨.lcode,some (.own 3),false,.lblank⟩⟩] (.node (.node (.node (.node .leaf 3246312069 [⟨⟨(.inside 8),[],.lcode,false,[(9,0)],false⟩,false,false,[],some 4,some ⟨.code,[],.lcode,false,[(9,0)],false⟩,none,false,false,false,none,false,⟨.lcode,some (.own 3),false,.lblank⟩⟩] .leaf) 3632678229 [⟨⟨(.inside 9),[],.lcode,false,[(9,0)],false⟩,false,false,[],some 4,some ⟨.code,[],.lcode,false,[(9,0)],false⟩,none,false,false,false,none,false,⟨.lcode,some (.own 3),false,.lblank⟩⟩] .leaf) 3859945413 [⟨⟨(.inside 9),[],.lcode,false,[(9,0)],false⟩,false,false,[],some 4,some ⟨(.inside 9),[],.lcode,false,[(9,0)],false⟩,none,false,false,false,none,false,⟨.lcode,some (.own 3),false,.lblank⟩⟩] (.node (.node .leaf 52850897436 [⟨⟨.code,[82,69],.lcode,false,[(9,0)],false⟩,false,false,[],some 4,some ⟨.code,[],.lcode,false,[(9,0)],false⟩,none,false,false,false,none,false,⟨.lcode,some (.own 3),false,.lblank⟩⟩] .leaf) 52850909725 [⟨⟨.code,[82,69],.lcode,false,[(9,1)],false⟩,false,false,[],some 4,some ⟨.code,[],.lcode,false,[(9,0)],false⟩,none,false,false,false,none,false,⟨.lcode,some (.own 3),false,.lblank⟩⟩] .leaf)) 53005443900 [⟨⟨.code,[82,101],.lcode,false,[(9,0)],false⟩,false,false,[],some 4,some ⟨.code,[],.lcode,false,[(9,0)],false⟩,none,false,false,false,none,false,⟨.lcode,some (.own 3),false,.lblank⟩⟩] (.node (.node (.node .leaf 53005456189 [⟨⟨.code,[82,101],.lcode,false,[(9,1)],false⟩,false,false,[],some 4,some ⟨.code,[],.lcode,false,[(9,0)],false⟩,none,false,false,false,none,false,⟨.lcode,some (.own 3),false,.lblank⟩⟩] .leaf) 73096484220 [⟨⟨.code,[114,69],.lcode,false,[(9,0)],false⟩,false,false,[],some 4,some ⟨.code,[],.lcode,false,[(9,0)],false⟩,none,false,false,false,none,false,⟨.lcode,some (.own 3),false,.lblank⟩⟩] .leaf) 73096496509 [⟨⟨.code,[114,69],.lcode,false,[(9,1)],false⟩,false,false,[],some 4,some ⟨.code,[],.lcode,false,[(9,0)],false⟩,none,false,false,false,none,false,⟨.lcode,some (.own 3),false,.lblank⟩⟩] (.node (.node .leaf 73251030684 [⟨⟨.code,[114,101],.lcode,false,[(9,0)],false⟩,false,false,[],some 4,some ⟨.code,[],.lcode,false,[(9,0)],false⟩,none,false,false,false,none,false,⟨.lcode,some (.own 3),false,.lblank⟩⟩] .leaf) 73251042973 [⟨⟨.code,[114,101],.lcode,false,[(9,1)],false⟩,false,false,[],some 4,some ⟨.code,[],.lcode,false,[(9,0)],false⟩,none,false,false,false,none,false,⟨.lcode,some (.own 3),false,.lblank⟩⟩] .leaf)))),(.node (.node (.node (.node .leaf 848614 [⟨⟨.code,[],.lcode,false,[(9,1)],false⟩,false,false,[],some 4,some ⟨.code,[],.lcode,false,[(9,0)],false⟩,none,false,false,false,none,false,⟨.lcode,some (.own 3),false,.lblank⟩⟩] .leaf) 49144388 [⟨⟨.code,[],.lblank,false,[(9,1)],true⟩,false,false,[],some 4,some ⟨.code,[],.lcode,false,[(9,0)],false⟩,none,false,true,false,none,false,⟨.lcode,some (.own 3),false,.lblank⟩⟩] (.node .leaf 155395078 [⟨⟨(.inside 0),[],.lcode,false,[(9,1)],false⟩,false,false,[],some 4,some ⟨.code,[],.lcode,false,[(9,0)],false⟩,none,false,false,false,none,false,⟨.lcode,some (.own 3),false,.lblank⟩⟩] .leaf)) 541761238 [⟨⟨(.inside 1),[],.lcode,false,[(9,1)],false⟩,false,false,[],some 4,some ⟨.code,[],.lcode,false,[(9,0)],false⟩,none,false,false,false,none,false,⟨.lcode,some (.own 3),false,.lblank⟩⟩] (.node (.node .leaf 928127398 [⟨⟨(.inside 2),[],.lcode,false,[(9,1)],false⟩,false,false,[],some 4,some ⟨.code,[],.lcode,false,[(9,0)],false⟩,none,false,false,false,none,false,⟨.lcode,some (.own 3),false,.lblank⟩⟩] .leaf) 1314493558 [⟨⟨(.inside 3),[],.lcode,false,[(9,1)],false⟩,false,false,[],some 4,some ⟨.code,[],.lcode,false,[(9,0)],false⟩,none,false,false,false,none,false,⟨.lcode,some (.own 3),false,.lblank⟩⟩] (.node .leaf 1700859718 [⟨⟨(.inside 4),[],.lcode,false,[(9,1)],false⟩,false,false,[],some 4,some ⟨.code,[],.lcode,false,[(9,0)],false⟩,none,false,false,false,none,false,⟨.lcode,some (.own 3),false,.lblank⟩⟩] .leaf))) 2087225878 [⟨⟨(.inside 5),[],.lcode,false,[(9,1)],false⟩,false,false,[],some 4,some ⟨.code,[],.lcode,false,[(9,0)],false⟩,none,false,false,false,none,false,⟨.lcode,some (.own 3),false,.lblank⟩⟩] (.node (.node (.node .leaf 2473592038 [⟨⟨(.inside 6),[],.lcode,false,[(9,1)],false⟩,false,false,[],some 4,some ⟨.code,[],.lcode,false,[(9,0)],false⟩,none,false,false,false,none,false,⟨.lcode,some (.own 3),false,.lblank⟩⟩] .leaf) 2859958198 [⟨⟨(.inside 7),[],.lcode,false,[(9,1)],false⟩,false,false,[],some 4,some ⟨.code,[],.lcode,false,[(9,0)],false⟩,none,false,false,false,none,false,⟨.lcode,some (.own 3),false,.lblank⟩⟩] (.node .leaf 3246324358 [⟨⟨(.inside 8),[],.lcode,false,[(9,1)],false⟩,false,false,[],some 4,some ⟨.code,[],.lcode,false,[(9,0)],false⟩,none,false,false,false,none,false,⟨.lcode,some (.own 3),false,.lblank⟩⟩] .leaf)) 3637006012 [⟨⟨(.inside 9),[92],.lcode,false,[],false⟩,false,false,[],some 4,some ⟨(.inside 9),[],.lcode,false,[],false⟩,none,false,false,false,none,false,⟨.lcode,some (.own 3),false,.lblank⟩⟩] (.node (.node .leaf 476221276410 [⟨⟨(.inside 9),[92],.lcode,false,[(9,0)],false⟩,false,false,[],some 4,some ⟨.code,[],.lcode,false,[(9,0)],false⟩,none,false,false,false,none,false,⟨.lcode,some (.own 3),false,.lblank⟩⟩] .leaf) 476448543594 [⟨⟨(.inside 9),[92],.lcode,false,[(9,0)],false⟩,false,false,[],some 4,some ⟨(.inside 9),[],.lcode,false,[(9,0)],false⟩,none,false,false,false,none,false,⟨.lcode,some (.own 3),false,.lblank⟩⟩] .leaf))),(.node (.node (.node (.node (.node (.node .leaf 1179872 [⟨⟨(.inside 0),[],.lcode,false,[],false⟩,false,false,[],none,none,none,false,false,false,none,false,⟨.lcode,some (.own 3),false,.lblank⟩⟩] .leaf) 1327852 [⟨⟨(.inside 0),[],.lcomment,false,[],false⟩,false,false,[],none,none,none,false,false,false,none,false,⟨.lcomment,some (.own 3),false,.lblank⟩⟩] .leaf) 4129232 [⟨⟨(.inside 1),[],.lcode,false,[],false⟩,false,false,[],none,none,none,false,false,false,none,false,⟨.lcode,some (.own 3),false,.lblank⟩⟩] (.node .leaf 4277212 [⟨⟨(.inside 1),[],.lcomment,false,[],false⟩,false,false,[],none,none,none,false,false,false,none,false,⟨.lcomment,some (.own 3),false,.lblank⟩⟩] .leaf)) 7078592 [⟨⟨(.inside 2),[],.lcode,false,[],false⟩,false,false,[],none,none,none,false,false,false,none,false,⟨.lcode,some (.own 3),false,.lblank⟩⟩] (.node (.node (.node .leaf 7226572 [⟨⟨(.inside 2),[],.lcomment,false,[],false⟩,false,false,[],none,none,none,false,false,false,none,false,⟨.lcomment,some (.own 3),false,.lblank⟩⟩] .leaf) 10027952 [⟨⟨(.inside 3),[],.lcode,false,[],false⟩,false,false,[],none,none,none,false,false,false,none,false,⟨.lcode,some (.own 3),false,.lblank⟩⟩] .leaf) 10175932 [⟨⟨(.inside 3),[],.lcomment,false,[],false⟩,false,false,[],none,none,none,false,false,false,none,false,⟨.lcomment,some (.own 3),false,.lblank⟩⟩] (.node .leaf 12977312 [⟨⟨(.inside 4),[],.lcode,false,[],false⟩,false,false,[],none,none,none,false,false,false,none,false,⟨.lcode,some (.own 3),false,.lblank⟩⟩] .leaf))) 13125292 [⟨⟨(.inside 4),[],.lcomment,false,[],false⟩,false,false,[],none,none,none,false,false,false,none,false,⟨.lcomment,some (.own 3),false,.lblank⟩⟩] (.node (.node (.node (.node .leaf 15926672 [⟨⟨(.inside 5),[],.lcode,false,[],false⟩,false,false,[],none,none,none,false,false,false,none,false,⟨.lcode,some (.own 3),false,.lblank⟩⟩] .leaf) 16074652 [⟨⟨(.inside 5),[],.lcomment,false,[],false⟩,false,false,[],none,none,none,false,false,false,none,false,⟨.lcomment,some (.own 3),false,.lblank⟩⟩] .leaf) 18876032 [⟨⟨(.inside 6),[],.lcode,false,[],false⟩,false,false,[],none,none,none,false,false,false,none,false,⟨.lcode,some (.own 3),false,.lblank⟩⟩] (.node .leaf 19024012 [⟨⟨(.inside 6),[],.lcomment,false,[],false⟩,false,false,[],none,none,none,false,false,false,none,false,⟨.lcomment,some (.own 3),false,.lblank⟩⟩] .leaf)) 21825392 [⟨⟨(.inside 7),[],.lcode,false,[],false⟩,false,false,[],none,none,none,false,false,false,none,false,⟨.lcode,some (.own 3),false,.lblank⟩⟩] (.node (.node .leaf 21973372 [⟨⟨(.inside 7),[],.lcomment,false,[],false⟩,false,false,[],none,none,none,false,false,false,none,false,⟨.lcomment,some (.own 3),false,.lblank⟩⟩] .leaf) 24774752 [⟨⟨(.inside 8),[],.lcode,false,[],false⟩,false,false,[],none,none,none,false,false,false,none,false,⟨.lcode,some (.own 3),false,.lblank⟩⟩] (.node .leaf 24922732 [⟨⟨(.inside 8),[],.lcomment,false,[],false⟩,false,false,[],none,none,none,false,false,false,none,false,⟨.lcomment,some (.own 3),false,.lblank⟩⟩] .leaf)))) 155333088 [⟨⟨(.inside 0),[],.lcode,false,[(9,0)],false⟩,false,false,[],none,none,none,false,false,false,none,false,⟨.lcode,some (.own 3),false,.lblank⟩⟩] (.node (.node (.node (.node (.node .leaf 155345377 [⟨⟨(.inside 0),[],.lcode,false,[(9,1)],false⟩,false,false,[],none,none,none,false,false,false,none,false,⟨.lcode,some (.own 3),false,.lblank⟩⟩] .leaf) 541699248 [⟨⟨(.inside 1),[],.lcode,false,[(9,0)],false⟩,false,false,[],none,none,none,false,false,false,none,false,⟨.lcode,some (.own 3),false,.lblank⟩⟩] .leaf) 541711537 [⟨⟨(.inside 1),[],.lcode,false,[(9,1)],false⟩,false,false,[],none,none,none,false,false,false,none,false,⟨.lcode,some (.own 3),false,.lblank⟩⟩] (.node .leaf 928065408 [⟨⟨(.inside 2),[],.lcode,false,[(9,0)],false⟩,false,false,[],none,none,none,false,false,false,none,false,⟨.lcode,some (.own 3),false,.lblank⟩⟩] .leaf)) 928077697 [⟨⟨(.inside 2),[],.lcode,false,[(9,1)],false⟩,false,false,[],none,none,none,false,false,false,none,false,⟨.lcode,some (.own 3),false,.lblank⟩⟩] (.node (.node .leaf 1314431568 [⟨⟨(.inside 3),[],.lcode,false,[(9,0)],false⟩,false,false,[],none,none,none,false,false,false,none,false,⟨.lcode,some (.own 3),false,.lblank⟩⟩] .leaf) 1314443857 [⟨⟨(.inside 3),[],.lcode,false,[(9,1)],false⟩,false,false,[],none,none,none,false,false,false,none,false,⟨.lcode,some (.own 3),false,.lblank⟩⟩] (.node .leaf 1700797728 [⟨⟨(.inside 4),[],.lcode,false,[(9,0)],false⟩,false,false,[],none,none,none,false,false,false,none,false,⟨.lcode,some (.own 3),false,.lblank⟩⟩] .leaf))) 1700810017 [⟨⟨(.inside 4),[],.lcode,false,[(9,1)],false⟩,false,false,[],none,none,none,false,false,false,none,false,⟨.lcode,some (.own 3),false,.lblank⟩⟩] (.node (.node (.node (.node .leaf 2087163888 [⟨⟨(.inside 5),[],.lcode,false,[(9,0)],false⟩,false,false,[],none,none,none,false,false,false,none,false,⟨.lcode,some (.own 3),false,.lblank⟩⟩] .leaf) 2087176177 [⟨⟨(.inside 5),[],.lcode,false,[(9,1)],false⟩,false,false,[],none,none,none,false,false,false,none,false,⟨.lcode,some (.own 3),false,.lblank⟩⟩] .leaf) 2473530048 [⟨⟨(.inside 6),[],.lcode,false,[(9,0)],false⟩,false,false,[],none,none,none,false,false,false,none,false,⟨.lcode,some (.own 3),false,.lblank⟩⟩] (.node .leaf 2473542337 [⟨⟨(.inside 6),[],.lcode,false,[(9,1)],false⟩,false,false,[],none,none,none,false,false,false,none,false,⟨.lcode,some (.own 3),false,.lblank⟩⟩] .leaf)) 2859896208 [⟨⟨(.inside 7),[],.lcode,false,[(9,0)],false⟩,false,false,[],none,none,none,false,false,false,none,false,⟨.lcode,some (.own 3),false,.lblank⟩⟩] (.node (.node .leaf 2859908497 [⟨⟨(.inside 7),[],.lcode,false,[(9,1)],false⟩,false,false,[],none,none,none,false,false,false,none,false,⟨.lcode,some (.own 3),false,.lblank⟩⟩] .leaf) 3246262368 [⟨⟨(.inside 8),[],.lcode,false,[(9,0)],false⟩,false,false,[],none,none,none,false,false,false,none,false,⟨.lcode,some (.own 3),false,.lblank⟩⟩] (.node .leaf 3246274657 [⟨⟨(.inside 8),[],.lcode,false,[(9,1)],false⟩,false,false,[],none,none,none,false,false,false,none,false,⟨.lcode,some (.own 3),false,.lblank⟩⟩] .leaf))))),(.node (.node (.node (.node (.node .leaf 1584631218 [⟨⟨.code,[82,69],.lcode,false,[],false⟩,false,false,[],some 4,some ⟨.code,[82],.lcode,false,[],false⟩,some ([(69,(.other,false))],true),false,false,false,none,false,⟨.lcode,some (.own 3),false,.lblank⟩⟩] .leaf) 1584631220 [⟨⟨.code,[82,69],.lcode,false,[],false⟩,false,false,[],some 4,some ⟨.code,[82],.lcode,false,[],false⟩,some ([(69,(.other,false))],true),false,false,true,none,false,⟨.lcode,some (.own 3),false,.lblank⟩⟩] (.node .leaf 1649811154 [⟨⟨.code,[82,101],.lcode,false,[],false⟩,false,false,[],some 4,some ⟨.code,[82],.lcode,false,[],false⟩,some ([(101,(.other,false))],true),false,false,false,none,false,⟨.lcode,some (.own 3),false,.lblank⟩⟩] .leaf)) 1649811156 [⟨⟨.code,[82,101],.lcode,false,[],false⟩,false,false,[],some 4,some ⟨.code,[82],.lcode,false,[],false⟩,some ([(101,(.other,false))],true),false,false,true,none,false,⟨.lcode,some (.own 3),false,.lblank⟩⟩] (.node (.node .leaf 1739251506 [⟨⟨.code,[114,69],.lcode,false,[],false⟩,false,false,[],some 4,some ⟨.code,[114],.lcode,false,[],false⟩,some ([(69,(.other,false))],true),false,false,false,none,false,⟨.lcode,some (.own 3),false,.lblank⟩⟩] .leaf) 1739251508 [⟨⟨.code,[114,69],.lcode,false,[],false⟩,false,false,[],some 4,some ⟨.code,[114],.lcode,false,[],false⟩,some ([(69,(.other,false))],true),false,false,true,none,false,⟨.lcode,some (.own 3),false,.lblank⟩⟩] .leaf)) 1804431442 [⟨⟨.code,[114,101],.lcode,false,[],false⟩,false,false,[],some 4,some ⟨.code,[114],.lcode,false,[],false⟩,some ([(101,(.other,false))],true),false,false,false,none,false,⟨.lcode,some (.own 3),false,.lblank⟩⟩] (.node (.node (.node .leaf 1804431444 [⟨⟨.code,[114,101],.lcode,false,[],false⟩,false,false,[],some 4,some ⟨.code,[114],.lcode,false,[],false⟩,some ([(101,(.other,false))],true),false,false,true,none,false,⟨.lcode,some (.own 3),false,.lblank⟩⟩] .leaf) 6648446676 [⟨⟨.code,[82,69],.lblank,false,[],false⟩,false,false,[],some 4,some ⟨.code,[82],.lblank,false,[],false⟩,some ([(69,(.other,false))],true),false,false,true,none,false,⟨.lblank,some (.own 3),false,.lblank⟩⟩] .leaf) 6713626612 [⟨⟨.code,[82,101],.lblank,false,[],false⟩,false,false,[],some 4,some ⟨.code,[82],.lblank,false,[],false⟩,some ([(101,(.other,false))],true),false,false,true,none,false,⟨.lblank,some (.own 3),false,.lblank⟩⟩] (.node (.node .leaf 6803066964 [⟨⟨.code,[114,69],.lblank,false,[],false⟩,false,false,[],some 4,some ⟨.code,[114],.lblank,false,[],false⟩,some ([(69,(.other,false))],true),false,false,true,none,false,⟨.lblank,some (.own 3),false,.lblank⟩⟩] .leaf) 6868246900 [⟨⟨.code,[114,101],.lblank,false,[],false⟩,false,false,[],some 4,some ⟨.code,[114],.lblank,false,[],false⟩,some ([(101,(.other,false))],true),false,false,true,none,false,⟨.lblank,some (.own 3),false,.lblank⟩⟩] .leaf))) 54056984990 [⟨⟨.code,[82,69],.lcode,false,[(9,0)],false⟩,false,false,[],some 4,some ⟨.code,[82],.lcode,false,[(9,0)],false⟩,some ([(69,(.other,false))],true),false,false,false,none,false,⟨.lcode,some (.own 3),false,.lblank⟩⟩] (.node (.node (.node (.node .leaf 54056984992 [⟨⟨.code,[82,69],.lcode,false,[(9,0)],false⟩,false,false,[],some 4,some ⟨.code,[82],.lcode,false,[(9,0)],false⟩,some ([(69,(.other,false))],true),false,false,true,none,false,⟨.lcode,some (.own 3),false,.lblank⟩⟩] .leaf) 54056998050 [⟨⟨.code,[82,69],.lcode,false,[(9,1)],false⟩,false,false,[],some 4,some ⟨.code,[82],.lcode,false,[(9,1)],false⟩,some ([(69,(.other,false))],true),false,false,true,none,false,⟨.lcode,some (.own 3),false,.lblank⟩⟩] .leaf) 54275531646 [⟨⟨.code,[82,101],.lcode,false,[(9,0)],false⟩,false,false,[],some 4,some ⟨.code,[82],.lcode,false,[(9,0)],false⟩,some ([(101,(.other,false))],true),false,false,false,none,false,⟨.lcode,some (.own 3),false,.lblank⟩⟩] (.node (.node .leaf 54275531648 [⟨⟨.code,[82,101],.lcode,false,[(9,0)],false⟩,false,false,[],some 4,some ⟨.code,[82],.lcode,false,[(9,0)],false⟩,some ([(101,(.other,false))],true),false,false,true,none,false,⟨.lcode,some (.own 3),false,.lblank⟩⟩] .leaf) 54275544706 [⟨⟨.code,[82,101],.lcode,false,[(9,1)],false⟩,false,false,[],some 4,some ⟨.code,[82],.lcode,false,[(9,1)],false⟩,some ([(101,(.other,false))],true),false,false,true,none,false,⟨.lcode,some (.own 3),false,.lblank⟩⟩] .leaf)) 74312242718 [⟨⟨.code,[114,69],.lcode,false,[(9,0)],false⟩,false,false,[],some 4,some ⟨.code,[114],.lcode,false,[(9,0)],false⟩,some ([(69,(.other,false))],true),false,false,false,none,false,⟨.lcode,some (.own 3),false,.lblank⟩⟩] (.node (.node (.node .leaf 74312242720 [⟨⟨.code,[114,69],.lcode,false,[(9,0)],false⟩,false,false,[],some 4,some ⟨.code,[114],.lcode,false,[(9,0)],false⟩,some ([(69,(.other,false))],true),false,false,true,none,false,⟨.lcode,some (.own 3),false,.lblank⟩⟩] .leaf) 74312255778 [⟨⟨.code,[114,69],.lcode,false,[(9,1)],false⟩,false,false,[],some 4,some ⟨.code,[114],.lcode,false,[(9,1)],false⟩,some ([(69,(.other,false))],true),false,false,true,none,false,⟨.lcode,some (.own 3),false,.lblank⟩⟩] .leaf) 74530789374 [⟨⟨.code,[114,101],.lcode,false,[(9,0)],false⟩,false,false,[],some 4,some ⟨.code,[114],.lcode,false,[(9,0)],false⟩,some ([(101,(.other,false))],true),false,false,false,none,false,⟨.lcode,some (.own 3),false,.lblank⟩⟩] (.node (.node .leaf 74530789376 [⟨⟨.code,[114,101],.lcode,false,[(9,0)],false⟩,false,false,[],some 4,some ⟨.code,[114],.lcode,false,[(9,0)],false⟩,some ([(101,(.other,false))],true),false,false,true,none,false,⟨.lcode,some (.own 3),false,.lblank⟩⟩] .leaf) 74530802434 [⟨⟨.code,[114,101],.lcode,false,[(9,1)],false⟩,false,false,[],some 4,some ⟨.code,[114],.lcode,false,[(9,1)],false⟩,some ([(101,(.other,false))],true),false,false,true,none,false,⟨.lcode,some (.own 3),false,.lblank⟩⟩] .leaf)))),(.node (.node (.node (.node (.node .leaf 836325 [⟨⟨.code,[],.lcode,false,[(9,0)],false⟩,false,false,[],some 4,some ⟨.code,[],.lcode,false,[(9,0)],false⟩,none,false,false,false,none,false,⟨.lcode,some (.own 3),false,.lblank⟩⟩] .leaf) 29459461 [⟨⟨(.inside 9),[],.lcode,false,[],false⟩,false,false,[],some 4,some ⟨(.inside 9),[],.lcode,false,[],false⟩,none,false,false,false,none,false,⟨.lcode,some (.own 3),false,.lblank⟩⟩] .leaf) 49132099 [⟨⟨.code,[],.lblank,false,[(9,0)],true⟩,false,false,[],some 4,some ⟨.code,[],.lcode,false,[(9,0)],false⟩,none,false,true,false,none,false,⟨.lcode,some (.own 3),false,.lblank⟩⟩] (.node .leaf 155382789 [⟨⟨(.inside 0),[],.lcode,false,[(9,0)],false⟩,false,false,[],some 4,some ⟨.code,[],.lcode,false,[(9,0)],false⟩,none,false,false,false,none,false,⟨.lcode,some (.own 3),false,.lblank⟩⟩] .leaf)) 401703505 [⟨⟨.code,[82],.lcode,false,[(9,1)],false⟩,false,false,[],some 4,some ⟨.code,[],.lcode,false,[(9,0)],false⟩,none,false,false,false,none,false,⟨.lcode,some (.own 3),false,.lblank⟩⟩] (.node (.node .leaf 541748949 [⟨⟨(.inside 1),[],.lcode,false,[(9,0)],false⟩,false,false,[],some 4,some ⟨.code,[],.lcode,false,[(9,0)],false⟩,none,false,false,false,none,false,⟨.lcode,some (.own 3),false,.lblank⟩⟩] .leaf) 556249969 [⟨⟨.code,[114],.lcode,false,[(9,1)],false⟩,false,false,[],some 4,some ⟨.code,[],.lcode,false,[(9,0)],false⟩,none,false,false,false,none,false,⟨.lcode,some (.own 3),false,.lblank⟩⟩] (.node .leaf 928115109 [⟨⟨(.inside 2),[],.lcode,false,[(9,0)],false⟩,false,false,[],some 4,some ⟨.code,[],.lcode,false,[(9,0)],false⟩,none,false,false,false,none,false,⟨.lcode,some (.own 3),false,.lblank⟩⟩] .leaf))) 1314481269 [⟨⟨(.inside 3),[],.lcode,false,[(9,0)],false⟩,false,false,[],some 4,some ⟨.code,[],.lcode,false,[(9,0)],false⟩,none,false,false,false,none,false,⟨.lcode,some (.own 3),false,.lblank⟩⟩] (.node (.node (.node .leaf 1700847429 [⟨⟨(.inside 4),[],.lcode,false,[(9,0)],false⟩,false,false,[],some 4,some ⟨.code,[],.lcode,false,[(9,0)],false⟩,none,false,false,false,none,false,⟨.lcode,some (.own 3),false,.lblank⟩⟩] .leaf) 2087213589 [⟨⟨(.inside 5),[],.lcode,false,[(9,0)],false⟩,false,false,[],some 4,some ⟨.code,[],.lcode,false,[(9,0)],false⟩,none,false,false,false,none,false,⟨.lcode,some (.own 3),false,.lblank⟩⟩] (.node .leaf 2473579749 [⟨⟨(.inside 6),[],.lcode,false,[(9,0)],false⟩,false,false,[],some 4,some ⟨.code,[],.lcode,false,[(9,0)],false⟩,none,false,false,false,none,false,⟨.lcode,some (.own 3),false,.lblank⟩⟩] .leaf)) 2859945909 [⟨⟨(.inside 7),[],.lcode,false,[(9,0)],false⟩,false,false,[],some 4,some ⟨.code,[],.lcode,false,[(9,0)],false⟩,none,false,false,false,none,false,⟨.lcode,some (.own 3),false,.lblank⟩⟩] (.node (.node .leaf 3246312069 [⟨⟨(.inside 8),[],.lcode,false,[(9,0)],false⟩,false,false,[],some 4,some ⟨.code,[],.lcode,false,[(9,0)],false⟩,none,false,false,false,none,false,⟨.lcode,some (.own 3),false,.lblank⟩⟩] .leaf) 3632678229 [⟨⟨(.inside 9),[],.lcode,false,[(9,0)],false⟩,false,false,[],some 4,some ⟨.code,[],.lcode,false,[(9,0)],false⟩,none,false,false,false,none,false,⟨.lcode,some (.own 3),false,.lblank⟩⟩] (.node .leaf 3859945413 [⟨⟨(.inside 9),[],.lcode,false,[(9,0)],false⟩,false,false,[],some 4,some ⟨(.inside 9),[],.lcode,false,[(9,0)],false⟩,none,false,false,false,none,false,⟨.lcode,some (.own 3),false,.lblank⟩⟩] .leaf)))),(.node (.node (.node (.node (.node .leaf 4129232 [⟨⟨(.inside 1),[],.lcode,false,[],false⟩,false,false,[],none,none,none,false,false,false,none,false,⟨.lcode,some (.own 3),false,.lblank⟩⟩] .leaf) 4277212 [⟨⟨(.inside 1),[],.lcomment,false,[],false⟩,false,false,[],none,none,none,false,false,false,none,false,⟨.lcomment,some (.own 3),false,.lblank⟩⟩] (.node .leaf 7078592 [⟨⟨(.inside 2),[],.lcode,false,[],false⟩,false,false,[],none,none,none,false,false,false,none,false,⟨.lcode,some (.own 3),false,.lblank⟩⟩] .leaf)) 7226572 [⟨⟨(.inside 2),[],.lcomment,false,[],false⟩,false,false,[],none,none,none,false,false,false,none,false,⟨.lcomment,some (.own 3),false,.lblank⟩⟩] (.node (.node .leaf 10027952 [⟨⟨(.inside 3),[],.lcode,false,[],false⟩,false,false,[],none,none,none,false,false,false,none,false,⟨.lcode,some (.own 3),false,.lblank⟩⟩] .leaf) 10175932 [⟨⟨(.inside 3),[],.lcomment,false,[],false⟩,false,false,[],none,none,none,false,false,false,none,false,⟨.lcomment,some (.own 3),false,.lblank⟩⟩] .leaf)) 12977312 [⟨⟨(.inside 4),[],.lcode,false,[],false⟩,false,false,[],none,none,none,false,false,false,none,false,⟨.lcode,some (.own 3),false,.lblank⟩⟩] (.node (.node (.node .leaf 13125292 [⟨⟨(.inside 4),[],.lcomment,false,[],false⟩,false,false,[],none,none,none,false,false,false,none,false,⟨.lcomment,some (.own 3),false,.lblank⟩⟩] .leaf) 15926672 [⟨⟨(.inside 5),[],.lcode,false,[],false⟩,false,false,[],none,none,none,false,false,false,none,false,⟨.lcode,some (.own 3),false,.lblank⟩⟩] .leaf) 16074652 [⟨⟨(.inside 5),[],.lcomment,false,[],false⟩,false,false,[],none,none,none,false,false,false,none,false,⟨.lcomment,some (.own 3),false,.lblank⟩⟩] (.node (.node .leaf 18876032 [⟨⟨(.inside 6),[],.lcode,false,[],false⟩,false,false,[],none,none,none,false,false,false,none,false,⟨.lcode,some (.own 3),false,.lblank⟩⟩] .leaf) 19024012 [⟨⟨(.inside 6),[],.lcomment,false,[],false⟩,false,false,[],none,none,none,false,false,false,none,false,⟨.lcomment,some (.own 3),false,.lblank⟩⟩] .leaf))) 21825392 [⟨⟨(.inside 7),[],.lcode,false,[],false⟩,false,false,[],none,none,none,false,false,false,none,false,⟨.lcode,some (.own 3),false,.lblank⟩⟩] (.node (.node (.node (.node .leaf 21973372 [⟨⟨(.inside 7),[],.lcomment,false,[],false⟩,false,false,[],none,none,none,false,false,false,none,false,⟨.lcomment,some (.own 3),false,.lblank⟩⟩] .leaf) 24774752 [⟨⟨(.inside 8),[],.lcode,false,[],false⟩,false,false,[],none,none,none,false,false,false,none,false,⟨.lcode,some (.own 3),false,.lblank⟩⟩] .leaf) 24922732 [⟨⟨(.inside 8),[],.lcomment,false,[],false⟩,false,false,[],none,none,none,false,false,false,none,false,⟨.lcomment,some (.own 3),false,.lblank⟩⟩] (.node (.node .leaf 541699248 [⟨⟨(.inside 1),[],.lcode,false,[(9,0)],false⟩,false,false,[],none,none,none,false,false,false,none,false,⟨.lcode,some (.own 3),false,.lblank⟩⟩] .leaf) 928065408 [⟨⟨(.inside 2),[],.lcode,false,[(9,0)],false⟩,false,false,[],none,none,none,false,false,false,none,false,⟨.lcode,some (.own 3),false,.lblank⟩⟩] .leaf)) 1314431568 [⟨⟨(.inside 3),[],.lcode,false,[(9,0)],false⟩,false,false,[],none,none,none,false,false,false,none,false,⟨.lcode,some (.own 3),false,.lblank⟩⟩] (.node (.node (.node .leaf 1700797728 [⟨⟨(.inside 4),[],.lcode,false,[(9,0)],false⟩,false,false,[],none,none,none,false,false,false,none,false,⟨.lcode,some (.own 3),false,.lblank⟩⟩] .leaf) 2087163888 [⟨⟨(.inside 5),[],.lcode,false,[(9,0)],false⟩,false,false,[],none,none,none,false,false,false,none,false,⟨.lcode,some (.own 3),false,.lblank⟩⟩] .leaf) 2473530048 [⟨⟨(.inside 6),[],.lcode,false,[(9,0)],false⟩,false,false,[],none,none,none,false,false,false,none,false,⟨.lcode,some (.own 3),false,.lblank⟩⟩] (.node (.node .leaf 2859896208 [⟨⟨(.inside 7),[],.lcode,false,[(9,0)],false⟩,false,false,[],none,none,none,false,false,false,none,false,⟨.lcode,some (.own 3),false,.lblank⟩⟩] .leaf) 3246262368 [⟨⟨(.inside 8),[],.lcode,false,[(9,0)],false⟩,false,false,[],none,none,none,false,false,false,none,false,⟨.lcode,some (.own 3),false,.lblank⟩⟩] .leaf))))]
theorem sb_line_lClosed : CA.closedF sb_line_M sb_line_lex true false sb_line_lfr sb_line_lTab = true := by decide +kernel
def sb_line_L : LCert LexisTable.sb_line sb_line_M := sb_line_lex_eq ▸ ⟨⟨sb_line_lmasks, sb_line_lex.rel, sb_line_lcs, sb_line_lrows, sb_line_lmasksIn, sb_line_lrepOk, sb_line_lrowsOk⟩,
  _, rfl, by decide +kernel, by decide +kernel, true, false, CA.closed_of sb_line_lfrOk sb_line_lClosed⟩
theorem sb_line_L_chk : sb_line_L.chk = true := by
  have : ∀ (l : Lexis) (h : LexisTable.sb_line = l) (C : LCert l sb_line_M), (h ▸ C : LCert LexisTable.sb_line sb_line_M).chk = C.chk := by rintro _ rfl _; rfl
  exact this _ sb_line_lex_eq _

end Ohcount.Cert
