import Verif.Cert.N6
import Verif.Cert.N9
import Verif.RagelLexFast
import Verif.LexisTable

/-! Generated by tools/gen_certs.py. -/

namespace Ohcount.Cert
open Ohcount.Ragel Ohcount.Gram

set_option maxRecDepth 100000
set_option maxHeartbeats 0

def factor_line_lex : Lexis := [⟨[33],[],.lcomment,false,false,false,true,false,false,true,false,none,false,false,false,false,[]⟩,⟨[34],[[34]],.lcode,true,false,true,true,false,false,false,false,none,false,false,false,false,[]⟩]
theorem factor_line_lex_eq : LexisTable.factor_line = factor_line_lex := by decide +kernel
def factor_line_lmasks : List Nat := [4294967808,8589934592,17179869184,8192,1024,4096,115792089237316195423570985008687907853269984665640564039457584007908834656767,115792089237316195423570985008687907853269984665640564039457584007913129626623,115792089237316195423570985008687907853269984665635612279300442486792058292735,4951760157141521099596496896]
def factor_line_lcs : List (Nat × Nat) := [(0,115792089237316195423570985008687907853269984665635612279300442486783468356095),(9,4294967808),(10,1024),(11,2048),(12,4096),(13,8192),(33,8589934592),(34,17179869184),(92,4951760157141521099596496896)]
theorem factor_line_lmasksIn : masksIn factor_line_nfa factor_line_lmasks = true := by decide +kernel
theorem factor_line_lrepOk : repOk factor_line_lmasks factor_line_lcs = true := by decide +kernel
def factor_line_lrows : List Row := [⟨[],none,[],[⟨256,.other,false,some ⟨0,[.setEnt (.own 3)],some 4,true⟩⟩,⟨256,.ws,false,some ⟨1,[.setEnt (.own 0)],some 0,false⟩⟩,⟨256,.lf,false,some ⟨0,[.setEnt .newline],some 3,true⟩⟩,⟨256,.vt,false,none⟩,⟨256,.ff,false,some ⟨0,[.setEnt .newline],some 3,true⟩⟩,⟨256,.cr,false,some ⟨2,[.setEnt .newline],none,false⟩⟩,⟨256,.cr,true,some ⟨3,[.setEnt .newline],some 3,false⟩⟩,⟨33,.other,false,some ⟨4,[.comment,.setEnt (.own 3)],some 1,false⟩⟩,⟨34,.other,false,some ⟨5,[.code,.setEnt (.own 3)],some 4,false⟩⟩,⟨92,.other,false,some ⟨0,[.setEnt (.own 3)],some 4,true⟩⟩]⟩,⟨[0],some 0,[],[⟨256,.other,false,none⟩,⟨256,.ws,false,some ⟨1,[.setEnt (.own 0)],some 0,false⟩⟩,⟨256,.lf,false,none⟩,⟨256,.vt,false,none⟩,⟨256,.ff,false,none⟩,⟨256,.cr,false,none⟩,⟨256,.cr,true,none⟩,⟨33,.other,false,none⟩,⟨34,.other,false,none⟩,⟨92,.other,false,none⟩]⟩,⟨[14],none,[],[⟨256,.other,false,none⟩,⟨256,.ws,false,none⟩,⟨256,.lf,false,some ⟨0,[.setEnt .newline],some 3,true⟩⟩,⟨256,.vt,false,none⟩,⟨256,.ff,false,none⟩,⟨256,.cr,false,none⟩,⟨256,.cr,true,none⟩,⟨33,.other,false,none⟩,⟨34,.other,false,none⟩,⟨92,.other,false,none⟩]⟩,⟨[14,18],some 3,[],[⟨256,.other,false,none⟩,⟨256,.ws,false,none⟩,⟨256,.lf,false,some ⟨0,[.setEnt .newline],some 3,true⟩⟩,⟨256,.vt,false,none⟩,⟨256,.ff,false,none⟩,⟨256,.cr,false,none⟩,⟨256,.cr,true,none⟩,⟨33,.other,false,none⟩,⟨34,.other,false,none⟩,⟨92,.other,false,none⟩]⟩,⟨[1,19],some 1,[],[⟨256,.other,false,some ⟨6,[],some 1,false⟩⟩,⟨256,.ws,false,some ⟨6,[],some 1,false⟩⟩,⟨256,.lf,false,none⟩,⟨256,.vt,false,some ⟨6,[],some 1,false⟩⟩,⟨256,.ff,false,none⟩,⟨256,.cr,false,none⟩,⟨256,.cr,true,none⟩,⟨33,.other,false,some ⟨6,[],some 1,false⟩⟩,⟨34,.other,false,some ⟨6,[],some 1,false⟩⟩,⟨92,.other,false,some ⟨6,[],some 1,false⟩⟩]⟩,⟨[3,19],some 4,[],[⟨256,.other,false,some ⟨7,[.code],none,false⟩⟩,⟨256,.ws,false,some ⟨8,[],none,false⟩⟩,⟨256,.lf,false,some ⟨9,[],none,false⟩⟩,⟨256,.vt,false,some ⟨7,[.code],none,false⟩⟩,⟨256,.ff,false,some ⟨10,[],none,false⟩⟩,⟨256,.cr,false,some ⟨11,[],none,false⟩⟩,⟨256,.cr,true,some ⟨12,[],none,false⟩⟩,⟨33,.other,false,some ⟨7,[.code],none,false⟩⟩,⟨34,.other,false,some ⟨0,[],some 2,true⟩⟩,⟨92,.other,false,some ⟨13,[],none,false⟩⟩]⟩,⟨[2],some 1,[],[⟨256,.other,false,some ⟨6,[],some 1,false⟩⟩,⟨256,.ws,false,some ⟨6,[],some 1,false⟩⟩,⟨256,.lf,false,none⟩,⟨256,.vt,false,some ⟨6,[],some 1,false⟩⟩,⟨256,.ff,false,none⟩,⟨256,.cr,false,none⟩,⟨256,.cr,true,none⟩,⟨33,.other,false,some ⟨6,[],some 1,false⟩⟩,⟨34,.other,false,some ⟨6,[],some 1,false⟩⟩,⟨92,.other,false,some ⟨6,[],some 1,false⟩⟩]⟩,⟨[10],none,[],[⟨256,.other,false,some ⟨7,[.code],none,false⟩⟩,⟨256,.ws,false,some ⟨8,[],none,false⟩⟩,⟨256,.lf,false,some ⟨9,[],none,false⟩⟩,⟨256,.vt,false,some ⟨7,[.code],none,false⟩⟩,⟨256,.ff,false,some ⟨10,[],none,false⟩⟩,⟨256,.cr,false,some ⟨11,[],none,false⟩⟩,⟨256,.cr,true,some ⟨12,[],none,false⟩⟩,⟨33,.other,false,some ⟨7,[.code],none,false⟩⟩,⟨34,.other,false,some ⟨0,[],some 2,true⟩⟩,⟨92,.other,false,some ⟨13,[],none,false⟩⟩]⟩,⟨[9],none,[],[⟨256,.other,false,some ⟨7,[.code],none,false⟩⟩,⟨256,.ws,false,some ⟨8,[],none,false⟩⟩,⟨256,.lf,false,some ⟨9,[],none,false⟩⟩,⟨256,.vt,false,some ⟨7,[.code],none,false⟩⟩,⟨256,.ff,false,some ⟨10,[],none,false⟩⟩,⟨256,.cr,false,some ⟨11,[],none,false⟩⟩,⟨256,.cr,true,some ⟨12,[],none,false⟩⟩,⟨33,.other,false,some ⟨7,[.code],none,false⟩⟩,⟨34,.other,false,some ⟨0,[],some 2,true⟩⟩,⟨92,.other,false,some ⟨13,[],none,false⟩⟩]⟩,⟨[6],none,[],[⟨256,.other,false,some ⟨7,[.setEnt .internalNl,.cb,.code],none,false⟩⟩,⟨256,.ws,false,some ⟨8,[.setEnt .internalNl,.cb],none,false⟩⟩,⟨256,.lf,false,some ⟨9,[.setEnt .internalNl,.cb],none,false⟩⟩,⟨256,.vt,false,some ⟨7,[.setEnt .internalNl,.cb,.code],none,false⟩⟩,⟨256,.ff,false,some ⟨10,[.setEnt .internalNl,.cb],none,false⟩⟩,⟨256,.cr,false,some ⟨11,[.setEnt .internalNl,.cb],none,false⟩⟩,⟨256,.cr,true,some ⟨12,[.setEnt .internalNl,.cb],none,false⟩⟩,⟨33,.other,false,some ⟨7,[.setEnt .internalNl,.cb,.code],none,false⟩⟩,⟨34,.other,false,some ⟨0,[.setEnt .internalNl,.cb],some 2,true⟩⟩,⟨92,.other,false,some ⟨13,[.setEnt .internalNl,.cb],none,false⟩⟩]⟩,⟨[7],none,[],[⟨256,.other,false,some ⟨7,[.setEnt .internalNl,.cb,.code],none,false⟩⟩,⟨256,.ws,false,some ⟨8,[.setEnt .internalNl,.cb],none,false⟩⟩,⟨256,.lf,false,some ⟨9,[.setEnt .internalNl,.cb],none,false⟩⟩,⟨256,.vt,false,some ⟨7,[.setEnt .internalNl,.cb,.code],none,false⟩⟩,⟨256,.ff,false,some ⟨10,[.setEnt .internalNl,.cb],none,false⟩⟩,⟨256,.cr,false,some ⟨11,[.setEnt .internalNl,.cb],none,false⟩⟩,⟨256,.cr,true,some ⟨12,[.setEnt .internalNl,.cb],none,false⟩⟩,⟨33,.other,false,some ⟨7,[.setEnt .internalNl,.cb,.code],none,false⟩⟩,⟨34,.other,false,some ⟨0,[.setEnt .internalNl,.cb],some 2,true⟩⟩,⟨92,.other,false,some ⟨13,[.setEnt .internalNl,.cb],none,false⟩⟩]⟩,⟨[4],none,[],[⟨256,.other,false,none⟩,⟨256,.ws,false,none⟩,⟨256,.lf,false,some ⟨14,[],none,false⟩⟩,⟨256,.vt,false,none⟩,⟨256,.ff,false,none⟩,⟨256,.cr,false,none⟩,⟨256,.cr,true,none⟩,⟨33,.other,false,none⟩,⟨34,.other,false,none⟩,⟨92,.other,false,none⟩]⟩,⟨[4,8],none,[],[⟨256,.other,false,some ⟨7,[.setEnt .internalNl,.cb,.code],none,false⟩⟩,⟨256,.ws,false,some ⟨8,[.setEnt .internalNl,.cb],none,false⟩⟩,⟨256,.lf,false,some ⟨15,[.setEnt .internalNl,.cb],none,false⟩⟩,⟨256,.vt,false,some ⟨7,[.setEnt .internalNl,.cb,.code],none,false⟩⟩,⟨256,.ff,false,some ⟨10,[.setEnt .internalNl,.cb],none,false⟩⟩,⟨256,.cr,false,some ⟨11,[.setEnt .internalNl,.cb],none,false⟩⟩,⟨256,.cr,true,some ⟨12,[.setEnt .internalNl,.cb],none,false⟩⟩,⟨33,.other,false,some ⟨7,[.setEnt .internalNl,.cb,.code],none,false⟩⟩,⟨34,.other,false,some ⟨0,[.setEnt .internalNl,.cb],some 2,true⟩⟩,⟨92,.other,false,some ⟨13,[.setEnt .internalNl,.cb],none,false⟩⟩]⟩,⟨[11],none,[],[⟨256,.other,false,some ⟨16,[.code],none,false⟩⟩,⟨256,.ws,false,some ⟨16,[.code],none,false⟩⟩,⟨256,.lf,false,none⟩,⟨256,.vt,false,some ⟨16,[.code],none,false⟩⟩,⟨256,.ff,false,none⟩,⟨256,.cr,false,none⟩,⟨256,.cr,true,none⟩,⟨33,.other,false,some ⟨16,[.code],none,false⟩⟩,⟨34,.other,false,some ⟨16,[.code],none,false⟩⟩,⟨92,.other,false,some ⟨16,[.code],none,false⟩⟩]⟩,⟨[5],none,[],[⟨256,.other,false,some ⟨7,[.setEnt .internalNl,.cb,.code],none,false⟩⟩,⟨256,.ws,false,some ⟨8,[.setEnt .internalNl,.cb],none,false⟩⟩,⟨256,.lf,false,some ⟨9,[.setEnt .internalNl,.cb],none,false⟩⟩,⟨256,.vt,false,some ⟨7,[.setEnt .internalNl,.cb,.code],none,false⟩⟩,⟨256,.ff,false,some ⟨10,[.setEnt .internalNl,.cb],none,false⟩⟩,⟨256,.cr,false,some ⟨11,[.setEnt .internalNl,.cb],none,false⟩⟩,⟨256,.cr,true,some ⟨12,[.setEnt .internalNl,.cb],none,false⟩⟩,⟨33,.other,false,some ⟨7,[.setEnt .internalNl,.cb,.code],none,false⟩⟩,⟨34,.other,false,some ⟨0,[.setEnt .internalNl,.cb],some 2,true⟩⟩,⟨92,.other,false,some ⟨13,[.setEnt .internalNl,.cb],none,false⟩⟩]⟩,⟨[5,6],none,[],[⟨256,.other,false,some ⟨7,[.setEnt .internalNl,.cb,.code],none,false⟩⟩,⟨256,.ws,false,some ⟨8,[.setEnt .internalNl,.cb],none,false⟩⟩,⟨256,.lf,false,some ⟨9,[.setEnt .internalNl,.cb],none,false⟩⟩,⟨256,.vt,false,some ⟨7,[.setEnt .internalNl,.cb,.code],none,false⟩⟩,⟨256,.ff,false,some ⟨10,[.setEnt .internalNl,.cb],none,false⟩⟩,⟨256,.cr,false,some ⟨11,[.setEnt .internalNl,.cb],none,false⟩⟩,⟨256,.cr,true,some ⟨12,[.setEnt .internalNl,.cb],none,false⟩⟩,⟨33,.other,false,some ⟨7,[.setEnt .internalNl,.cb,.code],none,false⟩⟩,⟨34,.other,false,some ⟨0,[.setEnt .internalNl,.cb],some 2,true⟩⟩,⟨92,.other,false,some ⟨13,[.setEnt .internalNl,.cb],none,false⟩⟩]⟩,⟨[12],none,[],[⟨256,.other,false,some ⟨7,[.code],none,false⟩⟩,⟨256,.ws,false,some ⟨8,[],none,false⟩⟩,⟨256,.lf,false,some ⟨9,[],none,false⟩⟩,⟨256,.vt,false,some ⟨7,[.code],none,false⟩⟩,⟨256,.ff,false,some ⟨10,[],none,false⟩⟩,⟨256,.cr,false,some ⟨11,[],none,false⟩⟩,⟨256,.cr,true,some ⟨12,[],none,false⟩⟩,⟨33,.other,false,some ⟨7,[.code],none,false⟩⟩,⟨34,.other,false,some ⟨0,[],some 2,true⟩⟩,⟨92,.other,false,some ⟨13,[],none,false⟩⟩]⟩]
theorem factor_line_lrowsOk : rowsOk factor_line_nfa factor_line_lex.rel (factor_line_lcs.map (·.1)) factor_line_lrows = true := by decide +kernel
def factor_line_lfr : List CA.FRow := [⟨true,none,[],[⟨256,.other,false,false,none,some ([.setEnt (.own 3)],(some 4,true))⟩,⟨9,.ws,false,false,some 1,some ([.setEnt (.own 0)],(some 0,false))⟩,⟨10,.lf,false,true,none,some ([.setEnt .newline],(some 3,true))⟩,⟨11,.vt,false,false,none,none⟩,⟨12,.ff,false,true,none,some ([.setEnt .newline],(some 3,true))⟩,⟨13,.cr,false,false,some 2,some ([.setEnt .newline],(none,false))⟩,⟨13,.cr,true,true,some 3,some ([.setEnt .newline],(some 3,false))⟩,⟨33,.other,false,false,some 4,some ([.comment,.setEnt (.own 3)],(some 1,false))⟩,⟨34,.other,false,false,some 5,some ([.code,.setEnt (.own 3)],(some 4,false))⟩,⟨92,.other,false,false,none,some ([.setEnt (.own 3)],(some 4,true))⟩]⟩,⟨false,some 0,[],[⟨256,.other,false,false,none,none⟩,⟨9,.ws,false,false,some 1,some ([.setEnt (.own 0)],(some 0,false))⟩,⟨10,.lf,false,true,none,none⟩,⟨11,.vt,false,false,none,none⟩,⟨12,.ff,false,true,none,none⟩,⟨13,.cr,false,false,none,none⟩,⟨13,.cr,true,true,none,none⟩,⟨33,.other,false,false,none,none⟩,⟨34,.other,false,false,none,none⟩,⟨92,.other,false,false,none,none⟩]⟩,⟨false,none,[],[⟨256,.other,false,false,none,none⟩,⟨9,.ws,false,false,none,none⟩,⟨10,.lf,false,true,none,some ([.setEnt .newline],(some 3,true))⟩,⟨11,.vt,false,false,none,none⟩,⟨12,.ff,false,true,none,none⟩,⟨13,.cr,false,false,none,none⟩,⟨13,.cr,true,true,none,none⟩,⟨33,.other,false,false,none,none⟩,⟨34,.other,false,false,none,none⟩,⟨92,.other,false,false,none,none⟩]⟩,⟨false,some 3,[],[⟨256,.other,false,false,none,none⟩,⟨9,.ws,false,false,none,none⟩,⟨10,.lf,false,true,none,some ([.setEnt .newline],(some 3,true))⟩,⟨11,.vt,false,false,none,none⟩,⟨12,.ff,false,true,none,none⟩,⟨13,.cr,false,false,none,none⟩,⟨13,.cr,true,true,none,none⟩,⟨33,.other,false,false,none,none⟩,⟨34,.other,false,false,none,none⟩,⟨92,.other,false,false,none,none⟩]⟩,⟨false,some 1,[],[⟨256,.other,false,false,some 6,some ([],(some 1,false))⟩,⟨9,.ws,false,false,some 6,some ([],(some 1,false))⟩,⟨10,.lf,false,true,none,none⟩,⟨11,.vt,false,false,some 6,some ([],(some 1,false))⟩,⟨12,.ff,false,true,none,none⟩,⟨13,.cr,false,false,none,none⟩,⟨13,.cr,true,true,none,none⟩,⟨33,.other,false,false,some 6,some ([],(some 1,false))⟩,⟨34,.other,false,false,some 6,some ([],(some 1,false))⟩,⟨92,.other,false,false,some 6,some ([],(some 1,false))⟩]⟩,⟨false,some 4,[],[⟨256,.other,false,false,some 7,some ([.code],(none,false))⟩,⟨9,.ws,false,false,some 8,some ([],(none,false))⟩,⟨10,.lf,false,true,some 9,some ([],(none,false))⟩,⟨11,.vt,false,false,some 7,some ([.code],(none,false))⟩,⟨12,.ff,false,true,some 10,some ([],(none,false))⟩,⟨13,.cr,false,false,some 11,some ([],(none,false))⟩,⟨13,.cr,true,true,some 12,some ([],(none,false))⟩,⟨33,.other,false,false,some 7,some ([.code],(none,false))⟩,⟨34,.other,false,false,none,some ([],(some 2,true))⟩,⟨92,.other,false,false,some 13,some ([],(none,false))⟩]⟩,⟨false,some 1,[],[⟨256,.other,false,false,some 6,some ([],(some 1,false))⟩,⟨9,.ws,false,false,some 6,some ([],(some 1,false))⟩,⟨10,.lf,false,true,none,none⟩,⟨11,.vt,false,false,some 6,some ([],(some 1,false))⟩,⟨12,.ff,false,true,none,none⟩,⟨13,.cr,false,false,none,none⟩,⟨13,.cr,true,true,none,none⟩,⟨33,.other,false,false,some 6,some ([],(some 1,false))⟩,⟨34,.other,false,false,some 6,some ([],(some 1,false))⟩,⟨92,.other,false,false,some 6,some ([],(some 1,false))⟩]⟩,⟨false,none,[],[⟨256,.other,false,false,some 7,some ([.code],(none,false))⟩,⟨9,.ws,false,false,some 8,some ([],(none,false))⟩,⟨10,.lf,false,true,some 9,some ([],(none,false))⟩,⟨11,.vt,false,false,some 7,some ([.code],(none,false))⟩,⟨12,.ff,false,true,some 10,some ([],(none,false))⟩,⟨13,.cr,false,false,some 11,some ([],(none,false))⟩,⟨13,.cr,true,true,some 12,some ([],(none,false))⟩,⟨33,.other,false,false,some 7,some ([.code],(none,false))⟩,⟨34,.other,false,false,none,some ([],(some 2,true))⟩,⟨92,.other,false,false,some 13,some ([],(none,false))⟩]⟩,⟨false,none,[],[⟨256,.other,false,false,some 7,some ([.code],(none,false))⟩,⟨9,.ws,false,false,some 8,some ([],(none,false))⟩,⟨10,.lf,false,true,some 9,some ([],(none,false))⟩,⟨11,.vt,false,false,some 7,some ([.code],(none,false))⟩,⟨12,.ff,false,true,some 10,some ([],(none,false))⟩,⟨13,.cr,false,false,some 11,some ([],(none,false))⟩,⟨13,.cr,true,true,some 12,some ([],(none,false))⟩,⟨33,.other,false,false,some 7,some ([.code],(none,false))⟩,⟨34,.other,false,false,none,some ([],(some 2,true))⟩,⟨92,.other,false,false,some 13,some ([],(none,false))⟩]⟩,⟨false,none,[],[⟨256,.other,false,false,some 7,some ([.setEnt .internalNl,.cb,.code],(none,false))⟩,⟨9,.ws,false,false,some 8,some ([.setEnt .internalNl,.cb],(none,false))⟩,⟨10,.lf,false,true,some 9,some ([.setEnt .internalNl,.cb],(none,false))⟩,⟨11,.vt,false,false,some 7,some ([.setEnt .internalNl,.cb,.code],(none,false))⟩,⟨12,.ff,false,true,some 10,some ([.setEnt .internalNl,.cb],(none,false))⟩,⟨13,.cr,false,false,some 11,some ([.setEnt .internalNl,.cb],(none,false))⟩,⟨13,.cr,true,true,some 12,some ([.setEnt .internalNl,.cb],(none,false))⟩,⟨33,.other,false,false,some 7,some ([.setEnt .internalNl,.cb,.code],(none,false))⟩,⟨34,.other,false,false,none,some ([.setEnt .internalNl,.cb],(some 2,true))⟩,⟨92,.other,false,false,some 13,some ([.setEnt .internalNl,.cb],(none,false))⟩]⟩,⟨false,none,[],[⟨256,.other,false,false,some 7,some ([.setEnt .internalNl,.cb,.code],(none,false))⟩,⟨9,.ws,false,false,some 8,some ([.setEnt .internalNl,.cb],(none,false))⟩,⟨10,.lf,false,true,some 9,some ([.setEnt .internalNl,.cb],(none,false))⟩,⟨11,.vt,false,false,some 7,some ([.setEnt .internalNl,.cb,.code],(none,false))⟩,⟨12,.ff,false,true,some 10,some ([.setEnt .internalNl,.cb],(none,false))⟩,⟨13,.cr,false,false,some 11,some ([.setEnt .internalNl,.cb],(none,false))⟩,⟨13,.cr,true,true,some 12,some ([.setEnt .internalNl,.cb],(none,false))⟩,⟨33,.other,false,false,some 7,some ([.setEnt .internalNl,.cb,.code],(none,false))⟩,⟨34,.other,false,false,none,some ([.setEnt .internalNl,.cb],(some 2,true))⟩,⟨92,.other,false,false,some 13,some ([.setEnt .internalNl,.cb],(none,false))⟩]⟩,⟨false,none,[],[⟨256,.other,false,false,none,none⟩,⟨9,.ws,false,false,none,none⟩,⟨10,.lf,false,true,some 14,some ([],(none,false))⟩,⟨11,.vt,false,false,none,none⟩,⟨12,.ff,false,true,none,none⟩,⟨13,.cr,false,false,none,none⟩,⟨13,.cr,true,true,none,none⟩,⟨33,.other,false,false,none,none⟩,⟨34,.other,false,false,none,none⟩,⟨92,.other,false,false,none,none⟩]⟩,⟨false,none,[],[⟨256,.other,false,false,some 7,some ([.setEnt .internalNl,.cb,.code],(none,false))⟩,⟨9,.ws,false,false,some 8,some ([.setEnt .internalNl,.cb],(none,false))⟩,⟨10,.lf,false,true,some 15,some ([.setEnt .internalNl,.cb],(none,false))⟩,⟨11,.vt,false,false,some 7,some ([.setEnt .internalNl,.cb,.code],(none,false))⟩,⟨12,.ff,false,true,some 10,some ([.setEnt .internalNl,.cb],(none,false))⟩,⟨13,.cr,false,false,some 11,some ([.setEnt .internalNl,.cb],(none,false))⟩,⟨13,.cr,true,true,some 12,some ([.setEnt .internalNl,.cb],(none,false))⟩,⟨33,.other,false,false,some 7,some ([.setEnt .internalNl,.cb,.code],(none,false))⟩,⟨34,.other,false,false,none,some ([.setEnt .internalNl,.cb],(some 2,true))⟩,⟨92,.other,false,false,some 13,some ([.setEnt .internalNl,.cb],(none,false))⟩]⟩,⟨false,none,[],[⟨256,.other,false,false,some 16,some ([.code],(none,false))⟩,⟨9,.ws,false,false,some 16,some ([.code],(none,false))⟩,⟨10,.lf,false,true,none,none⟩,⟨11,.vt,false,false,some 16,some ([.code],(none,false))⟩,⟨12,.ff,false,true,none,none⟩,⟨13,.cr,false,false,none,none⟩,⟨13,.cr,true,true,none,none⟩,⟨33,.other,false,false,some 16,some ([.code],(none,false))⟩,⟨34,.other,false,false,some 16,some ([.code],(none,false))⟩,⟨92,.other,false,false,some 16,some ([.code],(none,false))⟩]⟩,⟨false,none,[],[⟨256,.other,false,false,some 7,some ([.setEnt .internalNl,.cb,.code],(none,false))⟩,⟨9,.ws,false,false,some 8,some ([.setEnt .internalNl,.cb],(none,false))⟩,⟨10,.lf,false,true,some 9,some ([.setEnt .internalNl,.cb],(none,false))⟩,⟨11,.vt,false,false,some 7,some ([.setEnt .internalNl,.cb,.code],(none,false))⟩,⟨12,.ff,false,true,some 10,some ([.setEnt .internalNl,.cb],(none,false))⟩,⟨13,.cr,false,false,some 11,some ([.setEnt .internalNl,.cb],(none,false))⟩,⟨13,.cr,true,true,some 12,some ([.setEnt .internalNl,.cb],(none,false))⟩,⟨33,.other,false,false,some 7,some ([.setEnt .internalNl,.cb,.code],(none,false))⟩,⟨34,.other,false,false,none,some ([.setEnt .internalNl,.cb],(some 2,true))⟩,⟨92,.other,false,false,some 13,some ([.setEnt .internalNl,.cb],(none,false))⟩]⟩,⟨false,none,[],[⟨256,.other,false,false,some 7,some ([.setEnt .internalNl,.cb,.code],(none,false))⟩,⟨9,.ws,false,false,some 8,some ([.setEnt .internalNl,.cb],(none,false))⟩,⟨10,.lf,false,true,some 9,some ([.setEnt .internalNl,.cb],(none,false))⟩,⟨11,.vt,false,false,some 7,some ([.setEnt .internalNl,.cb,.code],(none,false))⟩,⟨12,.ff,false,true,some 10,some ([.setEnt .internalNl,.cb],(none,false))⟩,⟨13,.cr,false,false,some 11,some ([.setEnt .internalNl,.cb],(none,false))⟩,⟨13,.cr,true,true,some 12,some ([.setEnt .internalNl,.cb],(none,false))⟩,⟨33,.other,false,false,some 7,some ([.setEnt .internalNl,.cb,.code],(none,false))⟩,⟨34,.other,false,false,none,some ([.setEnt .internalNl,.cb],(some 2,true))⟩,⟨92,.other,false,false,some 13,some ([.setEnt .internalNl,.cb],(none,false))⟩]⟩,⟨false,none,[],[⟨256,.other,false,false,some 7,some ([.code],(none,false))⟩,⟨9,.ws,false,false,some 8,some ([],(none,false))⟩,⟨10,.lf,false,true,some 9,some ([],(none,false))⟩,⟨11,.vt,false,false,some 7,some ([.code],(none,false))⟩,⟨12,.ff,false,true,some 10,some ([],(none,false))⟩,⟨13,.cr,false,false,some 11,some ([],(none,false))⟩,⟨13,.cr,true,true,some 12,some ([],(none,false))⟩,⟨33,.other,false,false,some 7,some ([.code],(none,false))⟩,⟨34,.other,false,false,none,some ([],(some 2,true))⟩,⟨92,.other,false,false,some 13,some ([],(none,false))⟩]⟩]
theorem factor_line_lfrOk : factor_line_lrows.map (CA.prep factor_line_lex) = factor_line_lfr := by decide +kernel
def factor_line_lTab : List CT := [(.node (.node (.node (.node .leaf 128 [⟨⟨.code,[],.lcode,false,[],false⟩,false,false,[],none,none,none,false,false,false,none,false,⟨.lcode,none,false,.lblank⟩⟩] .leaf) 38019 [⟨⟨.code,[],.lcode,true,[],false⟩,false,false,[],none,none,none,false,false,false,none,false,⟨.lblank,none,false,.lblank⟩⟩] (.node .leaf 185487 [⟨⟨.code,[],.lcomment,true,[],false⟩,false,false,[],none,none,none,false,false,false,none,false,⟨.lblank,none,false,.lblank⟩⟩] .leaf)) 296088 [⟨⟨.code,[],.lblank,false,[],false⟩,false,false,[],none,none,none,false,false,false,none,false,⟨.lblank,none,false,.lblank⟩⟩] (.node (.node .leaf 332955 [⟨⟨.code,[],.lblank,true,[],false⟩,false,false,[],none,none,none,false,false,false,none,false,⟨.lblank,none,false,.lblank⟩⟩] .leaf) 1179872 [⟨⟨(.inside 0),[],.lcode,false,[],false⟩,false,false,[none],none,none,none,false,false,false,none,false,⟨.lcode,none,false,.lblank⟩⟩] (.node .leaf 1327852 [⟨⟨(.inside 0),[],.lcomment,false,[],false⟩,false,false,[none],none,none,none,false,false,false,none,false,⟨.lcomment,none,false,.lblank⟩⟩] .leaf))) 22179935 [⟨⟨(.inside 0),[],.lcode,false,[],false⟩,false,false,[some (10,(.lf,false))],none,none,none,false,false,false,none,false,⟨.lcode,none,false,.lblank⟩⟩] (.node (.node (.node .leaf 22327915 [⟨⟨(.inside 0),[],.lcomment,false,[],false⟩,false,false,[some (10,(.lf,false))],none,none,none,false,false,false,none,false,⟨.lcomment,none,false,.lblank⟩⟩] .leaf) 26179947 [⟨⟨(.inside 0),[],.lcode,false,[],false⟩,false,false,[some (12,(.ff,false))],none,none,none,false,false,false,none,false,⟨.lcode,none,false,.lblank⟩⟩] (.node .leaf 26327927 [⟨⟨(.inside 0),[],.lcomment,false,[],false⟩,false,false,[some (12,(.ff,false))],none,none,none,false,false,false,none,false,⟨.lcomment,none,false,.lblank⟩⟩] .leaf)) 28179953 [⟨⟨(.inside 0),[],.lcode,false,[],false⟩,false,false,[some (13,(.cr,false))],none,none,none,false,false,false,none,false,⟨.lcode,none,false,.lblank⟩⟩] (.node (.node .leaf 28327933 [⟨⟨(.inside 0),[],.lcomment,false,[],false⟩,false,false,[some (13,(.cr,false))],none,none,none,false,false,false,none,false,⟨.lcomment,none,false,.lblank⟩⟩] .leaf) 29179956 [⟨⟨(.inside 0),[],.lcode,false,[],false⟩,false,false,[some (13,(.cr,true))],none,none,none,false,false,false,none,false,⟨.lcode,none,false,.lblank⟩⟩] (.node .leaf 29327936 [⟨⟨(.inside 0),[],.lcomment,false,[],false⟩,false,false,[some (13,(.cr,true))],none,none,none,false,false,false,none,false,⟨.lcomment,none,false,.lblank⟩⟩] .leaf)))),(.node (.node .leaf 128 [⟨⟨.code,[],.lcode,false,[],false⟩,false,false,[],none,none,none,false,false,false,none,false,⟨.lcode,some (.own 0),false,.lblank⟩⟩] .leaf) 296088 [⟨⟨.code,[],.lblank,false,[],false⟩,false,false,[],none,none,none,false,false,false,none,false,⟨.lblank,some (.own 0),false,.lblank⟩⟩] .leaf),(.node (.node .leaf 160 [⟨⟨.code,[],.lcode,false,[],false⟩,true,false,[],none,none,none,false,false,false,none,false,⟨.lcode,some .newline,false,.lblank⟩⟩] .leaf) 148140 [⟨⟨.code,[],.lcomment,false,[],false⟩,true,false,[],none,none,none,false,false,false,none,false,⟨.lcomment,some .newline,false,.lblank⟩⟩] (.node .leaf 296120 [⟨⟨.code,[],.lblank,false,[],false⟩,true,false,[],none,none,none,false,false,false,none,false,⟨.lblank,some .newline,false,.lblank⟩⟩] .leaf)),(.node (.node .leaf 37011 [⟨⟨.code,[],.lcode,true,[],false⟩,false,true,[],none,none,none,false,false,false,none,false,⟨.lcode,some .newline,false,.lblank⟩⟩] .leaf) 184991 [⟨⟨.code,[],.lcomment,true,[],false⟩,false,true,[],none,none,none,false,false,false,none,false,⟨.lcomment,some .newline,false,.lblank⟩⟩] (.node .leaf 332971 [⟨⟨.code,[],.lblank,true,[],false⟩,false,true,[],none,none,none,false,false,false,none,false,⟨.lblank,some .newline,false,.lblank⟩⟩] .leaf)),(.node (.node .leaf 1179872 [⟨⟨(.inside 0),[],.lcode,false,[],false⟩,false,false,[],none,none,none,false,false,false,none,false,⟨.lcode,some (.own 3),false,.lblank⟩⟩] .leaf) 1327852 [⟨⟨(.inside 0),[],.lcomment,false,[],false⟩,false,false,[],none,none,none,false,false,false,none,false,⟨.lcomment,some (.own 3),false,.lblank⟩⟩] .leaf),(.node .leaf 4129232 [⟨⟨(.inside 1),[],.lcode,false,[],false⟩,false,false,[],none,none,none,false,false,false,none,false,⟨.lcode,some (.own 3),false,.lblank⟩⟩] .leaf),(.node (.node .leaf 1179872 [⟨⟨(.inside 0),[],.lcode,false,[],false⟩,false,false,[],none,none,none,false,false,false,none,false,⟨.lcode,some (.own 3),false,.lblank⟩⟩] .leaf) 1327852 [⟨⟨(.inside 0),[],.lcomment,false,[],false⟩,false,false,[],none,none,none,false,false,false,none,false,⟨.lcomment,some (.own 3),false,.lblank⟩⟩] .leaf),(.node (.node .leaf 4388101 [⟨⟨(.inside 1),[],.lcode,false,[],false⟩,false,false,[],some 4,some ⟨(.inside 1),[],.lcode,false,[],false⟩,none,false,false,false,none,false,⟨.lcode,some (.own 3),false,.lblank⟩⟩] .leaf) 4388109 [⟨⟨(.inside 1),[],.lcode,false,[],false⟩,false,false,[],some 4,some ⟨(.inside 1),[],.lcode,false,[],false⟩,none,true,false,false,none,false,⟨.lcode,some .internalNl,false,.lblank⟩⟩] .leaf),(.node (.node .leaf 4388101 [⟨⟨(.inside 1),[],.lcode,false,[],false⟩,false,false,[],some 4,some ⟨(.inside 1),[],.lcode,false,[],false⟩,none,false,false,false,none,false,⟨.lcode,some (.own 3),false,.lblank⟩⟩] .leaf) 4388109 [⟨⟨(.inside 1),[],.lcode,false,[],false⟩,false,false,[],some 4,some ⟨(.inside 1),[],.lcode,false,[],false⟩,none,true,false,false,none,false,⟨.lcode,some .internalNl,false,.lblank⟩⟩] (.node .leaf 4684069 [⟨⟨(.inside 1),[],.lblank,false,[],false⟩,false,false,[],some 4,some ⟨(.inside 1),[],.lcode,false,[],false⟩,none,true,false,false,none,false,⟨.lblank,some .internalNl,false,.lblank⟩⟩] .leaf)),(.node (.node .leaf 4424968 [⟨⟨(.inside 1),[],.lcode,true,[],false⟩,false,false,[],some 4,some ⟨(.inside 1),[],.lcode,false,[],false⟩,none,false,false,false,none,false,⟨.lcode,some (.own 3),false,.lblank⟩⟩] .leaf) 4424976 [⟨⟨(.inside 1),[],.lcode,true,[],false⟩,false,false,[],some 4,some ⟨(.inside 1),[],.lcode,false,[],false⟩,none,true,false,false,none,false,⟨.lcode,some .internalNl,false,.lblank⟩⟩] (.node .leaf 4720936 [⟨⟨(.inside 1),[],.lblank,true,[],false⟩,false,false,[],some 4,some ⟨(.inside 1),[],.lcode,false,[],false⟩,none,true,false,false,none,false,⟨.lblank,some .internalNl,false,.lblank⟩⟩] .leaf)),(.node (.node .leaf 4424968 [⟨⟨(.inside 1),[],.lcode,true,[],false⟩,false,false,[],some 4,some ⟨(.inside 1),[],.lcode,false,[],false⟩,none,false,false,false,none,false,⟨.lcode,some (.own 3),false,.lblank⟩⟩] .leaf) 4424976 [⟨⟨(.inside 1),[],.lcode,true,[],false⟩,false,false,[],some 4,some ⟨(.inside 1),[],.lcode,false,[],false⟩,none,true,false,false,none,false,⟨.lcode,some .internalNl,false,.lblank⟩⟩] (.node .leaf 4720936 [⟨⟨(.inside 1),[],.lblank,true,[],false⟩,false,false,[],some 4,some ⟨(.inside 1),[],.lcode,false,[],false⟩,none,true,false,false,none,false,⟨.lblank,some .internalNl,false,.lblank⟩⟩] .leaf)),(.node (.node .leaf 4388133 [⟨⟨(.inside 1),[],.lcode,false,[],false⟩,true,false,[],some 4,some ⟨(.inside 1),[],.lcode,false,[],false⟩,none,false,false,false,none,false,⟨.lcode,some (.own 3),false,.lblank⟩⟩] .leaf) 4388141 [⟨⟨(.inside 1),[],.lcode,false,[],false⟩,true,false,[],some 4,some ⟨(.inside 1),[],.lcode,false,[],false⟩,none,true,false,false,none,false,⟨.lcode,some .internalNl,false,.lblank⟩⟩] (.node .leaf 4684101 [⟨⟨(.inside 1),[],.lblank,false,[],false⟩,true,false,[],some 4,some ⟨(.inside 1),[],.lcode,false,[],false⟩,none,true,false,false,none,false,⟨.lblank,some .internalNl,false,.lblank⟩⟩] .leaf)),(.node (.node .leaf 4424984 [⟨⟨(.inside 1),[],.lcode,true,[],false⟩,false,true,[],some 4,some ⟨(.inside 1),[],.lcode,false,[],false⟩,none,false,false,false,none,false,⟨.lcode,some (.own 3),false,.lblank⟩⟩] .leaf) 4424992 [⟨⟨(.inside 1),[],.lcode,true,[],false⟩,false,true,[],some 4,some ⟨(.inside 1),[],.lcode,false,[],false⟩,none,true,false,false,none,false,⟨.lcode,some .internalNl,false,.lblank⟩⟩] (.node .leaf 4720952 [⟨⟨(.inside 1),[],.lblank,true,[],false⟩,false,true,[],some 4,some ⟨(.inside 1),[],.lcode,false,[],false⟩,none,true,false,false,none,false,⟨.lblank,some .internalNl,false,.lblank⟩⟩] .leaf)),(.node (.node .leaf 544600252 [⟨⟨(.inside 1),[92],.lcode,false,[],false⟩,false,false,[],some 4,some ⟨(.inside 1),[],.lcode,false,[],false⟩,none,false,false,false,none,false,⟨.lcode,some (.own 3),false,.lblank⟩⟩] .leaf) 544600260 [⟨⟨(.inside 1),[92],.lcode,false,[],false⟩,false,false,[],some 4,some ⟨(.inside 1),[],.lcode,false,[],false⟩,none,true,false,false,none,false,⟨.lcode,some .internalNl,false,.lblank⟩⟩] (.node .leaf 583237900 [⟨⟨(.inside 1),[92],.lblank,false,[],false⟩,false,false,[],some 4,some ⟨(.inside 1),[],.lcode,false,[],false⟩,none,true,false,false,none,false,⟨.lblank,some .internalNl,false,.lblank⟩⟩] .leaf)),(.node (.node .leaf 4424968 [⟨⟨(.inside 1),[],.lcode,true,[],false⟩,false,false,[],some 4,some ⟨(.inside 1),[],.lcode,false,[],false⟩,none,false,false,false,none,false,⟨.lcode,some (.own 3),false,.lblank⟩⟩] .leaf) 4424976 [⟨⟨(.inside 1),[],.lcode,true,[],false⟩,false,false,[],some 4,some ⟨(.inside 1),[],.lcode,false,[],false⟩,none,true,false,false,none,false,⟨.lcode,some .internalNl,false,.lblank⟩⟩] (.node .leaf 4720936 [⟨⟨(.inside 1),[],.lblank,true,[],false⟩,false,false,[],some 4,some ⟨(.inside 1),[],.lcode,false,[],false⟩,none,true,false,false,none,false,⟨.lblank,some .internalNl,false,.lblank⟩⟩] .leaf)),.leaf,(.node (.node .leaf 4388101 [⟨⟨(.inside 1),[],.lcode,false,[],false⟩,false,false,[],some 4,some ⟨(.inside 1),[],.lcode,false,[],false⟩,none,false,false,false,none,false,⟨.lcode,some (.own 3),false,.lblank⟩⟩] .leaf) 4388109 [⟨⟨(.inside 1),[],.lcode,false,[],false⟩,false,false,[],some 4,some ⟨(.inside 1),[],.lcode,false,[],false⟩,none,true,false,false,none,false,⟨.lcode,some .internalNl,false,.lblank⟩⟩] .leaf)]
theorem factor_line_lClosed : CA.closedF factor_line_M factor_line_lex true false factor_line_lfr factor_line_lTab = true := by decide +kernel
def factor_line_L : LCert LexisTable.factor_line factor_line_M := factor_line_lex_eq ▸ ⟨⟨factor_line_lmasks, factor_line_lex.rel, factor_line_lcs, factor_line_lrows, factor_line_lmasksIn, factor_line_lrepOk, factor_line_lrowsOk⟩,
  _, rfl, by decide +kernel, by decide +kernel, true, false, CA.closed_of factor_line_lfrOk factor_line_lClosed⟩
theorem factor_line_L_chk : factor_line_L.chk = true := by
  have : ∀ (l : Lexis) (h : LexisTable.factor_line = l) (C : LCert l factor_line_M), (h ▸ C : LCert LexisTable.factor_line factor_line_M).chk = C.chk := by rintro _ rfl _; rfl
  exact this _ factor_line_lex_eq _

def logtalk_line_lex : Lexis := [⟨[37],[],.lcomment,false,false,false,true,false,false,true,false,none,false,false,false,false,[]⟩,⟨[47,42],[[42,47]],.lcomment,true,false,false,true,false,false,true,false,none,false,false,false,false,[]⟩,⟨[39],[[39]],.lcode,false,true,true,true,false,false,true,false,none,false,false,false,false,[]⟩,⟨[34],[[34]],.lcode,false,true,true,true,false,false,true,false,none,false,false,false,false,[]⟩]
theorem logtalk_line_lex_eq : LexisTable.logtalk_line = logtalk_line_lex := by decide +kernel
def logtalk_line_lmasks : List Nat := [4294967808,137438953472,140737488355328,549755813888,17179869184,8192,1024,4096,115792089237316195423570985008687907853269984665640564039457584007908834656767,115792089237316195423570985008687907853269984665640564039457584007913129626623,4398046511104,115792089237316195423570985008687907853269984665640564039457584007908834658815,115792089237316195423570985008687907853269984665635612279300442486263777315839,4951760157141521099596496896,115792089237316195423570985008687907853269984665635612279300442486796353260543]
def logtalk_line_lcs : List (Nat × Nat) := [(0,115792089237316195423570985008687907853269984665635612279300442340969328656895),(9,4294967808),(10,1024),(11,2048),(12,4096),(13,8192),(34,17179869184),(37,137438953472),(39,549755813888),(42,4398046511104),(47,140737488355328),(92,4951760157141521099596496896)]
theorem logtalk_line_lmasksIn : masksIn logtalk_line_nfa logtalk_line_lmasks = true := by decide +kernel
theorem logtalk_line_lrepOk : repOk logtalk_line_lmasks logtalk_line_lcs = true := by decide +kernel
def logtalk_line_lrows : List Row := [⟨[],none,[],[⟨256,.other,false,some ⟨0,[.setEnt (.own 3)],some 4,true⟩⟩,⟨256,.ws,false,some ⟨1,[.setEnt (.own 0)],some 0,false⟩⟩,⟨256,.lf,false,some ⟨0,[.setEnt .newline],some 3,true⟩⟩,⟨256,.vt,false,none⟩,⟨256,.ff,false,some ⟨0,[.setEnt .newline],some 3,true⟩⟩,⟨256,.cr,false,some ⟨2,[.setEnt .newline],none,false⟩⟩,⟨256,.cr,true,some ⟨3,[.setEnt .newline],some 3,false⟩⟩,⟨34,.other,false,some ⟨4,[.code,.setEnt (.own 3)],some 4,false⟩⟩,⟨37,.other,false,some ⟨5,[.comment,.setEnt (.own 3)],some 1,false⟩⟩,⟨39,.other,false,some ⟨6,[.code,.setEnt (.own 3)],some 4,false⟩⟩,⟨42,.other,false,some ⟨0,[.setEnt (.own 3)],some 4,true⟩⟩,⟨47,.other,false,some ⟨7,[.setEnt (.own 3)],some 4,false⟩⟩,⟨92,.other,false,some ⟨0,[.setEnt (.own 3)],some 4,true⟩⟩]⟩,⟨[0],some 0,[],[⟨256,.other,false,none⟩,⟨256,.ws,false,some ⟨1,[.setEnt (.own 0)],some 0,false⟩⟩,⟨256,.lf,false,none⟩,⟨256,.vt,false,none⟩,⟨256,.ff,false,none⟩,⟨256,.cr,false,none⟩,⟨256,.cr,true,none⟩,⟨34,.other,false,none⟩,⟨37,.other,false,none⟩,⟨39,.other,false,none⟩,⟨42,.other,false,none⟩,⟨47,.other,false,none⟩,⟨92,.other,false,none⟩]⟩,⟨[24],none,[],[⟨256,.other,false,none⟩,⟨256,.ws,false,none⟩,⟨256,.lf,false,some ⟨0,[.setEnt .newline],some 3,true⟩⟩,⟨256,.vt,false,none⟩,⟨256,.ff,false,none⟩,⟨256,.cr,false,none⟩,⟨256,.cr,true,none⟩,⟨34,.other,false,none⟩,⟨37,.other,false,none⟩,⟨39,.other,false,none⟩,⟨42,.other,false,none⟩,⟨47,.other,false,none⟩,⟨92,.other,false,none⟩]⟩,⟨[24,28],some 3,[],[⟨256,.other,false,none⟩,⟨256,.ws,false,none⟩,⟨256,.lf,false,some ⟨0,[.setEnt .newline],some 3,true⟩⟩,⟨256,.vt,false,none⟩,⟨256,.ff,false,none⟩,⟨256,.cr,false,none⟩,⟨256,.cr,true,none⟩,⟨34,.other,false,none⟩,⟨37,.other,false,none⟩,⟨39,.other,false,none⟩,⟨42,.other,false,none⟩,⟨47,.other,false,none⟩,⟨92,.other,false,none⟩]⟩,⟨[19,29],some 4,[],[⟨256,.other,false,some ⟨8,[],none,false⟩⟩,⟨256,.ws,false,some ⟨8,[],none,false⟩⟩,⟨256,.lf,false,none⟩,⟨256,.vt,false,some ⟨8,[],none,false⟩⟩,⟨256,.ff,false,none⟩,⟨256,.cr,false,none⟩,⟨256,.cr,true,none⟩,⟨34,.other,false,some ⟨0,[],some 2,true⟩⟩,⟨37,.other,false,some ⟨8,[],none,false⟩⟩,⟨39,.other,false,some ⟨8,[],none,false⟩⟩,⟨42,.other,false,some ⟨8,[],none,false⟩⟩,⟨47,.other,false,some ⟨8,[],none,false⟩⟩,⟨92,.other,false,some ⟨9,[],none,false⟩⟩]⟩,⟨[1,29],some 1,[],[⟨256,.other,false,some ⟨10,[],some 1,false⟩⟩,⟨256,.ws,false,some ⟨10,[],some 1,false⟩⟩,⟨256,.lf,false,none⟩,⟨256,.vt,false,some ⟨10,[],some 1,false⟩⟩,⟨256,.ff,false,none⟩,⟨256,.cr,false,none⟩,⟨256,.cr,true,none⟩,⟨34,.other,false,some ⟨10,[],some 1,false⟩⟩,⟨37,.other,false,some ⟨10,[],some 1,false⟩⟩,⟨39,.other,false,some ⟨10,[],some 1,false⟩⟩,⟨42,.other,false,some ⟨10,[],some 1,false⟩⟩,⟨47,.other,false,some ⟨10,[],some 1,false⟩⟩,⟨92,.other,false,some ⟨10,[],some 1,false⟩⟩]⟩,⟨[14,29],some 4,[],[⟨256,.other,false,some ⟨11,[],none,false⟩⟩,⟨256,.ws,false,some ⟨11,[],none,false⟩⟩,⟨256,.lf,false,none⟩,⟨256,.vt,false,some ⟨11,[],none,false⟩⟩,⟨256,.ff,false,none⟩,⟨256,.cr,false,none⟩,⟨256,.cr,true,none⟩,⟨34,.other,false,some ⟨11,[],none,false⟩⟩,⟨37,.other,false,some ⟨11,[],none,false⟩⟩,⟨39,.other,false,some ⟨0,[],some 2,true⟩⟩,⟨42,.other,false,some ⟨11,[],none,false⟩⟩,⟨47,.other,false,some ⟨11,[],none,false⟩⟩,⟨92,.other,false,some ⟨12,[],none,false⟩⟩]⟩,⟨[3,29],some 4,[],[⟨256,.other,false,none⟩,⟨256,.ws,false,none⟩,⟨256,.lf,false,none⟩,⟨256,.vt,false,none⟩,⟨256,.ff,false,none⟩,⟨256,.cr,false,none⟩,⟨256,.cr,true,none⟩,⟨34,.other,false,none⟩,⟨37,.other,false,none⟩,⟨39,.other,false,none⟩,⟨42,.other,false,some ⟨13,[.comment],none,false⟩⟩,⟨47,.other,false,none⟩,⟨92,.other,false,none⟩]⟩,⟨[20],none,[],[⟨256,.other,false,some ⟨8,[],none,false⟩⟩,⟨256,.ws,false,some ⟨8,[],none,false⟩⟩,⟨256,.lf,false,none⟩,⟨256,.vt,false,some ⟨8,[],none,false⟩⟩,⟨256,.ff,false,none⟩,⟨256,.cr,false,none⟩,⟨256,.cr,true,none⟩,⟨34,.other,false,some ⟨0,[],some 2,true⟩⟩,⟨37,.other,false,some ⟨8,[],none,false⟩⟩,⟨39,.other,false,some ⟨8,[],none,false⟩⟩,⟨42,.other,false,some ⟨8,[],none,false⟩⟩,⟨47,.other,false,some ⟨8,[],none,false⟩⟩,⟨92,.other,false,some ⟨9,[],none,false⟩⟩]⟩,⟨[21],none,[],[⟨256,.other,false,some ⟨14,[],none,false⟩⟩,⟨256,.ws,false,some ⟨14,[],none,false⟩⟩,⟨256,.lf,false,none⟩,⟨256,.vt,false,some ⟨14,[],none,false⟩⟩,⟨256,.ff,false,none⟩,⟨256,.cr,false,none⟩,⟨256,.cr,true,none⟩,⟨34,.other,false,some ⟨14,[],none,false⟩⟩,⟨37,.other,false,some ⟨14,[],none,false⟩⟩,⟨39,.other,false,some ⟨14,[],none,false⟩⟩,⟨42,.other,false,some ⟨14,[],none,false⟩⟩,⟨47,.other,false,some ⟨14,[],none,false⟩⟩,⟨92,.other,false,some ⟨14,[],none,false⟩⟩]⟩,⟨[2],some 1,[],[⟨256,.other,false,some ⟨10,[],some 1,false⟩⟩,⟨256,.ws,false,some ⟨10,[],some 1,false⟩⟩,⟨256,.lf,false,none⟩,⟨256,.vt,false,some ⟨10,[],some 1,false⟩⟩,⟨256,.ff,false,none⟩,⟨256,.cr,false,none⟩,⟨256,.cr,true,none⟩,⟨34,.other,false,some ⟨10,[],some 1,false⟩⟩,⟨37,.other,false,some ⟨10,[],some 1,false⟩⟩,⟨39,.other,false,some ⟨10,[],some 1,false⟩⟩,⟨42,.other,false,some ⟨10,[],some 1,false⟩⟩,⟨47,.other,false,some ⟨10,[],some 1,false⟩⟩,⟨92,.other,false,some ⟨10,[],some 1,false⟩⟩]⟩,⟨[15],none,[],[⟨256,.other,false,some ⟨11,[],none,false⟩⟩,⟨256,.ws,false,some ⟨11,[],none,false⟩⟩,⟨256,.lf,false,none⟩,⟨256,.vt,false,some ⟨11,[],none,false⟩⟩,⟨256,.ff,false,none⟩,⟨256,.cr,false,none⟩,⟨256,.cr,true,none⟩,⟨34,.other,false,some ⟨11,[],none,false⟩⟩,⟨37,.other,false,some ⟨11,[],none,false⟩⟩,⟨39,.other,false,some ⟨0,[],some 2,true⟩⟩,⟨42,.other,false,some ⟨11,[],none,false⟩⟩,⟨47,.other,false,some ⟨11,[],none,false⟩⟩,⟨92,.other,false,some ⟨12,[],none,false⟩⟩]⟩,⟨[16],none,[],[⟨256,.other,false,some ⟨15,[],none,false⟩⟩,⟨256,.ws,false,some ⟨15,[],none,false⟩⟩,⟨256,.lf,false,none⟩,⟨256,.vt,false,some ⟨15,[],none,false⟩⟩,⟨256,.ff,false,none⟩,⟨256,.cr,false,none⟩,⟨256,.cr,true,none⟩,⟨34,.other,false,some ⟨15,[],none,false⟩⟩,⟨37,.other,false,some ⟨15,[],none,false⟩⟩,⟨39,.other,false,some ⟨15,[],none,false⟩⟩,⟨42,.other,false,some ⟨15,[],none,false⟩⟩,⟨47,.other,false,some ⟨15,[],none,false⟩⟩,⟨92,.other,false,some ⟨15,[],none,false⟩⟩]⟩,⟨[4],none,[],[⟨256,.other,false,some ⟨16,[.comment],none,false⟩⟩,⟨256,.ws,false,some ⟨17,[],none,false⟩⟩,⟨256,.lf,false,some ⟨18,[],none,false⟩⟩,⟨256,.vt,false,some ⟨16,[.comment],none,false⟩⟩,⟨256,.ff,false,some ⟨19,[],none,false⟩⟩,⟨256,.cr,false,some ⟨20,[],none,false⟩⟩,⟨256,.cr,true,some ⟨21,[],none,false⟩⟩,⟨34,.other,false,some ⟨16,[.comment],none,false⟩⟩,⟨37,.other,false,some ⟨16,[.comment],none,false⟩⟩,⟨39,.other,false,some ⟨16,[.comment],none,false⟩⟩,⟨42,.other,false,some ⟨22,[.comment],none,false⟩⟩,⟨47,.other,false,some ⟨16,[.comment],none,false⟩⟩,⟨92,.other,false,some ⟨16,[.comment],none,false⟩⟩]⟩,⟨[22],none,[],[⟨256,.other,false,some ⟨8,[],none,false⟩⟩,⟨256,.ws,false,some ⟨8,[],none,false⟩⟩,⟨256,.lf,false,none⟩,⟨256,.vt,false,some ⟨8,[],none,false⟩⟩,⟨256,.ff,false,none⟩,⟨256,.cr,false,none⟩,⟨256,.cr,true,none⟩,⟨34,.other,false,some ⟨0,[],some 2,true⟩⟩,⟨37,.other,false,some ⟨8,[],none,false⟩⟩,⟨39,.other,false,some ⟨8,[],none,false⟩⟩,⟨42,.other,false,some ⟨8,[],none,false⟩⟩,⟨47,.other,false,some ⟨8,[],none,false⟩⟩,⟨92,.other,false,some ⟨9,[],none,false⟩⟩]⟩,⟨[17],none,[],[⟨256,.other,false,some ⟨11,[],none,false⟩⟩,⟨256,.ws,false,some ⟨11,[],none,false⟩⟩,⟨256,.lf,false,none⟩,⟨256,.vt,false,some ⟨11,[],none,false⟩⟩,⟨256,.ff,false,none⟩,⟨256,.cr,false,none⟩,⟨256,.cr,true,none⟩,⟨34,.other,false,some ⟨11,[],none,false⟩⟩,⟨37,.other,false,some ⟨11,[],none,false⟩⟩,⟨39,.other,false,some ⟨0,[],some 2,true⟩⟩,⟨42,.other,false,some ⟨11,[],none,false⟩⟩,⟨47,.other,false,some ⟨11,[],none,false⟩⟩,⟨92,.other,false,some ⟨12,[],none,false⟩⟩]⟩,⟨[11],none,[],[⟨256,.other,false,some ⟨16,[.comment],none,false⟩⟩,⟨256,.ws,false,some ⟨17,[],none,false⟩⟩,⟨256,.lf,false,some ⟨18,[],none,false⟩⟩,⟨256,.vt,false,some ⟨16,[.comment],none,false⟩⟩,⟨256,.ff,false,some ⟨19,[],none,false⟩⟩,⟨256,.cr,false,some ⟨20,[],none,false⟩⟩,⟨256,.cr,true,some ⟨21,[],none,false⟩⟩,⟨34,.other,false,some ⟨16,[.comment],none,false⟩⟩,⟨37,.other,false,some ⟨16,[.comment],none,false⟩⟩,⟨39,.other,false,some ⟨16,[.comment],none,false⟩⟩,⟨42,.other,false,some ⟨22,[.comment],none,false⟩⟩,⟨47,.other,false,some ⟨16,[.comment],none,false⟩⟩,⟨92,.other,false,some ⟨16,[.comment],none,false⟩⟩]⟩,⟨[10],none,[],[⟨256,.other,false,some ⟨16,[.comment],none,false⟩⟩,⟨256,.ws,false,some ⟨17,[],none,false⟩⟩,⟨256,.lf,false,some ⟨18,[],none,false⟩⟩,⟨256,.vt,false,some ⟨16,[.comment],none,false⟩⟩,⟨256,.ff,false,some ⟨19,[],none,false⟩⟩,⟨256,.cr,false,some ⟨20,[],none,false⟩⟩,⟨256,.cr,true,some ⟨21,[],none,false⟩⟩,⟨34,.other,false,some ⟨16,[.comment],none,false⟩⟩,⟨37,.other,false,some ⟨16,[.comment],none,false⟩⟩,⟨39,.other,false,some ⟨16,[.comment],none,false⟩⟩,⟨42,.other,false,some ⟨22,[.comment],none,false⟩⟩,⟨47,.other,false,some ⟨16,[.comment],none,false⟩⟩,⟨92,.other,false,some ⟨16,[.comment],none,false⟩⟩]⟩,⟨[7],none,[],[⟨256,.other,false,some ⟨16,[.setEnt .internalNl,.cb,.comment],none,false⟩⟩,⟨256,.ws,false,some ⟨17,[.setEnt .internalNl,.cb],none,false⟩⟩,⟨256,.lf,false,some ⟨18,[.setEnt .internalNl,.cb],none,false⟩⟩,⟨256,.vt,false,some ⟨16,[.setEnt .internalNl,.cb,.comment],none,false⟩⟩,⟨256,.ff,false,some ⟨19,[.setEnt .internalNl,.cb],none,false⟩⟩,⟨256,.cr,false,some ⟨20,[.setEnt .internalNl,.cb],none,false⟩⟩,⟨256,.cr,true,some ⟨21,[.setEnt .internalNl,.cb],none,false⟩⟩,⟨34,.other,false,some ⟨16,[.setEnt .internalNl,.cb,.comment],none,false⟩⟩,⟨37,.other,false,some ⟨16,[.setEnt .internalNl,.cb,.comment],none,false⟩⟩,⟨39,.other,false,some ⟨16,[.setEnt .internalNl,.cb,.comment],none,false⟩⟩,⟨42,.other,false,some ⟨22,[.setEnt .internalNl,.cb,.comment],none,false⟩⟩,⟨47,.other,false,some ⟨16,[.setEnt .internalNl,.cb,.comment],none,false⟩⟩,⟨92,.other,false,some ⟨16,[.setEnt .internalNl,.cb,.comment],none,false⟩⟩]⟩,⟨[8],none,[],[⟨256,.other,false,some ⟨16,[.setEnt .internalNl,.cb,.comment],none,false⟩⟩,⟨256,.ws,false,some ⟨17,[.setEnt .internalNl,.cb],none,false⟩⟩,⟨256,.lf,false,some ⟨18,[.setEnt .internalNl,.cb],none,false⟩⟩,⟨256,.vt,false,some ⟨16,[.setEnt .internalNl,.cb,.comment],none,false⟩⟩,⟨256,.ff,false,some ⟨19,[.setEnt .internalNl,.cb],none,false⟩⟩,⟨256,.cr,false,some ⟨20,[.setEnt .internalNl,.cb],none,false⟩⟩,⟨256,.cr,true,some ⟨21,[.setEnt .internalNl,.cb],none,false⟩⟩,⟨34,.other,false,some ⟨16,[.setEnt .internalNl,.cb,.comment],none,false⟩⟩,⟨37,.other,false,some ⟨16,[.setEnt .internalNl,.cb,.comment],none,false⟩⟩,⟨39,.other,false,some ⟨16,[.setEnt .internalNl,.cb,.comment],none,false⟩⟩,⟨42,.other,false,some ⟨22,[.setEnt .internalNl,.cb,.comment],none,false⟩⟩,⟨47,.other,false,some ⟨16,[.setEnt .internalNl,.cb,.comment],none,false⟩⟩,⟨92,.other,false,some ⟨16,[.setEnt .internalNl,.cb,.comment],none,false⟩⟩]⟩,⟨[5],none,[],[⟨256,.other,false,none⟩,⟨256,.ws,false,none⟩,⟨256,.lf,false,some ⟨23,[],none,false⟩⟩,⟨256,.vt,false,none⟩,⟨256,.ff,false,none⟩,⟨256,.cr,false,none⟩,⟨256,.cr,true,none⟩,⟨34,.other,false,none⟩,⟨37,.other,false,none⟩,⟨39,.other,false,none⟩,⟨42,.other,false,none⟩,⟨47,.other,false,none⟩,⟨92,.other,false,none⟩]⟩,⟨[5,9],none,[],[⟨256,.other,false,some ⟨16,[.setEnt .internalNl,.cb,.comment],none,false⟩⟩,⟨256,.ws,false,some ⟨17,[.setEnt .internalNl,.cb],none,false⟩⟩,⟨256,.lf,false,some ⟨24,[.setEnt .internalNl,.cb],none,false⟩⟩,⟨256,.vt,false,some ⟨16,[.setEnt .internalNl,.cb,.comment],none,false⟩⟩,⟨256,.ff,false,some ⟨19,[.setEnt .internalNl,.cb],none,false⟩⟩,⟨256,.cr,false,some ⟨20,[.setEnt .internalNl,.cb],none,false⟩⟩,⟨256,.cr,true,some ⟨21,[.setEnt .internalNl,.cb],none,false⟩⟩,⟨34,.other,false,some ⟨16,[.setEnt .internalNl,.cb,.comment],none,false⟩⟩,⟨37,.other,false,some ⟨16,[.setEnt .internalNl,.cb,.comment],none,false⟩⟩,⟨39,.other,false,some ⟨16,[.setEnt .internalNl,.cb,.comment],none,false⟩⟩,⟨42,.other,false,some ⟨22,[.setEnt .internalNl,.cb,.comment],none,false⟩⟩,⟨47,.other,false,some ⟨16,[.setEnt .internalNl,.cb,.comment],none,false⟩⟩,⟨92,.other,false,some ⟨16,[.setEnt .internalNl,.cb,.comment],none,false⟩⟩]⟩,⟨[11,12],none,[],[⟨256,.other,false,some ⟨16,[.comment],none,false⟩⟩,⟨256,.ws,false,some ⟨17,[],none,false⟩⟩,⟨256,.lf,false,some ⟨18,[],none,false⟩⟩,⟨256,.vt,false,some ⟨16,[.comment],none,false⟩⟩,⟨256,.ff,false,some ⟨19,[],none,false⟩⟩,⟨256,.cr,false,some ⟨20,[],none,false⟩⟩,⟨256,.cr,true,some ⟨21,[],none,false⟩⟩,⟨34,.other,false,some ⟨16,[.comment],none,false⟩⟩,⟨37,.other,false,some ⟨16,[.comment],none,false⟩⟩,⟨39,.other,false,some ⟨16,[.comment],none,false⟩⟩,⟨42,.other,false,some ⟨22,[.comment],none,false⟩⟩,⟨47,.other,false,some ⟨0,[],some 1,true⟩⟩,⟨92,.other,false,some ⟨16,[.comment],none,false⟩⟩]⟩,⟨[6],none,[],[⟨256,.other,false,some ⟨16,[.setEnt .internalNl,.cb,.comment],none,false⟩⟩,⟨256,.ws,false,some ⟨17,[.setEnt .internalNl,.cb],none,false⟩⟩,⟨256,.lf,false,some ⟨18,[.setEnt .internalNl,.cb],none,false⟩⟩,⟨256,.vt,false,some ⟨16,[.setEnt .internalNl,.cb,.comment],none,false⟩⟩,⟨256,.ff,false,some ⟨19,[.setEnt .internalNl,.cb],none,false⟩⟩,⟨256,.cr,false,some ⟨20,[.setEnt .internalNl,.cb],none,false⟩⟩,⟨256,.cr,true,some ⟨21,[.setEnt .internalNl,.cb],none,false⟩⟩,⟨34,.other,false,some ⟨16,[.setEnt .internalNl,.cb,.comment],none,false⟩⟩,⟨37,.other,false,some ⟨16,[.setEnt .internalNl,.cb,.comment],none,false⟩⟩,⟨39,.other,false,some ⟨16,[.setEnt .internalNl,.cb,.comment],none,false⟩⟩,⟨42,.other,false,some ⟨22,[.setEnt .internalNl,.cb,.comment],none,false⟩⟩,⟨47,.other,false,some ⟨16,[.setEnt .internalNl,.cb,.comment],none,false⟩⟩,⟨92,.other,false,some ⟨16,[.setEnt .internalNl,.cb,.comment],none,false⟩⟩]⟩,⟨[6,7],none,[],[⟨256,.other,false,some ⟨16,[.setEnt .internalNl,.cb,.comment],none,false⟩⟩,⟨256,.ws,false,some ⟨17,[.setEnt .internalNl,.cb],none,false⟩⟩,⟨256,.lf,false,some ⟨18,[.setEnt .internalNl,.cb],none,false⟩⟩,⟨256,.vt,false,some ⟨16,[.setEnt .internalNl,.cb,.comment],none,false⟩⟩,⟨256,.ff,false,some ⟨19,[.setEnt .internalNl,.cb],none,false⟩⟩,⟨256,.cr,false,some ⟨20,[.setEnt .internalNl,.cb],none,false⟩⟩,⟨256,.cr,true,some ⟨21,[.setEnt .internalNl,.cb],none,false⟩⟩,⟨34,.other,false,some ⟨16,[.setEnt .internalNl,.cb,.comment],none,false⟩⟩,⟨37,.other,false,some ⟨16,[.setEnt .internalNl,.cb,.comment],none,false⟩⟩,⟨39,.other,false,some ⟨16,[.setEnt .internalNl,.cb,.comment],none,false⟩⟩,⟨42,.other,false,some ⟨22,[.setEnt .internalNl,.cb,.comment],none,false⟩⟩,⟨47,.other,false,some ⟨16,[.setEnt .internalNl,.cb,.comment],none,false⟩⟩,⟨92,.other,false,some ⟨16,[.setEnt .internalNl,.cb,.comment],none,false⟩⟩]⟩]
theorem logtalk_line_lrowsOk : rowsOk logtalk_line_nfa logtalk_line_lex.rel (logtalk_line_lcs.map (·.1)) logtalk_line_lrows = true := by decide +kernel
def logtalk_line_lfr : List CA.FRow := [⟨true,none,[],[⟨256,.other,false,false,none,some ([.setEnt (.own 3)],(some 4,true))⟩,⟨9,.ws,false,false,some 1,some ([.setEnt (.own 0)],(some 0,false))⟩,⟨10,.lf,false,true,none,some ([.setEnt .newline],(some 3,true))⟩,⟨11,.vt,false,false,none,none⟩,⟨12,.ff,false,true,none,some ([.setEnt .newline],(some 3,true))⟩,⟨13,.cr,false,false,some 2,some ([.setEnt .newline],(none,false))⟩,⟨13,.cr,true,true,some 3,some ([.setEnt .newline],(some 3,false))⟩,⟨34,.other,false,false,some 4,some ([.code,.setEnt (.own 3)],(some 4,false))⟩,⟨37,.other,false,false,some 5,some ([.comment,.setEnt (.own 3)],(some 1,false))⟩,⟨39,.other,false,false,some 6,some ([.code,.setEnt (.own 3)],(some 4,false))⟩,⟨42,.other,false,false,none,some ([.setEnt (.own 3)],(some 4,true))⟩,⟨47,.other,false,false,some 7,some ([.setEnt (.own 3)],(some 4,false))⟩,⟨92,.other,false,false,none,some ([.setEnt (.own 3)],(some 4,true))⟩]⟩,⟨false,some 0,[],[⟨256,.other,false,false,none,none⟩,⟨9,.ws,false,false,some 1,some ([.setEnt (.own 0)],(some 0,false))⟩,⟨10,.lf,false,true,none,none⟩,⟨11,.vt,false,false,none,none⟩,⟨12,.ff,false,true,none,none⟩,⟨13,.cr,false,false,none,none⟩,⟨13,.cr,true,true,none,none⟩,⟨34,.other,false,false,none,none⟩,⟨37,.other,false,false,none,none⟩,⟨39,.other,false,false,none,none⟩,⟨42,.other,false,false,none,none⟩,⟨47,.other,false,false,none,none⟩,⟨92,.other,false,false,none,none⟩]⟩,⟨false,none,[],[⟨256,.other,false,false,none,none⟩,⟨9,.ws,false,false,none,none⟩,⟨10,.lf,false,true,none,some ([.setEnt .newline],(some 3,true))⟩,⟨11,.vt,false,false,none,none⟩,⟨12,.ff,false,true,none,none⟩,⟨13,.cr,false,false,none,none⟩,⟨13,.cr,true,true,none,none⟩,⟨34,.other,false,false,none,none⟩,⟨37,.other,false,false,none,none⟩,⟨39,.other,false,false,none,none⟩,⟨42,.other,false,false,none,none⟩,⟨47,.other,false,false,none,none⟩,⟨92,.other,false,false,none,none⟩]⟩,⟨false,some 3,[],[⟨256,.other,false,false,none,none⟩,⟨9,.ws,false,false,none,none⟩,⟨10,.lf,false,true,none,some ([.setEnt .newline],(some 3,true))⟩,⟨11,.vt,false,false,none,none⟩,⟨12,.ff,false,true,none,none⟩,⟨13,.cr,false,false,none,none⟩,⟨13,.cr,true,true,none,none⟩,⟨34,.other,false,false,none,none⟩,⟨37,.other,false,false,none,none⟩,⟨39,.other,false,false,none,none⟩,⟨42,.other,false,false,none,none⟩,⟨47,.other,false,false,none,none⟩,⟨92,.other,false,false,none,none⟩]⟩,⟨false,some 4,[],[⟨256,.other,false,false,some 8,some ([],(none,false))⟩,⟨9,.ws,false,false,some 8,some ([],(none,false))⟩,⟨10,.lf,false,true,none,none⟩,⟨11,.vt,false,false,some 8,some ([],(none,false))⟩,⟨12,.ff,false,true,none,none⟩,⟨13,.cr,false,false,none,none⟩,⟨13,.cr,true,true,none,none⟩,⟨34,.other,false,false,none,some ([],(some 2,true))⟩,⟨37,.other,false,false,some 8,some ([],(none,false))⟩,⟨39,.other,false,false,some 8,some ([],(none,false))⟩,⟨42,.other,false,false,some 8,some ([],(none,false))⟩,⟨47,.other,false,false,some 8,some ([],(none,false))⟩,⟨92,.other,false,false,some 9,some ([],(none,false))⟩]⟩,⟨false,some 1,[],[⟨256,.other,false,false,some 10,some ([],(some 1,false))⟩,⟨9,.ws,false,false,some 10,some ([],(some 1,false))⟩,⟨10,.lf,false,true,none,none⟩,⟨11,.vt,false,false,some 10,some ([],(some 1,false))⟩,⟨12,.ff,false,true,none,none⟩,⟨13,.cr,false,false,none,none⟩,⟨13,.cr,true,true,none,none⟩,⟨34,.other,false,false,some 10,some ([],(some 1,false))⟩,⟨37,.other,false,false,some 10,some ([],(some 1,false))⟩,⟨39,.other,false,false,some 10,some ([],(some 1,false))⟩,⟨42,.other,false,false,some 10,some ([],(some 1,false))⟩,⟨47,.other,false,false,some 10,some ([],(some 1,false))⟩,⟨92,.other,false,false,some 10,some ([],(some 1,false))⟩]⟩,⟨false,some 4,[],[⟨256,.other,false,false,some 11,some ([],(none,false))⟩,⟨9,.ws,false,false,some 11,some ([],(none,false))⟩,⟨10,.lf,false,true,none,none⟩,⟨11,.vt,false,false,some 11,some ([],(none,false))⟩,⟨12,.ff,false,true,none,none⟩,⟨13,.cr,false,false,none,none⟩,⟨13,.cr,true,true,none,none⟩,⟨34,.other,false,false,some 11,some ([],(none,false))⟩,⟨37,.other,false,false,some 11,some ([],(none,false))⟩,⟨39,.other,false,false,none,some ([],(some 2,true))⟩,⟨42,.other,false,false,some 11,some ([],(none,false))⟩,⟨47,.other,false,false,some 11,some ([],(none,false))⟩,⟨92,.other,false,false,some 12,some ([],(none,false))⟩]⟩,⟨false,some 4,[],[⟨256,.other,false,false,none,none⟩,⟨9,.ws,false,false,none,none⟩,⟨10,.lf,false,true,none,none⟩,⟨11,.vt,false,false,none,none⟩,⟨12,.ff,false,true,none,none⟩,⟨13,.cr,false,false,none,none⟩,⟨13,.cr,true,true,none,none⟩,⟨34,.other,false,false,none,none⟩,⟨37,.other,false,false,none,none⟩,⟨39,.other,false,false,none,none⟩,⟨42,.other,false,false,some 13,some ([.comment],(none,false))⟩,⟨47,.other,false,false,none,none⟩,⟨92,.other,false,false,none,none⟩]⟩,⟨false,none,[],[⟨256,.other,false,false,some 8,some ([],(none,false))⟩,⟨9,.ws,false,false,some 8,some ([],(none,false))⟩,⟨10,.lf,false,true,none,none⟩,⟨11,.vt,false,false,some 8,some ([],(none,false))⟩,⟨12,.ff,false,true,none,none⟩,⟨13,.cr,false,false,none,none⟩,⟨13,.cr,true,true,none,none⟩,⟨34,.other,false,false,none,some ([],(some 2,true))⟩,⟨37,.other,false,false,some 8,some ([],(none,false))⟩,⟨39,.other,false,false,some 8,some ([],(none,false))⟩,⟨42,.other,false,false,some 8,some ([],(none,false))⟩,⟨47,.other,false,false,some 8,some ([],(none,false))⟩,⟨92,.other,false,false,some 9,some ([],(none,false))⟩]⟩,⟨false,none,[],[⟨256,.other,false,false,some 14,some ([],(none,false))⟩,⟨9,.ws,false,false,some 14,some ([],(none,false))⟩,⟨10,.lf,false,true,none,none⟩,⟨11,.vt,false,false,some 14,some ([],(none,false))⟩,⟨12,.ff,false,true,none,none⟩,⟨13,.cr,false,false,none,none⟩,⟨13,.cr,true,true,none,none⟩,⟨34,.other,false,false,some 14,some ([],(none,false))⟩,⟨37,.other,false,false,some 14,some ([],(none,false))⟩,⟨39,.other,false,false,some 14,some ([],(none,false))⟩,⟨42,.other,false,false,some 14,some ([],(none,false))⟩,⟨47,.other,false,false,some 14,some ([],(none,false))⟩,⟨92,.other,false,false,some 14,some ([],(none,false))⟩]⟩,⟨false,some 1,[],[⟨256,.other,false,false,some 10,some ([],(some 1,false))⟩,⟨9,.ws,false,false,some 10,some ([],(some 1,false))⟩,⟨10,.lf,false,true,none,none⟩,⟨11,.vt,false,false,some 10,some ([],(some 1,false))⟩,⟨12,.ff,false,true,none,none⟩,⟨13,.cr,false,false,none,none⟩,⟨13,.cr,true,true,none,none⟩,⟨34,.other,false,false,some 10,some ([],(some 1,false))⟩,⟨37,.other,false,false,some 10,some ([],(some 1,false))⟩,⟨39,.other,false,false,some 10,some ([],(some 1,false))⟩,⟨42,.other,false,false,some 10,some ([],(some 1,false))⟩,⟨47,.other,false,false,some 10,some ([],(some 1,false))⟩,⟨92,.other,false,false,some 10,some ([],(some 1,false))⟩]⟩,⟨false,none,[],[⟨256,.other,false,false,some 11,some ([],(none,false))⟩,⟨9,.ws,false,false,some 11,some ([],(none,false))⟩,⟨10,.lf,false,true,none,none⟩,⟨11,.vt,false,false,some 11,some ([],(none,false))⟩,⟨12,.ff,false,true,none,none⟩,⟨13,.cr,false,false,none,none⟩,⟨13,.cr,true,true,none,none⟩,⟨34,.other,false,false,some 11,some ([],(none,false))⟩,⟨37,.other,false,false,some 11,some ([],(none,false))⟩,⟨39,.other,false,false,none,some ([],(some 2,true))⟩,⟨42,.other,false,false,some 11,some ([],(none,false))⟩,⟨47,.other,false,false,some 11,some ([],(none,false))⟩,⟨92,.other,false,false,some 12,some ([],(none,false))⟩]⟩,⟨false,none,[],[⟨256,.other,false,false,some 15,some ([],(none,false))⟩,⟨9,.ws,false,false,some 15,some ([],(none,false))⟩,⟨10,.lf,false,true,none,none⟩,⟨11,.vt,false,false,some 15,some ([],(none,false))⟩,⟨12,.ff,false,true,none,none⟩,⟨13,.cr,false,false,none,none⟩,⟨13,.cr,true,true,none,none⟩,⟨34,.other,false,false,some 15,some ([],(none,false))⟩,⟨37,.other,false,false,some 15,some ([],(none,false))⟩,⟨39,.other,false,false,some 15,some ([],(none,false))⟩,⟨42,.other,false,false,some 15,some ([],(none,false))⟩,⟨47,.other,false,false,some 15,some ([],(none,false))⟩,⟨92,.other,false,false,some 15,some ([],(none,false))⟩]⟩,⟨false,none,[],[⟨256,.other,false,false,some 16,some ([.comment],(none,false))⟩,⟨9,.ws,false,false,some 17,some ([],(none,false))⟩,⟨10,.lf,false,true,some 18,some ([],(none,false))⟩,⟨11,.vt,false,false,some 16,some ([.comment],(none,false))⟩,⟨12,.ff,false,true,some 19,some ([],(none,false))⟩,⟨13,.cr,false,false,some 20,some ([],(none,false))⟩,⟨13,.cr,true,true,some 21,some ([],(none,false))⟩,⟨34,.other,false,false,some 16,some ([.comment],(none,false))⟩,⟨37,.other,false,false,some 16,some ([.comment],(none,false))⟩,⟨39,.other,false,false,some 16,some ([.comment],(none,false))⟩,⟨42,.other,false,false,some 22,some ([.comment],(none,false))⟩,⟨47,.other,false,false,some 16,some ([.comment],(none,false))⟩,⟨92,.other,false,false,some 16,some ([.comment],(none,false))⟩]⟩,⟨false,none,[],[⟨256,.other,false,false,some 8,some ([],(none,false))⟩,⟨9,.ws,false,false,some 8,some ([],(none,false))⟩,⟨10,.lf,false,true,none,none⟩,⟨11,.vt,false,false,some 8,some ([],(none,false))⟩,⟨12,.ff,false,true,none,none⟩,⟨13,.cr,false,false,none,none⟩,⟨13,.cr,true,true,none,none⟩,⟨34,.other,false,false,none,some ([],(some 2,true))⟩,⟨37,.other,false,false,some 8,some ([],(none,false))⟩,⟨39,.other,false,false,some 8,some ([],(none,false))⟩,⟨42,.other,false,false,some 8,some ([],(none,false))⟩,⟨47,.other,false,false,some 8,some ([],(none,false))⟩,⟨92,.other,false,false,some 9,some ([],(none,false))⟩]⟩,⟨false,none,[],[⟨256,.other,false,false,some 11,some ([],(none,false))⟩,⟨9,.ws,false,false,some 11,some ([],(none,false))⟩,⟨10,.lf,false,true,none,none⟩,⟨11,.vt,false,false,some 11,some ([],(none,false))⟩,⟨12,.ff,false,true,none,none⟩,⟨13,.cr,false,false,none,none⟩,⟨13,.cr,true,true,none,none⟩,⟨34,.other,false,false,some 11,some ([],(none,false))⟩,⟨37,.other,false,false,some 11,some ([],(none,false))⟩,⟨39,.other,false,false,none,some ([],(some 2,true))⟩,⟨42,.other,false,false,some 11,some ([],(none,false))⟩,⟨47,.other,false,false,some 11,some ([],(none,false))⟩,⟨92,.other,false,false,some 12,some ([],(none,false))⟩]⟩,⟨false,none,[],[⟨256,.other,false,false,some 16,some ([.comment],(none,false))⟩,⟨9,.ws,false,false,some 17,some ([],(none,false))⟩,⟨10,.lf,false,true,some 18,some ([],(none,false))⟩,⟨11,.vt,false,false,some 16,some ([.comment],(none,false))⟩,⟨12,.ff,false,true,some 19,some ([],(none,false))⟩,⟨13,.cr,false,false,some 20,some ([],(none,false))⟩,⟨13,.cr,true,true,some 21,some ([],(none,false))⟩,⟨34,.other,false,false,some 16,some ([.comment],(none,false))⟩,⟨37,.other,false,false,some 16,some ([.comment],(none,false))⟩,⟨39,.other,false,false,some 16,some ([.comment],(none,false))⟩,⟨42,.other,false,false,some 22,some ([.comment],(none,false))⟩,⟨47,.other,false,false,some 16,some ([.comment],(none,false))⟩,⟨92,.other,false,false,some 16,some ([.comment],(none,false))⟩]⟩,⟨false,none,[],[⟨256,.other,false,false,some 16,some ([.comment],(none,false))⟩,⟨9,.ws,false,false,some 17,some ([],(none,false))⟩,⟨10,.lf,false,true,some 18,some ([],(none,false))⟩,⟨11,.vt,false,false,some 16,some ([.comment],(none,false))⟩,⟨12,.ff,false,true,some 19,some ([],(none,false))⟩,⟨13,.cr,false,false,some 20,some ([],(none,false))⟩,⟨13,.cr,true,true,some 21,some ([],(none,false))⟩,⟨34,.other,false,false,some 16,some ([.comment],(none,false))⟩,⟨37,.other,false,false,some 16,some ([.comment],(none,false))⟩,⟨39,.other,false,false,some 16,some ([.comment],(none,false))⟩,⟨42,.other,false,false,some 22,some ([.comment],(none,false))⟩,⟨47,.other,false,false,some 16,some ([.comment],(none,false))⟩,⟨92,.other,false,false,some 16,some ([.comment],(none,false))⟩]⟩,⟨false,none,[],[⟨256,.other,false,false,some 16,some ([.setEnt .internalNl,.cb,.comment],(none,false))⟩,⟨9,.ws,false,false,some 17,some ([.setEnt .internalNl,.cb],(none,false))⟩,⟨10,.lf,false,true,some 18,some ([.setEnt .internalNl,.cb],(none,false))⟩,⟨11,.vt,false,false,some 16,some ([.setEnt .internalNl,.cb,.comment],(none,false))⟩,⟨12,.ff,false,true,some 19,some ([.setEnt .internalNl,.cb],(none,false))⟩,⟨13,.cr,false,false,some 20,some ([.setEnt .internalNl,.cb],(none,false))⟩,⟨13,.cr,true,true,some 21,some ([.setEnt .internalNl,.cb],(none,false))⟩,⟨34,.other,false,false,some 16,some ([.setEnt .internalNl,.cb,.comment],(none,false))⟩,⟨37,.other,false,false,some 16,some ([.setEnt .internalNl,.cb,.comment],(none,false))⟩,⟨39,.other,false,false,some 16,some ([.setEnt .internalNl,.cb,.comment],(none,false))⟩,⟨42,.other,false,false,some 22,some ([.setEnt .internalNl,.cb,.comment],(none,false))⟩,⟨47,.other,false,false,some 16,some ([.setEnt .internalNl,.cb,.comment],(none,false))⟩,⟨92,.other,false,false,some 16,some ([.setEnt .internalNl,.cb,.comment],(none,false))⟩]⟩,⟨false,none,[],[⟨256,.other,false,false,some 16,some ([.setEnt .internalNl,.cb,.comment],(none,false))⟩,⟨9,.ws,false,false,some 17,some ([.setEnt .internalNl,.cb],(none,false))⟩,⟨10,.lf,false,true,some 18,some ([.setEnt .internalNl,.cb],(none,false))⟩,⟨11,.vt,false,false,some 16,some ([.setEnt .internalNl,.cb,.comment],(none,false))⟩,⟨12,.ff,false,true,some 19,some ([.setEnt .internalNl,.cb],(none,false))⟩,⟨13,.cr,false,false,some 20,some ([.setEnt .internalNl,.cb],(none,false))⟩,⟨13,.cr,true,true,some 21,some ([.setEnt .internalNl,.cb],(none,false))⟩,⟨34,.other,false,false,some 16,some ([.setEnt .internalNl,.cb,.comment],(none,false))⟩,⟨37,.other,false,false,some 16,some ([.setEnt .internalNl,.cb,.comment],(none,false))⟩,⟨39,.other,false,false,some 16,some ([.setEnt .internalNl,.cb,.comment],(none,false))⟩,⟨42,.other,false,false,some 22,some ([.setEnt .internalNl,.cb,.comment],(none,false))⟩,⟨47,.other,false,false,some 16,some ([.setEnt .internalNl,.cb,.comment],(none,false))⟩,⟨92,.other,false,false,some 16,some ([.setEnt .internalNl,.cb,.comment],(none,false))⟩]⟩,⟨false,none,[],[⟨256,.other,false,false,none,none⟩,⟨9,.ws,false,false,none,none⟩,⟨10,.lf,false,true,some 23,some ([],(none,false))⟩,⟨11,.vt,false,false,none,none⟩,⟨12,.ff,false,true,none,none⟩,⟨13,.cr,false,false,none,none⟩,⟨13,.cr,true,true,none,none⟩,⟨34,.other,false,false,none,none⟩,⟨37,.other,false,false,none,none⟩,⟨39,.other,false,false,none,none⟩,⟨42,.other,false,false,none,none⟩,⟨47,.other,false,false,none,none⟩,⟨92,.other,false,false,none,none⟩]⟩,⟨false,none,[],[⟨256,.other,false,false,some 16,some ([.setEnt .internalNl,.cb,.comment],(none,false))⟩,⟨9,.ws,false,false,some 17,some ([.setEnt .internalNl,.cb],(none,false))⟩,⟨10,.lf,false,true,some 24,some ([.setEnt .internalNl,.cb],(none,false))⟩,⟨11,.vt,false,false,some 16,some ([.setEnt .internalNl,.cb,.comment],(none,false))⟩,⟨12,.ff,false,true,some 19,some ([.setEnt .internalNl,.cb],(none,false))⟩,⟨13,.cr,false,false,some 20,some ([.setEnt .internalNl,.cb],(none,false))⟩,⟨13,.cr,true,true,some 21,some ([.setEnt .internalNl,.cb],(none,false))⟩,⟨34,.other,false,false,some 16,some ([.setEnt .internalNl,.cb,.comment],(none,false))⟩,⟨37,.other,false,false,some 16,some ([.setEnt .internalNl,.cb,.comment],(none,false))⟩,⟨39,.other,false,false,some 16,some ([.setEnt .internalNl,.cb,.comment],(none,false))⟩,⟨42,.other,false,false,some 22,some ([.setEnt .internalNl,.cb,.comment],(none,false))⟩,⟨47,.other,false,false,some 16,some ([.setEnt .internalNl,.cb,.comment],(none,false))⟩,⟨92,.other,false,false,some 16,some ([.setEnt .internalNl,.cb,.comment],(none,false))⟩]⟩,⟨false,none,[],[⟨256,.other,false,false,some 16,some ([.comment],(none,false))⟩,⟨9,.ws,false,false,some 17,some ([],(none,false))⟩,⟨10,.lf,false,true,some 18,some ([],(none,false))⟩,⟨11,.vt,false,false,some 16,some ([.comment],(none,false))⟩,⟨12,.ff,false,true,some 19,some ([],(none,false))⟩,⟨13,.cr,false,false,some 20,some ([],(none,false))⟩,⟨13,.cr,true,true,some 21,some ([],(none,false))⟩,⟨34,.other,false,false,some 16,some ([.comment],(none,false))⟩,⟨37,.other,false,false,some 16,some ([.comment],(none,false))⟩,⟨39,.other,false,false,some 16,some ([.comment],(none,false))⟩,⟨42,.other,false,false,some 22,some ([.comment],(none,false))⟩,⟨47,.other,false,false,none,some ([],(some 1,true))⟩,⟨92,.other,false,false,some 16,some ([.comment],(none,false))⟩]⟩,⟨false,none,[],[⟨256,.other,false,false,some 16,some ([.setEnt .internalNl,.cb,.comment],(none,false))⟩,⟨9,.ws,false,false,some 17,some ([.setEnt .internalNl,.cb],(none,false))⟩,⟨10,.lf,false,true,some 18,some ([.setEnt .internalNl,.cb],(none,false))⟩,⟨11,.vt,false,false,some 16,some ([.setEnt .internalNl,.cb,.comment],(none,false))⟩,⟨12,.ff,false,true,some 19,some ([.setEnt .internalNl,.cb],(none,false))⟩,⟨13,.cr,false,false,some 20,some ([.setEnt .internalNl,.cb],(none,false))⟩,⟨13,.cr,true,true,some 21,some ([.setEnt .internalNl,.cb],(none,false))⟩,⟨34,.other,false,false,some 16,some ([.setEnt .internalNl,.cb,.comment],(none,false))⟩,⟨37,.other,false,false,some 16,some ([.setEnt .internalNl,.cb,.comment],(none,false))⟩,⟨39,.other,false,false,some 16,some ([.setEnt .internalNl,.cb,.comment],(none,false))⟩,⟨42,.other,false,false,some 22,some ([.setEnt .internalNl,.cb,.comment],(none,false))⟩,⟨47,.other,false,false,some 16,some ([.setEnt .internalNl,.cb,.comment],(none,false))⟩,⟨92,.other,false,false,some 16,some ([.setEnt .internalNl,.cb,.comment],(none,false))⟩]⟩,⟨false,none,[],[⟨256,.other,false,false,some 16,some ([.setEnt .internalNl,.cb,.comment],(none,false))⟩,⟨9,.ws,false,false,some 17,some ([.setEnt .internalNl,.cb],(none,false))⟩,⟨10,.lf,false,true,some 18,some ([.setEnt .internalNl,.cb],(none,false))⟩,⟨11,.vt,false,false,some 16,some ([.setEnt .internalNl,.cb,.comment],(none,false))⟩,⟨12,.ff,false,true,some 19,some ([.setEnt .internalNl,.cb],(none,false))⟩,⟨13,.cr,false,false,some 20,some ([.setEnt .internalNl,.cb],(none,false))⟩,⟨13,.cr,true,true,some 21,some ([.setEnt .internalNl,.cb],(none,false))⟩,⟨34,.other,false,false,some 16,some ([.setEnt .internalNl,.cb,.comment],(none,false))⟩,⟨37,.other,false,false,some 16,some ([.setEnt .internalNl,.cb,.comment],(none,false))⟩,⟨39,.other,false,false,some 16,some ([.setEnt .internalNl,.cb,.comment],(none,false))⟩,⟨42,.other,false,false,some 22,some ([.setEnt .internalNl,.cb,.comment],(none,false))⟩,⟨47,.other,false,false,some 16,some ([.setEnt .internalNl,.cb,.comment],(none,false))⟩,⟨92,.other,false,false,some 16,some ([.setEnt .internalNl,.cb,.comment],(none,false))⟩]⟩]
theorem logtalk_line_lfrOk : logtalk_line_lrows.map (CA.prep logtalk_line_lex) = logtalk_line_lfr := by decide +kernel
def logtalk_line_lTab : List CT := [(.node (.node (.node (.node (.node (.node (.node (.node .leaf 128 [⟨⟨.code,[],.lcode,false,[],false⟩,false,false,[],none,none,none,false,false,false,none,false,⟨.lcode,none,false,.lblank⟩⟩] .leaf) 38019 [⟨⟨.code,[],.lcode,true,[],false⟩,false,false,[],none,none,none,false,false,false,none,false,⟨.lblank,none,false,.lblank⟩⟩] .leaf) 148108 [⟨⟨.code,[],.lcomment,false,[],false⟩,false,false,[],none,none,none,false,false,false,none,false,⟨.lcomment,none,false,.lblank⟩⟩] (.node (.node .leaf 184463 [⟨⟨.code,[],.lcode,false,[(2,0)],false⟩,false,false,[],none,none,none,false,false,false,none,false,⟨.lcode,none,false,.lblank⟩⟩] .leaf) 185487 [⟨⟨.code,[],.lcomment,true,[],false⟩,false,false,[],none,none,none,false,false,false,none,false,⟨.lblank,none,false,.lblank⟩⟩] .leaf)) 196752 [⟨⟨.code,[],.lcode,false,[(2,1)],false⟩,false,false,[],none,none,none,false,false,false,none,false,⟨.lcode,none,false,.lblank⟩⟩] (.node (.node (.node .leaf 270486 [⟨⟨.code,[],.lcode,false,[(3,0)],false⟩,false,false,[],none,none,none,false,false,false,none,false,⟨.lcode,none,false,.lblank⟩⟩] .leaf) 282775 [⟨⟨.code,[],.lcode,false,[(3,1)],false⟩,false,false,[],none,none,none,false,false,false,none,false,⟨.lcode,none,false,.lblank⟩⟩] .leaf) 296088 [⟨⟨.code,[],.lblank,false,[],false⟩,false,false,[],none,none,none,false,false,false,none,false,⟨.lblank,none,false,.lblank⟩⟩] (.node (.node .leaf 332955 [⟨⟨.code,[],.lblank,true,[],false⟩,false,false,[],none,none,none,false,false,false,none,false,⟨.lblank,none,false,.lblank⟩⟩] .leaf) 1179872 [⟨⟨(.inside 0),[],.lcode,false,[],false⟩,false,false,[none],none,none,none,false,false,false,none,false,⟨.lcode,none,false,.lblank⟩⟩] .leaf))) 1327852 [⟨⟨(.inside 0),[],.lcomment,false,[],false⟩,false,false,[none],none,none,none,false,false,false,none,false,⟨.lcomment,none,false,.lblank⟩⟩] (.node (.node (.node (.node .leaf 1769744 [⟨⟨.code,[47],.lcode,false,[],false⟩,false,false,[none],none,none,none,false,false,false,none,false,⟨.lcode,none,false,.lblank⟩⟩] .leaf) 20769801 [⟨⟨.code,[47],.lcode,false,[],false⟩,false,false,[some (9,(.ws,false))],none,none,none,false,false,false,none,false,⟨.lcode,none,false,.lblank⟩⟩] .leaf) 21088052 [⟨⟨.code,[47],.lcomment,false,[],false⟩,false,false,[none],none,none,none,false,false,false,none,false,⟨.lcode,none,false,.lblank⟩⟩] (.node (.node .leaf 22179935 [⟨⟨(.inside 0),[],.lcode,false,[],false⟩,false,false,[some (10,(.lf,false))],none,none,none,false,false,false,none,false,⟨.lcode,none,false,.lblank⟩⟩] .leaf) 22327915 [⟨⟨(.inside 0),[],.lcomment,false,[],false⟩,false,false,[some (10,(.lf,false))],none,none,none,false,false,false,none,false,⟨.lcomment,none,false,.lblank⟩⟩] .leaf)) 22769807 [⟨⟨.code,[47],.lcode,false,[],false⟩,false,false,[some (10,(.lf,false))],none,none,none,false,false,false,none,false,⟨.lcode,none,false,.lblank⟩⟩] (.node (.node (.node .leaf 24418371 [⟨⟨.code,[],.lcode,false,[(2,0),(3,0)],false⟩,false,false,[],none,none,none,false,false,false,none,false,⟨.lcode,none,false,.lblank⟩⟩] .leaf) 26040519 [⟨⟨.code,[],.lcode,false,[(2,1),(3,1)],false⟩,false,false,[],none,none,none,false,false,false,none,false,⟨.lcode,none,false,.lblank⟩⟩] .leaf) 26179947 [⟨⟨(.inside 0),[],.lcode,false,[],false⟩,false,false,[some (12,(.ff,false))],none,none,none,false,false,false,none,false,⟨.lcode,none,false,.lblank⟩⟩] (.node (.node .leaf 26327927 [⟨⟨(.inside 0),[],.lcomment,false,[],false⟩,false,false,[some (12,(.ff,false))],none,none,none,false,false,false,none,false,⟨.lcomment,none,false,.lblank⟩⟩] .leaf) 26769819 [⟨⟨.code,[47],.lcode,false,[],false⟩,false,false,[some (12,(.ff,false))],none,none,none,false,false,false,none,false,⟨.lcode,none,false,.lblank⟩⟩] .leaf)))) 28179953 [⟨⟨(.inside 0),[],.lcode,false,[],false⟩,false,false,[some (13,(.cr,false))],none,none,none,false,false,false,none,false,⟨.lcode,none,false,.lblank⟩⟩] (.node (.node (.node (.node (.node .leaf 28327933 [⟨⟨(.inside 0),[],.lcomment,false,[],false⟩,false,false,[some (13,(.cr,false))],none,none,none,false,false,false,none,false,⟨.lcomment,none,false,.lblank⟩⟩] .leaf) 28769825 [⟨⟨.code,[47],.lcode,false,[],false⟩,false,false,[some (13,(.cr,false))],none,none,none,false,false,false,none,false,⟨.lcode,none,false,.lblank⟩⟩] .leaf) 29179956 [⟨⟨(.inside 0),[],.lcode,false,[],false⟩,false,false,[some (13,(.cr,true))],none,none,none,false,false,false,none,false,⟨.lcode,none,false,.lblank⟩⟩] (.node (.node .leaf 29327936 [⟨⟨(.inside 0),[],.lcomment,false,[],false⟩,false,false,[some (13,(.cr,true))],none,none,none,false,false,false,none,false,⟨.lcomment,none,false,.lblank⟩⟩] .leaf) 29769828 [⟨⟨.code,[47],.lcode,false,[],false⟩,false,false,[some (13,(.cr,true))],none,none,none,false,false,false,none,false,⟨.lcode,none,false,.lblank⟩⟩] .leaf)) 35601361 [⟨⟨.code,[],.lcode,false,[(3,0),(2,0)],false⟩,false,false,[],none,none,none,false,false,false,none,false,⟨.lcode,none,false,.lblank⟩⟩] (.node (.node (.node .leaf 37223509 [⟨⟨.code,[],.lcode,false,[(3,1),(2,1)],false⟩,false,false,[],none,none,none,false,false,false,none,false,⟨.lcode,none,false,.lblank⟩⟩] .leaf) 40088109 [⟨⟨.code,[47],.lcomment,false,[],false⟩,false,false,[some (9,(.ws,false))],none,none,none,false,false,false,none,false,⟨.lcode,none,false,.lblank⟩⟩] .leaf) 40406360 [⟨⟨.code,[47],.lblank,false,[],false⟩,false,false,[none],none,none,none,false,false,false,none,false,⟨.lcode,none,false,.lblank⟩⟩] (.node (.node .leaf 42088115 [⟨⟨.code,[47],.lcomment,false,[],false⟩,false,false,[some (10,(.lf,false))],none,none,none,false,false,false,none,false,⟨.lcode,none,false,.lblank⟩⟩] .leaf) 46088127 [⟨⟨.code,[47],.lcomment,false,[],false⟩,false,false,[some (12,(.ff,false))],none,none,none,false,false,false,none,false,⟨.lcode,none,false,.lblank⟩⟩] .leaf))) 48088133 [⟨⟨.code,[47],.lcomment,false,[],false⟩,false,false,[some (13,(.cr,false))],none,none,none,false,false,false,none,false,⟨.lcode,none,false,.lblank⟩⟩] (.node (.node (.node (.node .leaf 49088136 [⟨⟨.code,[47],.lcomment,false,[],false⟩,false,false,[some (13,(.cr,true))],none,none,none,false,false,false,none,false,⟨.lcode,none,false,.lblank⟩⟩] .leaf) 59406417 [⟨⟨.code,[47],.lblank,false,[],false⟩,false,false,[some (9,(.ws,false))],none,none,none,false,false,false,none,false,⟨.lcode,none,false,.lblank⟩⟩] .leaf) 61406423 [⟨⟨.code,[47],.lblank,false,[],false⟩,false,false,[some (10,(.lf,false))],none,none,none,false,false,false,none,false,⟨.lcode,none,false,.lblank⟩⟩] (.node (.node .leaf 65406435 [⟨⟨.code,[47],.lblank,false,[],false⟩,false,false,[some (12,(.ff,false))],none,none,none,false,false,false,none,false,⟨.lcode,none,false,.lblank⟩⟩] .leaf) 67406441 [⟨⟨.code,[47],.lblank,false,[],false⟩,false,false,[some (13,(.cr,false))],none,none,none,false,false,false,none,false,⟨.lcode,none,false,.lblank⟩⟩] .leaf)) 68406444 [⟨⟨.code,[47],.lblank,false,[],false⟩,false,false,[some (13,(.cr,true))],none,none,none,false,false,false,none,false,⟨.lcode,none,false,.lblank⟩⟩] (.node (.node (.node .leaf 70769951 [⟨⟨.code,[47],.lcode,false,[],false⟩,false,false,[some (34,(.other,false))],none,none,none,false,false,false,none,false,⟨.lcode,none,false,.lblank⟩⟩] .leaf) 76769969 [⟨⟨.code,[47],.lcode,false,[],false⟩,false,false,[some (37,(.other,false))],none,none,none,false,false,false,none,false,⟨.lcode,none,false,.lblank⟩⟩] .leaf) 80769981 [⟨⟨.code,[47],.lcode,false,[],false⟩,false,false,[some (39,(.other,false))],none,none,none,false,false,false,none,false,⟨.lcode,none,false,.lblank⟩⟩] (.node .leaf 90088259 [⟨⟨.code,[47],.lcomment,false,[],false⟩,false,false,[some (34,(.other,false))],none,none,none,false,false,false,none,false,⟨.lcode,none,false,.lblank⟩⟩] .leaf))))) 96088277 [⟨⟨.code,[47],.lcomment,false,[],false⟩,false,false,[some (37,(.other,false))],none,none,none,false,false,false,none,false,⟨.lcode,none,false,.lblank⟩⟩] (.node (.node (.node (.node (.node (.node .leaf 96770029 [⟨⟨.code,[47],.lcode,false,[],false⟩,false,false,[some (47,(.other,false))],none,none,none,false,false,false,none,false,⟨.lcode,none,false,.lblank⟩⟩] .leaf) 100088289 [⟨⟨.code,[47],.lcomment,false,[],false⟩,false,false,[some (39,(.other,false))],none,none,none,false,false,false,none,false,⟨.lcode,none,false,.lblank⟩⟩] .leaf) 109406567 [⟨⟨.code,[47],.lblank,false,[],false⟩,false,false,[some (34,(.other,false))],none,none,none,false,false,false,none,false,⟨.lcode,none,false,.lblank⟩⟩] (.node (.node .leaf 115406585 [⟨⟨.code,[47],.lblank,false,[],false⟩,false,false,[some (37,(.other,false))],none,none,none,false,false,false,none,false,⟨.lcode,none,false,.lblank⟩⟩] .leaf) 116088337 [⟨⟨.code,[47],.lcomment,false,[],false⟩,false,false,[some (47,(.other,false))],none,none,none,false,false,false,none,false,⟨.lcode,none,false,.lblank⟩⟩] .leaf)) 119406597 [⟨⟨.code,[47],.lblank,false,[],false⟩,false,false,[some (39,(.other,false))],none,none,none,false,false,false,none,false,⟨.lcode,none,false,.lblank⟩⟩] (.node (.node (.node .leaf 135406645 [⟨⟨.code,[47],.lblank,false,[],false⟩,false,false,[some (47,(.other,false))],none,none,none,false,false,false,none,false,⟨.lcode,none,false,.lblank⟩⟩] .leaf) 154730927 [⟨⟨(.inside 0),[],.lcode,false,[(2,0)],false⟩,false,false,[none],none,none,none,false,false,false,none,false,⟨.lcode,none,false,.lblank⟩⟩] .leaf) 154743216 [⟨⟨(.inside 0),[],.lcode,false,[(2,1)],false⟩,false,false,[none],none,none,none,false,false,false,none,false,⟨.lcode,none,false,.lblank⟩⟩] (.node (.node .leaf 154816950 [⟨⟨(.inside 0),[],.lcode,false,[(3,0)],false⟩,false,false,[none],none,none,none,false,false,false,none,false,⟨.lcode,none,false,.lblank⟩⟩] .leaf) 154829239 [⟨⟨(.inside 0),[],.lcode,false,[(3,1)],false⟩,false,false,[none],none,none,none,false,false,false,none,false,⟨.lcode,none,false,.lblank⟩⟩] .leaf))) 175730990 [⟨⟨(.inside 0),[],.lcode,false,[(2,0)],false⟩,false,false,[some (10,(.lf,false))],none,none,none,false,false,false,none,false,⟨.lcode,none,false,.lblank⟩⟩] (.node (.node (.node (.node .leaf 175743279 [⟨⟨(.inside 0),[],.lcode,false,[(2,1)],false⟩,false,false,[some (10,(.lf,false))],none,none,none,false,false,false,none,false,⟨.lcode,none,false,.lblank⟩⟩] .leaf) 175817013 [⟨⟨(.inside 0),[],.lcode,false,[(3,0)],false⟩,false,false,[some (10,(.lf,false))],none,none,none,false,false,false,none,false,⟨.lcode,none,false,.lblank⟩⟩] .leaf) 175829302 [⟨⟨(.inside 0),[],.lcode,false,[(3,1)],false⟩,false,false,[some (10,(.lf,false))],none,none,none,false,false,false,none,false,⟨.lcode,none,false,.lblank⟩⟩] (.node (.node .leaf 179731002 [⟨⟨(.inside 0),[],.lcode,false,[(2,0)],false⟩,false,false,[some (12,(.ff,false))],none,none,none,false,false,false,none,false,⟨.lcode,none,false,.lblank⟩⟩] .leaf) 179743291 [⟨⟨(.inside 0),[],.lcode,false,[(2,1)],false⟩,false,false,[some (12,(.ff,false))],none,none,none,false,false,false,none,false,⟨.lcode,none,false,.lblank⟩⟩] .leaf)) 179817025 [⟨⟨(.inside 0),[],.lcode,false,[(3,0)],false⟩,false,false,[some (12,(.ff,false))],none,none,none,false,false,false,none,false,⟨.lcode,none,false,.lblank⟩⟩] (.node (.node (.node .leaf 179829314 [⟨⟨(.inside 0),[],.lcode,false,[(3,1)],false⟩,false,false,[some (12,(.ff,false))],none,none,none,false,false,false,none,false,⟨.lcode,none,false,.lblank⟩⟩] .leaf) 181731008 [⟨⟨(.inside 0),[],.lcode,false,[(2,0)],false⟩,false,false,[some (13,(.cr,false))],none,none,none,false,false,false,none,false,⟨.lcode,none,false,.lblank⟩⟩] .leaf) 181743297 [⟨⟨(.inside 0),[],.lcode,false,[(2,1)],false⟩,false,false,[some (13,(.cr,false))],none,none,none,false,false,false,none,false,⟨.lcode,none,false,.lblank⟩⟩] (.node .leaf 181817031 [⟨⟨(.inside 0),[],.lcode,false,[(3,0)],false⟩,false,false,[some (13,(.cr,false))],none,none,none,false,false,false,none,false,⟨.lcode,none,false,.lblank⟩⟩] .leaf)))) 181829320 [⟨⟨(.inside 0),[],.lcode,false,[(3,1)],false⟩,false,false,[some (13,(.cr,false))],none,none,none,false,false,false,none,false,⟨.lcode,none,false,.lblank⟩⟩] (.node (.node (.node (.node (.node .leaf 182731011 [⟨⟨(.inside 0),[],.lcode,false,[(2,0)],false⟩,false,false,[some (13,(.cr,true))],none,none,none,false,false,false,none,false,⟨.lcode,none,false,.lblank⟩⟩] .leaf) 182743300 [⟨⟨(.inside 0),[],.lcode,false,[(2,1)],false⟩,false,false,[some (13,(.cr,true))],none,none,none,false,false,false,none,false,⟨.lcode,none,false,.lblank⟩⟩] .leaf) 182817034 [⟨⟨(.inside 0),[],.lcode,false,[(3,0)],false⟩,false,false,[some (13,(.cr,true))],none,none,none,false,false,false,none,false,⟨.lcode,none,false,.lblank⟩⟩] (.node (.node .leaf 182829323 [⟨⟨(.inside 0),[],.lcode,false,[(3,1)],false⟩,false,false,[some (13,(.cr,true))],none,none,none,false,false,false,none,false,⟨.lcode,none,false,.lblank⟩⟩] .leaf) 186770299 [⟨⟨.code,[47],.lcode,false,[],false⟩,false,false,[some (92,(.other,false))],none,none,none,false,false,false,none,false,⟨.lcode,none,false,.lblank⟩⟩] .leaf)) 206088607 [⟨⟨.code,[47],.lcomment,false,[],false⟩,false,false,[some (92,(.other,false))],none,none,none,false,false,false,none,false,⟨.lcode,none,false,.lblank⟩⟩] (.node (.node (.node .leaf 225406915 [⟨⟨.code,[47],.lblank,false,[],false⟩,false,false,[some (92,(.other,false))],none,none,none,false,false,false,none,false,⟨.lcode,none,false,.lblank⟩⟩] .leaf) 232004159 [⟨⟨.code,[47],.lcode,false,[(2,0)],false⟩,false,false,[none],none,none,none,false,false,false,none,false,⟨.lcode,none,false,.lblank⟩⟩] .leaf) 232016448 [⟨⟨.code,[47],.lcode,false,[(2,1)],false⟩,false,false,[none],none,none,none,false,false,false,none,false,⟨.lcode,none,false,.lblank⟩⟩] (.node (.node .leaf 232090182 [⟨⟨.code,[47],.lcode,false,[(3,0)],false⟩,false,false,[none],none,none,none,false,false,false,none,false,⟨.lcode,none,false,.lblank⟩⟩] .leaf) 232102471 [⟨⟨.code,[47],.lcode,false,[(3,1)],false⟩,false,false,[none],none,none,none,false,false,false,none,false,⟨.lcode,none,false,.lblank⟩⟩] .leaf))) 251004216 [⟨⟨.code,[47],.lcode,false,[(2,0)],false⟩,false,false,[some (9,(.ws,false))],none,none,none,false,false,false,none,false,⟨.lcode,none,false,.lblank⟩⟩] (.node (.node (.node (.node .leaf 251016505 [⟨⟨.code,[47],.lcode,false,[(2,1)],false⟩,false,false,[some (9,(.ws,false))],none,none,none,false,false,false,none,false,⟨.lcode,none,false,.lblank⟩⟩] .leaf) 251090239 [⟨⟨.code,[47],.lcode,false,[(3,0)],false⟩,false,false,[some (9,(.ws,false))],none,none,none,false,false,false,none,false,⟨.lcode,none,false,.lblank⟩⟩] .leaf) 251102528 [⟨⟨.code,[47],.lcode,false,[(3,1)],false⟩,false,false,[some (9,(.ws,false))],none,none,none,false,false,false,none,false,⟨.lcode,none,false,.lblank⟩⟩] (.node (.node .leaf 253004222 [⟨⟨.code,[47],.lcode,false,[(2,0)],false⟩,false,false,[some (10,(.lf,false))],none,none,none,false,false,false,none,false,⟨.lcode,none,false,.lblank⟩⟩] .leaf) 253016511 [⟨⟨.code,[47],.lcode,false,[(2,1)],false⟩,false,false,[some (10,(.lf,false))],none,none,none,false,false,false,none,false,⟨.lcode,none,false,.lblank⟩⟩] .leaf)) 253090245 [⟨⟨.code,[47],.lcode,false,[(3,0)],false⟩,false,false,[some (10,(.lf,false))],none,none,none,false,false,false,none,false,⟨.lcode,none,false,.lblank⟩⟩] (.node (.node (.node .leaf 253102534 [⟨⟨.code,[47],.lcode,false,[(3,1)],false⟩,false,false,[some (10,(.lf,false))],none,none,none,false,false,false,none,false,⟨.lcode,none,false,.lblank⟩⟩] .leaf) 257004234 [⟨⟨.code,[47],.lcode,false,[(2,0)],false⟩,false,false,[some (12,(.ff,false))],none,none,none,false,false,false,none,false,⟨.lcode,none,false,.lblank⟩⟩] .leaf) 257016523 [⟨⟨.code,[47],.lcode,false,[(2,1)],false⟩,false,false,[some (12,(.ff,false))],none,none,none,false,false,false,none,false,⟨.lcode,none,false,.lblank⟩⟩] (.node .leaf 257090257 [⟨⟨.code,[47],.lcode,false,[(3,0)],false⟩,false,false,[some (12,(.ff,false))],none,none,none,false,false,false,none,false,⟨.lcode,none,false,.lblank⟩⟩] .leaf)))))) 257102546 [⟨⟨.code,[47],.lcode,false,[(3,1)],false⟩,false,false,[some (12,(.ff,false))],none,none,none,false,false,false,none,false,⟨.lcode,none,false,.lblank⟩⟩] (.node (.node (.node (.node (.node (.node (.node .leaf 259004240 [⟨⟨.code,[47],.lcode,false,[(2,0)],false⟩,false,false,[some (13,(.cr,false))],none,none,none,false,false,false,none,false,⟨.lcode,none,false,.lblank⟩⟩] .leaf) 259016529 [⟨⟨.code,[47],.lcode,false,[(2,1)],false⟩,false,false,[some (13,(.cr,false))],none,none,none,false,false,false,none,false,⟨.lcode,none,false,.lblank⟩⟩] .leaf) 259090263 [⟨⟨.code,[47],.lcode,false,[(3,0)],false⟩,false,false,[some (13,(.cr,false))],none,none,none,false,false,false,none,false,⟨.lcode,none,false,.lblank⟩⟩] (.node (.node .leaf 259102552 [⟨⟨.code,[47],.lcode,false,[(3,1)],false⟩,false,false,[some (13,(.cr,false))],none,none,none,false,false,false,none,false,⟨.lcode,none,false,.lblank⟩⟩] .leaf) 260004243 [⟨⟨.code,[47],.lcode,false,[(2,0)],false⟩,false,false,[some (13,(.cr,true))],none,none,none,false,false,false,none,false,⟨.lcode,none,false,.lblank⟩⟩] .leaf)) 260016532 [⟨⟨.code,[47],.lcode,false,[(2,1)],false⟩,false,false,[some (13,(.cr,true))],none,none,none,false,false,false,none,false,⟨.lcode,none,false,.lblank⟩⟩] (.node (.node (.node .leaf 260090266 [⟨⟨.code,[47],.lcode,false,[(3,0)],false⟩,false,false,[some (13,(.cr,true))],none,none,none,false,false,false,none,false,⟨.lcode,none,false,.lblank⟩⟩] .leaf) 260102555 [⟨⟨.code,[47],.lcode,false,[(3,1)],false⟩,false,false,[some (13,(.cr,true))],none,none,none,false,false,false,none,false,⟨.lcode,none,false,.lblank⟩⟩] .leaf) 301004366 [⟨⟨.code,[47],.lcode,false,[(2,0)],false⟩,false,false,[some (34,(.other,false))],none,none,none,false,false,false,none,false,⟨.lcode,none,false,.lblank⟩⟩] (.node (.node .leaf 301016655 [⟨⟨.code,[47],.lcode,false,[(2,1)],false⟩,false,false,[some (34,(.other,false))],none,none,none,false,false,false,none,false,⟨.lcode,none,false,.lblank⟩⟩] .leaf) 307004384 [⟨⟨.code,[47],.lcode,false,[(2,0)],false⟩,false,false,[some (37,(.other,false))],none,none,none,false,false,false,none,false,⟨.lcode,none,false,.lblank⟩⟩] .leaf))) 307016673 [⟨⟨.code,[47],.lcode,false,[(2,1)],false⟩,false,false,[some (37,(.other,false))],none,none,none,false,false,false,none,false,⟨.lcode,none,false,.lblank⟩⟩] (.node (.node (.node (.node .leaf 307090407 [⟨⟨.code,[47],.lcode,false,[(3,0)],false⟩,false,false,[some (37,(.other,false))],none,none,none,false,false,false,none,false,⟨.lcode,none,false,.lblank⟩⟩] .leaf) 307102696 [⟨⟨.code,[47],.lcode,false,[(3,1)],false⟩,false,false,[some (37,(.other,false))],none,none,none,false,false,false,none,false,⟨.lcode,none,false,.lblank⟩⟩] .leaf) 311090419 [⟨⟨.code,[47],.lcode,false,[(3,0)],false⟩,false,false,[some (39,(.other,false))],none,none,none,false,false,false,none,false,⟨.lcode,none,false,.lblank⟩⟩] (.node (.node .leaf 311102708 [⟨⟨.code,[47],.lcode,false,[(3,1)],false⟩,false,false,[some (39,(.other,false))],none,none,none,false,false,false,none,false,⟨.lcode,none,false,.lblank⟩⟩] .leaf) 327004444 [⟨⟨.code,[47],.lcode,false,[(2,0)],false⟩,false,false,[some (47,(.other,false))],none,none,none,false,false,false,none,false,⟨.lcode,none,false,.lblank⟩⟩] .leaf)) 327016733 [⟨⟨.code,[47],.lcode,false,[(2,1)],false⟩,false,false,[some (47,(.other,false))],none,none,none,false,false,false,none,false,⟨.lcode,none,false,.lblank⟩⟩] (.node (.node (.node .leaf 327090467 [⟨⟨.code,[47],.lcode,false,[(3,0)],false⟩,false,false,[some (47,(.other,false))],none,none,none,false,false,false,none,false,⟨.lcode,none,false,.lblank⟩⟩] .leaf) 327102756 [⟨⟨.code,[47],.lcode,false,[(3,1)],false⟩,false,false,[some (47,(.other,false))],none,none,none,false,false,false,none,false,⟨.lcode,none,false,.lblank⟩⟩] .leaf) 417004714 [⟨⟨.code,[47],.lcode,false,[(2,0)],false⟩,false,false,[some (92,(.other,false))],none,none,none,false,false,false,none,false,⟨.lcode,none,false,.lblank⟩⟩] (.node .leaf 417017003 [⟨⟨.code,[47],.lcode,false,[(2,1)],false⟩,false,false,[some (92,(.other,false))],none,none,none,false,false,false,none,false,⟨.lcode,none,false,.lblank⟩⟩] .leaf)))) 417090737 [⟨⟨.code,[47],.lcode,false,[(3,0)],false⟩,false,false,[some (92,(.other,false))],none,none,none,false,false,false,none,false,⟨.lcode,none,false,.lblank⟩⟩] (.node (.node (.node (.node (.node .leaf 417103026 [⟨⟨.code,[47],.lcode,false,[(3,1)],false⟩,false,false,[some (92,(.other,false))],none,none,none,false,false,false,none,false,⟨.lcode,none,false,.lblank⟩⟩] .leaf) 514771283 [⟨⟨.code,[47],.lcode,false,[],false⟩,false,false,[some (256,(.other,false))],none,none,none,false,false,false,none,false,⟨.lcode,none,false,.lblank⟩⟩] .leaf) 534089591 [⟨⟨.code,[47],.lcomment,false,[],false⟩,false,false,[some (256,(.other,false))],none,none,none,false,false,false,none,false,⟨.lcode,none,false,.lblank⟩⟩] (.node (.node .leaf 553407899 [⟨⟨.code,[47],.lblank,false,[],false⟩,false,false,[some (256,(.other,false))],none,none,none,false,false,false,none,false,⟨.lcode,none,false,.lblank⟩⟩] .leaf) 745005698 [⟨⟨.code,[47],.lcode,false,[(2,0)],false⟩,false,false,[some (256,(.other,false))],none,none,none,false,false,false,none,false,⟨.lcode,none,false,.lblank⟩⟩] .leaf)) 745017987 [⟨⟨.code,[47],.lcode,false,[(2,1)],false⟩,false,false,[some (256,(.other,false))],none,none,none,false,false,false,none,false,⟨.lcode,none,false,.lblank⟩⟩] (.node (.node (.node .leaf 745091721 [⟨⟨.code,[47],.lcode,false,[(3,0)],false⟩,false,false,[some (256,(.other,false))],none,none,none,false,false,false,none,false,⟨.lcode,none,false,.lblank⟩⟩] .leaf) 745104010 [⟨⟨.code,[47],.lcode,false,[(3,1)],false⟩,false,false,[some (256,(.other,false))],none,none,none,false,false,false,none,false,⟨.lcode,none,false,.lblank⟩⟩] .leaf) 20270005155 [⟨⟨(.inside 0),[],.lcode,false,[(2,0),(3,0)],false⟩,false,false,[none],none,none,none,false,false,false,none,false,⟨.lcode,none,false,.lblank⟩⟩] (.node (.node .leaf 20271627303 [⟨⟨(.inside 0),[],.lcode,false,[(2,1),(3,1)],false⟩,false,false,[none],none,none,none,false,false,false,none,false,⟨.lcode,none,false,.lblank⟩⟩] .leaf) 20281188145 [⟨⟨(.inside 0),[],.lcode,false,[(3,0),(2,0)],false⟩,false,false,[none],none,none,none,false,false,false,none,false,⟨.lcode,none,false,.lblank⟩⟩] .leaf))) 20282810293 [⟨⟨(.inside 0),[],.lcode,false,[(3,1),(2,1)],false⟩,false,false,[none],none,none,none,false,false,false,none,false,⟨.lcode,none,false,.lblank⟩⟩] (.node (.node (.node (.node .leaf 20291005218 [⟨⟨(.inside 0),[],.lcode,false,[(2,0),(3,0)],false⟩,false,false,[some (10,(.lf,false))],none,none,none,false,false,false,none,false,⟨.lcode,none,false,.lblank⟩⟩] .leaf) 20292627366 [⟨⟨(.inside 0),[],.lcode,false,[(2,1),(3,1)],false⟩,false,false,[some (10,(.lf,false))],none,none,none,false,false,false,none,false,⟨.lcode,none,false,.lblank⟩⟩] .leaf) 20295005230 [⟨⟨(.inside 0),[],.lcode,false,[(2,0),(3,0)],false⟩,false,false,[some (12,(.ff,false))],none,none,none,false,false,false,none,false,⟨.lcode,none,false,.lblank⟩⟩] (.node (.node .leaf 20296627378 [⟨⟨(.inside 0),[],.lcode,false,[(2,1),(3,1)],false⟩,false,false,[some (12,(.ff,false))],none,none,none,false,false,false,none,false,⟨.lcode,none,false,.lblank⟩⟩] .leaf) 20297005236 [⟨⟨(.inside 0),[],.lcode,false,[(2,0),(3,0)],false⟩,false,false,[some (13,(.cr,false))],none,none,none,false,false,false,none,false,⟨.lcode,none,false,.lblank⟩⟩] .leaf)) 20298005239 [⟨⟨(.inside 0),[],.lcode,false,[(2,0),(3,0)],false⟩,false,false,[some (13,(.cr,true))],none,none,none,false,false,false,none,false,⟨.lcode,none,false,.lblank⟩⟩] (.node (.node (.node .leaf 20298627384 [⟨⟨(.inside 0),[],.lcode,false,[(2,1),(3,1)],false⟩,false,false,[some (13,(.cr,false))],none,none,none,false,false,false,none,false,⟨.lcode,none,false,.lblank⟩⟩] .leaf) 20299627387 [⟨⟨(.inside 0),[],.lcode,false,[(2,1),(3,1)],false⟩,false,false,[some (13,(.cr,true))],none,none,none,false,false,false,none,false,⟨.lcode,none,false,.lblank⟩⟩] .leaf) 20302188208 [⟨⟨(.inside 0),[],.lcode,false,[(3,0),(2,0)],false⟩,false,false,[some (10,(.lf,false))],none,none,none,false,false,false,none,false,⟨.lcode,none,false,.lblank⟩⟩] (.node .leaf 20303810356 [⟨⟨(.inside 0),[],.lcode,false,[(3,1),(2,1)],false⟩,false,false,[some (10,(.lf,false))],none,none,none,false,false,false,none,false,⟨.lcode,none,false,.lblank⟩⟩] .leaf))))) 20306188220 [⟨⟨(.inside 0),[],.lcode,false,[(3,0),(2,0)],false⟩,false,false,[some (12,(.ff,false))],none,none,none,false,false,false,none,false,⟨.lcode,none,false,.lblank⟩⟩] (.node (.node (.node (.node (.node (.node .leaf 20307810368 [⟨⟨(.inside 0),[],.lcode,false,[(3,1),(2,1)],false⟩,false,false,[some (12,(.ff,false))],none,none,none,false,false,false,none,false,⟨.lcode,none,false,.lblank⟩⟩] .leaf) 20308188226 [⟨⟨(.inside 0),[],.lcode,false,[(3,0),(2,0)],false⟩,false,false,[some (13,(.cr,false))],none,none,none,false,false,false,none,false,⟨.lcode,none,false,.lblank⟩⟩] .leaf) 20309188229 [⟨⟨(.inside 0),[],.lcode,false,[(3,0),(2,0)],false⟩,false,false,[some (13,(.cr,true))],none,none,none,false,false,false,none,false,⟨.lcode,none,false,.lblank⟩⟩] (.node (.node .leaf 20309810374 [⟨⟨(.inside 0),[],.lcode,false,[(3,1),(2,1)],false⟩,false,false,[some (13,(.cr,false))],none,none,none,false,false,false,none,false,⟨.lcode,none,false,.lblank⟩⟩] .leaf) 20310810377 [⟨⟨(.inside 0),[],.lcode,false,[(3,1),(2,1)],false⟩,false,false,[some (13,(.cr,true))],none,none,none,false,false,false,none,false,⟨.lcode,none,false,.lblank⟩⟩] .leaf)) 30392798547 [⟨⟨.code,[47],.lcode,false,[(2,0),(3,0)],false⟩,false,false,[none],none,none,none,false,false,false,none,false,⟨.lcode,none,false,.lblank⟩⟩] (.node (.node (.node .leaf 30394420695 [⟨⟨.code,[47],.lcode,false,[(2,1),(3,1)],false⟩,false,false,[none],none,none,none,false,false,false,none,false,⟨.lcode,none,false,.lblank⟩⟩] .leaf) 30403981537 [⟨⟨.code,[47],.lcode,false,[(3,0),(2,0)],false⟩,false,false,[none],none,none,none,false,false,false,none,false,⟨.lcode,none,false,.lblank⟩⟩] .leaf) 30405603685 [⟨⟨.code,[47],.lcode,false,[(3,1),(2,1)],false⟩,false,false,[none],none,none,none,false,false,false,none,false,⟨.lcode,none,false,.lblank⟩⟩] (.node (.node .leaf 30411798604 [⟨⟨.code,[47],.lcode,false,[(2,0),(3,0)],false⟩,false,false,[some (9,(.ws,false))],none,none,none,false,false,false,none,false,⟨.lcode,none,false,.lblank⟩⟩] .leaf) 30413420752 [⟨⟨.code,[47],.lcode,false,[(2,1),(3,1)],false⟩,false,false,[some (9,(.ws,false))],none,none,none,false,false,false,none,false,⟨.lcode,none,false,.lblank⟩⟩] .leaf))) 30413798610 [⟨⟨.code,[47],.lcode,false,[(2,0),(3,0)],false⟩,false,false,[some (10,(.lf,false))],none,none,none,false,false,false,none,false,⟨.lcode,none,false,.lblank⟩⟩] (.node (.node (.node (.node .leaf 30415420758 [⟨⟨.code,[47],.lcode,false,[(2,1),(3,1)],false⟩,false,false,[some (10,(.lf,false))],none,none,none,false,false,false,none,false,⟨.lcode,none,false,.lblank⟩⟩] .leaf) 30417798622 [⟨⟨.code,[47],.lcode,false,[(2,0),(3,0)],false⟩,false,false,[some (12,(.ff,false))],none,none,none,false,false,false,none,false,⟨.lcode,none,false,.lblank⟩⟩] .leaf) 30419420770 [⟨⟨.code,[47],.lcode,false,[(2,1),(3,1)],false⟩,false,false,[some (12,(.ff,false))],none,none,none,false,false,false,none,false,⟨.lcode,none,false,.lblank⟩⟩] (.node (.node .leaf 30419798628 [⟨⟨.code,[47],.lcode,false,[(2,0),(3,0)],false⟩,false,false,[some (13,(.cr,false))],none,none,none,false,false,false,none,false,⟨.lcode,none,false,.lblank⟩⟩] .leaf) 30420798631 [⟨⟨.code,[47],.lcode,false,[(2,0),(3,0)],false⟩,false,false,[some (13,(.cr,true))],none,none,none,false,false,false,none,false,⟨.lcode,none,false,.lblank⟩⟩] .leaf)) 30421420776 [⟨⟨.code,[47],.lcode,false,[(2,1),(3,1)],false⟩,false,false,[some (13,(.cr,false))],none,none,none,false,false,false,none,false,⟨.lcode,none,false,.lblank⟩⟩] (.node (.node (.node .leaf 30422420779 [⟨⟨.code,[47],.lcode,false,[(2,1),(3,1)],false⟩,false,false,[some (13,(.cr,true))],none,none,none,false,false,false,none,false,⟨.lcode,none,false,.lblank⟩⟩] .leaf) 30422981594 [⟨⟨.code,[47],.lcode,false,[(3,0),(2,0)],false⟩,false,false,[some (9,(.ws,false))],none,none,none,false,false,false,none,false,⟨.lcode,none,false,.lblank⟩⟩] .leaf) 30424603742 [⟨⟨.code,[47],.lcode,false,[(3,1),(2,1)],false⟩,false,false,[some (9,(.ws,false))],none,none,none,false,false,false,none,false,⟨.lcode,none,false,.lblank⟩⟩] (.node .leaf 30424981600 [⟨⟨.code,[47],.lcode,false,[(3,0),(2,0)],false⟩,false,false,[some (10,(.lf,false))],none,none,none,false,false,false,none,false,⟨.lcode,none,false,.lblank⟩⟩] .leaf)))) 30426603748 [⟨⟨.code,[47],.lcode,false,[(3,1),(2,1)],false⟩,false,false,[some (10,(.lf,false))],none,none,none,false,false,false,none,false,⟨.lcode,none,false,.lblank⟩⟩] (.node (.node (.node (.node (.node .leaf 30428981612 [⟨⟨.code,[47],.lcode,false,[(3,0),(2,0)],false⟩,false,false,[some (12,(.ff,false))],none,none,none,false,false,false,none,false,⟨.lcode,none,false,.lblank⟩⟩] .leaf) 30430603760 [⟨⟨.code,[47],.lcode,false,[(3,1),(2,1)],false⟩,false,false,[some (12,(.ff,false))],none,none,none,false,false,false,none,false,⟨.lcode,none,false,.lblank⟩⟩] .leaf) 30430981618 [⟨⟨.code,[47],.lcode,false,[(3,0),(2,0)],false⟩,false,false,[some (13,(.cr,false))],none,none,none,false,false,false,none,false,⟨.lcode,none,false,.lblank⟩⟩] (.node (.node .leaf 30431981621 [⟨⟨.code,[47],.lcode,false,[(3,0),(2,0)],false⟩,false,false,[some (13,(.cr,true))],none,none,none,false,false,false,none,false,⟨.lcode,none,false,.lblank⟩⟩] .leaf) 30432603766 [⟨⟨.code,[47],.lcode,false,[(3,1),(2,1)],false⟩,false,false,[some (13,(.cr,false))],none,none,none,false,false,false,none,false,⟨.lcode,none,false,.lblank⟩⟩] .leaf)) 30433603769 [⟨⟨.code,[47],.lcode,false,[(3,1),(2,1)],false⟩,false,false,[some (13,(.cr,true))],none,none,none,false,false,false,none,false,⟨.lcode,none,false,.lblank⟩⟩] (.node (.node (.node .leaf 30467798772 [⟨⟨.code,[47],.lcode,false,[(2,0),(3,0)],false⟩,false,false,[some (37,(.other,false))],none,none,none,false,false,false,none,false,⟨.lcode,none,false,.lblank⟩⟩] .leaf) 30469420920 [⟨⟨.code,[47],.lcode,false,[(2,1),(3,1)],false⟩,false,false,[some (37,(.other,false))],none,none,none,false,false,false,none,false,⟨.lcode,none,false,.lblank⟩⟩] .leaf) 30478981762 [⟨⟨.code,[47],.lcode,false,[(3,0),(2,0)],false⟩,false,false,[some (37,(.other,false))],none,none,none,false,false,false,none,false,⟨.lcode,none,false,.lblank⟩⟩] (.node (.node .leaf 30480603910 [⟨⟨.code,[47],.lcode,false,[(3,1),(2,1)],false⟩,false,false,[some (37,(.other,false))],none,none,none,false,false,false,none,false,⟨.lcode,none,false,.lblank⟩⟩] .leaf) 30487798832 [⟨⟨.code,[47],.lcode,false,[(2,0),(3,0)],false⟩,false,false,[some (47,(.other,false))],none,none,none,false,false,false,none,false,⟨.lcode,none,false,.lblank⟩⟩] .leaf))) 30489420980 [⟨⟨.code,[47],.lcode,false,[(2,1),(3,1)],false⟩,false,false,[some (47,(.other,false))],none,none,none,false,false,false,none,false,⟨.lcode,none,false,.lblank⟩⟩] (.node (.node (.node (.node .leaf 30498981822 [⟨⟨.code,[47],.lcode,false,[(3,0),(2,0)],false⟩,false,false,[some (47,(.other,false))],none,none,none,false,false,false,none,false,⟨.lcode,none,false,.lblank⟩⟩] .leaf) 30500603970 [⟨⟨.code,[47],.lcode,false,[(3,1),(2,1)],false⟩,false,false,[some (47,(.other,false))],none,none,none,false,false,false,none,false,⟨.lcode,none,false,.lblank⟩⟩] .leaf) 30577799102 [⟨⟨.code,[47],.lcode,false,[(2,0),(3,0)],false⟩,false,false,[some (92,(.other,false))],none,none,none,false,false,false,none,false,⟨.lcode,none,false,.lblank⟩⟩] (.node (.node .leaf 30579421250 [⟨⟨.code,[47],.lcode,false,[(2,1),(3,1)],false⟩,false,false,[some (92,(.other,false))],none,none,none,false,false,false,none,false,⟨.lcode,none,false,.lblank⟩⟩] .leaf) 30588982092 [⟨⟨.code,[47],.lcode,false,[(3,0),(2,0)],false⟩,false,false,[some (92,(.other,false))],none,none,none,false,false,false,none,false,⟨.lcode,none,false,.lblank⟩⟩] .leaf)) 30590604240 [⟨⟨.code,[47],.lcode,false,[(3,1),(2,1)],false⟩,false,false,[some (92,(.other,false))],none,none,none,false,false,false,none,false,⟨.lcode,none,false,.lblank⟩⟩] (.node (.node (.node .leaf 30905800086 [⟨⟨.code,[47],.lcode,false,[(2,0),(3,0)],false⟩,false,false,[some (256,(.other,false))],none,none,none,false,false,false,none,false,⟨.lcode,none,false,.lblank⟩⟩] .leaf) 30907422234 [⟨⟨.code,[47],.lcode,false,[(2,1),(3,1)],false⟩,false,false,[some (256,(.other,false))],none,none,none,false,false,false,none,false,⟨.lcode,none,false,.lblank⟩⟩] .leaf) 30916983076 [⟨⟨.code,[47],.lcode,false,[(3,0),(2,0)],false⟩,false,false,[some (256,(.other,false))],none,none,none,false,false,false,none,false,⟨.lcode,none,false,.lblank⟩⟩] (.node .leaf 30918605224 [⟨⟨.code,[47],.lcode,false,[(3,1),(2,1)],false⟩,false,false,[some (256,(.other,false))],none,none,none,false,false,false,none,false,⟨.lcode,none,false,.lblank⟩⟩] .leaf))))))),(.node (.node (.node .leaf 128 [⟨⟨.code,[],.lcode,false,[],false⟩,false,false,[],none,none,none,false,false,false,none,false,⟨.lcode,some (.own 0),false,.lblank⟩⟩] .leaf) 148108 [⟨⟨.code,[],.lcomment,false,[],false⟩,false,false,[],none,none,none,false,false,false,none,false,⟨.lcomment,some (.own 0),false,.lblank⟩⟩] (.node .leaf 184463 [⟨⟨.code,[],.lcode,false,[(2,0)],false⟩,false,false,[],none,none,none,false,false,false,none,false,⟨.lcode,some (.own 0),false,.lblank⟩⟩] .leaf)) 270486 [⟨⟨.code,[],.lcode,false,[(3,0)],false⟩,false,false,[],none,none,none,false,false,false,none,false,⟨.lcode,some (.own 0),false,.lblank⟩⟩] (.node (.node .leaf 296088 [⟨⟨.code,[],.lblank,false,[],false⟩,false,false,[],none,none,none,false,false,false,none,false,⟨.lblank,some (.own 0),false,.lblank⟩⟩] .leaf) 24418371 [⟨⟨.code,[],.lcode,false,[(2,0),(3,0)],false⟩,false,false,[],none,none,none,false,false,false,none,false,⟨.lcode,some (.own 0),false,.lblank⟩⟩] (.node .leaf 35601361 [⟨⟨.code,[],.lcode,false,[(3,0),(2,0)],false⟩,false,false,[],none,none,none,false,false,false,none,false,⟨.lcode,some (.own 0),false,.lblank⟩⟩] .leaf))),(.node (.node .leaf 160 [⟨⟨.code,[],.lcode,false,[],false⟩,true,false,[],none,none,none,false,false,false,none,false,⟨.lcode,some .newline,false,.lblank⟩⟩] .leaf) 148140 [⟨⟨.code,[],.lcomment,false,[],false⟩,true,false,[],none,none,none,false,false,false,none,false,⟨.lcomment,some .newline,false,.lblank⟩⟩] (.node .leaf 296120 [⟨⟨.code,[],.lblank,false,[],false⟩,true,false,[],none,none,none,false,false,false,none,false,⟨.lblank,some .newline,false,.lblank⟩⟩] .leaf)),(.node (.node .leaf 37011 [⟨⟨.code,[],.lcode,true,[],false⟩,false,true,[],none,none,none,false,false,false,none,false,⟨.lcode,some .newline,false,.lblank⟩⟩] .leaf) 184991 [⟨⟨.code,[],.lcomment,true,[],false⟩,false,true,[],none,none,none,false,false,false,none,false,⟨.lcomment,some .newline,false,.lblank⟩⟩] (.node .leaf 332971 [⟨⟨.code,[],.lblank,true,[],false⟩,false,true,[],none,none,none,false,false,false,none,false,⟨.lblank,some .newline,false,.lblank⟩⟩] .leaf)),(.node (.node (.node (.node .leaf 270486 [⟨⟨.code,[],.lcode,false,[(3,0)],false⟩,false,false,[],none,none,none,false,false,false,none,false,⟨.lcode,some (.own 3),false,.lblank⟩⟩] .leaf) 270490 [⟨⟨.code,[],.lcode,false,[(3,0)],false⟩,false,false,[],none,none,none,false,true,false,none,false,⟨.lcode,some (.own 3),false,.lblank⟩⟩] .leaf) 10027952 [⟨⟨(.inside 3),[],.lcode,false,[],false⟩,false,false,[],none,none,none,false,false,false,none,false,⟨.lcode,some (.own 3),false,.lblank⟩⟩] (.node (.node .leaf 24418371 [⟨⟨.code,[],.lcode,false,[(2,0),(3,0)],false⟩,false,false,[],none,none,none,false,false,false,none,false,⟨.lcode,some (.own 3),false,.lblank⟩⟩] .leaf) 35601361 [⟨⟨.code,[],.lcode,false,[(3,0),(2,0)],false⟩,false,false,[],none,none,none,false,false,false,none,false,⟨.lcode,some (.own 3),false,.lblank⟩⟩] .leaf)) 35601365 [⟨⟨.code,[],.lcode,false,[(3,0),(2,0)],false⟩,false,false,[],none,none,none,false,true,false,none,false,⟨.lcode,some (.own 3),false,.lblank⟩⟩] (.node (.node (.node .leaf 1313829407 [⟨⟨(.inside 3),[],.lcode,false,[(2,0)],false⟩,false,false,[],none,none,none,false,false,false,none,false,⟨.lcode,some (.own 3),false,.lblank⟩⟩] .leaf) 1313915430 [⟨⟨(.inside 3),[],.lcode,false,[(3,0)],false⟩,false,false,[],none,none,none,false,false,false,none,false,⟨.lcode,some (.own 3),false,.lblank⟩⟩] .leaf) 172111906035 [⟨⟨(.inside 3),[],.lcode,false,[(2,0),(3,0)],false⟩,false,false,[],none,none,none,false,false,false,none,false,⟨.lcode,some (.own 3),false,.lblank⟩⟩] (.node .leaf 172123089025 [⟨⟨(.inside 3),[],.lcode,false,[(3,0),(2,0)],false⟩,false,false,[],none,none,none,false,false,false,none,false,⟨.lcode,some (.own 3),false,.lblank⟩⟩] .leaf))),(.node (.node (.node .leaf 1179872 [⟨⟨(.inside 0),[],.lcode,false,[],false⟩,false,false,[],none,none,none,false,false,false,none,false,⟨.lcode,some (.own 3),false,.lblank⟩⟩] .leaf) 1327852 [⟨⟨(.inside 0),[],.lcomment,false,[],false⟩,false,false,[],none,none,none,false,false,false,none,false,⟨.lcomment,some (.own 3),false,.lblank⟩⟩] (.node .leaf 154730927 [⟨⟨(.inside 0),[],.lcode,false,[(2,0)],false⟩,false,false,[],none,none,none,false,false,false,none,false,⟨.lcode,some (.own 3),false,.lblank⟩⟩] .leaf)) 154816950 [⟨⟨(.inside 0),[],.lcode,false,[(3,0)],false⟩,false,false,[],none,none,none,false,false,false,none,false,⟨.lcode,some (.own 3),false,.lblank⟩⟩] (.node (.node .leaf 20270005155 [⟨⟨(.inside 0),[],.lcode,false,[(2,0),(3,0)],false⟩,false,false,[],none,none,none,false,false,false,none,false,⟨.lcode,some (.own 3),false,.lblank⟩⟩] .leaf) 20281188145 [⟨⟨(.inside 0),[],.lcode,false,[(3,0),(2,0)],false⟩,false,false,[],none,none,none,false,false,false,none,false,⟨.lcode,some (.own 3),false,.lblank⟩⟩] .leaf)),(.node (.node (.node (.node .leaf 184463 [⟨⟨.code,[],.lcode,false,[(2,0)],false⟩,false,false,[],none,none,none,false,false,false,none,false,⟨.lcode,some (.own 3),false,.lblank⟩⟩] .leaf) 184467 [⟨⟨.code,[],.lcode,false,[(2,0)],false⟩,false,false,[],none,none,none,false,true,false,none,false,⟨.lcode,some (.own 3),false,.lblank⟩⟩] .leaf) 7078592 [⟨⟨(.inside 2),[],.lcode,false,[],false⟩,false,false,[],none,none,none,false,false,false,none,false,⟨.lcode,some (.own 3),false,.lblank⟩⟩] (.node (.node .leaf 24418371 [⟨⟨.code,[],.lcode,false,[(2,0),(3,0)],false⟩,false,false,[],none,none,none,false,false,false,none,false,⟨.lcode,some (.own 3),false,.lblank⟩⟩] .leaf) 24418375 [⟨⟨.code,[],.lcode,false,[(2,0),(3,0)],false⟩,false,false,[],none,none,none,false,true,false,none,false,⟨.lcode,some (.own 3),false,.lblank⟩⟩] .leaf)) 35601361 [⟨⟨.code,[],.lcode,false,[(3,0),(2,0)],false⟩,false,false,[],none,none,none,false,false,false,none,false,⟨.lcode,some (.own 3),false,.lblank⟩⟩] (.node (.node (.node .leaf 927463247 [⟨⟨(.inside 2),[],.lcode,false,[(2,0)],false⟩,false,false,[],none,none,none,false,false,false,none,false,⟨.lcode,some (.own 3),false,.lblank⟩⟩] .leaf) 927549270 [⟨⟨(.inside 2),[],.lcode,false,[(3,0)],false⟩,false,false,[],none,none,none,false,false,false,none,false,⟨.lcode,some (.own 3),false,.lblank⟩⟩] .leaf) 121497939075 [⟨⟨(.inside 2),[],.lcode,false,[(2,0),(3,0)],false⟩,false,false,[],none,none,none,false,false,false,none,false,⟨.lcode,some (.own 3),false,.lblank⟩⟩] (.node .leaf 121509122065 [⟨⟨(.inside 2),[],.lcode,false,[(3,0),(2,0)],false⟩,false,false,[],none,none,none,false,false,false,none,false,⟨.lcode,some (.own 3),false,.lblank⟩⟩] .leaf))),(.node (.node (.node (.node (.node .leaf 1769744 [⟨⟨.code,[47],.lcode,false,[],false⟩,false,false,[],none,none,none,false,false,false,none,false,⟨.lcode,some (.own 3),false,.lblank⟩⟩] .leaf) 1769746 [⟨⟨.code,[47],.lcode,false,[],false⟩,false,false,[],none,none,none,false,false,true,none,false,⟨.lcode,some (.own 3),false,.lblank⟩⟩] .leaf) 21088566 [⟨⟨.code,[47],.lcomment,false,[],false⟩,false,false,[],none,none,none,false,false,true,none,false,⟨.lcomment,some (.own 3),false,.lblank⟩⟩] (.node .leaf 40407386 [⟨⟨.code,[47],.lblank,false,[],false⟩,false,false,[],none,none,none,false,false,true,none,false,⟨.lblank,some (.own 3),false,.lblank⟩⟩] .leaf)) 232004159 [⟨⟨.code,[47],.lcode,false,[(2,0)],false⟩,false,false,[],none,none,none,false,false,false,none,false,⟨.lcode,some (.own 3),false,.lblank⟩⟩] (.node (.node .leaf 232004161 [⟨⟨.code,[47],.lcode,false,[(2,0)],false⟩,false,false,[],none,none,none,false,false,true,none,false,⟨.lcode,some (.own 3),false,.lblank⟩⟩] .leaf) 232016450 [⟨⟨.code,[47],.lcode,false,[(2,1)],false⟩,false,false,[],none,none,none,false,false,true,none,false,⟨.lcode,some (.own 3),false,.lblank⟩⟩] (.node .leaf 232090182 [⟨⟨.code,[47],.lcode,false,[(3,0)],false⟩,false,false,[],none,none,none,false,false,false,none,false,⟨.lcode,some (.own 3),false,.lblank⟩⟩] .leaf))) 232090184 [⟨⟨.code,[47],.lcode,false,[(3,0)],false⟩,false,false,[],none,none,none,false,false,true,none,false,⟨.lcode,some (.own 3),false,.lblank⟩⟩] (.node (.node (.node .leaf 232102473 [⟨⟨.code,[47],.lcode,false,[(3,1)],false⟩,false,false,[],none,none,none,false,false,true,none,false,⟨.lcode,some (.own 3),false,.lblank⟩⟩] .leaf) 30392798547 [⟨⟨.code,[47],.lcode,false,[(2,0),(3,0)],false⟩,false,false,[],none,none,none,false,false,false,none,false,⟨.lcode,some (.own 3),false,.lblank⟩⟩] (.node .leaf 30392798549 [⟨⟨.code,[47],.lcode,false,[(2,0),(3,0)],false⟩,false,false,[],none,none,none,false,false,true,none,false,⟨.lcode,some (.own 3),false,.lblank⟩⟩] .leaf)) 30394420697 [⟨⟨.code,[47],.lcode,false,[(2,1),(3,1)],false⟩,false,false,[],none,none,none,false,false,true,none,false,⟨.lcode,some (.own 3),false,.lblank⟩⟩] (.node (.node .leaf 30403981537 [⟨⟨.code,[47],.lcode,false,[(3,0),(2,0)],false⟩,false,false,[],none,none,none,false,false,false,none,false,⟨.lcode,some (.own 3),false,.lblank⟩⟩] .leaf) 30403981539 [⟨⟨.code,[47],.lcode,false,[(3,0),(2,0)],false⟩,false,false,[],none,none,none,false,false,true,none,false,⟨.lcode,some (.own 3),false,.lblank⟩⟩] (.node .leaf 30405603687 [⟨⟨.code,[47],.lcode,false,[(3,1),(2,1)],false⟩,false,false,[],none,none,none,false,false,true,none,false,⟨.lcode,some (.own 3),false,.lblank⟩⟩] .leaf)))),(.node (.node (.node (.node (.node (.node .leaf 287889 [⟨⟨.code,[],.lcode,false,[(3,0)],false⟩,false,false,[],some 4,some ⟨.code,[],.lcode,false,[(3,0)],false⟩,none,false,false,false,none,false,⟨.lcode,some (.own 3),false,.lblank⟩⟩] .leaf) 10655941 [⟨⟨(.inside 3),[],.lcode,false,[],false⟩,false,false,[],some 4,some ⟨(.inside 3),[],.lcode,false,[],false⟩,none,false,false,false,none,false,⟨.lcode,some (.own 3),false,.lblank⟩⟩] .leaf) 24435774 [⟨⟨.code,[],.lcode,false,[(2,0),(3,0)],false⟩,false,false,[],some 4,some ⟨.code,[],.lcode,false,[(3,0)],false⟩,none,false,false,false,none,false,⟨.lcode,some (.own 3),false,.lblank⟩⟩] (.node .leaf 25946859 [⟨⟨.code,[],.lcode,false,[(2,0),(3,0)],false⟩,false,false,[],some 4,some ⟨.code,[],.lcode,false,[(2,0),(3,0)],false⟩,none,false,false,false,none,false,⟨.lcode,some (.own 3),false,.lblank⟩⟩] .leaf)) 37829639 [⟨⟨.code,[],.lcode,false,[(3,0),(2,0)],false⟩,false,false,[],some 4,some ⟨.code,[],.lcode,false,[(3,0),(2,0)],false⟩,none,false,false,false,none,false,⟨.lcode,some (.own 3),false,.lblank⟩⟩] (.node (.node (.node .leaf 48583663 [⟨⟨.code,[],.lblank,false,[(3,0)],true⟩,false,false,[],some 4,some ⟨.code,[],.lcode,false,[(3,0)],false⟩,none,false,true,false,none,false,⟨.lcode,some (.own 3),false,.lblank⟩⟩] .leaf) 154834353 [⟨⟨(.inside 0),[],.lcode,false,[(3,0)],false⟩,false,false,[],some 4,some ⟨.code,[],.lcode,false,[(3,0)],false⟩,none,false,false,false,none,false,⟨.lcode,some (.own 3),false,.lblank⟩⟩] .leaf) 232107585 [⟨⟨.code,[47],.lcode,false,[(3,0)],false⟩,false,false,[],some 4,some ⟨.code,[],.lcode,false,[(3,0)],false⟩,none,false,false,false,none,false,⟨.lcode,some (.own 3),false,.lblank⟩⟩] (.node .leaf 541200513 [⟨⟨(.inside 1),[],.lcode,false,[(3,0)],false⟩,false,false,[],some 4,some ⟨.code,[],.lcode,false,[(3,0)],false⟩,none,false,false,false,none,false,⟨.lcode,some (.own 3),false,.lblank⟩⟩] .leaf))) 927566673 [⟨⟨(.inside 2),[],.lcode,false,[(3,0)],false⟩,false,false,[],some 4,some ⟨.code,[],.lcode,false,[(3,0)],false⟩,none,false,false,false,none,false,⟨.lcode,some (.own 3),false,.lblank⟩⟩] (.node (.node (.node (.node .leaf 1313932833 [⟨⟨(.inside 3),[],.lcode,false,[(3,0)],false⟩,false,false,[],some 4,some ⟨.code,[],.lcode,false,[(3,0)],false⟩,none,false,false,false,none,false,⟨.lcode,some (.own 3),false,.lblank⟩⟩] .leaf) 1396044451 [⟨⟨(.inside 3),[],.lcode,false,[(2,0)],false⟩,false,false,[],some 4,some ⟨(.inside 3),[],.lcode,false,[(2,0)],false⟩,none,false,false,false,none,false,⟨.lcode,some (.own 3),false,.lblank⟩⟩] .leaf) 1396135857 [⟨⟨(.inside 3),[],.lcode,false,[(3,0)],false⟩,false,false,[],some 4,some ⟨(.inside 3),[],.lcode,false,[(3,0)],false⟩,none,false,false,false,none,false,⟨.lcode,some (.own 3),false,.lblank⟩⟩] (.node .leaf 6351181648 [⟨⟨.code,[],.lblank,false,[(2,0),(3,0)],true⟩,false,false,[],some 4,some ⟨.code,[],.lcode,false,[(3,0)],false⟩,none,false,true,false,none,false,⟨.lcode,some (.own 3),false,.lblank⟩⟩] .leaf)) 6364575513 [⟨⟨.code,[],.lblank,false,[(3,0),(2,0)],true⟩,false,false,[],some 4,some ⟨.code,[],.lcode,false,[(3,0),(2,0)],false⟩,none,false,true,false,none,false,⟨.lcode,some (.own 3),false,.lblank⟩⟩] (.node (.node .leaf 20270022558 [⟨⟨(.inside 0),[],.lcode,false,[(2,0),(3,0)],false⟩,false,false,[],some 4,some ⟨.code,[],.lcode,false,[(3,0)],false⟩,none,false,false,false,none,false,⟨.lcode,some (.own 3),false,.lblank⟩⟩] .leaf) 20271533643 [⟨⟨(.inside 0),[],.lcode,false,[(2,0),(3,0)],false⟩,false,false,[],some 4,some ⟨.code,[],.lcode,false,[(2,0),(3,0)],false⟩,none,false,false,false,none,false,⟨.lcode,some (.own 3),false,.lblank⟩⟩] (.node .leaf 20283416423 [⟨⟨(.inside 0),[],.lcode,false,[(3,0),(2,0)],false⟩,false,false,[],some 4,some ⟨.code,[],.lcode,false,[(3,0),(2,0)],false⟩,none,false,false,false,none,false,⟨.lcode,some (.own 3),false,.lblank⟩⟩] .leaf)))) 30392815950 [⟨⟨.code,[47],.lcode,false,[(2,0),(3,0)],false⟩,false,false,[],some 4,some ⟨.code,[],.lcode,false,[(3,0)],false⟩,none,false,false,false,none,false,⟨.lcode,some (.own 3),false,.lblank⟩⟩] (.node (.node (.node (.node (.node .leaf 30394327035 [⟨⟨.code,[47],.lcode,false,[(2,0),(3,0)],false⟩,false,false,[],some 4,some ⟨.code,[],.lcode,false,[(2,0),(3,0)],false⟩,none,false,false,false,none,false,⟨.lcode,some (.own 3),false,.lblank⟩⟩] .leaf) 30406209815 [⟨⟨.code,[47],.lcode,false,[(3,0),(2,0)],false⟩,false,false,[],some 4,some ⟨.code,[],.lcode,false,[(3,0),(2,0)],false⟩,none,false,false,false,none,false,⟨.lcode,some (.own 3),false,.lblank⟩⟩] .leaf) 70883989518 [⟨⟨(.inside 1),[],.lcode,false,[(2,0),(3,0)],false⟩,false,false,[],some 4,some ⟨.code,[],.lcode,false,[(3,0)],false⟩,none,false,false,false,none,false,⟨.lcode,some (.own 3),false,.lblank⟩⟩] (.node .leaf 70885500603 [⟨⟨(.inside 1),[],.lcode,false,[(2,0),(3,0)],false⟩,false,false,[],some 4,some ⟨.code,[],.lcode,false,[(2,0),(3,0)],false⟩,none,false,false,false,none,false,⟨.lcode,some (.own 3),false,.lblank⟩⟩] .leaf)) 70897383383 [⟨⟨(.inside 1),[],.lcode,false,[(3,0),(2,0)],false⟩,false,false,[],some 4,some ⟨.code,[],.lcode,false,[(3,0),(2,0)],false⟩,none,false,false,false,none,false,⟨.lcode,some (.own 3),false,.lblank⟩⟩] (.node (.node .leaf 71067513444 [⟨⟨(.inside 1),[42],.lcode,false,[(3,0)],false⟩,false,false,[],some 4,some ⟨.code,[],.lcode,false,[(3,0)],false⟩,none,false,false,false,none,false,⟨.lcode,some (.own 3),false,.lblank⟩⟩] .leaf) 121497956478 [⟨⟨(.inside 2),[],.lcode,false,[(2,0),(3,0)],false⟩,false,false,[],some 4,some ⟨.code,[],.lcode,false,[(3,0)],false⟩,none,false,false,false,none,false,⟨.lcode,some (.own 3),false,.lblank⟩⟩] (.node .leaf 121499467563 [⟨⟨(.inside 2),[],.lcode,false,[(2,0),(3,0)],false⟩,false,false,[],some 4,some ⟨.code,[],.lcode,false,[(2,0),(3,0)],false⟩,none,false,false,false,none,false,⟨.lcode,some (.own 3),false,.lblank⟩⟩] .leaf))) 121511350343 [⟨⟨(.inside 2),[],.lcode,false,[(3,0),(2,0)],false⟩,false,false,[],some 4,some ⟨.code,[],.lcode,false,[(3,0),(2,0)],false⟩,none,false,false,false,none,false,⟨.lcode,some (.own 3),false,.lblank⟩⟩] (.node (.node (.node (.node .leaf 172111923438 [⟨⟨(.inside 3),[],.lcode,false,[(2,0),(3,0)],false⟩,false,false,[],some 4,some ⟨.code,[],.lcode,false,[(3,0)],false⟩,none,false,false,false,none,false,⟨.lcode,some (.own 3),false,.lblank⟩⟩] .leaf) 172113434523 [⟨⟨(.inside 3),[],.lcode,false,[(2,0),(3,0)],false⟩,false,false,[],some 4,some ⟨.code,[],.lcode,false,[(2,0),(3,0)],false⟩,none,false,false,false,none,false,⟨.lcode,some (.own 3),false,.lblank⟩⟩] .leaf) 172125317303 [⟨⟨(.inside 3),[],.lcode,false,[(3,0),(2,0)],false⟩,false,false,[],some 4,some ⟨.code,[],.lcode,false,[(3,0),(2,0)],false⟩,none,false,false,false,none,false,⟨.lcode,some (.own 3),false,.lblank⟩⟩] (.node .leaf 182882030667 [⟨⟨(.inside 3),[],.lcode,false,[(2,0),(3,0)],false⟩,false,false,[],some 4,some ⟨(.inside 3),[],.lcode,false,[(2,0),(3,0)],false⟩,none,false,false,false,none,false,⟨.lcode,some (.own 3),false,.lblank⟩⟩] .leaf)) 182893913447 [⟨⟨(.inside 3),[],.lcode,false,[(3,0),(2,0)],false⟩,false,false,[],some 4,some ⟨(.inside 3),[],.lcode,false,[(3,0),(2,0)],false⟩,none,false,false,false,none,false,⟨.lcode,some (.own 3),false,.lblank⟩⟩] (.node (.node .leaf 9309830983479 [⟨⟨(.inside 1),[42],.lcode,false,[(2,0),(3,0)],false⟩,false,false,[],some 4,some ⟨.code,[],.lcode,false,[(3,0)],false⟩,none,false,false,false,none,false,⟨.lcode,some (.own 3),false,.lblank⟩⟩] .leaf) 9309832494564 [⟨⟨(.inside 1),[42],.lcode,false,[(2,0),(3,0)],false⟩,false,false,[],some 4,some ⟨.code,[],.lcode,false,[(2,0),(3,0)],false⟩,none,false,false,false,none,false,⟨.lcode,some (.own 3),false,.lblank⟩⟩] (.node .leaf 9309844377344 [⟨⟨(.inside 1),[42],.lcode,false,[(3,0),(2,0)],false⟩,false,false,[],some 4,some ⟨.code,[],.lcode,false,[(3,0),(2,0)],false⟩,none,false,false,false,none,false,⟨.lcode,some (.own 3),false,.lblank⟩⟩] .leaf))))),(.node (.node (.node (.node (.node .leaf 300178 [⟨⟨.code,[],.lcode,false,[(3,1)],false⟩,false,false,[],some 4,some ⟨.code,[],.lcode,false,[(3,0)],false⟩,none,false,false,false,none,false,⟨.lcode,some (.own 3),false,.lblank⟩⟩] .leaf) 26057922 [⟨⟨.code,[],.lcode,false,[(2,1),(3,1)],false⟩,false,false,[],some 4,some ⟨.code,[],.lcode,false,[(3,0)],false⟩,none,false,false,false,none,false,⟨.lcode,some (.own 3),false,.lblank⟩⟩] (.node .leaf 27569007 [⟨⟨.code,[],.lcode,false,[(2,1),(3,1)],false⟩,false,false,[],some 4,some ⟨.code,[],.lcode,false,[(2,0),(3,0)],false⟩,none,false,false,false,none,false,⟨.lcode,some (.own 3),false,.lblank⟩⟩] .leaf)) 39451787 [⟨⟨.code,[],.lcode,false,[(3,1),(2,1)],false⟩,false,false,[],some 4,some ⟨.code,[],.lcode,false,[(3,0),(2,0)],false⟩,none,false,false,false,none,false,⟨.lcode,some (.own 3),false,.lblank⟩⟩] (.node (.node .leaf 48595952 [⟨⟨.code,[],.lblank,false,[(3,1)],true⟩,false,false,[],some 4,some ⟨.code,[],.lcode,false,[(3,0)],false⟩,none,false,true,false,none,false,⟨.lcode,some (.own 3),false,.lblank⟩⟩] .leaf) 154846642 [⟨⟨(.inside 0),[],.lcode,false,[(3,1)],false⟩,false,false,[],some 4,some ⟨.code,[],.lcode,false,[(3,0)],false⟩,none,false,false,false,none,false,⟨.lcode,some (.own 3),false,.lblank⟩⟩] (.node .leaf 541212802 [⟨⟨(.inside 1),[],.lcode,false,[(3,1)],false⟩,false,false,[],some 4,some ⟨.code,[],.lcode,false,[(3,0)],false⟩,none,false,false,false,none,false,⟨.lcode,some (.own 3),false,.lblank⟩⟩] .leaf))) 1317701692 [⟨⟨(.inside 3),[92],.lcode,false,[],false⟩,false,false,[],some 4,some ⟨(.inside 3),[],.lcode,false,[],false⟩,none,false,false,false,none,false,⟨.lcode,some (.own 3),false,.lblank⟩⟩] (.node (.node (.node .leaf 6352803796 [⟨⟨.code,[],.lblank,false,[(2,1),(3,1)],true⟩,false,false,[],some 4,some ⟨.code,[],.lcode,false,[(3,0)],false⟩,none,false,true,false,none,false,⟨.lcode,some (.own 3),false,.lblank⟩⟩] .leaf) 6366197661 [⟨⟨.code,[],.lblank,false,[(3,1),(2,1)],true⟩,false,false,[],some 4,some ⟨.code,[],.lcode,false,[(3,0),(2,0)],false⟩,none,false,true,false,none,false,⟨.lcode,some (.own 3),false,.lblank⟩⟩] (.node .leaf 20271644706 [⟨⟨(.inside 0),[],.lcode,false,[(2,1),(3,1)],false⟩,false,false,[],some 4,some ⟨.code,[],.lcode,false,[(3,0)],false⟩,none,false,false,false,none,false,⟨.lcode,some (.own 3),false,.lblank⟩⟩] .leaf)) 20273155791 [⟨⟨(.inside 0),[],.lcode,false,[(2,1),(3,1)],false⟩,false,false,[],some 4,some ⟨.code,[],.lcode,false,[(2,0),(3,0)],false⟩,none,false,false,false,none,false,⟨.lcode,some (.own 3),false,.lblank⟩⟩] (.node (.node .leaf 20285038571 [⟨⟨(.inside 0),[],.lcode,false,[(3,1),(2,1)],false⟩,false,false,[],some 4,some ⟨.code,[],.lcode,false,[(3,0),(2,0)],false⟩,none,false,false,false,none,false,⟨.lcode,some (.own 3),false,.lblank⟩⟩] .leaf) 70885611666 [⟨⟨(.inside 1),[],.lcode,false,[(2,1),(3,1)],false⟩,false,false,[],some 4,some ⟨.code,[],.lcode,false,[(3,0)],false⟩,none,false,false,false,none,false,⟨.lcode,some (.own 3),false,.lblank⟩⟩] .leaf))) 70887122751 [⟨⟨(.inside 1),[],.lcode,false,[(2,1),(3,1)],false⟩,false,false,[],some 4,some ⟨.code,[],.lcode,false,[(2,0),(3,0)],false⟩,none,false,false,false,none,false,⟨.lcode,some (.own 3),false,.lblank⟩⟩] (.node (.node (.node (.node .leaf 70899005531 [⟨⟨(.inside 1),[],.lcode,false,[(3,1),(2,1)],false⟩,false,false,[],some 4,some ⟨.code,[],.lcode,false,[(3,0),(2,0)],false⟩,none,false,false,false,none,false,⟨.lcode,some (.own 3),false,.lblank⟩⟩] .leaf) 121922959254 [⟨⟨(.inside 2),[92],.lcode,false,[(3,0)],false⟩,false,false,[],some 4,some ⟨.code,[],.lcode,false,[(3,0)],false⟩,none,false,false,false,none,false,⟨.lcode,some (.own 3),false,.lblank⟩⟩] (.node .leaf 172536926214 [⟨⟨(.inside 3),[92],.lcode,false,[(3,0)],false⟩,false,false,[],some 4,some ⟨.code,[],.lcode,false,[(3,0)],false⟩,none,false,false,false,none,false,⟨.lcode,some (.own 3),false,.lblank⟩⟩] .leaf)) 172619037832 [⟨⟨(.inside 3),[92],.lcode,false,[(2,0)],false⟩,false,false,[],some 4,some ⟨(.inside 3),[],.lcode,false,[(2,0)],false⟩,none,false,false,false,none,false,⟨.lcode,some (.own 3),false,.lblank⟩⟩] (.node (.node .leaf 172619129238 [⟨⟨(.inside 3),[92],.lcode,false,[(3,0)],false⟩,false,false,[],some 4,some ⟨(.inside 3),[],.lcode,false,[(3,0)],false⟩,none,false,false,false,none,false,⟨.lcode,some (.own 3),false,.lblank⟩⟩] .leaf) 15971894384589 [⟨⟨(.inside 2),[92],.lcode,false,[(2,0),(3,0)],false⟩,false,false,[],some 4,some ⟨.code,[],.lcode,false,[(3,0)],false⟩,none,false,false,false,none,false,⟨.lcode,some (.own 3),false,.lblank⟩⟩] .leaf)) 15971895895674 [⟨⟨(.inside 2),[92],.lcode,false,[(2,0),(3,0)],false⟩,false,false,[],some 4,some ⟨.code,[],.lcode,false,[(2,0),(3,0)],false⟩,none,false,false,false,none,false,⟨.lcode,some (.own 3),false,.lblank⟩⟩] (.node (.node (.node .leaf 15971907778454 [⟨⟨(.inside 2),[92],.lcode,false,[(3,0),(2,0)],false⟩,false,false,[],some 4,some ⟨.code,[],.lcode,false,[(3,0),(2,0)],false⟩,none,false,false,false,none,false,⟨.lcode,some (.own 3),false,.lblank⟩⟩] .leaf) 22602324056349 [⟨⟨(.inside 3),[92],.lcode,false,[(2,0),(3,0)],false⟩,false,false,[],some 4,some ⟨.code,[],.lcode,false,[(3,0)],false⟩,none,false,false,false,none,false,⟨.lcode,some (.own 3),false,.lblank⟩⟩] (.node .leaf 22602325567434 [⟨⟨(.inside 3),[92],.lcode,false,[(2,0),(3,0)],false⟩,false,false,[],some 4,some ⟨.code,[],.lcode,false,[(2,0),(3,0)],false⟩,none,false,false,false,none,false,⟨.lcode,some (.own 3),false,.lblank⟩⟩] .leaf)) 22602337450214 [⟨⟨(.inside 3),[92],.lcode,false,[(3,0),(2,0)],false⟩,false,false,[],some 4,some ⟨.code,[],.lcode,false,[(3,0),(2,0)],false⟩,none,false,false,false,none,false,⟨.lcode,some (.own 3),false,.lblank⟩⟩] (.node (.node .leaf 22613094163578 [⟨⟨(.inside 3),[92],.lcode,false,[(2,0),(3,0)],false⟩,false,false,[],some 4,some ⟨(.inside 3),[],.lcode,false,[(2,0),(3,0)],false⟩,none,false,false,false,none,false,⟨.lcode,some (.own 3),false,.lblank⟩⟩] .leaf) 22613106046358 [⟨⟨(.inside 3),[92],.lcode,false,[(3,0),(2,0)],false⟩,false,false,[],some 4,some ⟨(.inside 3),[],.lcode,false,[(3,0),(2,0)],false⟩,none,false,false,false,none,false,⟨.lcode,some (.own 3),false,.lblank⟩⟩] .leaf)))),(.node (.node (.node (.node .leaf 1179872 [⟨⟨(.inside 0),[],.lcode,false,[],false⟩,false,false,[],none,none,none,false,false,false,none,false,⟨.lcode,some (.own 3),false,.lblank⟩⟩] .leaf) 1327852 [⟨⟨(.inside 0),[],.lcomment,false,[],false⟩,false,false,[],none,none,none,false,false,false,none,false,⟨.lcomment,some (.own 3),false,.lblank⟩⟩] .leaf) 154730927 [⟨⟨(.inside 0),[],.lcode,false,[(2,0)],false⟩,false,false,[],none,none,none,false,false,false,none,false,⟨.lcode,some (.own 3),false,.lblank⟩⟩] (.node (.node .leaf 154743216 [⟨⟨(.inside 0),[],.lcode,false,[(2,1)],false⟩,false,false,[],none,none,none,false,false,false,none,false,⟨.lcode,some (.own 3),false,.lblank⟩⟩] .leaf) 154816950 [⟨⟨(.inside 0),[],.lcode,false,[(3,0)],false⟩,false,false,[],none,none,none,false,false,false,none,false,⟨.lcode,some (.own 3),false,.lblank⟩⟩] .leaf)) 154829239 [⟨⟨(.inside 0),[],.lcode,false,[(3,1)],false⟩,false,false,[],none,none,none,false,false,false,none,false,⟨.lcode,some (.own 3),false,.lblank⟩⟩] (.node (.node (.node .leaf 20270005155 [⟨⟨(.inside 0),[],.lcode,false,[(2,0),(3,0)],false⟩,false,false,[],none,none,none,false,false,false,none,false,⟨.lcode,some (.own 3),false,.lblank⟩⟩] .leaf) 20271627303 [⟨⟨(.inside 0),[],.lcode,false,[(2,1),(3,1)],false⟩,false,false,[],none,none,none,false,false,false,none,false,⟨.lcode,some (.own 3),false,.lblank⟩⟩] .leaf) 20281188145 [⟨⟨(.inside 0),[],.lcode,false,[(3,0),(2,0)],false⟩,false,false,[],none,none,none,false,false,false,none,false,⟨.lcode,some (.own 3),false,.lblank⟩⟩] (.node .leaf 20282810293 [⟨⟨(.inside 0),[],.lcode,false,[(3,1),(2,1)],false⟩,false,false,[],none,none,none,false,false,false,none,false,⟨.lcode,some (.own 3),false,.lblank⟩⟩] .leaf))),(.node (.node (.node (.node (.node (.node .leaf 196483 [⟨⟨.code,[],.lcode,false,[(2,0)],false⟩,false,false,[],some 4,some ⟨.code,[],.lcode,false,[(2,0)],false⟩,none,false,false,false,none,false,⟨.lcode,some (.own 3),false,.lblank⟩⟩] .leaf) 7522021 [⟨⟨(.inside 2),[],.lcode,false,[],false⟩,false,false,[],some 4,some ⟨(.inside 2),[],.lcode,false,[],false⟩,none,false,false,false,none,false,⟨.lcode,some (.own 3),false,.lblank⟩⟩] .leaf) 25946859 [⟨⟨.code,[],.lcode,false,[(2,0),(3,0)],false⟩,false,false,[],some 4,some ⟨.code,[],.lcode,false,[(2,0),(3,0)],false⟩,none,false,false,false,none,false,⟨.lcode,some (.own 3),false,.lblank⟩⟩] (.node .leaf 35613381 [⟨⟨.code,[],.lcode,false,[(3,0),(2,0)],false⟩,false,false,[],some 4,some ⟨.code,[],.lcode,false,[(2,0)],false⟩,none,false,false,false,none,false,⟨.lcode,some (.own 3),false,.lblank⟩⟩] .leaf)) 37829639 [⟨⟨.code,[],.lcode,false,[(3,0),(2,0)],false⟩,false,false,[],some 4,some ⟨.code,[],.lcode,false,[(3,0),(2,0)],false⟩,none,false,false,false,none,false,⟨.lcode,some (.own 3),false,.lblank⟩⟩] (.node (.node (.node .leaf 48492257 [⟨⟨.code,[],.lblank,false,[(2,0)],true⟩,false,false,[],some 4,some ⟨.code,[],.lcode,false,[(2,0)],false⟩,none,false,true,false,none,false,⟨.lcode,some (.own 3),false,.lblank⟩⟩] .leaf) 154742947 [⟨⟨(.inside 0),[],.lcode,false,[(2,0)],false⟩,false,false,[],some 4,some ⟨.code,[],.lcode,false,[(2,0)],false⟩,none,false,false,false,none,false,⟨.lcode,some (.own 3),false,.lblank⟩⟩] .leaf) 232016179 [⟨⟨.code,[47],.lcode,false,[(2,0)],false⟩,false,false,[],some 4,some ⟨.code,[],.lcode,false,[(2,0)],false⟩,none,false,false,false,none,false,⟨.lcode,some (.own 3),false,.lblank⟩⟩] (.node .leaf 541109107 [⟨⟨(.inside 1),[],.lcode,false,[(2,0)],false⟩,false,false,[],some 4,some ⟨.code,[],.lcode,false,[(2,0)],false⟩,none,false,false,false,none,false,⟨.lcode,some (.own 3),false,.lblank⟩⟩] .leaf))) 927475267 [⟨⟨(.inside 2),[],.lcode,false,[(2,0)],false⟩,false,false,[],some 4,some ⟨.code,[],.lcode,false,[(2,0)],false⟩,none,false,false,false,none,false,⟨.lcode,some (.own 3),false,.lblank⟩⟩] (.node (.node (.node (.node .leaf 985500931 [⟨⟨(.inside 2),[],.lcode,false,[(2,0)],false⟩,false,false,[],some 4,some ⟨(.inside 2),[],.lcode,false,[(2,0)],false⟩,none,false,false,false,none,false,⟨.lcode,some (.own 3),false,.lblank⟩⟩] .leaf) 985592337 [⟨⟨(.inside 2),[],.lcode,false,[(3,0)],false⟩,false,false,[],some 4,some ⟨(.inside 2),[],.lcode,false,[(3,0)],false⟩,none,false,false,false,none,false,⟨.lcode,some (.own 3),false,.lblank⟩⟩] .leaf) 1313841427 [⟨⟨(.inside 3),[],.lcode,false,[(2,0)],false⟩,false,false,[],some 4,some ⟨.code,[],.lcode,false,[(2,0)],false⟩,none,false,false,false,none,false,⟨.lcode,some (.own 3),false,.lblank⟩⟩] (.node .leaf 6352692733 [⟨⟨.code,[],.lblank,false,[(2,0),(3,0)],true⟩,false,false,[],some 4,some ⟨.code,[],.lcode,false,[(2,0),(3,0)],false⟩,none,false,true,false,none,false,⟨.lcode,some (.own 3),false,.lblank⟩⟩] .leaf)) 6362359255 [⟨⟨.code,[],.lblank,false,[(3,0),(2,0)],true⟩,false,false,[],some 4,some ⟨.code,[],.lcode,false,[(2,0)],false⟩,none,false,true,false,none,false,⟨.lcode,some (.own 3),false,.lblank⟩⟩] (.node (.node .leaf 20271533643 [⟨⟨(.inside 0),[],.lcode,false,[(2,0),(3,0)],false⟩,false,false,[],some 4,some ⟨.code,[],.lcode,false,[(2,0),(3,0)],false⟩,none,false,false,false,none,false,⟨.lcode,some (.own 3),false,.lblank⟩⟩] .leaf) 20281200165 [⟨⟨(.inside 0),[],.lcode,false,[(3,0),(2,0)],false⟩,false,false,[],some 4,some ⟨.code,[],.lcode,false,[(2,0)],false⟩,none,false,false,false,none,false,⟨.lcode,some (.own 3),false,.lblank⟩⟩] (.node .leaf 20283416423 [⟨⟨(.inside 0),[],.lcode,false,[(3,0),(2,0)],false⟩,false,false,[],some 4,some ⟨.code,[],.lcode,false,[(3,0),(2,0)],false⟩,none,false,false,false,none,false,⟨.lcode,some (.own 3),false,.lblank⟩⟩] .leaf)))) 30394327035 [⟨⟨.code,[47],.lcode,false,[(2,0),(3,0)],false⟩,false,false,[],some 4,some ⟨.code,[],.lcode,false,[(2,0),(3,0)],false⟩,none,false,false,false,none,false,⟨.lcode,some (.own 3),false,.lblank⟩⟩] (.node (.node (.node (.node (.node .leaf 30403993557 [⟨⟨.code,[47],.lcode,false,[(3,0),(2,0)],false⟩,false,false,[],some 4,some ⟨.code,[],.lcode,false,[(2,0)],false⟩,none,false,false,false,none,false,⟨.lcode,some (.own 3),false,.lblank⟩⟩] .leaf) 30406209815 [⟨⟨.code,[47],.lcode,false,[(3,0),(2,0)],false⟩,false,false,[],some 4,some ⟨.code,[],.lcode,false,[(3,0),(2,0)],false⟩,none,false,false,false,none,false,⟨.lcode,some (.own 3),false,.lblank⟩⟩] .leaf) 70885500603 [⟨⟨(.inside 1),[],.lcode,false,[(2,0),(3,0)],false⟩,false,false,[],some 4,some ⟨.code,[],.lcode,false,[(2,0),(3,0)],false⟩,none,false,false,false,none,false,⟨.lcode,some (.own 3),false,.lblank⟩⟩] (.node .leaf 70895167125 [⟨⟨(.inside 1),[],.lcode,false,[(3,0),(2,0)],false⟩,false,false,[],some 4,some ⟨.code,[],.lcode,false,[(2,0)],false⟩,none,false,false,false,none,false,⟨.lcode,some (.own 3),false,.lblank⟩⟩] .leaf)) 70897383383 [⟨⟨(.inside 1),[],.lcode,false,[(3,0),(2,0)],false⟩,false,false,[],some 4,some ⟨.code,[],.lcode,false,[(3,0),(2,0)],false⟩,none,false,false,false,none,false,⟨.lcode,some (.own 3),false,.lblank⟩⟩] (.node (.node .leaf 71067422038 [⟨⟨(.inside 1),[42],.lcode,false,[(2,0)],false⟩,false,false,[],some 4,some ⟨.code,[],.lcode,false,[(2,0)],false⟩,none,false,false,false,none,false,⟨.lcode,some (.own 3),false,.lblank⟩⟩] .leaf) 121499467563 [⟨⟨(.inside 2),[],.lcode,false,[(2,0),(3,0)],false⟩,false,false,[],some 4,some ⟨.code,[],.lcode,false,[(2,0),(3,0)],false⟩,none,false,false,false,none,false,⟨.lcode,some (.own 3),false,.lblank⟩⟩] (.node .leaf 121509134085 [⟨⟨(.inside 2),[],.lcode,false,[(3,0),(2,0)],false⟩,false,false,[],some 4,some ⟨.code,[],.lcode,false,[(2,0)],false⟩,none,false,false,false,none,false,⟨.lcode,some (.own 3),false,.lblank⟩⟩] .leaf))) 121511350343 [⟨⟨(.inside 2),[],.lcode,false,[(3,0),(2,0)],false⟩,false,false,[],some 4,some ⟨.code,[],.lcode,false,[(3,0),(2,0)],false⟩,none,false,false,false,none,false,⟨.lcode,some (.own 3),false,.lblank⟩⟩] (.node (.node (.node (.node .leaf 129100829547 [⟨⟨(.inside 2),[],.lcode,false,[(2,0),(3,0)],false⟩,false,false,[],some 4,some ⟨(.inside 2),[],.lcode,false,[(2,0),(3,0)],false⟩,none,false,false,false,none,false,⟨.lcode,some (.own 3),false,.lblank⟩⟩] .leaf) 129112712327 [⟨⟨(.inside 2),[],.lcode,false,[(3,0),(2,0)],false⟩,false,false,[],some 4,some ⟨(.inside 2),[],.lcode,false,[(3,0),(2,0)],false⟩,none,false,false,false,none,false,⟨.lcode,some (.own 3),false,.lblank⟩⟩] .leaf) 172113434523 [⟨⟨(.inside 3),[],.lcode,false,[(2,0),(3,0)],false⟩,false,false,[],some 4,some ⟨.code,[],.lcode,false,[(2,0),(3,0)],false⟩,none,false,false,false,none,false,⟨.lcode,some (.own 3),false,.lblank⟩⟩] (.node .leaf 172123101045 [⟨⟨(.inside 3),[],.lcode,false,[(3,0),(2,0)],false⟩,false,false,[],some 4,some ⟨.code,[],.lcode,false,[(2,0)],false⟩,none,false,false,false,none,false,⟨.lcode,some (.own 3),false,.lblank⟩⟩] .leaf)) 172125317303 [⟨⟨(.inside 3),[],.lcode,false,[(3,0),(2,0)],false⟩,false,false,[],some 4,some ⟨.code,[],.lcode,false,[(3,0),(2,0)],false⟩,none,false,false,false,none,false,⟨.lcode,some (.own 3),false,.lblank⟩⟩] (.node (.node .leaf 9309832494564 [⟨⟨(.inside 1),[42],.lcode,false,[(2,0),(3,0)],false⟩,false,false,[],some 4,some ⟨.code,[],.lcode,false,[(2,0),(3,0)],false⟩,none,false,false,false,none,false,⟨.lcode,some (.own 3),false,.lblank⟩⟩] .leaf) 9309842161086 [⟨⟨(.inside 1),[42],.lcode,false,[(3,0),(2,0)],false⟩,false,false,[],some 4,some ⟨.code,[],.lcode,false,[(2,0)],false⟩,none,false,false,false,none,false,⟨.lcode,some (.own 3),false,.lblank⟩⟩] (.node .leaf 9309844377344 [⟨⟨(.inside 1),[42],.lcode,false,[(3,0),(2,0)],false⟩,false,false,[],some 4,some ⟨.code,[],.lcode,false,[(3,0),(2,0)],false⟩,none,false,false,false,none,false,⟨.lcode,some (.own 3),false,.lblank⟩⟩] .leaf))))),(.node (.node (.node (.node (.node .leaf 208772 [⟨⟨.code,[],.lcode,false,[(2,1)],false⟩,false,false,[],some 4,some ⟨.code,[],.lcode,false,[(2,0)],false⟩,none,false,false,false,none,false,⟨.lcode,some (.own 3),false,.lblank⟩⟩] .leaf) 27569007 [⟨⟨.code,[],.lcode,false,[(2,1),(3,1)],false⟩,false,false,[],some 4,some ⟨.code,[],.lcode,false,[(2,0),(3,0)],false⟩,none,false,false,false,none,false,⟨.lcode,some (.own 3),false,.lblank⟩⟩] (.node .leaf 37235529 [⟨⟨.code,[],.lcode,false,[(3,1),(2,1)],false⟩,false,false,[],some 4,some ⟨.code,[],.lcode,false,[(2,0)],false⟩,none,false,false,false,none,false,⟨.lcode,some (.own 3),false,.lblank⟩⟩] .leaf)) 39451787 [⟨⟨.code,[],.lcode,false,[(3,1),(2,1)],false⟩,false,false,[],some 4,some ⟨.code,[],.lcode,false,[(3,0),(2,0)],false⟩,none,false,false,false,none,false,⟨.lcode,some (.own 3),false,.lblank⟩⟩] (.node (.node .leaf 48504546 [⟨⟨.code,[],.lblank,false,[(2,1)],true⟩,false,false,[],some 4,some ⟨.code,[],.lcode,false,[(2,0)],false⟩,none,false,true,false,none,false,⟨.lcode,some (.own 3),false,.lblank⟩⟩] .leaf) 154755236 [⟨⟨(.inside 0),[],.lcode,false,[(2,1)],false⟩,false,false,[],some 4,some ⟨.code,[],.lcode,false,[(2,0)],false⟩,none,false,false,false,none,false,⟨.lcode,some (.own 3),false,.lblank⟩⟩] (.node .leaf 541121396 [⟨⟨(.inside 1),[],.lcode,false,[(2,1)],false⟩,false,false,[],some 4,some ⟨.code,[],.lcode,false,[(2,0)],false⟩,none,false,false,false,none,false,⟨.lcode,some (.own 3),false,.lblank⟩⟩] .leaf))) 931150972 [⟨⟨(.inside 2),[92],.lcode,false,[],false⟩,false,false,[],some 4,some ⟨(.inside 2),[],.lcode,false,[],false⟩,none,false,false,false,none,false,⟨.lcode,some (.own 3),false,.lblank⟩⟩] (.node (.node (.node .leaf 6354314881 [⟨⟨.code,[],.lblank,false,[(2,1),(3,1)],true⟩,false,false,[],some 4,some ⟨.code,[],.lcode,false,[(2,0),(3,0)],false⟩,none,false,true,false,none,false,⟨.lcode,some (.own 3),false,.lblank⟩⟩] .leaf) 6363981403 [⟨⟨.code,[],.lblank,false,[(3,1),(2,1)],true⟩,false,false,[],some 4,some ⟨.code,[],.lcode,false,[(2,0)],false⟩,none,false,true,false,none,false,⟨.lcode,some (.own 3),false,.lblank⟩⟩] (.node .leaf 20273155791 [⟨⟨(.inside 0),[],.lcode,false,[(2,1),(3,1)],false⟩,false,false,[],some 4,some ⟨.code,[],.lcode,false,[(2,0),(3,0)],false⟩,none,false,false,false,none,false,⟨.lcode,some (.own 3),false,.lblank⟩⟩] .leaf)) 20282822313 [⟨⟨(.inside 0),[],.lcode,false,[(3,1),(2,1)],false⟩,false,false,[],some 4,some ⟨.code,[],.lcode,false,[(2,0)],false⟩,none,false,false,false,none,false,⟨.lcode,some (.own 3),false,.lblank⟩⟩] (.node (.node .leaf 20285038571 [⟨⟨(.inside 0),[],.lcode,false,[(3,1),(2,1)],false⟩,false,false,[],some 4,some ⟨.code,[],.lcode,false,[(3,0),(2,0)],false⟩,none,false,false,false,none,false,⟨.lcode,some (.own 3),false,.lblank⟩⟩] .leaf) 70887122751 [⟨⟨(.inside 1),[],.lcode,false,[(2,1),(3,1)],false⟩,false,false,[],some 4,some ⟨.code,[],.lcode,false,[(2,0),(3,0)],false⟩,none,false,false,false,none,false,⟨.lcode,some (.own 3),false,.lblank⟩⟩] .leaf))) 70896789273 [⟨⟨(.inside 1),[],.lcode,false,[(3,1),(2,1)],false⟩,false,false,[],some 4,some ⟨.code,[],.lcode,false,[(2,0)],false⟩,none,false,false,false,none,false,⟨.lcode,some (.own 3),false,.lblank⟩⟩] (.node (.node (.node (.node .leaf 70899005531 [⟨⟨(.inside 1),[],.lcode,false,[(3,1),(2,1)],false⟩,false,false,[],some 4,some ⟨.code,[],.lcode,false,[(3,0),(2,0)],false⟩,none,false,false,false,none,false,⟨.lcode,some (.own 3),false,.lblank⟩⟩] .leaf) 121922867848 [⟨⟨(.inside 2),[92],.lcode,false,[(2,0)],false⟩,false,false,[],some 4,some ⟨.code,[],.lcode,false,[(2,0)],false⟩,none,false,false,false,none,false,⟨.lcode,some (.own 3),false,.lblank⟩⟩] (.node .leaf 121980893512 [⟨⟨(.inside 2),[92],.lcode,false,[(2,0)],false⟩,false,false,[],some 4,some ⟨(.inside 2),[],.lcode,false,[(2,0)],false⟩,none,false,false,false,none,false,⟨.lcode,some (.own 3),false,.lblank⟩⟩] .leaf)) 121980984918 [⟨⟨(.inside 2),[92],.lcode,false,[(3,0)],false⟩,false,false,[],some 4,some ⟨(.inside 2),[],.lcode,false,[(3,0)],false⟩,none,false,false,false,none,false,⟨.lcode,some (.own 3),false,.lblank⟩⟩] (.node (.node .leaf 172536834808 [⟨⟨(.inside 3),[92],.lcode,false,[(2,0)],false⟩,false,false,[],some 4,some ⟨.code,[],.lcode,false,[(2,0)],false⟩,none,false,false,false,none,false,⟨.lcode,some (.own 3),false,.lblank⟩⟩] .leaf) 15971895895674 [⟨⟨(.inside 2),[92],.lcode,false,[(2,0),(3,0)],false⟩,false,false,[],some 4,some ⟨.code,[],.lcode,false,[(2,0),(3,0)],false⟩,none,false,false,false,none,false,⟨.lcode,some (.own 3),false,.lblank⟩⟩] .leaf)) 15971905562196 [⟨⟨(.inside 2),[92],.lcode,false,[(3,0),(2,0)],false⟩,false,false,[],some 4,some ⟨.code,[],.lcode,false,[(2,0)],false⟩,none,false,false,false,none,false,⟨.lcode,some (.own 3),false,.lblank⟩⟩] (.node (.node (.node .leaf 15971907778454 [⟨⟨(.inside 2),[92],.lcode,false,[(3,0),(2,0)],false⟩,false,false,[],some 4,some ⟨.code,[],.lcode,false,[(3,0),(2,0)],false⟩,none,false,false,false,none,false,⟨.lcode,some (.own 3),false,.lblank⟩⟩] .leaf) 15979497257658 [⟨⟨(.inside 2),[92],.lcode,false,[(2,0),(3,0)],false⟩,false,false,[],some 4,some ⟨(.inside 2),[],.lcode,false,[(2,0),(3,0)],false⟩,none,false,false,false,none,false,⟨.lcode,some (.own 3),false,.lblank⟩⟩] (.node .leaf 15979509140438 [⟨⟨(.inside 2),[92],.lcode,false,[(3,0),(2,0)],false⟩,false,false,[],some 4,some ⟨(.inside 2),[],.lcode,false,[(3,0),(2,0)],false⟩,none,false,false,false,none,false,⟨.lcode,some (.own 3),false,.lblank⟩⟩] .leaf)) 22602325567434 [⟨⟨(.inside 3),[92],.lcode,false,[(2,0),(3,0)],false⟩,false,false,[],some 4,some ⟨.code,[],.lcode,false,[(2,0),(3,0)],false⟩,none,false,false,false,none,false,⟨.lcode,some (.own 3),false,.lblank⟩⟩] (.node (.node .leaf 22602335233956 [⟨⟨(.inside 3),[92],.lcode,false,[(3,0),(2,0)],false⟩,false,false,[],some 4,some ⟨.code,[],.lcode,false,[(2,0)],false⟩,none,false,false,false,none,false,⟨.lcode,some (.own 3),false,.lblank⟩⟩] .leaf) 22602337450214 [⟨⟨(.inside 3),[92],.lcode,false,[(3,0),(2,0)],false⟩,false,false,[],some 4,some ⟨.code,[],.lcode,false,[(3,0),(2,0)],false⟩,none,false,false,false,none,false,⟨.lcode,some (.own 3),false,.lblank⟩⟩] .leaf)))),(.node (.node (.node (.node .leaf 610242271 [⟨⟨(.inside 1),[],.lcode,false,[],false⟩,false,false,[],some 4,some ⟨.code,[47],.lcode,false,[],false⟩,some ([(42,(.other,false))],false),false,false,false,none,false,⟨.lcode,some (.own 3),false,.lblank⟩⟩] .leaf) 611599119 [⟨⟨(.inside 1),[],.lcomment,false,[],false⟩,false,false,[],some 4,some ⟨.code,[47],.lcomment,false,[],false⟩,some ([(42,(.other,false))],false),false,false,false,none,false,⟨.lcomment,some (.own 3),false,.lblank⟩⟩] .leaf) 612807987 [⟨⟨(.inside 1),[],.lcomment,false,[],false⟩,false,false,[],some 4,some ⟨.code,[47],.lblank,false,[],false⟩,some ([(42,(.other,false))],false),false,false,false,none,false,⟨.lcomment,some (.own 3),false,.lblank⟩⟩] (.node (.node .leaf 1161617341 [⟨⟨(.inside 1),[],.lcode,false,[(2,0)],false⟩,false,false,[],some 4,some ⟨.code,[47],.lcode,false,[(2,0)],false⟩,some ([(42,(.other,false))],false),false,false,false,none,false,⟨.lcode,some (.own 3),false,.lblank⟩⟩] .leaf) 1161618110 [⟨⟨(.inside 1),[],.lcode,false,[(2,0)],false⟩,false,false,[],some 4,some ⟨.code,[47],.lcode,false,[(2,1)],false⟩,some ([(42,(.other,false))],false),false,false,false,none,false,⟨.lcode,some (.own 3),false,.lblank⟩⟩] .leaf)) 1161708747 [⟨⟨(.inside 1),[],.lcode,false,[(3,0)],false⟩,false,false,[],some 4,some ⟨.code,[47],.lcode,false,[(3,0)],false⟩,some ([(42,(.other,false))],false),false,false,false,none,false,⟨.lcode,some (.own 3),false,.lblank⟩⟩] (.node (.node (.node .leaf 1161709516 [⟨⟨(.inside 1),[],.lcode,false,[(3,0)],false⟩,false,false,[],some 4,some ⟨.code,[47],.lcode,false,[(3,1)],false⟩,some ([(42,(.other,false))],false),false,false,false,none,false,⟨.lcode,some (.own 3),false,.lblank⟩⟩] .leaf) 73391842917 [⟨⟨(.inside 1),[],.lcode,false,[(2,0),(3,0)],false⟩,false,false,[],some 4,some ⟨.code,[47],.lcode,false,[(2,0),(3,0)],false⟩,some ([(42,(.other,false))],false),false,false,false,none,false,⟨.lcode,some (.own 3),false,.lblank⟩⟩] .leaf) 73391944425 [⟨⟨(.inside 1),[],.lcode,false,[(2,0),(3,0)],false⟩,false,false,[],some 4,some ⟨.code,[47],.lcode,false,[(2,1),(3,1)],false⟩,some ([(42,(.other,false))],false),false,false,false,none,false,⟨.lcode,some (.own 3),false,.lblank⟩⟩] (.node (.node .leaf 73403725697 [⟨⟨(.inside 1),[],.lcode,false,[(3,0),(2,0)],false⟩,false,false,[],some 4,some ⟨.code,[47],.lcode,false,[(3,0),(2,0)],false⟩,some ([(42,(.other,false))],false),false,false,false,none,false,⟨.lcode,some (.own 3),false,.lblank⟩⟩] .leaf) 73403827205 [⟨⟨(.inside 1),[],.lcode,false,[(3,0),(2,0)],false⟩,false,false,[],some 4,some ⟨.code,[47],.lcode,false,[(3,1),(2,1)],false⟩,some ([(42,(.other,false))],false),false,false,false,none,false,⟨.lcode,some (.own 3),false,.lblank⟩⟩] .leaf))),(.node (.node (.node (.node (.node (.node .leaf 287889 [⟨⟨.code,[],.lcode,false,[(3,0)],false⟩,false,false,[],some 4,some ⟨.code,[],.lcode,false,[(3,0)],false⟩,none,false,false,false,none,false,⟨.lcode,some (.own 3),false,.lblank⟩⟩] .leaf) 10655941 [⟨⟨(.inside 3),[],.lcode,false,[],false⟩,false,false,[],some 4,some ⟨(.inside 3),[],.lcode,false,[],false⟩,none,false,false,false,none,false,⟨.lcode,some (.own 3),false,.lblank⟩⟩] .leaf) 24435774 [⟨⟨.code,[],.lcode,false,[(2,0),(3,0)],false⟩,false,false,[],some 4,some ⟨.code,[],.lcode,false,[(3,0)],false⟩,none,false,false,false,none,false,⟨.lcode,some (.own 3),false,.lblank⟩⟩] (.node .leaf 25946859 [⟨⟨.code,[],.lcode,false,[(2,0),(3,0)],false⟩,false,false,[],some 4,some ⟨.code,[],.lcode,false,[(2,0),(3,0)],false⟩,none,false,false,false,none,false,⟨.lcode,some (.own 3),false,.lblank⟩⟩] .leaf)) 37829639 [⟨⟨.code,[],.lcode,false,[(3,0),(2,0)],false⟩,false,false,[],some 4,some ⟨.code,[],.lcode,false,[(3,0),(2,0)],false⟩,none,false,false,false,none,false,⟨.lcode,some (.own 3),false,.lblank⟩⟩] (.node (.node (.node .leaf 48583663 [⟨⟨.code,[],.lblank,false,[(3,0)],true⟩,false,false,[],some 4,some ⟨.code,[],.lcode,false,[(3,0)],false⟩,none,false,true,false,none,false,⟨.lcode,some (.own 3),false,.lblank⟩⟩] .leaf) 154834353 [⟨⟨(.inside 0),[],.lcode,false,[(3,0)],false⟩,false,false,[],some 4,some ⟨.code,[],.lcode,false,[(3,0)],false⟩,none,false,false,false,none,false,⟨.lcode,some (.own 3),false,.lblank⟩⟩] .leaf) 232119874 [⟨⟨.code,[47],.lcode,false,[(3,1)],false⟩,false,false,[],some 4,some ⟨.code,[],.lcode,false,[(3,0)],false⟩,none,false,false,false,none,false,⟨.lcode,some (.own 3),false,.lblank⟩⟩] (.node .leaf 541200513 [⟨⟨(.inside 1),[],.lcode,false,[(3,0)],false⟩,false,false,[],some 4,some ⟨.code,[],.lcode,false,[(3,0)],false⟩,none,false,false,false,none,false,⟨.lcode,some (.own 3),false,.lblank⟩⟩] .leaf))) 927566673 [⟨⟨(.inside 2),[],.lcode,false,[(3,0)],false⟩,false,false,[],some 4,some ⟨.code,[],.lcode,false,[(3,0)],false⟩,none,false,false,false,none,false,⟨.lcode,some (.own 3),false,.lblank⟩⟩] (.node (.node (.node (.node .leaf 1313932833 [⟨⟨(.inside 3),[],.lcode,false,[(3,0)],false⟩,false,false,[],some 4,some ⟨.code,[],.lcode,false,[(3,0)],false⟩,none,false,false,false,none,false,⟨.lcode,some (.own 3),false,.lblank⟩⟩] .leaf) 1396044451 [⟨⟨(.inside 3),[],.lcode,false,[(2,0)],false⟩,false,false,[],some 4,some ⟨(.inside 3),[],.lcode,false,[(2,0)],false⟩,none,false,false,false,none,false,⟨.lcode,some (.own 3),false,.lblank⟩⟩] .leaf) 1396135857 [⟨⟨(.inside 3),[],.lcode,false,[(3,0)],false⟩,false,false,[],some 4,some ⟨(.inside 3),[],.lcode,false,[(3,0)],false⟩,none,false,false,false,none,false,⟨.lcode,some (.own 3),false,.lblank⟩⟩] (.node .leaf 6351181648 [⟨⟨.code,[],.lblank,false,[(2,0),(3,0)],true⟩,false,false,[],some 4,some ⟨.code,[],.lcode,false,[(3,0)],false⟩,none,false,true,false,none,false,⟨.lcode,some (.own 3),false,.lblank⟩⟩] .leaf)) 6364575513 [⟨⟨.code,[],.lblank,false,[(3,0),(2,0)],true⟩,false,false,[],some 4,some ⟨.code,[],.lcode,false,[(3,0),(2,0)],false⟩,none,false,true,false,none,false,⟨.lcode,some (.own 3),false,.lblank⟩⟩] (.node (.node .leaf 20270022558 [⟨⟨(.inside 0),[],.lcode,false,[(2,0),(3,0)],false⟩,false,false,[],some 4,some ⟨.code,[],.lcode,false,[(3,0)],false⟩,none,false,false,false,none,false,⟨.lcode,some (.own 3),false,.lblank⟩⟩] .leaf) 20271533643 [⟨⟨(.inside 0),[],.lcode,false,[(2,0),(3,0)],false⟩,false,false,[],some 4,some ⟨.code,[],.lcode,false,[(2,0),(3,0)],false⟩,none,false,false,false,none,false,⟨.lcode,some (.own 3),false,.lblank⟩⟩] (.node .leaf 20283416423 [⟨⟨(.inside 0),[],.lcode,false,[(3,0),(2,0)],false⟩,false,false,[],some 4,some ⟨.code,[],.lcode,false,[(3,0),(2,0)],false⟩,none,false,false,false,none,false,⟨.lcode,some (.own 3),false,.lblank⟩⟩] .leaf)))) 30394438098 [⟨⟨.code,[47],.lcode,false,[(2,1),(3,1)],false⟩,false,false,[],some 4,some ⟨.code,[],.lcode,false,[(3,0)],false⟩,none,false,false,false,none,false,⟨.lcode,some (.own 3),false,.lblank⟩⟩] (.node (.node (.node (.node (.node .leaf 30395949183 [⟨⟨.code,[47],.lcode,false,[(2,1),(3,1)],false⟩,false,false,[],some 4,some ⟨.code,[],.lcode,false,[(2,0),(3,0)],false⟩,none,false,false,false,none,false,⟨.lcode,some (.own 3),false,.lblank⟩⟩] .leaf) 30407831963 [⟨⟨.code,[47],.lcode,false,[(3,1),(2,1)],false⟩,false,false,[],some 4,some ⟨.code,[],.lcode,false,[(3,0),(2,0)],false⟩,none,false,false,false,none,false,⟨.lcode,some (.own 3),false,.lblank⟩⟩] .leaf) 70883989518 [⟨⟨(.inside 1),[],.lcode,false,[(2,0),(3,0)],false⟩,false,false,[],some 4,some ⟨.code,[],.lcode,false,[(3,0)],false⟩,none,false,false,false,none,false,⟨.lcode,some (.own 3),false,.lblank⟩⟩] (.node .leaf 70885500603 [⟨⟨(.inside 1),[],.lcode,false,[(2,0),(3,0)],false⟩,false,false,[],some 4,some ⟨.code,[],.lcode,false,[(2,0),(3,0)],false⟩,none,false,false,false,none,false,⟨.lcode,some (.own 3),false,.lblank⟩⟩] .leaf)) 70897383383 [⟨⟨(.inside 1),[],.lcode,false,[(3,0),(2,0)],false⟩,false,false,[],some 4,some ⟨.code,[],.lcode,false,[(3,0),(2,0)],false⟩,none,false,false,false,none,false,⟨.lcode,some (.own 3),false,.lblank⟩⟩] (.node (.node .leaf 71067525733 [⟨⟨(.inside 1),[42],.lcode,false,[(3,1)],false⟩,false,false,[],some 4,some ⟨.code,[],.lcode,false,[(3,0)],false⟩,none,false,false,false,none,false,⟨.lcode,some (.own 3),false,.lblank⟩⟩] .leaf) 121497956478 [⟨⟨(.inside 2),[],.lcode,false,[(2,0),(3,0)],false⟩,false,false,[],some 4,some ⟨.code,[],.lcode,false,[(3,0)],false⟩,none,false,false,false,none,false,⟨.lcode,some (.own 3),false,.lblank⟩⟩] (.node .leaf 121499467563 [⟨⟨(.inside 2),[],.lcode,false,[(2,0),(3,0)],false⟩,false,false,[],some 4,some ⟨.code,[],.lcode,false,[(2,0),(3,0)],false⟩,none,false,false,false,none,false,⟨.lcode,some (.own 3),false,.lblank⟩⟩] .leaf))) 121511350343 [⟨⟨(.inside 2),[],.lcode,false,[(3,0),(2,0)],false⟩,false,false,[],some 4,some ⟨.code,[],.lcode,false,[(3,0),(2,0)],false⟩,none,false,false,false,none,false,⟨.lcode,some (.own 3),false,.lblank⟩⟩] (.node (.node (.node (.node .leaf 172111923438 [⟨⟨(.inside 3),[],.lcode,false,[(2,0),(3,0)],false⟩,false,false,[],some 4,some ⟨.code,[],.lcode,false,[(3,0)],false⟩,none,false,false,false,none,false,⟨.lcode,some (.own 3),false,.lblank⟩⟩] .leaf) 172113434523 [⟨⟨(.inside 3),[],.lcode,false,[(2,0),(3,0)],false⟩,false,false,[],some 4,some ⟨.code,[],.lcode,false,[(2,0),(3,0)],false⟩,none,false,false,false,none,false,⟨.lcode,some (.own 3),false,.lblank⟩⟩] .leaf) 172125317303 [⟨⟨(.inside 3),[],.lcode,false,[(3,0),(2,0)],false⟩,false,false,[],some 4,some ⟨.code,[],.lcode,false,[(3,0),(2,0)],false⟩,none,false,false,false,none,false,⟨.lcode,some (.own 3),false,.lblank⟩⟩] (.node .leaf 182882030667 [⟨⟨(.inside 3),[],.lcode,false,[(2,0),(3,0)],false⟩,false,false,[],some 4,some ⟨(.inside 3),[],.lcode,false,[(2,0),(3,0)],false⟩,none,false,false,false,none,false,⟨.lcode,some (.own 3),false,.lblank⟩⟩] .leaf)) 182893913447 [⟨⟨(.inside 3),[],.lcode,false,[(3,0),(2,0)],false⟩,false,false,[],some 4,some ⟨(.inside 3),[],.lcode,false,[(3,0),(2,0)],false⟩,none,false,false,false,none,false,⟨.lcode,some (.own 3),false,.lblank⟩⟩] (.node (.node .leaf 9309832605627 [⟨⟨(.inside 1),[42],.lcode,false,[(2,1),(3,1)],false⟩,false,false,[],some 4,some ⟨.code,[],.lcode,false,[(3,0)],false⟩,none,false,false,false,none,false,⟨.lcode,some (.own 3),false,.lblank⟩⟩] .leaf) 9309834116712 [⟨⟨(.inside 1),[42],.lcode,false,[(2,1),(3,1)],false⟩,false,false,[],some 4,some ⟨.code,[],.lcode,false,[(2,0),(3,0)],false⟩,none,false,false,false,none,false,⟨.lcode,some (.own 3),false,.lblank⟩⟩] (.node .leaf 9309845999492 [⟨⟨(.inside 1),[42],.lcode,false,[(3,1),(2,1)],false⟩,false,false,[],some 4,some ⟨.code,[],.lcode,false,[(3,0),(2,0)],false⟩,none,false,false,false,none,false,⟨.lcode,some (.own 3),false,.lblank⟩⟩] .leaf))))),(.node (.node (.node (.node (.node (.node .leaf 196483 [⟨⟨.code,[],.lcode,false,[(2,0)],false⟩,false,false,[],some 4,some ⟨.code,[],.lcode,false,[(2,0)],false⟩,none,false,false,false,none,false,⟨.lcode,some (.own 3),false,.lblank⟩⟩] .leaf) 7522021 [⟨⟨(.inside 2),[],.lcode,false,[],false⟩,false,false,[],some 4,some ⟨(.inside 2),[],.lcode,false,[],false⟩,none,false,false,false,none,false,⟨.lcode,some (.own 3),false,.lblank⟩⟩] .leaf) 25946859 [⟨⟨.code,[],.lcode,false,[(2,0),(3,0)],false⟩,false,false,[],some 4,some ⟨.code,[],.lcode,false,[(2,0),(3,0)],false⟩,none,false,false,false,none,false,⟨.lcode,some (.own 3),false,.lblank⟩⟩] (.node .leaf 35613381 [⟨⟨.code,[],.lcode,false,[(3,0),(2,0)],false⟩,false,false,[],some 4,some ⟨.code,[],.lcode,false,[(2,0)],false⟩,none,false,false,false,none,false,⟨.lcode,some (.own 3),false,.lblank⟩⟩] .leaf)) 37829639 [⟨⟨.code,[],.lcode,false,[(3,0),(2,0)],false⟩,false,false,[],some 4,some ⟨.code,[],.lcode,false,[(3,0),(2,0)],false⟩,none,false,false,false,none,false,⟨.lcode,some (.own 3),false,.lblank⟩⟩] (.node (.node (.node .leaf 48492257 [⟨⟨.code,[],.lblank,false,[(2,0)],true⟩,false,false,[],some 4,some ⟨.code,[],.lcode,false,[(2,0)],false⟩,none,false,true,false,none,false,⟨.lcode,some (.own 3),false,.lblank⟩⟩] .leaf) 154742947 [⟨⟨(.inside 0),[],.lcode,false,[(2,0)],false⟩,false,false,[],some 4,some ⟨.code,[],.lcode,false,[(2,0)],false⟩,none,false,false,false,none,false,⟨.lcode,some (.own 3),false,.lblank⟩⟩] .leaf) 232028468 [⟨⟨.code,[47],.lcode,false,[(2,1)],false⟩,false,false,[],some 4,some ⟨.code,[],.lcode,false,[(2,0)],false⟩,none,false,false,false,none,false,⟨.lcode,some (.own 3),false,.lblank⟩⟩] (.node .leaf 541109107 [⟨⟨(.inside 1),[],.lcode,false,[(2,0)],false⟩,false,false,[],some 4,some ⟨.code,[],.lcode,false,[(2,0)],false⟩,none,false,false,false,none,false,⟨.lcode,some (.own 3),false,.lblank⟩⟩] .leaf))) 927475267 [⟨⟨(.inside 2),[],.lcode,false,[(2,0)],false⟩,false,false,[],some 4,some ⟨.code,[],.lcode,false,[(2,0)],false⟩,none,false,false,false,none,false,⟨.lcode,some (.own 3),false,.lblank⟩⟩] (.node (.node (.node (.node .leaf 985500931 [⟨⟨(.inside 2),[],.lcode,false,[(2,0)],false⟩,false,false,[],some 4,some ⟨(.inside 2),[],.lcode,false,[(2,0)],false⟩,none,false,false,false,none,false,⟨.lcode,some (.own 3),false,.lblank⟩⟩] .leaf) 985592337 [⟨⟨(.inside 2),[],.lcode,false,[(3,0)],false⟩,false,false,[],some 4,some ⟨(.inside 2),[],.lcode,false,[(3,0)],false⟩,none,false,false,false,none,false,⟨.lcode,some (.own 3),false,.lblank⟩⟩] .leaf) 1313841427 [⟨⟨(.inside 3),[],.lcode,false,[(2,0)],false⟩,false,false,[],some 4,some ⟨.code,[],.lcode,false,[(2,0)],false⟩,none,false,false,false,none,false,⟨.lcode,some (.own 3),false,.lblank⟩⟩] (.node .leaf 6352692733 [⟨⟨.code,[],.lblank,false,[(2,0),(3,0)],true⟩,false,false,[],some 4,some ⟨.code,[],.lcode,false,[(2,0),(3,0)],false⟩,none,false,true,false,none,false,⟨.lcode,some (.own 3),false,.lblank⟩⟩] .leaf)) 6362359255 [⟨⟨.code,[],.lblank,false,[(3,0),(2,0)],true⟩,false,false,[],some 4,some ⟨.code,[],.lcode,false,[(2,0)],false⟩,none,false,true,false,none,false,⟨.lcode,some (.own 3),false,.lblank⟩⟩] (.node (.node .leaf 20271533643 [⟨⟨(.inside 0),[],.lcode,false,[(2,0),(3,0)],false⟩,false,false,[],some 4,some ⟨.code,[],.lcode,false,[(2,0),(3,0)],false⟩,none,false,false,false,none,false,⟨.lcode,some (.own 3),false,.lblank⟩⟩] .leaf) 20281200165 [⟨⟨(.inside 0),[],.lcode,false,[(3,0),(2,0)],false⟩,false,false,[],some 4,some ⟨.code,[],.lcode,false,[(2,0)],false⟩,none,false,false,false,none,false,⟨.lcode,some (.own 3),false,.lblank⟩⟩] (.node .leaf 20283416423 [⟨⟨(.inside 0),[],.lcode,false,[(3,0),(2,0)],false⟩,false,false,[],some 4,some ⟨.code,[],.lcode,false,[(3,0),(2,0)],false⟩,none,false,false,false,none,false,⟨.lcode,some (.own 3),false,.lblank⟩⟩] .leaf)))) 30395949183 [⟨⟨.code,[47],.lcode,false,[(2,1),(3,1)],false⟩,false,false,[],some 4,some ⟨.code,[],.lcode,false,[(2,0),(3,0)],false⟩,none,false,false,false,none,false,⟨.lcode,some (.own 3),false,.lblank⟩⟩] (.node (.node (.node (.node (.node .leaf 30405615705 [⟨⟨.code,[47],.lcode,false,[(3,1),(2,1)],false⟩,false,false,[],some 4,some ⟨.code,[],.lcode,false,[(2,0)],false⟩,none,false,false,false,none,false,⟨.lcode,some (.own 3),false,.lblank⟩⟩] .leaf) 30407831963 [⟨⟨.code,[47],.lcode,false,[(3,1),(2,1)],false⟩,false,false,[],some 4,some ⟨.code,[],.lcode,false,[(3,0),(2,0)],false⟩,none,false,false,false,none,false,⟨.lcode,some (.own 3),false,.lblank⟩⟩] .leaf) 70885500603 [⟨⟨(.inside 1),[],.lcode,false,[(2,0),(3,0)],false⟩,false,false,[],some 4,some ⟨.code,[],.lcode,false,[(2,0),(3,0)],false⟩,none,false,false,false,none,false,⟨.lcode,some (.own 3),false,.lblank⟩⟩] (.node .leaf 70895167125 [⟨⟨(.inside 1),[],.lcode,false,[(3,0),(2,0)],false⟩,false,false,[],some 4,some ⟨.code,[],.lcode,false,[(2,0)],false⟩,none,false,false,false,none,false,⟨.lcode,some (.own 3),false,.lblank⟩⟩] .leaf)) 70897383383 [⟨⟨(.inside 1),[],.lcode,false,[(3,0),(2,0)],false⟩,false,false,[],some 4,some ⟨.code,[],.lcode,false,[(3,0),(2,0)],false⟩,none,false,false,false,none,false,⟨.lcode,some (.own 3),false,.lblank⟩⟩] (.node (.node .leaf 71067434327 [⟨⟨(.inside 1),[42],.lcode,false,[(2,1)],false⟩,false,false,[],some 4,some ⟨.code,[],.lcode,false,[(2,0)],false⟩,none,false,false,false,none,false,⟨.lcode,some (.own 3),false,.lblank⟩⟩] .leaf) 121499467563 [⟨⟨(.inside 2),[],.lcode,false,[(2,0),(3,0)],false⟩,false,false,[],some 4,some ⟨.code,[],.lcode,false,[(2,0),(3,0)],false⟩,none,false,false,false,none,false,⟨.lcode,some (.own 3),false,.lblank⟩⟩] (.node .leaf 121509134085 [⟨⟨(.inside 2),[],.lcode,false,[(3,0),(2,0)],false⟩,false,false,[],some 4,some ⟨.code,[],.lcode,false,[(2,0)],false⟩,none,false,false,false,none,false,⟨.lcode,some (.own 3),false,.lblank⟩⟩] .leaf))) 121511350343 [⟨⟨(.inside 2),[],.lcode,false,[(3,0),(2,0)],false⟩,false,false,[],some 4,some ⟨.code,[],.lcode,false,[(3,0),(2,0)],false⟩,none,false,false,false,none,false,⟨.lcode,some (.own 3),false,.lblank⟩⟩] (.node (.node (.node (.node .leaf 129100829547 [⟨⟨(.inside 2),[],.lcode,false,[(2,0),(3,0)],false⟩,false,false,[],some 4,some ⟨(.inside 2),[],.lcode,false,[(2,0),(3,0)],false⟩,none,false,false,false,none,false,⟨.lcode,some (.own 3),false,.lblank⟩⟩] .leaf) 129112712327 [⟨⟨(.inside 2),[],.lcode,false,[(3,0),(2,0)],false⟩,false,false,[],some 4,some ⟨(.inside 2),[],.lcode,false,[(3,0),(2,0)],false⟩,none,false,false,false,none,false,⟨.lcode,some (.own 3),false,.lblank⟩⟩] .leaf) 172113434523 [⟨⟨(.inside 3),[],.lcode,false,[(2,0),(3,0)],false⟩,false,false,[],some 4,some ⟨.code,[],.lcode,false,[(2,0),(3,0)],false⟩,none,false,false,false,none,false,⟨.lcode,some (.own 3),false,.lblank⟩⟩] (.node .leaf 172123101045 [⟨⟨(.inside 3),[],.lcode,false,[(3,0),(2,0)],false⟩,false,false,[],some 4,some ⟨.code,[],.lcode,false,[(2,0)],false⟩,none,false,false,false,none,false,⟨.lcode,some (.own 3),false,.lblank⟩⟩] .leaf)) 172125317303 [⟨⟨(.inside 3),[],.lcode,false,[(3,0),(2,0)],false⟩,false,false,[],some 4,some ⟨.code,[],.lcode,false,[(3,0),(2,0)],false⟩,none,false,false,false,none,false,⟨.lcode,some (.own 3),false,.lblank⟩⟩] (.node (.node .leaf 9309834116712 [⟨⟨(.inside 1),[42],.lcode,false,[(2,1),(3,1)],false⟩,false,false,[],some 4,some ⟨.code,[],.lcode,false,[(2,0),(3,0)],false⟩,none,false,false,false,none,false,⟨.lcode,some (.own 3),false,.lblank⟩⟩] .leaf) 9309843783234 [⟨⟨(.inside 1),[42],.lcode,false,[(3,1),(2,1)],false⟩,false,false,[],some 4,some ⟨.code,[],.lcode,false,[(2,0)],false⟩,none,false,false,false,none,false,⟨.lcode,some (.own 3),false,.lblank⟩⟩] (.node .leaf 9309845999492 [⟨⟨(.inside 1),[42],.lcode,false,[(3,1),(2,1)],false⟩,false,false,[],some 4,some ⟨.code,[],.lcode,false,[(3,0),(2,0)],false⟩,none,false,false,false,none,false,⟨.lcode,some (.own 3),false,.lblank⟩⟩] .leaf))))),(.node (.node (.node (.node (.node .leaf 610242271 [⟨⟨(.inside 1),[],.lcode,false,[],false⟩,false,false,[],some 4,some ⟨.code,[47],.lcode,false,[],false⟩,some ([(42,(.other,false))],false),false,false,false,none,false,⟨.lcode,some (.own 3),false,.lblank⟩⟩] .leaf) 610390259 [⟨⟨(.inside 1),[],.lcomment,false,[],false⟩,false,false,[],some 4,some ⟨.code,[47],.lcode,false,[],false⟩,some ([(42,(.other,false))],false),true,false,false,none,false,⟨.lcomment,some .internalNl,false,.lblank⟩⟩] (.node .leaf 611599119 [⟨⟨(.inside 1),[],.lcomment,false,[],false⟩,false,false,[],some 4,some ⟨.code,[47],.lcomment,false,[],false⟩,some ([(42,(.other,false))],false),false,false,false,none,false,⟨.lcomment,some (.own 3),false,.lblank⟩⟩] .leaf)) 611599127 [⟨⟨(.inside 1),[],.lcomment,false,[],false⟩,false,false,[],some 4,some ⟨.code,[47],.lcomment,false,[],false⟩,some ([(42,(.other,false))],false),true,false,false,none,false,⟨.lcomment,some .internalNl,false,.lblank⟩⟩] (.node (.node .leaf 612807987 [⟨⟨(.inside 1),[],.lcomment,false,[],false⟩,false,false,[],some 4,some ⟨.code,[47],.lblank,false,[],false⟩,some ([(42,(.other,false))],false),false,false,false,none,false,⟨.lcomment,some (.own 3),false,.lblank⟩⟩] .leaf) 612807995 [⟨⟨(.inside 1),[],.lcomment,false,[],false⟩,false,false,[],some 4,some ⟨.code,[47],.lblank,false,[],false⟩,some ([(42,(.other,false))],false),true,false,false,none,false,⟨.lcomment,some .internalNl,false,.lblank⟩⟩] (.node .leaf 624797474 [⟨⟨(.inside 1),[],.lcomment,false,[],false⟩,false,false,[],some 4,some ⟨.code,[47],.lcode,false,[(2,0)],false⟩,some ([(42,(.other,false))],false),true,false,false,none,false,⟨.lcomment,some .internalNl,false,.lblank⟩⟩] .leaf))) 624798243 [⟨⟨(.inside 1),[],.lcomment,false,[],false⟩,false,false,[],some 4,some ⟨.code,[47],.lcode,false,[(2,1)],false⟩,some ([(42,(.other,false))],false),true,false,false,none,false,⟨.lcomment,some .internalNl,false,.lblank⟩⟩] (.node (.node (.node .leaf 624802857 [⟨⟨(.inside 1),[],.lcomment,false,[],false⟩,false,false,[],some 4,some ⟨.code,[47],.lcode,false,[(3,0)],false⟩,some ([(42,(.other,false))],false),true,false,false,none,false,⟨.lcomment,some .internalNl,false,.lblank⟩⟩] .leaf) 624803626 [⟨⟨(.inside 1),[],.lcomment,false,[],false⟩,false,false,[],some 4,some ⟨.code,[47],.lcode,false,[(3,1)],false⟩,some ([(42,(.other,false))],false),true,false,false,none,false,⟨.lcomment,some .internalNl,false,.lblank⟩⟩] (.node .leaf 1161617341 [⟨⟨(.inside 1),[],.lcode,false,[(2,0)],false⟩,false,false,[],some 4,some ⟨.code,[47],.lcode,false,[(2,0)],false⟩,some ([(42,(.other,false))],false),false,false,false,none,false,⟨.lcode,some (.own 3),false,.lblank⟩⟩] .leaf)) 1161618110 [⟨⟨(.inside 1),[],.lcode,false,[(2,0)],false⟩,false,false,[],some 4,some ⟨.code,[47],.lcode,false,[(2,1)],false⟩,some ([(42,(.other,false))],false),false,false,false,none,false,⟨.lcode,some (.own 3),false,.lblank⟩⟩] (.node (.node .leaf 1161629630 [⟨⟨(.inside 1),[],.lcode,false,[(2,1)],false⟩,false,false,[],some 4,some ⟨.code,[47],.lcode,false,[(2,0)],false⟩,some ([(42,(.other,false))],false),false,false,false,none,false,⟨.lcode,some (.own 3),false,.lblank⟩⟩] .leaf) 1161630399 [⟨⟨(.inside 1),[],.lcode,false,[(2,1)],false⟩,false,false,[],some 4,some ⟨.code,[47],.lcode,false,[(2,1)],false⟩,some ([(42,(.other,false))],false),false,false,false,none,false,⟨.lcode,some (.own 3),false,.lblank⟩⟩] (.node .leaf 1161708747 [⟨⟨(.inside 1),[],.lcode,false,[(3,0)],false⟩,false,false,[],some 4,some ⟨.code,[47],.lcode,false,[(3,0)],false⟩,some ([(42,(.other,false))],false),false,false,false,none,false,⟨.lcode,some (.own 3),false,.lblank⟩⟩] .leaf)))) 1161709516 [⟨⟨(.inside 1),[],.lcode,false,[(3,0)],false⟩,false,false,[],some 4,some ⟨.code,[47],.lcode,false,[(3,1)],false⟩,some ([(42,(.other,false))],false),false,false,false,none,false,⟨.lcode,some (.own 3),false,.lblank⟩⟩] (.node (.node (.node (.node .leaf 1161721036 [⟨⟨(.inside 1),[],.lcode,false,[(3,1)],false⟩,false,false,[],some 4,some ⟨.code,[47],.lcode,false,[(3,0)],false⟩,some ([(42,(.other,false))],false),false,false,false,none,false,⟨.lcode,some (.own 3),false,.lblank⟩⟩] .leaf) 1161721805 [⟨⟨(.inside 1),[],.lcode,false,[(3,1)],false⟩,false,false,[],some 4,some ⟨.code,[47],.lcode,false,[(3,1)],false⟩,some ([(42,(.other,false))],false),false,false,false,none,false,⟨.lcode,some (.own 3),false,.lblank⟩⟩] (.node .leaf 2512148022 [⟨⟨(.inside 1),[],.lcomment,false,[],false⟩,false,false,[],some 4,some ⟨.code,[47],.lcode,false,[(2,0),(3,0)],false⟩,some ([(42,(.other,false))],false),true,false,false,none,false,⟨.lcomment,some .internalNl,false,.lblank⟩⟩] .leaf)) 2512249530 [⟨⟨(.inside 1),[],.lcomment,false,[],false⟩,false,false,[],some 4,some ⟨.code,[47],.lcode,false,[(2,1),(3,1)],false⟩,some ([(42,(.other,false))],false),true,false,false,none,false,⟨.lcomment,some .internalNl,false,.lblank⟩⟩] (.node (.node .leaf 2512847812 [⟨⟨(.inside 1),[],.lcomment,false,[],false⟩,false,false,[],some 4,some ⟨.code,[47],.lcode,false,[(3,0),(2,0)],false⟩,some ([(42,(.other,false))],false),true,false,false,none,false,⟨.lcomment,some .internalNl,false,.lblank⟩⟩] .leaf) 2512949320 [⟨⟨(.inside 1),[],.lcomment,false,[],false⟩,false,false,[],some 4,some ⟨.code,[47],.lcode,false,[(3,1),(2,1)],false⟩,some ([(42,(.other,false))],false),true,false,false,none,false,⟨.lcomment,some .internalNl,false,.lblank⟩⟩] (.node .leaf 73391842917 [⟨⟨(.inside 1),[],.lcode,false,[(2,0),(3,0)],false⟩,false,false,[],some 4,some ⟨.code,[47],.lcode,false,[(2,0),(3,0)],false⟩,some ([(42,(.other,false))],false),false,false,false,none,false,⟨.lcode,some (.own 3),false,.lblank⟩⟩] .leaf))) 73391944425 [⟨⟨(.inside 1),[],.lcode,false,[(2,0),(3,0)],false⟩,false,false,[],some 4,some ⟨.code,[47],.lcode,false,[(2,1),(3,1)],false⟩,some ([(42,(.other,false))],false),false,false,false,none,false,⟨.lcode,some (.own 3),false,.lblank⟩⟩] (.node (.node (.node .leaf 73393465065 [⟨⟨(.inside 1),[],.lcode,false,[(2,1),(3,1)],false⟩,false,false,[],some 4,some ⟨.code,[47],.lcode,false,[(2,0),(3,0)],false⟩,some ([(42,(.other,false))],false),false,false,false,none,false,⟨.lcode,some (.own 3),false,.lblank⟩⟩] .leaf) 73393566573 [⟨⟨(.inside 1),[],.lcode,false,[(2,1),(3,1)],false⟩,false,false,[],some 4,some ⟨.code,[47],.lcode,false,[(2,1),(3,1)],false⟩,some ([(42,(.other,false))],false),false,false,false,none,false,⟨.lcode,some (.own 3),false,.lblank⟩⟩] (.node .leaf 73403725697 [⟨⟨(.inside 1),[],.lcode,false,[(3,0),(2,0)],false⟩,false,false,[],some 4,some ⟨.code,[47],.lcode,false,[(3,0),(2,0)],false⟩,some ([(42,(.other,false))],false),false,false,false,none,false,⟨.lcode,some (.own 3),false,.lblank⟩⟩] .leaf)) 73403827205 [⟨⟨(.inside 1),[],.lcode,false,[(3,0),(2,0)],false⟩,false,false,[],some 4,some ⟨.code,[47],.lcode,false,[(3,1),(2,1)],false⟩,some ([(42,(.other,false))],false),false,false,false,none,false,⟨.lcode,some (.own 3),false,.lblank⟩⟩] (.node (.node .leaf 73405347845 [⟨⟨(.inside 1),[],.lcode,false,[(3,1),(2,1)],false⟩,false,false,[],some 4,some ⟨.code,[47],.lcode,false,[(3,0),(2,0)],false⟩,some ([(42,(.other,false))],false),false,false,false,none,false,⟨.lcode,some (.own 3),false,.lblank⟩⟩] .leaf) 73405449353 [⟨⟨(.inside 1),[],.lcode,false,[(3,1),(2,1)],false⟩,false,false,[],some 4,some ⟨.code,[47],.lcode,false,[(3,1),(2,1)],false⟩,some ([(42,(.other,false))],false),false,false,false,none,false,⟨.lcode,some (.own 3),false,.lblank⟩⟩] .leaf)))),(.node (.node (.node (.node (.node (.node .leaf 610242271 [⟨⟨(.inside 1),[],.lcode,false,[],false⟩,false,false,[],some 4,some ⟨.code,[47],.lcode,false,[],false⟩,some ([(42,(.other,false))],false),false,false,false,none,false,⟨.lcode,some (.own 3),false,.lblank⟩⟩] .leaf) 610390259 [⟨⟨(.inside 1),[],.lcomment,false,[],false⟩,false,false,[],some 4,some ⟨.code,[47],.lcode,false,[],false⟩,some ([(42,(.other,false))],false),true,false,false,none,false,⟨.lcomment,some .internalNl,false,.lblank⟩⟩] .leaf) 610538239 [⟨⟨(.inside 1),[],.lblank,false,[],false⟩,false,false,[],some 4,some ⟨.code,[47],.lcode,false,[],false⟩,some ([(42,(.other,false))],false),true,false,false,none,false,⟨.lblank,some .internalNl,false,.lblank⟩⟩] (.node .leaf 611599119 [⟨⟨(.inside 1),[],.lcomment,false,[],false⟩,false,false,[],some 4,some ⟨.code,[47],.lcomment,false,[],false⟩,some ([(42,(.other,false))],false),false,false,false,none,false,⟨.lcomment,some (.own 3),false,.lblank⟩⟩] .leaf)) 611599127 [⟨⟨(.inside 1),[],.lcomment,false,[],false⟩,false,false,[],some 4,some ⟨.code,[47],.lcomment,false,[],false⟩,some ([(42,(.other,false))],false),true,false,false,none,false,⟨.lcomment,some .internalNl,false,.lblank⟩⟩] (.node (.node .leaf 611747107 [⟨⟨(.inside 1),[],.lblank,false,[],false⟩,false,false,[],some 4,some ⟨.code,[47],.lcomment,false,[],false⟩,some ([(42,(.other,false))],false),true,false,false,none,false,⟨.lblank,some .internalNl,false,.lblank⟩⟩] .leaf) 612807987 [⟨⟨(.inside 1),[],.lcomment,false,[],false⟩,false,false,[],some 4,some ⟨.code,[47],.lblank,false,[],false⟩,some ([(42,(.other,false))],false),false,false,false,none,false,⟨.lcomment,some (.own 3),false,.lblank⟩⟩] (.node .leaf 612807995 [⟨⟨(.inside 1),[],.lcomment,false,[],false⟩,false,false,[],some 4,some ⟨.code,[47],.lblank,false,[],false⟩,some ([(42,(.other,false))],false),true,false,false,none,false,⟨.lcomment,some .internalNl,false,.lblank⟩⟩] .leaf))) 612955975 [⟨⟨(.inside 1),[],.lblank,false,[],false⟩,false,false,[],some 4,some ⟨.code,[47],.lblank,false,[],false⟩,some ([(42,(.other,false))],false),true,false,false,none,false,⟨.lblank,some .internalNl,false,.lblank⟩⟩] (.node (.node (.node .leaf 624797474 [⟨⟨(.inside 1),[],.lcomment,false,[],false⟩,false,false,[],some 4,some ⟨.code,[47],.lcode,false,[(2,0)],false⟩,some ([(42,(.other,false))],false),true,false,false,none,false,⟨.lcomment,some .internalNl,false,.lblank⟩⟩] .leaf) 624798243 [⟨⟨(.inside 1),[],.lcomment,false,[],false⟩,false,false,[],some 4,some ⟨.code,[47],.lcode,false,[(2,1)],false⟩,some ([(42,(.other,false))],false),true,false,false,none,false,⟨.lcomment,some .internalNl,false,.lblank⟩⟩] (.node .leaf 624802857 [⟨⟨(.inside 1),[],.lcomment,false,[],false⟩,false,false,[],some 4,some ⟨.code,[47],.lcode,false,[(3,0)],false⟩,some ([(42,(.other,false))],false),true,false,false,none,false,⟨.lcomment,some .internalNl,false,.lblank⟩⟩] .leaf)) 624803626 [⟨⟨(.inside 1),[],.lcomment,false,[],false⟩,false,false,[],some 4,some ⟨.code,[47],.lcode,false,[(3,1)],false⟩,some ([(42,(.other,false))],false),true,false,false,none,false,⟨.lcomment,some .internalNl,false,.lblank⟩⟩] (.node (.node .leaf 624945454 [⟨⟨(.inside 1),[],.lblank,false,[],false⟩,false,false,[],some 4,some ⟨.code,[47],.lcode,false,[(2,0)],false⟩,some ([(42,(.other,false))],false),true,false,false,none,false,⟨.lblank,some .internalNl,false,.lblank⟩⟩] .leaf) 624946223 [⟨⟨(.inside 1),[],.lblank,false,[],false⟩,false,false,[],some 4,some ⟨.code,[47],.lcode,false,[(2,1)],false⟩,some ([(42,(.other,false))],false),true,false,false,none,false,⟨.lblank,some .internalNl,false,.lblank⟩⟩] (.node .leaf 624950837 [⟨⟨(.inside 1),[],.lblank,false,[],false⟩,false,false,[],some 4,some ⟨.code,[47],.lcode,false,[(3,0)],false⟩,some ([(42,(.other,false))],false),true,false,false,none,false,⟨.lblank,some .internalNl,false,.lblank⟩⟩] .leaf)))) 624951606 [⟨⟨(.inside 1),[],.lblank,false,[],false⟩,false,false,[],some 4,some ⟨.code,[47],.lcode,false,[(3,1)],false⟩,some ([(42,(.other,false))],false),true,false,false,none,false,⟨.lblank,some .internalNl,false,.lblank⟩⟩] (.node (.node (.node (.node (.node .leaf 1161617341 [⟨⟨(.inside 1),[],.lcode,false,[(2,0)],false⟩,false,false,[],some 4,some ⟨.code,[47],.lcode,false,[(2,0)],false⟩,some ([(42,(.other,false))],false),false,false,false,none,false,⟨.lcode,some (.own 3),false,.lblank⟩⟩] .leaf) 1161618110 [⟨⟨(.inside 1),[],.lcode,false,[(2,0)],false⟩,false,false,[],some 4,some ⟨.code,[47],.lcode,false,[(2,1)],false⟩,some ([(42,(.other,false))],false),false,false,false,none,false,⟨.lcode,some (.own 3),false,.lblank⟩⟩] .leaf) 1161708747 [⟨⟨(.inside 1),[],.lcode,false,[(3,0)],false⟩,false,false,[],some 4,some ⟨.code,[47],.lcode,false,[(3,0)],false⟩,some ([(42,(.other,false))],false),false,false,false,none,false,⟨.lcode,some (.own 3),false,.lblank⟩⟩] (.node .leaf 1161709516 [⟨⟨(.inside 1),[],.lcode,false,[(3,0)],false⟩,false,false,[],some 4,some ⟨.code,[47],.lcode,false,[(3,1)],false⟩,some ([(42,(.other,false))],false),false,false,false,none,false,⟨.lcode,some (.own 3),false,.lblank⟩⟩] .leaf)) 2512148022 [⟨⟨(.inside 1),[],.lcomment,false,[],false⟩,false,false,[],some 4,some ⟨.code,[47],.lcode,false,[(2,0),(3,0)],false⟩,some ([(42,(.other,false))],false),true,false,false,none,false,⟨.lcomment,some .internalNl,false,.lblank⟩⟩] (.node (.node .leaf 2512249530 [⟨⟨(.inside 1),[],.lcomment,false,[],false⟩,false,false,[],some 4,some ⟨.code,[47],.lcode,false,[(2,1),(3,1)],false⟩,some ([(42,(.other,false))],false),true,false,false,none,false,⟨.lcomment,some .internalNl,false,.lblank⟩⟩] .leaf) 2512296002 [⟨⟨(.inside 1),[],.lblank,false,[],false⟩,false,false,[],some 4,some ⟨.code,[47],.lcode,false,[(2,0),(3,0)],false⟩,some ([(42,(.other,false))],false),true,false,false,none,false,⟨.lblank,some .internalNl,false,.lblank⟩⟩] (.node .leaf 2512397510 [⟨⟨(.inside 1),[],.lblank,false,[],false⟩,false,false,[],some 4,some ⟨.code,[47],.lcode,false,[(2,1),(3,1)],false⟩,some ([(42,(.other,false))],false),true,false,false,none,false,⟨.lblank,some .internalNl,false,.lblank⟩⟩] .leaf))) 2512847812 [⟨⟨(.inside 1),[],.lcomment,false,[],false⟩,false,false,[],some 4,some ⟨.code,[47],.lcode,false,[(3,0),(2,0)],false⟩,some ([(42,(.other,false))],false),true,false,false,none,false,⟨.lcomment,some .internalNl,false,.lblank⟩⟩] (.node (.node (.node .leaf 2512949320 [⟨⟨(.inside 1),[],.lcomment,false,[],false⟩,false,false,[],some 4,some ⟨.code,[47],.lcode,false,[(3,1),(2,1)],false⟩,some ([(42,(.other,false))],false),true,false,false,none,false,⟨.lcomment,some .internalNl,false,.lblank⟩⟩] .leaf) 2512995792 [⟨⟨(.inside 1),[],.lblank,false,[],false⟩,false,false,[],some 4,some ⟨.code,[47],.lcode,false,[(3,0),(2,0)],false⟩,some ([(42,(.other,false))],false),true,false,false,none,false,⟨.lblank,some .internalNl,false,.lblank⟩⟩] (.node .leaf 2513097300 [⟨⟨(.inside 1),[],.lblank,false,[],false⟩,false,false,[],some 4,some ⟨.code,[47],.lcode,false,[(3,1),(2,1)],false⟩,some ([(42,(.other,false))],false),true,false,false,none,false,⟨.lblank,some .internalNl,false,.lblank⟩⟩] .leaf)) 73391842917 [⟨⟨(.inside 1),[],.lcode,false,[(2,0),(3,0)],false⟩,false,false,[],some 4,some ⟨.code,[47],.lcode,false,[(2,0),(3,0)],false⟩,some ([(42,(.other,false))],false),false,false,false,none,false,⟨.lcode,some (.own 3),false,.lblank⟩⟩] (.node (.node .leaf 73391944425 [⟨⟨(.inside 1),[],.lcode,false,[(2,0),(3,0)],false⟩,false,false,[],some 4,some ⟨.code,[47],.lcode,false,[(2,1),(3,1)],false⟩,some ([(42,(.other,false))],false),false,false,false,none,false,⟨.lcode,some (.own 3),false,.lblank⟩⟩] .leaf) 73403725697 [⟨⟨(.inside 1),[],.lcode,false,[(3,0),(2,0)],false⟩,false,false,[],some 4,some ⟨.code,[47],.lcode,false,[(3,0),(2,0)],false⟩,some ([(42,(.other,false))],false),false,false,false,none,false,⟨.lcode,some (.own 3),false,.lblank⟩⟩] (.node .leaf 73403827205 [⟨⟨(.inside 1),[],.lcode,false,[(3,0),(2,0)],false⟩,false,false,[],some 4,some ⟨.code,[47],.lcode,false,[(3,1),(2,1)],false⟩,some ([(42,(.other,false))],false),false,false,false,none,false,⟨.lcode,some (.own 3),false,.lblank⟩⟩] .leaf))))),(.node (.node (.node (.node (.node (.node .leaf 610279138 [⟨⟨(.inside 1),[],.lcode,true,[],false⟩,false,false,[],some 4,some ⟨.code,[47],.lcode,false,[],false⟩,some ([(42,(.other,false))],false),false,false,false,none,false,⟨.lcode,some (.own 3),false,.lblank⟩⟩] .leaf) 610427126 [⟨⟨(.inside 1),[],.lcomment,true,[],false⟩,false,false,[],some 4,some ⟨.code,[47],.lcode,false,[],false⟩,some ([(42,(.other,false))],false),true,false,false,none,false,⟨.lcomment,some .internalNl,false,.lblank⟩⟩] .leaf) 610575106 [⟨⟨(.inside 1),[],.lblank,true,[],false⟩,false,false,[],some 4,some ⟨.code,[47],.lcode,false,[],false⟩,some ([(42,(.other,false))],false),true,false,false,none,false,⟨.lblank,some .internalNl,false,.lblank⟩⟩] (.node .leaf 611635986 [⟨⟨(.inside 1),[],.lcomment,true,[],false⟩,false,false,[],some 4,some ⟨.code,[47],.lcomment,false,[],false⟩,some ([(42,(.other,false))],false),false,false,false,none,false,⟨.lcomment,some (.own 3),false,.lblank⟩⟩] .leaf)) 611635994 [⟨⟨(.inside 1),[],.lcomment,true,[],false⟩,false,false,[],some 4,some ⟨.code,[47],.lcomment,false,[],false⟩,some ([(42,(.other,false))],false),true,false,false,none,false,⟨.lcomment,some .internalNl,false,.lblank⟩⟩] (.node (.node .leaf 611783974 [⟨⟨(.inside 1),[],.lblank,true,[],false⟩,false,false,[],some 4,some ⟨.code,[47],.lcomment,false,[],false⟩,some ([(42,(.other,false))],false),true,false,false,none,false,⟨.lblank,some .internalNl,false,.lblank⟩⟩] .leaf) 612844854 [⟨⟨(.inside 1),[],.lcomment,true,[],false⟩,false,false,[],some 4,some ⟨.code,[47],.lblank,false,[],false⟩,some ([(42,(.other,false))],false),false,false,false,none,false,⟨.lcomment,some (.own 3),false,.lblank⟩⟩] (.node .leaf 612844862 [⟨⟨(.inside 1),[],.lcomment,true,[],false⟩,false,false,[],some 4,some ⟨.code,[47],.lblank,false,[],false⟩,some ([(42,(.other,false))],false),true,false,false,none,false,⟨.lcomment,some .internalNl,false,.lblank⟩⟩] .leaf))) 612992842 [⟨⟨(.inside 1),[],.lblank,true,[],false⟩,false,false,[],some 4,some ⟨.code,[47],.lblank,false,[],false⟩,some ([(42,(.other,false))],false),true,false,false,none,false,⟨.lblank,some .internalNl,false,.lblank⟩⟩] (.node (.node (.node .leaf 624686353 [⟨⟨(.inside 1),[],.lcode,true,[],false⟩,false,false,[],some 4,some ⟨.code,[47],.lcode,false,[(2,0)],false⟩,some ([(42,(.other,false))],false),false,false,false,none,false,⟨.lcode,some (.own 3),false,.lblank⟩⟩] .leaf) 624687122 [⟨⟨(.inside 1),[],.lcode,true,[],false⟩,false,false,[],some 4,some ⟨.code,[47],.lcode,false,[(2,1)],false⟩,some ([(42,(.other,false))],false),false,false,false,none,false,⟨.lcode,some (.own 3),false,.lblank⟩⟩] (.node .leaf 624691736 [⟨⟨(.inside 1),[],.lcode,true,[],false⟩,false,false,[],some 4,some ⟨.code,[47],.lcode,false,[(3,0)],false⟩,some ([(42,(.other,false))],false),false,false,false,none,false,⟨.lcode,some (.own 3),false,.lblank⟩⟩] .leaf)) 624692505 [⟨⟨(.inside 1),[],.lcode,true,[],false⟩,false,false,[],some 4,some ⟨.code,[47],.lcode,false,[(3,1)],false⟩,some ([(42,(.other,false))],false),false,false,false,none,false,⟨.lcode,some (.own 3),false,.lblank⟩⟩] (.node (.node .leaf 624834341 [⟨⟨(.inside 1),[],.lcomment,true,[],false⟩,false,false,[],some 4,some ⟨.code,[47],.lcode,false,[(2,0)],false⟩,some ([(42,(.other,false))],false),true,false,false,none,false,⟨.lcomment,some .internalNl,false,.lblank⟩⟩] .leaf) 624835110 [⟨⟨(.inside 1),[],.lcomment,true,[],false⟩,false,false,[],some 4,some ⟨.code,[47],.lcode,false,[(2,1)],false⟩,some ([(42,(.other,false))],false),true,false,false,none,false,⟨.lcomment,some .internalNl,false,.lblank⟩⟩] (.node .leaf 624839724 [⟨⟨(.inside 1),[],.lcomment,true,[],false⟩,false,false,[],some 4,some ⟨.code,[47],.lcode,false,[(3,0)],false⟩,some ([(42,(.other,false))],false),true,false,false,none,false,⟨.lcomment,some .internalNl,false,.lblank⟩⟩] .leaf)))) 624840493 [⟨⟨(.inside 1),[],.lcomment,true,[],false⟩,false,false,[],some 4,some ⟨.code,[47],.lcode,false,[(3,1)],false⟩,some ([(42,(.other,false))],false),true,false,false,none,false,⟨.lcomment,some .internalNl,false,.lblank⟩⟩] (.node (.node (.node (.node (.node .leaf 624982321 [⟨⟨(.inside 1),[],.lblank,true,[],false⟩,false,false,[],some 4,some ⟨.code,[47],.lcode,false,[(2,0)],false⟩,some ([(42,(.other,false))],false),true,false,false,none,false,⟨.lblank,some .internalNl,false,.lblank⟩⟩] .leaf) 624983090 [⟨⟨(.inside 1),[],.lblank,true,[],false⟩,false,false,[],some 4,some ⟨.code,[47],.lcode,false,[(2,1)],false⟩,some ([(42,(.other,false))],false),true,false,false,none,false,⟨.lblank,some .internalNl,false,.lblank⟩⟩] .leaf) 624987704 [⟨⟨(.inside 1),[],.lblank,true,[],false⟩,false,false,[],some 4,some ⟨.code,[47],.lcode,false,[(3,0)],false⟩,some ([(42,(.other,false))],false),true,false,false,none,false,⟨.lblank,some .internalNl,false,.lblank⟩⟩] (.node .leaf 624988473 [⟨⟨(.inside 1),[],.lblank,true,[],false⟩,false,false,[],some 4,some ⟨.code,[47],.lcode,false,[(3,1)],false⟩,some ([(42,(.other,false))],false),true,false,false,none,false,⟨.lblank,some .internalNl,false,.lblank⟩⟩] .leaf)) 2512036901 [⟨⟨(.inside 1),[],.lcode,true,[],false⟩,false,false,[],some 4,some ⟨.code,[47],.lcode,false,[(2,0),(3,0)],false⟩,some ([(42,(.other,false))],false),false,false,false,none,false,⟨.lcode,some (.own 3),false,.lblank⟩⟩] (.node (.node .leaf 2512138409 [⟨⟨(.inside 1),[],.lcode,true,[],false⟩,false,false,[],some 4,some ⟨.code,[47],.lcode,false,[(2,1),(3,1)],false⟩,some ([(42,(.other,false))],false),false,false,false,none,false,⟨.lcode,some (.own 3),false,.lblank⟩⟩] .leaf) 2512184889 [⟨⟨(.inside 1),[],.lcomment,true,[],false⟩,false,false,[],some 4,some ⟨.code,[47],.lcode,false,[(2,0),(3,0)],false⟩,some ([(42,(.other,false))],false),true,false,false,none,false,⟨.lcomment,some .internalNl,false,.lblank⟩⟩] (.node .leaf 2512286397 [⟨⟨(.inside 1),[],.lcomment,true,[],false⟩,false,false,[],some 4,some ⟨.code,[47],.lcode,false,[(2,1),(3,1)],false⟩,some ([(42,(.other,false))],false),true,false,false,none,false,⟨.lcomment,some .internalNl,false,.lblank⟩⟩] .leaf))) 2512332869 [⟨⟨(.inside 1),[],.lblank,true,[],false⟩,false,false,[],some 4,some ⟨.code,[47],.lcode,false,[(2,0),(3,0)],false⟩,some ([(42,(.other,false))],false),true,false,false,none,false,⟨.lblank,some .internalNl,false,.lblank⟩⟩] (.node (.node (.node .leaf 2512434377 [⟨⟨(.inside 1),[],.lblank,true,[],false⟩,false,false,[],some 4,some ⟨.code,[47],.lcode,false,[(2,1),(3,1)],false⟩,some ([(42,(.other,false))],false),true,false,false,none,false,⟨.lblank,some .internalNl,false,.lblank⟩⟩] .leaf) 2512736691 [⟨⟨(.inside 1),[],.lcode,true,[],false⟩,false,false,[],some 4,some ⟨.code,[47],.lcode,false,[(3,0),(2,0)],false⟩,some ([(42,(.other,false))],false),false,false,false,none,false,⟨.lcode,some (.own 3),false,.lblank⟩⟩] (.node .leaf 2512838199 [⟨⟨(.inside 1),[],.lcode,true,[],false⟩,false,false,[],some 4,some ⟨.code,[47],.lcode,false,[(3,1),(2,1)],false⟩,some ([(42,(.other,false))],false),false,false,false,none,false,⟨.lcode,some (.own 3),false,.lblank⟩⟩] .leaf)) 2512884679 [⟨⟨(.inside 1),[],.lcomment,true,[],false⟩,false,false,[],some 4,some ⟨.code,[47],.lcode,false,[(3,0),(2,0)],false⟩,some ([(42,(.other,false))],false),true,false,false,none,false,⟨.lcomment,some .internalNl,false,.lblank⟩⟩] (.node (.node .leaf 2512986187 [⟨⟨(.inside 1),[],.lcomment,true,[],false⟩,false,false,[],some 4,some ⟨.code,[47],.lcode,false,[(3,1),(2,1)],false⟩,some ([(42,(.other,false))],false),true,false,false,none,false,⟨.lcomment,some .internalNl,false,.lblank⟩⟩] .leaf) 2513032659 [⟨⟨(.inside 1),[],.lblank,true,[],false⟩,false,false,[],some 4,some ⟨.code,[47],.lcode,false,[(3,0),(2,0)],false⟩,some ([(42,(.other,false))],false),true,false,false,none,false,⟨.lblank,some .internalNl,false,.lblank⟩⟩] (.node .leaf 2513134167 [⟨⟨(.inside 1),[],.lblank,true,[],false⟩,false,false,[],some 4,some ⟨.code,[47],.lcode,false,[(3,1),(2,1)],false⟩,some ([(42,(.other,false))],false),true,false,false,none,false,⟨.lblank,some .internalNl,false,.lblank⟩⟩] .leaf))))),(.node (.node (.node (.node (.node (.node .leaf 610279138 [⟨⟨(.inside 1),[],.lcode,true,[],false⟩,false,false,[],some 4,some ⟨.code,[47],.lcode,false,[],false⟩,some ([(42,(.other,false))],false),false,false,false,none,false,⟨.lcode,some (.own 3),false,.lblank⟩⟩] .leaf) 610427126 [⟨⟨(.inside 1),[],.lcomment,true,[],false⟩,false,false,[],some 4,some ⟨.code,[47],.lcode,false,[],false⟩,some ([(42,(.other,false))],false),true,false,false,none,false,⟨.lcomment,some .internalNl,false,.lblank⟩⟩] .leaf) 610575106 [⟨⟨(.inside 1),[],.lblank,true,[],false⟩,false,false,[],some 4,some ⟨.code,[47],.lcode,false,[],false⟩,some ([(42,(.other,false))],false),true,false,false,none,false,⟨.lblank,some .internalNl,false,.lblank⟩⟩] (.node .leaf 611635986 [⟨⟨(.inside 1),[],.lcomment,true,[],false⟩,false,false,[],some 4,some ⟨.code,[47],.lcomment,false,[],false⟩,some ([(42,(.other,false))],false),false,false,false,none,false,⟨.lcomment,some (.own 3),false,.lblank⟩⟩] .leaf)) 611635994 [⟨⟨(.inside 1),[],.lcomment,true,[],false⟩,false,false,[],some 4,some ⟨.code,[47],.lcomment,false,[],false⟩,some ([(42,(.other,false))],false),true,false,false,none,false,⟨.lcomment,some .internalNl,false,.lblank⟩⟩] (.node (.node .leaf 611783974 [⟨⟨(.inside 1),[],.lblank,true,[],false⟩,false,false,[],some 4,some ⟨.code,[47],.lcomment,false,[],false⟩,some ([(42,(.other,false))],false),true,false,false,none,false,⟨.lblank,some .internalNl,false,.lblank⟩⟩] .leaf) 612844854 [⟨⟨(.inside 1),[],.lcomment,true,[],false⟩,false,false,[],some 4,some ⟨.code,[47],.lblank,false,[],false⟩,some ([(42,(.other,false))],false),false,false,false,none,false,⟨.lcomment,some (.own 3),false,.lblank⟩⟩] (.node .leaf 612844862 [⟨⟨(.inside 1),[],.lcomment,true,[],false⟩,false,false,[],some 4,some ⟨.code,[47],.lblank,false,[],false⟩,some ([(42,(.other,false))],false),true,false,false,none,false,⟨.lcomment,some .internalNl,false,.lblank⟩⟩] .leaf))) 612992842 [⟨⟨(.inside 1),[],.lblank,true,[],false⟩,false,false,[],some 4,some ⟨.code,[47],.lblank,false,[],false⟩,some ([(42,(.other,false))],false),true,false,false,none,false,⟨.lblank,some .internalNl,false,.lblank⟩⟩] (.node (.node (.node .leaf 624686353 [⟨⟨(.inside 1),[],.lcode,true,[],false⟩,false,false,[],some 4,some ⟨.code,[47],.lcode,false,[(2,0)],false⟩,some ([(42,(.other,false))],false),false,false,false,none,false,⟨.lcode,some (.own 3),false,.lblank⟩⟩] .leaf) 624687122 [⟨⟨(.inside 1),[],.lcode,true,[],false⟩,false,false,[],some 4,some ⟨.code,[47],.lcode,false,[(2,1)],false⟩,some ([(42,(.other,false))],false),false,false,false,none,false,⟨.lcode,some (.own 3),false,.lblank⟩⟩] (.node .leaf 624691736 [⟨⟨(.inside 1),[],.lcode,true,[],false⟩,false,false,[],some 4,some ⟨.code,[47],.lcode,false,[(3,0)],false⟩,some ([(42,(.other,false))],false),false,false,false,none,false,⟨.lcode,some (.own 3),false,.lblank⟩⟩] .leaf)) 624692505 [⟨⟨(.inside 1),[],.lcode,true,[],false⟩,false,false,[],some 4,some ⟨.code,[47],.lcode,false,[(3,1)],false⟩,some ([(42,(.other,false))],false),false,false,false,none,false,⟨.lcode,some (.own 3),false,.lblank⟩⟩] (.node (.node .leaf 624834341 [⟨⟨(.inside 1),[],.lcomment,true,[],false⟩,false,false,[],some 4,some ⟨.code,[47],.lcode,false,[(2,0)],false⟩,some ([(42,(.other,false))],false),true,false,false,none,false,⟨.lcomment,some .internalNl,false,.lblank⟩⟩] .leaf) 624835110 [⟨⟨(.inside 1),[],.lcomment,true,[],false⟩,false,false,[],some 4,some ⟨.code,[47],.lcode,false,[(2,1)],false⟩,some ([(42,(.other,false))],false),true,false,false,none,false,⟨.lcomment,some .internalNl,false,.lblank⟩⟩] (.node .leaf 624839724 [⟨⟨(.inside 1),[],.lcomment,true,[],false⟩,false,false,[],some 4,some ⟨.code,[47],.lcode,false,[(3,0)],false⟩,some ([(42,(.other,false))],false),true,false,false,none,false,⟨.lcomment,some .internalNl,false,.lblank⟩⟩] .leaf)))) 624840493 [⟨⟨(.inside 1),[],.lcomment,true,[],false⟩,false,false,[],some 4,some ⟨.code,[47],.lcode,false,[(3,1)],false⟩,some ([(42,(.other,false))],false),true,false,false,none,false,⟨.lcomment,some .internalNl,false,.lblank⟩⟩] (.node (.node (.node (.node (.node .leaf 624982321 [⟨⟨(.inside 1),[],.lblank,true,[],false⟩,false,false,[],some 4,some ⟨.code,[47],.lcode,false,[(2,0)],false⟩,some ([(42,(.other,false))],false),true,false,false,none,false,⟨.lblank,some .internalNl,false,.lblank⟩⟩] .leaf) 624983090 [⟨⟨(.inside 1),[],.lblank,true,[],false⟩,false,false,[],some 4,some ⟨.code,[47],.lcode,false,[(2,1)],false⟩,some ([(42,(.other,false))],false),true,false,false,none,false,⟨.lblank,some .internalNl,false,.lblank⟩⟩] .leaf) 624987704 [⟨⟨(.inside 1),[],.lblank,true,[],false⟩,false,false,[],some 4,some ⟨.code,[47],.lcode,false,[(3,0)],false⟩,some ([(42,(.other,false))],false),true,false,false,none,false,⟨.lblank,some .internalNl,false,.lblank⟩⟩] (.node .leaf 624988473 [⟨⟨(.inside 1),[],.lblank,true,[],false⟩,false,false,[],some 4,some ⟨.code,[47],.lcode,false,[(3,1)],false⟩,some ([(42,(.other,false))],false),true,false,false,none,false,⟨.lblank,some .internalNl,false,.lblank⟩⟩] .leaf)) 2512036901 [⟨⟨(.inside 1),[],.lcode,true,[],false⟩,false,false,[],some 4,some ⟨.code,[47],.lcode,false,[(2,0),(3,0)],false⟩,some ([(42,(.other,false))],false),false,false,false,none,false,⟨.lcode,some (.own 3),false,.lblank⟩⟩] (.node (.node .leaf 2512138409 [⟨⟨(.inside 1),[],.lcode,true,[],false⟩,false,false,[],some 4,some ⟨.code,[47],.lcode,false,[(2,1),(3,1)],false⟩,some ([(42,(.other,false))],false),false,false,false,none,false,⟨.lcode,some (.own 3),false,.lblank⟩⟩] .leaf) 2512184889 [⟨⟨(.inside 1),[],.lcomment,true,[],false⟩,false,false,[],some 4,some ⟨.code,[47],.lcode,false,[(2,0),(3,0)],false⟩,some ([(42,(.other,false))],false),true,false,false,none,false,⟨.lcomment,some .internalNl,false,.lblank⟩⟩] (.node .leaf 2512286397 [⟨⟨(.inside 1),[],.lcomment,true,[],false⟩,false,false,[],some 4,some ⟨.code,[47],.lcode,false,[(2,1),(3,1)],false⟩,some ([(42,(.other,false))],false),true,false,false,none,false,⟨.lcomment,some .internalNl,false,.lblank⟩⟩] .leaf))) 2512332869 [⟨⟨(.inside 1),[],.lblank,true,[],false⟩,false,false,[],some 4,some ⟨.code,[47],.lcode,false,[(2,0),(3,0)],false⟩,some ([(42,(.other,false))],false),true,false,false,none,false,⟨.lblank,some .internalNl,false,.lblank⟩⟩] (.node (.node (.node .leaf 2512434377 [⟨⟨(.inside 1),[],.lblank,true,[],false⟩,false,false,[],some 4,some ⟨.code,[47],.lcode,false,[(2,1),(3,1)],false⟩,some ([(42,(.other,false))],false),true,false,false,none,false,⟨.lblank,some .internalNl,false,.lblank⟩⟩] .leaf) 2512736691 [⟨⟨(.inside 1),[],.lcode,true,[],false⟩,false,false,[],some 4,some ⟨.code,[47],.lcode,false,[(3,0),(2,0)],false⟩,some ([(42,(.other,false))],false),false,false,false,none,false,⟨.lcode,some (.own 3),false,.lblank⟩⟩] (.node .leaf 2512838199 [⟨⟨(.inside 1),[],.lcode,true,[],false⟩,false,false,[],some 4,some ⟨.code,[47],.lcode,false,[(3,1),(2,1)],false⟩,some ([(42,(.other,false))],false),false,false,false,none,false,⟨.lcode,some (.own 3),false,.lblank⟩⟩] .leaf)) 2512884679 [⟨⟨(.inside 1),[],.lcomment,true,[],false⟩,false,false,[],some 4,some ⟨.code,[47],.lcode,false,[(3,0),(2,0)],false⟩,some ([(42,(.other,false))],false),true,false,false,none,false,⟨.lcomment,some .internalNl,false,.lblank⟩⟩] (.node (.node .leaf 2512986187 [⟨⟨(.inside 1),[],.lcomment,true,[],false⟩,false,false,[],some 4,some ⟨.code,[47],.lcode,false,[(3,1),(2,1)],false⟩,some ([(42,(.other,false))],false),true,false,false,none,false,⟨.lcomment,some .internalNl,false,.lblank⟩⟩] .leaf) 2513032659 [⟨⟨(.inside 1),[],.lblank,true,[],false⟩,false,false,[],some 4,some ⟨.code,[47],.lcode,false,[(3,0),(2,0)],false⟩,some ([(42,(.other,false))],false),true,false,false,none,false,⟨.lblank,some .internalNl,false,.lblank⟩⟩] (.node .leaf 2513134167 [⟨⟨(.inside 1),[],.lblank,true,[],false⟩,false,false,[],some 4,some ⟨.code,[47],.lcode,false,[(3,1),(2,1)],false⟩,some ([(42,(.other,false))],false),true,false,false,none,false,⟨.lblank,some .internalNl,false,.lblank⟩⟩] .leaf))))),(.node (.node (.node (.node (.node (.node .leaf 610242303 [⟨⟨(.inside 1),[],.lcode,false,[],false⟩,true,false,[],some 4,some ⟨.code,[47],.lcode,false,[],false⟩,some ([(42,(.other,false))],false),false,false,false,none,false,⟨.lcode,some (.own 3),false,.lblank⟩⟩] .leaf) 610390291 [⟨⟨(.inside 1),[],.lcomment,false,[],false⟩,true,false,[],some 4,some ⟨.code,[47],.lcode,false,[],false⟩,some ([(42,(.other,false))],false),true,false,false,none,false,⟨.lcomment,some .internalNl,false,.lblank⟩⟩] .leaf) 610538271 [⟨⟨(.inside 1),[],.lblank,false,[],false⟩,true,false,[],some 4,some ⟨.code,[47],.lcode,false,[],false⟩,some ([(42,(.other,false))],false),true,false,false,none,false,⟨.lblank,some .internalNl,false,.lblank⟩⟩] (.node .leaf 611599151 [⟨⟨(.inside 1),[],.lcomment,false,[],false⟩,true,false,[],some 4,some ⟨.code,[47],.lcomment,false,[],false⟩,some ([(42,(.other,false))],false),false,false,false,none,false,⟨.lcomment,some (.own 3),false,.lblank⟩⟩] .leaf)) 611599159 [⟨⟨(.inside 1),[],.lcomment,false,[],false⟩,true,false,[],some 4,some ⟨.code,[47],.lcomment,false,[],false⟩,some ([(42,(.other,false))],false),true,false,false,none,false,⟨.lcomment,some .internalNl,false,.lblank⟩⟩] (.node (.node .leaf 611747139 [⟨⟨(.inside 1),[],.lblank,false,[],false⟩,true,false,[],some 4,some ⟨.code,[47],.lcomment,false,[],false⟩,some ([(42,(.other,false))],false),true,false,false,none,false,⟨.lblank,some .internalNl,false,.lblank⟩⟩] .leaf) 612808019 [⟨⟨(.inside 1),[],.lcomment,false,[],false⟩,true,false,[],some 4,some ⟨.code,[47],.lblank,false,[],false⟩,some ([(42,(.other,false))],false),false,false,false,none,false,⟨.lcomment,some (.own 3),false,.lblank⟩⟩] (.node .leaf 612808027 [⟨⟨(.inside 1),[],.lcomment,false,[],false⟩,true,false,[],some 4,some ⟨.code,[47],.lblank,false,[],false⟩,some ([(42,(.other,false))],false),true,false,false,none,false,⟨.lcomment,some .internalNl,false,.lblank⟩⟩] .leaf))) 612956007 [⟨⟨(.inside 1),[],.lblank,false,[],false⟩,true,false,[],some 4,some ⟨.code,[47],.lblank,false,[],false⟩,some ([(42,(.other,false))],false),true,false,false,none,false,⟨.lblank,some .internalNl,false,.lblank⟩⟩] (.node (.node (.node .leaf 624649518 [⟨⟨(.inside 1),[],.lcode,false,[],false⟩,true,false,[],some 4,some ⟨.code,[47],.lcode,false,[(2,0)],false⟩,some ([(42,(.other,false))],false),false,false,false,none,false,⟨.lcode,some (.own 3),false,.lblank⟩⟩] .leaf) 624650287 [⟨⟨(.inside 1),[],.lcode,false,[],false⟩,true,false,[],some 4,some ⟨.code,[47],.lcode,false,[(2,1)],false⟩,some ([(42,(.other,false))],false),false,false,false,none,false,⟨.lcode,some (.own 3),false,.lblank⟩⟩] (.node .leaf 624654901 [⟨⟨(.inside 1),[],.lcode,false,[],false⟩,true,false,[],some 4,some ⟨.code,[47],.lcode,false,[(3,0)],false⟩,some ([(42,(.other,false))],false),false,false,false,none,false,⟨.lcode,some (.own 3),false,.lblank⟩⟩] .leaf)) 624655670 [⟨⟨(.inside 1),[],.lcode,false,[],false⟩,true,false,[],some 4,some ⟨.code,[47],.lcode,false,[(3,1)],false⟩,some ([(42,(.other,false))],false),false,false,false,none,false,⟨.lcode,some (.own 3),false,.lblank⟩⟩] (.node (.node .leaf 624797506 [⟨⟨(.inside 1),[],.lcomment,false,[],false⟩,true,false,[],some 4,some ⟨.code,[47],.lcode,false,[(2,0)],false⟩,some ([(42,(.other,false))],false),true,false,false,none,false,⟨.lcomment,some .internalNl,false,.lblank⟩⟩] .leaf) 624798275 [⟨⟨(.inside 1),[],.lcomment,false,[],false⟩,true,false,[],some 4,some ⟨.code,[47],.lcode,false,[(2,1)],false⟩,some ([(42,(.other,false))],false),true,false,false,none,false,⟨.lcomment,some .internalNl,false,.lblank⟩⟩] (.node .leaf 624802889 [⟨⟨(.inside 1),[],.lcomment,false,[],false⟩,true,false,[],some 4,some ⟨.code,[47],.lcode,false,[(3,0)],false⟩,some ([(42,(.other,false))],false),true,false,false,none,false,⟨.lcomment,some .internalNl,false,.lblank⟩⟩] .leaf)))) 624803658 [⟨⟨(.inside 1),[],.lcomment,false,[],false⟩,true,false,[],some 4,some ⟨.code,[47],.lcode,false,[(3,1)],false⟩,some ([(42,(.other,false))],false),true,false,false,none,false,⟨.lcomment,some .internalNl,false,.lblank⟩⟩] (.node (.node (.node (.node (.node .leaf 624945486 [⟨⟨(.inside 1),[],.lblank,false,[],false⟩,true,false,[],some 4,some ⟨.code,[47],.lcode,false,[(2,0)],false⟩,some ([(42,(.other,false))],false),true,false,false,none,false,⟨.lblank,some .internalNl,false,.lblank⟩⟩] .leaf) 624946255 [⟨⟨(.inside 1),[],.lblank,false,[],false⟩,true,false,[],some 4,some ⟨.code,[47],.lcode,false,[(2,1)],false⟩,some ([(42,(.other,false))],false),true,false,false,none,false,⟨.lblank,some .internalNl,false,.lblank⟩⟩] .leaf) 624950869 [⟨⟨(.inside 1),[],.lblank,false,[],false⟩,true,false,[],some 4,some ⟨.code,[47],.lcode,false,[(3,0)],false⟩,some ([(42,(.other,false))],false),true,false,false,none,false,⟨.lblank,some .internalNl,false,.lblank⟩⟩] (.node .leaf 624951638 [⟨⟨(.inside 1),[],.lblank,false,[],false⟩,true,false,[],some 4,some ⟨.code,[47],.lcode,false,[(3,1)],false⟩,some ([(42,(.other,false))],false),true,false,false,none,false,⟨.lblank,some .internalNl,false,.lblank⟩⟩] .leaf)) 2512000066 [⟨⟨(.inside 1),[],.lcode,false,[],false⟩,true,false,[],some 4,some ⟨.code,[47],.lcode,false,[(2,0),(3,0)],false⟩,some ([(42,(.other,false))],false),false,false,false,none,false,⟨.lcode,some (.own 3),false,.lblank⟩⟩] (.node (.node .leaf 2512101574 [⟨⟨(.inside 1),[],.lcode,false,[],false⟩,true,false,[],some 4,some ⟨.code,[47],.lcode,false,[(2,1),(3,1)],false⟩,some ([(42,(.other,false))],false),false,false,false,none,false,⟨.lcode,some (.own 3),false,.lblank⟩⟩] .leaf) 2512148054 [⟨⟨(.inside 1),[],.lcomment,false,[],false⟩,true,false,[],some 4,some ⟨.code,[47],.lcode,false,[(2,0),(3,0)],false⟩,some ([(42,(.other,false))],false),true,false,false,none,false,⟨.lcomment,some .internalNl,false,.lblank⟩⟩] (.node .leaf 2512249562 [⟨⟨(.inside 1),[],.lcomment,false,[],false⟩,true,false,[],some 4,some ⟨.code,[47],.lcode,false,[(2,1),(3,1)],false⟩,some ([(42,(.other,false))],false),true,false,false,none,false,⟨.lcomment,some .internalNl,false,.lblank⟩⟩] .leaf))) 2512296034 [⟨⟨(.inside 1),[],.lblank,false,[],false⟩,true,false,[],some 4,some ⟨.code,[47],.lcode,false,[(2,0),(3,0)],false⟩,some ([(42,(.other,false))],false),true,false,false,none,false,⟨.lblank,some .internalNl,false,.lblank⟩⟩] (.node (.node (.node .leaf 2512397542 [⟨⟨(.inside 1),[],.lblank,false,[],false⟩,true,false,[],some 4,some ⟨.code,[47],.lcode,false,[(2,1),(3,1)],false⟩,some ([(42,(.other,false))],false),true,false,false,none,false,⟨.lblank,some .internalNl,false,.lblank⟩⟩] .leaf) 2512699856 [⟨⟨(.inside 1),[],.lcode,false,[],false⟩,true,false,[],some 4,some ⟨.code,[47],.lcode,false,[(3,0),(2,0)],false⟩,some ([(42,(.other,false))],false),false,false,false,none,false,⟨.lcode,some (.own 3),false,.lblank⟩⟩] (.node .leaf 2512801364 [⟨⟨(.inside 1),[],.lcode,false,[],false⟩,true,false,[],some 4,some ⟨.code,[47],.lcode,false,[(3,1),(2,1)],false⟩,some ([(42,(.other,false))],false),false,false,false,none,false,⟨.lcode,some (.own 3),false,.lblank⟩⟩] .leaf)) 2512847844 [⟨⟨(.inside 1),[],.lcomment,false,[],false⟩,true,false,[],some 4,some ⟨.code,[47],.lcode,false,[(3,0),(2,0)],false⟩,some ([(42,(.other,false))],false),true,false,false,none,false,⟨.lcomment,some .internalNl,false,.lblank⟩⟩] (.node (.node .leaf 2512949352 [⟨⟨(.inside 1),[],.lcomment,false,[],false⟩,true,false,[],some 4,some ⟨.code,[47],.lcode,false,[(3,1),(2,1)],false⟩,some ([(42,(.other,false))],false),true,false,false,none,false,⟨.lcomment,some .internalNl,false,.lblank⟩⟩] .leaf) 2512995824 [⟨⟨(.inside 1),[],.lblank,false,[],false⟩,true,false,[],some 4,some ⟨.code,[47],.lcode,false,[(3,0),(2,0)],false⟩,some ([(42,(.other,false))],false),true,false,false,none,false,⟨.lblank,some .internalNl,false,.lblank⟩⟩] (.node .leaf 2513097332 [⟨⟨(.inside 1),[],.lblank,false,[],false⟩,true,false,[],some 4,some ⟨.code,[47],.lcode,false,[(3,1),(2,1)],false⟩,some ([(42,(.other,false))],false),true,false,false,none,false,⟨.lblank,some .internalNl,false,.lblank⟩⟩] .leaf))))),(.node (.node (.node (.node (.node (.node .leaf 610279154 [⟨⟨(.inside 1),[],.lcode,true,[],false⟩,false,true,[],some 4,some ⟨.code,[47],.lcode,false,[],false⟩,some ([(42,(.other,false))],false),false,false,false,none,false,⟨.lcode,some (.own 3),false,.lblank⟩⟩] .leaf) 610427142 [⟨⟨(.inside 1),[],.lcomment,true,[],false⟩,false,true,[],some 4,some ⟨.code,[47],.lcode,false,[],false⟩,some ([(42,(.other,false))],false),true,false,false,none,false,⟨.lcomment,some .internalNl,false,.lblank⟩⟩] .leaf) 610575122 [⟨⟨(.inside 1),[],.lblank,true,[],false⟩,false,true,[],some 4,some ⟨.code,[47],.lcode,false,[],false⟩,some ([(42,(.other,false))],false),true,false,false,none,false,⟨.lblank,some .internalNl,false,.lblank⟩⟩] (.node .leaf 611636002 [⟨⟨(.inside 1),[],.lcomment,true,[],false⟩,false,true,[],some 4,some ⟨.code,[47],.lcomment,false,[],false⟩,some ([(42,(.other,false))],false),false,false,false,none,false,⟨.lcomment,some (.own 3),false,.lblank⟩⟩] .leaf)) 611636010 [⟨⟨(.inside 1),[],.lcomment,true,[],false⟩,false,true,[],some 4,some ⟨.code,[47],.lcomment,false,[],false⟩,some ([(42,(.other,false))],false),true,false,false,none,false,⟨.lcomment,some .internalNl,false,.lblank⟩⟩] (.node (.node .leaf 611783990 [⟨⟨(.inside 1),[],.lblank,true,[],false⟩,false,true,[],some 4,some ⟨.code,[47],.lcomment,false,[],false⟩,some ([(42,(.other,false))],false),true,false,false,none,false,⟨.lblank,some .internalNl,false,.lblank⟩⟩] .leaf) 612844870 [⟨⟨(.inside 1),[],.lcomment,true,[],false⟩,false,true,[],some 4,some ⟨.code,[47],.lblank,false,[],false⟩,some ([(42,(.other,false))],false),false,false,false,none,false,⟨.lcomment,some (.own 3),false,.lblank⟩⟩] (.node .leaf 612844878 [⟨⟨(.inside 1),[],.lcomment,true,[],false⟩,false,true,[],some 4,some ⟨.code,[47],.lblank,false,[],false⟩,some ([(42,(.other,false))],false),true,false,false,none,false,⟨.lcomment,some .internalNl,false,.lblank⟩⟩] .leaf))) 612992858 [⟨⟨(.inside 1),[],.lblank,true,[],false⟩,false,true,[],some 4,some ⟨.code,[47],.lblank,false,[],false⟩,some ([(42,(.other,false))],false),true,false,false,none,false,⟨.lblank,some .internalNl,false,.lblank⟩⟩] (.node (.node (.node .leaf 624686369 [⟨⟨(.inside 1),[],.lcode,true,[],false⟩,false,true,[],some 4,some ⟨.code,[47],.lcode,false,[(2,0)],false⟩,some ([(42,(.other,false))],false),false,false,false,none,false,⟨.lcode,some (.own 3),false,.lblank⟩⟩] .leaf) 624687138 [⟨⟨(.inside 1),[],.lcode,true,[],false⟩,false,true,[],some 4,some ⟨.code,[47],.lcode,false,[(2,1)],false⟩,some ([(42,(.other,false))],false),false,false,false,none,false,⟨.lcode,some (.own 3),false,.lblank⟩⟩] (.node .leaf 624691752 [⟨⟨(.inside 1),[],.lcode,true,[],false⟩,false,true,[],some 4,some ⟨.code,[47],.lcode,false,[(3,0)],false⟩,some ([(42,(.other,false))],false),false,false,false,none,false,⟨.lcode,some (.own 3),false,.lblank⟩⟩] .leaf)) 624692521 [⟨⟨(.inside 1),[],.lcode,true,[],false⟩,false,true,[],some 4,some ⟨.code,[47],.lcode,false,[(3,1)],false⟩,some ([(42,(.other,false))],false),false,false,false,none,false,⟨.lcode,some (.own 3),false,.lblank⟩⟩] (.node (.node .leaf 624834357 [⟨⟨(.inside 1),[],.lcomment,true,[],false⟩,false,true,[],some 4,some ⟨.code,[47],.lcode,false,[(2,0)],false⟩,some ([(42,(.other,false))],false),true,false,false,none,false,⟨.lcomment,some .internalNl,false,.lblank⟩⟩] .leaf) 624835126 [⟨⟨(.inside 1),[],.lcomment,true,[],false⟩,false,true,[],some 4,some ⟨.code,[47],.lcode,false,[(2,1)],false⟩,some ([(42,(.other,false))],false),true,false,false,none,false,⟨.lcomment,some .internalNl,false,.lblank⟩⟩] (.node .leaf 624839740 [⟨⟨(.inside 1),[],.lcomment,true,[],false⟩,false,true,[],some 4,some ⟨.code,[47],.lcode,false,[(3,0)],false⟩,some ([(42,(.other,false))],false),true,false,false,none,false,⟨.lcomment,some .internalNl,false,.lblank⟩⟩] .leaf)))) 624840509 [⟨⟨(.inside 1),[],.lcomment,true,[],false⟩,false,true,[],some 4,some ⟨.code,[47],.lcode,false,[(3,1)],false⟩,some ([(42,(.other,false))],false),true,false,false,none,false,⟨.lcomment,some .internalNl,false,.lblank⟩⟩] (.node (.node (.node (.node (.node .leaf 624982337 [⟨⟨(.inside 1),[],.lblank,true,[],false⟩,false,true,[],some 4,some ⟨.code,[47],.lcode,false,[(2,0)],false⟩,some ([(42,(.other,false))],false),true,false,false,none,false,⟨.lblank,some .internalNl,false,.lblank⟩⟩] .leaf) 624983106 [⟨⟨(.inside 1),[],.lblank,true,[],false⟩,false,true,[],some 4,some ⟨.code,[47],.lcode,false,[(2,1)],false⟩,some ([(42,(.other,false))],false),true,false,false,none,false,⟨.lblank,some .internalNl,false,.lblank⟩⟩] .leaf) 624987720 [⟨⟨(.inside 1),[],.lblank,true,[],false⟩,false,true,[],some 4,some ⟨.code,[47],.lcode,false,[(3,0)],false⟩,some ([(42,(.other,false))],false),true,false,false,none,false,⟨.lblank,some .internalNl,false,.lblank⟩⟩] (.node .leaf 624988489 [⟨⟨(.inside 1),[],.lblank,true,[],false⟩,false,true,[],some 4,some ⟨.code,[47],.lcode,false,[(3,1)],false⟩,some ([(42,(.other,false))],false),true,false,false,none,false,⟨.lblank,some .internalNl,false,.lblank⟩⟩] .leaf)) 2512036917 [⟨⟨(.inside 1),[],.lcode,true,[],false⟩,false,true,[],some 4,some ⟨.code,[47],.lcode,false,[(2,0),(3,0)],false⟩,some ([(42,(.other,false))],false),false,false,false,none,false,⟨.lcode,some (.own 3),false,.lblank⟩⟩] (.node (.node .leaf 2512138425 [⟨⟨(.inside 1),[],.lcode,true,[],false⟩,false,true,[],some 4,some ⟨.code,[47],.lcode,false,[(2,1),(3,1)],false⟩,some ([(42,(.other,false))],false),false,false,false,none,false,⟨.lcode,some (.own 3),false,.lblank⟩⟩] .leaf) 2512184905 [⟨⟨(.inside 1),[],.lcomment,true,[],false⟩,false,true,[],some 4,some ⟨.code,[47],.lcode,false,[(2,0),(3,0)],false⟩,some ([(42,(.other,false))],false),true,false,false,none,false,⟨.lcomment,some .internalNl,false,.lblank⟩⟩] (.node .leaf 2512286413 [⟨⟨(.inside 1),[],.lcomment,true,[],false⟩,false,true,[],some 4,some ⟨.code,[47],.lcode,false,[(2,1),(3,1)],false⟩,some ([(42,(.other,false))],false),true,false,false,none,false,⟨.lcomment,some .internalNl,false,.lblank⟩⟩] .leaf))) 2512332885 [⟨⟨(.inside 1),[],.lblank,true,[],false⟩,false,true,[],some 4,some ⟨.code,[47],.lcode,false,[(2,0),(3,0)],false⟩,some ([(42,(.other,false))],false),true,false,false,none,false,⟨.lblank,some .internalNl,false,.lblank⟩⟩] (.node (.node (.node .leaf 2512434393 [⟨⟨(.inside 1),[],.lblank,true,[],false⟩,false,true,[],some 4,some ⟨.code,[47],.lcode,false,[(2,1),(3,1)],false⟩,some ([(42,(.other,false))],false),true,false,false,none,false,⟨.lblank,some .internalNl,false,.lblank⟩⟩] .leaf) 2512736707 [⟨⟨(.inside 1),[],.lcode,true,[],false⟩,false,true,[],some 4,some ⟨.code,[47],.lcode,false,[(3,0),(2,0)],false⟩,some ([(42,(.other,false))],false),false,false,false,none,false,⟨.lcode,some (.own 3),false,.lblank⟩⟩] (.node .leaf 2512838215 [⟨⟨(.inside 1),[],.lcode,true,[],false⟩,false,true,[],some 4,some ⟨.code,[47],.lcode,false,[(3,1),(2,1)],false⟩,some ([(42,(.other,false))],false),false,false,false,none,false,⟨.lcode,some (.own 3),false,.lblank⟩⟩] .leaf)) 2512884695 [⟨⟨(.inside 1),[],.lcomment,true,[],false⟩,false,true,[],some 4,some ⟨.code,[47],.lcode,false,[(3,0),(2,0)],false⟩,some ([(42,(.other,false))],false),true,false,false,none,false,⟨.lcomment,some .internalNl,false,.lblank⟩⟩] (.node (.node .leaf 2512986203 [⟨⟨(.inside 1),[],.lcomment,true,[],false⟩,false,true,[],some 4,some ⟨.code,[47],.lcode,false,[(3,1),(2,1)],false⟩,some ([(42,(.other,false))],false),true,false,false,none,false,⟨.lcomment,some .internalNl,false,.lblank⟩⟩] .leaf) 2513032675 [⟨⟨(.inside 1),[],.lblank,true,[],false⟩,false,true,[],some 4,some ⟨.code,[47],.lcode,false,[(3,0),(2,0)],false⟩,some ([(42,(.other,false))],false),true,false,false,none,false,⟨.lblank,some .internalNl,false,.lblank⟩⟩] (.node .leaf 2513134183 [⟨⟨(.inside 1),[],.lblank,true,[],false⟩,false,true,[],some 4,some ⟨.code,[47],.lcode,false,[(3,1),(2,1)],false⟩,some ([(42,(.other,false))],false),true,false,false,none,false,⟨.lblank,some .internalNl,false,.lblank⟩⟩] .leaf))))),(.node (.node (.node (.node (.node (.node .leaf 1148611072 [⟨⟨(.inside 1),[42],.lcode,false,[],false⟩,false,false,[],some 4,some ⟨.code,[47],.lcode,false,[],false⟩,some ([(42,(.other,false))],false),false,false,false,none,false,⟨.lcode,some (.own 3),false,.lblank⟩⟩] .leaf) 1167929900 [⟨⟨(.inside 1),[42],.lcomment,false,[],false⟩,false,false,[],some 4,some ⟨.code,[47],.lcode,false,[],false⟩,some ([(42,(.other,false))],false),true,false,false,none,false,⟨.lcomment,some .internalNl,false,.lblank⟩⟩] .leaf) 1169138760 [⟨⟨(.inside 1),[42],.lcomment,false,[],false⟩,false,false,[],some 4,some ⟨.code,[47],.lcomment,false,[],false⟩,some ([(42,(.other,false))],false),false,false,false,none,false,⟨.lcomment,some (.own 3),false,.lblank⟩⟩] (.node (.node .leaf 1169138768 [⟨⟨(.inside 1),[42],.lcomment,false,[],false⟩,false,false,[],some 4,some ⟨.code,[47],.lcomment,false,[],false⟩,some ([(42,(.other,false))],false),true,false,false,none,false,⟨.lcomment,some .internalNl,false,.lblank⟩⟩] .leaf) 1170347628 [⟨⟨(.inside 1),[42],.lcomment,false,[],false⟩,false,false,[],some 4,some ⟨.code,[47],.lblank,false,[],false⟩,some ([(42,(.other,false))],false),false,false,false,none,false,⟨.lcomment,some (.own 3),false,.lblank⟩⟩] .leaf)) 1170347636 [⟨⟨(.inside 1),[42],.lcomment,false,[],false⟩,false,false,[],some 4,some ⟨.code,[47],.lblank,false,[],false⟩,some ([(42,(.other,false))],false),true,false,false,none,false,⟨.lcomment,some .internalNl,false,.lblank⟩⟩] (.node (.node (.node .leaf 1182337115 [⟨⟨(.inside 1),[42],.lcomment,false,[],false⟩,false,false,[],some 4,some ⟨.code,[47],.lcode,false,[(2,0)],false⟩,some ([(42,(.other,false))],false),true,false,false,none,false,⟨.lcomment,some .internalNl,false,.lblank⟩⟩] .leaf) 1182337884 [⟨⟨(.inside 1),[42],.lcomment,false,[],false⟩,false,false,[],some 4,some ⟨.code,[47],.lcode,false,[(2,1)],false⟩,some ([(42,(.other,false))],false),true,false,false,none,false,⟨.lcomment,some .internalNl,false,.lblank⟩⟩] .leaf) 1182342498 [⟨⟨(.inside 1),[42],.lcomment,false,[],false⟩,false,false,[],some 4,some ⟨.code,[47],.lcode,false,[(3,0)],false⟩,some ([(42,(.other,false))],false),true,false,false,none,false,⟨.lcomment,some .internalNl,false,.lblank⟩⟩] (.node .leaf 1182343267 [⟨⟨(.inside 1),[42],.lcomment,false,[],false⟩,false,false,[],some 4,some ⟨.code,[47],.lcode,false,[(3,1)],false⟩,some ([(42,(.other,false))],false),true,false,false,none,false,⟨.lcomment,some .internalNl,false,.lblank⟩⟩] .leaf))) 1187248208 [⟨⟨(.inside 1),[42],.lblank,false,[],false⟩,false,false,[],some 4,some ⟨.code,[47],.lcode,false,[],false⟩,some ([(42,(.other,false))],false),true,false,false,none,false,⟨.lcomment,some .internalNl,false,.lblank⟩⟩] (.node (.node (.node (.node .leaf 1188457076 [⟨⟨(.inside 1),[42],.lblank,false,[],false⟩,false,false,[],some 4,some ⟨.code,[47],.lcomment,false,[],false⟩,some ([(42,(.other,false))],false),true,false,false,none,false,⟨.lcomment,some .internalNl,false,.lblank⟩⟩] .leaf) 1189665944 [⟨⟨(.inside 1),[42],.lblank,false,[],false⟩,false,false,[],some 4,some ⟨.code,[47],.lblank,false,[],false⟩,some ([(42,(.other,false))],false),true,false,false,none,false,⟨.lcomment,some .internalNl,false,.lblank⟩⟩] .leaf) 1201655423 [⟨⟨(.inside 1),[42],.lblank,false,[],false⟩,false,false,[],some 4,some ⟨.code,[47],.lcode,false,[(2,0)],false⟩,some ([(42,(.other,false))],false),true,false,false,none,false,⟨.lcomment,some .internalNl,false,.lblank⟩⟩] (.node .leaf 1201656192 [⟨⟨(.inside 1),[42],.lblank,false,[],false⟩,false,false,[],some 4,some ⟨.code,[47],.lcode,false,[(2,1)],false⟩,some ([(42,(.other,false))],false),true,false,false,none,false,⟨.lcomment,some .internalNl,false,.lblank⟩⟩] .leaf)) 1201660806 [⟨⟨(.inside 1),[42],.lblank,false,[],false⟩,false,false,[],some 4,some ⟨.code,[47],.lcode,false,[(3,0)],false⟩,some ([(42,(.other,false))],false),true,false,false,none,false,⟨.lcomment,some .internalNl,false,.lblank⟩⟩] (.node (.node (.node .leaf 1201661575 [⟨⟨(.inside 1),[42],.lblank,false,[],false⟩,false,false,[],some 4,some ⟨.code,[47],.lcode,false,[(3,1)],false⟩,some ([(42,(.other,false))],false),true,false,false,none,false,⟨.lcomment,some .internalNl,false,.lblank⟩⟩] .leaf) 3069687663 [⟨⟨(.inside 1),[42],.lcomment,false,[],false⟩,false,false,[],some 4,some ⟨.code,[47],.lcode,false,[(2,0),(3,0)],false⟩,some ([(42,(.other,false))],false),true,false,false,none,false,⟨.lcomment,some .internalNl,false,.lblank⟩⟩] .leaf) 3069789171 [⟨⟨(.inside 1),[42],.lcomment,false,[],false⟩,false,false,[],some 4,some ⟨.code,[47],.lcode,false,[(2,1),(3,1)],false⟩,some ([(42,(.other,false))],false),true,false,false,none,false,⟨.lcomment,some .internalNl,false,.lblank⟩⟩] (.node .leaf 3070387453 [⟨⟨(.inside 1),[42],.lcomment,false,[],false⟩,false,false,[],some 4,some ⟨.code,[47],.lcode,false,[(3,0),(2,0)],false⟩,some ([(42,(.other,false))],false),true,false,false,none,false,⟨.lcomment,some .internalNl,false,.lblank⟩⟩] .leaf)))) 3070488961 [⟨⟨(.inside 1),[42],.lcomment,false,[],false⟩,false,false,[],some 4,some ⟨.code,[47],.lcode,false,[(3,1),(2,1)],false⟩,some ([(42,(.other,false))],false),true,false,false,none,false,⟨.lcomment,some .internalNl,false,.lblank⟩⟩] (.node (.node (.node (.node (.node .leaf 3089005971 [⟨⟨(.inside 1),[42],.lblank,false,[],false⟩,false,false,[],some 4,some ⟨.code,[47],.lcode,false,[(2,0),(3,0)],false⟩,some ([(42,(.other,false))],false),true,false,false,none,false,⟨.lcomment,some .internalNl,false,.lblank⟩⟩] .leaf) 3089107479 [⟨⟨(.inside 1),[42],.lblank,false,[],false⟩,false,false,[],some 4,some ⟨.code,[47],.lcode,false,[(2,1),(3,1)],false⟩,some ([(42,(.other,false))],false),true,false,false,none,false,⟨.lcomment,some .internalNl,false,.lblank⟩⟩] .leaf) 3089705761 [⟨⟨(.inside 1),[42],.lblank,false,[],false⟩,false,false,[],some 4,some ⟨.code,[47],.lcode,false,[(3,0),(2,0)],false⟩,some ([(42,(.other,false))],false),true,false,false,none,false,⟨.lcomment,some .internalNl,false,.lblank⟩⟩] (.node (.node .leaf 3089807269 [⟨⟨(.inside 1),[42],.lblank,false,[],false⟩,false,false,[],some 4,some ⟨.code,[47],.lcode,false,[(3,1),(2,1)],false⟩,some ([(42,(.other,false))],false),true,false,false,none,false,⟨.lcomment,some .internalNl,false,.lblank⟩⟩] .leaf) 71687930272 [⟨⟨(.inside 1),[42],.lcode,false,[(2,0)],false⟩,false,false,[],some 4,some ⟨.code,[47],.lcode,false,[(2,0)],false⟩,some ([(42,(.other,false))],false),false,false,false,none,false,⟨.lcode,some (.own 3),false,.lblank⟩⟩] .leaf)) 71687931041 [⟨⟨(.inside 1),[42],.lcode,false,[(2,0)],false⟩,false,false,[],some 4,some ⟨.code,[47],.lcode,false,[(2,1)],false⟩,some ([(42,(.other,false))],false),false,false,false,none,false,⟨.lcode,some (.own 3),false,.lblank⟩⟩] (.node (.node (.node .leaf 71687942561 [⟨⟨(.inside 1),[42],.lcode,false,[(2,1)],false⟩,false,false,[],some 4,some ⟨.code,[47],.lcode,false,[(2,0)],false⟩,some ([(42,(.other,false))],false),false,false,false,none,false,⟨.lcode,some (.own 3),false,.lblank⟩⟩] .leaf) 71687943330 [⟨⟨(.inside 1),[42],.lcode,false,[(2,1)],false⟩,false,false,[],some 4,some ⟨.code,[47],.lcode,false,[(2,1)],false⟩,some ([(42,(.other,false))],false),false,false,false,none,false,⟨.lcode,some (.own 3),false,.lblank⟩⟩] .leaf) 71688021678 [⟨⟨(.inside 1),[42],.lcode,false,[(3,0)],false⟩,false,false,[],some 4,some ⟨.code,[47],.lcode,false,[(3,0)],false⟩,some ([(42,(.other,false))],false),false,false,false,none,false,⟨.lcode,some (.own 3),false,.lblank⟩⟩] (.node .leaf 71688022447 [⟨⟨(.inside 1),[42],.lcode,false,[(3,0)],false⟩,false,false,[],some 4,some ⟨.code,[47],.lcode,false,[(3,1)],false⟩,some ([(42,(.other,false))],false),false,false,false,none,false,⟨.lcode,some (.own 3),false,.lblank⟩⟩] .leaf))) 71688033967 [⟨⟨(.inside 1),[42],.lcode,false,[(3,1)],false⟩,false,false,[],some 4,some ⟨.code,[47],.lcode,false,[(3,0)],false⟩,some ([(42,(.other,false))],false),false,false,false,none,false,⟨.lcode,some (.own 3),false,.lblank⟩⟩] (.node (.node (.node (.node .leaf 71688034736 [⟨⟨(.inside 1),[42],.lcode,false,[(3,1)],false⟩,false,false,[],some 4,some ⟨.code,[47],.lcode,false,[(3,1)],false⟩,some ([(42,(.other,false))],false),false,false,false,none,false,⟨.lcode,some (.own 3),false,.lblank⟩⟩] .leaf) 9312338836878 [⟨⟨(.inside 1),[42],.lcode,false,[(2,0),(3,0)],false⟩,false,false,[],some 4,some ⟨.code,[47],.lcode,false,[(2,0),(3,0)],false⟩,some ([(42,(.other,false))],false),false,false,false,none,false,⟨.lcode,some (.own 3),false,.lblank⟩⟩] .leaf) 9312338938386 [⟨⟨(.inside 1),[42],.lcode,false,[(2,0),(3,0)],false⟩,false,false,[],some 4,some ⟨.code,[47],.lcode,false,[(2,1),(3,1)],false⟩,some ([(42,(.other,false))],false),false,false,false,none,false,⟨.lcode,some (.own 3),false,.lblank⟩⟩] (.node .leaf 9312340459026 [⟨⟨(.inside 1),[42],.lcode,false,[(2,1),(3,1)],false⟩,false,false,[],some 4,some ⟨.code,[47],.lcode,false,[(2,0),(3,0)],false⟩,some ([(42,(.other,false))],false),false,false,false,none,false,⟨.lcode,some (.own 3),false,.lblank⟩⟩] .leaf)) 9312340560534 [⟨⟨(.inside 1),[42],.lcode,false,[(2,1),(3,1)],false⟩,false,false,[],some 4,some ⟨.code,[47],.lcode,false,[(2,1),(3,1)],false⟩,some ([(42,(.other,false))],false),false,false,false,none,false,⟨.lcode,some (.own 3),false,.lblank⟩⟩] (.node (.node (.node .leaf 9312350719658 [⟨⟨(.inside 1),[42],.lcode,false,[(3,0),(2,0)],false⟩,false,false,[],some 4,some ⟨.code,[47],.lcode,false,[(3,0),(2,0)],false⟩,some ([(42,(.other,false))],false),false,false,false,none,false,⟨.lcode,some (.own 3),false,.lblank⟩⟩] .leaf) 9312350821166 [⟨⟨(.inside 1),[42],.lcode,false,[(3,0),(2,0)],false⟩,false,false,[],some 4,some ⟨.code,[47],.lcode,false,[(3,1),(2,1)],false⟩,some ([(42,(.other,false))],false),false,false,false,none,false,⟨.lcode,some (.own 3),false,.lblank⟩⟩] .leaf) 9312352341806 [⟨⟨(.inside 1),[42],.lcode,false,[(3,1),(2,1)],false⟩,false,false,[],some 4,some ⟨.code,[47],.lcode,false,[(3,0),(2,0)],false⟩,some ([(42,(.other,false))],false),false,false,false,none,false,⟨.lcode,some (.own 3),false,.lblank⟩⟩] (.node .leaf 9312352443314 [⟨⟨(.inside 1),[42],.lcode,false,[(3,1),(2,1)],false⟩,false,false,[],some 4,some ⟨.code,[47],.lcode,false,[(3,1),(2,1)],false⟩,some ([(42,(.other,false))],false),false,false,false,none,false,⟨.lcode,some (.own 3),false,.lblank⟩⟩] .leaf))))),(.node (.node (.node (.node (.node (.node .leaf 610279138 [⟨⟨(.inside 1),[],.lcode,true,[],false⟩,false,false,[],some 4,some ⟨.code,[47],.lcode,false,[],false⟩,some ([(42,(.other,false))],false),false,false,false,none,false,⟨.lcode,some (.own 3),false,.lblank⟩⟩] .leaf) 610427126 [⟨⟨(.inside 1),[],.lcomment,true,[],false⟩,false,false,[],some 4,some ⟨.code,[47],.lcode,false,[],false⟩,some ([(42,(.other,false))],false),true,false,false,none,false,⟨.lcomment,some .internalNl,false,.lblank⟩⟩] .leaf) 610575106 [⟨⟨(.inside 1),[],.lblank,true,[],false⟩,false,false,[],some 4,some ⟨.code,[47],.lcode,false,[],false⟩,some ([(42,(.other,false))],false),true,false,false,none,false,⟨.lblank,some .internalNl,false,.lblank⟩⟩] (.node .leaf 611635986 [⟨⟨(.inside 1),[],.lcomment,true,[],false⟩,false,false,[],some 4,some ⟨.code,[47],.lcomment,false,[],false⟩,some ([(42,(.other,false))],false),false,false,false,none,false,⟨.lcomment,some (.own 3),false,.lblank⟩⟩] .leaf)) 611635994 [⟨⟨(.inside 1),[],.lcomment,true,[],false⟩,false,false,[],some 4,some ⟨.code,[47],.lcomment,false,[],false⟩,some ([(42,(.other,false))],false),true,false,false,none,false,⟨.lcomment,some .internalNl,false,.lblank⟩⟩] (.node (.node .leaf 611783974 [⟨⟨(.inside 1),[],.lblank,true,[],false⟩,false,false,[],some 4,some ⟨.code,[47],.lcomment,false,[],false⟩,some ([(42,(.other,false))],false),true,false,false,none,false,⟨.lblank,some .internalNl,false,.lblank⟩⟩] .leaf) 612844854 [⟨⟨(.inside 1),[],.lcomment,true,[],false⟩,false,false,[],some 4,some ⟨.code,[47],.lblank,false,[],false⟩,some ([(42,(.other,false))],false),false,false,false,none,false,⟨.lcomment,some (.own 3),false,.lblank⟩⟩] (.node .leaf 612844862 [⟨⟨(.inside 1),[],.lcomment,true,[],false⟩,false,false,[],some 4,some ⟨.code,[47],.lblank,false,[],false⟩,some ([(42,(.other,false))],false),true,false,false,none,false,⟨.lcomment,some .internalNl,false,.lblank⟩⟩] .leaf))) 612992842 [⟨⟨(.inside 1),[],.lblank,true,[],false⟩,false,false,[],some 4,some ⟨.code,[47],.lblank,false,[],false⟩,some ([(42,(.other,false))],false),true,false,false,none,false,⟨.lblank,some .internalNl,false,.lblank⟩⟩] (.node (.node (.node .leaf 624686353 [⟨⟨(.inside 1),[],.lcode,true,[],false⟩,false,false,[],some 4,some ⟨.code,[47],.lcode,false,[(2,0)],false⟩,some ([(42,(.other,false))],false),false,false,false,none,false,⟨.lcode,some (.own 3),false,.lblank⟩⟩] .leaf) 624687122 [⟨⟨(.inside 1),[],.lcode,true,[],false⟩,false,false,[],some 4,some ⟨.code,[47],.lcode,false,[(2,1)],false⟩,some ([(42,(.other,false))],false),false,false,false,none,false,⟨.lcode,some (.own 3),false,.lblank⟩⟩] (.node .leaf 624691736 [⟨⟨(.inside 1),[],.lcode,true,[],false⟩,false,false,[],some 4,some ⟨.code,[47],.lcode,false,[(3,0)],false⟩,some ([(42,(.other,false))],false),false,false,false,none,false,⟨.lcode,some (.own 3),false,.lblank⟩⟩] .leaf)) 624692505 [⟨⟨(.inside 1),[],.lcode,true,[],false⟩,false,false,[],some 4,some ⟨.code,[47],.lcode,false,[(3,1)],false⟩,some ([(42,(.other,false))],false),false,false,false,none,false,⟨.lcode,some (.own 3),false,.lblank⟩⟩] (.node (.node .leaf 624834341 [⟨⟨(.inside 1),[],.lcomment,true,[],false⟩,false,false,[],some 4,some ⟨.code,[47],.lcode,false,[(2,0)],false⟩,some ([(42,(.other,false))],false),true,false,false,none,false,⟨.lcomment,some .internalNl,false,.lblank⟩⟩] .leaf) 624835110 [⟨⟨(.inside 1),[],.lcomment,true,[],false⟩,false,false,[],some 4,some ⟨.code,[47],.lcode,false,[(2,1)],false⟩,some ([(42,(.other,false))],false),true,false,false,none,false,⟨.lcomment,some .internalNl,false,.lblank⟩⟩] (.node .leaf 624839724 [⟨⟨(.inside 1),[],.lcomment,true,[],false⟩,false,false,[],some 4,some ⟨.code,[47],.lcode,false,[(3,0)],false⟩,some ([(42,(.other,false))],false),true,false,false,none,false,⟨.lcomment,some .internalNl,false,.lblank⟩⟩] .leaf)))) 624840493 [⟨⟨(.inside 1),[],.lcomment,true,[],false⟩,false,false,[],some 4,some ⟨.code,[47],.lcode,false,[(3,1)],false⟩,some ([(42,(.other,false))],false),true,false,false,none,false,⟨.lcomment,some .internalNl,false,.lblank⟩⟩] (.node (.node (.node (.node (.node .leaf 624982321 [⟨⟨(.inside 1),[],.lblank,true,[],false⟩,false,false,[],some 4,some ⟨.code,[47],.lcode,false,[(2,0)],false⟩,some ([(42,(.other,false))],false),true,false,false,none,false,⟨.lblank,some .internalNl,false,.lblank⟩⟩] .leaf) 624983090 [⟨⟨(.inside 1),[],.lblank,true,[],false⟩,false,false,[],some 4,some ⟨.code,[47],.lcode,false,[(2,1)],false⟩,some ([(42,(.other,false))],false),true,false,false,none,false,⟨.lblank,some .internalNl,false,.lblank⟩⟩] .leaf) 624987704 [⟨⟨(.inside 1),[],.lblank,true,[],false⟩,false,false,[],some 4,some ⟨.code,[47],.lcode,false,[(3,0)],false⟩,some ([(42,(.other,false))],false),true,false,false,none,false,⟨.lblank,some .internalNl,false,.lblank⟩⟩] (.node .leaf 624988473 [⟨⟨(.inside 1),[],.lblank,true,[],false⟩,false,false,[],some 4,some ⟨.code,[47],.lcode,false,[(3,1)],false⟩,some ([(42,(.other,false))],false),true,false,false,none,false,⟨.lblank,some .internalNl,false,.lblank⟩⟩] .leaf)) 2512036901 [⟨⟨(.inside 1),[],.lcode,true,[],false⟩,false,false,[],some 4,some ⟨.code,[47],.lcode,false,[(2,0),(3,0)],false⟩,some ([(42,(.other,false))],false),false,false,false,none,false,⟨.lcode,some (.own 3),false,.lblank⟩⟩] (.node (.node .leaf 2512138409 [⟨⟨(.inside 1),[],.lcode,true,[],false⟩,false,false,[],some 4,some ⟨.code,[47],.lcode,false,[(2,1),(3,1)],false⟩,some ([(42,(.other,false))],false),false,false,false,none,false,⟨.lcode,some (.own 3),false,.lblank⟩⟩] .leaf) 2512184889 [⟨⟨(.inside 1),[],.lcomment,true,[],false⟩,false,false,[],some 4,some ⟨.code,[47],.lcode,false,[(2,0),(3,0)],false⟩,some ([(42,(.other,false))],false),true,false,false,none,false,⟨.lcomment,some .internalNl,false,.lblank⟩⟩] (.node .leaf 2512286397 [⟨⟨(.inside 1),[],.lcomment,true,[],false⟩,false,false,[],some 4,some ⟨.code,[47],.lcode,false,[(2,1),(3,1)],false⟩,some ([(42,(.other,false))],false),true,false,false,none,false,⟨.lcomment,some .internalNl,false,.lblank⟩⟩] .leaf))) 2512332869 [⟨⟨(.inside 1),[],.lblank,true,[],false⟩,false,false,[],some 4,some ⟨.code,[47],.lcode,false,[(2,0),(3,0)],false⟩,some ([(42,(.other,false))],false),true,false,false,none,false,⟨.lblank,some .internalNl,false,.lblank⟩⟩] (.node (.node (.node .leaf 2512434377 [⟨⟨(.inside 1),[],.lblank,true,[],false⟩,false,false,[],some 4,some ⟨.code,[47],.lcode,false,[(2,1),(3,1)],false⟩,some ([(42,(.other,false))],false),true,false,false,none,false,⟨.lblank,some .internalNl,false,.lblank⟩⟩] .leaf) 2512736691 [⟨⟨(.inside 1),[],.lcode,true,[],false⟩,false,false,[],some 4,some ⟨.code,[47],.lcode,false,[(3,0),(2,0)],false⟩,some ([(42,(.other,false))],false),false,false,false,none,false,⟨.lcode,some (.own 3),false,.lblank⟩⟩] (.node .leaf 2512838199 [⟨⟨(.inside 1),[],.lcode,true,[],false⟩,false,false,[],some 4,some ⟨.code,[47],.lcode,false,[(3,1),(2,1)],false⟩,some ([(42,(.other,false))],false),false,false,false,none,false,⟨.lcode,some (.own 3),false,.lblank⟩⟩] .leaf)) 2512884679 [⟨⟨(.inside 1),[],.lcomment,true,[],false⟩,false,false,[],some 4,some ⟨.code,[47],.lcode,false,[(3,0),(2,0)],false⟩,some ([(42,(.other,false))],false),true,false,false,none,false,⟨.lcomment,some .internalNl,false,.lblank⟩⟩] (.node (.node .leaf 2512986187 [⟨⟨(.inside 1),[],.lcomment,true,[],false⟩,false,false,[],some 4,some ⟨.code,[47],.lcode,false,[(3,1),(2,1)],false⟩,some ([(42,(.other,false))],false),true,false,false,none,false,⟨.lcomment,some .internalNl,false,.lblank⟩⟩] .leaf) 2513032659 [⟨⟨(.inside 1),[],.lblank,true,[],false⟩,false,false,[],some 4,some ⟨.code,[47],.lcode,false,[(3,0),(2,0)],false⟩,some ([(42,(.other,false))],false),true,false,false,none,false,⟨.lblank,some .internalNl,false,.lblank⟩⟩] (.node .leaf 2513134167 [⟨⟨(.inside 1),[],.lblank,true,[],false⟩,false,false,[],some 4,some ⟨.code,[47],.lcode,false,[(3,1),(2,1)],false⟩,some ([(42,(.other,false))],false),true,false,false,none,false,⟨.lblank,some .internalNl,false,.lblank⟩⟩] .leaf))))),.leaf]
theorem logtalk_line_lClosed : CA.closedF logtalk_line_M logtalk_line_lex true false logtalk_line_lfr logtalk_line_lTab = true := by decide +kernel
def logtalk_line_L : LCert LexisTable.logtalk_line logtalk_line_M := logtalk_line_lex_eq ▸ ⟨⟨logtalk_line_lmasks, logtalk_line_lex.rel, logtalk_line_lcs, logtalk_line_lrows, logtalk_line_lmasksIn, logtalk_line_lrepOk, logtalk_line_lrowsOk⟩,
  _, rfl, by decide +kernel, by decide +kernel, true, false, CA.closed_of logtalk_line_lfrOk logtalk_line_lClosed⟩
theorem logtalk_line_L_chk : logtalk_line_L.chk = true := by
  have : ∀ (l : Lexis) (h : LexisTable.logtalk_line = l) (C : LCert l logtalk_line_M), (h ▸ C : LCert LexisTable.logtalk_line logtalk_line_M).chk = C.chk := by rintro _ rfl _; rfl
  exact this _ logtalk_line_lex_eq _

def shell_line_lex : Lexis := [⟨[35],[],.lcomment,false,false,false,true,false,false,true,false,none,false,false,false,false,[]⟩,⟨[39],[[39]],.lcode,true,false,true,true,true,false,false,false,none,false,false,false,false,[]⟩,⟨[34],[[34]],.lcode,true,false,true,true,true,false,false,false,none,false,false,false,false,[]⟩]
theorem shell_line_lex_eq : LexisTable.shell_line = shell_line_lex := by decide +kernel
def shell_line_lmasks : List Nat := [4294967808,34359738368,549755813888,17179869184,8192,1024,4096,115792089237316195423570985008687907853269984665640564039457584007908834656767,115792089237316195423570985008687907853269984665640564039457584007913129626623,4951760157141521099596496896,115792089237316195423570985008687907853269984665635612279300442486259482348031,115792089237316195423570985008687907853269984665635612279300442486792058292735]
def shell_line_lcs : List (Nat × Nat) := [(0,115792089237316195423570985008687907853269984665635612279300442486207942738431),(9,4294967808),(10,1024),(11,2048),(12,4096),(13,8192),(34,17179869184),(35,34359738368),(39,549755813888),(92,4951760157141521099596496896)]
theorem shell_line_lmasksIn : masksIn shell_line_nfa shell_line_lmasks = true := by decide +kernel
theorem shell_line_lrepOk : repOk shell_line_lmasks shell_line_lcs = true := by decide +kernel
def shell_line_lrows : List Row := [⟨[],none,[],[⟨256,.other,false,some ⟨0,[.setEnt (.own 3)],some 4,true⟩⟩,⟨256,.ws,false,some ⟨1,[.setEnt (.own 0)],some 0,false⟩⟩,⟨256,.lf,false,some ⟨0,[.setEnt .newline],some 3,true⟩⟩,⟨256,.vt,false,none⟩,⟨256,.ff,false,some ⟨0,[.setEnt .newline],some 3,true⟩⟩,⟨256,.cr,false,some ⟨2,[.setEnt .newline],none,false⟩⟩,⟨256,.cr,true,some ⟨3,[.setEnt .newline],some 3,false⟩⟩,⟨34,.other,false,some ⟨4,[.enqueue,.code,.setEnt (.own 3)],some 4,false⟩⟩,⟨35,.other,false,some ⟨5,[.comment,.setEnt (.own 3)],some 1,false⟩⟩,⟨39,.other,false,some ⟨6,[.enqueue,.code,.setEnt (.own 3)],some 4,false⟩⟩,⟨92,.other,false,some ⟨0,[.setEnt (.own 3)],some 4,true⟩⟩]⟩,⟨[0],some 0,[],[⟨256,.other,false,none⟩,⟨256,.ws,false,some ⟨1,[.setEnt (.own 0)],some 0,false⟩⟩,⟨256,.lf,false,none⟩,⟨256,.vt,false,none⟩,⟨256,.ff,false,none⟩,⟨256,.cr,false,none⟩,⟨256,.cr,true,none⟩,⟨34,.other,false,none⟩,⟨35,.other,false,none⟩,⟨39,.other,false,none⟩,⟨92,.other,false,none⟩]⟩,⟨[37],none,[],[⟨256,.other,false,none⟩,⟨256,.ws,false,none⟩,⟨256,.lf,false,some ⟨0,[.setEnt .newline],some 3,true⟩⟩,⟨256,.vt,false,none⟩,⟨256,.ff,false,none⟩,⟨256,.cr,false,none⟩,⟨256,.cr,true,none⟩,⟨34,.other,false,none⟩,⟨35,.other,false,none⟩,⟨39,.other,false,none⟩,⟨92,.other,false,none⟩]⟩,⟨[37,41],some 3,[],[⟨256,.other,false,none⟩,⟨256,.ws,false,none⟩,⟨256,.lf,false,some ⟨0,[.setEnt .newline],some 3,true⟩⟩,⟨256,.vt,false,none⟩,⟨256,.ff,false,none⟩,⟨256,.cr,false,none⟩,⟨256,.cr,true,none⟩,⟨34,.other,false,none⟩,⟨35,.other,false,none⟩,⟨39,.other,false,none⟩,⟨92,.other,false,none⟩]⟩,⟨[20,42],some 4,[],[⟨256,.other,false,some ⟨7,[.code],none,false⟩⟩,⟨256,.ws,false,some ⟨8,[],none,false⟩⟩,⟨256,.lf,false,some ⟨9,[],none,false⟩⟩,⟨256,.vt,false,some ⟨7,[.code],none,false⟩⟩,⟨256,.ff,false,some ⟨10,[],none,false⟩⟩,⟨256,.cr,false,some ⟨11,[],none,false⟩⟩,⟨256,.cr,true,some ⟨12,[],none,false⟩⟩,⟨34,.other,false,some ⟨0,[.commit],some 2,true⟩⟩,⟨35,.other,false,some ⟨7,[.code],none,false⟩⟩,⟨39,.other,false,some ⟨7,[.code],none,false⟩⟩,⟨92,.other,false,some ⟨13,[],none,false⟩⟩]⟩,⟨[1,42],some 1,[],[⟨256,.other,false,some ⟨14,[],some 1,false⟩⟩,⟨256,.ws,false,some ⟨14,[],some 1,false⟩⟩,⟨256,.lf,false,none⟩,⟨256,.vt,false,some ⟨14,[],some 1,false⟩⟩,⟨256,.ff,false,none⟩,⟨256,.cr,false,none⟩,⟨256,.cr,true,none⟩,⟨34,.other,false,some ⟨14,[],some 1,false⟩⟩,⟨35,.other,false,some ⟨14,[],some 1,false⟩⟩,⟨39,.other,false,some ⟨14,[],some 1,false⟩⟩,⟨92,.other,false,some ⟨14,[],some 1,false⟩⟩]⟩,⟨[3,42],some 4,[],[⟨256,.other,false,some ⟨15,[.code],none,false⟩⟩,⟨256,.ws,false,some ⟨16,[],none,false⟩⟩,⟨256,.lf,false,some ⟨17,[],none,false⟩⟩,⟨256,.vt,false,some ⟨15,[.code],none,false⟩⟩,⟨256,.ff,false,some ⟨18,[],none,false⟩⟩,⟨256,.cr,false,some ⟨19,[],none,false⟩⟩,⟨256,.cr,true,some ⟨20,[],none,false⟩⟩,⟨34,.other,false,some ⟨15,[.code],none,false⟩⟩,⟨35,.other,false,some ⟨15,[.code],none,false⟩⟩,⟨39,.other,false,some ⟨0,[.commit],some 2,true⟩⟩,⟨92,.other,false,some ⟨21,[],none,false⟩⟩]⟩,⟨[33],none,[],[⟨256,.other,false,some ⟨7,[.code],none,false⟩⟩,⟨256,.ws,false,some ⟨8,[],none,false⟩⟩,⟨256,.lf,false,some ⟨9,[],none,false⟩⟩,⟨256,.vt,false,some ⟨7,[.code],none,false⟩⟩,⟨256,.ff,false,some ⟨10,[],none,false⟩⟩,⟨256,.cr,false,some ⟨11,[],none,false⟩⟩,⟨256,.cr,true,some ⟨12,[],none,false⟩⟩,⟨34,.other,false,some ⟨0,[.commit],some 2,true⟩⟩,⟨35,.other,false,some ⟨7,[.code],none,false⟩⟩,⟨39,.other,false,some ⟨7,[.code],none,false⟩⟩,⟨92,.other,false,some ⟨13,[],none,false⟩⟩]⟩,⟨[32],none,[],[⟨256,.other,false,some ⟨7,[.code],none,false⟩⟩,⟨256,.ws,false,some ⟨8,[],none,false⟩⟩,⟨256,.lf,false,some ⟨9,[],none,false⟩⟩,⟨256,.vt,false,some ⟨7,[.code],none,false⟩⟩,⟨256,.ff,false,some ⟨10,[],none,false⟩⟩,⟨256,.cr,false,some ⟨11,[],none,false⟩⟩,⟨256,.cr,true,some ⟨12,[],none,false⟩⟩,⟨34,.other,false,some ⟨0,[.commit],some 2,true⟩⟩,⟨35,.other,false,some ⟨7,[.code],none,false⟩⟩,⟨39,.other,false,some ⟨7,[.code],none,false⟩⟩,⟨92,.other,false,some ⟨13,[],none,false⟩⟩]⟩,⟨[23],none,[],[⟨256,.other,false,some ⟨7,[.setEnt .internalNl,.cb,.code],none,false⟩⟩,⟨256,.ws,false,some ⟨8,[.setEnt .internalNl,.cb],none,false⟩⟩,⟨256,.lf,false,some ⟨9,[.setEnt .internalNl,.cb],none,false⟩⟩,⟨256,.vt,false,some ⟨7,[.setEnt .internalNl,.cb,.code],none,false⟩⟩,⟨256,.ff,false,some ⟨10,[.setEnt .internalNl,.cb],none,false⟩⟩,⟨256,.cr,false,some ⟨11,[.setEnt .internalNl,.cb],none,false⟩⟩,⟨256,.cr,true,some ⟨12,[.setEnt .internalNl,.cb],none,false⟩⟩,⟨34,.other,false,some ⟨0,[.setEnt .internalNl,.cb,.commit],some 2,true⟩⟩,⟨35,.other,false,some ⟨7,[.setEnt .internalNl,.cb,.code],none,false⟩⟩,⟨39,.other,false,some ⟨7,[.setEnt .internalNl,.cb,.code],none,false⟩⟩,⟨92,.other,false,some ⟨13,[.setEnt .internalNl,.cb],none,false⟩⟩]⟩,⟨[24],none,[],[⟨256,.other,false,some ⟨7,[.setEnt .internalNl,.cb,.code],none,false⟩⟩,⟨256,.ws,false,some ⟨8,[.setEnt .internalNl,.cb],none,false⟩⟩,⟨256,.lf,false,some ⟨9,[.setEnt .internalNl,.cb],none,false⟩⟩,⟨256,.vt,false,some ⟨7,[.setEnt .internalNl,.cb,.code],none,false⟩⟩,⟨256,.ff,false,some ⟨10,[.setEnt .internalNl,.cb],none,false⟩⟩,⟨256,.cr,false,some ⟨11,[.setEnt .internalNl,.cb],none,false⟩⟩,⟨256,.cr,true,some ⟨12,[.setEnt .internalNl,.cb],none,false⟩⟩,⟨34,.other,false,some ⟨0,[.setEnt .internalNl,.cb,.commit],some 2,true⟩⟩,⟨35,.other,false,some ⟨7,[.setEnt .internalNl,.cb,.code],none,false⟩⟩,⟨39,.other,false,some ⟨7,[.setEnt .internalNl,.cb,.code],none,false⟩⟩,⟨92,.other,false,some ⟨13,[.setEnt .internalNl,.cb],none,false⟩⟩]⟩,⟨[21],none,[],[⟨256,.other,false,none⟩,⟨256,.ws,false,none⟩,⟨256,.lf,false,some ⟨22,[],none,false⟩⟩,⟨256,.vt,false,none⟩,⟨256,.ff,false,none⟩,⟨256,.cr,false,none⟩,⟨256,.cr,true,none⟩,⟨34,.other,false,none⟩,⟨35,.other,false,none⟩,⟨39,.other,false,none⟩,⟨92,.other,false,none⟩]⟩,⟨[21,25],none,[],[⟨256,.other,false,some ⟨7,[.setEnt .internalNl,.cb,.code],none,false⟩⟩,⟨256,.ws,false,some ⟨8,[.setEnt .internalNl,.cb],none,false⟩⟩,⟨256,.lf,false,some ⟨23,[.setEnt .internalNl,.cb],none,false⟩⟩,⟨256,.vt,false,some ⟨7,[.setEnt .internalNl,.cb,.code],none,false⟩⟩,⟨256,.ff,false,some ⟨10,[.setEnt .internalNl,.cb],none,false⟩⟩,⟨256,.cr,false,some ⟨11,[.setEnt .internalNl,.cb],none,false⟩⟩,⟨256,.cr,true,some ⟨12,[.setEnt .internalNl,.cb],none,false⟩⟩,⟨34,.other,false,some ⟨0,[.setEnt .internalNl,.cb,.commit],some 2,true⟩⟩,⟨35,.other,false,some ⟨7,[.setEnt .internalNl,.cb,.code],none,false⟩⟩,⟨39,.other,false,some ⟨7,[.setEnt .internalNl,.cb,.code],none,false⟩⟩,⟨92,.other,false,some ⟨13,[.setEnt .internalNl,.cb],none,false⟩⟩]⟩,⟨[26,34],none,[],[⟨256,.other,false,some ⟨24,[.code],none,false⟩⟩,⟨256,.ws,false,some ⟨24,[.code],none,false⟩⟩,⟨256,.lf,false,some ⟨25,[],none,false⟩⟩,⟨256,.vt,false,some ⟨24,[.code],none,false⟩⟩,⟨256,.ff,false,some ⟨26,[],none,false⟩⟩,⟨256,.cr,false,some ⟨27,[],none,false⟩⟩,⟨256,.cr,true,some ⟨28,[],none,false⟩⟩,⟨34,.other,false,some ⟨24,[.code],none,false⟩⟩,⟨35,.other,false,some ⟨24,[.code],none,false⟩⟩,⟨39,.other,false,some ⟨24,[.code],none,false⟩⟩,⟨92,.other,false,some ⟨24,[.code],none,false⟩⟩]⟩,⟨[2],some 1,[],[⟨256,.other,false,some ⟨14,[],some 1,false⟩⟩,⟨256,.ws,false,some ⟨14,[],some 1,false⟩⟩,⟨256,.lf,false,none⟩,⟨256,.vt,false,some ⟨14,[],some 1,false⟩⟩,⟨256,.ff,false,none⟩,⟨256,.cr,false,none⟩,⟨256,.cr,true,none⟩,⟨34,.other,false,some ⟨14,[],some 1,false⟩⟩,⟨35,.other,false,some ⟨14,[],some 1,false⟩⟩,⟨39,.other,false,some ⟨14,[],some 1,false⟩⟩,⟨92,.other,false,some ⟨14,[],some 1,false⟩⟩]⟩,⟨[16],none,[],[⟨256,.other,false,some ⟨15,[.code],none,false⟩⟩,⟨256,.ws,false,some ⟨16,[],none,false⟩⟩,⟨256,.lf,false,some ⟨17,[],none,false⟩⟩,⟨256,.vt,false,some ⟨15,[.code],none,false⟩⟩,⟨256,.ff,false,some ⟨18,[],none,false⟩⟩,⟨256,.cr,false,some ⟨19,[],none,false⟩⟩,⟨256,.cr,true,some ⟨20,[],none,false⟩⟩,⟨34,.other,false,some ⟨15,[.code],none,false⟩⟩,⟨35,.other,false,some ⟨15,[.code],none,false⟩⟩,⟨39,.other,false,some ⟨0,[.commit],some 2,true⟩⟩,⟨92,.other,false,some ⟨21,[],none,false⟩⟩]⟩,⟨[15],none,[],[⟨256,.other,false,some ⟨15,[.code],none,false⟩⟩,⟨256,.ws,false,some ⟨16,[],none,false⟩⟩,⟨256,.lf,false,some ⟨17,[],none,false⟩⟩,⟨256,.vt,false,some ⟨15,[.code],none,false⟩⟩,⟨256,.ff,false,some ⟨18,[],none,false⟩⟩,⟨256,.cr,false,some ⟨19,[],none,false⟩⟩,⟨256,.cr,true,some ⟨20,[],none,false⟩⟩,⟨34,.other,false,some ⟨15,[.code],none,false⟩⟩,⟨35,.other,false,some ⟨15,[.code],none,false⟩⟩,⟨39,.other,false,some ⟨0,[.commit],some 2,true⟩⟩,⟨92,.other,false,some ⟨21,[],none,false⟩⟩]⟩,⟨[6],none,[],[⟨256,.other,false,some ⟨15,[.setEnt .internalNl,.cb,.code],none,false⟩⟩,⟨256,.ws,false,some ⟨16,[.setEnt .internalNl,.cb],none,false⟩⟩,⟨256,.lf,false,some ⟨17,[.setEnt .internalNl,.cb],none,false⟩⟩,⟨256,.vt,false,some ⟨15,[.setEnt .internalNl,.cb,.code],none,false⟩⟩,⟨256,.ff,false,some ⟨18,[.setEnt .internalNl,.cb],none,false⟩⟩,⟨256,.cr,false,some ⟨19,[.setEnt .internalNl,.cb],none,false⟩⟩,⟨256,.cr,true,some ⟨20,[.setEnt .internalNl,.cb],none,false⟩⟩,⟨34,.other,false,some ⟨15,[.setEnt .internalNl,.cb,.code],none,false⟩⟩,⟨35,.other,false,some ⟨15,[.setEnt .internalNl,.cb,.code],none,false⟩⟩,⟨39,.other,false,some ⟨0,[.setEnt .internalNl,.cb,.commit],some 2,true⟩⟩,⟨92,.other,false,some ⟨21,[.setEnt .internalNl,.cb],none,false⟩⟩]⟩,⟨[7],none,[],[⟨256,.other,false,some ⟨15,[.setEnt .internalNl,.cb,.code],none,false⟩⟩,⟨256,.ws,false,some ⟨16,[.setEnt .internalNl,.cb],none,false⟩⟩,⟨256,.lf,false,some ⟨17,[.setEnt .internalNl,.cb],none,false⟩⟩,⟨256,.vt,false,some ⟨15,[.setEnt .internalNl,.cb,.code],none,false⟩⟩,⟨256,.ff,false,some ⟨18,[.setEnt .internalNl,.cb],none,false⟩⟩,⟨256,.cr,false,some ⟨19,[.setEnt .internalNl,.cb],none,false⟩⟩,⟨256,.cr,true,some ⟨20,[.setEnt .internalNl,.cb],none,false⟩⟩,⟨34,.other,false,some ⟨15,[.setEnt .internalNl,.cb,.code],none,false⟩⟩,⟨35,.other,false,some ⟨15,[.setEnt .internalNl,.cb,.code],none,false⟩⟩,⟨39,.other,false,some ⟨0,[.setEnt .internalNl,.cb,.commit],some 2,true⟩⟩,⟨92,.other,false,some ⟨21,[.setEnt .internalNl,.cb],none,false⟩⟩]⟩,⟨[4],none,[],[⟨256,.other,false,none⟩,⟨256,.ws,false,none⟩,⟨256,.lf,false,some ⟨29,[],none,false⟩⟩,⟨256,.vt,false,none⟩,⟨256,.ff,false,none⟩,⟨256,.cr,false,none⟩,⟨256,.cr,true,none⟩,⟨34,.other,false,none⟩,⟨35,.other,false,none⟩,⟨39,.other,false,none⟩,⟨92,.other,false,none⟩]⟩,⟨[4,8],none,[],[⟨256,.other,false,some ⟨15,[.setEnt .internalNl,.cb,.code],none,false⟩⟩,⟨256,.ws,false,some ⟨16,[.setEnt .internalNl,.cb],none,false⟩⟩,⟨256,.lf,false,some ⟨30,[.setEnt .internalNl,.cb],none,false⟩⟩,⟨256,.vt,false,some ⟨15,[.setEnt .internalNl,.cb,.code],none,false⟩⟩,⟨256,.ff,false,some ⟨18,[.setEnt .internalNl,.cb],none,false⟩⟩,⟨256,.cr,false,some ⟨19,[.setEnt .internalNl,.cb],none,false⟩⟩,⟨256,.cr,true,some ⟨20,[.setEnt .internalNl,.cb],none,false⟩⟩,⟨34,.other,false,some ⟨15,[.setEnt .internalNl,.cb,.code],none,false⟩⟩,⟨35,.other,false,some ⟨15,[.setEnt .internalNl,.cb,.code],none,false⟩⟩,⟨39,.other,false,some ⟨0,[.setEnt .internalNl,.cb,.commit],some 2,true⟩⟩,⟨92,.other,false,some ⟨21,[.setEnt .internalNl,.cb],none,false⟩⟩]⟩,⟨[9,17],none,[],[⟨256,.other,false,some ⟨31,[.code],none,false⟩⟩,⟨256,.ws,false,some ⟨31,[.code],none,false⟩⟩,⟨256,.lf,false,some ⟨32,[],none,false⟩⟩,⟨256,.vt,false,some ⟨31,[.code],none,false⟩⟩,⟨256,.ff,false,some ⟨33,[],none,false⟩⟩,⟨256,.cr,false,some ⟨34,[],none,false⟩⟩,⟨256,.cr,true,some ⟨35,[],none,false⟩⟩,⟨34,.other,false,some ⟨31,[.code],none,false⟩⟩,⟨35,.other,false,some ⟨31,[.code],none,false⟩⟩,⟨39,.other,false,some ⟨31,[.code],none,false⟩⟩,⟨92,.other,false,some ⟨31,[.code],none,false⟩⟩]⟩,⟨[22],none,[],[⟨256,.other,false,some ⟨7,[.setEnt .internalNl,.cb,.code],none,false⟩⟩,⟨256,.ws,false,some ⟨8,[.setEnt .internalNl,.cb],none,false⟩⟩,⟨256,.lf,false,some ⟨9,[.setEnt .internalNl,.cb],none,false⟩⟩,⟨256,.vt,false,some ⟨7,[.setEnt .internalNl,.cb,.code],none,false⟩⟩,⟨256,.ff,false,some ⟨10,[.setEnt .internalNl,.cb],none,false⟩⟩,⟨256,.cr,false,some ⟨11,[.setEnt .internalNl,.cb],none,false⟩⟩,⟨256,.cr,true,some ⟨12,[.setEnt .internalNl,.cb],none,false⟩⟩,⟨34,.other,false,some ⟨0,[.setEnt .internalNl,.cb,.commit],some 2,true⟩⟩,⟨35,.other,false,some ⟨7,[.setEnt .internalNl,.cb,.code],none,false⟩⟩,⟨39,.other,false,some ⟨7,[.setEnt .internalNl,.cb,.code],none,false⟩⟩,⟨92,.other,false,some ⟨13,[.setEnt .internalNl,.cb],none,false⟩⟩]⟩,⟨[22,23],none,[],[⟨256,.other,false,some ⟨7,[.setEnt .internalNl,.cb,.code],none,false⟩⟩,⟨256,.ws,false,some ⟨8,[.setEnt .internalNl,.cb],none,false⟩⟩,⟨256,.lf,false,some ⟨9,[.setEnt .internalNl,.cb],none,false⟩⟩,⟨256,.vt,false,some ⟨7,[.setEnt .internalNl,.cb,.code],none,false⟩⟩,⟨256,.ff,false,some ⟨10,[.setEnt .internalNl,.cb],none,false⟩⟩,⟨256,.cr,false,some ⟨11,[.setEnt .internalNl,.cb],none,false⟩⟩,⟨256,.cr,true,some ⟨12,[.setEnt .internalNl,.cb],none,false⟩⟩,⟨34,.other,false,some ⟨0,[.setEnt .internalNl,.cb,.commit],some 2,true⟩⟩,⟨35,.other,false,some ⟨7,[.setEnt .internalNl,.cb,.code],none,false⟩⟩,⟨39,.other,false,some ⟨7,[.setEnt .internalNl,.cb,.code],none,false⟩⟩,⟨92,.other,false,some ⟨13,[.setEnt .internalNl,.cb],none,false⟩⟩]⟩,⟨[35],none,[],[⟨256,.other,false,some ⟨7,[.code],none,false⟩⟩,⟨256,.ws,false,some ⟨8,[],none,false⟩⟩,⟨256,.lf,false,some ⟨9,[],none,false⟩⟩,⟨256,.vt,false,some ⟨7,[.code],none,false⟩⟩,⟨256,.ff,false,some ⟨10,[],none,false⟩⟩,⟨256,.cr,false,some ⟨11,[],none,false⟩⟩,⟨256,.cr,true,some ⟨12,[],none,false⟩⟩,⟨34,.other,false,some ⟨0,[.commit],some 2,true⟩⟩,⟨35,.other,false,some ⟨7,[.code],none,false⟩⟩,⟨39,.other,false,some ⟨7,[.code],none,false⟩⟩,⟨92,.other,false,some ⟨13,[],none,false⟩⟩]⟩,⟨[29],none,[],[⟨256,.other,false,some ⟨7,[.setEnt .internalNl,.cb,.code],none,false⟩⟩,⟨256,.ws,false,some ⟨8,[.setEnt .internalNl,.cb],none,false⟩⟩,⟨256,.lf,false,some ⟨9,[.setEnt .internalNl,.cb],none,false⟩⟩,⟨256,.vt,false,some ⟨7,[.setEnt .internalNl,.cb,.code],none,false⟩⟩,⟨256,.ff,false,some ⟨10,[.setEnt .internalNl,.cb],none,false⟩⟩,⟨256,.cr,false,some ⟨11,[.setEnt .internalNl,.cb],none,false⟩⟩,⟨256,.cr,true,some ⟨12,[.setEnt .internalNl,.cb],none,false⟩⟩,⟨34,.other,false,some ⟨0,[.setEnt .internalNl,.cb,.commit],some 2,true⟩⟩,⟨35,.other,false,some ⟨7,[.setEnt .internalNl,.cb,.code],none,false⟩⟩,⟨39,.other,false,some ⟨7,[.setEnt .internalNl,.cb,.code],none,false⟩⟩,⟨92,.other,false,some ⟨13,[.setEnt .internalNl,.cb],none,false⟩⟩]⟩,⟨[30],none,[],[⟨256,.other,false,some ⟨7,[.setEnt .internalNl,.cb,.code],none,false⟩⟩,⟨256,.ws,false,some ⟨8,[.setEnt .internalNl,.cb],none,false⟩⟩,⟨256,.lf,false,some ⟨9,[.setEnt .internalNl,.cb],none,false⟩⟩,⟨256,.vt,false,some ⟨7,[.setEnt .internalNl,.cb,.code],none,false⟩⟩,⟨256,.ff,false,some ⟨10,[.setEnt .internalNl,.cb],none,false⟩⟩,⟨256,.cr,false,some ⟨11,[.setEnt .internalNl,.cb],none,false⟩⟩,⟨256,.cr,true,some ⟨12,[.setEnt .internalNl,.cb],none,false⟩⟩,⟨34,.other,false,some ⟨0,[.setEnt .internalNl,.cb,.commit],some 2,true⟩⟩,⟨35,.other,false,some ⟨7,[.setEnt .internalNl,.cb,.code],none,false⟩⟩,⟨39,.other,false,some ⟨7,[.setEnt .internalNl,.cb,.code],none,false⟩⟩,⟨92,.other,false,some ⟨13,[.setEnt .internalNl,.cb],none,false⟩⟩]⟩,⟨[27],none,[],[⟨256,.other,false,none⟩,⟨256,.ws,false,none⟩,⟨256,.lf,false,some ⟨36,[],none,false⟩⟩,⟨256,.vt,false,none⟩,⟨256,.ff,false,none⟩,⟨256,.cr,false,none⟩,⟨256,.cr,true,none⟩,⟨34,.other,false,none⟩,⟨35,.other,false,none⟩,⟨39,.other,false,none⟩,⟨92,.other,false,none⟩]⟩,⟨[27,31],none,[],[⟨256,.other,false,some ⟨7,[.setEnt .internalNl,.cb,.code],none,false⟩⟩,⟨256,.ws,false,some ⟨8,[.setEnt .internalNl,.cb],none,false⟩⟩,⟨256,.lf,false,some ⟨37,[.setEnt .internalNl,.cb],none,false⟩⟩,⟨256,.vt,false,some ⟨7,[.setEnt .internalNl,.cb,.code],none,false⟩⟩,⟨256,.ff,false,some ⟨10,[.setEnt .internalNl,.cb],none,false⟩⟩,⟨256,.cr,false,some ⟨11,[.setEnt .internalNl,.cb],none,false⟩⟩,⟨256,.cr,true,some ⟨12,[.setEnt .internalNl,.cb],none,false⟩⟩,⟨34,.other,false,some ⟨0,[.setEnt .internalNl,.cb,.commit],some 2,true⟩⟩,⟨35,.other,false,some ⟨7,[.setEnt .internalNl,.cb,.code],none,false⟩⟩,⟨39,.other,false,some ⟨7,[.setEnt .internalNl,.cb,.code],none,false⟩⟩,⟨92,.other,false,some ⟨13,[.setEnt .internalNl,.cb],none,false⟩⟩]⟩,⟨[5],none,[],[⟨256,.other,false,some ⟨15,[.setEnt .internalNl,.cb,.code],none,false⟩⟩,⟨256,.ws,false,some ⟨16,[.setEnt .internalNl,.cb],none,false⟩⟩,⟨256,.lf,false,some ⟨17,[.setEnt .internalNl,.cb],none,false⟩⟩,⟨256,.vt,false,some ⟨15,[.setEnt .internalNl,.cb,.code],none,false⟩⟩,⟨256,.ff,false,some ⟨18,[.setEnt .internalNl,.cb],none,false⟩⟩,⟨256,.cr,false,some ⟨19,[.setEnt .internalNl,.cb],none,false⟩⟩,⟨256,.cr,true,some ⟨20,[.setEnt .internalNl,.cb],none,false⟩⟩,⟨34,.other,false,some ⟨15,[.setEnt .internalNl,.cb,.code],none,false⟩⟩,⟨35,.other,false,some ⟨15,[.setEnt .internalNl,.cb,.code],none,false⟩⟩,⟨39,.other,false,some ⟨0,[.setEnt .internalNl,.cb,.commit],some 2,true⟩⟩,⟨92,.other,false,some ⟨21,[.setEnt .internalNl,.cb],none,false⟩⟩]⟩,⟨[5,6],none,[],[⟨256,.other,false,some ⟨15,[.setEnt .internalNl,.cb,.code],none,false⟩⟩,⟨256,.ws,false,some ⟨16,[.setEnt .internalNl,.cb],none,false⟩⟩,⟨256,.lf,false,some ⟨17,[.setEnt .internalNl,.cb],none,false⟩⟩,⟨256,.vt,false,some ⟨15,[.setEnt .internalNl,.cb,.code],none,false⟩⟩,⟨256,.ff,false,some ⟨18,[.setEnt .internalNl,.cb],none,false⟩⟩,⟨256,.cr,false,some ⟨19,[.setEnt .internalNl,.cb],none,false⟩⟩,⟨256,.cr,true,some ⟨20,[.setEnt .internalNl,.cb],none,false⟩⟩,⟨34,.other,false,some ⟨15,[.setEnt .internalNl,.cb,.code],none,false⟩⟩,⟨35,.other,false,some ⟨15,[.setEnt .internalNl,.cb,.code],none,false⟩⟩,⟨39,.other,false,some ⟨0,[.setEnt .internalNl,.cb,.commit],some 2,true⟩⟩,⟨92,.other,false,some ⟨21,[.setEnt .internalNl,.cb],none,false⟩⟩]⟩,⟨[18],none,[],[⟨256,.other,false,some ⟨15,[.code],none,false⟩⟩,⟨256,.ws,false,some ⟨16,[],none,false⟩⟩,⟨256,.lf,false,some ⟨17,[],none,false⟩⟩,⟨256,.vt,false,some ⟨15,[.code],none,false⟩⟩,⟨256,.ff,false,some ⟨18,[],none,false⟩⟩,⟨256,.cr,false,some ⟨19,[],none,false⟩⟩,⟨256,.cr,true,some ⟨20,[],none,false⟩⟩,⟨34,.other,false,some ⟨15,[.code],none,false⟩⟩,⟨35,.other,false,some ⟨15,[.code],none,false⟩⟩,⟨39,.other,false,some ⟨0,[.commit],some 2,true⟩⟩,⟨92,.other,false,some ⟨21,[],none,false⟩⟩]⟩,⟨[12],none,[],[⟨256,.other,false,some ⟨15,[.setEnt .internalNl,.cb,.code],none,false⟩⟩,⟨256,.ws,false,some ⟨16,[.setEnt .internalNl,.cb],none,false⟩⟩,⟨256,.lf,false,some ⟨17,[.setEnt .internalNl,.cb],none,false⟩⟩,⟨256,.vt,false,some ⟨15,[.setEnt .internalNl,.cb,.code],none,false⟩⟩,⟨256,.ff,false,some ⟨18,[.setEnt .internalNl,.cb],none,false⟩⟩,⟨256,.cr,false,some ⟨19,[.setEnt .internalNl,.cb],none,false⟩⟩,⟨256,.cr,true,some ⟨20,[.setEnt .internalNl,.cb],none,false⟩⟩,⟨34,.other,false,some ⟨15,[.setEnt .internalNl,.cb,.code],none,false⟩⟩,⟨35,.other,false,some ⟨15,[.setEnt .internalNl,.cb,.code],none,false⟩⟩,⟨39,.other,false,some ⟨0,[.setEnt .internalNl,.cb,.commit],some 2,true⟩⟩,⟨92,.other,false,some ⟨21,[.setEnt .internalNl,.cb],none,false⟩⟩]⟩,⟨[13],none,[],[⟨256,.other,false,some ⟨15,[.setEnt .internalNl,.cb,.code],none,false⟩⟩,⟨256,.ws,false,some ⟨16,[.setEnt .internalNl,.cb],none,false⟩⟩,⟨256,.lf,false,some ⟨17,[.setEnt .internalNl,.cb],none,false⟩⟩,⟨256,.vt,false,some ⟨15,[.setEnt .internalNl,.cb,.code],none,false⟩⟩,⟨256,.ff,false,some ⟨18,[.setEnt .internalNl,.cb],none,false⟩⟩,⟨256,.cr,false,some ⟨19,[.setEnt .internalNl,.cb],none,false⟩⟩,⟨256,.cr,true,some ⟨20,[.setEnt .internalNl,.cb],none,false⟩⟩,⟨34,.other,false,some ⟨15,[.setEnt .internalNl,.cb,.code],none,false⟩⟩,⟨35,.other,false,some ⟨15,[.setEnt .internalNl,.cb,.code],none,false⟩⟩,⟨39,.other,false,some ⟨0,[.setEnt .internalNl,.cb,.commit],some 2,true⟩⟩,⟨92,.other,false,some ⟨21,[.setEnt .internalNl,.cb],none,false⟩⟩]⟩,⟨[10],none,[],[⟨256,.other,false,none⟩,⟨256,.ws,false,none⟩,⟨256,.lf,false,some ⟨38,[],none,false⟩⟩,⟨256,.vt,false,none⟩,⟨256,.ff,false,none⟩,⟨256,.cr,false,none⟩,⟨256,.cr,true,none⟩,⟨34,.other,false,none⟩,⟨35,.other,false,none⟩,⟨39,.other,false,none⟩,⟨92,.other,false,none⟩]⟩,⟨[10,14],none,[],[⟨256,.other,false,some ⟨15,[.setEnt .internalNl,.cb,.code],none,false⟩⟩,⟨256,.ws,false,some ⟨16,[.setEnt .internalNl,.cb],none,false⟩⟩,⟨256,.lf,false,some ⟨39,[.setEnt .internalNl,.cb],none,false⟩⟩,⟨256,.vt,false,some ⟨15,[.setEnt .internalNl,.cb,.code],none,false⟩⟩,⟨256,.ff,false,some ⟨18,[.setEnt .internalNl,.cb],none,false⟩⟩,⟨256,.cr,false,some ⟨19,[.setEnt .internalNl,.cb],none,false⟩⟩,⟨256,.cr,true,some ⟨20,[.setEnt .internalNl,.cb],none,false⟩⟩,⟨34,.other,false,some ⟨15,[.setEnt .internalNl,.cb,.code],none,false⟩⟩,⟨35,.other,false,some ⟨15,[.setEnt .internalNl,.cb,.code],none,false⟩⟩,⟨39,.other,false,some ⟨0,[.setEnt .internalNl,.cb,.commit],some 2,true⟩⟩,⟨92,.other,false,some ⟨21,[.setEnt .internalNl,.cb],none,false⟩⟩]⟩,⟨[28],none,[],[⟨256,.other,false,some ⟨7,[.setEnt .internalNl,.cb,.code],none,false⟩⟩,⟨256,.ws,false,some ⟨8,[.setEnt .internalNl,.cb],none,false⟩⟩,⟨256,.lf,false,some ⟨9,[.setEnt .internalNl,.cb],none,false⟩⟩,⟨256,.vt,false,some ⟨7,[.setEnt .internalNl,.cb,.code],none,false⟩⟩,⟨256,.ff,false,some ⟨10,[.setEnt .internalNl,.cb],none,false⟩⟩,⟨256,.cr,false,some ⟨11,[.setEnt .internalNl,.cb],none,false⟩⟩,⟨256,.cr,true,some ⟨12,[.setEnt .internalNl,.cb],none,false⟩⟩,⟨34,.other,false,some ⟨0,[.setEnt .internalNl,.cb,.commit],some 2,true⟩⟩,⟨35,.other,false,some ⟨7,[.setEnt .internalNl,.cb,.code],none,false⟩⟩,⟨39,.other,false,some ⟨7,[.setEnt .internalNl,.cb,.code],none,false⟩⟩,⟨92,.other,false,some ⟨13,[.setEnt .internalNl,.cb],none,false⟩⟩]⟩,⟨[23,28],none,[],[⟨256,.other,false,some ⟨7,[.setEnt .internalNl,.cb,.code],none,false⟩⟩,⟨256,.ws,false,some ⟨8,[.setEnt .internalNl,.cb],none,false⟩⟩,⟨256,.lf,false,some ⟨9,[.setEnt .internalNl,.cb],none,false⟩⟩,⟨256,.vt,false,some ⟨7,[.setEnt .internalNl,.cb,.code],none,false⟩⟩,⟨256,.ff,false,some ⟨10,[.setEnt .internalNl,.cb],none,false⟩⟩,⟨256,.cr,false,some ⟨11,[.setEnt .internalNl,.cb],none,false⟩⟩,⟨256,.cr,true,some ⟨12,[.setEnt .internalNl,.cb],none,false⟩⟩,⟨34,.other,false,some ⟨0,[.setEnt .internalNl,.cb,.commit],some 2,true⟩⟩,⟨35,.other,false,some ⟨7,[.setEnt .internalNl,.cb,.code],none,false⟩⟩,⟨39,.other,false,some ⟨7,[.setEnt .internalNl,.cb,.code],none,false⟩⟩,⟨92,.other,false,some ⟨13,[.setEnt .internalNl,.cb],none,false⟩⟩]⟩,⟨[11],none,[],[⟨256,.other,false,some ⟨15,[.setEnt .internalNl,.cb,.code],none,false⟩⟩,⟨256,.ws,false,some ⟨16,[.setEnt .internalNl,.cb],none,false⟩⟩,⟨256,.lf,false,some ⟨17,[.setEnt .internalNl,.cb],none,false⟩⟩,⟨256,.vt,false,some ⟨15,[.setEnt .internalNl,.cb,.code],none,false⟩⟩,⟨256,.ff,false,some ⟨18,[.setEnt .internalNl,.cb],none,false⟩⟩,⟨256,.cr,false,some ⟨19,[.setEnt .internalNl,.cb],none,false⟩⟩,⟨256,.cr,true,some ⟨20,[.setEnt .internalNl,.cb],none,false⟩⟩,⟨34,.other,false,some ⟨15,[.setEnt .internalNl,.cb,.code],none,false⟩⟩,⟨35,.other,false,some ⟨15,[.setEnt .internalNl,.cb,.code],none,false⟩⟩,⟨39,.other,false,some ⟨0,[.setEnt .internalNl,.cb,.commit],some 2,true⟩⟩,⟨92,.other,false,some ⟨21,[.setEnt .internalNl,.cb],none,false⟩⟩]⟩,⟨[6,11],none,[],[⟨256,.other,false,some ⟨15,[.setEnt .internalNl,.cb,.code],none,false⟩⟩,⟨256,.ws,false,some ⟨16,[.setEnt .internalNl,.cb],none,false⟩⟩,⟨256,.lf,false,some ⟨17,[.setEnt .internalNl,.cb],none,false⟩⟩,⟨256,.vt,false,some ⟨15,[.setEnt .internalNl,.cb,.code],none,false⟩⟩,⟨256,.ff,false,some ⟨18,[.setEnt .internalNl,.cb],none,false⟩⟩,⟨256,.cr,false,some ⟨19,[.setEnt .internalNl,.cb],none,false⟩⟩,⟨256,.cr,true,some ⟨20,[.setEnt .internalNl,.cb],none,false⟩⟩,⟨34,.other,false,some ⟨15,[.setEnt .internalNl,.cb,.code],none,false⟩⟩,⟨35,.other,false,some ⟨15,[.setEnt .internalNl,.cb,.code],none,false⟩⟩,⟨39,.other,false,some ⟨0,[.setEnt .internalNl,.cb,.commit],some 2,true⟩⟩,⟨92,.other,false,some ⟨21,[.setEnt .internalNl,.cb],none,false⟩⟩]⟩]
theorem shell_line_lrowsOk : rowsOk shell_line_nfa shell_line_lex.rel (shell_line_lcs.map (·.1)) shell_line_lrows = true := by decide +kernel
def shell_line_lfr : List CA.FRow := [⟨true,none,[],[⟨256,.other,false,false,none,some ([.setEnt (.own 3)],(some 4,true))⟩,⟨9,.ws,false,false,some 1,some ([.setEnt (.own 0)],(some 0,false))⟩,⟨10,.lf,false,true,none,some ([.setEnt .newline],(some 3,true))⟩,⟨11,.vt,false,false,none,none⟩,⟨12,.ff,false,true,none,some ([.setEnt .newline],(some 3,true))⟩,⟨13,.cr,false,false,some 2,some ([.setEnt .newline],(none,false))⟩,⟨13,.cr,true,true,some 3,some ([.setEnt .newline],(some 3,false))⟩,⟨34,.other,false,false,some 4,some ([.enqueue,.code,.setEnt (.own 3)],(some 4,false))⟩,⟨35,.other,false,false,some 5,some ([.comment,.setEnt (.own 3)],(some 1,false))⟩,⟨39,.other,false,false,some 6,some ([.enqueue,.code,.setEnt (.own 3)],(some 4,false))⟩,⟨92,.other,false,false,none,some ([.setEnt (.own 3)],(some 4,true))⟩]⟩,⟨false,some 0,[],[⟨256,.other,false,false,none,none⟩,⟨9,.ws,false,false,some 1,some ([.setEnt (.own 0)],(some 0,false))⟩,⟨10,.lf,false,true,none,none⟩,⟨11,.vt,false,false,none,none⟩,⟨12,.ff,false,true,none,none⟩,⟨13,.cr,false,false,none,none⟩,⟨13,.cr,true,true,none,none⟩,⟨34,.other,false,false,none,none⟩,⟨35,.other,false,false,none,none⟩,⟨39,.other,false,false,none,none⟩,⟨92,.other,false,false,none,none⟩]⟩,⟨false,none,[],[⟨256,.other,false,false,none,none⟩,⟨9,.ws,false,false,none,none⟩,⟨10,.lf,false,true,none,some ([.setEnt .newline],(some 3,true))⟩,⟨11,.vt,false,false,none,none⟩,⟨12,.ff,false,true,none,none⟩,⟨13,.cr,false,false,none,none⟩,⟨13,.cr,true,true,none,none⟩,⟨34,.other,false,false,none,none⟩,⟨35,.other,false,false,none,none⟩,⟨39,.other,false,false,none,none⟩,⟨92,.other,false,false,none,none⟩]⟩,⟨false,some 3,[],[⟨256,.other,false,false,none,none⟩,⟨9,.ws,false,false,none,none⟩,⟨10,.lf,false,true,none,some ([.setEnt .newline],(some 3,true))⟩,⟨11,.vt,false,false,none,none⟩,⟨12,.ff,false,true,none,none⟩,⟨13,.cr,false,false,none,none⟩,⟨13,.cr,true,true,none,none⟩,⟨34,.other,false,false,none,none⟩,⟨35,.other,false,false,none,none⟩,⟨39,.other,false,false,none,none⟩,⟨92,.other,false,false,none,none⟩]⟩,⟨false,some 4,[],[⟨256,.other,false,false,some 7,some ([.code],(none,false))⟩,⟨9,.ws,false,false,some 8,some ([],(none,false))⟩,⟨10,.lf,false,true,some 9,some ([],(none,false))⟩,⟨11,.vt,false,false,some 7,some ([.code],(none,false))⟩,⟨12,.ff,false,true,some 10,some ([],(none,false))⟩,⟨13,.cr,false,false,some 11,some ([],(none,false))⟩,⟨13,.cr,true,true,some 12,some ([],(none,false))⟩,⟨34,.other,false,false,none,some ([.commit],(some 2,true))⟩,⟨35,.other,false,false,some 7,some ([.code],(none,false))⟩,⟨39,.other,false,false,some 7,some ([.code],(none,false))⟩,⟨92,.other,false,false,some 13,some ([],(none,false))⟩]⟩,⟨false,some 1,[],[⟨256,.other,false,false,some 14,some ([],(some 1,false))⟩,⟨9,.ws,false,false,some 14,some ([],(some 1,false))⟩,⟨10,.lf,false,true,none,none⟩,⟨11,.vt,false,false,some 14,some ([],(some 1,false))⟩,⟨12,.ff,false,true,none,none⟩,⟨13,.cr,false,false,none,none⟩,⟨13,.cr,true,true,none,none⟩,⟨34,.other,false,false,some 14,some ([],(some 1,false))⟩,⟨35,.other,false,false,some 14,some ([],(some 1,false))⟩,⟨39,.other,false,false,some 14,some ([],(some 1,false))⟩,⟨92,.other,false,false,some 14,some ([],(some 1,false))⟩]⟩,⟨false,some 4,[],[⟨256,.other,false,false,some 15,some ([.code],(none,false))⟩,⟨9,.ws,false,false,some 16,some ([],(none,false))⟩,⟨10,.lf,false,true,some 17,some ([],(none,false))⟩,⟨11,.vt,false,false,some 15,some ([.code],(none,false))⟩,⟨12,.ff,false,true,some 18,some ([],(none,false))⟩,⟨13,.cr,false,false,some 19,some ([],(none,false))⟩,⟨13,.cr,true,true,some 20,some ([],(none,false))⟩,⟨34,.other,false,false,some 15,some ([.code],(none,false))⟩,⟨35,.other,false,false,some 15,some ([.code],(none,false))⟩,⟨39,.other,false,false,none,some ([.commit],(some 2,true))⟩,⟨92,.other,false,false,some 21,some ([],(none,false))⟩]⟩,⟨false,none,[],[⟨256,.other,false,false,some 7,some ([.code],(none,false))⟩,⟨9,.ws,false,false,some 8,some ([],(none,false))⟩,⟨10,.lf,false,true,some 9,some ([],(none,false))⟩,⟨11,.vt,false,false,some 7,some ([.code],(none,false))⟩,⟨12,.ff,false,true,some 10,some ([],(none,false))⟩,⟨13,.cr,false,false,some 11,some ([],(none,false))⟩,⟨13,.cr,true,true,some 12,some ([],(none,false))⟩,⟨34,.other,false,false,none,some ([.commit],(some 2,true))⟩,⟨35,.other,false,false,some 7,some ([.code],(none,false))⟩,⟨39,.other,false,false,some 7,some ([.code],(none,false))⟩,⟨92,.other,false,false,some 13,some ([],(none,false))⟩]⟩,⟨false,none,[],[⟨256,.other,false,false,some 7,some ([.code],(none,false))⟩,⟨9,.ws,false,false,some 8,some ([],(none,false))⟩,⟨10,.lf,false,true,some 9,some ([],(none,false))⟩,⟨11,.vt,false,false,some 7,some ([.code],(none,false))⟩,⟨12,.ff,false,true,some 10,some ([],(none,false))⟩,⟨13,.cr,false,false,some 11,some ([],(none,false))⟩,⟨13,.cr,true,true,some 12,some ([],(none,false))⟩,⟨34,.other,false,false,none,some ([.commit],(some 2,true))⟩,⟨35,.other,false,false,some 7,some ([.code],(none,false))⟩,⟨39,.other,false,false,some 7,some ([.code],(none,false))⟩,⟨92,.other,false,false,some 13,some ([],(none,false))⟩]⟩,⟨false,none,[],[⟨256,.other,false,false,some 7,some ([.setEnt .internalNl,.cb,.code],(none,false))⟩,⟨9,.ws,false,false,some 8,some ([.setEnt .internalNl,.cb],(none,false))⟩,⟨10,.lf,false,true,some 9,some ([.setEnt .internalNl,.cb],(none,false))⟩,⟨11,.vt,false,false,some 7,some ([.setEnt .internalNl,.cb,.code],(none,false))⟩,⟨12,.ff,false,true,some 10,some ([.setEnt .internalNl,.cb],(none,false))⟩,⟨13,.cr,false,false,some 11,some ([.setEnt .internalNl,.cb],(none,false))⟩,⟨13,.cr,true,true,some 12,some ([.setEnt .internalNl,.cb],(none,false))⟩,⟨34,.other,false,false,none,some ([.setEnt .internalNl,.cb,.commit],(some 2,true))⟩,⟨35,.other,false,false,some 7,some ([.setEnt .internalNl,.cb,.code],(none,false))⟩,⟨39,.other,false,false,some 7,some ([.setEnt .internalNl,.cb,.code],(none,false))⟩,⟨92,.other,false,false,some 13,some ([.setEnt .internalNl,.cb],(none,false))⟩]⟩,⟨false,none,[],[⟨256,.other,false,false,some 7,some ([.setEnt .internalNl,.cb,.code],(none,false))⟩,⟨9,.ws,false,false,some 8,some ([.setEnt .internalNl,.cb],(none,false))⟩,⟨10,.lf,false,true,some 9,some ([.setEnt .internalNl,.cb],(none,false))⟩,⟨11,.vt,false,false,some 7,some ([.setEnt .internalNl,.cb,.code],(none,false))⟩,⟨12,.ff,false,true,some 10,some ([.setEnt .internalNl,.cb],(none,false))⟩,⟨13,.cr,false,false,some 11,some ([.setEnt .internalNl,.cb],(none,false))⟩,⟨13,.cr,true,true,some 12,some ([.setEnt .internalNl,.cb],(none,false))⟩,⟨34,.other,false,false,none,some ([.setEnt .internalNl,.cb,.commit],(some 2,true))⟩,⟨35,.other,false,false,some 7,some ([.setEnt .internalNl,.cb,.code],(none,false))⟩,⟨39,.other,false,false,some 7,some ([.setEnt .internalNl,.cb,.code],(none,false))⟩,⟨92,.other,false,false,some 13,some ([.setEnt .internalNl,.cb],(none,false))⟩]⟩,⟨false,none,[],[⟨256,.other,false,false,none,none⟩,⟨9,.ws,false,false,none,none⟩,⟨10,.lf,false,true,some 22,some ([],(none,false))⟩,⟨11,.vt,false,false,none,none⟩,⟨12,.ff,false,true,none,none⟩,⟨13,.cr,false,false,none,none⟩,⟨13,.cr,true,true,none,none⟩,⟨34,.other,false,false,none,none⟩,⟨35,.other,false,false,none,none⟩,⟨39,.other,false,false,none,none⟩,⟨92,.other,false,false,none,none⟩]⟩,⟨false,none,[],[⟨256,.other,false,false,some 7,some ([.setEnt .internalNl,.cb,.code],(none,false))⟩,⟨9,.ws,false,false,some 8,some ([.setEnt .internalNl,.cb],(none,false))⟩,⟨10,.lf,false,true,some 23,some ([.setEnt .internalNl,.cb],(none,false))⟩,⟨11,.vt,false,false,some 7,some ([.setEnt .internalNl,.cb,.code],(none,false))⟩,⟨12,.ff,false,true,some 10,some ([.setEnt .internalNl,.cb],(none,false))⟩,⟨13,.cr,false,false,some 11,some ([.setEnt .internalNl,.cb],(none,false))⟩,⟨13,.cr,true,true,some 12,some ([.setEnt .internalNl,.cb],(none,false))⟩,⟨34,.other,false,false,none,some ([.setEnt .internalNl,.cb,.commit],(some 2,true))⟩,⟨35,.other,false,false,some 7,some ([.setEnt .internalNl,.cb,.code],(none,false))⟩,⟨39,.other,false,false,some 7,some ([.setEnt .internalNl,.cb,.code],(none,false))⟩,⟨92,.other,false,false,some 13,some ([.setEnt .internalNl,.cb],(none,false))⟩]⟩,⟨false,none,[],[⟨256,.other,false,false,some 24,some ([.code],(none,false))⟩,⟨9,.ws,false,false,some 24,some ([.code],(none,false))⟩,⟨10,.lf,false,true,some 25,some ([],(none,false))⟩,⟨11,.vt,false,false,some 24,some ([.code],(none,false))⟩,⟨12,.ff,false,true,some 26,some ([],(none,false))⟩,⟨13,.cr,false,false,some 27,some ([],(none,false))⟩,⟨13,.cr,true,true,some 28,some ([],(none,false))⟩,⟨34,.other,false,false,some 24,some ([.code],(none,false))⟩,⟨35,.other,false,false,some 24,some ([.code],(none,false))⟩,⟨39,.other,false,false,some 24,some ([.code],(none,false))⟩,⟨92,.other,false,false,some 24,some ([.code],(none,false))⟩]⟩,⟨false,some 1,[],[⟨256,.other,false,false,some 14,some ([],(some 1,false))⟩,⟨9,.ws,false,false,some 14,some ([],(some 1,false))⟩,⟨10,.lf,false,true,none,none⟩,⟨11,.vt,false,false,some 14,some ([],(some 1,false))⟩,⟨12,.ff,false,true,none,none⟩,⟨13,.cr,false,false,none,none⟩,⟨13,.cr,true,true,none,none⟩,⟨34,.other,false,false,some 14,some ([],(some 1,false))⟩,⟨35,.other,false,false,some 14,some ([],(some 1,false))⟩,⟨39,.other,false,false,some 14,some ([],(some 1,false))⟩,⟨92,.other,false,false,some 14,some ([],(some 1,false))⟩]⟩,⟨false,none,[],[⟨256,.other,false,false,some 15,some ([.code],(none,false))⟩,⟨9,.ws,false,false,some 16,some ([],(none,false))⟩,⟨10,.lf,false,true,some 17,some ([],(none,false))⟩,⟨11,.vt,false,false,some 15,some ([.code],(none,false))⟩,⟨12,.ff,false,true,some 18,some ([],(none,false))⟩,⟨13,.cr,false,false,some 19,some ([],(none,false))⟩,⟨13,.cr,true,true,some 20,some ([],(none,false))⟩,⟨34,.other,false,false,some 15,some ([.code],(none,false))⟩,⟨35,.other,false,false,some 15,some ([.code],(none,false))⟩,⟨39,.other,false,false,none,some ([.commit],(some 2,true))⟩,⟨92,.other,false,false,some 21,some ([],(none,false))⟩]⟩,⟨false,none,[],[⟨256,.other,false,false,some 15,some ([.code],(none,false))⟩,⟨9,.ws,false,false,some 16,some ([],(none,false))⟩,⟨10,.lf,false,true,some 17,some ([],(none,false))⟩,⟨11,.vt,false,false,some 15,some ([.code],(none,false))⟩,⟨12,.ff,false,true,some 18,some ([],(none,false))⟩,⟨13,.cr,false,false,some 19,some ([],(none,false))⟩,⟨13,.cr,true,true,some 20,some ([],(none,false))⟩,⟨34,.other,false,false,some 15,some ([.code],(none,false))⟩,⟨35,.other,false,false,some 15,some ([.code],(none,false))⟩,⟨39,.other,false,false,none,some ([.commit],(some 2,true))⟩,⟨92,.other,false,false,some 21,some ([],(none,false))⟩]⟩,⟨false,none,[],[⟨256,.other,false,false,some 15,some ([.setEnt .internalNl,.cb,.code],(none,false))⟩,⟨9,.ws,false,false,some 16,some ([.setEnt .internalNl,.cb],(none,false))⟩,⟨10,.lf,false,true,some 17,some ([.setEnt .internalNl,.cb],(none,false))⟩,⟨11,.vt,false,false,some 15,some ([.setEnt .internalNl,.cb,.code],(none,false))⟩,⟨12,.ff,false,true,some 18,some ([.setEnt .internalNl,.cb],(none,false))⟩,⟨13,.cr,false,false,some 19,some ([.setEnt .internalNl,.cb],(none,false))⟩,⟨13,.cr,true,true,some 20,some ([.setEnt .internalNl,.cb],(none,false))⟩,⟨34,.other,false,false,some 15,some ([.setEnt .internalNl,.cb,.code],(none,false))⟩,⟨35,.other,false,false,some 15,some ([.setEnt .internalNl,.cb,.code],(none,false))⟩,⟨39,.other,false,false,none,some ([.setEnt .internalNl,.cb,.commit],(some 2,true))⟩,⟨92,.other,false,false,some 21,some ([.setEnt .internalNl,.cb],(none,false))⟩]⟩,⟨false,none,[],[⟨256,.other,false,false,some 15,some ([.setEnt .internalNl,.cb,.code],(none,false))⟩,⟨9,.ws,false,false,some 16,some ([.setEnt .internalNl,.cb],(none,false))⟩,⟨10,.lf,false,true,some 17,some ([.setEnt .internalNl,.cb],(none,false))⟩,⟨11,.vt,false,false,some 15,some ([.setEnt .internalNl,.cb,.code],(none,false))⟩,⟨12,.ff,false,true,some 18,some ([.setEnt .internalNl,.cb],(none,false))⟩,⟨13,.cr,false,false,some 19,some ([.setEnt .internalNl,.cb],(none,false))⟩,⟨13,.cr,true,true,some 20,some ([.setEnt .internalNl,.cb],(none,false))⟩,⟨34,.other,false,false,some 15,some ([.setEnt .internalNl,.cb,.code],(none,false))⟩,⟨35,.other,false,false,some 15,some ([.setEnt .internalNl,.cb,.code],(none,false))⟩,⟨39,.other,false,false,none,some ([.setEnt .internalNl,.cb,.commit],(some 2,true))⟩,⟨92,.other,false,false,some 21,some ([.setEnt .internalNl,.cb],(none,false))⟩]⟩,⟨false,none,[],[⟨256,.other,false,false,none,none⟩,⟨9,.ws,false,false,none,none⟩,⟨10,.lf,false,true,some 29,some ([],(none,false))⟩,⟨11,.vt,false,false,none,none⟩,⟨12,.ff,false,true,none,none⟩,⟨13,.cr,false,false,none,none⟩,⟨13,.cr,true,true,none,none⟩,⟨34,.other,false,false,none,none⟩,⟨35,.other,false,false,none,none⟩,⟨39,.other,false,false,none,none⟩,⟨92,.other,false,false,none,none⟩]⟩,⟨false,none,[],[⟨256,.other,false,false,some 15,some ([.setEnt .internalNl,.cb,.code],(none,false))⟩,⟨9,.ws,false,false,some 16,some ([.setEnt .internalNl,.cb],(none,false))⟩,⟨10,.lf,false,true,some 30,some ([.setEnt .internalNl,.cb],(none,false))⟩,⟨11,.vt,false,false,some 15,some ([.setEnt .internalNl,.cb,.code],(none,false))⟩,⟨12,.ff,false,true,some 18,some ([.setEnt .internalNl,.cb],(none,false))⟩,⟨13,.cr,false,false,some 19,some ([.setEnt .internalNl,.cb],(none,false))⟩,⟨13,.cr,true,true,some 20,some ([.setEnt .internalNl,.cb],(none,false))⟩,⟨34,.other,false,false,some 15,some ([.setEnt .internalNl,.cb,.code],(none,false))⟩,⟨35,.other,false,false,some 15,some ([.setEnt .internalNl,.cb,.code],(none,false))⟩,⟨39,.other,false,false,none,some ([.setEnt .internalNl,.cb,.commit],(some 2,true))⟩,⟨92,.other,false,false,some 21,some ([.setEnt .internalNl,.cb],(none,false))⟩]⟩,⟨false,none,[],[⟨256,.other,false,false,some 31,some ([.code],(none,false))⟩,⟨9,.ws,false,false,some 31,some ([.code],(none,false))⟩,⟨10,.lf,false,true,some 32,some ([],(none,false))⟩,⟨11,.vt,false,false,some 31,some ([.code],(none,false))⟩,⟨12,.ff,false,true,some 33,some ([],(none,false))⟩,⟨13,.cr,false,false,some 34,some ([],(none,false))⟩,⟨13,.cr,true,true,some 35,some ([],(none,false))⟩,⟨34,.other,false,false,some 31,some ([.code],(none,false))⟩,⟨35,.other,false,false,some 31,some ([.code],(none,false))⟩,⟨39,.other,false,false,some 31,some ([.code],(none,false))⟩,⟨92,.other,false,false,some 31,some ([.code],(none,false))⟩]⟩,⟨false,none,[],[⟨256,.other,false,false,some 7,some ([.setEnt .internalNl,.cb,.code],(none,false))⟩,⟨9,.ws,false,false,some 8,some ([.setEnt .internalNl,.cb],(none,false))⟩,⟨10,.lf,false,true,some 9,some ([.setEnt .internalNl,.cb],(none,false))⟩,⟨11,.vt,false,false,some 7,some ([.setEnt .internalNl,.cb,.code],(none,false))⟩,⟨12,.ff,false,true,some 10,some ([.setEnt .internalNl,.cb],(none,false))⟩,⟨13,.cr,false,false,some 11,some ([.setEnt .internalNl,.cb],(none,false))⟩,⟨13,.cr,true,true,some 12,some ([.setEnt .internalNl,.cb],(none,false))⟩,⟨34,.other,false,false,none,some ([.setEnt .internalNl,.cb,.commit],(some 2,true))⟩,⟨35,.other,false,false,some 7,some ([.setEnt .internalNl,.cb,.code],(none,false))⟩,⟨39,.other,false,false,some 7,some ([.setEnt .internalNl,.cb,.code],(none,false))⟩,⟨92,.other,false,false,some 13,some ([.setEnt .internalNl,.cb],(none,false))⟩]⟩,⟨false,none,[],[⟨256,.other,false,false,some 7,some ([.setEnt .internalNl,.cb,.code],(none,false))⟩,⟨9,.ws,false,false,some 8,some ([.setEnt .internalNl,.cb],(none,false))⟩,⟨10,.lf,false,true,some 9,some ([.setEnt .internalNl,.cb],(none,false))⟩,⟨11,.vt,false,false,some 7,some ([.setEnt .internalNl,.cb,.code],(none,false))⟩,⟨12,.ff,false,true,some 10,some ([.setEnt .internalNl,.cb],(none,false))⟩,⟨13,.cr,false,false,some 11,some ([.setEnt .internalNl,.cb],(none,false))⟩,⟨13,.cr,true,true,some 12,some ([.setEnt .internalNl,.cb],(none,false))⟩,⟨34,.other,false,false,none,some ([.setEnt .internalNl,.cb,.commit],(some 2,true))⟩,⟨35,.other,false,false,some 7,some ([.setEnt .internalNl,.cb,.code],(none,false))⟩,⟨39,.other,false,false,some 7,some ([.setEnt .internalNl,.cb,.code],(none,false))⟩,⟨92,.other,false,false,some 13,some ([.setEnt .internalNl,.cb],(none,false))⟩]⟩,⟨false,none,[],[⟨256,.other,false,false,some 7,some ([.code],(none,false))⟩,⟨9,.ws,false,false,some 8,some ([],(none,false))⟩,⟨10,.lf,false,true,some 9,some ([],(none,false))⟩,⟨11,.vt,false,false,some 7,some ([.code],(none,false))⟩,⟨12,.ff,false,true,some 10,some ([],(none,false))⟩,⟨13,.cr,false,false,some 11,some ([],(none,false))⟩,⟨13,.cr,true,true,some 12,some ([],(none,false))⟩,⟨34,.other,false,false,none,some ([.commit],(some 2,true))⟩,⟨35,.other,false,false,some 7,some ([.code],(none,false))⟩,⟨39,.other,false,false,some 7,some ([.code],(none,false))⟩,⟨92,.other,false,false,some 13,some ([],(none,false))⟩]⟩,⟨false,none,[],[⟨256,.other,false,false,some 7,some ([.setEnt .internalNl,.cb,.code],(none,false))⟩,⟨9,.ws,false,false,some 8,some ([.setEnt .internalNl,.cb],(none,false))⟩,⟨10,.lf,false,true,some 9,some ([.setEnt .internalNl,.cb],(none,false))⟩,⟨11,.vt,false,false,some 7,some ([.setEnt .internalNl,.cb,.code],(none,false))⟩,⟨12,.ff,false,true,some 10,some ([.setEnt .internalNl,.cb],(none,false))⟩,⟨13,.cr,false,false,some 11,some ([.setEnt .internalNl,.cb],(none,false))⟩,⟨13,.cr,true,true,some 12,some ([.setEnt .internalNl,.cb],(none,false))⟩,⟨34,.other,false,false,none,some ([.setEnt .internalNl,.cb,.commit],(some 2,true))⟩,⟨35,.other,false,false,some 7,some ([.setEnt .internalNl,.cb,.code],(none,false))⟩,⟨39,.other,false,false,some 7,some ([.setEnt .internalNl,.cb,.code],(none,false))⟩,⟨92,.other,false,false,some 13,some ([.setEnt .internalNl,.cb],(none,false))⟩]⟩,⟨false,none,[],[⟨256,.other,false,false,some 7,some ([.setEnt .internalNl,.cb,.code],(none,false))⟩,⟨9,.ws,false,false,some 8,some ([.setEnt .internalNl,.cb],(none,false))⟩,⟨10,.lf,false,true,some 9,some ([.setEnt .internalNl,.cb],(none,false))⟩,⟨11,.vt,false,false,some 7,some ([.setEnt .internalNl,.cb,.code],(none,false))⟩,⟨12,.ff,false,true,some 10,some ([.setEnt .internalNl,.cb],(none,false))⟩,⟨13,.cr,false,false,some 11,some ([.setEnt .internalNl,.cb],(none,false))⟩,⟨13,.cr,true,true,some 12,some ([.setEnt .internalNl,.cb],(none,false))⟩,⟨34,.other,false,false,none,some ([.setEnt .internalNl,.cb,.commit],(some 2,true))⟩,⟨35,.other,false,false,some 7,some ([.setEnt .internalNl,.cb,.code],(none,false))⟩,⟨39,.other,false,false,some 7,some ([.setEnt .internalNl,.cb,.code],(none,false))⟩,⟨92,.other,false,false,some 13,some ([.setEnt .internalNl,.cb],(none,false))⟩]⟩,⟨false,none,[],[⟨256,.other,false,false,none,none⟩,⟨9,.ws,false,false,none,none⟩,⟨10,.lf,false,true,some 36,some ([],(none,false))⟩,⟨11,.vt,false,false,none,none⟩,⟨12,.ff,false,true,none,none⟩,⟨13,.cr,false,false,none,none⟩,⟨13,.cr,true,true,none,none⟩,⟨34,.other,false,false,none,none⟩,⟨35,.other,false,false,none,none⟩,⟨39,.other,false,false,none,none⟩,⟨92,.other,false,false,none,none⟩]⟩,⟨false,none,[],[⟨256,.other,false,false,some 7,some ([.setEnt .internalNl,.cb,.code],(none,false))⟩,⟨9,.ws,false,false,some 8,some ([.setEnt .internalNl,.cb],(none,false))⟩,⟨10,.lf,false,true,some 37,some ([.setEnt .internalNl,.cb],(none,false))⟩,⟨11,.vt,false,false,some 7,some ([.setEnt .internalNl,.cb,.code],(none,false))⟩,⟨12,.ff,false,true,some 10,some ([.setEnt .internalNl,.cb],(none,false))⟩,⟨13,.cr,false,false,some 11,some ([.setEnt .internalNl,.cb],(none,false))⟩,⟨13,.cr,true,true,some 12,some ([.setEnt .internalNl,.cb],(none,false))⟩,⟨34,.other,false,false,none,some ([.setEnt .internalNl,.cb,.commit],(some 2,true))⟩,⟨35,.other,false,false,some 7,some ([.setEnt .internalNl,.cb,.code],(none,false))⟩,⟨39,.other,false,false,some 7,some ([.setEnt .internalNl,.cb,.code],(none,false))⟩,⟨92,.other,false,false,some 13,some ([.setEnt .internalNl,.cb],(none,false))⟩]⟩,⟨false,none,[],[⟨256,.other,false,false,some 15,some ([.setEnt .internalNl,.cb,.code],(none,false))⟩,⟨9,.ws,false,false,some 16,some ([.setEnt .internalNl,.cb],(none,false))⟩,⟨10,.lf,false,true,some 17,some ([.setEnt .internalNl,.cb],(none,false))⟩,⟨11,.vt,false,false,some 15,some ([.setEnt .internalNl,.cb,.code],(none,false))⟩,⟨12,.ff,false,true,some 18,some ([.setEnt .internalNl,.cb],(none,false))⟩,⟨13,.cr,false,false,some 19,some ([.setEnt .internalNl,.cb],(none,false))⟩,⟨13,.cr,true,true,some 20,some ([.setEnt .internalNl,.cb],(none,false))⟩,⟨34,.other,false,false,some 15,some ([.setEnt .internalNl,.cb,.code],(none,false))⟩,⟨35,.other,false,false,some 15,some ([.setEnt .internalNl,.cb,.code],(none,false))⟩,⟨39,.other,false,false,none,some ([.setEnt .internalNl,.cb,.commit],(some 2,true))⟩,⟨92,.other,false,false,some 21,some ([.setEnt .internalNl,.cb],(none,false))⟩]⟩,⟨false,none,[],[⟨256,.other,false,false,some 15,some ([.setEnt .internalNl,.cb,.code],(none,false))⟩,⟨9,.ws,false,false,some 16,some ([.setEnt .internalNl,.cb],(none,false))⟩,⟨10,.lf,false,true,some 17,some ([.setEnt .internalNl,.cb],(none,false))⟩,⟨11,.vt,false,false,some 15,some ([.setEnt .internalNl,.cb,.code],(none,false))⟩,⟨12,.ff,false,true,some 18,some ([.setEnt .internalNl,.cb],(none,false))⟩,⟨13,.cr,false,false,some 19,some ([.setEnt .internalNl,.cb],(none,false))⟩,⟨13,.cr,true,true,some 20,some ([.setEnt .internalNl,.cb],(none,false))⟩,⟨34,.other,false,false,some 15,some ([.setEnt .internalNl,.cb,.code],(none,false))⟩,⟨35,.other,false,false,some 15,some ([.setEnt .internalNl,.cb,.code],(none,false))⟩,⟨39,.other,false,false,none,some ([.setEnt .internalNl,.cb,.commit],(some 2,true))⟩,⟨92,.other,false,false,some 21,some ([.setEnt .internalNl,.cb],(none,false))⟩]⟩,⟨false,none,[],[⟨256,.other,false,false,some 15,some ([.code],(none,false))⟩,⟨9,.ws,false,false,some 16,some ([],(none,false))⟩,⟨10,.lf,false,true,some 17,some ([],(none,false))⟩,⟨11,.vt,false,false,some 15,some ([.code],(none,false))⟩,⟨12,.ff,false,true,some 18,some ([],(none,false))⟩,⟨13,.cr,false,false,some 19,some ([],(none,false))⟩,⟨13,.cr,true,true,some 20,some ([],(none,false))⟩,⟨34,.other,false,false,some 15,some ([.code],(none,false))⟩,⟨35,.other,false,false,some 15,some ([.code],(none,false))⟩,⟨39,.other,false,false,none,some ([.commit],(some 2,true))⟩,⟨92,.other,false,false,some 21,some ([],(none,false))⟩]⟩,⟨false,none,[],[⟨256,.other,false,false,some 15,some ([.setEnt .internalNl,.cb,.code],(none,false))⟩,⟨9,.ws,false,false,some 16,some ([.setEnt .internalNl,.cb],(none,false))⟩,⟨10,.lf,false,true,some 17,some ([.setEnt .internalNl,.cb],(none,false))⟩,⟨11,.vt,false,false,some 15,some ([.setEnt .internalNl,.cb,.code],(none,false))⟩,⟨12,.ff,false,true,some 18,some ([.setEnt .internalNl,.cb],(none,false))⟩,⟨13,.cr,false,false,some 19,some ([.setEnt .internalNl,.cb],(none,false))⟩,⟨13,.cr,true,true,some 20,some ([.setEnt .internalNl,.cb],(none,false))⟩,⟨34,.other,false,false,some 15,some ([.setEnt .internalNl,.cb,.code],(none,false))⟩,⟨35,.other,false,false,some 15,some ([.setEnt .internalNl,.cb,.code],(none,false))⟩,⟨39,.other,false,false,none,some ([.setEnt .internalNl,.cb,.commit],(some 2,true))⟩,⟨92,.other,false,false,some 21,some ([.setEnt .internalNl,.cb],(none,false))⟩]⟩,⟨false,none,[],[⟨256,.other,false,false,some 15,some ([.setEnt .internalNl,.cb,.code],(none,false))⟩,⟨9,.ws,false,false,some 16,some ([.setEnt .internalNl,.cb],(none,false))⟩,⟨10,.lf,false,true,some 17,some ([.setEnt .internalNl,.cb],(none,false))⟩,⟨11,.vt,false,false,some 15,some ([.setEnt .internalNl,.cb,.code],(none,false))⟩,⟨12,.ff,false,true,some 18,some ([.setEnt .internalNl,.cb],(none,false))⟩,⟨13,.cr,false,false,some 19,some ([.setEnt .internalNl,.cb],(none,false))⟩,⟨13,.cr,true,true,some 20,some ([.setEnt .internalNl,.cb],(none,false))⟩,⟨34,.other,false,false,some 15,some ([.setEnt .internalNl,.cb,.code],(none,false))⟩,⟨35,.other,false,false,some 15,some ([.setEnt .internalNl,.cb,.code],(none,false))⟩,⟨39,.other,false,false,none,some ([.setEnt .internalNl,.cb,.commit],(some 2,true))⟩,⟨92,.other,false,false,some 21,some ([.setEnt .internalNl,.cb],(none,false))⟩]⟩,⟨false,none,[],[⟨256,.other,false,false,none,none⟩,⟨9,.ws,false,false,none,none⟩,⟨10,.lf,false,true,some 38,some ([],(none,false))⟩,⟨11,.vt,false,false,none,none⟩,⟨12,.ff,false,true,none,none⟩,⟨13,.cr,false,false,none,none⟩,⟨13,.cr,true,true,none,none⟩,⟨34,.other,false,false,none,none⟩,⟨35,.other,false,false,none,none⟩,⟨39,.other,false,false,none,none⟩,⟨92,.other,false,false,none,none⟩]⟩,⟨false,none,[],[⟨256,.other,false,false,some 15,some ([.setEnt .internalNl,.cb,.code],(none,false))⟩,⟨9,.ws,false,false,some 16,some ([.setEnt .internalNl,.cb],(none,false))⟩,⟨10,.lf,false,true,some 39,some ([.setEnt .internalNl,.cb],(none,false))⟩,⟨11,.vt,false,false,some 15,some ([.setEnt .internalNl,.cb,.code],(none,false))⟩,⟨12,.ff,false,true,some 18,some ([.setEnt .internalNl,.cb],(none,false))⟩,⟨13,.cr,false,false,some 19,some ([.setEnt .internalNl,.cb],(none,false))⟩,⟨13,.cr,true,true,some 20,some ([.setEnt .internalNl,.cb],(none,false))⟩,⟨34,.other,false,false,some 15,some ([.setEnt .internalNl,.cb,.code],(none,false))⟩,⟨35,.other,false,false,some 15,some ([.setEnt .internalNl,.cb,.code],(none,false))⟩,⟨39,.other,false,false,none,some ([.setEnt .internalNl,.cb,.commit],(some 2,true))⟩,⟨92,.other,false,false,some 21,some ([.setEnt .internalNl,.cb],(none,false))⟩]⟩,⟨false,none,[],[⟨256,.other,false,false,some 7,some ([.setEnt .internalNl,.cb,.code],(none,false))⟩,⟨9,.ws,false,false,some 8,some ([.setEnt .internalNl,.cb],(none,false))⟩,⟨10,.lf,false,true,some 9,some ([.setEnt .internalNl,.cb],(none,false))⟩,⟨11,.vt,false,false,some 7,some ([.setEnt .internalNl,.cb,.code],(none,false))⟩,⟨12,.ff,false,true,some 10,some ([.setEnt .internalNl,.cb],(none,false))⟩,⟨13,.cr,false,false,some 11,some ([.setEnt .internalNl,.cb],(none,false))⟩,⟨13,.cr,true,true,some 12,some ([.setEnt .internalNl,.cb],(none,false))⟩,⟨34,.other,false,false,none,some ([.setEnt .internalNl,.cb,.commit],(some 2,true))⟩,⟨35,.other,false,false,some 7,some ([.setEnt .internalNl,.cb,.code],(none,false))⟩,⟨39,.other,false,false,some 7,some ([.setEnt .internalNl,.cb,.code],(none,false))⟩,⟨92,.other,false,false,some 13,some ([.setEnt .internalNl,.cb],(none,false))⟩]⟩,⟨false,none,[],[⟨256,.other,false,false,some 7,some ([.setEnt .internalNl,.cb,.code],(none,false))⟩,⟨9,.ws,false,false,some 8,some ([.setEnt .internalNl,.cb],(none,false))⟩,⟨10,.lf,false,true,some 9,some ([.setEnt .internalNl,.cb],(none,false))⟩,⟨11,.vt,false,false,some 7,some ([.setEnt .internalNl,.cb,.code],(none,false))⟩,⟨12,.ff,false,true,some 10,some ([.setEnt .internalNl,.cb],(none,false))⟩,⟨13,.cr,false,false,some 11,some ([.setEnt .internalNl,.cb],(none,false))⟩,⟨13,.cr,true,true,some 12,some ([.setEnt .internalNl,.cb],(none,false))⟩,⟨34,.other,false,false,none,some ([.setEnt .internalNl,.cb,.commit],(some 2,true))⟩,⟨35,.other,false,false,some 7,some ([.setEnt .internalNl,.cb,.code],(none,false))⟩,⟨39,.other,false,false,some 7,some ([.setEnt .internalNl,.cb,.code],(none,false))⟩,⟨92,.other,false,false,some 13,some ([.setEnt .internalNl,.cb],(none,false))⟩]⟩,⟨false,none,[],[⟨256,.other,false,false,some 15,some ([.setEnt .internalNl,.cb,.code],(none,false))⟩,⟨9,.ws,false,false,some 16,some ([.setEnt .internalNl,.cb],(none,false))⟩,⟨10,.lf,false,true,some 17,some ([.setEnt .internalNl,.cb],(none,false))⟩,⟨11,.vt,false,false,some 15,some ([.setEnt .internalNl,.cb,.code],(none,false))⟩,⟨12,.ff,false,true,some 18,some ([.setEnt .internalNl,.cb],(none,false))⟩,⟨13,.cr,false,false,some 19,some ([.setEnt .internalNl,.cb],(none,false))⟩,⟨13,.cr,true,true,some 20,some ([.setEnt .internalNl,.cb],(none,false))⟩,⟨34,.other,false,false,some 15,some ([.setEnt .internalNl,.cb,.code],(none,false))⟩,⟨35,.other,false,false,some 15,some ([.setEnt .internalNl,.cb,.code],(none,false))⟩,⟨39,.other,false,false,none,some ([.setEnt .internalNl,.cb,.commit],(some 2,true))⟩,⟨92,.other,false,false,some 21,some ([.setEnt .internalNl,.cb],(none,false))⟩]⟩,⟨false,none,[],[⟨256,.other,false,false,some 15,some ([.setEnt .internalNl,.cb,.code],(none,false))⟩,⟨9,.ws,false,false,some 16,some ([.setEnt .internalNl,.cb],(none,false))⟩,⟨10,.lf,false,true,some 17,some ([.setEnt .internalNl,.cb],(none,false))⟩,⟨11,.vt,false,false,some 15,some ([.setEnt .internalNl,.cb,.code],(none,false))⟩,⟨12,.ff,false,true,some 18,some ([.setEnt .internalNl,.cb],(none,false))⟩,⟨13,.cr,false,false,some 19,some ([.setEnt .internalNl,.cb],(none,false))⟩,⟨13,.cr,true,true,some 20,some ([.setEnt .internalNl,.cb],(none,false))⟩,⟨34,.other,false,false,some 15,some ([.setEnt .internalNl,.cb,.code],(none,false))⟩,⟨35,.other,false,false,some 15,some ([.setEnt .internalNl,.cb,.code],(none,false))⟩,⟨39,.other,false,false,none,some ([.setEnt .internalNl,.cb,.commit],(some 2,true))⟩,⟨92,.other,false,false,some 21,some ([.setEnt .internalNl,.cb],(none,false))⟩]⟩]
theorem shell_line_lfrOk : shell_line_lrows.map (CA.prep shell_line_lex) = shell_line_lfr := by decide +kernel
def shell_line_lTab : List CT := [(.node (.node (.node (.node .leaf 128 [⟨⟨.code,[],.lcode,false,[],false⟩,false,false,[],none,none,none,false,false,false,none,false,⟨.lcode,none,false,.lblank⟩⟩] .leaf) 38019 [⟨⟨.code,[],.lcode,true,[],false⟩,false,false,[],none,none,none,false,false,false,none,false,⟨.lblank,none,false,.lblank⟩⟩] (.node .leaf 185487 [⟨⟨.code,[],.lcomment,true,[],false⟩,false,false,[],none,none,none,false,false,false,none,false,⟨.lblank,none,false,.lblank⟩⟩] .leaf)) 296088 [⟨⟨.code,[],.lblank,false,[],false⟩,false,false,[],none,none,none,false,false,false,none,false,⟨.lblank,none,false,.lblank⟩⟩] (.node (.node .leaf 332955 [⟨⟨.code,[],.lblank,true,[],false⟩,false,false,[],none,none,none,false,false,false,none,false,⟨.lblank,none,false,.lblank⟩⟩] .leaf) 1179872 [⟨⟨(.inside 0),[],.lcode,false,[],false⟩,false,false,[none],none,none,none,false,false,false,none,false,⟨.lcode,none,false,.lblank⟩⟩] (.node .leaf 1327852 [⟨⟨(.inside 0),[],.lcomment,false,[],false⟩,false,false,[none],none,none,none,false,false,false,none,false,⟨.lcomment,none,false,.lblank⟩⟩] .leaf))) 22179935 [⟨⟨(.inside 0),[],.lcode,false,[],false⟩,false,false,[some (10,(.lf,false))],none,none,none,false,false,false,none,false,⟨.lcode,none,false,.lblank⟩⟩] (.node (.node (.node .leaf 22327915 [⟨⟨(.inside 0),[],.lcomment,false,[],false⟩,false,false,[some (10,(.lf,false))],none,none,none,false,false,false,none,false,⟨.lcomment,none,false,.lblank⟩⟩] .leaf) 26179947 [⟨⟨(.inside 0),[],.lcode,false,[],false⟩,false,false,[some (12,(.ff,false))],none,none,none,false,false,false,none,false,⟨.lcode,none,false,.lblank⟩⟩] (.node .leaf 26327927 [⟨⟨(.inside 0),[],.lcomment,false,[],false⟩,false,false,[some (12,(.ff,false))],none,none,none,false,false,false,none,false,⟨.lcomment,none,false,.lblank⟩⟩] .leaf)) 28179953 [⟨⟨(.inside 0),[],.lcode,false,[],false⟩,false,false,[some (13,(.cr,false))],none,none,none,false,false,false,none,false,⟨.lcode,none,false,.lblank⟩⟩] (.node (.node .leaf 28327933 [⟨⟨(.inside 0),[],.lcomment,false,[],false⟩,false,false,[some (13,(.cr,false))],none,none,none,false,false,false,none,false,⟨.lcomment,none,false,.lblank⟩⟩] .leaf) 29179956 [⟨⟨(.inside 0),[],.lcode,false,[],false⟩,false,false,[some (13,(.cr,true))],none,none,none,false,false,false,none,false,⟨.lcode,none,false,.lblank⟩⟩] (.node .leaf 29327936 [⟨⟨(.inside 0),[],.lcomment,false,[],false⟩,false,false,[some (13,(.cr,true))],none,none,none,false,false,false,none,false,⟨.lcomment,none,false,.lblank⟩⟩] .leaf)))),(.node (.node .leaf 128 [⟨⟨.code,[],.lcode,false,[],false⟩,false,false,[],none,none,none,false,false,false,none,false,⟨.lcode,some (.own 0),false,.lblank⟩⟩] .leaf) 296088 [⟨⟨.code,[],.lblank,false,[],false⟩,false,false,[],none,none,none,false,false,false,none,false,⟨.lblank,some (.own 0),false,.lblank⟩⟩] .leaf),(.node (.node .leaf 160 [⟨⟨.code,[],.lcode,false,[],false⟩,true,false,[],none,none,none,false,false,false,none,false,⟨.lcode,some .newline,false,.lblank⟩⟩] .leaf) 148140 [⟨⟨.code,[],.lcomment,false,[],false⟩,true,false,[],none,none,none,false,false,false,none,false,⟨.lcomment,some .newline,false,.lblank⟩⟩] (.node .leaf 296120 [⟨⟨.code,[],.lblank,false,[],false⟩,true,false,[],none,none,none,false,false,false,none,false,⟨.lblank,some .newline,false,.lblank⟩⟩] .leaf)),(.node (.node .leaf 37011 [⟨⟨.code,[],.lcode,true,[],false⟩,false,true,[],none,none,none,false,false,false,none,false,⟨.lcode,some .newline,false,.lblank⟩⟩] .leaf) 184991 [⟨⟨.code,[],.lcomment,true,[],false⟩,false,true,[],none,none,none,false,false,false,none,false,⟨.lcomment,some .newline,false,.lblank⟩⟩] (.node .leaf 332971 [⟨⟨.code,[],.lblank,true,[],false⟩,false,true,[],none,none,none,false,false,false,none,false,⟨.lblank,some .newline,false,.lblank⟩⟩] .leaf)),(.node (.node .leaf 7078720 [⟨⟨(.inside 2),[],.lcode,false,[],false⟩,false,false,[],none,none,none,false,false,false,none,false,⟨.lcode,some (.own 3),true,.lcode⟩⟩] .leaf) 7078848 [⟨⟨(.inside 2),[],.lcode,false,[],false⟩,false,false,[],none,none,none,false,false,false,none,false,⟨.lcode,some (.own 3),true,.lblank⟩⟩] .leaf),(.node (.node .leaf 1179872 [⟨⟨(.inside 0),[],.lcode,false,[],false⟩,false,false,[],none,none,none,false,false,false,none,false,⟨.lcode,some (.own 3),false,.lblank⟩⟩] .leaf) 1327852 [⟨⟨(.inside 0),[],.lcomment,false,[],false⟩,false,false,[],none,none,none,false,false,false,none,false,⟨.lcomment,some (.own 3),false,.lblank⟩⟩] .leaf),(.node (.node .leaf 4129360 [⟨⟨(.inside 1),[],.lcode,false,[],false⟩,false,false,[],none,none,none,false,false,false,none,false,⟨.lcode,some (.own 3),true,.lcode⟩⟩] .leaf) 4129488 [⟨⟨(.inside 1),[],.lcode,false,[],false⟩,false,false,[],none,none,none,false,false,false,none,false,⟨.lcode,some (.own 3),true,.lblank⟩⟩] .leaf),(.node (.node (.node .leaf 7522149 [⟨⟨(.inside 2),[],.lcode,false,[],false⟩,false,false,[],some 4,some ⟨(.inside 2),[],.lcode,false,[],false⟩,none,false,false,false,none,false,⟨.lcode,some (.own 3),true,.lcode⟩⟩] .leaf) 7522157 [⟨⟨(.inside 2),[],.lcode,false,[],false⟩,false,false,[],some 4,some ⟨(.inside 2),[],.lcode,false,[],false⟩,none,true,false,false,none,false,⟨.lcode,some .internalNl,true,.lcode⟩⟩] .leaf) 7522277 [⟨⟨(.inside 2),[],.lcode,false,[],false⟩,false,false,[],some 4,some ⟨(.inside 2),[],.lcode,false,[],false⟩,none,false,false,false,none,false,⟨.lcode,some (.own 3),true,.lblank⟩⟩] (.node .leaf 7522285 [⟨⟨(.inside 2),[],.lcode,false,[],false⟩,false,false,[],some 4,some ⟨(.inside 2),[],.lcode,false,[],false⟩,none,true,false,false,none,false,⟨.lcode,some .internalNl,true,.lblank⟩⟩] .leaf)),(.node (.node (.node .leaf 7522149 [⟨⟨(.inside 2),[],.lcode,false,[],false⟩,false,false,[],some 4,some ⟨(.inside 2),[],.lcode,false,[],false⟩,none,false,false,false,none,false,⟨.lcode,some (.own 3),true,.lcode⟩⟩] .leaf) 7522157 [⟨⟨(.inside 2),[],.lcode,false,[],false⟩,false,false,[],some 4,some ⟨(.inside 2),[],.lcode,false,[],false⟩,none,true,false,false,none,false,⟨.lcode,some .internalNl,true,.lcode⟩⟩] (.node .leaf 7522277 [⟨⟨(.inside 2),[],.lcode,false,[],false⟩,false,false,[],some 4,some ⟨(.inside 2),[],.lcode,false,[],false⟩,none,false,false,false,none,false,⟨.lcode,some (.own 3),true,.lblank⟩⟩] .leaf)) 7522285 [⟨⟨(.inside 2),[],.lcode,false,[],false⟩,false,false,[],some 4,some ⟨(.inside 2),[],.lcode,false,[],false⟩,none,true,false,false,none,false,⟨.lcode,some .internalNl,true,.lblank⟩⟩] (.node (.node .leaf 7818117 [⟨⟨(.inside 2),[],.lblank,false,[],false⟩,false,false,[],some 4,some ⟨(.inside 2),[],.lcode,false,[],false⟩,none,true,false,false,none,false,⟨.lblank,some .internalNl,true,.lcode⟩⟩] .leaf) 7818245 [⟨⟨(.inside 2),[],.lblank,false,[],false⟩,false,false,[],some 4,some ⟨(.inside 2),[],.lcode,false,[],false⟩,none,true,false,false,none,false,⟨.lblank,some .internalNl,true,.lblank⟩⟩] .leaf)),(.node (.node (.node .leaf 7559016 [⟨⟨(.inside 2),[],.lcode,true,[],false⟩,false,false,[],some 4,some ⟨(.inside 2),[],.lcode,false,[],false⟩,none,false,false,false,none,false,⟨.lcode,some (.own 3),true,.lcode⟩⟩] .leaf) 7559024 [⟨⟨(.inside 2),[],.lcode,true,[],false⟩,false,false,[],some 4,some ⟨(.inside 2),[],.lcode,false,[],false⟩,none,true,false,false,none,false,⟨.lcode,some .internalNl,true,.lcode⟩⟩] (.node .leaf 7559144 [⟨⟨(.inside 2),[],.lcode,true,[],false⟩,false,false,[],some 4,some ⟨(.inside 2),[],.lcode,false,[],false⟩,none,false,false,false,none,false,⟨.lcode,some (.own 3),true,.lblank⟩⟩] .leaf)) 7559152 [⟨⟨(.inside 2),[],.lcode,true,[],false⟩,false,false,[],some 4,some ⟨(.inside 2),[],.lcode,false,[],false⟩,none,true,false,false,none,false,⟨.lcode,some .internalNl,true,.lblank⟩⟩] (.node (.node .leaf 7854984 [⟨⟨(.inside 2),[],.lblank,true,[],false⟩,false,false,[],some 4,some ⟨(.inside 2),[],.lcode,false,[],false⟩,none,true,false,false,none,false,⟨.lblank,some .internalNl,true,.lcode⟩⟩] .leaf) 7855112 [⟨⟨(.inside 2),[],.lblank,true,[],false⟩,false,false,[],some 4,some ⟨(.inside 2),[],.lcode,false,[],false⟩,none,true,false,false,none,false,⟨.lblank,some .internalNl,true,.lblank⟩⟩] .leaf)),(.node (.node (.node .leaf 7559016 [⟨⟨(.inside 2),[],.lcode,true,[],false⟩,false,false,[],some 4,some ⟨(.inside 2),[],.lcode,false,[],false⟩,none,false,false,false,none,false,⟨.lcode,some (.own 3),true,.lcode⟩⟩] .leaf) 7559024 [⟨⟨(.inside 2),[],.lcode,true,[],false⟩,false,false,[],some 4,some ⟨(.inside 2),[],.lcode,false,[],false⟩,none,true,false,false,none,false,⟨.lcode,some .internalNl,true,.lcode⟩⟩] (.node .leaf 7559144 [⟨⟨(.inside 2),[],.lcode,true,[],false⟩,false,false,[],some 4,some ⟨(.inside 2),[],.lcode,false,[],false⟩,none,false,false,false,none,false,⟨.lcode,some (.own 3),true,.lblank⟩⟩] .leaf)) 7559152 [⟨⟨(.inside 2),[],.lcode,true,[],false⟩,false,false,[],some 4,some ⟨(.inside 2),[],.lcode,false,[],false⟩,none,true,false,false,none,false,⟨.lcode,some .internalNl,true,.lblank⟩⟩] (.node (.node .leaf 7854984 [⟨⟨(.inside 2),[],.lblank,true,[],false⟩,false,false,[],some 4,some ⟨(.inside 2),[],.lcode,false,[],false⟩,none,true,false,false,none,false,⟨.lblank,some .internalNl,true,.lcode⟩⟩] .leaf) 7855112 [⟨⟨(.inside 2),[],.lblank,true,[],false⟩,false,false,[],some 4,some ⟨(.inside 2),[],.lcode,false,[],false⟩,none,true,false,false,none,false,⟨.lblank,some .internalNl,true,.lblank⟩⟩] .leaf)),(.node (.node (.node .leaf 7522181 [⟨⟨(.inside 2),[],.lcode,false,[],false⟩,true,false,[],some 4,some ⟨(.inside 2),[],.lcode,false,[],false⟩,none,false,false,false,none,false,⟨.lcode,some (.own 3),true,.lcode⟩⟩] .leaf) 7522189 [⟨⟨(.inside 2),[],.lcode,false,[],false⟩,true,false,[],some 4,some ⟨(.inside 2),[],.lcode,false,[],false⟩,none,true,false,false,none,false,⟨.lcode,some .internalNl,true,.lcode⟩⟩] (.node .leaf 7522309 [⟨⟨(.inside 2),[],.lcode,false,[],false⟩,true,false,[],some 4,some ⟨(.inside 2),[],.lcode,false,[],false⟩,none,false,false,false,none,false,⟨.lcode,some (.own 3),true,.lblank⟩⟩] .leaf)) 7522317 [⟨⟨(.inside 2),[],.lcode,false,[],false⟩,true,false,[],some 4,some ⟨(.inside 2),[],.lcode,false,[],false⟩,none,true,false,false,none,false,⟨.lcode,some .internalNl,true,.lblank⟩⟩] (.node (.node .leaf 7818149 [⟨⟨(.inside 2),[],.lblank,false,[],false⟩,true,false,[],some 4,some ⟨(.inside 2),[],.lcode,false,[],false⟩,none,true,false,false,none,false,⟨.lblank,some .internalNl,true,.lcode⟩⟩] .leaf) 7818277 [⟨⟨(.inside 2),[],.lblank,false,[],false⟩,true,false,[],some 4,some ⟨(.inside 2),[],.lcode,false,[],false⟩,none,true,false,false,none,false,⟨.lblank,some .internalNl,true,.lblank⟩⟩] .leaf)),(.node (.node (.node .leaf 7559032 [⟨⟨(.inside 2),[],.lcode,true,[],false⟩,false,true,[],some 4,some ⟨(.inside 2),[],.lcode,false,[],false⟩,none,false,false,false,none,false,⟨.lcode,some (.own 3),true,.lcode⟩⟩] .leaf) 7559040 [⟨⟨(.inside 2),[],.lcode,true,[],false⟩,false,true,[],some 4,some ⟨(.inside 2),[],.lcode,false,[],false⟩,none,true,false,false,none,false,⟨.lcode,some .internalNl,true,.lcode⟩⟩] (.node .leaf 7559160 [⟨⟨(.inside 2),[],.lcode,true,[],false⟩,false,true,[],some 4,some ⟨(.inside 2),[],.lcode,false,[],false⟩,none,false,false,false,none,false,⟨.lcode,some (.own 3),true,.lblank⟩⟩] .leaf)) 7559168 [⟨⟨(.inside 2),[],.lcode,true,[],false⟩,false,true,[],some 4,some ⟨(.inside 2),[],.lcode,false,[],false⟩,none,true,false,false,none,false,⟨.lcode,some .internalNl,true,.lblank⟩⟩] (.node (.node .leaf 7855000 [⟨⟨(.inside 2),[],.lblank,true,[],false⟩,false,true,[],some 4,some ⟨(.inside 2),[],.lcode,false,[],false⟩,none,true,false,false,none,false,⟨.lblank,some .internalNl,true,.lcode⟩⟩] .leaf) 7855128 [⟨⟨(.inside 2),[],.lblank,true,[],false⟩,false,true,[],some 4,some ⟨(.inside 2),[],.lcode,false,[],false⟩,none,true,false,false,none,false,⟨.lblank,some .internalNl,true,.lblank⟩⟩] .leaf)),(.node (.node (.node (.node .leaf 931151100 [⟨⟨(.inside 2),[92],.lcode,false,[],false⟩,false,false,[],some 4,some ⟨(.inside 2),[],.lcode,false,[],false⟩,none,false,false,false,none,false,⟨.lcode,some (.own 3),true,.lcode⟩⟩] .leaf) 931151108 [⟨⟨(.inside 2),[92],.lcode,false,[],false⟩,false,false,[],some 4,some ⟨(.inside 2),[],.lcode,false,[],false⟩,none,true,false,false,none,false,⟨.lcode,some .internalNl,true,.lcode⟩⟩] .leaf) 931151228 [⟨⟨(.inside 2),[92],.lcode,false,[],false⟩,false,false,[],some 4,some ⟨(.inside 2),[],.lcode,false,[],false⟩,none,false,false,false,none,false,⟨.lcode,some (.own 3),true,.lblank⟩⟩] (.node .leaf 931151236 [⟨⟨(.inside 2),[92],.lcode,false,[],false⟩,false,false,[],some 4,some ⟨(.inside 2),[],.lcode,false,[],false⟩,none,true,false,false,none,false,⟨.lcode,some .internalNl,true,.lblank⟩⟩] .leaf)) 969788748 [⟨⟨(.inside 2),[92],.lblank,false,[],false⟩,false,false,[],some 4,some ⟨(.inside 2),[],.lcode,false,[],false⟩,none,true,false,false,none,false,⟨.lblank,some .internalNl,true,.lcode⟩⟩] (.node (.node .leaf 969788876 [⟨⟨(.inside 2),[92],.lblank,false,[],false⟩,false,false,[],some 4,some ⟨(.inside 2),[],.lcode,false,[],false⟩,none,true,false,false,none,false,⟨.lblank,some .internalNl,true,.lblank⟩⟩] .leaf) 1124335212 [⟨⟨(.escapedCr 2),[92],.lblank,false,[],false⟩,false,false,[],some 4,some ⟨(.inside 2),[],.lcode,false,[],false⟩,none,true,false,false,none,false,⟨.lblank,some .internalNl,true,.lcode⟩⟩] (.node .leaf 1124335340 [⟨⟨(.escapedCr 2),[92],.lblank,false,[],false⟩,false,false,[],some 4,some ⟨(.inside 2),[],.lcode,false,[],false⟩,none,true,false,false,none,false,⟨.lblank,some .internalNl,true,.lblank⟩⟩] .leaf))),(.node (.node .leaf 1179872 [⟨⟨(.inside 0),[],.lcode,false,[],false⟩,false,false,[],none,none,none,false,false,false,none,false,⟨.lcode,some (.own 3),false,.lblank⟩⟩] .leaf) 1327852 [⟨⟨(.inside 0),[],.lcomment,false,[],false⟩,false,false,[],none,none,none,false,false,false,none,false,⟨.lcomment,some (.own 3),false,.lblank⟩⟩] .leaf),(.node (.node (.node .leaf 4388229 [⟨⟨(.inside 1),[],.lcode,false,[],false⟩,false,false,[],some 4,some ⟨(.inside 1),[],.lcode,false,[],false⟩,none,false,false,false,none,false,⟨.lcode,some (.own 3),true,.lcode⟩⟩] .leaf) 4388237 [⟨⟨(.inside 1),[],.lcode,false,[],false⟩,false,false,[],some 4,some ⟨(.inside 1),[],.lcode,false,[],false⟩,none,true,false,false,none,false,⟨.lcode,some .internalNl,true,.lcode⟩⟩] .leaf) 4388357 [⟨⟨(.inside 1),[],.lcode,false,[],false⟩,false,false,[],some 4,some ⟨(.inside 1),[],.lcode,false,[],false⟩,none,false,false,false,none,false,⟨.lcode,some (.own 3),true,.lblank⟩⟩] (.node .leaf 4388365 [⟨⟨(.inside 1),[],.lcode,false,[],false⟩,false,false,[],some 4,some ⟨(.inside 1),[],.lcode,false,[],false⟩,none,true,false,false,none,false,⟨.lcode,some .internalNl,true,.lblank⟩⟩] .leaf)),(.node (.node (.node .leaf 4388229 [⟨⟨(.inside 1),[],.lcode,false,[],false⟩,false,false,[],some 4,some ⟨(.inside 1),[],.lcode,false,[],false⟩,none,false,false,false,none,false,⟨.lcode,some (.own 3),true,.lcode⟩⟩] .leaf) 4388237 [⟨⟨(.inside 1),[],.lcode,false,[],false⟩,false,false,[],some 4,some ⟨(.inside 1),[],.lcode,false,[],false⟩,none,true,false,false,none,false,⟨.lcode,some .internalNl,true,.lcode⟩⟩] (.node .leaf 4388357 [⟨⟨(.inside 1),[],.lcode,false,[],false⟩,false,false,[],some 4,some ⟨(.inside 1),[],.lcode,false,[],false⟩,none,false,false,false,none,false,⟨.lcode,some (.own 3),true,.lblank⟩⟩] .leaf)) 4388365 [⟨⟨(.inside 1),[],.lcode,false,[],false⟩,false,false,[],some 4,some ⟨(.inside 1),[],.lcode,false,[],false⟩,none,true,false,false,none,false,⟨.lcode,some .internalNl,true,.lblank⟩⟩] (.node (.node .leaf 4684197 [⟨⟨(.inside 1),[],.lblank,false,[],false⟩,false,false,[],some 4,some ⟨(.inside 1),[],.lcode,false,[],false⟩,none,true,false,false,none,false,⟨.lblank,some .internalNl,true,.lcode⟩⟩] .leaf) 4684325 [⟨⟨(.inside 1),[],.lblank,false,[],false⟩,false,false,[],some 4,some ⟨(.inside 1),[],.lcode,false,[],false⟩,none,true,false,false,none,false,⟨.lblank,some .internalNl,true,.lblank⟩⟩] .leaf)),(.node (.node (.node .leaf 4425096 [⟨⟨(.inside 1),[],.lcode,true,[],false⟩,false,false,[],some 4,some ⟨(.inside 1),[],.lcode,false,[],false⟩,none,false,false,false,none,false,⟨.lcode,some (.own 3),true,.lcode⟩⟩] .leaf) 4425104 [⟨⟨(.inside 1),[],.lcode,true,[],false⟩,false,false,[],some 4,some ⟨(.inside 1),[],.lcode,false,[],false⟩,none,true,false,false,none,false,⟨.lcode,some .internalNl,true,.lcode⟩⟩] (.node .leaf 4425224 [⟨⟨(.inside 1),[],.lcode,true,[],false⟩,false,false,[],some 4,some ⟨(.inside 1),[],.lcode,false,[],false⟩,none,false,false,false,none,false,⟨.lcode,some (.own 3),true,.lblank⟩⟩] .leaf)) 4425232 [⟨⟨(.inside 1),[],.lcode,true,[],false⟩,false,false,[],some 4,some ⟨(.inside 1),[],.lcode,false,[],false⟩,none,true,false,false,none,false,⟨.lcode,some .internalNl,true,.lblank⟩⟩] (.node (.node .leaf 4721064 [⟨⟨(.inside 1),[],.lblank,true,[],false⟩,false,false,[],some 4,some ⟨(.inside 1),[],.lcode,false,[],false⟩,none,true,false,false,none,false,⟨.lblank,some .internalNl,true,.lcode⟩⟩] .leaf) 4721192 [⟨⟨(.inside 1),[],.lblank,true,[],false⟩,false,false,[],some 4,some ⟨(.inside 1),[],.lcode,false,[],false⟩,none,true,false,false,none,false,⟨.lblank,some .internalNl,true,.lblank⟩⟩] .leaf)),(.node (.node (.node .leaf 4425096 [⟨⟨(.inside 1),[],.lcode,true,[],false⟩,false,false,[],some 4,some ⟨(.inside 1),[],.lcode,false,[],false⟩,none,false,false,false,none,false,⟨.lcode,some (.own 3),true,.lcode⟩⟩] .leaf) 4425104 [⟨⟨(.inside 1),[],.lcode,true,[],false⟩,false,false,[],some 4,some ⟨(.inside 1),[],.lcode,false,[],false⟩,none,true,false,false,none,false,⟨.lcode,some .internalNl,true,.lcode⟩⟩] (.node .leaf 4425224 [⟨⟨(.inside 1),[],.lcode,true,[],false⟩,false,false,[],some 4,some ⟨(.inside 1),[],.lcode,false,[],false⟩,none,false,false,false,none,false,⟨.lcode,some (.own 3),true,.lblank⟩⟩] .leaf)) 4425232 [⟨⟨(.inside 1),[],.lcode,true,[],false⟩,false,false,[],some 4,some ⟨(.inside 1),[],.lcode,false,[],false⟩,none,true,false,false,none,false,⟨.lcode,some .internalNl,true,.lblank⟩⟩] (.node (.node .leaf 4721064 [⟨⟨(.inside 1),[],.lblank,true,[],false⟩,false,false,[],some 4,some ⟨(.inside 1),[],.lcode,false,[],false⟩,none,true,false,false,none,false,⟨.lblank,some .internalNl,true,.lcode⟩⟩] .leaf) 4721192 [⟨⟨(.inside 1),[],.lblank,true,[],false⟩,false,false,[],some 4,some ⟨(.inside 1),[],.lcode,false,[],false⟩,none,true,false,false,none,false,⟨.lblank,some .internalNl,true,.lblank⟩⟩] .leaf)),(.node (.node (.node .leaf 4388261 [⟨⟨(.inside 1),[],.lcode,false,[],false⟩,true,false,[],some 4,some ⟨(.inside 1),[],.lcode,false,[],false⟩,none,false,false,false,none,false,⟨.lcode,some (.own 3),true,.lcode⟩⟩] .leaf) 4388269 [⟨⟨(.inside 1),[],.lcode,false,[],false⟩,true,false,[],some 4,some ⟨(.inside 1),[],.lcode,false,[],false⟩,none,true,false,false,none,false,⟨.lcode,some .internalNl,true,.lcode⟩⟩] (.node .leaf 4388389 [⟨⟨(.inside 1),[],.lcode,false,[],false⟩,true,false,[],some 4,some ⟨(.inside 1),[],.lcode,false,[],false⟩,none,false,false,false,none,false,⟨.lcode,some (.own 3),true,.lblank⟩⟩] .leaf)) 4388397 [⟨⟨(.inside 1),[],.lcode,false,[],false⟩,true,false,[],some 4,some ⟨(.inside 1),[],.lcode,false,[],false⟩,none,true,false,false,none,false,⟨.lcode,some .internalNl,true,.lblank⟩⟩] (.node (.node .leaf 4684229 [⟨⟨(.inside 1),[],.lblank,false,[],false⟩,true,false,[],some 4,some ⟨(.inside 1),[],.lcode,false,[],false⟩,none,true,false,false,none,false,⟨.lblank,some .internalNl,true,.lcode⟩⟩] .leaf) 4684357 [⟨⟨(.inside 1),[],.lblank,false,[],false⟩,true,false,[],some 4,some ⟨(.inside 1),[],.lcode,false,[],false⟩,none,true,false,false,none,false,⟨.lblank,some .internalNl,true,.lblank⟩⟩] .leaf)),(.node (.node (.node .leaf 4425112 [⟨⟨(.inside 1),[],.lcode,true,[],false⟩,false,true,[],some 4,some ⟨(.inside 1),[],.lcode,false,[],false⟩,none,false,false,false,none,false,⟨.lcode,some (.own 3),true,.lcode⟩⟩] .leaf) 4425120 [⟨⟨(.inside 1),[],.lcode,true,[],false⟩,false,true,[],some 4,some ⟨(.inside 1),[],.lcode,false,[],false⟩,none,true,false,false,none,false,⟨.lcode,some .internalNl,true,.lcode⟩⟩] (.node .leaf 4425240 [⟨⟨(.inside 1),[],.lcode,true,[],false⟩,false,true,[],some 4,some ⟨(.inside 1),[],.lcode,false,[],false⟩,none,false,false,false,none,false,⟨.lcode,some (.own 3),true,.lblank⟩⟩] .leaf)) 4425248 [⟨⟨(.inside 1),[],.lcode,true,[],false⟩,false,true,[],some 4,some ⟨(.inside 1),[],.lcode,false,[],false⟩,none,true,false,false,none,false,⟨.lcode,some .internalNl,true,.lblank⟩⟩] (.node (.node .leaf 4721080 [⟨⟨(.inside 1),[],.lblank,true,[],false⟩,false,true,[],some 4,some ⟨(.inside 1),[],.lcode,false,[],false⟩,none,true,false,false,none,false,⟨.lblank,some .internalNl,true,.lcode⟩⟩] .leaf) 4721208 [⟨⟨(.inside 1),[],.lblank,true,[],false⟩,false,true,[],some 4,some ⟨(.inside 1),[],.lcode,false,[],false⟩,none,true,false,false,none,false,⟨.lblank,some .internalNl,true,.lblank⟩⟩] .leaf)),(.node (.node (.node (.node .leaf 544600380 [⟨⟨(.inside 1),[92],.lcode,false,[],false⟩,false,false,[],some 4,some ⟨(.inside 1),[],.lcode,false,[],false⟩,none,false,false,false,none,false,⟨.lcode,some (.own 3),true,.lcode⟩⟩] .leaf) 544600388 [⟨⟨(.inside 1),[92],.lcode,false,[],false⟩,false,false,[],some 4,some ⟨(.inside 1),[],.lcode,false,[],false⟩,none,true,false,false,none,false,⟨.lcode,some .internalNl,true,.lcode⟩⟩] .leaf) 544600508 [⟨⟨(.inside 1),[92],.lcode,false,[],false⟩,false,false,[],some 4,some ⟨(.inside 1),[],.lcode,false,[],false⟩,none,false,false,false,none,false,⟨.lcode,some (.own 3),true,.lblank⟩⟩] (.node .leaf 544600516 [⟨⟨(.inside 1),[92],.lcode,false,[],false⟩,false,false,[],some 4,some ⟨(.inside 1),[],.lcode,false,[],false⟩,none,true,false,false,none,false,⟨.lcode,some .internalNl,true,.lblank⟩⟩] .leaf)) 583238028 [⟨⟨(.inside 1),[92],.lblank,false,[],false⟩,false,false,[],some 4,some ⟨(.inside 1),[],.lcode,false,[],false⟩,none,true,false,false,none,false,⟨.lblank,some .internalNl,true,.lcode⟩⟩] (.node (.node .leaf 583238156 [⟨⟨(.inside 1),[92],.lblank,false,[],false⟩,false,false,[],some 4,some ⟨(.inside 1),[],.lcode,false,[],false⟩,none,true,false,false,none,false,⟨.lblank,some .internalNl,true,.lblank⟩⟩] .leaf) 737784492 [⟨⟨(.escapedCr 1),[92],.lblank,false,[],false⟩,false,false,[],some 4,some ⟨(.inside 1),[],.lcode,false,[],false⟩,none,true,false,false,none,false,⟨.lblank,some .internalNl,true,.lcode⟩⟩] (.node .leaf 737784620 [⟨⟨(.escapedCr 1),[92],.lblank,false,[],false⟩,false,false,[],some 4,some ⟨(.inside 1),[],.lcode,false,[],false⟩,none,true,false,false,none,false,⟨.lblank,some .internalNl,true,.lblank⟩⟩] .leaf))),(.node (.node (.node .leaf 7559016 [⟨⟨(.inside 2),[],.lcode,true,[],false⟩,false,false,[],some 4,some ⟨(.inside 2),[],.lcode,false,[],false⟩,none,false,false,false,none,false,⟨.lcode,some (.own 3),true,.lcode⟩⟩] .leaf) 7559024 [⟨⟨(.inside 2),[],.lcode,true,[],false⟩,false,false,[],some 4,some ⟨(.inside 2),[],.lcode,false,[],false⟩,none,true,false,false,none,false,⟨.lcode,some .internalNl,true,.lcode⟩⟩] (.node .leaf 7559144 [⟨⟨(.inside 2),[],.lcode,true,[],false⟩,false,false,[],some 4,some ⟨(.inside 2),[],.lcode,false,[],false⟩,none,false,false,false,none,false,⟨.lcode,some (.own 3),true,.lblank⟩⟩] .leaf)) 7559152 [⟨⟨(.inside 2),[],.lcode,true,[],false⟩,false,false,[],some 4,some ⟨(.inside 2),[],.lcode,false,[],false⟩,none,true,false,false,none,false,⟨.lcode,some .internalNl,true,.lblank⟩⟩] (.node (.node .leaf 7854984 [⟨⟨(.inside 2),[],.lblank,true,[],false⟩,false,false,[],some 4,some ⟨(.inside 2),[],.lcode,false,[],false⟩,none,true,false,false,none,false,⟨.lblank,some .internalNl,true,.lcode⟩⟩] .leaf) 7855112 [⟨⟨(.inside 2),[],.lblank,true,[],false⟩,false,false,[],some 4,some ⟨(.inside 2),[],.lcode,false,[],false⟩,none,true,false,false,none,false,⟨.lblank,some .internalNl,true,.lblank⟩⟩] .leaf)),.leaf,(.node (.node (.node .leaf 7522149 [⟨⟨(.inside 2),[],.lcode,false,[],false⟩,false,false,[],some 4,some ⟨(.inside 2),[],.lcode,false,[],false⟩,none,false,false,false,none,false,⟨.lcode,some (.own 3),true,.lcode⟩⟩] .leaf) 7522157 [⟨⟨(.inside 2),[],.lcode,false,[],false⟩,false,false,[],some 4,some ⟨(.inside 2),[],.lcode,false,[],false⟩,none,true,false,false,none,false,⟨.lcode,some .internalNl,true,.lcode⟩⟩] .leaf) 7522277 [⟨⟨(.inside 2),[],.lcode,false,[],false⟩,false,false,[],some 4,some ⟨(.inside 2),[],.lcode,false,[],false⟩,none,false,false,false,none,false,⟨.lcode,some (.own 3),true,.lblank⟩⟩] (.node .leaf 7522285 [⟨⟨(.inside 2),[],.lcode,false,[],false⟩,false,false,[],some 4,some ⟨(.inside 2),[],.lcode,false,[],false⟩,none,true,false,false,none,false,⟨.lcode,some .internalNl,true,.lblank⟩⟩] .leaf)),(.node (.node (.node .leaf 7559016 [⟨⟨(.inside 2),[],.lcode,true,[],false⟩,false,false,[],some 4,some ⟨(.inside 2),[],.lcode,false,[],false⟩,none,false,false,false,none,false,⟨.lcode,some (.own 3),true,.lcode⟩⟩] .leaf) 7559024 [⟨⟨(.inside 2),[],.lcode,true,[],false⟩,false,false,[],some 4,some ⟨(.inside 2),[],.lcode,false,[],false⟩,none,true,false,false,none,false,⟨.lcode,some .internalNl,true,.lcode⟩⟩] (.node .leaf 7559144 [⟨⟨(.inside 2),[],.lcode,true,[],false⟩,false,false,[],some 4,some ⟨(.inside 2),[],.lcode,false,[],false⟩,none,false,false,false,none,false,⟨.lcode,some (.own 3),true,.lblank⟩⟩] .leaf)) 7559152 [⟨⟨(.inside 2),[],.lcode,true,[],false⟩,false,false,[],some 4,some ⟨(.inside 2),[],.lcode,false,[],false⟩,none,true,false,false,none,false,⟨.lcode,some .internalNl,true,.lblank⟩⟩] (.node (.node .leaf 7854984 [⟨⟨(.inside 2),[],.lblank,true,[],false⟩,false,false,[],some 4,some ⟨(.inside 2),[],.lcode,false,[],false⟩,none,true,false,false,none,false,⟨.lblank,some .internalNl,true,.lcode⟩⟩] .leaf) 7855112 [⟨⟨(.inside 2),[],.lblank,true,[],false⟩,false,false,[],some 4,some ⟨(.inside 2),[],.lcode,false,[],false⟩,none,true,false,false,none,false,⟨.lblank,some .internalNl,true,.lblank⟩⟩] .leaf)),(.node (.node (.node .leaf 7559016 [⟨⟨(.inside 2),[],.lcode,true,[],false⟩,false,false,[],some 4,some ⟨(.inside 2),[],.lcode,false,[],false⟩,none,false,false,false,none,false,⟨.lcode,some (.own 3),true,.lcode⟩⟩] .leaf) 7559024 [⟨⟨(.inside 2),[],.lcode,true,[],false⟩,false,false,[],some 4,some ⟨(.inside 2),[],.lcode,false,[],false⟩,none,true,false,false,none,false,⟨.lcode,some .internalNl,true,.lcode⟩⟩] (.node .leaf 7559144 [⟨⟨(.inside 2),[],.lcode,true,[],false⟩,false,false,[],some 4,some ⟨(.inside 2),[],.lcode,false,[],false⟩,none,false,false,false,none,false,⟨.lcode,some (.own 3),true,.lblank⟩⟩] .leaf)) 7559152 [⟨⟨(.inside 2),[],.lcode,true,[],false⟩,false,false,[],some 4,some ⟨(.inside 2),[],.lcode,false,[],false⟩,none,true,false,false,none,false,⟨.lcode,some .internalNl,true,.lblank⟩⟩] (.node (.node .leaf 7854984 [⟨⟨(.inside 2),[],.lblank,true,[],false⟩,false,false,[],some 4,some ⟨(.inside 2),[],.lcode,false,[],false⟩,none,true,false,false,none,false,⟨.lblank,some .internalNl,true,.lcode⟩⟩] .leaf) 7855112 [⟨⟨(.inside 2),[],.lblank,true,[],false⟩,false,false,[],some 4,some ⟨(.inside 2),[],.lcode,false,[],false⟩,none,true,false,false,none,false,⟨.lblank,some .internalNl,true,.lblank⟩⟩] .leaf)),(.node (.node (.node .leaf 8701925 [⟨⟨(.escapedCr 2),[],.lcode,false,[],false⟩,true,false,[],some 4,some ⟨(.inside 2),[],.lcode,false,[],false⟩,none,false,false,false,none,false,⟨.lcode,some (.own 3),true,.lcode⟩⟩] .leaf) 8701933 [⟨⟨(.escapedCr 2),[],.lcode,false,[],false⟩,true,false,[],some 4,some ⟨(.inside 2),[],.lcode,false,[],false⟩,none,true,false,false,none,false,⟨.lcode,some .internalNl,true,.lcode⟩⟩] (.node .leaf 8702053 [⟨⟨(.escapedCr 2),[],.lcode,false,[],false⟩,true,false,[],some 4,some ⟨(.inside 2),[],.lcode,false,[],false⟩,none,false,false,false,none,false,⟨.lcode,some (.own 3),true,.lblank⟩⟩] .leaf)) 8702061 [⟨⟨(.escapedCr 2),[],.lcode,false,[],false⟩,true,false,[],some 4,some ⟨(.inside 2),[],.lcode,false,[],false⟩,none,true,false,false,none,false,⟨.lcode,some .internalNl,true,.lblank⟩⟩] (.node (.node .leaf 8997893 [⟨⟨(.escapedCr 2),[],.lblank,false,[],false⟩,true,false,[],some 4,some ⟨(.inside 2),[],.lcode,false,[],false⟩,none,true,false,false,none,false,⟨.lblank,some .internalNl,true,.lcode⟩⟩] .leaf) 8998021 [⟨⟨(.escapedCr 2),[],.lblank,false,[],false⟩,true,false,[],some 4,some ⟨(.inside 2),[],.lcode,false,[],false⟩,none,true,false,false,none,false,⟨.lblank,some .internalNl,true,.lblank⟩⟩] .leaf)),(.node (.node (.node .leaf 8738776 [⟨⟨(.escapedCr 2),[],.lcode,true,[],false⟩,false,true,[],some 4,some ⟨(.inside 2),[],.lcode,false,[],false⟩,none,false,false,false,none,false,⟨.lcode,some (.own 3),true,.lcode⟩⟩] .leaf) 8738784 [⟨⟨(.escapedCr 2),[],.lcode,true,[],false⟩,false,true,[],some 4,some ⟨(.inside 2),[],.lcode,false,[],false⟩,none,true,false,false,none,false,⟨.lcode,some .internalNl,true,.lcode⟩⟩] (.node .leaf 8738904 [⟨⟨(.escapedCr 2),[],.lcode,true,[],false⟩,false,true,[],some 4,some ⟨(.inside 2),[],.lcode,false,[],false⟩,none,false,false,false,none,false,⟨.lcode,some (.own 3),true,.lblank⟩⟩] .leaf)) 8738912 [⟨⟨(.escapedCr 2),[],.lcode,true,[],false⟩,false,true,[],some 4,some ⟨(.inside 2),[],.lcode,false,[],false⟩,none,true,false,false,none,false,⟨.lcode,some .internalNl,true,.lblank⟩⟩] (.node (.node .leaf 9034744 [⟨⟨(.escapedCr 2),[],.lblank,true,[],false⟩,false,true,[],some 4,some ⟨(.inside 2),[],.lcode,false,[],false⟩,none,true,false,false,none,false,⟨.lblank,some .internalNl,true,.lcode⟩⟩] .leaf) 9034872 [⟨⟨(.escapedCr 2),[],.lblank,true,[],false⟩,false,true,[],some 4,some ⟨(.inside 2),[],.lcode,false,[],false⟩,none,true,false,false,none,false,⟨.lblank,some .internalNl,true,.lblank⟩⟩] .leaf)),(.node (.node (.node .leaf 4425096 [⟨⟨(.inside 1),[],.lcode,true,[],false⟩,false,false,[],some 4,some ⟨(.inside 1),[],.lcode,false,[],false⟩,none,false,false,false,none,false,⟨.lcode,some (.own 3),true,.lcode⟩⟩] .leaf) 4425104 [⟨⟨(.inside 1),[],.lcode,true,[],false⟩,false,false,[],some 4,some ⟨(.inside 1),[],.lcode,false,[],false⟩,none,true,false,false,none,false,⟨.lcode,some .internalNl,true,.lcode⟩⟩] (.node .leaf 4425224 [⟨⟨(.inside 1),[],.lcode,true,[],false⟩,false,false,[],some 4,some ⟨(.inside 1),[],.lcode,false,[],false⟩,none,false,false,false,none,false,⟨.lcode,some (.own 3),true,.lblank⟩⟩] .leaf)) 4425232 [⟨⟨(.inside 1),[],.lcode,true,[],false⟩,false,false,[],some 4,some ⟨(.inside 1),[],.lcode,false,[],false⟩,none,true,false,false,none,false,⟨.lcode,some .internalNl,true,.lblank⟩⟩] (.node (.node .leaf 4721064 [⟨⟨(.inside 1),[],.lblank,true,[],false⟩,false,false,[],some 4,some ⟨(.inside 1),[],.lcode,false,[],false⟩,none,true,false,false,none,false,⟨.lblank,some .internalNl,true,.lcode⟩⟩] .leaf) 4721192 [⟨⟨(.inside 1),[],.lblank,true,[],false⟩,false,false,[],some 4,some ⟨(.inside 1),[],.lcode,false,[],false⟩,none,true,false,false,none,false,⟨.lblank,some .internalNl,true,.lblank⟩⟩] .leaf)),.leaf,(.node (.node (.node .leaf 4388229 [⟨⟨(.inside 1),[],.lcode,false,[],false⟩,false,false,[],some 4,some ⟨(.inside 1),[],.lcode,false,[],false⟩,none,false,false,false,none,false,⟨.lcode,some (.own 3),true,.lcode⟩⟩] .leaf) 4388237 [⟨⟨(.inside 1),[],.lcode,false,[],false⟩,false,false,[],some 4,some ⟨(.inside 1),[],.lcode,false,[],false⟩,none,true,false,false,none,false,⟨.lcode,some .internalNl,true,.lcode⟩⟩] .leaf) 4388357 [⟨⟨(.inside 1),[],.lcode,false,[],false⟩,false,false,[],some 4,some ⟨(.inside 1),[],.lcode,false,[],false⟩,none,false,false,false,none,false,⟨.lcode,some (.own 3),true,.lblank⟩⟩] (.node .leaf 4388365 [⟨⟨(.inside 1),[],.lcode,false,[],false⟩,false,false,[],some 4,some ⟨(.inside 1),[],.lcode,false,[],false⟩,none,true,false,false,none,false,⟨.lcode,some .internalNl,true,.lblank⟩⟩] .leaf)),(.node (.node (.node .leaf 4425096 [⟨⟨(.inside 1),[],.lcode,true,[],false⟩,false,false,[],some 4,some ⟨(.inside 1),[],.lcode,false,[],false⟩,none,false,false,false,none,false,⟨.lcode,some (.own 3),true,.lcode⟩⟩] .leaf) 4425104 [⟨⟨(.inside 1),[],.lcode,true,[],false⟩,false,false,[],some 4,some ⟨(.inside 1),[],.lcode,false,[],false⟩,none,true,false,false,none,false,⟨.lcode,some .internalNl,true,.lcode⟩⟩] (.node .leaf 4425224 [⟨⟨(.inside 1),[],.lcode,true,[],false⟩,false,false,[],some 4,some ⟨(.inside 1),[],.lcode,false,[],false⟩,none,false,false,false,none,false,⟨.lcode,some (.own 3),true,.lblank⟩⟩] .leaf)) 4425232 [⟨⟨(.inside 1),[],.lcode,true,[],false⟩,false,false,[],some 4,some ⟨(.inside 1),[],.lcode,false,[],false⟩,none,true,false,false,none,false,⟨.lcode,some .internalNl,true,.lblank⟩⟩] (.node (.node .leaf 4721064 [⟨⟨(.inside 1),[],.lblank,true,[],false⟩,false,false,[],some 4,some ⟨(.inside 1),[],.lcode,false,[],false⟩,none,true,false,false,none,false,⟨.lblank,some .internalNl,true,.lcode⟩⟩] .leaf) 4721192 [⟨⟨(.inside 1),[],.lblank,true,[],false⟩,false,false,[],some 4,some ⟨(.inside 1),[],.lcode,false,[],false⟩,none,true,false,false,none,false,⟨.lblank,some .internalNl,true,.lblank⟩⟩] .leaf)),(.node (.node (.node .leaf 4425096 [⟨⟨(.inside 1),[],.lcode,true,[],false⟩,false,false,[],some 4,some ⟨(.inside 1),[],.lcode,false,[],false⟩,none,false,false,false,none,false,⟨.lcode,some (.own 3),true,.lcode⟩⟩] .leaf) 4425104 [⟨⟨(.inside 1),[],.lcode,true,[],false⟩,false,false,[],some 4,some ⟨(.inside 1),[],.lcode,false,[],false⟩,none,true,false,false,none,false,⟨.lcode,some .internalNl,true,.lcode⟩⟩] (.node .leaf 4425224 [⟨⟨(.inside 1),[],.lcode,true,[],false⟩,false,false,[],some 4,some ⟨(.inside 1),[],.lcode,false,[],false⟩,none,false,false,false,none,false,⟨.lcode,some (.own 3),true,.lblank⟩⟩] .leaf)) 4425232 [⟨⟨(.inside 1),[],.lcode,true,[],false⟩,false,false,[],some 4,some ⟨(.inside 1),[],.lcode,false,[],false⟩,none,true,false,false,none,false,⟨.lcode,some .internalNl,true,.lblank⟩⟩] (.node (.node .leaf 4721064 [⟨⟨(.inside 1),[],.lblank,true,[],false⟩,false,false,[],some 4,some ⟨(.inside 1),[],.lcode,false,[],false⟩,none,true,false,false,none,false,⟨.lblank,some .internalNl,true,.lcode⟩⟩] .leaf) 4721192 [⟨⟨(.inside 1),[],.lblank,true,[],false⟩,false,false,[],some 4,some ⟨(.inside 1),[],.lcode,false,[],false⟩,none,true,false,false,none,false,⟨.lblank,some .internalNl,true,.lblank⟩⟩] .leaf)),(.node (.node (.node .leaf 5568005 [⟨⟨(.escapedCr 1),[],.lcode,false,[],false⟩,true,false,[],some 4,some ⟨(.inside 1),[],.lcode,false,[],false⟩,none,false,false,false,none,false,⟨.lcode,some (.own 3),true,.lcode⟩⟩] .leaf) 5568013 [⟨⟨(.escapedCr 1),[],.lcode,false,[],false⟩,true,false,[],some 4,some ⟨(.inside 1),[],.lcode,false,[],false⟩,none,true,false,false,none,false,⟨.lcode,some .internalNl,true,.lcode⟩⟩] (.node .leaf 5568133 [⟨⟨(.escapedCr 1),[],.lcode,false,[],false⟩,true,false,[],some 4,some ⟨(.inside 1),[],.lcode,false,[],false⟩,none,false,false,false,none,false,⟨.lcode,some (.own 3),true,.lblank⟩⟩] .leaf)) 5568141 [⟨⟨(.escapedCr 1),[],.lcode,false,[],false⟩,true,false,[],some 4,some ⟨(.inside 1),[],.lcode,false,[],false⟩,none,true,false,false,none,false,⟨.lcode,some .internalNl,true,.lblank⟩⟩] (.node (.node .leaf 5863973 [⟨⟨(.escapedCr 1),[],.lblank,false,[],false⟩,true,false,[],some 4,some ⟨(.inside 1),[],.lcode,false,[],false⟩,none,true,false,false,none,false,⟨.lblank,some .internalNl,true,.lcode⟩⟩] .leaf) 5864101 [⟨⟨(.escapedCr 1),[],.lblank,false,[],false⟩,true,false,[],some 4,some ⟨(.inside 1),[],.lcode,false,[],false⟩,none,true,false,false,none,false,⟨.lblank,some .internalNl,true,.lblank⟩⟩] .leaf)),(.node (.node (.node .leaf 5604856 [⟨⟨(.escapedCr 1),[],.lcode,true,[],false⟩,false,true,[],some 4,some ⟨(.inside 1),[],.lcode,false,[],false⟩,none,false,false,false,none,false,⟨.lcode,some (.own 3),true,.lcode⟩⟩] .leaf) 5604864 [⟨⟨(.escapedCr 1),[],.lcode,true,[],false⟩,false,true,[],some 4,some ⟨(.inside 1),[],.lcode,false,[],false⟩,none,true,false,false,none,false,⟨.lcode,some .internalNl,true,.lcode⟩⟩] (.node .leaf 5604984 [⟨⟨(.escapedCr 1),[],.lcode,true,[],false⟩,false,true,[],some 4,some ⟨(.inside 1),[],.lcode,false,[],false⟩,none,false,false,false,none,false,⟨.lcode,some (.own 3),true,.lblank⟩⟩] .leaf)) 5604992 [⟨⟨(.escapedCr 1),[],.lcode,true,[],false⟩,false,true,[],some 4,some ⟨(.inside 1),[],.lcode,false,[],false⟩,none,true,false,false,none,false,⟨.lcode,some .internalNl,true,.lblank⟩⟩] (.node (.node .leaf 5900824 [⟨⟨(.escapedCr 1),[],.lblank,true,[],false⟩,false,true,[],some 4,some ⟨(.inside 1),[],.lcode,false,[],false⟩,none,true,false,false,none,false,⟨.lblank,some .internalNl,true,.lcode⟩⟩] .leaf) 5900952 [⟨⟨(.escapedCr 1),[],.lblank,true,[],false⟩,false,true,[],some 4,some ⟨(.inside 1),[],.lcode,false,[],false⟩,none,true,false,false,none,false,⟨.lblank,some .internalNl,true,.lblank⟩⟩] .leaf)),(.node (.node (.node .leaf 7559016 [⟨⟨(.inside 2),[],.lcode,true,[],false⟩,false,false,[],some 4,some ⟨(.inside 2),[],.lcode,false,[],false⟩,none,false,false,false,none,false,⟨.lcode,some (.own 3),true,.lcode⟩⟩] .leaf) 7559024 [⟨⟨(.inside 2),[],.lcode,true,[],false⟩,false,false,[],some 4,some ⟨(.inside 2),[],.lcode,false,[],false⟩,none,true,false,false,none,false,⟨.lcode,some .internalNl,true,.lcode⟩⟩] (.node .leaf 7559144 [⟨⟨(.inside 2),[],.lcode,true,[],false⟩,false,false,[],some 4,some ⟨(.inside 2),[],.lcode,false,[],false⟩,none,false,false,false,none,false,⟨.lcode,some (.own 3),true,.lblank⟩⟩] .leaf)) 7559152 [⟨⟨(.inside 2),[],.lcode,true,[],false⟩,false,false,[],some 4,some ⟨(.inside 2),[],.lcode,false,[],false⟩,none,true,false,false,none,false,⟨.lcode,some .internalNl,true,.lblank⟩⟩] (.node (.node .leaf 7854984 [⟨⟨(.inside 2),[],.lblank,true,[],false⟩,false,false,[],some 4,some ⟨(.inside 2),[],.lcode,false,[],false⟩,none,true,false,false,none,false,⟨.lblank,some .internalNl,true,.lcode⟩⟩] .leaf) 7855112 [⟨⟨(.inside 2),[],.lblank,true,[],false⟩,false,false,[],some 4,some ⟨(.inside 2),[],.lcode,false,[],false⟩,none,true,false,false,none,false,⟨.lblank,some .internalNl,true,.lblank⟩⟩] .leaf)),.leaf,(.node (.node (.node .leaf 4425096 [⟨⟨(.inside 1),[],.lcode,true,[],false⟩,false,false,[],some 4,some ⟨(.inside 1),[],.lcode,false,[],false⟩,none,false,false,false,none,false,⟨.lcode,some (.own 3),true,.lcode⟩⟩] .leaf) 4425104 [⟨⟨(.inside 1),[],.lcode,true,[],false⟩,false,false,[],some 4,some ⟨(.inside 1),[],.lcode,false,[],false⟩,none,true,false,false,none,false,⟨.lcode,some .internalNl,true,.lcode⟩⟩] (.node .leaf 4425224 [⟨⟨(.inside 1),[],.lcode,true,[],false⟩,false,false,[],some 4,some ⟨(.inside 1),[],.lcode,false,[],false⟩,none,false,false,false,none,false,⟨.lcode,some (.own 3),true,.lblank⟩⟩] .leaf)) 4425232 [⟨⟨(.inside 1),[],.lcode,true,[],false⟩,false,false,[],some 4,some ⟨(.inside 1),[],.lcode,false,[],false⟩,none,true,false,false,none,false,⟨.lcode,some .internalNl,true,.lblank⟩⟩] (.node (.node .leaf 4721064 [⟨⟨(.inside 1),[],.lblank,true,[],false⟩,false,false,[],some 4,some ⟨(.inside 1),[],.lcode,false,[],false⟩,none,true,false,false,none,false,⟨.lblank,some .internalNl,true,.lcode⟩⟩] .leaf) 4721192 [⟨⟨(.inside 1),[],.lblank,true,[],false⟩,false,false,[],some 4,some ⟨(.inside 1),[],.lcode,false,[],false⟩,none,true,false,false,none,false,⟨.lblank,some .internalNl,true,.lblank⟩⟩] .leaf)),.leaf]
theorem shell_line_lClosed : CA.closedF shell_line_M shell_line_lex true false shell_line_lfr shell_line_lTab = true := by decide +kernel
def shell_line_L : LCert LexisTable.shell_line shell_line_M := shell_line_lex_eq ▸ ⟨⟨shell_line_lmasks, shell_line_lex.rel, shell_line_lcs, shell_line_lrows, shell_line_lmasksIn, shell_line_lrepOk, shell_line_lrowsOk⟩,
  _, rfl, by decide +kernel, by decide +kernel, true, false, CA.closed_of shell_line_lfrOk shell_line_lClosed⟩
theorem shell_line_L_chk : shell_line_L.chk = true := by
  have : ∀ (l : Lexis) (h : LexisTable.shell_line = l) (C : LCert l shell_line_M), (h ▸ C : LCert LexisTable.shell_line shell_line_M).chk = C.chk := by rintro _ rfl _; rfl
  exact this _ shell_line_lex_eq _

def smalltalk_line_lex : Lexis := [⟨[34],[[34]],.lcomment,true,false,false,true,false,false,false,false,none,false,false,false,false,[]⟩,⟨[39],[[39]],.lcode,false,true,false,true,false,false,true,false,none,false,false,false,false,[]⟩]
theorem smalltalk_line_lex_eq : LexisTable.smalltalk_line = smalltalk_line_lex := by decide +kernel
def smalltalk_line_lmasks : List Nat := [4294967808,17179869184,549755813888,8192,1024,4096,115792089237316195423570985008687907853269984665640564039457584007908834656767,115792089237316195423570985008687907853269984665640564039457584007891654789631,115792089237316195423570985008687907853269984665640564039457584007363373812735,4951760157141521099596496896]
def smalltalk_line_lcs : List (Nat × Nat) := [(0,115792089237316195423570985008687907853269984665635612279300442486242302476799),(9,4294967808),(10,1024),(11,2048),(12,4096),(13,8192),(34,17179869184),(39,549755813888),(92,4951760157141521099596496896)]
theorem smalltalk_line_lmasksIn : masksIn smalltalk_line_nfa smalltalk_line_lmasks = true := by decide +kernel
theorem smalltalk_line_lrepOk : repOk smalltalk_line_lmasks smalltalk_line_lcs = true := by decide +kernel
def smalltalk_line_lrows : List Row := [⟨[],none,[],[⟨256,.other,false,some ⟨0,[.setEnt (.own 3)],some 4,true⟩⟩,⟨256,.ws,false,some ⟨1,[.setEnt (.own 0)],some 0,false⟩⟩,⟨256,.lf,false,some ⟨0,[.setEnt .newline],some 3,true⟩⟩,⟨256,.vt,false,none⟩,⟨256,.ff,false,some ⟨0,[.setEnt .newline],some 3,true⟩⟩,⟨256,.cr,false,some ⟨2,[.setEnt .newline],none,false⟩⟩,⟨256,.cr,true,some ⟨3,[.setEnt .newline],some 3,false⟩⟩,⟨34,.other,false,some ⟨4,[.comment,.setEnt (.own 3)],some 4,false⟩⟩,⟨39,.other,false,some ⟨5,[.code,.setEnt (.own 3)],some 4,false⟩⟩,⟨92,.other,false,some ⟨0,[.setEnt (.own 3)],some 4,true⟩⟩]⟩,⟨[0],some 0,[],[⟨256,.other,false,none⟩,⟨256,.ws,false,some ⟨1,[.setEnt (.own 0)],some 0,false⟩⟩,⟨256,.lf,false,none⟩,⟨256,.vt,false,none⟩,⟨256,.ff,false,none⟩,⟨256,.cr,false,none⟩,⟨256,.cr,true,none⟩,⟨34,.other,false,none⟩,⟨39,.other,false,none⟩,⟨92,.other,false,none⟩]⟩,⟨[13],none,[],[⟨256,.other,false,none⟩,⟨256,.ws,false,none⟩,⟨256,.lf,false,some ⟨0,[.setEnt .newline],some 3,true⟩⟩,⟨256,.vt,false,none⟩,⟨256,.ff,false,none⟩,⟨256,.cr,false,none⟩,⟨256,.cr,true,none⟩,⟨34,.other,false,none⟩,⟨39,.other,false,none⟩,⟨92,.other,false,none⟩]⟩,⟨[13,17],some 3,[],[⟨256,.other,false,none⟩,⟨256,.ws,false,none⟩,⟨256,.lf,false,some ⟨0,[.setEnt .newline],some 3,true⟩⟩,⟨256,.vt,false,none⟩,⟨256,.ff,false,none⟩,⟨256,.cr,false,none⟩,⟨256,.cr,true,none⟩,⟨34,.other,false,none⟩,⟨39,.other,false,none⟩,⟨92,.other,false,none⟩]⟩,⟨[1,18],some 4,[],[⟨256,.other,false,some ⟨6,[.comment],none,false⟩⟩,⟨256,.ws,false,some ⟨7,[],none,false⟩⟩,⟨256,.lf,false,some ⟨8,[],none,false⟩⟩,⟨256,.vt,false,some ⟨6,[.comment],none,false⟩⟩,⟨256,.ff,false,some ⟨9,[],none,false⟩⟩,⟨256,.cr,false,some ⟨10,[],none,false⟩⟩,⟨256,.cr,true,some ⟨11,[],none,false⟩⟩,⟨34,.other,false,some ⟨0,[],some 1,true⟩⟩,⟨39,.other,false,some ⟨6,[.comment],none,false⟩⟩,⟨92,.other,false,some ⟨6,[.comment],none,false⟩⟩]⟩,⟨[10,18],some 4,[],[⟨256,.other,false,some ⟨12,[],none,false⟩⟩,⟨256,.ws,false,some ⟨12,[],none,false⟩⟩,⟨256,.lf,false,none⟩,⟨256,.vt,false,some ⟨12,[],none,false⟩⟩,⟨256,.ff,false,none⟩,⟨256,.cr,false,none⟩,⟨256,.cr,true,none⟩,⟨34,.other,false,some ⟨12,[],none,false⟩⟩,⟨39,.other,false,some ⟨0,[],some 2,true⟩⟩,⟨92,.other,false,some ⟨12,[],none,false⟩⟩]⟩,⟨[8],none,[],[⟨256,.other,false,some ⟨6,[.comment],none,false⟩⟩,⟨256,.ws,false,some ⟨7,[],none,false⟩⟩,⟨256,.lf,false,some ⟨8,[],none,false⟩⟩,⟨256,.vt,false,some ⟨6,[.comment],none,false⟩⟩,⟨256,.ff,false,some ⟨9,[],none,false⟩⟩,⟨256,.cr,false,some ⟨10,[],none,false⟩⟩,⟨256,.cr,true,some ⟨11,[],none,false⟩⟩,⟨34,.other,false,some ⟨0,[],some 1,true⟩⟩,⟨39,.other,false,some ⟨6,[.comment],none,false⟩⟩,⟨92,.other,false,some ⟨6,[.comment],none,false⟩⟩]⟩,⟨[7],none,[],[⟨256,.other,false,some ⟨6,[.comment],none,false⟩⟩,⟨256,.ws,false,some ⟨7,[],none,false⟩⟩,⟨256,.lf,false,some ⟨8,[],none,false⟩⟩,⟨256,.vt,false,some ⟨6,[.comment],none,false⟩⟩,⟨256,.ff,false,some ⟨9,[],none,false⟩⟩,⟨256,.cr,false,some ⟨10,[],none,false⟩⟩,⟨256,.cr,true,some ⟨11,[],none,false⟩⟩,⟨34,.other,false,some ⟨0,[],some 1,true⟩⟩,⟨39,.other,false,some ⟨6,[.comment],none,false⟩⟩,⟨92,.other,false,some ⟨6,[.comment],none,false⟩⟩]⟩,⟨[4],none,[],[⟨256,.other,false,some ⟨6,[.setEnt .internalNl,.cb,.comment],none,false⟩⟩,⟨256,.ws,false,some ⟨7,[.setEnt .internalNl,.cb],none,false⟩⟩,⟨256,.lf,false,some ⟨8,[.setEnt .internalNl,.cb],none,false⟩⟩,⟨256,.vt,false,some ⟨6,[.setEnt .internalNl,.cb,.comment],none,false⟩⟩,⟨256,.ff,false,some ⟨9,[.setEnt .internalNl,.cb],none,false⟩⟩,⟨256,.cr,false,some ⟨10,[.setEnt .internalNl,.cb],none,false⟩⟩,⟨256,.cr,true,some ⟨11,[.setEnt .internalNl,.cb],none,false⟩⟩,⟨34,.other,false,some ⟨0,[.setEnt .internalNl,.cb],some 1,true⟩⟩,⟨39,.other,false,some ⟨6,[.setEnt .internalNl,.cb,.comment],none,false⟩⟩,⟨92,.other,false,some ⟨6,[.setEnt .internalNl,.cb,.comment],none,false⟩⟩]⟩,⟨[5],none,[],[⟨256,.other,false,some ⟨6,[.setEnt .internalNl,.cb,.comment],none,false⟩⟩,⟨256,.ws,false,some ⟨7,[.setEnt .internalNl,.cb],none,false⟩⟩,⟨256,.lf,false,some ⟨8,[.setEnt .internalNl,.cb],none,false⟩⟩,⟨256,.vt,false,some ⟨6,[.setEnt .internalNl,.cb,.comment],none,false⟩⟩,⟨256,.ff,false,some ⟨9,[.setEnt .internalNl,.cb],none,false⟩⟩,⟨256,.cr,false,some ⟨10,[.setEnt .internalNl,.cb],none,false⟩⟩,⟨256,.cr,true,some ⟨11,[.setEnt .internalNl,.cb],none,false⟩⟩,⟨34,.other,false,some ⟨0,[.setEnt .internalNl,.cb],some 1,true⟩⟩,⟨39,.other,false,some ⟨6,[.setEnt .internalNl,.cb,.comment],none,false⟩⟩,⟨92,.other,false,some ⟨6,[.setEnt .internalNl,.cb,.comment],none,false⟩⟩]⟩,⟨[2],none,[],[⟨256,.other,false,none⟩,⟨256,.ws,false,none⟩,⟨256,.lf,false,some ⟨13,[],none,false⟩⟩,⟨256,.vt,false,none⟩,⟨256,.ff,false,none⟩,⟨256,.cr,false,none⟩,⟨256,.cr,true,none⟩,⟨34,.other,false,none⟩,⟨39,.other,false,none⟩,⟨92,.other,false,none⟩]⟩,⟨[2,6],none,[],[⟨256,.other,false,some ⟨6,[.setEnt .internalNl,.cb,.comment],none,false⟩⟩,⟨256,.ws,false,some ⟨7,[.setEnt .internalNl,.cb],none,false⟩⟩,⟨256,.lf,false,some ⟨14,[.setEnt .internalNl,.cb],none,false⟩⟩,⟨256,.vt,false,some ⟨6,[.setEnt .internalNl,.cb,.comment],none,false⟩⟩,⟨256,.ff,false,some ⟨9,[.setEnt .internalNl,.cb],none,false⟩⟩,⟨256,.cr,false,some ⟨10,[.setEnt .internalNl,.cb],none,false⟩⟩,⟨256,.cr,true,some ⟨11,[.setEnt .internalNl,.cb],none,false⟩⟩,⟨34,.other,false,some ⟨0,[.setEnt .internalNl,.cb],some 1,true⟩⟩,⟨39,.other,false,some ⟨6,[.setEnt .internalNl,.cb,.comment],none,false⟩⟩,⟨92,.other,false,some ⟨6,[.setEnt .internalNl,.cb,.comment],none,false⟩⟩]⟩,⟨[11],none,[],[⟨256,.other,false,some ⟨12,[],none,false⟩⟩,⟨256,.ws,false,some ⟨12,[],none,false⟩⟩,⟨256,.lf,false,none⟩,⟨256,.vt,false,some ⟨12,[],none,false⟩⟩,⟨256,.ff,false,none⟩,⟨256,.cr,false,none⟩,⟨256,.cr,true,none⟩,⟨34,.other,false,some ⟨12,[],none,false⟩⟩,⟨39,.other,false,some ⟨0,[],some 2,true⟩⟩,⟨92,.other,false,some ⟨12,[],none,false⟩⟩]⟩,⟨[3],none,[],[⟨256,.other,false,some ⟨6,[.setEnt .internalNl,.cb,.comment],none,false⟩⟩,⟨256,.ws,false,some ⟨7,[.setEnt .internalNl,.cb],none,false⟩⟩,⟨256,.lf,false,some ⟨8,[.setEnt .internalNl,.cb],none,false⟩⟩,⟨256,.vt,false,some ⟨6,[.setEnt .internalNl,.cb,.comment],none,false⟩⟩,⟨256,.ff,false,some ⟨9,[.setEnt .internalNl,.cb],none,false⟩⟩,⟨256,.cr,false,some ⟨10,[.setEnt .internalNl,.cb],none,false⟩⟩,⟨256,.cr,true,some ⟨11,[.setEnt .internalNl,.cb],none,false⟩⟩,⟨34,.other,false,some ⟨0,[.setEnt .internalNl,.cb],some 1,true⟩⟩,⟨39,.other,false,some ⟨6,[.setEnt .internalNl,.cb,.comment],none,false⟩⟩,⟨92,.other,false,some ⟨6,[.setEnt .internalNl,.cb,.comment],none,false⟩⟩]⟩,⟨[3,4],none,[],[⟨256,.other,false,some ⟨6,[.setEnt .internalNl,.cb,.comment],none,false⟩⟩,⟨256,.ws,false,some ⟨7,[.setEnt .internalNl,.cb],none,false⟩⟩,⟨256,.lf,false,some ⟨8,[.setEnt .internalNl,.cb],none,false⟩⟩,⟨256,.vt,false,some ⟨6,[.setEnt .internalNl,.cb,.comment],none,false⟩⟩,⟨256,.ff,false,some ⟨9,[.setEnt .internalNl,.cb],none,false⟩⟩,⟨256,.cr,false,some ⟨10,[.setEnt .internalNl,.cb],none,false⟩⟩,⟨256,.cr,true,some ⟨11,[.setEnt .internalNl,.cb],none,false⟩⟩,⟨34,.other,false,some ⟨0,[.setEnt .internalNl,.cb],some 1,true⟩⟩,⟨39,.other,false,some ⟨6,[.setEnt .internalNl,.cb,.comment],none,false⟩⟩,⟨92,.other,false,some ⟨6,[.setEnt .internalNl,.cb,.comment],none,false⟩⟩]⟩]
theorem smalltalk_line_lrowsOk : rowsOk smalltalk_line_nfa smalltalk_line_lex.rel (smalltalk_line_lcs.map (·.1)) smalltalk_line_lrows = true := by decide +kernel
def smalltalk_line_lfr : List CA.FRow := [⟨true,none,[],[⟨256,.other,false,false,none,some ([.setEnt (.own 3)],(some 4,true))⟩,⟨9,.ws,false,false,some 1,some ([.setEnt (.own 0)],(some 0,false))⟩,⟨10,.lf,false,true,none,some ([.setEnt .newline],(some 3,true))⟩,⟨11,.vt,false,false,none,none⟩,⟨12,.ff,false,true,none,some ([.setEnt .newline],(some 3,true))⟩,⟨13,.cr,false,false,some 2,some ([.setEnt .newline],(none,false))⟩,⟨13,.cr,true,true,some 3,some ([.setEnt .newline],(some 3,false))⟩,⟨34,.other,false,false,some 4,some ([.comment,.setEnt (.own 3)],(some 4,false))⟩,⟨39,.other,false,false,some 5,some ([.code,.setEnt (.own 3)],(some 4,false))⟩,⟨92,.other,false,false,none,some ([.setEnt (.own 3)],(some 4,true))⟩]⟩,⟨false,some 0,[],[⟨256,.other,false,false,none,none⟩,⟨9,.ws,false,false,some 1,some ([.setEnt (.own 0)],(some 0,false))⟩,⟨10,.lf,false,true,none,none⟩,⟨11,.vt,false,false,none,none⟩,⟨12,.ff,false,true,none,none⟩,⟨13,.cr,false,false,none,none⟩,⟨13,.cr,true,true,none,none⟩,⟨34,.other,false,false,none,none⟩,⟨39,.other,false,false,none,none⟩,⟨92,.other,false,false,none,none⟩]⟩,⟨false,none,[],[⟨256,.other,false,false,none,none⟩,⟨9,.ws,false,false,none,none⟩,⟨10,.lf,false,true,none,some ([.setEnt .newline],(some 3,true))⟩,⟨11,.vt,false,false,none,none⟩,⟨12,.ff,false,true,none,none⟩,⟨13,.cr,false,false,none,none⟩,⟨13,.cr,true,true,none,none⟩,⟨34,.other,false,false,none,none⟩,⟨39,.other,false,false,none,none⟩,⟨92,.other,false,false,none,none⟩]⟩,⟨false,some 3,[],[⟨256,.other,false,false,none,none⟩,⟨9,.ws,false,false,none,none⟩,⟨10,.lf,false,true,none,some ([.setEnt .newline],(some 3,true))⟩,⟨11,.vt,false,false,none,none⟩,⟨12,.ff,false,true,none,none⟩,⟨13,.cr,false,false,none,none⟩,⟨13,.cr,true,true,none,none⟩,⟨34,.other,false,false,none,none⟩,⟨39,.other,false,false,none,none⟩,⟨92,.other,false,false,none,none⟩]⟩,⟨false,some 4,[],[⟨256,.other,false,false,some 6,some ([.comment],(none,false))⟩,⟨9,.ws,false,false,some 7,some ([],(none,false))⟩,⟨10,.lf,false,true,some 8,some ([],(none,false))⟩,⟨11,.vt,false,false,some 6,some ([.comment],(none,false))⟩,⟨12,.ff,false,true,some 9,some ([],(none,false))⟩,⟨13,.cr,false,false,some 10,some ([],(none,false))⟩,⟨13,.cr,true,true,some 11,some ([],(none,false))⟩,⟨34,.other,false,false,none,some ([],(some 1,true))⟩,⟨39,.other,false,false,some 6,some ([.comment],(none,false))⟩,⟨92,.other,false,false,some 6,some ([.comment],(none,false))⟩]⟩,⟨false,some 4,[],[⟨256,.other,false,false,some 12,some ([],(none,false))⟩,⟨9,.ws,false,false,some 12,some ([],(none,false))⟩,⟨10,.lf,false,true,none,none⟩,⟨11,.vt,false,false,some 12,some ([],(none,false))⟩,⟨12,.ff,false,true,none,none⟩,⟨13,.cr,false,false,none,none⟩,⟨13,.cr,true,true,none,none⟩,⟨34,.other,false,false,some 12,some ([],(none,false))⟩,⟨39,.other,false,false,none,some ([],(some 2,true))⟩,⟨92,.other,false,false,some 12,some ([],(none,false))⟩]⟩,⟨false,none,[],[⟨256,.other,false,false,some 6,some ([.comment],(none,false))⟩,⟨9,.ws,false,false,some 7,some ([],(none,false))⟩,⟨10,.lf,false,true,some 8,some ([],(none,false))⟩,⟨11,.vt,false,false,some 6,some ([.comment],(none,false))⟩,⟨12,.ff,false,true,some 9,some ([],(none,false))⟩,⟨13,.cr,false,false,some 10,some ([],(none,false))⟩,⟨13,.cr,true,true,some 11,some ([],(none,false))⟩,⟨34,.other,false,false,none,some ([],(some 1,true))⟩,⟨39,.other,false,false,some 6,some ([.comment],(none,false))⟩,⟨92,.other,false,false,some 6,some ([.comment],(none,false))⟩]⟩,⟨false,none,[],[⟨256,.other,false,false,some 6,some ([.comment],(none,false))⟩,⟨9,.ws,false,false,some 7,some ([],(none,false))⟩,⟨10,.lf,false,true,some 8,some ([],(none,false))⟩,⟨11,.vt,false,false,some 6,some ([.comment],(none,false))⟩,⟨12,.ff,false,true,some 9,some ([],(none,false))⟩,⟨13,.cr,false,false,some 10,some ([],(none,false))⟩,⟨13,.cr,true,true,some 11,some ([],(none,false))⟩,⟨34,.other,false,false,none,some ([],(some 1,true))⟩,⟨39,.other,false,false,some 6,some ([.comment],(none,false))⟩,⟨92,.other,false,false,some 6,some ([.comment],(none,false))⟩]⟩,⟨false,none,[],[⟨256,.other,false,false,some 6,some ([.setEnt .internalNl,.cb,.comment],(none,false))⟩,⟨9,.ws,false,false,some 7,some ([.setEnt .internalNl,.cb],(none,false))⟩,⟨10,.lf,false,true,some 8,some ([.setEnt .internalNl,.cb],(none,false))⟩,⟨11,.vt,false,false,some 6,some ([.setEnt .internalNl,.cb,.comment],(none,false))⟩,⟨12,.ff,false,true,some 9,some ([.setEnt .internalNl,.cb],(none,false))⟩,⟨13,.cr,false,false,some 10,some ([.setEnt .internalNl,.cb],(none,false))⟩,⟨13,.cr,true,true,some 11,some ([.setEnt .internalNl,.cb],(none,false))⟩,⟨34,.other,false,false,none,some ([.setEnt .internalNl,.cb],(some 1,true))⟩,⟨39,.other,false,false,some 6,some ([.setEnt .internalNl,.cb,.comment],(none,false))⟩,⟨92,.other,false,false,some 6,some ([.setEnt .internalNl,.cb,.comment],(none,false))⟩]⟩,⟨false,none,[],[⟨256,.other,false,false,some 6,some ([.setEnt .internalNl,.cb,.comment],(none,false))⟩,⟨9,.ws,false,false,some 7,some ([.setEnt .internalNl,.cb],(none,false))⟩,⟨10,.lf,false,true,some 8,some ([.setEnt .internalNl,.cb],(none,false))⟩,⟨11,.vt,false,false,some 6,some ([.setEnt .internalNl,.cb,.comment],(none,false))⟩,⟨12,.ff,false,true,some 9,some ([.setEnt .internalNl,.cb],(none,false))⟩,⟨13,.cr,false,false,some 10,some ([.setEnt .internalNl,.cb],(none,false))⟩,⟨13,.cr,true,true,some 11,some ([.setEnt .internalNl,.cb],(none,false))⟩,⟨34,.other,false,false,none,some ([.setEnt .internalNl,.cb],(some 1,true))⟩,⟨39,.other,false,false,some 6,some ([.setEnt .internalNl,.cb,.comment],(none,false))⟩,⟨92,.other,false,false,some 6,some ([.setEnt .internalNl,.cb,.comment],(none,false))⟩]⟩,⟨false,none,[],[⟨256,.other,false,false,none,none⟩,⟨9,.ws,false,false,none,none⟩,⟨10,.lf,false,true,some 13,some ([],(none,false))⟩,⟨11,.vt,false,false,none,none⟩,⟨12,.ff,false,true,none,none⟩,⟨13,.cr,false,false,none,none⟩,⟨13,.cr,true,true,none,none⟩,⟨34,.other,false,false,none,none⟩,⟨39,.other,false,false,none,none⟩,⟨92,.other,false,false,none,none⟩]⟩,⟨false,none,[],[⟨256,.other,false,false,some 6,some ([.setEnt .internalNl,.cb,.comment],(none,false))⟩,⟨9,.ws,false,false,some 7,some ([.setEnt .internalNl,.cb],(none,false))⟩,⟨10,.lf,false,true,some 14,some ([.setEnt .internalNl,.cb],(none,false))⟩,⟨11,.vt,false,false,some 6,some ([.setEnt .internalNl,.cb,.comment],(none,false))⟩,⟨12,.ff,false,true,some 9,some ([.setEnt .internalNl,.cb],(none,false))⟩,⟨13,.cr,false,false,some 10,some ([.setEnt .internalNl,.cb],(none,false))⟩,⟨13,.cr,true,true,some 11,some ([.setEnt .internalNl,.cb],(none,false))⟩,⟨34,.other,false,false,none,some ([.setEnt .internalNl,.cb],(some 1,true))⟩,⟨39,.other,false,false,some 6,some ([.setEnt .internalNl,.cb,.comment],(none,false))⟩,⟨92,.other,false,false,some 6,some ([.setEnt .internalNl,.cb,.comment],(none,false))⟩]⟩,⟨false,none,[],[⟨256,.other,false,false,some 12,some ([],(none,false))⟩,⟨9,.ws,false,false,some 12,some ([],(none,false))⟩,⟨10,.lf,false,true,none,none⟩,⟨11,.vt,false,false,some 12,some ([],(none,false))⟩,⟨12,.ff,false,true,none,none⟩,⟨13,.cr,false,false,none,none⟩,⟨13,.cr,true,true,none,none⟩,⟨34,.other,false,false,some 12,some ([],(none,false))⟩,⟨39,.other,false,false,none,some ([],(some 2,true))⟩,⟨92,.other,false,false,some 12,some ([],(none,false))⟩]⟩,⟨false,none,[],[⟨256,.other,false,false,some 6,some ([.setEnt .internalNl,.cb,.comment],(none,false))⟩,⟨9,.ws,false,false,some 7,some ([.setEnt .internalNl,.cb],(none,false))⟩,⟨10,.lf,false,true,some 8,some ([.setEnt .internalNl,.cb],(none,false))⟩,⟨11,.vt,false,false,some 6,some ([.setEnt .internalNl,.cb,.comment],(none,false))⟩,⟨12,.ff,false,true,some 9,some ([.setEnt .internalNl,.cb],(none,false))⟩,⟨13,.cr,false,false,some 10,some ([.setEnt .internalNl,.cb],(none,false))⟩,⟨13,.cr,true,true,some 11,some ([.setEnt .internalNl,.cb],(none,false))⟩,⟨34,.other,false,false,none,some ([.setEnt .internalNl,.cb],(some 1,true))⟩,⟨39,.other,false,false,some 6,some ([.setEnt .internalNl,.cb,.comment],(none,false))⟩,⟨92,.other,false,false,some 6,some ([.setEnt .internalNl,.cb,.comment],(none,false))⟩]⟩,⟨false,none,[],[⟨256,.other,false,false,some 6,some ([.setEnt .internalNl,.cb,.comment],(none,false))⟩,⟨9,.ws,false,false,some 7,some ([.setEnt .internalNl,.cb],(none,false))⟩,⟨10,.lf,false,true,some 8,some ([.setEnt .internalNl,.cb],(none,false))⟩,⟨11,.vt,false,false,some 6,some ([.setEnt .internalNl,.cb,.comment],(none,false))⟩,⟨12,.ff,false,true,some 9,some ([.setEnt .internalNl,.cb],(none,false))⟩,⟨13,.cr,false,false,some 10,some ([.setEnt .internalNl,.cb],(none,false))⟩,⟨13,.cr,true,true,some 11,some ([.setEnt .internalNl,.cb],(none,false))⟩,⟨34,.other,false,false,none,some ([.setEnt .internalNl,.cb],(some 1,true))⟩,⟨39,.other,false,false,some 6,some ([.setEnt .internalNl,.cb,.comment],(none,false))⟩,⟨92,.other,false,false,some 6,some ([.setEnt .internalNl,.cb,.comment],(none,false))⟩]⟩]
theorem smalltalk_line_lfrOk : smalltalk_line_lrows.map (CA.prep smalltalk_line_lex) = smalltalk_line_lfr := by decide +kernel
def smalltalk_line_lTab : List CT := [(.node (.node (.node .leaf 128 [⟨⟨.code,[],.lcode,false,[],false⟩,false,false,[],none,none,none,false,false,false,none,false,⟨.lcode,none,false,.lblank⟩⟩] .leaf) 38019 [⟨⟨.code,[],.lcode,true,[],false⟩,false,false,[],none,none,none,false,false,false,none,false,⟨.lblank,none,false,.lblank⟩⟩] (.node .leaf 98440 [⟨⟨.code,[],.lcode,false,[(1,0)],false⟩,false,false,[],none,none,none,false,false,false,none,false,⟨.lcode,none,false,.lblank⟩⟩] .leaf)) 148108 [⟨⟨.code,[],.lcomment,false,[],false⟩,false,false,[],none,none,none,false,false,false,none,false,⟨.lcomment,none,false,.lblank⟩⟩] (.node (.node .leaf 185487 [⟨⟨.code,[],.lcomment,true,[],false⟩,false,false,[],none,none,none,false,false,false,none,false,⟨.lblank,none,false,.lblank⟩⟩] .leaf) 296088 [⟨⟨.code,[],.lblank,false,[],false⟩,false,false,[],none,none,none,false,false,false,none,false,⟨.lblank,none,false,.lblank⟩⟩] (.node .leaf 332955 [⟨⟨.code,[],.lblank,true,[],false⟩,false,false,[],none,none,none,false,false,false,none,false,⟨.lblank,none,false,.lblank⟩⟩] .leaf))),(.node (.node (.node .leaf 128 [⟨⟨.code,[],.lcode,false,[],false⟩,false,false,[],none,none,none,false,false,false,none,false,⟨.lcode,some (.own 0),false,.lblank⟩⟩] .leaf) 98440 [⟨⟨.code,[],.lcode,false,[(1,0)],false⟩,false,false,[],none,none,none,false,false,false,none,false,⟨.lcode,some (.own 0),false,.lblank⟩⟩] .leaf) 148108 [⟨⟨.code,[],.lcomment,false,[],false⟩,false,false,[],none,none,none,false,false,false,none,false,⟨.lcomment,some (.own 0),false,.lblank⟩⟩] (.node .leaf 296088 [⟨⟨.code,[],.lblank,false,[],false⟩,false,false,[],none,none,none,false,false,false,none,false,⟨.lblank,some (.own 0),false,.lblank⟩⟩] .leaf)),(.node (.node .leaf 160 [⟨⟨.code,[],.lcode,false,[],false⟩,true,false,[],none,none,none,false,false,false,none,false,⟨.lcode,some .newline,false,.lblank⟩⟩] .leaf) 148140 [⟨⟨.code,[],.lcomment,false,[],false⟩,true,false,[],none,none,none,false,false,false,none,false,⟨.lcomment,some .newline,false,.lblank⟩⟩] (.node .leaf 296120 [⟨⟨.code,[],.lblank,false,[],false⟩,true,false,[],none,none,none,false,false,false,none,false,⟨.lblank,some .newline,false,.lblank⟩⟩] .leaf)),(.node (.node .leaf 37011 [⟨⟨.code,[],.lcode,true,[],false⟩,false,true,[],none,none,none,false,false,false,none,false,⟨.lcode,some .newline,false,.lblank⟩⟩] .leaf) 184991 [⟨⟨.code,[],.lcomment,true,[],false⟩,false,true,[],none,none,none,false,false,false,none,false,⟨.lcomment,some .newline,false,.lblank⟩⟩] (.node .leaf 332971 [⟨⟨.code,[],.lblank,true,[],false⟩,false,true,[],none,none,none,false,false,false,none,false,⟨.lblank,some .newline,false,.lblank⟩⟩] .leaf)),(.node (.node .leaf 1179872 [⟨⟨(.inside 0),[],.lcode,false,[],false⟩,false,false,[],none,none,none,false,false,false,none,false,⟨.lcode,some (.own 3),false,.lblank⟩⟩] .leaf) 1327852 [⟨⟨(.inside 0),[],.lcomment,false,[],false⟩,false,false,[],none,none,none,false,false,false,none,false,⟨.lcomment,some (.own 3),false,.lblank⟩⟩] (.node .leaf 154644904 [⟨⟨(.inside 0),[],.lcode,false,[(1,0)],false⟩,false,false,[],none,none,none,false,false,false,none,false,⟨.lcode,some (.own 3),false,.lblank⟩⟩] .leaf)),(.node (.node .leaf 98444 [⟨⟨.code,[],.lcode,false,[(1,0)],false⟩,false,false,[],none,none,none,false,true,false,none,false,⟨.lcode,some (.own 3),false,.lblank⟩⟩] .leaf) 4129232 [⟨⟨(.inside 1),[],.lcode,false,[],false⟩,false,false,[],none,none,none,false,false,false,none,false,⟨.lcode,some (.own 3),false,.lblank⟩⟩] .leaf),(.node (.node (.node .leaf 1254181 [⟨⟨(.inside 0),[],.lcode,false,[],false⟩,false,false,[],some 4,some ⟨(.inside 0),[],.lcode,false,[],false⟩,none,false,false,false,none,false,⟨.lcode,some (.own 3),false,.lblank⟩⟩] .leaf) 1402169 [⟨⟨(.inside 0),[],.lcomment,false,[],false⟩,false,false,[],some 4,some ⟨(.inside 0),[],.lcode,false,[],false⟩,none,true,false,false,none,false,⟨.lcomment,some .internalNl,false,.lblank⟩⟩] (.node .leaf 1411389 [⟨⟨(.inside 0),[],.lcomment,false,[],false⟩,false,false,[],some 4,some ⟨(.inside 0),[],.lcomment,false,[],false⟩,none,false,false,false,none,false,⟨.lcomment,some (.own 3),false,.lblank⟩⟩] .leaf)) 1411397 [⟨⟨(.inside 0),[],.lcomment,false,[],false⟩,false,false,[],some 4,some ⟨(.inside 0),[],.lcomment,false,[],false⟩,none,true,false,false,none,false,⟨.lcomment,some .internalNl,false,.lblank⟩⟩] (.node (.node .leaf 11005441 [⟨⟨(.inside 0),[],.lcomment,false,[],false⟩,false,false,[],some 4,some ⟨(.inside 0),[],.lcode,false,[(1,0)],false⟩,none,true,false,false,none,false,⟨.lcomment,some .internalNl,false,.lblank⟩⟩] .leaf) 164322485 [⟨⟨(.inside 0),[],.lcode,false,[(1,0)],false⟩,false,false,[],some 4,some ⟨(.inside 0),[],.lcode,false,[(1,0)],false⟩,none,false,false,false,none,false,⟨.lcode,some (.own 3),false,.lblank⟩⟩] .leaf)),(.node (.node (.node (.node .leaf 1254181 [⟨⟨(.inside 0),[],.lcode,false,[],false⟩,false,false,[],some 4,some ⟨(.inside 0),[],.lcode,false,[],false⟩,none,false,false,false,none,false,⟨.lcode,some (.own 3),false,.lblank⟩⟩] .leaf) 1402169 [⟨⟨(.inside 0),[],.lcomment,false,[],false⟩,false,false,[],some 4,some ⟨(.inside 0),[],.lcode,false,[],false⟩,none,true,false,false,none,false,⟨.lcomment,some .internalNl,false,.lblank⟩⟩] .leaf) 1411389 [⟨⟨(.inside 0),[],.lcomment,false,[],false⟩,false,false,[],some 4,some ⟨(.inside 0),[],.lcomment,false,[],false⟩,none,false,false,false,none,false,⟨.lcomment,some (.own 3),false,.lblank⟩⟩] (.node .leaf 1411397 [⟨⟨(.inside 0),[],.lcomment,false,[],false⟩,false,false,[],some 4,some ⟨(.inside 0),[],.lcomment,false,[],false⟩,none,true,false,false,none,false,⟨.lcomment,some .internalNl,false,.lblank⟩⟩] .leaf)) 1550149 [⟨⟨(.inside 0),[],.lblank,false,[],false⟩,false,false,[],some 4,some ⟨(.inside 0),[],.lcode,false,[],false⟩,none,true,false,false,none,false,⟨.lblank,some .internalNl,false,.lblank⟩⟩] (.node (.node (.node .leaf 1559377 [⟨⟨(.inside 0),[],.lblank,false,[],false⟩,false,false,[],some 4,some ⟨(.inside 0),[],.lcomment,false,[],false⟩,none,true,false,false,none,false,⟨.lblank,some .internalNl,false,.lblank⟩⟩] .leaf) 11005441 [⟨⟨(.inside 0),[],.lcomment,false,[],false⟩,false,false,[],some 4,some ⟨(.inside 0),[],.lcode,false,[(1,0)],false⟩,none,true,false,false,none,false,⟨.lcomment,some .internalNl,false,.lblank⟩⟩] .leaf) 11153421 [⟨⟨(.inside 0),[],.lblank,false,[],false⟩,false,false,[],some 4,some ⟨(.inside 0),[],.lcode,false,[(1,0)],false⟩,none,true,false,false,none,false,⟨.lblank,some .internalNl,false,.lblank⟩⟩] (.node .leaf 164322485 [⟨⟨(.inside 0),[],.lcode,false,[(1,0)],false⟩,false,false,[],some 4,some ⟨(.inside 0),[],.lcode,false,[(1,0)],false⟩,none,false,false,false,none,false,⟨.lcode,some (.own 3),false,.lblank⟩⟩] .leaf))),(.node (.node (.node (.node .leaf 1291048 [⟨⟨(.inside 0),[],.lcode,true,[],false⟩,false,false,[],some 4,some ⟨(.inside 0),[],.lcode,false,[],false⟩,none,false,false,false,none,false,⟨.lcode,some (.own 3),false,.lblank⟩⟩] .leaf) 1439036 [⟨⟨(.inside 0),[],.lcomment,true,[],false⟩,false,false,[],some 4,some ⟨(.inside 0),[],.lcode,false,[],false⟩,none,true,false,false,none,false,⟨.lcomment,some .internalNl,false,.lblank⟩⟩] .leaf) 1448256 [⟨⟨(.inside 0),[],.lcomment,true,[],false⟩,false,false,[],some 4,some ⟨(.inside 0),[],.lcomment,false,[],false⟩,none,false,false,false,none,false,⟨.lcomment,some (.own 3),false,.lblank⟩⟩] (.node .leaf 1448264 [⟨⟨(.inside 0),[],.lcomment,true,[],false⟩,false,false,[],some 4,some ⟨(.inside 0),[],.lcomment,false,[],false⟩,none,true,false,false,none,false,⟨.lcomment,some .internalNl,false,.lblank⟩⟩] .leaf)) 1587016 [⟨⟨(.inside 0),[],.lblank,true,[],false⟩,false,false,[],some 4,some ⟨(.inside 0),[],.lcode,false,[],false⟩,none,true,false,false,none,false,⟨.lblank,some .internalNl,false,.lblank⟩⟩] (.node (.node (.node .leaf 1596244 [⟨⟨(.inside 0),[],.lblank,true,[],false⟩,false,false,[],some 4,some ⟨(.inside 0),[],.lcomment,false,[],false⟩,none,true,false,false,none,false,⟨.lblank,some .internalNl,false,.lblank⟩⟩] .leaf) 10894320 [⟨⟨(.inside 0),[],.lcode,true,[],false⟩,false,false,[],some 4,some ⟨(.inside 0),[],.lcode,false,[(1,0)],false⟩,none,false,false,false,none,false,⟨.lcode,some (.own 3),false,.lblank⟩⟩] .leaf) 11042308 [⟨⟨(.inside 0),[],.lcomment,true,[],false⟩,false,false,[],some 4,some ⟨(.inside 0),[],.lcode,false,[(1,0)],false⟩,none,true,false,false,none,false,⟨.lcomment,some .internalNl,false,.lblank⟩⟩] (.node .leaf 11190288 [⟨⟨(.inside 0),[],.lblank,true,[],false⟩,false,false,[],some 4,some ⟨(.inside 0),[],.lcode,false,[(1,0)],false⟩,none,true,false,false,none,false,⟨.lblank,some .internalNl,false,.lblank⟩⟩] .leaf))),(.node (.node (.node (.node .leaf 1291048 [⟨⟨(.inside 0),[],.lcode,true,[],false⟩,false,false,[],some 4,some ⟨(.inside 0),[],.lcode,false,[],false⟩,none,false,false,false,none,false,⟨.lcode,some (.own 3),false,.lblank⟩⟩] .leaf) 1439036 [⟨⟨(.inside 0),[],.lcomment,true,[],false⟩,false,false,[],some 4,some ⟨(.inside 0),[],.lcode,false,[],false⟩,none,true,false,false,none,false,⟨.lcomment,some .internalNl,false,.lblank⟩⟩] .leaf) 1448256 [⟨⟨(.inside 0),[],.lcomment,true,[],false⟩,false,false,[],some 4,some ⟨(.inside 0),[],.lcomment,false,[],false⟩,none,false,false,false,none,false,⟨.lcomment,some (.own 3),false,.lblank⟩⟩] (.node .leaf 1448264 [⟨⟨(.inside 0),[],.lcomment,true,[],false⟩,false,false,[],some 4,some ⟨(.inside 0),[],.lcomment,false,[],false⟩,none,true,false,false,none,false,⟨.lcomment,some .internalNl,false,.lblank⟩⟩] .leaf)) 1587016 [⟨⟨(.inside 0),[],.lblank,true,[],false⟩,false,false,[],some 4,some ⟨(.inside 0),[],.lcode,false,[],false⟩,none,true,false,false,none,false,⟨.lblank,some .internalNl,false,.lblank⟩⟩] (.node (.node (.node .leaf 1596244 [⟨⟨(.inside 0),[],.lblank,true,[],false⟩,false,false,[],some 4,some ⟨(.inside 0),[],.lcomment,false,[],false⟩,none,true,false,false,none,false,⟨.lblank,some .internalNl,false,.lblank⟩⟩] .leaf) 10894320 [⟨⟨(.inside 0),[],.lcode,true,[],false⟩,false,false,[],some 4,some ⟨(.inside 0),[],.lcode,false,[(1,0)],false⟩,none,false,false,false,none,false,⟨.lcode,some (.own 3),false,.lblank⟩⟩] .leaf) 11042308 [⟨⟨(.inside 0),[],.lcomment,true,[],false⟩,false,false,[],some 4,some ⟨(.inside 0),[],.lcode,false,[(1,0)],false⟩,none,true,false,false,none,false,⟨.lcomment,some .internalNl,false,.lblank⟩⟩] (.node .leaf 11190288 [⟨⟨(.inside 0),[],.lblank,true,[],false⟩,false,false,[],some 4,some ⟨(.inside 0),[],.lcode,false,[(1,0)],false⟩,none,true,false,false,none,false,⟨.lblank,some .internalNl,false,.lblank⟩⟩] .leaf))),(.node (.node (.node (.node .leaf 1254213 [⟨⟨(.inside 0),[],.lcode,false,[],false⟩,true,false,[],some 4,some ⟨(.inside 0),[],.lcode,false,[],false⟩,none,false,false,false,none,false,⟨.lcode,some (.own 3),false,.lblank⟩⟩] .leaf) 1402201 [⟨⟨(.inside 0),[],.lcomment,false,[],false⟩,true,false,[],some 4,some ⟨(.inside 0),[],.lcode,false,[],false⟩,none,true,false,false,none,false,⟨.lcomment,some .internalNl,false,.lblank⟩⟩] .leaf) 1411421 [⟨⟨(.inside 0),[],.lcomment,false,[],false⟩,true,false,[],some 4,some ⟨(.inside 0),[],.lcomment,false,[],false⟩,none,false,false,false,none,false,⟨.lcomment,some (.own 3),false,.lblank⟩⟩] (.node .leaf 1411429 [⟨⟨(.inside 0),[],.lcomment,false,[],false⟩,true,false,[],some 4,some ⟨(.inside 0),[],.lcomment,false,[],false⟩,none,true,false,false,none,false,⟨.lcomment,some .internalNl,false,.lblank⟩⟩] .leaf)) 1550181 [⟨⟨(.inside 0),[],.lblank,false,[],false⟩,true,false,[],some 4,some ⟨(.inside 0),[],.lcode,false,[],false⟩,none,true,false,false,none,false,⟨.lblank,some .internalNl,false,.lblank⟩⟩] (.node (.node (.node .leaf 1559409 [⟨⟨(.inside 0),[],.lblank,false,[],false⟩,true,false,[],some 4,some ⟨(.inside 0),[],.lcomment,false,[],false⟩,none,true,false,false,none,false,⟨.lblank,some .internalNl,false,.lblank⟩⟩] .leaf) 10857485 [⟨⟨(.inside 0),[],.lcode,false,[],false⟩,true,false,[],some 4,some ⟨(.inside 0),[],.lcode,false,[(1,0)],false⟩,none,false,false,false,none,false,⟨.lcode,some (.own 3),false,.lblank⟩⟩] .leaf) 11005473 [⟨⟨(.inside 0),[],.lcomment,false,[],false⟩,true,false,[],some 4,some ⟨(.inside 0),[],.lcode,false,[(1,0)],false⟩,none,true,false,false,none,false,⟨.lcomment,some .internalNl,false,.lblank⟩⟩] (.node .leaf 11153453 [⟨⟨(.inside 0),[],.lblank,false,[],false⟩,true,false,[],some 4,some ⟨(.inside 0),[],.lcode,false,[(1,0)],false⟩,none,true,false,false,none,false,⟨.lblank,some .internalNl,false,.lblank⟩⟩] .leaf))),(.node (.node (.node (.node .leaf 1291064 [⟨⟨(.inside 0),[],.lcode,true,[],false⟩,false,true,[],some 4,some ⟨(.inside 0),[],.lcode,false,[],false⟩,none,false,false,false,none,false,⟨.lcode,some (.own 3),false,.lblank⟩⟩] .leaf) 1439052 [⟨⟨(.inside 0),[],.lcomment,true,[],false⟩,false,true,[],some 4,some ⟨(.inside 0),[],.lcode,false,[],false⟩,none,true,false,false,none,false,⟨.lcomment,some .internalNl,false,.lblank⟩⟩] .leaf) 1448272 [⟨⟨(.inside 0),[],.lcomment,true,[],false⟩,false,true,[],some 4,some ⟨(.inside 0),[],.lcomment,false,[],false⟩,none,false,false,false,none,false,⟨.lcomment,some (.own 3),false,.lblank⟩⟩] (.node .leaf 1448280 [⟨⟨(.inside 0),[],.lcomment,true,[],false⟩,false,true,[],some 4,some ⟨(.inside 0),[],.lcomment,false,[],false⟩,none,true,false,false,none,false,⟨.lcomment,some .internalNl,false,.lblank⟩⟩] .leaf)) 1587032 [⟨⟨(.inside 0),[],.lblank,true,[],false⟩,false,true,[],some 4,some ⟨(.inside 0),[],.lcode,false,[],false⟩,none,true,false,false,none,false,⟨.lblank,some .internalNl,false,.lblank⟩⟩] (.node (.node (.node .leaf 1596260 [⟨⟨(.inside 0),[],.lblank,true,[],false⟩,false,true,[],some 4,some ⟨(.inside 0),[],.lcomment,false,[],false⟩,none,true,false,false,none,false,⟨.lblank,some .internalNl,false,.lblank⟩⟩] .leaf) 10894336 [⟨⟨(.inside 0),[],.lcode,true,[],false⟩,false,true,[],some 4,some ⟨(.inside 0),[],.lcode,false,[(1,0)],false⟩,none,false,false,false,none,false,⟨.lcode,some (.own 3),false,.lblank⟩⟩] .leaf) 11042324 [⟨⟨(.inside 0),[],.lcomment,true,[],false⟩,false,true,[],some 4,some ⟨(.inside 0),[],.lcode,false,[(1,0)],false⟩,none,true,false,false,none,false,⟨.lcomment,some .internalNl,false,.lblank⟩⟩] (.node .leaf 11190304 [⟨⟨(.inside 0),[],.lblank,true,[],false⟩,false,true,[],some 4,some ⟨(.inside 0),[],.lcode,false,[(1,0)],false⟩,none,true,false,false,none,false,⟨.lblank,some .internalNl,false,.lblank⟩⟩] .leaf))),(.node (.node .leaf 4388101 [⟨⟨(.inside 1),[],.lcode,false,[],false⟩,false,false,[],some 4,some ⟨(.inside 1),[],.lcode,false,[],false⟩,none,false,false,false,none,false,⟨.lcode,some (.own 3),false,.lblank⟩⟩] .leaf) 48400851 [⟨⟨.code,[],.lblank,false,[(1,0)],true⟩,false,false,[],some 4,some ⟨.code,[],.lcode,false,[(1,0)],false⟩,none,false,true,false,none,false,⟨.lcode,some (.own 3),false,.lblank⟩⟩] .leaf),(.node (.node (.node (.node .leaf 1291048 [⟨⟨(.inside 0),[],.lcode,true,[],false⟩,false,false,[],some 4,some ⟨(.inside 0),[],.lcode,false,[],false⟩,none,false,false,false,none,false,⟨.lcode,some (.own 3),false,.lblank⟩⟩] .leaf) 1439036 [⟨⟨(.inside 0),[],.lcomment,true,[],false⟩,false,false,[],some 4,some ⟨(.inside 0),[],.lcode,false,[],false⟩,none,true,false,false,none,false,⟨.lcomment,some .internalNl,false,.lblank⟩⟩] .leaf) 1448256 [⟨⟨(.inside 0),[],.lcomment,true,[],false⟩,false,false,[],some 4,some ⟨(.inside 0),[],.lcomment,false,[],false⟩,none,false,false,false,none,false,⟨.lcomment,some (.own 3),false,.lblank⟩⟩] (.node .leaf 1448264 [⟨⟨(.inside 0),[],.lcomment,true,[],false⟩,false,false,[],some 4,some ⟨(.inside 0),[],.lcomment,false,[],false⟩,none,true,false,false,none,false,⟨.lcomment,some .internalNl,false,.lblank⟩⟩] .leaf)) 1587016 [⟨⟨(.inside 0),[],.lblank,true,[],false⟩,false,false,[],some 4,some ⟨(.inside 0),[],.lcode,false,[],false⟩,none,true,false,false,none,false,⟨.lblank,some .internalNl,false,.lblank⟩⟩] (.node (.node (.node .leaf 1596244 [⟨⟨(.inside 0),[],.lblank,true,[],false⟩,false,false,[],some 4,some ⟨(.inside 0),[],.lcomment,false,[],false⟩,none,true,false,false,none,false,⟨.lblank,some .internalNl,false,.lblank⟩⟩] .leaf) 10894320 [⟨⟨(.inside 0),[],.lcode,true,[],false⟩,false,false,[],some 4,some ⟨(.inside 0),[],.lcode,false,[(1,0)],false⟩,none,false,false,false,none,false,⟨.lcode,some (.own 3),false,.lblank⟩⟩] .leaf) 11042308 [⟨⟨(.inside 0),[],.lcomment,true,[],false⟩,false,false,[],some 4,some ⟨(.inside 0),[],.lcode,false,[(1,0)],false⟩,none,true,false,false,none,false,⟨.lcomment,some .internalNl,false,.lblank⟩⟩] (.node .leaf 11190288 [⟨⟨(.inside 0),[],.lblank,true,[],false⟩,false,false,[],some 4,some ⟨(.inside 0),[],.lcode,false,[(1,0)],false⟩,none,true,false,false,none,false,⟨.lblank,some .internalNl,false,.lblank⟩⟩] .leaf))),.leaf]
theorem smalltalk_line_lClosed : CA.closedF smalltalk_line_M smalltalk_line_lex true false smalltalk_line_lfr smalltalk_line_lTab = true := by decide +kernel
def smalltalk_line_L : LCert LexisTable.smalltalk_line smalltalk_line_M := smalltalk_line_lex_eq ▸ ⟨⟨smalltalk_line_lmasks, smalltalk_line_lex.rel, smalltalk_line_lcs, smalltalk_line_lrows, smalltalk_line_lmasksIn, smalltalk_line_lrepOk, smalltalk_line_lrowsOk⟩,
  _, rfl, by decide +kernel, by decide +kernel, true, false, CA.closed_of smalltalk_line_lfrOk smalltalk_line_lClosed⟩
theorem smalltalk_line_L_chk : smalltalk_line_L.chk = true := by
  have : ∀ (l : Lexis) (h : LexisTable.smalltalk_line = l) (C : LCert l smalltalk_line_M), (h ▸ C : LCert LexisTable.smalltalk_line smalltalk_line_M).chk = C.chk := by rintro _ rfl _; rfl
  exact this _ smalltalk_line_lex_eq _

end Ohcount.Cert
