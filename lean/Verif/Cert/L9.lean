import Verif.Cert.N1
import Verif.Cert.N4
import Verif.Cert.N5
import Verif.Cert.N6
import Verif.Cert.N10
import Verif.RagelLexFast
import Verif.LexisTable

/-! Generated by tools/gen_certs.py. -/

namespace Ohcount.Cert
open Ohcount.Ragel Ohcount.Gram

set_option maxRecDepth 100000
set_option maxHeartbeats 0

def ffree_line_lex : Lexis := [⟨[33],[],.lcomment,false,false,false,true,false,false,true,false,none,false,false,false,false,[]⟩,⟨[39],[[39]],.lcode,true,false,false,true,false,false,false,false,none,false,false,false,false,[]⟩,⟨[34],[[34]],.lcode,true,false,false,true,false,false,false,false,none,false,false,false,false,[]⟩]
theorem ffree_line_lex_eq : LexisTable.ffree_line = ffree_line_lex := by decide +kernel
def ffree_line_lmasks : List Nat := [4294967808,8589934592,549755813888,17179869184,8192,1024,4096,115792089237316195423570985008687907853269984665640564039457584007908834656767,115792089237316195423570985008687907853269984665640564039457584007913129626623,115792089237316195423570985008687907853269984665640564039457584007359078844927,115792089237316195423570985008687907853269984665640564039457584007891654789631,4951760157141521099596496896]
def ffree_line_lcs : List (Nat × Nat) := [(0,115792089237316195423570985008687907853269984665635612279300442486233712542207),(9,4294967808),(10,1024),(11,2048),(12,4096),(13,8192),(33,8589934592),(34,17179869184),(39,549755813888),(92,4951760157141521099596496896)]
theorem ffree_line_lmasksIn : masksIn ffree_line_nfa ffree_line_lmasks = true := by decide +kernel
theorem ffree_line_lrepOk : repOk ffree_line_lmasks ffree_line_lcs = true := by decide +kernel
def ffree_line_lrows : List Row := [⟨[],none,[],[⟨256,.other,false,some ⟨0,[.setEnt (.own 3)],some 4,true⟩⟩,⟨256,.ws,false,some ⟨1,[.setEnt (.own 0)],some 0,false⟩⟩,⟨256,.lf,false,some ⟨0,[.setEnt .newline],some 3,true⟩⟩,⟨256,.vt,false,none⟩,⟨256,.ff,false,some ⟨0,[.setEnt .newline],some 3,true⟩⟩,⟨256,.cr,false,some ⟨2,[.setEnt .newline],none,false⟩⟩,⟨256,.cr,true,some ⟨3,[.setEnt .newline],some 3,false⟩⟩,⟨33,.other,false,some ⟨4,[.comment,.setEnt (.own 3)],some 1,false⟩⟩,⟨34,.other,false,some ⟨5,[.code,.setEnt (.own 3)],some 4,false⟩⟩,⟨39,.other,false,some ⟨6,[.code,.setEnt (.own 3)],some 4,false⟩⟩,⟨92,.other,false,some ⟨0,[.setEnt (.own 3)],some 4,true⟩⟩]⟩,⟨[0],some 0,[],[⟨256,.other,false,none⟩,⟨256,.ws,false,some ⟨1,[.setEnt (.own 0)],some 0,false⟩⟩,⟨256,.lf,false,none⟩,⟨256,.vt,false,none⟩,⟨256,.ff,false,none⟩,⟨256,.cr,false,none⟩,⟨256,.cr,true,none⟩,⟨33,.other,false,none⟩,⟨34,.other,false,none⟩,⟨39,.other,false,none⟩,⟨92,.other,false,none⟩]⟩,⟨[21],none,[],[⟨256,.other,false,none⟩,⟨256,.ws,false,none⟩,⟨256,.lf,false,some ⟨0,[.setEnt .newline],some 3,true⟩⟩,⟨256,.vt,false,none⟩,⟨256,.ff,false,none⟩,⟨256,.cr,false,none⟩,⟨256,.cr,true,none⟩,⟨33,.other,false,none⟩,⟨34,.other,false,none⟩,⟨39,.other,false,none⟩,⟨92,.other,false,none⟩]⟩,⟨[21,25],some 3,[],[⟨256,.other,false,none⟩,⟨256,.ws,false,none⟩,⟨256,.lf,false,some ⟨0,[.setEnt .newline],some 3,true⟩⟩,⟨256,.vt,false,none⟩,⟨256,.ff,false,none⟩,⟨256,.cr,false,none⟩,⟨256,.cr,true,none⟩,⟨33,.other,false,none⟩,⟨34,.other,false,none⟩,⟨39,.other,false,none⟩,⟨92,.other,false,none⟩]⟩,⟨[1,26],some 1,[],[⟨256,.other,false,some ⟨7,[],some 1,false⟩⟩,⟨256,.ws,false,some ⟨7,[],some 1,false⟩⟩,⟨256,.lf,false,none⟩,⟨256,.vt,false,some ⟨7,[],some 1,false⟩⟩,⟨256,.ff,false,none⟩,⟨256,.cr,false,none⟩,⟨256,.cr,true,none⟩,⟨33,.other,false,some ⟨7,[],some 1,false⟩⟩,⟨34,.other,false,some ⟨7,[],some 1,false⟩⟩,⟨39,.other,false,some ⟨7,[],some 1,false⟩⟩,⟨92,.other,false,some ⟨7,[],some 1,false⟩⟩]⟩,⟨[12,26],some 4,[],[⟨256,.other,false,some ⟨8,[.code],none,false⟩⟩,⟨256,.ws,false,some ⟨9,[],none,false⟩⟩,⟨256,.lf,false,some ⟨10,[],none,false⟩⟩,⟨256,.vt,false,some ⟨8,[.code],none,false⟩⟩,⟨256,.ff,false,some ⟨11,[],none,false⟩⟩,⟨256,.cr,false,some ⟨12,[],none,false⟩⟩,⟨256,.cr,true,some ⟨13,[],none,false⟩⟩,⟨33,.other,false,some ⟨8,[.code],none,false⟩⟩,⟨34,.other,false,some ⟨0,[],some 2,true⟩⟩,⟨39,.other,false,some ⟨8,[.code],none,false⟩⟩,⟨92,.other,false,some ⟨8,[.code],none,false⟩⟩]⟩,⟨[3,26],some 4,[],[⟨256,.other,false,some ⟨14,[.code],none,false⟩⟩,⟨256,.ws,false,some ⟨15,[],none,false⟩⟩,⟨256,.lf,false,some ⟨16,[],none,false⟩⟩,⟨256,.vt,false,some ⟨14,[.code],none,false⟩⟩,⟨256,.ff,false,some ⟨17,[],none,false⟩⟩,⟨256,.cr,false,some ⟨18,[],none,false⟩⟩,⟨256,.cr,true,some ⟨19,[],none,false⟩⟩,⟨33,.other,false,some ⟨14,[.code],none,false⟩⟩,⟨34,.other,false,some ⟨14,[.code],none,false⟩⟩,⟨39,.other,false,some ⟨0,[],some 2,true⟩⟩,⟨92,.other,false,some ⟨14,[.code],none,false⟩⟩]⟩,⟨[2],some 1,[],[⟨256,.other,false,some ⟨7,[],some 1,false⟩⟩,⟨256,.ws,false,some ⟨7,[],some 1,false⟩⟩,⟨256,.lf,false,none⟩,⟨256,.vt,false,some ⟨7,[],some 1,false⟩⟩,⟨256,.ff,false,none⟩,⟨256,.cr,false,none⟩,⟨256,.cr,true,none⟩,⟨33,.other,false,some ⟨7,[],some 1,false⟩⟩,⟨34,.other,false,some ⟨7,[],some 1,false⟩⟩,⟨39,.other,false,some ⟨7,[],some 1,false⟩⟩,⟨92,.other,false,some ⟨7,[],some 1,false⟩⟩]⟩,⟨[19],none,[],[⟨256,.other,false,some ⟨8,[.code],none,false⟩⟩,⟨256,.ws,false,some ⟨9,[],none,false⟩⟩,⟨256,.lf,false,some ⟨10,[],none,false⟩⟩,⟨256,.vt,false,some ⟨8,[.code],none,false⟩⟩,⟨256,.ff,false,some ⟨11,[],none,false⟩⟩,⟨256,.cr,false,some ⟨12,[],none,false⟩⟩,⟨256,.cr,true,some ⟨13,[],none,false⟩⟩,⟨33,.other,false,some ⟨8,[.code],none,false⟩⟩,⟨34,.other,false,some ⟨0,[],some 2,true⟩⟩,⟨39,.other,false,some ⟨8,[.code],none,false⟩⟩,⟨92,.other,false,some ⟨8,[.code],none,false⟩⟩]⟩,⟨[18],none,[],[⟨256,.other,false,some ⟨8,[.code],none,false⟩⟩,⟨256,.ws,false,some ⟨9,[],none,false⟩⟩,⟨256,.lf,false,some ⟨10,[],none,false⟩⟩,⟨256,.vt,false,some ⟨8,[.code],none,false⟩⟩,⟨256,.ff,false,some ⟨11,[],none,false⟩⟩,⟨256,.cr,false,some ⟨12,[],none,false⟩⟩,⟨256,.cr,true,some ⟨13,[],none,false⟩⟩,⟨33,.other,false,some ⟨8,[.code],none,false⟩⟩,⟨34,.other,false,some ⟨0,[],some 2,true⟩⟩,⟨39,.other,false,some ⟨8,[.code],none,false⟩⟩,⟨92,.other,false,some ⟨8,[.code],none,false⟩⟩]⟩,⟨[15],none,[],[⟨256,.other,false,some ⟨8,[.setEnt .internalNl,.cb,.code],none,false⟩⟩,⟨256,.ws,false,some ⟨9,[.setEnt .internalNl,.cb],none,false⟩⟩,⟨256,.lf,false,some ⟨10,[.setEnt .internalNl,.cb],none,false⟩⟩,⟨256,.vt,false,some ⟨8,[.setEnt .internalNl,.cb,.code],none,false⟩⟩,⟨256,.ff,false,some ⟨11,[.setEnt .internalNl,.cb],none,false⟩⟩,⟨256,.cr,false,some ⟨12,[.setEnt .internalNl,.cb],none,false⟩⟩,⟨256,.cr,true,some ⟨13,[.setEnt .internalNl,.cb],none,false⟩⟩,⟨33,.other,false,some ⟨8,[.setEnt .internalNl,.cb,.code],none,false⟩⟩,⟨34,.other,false,some ⟨0,[.setEnt .internalNl,.cb],some 2,true⟩⟩,⟨39,.other,false,some ⟨8,[.setEnt .internalNl,.cb,.code],none,false⟩⟩,⟨92,.other,false,some ⟨8,[.setEnt .internalNl,.cb,.code],none,false⟩⟩]⟩,⟨[16],none,[],[⟨256,.other,false,some ⟨8,[.setEnt .internalNl,.cb,.code],none,false⟩⟩,⟨256,.ws,false,some ⟨9,[.setEnt .internalNl,.cb],none,false⟩⟩,⟨256,.lf,false,some ⟨10,[.setEnt .internalNl,.cb],none,false⟩⟩,⟨256,.vt,false,some ⟨8,[.setEnt .internalNl,.cb,.code],none,false⟩⟩,⟨256,.ff,false,some ⟨11,[.setEnt .internalNl,.cb],none,false⟩⟩,⟨256,.cr,false,some ⟨12,[.setEnt .internalNl,.cb],none,false⟩⟩,⟨256,.cr,true,some ⟨13,[.setEnt .internalNl,.cb],none,false⟩⟩,⟨33,.other,false,some ⟨8,[.setEnt .internalNl,.cb,.code],none,false⟩⟩,⟨34,.other,false,some ⟨0,[.setEnt .internalNl,.cb],some 2,true⟩⟩,⟨39,.other,false,some ⟨8,[.setEnt .internalNl,.cb,.code],none,false⟩⟩,⟨92,.other,false,some ⟨8,[.setEnt .internalNl,.cb,.code],none,false⟩⟩]⟩,⟨[13],none,[],[⟨256,.other,false,none⟩,⟨256,.ws,false,none⟩,⟨256,.lf,false,some ⟨20,[],none,false⟩⟩,⟨256,.vt,false,none⟩,⟨256,.ff,false,none⟩,⟨256,.cr,false,none⟩,⟨256,.cr,true,none⟩,⟨33,.other,false,none⟩,⟨34,.other,false,none⟩,⟨39,.other,false,none⟩,⟨92,.other,false,none⟩]⟩,⟨[13,17],none,[],[⟨256,.other,false,some ⟨8,[.setEnt .internalNl,.cb,.code],none,false⟩⟩,⟨256,.ws,false,some ⟨9,[.setEnt .internalNl,.cb],none,false⟩⟩,⟨256,.lf,false,some ⟨21,[.setEnt .internalNl,.cb],none,false⟩⟩,⟨256,.vt,false,some ⟨8,[.setEnt .internalNl,.cb,.code],none,false⟩⟩,⟨256,.ff,false,some ⟨11,[.setEnt .internalNl,.cb],none,false⟩⟩,⟨256,.cr,false,some ⟨12,[.setEnt .internalNl,.cb],none,false⟩⟩,⟨256,.cr,true,some ⟨13,[.setEnt .internalNl,.cb],none,false⟩⟩,⟨33,.other,false,some ⟨8,[.setEnt .internalNl,.cb,.code],none,false⟩⟩,⟨34,.other,false,some ⟨0,[.setEnt .internalNl,.cb],some 2,true⟩⟩,⟨39,.other,false,some ⟨8,[.setEnt .internalNl,.cb,.code],none,false⟩⟩,⟨92,.other,false,some ⟨8,[.setEnt .internalNl,.cb,.code],none,false⟩⟩]⟩,⟨[10],none,[],[⟨256,.other,false,some ⟨14,[.code],none,false⟩⟩,⟨256,.ws,false,some ⟨15,[],none,false⟩⟩,⟨256,.lf,false,some ⟨16,[],none,false⟩⟩,⟨256,.vt,false,some ⟨14,[.code],none,false⟩⟩,⟨256,.ff,false,some ⟨17,[],none,false⟩⟩,⟨256,.cr,false,some ⟨18,[],none,false⟩⟩,⟨256,.cr,true,some ⟨19,[],none,false⟩⟩,⟨33,.other,false,some ⟨14,[.code],none,false⟩⟩,⟨34,.other,false,some ⟨14,[.code],none,false⟩⟩,⟨39,.other,false,some ⟨0,[],some 2,true⟩⟩,⟨92,.other,false,some ⟨14,[.code],none,false⟩⟩]⟩,⟨[9],none,[],[⟨256,.other,false,some ⟨14,[.code],none,false⟩⟩,⟨256,.ws,false,some ⟨15,[],none,false⟩⟩,⟨256,.lf,false,some ⟨16,[],none,false⟩⟩,⟨256,.vt,false,some ⟨14,[.code],none,false⟩⟩,⟨256,.ff,false,some ⟨17,[],none,false⟩⟩,⟨256,.cr,false,some ⟨18,[],none,false⟩⟩,⟨256,.cr,true,some ⟨19,[],none,false⟩⟩,⟨33,.other,false,some ⟨14,[.code],none,false⟩⟩,⟨34,.other,false,some ⟨14,[.code],none,false⟩⟩,⟨39,.other,false,some ⟨0,[],some 2,true⟩⟩,⟨92,.other,false,some ⟨14,[.code],none,false⟩⟩]⟩,⟨[6],none,[],[⟨256,.other,false,some ⟨14,[.setEnt .internalNl,.cb,.code],none,false⟩⟩,⟨256,.ws,false,some ⟨15,[.setEnt .internalNl,.cb],none,false⟩⟩,⟨256,.lf,false,some ⟨16,[.setEnt .internalNl,.cb],none,false⟩⟩,⟨256,.vt,false,some ⟨14,[.setEnt .internalNl,.cb,.code],none,false⟩⟩,⟨256,.ff,false,some ⟨17,[.setEnt .internalNl,.cb],none,false⟩⟩,⟨256,.cr,false,some ⟨18,[.setEnt .internalNl,.cb],none,false⟩⟩,⟨256,.cr,true,some ⟨19,[.setEnt .internalNl,.cb],none,false⟩⟩,⟨33,.other,false,some ⟨14,[.setEnt .internalNl,.cb,.code],none,false⟩⟩,⟨34,.other,false,some ⟨14,[.setEnt .internalNl,.cb,.code],none,false⟩⟩,⟨39,.other,false,some ⟨0,[.setEnt .internalNl,.cb],some 2,true⟩⟩,⟨92,.other,false,some ⟨14,[.setEnt .internalNl,.cb,.code],none,false⟩⟩]⟩,⟨[7],none,[],[⟨256,.other,false,some ⟨14,[.setEnt .internalNl,.cb,.code],none,false⟩⟩,⟨256,.ws,false,some ⟨15,[.setEnt .internalNl,.cb],none,false⟩⟩,⟨256,.lf,false,some ⟨16,[.setEnt .internalNl,.cb],none,false⟩⟩,⟨256,.vt,false,some ⟨14,[.setEnt .internalNl,.cb,.code],none,false⟩⟩,⟨256,.ff,false,some ⟨17,[.setEnt .internalNl,.cb],none,false⟩⟩,⟨256,.cr,false,some ⟨18,[.setEnt .internalNl,.cb],none,false⟩⟩,⟨256,.cr,true,some ⟨19,[.setEnt .internalNl,.cb],none,false⟩⟩,⟨33,.other,false,some ⟨14,[.setEnt .internalNl,.cb,.code],none,false⟩⟩,⟨34,.other,false,some ⟨14,[.setEnt .internalNl,.cb,.code],none,false⟩⟩,⟨39,.other,false,some ⟨0,[.setEnt .internalNl,.cb],some 2,true⟩⟩,⟨92,.other,false,some ⟨14,[.setEnt .internalNl,.cb,.code],none,false⟩⟩]⟩,⟨[4],none,[],[⟨256,.other,false,none⟩,⟨256,.ws,false,none⟩,⟨256,.lf,false,some ⟨22,[],none,false⟩⟩,⟨256,.vt,false,none⟩,⟨256,.ff,false,none⟩,⟨256,.cr,false,none⟩,⟨256,.cr,true,none⟩,⟨33,.other,false,none⟩,⟨34,.other,false,none⟩,⟨39,.other,false,none⟩,⟨92,.other,false,none⟩]⟩,⟨[4,8],none,[],[⟨256,.other,false,some ⟨14,[.setEnt .internalNl,.cb,.code],none,false⟩⟩,⟨256,.ws,false,some ⟨15,[.setEnt .internalNl,.cb],none,false⟩⟩,⟨256,.lf,false,some ⟨23,[.setEnt .internalNl,.cb],none,false⟩⟩,⟨256,.vt,false,some ⟨14,[.setEnt .internalNl,.cb,.code],none,false⟩⟩,⟨256,.ff,false,some ⟨17,[.setEnt .internalNl,.cb],none,false⟩⟩,⟨256,.cr,false,some ⟨18,[.setEnt .internalNl,.cb],none,false⟩⟩,⟨256,.cr,true,some ⟨19,[.setEnt .internalNl,.cb],none,false⟩⟩,⟨33,.other,false,some ⟨14,[.setEnt .internalNl,.cb,.code],none,false⟩⟩,⟨34,.other,false,some ⟨14,[.setEnt .internalNl,.cb,.code],none,false⟩⟩,⟨39,.other,false,some ⟨0,[.setEnt .internalNl,.cb],some 2,true⟩⟩,⟨92,.other,false,some ⟨14,[.setEnt .internalNl,.cb,.code],none,false⟩⟩]⟩,⟨[14],none,[],[⟨256,.other,false,some ⟨8,[.setEnt .internalNl,.cb,.code],none,false⟩⟩,⟨256,.ws,false,some ⟨9,[.setEnt .internalNl,.cb],none,false⟩⟩,⟨256,.lf,false,some ⟨10,[.setEnt .internalNl,.cb],none,false⟩⟩,⟨256,.vt,false,some ⟨8,[.setEnt .internalNl,.cb,.code],none,false⟩⟩,⟨256,.ff,false,some ⟨11,[.setEnt .internalNl,.cb],none,false⟩⟩,⟨256,.cr,false,some ⟨12,[.setEnt .internalNl,.cb],none,false⟩⟩,⟨256,.cr,true,some ⟨13,[.setEnt .internalNl,.cb],none,false⟩⟩,⟨33,.other,false,some ⟨8,[.setEnt .internalNl,.cb,.code],none,false⟩⟩,⟨34,.other,false,some ⟨0,[.setEnt .internalNl,.cb],some 2,true⟩⟩,⟨39,.other,false,some ⟨8,[.setEnt .internalNl,.cb,.code],none,false⟩⟩,⟨92,.other,false,some ⟨8,[.setEnt .internalNl,.cb,.code],none,false⟩⟩]⟩,⟨[14,15],none,[],[⟨256,.other,false,some ⟨8,[.setEnt .internalNl,.cb,.code],none,false⟩⟩,⟨256,.ws,false,some ⟨9,[.setEnt .internalNl,.cb],none,false⟩⟩,⟨256,.lf,false,some ⟨10,[.setEnt .internalNl,.cb],none,false⟩⟩,⟨256,.vt,false,some ⟨8,[.setEnt .internalNl,.cb,.code],none,false⟩⟩,⟨256,.ff,false,some ⟨11,[.setEnt .internalNl,.cb],none,false⟩⟩,⟨256,.cr,false,some ⟨12,[.setEnt .internalNl,.cb],none,false⟩⟩,⟨256,.cr,true,some ⟨13,[.setEnt .internalNl,.cb],none,false⟩⟩,⟨33,.other,false,some ⟨8,[.setEnt .internalNl,.cb,.code],none,false⟩⟩,⟨34,.other,false,some ⟨0,[.setEnt .internalNl,.cb],some 2,true⟩⟩,⟨39,.other,false,some ⟨8,[.setEnt .internalNl,.cb,.code],none,false⟩⟩,⟨92,.other,false,some ⟨8,[.setEnt .internalNl,.cb,.code],none,false⟩⟩]⟩,⟨[5],none,[],[⟨256,.other,false,some ⟨14,[.setEnt .internalNl,.cb,.code],none,false⟩⟩,⟨256,.ws,false,some ⟨15,[.setEnt .internalNl,.cb],none,false⟩⟩,⟨256,.lf,false,some ⟨16,[.setEnt .internalNl,.cb],none,false⟩⟩,⟨256,.vt,false,some ⟨14,[.setEnt .internalNl,.cb,.code],none,false⟩⟩,⟨256,.ff,false,some ⟨17,[.setEnt .internalNl,.cb],none,false⟩⟩,⟨256,.cr,false,some ⟨18,[.setEnt .internalNl,.cb],none,false⟩⟩,⟨256,.cr,true,some ⟨19,[.setEnt .internalNl,.cb],none,false⟩⟩,⟨33,.other,false,some ⟨14,[.setEnt .internalNl,.cb,.code],none,false⟩⟩,⟨34,.other,false,some ⟨14,[.setEnt .internalNl,.cb,.code],none,false⟩⟩,⟨39,.other,false,some ⟨0,[.setEnt .internalNl,.cb],some 2,true⟩⟩,⟨92,.other,false,some ⟨14,[.setEnt .internalNl,.cb,.code],none,false⟩⟩]⟩,⟨[5,6],none,[],[⟨256,.other,false,some ⟨14,[.setEnt .internalNl,.cb,.code],none,false⟩⟩,⟨256,.ws,false,some ⟨15,[.setEnt .internalNl,.cb],none,false⟩⟩,⟨256,.lf,false,some ⟨16,[.setEnt .internalNl,.cb],none,false⟩⟩,⟨256,.vt,false,some ⟨14,[.setEnt .internalNl,.cb,.code],none,false⟩⟩,⟨256,.ff,false,some ⟨17,[.setEnt .internalNl,.cb],none,false⟩⟩,⟨256,.cr,false,some ⟨18,[.setEnt .internalNl,.cb],none,false⟩⟩,⟨256,.cr,true,some ⟨19,[.setEnt .internalNl,.cb],none,false⟩⟩,⟨33,.other,false,some ⟨14,[.setEnt .internalNl,.cb,.code],none,false⟩⟩,⟨34,.other,false,some ⟨14,[.setEnt .internalNl,.cb,.code],none,false⟩⟩,⟨39,.other,false,some ⟨0,[.setEnt .internalNl,.cb],some 2,true⟩⟩,⟨92,.other,false,some ⟨14,[.setEnt .internalNl,.cb,.code],none,false⟩⟩]⟩]
theorem ffree_line_lrowsOk : rowsOk ffree_line_nfa ffree_line_lex.rel (ffree_line_lcs.map (·.1)) ffree_line_lrows = true := by decide +kernel
def ffree_line_lfr : List CA.FRow := [⟨true,none,[],[⟨256,.other,false,false,none,some ([.setEnt (.own 3)],(some 4,true))⟩,⟨9,.ws,false,false,some 1,some ([.setEnt (.own 0)],(some 0,false))⟩,⟨10,.lf,false,true,none,some ([.setEnt .newline],(some 3,true))⟩,⟨11,.vt,false,false,none,none⟩,⟨12,.ff,false,true,none,some ([.setEnt .newline],(some 3,true))⟩,⟨13,.cr,false,false,some 2,some ([.setEnt .newline],(none,false))⟩,⟨13,.cr,true,true,some 3,some ([.setEnt .newline],(some 3,false))⟩,⟨33,.other,false,false,some 4,some ([.comment,.setEnt (.own 3)],(some 1,false))⟩,⟨34,.other,false,false,some 5,some ([.code,.setEnt (.own 3)],(some 4,false))⟩,⟨39,.other,false,false,some 6,some ([.code,.setEnt (.own 3)],(some 4,false))⟩,⟨92,.other,false,false,none,some ([.setEnt (.own 3)],(some 4,true))⟩]⟩,⟨false,some 0,[],[⟨256,.other,false,false,none,none⟩,⟨9,.ws,false,false,some 1,some ([.setEnt (.own 0)],(some 0,false))⟩,⟨10,.lf,false,true,none,none⟩,⟨11,.vt,false,false,none,none⟩,⟨12,.ff,false,true,none,none⟩,⟨13,.cr,false,false,none,none⟩,⟨13,.cr,true,true,none,none⟩,⟨33,.other,false,false,none,none⟩,⟨34,.other,false,false,none,none⟩,⟨39,.other,false,false,none,none⟩,⟨92,.other,false,false,none,none⟩]⟩,⟨false,none,[],[⟨256,.other,false,false,none,none⟩,⟨9,.ws,false,false,none,none⟩,⟨10,.lf,false,true,none,some ([.setEnt .newline],(some 3,true))⟩,⟨11,.vt,false,false,none,none⟩,⟨12,.ff,false,true,none,none⟩,⟨13,.cr,false,false,none,none⟩,⟨13,.cr,true,true,none,none⟩,⟨33,.other,false,false,none,none⟩,⟨34,.other,false,false,none,none⟩,⟨39,.other,false,false,none,none⟩,⟨92,.other,false,false,none,none⟩]⟩,⟨false,some 3,[],[⟨256,.other,false,false,none,none⟩,⟨9,.ws,false,false,none,none⟩,⟨10,.lf,false,true,none,some ([.setEnt .newline],(some 3,true))⟩,⟨11,.vt,false,false,none,none⟩,⟨12,.ff,false,true,none,none⟩,⟨13,.cr,false,false,none,none⟩,⟨13,.cr,true,true,none,none⟩,⟨33,.other,false,false,none,none⟩,⟨34,.other,false,false,none,none⟩,⟨39,.other,false,false,none,none⟩,⟨92,.other,false,false,none,none⟩]⟩,⟨false,some 1,[],[⟨256,.other,false,false,some 7,some ([],(some 1,false))⟩,⟨9,.ws,false,false,some 7,some ([],(some 1,false))⟩,⟨10,.lf,false,true,none,none⟩,⟨11,.vt,false,false,some 7,some ([],(some 1,false))⟩,⟨12,.ff,false,true,none,none⟩,⟨13,.cr,false,false,none,none⟩,⟨13,.cr,true,true,none,none⟩,⟨33,.other,false,false,some 7,some ([],(some 1,false))⟩,⟨34,.other,false,false,some 7,some ([],(some 1,false))⟩,⟨39,.other,false,false,some 7,some ([],(some 1,false))⟩,⟨92,.other,false,false,some 7,some ([],(some 1,false))⟩]⟩,⟨false,some 4,[],[⟨256,.other,false,false,some 8,some ([.code],(none,false))⟩,⟨9,.ws,false,false,some 9,some ([],(none,false))⟩,⟨10,.lf,false,true,some 10,some ([],(none,false))⟩,⟨11,.vt,false,false,some 8,some ([.code],(none,false))⟩,⟨12,.ff,false,true,some 11,some ([],(none,false))⟩,⟨13,.cr,false,false,some 12,some ([],(none,false))⟩,⟨13,.cr,true,true,some 13,some ([],(none,false))⟩,⟨33,.other,false,false,some 8,some ([.code],(none,false))⟩,⟨34,.other,false,false,none,some ([],(some 2,true))⟩,⟨39,.other,false,false,some 8,some ([.code],(none,false))⟩,⟨92,.other,false,false,some 8,some ([.code],(none,false))⟩]⟩,⟨false,some 4,[],[⟨256,.other,false,false,some 14,some ([.code],(none,false))⟩,⟨9,.ws,false,false,some 15,some ([],(none,false))⟩,⟨10,.lf,false,true,some 16,some ([],(none,false))⟩,⟨11,.vt,false,false,some 14,some ([.code],(none,false))⟩,⟨12,.ff,false,true,some 17,some ([],(none,false))⟩,⟨13,.cr,false,false,some 18,some ([],(none,false))⟩,⟨13,.cr,true,true,some 19,some ([],(none,false))⟩,⟨33,.other,false,false,some 14,some ([.code],(none,false))⟩,⟨34,.other,false,false,some 14,some ([.code],(none,false))⟩,⟨39,.other,false,false,none,some ([],(some 2,true))⟩,⟨92,.other,false,false,some 14,some ([.code],(none,false))⟩]⟩,⟨false,some 1,[],[⟨256,.other,false,false,some 7,some ([],(some 1,false))⟩,⟨9,.ws,false,false,some 7,some ([],(some 1,false))⟩,⟨10,.lf,false,true,none,none⟩,⟨11,.vt,false,false,some 7,some ([],(some 1,false))⟩,⟨12,.ff,false,true,none,none⟩,⟨13,.cr,false,false,none,none⟩,⟨13,.cr,true,true,none,none⟩,⟨33,.other,false,false,some 7,some ([],(some 1,false))⟩,⟨34,.other,false,false,some 7,some ([],(some 1,false))⟩,⟨39,.other,false,false,some 7,some ([],(some 1,false))⟩,⟨92,.other,false,false,some 7,some ([],(some 1,false))⟩]⟩,⟨false,none,[],[⟨256,.other,false,false,some 8,some ([.code],(none,false))⟩,⟨9,.ws,false,false,some 9,some ([],(none,false))⟩,⟨10,.lf,false,true,some 10,some ([],(none,false))⟩,⟨11,.vt,false,false,some 8,some ([.code],(none,false))⟩,⟨12,.ff,false,true,some 11,some ([],(none,false))⟩,⟨13,.cr,false,false,some 12,some ([],(none,false))⟩,⟨13,.cr,true,true,some 13,some ([],(none,false))⟩,⟨33,.other,false,false,some 8,some ([.code],(none,false))⟩,⟨34,.other,false,false,none,some ([],(some 2,true))⟩,⟨39,.other,false,false,some 8,some ([.code],(none,false))⟩,⟨92,.other,false,false,some 8,some ([.code],(none,false))⟩]⟩,⟨false,none,[],[⟨256,.other,false,false,some 8,some ([.code],(none,false))⟩,⟨9,.ws,false,false,some 9,some ([],(none,false))⟩,⟨10,.lf,false,true,some 10,some ([],(none,false))⟩,⟨11,.vt,false,false,some 8,some ([.code],(none,false))⟩,⟨12,.ff,false,true,some 11,some ([],(none,false))⟩,⟨13,.cr,false,false,some 12,some ([],(none,false))⟩,⟨13,.cr,true,true,some 13,some ([],(none,false))⟩,⟨33,.other,false,false,some 8,some ([.code],(none,false))⟩,⟨34,.other,false,false,none,some ([],(some 2,true))⟩,⟨39,.other,false,false,some 8,some ([.code],(none,false))⟩,⟨92,.other,false,false,some 8,some ([.code],(none,false))⟩]⟩,⟨false,none,[],[⟨256,.other,false,false,some 8,some ([.setEnt .internalNl,.cb,.code],(none,false))⟩,⟨9,.ws,false,false,some 9,some ([.setEnt .internalNl,.cb],(none,false))⟩,⟨10,.lf,false,true,some 10,some ([.setEnt .internalNl,.cb],(none,false))⟩,⟨11,.vt,false,false,some 8,some ([.setEnt .internalNl,.cb,.code],(none,false))⟩,⟨12,.ff,false,true,some 11,some ([.setEnt .internalNl,.cb],(none,false))⟩,⟨13,.cr,false,false,some 12,some ([.setEnt .internalNl,.cb],(none,false))⟩,⟨13,.cr,true,true,some 13,some ([.setEnt .internalNl,.cb],(none,false))⟩,⟨33,.other,false,false,some 8,some ([.setEnt .internalNl,.cb,.code],(none,false))⟩,⟨34,.other,false,false,none,some ([.setEnt .internalNl,.cb],(some 2,true))⟩,⟨39,.other,false,false,some 8,some ([.setEnt .internalNl,.cb,.code],(none,false))⟩,⟨92,.other,false,false,some 8,some ([.setEnt .internalNl,.cb,.code],(none,false))⟩]⟩,⟨false,none,[],[⟨256,.other,false,false,some 8,some ([.setEnt .internalNl,.cb,.code],(none,false))⟩,⟨9,.ws,false,false,some 9,some ([.setEnt .internalNl,.cb],(none,false))⟩,⟨10,.lf,false,true,some 10,some ([.setEnt .internalNl,.cb],(none,false))⟩,⟨11,.vt,false,false,some 8,some ([.setEnt .internalNl,.cb,.code],(none,false))⟩,⟨12,.ff,false,true,some 11,some ([.setEnt .internalNl,.cb],(none,false))⟩,⟨13,.cr,false,false,some 12,some ([.setEnt .internalNl,.cb],(none,false))⟩,⟨13,.cr,true,true,some 13,some ([.setEnt .internalNl,.cb],(none,false))⟩,⟨33,.other,false,false,some 8,some ([.setEnt .internalNl,.cb,.code],(none,false))⟩,⟨34,.other,false,false,none,some ([.setEnt .internalNl,.cb],(some 2,true))⟩,⟨39,.other,false,false,some 8,some ([.setEnt .internalNl,.cb,.code],(none,false))⟩,⟨92,.other,false,false,some 8,some ([.setEnt .internalNl,.cb,.code],(none,false))⟩]⟩,⟨false,none,[],[⟨256,.other,false,false,none,none⟩,⟨9,.ws,false,false,none,none⟩,⟨10,.lf,false,true,some 20,some ([],(none,false))⟩,⟨11,.vt,false,false,none,none⟩,⟨12,.ff,false,true,none,none⟩,⟨13,.cr,false,false,none,none⟩,⟨13,.cr,true,true,none,none⟩,⟨33,.other,false,false,none,none⟩,⟨34,.other,false,false,none,none⟩,⟨39,.other,false,false,none,none⟩,⟨92,.other,false,false,none,none⟩]⟩,⟨false,none,[],[⟨256,.other,false,false,some 8,some ([.setEnt .internalNl,.cb,.code],(none,false))⟩,⟨9,.ws,false,false,some 9,some ([.setEnt .internalNl,.cb],(none,false))⟩,⟨10,.lf,false,true,some 21,some ([.setEnt .internalNl,.cb],(none,false))⟩,⟨11,.vt,false,false,some 8,some ([.setEnt .internalNl,.cb,.code],(none,false))⟩,⟨12,.ff,false,true,some 11,some ([.setEnt .internalNl,.cb],(none,false))⟩,⟨13,.cr,false,false,some 12,some ([.setEnt .internalNl,.cb],(none,false))⟩,⟨13,.cr,true,true,some 13,some ([.setEnt .internalNl,.cb],(none,false))⟩,⟨33,.other,false,false,some 8,some ([.setEnt .internalNl,.cb,.code],(none,false))⟩,⟨34,.other,false,false,none,some ([.setEnt .internalNl,.cb],(some 2,true))⟩,⟨39,.other,false,false,some 8,some ([.setEnt .internalNl,.cb,.code],(none,false))⟩,⟨92,.other,false,false,some 8,some ([.setEnt .internalNl,.cb,.code],(none,false))⟩]⟩,⟨false,none,[],[⟨256,.other,false,false,some 14,some ([.code],(none,false))⟩,⟨9,.ws,false,false,some 15,some ([],(none,false))⟩,⟨10,.lf,false,true,some 16,some ([],(none,false))⟩,⟨11,.vt,false,false,some 14,some ([.code],(none,false))⟩,⟨12,.ff,false,true,some 17,some ([],(none,false))⟩,⟨13,.cr,false,false,some 18,some ([],(none,false))⟩,⟨13,.cr,true,true,some 19,some ([],(none,false))⟩,⟨33,.other,false,false,some 14,some ([.code],(none,false))⟩,⟨34,.other,false,false,some 14,some ([.code],(none,false))⟩,⟨39,.other,false,false,none,some ([],(some 2,true))⟩,⟨92,.other,false,false,some 14,some ([.code],(none,false))⟩]⟩,⟨false,none,[],[⟨256,.other,false,false,some 14,some ([.code],(none,false))⟩,⟨9,.ws,false,false,some 15,some ([],(none,false))⟩,⟨10,.lf,false,true,some 16,some ([],(none,false))⟩,⟨11,.vt,false,false,some 14,some ([.code],(none,false))⟩,⟨12,.ff,false,true,some 17,some ([],(none,false))⟩,⟨13,.cr,false,false,some 18,some ([],(none,false))⟩,⟨13,.cr,true,true,some 19,some ([],(none,false))⟩,⟨33,.other,false,false,some 14,some ([.code],(none,false))⟩,⟨34,.other,false,false,some 14,some ([.code],(none,false))⟩,⟨39,.other,false,false,none,some ([],(some 2,true))⟩,⟨92,.other,false,false,some 14,some ([.code],(none,false))⟩]⟩,⟨false,none,[],[⟨256,.other,false,false,some 14,some ([.setEnt .internalNl,.cb,.code],(none,false))⟩,⟨9,.ws,false,false,some 15,some ([.setEnt .internalNl,.cb],(none,false))⟩,⟨10,.lf,false,true,some 16,some ([.setEnt .internalNl,.cb],(none,false))⟩,⟨11,.vt,false,false,some 14,some ([.setEnt .internalNl,.cb,.code],(none,false))⟩,⟨12,.ff,false,true,some 17,some ([.setEnt .internalNl,.cb],(none,false))⟩,⟨13,.cr,false,false,some 18,some ([.setEnt .internalNl,.cb],(none,false))⟩,⟨13,.cr,true,true,some 19,some ([.setEnt .internalNl,.cb],(none,false))⟩,⟨33,.other,false,false,some 14,some ([.setEnt .internalNl,.cb,.code],(none,false))⟩,⟨34,.other,false,false,some 14,some ([.setEnt .internalNl,.cb,.code],(none,false))⟩,⟨39,.other,false,false,none,some ([.setEnt .internalNl,.cb],(some 2,true))⟩,⟨92,.other,false,false,some 14,some ([.setEnt .internalNl,.cb,.code],(none,false))⟩]⟩,⟨false,none,[],[⟨256,.other,false,false,some 14,some ([.setEnt .internalNl,.cb,.code],(none,false))⟩,⟨9,.ws,false,false,some 15,some ([.setEnt .internalNl,.cb],(none,false))⟩,⟨10,.lf,false,true,some 16,some ([.setEnt .internalNl,.cb],(none,false))⟩,⟨11,.vt,false,false,some 14,some ([.setEnt .internalNl,.cb,.code],(none,false))⟩,⟨12,.ff,false,true,some 17,some ([.setEnt .internalNl,.cb],(none,false))⟩,⟨13,.cr,false,false,some 18,some ([.setEnt .internalNl,.cb],(none,false))⟩,⟨13,.cr,true,true,some 19,some ([.setEnt .internalNl,.cb],(none,false))⟩,⟨33,.other,false,false,some 14,some ([.setEnt .internalNl,.cb,.code],(none,false))⟩,⟨34,.other,false,false,some 14,some ([.setEnt .internalNl,.cb,.code],(none,false))⟩,⟨39,.other,false,false,none,some ([.setEnt .internalNl,.cb],(some 2,true))⟩,⟨92,.other,false,false,some 14,some ([.setEnt .internalNl,.cb,.code],(none,false))⟩]⟩,⟨false,none,[],[⟨256,.other,false,false,none,none⟩,⟨9,.ws,false,false,none,none⟩,⟨10,.lf,false,true,some 22,some ([],(none,false))⟩,⟨11,.vt,false,false,none,none⟩,⟨12,.ff,false,true,none,none⟩,⟨13,.cr,false,false,none,none⟩,⟨13,.cr,true,true,none,none⟩,⟨33,.other,false,false,none,none⟩,⟨34,.other,false,false,none,none⟩,⟨39,.other,false,false,none,none⟩,⟨92,.other,false,false,none,none⟩]⟩,⟨false,none,[],[⟨256,.other,false,false,some 14,some ([.setEnt .internalNl,.cb,.code],(none,false))⟩,⟨9,.ws,false,false,some 15,some ([.setEnt .internalNl,.cb],(none,false))⟩,⟨10,.lf,false,true,some 23,some ([.setEnt .internalNl,.cb],(none,false))⟩,⟨11,.vt,false,false,some 14,some ([.setEnt .internalNl,.cb,.code],(none,false))⟩,⟨12,.ff,false,true,some 17,some ([.setEnt .internalNl,.cb],(none,false))⟩,⟨13,.cr,false,false,some 18,some ([.setEnt .internalNl,.cb],(none,false))⟩,⟨13,.cr,true,true,some 19,some ([.setEnt .internalNl,.cb],(none,false))⟩,⟨33,.other,false,false,some 14,some ([.setEnt .internalNl,.cb,.code],(none,false))⟩,⟨34,.other,false,false,some 14,some ([.setEnt .internalNl,.cb,.code],(none,false))⟩,⟨39,.other,false,false,none,some ([.setEnt .internalNl,.cb],(some 2,true))⟩,⟨92,.other,false,false,some 14,some ([.setEnt .internalNl,.cb,.code],(none,false))⟩]⟩,⟨false,none,[],[⟨256,.other,false,false,some 8,some ([.setEnt .internalNl,.cb,.code],(none,false))⟩,⟨9,.ws,false,false,some 9,some ([.setEnt .internalNl,.cb],(none,false))⟩,⟨10,.lf,false,true,some 10,some ([.setEnt .internalNl,.cb],(none,false))⟩,⟨11,.vt,false,false,some 8,some ([.setEnt .internalNl,.cb,.code],(none,false))⟩,⟨12,.ff,false,true,some 11,some ([.setEnt .internalNl,.cb],(none,false))⟩,⟨13,.cr,false,false,some 12,some ([.setEnt .internalNl,.cb],(none,false))⟩,⟨13,.cr,true,true,some 13,some ([.setEnt .internalNl,.cb],(none,false))⟩,⟨33,.other,false,false,some 8,some ([.setEnt .internalNl,.cb,.code],(none,false))⟩,⟨34,.other,false,false,none,some ([.setEnt .internalNl,.cb],(some 2,true))⟩,⟨39,.other,false,false,some 8,some ([.setEnt .internalNl,.cb,.code],(none,false))⟩,⟨92,.other,false,false,some 8,some ([.setEnt .internalNl,.cb,.code],(none,false))⟩]⟩,⟨false,none,[],[⟨256,.other,false,false,some 8,some ([.setEnt .internalNl,.cb,.code],(none,false))⟩,⟨9,.ws,false,false,some 9,some ([.setEnt .internalNl,.cb],(none,false))⟩,⟨10,.lf,false,true,some 10,some ([.setEnt .internalNl,.cb],(none,false))⟩,⟨11,.vt,false,false,some 8,some ([.setEnt .internalNl,.cb,.code],(none,false))⟩,⟨12,.ff,false,true,some 11,some ([.setEnt .internalNl,.cb],(none,false))⟩,⟨13,.cr,false,false,some 12,some ([.setEnt .internalNl,.cb],(none,false))⟩,⟨13,.cr,true,true,some 13,some ([.setEnt .internalNl,.cb],(none,false))⟩,⟨33,.other,false,false,some 8,some ([.setEnt .internalNl,.cb,.code],(none,false))⟩,⟨34,.other,false,false,none,some ([.setEnt .internalNl,.cb],(some 2,true))⟩,⟨39,.other,false,false,some 8,some ([.setEnt .internalNl,.cb,.code],(none,false))⟩,⟨92,.other,false,false,some 8,some ([.setEnt .internalNl,.cb,.code],(none,false))⟩]⟩,⟨false,none,[],[⟨256,.other,false,false,some 14,some ([.setEnt .internalNl,.cb,.code],(none,false))⟩,⟨9,.ws,false,false,some 15,some ([.setEnt .internalNl,.cb],(none,false))⟩,⟨10,.lf,false,true,some 16,some ([.setEnt .internalNl,.cb],(none,false))⟩,⟨11,.vt,false,false,some 14,some ([.setEnt .internalNl,.cb,.code],(none,false))⟩,⟨12,.ff,false,true,some 17,some ([.setEnt .internalNl,.cb],(none,false))⟩,⟨13,.cr,false,false,some 18,some ([.setEnt .internalNl,.cb],(none,false))⟩,⟨13,.cr,true,true,some 19,some ([.setEnt .internalNl,.cb],(none,false))⟩,⟨33,.other,false,false,some 14,some ([.setEnt .internalNl,.cb,.code],(none,false))⟩,⟨34,.other,false,false,some 14,some ([.setEnt .internalNl,.cb,.code],(none,false))⟩,⟨39,.other,false,false,none,some ([.setEnt .internalNl,.cb],(some 2,true))⟩,⟨92,.other,false,false,some 14,some ([.setEnt .internalNl,.cb,.code],(none,false))⟩]⟩,⟨false,none,[],[⟨256,.other,false,false,some 14,some ([.setEnt .internalNl,.cb,.code],(none,false))⟩,⟨9,.ws,false,false,some 15,some ([.setEnt .internalNl,.cb],(none,false))⟩,⟨10,.lf,false,true,some 16,some ([.setEnt .internalNl,.cb],(none,false))⟩,⟨11,.vt,false,false,some 14,some ([.setEnt .internalNl,.cb,.code],(none,false))⟩,⟨12,.ff,false,true,some 17,some ([.setEnt .internalNl,.cb],(none,false))⟩,⟨13,.cr,false,false,some 18,some ([.setEnt .internalNl,.cb],(none,false))⟩,⟨13,.cr,true,true,some 19,some ([.setEnt .internalNl,.cb],(none,false))⟩,⟨33,.other,false,false,some 14,some ([.setEnt .internalNl,.cb,.code],(none,false))⟩,⟨34,.other,false,false,some 14,some ([.setEnt .internalNl,.cb,.code],(none,false))⟩,⟨39,.other,false,false,none,some ([.setEnt .internalNl,.cb],(some 2,true))⟩,⟨92,.other,false,false,some 14,some ([.setEnt .internalNl,.cb,.code],(none,false))⟩]⟩]
theorem ffree_line_lfrOk : ffree_line_lrows.map (CA.prep ffree_line_lex) = ffree_line_lfr := by decide +kernel
def ffree_line_lTab : List CT := [(.node (.node (.node (.node .leaf 128 [⟨⟨.code,[],.lcode,false,[],false⟩,false,false,[],none,none,none,false,false,false,none,false,⟨.lcode,none,false,.lblank⟩⟩] .leaf) 38019 [⟨⟨.code,[],.lcode,true,[],false⟩,false,false,[],none,none,none,false,false,false,none,false,⟨.lblank,none,false,.lblank⟩⟩] (.node .leaf 185487 [⟨⟨.code,[],.lcomment,true,[],false⟩,false,false,[],none,none,none,false,false,false,none,false,⟨.lblank,none,false,.lblank⟩⟩] .leaf)) 296088 [⟨⟨.code,[],.lblank,false,[],false⟩,false,false,[],none,none,none,false,false,false,none,false,⟨.lblank,none,false,.lblank⟩⟩] (.node (.node .leaf 332955 [⟨⟨.code,[],.lblank,true,[],false⟩,false,false,[],none,none,none,false,false,false,none,false,⟨.lblank,none,false,.lblank⟩⟩] .leaf) 1179872 [⟨⟨(.inside 0),[],.lcode,false,[],false⟩,false,false,[none],none,none,none,false,false,false,none,false,⟨.lcode,none,false,.lblank⟩⟩] (.node .leaf 1327852 [⟨⟨(.inside 0),[],.lcomment,false,[],false⟩,false,false,[none],none,none,none,false,false,false,none,false,⟨.lcomment,none,false,.lblank⟩⟩] .leaf))) 22179935 [⟨⟨(.inside 0),[],.lcode,false,[],false⟩,false,false,[some (10,(.lf,false))],none,none,none,false,false,false,none,false,⟨.lcode,none,false,.lblank⟩⟩] (.node (.node (.node .leaf 22327915 [⟨⟨(.inside 0),[],.lcomment,false,[],false⟩,false,false,[some (10,(.lf,false))],none,none,none,false,false,false,none,false,⟨.lcomment,none,false,.lblank⟩⟩] .leaf) 26179947 [⟨⟨(.inside 0),[],.lcode,false,[],false⟩,false,false,[some (12,(.ff,false))],none,none,none,false,false,false,none,false,⟨.lcode,none,false,.lblank⟩⟩] (.node .leaf 26327927 [⟨⟨(.inside 0),[],.lcomment,false,[],false⟩,false,false,[some (12,(.ff,false))],none,none,none,false,false,false,none,false,⟨.lcomment,none,false,.lblank⟩⟩] .leaf)) 28179953 [⟨⟨(.inside 0),[],.lcode,false,[],false⟩,false,false,[some (13,(.cr,false))],none,none,none,false,false,false,none,false,⟨.lcode,none,false,.lblank⟩⟩] (.node (.node .leaf 28327933 [⟨⟨(.inside 0),[],.lcomment,false,[],false⟩,false,false,[some (13,(.cr,false))],none,none,none,false,false,false,none,false,⟨.lcomment,none,false,.lblank⟩⟩] .leaf) 29179956 [⟨⟨(.inside 0),[],.lcode,false,[],false⟩,false,false,[some (13,(.cr,true))],none,none,none,false,false,false,none,false,⟨.lcode,none,false,.lblank⟩⟩] (.node .leaf 29327936 [⟨⟨(.inside 0),[],.lcomment,false,[],false⟩,false,false,[some (13,(.cr,true))],none,none,none,false,false,false,none,false,⟨.lcomment,none,false,.lblank⟩⟩] .leaf)))),(.node (.node .leaf 128 [⟨⟨.code,[],.lcode,false,[],false⟩,false,false,[],none,none,none,false,false,false,none,false,⟨.lcode,some (.own 0),false,.lblank⟩⟩] .leaf) 296088 [⟨⟨.code,[],.lblank,false,[],false⟩,false,false,[],none,none,none,false,false,false,none,false,⟨.lblank,some (.own 0),false,.lblank⟩⟩] .leaf),(.node (.node .leaf 160 [⟨⟨.code,[],.lcode,false,[],false⟩,true,false,[],none,none,none,false,false,false,none,false,⟨.lcode,some .newline,false,.lblank⟩⟩] .leaf) 148140 [⟨⟨.code,[],.lcomment,false,[],false⟩,true,false,[],none,none,none,false,false,false,none,false,⟨.lcomment,some .newline,false,.lblank⟩⟩] (.node .leaf 296120 [⟨⟨.code,[],.lblank,false,[],false⟩,true,false,[],none,none,none,false,false,false,none,false,⟨.lblank,some .newline,false,.lblank⟩⟩] .leaf)),(.node (.node .leaf 37011 [⟨⟨.code,[],.lcode,true,[],false⟩,false,true,[],none,none,none,false,false,false,none,false,⟨.lcode,some .newline,false,.lblank⟩⟩] .leaf) 184991 [⟨⟨.code,[],.lcomment,true,[],false⟩,false,true,[],none,none,none,false,false,false,none,false,⟨.lcomment,some .newline,false,.lblank⟩⟩] (.node .leaf 332971 [⟨⟨.code,[],.lblank,true,[],false⟩,false,true,[],none,none,none,false,false,false,none,false,⟨.lblank,some .newline,false,.lblank⟩⟩] .leaf)),(.node (.node .leaf 1179872 [⟨⟨(.inside 0),[],.lcode,false,[],false⟩,false,false,[],none,none,none,false,false,false,none,false,⟨.lcode,some (.own 3),false,.lblank⟩⟩] .leaf) 1327852 [⟨⟨(.inside 0),[],.lcomment,false,[],false⟩,false,false,[],none,none,none,false,false,false,none,false,⟨.lcomment,some (.own 3),false,.lblank⟩⟩] .leaf),(.node .leaf 7078592 [⟨⟨(.inside 2),[],.lcode,false,[],false⟩,false,false,[],none,none,none,false,false,false,none,false,⟨.lcode,some (.own 3),false,.lblank⟩⟩] .leaf),(.node .leaf 4129232 [⟨⟨(.inside 1),[],.lcode,false,[],false⟩,false,false,[],none,none,none,false,false,false,none,false,⟨.lcode,some (.own 3),false,.lblank⟩⟩] .leaf),(.node (.node .leaf 1179872 [⟨⟨(.inside 0),[],.lcode,false,[],false⟩,false,false,[],none,none,none,false,false,false,none,false,⟨.lcode,some (.own 3),false,.lblank⟩⟩] .leaf) 1327852 [⟨⟨(.inside 0),[],.lcomment,false,[],false⟩,false,false,[],none,none,none,false,false,false,none,false,⟨.lcomment,some (.own 3),false,.lblank⟩⟩] .leaf),(.node (.node .leaf 7522021 [⟨⟨(.inside 2),[],.lcode,false,[],false⟩,false,false,[],some 4,some ⟨(.inside 2),[],.lcode,false,[],false⟩,none,false,false,false,none,false,⟨.lcode,some (.own 3),false,.lblank⟩⟩] .leaf) 7522029 [⟨⟨(.inside 2),[],.lcode,false,[],false⟩,false,false,[],some 4,some ⟨(.inside 2),[],.lcode,false,[],false⟩,none,true,false,false,none,false,⟨.lcode,some .internalNl,false,.lblank⟩⟩] .leaf),(.node (.node .leaf 7522021 [⟨⟨(.inside 2),[],.lcode,false,[],false⟩,false,false,[],some 4,some ⟨(.inside 2),[],.lcode,false,[],false⟩,none,false,false,false,none,false,⟨.lcode,some (.own 3),false,.lblank⟩⟩] .leaf) 7522029 [⟨⟨(.inside 2),[],.lcode,false,[],false⟩,false,false,[],some 4,some ⟨(.inside 2),[],.lcode,false,[],false⟩,none,true,false,false,none,false,⟨.lcode,some .internalNl,false,.lblank⟩⟩] (.node .leaf 7817989 [⟨⟨(.inside 2),[],.lblank,false,[],false⟩,false,false,[],some 4,some ⟨(.inside 2),[],.lcode,false,[],false⟩,none,true,false,false,none,false,⟨.lblank,some .internalNl,false,.lblank⟩⟩] .leaf)),(.node (.node .leaf 7558888 [⟨⟨(.inside 2),[],.lcode,true,[],false⟩,false,false,[],some 4,some ⟨(.inside 2),[],.lcode,false,[],false⟩,none,false,false,false,none,false,⟨.lcode,some (.own 3),false,.lblank⟩⟩] .leaf) 7558896 [⟨⟨(.inside 2),[],.lcode,true,[],false⟩,false,false,[],some 4,some ⟨(.inside 2),[],.lcode,false,[],false⟩,none,true,false,false,none,false,⟨.lcode,some .internalNl,false,.lblank⟩⟩] (.node .leaf 7854856 [⟨⟨(.inside 2),[],.lblank,true,[],false⟩,false,false,[],some 4,some ⟨(.inside 2),[],.lcode,false,[],false⟩,none,true,false,false,none,false,⟨.lblank,some .internalNl,false,.lblank⟩⟩] .leaf)),(.node (.node .leaf 7558888 [⟨⟨(.inside 2),[],.lcode,true,[],false⟩,false,false,[],some 4,some ⟨(.inside 2),[],.lcode,false,[],false⟩,none,false,false,false,none,false,⟨.lcode,some (.own 3),false,.lblank⟩⟩] .leaf) 7558896 [⟨⟨(.inside 2),[],.lcode,true,[],false⟩,false,false,[],some 4,some ⟨(.inside 2),[],.lcode,false,[],false⟩,none,true,false,false,none,false,⟨.lcode,some .internalNl,false,.lblank⟩⟩] (.node .leaf 7854856 [⟨⟨(.inside 2),[],.lblank,true,[],false⟩,false,false,[],some 4,some ⟨(.inside 2),[],.lcode,false,[],false⟩,none,true,false,false,none,false,⟨.lblank,some .internalNl,false,.lblank⟩⟩] .leaf)),(.node (.node .leaf 7522053 [⟨⟨(.inside 2),[],.lcode,false,[],false⟩,true,false,[],some 4,some ⟨(.inside 2),[],.lcode,false,[],false⟩,none,false,false,false,none,false,⟨.lcode,some (.own 3),false,.lblank⟩⟩] .leaf) 7522061 [⟨⟨(.inside 2),[],.lcode,false,[],false⟩,true,false,[],some 4,some ⟨(.inside 2),[],.lcode,false,[],false⟩,none,true,false,false,none,false,⟨.lcode,some .internalNl,false,.lblank⟩⟩] (.node .leaf 7818021 [⟨⟨(.inside 2),[],.lblank,false,[],false⟩,true,false,[],some 4,some ⟨(.inside 2),[],.lcode,false,[],false⟩,none,true,false,false,none,false,⟨.lblank,some .internalNl,false,.lblank⟩⟩] .leaf)),(.node (.node .leaf 7558904 [⟨⟨(.inside 2),[],.lcode,true,[],false⟩,false,true,[],some 4,some ⟨(.inside 2),[],.lcode,false,[],false⟩,none,false,false,false,none,false,⟨.lcode,some (.own 3),false,.lblank⟩⟩] .leaf) 7558912 [⟨⟨(.inside 2),[],.lcode,true,[],false⟩,false,true,[],some 4,some ⟨(.inside 2),[],.lcode,false,[],false⟩,none,true,false,false,none,false,⟨.lcode,some .internalNl,false,.lblank⟩⟩] (.node .leaf 7854872 [⟨⟨(.inside 2),[],.lblank,true,[],false⟩,false,true,[],some 4,some ⟨(.inside 2),[],.lcode,false,[],false⟩,none,true,false,false,none,false,⟨.lblank,some .internalNl,false,.lblank⟩⟩] .leaf)),(.node (.node .leaf 4388101 [⟨⟨(.inside 1),[],.lcode,false,[],false⟩,false,false,[],some 4,some ⟨(.inside 1),[],.lcode,false,[],false⟩,none,false,false,false,none,false,⟨.lcode,some (.own 3),false,.lblank⟩⟩] .leaf) 4388109 [⟨⟨(.inside 1),[],.lcode,false,[],false⟩,false,false,[],some 4,some ⟨(.inside 1),[],.lcode,false,[],false⟩,none,true,false,false,none,false,⟨.lcode,some .internalNl,false,.lblank⟩⟩] .leaf),(.node (.node .leaf 4388101 [⟨⟨(.inside 1),[],.lcode,false,[],false⟩,false,false,[],some 4,some ⟨(.inside 1),[],.lcode,false,[],false⟩,none,false,false,false,none,false,⟨.lcode,some (.own 3),false,.lblank⟩⟩] .leaf) 4388109 [⟨⟨(.inside 1),[],.lcode,false,[],false⟩,false,false,[],some 4,some ⟨(.inside 1),[],.lcode,false,[],false⟩,none,true,false,false,none,false,⟨.lcode,some .internalNl,false,.lblank⟩⟩] (.node .leaf 4684069 [⟨⟨(.inside 1),[],.lblank,false,[],false⟩,false,false,[],some 4,some ⟨(.inside 1),[],.lcode,false,[],false⟩,none,true,false,false,none,false,⟨.lblank,some .internalNl,false,.lblank⟩⟩] .leaf)),(.node (.node .leaf 4424968 [⟨⟨(.inside 1),[],.lcode,true,[],false⟩,false,false,[],some 4,some ⟨(.inside 1),[],.lcode,false,[],false⟩,none,false,false,false,none,false,⟨.lcode,some (.own 3),false,.lblank⟩⟩] .leaf) 4424976 [⟨⟨(.inside 1),[],.lcode,true,[],false⟩,false,false,[],some 4,some ⟨(.inside 1),[],.lcode,false,[],false⟩,none,true,false,false,none,false,⟨.lcode,some .internalNl,false,.lblank⟩⟩] (.node .leaf 4720936 [⟨⟨(.inside 1),[],.lblank,true,[],false⟩,false,false,[],some 4,some ⟨(.inside 1),[],.lcode,false,[],false⟩,none,true,false,false,none,false,⟨.lblank,some .internalNl,false,.lblank⟩⟩] .leaf)),(.node (.node .leaf 4424968 [⟨⟨(.inside 1),[],.lcode,true,[],false⟩,false,false,[],some 4,some ⟨(.inside 1),[],.lcode,false,[],false⟩,none,false,false,false,none,false,⟨.lcode,some (.own 3),false,.lblank⟩⟩] .leaf) 4424976 [⟨⟨(.inside 1),[],.lcode,true,[],false⟩,false,false,[],some 4,some ⟨(.inside 1),[],.lcode,false,[],false⟩,none,true,false,false,none,false,⟨.lcode,some .internalNl,false,.lblank⟩⟩] (.node .leaf 4720936 [⟨⟨(.inside 1),[],.lblank,true,[],false⟩,false,false,[],some 4,some ⟨(.inside 1),[],.lcode,false,[],false⟩,none,true,false,false,none,false,⟨.lblank,some .internalNl,false,.lblank⟩⟩] .leaf)),(.node (.node .leaf 4388133 [⟨⟨(.inside 1),[],.lcode,false,[],false⟩,true,false,[],some 4,some ⟨(.inside 1),[],.lcode,false,[],false⟩,none,false,false,false,none,false,⟨.lcode,some (.own 3),false,.lblank⟩⟩] .leaf) 4388141 [⟨⟨(.inside 1),[],.lcode,false,[],false⟩,true,false,[],some 4,some ⟨(.inside 1),[],.lcode,false,[],false⟩,none,true,false,false,none,false,⟨.lcode,some .internalNl,false,.lblank⟩⟩] (.node .leaf 4684101 [⟨⟨(.inside 1),[],.lblank,false,[],false⟩,true,false,[],some 4,some ⟨(.inside 1),[],.lcode,false,[],false⟩,none,true,false,false,none,false,⟨.lblank,some .internalNl,false,.lblank⟩⟩] .leaf)),(.node (.node .leaf 4424984 [⟨⟨(.inside 1),[],.lcode,true,[],false⟩,false,true,[],some 4,some ⟨(.inside 1),[],.lcode,false,[],false⟩,none,false,false,false,none,false,⟨.lcode,some (.own 3),false,.lblank⟩⟩] .leaf) 4424992 [⟨⟨(.inside 1),[],.lcode,true,[],false⟩,false,true,[],some 4,some ⟨(.inside 1),[],.lcode,false,[],false⟩,none,true,false,false,none,false,⟨.lcode,some .internalNl,false,.lblank⟩⟩] (.node .leaf 4720952 [⟨⟨(.inside 1),[],.lblank,true,[],false⟩,false,true,[],some 4,some ⟨(.inside 1),[],.lcode,false,[],false⟩,none,true,false,false,none,false,⟨.lblank,some .internalNl,false,.lblank⟩⟩] .leaf)),(.node (.node .leaf 7558888 [⟨⟨(.inside 2),[],.lcode,true,[],false⟩,false,false,[],some 4,some ⟨(.inside 2),[],.lcode,false,[],false⟩,none,false,false,false,none,false,⟨.lcode,some (.own 3),false,.lblank⟩⟩] .leaf) 7558896 [⟨⟨(.inside 2),[],.lcode,true,[],false⟩,false,false,[],some 4,some ⟨(.inside 2),[],.lcode,false,[],false⟩,none,true,false,false,none,false,⟨.lcode,some .internalNl,false,.lblank⟩⟩] (.node .leaf 7854856 [⟨⟨(.inside 2),[],.lblank,true,[],false⟩,false,false,[],some 4,some ⟨(.inside 2),[],.lcode,false,[],false⟩,none,true,false,false,none,false,⟨.lblank,some .internalNl,false,.lblank⟩⟩] .leaf)),.leaf,(.node (.node .leaf 4424968 [⟨⟨(.inside 1),[],.lcode,true,[],false⟩,false,false,[],some 4,some ⟨(.inside 1),[],.lcode,false,[],false⟩,none,false,false,false,none,false,⟨.lcode,some (.own 3),false,.lblank⟩⟩] .leaf) 4424976 [⟨⟨(.inside 1),[],.lcode,true,[],false⟩,false,false,[],some 4,some ⟨(.inside 1),[],.lcode,false,[],false⟩,none,true,false,false,none,false,⟨.lcode,some .internalNl,false,.lblank⟩⟩] (.node .leaf 4720936 [⟨⟨(.inside 1),[],.lblank,true,[],false⟩,false,false,[],some 4,some ⟨(.inside 1),[],.lcode,false,[],false⟩,none,true,false,false,none,false,⟨.lblank,some .internalNl,false,.lblank⟩⟩] .leaf)),.leaf]
theorem ffree_line_lClosed : CA.closedF ffree_line_M ffree_line_lex true false ffree_line_lfr ffree_line_lTab = true := by decide +kernel
def ffree_line_L : LCert LexisTable.ffree_line ffree_line_M := ffree_line_lex_eq ▸ ⟨⟨ffree_line_lmasks, ffree_line_lex.rel, ffree_line_lcs, ffree_line_lrows, ffree_line_lmasksIn, ffree_line_lrepOk, ffree_line_lrowsOk⟩,
  _, rfl, by decide +kernel, by decide +kernel, true, false, CA.closed_of ffree_line_lfrOk ffree_line_lClosed⟩
theorem ffree_line_L_chk : ffree_line_L.chk = true := by
  have : ∀ (l : Lexis) (h : LexisTable.ffree_line = l) (C : LCert l ffree_line_M), (h ▸ C : LCert LexisTable.ffree_line ffree_line_M).chk = C.chk := by rintro _ rfl _; rfl
  exact this _ ffree_line_lex_eq _

def groovy_line_lex : Lexis := [⟨[47,47],[],.lcomment,false,false,true,false,true,true,true,false,none,false,false,false,false,[]⟩,⟨[47,42],[[42,47]],.lcomment,true,false,false,true,false,false,true,false,none,false,false,false,false,[]⟩,⟨[39],[[39]],.lcode,false,false,true,true,true,false,false,false,none,false,false,false,false,[]⟩,⟨[34],[[34]],.lcode,false,false,true,true,true,false,false,false,none,false,false,false,false,[]⟩]
theorem groovy_line_lex_eq : LexisTable.groovy_line = groovy_line_lex := by decide +kernel
def groovy_line_lmasks : List Nat := [4294967808,140737488355328,549755813888,17179869184,8192,1024,4096,115792089237316195423570985008687907853269984665640564039457584007908834656767,4951760157141521099596496896,115792089237316195423570985008687907853269984665640564039457584007908834658815,4398046511104,115792089237316195423570985008687907853269984665635612279300442486259482361343,115792089237316195423570985008687907853269984665640564039457584007913129626623,115792089237316195423570985008687907853269984665635612279300442486792058306047]
def groovy_line_lcs : List (Nat × Nat) := [(0,115792089237316195423570985008687907853269984665635612279300442341106767610367),(9,4294967808),(10,1024),(11,2048),(12,4096),(13,8192),(34,17179869184),(39,549755813888),(42,4398046511104),(47,140737488355328),(92,4951760157141521099596496896)]
theorem groovy_line_lmasksIn : masksIn groovy_line_nfa groovy_line_lmasks = true := by decide +kernel
theorem groovy_line_lrepOk : repOk groovy_line_lmasks groovy_line_lcs = true := by decide +kernel
def groovy_line_lrows : List Row := [⟨[],none,[],[⟨256,.other,false,some ⟨0,[.setEnt (.own 3)],some 4,true⟩⟩,⟨256,.ws,false,some ⟨1,[.setEnt (.own 0)],some 0,false⟩⟩,⟨256,.lf,false,some ⟨0,[.setEnt .newline],some 3,true⟩⟩,⟨256,.vt,false,none⟩,⟨256,.ff,false,some ⟨0,[.setEnt .newline],some 3,true⟩⟩,⟨256,.cr,false,some ⟨2,[.setEnt .newline],none,false⟩⟩,⟨256,.cr,true,some ⟨3,[.setEnt .newline],some 3,false⟩⟩,⟨34,.other,false,some ⟨4,[.code,.setEnt (.own 3)],some 4,false⟩⟩,⟨39,.other,false,some ⟨5,[.code,.setEnt (.own 3)],some 4,false⟩⟩,⟨42,.other,false,some ⟨0,[.setEnt (.own 3)],some 4,true⟩⟩,⟨47,.other,false,some ⟨6,[.setEnt (.own 3)],some 4,false⟩⟩,⟨92,.other,false,some ⟨0,[.setEnt (.own 3)],some 4,true⟩⟩]⟩,⟨[0],some 0,[],[⟨256,.other,false,none⟩,⟨256,.ws,false,some ⟨1,[.setEnt (.own 0)],some 0,false⟩⟩,⟨256,.lf,false,none⟩,⟨256,.vt,false,none⟩,⟨256,.ff,false,none⟩,⟨256,.cr,false,none⟩,⟨256,.cr,true,none⟩,⟨34,.other,false,none⟩,⟨39,.other,false,none⟩,⟨42,.other,false,none⟩,⟨47,.other,false,none⟩,⟨92,.other,false,none⟩]⟩,⟨[46],none,[],[⟨256,.other,false,none⟩,⟨256,.ws,false,none⟩,⟨256,.lf,false,some ⟨0,[.setEnt .newline],some 3,true⟩⟩,⟨256,.vt,false,none⟩,⟨256,.ff,false,none⟩,⟨256,.cr,false,none⟩,⟨256,.cr,true,none⟩,⟨34,.other,false,none⟩,⟨39,.other,false,none⟩,⟨42,.other,false,none⟩,⟨47,.other,false,none⟩,⟨92,.other,false,none⟩]⟩,⟨[46,50],some 3,[],[⟨256,.other,false,none⟩,⟨256,.ws,false,none⟩,⟨256,.lf,false,some ⟨0,[.setEnt .newline],some 3,true⟩⟩,⟨256,.vt,false,none⟩,⟨256,.ff,false,none⟩,⟨256,.cr,false,none⟩,⟨256,.cr,true,none⟩,⟨34,.other,false,none⟩,⟨39,.other,false,none⟩,⟨42,.other,false,none⟩,⟨47,.other,false,none⟩,⟨92,.other,false,none⟩]⟩,⟨[34,51],some 4,[],[⟨256,.other,false,some ⟨7,[.code],none,false⟩⟩,⟨256,.ws,false,some ⟨8,[],none,false⟩⟩,⟨256,.lf,false,some ⟨7,[.code],none,false⟩⟩,⟨256,.vt,false,some ⟨7,[.code],none,false⟩⟩,⟨256,.ff,false,some ⟨7,[.code],none,false⟩⟩,⟨256,.cr,false,some ⟨7,[.code],none,false⟩⟩,⟨256,.cr,true,some ⟨7,[.code],none,false⟩⟩,⟨34,.other,false,some ⟨0,[],some 2,true⟩⟩,⟨39,.other,false,some ⟨7,[.code],none,false⟩⟩,⟨42,.other,false,some ⟨7,[.code],none,false⟩⟩,⟨47,.other,false,some ⟨7,[.code],none,false⟩⟩,⟨92,.other,false,some ⟨9,[],none,false⟩⟩]⟩,⟨[22,51],some 4,[],[⟨256,.other,false,some ⟨10,[.code],none,false⟩⟩,⟨256,.ws,false,some ⟨11,[],none,false⟩⟩,⟨256,.lf,false,some ⟨10,[.code],none,false⟩⟩,⟨256,.vt,false,some ⟨10,[.code],none,false⟩⟩,⟨256,.ff,false,some ⟨10,[.code],none,false⟩⟩,⟨256,.cr,false,some ⟨10,[.code],none,false⟩⟩,⟨256,.cr,true,some ⟨10,[.code],none,false⟩⟩,⟨34,.other,false,some ⟨10,[.code],none,false⟩⟩,⟨39,.other,false,some ⟨0,[],some 2,true⟩⟩,⟨42,.other,false,some ⟨10,[.code],none,false⟩⟩,⟨47,.other,false,some ⟨10,[.code],none,false⟩⟩,⟨92,.other,false,some ⟨12,[],none,false⟩⟩]⟩,⟨[1,11,51],some 4,[],[⟨256,.other,false,none⟩,⟨256,.ws,false,none⟩,⟨256,.lf,false,none⟩,⟨256,.vt,false,none⟩,⟨256,.ff,false,none⟩,⟨256,.cr,false,none⟩,⟨256,.cr,true,none⟩,⟨34,.other,false,none⟩,⟨39,.other,false,none⟩,⟨42,.other,false,some ⟨13,[.comment],none,false⟩⟩,⟨47,.other,false,some ⟨14,[.comment],some 1,false⟩⟩,⟨92,.other,false,none⟩]⟩,⟨[42],none,[],[⟨256,.other,false,some ⟨7,[.code],none,false⟩⟩,⟨256,.ws,false,some ⟨8,[],none,false⟩⟩,⟨256,.lf,false,some ⟨7,[.code],none,false⟩⟩,⟨256,.vt,false,some ⟨7,[.code],none,false⟩⟩,⟨256,.ff,false,some ⟨7,[.code],none,false⟩⟩,⟨256,.cr,false,some ⟨7,[.code],none,false⟩⟩,⟨256,.cr,true,some ⟨7,[.code],none,false⟩⟩,⟨34,.other,false,some ⟨0,[],some 2,true⟩⟩,⟨39,.other,false,some ⟨7,[.code],none,false⟩⟩,⟨42,.other,false,some ⟨7,[.code],none,false⟩⟩,⟨47,.other,false,some ⟨7,[.code],none,false⟩⟩,⟨92,.other,false,some ⟨9,[],none,false⟩⟩]⟩,⟨[41],none,[],[⟨256,.other,false,some ⟨7,[.code],none,false⟩⟩,⟨256,.ws,false,some ⟨8,[],none,false⟩⟩,⟨256,.lf,false,some ⟨7,[.code],none,false⟩⟩,⟨256,.vt,false,some ⟨7,[.code],none,false⟩⟩,⟨256,.ff,false,some ⟨7,[.code],none,false⟩⟩,⟨256,.cr,false,some ⟨7,[.code],none,false⟩⟩,⟨256,.cr,true,some ⟨7,[.code],none,false⟩⟩,⟨34,.other,false,some ⟨0,[],some 2,true⟩⟩,⟨39,.other,false,some ⟨7,[.code],none,false⟩⟩,⟨42,.other,false,some ⟨7,[.code],none,false⟩⟩,⟨47,.other,false,some ⟨7,[.code],none,false⟩⟩,⟨92,.other,false,some ⟨9,[],none,false⟩⟩]⟩,⟨[35,43],none,[],[⟨256,.other,false,some ⟨15,[.code],none,false⟩⟩,⟨256,.ws,false,some ⟨15,[.code],none,false⟩⟩,⟨256,.lf,false,some ⟨16,[],none,false⟩⟩,⟨256,.vt,false,some ⟨15,[.code],none,false⟩⟩,⟨256,.ff,false,some ⟨17,[],none,false⟩⟩,⟨256,.cr,false,some ⟨18,[],none,false⟩⟩,⟨256,.cr,true,some ⟨19,[],none,false⟩⟩,⟨34,.other,false,some ⟨15,[.code],none,false⟩⟩,⟨39,.other,false,some ⟨15,[.code],none,false⟩⟩,⟨42,.other,false,some ⟨15,[.code],none,false⟩⟩,⟨47,.other,false,some ⟨15,[.code],none,false⟩⟩,⟨92,.other,false,some ⟨15,[.code],none,false⟩⟩]⟩,⟨[30],none,[],[⟨256,.other,false,some ⟨10,[.code],none,false⟩⟩,⟨256,.ws,false,some ⟨11,[],none,false⟩⟩,⟨256,.lf,false,some ⟨10,[.code],none,false⟩⟩,⟨256,.vt,false,some ⟨10,[.code],none,false⟩⟩,⟨256,.ff,false,some ⟨10,[.code],none,false⟩⟩,⟨256,.cr,false,some ⟨10,[.code],none,false⟩⟩,⟨256,.cr,true,some ⟨10,[.code],none,false⟩⟩,⟨34,.other,false,some ⟨10,[.code],none,false⟩⟩,⟨39,.other,false,some ⟨0,[],some 2,true⟩⟩,⟨42,.other,false,some ⟨10,[.code],none,false⟩⟩,⟨47,.other,false,some ⟨10,[.code],none,false⟩⟩,⟨92,.other,false,some ⟨12,[],none,false⟩⟩]⟩,⟨[29],none,[],[⟨256,.other,false,some ⟨10,[.code],none,false⟩⟩,⟨256,.ws,false,some ⟨11,[],none,false⟩⟩,⟨256,.lf,false,some ⟨10,[.code],none,false⟩⟩,⟨256,.vt,false,some ⟨10,[.code],none,false⟩⟩,⟨256,.ff,false,some ⟨10,[.code],none,false⟩⟩,⟨256,.cr,false,some ⟨10,[.code],none,false⟩⟩,⟨256,.cr,true,some ⟨10,[.code],none,false⟩⟩,⟨34,.other,false,some ⟨10,[.code],none,false⟩⟩,⟨39,.other,false,some ⟨0,[],some 2,true⟩⟩,⟨42,.other,false,some ⟨10,[.code],none,false⟩⟩,⟨47,.other,false,some ⟨10,[.code],none,false⟩⟩,⟨92,.other,false,some ⟨12,[],none,false⟩⟩]⟩,⟨[23,31],none,[],[⟨256,.other,false,some ⟨20,[.code],none,false⟩⟩,⟨256,.ws,false,some ⟨20,[.code],none,false⟩⟩,⟨256,.lf,false,some ⟨21,[],none,false⟩⟩,⟨256,.vt,false,some ⟨20,[.code],none,false⟩⟩,⟨256,.ff,false,some ⟨22,[],none,false⟩⟩,⟨256,.cr,false,some ⟨23,[],none,false⟩⟩,⟨256,.cr,true,some ⟨24,[],none,false⟩⟩,⟨34,.other,false,some ⟨20,[.code],none,false⟩⟩,⟨39,.other,false,some ⟨20,[.code],none,false⟩⟩,⟨42,.other,false,some ⟨20,[.code],none,false⟩⟩,⟨47,.other,false,some ⟨20,[.code],none,false⟩⟩,⟨92,.other,false,some ⟨20,[.code],none,false⟩⟩]⟩,⟨[12],none,[],[⟨256,.other,false,some ⟨25,[.comment],none,false⟩⟩,⟨256,.ws,false,some ⟨26,[],none,false⟩⟩,⟨256,.lf,false,some ⟨27,[],none,false⟩⟩,⟨256,.vt,false,some ⟨25,[.comment],none,false⟩⟩,⟨256,.ff,false,some ⟨28,[],none,false⟩⟩,⟨256,.cr,false,some ⟨29,[],none,false⟩⟩,⟨256,.cr,true,some ⟨30,[],none,false⟩⟩,⟨34,.other,false,some ⟨25,[.comment],none,false⟩⟩,⟨39,.other,false,some ⟨25,[.comment],none,false⟩⟩,⟨42,.other,false,some ⟨31,[.comment],none,false⟩⟩,⟨47,.other,false,some ⟨25,[.comment],none,false⟩⟩,⟨92,.other,false,some ⟨25,[.comment],none,false⟩⟩]⟩,⟨[2],some 1,[],[⟨256,.other,false,some ⟨32,[.comment],some 1,false⟩⟩,⟨256,.ws,false,some ⟨33,[],some 1,false⟩⟩,⟨256,.lf,false,none⟩,⟨256,.vt,false,some ⟨32,[.comment],some 1,false⟩⟩,⟨256,.ff,false,none⟩,⟨256,.cr,false,none⟩,⟨256,.cr,true,none⟩,⟨34,.other,false,some ⟨32,[.comment],some 1,false⟩⟩,⟨39,.other,false,some ⟨32,[.comment],some 1,false⟩⟩,⟨42,.other,false,some ⟨32,[.comment],some 1,false⟩⟩,⟨47,.other,false,some ⟨32,[.comment],some 1,false⟩⟩,⟨92,.other,false,some ⟨34,[.comment],some 1,false⟩⟩]⟩,⟨[44],none,[],[⟨256,.other,false,some ⟨7,[.code],none,false⟩⟩,⟨256,.ws,false,some ⟨8,[],none,false⟩⟩,⟨256,.lf,false,some ⟨7,[.code],none,false⟩⟩,⟨256,.vt,false,some ⟨7,[.code],none,false⟩⟩,⟨256,.ff,false,some ⟨7,[.code],none,false⟩⟩,⟨256,.cr,false,some ⟨7,[.code],none,false⟩⟩,⟨256,.cr,true,some ⟨7,[.code],none,false⟩⟩,⟨34,.other,false,some ⟨0,[],some 2,true⟩⟩,⟨39,.other,false,some ⟨7,[.code],none,false⟩⟩,⟨42,.other,false,some ⟨7,[.code],none,false⟩⟩,⟨47,.other,false,some ⟨7,[.code],none,false⟩⟩,⟨92,.other,false,some ⟨9,[],none,false⟩⟩]⟩,⟨[38],none,[],[⟨256,.other,false,some ⟨7,[.setEnt .internalNl,.cb,.code],none,false⟩⟩,⟨256,.ws,false,some ⟨8,[.setEnt .internalNl,.cb],none,false⟩⟩,⟨256,.lf,false,some ⟨7,[.setEnt .internalNl,.cb,.code],none,false⟩⟩,⟨256,.vt,false,some ⟨7,[.setEnt .internalNl,.cb,.code],none,false⟩⟩,⟨256,.ff,false,some ⟨7,[.setEnt .internalNl,.cb,.code],none,false⟩⟩,⟨256,.cr,false,some ⟨7,[.setEnt .internalNl,.cb,.code],none,false⟩⟩,⟨256,.cr,true,some ⟨7,[.setEnt .internalNl,.cb,.code],none,false⟩⟩,⟨34,.other,false,some ⟨0,[.setEnt .internalNl,.cb],some 2,true⟩⟩,⟨39,.other,false,some ⟨7,[.setEnt .internalNl,.cb,.code],none,false⟩⟩,⟨42,.other,false,some ⟨7,[.setEnt .internalNl,.cb,.code],none,false⟩⟩,⟨47,.other,false,some ⟨7,[.setEnt .internalNl,.cb,.code],none,false⟩⟩,⟨92,.other,false,some ⟨9,[.setEnt .internalNl,.cb],none,false⟩⟩]⟩,⟨[39],none,[],[⟨256,.other,false,some ⟨7,[.setEnt .internalNl,.cb,.code],none,false⟩⟩,⟨256,.ws,false,some ⟨8,[.setEnt .internalNl,.cb],none,false⟩⟩,⟨256,.lf,false,some ⟨7,[.setEnt .internalNl,.cb,.code],none,false⟩⟩,⟨256,.vt,false,some ⟨7,[.setEnt .internalNl,.cb,.code],none,false⟩⟩,⟨256,.ff,false,some ⟨7,[.setEnt .internalNl,.cb,.code],none,false⟩⟩,⟨256,.cr,false,some ⟨7,[.setEnt .internalNl,.cb,.code],none,false⟩⟩,⟨256,.cr,true,some ⟨7,[.setEnt .internalNl,.cb,.code],none,false⟩⟩,⟨34,.other,false,some ⟨0,[.setEnt .internalNl,.cb],some 2,true⟩⟩,⟨39,.other,false,some ⟨7,[.setEnt .internalNl,.cb,.code],none,false⟩⟩,⟨42,.other,false,some ⟨7,[.setEnt .internalNl,.cb,.code],none,false⟩⟩,⟨47,.other,false,some ⟨7,[.setEnt .internalNl,.cb,.code],none,false⟩⟩,⟨92,.other,false,some ⟨9,[.setEnt .internalNl,.cb],none,false⟩⟩]⟩,⟨[36],none,[],[⟨256,.other,false,none⟩,⟨256,.ws,false,none⟩,⟨256,.lf,false,some ⟨35,[],none,false⟩⟩,⟨256,.vt,false,none⟩,⟨256,.ff,false,none⟩,⟨256,.cr,false,none⟩,⟨256,.cr,true,none⟩,⟨34,.other,false,none⟩,⟨39,.other,false,none⟩,⟨42,.other,false,none⟩,⟨47,.other,false,none⟩,⟨92,.other,false,none⟩]⟩,⟨[36,40],none,[],[⟨256,.other,false,some ⟨7,[.setEnt .internalNl,.cb,.code],none,false⟩⟩,⟨256,.ws,false,some ⟨8,[.setEnt .internalNl,.cb],none,false⟩⟩,⟨256,.lf,false,some ⟨36,[.setEnt .internalNl,.cb,.code],none,false⟩⟩,⟨256,.vt,false,some ⟨7,[.setEnt .internalNl,.cb,.code],none,false⟩⟩,⟨256,.ff,false,some ⟨7,[.setEnt .internalNl,.cb,.code],none,false⟩⟩,⟨256,.cr,false,some ⟨7,[.setEnt .internalNl,.cb,.code],none,false⟩⟩,⟨256,.cr,true,some ⟨7,[.setEnt .internalNl,.cb,.code],none,false⟩⟩,⟨34,.other,false,some ⟨0,[.setEnt .internalNl,.cb],some 2,true⟩⟩,⟨39,.other,false,some ⟨7,[.setEnt .internalNl,.cb,.code],none,false⟩⟩,⟨42,.other,false,some ⟨7,[.setEnt .internalNl,.cb,.code],none,false⟩⟩,⟨47,.other,false,some ⟨7,[.setEnt .internalNl,.cb,.code],none,false⟩⟩,⟨92,.other,false,some ⟨9,[.setEnt .internalNl,.cb],none,false⟩⟩]⟩,⟨[32],none,[],[⟨256,.other,false,some ⟨10,[.code],none,false⟩⟩,⟨256,.ws,false,some ⟨11,[],none,false⟩⟩,⟨256,.lf,false,some ⟨10,[.code],none,false⟩⟩,⟨256,.vt,false,some ⟨10,[.code],none,false⟩⟩,⟨256,.ff,false,some ⟨10,[.code],none,false⟩⟩,⟨256,.cr,false,some ⟨10,[.code],none,false⟩⟩,⟨256,.cr,true,some ⟨10,[.code],none,false⟩⟩,⟨34,.other,false,some ⟨10,[.code],none,false⟩⟩,⟨39,.other,false,some ⟨0,[],some 2,true⟩⟩,⟨42,.other,false,some ⟨10,[.code],none,false⟩⟩,⟨47,.other,false,some ⟨10,[.code],none,false⟩⟩,⟨92,.other,false,some ⟨12,[],none,false⟩⟩]⟩,⟨[26],none,[],[⟨256,.other,false,some ⟨10,[.setEnt .internalNl,.cb,.code],none,false⟩⟩,⟨256,.ws,false,some ⟨11,[.setEnt .internalNl,.cb],none,false⟩⟩,⟨256,.lf,false,some ⟨10,[.setEnt .internalNl,.cb,.code],none,false⟩⟩,⟨256,.vt,false,some ⟨10,[.setEnt .internalNl,.cb,.code],none,false⟩⟩,⟨256,.ff,false,some ⟨10,[.setEnt .internalNl,.cb,.code],none,false⟩⟩,⟨256,.cr,false,some ⟨10,[.setEnt .internalNl,.cb,.code],none,false⟩⟩,⟨256,.cr,true,some ⟨10,[.setEnt .internalNl,.cb,.code],none,false⟩⟩,⟨34,.other,false,some ⟨10,[.setEnt .internalNl,.cb,.code],none,false⟩⟩,⟨39,.other,false,some ⟨0,[.setEnt .internalNl,.cb],some 2,true⟩⟩,⟨42,.other,false,some ⟨10,[.setEnt .internalNl,.cb,.code],none,false⟩⟩,⟨47,.other,false,some ⟨10,[.setEnt .internalNl,.cb,.code],none,false⟩⟩,⟨92,.other,false,some ⟨12,[.setEnt .internalNl,.cb],none,false⟩⟩]⟩,⟨[27],none,[],[⟨256,.other,false,some ⟨10,[.setEnt .internalNl,.cb,.code],none,false⟩⟩,⟨256,.ws,false,some ⟨11,[.setEnt .internalNl,.cb],none,false⟩⟩,⟨256,.lf,false,some ⟨10,[.setEnt .internalNl,.cb,.code],none,false⟩⟩,⟨256,.vt,false,some ⟨10,[.setEnt .internalNl,.cb,.code],none,false⟩⟩,⟨256,.ff,false,some ⟨10,[.setEnt .internalNl,.cb,.code],none,false⟩⟩,⟨256,.cr,false,some ⟨10,[.setEnt .internalNl,.cb,.code],none,false⟩⟩,⟨256,.cr,true,some ⟨10,[.setEnt .internalNl,.cb,.code],none,false⟩⟩,⟨34,.other,false,some ⟨10,[.setEnt .internalNl,.cb,.code],none,false⟩⟩,⟨39,.other,false,some ⟨0,[.setEnt .internalNl,.cb],some 2,true⟩⟩,⟨42,.other,false,some ⟨10,[.setEnt .internalNl,.cb,.code],none,false⟩⟩,⟨47,.other,false,some ⟨10,[.setEnt .internalNl,.cb,.code],none,false⟩⟩,⟨92,.other,false,some ⟨12,[.setEnt .internalNl,.cb],none,false⟩⟩]⟩,⟨[24],none,[],[⟨256,.other,false,none⟩,⟨256,.ws,false,none⟩,⟨256,.lf,false,some ⟨37,[],none,false⟩⟩,⟨256,.vt,false,none⟩,⟨256,.ff,false,none⟩,⟨256,.cr,false,none⟩,⟨256,.cr,true,none⟩,⟨34,.other,false,none⟩,⟨39,.other,false,none⟩,⟨42,.other,false,none⟩,⟨47,.other,false,none⟩,⟨92,.other,false,none⟩]⟩,⟨[24,28],none,[],[⟨256,.other,false,some ⟨10,[.setEnt .internalNl,.cb,.code],none,false⟩⟩,⟨256,.ws,false,some ⟨11,[.setEnt .internalNl,.cb],none,false⟩⟩,⟨256,.lf,false,some ⟨38,[.setEnt .internalNl,.cb,.code],none,false⟩⟩,⟨256,.vt,false,some ⟨10,[.setEnt .internalNl,.cb,.code],none,false⟩⟩,⟨256,.ff,false,some ⟨10,[.setEnt .internalNl,.cb,.code],none,false⟩⟩,⟨256,.cr,false,some ⟨10,[.setEnt .internalNl,.cb,.code],none,false⟩⟩,⟨256,.cr,true,some ⟨10,[.setEnt .internalNl,.cb,.code],none,false⟩⟩,⟨34,.other,false,some ⟨10,[.setEnt .internalNl,.cb,.code],none,false⟩⟩,⟨39,.other,false,some ⟨0,[.setEnt .internalNl,.cb],some 2,true⟩⟩,⟨42,.other,false,some ⟨10,[.setEnt .internalNl,.cb,.code],none,false⟩⟩,⟨47,.other,false,some ⟨10,[.setEnt .internalNl,.cb,.code],none,false⟩⟩,⟨92,.other,false,some ⟨12,[.setEnt .internalNl,.cb],none,false⟩⟩]⟩,⟨[19],none,[],[⟨256,.other,false,some ⟨25,[.comment],none,false⟩⟩,⟨256,.ws,false,some ⟨26,[],none,false⟩⟩,⟨256,.lf,false,some ⟨27,[],none,false⟩⟩,⟨256,.vt,false,some ⟨25,[.comment],none,false⟩⟩,⟨256,.ff,false,some ⟨28,[],none,false⟩⟩,⟨256,.cr,false,some ⟨29,[],none,false⟩⟩,⟨256,.cr,true,some ⟨30,[],none,false⟩⟩,⟨34,.other,false,some ⟨25,[.comment],none,false⟩⟩,⟨39,.other,false,some ⟨25,[.comment],none,false⟩⟩,⟨42,.other,false,some ⟨31,[.comment],none,false⟩⟩,⟨47,.other,false,some ⟨25,[.comment],none,false⟩⟩,⟨92,.other,false,some ⟨25,[.comment],none,false⟩⟩]⟩,⟨[18],none,[],[⟨256,.other,false,some ⟨25,[.comment],none,false⟩⟩,⟨256,.ws,false,some ⟨26,[],none,false⟩⟩,⟨256,.lf,false,some ⟨27,[],none,false⟩⟩,⟨256,.vt,false,some ⟨25,[.comment],none,false⟩⟩,⟨256,.ff,false,some ⟨28,[],none,false⟩⟩,⟨256,.cr,false,some ⟨29,[],none,false⟩⟩,⟨256,.cr,true,some ⟨30,[],none,false⟩⟩,⟨34,.other,false,some ⟨25,[.comment],none,false⟩⟩,⟨39,.other,false,some ⟨25,[.comment],none,false⟩⟩,⟨42,.other,false,some ⟨31,[.comment],none,false⟩⟩,⟨47,.other,false,some ⟨25,[.comment],none,false⟩⟩,⟨92,.other,false,some ⟨25,[.comment],none,false⟩⟩]⟩,⟨[15],none,[],[⟨256,.other,false,some ⟨25,[.setEnt .internalNl,.cb,.comment],none,false⟩⟩,⟨256,.ws,false,some ⟨26,[.setEnt .internalNl,.cb],none,false⟩⟩,⟨256,.lf,false,some ⟨27,[.setEnt .internalNl,.cb],none,false⟩⟩,⟨256,.vt,false,some ⟨25,[.setEnt .internalNl,.cb,.comment],none,false⟩⟩,⟨256,.ff,false,some ⟨28,[.setEnt .internalNl,.cb],none,false⟩⟩,⟨256,.cr,false,some ⟨29,[.setEnt .internalNl,.cb],none,false⟩⟩,⟨256,.cr,true,some ⟨30,[.setEnt .internalNl,.cb],none,false⟩⟩,⟨34,.other,false,some ⟨25,[.setEnt .internalNl,.cb,.comment],none,false⟩⟩,⟨39,.other,false,some ⟨25,[.setEnt .internalNl,.cb,.comment],none,false⟩⟩,⟨42,.other,false,some ⟨31,[.setEnt .internalNl,.cb,.comment],none,false⟩⟩,⟨47,.other,false,some ⟨25,[.setEnt .internalNl,.cb,.comment],none,false⟩⟩,⟨92,.other,false,some ⟨25,[.setEnt .internalNl,.cb,.comment],none,false⟩⟩]⟩,⟨[16],none,[],[⟨256,.other,false,some ⟨25,[.setEnt .internalNl,.cb,.comment],none,false⟩⟩,⟨256,.ws,false,some ⟨26,[.setEnt .internalNl,.cb],none,false⟩⟩,⟨256,.lf,false,some ⟨27,[.setEnt .internalNl,.cb],none,false⟩⟩,⟨256,.vt,false,some ⟨25,[.setEnt .internalNl,.cb,.comment],none,false⟩⟩,⟨256,.ff,false,some ⟨28,[.setEnt .internalNl,.cb],none,false⟩⟩,⟨256,.cr,false,some ⟨29,[.setEnt .internalNl,.cb],none,false⟩⟩,⟨256,.cr,true,some ⟨30,[.setEnt .internalNl,.cb],none,false⟩⟩,⟨34,.other,false,some ⟨25,[.setEnt .internalNl,.cb,.comment],none,false⟩⟩,⟨39,.other,false,some ⟨25,[.setEnt .internalNl,.cb,.comment],none,false⟩⟩,⟨42,.other,false,some ⟨31,[.setEnt .internalNl,.cb,.comment],none,false⟩⟩,⟨47,.other,false,some ⟨25,[.setEnt .internalNl,.cb,.comment],none,false⟩⟩,⟨92,.other,false,some ⟨25,[.setEnt .internalNl,.cb,.comment],none,false⟩⟩]⟩,⟨[13],none,[],[⟨256,.other,false,none⟩,⟨256,.ws,false,none⟩,⟨256,.lf,false,some ⟨39,[],none,false⟩⟩,⟨256,.vt,false,none⟩,⟨256,.ff,false,none⟩,⟨256,.cr,false,none⟩,⟨256,.cr,true,none⟩,⟨34,.other,false,none⟩,⟨39,.other,false,none⟩,⟨42,.other,false,none⟩,⟨47,.other,false,none⟩,⟨92,.other,false,none⟩]⟩,⟨[13,17],none,[],[⟨256,.other,false,some ⟨25,[.setEnt .internalNl,.cb,.comment],none,false⟩⟩,⟨256,.ws,false,some ⟨26,[.setEnt .internalNl,.cb],none,false⟩⟩,⟨256,.lf,false,some ⟨40,[.setEnt .internalNl,.cb],none,false⟩⟩,⟨256,.vt,false,some ⟨25,[.setEnt .internalNl,.cb,.comment],none,false⟩⟩,⟨256,.ff,false,some ⟨28,[.setEnt .internalNl,.cb],none,false⟩⟩,⟨256,.cr,false,some ⟨29,[.setEnt .internalNl,.cb],none,false⟩⟩,⟨256,.cr,true,some ⟨30,[.setEnt .internalNl,.cb],none,false⟩⟩,⟨34,.other,false,some ⟨25,[.setEnt .internalNl,.cb,.comment],none,false⟩⟩,⟨39,.other,false,some ⟨25,[.setEnt .internalNl,.cb,.comment],none,false⟩⟩,⟨42,.other,false,some ⟨31,[.setEnt .internalNl,.cb,.comment],none,false⟩⟩,⟨47,.other,false,some ⟨25,[.setEnt .internalNl,.cb,.comment],none,false⟩⟩,⟨92,.other,false,some ⟨25,[.setEnt .internalNl,.cb,.comment],none,false⟩⟩]⟩,⟨[19,20],none,[],[⟨256,.other,false,some ⟨25,[.comment],none,false⟩⟩,⟨256,.ws,false,some ⟨26,[],none,false⟩⟩,⟨256,.lf,false,some ⟨27,[],none,false⟩⟩,⟨256,.vt,false,some ⟨25,[.comment],none,false⟩⟩,⟨256,.ff,false,some ⟨28,[],none,false⟩⟩,⟨256,.cr,false,some ⟨29,[],none,false⟩⟩,⟨256,.cr,true,some ⟨30,[],none,false⟩⟩,⟨34,.other,false,some ⟨25,[.comment],none,false⟩⟩,⟨39,.other,false,some ⟨25,[.comment],none,false⟩⟩,⟨42,.other,false,some ⟨31,[.comment],none,false⟩⟩,⟨47,.other,false,some ⟨0,[],some 1,true⟩⟩,⟨92,.other,false,some ⟨25,[.comment],none,false⟩⟩]⟩,⟨[10],some 1,[],[⟨256,.other,false,some ⟨32,[.comment],some 1,false⟩⟩,⟨256,.ws,false,some ⟨33,[],some 1,false⟩⟩,⟨256,.lf,false,none⟩,⟨256,.vt,false,some ⟨32,[.comment],some 1,false⟩⟩,⟨256,.ff,false,none⟩,⟨256,.cr,false,none⟩,⟨256,.cr,true,none⟩,⟨34,.other,false,some ⟨32,[.comment],some 1,false⟩⟩,⟨39,.other,false,some ⟨32,[.comment],some 1,false⟩⟩,⟨42,.other,false,some ⟨32,[.comment],some 1,false⟩⟩,⟨47,.other,false,some ⟨32,[.comment],some 1,false⟩⟩,⟨92,.other,false,some ⟨34,[.comment],some 1,false⟩⟩]⟩,⟨[9],some 1,[],[⟨256,.other,false,some ⟨32,[.comment],some 1,false⟩⟩,⟨256,.ws,false,some ⟨33,[],some 1,false⟩⟩,⟨256,.lf,false,none⟩,⟨256,.vt,false,some ⟨32,[.comment],some 1,false⟩⟩,⟨256,.ff,false,none⟩,⟨256,.cr,false,none⟩,⟨256,.cr,true,none⟩,⟨34,.other,false,some ⟨32,[.comment],some 1,false⟩⟩,⟨39,.other,false,some ⟨32,[.comment],some 1,false⟩⟩,⟨42,.other,false,some ⟨32,[.comment],some 1,false⟩⟩,⟨47,.other,false,some ⟨32,[.comment],some 1,false⟩⟩,⟨92,.other,false,some ⟨34,[.comment],some 1,false⟩⟩]⟩,⟨[3,10],some 1,[],[⟨256,.other,false,some ⟨32,[.comment],some 1,false⟩⟩,⟨256,.ws,false,some ⟨33,[],some 1,false⟩⟩,⟨256,.lf,false,some ⟨41,[],some 1,false⟩⟩,⟨256,.vt,false,some ⟨32,[.comment],some 1,false⟩⟩,⟨256,.ff,false,some ⟨42,[],some 1,false⟩⟩,⟨256,.cr,false,some ⟨43,[],none,false⟩⟩,⟨256,.cr,true,some ⟨44,[],some 1,false⟩⟩,⟨34,.other,false,some ⟨32,[.comment],some 1,false⟩⟩,⟨39,.other,false,some ⟨32,[.comment],some 1,false⟩⟩,⟨42,.other,false,some ⟨32,[.comment],some 1,false⟩⟩,⟨47,.other,false,some ⟨32,[.comment],some 1,false⟩⟩,⟨92,.other,false,some ⟨34,[.comment],some 1,false⟩⟩]⟩,⟨[37],none,[],[⟨256,.other,false,some ⟨7,[.setEnt .internalNl,.cb,.code],none,false⟩⟩,⟨256,.ws,false,some ⟨8,[.setEnt .internalNl,.cb],none,false⟩⟩,⟨256,.lf,false,some ⟨7,[.setEnt .internalNl,.cb,.code],none,false⟩⟩,⟨256,.vt,false,some ⟨7,[.setEnt .internalNl,.cb,.code],none,false⟩⟩,⟨256,.ff,false,some ⟨7,[.setEnt .internalNl,.cb,.code],none,false⟩⟩,⟨256,.cr,false,some ⟨7,[.setEnt .internalNl,.cb,.code],none,false⟩⟩,⟨256,.cr,true,some ⟨7,[.setEnt .internalNl,.cb,.code],none,false⟩⟩,⟨34,.other,false,some ⟨0,[.setEnt .internalNl,.cb],some 2,true⟩⟩,⟨39,.other,false,some ⟨7,[.setEnt .internalNl,.cb,.code],none,false⟩⟩,⟨42,.other,false,some ⟨7,[.setEnt .internalNl,.cb,.code],none,false⟩⟩,⟨47,.other,false,some ⟨7,[.setEnt .internalNl,.cb,.code],none,false⟩⟩,⟨92,.other,false,some ⟨9,[.setEnt .internalNl,.cb],none,false⟩⟩]⟩,⟨[37,42],none,[],[⟨256,.other,false,some ⟨7,[.setEnt .internalNl,.cb,.code],none,false⟩⟩,⟨256,.ws,false,some ⟨8,[.setEnt .internalNl,.cb],none,false⟩⟩,⟨256,.lf,false,some ⟨7,[.setEnt .internalNl,.cb,.code],none,false⟩⟩,⟨256,.vt,false,some ⟨7,[.setEnt .internalNl,.cb,.code],none,false⟩⟩,⟨256,.ff,false,some ⟨7,[.setEnt .internalNl,.cb,.code],none,false⟩⟩,⟨256,.cr,false,some ⟨7,[.setEnt .internalNl,.cb,.code],none,false⟩⟩,⟨256,.cr,true,some ⟨7,[.setEnt .internalNl,.cb,.code],none,false⟩⟩,⟨34,.other,false,some ⟨0,[.setEnt .internalNl,.cb],some 2,true⟩⟩,⟨39,.other,false,some ⟨7,[.setEnt .internalNl,.cb,.code],none,false⟩⟩,⟨42,.other,false,some ⟨7,[.setEnt .internalNl,.cb,.code],none,false⟩⟩,⟨47,.other,false,some ⟨7,[.setEnt .internalNl,.cb,.code],none,false⟩⟩,⟨92,.other,false,some ⟨9,[.setEnt .internalNl,.cb],none,false⟩⟩]⟩,⟨[25],none,[],[⟨256,.other,false,some ⟨10,[.setEnt .internalNl,.cb,.code],none,false⟩⟩,⟨256,.ws,false,some ⟨11,[.setEnt .internalNl,.cb],none,false⟩⟩,⟨256,.lf,false,some ⟨10,[.setEnt .internalNl,.cb,.code],none,false⟩⟩,⟨256,.vt,false,some ⟨10,[.setEnt .internalNl,.cb,.code],none,false⟩⟩,⟨256,.ff,false,some ⟨10,[.setEnt .internalNl,.cb,.code],none,false⟩⟩,⟨256,.cr,false,some ⟨10,[.setEnt .internalNl,.cb,.code],none,false⟩⟩,⟨256,.cr,true,some ⟨10,[.setEnt .internalNl,.cb,.code],none,false⟩⟩,⟨34,.other,false,some ⟨10,[.setEnt .internalNl,.cb,.code],none,false⟩⟩,⟨39,.other,false,some ⟨0,[.setEnt .internalNl,.cb],some 2,true⟩⟩,⟨42,.other,false,some ⟨10,[.setEnt .internalNl,.cb,.code],none,false⟩⟩,⟨47,.other,false,some ⟨10,[.setEnt .internalNl,.cb,.code],none,false⟩⟩,⟨92,.other,false,some ⟨12,[.setEnt .internalNl,.cb],none,false⟩⟩]⟩,⟨[25,30],none,[],[⟨256,.other,false,some ⟨10,[.setEnt .internalNl,.cb,.code],none,false⟩⟩,⟨256,.ws,false,some ⟨11,[.setEnt .internalNl,.cb],none,false⟩⟩,⟨256,.lf,false,some ⟨10,[.setEnt .internalNl,.cb,.code],none,false⟩⟩,⟨256,.vt,false,some ⟨10,[.setEnt .internalNl,.cb,.code],none,false⟩⟩,⟨256,.ff,false,some ⟨10,[.setEnt .internalNl,.cb,.code],none,false⟩⟩,⟨256,.cr,false,some ⟨10,[.setEnt .internalNl,.cb,.code],none,false⟩⟩,⟨256,.cr,true,some ⟨10,[.setEnt .internalNl,.cb,.code],none,false⟩⟩,⟨34,.other,false,some ⟨10,[.setEnt .internalNl,.cb,.code],none,false⟩⟩,⟨39,.other,false,some ⟨0,[.setEnt .internalNl,.cb],some 2,true⟩⟩,⟨42,.other,false,some ⟨10,[.setEnt .internalNl,.cb,.code],none,false⟩⟩,⟨47,.other,false,some ⟨10,[.setEnt .internalNl,.cb,.code],none,false⟩⟩,⟨92,.other,false,some ⟨12,[.setEnt .internalNl,.cb],none,false⟩⟩]⟩,⟨[14],none,[],[⟨256,.other,false,some ⟨25,[.setEnt .internalNl,.cb,.comment],none,false⟩⟩,⟨256,.ws,false,some ⟨26,[.setEnt .internalNl,.cb],none,false⟩⟩,⟨256,.lf,false,some ⟨27,[.setEnt .internalNl,.cb],none,false⟩⟩,⟨256,.vt,false,some ⟨25,[.setEnt .internalNl,.cb,.comment],none,false⟩⟩,⟨256,.ff,false,some ⟨28,[.setEnt .internalNl,.cb],none,false⟩⟩,⟨256,.cr,false,some ⟨29,[.setEnt .internalNl,.cb],none,false⟩⟩,⟨256,.cr,true,some ⟨30,[.setEnt .internalNl,.cb],none,false⟩⟩,⟨34,.other,false,some ⟨25,[.setEnt .internalNl,.cb,.comment],none,false⟩⟩,⟨39,.other,false,some ⟨25,[.setEnt .internalNl,.cb,.comment],none,false⟩⟩,⟨42,.other,false,some ⟨31,[.setEnt .internalNl,.cb,.comment],none,false⟩⟩,⟨47,.other,false,some ⟨25,[.setEnt .internalNl,.cb,.comment],none,false⟩⟩,⟨92,.other,false,some ⟨25,[.setEnt .internalNl,.cb,.comment],none,false⟩⟩]⟩,⟨[14,15],none,[],[⟨256,.other,false,some ⟨25,[.setEnt .internalNl,.cb,.comment],none,false⟩⟩,⟨256,.ws,false,some ⟨26,[.setEnt .internalNl,.cb],none,false⟩⟩,⟨256,.lf,false,some ⟨27,[.setEnt .internalNl,.cb],none,false⟩⟩,⟨256,.vt,false,some ⟨25,[.setEnt .internalNl,.cb,.comment],none,false⟩⟩,⟨256,.ff,false,some ⟨28,[.setEnt .internalNl,.cb],none,false⟩⟩,⟨256,.cr,false,some ⟨29,[.setEnt .internalNl,.cb],none,false⟩⟩,⟨256,.cr,true,some ⟨30,[.setEnt .internalNl,.cb],none,false⟩⟩,⟨34,.other,false,some ⟨25,[.setEnt .internalNl,.cb,.comment],none,false⟩⟩,⟨39,.other,false,some ⟨25,[.setEnt .internalNl,.cb,.comment],none,false⟩⟩,⟨42,.other,false,some ⟨31,[.setEnt .internalNl,.cb,.comment],none,false⟩⟩,⟨47,.other,false,some ⟨25,[.setEnt .internalNl,.cb,.comment],none,false⟩⟩,⟨92,.other,false,some ⟨25,[.setEnt .internalNl,.cb,.comment],none,false⟩⟩]⟩,⟨[6],some 1,[.setEnt .internalNl,.cb],[⟨256,.other,false,some ⟨32,[.setEnt .internalNl,.cb,.comment],some 1,false⟩⟩,⟨256,.ws,false,some ⟨33,[.setEnt .internalNl,.cb],some 1,false⟩⟩,⟨256,.lf,false,none⟩,⟨256,.vt,false,some ⟨32,[.setEnt .internalNl,.cb,.comment],some 1,false⟩⟩,⟨256,.ff,false,none⟩,⟨256,.cr,false,none⟩,⟨256,.cr,true,none⟩,⟨34,.other,false,some ⟨32,[.setEnt .internalNl,.cb,.comment],some 1,false⟩⟩,⟨39,.other,false,some ⟨32,[.setEnt .internalNl,.cb,.comment],some 1,false⟩⟩,⟨42,.other,false,some ⟨32,[.setEnt .internalNl,.cb,.comment],some 1,false⟩⟩,⟨47,.other,false,some ⟨32,[.setEnt .internalNl,.cb,.comment],some 1,false⟩⟩,⟨92,.other,false,some ⟨34,[.setEnt .internalNl,.cb,.comment],some 1,false⟩⟩]⟩,⟨[7],some 1,[.setEnt .internalNl,.cb],[⟨256,.other,false,some ⟨32,[.setEnt .internalNl,.cb,.comment],some 1,false⟩⟩,⟨256,.ws,false,some ⟨33,[.setEnt .internalNl,.cb],some 1,false⟩⟩,⟨256,.lf,false,none⟩,⟨256,.vt,false,some ⟨32,[.setEnt .internalNl,.cb,.comment],some 1,false⟩⟩,⟨256,.ff,false,none⟩,⟨256,.cr,false,none⟩,⟨256,.cr,true,none⟩,⟨34,.other,false,some ⟨32,[.setEnt .internalNl,.cb,.comment],some 1,false⟩⟩,⟨39,.other,false,some ⟨32,[.setEnt .internalNl,.cb,.comment],some 1,false⟩⟩,⟨42,.other,false,some ⟨32,[.setEnt .internalNl,.cb,.comment],some 1,false⟩⟩,⟨47,.other,false,some ⟨32,[.setEnt .internalNl,.cb,.comment],some 1,false⟩⟩,⟨92,.other,false,some ⟨34,[.setEnt .internalNl,.cb,.comment],some 1,false⟩⟩]⟩,⟨[4],none,[],[⟨256,.other,false,none⟩,⟨256,.ws,false,none⟩,⟨256,.lf,false,some ⟨45,[],some 1,false⟩⟩,⟨256,.vt,false,none⟩,⟨256,.ff,false,none⟩,⟨256,.cr,false,none⟩,⟨256,.cr,true,none⟩,⟨34,.other,false,none⟩,⟨39,.other,false,none⟩,⟨42,.other,false,none⟩,⟨47,.other,false,none⟩,⟨92,.other,false,none⟩]⟩,⟨[4,8],some 1,[.setEnt .internalNl,.cb],[⟨256,.other,false,some ⟨32,[.setEnt .internalNl,.cb,.comment],some 1,false⟩⟩,⟨256,.ws,false,some ⟨33,[.setEnt .internalNl,.cb],some 1,false⟩⟩,⟨256,.lf,false,some ⟨45,[],some 1,false⟩⟩,⟨256,.vt,false,some ⟨32,[.setEnt .internalNl,.cb,.comment],some 1,false⟩⟩,⟨256,.ff,false,none⟩,⟨256,.cr,false,none⟩,⟨256,.cr,true,none⟩,⟨34,.other,false,some ⟨32,[.setEnt .internalNl,.cb,.comment],some 1,false⟩⟩,⟨39,.other,false,some ⟨32,[.setEnt .internalNl,.cb,.comment],some 1,false⟩⟩,⟨42,.other,false,some ⟨32,[.setEnt .internalNl,.cb,.comment],some 1,false⟩⟩,⟨47,.other,false,some ⟨32,[.setEnt .internalNl,.cb,.comment],some 1,false⟩⟩,⟨92,.other,false,some ⟨34,[.setEnt .internalNl,.cb,.comment],some 1,false⟩⟩]⟩,⟨[5],some 1,[.setEnt .internalNl,.cb],[⟨256,.other,false,some ⟨32,[.setEnt .internalNl,.cb,.comment],some 1,false⟩⟩,⟨256,.ws,false,some ⟨33,[.setEnt .internalNl,.cb],some 1,false⟩⟩,⟨256,.lf,false,none⟩,⟨256,.vt,false,some ⟨32,[.setEnt .internalNl,.cb,.comment],some 1,false⟩⟩,⟨256,.ff,false,none⟩,⟨256,.cr,false,none⟩,⟨256,.cr,true,none⟩,⟨34,.other,false,some ⟨32,[.setEnt .internalNl,.cb,.comment],some 1,false⟩⟩,⟨39,.other,false,some ⟨32,[.setEnt .internalNl,.cb,.comment],some 1,false⟩⟩,⟨42,.other,false,some ⟨32,[.setEnt .internalNl,.cb,.comment],some 1,false⟩⟩,⟨47,.other,false,some ⟨32,[.setEnt .internalNl,.cb,.comment],some 1,false⟩⟩,⟨92,.other,false,some ⟨34,[.setEnt .internalNl,.cb,.comment],some 1,false⟩⟩]⟩]
theorem groovy_line_lrowsOk : rowsOk groovy_line_nfa groovy_line_lex.rel (groovy_line_lcs.map (·.1)) groovy_line_lrows = true := by decide +kernel
def groovy_line_lfr : List CA.FRow := [⟨true,none,[],[⟨256,.other,false,false,none,some ([.setEnt (.own 3)],(some 4,true))⟩,⟨9,.ws,false,false,some 1,some ([.setEnt (.own 0)],(some 0,false))⟩,⟨10,.lf,false,true,none,some ([.setEnt .newline],(some 3,true))⟩,⟨11,.vt,false,false,none,none⟩,⟨12,.ff,false,true,none,some ([.setEnt .newline],(some 3,true))⟩,⟨13,.cr,false,false,some 2,some ([.setEnt .newline],(none,false))⟩,⟨13,.cr,true,true,some 3,some ([.setEnt .newline],(some 3,false))⟩,⟨34,.other,false,false,some 4,some ([.code,.setEnt (.own 3)],(some 4,false))⟩,⟨39,.other,false,false,some 5,some ([.code,.setEnt (.own 3)],(some 4,false))⟩,⟨42,.other,false,false,none,some ([.setEnt (.own 3)],(some 4,true))⟩,⟨47,.other,false,false,some 6,some ([.setEnt (.own 3)],(some 4,false))⟩,⟨92,.other,false,false,none,some ([.setEnt (.own 3)],(some 4,true))⟩]⟩,⟨false,some 0,[],[⟨256,.other,false,false,none,none⟩,⟨9,.ws,false,false,some 1,some ([.setEnt (.own 0)],(some 0,false))⟩,⟨10,.lf,false,true,none,none⟩,⟨11,.vt,false,false,none,none⟩,⟨12,.ff,false,true,none,none⟩,⟨13,.cr,false,false,none,none⟩,⟨13,.cr,true,true,none,none⟩,⟨34,.other,false,false,none,none⟩,⟨39,.other,false,false,none,none⟩,⟨42,.other,false,false,none,none⟩,⟨47,.other,false,false,none,none⟩,⟨92,.other,false,false,none,none⟩]⟩,⟨false,none,[],[⟨256,.other,false,false,none,none⟩,⟨9,.ws,false,false,none,none⟩,⟨10,.lf,false,true,none,some ([.setEnt .newline],(some 3,true))⟩,⟨11,.vt,false,false,none,none⟩,⟨12,.ff,false,true,none,none⟩,⟨13,.cr,false,false,none,none⟩,⟨13,.cr,true,true,none,none⟩,⟨34,.other,false,false,none,none⟩,⟨39,.other,false,false,none,none⟩,⟨42,.other,false,false,none,none⟩,⟨47,.other,false,false,none,none⟩,⟨92,.other,false,false,none,none⟩]⟩,⟨false,some 3,[],[⟨256,.other,false,false,none,none⟩,⟨9,.ws,false,false,none,none⟩,⟨10,.lf,false,true,none,some ([.setEnt .newline],(some 3,true))⟩,⟨11,.vt,false,false,none,none⟩,⟨12,.ff,false,true,none,none⟩,⟨13,.cr,false,false,none,none⟩,⟨13,.cr,true,true,none,none⟩,⟨34,.other,false,false,none,none⟩,⟨39,.other,false,false,none,none⟩,⟨42,.other,false,false,none,none⟩,⟨47,.other,false,false,none,none⟩,⟨92,.other,false,false,none,none⟩]⟩,⟨false,some 4,[],[⟨256,.other,false,false,some 7,some ([.code],(none,false))⟩,⟨9,.ws,false,false,some 8,some ([],(none,false))⟩,⟨10,.lf,false,true,some 7,some ([.code],(none,false))⟩,⟨11,.vt,false,false,some 7,some ([.code],(none,false))⟩,⟨12,.ff,false,true,some 7,some ([.code],(none,false))⟩,⟨13,.cr,false,false,some 7,some ([.code],(none,false))⟩,⟨13,.cr,true,true,some 7,some ([.code],(none,false))⟩,⟨34,.other,false,false,none,some ([],(some 2,true))⟩,⟨39,.other,false,false,some 7,some ([.code],(none,false))⟩,⟨42,.other,false,false,some 7,some ([.code],(none,false))⟩,⟨47,.other,false,false,some 7,some ([.code],(none,false))⟩,⟨92,.other,false,false,some 9,some ([],(none,false))⟩]⟩,⟨false,some 4,[],[⟨256,.other,false,false,some 10,some ([.code],(none,false))⟩,⟨9,.ws,false,false,some 11,some ([],(none,false))⟩,⟨10,.lf,false,true,some 10,some ([.code],(none,false))⟩,⟨11,.vt,false,false,some 10,some ([.code],(none,false))⟩,⟨12,.ff,false,true,some 10,some ([.code],(none,false))⟩,⟨13,.cr,false,false,some 10,some ([.code],(none,false))⟩,⟨13,.cr,true,true,some 10,some ([.code],(none,false))⟩,⟨34,.other,false,false,some 10,some ([.code],(none,false))⟩,⟨39,.other,false,false,none,some ([],(some 2,true))⟩,⟨42,.other,false,false,some 10,some ([.code],(none,false))⟩,⟨47,.other,false,false,some 10,some ([.code],(none,false))⟩,⟨92,.other,false,false,some 12,some ([],(none,false))⟩]⟩,⟨false,some 4,[],[⟨256,.other,false,false,none,none⟩,⟨9,.ws,false,false,none,none⟩,⟨10,.lf,false,true,none,none⟩,⟨11,.vt,false,false,none,none⟩,⟨12,.ff,false,true,none,none⟩,⟨13,.cr,false,false,none,none⟩,⟨13,.cr,true,true,none,none⟩,⟨34,.other,false,false,none,none⟩,⟨39,.other,false,false,none,none⟩,⟨42,.other,false,false,some 13,some ([.comment],(none,false))⟩,⟨47,.other,false,false,some 14,some ([.comment],(some 1,false))⟩,⟨92,.other,false,false,none,none⟩]⟩,⟨false,none,[],[⟨256,.other,false,false,some 7,some ([.code],(none,false))⟩,⟨9,.ws,false,false,some 8,some ([],(none,false))⟩,⟨10,.lf,false,true,some 7,some ([.code],(none,false))⟩,⟨11,.vt,false,false,some 7,some ([.code],(none,false))⟩,⟨12,.ff,false,true,some 7,some ([.code],(none,false))⟩,⟨13,.cr,false,false,some 7,some ([.code],(none,false))⟩,⟨13,.cr,true,true,some 7,some ([.code],(none,false))⟩,⟨34,.other,false,false,none,some ([],(some 2,true))⟩,⟨39,.other,false,false,some 7,some ([.code],(none,false))⟩,⟨42,.other,false,false,some 7,some ([.code],(none,false))⟩,⟨47,.other,false,false,some 7,some ([.code],(none,false))⟩,⟨92,.other,false,false,some 9,some ([],(none,false))⟩]⟩,⟨false,none,[],[⟨256,.other,false,false,some 7,some ([.code],(none,false))⟩,⟨9,.ws,false,false,some 8,some ([],(none,false))⟩,⟨10,.lf,false,true,some 7,some ([.code],(none,false))⟩,⟨11,.vt,false,false,some 7,some ([.code],(none,false))⟩,⟨12,.ff,false,true,some 7,some ([.code],(none,false))⟩,⟨13,.cr,false,false,some 7,some ([.code],(none,false))⟩,⟨13,.cr,true,true,some 7,some ([.code],(none,false))⟩,⟨34,.other,false,false,none,some ([],(some 2,true))⟩,⟨39,.other,false,false,some 7,some ([.code],(none,false))⟩,⟨42,.other,false,false,some 7,some ([.code],(none,false))⟩,⟨47,.other,false,false,some 7,some ([.code],(none,false))⟩,⟨92,.other,false,false,some 9,some ([],(none,false))⟩]⟩,⟨false,none,[],[⟨256,.other,false,false,some 15,some ([.code],(none,false))⟩,⟨9,.ws,false,false,some 15,some ([.code],(none,false))⟩,⟨10,.lf,false,true,some 16,some ([],(none,false))⟩,⟨11,.vt,false,false,some 15,some ([.code],(none,false))⟩,⟨12,.ff,false,true,some 17,some ([],(none,false))⟩,⟨13,.cr,false,false,some 18,some ([],(none,false))⟩,⟨13,.cr,true,true,some 19,some ([],(none,false))⟩,⟨34,.other,false,false,some 15,some ([.code],(none,false))⟩,⟨39,.other,false,false,some 15,some ([.code],(none,false))⟩,⟨42,.other,false,false,some 15,some ([.code],(none,false))⟩,⟨47,.other,false,false,some 15,some ([.code],(none,false))⟩,⟨92,.other,false,false,some 15,some ([.code],(none,false))⟩]⟩,⟨false,none,[],[⟨256,.other,false,false,some 10,some ([.code],(none,false))⟩,⟨9,.ws,false,false,some 11,some ([],(none,false))⟩,⟨10,.lf,false,true,some 10,some ([.code],(none,false))⟩,⟨11,.vt,false,false,some 10,some ([.code],(none,false))⟩,⟨12,.ff,false,true,some 10,some ([.code],(none,false))⟩,⟨13,.cr,false,false,some 10,some ([.code],(none,false))⟩,⟨13,.cr,true,true,some 10,some ([.code],(none,false))⟩,⟨34,.other,false,false,some 10,some ([.code],(none,false))⟩,⟨39,.other,false,false,none,some ([],(some 2,true))⟩,⟨42,.other,false,false,some 10,some ([.code],(none,false))⟩,⟨47,.other,false,false,some 10,some ([.code],(none,false))⟩,⟨92,.other,false,false,some 12,some ([],(none,false))⟩]⟩,⟨false,none,[],[⟨256,.other,false,false,some 10,some ([.code],(none,false))⟩,⟨9,.ws,false,false,some 11,some ([],(none,false))⟩,⟨10,.lf,false,true,some 10,some ([.code],(none,false))⟩,⟨11,.vt,false,false,some 10,some ([.code],(none,false))⟩,⟨12,.ff,false,true,some 10,some ([.code],(none,false))⟩,⟨13,.cr,false,false,some 10,some ([.code],(none,false))⟩,⟨13,.cr,true,true,some 10,some ([.code],(none,false))⟩,⟨34,.other,false,false,some 10,some ([.code],(none,false))⟩,⟨39,.other,false,false,none,some ([],(some 2,true))⟩,⟨42,.other,false,false,some 10,some ([.code],(none,false))⟩,⟨47,.other,false,false,some 10,some ([.code],(none,false))⟩,⟨92,.other,false,false,some 12,some ([],(none,false))⟩]⟩,⟨false,none,[],[⟨256,.other,false,false,some 20,some ([.code],(none,false))⟩,⟨9,.ws,false,false,some 20,some ([.code],(none,false))⟩,⟨10,.lf,false,true,some 21,some ([],(none,false))⟩,⟨11,.vt,false,false,some 20,some ([.code],(none,false))⟩,⟨12,.ff,false,true,some 22,some ([],(none,false))⟩,⟨13,.cr,false,false,some 23,some ([],(none,false))⟩,⟨13,.cr,true,true,some 24,some ([],(none,false))⟩,⟨34,.other,false,false,some 20,some ([.code],(none,false))⟩,⟨39,.other,false,false,some 20,some ([.code],(none,false))⟩,⟨42,.other,false,false,some 20,some ([.code],(none,false))⟩,⟨47,.other,false,false,some 20,some ([.code],(none,false))⟩,⟨92,.other,false,false,some 20,some ([.code],(none,false))⟩]⟩,⟨false,none,[],[⟨256,.other,false,false,some 25,some ([.comment],(none,false))⟩,⟨9,.ws,false,false,some 26,some ([],(none,false))⟩,⟨10,.lf,false,true,some 27,some ([],(none,false))⟩,⟨11,.vt,false,false,some 25,some ([.comment],(none,false))⟩,⟨12,.ff,false,true,some 28,some ([],(none,false))⟩,⟨13,.cr,false,false,some 29,some ([],(none,false))⟩,⟨13,.cr,true,true,some 30,some ([],(none,false))⟩,⟨34,.other,false,false,some 25,some ([.comment],(none,false))⟩,⟨39,.other,false,false,some 25,some ([.comment],(none,false))⟩,⟨42,.other,false,false,some 31,some ([.comment],(none,false))⟩,⟨47,.other,false,false,some 25,some ([.comment],(none,false))⟩,⟨92,.other,false,false,some 25,some ([.comment],(none,false))⟩]⟩,⟨false,some 1,[],[⟨256,.other,false,false,some 32,some ([.comment],(some 1,false))⟩,⟨9,.ws,false,false,some 33,some ([],(some 1,false))⟩,⟨10,.lf,false,true,none,none⟩,⟨11,.vt,false,false,some 32,some ([.comment],(some 1,false))⟩,⟨12,.ff,false,true,none,none⟩,⟨13,.cr,false,false,none,none⟩,⟨13,.cr,true,true,none,none⟩,⟨34,.other,false,false,some 32,some ([.comment],(some 1,false))⟩,⟨39,.other,false,false,some 32,some ([.comment],(some 1,false))⟩,⟨42,.other,false,false,some 32,some ([.comment],(some 1,false))⟩,⟨47,.other,false,false,some 32,some ([.comment],(some 1,false))⟩,⟨92,.other,false,false,some 34,some ([.comment],(some 1,false))⟩]⟩,⟨false,none,[],[⟨256,.other,false,false,some 7,some ([.code],(none,false))⟩,⟨9,.ws,false,false,some 8,some ([],(none,false))⟩,⟨10,.lf,false,true,some 7,some ([.code],(none,false))⟩,⟨11,.vt,false,false,some 7,some ([.code],(none,false))⟩,⟨12,.ff,false,true,some 7,some ([.code],(none,false))⟩,⟨13,.cr,false,false,some 7,some ([.code],(none,false))⟩,⟨13,.cr,true,true,some 7,some ([.code],(none,false))⟩,⟨34,.other,false,false,none,some ([],(some 2,true))⟩,⟨39,.other,false,false,some 7,some ([.code],(none,false))⟩,⟨42,.other,false,false,some 7,some ([.code],(none,false))⟩,⟨47,.other,false,false,some 7,some ([.code],(none,false))⟩,⟨92,.other,false,false,some 9,some ([],(none,false))⟩]⟩,⟨false,none,[],[⟨256,.other,false,false,some 7,some ([.setEnt .internalNl,.cb,.code],(none,false))⟩,⟨9,.ws,false,false,some 8,some ([.setEnt .internalNl,.cb],(none,false))⟩,⟨10,.lf,false,true,some 7,some ([.setEnt .internalNl,.cb,.code],(none,false))⟩,⟨11,.vt,false,false,some 7,some ([.setEnt .internalNl,.cb,.code],(none,false))⟩,⟨12,.ff,false,true,some 7,some ([.setEnt .internalNl,.cb,.code],(none,false))⟩,⟨13,.cr,false,false,some 7,some ([.setEnt .internalNl,.cb,.code],(none,false))⟩,⟨13,.cr,true,true,some 7,some ([.setEnt .internalNl,.cb,.code],(none,false))⟩,⟨34,.other,false,false,none,some ([.setEnt .internalNl,.cb],(some 2,true))⟩,⟨39,.other,false,false,some 7,some ([.setEnt .internalNl,.cb,.code],(none,false))⟩,⟨42,.other,false,false,some 7,some ([.setEnt .internalNl,.cb,.code],(none,false))⟩,⟨47,.other,false,false,some 7,some ([.setEnt .internalNl,.cb,.code],(none,false))⟩,⟨92,.other,false,false,some 9,some ([.setEnt .internalNl,.cb],(none,false))⟩]⟩,⟨false,none,[],[⟨256,.other,false,false,some 7,some ([.setEnt .internalNl,.cb,.code],(none,false))⟩,⟨9,.ws,false,false,some 8,some ([.setEnt .internalNl,.cb],(none,false))⟩,⟨10,.lf,false,true,some 7,some ([.setEnt .internalNl,.cb,.code],(none,false))⟩,⟨11,.vt,false,false,some 7,some ([.setEnt .internalNl,.cb,.code],(none,false))⟩,⟨12,.ff,false,true,some 7,some ([.setEnt .internalNl,.cb,.code],(none,false))⟩,⟨13,.cr,false,false,some 7,some ([.setEnt .internalNl,.cb,.code],(none,false))⟩,⟨13,.cr,true,true,some 7,some ([.setEnt .internalNl,.cb,.code],(none,false))⟩,⟨34,.other,false,false,none,some ([.setEnt .internalNl,.cb],(some 2,true))⟩,⟨39,.other,false,false,some 7,some ([.setEnt .internalNl,.cb,.code],(none,false))⟩,⟨42,.other,false,false,some 7,some ([.setEnt .internalNl,.cb,.code],(none,false))⟩,⟨47,.other,false,false,some 7,some ([.setEnt .internalNl,.cb,.code],(none,false))⟩,⟨92,.other,false,false,some 9,some ([.setEnt .internalNl,.cb],(none,false))⟩]⟩,⟨false,none,[],[⟨256,.other,false,false,none,none⟩,⟨9,.ws,false,false,none,none⟩,⟨10,.lf,false,true,some 35,some ([],(none,false))⟩,⟨11,.vt,false,false,none,none⟩,⟨12,.ff,false,true,none,none⟩,⟨13,.cr,false,false,none,none⟩,⟨13,.cr,true,true,none,none⟩,⟨34,.other,false,false,none,none⟩,⟨39,.other,false,false,none,none⟩,⟨42,.other,false,false,none,none⟩,⟨47,.other,false,false,none,none⟩,⟨92,.other,false,false,none,none⟩]⟩,⟨false,none,[],[⟨256,.other,false,false,some 7,some ([.setEnt .internalNl,.cb,.code],(none,false))⟩,⟨9,.ws,false,false,some 8,some ([.setEnt .internalNl,.cb],(none,false))⟩,⟨10,.lf,false,true,some 36,some ([.setEnt .internalNl,.cb,.code],(none,false))⟩,⟨11,.vt,false,false,some 7,some ([.setEnt .internalNl,.cb,.code],(none,false))⟩,⟨12,.ff,false,true,some 7,some ([.setEnt .internalNl,.cb,.code],(none,false))⟩,⟨13,.cr,false,false,some 7,some ([.setEnt .internalNl,.cb,.code],(none,false))⟩,⟨13,.cr,true,true,some 7,some ([.setEnt .internalNl,.cb,.code],(none,false))⟩,⟨34,.other,false,false,none,some ([.setEnt .internalNl,.cb],(some 2,true))⟩,⟨39,.other,false,false,some 7,some ([.setEnt .internalNl,.cb,.code],(none,false))⟩,⟨42,.other,false,false,some 7,some ([.setEnt .internalNl,.cb,.code],(none,false))⟩,⟨47,.other,false,false,some 7,some ([.setEnt .internalNl,.cb,.code],(none,false))⟩,⟨92,.other,false,false,some 9,some ([.setEnt .internalNl,.cb],(none,false))⟩]⟩,⟨false,none,[],[⟨256,.other,false,false,some 10,some ([.code],(none,false))⟩,⟨9,.ws,false,false,some 11,some ([],(none,false))⟩,⟨10,.lf,false,true,some 10,some ([.code],(none,false))⟩,⟨11,.vt,false,false,some 10,some ([.code],(none,false))⟩,⟨12,.ff,false,true,some 10,some ([.code],(none,false))⟩,⟨13,.cr,false,false,some 10,some ([.code],(none,false))⟩,⟨13,.cr,true,true,some 10,some ([.code],(none,false))⟩,⟨34,.other,false,false,some 10,some ([.code],(none,false))⟩,⟨39,.other,false,false,none,some ([],(some 2,true))⟩,⟨42,.other,false,false,some 10,some ([.code],(none,false))⟩,⟨47,.other,false,false,some 10,some ([.code],(none,false))⟩,⟨92,.other,false,false,some 12,some ([],(none,false))⟩]⟩,⟨false,none,[],[⟨256,.other,false,false,some 10,some ([.setEnt .internalNl,.cb,.code],(none,false))⟩,⟨9,.ws,false,false,some 11,some ([.setEnt .internalNl,.cb],(none,false))⟩,⟨10,.lf,false,true,some 10,some ([.setEnt .internalNl,.cb,.code],(none,false))⟩,⟨11,.vt,false,false,some 10,some ([.setEnt .internalNl,.cb,.code],(none,false))⟩,⟨12,.ff,false,true,some 10,some ([.setEnt .internalNl,.cb,.code],(none,false))⟩,⟨13,.cr,false,false,some 10,some ([.setEnt .internalNl,.cb,.code],(none,false))⟩,⟨13,.cr,true,true,some 10,some ([.setEnt .internalNl,.cb,.code],(none,false))⟩,⟨34,.other,false,false,some 10,some ([.setEnt .internalNl,.cb,.code],(none,false))⟩,⟨39,.other,false,false,none,some ([.setEnt .internalNl,.cb],(some 2,true))⟩,⟨42,.other,false,false,some 10,some ([.setEnt .internalNl,.cb,.code],(none,false))⟩,⟨47,.other,false,false,some 10,some ([.setEnt .internalNl,.cb,.code],(none,false))⟩,⟨92,.other,false,false,some 12,some ([.setEnt .internalNl,.cb],(none,false))⟩]⟩,⟨false,none,[],[⟨256,.other,false,false,some 10,some ([.setEnt .internalNl,.cb,.code],(none,false))⟩,⟨9,.ws,false,false,some 11,some ([.setEnt .internalNl,.cb],(none,false))⟩,⟨10,.lf,false,true,some 10,some ([.setEnt .internalNl,.cb,.code],(none,false))⟩,⟨11,.vt,false,false,some 10,some ([.setEnt .internalNl,.cb,.code],(none,false))⟩,⟨12,.ff,false,true,some 10,some ([.setEnt .internalNl,.cb,.code],(none,false))⟩,⟨13,.cr,false,false,some 10,some ([.setEnt .internalNl,.cb,.code],(none,false))⟩,⟨13,.cr,true,true,some 10,some ([.setEnt .internalNl,.cb,.code],(none,false))⟩,⟨34,.other,false,false,some 10,some ([.setEnt .internalNl,.cb,.code],(none,false))⟩,⟨39,.other,false,false,none,some ([.setEnt .internalNl,.cb],(some 2,true))⟩,⟨42,.other,false,false,some 10,some ([.setEnt .internalNl,.cb,.code],(none,false))⟩,⟨47,.other,false,false,some 10,some ([.setEnt .internalNl,.cb,.code],(none,false))⟩,⟨92,.other,false,false,some 12,some ([.setEnt .internalNl,.cb],(none,false))⟩]⟩,⟨false,none,[],[⟨256,.other,false,false,none,none⟩,⟨9,.ws,false,false,none,none⟩,⟨10,.lf,false,true,some 37,some ([],(none,false))⟩,⟨11,.vt,false,false,none,none⟩,⟨12,.ff,false,true,none,none⟩,⟨13,.cr,false,false,none,none⟩,⟨13,.cr,true,true,none,none⟩,⟨34,.other,false,false,none,none⟩,⟨39,.other,false,false,none,none⟩,⟨42,.other,false,false,none,none⟩,⟨47,.other,false,false,none,none⟩,⟨92,.other,false,false,none,none⟩]⟩,⟨false,none,[],[⟨256,.other,false,false,some 10,some ([.setEnt .internalNl,.cb,.code],(none,false))⟩,⟨9,.ws,false,false,some 11,some ([.setEnt .internalNl,.cb],(none,false))⟩,⟨10,.lf,false,true,some 38,some ([.setEnt .internalNl,.cb,.code],(none,false))⟩,⟨11,.vt,false,false,some 10,some ([.setEnt .internalNl,.cb,.code],(none,false))⟩,⟨12,.ff,false,true,some 10,some ([.setEnt .internalNl,.cb,.code],(none,false))⟩,⟨13,.cr,false,false,some 10,some ([.setEnt .internalNl,.cb,.code],(none,false))⟩,⟨13,.cr,true,true,some 10,some ([.setEnt .internalNl,.cb,.code],(none,false))⟩,⟨34,.other,false,false,some 10,some ([.setEnt .internalNl,.cb,.code],(none,false))⟩,⟨39,.other,false,false,none,some ([.setEnt .internalNl,.cb],(some 2,true))⟩,⟨42,.other,false,false,some 10,some ([.setEnt .internalNl,.cb,.code],(none,false))⟩,⟨47,.other,false,false,some 10,some ([.setEnt .internalNl,.cb,.code],(none,false))⟩,⟨92,.other,false,false,some 12,some ([.setEnt .internalNl,.cb],(none,false))⟩]⟩,⟨false,none,[],[⟨256,.other,false,false,some 25,some ([.comment],(none,false))⟩,⟨9,.ws,false,false,some 26,some ([],(none,false))⟩,⟨10,.lf,false,true,some 27,some ([],(none,false))⟩,⟨11,.vt,false,false,some 25,some ([.comment],(none,false))⟩,⟨12,.ff,false,true,some 28,some ([],(none,false))⟩,⟨13,.cr,false,false,some 29,some ([],(none,false))⟩,⟨13,.cr,true,true,some 30,some ([],(none,false))⟩,⟨34,.other,false,false,some 25,some ([.comment],(none,false))⟩,⟨39,.other,false,false,some 25,some ([.comment],(none,false))⟩,⟨42,.other,false,false,some 31,some ([.comment],(none,false))⟩,⟨47,.other,false,false,some 25,some ([.comment],(none,false))⟩,⟨92,.other,false,false,some 25,some ([.comment],(none,false))⟩]⟩,⟨false,none,[],[⟨256,.other,false,false,some 25,some ([.comment],(none,false))⟩,⟨9,.ws,false,false,some 26,some ([],(none,false))⟩,⟨10,.lf,false,true,some 27,some ([],(none,false))⟩,⟨11,.vt,false,false,some 25,some ([.comment],(none,false))⟩,⟨12,.ff,false,true,some 28,some ([],(none,false))⟩,⟨13,.cr,false,false,some 29,some ([],(none,false))⟩,⟨13,.cr,true,true,some 30,some ([],(none,false))⟩,⟨34,.other,false,false,some 25,some ([.comment],(none,false))⟩,⟨39,.other,false,false,some 25,some ([.comment],(none,false))⟩,⟨42,.other,false,false,some 31,some ([.comment],(none,false))⟩,⟨47,.other,false,false,some 25,some ([.comment],(none,false))⟩,⟨92,.other,false,false,some 25,some ([.comment],(none,false))⟩]⟩,⟨false,none,[],[⟨256,.other,false,false,some 25,some ([.setEnt .internalNl,.cb,.comment],(none,false))⟩,⟨9,.ws,false,false,some 26,some ([.setEnt .internalNl,.cb],(none,false))⟩,⟨10,.lf,false,true,some 27,some ([.setEnt .internalNl,.cb],(none,false))⟩,⟨11,.vt,false,false,some 25,some ([.setEnt .internalNl,.cb,.comment],(none,false))⟩,⟨12,.ff,false,true,some 28,some ([.setEnt .internalNl,.cb],(none,false))⟩,⟨13,.cr,false,false,some 29,some ([.setEnt .internalNl,.cb],(none,false))⟩,⟨13,.cr,true,true,some 30,some ([.setEnt .internalNl,.cb],(none,false))⟩,⟨34,.other,false,false,some 25,some ([.setEnt .internalNl,.cb,.comment],(none,false))⟩,⟨39,.other,false,false,some 25,some ([.setEnt .internalNl,.cb,.comment],(none,false))⟩,⟨42,.other,false,false,some 31,some ([.setEnt .internalNl,.cb,.comment],(none,false))⟩,⟨47,.other,false,false,some 25,some ([.setEnt .internalNl,.cb,.comment],(none,false))⟩,⟨92,.other,false,false,some 25,some ([.setEnt .internalNl,.cb,.comment],(none,false))⟩]⟩,⟨false,none,[],[⟨256,.other,false,false,some 25,some ([.setEnt .internalNl,.cb,.comment],(none,false))⟩,⟨9,.ws,false,false,some 26,some ([.setEnt .internalNl,.cb],(none,false))⟩,⟨10,.lf,false,true,some 27,some ([.setEnt .internalNl,.cb],(none,false))⟩,⟨11,.vt,false,false,some 25,some ([.setEnt .internalNl,.cb,.comment],(none,false))⟩,⟨12,.ff,false,true,some 28,some ([.setEnt .internalNl,.cb],(none,false))⟩,⟨13,.cr,false,false,some 29,some ([.setEnt .internalNl,.cb],(none,false))⟩,⟨13,.cr,true,true,some 30,some ([.setEnt .internalNl,.cb],(none,false))⟩,⟨34,.other,false,false,some 25,some ([.setEnt .internalNl,.cb,.comment],(none,false))⟩,⟨39,.other,false,false,some 25,some ([.setEnt .internalNl,.cb,.comment],(none,false))⟩,⟨42,.other,false,false,some 31,some ([.setEnt .internalNl,.cb,.comment],(none,false))⟩,⟨47,.other,false,false,some 25,some ([.setEnt .internalNl,.cb,.comment],(none,false))⟩,⟨92,.other,false,false,some 25,some ([.setEnt .internalNl,.cb,.comment],(none,false))⟩]⟩,⟨false,none,[],[⟨256,.other,false,false,none,none⟩,⟨9,.ws,false,false,none,none⟩,⟨10,.lf,false,true,some 39,some ([],(none,false))⟩,⟨11,.vt,false,false,none,none⟩,⟨12,.ff,false,true,none,none⟩,⟨13,.cr,false,false,none,none⟩,⟨13,.cr,true,true,none,none⟩,⟨34,.other,false,false,none,none⟩,⟨39,.other,false,false,none,none⟩,⟨42,.other,false,false,none,none⟩,⟨47,.other,false,false,none,none⟩,⟨92,.other,false,false,none,none⟩]⟩,⟨false,none,[],[⟨256,.other,false,false,some 25,some ([.setEnt .internalNl,.cb,.comment],(none,false))⟩,⟨9,.ws,false,false,some 26,some ([.setEnt .internalNl,.cb],(none,false))⟩,⟨10,.lf,false,true,some 40,some ([.setEnt .internalNl,.cb],(none,false))⟩,⟨11,.vt,false,false,some 25,some ([.setEnt .internalNl,.cb,.comment],(none,false))⟩,⟨12,.ff,false,true,some 28,some ([.setEnt .internalNl,.cb],(none,false))⟩,⟨13,.cr,false,false,some 29,some ([.setEnt .internalNl,.cb],(none,false))⟩,⟨13,.cr,true,true,some 30,some ([.setEnt .internalNl,.cb],(none,false))⟩,⟨34,.other,false,false,some 25,some ([.setEnt .internalNl,.cb,.comment],(none,false))⟩,⟨39,.other,false,false,some 25,some ([.setEnt .internalNl,.cb,.comment],(none,false))⟩,⟨42,.other,false,false,some 31,some ([.setEnt .internalNl,.cb,.comment],(none,false))⟩,⟨47,.other,false,false,some 25,some ([.setEnt .internalNl,.cb,.comment],(none,false))⟩,⟨92,.other,false,false,some 25,some ([.setEnt .internalNl,.cb,.comment],(none,false))⟩]⟩,⟨false,none,[],[⟨256,.other,false,false,some 25,some ([.comment],(none,false))⟩,⟨9,.ws,false,false,some 26,some ([],(none,false))⟩,⟨10,.lf,false,true,some 27,some ([],(none,false))⟩,⟨11,.vt,false,false,some 25,some ([.comment],(none,false))⟩,⟨12,.ff,false,true,some 28,some ([],(none,false))⟩,⟨13,.cr,false,false,some 29,some ([],(none,false))⟩,⟨13,.cr,true,true,some 30,some ([],(none,false))⟩,⟨34,.other,false,false,some 25,some ([.comment],(none,false))⟩,⟨39,.other,false,false,some 25,some ([.comment],(none,false))⟩,⟨42,.other,false,false,some 31,some ([.comment],(none,false))⟩,⟨47,.other,false,false,none,some ([],(some 1,true))⟩,⟨92,.other,false,false,some 25,some ([.comment],(none,false))⟩]⟩,⟨false,some 1,[],[⟨256,.other,false,false,some 32,some ([.comment],(some 1,false))⟩,⟨9,.ws,false,false,some 33,some ([],(some 1,false))⟩,⟨10,.lf,false,true,none,none⟩,⟨11,.vt,false,false,some 32,some ([.comment],(some 1,false))⟩,⟨12,.ff,false,true,none,none⟩,⟨13,.cr,false,false,none,none⟩,⟨13,.cr,true,true,none,none⟩,⟨34,.other,false,false,some 32,some ([.comment],(some 1,false))⟩,⟨39,.other,false,false,some 32,some ([.comment],(some 1,false))⟩,⟨42,.other,false,false,some 32,some ([.comment],(some 1,false))⟩,⟨47,.other,false,false,some 32,some ([.comment],(some 1,false))⟩,⟨92,.other,false,false,some 34,some ([.comment],(some 1,false))⟩]⟩,⟨false,some 1,[],[⟨256,.other,false,false,some 32,some ([.comment],(some 1,false))⟩,⟨9,.ws,false,false,some 33,some ([],(some 1,false))⟩,⟨10,.lf,false,true,none,none⟩,⟨11,.vt,false,false,some 32,some ([.comment],(some 1,false))⟩,⟨12,.ff,false,true,none,none⟩,⟨13,.cr,false,false,none,none⟩,⟨13,.cr,true,true,none,none⟩,⟨34,.other,false,false,some 32,some ([.comment],(some 1,false))⟩,⟨39,.other,false,false,some 32,some ([.comment],(some 1,false))⟩,⟨42,.other,false,false,some 32,some ([.comment],(some 1,false))⟩,⟨47,.other,false,false,some 32,some ([.comment],(some 1,false))⟩,⟨92,.other,false,false,some 34,some ([.comment],(some 1,false))⟩]⟩,⟨false,some 1,[],[⟨256,.other,false,false,some 32,some ([.comment],(some 1,false))⟩,⟨9,.ws,false,false,some 33,some ([],(some 1,false))⟩,⟨10,.lf,false,true,some 41,some ([],(some 1,false))⟩,⟨11,.vt,false,false,some 32,some ([.comment],(some 1,false))⟩,⟨12,.ff,false,true,some 42,some ([],(some 1,false))⟩,⟨13,.cr,false,false,some 43,some ([],(none,false))⟩,⟨13,.cr,true,true,some 44,some ([],(some 1,false))⟩,⟨34,.other,false,false,some 32,some ([.comment],(some 1,false))⟩,⟨39,.other,false,false,some 32,some ([.comment],(some 1,false))⟩,⟨42,.other,false,false,some 32,some ([.comment],(some 1,false))⟩,⟨47,.other,false,false,some 32,some ([.comment],(some 1,false))⟩,⟨92,.other,false,false,some 34,some ([.comment],(some 1,false))⟩]⟩,⟨false,none,[],[⟨256,.other,false,false,some 7,some ([.setEnt .internalNl,.cb,.code],(none,false))⟩,⟨9,.ws,false,false,some 8,some ([.setEnt .internalNl,.cb],(none,false))⟩,⟨10,.lf,false,true,some 7,some ([.setEnt .internalNl,.cb,.code],(none,false))⟩,⟨11,.vt,false,false,some 7,some ([.setEnt .internalNl,.cb,.code],(none,false))⟩,⟨12,.ff,false,true,some 7,some ([.setEnt .internalNl,.cb,.code],(none,false))⟩,⟨13,.cr,false,false,some 7,some ([.setEnt .internalNl,.cb,.code],(none,false))⟩,⟨13,.cr,true,true,some 7,some ([.setEnt .internalNl,.cb,.code],(none,false))⟩,⟨34,.other,false,false,none,some ([.setEnt .internalNl,.cb],(some 2,true))⟩,⟨39,.other,false,false,some 7,some ([.setEnt .internalNl,.cb,.code],(none,false))⟩,⟨42,.other,false,false,some 7,some ([.setEnt .internalNl,.cb,.code],(none,false))⟩,⟨47,.other,false,false,some 7,some ([.setEnt .internalNl,.cb,.code],(none,false))⟩,⟨92,.other,false,false,some 9,some ([.setEnt .internalNl,.cb],(none,false))⟩]⟩,⟨false,none,[],[⟨256,.other,false,false,some 7,some ([.setEnt .internalNl,.cb,.code],(none,false))⟩,⟨9,.ws,false,false,some 8,some ([.setEnt .internalNl,.cb],(none,false))⟩,⟨10,.lf,false,true,some 7,some ([.setEnt .internalNl,.cb,.code],(none,false))⟩,⟨11,.vt,false,false,some 7,some ([.setEnt .internalNl,.cb,.code],(none,false))⟩,⟨12,.ff,false,true,some 7,some ([.setEnt .internalNl,.cb,.code],(none,false))⟩,⟨13,.cr,false,false,some 7,some ([.setEnt .internalNl,.cb,.code],(none,false))⟩,⟨13,.cr,true,true,some 7,some ([.setEnt .internalNl,.cb,.code],(none,false))⟩,⟨34,.other,false,false,none,some ([.setEnt .internalNl,.cb],(some 2,true))⟩,⟨39,.other,false,false,some 7,some ([.setEnt .internalNl,.cb,.code],(none,false))⟩,⟨42,.other,false,false,some 7,some ([.setEnt .internalNl,.cb,.code],(none,false))⟩,⟨47,.other,false,false,some 7,some ([.setEnt .internalNl,.cb,.code],(none,false))⟩,⟨92,.other,false,false,some 9,some ([.setEnt .internalNl,.cb],(none,false))⟩]⟩,⟨false,none,[],[⟨256,.other,false,false,some 10,some ([.setEnt .internalNl,.cb,.code],(none,false))⟩,⟨9,.ws,false,false,some 11,some ([.setEnt .internalNl,.cb],(none,false))⟩,⟨10,.lf,false,true,some 10,some ([.setEnt .internalNl,.cb,.code],(none,false))⟩,⟨11,.vt,false,false,some 10,some ([.setEnt .internalNl,.cb,.code],(none,false))⟩,⟨12,.ff,false,true,some 10,some ([.setEnt .internalNl,.cb,.code],(none,false))⟩,⟨13,.cr,false,false,some 10,some ([.setEnt .internalNl,.cb,.code],(none,false))⟩,⟨13,.cr,true,true,some 10,some ([.setEnt .internalNl,.cb,.code],(none,false))⟩,⟨34,.other,false,false,some 10,some ([.setEnt .internalNl,.cb,.code],(none,false))⟩,⟨39,.other,false,false,none,some ([.setEnt .internalNl,.cb],(some 2,true))⟩,⟨42,.other,false,false,some 10,some ([.setEnt .internalNl,.cb,.code],(none,false))⟩,⟨47,.other,false,false,some 10,some ([.setEnt .internalNl,.cb,.code],(none,false))⟩,⟨92,.other,false,false,some 12,some ([.setEnt .internalNl,.cb],(none,false))⟩]⟩,⟨false,none,[],[⟨256,.other,false,false,some 10,some ([.setEnt .internalNl,.cb,.code],(none,false))⟩,⟨9,.ws,false,false,some 11,some ([.setEnt .internalNl,.cb],(none,false))⟩,⟨10,.lf,false,true,some 10,some ([.setEnt .internalNl,.cb,.code],(none,false))⟩,⟨11,.vt,false,false,some 10,some ([.setEnt .internalNl,.cb,.code],(none,false))⟩,⟨12,.ff,false,true,some 10,some ([.setEnt .internalNl,.cb,.code],(none,false))⟩,⟨13,.cr,false,false,some 10,some ([.setEnt .internalNl,.cb,.code],(none,false))⟩,⟨13,.cr,true,true,some 10,some ([.setEnt .internalNl,.cb,.code],(none,false))⟩,⟨34,.other,false,false,some 10,some ([.setEnt .internalNl,.cb,.code],(none,false))⟩,⟨39,.other,false,false,none,some ([.setEnt .internalNl,.cb],(some 2,true))⟩,⟨42,.other,false,false,some 10,some ([.setEnt .internalNl,.cb,.code],(none,false))⟩,⟨47,.other,false,false,some 10,some ([.setEnt .internalNl,.cb,.code],(none,false))⟩,⟨92,.other,false,false,some 12,some ([.setEnt .internalNl,.cb],(none,false))⟩]⟩,⟨false,none,[],[⟨256,.other,false,false,some 25,some ([.setEnt .internalNl,.cb,.comment],(none,false))⟩,⟨9,.ws,false,false,some 26,some ([.setEnt .internalNl,.cb],(none,false))⟩,⟨10,.lf,false,true,some 27,some ([.setEnt .internalNl,.cb],(none,false))⟩,⟨11,.vt,false,false,some 25,some ([.setEnt .internalNl,.cb,.comment],(none,false))⟩,⟨12,.ff,false,true,some 28,some ([.setEnt .internalNl,.cb],(none,false))⟩,⟨13,.cr,false,false,some 29,some ([.setEnt .internalNl,.cb],(none,false))⟩,⟨13,.cr,true,true,some 30,some ([.setEnt .internalNl,.cb],(none,false))⟩,⟨34,.other,false,false,some 25,some ([.setEnt .internalNl,.cb,.comment],(none,false))⟩,⟨39,.other,false,false,some 25,some ([.setEnt .internalNl,.cb,.comment],(none,false))⟩,⟨42,.other,false,false,some 31,some ([.setEnt .internalNl,.cb,.comment],(none,false))⟩,⟨47,.other,false,false,some 25,some ([.setEnt .internalNl,.cb,.comment],(none,false))⟩,⟨92,.other,false,false,some 25,some ([.setEnt .internalNl,.cb,.comment],(none,false))⟩]⟩,⟨false,none,[],[⟨256,.other,false,false,some 25,some ([.setEnt .internalNl,.cb,.comment],(none,false))⟩,⟨9,.ws,false,false,some 26,some ([.setEnt .internalNl,.cb],(none,false))⟩,⟨10,.lf,false,true,some 27,some ([.setEnt .internalNl,.cb],(none,false))⟩,⟨11,.vt,false,false,some 25,some ([.setEnt .internalNl,.cb,.comment],(none,false))⟩,⟨12,.ff,false,true,some 28,some ([.setEnt .internalNl,.cb],(none,false))⟩,⟨13,.cr,false,false,some 29,some ([.setEnt .internalNl,.cb],(none,false))⟩,⟨13,.cr,true,true,some 30,some ([.setEnt .internalNl,.cb],(none,false))⟩,⟨34,.other,false,false,some 25,some ([.setEnt .internalNl,.cb,.comment],(none,false))⟩,⟨39,.other,false,false,some 25,some ([.setEnt .internalNl,.cb,.comment],(none,false))⟩,⟨42,.other,false,false,some 31,some ([.setEnt .internalNl,.cb,.comment],(none,false))⟩,⟨47,.other,false,false,some 25,some ([.setEnt .internalNl,.cb,.comment],(none,false))⟩,⟨92,.other,false,false,some 25,some ([.setEnt .internalNl,.cb,.comment],(none,false))⟩]⟩,⟨false,some 1,[.setEnt .internalNl,.cb],[⟨256,.other,false,false,some 32,some ([.setEnt .internalNl,.cb,.comment],(some 1,false))⟩,⟨9,.ws,false,false,some 33,some ([.setEnt .internalNl,.cb],(some 1,false))⟩,⟨10,.lf,false,true,none,none⟩,⟨11,.vt,false,false,some 32,some ([.setEnt .internalNl,.cb,.comment],(some 1,false))⟩,⟨12,.ff,false,true,none,none⟩,⟨13,.cr,false,false,none,none⟩,⟨13,.cr,true,true,none,none⟩,⟨34,.other,false,false,some 32,some ([.setEnt .internalNl,.cb,.comment],(some 1,false))⟩,⟨39,.other,false,false,some 32,some ([.setEnt .internalNl,.cb,.comment],(some 1,false))⟩,⟨42,.other,false,false,some 32,some ([.setEnt .internalNl,.cb,.comment],(some 1,false))⟩,⟨47,.other,false,false,some 32,some ([.setEnt .internalNl,.cb,.comment],(some 1,false))⟩,⟨92,.other,false,false,some 34,some ([.setEnt .internalNl,.cb,.comment],(some 1,false))⟩]⟩,⟨false,some 1,[.setEnt .internalNl,.cb],[⟨256,.other,false,false,some 32,some ([.setEnt .internalNl,.cb,.comment],(some 1,false))⟩,⟨9,.ws,false,false,some 33,some ([.setEnt .internalNl,.cb],(some 1,false))⟩,⟨10,.lf,false,true,none,none⟩,⟨11,.vt,false,false,some 32,some ([.setEnt .internalNl,.cb,.comment],(some 1,false))⟩,⟨12,.ff,false,true,none,none⟩,⟨13,.cr,false,false,none,none⟩,⟨13,.cr,true,true,none,none⟩,⟨34,.other,false,false,some 32,some ([.setEnt .internalNl,.cb,.comment],(some 1,false))⟩,⟨39,.other,false,false,some 32,some ([.setEnt .internalNl,.cb,.comment],(some 1,false))⟩,⟨42,.other,false,false,some 32,some ([.setEnt .internalNl,.cb,.comment],(some 1,false))⟩,⟨47,.other,false,false,some 32,some ([.setEnt .internalNl,.cb,.comment],(some 1,false))⟩,⟨92,.other,false,false,some 34,some ([.setEnt .internalNl,.cb,.comment],(some 1,false))⟩]⟩,⟨false,none,[],[⟨256,.other,false,false,none,none⟩,⟨9,.ws,false,false,none,none⟩,⟨10,.lf,false,true,some 45,some ([],(some 1,false))⟩,⟨11,.vt,false,false,none,none⟩,⟨12,.ff,false,true,none,none⟩,⟨13,.cr,false,false,none,none⟩,⟨13,.cr,true,true,none,none⟩,⟨34,.other,false,false,none,none⟩,⟨39,.other,false,false,none,none⟩,⟨42,.other,false,false,none,none⟩,⟨47,.other,false,false,none,none⟩,⟨92,.other,false,false,none,none⟩]⟩,⟨false,some 1,[.setEnt .internalNl,.cb],[⟨256,.other,false,false,some 32,some ([.setEnt .internalNl,.cb,.comment],(some 1,false))⟩,⟨9,.ws,false,false,some 33,some ([.setEnt .internalNl,.cb],(some 1,false))⟩,⟨10,.lf,false,true,some 45,some ([],(some 1,false))⟩,⟨11,.vt,false,false,some 32,some ([.setEnt .internalNl,.cb,.comment],(some 1,false))⟩,⟨12,.ff,false,true,none,none⟩,⟨13,.cr,false,false,none,none⟩,⟨13,.cr,true,true,none,none⟩,⟨34,.other,false,false,some 32,some ([.setEnt .internalNl,.cb,.comment],(some 1,false))⟩,⟨39,.other,false,false,some 32,some ([.setEnt .internalNl,.cb,.comment],(some 1,false))⟩,⟨42,.other,false,false,some 32,some ([.setEnt .internalNl,.cb,.comment],(some 1,false))⟩,⟨47,.other,false,false,some 32,some ([.setEnt .internalNl,.cb,.comment],(some 1,false))⟩,⟨92,.other,false,false,some 34,some ([.setEnt .internalNl,.cb,.comment],(some 1,false))⟩]⟩,⟨false,some 1,[.setEnt .internalNl,.cb],[⟨256,.other,false,false,some 32,some ([.setEnt .internalNl,.cb,.comment],(some 1,false))⟩,⟨9,.ws,false,false,some 33,some ([.setEnt .internalNl,.cb],(some 1,false))⟩,⟨10,.lf,false,true,none,none⟩,⟨11,.vt,false,false,some 32,some ([.setEnt .internalNl,.cb,.comment],(some 1,false))⟩,⟨12,.ff,false,true,none,none⟩,⟨13,.cr,false,false,none,none⟩,⟨13,.cr,true,true,none,none⟩,⟨34,.other,false,false,some 32,some ([.setEnt .internalNl,.cb,.comment],(some 1,false))⟩,⟨39,.other,false,false,some 32,some ([.setEnt .internalNl,.cb,.comment],(some 1,false))⟩,⟨42,.other,false,false,some 32,some ([.setEnt .internalNl,.cb,.comment],(some 1,false))⟩,⟨47,.other,false,false,some 32,some ([.setEnt .internalNl,.cb,.comment],(some 1,false))⟩,⟨92,.other,false,false,some 34,some ([.setEnt .internalNl,.cb,.comment],(some 1,false))⟩]⟩]
theorem groovy_line_lfrOk : groovy_line_lrows.map (CA.prep groovy_line_lex) = groovy_line_lfr := by decide +kernel
def groovy_line_lTab : List CT := [(.node (.node (.node (.node (.node (.node (.node .leaf 128 [⟨⟨.code,[],.lcode,false,[],false⟩,false,false,[],none,none,none,false,false,false,none,false,⟨.lcode,none,false,.lblank⟩⟩] .leaf) 38019 [⟨⟨.code,[],.lcode,true,[],false⟩,false,false,[],none,none,none,false,false,false,none,false,⟨.lblank,none,false,.lblank⟩⟩] .leaf) 148108 [⟨⟨.code,[],.lcomment,false,[],false⟩,false,false,[],none,none,none,false,false,false,none,false,⟨.lcomment,none,false,.lblank⟩⟩] (.node .leaf 185487 [⟨⟨.code,[],.lcomment,true,[],false⟩,false,false,[],none,none,none,false,false,false,none,false,⟨.lblank,none,false,.lblank⟩⟩] .leaf)) 296088 [⟨⟨.code,[],.lblank,false,[],false⟩,false,false,[],none,none,none,false,false,false,none,false,⟨.lblank,none,false,.lblank⟩⟩] (.node (.node .leaf 332955 [⟨⟨.code,[],.lblank,true,[],false⟩,false,false,[],none,none,none,false,false,false,none,false,⟨.lblank,none,false,.lblank⟩⟩] .leaf) 1179872 [⟨⟨(.inside 0),[],.lcode,false,[],false⟩,false,false,[none],none,none,none,false,false,false,none,false,⟨.lcode,none,false,.lblank⟩⟩] (.node .leaf 1217763 [⟨⟨(.inside 0),[],.lcode,true,[],false⟩,false,false,[none],none,none,none,false,false,false,none,false,⟨.lblank,none,false,.lblank⟩⟩] .leaf))) 1327852 [⟨⟨(.inside 0),[],.lcomment,false,[],false⟩,false,false,[none],none,none,none,false,false,false,none,false,⟨.lcomment,none,false,.lblank⟩⟩] (.node (.node (.node (.node .leaf 1365231 [⟨⟨(.inside 0),[],.lcomment,true,[],false⟩,false,false,[none],none,none,none,false,false,false,none,false,⟨.lblank,none,false,.lblank⟩⟩] .leaf) 1475832 [⟨⟨(.inside 0),[],.lblank,false,[],false⟩,false,false,[none],none,none,none,false,false,false,none,false,⟨.lblank,none,false,.lblank⟩⟩] .leaf) 1769744 [⟨⟨.code,[47],.lcode,false,[],false⟩,false,false,[none],none,none,none,false,false,false,none,false,⟨.lcode,none,false,.lblank⟩⟩] (.node .leaf 20769801 [⟨⟨.code,[47],.lcode,false,[],false⟩,false,false,[some (9,(.ws,false))],none,none,none,false,false,false,none,false,⟨.lcode,none,false,.lblank⟩⟩] .leaf)) 21088052 [⟨⟨.code,[47],.lcomment,false,[],false⟩,false,false,[none],none,none,none,false,false,false,none,false,⟨.lcode,none,false,.lblank⟩⟩] (.node (.node .leaf 22179935 [⟨⟨(.inside 0),[],.lcode,false,[],false⟩,false,false,[some (10,(.lf,false))],none,none,none,false,false,false,none,false,⟨.lcode,none,false,.lblank⟩⟩] .leaf) 22217826 [⟨⟨(.inside 0),[],.lcode,true,[],false⟩,false,false,[some (10,(.lf,false))],none,none,none,false,false,false,none,false,⟨.lblank,none,false,.lblank⟩⟩] (.node .leaf 22327915 [⟨⟨(.inside 0),[],.lcomment,false,[],false⟩,false,false,[some (10,(.lf,false))],none,none,none,false,false,false,none,false,⟨.lcomment,none,false,.lblank⟩⟩] .leaf)))) 22365294 [⟨⟨(.inside 0),[],.lcomment,true,[],false⟩,false,false,[some (10,(.lf,false))],none,none,none,false,false,false,none,false,⟨.lblank,none,false,.lblank⟩⟩] (.node (.node (.node (.node (.node .leaf 22475895 [⟨⟨(.inside 0),[],.lblank,false,[],false⟩,false,false,[some (10,(.lf,false))],none,none,none,false,false,false,none,false,⟨.lblank,none,false,.lblank⟩⟩] .leaf) 22769807 [⟨⟨.code,[47],.lcode,false,[],false⟩,false,false,[some (10,(.lf,false))],none,none,none,false,false,false,none,false,⟨.lcode,none,false,.lblank⟩⟩] .leaf) 26179947 [⟨⟨(.inside 0),[],.lcode,false,[],false⟩,false,false,[some (12,(.ff,false))],none,none,none,false,false,false,none,false,⟨.lcode,none,false,.lblank⟩⟩] (.node .leaf 26217838 [⟨⟨(.inside 0),[],.lcode,true,[],false⟩,false,false,[some (12,(.ff,false))],none,none,none,false,false,false,none,false,⟨.lblank,none,false,.lblank⟩⟩] .leaf)) 26327927 [⟨⟨(.inside 0),[],.lcomment,false,[],false⟩,false,false,[some (12,(.ff,false))],none,none,none,false,false,false,none,false,⟨.lcomment,none,false,.lblank⟩⟩] (.node (.node .leaf 26365306 [⟨⟨(.inside 0),[],.lcomment,true,[],false⟩,false,false,[some (12,(.ff,false))],none,none,none,false,false,false,none,false,⟨.lblank,none,false,.lblank⟩⟩] .leaf) 26475907 [⟨⟨(.inside 0),[],.lblank,false,[],false⟩,false,false,[some (12,(.ff,false))],none,none,none,false,false,false,none,false,⟨.lblank,none,false,.lblank⟩⟩] (.node .leaf 26769819 [⟨⟨.code,[47],.lcode,false,[],false⟩,false,false,[some (12,(.ff,false))],none,none,none,false,false,false,none,false,⟨.lcode,none,false,.lblank⟩⟩] .leaf))) 27397582 [⟨⟨(.escapedCr 0),[],.lcode,true,[],false⟩,false,false,[some (12,(.ff,false))],none,none,none,false,false,false,none,false,⟨.lblank,none,false,.lblank⟩⟩] (.node (.node (.node (.node .leaf 27545050 [⟨⟨(.escapedCr 0),[],.lcomment,true,[],false⟩,false,false,[some (12,(.ff,false))],none,none,none,false,false,false,none,false,⟨.lblank,none,false,.lblank⟩⟩] .leaf) 28179953 [⟨⟨(.inside 0),[],.lcode,false,[],false⟩,false,false,[some (13,(.cr,false))],none,none,none,false,false,false,none,false,⟨.lcode,none,false,.lblank⟩⟩] .leaf) 28217844 [⟨⟨(.inside 0),[],.lcode,true,[],false⟩,false,false,[some (13,(.cr,false))],none,none,none,false,false,false,none,false,⟨.lblank,none,false,.lblank⟩⟩] (.node .leaf 28327933 [⟨⟨(.inside 0),[],.lcomment,false,[],false⟩,false,false,[some (13,(.cr,false))],none,none,none,false,false,false,none,false,⟨.lcomment,none,false,.lblank⟩⟩] .leaf)) 28365312 [⟨⟨(.inside 0),[],.lcomment,true,[],false⟩,false,false,[some (13,(.cr,false))],none,none,none,false,false,false,none,false,⟨.lblank,none,false,.lblank⟩⟩] (.node (.node .leaf 28475913 [⟨⟨(.inside 0),[],.lblank,false,[],false⟩,false,false,[some (13,(.cr,false))],none,none,none,false,false,false,none,false,⟨.lblank,none,false,.lblank⟩⟩] .leaf) 28769825 [⟨⟨.code,[47],.lcode,false,[],false⟩,false,false,[some (13,(.cr,false))],none,none,none,false,false,false,none,false,⟨.lcode,none,false,.lblank⟩⟩] (.node .leaf 29179956 [⟨⟨(.inside 0),[],.lcode,false,[],false⟩,false,false,[some (13,(.cr,true))],none,none,none,false,false,false,none,false,⟨.lcode,none,false,.lblank⟩⟩] .leaf))))) 29217847 [⟨⟨(.inside 0),[],.lcode,true,[],false⟩,false,false,[some (13,(.cr,true))],none,none,none,false,false,false,none,false,⟨.lblank,none,false,.lblank⟩⟩] (.node (.node (.node (.node (.node (.node .leaf 29327936 [⟨⟨(.inside 0),[],.lcomment,false,[],false⟩,false,false,[some (13,(.cr,true))],none,none,none,false,false,false,none,false,⟨.lcomment,none,false,.lblank⟩⟩] .leaf) 29365315 [⟨⟨(.inside 0),[],.lcomment,true,[],false⟩,false,false,[some (13,(.cr,true))],none,none,none,false,false,false,none,false,⟨.lblank,none,false,.lblank⟩⟩] .leaf) 29397588 [⟨⟨(.escapedCr 0),[],.lcode,true,[],false⟩,false,false,[some (13,(.cr,false))],none,none,none,false,false,false,none,false,⟨.lblank,none,false,.lblank⟩⟩] (.node .leaf 29475916 [⟨⟨(.inside 0),[],.lblank,false,[],false⟩,false,false,[some (13,(.cr,true))],none,none,none,false,false,false,none,false,⟨.lblank,none,false,.lblank⟩⟩] .leaf)) 29545056 [⟨⟨(.escapedCr 0),[],.lcomment,true,[],false⟩,false,false,[some (13,(.cr,false))],none,none,none,false,false,false,none,false,⟨.lblank,none,false,.lblank⟩⟩] (.node (.node .leaf 29769828 [⟨⟨.code,[47],.lcode,false,[],false⟩,false,false,[some (13,(.cr,true))],none,none,none,false,false,false,none,false,⟨.lcode,none,false,.lblank⟩⟩] .leaf) 30397591 [⟨⟨(.escapedCr 0),[],.lcode,true,[],false⟩,false,false,[some (13,(.cr,true))],none,none,none,false,false,false,none,false,⟨.lblank,none,false,.lblank⟩⟩] (.node .leaf 30545059 [⟨⟨(.escapedCr 0),[],.lcomment,true,[],false⟩,false,false,[some (13,(.cr,true))],none,none,none,false,false,false,none,false,⟨.lblank,none,false,.lblank⟩⟩] .leaf))) 40088109 [⟨⟨.code,[47],.lcomment,false,[],false⟩,false,false,[some (9,(.ws,false))],none,none,none,false,false,false,none,false,⟨.lcode,none,false,.lblank⟩⟩] (.node (.node (.node (.node .leaf 40406360 [⟨⟨.code,[47],.lblank,false,[],false⟩,false,false,[none],none,none,none,false,false,false,none,false,⟨.lcode,none,false,.lblank⟩⟩] .leaf) 42088115 [⟨⟨.code,[47],.lcomment,false,[],false⟩,false,false,[some (10,(.lf,false))],none,none,none,false,false,false,none,false,⟨.lcode,none,false,.lblank⟩⟩] .leaf) 46088127 [⟨⟨.code,[47],.lcomment,false,[],false⟩,false,false,[some (12,(.ff,false))],none,none,none,false,false,false,none,false,⟨.lcode,none,false,.lblank⟩⟩] (.node .leaf 48088133 [⟨⟨.code,[47],.lcomment,false,[],false⟩,false,false,[some (13,(.cr,false))],none,none,none,false,false,false,none,false,⟨.lcode,none,false,.lblank⟩⟩] .leaf)) 49088136 [⟨⟨.code,[47],.lcomment,false,[],false⟩,false,false,[some (13,(.cr,true))],none,none,none,false,false,false,none,false,⟨.lcode,none,false,.lblank⟩⟩] (.node (.node .leaf 59406417 [⟨⟨.code,[47],.lblank,false,[],false⟩,false,false,[some (9,(.ws,false))],none,none,none,false,false,false,none,false,⟨.lcode,none,false,.lblank⟩⟩] .leaf) 61406423 [⟨⟨.code,[47],.lblank,false,[],false⟩,false,false,[some (10,(.lf,false))],none,none,none,false,false,false,none,false,⟨.lcode,none,false,.lblank⟩⟩] (.node .leaf 65406435 [⟨⟨.code,[47],.lblank,false,[],false⟩,false,false,[some (12,(.ff,false))],none,none,none,false,false,false,none,false,⟨.lcode,none,false,.lblank⟩⟩] .leaf)))) 67406441 [⟨⟨.code,[47],.lblank,false,[],false⟩,false,false,[some (13,(.cr,false))],none,none,none,false,false,false,none,false,⟨.lcode,none,false,.lblank⟩⟩] (.node (.node (.node (.node (.node .leaf 68406444 [⟨⟨.code,[47],.lblank,false,[],false⟩,false,false,[some (13,(.cr,true))],none,none,none,false,false,false,none,false,⟨.lcode,none,false,.lblank⟩⟩] .leaf) 70769951 [⟨⟨.code,[47],.lcode,false,[],false⟩,false,false,[some (34,(.other,false))],none,none,none,false,false,false,none,false,⟨.lcode,none,false,.lblank⟩⟩] .leaf) 80769981 [⟨⟨.code,[47],.lcode,false,[],false⟩,false,false,[some (39,(.other,false))],none,none,none,false,false,false,none,false,⟨.lcode,none,false,.lblank⟩⟩] (.node .leaf 90088259 [⟨⟨.code,[47],.lcomment,false,[],false⟩,false,false,[some (34,(.other,false))],none,none,none,false,false,false,none,false,⟨.lcode,none,false,.lblank⟩⟩] .leaf)) 100088289 [⟨⟨.code,[47],.lcomment,false,[],false⟩,false,false,[some (39,(.other,false))],none,none,none,false,false,false,none,false,⟨.lcode,none,false,.lblank⟩⟩] (.node (.node .leaf 109406567 [⟨⟨.code,[47],.lblank,false,[],false⟩,false,false,[some (34,(.other,false))],none,none,none,false,false,false,none,false,⟨.lcode,none,false,.lblank⟩⟩] .leaf) 119406597 [⟨⟨.code,[47],.lblank,false,[],false⟩,false,false,[some (39,(.other,false))],none,none,none,false,false,false,none,false,⟨.lcode,none,false,.lblank⟩⟩] (.node .leaf 157975223 [⟨⟨(.inside 0),[92],.lcode,false,[],false⟩,false,false,[none],none,none,none,false,false,false,none,false,⟨.lcode,none,false,.lblank⟩⟩] .leaf))) 177294043 [⟨⟨(.inside 0),[92],.lcomment,false,[],false⟩,false,false,[none],none,none,none,false,false,false,none,false,⟨.lcomment,none,false,.lblank⟩⟩] (.node (.node (.node (.node .leaf 186770299 [⟨⟨.code,[47],.lcode,false,[],false⟩,false,false,[some (92,(.other,false))],none,none,none,false,false,false,none,false,⟨.lcode,none,false,.lblank⟩⟩] .leaf) 196612351 [⟨⟨(.inside 0),[92],.lblank,false,[],false⟩,false,false,[none],none,none,none,false,false,false,none,false,⟨.lcomment,none,false,.lblank⟩⟩] .leaf) 206088607 [⟨⟨.code,[47],.lcomment,false,[],false⟩,false,false,[some (92,(.other,false))],none,none,none,false,false,false,none,false,⟨.lcode,none,false,.lblank⟩⟩] (.node .leaf 225406915 [⟨⟨.code,[47],.lblank,false,[],false⟩,false,false,[some (92,(.other,false))],none,none,none,false,false,false,none,false,⟨.lcode,none,false,.lblank⟩⟩] .leaf)) 351158815 [⟨⟨(.escapedCr 0),[92],.lblank,false,[],false⟩,false,false,[none],none,none,none,false,false,false,none,false,⟨.lcomment,none,false,.lblank⟩⟩] (.node (.node .leaf 514771283 [⟨⟨.code,[47],.lcode,false,[],false⟩,false,false,[some (256,(.other,false))],none,none,none,false,false,false,none,false,⟨.lcode,none,false,.lblank⟩⟩] .leaf) 534089591 [⟨⟨.code,[47],.lcomment,false,[],false⟩,false,false,[some (256,(.other,false))],none,none,none,false,false,false,none,false,⟨.lcode,none,false,.lblank⟩⟩] (.node .leaf 553407899 [⟨⟨.code,[47],.lblank,false,[],false⟩,false,false,[some (256,(.other,false))],none,none,none,false,false,false,none,false,⟨.lcode,none,false,.lblank⟩⟩] .leaf)))))),(.node (.node .leaf 128 [⟨⟨.code,[],.lcode,false,[],false⟩,false,false,[],none,none,none,false,false,false,none,false,⟨.lcode,some (.own 0),false,.lblank⟩⟩] .leaf) 148108 [⟨⟨.code,[],.lcomment,false,[],false⟩,false,false,[],none,none,none,false,false,false,none,false,⟨.lcomment,some (.own 0),false,.lblank⟩⟩] (.node .leaf 296088 [⟨⟨.code,[],.lblank,false,[],false⟩,false,false,[],none,none,none,false,false,false,none,false,⟨.lblank,some (.own 0),false,.lblank⟩⟩] .leaf)),(.node (.node .leaf 160 [⟨⟨.code,[],.lcode,false,[],false⟩,true,false,[],none,none,none,false,false,false,none,false,⟨.lcode,some .newline,false,.lblank⟩⟩] .leaf) 148140 [⟨⟨.code,[],.lcomment,false,[],false⟩,true,false,[],none,none,none,false,false,false,none,false,⟨.lcomment,some .newline,false,.lblank⟩⟩] (.node .leaf 296120 [⟨⟨.code,[],.lblank,false,[],false⟩,true,false,[],none,none,none,false,false,false,none,false,⟨.lblank,some .newline,false,.lblank⟩⟩] .leaf)),(.node (.node .leaf 37011 [⟨⟨.code,[],.lcode,true,[],false⟩,false,true,[],none,none,none,false,false,false,none,false,⟨.lcode,some .newline,false,.lblank⟩⟩] .leaf) 184991 [⟨⟨.code,[],.lcomment,true,[],false⟩,false,true,[],none,none,none,false,false,false,none,false,⟨.lcomment,some .newline,false,.lblank⟩⟩] (.node .leaf 332971 [⟨⟨.code,[],.lblank,true,[],false⟩,false,true,[],none,none,none,false,false,false,none,false,⟨.lblank,some .newline,false,.lblank⟩⟩] .leaf)),(.node .leaf 10027952 [⟨⟨(.inside 3),[],.lcode,false,[],false⟩,false,false,[],none,none,none,false,false,false,none,false,⟨.lcode,some (.own 3),false,.lblank⟩⟩] .leaf),(.node .leaf 7078592 [⟨⟨(.inside 2),[],.lcode,false,[],false⟩,false,false,[],none,none,none,false,false,false,none,false,⟨.lcode,some (.own 3),false,.lblank⟩⟩] .leaf),(.node (.node .leaf 1769746 [⟨⟨.code,[47],.lcode,false,[],false⟩,false,false,[],none,none,none,false,false,true,none,false,⟨.lcode,some (.own 3),false,.lblank⟩⟩] .leaf) 21088566 [⟨⟨.code,[47],.lcomment,false,[],false⟩,false,false,[],none,none,none,false,false,true,none,false,⟨.lcomment,some (.own 3),false,.lblank⟩⟩] (.node .leaf 40407386 [⟨⟨.code,[47],.lblank,false,[],false⟩,false,false,[],none,none,none,false,false,true,none,false,⟨.lblank,some (.own 3),false,.lblank⟩⟩] .leaf)),(.node (.node .leaf 10655941 [⟨⟨(.inside 3),[],.lcode,false,[],false⟩,false,false,[],some 4,some ⟨(.inside 3),[],.lcode,false,[],false⟩,none,false,false,false,none,false,⟨.lcode,some (.own 3),false,.lblank⟩⟩] .leaf) 10655949 [⟨⟨(.inside 3),[],.lcode,false,[],false⟩,false,false,[],some 4,some ⟨(.inside 3),[],.lcode,false,[],false⟩,none,true,false,false,none,false,⟨.lcode,some .internalNl,false,.lblank⟩⟩] .leaf),(.node (.node .leaf 10655941 [⟨⟨(.inside 3),[],.lcode,false,[],false⟩,false,false,[],some 4,some ⟨(.inside 3),[],.lcode,false,[],false⟩,none,false,false,false,none,false,⟨.lcode,some (.own 3),false,.lblank⟩⟩] .leaf) 10655949 [⟨⟨(.inside 3),[],.lcode,false,[],false⟩,false,false,[],some 4,some ⟨(.inside 3),[],.lcode,false,[],false⟩,none,true,false,false,none,false,⟨.lcode,some .internalNl,false,.lblank⟩⟩] (.node .leaf 10951909 [⟨⟨(.inside 3),[],.lblank,false,[],false⟩,false,false,[],some 4,some ⟨(.inside 3),[],.lcode,false,[],false⟩,none,true,false,false,none,false,⟨.lblank,some .internalNl,false,.lblank⟩⟩] .leaf)),(.node (.node (.node .leaf 1317701692 [⟨⟨(.inside 3),[92],.lcode,false,[],false⟩,false,false,[],some 4,some ⟨(.inside 3),[],.lcode,false,[],false⟩,none,false,false,false,none,false,⟨.lcode,some (.own 3),false,.lblank⟩⟩] .leaf) 1317701700 [⟨⟨(.inside 3),[92],.lcode,false,[],false⟩,false,false,[],some 4,some ⟨(.inside 3),[],.lcode,false,[],false⟩,none,true,false,false,none,false,⟨.lcode,some .internalNl,false,.lblank⟩⟩] .leaf) 1356339340 [⟨⟨(.inside 3),[92],.lblank,false,[],false⟩,false,false,[],some 4,some ⟨(.inside 3),[],.lcode,false,[],false⟩,none,true,false,false,none,false,⟨.lblank,some .internalNl,false,.lblank⟩⟩] (.node .leaf 1510885804 [⟨⟨(.escapedCr 3),[92],.lblank,false,[],false⟩,false,false,[],some 4,some ⟨(.inside 3),[],.lcode,false,[],false⟩,none,true,false,false,none,false,⟨.lblank,some .internalNl,false,.lblank⟩⟩] .leaf)),(.node (.node .leaf 7522021 [⟨⟨(.inside 2),[],.lcode,false,[],false⟩,false,false,[],some 4,some ⟨(.inside 2),[],.lcode,false,[],false⟩,none,false,false,false,none,false,⟨.lcode,some (.own 3),false,.lblank⟩⟩] .leaf) 7522029 [⟨⟨(.inside 2),[],.lcode,false,[],false⟩,false,false,[],some 4,some ⟨(.inside 2),[],.lcode,false,[],false⟩,none,true,false,false,none,false,⟨.lcode,some .internalNl,false,.lblank⟩⟩] .leaf),(.node (.node .leaf 7522021 [⟨⟨(.inside 2),[],.lcode,false,[],false⟩,false,false,[],some 4,some ⟨(.inside 2),[],.lcode,false,[],false⟩,none,false,false,false,none,false,⟨.lcode,some (.own 3),false,.lblank⟩⟩] .leaf) 7522029 [⟨⟨(.inside 2),[],.lcode,false,[],false⟩,false,false,[],some 4,some ⟨(.inside 2),[],.lcode,false,[],false⟩,none,true,false,false,none,false,⟨.lcode,some .internalNl,false,.lblank⟩⟩] (.node .leaf 7817989 [⟨⟨(.inside 2),[],.lblank,false,[],false⟩,false,false,[],some 4,some ⟨(.inside 2),[],.lcode,false,[],false⟩,none,true,false,false,none,false,⟨.lblank,some .internalNl,false,.lblank⟩⟩] .leaf)),(.node (.node (.node .leaf 931150972 [⟨⟨(.inside 2),[92],.lcode,false,[],false⟩,false,false,[],some 4,some ⟨(.inside 2),[],.lcode,false,[],false⟩,none,false,false,false,none,false,⟨.lcode,some (.own 3),false,.lblank⟩⟩] .leaf) 931150980 [⟨⟨(.inside 2),[92],.lcode,false,[],false⟩,false,false,[],some 4,some ⟨(.inside 2),[],.lcode,false,[],false⟩,none,true,false,false,none,false,⟨.lcode,some .internalNl,false,.lblank⟩⟩] .leaf) 969788620 [⟨⟨(.inside 2),[92],.lblank,false,[],false⟩,false,false,[],some 4,some ⟨(.inside 2),[],.lcode,false,[],false⟩,none,true,false,false,none,false,⟨.lblank,some .internalNl,false,.lblank⟩⟩] (.node .leaf 1124335084 [⟨⟨(.escapedCr 2),[92],.lblank,false,[],false⟩,false,false,[],some 4,some ⟨(.inside 2),[],.lcode,false,[],false⟩,none,true,false,false,none,false,⟨.lblank,some .internalNl,false,.lblank⟩⟩] .leaf)),(.node (.node .leaf 610242271 [⟨⟨(.inside 1),[],.lcode,false,[],false⟩,false,false,[],some 4,some ⟨.code,[47],.lcode,false,[],false⟩,some ([(42,(.other,false))],false),false,false,false,none,false,⟨.lcode,some (.own 3),false,.lblank⟩⟩] .leaf) 611599119 [⟨⟨(.inside 1),[],.lcomment,false,[],false⟩,false,false,[],some 4,some ⟨.code,[47],.lcomment,false,[],false⟩,some ([(42,(.other,false))],false),false,false,false,none,false,⟨.lcomment,some (.own 3),false,.lblank⟩⟩] (.node .leaf 612807987 [⟨⟨(.inside 1),[],.lcomment,false,[],false⟩,false,false,[],some 4,some ⟨.code,[47],.lblank,false,[],false⟩,some ([(42,(.other,false))],false),false,false,false,none,false,⟨.lcomment,some (.own 3),false,.lblank⟩⟩] .leaf)),(.node (.node .leaf 1179872 [⟨⟨(.inside 0),[],.lcode,false,[],false⟩,false,false,[],none,none,none,false,false,false,none,false,⟨.lcode,some (.own 3),false,.lblank⟩⟩] .leaf) 1327852 [⟨⟨(.inside 0),[],.lcomment,false,[],false⟩,false,false,[],none,none,none,false,false,false,none,false,⟨.lcomment,some (.own 3),false,.lblank⟩⟩] .leaf),(.node (.node .leaf 10655941 [⟨⟨(.inside 3),[],.lcode,false,[],false⟩,false,false,[],some 4,some ⟨(.inside 3),[],.lcode,false,[],false⟩,none,false,false,false,none,false,⟨.lcode,some (.own 3),false,.lblank⟩⟩] .leaf) 10655949 [⟨⟨(.inside 3),[],.lcode,false,[],false⟩,false,false,[],some 4,some ⟨(.inside 3),[],.lcode,false,[],false⟩,none,true,false,false,none,false,⟨.lcode,some .internalNl,false,.lblank⟩⟩] .leaf),(.node (.node .leaf 10692808 [⟨⟨(.inside 3),[],.lcode,true,[],false⟩,false,false,[],some 4,some ⟨(.inside 3),[],.lcode,false,[],false⟩,none,false,false,false,none,false,⟨.lcode,some (.own 3),false,.lblank⟩⟩] .leaf) 10692816 [⟨⟨(.inside 3),[],.lcode,true,[],false⟩,false,false,[],some 4,some ⟨(.inside 3),[],.lcode,false,[],false⟩,none,true,false,false,none,false,⟨.lcode,some .internalNl,false,.lblank⟩⟩] (.node .leaf 10988776 [⟨⟨(.inside 3),[],.lblank,true,[],false⟩,false,false,[],some 4,some ⟨(.inside 3),[],.lcode,false,[],false⟩,none,true,false,false,none,false,⟨.lblank,some .internalNl,false,.lblank⟩⟩] .leaf)),(.node (.node .leaf 10692808 [⟨⟨(.inside 3),[],.lcode,true,[],false⟩,false,false,[],some 4,some ⟨(.inside 3),[],.lcode,false,[],false⟩,none,false,false,false,none,false,⟨.lcode,some (.own 3),false,.lblank⟩⟩] .leaf) 10692816 [⟨⟨(.inside 3),[],.lcode,true,[],false⟩,false,false,[],some 4,some ⟨(.inside 3),[],.lcode,false,[],false⟩,none,true,false,false,none,false,⟨.lcode,some .internalNl,false,.lblank⟩⟩] (.node .leaf 10988776 [⟨⟨(.inside 3),[],.lblank,true,[],false⟩,false,false,[],some 4,some ⟨(.inside 3),[],.lcode,false,[],false⟩,none,true,false,false,none,false,⟨.lblank,some .internalNl,false,.lblank⟩⟩] .leaf)),(.node (.node .leaf 11835717 [⟨⟨(.escapedCr 3),[],.lcode,false,[],false⟩,true,false,[],some 4,some ⟨(.inside 3),[],.lcode,false,[],false⟩,none,false,false,false,none,false,⟨.lcode,some (.own 3),false,.lblank⟩⟩] .leaf) 11835725 [⟨⟨(.escapedCr 3),[],.lcode,false,[],false⟩,true,false,[],some 4,some ⟨(.inside 3),[],.lcode,false,[],false⟩,none,true,false,false,none,false,⟨.lcode,some .internalNl,false,.lblank⟩⟩] (.node .leaf 12131685 [⟨⟨(.escapedCr 3),[],.lblank,false,[],false⟩,true,false,[],some 4,some ⟨(.inside 3),[],.lcode,false,[],false⟩,none,true,false,false,none,false,⟨.lblank,some .internalNl,false,.lblank⟩⟩] .leaf)),(.node (.node .leaf 11872568 [⟨⟨(.escapedCr 3),[],.lcode,true,[],false⟩,false,true,[],some 4,some ⟨(.inside 3),[],.lcode,false,[],false⟩,none,false,false,false,none,false,⟨.lcode,some (.own 3),false,.lblank⟩⟩] .leaf) 11872576 [⟨⟨(.escapedCr 3),[],.lcode,true,[],false⟩,false,true,[],some 4,some ⟨(.inside 3),[],.lcode,false,[],false⟩,none,true,false,false,none,false,⟨.lcode,some .internalNl,false,.lblank⟩⟩] (.node .leaf 12168536 [⟨⟨(.escapedCr 3),[],.lblank,true,[],false⟩,false,true,[],some 4,some ⟨(.inside 3),[],.lcode,false,[],false⟩,none,true,false,false,none,false,⟨.lblank,some .internalNl,false,.lblank⟩⟩] .leaf)),(.node (.node .leaf 7522021 [⟨⟨(.inside 2),[],.lcode,false,[],false⟩,false,false,[],some 4,some ⟨(.inside 2),[],.lcode,false,[],false⟩,none,false,false,false,none,false,⟨.lcode,some (.own 3),false,.lblank⟩⟩] .leaf) 7522029 [⟨⟨(.inside 2),[],.lcode,false,[],false⟩,false,false,[],some 4,some ⟨(.inside 2),[],.lcode,false,[],false⟩,none,true,false,false,none,false,⟨.lcode,some .internalNl,false,.lblank⟩⟩] .leaf),(.node (.node .leaf 7558888 [⟨⟨(.inside 2),[],.lcode,true,[],false⟩,false,false,[],some 4,some ⟨(.inside 2),[],.lcode,false,[],false⟩,none,false,false,false,none,false,⟨.lcode,some (.own 3),false,.lblank⟩⟩] .leaf) 7558896 [⟨⟨(.inside 2),[],.lcode,true,[],false⟩,false,false,[],some 4,some ⟨(.inside 2),[],.lcode,false,[],false⟩,none,true,false,false,none,false,⟨.lcode,some .internalNl,false,.lblank⟩⟩] (.node .leaf 7854856 [⟨⟨(.inside 2),[],.lblank,true,[],false⟩,false,false,[],some 4,some ⟨(.inside 2),[],.lcode,false,[],false⟩,none,true,false,false,none,false,⟨.lblank,some .internalNl,false,.lblank⟩⟩] .leaf)),(.node (.node .leaf 7558888 [⟨⟨(.inside 2),[],.lcode,true,[],false⟩,false,false,[],some 4,some ⟨(.inside 2),[],.lcode,false,[],false⟩,none,false,false,false,none,false,⟨.lcode,some (.own 3),false,.lblank⟩⟩] .leaf) 7558896 [⟨⟨(.inside 2),[],.lcode,true,[],false⟩,false,false,[],some 4,some ⟨(.inside 2),[],.lcode,false,[],false⟩,none,true,false,false,none,false,⟨.lcode,some .internalNl,false,.lblank⟩⟩] (.node .leaf 7854856 [⟨⟨(.inside 2),[],.lblank,true,[],false⟩,false,false,[],some 4,some ⟨(.inside 2),[],.lcode,false,[],false⟩,none,true,false,false,none,false,⟨.lblank,some .internalNl,false,.lblank⟩⟩] .leaf)),(.node (.node .leaf 8701797 [⟨⟨(.escapedCr 2),[],.lcode,false,[],false⟩,true,false,[],some 4,some ⟨(.inside 2),[],.lcode,false,[],false⟩,none,false,false,false,none,false,⟨.lcode,some (.own 3),false,.lblank⟩⟩] .leaf) 8701805 [⟨⟨(.escapedCr 2),[],.lcode,false,[],false⟩,true,false,[],some 4,some ⟨(.inside 2),[],.lcode,false,[],false⟩,none,true,false,false,none,false,⟨.lcode,some .internalNl,false,.lblank⟩⟩] (.node .leaf 8997765 [⟨⟨(.escapedCr 2),[],.lblank,false,[],false⟩,true,false,[],some 4,some ⟨(.inside 2),[],.lcode,false,[],false⟩,none,true,false,false,none,false,⟨.lblank,some .internalNl,false,.lblank⟩⟩] .leaf)),(.node (.node .leaf 8738648 [⟨⟨(.escapedCr 2),[],.lcode,true,[],false⟩,false,true,[],some 4,some ⟨(.inside 2),[],.lcode,false,[],false⟩,none,false,false,false,none,false,⟨.lcode,some (.own 3),false,.lblank⟩⟩] .leaf) 8738656 [⟨⟨(.escapedCr 2),[],.lcode,true,[],false⟩,false,true,[],some 4,some ⟨(.inside 2),[],.lcode,false,[],false⟩,none,true,false,false,none,false,⟨.lcode,some .internalNl,false,.lblank⟩⟩] (.node .leaf 9034616 [⟨⟨(.escapedCr 2),[],.lblank,true,[],false⟩,false,true,[],some 4,some ⟨(.inside 2),[],.lcode,false,[],false⟩,none,true,false,false,none,false,⟨.lblank,some .internalNl,false,.lblank⟩⟩] .leaf)),(.node (.node (.node .leaf 610242271 [⟨⟨(.inside 1),[],.lcode,false,[],false⟩,false,false,[],some 4,some ⟨.code,[47],.lcode,false,[],false⟩,some ([(42,(.other,false))],false),false,false,false,none,false,⟨.lcode,some (.own 3),false,.lblank⟩⟩] .leaf) 610390259 [⟨⟨(.inside 1),[],.lcomment,false,[],false⟩,false,false,[],some 4,some ⟨.code,[47],.lcode,false,[],false⟩,some ([(42,(.other,false))],false),true,false,false,none,false,⟨.lcomment,some .internalNl,false,.lblank⟩⟩] (.node .leaf 611599119 [⟨⟨(.inside 1),[],.lcomment,false,[],false⟩,false,false,[],some 4,some ⟨.code,[47],.lcomment,false,[],false⟩,some ([(42,(.other,false))],false),false,false,false,none,false,⟨.lcomment,some (.own 3),false,.lblank⟩⟩] .leaf)) 611599127 [⟨⟨(.inside 1),[],.lcomment,false,[],false⟩,false,false,[],some 4,some ⟨.code,[47],.lcomment,false,[],false⟩,some ([(42,(.other,false))],false),true,false,false,none,false,⟨.lcomment,some .internalNl,false,.lblank⟩⟩] (.node (.node .leaf 612807987 [⟨⟨(.inside 1),[],.lcomment,false,[],false⟩,false,false,[],some 4,some ⟨.code,[47],.lblank,false,[],false⟩,some ([(42,(.other,false))],false),false,false,false,none,false,⟨.lcomment,some (.own 3),false,.lblank⟩⟩] .leaf) 612807995 [⟨⟨(.inside 1),[],.lcomment,false,[],false⟩,false,false,[],some 4,some ⟨.code,[47],.lblank,false,[],false⟩,some ([(42,(.other,false))],false),true,false,false,none,false,⟨.lcomment,some .internalNl,false,.lblank⟩⟩] .leaf)),(.node (.node (.node (.node .leaf 610242271 [⟨⟨(.inside 1),[],.lcode,false,[],false⟩,false,false,[],some 4,some ⟨.code,[47],.lcode,false,[],false⟩,some ([(42,(.other,false))],false),false,false,false,none,false,⟨.lcode,some (.own 3),false,.lblank⟩⟩] .leaf) 610390259 [⟨⟨(.inside 1),[],.lcomment,false,[],false⟩,false,false,[],some 4,some ⟨.code,[47],.lcode,false,[],false⟩,some ([(42,(.other,false))],false),true,false,false,none,false,⟨.lcomment,some .internalNl,false,.lblank⟩⟩] .leaf) 610538239 [⟨⟨(.inside 1),[],.lblank,false,[],false⟩,false,false,[],some 4,some ⟨.code,[47],.lcode,false,[],false⟩,some ([(42,(.other,false))],false),true,false,false,none,false,⟨.lblank,some .internalNl,false,.lblank⟩⟩] (.node .leaf 611599119 [⟨⟨(.inside 1),[],.lcomment,false,[],false⟩,false,false,[],some 4,some ⟨.code,[47],.lcomment,false,[],false⟩,some ([(42,(.other,false))],false),false,false,false,none,false,⟨.lcomment,some (.own 3),false,.lblank⟩⟩] .leaf)) 611599127 [⟨⟨(.inside 1),[],.lcomment,false,[],false⟩,false,false,[],some 4,some ⟨.code,[47],.lcomment,false,[],false⟩,some ([(42,(.other,false))],false),true,false,false,none,false,⟨.lcomment,some .internalNl,false,.lblank⟩⟩] (.node (.node (.node .leaf 611747107 [⟨⟨(.inside 1),[],.lblank,false,[],false⟩,false,false,[],some 4,some ⟨.code,[47],.lcomment,false,[],false⟩,some ([(42,(.other,false))],false),true,false,false,none,false,⟨.lblank,some .internalNl,false,.lblank⟩⟩] .leaf) 612807987 [⟨⟨(.inside 1),[],.lcomment,false,[],false⟩,false,false,[],some 4,some ⟨.code,[47],.lblank,false,[],false⟩,some ([(42,(.other,false))],false),false,false,false,none,false,⟨.lcomment,some (.own 3),false,.lblank⟩⟩] .leaf) 612807995 [⟨⟨(.inside 1),[],.lcomment,false,[],false⟩,false,false,[],some 4,some ⟨.code,[47],.lblank,false,[],false⟩,some ([(42,(.other,false))],false),true,false,false,none,false,⟨.lcomment,some .internalNl,false,.lblank⟩⟩] (.node .leaf 612955975 [⟨⟨(.inside 1),[],.lblank,false,[],false⟩,false,false,[],some 4,some ⟨.code,[47],.lblank,false,[],false⟩,some ([(42,(.other,false))],false),true,false,false,none,false,⟨.lblank,some .internalNl,false,.lblank⟩⟩] .leaf))),(.node (.node (.node (.node .leaf 610279138 [⟨⟨(.inside 1),[],.lcode,true,[],false⟩,false,false,[],some 4,some ⟨.code,[47],.lcode,false,[],false⟩,some ([(42,(.other,false))],false),false,false,false,none,false,⟨.lcode,some (.own 3),false,.lblank⟩⟩] .leaf) 610427126 [⟨⟨(.inside 1),[],.lcomment,true,[],false⟩,false,false,[],some 4,some ⟨.code,[47],.lcode,false,[],false⟩,some ([(42,(.other,false))],false),true,false,false,none,false,⟨.lcomment,some .internalNl,false,.lblank⟩⟩] .leaf) 610575106 [⟨⟨(.inside 1),[],.lblank,true,[],false⟩,false,false,[],some 4,some ⟨.code,[47],.lcode,false,[],false⟩,some ([(42,(.other,false))],false),true,false,false,none,false,⟨.lblank,some .internalNl,false,.lblank⟩⟩] (.node .leaf 611635986 [⟨⟨(.inside 1),[],.lcomment,true,[],false⟩,false,false,[],some 4,some ⟨.code,[47],.lcomment,false,[],false⟩,some ([(42,(.other,false))],false),false,false,false,none,false,⟨.lcomment,some (.own 3),false,.lblank⟩⟩] .leaf)) 611635994 [⟨⟨(.inside 1),[],.lcomment,true,[],false⟩,false,false,[],some 4,some ⟨.code,[47],.lcomment,false,[],false⟩,some ([(42,(.other,false))],false),true,false,false,none,false,⟨.lcomment,some .internalNl,false,.lblank⟩⟩] (.node (.node (.node .leaf 611783974 [⟨⟨(.inside 1),[],.lblank,true,[],false⟩,false,false,[],some 4,some ⟨.code,[47],.lcomment,false,[],false⟩,some ([(42,(.other,false))],false),true,false,false,none,false,⟨.lblank,some .internalNl,false,.lblank⟩⟩] .leaf) 612844854 [⟨⟨(.inside 1),[],.lcomment,true,[],false⟩,false,false,[],some 4,some ⟨.code,[47],.lblank,false,[],false⟩,some ([(42,(.other,false))],false),false,false,false,none,false,⟨.lcomment,some (.own 3),false,.lblank⟩⟩] .leaf) 612844862 [⟨⟨(.inside 1),[],.lcomment,true,[],false⟩,false,false,[],some 4,some ⟨.code,[47],.lblank,false,[],false⟩,some ([(42,(.other,false))],false),true,false,false,none,false,⟨.lcomment,some .internalNl,false,.lblank⟩⟩] (.node .leaf 612992842 [⟨⟨(.inside 1),[],.lblank,true,[],false⟩,false,false,[],some 4,some ⟨.code,[47],.lblank,false,[],false⟩,some ([(42,(.other,false))],false),true,false,false,none,false,⟨.lblank,some .internalNl,false,.lblank⟩⟩] .leaf))),(.node (.node (.node (.node .leaf 610279138 [⟨⟨(.inside 1),[],.lcode,true,[],false⟩,false,false,[],some 4,some ⟨.code,[47],.lcode,false,[],false⟩,some ([(42,(.other,false))],false),false,false,false,none,false,⟨.lcode,some (.own 3),false,.lblank⟩⟩] .leaf) 610427126 [⟨⟨(.inside 1),[],.lcomment,true,[],false⟩,false,false,[],some 4,some ⟨.code,[47],.lcode,false,[],false⟩,some ([(42,(.other,false))],false),true,false,false,none,false,⟨.lcomment,some .internalNl,false,.lblank⟩⟩] .leaf) 610575106 [⟨⟨(.inside 1),[],.lblank,true,[],false⟩,false,false,[],some 4,some ⟨.code,[47],.lcode,false,[],false⟩,some ([(42,(.other,false))],false),true,false,false,none,false,⟨.lblank,some .internalNl,false,.lblank⟩⟩] (.node .leaf 611635986 [⟨⟨(.inside 1),[],.lcomment,true,[],false⟩,false,false,[],some 4,some ⟨.code,[47],.lcomment,false,[],false⟩,some ([(42,(.other,false))],false),false,false,false,none,false,⟨.lcomment,some (.own 3),false,.lblank⟩⟩] .leaf)) 611635994 [⟨⟨(.inside 1),[],.lcomment,true,[],false⟩,false,false,[],some 4,some ⟨.code,[47],.lcomment,false,[],false⟩,some ([(42,(.other,false))],false),true,false,false,none,false,⟨.lcomment,some .internalNl,false,.lblank⟩⟩] (.node (.node (.node .leaf 611783974 [⟨⟨(.inside 1),[],.lblank,true,[],false⟩,false,false,[],some 4,some ⟨.code,[47],.lcomment,false,[],false⟩,some ([(42,(.other,false))],false),true,false,false,none,false,⟨.lblank,some .internalNl,false,.lblank⟩⟩] .leaf) 612844854 [⟨⟨(.inside 1),[],.lcomment,true,[],false⟩,false,false,[],some 4,some ⟨.code,[47],.lblank,false,[],false⟩,some ([(42,(.other,false))],false),false,false,false,none,false,⟨.lcomment,some (.own 3),false,.lblank⟩⟩] .leaf) 612844862 [⟨⟨(.inside 1),[],.lcomment,true,[],false⟩,false,false,[],some 4,some ⟨.code,[47],.lblank,false,[],false⟩,some ([(42,(.other,false))],false),true,false,false,none,false,⟨.lcomment,some .internalNl,false,.lblank⟩⟩] (.node .leaf 612992842 [⟨⟨(.inside 1),[],.lblank,true,[],false⟩,false,false,[],some 4,some ⟨.code,[47],.lblank,false,[],false⟩,some ([(42,(.other,false))],false),true,false,false,none,false,⟨.lblank,some .internalNl,false,.lblank⟩⟩] .leaf))),(.node (.node (.node (.node .leaf 610242303 [⟨⟨(.inside 1),[],.lcode,false,[],false⟩,true,false,[],some 4,some ⟨.code,[47],.lcode,false,[],false⟩,some ([(42,(.other,false))],false),false,false,false,none,false,⟨.lcode,some (.own 3),false,.lblank⟩⟩] .leaf) 610390291 [⟨⟨(.inside 1),[],.lcomment,false,[],false⟩,true,false,[],some 4,some ⟨.code,[47],.lcode,false,[],false⟩,some ([(42,(.other,false))],false),true,false,false,none,false,⟨.lcomment,some .internalNl,false,.lblank⟩⟩] .leaf) 610538271 [⟨⟨(.inside 1),[],.lblank,false,[],false⟩,true,false,[],some 4,some ⟨.code,[47],.lcode,false,[],false⟩,some ([(42,(.other,false))],false),true,false,false,none,false,⟨.lblank,some .internalNl,false,.lblank⟩⟩] (.node .leaf 611599151 [⟨⟨(.inside 1),[],.lcomment,false,[],false⟩,true,false,[],some 4,some ⟨.code,[47],.lcomment,false,[],false⟩,some ([(42,(.other,false))],false),false,false,false,none,false,⟨.lcomment,some (.own 3),false,.lblank⟩⟩] .leaf)) 611599159 [⟨⟨(.inside 1),[],.lcomment,false,[],false⟩,true,false,[],some 4,some ⟨.code,[47],.lcomment,false,[],false⟩,some ([(42,(.other,false))],false),true,false,false,none,false,⟨.lcomment,some .internalNl,false,.lblank⟩⟩] (.node (.node (.node .leaf 611747139 [⟨⟨(.inside 1),[],.lblank,false,[],false⟩,true,false,[],some 4,some ⟨.code,[47],.lcomment,false,[],false⟩,some ([(42,(.other,false))],false),true,false,false,none,false,⟨.lblank,some .internalNl,false,.lblank⟩⟩] .leaf) 612808019 [⟨⟨(.inside 1),[],.lcomment,false,[],false⟩,true,false,[],some 4,some ⟨.code,[47],.lblank,false,[],false⟩,some ([(42,(.other,false))],false),false,false,false,none,false,⟨.lcomment,some (.own 3),false,.lblank⟩⟩] .leaf) 612808027 [⟨⟨(.inside 1),[],.lcomment,false,[],false⟩,true,false,[],some 4,some ⟨.code,[47],.lblank,false,[],false⟩,some ([(42,(.other,false))],false),true,false,false,none,false,⟨.lcomment,some .internalNl,false,.lblank⟩⟩] (.node .leaf 612956007 [⟨⟨(.inside 1),[],.lblank,false,[],false⟩,true,false,[],some 4,some ⟨.code,[47],.lblank,false,[],false⟩,some ([(42,(.other,false))],false),true,false,false,none,false,⟨.lblank,some .internalNl,false,.lblank⟩⟩] .leaf))),(.node (.node (.node (.node .leaf 610279154 [⟨⟨(.inside 1),[],.lcode,true,[],false⟩,false,true,[],some 4,some ⟨.code,[47],.lcode,false,[],false⟩,some ([(42,(.other,false))],false),false,false,false,none,false,⟨.lcode,some (.own 3),false,.lblank⟩⟩] .leaf) 610427142 [⟨⟨(.inside 1),[],.lcomment,true,[],false⟩,false,true,[],some 4,some ⟨.code,[47],.lcode,false,[],false⟩,some ([(42,(.other,false))],false),true,false,false,none,false,⟨.lcomment,some .internalNl,false,.lblank⟩⟩] .leaf) 610575122 [⟨⟨(.inside 1),[],.lblank,true,[],false⟩,false,true,[],some 4,some ⟨.code,[47],.lcode,false,[],false⟩,some ([(42,(.other,false))],false),true,false,false,none,false,⟨.lblank,some .internalNl,false,.lblank⟩⟩] (.node .leaf 611636002 [⟨⟨(.inside 1),[],.lcomment,true,[],false⟩,false,true,[],some 4,some ⟨.code,[47],.lcomment,false,[],false⟩,some ([(42,(.other,false))],false),false,false,false,none,false,⟨.lcomment,some (.own 3),false,.lblank⟩⟩] .leaf)) 611636010 [⟨⟨(.inside 1),[],.lcomment,true,[],false⟩,false,true,[],some 4,some ⟨.code,[47],.lcomment,false,[],false⟩,some ([(42,(.other,false))],false),true,false,false,none,false,⟨.lcomment,some .internalNl,false,.lblank⟩⟩] (.node (.node (.node .leaf 611783990 [⟨⟨(.inside 1),[],.lblank,true,[],false⟩,false,true,[],some 4,some ⟨.code,[47],.lcomment,false,[],false⟩,some ([(42,(.other,false))],false),true,false,false,none,false,⟨.lblank,some .internalNl,false,.lblank⟩⟩] .leaf) 612844870 [⟨⟨(.inside 1),[],.lcomment,true,[],false⟩,false,true,[],some 4,some ⟨.code,[47],.lblank,false,[],false⟩,some ([(42,(.other,false))],false),false,false,false,none,false,⟨.lcomment,some (.own 3),false,.lblank⟩⟩] .leaf) 612844878 [⟨⟨(.inside 1),[],.lcomment,true,[],false⟩,false,true,[],some 4,some ⟨.code,[47],.lblank,false,[],false⟩,some ([(42,(.other,false))],false),true,false,false,none,false,⟨.lcomment,some .internalNl,false,.lblank⟩⟩] (.node .leaf 612992858 [⟨⟨(.inside 1),[],.lblank,true,[],false⟩,false,true,[],some 4,some ⟨.code,[47],.lblank,false,[],false⟩,some ([(42,(.other,false))],false),true,false,false,none,false,⟨.lblank,some .internalNl,false,.lblank⟩⟩] .leaf))),(.node (.node (.node (.node .leaf 1148611072 [⟨⟨(.inside 1),[42],.lcode,false,[],false⟩,false,false,[],some 4,some ⟨.code,[47],.lcode,false,[],false⟩,some ([(42,(.other,false))],false),false,false,false,none,false,⟨.lcode,some (.own 3),false,.lblank⟩⟩] .leaf) 1167929900 [⟨⟨(.inside 1),[42],.lcomment,false,[],false⟩,false,false,[],some 4,some ⟨.code,[47],.lcode,false,[],false⟩,some ([(42,(.other,false))],false),true,false,false,none,false,⟨.lcomment,some .internalNl,false,.lblank⟩⟩] .leaf) 1169138760 [⟨⟨(.inside 1),[42],.lcomment,false,[],false⟩,false,false,[],some 4,some ⟨.code,[47],.lcomment,false,[],false⟩,some ([(42,(.other,false))],false),false,false,false,none,false,⟨.lcomment,some (.own 3),false,.lblank⟩⟩] (.node .leaf 1169138768 [⟨⟨(.inside 1),[42],.lcomment,false,[],false⟩,false,false,[],some 4,some ⟨.code,[47],.lcomment,false,[],false⟩,some ([(42,(.other,false))],false),true,false,false,none,false,⟨.lcomment,some .internalNl,false,.lblank⟩⟩] .leaf)) 1170347628 [⟨⟨(.inside 1),[42],.lcomment,false,[],false⟩,false,false,[],some 4,some ⟨.code,[47],.lblank,false,[],false⟩,some ([(42,(.other,false))],false),false,false,false,none,false,⟨.lcomment,some (.own 3),false,.lblank⟩⟩] (.node (.node (.node .leaf 1170347636 [⟨⟨(.inside 1),[42],.lcomment,false,[],false⟩,false,false,[],some 4,some ⟨.code,[47],.lblank,false,[],false⟩,some ([(42,(.other,false))],false),true,false,false,none,false,⟨.lcomment,some .internalNl,false,.lblank⟩⟩] .leaf) 1187248208 [⟨⟨(.inside 1),[42],.lblank,false,[],false⟩,false,false,[],some 4,some ⟨.code,[47],.lcode,false,[],false⟩,some ([(42,(.other,false))],false),true,false,false,none,false,⟨.lcomment,some .internalNl,false,.lblank⟩⟩] .leaf) 1188457076 [⟨⟨(.inside 1),[42],.lblank,false,[],false⟩,false,false,[],some 4,some ⟨.code,[47],.lcomment,false,[],false⟩,some ([(42,(.other,false))],false),true,false,false,none,false,⟨.lcomment,some .internalNl,false,.lblank⟩⟩] (.node .leaf 1189665944 [⟨⟨(.inside 1),[42],.lblank,false,[],false⟩,false,false,[],some 4,some ⟨.code,[47],.lblank,false,[],false⟩,some ([(42,(.other,false))],false),true,false,false,none,false,⟨.lcomment,some .internalNl,false,.lblank⟩⟩] .leaf))),(.node (.node .leaf 1179872 [⟨⟨(.inside 0),[],.lcode,false,[],false⟩,false,false,[],none,none,none,false,false,false,none,false,⟨.lcode,some (.own 3),false,.lblank⟩⟩] .leaf) 1327852 [⟨⟨(.inside 0),[],.lcomment,false,[],false⟩,false,false,[],none,none,none,false,false,false,none,false,⟨.lcomment,some (.own 3),false,.lblank⟩⟩,⟨⟨(.inside 0),[],.lcomment,false,[],false⟩,false,false,[],none,none,none,false,false,false,none,false,⟨.lcomment,some .internalNl,false,.lblank⟩⟩] .leaf),(.node (.node .leaf 1179872 [⟨⟨(.inside 0),[],.lcode,false,[],false⟩,false,false,[],none,none,none,false,false,false,none,false,⟨.lcode,some (.own 3),false,.lblank⟩⟩] .leaf) 1327852 [⟨⟨(.inside 0),[],.lcomment,false,[],false⟩,false,false,[],none,none,none,false,false,false,none,false,⟨.lcomment,some (.own 3),false,.lblank⟩⟩,⟨⟨(.inside 0),[],.lcomment,false,[],false⟩,false,false,[],none,none,none,false,false,false,none,false,⟨.lcomment,some .internalNl,false,.lblank⟩⟩] (.node .leaf 1475832 [⟨⟨(.inside 0),[],.lblank,false,[],false⟩,false,false,[],none,none,none,false,false,false,none,false,⟨.lblank,some .internalNl,false,.lblank⟩⟩] .leaf)),(.node (.node (.node .leaf 157975223 [⟨⟨(.inside 0),[92],.lcode,false,[],false⟩,false,false,[],none,none,none,false,false,false,none,false,⟨.lcode,some (.own 3),false,.lblank⟩⟩] .leaf) 177294043 [⟨⟨(.inside 0),[92],.lcomment,false,[],false⟩,false,false,[],none,none,none,false,false,false,none,false,⟨.lcomment,some (.own 3),false,.lblank⟩⟩,⟨⟨(.inside 0),[92],.lcomment,false,[],false⟩,false,false,[],none,none,none,false,false,false,none,false,⟨.lcomment,some .internalNl,false,.lblank⟩⟩] .leaf) 196612351 [⟨⟨(.inside 0),[92],.lblank,false,[],false⟩,false,false,[],none,none,none,false,false,false,none,false,⟨.lcomment,some .internalNl,false,.lblank⟩⟩] (.node .leaf 351158815 [⟨⟨(.escapedCr 0),[92],.lblank,false,[],false⟩,false,false,[],none,none,none,false,false,false,none,false,⟨.lcomment,some .internalNl,false,.lblank⟩⟩] .leaf)),(.node (.node .leaf 10692808 [⟨⟨(.inside 3),[],.lcode,true,[],false⟩,false,false,[],some 4,some ⟨(.inside 3),[],.lcode,false,[],false⟩,none,false,false,false,none,false,⟨.lcode,some (.own 3),false,.lblank⟩⟩] .leaf) 10692816 [⟨⟨(.inside 3),[],.lcode,true,[],false⟩,false,false,[],some 4,some ⟨(.inside 3),[],.lcode,false,[],false⟩,none,true,false,false,none,false,⟨.lcode,some .internalNl,false,.lblank⟩⟩] (.node .leaf 10988776 [⟨⟨(.inside 3),[],.lblank,true,[],false⟩,false,false,[],some 4,some ⟨(.inside 3),[],.lcode,false,[],false⟩,none,true,false,false,none,false,⟨.lblank,some .internalNl,false,.lblank⟩⟩] .leaf)),.leaf,(.node (.node .leaf 7558888 [⟨⟨(.inside 2),[],.lcode,true,[],false⟩,false,false,[],some 4,some ⟨(.inside 2),[],.lcode,false,[],false⟩,none,false,false,false,none,false,⟨.lcode,some (.own 3),false,.lblank⟩⟩] .leaf) 7558896 [⟨⟨(.inside 2),[],.lcode,true,[],false⟩,false,false,[],some 4,some ⟨(.inside 2),[],.lcode,false,[],false⟩,none,true,false,false,none,false,⟨.lcode,some .internalNl,false,.lblank⟩⟩] (.node .leaf 7854856 [⟨⟨(.inside 2),[],.lblank,true,[],false⟩,false,false,[],some 4,some ⟨(.inside 2),[],.lcode,false,[],false⟩,none,true,false,false,none,false,⟨.lblank,some .internalNl,false,.lblank⟩⟩] .leaf)),.leaf,(.node (.node (.node (.node .leaf 610279138 [⟨⟨(.inside 1),[],.lcode,true,[],false⟩,false,false,[],some 4,some ⟨.code,[47],.lcode,false,[],false⟩,some ([(42,(.other,false))],false),false,false,false,none,false,⟨.lcode,some (.own 3),false,.lblank⟩⟩] .leaf) 610427126 [⟨⟨(.inside 1),[],.lcomment,true,[],false⟩,false,false,[],some 4,some ⟨.code,[47],.lcode,false,[],false⟩,some ([(42,(.other,false))],false),true,false,false,none,false,⟨.lcomment,some .internalNl,false,.lblank⟩⟩] .leaf) 610575106 [⟨⟨(.inside 1),[],.lblank,true,[],false⟩,false,false,[],some 4,some ⟨.code,[47],.lcode,false,[],false⟩,some ([(42,(.other,false))],false),true,false,false,none,false,⟨.lblank,some .internalNl,false,.lblank⟩⟩] (.node .leaf 611635986 [⟨⟨(.inside 1),[],.lcomment,true,[],false⟩,false,false,[],some 4,some ⟨.code,[47],.lcomment,false,[],false⟩,some ([(42,(.other,false))],false),false,false,false,none,false,⟨.lcomment,some (.own 3),false,.lblank⟩⟩] .leaf)) 611635994 [⟨⟨(.inside 1),[],.lcomment,true,[],false⟩,false,false,[],some 4,some ⟨.code,[47],.lcomment,false,[],false⟩,some ([(42,(.other,false))],false),true,false,false,none,false,⟨.lcomment,some .internalNl,false,.lblank⟩⟩] (.node (.node (.node .leaf 611783974 [⟨⟨(.inside 1),[],.lblank,true,[],false⟩,false,false,[],some 4,some ⟨.code,[47],.lcomment,false,[],false⟩,some ([(42,(.other,false))],false),true,false,false,none,false,⟨.lblank,some .internalNl,false,.lblank⟩⟩] .leaf) 612844854 [⟨⟨(.inside 1),[],.lcomment,true,[],false⟩,false,false,[],some 4,some ⟨.code,[47],.lblank,false,[],false⟩,some ([(42,(.other,false))],false),false,false,false,none,false,⟨.lcomment,some (.own 3),false,.lblank⟩⟩] .leaf) 612844862 [⟨⟨(.inside 1),[],.lcomment,true,[],false⟩,false,false,[],some 4,some ⟨.code,[47],.lblank,false,[],false⟩,some ([(42,(.other,false))],false),true,false,false,none,false,⟨.lcomment,some .internalNl,false,.lblank⟩⟩] (.node .leaf 612992842 [⟨⟨(.inside 1),[],.lblank,true,[],false⟩,false,false,[],some 4,some ⟨.code,[47],.lblank,false,[],false⟩,some ([(42,(.other,false))],false),true,false,false,none,false,⟨.lblank,some .internalNl,false,.lblank⟩⟩] .leaf))),.leaf,(.node (.node .leaf 1216739 [⟨⟨(.inside 0),[],.lcode,true,[],false⟩,false,false,[],none,none,none,false,false,false,none,false,⟨.lcode,some (.own 3),false,.lblank⟩⟩] .leaf) 1364719 [⟨⟨(.inside 0),[],.lcomment,true,[],false⟩,false,false,[],none,none,none,false,false,false,none,false,⟨.lcomment,some (.own 3),false,.lblank⟩⟩,⟨⟨(.inside 0),[],.lcomment,true,[],false⟩,false,false,[],none,none,none,false,false,false,none,false,⟨.lcomment,some .internalNl,false,.lblank⟩⟩] .leaf),(.node (.node .leaf 1216739 [⟨⟨(.inside 0),[],.lcode,true,[],false⟩,false,false,[],none,none,none,false,false,false,none,false,⟨.lcode,some (.own 3),false,.lblank⟩⟩] .leaf) 1364719 [⟨⟨(.inside 0),[],.lcomment,true,[],false⟩,false,false,[],none,none,none,false,false,false,none,false,⟨.lcomment,some (.own 3),false,.lblank⟩⟩,⟨⟨(.inside 0),[],.lcomment,true,[],false⟩,false,false,[],none,none,none,false,false,false,none,false,⟨.lcomment,some .internalNl,false,.lblank⟩⟩] .leaf),(.node (.node (.node .leaf 560246981 [⟨⟨(.escapedCr 0),[],.lcode,false,[],false⟩,true,false,[],some 1,some ⟨(.inside 0),[92],.lcode,false,[],false⟩,some ([(13,(.cr,false))],false),false,false,false,none,false,⟨.lcode,some (.own 3),false,.lblank⟩⟩] .leaf) 561603829 [⟨⟨(.escapedCr 0),[],.lcomment,false,[],false⟩,true,false,[],some 1,some ⟨(.inside 0),[92],.lcomment,false,[],false⟩,some ([(13,(.cr,false))],false),false,false,false,none,false,⟨.lcomment,some (.own 3),false,.lblank⟩⟩,⟨⟨(.escapedCr 0),[],.lcomment,false,[],false⟩,true,false,[],some 1,some ⟨(.inside 0),[92],.lcomment,false,[],false⟩,some ([(13,(.cr,false))],false),false,false,false,none,false,⟨.lcomment,some .internalNl,false,.lblank⟩⟩] .leaf) 562812697 [⟨⟨(.escapedCr 0),[],.lcomment,false,[],false⟩,true,false,[],some 1,some ⟨(.inside 0),[92],.lblank,false,[],false⟩,some ([(13,(.cr,false))],false),false,false,false,none,false,⟨.lcomment,some .internalNl,false,.lblank⟩⟩] (.node .leaf 572483641 [⟨⟨(.escapedCr 0),[],.lcomment,false,[],false⟩,true,false,[],some 1,some ⟨(.escapedCr 0),[92],.lblank,false,[],false⟩,some ([(13,(.cr,false))],false),false,false,false,none,false,⟨.lcomment,some .internalNl,false,.lblank⟩⟩] .leaf)),(.node (.node .leaf 2396499 [⟨⟨(.escapedCr 0),[],.lcode,true,[],false⟩,false,true,[],none,none,none,false,false,false,none,false,⟨.lcode,some (.own 3),false,.lblank⟩⟩] .leaf) 2544479 [⟨⟨(.escapedCr 0),[],.lcomment,true,[],false⟩,false,true,[],none,none,none,false,false,false,none,false,⟨.lcomment,some (.own 3),false,.lblank⟩⟩,⟨⟨(.escapedCr 0),[],.lcomment,true,[],false⟩,false,true,[],none,none,none,false,false,false,none,false,⟨.lcomment,some .internalNl,false,.lblank⟩⟩] .leaf),(.node (.node .leaf 1216739 [⟨⟨(.inside 0),[],.lcode,true,[],false⟩,false,false,[],none,none,none,false,false,false,none,false,⟨.lcode,some (.own 3),false,.lblank⟩⟩] .leaf) 1364719 [⟨⟨(.inside 0),[],.lcomment,true,[],false⟩,false,false,[],none,none,none,false,false,false,none,false,⟨.lcomment,some (.own 3),false,.lblank⟩⟩,⟨⟨(.inside 0),[],.lcomment,true,[],false⟩,false,false,[],none,none,none,false,false,false,none,false,⟨.lcomment,some .internalNl,false,.lblank⟩⟩] .leaf)]
theorem groovy_line_lClosed : CA.closedF groovy_line_M groovy_line_lex true false groovy_line_lfr groovy_line_lTab = true := by decide +kernel
def groovy_line_L : LCert LexisTable.groovy_line groovy_line_M := groovy_line_lex_eq ▸ ⟨⟨groovy_line_lmasks, groovy_line_lex.rel, groovy_line_lcs, groovy_line_lrows, groovy_line_lmasksIn, groovy_line_lrepOk, groovy_line_lrowsOk⟩,
  _, rfl, by decide +kernel, by decide +kernel, true, false, CA.closed_of groovy_line_lfrOk groovy_line_lClosed⟩
theorem groovy_line_L_chk : groovy_line_L.chk = true := by
  have : ∀ (l : Lexis) (h : LexisTable.groovy_line = l) (C : LCert l groovy_line_M), (h ▸ C : LCert LexisTable.groovy_line groovy_line_M).chk = C.chk := by rintro _ rfl _; rfl
  exact this _ groovy_line_lex_eq _

def jam_line_lex : Lexis := [⟨[35],[],.lcomment,false,false,false,true,false,false,true,false,none,false,false,false,false,[]⟩,⟨[39],[[39]],.lcode,true,false,true,true,false,false,false,false,none,false,false,false,false,[]⟩,⟨[34],[[34]],.lcode,true,false,true,true,false,false,false,false,none,false,false,false,false,[]⟩]
theorem jam_line_lex_eq : LexisTable.jam_line = jam_line_lex := by decide +kernel
def jam_line_lmasks : List Nat := [4294967808,34359738368,549755813888,17179869184,8192,1024,4096,115792089237316195423570985008687907853269984665640564039457584007908834656767,115792089237316195423570985008687907853269984665640564039457584007913129626623,115792089237316195423570985008687907853269984665635612279300442486259482348031,4951760157141521099596496896,115792089237316195423570985008687907853269984665635612279300442486792058292735]
def jam_line_lcs : List (Nat × Nat) := [(0,115792089237316195423570985008687907853269984665635612279300442486207942738431),(9,4294967808),(10,1024),(11,2048),(12,4096),(13,8192),(34,17179869184),(35,34359738368),(39,549755813888),(92,4951760157141521099596496896)]
theorem jam_line_lmasksIn : masksIn jam_line_nfa jam_line_lmasks = true := by decide +kernel
theorem jam_line_lrepOk : repOk jam_line_lmasks jam_line_lcs = true := by decide +kernel
def jam_line_lrows : List Row := [⟨[],none,[],[⟨256,.other,false,some ⟨0,[.setEnt (.own 3)],some 4,true⟩⟩,⟨256,.ws,false,some ⟨1,[.setEnt (.own 0)],some 0,false⟩⟩,⟨256,.lf,false,some ⟨0,[.setEnt .newline],some 3,true⟩⟩,⟨256,.vt,false,none⟩,⟨256,.ff,false,some ⟨0,[.setEnt .newline],some 3,true⟩⟩,⟨256,.cr,false,some ⟨2,[.setEnt .newline],none,false⟩⟩,⟨256,.cr,true,some ⟨3,[.setEnt .newline],some 3,false⟩⟩,⟨34,.other,false,some ⟨4,[.enqueue,.code,.setEnt (.own 3)],some 4,false⟩⟩,⟨35,.other,false,some ⟨5,[.comment,.setEnt (.own 3)],some 1,false⟩⟩,⟨39,.other,false,some ⟨6,[.enqueue,.code,.setEnt (.own 3)],some 4,false⟩⟩,⟨92,.other,false,some ⟨0,[.setEnt (.own 3)],some 4,true⟩⟩]⟩,⟨[0],some 0,[],[⟨256,.other,false,none⟩,⟨256,.ws,false,some ⟨1,[.setEnt (.own 0)],some 0,false⟩⟩,⟨256,.lf,false,none⟩,⟨256,.vt,false,none⟩,⟨256,.ff,false,none⟩,⟨256,.cr,false,none⟩,⟨256,.cr,true,none⟩,⟨34,.other,false,none⟩,⟨35,.other,false,none⟩,⟨39,.other,false,none⟩,⟨92,.other,false,none⟩]⟩,⟨[25],none,[],[⟨256,.other,false,none⟩,⟨256,.ws,false,none⟩,⟨256,.lf,false,some ⟨0,[.setEnt .newline],some 3,true⟩⟩,⟨256,.vt,false,none⟩,⟨256,.ff,false,none⟩,⟨256,.cr,false,none⟩,⟨256,.cr,true,none⟩,⟨34,.other,false,none⟩,⟨35,.other,false,none⟩,⟨39,.other,false,none⟩,⟨92,.other,false,none⟩]⟩,⟨[25,29],some 3,[],[⟨256,.other,false,none⟩,⟨256,.ws,false,none⟩,⟨256,.lf,false,some ⟨0,[.setEnt .newline],some 3,true⟩⟩,⟨256,.vt,false,none⟩,⟨256,.ff,false,none⟩,⟨256,.cr,false,none⟩,⟨256,.cr,true,none⟩,⟨34,.other,false,none⟩,⟨35,.other,false,none⟩,⟨39,.other,false,none⟩,⟨92,.other,false,none⟩]⟩,⟨[14,30],some 4,[],[⟨256,.other,false,some ⟨7,[.code],none,false⟩⟩,⟨256,.ws,false,some ⟨8,[],none,false⟩⟩,⟨256,.lf,false,some ⟨9,[],none,false⟩⟩,⟨256,.vt,false,some ⟨7,[.code],none,false⟩⟩,⟨256,.ff,false,some ⟨10,[],none,false⟩⟩,⟨256,.cr,false,some ⟨11,[],none,false⟩⟩,⟨256,.cr,true,some ⟨12,[],none,false⟩⟩,⟨34,.other,false,some ⟨0,[.commit],some 2,true⟩⟩,⟨35,.other,false,some ⟨7,[.code],none,false⟩⟩,⟨39,.other,false,some ⟨7,[.code],none,false⟩⟩,⟨92,.other,false,some ⟨13,[],none,false⟩⟩]⟩,⟨[1,30],some 1,[],[⟨256,.other,false,some ⟨14,[],some 1,false⟩⟩,⟨256,.ws,false,some ⟨14,[],some 1,false⟩⟩,⟨256,.lf,false,none⟩,⟨256,.vt,false,some ⟨14,[],some 1,false⟩⟩,⟨256,.ff,false,none⟩,⟨256,.cr,false,none⟩,⟨256,.cr,true,none⟩,⟨34,.other,false,some ⟨14,[],some 1,false⟩⟩,⟨35,.other,false,some ⟨14,[],some 1,false⟩⟩,⟨39,.other,false,some ⟨14,[],some 1,false⟩⟩,⟨92,.other,false,some ⟨14,[],some 1,false⟩⟩]⟩,⟨[3,30],some 4,[],[⟨256,.other,false,some ⟨15,[.code],none,false⟩⟩,⟨256,.ws,false,some ⟨16,[],none,false⟩⟩,⟨256,.lf,false,some ⟨17,[],none,false⟩⟩,⟨256,.vt,false,some ⟨15,[.code],none,false⟩⟩,⟨256,.ff,false,some ⟨18,[],none,false⟩⟩,⟨256,.cr,false,some ⟨19,[],none,false⟩⟩,⟨256,.cr,true,some ⟨20,[],none,false⟩⟩,⟨34,.other,false,some ⟨15,[.code],none,false⟩⟩,⟨35,.other,false,some ⟨15,[.code],none,false⟩⟩,⟨39,.other,false,some ⟨0,[.commit],some 2,true⟩⟩,⟨92,.other,false,some ⟨21,[],none,false⟩⟩]⟩,⟨[21],none,[],[⟨256,.other,false,some ⟨7,[.code],none,false⟩⟩,⟨256,.ws,false,some ⟨8,[],none,false⟩⟩,⟨256,.lf,false,some ⟨9,[],none,false⟩⟩,⟨256,.vt,false,some ⟨7,[.code],none,false⟩⟩,⟨256,.ff,false,some ⟨10,[],none,false⟩⟩,⟨256,.cr,false,some ⟨11,[],none,false⟩⟩,⟨256,.cr,true,some ⟨12,[],none,false⟩⟩,⟨34,.other,false,some ⟨0,[.commit],some 2,true⟩⟩,⟨35,.other,false,some ⟨7,[.code],none,false⟩⟩,⟨39,.other,false,some ⟨7,[.code],none,false⟩⟩,⟨92,.other,false,some ⟨13,[],none,false⟩⟩]⟩,⟨[20],none,[],[⟨256,.other,false,some ⟨7,[.code],none,false⟩⟩,⟨256,.ws,false,some ⟨8,[],none,false⟩⟩,⟨256,.lf,false,some ⟨9,[],none,false⟩⟩,⟨256,.vt,false,some ⟨7,[.code],none,false⟩⟩,⟨256,.ff,false,some ⟨10,[],none,false⟩⟩,⟨256,.cr,false,some ⟨11,[],none,false⟩⟩,⟨256,.cr,true,some ⟨12,[],none,false⟩⟩,⟨34,.other,false,some ⟨0,[.commit],some 2,true⟩⟩,⟨35,.other,false,some ⟨7,[.code],none,false⟩⟩,⟨39,.other,false,some ⟨7,[.code],none,false⟩⟩,⟨92,.other,false,some ⟨13,[],none,false⟩⟩]⟩,⟨[17],none,[],[⟨256,.other,false,some ⟨7,[.setEnt .internalNl,.cb,.code],none,false⟩⟩,⟨256,.ws,false,some ⟨8,[.setEnt .internalNl,.cb],none,false⟩⟩,⟨256,.lf,false,some ⟨9,[.setEnt .internalNl,.cb],none,false⟩⟩,⟨256,.vt,false,some ⟨7,[.setEnt .internalNl,.cb,.code],none,false⟩⟩,⟨256,.ff,false,some ⟨10,[.setEnt .internalNl,.cb],none,false⟩⟩,⟨256,.cr,false,some ⟨11,[.setEnt .internalNl,.cb],none,false⟩⟩,⟨256,.cr,true,some ⟨12,[.setEnt .internalNl,.cb],none,false⟩⟩,⟨34,.other,false,some ⟨0,[.setEnt .internalNl,.cb,.commit],some 2,true⟩⟩,⟨35,.other,false,some ⟨7,[.setEnt .internalNl,.cb,.code],none,false⟩⟩,⟨39,.other,false,some ⟨7,[.setEnt .internalNl,.cb,.code],none,false⟩⟩,⟨92,.other,false,some ⟨13,[.setEnt .internalNl,.cb],none,false⟩⟩]⟩,⟨[18],none,[],[⟨256,.other,false,some ⟨7,[.setEnt .internalNl,.cb,.code],none,false⟩⟩,⟨256,.ws,false,some ⟨8,[.setEnt .internalNl,.cb],none,false⟩⟩,⟨256,.lf,false,some ⟨9,[.setEnt .internalNl,.cb],none,false⟩⟩,⟨256,.vt,false,some ⟨7,[.setEnt .internalNl,.cb,.code],none,false⟩⟩,⟨256,.ff,false,some ⟨10,[.setEnt .internalNl,.cb],none,false⟩⟩,⟨256,.cr,false,some ⟨11,[.setEnt .internalNl,.cb],none,false⟩⟩,⟨256,.cr,true,some ⟨12,[.setEnt .internalNl,.cb],none,false⟩⟩,⟨34,.other,false,some ⟨0,[.setEnt .internalNl,.cb,.commit],some 2,true⟩⟩,⟨35,.other,false,some ⟨7,[.setEnt .internalNl,.cb,.code],none,false⟩⟩,⟨39,.other,false,some ⟨7,[.setEnt .internalNl,.cb,.code],none,false⟩⟩,⟨92,.other,false,some ⟨13,[.setEnt .internalNl,.cb],none,false⟩⟩]⟩,⟨[15],none,[],[⟨256,.other,false,none⟩,⟨256,.ws,false,none⟩,⟨256,.lf,false,some ⟨22,[],none,false⟩⟩,⟨256,.vt,false,none⟩,⟨256,.ff,false,none⟩,⟨256,.cr,false,none⟩,⟨256,.cr,true,none⟩,⟨34,.other,false,none⟩,⟨35,.other,false,none⟩,⟨39,.other,false,none⟩,⟨92,.other,false,none⟩]⟩,⟨[15,19],none,[],[⟨256,.other,false,some ⟨7,[.setEnt .internalNl,.cb,.code],none,false⟩⟩,⟨256,.ws,false,some ⟨8,[.setEnt .internalNl,.cb],none,false⟩⟩,⟨256,.lf,false,some ⟨23,[.setEnt .internalNl,.cb],none,false⟩⟩,⟨256,.vt,false,some ⟨7,[.setEnt .internalNl,.cb,.code],none,false⟩⟩,⟨256,.ff,false,some ⟨10,[.setEnt .internalNl,.cb],none,false⟩⟩,⟨256,.cr,false,some ⟨11,[.setEnt .internalNl,.cb],none,false⟩⟩,⟨256,.cr,true,some ⟨12,[.setEnt .internalNl,.cb],none,false⟩⟩,⟨34,.other,false,some ⟨0,[.setEnt .internalNl,.cb,.commit],some 2,true⟩⟩,⟨35,.other,false,some ⟨7,[.setEnt .internalNl,.cb,.code],none,false⟩⟩,⟨39,.other,false,some ⟨7,[.setEnt .internalNl,.cb,.code],none,false⟩⟩,⟨92,.other,false,some ⟨13,[.setEnt .internalNl,.cb],none,false⟩⟩]⟩,⟨[22],none,[],[⟨256,.other,false,some ⟨24,[.code],none,false⟩⟩,⟨256,.ws,false,some ⟨24,[.code],none,false⟩⟩,⟨256,.lf,false,none⟩,⟨256,.vt,false,some ⟨24,[.code],none,false⟩⟩,⟨256,.ff,false,none⟩,⟨256,.cr,false,none⟩,⟨256,.cr,true,none⟩,⟨34,.other,false,some ⟨24,[.code],none,false⟩⟩,⟨35,.other,false,some ⟨24,[.code],none,false⟩⟩,⟨39,.other,false,some ⟨24,[.code],none,false⟩⟩,⟨92,.other,false,some ⟨24,[.code],none,false⟩⟩]⟩,⟨[2],some 1,[],[⟨256,.other,false,some ⟨14,[],some 1,false⟩⟩,⟨256,.ws,false,some ⟨14,[],some 1,false⟩⟩,⟨256,.lf,false,none⟩,⟨256,.vt,false,some ⟨14,[],some 1,false⟩⟩,⟨256,.ff,false,none⟩,⟨256,.cr,false,none⟩,⟨256,.cr,true,none⟩,⟨34,.other,false,some ⟨14,[],some 1,false⟩⟩,⟨35,.other,false,some ⟨14,[],some 1,false⟩⟩,⟨39,.other,false,some ⟨14,[],some 1,false⟩⟩,⟨92,.other,false,some ⟨14,[],some 1,false⟩⟩]⟩,⟨[10],none,[],[⟨256,.other,false,some ⟨15,[.code],none,false⟩⟩,⟨256,.ws,false,some ⟨16,[],none,false⟩⟩,⟨256,.lf,false,some ⟨17,[],none,false⟩⟩,⟨256,.vt,false,some ⟨15,[.code],none,false⟩⟩,⟨256,.ff,false,some ⟨18,[],none,false⟩⟩,⟨256,.cr,false,some ⟨19,[],none,false⟩⟩,⟨256,.cr,true,some ⟨20,[],none,false⟩⟩,⟨34,.other,false,some ⟨15,[.code],none,false⟩⟩,⟨35,.other,false,some ⟨15,[.code],none,false⟩⟩,⟨39,.other,false,some ⟨0,[.commit],some 2,true⟩⟩,⟨92,.other,false,some ⟨21,[],none,false⟩⟩]⟩,⟨[9],none,[],[⟨256,.other,false,some ⟨15,[.code],none,false⟩⟩,⟨256,.ws,false,some ⟨16,[],none,false⟩⟩,⟨256,.lf,false,some ⟨17,[],none,false⟩⟩,⟨256,.vt,false,some ⟨15,[.code],none,false⟩⟩,⟨256,.ff,false,some ⟨18,[],none,false⟩⟩,⟨256,.cr,false,some ⟨19,[],none,false⟩⟩,⟨256,.cr,true,some ⟨20,[],none,false⟩⟩,⟨34,.other,false,some ⟨15,[.code],none,false⟩⟩,⟨35,.other,false,some ⟨15,[.code],none,false⟩⟩,⟨39,.other,false,some ⟨0,[.commit],some 2,true⟩⟩,⟨92,.other,false,some ⟨21,[],none,false⟩⟩]⟩,⟨[6],none,[],[⟨256,.other,false,some ⟨15,[.setEnt .internalNl,.cb,.code],none,false⟩⟩,⟨256,.ws,false,some ⟨16,[.setEnt .internalNl,.cb],none,false⟩⟩,⟨256,.lf,false,some ⟨17,[.setEnt .internalNl,.cb],none,false⟩⟩,⟨256,.vt,false,some ⟨15,[.setEnt .internalNl,.cb,.code],none,false⟩⟩,⟨256,.ff,false,some ⟨18,[.setEnt .internalNl,.cb],none,false⟩⟩,⟨256,.cr,false,some ⟨19,[.setEnt .internalNl,.cb],none,false⟩⟩,⟨256,.cr,true,some ⟨20,[.setEnt .internalNl,.cb],none,false⟩⟩,⟨34,.other,false,some ⟨15,[.setEnt .internalNl,.cb,.code],none,false⟩⟩,⟨35,.other,false,some ⟨15,[.setEnt .internalNl,.cb,.code],none,false⟩⟩,⟨39,.other,false,some ⟨0,[.setEnt .internalNl,.cb,.commit],some 2,true⟩⟩,⟨92,.other,false,some ⟨21,[.setEnt .internalNl,.cb],none,false⟩⟩]⟩,⟨[7],none,[],[⟨256,.other,false,some ⟨15,[.setEnt .internalNl,.cb,.code],none,false⟩⟩,⟨256,.ws,false,some ⟨16,[.setEnt .internalNl,.cb],none,false⟩⟩,⟨256,.lf,false,some ⟨17,[.setEnt .internalNl,.cb],none,false⟩⟩,⟨256,.vt,false,some ⟨15,[.setEnt .internalNl,.cb,.code],none,false⟩⟩,⟨256,.ff,false,some ⟨18,[.setEnt .internalNl,.cb],none,false⟩⟩,⟨256,.cr,false,some ⟨19,[.setEnt .internalNl,.cb],none,false⟩⟩,⟨256,.cr,true,some ⟨20,[.setEnt .internalNl,.cb],none,false⟩⟩,⟨34,.other,false,some ⟨15,[.setEnt .internalNl,.cb,.code],none,false⟩⟩,⟨35,.other,false,some ⟨15,[.setEnt .internalNl,.cb,.code],none,false⟩⟩,⟨39,.other,false,some ⟨0,[.setEnt .internalNl,.cb,.commit],some 2,true⟩⟩,⟨92,.other,false,some ⟨21,[.setEnt .internalNl,.cb],none,false⟩⟩]⟩,⟨[4],none,[],[⟨256,.other,false,none⟩,⟨256,.ws,false,none⟩,⟨256,.lf,false,some ⟨25,[],none,false⟩⟩,⟨256,.vt,false,none⟩,⟨256,.ff,false,none⟩,⟨256,.cr,false,none⟩,⟨256,.cr,true,none⟩,⟨34,.other,false,none⟩,⟨35,.other,false,none⟩,⟨39,.other,false,none⟩,⟨92,.other,false,none⟩]⟩,⟨[4,8],none,[],[⟨256,.other,false,some ⟨15,[.setEnt .internalNl,.cb,.code],none,false⟩⟩,⟨256,.ws,false,some ⟨16,[.setEnt .internalNl,.cb],none,false⟩⟩,⟨256,.lf,false,some ⟨26,[.setEnt .internalNl,.cb],none,false⟩⟩,⟨256,.vt,false,some ⟨15,[.setEnt .internalNl,.cb,.code],none,false⟩⟩,⟨256,.ff,false,some ⟨18,[.setEnt .internalNl,.cb],none,false⟩⟩,⟨256,.cr,false,some ⟨19,[.setEnt .internalNl,.cb],none,false⟩⟩,⟨256,.cr,true,some ⟨20,[.setEnt .internalNl,.cb],none,false⟩⟩,⟨34,.other,false,some ⟨15,[.setEnt .internalNl,.cb,.code],none,false⟩⟩,⟨35,.other,false,some ⟨15,[.setEnt .internalNl,.cb,.code],none,false⟩⟩,⟨39,.other,false,some ⟨0,[.setEnt .internalNl,.cb,.commit],some 2,true⟩⟩,⟨92,.other,false,some ⟨21,[.setEnt .internalNl,.cb],none,false⟩⟩]⟩,⟨[11],none,[],[⟨256,.other,false,some ⟨27,[.code],none,false⟩⟩,⟨256,.ws,false,some ⟨27,[.code],none,false⟩⟩,⟨256,.lf,false,none⟩,⟨256,.vt,false,some ⟨27,[.code],none,false⟩⟩,⟨256,.ff,false,none⟩,⟨256,.cr,false,none⟩,⟨256,.cr,true,none⟩,⟨34,.other,false,some ⟨27,[.code],none,false⟩⟩,⟨35,.other,false,some ⟨27,[.code],none,false⟩⟩,⟨39,.other,false,some ⟨27,[.code],none,false⟩⟩,⟨92,.other,false,some ⟨27,[.code],none,false⟩⟩]⟩,⟨[16],none,[],[⟨256,.other,false,some ⟨7,[.setEnt .internalNl,.cb,.code],none,false⟩⟩,⟨256,.ws,false,some ⟨8,[.setEnt .internalNl,.cb],none,false⟩⟩,⟨256,.lf,false,some ⟨9,[.setEnt .internalNl,.cb],none,false⟩⟩,⟨256,.vt,false,some ⟨7,[.setEnt .internalNl,.cb,.code],none,false⟩⟩,⟨256,.ff,false,some ⟨10,[.setEnt .internalNl,.cb],none,false⟩⟩,⟨256,.cr,false,some ⟨11,[.setEnt .internalNl,.cb],none,false⟩⟩,⟨256,.cr,true,some ⟨12,[.setEnt .internalNl,.cb],none,false⟩⟩,⟨34,.other,false,some ⟨0,[.setEnt .internalNl,.cb,.commit],some 2,true⟩⟩,⟨35,.other,false,some ⟨7,[.setEnt .internalNl,.cb,.code],none,false⟩⟩,⟨39,.other,false,some ⟨7,[.setEnt .internalNl,.cb,.code],none,false⟩⟩,⟨92,.other,false,some ⟨13,[.setEnt .internalNl,.cb],none,false⟩⟩]⟩,⟨[16,17],none,[],[⟨256,.other,false,some ⟨7,[.setEnt .internalNl,.cb,.code],none,false⟩⟩,⟨256,.ws,false,some ⟨8,[.setEnt .internalNl,.cb],none,false⟩⟩,⟨256,.lf,false,some ⟨9,[.setEnt .internalNl,.cb],none,false⟩⟩,⟨256,.vt,false,some ⟨7,[.setEnt .internalNl,.cb,.code],none,false⟩⟩,⟨256,.ff,false,some ⟨10,[.setEnt .internalNl,.cb],none,false⟩⟩,⟨256,.cr,false,some ⟨11,[.setEnt .internalNl,.cb],none,false⟩⟩,⟨256,.cr,true,some ⟨12,[.setEnt .internalNl,.cb],none,false⟩⟩,⟨34,.other,false,some ⟨0,[.setEnt .internalNl,.cb,.commit],some 2,true⟩⟩,⟨35,.other,false,some ⟨7,[.setEnt .internalNl,.cb,.code],none,false⟩⟩,⟨39,.other,false,some ⟨7,[.setEnt .internalNl,.cb,.code],none,false⟩⟩,⟨92,.other,false,some ⟨13,[.setEnt .internalNl,.cb],none,false⟩⟩]⟩,⟨[23],none,[],[⟨256,.other,false,some ⟨7,[.code],none,false⟩⟩,⟨256,.ws,false,some ⟨8,[],none,false⟩⟩,⟨256,.lf,false,some ⟨9,[],none,false⟩⟩,⟨256,.vt,false,some ⟨7,[.code],none,false⟩⟩,⟨256,.ff,false,some ⟨10,[],none,false⟩⟩,⟨256,.cr,false,some ⟨11,[],none,false⟩⟩,⟨256,.cr,true,some ⟨12,[],none,false⟩⟩,⟨34,.other,false,some ⟨0,[.commit],some 2,true⟩⟩,⟨35,.other,false,some ⟨7,[.code],none,false⟩⟩,⟨39,.other,false,some ⟨7,[.code],none,false⟩⟩,⟨92,.other,false,some ⟨13,[],none,false⟩⟩]⟩,⟨[5],none,[],[⟨256,.other,false,some ⟨15,[.setEnt .internalNl,.cb,.code],none,false⟩⟩,⟨256,.ws,false,some ⟨16,[.setEnt .internalNl,.cb],none,false⟩⟩,⟨256,.lf,false,some ⟨17,[.setEnt .internalNl,.cb],none,false⟩⟩,⟨256,.vt,false,some ⟨15,[.setEnt .internalNl,.cb,.code],none,false⟩⟩,⟨256,.ff,false,some ⟨18,[.setEnt .internalNl,.cb],none,false⟩⟩,⟨256,.cr,false,some ⟨19,[.setEnt .internalNl,.cb],none,false⟩⟩,⟨256,.cr,true,some ⟨20,[.setEnt .internalNl,.cb],none,false⟩⟩,⟨34,.other,false,some ⟨15,[.setEnt .internalNl,.cb,.code],none,false⟩⟩,⟨35,.other,false,some ⟨15,[.setEnt .internalNl,.cb,.code],none,false⟩⟩,⟨39,.other,false,some ⟨0,[.setEnt .internalNl,.cb,.commit],some 2,true⟩⟩,⟨92,.other,false,some ⟨21,[.setEnt .internalNl,.cb],none,false⟩⟩]⟩,⟨[5,6],none,[],[⟨256,.other,false,some ⟨15,[.setEnt .internalNl,.cb,.code],none,false⟩⟩,⟨256,.ws,false,some ⟨16,[.setEnt .internalNl,.cb],none,false⟩⟩,⟨256,.lf,false,some ⟨17,[.setEnt .internalNl,.cb],none,false⟩⟩,⟨256,.vt,false,some ⟨15,[.setEnt .internalNl,.cb,.code],none,false⟩⟩,⟨256,.ff,false,some ⟨18,[.setEnt .internalNl,.cb],none,false⟩⟩,⟨256,.cr,false,some ⟨19,[.setEnt .internalNl,.cb],none,false⟩⟩,⟨256,.cr,true,some ⟨20,[.setEnt .internalNl,.cb],none,false⟩⟩,⟨34,.other,false,some ⟨15,[.setEnt .internalNl,.cb,.code],none,false⟩⟩,⟨35,.other,false,some ⟨15,[.setEnt .internalNl,.cb,.code],none,false⟩⟩,⟨39,.other,false,some ⟨0,[.setEnt .internalNl,.cb,.commit],some 2,true⟩⟩,⟨92,.other,false,some ⟨21,[.setEnt .internalNl,.cb],none,false⟩⟩]⟩,⟨[12],none,[],[⟨256,.other,false,some ⟨15,[.code],none,false⟩⟩,⟨256,.ws,false,some ⟨16,[],none,false⟩⟩,⟨256,.lf,false,some ⟨17,[],none,false⟩⟩,⟨256,.vt,false,some ⟨15,[.code],none,false⟩⟩,⟨256,.ff,false,some ⟨18,[],none,false⟩⟩,⟨256,.cr,false,some ⟨19,[],none,false⟩⟩,⟨256,.cr,true,some ⟨20,[],none,false⟩⟩,⟨34,.other,false,some ⟨15,[.code],none,false⟩⟩,⟨35,.other,false,some ⟨15,[.code],none,false⟩⟩,⟨39,.other,false,some ⟨0,[.commit],some 2,true⟩⟩,⟨92,.other,false,some ⟨21,[],none,false⟩⟩]⟩]
theorem jam_line_lrowsOk : rowsOk jam_line_nfa jam_line_lex.rel (jam_line_lcs.map (·.1)) jam_line_lrows = true := by decide +kernel
def jam_line_lfr : List CA.FRow := [⟨true,none,[],[⟨256,.other,false,false,none,some ([.setEnt (.own 3)],(some 4,true))⟩,⟨9,.ws,false,false,some 1,some ([.setEnt (.own 0)],(some 0,false))⟩,⟨10,.lf,false,true,none,some ([.setEnt .newline],(some 3,true))⟩,⟨11,.vt,false,false,none,none⟩,⟨12,.ff,false,true,none,some ([.setEnt .newline],(some 3,true))⟩,⟨13,.cr,false,false,some 2,some ([.setEnt .newline],(none,false))⟩,⟨13,.cr,true,true,some 3,some ([.setEnt .newline],(some 3,false))⟩,⟨34,.other,false,false,some 4,some ([.enqueue,.code,.setEnt (.own 3)],(some 4,false))⟩,⟨35,.other,false,false,some 5,some ([.comment,.setEnt (.own 3)],(some 1,false))⟩,⟨39,.other,false,false,some 6,some ([.enqueue,.code,.setEnt (.own 3)],(some 4,false))⟩,⟨92,.other,false,false,none,some ([.setEnt (.own 3)],(some 4,true))⟩]⟩,⟨false,some 0,[],[⟨256,.other,false,false,none,none⟩,⟨9,.ws,false,false,some 1,some ([.setEnt (.own 0)],(some 0,false))⟩,⟨10,.lf,false,true,none,none⟩,⟨11,.vt,false,false,none,none⟩,⟨12,.ff,false,true,none,none⟩,⟨13,.cr,false,false,none,none⟩,⟨13,.cr,true,true,none,none⟩,⟨34,.other,false,false,none,none⟩,⟨35,.other,false,false,none,none⟩,⟨39,.other,false,false,none,none⟩,⟨92,.other,false,false,none,none⟩]⟩,⟨false,none,[],[⟨256,.other,false,false,none,none⟩,⟨9,.ws,false,false,none,none⟩,⟨10,.lf,false,true,none,some ([.setEnt .newline],(some 3,true))⟩,⟨11,.vt,false,false,none,none⟩,⟨12,.ff,false,true,none,none⟩,⟨13,.cr,false,false,none,none⟩,⟨13,.cr,true,true,none,none⟩,⟨34,.other,false,false,none,none⟩,⟨35,.other,false,false,none,none⟩,⟨39,.other,false,false,none,none⟩,⟨92,.other,false,false,none,none⟩]⟩,⟨false,some 3,[],[⟨256,.other,false,false,none,none⟩,⟨9,.ws,false,false,none,none⟩,⟨10,.lf,false,true,none,some ([.setEnt .newline],(some 3,true))⟩,⟨11,.vt,false,false,none,none⟩,⟨12,.ff,false,true,none,none⟩,⟨13,.cr,false,false,none,none⟩,⟨13,.cr,true,true,none,none⟩,⟨34,.other,false,false,none,none⟩,⟨35,.other,false,false,none,none⟩,⟨39,.other,false,false,none,none⟩,⟨92,.other,false,false,none,none⟩]⟩,⟨false,some 4,[],[⟨256,.other,false,false,some 7,some ([.code],(none,false))⟩,⟨9,.ws,false,false,some 8,some ([],(none,false))⟩,⟨10,.lf,false,true,some 9,some ([],(none,false))⟩,⟨11,.vt,false,false,some 7,some ([.code],(none,false))⟩,⟨12,.ff,false,true,some 10,some ([],(none,false))⟩,⟨13,.cr,false,false,some 11,some ([],(none,false))⟩,⟨13,.cr,true,true,some 12,some ([],(none,false))⟩,⟨34,.other,false,false,none,some ([.commit],(some 2,true))⟩,⟨35,.other,false,false,some 7,some ([.code],(none,false))⟩,⟨39,.other,false,false,some 7,some ([.code],(none,false))⟩,⟨92,.other,false,false,some 13,some ([],(none,false))⟩]⟩,⟨false,some 1,[],[⟨256,.other,false,false,some 14,some ([],(some 1,false))⟩,⟨9,.ws,false,false,some 14,some ([],(some 1,false))⟩,⟨10,.lf,false,true,none,none⟩,⟨11,.vt,false,false,some 14,some ([],(some 1,false))⟩,⟨12,.ff,false,true,none,none⟩,⟨13,.cr,false,false,none,none⟩,⟨13,.cr,true,true,none,none⟩,⟨34,.other,false,false,some 14,some ([],(some 1,false))⟩,⟨35,.other,false,false,some 14,some ([],(some 1,false))⟩,⟨39,.other,false,false,some 14,some ([],(some 1,false))⟩,⟨92,.other,false,false,some 14,some ([],(some 1,false))⟩]⟩,⟨false,some 4,[],[⟨256,.other,false,false,some 15,some ([.code],(none,false))⟩,⟨9,.ws,false,false,some 16,some ([],(none,false))⟩,⟨10,.lf,false,true,some 17,some ([],(none,false))⟩,⟨11,.vt,false,false,some 15,some ([.code],(none,false))⟩,⟨12,.ff,false,true,some 18,some ([],(none,false))⟩,⟨13,.cr,false,false,some 19,some ([],(none,false))⟩,⟨13,.cr,true,true,some 20,some ([],(none,false))⟩,⟨34,.other,false,false,some 15,some ([.code],(none,false))⟩,⟨35,.other,false,false,some 15,some ([.code],(none,false))⟩,⟨39,.other,false,false,none,some ([.commit],(some 2,true))⟩,⟨92,.other,false,false,some 21,some ([],(none,false))⟩]⟩,⟨false,none,[],[⟨256,.other,false,false,some 7,some ([.code],(none,false))⟩,⟨9,.ws,false,false,some 8,some ([],(none,false))⟩,⟨10,.lf,false,true,some 9,some ([],(none,false))⟩,⟨11,.vt,false,false,some 7,some ([.code],(none,false))⟩,⟨12,.ff,false,true,some 10,some ([],(none,false))⟩,⟨13,.cr,false,false,some 11,some ([],(none,false))⟩,⟨13,.cr,true,true,some 12,some ([],(none,false))⟩,⟨34,.other,false,false,none,some ([.commit],(some 2,true))⟩,⟨35,.other,false,false,some 7,some ([.code],(none,false))⟩,⟨39,.other,false,false,some 7,some ([.code],(none,false))⟩,⟨92,.other,false,false,some 13,some ([],(none,false))⟩]⟩,⟨false,none,[],[⟨256,.other,false,false,some 7,some ([.code],(none,false))⟩,⟨9,.ws,false,false,some 8,some ([],(none,false))⟩,⟨10,.lf,false,true,some 9,some ([],(none,false))⟩,⟨11,.vt,false,false,some 7,some ([.code],(none,false))⟩,⟨12,.ff,false,true,some 10,some ([],(none,false))⟩,⟨13,.cr,false,false,some 11,some ([],(none,false))⟩,⟨13,.cr,true,true,some 12,some ([],(none,false))⟩,⟨34,.other,false,false,none,some ([.commit],(some 2,true))⟩,⟨35,.other,false,false,some 7,some ([.code],(none,false))⟩,⟨39,.other,false,false,some 7,some ([.code],(none,false))⟩,⟨92,.other,false,false,some 13,some ([],(none,false))⟩]⟩,⟨false,none,[],[⟨256,.other,false,false,some 7,some ([.setEnt .internalNl,.cb,.code],(none,false))⟩,⟨9,.ws,false,false,some 8,some ([.setEnt .internalNl,.cb],(none,false))⟩,⟨10,.lf,false,true,some 9,some ([.setEnt .internalNl,.cb],(none,false))⟩,⟨11,.vt,false,false,some 7,some ([.setEnt .internalNl,.cb,.code],(none,false))⟩,⟨12,.ff,false,true,some 10,some ([.setEnt .internalNl,.cb],(none,false))⟩,⟨13,.cr,false,false,some 11,some ([.setEnt .internalNl,.cb],(none,false))⟩,⟨13,.cr,true,true,some 12,some ([.setEnt .internalNl,.cb],(none,false))⟩,⟨34,.other,false,false,none,some ([.setEnt .internalNl,.cb,.commit],(some 2,true))⟩,⟨35,.other,false,false,some 7,some ([.setEnt .internalNl,.cb,.code],(none,false))⟩,⟨39,.other,false,false,some 7,some ([.setEnt .internalNl,.cb,.code],(none,false))⟩,⟨92,.other,false,false,some 13,some ([.setEnt .internalNl,.cb],(none,false))⟩]⟩,⟨false,none,[],[⟨256,.other,false,false,some 7,some ([.setEnt .internalNl,.cb,.code],(none,false))⟩,⟨9,.ws,false,false,some 8,some ([.setEnt .internalNl,.cb],(none,false))⟩,⟨10,.lf,false,true,some 9,some ([.setEnt .internalNl,.cb],(none,false))⟩,⟨11,.vt,false,false,some 7,some ([.setEnt .internalNl,.cb,.code],(none,false))⟩,⟨12,.ff,false,true,some 10,some ([.setEnt .internalNl,.cb],(none,false))⟩,⟨13,.cr,false,false,some 11,some ([.setEnt .internalNl,.cb],(none,false))⟩,⟨13,.cr,true,true,some 12,some ([.setEnt .internalNl,.cb],(none,false))⟩,⟨34,.other,false,false,none,some ([.setEnt .internalNl,.cb,.commit],(some 2,true))⟩,⟨35,.other,false,false,some 7,some ([.setEnt .internalNl,.cb,.code],(none,false))⟩,⟨39,.other,false,false,some 7,some ([.setEnt .internalNl,.cb,.code],(none,false))⟩,⟨92,.other,false,false,some 13,some ([.setEnt .internalNl,.cb],(none,false))⟩]⟩,⟨false,none,[],[⟨256,.other,false,false,none,none⟩,⟨9,.ws,false,false,none,none⟩,⟨10,.lf,false,true,some 22,some ([],(none,false))⟩,⟨11,.vt,false,false,none,none⟩,⟨12,.ff,false,true,none,none⟩,⟨13,.cr,false,false,none,none⟩,⟨13,.cr,true,true,none,none⟩,⟨34,.other,false,false,none,none⟩,⟨35,.other,false,false,none,none⟩,⟨39,.other,false,false,none,none⟩,⟨92,.other,false,false,none,none⟩]⟩,⟨false,none,[],[⟨256,.other,false,false,some 7,some ([.setEnt .internalNl,.cb,.code],(none,false))⟩,⟨9,.ws,false,false,some 8,some ([.setEnt .internalNl,.cb],(none,false))⟩,⟨10,.lf,false,true,some 23,some ([.setEnt .internalNl,.cb],(none,false))⟩,⟨11,.vt,false,false,some 7,some ([.setEnt .internalNl,.cb,.code],(none,false))⟩,⟨12,.ff,false,true,some 10,some ([.setEnt .internalNl,.cb],(none,false))⟩,⟨13,.cr,false,false,some 11,some ([.setEnt .internalNl,.cb],(none,false))⟩,⟨13,.cr,true,true,some 12,some ([.setEnt .internalNl,.cb],(none,false))⟩,⟨34,.other,false,false,none,some ([.setEnt .internalNl,.cb,.commit],(some 2,true))⟩,⟨35,.other,false,false,some 7,some ([.setEnt .internalNl,.cb,.code],(none,false))⟩,⟨39,.other,false,false,some 7,some ([.setEnt .internalNl,.cb,.code],(none,false))⟩,⟨92,.other,false,false,some 13,some ([.setEnt .internalNl,.cb],(none,false))⟩]⟩,⟨false,none,[],[⟨256,.other,false,false,some 24,some ([.code],(none,false))⟩,⟨9,.ws,false,false,some 24,some ([.code],(none,false))⟩,⟨10,.lf,false,true,none,none⟩,⟨11,.vt,false,false,some 24,some ([.code],(none,false))⟩,⟨12,.ff,false,true,none,none⟩,⟨13,.cr,false,false,none,none⟩,⟨13,.cr,true,true,none,none⟩,⟨34,.other,false,false,some 24,some ([.code],(none,false))⟩,⟨35,.other,false,false,some 24,some ([.code],(none,false))⟩,⟨39,.other,false,false,some 24,some ([.code],(none,false))⟩,⟨92,.other,false,false,some 24,some ([.code],(none,false))⟩]⟩,⟨false,some 1,[],[⟨256,.other,false,false,some 14,some ([],(some 1,false))⟩,⟨9,.ws,false,false,some 14,some ([],(some 1,false))⟩,⟨10,.lf,false,true,none,none⟩,⟨11,.vt,false,false,some 14,some ([],(some 1,false))⟩,⟨12,.ff,false,true,none,none⟩,⟨13,.cr,false,false,none,none⟩,⟨13,.cr,true,true,none,none⟩,⟨34,.other,false,false,some 14,some ([],(some 1,false))⟩,⟨35,.other,false,false,some 14,some ([],(some 1,false))⟩,⟨39,.other,false,false,some 14,some ([],(some 1,false))⟩,⟨92,.other,false,false,some 14,some ([],(some 1,false))⟩]⟩,⟨false,none,[],[⟨256,.other,false,false,some 15,some ([.code],(none,false))⟩,⟨9,.ws,false,false,some 16,some ([],(none,false))⟩,⟨10,.lf,false,true,some 17,some ([],(none,false))⟩,⟨11,.vt,false,false,some 15,some ([.code],(none,false))⟩,⟨12,.ff,false,true,some 18,some ([],(none,false))⟩,⟨13,.cr,false,false,some 19,some ([],(none,false))⟩,⟨13,.cr,true,true,some 20,some ([],(none,false))⟩,⟨34,.other,false,false,some 15,some ([.code],(none,false))⟩,⟨35,.other,false,false,some 15,some ([.code],(none,false))⟩,⟨39,.other,false,false,none,some ([.commit],(some 2,true))⟩,⟨92,.other,false,false,some 21,some ([],(none,false))⟩]⟩,⟨false,none,[],[⟨256,.other,false,false,some 15,some ([.code],(none,false))⟩,⟨9,.ws,false,false,some 16,some ([],(none,false))⟩,⟨10,.lf,false,true,some 17,some ([],(none,false))⟩,⟨11,.vt,false,false,some 15,some ([.code],(none,false))⟩,⟨12,.ff,false,true,some 18,some ([],(none,false))⟩,⟨13,.cr,false,false,some 19,some ([],(none,false))⟩,⟨13,.cr,true,true,some 20,some ([],(none,false))⟩,⟨34,.other,false,false,some 15,some ([.code],(none,false))⟩,⟨35,.other,false,false,some 15,some ([.code],(none,false))⟩,⟨39,.other,false,false,none,some ([.commit],(some 2,true))⟩,⟨92,.other,false,false,some 21,some ([],(none,false))⟩]⟩,⟨false,none,[],[⟨256,.other,false,false,some 15,some ([.setEnt .internalNl,.cb,.code],(none,false))⟩,⟨9,.ws,false,false,some 16,some ([.setEnt .internalNl,.cb],(none,false))⟩,⟨10,.lf,false,true,some 17,some ([.setEnt .internalNl,.cb],(none,false))⟩,⟨11,.vt,false,false,some 15,some ([.setEnt .internalNl,.cb,.code],(none,false))⟩,⟨12,.ff,false,true,some 18,some ([.setEnt .internalNl,.cb],(none,false))⟩,⟨13,.cr,false,false,some 19,some ([.setEnt .internalNl,.cb],(none,false))⟩,⟨13,.cr,true,true,some 20,some ([.setEnt .internalNl,.cb],(none,false))⟩,⟨34,.other,false,false,some 15,some ([.setEnt .internalNl,.cb,.code],(none,false))⟩,⟨35,.other,false,false,some 15,some ([.setEnt .internalNl,.cb,.code],(none,false))⟩,⟨39,.other,false,false,none,some ([.setEnt .internalNl,.cb,.commit],(some 2,true))⟩,⟨92,.other,false,false,some 21,some ([.setEnt .internalNl,.cb],(none,false))⟩]⟩,⟨false,none,[],[⟨256,.other,false,false,some 15,some ([.setEnt .internalNl,.cb,.code],(none,false))⟩,⟨9,.ws,false,false,some 16,some ([.setEnt .internalNl,.cb],(none,false))⟩,⟨10,.lf,false,true,some 17,some ([.setEnt .internalNl,.cb],(none,false))⟩,⟨11,.vt,false,false,some 15,some ([.setEnt .internalNl,.cb,.code],(none,false))⟩,⟨12,.ff,false,true,some 18,some ([.setEnt .internalNl,.cb],(none,false))⟩,⟨13,.cr,false,false,some 19,some ([.setEnt .internalNl,.cb],(none,false))⟩,⟨13,.cr,true,true,some 20,some ([.setEnt .internalNl,.cb],(none,false))⟩,⟨34,.other,false,false,some 15,some ([.setEnt .internalNl,.cb,.code],(none,false))⟩,⟨35,.other,false,false,some 15,some ([.setEnt .internalNl,.cb,.code],(none,false))⟩,⟨39,.other,false,false,none,some ([.setEnt .internalNl,.cb,.commit],(some 2,true))⟩,⟨92,.other,false,false,some 21,some ([.setEnt .internalNl,.cb],(none,false))⟩]⟩,⟨false,none,[],[⟨256,.other,false,false,none,none⟩,⟨9,.ws,false,false,none,none⟩,⟨10,.lf,false,true,some 25,some ([],(none,false))⟩,⟨11,.vt,false,false,none,none⟩,⟨12,.ff,false,true,none,none⟩,⟨13,.cr,false,false,none,none⟩,⟨13,.cr,true,true,none,none⟩,⟨34,.other,false,false,none,none⟩,⟨35,.other,false,false,none,none⟩,⟨39,.other,false,false,none,none⟩,⟨92,.other,false,false,none,none⟩]⟩,⟨false,none,[],[⟨256,.other,false,false,some 15,some ([.setEnt .internalNl,.cb,.code],(none,false))⟩,⟨9,.ws,false,false,some 16,some ([.setEnt .internalNl,.cb],(none,false))⟩,⟨10,.lf,false,true,some 26,some ([.setEnt .internalNl,.cb],(none,false))⟩,⟨11,.vt,false,false,some 15,some ([.setEnt .internalNl,.cb,.code],(none,false))⟩,⟨12,.ff,false,true,some 18,some ([.setEnt .internalNl,.cb],(none,false))⟩,⟨13,.cr,false,false,some 19,some ([.setEnt .internalNl,.cb],(none,false))⟩,⟨13,.cr,true,true,some 20,some ([.setEnt .internalNl,.cb],(none,false))⟩,⟨34,.other,false,false,some 15,some ([.setEnt .internalNl,.cb,.code],(none,false))⟩,⟨35,.other,false,false,some 15,some ([.setEnt .internalNl,.cb,.code],(none,false))⟩,⟨39,.other,false,false,none,some ([.setEnt .internalNl,.cb,.commit],(some 2,true))⟩,⟨92,.other,false,false,some 21,some ([.setEnt .internalNl,.cb],(none,false))⟩]⟩,⟨false,none,[],[⟨256,.other,false,false,some 27,some ([.code],(none,false))⟩,⟨9,.ws,false,false,some 27,some ([.code],(none,false))⟩,⟨10,.lf,false,true,none,none⟩,⟨11,.vt,false,false,some 27,some ([.code],(none,false))⟩,⟨12,.ff,false,true,none,none⟩,⟨13,.cr,false,false,none,none⟩,⟨13,.cr,true,true,none,none⟩,⟨34,.other,false,false,some 27,some ([.code],(none,false))⟩,⟨35,.other,false,false,some 27,some ([.code],(none,false))⟩,⟨39,.other,false,false,some 27,some ([.code],(none,false))⟩,⟨92,.other,false,false,some 27,some ([.code],(none,false))⟩]⟩,⟨false,none,[],[⟨256,.other,false,false,some 7,some ([.setEnt .internalNl,.cb,.code],(none,false))⟩,⟨9,.ws,false,false,some 8,some ([.setEnt .internalNl,.cb],(none,false))⟩,⟨10,.lf,false,true,some 9,some ([.setEnt .internalNl,.cb],(none,false))⟩,⟨11,.vt,false,false,some 7,some ([.setEnt .internalNl,.cb,.code],(none,false))⟩,⟨12,.ff,false,true,some 10,some ([.setEnt .internalNl,.cb],(none,false))⟩,⟨13,.cr,false,false,some 11,some ([.setEnt .internalNl,.cb],(none,false))⟩,⟨13,.cr,true,true,some 12,some ([.setEnt .internalNl,.cb],(none,false))⟩,⟨34,.other,false,false,none,some ([.setEnt .internalNl,.cb,.commit],(some 2,true))⟩,⟨35,.other,false,false,some 7,some ([.setEnt .internalNl,.cb,.code],(none,false))⟩,⟨39,.other,false,false,some 7,some ([.setEnt .internalNl,.cb,.code],(none,false))⟩,⟨92,.other,false,false,some 13,some ([.setEnt .internalNl,.cb],(none,false))⟩]⟩,⟨false,none,[],[⟨256,.other,false,false,some 7,some ([.setEnt .internalNl,.cb,.code],(none,false))⟩,⟨9,.ws,false,false,some 8,some ([.setEnt .internalNl,.cb],(none,false))⟩,⟨10,.lf,false,true,some 9,some ([.setEnt .internalNl,.cb],(none,false))⟩,⟨11,.vt,false,false,some 7,some ([.setEnt .internalNl,.cb,.code],(none,false))⟩,⟨12,.ff,false,true,some 10,some ([.setEnt .internalNl,.cb],(none,false))⟩,⟨13,.cr,false,false,some 11,some ([.setEnt .internalNl,.cb],(none,false))⟩,⟨13,.cr,true,true,some 12,some ([.setEnt .internalNl,.cb],(none,false))⟩,⟨34,.other,false,false,none,some ([.setEnt .internalNl,.cb,.commit],(some 2,true))⟩,⟨35,.other,false,false,some 7,some ([.setEnt .internalNl,.cb,.code],(none,false))⟩,⟨39,.other,false,false,some 7,some ([.setEnt .internalNl,.cb,.code],(none,false))⟩,⟨92,.other,false,false,some 13,some ([.setEnt .internalNl,.cb],(none,false))⟩]⟩,⟨false,none,[],[⟨256,.other,false,false,some 7,some ([.code],(none,false))⟩,⟨9,.ws,false,false,some 8,some ([],(none,false))⟩,⟨10,.lf,false,true,some 9,some ([],(none,false))⟩,⟨11,.vt,false,false,some 7,some ([.code],(none,false))⟩,⟨12,.ff,false,true,some 10,some ([],(none,false))⟩,⟨13,.cr,false,false,some 11,some ([],(none,false))⟩,⟨13,.cr,true,true,some 12,some ([],(none,false))⟩,⟨34,.other,false,false,none,some ([.commit],(some 2,true))⟩,⟨35,.other,false,false,some 7,some ([.code],(none,false))⟩,⟨39,.other,false,false,some 7,some ([.code],(none,false))⟩,⟨92,.other,false,false,some 13,some ([],(none,false))⟩]⟩,⟨false,none,[],[⟨256,.other,false,false,some 15,some ([.setEnt .internalNl,.cb,.code],(none,false))⟩,⟨9,.ws,false,false,some 16,some ([.setEnt .internalNl,.cb],(none,false))⟩,⟨10,.lf,false,true,some 17,some ([.setEnt .internalNl,.cb],(none,false))⟩,⟨11,.vt,false,false,some 15,some ([.setEnt .internalNl,.cb,.code],(none,false))⟩,⟨12,.ff,false,true,some 18,some ([.setEnt .internalNl,.cb],(none,false))⟩,⟨13,.cr,false,false,some 19,some ([.setEnt .internalNl,.cb],(none,false))⟩,⟨13,.cr,true,true,some 20,some ([.setEnt .internalNl,.cb],(none,false))⟩,⟨34,.other,false,false,some 15,some ([.setEnt .internalNl,.cb,.code],(none,false))⟩,⟨35,.other,false,false,some 15,some ([.setEnt .internalNl,.cb,.code],(none,false))⟩,⟨39,.other,false,false,none,some ([.setEnt .internalNl,.cb,.commit],(some 2,true))⟩,⟨92,.other,false,false,some 21,some ([.setEnt .internalNl,.cb],(none,false))⟩]⟩,⟨false,none,[],[⟨256,.other,false,false,some 15,some ([.setEnt .internalNl,.cb,.code],(none,false))⟩,⟨9,.ws,false,false,some 16,some ([.setEnt .internalNl,.cb],(none,false))⟩,⟨10,.lf,false,true,some 17,some ([.setEnt .internalNl,.cb],(none,false))⟩,⟨11,.vt,false,false,some 15,some ([.setEnt .internalNl,.cb,.code],(none,false))⟩,⟨12,.ff,false,true,some 18,some ([.setEnt .internalNl,.cb],(none,false))⟩,⟨13,.cr,false,false,some 19,some ([.setEnt .internalNl,.cb],(none,false))⟩,⟨13,.cr,true,true,some 20,some ([.setEnt .internalNl,.cb],(none,false))⟩,⟨34,.other,false,false,some 15,some ([.setEnt .internalNl,.cb,.code],(none,false))⟩,⟨35,.other,false,false,some 15,some ([.setEnt .internalNl,.cb,.code],(none,false))⟩,⟨39,.other,false,false,none,some ([.setEnt .internalNl,.cb,.commit],(some 2,true))⟩,⟨92,.other,false,false,some 21,some ([.setEnt .internalNl,.cb],(none,false))⟩]⟩,⟨false,none,[],[⟨256,.other,false,false,some 15,some ([.code],(none,false))⟩,⟨9,.ws,false,false,some 16,some ([],(none,false))⟩,⟨10,.lf,false,true,some 17,some ([],(none,false))⟩,⟨11,.vt,false,false,some 15,some ([.code],(none,false))⟩,⟨12,.ff,false,true,some 18,some ([],(none,false))⟩,⟨13,.cr,false,false,some 19,some ([],(none,false))⟩,⟨13,.cr,true,true,some 20,some ([],(none,false))⟩,⟨34,.other,false,false,some 15,some ([.code],(none,false))⟩,⟨35,.other,false,false,some 15,some ([.code],(none,false))⟩,⟨39,.other,false,false,none,some ([.commit],(some 2,true))⟩,⟨92,.other,false,false,some 21,some ([],(none,false))⟩]⟩]
theorem jam_line_lfrOk : jam_line_lrows.map (CA.prep jam_line_lex) = jam_line_lfr := by decide +kernel
def jam_line_lTab : List CT := [(.node (.node (.node (.node .leaf 128 [⟨⟨.code,[],.lcode,false,[],false⟩,false,false,[],none,none,none,false,false,false,none,false,⟨.lcode,none,false,.lblank⟩⟩] .leaf) 38019 [⟨⟨.code,[],.lcode,true,[],false⟩,false,false,[],none,none,none,false,false,false,none,false,⟨.lblank,none,false,.lblank⟩⟩] (.node .leaf 185487 [⟨⟨.code,[],.lcomment,true,[],false⟩,false,false,[],none,none,none,false,false,false,none,false,⟨.lblank,none,false,.lblank⟩⟩] .leaf)) 296088 [⟨⟨.code,[],.lblank,false,[],false⟩,false,false,[],none,none,none,false,false,false,none,false,⟨.lblank,none,false,.lblank⟩⟩] (.node (.node .leaf 332955 [⟨⟨.code,[],.lblank,true,[],false⟩,false,false,[],none,none,none,false,false,false,none,false,⟨.lblank,none,false,.lblank⟩⟩] .leaf) 1179872 [⟨⟨(.inside 0),[],.lcode,false,[],false⟩,false,false,[none],none,none,none,false,false,false,none,false,⟨.lcode,none,false,.lblank⟩⟩] (.node .leaf 1327852 [⟨⟨(.inside 0),[],.lcomment,false,[],false⟩,false,false,[none],none,none,none,false,false,false,none,false,⟨.lcomment,none,false,.lblank⟩⟩] .leaf))) 22179935 [⟨⟨(.inside 0),[],.lcode,false,[],false⟩,false,false,[some (10,(.lf,false))],none,none,none,false,false,false,none,false,⟨.lcode,none,false,.lblank⟩⟩] (.node (.node (.node .leaf 22327915 [⟨⟨(.inside 0),[],.lcomment,false,[],false⟩,false,false,[some (10,(.lf,false))],none,none,none,false,false,false,none,false,⟨.lcomment,none,false,.lblank⟩⟩] .leaf) 26179947 [⟨⟨(.inside 0),[],.lcode,false,[],false⟩,false,false,[some (12,(.ff,false))],none,none,none,false,false,false,none,false,⟨.lcode,none,false,.lblank⟩⟩] (.node .leaf 26327927 [⟨⟨(.inside 0),[],.lcomment,false,[],false⟩,false,false,[some (12,(.ff,false))],none,none,none,false,false,false,none,false,⟨.lcomment,none,false,.lblank⟩⟩] .leaf)) 28179953 [⟨⟨(.inside 0),[],.lcode,false,[],false⟩,false,false,[some (13,(.cr,false))],none,none,none,false,false,false,none,false,⟨.lcode,none,false,.lblank⟩⟩] (.node (.node .leaf 28327933 [⟨⟨(.inside 0),[],.lcomment,false,[],false⟩,false,false,[some (13,(.cr,false))],none,none,none,false,false,false,none,false,⟨.lcomment,none,false,.lblank⟩⟩] .leaf) 29179956 [⟨⟨(.inside 0),[],.lcode,false,[],false⟩,false,false,[some (13,(.cr,true))],none,none,none,false,false,false,none,false,⟨.lcode,none,false,.lblank⟩⟩] (.node .leaf 29327936 [⟨⟨(.inside 0),[],.lcomment,false,[],false⟩,false,false,[some (13,(.cr,true))],none,none,none,false,false,false,none,false,⟨.lcomment,none,false,.lblank⟩⟩] .leaf)))),(.node (.node .leaf 128 [⟨⟨.code,[],.lcode,false,[],false⟩,false,false,[],none,none,none,false,false,false,none,false,⟨.lcode,some (.own 0),false,.lblank⟩⟩] .leaf) 296088 [⟨⟨.code,[],.lblank,false,[],false⟩,false,false,[],none,none,none,false,false,false,none,false,⟨.lblank,some (.own 0),false,.lblank⟩⟩] .leaf),(.node (.node .leaf 160 [⟨⟨.code,[],.lcode,false,[],false⟩,true,false,[],none,none,none,false,false,false,none,false,⟨.lcode,some .newline,false,.lblank⟩⟩] .leaf) 148140 [⟨⟨.code,[],.lcomment,false,[],false⟩,true,false,[],none,none,none,false,false,false,none,false,⟨.lcomment,some .newline,false,.lblank⟩⟩] (.node .leaf 296120 [⟨⟨.code,[],.lblank,false,[],false⟩,true,false,[],none,none,none,false,false,false,none,false,⟨.lblank,some .newline,false,.lblank⟩⟩] .leaf)),(.node (.node .leaf 37011 [⟨⟨.code,[],.lcode,true,[],false⟩,false,true,[],none,none,none,false,false,false,none,false,⟨.lcode,some .newline,false,.lblank⟩⟩] .leaf) 184991 [⟨⟨.code,[],.lcomment,true,[],false⟩,false,true,[],none,none,none,false,false,false,none,false,⟨.lcomment,some .newline,false,.lblank⟩⟩] (.node .leaf 332971 [⟨⟨.code,[],.lblank,true,[],false⟩,false,true,[],none,none,none,false,false,false,none,false,⟨.lblank,some .newline,false,.lblank⟩⟩] .leaf)),(.node (.node .leaf 7078720 [⟨⟨(.inside 2),[],.lcode,false,[],false⟩,false,false,[],none,none,none,false,false,false,none,false,⟨.lcode,some (.own 3),true,.lcode⟩⟩] .leaf) 7078848 [⟨⟨(.inside 2),[],.lcode,false,[],false⟩,false,false,[],none,none,none,false,false,false,none,false,⟨.lcode,some (.own 3),true,.lblank⟩⟩] .leaf),(.node (.node .leaf 1179872 [⟨⟨(.inside 0),[],.lcode,false,[],false⟩,false,false,[],none,none,none,false,false,false,none,false,⟨.lcode,some (.own 3),false,.lblank⟩⟩] .leaf) 1327852 [⟨⟨(.inside 0),[],.lcomment,false,[],false⟩,false,false,[],none,none,none,false,false,false,none,false,⟨.lcomment,some (.own 3),false,.lblank⟩⟩] .leaf),(.node (.node .leaf 4129360 [⟨⟨(.inside 1),[],.lcode,false,[],false⟩,false,false,[],none,none,none,false,false,false,none,false,⟨.lcode,some (.own 3),true,.lcode⟩⟩] .leaf) 4129488 [⟨⟨(.inside 1),[],.lcode,false,[],false⟩,false,false,[],none,none,none,false,false,false,none,false,⟨.lcode,some (.own 3),true,.lblank⟩⟩] .leaf),(.node (.node (.node .leaf 7522149 [⟨⟨(.inside 2),[],.lcode,false,[],false⟩,false,false,[],some 4,some ⟨(.inside 2),[],.lcode,false,[],false⟩,none,false,false,false,none,false,⟨.lcode,some (.own 3),true,.lcode⟩⟩] .leaf) 7522157 [⟨⟨(.inside 2),[],.lcode,false,[],false⟩,false,false,[],some 4,some ⟨(.inside 2),[],.lcode,false,[],false⟩,none,true,false,false,none,false,⟨.lcode,some .internalNl,true,.lcode⟩⟩] .leaf) 7522277 [⟨⟨(.inside 2),[],.lcode,false,[],false⟩,false,false,[],some 4,some ⟨(.inside 2),[],.lcode,false,[],false⟩,none,false,false,false,none,false,⟨.lcode,some (.own 3),true,.lblank⟩⟩] (.node .leaf 7522285 [⟨⟨(.inside 2),[],.lcode,false,[],false⟩,false,false,[],some 4,some ⟨(.inside 2),[],.lcode,false,[],false⟩,none,true,false,false,none,false,⟨.lcode,some .internalNl,true,.lblank⟩⟩] .leaf)),(.node (.node (.node .leaf 7522149 [⟨⟨(.inside 2),[],.lcode,false,[],false⟩,false,false,[],some 4,some ⟨(.inside 2),[],.lcode,false,[],false⟩,none,false,false,false,none,false,⟨.lcode,some (.own 3),true,.lcode⟩⟩] .leaf) 7522157 [⟨⟨(.inside 2),[],.lcode,false,[],false⟩,false,false,[],some 4,some ⟨(.inside 2),[],.lcode,false,[],false⟩,none,true,false,false,none,false,⟨.lcode,some .internalNl,true,.lcode⟩⟩] (.node .leaf 7522277 [⟨⟨(.inside 2),[],.lcode,false,[],false⟩,false,false,[],some 4,some ⟨(.inside 2),[],.lcode,false,[],false⟩,none,false,false,false,none,false,⟨.lcode,some (.own 3),true,.lblank⟩⟩] .leaf)) 7522285 [⟨⟨(.inside 2),[],.lcode,false,[],false⟩,false,false,[],some 4,some ⟨(.inside 2),[],.lcode,false,[],false⟩,none,true,false,false,none,false,⟨.lcode,some .internalNl,true,.lblank⟩⟩] (.node (.node .leaf 7818117 [⟨⟨(.inside 2),[],.lblank,false,[],false⟩,false,false,[],some 4,some ⟨(.inside 2),[],.lcode,false,[],false⟩,none,true,false,false,none,false,⟨.lblank,some .internalNl,true,.lcode⟩⟩] .leaf) 7818245 [⟨⟨(.inside 2),[],.lblank,false,[],false⟩,false,false,[],some 4,some ⟨(.inside 2),[],.lcode,false,[],false⟩,none,true,false,false,none,false,⟨.lblank,some .internalNl,true,.lblank⟩⟩] .leaf)),(.node (.node (.node .leaf 7559016 [⟨⟨(.inside 2),[],.lcode,true,[],false⟩,false,false,[],some 4,some ⟨(.inside 2),[],.lcode,false,[],false⟩,none,false,false,false,none,false,⟨.lcode,some (.own 3),true,.lcode⟩⟩] .leaf) 7559024 [⟨⟨(.inside 2),[],.lcode,true,[],false⟩,false,false,[],some 4,some ⟨(.inside 2),[],.lcode,false,[],false⟩,none,true,false,false,none,false,⟨.lcode,some .internalNl,true,.lcode⟩⟩] (.node .leaf 7559144 [⟨⟨(.inside 2),[],.lcode,true,[],false⟩,false,false,[],some 4,some ⟨(.inside 2),[],.lcode,false,[],false⟩,none,false,false,false,none,false,⟨.lcode,some (.own 3),true,.lblank⟩⟩] .leaf)) 7559152 [⟨⟨(.inside 2),[],.lcode,true,[],false⟩,false,false,[],some 4,some ⟨(.inside 2),[],.lcode,false,[],false⟩,none,true,false,false,none,false,⟨.lcode,some .internalNl,true,.lblank⟩⟩] (.node (.node .leaf 7854984 [⟨⟨(.inside 2),[],.lblank,true,[],false⟩,false,false,[],some 4,some ⟨(.inside 2),[],.lcode,false,[],false⟩,none,true,false,false,none,false,⟨.lblank,some .internalNl,true,.lcode⟩⟩] .leaf) 7855112 [⟨⟨(.inside 2),[],.lblank,true,[],false⟩,false,false,[],some 4,some ⟨(.inside 2),[],.lcode,false,[],false⟩,none,true,false,false,none,false,⟨.lblank,some .internalNl,true,.lblank⟩⟩] .leaf)),(.node (.node (.node .leaf 7559016 [⟨⟨(.inside 2),[],.lcode,true,[],false⟩,false,false,[],some 4,some ⟨(.inside 2),[],.lcode,false,[],false⟩,none,false,false,false,none,false,⟨.lcode,some (.own 3),true,.lcode⟩⟩] .leaf) 7559024 [⟨⟨(.inside 2),[],.lcode,true,[],false⟩,false,false,[],some 4,some ⟨(.inside 2),[],.lcode,false,[],false⟩,none,true,false,false,none,false,⟨.lcode,some .internalNl,true,.lcode⟩⟩] (.node .leaf 7559144 [⟨⟨(.inside 2),[],.lcode,true,[],false⟩,false,false,[],some 4,some ⟨(.inside 2),[],.lcode,false,[],false⟩,none,false,false,false,none,false,⟨.lcode,some (.own 3),true,.lblank⟩⟩] .leaf)) 7559152 [⟨⟨(.inside 2),[],.lcode,true,[],false⟩,false,false,[],some 4,some ⟨(.inside 2),[],.lcode,false,[],false⟩,none,true,false,false,none,false,⟨.lcode,some .internalNl,true,.lblank⟩⟩] (.node (.node .leaf 7854984 [⟨⟨(.inside 2),[],.lblank,true,[],false⟩,false,false,[],some 4,some ⟨(.inside 2),[],.lcode,false,[],false⟩,none,true,false,false,none,false,⟨.lblank,some .internalNl,true,.lcode⟩⟩] .leaf) 7855112 [⟨⟨(.inside 2),[],.lblank,true,[],false⟩,false,false,[],some 4,some ⟨(.inside 2),[],.lcode,false,[],false⟩,none,true,false,false,none,false,⟨.lblank,some .internalNl,true,.lblank⟩⟩] .leaf)),(.node (.node (.node .leaf 7522181 [⟨⟨(.inside 2),[],.lcode,false,[],false⟩,true,false,[],some 4,some ⟨(.inside 2),[],.lcode,false,[],false⟩,none,false,false,false,none,false,⟨.lcode,some (.own 3),true,.lcode⟩⟩] .leaf) 7522189 [⟨⟨(.inside 2),[],.lcode,false,[],false⟩,true,false,[],some 4,some ⟨(.inside 2),[],.lcode,false,[],false⟩,none,true,false,false,none,false,⟨.lcode,some .internalNl,true,.lcode⟩⟩] (.node .leaf 7522309 [⟨⟨(.inside 2),[],.lcode,false,[],false⟩,true,false,[],some 4,some ⟨(.inside 2),[],.lcode,false,[],false⟩,none,false,false,false,none,false,⟨.lcode,some (.own 3),true,.lblank⟩⟩] .leaf)) 7522317 [⟨⟨(.inside 2),[],.lcode,false,[],false⟩,true,false,[],some 4,some ⟨(.inside 2),[],.lcode,false,[],false⟩,none,true,false,false,none,false,⟨.lcode,some .internalNl,true,.lblank⟩⟩] (.node (.node .leaf 7818149 [⟨⟨(.inside 2),[],.lblank,false,[],false⟩,true,false,[],some 4,some ⟨(.inside 2),[],.lcode,false,[],false⟩,none,true,false,false,none,false,⟨.lblank,some .internalNl,true,.lcode⟩⟩] .leaf) 7818277 [⟨⟨(.inside 2),[],.lblank,false,[],false⟩,true,false,[],some 4,some ⟨(.inside 2),[],.lcode,false,[],false⟩,none,true,false,false,none,false,⟨.lblank,some .internalNl,true,.lblank⟩⟩] .leaf)),(.node (.node (.node .leaf 7559032 [⟨⟨(.inside 2),[],.lcode,true,[],false⟩,false,true,[],some 4,some ⟨(.inside 2),[],.lcode,false,[],false⟩,none,false,false,false,none,false,⟨.lcode,some (.own 3),true,.lcode⟩⟩] .leaf) 7559040 [⟨⟨(.inside 2),[],.lcode,true,[],false⟩,false,true,[],some 4,some ⟨(.inside 2),[],.lcode,false,[],false⟩,none,true,false,false,none,false,⟨.lcode,some .internalNl,true,.lcode⟩⟩] (.node .leaf 7559160 [⟨⟨(.inside 2),[],.lcode,true,[],false⟩,false,true,[],some 4,some ⟨(.inside 2),[],.lcode,false,[],false⟩,none,false,false,false,none,false,⟨.lcode,some (.own 3),true,.lblank⟩⟩] .leaf)) 7559168 [⟨⟨(.inside 2),[],.lcode,true,[],false⟩,false,true,[],some 4,some ⟨(.inside 2),[],.lcode,false,[],false⟩,none,true,false,false,none,false,⟨.lcode,some .internalNl,true,.lblank⟩⟩] (.node (.node .leaf 7855000 [⟨⟨(.inside 2),[],.lblank,true,[],false⟩,false,true,[],some 4,some ⟨(.inside 2),[],.lcode,false,[],false⟩,none,true,false,false,none,false,⟨.lblank,some .internalNl,true,.lcode⟩⟩] .leaf) 7855128 [⟨⟨(.inside 2),[],.lblank,true,[],false⟩,false,true,[],some 4,some ⟨(.inside 2),[],.lcode,false,[],false⟩,none,true,false,false,none,false,⟨.lblank,some .internalNl,true,.lblank⟩⟩] .leaf)),(.node (.node (.node .leaf 931151100 [⟨⟨(.inside 2),[92],.lcode,false,[],false⟩,false,false,[],some 4,some ⟨(.inside 2),[],.lcode,false,[],false⟩,none,false,false,false,none,false,⟨.lcode,some (.own 3),true,.lcode⟩⟩] .leaf) 931151108 [⟨⟨(.inside 2),[92],.lcode,false,[],false⟩,false,false,[],some 4,some ⟨(.inside 2),[],.lcode,false,[],false⟩,none,true,false,false,none,false,⟨.lcode,some .internalNl,true,.lcode⟩⟩] (.node .leaf 931151228 [⟨⟨(.inside 2),[92],.lcode,false,[],false⟩,false,false,[],some 4,some ⟨(.inside 2),[],.lcode,false,[],false⟩,none,false,false,false,none,false,⟨.lcode,some (.own 3),true,.lblank⟩⟩] .leaf)) 931151236 [⟨⟨(.inside 2),[92],.lcode,false,[],false⟩,false,false,[],some 4,some ⟨(.inside 2),[],.lcode,false,[],false⟩,none,true,false,false,none,false,⟨.lcode,some .internalNl,true,.lblank⟩⟩] (.node (.node .leaf 969788748 [⟨⟨(.inside 2),[92],.lblank,false,[],false⟩,false,false,[],some 4,some ⟨(.inside 2),[],.lcode,false,[],false⟩,none,true,false,false,none,false,⟨.lblank,some .internalNl,true,.lcode⟩⟩] .leaf) 969788876 [⟨⟨(.inside 2),[92],.lblank,false,[],false⟩,false,false,[],some 4,some ⟨(.inside 2),[],.lcode,false,[],false⟩,none,true,false,false,none,false,⟨.lblank,some .internalNl,true,.lblank⟩⟩] .leaf)),(.node (.node .leaf 1179872 [⟨⟨(.inside 0),[],.lcode,false,[],false⟩,false,false,[],none,none,none,false,false,false,none,false,⟨.lcode,some (.own 3),false,.lblank⟩⟩] .leaf) 1327852 [⟨⟨(.inside 0),[],.lcomment,false,[],false⟩,false,false,[],none,none,none,false,false,false,none,false,⟨.lcomment,some (.own 3),false,.lblank⟩⟩] .leaf),(.node (.node (.node .leaf 4388229 [⟨⟨(.inside 1),[],.lcode,false,[],false⟩,false,false,[],some 4,some ⟨(.inside 1),[],.lcode,false,[],false⟩,none,false,false,false,none,false,⟨.lcode,some (.own 3),true,.lcode⟩⟩] .leaf) 4388237 [⟨⟨(.inside 1),[],.lcode,false,[],false⟩,false,false,[],some 4,some ⟨(.inside 1),[],.lcode,false,[],false⟩,none,true,false,false,none,false,⟨.lcode,some .internalNl,true,.lcode⟩⟩] .leaf) 4388357 [⟨⟨(.inside 1),[],.lcode,false,[],false⟩,false,false,[],some 4,some ⟨(.inside 1),[],.lcode,false,[],false⟩,none,false,false,false,none,false,⟨.lcode,some (.own 3),true,.lblank⟩⟩] (.node .leaf 4388365 [⟨⟨(.inside 1),[],.lcode,false,[],false⟩,false,false,[],some 4,some ⟨(.inside 1),[],.lcode,false,[],false⟩,none,true,false,false,none,false,⟨.lcode,some .internalNl,true,.lblank⟩⟩] .leaf)),(.node (.node (.node .leaf 4388229 [⟨⟨(.inside 1),[],.lcode,false,[],false⟩,false,false,[],some 4,some ⟨(.inside 1),[],.lcode,false,[],false⟩,none,false,false,false,none,false,⟨.lcode,some (.own 3),true,.lcode⟩⟩] .leaf) 4388237 [⟨⟨(.inside 1),[],.lcode,false,[],false⟩,false,false,[],some 4,some ⟨(.inside 1),[],.lcode,false,[],false⟩,none,true,false,false,none,false,⟨.lcode,some .internalNl,true,.lcode⟩⟩] (.node .leaf 4388357 [⟨⟨(.inside 1),[],.lcode,false,[],false⟩,false,false,[],some 4,some ⟨(.inside 1),[],.lcode,false,[],false⟩,none,false,false,false,none,false,⟨.lcode,some (.own 3),true,.lblank⟩⟩] .leaf)) 4388365 [⟨⟨(.inside 1),[],.lcode,false,[],false⟩,false,false,[],some 4,some ⟨(.inside 1),[],.lcode,false,[],false⟩,none,true,false,false,none,false,⟨.lcode,some .internalNl,true,.lblank⟩⟩] (.node (.node .leaf 4684197 [⟨⟨(.inside 1),[],.lblank,false,[],false⟩,false,false,[],some 4,some ⟨(.inside 1),[],.lcode,false,[],false⟩,none,true,false,false,none,false,⟨.lblank,some .internalNl,true,.lcode⟩⟩] .leaf) 4684325 [⟨⟨(.inside 1),[],.lblank,false,[],false⟩,false,false,[],some 4,some ⟨(.inside 1),[],.lcode,false,[],false⟩,none,true,false,false,none,false,⟨.lblank,some .internalNl,true,.lblank⟩⟩] .leaf)),(.node (.node (.node .leaf 4425096 [⟨⟨(.inside 1),[],.lcode,true,[],false⟩,false,false,[],some 4,some ⟨(.inside 1),[],.lcode,false,[],false⟩,none,false,false,false,none,false,⟨.lcode,some (.own 3),true,.lcode⟩⟩] .leaf) 4425104 [⟨⟨(.inside 1),[],.lcode,true,[],false⟩,false,false,[],some 4,some ⟨(.inside 1),[],.lcode,false,[],false⟩,none,true,false,false,none,false,⟨.lcode,some .internalNl,true,.lcode⟩⟩] (.node .leaf 4425224 [⟨⟨(.inside 1),[],.lcode,true,[],false⟩,false,false,[],some 4,some ⟨(.inside 1),[],.lcode,false,[],false⟩,none,false,false,false,none,false,⟨.lcode,some (.own 3),true,.lblank⟩⟩] .leaf)) 4425232 [⟨⟨(.inside 1),[],.lcode,true,[],false⟩,false,false,[],some 4,some ⟨(.inside 1),[],.lcode,false,[],false⟩,none,true,false,false,none,false,⟨.lcode,some .internalNl,true,.lblank⟩⟩] (.node (.node .leaf 4721064 [⟨⟨(.inside 1),[],.lblank,true,[],false⟩,false,false,[],some 4,some ⟨(.inside 1),[],.lcode,false,[],false⟩,none,true,false,false,none,false,⟨.lblank,some .internalNl,true,.lcode⟩⟩] .leaf) 4721192 [⟨⟨(.inside 1),[],.lblank,true,[],false⟩,false,false,[],some 4,some ⟨(.inside 1),[],.lcode,false,[],false⟩,none,true,false,false,none,false,⟨.lblank,some .internalNl,true,.lblank⟩⟩] .leaf)),(.node (.node (.node .leaf 4425096 [⟨⟨(.inside 1),[],.lcode,true,[],false⟩,false,false,[],some 4,some ⟨(.inside 1),[],.lcode,false,[],false⟩,none,false,false,false,none,false,⟨.lcode,some (.own 3),true,.lcode⟩⟩] .leaf) 4425104 [⟨⟨(.inside 1),[],.lcode,true,[],false⟩,false,false,[],some 4,some ⟨(.inside 1),[],.lcode,false,[],false⟩,none,true,false,false,none,false,⟨.lcode,some .internalNl,true,.lcode⟩⟩] (.node .leaf 4425224 [⟨⟨(.inside 1),[],.lcode,true,[],false⟩,false,false,[],some 4,some ⟨(.inside 1),[],.lcode,false,[],false⟩,none,false,false,false,none,false,⟨.lcode,some (.own 3),true,.lblank⟩⟩] .leaf)) 4425232 [⟨⟨(.inside 1),[],.lcode,true,[],false⟩,false,false,[],some 4,some ⟨(.inside 1),[],.lcode,false,[],false⟩,none,true,false,false,none,false,⟨.lcode,some .internalNl,true,.lblank⟩⟩] (.node (.node .leaf 4721064 [⟨⟨(.inside 1),[],.lblank,true,[],false⟩,false,false,[],some 4,some ⟨(.inside 1),[],.lcode,false,[],false⟩,none,true,false,false,none,false,⟨.lblank,some .internalNl,true,.lcode⟩⟩] .leaf) 4721192 [⟨⟨(.inside 1),[],.lblank,true,[],false⟩,false,false,[],some 4,some ⟨(.inside 1),[],.lcode,false,[],false⟩,none,true,false,false,none,false,⟨.lblank,some .internalNl,true,.lblank⟩⟩] .leaf)),(.node (.node (.node .leaf 4388261 [⟨⟨(.inside 1),[],.lcode,false,[],false⟩,true,false,[],some 4,some ⟨(.inside 1),[],.lcode,false,[],false⟩,none,false,false,false,none,false,⟨.lcode,some (.own 3),true,.lcode⟩⟩] .leaf) 4388269 [⟨⟨(.inside 1),[],.lcode,false,[],false⟩,true,false,[],some 4,some ⟨(.inside 1),[],.lcode,false,[],false⟩,none,true,false,false,none,false,⟨.lcode,some .internalNl,true,.lcode⟩⟩] (.node .leaf 4388389 [⟨⟨(.inside 1),[],.lcode,false,[],false⟩,true,false,[],some 4,some ⟨(.inside 1),[],.lcode,false,[],false⟩,none,false,false,false,none,false,⟨.lcode,some (.own 3),true,.lblank⟩⟩] .leaf)) 4388397 [⟨⟨(.inside 1),[],.lcode,false,[],false⟩,true,false,[],some 4,some ⟨(.inside 1),[],.lcode,false,[],false⟩,none,true,false,false,none,false,⟨.lcode,some .internalNl,true,.lblank⟩⟩] (.node (.node .leaf 4684229 [⟨⟨(.inside 1),[],.lblank,false,[],false⟩,true,false,[],some 4,some ⟨(.inside 1),[],.lcode,false,[],false⟩,none,true,false,false,none,false,⟨.lblank,some .internalNl,true,.lcode⟩⟩] .leaf) 4684357 [⟨⟨(.inside 1),[],.lblank,false,[],false⟩,true,false,[],some 4,some ⟨(.inside 1),[],.lcode,false,[],false⟩,none,true,false,false,none,false,⟨.lblank,some .internalNl,true,.lblank⟩⟩] .leaf)),(.node (.node (.node .leaf 4425112 [⟨⟨(.inside 1),[],.lcode,true,[],false⟩,false,true,[],some 4,some ⟨(.inside 1),[],.lcode,false,[],false⟩,none,false,false,false,none,false,⟨.lcode,some (.own 3),true,.lcode⟩⟩] .leaf) 4425120 [⟨⟨(.inside 1),[],.lcode,true,[],false⟩,false,true,[],some 4,some ⟨(.inside 1),[],.lcode,false,[],false⟩,none,true,false,false,none,false,⟨.lcode,some .internalNl,true,.lcode⟩⟩] (.node .leaf 4425240 [⟨⟨(.inside 1),[],.lcode,true,[],false⟩,false,true,[],some 4,some ⟨(.inside 1),[],.lcode,false,[],false⟩,none,false,false,false,none,false,⟨.lcode,some (.own 3),true,.lblank⟩⟩] .leaf)) 4425248 [⟨⟨(.inside 1),[],.lcode,true,[],false⟩,false,true,[],some 4,some ⟨(.inside 1),[],.lcode,false,[],false⟩,none,true,false,false,none,false,⟨.lcode,some .internalNl,true,.lblank⟩⟩] (.node (.node .leaf 4721080 [⟨⟨(.inside 1),[],.lblank,true,[],false⟩,false,true,[],some 4,some ⟨(.inside 1),[],.lcode,false,[],false⟩,none,true,false,false,none,false,⟨.lblank,some .internalNl,true,.lcode⟩⟩] .leaf) 4721208 [⟨⟨(.inside 1),[],.lblank,true,[],false⟩,false,true,[],some 4,some ⟨(.inside 1),[],.lcode,false,[],false⟩,none,true,false,false,none,false,⟨.lblank,some .internalNl,true,.lblank⟩⟩] .leaf)),(.node (.node (.node .leaf 544600380 [⟨⟨(.inside 1),[92],.lcode,false,[],false⟩,false,false,[],some 4,some ⟨(.inside 1),[],.lcode,false,[],false⟩,none,false,false,false,none,false,⟨.lcode,some (.own 3),true,.lcode⟩⟩] .leaf) 544600388 [⟨⟨(.inside 1),[92],.lcode,false,[],false⟩,false,false,[],some 4,some ⟨(.inside 1),[],.lcode,false,[],false⟩,none,true,false,false,none,false,⟨.lcode,some .internalNl,true,.lcode⟩⟩] (.node .leaf 544600508 [⟨⟨(.inside 1),[92],.lcode,false,[],false⟩,false,false,[],some 4,some ⟨(.inside 1),[],.lcode,false,[],false⟩,none,false,false,false,none,false,⟨.lcode,some (.own 3),true,.lblank⟩⟩] .leaf)) 544600516 [⟨⟨(.inside 1),[92],.lcode,false,[],false⟩,false,false,[],some 4,some ⟨(.inside 1),[],.lcode,false,[],false⟩,none,true,false,false,none,false,⟨.lcode,some .internalNl,true,.lblank⟩⟩] (.node (.node .leaf 583238028 [⟨⟨(.inside 1),[92],.lblank,false,[],false⟩,false,false,[],some 4,some ⟨(.inside 1),[],.lcode,false,[],false⟩,none,true,false,false,none,false,⟨.lblank,some .internalNl,true,.lcode⟩⟩] .leaf) 583238156 [⟨⟨(.inside 1),[92],.lblank,false,[],false⟩,false,false,[],some 4,some ⟨(.inside 1),[],.lcode,false,[],false⟩,none,true,false,false,none,false,⟨.lblank,some .internalNl,true,.lblank⟩⟩] .leaf)),(.node (.node (.node .leaf 7559016 [⟨⟨(.inside 2),[],.lcode,true,[],false⟩,false,false,[],some 4,some ⟨(.inside 2),[],.lcode,false,[],false⟩,none,false,false,false,none,false,⟨.lcode,some (.own 3),true,.lcode⟩⟩] .leaf) 7559024 [⟨⟨(.inside 2),[],.lcode,true,[],false⟩,false,false,[],some 4,some ⟨(.inside 2),[],.lcode,false,[],false⟩,none,true,false,false,none,false,⟨.lcode,some .internalNl,true,.lcode⟩⟩] (.node .leaf 7559144 [⟨⟨(.inside 2),[],.lcode,true,[],false⟩,false,false,[],some 4,some ⟨(.inside 2),[],.lcode,false,[],false⟩,none,false,false,false,none,false,⟨.lcode,some (.own 3),true,.lblank⟩⟩] .leaf)) 7559152 [⟨⟨(.inside 2),[],.lcode,true,[],false⟩,false,false,[],some 4,some ⟨(.inside 2),[],.lcode,false,[],false⟩,none,true,false,false,none,false,⟨.lcode,some .internalNl,true,.lblank⟩⟩] (.node (.node .leaf 7854984 [⟨⟨(.inside 2),[],.lblank,true,[],false⟩,false,false,[],some 4,some ⟨(.inside 2),[],.lcode,false,[],false⟩,none,true,false,false,none,false,⟨.lblank,some .internalNl,true,.lcode⟩⟩] .leaf) 7855112 [⟨⟨(.inside 2),[],.lblank,true,[],false⟩,false,false,[],some 4,some ⟨(.inside 2),[],.lcode,false,[],false⟩,none,true,false,false,none,false,⟨.lblank,some .internalNl,true,.lblank⟩⟩] .leaf)),.leaf,(.node (.node (.node .leaf 7522149 [⟨⟨(.inside 2),[],.lcode,false,[],false⟩,false,false,[],some 4,some ⟨(.inside 2),[],.lcode,false,[],false⟩,none,false,false,false,none,false,⟨.lcode,some (.own 3),true,.lcode⟩⟩] .leaf) 7522157 [⟨⟨(.inside 2),[],.lcode,false,[],false⟩,false,false,[],some 4,some ⟨(.inside 2),[],.lcode,false,[],false⟩,none,true,false,false,none,false,⟨.lcode,some .internalNl,true,.lcode⟩⟩] .leaf) 7522277 [⟨⟨(.inside 2),[],.lcode,false,[],false⟩,false,false,[],some 4,some ⟨(.inside 2),[],.lcode,false,[],false⟩,none,false,false,false,none,false,⟨.lcode,some (.own 3),true,.lblank⟩⟩] (.node .leaf 7522285 [⟨⟨(.inside 2),[],.lcode,false,[],false⟩,false,false,[],some 4,some ⟨(.inside 2),[],.lcode,false,[],false⟩,none,true,false,false,none,false,⟨.lcode,some .internalNl,true,.lblank⟩⟩] .leaf)),(.node (.node (.node .leaf 4425096 [⟨⟨(.inside 1),[],.lcode,true,[],false⟩,false,false,[],some 4,some ⟨(.inside 1),[],.lcode,false,[],false⟩,none,false,false,false,none,false,⟨.lcode,some (.own 3),true,.lcode⟩⟩] .leaf) 4425104 [⟨⟨(.inside 1),[],.lcode,true,[],false⟩,false,false,[],some 4,some ⟨(.inside 1),[],.lcode,false,[],false⟩,none,true,false,false,none,false,⟨.lcode,some .internalNl,true,.lcode⟩⟩] (.node .leaf 4425224 [⟨⟨(.inside 1),[],.lcode,true,[],false⟩,false,false,[],some 4,some ⟨(.inside 1),[],.lcode,false,[],false⟩,none,false,false,false,none,false,⟨.lcode,some (.own 3),true,.lblank⟩⟩] .leaf)) 4425232 [⟨⟨(.inside 1),[],.lcode,true,[],false⟩,false,false,[],some 4,some ⟨(.inside 1),[],.lcode,false,[],false⟩,none,true,false,false,none,false,⟨.lcode,some .internalNl,true,.lblank⟩⟩] (.node (.node .leaf 4721064 [⟨⟨(.inside 1),[],.lblank,true,[],false⟩,false,false,[],some 4,some ⟨(.inside 1),[],.lcode,false,[],false⟩,none,true,false,false,none,false,⟨.lblank,some .internalNl,true,.lcode⟩⟩] .leaf) 4721192 [⟨⟨(.inside 1),[],.lblank,true,[],false⟩,false,false,[],some 4,some ⟨(.inside 1),[],.lcode,false,[],false⟩,none,true,false,false,none,false,⟨.lblank,some .internalNl,true,.lblank⟩⟩] .leaf)),.leaf,(.node (.node (.node .leaf 4388229 [⟨⟨(.inside 1),[],.lcode,false,[],false⟩,false,false,[],some 4,some ⟨(.inside 1),[],.lcode,false,[],false⟩,none,false,false,false,none,false,⟨.lcode,some (.own 3),true,.lcode⟩⟩] .leaf) 4388237 [⟨⟨(.inside 1),[],.lcode,false,[],false⟩,false,false,[],some 4,some ⟨(.inside 1),[],.lcode,false,[],false⟩,none,true,false,false,none,false,⟨.lcode,some .internalNl,true,.lcode⟩⟩] .leaf) 4388357 [⟨⟨(.inside 1),[],.lcode,false,[],false⟩,false,false,[],some 4,some ⟨(.inside 1),[],.lcode,false,[],false⟩,none,false,false,false,none,false,⟨.lcode,some (.own 3),true,.lblank⟩⟩] (.node .leaf 4388365 [⟨⟨(.inside 1),[],.lcode,false,[],false⟩,false,false,[],some 4,some ⟨(.inside 1),[],.lcode,false,[],false⟩,none,true,false,false,none,false,⟨.lcode,some .internalNl,true,.lblank⟩⟩] .leaf))]
theorem jam_line_lClosed : CA.closedF jam_line_M jam_line_lex true false jam_line_lfr jam_line_lTab = true := by decide +kernel
def jam_line_L : LCert LexisTable.jam_line jam_line_M := jam_line_lex_eq ▸ ⟨⟨jam_line_lmasks, jam_line_lex.rel, jam_line_lcs, jam_line_lrows, jam_line_lmasksIn, jam_line_lrepOk, jam_line_lrowsOk⟩,
  _, rfl, by decide +kernel, by decide +kernel, true, false, CA.closed_of jam_line_lfrOk jam_line_lClosed⟩
theorem jam_line_L_chk : jam_line_L.chk = true := by
  have : ∀ (l : Lexis) (h : LexisTable.jam_line = l) (C : LCert l jam_line_M), (h ▸ C : LCert LexisTable.jam_line jam_line_M).chk = C.chk := by rintro _ rfl _; rfl
  exact this _ jam_line_lex_eq _

def pascal_line_lex : Lexis := [⟨[47,47],[],.lcomment,false,false,false,true,false,false,true,false,none,false,false,false,false,[]⟩,⟨[40,42],[[42,41]],.lcode,true,false,false,true,false,false,true,false,some .lcomment,false,false,false,false,[]⟩,⟨[123],[[125]],.lcomment,true,false,false,true,false,false,false,false,none,false,false,false,false,[]⟩,⟨[39],[[39]],.lcode,true,false,true,true,false,false,false,false,none,false,false,false,false,[]⟩]
theorem pascal_line_lex_eq : LexisTable.pascal_line = pascal_line_lex := by decide +kernel
def pascal_line_lmasks : List Nat := [4294967808,140737488355328,1099511627776,10633823966279326983230456482242756608,549755813888,8192,1024,4096,115792089237316195423570985008687907853269984665640564039457584007908834656767,115792089237316195423570985008687907853269984665640564039457584007913129626623,4398046511104,115792089237316195423570985008687907853269984665640564039457584007908834658815,2199023255552,42535295865117307932921825928971026432,115792089237316195423570985008687907853269984665635612279300442486259482348031,4951760157141521099596496896]
def pascal_line_lcs : List (Nat × Nat) := [(0,115792089237316195423570985008687907853216815545804215644384290055414198813183),(9,4294967808),(10,1024),(11,2048),(12,4096),(13,8192),(39,549755813888),(40,1099511627776),(41,2199023255552),(42,4398046511104),(47,140737488355328),(92,4951760157141521099596496896),(123,10633823966279326983230456482242756608),(125,42535295865117307932921825928971026432)]
theorem pascal_line_lmasksIn : masksIn pascal_line_nfa pascal_line_lmasks = true := by decide +kernel
theorem pascal_line_lrepOk : repOk pascal_line_lmasks pascal_line_lcs = true := by decide +kernel
def pascal_line_lrows : List Row := [⟨[],none,[],[⟨256,.other,false,some ⟨0,[.setEnt (.own 3)],some 4,true⟩⟩,⟨256,.ws,false,some ⟨1,[.setEnt (.own 0)],some 0,false⟩⟩,⟨256,.lf,false,some ⟨0,[.setEnt .newline],some 3,true⟩⟩,⟨256,.vt,false,none⟩,⟨256,.ff,false,some ⟨0,[.setEnt .newline],some 3,true⟩⟩,⟨256,.cr,false,some ⟨2,[.setEnt .newline],none,false⟩⟩,⟨256,.cr,true,some ⟨3,[.setEnt .newline],some 3,false⟩⟩,⟨39,.other,false,some ⟨4,[.code,.setEnt (.own 3)],some 4,false⟩⟩,⟨40,.other,false,some ⟨5,[.setEnt (.own 3)],some 4,false⟩⟩,⟨41,.other,false,some ⟨0,[.setEnt (.own 3)],some 4,true⟩⟩,⟨42,.other,false,some ⟨0,[.setEnt (.own 3)],some 4,true⟩⟩,⟨47,.other,false,some ⟨6,[.setEnt (.own 3)],some 4,false⟩⟩,⟨92,.other,false,some ⟨0,[.setEnt (.own 3)],some 4,true⟩⟩,⟨123,.other,false,some ⟨7,[.comment,.setEnt (.own 3)],some 4,false⟩⟩,⟨125,.other,false,some ⟨0,[.setEnt (.own 3)],some 4,true⟩⟩]⟩,⟨[0],some 0,[],[⟨256,.other,false,none⟩,⟨256,.ws,false,some ⟨1,[.setEnt (.own 0)],some 0,false⟩⟩,⟨256,.lf,false,none⟩,⟨256,.vt,false,none⟩,⟨256,.ff,false,none⟩,⟨256,.cr,false,none⟩,⟨256,.cr,true,none⟩,⟨39,.other,false,none⟩,⟨40,.other,false,none⟩,⟨41,.other,false,none⟩,⟨42,.other,false,none⟩,⟨47,.other,false,none⟩,⟨92,.other,false,none⟩,⟨123,.other,false,none⟩,⟨125,.other,false,none⟩]⟩,⟨[35],none,[],[⟨256,.other,false,none⟩,⟨256,.ws,false,none⟩,⟨256,.lf,false,some ⟨0,[.setEnt .newline],some 3,true⟩⟩,⟨256,.vt,false,none⟩,⟨256,.ff,false,none⟩,⟨256,.cr,false,none⟩,⟨256,.cr,true,none⟩,⟨39,.other,false,none⟩,⟨40,.other,false,none⟩,⟨41,.other,false,none⟩,⟨42,.other,false,none⟩,⟨47,.other,false,none⟩,⟨92,.other,false,none⟩,⟨123,.other,false,none⟩,⟨125,.other,false,none⟩]⟩,⟨[35,39],some 3,[],[⟨256,.other,false,none⟩,⟨256,.ws,false,none⟩,⟨256,.lf,false,some ⟨0,[.setEnt .newline],some 3,true⟩⟩,⟨256,.vt,false,none⟩,⟨256,.ff,false,none⟩,⟨256,.cr,false,none⟩,⟨256,.cr,true,none⟩,⟨39,.other,false,none⟩,⟨40,.other,false,none⟩,⟨41,.other,false,none⟩,⟨42,.other,false,none⟩,⟨47,.other,false,none⟩,⟨92,.other,false,none⟩,⟨123,.other,false,none⟩,⟨125,.other,false,none⟩]⟩,⟨[24,40],some 4,[],[⟨256,.other,false,some ⟨8,[.code],none,false⟩⟩,⟨256,.ws,false,some ⟨9,[],none,false⟩⟩,⟨256,.lf,false,some ⟨10,[],none,false⟩⟩,⟨256,.vt,false,some ⟨8,[.code],none,false⟩⟩,⟨256,.ff,false,some ⟨11,[],none,false⟩⟩,⟨256,.cr,false,some ⟨12,[],none,false⟩⟩,⟨256,.cr,true,some ⟨13,[],none,false⟩⟩,⟨39,.other,false,some ⟨0,[],some 2,true⟩⟩,⟨40,.other,false,some ⟨8,[.code],none,false⟩⟩,⟨41,.other,false,some ⟨8,[.code],none,false⟩⟩,⟨42,.other,false,some ⟨8,[.code],none,false⟩⟩,⟨47,.other,false,some ⟨8,[.code],none,false⟩⟩,⟨92,.other,false,some ⟨14,[],none,false⟩⟩,⟨123,.other,false,some ⟨8,[.code],none,false⟩⟩,⟨125,.other,false,some ⟨8,[.code],none,false⟩⟩]⟩,⟨[4,40],some 4,[],[⟨256,.other,false,none⟩,⟨256,.ws,false,none⟩,⟨256,.lf,false,none⟩,⟨256,.vt,false,none⟩,⟨256,.ff,false,none⟩,⟨256,.cr,false,none⟩,⟨256,.cr,true,none⟩,⟨39,.other,false,none⟩,⟨40,.other,false,none⟩,⟨41,.other,false,none⟩,⟨42,.other,false,some ⟨15,[.comment],none,false⟩⟩,⟨47,.other,false,none⟩,⟨92,.other,false,none⟩,⟨123,.other,false,none⟩,⟨125,.other,false,none⟩]⟩,⟨[1,40],some 4,[],[⟨256,.other,false,none⟩,⟨256,.ws,false,none⟩,⟨256,.lf,false,none⟩,⟨256,.vt,false,none⟩,⟨256,.ff,false,none⟩,⟨256,.cr,false,none⟩,⟨256,.cr,true,none⟩,⟨39,.other,false,none⟩,⟨40,.other,false,none⟩,⟨41,.other,false,none⟩,⟨42,.other,false,none⟩,⟨47,.other,false,some ⟨16,[.comment],some 1,false⟩⟩,⟨92,.other,false,none⟩,⟨123,.other,false,none⟩,⟨125,.other,false,none⟩]⟩,⟨[15,40],some 4,[],[⟨256,.other,false,some ⟨17,[.comment],none,false⟩⟩,⟨256,.ws,false,some ⟨18,[],none,false⟩⟩,⟨256,.lf,false,some ⟨19,[],none,false⟩⟩,⟨256,.vt,false,some ⟨17,[.comment],none,false⟩⟩,⟨256,.ff,false,some ⟨20,[],none,false⟩⟩,⟨256,.cr,false,some ⟨21,[],none,false⟩⟩,⟨256,.cr,true,some ⟨22,[],none,false⟩⟩,⟨39,.other,false,some ⟨17,[.comment],none,false⟩⟩,⟨40,.other,false,some ⟨17,[.comment],none,false⟩⟩,⟨41,.other,false,some ⟨17,[.comment],none,false⟩⟩,⟨42,.other,false,some ⟨17,[.comment],none,false⟩⟩,⟨47,.other,false,some ⟨17,[.comment],none,false⟩⟩,⟨92,.other,false,some ⟨17,[.comment],none,false⟩⟩,⟨123,.other,false,some ⟨17,[.comment],none,false⟩⟩,⟨125,.other,false,some ⟨0,[],some 1,true⟩⟩]⟩,⟨[31],none,[],[⟨256,.other,false,some ⟨8,[.code],none,false⟩⟩,⟨256,.ws,false,some ⟨9,[],none,false⟩⟩,⟨256,.lf,false,some ⟨10,[],none,false⟩⟩,⟨256,.vt,false,some ⟨8,[.code],none,false⟩⟩,⟨256,.ff,false,some ⟨11,[],none,false⟩⟩,⟨256,.cr,false,some ⟨12,[],none,false⟩⟩,⟨256,.cr,true,some ⟨13,[],none,false⟩⟩,⟨39,.other,false,some ⟨0,[],some 2,true⟩⟩,⟨40,.other,false,some ⟨8,[.code],none,false⟩⟩,⟨41,.other,false,some ⟨8,[.code],none,false⟩⟩,⟨42,.other,false,some ⟨8,[.code],none,false⟩⟩,⟨47,.other,false,some ⟨8,[.code],none,false⟩⟩,⟨92,.other,false,some ⟨14,[],none,false⟩⟩,⟨123,.other,false,some ⟨8,[.code],none,false⟩⟩,⟨125,.other,false,some ⟨8,[.code],none,false⟩⟩]⟩,⟨[30],none,[],[⟨256,.other,false,some ⟨8,[.code],none,false⟩⟩,⟨256,.ws,false,some ⟨9,[],none,false⟩⟩,⟨256,.lf,false,some ⟨10,[],none,false⟩⟩,⟨256,.vt,false,some ⟨8,[.code],none,false⟩⟩,⟨256,.ff,false,some ⟨11,[],none,false⟩⟩,⟨256,.cr,false,some ⟨12,[],none,false⟩⟩,⟨256,.cr,true,some ⟨13,[],none,false⟩⟩,⟨39,.other,false,some ⟨0,[],some 2,true⟩⟩,⟨40,.other,false,some ⟨8,[.code],none,false⟩⟩,⟨41,.other,false,some ⟨8,[.code],none,false⟩⟩,⟨42,.other,false,some ⟨8,[.code],none,false⟩⟩,⟨47,.other,false,some ⟨8,[.code],none,false⟩⟩,⟨92,.other,false,some ⟨14,[],none,false⟩⟩,⟨123,.other,false,some ⟨8,[.code],none,false⟩⟩,⟨125,.other,false,some ⟨8,[.code],none,false⟩⟩]⟩,⟨[27],none,[],[⟨256,.other,false,some ⟨8,[.setEnt .internalNl,.cb,.code],none,false⟩⟩,⟨256,.ws,false,some ⟨9,[.setEnt .internalNl,.cb],none,false⟩⟩,⟨256,.lf,false,some ⟨10,[.setEnt .internalNl,.cb],none,false⟩⟩,⟨256,.vt,false,some ⟨8,[.setEnt .internalNl,.cb,.code],none,false⟩⟩,⟨256,.ff,false,some ⟨11,[.setEnt .internalNl,.cb],none,false⟩⟩,⟨256,.cr,false,some ⟨12,[.setEnt .internalNl,.cb],none,false⟩⟩,⟨256,.cr,true,some ⟨13,[.setEnt .internalNl,.cb],none,false⟩⟩,⟨39,.other,false,some ⟨0,[.setEnt .internalNl,.cb],some 2,true⟩⟩,⟨40,.other,false,some ⟨8,[.setEnt .internalNl,.cb,.code],none,false⟩⟩,⟨41,.other,false,some ⟨8,[.setEnt .internalNl,.cb,.code],none,false⟩⟩,⟨42,.other,false,some ⟨8,[.setEnt .internalNl,.cb,.code],none,false⟩⟩,⟨47,.other,false,some ⟨8,[.setEnt .internalNl,.cb,.code],none,false⟩⟩,⟨92,.other,false,some ⟨14,[.setEnt .internalNl,.cb],none,false⟩⟩,⟨123,.other,false,some ⟨8,[.setEnt .internalNl,.cb,.code],none,false⟩⟩,⟨125,.other,false,some ⟨8,[.setEnt .internalNl,.cb,.code],none,false⟩⟩]⟩,⟨[28],none,[],[⟨256,.other,false,some ⟨8,[.setEnt .internalNl,.cb,.code],none,false⟩⟩,⟨256,.ws,false,some ⟨9,[.setEnt .internalNl,.cb],none,false⟩⟩,⟨256,.lf,false,some ⟨10,[.setEnt .internalNl,.cb],none,false⟩⟩,⟨256,.vt,false,some ⟨8,[.setEnt .internalNl,.cb,.code],none,false⟩⟩,⟨256,.ff,false,some ⟨11,[.setEnt .internalNl,.cb],none,false⟩⟩,⟨256,.cr,false,some ⟨12,[.setEnt .internalNl,.cb],none,false⟩⟩,⟨256,.cr,true,some ⟨13,[.setEnt .internalNl,.cb],none,false⟩⟩,⟨39,.other,false,some ⟨0,[.setEnt .internalNl,.cb],some 2,true⟩⟩,⟨40,.other,false,some ⟨8,[.setEnt .internalNl,.cb,.code],none,false⟩⟩,⟨41,.other,false,some ⟨8,[.setEnt .internalNl,.cb,.code],none,false⟩⟩,⟨42,.other,false,some ⟨8,[.setEnt .internalNl,.cb,.code],none,false⟩⟩,⟨47,.other,false,some ⟨8,[.setEnt .internalNl,.cb,.code],none,false⟩⟩,⟨92,.other,false,some ⟨14,[.setEnt .internalNl,.cb],none,false⟩⟩,⟨123,.other,false,some ⟨8,[.setEnt .internalNl,.cb,.code],none,false⟩⟩,⟨125,.other,false,some ⟨8,[.setEnt .internalNl,.cb,.code],none,false⟩⟩]⟩,⟨[25],none,[],[⟨256,.other,false,none⟩,⟨256,.ws,false,none⟩,⟨256,.lf,false,some ⟨23,[],none,false⟩⟩,⟨256,.vt,false,none⟩,⟨256,.ff,false,none⟩,⟨256,.cr,false,none⟩,⟨256,.cr,true,none⟩,⟨39,.other,false,none⟩,⟨40,.other,false,none⟩,⟨41,.other,false,none⟩,⟨42,.other,false,none⟩,⟨47,.other,false,none⟩,⟨92,.other,false,none⟩,⟨123,.other,false,none⟩,⟨125,.other,false,none⟩]⟩,⟨[25,29],none,[],[⟨256,.other,false,some ⟨8,[.setEnt .internalNl,.cb,.code],none,false⟩⟩,⟨256,.ws,false,some ⟨9,[.setEnt .internalNl,.cb],none,false⟩⟩,⟨256,.lf,false,some ⟨24,[.setEnt .internalNl,.cb],none,false⟩⟩,⟨256,.vt,false,some ⟨8,[.setEnt .internalNl,.cb,.code],none,false⟩⟩,⟨256,.ff,false,some ⟨11,[.setEnt .internalNl,.cb],none,false⟩⟩,⟨256,.cr,false,some ⟨12,[.setEnt .internalNl,.cb],none,false⟩⟩,⟨256,.cr,true,some ⟨13,[.setEnt .internalNl,.cb],none,false⟩⟩,⟨39,.other,false,some ⟨0,[.setEnt .internalNl,.cb],some 2,true⟩⟩,⟨40,.other,false,some ⟨8,[.setEnt .internalNl,.cb,.code],none,false⟩⟩,⟨41,.other,false,some ⟨8,[.setEnt .internalNl,.cb,.code],none,false⟩⟩,⟨42,.other,false,some ⟨8,[.setEnt .internalNl,.cb,.code],none,false⟩⟩,⟨47,.other,false,some ⟨8,[.setEnt .internalNl,.cb,.code],none,false⟩⟩,⟨92,.other,false,some ⟨14,[.setEnt .internalNl,.cb],none,false⟩⟩,⟨123,.other,false,some ⟨8,[.setEnt .internalNl,.cb,.code],none,false⟩⟩,⟨125,.other,false,some ⟨8,[.setEnt .internalNl,.cb,.code],none,false⟩⟩]⟩,⟨[32],none,[],[⟨256,.other,false,some ⟨25,[.code],none,false⟩⟩,⟨256,.ws,false,some ⟨25,[.code],none,false⟩⟩,⟨256,.lf,false,none⟩,⟨256,.vt,false,some ⟨25,[.code],none,false⟩⟩,⟨256,.ff,false,none⟩,⟨256,.cr,false,none⟩,⟨256,.cr,true,none⟩,⟨39,.other,false,some ⟨25,[.code],none,false⟩⟩,⟨40,.other,false,some ⟨25,[.code],none,false⟩⟩,⟨41,.other,false,some ⟨25,[.code],none,false⟩⟩,⟨42,.other,false,some ⟨25,[.code],none,false⟩⟩,⟨47,.other,false,some ⟨25,[.code],none,false⟩⟩,⟨92,.other,false,some ⟨25,[.code],none,false⟩⟩,⟨123,.other,false,some ⟨25,[.code],none,false⟩⟩,⟨125,.other,false,some ⟨25,[.code],none,false⟩⟩]⟩,⟨[5],none,[],[⟨256,.other,false,some ⟨26,[.code],none,false⟩⟩,⟨256,.ws,false,some ⟨27,[],none,false⟩⟩,⟨256,.lf,false,some ⟨28,[],none,false⟩⟩,⟨256,.vt,false,some ⟨26,[.code],none,false⟩⟩,⟨256,.ff,false,some ⟨29,[],none,false⟩⟩,⟨256,.cr,false,some ⟨30,[],none,false⟩⟩,⟨256,.cr,true,some ⟨31,[],none,false⟩⟩,⟨39,.other,false,some ⟨26,[.code],none,false⟩⟩,⟨40,.other,false,some ⟨26,[.code],none,false⟩⟩,⟨41,.other,false,some ⟨26,[.code],none,false⟩⟩,⟨42,.other,false,some ⟨32,[.code],none,false⟩⟩,⟨47,.other,false,some ⟨26,[.code],none,false⟩⟩,⟨92,.other,false,some ⟨26,[.code],none,false⟩⟩,⟨123,.other,false,some ⟨26,[.code],none,false⟩⟩,⟨125,.other,false,some ⟨26,[.code],none,false⟩⟩]⟩,⟨[2],some 1,[],[⟨256,.other,false,some ⟨33,[],some 1,false⟩⟩,⟨256,.ws,false,some ⟨33,[],some 1,false⟩⟩,⟨256,.lf,false,none⟩,⟨256,.vt,false,some ⟨33,[],some 1,false⟩⟩,⟨256,.ff,false,none⟩,⟨256,.cr,false,none⟩,⟨256,.cr,true,none⟩,⟨39,.other,false,some ⟨33,[],some 1,false⟩⟩,⟨40,.other,false,some ⟨33,[],some 1,false⟩⟩,⟨41,.other,false,some ⟨33,[],some 1,false⟩⟩,⟨42,.other,false,some ⟨33,[],some 1,false⟩⟩,⟨47,.other,false,some ⟨33,[],some 1,false⟩⟩,⟨92,.other,false,some ⟨33,[],some 1,false⟩⟩,⟨123,.other,false,some ⟨33,[],some 1,false⟩⟩,⟨125,.other,false,some ⟨33,[],some 1,false⟩⟩]⟩,⟨[22],none,[],[⟨256,.other,false,some ⟨17,[.comment],none,false⟩⟩,⟨256,.ws,false,some ⟨18,[],none,false⟩⟩,⟨256,.lf,false,some ⟨19,[],none,false⟩⟩,⟨256,.vt,false,some ⟨17,[.comment],none,false⟩⟩,⟨256,.ff,false,some ⟨20,[],none,false⟩⟩,⟨256,.cr,false,some ⟨21,[],none,false⟩⟩,⟨256,.cr,true,some ⟨22,[],none,false⟩⟩,⟨39,.other,false,some ⟨17,[.comment],none,false⟩⟩,⟨40,.other,false,some ⟨17,[.comment],none,false⟩⟩,⟨41,.other,false,some ⟨17,[.comment],none,false⟩⟩,⟨42,.other,false,some ⟨17,[.comment],none,false⟩⟩,⟨47,.other,false,some ⟨17,[.comment],none,false⟩⟩,⟨92,.other,false,some ⟨17,[.comment],none,false⟩⟩,⟨123,.other,false,some ⟨17,[.comment],none,false⟩⟩,⟨125,.other,false,some ⟨0,[],some 1,true⟩⟩]⟩,⟨[21],none,[],[⟨256,.other,false,some ⟨17,[.comment],none,false⟩⟩,⟨256,.ws,false,some ⟨18,[],none,false⟩⟩,⟨256,.lf,false,some ⟨19,[],none,false⟩⟩,⟨256,.vt,false,some ⟨17,[.comment],none,false⟩⟩,⟨256,.ff,false,some ⟨20,[],none,false⟩⟩,⟨256,.cr,false,some ⟨21,[],none,false⟩⟩,⟨256,.cr,true,some ⟨22,[],none,false⟩⟩,⟨39,.other,false,some ⟨17,[.comment],none,false⟩⟩,⟨40,.other,false,some ⟨17,[.comment],none,false⟩⟩,⟨41,.other,false,some ⟨17,[.comment],none,false⟩⟩,⟨42,.other,false,some ⟨17,[.comment],none,false⟩⟩,⟨47,.other,false,some ⟨17,[.comment],none,false⟩⟩,⟨92,.other,false,some ⟨17,[.comment],none,false⟩⟩,⟨123,.other,false,some ⟨17,[.comment],none,false⟩⟩,⟨125,.other,false,some ⟨0,[],some 1,true⟩⟩]⟩,⟨[18],none,[],[⟨256,.other,false,some ⟨17,[.setEnt .internalNl,.cb,.comment],none,false⟩⟩,⟨256,.ws,false,some ⟨18,[.setEnt .internalNl,.cb],none,false⟩⟩,⟨256,.lf,false,some ⟨19,[.setEnt .internalNl,.cb],none,false⟩⟩,⟨256,.vt,false,some ⟨17,[.setEnt .internalNl,.cb,.comment],none,false⟩⟩,⟨256,.ff,false,some ⟨20,[.setEnt .internalNl,.cb],none,false⟩⟩,⟨256,.cr,false,some ⟨21,[.setEnt .internalNl,.cb],none,false⟩⟩,⟨256,.cr,true,some ⟨22,[.setEnt .internalNl,.cb],none,false⟩⟩,⟨39,.other,false,some ⟨17,[.setEnt .internalNl,.cb,.comment],none,false⟩⟩,⟨40,.other,false,some ⟨17,[.setEnt .internalNl,.cb,.comment],none,false⟩⟩,⟨41,.other,false,some ⟨17,[.setEnt .internalNl,.cb,.comment],none,false⟩⟩,⟨42,.other,false,some ⟨17,[.setEnt .internalNl,.cb,.comment],none,false⟩⟩,⟨47,.other,false,some ⟨17,[.setEnt .internalNl,.cb,.comment],none,false⟩⟩,⟨92,.other,false,some ⟨17,[.setEnt .internalNl,.cb,.comment],none,false⟩⟩,⟨123,.other,false,some ⟨17,[.setEnt .internalNl,.cb,.comment],none,false⟩⟩,⟨125,.other,false,some ⟨0,[.setEnt .internalNl,.cb],some 1,true⟩⟩]⟩,⟨[19],none,[],[⟨256,.other,false,some ⟨17,[.setEnt .internalNl,.cb,.comment],none,false⟩⟩,⟨256,.ws,false,some ⟨18,[.setEnt .internalNl,.cb],none,false⟩⟩,⟨256,.lf,false,some ⟨19,[.setEnt .internalNl,.cb],none,false⟩⟩,⟨256,.vt,false,some ⟨17,[.setEnt .internalNl,.cb,.comment],none,false⟩⟩,⟨256,.ff,false,some ⟨20,[.setEnt .internalNl,.cb],none,false⟩⟩,⟨256,.cr,false,some ⟨21,[.setEnt .internalNl,.cb],none,false⟩⟩,⟨256,.cr,true,some ⟨22,[.setEnt .internalNl,.cb],none,false⟩⟩,⟨39,.other,false,some ⟨17,[.setEnt .internalNl,.cb,.comment],none,false⟩⟩,⟨40,.other,false,some ⟨17,[.setEnt .internalNl,.cb,.comment],none,false⟩⟩,⟨41,.other,false,some ⟨17,[.setEnt .internalNl,.cb,.comment],none,false⟩⟩,⟨42,.other,false,some ⟨17,[.setEnt .internalNl,.cb,.comment],none,false⟩⟩,⟨47,.other,false,some ⟨17,[.setEnt .internalNl,.cb,.comment],none,false⟩⟩,⟨92,.other,false,some ⟨17,[.setEnt .internalNl,.cb,.comment],none,false⟩⟩,⟨123,.other,false,some ⟨17,[.setEnt .internalNl,.cb,.comment],none,false⟩⟩,⟨125,.other,false,some ⟨0,[.setEnt .internalNl,.cb],some 1,true⟩⟩]⟩,⟨[16],none,[],[⟨256,.other,false,none⟩,⟨256,.ws,false,none⟩,⟨256,.lf,false,some ⟨34,[],none,false⟩⟩,⟨256,.vt,false,none⟩,⟨256,.ff,false,none⟩,⟨256,.cr,false,none⟩,⟨256,.cr,true,none⟩,⟨39,.other,false,none⟩,⟨40,.other,false,none⟩,⟨41,.other,false,none⟩,⟨42,.other,false,none⟩,⟨47,.other,false,none⟩,⟨92,.other,false,none⟩,⟨123,.other,false,none⟩,⟨125,.other,false,none⟩]⟩,⟨[16,20],none,[],[⟨256,.other,false,some ⟨17,[.setEnt .internalNl,.cb,.comment],none,false⟩⟩,⟨256,.ws,false,some ⟨18,[.setEnt .internalNl,.cb],none,false⟩⟩,⟨256,.lf,false,some ⟨35,[.setEnt .internalNl,.cb],none,false⟩⟩,⟨256,.vt,false,some ⟨17,[.setEnt .internalNl,.cb,.comment],none,false⟩⟩,⟨256,.ff,false,some ⟨20,[.setEnt .internalNl,.cb],none,false⟩⟩,⟨256,.cr,false,some ⟨21,[.setEnt .internalNl,.cb],none,false⟩⟩,⟨256,.cr,true,some ⟨22,[.setEnt .internalNl,.cb],none,false⟩⟩,⟨39,.other,false,some ⟨17,[.setEnt .internalNl,.cb,.comment],none,false⟩⟩,⟨40,.other,false,some ⟨17,[.setEnt .internalNl,.cb,.comment],none,false⟩⟩,⟨41,.other,false,some ⟨17,[.setEnt .internalNl,.cb,.comment],none,false⟩⟩,⟨42,.other,false,some ⟨17,[.setEnt .internalNl,.cb,.comment],none,false⟩⟩,⟨47,.other,false,some ⟨17,[.setEnt .internalNl,.cb,.comment],none,false⟩⟩,⟨92,.other,false,some ⟨17,[.setEnt .internalNl,.cb,.comment],none,false⟩⟩,⟨123,.other,false,some ⟨17,[.setEnt .internalNl,.cb,.comment],none,false⟩⟩,⟨125,.other,false,some ⟨0,[.setEnt .internalNl,.cb],some 1,true⟩⟩]⟩,⟨[26],none,[],[⟨256,.other,false,some ⟨8,[.setEnt .internalNl,.cb,.code],none,false⟩⟩,⟨256,.ws,false,some ⟨9,[.setEnt .internalNl,.cb],none,false⟩⟩,⟨256,.lf,false,some ⟨10,[.setEnt .internalNl,.cb],none,false⟩⟩,⟨256,.vt,false,some ⟨8,[.setEnt .internalNl,.cb,.code],none,false⟩⟩,⟨256,.ff,false,some ⟨11,[.setEnt .internalNl,.cb],none,false⟩⟩,⟨256,.cr,false,some ⟨12,[.setEnt .internalNl,.cb],none,false⟩⟩,⟨256,.cr,true,some ⟨13,[.setEnt .internalNl,.cb],none,false⟩⟩,⟨39,.other,false,some ⟨0,[.setEnt .internalNl,.cb],some 2,true⟩⟩,⟨40,.other,false,some ⟨8,[.setEnt .internalNl,.cb,.code],none,false⟩⟩,⟨41,.other,false,some ⟨8,[.setEnt .internalNl,.cb,.code],none,false⟩⟩,⟨42,.other,false,some ⟨8,[.setEnt .internalNl,.cb,.code],none,false⟩⟩,⟨47,.other,false,some ⟨8,[.setEnt .internalNl,.cb,.code],none,false⟩⟩,⟨92,.other,false,some ⟨14,[.setEnt .internalNl,.cb],none,false⟩⟩,⟨123,.other,false,some ⟨8,[.setEnt .internalNl,.cb,.code],none,false⟩⟩,⟨125,.other,false,some ⟨8,[.setEnt .internalNl,.cb,.code],none,false⟩⟩]⟩,⟨[26,27],none,[],[⟨256,.other,false,some ⟨8,[.setEnt .internalNl,.cb,.code],none,false⟩⟩,⟨256,.ws,false,some ⟨9,[.setEnt .internalNl,.cb],none,false⟩⟩,⟨256,.lf,false,some ⟨10,[.setEnt .internalNl,.cb],none,false⟩⟩,⟨256,.vt,false,some ⟨8,[.setEnt .internalNl,.cb,.code],none,false⟩⟩,⟨256,.ff,false,some ⟨11,[.setEnt .internalNl,.cb],none,false⟩⟩,⟨256,.cr,false,some ⟨12,[.setEnt .internalNl,.cb],none,false⟩⟩,⟨256,.cr,true,some ⟨13,[.setEnt .internalNl,.cb],none,false⟩⟩,⟨39,.other,false,some ⟨0,[.setEnt .internalNl,.cb],some 2,true⟩⟩,⟨40,.other,false,some ⟨8,[.setEnt .internalNl,.cb,.code],none,false⟩⟩,⟨41,.other,false,some ⟨8,[.setEnt .internalNl,.cb,.code],none,false⟩⟩,⟨42,.other,false,some ⟨8,[.setEnt .internalNl,.cb,.code],none,false⟩⟩,⟨47,.other,false,some ⟨8,[.setEnt .internalNl,.cb,.code],none,false⟩⟩,⟨92,.other,false,some ⟨14,[.setEnt .internalNl,.cb],none,false⟩⟩,⟨123,.other,false,some ⟨8,[.setEnt .internalNl,.cb,.code],none,false⟩⟩,⟨125,.other,false,some ⟨8,[.setEnt .internalNl,.cb,.code],none,false⟩⟩]⟩,⟨[33],none,[],[⟨256,.other,false,some ⟨8,[.code],none,false⟩⟩,⟨256,.ws,false,some ⟨9,[],none,false⟩⟩,⟨256,.lf,false,some ⟨10,[],none,false⟩⟩,⟨256,.vt,false,some ⟨8,[.code],none,false⟩⟩,⟨256,.ff,false,some ⟨11,[],none,false⟩⟩,⟨256,.cr,false,some ⟨12,[],none,false⟩⟩,⟨256,.cr,true,some ⟨13,[],none,false⟩⟩,⟨39,.other,false,some ⟨0,[],some 2,true⟩⟩,⟨40,.other,false,some ⟨8,[.code],none,false⟩⟩,⟨41,.other,false,some ⟨8,[.code],none,false⟩⟩,⟨42,.other,false,some ⟨8,[.code],none,false⟩⟩,⟨47,.other,false,some ⟨8,[.code],none,false⟩⟩,⟨92,.other,false,some ⟨14,[],none,false⟩⟩,⟨123,.other,false,some ⟨8,[.code],none,false⟩⟩,⟨125,.other,false,some ⟨8,[.code],none,false⟩⟩]⟩,⟨[12],none,[],[⟨256,.other,false,some ⟨26,[.code],none,false⟩⟩,⟨256,.ws,false,some ⟨27,[],none,false⟩⟩,⟨256,.lf,false,some ⟨28,[],none,false⟩⟩,⟨256,.vt,false,some ⟨26,[.code],none,false⟩⟩,⟨256,.ff,false,some ⟨29,[],none,false⟩⟩,⟨256,.cr,false,some ⟨30,[],none,false⟩⟩,⟨256,.cr,true,some ⟨31,[],none,false⟩⟩,⟨39,.other,false,some ⟨26,[.code],none,false⟩⟩,⟨40,.other,false,some ⟨26,[.code],none,false⟩⟩,⟨41,.other,false,some ⟨26,[.code],none,false⟩⟩,⟨42,.other,false,some ⟨32,[.code],none,false⟩⟩,⟨47,.other,false,some ⟨26,[.code],none,false⟩⟩,⟨92,.other,false,some ⟨26,[.code],none,false⟩⟩,⟨123,.other,false,some ⟨26,[.code],none,false⟩⟩,⟨125,.other,false,some ⟨26,[.code],none,false⟩⟩]⟩,⟨[11],none,[],[⟨256,.other,false,some ⟨26,[.code],none,false⟩⟩,⟨256,.ws,false,some ⟨27,[],none,false⟩⟩,⟨256,.lf,false,some ⟨28,[],none,false⟩⟩,⟨256,.vt,false,some ⟨26,[.code],none,false⟩⟩,⟨256,.ff,false,some ⟨29,[],none,false⟩⟩,⟨256,.cr,false,some ⟨30,[],none,false⟩⟩,⟨256,.cr,true,some ⟨31,[],none,false⟩⟩,⟨39,.other,false,some ⟨26,[.code],none,false⟩⟩,⟨40,.other,false,some ⟨26,[.code],none,false⟩⟩,⟨41,.other,false,some ⟨26,[.code],none,false⟩⟩,⟨42,.other,false,some ⟨32,[.code],none,false⟩⟩,⟨47,.other,false,some ⟨26,[.code],none,false⟩⟩,⟨92,.other,false,some ⟨26,[.code],none,false⟩⟩,⟨123,.other,false,some ⟨26,[.code],none,false⟩⟩,⟨125,.other,false,some ⟨26,[.code],none,false⟩⟩]⟩,⟨[8],none,[],[⟨256,.other,false,some ⟨26,[.setEnt .internalNl,.cb,.code],none,false⟩⟩,⟨256,.ws,false,some ⟨27,[.setEnt .internalNl,.cb],none,false⟩⟩,⟨256,.lf,false,some ⟨28,[.setEnt .internalNl,.cb],none,false⟩⟩,⟨256,.vt,false,some ⟨26,[.setEnt .internalNl,.cb,.code],none,false⟩⟩,⟨256,.ff,false,some ⟨29,[.setEnt .internalNl,.cb],none,false⟩⟩,⟨256,.cr,false,some ⟨30,[.setEnt .internalNl,.cb],none,false⟩⟩,⟨256,.cr,true,some ⟨31,[.setEnt .internalNl,.cb],none,false⟩⟩,⟨39,.other,false,some ⟨26,[.setEnt .internalNl,.cb,.code],none,false⟩⟩,⟨40,.other,false,some ⟨26,[.setEnt .internalNl,.cb,.code],none,false⟩⟩,⟨41,.other,false,some ⟨26,[.setEnt .internalNl,.cb,.code],none,false⟩⟩,⟨42,.other,false,some ⟨32,[.setEnt .internalNl,.cb,.code],none,false⟩⟩,⟨47,.other,false,some ⟨26,[.setEnt .internalNl,.cb,.code],none,false⟩⟩,⟨92,.other,false,some ⟨26,[.setEnt .internalNl,.cb,.code],none,false⟩⟩,⟨123,.other,false,some ⟨26,[.setEnt .internalNl,.cb,.code],none,false⟩⟩,⟨125,.other,false,some ⟨26,[.setEnt .internalNl,.cb,.code],none,false⟩⟩]⟩,⟨[9],none,[],[⟨256,.other,false,some ⟨26,[.setEnt .internalNl,.cb,.code],none,false⟩⟩,⟨256,.ws,false,some ⟨27,[.setEnt .internalNl,.cb],none,false⟩⟩,⟨256,.lf,false,some ⟨28,[.setEnt .internalNl,.cb],none,false⟩⟩,⟨256,.vt,false,some ⟨26,[.setEnt .internalNl,.cb,.code],none,false⟩⟩,⟨256,.ff,false,some ⟨29,[.setEnt .internalNl,.cb],none,false⟩⟩,⟨256,.cr,false,some ⟨30,[.setEnt .internalNl,.cb],none,false⟩⟩,⟨256,.cr,true,some ⟨31,[.setEnt .internalNl,.cb],none,false⟩⟩,⟨39,.other,false,some ⟨26,[.setEnt .internalNl,.cb,.code],none,false⟩⟩,⟨40,.other,false,some ⟨26,[.setEnt .internalNl,.cb,.code],none,false⟩⟩,⟨41,.other,false,some ⟨26,[.setEnt .internalNl,.cb,.code],none,false⟩⟩,⟨42,.other,false,some ⟨32,[.setEnt .internalNl,.cb,.code],none,false⟩⟩,⟨47,.other,false,some ⟨26,[.setEnt .internalNl,.cb,.code],none,false⟩⟩,⟨92,.other,false,some ⟨26,[.setEnt .internalNl,.cb,.code],none,false⟩⟩,⟨123,.other,false,some ⟨26,[.setEnt .internalNl,.cb,.code],none,false⟩⟩,⟨125,.other,false,some ⟨26,[.setEnt .internalNl,.cb,.code],none,false⟩⟩]⟩,⟨[6],none,[],[⟨256,.other,false,none⟩,⟨256,.ws,false,none⟩,⟨256,.lf,false,some ⟨36,[],none,false⟩⟩,⟨256,.vt,false,none⟩,⟨256,.ff,false,none⟩,⟨256,.cr,false,none⟩,⟨256,.cr,true,none⟩,⟨39,.other,false,none⟩,⟨40,.other,false,none⟩,⟨41,.other,false,none⟩,⟨42,.other,false,none⟩,⟨47,.other,false,none⟩,⟨92,.other,false,none⟩,⟨123,.other,false,none⟩,⟨125,.other,false,none⟩]⟩,⟨[6,10],none,[],[⟨256,.other,false,some ⟨26,[.setEnt .internalNl,.cb,.code],none,false⟩⟩,⟨256,.ws,false,some ⟨27,[.setEnt .internalNl,.cb],none,false⟩⟩,⟨256,.lf,false,some ⟨37,[.setEnt .internalNl,.cb],none,false⟩⟩,⟨256,.vt,false,some ⟨26,[.setEnt .internalNl,.cb,.code],none,false⟩⟩,⟨256,.ff,false,some ⟨29,[.setEnt .internalNl,.cb],none,false⟩⟩,⟨256,.cr,false,some ⟨30,[.setEnt .internalNl,.cb],none,false⟩⟩,⟨256,.cr,true,some ⟨31,[.setEnt .internalNl,.cb],none,false⟩⟩,⟨39,.other,false,some ⟨26,[.setEnt .internalNl,.cb,.code],none,false⟩⟩,⟨40,.other,false,some ⟨26,[.setEnt .internalNl,.cb,.code],none,false⟩⟩,⟨41,.other,false,some ⟨26,[.setEnt .internalNl,.cb,.code],none,false⟩⟩,⟨42,.other,false,some ⟨32,[.setEnt .internalNl,.cb,.code],none,false⟩⟩,⟨47,.other,false,some ⟨26,[.setEnt .internalNl,.cb,.code],none,false⟩⟩,⟨92,.other,false,some ⟨26,[.setEnt .internalNl,.cb,.code],none,false⟩⟩,⟨123,.other,false,some ⟨26,[.setEnt .internalNl,.cb,.code],none,false⟩⟩,⟨125,.other,false,some ⟨26,[.setEnt .internalNl,.cb,.code],none,false⟩⟩]⟩,⟨[12,13],none,[],[⟨256,.other,false,some ⟨26,[.code],none,false⟩⟩,⟨256,.ws,false,some ⟨27,[],none,false⟩⟩,⟨256,.lf,false,some ⟨28,[],none,false⟩⟩,⟨256,.vt,false,some ⟨26,[.code],none,false⟩⟩,⟨256,.ff,false,some ⟨29,[],none,false⟩⟩,⟨256,.cr,false,some ⟨30,[],none,false⟩⟩,⟨256,.cr,true,some ⟨31,[],none,false⟩⟩,⟨39,.other,false,some ⟨26,[.code],none,false⟩⟩,⟨40,.other,false,some ⟨26,[.code],none,false⟩⟩,⟨41,.other,false,some ⟨0,[],some 1,true⟩⟩,⟨42,.other,false,some ⟨32,[.code],none,false⟩⟩,⟨47,.other,false,some ⟨26,[.code],none,false⟩⟩,⟨92,.other,false,some ⟨26,[.code],none,false⟩⟩,⟨123,.other,false,some ⟨26,[.code],none,false⟩⟩,⟨125,.other,false,some ⟨26,[.code],none,false⟩⟩]⟩,⟨[3],some 1,[],[⟨256,.other,false,some ⟨33,[],some 1,false⟩⟩,⟨256,.ws,false,some ⟨33,[],some 1,false⟩⟩,⟨256,.lf,false,none⟩,⟨256,.vt,false,some ⟨33,[],some 1,false⟩⟩,⟨256,.ff,false,none⟩,⟨256,.cr,false,none⟩,⟨256,.cr,true,none⟩,⟨39,.other,false,some ⟨33,[],some 1,false⟩⟩,⟨40,.other,false,some ⟨33,[],some 1,false⟩⟩,⟨41,.other,false,some ⟨33,[],some 1,false⟩⟩,⟨42,.other,false,some ⟨33,[],some 1,false⟩⟩,⟨47,.other,false,some ⟨33,[],some 1,false⟩⟩,⟨92,.other,false,some ⟨33,[],some 1,false⟩⟩,⟨123,.other,false,some ⟨33,[],some 1,false⟩⟩,⟨125,.other,false,some ⟨33,[],some 1,false⟩⟩]⟩,⟨[17],none,[],[⟨256,.other,false,some ⟨17,[.setEnt .internalNl,.cb,.comment],none,false⟩⟩,⟨256,.ws,false,some ⟨18,[.setEnt .internalNl,.cb],none,false⟩⟩,⟨256,.lf,false,some ⟨19,[.setEnt .internalNl,.cb],none,false⟩⟩,⟨256,.vt,false,some ⟨17,[.setEnt .internalNl,.cb,.comment],none,false⟩⟩,⟨256,.ff,false,some ⟨20,[.setEnt .internalNl,.cb],none,false⟩⟩,⟨256,.cr,false,some ⟨21,[.setEnt .internalNl,.cb],none,false⟩⟩,⟨256,.cr,true,some ⟨22,[.setEnt .internalNl,.cb],none,false⟩⟩,⟨39,.other,false,some ⟨17,[.setEnt .internalNl,.cb,.comment],none,false⟩⟩,⟨40,.other,false,some ⟨17,[.setEnt .internalNl,.cb,.comment],none,false⟩⟩,⟨41,.other,false,some ⟨17,[.setEnt .internalNl,.cb,.comment],none,false⟩⟩,⟨42,.other,false,some ⟨17,[.setEnt .internalNl,.cb,.comment],none,false⟩⟩,⟨47,.other,false,some ⟨17,[.setEnt .internalNl,.cb,.comment],none,false⟩⟩,⟨92,.other,false,some ⟨17,[.setEnt .internalNl,.cb,.comment],none,false⟩⟩,⟨123,.other,false,some ⟨17,[.setEnt .internalNl,.cb,.comment],none,false⟩⟩,⟨125,.other,false,some ⟨0,[.setEnt .internalNl,.cb],some 1,true⟩⟩]⟩,⟨[17,18],none,[],[⟨256,.other,false,some ⟨17,[.setEnt .internalNl,.cb,.comment],none,false⟩⟩,⟨256,.ws,false,some ⟨18,[.setEnt .internalNl,.cb],none,false⟩⟩,⟨256,.lf,false,some ⟨19,[.setEnt .internalNl,.cb],none,false⟩⟩,⟨256,.vt,false,some ⟨17,[.setEnt .internalNl,.cb,.comment],none,false⟩⟩,⟨256,.ff,false,some ⟨20,[.setEnt .internalNl,.cb],none,false⟩⟩,⟨256,.cr,false,some ⟨21,[.setEnt .internalNl,.cb],none,false⟩⟩,⟨256,.cr,true,some ⟨22,[.setEnt .internalNl,.cb],none,false⟩⟩,⟨39,.other,false,some ⟨17,[.setEnt .internalNl,.cb,.comment],none,false⟩⟩,⟨40,.other,false,some ⟨17,[.setEnt .internalNl,.cb,.comment],none,false⟩⟩,⟨41,.other,false,some ⟨17,[.setEnt .internalNl,.cb,.comment],none,false⟩⟩,⟨42,.other,false,some ⟨17,[.setEnt .internalNl,.cb,.comment],none,false⟩⟩,⟨47,.other,false,some ⟨17,[.setEnt .internalNl,.cb,.comment],none,false⟩⟩,⟨92,.other,false,some ⟨17,[.setEnt .internalNl,.cb,.comment],none,false⟩⟩,⟨123,.other,false,some ⟨17,[.setEnt .internalNl,.cb,.comment],none,false⟩⟩,⟨125,.other,false,some ⟨0,[.setEnt .internalNl,.cb],some 1,true⟩⟩]⟩,⟨[7],none,[],[⟨256,.other,false,some ⟨26,[.setEnt .internalNl,.cb,.code],none,false⟩⟩,⟨256,.ws,false,some ⟨27,[.setEnt .internalNl,.cb],none,false⟩⟩,⟨256,.lf,false,some ⟨28,[.setEnt .internalNl,.cb],none,false⟩⟩,⟨256,.vt,false,some ⟨26,[.setEnt .internalNl,.cb,.code],none,false⟩⟩,⟨256,.ff,false,some ⟨29,[.setEnt .internalNl,.cb],none,false⟩⟩,⟨256,.cr,false,some ⟨30,[.setEnt .internalNl,.cb],none,false⟩⟩,⟨256,.cr,true,some ⟨31,[.setEnt .internalNl,.cb],none,false⟩⟩,⟨39,.other,false,some ⟨26,[.setEnt .internalNl,.cb,.code],none,false⟩⟩,⟨40,.other,false,some ⟨26,[.setEnt .internalNl,.cb,.code],none,false⟩⟩,⟨41,.other,false,some ⟨26,[.setEnt .internalNl,.cb,.code],none,false⟩⟩,⟨42,.other,false,some ⟨32,[.setEnt .internalNl,.cb,.code],none,false⟩⟩,⟨47,.other,false,some ⟨26,[.setEnt .internalNl,.cb,.code],none,false⟩⟩,⟨92,.other,false,some ⟨26,[.setEnt .internalNl,.cb,.code],none,false⟩⟩,⟨123,.other,false,some ⟨26,[.setEnt .internalNl,.cb,.code],none,false⟩⟩,⟨125,.other,false,some ⟨26,[.setEnt .internalNl,.cb,.code],none,false⟩⟩]⟩,⟨[7,8],none,[],[⟨256,.other,false,some ⟨26,[.setEnt .internalNl,.cb,.code],none,false⟩⟩,⟨256,.ws,false,some ⟨27,[.setEnt .internalNl,.cb],none,false⟩⟩,⟨256,.lf,false,some ⟨28,[.setEnt .internalNl,.cb],none,false⟩⟩,⟨256,.vt,false,some ⟨26,[.setEnt .internalNl,.cb,.code],none,false⟩⟩,⟨256,.ff,false,some ⟨29,[.setEnt .internalNl,.cb],none,false⟩⟩,⟨256,.cr,false,some ⟨30,[.setEnt .internalNl,.cb],none,false⟩⟩,⟨256,.cr,true,some ⟨31,[.setEnt .internalNl,.cb],none,false⟩⟩,⟨39,.other,false,some ⟨26,[.setEnt .internalNl,.cb,.code],none,false⟩⟩,⟨40,.other,false,some ⟨26,[.setEnt .internalNl,.cb,.code],none,false⟩⟩,⟨41,.other,false,some ⟨26,[.setEnt .internalNl,.cb,.code],none,false⟩⟩,⟨42,.other,false,some ⟨32,[.setEnt .internalNl,.cb,.code],none,false⟩⟩,⟨47,.other,false,some ⟨26,[.setEnt .internalNl,.cb,.code],none,false⟩⟩,⟨92,.other,false,some ⟨26,[.setEnt .internalNl,.cb,.code],none,false⟩⟩,⟨123,.other,false,some ⟨26,[.setEnt .internalNl,.cb,.code],none,false⟩⟩,⟨125,.other,false,some ⟨26,[.setEnt .internalNl,.cb,.code],none,false⟩⟩]⟩]
theorem pascal_line_lrowsOk : rowsOk pascal_line_nfa pascal_line_lex.rel (pascal_line_lcs.map (·.1)) pascal_line_lrows = true := by decide +kernel
def pascal_line_lfr : List CA.FRow := [⟨true,none,[],[⟨256,.other,false,false,none,some ([.setEnt (.own 3)],(some 4,true))⟩,⟨9,.ws,false,false,some 1,some ([.setEnt (.own 0)],(some 0,false))⟩,⟨10,.lf,false,true,none,some ([.setEnt .newline],(some 3,true))⟩,⟨11,.vt,false,false,none,none⟩,⟨12,.ff,false,true,none,some ([.setEnt .newline],(some 3,true))⟩,⟨13,.cr,false,false,some 2,some ([.setEnt .newline],(none,false))⟩,⟨13,.cr,true,true,some 3,some ([.setEnt .newline],(some 3,false))⟩,⟨39,.other,false,false,some 4,some ([.code,.setEnt (.own 3)],(some 4,false))⟩,⟨40,.other,false,false,some 5,some ([.setEnt (.own 3)],(some 4,false))⟩,⟨41,.other,false,false,none,some ([.setEnt (.own 3)],(some 4,true))⟩,⟨42,.other,false,false,none,some ([.setEnt (.own 3)],(some 4,true))⟩,⟨47,.other,false,false,some 6,some ([.setEnt (.own 3)],(some 4,false))⟩,⟨92,.other,false,false,none,some ([.setEnt (.own 3)],(some 4,true))⟩,⟨123,.other,false,false,some 7,some ([.comment,.setEnt (.own 3)],(some 4,false))⟩,⟨125,.other,false,false,none,some ([.setEnt (.own 3)],(some 4,true))⟩]⟩,⟨false,some 0,[],[⟨256,.other,false,false,none,none⟩,⟨9,.ws,false,false,some 1,some ([.setEnt (.own 0)],(some 0,false))⟩,⟨10,.lf,false,true,none,none⟩,⟨11,.vt,false,false,none,none⟩,⟨12,.ff,false,true,none,none⟩,⟨13,.cr,false,false,none,none⟩,⟨13,.cr,true,true,none,none⟩,⟨39,.other,false,false,none,none⟩,⟨40,.other,false,false,none,none⟩,⟨41,.other,false,false,none,none⟩,⟨42,.other,false,false,none,none⟩,⟨47,.other,false,false,none,none⟩,⟨92,.other,false,false,none,none⟩,⟨123,.other,false,false,none,none⟩,⟨125,.other,false,false,none,none⟩]⟩,⟨false,none,[],[⟨256,.other,false,false,none,none⟩,⟨9,.ws,false,false,none,none⟩,⟨10,.lf,false,true,none,some ([.setEnt .newline],(some 3,true))⟩,⟨11,.vt,false,false,none,none⟩,⟨12,.ff,false,true,none,none⟩,⟨13,.cr,false,false,none,none⟩,⟨13,.cr,true,true,none,none⟩,⟨39,.other,false,false,none,none⟩,⟨40,.other,false,false,none,none⟩,⟨41,.other,false,false,none,none⟩,⟨42,.other,false,false,none,none⟩,⟨47,.other,false,false,none,none⟩,⟨92,.other,false,false,none,none⟩,⟨123,.other,false,false,none,none⟩,⟨125,.other,false,false,none,none⟩]⟩,⟨false,some 3,[],[⟨256,.other,false,false,none,none⟩,⟨9,.ws,false,false,none,none⟩,⟨10,.lf,false,true,none,some ([.setEnt .newline],(some 3,true))⟩,⟨11,.vt,false,false,none,none⟩,⟨12,.ff,false,true,none,none⟩,⟨13,.cr,false,false,none,none⟩,⟨13,.cr,true,true,none,none⟩,⟨39,.other,false,false,none,none⟩,⟨40,.other,false,false,none,none⟩,⟨41,.other,false,false,none,none⟩,⟨42,.other,false,false,none,none⟩,⟨47,.other,false,false,none,none⟩,⟨92,.other,false,false,none,none⟩,⟨123,.other,false,false,none,none⟩,⟨125,.other,false,false,none,none⟩]⟩,⟨false,some 4,[],[⟨256,.other,false,false,some 8,some ([.code],(none,false))⟩,⟨9,.ws,false,false,some 9,some ([],(none,false))⟩,⟨10,.lf,false,true,some 10,some ([],(none,false))⟩,⟨11,.vt,false,false,some 8,some ([.code],(none,false))⟩,⟨12,.ff,false,true,some 11,some ([],(none,false))⟩,⟨13,.cr,false,false,some 12,some ([],(none,false))⟩,⟨13,.cr,true,true,some 13,some ([],(none,false))⟩,⟨39,.other,false,false,none,some ([],(some 2,true))⟩,⟨40,.other,false,false,some 8,some ([.code],(none,false))⟩,⟨41,.other,false,false,some 8,some ([.code],(none,false))⟩,⟨42,.other,false,false,some 8,some ([.code],(none,false))⟩,⟨47,.other,false,false,some 8,some ([.code],(none,false))⟩,⟨92,.other,false,false,some 14,some ([],(none,false))⟩,⟨123,.other,false,false,some 8,some ([.code],(none,false))⟩,⟨125,.other,false,false,some 8,some ([.code],(none,false))⟩]⟩,⟨false,some 4,[],[⟨256,.other,false,false,none,none⟩,⟨9,.ws,false,false,none,none⟩,⟨10,.lf,false,true,none,none⟩,⟨11,.vt,false,false,none,none⟩,⟨12,.ff,false,true,none,none⟩,⟨13,.cr,false,false,none,none⟩,⟨13,.cr,true,true,none,none⟩,⟨39,.other,false,false,none,none⟩,⟨40,.other,false,false,none,none⟩,⟨41,.other,false,false,none,none⟩,⟨42,.other,false,false,some 15,some ([.comment],(none,false))⟩,⟨47,.other,false,false,none,none⟩,⟨92,.other,false,false,none,none⟩,⟨123,.other,false,false,none,none⟩,⟨125,.other,false,false,none,none⟩]⟩,⟨false,some 4,[],[⟨256,.other,false,false,none,none⟩,⟨9,.ws,false,false,none,none⟩,⟨10,.lf,false,true,none,none⟩,⟨11,.vt,false,false,none,none⟩,⟨12,.ff,false,true,none,none⟩,⟨13,.cr,false,false,none,none⟩,⟨13,.cr,true,true,none,none⟩,⟨39,.other,false,false,none,none⟩,⟨40,.other,false,false,none,none⟩,⟨41,.other,false,false,none,none⟩,⟨42,.other,false,false,none,none⟩,⟨47,.other,false,false,some 16,some ([.comment],(some 1,false))⟩,⟨92,.other,false,false,none,none⟩,⟨123,.other,false,false,none,none⟩,⟨125,.other,false,false,none,none⟩]⟩,⟨false,some 4,[],[⟨256,.other,false,false,some 17,some ([.comment],(none,false))⟩,⟨9,.ws,false,false,some 18,some ([],(none,false))⟩,⟨10,.lf,false,true,some 19,some ([],(none,false))⟩,⟨11,.vt,false,false,some 17,some ([.comment],(none,false))⟩,⟨12,.ff,false,true,some 20,some ([],(none,false))⟩,⟨13,.cr,false,false,some 21,some ([],(none,false))⟩,⟨13,.cr,true,true,some 22,some ([],(none,false))⟩,⟨39,.other,false,false,some 17,some ([.comment],(none,false))⟩,⟨40,.other,false,false,some 17,some ([.comment],(none,false))⟩,⟨41,.other,false,false,some 17,some ([.comment],(none,false))⟩,⟨42,.other,false,false,some 17,some ([.comment],(none,false))⟩,⟨47,.other,false,false,some 17,some ([.comment],(none,false))⟩,⟨92,.other,false,false,some 17,some ([.comment],(none,false))⟩,⟨123,.other,false,false,some 17,some ([.comment],(none,false))⟩,⟨125,.other,false,false,none,some ([],(some 1,true))⟩]⟩,⟨false,none,[],[⟨256,.other,false,false,some 8,some ([.code],(none,false))⟩,⟨9,.ws,false,false,some 9,some ([],(none,false))⟩,⟨10,.lf,false,true,some 10,some ([],(none,false))⟩,⟨11,.vt,false,false,some 8,some ([.code],(none,false))⟩,⟨12,.ff,false,true,some 11,some ([],(none,false))⟩,⟨13,.cr,false,false,some 12,some ([],(none,false))⟩,⟨13,.cr,true,true,some 13,some ([],(none,false))⟩,⟨39,.other,false,false,none,some ([],(some 2,true))⟩,⟨40,.other,false,false,some 8,some ([.code],(none,false))⟩,⟨41,.other,false,false,some 8,some ([.code],(none,false))⟩,⟨42,.other,false,false,some 8,some ([.code],(none,false))⟩,⟨47,.other,false,false,some 8,some ([.code],(none,false))⟩,⟨92,.other,false,false,some 14,some ([],(none,false))⟩,⟨123,.other,false,false,some 8,some ([.code],(none,false))⟩,⟨125,.other,false,false,some 8,some ([.code],(none,false))⟩]⟩,⟨false,none,[],[⟨256,.other,false,false,some 8,some ([.code],(none,false))⟩,⟨9,.ws,false,false,some 9,some ([],(none,false))⟩,⟨10,.lf,false,true,some 10,some ([],(none,false))⟩,⟨11,.vt,false,false,some 8,some ([.code],(none,false))⟩,⟨12,.ff,false,true,some 11,some ([],(none,false))⟩,⟨13,.cr,false,false,some 12,some ([],(none,false))⟩,⟨13,.cr,true,true,some 13,some ([],(none,false))⟩,⟨39,.other,false,false,none,some ([],(some 2,true))⟩,⟨40,.other,false,false,some 8,some ([.code],(none,false))⟩,⟨41,.other,false,false,some 8,some ([.code],(none,false))⟩,⟨42,.other,false,false,some 8,some ([.code],(none,false))⟩,⟨47,.other,false,false,some 8,some ([.code],(none,false))⟩,⟨92,.other,false,false,some 14,some ([],(none,false))⟩,⟨123,.other,false,false,some 8,some ([.code],(none,false))⟩,⟨125,.other,false,false,some 8,some ([.code],(none,false))⟩]⟩,⟨false,none,[],[⟨256,.other,false,false,some 8,some ([.setEnt .internalNl,.cb,.code],(none,false))⟩,⟨9,.ws,false,false,some 9,some ([.setEnt .internalNl,.cb],(none,false))⟩,⟨10,.lf,false,true,some 10,some ([.setEnt .internalNl,.cb],(none,false))⟩,⟨11,.vt,false,false,some 8,some ([.setEnt .internalNl,.cb,.code],(none,false))⟩,⟨12,.ff,false,true,some 11,some ([.setEnt .internalNl,.cb],(none,false))⟩,⟨13,.cr,false,false,some 12,some ([.setEnt .internalNl,.cb],(none,false))⟩,⟨13,.cr,true,true,some 13,some ([.setEnt .internalNl,.cb],(none,false))⟩,⟨39,.other,false,false,none,some ([.setEnt .internalNl,.cb],(some 2,true))⟩,⟨40,.other,false,false,some 8,some ([.setEnt .internalNl,.cb,.code],(none,false))⟩,⟨41,.other,false,false,some 8,some ([.setEnt .internalNl,.cb,.code],(none,false))⟩,⟨42,.other,false,false,some 8,some ([.setEnt .internalNl,.cb,.code],(none,false))⟩,⟨47,.other,false,false,some 8,some ([.setEnt .internalNl,.cb,.code],(none,false))⟩,⟨92,.other,false,false,some 14,some ([.setEnt .internalNl,.cb],(none,false))⟩,⟨123,.other,false,false,some 8,some ([.setEnt .internalNl,.cb,.code],(none,false))⟩,⟨125,.other,false,false,some 8,some ([.setEnt .internalNl,.cb,.code],(none,false))⟩]⟩,⟨false,none,[],[⟨256,.other,false,false,some 8,some ([.setEnt .internalNl,.cb,.code],(none,false))⟩,⟨9,.ws,false,false,some 9,some ([.setEnt .internalNl,.cb],(none,false))⟩,⟨10,.lf,false,true,some 10,some ([.setEnt .internalNl,.cb],(none,false))⟩,⟨11,.vt,false,false,some 8,some ([.setEnt .internalNl,.cb,.code],(none,false))⟩,⟨12,.ff,false,true,some 11,some ([.setEnt .internalNl,.cb],(none,false))⟩,⟨13,.cr,false,false,some 12,some ([.setEnt .internalNl,.cb],(none,false))⟩,⟨13,.cr,true,true,some 13,some ([.setEnt .internalNl,.cb],(none,false))⟩,⟨39,.other,false,false,none,some ([.setEnt .internalNl,.cb],(some 2,true))⟩,⟨40,.other,false,false,some 8,some ([.setEnt .internalNl,.cb,.code],(none,false))⟩,⟨41,.other,false,false,some 8,some ([.setEnt .internalNl,.cb,.code],(none,false))⟩,⟨42,.other,false,false,some 8,some ([.setEnt .internalNl,.cb,.code],(none,false))⟩,⟨47,.other,false,false,some 8,some ([.setEnt .internalNl,.cb,.code],(none,false))⟩,⟨92,.other,false,false,some 14,some ([.setEnt .internalNl,.cb],(none,false))⟩,⟨123,.other,false,false,some 8,some ([.setEnt .internalNl,.cb,.code],(none,false))⟩,⟨125,.other,false,false,some 8,some ([.setEnt .internalNl,.cb,.code],(none,false))⟩]⟩,⟨false,none,[],[⟨256,.other,false,false,none,none⟩,⟨9,.ws,false,false,none,none⟩,⟨10,.lf,false,true,some 23,some ([],(none,false))⟩,⟨11,.vt,false,false,none,none⟩,⟨12,.ff,false,true,none,none⟩,⟨13,.cr,false,false,none,none⟩,⟨13,.cr,true,true,none,none⟩,⟨39,.other,false,false,none,none⟩,⟨40,.other,false,false,none,none⟩,⟨41,.other,false,false,none,none⟩,⟨42,.other,false,false,none,none⟩,⟨47,.other,false,false,none,none⟩,⟨92,.other,false,false,none,none⟩,⟨123,.other,false,false,none,none⟩,⟨125,.other,false,false,none,none⟩]⟩,⟨false,none,[],[⟨256,.other,false,false,some 8,some ([.setEnt .internalNl,.cb,.code],(none,false))⟩,⟨9,.ws,false,false,some 9,some ([.setEnt .internalNl,.cb],(none,false))⟩,⟨10,.lf,false,true,some 24,some ([.setEnt .internalNl,.cb],(none,false))⟩,⟨11,.vt,false,false,some 8,some ([.setEnt .internalNl,.cb,.code],(none,false))⟩,⟨12,.ff,false,true,some 11,some ([.setEnt .internalNl,.cb],(none,false))⟩,⟨13,.cr,false,false,some 12,some ([.setEnt .internalNl,.cb],(none,false))⟩,⟨13,.cr,true,true,some 13,some ([.setEnt .internalNl,.cb],(none,false))⟩,⟨39,.other,false,false,none,some ([.setEnt .internalNl,.cb],(some 2,true))⟩,⟨40,.other,false,false,some 8,some ([.setEnt .internalNl,.cb,.code],(none,false))⟩,⟨41,.other,false,false,some 8,some ([.setEnt .internalNl,.cb,.code],(none,false))⟩,⟨42,.other,false,false,some 8,some ([.setEnt .internalNl,.cb,.code],(none,false))⟩,⟨47,.other,false,false,some 8,some ([.setEnt .internalNl,.cb,.code],(none,false))⟩,⟨92,.other,false,false,some 14,some ([.setEnt .internalNl,.cb],(none,false))⟩,⟨123,.other,false,false,some 8,some ([.setEnt .internalNl,.cb,.code],(none,false))⟩,⟨125,.other,false,false,some 8,some ([.setEnt .internalNl,.cb,.code],(none,false))⟩]⟩,⟨false,none,[],[⟨256,.other,false,false,some 25,some ([.code],(none,false))⟩,⟨9,.ws,false,false,some 25,some ([.code],(none,false))⟩,⟨10,.lf,false,true,none,none⟩,⟨11,.vt,false,false,some 25,some ([.code],(none,false))⟩,⟨12,.ff,false,true,none,none⟩,⟨13,.cr,false,false,none,none⟩,⟨13,.cr,true,true,none,none⟩,⟨39,.other,false,false,some 25,some ([.code],(none,false))⟩,⟨40,.other,false,false,some 25,some ([.code],(none,false))⟩,⟨41,.other,false,false,some 25,some ([.code],(none,false))⟩,⟨42,.other,false,false,some 25,some ([.code],(none,false))⟩,⟨47,.other,false,false,some 25,some ([.code],(none,false))⟩,⟨92,.other,false,false,some 25,some ([.code],(none,false))⟩,⟨123,.other,false,false,some 25,some ([.code],(none,false))⟩,⟨125,.other,false,false,some 25,some ([.code],(none,false))⟩]⟩,⟨false,none,[],[⟨256,.other,false,false,some 26,some ([.code],(none,false))⟩,⟨9,.ws,false,false,some 27,some ([],(none,false))⟩,⟨10,.lf,false,true,some 28,some ([],(none,false))⟩,⟨11,.vt,false,false,some 26,some ([.code],(none,false))⟩,⟨12,.ff,false,true,some 29,some ([],(none,false))⟩,⟨13,.cr,false,false,some 30,some ([],(none,false))⟩,⟨13,.cr,true,true,some 31,some ([],(none,false))⟩,⟨39,.other,false,false,some 26,some ([.code],(none,false))⟩,⟨40,.other,false,false,some 26,some ([.code],(none,false))⟩,⟨41,.other,false,false,some 26,some ([.code],(none,false))⟩,⟨42,.other,false,false,some 32,some ([.code],(none,false))⟩,⟨47,.other,false,false,some 26,some ([.code],(none,false))⟩,⟨92,.other,false,false,some 26,some ([.code],(none,false))⟩,⟨123,.other,false,false,some 26,some ([.code],(none,false))⟩,⟨125,.other,false,false,some 26,some ([.code],(none,false))⟩]⟩,⟨false,some 1,[],[⟨256,.other,false,false,some 33,some ([],(some 1,false))⟩,⟨9,.ws,false,false,some 33,some ([],(some 1,false))⟩,⟨10,.lf,false,true,none,none⟩,⟨11,.vt,false,false,some 33,some ([],(some 1,false))⟩,⟨12,.ff,false,true,none,none⟩,⟨13,.cr,false,false,none,none⟩,⟨13,.cr,true,true,none,none⟩,⟨39,.other,false,false,some 33,some ([],(some 1,false))⟩,⟨40,.other,false,false,some 33,some ([],(some 1,false))⟩,⟨41,.other,false,false,some 33,some ([],(some 1,false))⟩,⟨42,.other,false,false,some 33,some ([],(some 1,false))⟩,⟨47,.other,false,false,some 33,some ([],(some 1,false))⟩,⟨92,.other,false,false,some 33,some ([],(some 1,false))⟩,⟨123,.other,false,false,some 33,some ([],(some 1,false))⟩,⟨125,.other,false,false,some 33,some ([],(some 1,false))⟩]⟩,⟨false,none,[],[⟨256,.other,false,false,some 17,some ([.comment],(none,false))⟩,⟨9,.ws,false,false,some 18,some ([],(none,false))⟩,⟨10,.lf,false,true,some 19,some ([],(none,false))⟩,⟨11,.vt,false,false,some 17,some ([.comment],(none,false))⟩,⟨12,.ff,false,true,some 20,some ([],(none,false))⟩,⟨13,.cr,false,false,some 21,some ([],(none,false))⟩,⟨13,.cr,true,true,some 22,some ([],(none,false))⟩,⟨39,.other,false,false,some 17,some ([.comment],(none,false))⟩,⟨40,.other,false,false,some 17,some ([.comment],(none,false))⟩,⟨41,.other,false,false,some 17,some ([.comment],(none,false))⟩,⟨42,.other,false,false,some 17,some ([.comment],(none,false))⟩,⟨47,.other,false,false,some 17,some ([.comment],(none,false))⟩,⟨92,.other,false,false,some 17,some ([.comment],(none,false))⟩,⟨123,.other,false,false,some 17,some ([.comment],(none,false))⟩,⟨125,.other,false,false,none,some ([],(some 1,true))⟩]⟩,⟨false,none,[],[⟨256,.other,false,false,some 17,some ([.comment],(none,false))⟩,⟨9,.ws,false,false,some 18,some ([],(none,false))⟩,⟨10,.lf,false,true,some 19,some ([],(none,false))⟩,⟨11,.vt,false,false,some 17,some ([.comment],(none,false))⟩,⟨12,.ff,false,true,some 20,some ([],(none,false))⟩,⟨13,.cr,false,false,some 21,some ([],(none,false))⟩,⟨13,.cr,true,true,some 22,some ([],(none,false))⟩,⟨39,.other,false,false,some 17,some ([.comment],(none,false))⟩,⟨40,.other,false,false,some 17,some ([.comment],(none,false))⟩,⟨41,.other,false,false,some 17,some ([.comment],(none,false))⟩,⟨42,.other,false,false,some 17,some ([.comment],(none,false))⟩,⟨47,.other,false,false,some 17,some ([.comment],(none,false))⟩,⟨92,.other,false,false,some 17,some ([.comment],(none,false))⟩,⟨123,.other,false,false,some 17,some ([.comment],(none,false))⟩,⟨125,.other,false,false,none,some ([],(some 1,true))⟩]⟩,⟨false,none,[],[⟨256,.other,false,false,some 17,some ([.setEnt .internalNl,.cb,.comment],(none,false))⟩,⟨9,.ws,false,false,some 18,some ([.setEnt .internalNl,.cb],(none,false))⟩,⟨10,.lf,false,true,some 19,some ([.setEnt .internalNl,.cb],(none,false))⟩,⟨11,.vt,false,false,some 17,some ([.setEnt .internalNl,.cb,.comment],(none,false))⟩,⟨12,.ff,false,true,some 20,some ([.setEnt .internalNl,.cb],(none,false))⟩,⟨13,.cr,false,false,some 21,some ([.setEnt .internalNl,.cb],(none,false))⟩,⟨13,.cr,true,true,some 22,some ([.setEnt .internalNl,.cb],(none,false))⟩,⟨39,.other,false,false,some 17,some ([.setEnt .internalNl,.cb,.comment],(none,false))⟩,⟨40,.other,false,false,some 17,some ([.setEnt .internalNl,.cb,.comment],(none,false))⟩,⟨41,.other,false,false,some 17,some ([.setEnt .internalNl,.cb,.comment],(none,false))⟩,⟨42,.other,false,false,some 17,some ([.setEnt .internalNl,.cb,.comment],(none,false))⟩,⟨47,.other,false,false,some 17,some ([.setEnt .internalNl,.cb,.comment],(none,false))⟩,⟨92,.other,false,false,some 17,some ([.setEnt .internalNl,.cb,.comment],(none,false))⟩,⟨123,.other,false,false,some 17,some ([.setEnt .internalNl,.cb,.comment],(none,false))⟩,⟨125,.other,false,false,none,some ([.setEnt .internalNl,.cb],(some 1,true))⟩]⟩,⟨false,none,[],[⟨256,.other,false,false,some 17,some ([.setEnt .internalNl,.cb,.comment],(none,false))⟩,⟨9,.ws,false,false,some 18,some ([.setEnt .internalNl,.cb],(none,false))⟩,⟨10,.lf,false,true,some 19,some ([.setEnt .internalNl,.cb],(none,false))⟩,⟨11,.vt,false,false,some 17,some ([.setEnt .internalNl,.cb,.comment],(none,false))⟩,⟨12,.ff,false,true,some 20,some ([.setEnt .internalNl,.cb],(none,false))⟩,⟨13,.cr,false,false,some 21,some ([.setEnt .internalNl,.cb],(none,false))⟩,⟨13,.cr,true,true,some 22,some ([.setEnt .internalNl,.cb],(none,false))⟩,⟨39,.other,false,false,some 17,some ([.setEnt .internalNl,.cb,.comment],(none,false))⟩,⟨40,.other,false,false,some 17,some ([.setEnt .internalNl,.cb,.comment],(none,false))⟩,⟨41,.other,false,false,some 17,some ([.setEnt .internalNl,.cb,.comment],(none,false))⟩,⟨42,.other,false,false,some 17,some ([.setEnt .internalNl,.cb,.comment],(none,false))⟩,⟨47,.other,false,false,some 17,some ([.setEnt .internalNl,.cb,.comment],(none,false))⟩,⟨92,.other,false,false,some 17,some ([.setEnt .internalNl,.cb,.comment],(none,false))⟩,⟨123,.other,false,false,some 17,some ([.setEnt .internalNl,.cb,.comment],(none,false))⟩,⟨125,.other,false,false,none,some ([.setEnt .internalNl,.cb],(some 1,true))⟩]⟩,⟨false,none,[],[⟨256,.other,false,false,none,none⟩,⟨9,.ws,false,false,none,none⟩,⟨10,.lf,false,true,some 34,some ([],(none,false))⟩,⟨11,.vt,false,false,none,none⟩,⟨12,.ff,false,true,none,none⟩,⟨13,.cr,false,false,none,none⟩,⟨13,.cr,true,true,none,none⟩,⟨39,.other,false,false,none,none⟩,⟨40,.other,false,false,none,none⟩,⟨41,.other,false,false,none,none⟩,⟨42,.other,false,false,none,none⟩,⟨47,.other,false,false,none,none⟩,⟨92,.other,false,false,none,none⟩,⟨123,.other,false,false,none,none⟩,⟨125,.other,false,false,none,none⟩]⟩,⟨false,none,[],[⟨256,.other,false,false,some 17,some ([.setEnt .internalNl,.cb,.comment],(none,false))⟩,⟨9,.ws,false,false,some 18,some ([.setEnt .internalNl,.cb],(none,false))⟩,⟨10,.lf,false,true,some 35,some ([.setEnt .internalNl,.cb],(none,false))⟩,⟨11,.vt,false,false,some 17,some ([.setEnt .internalNl,.cb,.comment],(none,false))⟩,⟨12,.ff,false,true,some 20,some ([.setEnt .internalNl,.cb],(none,false))⟩,⟨13,.cr,false,false,some 21,some ([.setEnt .internalNl,.cb],(none,false))⟩,⟨13,.cr,true,true,some 22,some ([.setEnt .internalNl,.cb],(none,false))⟩,⟨39,.other,false,false,some 17,some ([.setEnt .internalNl,.cb,.comment],(none,false))⟩,⟨40,.other,false,false,some 17,some ([.setEnt .internalNl,.cb,.comment],(none,false))⟩,⟨41,.other,false,false,some 17,some ([.setEnt .internalNl,.cb,.comment],(none,false))⟩,⟨42,.other,false,false,some 17,some ([.setEnt .internalNl,.cb,.comment],(none,false))⟩,⟨47,.other,false,false,some 17,some ([.setEnt .internalNl,.cb,.comment],(none,false))⟩,⟨92,.other,false,false,some 17,some ([.setEnt .internalNl,.cb,.comment],(none,false))⟩,⟨123,.other,false,false,some 17,some ([.setEnt .internalNl,.cb,.comment],(none,false))⟩,⟨125,.other,false,false,none,some ([.setEnt .internalNl,.cb],(some 1,true))⟩]⟩,⟨false,none,[],[⟨256,.other,false,false,some 8,some ([.setEnt .internalNl,.cb,.code],(none,false))⟩,⟨9,.ws,false,false,some 9,some ([.setEnt .internalNl,.cb],(none,false))⟩,⟨10,.lf,false,true,some 10,some ([.setEnt .internalNl,.cb],(none,false))⟩,⟨11,.vt,false,false,some 8,some ([.setEnt .internalNl,.cb,.code],(none,false))⟩,⟨12,.ff,false,true,some 11,some ([.setEnt .internalNl,.cb],(none,false))⟩,⟨13,.cr,false,false,some 12,some ([.setEnt .internalNl,.cb],(none,false))⟩,⟨13,.cr,true,true,some 13,some ([.setEnt .internalNl,.cb],(none,false))⟩,⟨39,.other,false,false,none,some ([.setEnt .internalNl,.cb],(some 2,true))⟩,⟨40,.other,false,false,some 8,some ([.setEnt .internalNl,.cb,.code],(none,false))⟩,⟨41,.other,false,false,some 8,some ([.setEnt .internalNl,.cb,.code],(none,false))⟩,⟨42,.other,false,false,some 8,some ([.setEnt .internalNl,.cb,.code],(none,false))⟩,⟨47,.other,false,false,some 8,some ([.setEnt .internalNl,.cb,.code],(none,false))⟩,⟨92,.other,false,false,some 14,some ([.setEnt .internalNl,.cb],(none,false))⟩,⟨123,.other,false,false,some 8,some ([.setEnt .internalNl,.cb,.code],(none,false))⟩,⟨125,.other,false,false,some 8,some ([.setEnt .internalNl,.cb,.code],(none,false))⟩]⟩,⟨false,none,[],[⟨256,.other,false,false,some 8,some ([.setEnt .internalNl,.cb,.code],(none,false))⟩,⟨9,.ws,false,false,some 9,some ([.setEnt .internalNl,.cb],(none,false))⟩,⟨10,.lf,false,true,some 10,some ([.setEnt .internalNl,.cb],(none,false))⟩,⟨11,.vt,false,false,some 8,some ([.setEnt .internalNl,.cb,.code],(none,false))⟩,⟨12,.ff,false,true,some 11,some ([.setEnt .internalNl,.cb],(none,false))⟩,⟨13,.cr,false,false,some 12,some ([.setEnt .internalNl,.cb],(none,false))⟩,⟨13,.cr,true,true,some 13,some ([.setEnt .internalNl,.cb],(none,false))⟩,⟨39,.other,false,false,none,some ([.setEnt .internalNl,.cb],(some 2,true))⟩,⟨40,.other,false,false,some 8,some ([.setEnt .internalNl,.cb,.code],(none,false))⟩,⟨41,.other,false,false,some 8,some ([.setEnt .internalNl,.cb,.code],(none,false))⟩,⟨42,.other,false,false,some 8,some ([.setEnt .internalNl,.cb,.code],(none,false))⟩,⟨47,.other,false,false,some 8,some ([.setEnt .internalNl,.cb,.code],(none,false))⟩,⟨92,.other,false,false,some 14,some ([.setEnt .internalNl,.cb],(none,false))⟩,⟨123,.other,false,false,some 8,some ([.setEnt .internalNl,.cb,.code],(none,false))⟩,⟨125,.other,false,false,some 8,some ([.setEnt .internalNl,.cb,.code],(none,false))⟩]⟩,⟨false,none,[],[⟨256,.other,false,false,some 8,some ([.code],(none,false))⟩,⟨9,.ws,false,false,some 9,some ([],(none,false))⟩,⟨10,.lf,false,true,some 10,some ([],(none,false))⟩,⟨11,.vt,false,false,some 8,some ([.code],(none,false))⟩,⟨12,.ff,false,true,some 11,some ([],(none,false))⟩,⟨13,.cr,false,false,some 12,some ([],(none,false))⟩,⟨13,.cr,true,true,some 13,some ([],(none,false))⟩,⟨39,.other,false,false,none,some ([],(some 2,true))⟩,⟨40,.other,false,false,some 8,some ([.code],(none,false))⟩,⟨41,.other,false,false,some 8,some ([.code],(none,false))⟩,⟨42,.other,false,false,some 8,some ([.code],(none,false))⟩,⟨47,.other,false,false,some 8,some ([.code],(none,false))⟩,⟨92,.other,false,false,some 14,some ([],(none,false))⟩,⟨123,.other,false,false,some 8,some ([.code],(none,false))⟩,⟨125,.other,false,false,some 8,some ([.code],(none,false))⟩]⟩,⟨false,none,[],[⟨256,.other,false,false,some 26,some ([.code],(none,false))⟩,⟨9,.ws,false,false,some 27,some ([],(none,false))⟩,⟨10,.lf,false,true,some 28,some ([],(none,false))⟩,⟨11,.vt,false,false,some 26,some ([.code],(none,false))⟩,⟨12,.ff,false,true,some 29,some ([],(none,false))⟩,⟨13,.cr,false,false,some 30,some ([],(none,false))⟩,⟨13,.cr,true,true,some 31,some ([],(none,false))⟩,⟨39,.other,false,false,some 26,some ([.code],(none,false))⟩,⟨40,.other,false,false,some 26,some ([.code],(none,false))⟩,⟨41,.other,false,false,some 26,some ([.code],(none,false))⟩,⟨42,.other,false,false,some 32,some ([.code],(none,false))⟩,⟨47,.other,false,false,some 26,some ([.code],(none,false))⟩,⟨92,.other,false,false,some 26,some ([.code],(none,false))⟩,⟨123,.other,false,false,some 26,some ([.code],(none,false))⟩,⟨125,.other,false,false,some 26,some ([.code],(none,false))⟩]⟩,⟨false,none,[],[⟨256,.other,false,false,some 26,some ([.code],(none,false))⟩,⟨9,.ws,false,false,some 27,some ([],(none,false))⟩,⟨10,.lf,false,true,some 28,some ([],(none,false))⟩,⟨11,.vt,false,false,some 26,some ([.code],(none,false))⟩,⟨12,.ff,false,true,some 29,some ([],(none,false))⟩,⟨13,.cr,false,false,some 30,some ([],(none,false))⟩,⟨13,.cr,true,true,some 31,some ([],(none,false))⟩,⟨39,.other,false,false,some 26,some ([.code],(none,false))⟩,⟨40,.other,false,false,some 26,some ([.code],(none,false))⟩,⟨41,.other,false,false,some 26,some ([.code],(none,false))⟩,⟨42,.other,false,false,some 32,some ([.code],(none,false))⟩,⟨47,.other,false,false,some 26,some ([.code],(none,false))⟩,⟨92,.other,false,false,some 26,some ([.code],(none,false))⟩,⟨123,.other,false,false,some 26,some ([.code],(none,false))⟩,⟨125,.other,false,false,some 26,some ([.code],(none,false))⟩]⟩,⟨false,none,[],[⟨256,.other,false,false,some 26,some ([.setEnt .internalNl,.cb,.code],(none,false))⟩,⟨9,.ws,false,false,some 27,some ([.setEnt .internalNl,.cb],(none,false))⟩,⟨10,.lf,false,true,some 28,some ([.setEnt .internalNl,.cb],(none,false))⟩,⟨11,.vt,false,false,some 26,some ([.setEnt .internalNl,.cb,.code],(none,false))⟩,⟨12,.ff,false,true,some 29,some ([.setEnt .internalNl,.cb],(none,false))⟩,⟨13,.cr,false,false,some 30,some ([.setEnt .internalNl,.cb],(none,false))⟩,⟨13,.cr,true,true,some 31,some ([.setEnt .internalNl,.cb],(none,false))⟩,⟨39,.other,false,false,some 26,some ([.setEnt .internalNl,.cb,.code],(none,false))⟩,⟨40,.other,false,false,some 26,some ([.setEnt .internalNl,.cb,.code],(none,false))⟩,⟨41,.other,false,false,some 26,some ([.setEnt .internalNl,.cb,.code],(none,false))⟩,⟨42,.other,false,false,some 32,some ([.setEnt .internalNl,.cb,.code],(none,false))⟩,⟨47,.other,false,false,some 26,some ([.setEnt .internalNl,.cb,.code],(none,false))⟩,⟨92,.other,false,false,some 26,some ([.setEnt .internalNl,.cb,.code],(none,false))⟩,⟨123,.other,false,false,some 26,some ([.setEnt .internalNl,.cb,.code],(none,false))⟩,⟨125,.other,false,false,some 26,some ([.setEnt .internalNl,.cb,.code],(none,false))⟩]⟩,⟨false,none,[],[⟨256,.other,false,false,some 26,some ([.setEnt .internalNl,.cb,.code],(none,false))⟩,⟨9,.ws,false,false,some 27,some ([.setEnt .internalNl,.cb],(none,false))⟩,⟨10,.lf,false,true,some 28,some ([.setEnt .internalNl,.cb],(none,false))⟩,⟨11,.vt,false,false,some 26,some ([.setEnt .internalNl,.cb,.code],(none,false))⟩,⟨12,.ff,false,true,some 29,some ([.setEnt .internalNl,.cb],(none,false))⟩,⟨13,.cr,false,false,some 30,some ([.setEnt .internalNl,.cb],(none,false))⟩,⟨13,.cr,true,true,some 31,some ([.setEnt .internalNl,.cb],(none,false))⟩,⟨39,.other,false,false,some 26,some ([.setEnt .internalNl,.cb,.code],(none,false))⟩,⟨40,.other,false,false,some 26,some ([.setEnt .internalNl,.cb,.code],(none,false))⟩,⟨41,.other,false,false,some 26,some ([.setEnt .internalNl,.cb,.code],(none,false))⟩,⟨42,.other,false,false,some 32,some ([.setEnt .internalNl,.cb,.code],(none,false))⟩,⟨47,.other,false,false,some 26,some ([.setEnt .internalNl,.cb,.code],(none,false))⟩,⟨92,.other,false,false,some 26,some ([.setEnt .internalNl,.cb,.code],(none,false))⟩,⟨123,.other,false,false,some 26,some ([.setEnt .internalNl,.cb,.code],(none,false))⟩,⟨125,.other,false,false,some 26,some ([.setEnt .internalNl,.cb,.code],(none,false))⟩]⟩,⟨false,none,[],[⟨256,.other,false,false,none,none⟩,⟨9,.ws,false,false,none,none⟩,⟨10,.lf,false,true,some 36,some ([],(none,false))⟩,⟨11,.vt,false,false,none,none⟩,⟨12,.ff,false,true,none,none⟩,⟨13,.cr,false,false,none,none⟩,⟨13,.cr,true,true,none,none⟩,⟨39,.other,false,false,none,none⟩,⟨40,.other,false,false,none,none⟩,⟨41,.other,false,false,none,none⟩,⟨42,.other,false,false,none,none⟩,⟨47,.other,false,false,none,none⟩,⟨92,.other,false,false,none,none⟩,⟨123,.other,false,false,none,none⟩,⟨125,.other,false,false,none,none⟩]⟩,⟨false,none,[],[⟨256,.other,false,false,some 26,some ([.setEnt .internalNl,.cb,.code],(none,false))⟩,⟨9,.ws,false,false,some 27,some ([.setEnt .internalNl,.cb],(none,false))⟩,⟨10,.lf,false,true,some 37,some ([.setEnt .internalNl,.cb],(none,false))⟩,⟨11,.vt,false,false,some 26,some ([.setEnt .internalNl,.cb,.code],(none,false))⟩,⟨12,.ff,false,true,some 29,some ([.setEnt .internalNl,.cb],(none,false))⟩,⟨13,.cr,false,false,some 30,some ([.setEnt .internalNl,.cb],(none,false))⟩,⟨13,.cr,true,true,some 31,some ([.setEnt .internalNl,.cb],(none,false))⟩,⟨39,.other,false,false,some 26,some ([.setEnt .internalNl,.cb,.code],(none,false))⟩,⟨40,.other,false,false,some 26,some ([.setEnt .internalNl,.cb,.code],(none,false))⟩,⟨41,.other,false,false,some 26,some ([.setEnt .internalNl,.cb,.code],(none,false))⟩,⟨42,.other,false,false,some 32,some ([.setEnt .internalNl,.cb,.code],(none,false))⟩,⟨47,.other,false,false,some 26,some ([.setEnt .internalNl,.cb,.code],(none,false))⟩,⟨92,.other,false,false,some 26,some ([.setEnt .internalNl,.cb,.code],(none,false))⟩,⟨123,.other,false,false,some 26,some ([.setEnt .internalNl,.cb,.code],(none,false))⟩,⟨125,.other,false,false,some 26,some ([.setEnt .internalNl,.cb,.code],(none,false))⟩]⟩,⟨false,none,[],[⟨256,.other,false,false,some 26,some ([.code],(none,false))⟩,⟨9,.ws,false,false,some 27,some ([],(none,false))⟩,⟨10,.lf,false,true,some 28,some ([],(none,false))⟩,⟨11,.vt,false,false,some 26,some ([.code],(none,false))⟩,⟨12,.ff,false,true,some 29,some ([],(none,false))⟩,⟨13,.cr,false,false,some 30,some ([],(none,false))⟩,⟨13,.cr,true,true,some 31,some ([],(none,false))⟩,⟨39,.other,false,false,some 26,some ([.code],(none,false))⟩,⟨40,.other,false,false,some 26,some ([.code],(none,false))⟩,⟨41,.other,false,false,none,some ([],(some 1,true))⟩,⟨42,.other,false,false,some 32,some ([.code],(none,false))⟩,⟨47,.other,false,false,some 26,some ([.code],(none,false))⟩,⟨92,.other,false,false,some 26,some ([.code],(none,false))⟩,⟨123,.other,false,false,some 26,some ([.code],(none,false))⟩,⟨125,.other,false,false,some 26,some ([.code],(none,false))⟩]⟩,⟨false,some 1,[],[⟨256,.other,false,false,some 33,some ([],(some 1,false))⟩,⟨9,.ws,false,false,some 33,some ([],(some 1,false))⟩,⟨10,.lf,false,true,none,none⟩,⟨11,.vt,false,false,some 33,some ([],(some 1,false))⟩,⟨12,.ff,false,true,none,none⟩,⟨13,.cr,false,false,none,none⟩,⟨13,.cr,true,true,none,none⟩,⟨39,.other,false,false,some 33,some ([],(some 1,false))⟩,⟨40,.other,false,false,some 33,some ([],(some 1,false))⟩,⟨41,.other,false,false,some 33,some ([],(some 1,false))⟩,⟨42,.other,false,false,some 33,some ([],(some 1,false))⟩,⟨47,.other,false,false,some 33,some ([],(some 1,false))⟩,⟨92,.other,false,false,some 33,some ([],(some 1,false))⟩,⟨123,.other,false,false,some 33,some ([],(some 1,false))⟩,⟨125,.other,false,false,some 33,some ([],(some 1,false))⟩]⟩,⟨false,none,[],[⟨256,.other,false,false,some 17,some ([.setEnt .internalNl,.cb,.comment],(none,false))⟩,⟨9,.ws,false,false,some 18,some ([.setEnt .internalNl,.cb],(none,false))⟩,⟨10,.lf,false,true,some 19,some ([.setEnt .internalNl,.cb],(none,false))⟩,⟨11,.vt,false,false,some 17,some ([.setEnt .internalNl,.cb,.comment],(none,false))⟩,⟨12,.ff,false,true,some 20,some ([.setEnt .internalNl,.cb],(none,false))⟩,⟨13,.cr,false,false,some 21,some ([.setEnt .internalNl,.cb],(none,false))⟩,⟨13,.cr,true,true,some 22,some ([.setEnt .internalNl,.cb],(none,false))⟩,⟨39,.other,false,false,some 17,some ([.setEnt .internalNl,.cb,.comment],(none,false))⟩,⟨40,.other,false,false,some 17,some ([.setEnt .internalNl,.cb,.comment],(none,false))⟩,⟨41,.other,false,false,some 17,some ([.setEnt .internalNl,.cb,.comment],(none,false))⟩,⟨42,.other,false,false,some 17,some ([.setEnt .internalNl,.cb,.comment],(none,false))⟩,⟨47,.other,false,false,some 17,some ([.setEnt .internalNl,.cb,.comment],(none,false))⟩,⟨92,.other,false,false,some 17,some ([.setEnt .internalNl,.cb,.comment],(none,false))⟩,⟨123,.other,false,false,some 17,some ([.setEnt .internalNl,.cb,.comment],(none,false))⟩,⟨125,.other,false,false,none,some ([.setEnt .internalNl,.cb],(some 1,true))⟩]⟩,⟨false,none,[],[⟨256,.other,false,false,some 17,some ([.setEnt .internalNl,.cb,.comment],(none,false))⟩,⟨9,.ws,false,false,some 18,some ([.setEnt .internalNl,.cb],(none,false))⟩,⟨10,.lf,false,true,some 19,some ([.setEnt .internalNl,.cb],(none,false))⟩,⟨11,.vt,false,false,some 17,some ([.setEnt .internalNl,.cb,.comment],(none,false))⟩,⟨12,.ff,false,true,some 20,some ([.setEnt .internalNl,.cb],(none,false))⟩,⟨13,.cr,false,false,some 21,some ([.setEnt .internalNl,.cb],(none,false))⟩,⟨13,.cr,true,true,some 22,some ([.setEnt .internalNl,.cb],(none,false))⟩,⟨39,.other,false,false,some 17,some ([.setEnt .internalNl,.cb,.comment],(none,false))⟩,⟨40,.other,false,false,some 17,some ([.setEnt .internalNl,.cb,.comment],(none,false))⟩,⟨41,.other,false,false,some 17,some ([.setEnt .internalNl,.cb,.comment],(none,false))⟩,⟨42,.other,false,false,some 17,some ([.setEnt .internalNl,.cb,.comment],(none,false))⟩,⟨47,.other,false,false,some 17,some ([.setEnt .internalNl,.cb,.comment],(none,false))⟩,⟨92,.other,false,false,some 17,some ([.setEnt .internalNl,.cb,.comment],(none,false))⟩,⟨123,.other,false,false,some 17,some ([.setEnt .internalNl,.cb,.comment],(none,false))⟩,⟨125,.other,false,false,none,some ([.setEnt .internalNl,.cb],(some 1,true))⟩]⟩,⟨false,none,[],[⟨256,.other,false,false,some 26,some ([.setEnt .internalNl,.cb,.code],(none,false))⟩,⟨9,.ws,false,false,some 27,some ([.setEnt .internalNl,.cb],(none,false))⟩,⟨10,.lf,false,true,some 28,some ([.setEnt .internalNl,.cb],(none,false))⟩,⟨11,.vt,false,false,some 26,some ([.setEnt .internalNl,.cb,.code],(none,false))⟩,⟨12,.ff,false,true,some 29,some ([.setEnt .internalNl,.cb],(none,false))⟩,⟨13,.cr,false,false,some 30,some ([.setEnt .internalNl,.cb],(none,false))⟩,⟨13,.cr,true,true,some 31,some ([.setEnt .internalNl,.cb],(none,false))⟩,⟨39,.other,false,false,some 26,some ([.setEnt .internalNl,.cb,.code],(none,false))⟩,⟨40,.other,false,false,some 26,some ([.setEnt .internalNl,.cb,.code],(none,false))⟩,⟨41,.other,false,false,some 26,some ([.setEnt .internalNl,.cb,.code],(none,false))⟩,⟨42,.other,false,false,some 32,some ([.setEnt .internalNl,.cb,.code],(none,false))⟩,⟨47,.other,false,false,some 26,some ([.setEnt .internalNl,.cb,.code],(none,false))⟩,⟨92,.other,false,false,some 26,some ([.setEnt .internalNl,.cb,.code],(none,false))⟩,⟨123,.other,false,false,some 26,some ([.setEnt .internalNl,.cb,.code],(none,false))⟩,⟨125,.other,false,false,some 26,some ([.setEnt .internalNl,.cb,.code],(none,false))⟩]⟩,⟨false,none,[],[⟨256,.other,false,false,some 26,some ([.setEnt .internalNl,.cb,.code],(none,false))⟩,⟨9,.ws,false,false,some 27,some ([.setEnt .internalNl,.cb],(none,false))⟩,⟨10,.lf,false,true,some 28,some ([.setEnt .internalNl,.cb],(none,false))⟩,⟨11,.vt,false,false,some 26,some ([.setEnt .internalNl,.cb,.code],(none,false))⟩,⟨12,.ff,false,true,some 29,some ([.setEnt .internalNl,.cb],(none,false))⟩,⟨13,.cr,false,false,some 30,some ([.setEnt .internalNl,.cb],(none,false))⟩,⟨13,.cr,true,true,some 31,some ([.setEnt .internalNl,.cb],(none,false))⟩,⟨39,.other,false,false,some 26,some ([.setEnt .internalNl,.cb,.code],(none,false))⟩,⟨40,.other,false,false,some 26,some ([.setEnt .internalNl,.cb,.code],(none,false))⟩,⟨41,.other,false,false,some 26,some ([.setEnt .internalNl,.cb,.code],(none,false))⟩,⟨42,.other,false,false,some 32,some ([.setEnt .internalNl,.cb,.code],(none,false))⟩,⟨47,.other,false,false,some 26,some ([.setEnt .internalNl,.cb,.code],(none,false))⟩,⟨92,.other,false,false,some 26,some ([.setEnt .internalNl,.cb,.code],(none,false))⟩,⟨123,.other,false,false,some 26,some ([.setEnt .internalNl,.cb,.code],(none,false))⟩,⟨125,.other,false,false,some 26,some ([.setEnt .internalNl,.cb,.code],(none,false))⟩]⟩]
theorem pascal_line_lfrOk : pascal_line_lrows.map (CA.prep pascal_line_lex) = pascal_line_lfr := by decide +kernel
def pascal_line_lTab : List CT := [(.node (.node (.node (.node (.node (.node (.node .leaf 128 [⟨⟨.code,[],.lcode,false,[],false⟩,false,false,[],none,none,none,false,false,false,none,false,⟨.lcode,none,false,.lblank⟩⟩] .leaf) 38019 [⟨⟨.code,[],.lcode,true,[],false⟩,false,false,[],none,none,none,false,false,false,none,false,⟨.lblank,none,false,.lblank⟩⟩] (.node .leaf 148108 [⟨⟨.code,[],.lcomment,false,[],false⟩,false,false,[],none,none,none,false,false,false,none,false,⟨.lcomment,none,false,.lblank⟩⟩] .leaf)) 185487 [⟨⟨.code,[],.lcomment,true,[],false⟩,false,false,[],none,none,none,false,false,false,none,false,⟨.lblank,none,false,.lblank⟩⟩] (.node (.node .leaf 296088 [⟨⟨.code,[],.lblank,false,[],false⟩,false,false,[],none,none,none,false,false,false,none,false,⟨.lblank,none,false,.lblank⟩⟩] .leaf) 332955 [⟨⟨.code,[],.lblank,true,[],false⟩,false,false,[],none,none,none,false,false,false,none,false,⟨.lblank,none,false,.lblank⟩⟩] .leaf)) 1179872 [⟨⟨(.inside 0),[],.lcode,false,[],false⟩,false,false,[none],none,none,none,false,false,false,none,false,⟨.lcode,none,false,.lblank⟩⟩] (.node (.node (.node .leaf 1327852 [⟨⟨(.inside 0),[],.lcomment,false,[],false⟩,false,false,[none],none,none,none,false,false,false,none,false,⟨.lcomment,none,false,.lblank⟩⟩] .leaf) 1511675 [⟨⟨.code,[40],.lcode,false,[],false⟩,false,false,[none],none,none,none,false,false,false,none,false,⟨.lcode,none,false,.lblank⟩⟩] .leaf) 1769744 [⟨⟨.code,[47],.lcode,false,[],false⟩,false,false,[none],none,none,none,false,false,false,none,false,⟨.lcode,none,false,.lblank⟩⟩] (.node (.node .leaf 20511732 [⟨⟨.code,[40],.lcode,false,[],false⟩,false,false,[some (9,(.ws,false))],none,none,none,false,false,false,none,false,⟨.lcode,none,false,.lblank⟩⟩] .leaf) 20769801 [⟨⟨.code,[47],.lcode,false,[],false⟩,false,false,[some (9,(.ws,false))],none,none,none,false,false,false,none,false,⟨.lcode,none,false,.lblank⟩⟩] .leaf))) 20829983 [⟨⟨.code,[40],.lcomment,false,[],false⟩,false,false,[none],none,none,none,false,false,false,none,false,⟨.lcode,none,false,.lblank⟩⟩] (.node (.node (.node (.node .leaf 21088052 [⟨⟨.code,[47],.lcomment,false,[],false⟩,false,false,[none],none,none,none,false,false,false,none,false,⟨.lcode,none,false,.lblank⟩⟩] .leaf) 22179935 [⟨⟨(.inside 0),[],.lcode,false,[],false⟩,false,false,[some (10,(.lf,false))],none,none,none,false,false,false,none,false,⟨.lcode,none,false,.lblank⟩⟩] (.node .leaf 22327915 [⟨⟨(.inside 0),[],.lcomment,false,[],false⟩,false,false,[some (10,(.lf,false))],none,none,none,false,false,false,none,false,⟨.lcomment,none,false,.lblank⟩⟩] .leaf)) 22511738 [⟨⟨.code,[40],.lcode,false,[],false⟩,false,false,[some (10,(.lf,false))],none,none,none,false,false,false,none,false,⟨.lcode,none,false,.lblank⟩⟩] (.node (.node .leaf 22769807 [⟨⟨.code,[47],.lcode,false,[],false⟩,false,false,[some (10,(.lf,false))],none,none,none,false,false,false,none,false,⟨.lcode,none,false,.lblank⟩⟩] .leaf) 26179947 [⟨⟨(.inside 0),[],.lcode,false,[],false⟩,false,false,[some (12,(.ff,false))],none,none,none,false,false,false,none,false,⟨.lcode,none,false,.lblank⟩⟩] .leaf)) 26327927 [⟨⟨(.inside 0),[],.lcomment,false,[],false⟩,false,false,[some (12,(.ff,false))],none,none,none,false,false,false,none,false,⟨.lcomment,none,false,.lblank⟩⟩] (.node (.node (.node .leaf 26511750 [⟨⟨.code,[40],.lcode,false,[],false⟩,false,false,[some (12,(.ff,false))],none,none,none,false,false,false,none,false,⟨.lcode,none,false,.lblank⟩⟩] .leaf) 26769819 [⟨⟨.code,[47],.lcode,false,[],false⟩,false,false,[some (12,(.ff,false))],none,none,none,false,false,false,none,false,⟨.lcode,none,false,.lblank⟩⟩] .leaf) 28179953 [⟨⟨(.inside 0),[],.lcode,false,[],false⟩,false,false,[some (13,(.cr,false))],none,none,none,false,false,false,none,false,⟨.lcode,none,false,.lblank⟩⟩] (.node (.node .leaf 28327933 [⟨⟨(.inside 0),[],.lcomment,false,[],false⟩,false,false,[some (13,(.cr,false))],none,none,none,false,false,false,none,false,⟨.lcomment,none,false,.lblank⟩⟩] .leaf) 28511756 [⟨⟨.code,[40],.lcode,false,[],false⟩,false,false,[some (13,(.cr,false))],none,none,none,false,false,false,none,false,⟨.lcode,none,false,.lblank⟩⟩] .leaf)))) 28769825 [⟨⟨.code,[47],.lcode,false,[],false⟩,false,false,[some (13,(.cr,false))],none,none,none,false,false,false,none,false,⟨.lcode,none,false,.lblank⟩⟩] (.node (.node (.node (.node (.node .leaf 29179956 [⟨⟨(.inside 0),[],.lcode,false,[],false⟩,false,false,[some (13,(.cr,true))],none,none,none,false,false,false,none,false,⟨.lcode,none,false,.lblank⟩⟩] .leaf) 29327936 [⟨⟨(.inside 0),[],.lcomment,false,[],false⟩,false,false,[some (13,(.cr,true))],none,none,none,false,false,false,none,false,⟨.lcomment,none,false,.lblank⟩⟩] (.node .leaf 29511759 [⟨⟨.code,[40],.lcode,false,[],false⟩,false,false,[some (13,(.cr,true))],none,none,none,false,false,false,none,false,⟨.lcode,none,false,.lblank⟩⟩] .leaf)) 29769828 [⟨⟨.code,[47],.lcode,false,[],false⟩,false,false,[some (13,(.cr,true))],none,none,none,false,false,false,none,false,⟨.lcode,none,false,.lblank⟩⟩] (.node (.node .leaf 39830040 [⟨⟨.code,[40],.lcomment,false,[],false⟩,false,false,[some (9,(.ws,false))],none,none,none,false,false,false,none,false,⟨.lcode,none,false,.lblank⟩⟩] .leaf) 40088109 [⟨⟨.code,[47],.lcomment,false,[],false⟩,false,false,[some (9,(.ws,false))],none,none,none,false,false,false,none,false,⟨.lcode,none,false,.lblank⟩⟩] .leaf)) 40148291 [⟨⟨.code,[40],.lblank,false,[],false⟩,false,false,[none],none,none,none,false,false,false,none,false,⟨.lcode,none,false,.lblank⟩⟩] (.node (.node (.node .leaf 40406360 [⟨⟨.code,[47],.lblank,false,[],false⟩,false,false,[none],none,none,none,false,false,false,none,false,⟨.lcode,none,false,.lblank⟩⟩] .leaf) 41830046 [⟨⟨.code,[40],.lcomment,false,[],false⟩,false,false,[some (10,(.lf,false))],none,none,none,false,false,false,none,false,⟨.lcode,none,false,.lblank⟩⟩] .leaf) 42088115 [⟨⟨.code,[47],.lcomment,false,[],false⟩,false,false,[some (10,(.lf,false))],none,none,none,false,false,false,none,false,⟨.lcode,none,false,.lblank⟩⟩] (.node (.node .leaf 45830058 [⟨⟨.code,[40],.lcomment,false,[],false⟩,false,false,[some (12,(.ff,false))],none,none,none,false,false,false,none,false,⟨.lcode,none,false,.lblank⟩⟩] .leaf) 46088127 [⟨⟨.code,[47],.lcomment,false,[],false⟩,false,false,[some (12,(.ff,false))],none,none,none,false,false,false,none,false,⟨.lcode,none,false,.lblank⟩⟩] .leaf))) 47830064 [⟨⟨.code,[40],.lcomment,false,[],false⟩,false,false,[some (13,(.cr,false))],none,none,none,false,false,false,none,false,⟨.lcode,none,false,.lblank⟩⟩] (.node (.node (.node (.node .leaf 48088133 [⟨⟨.code,[47],.lcomment,false,[],false⟩,false,false,[some (13,(.cr,false))],none,none,none,false,false,false,none,false,⟨.lcode,none,false,.lblank⟩⟩] .leaf) 48830067 [⟨⟨.code,[40],.lcomment,false,[],false⟩,false,false,[some (13,(.cr,true))],none,none,none,false,false,false,none,false,⟨.lcode,none,false,.lblank⟩⟩] .leaf) 49088136 [⟨⟨.code,[47],.lcomment,false,[],false⟩,false,false,[some (13,(.cr,true))],none,none,none,false,false,false,none,false,⟨.lcode,none,false,.lblank⟩⟩] (.node (.node .leaf 59148348 [⟨⟨.code,[40],.lblank,false,[],false⟩,false,false,[some (9,(.ws,false))],none,none,none,false,false,false,none,false,⟨.lcode,none,false,.lblank⟩⟩] .leaf) 59406417 [⟨⟨.code,[47],.lblank,false,[],false⟩,false,false,[some (9,(.ws,false))],none,none,none,false,false,false,none,false,⟨.lcode,none,false,.lblank⟩⟩] .leaf)) 61148354 [⟨⟨.code,[40],.lblank,false,[],false⟩,false,false,[some (10,(.lf,false))],none,none,none,false,false,false,none,false,⟨.lcode,none,false,.lblank⟩⟩] (.node (.node (.node .leaf 61406423 [⟨⟨.code,[47],.lblank,false,[],false⟩,false,false,[some (10,(.lf,false))],none,none,none,false,false,false,none,false,⟨.lcode,none,false,.lblank⟩⟩] .leaf) 65148366 [⟨⟨.code,[40],.lblank,false,[],false⟩,false,false,[some (12,(.ff,false))],none,none,none,false,false,false,none,false,⟨.lcode,none,false,.lblank⟩⟩] .leaf) 65406435 [⟨⟨.code,[47],.lblank,false,[],false⟩,false,false,[some (12,(.ff,false))],none,none,none,false,false,false,none,false,⟨.lcode,none,false,.lblank⟩⟩] (.node (.node .leaf 67148372 [⟨⟨.code,[40],.lblank,false,[],false⟩,false,false,[some (13,(.cr,false))],none,none,none,false,false,false,none,false,⟨.lcode,none,false,.lblank⟩⟩] .leaf) 67406441 [⟨⟨.code,[47],.lblank,false,[],false⟩,false,false,[some (13,(.cr,false))],none,none,none,false,false,false,none,false,⟨.lcode,none,false,.lblank⟩⟩] .leaf))))) 68148375 [⟨⟨.code,[40],.lblank,false,[],false⟩,false,false,[some (13,(.cr,true))],none,none,none,false,false,false,none,false,⟨.lcode,none,false,.lblank⟩⟩] (.node (.node (.node (.node (.node (.node .leaf 68406444 [⟨⟨.code,[47],.lblank,false,[],false⟩,false,false,[some (13,(.cr,true))],none,none,none,false,false,false,none,false,⟨.lcode,none,false,.lblank⟩⟩] .leaf) 80511912 [⟨⟨.code,[40],.lcode,false,[],false⟩,false,false,[some (39,(.other,false))],none,none,none,false,false,false,none,false,⟨.lcode,none,false,.lblank⟩⟩] (.node .leaf 80769981 [⟨⟨.code,[47],.lcode,false,[],false⟩,false,false,[some (39,(.other,false))],none,none,none,false,false,false,none,false,⟨.lcode,none,false,.lblank⟩⟩] .leaf)) 82511918 [⟨⟨.code,[40],.lcode,false,[],false⟩,false,false,[some (40,(.other,false))],none,none,none,false,false,false,none,false,⟨.lcode,none,false,.lblank⟩⟩] (.node (.node .leaf 82769987 [⟨⟨.code,[47],.lcode,false,[],false⟩,false,false,[some (40,(.other,false))],none,none,none,false,false,false,none,false,⟨.lcode,none,false,.lblank⟩⟩] .leaf) 84511924 [⟨⟨.code,[40],.lcode,false,[],false⟩,false,false,[some (41,(.other,false))],none,none,none,false,false,false,none,false,⟨.lcode,none,false,.lblank⟩⟩] .leaf)) 84769993 [⟨⟨.code,[47],.lcode,false,[],false⟩,false,false,[some (41,(.other,false))],none,none,none,false,false,false,none,false,⟨.lcode,none,false,.lblank⟩⟩] (.node (.node (.node .leaf 86769999 [⟨⟨.code,[47],.lcode,false,[],false⟩,false,false,[some (42,(.other,false))],none,none,none,false,false,false,none,false,⟨.lcode,none,false,.lblank⟩⟩] .leaf) 96511960 [⟨⟨.code,[40],.lcode,false,[],false⟩,false,false,[some (47,(.other,false))],none,none,none,false,false,false,none,false,⟨.lcode,none,false,.lblank⟩⟩] .leaf) 99830220 [⟨⟨.code,[40],.lcomment,false,[],false⟩,false,false,[some (39,(.other,false))],none,none,none,false,false,false,none,false,⟨.lcode,none,false,.lblank⟩⟩] (.node (.node .leaf 100088289 [⟨⟨.code,[47],.lcomment,false,[],false⟩,false,false,[some (39,(.other,false))],none,none,none,false,false,false,none,false,⟨.lcode,none,false,.lblank⟩⟩] .leaf) 101830226 [⟨⟨.code,[40],.lcomment,false,[],false⟩,false,false,[some (40,(.other,false))],none,none,none,false,false,false,none,false,⟨.lcode,none,false,.lblank⟩⟩] .leaf))) 102088295 [⟨⟨.code,[47],.lcomment,false,[],false⟩,false,false,[some (40,(.other,false))],none,none,none,false,false,false,none,false,⟨.lcode,none,false,.lblank⟩⟩] (.node (.node (.node (.node .leaf 103830232 [⟨⟨.code,[40],.lcomment,false,[],false⟩,false,false,[some (41,(.other,false))],none,none,none,false,false,false,none,false,⟨.lcode,none,false,.lblank⟩⟩] .leaf) 104088301 [⟨⟨.code,[47],.lcomment,false,[],false⟩,false,false,[some (41,(.other,false))],none,none,none,false,false,false,none,false,⟨.lcode,none,false,.lblank⟩⟩] .leaf) 106088307 [⟨⟨.code,[47],.lcomment,false,[],false⟩,false,false,[some (42,(.other,false))],none,none,none,false,false,false,none,false,⟨.lcode,none,false,.lblank⟩⟩] (.node (.node .leaf 115830268 [⟨⟨.code,[40],.lcomment,false,[],false⟩,false,false,[some (47,(.other,false))],none,none,none,false,false,false,none,false,⟨.lcode,none,false,.lblank⟩⟩] .leaf) 119148528 [⟨⟨.code,[40],.lblank,false,[],false⟩,false,false,[some (39,(.other,false))],none,none,none,false,false,false,none,false,⟨.lcode,none,false,.lblank⟩⟩] .leaf)) 119406597 [⟨⟨.code,[47],.lblank,false,[],false⟩,false,false,[some (39,(.other,false))],none,none,none,false,false,false,none,false,⟨.lcode,none,false,.lblank⟩⟩] (.node (.node (.node .leaf 121148534 [⟨⟨.code,[40],.lblank,false,[],false⟩,false,false,[some (40,(.other,false))],none,none,none,false,false,false,none,false,⟨.lcode,none,false,.lblank⟩⟩] .leaf) 121406603 [⟨⟨.code,[47],.lblank,false,[],false⟩,false,false,[some (40,(.other,false))],none,none,none,false,false,false,none,false,⟨.lcode,none,false,.lblank⟩⟩] .leaf) 123148540 [⟨⟨.code,[40],.lblank,false,[],false⟩,false,false,[some (41,(.other,false))],none,none,none,false,false,false,none,false,⟨.lcode,none,false,.lblank⟩⟩] (.node (.node .leaf 123406609 [⟨⟨.code,[47],.lblank,false,[],false⟩,false,false,[some (41,(.other,false))],none,none,none,false,false,false,none,false,⟨.lcode,none,false,.lblank⟩⟩] .leaf) 125406615 [⟨⟨.code,[47],.lblank,false,[],false⟩,false,false,[some (42,(.other,false))],none,none,none,false,false,false,none,false,⟨.lcode,none,false,.lblank⟩⟩] .leaf)))) 135148576 [⟨⟨.code,[40],.lblank,false,[],false⟩,false,false,[some (47,(.other,false))],none,none,none,false,false,false,none,false,⟨.lcode,none,false,.lblank⟩⟩] (.node (.node (.node (.node (.node .leaf 186512230 [⟨⟨.code,[40],.lcode,false,[],false⟩,false,false,[some (92,(.other,false))],none,none,none,false,false,false,none,false,⟨.lcode,none,false,.lblank⟩⟩] .leaf) 186770299 [⟨⟨.code,[47],.lcode,false,[],false⟩,false,false,[some (92,(.other,false))],none,none,none,false,false,false,none,false,⟨.lcode,none,false,.lblank⟩⟩] (.node .leaf 205830538 [⟨⟨.code,[40],.lcomment,false,[],false⟩,false,false,[some (92,(.other,false))],none,none,none,false,false,false,none,false,⟨.lcode,none,false,.lblank⟩⟩] .leaf)) 206088607 [⟨⟨.code,[47],.lcomment,false,[],false⟩,false,false,[some (92,(.other,false))],none,none,none,false,false,false,none,false,⟨.lcode,none,false,.lblank⟩⟩] (.node (.node .leaf 225148846 [⟨⟨.code,[40],.lblank,false,[],false⟩,false,false,[some (92,(.other,false))],none,none,none,false,false,false,none,false,⟨.lcode,none,false,.lblank⟩⟩] .leaf) 225406915 [⟨⟨.code,[47],.lblank,false,[],false⟩,false,false,[some (92,(.other,false))],none,none,none,false,false,false,none,false,⟨.lcode,none,false,.lblank⟩⟩] .leaf)) 248512416 [⟨⟨.code,[40],.lcode,false,[],false⟩,false,false,[some (123,(.other,false))],none,none,none,false,false,false,none,false,⟨.lcode,none,false,.lblank⟩⟩] (.node (.node (.node .leaf 248770485 [⟨⟨.code,[47],.lcode,false,[],false⟩,false,false,[some (123,(.other,false))],none,none,none,false,false,false,none,false,⟨.lcode,none,false,.lblank⟩⟩] .leaf) 252512428 [⟨⟨.code,[40],.lcode,false,[],false⟩,false,false,[some (125,(.other,false))],none,none,none,false,false,false,none,false,⟨.lcode,none,false,.lblank⟩⟩] .leaf) 252770497 [⟨⟨.code,[47],.lcode,false,[],false⟩,false,false,[some (125,(.other,false))],none,none,none,false,false,false,none,false,⟨.lcode,none,false,.lblank⟩⟩] (.node (.node .leaf 267830724 [⟨⟨.code,[40],.lcomment,false,[],false⟩,false,false,[some (123,(.other,false))],none,none,none,false,false,false,none,false,⟨.lcode,none,false,.lblank⟩⟩] .leaf) 268088793 [⟨⟨.code,[47],.lcomment,false,[],false⟩,false,false,[some (123,(.other,false))],none,none,none,false,false,false,none,false,⟨.lcode,none,false,.lblank⟩⟩] .leaf))) 271830736 [⟨⟨.code,[40],.lcomment,false,[],false⟩,false,false,[some (125,(.other,false))],none,none,none,false,false,false,none,false,⟨.lcode,none,false,.lblank⟩⟩] (.node (.node (.node (.node .leaf 272088805 [⟨⟨.code,[47],.lcomment,false,[],false⟩,false,false,[some (125,(.other,false))],none,none,none,false,false,false,none,false,⟨.lcode,none,false,.lblank⟩⟩] .leaf) 287149032 [⟨⟨.code,[40],.lblank,false,[],false⟩,false,false,[some (123,(.other,false))],none,none,none,false,false,false,none,false,⟨.lcode,none,false,.lblank⟩⟩] .leaf) 287407101 [⟨⟨.code,[47],.lblank,false,[],false⟩,false,false,[some (123,(.other,false))],none,none,none,false,false,false,none,false,⟨.lcode,none,false,.lblank⟩⟩] (.node (.node .leaf 291149044 [⟨⟨.code,[40],.lblank,false,[],false⟩,false,false,[some (125,(.other,false))],none,none,none,false,false,false,none,false,⟨.lcode,none,false,.lblank⟩⟩] .leaf) 291407113 [⟨⟨.code,[47],.lblank,false,[],false⟩,false,false,[some (125,(.other,false))],none,none,none,false,false,false,none,false,⟨.lcode,none,false,.lblank⟩⟩] .leaf)) 514513214 [⟨⟨.code,[40],.lcode,false,[],false⟩,false,false,[some (256,(.other,false))],none,none,none,false,false,false,none,false,⟨.lcode,none,false,.lblank⟩⟩] (.node (.node (.node .leaf 514771283 [⟨⟨.code,[47],.lcode,false,[],false⟩,false,false,[some (256,(.other,false))],none,none,none,false,false,false,none,false,⟨.lcode,none,false,.lblank⟩⟩] .leaf) 533831522 [⟨⟨.code,[40],.lcomment,false,[],false⟩,false,false,[some (256,(.other,false))],none,none,none,false,false,false,none,false,⟨.lcode,none,false,.lblank⟩⟩] .leaf) 534089591 [⟨⟨.code,[47],.lcomment,false,[],false⟩,false,false,[some (256,(.other,false))],none,none,none,false,false,false,none,false,⟨.lcode,none,false,.lblank⟩⟩] (.node (.node .leaf 553149830 [⟨⟨.code,[40],.lblank,false,[],false⟩,false,false,[some (256,(.other,false))],none,none,none,false,false,false,none,false,⟨.lcode,none,false,.lblank⟩⟩] .leaf) 553407899 [⟨⟨.code,[47],.lblank,false,[],false⟩,false,false,[some (256,(.other,false))],none,none,none,false,false,false,none,false,⟨.lcode,none,false,.lblank⟩⟩] .leaf)))))),(.node (.node .leaf 128 [⟨⟨.code,[],.lcode,false,[],false⟩,false,false,[],none,none,none,false,false,false,none,false,⟨.lcode,some (.own 0),false,.lblank⟩⟩] .leaf) 148108 [⟨⟨.code,[],.lcomment,false,[],false⟩,false,false,[],none,none,none,false,false,false,none,false,⟨.lcomment,some (.own 0),false,.lblank⟩⟩] (.node .leaf 296088 [⟨⟨.code,[],.lblank,false,[],false⟩,false,false,[],none,none,none,false,false,false,none,false,⟨.lblank,some (.own 0),false,.lblank⟩⟩] .leaf)),(.node (.node .leaf 160 [⟨⟨.code,[],.lcode,false,[],false⟩,true,false,[],none,none,none,false,false,false,none,false,⟨.lcode,some .newline,false,.lblank⟩⟩] .leaf) 148140 [⟨⟨.code,[],.lcomment,false,[],false⟩,true,false,[],none,none,none,false,false,false,none,false,⟨.lcomment,some .newline,false,.lblank⟩⟩] (.node .leaf 296120 [⟨⟨.code,[],.lblank,false,[],false⟩,true,false,[],none,none,none,false,false,false,none,false,⟨.lblank,some .newline,false,.lblank⟩⟩] .leaf)),(.node (.node .leaf 37011 [⟨⟨.code,[],.lcode,true,[],false⟩,false,true,[],none,none,none,false,false,false,none,false,⟨.lcode,some .newline,false,.lblank⟩⟩] .leaf) 184991 [⟨⟨.code,[],.lcomment,true,[],false⟩,false,true,[],none,none,none,false,false,false,none,false,⟨.lcomment,some .newline,false,.lblank⟩⟩] (.node .leaf 332971 [⟨⟨.code,[],.lblank,true,[],false⟩,false,true,[],none,none,none,false,false,false,none,false,⟨.lblank,some .newline,false,.lblank⟩⟩] .leaf)),(.node .leaf 10027952 [⟨⟨(.inside 3),[],.lcode,false,[],false⟩,false,false,[],none,none,none,false,false,false,none,false,⟨.lcode,some (.own 3),false,.lblank⟩⟩] .leaf),(.node (.node (.node .leaf 1511675 [⟨⟨.code,[40],.lcode,false,[],false⟩,false,false,[],none,none,none,false,false,false,none,false,⟨.lcode,some (.own 3),false,.lblank⟩⟩] .leaf) 1511677 [⟨⟨.code,[40],.lcode,false,[],false⟩,false,false,[],none,none,none,false,false,true,none,false,⟨.lcode,some (.own 3),false,.lblank⟩⟩] .leaf) 20830497 [⟨⟨.code,[40],.lcomment,false,[],false⟩,false,false,[],none,none,none,false,false,true,none,false,⟨.lcomment,some (.own 3),false,.lblank⟩⟩] (.node .leaf 40149317 [⟨⟨.code,[40],.lblank,false,[],false⟩,false,false,[],none,none,none,false,false,true,none,false,⟨.lblank,some (.own 3),false,.lblank⟩⟩] .leaf)),(.node (.node (.node .leaf 1769744 [⟨⟨.code,[47],.lcode,false,[],false⟩,false,false,[],none,none,none,false,false,false,none,false,⟨.lcode,some (.own 3),false,.lblank⟩⟩] .leaf) 1769746 [⟨⟨.code,[47],.lcode,false,[],false⟩,false,false,[],none,none,none,false,false,true,none,false,⟨.lcode,some (.own 3),false,.lblank⟩⟩] .leaf) 21088566 [⟨⟨.code,[47],.lcomment,false,[],false⟩,false,false,[],none,none,none,false,false,true,none,false,⟨.lcomment,some (.own 3),false,.lblank⟩⟩] (.node .leaf 40407386 [⟨⟨.code,[47],.lblank,false,[],false⟩,false,false,[],none,none,none,false,false,true,none,false,⟨.lblank,some (.own 3),false,.lblank⟩⟩] .leaf)),(.node (.node .leaf 7078592 [⟨⟨(.inside 2),[],.lcode,false,[],false⟩,false,false,[],none,none,none,false,false,false,none,false,⟨.lcode,some (.own 3),false,.lblank⟩⟩] .leaf) 7226572 [⟨⟨(.inside 2),[],.lcomment,false,[],false⟩,false,false,[],none,none,none,false,false,false,none,false,⟨.lcomment,some (.own 3),false,.lblank⟩⟩] .leaf),(.node (.node .leaf 10655941 [⟨⟨(.inside 3),[],.lcode,false,[],false⟩,false,false,[],some 4,some ⟨(.inside 3),[],.lcode,false,[],false⟩,none,false,false,false,none,false,⟨.lcode,some (.own 3),false,.lblank⟩⟩] .leaf) 10655949 [⟨⟨(.inside 3),[],.lcode,false,[],false⟩,false,false,[],some 4,some ⟨(.inside 3),[],.lcode,false,[],false⟩,none,true,false,false,none,false,⟨.lcode,some .internalNl,false,.lblank⟩⟩] .leaf),(.node (.node .leaf 10655941 [⟨⟨(.inside 3),[],.lcode,false,[],false⟩,false,false,[],some 4,some ⟨(.inside 3),[],.lcode,false,[],false⟩,none,false,false,false,none,false,⟨.lcode,some (.own 3),false,.lblank⟩⟩] .leaf) 10655949 [⟨⟨(.inside 3),[],.lcode,false,[],false⟩,false,false,[],some 4,some ⟨(.inside 3),[],.lcode,false,[],false⟩,none,true,false,false,none,false,⟨.lcode,some .internalNl,false,.lblank⟩⟩] (.node .leaf 10951909 [⟨⟨(.inside 3),[],.lblank,false,[],false⟩,false,false,[],some 4,some ⟨(.inside 3),[],.lcode,false,[],false⟩,none,true,false,false,none,false,⟨.lblank,some .internalNl,false,.lblank⟩⟩] .leaf)),(.node (.node .leaf 10692808 [⟨⟨(.inside 3),[],.lcode,true,[],false⟩,false,false,[],some 4,some ⟨(.inside 3),[],.lcode,false,[],false⟩,none,false,false,false,none,false,⟨.lcode,some (.own 3),false,.lblank⟩⟩] .leaf) 10692816 [⟨⟨(.inside 3),[],.lcode,true,[],false⟩,false,false,[],some 4,some ⟨(.inside 3),[],.lcode,false,[],false⟩,none,true,false,false,none,false,⟨.lcode,some .internalNl,false,.lblank⟩⟩] (.node .leaf 10988776 [⟨⟨(.inside 3),[],.lblank,true,[],false⟩,false,false,[],some 4,some ⟨(.inside 3),[],.lcode,false,[],false⟩,none,true,false,false,none,false,⟨.lblank,some .internalNl,false,.lblank⟩⟩] .leaf)),(.node (.node .leaf 10692808 [⟨⟨(.inside 3),[],.lcode,true,[],false⟩,false,false,[],some 4,some ⟨(.inside 3),[],.lcode,false,[],false⟩,none,false,false,false,none,false,⟨.lcode,some (.own 3),false,.lblank⟩⟩] .leaf) 10692816 [⟨⟨(.inside 3),[],.lcode,true,[],false⟩,false,false,[],some 4,some ⟨(.inside 3),[],.lcode,false,[],false⟩,none,true,false,false,none,false,⟨.lcode,some .internalNl,false,.lblank⟩⟩] (.node .leaf 10988776 [⟨⟨(.inside 3),[],.lblank,true,[],false⟩,false,false,[],some 4,some ⟨(.inside 3),[],.lcode,false,[],false⟩,none,true,false,false,none,false,⟨.lblank,some .internalNl,false,.lblank⟩⟩] .leaf)),(.node (.node .leaf 10655973 [⟨⟨(.inside 3),[],.lcode,false,[],false⟩,true,false,[],some 4,some ⟨(.inside 3),[],.lcode,false,[],false⟩,none,false,false,false,none,false,⟨.lcode,some (.own 3),false,.lblank⟩⟩] .leaf) 10655981 [⟨⟨(.inside 3),[],.lcode,false,[],false⟩,true,false,[],some 4,some ⟨(.inside 3),[],.lcode,false,[],false⟩,none,true,false,false,none,false,⟨.lcode,some .internalNl,false,.lblank⟩⟩] (.node .leaf 10951941 [⟨⟨(.inside 3),[],.lblank,false,[],false⟩,true,false,[],some 4,some ⟨(.inside 3),[],.lcode,false,[],false⟩,none,true,false,false,none,false,⟨.lblank,some .internalNl,false,.lblank⟩⟩] .leaf)),(.node (.node .leaf 10692824 [⟨⟨(.inside 3),[],.lcode,true,[],false⟩,false,true,[],some 4,some ⟨(.inside 3),[],.lcode,false,[],false⟩,none,false,false,false,none,false,⟨.lcode,some (.own 3),false,.lblank⟩⟩] .leaf) 10692832 [⟨⟨(.inside 3),[],.lcode,true,[],false⟩,false,true,[],some 4,some ⟨(.inside 3),[],.lcode,false,[],false⟩,none,true,false,false,none,false,⟨.lcode,some .internalNl,false,.lblank⟩⟩] (.node .leaf 10988792 [⟨⟨(.inside 3),[],.lblank,true,[],false⟩,false,true,[],some 4,some ⟨(.inside 3),[],.lcode,false,[],false⟩,none,true,false,false,none,false,⟨.lblank,some .internalNl,false,.lblank⟩⟩] .leaf)),(.node (.node .leaf 1317701692 [⟨⟨(.inside 3),[92],.lcode,false,[],false⟩,false,false,[],some 4,some ⟨(.inside 3),[],.lcode,false,[],false⟩,none,false,false,false,none,false,⟨.lcode,some (.own 3),false,.lblank⟩⟩] .leaf) 1317701700 [⟨⟨(.inside 3),[92],.lcode,false,[],false⟩,false,false,[],some 4,some ⟨(.inside 3),[],.lcode,false,[],false⟩,none,true,false,false,none,false,⟨.lcode,some .internalNl,false,.lblank⟩⟩] (.node .leaf 1356339340 [⟨⟨(.inside 3),[92],.lblank,false,[],false⟩,false,false,[],some 4,some ⟨(.inside 3),[],.lcode,false,[],false⟩,none,true,false,false,none,false,⟨.lblank,some .internalNl,false,.lblank⟩⟩] .leaf)),(.node (.node .leaf 610226122 [⟨⟨(.inside 1),[],.lcode,false,[],false⟩,false,false,[],some 4,some ⟨.code,[40],.lcode,false,[],false⟩,some ([(42,(.other,false))],false),false,false,false,none,false,⟨.lcode,some (.own 3),false,.lblank⟩⟩] .leaf) 611582970 [⟨⟨(.inside 1),[],.lcomment,false,[],false⟩,false,false,[],some 4,some ⟨.code,[40],.lcomment,false,[],false⟩,some ([(42,(.other,false))],false),false,false,false,none,false,⟨.lcomment,some (.own 3),false,.lblank⟩⟩] (.node .leaf 612791838 [⟨⟨(.inside 1),[],.lcomment,false,[],false⟩,false,false,[],some 4,some ⟨.code,[40],.lblank,false,[],false⟩,some ([(42,(.other,false))],false),false,false,false,none,false,⟨.lcomment,some (.own 3),false,.lblank⟩⟩] .leaf)),(.node (.node .leaf 1179872 [⟨⟨(.inside 0),[],.lcode,false,[],false⟩,false,false,[],none,none,none,false,false,false,none,false,⟨.lcode,some (.own 3),false,.lblank⟩⟩] .leaf) 1327852 [⟨⟨(.inside 0),[],.lcomment,false,[],false⟩,false,false,[],none,none,none,false,false,false,none,false,⟨.lcomment,some (.own 3),false,.lblank⟩⟩] .leaf),(.node (.node (.node .leaf 7522021 [⟨⟨(.inside 2),[],.lcode,false,[],false⟩,false,false,[],some 4,some ⟨(.inside 2),[],.lcode,false,[],false⟩,none,false,false,false,none,false,⟨.lcode,some (.own 3),false,.lblank⟩⟩] .leaf) 7670009 [⟨⟨(.inside 2),[],.lcomment,false,[],false⟩,false,false,[],some 4,some ⟨(.inside 2),[],.lcode,false,[],false⟩,none,true,false,false,none,false,⟨.lcomment,some .internalNl,false,.lblank⟩⟩] .leaf) 7679229 [⟨⟨(.inside 2),[],.lcomment,false,[],false⟩,false,false,[],some 4,some ⟨(.inside 2),[],.lcomment,false,[],false⟩,none,false,false,false,none,false,⟨.lcomment,some (.own 3),false,.lblank⟩⟩] (.node .leaf 7679237 [⟨⟨(.inside 2),[],.lcomment,false,[],false⟩,false,false,[],some 4,some ⟨(.inside 2),[],.lcomment,false,[],false⟩,none,true,false,false,none,false,⟨.lcomment,some .internalNl,false,.lblank⟩⟩] .leaf)),(.node (.node (.node .leaf 7522021 [⟨⟨(.inside 2),[],.lcode,false,[],false⟩,false,false,[],some 4,some ⟨(.inside 2),[],.lcode,false,[],false⟩,none,false,false,false,none,false,⟨.lcode,some (.own 3),false,.lblank⟩⟩] .leaf) 7670009 [⟨⟨(.inside 2),[],.lcomment,false,[],false⟩,false,false,[],some 4,some ⟨(.inside 2),[],.lcode,false,[],false⟩,none,true,false,false,none,false,⟨.lcomment,some .internalNl,false,.lblank⟩⟩] (.node .leaf 7679229 [⟨⟨(.inside 2),[],.lcomment,false,[],false⟩,false,false,[],some 4,some ⟨(.inside 2),[],.lcomment,false,[],false⟩,none,false,false,false,none,false,⟨.lcomment,some (.own 3),false,.lblank⟩⟩] .leaf)) 7679237 [⟨⟨(.inside 2),[],.lcomment,false,[],false⟩,false,false,[],some 4,some ⟨(.inside 2),[],.lcomment,false,[],false⟩,none,true,false,false,none,false,⟨.lcomment,some .internalNl,false,.lblank⟩⟩] (.node (.node .leaf 7817989 [⟨⟨(.inside 2),[],.lblank,false,[],false⟩,false,false,[],some 4,some ⟨(.inside 2),[],.lcode,false,[],false⟩,none,true,false,false,none,false,⟨.lblank,some .internalNl,false,.lblank⟩⟩] .leaf) 7827217 [⟨⟨(.inside 2),[],.lblank,false,[],false⟩,false,false,[],some 4,some ⟨(.inside 2),[],.lcomment,false,[],false⟩,none,true,false,false,none,false,⟨.lblank,some .internalNl,false,.lblank⟩⟩] .leaf)),(.node (.node (.node .leaf 7558888 [⟨⟨(.inside 2),[],.lcode,true,[],false⟩,false,false,[],some 4,some ⟨(.inside 2),[],.lcode,false,[],false⟩,none,false,false,false,none,false,⟨.lcode,some (.own 3),false,.lblank⟩⟩] .leaf) 7706876 [⟨⟨(.inside 2),[],.lcomment,true,[],false⟩,false,false,[],some 4,some ⟨(.inside 2),[],.lcode,false,[],false⟩,none,true,false,false,none,false,⟨.lcomment,some .internalNl,false,.lblank⟩⟩] (.node .leaf 7716096 [⟨⟨(.inside 2),[],.lcomment,true,[],false⟩,false,false,[],some 4,some ⟨(.inside 2),[],.lcomment,false,[],false⟩,none,false,false,false,none,false,⟨.lcomment,some (.own 3),false,.lblank⟩⟩] .leaf)) 7716104 [⟨⟨(.inside 2),[],.lcomment,true,[],false⟩,false,false,[],some 4,some ⟨(.inside 2),[],.lcomment,false,[],false⟩,none,true,false,false,none,false,⟨.lcomment,some .internalNl,false,.lblank⟩⟩] (.node (.node .leaf 7854856 [⟨⟨(.inside 2),[],.lblank,true,[],false⟩,false,false,[],some 4,some ⟨(.inside 2),[],.lcode,false,[],false⟩,none,true,false,false,none,false,⟨.lblank,some .internalNl,false,.lblank⟩⟩] .leaf) 7864084 [⟨⟨(.inside 2),[],.lblank,true,[],false⟩,false,false,[],some 4,some ⟨(.inside 2),[],.lcomment,false,[],false⟩,none,true,false,false,none,false,⟨.lblank,some .internalNl,false,.lblank⟩⟩] .leaf)),(.node (.node (.node .leaf 7558888 [⟨⟨(.inside 2),[],.lcode,true,[],false⟩,false,false,[],some 4,some ⟨(.inside 2),[],.lcode,false,[],false⟩,none,false,false,false,none,false,⟨.lcode,some (.own 3),false,.lblank⟩⟩] .leaf) 7706876 [⟨⟨(.inside 2),[],.lcomment,true,[],false⟩,false,false,[],some 4,some ⟨(.inside 2),[],.lcode,false,[],false⟩,none,true,false,false,none,false,⟨.lcomment,some .internalNl,false,.lblank⟩⟩] (.node .leaf 7716096 [⟨⟨(.inside 2),[],.lcomment,true,[],false⟩,false,false,[],some 4,some ⟨(.inside 2),[],.lcomment,false,[],false⟩,none,false,false,false,none,false,⟨.lcomment,some (.own 3),false,.lblank⟩⟩] .leaf)) 7716104 [⟨⟨(.inside 2),[],.lcomment,true,[],false⟩,false,false,[],some 4,some ⟨(.inside 2),[],.lcomment,false,[],false⟩,none,true,false,false,none,false,⟨.lcomment,some .internalNl,false,.lblank⟩⟩] (.node (.node .leaf 7854856 [⟨⟨(.inside 2),[],.lblank,true,[],false⟩,false,false,[],some 4,some ⟨(.inside 2),[],.lcode,false,[],false⟩,none,true,false,false,none,false,⟨.lblank,some .internalNl,false,.lblank⟩⟩] .leaf) 7864084 [⟨⟨(.inside 2),[],.lblank,true,[],false⟩,false,false,[],some 4,some ⟨(.inside 2),[],.lcomment,false,[],false⟩,none,true,false,false,none,false,⟨.lblank,some .internalNl,false,.lblank⟩⟩] .leaf)),(.node (.node (.node .leaf 7522053 [⟨⟨(.inside 2),[],.lcode,false,[],false⟩,true,false,[],some 4,some ⟨(.inside 2),[],.lcode,false,[],false⟩,none,false,false,false,none,false,⟨.lcode,some (.own 3),false,.lblank⟩⟩] .leaf) 7670041 [⟨⟨(.inside 2),[],.lcomment,false,[],false⟩,true,false,[],some 4,some ⟨(.inside 2),[],.lcode,false,[],false⟩,none,true,false,false,none,false,⟨.lcomment,some .internalNl,false,.lblank⟩⟩] (.node .leaf 7679261 [⟨⟨(.inside 2),[],.lcomment,false,[],false⟩,true,false,[],some 4,some ⟨(.inside 2),[],.lcomment,false,[],false⟩,none,false,false,false,none,false,⟨.lcomment,some (.own 3),false,.lblank⟩⟩] .leaf)) 7679269 [⟨⟨(.inside 2),[],.lcomment,false,[],false⟩,true,false,[],some 4,some ⟨(.inside 2),[],.lcomment,false,[],false⟩,none,true,false,false,none,false,⟨.lcomment,some .internalNl,false,.lblank⟩⟩] (.node (.node .leaf 7818021 [⟨⟨(.inside 2),[],.lblank,false,[],false⟩,true,false,[],some 4,some ⟨(.inside 2),[],.lcode,false,[],false⟩,none,true,false,false,none,false,⟨.lblank,some .internalNl,false,.lblank⟩⟩] .leaf) 7827249 [⟨⟨(.inside 2),[],.lblank,false,[],false⟩,true,false,[],some 4,some ⟨(.inside 2),[],.lcomment,false,[],false⟩,none,true,false,false,none,false,⟨.lblank,some .internalNl,false,.lblank⟩⟩] .leaf)),(.node (.node (.node .leaf 7558904 [⟨⟨(.inside 2),[],.lcode,true,[],false⟩,false,true,[],some 4,some ⟨(.inside 2),[],.lcode,false,[],false⟩,none,false,false,false,none,false,⟨.lcode,some (.own 3),false,.lblank⟩⟩] .leaf) 7706892 [⟨⟨(.inside 2),[],.lcomment,true,[],false⟩,false,true,[],some 4,some ⟨(.inside 2),[],.lcode,false,[],false⟩,none,true,false,false,none,false,⟨.lcomment,some .internalNl,false,.lblank⟩⟩] (.node .leaf 7716112 [⟨⟨(.inside 2),[],.lcomment,true,[],false⟩,false,true,[],some 4,some ⟨(.inside 2),[],.lcomment,false,[],false⟩,none,false,false,false,none,false,⟨.lcomment,some (.own 3),false,.lblank⟩⟩] .leaf)) 7716120 [⟨⟨(.inside 2),[],.lcomment,true,[],false⟩,false,true,[],some 4,some ⟨(.inside 2),[],.lcomment,false,[],false⟩,none,true,false,false,none,false,⟨.lcomment,some .internalNl,false,.lblank⟩⟩] (.node (.node .leaf 7854872 [⟨⟨(.inside 2),[],.lblank,true,[],false⟩,false,true,[],some 4,some ⟨(.inside 2),[],.lcode,false,[],false⟩,none,true,false,false,none,false,⟨.lblank,some .internalNl,false,.lblank⟩⟩] .leaf) 7864100 [⟨⟨(.inside 2),[],.lblank,true,[],false⟩,false,true,[],some 4,some ⟨(.inside 2),[],.lcomment,false,[],false⟩,none,true,false,false,none,false,⟨.lblank,some .internalNl,false,.lblank⟩⟩] .leaf)),(.node (.node .leaf 10692808 [⟨⟨(.inside 3),[],.lcode,true,[],false⟩,false,false,[],some 4,some ⟨(.inside 3),[],.lcode,false,[],false⟩,none,false,false,false,none,false,⟨.lcode,some (.own 3),false,.lblank⟩⟩] .leaf) 10692816 [⟨⟨(.inside 3),[],.lcode,true,[],false⟩,false,false,[],some 4,some ⟨(.inside 3),[],.lcode,false,[],false⟩,none,true,false,false,none,false,⟨.lcode,some .internalNl,false,.lblank⟩⟩] (.node .leaf 10988776 [⟨⟨(.inside 3),[],.lblank,true,[],false⟩,false,false,[],some 4,some ⟨(.inside 3),[],.lcode,false,[],false⟩,none,true,false,false,none,false,⟨.lblank,some .internalNl,false,.lblank⟩⟩] .leaf)),.leaf,(.node (.node .leaf 10655941 [⟨⟨(.inside 3),[],.lcode,false,[],false⟩,false,false,[],some 4,some ⟨(.inside 3),[],.lcode,false,[],false⟩,none,false,false,false,none,false,⟨.lcode,some (.own 3),false,.lblank⟩⟩] .leaf) 10655949 [⟨⟨(.inside 3),[],.lcode,false,[],false⟩,false,false,[],some 4,some ⟨(.inside 3),[],.lcode,false,[],false⟩,none,true,false,false,none,false,⟨.lcode,some .internalNl,false,.lblank⟩⟩] .leaf),(.node (.node (.node .leaf 610226122 [⟨⟨(.inside 1),[],.lcode,false,[],false⟩,false,false,[],some 4,some ⟨.code,[40],.lcode,false,[],false⟩,some ([(42,(.other,false))],false),false,false,false,none,false,⟨.lcode,some (.own 3),false,.lblank⟩⟩] .leaf) 610226130 [⟨⟨(.inside 1),[],.lcode,false,[],false⟩,false,false,[],some 4,some ⟨.code,[40],.lcode,false,[],false⟩,some ([(42,(.other,false))],false),true,false,false,none,false,⟨.lcode,some .internalNl,false,.lblank⟩⟩] (.node .leaf 611434990 [⟨⟨(.inside 1),[],.lcode,false,[],false⟩,false,false,[],some 4,some ⟨.code,[40],.lcomment,false,[],false⟩,some ([(42,(.other,false))],false),false,false,false,none,false,⟨.lcode,some (.own 3),false,.lblank⟩⟩] .leaf)) 611434998 [⟨⟨(.inside 1),[],.lcode,false,[],false⟩,false,false,[],some 4,some ⟨.code,[40],.lcomment,false,[],false⟩,some ([(42,(.other,false))],false),true,false,false,none,false,⟨.lcode,some .internalNl,false,.lblank⟩⟩] (.node (.node .leaf 612643858 [⟨⟨(.inside 1),[],.lcode,false,[],false⟩,false,false,[],some 4,some ⟨.code,[40],.lblank,false,[],false⟩,some ([(42,(.other,false))],false),false,false,false,none,false,⟨.lcode,some (.own 3),false,.lblank⟩⟩] .leaf) 612643866 [⟨⟨(.inside 1),[],.lcode,false,[],false⟩,false,false,[],some 4,some ⟨.code,[40],.lblank,false,[],false⟩,some ([(42,(.other,false))],false),true,false,false,none,false,⟨.lcode,some .internalNl,false,.lblank⟩⟩] .leaf)),(.node (.node (.node (.node .leaf 610226122 [⟨⟨(.inside 1),[],.lcode,false,[],false⟩,false,false,[],some 4,some ⟨.code,[40],.lcode,false,[],false⟩,some ([(42,(.other,false))],false),false,false,false,none,false,⟨.lcode,some (.own 3),false,.lblank⟩⟩] .leaf) 610226130 [⟨⟨(.inside 1),[],.lcode,false,[],false⟩,false,false,[],some 4,some ⟨.code,[40],.lcode,false,[],false⟩,some ([(42,(.other,false))],false),true,false,false,none,false,⟨.lcode,some .internalNl,false,.lblank⟩⟩] .leaf) 610522090 [⟨⟨(.inside 1),[],.lblank,false,[],false⟩,false,false,[],some 4,some ⟨.code,[40],.lcode,false,[],false⟩,some ([(42,(.other,false))],false),true,false,false,none,false,⟨.lblank,some .internalNl,false,.lblank⟩⟩] (.node (.node .leaf 611434990 [⟨⟨(.inside 1),[],.lcode,false,[],false⟩,false,false,[],some 4,some ⟨.code,[40],.lcomment,false,[],false⟩,some ([(42,(.other,false))],false),false,false,false,none,false,⟨.lcode,some (.own 3),false,.lblank⟩⟩] .leaf) 611434998 [⟨⟨(.inside 1),[],.lcode,false,[],false⟩,false,false,[],some 4,some ⟨.code,[40],.lcomment,false,[],false⟩,some ([(42,(.other,false))],false),true,false,false,none,false,⟨.lcode,some .internalNl,false,.lblank⟩⟩] .leaf)) 611582970 [⟨⟨(.inside 1),[],.lcomment,false,[],false⟩,false,false,[],some 4,some ⟨.code,[40],.lcomment,false,[],false⟩,some ([(42,(.other,false))],false),false,false,false,none,false,⟨.lcomment,some (.own 3),false,.lblank⟩⟩] (.node (.node (.node .leaf 611730958 [⟨⟨(.inside 1),[],.lblank,false,[],false⟩,false,false,[],some 4,some ⟨.code,[40],.lcomment,false,[],false⟩,some ([(42,(.other,false))],false),true,false,false,none,false,⟨.lblank,some .internalNl,false,.lblank⟩⟩] .leaf) 612643858 [⟨⟨(.inside 1),[],.lcode,false,[],false⟩,false,false,[],some 4,some ⟨.code,[40],.lblank,false,[],false⟩,some ([(42,(.other,false))],false),false,false,false,none,false,⟨.lcode,some (.own 3),false,.lblank⟩⟩] .leaf) 612643866 [⟨⟨(.inside 1),[],.lcode,false,[],false⟩,false,false,[],some 4,some ⟨.code,[40],.lblank,false,[],false⟩,some ([(42,(.other,false))],false),true,false,false,none,false,⟨.lcode,some .internalNl,false,.lblank⟩⟩] (.node (.node .leaf 612791838 [⟨⟨(.inside 1),[],.lcomment,false,[],false⟩,false,false,[],some 4,some ⟨.code,[40],.lblank,false,[],false⟩,some ([(42,(.other,false))],false),false,false,false,none,false,⟨.lcomment,some (.own 3),false,.lblank⟩⟩] .leaf) 612939826 [⟨⟨(.inside 1),[],.lblank,false,[],false⟩,false,false,[],some 4,some ⟨.code,[40],.lblank,false,[],false⟩,some ([(42,(.other,false))],false),true,false,false,none,false,⟨.lblank,some .internalNl,false,.lblank⟩⟩] .leaf))),(.node (.node (.node (.node .leaf 610262989 [⟨⟨(.inside 1),[],.lcode,true,[],false⟩,false,false,[],some 4,some ⟨.code,[40],.lcode,false,[],false⟩,some ([(42,(.other,false))],false),false,false,false,none,false,⟨.lcode,some (.own 3),false,.lblank⟩⟩] .leaf) 610262997 [⟨⟨(.inside 1),[],.lcode,true,[],false⟩,false,false,[],some 4,some ⟨.code,[40],.lcode,false,[],false⟩,some ([(42,(.other,false))],false),true,false,false,none,false,⟨.lcode,some .internalNl,false,.lblank⟩⟩] .leaf) 610558957 [⟨⟨(.inside 1),[],.lblank,true,[],false⟩,false,false,[],some 4,some ⟨.code,[40],.lcode,false,[],false⟩,some ([(42,(.other,false))],false),true,false,false,none,false,⟨.lblank,some .internalNl,false,.lblank⟩⟩] (.node (.node .leaf 611471857 [⟨⟨(.inside 1),[],.lcode,true,[],false⟩,false,false,[],some 4,some ⟨.code,[40],.lcomment,false,[],false⟩,some ([(42,(.other,false))],false),false,false,false,none,false,⟨.lcode,some (.own 3),false,.lblank⟩⟩] .leaf) 611471865 [⟨⟨(.inside 1),[],.lcode,true,[],false⟩,false,false,[],some 4,some ⟨.code,[40],.lcomment,false,[],false⟩,some ([(42,(.other,false))],false),true,false,false,none,false,⟨.lcode,some .internalNl,false,.lblank⟩⟩] .leaf)) 611619837 [⟨⟨(.inside 1),[],.lcomment,true,[],false⟩,false,false,[],some 4,some ⟨.code,[40],.lcomment,false,[],false⟩,some ([(42,(.other,false))],false),false,false,false,none,false,⟨.lcomment,some (.own 3),false,.lblank⟩⟩] (.node (.node (.node .leaf 611767825 [⟨⟨(.inside 1),[],.lblank,true,[],false⟩,false,false,[],some 4,some ⟨.code,[40],.lcomment,false,[],false⟩,some ([(42,(.other,false))],false),true,false,false,none,false,⟨.lblank,some .internalNl,false,.lblank⟩⟩] .leaf) 612680725 [⟨⟨(.inside 1),[],.lcode,true,[],false⟩,false,false,[],some 4,some ⟨.code,[40],.lblank,false,[],false⟩,some ([(42,(.other,false))],false),false,false,false,none,false,⟨.lcode,some (.own 3),false,.lblank⟩⟩] .leaf) 612680733 [⟨⟨(.inside 1),[],.lcode,true,[],false⟩,false,false,[],some 4,some ⟨.code,[40],.lblank,false,[],false⟩,some ([(42,(.other,false))],false),true,false,false,none,false,⟨.lcode,some .internalNl,false,.lblank⟩⟩] (.node (.node .leaf 612828705 [⟨⟨(.inside 1),[],.lcomment,true,[],false⟩,false,false,[],some 4,some ⟨.code,[40],.lblank,false,[],false⟩,some ([(42,(.other,false))],false),false,false,false,none,false,⟨.lcomment,some (.own 3),false,.lblank⟩⟩] .leaf) 612976693 [⟨⟨(.inside 1),[],.lblank,true,[],false⟩,false,false,[],some 4,some ⟨.code,[40],.lblank,false,[],false⟩,some ([(42,(.other,false))],false),true,false,false,none,false,⟨.lblank,some .internalNl,false,.lblank⟩⟩] .leaf))),(.node (.node (.node (.node .leaf 610262989 [⟨⟨(.inside 1),[],.lcode,true,[],false⟩,false,false,[],some 4,some ⟨.code,[40],.lcode,false,[],false⟩,some ([(42,(.other,false))],false),false,false,false,none,false,⟨.lcode,some (.own 3),false,.lblank⟩⟩] .leaf) 610262997 [⟨⟨(.inside 1),[],.lcode,true,[],false⟩,false,false,[],some 4,some ⟨.code,[40],.lcode,false,[],false⟩,some ([(42,(.other,false))],false),true,false,false,none,false,⟨.lcode,some .internalNl,false,.lblank⟩⟩] .leaf) 610558957 [⟨⟨(.inside 1),[],.lblank,true,[],false⟩,false,false,[],some 4,some ⟨.code,[40],.lcode,false,[],false⟩,some ([(42,(.other,false))],false),true,false,false,none,false,⟨.lblank,some .internalNl,false,.lblank⟩⟩] (.node (.node .leaf 611471857 [⟨⟨(.inside 1),[],.lcode,true,[],false⟩,false,false,[],some 4,some ⟨.code,[40],.lcomment,false,[],false⟩,some ([(42,(.other,false))],false),false,false,false,none,false,⟨.lcode,some (.own 3),false,.lblank⟩⟩] .leaf) 611471865 [⟨⟨(.inside 1),[],.lcode,true,[],false⟩,false,false,[],some 4,some ⟨.code,[40],.lcomment,false,[],false⟩,some ([(42,(.other,false))],false),true,false,false,none,false,⟨.lcode,some .internalNl,false,.lblank⟩⟩] .leaf)) 611619837 [⟨⟨(.inside 1),[],.lcomment,true,[],false⟩,false,false,[],some 4,some ⟨.code,[40],.lcomment,false,[],false⟩,some ([(42,(.other,false))],false),false,false,false,none,false,⟨.lcomment,some (.own 3),false,.lblank⟩⟩] (.node (.node (.node .leaf 611767825 [⟨⟨(.inside 1),[],.lblank,true,[],false⟩,false,false,[],some 4,some ⟨.code,[40],.lcomment,false,[],false⟩,some ([(42,(.other,false))],false),true,false,false,none,false,⟨.lblank,some .internalNl,false,.lblank⟩⟩] .leaf) 612680725 [⟨⟨(.inside 1),[],.lcode,true,[],false⟩,false,false,[],some 4,some ⟨.code,[40],.lblank,false,[],false⟩,some ([(42,(.other,false))],false),false,false,false,none,false,⟨.lcode,some (.own 3),false,.lblank⟩⟩] .leaf) 612680733 [⟨⟨(.inside 1),[],.lcode,true,[],false⟩,false,false,[],some 4,some ⟨.code,[40],.lblank,false,[],false⟩,some ([(42,(.other,false))],false),true,false,false,none,false,⟨.lcode,some .internalNl,false,.lblank⟩⟩] (.node (.node .leaf 612828705 [⟨⟨(.inside 1),[],.lcomment,true,[],false⟩,false,false,[],some 4,some ⟨.code,[40],.lblank,false,[],false⟩,some ([(42,(.other,false))],false),false,false,false,none,false,⟨.lcomment,some (.own 3),false,.lblank⟩⟩] .leaf) 612976693 [⟨⟨(.inside 1),[],.lblank,true,[],false⟩,false,false,[],some 4,some ⟨.code,[40],.lblank,false,[],false⟩,some ([(42,(.other,false))],false),true,false,false,none,false,⟨.lblank,some .internalNl,false,.lblank⟩⟩] .leaf))),(.node (.node (.node (.node .leaf 610226154 [⟨⟨(.inside 1),[],.lcode,false,[],false⟩,true,false,[],some 4,some ⟨.code,[40],.lcode,false,[],false⟩,some ([(42,(.other,false))],false),false,false,false,none,false,⟨.lcode,some (.own 3),false,.lblank⟩⟩] .leaf) 610226162 [⟨⟨(.inside 1),[],.lcode,false,[],false⟩,true,false,[],some 4,some ⟨.code,[40],.lcode,false,[],false⟩,some ([(42,(.other,false))],false),true,false,false,none,false,⟨.lcode,some .internalNl,false,.lblank⟩⟩] .leaf) 610522122 [⟨⟨(.inside 1),[],.lblank,false,[],false⟩,true,false,[],some 4,some ⟨.code,[40],.lcode,false,[],false⟩,some ([(42,(.other,false))],false),true,false,false,none,false,⟨.lblank,some .internalNl,false,.lblank⟩⟩] (.node (.node .leaf 611435022 [⟨⟨(.inside 1),[],.lcode,false,[],false⟩,true,false,[],some 4,some ⟨.code,[40],.lcomment,false,[],false⟩,some ([(42,(.other,false))],false),false,false,false,none,false,⟨.lcode,some (.own 3),false,.lblank⟩⟩] .leaf) 611435030 [⟨⟨(.inside 1),[],.lcode,false,[],false⟩,true,false,[],some 4,some ⟨.code,[40],.lcomment,false,[],false⟩,some ([(42,(.other,false))],false),true,false,false,none,false,⟨.lcode,some .internalNl,false,.lblank⟩⟩] .leaf)) 611583002 [⟨⟨(.inside 1),[],.lcomment,false,[],false⟩,true,false,[],some 4,some ⟨.code,[40],.lcomment,false,[],false⟩,some ([(42,(.other,false))],false),false,false,false,none,false,⟨.lcomment,some (.own 3),false,.lblank⟩⟩] (.node (.node (.node .leaf 611730990 [⟨⟨(.inside 1),[],.lblank,false,[],false⟩,true,false,[],some 4,some ⟨.code,[40],.lcomment,false,[],false⟩,some ([(42,(.other,false))],false),true,false,false,none,false,⟨.lblank,some .internalNl,false,.lblank⟩⟩] .leaf) 612643890 [⟨⟨(.inside 1),[],.lcode,false,[],false⟩,true,false,[],some 4,some ⟨.code,[40],.lblank,false,[],false⟩,some ([(42,(.other,false))],false),false,false,false,none,false,⟨.lcode,some (.own 3),false,.lblank⟩⟩] .leaf) 612643898 [⟨⟨(.inside 1),[],.lcode,false,[],false⟩,true,false,[],some 4,some ⟨.code,[40],.lblank,false,[],false⟩,some ([(42,(.other,false))],false),true,false,false,none,false,⟨.lcode,some .internalNl,false,.lblank⟩⟩] (.node (.node .leaf 612791870 [⟨⟨(.inside 1),[],.lcomment,false,[],false⟩,true,false,[],some 4,some ⟨.code,[40],.lblank,false,[],false⟩,some ([(42,(.other,false))],false),false,false,false,none,false,⟨.lcomment,some (.own 3),false,.lblank⟩⟩] .leaf) 612939858 [⟨⟨(.inside 1),[],.lblank,false,[],false⟩,true,false,[],some 4,some ⟨.code,[40],.lblank,false,[],false⟩,some ([(42,(.other,false))],false),true,false,false,none,false,⟨.lblank,some .internalNl,false,.lblank⟩⟩] .leaf))),(.node (.node (.node (.node .leaf 610263005 [⟨⟨(.inside 1),[],.lcode,true,[],false⟩,false,true,[],some 4,some ⟨.code,[40],.lcode,false,[],false⟩,some ([(42,(.other,false))],false),false,false,false,none,false,⟨.lcode,some (.own 3),false,.lblank⟩⟩] .leaf) 610263013 [⟨⟨(.inside 1),[],.lcode,true,[],false⟩,false,true,[],some 4,some ⟨.code,[40],.lcode,false,[],false⟩,some ([(42,(.other,false))],false),true,false,false,none,false,⟨.lcode,some .internalNl,false,.lblank⟩⟩] .leaf) 610558973 [⟨⟨(.inside 1),[],.lblank,true,[],false⟩,false,true,[],some 4,some ⟨.code,[40],.lcode,false,[],false⟩,some ([(42,(.other,false))],false),true,false,false,none,false,⟨.lblank,some .internalNl,false,.lblank⟩⟩] (.node (.node .leaf 611471873 [⟨⟨(.inside 1),[],.lcode,true,[],false⟩,false,true,[],some 4,some ⟨.code,[40],.lcomment,false,[],false⟩,some ([(42,(.other,false))],false),false,false,false,none,false,⟨.lcode,some (.own 3),false,.lblank⟩⟩] .leaf) 611471881 [⟨⟨(.inside 1),[],.lcode,true,[],false⟩,false,true,[],some 4,some ⟨.code,[40],.lcomment,false,[],false⟩,some ([(42,(.other,false))],false),true,false,false,none,false,⟨.lcode,some .internalNl,false,.lblank⟩⟩] .leaf)) 611619853 [⟨⟨(.inside 1),[],.lcomment,true,[],false⟩,false,true,[],some 4,some ⟨.code,[40],.lcomment,false,[],false⟩,some ([(42,(.other,false))],false),false,false,false,none,false,⟨.lcomment,some (.own 3),false,.lblank⟩⟩] (.node (.node (.node .leaf 611767841 [⟨⟨(.inside 1),[],.lblank,true,[],false⟩,false,true,[],some 4,some ⟨.code,[40],.lcomment,false,[],false⟩,some ([(42,(.other,false))],false),true,false,false,none,false,⟨.lblank,some .internalNl,false,.lblank⟩⟩] .leaf) 612680741 [⟨⟨(.inside 1),[],.lcode,true,[],false⟩,false,true,[],some 4,some ⟨.code,[40],.lblank,false,[],false⟩,some ([(42,(.other,false))],false),false,false,false,none,false,⟨.lcode,some (.own 3),false,.lblank⟩⟩] .leaf) 612680749 [⟨⟨(.inside 1),[],.lcode,true,[],false⟩,false,true,[],some 4,some ⟨.code,[40],.lblank,false,[],false⟩,some ([(42,(.other,false))],false),true,false,false,none,false,⟨.lcode,some .internalNl,false,.lblank⟩⟩] (.node (.node .leaf 612828721 [⟨⟨(.inside 1),[],.lcomment,true,[],false⟩,false,true,[],some 4,some ⟨.code,[40],.lblank,false,[],false⟩,some ([(42,(.other,false))],false),false,false,false,none,false,⟨.lcomment,some (.own 3),false,.lblank⟩⟩] .leaf) 612976709 [⟨⟨(.inside 1),[],.lblank,true,[],false⟩,false,true,[],some 4,some ⟨.code,[40],.lblank,false,[],false⟩,some ([(42,(.other,false))],false),true,false,false,none,false,⟨.lblank,some .internalNl,false,.lblank⟩⟩] .leaf))),(.node (.node (.node (.node .leaf 1148594923 [⟨⟨(.inside 1),[42],.lcode,false,[],false⟩,false,false,[],some 4,some ⟨.code,[40],.lcode,false,[],false⟩,some ([(42,(.other,false))],false),false,false,false,none,false,⟨.lcode,some (.own 3),false,.lblank⟩⟩] .leaf) 1148594931 [⟨⟨(.inside 1),[42],.lcode,false,[],false⟩,false,false,[],some 4,some ⟨.code,[40],.lcode,false,[],false⟩,some ([(42,(.other,false))],false),true,false,false,none,false,⟨.lcode,some .internalNl,false,.lblank⟩⟩] .leaf) 1149803791 [⟨⟨(.inside 1),[42],.lcode,false,[],false⟩,false,false,[],some 4,some ⟨.code,[40],.lcomment,false,[],false⟩,some ([(42,(.other,false))],false),false,false,false,none,false,⟨.lcode,some (.own 3),false,.lblank⟩⟩] (.node (.node .leaf 1149803799 [⟨⟨(.inside 1),[42],.lcode,false,[],false⟩,false,false,[],some 4,some ⟨.code,[40],.lcomment,false,[],false⟩,some ([(42,(.other,false))],false),true,false,false,none,false,⟨.lcode,some .internalNl,false,.lblank⟩⟩] .leaf) 1151012659 [⟨⟨(.inside 1),[42],.lcode,false,[],false⟩,false,false,[],some 4,some ⟨.code,[40],.lblank,false,[],false⟩,some ([(42,(.other,false))],false),false,false,false,none,false,⟨.lcode,some (.own 3),false,.lblank⟩⟩] .leaf)) 1151012667 [⟨⟨(.inside 1),[42],.lcode,false,[],false⟩,false,false,[],some 4,some ⟨.code,[40],.lblank,false,[],false⟩,some ([(42,(.other,false))],false),true,false,false,none,false,⟨.lcode,some .internalNl,false,.lblank⟩⟩] (.node (.node (.node .leaf 1169122099 [⟨⟨(.inside 1),[42],.lcomment,false,[],false⟩,false,false,[],some 4,some ⟨.code,[40],.lcomment,false,[],false⟩,some ([(42,(.other,false))],false),false,false,false,none,false,⟨.lcode,some (.own 3),false,.lblank⟩⟩] .leaf) 1170330967 [⟨⟨(.inside 1),[42],.lcomment,false,[],false⟩,false,false,[],some 4,some ⟨.code,[40],.lblank,false,[],false⟩,some ([(42,(.other,false))],false),false,false,false,none,false,⟨.lcode,some (.own 3),false,.lblank⟩⟩] .leaf) 1187231547 [⟨⟨(.inside 1),[42],.lblank,false,[],false⟩,false,false,[],some 4,some ⟨.code,[40],.lcode,false,[],false⟩,some ([(42,(.other,false))],false),true,false,false,none,false,⟨.lcode,some .internalNl,false,.lblank⟩⟩] (.node (.node .leaf 1188440415 [⟨⟨(.inside 1),[42],.lblank,false,[],false⟩,false,false,[],some 4,some ⟨.code,[40],.lcomment,false,[],false⟩,some ([(42,(.other,false))],false),true,false,false,none,false,⟨.lcode,some .internalNl,false,.lblank⟩⟩] .leaf) 1189649283 [⟨⟨(.inside 1),[42],.lblank,false,[],false⟩,false,false,[],some 4,some ⟨.code,[40],.lblank,false,[],false⟩,some ([(42,(.other,false))],false),true,false,false,none,false,⟨.lcode,some .internalNl,false,.lblank⟩⟩] .leaf))),(.node (.node .leaf 1179872 [⟨⟨(.inside 0),[],.lcode,false,[],false⟩,false,false,[],none,none,none,false,false,false,none,false,⟨.lcode,some (.own 3),false,.lblank⟩⟩] .leaf) 1327852 [⟨⟨(.inside 0),[],.lcomment,false,[],false⟩,false,false,[],none,none,none,false,false,false,none,false,⟨.lcomment,some (.own 3),false,.lblank⟩⟩] .leaf),(.node (.node (.node .leaf 7558888 [⟨⟨(.inside 2),[],.lcode,true,[],false⟩,false,false,[],some 4,some ⟨(.inside 2),[],.lcode,false,[],false⟩,none,false,false,false,none,false,⟨.lcode,some (.own 3),false,.lblank⟩⟩] .leaf) 7706876 [⟨⟨(.inside 2),[],.lcomment,true,[],false⟩,false,false,[],some 4,some ⟨(.inside 2),[],.lcode,false,[],false⟩,none,true,false,false,none,false,⟨.lcomment,some .internalNl,false,.lblank⟩⟩] (.node .leaf 7716096 [⟨⟨(.inside 2),[],.lcomment,true,[],false⟩,false,false,[],some 4,some ⟨(.inside 2),[],.lcomment,false,[],false⟩,none,false,false,false,none,false,⟨.lcomment,some (.own 3),false,.lblank⟩⟩] .leaf)) 7716104 [⟨⟨(.inside 2),[],.lcomment,true,[],false⟩,false,false,[],some 4,some ⟨(.inside 2),[],.lcomment,false,[],false⟩,none,true,false,false,none,false,⟨.lcomment,some .internalNl,false,.lblank⟩⟩] (.node (.node .leaf 7854856 [⟨⟨(.inside 2),[],.lblank,true,[],false⟩,false,false,[],some 4,some ⟨(.inside 2),[],.lcode,false,[],false⟩,none,true,false,false,none,false,⟨.lblank,some .internalNl,false,.lblank⟩⟩] .leaf) 7864084 [⟨⟨(.inside 2),[],.lblank,true,[],false⟩,false,false,[],some 4,some ⟨(.inside 2),[],.lcomment,false,[],false⟩,none,true,false,false,none,false,⟨.lblank,some .internalNl,false,.lblank⟩⟩] .leaf)),.leaf,(.node (.node (.node (.node .leaf 610262989 [⟨⟨(.inside 1),[],.lcode,true,[],false⟩,false,false,[],some 4,some ⟨.code,[40],.lcode,false,[],false⟩,some ([(42,(.other,false))],false),false,false,false,none,false,⟨.lcode,some (.own 3),false,.lblank⟩⟩] .leaf) 610262997 [⟨⟨(.inside 1),[],.lcode,true,[],false⟩,false,false,[],some 4,some ⟨.code,[40],.lcode,false,[],false⟩,some ([(42,(.other,false))],false),true,false,false,none,false,⟨.lcode,some .internalNl,false,.lblank⟩⟩] .leaf) 610558957 [⟨⟨(.inside 1),[],.lblank,true,[],false⟩,false,false,[],some 4,some ⟨.code,[40],.lcode,false,[],false⟩,some ([(42,(.other,false))],false),true,false,false,none,false,⟨.lblank,some .internalNl,false,.lblank⟩⟩] (.node (.node .leaf 611471857 [⟨⟨(.inside 1),[],.lcode,true,[],false⟩,false,false,[],some 4,some ⟨.code,[40],.lcomment,false,[],false⟩,some ([(42,(.other,false))],false),false,false,false,none,false,⟨.lcode,some (.own 3),false,.lblank⟩⟩] .leaf) 611471865 [⟨⟨(.inside 1),[],.lcode,true,[],false⟩,false,false,[],some 4,some ⟨.code,[40],.lcomment,false,[],false⟩,some ([(42,(.other,false))],false),true,false,false,none,false,⟨.lcode,some .internalNl,false,.lblank⟩⟩] .leaf)) 611619837 [⟨⟨(.inside 1),[],.lcomment,true,[],false⟩,false,false,[],some 4,some ⟨.code,[40],.lcomment,false,[],false⟩,some ([(42,(.other,false))],false),false,false,false,none,false,⟨.lcomment,some (.own 3),false,.lblank⟩⟩] (.node (.node (.node .leaf 611767825 [⟨⟨(.inside 1),[],.lblank,true,[],false⟩,false,false,[],some 4,some ⟨.code,[40],.lcomment,false,[],false⟩,some ([(42,(.other,false))],false),true,false,false,none,false,⟨.lblank,some .internalNl,false,.lblank⟩⟩] .leaf) 612680725 [⟨⟨(.inside 1),[],.lcode,true,[],false⟩,false,false,[],some 4,some ⟨.code,[40],.lblank,false,[],false⟩,some ([(42,(.other,false))],false),false,false,false,none,false,⟨.lcode,some (.own 3),false,.lblank⟩⟩] .leaf) 612680733 [⟨⟨(.inside 1),[],.lcode,true,[],false⟩,false,false,[],some 4,some ⟨.code,[40],.lblank,false,[],false⟩,some ([(42,(.other,false))],false),true,false,false,none,false,⟨.lcode,some .internalNl,false,.lblank⟩⟩] (.node (.node .leaf 612828705 [⟨⟨(.inside 1),[],.lcomment,true,[],false⟩,false,false,[],some 4,some ⟨.code,[40],.lblank,false,[],false⟩,some ([(42,(.other,false))],false),false,false,false,none,false,⟨.lcomment,some (.own 3),false,.lblank⟩⟩] .leaf) 612976693 [⟨⟨(.inside 1),[],.lblank,true,[],false⟩,false,false,[],some 4,some ⟨.code,[40],.lblank,false,[],false⟩,some ([(42,(.other,false))],false),true,false,false,none,false,⟨.lblank,some .internalNl,false,.lblank⟩⟩] .leaf))),.leaf]
theorem pascal_line_lClosed : CA.closedF pascal_line_M pascal_line_lex true false pascal_line_lfr pascal_line_lTab = true := by decide +kernel
def pascal_line_L : LCert LexisTable.pascal_line pascal_line_M := pascal_line_lex_eq ▸ ⟨⟨pascal_line_lmasks, pascal_line_lex.rel, pascal_line_lcs, pascal_line_lrows, pascal_line_lmasksIn, pascal_line_lrepOk, pascal_line_lrowsOk⟩,
  _, rfl, by decide +kernel, by decide +kernel, true, false, CA.closed_of pascal_line_lfrOk pascal_line_lClosed⟩
theorem pascal_line_L_chk : pascal_line_L.chk = true := by
  have : ∀ (l : Lexis) (h : LexisTable.pascal_line = l) (C : LCert l pascal_line_M), (h ▸ C : LCert LexisTable.pascal_line pascal_line_M).chk = C.chk := by rintro _ rfl _; rfl
  exact this _ pascal_line_lex_eq _

def powershell_line_lex : Lexis := [⟨[35],[],.lcomment,false,false,false,true,false,false,true,false,none,false,false,false,false,[]⟩,⟨[60,35],[[35,62]],.lcomment,true,false,false,true,false,false,true,false,none,false,false,false,false,[]⟩,⟨[39],[[39]],.lcode,true,false,true,true,true,false,false,false,none,false,false,false,false,[]⟩,⟨[34],[[34]],.lcode,true,false,true,true,true,false,false,false,none,false,false,false,false,[]⟩]
theorem powershell_line_lex_eq : LexisTable.powershell_line = powershell_line_lex := by decide +kernel
def powershell_line_lmasks : List Nat := [4294967808,34359738368,1152921504606846976,549755813888,17179869184,8192,1024,4096,115792089237316195423570985008687907853269984665640564039457584007908834656767,115792089237316195423570985008687907853269984665640564039457584007913129626623,115792089237316195423570985008687907853269984665640564039457584007908834658815,4611686018427387904,4951760157141521099596496896,115792089237316195423570985008687907853269984665635612279300442486259482348031,115792089237316195423570985008687907853269984665635612279300442486792058292735]
def powershell_line_lcs : List (Nat × Nat) := [(0,115792089237316195423570985008687907853269984665635612279294677878684908503551),(9,4294967808),(10,1024),(11,2048),(12,4096),(13,8192),(34,17179869184),(35,34359738368),(39,549755813888),(60,1152921504606846976),(62,4611686018427387904),(92,4951760157141521099596496896)]
theorem powershell_line_lmasksIn : masksIn powershell_line_nfa powershell_line_lmasks = true := by decide +kernel
theorem powershell_line_lrepOk : repOk powershell_line_lmasks powershell_line_lcs = true := by decide +kernel
def powershell_line_lrows : List Row := [⟨[],none,[],[⟨256,.other,false,some ⟨0,[.setEnt (.own 3)],some 4,true⟩⟩,⟨256,.ws,false,some ⟨1,[.setEnt (.own 0)],some 0,false⟩⟩,⟨256,.lf,false,some ⟨0,[.setEnt .newline],some 3,true⟩⟩,⟨256,.vt,false,none⟩,⟨256,.ff,false,some ⟨0,[.setEnt .newline],some 3,true⟩⟩,⟨256,.cr,false,some ⟨2,[.setEnt .newline],none,false⟩⟩,⟨256,.cr,true,some ⟨3,[.setEnt .newline],some 3,false⟩⟩,⟨34,.other,false,some ⟨4,[.enqueue,.code,.setEnt (.own 3)],some 4,false⟩⟩,⟨35,.other,false,some ⟨5,[.comment,.setEnt (.own 3)],some 1,false⟩⟩,⟨39,.other,false,some ⟨6,[.enqueue,.code,.setEnt (.own 3)],some 4,false⟩⟩,⟨60,.other,false,some ⟨7,[.setEnt (.own 3)],some 4,false⟩⟩,⟨62,.other,false,some ⟨0,[.setEnt (.own 3)],some 4,true⟩⟩,⟨92,.other,false,some ⟨0,[.setEnt (.own 3)],some 4,true⟩⟩]⟩,⟨[0],some 0,[],[⟨256,.other,false,none⟩,⟨256,.ws,false,some ⟨1,[.setEnt (.own 0)],some 0,false⟩⟩,⟨256,.lf,false,none⟩,⟨256,.vt,false,none⟩,⟨256,.ff,false,none⟩,⟨256,.cr,false,none⟩,⟨256,.cr,true,none⟩,⟨34,.other,false,none⟩,⟨35,.other,false,none⟩,⟨39,.other,false,none⟩,⟨60,.other,false,none⟩,⟨62,.other,false,none⟩,⟨92,.other,false,none⟩]⟩,⟨[48],none,[],[⟨256,.other,false,none⟩,⟨256,.ws,false,none⟩,⟨256,.lf,false,some ⟨0,[.setEnt .newline],some 3,true⟩⟩,⟨256,.vt,false,none⟩,⟨256,.ff,false,none⟩,⟨256,.cr,false,none⟩,⟨256,.cr,true,none⟩,⟨34,.other,false,none⟩,⟨35,.other,false,none⟩,⟨39,.other,false,none⟩,⟨60,.other,false,none⟩,⟨62,.other,false,none⟩,⟨92,.other,false,none⟩]⟩,⟨[48,52],some 3,[],[⟨256,.other,false,none⟩,⟨256,.ws,false,none⟩,⟨256,.lf,false,some ⟨0,[.setEnt .newline],some 3,true⟩⟩,⟨256,.vt,false,none⟩,⟨256,.ff,false,none⟩,⟨256,.cr,false,none⟩,⟨256,.cr,true,none⟩,⟨34,.other,false,none⟩,⟨35,.other,false,none⟩,⟨39,.other,false,none⟩,⟨60,.other,false,none⟩,⟨62,.other,false,none⟩,⟨92,.other,false,none⟩]⟩,⟨[31,53],some 4,[],[⟨256,.other,false,some ⟨8,[.code],none,false⟩⟩,⟨256,.ws,false,some ⟨9,[],none,false⟩⟩,⟨256,.lf,false,some ⟨10,[],none,false⟩⟩,⟨256,.vt,false,some ⟨8,[.code],none,false⟩⟩,⟨256,.ff,false,some ⟨11,[],none,false⟩⟩,⟨256,.cr,false,some ⟨12,[],none,false⟩⟩,⟨256,.cr,true,some ⟨13,[],none,false⟩⟩,⟨34,.other,false,some ⟨0,[.commit],some 2,true⟩⟩,⟨35,.other,false,some ⟨8,[.code],none,false⟩⟩,⟨39,.other,false,some ⟨8,[.code],none,false⟩⟩,⟨60,.other,false,some ⟨8,[.code],none,false⟩⟩,⟨62,.other,false,some ⟨8,[.code],none,false⟩⟩,⟨92,.other,false,some ⟨14,[],none,false⟩⟩]⟩,⟨[1,53],some 1,[],[⟨256,.other,false,some ⟨15,[],some 1,false⟩⟩,⟨256,.ws,false,some ⟨15,[],some 1,false⟩⟩,⟨256,.lf,false,none⟩,⟨256,.vt,false,some ⟨15,[],some 1,false⟩⟩,⟨256,.ff,false,none⟩,⟨256,.cr,false,none⟩,⟨256,.cr,true,none⟩,⟨34,.other,false,some ⟨15,[],some 1,false⟩⟩,⟨35,.other,false,some ⟨15,[],some 1,false⟩⟩,⟨39,.other,false,some ⟨15,[],some 1,false⟩⟩,⟨60,.other,false,some ⟨15,[],some 1,false⟩⟩,⟨62,.other,false,some ⟨15,[],some 1,false⟩⟩,⟨92,.other,false,some ⟨15,[],some 1,false⟩⟩]⟩,⟨[14,53],some 4,[],[⟨256,.other,false,some ⟨16,[.code],none,false⟩⟩,⟨256,.ws,false,some ⟨17,[],none,false⟩⟩,⟨256,.lf,false,some ⟨18,[],none,false⟩⟩,⟨256,.vt,false,some ⟨16,[.code],none,false⟩⟩,⟨256,.ff,false,some ⟨19,[],none,false⟩⟩,⟨256,.cr,false,some ⟨20,[],none,false⟩⟩,⟨256,.cr,true,some ⟨21,[],none,false⟩⟩,⟨34,.other,false,some ⟨16,[.code],none,false⟩⟩,⟨35,.other,false,some ⟨16,[.code],none,false⟩⟩,⟨39,.other,false,some ⟨0,[.commit],some 2,true⟩⟩,⟨60,.other,false,some ⟨16,[.code],none,false⟩⟩,⟨62,.other,false,some ⟨16,[.code],none,false⟩⟩,⟨92,.other,false,some ⟨22,[],none,false⟩⟩]⟩,⟨[3,53],some 4,[],[⟨256,.other,false,none⟩,⟨256,.ws,false,none⟩,⟨256,.lf,false,none⟩,⟨256,.vt,false,none⟩,⟨256,.ff,false,none⟩,⟨256,.cr,false,none⟩,⟨256,.cr,true,none⟩,⟨34,.other,false,none⟩,⟨35,.other,false,some ⟨23,[.comment],none,false⟩⟩,⟨39,.other,false,none⟩,⟨60,.other,false,none⟩,⟨62,.other,false,none⟩,⟨92,.other,false,none⟩]⟩,⟨[44],none,[],[⟨256,.other,false,some ⟨8,[.code],none,false⟩⟩,⟨256,.ws,false,some ⟨9,[],none,false⟩⟩,⟨256,.lf,false,some ⟨10,[],none,false⟩⟩,⟨256,.vt,false,some ⟨8,[.code],none,false⟩⟩,⟨256,.ff,false,some ⟨11,[],none,false⟩⟩,⟨256,.cr,false,some ⟨12,[],none,false⟩⟩,⟨256,.cr,true,some ⟨13,[],none,false⟩⟩,⟨34,.other,false,some ⟨0,[.commit],some 2,true⟩⟩,⟨35,.other,false,some ⟨8,[.code],none,false⟩⟩,⟨39,.other,false,some ⟨8,[.code],none,false⟩⟩,⟨60,.other,false,some ⟨8,[.code],none,false⟩⟩,⟨62,.other,false,some ⟨8,[.code],none,false⟩⟩,⟨92,.other,false,some ⟨14,[],none,false⟩⟩]⟩,⟨[43],none,[],[⟨256,.other,false,some ⟨8,[.code],none,false⟩⟩,⟨256,.ws,false,some ⟨9,[],none,false⟩⟩,⟨256,.lf,false,some ⟨10,[],none,false⟩⟩,⟨256,.vt,false,some ⟨8,[.code],none,false⟩⟩,⟨256,.ff,false,some ⟨11,[],none,false⟩⟩,⟨256,.cr,false,some ⟨12,[],none,false⟩⟩,⟨256,.cr,true,some ⟨13,[],none,false⟩⟩,⟨34,.other,false,some ⟨0,[.commit],some 2,true⟩⟩,⟨35,.other,false,some ⟨8,[.code],none,false⟩⟩,⟨39,.other,false,some ⟨8,[.code],none,false⟩⟩,⟨60,.other,false,some ⟨8,[.code],none,false⟩⟩,⟨62,.other,false,some ⟨8,[.code],none,false⟩⟩,⟨92,.other,false,some ⟨14,[],none,false⟩⟩]⟩,⟨[34],none,[],[⟨256,.other,false,some ⟨8,[.setEnt .internalNl,.cb,.code],none,false⟩⟩,⟨256,.ws,false,some ⟨9,[.setEnt .internalNl,.cb],none,false⟩⟩,⟨256,.lf,false,some ⟨10,[.setEnt .internalNl,.cb],none,false⟩⟩,⟨256,.vt,false,some ⟨8,[.setEnt .internalNl,.cb,.code],none,false⟩⟩,⟨256,.ff,false,some ⟨11,[.setEnt .internalNl,.cb],none,false⟩⟩,⟨256,.cr,false,some ⟨12,[.setEnt .internalNl,.cb],none,false⟩⟩,⟨256,.cr,true,some ⟨13,[.setEnt .internalNl,.cb],none,false⟩⟩,⟨34,.other,false,some ⟨0,[.setEnt .internalNl,.cb,.commit],some 2,true⟩⟩,⟨35,.other,false,some ⟨8,[.setEnt .internalNl,.cb,.code],none,false⟩⟩,⟨39,.other,false,some ⟨8,[.setEnt .internalNl,.cb,.code],none,false⟩⟩,⟨60,.other,false,some ⟨8,[.setEnt .internalNl,.cb,.code],none,false⟩⟩,⟨62,.other,false,some ⟨8,[.setEnt .internalNl,.cb,.code],none,false⟩⟩,⟨92,.other,false,some ⟨14,[.setEnt .internalNl,.cb],none,false⟩⟩]⟩,⟨[35],none,[],[⟨256,.other,false,some ⟨8,[.setEnt .internalNl,.cb,.code],none,false⟩⟩,⟨256,.ws,false,some ⟨9,[.setEnt .internalNl,.cb],none,false⟩⟩,⟨256,.lf,false,some ⟨10,[.setEnt .internalNl,.cb],none,false⟩⟩,⟨256,.vt,false,some ⟨8,[.setEnt .internalNl,.cb,.code],none,false⟩⟩,⟨256,.ff,false,some ⟨11,[.setEnt .internalNl,.cb],none,false⟩⟩,⟨256,.cr,false,some ⟨12,[.setEnt .internalNl,.cb],none,false⟩⟩,⟨256,.cr,true,some ⟨13,[.setEnt .internalNl,.cb],none,false⟩⟩,⟨34,.other,false,some ⟨0,[.setEnt .internalNl,.cb,.commit],some 2,true⟩⟩,⟨35,.other,false,some ⟨8,[.setEnt .internalNl,.cb,.code],none,false⟩⟩,⟨39,.other,false,some ⟨8,[.setEnt .internalNl,.cb,.code],none,false⟩⟩,⟨60,.other,false,some ⟨8,[.setEnt .internalNl,.cb,.code],none,false⟩⟩,⟨62,.other,false,some ⟨8,[.setEnt .internalNl,.cb,.code],none,false⟩⟩,⟨92,.other,false,some ⟨14,[.setEnt .internalNl,.cb],none,false⟩⟩]⟩,⟨[32],none,[],[⟨256,.other,false,none⟩,⟨256,.ws,false,none⟩,⟨256,.lf,false,some ⟨24,[],none,false⟩⟩,⟨256,.vt,false,none⟩,⟨256,.ff,false,none⟩,⟨256,.cr,false,none⟩,⟨256,.cr,true,none⟩,⟨34,.other,false,none⟩,⟨35,.other,false,none⟩,⟨39,.other,false,none⟩,⟨60,.other,false,none⟩,⟨62,.other,false,none⟩,⟨92,.other,false,none⟩]⟩,⟨[32,36],none,[],[⟨256,.other,false,some ⟨8,[.setEnt .internalNl,.cb,.code],none,false⟩⟩,⟨256,.ws,false,some ⟨9,[.setEnt .internalNl,.cb],none,false⟩⟩,⟨256,.lf,false,some ⟨25,[.setEnt .internalNl,.cb],none,false⟩⟩,⟨256,.vt,false,some ⟨8,[.setEnt .internalNl,.cb,.code],none,false⟩⟩,⟨256,.ff,false,some ⟨11,[.setEnt .internalNl,.cb],none,false⟩⟩,⟨256,.cr,false,some ⟨12,[.setEnt .internalNl,.cb],none,false⟩⟩,⟨256,.cr,true,some ⟨13,[.setEnt .internalNl,.cb],none,false⟩⟩,⟨34,.other,false,some ⟨0,[.setEnt .internalNl,.cb,.commit],some 2,true⟩⟩,⟨35,.other,false,some ⟨8,[.setEnt .internalNl,.cb,.code],none,false⟩⟩,⟨39,.other,false,some ⟨8,[.setEnt .internalNl,.cb,.code],none,false⟩⟩,⟨60,.other,false,some ⟨8,[.setEnt .internalNl,.cb,.code],none,false⟩⟩,⟨62,.other,false,some ⟨8,[.setEnt .internalNl,.cb,.code],none,false⟩⟩,⟨92,.other,false,some ⟨14,[.setEnt .internalNl,.cb],none,false⟩⟩]⟩,⟨[37,45],none,[],[⟨256,.other,false,some ⟨26,[.code],none,false⟩⟩,⟨256,.ws,false,some ⟨26,[.code],none,false⟩⟩,⟨256,.lf,false,some ⟨27,[],none,false⟩⟩,⟨256,.vt,false,some ⟨26,[.code],none,false⟩⟩,⟨256,.ff,false,some ⟨28,[],none,false⟩⟩,⟨256,.cr,false,some ⟨29,[],none,false⟩⟩,⟨256,.cr,true,some ⟨30,[],none,false⟩⟩,⟨34,.other,false,some ⟨26,[.code],none,false⟩⟩,⟨35,.other,false,some ⟨26,[.code],none,false⟩⟩,⟨39,.other,false,some ⟨26,[.code],none,false⟩⟩,⟨60,.other,false,some ⟨26,[.code],none,false⟩⟩,⟨62,.other,false,some ⟨26,[.code],none,false⟩⟩,⟨92,.other,false,some ⟨26,[.code],none,false⟩⟩]⟩,⟨[2],some 1,[],[⟨256,.other,false,some ⟨15,[],some 1,false⟩⟩,⟨256,.ws,false,some ⟨15,[],some 1,false⟩⟩,⟨256,.lf,false,none⟩,⟨256,.vt,false,some ⟨15,[],some 1,false⟩⟩,⟨256,.ff,false,none⟩,⟨256,.cr,false,none⟩,⟨256,.cr,true,none⟩,⟨34,.other,false,some ⟨15,[],some 1,false⟩⟩,⟨35,.other,false,some ⟨15,[],some 1,false⟩⟩,⟨39,.other,false,some ⟨15,[],some 1,false⟩⟩,⟨60,.other,false,some ⟨15,[],some 1,false⟩⟩,⟨62,.other,false,some ⟨15,[],some 1,false⟩⟩,⟨92,.other,false,some ⟨15,[],some 1,false⟩⟩]⟩,⟨[27],none,[],[⟨256,.other,false,some ⟨16,[.code],none,false⟩⟩,⟨256,.ws,false,some ⟨17,[],none,false⟩⟩,⟨256,.lf,false,some ⟨18,[],none,false⟩⟩,⟨256,.vt,false,some ⟨16,[.code],none,false⟩⟩,⟨256,.ff,false,some ⟨19,[],none,false⟩⟩,⟨256,.cr,false,some ⟨20,[],none,false⟩⟩,⟨256,.cr,true,some ⟨21,[],none,false⟩⟩,⟨34,.other,false,some ⟨16,[.code],none,false⟩⟩,⟨35,.other,false,some ⟨16,[.code],none,false⟩⟩,⟨39,.other,false,some ⟨0,[.commit],some 2,true⟩⟩,⟨60,.other,false,some ⟨16,[.code],none,false⟩⟩,⟨62,.other,false,some ⟨16,[.code],none,false⟩⟩,⟨92,.other,false,some ⟨22,[],none,false⟩⟩]⟩,⟨[26],none,[],[⟨256,.other,false,some ⟨16,[.code],none,false⟩⟩,⟨256,.ws,false,some ⟨17,[],none,false⟩⟩,⟨256,.lf,false,some ⟨18,[],none,false⟩⟩,⟨256,.vt,false,some ⟨16,[.code],none,false⟩⟩,⟨256,.ff,false,some ⟨19,[],none,false⟩⟩,⟨256,.cr,false,some ⟨20,[],none,false⟩⟩,⟨256,.cr,true,some ⟨21,[],none,false⟩⟩,⟨34,.other,false,some ⟨16,[.code],none,false⟩⟩,⟨35,.other,false,some ⟨16,[.code],none,false⟩⟩,⟨39,.other,false,some ⟨0,[.commit],some 2,true⟩⟩,⟨60,.other,false,some ⟨16,[.code],none,false⟩⟩,⟨62,.other,false,some ⟨16,[.code],none,false⟩⟩,⟨92,.other,false,some ⟨22,[],none,false⟩⟩]⟩,⟨[17],none,[],[⟨256,.other,false,some ⟨16,[.setEnt .internalNl,.cb,.code],none,false⟩⟩,⟨256,.ws,false,some ⟨17,[.setEnt .internalNl,.cb],none,false⟩⟩,⟨256,.lf,false,some ⟨18,[.setEnt .internalNl,.cb],none,false⟩⟩,⟨256,.vt,false,some ⟨16,[.setEnt .internalNl,.cb,.code],none,false⟩⟩,⟨256,.ff,false,some ⟨19,[.setEnt .internalNl,.cb],none,false⟩⟩,⟨256,.cr,false,some ⟨20,[.setEnt .internalNl,.cb],none,false⟩⟩,⟨256,.cr,true,some ⟨21,[.setEnt .internalNl,.cb],none,false⟩⟩,⟨34,.other,false,some ⟨16,[.setEnt .internalNl,.cb,.code],none,false⟩⟩,⟨35,.other,false,some ⟨16,[.setEnt .internalNl,.cb,.code],none,false⟩⟩,⟨39,.other,false,some ⟨0,[.setEnt .internalNl,.cb,.commit],some 2,true⟩⟩,⟨60,.other,false,some ⟨16,[.setEnt .internalNl,.cb,.code],none,false⟩⟩,⟨62,.other,false,some ⟨16,[.setEnt .internalNl,.cb,.code],none,false⟩⟩,⟨92,.other,false,some ⟨22,[.setEnt .internalNl,.cb],none,false⟩⟩]⟩,⟨[18],none,[],[⟨256,.other,false,some ⟨16,[.setEnt .internalNl,.cb,.code],none,false⟩⟩,⟨256,.ws,false,some ⟨17,[.setEnt .internalNl,.cb],none,false⟩⟩,⟨256,.lf,false,some ⟨18,[.setEnt .internalNl,.cb],none,false⟩⟩,⟨256,.vt,false,some ⟨16,[.setEnt .internalNl,.cb,.code],none,false⟩⟩,⟨256,.ff,false,some ⟨19,[.setEnt .internalNl,.cb],none,false⟩⟩,⟨256,.cr,false,some ⟨20,[.setEnt .internalNl,.cb],none,false⟩⟩,⟨256,.cr,true,some ⟨21,[.setEnt .internalNl,.cb],none,false⟩⟩,⟨34,.other,false,some ⟨16,[.setEnt .internalNl,.cb,.code],none,false⟩⟩,⟨35,.other,false,some ⟨16,[.setEnt .internalNl,.cb,.code],none,false⟩⟩,⟨39,.other,false,some ⟨0,[.setEnt .internalNl,.cb,.commit],some 2,true⟩⟩,⟨60,.other,false,some ⟨16,[.setEnt .internalNl,.cb,.code],none,false⟩⟩,⟨62,.other,false,some ⟨16,[.setEnt .internalNl,.cb,.code],none,false⟩⟩,⟨92,.other,false,some ⟨22,[.setEnt .internalNl,.cb],none,false⟩⟩]⟩,⟨[15],none,[],[⟨256,.other,false,none⟩,⟨256,.ws,false,none⟩,⟨256,.lf,false,some ⟨31,[],none,false⟩⟩,⟨256,.vt,false,none⟩,⟨256,.ff,false,none⟩,⟨256,.cr,false,none⟩,⟨256,.cr,true,none⟩,⟨34,.other,false,none⟩,⟨35,.other,false,none⟩,⟨39,.other,false,none⟩,⟨60,.other,false,none⟩,⟨62,.other,false,none⟩,⟨92,.other,false,none⟩]⟩,⟨[15,19],none,[],[⟨256,.other,false,some ⟨16,[.setEnt .internalNl,.cb,.code],none,false⟩⟩,⟨256,.ws,false,some ⟨17,[.setEnt .internalNl,.cb],none,false⟩⟩,⟨256,.lf,false,some ⟨32,[.setEnt .internalNl,.cb],none,false⟩⟩,⟨256,.vt,false,some ⟨16,[.setEnt .internalNl,.cb,.code],none,false⟩⟩,⟨256,.ff,false,some ⟨19,[.setEnt .internalNl,.cb],none,false⟩⟩,⟨256,.cr,false,some ⟨20,[.setEnt .internalNl,.cb],none,false⟩⟩,⟨256,.cr,true,some ⟨21,[.setEnt .internalNl,.cb],none,false⟩⟩,⟨34,.other,false,some ⟨16,[.setEnt .internalNl,.cb,.code],none,false⟩⟩,⟨35,.other,false,some ⟨16,[.setEnt .internalNl,.cb,.code],none,false⟩⟩,⟨39,.other,false,some ⟨0,[.setEnt .internalNl,.cb,.commit],some 2,true⟩⟩,⟨60,.other,false,some ⟨16,[.setEnt .internalNl,.cb,.code],none,false⟩⟩,⟨62,.other,false,some ⟨16,[.setEnt .internalNl,.cb,.code],none,false⟩⟩,⟨92,.other,false,some ⟨22,[.setEnt .internalNl,.cb],none,false⟩⟩]⟩,⟨[20,28],none,[],[⟨256,.other,false,some ⟨33,[.code],none,false⟩⟩,⟨256,.ws,false,some ⟨33,[.code],none,false⟩⟩,⟨256,.lf,false,some ⟨34,[],none,false⟩⟩,⟨256,.vt,false,some ⟨33,[.code],none,false⟩⟩,⟨256,.ff,false,some ⟨35,[],none,false⟩⟩,⟨256,.cr,false,some ⟨36,[],none,false⟩⟩,⟨256,.cr,true,some ⟨37,[],none,false⟩⟩,⟨34,.other,false,some ⟨33,[.code],none,false⟩⟩,⟨35,.other,false,some ⟨33,[.code],none,false⟩⟩,⟨39,.other,false,some ⟨33,[.code],none,false⟩⟩,⟨60,.other,false,some ⟨33,[.code],none,false⟩⟩,⟨62,.other,false,some ⟨33,[.code],none,false⟩⟩,⟨92,.other,false,some ⟨33,[.code],none,false⟩⟩]⟩,⟨[4],none,[],[⟨256,.other,false,some ⟨38,[.comment],none,false⟩⟩,⟨256,.ws,false,some ⟨39,[],none,false⟩⟩,⟨256,.lf,false,some ⟨40,[],none,false⟩⟩,⟨256,.vt,false,some ⟨38,[.comment],none,false⟩⟩,⟨256,.ff,false,some ⟨41,[],none,false⟩⟩,⟨256,.cr,false,some ⟨42,[],none,false⟩⟩,⟨256,.cr,true,some ⟨43,[],none,false⟩⟩,⟨34,.other,false,some ⟨38,[.comment],none,false⟩⟩,⟨35,.other,false,some ⟨44,[.comment],none,false⟩⟩,⟨39,.other,false,some ⟨38,[.comment],none,false⟩⟩,⟨60,.other,false,some ⟨38,[.comment],none,false⟩⟩,⟨62,.other,false,some ⟨38,[.comment],none,false⟩⟩,⟨92,.other,false,some ⟨38,[.comment],none,false⟩⟩]⟩,⟨[33],none,[],[⟨256,.other,false,some ⟨8,[.setEnt .internalNl,.cb,.code],none,false⟩⟩,⟨256,.ws,false,some ⟨9,[.setEnt .internalNl,.cb],none,false⟩⟩,⟨256,.lf,false,some ⟨10,[.setEnt .internalNl,.cb],none,false⟩⟩,⟨256,.vt,false,some ⟨8,[.setEnt .internalNl,.cb,.code],none,false⟩⟩,⟨256,.ff,false,some ⟨11,[.setEnt .internalNl,.cb],none,false⟩⟩,⟨256,.cr,false,some ⟨12,[.setEnt .internalNl,.cb],none,false⟩⟩,⟨256,.cr,true,some ⟨13,[.setEnt .internalNl,.cb],none,false⟩⟩,⟨34,.other,false,some ⟨0,[.setEnt .internalNl,.cb,.commit],some 2,true⟩⟩,⟨35,.other,false,some ⟨8,[.setEnt .internalNl,.cb,.code],none,false⟩⟩,⟨39,.other,false,some ⟨8,[.setEnt .internalNl,.cb,.code],none,false⟩⟩,⟨60,.other,false,some ⟨8,[.setEnt .internalNl,.cb,.code],none,false⟩⟩,⟨62,.other,false,some ⟨8,[.setEnt .internalNl,.cb,.code],none,false⟩⟩,⟨92,.other,false,some ⟨14,[.setEnt .internalNl,.cb],none,false⟩⟩]⟩,⟨[33,34],none,[],[⟨256,.other,false,some ⟨8,[.setEnt .internalNl,.cb,.code],none,false⟩⟩,⟨256,.ws,false,some ⟨9,[.setEnt .internalNl,.cb],none,false⟩⟩,⟨256,.lf,false,some ⟨10,[.setEnt .internalNl,.cb],none,false⟩⟩,⟨256,.vt,false,some ⟨8,[.setEnt .internalNl,.cb,.code],none,false⟩⟩,⟨256,.ff,false,some ⟨11,[.setEnt .internalNl,.cb],none,false⟩⟩,⟨256,.cr,false,some ⟨12,[.setEnt .internalNl,.cb],none,false⟩⟩,⟨256,.cr,true,some ⟨13,[.setEnt .internalNl,.cb],none,false⟩⟩,⟨34,.other,false,some ⟨0,[.setEnt .internalNl,.cb,.commit],some 2,true⟩⟩,⟨35,.other,false,some ⟨8,[.setEnt .internalNl,.cb,.code],none,false⟩⟩,⟨39,.other,false,some ⟨8,[.setEnt .internalNl,.cb,.code],none,false⟩⟩,⟨60,.other,false,some ⟨8,[.setEnt .internalNl,.cb,.code],none,false⟩⟩,⟨62,.other,false,some ⟨8,[.setEnt .internalNl,.cb,.code],none,false⟩⟩,⟨92,.other,false,some ⟨14,[.setEnt .internalNl,.cb],none,false⟩⟩]⟩,⟨[46],none,[],[⟨256,.other,false,some ⟨8,[.code],none,false⟩⟩,⟨256,.ws,false,some ⟨9,[],none,false⟩⟩,⟨256,.lf,false,some ⟨10,[],none,false⟩⟩,⟨256,.vt,false,some ⟨8,[.code],none,false⟩⟩,⟨256,.ff,false,some ⟨11,[],none,false⟩⟩,⟨256,.cr,false,some ⟨12,[],none,false⟩⟩,⟨256,.cr,true,some ⟨13,[],none,false⟩⟩,⟨34,.other,false,some ⟨0,[.commit],some 2,true⟩⟩,⟨35,.other,false,some ⟨8,[.code],none,false⟩⟩,⟨39,.other,false,some ⟨8,[.code],none,false⟩⟩,⟨60,.other,false,some ⟨8,[.code],none,false⟩⟩,⟨62,.other,false,some ⟨8,[.code],none,false⟩⟩,⟨92,.other,false,some ⟨14,[],none,false⟩⟩]⟩,⟨[40],none,[],[⟨256,.other,false,some ⟨8,[.setEnt .internalNl,.cb,.code],none,false⟩⟩,⟨256,.ws,false,some ⟨9,[.setEnt .internalNl,.cb],none,false⟩⟩,⟨256,.lf,false,some ⟨10,[.setEnt .internalNl,.cb],none,false⟩⟩,⟨256,.vt,false,some ⟨8,[.setEnt .internalNl,.cb,.code],none,false⟩⟩,⟨256,.ff,false,some ⟨11,[.setEnt .internalNl,.cb],none,false⟩⟩,⟨256,.cr,false,some ⟨12,[.setEnt .internalNl,.cb],none,false⟩⟩,⟨256,.cr,true,some ⟨13,[.setEnt .internalNl,.cb],none,false⟩⟩,⟨34,.other,false,some ⟨0,[.setEnt .internalNl,.cb,.commit],some 2,true⟩⟩,⟨35,.other,false,some ⟨8,[.setEnt .internalNl,.cb,.code],none,false⟩⟩,⟨39,.other,false,some ⟨8,[.setEnt .internalNl,.cb,.code],none,false⟩⟩,⟨60,.other,false,some ⟨8,[.setEnt .internalNl,.cb,.code],none,false⟩⟩,⟨62,.other,false,some ⟨8,[.setEnt .internalNl,.cb,.code],none,false⟩⟩,⟨92,.other,false,some ⟨14,[.setEnt .internalNl,.cb],none,false⟩⟩]⟩,⟨[41],none,[],[⟨256,.other,false,some ⟨8,[.setEnt .internalNl,.cb,.code],none,false⟩⟩,⟨256,.ws,false,some ⟨9,[.setEnt .internalNl,.cb],none,false⟩⟩,⟨256,.lf,false,some ⟨10,[.setEnt .internalNl,.cb],none,false⟩⟩,⟨256,.vt,false,some ⟨8,[.setEnt .internalNl,.cb,.code],none,false⟩⟩,⟨256,.ff,false,some ⟨11,[.setEnt .internalNl,.cb],none,false⟩⟩,⟨256,.cr,false,some ⟨12,[.setEnt .internalNl,.cb],none,false⟩⟩,⟨256,.cr,true,some ⟨13,[.setEnt .internalNl,.cb],none,false⟩⟩,⟨34,.other,false,some ⟨0,[.setEnt .internalNl,.cb,.commit],some 2,true⟩⟩,⟨35,.other,false,some ⟨8,[.setEnt .internalNl,.cb,.code],none,false⟩⟩,⟨39,.other,false,some ⟨8,[.setEnt .internalNl,.cb,.code],none,false⟩⟩,⟨60,.other,false,some ⟨8,[.setEnt .internalNl,.cb,.code],none,false⟩⟩,⟨62,.other,false,some ⟨8,[.setEnt .internalNl,.cb,.code],none,false⟩⟩,⟨92,.other,false,some ⟨14,[.setEnt .internalNl,.cb],none,false⟩⟩]⟩,⟨[38],none,[],[⟨256,.other,false,none⟩,⟨256,.ws,false,none⟩,⟨256,.lf,false,some ⟨45,[],none,false⟩⟩,⟨256,.vt,false,none⟩,⟨256,.ff,false,none⟩,⟨256,.cr,false,none⟩,⟨256,.cr,true,none⟩,⟨34,.other,false,none⟩,⟨35,.other,false,none⟩,⟨39,.other,false,none⟩,⟨60,.other,false,none⟩,⟨62,.other,false,none⟩,⟨92,.other,false,none⟩]⟩,⟨[38,42],none,[],[⟨256,.other,false,some ⟨8,[.setEnt .internalNl,.cb,.code],none,false⟩⟩,⟨256,.ws,false,some ⟨9,[.setEnt .internalNl,.cb],none,false⟩⟩,⟨256,.lf,false,some ⟨46,[.setEnt .internalNl,.cb],none,false⟩⟩,⟨256,.vt,false,some ⟨8,[.setEnt .internalNl,.cb,.code],none,false⟩⟩,⟨256,.ff,false,some ⟨11,[.setEnt .internalNl,.cb],none,false⟩⟩,⟨256,.cr,false,some ⟨12,[.setEnt .internalNl,.cb],none,false⟩⟩,⟨256,.cr,true,some ⟨13,[.setEnt .internalNl,.cb],none,false⟩⟩,⟨34,.other,false,some ⟨0,[.setEnt .internalNl,.cb,.commit],some 2,true⟩⟩,⟨35,.other,false,some ⟨8,[.setEnt .internalNl,.cb,.code],none,false⟩⟩,⟨39,.other,false,some ⟨8,[.setEnt .internalNl,.cb,.code],none,false⟩⟩,⟨60,.other,false,some ⟨8,[.setEnt .internalNl,.cb,.code],none,false⟩⟩,⟨62,.other,false,some ⟨8,[.setEnt .internalNl,.cb,.code],none,false⟩⟩,⟨92,.other,false,some ⟨14,[.setEnt .internalNl,.cb],none,false⟩⟩]⟩,⟨[16],none,[],[⟨256,.other,false,some ⟨16,[.setEnt .internalNl,.cb,.code],none,false⟩⟩,⟨256,.ws,false,some ⟨17,[.setEnt .internalNl,.cb],none,false⟩⟩,⟨256,.lf,false,some ⟨18,[.setEnt .internalNl,.cb],none,false⟩⟩,⟨256,.vt,false,some ⟨16,[.setEnt .internalNl,.cb,.code],none,false⟩⟩,⟨256,.ff,false,some ⟨19,[.setEnt .internalNl,.cb],none,false⟩⟩,⟨256,.cr,false,some ⟨20,[.setEnt .internalNl,.cb],none,false⟩⟩,⟨256,.cr,true,some ⟨21,[.setEnt .internalNl,.cb],none,false⟩⟩,⟨34,.other,false,some ⟨16,[.setEnt .internalNl,.cb,.code],none,false⟩⟩,⟨35,.other,false,some ⟨16,[.setEnt .internalNl,.cb,.code],none,false⟩⟩,⟨39,.other,false,some ⟨0,[.setEnt .internalNl,.cb,.commit],some 2,true⟩⟩,⟨60,.other,false,some ⟨16,[.setEnt .internalNl,.cb,.code],none,false⟩⟩,⟨62,.other,false,some ⟨16,[.setEnt .internalNl,.cb,.code],none,false⟩⟩,⟨92,.other,false,some ⟨22,[.setEnt .internalNl,.cb],none,false⟩⟩]⟩,⟨[16,17],none,[],[⟨256,.other,false,some ⟨16,[.setEnt .internalNl,.cb,.code],none,false⟩⟩,⟨256,.ws,false,some ⟨17,[.setEnt .internalNl,.cb],none,false⟩⟩,⟨256,.lf,false,some ⟨18,[.setEnt .internalNl,.cb],none,false⟩⟩,⟨256,.vt,false,some ⟨16,[.setEnt .internalNl,.cb,.code],none,false⟩⟩,⟨256,.ff,false,some ⟨19,[.setEnt .internalNl,.cb],none,false⟩⟩,⟨256,.cr,false,some ⟨20,[.setEnt .internalNl,.cb],none,false⟩⟩,⟨256,.cr,true,some ⟨21,[.setEnt .internalNl,.cb],none,false⟩⟩,⟨34,.other,false,some ⟨16,[.setEnt .internalNl,.cb,.code],none,false⟩⟩,⟨35,.other,false,some ⟨16,[.setEnt .internalNl,.cb,.code],none,false⟩⟩,⟨39,.other,false,some ⟨0,[.setEnt .internalNl,.cb,.commit],some 2,true⟩⟩,⟨60,.other,false,some ⟨16,[.setEnt .internalNl,.cb,.code],none,false⟩⟩,⟨62,.other,false,some ⟨16,[.setEnt .internalNl,.cb,.code],none,false⟩⟩,⟨92,.other,false,some ⟨22,[.setEnt .internalNl,.cb],none,false⟩⟩]⟩,⟨[29],none,[],[⟨256,.other,false,some ⟨16,[.code],none,false⟩⟩,⟨256,.ws,false,some ⟨17,[],none,false⟩⟩,⟨256,.lf,false,some ⟨18,[],none,false⟩⟩,⟨256,.vt,false,some ⟨16,[.code],none,false⟩⟩,⟨256,.ff,false,some ⟨19,[],none,false⟩⟩,⟨256,.cr,false,some ⟨20,[],none,false⟩⟩,⟨256,.cr,true,some ⟨21,[],none,false⟩⟩,⟨34,.other,false,some ⟨16,[.code],none,false⟩⟩,⟨35,.other,false,some ⟨16,[.code],none,false⟩⟩,⟨39,.other,false,some ⟨0,[.commit],some 2,true⟩⟩,⟨60,.other,false,some ⟨16,[.code],none,false⟩⟩,⟨62,.other,false,some ⟨16,[.code],none,false⟩⟩,⟨92,.other,false,some ⟨22,[],none,false⟩⟩]⟩,⟨[23],none,[],[⟨256,.other,false,some ⟨16,[.setEnt .internalNl,.cb,.code],none,false⟩⟩,⟨256,.ws,false,some ⟨17,[.setEnt .internalNl,.cb],none,false⟩⟩,⟨256,.lf,false,some ⟨18,[.setEnt .internalNl,.cb],none,false⟩⟩,⟨256,.vt,false,some ⟨16,[.setEnt .internalNl,.cb,.code],none,false⟩⟩,⟨256,.ff,false,some ⟨19,[.setEnt .internalNl,.cb],none,false⟩⟩,⟨256,.cr,false,some ⟨20,[.setEnt .internalNl,.cb],none,false⟩⟩,⟨256,.cr,true,some ⟨21,[.setEnt .internalNl,.cb],none,false⟩⟩,⟨34,.other,false,some ⟨16,[.setEnt .internalNl,.cb,.code],none,false⟩⟩,⟨35,.other,false,some ⟨16,[.setEnt .internalNl,.cb,.code],none,false⟩⟩,⟨39,.other,false,some ⟨0,[.setEnt .internalNl,.cb,.commit],some 2,true⟩⟩,⟨60,.other,false,some ⟨16,[.setEnt .internalNl,.cb,.code],none,false⟩⟩,⟨62,.other,false,some ⟨16,[.setEnt .internalNl,.cb,.code],none,false⟩⟩,⟨92,.other,false,some ⟨22,[.setEnt .internalNl,.cb],none,false⟩⟩]⟩,⟨[24],none,[],[⟨256,.other,false,some ⟨16,[.setEnt .internalNl,.cb,.code],none,false⟩⟩,⟨256,.ws,false,some ⟨17,[.setEnt .internalNl,.cb],none,false⟩⟩,⟨256,.lf,false,some ⟨18,[.setEnt .internalNl,.cb],none,false⟩⟩,⟨256,.vt,false,some ⟨16,[.setEnt .internalNl,.cb,.code],none,false⟩⟩,⟨256,.ff,false,some ⟨19,[.setEnt .internalNl,.cb],none,false⟩⟩,⟨256,.cr,false,some ⟨20,[.setEnt .internalNl,.cb],none,false⟩⟩,⟨256,.cr,true,some ⟨21,[.setEnt .internalNl,.cb],none,false⟩⟩,⟨34,.other,false,some ⟨16,[.setEnt .internalNl,.cb,.code],none,false⟩⟩,⟨35,.other,false,some ⟨16,[.setEnt .internalNl,.cb,.code],none,false⟩⟩,⟨39,.other,false,some ⟨0,[.setEnt .internalNl,.cb,.commit],some 2,true⟩⟩,⟨60,.other,false,some ⟨16,[.setEnt .internalNl,.cb,.code],none,false⟩⟩,⟨62,.other,false,some ⟨16,[.setEnt .internalNl,.cb,.code],none,false⟩⟩,⟨92,.other,false,some ⟨22,[.setEnt .internalNl,.cb],none,false⟩⟩]⟩,⟨[21],none,[],[⟨256,.other,false,none⟩,⟨256,.ws,false,none⟩,⟨256,.lf,false,some ⟨47,[],none,false⟩⟩,⟨256,.vt,false,none⟩,⟨256,.ff,false,none⟩,⟨256,.cr,false,none⟩,⟨256,.cr,true,none⟩,⟨34,.other,false,none⟩,⟨35,.other,false,none⟩,⟨39,.other,false,none⟩,⟨60,.other,false,none⟩,⟨62,.other,false,none⟩,⟨92,.other,false,none⟩]⟩,⟨[21,25],none,[],[⟨256,.other,false,some ⟨16,[.setEnt .internalNl,.cb,.code],none,false⟩⟩,⟨256,.ws,false,some ⟨17,[.setEnt .internalNl,.cb],none,false⟩⟩,⟨256,.lf,false,some ⟨48,[.setEnt .internalNl,.cb],none,false⟩⟩,⟨256,.vt,false,some ⟨16,[.setEnt .internalNl,.cb,.code],none,false⟩⟩,⟨256,.ff,false,some ⟨19,[.setEnt .internalNl,.cb],none,false⟩⟩,⟨256,.cr,false,some ⟨20,[.setEnt .internalNl,.cb],none,false⟩⟩,⟨256,.cr,true,some ⟨21,[.setEnt .internalNl,.cb],none,false⟩⟩,⟨34,.other,false,some ⟨16,[.setEnt .internalNl,.cb,.code],none,false⟩⟩,⟨35,.other,false,some ⟨16,[.setEnt .internalNl,.cb,.code],none,false⟩⟩,⟨39,.other,false,some ⟨0,[.setEnt .internalNl,.cb,.commit],some 2,true⟩⟩,⟨60,.other,false,some ⟨16,[.setEnt .internalNl,.cb,.code],none,false⟩⟩,⟨62,.other,false,some ⟨16,[.setEnt .internalNl,.cb,.code],none,false⟩⟩,⟨92,.other,false,some ⟨22,[.setEnt .internalNl,.cb],none,false⟩⟩]⟩,⟨[11],none,[],[⟨256,.other,false,some ⟨38,[.comment],none,false⟩⟩,⟨256,.ws,false,some ⟨39,[],none,false⟩⟩,⟨256,.lf,false,some ⟨40,[],none,false⟩⟩,⟨256,.vt,false,some ⟨38,[.comment],none,false⟩⟩,⟨256,.ff,false,some ⟨41,[],none,false⟩⟩,⟨256,.cr,false,some ⟨42,[],none,false⟩⟩,⟨256,.cr,true,some ⟨43,[],none,false⟩⟩,⟨34,.other,false,some ⟨38,[.comment],none,false⟩⟩,⟨35,.other,false,some ⟨44,[.comment],none,false⟩⟩,⟨39,.other,false,some ⟨38,[.comment],none,false⟩⟩,⟨60,.other,false,some ⟨38,[.comment],none,false⟩⟩,⟨62,.other,false,some ⟨38,[.comment],none,false⟩⟩,⟨92,.other,false,some ⟨38,[.comment],none,false⟩⟩]⟩,⟨[10],none,[],[⟨256,.other,false,some ⟨38,[.comment],none,false⟩⟩,⟨256,.ws,false,some ⟨39,[],none,false⟩⟩,⟨256,.lf,false,some ⟨40,[],none,false⟩⟩,⟨256,.vt,false,some ⟨38,[.comment],none,false⟩⟩,⟨256,.ff,false,some ⟨41,[],none,false⟩⟩,⟨256,.cr,false,some ⟨42,[],none,false⟩⟩,⟨256,.cr,true,some ⟨43,[],none,false⟩⟩,⟨34,.other,false,some ⟨38,[.comment],none,false⟩⟩,⟨35,.other,false,some ⟨44,[.comment],none,false⟩⟩,⟨39,.other,false,some ⟨38,[.comment],none,false⟩⟩,⟨60,.other,false,some ⟨38,[.comment],none,false⟩⟩,⟨62,.other,false,some ⟨38,[.comment],none,false⟩⟩,⟨92,.other,false,some ⟨38,[.comment],none,false⟩⟩]⟩,⟨[7],none,[],[⟨256,.other,false,some ⟨38,[.setEnt .internalNl,.cb,.comment],none,false⟩⟩,⟨256,.ws,false,some ⟨39,[.setEnt .internalNl,.cb],none,false⟩⟩,⟨256,.lf,false,some ⟨40,[.setEnt .internalNl,.cb],none,false⟩⟩,⟨256,.vt,false,some ⟨38,[.setEnt .internalNl,.cb,.comment],none,false⟩⟩,⟨256,.ff,false,some ⟨41,[.setEnt .internalNl,.cb],none,false⟩⟩,⟨256,.cr,false,some ⟨42,[.setEnt .internalNl,.cb],none,false⟩⟩,⟨256,.cr,true,some ⟨43,[.setEnt .internalNl,.cb],none,false⟩⟩,⟨34,.other,false,some ⟨38,[.setEnt .internalNl,.cb,.comment],none,false⟩⟩,⟨35,.other,false,some ⟨44,[.setEnt .internalNl,.cb,.comment],none,false⟩⟩,⟨39,.other,false,some ⟨38,[.setEnt .internalNl,.cb,.comment],none,false⟩⟩,⟨60,.other,false,some ⟨38,[.setEnt .internalNl,.cb,.comment],none,false⟩⟩,⟨62,.other,false,some ⟨38,[.setEnt .internalNl,.cb,.comment],none,false⟩⟩,⟨92,.other,false,some ⟨38,[.setEnt .internalNl,.cb,.comment],none,false⟩⟩]⟩,⟨[8],none,[],[⟨256,.other,false,some ⟨38,[.setEnt .internalNl,.cb,.comment],none,false⟩⟩,⟨256,.ws,false,some ⟨39,[.setEnt .internalNl,.cb],none,false⟩⟩,⟨256,.lf,false,some ⟨40,[.setEnt .internalNl,.cb],none,false⟩⟩,⟨256,.vt,false,some ⟨38,[.setEnt .internalNl,.cb,.comment],none,false⟩⟩,⟨256,.ff,false,some ⟨41,[.setEnt .internalNl,.cb],none,false⟩⟩,⟨256,.cr,false,some ⟨42,[.setEnt .internalNl,.cb],none,false⟩⟩,⟨256,.cr,true,some ⟨43,[.setEnt .internalNl,.cb],none,false⟩⟩,⟨34,.other,false,some ⟨38,[.setEnt .internalNl,.cb,.comment],none,false⟩⟩,⟨35,.other,false,some ⟨44,[.setEnt .internalNl,.cb,.comment],none,false⟩⟩,⟨39,.other,false,some ⟨38,[.setEnt .internalNl,.cb,.comment],none,false⟩⟩,⟨60,.other,false,some ⟨38,[.setEnt .internalNl,.cb,.comment],none,false⟩⟩,⟨62,.other,false,some ⟨38,[.setEnt .internalNl,.cb,.comment],none,false⟩⟩,⟨92,.other,false,some ⟨38,[.setEnt .internalNl,.cb,.comment],none,false⟩⟩]⟩,⟨[5],none,[],[⟨256,.other,false,none⟩,⟨256,.ws,false,none⟩,⟨256,.lf,false,some ⟨49,[],none,false⟩⟩,⟨256,.vt,false,none⟩,⟨256,.ff,false,none⟩,⟨256,.cr,false,none⟩,⟨256,.cr,true,none⟩,⟨34,.other,false,none⟩,⟨35,.other,false,none⟩,⟨39,.other,false,none⟩,⟨60,.other,false,none⟩,⟨62,.other,false,none⟩,⟨92,.other,false,none⟩]⟩,⟨[5,9],none,[],[⟨256,.other,false,some ⟨38,[.setEnt .internalNl,.cb,.comment],none,false⟩⟩,⟨256,.ws,false,some ⟨39,[.setEnt .internalNl,.cb],none,false⟩⟩,⟨256,.lf,false,some ⟨50,[.setEnt .internalNl,.cb],none,false⟩⟩,⟨256,.vt,false,some ⟨38,[.setEnt .internalNl,.cb,.comment],none,false⟩⟩,⟨256,.ff,false,some ⟨41,[.setEnt .internalNl,.cb],none,false⟩⟩,⟨256,.cr,false,some ⟨42,[.setEnt .internalNl,.cb],none,false⟩⟩,⟨256,.cr,true,some ⟨43,[.setEnt .internalNl,.cb],none,false⟩⟩,⟨34,.other,false,some ⟨38,[.setEnt .internalNl,.cb,.comment],none,false⟩⟩,⟨35,.other,false,some ⟨44,[.setEnt .internalNl,.cb,.comment],none,false⟩⟩,⟨39,.other,false,some ⟨38,[.setEnt .internalNl,.cb,.comment],none,false⟩⟩,⟨60,.other,false,some ⟨38,[.setEnt .internalNl,.cb,.comment],none,false⟩⟩,⟨62,.other,false,some ⟨38,[.setEnt .internalNl,.cb,.comment],none,false⟩⟩,⟨92,.other,false,some ⟨38,[.setEnt .internalNl,.cb,.comment],none,false⟩⟩]⟩,⟨[11,12],none,[],[⟨256,.other,false,some ⟨38,[.comment],none,false⟩⟩,⟨256,.ws,false,some ⟨39,[],none,false⟩⟩,⟨256,.lf,false,some ⟨40,[],none,false⟩⟩,⟨256,.vt,false,some ⟨38,[.comment],none,false⟩⟩,⟨256,.ff,false,some ⟨41,[],none,false⟩⟩,⟨256,.cr,false,some ⟨42,[],none,false⟩⟩,⟨256,.cr,true,some ⟨43,[],none,false⟩⟩,⟨34,.other,false,some ⟨38,[.comment],none,false⟩⟩,⟨35,.other,false,some ⟨44,[.comment],none,false⟩⟩,⟨39,.other,false,some ⟨38,[.comment],none,false⟩⟩,⟨60,.other,false,some ⟨38,[.comment],none,false⟩⟩,⟨62,.other,false,some ⟨0,[],some 1,true⟩⟩,⟨92,.other,false,some ⟨38,[.comment],none,false⟩⟩]⟩,⟨[39],none,[],[⟨256,.other,false,some ⟨8,[.setEnt .internalNl,.cb,.code],none,false⟩⟩,⟨256,.ws,false,some ⟨9,[.setEnt .internalNl,.cb],none,false⟩⟩,⟨256,.lf,false,some ⟨10,[.setEnt .internalNl,.cb],none,false⟩⟩,⟨256,.vt,false,some ⟨8,[.setEnt .internalNl,.cb,.code],none,false⟩⟩,⟨256,.ff,false,some ⟨11,[.setEnt .internalNl,.cb],none,false⟩⟩,⟨256,.cr,false,some ⟨12,[.setEnt .internalNl,.cb],none,false⟩⟩,⟨256,.cr,true,some ⟨13,[.setEnt .internalNl,.cb],none,false⟩⟩,⟨34,.other,false,some ⟨0,[.setEnt .internalNl,.cb,.commit],some 2,true⟩⟩,⟨35,.other,false,some ⟨8,[.setEnt .internalNl,.cb,.code],none,false⟩⟩,⟨39,.other,false,some ⟨8,[.setEnt .internalNl,.cb,.code],none,false⟩⟩,⟨60,.other,false,some ⟨8,[.setEnt .internalNl,.cb,.code],none,false⟩⟩,⟨62,.other,false,some ⟨8,[.setEnt .internalNl,.cb,.code],none,false⟩⟩,⟨92,.other,false,some ⟨14,[.setEnt .internalNl,.cb],none,false⟩⟩]⟩,⟨[34,39],none,[],[⟨256,.other,false,some ⟨8,[.setEnt .internalNl,.cb,.code],none,false⟩⟩,⟨256,.ws,false,some ⟨9,[.setEnt .internalNl,.cb],none,false⟩⟩,⟨256,.lf,false,some ⟨10,[.setEnt .internalNl,.cb],none,false⟩⟩,⟨256,.vt,false,some ⟨8,[.setEnt .internalNl,.cb,.code],none,false⟩⟩,⟨256,.ff,false,some ⟨11,[.setEnt .internalNl,.cb],none,false⟩⟩,⟨256,.cr,false,some ⟨12,[.setEnt .internalNl,.cb],none,false⟩⟩,⟨256,.cr,true,some ⟨13,[.setEnt .internalNl,.cb],none,false⟩⟩,⟨34,.other,false,some ⟨0,[.setEnt .internalNl,.cb,.commit],some 2,true⟩⟩,⟨35,.other,false,some ⟨8,[.setEnt .internalNl,.cb,.code],none,false⟩⟩,⟨39,.other,false,some ⟨8,[.setEnt .internalNl,.cb,.code],none,false⟩⟩,⟨60,.other,false,some ⟨8,[.setEnt .internalNl,.cb,.code],none,false⟩⟩,⟨62,.other,false,some ⟨8,[.setEnt .internalNl,.cb,.code],none,false⟩⟩,⟨92,.other,false,some ⟨14,[.setEnt .internalNl,.cb],none,false⟩⟩]⟩,⟨[22],none,[],[⟨256,.other,false,some ⟨16,[.setEnt .internalNl,.cb,.code],none,false⟩⟩,⟨256,.ws,false,some ⟨17,[.setEnt .internalNl,.cb],none,false⟩⟩,⟨256,.lf,false,some ⟨18,[.setEnt .internalNl,.cb],none,false⟩⟩,⟨256,.vt,false,some ⟨16,[.setEnt .internalNl,.cb,.code],none,false⟩⟩,⟨256,.ff,false,some ⟨19,[.setEnt .internalNl,.cb],none,false⟩⟩,⟨256,.cr,false,some ⟨20,[.setEnt .internalNl,.cb],none,false⟩⟩,⟨256,.cr,true,some ⟨21,[.setEnt .internalNl,.cb],none,false⟩⟩,⟨34,.other,false,some ⟨16,[.setEnt .internalNl,.cb,.code],none,false⟩⟩,⟨35,.other,false,some ⟨16,[.setEnt .internalNl,.cb,.code],none,false⟩⟩,⟨39,.other,false,some ⟨0,[.setEnt .internalNl,.cb,.commit],some 2,true⟩⟩,⟨60,.other,false,some ⟨16,[.setEnt .internalNl,.cb,.code],none,false⟩⟩,⟨62,.other,false,some ⟨16,[.setEnt .internalNl,.cb,.code],none,false⟩⟩,⟨92,.other,false,some ⟨22,[.setEnt .internalNl,.cb],none,false⟩⟩]⟩,⟨[17,22],none,[],[⟨256,.other,false,some ⟨16,[.setEnt .internalNl,.cb,.code],none,false⟩⟩,⟨256,.ws,false,some ⟨17,[.setEnt .internalNl,.cb],none,false⟩⟩,⟨256,.lf,false,some ⟨18,[.setEnt .internalNl,.cb],none,false⟩⟩,⟨256,.vt,false,some ⟨16,[.setEnt .internalNl,.cb,.code],none,false⟩⟩,⟨256,.ff,false,some ⟨19,[.setEnt .internalNl,.cb],none,false⟩⟩,⟨256,.cr,false,some ⟨20,[.setEnt .internalNl,.cb],none,false⟩⟩,⟨256,.cr,true,some ⟨21,[.setEnt .internalNl,.cb],none,false⟩⟩,⟨34,.other,false,some ⟨16,[.setEnt .internalNl,.cb,.code],none,false⟩⟩,⟨35,.other,false,some ⟨16,[.setEnt .internalNl,.cb,.code],none,false⟩⟩,⟨39,.other,false,some ⟨0,[.setEnt .internalNl,.cb,.commit],some 2,true⟩⟩,⟨60,.other,false,some ⟨16,[.setEnt .internalNl,.cb,.code],none,false⟩⟩,⟨62,.other,false,some ⟨16,[.setEnt .internalNl,.cb,.code],none,false⟩⟩,⟨92,.other,false,some ⟨22,[.setEnt .internalNl,.cb],none,false⟩⟩]⟩,⟨[6],none,[],[⟨256,.other,false,some ⟨38,[.setEnt .internalNl,.cb,.comment],none,false⟩⟩,⟨256,.ws,false,some ⟨39,[.setEnt .internalNl,.cb],none,false⟩⟩,⟨256,.lf,false,some ⟨40,[.setEnt .internalNl,.cb],none,false⟩⟩,⟨256,.vt,false,some ⟨38,[.setEnt .internalNl,.cb,.comment],none,false⟩⟩,⟨256,.ff,false,some ⟨41,[.setEnt .internalNl,.cb],none,false⟩⟩,⟨256,.cr,false,some ⟨42,[.setEnt .internalNl,.cb],none,false⟩⟩,⟨256,.cr,true,some ⟨43,[.setEnt .internalNl,.cb],none,false⟩⟩,⟨34,.other,false,some ⟨38,[.setEnt .internalNl,.cb,.comment],none,false⟩⟩,⟨35,.other,false,some ⟨44,[.setEnt .internalNl,.cb,.comment],none,false⟩⟩,⟨39,.other,false,some ⟨38,[.setEnt .internalNl,.cb,.comment],none,false⟩⟩,⟨60,.other,false,some ⟨38,[.setEnt .internalNl,.cb,.comment],none,false⟩⟩,⟨62,.other,false,some ⟨38,[.setEnt .internalNl,.cb,.comment],none,false⟩⟩,⟨92,.other,false,some ⟨38,[.setEnt .internalNl,.cb,.comment],none,false⟩⟩]⟩,⟨[6,7],none,[],[⟨256,.other,false,some ⟨38,[.setEnt .internalNl,.cb,.comment],none,false⟩⟩,⟨256,.ws,false,some ⟨39,[.setEnt .internalNl,.cb],none,false⟩⟩,⟨256,.lf,false,some ⟨40,[.setEnt .internalNl,.cb],none,false⟩⟩,⟨256,.vt,false,some ⟨38,[.setEnt .internalNl,.cb,.comment],none,false⟩⟩,⟨256,.ff,false,some ⟨41,[.setEnt .internalNl,.cb],none,false⟩⟩,⟨256,.cr,false,some ⟨42,[.setEnt .internalNl,.cb],none,false⟩⟩,⟨256,.cr,true,some ⟨43,[.setEnt .internalNl,.cb],none,false⟩⟩,⟨34,.other,false,some ⟨38,[.setEnt .internalNl,.cb,.comment],none,false⟩⟩,⟨35,.other,false,some ⟨44,[.setEnt .internalNl,.cb,.comment],none,false⟩⟩,⟨39,.other,false,some ⟨38,[.setEnt .internalNl,.cb,.comment],none,false⟩⟩,⟨60,.other,false,some ⟨38,[.setEnt .internalNl,.cb,.comment],none,false⟩⟩,⟨62,.other,false,some ⟨38,[.setEnt .internalNl,.cb,.comment],none,false⟩⟩,⟨92,.other,false,some ⟨38,[.setEnt .internalNl,.cb,.comment],none,false⟩⟩]⟩]
theorem powershell_line_lrowsOk : rowsOk powershell_line_nfa powershell_line_lex.rel (powershell_line_lcs.map (·.1)) powershell_line_lrows = true := by decide +kernel
def powershell_line_lfr : List CA.FRow := [⟨true,none,[],[⟨256,.other,false,false,none,some ([.setEnt (.own 3)],(some 4,true))⟩,⟨9,.ws,false,false,some 1,some ([.setEnt (.own 0)],(some 0,false))⟩,⟨10,.lf,false,true,none,some ([.setEnt .newline],(some 3,true))⟩,⟨11,.vt,false,false,none,none⟩,⟨12,.ff,false,true,none,some ([.setEnt .newline],(some 3,true))⟩,⟨13,.cr,false,false,some 2,some ([.setEnt .newline],(none,false))⟩,⟨13,.cr,true,true,some 3,some ([.setEnt .newline],(some 3,false))⟩,⟨34,.other,false,false,some 4,some ([.enqueue,.code,.setEnt (.own 3)],(some 4,false))⟩,⟨35,.other,false,false,some 5,some ([.comment,.setEnt (.own 3)],(some 1,false))⟩,⟨39,.other,false,false,some 6,some ([.enqueue,.code,.setEnt (.own 3)],(some 4,false))⟩,⟨60,.other,false,false,some 7,some ([.setEnt (.own 3)],(some 4,false))⟩,⟨62,.other,false,false,none,some ([.setEnt (.own 3)],(some 4,true))⟩,⟨92,.other,false,false,none,some ([.setEnt (.own 3)],(some 4,true))⟩]⟩,⟨false,some 0,[],[⟨256,.other,false,false,none,none⟩,⟨9,.ws,false,false,some 1,some ([.setEnt (.own 0)],(some 0,false))⟩,⟨10,.lf,false,true,none,none⟩,⟨11,.vt,false,false,none,none⟩,⟨12,.ff,false,true,none,none⟩,⟨13,.cr,false,false,none,none⟩,⟨13,.cr,true,true,none,none⟩,⟨34,.other,false,false,none,none⟩,⟨35,.other,false,false,none,none⟩,⟨39,.other,false,false,none,none⟩,⟨60,.other,false,false,none,none⟩,⟨62,.other,false,false,none,none⟩,⟨92,.other,false,false,none,none⟩]⟩,⟨false,none,[],[⟨256,.other,false,false,none,none⟩,⟨9,.ws,false,false,none,none⟩,⟨10,.lf,false,true,none,some ([.setEnt .newline],(some 3,true))⟩,⟨11,.vt,false,false,none,none⟩,⟨12,.ff,false,true,none,none⟩,⟨13,.cr,false,false,none,none⟩,⟨13,.cr,true,true,none,none⟩,⟨34,.other,false,false,none,none⟩,⟨35,.other,false,false,none,none⟩,⟨39,.other,false,false,none,none⟩,⟨60,.other,false,false,none,none⟩,⟨62,.other,false,false,none,none⟩,⟨92,.other,false,false,none,none⟩]⟩,⟨false,some 3,[],[⟨256,.other,false,false,none,none⟩,⟨9,.ws,false,false,none,none⟩,⟨10,.lf,false,true,none,some ([.setEnt .newline],(some 3,true))⟩,⟨11,.vt,false,false,none,none⟩,⟨12,.ff,false,true,none,none⟩,⟨13,.cr,false,false,none,none⟩,⟨13,.cr,true,true,none,none⟩,⟨34,.other,false,false,none,none⟩,⟨35,.other,false,false,none,none⟩,⟨39,.other,false,false,none,none⟩,⟨60,.other,false,false,none,none⟩,⟨62,.other,false,false,none,none⟩,⟨92,.other,false,false,none,none⟩]⟩,⟨false,some 4,[],[⟨256,.other,false,false,some 8,some ([.code],(none,false))⟩,⟨9,.ws,false,false,some 9,some ([],(none,false))⟩,⟨10,.lf,false,true,some 10,some ([],(none,false))⟩,⟨11,.vt,false,false,some 8,some ([.code],(none,false))⟩,⟨12,.ff,false,true,some 11,some ([],(none,false))⟩,⟨13,.cr,false,false,some 12,some ([],(none,false))⟩,⟨13,.cr,true,true,some 13,some ([],(none,false))⟩,⟨34,.other,false,false,none,some ([.commit],(some 2,true))⟩,⟨35,.other,false,false,some 8,some ([.code],(none,false))⟩,⟨39,.other,false,false,some 8,some ([.code],(none,false))⟩,⟨60,.other,false,false,some 8,some ([.code],(none,false))⟩,⟨62,.other,false,false,some 8,some ([.code],(none,false))⟩,⟨92,.other,false,false,some 14,some ([],(none,false))⟩]⟩,⟨false,some 1,[],[⟨256,.other,false,false,some 15,some ([],(some 1,false))⟩,⟨9,.ws,false,false,some 15,some ([],(some 1,false))⟩,⟨10,.lf,false,true,none,none⟩,⟨11,.vt,false,false,some 15,some ([],(some 1,false))⟩,⟨12,.ff,false,true,none,none⟩,⟨13,.cr,false,false,none,none⟩,⟨13,.cr,true,true,none,none⟩,⟨34,.other,false,false,some 15,some ([],(some 1,false))⟩,⟨35,.other,false,false,some 15,some ([],(some 1,false))⟩,⟨39,.other,false,false,some 15,some ([],(some 1,false))⟩,⟨60,.other,false,false,some 15,some ([],(some 1,false))⟩,⟨62,.other,false,false,some 15,some ([],(some 1,false))⟩,⟨92,.other,false,false,some 15,some ([],(some 1,false))⟩]⟩,⟨false,some 4,[],[⟨256,.other,false,false,some 16,some ([.code],(none,false))⟩,⟨9,.ws,false,false,some 17,some ([],(none,false))⟩,⟨10,.lf,false,true,some 18,some ([],(none,false))⟩,⟨11,.vt,false,false,some 16,some ([.code],(none,false))⟩,⟨12,.ff,false,true,some 19,some ([],(none,false))⟩,⟨13,.cr,false,false,some 20,some ([],(none,false))⟩,⟨13,.cr,true,true,some 21,some ([],(none,false))⟩,⟨34,.other,false,false,some 16,some ([.code],(none,false))⟩,⟨35,.other,false,false,some 16,some ([.code],(none,false))⟩,⟨39,.other,false,false,none,some ([.commit],(some 2,true))⟩,⟨60,.other,false,false,some 16,some ([.code],(none,false))⟩,⟨62,.other,false,false,some 16,some ([.code],(none,false))⟩,⟨92,.other,false,false,some 22,some ([],(none,false))⟩]⟩,⟨false,some 4,[],[⟨256,.other,false,false,none,none⟩,⟨9,.ws,false,false,none,none⟩,⟨10,.lf,false,true,none,none⟩,⟨11,.vt,false,false,none,none⟩,⟨12,.ff,false,true,none,none⟩,⟨13,.cr,false,false,none,none⟩,⟨13,.cr,true,true,none,none⟩,⟨34,.other,false,false,none,none⟩,⟨35,.other,false,false,some 23,some ([.comment],(none,false))⟩,⟨39,.other,false,false,none,none⟩,⟨60,.other,false,false,none,none⟩,⟨62,.other,false,false,none,none⟩,⟨92,.other,false,false,none,none⟩]⟩,⟨false,none,[],[⟨256,.other,false,false,some 8,some ([.code],(none,false))⟩,⟨9,.ws,false,false,some 9,some ([],(none,false))⟩,⟨10,.lf,false,true,some 10,some ([],(none,false))⟩,⟨11,.vt,false,false,some 8,some ([.code],(none,false))⟩,⟨12,.ff,false,true,some 11,some ([],(none,false))⟩,⟨13,.cr,false,false,some 12,some ([],(none,false))⟩,⟨13,.cr,true,true,some 13,some ([],(none,false))⟩,⟨34,.other,false,false,none,some ([.commit],(some 2,true))⟩,⟨35,.other,false,false,some 8,some ([.code],(none,false))⟩,⟨39,.other,false,false,some 8,some ([.code],(none,false))⟩,⟨60,.other,false,false,some 8,some ([.code],(none,false))⟩,⟨62,.other,false,false,some 8,some ([.code],(none,false))⟩,⟨92,.other,false,false,some 14,some ([],(none,false))⟩]⟩,⟨false,none,[],[⟨256,.other,false,false,some 8,some ([.code],(none,false))⟩,⟨9,.ws,false,false,some 9,some ([],(none,false))⟩,⟨10,.lf,false,true,some 10,some ([],(none,false))⟩,⟨11,.vt,false,false,some 8,some ([.code],(none,false))⟩,⟨12,.ff,false,true,some 11,some ([],(none,false))⟩,⟨13,.cr,false,false,some 12,some ([],(none,false))⟩,⟨13,.cr,true,true,some 13,some ([],(none,false))⟩,⟨34,.other,false,false,none,some ([.commit],(some 2,true))⟩,⟨35,.other,false,false,some 8,some ([.code],(none,false))⟩,⟨39,.other,false,false,some 8,some ([.code],(none,false))⟩,⟨60,.other,false,false,some 8,some ([.code],(none,false))⟩,⟨62,.other,false,false,some 8,some ([.code],(none,false))⟩,⟨92,.other,false,false,some 14,some ([],(none,false))⟩]⟩,⟨false,none,[],[⟨256,.other,false,false,some 8,some ([.setEnt .internalNl,.cb,.code],(none,false))⟩,⟨9,.ws,false,false,some 9,some ([.setEnt .internalNl,.cb],(none,false))⟩,⟨10,.lf,false,true,some 10,some ([.setEnt .internalNl,.cb],(none,false))⟩,⟨11,.vt,false,false,some 8,some ([.setEnt .internalNl,.cb,.code],(none,false))⟩,⟨12,.ff,false,true,some 11,some ([.setEnt .internalNl,.cb],(none,false))⟩,⟨13,.cr,false,false,some 12,some ([.setEnt .internalNl,.cb],(none,false))⟩,⟨13,.cr,true,true,some 13,some ([.setEnt .internalNl,.cb],(none,false))⟩,⟨34,.other,false,false,none,some ([.setEnt .internalNl,.cb,.commit],(some 2,true))⟩,⟨35,.other,false,false,some 8,some ([.setEnt .internalNl,.cb,.code],(none,false))⟩,⟨39,.other,false,false,some 8,some ([.setEnt .internalNl,.cb,.code],(none,false))⟩,⟨60,.other,false,false,some 8,some ([.setEnt .internalNl,.cb,.code],(none,false))⟩,⟨62,.other,false,false,some 8,some ([.setEnt .internalNl,.cb,.code],(none,false))⟩,⟨92,.other,false,false,some 14,some ([.setEnt .internalNl,.cb],(none,false))⟩]⟩,⟨false,none,[],[⟨256,.other,false,false,some 8,some ([.setEnt .internalNl,.cb,.code],(none,false))⟩,⟨9,.ws,false,false,some 9,some ([.setEnt .internalNl,.cb],(none,false))⟩,⟨10,.lf,false,true,some 10,some ([.setEnt .internalNl,.cb],(none,false))⟩,⟨11,.vt,false,false,some 8,some ([.setEnt .internalNl,.cb,.code],(none,false))⟩,⟨12,.ff,false,true,some 11,some ([.setEnt .internalNl,.cb],(none,false))⟩,⟨13,.cr,false,false,some 12,some ([.setEnt .internalNl,.cb],(none,false))⟩,⟨13,.cr,true,true,some 13,some ([.setEnt .internalNl,.cb],(none,false))⟩,⟨34,.other,false,false,none,some ([.setEnt .internalNl,.cb,.commit],(some 2,true))⟩,⟨35,.other,false,false,some 8,some ([.setEnt .internalNl,.cb,.code],(none,false))⟩,⟨39,.other,false,false,some 8,some ([.setEnt .internalNl,.cb,.code],(none,false))⟩,⟨60,.other,false,false,some 8,some ([.setEnt .internalNl,.cb,.code],(none,false))⟩,⟨62,.other,false,false,some 8,some ([.setEnt .internalNl,.cb,.code],(none,false))⟩,⟨92,.other,false,false,some 14,some ([.setEnt .internalNl,.cb],(none,false))⟩]⟩,⟨false,none,[],[⟨256,.other,false,false,none,none⟩,⟨9,.ws,false,false,none,none⟩,⟨10,.lf,false,true,some 24,some ([],(none,false))⟩,⟨11,.vt,false,false,none,none⟩,⟨12,.ff,false,true,none,none⟩,⟨13,.cr,false,false,none,none⟩,⟨13,.cr,true,true,none,none⟩,⟨34,.other,false,false,none,none⟩,⟨35,.other,false,false,none,none⟩,⟨39,.other,false,false,none,none⟩,⟨60,.other,false,false,none,none⟩,⟨62,.other,false,false,none,none⟩,⟨92,.other,false,false,none,none⟩]⟩,⟨false,none,[],[⟨256,.other,false,false,some 8,some ([.setEnt .internalNl,.cb,.code],(none,false))⟩,⟨9,.ws,false,false,some 9,some ([.setEnt .internalNl,.cb],(none,false))⟩,⟨10,.lf,false,true,some 25,some ([.setEnt .internalNl,.cb],(none,false))⟩,⟨11,.vt,false,false,some 8,some ([.setEnt .internalNl,.cb,.code],(none,false))⟩,⟨12,.ff,false,true,some 11,some ([.setEnt .internalNl,.cb],(none,false))⟩,⟨13,.cr,false,false,some 12,some ([.setEnt .internalNl,.cb],(none,false))⟩,⟨13,.cr,true,true,some 13,some ([.setEnt .internalNl,.cb],(none,false))⟩,⟨34,.other,false,false,none,some ([.setEnt .internalNl,.cb,.commit],(some 2,true))⟩,⟨35,.other,false,false,some 8,some ([.setEnt .internalNl,.cb,.code],(none,false))⟩,⟨39,.other,false,false,some 8,some ([.setEnt .internalNl,.cb,.code],(none,false))⟩,⟨60,.other,false,false,some 8,some ([.setEnt .internalNl,.cb,.code],(none,false))⟩,⟨62,.other,false,false,some 8,some ([.setEnt .internalNl,.cb,.code],(none,false))⟩,⟨92,.other,false,false,some 14,some ([.setEnt .internalNl,.cb],(none,false))⟩]⟩,⟨false,none,[],[⟨256,.other,false,false,some 26,some ([.code],(none,false))⟩,⟨9,.ws,false,false,some 26,some ([.code],(none,false))⟩,⟨10,.lf,false,true,some 27,some ([],(none,false))⟩,⟨11,.vt,false,false,some 26,some ([.code],(none,false))⟩,⟨12,.ff,false,true,some 28,some ([],(none,false))⟩,⟨13,.cr,false,false,some 29,some ([],(none,false))⟩,⟨13,.cr,true,true,some 30,some ([],(none,false))⟩,⟨34,.other,false,false,some 26,some ([.code],(none,false))⟩,⟨35,.other,false,false,some 26,some ([.code],(none,false))⟩,⟨39,.other,false,false,some 26,some ([.code],(none,false))⟩,⟨60,.other,false,false,some 26,some ([.code],(none,false))⟩,⟨62,.other,false,false,some 26,some ([.code],(none,false))⟩,⟨92,.other,false,false,some 26,some ([.code],(none,false))⟩]⟩,⟨false,some 1,[],[⟨256,.other,false,false,some 15,some ([],(some 1,false))⟩,⟨9,.ws,false,false,some 15,some ([],(some 1,false))⟩,⟨10,.lf,false,true,none,none⟩,⟨11,.vt,false,false,some 15,some ([],(some 1,false))⟩,⟨12,.ff,false,true,none,none⟩,⟨13,.cr,false,false,none,none⟩,⟨13,.cr,true,true,none,none⟩,⟨34,.other,false,false,some 15,some ([],(some 1,false))⟩,⟨35,.other,false,false,some 15,some ([],(some 1,false))⟩,⟨39,.other,false,false,some 15,some ([],(some 1,false))⟩,⟨60,.other,false,false,some 15,some ([],(some 1,false))⟩,⟨62,.other,false,false,some 15,some ([],(some 1,false))⟩,⟨92,.other,false,false,some 15,some ([],(some 1,false))⟩]⟩,⟨false,none,[],[⟨256,.other,false,false,some 16,some ([.code],(none,false))⟩,⟨9,.ws,false,false,some 17,some ([],(none,false))⟩,⟨10,.lf,false,true,some 18,some ([],(none,false))⟩,⟨11,.vt,false,false,some 16,some ([.code],(none,false))⟩,⟨12,.ff,false,true,some 19,some ([],(none,false))⟩,⟨13,.cr,false,false,some 20,some ([],(none,false))⟩,⟨13,.cr,true,true,some 21,some ([],(none,false))⟩,⟨34,.other,false,false,some 16,some ([.code],(none,false))⟩,⟨35,.other,false,false,some 16,some ([.code],(none,false))⟩,⟨39,.other,false,false,none,some ([.commit],(some 2,true))⟩,⟨60,.other,false,false,some 16,some ([.code],(none,false))⟩,⟨62,.other,false,false,some 16,some ([.code],(none,false))⟩,⟨92,.other,false,false,some 22,some ([],(none,false))⟩]⟩,⟨false,none,[],[⟨256,.other,false,false,some 16,some ([.code],(none,false))⟩,⟨9,.ws,false,false,some 17,some ([],(none,false))⟩,⟨10,.lf,false,true,some 18,some ([],(none,false))⟩,⟨11,.vt,false,false,some 16,some ([.code],(none,false))⟩,⟨12,.ff,false,true,some 19,some ([],(none,false))⟩,⟨13,.cr,false,false,some 20,some ([],(none,false))⟩,⟨13,.cr,true,true,some 21,some ([],(none,false))⟩,⟨34,.other,false,false,some 16,some ([.code],(none,false))⟩,⟨35,.other,false,false,some 16,some ([.code],(none,false))⟩,⟨39,.other,false,false,none,some ([.commit],(some 2,true))⟩,⟨60,.other,false,false,some 16,some ([.code],(none,false))⟩,⟨62,.other,false,false,some 16,some ([.code],(none,false))⟩,⟨92,.other,false,false,some 22,some ([],(none,false))⟩]⟩,⟨false,none,[],[⟨256,.other,false,false,some 16,some ([.setEnt .internalNl,.cb,.code],(none,false))⟩,⟨9,.ws,false,false,some 17,some ([.setEnt .internalNl,.cb],(none,false))⟩,⟨10,.lf,false,true,some 18,some ([.setEnt .internalNl,.cb],(none,false))⟩,⟨11,.vt,false,false,some 16,some ([.setEnt .internalNl,.cb,.code],(none,false))⟩,⟨12,.ff,false,true,some 19,some ([.setEnt .internalNl,.cb],(none,false))⟩,⟨13,.cr,false,false,some 20,some ([.setEnt .internalNl,.cb],(none,false))⟩,⟨13,.cr,true,true,some 21,some ([.setEnt .internalNl,.cb],(none,false))⟩,⟨34,.other,false,false,some 16,some ([.setEnt .internalNl,.cb,.code],(none,false))⟩,⟨35,.other,false,false,some 16,some ([.setEnt .internalNl,.cb,.code],(none,false))⟩,⟨39,.other,false,false,none,some ([.setEnt .internalNl,.cb,.commit],(some 2,true))⟩,⟨60,.other,false,false,some 16,some ([.setEnt .internalNl,.cb,.code],(none,false))⟩,⟨62,.other,false,false,some 16,some ([.setEnt .internalNl,.cb,.code],(none,false))⟩,⟨92,.other,false,false,some 22,some ([.setEnt .internalNl,.cb],(none,false))⟩]⟩,⟨false,none,[],[⟨256,.other,false,false,some 16,some ([.setEnt .internalNl,.cb,.code],(none,false))⟩,⟨9,.ws,false,false,some 17,some ([.setEnt .internalNl,.cb],(none,false))⟩,⟨10,.lf,false,true,some 18,some ([.setEnt .internalNl,.cb],(none,false))⟩,⟨11,.vt,false,false,some 16,some ([.setEnt .internalNl,.cb,.code],(none,false))⟩,⟨12,.ff,false,true,some 19,some ([.setEnt .internalNl,.cb],(none,false))⟩,⟨13,.cr,false,false,some 20,some ([.setEnt .internalNl,.cb],(none,false))⟩,⟨13,.cr,true,true,some 21,some ([.setEnt .internalNl,.cb],(none,false))⟩,⟨34,.other,false,false,some 16,some ([.setEnt .internalNl,.cb,.code],(none,false))⟩,⟨35,.other,false,false,some 16,some ([.setEnt .internalNl,.cb,.code],(none,false))⟩,⟨39,.other,false,false,none,some ([.setEnt .internalNl,.cb,.commit],(some 2,true))⟩,⟨60,.other,false,false,some 16,some ([.setEnt .internalNl,.cb,.code],(none,false))⟩,⟨62,.other,false,false,some 16,some ([.setEnt .internalNl,.cb,.code],(none,false))⟩,⟨92,.other,false,false,some 22,some ([.setEnt .internalNl,.cb],(none,false))⟩]⟩,⟨false,none,[],[⟨256,.other,false,false,none,none⟩,⟨9,.ws,false,false,none,none⟩,⟨10,.lf,false,true,some 31,some ([],(none,false))⟩,⟨11,.vt,false,false,none,none⟩,⟨12,.ff,false,true,none,none⟩,⟨13,.cr,false,false,none,none⟩,⟨13,.cr,true,true,none,none⟩,⟨34,.other,false,false,none,none⟩,⟨35,.other,false,false,none,none⟩,⟨39,.other,false,false,none,none⟩,⟨60,.other,false,false,none,none⟩,⟨62,.other,false,false,none,none⟩,⟨92,.other,false,false,none,none⟩]⟩,⟨false,none,[],[⟨256,.other,false,false,some 16,some ([.setEnt .internalNl,.cb,.code],(none,false))⟩,⟨9,.ws,false,false,some 17,some ([.setEnt .internalNl,.cb],(none,false))⟩,⟨10,.lf,false,true,some 32,some ([.setEnt .internalNl,.cb],(none,false))⟩,⟨11,.vt,false,false,some 16,some ([.setEnt .internalNl,.cb,.code],(none,false))⟩,⟨12,.ff,false,true,some 19,some ([.setEnt .internalNl,.cb],(none,false))⟩,⟨13,.cr,false,false,some 20,some ([.setEnt .internalNl,.cb],(none,false))⟩,⟨13,.cr,true,true,some 21,some ([.setEnt .internalNl,.cb],(none,false))⟩,⟨34,.other,false,false,some 16,some ([.setEnt .internalNl,.cb,.code],(none,false))⟩,⟨35,.other,false,false,some 16,some ([.setEnt .internalNl,.cb,.code],(none,false))⟩,⟨39,.other,false,false,none,some ([.setEnt .internalNl,.cb,.commit],(some 2,true))⟩,⟨60,.other,false,false,some 16,some ([.setEnt .internalNl,.cb,.code],(none,false))⟩,⟨62,.other,false,false,some 16,some ([.setEnt .internalNl,.cb,.code],(none,false))⟩,⟨92,.other,false,false,some 22,some ([.setEnt .internalNl,.cb],(none,false))⟩]⟩,⟨false,none,[],[⟨256,.other,false,false,some 33,some ([.code],(none,false))⟩,⟨9,.ws,false,false,some 33,some ([.code],(none,false))⟩,⟨10,.lf,false,true,some 34,some ([],(none,false))⟩,⟨11,.vt,false,false,some 33,some ([.code],(none,false))⟩,⟨12,.ff,false,true,some 35,some ([],(none,false))⟩,⟨13,.cr,false,false,some 36,some ([],(none,false))⟩,⟨13,.cr,true,true,some 37,some ([],(none,false))⟩,⟨34,.other,false,false,some 33,some ([.code],(none,false))⟩,⟨35,.other,false,false,some 33,some ([.code],(none,false))⟩,⟨39,.other,false,false,some 33,some ([.code],(none,false))⟩,⟨60,.other,false,false,some 33,some ([.code],(none,false))⟩,⟨62,.other,false,false,some 33,some ([.code],(none,false))⟩,⟨92,.other,false,false,some 33,some ([.code],(none,false))⟩]⟩,⟨false,none,[],[⟨256,.other,false,false,some 38,some ([.comment],(none,false))⟩,⟨9,.ws,false,false,some 39,some ([],(none,false))⟩,⟨10,.lf,false,true,some 40,some ([],(none,false))⟩,⟨11,.vt,false,false,some 38,some ([.comment],(none,false))⟩,⟨12,.ff,false,true,some 41,some ([],(none,false))⟩,⟨13,.cr,false,false,some 42,some ([],(none,false))⟩,⟨13,.cr,true,true,some 43,some ([],(none,false))⟩,⟨34,.other,false,false,some 38,some ([.comment],(none,false))⟩,⟨35,.other,false,false,some 44,some ([.comment],(none,false))⟩,⟨39,.other,false,false,some 38,some ([.comment],(none,false))⟩,⟨60,.other,false,false,some 38,some ([.comment],(none,false))⟩,⟨62,.other,false,false,some 38,some ([.comment],(none,false))⟩,⟨92,.other,false,false,some 38,some ([.comment],(none,false))⟩]⟩,⟨false,none,[],[⟨256,.other,false,false,some 8,some ([.setEnt .internalNl,.cb,.code],(none,false))⟩,⟨9,.ws,false,false,some 9,some ([.setEnt .internalNl,.cb],(none,false))⟩,⟨10,.lf,false,true,some 10,some ([.setEnt .internalNl,.cb],(none,false))⟩,⟨11,.vt,false,false,some 8,some ([.setEnt .internalNl,.cb,.code],(none,false))⟩,⟨12,.ff,false,true,some 11,some ([.setEnt .internalNl,.cb],(none,false))⟩,⟨13,.cr,false,false,some 12,some ([.setEnt .internalNl,.cb],(none,false))⟩,⟨13,.cr,true,true,some 13,some ([.setEnt .internalNl,.cb],(none,false))⟩,⟨34,.other,false,false,none,some ([.setEnt .internalNl,.cb,.commit],(some 2,true))⟩,⟨35,.other,false,false,some 8,some ([.setEnt .internalNl,.cb,.code],(none,false))⟩,⟨39,.other,false,false,some 8,some ([.setEnt .internalNl,.cb,.code],(none,false))⟩,⟨60,.other,false,false,some 8,some ([.setEnt .internalNl,.cb,.code],(none,false))⟩,⟨62,.other,false,false,some 8,some ([.setEnt .internalNl,.cb,.code],(none,false))⟩,⟨92,.other,false,false,some 14,some ([.setEnt .internalNl,.cb],(none,false))⟩]⟩,⟨false,none,[],[⟨256,.other,false,false,some 8,some ([.setEnt .internalNl,.cb,.code],(none,false))⟩,⟨9,.ws,false,false,some 9,some ([.setEnt .internalNl,.cb],(none,false))⟩,⟨10,.lf,false,true,some 10,some ([.setEnt .internalNl,.cb],(none,false))⟩,⟨11,.vt,false,false,some 8,some ([.setEnt .internalNl,.cb,.code],(none,false))⟩,⟨12,.ff,false,true,some 11,some ([.setEnt .internalNl,.cb],(none,false))⟩,⟨13,.cr,false,false,some 12,some ([.setEnt .internalNl,.cb],(none,false))⟩,⟨13,.cr,true,true,some 13,some ([.setEnt .internalNl,.cb],(none,false))⟩,⟨34,.other,false,false,none,some ([.setEnt .internalNl,.cb,.commit],(some 2,true))⟩,⟨35,.other,false,false,some 8,some ([.setEnt .internalNl,.cb,.code],(none,false))⟩,⟨39,.other,false,false,some 8,some ([.setEnt .internalNl,.cb,.code],(none,false))⟩,⟨60,.other,false,false,some 8,some ([.setEnt .internalNl,.cb,.code],(none,false))⟩,⟨62,.other,false,false,some 8,some ([.setEnt .internalNl,.cb,.code],(none,false))⟩,⟨92,.other,false,false,some 14,some ([.setEnt .internalNl,.cb],(none,false))⟩]⟩,⟨false,none,[],[⟨256,.other,false,false,some 8,some ([.code],(none,false))⟩,⟨9,.ws,false,false,some 9,some ([],(none,false))⟩,⟨10,.lf,false,true,some 10,some ([],(none,false))⟩,⟨11,.vt,false,false,some 8,some ([.code],(none,false))⟩,⟨12,.ff,false,true,some 11,some ([],(none,false))⟩,⟨13,.cr,false,false,some 12,some ([],(none,false))⟩,⟨13,.cr,true,true,some 13,some ([],(none,false))⟩,⟨34,.other,false,false,none,some ([.commit],(some 2,true))⟩,⟨35,.other,false,false,some 8,some ([.code],(none,false))⟩,⟨39,.other,false,false,some 8,some ([.code],(none,false))⟩,⟨60,.other,false,false,some 8,some ([.code],(none,false))⟩,⟨62,.other,false,false,some 8,some ([.code],(none,false))⟩,⟨92,.other,false,false,some 14,some ([],(none,false))⟩]⟩,⟨false,none,[],[⟨256,.other,false,false,some 8,some ([.setEnt .internalNl,.cb,.code],(none,false))⟩,⟨9,.ws,false,false,some 9,some ([.setEnt .internalNl,.cb],(none,false))⟩,⟨10,.lf,false,true,some 10,some ([.setEnt .internalNl,.cb],(none,false))⟩,⟨11,.vt,false,false,some 8,some ([.setEnt .internalNl,.cb,.code],(none,false))⟩,⟨12,.ff,false,true,some 11,some ([.setEnt .internalNl,.cb],(none,false))⟩,⟨13,.cr,false,false,some 12,some ([.setEnt .internalNl,.cb],(none,false))⟩,⟨13,.cr,true,true,some 13,some ([.setEnt .internalNl,.cb],(none,false))⟩,⟨34,.other,false,false,none,some ([.setEnt .internalNl,.cb,.commit],(some 2,true))⟩,⟨35,.other,false,false,some 8,some ([.setEnt .internalNl,.cb,.code],(none,false))⟩,⟨39,.other,false,false,some 8,some ([.setEnt .internalNl,.cb,.code],(none,false))⟩,⟨60,.other,false,false,some 8,some ([.setEnt .internalNl,.cb,.code],(none,false))⟩,⟨62,.other,false,false,some 8,some ([.setEnt .internalNl,.cb,.code],(none,false))⟩,⟨92,.other,false,false,some 14,some ([.setEnt .internalNl,.cb],(none,false))⟩]⟩,⟨false,none,[],[⟨256,.other,false,false,some 8,some ([.setEnt .internalNl,.cb,.code],(none,false))⟩,⟨9,.ws,false,false,some 9,some ([.setEnt .internalNl,.cb],(none,false))⟩,⟨10,.lf,false,true,some 10,some ([.setEnt .internalNl,.cb],(none,false))⟩,⟨11,.vt,false,false,some 8,some ([.setEnt .internalNl,.cb,.code],(none,false))⟩,⟨12,.ff,false,true,some 11,some ([.setEnt .internalNl,.cb],(none,false))⟩,⟨13,.cr,false,false,some 12,some ([.setEnt .internalNl,.cb],(none,false))⟩,⟨13,.cr,true,true,some 13,some ([.setEnt .internalNl,.cb],(none,false))⟩,⟨34,.other,false,false,none,some ([.setEnt .internalNl,.cb,.commit],(some 2,true))⟩,⟨35,.other,false,false,some 8,some ([.setEnt .internalNl,.cb,.code],(none,false))⟩,⟨39,.other,false,false,some 8,some ([.setEnt .internalNl,.cb,.code],(none,false))⟩,⟨60,.other,false,false,some 8,some ([.setEnt .internalNl,.cb,.code],(none,false))⟩,⟨62,.other,false,false,some 8,some ([.setEnt .internalNl,.cb,.code],(none,false))⟩,⟨92,.other,false,false,some 14,some ([.setEnt .internalNl,.cb],(none,false))⟩]⟩,⟨false,none,[],[⟨256,.other,false,false,none,none⟩,⟨9,.ws,false,false,none,none⟩,⟨10,.lf,false,true,some 45,some ([],(none,false))⟩,⟨11,.vt,false,false,none,none⟩,⟨12,.ff,false,true,none,none⟩,⟨13,.cr,false,false,none,none⟩,⟨13,.cr,true,true,none,none⟩,⟨34,.other,false,false,none,none⟩,⟨35,.other,false,false,none,none⟩,⟨39,.other,false,false,none,none⟩,⟨60,.other,false,false,none,none⟩,⟨62,.other,false,false,none,none⟩,⟨92,.other,false,false,none,none⟩]⟩,⟨false,none,[],[⟨256,.other,false,false,some 8,some ([.setEnt .internalNl,.cb,.code],(none,false))⟩,⟨9,.ws,false,false,some 9,some ([.setEnt .internalNl,.cb],(none,false))⟩,⟨10,.lf,false,true,some 46,some ([.setEnt .internalNl,.cb],(none,false))⟩,⟨11,.vt,false,false,some 8,some ([.setEnt .internalNl,.cb,.code],(none,false))⟩,⟨12,.ff,false,true,some 11,some ([.setEnt .internalNl,.cb],(none,false))⟩,⟨13,.cr,false,false,some 12,some ([.setEnt .internalNl,.cb],(none,false))⟩,⟨13,.cr,true,true,some 13,some ([.setEnt .internalNl,.cb],(none,false))⟩,⟨34,.other,false,false,none,some ([.setEnt .internalNl,.cb,.commit],(some 2,true))⟩,⟨35,.other,false,false,some 8,some ([.setEnt .internalNl,.cb,.code],(none,false))⟩,⟨39,.other,false,false,some 8,some ([.setEnt .internalNl,.cb,.code],(none,false))⟩,⟨60,.other,false,false,some 8,some ([.setEnt .internalNl,.cb,.code],(none,false))⟩,⟨62,.other,false,false,some 8,some ([.setEnt .internalNl,.cb,.code],(none,false))⟩,⟨92,.other,false,false,some 14,some ([.setEnt .internalNl,.cb],(none,false))⟩]⟩,⟨false,none,[],[⟨256,.other,false,false,some 16,some ([.setEnt .internalNl,.cb,.code],(none,false))⟩,⟨9,.ws,false,false,some 17,some ([.setEnt .internalNl,.cb],(none,false))⟩,⟨10,.lf,false,true,some 18,some ([.setEnt .internalNl,.cb],(none,false))⟩,⟨11,.vt,false,false,some 16,some ([.setEnt .internalNl,.cb,.code],(none,false))⟩,⟨12,.ff,false,true,some 19,some ([.setEnt .internalNl,.cb],(none,false))⟩,⟨13,.cr,false,false,some 20,some ([.setEnt .internalNl,.cb],(none,false))⟩,⟨13,.cr,true,true,some 21,some ([.setEnt .internalNl,.cb],(none,false))⟩,⟨34,.other,false,false,some 16,some ([.setEnt .internalNl,.cb,.code],(none,false))⟩,⟨35,.other,false,false,some 16,some ([.setEnt .internalNl,.cb,.code],(none,false))⟩,⟨39,.other,false,false,none,some ([.setEnt .internalNl,.cb,.commit],(some 2,true))⟩,⟨60,.other,false,false,some 16,some ([.setEnt .internalNl,.cb,.code],(none,false))⟩,⟨62,.other,false,false,some 16,some ([.setEnt .internalNl,.cb,.code],(none,false))⟩,⟨92,.other,false,false,some 22,some ([.setEnt .internalNl,.cb],(none,false))⟩]⟩,⟨false,none,[],[⟨256,.other,false,false,some 16,some ([.setEnt .internalNl,.cb,.code],(none,false))⟩,⟨9,.ws,false,false,some 17,some ([.setEnt .internalNl,.cb],(none,false))⟩,⟨10,.lf,false,true,some 18,some ([.setEnt .internalNl,.cb],(none,false))⟩,⟨11,.vt,false,false,some 16,some ([.setEnt .internalNl,.cb,.code],(none,false))⟩,⟨12,.ff,false,true,some 19,some ([.setEnt .internalNl,.cb],(none,false))⟩,⟨13,.cr,false,false,some 20,some ([.setEnt .internalNl,.cb],(none,false))⟩,⟨13,.cr,true,true,some 21,some ([.setEnt .internalNl,.cb],(none,false))⟩,⟨34,.other,false,false,some 16,some ([.setEnt .internalNl,.cb,.code],(none,false))⟩,⟨35,.other,false,false,some 16,some ([.setEnt .internalNl,.cb,.code],(none,false))⟩,⟨39,.other,false,false,none,some ([.setEnt .internalNl,.cb,.commit],(some 2,true))⟩,⟨60,.other,false,false,some 16,some ([.setEnt .internalNl,.cb,.code],(none,false))⟩,⟨62,.other,false,false,some 16,some ([.setEnt .internalNl,.cb,.code],(none,false))⟩,⟨92,.other,false,false,some 22,some ([.setEnt .internalNl,.cb],(none,false))⟩]⟩,⟨false,none,[],[⟨256,.other,false,false,some 16,some ([.code],(none,false))⟩,⟨9,.ws,false,false,some 17,some ([],(none,false))⟩,⟨10,.lf,false,true,some 18,some ([],(none,false))⟩,⟨11,.vt,false,false,some 16,some ([.code],(none,false))⟩,⟨12,.ff,false,true,some 19,some ([],(none,false))⟩,⟨13,.cr,false,false,some 20,some ([],(none,false))⟩,⟨13,.cr,true,true,some 21,some ([],(none,false))⟩,⟨34,.other,false,false,some 16,some ([.code],(none,false))⟩,⟨35,.other,false,false,some 16,some ([.code],(none,false))⟩,⟨39,.other,false,false,none,some ([.commit],(some 2,true))⟩,⟨60,.other,false,false,some 16,some ([.code],(none,false))⟩,⟨62,.other,false,false,some 16,some ([.code],(none,false))⟩,⟨92,.other,false,false,some 22,some ([],(none,false))⟩]⟩,⟨false,none,[],[⟨256,.other,false,false,some 16,some ([.setEnt .internalNl,.cb,.code],(none,false))⟩,⟨9,.ws,false,false,some 17,some ([.setEnt .internalNl,.cb],(none,false))⟩,⟨10,.lf,false,true,some 18,some ([.setEnt .internalNl,.cb],(none,false))⟩,⟨11,.vt,false,false,some 16,some ([.setEnt .internalNl,.cb,.code],(none,false))⟩,⟨12,.ff,false,true,some 19,some ([.setEnt .internalNl,.cb],(none,false))⟩,⟨13,.cr,false,false,some 20,some ([.setEnt .internalNl,.cb],(none,false))⟩,⟨13,.cr,true,true,some 21,some ([.setEnt .internalNl,.cb],(none,false))⟩,⟨34,.other,false,false,some 16,some ([.setEnt .internalNl,.cb,.code],(none,false))⟩,⟨35,.other,false,false,some 16,some ([.setEnt .internalNl,.cb,.code],(none,false))⟩,⟨39,.other,false,false,none,some ([.setEnt .internalNl,.cb,.commit],(some 2,true))⟩,⟨60,.other,false,false,some 16,some ([.setEnt .internalNl,.cb,.code],(none,false))⟩,⟨62,.other,false,false,some 16,some ([.setEnt .internalNl,.cb,.code],(none,false))⟩,⟨92,.other,false,false,some 22,some ([.setEnt .internalNl,.cb],(none,false))⟩]⟩,⟨false,none,[],[⟨256,.other,false,false,some 16,some ([.setEnt .internalNl,.cb,.code],(none,false))⟩,⟨9,.ws,false,false,some 17,some ([.setEnt .internalNl,.cb],(none,false))⟩,⟨10,.lf,false,true,some 18,some ([.setEnt .internalNl,.cb],(none,false))⟩,⟨11,.vt,false,false,some 16,some ([.setEnt .internalNl,.cb,.code],(none,false))⟩,⟨12,.ff,false,true,some 19,some ([.setEnt .internalNl,.cb],(none,false))⟩,⟨13,.cr,false,false,some 20,some ([.setEnt .internalNl,.cb],(none,false))⟩,⟨13,.cr,true,true,some 21,some ([.setEnt .internalNl,.cb],(none,false))⟩,⟨34,.other,false,false,some 16,some ([.setEnt .internalNl,.cb,.code],(none,false))⟩,⟨35,.other,false,false,some 16,some ([.setEnt .internalNl,.cb,.code],(none,false))⟩,⟨39,.other,false,false,none,some ([.setEnt .internalNl,.cb,.commit],(some 2,true))⟩,⟨60,.other,false,false,some 16,some ([.setEnt .internalNl,.cb,.code],(none,false))⟩,⟨62,.other,false,false,some 16,some ([.setEnt .internalNl,.cb,.code],(none,false))⟩,⟨92,.other,false,false,some 22,some ([.setEnt .internalNl,.cb],(none,false))⟩]⟩,⟨false,none,[],[⟨256,.other,false,false,none,none⟩,⟨9,.ws,false,false,none,none⟩,⟨10,.lf,false,true,some 47,some ([],(none,false))⟩,⟨11,.vt,false,false,none,none⟩,⟨12,.ff,false,true,none,none⟩,⟨13,.cr,false,false,none,none⟩,⟨13,.cr,true,true,none,none⟩,⟨34,.other,false,false,none,none⟩,⟨35,.other,false,false,none,none⟩,⟨39,.other,false,false,none,none⟩,⟨60,.other,false,false,none,none⟩,⟨62,.other,false,false,none,none⟩,⟨92,.other,false,false,none,none⟩]⟩,⟨false,none,[],[⟨256,.other,false,false,some 16,some ([.setEnt .internalNl,.cb,.code],(none,false))⟩,⟨9,.ws,false,false,some 17,some ([.setEnt .internalNl,.cb],(none,false))⟩,⟨10,.lf,false,true,some 48,some ([.setEnt .internalNl,.cb],(none,false))⟩,⟨11,.vt,false,false,some 16,some ([.setEnt .internalNl,.cb,.code],(none,false))⟩,⟨12,.ff,false,true,some 19,some ([.setEnt .internalNl,.cb],(none,false))⟩,⟨13,.cr,false,false,some 20,some ([.setEnt .internalNl,.cb],(none,false))⟩,⟨13,.cr,true,true,some 21,some ([.setEnt .internalNl,.cb],(none,false))⟩,⟨34,.other,false,false,some 16,some ([.setEnt .internalNl,.cb,.code],(none,false))⟩,⟨35,.other,false,false,some 16,some ([.setEnt .internalNl,.cb,.code],(none,false))⟩,⟨39,.other,false,false,none,some ([.setEnt .internalNl,.cb,.commit],(some 2,true))⟩,⟨60,.other,false,false,some 16,some ([.setEnt .internalNl,.cb,.code],(none,false))⟩,⟨62,.other,false,false,some 16,some ([.setEnt .internalNl,.cb,.code],(none,false))⟩,⟨92,.other,false,false,some 22,some ([.setEnt .internalNl,.cb],(none,false))⟩]⟩,⟨false,none,[],[⟨256,.other,false,false,some 38,some ([.comment],(none,false))⟩,⟨9,.ws,false,false,some 39,some ([],(none,false))⟩,⟨10,.lf,false,true,some 40,some ([],(none,false))⟩,⟨11,.vt,false,false,some 38,some ([.comment],(none,false))⟩,⟨12,.ff,false,true,some 41,some ([],(none,false))⟩,⟨13,.cr,false,false,some 42,some ([],(none,false))⟩,⟨13,.cr,true,true,some 43,some ([],(none,false))⟩,⟨34,.other,false,false,some 38,some ([.comment],(none,false))⟩,⟨35,.other,false,false,some 44,some ([.comment],(none,false))⟩,⟨39,.other,false,false,some 38,some ([.comment],(none,false))⟩,⟨60,.other,false,false,some 38,some ([.comment],(none,false))⟩,⟨62,.other,false,false,some 38,some ([.comment],(none,false))⟩,⟨92,.other,false,false,some 38,some ([.comment],(none,false))⟩]⟩,⟨false,none,[],[⟨256,.other,false,false,some 38,some ([.comment],(none,false))⟩,⟨9,.ws,false,false,some 39,some ([],(none,false))⟩,⟨10,.lf,false,true,some 40,some ([],(none,false))⟩,⟨11,.vt,false,false,some 38,some ([.comment],(none,false))⟩,⟨12,.ff,false,true,some 41,some ([],(none,false))⟩,⟨13,.cr,false,false,some 42,some ([],(none,false))⟩,⟨13,.cr,true,true,some 43,some ([],(none,false))⟩,⟨34,.other,false,false,some 38,some ([.comment],(none,false))⟩,⟨35,.other,false,false,some 44,some ([.comment],(none,false))⟩,⟨39,.other,false,false,some 38,some ([.comment],(none,false))⟩,⟨60,.other,false,false,some 38,some ([.comment],(none,false))⟩,⟨62,.other,false,false,some 38,some ([.comment],(none,false))⟩,⟨92,.other,false,false,some 38,some ([.comment],(none,false))⟩]⟩,⟨false,none,[],[⟨256,.other,false,false,some 38,some ([.setEnt .internalNl,.cb,.comment],(none,false))⟩,⟨9,.ws,false,false,some 39,some ([.setEnt .internalNl,.cb],(none,false))⟩,⟨10,.lf,false,true,some 40,some ([.setEnt .internalNl,.cb],(none,false))⟩,⟨11,.vt,false,false,some 38,some ([.setEnt .internalNl,.cb,.comment],(none,false))⟩,⟨12,.ff,false,true,some 41,some ([.setEnt .internalNl,.cb],(none,false))⟩,⟨13,.cr,false,false,some 42,some ([.setEnt .internalNl,.cb],(none,false))⟩,⟨13,.cr,true,true,some 43,some ([.setEnt .internalNl,.cb],(none,false))⟩,⟨34,.other,false,false,some 38,some ([.setEnt .internalNl,.cb,.comment],(none,false))⟩,⟨35,.other,false,false,some 44,some ([.setEnt .internalNl,.cb,.comment],(none,false))⟩,⟨39,.other,false,false,some 38,some ([.setEnt .internalNl,.cb,.comment],(none,false))⟩,⟨60,.other,false,false,some 38,some ([.setEnt .internalNl,.cb,.comment],(none,false))⟩,⟨62,.other,false,false,some 38,some ([.setEnt .internalNl,.cb,.comment],(none,false))⟩,⟨92,.other,false,false,some 38,some ([.setEnt .internalNl,.cb,.comment],(none,false))⟩]⟩,⟨false,none,[],[⟨256,.other,false,false,some 38,some ([.setEnt .internalNl,.cb,.comment],(none,false))⟩,⟨9,.ws,false,false,some 39,some ([.setEnt .internalNl,.cb],(none,false))⟩,⟨10,.lf,false,true,some 40,some ([.setEnt .internalNl,.cb],(none,false))⟩,⟨11,.vt,false,false,some 38,some ([.setEnt .internalNl,.cb,.comment],(none,false))⟩,⟨12,.ff,false,true,some 41,some ([.setEnt .internalNl,.cb],(none,false))⟩,⟨13,.cr,false,false,some 42,some ([.setEnt .internalNl,.cb],(none,false))⟩,⟨13,.cr,true,true,some 43,some ([.setEnt .internalNl,.cb],(none,false))⟩,⟨34,.other,false,false,some 38,some ([.setEnt .internalNl,.cb,.comment],(none,false))⟩,⟨35,.other,false,false,some 44,some ([.setEnt .internalNl,.cb,.comment],(none,false))⟩,⟨39,.other,false,false,some 38,some ([.setEnt .internalNl,.cb,.comment],(none,false))⟩,⟨60,.other,false,false,some 38,some ([.setEnt .internalNl,.cb,.comment],(none,false))⟩,⟨62,.other,false,false,some 38,some ([.setEnt .internalNl,.cb,.comment],(none,false))⟩,⟨92,.other,false,false,some 38,some ([.setEnt .internalNl,.cb,.comment],(none,false))⟩]⟩,⟨false,none,[],[⟨256,.other,false,false,none,none⟩,⟨9,.ws,false,false,none,none⟩,⟨10,.lf,false,true,some 49,some ([],(none,false))⟩,⟨11,.vt,false,false,none,none⟩,⟨12,.ff,false,true,none,none⟩,⟨13,.cr,false,false,none,none⟩,⟨13,.cr,true,true,none,none⟩,⟨34,.other,false,false,none,none⟩,⟨35,.other,false,false,none,none⟩,⟨39,.other,false,false,none,none⟩,⟨60,.other,false,false,none,none⟩,⟨62,.other,false,false,none,none⟩,⟨92,.other,false,false,none,none⟩]⟩,⟨false,none,[],[⟨256,.other,false,false,some 38,some ([.setEnt .internalNl,.cb,.comment],(none,false))⟩,⟨9,.ws,false,false,some 39,some ([.setEnt .internalNl,.cb],(none,false))⟩,⟨10,.lf,false,true,some 50,some ([.setEnt .internalNl,.cb],(none,false))⟩,⟨11,.vt,false,false,some 38,some ([.setEnt .internalNl,.cb,.comment],(none,false))⟩,⟨12,.ff,false,true,some 41,some ([.setEnt .internalNl,.cb],(none,false))⟩,⟨13,.cr,false,false,some 42,some ([.setEnt .internalNl,.cb],(none,false))⟩,⟨13,.cr,true,true,some 43,some ([.setEnt .internalNl,.cb],(none,false))⟩,⟨34,.other,false,false,some 38,some ([.setEnt .internalNl,.cb,.comment],(none,false))⟩,⟨35,.other,false,false,some 44,some ([.setEnt .internalNl,.cb,.comment],(none,false))⟩,⟨39,.other,false,false,some 38,some ([.setEnt .internalNl,.cb,.comment],(none,false))⟩,⟨60,.other,false,false,some 38,some ([.setEnt .internalNl,.cb,.comment],(none,false))⟩,⟨62,.other,false,false,some 38,some ([.setEnt .internalNl,.cb,.comment],(none,false))⟩,⟨92,.other,false,false,some 38,some ([.setEnt .internalNl,.cb,.comment],(none,false))⟩]⟩,⟨false,none,[],[⟨256,.other,false,false,some 38,some ([.comment],(none,false))⟩,⟨9,.ws,false,false,some 39,some ([],(none,false))⟩,⟨10,.lf,false,true,some 40,some ([],(none,false))⟩,⟨11,.vt,false,false,some 38,some ([.comment],(none,false))⟩,⟨12,.ff,false,true,some 41,some ([],(none,false))⟩,⟨13,.cr,false,false,some 42,some ([],(none,false))⟩,⟨13,.cr,true,true,some 43,some ([],(none,false))⟩,⟨34,.other,false,false,some 38,some ([.comment],(none,false))⟩,⟨35,.other,false,false,some 44,some ([.comment],(none,false))⟩,⟨39,.other,false,false,some 38,some ([.comment],(none,false))⟩,⟨60,.other,false,false,some 38,some ([.comment],(none,false))⟩,⟨62,.other,false,false,none,some ([],(some 1,true))⟩,⟨92,.other,false,false,some 38,some ([.comment],(none,false))⟩]⟩,⟨false,none,[],[⟨256,.other,false,false,some 8,some ([.setEnt .internalNl,.cb,.code],(none,false))⟩,⟨9,.ws,false,false,some 9,some ([.setEnt .internalNl,.cb],(none,false))⟩,⟨10,.lf,false,true,some 10,some ([.setEnt .internalNl,.cb],(none,false))⟩,⟨11,.vt,false,false,some 8,some ([.setEnt .internalNl,.cb,.code],(none,false))⟩,⟨12,.ff,false,true,some 11,some ([.setEnt .internalNl,.cb],(none,false))⟩,⟨13,.cr,false,false,some 12,some ([.setEnt .internalNl,.cb],(none,false))⟩,⟨13,.cr,true,true,some 13,some ([.setEnt .internalNl,.cb],(none,false))⟩,⟨34,.other,false,false,none,some ([.setEnt .internalNl,.cb,.commit],(some 2,true))⟩,⟨35,.other,false,false,some 8,some ([.setEnt .internalNl,.cb,.code],(none,false))⟩,⟨39,.other,false,false,some 8,some ([.setEnt .internalNl,.cb,.code],(none,false))⟩,⟨60,.other,false,false,some 8,some ([.setEnt .internalNl,.cb,.code],(none,false))⟩,⟨62,.other,false,false,some 8,some ([.setEnt .internalNl,.cb,.code],(none,false))⟩,⟨92,.other,false,false,some 14,some ([.setEnt .internalNl,.cb],(none,false))⟩]⟩,⟨false,none,[],[⟨256,.other,false,false,some 8,some ([.setEnt .internalNl,.cb,.code],(none,false))⟩,⟨9,.ws,false,false,some 9,some ([.setEnt .internalNl,.cb],(none,false))⟩,⟨10,.lf,false,true,some 10,some ([.setEnt .internalNl,.cb],(none,false))⟩,⟨11,.vt,false,false,some 8,some ([.setEnt .internalNl,.cb,.code],(none,false))⟩,⟨12,.ff,false,true,some 11,some ([.setEnt .internalNl,.cb],(none,false))⟩,⟨13,.cr,false,false,some 12,some ([.setEnt .internalNl,.cb],(none,false))⟩,⟨13,.cr,true,true,some 13,some ([.setEnt .internalNl,.cb],(none,false))⟩,⟨34,.other,false,false,none,some ([.setEnt .internalNl,.cb,.commit],(some 2,true))⟩,⟨35,.other,false,false,some 8,some ([.setEnt .internalNl,.cb,.code],(none,false))⟩,⟨39,.other,false,false,some 8,some ([.setEnt .internalNl,.cb,.code],(none,false))⟩,⟨60,.other,false,false,some 8,some ([.setEnt .internalNl,.cb,.code],(none,false))⟩,⟨62,.other,false,false,some 8,some ([.setEnt .internalNl,.cb,.code],(none,false))⟩,⟨92,.other,false,false,some 14,some ([.setEnt .internalNl,.cb],(none,false))⟩]⟩,⟨false,none,[],[⟨256,.other,false,false,some 16,some ([.setEnt .internalNl,.cb,.code],(none,false))⟩,⟨9,.ws,false,false,some 17,some ([.setEnt .internalNl,.cb],(none,false))⟩,⟨10,.lf,false,true,some 18,some ([.setEnt .internalNl,.cb],(none,false))⟩,⟨11,.vt,false,false,some 16,some ([.setEnt .internalNl,.cb,.code],(none,false))⟩,⟨12,.ff,false,true,some 19,some ([.setEnt .internalNl,.cb],(none,false))⟩,⟨13,.cr,false,false,some 20,some ([.setEnt .internalNl,.cb],(none,false))⟩,⟨13,.cr,true,true,some 21,some ([.setEnt .internalNl,.cb],(none,false))⟩,⟨34,.other,false,false,some 16,some ([.setEnt .internalNl,.cb,.code],(none,false))⟩,⟨35,.other,false,false,some 16,some ([.setEnt .internalNl,.cb,.code],(none,false))⟩,⟨39,.other,false,false,none,some ([.setEnt .internalNl,.cb,.commit],(some 2,true))⟩,⟨60,.other,false,false,some 16,some ([.setEnt .internalNl,.cb,.code],(none,false))⟩,⟨62,.other,false,false,some 16,some ([.setEnt .internalNl,.cb,.code],(none,false))⟩,⟨92,.other,false,false,some 22,some ([.setEnt .internalNl,.cb],(none,false))⟩]⟩,⟨false,none,[],[⟨256,.other,false,false,some 16,some ([.setEnt .internalNl,.cb,.code],(none,false))⟩,⟨9,.ws,false,false,some 17,some ([.setEnt .internalNl,.cb],(none,false))⟩,⟨10,.lf,false,true,some 18,some ([.setEnt .internalNl,.cb],(none,false))⟩,⟨11,.vt,false,false,some 16,some ([.setEnt .internalNl,.cb,.code],(none,false))⟩,⟨12,.ff,false,true,some 19,some ([.setEnt .internalNl,.cb],(none,false))⟩,⟨13,.cr,false,false,some 20,some ([.setEnt .internalNl,.cb],(none,false))⟩,⟨13,.cr,true,true,some 21,some ([.setEnt .internalNl,.cb],(none,false))⟩,⟨34,.other,false,false,some 16,some ([.setEnt .internalNl,.cb,.code],(none,false))⟩,⟨35,.other,false,false,some 16,some ([.setEnt .internalNl,.cb,.code],(none,false))⟩,⟨39,.other,false,false,none,some ([.setEnt .internalNl,.cb,.commit],(some 2,true))⟩,⟨60,.other,false,false,some 16,some ([.setEnt .internalNl,.cb,.code],(none,false))⟩,⟨62,.other,false,false,some 16,some ([.setEnt .internalNl,.cb,.code],(none,false))⟩,⟨92,.other,false,false,some 22,some ([.setEnt .internalNl,.cb],(none,false))⟩]⟩,⟨false,none,[],[⟨256,.other,false,false,some 38,some ([.setEnt .internalNl,.cb,.comment],(none,false))⟩,⟨9,.ws,false,false,some 39,some ([.setEnt .internalNl,.cb],(none,false))⟩,⟨10,.lf,false,true,some 40,some ([.setEnt .internalNl,.cb],(none,false))⟩,⟨11,.vt,false,false,some 38,some ([.setEnt .internalNl,.cb,.comment],(none,false))⟩,⟨12,.ff,false,true,some 41,some ([.setEnt .internalNl,.cb],(none,false))⟩,⟨13,.cr,false,false,some 42,some ([.setEnt .internalNl,.cb],(none,false))⟩,⟨13,.cr,true,true,some 43,some ([.setEnt .internalNl,.cb],(none,false))⟩,⟨34,.other,false,false,some 38,some ([.setEnt .internalNl,.cb,.comment],(none,false))⟩,⟨35,.other,false,false,some 44,some ([.setEnt .internalNl,.cb,.comment],(none,false))⟩,⟨39,.other,false,false,some 38,some ([.setEnt .internalNl,.cb,.comment],(none,false))⟩,⟨60,.other,false,false,some 38,some ([.setEnt .internalNl,.cb,.comment],(none,false))⟩,⟨62,.other,false,false,some 38,some ([.setEnt .internalNl,.cb,.comment],(none,false))⟩,⟨92,.other,false,false,some 38,some ([.setEnt .internalNl,.cb,.comment],(none,false))⟩]⟩,⟨false,none,[],[⟨256,.other,false,false,some 38,some ([.setEnt .internalNl,.cb,.comment],(none,false))⟩,⟨9,.ws,false,false,some 39,some ([.setEnt .internalNl,.cb],(none,false))⟩,⟨10,.lf,false,true,some 40,some ([.setEnt .internalNl,.cb],(none,false))⟩,⟨11,.vt,false,false,some 38,some ([.setEnt .internalNl,.cb,.comment],(none,false))⟩,⟨12,.ff,false,true,some 41,some ([.setEnt .internalNl,.cb],(none,false))⟩,⟨13,.cr,false,false,some 42,some ([.setEnt .internalNl,.cb],(none,false))⟩,⟨13,.cr,true,true,some 43,some ([.setEnt .internalNl,.cb],(none,false))⟩,⟨34,.other,false,false,some 38,some ([.setEnt .internalNl,.cb,.comment],(none,false))⟩,⟨35,.other,false,false,some 44,some ([.setEnt .internalNl,.cb,.comment],(none,false))⟩,⟨39,.other,false,false,some 38,some ([.setEnt .internalNl,.cb,.comment],(none,false))⟩,⟨60,.other,false,false,some 38,some ([.setEnt .internalNl,.cb,.comment],(none,false))⟩,⟨62,.other,false,false,some 38,some ([.setEnt .internalNl,.cb,.comment],(none,false))⟩,⟨92,.other,false,false,some 38,some ([.setEnt .internalNl,.cb,.comment],(none,false))⟩]⟩]
theorem powershell_line_lfrOk : powershell_line_lrows.map (CA.prep powershell_line_lex) = powershell_line_lfr := by decide +kernel
def powershell_line_lTab : List CT := [(.node (.node (.node (.node (.node (.node .leaf 128 [⟨⟨.code,[],.lcode,false,[],false⟩,false,false,[],none,none,none,false,false,false,none,false,⟨.lcode,none,false,.lblank⟩⟩] .leaf) 38019 [⟨⟨.code,[],.lcode,true,[],false⟩,false,false,[],none,none,none,false,false,false,none,false,⟨.lblank,none,false,.lblank⟩⟩] (.node .leaf 148108 [⟨⟨.code,[],.lcomment,false,[],false⟩,false,false,[],none,none,none,false,false,false,none,false,⟨.lcomment,none,false,.lblank⟩⟩] .leaf)) 185487 [⟨⟨.code,[],.lcomment,true,[],false⟩,false,false,[],none,none,none,false,false,false,none,false,⟨.lblank,none,false,.lblank⟩⟩] (.node (.node .leaf 296088 [⟨⟨.code,[],.lblank,false,[],false⟩,false,false,[],none,none,none,false,false,false,none,false,⟨.lblank,none,false,.lblank⟩⟩] .leaf) 332955 [⟨⟨.code,[],.lblank,true,[],false⟩,false,false,[],none,none,none,false,false,false,none,false,⟨.lblank,none,false,.lblank⟩⟩] .leaf)) 1179872 [⟨⟨(.inside 0),[],.lcode,false,[],false⟩,false,false,[none],none,none,none,false,false,false,none,false,⟨.lcode,none,false,.lblank⟩⟩] (.node (.node (.node .leaf 1327852 [⟨⟨(.inside 0),[],.lcomment,false,[],false⟩,false,false,[none],none,none,none,false,false,false,none,false,⟨.lcomment,none,false,.lblank⟩⟩] .leaf) 2249015 [⟨⟨.code,[60],.lcode,false,[],false⟩,false,false,[none],none,none,none,false,false,false,none,false,⟨.lcode,none,false,.lblank⟩⟩] (.node .leaf 21249072 [⟨⟨.code,[60],.lcode,false,[],false⟩,false,false,[some (9,(.ws,false))],none,none,none,false,false,false,none,false,⟨.lcode,none,false,.lblank⟩⟩] .leaf)) 21567323 [⟨⟨.code,[60],.lcomment,false,[],false⟩,false,false,[none],none,none,none,false,false,false,none,false,⟨.lcode,none,false,.lblank⟩⟩] (.node (.node .leaf 22179935 [⟨⟨(.inside 0),[],.lcode,false,[],false⟩,false,false,[some (10,(.lf,false))],none,none,none,false,false,false,none,false,⟨.lcode,none,false,.lblank⟩⟩] .leaf) 22327915 [⟨⟨(.inside 0),[],.lcomment,false,[],false⟩,false,false,[some (10,(.lf,false))],none,none,none,false,false,false,none,false,⟨.lcomment,none,false,.lblank⟩⟩] .leaf))) 23249078 [⟨⟨.code,[60],.lcode,false,[],false⟩,false,false,[some (10,(.lf,false))],none,none,none,false,false,false,none,false,⟨.lcode,none,false,.lblank⟩⟩] (.node (.node (.node (.node .leaf 26179947 [⟨⟨(.inside 0),[],.lcode,false,[],false⟩,false,false,[some (12,(.ff,false))],none,none,none,false,false,false,none,false,⟨.lcode,none,false,.lblank⟩⟩] .leaf) 26327927 [⟨⟨(.inside 0),[],.lcomment,false,[],false⟩,false,false,[some (12,(.ff,false))],none,none,none,false,false,false,none,false,⟨.lcomment,none,false,.lblank⟩⟩] (.node .leaf 27249090 [⟨⟨.code,[60],.lcode,false,[],false⟩,false,false,[some (12,(.ff,false))],none,none,none,false,false,false,none,false,⟨.lcode,none,false,.lblank⟩⟩] .leaf)) 28179953 [⟨⟨(.inside 0),[],.lcode,false,[],false⟩,false,false,[some (13,(.cr,false))],none,none,none,false,false,false,none,false,⟨.lcode,none,false,.lblank⟩⟩] (.node (.node .leaf 28327933 [⟨⟨(.inside 0),[],.lcomment,false,[],false⟩,false,false,[some (13,(.cr,false))],none,none,none,false,false,false,none,false,⟨.lcomment,none,false,.lblank⟩⟩] .leaf) 29179956 [⟨⟨(.inside 0),[],.lcode,false,[],false⟩,false,false,[some (13,(.cr,true))],none,none,none,false,false,false,none,false,⟨.lcode,none,false,.lblank⟩⟩] .leaf)) 29249096 [⟨⟨.code,[60],.lcode,false,[],false⟩,false,false,[some (13,(.cr,false))],none,none,none,false,false,false,none,false,⟨.lcode,none,false,.lblank⟩⟩] (.node (.node (.node .leaf 29327936 [⟨⟨(.inside 0),[],.lcomment,false,[],false⟩,false,false,[some (13,(.cr,true))],none,none,none,false,false,false,none,false,⟨.lcomment,none,false,.lblank⟩⟩] .leaf) 30249099 [⟨⟨.code,[60],.lcode,false,[],false⟩,false,false,[some (13,(.cr,true))],none,none,none,false,false,false,none,false,⟨.lcode,none,false,.lblank⟩⟩] .leaf) 40567380 [⟨⟨.code,[60],.lcomment,false,[],false⟩,false,false,[some (9,(.ws,false))],none,none,none,false,false,false,none,false,⟨.lcode,none,false,.lblank⟩⟩] (.node (.node .leaf 40885631 [⟨⟨.code,[60],.lblank,false,[],false⟩,false,false,[none],none,none,none,false,false,false,none,false,⟨.lcode,none,false,.lblank⟩⟩] .leaf) 42567386 [⟨⟨.code,[60],.lcomment,false,[],false⟩,false,false,[some (10,(.lf,false))],none,none,none,false,false,false,none,false,⟨.lcode,none,false,.lblank⟩⟩] .leaf)))) 46567398 [⟨⟨.code,[60],.lcomment,false,[],false⟩,false,false,[some (12,(.ff,false))],none,none,none,false,false,false,none,false,⟨.lcode,none,false,.lblank⟩⟩] (.node (.node (.node (.node (.node .leaf 48567404 [⟨⟨.code,[60],.lcomment,false,[],false⟩,false,false,[some (13,(.cr,false))],none,none,none,false,false,false,none,false,⟨.lcode,none,false,.lblank⟩⟩] .leaf) 49567407 [⟨⟨.code,[60],.lcomment,false,[],false⟩,false,false,[some (13,(.cr,true))],none,none,none,false,false,false,none,false,⟨.lcode,none,false,.lblank⟩⟩] (.node .leaf 59885688 [⟨⟨.code,[60],.lblank,false,[],false⟩,false,false,[some (9,(.ws,false))],none,none,none,false,false,false,none,false,⟨.lcode,none,false,.lblank⟩⟩] .leaf)) 61885694 [⟨⟨.code,[60],.lblank,false,[],false⟩,false,false,[some (10,(.lf,false))],none,none,none,false,false,false,none,false,⟨.lcode,none,false,.lblank⟩⟩] (.node (.node .leaf 65885706 [⟨⟨.code,[60],.lblank,false,[],false⟩,false,false,[some (12,(.ff,false))],none,none,none,false,false,false,none,false,⟨.lcode,none,false,.lblank⟩⟩] .leaf) 67885712 [⟨⟨.code,[60],.lblank,false,[],false⟩,false,false,[some (13,(.cr,false))],none,none,none,false,false,false,none,false,⟨.lcode,none,false,.lblank⟩⟩] .leaf)) 68885715 [⟨⟨.code,[60],.lblank,false,[],false⟩,false,false,[some (13,(.cr,true))],none,none,none,false,false,false,none,false,⟨.lcode,none,false,.lblank⟩⟩] (.node (.node (.node .leaf 71249222 [⟨⟨.code,[60],.lcode,false,[],false⟩,false,false,[some (34,(.other,false))],none,none,none,false,false,false,none,false,⟨.lcode,none,false,.lblank⟩⟩] .leaf) 81249252 [⟨⟨.code,[60],.lcode,false,[],false⟩,false,false,[some (39,(.other,false))],none,none,none,false,false,false,none,false,⟨.lcode,none,false,.lblank⟩⟩] .leaf) 90567530 [⟨⟨.code,[60],.lcomment,false,[],false⟩,false,false,[some (34,(.other,false))],none,none,none,false,false,false,none,false,⟨.lcode,none,false,.lblank⟩⟩] (.node (.node .leaf 100567560 [⟨⟨.code,[60],.lcomment,false,[],false⟩,false,false,[some (39,(.other,false))],none,none,none,false,false,false,none,false,⟨.lcode,none,false,.lblank⟩⟩] .leaf) 109885838 [⟨⟨.code,[60],.lblank,false,[],false⟩,false,false,[some (34,(.other,false))],none,none,none,false,false,false,none,false,⟨.lcode,none,false,.lblank⟩⟩] .leaf))) 119885868 [⟨⟨.code,[60],.lblank,false,[],false⟩,false,false,[some (39,(.other,false))],none,none,none,false,false,false,none,false,⟨.lcode,none,false,.lblank⟩⟩] (.node (.node (.node (.node .leaf 123249378 [⟨⟨.code,[60],.lcode,false,[],false⟩,false,false,[some (60,(.other,false))],none,none,none,false,false,false,none,false,⟨.lcode,none,false,.lblank⟩⟩] .leaf) 127249390 [⟨⟨.code,[60],.lcode,false,[],false⟩,false,false,[some (62,(.other,false))],none,none,none,false,false,false,none,false,⟨.lcode,none,false,.lblank⟩⟩] (.node .leaf 142567686 [⟨⟨.code,[60],.lcomment,false,[],false⟩,false,false,[some (60,(.other,false))],none,none,none,false,false,false,none,false,⟨.lcode,none,false,.lblank⟩⟩] .leaf)) 146567698 [⟨⟨.code,[60],.lcomment,false,[],false⟩,false,false,[some (62,(.other,false))],none,none,none,false,false,false,none,false,⟨.lcode,none,false,.lblank⟩⟩] (.node (.node .leaf 161885994 [⟨⟨.code,[60],.lblank,false,[],false⟩,false,false,[some (60,(.other,false))],none,none,none,false,false,false,none,false,⟨.lcode,none,false,.lblank⟩⟩] .leaf) 165886006 [⟨⟨.code,[60],.lblank,false,[],false⟩,false,false,[some (62,(.other,false))],none,none,none,false,false,false,none,false,⟨.lcode,none,false,.lblank⟩⟩] .leaf)) 187249570 [⟨⟨.code,[60],.lcode,false,[],false⟩,false,false,[some (92,(.other,false))],none,none,none,false,false,false,none,false,⟨.lcode,none,false,.lblank⟩⟩] (.node (.node (.node .leaf 206567878 [⟨⟨.code,[60],.lcomment,false,[],false⟩,false,false,[some (92,(.other,false))],none,none,none,false,false,false,none,false,⟨.lcode,none,false,.lblank⟩⟩] .leaf) 225886186 [⟨⟨.code,[60],.lblank,false,[],false⟩,false,false,[some (92,(.other,false))],none,none,none,false,false,false,none,false,⟨.lcode,none,false,.lblank⟩⟩] .leaf) 515250554 [⟨⟨.code,[60],.lcode,false,[],false⟩,false,false,[some (256,(.other,false))],none,none,none,false,false,false,none,false,⟨.lcode,none,false,.lblank⟩⟩] (.node (.node .leaf 534568862 [⟨⟨.code,[60],.lcomment,false,[],false⟩,false,false,[some (256,(.other,false))],none,none,none,false,false,false,none,false,⟨.lcode,none,false,.lblank⟩⟩] .leaf) 553887170 [⟨⟨.code,[60],.lblank,false,[],false⟩,false,false,[some (256,(.other,false))],none,none,none,false,false,false,none,false,⟨.lcode,none,false,.lblank⟩⟩] .leaf))))),(.node (.node .leaf 128 [⟨⟨.code,[],.lcode,false,[],false⟩,false,false,[],none,none,none,false,false,false,none,false,⟨.lcode,some (.own 0),false,.lblank⟩⟩] .leaf) 148108 [⟨⟨.code,[],.lcomment,false,[],false⟩,false,false,[],none,none,none,false,false,false,none,false,⟨.lcomment,some (.own 0),false,.lblank⟩⟩] (.node .leaf 296088 [⟨⟨.code,[],.lblank,false,[],false⟩,false,false,[],none,none,none,false,false,false,none,false,⟨.lblank,some (.own 0),false,.lblank⟩⟩] .leaf)),(.node (.node .leaf 160 [⟨⟨.code,[],.lcode,false,[],false⟩,true,false,[],none,none,none,false,false,false,none,false,⟨.lcode,some .newline,false,.lblank⟩⟩] .leaf) 148140 [⟨⟨.code,[],.lcomment,false,[],false⟩,true,false,[],none,none,none,false,false,false,none,false,⟨.lcomment,some .newline,false,.lblank⟩⟩] (.node .leaf 296120 [⟨⟨.code,[],.lblank,false,[],false⟩,true,false,[],none,none,none,false,false,false,none,false,⟨.lblank,some .newline,false,.lblank⟩⟩] .leaf)),(.node (.node .leaf 37011 [⟨⟨.code,[],.lcode,true,[],false⟩,false,true,[],none,none,none,false,false,false,none,false,⟨.lcode,some .newline,false,.lblank⟩⟩] .leaf) 184991 [⟨⟨.code,[],.lcomment,true,[],false⟩,false,true,[],none,none,none,false,false,false,none,false,⟨.lcomment,some .newline,false,.lblank⟩⟩] (.node .leaf 332971 [⟨⟨.code,[],.lblank,true,[],false⟩,false,true,[],none,none,none,false,false,false,none,false,⟨.lblank,some .newline,false,.lblank⟩⟩] .leaf)),(.node (.node .leaf 10028080 [⟨⟨(.inside 3),[],.lcode,false,[],false⟩,false,false,[],none,none,none,false,false,false,none,false,⟨.lcode,some (.own 3),true,.lcode⟩⟩] .leaf) 10028144 [⟨⟨(.inside 3),[],.lcode,false,[],false⟩,false,false,[],none,none,none,false,false,false,none,false,⟨.lcode,some (.own 3),true,.lcomment⟩⟩] (.node .leaf 10028208 [⟨⟨(.inside 3),[],.lcode,false,[],false⟩,false,false,[],none,none,none,false,false,false,none,false,⟨.lcode,some (.own 3),true,.lblank⟩⟩] .leaf)),(.node (.node .leaf 1179872 [⟨⟨(.inside 0),[],.lcode,false,[],false⟩,false,false,[],none,none,none,false,false,false,none,false,⟨.lcode,some (.own 3),false,.lblank⟩⟩] .leaf) 1327852 [⟨⟨(.inside 0),[],.lcomment,false,[],false⟩,false,false,[],none,none,none,false,false,false,none,false,⟨.lcomment,some (.own 3),false,.lblank⟩⟩] .leaf),(.node (.node .leaf 7078720 [⟨⟨(.inside 2),[],.lcode,false,[],false⟩,false,false,[],none,none,none,false,false,false,none,false,⟨.lcode,some (.own 3),true,.lcode⟩⟩] .leaf) 7078784 [⟨⟨(.inside 2),[],.lcode,false,[],false⟩,false,false,[],none,none,none,false,false,false,none,false,⟨.lcode,some (.own 3),true,.lcomment⟩⟩] (.node .leaf 7078848 [⟨⟨(.inside 2),[],.lcode,false,[],false⟩,false,false,[],none,none,none,false,false,false,none,false,⟨.lcode,some (.own 3),true,.lblank⟩⟩] .leaf)),(.node (.node (.node .leaf 2249015 [⟨⟨.code,[60],.lcode,false,[],false⟩,false,false,[],none,none,none,false,false,false,none,false,⟨.lcode,some (.own 3),false,.lblank⟩⟩] .leaf) 2249017 [⟨⟨.code,[60],.lcode,false,[],false⟩,false,false,[],none,none,none,false,false,true,none,false,⟨.lcode,some (.own 3),false,.lblank⟩⟩] .leaf) 21567837 [⟨⟨.code,[60],.lcomment,false,[],false⟩,false,false,[],none,none,none,false,false,true,none,false,⟨.lcomment,some (.own 3),false,.lblank⟩⟩] (.node .leaf 40886657 [⟨⟨.code,[60],.lblank,false,[],false⟩,false,false,[],none,none,none,false,false,true,none,false,⟨.lblank,some (.own 3),false,.lblank⟩⟩] .leaf)),(.node (.node (.node .leaf 10656069 [⟨⟨(.inside 3),[],.lcode,false,[],false⟩,false,false,[],some 4,some ⟨(.inside 3),[],.lcode,false,[],false⟩,none,false,false,false,none,false,⟨.lcode,some (.own 3),true,.lcode⟩⟩] .leaf) 10656077 [⟨⟨(.inside 3),[],.lcode,false,[],false⟩,false,false,[],some 4,some ⟨(.inside 3),[],.lcode,false,[],false⟩,none,true,false,false,none,false,⟨.lcode,some .internalNl,true,.lcode⟩⟩] (.node .leaf 10656133 [⟨⟨(.inside 3),[],.lcode,false,[],false⟩,false,false,[],some 4,some ⟨(.inside 3),[],.lcode,false,[],false⟩,none,false,false,false,none,false,⟨.lcode,some (.own 3),true,.lcomment⟩⟩] .leaf)) 10656141 [⟨⟨(.inside 3),[],.lcode,false,[],false⟩,false,false,[],some 4,some ⟨(.inside 3),[],.lcode,false,[],false⟩,none,true,false,false,none,false,⟨.lcode,some .internalNl,true,.lcomment⟩⟩] (.node (.node .leaf 10656197 [⟨⟨(.inside 3),[],.lcode,false,[],false⟩,false,false,[],some 4,some ⟨(.inside 3),[],.lcode,false,[],false⟩,none,false,false,false,none,false,⟨.lcode,some (.own 3),true,.lblank⟩⟩] .leaf) 10656205 [⟨⟨(.inside 3),[],.lcode,false,[],false⟩,false,false,[],some 4,some ⟨(.inside 3),[],.lcode,false,[],false⟩,none,true,false,false,none,false,⟨.lcode,some .internalNl,true,.lblank⟩⟩] .leaf)),(.node (.node (.node (.node .leaf 10656069 [⟨⟨(.inside 3),[],.lcode,false,[],false⟩,false,false,[],some 4,some ⟨(.inside 3),[],.lcode,false,[],false⟩,none,false,false,false,none,false,⟨.lcode,some (.own 3),true,.lcode⟩⟩] .leaf) 10656077 [⟨⟨(.inside 3),[],.lcode,false,[],false⟩,false,false,[],some 4,some ⟨(.inside 3),[],.lcode,false,[],false⟩,none,true,false,false,none,false,⟨.lcode,some .internalNl,true,.lcode⟩⟩] .leaf) 10656133 [⟨⟨(.inside 3),[],.lcode,false,[],false⟩,false,false,[],some 4,some ⟨(.inside 3),[],.lcode,false,[],false⟩,none,false,false,false,none,false,⟨.lcode,some (.own 3),true,.lcomment⟩⟩] (.node .leaf 10656141 [⟨⟨(.inside 3),[],.lcode,false,[],false⟩,false,false,[],some 4,some ⟨(.inside 3),[],.lcode,false,[],false⟩,none,true,false,false,none,false,⟨.lcode,some .internalNl,true,.lcomment⟩⟩] .leaf)) 10656197 [⟨⟨(.inside 3),[],.lcode,false,[],false⟩,false,false,[],some 4,some ⟨(.inside 3),[],.lcode,false,[],false⟩,none,false,false,false,none,false,⟨.lcode,some (.own 3),true,.lblank⟩⟩] (.node (.node (.node .leaf 10656205 [⟨⟨(.inside 3),[],.lcode,false,[],false⟩,false,false,[],some 4,some ⟨(.inside 3),[],.lcode,false,[],false⟩,none,true,false,false,none,false,⟨.lcode,some .internalNl,true,.lblank⟩⟩] .leaf) 10952037 [⟨⟨(.inside 3),[],.lblank,false,[],false⟩,false,false,[],some 4,some ⟨(.inside 3),[],.lcode,false,[],false⟩,none,true,false,false,none,false,⟨.lblank,some .internalNl,true,.lcode⟩⟩] .leaf) 10952101 [⟨⟨(.inside 3),[],.lblank,false,[],false⟩,false,false,[],some 4,some ⟨(.inside 3),[],.lcode,false,[],false⟩,none,true,false,false,none,false,⟨.lblank,some .internalNl,true,.lcomment⟩⟩] (.node .leaf 10952165 [⟨⟨(.inside 3),[],.lblank,false,[],false⟩,false,false,[],some 4,some ⟨(.inside 3),[],.lcode,false,[],false⟩,none,true,false,false,none,false,⟨.lblank,some .internalNl,true,.lblank⟩⟩] .leaf))),(.node (.node (.node (.node .leaf 10692936 [⟨⟨(.inside 3),[],.lcode,true,[],false⟩,false,false,[],some 4,some ⟨(.inside 3),[],.lcode,false,[],false⟩,none,false,false,false,none,false,⟨.lcode,some (.own 3),true,.lcode⟩⟩] .leaf) 10692944 [⟨⟨(.inside 3),[],.lcode,true,[],false⟩,false,false,[],some 4,some ⟨(.inside 3),[],.lcode,false,[],false⟩,none,true,false,false,none,false,⟨.lcode,some .internalNl,true,.lcode⟩⟩] .leaf) 10693000 [⟨⟨(.inside 3),[],.lcode,true,[],false⟩,false,false,[],some 4,some ⟨(.inside 3),[],.lcode,false,[],false⟩,none,false,false,false,none,false,⟨.lcode,some (.own 3),true,.lcomment⟩⟩] (.node .leaf 10693008 [⟨⟨(.inside 3),[],.lcode,true,[],false⟩,false,false,[],some 4,some ⟨(.inside 3),[],.lcode,false,[],false⟩,none,true,false,false,none,false,⟨.lcode,some .internalNl,true,.lcomment⟩⟩] .leaf)) 10693064 [⟨⟨(.inside 3),[],.lcode,true,[],false⟩,false,false,[],some 4,some ⟨(.inside 3),[],.lcode,false,[],false⟩,none,false,false,false,none,false,⟨.lcode,some (.own 3),true,.lblank⟩⟩] (.node (.node (.node .leaf 10693072 [⟨⟨(.inside 3),[],.lcode,true,[],false⟩,false,false,[],some 4,some ⟨(.inside 3),[],.lcode,false,[],false⟩,none,true,false,false,none,false,⟨.lcode,some .internalNl,true,.lblank⟩⟩] .leaf) 10988904 [⟨⟨(.inside 3),[],.lblank,true,[],false⟩,false,false,[],some 4,some ⟨(.inside 3),[],.lcode,false,[],false⟩,none,true,false,false,none,false,⟨.lblank,some .internalNl,true,.lcode⟩⟩] .leaf) 10988968 [⟨⟨(.inside 3),[],.lblank,true,[],false⟩,false,false,[],some 4,some ⟨(.inside 3),[],.lcode,false,[],false⟩,none,true,false,false,none,false,⟨.lblank,some .internalNl,true,.lcomment⟩⟩] (.node .leaf 10989032 [⟨⟨(.inside 3),[],.lblank,true,[],false⟩,false,false,[],some 4,some ⟨(.inside 3),[],.lcode,false,[],false⟩,none,true,false,false,none,false,⟨.lblank,some .internalNl,true,.lblank⟩⟩] .leaf))),(.node (.node (.node (.node .leaf 10692936 [⟨⟨(.inside 3),[],.lcode,true,[],false⟩,false,false,[],some 4,some ⟨(.inside 3),[],.lcode,false,[],false⟩,none,false,false,false,none,false,⟨.lcode,some (.own 3),true,.lcode⟩⟩] .leaf) 10692944 [⟨⟨(.inside 3),[],.lcode,true,[],false⟩,false,false,[],some 4,some ⟨(.inside 3),[],.lcode,false,[],false⟩,none,true,false,false,none,false,⟨.lcode,some .internalNl,true,.lcode⟩⟩] .leaf) 10693000 [⟨⟨(.inside 3),[],.lcode,true,[],false⟩,false,false,[],some 4,some ⟨(.inside 3),[],.lcode,false,[],false⟩,none,false,false,false,none,false,⟨.lcode,some (.own 3),true,.lcomment⟩⟩] (.node .leaf 10693008 [⟨⟨(.inside 3),[],.lcode,true,[],false⟩,false,false,[],some 4,some ⟨(.inside 3),[],.lcode,false,[],false⟩,none,true,false,false,none,false,⟨.lcode,some .internalNl,true,.lcomment⟩⟩] .leaf)) 10693064 [⟨⟨(.inside 3),[],.lcode,true,[],false⟩,false,false,[],some 4,some ⟨(.inside 3),[],.lcode,false,[],false⟩,none,false,false,false,none,false,⟨.lcode,some (.own 3),true,.lblank⟩⟩] (.node (.node (.node .leaf 10693072 [⟨⟨(.inside 3),[],.lcode,true,[],false⟩,false,false,[],some 4,some ⟨(.inside 3),[],.lcode,false,[],false⟩,none,true,false,false,none,false,⟨.lcode,some .internalNl,true,.lblank⟩⟩] .leaf) 10988904 [⟨⟨(.inside 3),[],.lblank,true,[],false⟩,false,false,[],some 4,some ⟨(.inside 3),[],.lcode,false,[],false⟩,none,true,false,false,none,false,⟨.lblank,some .internalNl,true,.lcode⟩⟩] .leaf) 10988968 [⟨⟨(.inside 3),[],.lblank,true,[],false⟩,false,false,[],some 4,some ⟨(.inside 3),[],.lcode,false,[],false⟩,none,true,false,false,none,false,⟨.lblank,some .internalNl,true,.lcomment⟩⟩] (.node .leaf 10989032 [⟨⟨(.inside 3),[],.lblank,true,[],false⟩,false,false,[],some 4,some ⟨(.inside 3),[],.lcode,false,[],false⟩,none,true,false,false,none,false,⟨.lblank,some .internalNl,true,.lblank⟩⟩] .leaf))),(.node (.node (.node (.node .leaf 10656101 [⟨⟨(.inside 3),[],.lcode,false,[],false⟩,true,false,[],some 4,some ⟨(.inside 3),[],.lcode,false,[],false⟩,none,false,false,false,none,false,⟨.lcode,some (.own 3),true,.lcode⟩⟩] .leaf) 10656109 [⟨⟨(.inside 3),[],.lcode,false,[],false⟩,true,false,[],some 4,some ⟨(.inside 3),[],.lcode,false,[],false⟩,none,true,false,false,none,false,⟨.lcode,some .internalNl,true,.lcode⟩⟩] .leaf) 10656165 [⟨⟨(.inside 3),[],.lcode,false,[],false⟩,true,false,[],some 4,some ⟨(.inside 3),[],.lcode,false,[],false⟩,none,false,false,false,none,false,⟨.lcode,some (.own 3),true,.lcomment⟩⟩] (.node .leaf 10656173 [⟨⟨(.inside 3),[],.lcode,false,[],false⟩,true,false,[],some 4,some ⟨(.inside 3),[],.lcode,false,[],false⟩,none,true,false,false,none,false,⟨.lcode,some .internalNl,true,.lcomment⟩⟩] .leaf)) 10656229 [⟨⟨(.inside 3),[],.lcode,false,[],false⟩,true,false,[],some 4,some ⟨(.inside 3),[],.lcode,false,[],false⟩,none,false,false,false,none,false,⟨.lcode,some (.own 3),true,.lblank⟩⟩] (.node (.node (.node .leaf 10656237 [⟨⟨(.inside 3),[],.lcode,false,[],false⟩,true,false,[],some 4,some ⟨(.inside 3),[],.lcode,false,[],false⟩,none,true,false,false,none,false,⟨.lcode,some .internalNl,true,.lblank⟩⟩] .leaf) 10952069 [⟨⟨(.inside 3),[],.lblank,false,[],false⟩,true,false,[],some 4,some ⟨(.inside 3),[],.lcode,false,[],false⟩,none,true,false,false,none,false,⟨.lblank,some .internalNl,true,.lcode⟩⟩] .leaf) 10952133 [⟨⟨(.inside 3),[],.lblank,false,[],false⟩,true,false,[],some 4,some ⟨(.inside 3),[],.lcode,false,[],false⟩,none,true,false,false,none,false,⟨.lblank,some .internalNl,true,.lcomment⟩⟩] (.node .leaf 10952197 [⟨⟨(.inside 3),[],.lblank,false,[],false⟩,true,false,[],some 4,some ⟨(.inside 3),[],.lcode,false,[],false⟩,none,true,false,false,none,false,⟨.lblank,some .internalNl,true,.lblank⟩⟩] .leaf))),(.node (.node (.node (.node .leaf 10692952 [⟨⟨(.inside 3),[],.lcode,true,[],false⟩,false,true,[],some 4,some ⟨(.inside 3),[],.lcode,false,[],false⟩,none,false,false,false,none,false,⟨.lcode,some (.own 3),true,.lcode⟩⟩] .leaf) 10692960 [⟨⟨(.inside 3),[],.lcode,true,[],false⟩,false,true,[],some 4,some ⟨(.inside 3),[],.lcode,false,[],false⟩,none,true,false,false,none,false,⟨.lcode,some .internalNl,true,.lcode⟩⟩] .leaf) 10693016 [⟨⟨(.inside 3),[],.lcode,true,[],false⟩,false,true,[],some 4,some ⟨(.inside 3),[],.lcode,false,[],false⟩,none,false,false,false,none,false,⟨.lcode,some (.own 3),true,.lcomment⟩⟩] (.node .leaf 10693024 [⟨⟨(.inside 3),[],.lcode,true,[],false⟩,false,true,[],some 4,some ⟨(.inside 3),[],.lcode,false,[],false⟩,none,true,false,false,none,false,⟨.lcode,some .internalNl,true,.lcomment⟩⟩] .leaf)) 10693080 [⟨⟨(.inside 3),[],.lcode,true,[],false⟩,false,true,[],some 4,some ⟨(.inside 3),[],.lcode,false,[],false⟩,none,false,false,false,none,false,⟨.lcode,some (.own 3),true,.lblank⟩⟩] (.node (.node (.node .leaf 10693088 [⟨⟨(.inside 3),[],.lcode,true,[],false⟩,false,true,[],some 4,some ⟨(.inside 3),[],.lcode,false,[],false⟩,none,true,false,false,none,false,⟨.lcode,some .internalNl,true,.lblank⟩⟩] .leaf) 10988920 [⟨⟨(.inside 3),[],.lblank,true,[],false⟩,false,true,[],some 4,some ⟨(.inside 3),[],.lcode,false,[],false⟩,none,true,false,false,none,false,⟨.lblank,some .internalNl,true,.lcode⟩⟩] .leaf) 10988984 [⟨⟨(.inside 3),[],.lblank,true,[],false⟩,false,true,[],some 4,some ⟨(.inside 3),[],.lcode,false,[],false⟩,none,true,false,false,none,false,⟨.lblank,some .internalNl,true,.lcomment⟩⟩] (.node .leaf 10989048 [⟨⟨(.inside 3),[],.lblank,true,[],false⟩,false,true,[],some 4,some ⟨(.inside 3),[],.lcode,false,[],false⟩,none,true,false,false,none,false,⟨.lblank,some .internalNl,true,.lblank⟩⟩] .leaf))),(.node (.node (.node (.node .leaf 1317701820 [⟨⟨(.inside 3),[92],.lcode,false,[],false⟩,false,false,[],some 4,some ⟨(.inside 3),[],.lcode,false,[],false⟩,none,false,false,false,none,false,⟨.lcode,some (.own 3),true,.lcode⟩⟩] .leaf) 1317701828 [⟨⟨(.inside 3),[92],.lcode,false,[],false⟩,false,false,[],some 4,some ⟨(.inside 3),[],.lcode,false,[],false⟩,none,true,false,false,none,false,⟨.lcode,some .internalNl,true,.lcode⟩⟩] (.node .leaf 1317701884 [⟨⟨(.inside 3),[92],.lcode,false,[],false⟩,false,false,[],some 4,some ⟨(.inside 3),[],.lcode,false,[],false⟩,none,false,false,false,none,false,⟨.lcode,some (.own 3),true,.lcomment⟩⟩] .leaf)) 1317701892 [⟨⟨(.inside 3),[92],.lcode,false,[],false⟩,false,false,[],some 4,some ⟨(.inside 3),[],.lcode,false,[],false⟩,none,true,false,false,none,false,⟨.lcode,some .internalNl,true,.lcomment⟩⟩] (.node (.node .leaf 1317701948 [⟨⟨(.inside 3),[92],.lcode,false,[],false⟩,false,false,[],some 4,some ⟨(.inside 3),[],.lcode,false,[],false⟩,none,false,false,false,none,false,⟨.lcode,some (.own 3),true,.lblank⟩⟩] .leaf) 1317701956 [⟨⟨(.inside 3),[92],.lcode,false,[],false⟩,false,false,[],some 4,some ⟨(.inside 3),[],.lcode,false,[],false⟩,none,true,false,false,none,false,⟨.lcode,some .internalNl,true,.lblank⟩⟩] .leaf)) 1356339468 [⟨⟨(.inside 3),[92],.lblank,false,[],false⟩,false,false,[],some 4,some ⟨(.inside 3),[],.lcode,false,[],false⟩,none,true,false,false,none,false,⟨.lblank,some .internalNl,true,.lcode⟩⟩] (.node (.node (.node .leaf 1356339532 [⟨⟨(.inside 3),[92],.lblank,false,[],false⟩,false,false,[],some 4,some ⟨(.inside 3),[],.lcode,false,[],false⟩,none,true,false,false,none,false,⟨.lblank,some .internalNl,true,.lcomment⟩⟩] .leaf) 1356339596 [⟨⟨(.inside 3),[92],.lblank,false,[],false⟩,false,false,[],some 4,some ⟨(.inside 3),[],.lcode,false,[],false⟩,none,true,false,false,none,false,⟨.lblank,some .internalNl,true,.lblank⟩⟩] .leaf) 1510885932 [⟨⟨(.escapedCr 3),[92],.lblank,false,[],false⟩,false,false,[],some 4,some ⟨(.inside 3),[],.lcode,false,[],false⟩,none,true,false,false,none,false,⟨.lblank,some .internalNl,true,.lcode⟩⟩] (.node (.node .leaf 1510885996 [⟨⟨(.escapedCr 3),[92],.lblank,false,[],false⟩,false,false,[],some 4,some ⟨(.inside 3),[],.lcode,false,[],false⟩,none,true,false,false,none,false,⟨.lblank,some .internalNl,true,.lcomment⟩⟩] .leaf) 1510886060 [⟨⟨(.escapedCr 3),[92],.lblank,false,[],false⟩,false,false,[],some 4,some ⟨(.inside 3),[],.lcode,false,[],false⟩,none,true,false,false,none,false,⟨.lblank,some .internalNl,true,.lblank⟩⟩] .leaf))),(.node (.node .leaf 1179872 [⟨⟨(.inside 0),[],.lcode,false,[],false⟩,false,false,[],none,none,none,false,false,false,none,false,⟨.lcode,some (.own 3),false,.lblank⟩⟩] .leaf) 1327852 [⟨⟨(.inside 0),[],.lcomment,false,[],false⟩,false,false,[],none,none,none,false,false,false,none,false,⟨.lcomment,some (.own 3),false,.lblank⟩⟩] .leaf),(.node (.node (.node .leaf 7522149 [⟨⟨(.inside 2),[],.lcode,false,[],false⟩,false,false,[],some 4,some ⟨(.inside 2),[],.lcode,false,[],false⟩,none,false,false,false,none,false,⟨.lcode,some (.own 3),true,.lcode⟩⟩] .leaf) 7522157 [⟨⟨(.inside 2),[],.lcode,false,[],false⟩,false,false,[],some 4,some ⟨(.inside 2),[],.lcode,false,[],false⟩,none,true,false,false,none,false,⟨.lcode,some .internalNl,true,.lcode⟩⟩] (.node .leaf 7522213 [⟨⟨(.inside 2),[],.lcode,false,[],false⟩,false,false,[],some 4,some ⟨(.inside 2),[],.lcode,false,[],false⟩,none,false,false,false,none,false,⟨.lcode,some (.own 3),true,.lcomment⟩⟩] .leaf)) 7522221 [⟨⟨(.inside 2),[],.lcode,false,[],false⟩,false,false,[],some 4,some ⟨(.inside 2),[],.lcode,false,[],false⟩,none,true,false,false,none,false,⟨.lcode,some .internalNl,true,.lcomment⟩⟩] (.node (.node .leaf 7522277 [⟨⟨(.inside 2),[],.lcode,false,[],false⟩,false,false,[],some 4,some ⟨(.inside 2),[],.lcode,false,[],false⟩,none,false,false,false,none,false,⟨.lcode,some (.own 3),true,.lblank⟩⟩] .leaf) 7522285 [⟨⟨(.inside 2),[],.lcode,false,[],false⟩,false,false,[],some 4,some ⟨(.inside 2),[],.lcode,false,[],false⟩,none,true,false,false,none,false,⟨.lcode,some .internalNl,true,.lblank⟩⟩] .leaf)),(.node (.node (.node (.node .leaf 7522149 [⟨⟨(.inside 2),[],.lcode,false,[],false⟩,false,false,[],some 4,some ⟨(.inside 2),[],.lcode,false,[],false⟩,none,false,false,false,none,false,⟨.lcode,some (.own 3),true,.lcode⟩⟩] .leaf) 7522157 [⟨⟨(.inside 2),[],.lcode,false,[],false⟩,false,false,[],some 4,some ⟨(.inside 2),[],.lcode,false,[],false⟩,none,true,false,false,none,false,⟨.lcode,some .internalNl,true,.lcode⟩⟩] .leaf) 7522213 [⟨⟨(.inside 2),[],.lcode,false,[],false⟩,false,false,[],some 4,some ⟨(.inside 2),[],.lcode,false,[],false⟩,none,false,false,false,none,false,⟨.lcode,some (.own 3),true,.lcomment⟩⟩] (.node .leaf 7522221 [⟨⟨(.inside 2),[],.lcode,false,[],false⟩,false,false,[],some 4,some ⟨(.inside 2),[],.lcode,false,[],false⟩,none,true,false,false,none,false,⟨.lcode,some .internalNl,true,.lcomment⟩⟩] .leaf)) 7522277 [⟨⟨(.inside 2),[],.lcode,false,[],false⟩,false,false,[],some 4,some ⟨(.inside 2),[],.lcode,false,[],false⟩,none,false,false,false,none,false,⟨.lcode,some (.own 3),true,.lblank⟩⟩] (.node (.node (.node .leaf 7522285 [⟨⟨(.inside 2),[],.lcode,false,[],false⟩,false,false,[],some 4,some ⟨(.inside 2),[],.lcode,false,[],false⟩,none,true,false,false,none,false,⟨.lcode,some .internalNl,true,.lblank⟩⟩] .leaf) 7818117 [⟨⟨(.inside 2),[],.lblank,false,[],false⟩,false,false,[],some 4,some ⟨(.inside 2),[],.lcode,false,[],false⟩,none,true,false,false,none,false,⟨.lblank,some .internalNl,true,.lcode⟩⟩] .leaf) 7818181 [⟨⟨(.inside 2),[],.lblank,false,[],false⟩,false,false,[],some 4,some ⟨(.inside 2),[],.lcode,false,[],false⟩,none,true,false,false,none,false,⟨.lblank,some .internalNl,true,.lcomment⟩⟩] (.node .leaf 7818245 [⟨⟨(.inside 2),[],.lblank,false,[],false⟩,false,false,[],some 4,some ⟨(.inside 2),[],.lcode,false,[],false⟩,none,true,false,false,none,false,⟨.lblank,some .internalNl,true,.lblank⟩⟩] .leaf))),(.node (.node (.node (.node .leaf 7559016 [⟨⟨(.inside 2),[],.lcode,true,[],false⟩,false,false,[],some 4,some ⟨(.inside 2),[],.lcode,false,[],false⟩,none,false,false,false,none,false,⟨.lcode,some (.own 3),true,.lcode⟩⟩] .leaf) 7559024 [⟨⟨(.inside 2),[],.lcode,true,[],false⟩,false,false,[],some 4,some ⟨(.inside 2),[],.lcode,false,[],false⟩,none,true,false,false,none,false,⟨.lcode,some .internalNl,true,.lcode⟩⟩] .leaf) 7559080 [⟨⟨(.inside 2),[],.lcode,true,[],false⟩,false,false,[],some 4,some ⟨(.inside 2),[],.lcode,false,[],false⟩,none,false,false,false,none,false,⟨.lcode,some (.own 3),true,.lcomment⟩⟩] (.node .leaf 7559088 [⟨⟨(.inside 2),[],.lcode,true,[],false⟩,false,false,[],some 4,some ⟨(.inside 2),[],.lcode,false,[],false⟩,none,true,false,false,none,false,⟨.lcode,some .internalNl,true,.lcomment⟩⟩] .leaf)) 7559144 [⟨⟨(.inside 2),[],.lcode,true,[],false⟩,false,false,[],some 4,some ⟨(.inside 2),[],.lcode,false,[],false⟩,none,false,false,false,none,false,⟨.lcode,some (.own 3),true,.lblank⟩⟩] (.node (.node (.node .leaf 7559152 [⟨⟨(.inside 2),[],.lcode,true,[],false⟩,false,false,[],some 4,some ⟨(.inside 2),[],.lcode,false,[],false⟩,none,true,false,false,none,false,⟨.lcode,some .internalNl,true,.lblank⟩⟩] .leaf) 7854984 [⟨⟨(.inside 2),[],.lblank,true,[],false⟩,false,false,[],some 4,some ⟨(.inside 2),[],.lcode,false,[],false⟩,none,true,false,false,none,false,⟨.lblank,some .internalNl,true,.lcode⟩⟩] .leaf) 7855048 [⟨⟨(.inside 2),[],.lblank,true,[],false⟩,false,false,[],some 4,some ⟨(.inside 2),[],.lcode,false,[],false⟩,none,true,false,false,none,false,⟨.lblank,some .internalNl,true,.lcomment⟩⟩] (.node .leaf 7855112 [⟨⟨(.inside 2),[],.lblank,true,[],false⟩,false,false,[],some 4,some ⟨(.inside 2),[],.lcode,false,[],false⟩,none,true,false,false,none,false,⟨.lblank,some .internalNl,true,.lblank⟩⟩] .leaf))),(.node (.node (.node (.node .leaf 7559016 [⟨⟨(.inside 2),[],.lcode,true,[],false⟩,false,false,[],some 4,some ⟨(.inside 2),[],.lcode,false,[],false⟩,none,false,false,false,none,false,⟨.lcode,some (.own 3),true,.lcode⟩⟩] .leaf) 7559024 [⟨⟨(.inside 2),[],.lcode,true,[],false⟩,false,false,[],some 4,some ⟨(.inside 2),[],.lcode,false,[],false⟩,none,true,false,false,none,false,⟨.lcode,some .internalNl,true,.lcode⟩⟩] .leaf) 7559080 [⟨⟨(.inside 2),[],.lcode,true,[],false⟩,false,false,[],some 4,some ⟨(.inside 2),[],.lcode,false,[],false⟩,none,false,false,false,none,false,⟨.lcode,some (.own 3),true,.lcomment⟩⟩] (.node .leaf 7559088 [⟨⟨(.inside 2),[],.lcode,true,[],false⟩,false,false,[],some 4,some ⟨(.inside 2),[],.lcode,false,[],false⟩,none,true,false,false,none,false,⟨.lcode,some .internalNl,true,.lcomment⟩⟩] .leaf)) 7559144 [⟨⟨(.inside 2),[],.lcode,true,[],false⟩,false,false,[],some 4,some ⟨(.inside 2),[],.lcode,false,[],false⟩,none,false,false,false,none,false,⟨.lcode,some (.own 3),true,.lblank⟩⟩] (.node (.node (.node .leaf 7559152 [⟨⟨(.inside 2),[],.lcode,true,[],false⟩,false,false,[],some 4,some ⟨(.inside 2),[],.lcode,false,[],false⟩,none,true,false,false,none,false,⟨.lcode,some .internalNl,true,.lblank⟩⟩] .leaf) 7854984 [⟨⟨(.inside 2),[],.lblank,true,[],false⟩,false,false,[],some 4,some ⟨(.inside 2),[],.lcode,false,[],false⟩,none,true,false,false,none,false,⟨.lblank,some .internalNl,true,.lcode⟩⟩] .leaf) 7855048 [⟨⟨(.inside 2),[],.lblank,true,[],false⟩,false,false,[],some 4,some ⟨(.inside 2),[],.lcode,false,[],false⟩,none,true,false,false,none,false,⟨.lblank,some .internalNl,true,.lcomment⟩⟩] (.node .leaf 7855112 [⟨⟨(.inside 2),[],.lblank,true,[],false⟩,false,false,[],some 4,some ⟨(.inside 2),[],.lcode,false,[],false⟩,none,true,false,false,none,false,⟨.lblank,some .internalNl,true,.lblank⟩⟩] .leaf))),(.node (.node (.node (.node .leaf 7522181 [⟨⟨(.inside 2),[],.lcode,false,[],false⟩,true,false,[],some 4,some ⟨(.inside 2),[],.lcode,false,[],false⟩,none,false,false,false,none,false,⟨.lcode,some (.own 3),true,.lcode⟩⟩] .leaf) 7522189 [⟨⟨(.inside 2),[],.lcode,false,[],false⟩,true,false,[],some 4,some ⟨(.inside 2),[],.lcode,false,[],false⟩,none,true,false,false,none,false,⟨.lcode,some .internalNl,true,.lcode⟩⟩] .leaf) 7522245 [⟨⟨(.inside 2),[],.lcode,false,[],false⟩,true,false,[],some 4,some ⟨(.inside 2),[],.lcode,false,[],false⟩,none,false,false,false,none,false,⟨.lcode,some (.own 3),true,.lcomment⟩⟩] (.node .leaf 7522253 [⟨⟨(.inside 2),[],.lcode,false,[],false⟩,true,false,[],some 4,some ⟨(.inside 2),[],.lcode,false,[],false⟩,none,true,false,false,none,false,⟨.lcode,some .internalNl,true,.lcomment⟩⟩] .leaf)) 7522309 [⟨⟨(.inside 2),[],.lcode,false,[],false⟩,true,false,[],some 4,some ⟨(.inside 2),[],.lcode,false,[],false⟩,none,false,false,false,none,false,⟨.lcode,some (.own 3),true,.lblank⟩⟩] (.node (.node (.node .leaf 7522317 [⟨⟨(.inside 2),[],.lcode,false,[],false⟩,true,false,[],some 4,some ⟨(.inside 2),[],.lcode,false,[],false⟩,none,true,false,false,none,false,⟨.lcode,some .internalNl,true,.lblank⟩⟩] .leaf) 7818149 [⟨⟨(.inside 2),[],.lblank,false,[],false⟩,true,false,[],some 4,some ⟨(.inside 2),[],.lcode,false,[],false⟩,none,true,false,false,none,false,⟨.lblank,some .internalNl,true,.lcode⟩⟩] .leaf) 7818213 [⟨⟨(.inside 2),[],.lblank,false,[],false⟩,true,false,[],some 4,some ⟨(.inside 2),[],.lcode,false,[],false⟩,none,true,false,false,none,false,⟨.lblank,some .internalNl,true,.lcomment⟩⟩] (.node .leaf 7818277 [⟨⟨(.inside 2),[],.lblank,false,[],false⟩,true,false,[],some 4,some ⟨(.inside 2),[],.lcode,false,[],false⟩,none,true,false,false,none,false,⟨.lblank,some .internalNl,true,.lblank⟩⟩] .leaf))),(.node (.node (.node (.node .leaf 7559032 [⟨⟨(.inside 2),[],.lcode,true,[],false⟩,false,true,[],some 4,some ⟨(.inside 2),[],.lcode,false,[],false⟩,none,false,false,false,none,false,⟨.lcode,some (.own 3),true,.lcode⟩⟩] .leaf) 7559040 [⟨⟨(.inside 2),[],.lcode,true,[],false⟩,false,true,[],some 4,some ⟨(.inside 2),[],.lcode,false,[],false⟩,none,true,false,false,none,false,⟨.lcode,some .internalNl,true,.lcode⟩⟩] .leaf) 7559096 [⟨⟨(.inside 2),[],.lcode,true,[],false⟩,false,true,[],some 4,some ⟨(.inside 2),[],.lcode,false,[],false⟩,none,false,false,false,none,false,⟨.lcode,some (.own 3),true,.lcomment⟩⟩] (.node .leaf 7559104 [⟨⟨(.inside 2),[],.lcode,true,[],false⟩,false,true,[],some 4,some ⟨(.inside 2),[],.lcode,false,[],false⟩,none,true,false,false,none,false,⟨.lcode,some .internalNl,true,.lcomment⟩⟩] .leaf)) 7559160 [⟨⟨(.inside 2),[],.lcode,true,[],false⟩,false,true,[],some 4,some ⟨(.inside 2),[],.lcode,false,[],false⟩,none,false,false,false,none,false,⟨.lcode,some (.own 3),true,.lblank⟩⟩] (.node (.node (.node .leaf 7559168 [⟨⟨(.inside 2),[],.lcode,true,[],false⟩,false,true,[],some 4,some ⟨(.inside 2),[],.lcode,false,[],false⟩,none,true,false,false,none,false,⟨.lcode,some .internalNl,true,.lblank⟩⟩] .leaf) 7855000 [⟨⟨(.inside 2),[],.lblank,true,[],false⟩,false,true,[],some 4,some ⟨(.inside 2),[],.lcode,false,[],false⟩,none,true,false,false,none,false,⟨.lblank,some .internalNl,true,.lcode⟩⟩] .leaf) 7855064 [⟨⟨(.inside 2),[],.lblank,true,[],false⟩,false,true,[],some 4,some ⟨(.inside 2),[],.lcode,false,[],false⟩,none,true,false,false,none,false,⟨.lblank,some .internalNl,true,.lcomment⟩⟩] (.node .leaf 7855128 [⟨⟨(.inside 2),[],.lblank,true,[],false⟩,false,true,[],some 4,some ⟨(.inside 2),[],.lcode,false,[],false⟩,none,true,false,false,none,false,⟨.lblank,some .internalNl,true,.lblank⟩⟩] .leaf))),(.node (.node (.node (.node .leaf 931151100 [⟨⟨(.inside 2),[92],.lcode,false,[],false⟩,false,false,[],some 4,some ⟨(.inside 2),[],.lcode,false,[],false⟩,none,false,false,false,none,false,⟨.lcode,some (.own 3),true,.lcode⟩⟩] .leaf) 931151108 [⟨⟨(.inside 2),[92],.lcode,false,[],false⟩,false,false,[],some 4,some ⟨(.inside 2),[],.lcode,false,[],false⟩,none,true,false,false,none,false,⟨.lcode,some .internalNl,true,.lcode⟩⟩] (.node .leaf 931151164 [⟨⟨(.inside 2),[92],.lcode,false,[],false⟩,false,false,[],some 4,some ⟨(.inside 2),[],.lcode,false,[],false⟩,none,false,false,false,none,false,⟨.lcode,some (.own 3),true,.lcomment⟩⟩] .leaf)) 931151172 [⟨⟨(.inside 2),[92],.lcode,false,[],false⟩,false,false,[],some 4,some ⟨(.inside 2),[],.lcode,false,[],false⟩,none,true,false,false,none,false,⟨.lcode,some .internalNl,true,.lcomment⟩⟩] (.node (.node .leaf 931151228 [⟨⟨(.inside 2),[92],.lcode,false,[],false⟩,false,false,[],some 4,some ⟨(.inside 2),[],.lcode,false,[],false⟩,none,false,false,false,none,false,⟨.lcode,some (.own 3),true,.lblank⟩⟩] .leaf) 931151236 [⟨⟨(.inside 2),[92],.lcode,false,[],false⟩,false,false,[],some 4,some ⟨(.inside 2),[],.lcode,false,[],false⟩,none,true,false,false,none,false,⟨.lcode,some .internalNl,true,.lblank⟩⟩] .leaf)) 969788748 [⟨⟨(.inside 2),[92],.lblank,false,[],false⟩,false,false,[],some 4,some ⟨(.inside 2),[],.lcode,false,[],false⟩,none,true,false,false,none,false,⟨.lblank,some .internalNl,true,.lcode⟩⟩] (.node (.node (.node .leaf 969788812 [⟨⟨(.inside 2),[92],.lblank,false,[],false⟩,false,false,[],some 4,some ⟨(.inside 2),[],.lcode,false,[],false⟩,none,true,false,false,none,false,⟨.lblank,some .internalNl,true,.lcomment⟩⟩] .leaf) 969788876 [⟨⟨(.inside 2),[92],.lblank,false,[],false⟩,false,false,[],some 4,some ⟨(.inside 2),[],.lcode,false,[],false⟩,none,true,false,false,none,false,⟨.lblank,some .internalNl,true,.lblank⟩⟩] .leaf) 1124335212 [⟨⟨(.escapedCr 2),[92],.lblank,false,[],false⟩,false,false,[],some 4,some ⟨(.inside 2),[],.lcode,false,[],false⟩,none,true,false,false,none,false,⟨.lblank,some .internalNl,true,.lcode⟩⟩] (.node (.node .leaf 1124335276 [⟨⟨(.escapedCr 2),[92],.lblank,false,[],false⟩,false,false,[],some 4,some ⟨(.inside 2),[],.lcode,false,[],false⟩,none,true,false,false,none,false,⟨.lblank,some .internalNl,true,.lcomment⟩⟩] .leaf) 1124335340 [⟨⟨(.escapedCr 2),[92],.lblank,false,[],false⟩,false,false,[],some 4,some ⟨(.inside 2),[],.lcode,false,[],false⟩,none,true,false,false,none,false,⟨.lblank,some .internalNl,true,.lblank⟩⟩] .leaf))),(.node (.node .leaf 596272220 [⟨⟨(.inside 1),[],.lcode,false,[],false⟩,false,false,[],some 4,some ⟨.code,[60],.lcode,false,[],false⟩,some ([(35,(.other,false))],false),false,false,false,none,false,⟨.lcode,some (.own 3),false,.lblank⟩⟩] .leaf) 597629068 [⟨⟨(.inside 1),[],.lcomment,false,[],false⟩,false,false,[],some 4,some ⟨.code,[60],.lcomment,false,[],false⟩,some ([(35,(.other,false))],false),false,false,false,none,false,⟨.lcomment,some (.own 3),false,.lblank⟩⟩] (.node .leaf 598837936 [⟨⟨(.inside 1),[],.lcomment,false,[],false⟩,false,false,[],some 4,some ⟨.code,[60],.lblank,false,[],false⟩,some ([(35,(.other,false))],false),false,false,false,none,false,⟨.lcomment,some (.own 3),false,.lblank⟩⟩] .leaf)),(.node (.node (.node (.node .leaf 10692936 [⟨⟨(.inside 3),[],.lcode,true,[],false⟩,false,false,[],some 4,some ⟨(.inside 3),[],.lcode,false,[],false⟩,none,false,false,false,none,false,⟨.lcode,some (.own 3),true,.lcode⟩⟩] .leaf) 10692944 [⟨⟨(.inside 3),[],.lcode,true,[],false⟩,false,false,[],some 4,some ⟨(.inside 3),[],.lcode,false,[],false⟩,none,true,false,false,none,false,⟨.lcode,some .internalNl,true,.lcode⟩⟩] .leaf) 10693000 [⟨⟨(.inside 3),[],.lcode,true,[],false⟩,false,false,[],some 4,some ⟨(.inside 3),[],.lcode,false,[],false⟩,none,false,false,false,none,false,⟨.lcode,some (.own 3),true,.lcomment⟩⟩] (.node .leaf 10693008 [⟨⟨(.inside 3),[],.lcode,true,[],false⟩,false,false,[],some 4,some ⟨(.inside 3),[],.lcode,false,[],false⟩,none,true,false,false,none,false,⟨.lcode,some .internalNl,true,.lcomment⟩⟩] .leaf)) 10693064 [⟨⟨(.inside 3),[],.lcode,true,[],false⟩,false,false,[],some 4,some ⟨(.inside 3),[],.lcode,false,[],false⟩,none,false,false,false,none,false,⟨.lcode,some (.own 3),true,.lblank⟩⟩] (.node (.node (.node .leaf 10693072 [⟨⟨(.inside 3),[],.lcode,true,[],false⟩,false,false,[],some 4,some ⟨(.inside 3),[],.lcode,false,[],false⟩,none,true,false,false,none,false,⟨.lcode,some .internalNl,true,.lblank⟩⟩] .leaf) 10988904 [⟨⟨(.inside 3),[],.lblank,true,[],false⟩,false,false,[],some 4,some ⟨(.inside 3),[],.lcode,false,[],false⟩,none,true,false,false,none,false,⟨.lblank,some .internalNl,true,.lcode⟩⟩] .leaf) 10988968 [⟨⟨(.inside 3),[],.lblank,true,[],false⟩,false,false,[],some 4,some ⟨(.inside 3),[],.lcode,false,[],false⟩,none,true,false,false,none,false,⟨.lblank,some .internalNl,true,.lcomment⟩⟩] (.node .leaf 10989032 [⟨⟨(.inside 3),[],.lblank,true,[],false⟩,false,false,[],some 4,some ⟨(.inside 3),[],.lcode,false,[],false⟩,none,true,false,false,none,false,⟨.lblank,some .internalNl,true,.lblank⟩⟩] .leaf))),.leaf,(.node (.node (.node .leaf 10656069 [⟨⟨(.inside 3),[],.lcode,false,[],false⟩,false,false,[],some 4,some ⟨(.inside 3),[],.lcode,false,[],false⟩,none,false,false,false,none,false,⟨.lcode,some (.own 3),true,.lcode⟩⟩] .leaf) 10656077 [⟨⟨(.inside 3),[],.lcode,false,[],false⟩,false,false,[],some 4,some ⟨(.inside 3),[],.lcode,false,[],false⟩,none,true,false,false,none,false,⟨.lcode,some .internalNl,true,.lcode⟩⟩] (.node .leaf 10656133 [⟨⟨(.inside 3),[],.lcode,false,[],false⟩,false,false,[],some 4,some ⟨(.inside 3),[],.lcode,false,[],false⟩,none,false,false,false,none,false,⟨.lcode,some (.own 3),true,.lcomment⟩⟩] .leaf)) 10656141 [⟨⟨(.inside 3),[],.lcode,false,[],false⟩,false,false,[],some 4,some ⟨(.inside 3),[],.lcode,false,[],false⟩,none,true,false,false,none,false,⟨.lcode,some .internalNl,true,.lcomment⟩⟩] (.node (.node .leaf 10656197 [⟨⟨(.inside 3),[],.lcode,false,[],false⟩,false,false,[],some 4,some ⟨(.inside 3),[],.lcode,false,[],false⟩,none,false,false,false,none,false,⟨.lcode,some (.own 3),true,.lblank⟩⟩] .leaf) 10656205 [⟨⟨(.inside 3),[],.lcode,false,[],false⟩,false,false,[],some 4,some ⟨(.inside 3),[],.lcode,false,[],false⟩,none,true,false,false,none,false,⟨.lcode,some .internalNl,true,.lblank⟩⟩] .leaf)),(.node (.node (.node (.node .leaf 10692936 [⟨⟨(.inside 3),[],.lcode,true,[],false⟩,false,false,[],some 4,some ⟨(.inside 3),[],.lcode,false,[],false⟩,none,false,false,false,none,false,⟨.lcode,some (.own 3),true,.lcode⟩⟩] .leaf) 10692944 [⟨⟨(.inside 3),[],.lcode,true,[],false⟩,false,false,[],some 4,some ⟨(.inside 3),[],.lcode,false,[],false⟩,none,true,false,false,none,false,⟨.lcode,some .internalNl,true,.lcode⟩⟩] .leaf) 10693000 [⟨⟨(.inside 3),[],.lcode,true,[],false⟩,false,false,[],some 4,some ⟨(.inside 3),[],.lcode,false,[],false⟩,none,false,false,false,none,false,⟨.lcode,some (.own 3),true,.lcomment⟩⟩] (.node .leaf 10693008 [⟨⟨(.inside 3),[],.lcode,true,[],false⟩,false,false,[],some 4,some ⟨(.inside 3),[],.lcode,false,[],false⟩,none,true,false,false,none,false,⟨.lcode,some .internalNl,true,.lcomment⟩⟩] .leaf)) 10693064 [⟨⟨(.inside 3),[],.lcode,true,[],false⟩,false,false,[],some 4,some ⟨(.inside 3),[],.lcode,false,[],false⟩,none,false,false,false,none,false,⟨.lcode,some (.own 3),true,.lblank⟩⟩] (.node (.node (.node .leaf 10693072 [⟨⟨(.inside 3),[],.lcode,true,[],false⟩,false,false,[],some 4,some ⟨(.inside 3),[],.lcode,false,[],false⟩,none,true,false,false,none,false,⟨.lcode,some .internalNl,true,.lblank⟩⟩] .leaf) 10988904 [⟨⟨(.inside 3),[],.lblank,true,[],false⟩,false,false,[],some 4,some ⟨(.inside 3),[],.lcode,false,[],false⟩,none,true,false,false,none,false,⟨.lblank,some .internalNl,true,.lcode⟩⟩] .leaf) 10988968 [⟨⟨(.inside 3),[],.lblank,true,[],false⟩,false,false,[],some 4,some ⟨(.inside 3),[],.lcode,false,[],false⟩,none,true,false,false,none,false,⟨.lblank,some .internalNl,true,.lcomment⟩⟩] (.node .leaf 10989032 [⟨⟨(.inside 3),[],.lblank,true,[],false⟩,false,false,[],some 4,some ⟨(.inside 3),[],.lcode,false,[],false⟩,none,true,false,false,none,false,⟨.lblank,some .internalNl,true,.lblank⟩⟩] .leaf))),(.node (.node (.node (.node .leaf 10692936 [⟨⟨(.inside 3),[],.lcode,true,[],false⟩,false,false,[],some 4,some ⟨(.inside 3),[],.lcode,false,[],false⟩,none,false,false,false,none,false,⟨.lcode,some (.own 3),true,.lcode⟩⟩] .leaf) 10692944 [⟨⟨(.inside 3),[],.lcode,true,[],false⟩,false,false,[],some 4,some ⟨(.inside 3),[],.lcode,false,[],false⟩,none,true,false,false,none,false,⟨.lcode,some .internalNl,true,.lcode⟩⟩] .leaf) 10693000 [⟨⟨(.inside 3),[],.lcode,true,[],false⟩,false,false,[],some 4,some ⟨(.inside 3),[],.lcode,false,[],false⟩,none,false,false,false,none,false,⟨.lcode,some (.own 3),true,.lcomment⟩⟩] (.node .leaf 10693008 [⟨⟨(.inside 3),[],.lcode,true,[],false⟩,false,false,[],some 4,some ⟨(.inside 3),[],.lcode,false,[],false⟩,none,true,false,false,none,false,⟨.lcode,some .internalNl,true,.lcomment⟩⟩] .leaf)) 10693064 [⟨⟨(.inside 3),[],.lcode,true,[],false⟩,false,false,[],some 4,some ⟨(.inside 3),[],.lcode,false,[],false⟩,none,false,false,false,none,false,⟨.lcode,some (.own 3),true,.lblank⟩⟩] (.node (.node (.node .leaf 10693072 [⟨⟨(.inside 3),[],.lcode,true,[],false⟩,false,false,[],some 4,some ⟨(.inside 3),[],.lcode,false,[],false⟩,none,true,false,false,none,false,⟨.lcode,some .internalNl,true,.lblank⟩⟩] .leaf) 10988904 [⟨⟨(.inside 3),[],.lblank,true,[],false⟩,false,false,[],some 4,some ⟨(.inside 3),[],.lcode,false,[],false⟩,none,true,false,false,none,false,⟨.lblank,some .internalNl,true,.lcode⟩⟩] .leaf) 10988968 [⟨⟨(.inside 3),[],.lblank,true,[],false⟩,false,false,[],some 4,some ⟨(.inside 3),[],.lcode,false,[],false⟩,none,true,false,false,none,false,⟨.lblank,some .internalNl,true,.lcomment⟩⟩] (.node .leaf 10989032 [⟨⟨(.inside 3),[],.lblank,true,[],false⟩,false,false,[],some 4,some ⟨(.inside 3),[],.lcode,false,[],false⟩,none,true,false,false,none,false,⟨.lblank,some .internalNl,true,.lblank⟩⟩] .leaf))),(.node (.node (.node (.node .leaf 11835845 [⟨⟨(.escapedCr 3),[],.lcode,false,[],false⟩,true,false,[],some 4,some ⟨(.inside 3),[],.lcode,false,[],false⟩,none,false,false,false,none,false,⟨.lcode,some (.own 3),true,.lcode⟩⟩] .leaf) 11835853 [⟨⟨(.escapedCr 3),[],.lcode,false,[],false⟩,true,false,[],some 4,some ⟨(.inside 3),[],.lcode,false,[],false⟩,none,true,false,false,none,false,⟨.lcode,some .internalNl,true,.lcode⟩⟩] .leaf) 11835909 [⟨⟨(.escapedCr 3),[],.lcode,false,[],false⟩,true,false,[],some 4,some ⟨(.inside 3),[],.lcode,false,[],false⟩,none,false,false,false,none,false,⟨.lcode,some (.own 3),true,.lcomment⟩⟩] (.node .leaf 11835917 [⟨⟨(.escapedCr 3),[],.lcode,false,[],false⟩,true,false,[],some 4,some ⟨(.inside 3),[],.lcode,false,[],false⟩,none,true,false,false,none,false,⟨.lcode,some .internalNl,true,.lcomment⟩⟩] .leaf)) 11835973 [⟨⟨(.escapedCr 3),[],.lcode,false,[],false⟩,true,false,[],some 4,some ⟨(.inside 3),[],.lcode,false,[],false⟩,none,false,false,false,none,false,⟨.lcode,some (.own 3),true,.lblank⟩⟩] (.node (.node (.node .leaf 11835981 [⟨⟨(.escapedCr 3),[],.lcode,false,[],false⟩,true,false,[],some 4,some ⟨(.inside 3),[],.lcode,false,[],false⟩,none,true,false,false,none,false,⟨.lcode,some .internalNl,true,.lblank⟩⟩] .leaf) 12131813 [⟨⟨(.escapedCr 3),[],.lblank,false,[],false⟩,true,false,[],some 4,some ⟨(.inside 3),[],.lcode,false,[],false⟩,none,true,false,false,none,false,⟨.lblank,some .internalNl,true,.lcode⟩⟩] .leaf) 12131877 [⟨⟨(.escapedCr 3),[],.lblank,false,[],false⟩,true,false,[],some 4,some ⟨(.inside 3),[],.lcode,false,[],false⟩,none,true,false,false,none,false,⟨.lblank,some .internalNl,true,.lcomment⟩⟩] (.node .leaf 12131941 [⟨⟨(.escapedCr 3),[],.lblank,false,[],false⟩,true,false,[],some 4,some ⟨(.inside 3),[],.lcode,false,[],false⟩,none,true,false,false,none,false,⟨.lblank,some .internalNl,true,.lblank⟩⟩] .leaf))),(.node (.node (.node (.node .leaf 11872696 [⟨⟨(.escapedCr 3),[],.lcode,true,[],false⟩,false,true,[],some 4,some ⟨(.inside 3),[],.lcode,false,[],false⟩,none,false,false,false,none,false,⟨.lcode,some (.own 3),true,.lcode⟩⟩] .leaf) 11872704 [⟨⟨(.escapedCr 3),[],.lcode,true,[],false⟩,false,true,[],some 4,some ⟨(.inside 3),[],.lcode,false,[],false⟩,none,true,false,false,none,false,⟨.lcode,some .internalNl,true,.lcode⟩⟩] .leaf) 11872760 [⟨⟨(.escapedCr 3),[],.lcode,true,[],false⟩,false,true,[],some 4,some ⟨(.inside 3),[],.lcode,false,[],false⟩,none,false,false,false,none,false,⟨.lcode,some (.own 3),true,.lcomment⟩⟩] (.node .leaf 11872768 [⟨⟨(.escapedCr 3),[],.lcode,true,[],false⟩,false,true,[],some 4,some ⟨(.inside 3),[],.lcode,false,[],false⟩,none,true,false,false,none,false,⟨.lcode,some .internalNl,true,.lcomment⟩⟩] .leaf)) 11872824 [⟨⟨(.escapedCr 3),[],.lcode,true,[],false⟩,false,true,[],some 4,some ⟨(.inside 3),[],.lcode,false,[],false⟩,none,false,false,false,none,false,⟨.lcode,some (.own 3),true,.lblank⟩⟩] (.node (.node (.node .leaf 11872832 [⟨⟨(.escapedCr 3),[],.lcode,true,[],false⟩,false,true,[],some 4,some ⟨(.inside 3),[],.lcode,false,[],false⟩,none,true,false,false,none,false,⟨.lcode,some .internalNl,true,.lblank⟩⟩] .leaf) 12168664 [⟨⟨(.escapedCr 3),[],.lblank,true,[],false⟩,false,true,[],some 4,some ⟨(.inside 3),[],.lcode,false,[],false⟩,none,true,false,false,none,false,⟨.lblank,some .internalNl,true,.lcode⟩⟩] .leaf) 12168728 [⟨⟨(.escapedCr 3),[],.lblank,true,[],false⟩,false,true,[],some 4,some ⟨(.inside 3),[],.lcode,false,[],false⟩,none,true,false,false,none,false,⟨.lblank,some .internalNl,true,.lcomment⟩⟩] (.node .leaf 12168792 [⟨⟨(.escapedCr 3),[],.lblank,true,[],false⟩,false,true,[],some 4,some ⟨(.inside 3),[],.lcode,false,[],false⟩,none,true,false,false,none,false,⟨.lblank,some .internalNl,true,.lblank⟩⟩] .leaf))),(.node (.node (.node (.node .leaf 7559016 [⟨⟨(.inside 2),[],.lcode,true,[],false⟩,false,false,[],some 4,some ⟨(.inside 2),[],.lcode,false,[],false⟩,none,false,false,false,none,false,⟨.lcode,some (.own 3),true,.lcode⟩⟩] .leaf) 7559024 [⟨⟨(.inside 2),[],.lcode,true,[],false⟩,false,false,[],some 4,some ⟨(.inside 2),[],.lcode,false,[],false⟩,none,true,false,false,none,false,⟨.lcode,some .internalNl,true,.lcode⟩⟩] .leaf) 7559080 [⟨⟨(.inside 2),[],.lcode,true,[],false⟩,false,false,[],some 4,some ⟨(.inside 2),[],.lcode,false,[],false⟩,none,false,false,false,none,false,⟨.lcode,some (.own 3),true,.lcomment⟩⟩] (.node .leaf 7559088 [⟨⟨(.inside 2),[],.lcode,true,[],false⟩,false,false,[],some 4,some ⟨(.inside 2),[],.lcode,false,[],false⟩,none,true,false,false,none,false,⟨.lcode,some .internalNl,true,.lcomment⟩⟩] .leaf)) 7559144 [⟨⟨(.inside 2),[],.lcode,true,[],false⟩,false,false,[],some 4,some ⟨(.inside 2),[],.lcode,false,[],false⟩,none,false,false,false,none,false,⟨.lcode,some (.own 3),true,.lblank⟩⟩] (.node (.node (.node .leaf 7559152 [⟨⟨(.inside 2),[],.lcode,true,[],false⟩,false,false,[],some 4,some ⟨(.inside 2),[],.lcode,false,[],false⟩,none,true,false,false,none,false,⟨.lcode,some .internalNl,true,.lblank⟩⟩] .leaf) 7854984 [⟨⟨(.inside 2),[],.lblank,true,[],false⟩,false,false,[],some 4,some ⟨(.inside 2),[],.lcode,false,[],false⟩,none,true,false,false,none,false,⟨.lblank,some .internalNl,true,.lcode⟩⟩] .leaf) 7855048 [⟨⟨(.inside 2),[],.lblank,true,[],false⟩,false,false,[],some 4,some ⟨(.inside 2),[],.lcode,false,[],false⟩,none,true,false,false,none,false,⟨.lblank,some .internalNl,true,.lcomment⟩⟩] (.node .leaf 7855112 [⟨⟨(.inside 2),[],.lblank,true,[],false⟩,false,false,[],some 4,some ⟨(.inside 2),[],.lcode,false,[],false⟩,none,true,false,false,none,false,⟨.lblank,some .internalNl,true,.lblank⟩⟩] .leaf))),.leaf,(.node (.node (.node .leaf 7522149 [⟨⟨(.inside 2),[],.lcode,false,[],false⟩,false,false,[],some 4,some ⟨(.inside 2),[],.lcode,false,[],false⟩,none,false,false,false,none,false,⟨.lcode,some (.own 3),true,.lcode⟩⟩] .leaf) 7522157 [⟨⟨(.inside 2),[],.lcode,false,[],false⟩,false,false,[],some 4,some ⟨(.inside 2),[],.lcode,false,[],false⟩,none,true,false,false,none,false,⟨.lcode,some .internalNl,true,.lcode⟩⟩] (.node .leaf 7522213 [⟨⟨(.inside 2),[],.lcode,false,[],false⟩,false,false,[],some 4,some ⟨(.inside 2),[],.lcode,false,[],false⟩,none,false,false,false,none,false,⟨.lcode,some (.own 3),true,.lcomment⟩⟩] .leaf)) 7522221 [⟨⟨(.inside 2),[],.lcode,false,[],false⟩,false,false,[],some 4,some ⟨(.inside 2),[],.lcode,false,[],false⟩,none,true,false,false,none,false,⟨.lcode,some .internalNl,true,.lcomment⟩⟩] (.node (.node .leaf 7522277 [⟨⟨(.inside 2),[],.lcode,false,[],false⟩,false,false,[],some 4,some ⟨(.inside 2),[],.lcode,false,[],false⟩,none,false,false,false,none,false,⟨.lcode,some (.own 3),true,.lblank⟩⟩] .leaf) 7522285 [⟨⟨(.inside 2),[],.lcode,false,[],false⟩,false,false,[],some 4,some ⟨(.inside 2),[],.lcode,false,[],false⟩,none,true,false,false,none,false,⟨.lcode,some .internalNl,true,.lblank⟩⟩] .leaf)),(.node (.node (.node (.node .leaf 7559016 [⟨⟨(.inside 2),[],.lcode,true,[],false⟩,false,false,[],some 4,some ⟨(.inside 2),[],.lcode,false,[],false⟩,none,false,false,false,none,false,⟨.lcode,some (.own 3),true,.lcode⟩⟩] .leaf) 7559024 [⟨⟨(.inside 2),[],.lcode,true,[],false⟩,false,false,[],some 4,some ⟨(.inside 2),[],.lcode,false,[],false⟩,none,true,false,false,none,false,⟨.lcode,some .internalNl,true,.lcode⟩⟩] .leaf) 7559080 [⟨⟨(.inside 2),[],.lcode,true,[],false⟩,false,false,[],some 4,some ⟨(.inside 2),[],.lcode,false,[],false⟩,none,false,false,false,none,false,⟨.lcode,some (.own 3),true,.lcomment⟩⟩] (.node .leaf 7559088 [⟨⟨(.inside 2),[],.lcode,true,[],false⟩,false,false,[],some 4,some ⟨(.inside 2),[],.lcode,false,[],false⟩,none,true,false,false,none,false,⟨.lcode,some .internalNl,true,.lcomment⟩⟩] .leaf)) 7559144 [⟨⟨(.inside 2),[],.lcode,true,[],false⟩,false,false,[],some 4,some ⟨(.inside 2),[],.lcode,false,[],false⟩,none,false,false,false,none,false,⟨.lcode,some (.own 3),true,.lblank⟩⟩] (.node (.node (.node .leaf 7559152 [⟨⟨(.inside 2),[],.lcode,true,[],false⟩,false,false,[],some 4,some ⟨(.inside 2),[],.lcode,false,[],false⟩,none,true,false,false,none,false,⟨.lcode,some .internalNl,true,.lblank⟩⟩] .leaf) 7854984 [⟨⟨(.inside 2),[],.lblank,true,[],false⟩,false,false,[],some 4,some ⟨(.inside 2),[],.lcode,false,[],false⟩,none,true,false,false,none,false,⟨.lblank,some .internalNl,true,.lcode⟩⟩] .leaf) 7855048 [⟨⟨(.inside 2),[],.lblank,true,[],false⟩,false,false,[],some 4,some ⟨(.inside 2),[],.lcode,false,[],false⟩,none,true,false,false,none,false,⟨.lblank,some .internalNl,true,.lcomment⟩⟩] (.node .leaf 7855112 [⟨⟨(.inside 2),[],.lblank,true,[],false⟩,false,false,[],some 4,some ⟨(.inside 2),[],.lcode,false,[],false⟩,none,true,false,false,none,false,⟨.lblank,some .internalNl,true,.lblank⟩⟩] .leaf))),(.node (.node (.node (.node .leaf 7559016 [⟨⟨(.inside 2),[],.lcode,true,[],false⟩,false,false,[],some 4,some ⟨(.inside 2),[],.lcode,false,[],false⟩,none,false,false,false,none,false,⟨.lcode,some (.own 3),true,.lcode⟩⟩] .leaf) 7559024 [⟨⟨(.inside 2),[],.lcode,true,[],false⟩,false,false,[],some 4,some ⟨(.inside 2),[],.lcode,false,[],false⟩,none,true,false,false,none,false,⟨.lcode,some .internalNl,true,.lcode⟩⟩] .leaf) 7559080 [⟨⟨(.inside 2),[],.lcode,true,[],false⟩,false,false,[],some 4,some ⟨(.inside 2),[],.lcode,false,[],false⟩,none,false,false,false,none,false,⟨.lcode,some (.own 3),true,.lcomment⟩⟩] (.node .leaf 7559088 [⟨⟨(.inside 2),[],.lcode,true,[],false⟩,false,false,[],some 4,some ⟨(.inside 2),[],.lcode,false,[],false⟩,none,true,false,false,none,false,⟨.lcode,some .internalNl,true,.lcomment⟩⟩] .leaf)) 7559144 [⟨⟨(.inside 2),[],.lcode,true,[],false⟩,false,false,[],some 4,some ⟨(.inside 2),[],.lcode,false,[],false⟩,none,false,false,false,none,false,⟨.lcode,some (.own 3),true,.lblank⟩⟩] (.node (.node (.node .leaf 7559152 [⟨⟨(.inside 2),[],.lcode,true,[],false⟩,false,false,[],some 4,some ⟨(.inside 2),[],.lcode,false,[],false⟩,none,true,false,false,none,false,⟨.lcode,some .internalNl,true,.lblank⟩⟩] .leaf) 7854984 [⟨⟨(.inside 2),[],.lblank,true,[],false⟩,false,false,[],some 4,some ⟨(.inside 2),[],.lcode,false,[],false⟩,none,true,false,false,none,false,⟨.lblank,some .internalNl,true,.lcode⟩⟩] .leaf) 7855048 [⟨⟨(.inside 2),[],.lblank,true,[],false⟩,false,false,[],some 4,some ⟨(.inside 2),[],.lcode,false,[],false⟩,none,true,false,false,none,false,⟨.lblank,some .internalNl,true,.lcomment⟩⟩] (.node .leaf 7855112 [⟨⟨(.inside 2),[],.lblank,true,[],false⟩,false,false,[],some 4,some ⟨(.inside 2),[],.lcode,false,[],false⟩,none,true,false,false,none,false,⟨.lblank,some .internalNl,true,.lblank⟩⟩] .leaf))),(.node (.node (.node (.node .leaf 8701925 [⟨⟨(.escapedCr 2),[],.lcode,false,[],false⟩,true,false,[],some 4,some ⟨(.inside 2),[],.lcode,false,[],false⟩,none,false,false,false,none,false,⟨.lcode,some (.own 3),true,.lcode⟩⟩] .leaf) 8701933 [⟨⟨(.escapedCr 2),[],.lcode,false,[],false⟩,true,false,[],some 4,some ⟨(.inside 2),[],.lcode,false,[],false⟩,none,true,false,false,none,false,⟨.lcode,some .internalNl,true,.lcode⟩⟩] .leaf) 8701989 [⟨⟨(.escapedCr 2),[],.lcode,false,[],false⟩,true,false,[],some 4,some ⟨(.inside 2),[],.lcode,false,[],false⟩,none,false,false,false,none,false,⟨.lcode,some (.own 3),true,.lcomment⟩⟩] (.node .leaf 8701997 [⟨⟨(.escapedCr 2),[],.lcode,false,[],false⟩,true,false,[],some 4,some ⟨(.inside 2),[],.lcode,false,[],false⟩,none,true,false,false,none,false,⟨.lcode,some .internalNl,true,.lcomment⟩⟩] .leaf)) 8702053 [⟨⟨(.escapedCr 2),[],.lcode,false,[],false⟩,true,false,[],some 4,some ⟨(.inside 2),[],.lcode,false,[],false⟩,none,false,false,false,none,false,⟨.lcode,some (.own 3),true,.lblank⟩⟩] (.node (.node (.node .leaf 8702061 [⟨⟨(.escapedCr 2),[],.lcode,false,[],false⟩,true,false,[],some 4,some ⟨(.inside 2),[],.lcode,false,[],false⟩,none,true,false,false,none,false,⟨.lcode,some .internalNl,true,.lblank⟩⟩] .leaf) 8997893 [⟨⟨(.escapedCr 2),[],.lblank,false,[],false⟩,true,false,[],some 4,some ⟨(.inside 2),[],.lcode,false,[],false⟩,none,true,false,false,none,false,⟨.lblank,some .internalNl,true,.lcode⟩⟩] .leaf) 8997957 [⟨⟨(.escapedCr 2),[],.lblank,false,[],false⟩,true,false,[],some 4,some ⟨(.inside 2),[],.lcode,false,[],false⟩,none,true,false,false,none,false,⟨.lblank,some .internalNl,true,.lcomment⟩⟩] (.node .leaf 8998021 [⟨⟨(.escapedCr 2),[],.lblank,false,[],false⟩,true,false,[],some 4,some ⟨(.inside 2),[],.lcode,false,[],false⟩,none,true,false,false,none,false,⟨.lblank,some .internalNl,true,.lblank⟩⟩] .leaf))),(.node (.node (.node (.node .leaf 8738776 [⟨⟨(.escapedCr 2),[],.lcode,true,[],false⟩,false,true,[],some 4,some ⟨(.inside 2),[],.lcode,false,[],false⟩,none,false,false,false,none,false,⟨.lcode,some (.own 3),true,.lcode⟩⟩] .leaf) 8738784 [⟨⟨(.escapedCr 2),[],.lcode,true,[],false⟩,false,true,[],some 4,some ⟨(.inside 2),[],.lcode,false,[],false⟩,none,true,false,false,none,false,⟨.lcode,some .internalNl,true,.lcode⟩⟩] .leaf) 8738840 [⟨⟨(.escapedCr 2),[],.lcode,true,[],false⟩,false,true,[],some 4,some ⟨(.inside 2),[],.lcode,false,[],false⟩,none,false,false,false,none,false,⟨.lcode,some (.own 3),true,.lcomment⟩⟩] (.node .leaf 8738848 [⟨⟨(.escapedCr 2),[],.lcode,true,[],false⟩,false,true,[],some 4,some ⟨(.inside 2),[],.lcode,false,[],false⟩,none,true,false,false,none,false,⟨.lcode,some .internalNl,true,.lcomment⟩⟩] .leaf)) 8738904 [⟨⟨(.escapedCr 2),[],.lcode,true,[],false⟩,false,true,[],some 4,some ⟨(.inside 2),[],.lcode,false,[],false⟩,none,false,false,false,none,false,⟨.lcode,some (.own 3),true,.lblank⟩⟩] (.node (.node (.node .leaf 8738912 [⟨⟨(.escapedCr 2),[],.lcode,true,[],false⟩,false,true,[],some 4,some ⟨(.inside 2),[],.lcode,false,[],false⟩,none,true,false,false,none,false,⟨.lcode,some .internalNl,true,.lblank⟩⟩] .leaf) 9034744 [⟨⟨(.escapedCr 2),[],.lblank,true,[],false⟩,false,true,[],some 4,some ⟨(.inside 2),[],.lcode,false,[],false⟩,none,true,false,false,none,false,⟨.lblank,some .internalNl,true,.lcode⟩⟩] .leaf) 9034808 [⟨⟨(.escapedCr 2),[],.lblank,true,[],false⟩,false,true,[],some 4,some ⟨(.inside 2),[],.lcode,false,[],false⟩,none,true,false,false,none,false,⟨.lblank,some .internalNl,true,.lcomment⟩⟩] (.node .leaf 9034872 [⟨⟨(.escapedCr 2),[],.lblank,true,[],false⟩,false,true,[],some 4,some ⟨(.inside 2),[],.lcode,false,[],false⟩,none,true,false,false,none,false,⟨.lblank,some .internalNl,true,.lblank⟩⟩] .leaf))),(.node (.node (.node .leaf 596272220 [⟨⟨(.inside 1),[],.lcode,false,[],false⟩,false,false,[],some 4,some ⟨.code,[60],.lcode,false,[],false⟩,some ([(35,(.other,false))],false),false,false,false,none,false,⟨.lcode,some (.own 3),false,.lblank⟩⟩] .leaf) 596420208 [⟨⟨(.inside 1),[],.lcomment,false,[],false⟩,false,false,[],some 4,some ⟨.code,[60],.lcode,false,[],false⟩,some ([(35,(.other,false))],false),true,false,false,none,false,⟨.lcomment,some .internalNl,false,.lblank⟩⟩] (.node .leaf 597629068 [⟨⟨(.inside 1),[],.lcomment,false,[],false⟩,false,false,[],some 4,some ⟨.code,[60],.lcomment,false,[],false⟩,some ([(35,(.other,false))],false),false,false,false,none,false,⟨.lcomment,some (.own 3),false,.lblank⟩⟩] .leaf)) 597629076 [⟨⟨(.inside 1),[],.lcomment,false,[],false⟩,false,false,[],some 4,some ⟨.code,[60],.lcomment,false,[],false⟩,some ([(35,(.other,false))],false),true,false,false,none,false,⟨.lcomment,some .internalNl,false,.lblank⟩⟩] (.node (.node .leaf 598837936 [⟨⟨(.inside 1),[],.lcomment,false,[],false⟩,false,false,[],some 4,some ⟨.code,[60],.lblank,false,[],false⟩,some ([(35,(.other,false))],false),false,false,false,none,false,⟨.lcomment,some (.own 3),false,.lblank⟩⟩] .leaf) 598837944 [⟨⟨(.inside 1),[],.lcomment,false,[],false⟩,false,false,[],some 4,some ⟨.code,[60],.lblank,false,[],false⟩,some ([(35,(.other,false))],false),true,false,false,none,false,⟨.lcomment,some .internalNl,false,.lblank⟩⟩] .leaf)),(.node (.node (.node (.node .leaf 596272220 [⟨⟨(.inside 1),[],.lcode,false,[],false⟩,false,false,[],some 4,some ⟨.code,[60],.lcode,false,[],false⟩,some ([(35,(.other,false))],false),false,false,false,none,false,⟨.lcode,some (.own 3),false,.lblank⟩⟩] .leaf) 596420208 [⟨⟨(.inside 1),[],.lcomment,false,[],false⟩,false,false,[],some 4,some ⟨.code,[60],.lcode,false,[],false⟩,some ([(35,(.other,false))],false),true,false,false,none,false,⟨.lcomment,some .internalNl,false,.lblank⟩⟩] .leaf) 596568188 [⟨⟨(.inside 1),[],.lblank,false,[],false⟩,false,false,[],some 4,some ⟨.code,[60],.lcode,false,[],false⟩,some ([(35,(.other,false))],false),true,false,false,none,false,⟨.lblank,some .internalNl,false,.lblank⟩⟩] (.node .leaf 597629068 [⟨⟨(.inside 1),[],.lcomment,false,[],false⟩,false,false,[],some 4,some ⟨.code,[60],.lcomment,false,[],false⟩,some ([(35,(.other,false))],false),false,false,false,none,false,⟨.lcomment,some (.own 3),false,.lblank⟩⟩] .leaf)) 597629076 [⟨⟨(.inside 1),[],.lcomment,false,[],false⟩,false,false,[],some 4,some ⟨.code,[60],.lcomment,false,[],false⟩,some ([(35,(.other,false))],false),true,false,false,none,false,⟨.lcomment,some .internalNl,false,.lblank⟩⟩] (.node (.node (.node .leaf 597777056 [⟨⟨(.inside 1),[],.lblank,false,[],false⟩,false,false,[],some 4,some ⟨.code,[60],.lcomment,false,[],false⟩,some ([(35,(.other,false))],false),true,false,false,none,false,⟨.lblank,some .internalNl,false,.lblank⟩⟩] .leaf) 598837936 [⟨⟨(.inside 1),[],.lcomment,false,[],false⟩,false,false,[],some 4,some ⟨.code,[60],.lblank,false,[],false⟩,some ([(35,(.other,false))],false),false,false,false,none,false,⟨.lcomment,some (.own 3),false,.lblank⟩⟩] .leaf) 598837944 [⟨⟨(.inside 1),[],.lcomment,false,[],false⟩,false,false,[],some 4,some ⟨.code,[60],.lblank,false,[],false⟩,some ([(35,(.other,false))],false),true,false,false,none,false,⟨.lcomment,some .internalNl,false,.lblank⟩⟩] (.node .leaf 598985924 [⟨⟨(.inside 1),[],.lblank,false,[],false⟩,false,false,[],some 4,some ⟨.code,[60],.lblank,false,[],false⟩,some ([(35,(.other,false))],false),true,false,false,none,false,⟨.lblank,some .internalNl,false,.lblank⟩⟩] .leaf))),(.node (.node (.node (.node .leaf 596309087 [⟨⟨(.inside 1),[],.lcode,true,[],false⟩,false,false,[],some 4,some ⟨.code,[60],.lcode,false,[],false⟩,some ([(35,(.other,false))],false),false,false,false,none,false,⟨.lcode,some (.own 3),false,.lblank⟩⟩] .leaf) 596457075 [⟨⟨(.inside 1),[],.lcomment,true,[],false⟩,false,false,[],some 4,some ⟨.code,[60],.lcode,false,[],false⟩,some ([(35,(.other,false))],false),true,false,false,none,false,⟨.lcomment,some .internalNl,false,.lblank⟩⟩] .leaf) 596605055 [⟨⟨(.inside 1),[],.lblank,true,[],false⟩,false,false,[],some 4,some ⟨.code,[60],.lcode,false,[],false⟩,some ([(35,(.other,false))],false),true,false,false,none,false,⟨.lblank,some .internalNl,false,.lblank⟩⟩] (.node .leaf 597665935 [⟨⟨(.inside 1),[],.lcomment,true,[],false⟩,false,false,[],some 4,some ⟨.code,[60],.lcomment,false,[],false⟩,some ([(35,(.other,false))],false),false,false,false,none,false,⟨.lcomment,some (.own 3),false,.lblank⟩⟩] .leaf)) 597665943 [⟨⟨(.inside 1),[],.lcomment,true,[],false⟩,false,false,[],some 4,some ⟨.code,[60],.lcomment,false,[],false⟩,some ([(35,(.other,false))],false),true,false,false,none,false,⟨.lcomment,some .internalNl,false,.lblank⟩⟩] (.node (.node (.node .leaf 597813923 [⟨⟨(.inside 1),[],.lblank,true,[],false⟩,false,false,[],some 4,some ⟨.code,[60],.lcomment,false,[],false⟩,some ([(35,(.other,false))],false),true,false,false,none,false,⟨.lblank,some .internalNl,false,.lblank⟩⟩] .leaf) 598874803 [⟨⟨(.inside 1),[],.lcomment,true,[],false⟩,false,false,[],some 4,some ⟨.code,[60],.lblank,false,[],false⟩,some ([(35,(.other,false))],false),false,false,false,none,false,⟨.lcomment,some (.own 3),false,.lblank⟩⟩] .leaf) 598874811 [⟨⟨(.inside 1),[],.lcomment,true,[],false⟩,false,false,[],some 4,some ⟨.code,[60],.lblank,false,[],false⟩,some ([(35,(.other,false))],false),true,false,false,none,false,⟨.lcomment,some .internalNl,false,.lblank⟩⟩] (.node .leaf 599022791 [⟨⟨(.inside 1),[],.lblank,true,[],false⟩,false,false,[],some 4,some ⟨.code,[60],.lblank,false,[],false⟩,some ([(35,(.other,false))],false),true,false,false,none,false,⟨.lblank,some .internalNl,false,.lblank⟩⟩] .leaf))),(.node (.node (.node (.node .leaf 596309087 [⟨⟨(.inside 1),[],.lcode,true,[],false⟩,false,false,[],some 4,some ⟨.code,[60],.lcode,false,[],false⟩,some ([(35,(.other,false))],false),false,false,false,none,false,⟨.lcode,some (.own 3),false,.lblank⟩⟩] .leaf) 596457075 [⟨⟨(.inside 1),[],.lcomment,true,[],false⟩,false,false,[],some 4,some ⟨.code,[60],.lcode,false,[],false⟩,some ([(35,(.other,false))],false),true,false,false,none,false,⟨.lcomment,some .internalNl,false,.lblank⟩⟩] .leaf) 596605055 [⟨⟨(.inside 1),[],.lblank,true,[],false⟩,false,false,[],some 4,some ⟨.code,[60],.lcode,false,[],false⟩,some ([(35,(.other,false))],false),true,false,false,none,false,⟨.lblank,some .internalNl,false,.lblank⟩⟩] (.node .leaf 597665935 [⟨⟨(.inside 1),[],.lcomment,true,[],false⟩,false,false,[],some 4,some ⟨.code,[60],.lcomment,false,[],false⟩,some ([(35,(.other,false))],false),false,false,false,none,false,⟨.lcomment,some (.own 3),false,.lblank⟩⟩] .leaf)) 597665943 [⟨⟨(.inside 1),[],.lcomment,true,[],false⟩,false,false,[],some 4,some ⟨.code,[60],.lcomment,false,[],false⟩,some ([(35,(.other,false))],false),true,false,false,none,false,⟨.lcomment,some .internalNl,false,.lblank⟩⟩] (.node (.node (.node .leaf 597813923 [⟨⟨(.inside 1),[],.lblank,true,[],false⟩,false,false,[],some 4,some ⟨.code,[60],.lcomment,false,[],false⟩,some ([(35,(.other,false))],false),true,false,false,none,false,⟨.lblank,some .internalNl,false,.lblank⟩⟩] .leaf) 598874803 [⟨⟨(.inside 1),[],.lcomment,true,[],false⟩,false,false,[],some 4,some ⟨.code,[60],.lblank,false,[],false⟩,some ([(35,(.other,false))],false),false,false,false,none,false,⟨.lcomment,some (.own 3),false,.lblank⟩⟩] .leaf) 598874811 [⟨⟨(.inside 1),[],.lcomment,true,[],false⟩,false,false,[],some 4,some ⟨.code,[60],.lblank,false,[],false⟩,some ([(35,(.other,false))],false),true,false,false,none,false,⟨.lcomment,some .internalNl,false,.lblank⟩⟩] (.node .leaf 599022791 [⟨⟨(.inside 1),[],.lblank,true,[],false⟩,false,false,[],some 4,some ⟨.code,[60],.lblank,false,[],false⟩,some ([(35,(.other,false))],false),true,false,false,none,false,⟨.lblank,some .internalNl,false,.lblank⟩⟩] .leaf))),(.node (.node (.node (.node .leaf 596272252 [⟨⟨(.inside 1),[],.lcode,false,[],false⟩,true,false,[],some 4,some ⟨.code,[60],.lcode,false,[],false⟩,some ([(35,(.other,false))],false),false,false,false,none,false,⟨.lcode,some (.own 3),false,.lblank⟩⟩] .leaf) 596420240 [⟨⟨(.inside 1),[],.lcomment,false,[],false⟩,true,false,[],some 4,some ⟨.code,[60],.lcode,false,[],false⟩,some ([(35,(.other,false))],false),true,false,false,none,false,⟨.lcomment,some .internalNl,false,.lblank⟩⟩] .leaf) 596568220 [⟨⟨(.inside 1),[],.lblank,false,[],false⟩,true,false,[],some 4,some ⟨.code,[60],.lcode,false,[],false⟩,some ([(35,(.other,false))],false),true,false,false,none,false,⟨.lblank,some .internalNl,false,.lblank⟩⟩] (.node .leaf 597629100 [⟨⟨(.inside 1),[],.lcomment,false,[],false⟩,true,false,[],some 4,some ⟨.code,[60],.lcomment,false,[],false⟩,some ([(35,(.other,false))],false),false,false,false,none,false,⟨.lcomment,some (.own 3),false,.lblank⟩⟩] .leaf)) 597629108 [⟨⟨(.inside 1),[],.lcomment,false,[],false⟩,true,false,[],some 4,some ⟨.code,[60],.lcomment,false,[],false⟩,some ([(35,(.other,false))],false),true,false,false,none,false,⟨.lcomment,some .internalNl,false,.lblank⟩⟩] (.node (.node (.node .leaf 597777088 [⟨⟨(.inside 1),[],.lblank,false,[],false⟩,true,false,[],some 4,some ⟨.code,[60],.lcomment,false,[],false⟩,some ([(35,(.other,false))],false),true,false,false,none,false,⟨.lblank,some .internalNl,false,.lblank⟩⟩] .leaf) 598837968 [⟨⟨(.inside 1),[],.lcomment,false,[],false⟩,true,false,[],some 4,some ⟨.code,[60],.lblank,false,[],false⟩,some ([(35,(.other,false))],false),false,false,false,none,false,⟨.lcomment,some (.own 3),false,.lblank⟩⟩] .leaf) 598837976 [⟨⟨(.inside 1),[],.lcomment,false,[],false⟩,true,false,[],some 4,some ⟨.code,[60],.lblank,false,[],false⟩,some ([(35,(.other,false))],false),true,false,false,none,false,⟨.lcomment,some .internalNl,false,.lblank⟩⟩] (.node .leaf 598985956 [⟨⟨(.inside 1),[],.lblank,false,[],false⟩,true,false,[],some 4,some ⟨.code,[60],.lblank,false,[],false⟩,some ([(35,(.other,false))],false),true,false,false,none,false,⟨.lblank,some .internalNl,false,.lblank⟩⟩] .leaf))),(.node (.node (.node (.node .leaf 596309103 [⟨⟨(.inside 1),[],.lcode,true,[],false⟩,false,true,[],some 4,some ⟨.code,[60],.lcode,false,[],false⟩,some ([(35,(.other,false))],false),false,false,false,none,false,⟨.lcode,some (.own 3),false,.lblank⟩⟩] .leaf) 596457091 [⟨⟨(.inside 1),[],.lcomment,true,[],false⟩,false,true,[],some 4,some ⟨.code,[60],.lcode,false,[],false⟩,some ([(35,(.other,false))],false),true,false,false,none,false,⟨.lcomment,some .internalNl,false,.lblank⟩⟩] .leaf) 596605071 [⟨⟨(.inside 1),[],.lblank,true,[],false⟩,false,true,[],some 4,some ⟨.code,[60],.lcode,false,[],false⟩,some ([(35,(.other,false))],false),true,false,false,none,false,⟨.lblank,some .internalNl,false,.lblank⟩⟩] (.node .leaf 597665951 [⟨⟨(.inside 1),[],.lcomment,true,[],false⟩,false,true,[],some 4,some ⟨.code,[60],.lcomment,false,[],false⟩,some ([(35,(.other,false))],false),false,false,false,none,false,⟨.lcomment,some (.own 3),false,.lblank⟩⟩] .leaf)) 597665959 [⟨⟨(.inside 1),[],.lcomment,true,[],false⟩,false,true,[],some 4,some ⟨.code,[60],.lcomment,false,[],false⟩,some ([(35,(.other,false))],false),true,false,false,none,false,⟨.lcomment,some .internalNl,false,.lblank⟩⟩] (.node (.node (.node .leaf 597813939 [⟨⟨(.inside 1),[],.lblank,true,[],false⟩,false,true,[],some 4,some ⟨.code,[60],.lcomment,false,[],false⟩,some ([(35,(.other,false))],false),true,false,false,none,false,⟨.lblank,some .internalNl,false,.lblank⟩⟩] .leaf) 598874819 [⟨⟨(.inside 1),[],.lcomment,true,[],false⟩,false,true,[],some 4,some ⟨.code,[60],.lblank,false,[],false⟩,some ([(35,(.other,false))],false),false,false,false,none,false,⟨.lcomment,some (.own 3),false,.lblank⟩⟩] .leaf) 598874827 [⟨⟨(.inside 1),[],.lcomment,true,[],false⟩,false,true,[],some 4,some ⟨.code,[60],.lblank,false,[],false⟩,some ([(35,(.other,false))],false),true,false,false,none,false,⟨.lcomment,some .internalNl,false,.lblank⟩⟩] (.node .leaf 599022807 [⟨⟨(.inside 1),[],.lblank,true,[],false⟩,false,true,[],some 4,some ⟨.code,[60],.lblank,false,[],false⟩,some ([(35,(.other,false))],false),true,false,false,none,false,⟨.lblank,some .internalNl,false,.lblank⟩⟩] .leaf))),(.node (.node (.node (.node .leaf 1134382952 [⟨⟨(.inside 1),[35],.lcode,false,[],false⟩,false,false,[],some 4,some ⟨.code,[60],.lcode,false,[],false⟩,some ([(35,(.other,false))],false),false,false,false,none,false,⟨.lcode,some (.own 3),false,.lblank⟩⟩] .leaf) 1153701780 [⟨⟨(.inside 1),[35],.lcomment,false,[],false⟩,false,false,[],some 4,some ⟨.code,[60],.lcode,false,[],false⟩,some ([(35,(.other,false))],false),true,false,false,none,false,⟨.lcomment,some .internalNl,false,.lblank⟩⟩] .leaf) 1154910640 [⟨⟨(.inside 1),[35],.lcomment,false,[],false⟩,false,false,[],some 4,some ⟨.code,[60],.lcomment,false,[],false⟩,some ([(35,(.other,false))],false),false,false,false,none,false,⟨.lcomment,some (.own 3),false,.lblank⟩⟩] (.node .leaf 1154910648 [⟨⟨(.inside 1),[35],.lcomment,false,[],false⟩,false,false,[],some 4,some ⟨.code,[60],.lcomment,false,[],false⟩,some ([(35,(.other,false))],false),true,false,false,none,false,⟨.lcomment,some .internalNl,false,.lblank⟩⟩] .leaf)) 1156119508 [⟨⟨(.inside 1),[35],.lcomment,false,[],false⟩,false,false,[],some 4,some ⟨.code,[60],.lblank,false,[],false⟩,some ([(35,(.other,false))],false),false,false,false,none,false,⟨.lcomment,some (.own 3),false,.lblank⟩⟩] (.node (.node (.node .leaf 1156119516 [⟨⟨(.inside 1),[35],.lcomment,false,[],false⟩,false,false,[],some 4,some ⟨.code,[60],.lblank,false,[],false⟩,some ([(35,(.other,false))],false),true,false,false,none,false,⟨.lcomment,some .internalNl,false,.lblank⟩⟩] .leaf) 1173020088 [⟨⟨(.inside 1),[35],.lblank,false,[],false⟩,false,false,[],some 4,some ⟨.code,[60],.lcode,false,[],false⟩,some ([(35,(.other,false))],false),true,false,false,none,false,⟨.lcomment,some .internalNl,false,.lblank⟩⟩] .leaf) 1174228956 [⟨⟨(.inside 1),[35],.lblank,false,[],false⟩,false,false,[],some 4,some ⟨.code,[60],.lcomment,false,[],false⟩,some ([(35,(.other,false))],false),true,false,false,none,false,⟨.lcomment,some .internalNl,false,.lblank⟩⟩] (.node .leaf 1175437824 [⟨⟨(.inside 1),[35],.lblank,false,[],false⟩,false,false,[],some 4,some ⟨.code,[60],.lblank,false,[],false⟩,some ([(35,(.other,false))],false),true,false,false,none,false,⟨.lcomment,some .internalNl,false,.lblank⟩⟩] .leaf))),(.node (.node (.node (.node .leaf 10692936 [⟨⟨(.inside 3),[],.lcode,true,[],false⟩,false,false,[],some 4,some ⟨(.inside 3),[],.lcode,false,[],false⟩,none,false,false,false,none,false,⟨.lcode,some (.own 3),true,.lcode⟩⟩] .leaf) 10692944 [⟨⟨(.inside 3),[],.lcode,true,[],false⟩,false,false,[],some 4,some ⟨(.inside 3),[],.lcode,false,[],false⟩,none,true,false,false,none,false,⟨.lcode,some .internalNl,true,.lcode⟩⟩] .leaf) 10693000 [⟨⟨(.inside 3),[],.lcode,true,[],false⟩,false,false,[],some 4,some ⟨(.inside 3),[],.lcode,false,[],false⟩,none,false,false,false,none,false,⟨.lcode,some (.own 3),true,.lcomment⟩⟩] (.node .leaf 10693008 [⟨⟨(.inside 3),[],.lcode,true,[],false⟩,false,false,[],some 4,some ⟨(.inside 3),[],.lcode,false,[],false⟩,none,true,false,false,none,false,⟨.lcode,some .internalNl,true,.lcomment⟩⟩] .leaf)) 10693064 [⟨⟨(.inside 3),[],.lcode,true,[],false⟩,false,false,[],some 4,some ⟨(.inside 3),[],.lcode,false,[],false⟩,none,false,false,false,none,false,⟨.lcode,some (.own 3),true,.lblank⟩⟩] (.node (.node (.node .leaf 10693072 [⟨⟨(.inside 3),[],.lcode,true,[],false⟩,false,false,[],some 4,some ⟨(.inside 3),[],.lcode,false,[],false⟩,none,true,false,false,none,false,⟨.lcode,some .internalNl,true,.lblank⟩⟩] .leaf) 10988904 [⟨⟨(.inside 3),[],.lblank,true,[],false⟩,false,false,[],some 4,some ⟨(.inside 3),[],.lcode,false,[],false⟩,none,true,false,false,none,false,⟨.lblank,some .internalNl,true,.lcode⟩⟩] .leaf) 10988968 [⟨⟨(.inside 3),[],.lblank,true,[],false⟩,false,false,[],some 4,some ⟨(.inside 3),[],.lcode,false,[],false⟩,none,true,false,false,none,false,⟨.lblank,some .internalNl,true,.lcomment⟩⟩] (.node .leaf 10989032 [⟨⟨(.inside 3),[],.lblank,true,[],false⟩,false,false,[],some 4,some ⟨(.inside 3),[],.lcode,false,[],false⟩,none,true,false,false,none,false,⟨.lblank,some .internalNl,true,.lblank⟩⟩] .leaf))),.leaf,(.node (.node (.node (.node .leaf 7559016 [⟨⟨(.inside 2),[],.lcode,true,[],false⟩,false,false,[],some 4,some ⟨(.inside 2),[],.lcode,false,[],false⟩,none,false,false,false,none,false,⟨.lcode,some (.own 3),true,.lcode⟩⟩] .leaf) 7559024 [⟨⟨(.inside 2),[],.lcode,true,[],false⟩,false,false,[],some 4,some ⟨(.inside 2),[],.lcode,false,[],false⟩,none,true,false,false,none,false,⟨.lcode,some .internalNl,true,.lcode⟩⟩] .leaf) 7559080 [⟨⟨(.inside 2),[],.lcode,true,[],false⟩,false,false,[],some 4,some ⟨(.inside 2),[],.lcode,false,[],false⟩,none,false,false,false,none,false,⟨.lcode,some (.own 3),true,.lcomment⟩⟩] (.node .leaf 7559088 [⟨⟨(.inside 2),[],.lcode,true,[],false⟩,false,false,[],some 4,some ⟨(.inside 2),[],.lcode,false,[],false⟩,none,true,false,false,none,false,⟨.lcode,some .internalNl,true,.lcomment⟩⟩] .leaf)) 7559144 [⟨⟨(.inside 2),[],.lcode,true,[],false⟩,false,false,[],some 4,some ⟨(.inside 2),[],.lcode,false,[],false⟩,none,false,false,false,none,false,⟨.lcode,some (.own 3),true,.lblank⟩⟩] (.node (.node (.node .leaf 7559152 [⟨⟨(.inside 2),[],.lcode,true,[],false⟩,false,false,[],some 4,some ⟨(.inside 2),[],.lcode,false,[],false⟩,none,true,false,false,none,false,⟨.lcode,some .internalNl,true,.lblank⟩⟩] .leaf) 7854984 [⟨⟨(.inside 2),[],.lblank,true,[],false⟩,false,false,[],some 4,some ⟨(.inside 2),[],.lcode,false,[],false⟩,none,true,false,false,none,false,⟨.lblank,some .internalNl,true,.lcode⟩⟩] .leaf) 7855048 [⟨⟨(.inside 2),[],.lblank,true,[],false⟩,false,false,[],some 4,some ⟨(.inside 2),[],.lcode,false,[],false⟩,none,true,false,false,none,false,⟨.lblank,some .internalNl,true,.lcomment⟩⟩] (.node .leaf 7855112 [⟨⟨(.inside 2),[],.lblank,true,[],false⟩,false,false,[],some 4,some ⟨(.inside 2),[],.lcode,false,[],false⟩,none,true,false,false,none,false,⟨.lblank,some .internalNl,true,.lblank⟩⟩] .leaf))),.leaf,(.node (.node (.node (.node .leaf 596309087 [⟨⟨(.inside 1),[],.lcode,true,[],false⟩,false,false,[],some 4,some ⟨.code,[60],.lcode,false,[],false⟩,some ([(35,(.other,false))],false),false,false,false,none,false,⟨.lcode,some (.own 3),false,.lblank⟩⟩] .leaf) 596457075 [⟨⟨(.inside 1),[],.lcomment,true,[],false⟩,false,false,[],some 4,some ⟨.code,[60],.lcode,false,[],false⟩,some ([(35,(.other,false))],false),true,false,false,none,false,⟨.lcomment,some .internalNl,false,.lblank⟩⟩] .leaf) 596605055 [⟨⟨(.inside 1),[],.lblank,true,[],false⟩,false,false,[],some 4,some ⟨.code,[60],.lcode,false,[],false⟩,some ([(35,(.other,false))],false),true,false,false,none,false,⟨.lblank,some .internalNl,false,.lblank⟩⟩] (.node .leaf 597665935 [⟨⟨(.inside 1),[],.lcomment,true,[],false⟩,false,false,[],some 4,some ⟨.code,[60],.lcomment,false,[],false⟩,some ([(35,(.other,false))],false),false,false,false,none,false,⟨.lcomment,some (.own 3),false,.lblank⟩⟩] .leaf)) 597665943 [⟨⟨(.inside 1),[],.lcomment,true,[],false⟩,false,false,[],some 4,some ⟨.code,[60],.lcomment,false,[],false⟩,some ([(35,(.other,false))],false),true,false,false,none,false,⟨.lcomment,some .internalNl,false,.lblank⟩⟩] (.node (.node (.node .leaf 597813923 [⟨⟨(.inside 1),[],.lblank,true,[],false⟩,false,false,[],some 4,some ⟨.code,[60],.lcomment,false,[],false⟩,some ([(35,(.other,false))],false),true,false,false,none,false,⟨.lblank,some .internalNl,false,.lblank⟩⟩] .leaf) 598874803 [⟨⟨(.inside 1),[],.lcomment,true,[],false⟩,false,false,[],some 4,some ⟨.code,[60],.lblank,false,[],false⟩,some ([(35,(.other,false))],false),false,false,false,none,false,⟨.lcomment,some (.own 3),false,.lblank⟩⟩] .leaf) 598874811 [⟨⟨(.inside 1),[],.lcomment,true,[],false⟩,false,false,[],some 4,some ⟨.code,[60],.lblank,false,[],false⟩,some ([(35,(.other,false))],false),true,false,false,none,false,⟨.lcomment,some .internalNl,false,.lblank⟩⟩] (.node .leaf 599022791 [⟨⟨(.inside 1),[],.lblank,true,[],false⟩,false,false,[],some 4,some ⟨.code,[60],.lblank,false,[],false⟩,some ([(35,(.other,false))],false),true,false,false,none,false,⟨.lblank,some .internalNl,false,.lblank⟩⟩] .leaf))),.leaf]
theorem powershell_line_lClosed : CA.closedF powershell_line_M powershell_line_lex true false powershell_line_lfr powershell_line_lTab = true := by decide +kernel
def powershell_line_L : LCert LexisTable.powershell_line powershell_line_M := powershell_line_lex_eq ▸ ⟨⟨powershell_line_lmasks, powershell_line_lex.rel, powershell_line_lcs, powershell_line_lrows, powershell_line_lmasksIn, powershell_line_lrepOk, powershell_line_lrowsOk⟩,
  _, rfl, by decide +kernel, by decide +kernel, true, false, CA.closed_of powershell_line_lfrOk powershell_line_lClosed⟩
theorem powershell_line_L_chk : powershell_line_L.chk = true := by
  have : ∀ (l : Lexis) (h : LexisTable.powershell_line = l) (C : LCert l powershell_line_M), (h ▸ C : LCert LexisTable.powershell_line powershell_line_M).chk = C.chk := by rintro _ rfl _; rfl
  exact this _ powershell_line_lex_eq _

end Ohcount.Cert
