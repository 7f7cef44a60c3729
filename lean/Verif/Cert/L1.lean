import Verif.Cert.N6
import Verif.RagelLexFast
import Verif.LexisTable

/-! Generated by tools/gen_certs.py. -/

namespace Ohcount.Cert
open Ohcount.Ragel Ohcount.Gram

set_option maxRecDepth 100000
set_option maxHeartbeats 0

def bat_line_lex : Lexis := [⟨[114,101,109],[],.lcomment,false,false,false,true,false,false,true,false,none,false,false,false,false,[]⟩,⟨[82,101,109],[],.lcomment,false,false,false,true,false,false,true,false,none,false,false,false,false,[]⟩,⟨[114,69,109],[],.lcomment,false,false,false,true,false,false,true,false,none,false,false,false,false,[]⟩,⟨[82,69,109],[],.lcomment,false,false,false,true,false,false,true,false,none,false,false,false,false,[]⟩,⟨[114,101,77],[],.lcomment,false,false,false,true,false,false,true,false,none,false,false,false,false,[]⟩,⟨[82,101,77],[],.lcomment,false,false,false,true,false,false,true,false,none,false,false,false,false,[]⟩,⟨[114,69,77],[],.lcomment,false,false,false,true,false,false,true,false,none,false,false,false,false,[]⟩,⟨[82,69,77],[],.lcomment,false,false,false,true,false,false,true,false,none,false,false,false,false,[]⟩,⟨[64,114,101,109],[],.lcomment,false,false,false,true,false,false,true,false,none,false,false,false,false,[]⟩,⟨[64,82,101,109],[],.lcomment,false,false,false,true,false,false,true,false,none,false,false,false,false,[]⟩,⟨[64,114,69,109],[],.lcomment,false,false,false,true,false,false,true,false,none,false,false,false,false,[]⟩,⟨[64,82,69,109],[],.lcomment,false,false,false,true,false,false,true,false,none,false,false,false,false,[]⟩,⟨[64,114,101,77],[],.lcomment,false,false,false,true,false,false,true,false,none,false,false,false,false,[]⟩,⟨[64,82,101,77],[],.lcomment,false,false,false,true,false,false,true,false,none,false,false,false,false,[]⟩,⟨[64,114,69,77],[],.lcomment,false,false,false,true,false,false,true,false,none,false,false,false,false,[]⟩,⟨[64,82,69,77],[],.lcomment,false,false,false,true,false,false,true,false,none,false,false,false,false,[]⟩,⟨[58,58],[],.lcomment,false,false,false,true,false,false,true,false,none,false,false,false,false,[]⟩]
theorem bat_line_lex_eq : LexisTable.bat_line = bat_line_lex := by decide +kernel
def bat_line_lmasks : List Nat := [4294967808,20769187438975013792580502015705088,18446744073709551616,288230376151711744,8192,1024,4096,115792089237316195423570985008687907853269984665640564039457584007908834656767,2535301201046754613352112062464,649037107467969181018140687990784,115792089237316195423570985008687907853269984665640564039457584007913129626623,4951760157141521099596496896,20769187434139310514121985316880384,2535301200456458802993406410752,649037107316853453566312041152512,4835703278458516698824704,590295810358705651712,151115727451828646838272]
def bat_line_lcs : List (Nat × Nat) := [(0,115792089237316195423570985008687907853269963244875764635251979300364561138175),(9,4294967808),(10,1024),(11,2048),(12,4096),(13,8192),(58,288230376151711744),(64,18446744073709551616),(69,590295810358705651712),(77,151115727451828646838272),(82,4835703278458516698824704),(92,4951760157141521099596496896),(101,2535301200456458802993406410752),(109,649037107316853453566312041152512),(114,20769187434139310514121985316880384)]
theorem bat_line_lmasksIn : masksIn bat_line_nfa bat_line_lmasks = true := by decide +kernel
theorem bat_line_lrepOk : repOk bat_line_lmasks bat_line_lcs = true := by decide +kernel
def bat_line_lrows : List Row := [⟨[],none,[],[⟨256,.other,false,some ⟨0,[.setEnt (.own 3)],some 3,true⟩⟩,⟨256,.ws,false,some ⟨1,[.setEnt (.own 0)],some 0,false⟩⟩,⟨256,.lf,false,some ⟨0,[.setEnt .newline],some 2,true⟩⟩,⟨256,.vt,false,none⟩,⟨256,.ff,false,some ⟨0,[.setEnt .newline],some 2,true⟩⟩,⟨256,.cr,false,some ⟨2,[.setEnt .newline],none,false⟩⟩,⟨256,.cr,true,some ⟨3,[.setEnt .newline],some 2,false⟩⟩,⟨58,.other,false,some ⟨4,[.setEnt (.own 3)],some 3,false⟩⟩,⟨64,.other,false,some ⟨5,[.setEnt (.own 3)],some 3,false⟩⟩,⟨69,.other,false,some ⟨0,[.setEnt (.own 3)],some 3,true⟩⟩,⟨77,.other,false,some ⟨0,[.setEnt (.own 3)],some 3,true⟩⟩,⟨82,.other,false,some ⟨6,[.setEnt (.own 3)],some 3,false⟩⟩,⟨92,.other,false,some ⟨0,[.setEnt (.own 3)],some 3,true⟩⟩,⟨101,.other,false,some ⟨0,[.setEnt (.own 3)],some 3,true⟩⟩,⟨109,.other,false,some ⟨0,[.setEnt (.own 3)],some 3,true⟩⟩,⟨114,.other,false,some ⟨6,[.setEnt (.own 3)],some 3,false⟩⟩]⟩,⟨[0],some 0,[],[⟨256,.other,false,none⟩,⟨256,.ws,false,some ⟨1,[.setEnt (.own 0)],some 0,false⟩⟩,⟨256,.lf,false,none⟩,⟨256,.vt,false,none⟩,⟨256,.ff,false,none⟩,⟨256,.cr,false,none⟩,⟨256,.cr,true,none⟩,⟨58,.other,false,none⟩,⟨64,.other,false,none⟩,⟨69,.other,false,none⟩,⟨77,.other,false,none⟩,⟨82,.other,false,none⟩,⟨92,.other,false,none⟩,⟨101,.other,false,none⟩,⟨109,.other,false,none⟩,⟨114,.other,false,none⟩]⟩,⟨[11],none,[],[⟨256,.other,false,none⟩,⟨256,.ws,false,none⟩,⟨256,.lf,false,some ⟨0,[.setEnt .newline],some 2,true⟩⟩,⟨256,.vt,false,none⟩,⟨256,.ff,false,none⟩,⟨256,.cr,false,none⟩,⟨256,.cr,true,none⟩,⟨58,.other,false,none⟩,⟨64,.other,false,none⟩,⟨69,.other,false,none⟩,⟨77,.other,false,none⟩,⟨82,.other,false,none⟩,⟨92,.other,false,none⟩,⟨101,.other,false,none⟩,⟨109,.other,false,none⟩,⟨114,.other,false,none⟩]⟩,⟨[11,15],some 2,[],[⟨256,.other,false,none⟩,⟨256,.ws,false,none⟩,⟨256,.lf,false,some ⟨0,[.setEnt .newline],some 2,true⟩⟩,⟨256,.vt,false,none⟩,⟨256,.ff,false,none⟩,⟨256,.cr,false,none⟩,⟨256,.cr,true,none⟩,⟨58,.other,false,none⟩,⟨64,.other,false,none⟩,⟨69,.other,false,none⟩,⟨77,.other,false,none⟩,⟨82,.other,false,none⟩,⟨92,.other,false,none⟩,⟨101,.other,false,none⟩,⟨109,.other,false,none⟩,⟨114,.other,false,none⟩]⟩,⟨[8,16],some 3,[],[⟨256,.other,false,none⟩,⟨256,.ws,false,none⟩,⟨256,.lf,false,none⟩,⟨256,.vt,false,none⟩,⟨256,.ff,false,none⟩,⟨256,.cr,false,none⟩,⟨256,.cr,true,none⟩,⟨58,.other,false,some ⟨7,[.comment],some 1,false⟩⟩,⟨64,.other,false,none⟩,⟨69,.other,false,none⟩,⟨77,.other,false,none⟩,⟨82,.other,false,none⟩,⟨92,.other,false,none⟩,⟨101,.other,false,none⟩,⟨109,.other,false,none⟩,⟨114,.other,false,none⟩]⟩,⟨[4,16],some 3,[],[⟨256,.other,false,none⟩,⟨256,.ws,false,none⟩,⟨256,.lf,false,none⟩,⟨256,.vt,false,none⟩,⟨256,.ff,false,none⟩,⟨256,.cr,false,none⟩,⟨256,.cr,true,none⟩,⟨58,.other,false,none⟩,⟨64,.other,false,none⟩,⟨69,.other,false,none⟩,⟨77,.other,false,none⟩,⟨82,.other,false,some ⟨8,[],none,false⟩⟩,⟨92,.other,false,none⟩,⟨101,.other,false,none⟩,⟨109,.other,false,none⟩,⟨114,.other,false,some ⟨8,[],none,false⟩⟩]⟩,⟨[1,16],some 3,[],[⟨256,.other,false,none⟩,⟨256,.ws,false,none⟩,⟨256,.lf,false,none⟩,⟨256,.vt,false,none⟩,⟨256,.ff,false,none⟩,⟨256,.cr,false,none⟩,⟨256,.cr,true,none⟩,⟨58,.other,false,none⟩,⟨64,.other,false,none⟩,⟨69,.other,false,some ⟨9,[],none,false⟩⟩,⟨77,.other,false,none⟩,⟨82,.other,false,none⟩,⟨92,.other,false,none⟩,⟨101,.other,false,some ⟨9,[],none,false⟩⟩,⟨109,.other,false,none⟩,⟨114,.other,false,none⟩]⟩,⟨[9],some 1,[],[⟨256,.other,false,some ⟨10,[],some 1,false⟩⟩,⟨256,.ws,false,some ⟨10,[],some 1,false⟩⟩,⟨256,.lf,false,none⟩,⟨256,.vt,false,some ⟨10,[],some 1,false⟩⟩,⟨256,.ff,false,none⟩,⟨256,.cr,false,none⟩,⟨256,.cr,true,none⟩,⟨58,.other,false,some ⟨10,[],some 1,false⟩⟩,⟨64,.other,false,some ⟨10,[],some 1,false⟩⟩,⟨69,.other,false,some ⟨10,[],some 1,false⟩⟩,⟨77,.other,false,some ⟨10,[],some 1,false⟩⟩,⟨82,.other,false,some ⟨10,[],some 1,false⟩⟩,⟨92,.other,false,some ⟨10,[],some 1,false⟩⟩,⟨101,.other,false,some ⟨10,[],some 1,false⟩⟩,⟨109,.other,false,some ⟨10,[],some 1,false⟩⟩,⟨114,.other,false,some ⟨10,[],some 1,false⟩⟩]⟩,⟨[5],none,[],[⟨256,.other,false,none⟩,⟨256,.ws,false,none⟩,⟨256,.lf,false,none⟩,⟨256,.vt,false,none⟩,⟨256,.ff,false,none⟩,⟨256,.cr,false,none⟩,⟨256,.cr,true,none⟩,⟨58,.other,false,none⟩,⟨64,.other,false,none⟩,⟨69,.other,false,some ⟨11,[],none,false⟩⟩,⟨77,.other,false,none⟩,⟨82,.other,false,none⟩,⟨92,.other,false,none⟩,⟨101,.other,false,some ⟨11,[],none,false⟩⟩,⟨109,.other,false,none⟩,⟨114,.other,false,none⟩]⟩,⟨[2],none,[],[⟨256,.other,false,none⟩,⟨256,.ws,false,none⟩,⟨256,.lf,false,none⟩,⟨256,.vt,false,none⟩,⟨256,.ff,false,none⟩,⟨256,.cr,false,none⟩,⟨256,.cr,true,none⟩,⟨58,.other,false,none⟩,⟨64,.other,false,none⟩,⟨69,.other,false,none⟩,⟨77,.other,false,some ⟨12,[.comment],some 1,false⟩⟩,⟨82,.other,false,none⟩,⟨92,.other,false,none⟩,⟨101,.other,false,none⟩,⟨109,.other,false,some ⟨12,[.comment],some 1,false⟩⟩,⟨114,.other,false,none⟩]⟩,⟨[10],some 1,[],[⟨256,.other,false,some ⟨10,[],some 1,false⟩⟩,⟨256,.ws,false,some ⟨10,[],some 1,false⟩⟩,⟨256,.lf,false,none⟩,⟨256,.vt,false,some ⟨10,[],some 1,false⟩⟩,⟨256,.ff,false,none⟩,⟨256,.cr,false,none⟩,⟨256,.cr,true,none⟩,⟨58,.other,false,some ⟨10,[],some 1,false⟩⟩,⟨64,.other,false,some ⟨10,[],some 1,false⟩⟩,⟨69,.other,false,some ⟨10,[],some 1,false⟩⟩,⟨77,.other,false,some ⟨10,[],some 1,false⟩⟩,⟨82,.other,false,some ⟨10,[],some 1,false⟩⟩,⟨92,.other,false,some ⟨10,[],some 1,false⟩⟩,⟨101,.other,false,some ⟨10,[],some 1,false⟩⟩,⟨109,.other,false,some ⟨10,[],some 1,false⟩⟩,⟨114,.other,false,some ⟨10,[],some 1,false⟩⟩]⟩,⟨[6],none,[],[⟨256,.other,false,none⟩,⟨256,.ws,false,none⟩,⟨256,.lf,false,none⟩,⟨256,.vt,false,none⟩,⟨256,.ff,false,none⟩,⟨256,.cr,false,none⟩,⟨256,.cr,true,none⟩,⟨58,.other,false,none⟩,⟨64,.other,false,none⟩,⟨69,.other,false,none⟩,⟨77,.other,false,some ⟨13,[.comment],some 1,false⟩⟩,⟨82,.other,false,none⟩,⟨92,.other,false,none⟩,⟨101,.other,false,none⟩,⟨109,.other,false,some ⟨13,[.comment],some 1,false⟩⟩,⟨114,.other,false,none⟩]⟩,⟨[3],some 1,[],[⟨256,.other,false,some ⟨10,[],some 1,false⟩⟩,⟨256,.ws,false,some ⟨10,[],some 1,false⟩⟩,⟨256,.lf,false,none⟩,⟨256,.vt,false,some ⟨10,[],some 1,false⟩⟩,⟨256,.ff,false,none⟩,⟨256,.cr,false,none⟩,⟨256,.cr,true,none⟩,⟨58,.other,false,some ⟨10,[],some 1,false⟩⟩,⟨64,.other,false,some ⟨10,[],some 1,false⟩⟩,⟨69,.other,false,some ⟨10,[],some 1,false⟩⟩,⟨77,.other,false,some ⟨10,[],some 1,false⟩⟩,⟨82,.other,false,some ⟨10,[],some 1,false⟩⟩,⟨92,.other,false,some ⟨10,[],some 1,false⟩⟩,⟨101,.other,false,some ⟨10,[],some 1,false⟩⟩,⟨109,.other,false,some ⟨10,[],some 1,false⟩⟩,⟨114,.other,false,some ⟨10,[],some 1,false⟩⟩]⟩,⟨[7],some 1,[],[⟨256,.other,false,some ⟨10,[],some 1,false⟩⟩,⟨256,.ws,false,some ⟨10,[],some 1,false⟩⟩,⟨256,.lf,false,none⟩,⟨256,.vt,false,some ⟨10,[],some 1,false⟩⟩,⟨256,.ff,false,none⟩,⟨256,.cr,false,none⟩,⟨256,.cr,true,none⟩,⟨58,.other,false,some ⟨10,[],some 1,false⟩⟩,⟨64,.other,false,some ⟨10,[],some 1,false⟩⟩,⟨69,.other,false,some ⟨10,[],some 1,false⟩⟩,⟨77,.other,false,some ⟨10,[],some 1,false⟩⟩,⟨82,.other,false,some ⟨10,[],some 1,false⟩⟩,⟨92,.other,false,some ⟨10,[],some 1,false⟩⟩,⟨101,.other,false,some ⟨10,[],some 1,false⟩⟩,⟨109,.other,false,some ⟨10,[],some 1,false⟩⟩,⟨114,.other,false,some ⟨10,[],some 1,false⟩⟩]⟩]
theorem bat_line_lrowsOk : rowsOk bat_line_nfa bat_line_lex.rel (bat_line_lcs.map (·.1)) bat_line_lrows = true := by decide +kernel
def bat_line_lfr : List CA.FRow := [⟨true,none,[],[⟨256,.other,false,false,none,some ([.setEnt (.own 3)],(some 3,true))⟩,⟨9,.ws,false,false,some 1,some ([.setEnt (.own 0)],(some 0,false))⟩,⟨10,.lf,false,true,none,some ([.setEnt .newline],(some 2,true))⟩,⟨11,.vt,false,false,none,none⟩,⟨12,.ff,false,true,none,some ([.setEnt .newline],(some 2,true))⟩,⟨13,.cr,false,false,some 2,some ([.setEnt .newline],(none,false))⟩,⟨13,.cr,true,true,some 3,some ([.setEnt .newline],(some 2,false))⟩,⟨58,.other,false,false,some 4,some ([.setEnt (.own 3)],(some 3,false))⟩,⟨64,.other,false,false,some 5,some ([.setEnt (.own 3)],(some 3,false))⟩,⟨69,.other,false,false,none,some ([.setEnt (.own 3)],(some 3,true))⟩,⟨77,.other,false,false,none,some ([.setEnt (.own 3)],(some 3,true))⟩,⟨82,.other,false,false,some 6,some ([.setEnt (.own 3)],(some 3,false))⟩,⟨92,.other,false,false,none,some ([.setEnt (.own 3)],(some 3,true))⟩,⟨101,.other,false,false,none,some ([.setEnt (.own 3)],(some 3,true))⟩,⟨109,.other,false,false,none,some ([.setEnt (.own 3)],(some 3,true))⟩,⟨114,.other,false,false,some 6,some ([.setEnt (.own 3)],(some 3,false))⟩]⟩,⟨false,some 0,[],[⟨256,.other,false,false,none,none⟩,⟨9,.ws,false,false,some 1,some ([.setEnt (.own 0)],(some 0,false))⟩,⟨10,.lf,false,true,none,none⟩,⟨11,.vt,false,false,none,none⟩,⟨12,.ff,false,true,none,none⟩,⟨13,.cr,false,false,none,none⟩,⟨13,.cr,true,true,none,none⟩,⟨58,.other,false,false,none,none⟩,⟨64,.other,false,false,none,none⟩,⟨69,.other,false,false,none,none⟩,⟨77,.other,false,false,none,none⟩,⟨82,.other,false,false,none,none⟩,⟨92,.other,false,false,none,none⟩,⟨101,.other,false,false,none,none⟩,⟨109,.other,false,false,none,none⟩,⟨114,.other,false,false,none,none⟩]⟩,⟨false,none,[],[⟨256,.other,false,false,none,none⟩,⟨9,.ws,false,false,none,none⟩,⟨10,.lf,false,true,none,some ([.setEnt .newline],(some 2,true))⟩,⟨11,.vt,false,false,none,none⟩,⟨12,.ff,false,true,none,none⟩,⟨13,.cr,false,false,none,none⟩,⟨13,.cr,true,true,none,none⟩,⟨58,.other,false,false,none,none⟩,⟨64,.other,false,false,none,none⟩,⟨69,.other,false,false,none,none⟩,⟨77,.other,false,false,none,none⟩,⟨82,.other,false,false,none,none⟩,⟨92,.other,false,false,none,none⟩,⟨101,.other,false,false,none,none⟩,⟨109,.other,false,false,none,none⟩,⟨114,.other,false,false,none,none⟩]⟩,⟨false,some 2,[],[⟨256,.other,false,false,none,none⟩,⟨9,.ws,false,false,none,none⟩,⟨10,.lf,false,true,none,some ([.setEnt .newline],(some 2,true))⟩,⟨11,.vt,false,false,none,none⟩,⟨12,.ff,false,true,none,none⟩,⟨13,.cr,false,false,none,none⟩,⟨13,.cr,true,true,none,none⟩,⟨58,.other,false,false,none,none⟩,⟨64,.other,false,false,none,none⟩,⟨69,.other,false,false,none,none⟩,⟨77,.other,false,false,none,none⟩,⟨82,.other,false,false,none,none⟩,⟨92,.other,false,false,none,none⟩,⟨101,.other,false,false,none,none⟩,⟨109,.other,false,false,none,none⟩,⟨114,.other,false,false,none,none⟩]⟩,⟨false,some 3,[],[⟨256,.other,false,false,none,none⟩,⟨9,.ws,false,false,none,none⟩,⟨10,.lf,false,true,none,none⟩,⟨11,.vt,false,false,none,none⟩,⟨12,.ff,false,true,none,none⟩,⟨13,.cr,false,false,none,none⟩,⟨13,.cr,true,true,none,none⟩,⟨58,.other,false,false,some 7,some ([.comment],(some 1,false))⟩,⟨64,.other,false,false,none,none⟩,⟨69,.other,false,false,none,none⟩,⟨77,.other,false,false,none,none⟩,⟨82,.other,false,false,none,none⟩,⟨92,.other,false,false,none,none⟩,⟨101,.other,false,false,none,none⟩,⟨109,.other,false,false,none,none⟩,⟨114,.other,false,false,none,none⟩]⟩,⟨false,some 3,[],[⟨256,.other,false,false,none,none⟩,⟨9,.ws,false,false,none,none⟩,⟨10,.lf,false,true,none,none⟩,⟨11,.vt,false,false,none,none⟩,⟨12,.ff,false,true,none,none⟩,⟨13,.cr,false,false,none,none⟩,⟨13,.cr,true,true,none,none⟩,⟨58,.other,false,false,none,none⟩,⟨64,.other,false,false,none,none⟩,⟨69,.other,false,false,none,none⟩,⟨77,.other,false,false,none,none⟩,⟨82,.other,false,false,some 8,some ([],(none,false))⟩,⟨92,.other,false,false,none,none⟩,⟨101,.other,false,false,none,none⟩,⟨109,.other,false,false,none,none⟩,⟨114,.other,false,false,some 8,some ([],(none,false))⟩]⟩,⟨false,some 3,[],[⟨256,.other,false,false,none,none⟩,⟨9,.ws,false,false,none,none⟩,⟨10,.lf,false,true,none,none⟩,⟨11,.vt,false,false,none,none⟩,⟨12,.ff,false,true,none,none⟩,⟨13,.cr,false,false,none,none⟩,⟨13,.cr,true,true,none,none⟩,⟨58,.other,false,false,none,none⟩,⟨64,.other,false,false,none,none⟩,⟨69,.other,false,false,some 9,some ([],(none,false))⟩,⟨77,.other,false,false,none,none⟩,⟨82,.other,false,false,none,none⟩,⟨92,.other,false,false,none,none⟩,⟨101,.other,false,false,some 9,some ([],(none,false))⟩,⟨109,.other,false,false,none,none⟩,⟨114,.other,false,false,none,none⟩]⟩,⟨false,some 1,[],[⟨256,.other,false,false,some 10,some ([],(some 1,false))⟩,⟨9,.ws,false,false,some 10,some ([],(some 1,false))⟩,⟨10,.lf,false,true,none,none⟩,⟨11,.vt,false,false,some 10,some ([],(some 1,false))⟩,⟨12,.ff,false,true,none,none⟩,⟨13,.cr,false,false,none,none⟩,⟨13,.cr,true,true,none,none⟩,⟨58,.other,false,false,some 10,some ([],(some 1,false))⟩,⟨64,.other,false,false,some 10,some ([],(some 1,false))⟩,⟨69,.other,false,false,some 10,some ([],(some 1,false))⟩,⟨77,.other,false,false,some 10,some ([],(some 1,false))⟩,⟨82,.other,false,false,some 10,some ([],(some 1,false))⟩,⟨92,.other,false,false,some 10,some ([],(some 1,false))⟩,⟨101,.other,false,false,some 10,some ([],(some 1,false))⟩,⟨109,.other,false,false,some 10,some ([],(some 1,false))⟩,⟨114,.other,false,false,some 10,some ([],(some 1,false))⟩]⟩,⟨false,none,[],[⟨256,.other,false,false,none,none⟩,⟨9,.ws,false,false,none,none⟩,⟨10,.lf,false,true,none,none⟩,⟨11,.vt,false,false,none,none⟩,⟨12,.ff,false,true,none,none⟩,⟨13,.cr,false,false,none,none⟩,⟨13,.cr,true,true,none,none⟩,⟨58,.other,false,false,none,none⟩,⟨64,.other,false,false,none,none⟩,⟨69,.other,false,false,some 11,some ([],(none,false))⟩,⟨77,.other,false,false,none,none⟩,⟨82,.other,false,false,none,none⟩,⟨92,.other,false,false,none,none⟩,⟨101,.other,false,false,some 11,some ([],(none,false))⟩,⟨109,.other,false,false,none,none⟩,⟨114,.other,false,false,none,none⟩]⟩,⟨false,none,[],[⟨256,.other,false,false,none,none⟩,⟨9,.ws,false,false,none,none⟩,⟨10,.lf,false,true,none,none⟩,⟨11,.vt,false,false,none,none⟩,⟨12,.ff,false,true,none,none⟩,⟨13,.cr,false,false,none,none⟩,⟨13,.cr,true,true,none,none⟩,⟨58,.other,false,false,none,none⟩,⟨64,.other,false,false,none,none⟩,⟨69,.other,false,false,none,none⟩,⟨77,.other,false,false,some 12,some ([.comment],(some 1,false))⟩,⟨82,.other,false,false,none,none⟩,⟨92,.other,false,false,none,none⟩,⟨101,.other,false,false,none,none⟩,⟨109,.other,false,false,some 12,some ([.comment],(some 1,false))⟩,⟨114,.other,false,false,none,none⟩]⟩,⟨false,some 1,[],[⟨256,.other,false,false,some 10,some ([],(some 1,false))⟩,⟨9,.ws,false,false,some 10,some ([],(some 1,false))⟩,⟨10,.lf,false,true,none,none⟩,⟨11,.vt,false,false,some 10,some ([],(some 1,false))⟩,⟨12,.ff,false,true,none,none⟩,⟨13,.cr,false,false,none,none⟩,⟨13,.cr,true,true,none,none⟩,⟨58,.other,false,false,some 10,some ([],(some 1,false))⟩,⟨64,.other,false,false,some 10,some ([],(some 1,false))⟩,⟨69,.other,false,false,some 10,some ([],(some 1,false))⟩,⟨77,.other,false,false,some 10,some ([],(some 1,false))⟩,⟨82,.other,false,false,some 10,some ([],(some 1,false))⟩,⟨92,.other,false,false,some 10,some ([],(some 1,false))⟩,⟨101,.other,false,false,some 10,some ([],(some 1,false))⟩,⟨109,.other,false,false,some 10,some ([],(some 1,false))⟩,⟨114,.other,false,false,some 10,some ([],(some 1,false))⟩]⟩,⟨false,none,[],[⟨256,.other,false,false,none,none⟩,⟨9,.ws,false,false,none,none⟩,⟨10,.lf,false,true,none,none⟩,⟨11,.vt,false,false,none,none⟩,⟨12,.ff,false,true,none,none⟩,⟨13,.cr,false,false,none,none⟩,⟨13,.cr,true,true,none,none⟩,⟨58,.other,false,false,none,none⟩,⟨64,.other,false,false,none,none⟩,⟨69,.other,false,false,none,none⟩,⟨77,.other,false,false,some 13,some ([.comment],(some 1,false))⟩,⟨82,.other,false,false,none,none⟩,⟨92,.other,false,false,none,none⟩,⟨101,.other,false,false,none,none⟩,⟨109,.other,false,false,some 13,some ([.comment],(some 1,false))⟩,⟨114,.other,false,false,none,none⟩]⟩,⟨false,some 1,[],[⟨256,.other,false,false,some 10,some ([],(some 1,false))⟩,⟨9,.ws,false,false,some 10,some ([],(some 1,false))⟩,⟨10,.lf,false,true,none,none⟩,⟨11,.vt,false,false,some 10,some ([],(some 1,false))⟩,⟨12,.ff,false,true,none,none⟩,⟨13,.cr,false,false,none,none⟩,⟨13,.cr,true,true,none,none⟩,⟨58,.other,false,false,some 10,some ([],(some 1,false))⟩,⟨64,.other,false,false,some 10,some ([],(some 1,false))⟩,⟨69,.other,false,false,some 10,some ([],(some 1,false))⟩,⟨77,.other,false,false,some 10,some ([],(some 1,false))⟩,⟨82,.other,false,false,some 10,some ([],(some 1,false))⟩,⟨92,.other,false,false,some 10,some ([],(some 1,false))⟩,⟨101,.other,false,false,some 10,some ([],(some 1,false))⟩,⟨109,.other,false,false,some 10,some ([],(some 1,false))⟩,⟨114,.other,false,false,some 10,some ([],(some 1,false))⟩]⟩,⟨false,some 1,[],[⟨256,.other,false,false,some 10,some ([],(some 1,false))⟩,⟨9,.ws,false,false,some 10,some ([],(some 1,false))⟩,⟨10,.lf,false,true,none,none⟩,⟨11,.vt,false,false,some 10,some ([],(some 1,false))⟩,⟨12,.ff,false,true,none,none⟩,⟨13,.cr,false,false,none,none⟩,⟨13,.cr,true,true,none,none⟩,⟨58,.other,false,false,some 10,some ([],(some 1,false))⟩,⟨64,.other,false,false,some 10,some ([],(some 1,false))⟩,⟨69,.other,false,false,some 10,some ([],(some 1,false))⟩,⟨77,.other,false,false,some 10,some ([],(some 1,false))⟩,⟨82,.other,false,false,some 10,some ([],(some 1,false))⟩,⟨92,.other,false,false,some 10,some ([],(some 1,false))⟩,⟨101,.other,false,false,some 10,some ([],(some 1,false))⟩,⟨109,.other,false,false,some 10,some ([],(some 1,false))⟩,⟨114,.other,false,false,some 10,some ([],(some 1,false))⟩]⟩]
theorem bat_line_lfrOk : bat_line_lrows.map (CA.prep bat_line_lex) = bat_line_lfr := by decide +kernel
def bat_line_lTab : List CT := [(.node (.node (.node (.node (.node (.node (.node (.node (.node (.node .leaf 128 [⟨⟨.code,[],.lcode,false,[],false⟩,false,false,[],none,none,none,false,false,false,none,false,⟨.lcode,none,false,.lblank⟩⟩] .leaf) 38019 [⟨⟨.code,[],.lcode,true,[],false⟩,false,false,[],none,none,none,false,false,false,none,false,⟨.lblank,none,false,.lblank⟩⟩] (.node .leaf 185487 [⟨⟨.code,[],.lcomment,true,[],false⟩,false,false,[],none,none,none,false,false,false,none,false,⟨.lblank,none,false,.lblank⟩⟩] .leaf)) 296088 [⟨⟨.code,[],.lblank,false,[],false⟩,false,false,[],none,none,none,false,false,false,none,false,⟨.lblank,none,false,.lblank⟩⟩] (.node (.node .leaf 332955 [⟨⟨.code,[],.lblank,true,[],false⟩,false,false,[],none,none,none,false,false,false,none,false,⟨.lblank,none,false,.lblank⟩⟩] .leaf) 1179872 [⟨⟨(.inside 0),[],.lcode,false,[],false⟩,false,false,[none],none,none,none,false,false,false,none,false,⟨.lcode,none,false,.lblank⟩⟩] (.node .leaf 1327852 [⟨⟨(.inside 0),[],.lcomment,false,[],false⟩,false,false,[none],none,none,none,false,false,false,none,false,⟨.lcomment,none,false,.lblank⟩⟩] .leaf))) 2175281 [⟨⟨.code,[58],.lcode,false,[],false⟩,false,false,[none],none,none,none,false,false,false,none,false,⟨.lcode,none,false,.lblank⟩⟩] (.node (.node (.node .leaf 2396483 [⟨⟨.code,[64],.lcode,false,[],false⟩,false,false,[none],none,none,none,false,false,false,none,false,⟨.lcode,none,false,.lblank⟩⟩] .leaf) 3060089 [⟨⟨.code,[82],.lcode,false,[],false⟩,false,false,[none],none,none,none,false,false,false,none,false,⟨.lcode,none,false,.lblank⟩⟩] (.node .leaf 4129232 [⟨⟨(.inside 1),[],.lcode,false,[],false⟩,false,false,[none],none,none,none,false,false,false,none,false,⟨.lcode,none,false,.lblank⟩⟩] .leaf)) 4239833 [⟨⟨.code,[114],.lcode,false,[],false⟩,false,false,[none],none,none,none,false,false,false,none,false,⟨.lcode,none,false,.lblank⟩⟩] (.node (.node .leaf 4277212 [⟨⟨(.inside 1),[],.lcomment,false,[],false⟩,false,false,[none],none,none,none,false,false,false,none,false,⟨.lcomment,none,false,.lblank⟩⟩] .leaf) 7078592 [⟨⟨(.inside 2),[],.lcode,false,[],false⟩,false,false,[none],none,none,none,false,false,false,none,false,⟨.lcode,none,false,.lblank⟩⟩] (.node .leaf 7226572 [⟨⟨(.inside 2),[],.lcomment,false,[],false⟩,false,false,[none],none,none,none,false,false,false,none,false,⟨.lcomment,none,false,.lblank⟩⟩] .leaf)))) 10027952 [⟨⟨(.inside 3),[],.lcode,false,[],false⟩,false,false,[none],none,none,none,false,false,false,none,false,⟨.lcode,none,false,.lblank⟩⟩] (.node (.node (.node (.node .leaf 10175932 [⟨⟨(.inside 3),[],.lcomment,false,[],false⟩,false,false,[none],none,none,none,false,false,false,none,false,⟨.lcomment,none,false,.lblank⟩⟩] .leaf) 12977312 [⟨⟨(.inside 4),[],.lcode,false,[],false⟩,false,false,[none],none,none,none,false,false,false,none,false,⟨.lcode,none,false,.lblank⟩⟩] (.node .leaf 13125292 [⟨⟨(.inside 4),[],.lcomment,false,[],false⟩,false,false,[none],none,none,none,false,false,false,none,false,⟨.lcomment,none,false,.lblank⟩⟩] .leaf)) 15926672 [⟨⟨(.inside 5),[],.lcode,false,[],false⟩,false,false,[none],none,none,none,false,false,false,none,false,⟨.lcode,none,false,.lblank⟩⟩] (.node (.node .leaf 16074652 [⟨⟨(.inside 5),[],.lcomment,false,[],false⟩,false,false,[none],none,none,none,false,false,false,none,false,⟨.lcomment,none,false,.lblank⟩⟩] .leaf) 18876032 [⟨⟨(.inside 6),[],.lcode,false,[],false⟩,false,false,[none],none,none,none,false,false,false,none,false,⟨.lcode,none,false,.lblank⟩⟩] (.node .leaf 19024012 [⟨⟨(.inside 6),[],.lcomment,false,[],false⟩,false,false,[none],none,none,none,false,false,false,none,false,⟨.lcomment,none,false,.lblank⟩⟩] .leaf))) 21175338 [⟨⟨.code,[58],.lcode,false,[],false⟩,false,false,[some (9,(.ws,false))],none,none,none,false,false,false,none,false,⟨.lcode,none,false,.lblank⟩⟩] (.node (.node (.node .leaf 21396540 [⟨⟨.code,[64],.lcode,false,[],false⟩,false,false,[some (9,(.ws,false))],none,none,none,false,false,false,none,false,⟨.lcode,none,false,.lblank⟩⟩] .leaf) 21825392 [⟨⟨(.inside 7),[],.lcode,false,[],false⟩,false,false,[none],none,none,none,false,false,false,none,false,⟨.lcode,none,false,.lblank⟩⟩] (.node .leaf 21973372 [⟨⟨(.inside 7),[],.lcomment,false,[],false⟩,false,false,[none],none,none,none,false,false,false,none,false,⟨.lcomment,none,false,.lblank⟩⟩] .leaf)) 22060146 [⟨⟨.code,[82],.lcode,false,[],false⟩,false,false,[some (9,(.ws,false))],none,none,none,false,false,false,none,false,⟨.lcode,none,false,.lblank⟩⟩] (.node (.node .leaf 22179935 [⟨⟨(.inside 0),[],.lcode,false,[],false⟩,false,false,[some (10,(.lf,false))],none,none,none,false,false,false,none,false,⟨.lcode,none,false,.lblank⟩⟩] .leaf) 22327915 [⟨⟨(.inside 0),[],.lcomment,false,[],false⟩,false,false,[some (10,(.lf,false))],none,none,none,false,false,false,none,false,⟨.lcomment,none,false,.lblank⟩⟩] .leaf)))) 23175344 [⟨⟨.code,[58],.lcode,false,[],false⟩,false,false,[some (10,(.lf,false))],none,none,none,false,false,false,none,false,⟨.lcode,none,false,.lblank⟩⟩] (.node (.node (.node (.node (.node .leaf 23239890 [⟨⟨.code,[114],.lcode,false,[],false⟩,false,false,[some (9,(.ws,false))],none,none,none,false,false,false,none,false,⟨.lcode,none,false,.lblank⟩⟩] .leaf) 23396546 [⟨⟨.code,[64],.lcode,false,[],false⟩,false,false,[some (10,(.lf,false))],none,none,none,false,false,false,none,false,⟨.lcode,none,false,.lblank⟩⟩] (.node .leaf 24060152 [⟨⟨.code,[82],.lcode,false,[],false⟩,false,false,[some (10,(.lf,false))],none,none,none,false,false,false,none,false,⟨.lcode,none,false,.lblank⟩⟩] .leaf)) 24774752 [⟨⟨(.inside 8),[],.lcode,false,[],false⟩,false,false,[none],none,none,none,false,false,false,none,false,⟨.lcode,none,false,.lblank⟩⟩] (.node (.node .leaf 24922732 [⟨⟨(.inside 8),[],.lcomment,false,[],false⟩,false,false,[none],none,none,none,false,false,false,none,false,⟨.lcomment,none,false,.lblank⟩⟩] .leaf) 25129295 [⟨⟨(.inside 1),[],.lcode,false,[],false⟩,false,false,[some (10,(.lf,false))],none,none,none,false,false,false,none,false,⟨.lcode,none,false,.lblank⟩⟩] (.node .leaf 25239896 [⟨⟨.code,[114],.lcode,false,[],false⟩,false,false,[some (10,(.lf,false))],none,none,none,false,false,false,none,false,⟨.lcode,none,false,.lblank⟩⟩] .leaf))) 25277275 [⟨⟨(.inside 1),[],.lcomment,false,[],false⟩,false,false,[some (10,(.lf,false))],none,none,none,false,false,false,none,false,⟨.lcomment,none,false,.lblank⟩⟩] (.node (.node (.node .leaf 26179947 [⟨⟨(.inside 0),[],.lcode,false,[],false⟩,false,false,[some (12,(.ff,false))],none,none,none,false,false,false,none,false,⟨.lcode,none,false,.lblank⟩⟩] .leaf) 26327927 [⟨⟨(.inside 0),[],.lcomment,false,[],false⟩,false,false,[some (12,(.ff,false))],none,none,none,false,false,false,none,false,⟨.lcomment,none,false,.lblank⟩⟩] (.node .leaf 27175356 [⟨⟨.code,[58],.lcode,false,[],false⟩,false,false,[some (12,(.ff,false))],none,none,none,false,false,false,none,false,⟨.lcode,none,false,.lblank⟩⟩] .leaf)) 27396558 [⟨⟨.code,[64],.lcode,false,[],false⟩,false,false,[some (12,(.ff,false))],none,none,none,false,false,false,none,false,⟨.lcode,none,false,.lblank⟩⟩] (.node (.node .leaf 27724112 [⟨⟨(.inside 9),[],.lcode,false,[],false⟩,false,false,[none],none,none,none,false,false,false,none,false,⟨.lcode,none,false,.lblank⟩⟩] .leaf) 27872092 [⟨⟨(.inside 9),[],.lcomment,false,[],false⟩,false,false,[none],none,none,none,false,false,false,none,false,⟨.lcomment,none,false,.lblank⟩⟩] .leaf))) 28060164 [⟨⟨.code,[82],.lcode,false,[],false⟩,false,false,[some (12,(.ff,false))],none,none,none,false,false,false,none,false,⟨.lcode,none,false,.lblank⟩⟩] (.node (.node (.node (.node .leaf 28078655 [⟨⟨(.inside 2),[],.lcode,false,[],false⟩,false,false,[some (10,(.lf,false))],none,none,none,false,false,false,none,false,⟨.lcode,none,false,.lblank⟩⟩] .leaf) 28179953 [⟨⟨(.inside 0),[],.lcode,false,[],false⟩,false,false,[some (13,(.cr,false))],none,none,none,false,false,false,none,false,⟨.lcode,none,false,.lblank⟩⟩] (.node .leaf 28226635 [⟨⟨(.inside 2),[],.lcomment,false,[],false⟩,false,false,[some (10,(.lf,false))],none,none,none,false,false,false,none,false,⟨.lcomment,none,false,.lblank⟩⟩] .leaf)) 28327933 [⟨⟨(.inside 0),[],.lcomment,false,[],false⟩,false,false,[some (13,(.cr,false))],none,none,none,false,false,false,none,false,⟨.lcomment,none,false,.lblank⟩⟩] (.node (.node .leaf 29129307 [⟨⟨(.inside 1),[],.lcode,false,[],false⟩,false,false,[some (12,(.ff,false))],none,none,none,false,false,false,none,false,⟨.lcode,none,false,.lblank⟩⟩] .leaf) 29175362 [⟨⟨.code,[58],.lcode,false,[],false⟩,false,false,[some (13,(.cr,false))],none,none,none,false,false,false,none,false,⟨.lcode,none,false,.lblank⟩⟩] (.node .leaf 29179956 [⟨⟨(.inside 0),[],.lcode,false,[],false⟩,false,false,[some (13,(.cr,true))],none,none,none,false,false,false,none,false,⟨.lcode,none,false,.lblank⟩⟩] .leaf))) 29239908 [⟨⟨.code,[114],.lcode,false,[],false⟩,false,false,[some (12,(.ff,false))],none,none,none,false,false,false,none,false,⟨.lcode,none,false,.lblank⟩⟩] (.node (.node (.node .leaf 29277287 [⟨⟨(.inside 1),[],.lcomment,false,[],false⟩,false,false,[some (12,(.ff,false))],none,none,none,false,false,false,none,false,⟨.lcomment,none,false,.lblank⟩⟩] .leaf) 29327936 [⟨⟨(.inside 0),[],.lcomment,false,[],false⟩,false,false,[some (13,(.cr,true))],none,none,none,false,false,false,none,false,⟨.lcomment,none,false,.lblank⟩⟩] (.node .leaf 29396564 [⟨⟨.code,[64],.lcode,false,[],false⟩,false,false,[some (13,(.cr,false))],none,none,none,false,false,false,none,false,⟨.lcode,none,false,.lblank⟩⟩] .leaf)) 30060170 [⟨⟨.code,[82],.lcode,false,[],false⟩,false,false,[some (13,(.cr,false))],none,none,none,false,false,false,none,false,⟨.lcode,none,false,.lblank⟩⟩] (.node (.node .leaf 30175365 [⟨⟨.code,[58],.lcode,false,[],false⟩,false,false,[some (13,(.cr,true))],none,none,none,false,false,false,none,false,⟨.lcode,none,false,.lblank⟩⟩] .leaf) 30396567 [⟨⟨.code,[64],.lcode,false,[],false⟩,false,false,[some (13,(.cr,true))],none,none,none,false,false,false,none,false,⟨.lcode,none,false,.lblank⟩⟩] .leaf))))) 30673472 [⟨⟨(.inside 10),[],.lcode,false,[],false⟩,false,false,[none],none,none,none,false,false,false,none,false,⟨.lcode,none,false,.lblank⟩⟩] (.node (.node (.node (.node (.node (.node .leaf 30821452 [⟨⟨(.inside 10),[],.lcomment,false,[],false⟩,false,false,[none],none,none,none,false,false,false,none,false,⟨.lcomment,none,false,.lblank⟩⟩] .leaf) 31028015 [⟨⟨(.inside 3),[],.lcode,false,[],false⟩,false,false,[some (10,(.lf,false))],none,none,none,false,false,false,none,false,⟨.lcode,none,false,.lblank⟩⟩] (.node .leaf 31060173 [⟨⟨.code,[82],.lcode,false,[],false⟩,false,false,[some (13,(.cr,true))],none,none,none,false,false,false,none,false,⟨.lcode,none,false,.lblank⟩⟩] .leaf)) 31129313 [⟨⟨(.inside 1),[],.lcode,false,[],false⟩,false,false,[some (13,(.cr,false))],none,none,none,false,false,false,none,false,⟨.lcode,none,false,.lblank⟩⟩] (.node (.node .leaf 31175995 [⟨⟨(.inside 3),[],.lcomment,false,[],false⟩,false,false,[some (10,(.lf,false))],none,none,none,false,false,false,none,false,⟨.lcomment,none,false,.lblank⟩⟩] .leaf) 31239914 [⟨⟨.code,[114],.lcode,false,[],false⟩,false,false,[some (13,(.cr,false))],none,none,none,false,false,false,none,false,⟨.lcode,none,false,.lblank⟩⟩] (.node .leaf 31277293 [⟨⟨(.inside 1),[],.lcomment,false,[],false⟩,false,false,[some (13,(.cr,false))],none,none,none,false,false,false,none,false,⟨.lcomment,none,false,.lblank⟩⟩] .leaf))) 32078667 [⟨⟨(.inside 2),[],.lcode,false,[],false⟩,false,false,[some (12,(.ff,false))],none,none,none,false,false,false,none,false,⟨.lcode,none,false,.lblank⟩⟩] (.node (.node (.node .leaf 32129316 [⟨⟨(.inside 1),[],.lcode,false,[],false⟩,false,false,[some (13,(.cr,true))],none,none,none,false,false,false,none,false,⟨.lcode,none,false,.lblank⟩⟩] .leaf) 32226647 [⟨⟨(.inside 2),[],.lcomment,false,[],false⟩,false,false,[some (12,(.ff,false))],none,none,none,false,false,false,none,false,⟨.lcomment,none,false,.lblank⟩⟩] (.node .leaf 32239917 [⟨⟨.code,[114],.lcode,false,[],false⟩,false,false,[some (13,(.cr,true))],none,none,none,false,false,false,none,false,⟨.lcode,none,false,.lblank⟩⟩] .leaf)) 32277296 [⟨⟨(.inside 1),[],.lcomment,false,[],false⟩,false,false,[some (13,(.cr,true))],none,none,none,false,false,false,none,false,⟨.lcomment,none,false,.lblank⟩⟩] (.node (.node .leaf 33622832 [⟨⟨(.inside 11),[],.lcode,false,[],false⟩,false,false,[none],none,none,none,false,false,false,none,false,⟨.lcode,none,false,.lblank⟩⟩] .leaf) 33770812 [⟨⟨(.inside 11),[],.lcomment,false,[],false⟩,false,false,[none],none,none,none,false,false,false,none,false,⟨.lcomment,none,false,.lblank⟩⟩] .leaf))) 33977375 [⟨⟨(.inside 4),[],.lcode,false,[],false⟩,false,false,[some (10,(.lf,false))],none,none,none,false,false,false,none,false,⟨.lcode,none,false,.lblank⟩⟩] (.node (.node (.node (.node .leaf 34078673 [⟨⟨(.inside 2),[],.lcode,false,[],false⟩,false,false,[some (13,(.cr,false))],none,none,none,false,false,false,none,false,⟨.lcode,none,false,.lblank⟩⟩] .leaf) 34125355 [⟨⟨(.inside 4),[],.lcomment,false,[],false⟩,false,false,[some (10,(.lf,false))],none,none,none,false,false,false,none,false,⟨.lcomment,none,false,.lblank⟩⟩] (.node .leaf 34226653 [⟨⟨(.inside 2),[],.lcomment,false,[],false⟩,false,false,[some (13,(.cr,false))],none,none,none,false,false,false,none,false,⟨.lcomment,none,false,.lblank⟩⟩] .leaf)) 35028027 [⟨⟨(.inside 3),[],.lcode,false,[],false⟩,false,false,[some (12,(.ff,false))],none,none,none,false,false,false,none,false,⟨.lcode,none,false,.lblank⟩⟩] (.node (.node .leaf 35078676 [⟨⟨(.inside 2),[],.lcode,false,[],false⟩,false,false,[some (13,(.cr,true))],none,none,none,false,false,false,none,false,⟨.lcode,none,false,.lblank⟩⟩] .leaf) 35176007 [⟨⟨(.inside 3),[],.lcomment,false,[],false⟩,false,false,[some (12,(.ff,false))],none,none,none,false,false,false,none,false,⟨.lcomment,none,false,.lblank⟩⟩] (.node .leaf 35226656 [⟨⟨(.inside 2),[],.lcomment,false,[],false⟩,false,false,[some (13,(.cr,true))],none,none,none,false,false,false,none,false,⟨.lcomment,none,false,.lblank⟩⟩] .leaf))) 36572192 [⟨⟨(.inside 12),[],.lcode,false,[],false⟩,false,false,[none],none,none,none,false,false,false,none,false,⟨.lcode,none,false,.lblank⟩⟩] (.node (.node (.node .leaf 36720172 [⟨⟨(.inside 12),[],.lcomment,false,[],false⟩,false,false,[none],none,none,none,false,false,false,none,false,⟨.lcomment,none,false,.lblank⟩⟩] .leaf) 36926735 [⟨⟨(.inside 5),[],.lcode,false,[],false⟩,false,false,[some (10,(.lf,false))],none,none,none,false,false,false,none,false,⟨.lcode,none,false,.lblank⟩⟩] (.node .leaf 37028033 [⟨⟨(.inside 3),[],.lcode,false,[],false⟩,false,false,[some (13,(.cr,false))],none,none,none,false,false,false,none,false,⟨.lcode,none,false,.lblank⟩⟩] .leaf)) 37074715 [⟨⟨(.inside 5),[],.lcomment,false,[],false⟩,false,false,[some (10,(.lf,false))],none,none,none,false,false,false,none,false,⟨.lcomment,none,false,.lblank⟩⟩] (.node (.node .leaf 37176013 [⟨⟨(.inside 3),[],.lcomment,false,[],false⟩,false,false,[some (13,(.cr,false))],none,none,none,false,false,false,none,false,⟨.lcomment,none,false,.lblank⟩⟩] .leaf) 37977387 [⟨⟨(.inside 4),[],.lcode,false,[],false⟩,false,false,[some (12,(.ff,false))],none,none,none,false,false,false,none,false,⟨.lcode,none,false,.lblank⟩⟩] .leaf)))) 38028036 [⟨⟨(.inside 3),[],.lcode,false,[],false⟩,false,false,[some (13,(.cr,true))],none,none,none,false,false,false,none,false,⟨.lcode,none,false,.lblank⟩⟩] (.node (.node (.node (.node (.node .leaf 38125367 [⟨⟨(.inside 4),[],.lcomment,false,[],false⟩,false,false,[some (12,(.ff,false))],none,none,none,false,false,false,none,false,⟨.lcomment,none,false,.lblank⟩⟩] .leaf) 38176016 [⟨⟨(.inside 3),[],.lcomment,false,[],false⟩,false,false,[some (13,(.cr,true))],none,none,none,false,false,false,none,false,⟨.lcomment,none,false,.lblank⟩⟩] (.node .leaf 39521552 [⟨⟨(.inside 13),[],.lcode,false,[],false⟩,false,false,[none],none,none,none,false,false,false,none,false,⟨.lcode,none,false,.lblank⟩⟩] .leaf)) 39669532 [⟨⟨(.inside 13),[],.lcomment,false,[],false⟩,false,false,[none],none,none,none,false,false,false,none,false,⟨.lcomment,none,false,.lblank⟩⟩] (.node (.node .leaf 39876095 [⟨⟨(.inside 6),[],.lcode,false,[],false⟩,false,false,[some (10,(.lf,false))],none,none,none,false,false,false,none,false,⟨.lcode,none,false,.lblank⟩⟩] .leaf) 39977393 [⟨⟨(.inside 4),[],.lcode,false,[],false⟩,false,false,[some (13,(.cr,false))],none,none,none,false,false,false,none,false,⟨.lcode,none,false,.lblank⟩⟩] (.node .leaf 40024075 [⟨⟨(.inside 6),[],.lcomment,false,[],false⟩,false,false,[some (10,(.lf,false))],none,none,none,false,false,false,none,false,⟨.lcomment,none,false,.lblank⟩⟩] .leaf))) 40125373 [⟨⟨(.inside 4),[],.lcomment,false,[],false⟩,false,false,[some (13,(.cr,false))],none,none,none,false,false,false,none,false,⟨.lcomment,none,false,.lblank⟩⟩] (.node (.node (.node .leaf 40811897 [⟨⟨.code,[58],.lblank,false,[],false⟩,false,false,[none],none,none,none,false,false,false,none,false,⟨.lcode,none,false,.lblank⟩⟩] .leaf) 40926747 [⟨⟨(.inside 5),[],.lcode,false,[],false⟩,false,false,[some (12,(.ff,false))],none,none,none,false,false,false,none,false,⟨.lcode,none,false,.lblank⟩⟩] (.node .leaf 40977396 [⟨⟨(.inside 4),[],.lcode,false,[],false⟩,false,false,[some (13,(.cr,true))],none,none,none,false,false,false,none,false,⟨.lcode,none,false,.lblank⟩⟩] .leaf)) 41033099 [⟨⟨.code,[64],.lblank,false,[],false⟩,false,false,[none],none,none,none,false,false,false,none,false,⟨.lcode,none,false,.lblank⟩⟩] (.node (.node .leaf 41074727 [⟨⟨(.inside 5),[],.lcomment,false,[],false⟩,false,false,[some (12,(.ff,false))],none,none,none,false,false,false,none,false,⟨.lcomment,none,false,.lblank⟩⟩] .leaf) 41125376 [⟨⟨(.inside 4),[],.lcomment,false,[],false⟩,false,false,[some (13,(.cr,true))],none,none,none,false,false,false,none,false,⟨.lcomment,none,false,.lblank⟩⟩] .leaf))) 41696705 [⟨⟨.code,[82],.lblank,false,[],false⟩,false,false,[none],none,none,none,false,false,false,none,false,⟨.lcode,none,false,.lblank⟩⟩] (.node (.node (.node (.node .leaf 42470912 [⟨⟨(.inside 14),[],.lcode,false,[],false⟩,false,false,[none],none,none,none,false,false,false,none,false,⟨.lcode,none,false,.lblank⟩⟩] .leaf) 42618892 [⟨⟨(.inside 14),[],.lcomment,false,[],false⟩,false,false,[none],none,none,none,false,false,false,none,false,⟨.lcomment,none,false,.lblank⟩⟩] (.node .leaf 42825455 [⟨⟨(.inside 7),[],.lcode,false,[],false⟩,false,false,[some (10,(.lf,false))],none,none,none,false,false,false,none,false,⟨.lcode,none,false,.lblank⟩⟩] .leaf)) 42876449 [⟨⟨.code,[114],.lblank,false,[],false⟩,false,false,[none],none,none,none,false,false,false,none,false,⟨.lcode,none,false,.lblank⟩⟩] (.node (.node .leaf 42926753 [⟨⟨(.inside 5),[],.lcode,false,[],false⟩,false,false,[some (13,(.cr,false))],none,none,none,false,false,false,none,false,⟨.lcode,none,false,.lblank⟩⟩] .leaf) 42973435 [⟨⟨(.inside 7),[],.lcomment,false,[],false⟩,false,false,[some (10,(.lf,false))],none,none,none,false,false,false,none,false,⟨.lcomment,none,false,.lblank⟩⟩] (.node .leaf 43074733 [⟨⟨(.inside 5),[],.lcomment,false,[],false⟩,false,false,[some (13,(.cr,false))],none,none,none,false,false,false,none,false,⟨.lcomment,none,false,.lblank⟩⟩] .leaf))) 43876107 [⟨⟨(.inside 6),[],.lcode,false,[],false⟩,false,false,[some (12,(.ff,false))],none,none,none,false,false,false,none,false,⟨.lcode,none,false,.lblank⟩⟩] (.node (.node (.node .leaf 43926756 [⟨⟨(.inside 5),[],.lcode,false,[],false⟩,false,false,[some (13,(.cr,true))],none,none,none,false,false,false,none,false,⟨.lcode,none,false,.lblank⟩⟩] .leaf) 44024087 [⟨⟨(.inside 6),[],.lcomment,false,[],false⟩,false,false,[some (12,(.ff,false))],none,none,none,false,false,false,none,false,⟨.lcomment,none,false,.lblank⟩⟩] (.node .leaf 44074736 [⟨⟨(.inside 5),[],.lcomment,false,[],false⟩,false,false,[some (13,(.cr,true))],none,none,none,false,false,false,none,false,⟨.lcomment,none,false,.lblank⟩⟩] .leaf)) 45420272 [⟨⟨(.inside 15),[],.lcode,false,[],false⟩,false,false,[none],none,none,none,false,false,false,none,false,⟨.lcode,none,false,.lblank⟩⟩] (.node (.node .leaf 45568252 [⟨⟨(.inside 15),[],.lcomment,false,[],false⟩,false,false,[none],none,none,none,false,false,false,none,false,⟨.lcomment,none,false,.lblank⟩⟩] .leaf) 45774815 [⟨⟨(.inside 8),[],.lcode,false,[],false⟩,false,false,[some (10,(.lf,false))],none,none,none,false,false,false,none,false,⟨.lcode,none,false,.lblank⟩⟩] .leaf)))))) 45876113 [⟨⟨(.inside 6),[],.lcode,false,[],false⟩,false,false,[some (13,(.cr,false))],none,none,none,false,false,false,none,false,⟨.lcode,none,false,.lblank⟩⟩] (.node (.node (.node (.node (.node (.node (.node .leaf 45922795 [⟨⟨(.inside 8),[],.lcomment,false,[],false⟩,false,false,[some (10,(.lf,false))],none,none,none,false,false,false,none,false,⟨.lcomment,none,false,.lblank⟩⟩] .leaf) 46024093 [⟨⟨(.inside 6),[],.lcomment,false,[],false⟩,false,false,[some (13,(.cr,false))],none,none,none,false,false,false,none,false,⟨.lcomment,none,false,.lblank⟩⟩] (.node .leaf 46825467 [⟨⟨(.inside 7),[],.lcode,false,[],false⟩,false,false,[some (12,(.ff,false))],none,none,none,false,false,false,none,false,⟨.lcode,none,false,.lblank⟩⟩] .leaf)) 46876116 [⟨⟨(.inside 6),[],.lcode,false,[],false⟩,false,false,[some (13,(.cr,true))],none,none,none,false,false,false,none,false,⟨.lcode,none,false,.lblank⟩⟩] (.node (.node .leaf 46973447 [⟨⟨(.inside 7),[],.lcomment,false,[],false⟩,false,false,[some (12,(.ff,false))],none,none,none,false,false,false,none,false,⟨.lcomment,none,false,.lblank⟩⟩] .leaf) 47024096 [⟨⟨(.inside 6),[],.lcomment,false,[],false⟩,false,false,[some (13,(.cr,true))],none,none,none,false,false,false,none,false,⟨.lcomment,none,false,.lblank⟩⟩] (.node .leaf 48369632 [⟨⟨(.inside 16),[],.lcode,false,[],false⟩,false,false,[none],none,none,none,false,false,false,none,false,⟨.lcode,none,false,.lblank⟩⟩] .leaf))) 48517612 [⟨⟨(.inside 16),[],.lcomment,false,[],false⟩,false,false,[none],none,none,none,false,false,false,none,false,⟨.lcomment,none,false,.lblank⟩⟩] (.node (.node (.node .leaf 48724175 [⟨⟨(.inside 9),[],.lcode,false,[],false⟩,false,false,[some (10,(.lf,false))],none,none,none,false,false,false,none,false,⟨.lcode,none,false,.lblank⟩⟩] .leaf) 48825473 [⟨⟨(.inside 7),[],.lcode,false,[],false⟩,false,false,[some (13,(.cr,false))],none,none,none,false,false,false,none,false,⟨.lcode,none,false,.lblank⟩⟩] (.node .leaf 48872155 [⟨⟨(.inside 9),[],.lcomment,false,[],false⟩,false,false,[some (10,(.lf,false))],none,none,none,false,false,false,none,false,⟨.lcomment,none,false,.lblank⟩⟩] .leaf)) 48973453 [⟨⟨(.inside 7),[],.lcomment,false,[],false⟩,false,false,[some (13,(.cr,false))],none,none,none,false,false,false,none,false,⟨.lcomment,none,false,.lblank⟩⟩] (.node (.node .leaf 49774827 [⟨⟨(.inside 8),[],.lcode,false,[],false⟩,false,false,[some (12,(.ff,false))],none,none,none,false,false,false,none,false,⟨.lcode,none,false,.lblank⟩⟩] .leaf) 49825476 [⟨⟨(.inside 7),[],.lcode,false,[],false⟩,false,false,[some (13,(.cr,true))],none,none,none,false,false,false,none,false,⟨.lcode,none,false,.lblank⟩⟩] .leaf))) 49922807 [⟨⟨(.inside 8),[],.lcomment,false,[],false⟩,false,false,[some (12,(.ff,false))],none,none,none,false,false,false,none,false,⟨.lcomment,none,false,.lblank⟩⟩] (.node (.node (.node (.node .leaf 49973456 [⟨⟨(.inside 7),[],.lcomment,false,[],false⟩,false,false,[some (13,(.cr,true))],none,none,none,false,false,false,none,false,⟨.lcomment,none,false,.lblank⟩⟩] .leaf) 51673535 [⟨⟨(.inside 10),[],.lcode,false,[],false⟩,false,false,[some (10,(.lf,false))],none,none,none,false,false,false,none,false,⟨.lcode,none,false,.lblank⟩⟩] (.node .leaf 51774833 [⟨⟨(.inside 8),[],.lcode,false,[],false⟩,false,false,[some (13,(.cr,false))],none,none,none,false,false,false,none,false,⟨.lcode,none,false,.lblank⟩⟩] .leaf)) 51821515 [⟨⟨(.inside 10),[],.lcomment,false,[],false⟩,false,false,[some (10,(.lf,false))],none,none,none,false,false,false,none,false,⟨.lcomment,none,false,.lblank⟩⟩] (.node (.node .leaf 51922813 [⟨⟨(.inside 8),[],.lcomment,false,[],false⟩,false,false,[some (13,(.cr,false))],none,none,none,false,false,false,none,false,⟨.lcomment,none,false,.lblank⟩⟩] .leaf) 52724187 [⟨⟨(.inside 9),[],.lcode,false,[],false⟩,false,false,[some (12,(.ff,false))],none,none,none,false,false,false,none,false,⟨.lcode,none,false,.lblank⟩⟩] (.node .leaf 52774836 [⟨⟨(.inside 8),[],.lcode,false,[],false⟩,false,false,[some (13,(.cr,true))],none,none,none,false,false,false,none,false,⟨.lcode,none,false,.lblank⟩⟩] .leaf))) 52872167 [⟨⟨(.inside 9),[],.lcomment,false,[],false⟩,false,false,[some (12,(.ff,false))],none,none,none,false,false,false,none,false,⟨.lcomment,none,false,.lblank⟩⟩] (.node (.node (.node .leaf 52922816 [⟨⟨(.inside 8),[],.lcomment,false,[],false⟩,false,false,[some (13,(.cr,true))],none,none,none,false,false,false,none,false,⟨.lcomment,none,false,.lblank⟩⟩] .leaf) 54622895 [⟨⟨(.inside 11),[],.lcode,false,[],false⟩,false,false,[some (10,(.lf,false))],none,none,none,false,false,false,none,false,⟨.lcode,none,false,.lblank⟩⟩] (.node .leaf 54724193 [⟨⟨(.inside 9),[],.lcode,false,[],false⟩,false,false,[some (13,(.cr,false))],none,none,none,false,false,false,none,false,⟨.lcode,none,false,.lblank⟩⟩] .leaf)) 54770875 [⟨⟨(.inside 11),[],.lcomment,false,[],false⟩,false,false,[some (10,(.lf,false))],none,none,none,false,false,false,none,false,⟨.lcomment,none,false,.lblank⟩⟩] (.node (.node .leaf 54872173 [⟨⟨(.inside 9),[],.lcomment,false,[],false⟩,false,false,[some (13,(.cr,false))],none,none,none,false,false,false,none,false,⟨.lcomment,none,false,.lblank⟩⟩] .leaf) 55673547 [⟨⟨(.inside 10),[],.lcode,false,[],false⟩,false,false,[some (12,(.ff,false))],none,none,none,false,false,false,none,false,⟨.lcode,none,false,.lblank⟩⟩] .leaf)))) 55724196 [⟨⟨(.inside 9),[],.lcode,false,[],false⟩,false,false,[some (13,(.cr,true))],none,none,none,false,false,false,none,false,⟨.lcode,none,false,.lblank⟩⟩] (.node (.node (.node (.node (.node .leaf 55821527 [⟨⟨(.inside 10),[],.lcomment,false,[],false⟩,false,false,[some (12,(.ff,false))],none,none,none,false,false,false,none,false,⟨.lcomment,none,false,.lblank⟩⟩] .leaf) 55872176 [⟨⟨(.inside 9),[],.lcomment,false,[],false⟩,false,false,[some (13,(.cr,true))],none,none,none,false,false,false,none,false,⟨.lcomment,none,false,.lblank⟩⟩] (.node .leaf 57572255 [⟨⟨(.inside 12),[],.lcode,false,[],false⟩,false,false,[some (10,(.lf,false))],none,none,none,false,false,false,none,false,⟨.lcode,none,false,.lblank⟩⟩] .leaf)) 57673553 [⟨⟨(.inside 10),[],.lcode,false,[],false⟩,false,false,[some (13,(.cr,false))],none,none,none,false,false,false,none,false,⟨.lcode,none,false,.lblank⟩⟩] (.node (.node .leaf 57720235 [⟨⟨(.inside 12),[],.lcomment,false,[],false⟩,false,false,[some (10,(.lf,false))],none,none,none,false,false,false,none,false,⟨.lcomment,none,false,.lblank⟩⟩] .leaf) 57821533 [⟨⟨(.inside 10),[],.lcomment,false,[],false⟩,false,false,[some (13,(.cr,false))],none,none,none,false,false,false,none,false,⟨.lcomment,none,false,.lblank⟩⟩] (.node .leaf 58622907 [⟨⟨(.inside 11),[],.lcode,false,[],false⟩,false,false,[some (12,(.ff,false))],none,none,none,false,false,false,none,false,⟨.lcode,none,false,.lblank⟩⟩] .leaf))) 58673556 [⟨⟨(.inside 10),[],.lcode,false,[],false⟩,false,false,[some (13,(.cr,true))],none,none,none,false,false,false,none,false,⟨.lcode,none,false,.lblank⟩⟩] (.node (.node (.node .leaf 58770887 [⟨⟨(.inside 11),[],.lcomment,false,[],false⟩,false,false,[some (12,(.ff,false))],none,none,none,false,false,false,none,false,⟨.lcomment,none,false,.lblank⟩⟩] .leaf) 58821536 [⟨⟨(.inside 10),[],.lcomment,false,[],false⟩,false,false,[some (13,(.cr,true))],none,none,none,false,false,false,none,false,⟨.lcomment,none,false,.lblank⟩⟩] (.node .leaf 59811954 [⟨⟨.code,[58],.lblank,false,[],false⟩,false,false,[some (9,(.ws,false))],none,none,none,false,false,false,none,false,⟨.lcode,none,false,.lblank⟩⟩] .leaf)) 60033156 [⟨⟨.code,[64],.lblank,false,[],false⟩,false,false,[some (9,(.ws,false))],none,none,none,false,false,false,none,false,⟨.lcode,none,false,.lblank⟩⟩] (.node (.node .leaf 60521615 [⟨⟨(.inside 13),[],.lcode,false,[],false⟩,false,false,[some (10,(.lf,false))],none,none,none,false,false,false,none,false,⟨.lcode,none,false,.lblank⟩⟩] .leaf) 60622913 [⟨⟨(.inside 11),[],.lcode,false,[],false⟩,false,false,[some (13,(.cr,false))],none,none,none,false,false,false,none,false,⟨.lcode,none,false,.lblank⟩⟩] .leaf))) 60669595 [⟨⟨(.inside 13),[],.lcomment,false,[],false⟩,false,false,[some (10,(.lf,false))],none,none,none,false,false,false,none,false,⟨.lcomment,none,false,.lblank⟩⟩] (.node (.node (.node (.node .leaf 60696762 [⟨⟨.code,[82],.lblank,false,[],false⟩,false,false,[some (9,(.ws,false))],none,none,none,false,false,false,none,false,⟨.lcode,none,false,.lblank⟩⟩] .leaf) 60770893 [⟨⟨(.inside 11),[],.lcomment,false,[],false⟩,false,false,[some (13,(.cr,false))],none,none,none,false,false,false,none,false,⟨.lcomment,none,false,.lblank⟩⟩] (.node .leaf 61572267 [⟨⟨(.inside 12),[],.lcode,false,[],false⟩,false,false,[some (12,(.ff,false))],none,none,none,false,false,false,none,false,⟨.lcode,none,false,.lblank⟩⟩] .leaf)) 61622916 [⟨⟨(.inside 11),[],.lcode,false,[],false⟩,false,false,[some (13,(.cr,true))],none,none,none,false,false,false,none,false,⟨.lcode,none,false,.lblank⟩⟩] (.node (.node .leaf 61720247 [⟨⟨(.inside 12),[],.lcomment,false,[],false⟩,false,false,[some (12,(.ff,false))],none,none,none,false,false,false,none,false,⟨.lcomment,none,false,.lblank⟩⟩] .leaf) 61770896 [⟨⟨(.inside 11),[],.lcomment,false,[],false⟩,false,false,[some (13,(.cr,true))],none,none,none,false,false,false,none,false,⟨.lcomment,none,false,.lblank⟩⟩] (.node .leaf 61811960 [⟨⟨.code,[58],.lblank,false,[],false⟩,false,false,[some (10,(.lf,false))],none,none,none,false,false,false,none,false,⟨.lcode,none,false,.lblank⟩⟩] .leaf))) 61876506 [⟨⟨.code,[114],.lblank,false,[],false⟩,false,false,[some (9,(.ws,false))],none,none,none,false,false,false,none,false,⟨.lcode,none,false,.lblank⟩⟩] (.node (.node (.node .leaf 62033162 [⟨⟨.code,[64],.lblank,false,[],false⟩,false,false,[some (10,(.lf,false))],none,none,none,false,false,false,none,false,⟨.lcode,none,false,.lblank⟩⟩] .leaf) 62696768 [⟨⟨.code,[82],.lblank,false,[],false⟩,false,false,[some (10,(.lf,false))],none,none,none,false,false,false,none,false,⟨.lcode,none,false,.lblank⟩⟩] (.node .leaf 63470975 [⟨⟨(.inside 14),[],.lcode,false,[],false⟩,false,false,[some (10,(.lf,false))],none,none,none,false,false,false,none,false,⟨.lcode,none,false,.lblank⟩⟩] .leaf)) 63572273 [⟨⟨(.inside 12),[],.lcode,false,[],false⟩,false,false,[some (13,(.cr,false))],none,none,none,false,false,false,none,false,⟨.lcode,none,false,.lblank⟩⟩] (.node (.node .leaf 63618955 [⟨⟨(.inside 14),[],.lcomment,false,[],false⟩,false,false,[some (10,(.lf,false))],none,none,none,false,false,false,none,false,⟨.lcomment,none,false,.lblank⟩⟩] .leaf) 63720253 [⟨⟨(.inside 12),[],.lcomment,false,[],false⟩,false,false,[some (13,(.cr,false))],none,none,none,false,false,false,none,false,⟨.lcomment,none,false,.lblank⟩⟩] .leaf))))) 63876512 [⟨⟨.code,[114],.lblank,false,[],false⟩,false,false,[some (10,(.lf,false))],none,none,none,false,false,false,none,false,⟨.lcode,none,false,.lblank⟩⟩] (.node (.node (.node (.node (.node (.node .leaf 64521627 [⟨⟨(.inside 13),[],.lcode,false,[],false⟩,false,false,[some (12,(.ff,false))],none,none,none,false,false,false,none,false,⟨.lcode,none,false,.lblank⟩⟩] .leaf) 64572276 [⟨⟨(.inside 12),[],.lcode,false,[],false⟩,false,false,[some (13,(.cr,true))],none,none,none,false,false,false,none,false,⟨.lcode,none,false,.lblank⟩⟩] (.node .leaf 64669607 [⟨⟨(.inside 13),[],.lcomment,false,[],false⟩,false,false,[some (12,(.ff,false))],none,none,none,false,false,false,none,false,⟨.lcomment,none,false,.lblank⟩⟩] .leaf)) 64720256 [⟨⟨(.inside 12),[],.lcomment,false,[],false⟩,false,false,[some (13,(.cr,true))],none,none,none,false,false,false,none,false,⟨.lcomment,none,false,.lblank⟩⟩] (.node (.node .leaf 65811972 [⟨⟨.code,[58],.lblank,false,[],false⟩,false,false,[some (12,(.ff,false))],none,none,none,false,false,false,none,false,⟨.lcode,none,false,.lblank⟩⟩] .leaf) 66033174 [⟨⟨.code,[64],.lblank,false,[],false⟩,false,false,[some (12,(.ff,false))],none,none,none,false,false,false,none,false,⟨.lcode,none,false,.lblank⟩⟩] (.node .leaf 66420335 [⟨⟨(.inside 15),[],.lcode,false,[],false⟩,false,false,[some (10,(.lf,false))],none,none,none,false,false,false,none,false,⟨.lcode,none,false,.lblank⟩⟩] .leaf))) 66521633 [⟨⟨(.inside 13),[],.lcode,false,[],false⟩,false,false,[some (13,(.cr,false))],none,none,none,false,false,false,none,false,⟨.lcode,none,false,.lblank⟩⟩] (.node (.node (.node .leaf 66568315 [⟨⟨(.inside 15),[],.lcomment,false,[],false⟩,false,false,[some (10,(.lf,false))],none,none,none,false,false,false,none,false,⟨.lcomment,none,false,.lblank⟩⟩] .leaf) 66669613 [⟨⟨(.inside 13),[],.lcomment,false,[],false⟩,false,false,[some (13,(.cr,false))],none,none,none,false,false,false,none,false,⟨.lcomment,none,false,.lblank⟩⟩] (.node .leaf 66696780 [⟨⟨.code,[82],.lblank,false,[],false⟩,false,false,[some (12,(.ff,false))],none,none,none,false,false,false,none,false,⟨.lcode,none,false,.lblank⟩⟩] .leaf)) 67470987 [⟨⟨(.inside 14),[],.lcode,false,[],false⟩,false,false,[some (12,(.ff,false))],none,none,none,false,false,false,none,false,⟨.lcode,none,false,.lblank⟩⟩] (.node (.node .leaf 67521636 [⟨⟨(.inside 13),[],.lcode,false,[],false⟩,false,false,[some (13,(.cr,true))],none,none,none,false,false,false,none,false,⟨.lcode,none,false,.lblank⟩⟩] .leaf) 67618967 [⟨⟨(.inside 14),[],.lcomment,false,[],false⟩,false,false,[some (12,(.ff,false))],none,none,none,false,false,false,none,false,⟨.lcomment,none,false,.lblank⟩⟩] .leaf))) 67669616 [⟨⟨(.inside 13),[],.lcomment,false,[],false⟩,false,false,[some (13,(.cr,true))],none,none,none,false,false,false,none,false,⟨.lcomment,none,false,.lblank⟩⟩] (.node (.node (.node (.node .leaf 67811978 [⟨⟨.code,[58],.lblank,false,[],false⟩,false,false,[some (13,(.cr,false))],none,none,none,false,false,false,none,false,⟨.lcode,none,false,.lblank⟩⟩] .leaf) 67876524 [⟨⟨.code,[114],.lblank,false,[],false⟩,false,false,[some (12,(.ff,false))],none,none,none,false,false,false,none,false,⟨.lcode,none,false,.lblank⟩⟩] (.node .leaf 68033180 [⟨⟨.code,[64],.lblank,false,[],false⟩,false,false,[some (13,(.cr,false))],none,none,none,false,false,false,none,false,⟨.lcode,none,false,.lblank⟩⟩] .leaf)) 68696786 [⟨⟨.code,[82],.lblank,false,[],false⟩,false,false,[some (13,(.cr,false))],none,none,none,false,false,false,none,false,⟨.lcode,none,false,.lblank⟩⟩] (.node (.node .leaf 68811981 [⟨⟨.code,[58],.lblank,false,[],false⟩,false,false,[some (13,(.cr,true))],none,none,none,false,false,false,none,false,⟨.lcode,none,false,.lblank⟩⟩] .leaf) 69033183 [⟨⟨.code,[64],.lblank,false,[],false⟩,false,false,[some (13,(.cr,true))],none,none,none,false,false,false,none,false,⟨.lcode,none,false,.lblank⟩⟩] (.node .leaf 69369695 [⟨⟨(.inside 16),[],.lcode,false,[],false⟩,false,false,[some (10,(.lf,false))],none,none,none,false,false,false,none,false,⟨.lcode,none,false,.lblank⟩⟩] .leaf))) 69470993 [⟨⟨(.inside 14),[],.lcode,false,[],false⟩,false,false,[some (13,(.cr,false))],none,none,none,false,false,false,none,false,⟨.lcode,none,false,.lblank⟩⟩] (.node (.node (.node .leaf 69517675 [⟨⟨(.inside 16),[],.lcomment,false,[],false⟩,false,false,[some (10,(.lf,false))],none,none,none,false,false,false,none,false,⟨.lcomment,none,false,.lblank⟩⟩] .leaf) 69618973 [⟨⟨(.inside 14),[],.lcomment,false,[],false⟩,false,false,[some (13,(.cr,false))],none,none,none,false,false,false,none,false,⟨.lcomment,none,false,.lblank⟩⟩] (.node .leaf 69696789 [⟨⟨.code,[82],.lblank,false,[],false⟩,false,false,[some (13,(.cr,true))],none,none,none,false,false,false,none,false,⟨.lcode,none,false,.lblank⟩⟩] .leaf)) 69876530 [⟨⟨.code,[114],.lblank,false,[],false⟩,false,false,[some (13,(.cr,false))],none,none,none,false,false,false,none,false,⟨.lcode,none,false,.lblank⟩⟩] (.node (.node .leaf 70420347 [⟨⟨(.inside 15),[],.lcode,false,[],false⟩,false,false,[some (12,(.ff,false))],none,none,none,false,false,false,none,false,⟨.lcode,none,false,.lblank⟩⟩] .leaf) 70470996 [⟨⟨(.inside 14),[],.lcode,false,[],false⟩,false,false,[some (13,(.cr,true))],none,none,none,false,false,false,none,false,⟨.lcode,none,false,.lblank⟩⟩] .leaf)))) 70568327 [⟨⟨(.inside 15),[],.lcomment,false,[],false⟩,false,false,[some (12,(.ff,false))],none,none,none,false,false,false,none,false,⟨.lcomment,none,false,.lblank⟩⟩] (.node (.node (.node (.node (.node .leaf 70618976 [⟨⟨(.inside 14),[],.lcomment,false,[],false⟩,false,false,[some (13,(.cr,true))],none,none,none,false,false,false,none,false,⟨.lcomment,none,false,.lblank⟩⟩] .leaf) 70876533 [⟨⟨.code,[114],.lblank,false,[],false⟩,false,false,[some (13,(.cr,true))],none,none,none,false,false,false,none,false,⟨.lcode,none,false,.lblank⟩⟩] (.node .leaf 72420353 [⟨⟨(.inside 15),[],.lcode,false,[],false⟩,false,false,[some (13,(.cr,false))],none,none,none,false,false,false,none,false,⟨.lcode,none,false,.lblank⟩⟩] .leaf)) 72568333 [⟨⟨(.inside 15),[],.lcomment,false,[],false⟩,false,false,[some (13,(.cr,false))],none,none,none,false,false,false,none,false,⟨.lcomment,none,false,.lblank⟩⟩] (.node (.node .leaf 73369707 [⟨⟨(.inside 16),[],.lcode,false,[],false⟩,false,false,[some (12,(.ff,false))],none,none,none,false,false,false,none,false,⟨.lcode,none,false,.lblank⟩⟩] .leaf) 73420356 [⟨⟨(.inside 15),[],.lcode,false,[],false⟩,false,false,[some (13,(.cr,true))],none,none,none,false,false,false,none,false,⟨.lcode,none,false,.lblank⟩⟩] (.node .leaf 73517687 [⟨⟨(.inside 16),[],.lcomment,false,[],false⟩,false,false,[some (12,(.ff,false))],none,none,none,false,false,false,none,false,⟨.lcomment,none,false,.lblank⟩⟩] .leaf))) 73568336 [⟨⟨(.inside 15),[],.lcomment,false,[],false⟩,false,false,[some (13,(.cr,true))],none,none,none,false,false,false,none,false,⟨.lcomment,none,false,.lblank⟩⟩] (.node (.node (.node .leaf 75369713 [⟨⟨(.inside 16),[],.lcode,false,[],false⟩,false,false,[some (13,(.cr,false))],none,none,none,false,false,false,none,false,⟨.lcode,none,false,.lblank⟩⟩] .leaf) 75517693 [⟨⟨(.inside 16),[],.lcomment,false,[],false⟩,false,false,[some (13,(.cr,false))],none,none,none,false,false,false,none,false,⟨.lcomment,none,false,.lblank⟩⟩] (.node .leaf 76369716 [⟨⟨(.inside 16),[],.lcode,false,[],false⟩,false,false,[some (13,(.cr,true))],none,none,none,false,false,false,none,false,⟨.lcode,none,false,.lblank⟩⟩] .leaf)) 76517696 [⟨⟨(.inside 16),[],.lcomment,false,[],false⟩,false,false,[some (13,(.cr,true))],none,none,none,false,false,false,none,false,⟨.lcomment,none,false,.lblank⟩⟩] (.node (.node .leaf 119396834 [⟨⟨.code,[64],.lcode,false,[],false⟩,false,false,[some (58,(.other,false))],none,none,none,false,false,false,none,false,⟨.lcode,none,false,.lblank⟩⟩] .leaf) 120060440 [⟨⟨.code,[82],.lcode,false,[],false⟩,false,false,[some (58,(.other,false))],none,none,none,false,false,false,none,false,⟨.lcode,none,false,.lblank⟩⟩] .leaf))) 121240184 [⟨⟨.code,[114],.lcode,false,[],false⟩,false,false,[some (58,(.other,false))],none,none,none,false,false,false,none,false,⟨.lcode,none,false,.lblank⟩⟩] (.node (.node (.node (.node .leaf 131175668 [⟨⟨.code,[58],.lcode,false,[],false⟩,false,false,[some (64,(.other,false))],none,none,none,false,false,false,none,false,⟨.lcode,none,false,.lblank⟩⟩] .leaf) 131396870 [⟨⟨.code,[64],.lcode,false,[],false⟩,false,false,[some (64,(.other,false))],none,none,none,false,false,false,none,false,⟨.lcode,none,false,.lblank⟩⟩] (.node .leaf 132060476 [⟨⟨.code,[82],.lcode,false,[],false⟩,false,false,[some (64,(.other,false))],none,none,none,false,false,false,none,false,⟨.lcode,none,false,.lblank⟩⟩] .leaf)) 133240220 [⟨⟨.code,[114],.lcode,false,[],false⟩,false,false,[some (64,(.other,false))],none,none,none,false,false,false,none,false,⟨.lcode,none,false,.lblank⟩⟩] (.node (.node .leaf 141175698 [⟨⟨.code,[58],.lcode,false,[],false⟩,false,false,[some (69,(.other,false))],none,none,none,false,false,false,none,false,⟨.lcode,none,false,.lblank⟩⟩] .leaf) 141396900 [⟨⟨.code,[64],.lcode,false,[],false⟩,false,false,[some (69,(.other,false))],none,none,none,false,false,false,none,false,⟨.lcode,none,false,.lblank⟩⟩] (.node .leaf 157175746 [⟨⟨.code,[58],.lcode,false,[],false⟩,false,false,[some (77,(.other,false))],none,none,none,false,false,false,none,false,⟨.lcode,none,false,.lblank⟩⟩] .leaf))) 157396948 [⟨⟨.code,[64],.lcode,false,[],false⟩,false,false,[some (77,(.other,false))],none,none,none,false,false,false,none,false,⟨.lcode,none,false,.lblank⟩⟩] (.node (.node (.node .leaf 158033450 [⟨⟨.code,[64],.lblank,false,[],false⟩,false,false,[some (58,(.other,false))],none,none,none,false,false,false,none,false,⟨.lcode,none,false,.lblank⟩⟩] .leaf) 158060554 [⟨⟨.code,[82],.lcode,false,[],false⟩,false,false,[some (77,(.other,false))],none,none,none,false,false,false,none,false,⟨.lcode,none,false,.lblank⟩⟩] (.node .leaf 158697056 [⟨⟨.code,[82],.lblank,false,[],false⟩,false,false,[some (58,(.other,false))],none,none,none,false,false,false,none,false,⟨.lcode,none,false,.lblank⟩⟩] .leaf)) 159240298 [⟨⟨.code,[114],.lcode,false,[],false⟩,false,false,[some (77,(.other,false))],none,none,none,false,false,false,none,false,⟨.lcode,none,false,.lblank⟩⟩] (.node (.node .leaf 159876800 [⟨⟨.code,[114],.lblank,false,[],false⟩,false,false,[some (58,(.other,false))],none,none,none,false,false,false,none,false,⟨.lcode,none,false,.lblank⟩⟩] .leaf) 167175776 [⟨⟨.code,[58],.lcode,false,[],false⟩,false,false,[some (82,(.other,false))],none,none,none,false,false,false,none,false,⟨.lcode,none,false,.lblank⟩⟩] .leaf))))))) 168060584 [⟨⟨.code,[82],.lcode,false,[],false⟩,false,false,[some (82,(.other,false))],none,none,none,false,false,false,none,false,⟨.lcode,none,false,.lblank⟩⟩] (.node (.node (.node (.node (.node (.node (.node (.node .leaf 169240328 [⟨⟨.code,[114],.lcode,false,[],false⟩,false,false,[some (82,(.other,false))],none,none,none,false,false,false,none,false,⟨.lcode,none,false,.lblank⟩⟩] .leaf) 169812284 [⟨⟨.code,[58],.lblank,false,[],false⟩,false,false,[some (64,(.other,false))],none,none,none,false,false,false,none,false,⟨.lcode,none,false,.lblank⟩⟩] (.node .leaf 170033486 [⟨⟨.code,[64],.lblank,false,[],false⟩,false,false,[some (64,(.other,false))],none,none,none,false,false,false,none,false,⟨.lcode,none,false,.lblank⟩⟩] .leaf)) 170697092 [⟨⟨.code,[82],.lblank,false,[],false⟩,false,false,[some (64,(.other,false))],none,none,none,false,false,false,none,false,⟨.lcode,none,false,.lblank⟩⟩] (.node (.node .leaf 171876836 [⟨⟨.code,[114],.lblank,false,[],false⟩,false,false,[some (64,(.other,false))],none,none,none,false,false,false,none,false,⟨.lcode,none,false,.lblank⟩⟩] .leaf) 179812314 [⟨⟨.code,[58],.lblank,false,[],false⟩,false,false,[some (69,(.other,false))],none,none,none,false,false,false,none,false,⟨.lcode,none,false,.lblank⟩⟩] (.node .leaf 180033516 [⟨⟨.code,[64],.lblank,false,[],false⟩,false,false,[some (69,(.other,false))],none,none,none,false,false,false,none,false,⟨.lcode,none,false,.lblank⟩⟩] .leaf))) 187175836 [⟨⟨.code,[58],.lcode,false,[],false⟩,false,false,[some (92,(.other,false))],none,none,none,false,false,false,none,false,⟨.lcode,none,false,.lblank⟩⟩] (.node (.node (.node .leaf 187397038 [⟨⟨.code,[64],.lcode,false,[],false⟩,false,false,[some (92,(.other,false))],none,none,none,false,false,false,none,false,⟨.lcode,none,false,.lblank⟩⟩] .leaf) 188060644 [⟨⟨.code,[82],.lcode,false,[],false⟩,false,false,[some (92,(.other,false))],none,none,none,false,false,false,none,false,⟨.lcode,none,false,.lblank⟩⟩] (.node .leaf 189240388 [⟨⟨.code,[114],.lcode,false,[],false⟩,false,false,[some (92,(.other,false))],none,none,none,false,false,false,none,false,⟨.lcode,none,false,.lblank⟩⟩] .leaf)) 195812362 [⟨⟨.code,[58],.lblank,false,[],false⟩,false,false,[some (77,(.other,false))],none,none,none,false,false,false,none,false,⟨.lcode,none,false,.lblank⟩⟩] (.node (.node .leaf 196033564 [⟨⟨.code,[64],.lblank,false,[],false⟩,false,false,[some (77,(.other,false))],none,none,none,false,false,false,none,false,⟨.lcode,none,false,.lblank⟩⟩] .leaf) 196697170 [⟨⟨.code,[82],.lblank,false,[],false⟩,false,false,[some (77,(.other,false))],none,none,none,false,false,false,none,false,⟨.lcode,none,false,.lblank⟩⟩] .leaf))) 197876914 [⟨⟨.code,[114],.lblank,false,[],false⟩,false,false,[some (77,(.other,false))],none,none,none,false,false,false,none,false,⟨.lcode,none,false,.lblank⟩⟩] (.node (.node (.node (.node .leaf 205175890 [⟨⟨.code,[58],.lcode,false,[],false⟩,false,false,[some (101,(.other,false))],none,none,none,false,false,false,none,false,⟨.lcode,none,false,.lblank⟩⟩] .leaf) 205397092 [⟨⟨.code,[64],.lcode,false,[],false⟩,false,false,[some (101,(.other,false))],none,none,none,false,false,false,none,false,⟨.lcode,none,false,.lblank⟩⟩] (.node .leaf 205812392 [⟨⟨.code,[58],.lblank,false,[],false⟩,false,false,[some (82,(.other,false))],none,none,none,false,false,false,none,false,⟨.lcode,none,false,.lblank⟩⟩] .leaf)) 206697200 [⟨⟨.code,[82],.lblank,false,[],false⟩,false,false,[some (82,(.other,false))],none,none,none,false,false,false,none,false,⟨.lcode,none,false,.lblank⟩⟩] (.node (.node .leaf 207876944 [⟨⟨.code,[114],.lblank,false,[],false⟩,false,false,[some (82,(.other,false))],none,none,none,false,false,false,none,false,⟨.lcode,none,false,.lblank⟩⟩] .leaf) 221175938 [⟨⟨.code,[58],.lcode,false,[],false⟩,false,false,[some (109,(.other,false))],none,none,none,false,false,false,none,false,⟨.lcode,none,false,.lblank⟩⟩] (.node .leaf 221397140 [⟨⟨.code,[64],.lcode,false,[],false⟩,false,false,[some (109,(.other,false))],none,none,none,false,false,false,none,false,⟨.lcode,none,false,.lblank⟩⟩] .leaf))) 222060746 [⟨⟨.code,[82],.lcode,false,[],false⟩,false,false,[some (109,(.other,false))],none,none,none,false,false,false,none,false,⟨.lcode,none,false,.lblank⟩⟩] (.node (.node (.node .leaf 223240490 [⟨⟨.code,[114],.lcode,false,[],false⟩,false,false,[some (109,(.other,false))],none,none,none,false,false,false,none,false,⟨.lcode,none,false,.lblank⟩⟩] .leaf) 225812452 [⟨⟨.code,[58],.lblank,false,[],false⟩,false,false,[some (92,(.other,false))],none,none,none,false,false,false,none,false,⟨.lcode,none,false,.lblank⟩⟩] (.node .leaf 226033654 [⟨⟨.code,[64],.lblank,false,[],false⟩,false,false,[some (92,(.other,false))],none,none,none,false,false,false,none,false,⟨.lcode,none,false,.lblank⟩⟩] .leaf)) 226697260 [⟨⟨.code,[82],.lblank,false,[],false⟩,false,false,[some (92,(.other,false))],none,none,none,false,false,false,none,false,⟨.lcode,none,false,.lblank⟩⟩] (.node (.node .leaf 227877004 [⟨⟨.code,[114],.lblank,false,[],false⟩,false,false,[some (92,(.other,false))],none,none,none,false,false,false,none,false,⟨.lcode,none,false,.lblank⟩⟩] .leaf) 231175968 [⟨⟨.code,[58],.lcode,false,[],false⟩,false,false,[some (114,(.other,false))],none,none,none,false,false,false,none,false,⟨.lcode,none,false,.lblank⟩⟩] .leaf)))) 232060776 [⟨⟨.code,[82],.lcode,false,[],false⟩,false,false,[some (114,(.other,false))],none,none,none,false,false,false,none,false,⟨.lcode,none,false,.lblank⟩⟩] (.node (.node (.node (.node (.node .leaf 233240520 [⟨⟨.code,[114],.lcode,false,[],false⟩,false,false,[some (114,(.other,false))],none,none,none,false,false,false,none,false,⟨.lcode,none,false,.lblank⟩⟩] .leaf) 243812506 [⟨⟨.code,[58],.lblank,false,[],false⟩,false,false,[some (101,(.other,false))],none,none,none,false,false,false,none,false,⟨.lcode,none,false,.lblank⟩⟩] (.node .leaf 244033708 [⟨⟨.code,[64],.lblank,false,[],false⟩,false,false,[some (101,(.other,false))],none,none,none,false,false,false,none,false,⟨.lcode,none,false,.lblank⟩⟩] .leaf)) 259812554 [⟨⟨.code,[58],.lblank,false,[],false⟩,false,false,[some (109,(.other,false))],none,none,none,false,false,false,none,false,⟨.lcode,none,false,.lblank⟩⟩] (.node (.node .leaf 260033756 [⟨⟨.code,[64],.lblank,false,[],false⟩,false,false,[some (109,(.other,false))],none,none,none,false,false,false,none,false,⟨.lcode,none,false,.lblank⟩⟩] .leaf) 260697362 [⟨⟨.code,[82],.lblank,false,[],false⟩,false,false,[some (109,(.other,false))],none,none,none,false,false,false,none,false,⟨.lcode,none,false,.lblank⟩⟩] (.node .leaf 261877106 [⟨⟨.code,[114],.lblank,false,[],false⟩,false,false,[some (109,(.other,false))],none,none,none,false,false,false,none,false,⟨.lcode,none,false,.lblank⟩⟩] .leaf))) 269812584 [⟨⟨.code,[58],.lblank,false,[],false⟩,false,false,[some (114,(.other,false))],none,none,none,false,false,false,none,false,⟨.lcode,none,false,.lblank⟩⟩] (.node (.node (.node .leaf 270697392 [⟨⟨.code,[82],.lblank,false,[],false⟩,false,false,[some (114,(.other,false))],none,none,none,false,false,false,none,false,⟨.lcode,none,false,.lblank⟩⟩] .leaf) 271877136 [⟨⟨.code,[114],.lblank,false,[],false⟩,false,false,[some (114,(.other,false))],none,none,none,false,false,false,none,false,⟨.lcode,none,false,.lblank⟩⟩] (.node .leaf 316982594 [⟨⟨.code,[64,82],.lcode,false,[],false⟩,false,false,[none],none,none,none,false,false,false,none,false,⟨.lcode,none,false,.lblank⟩⟩] .leaf)) 318162338 [⟨⟨.code,[64,114],.lcode,false,[],false⟩,false,false,[none],none,none,none,false,false,false,none,false,⟨.lcode,none,false,.lblank⟩⟩] (.node (.node .leaf 335982651 [⟨⟨.code,[64,82],.lcode,false,[],false⟩,false,false,[some (9,(.ws,false))],none,none,none,false,false,false,none,false,⟨.lcode,none,false,.lblank⟩⟩] .leaf) 337162395 [⟨⟨.code,[64,114],.lcode,false,[],false⟩,false,false,[some (9,(.ws,false))],none,none,none,false,false,false,none,false,⟨.lcode,none,false,.lblank⟩⟩] .leaf))) 337982657 [⟨⟨.code,[64,82],.lcode,false,[],false⟩,false,false,[some (10,(.lf,false))],none,none,none,false,false,false,none,false,⟨.lcode,none,false,.lblank⟩⟩] (.node (.node (.node (.node .leaf 339162401 [⟨⟨.code,[64,114],.lcode,false,[],false⟩,false,false,[some (10,(.lf,false))],none,none,none,false,false,false,none,false,⟨.lcode,none,false,.lblank⟩⟩] .leaf) 341982669 [⟨⟨.code,[64,82],.lcode,false,[],false⟩,false,false,[some (12,(.ff,false))],none,none,none,false,false,false,none,false,⟨.lcode,none,false,.lblank⟩⟩] (.node .leaf 343162413 [⟨⟨.code,[64,114],.lcode,false,[],false⟩,false,false,[some (12,(.ff,false))],none,none,none,false,false,false,none,false,⟨.lcode,none,false,.lblank⟩⟩] .leaf)) 343982675 [⟨⟨.code,[64,82],.lcode,false,[],false⟩,false,false,[some (13,(.cr,false))],none,none,none,false,false,false,none,false,⟨.lcode,none,false,.lblank⟩⟩] (.node (.node .leaf 344982678 [⟨⟨.code,[64,82],.lcode,false,[],false⟩,false,false,[some (13,(.cr,true))],none,none,none,false,false,false,none,false,⟨.lcode,none,false,.lblank⟩⟩] .leaf) 345162419 [⟨⟨.code,[64,114],.lcode,false,[],false⟩,false,false,[some (13,(.cr,false))],none,none,none,false,false,false,none,false,⟨.lcode,none,false,.lblank⟩⟩] (.node .leaf 346162422 [⟨⟨.code,[64,114],.lcode,false,[],false⟩,false,false,[some (13,(.cr,true))],none,none,none,false,false,false,none,false,⟨.lcode,none,false,.lblank⟩⟩] .leaf))) 403435709 [⟨⟨.code,[82,69],.lcode,false,[],false⟩,false,false,[none],none,none,none,false,false,false,none,false,⟨.lcode,none,false,.lblank⟩⟩] (.node (.node (.node .leaf 404615453 [⟨⟨.code,[82,101],.lcode,false,[],false⟩,false,false,[none],none,none,none,false,false,false,none,false,⟨.lcode,none,false,.lblank⟩⟩] .leaf) 422435766 [⟨⟨.code,[82,69],.lcode,false,[],false⟩,false,false,[some (9,(.ws,false))],none,none,none,false,false,false,none,false,⟨.lcode,none,false,.lblank⟩⟩] (.node .leaf 423615510 [⟨⟨.code,[82,101],.lcode,false,[],false⟩,false,false,[some (9,(.ws,false))],none,none,none,false,false,false,none,false,⟨.lcode,none,false,.lblank⟩⟩] .leaf)) 424435772 [⟨⟨.code,[82,69],.lcode,false,[],false⟩,false,false,[some (10,(.lf,false))],none,none,none,false,false,false,none,false,⟨.lcode,none,false,.lblank⟩⟩] (.node (.node .leaf 425615516 [⟨⟨.code,[82,101],.lcode,false,[],false⟩,false,false,[some (10,(.lf,false))],none,none,none,false,false,false,none,false,⟨.lcode,none,false,.lblank⟩⟩] .leaf) 428435784 [⟨⟨.code,[82,69],.lcode,false,[],false⟩,false,false,[some (12,(.ff,false))],none,none,none,false,false,false,none,false,⟨.lcode,none,false,.lblank⟩⟩] .leaf))))) 429615528 [⟨⟨.code,[82,101],.lcode,false,[],false⟩,false,false,[some (12,(.ff,false))],none,none,none,false,false,false,none,false,⟨.lcode,none,false,.lblank⟩⟩] (.node (.node (.node (.node (.node (.node .leaf 430435790 [⟨⟨.code,[82,69],.lcode,false,[],false⟩,false,false,[some (13,(.cr,false))],none,none,none,false,false,false,none,false,⟨.lcode,none,false,.lblank⟩⟩] .leaf) 431435793 [⟨⟨.code,[82,69],.lcode,false,[],false⟩,false,false,[some (13,(.cr,true))],none,none,none,false,false,false,none,false,⟨.lcode,none,false,.lblank⟩⟩] (.node .leaf 431615534 [⟨⟨.code,[82,101],.lcode,false,[],false⟩,false,false,[some (13,(.cr,false))],none,none,none,false,false,false,none,false,⟨.lcode,none,false,.lblank⟩⟩] .leaf)) 432615537 [⟨⟨.code,[82,101],.lcode,false,[],false⟩,false,false,[some (13,(.cr,true))],none,none,none,false,false,false,none,false,⟨.lcode,none,false,.lblank⟩⟩] (.node (.node .leaf 433982945 [⟨⟨.code,[64,82],.lcode,false,[],false⟩,false,false,[some (58,(.other,false))],none,none,none,false,false,false,none,false,⟨.lcode,none,false,.lblank⟩⟩] .leaf) 435162689 [⟨⟨.code,[64,114],.lcode,false,[],false⟩,false,false,[some (58,(.other,false))],none,none,none,false,false,false,none,false,⟨.lcode,none,false,.lblank⟩⟩] (.node .leaf 445982981 [⟨⟨.code,[64,82],.lcode,false,[],false⟩,false,false,[some (64,(.other,false))],none,none,none,false,false,false,none,false,⟨.lcode,none,false,.lblank⟩⟩] .leaf))) 447162725 [⟨⟨.code,[64,114],.lcode,false,[],false⟩,false,false,[some (64,(.other,false))],none,none,none,false,false,false,none,false,⟨.lcode,none,false,.lblank⟩⟩] (.node (.node (.node .leaf 471983059 [⟨⟨.code,[64,82],.lcode,false,[],false⟩,false,false,[some (77,(.other,false))],none,none,none,false,false,false,none,false,⟨.lcode,none,false,.lblank⟩⟩] .leaf) 473162803 [⟨⟨.code,[64,114],.lcode,false,[],false⟩,false,false,[some (77,(.other,false))],none,none,none,false,false,false,none,false,⟨.lcode,none,false,.lblank⟩⟩] (.node .leaf 481983089 [⟨⟨.code,[64,82],.lcode,false,[],false⟩,false,false,[some (82,(.other,false))],none,none,none,false,false,false,none,false,⟨.lcode,none,false,.lblank⟩⟩] .leaf)) 483162833 [⟨⟨.code,[64,114],.lcode,false,[],false⟩,false,false,[some (82,(.other,false))],none,none,none,false,false,false,none,false,⟨.lcode,none,false,.lblank⟩⟩] (.node (.node .leaf 501983149 [⟨⟨.code,[64,82],.lcode,false,[],false⟩,false,false,[some (92,(.other,false))],none,none,none,false,false,false,none,false,⟨.lcode,none,false,.lblank⟩⟩] .leaf) 503162893 [⟨⟨.code,[64,114],.lcode,false,[],false⟩,false,false,[some (92,(.other,false))],none,none,none,false,false,false,none,false,⟨.lcode,none,false,.lblank⟩⟩] .leaf))) 515176820 [⟨⟨.code,[58],.lcode,false,[],false⟩,false,false,[some (256,(.other,false))],none,none,none,false,false,false,none,false,⟨.lcode,none,false,.lblank⟩⟩] (.node (.node (.node (.node .leaf 515398022 [⟨⟨.code,[64],.lcode,false,[],false⟩,false,false,[some (256,(.other,false))],none,none,none,false,false,false,none,false,⟨.lcode,none,false,.lblank⟩⟩] .leaf) 516061628 [⟨⟨.code,[82],.lcode,false,[],false⟩,false,false,[some (256,(.other,false))],none,none,none,false,false,false,none,false,⟨.lcode,none,false,.lblank⟩⟩] (.node .leaf 517241372 [⟨⟨.code,[114],.lcode,false,[],false⟩,false,false,[some (256,(.other,false))],none,none,none,false,false,false,none,false,⟨.lcode,none,false,.lblank⟩⟩] .leaf)) 520436060 [⟨⟨.code,[82,69],.lcode,false,[],false⟩,false,false,[some (58,(.other,false))],none,none,none,false,false,false,none,false,⟨.lcode,none,false,.lblank⟩⟩] (.node (.node .leaf 521615804 [⟨⟨.code,[82,101],.lcode,false,[],false⟩,false,false,[some (58,(.other,false))],none,none,none,false,false,false,none,false,⟨.lcode,none,false,.lblank⟩⟩] .leaf) 532436096 [⟨⟨.code,[82,69],.lcode,false,[],false⟩,false,false,[some (64,(.other,false))],none,none,none,false,false,false,none,false,⟨.lcode,none,false,.lblank⟩⟩] (.node .leaf 533615840 [⟨⟨.code,[82,101],.lcode,false,[],false⟩,false,false,[some (64,(.other,false))],none,none,none,false,false,false,none,false,⟨.lcode,none,false,.lblank⟩⟩] .leaf))) 535983251 [⟨⟨.code,[64,82],.lcode,false,[],false⟩,false,false,[some (109,(.other,false))],none,none,none,false,false,false,none,false,⟨.lcode,none,false,.lblank⟩⟩] (.node (.node (.node .leaf 537162995 [⟨⟨.code,[64,114],.lcode,false,[],false⟩,false,false,[some (109,(.other,false))],none,none,none,false,false,false,none,false,⟨.lcode,none,false,.lblank⟩⟩] .leaf) 542436126 [⟨⟨.code,[82,69],.lcode,false,[],false⟩,false,false,[some (69,(.other,false))],none,none,none,false,false,false,none,false,⟨.lcode,none,false,.lblank⟩⟩] (.node .leaf 543615870 [⟨⟨.code,[82,101],.lcode,false,[],false⟩,false,false,[some (69,(.other,false))],none,none,none,false,false,false,none,false,⟨.lcode,none,false,.lblank⟩⟩] .leaf)) 545983281 [⟨⟨.code,[64,82],.lcode,false,[],false⟩,false,false,[some (114,(.other,false))],none,none,none,false,false,false,none,false,⟨.lcode,none,false,.lblank⟩⟩] (.node (.node .leaf 547163025 [⟨⟨.code,[64,114],.lcode,false,[],false⟩,false,false,[some (114,(.other,false))],none,none,none,false,false,false,none,false,⟨.lcode,none,false,.lblank⟩⟩] .leaf) 553813436 [⟨⟨.code,[58],.lblank,false,[],false⟩,false,false,[some (256,(.other,false))],none,none,none,false,false,false,none,false,⟨.lcode,none,false,.lblank⟩⟩] .leaf)))) 554034638 [⟨⟨.code,[64],.lblank,false,[],false⟩,false,false,[some (256,(.other,false))],none,none,none,false,false,false,none,false,⟨.lcode,none,false,.lblank⟩⟩] (.node (.node (.node (.node (.node .leaf 554698244 [⟨⟨.code,[82],.lblank,false,[],false⟩,false,false,[some (256,(.other,false))],none,none,none,false,false,false,none,false,⟨.lcode,none,false,.lblank⟩⟩] .leaf) 555877988 [⟨⟨.code,[114],.lblank,false,[],false⟩,false,false,[some (256,(.other,false))],none,none,none,false,false,false,none,false,⟨.lcode,none,false,.lblank⟩⟩] (.node .leaf 557982173 [⟨⟨.code,[114,69],.lcode,false,[],false⟩,false,false,[none],none,none,none,false,false,false,none,false,⟨.lcode,none,false,.lblank⟩⟩] .leaf)) 559161917 [⟨⟨.code,[114,101],.lcode,false,[],false⟩,false,false,[none],none,none,none,false,false,false,none,false,⟨.lcode,none,false,.lblank⟩⟩] (.node (.node .leaf 568436204 [⟨⟨.code,[82,69],.lcode,false,[],false⟩,false,false,[some (82,(.other,false))],none,none,none,false,false,false,none,false,⟨.lcode,none,false,.lblank⟩⟩] .leaf) 569615948 [⟨⟨.code,[82,101],.lcode,false,[],false⟩,false,false,[some (82,(.other,false))],none,none,none,false,false,false,none,false,⟨.lcode,none,false,.lblank⟩⟩] (.node .leaf 576982230 [⟨⟨.code,[114,69],.lcode,false,[],false⟩,false,false,[some (9,(.ws,false))],none,none,none,false,false,false,none,false,⟨.lcode,none,false,.lblank⟩⟩] .leaf))) 578161974 [⟨⟨.code,[114,101],.lcode,false,[],false⟩,false,false,[some (9,(.ws,false))],none,none,none,false,false,false,none,false,⟨.lcode,none,false,.lblank⟩⟩] (.node (.node (.node .leaf 578982236 [⟨⟨.code,[114,69],.lcode,false,[],false⟩,false,false,[some (10,(.lf,false))],none,none,none,false,false,false,none,false,⟨.lcode,none,false,.lblank⟩⟩] .leaf) 580161980 [⟨⟨.code,[114,101],.lcode,false,[],false⟩,false,false,[some (10,(.lf,false))],none,none,none,false,false,false,none,false,⟨.lcode,none,false,.lblank⟩⟩] (.node .leaf 582982248 [⟨⟨.code,[114,69],.lcode,false,[],false⟩,false,false,[some (12,(.ff,false))],none,none,none,false,false,false,none,false,⟨.lcode,none,false,.lblank⟩⟩] .leaf)) 584161992 [⟨⟨.code,[114,101],.lcode,false,[],false⟩,false,false,[some (12,(.ff,false))],none,none,none,false,false,false,none,false,⟨.lcode,none,false,.lblank⟩⟩] (.node (.node .leaf 584982254 [⟨⟨.code,[114,69],.lcode,false,[],false⟩,false,false,[some (13,(.cr,false))],none,none,none,false,false,false,none,false,⟨.lcode,none,false,.lblank⟩⟩] .leaf) 585982257 [⟨⟨.code,[114,69],.lcode,false,[],false⟩,false,false,[some (13,(.cr,true))],none,none,none,false,false,false,none,false,⟨.lcode,none,false,.lblank⟩⟩] .leaf))) 586161998 [⟨⟨.code,[114,101],.lcode,false,[],false⟩,false,false,[some (13,(.cr,false))],none,none,none,false,false,false,none,false,⟨.lcode,none,false,.lblank⟩⟩] (.node (.node (.node (.node .leaf 587162001 [⟨⟨.code,[114,101],.lcode,false,[],false⟩,false,false,[some (13,(.cr,true))],none,none,none,false,false,false,none,false,⟨.lcode,none,false,.lblank⟩⟩] .leaf) 588436264 [⟨⟨.code,[82,69],.lcode,false,[],false⟩,false,false,[some (92,(.other,false))],none,none,none,false,false,false,none,false,⟨.lcode,none,false,.lblank⟩⟩] (.node .leaf 589616008 [⟨⟨.code,[82,101],.lcode,false,[],false⟩,false,false,[some (92,(.other,false))],none,none,none,false,false,false,none,false,⟨.lcode,none,false,.lblank⟩⟩] .leaf)) 606436318 [⟨⟨.code,[82,69],.lcode,false,[],false⟩,false,false,[some (101,(.other,false))],none,none,none,false,false,false,none,false,⟨.lcode,none,false,.lblank⟩⟩] (.node (.node .leaf 607616062 [⟨⟨.code,[82,101],.lcode,false,[],false⟩,false,false,[some (101,(.other,false))],none,none,none,false,false,false,none,false,⟨.lcode,none,false,.lblank⟩⟩] .leaf) 632436396 [⟨⟨.code,[82,69],.lcode,false,[],false⟩,false,false,[some (114,(.other,false))],none,none,none,false,false,false,none,false,⟨.lcode,none,false,.lblank⟩⟩] (.node .leaf 633616140 [⟨⟨.code,[82,101],.lcode,false,[],false⟩,false,false,[some (114,(.other,false))],none,none,none,false,false,false,none,false,⟨.lcode,none,false,.lblank⟩⟩] .leaf))) 674982524 [⟨⟨.code,[114,69],.lcode,false,[],false⟩,false,false,[some (58,(.other,false))],none,none,none,false,false,false,none,false,⟨.lcode,none,false,.lblank⟩⟩] (.node (.node (.node .leaf 676162268 [⟨⟨.code,[114,101],.lcode,false,[],false⟩,false,false,[some (58,(.other,false))],none,none,none,false,false,false,none,false,⟨.lcode,none,false,.lblank⟩⟩] .leaf) 686982560 [⟨⟨.code,[114,69],.lcode,false,[],false⟩,false,false,[some (64,(.other,false))],none,none,none,false,false,false,none,false,⟨.lcode,none,false,.lblank⟩⟩] (.node .leaf 688162304 [⟨⟨.code,[114,101],.lcode,false,[],false⟩,false,false,[some (64,(.other,false))],none,none,none,false,false,false,none,false,⟨.lcode,none,false,.lblank⟩⟩] .leaf)) 696982590 [⟨⟨.code,[114,69],.lcode,false,[],false⟩,false,false,[some (69,(.other,false))],none,none,none,false,false,false,none,false,⟨.lcode,none,false,.lblank⟩⟩] (.node (.node .leaf 698162334 [⟨⟨.code,[114,101],.lcode,false,[],false⟩,false,false,[some (69,(.other,false))],none,none,none,false,false,false,none,false,⟨.lcode,none,false,.lblank⟩⟩] .leaf) 722982668 [⟨⟨.code,[114,69],.lcode,false,[],false⟩,false,false,[some (82,(.other,false))],none,none,none,false,false,false,none,false,⟨.lcode,none,false,.lblank⟩⟩] .leaf)))))) 724162412 [⟨⟨.code,[114,101],.lcode,false,[],false⟩,false,false,[some (82,(.other,false))],none,none,none,false,false,false,none,false,⟨.lcode,none,false,.lblank⟩⟩] (.node (.node (.node (.node (.node (.node (.node .leaf 742982728 [⟨⟨.code,[114,69],.lcode,false,[],false⟩,false,false,[some (92,(.other,false))],none,none,none,false,false,false,none,false,⟨.lcode,none,false,.lblank⟩⟩] .leaf) 744162472 [⟨⟨.code,[114,101],.lcode,false,[],false⟩,false,false,[some (92,(.other,false))],none,none,none,false,false,false,none,false,⟨.lcode,none,false,.lblank⟩⟩] (.node .leaf 760982782 [⟨⟨.code,[114,69],.lcode,false,[],false⟩,false,false,[some (101,(.other,false))],none,none,none,false,false,false,none,false,⟨.lcode,none,false,.lblank⟩⟩] .leaf)) 762162526 [⟨⟨.code,[114,101],.lcode,false,[],false⟩,false,false,[some (101,(.other,false))],none,none,none,false,false,false,none,false,⟨.lcode,none,false,.lblank⟩⟩] (.node (.node .leaf 786982860 [⟨⟨.code,[114,69],.lcode,false,[],false⟩,false,false,[some (114,(.other,false))],none,none,none,false,false,false,none,false,⟨.lcode,none,false,.lblank⟩⟩] .leaf) 788162604 [⟨⟨.code,[114,101],.lcode,false,[],false⟩,false,false,[some (114,(.other,false))],none,none,none,false,false,false,none,false,⟨.lcode,none,false,.lblank⟩⟩] (.node .leaf 829984133 [⟨⟨.code,[64,82],.lcode,false,[],false⟩,false,false,[some (256,(.other,false))],none,none,none,false,false,false,none,false,⟨.lcode,none,false,.lblank⟩⟩] .leaf))) 831163877 [⟨⟨.code,[64,114],.lcode,false,[],false⟩,false,false,[some (256,(.other,false))],none,none,none,false,false,false,none,false,⟨.lcode,none,false,.lblank⟩⟩] (.node (.node (.node .leaf 916437248 [⟨⟨.code,[82,69],.lcode,false,[],false⟩,false,false,[some (256,(.other,false))],none,none,none,false,false,false,none,false,⟨.lcode,none,false,.lblank⟩⟩] .leaf) 917616992 [⟨⟨.code,[82,101],.lcode,false,[],false⟩,false,false,[some (256,(.other,false))],none,none,none,false,false,false,none,false,⟨.lcode,none,false,.lblank⟩⟩] (.node .leaf 976063008 [⟨⟨.code,[82],.lcode,false,[],false⟩,false,false,[some (69,(.other,false)),none],none,none,none,false,false,false,none,false,⟨.lcode,none,false,.lblank⟩⟩] .leaf)) 977242752 [⟨⟨.code,[114],.lcode,false,[],false⟩,false,false,[some (69,(.other,false)),none],none,none,none,false,false,false,none,false,⟨.lcode,none,false,.lblank⟩⟩] (.node (.node .leaf 1014699624 [⟨⟨.code,[82],.lblank,false,[],false⟩,false,false,[some (69,(.other,false)),none],none,none,none,false,false,false,none,false,⟨.lcode,none,false,.lblank⟩⟩] .leaf) 1015879368 [⟨⟨.code,[114],.lblank,false,[],false⟩,false,false,[some (69,(.other,false)),none],none,none,none,false,false,false,none,false,⟨.lcode,none,false,.lblank⟩⟩] .leaf))) 1070983712 [⟨⟨.code,[114,69],.lcode,false,[],false⟩,false,false,[some (256,(.other,false))],none,none,none,false,false,false,none,false,⟨.lcode,none,false,.lblank⟩⟩] (.node (.node (.node (.node .leaf 1072163456 [⟨⟨.code,[114,101],.lcode,false,[],false⟩,false,false,[some (256,(.other,false))],none,none,none,false,false,false,none,false,⟨.lcode,none,false,.lblank⟩⟩] .leaf) 1157399948 [⟨⟨.code,[64],.lcode,false,[],false⟩,false,false,[some (82,(.other,false)),none],none,none,none,false,false,false,none,false,⟨.lcode,none,false,.lblank⟩⟩] (.node .leaf 1196036564 [⟨⟨.code,[64],.lblank,false,[],false⟩,false,false,[some (82,(.other,false)),none],none,none,none,false,false,false,none,false,⟨.lcode,none,false,.lblank⟩⟩] .leaf)) 1289985513 [⟨⟨.code,[64,82],.lcode,false,[],false⟩,false,false,[some (69,(.other,false)),none],none,none,none,false,false,false,none,false,⟨.lcode,none,false,.lblank⟩⟩] (.node (.node .leaf 1291165257 [⟨⟨.code,[64,114],.lcode,false,[],false⟩,false,false,[some (69,(.other,false)),none],none,none,none,false,false,false,none,false,⟨.lcode,none,false,.lblank⟩⟩] .leaf) 1424064352 [⟨⟨.code,[82],.lcode,false,[],false⟩,false,false,[some (101,(.other,false)),none],none,none,none,false,false,false,none,false,⟨.lcode,none,false,.lblank⟩⟩] (.node .leaf 1425244096 [⟨⟨.code,[114],.lcode,false,[],false⟩,false,false,[some (101,(.other,false)),none],none,none,none,false,false,false,none,false,⟨.lcode,none,false,.lblank⟩⟩] .leaf))) 1462700968 [⟨⟨.code,[82],.lblank,false,[],false⟩,false,false,[some (101,(.other,false)),none],none,none,none,false,false,false,none,false,⟨.lcode,none,false,.lblank⟩⟩] (.node (.node (.node .leaf 1463880712 [⟨⟨.code,[114],.lblank,false,[],false⟩,false,false,[some (101,(.other,false)),none],none,none,none,false,false,false,none,false,⟨.lcode,none,false,.lblank⟩⟩] .leaf) 1605401292 [⟨⟨.code,[64],.lcode,false,[],false⟩,false,false,[some (114,(.other,false)),none],none,none,none,false,false,false,none,false,⟨.lcode,none,false,.lblank⟩⟩] (.node .leaf 1644037908 [⟨⟨.code,[64],.lblank,false,[],false⟩,false,false,[some (114,(.other,false)),none],none,none,none,false,false,false,none,false,⟨.lcode,none,false,.lblank⟩⟩] .leaf)) 1737986857 [⟨⟨.code,[64,82],.lcode,false,[],false⟩,false,false,[some (101,(.other,false)),none],none,none,none,false,false,false,none,false,⟨.lcode,none,false,.lblank⟩⟩] (.node (.node .leaf 1739166601 [⟨⟨.code,[64,114],.lcode,false,[],false⟩,false,false,[some (101,(.other,false)),none],none,none,none,false,false,false,none,false,⟨.lcode,none,false,.lblank⟩⟩] .leaf) 5378379290 [⟨⟨.code,[64,82],.lblank,false,[],false⟩,false,false,[none],none,none,none,false,false,false,none,false,⟨.lcode,none,false,.lblank⟩⟩] .leaf)))) 5379559034 [⟨⟨.code,[64,114],.lblank,false,[],false⟩,false,false,[none],none,none,none,false,false,false,none,false,⟨.lcode,none,false,.lblank⟩⟩] (.node (.node (.node (.node (.node .leaf 5397379347 [⟨⟨.code,[64,82],.lblank,false,[],false⟩,false,false,[some (9,(.ws,false))],none,none,none,false,false,false,none,false,⟨.lcode,none,false,.lblank⟩⟩] .leaf) 5398559091 [⟨⟨.code,[64,114],.lblank,false,[],false⟩,false,false,[some (9,(.ws,false))],none,none,none,false,false,false,none,false,⟨.lcode,none,false,.lblank⟩⟩] (.node .leaf 5399379353 [⟨⟨.code,[64,82],.lblank,false,[],false⟩,false,false,[some (10,(.lf,false))],none,none,none,false,false,false,none,false,⟨.lcode,none,false,.lblank⟩⟩] .leaf)) 5400559097 [⟨⟨.code,[64,114],.lblank,false,[],false⟩,false,false,[some (10,(.lf,false))],none,none,none,false,false,false,none,false,⟨.lcode,none,false,.lblank⟩⟩] (.node (.node .leaf 5403379365 [⟨⟨.code,[64,82],.lblank,false,[],false⟩,false,false,[some (12,(.ff,false))],none,none,none,false,false,false,none,false,⟨.lcode,none,false,.lblank⟩⟩] .leaf) 5404559109 [⟨⟨.code,[64,114],.lblank,false,[],false⟩,false,false,[some (12,(.ff,false))],none,none,none,false,false,false,none,false,⟨.lcode,none,false,.lblank⟩⟩] (.node .leaf 5405379371 [⟨⟨.code,[64,82],.lblank,false,[],false⟩,false,false,[some (13,(.cr,false))],none,none,none,false,false,false,none,false,⟨.lcode,none,false,.lblank⟩⟩] .leaf))) 5406379374 [⟨⟨.code,[64,82],.lblank,false,[],false⟩,false,false,[some (13,(.cr,true))],none,none,none,false,false,false,none,false,⟨.lcode,none,false,.lblank⟩⟩] (.node (.node (.node .leaf 5406559115 [⟨⟨.code,[64,114],.lblank,false,[],false⟩,false,false,[some (13,(.cr,false))],none,none,none,false,false,false,none,false,⟨.lcode,none,false,.lblank⟩⟩] .leaf) 5407559118 [⟨⟨.code,[64,114],.lblank,false,[],false⟩,false,false,[some (13,(.cr,true))],none,none,none,false,false,false,none,false,⟨.lcode,none,false,.lblank⟩⟩] (.node .leaf 5464832405 [⟨⟨.code,[82,69],.lblank,false,[],false⟩,false,false,[none],none,none,none,false,false,false,none,false,⟨.lcode,none,false,.lblank⟩⟩] .leaf)) 5466012149 [⟨⟨.code,[82,101],.lblank,false,[],false⟩,false,false,[none],none,none,none,false,false,false,none,false,⟨.lcode,none,false,.lblank⟩⟩] (.node (.node .leaf 5483832462 [⟨⟨.code,[82,69],.lblank,false,[],false⟩,false,false,[some (9,(.ws,false))],none,none,none,false,false,false,none,false,⟨.lcode,none,false,.lblank⟩⟩] .leaf) 5485012206 [⟨⟨.code,[82,101],.lblank,false,[],false⟩,false,false,[some (9,(.ws,false))],none,none,none,false,false,false,none,false,⟨.lcode,none,false,.lblank⟩⟩] .leaf))) 5485832468 [⟨⟨.code,[82,69],.lblank,false,[],false⟩,false,false,[some (10,(.lf,false))],none,none,none,false,false,false,none,false,⟨.lcode,none,false,.lblank⟩⟩] (.node (.node (.node (.node .leaf 5487012212 [⟨⟨.code,[82,101],.lblank,false,[],false⟩,false,false,[some (10,(.lf,false))],none,none,none,false,false,false,none,false,⟨.lcode,none,false,.lblank⟩⟩] .leaf) 5489832480 [⟨⟨.code,[82,69],.lblank,false,[],false⟩,false,false,[some (12,(.ff,false))],none,none,none,false,false,false,none,false,⟨.lcode,none,false,.lblank⟩⟩] (.node .leaf 5491012224 [⟨⟨.code,[82,101],.lblank,false,[],false⟩,false,false,[some (12,(.ff,false))],none,none,none,false,false,false,none,false,⟨.lcode,none,false,.lblank⟩⟩] .leaf)) 5491832486 [⟨⟨.code,[82,69],.lblank,false,[],false⟩,false,false,[some (13,(.cr,false))],none,none,none,false,false,false,none,false,⟨.lcode,none,false,.lblank⟩⟩] (.node (.node .leaf 5492832489 [⟨⟨.code,[82,69],.lblank,false,[],false⟩,false,false,[some (13,(.cr,true))],none,none,none,false,false,false,none,false,⟨.lcode,none,false,.lblank⟩⟩] .leaf) 5493012230 [⟨⟨.code,[82,101],.lblank,false,[],false⟩,false,false,[some (13,(.cr,false))],none,none,none,false,false,false,none,false,⟨.lcode,none,false,.lblank⟩⟩] (.node .leaf 5494012233 [⟨⟨.code,[82,101],.lblank,false,[],false⟩,false,false,[some (13,(.cr,true))],none,none,none,false,false,false,none,false,⟨.lcode,none,false,.lblank⟩⟩] .leaf))) 5495379641 [⟨⟨.code,[64,82],.lblank,false,[],false⟩,false,false,[some (58,(.other,false))],none,none,none,false,false,false,none,false,⟨.lcode,none,false,.lblank⟩⟩] (.node (.node (.node .leaf 5496559385 [⟨⟨.code,[64,114],.lblank,false,[],false⟩,false,false,[some (58,(.other,false))],none,none,none,false,false,false,none,false,⟨.lcode,none,false,.lblank⟩⟩] .leaf) 5507379677 [⟨⟨.code,[64,82],.lblank,false,[],false⟩,false,false,[some (64,(.other,false))],none,none,none,false,false,false,none,false,⟨.lcode,none,false,.lblank⟩⟩] (.node .leaf 5508559421 [⟨⟨.code,[64,114],.lblank,false,[],false⟩,false,false,[some (64,(.other,false))],none,none,none,false,false,false,none,false,⟨.lcode,none,false,.lblank⟩⟩] .leaf)) 5533379755 [⟨⟨.code,[64,82],.lblank,false,[],false⟩,false,false,[some (77,(.other,false))],none,none,none,false,false,false,none,false,⟨.lcode,none,false,.lblank⟩⟩] (.node (.node .leaf 5534559499 [⟨⟨.code,[64,114],.lblank,false,[],false⟩,false,false,[some (77,(.other,false))],none,none,none,false,false,false,none,false,⟨.lcode,none,false,.lblank⟩⟩] .leaf) 5543379785 [⟨⟨.code,[64,82],.lblank,false,[],false⟩,false,false,[some (82,(.other,false))],none,none,none,false,false,false,none,false,⟨.lcode,none,false,.lblank⟩⟩] .leaf))))) 5544559529 [⟨⟨.code,[64,114],.lblank,false,[],false⟩,false,false,[some (82,(.other,false))],none,none,none,false,false,false,none,false,⟨.lcode,none,false,.lblank⟩⟩] (.node (.node (.node (.node (.node (.node .leaf 5563379845 [⟨⟨.code,[64,82],.lblank,false,[],false⟩,false,false,[some (92,(.other,false))],none,none,none,false,false,false,none,false,⟨.lcode,none,false,.lblank⟩⟩] .leaf) 5564559589 [⟨⟨.code,[64,114],.lblank,false,[],false⟩,false,false,[some (92,(.other,false))],none,none,none,false,false,false,none,false,⟨.lcode,none,false,.lblank⟩⟩] (.node .leaf 5581832756 [⟨⟨.code,[82,69],.lblank,false,[],false⟩,false,false,[some (58,(.other,false))],none,none,none,false,false,false,none,false,⟨.lcode,none,false,.lblank⟩⟩] .leaf)) 5583012500 [⟨⟨.code,[82,101],.lblank,false,[],false⟩,false,false,[some (58,(.other,false))],none,none,none,false,false,false,none,false,⟨.lcode,none,false,.lblank⟩⟩] (.node (.node .leaf 5593832792 [⟨⟨.code,[82,69],.lblank,false,[],false⟩,false,false,[some (64,(.other,false))],none,none,none,false,false,false,none,false,⟨.lcode,none,false,.lblank⟩⟩] .leaf) 5595012536 [⟨⟨.code,[82,101],.lblank,false,[],false⟩,false,false,[some (64,(.other,false))],none,none,none,false,false,false,none,false,⟨.lcode,none,false,.lblank⟩⟩] (.node .leaf 5597379947 [⟨⟨.code,[64,82],.lblank,false,[],false⟩,false,false,[some (109,(.other,false))],none,none,none,false,false,false,none,false,⟨.lcode,none,false,.lblank⟩⟩] .leaf))) 5598559691 [⟨⟨.code,[64,114],.lblank,false,[],false⟩,false,false,[some (109,(.other,false))],none,none,none,false,false,false,none,false,⟨.lcode,none,false,.lblank⟩⟩] (.node (.node (.node .leaf 5603832822 [⟨⟨.code,[82,69],.lblank,false,[],false⟩,false,false,[some (69,(.other,false))],none,none,none,false,false,false,none,false,⟨.lcode,none,false,.lblank⟩⟩] .leaf) 5605012566 [⟨⟨.code,[82,101],.lblank,false,[],false⟩,false,false,[some (69,(.other,false))],none,none,none,false,false,false,none,false,⟨.lcode,none,false,.lblank⟩⟩] (.node .leaf 5607379977 [⟨⟨.code,[64,82],.lblank,false,[],false⟩,false,false,[some (114,(.other,false))],none,none,none,false,false,false,none,false,⟨.lcode,none,false,.lblank⟩⟩] .leaf)) 5608559721 [⟨⟨.code,[64,114],.lblank,false,[],false⟩,false,false,[some (114,(.other,false))],none,none,none,false,false,false,none,false,⟨.lcode,none,false,.lblank⟩⟩] (.node (.node .leaf 5619378869 [⟨⟨.code,[114,69],.lblank,false,[],false⟩,false,false,[none],none,none,none,false,false,false,none,false,⟨.lcode,none,false,.lblank⟩⟩] .leaf) 5620558613 [⟨⟨.code,[114,101],.lblank,false,[],false⟩,false,false,[none],none,none,none,false,false,false,none,false,⟨.lcode,none,false,.lblank⟩⟩] .leaf))) 5629832900 [⟨⟨.code,[82,69],.lblank,false,[],false⟩,false,false,[some (82,(.other,false))],none,none,none,false,false,false,none,false,⟨.lcode,none,false,.lblank⟩⟩] (.node (.node (.node (.node .leaf 5631012644 [⟨⟨.code,[82,101],.lblank,false,[],false⟩,false,false,[some (82,(.other,false))],none,none,none,false,false,false,none,false,⟨.lcode,none,false,.lblank⟩⟩] .leaf) 5638378926 [⟨⟨.code,[114,69],.lblank,false,[],false⟩,false,false,[some (9,(.ws,false))],none,none,none,false,false,false,none,false,⟨.lcode,none,false,.lblank⟩⟩] (.node .leaf 5639558670 [⟨⟨.code,[114,101],.lblank,false,[],false⟩,false,false,[some (9,(.ws,false))],none,none,none,false,false,false,none,false,⟨.lcode,none,false,.lblank⟩⟩] .leaf)) 5640378932 [⟨⟨.code,[114,69],.lblank,false,[],false⟩,false,false,[some (10,(.lf,false))],none,none,none,false,false,false,none,false,⟨.lcode,none,false,.lblank⟩⟩] (.node (.node .leaf 5641558676 [⟨⟨.code,[114,101],.lblank,false,[],false⟩,false,false,[some (10,(.lf,false))],none,none,none,false,false,false,none,false,⟨.lcode,none,false,.lblank⟩⟩] .leaf) 5644378944 [⟨⟨.code,[114,69],.lblank,false,[],false⟩,false,false,[some (12,(.ff,false))],none,none,none,false,false,false,none,false,⟨.lcode,none,false,.lblank⟩⟩] (.node .leaf 5645558688 [⟨⟨.code,[114,101],.lblank,false,[],false⟩,false,false,[some (12,(.ff,false))],none,none,none,false,false,false,none,false,⟨.lcode,none,false,.lblank⟩⟩] .leaf))) 5646378950 [⟨⟨.code,[114,69],.lblank,false,[],false⟩,false,false,[some (13,(.cr,false))],none,none,none,false,false,false,none,false,⟨.lcode,none,false,.lblank⟩⟩] (.node (.node (.node .leaf 5647378953 [⟨⟨.code,[114,69],.lblank,false,[],false⟩,false,false,[some (13,(.cr,true))],none,none,none,false,false,false,none,false,⟨.lcode,none,false,.lblank⟩⟩] .leaf) 5647558694 [⟨⟨.code,[114,101],.lblank,false,[],false⟩,false,false,[some (13,(.cr,false))],none,none,none,false,false,false,none,false,⟨.lcode,none,false,.lblank⟩⟩] (.node .leaf 5648558697 [⟨⟨.code,[114,101],.lblank,false,[],false⟩,false,false,[some (13,(.cr,true))],none,none,none,false,false,false,none,false,⟨.lcode,none,false,.lblank⟩⟩] .leaf)) 5649832960 [⟨⟨.code,[82,69],.lblank,false,[],false⟩,false,false,[some (92,(.other,false))],none,none,none,false,false,false,none,false,⟨.lcode,none,false,.lblank⟩⟩] (.node (.node .leaf 5651012704 [⟨⟨.code,[82,101],.lblank,false,[],false⟩,false,false,[some (92,(.other,false))],none,none,none,false,false,false,none,false,⟨.lcode,none,false,.lblank⟩⟩] .leaf) 5667833014 [⟨⟨.code,[82,69],.lblank,false,[],false⟩,false,false,[some (101,(.other,false))],none,none,none,false,false,false,none,false,⟨.lcode,none,false,.lblank⟩⟩] .leaf)))) 5669012758 [⟨⟨.code,[82,101],.lblank,false,[],false⟩,false,false,[some (101,(.other,false))],none,none,none,false,false,false,none,false,⟨.lcode,none,false,.lblank⟩⟩] (.node (.node (.node (.node (.node .leaf 5693833092 [⟨⟨.code,[82,69],.lblank,false,[],false⟩,false,false,[some (114,(.other,false))],none,none,none,false,false,false,none,false,⟨.lcode,none,false,.lblank⟩⟩] .leaf) 5695012836 [⟨⟨.code,[82,101],.lblank,false,[],false⟩,false,false,[some (114,(.other,false))],none,none,none,false,false,false,none,false,⟨.lcode,none,false,.lblank⟩⟩] (.node .leaf 5736379220 [⟨⟨.code,[114,69],.lblank,false,[],false⟩,false,false,[some (58,(.other,false))],none,none,none,false,false,false,none,false,⟨.lcode,none,false,.lblank⟩⟩] .leaf)) 5737558964 [⟨⟨.code,[114,101],.lblank,false,[],false⟩,false,false,[some (58,(.other,false))],none,none,none,false,false,false,none,false,⟨.lcode,none,false,.lblank⟩⟩] (.node (.node .leaf 5748379256 [⟨⟨.code,[114,69],.lblank,false,[],false⟩,false,false,[some (64,(.other,false))],none,none,none,false,false,false,none,false,⟨.lcode,none,false,.lblank⟩⟩] .leaf) 5749559000 [⟨⟨.code,[114,101],.lblank,false,[],false⟩,false,false,[some (64,(.other,false))],none,none,none,false,false,false,none,false,⟨.lcode,none,false,.lblank⟩⟩] (.node .leaf 5758379286 [⟨⟨.code,[114,69],.lblank,false,[],false⟩,false,false,[some (69,(.other,false))],none,none,none,false,false,false,none,false,⟨.lcode,none,false,.lblank⟩⟩] .leaf))) 5759559030 [⟨⟨.code,[114,101],.lblank,false,[],false⟩,false,false,[some (69,(.other,false))],none,none,none,false,false,false,none,false,⟨.lcode,none,false,.lblank⟩⟩] (.node (.node (.node .leaf 5784379364 [⟨⟨.code,[114,69],.lblank,false,[],false⟩,false,false,[some (82,(.other,false))],none,none,none,false,false,false,none,false,⟨.lcode,none,false,.lblank⟩⟩] .leaf) 5785559108 [⟨⟨.code,[114,101],.lblank,false,[],false⟩,false,false,[some (82,(.other,false))],none,none,none,false,false,false,none,false,⟨.lcode,none,false,.lblank⟩⟩] (.node .leaf 5804379424 [⟨⟨.code,[114,69],.lblank,false,[],false⟩,false,false,[some (92,(.other,false))],none,none,none,false,false,false,none,false,⟨.lcode,none,false,.lblank⟩⟩] .leaf)) 5805559168 [⟨⟨.code,[114,101],.lblank,false,[],false⟩,false,false,[some (92,(.other,false))],none,none,none,false,false,false,none,false,⟨.lcode,none,false,.lblank⟩⟩] (.node (.node .leaf 5822379478 [⟨⟨.code,[114,69],.lblank,false,[],false⟩,false,false,[some (101,(.other,false))],none,none,none,false,false,false,none,false,⟨.lcode,none,false,.lblank⟩⟩] .leaf) 5823559222 [⟨⟨.code,[114,101],.lblank,false,[],false⟩,false,false,[some (101,(.other,false))],none,none,none,false,false,false,none,false,⟨.lcode,none,false,.lblank⟩⟩] .leaf))) 5848379556 [⟨⟨.code,[114,69],.lblank,false,[],false⟩,false,false,[some (114,(.other,false))],none,none,none,false,false,false,none,false,⟨.lcode,none,false,.lblank⟩⟩] (.node (.node (.node (.node .leaf 5849559300 [⟨⟨.code,[114,101],.lblank,false,[],false⟩,false,false,[some (114,(.other,false))],none,none,none,false,false,false,none,false,⟨.lcode,none,false,.lblank⟩⟩] .leaf) 5891380829 [⟨⟨.code,[64,82],.lblank,false,[],false⟩,false,false,[some (256,(.other,false))],none,none,none,false,false,false,none,false,⟨.lcode,none,false,.lblank⟩⟩] (.node .leaf 5892560573 [⟨⟨.code,[64,114],.lblank,false,[],false⟩,false,false,[some (256,(.other,false))],none,none,none,false,false,false,none,false,⟨.lcode,none,false,.lblank⟩⟩] .leaf)) 5977833944 [⟨⟨.code,[82,69],.lblank,false,[],false⟩,false,false,[some (256,(.other,false))],none,none,none,false,false,false,none,false,⟨.lcode,none,false,.lblank⟩⟩] (.node (.node .leaf 5979013688 [⟨⟨.code,[82,101],.lblank,false,[],false⟩,false,false,[some (256,(.other,false))],none,none,none,false,false,false,none,false,⟨.lcode,none,false,.lblank⟩⟩] .leaf) 6132380408 [⟨⟨.code,[114,69],.lblank,false,[],false⟩,false,false,[some (256,(.other,false))],none,none,none,false,false,false,none,false,⟨.lcode,none,false,.lblank⟩⟩] (.node .leaf 6133560152 [⟨⟨.code,[114,101],.lblank,false,[],false⟩,false,false,[some (256,(.other,false))],none,none,none,false,false,false,none,false,⟨.lcode,none,false,.lblank⟩⟩] .leaf))) 6351382209 [⟨⟨.code,[64,82],.lblank,false,[],false⟩,false,false,[some (69,(.other,false)),none],none,none,none,false,false,false,none,false,⟨.lcode,none,false,.lblank⟩⟩] (.node (.node (.node .leaf 6352561953 [⟨⟨.code,[64,114],.lblank,false,[],false⟩,false,false,[some (69,(.other,false)),none],none,none,none,false,false,false,none,false,⟨.lcode,none,false,.lblank⟩⟩] .leaf) 6799383553 [⟨⟨.code,[64,82],.lblank,false,[],false⟩,false,false,[some (101,(.other,false)),none],none,none,none,false,false,false,none,false,⟨.lcode,none,false,.lblank⟩⟩] (.node .leaf 6800563297 [⟨⟨.code,[64,114],.lblank,false,[],false⟩,false,false,[some (101,(.other,false)),none],none,none,none,false,false,false,none,false,⟨.lcode,none,false,.lblank⟩⟩] .leaf)) 41527283864 [⟨⟨.code,[64,82,69],.lcode,false,[],false⟩,false,false,[none],none,none,none,false,false,false,none,false,⟨.lcode,none,false,.lblank⟩⟩] (.node (.node .leaf 41528463608 [⟨⟨.code,[64,82,101],.lcode,false,[],false⟩,false,false,[none],none,none,none,false,false,false,none,false,⟨.lcode,none,false,.lblank⟩⟩] .leaf) 41546283921 [⟨⟨.code,[64,82,69],.lcode,false,[],false⟩,false,false,[some (9,(.ws,false))],none,none,none,false,false,false,none,false,⟨.lcode,none,false,.lblank⟩⟩] .leaf)))))))) 41547463665 [⟨⟨.code,[64,82,101],.lcode,false,[],false⟩,false,false,[some (9,(.ws,false))],none,none,none,false,false,false,none,false,⟨.lcode,none,false,.lblank⟩⟩] (.node (.node (.node (.node (.node (.node (.node (.node (.node .leaf 41548283927 [⟨⟨.code,[64,82,69],.lcode,false,[],false⟩,false,false,[some (10,(.lf,false))],none,none,none,false,false,false,none,false,⟨.lcode,none,false,.lblank⟩⟩] .leaf) 41549463671 [⟨⟨.code,[64,82,101],.lcode,false,[],false⟩,false,false,[some (10,(.lf,false))],none,none,none,false,false,false,none,false,⟨.lcode,none,false,.lblank⟩⟩] (.node .leaf 41552283939 [⟨⟨.code,[64,82,69],.lcode,false,[],false⟩,false,false,[some (12,(.ff,false))],none,none,none,false,false,false,none,false,⟨.lcode,none,false,.lblank⟩⟩] .leaf)) 41553463683 [⟨⟨.code,[64,82,101],.lcode,false,[],false⟩,false,false,[some (12,(.ff,false))],none,none,none,false,false,false,none,false,⟨.lcode,none,false,.lblank⟩⟩] (.node (.node .leaf 41554283945 [⟨⟨.code,[64,82,69],.lcode,false,[],false⟩,false,false,[some (13,(.cr,false))],none,none,none,false,false,false,none,false,⟨.lcode,none,false,.lblank⟩⟩] .leaf) 41555283948 [⟨⟨.code,[64,82,69],.lcode,false,[],false⟩,false,false,[some (13,(.cr,true))],none,none,none,false,false,false,none,false,⟨.lcode,none,false,.lblank⟩⟩] (.node .leaf 41555463689 [⟨⟨.code,[64,82,101],.lcode,false,[],false⟩,false,false,[some (13,(.cr,false))],none,none,none,false,false,false,none,false,⟨.lcode,none,false,.lblank⟩⟩] .leaf))) 41556463692 [⟨⟨.code,[64,82,101],.lcode,false,[],false⟩,false,false,[some (13,(.cr,true))],none,none,none,false,false,false,none,false,⟨.lcode,none,false,.lblank⟩⟩] (.node (.node (.node .leaf 41644284215 [⟨⟨.code,[64,82,69],.lcode,false,[],false⟩,false,false,[some (58,(.other,false))],none,none,none,false,false,false,none,false,⟨.lcode,none,false,.lblank⟩⟩] .leaf) 41645463959 [⟨⟨.code,[64,82,101],.lcode,false,[],false⟩,false,false,[some (58,(.other,false))],none,none,none,false,false,false,none,false,⟨.lcode,none,false,.lblank⟩⟩] (.node .leaf 41656284251 [⟨⟨.code,[64,82,69],.lcode,false,[],false⟩,false,false,[some (64,(.other,false))],none,none,none,false,false,false,none,false,⟨.lcode,none,false,.lblank⟩⟩] .leaf)) 41657463995 [⟨⟨.code,[64,82,101],.lcode,false,[],false⟩,false,false,[some (64,(.other,false))],none,none,none,false,false,false,none,false,⟨.lcode,none,false,.lblank⟩⟩] (.node (.node .leaf 41666284281 [⟨⟨.code,[64,82,69],.lcode,false,[],false⟩,false,false,[some (69,(.other,false))],none,none,none,false,false,false,none,false,⟨.lcode,none,false,.lblank⟩⟩] .leaf) 41667464025 [⟨⟨.code,[64,82,101],.lcode,false,[],false⟩,false,false,[some (69,(.other,false))],none,none,none,false,false,false,none,false,⟨.lcode,none,false,.lblank⟩⟩] (.node .leaf 41681830328 [⟨⟨.code,[64,114,69],.lcode,false,[],false⟩,false,false,[none],none,none,none,false,false,false,none,false,⟨.lcode,none,false,.lblank⟩⟩] .leaf)))) 41683010072 [⟨⟨.code,[64,114,101],.lcode,false,[],false⟩,false,false,[none],none,none,none,false,false,false,none,false,⟨.lcode,none,false,.lblank⟩⟩] (.node (.node (.node (.node .leaf 41692284359 [⟨⟨.code,[64,82,69],.lcode,false,[],false⟩,false,false,[some (82,(.other,false))],none,none,none,false,false,false,none,false,⟨.lcode,none,false,.lblank⟩⟩] .leaf) 41693464103 [⟨⟨.code,[64,82,101],.lcode,false,[],false⟩,false,false,[some (82,(.other,false))],none,none,none,false,false,false,none,false,⟨.lcode,none,false,.lblank⟩⟩] (.node .leaf 41700830385 [⟨⟨.code,[64,114,69],.lcode,false,[],false⟩,false,false,[some (9,(.ws,false))],none,none,none,false,false,false,none,false,⟨.lcode,none,false,.lblank⟩⟩] .leaf)) 41702010129 [⟨⟨.code,[64,114,101],.lcode,false,[],false⟩,false,false,[some (9,(.ws,false))],none,none,none,false,false,false,none,false,⟨.lcode,none,false,.lblank⟩⟩] (.node (.node .leaf 41702830391 [⟨⟨.code,[64,114,69],.lcode,false,[],false⟩,false,false,[some (10,(.lf,false))],none,none,none,false,false,false,none,false,⟨.lcode,none,false,.lblank⟩⟩] .leaf) 41704010135 [⟨⟨.code,[64,114,101],.lcode,false,[],false⟩,false,false,[some (10,(.lf,false))],none,none,none,false,false,false,none,false,⟨.lcode,none,false,.lblank⟩⟩] (.node .leaf 41706830403 [⟨⟨.code,[64,114,69],.lcode,false,[],false⟩,false,false,[some (12,(.ff,false))],none,none,none,false,false,false,none,false,⟨.lcode,none,false,.lblank⟩⟩] .leaf))) 41708010147 [⟨⟨.code,[64,114,101],.lcode,false,[],false⟩,false,false,[some (12,(.ff,false))],none,none,none,false,false,false,none,false,⟨.lcode,none,false,.lblank⟩⟩] (.node (.node (.node .leaf 41708830409 [⟨⟨.code,[64,114,69],.lcode,false,[],false⟩,false,false,[some (13,(.cr,false))],none,none,none,false,false,false,none,false,⟨.lcode,none,false,.lblank⟩⟩] .leaf) 41709830412 [⟨⟨.code,[64,114,69],.lcode,false,[],false⟩,false,false,[some (13,(.cr,true))],none,none,none,false,false,false,none,false,⟨.lcode,none,false,.lblank⟩⟩] (.node .leaf 41710010153 [⟨⟨.code,[64,114,101],.lcode,false,[],false⟩,false,false,[some (13,(.cr,false))],none,none,none,false,false,false,none,false,⟨.lcode,none,false,.lblank⟩⟩] .leaf)) 41711010156 [⟨⟨.code,[64,114,101],.lcode,false,[],false⟩,false,false,[some (13,(.cr,true))],none,none,none,false,false,false,none,false,⟨.lcode,none,false,.lblank⟩⟩] (.node (.node .leaf 41712284419 [⟨⟨.code,[64,82,69],.lcode,false,[],false⟩,false,false,[some (92,(.other,false))],none,none,none,false,false,false,none,false,⟨.lcode,none,false,.lblank⟩⟩] .leaf) 41713464163 [⟨⟨.code,[64,82,101],.lcode,false,[],false⟩,false,false,[some (92,(.other,false))],none,none,none,false,false,false,none,false,⟨.lcode,none,false,.lblank⟩⟩] .leaf)))) 41730284473 [⟨⟨.code,[64,82,69],.lcode,false,[],false⟩,false,false,[some (101,(.other,false))],none,none,none,false,false,false,none,false,⟨.lcode,none,false,.lblank⟩⟩] (.node (.node (.node (.node (.node .leaf 41731464217 [⟨⟨.code,[64,82,101],.lcode,false,[],false⟩,false,false,[some (101,(.other,false))],none,none,none,false,false,false,none,false,⟨.lcode,none,false,.lblank⟩⟩] .leaf) 41756284551 [⟨⟨.code,[64,82,69],.lcode,false,[],false⟩,false,false,[some (114,(.other,false))],none,none,none,false,false,false,none,false,⟨.lcode,none,false,.lblank⟩⟩] (.node .leaf 41757464295 [⟨⟨.code,[64,82,101],.lcode,false,[],false⟩,false,false,[some (114,(.other,false))],none,none,none,false,false,false,none,false,⟨.lcode,none,false,.lblank⟩⟩] .leaf)) 41798830679 [⟨⟨.code,[64,114,69],.lcode,false,[],false⟩,false,false,[some (58,(.other,false))],none,none,none,false,false,false,none,false,⟨.lcode,none,false,.lblank⟩⟩] (.node (.node .leaf 41800010423 [⟨⟨.code,[64,114,101],.lcode,false,[],false⟩,false,false,[some (58,(.other,false))],none,none,none,false,false,false,none,false,⟨.lcode,none,false,.lblank⟩⟩] .leaf) 41810830715 [⟨⟨.code,[64,114,69],.lcode,false,[],false⟩,false,false,[some (64,(.other,false))],none,none,none,false,false,false,none,false,⟨.lcode,none,false,.lblank⟩⟩] (.node .leaf 41812010459 [⟨⟨.code,[64,114,101],.lcode,false,[],false⟩,false,false,[some (64,(.other,false))],none,none,none,false,false,false,none,false,⟨.lcode,none,false,.lblank⟩⟩] .leaf))) 41820830745 [⟨⟨.code,[64,114,69],.lcode,false,[],false⟩,false,false,[some (69,(.other,false))],none,none,none,false,false,false,none,false,⟨.lcode,none,false,.lblank⟩⟩] (.node (.node (.node .leaf 41822010489 [⟨⟨.code,[64,114,101],.lcode,false,[],false⟩,false,false,[some (69,(.other,false))],none,none,none,false,false,false,none,false,⟨.lcode,none,false,.lblank⟩⟩] .leaf) 41846830823 [⟨⟨.code,[64,114,69],.lcode,false,[],false⟩,false,false,[some (82,(.other,false))],none,none,none,false,false,false,none,false,⟨.lcode,none,false,.lblank⟩⟩] (.node .leaf 41848010567 [⟨⟨.code,[64,114,101],.lcode,false,[],false⟩,false,false,[some (82,(.other,false))],none,none,none,false,false,false,none,false,⟨.lcode,none,false,.lblank⟩⟩] .leaf)) 41866830883 [⟨⟨.code,[64,114,69],.lcode,false,[],false⟩,false,false,[some (92,(.other,false))],none,none,none,false,false,false,none,false,⟨.lcode,none,false,.lblank⟩⟩] (.node (.node .leaf 41868010627 [⟨⟨.code,[64,114,101],.lcode,false,[],false⟩,false,false,[some (92,(.other,false))],none,none,none,false,false,false,none,false,⟨.lcode,none,false,.lblank⟩⟩] .leaf) 41884830937 [⟨⟨.code,[64,114,69],.lcode,false,[],false⟩,false,false,[some (101,(.other,false))],none,none,none,false,false,false,none,false,⟨.lcode,none,false,.lblank⟩⟩] .leaf))) 41886010681 [⟨⟨.code,[64,114,101],.lcode,false,[],false⟩,false,false,[some (101,(.other,false))],none,none,none,false,false,false,none,false,⟨.lcode,none,false,.lblank⟩⟩] (.node (.node (.node (.node .leaf 41910831015 [⟨⟨.code,[64,114,69],.lcode,false,[],false⟩,false,false,[some (114,(.other,false))],none,none,none,false,false,false,none,false,⟨.lcode,none,false,.lblank⟩⟩] .leaf) 41912010759 [⟨⟨.code,[64,114,101],.lcode,false,[],false⟩,false,false,[some (114,(.other,false))],none,none,none,false,false,false,none,false,⟨.lcode,none,false,.lblank⟩⟩] (.node .leaf 42040285403 [⟨⟨.code,[64,82,69],.lcode,false,[],false⟩,false,false,[some (256,(.other,false))],none,none,none,false,false,false,none,false,⟨.lcode,none,false,.lblank⟩⟩] .leaf)) 42041465147 [⟨⟨.code,[64,82,101],.lcode,false,[],false⟩,false,false,[some (256,(.other,false))],none,none,none,false,false,false,none,false,⟨.lcode,none,false,.lblank⟩⟩] (.node (.node .leaf 42194831867 [⟨⟨.code,[64,114,69],.lcode,false,[],false⟩,false,false,[some (256,(.other,false))],none,none,none,false,false,false,none,false,⟨.lcode,none,false,.lblank⟩⟩] .leaf) 42196011611 [⟨⟨.code,[64,114,101],.lcode,false,[],false⟩,false,false,[some (256,(.other,false))],none,none,none,false,false,false,none,false,⟨.lcode,none,false,.lblank⟩⟩] (.node .leaf 72441277403 [⟨⟨.code,[82],.lcode,false,[],false⟩,false,false,[some (69,(.other,false)),some (9,(.ws,false))],none,none,none,false,false,false,none,false,⟨.lcode,none,false,.lblank⟩⟩] .leaf))) 72442457147 [⟨⟨.code,[114],.lcode,false,[],false⟩,false,false,[some (69,(.other,false)),some (9,(.ws,false))],none,none,none,false,false,false,none,false,⟨.lcode,none,false,.lblank⟩⟩] (.node (.node (.node .leaf 72443277409 [⟨⟨.code,[82],.lcode,false,[],false⟩,false,false,[some (69,(.other,false)),some (10,(.lf,false))],none,none,none,false,false,false,none,false,⟨.lcode,none,false,.lblank⟩⟩] .leaf) 72444457153 [⟨⟨.code,[114],.lcode,false,[],false⟩,false,false,[some (69,(.other,false)),some (10,(.lf,false))],none,none,none,false,false,false,none,false,⟨.lcode,none,false,.lblank⟩⟩] (.node .leaf 72447277421 [⟨⟨.code,[82],.lcode,false,[],false⟩,false,false,[some (69,(.other,false)),some (12,(.ff,false))],none,none,none,false,false,false,none,false,⟨.lcode,none,false,.lblank⟩⟩] .leaf)) 72448457165 [⟨⟨.code,[114],.lcode,false,[],false⟩,false,false,[some (69,(.other,false)),some (12,(.ff,false))],none,none,none,false,false,false,none,false,⟨.lcode,none,false,.lblank⟩⟩] (.node (.node .leaf 72449277427 [⟨⟨.code,[82],.lcode,false,[],false⟩,false,false,[some (69,(.other,false)),some (13,(.cr,false))],none,none,none,false,false,false,none,false,⟨.lcode,none,false,.lblank⟩⟩] .leaf) 72450277430 [⟨⟨.code,[82],.lcode,false,[],false⟩,false,false,[some (69,(.other,false)),some (13,(.cr,true))],none,none,none,false,false,false,none,false,⟨.lcode,none,false,.lblank⟩⟩] .leaf))))) 72450457171 [⟨⟨.code,[114],.lcode,false,[],false⟩,false,false,[some (69,(.other,false)),some (13,(.cr,false))],none,none,none,false,false,false,none,false,⟨.lcode,none,false,.lblank⟩⟩] (.node (.node (.node (.node (.node (.node .leaf 72451457174 [⟨⟨.code,[114],.lcode,false,[],false⟩,false,false,[some (69,(.other,false)),some (13,(.cr,true))],none,none,none,false,false,false,none,false,⟨.lcode,none,false,.lblank⟩⟩] .leaf) 72479914019 [⟨⟨.code,[82],.lblank,false,[],false⟩,false,false,[some (69,(.other,false)),some (9,(.ws,false))],none,none,none,false,false,false,none,false,⟨.lcode,none,false,.lblank⟩⟩] (.node .leaf 72481093763 [⟨⟨.code,[114],.lblank,false,[],false⟩,false,false,[some (69,(.other,false)),some (9,(.ws,false))],none,none,none,false,false,false,none,false,⟨.lcode,none,false,.lblank⟩⟩] .leaf)) 72481914025 [⟨⟨.code,[82],.lblank,false,[],false⟩,false,false,[some (69,(.other,false)),some (10,(.lf,false))],none,none,none,false,false,false,none,false,⟨.lcode,none,false,.lblank⟩⟩] (.node (.node .leaf 72483093769 [⟨⟨.code,[114],.lblank,false,[],false⟩,false,false,[some (69,(.other,false)),some (10,(.lf,false))],none,none,none,false,false,false,none,false,⟨.lcode,none,false,.lblank⟩⟩] .leaf) 72485914037 [⟨⟨.code,[82],.lblank,false,[],false⟩,false,false,[some (69,(.other,false)),some (12,(.ff,false))],none,none,none,false,false,false,none,false,⟨.lcode,none,false,.lblank⟩⟩] (.node .leaf 72487093781 [⟨⟨.code,[114],.lblank,false,[],false⟩,false,false,[some (69,(.other,false)),some (12,(.ff,false))],none,none,none,false,false,false,none,false,⟨.lcode,none,false,.lblank⟩⟩] .leaf))) 72487914043 [⟨⟨.code,[82],.lblank,false,[],false⟩,false,false,[some (69,(.other,false)),some (13,(.cr,false))],none,none,none,false,false,false,none,false,⟨.lcode,none,false,.lblank⟩⟩] (.node (.node (.node .leaf 72488914046 [⟨⟨.code,[82],.lblank,false,[],false⟩,false,false,[some (69,(.other,false)),some (13,(.cr,true))],none,none,none,false,false,false,none,false,⟨.lcode,none,false,.lblank⟩⟩] .leaf) 72489093787 [⟨⟨.code,[114],.lblank,false,[],false⟩,false,false,[some (69,(.other,false)),some (13,(.cr,false))],none,none,none,false,false,false,none,false,⟨.lcode,none,false,.lblank⟩⟩] (.node .leaf 72490093790 [⟨⟨.code,[114],.lblank,false,[],false⟩,false,false,[some (69,(.other,false)),some (13,(.cr,true))],none,none,none,false,false,false,none,false,⟨.lcode,none,false,.lblank⟩⟩] .leaf)) 72539277697 [⟨⟨.code,[82],.lcode,false,[],false⟩,false,false,[some (69,(.other,false)),some (58,(.other,false))],none,none,none,false,false,false,none,false,⟨.lcode,none,false,.lblank⟩⟩] (.node (.node .leaf 72540457441 [⟨⟨.code,[114],.lcode,false,[],false⟩,false,false,[some (69,(.other,false)),some (58,(.other,false))],none,none,none,false,false,false,none,false,⟨.lcode,none,false,.lblank⟩⟩] .leaf) 72551277733 [⟨⟨.code,[82],.lcode,false,[],false⟩,false,false,[some (69,(.other,false)),some (64,(.other,false))],none,none,none,false,false,false,none,false,⟨.lcode,none,false,.lblank⟩⟩] .leaf))) 72552457477 [⟨⟨.code,[114],.lcode,false,[],false⟩,false,false,[some (69,(.other,false)),some (64,(.other,false))],none,none,none,false,false,false,none,false,⟨.lcode,none,false,.lblank⟩⟩] (.node (.node (.node (.node .leaf 72561277763 [⟨⟨.code,[82],.lcode,false,[],false⟩,false,false,[some (69,(.other,false)),some (69,(.other,false))],none,none,none,false,false,false,none,false,⟨.lcode,none,false,.lblank⟩⟩] .leaf) 72562457507 [⟨⟨.code,[114],.lcode,false,[],false⟩,false,false,[some (69,(.other,false)),some (69,(.other,false))],none,none,none,false,false,false,none,false,⟨.lcode,none,false,.lblank⟩⟩] (.node .leaf 72577914313 [⟨⟨.code,[82],.lblank,false,[],false⟩,false,false,[some (69,(.other,false)),some (58,(.other,false))],none,none,none,false,false,false,none,false,⟨.lcode,none,false,.lblank⟩⟩] .leaf)) 72579094057 [⟨⟨.code,[114],.lblank,false,[],false⟩,false,false,[some (69,(.other,false)),some (58,(.other,false))],none,none,none,false,false,false,none,false,⟨.lcode,none,false,.lblank⟩⟩] (.node (.node .leaf 72587277841 [⟨⟨.code,[82],.lcode,false,[],false⟩,false,false,[some (69,(.other,false)),some (82,(.other,false))],none,none,none,false,false,false,none,false,⟨.lcode,none,false,.lblank⟩⟩] .leaf) 72588457585 [⟨⟨.code,[114],.lcode,false,[],false⟩,false,false,[some (69,(.other,false)),some (82,(.other,false))],none,none,none,false,false,false,none,false,⟨.lcode,none,false,.lblank⟩⟩] (.node .leaf 72589914349 [⟨⟨.code,[82],.lblank,false,[],false⟩,false,false,[some (69,(.other,false)),some (64,(.other,false))],none,none,none,false,false,false,none,false,⟨.lcode,none,false,.lblank⟩⟩] .leaf))) 72591094093 [⟨⟨.code,[114],.lblank,false,[],false⟩,false,false,[some (69,(.other,false)),some (64,(.other,false))],none,none,none,false,false,false,none,false,⟨.lcode,none,false,.lblank⟩⟩] (.node (.node (.node .leaf 72599914379 [⟨⟨.code,[82],.lblank,false,[],false⟩,false,false,[some (69,(.other,false)),some (69,(.other,false))],none,none,none,false,false,false,none,false,⟨.lcode,none,false,.lblank⟩⟩] .leaf) 72601094123 [⟨⟨.code,[114],.lblank,false,[],false⟩,false,false,[some (69,(.other,false)),some (69,(.other,false))],none,none,none,false,false,false,none,false,⟨.lcode,none,false,.lblank⟩⟩] (.node .leaf 72607277901 [⟨⟨.code,[82],.lcode,false,[],false⟩,false,false,[some (69,(.other,false)),some (92,(.other,false))],none,none,none,false,false,false,none,false,⟨.lcode,none,false,.lblank⟩⟩] .leaf)) 72608457645 [⟨⟨.code,[114],.lcode,false,[],false⟩,false,false,[some (69,(.other,false)),some (92,(.other,false))],none,none,none,false,false,false,none,false,⟨.lcode,none,false,.lblank⟩⟩] (.node (.node .leaf 72625277955 [⟨⟨.code,[82],.lcode,false,[],false⟩,false,false,[some (69,(.other,false)),some (101,(.other,false))],none,none,none,false,false,false,none,false,⟨.lcode,none,false,.lblank⟩⟩] .leaf) 72625914457 [⟨⟨.code,[82],.lblank,false,[],false⟩,false,false,[some (69,(.other,false)),some (82,(.other,false))],none,none,none,false,false,false,none,false,⟨.lcode,none,false,.lblank⟩⟩] .leaf)))) 72626457699 [⟨⟨.code,[114],.lcode,false,[],false⟩,false,false,[some (69,(.other,false)),some (101,(.other,false))],none,none,none,false,false,false,none,false,⟨.lcode,none,false,.lblank⟩⟩] (.node (.node (.node (.node (.node .leaf 72627094201 [⟨⟨.code,[114],.lblank,false,[],false⟩,false,false,[some (69,(.other,false)),some (82,(.other,false))],none,none,none,false,false,false,none,false,⟨.lcode,none,false,.lblank⟩⟩] .leaf) 72645914517 [⟨⟨.code,[82],.lblank,false,[],false⟩,false,false,[some (69,(.other,false)),some (92,(.other,false))],none,none,none,false,false,false,none,false,⟨.lcode,none,false,.lblank⟩⟩] (.node .leaf 72647094261 [⟨⟨.code,[114],.lblank,false,[],false⟩,false,false,[some (69,(.other,false)),some (92,(.other,false))],none,none,none,false,false,false,none,false,⟨.lcode,none,false,.lblank⟩⟩] .leaf)) 72651278033 [⟨⟨.code,[82],.lcode,false,[],false⟩,false,false,[some (69,(.other,false)),some (114,(.other,false))],none,none,none,false,false,false,none,false,⟨.lcode,none,false,.lblank⟩⟩] (.node (.node .leaf 72652457777 [⟨⟨.code,[114],.lcode,false,[],false⟩,false,false,[some (69,(.other,false)),some (114,(.other,false))],none,none,none,false,false,false,none,false,⟨.lcode,none,false,.lblank⟩⟩] .leaf) 72663914571 [⟨⟨.code,[82],.lblank,false,[],false⟩,false,false,[some (69,(.other,false)),some (101,(.other,false))],none,none,none,false,false,false,none,false,⟨.lcode,none,false,.lblank⟩⟩] (.node .leaf 72665094315 [⟨⟨.code,[114],.lblank,false,[],false⟩,false,false,[some (69,(.other,false)),some (101,(.other,false))],none,none,none,false,false,false,none,false,⟨.lcode,none,false,.lblank⟩⟩] .leaf))) 72689914649 [⟨⟨.code,[82],.lblank,false,[],false⟩,false,false,[some (69,(.other,false)),some (114,(.other,false))],none,none,none,false,false,false,none,false,⟨.lcode,none,false,.lblank⟩⟩] (.node (.node (.node .leaf 72691094393 [⟨⟨.code,[114],.lblank,false,[],false⟩,false,false,[some (69,(.other,false)),some (114,(.other,false))],none,none,none,false,false,false,none,false,⟨.lcode,none,false,.lblank⟩⟩] .leaf) 72755199908 [⟨⟨.code,[64,82],.lcode,false,[],false⟩,false,false,[some (69,(.other,false)),some (9,(.ws,false))],none,none,none,false,false,false,none,false,⟨.lcode,none,false,.lblank⟩⟩] (.node .leaf 72756379652 [⟨⟨.code,[64,114],.lcode,false,[],false⟩,false,false,[some (69,(.other,false)),some (9,(.ws,false))],none,none,none,false,false,false,none,false,⟨.lcode,none,false,.lblank⟩⟩] .leaf)) 72757199914 [⟨⟨.code,[64,82],.lcode,false,[],false⟩,false,false,[some (69,(.other,false)),some (10,(.lf,false))],none,none,none,false,false,false,none,false,⟨.lcode,none,false,.lblank⟩⟩] (.node (.node .leaf 72758379658 [⟨⟨.code,[64,114],.lcode,false,[],false⟩,false,false,[some (69,(.other,false)),some (10,(.lf,false))],none,none,none,false,false,false,none,false,⟨.lcode,none,false,.lblank⟩⟩] .leaf) 72761199926 [⟨⟨.code,[64,82],.lcode,false,[],false⟩,false,false,[some (69,(.other,false)),some (12,(.ff,false))],none,none,none,false,false,false,none,false,⟨.lcode,none,false,.lblank⟩⟩] .leaf))) 72762379670 [⟨⟨.code,[64,114],.lcode,false,[],false⟩,false,false,[some (69,(.other,false)),some (12,(.ff,false))],none,none,none,false,false,false,none,false,⟨.lcode,none,false,.lblank⟩⟩] (.node (.node (.node (.node .leaf 72763199932 [⟨⟨.code,[64,82],.lcode,false,[],false⟩,false,false,[some (69,(.other,false)),some (13,(.cr,false))],none,none,none,false,false,false,none,false,⟨.lcode,none,false,.lblank⟩⟩] .leaf) 72764199935 [⟨⟨.code,[64,82],.lcode,false,[],false⟩,false,false,[some (69,(.other,false)),some (13,(.cr,true))],none,none,none,false,false,false,none,false,⟨.lcode,none,false,.lblank⟩⟩] (.node .leaf 72764379676 [⟨⟨.code,[64,114],.lcode,false,[],false⟩,false,false,[some (69,(.other,false)),some (13,(.cr,false))],none,none,none,false,false,false,none,false,⟨.lcode,none,false,.lblank⟩⟩] .leaf)) 72765379679 [⟨⟨.code,[64,114],.lcode,false,[],false⟩,false,false,[some (69,(.other,false)),some (13,(.cr,true))],none,none,none,false,false,false,none,false,⟨.lcode,none,false,.lblank⟩⟩] (.node (.node .leaf 72853200202 [⟨⟨.code,[64,82],.lcode,false,[],false⟩,false,false,[some (69,(.other,false)),some (58,(.other,false))],none,none,none,false,false,false,none,false,⟨.lcode,none,false,.lblank⟩⟩] .leaf) 72854379946 [⟨⟨.code,[64,114],.lcode,false,[],false⟩,false,false,[some (69,(.other,false)),some (58,(.other,false))],none,none,none,false,false,false,none,false,⟨.lcode,none,false,.lblank⟩⟩] (.node .leaf 72865200238 [⟨⟨.code,[64,82],.lcode,false,[],false⟩,false,false,[some (69,(.other,false)),some (64,(.other,false))],none,none,none,false,false,false,none,false,⟨.lcode,none,false,.lblank⟩⟩] .leaf))) 72866379982 [⟨⟨.code,[64,114],.lcode,false,[],false⟩,false,false,[some (69,(.other,false)),some (64,(.other,false))],none,none,none,false,false,false,none,false,⟨.lcode,none,false,.lblank⟩⟩] (.node (.node (.node .leaf 72875200268 [⟨⟨.code,[64,82],.lcode,false,[],false⟩,false,false,[some (69,(.other,false)),some (69,(.other,false))],none,none,none,false,false,false,none,false,⟨.lcode,none,false,.lblank⟩⟩] .leaf) 72876380012 [⟨⟨.code,[64,114],.lcode,false,[],false⟩,false,false,[some (69,(.other,false)),some (69,(.other,false))],none,none,none,false,false,false,none,false,⟨.lcode,none,false,.lblank⟩⟩] (.node .leaf 72901200346 [⟨⟨.code,[64,82],.lcode,false,[],false⟩,false,false,[some (69,(.other,false)),some (82,(.other,false))],none,none,none,false,false,false,none,false,⟨.lcode,none,false,.lblank⟩⟩] .leaf)) 72902380090 [⟨⟨.code,[64,114],.lcode,false,[],false⟩,false,false,[some (69,(.other,false)),some (82,(.other,false))],none,none,none,false,false,false,none,false,⟨.lcode,none,false,.lblank⟩⟩] (.node (.node .leaf 72921200406 [⟨⟨.code,[64,82],.lcode,false,[],false⟩,false,false,[some (69,(.other,false)),some (92,(.other,false))],none,none,none,false,false,false,none,false,⟨.lcode,none,false,.lblank⟩⟩] .leaf) 72922380150 [⟨⟨.code,[64,114],.lcode,false,[],false⟩,false,false,[some (69,(.other,false)),some (92,(.other,false))],none,none,none,false,false,false,none,false,⟨.lcode,none,false,.lblank⟩⟩] .leaf)))))) 72935278885 [⟨⟨.code,[82],.lcode,false,[],false⟩,false,false,[some (69,(.other,false)),some (256,(.other,false))],none,none,none,false,false,false,none,false,⟨.lcode,none,false,.lblank⟩⟩] (.node (.node (.node (.node (.node (.node (.node .leaf 72936458629 [⟨⟨.code,[114],.lcode,false,[],false⟩,false,false,[some (69,(.other,false)),some (256,(.other,false))],none,none,none,false,false,false,none,false,⟨.lcode,none,false,.lblank⟩⟩] .leaf) 72939200460 [⟨⟨.code,[64,82],.lcode,false,[],false⟩,false,false,[some (69,(.other,false)),some (101,(.other,false))],none,none,none,false,false,false,none,false,⟨.lcode,none,false,.lblank⟩⟩] (.node .leaf 72940380204 [⟨⟨.code,[64,114],.lcode,false,[],false⟩,false,false,[some (69,(.other,false)),some (101,(.other,false))],none,none,none,false,false,false,none,false,⟨.lcode,none,false,.lblank⟩⟩] .leaf)) 72965200538 [⟨⟨.code,[64,82],.lcode,false,[],false⟩,false,false,[some (69,(.other,false)),some (114,(.other,false))],none,none,none,false,false,false,none,false,⟨.lcode,none,false,.lblank⟩⟩] (.node (.node .leaf 72966380282 [⟨⟨.code,[64,114],.lcode,false,[],false⟩,false,false,[some (69,(.other,false)),some (114,(.other,false))],none,none,none,false,false,false,none,false,⟨.lcode,none,false,.lblank⟩⟩] .leaf) 72973915501 [⟨⟨.code,[82],.lblank,false,[],false⟩,false,false,[some (69,(.other,false)),some (256,(.other,false))],none,none,none,false,false,false,none,false,⟨.lcode,none,false,.lblank⟩⟩] (.node .leaf 72975095245 [⟨⟨.code,[114],.lblank,false,[],false⟩,false,false,[some (69,(.other,false)),some (256,(.other,false))],none,none,none,false,false,false,none,false,⟨.lcode,none,false,.lblank⟩⟩] .leaf))) 73249201390 [⟨⟨.code,[64,82],.lcode,false,[],false⟩,false,false,[some (69,(.other,false)),some (256,(.other,false))],none,none,none,false,false,false,none,false,⟨.lcode,none,false,.lblank⟩⟩] (.node (.node (.node .leaf 73250381134 [⟨⟨.code,[64,114],.lcode,false,[],false⟩,false,false,[some (69,(.other,false)),some (256,(.other,false))],none,none,none,false,false,false,none,false,⟨.lcode,none,false,.lblank⟩⟩] .leaf) 77816596604 [⟨⟨.code,[64,82],.lblank,false,[],false⟩,false,false,[some (69,(.other,false)),some (9,(.ws,false))],none,none,none,false,false,false,none,false,⟨.lcode,none,false,.lblank⟩⟩] (.node .leaf 77817776348 [⟨⟨.code,[64,114],.lblank,false,[],false⟩,false,false,[some (69,(.other,false)),some (9,(.ws,false))],none,none,none,false,false,false,none,false,⟨.lcode,none,false,.lblank⟩⟩] .leaf)) 77818596610 [⟨⟨.code,[64,82],.lblank,false,[],false⟩,false,false,[some (69,(.other,false)),some (10,(.lf,false))],none,none,none,false,false,false,none,false,⟨.lcode,none,false,.lblank⟩⟩] (.node (.node .leaf 77819776354 [⟨⟨.code,[64,114],.lblank,false,[],false⟩,false,false,[some (69,(.other,false)),some (10,(.lf,false))],none,none,none,false,false,false,none,false,⟨.lcode,none,false,.lblank⟩⟩] .leaf) 77822596622 [⟨⟨.code,[64,82],.lblank,false,[],false⟩,false,false,[some (69,(.other,false)),some (12,(.ff,false))],none,none,none,false,false,false,none,false,⟨.lcode,none,false,.lblank⟩⟩] .leaf))) 77823776366 [⟨⟨.code,[64,114],.lblank,false,[],false⟩,false,false,[some (69,(.other,false)),some (12,(.ff,false))],none,none,none,false,false,false,none,false,⟨.lcode,none,false,.lblank⟩⟩] (.node (.node (.node (.node .leaf 77824596628 [⟨⟨.code,[64,82],.lblank,false,[],false⟩,false,false,[some (69,(.other,false)),some (13,(.cr,false))],none,none,none,false,false,false,none,false,⟨.lcode,none,false,.lblank⟩⟩] .leaf) 77825596631 [⟨⟨.code,[64,82],.lblank,false,[],false⟩,false,false,[some (69,(.other,false)),some (13,(.cr,true))],none,none,none,false,false,false,none,false,⟨.lcode,none,false,.lblank⟩⟩] (.node .leaf 77825776372 [⟨⟨.code,[64,114],.lblank,false,[],false⟩,false,false,[some (69,(.other,false)),some (13,(.cr,false))],none,none,none,false,false,false,none,false,⟨.lcode,none,false,.lblank⟩⟩] .leaf)) 77826776375 [⟨⟨.code,[64,114],.lblank,false,[],false⟩,false,false,[some (69,(.other,false)),some (13,(.cr,true))],none,none,none,false,false,false,none,false,⟨.lcode,none,false,.lblank⟩⟩] (.node (.node .leaf 77914596898 [⟨⟨.code,[64,82],.lblank,false,[],false⟩,false,false,[some (69,(.other,false)),some (58,(.other,false))],none,none,none,false,false,false,none,false,⟨.lcode,none,false,.lblank⟩⟩] .leaf) 77915776642 [⟨⟨.code,[64,114],.lblank,false,[],false⟩,false,false,[some (69,(.other,false)),some (58,(.other,false))],none,none,none,false,false,false,none,false,⟨.lcode,none,false,.lblank⟩⟩] (.node .leaf 77926596934 [⟨⟨.code,[64,82],.lblank,false,[],false⟩,false,false,[some (69,(.other,false)),some (64,(.other,false))],none,none,none,false,false,false,none,false,⟨.lcode,none,false,.lblank⟩⟩] .leaf))) 77927776678 [⟨⟨.code,[64,114],.lblank,false,[],false⟩,false,false,[some (69,(.other,false)),some (64,(.other,false))],none,none,none,false,false,false,none,false,⟨.lcode,none,false,.lblank⟩⟩] (.node (.node (.node .leaf 77936596964 [⟨⟨.code,[64,82],.lblank,false,[],false⟩,false,false,[some (69,(.other,false)),some (69,(.other,false))],none,none,none,false,false,false,none,false,⟨.lcode,none,false,.lblank⟩⟩] .leaf) 77937776708 [⟨⟨.code,[64,114],.lblank,false,[],false⟩,false,false,[some (69,(.other,false)),some (69,(.other,false))],none,none,none,false,false,false,none,false,⟨.lcode,none,false,.lblank⟩⟩] (.node .leaf 77962597042 [⟨⟨.code,[64,82],.lblank,false,[],false⟩,false,false,[some (69,(.other,false)),some (82,(.other,false))],none,none,none,false,false,false,none,false,⟨.lcode,none,false,.lblank⟩⟩] .leaf)) 77963776786 [⟨⟨.code,[64,114],.lblank,false,[],false⟩,false,false,[some (69,(.other,false)),some (82,(.other,false))],none,none,none,false,false,false,none,false,⟨.lcode,none,false,.lblank⟩⟩] (.node (.node .leaf 77982597102 [⟨⟨.code,[64,82],.lblank,false,[],false⟩,false,false,[some (69,(.other,false)),some (92,(.other,false))],none,none,none,false,false,false,none,false,⟨.lcode,none,false,.lblank⟩⟩] .leaf) 77983776846 [⟨⟨.code,[64,114],.lblank,false,[],false⟩,false,false,[some (69,(.other,false)),some (92,(.other,false))],none,none,none,false,false,false,none,false,⟨.lcode,none,false,.lblank⟩⟩] .leaf)))) 78000597156 [⟨⟨.code,[64,82],.lblank,false,[],false⟩,false,false,[some (69,(.other,false)),some (101,(.other,false))],none,none,none,false,false,false,none,false,⟨.lcode,none,false,.lblank⟩⟩] (.node (.node (.node (.node (.node .leaf 78001776900 [⟨⟨.code,[64,114],.lblank,false,[],false⟩,false,false,[some (69,(.other,false)),some (101,(.other,false))],none,none,none,false,false,false,none,false,⟨.lcode,none,false,.lblank⟩⟩] .leaf) 78026597234 [⟨⟨.code,[64,82],.lblank,false,[],false⟩,false,false,[some (69,(.other,false)),some (114,(.other,false))],none,none,none,false,false,false,none,false,⟨.lcode,none,false,.lblank⟩⟩] (.node .leaf 78027776978 [⟨⟨.code,[64,114],.lblank,false,[],false⟩,false,false,[some (69,(.other,false)),some (114,(.other,false))],none,none,none,false,false,false,none,false,⟨.lcode,none,false,.lblank⟩⟩] .leaf)) 78310598086 [⟨⟨.code,[64,82],.lblank,false,[],false⟩,false,false,[some (69,(.other,false)),some (256,(.other,false))],none,none,none,false,false,false,none,false,⟨.lcode,none,false,.lblank⟩⟩] (.node (.node .leaf 78311777830 [⟨⟨.code,[64,114],.lblank,false,[],false⟩,false,false,[some (69,(.other,false)),some (256,(.other,false))],none,none,none,false,false,false,none,false,⟨.lcode,none,false,.lblank⟩⟩] .leaf) 85986654435 [⟨⟨.code,[64],.lcode,false,[],false⟩,false,false,[some (82,(.other,false)),some (9,(.ws,false))],none,none,none,false,false,false,none,false,⟨.lcode,none,false,.lblank⟩⟩] (.node .leaf 85988654441 [⟨⟨.code,[64],.lcode,false,[],false⟩,false,false,[some (82,(.other,false)),some (10,(.lf,false))],none,none,none,false,false,false,none,false,⟨.lcode,none,false,.lblank⟩⟩] .leaf))) 85992654453 [⟨⟨.code,[64],.lcode,false,[],false⟩,false,false,[some (82,(.other,false)),some (12,(.ff,false))],none,none,none,false,false,false,none,false,⟨.lcode,none,false,.lblank⟩⟩] (.node (.node (.node .leaf 85994654459 [⟨⟨.code,[64],.lcode,false,[],false⟩,false,false,[some (82,(.other,false)),some (13,(.cr,false))],none,none,none,false,false,false,none,false,⟨.lcode,none,false,.lblank⟩⟩] .leaf) 85995654462 [⟨⟨.code,[64],.lcode,false,[],false⟩,false,false,[some (82,(.other,false)),some (13,(.cr,true))],none,none,none,false,false,false,none,false,⟨.lcode,none,false,.lblank⟩⟩] (.node .leaf 86025291051 [⟨⟨.code,[64],.lblank,false,[],false⟩,false,false,[some (82,(.other,false)),some (9,(.ws,false))],none,none,none,false,false,false,none,false,⟨.lcode,none,false,.lblank⟩⟩] .leaf)) 86027291057 [⟨⟨.code,[64],.lblank,false,[],false⟩,false,false,[some (82,(.other,false)),some (10,(.lf,false))],none,none,none,false,false,false,none,false,⟨.lcode,none,false,.lblank⟩⟩] (.node (.node .leaf 86031291069 [⟨⟨.code,[64],.lblank,false,[],false⟩,false,false,[some (82,(.other,false)),some (12,(.ff,false))],none,none,none,false,false,false,none,false,⟨.lcode,none,false,.lblank⟩⟩] .leaf) 86033291075 [⟨⟨.code,[64],.lblank,false,[],false⟩,false,false,[some (82,(.other,false)),some (13,(.cr,false))],none,none,none,false,false,false,none,false,⟨.lcode,none,false,.lblank⟩⟩] .leaf))) 86034291078 [⟨⟨.code,[64],.lblank,false,[],false⟩,false,false,[some (82,(.other,false)),some (13,(.cr,true))],none,none,none,false,false,false,none,false,⟨.lcode,none,false,.lblank⟩⟩] (.node (.node (.node (.node .leaf 86084654729 [⟨⟨.code,[64],.lcode,false,[],false⟩,false,false,[some (82,(.other,false)),some (58,(.other,false))],none,none,none,false,false,false,none,false,⟨.lcode,none,false,.lblank⟩⟩] .leaf) 86096654765 [⟨⟨.code,[64],.lcode,false,[],false⟩,false,false,[some (82,(.other,false)),some (64,(.other,false))],none,none,none,false,false,false,none,false,⟨.lcode,none,false,.lblank⟩⟩] (.node .leaf 86122654843 [⟨⟨.code,[64],.lcode,false,[],false⟩,false,false,[some (82,(.other,false)),some (77,(.other,false))],none,none,none,false,false,false,none,false,⟨.lcode,none,false,.lblank⟩⟩] .leaf)) 86123291345 [⟨⟨.code,[64],.lblank,false,[],false⟩,false,false,[some (82,(.other,false)),some (58,(.other,false))],none,none,none,false,false,false,none,false,⟨.lcode,none,false,.lblank⟩⟩] (.node (.node .leaf 86132654873 [⟨⟨.code,[64],.lcode,false,[],false⟩,false,false,[some (82,(.other,false)),some (82,(.other,false))],none,none,none,false,false,false,none,false,⟨.lcode,none,false,.lblank⟩⟩] .leaf) 86135291381 [⟨⟨.code,[64],.lblank,false,[],false⟩,false,false,[some (82,(.other,false)),some (64,(.other,false))],none,none,none,false,false,false,none,false,⟨.lcode,none,false,.lblank⟩⟩] (.node .leaf 86152654933 [⟨⟨.code,[64],.lcode,false,[],false⟩,false,false,[some (82,(.other,false)),some (92,(.other,false))],none,none,none,false,false,false,none,false,⟨.lcode,none,false,.lblank⟩⟩] .leaf))) 86161291459 [⟨⟨.code,[64],.lblank,false,[],false⟩,false,false,[some (82,(.other,false)),some (77,(.other,false))],none,none,none,false,false,false,none,false,⟨.lcode,none,false,.lblank⟩⟩] (.node (.node (.node .leaf 86171291489 [⟨⟨.code,[64],.lblank,false,[],false⟩,false,false,[some (82,(.other,false)),some (82,(.other,false))],none,none,none,false,false,false,none,false,⟨.lcode,none,false,.lblank⟩⟩] .leaf) 86186655035 [⟨⟨.code,[64],.lcode,false,[],false⟩,false,false,[some (82,(.other,false)),some (109,(.other,false))],none,none,none,false,false,false,none,false,⟨.lcode,none,false,.lblank⟩⟩] (.node .leaf 86191291549 [⟨⟨.code,[64],.lblank,false,[],false⟩,false,false,[some (82,(.other,false)),some (92,(.other,false))],none,none,none,false,false,false,none,false,⟨.lcode,none,false,.lblank⟩⟩] .leaf)) 86196655065 [⟨⟨.code,[64],.lcode,false,[],false⟩,false,false,[some (82,(.other,false)),some (114,(.other,false))],none,none,none,false,false,false,none,false,⟨.lcode,none,false,.lblank⟩⟩] (.node (.node .leaf 86225291651 [⟨⟨.code,[64],.lblank,false,[],false⟩,false,false,[some (82,(.other,false)),some (109,(.other,false))],none,none,none,false,false,false,none,false,⟨.lcode,none,false,.lblank⟩⟩] .leaf) 86235291681 [⟨⟨.code,[64],.lblank,false,[],false⟩,false,false,[some (82,(.other,false)),some (114,(.other,false))],none,none,none,false,false,false,none,false,⟨.lcode,none,false,.lblank⟩⟩] .leaf))))) 86480655917 [⟨⟨.code,[64],.lcode,false,[],false⟩,false,false,[some (82,(.other,false)),some (256,(.other,false))],none,none,none,false,false,false,none,false,⟨.lcode,none,false,.lblank⟩⟩] (.node (.node (.node (.node (.node (.node .leaf 86519292533 [⟨⟨.code,[64],.lblank,false,[],false⟩,false,false,[some (82,(.other,false)),some (256,(.other,false))],none,none,none,false,false,false,none,false,⟨.lcode,none,false,.lblank⟩⟩] .leaf) 105785377435 [⟨⟨.code,[82],.lcode,false,[],false⟩,false,false,[some (101,(.other,false)),some (9,(.ws,false))],none,none,none,false,false,false,none,false,⟨.lcode,none,false,.lblank⟩⟩] (.node .leaf 105786557179 [⟨⟨.code,[114],.lcode,false,[],false⟩,false,false,[some (101,(.other,false)),some (9,(.ws,false))],none,none,none,false,false,false,none,false,⟨.lcode,none,false,.lblank⟩⟩] .leaf)) 105787377441 [⟨⟨.code,[82],.lcode,false,[],false⟩,false,false,[some (101,(.other,false)),some (10,(.lf,false))],none,none,none,false,false,false,none,false,⟨.lcode,none,false,.lblank⟩⟩] (.node (.node .leaf 105788557185 [⟨⟨.code,[114],.lcode,false,[],false⟩,false,false,[some (101,(.other,false)),some (10,(.lf,false))],none,none,none,false,false,false,none,false,⟨.lcode,none,false,.lblank⟩⟩] .leaf) 105791377453 [⟨⟨.code,[82],.lcode,false,[],false⟩,false,false,[some (101,(.other,false)),some (12,(.ff,false))],none,none,none,false,false,false,none,false,⟨.lcode,none,false,.lblank⟩⟩] (.node .leaf 105792557197 [⟨⟨.code,[114],.lcode,false,[],false⟩,false,false,[some (101,(.other,false)),some (12,(.ff,false))],none,none,none,false,false,false,none,false,⟨.lcode,none,false,.lblank⟩⟩] .leaf))) 105793377459 [⟨⟨.code,[82],.lcode,false,[],false⟩,false,false,[some (101,(.other,false)),some (13,(.cr,false))],none,none,none,false,false,false,none,false,⟨.lcode,none,false,.lblank⟩⟩] (.node (.node (.node .leaf 105794377462 [⟨⟨.code,[82],.lcode,false,[],false⟩,false,false,[some (101,(.other,false)),some (13,(.cr,true))],none,none,none,false,false,false,none,false,⟨.lcode,none,false,.lblank⟩⟩] .leaf) 105794557203 [⟨⟨.code,[114],.lcode,false,[],false⟩,false,false,[some (101,(.other,false)),some (13,(.cr,false))],none,none,none,false,false,false,none,false,⟨.lcode,none,false,.lblank⟩⟩] (.node .leaf 105795557206 [⟨⟨.code,[114],.lcode,false,[],false⟩,false,false,[some (101,(.other,false)),some (13,(.cr,true))],none,none,none,false,false,false,none,false,⟨.lcode,none,false,.lblank⟩⟩] .leaf)) 105824014051 [⟨⟨.code,[82],.lblank,false,[],false⟩,false,false,[some (101,(.other,false)),some (9,(.ws,false))],none,none,none,false,false,false,none,false,⟨.lcode,none,false,.lblank⟩⟩] (.node (.node .leaf 105825193795 [⟨⟨.code,[114],.lblank,false,[],false⟩,false,false,[some (101,(.other,false)),some (9,(.ws,false))],none,none,none,false,false,false,none,false,⟨.lcode,none,false,.lblank⟩⟩] .leaf) 105826014057 [⟨⟨.code,[82],.lblank,false,[],false⟩,false,false,[some (101,(.other,false)),some (10,(.lf,false))],none,none,none,false,false,false,none,false,⟨.lcode,none,false,.lblank⟩⟩] .leaf))) 105827193801 [⟨⟨.code,[114],.lblank,false,[],false⟩,false,false,[some (101,(.other,false)),some (10,(.lf,false))],none,none,none,false,false,false,none,false,⟨.lcode,none,false,.lblank⟩⟩] (.node (.node (.node (.node .leaf 105830014069 [⟨⟨.code,[82],.lblank,false,[],false⟩,false,false,[some (101,(.other,false)),some (12,(.ff,false))],none,none,none,false,false,false,none,false,⟨.lcode,none,false,.lblank⟩⟩] .leaf) 105831193813 [⟨⟨.code,[114],.lblank,false,[],false⟩,false,false,[some (101,(.other,false)),some (12,(.ff,false))],none,none,none,false,false,false,none,false,⟨.lcode,none,false,.lblank⟩⟩] (.node .leaf 105832014075 [⟨⟨.code,[82],.lblank,false,[],false⟩,false,false,[some (101,(.other,false)),some (13,(.cr,false))],none,none,none,false,false,false,none,false,⟨.lcode,none,false,.lblank⟩⟩] .leaf)) 105833014078 [⟨⟨.code,[82],.lblank,false,[],false⟩,false,false,[some (101,(.other,false)),some (13,(.cr,true))],none,none,none,false,false,false,none,false,⟨.lcode,none,false,.lblank⟩⟩] (.node (.node .leaf 105833193819 [⟨⟨.code,[114],.lblank,false,[],false⟩,false,false,[some (101,(.other,false)),some (13,(.cr,false))],none,none,none,false,false,false,none,false,⟨.lcode,none,false,.lblank⟩⟩] .leaf) 105834193822 [⟨⟨.code,[114],.lblank,false,[],false⟩,false,false,[some (101,(.other,false)),some (13,(.cr,true))],none,none,none,false,false,false,none,false,⟨.lcode,none,false,.lblank⟩⟩] (.node .leaf 105883377729 [⟨⟨.code,[82],.lcode,false,[],false⟩,false,false,[some (101,(.other,false)),some (58,(.other,false))],none,none,none,false,false,false,none,false,⟨.lcode,none,false,.lblank⟩⟩] .leaf))) 105884557473 [⟨⟨.code,[114],.lcode,false,[],false⟩,false,false,[some (101,(.other,false)),some (58,(.other,false))],none,none,none,false,false,false,none,false,⟨.lcode,none,false,.lblank⟩⟩] (.node (.node (.node .leaf 105895377765 [⟨⟨.code,[82],.lcode,false,[],false⟩,false,false,[some (101,(.other,false)),some (64,(.other,false))],none,none,none,false,false,false,none,false,⟨.lcode,none,false,.lblank⟩⟩] .leaf) 105896557509 [⟨⟨.code,[114],.lcode,false,[],false⟩,false,false,[some (101,(.other,false)),some (64,(.other,false))],none,none,none,false,false,false,none,false,⟨.lcode,none,false,.lblank⟩⟩] (.node .leaf 105905377795 [⟨⟨.code,[82],.lcode,false,[],false⟩,false,false,[some (101,(.other,false)),some (69,(.other,false))],none,none,none,false,false,false,none,false,⟨.lcode,none,false,.lblank⟩⟩] .leaf)) 105906557539 [⟨⟨.code,[114],.lcode,false,[],false⟩,false,false,[some (101,(.other,false)),some (69,(.other,false))],none,none,none,false,false,false,none,false,⟨.lcode,none,false,.lblank⟩⟩] (.node (.node .leaf 105922014345 [⟨⟨.code,[82],.lblank,false,[],false⟩,false,false,[some (101,(.other,false)),some (58,(.other,false))],none,none,none,false,false,false,none,false,⟨.lcode,none,false,.lblank⟩⟩] .leaf) 105923194089 [⟨⟨.code,[114],.lblank,false,[],false⟩,false,false,[some (101,(.other,false)),some (58,(.other,false))],none,none,none,false,false,false,none,false,⟨.lcode,none,false,.lblank⟩⟩] .leaf)))) 105931377873 [⟨⟨.code,[82],.lcode,false,[],false⟩,false,false,[some (101,(.other,false)),some (82,(.other,false))],none,none,none,false,false,false,none,false,⟨.lcode,none,false,.lblank⟩⟩] (.node (.node (.node (.node (.node .leaf 105932557617 [⟨⟨.code,[114],.lcode,false,[],false⟩,false,false,[some (101,(.other,false)),some (82,(.other,false))],none,none,none,false,false,false,none,false,⟨.lcode,none,false,.lblank⟩⟩] .leaf) 105934014381 [⟨⟨.code,[82],.lblank,false,[],false⟩,false,false,[some (101,(.other,false)),some (64,(.other,false))],none,none,none,false,false,false,none,false,⟨.lcode,none,false,.lblank⟩⟩] (.node .leaf 105935194125 [⟨⟨.code,[114],.lblank,false,[],false⟩,false,false,[some (101,(.other,false)),some (64,(.other,false))],none,none,none,false,false,false,none,false,⟨.lcode,none,false,.lblank⟩⟩] .leaf)) 105944014411 [⟨⟨.code,[82],.lblank,false,[],false⟩,false,false,[some (101,(.other,false)),some (69,(.other,false))],none,none,none,false,false,false,none,false,⟨.lcode,none,false,.lblank⟩⟩] (.node (.node .leaf 105945194155 [⟨⟨.code,[114],.lblank,false,[],false⟩,false,false,[some (101,(.other,false)),some (69,(.other,false))],none,none,none,false,false,false,none,false,⟨.lcode,none,false,.lblank⟩⟩] .leaf) 105951377933 [⟨⟨.code,[82],.lcode,false,[],false⟩,false,false,[some (101,(.other,false)),some (92,(.other,false))],none,none,none,false,false,false,none,false,⟨.lcode,none,false,.lblank⟩⟩] (.node .leaf 105952557677 [⟨⟨.code,[114],.lcode,false,[],false⟩,false,false,[some (101,(.other,false)),some (92,(.other,false))],none,none,none,false,false,false,none,false,⟨.lcode,none,false,.lblank⟩⟩] .leaf))) 105969377987 [⟨⟨.code,[82],.lcode,false,[],false⟩,false,false,[some (101,(.other,false)),some (101,(.other,false))],none,none,none,false,false,false,none,false,⟨.lcode,none,false,.lblank⟩⟩] (.node (.node (.node .leaf 105970014489 [⟨⟨.code,[82],.lblank,false,[],false⟩,false,false,[some (101,(.other,false)),some (82,(.other,false))],none,none,none,false,false,false,none,false,⟨.lcode,none,false,.lblank⟩⟩] .leaf) 105970557731 [⟨⟨.code,[114],.lcode,false,[],false⟩,false,false,[some (101,(.other,false)),some (101,(.other,false))],none,none,none,false,false,false,none,false,⟨.lcode,none,false,.lblank⟩⟩] (.node .leaf 105971194233 [⟨⟨.code,[114],.lblank,false,[],false⟩,false,false,[some (101,(.other,false)),some (82,(.other,false))],none,none,none,false,false,false,none,false,⟨.lcode,none,false,.lblank⟩⟩] .leaf)) 105990014549 [⟨⟨.code,[82],.lblank,false,[],false⟩,false,false,[some (101,(.other,false)),some (92,(.other,false))],none,none,none,false,false,false,none,false,⟨.lcode,none,false,.lblank⟩⟩] (.node (.node .leaf 105991194293 [⟨⟨.code,[114],.lblank,false,[],false⟩,false,false,[some (101,(.other,false)),some (92,(.other,false))],none,none,none,false,false,false,none,false,⟨.lcode,none,false,.lblank⟩⟩] .leaf) 105995378065 [⟨⟨.code,[82],.lcode,false,[],false⟩,false,false,[some (101,(.other,false)),some (114,(.other,false))],none,none,none,false,false,false,none,false,⟨.lcode,none,false,.lblank⟩⟩] .leaf))) 105996557809 [⟨⟨.code,[114],.lcode,false,[],false⟩,false,false,[some (101,(.other,false)),some (114,(.other,false))],none,none,none,false,false,false,none,false,⟨.lcode,none,false,.lblank⟩⟩] (.node (.node (.node (.node .leaf 106008014603 [⟨⟨.code,[82],.lblank,false,[],false⟩,false,false,[some (101,(.other,false)),some (101,(.other,false))],none,none,none,false,false,false,none,false,⟨.lcode,none,false,.lblank⟩⟩] .leaf) 106009194347 [⟨⟨.code,[114],.lblank,false,[],false⟩,false,false,[some (101,(.other,false)),some (101,(.other,false))],none,none,none,false,false,false,none,false,⟨.lcode,none,false,.lblank⟩⟩] (.node .leaf 106034014681 [⟨⟨.code,[82],.lblank,false,[],false⟩,false,false,[some (101,(.other,false)),some (114,(.other,false))],none,none,none,false,false,false,none,false,⟨.lcode,none,false,.lblank⟩⟩] .leaf)) 106035194425 [⟨⟨.code,[114],.lblank,false,[],false⟩,false,false,[some (101,(.other,false)),some (114,(.other,false))],none,none,none,false,false,false,none,false,⟨.lcode,none,false,.lblank⟩⟩] (.node (.node .leaf 106099299940 [⟨⟨.code,[64,82],.lcode,false,[],false⟩,false,false,[some (101,(.other,false)),some (9,(.ws,false))],none,none,none,false,false,false,none,false,⟨.lcode,none,false,.lblank⟩⟩] .leaf) 106100479684 [⟨⟨.code,[64,114],.lcode,false,[],false⟩,false,false,[some (101,(.other,false)),some (9,(.ws,false))],none,none,none,false,false,false,none,false,⟨.lcode,none,false,.lblank⟩⟩] (.node .leaf 106101299946 [⟨⟨.code,[64,82],.lcode,false,[],false⟩,false,false,[some (101,(.other,false)),some (10,(.lf,false))],none,none,none,false,false,false,none,false,⟨.lcode,none,false,.lblank⟩⟩] .leaf))) 106102479690 [⟨⟨.code,[64,114],.lcode,false,[],false⟩,false,false,[some (101,(.other,false)),some (10,(.lf,false))],none,none,none,false,false,false,none,false,⟨.lcode,none,false,.lblank⟩⟩] (.node (.node (.node .leaf 106105299958 [⟨⟨.code,[64,82],.lcode,false,[],false⟩,false,false,[some (101,(.other,false)),some (12,(.ff,false))],none,none,none,false,false,false,none,false,⟨.lcode,none,false,.lblank⟩⟩] .leaf) 106106479702 [⟨⟨.code,[64,114],.lcode,false,[],false⟩,false,false,[some (101,(.other,false)),some (12,(.ff,false))],none,none,none,false,false,false,none,false,⟨.lcode,none,false,.lblank⟩⟩] (.node .leaf 106107299964 [⟨⟨.code,[64,82],.lcode,false,[],false⟩,false,false,[some (101,(.other,false)),some (13,(.cr,false))],none,none,none,false,false,false,none,false,⟨.lcode,none,false,.lblank⟩⟩] .leaf)) 106108299967 [⟨⟨.code,[64,82],.lcode,false,[],false⟩,false,false,[some (101,(.other,false)),some (13,(.cr,true))],none,none,none,false,false,false,none,false,⟨.lcode,none,false,.lblank⟩⟩] (.node (.node .leaf 106108479708 [⟨⟨.code,[64,114],.lcode,false,[],false⟩,false,false,[some (101,(.other,false)),some (13,(.cr,false))],none,none,none,false,false,false,none,false,⟨.lcode,none,false,.lblank⟩⟩] .leaf) 106109479711 [⟨⟨.code,[64,114],.lcode,false,[],false⟩,false,false,[some (101,(.other,false)),some (13,(.cr,true))],none,none,none,false,false,false,none,false,⟨.lcode,none,false,.lblank⟩⟩] .leaf))))))) 106197300234 [⟨⟨.code,[64,82],.lcode,false,[],false⟩,false,false,[some (101,(.other,false)),some (58,(.other,false))],none,none,none,false,false,false,none,false,⟨.lcode,none,false,.lblank⟩⟩] (.node (.node (.node (.node (.node (.node (.node (.node .leaf 106198479978 [⟨⟨.code,[64,114],.lcode,false,[],false⟩,false,false,[some (101,(.other,false)),some (58,(.other,false))],none,none,none,false,false,false,none,false,⟨.lcode,none,false,.lblank⟩⟩] .leaf) 106209300270 [⟨⟨.code,[64,82],.lcode,false,[],false⟩,false,false,[some (101,(.other,false)),some (64,(.other,false))],none,none,none,false,false,false,none,false,⟨.lcode,none,false,.lblank⟩⟩] (.node .leaf 106210480014 [⟨⟨.code,[64,114],.lcode,false,[],false⟩,false,false,[some (101,(.other,false)),some (64,(.other,false))],none,none,none,false,false,false,none,false,⟨.lcode,none,false,.lblank⟩⟩] .leaf)) 106219300300 [⟨⟨.code,[64,82],.lcode,false,[],false⟩,false,false,[some (101,(.other,false)),some (69,(.other,false))],none,none,none,false,false,false,none,false,⟨.lcode,none,false,.lblank⟩⟩] (.node (.node .leaf 106220480044 [⟨⟨.code,[64,114],.lcode,false,[],false⟩,false,false,[some (101,(.other,false)),some (69,(.other,false))],none,none,none,false,false,false,none,false,⟨.lcode,none,false,.lblank⟩⟩] .leaf) 106245300378 [⟨⟨.code,[64,82],.lcode,false,[],false⟩,false,false,[some (101,(.other,false)),some (82,(.other,false))],none,none,none,false,false,false,none,false,⟨.lcode,none,false,.lblank⟩⟩] (.node .leaf 106246480122 [⟨⟨.code,[64,114],.lcode,false,[],false⟩,false,false,[some (101,(.other,false)),some (82,(.other,false))],none,none,none,false,false,false,none,false,⟨.lcode,none,false,.lblank⟩⟩] .leaf))) 106265300438 [⟨⟨.code,[64,82],.lcode,false,[],false⟩,false,false,[some (101,(.other,false)),some (92,(.other,false))],none,none,none,false,false,false,none,false,⟨.lcode,none,false,.lblank⟩⟩] (.node (.node (.node .leaf 106266480182 [⟨⟨.code,[64,114],.lcode,false,[],false⟩,false,false,[some (101,(.other,false)),some (92,(.other,false))],none,none,none,false,false,false,none,false,⟨.lcode,none,false,.lblank⟩⟩] .leaf) 106279378917 [⟨⟨.code,[82],.lcode,false,[],false⟩,false,false,[some (101,(.other,false)),some (256,(.other,false))],none,none,none,false,false,false,none,false,⟨.lcode,none,false,.lblank⟩⟩] (.node .leaf 106280558661 [⟨⟨.code,[114],.lcode,false,[],false⟩,false,false,[some (101,(.other,false)),some (256,(.other,false))],none,none,none,false,false,false,none,false,⟨.lcode,none,false,.lblank⟩⟩] .leaf)) 106283300492 [⟨⟨.code,[64,82],.lcode,false,[],false⟩,false,false,[some (101,(.other,false)),some (101,(.other,false))],none,none,none,false,false,false,none,false,⟨.lcode,none,false,.lblank⟩⟩] (.node (.node .leaf 106284480236 [⟨⟨.code,[64,114],.lcode,false,[],false⟩,false,false,[some (101,(.other,false)),some (101,(.other,false))],none,none,none,false,false,false,none,false,⟨.lcode,none,false,.lblank⟩⟩] .leaf) 106309300570 [⟨⟨.code,[64,82],.lcode,false,[],false⟩,false,false,[some (101,(.other,false)),some (114,(.other,false))],none,none,none,false,false,false,none,false,⟨.lcode,none,false,.lblank⟩⟩] .leaf))) 106310480314 [⟨⟨.code,[64,114],.lcode,false,[],false⟩,false,false,[some (101,(.other,false)),some (114,(.other,false))],none,none,none,false,false,false,none,false,⟨.lcode,none,false,.lblank⟩⟩] (.node (.node (.node (.node .leaf 106318015533 [⟨⟨.code,[82],.lblank,false,[],false⟩,false,false,[some (101,(.other,false)),some (256,(.other,false))],none,none,none,false,false,false,none,false,⟨.lcode,none,false,.lblank⟩⟩] .leaf) 106319195277 [⟨⟨.code,[114],.lblank,false,[],false⟩,false,false,[some (101,(.other,false)),some (256,(.other,false))],none,none,none,false,false,false,none,false,⟨.lcode,none,false,.lblank⟩⟩] (.node .leaf 106593301422 [⟨⟨.code,[64,82],.lcode,false,[],false⟩,false,false,[some (101,(.other,false)),some (256,(.other,false))],none,none,none,false,false,false,none,false,⟨.lcode,none,false,.lblank⟩⟩] .leaf)) 106594481166 [⟨⟨.code,[64,114],.lcode,false,[],false⟩,false,false,[some (101,(.other,false)),some (256,(.other,false))],none,none,none,false,false,false,none,false,⟨.lcode,none,false,.lblank⟩⟩] (.node (.node .leaf 111160696636 [⟨⟨.code,[64,82],.lblank,false,[],false⟩,false,false,[some (101,(.other,false)),some (9,(.ws,false))],none,none,none,false,false,false,none,false,⟨.lcode,none,false,.lblank⟩⟩] .leaf) 111161876380 [⟨⟨.code,[64,114],.lblank,false,[],false⟩,false,false,[some (101,(.other,false)),some (9,(.ws,false))],none,none,none,false,false,false,none,false,⟨.lcode,none,false,.lblank⟩⟩] (.node .leaf 111162696642 [⟨⟨.code,[64,82],.lblank,false,[],false⟩,false,false,[some (101,(.other,false)),some (10,(.lf,false))],none,none,none,false,false,false,none,false,⟨.lcode,none,false,.lblank⟩⟩] .leaf))) 111163876386 [⟨⟨.code,[64,114],.lblank,false,[],false⟩,false,false,[some (101,(.other,false)),some (10,(.lf,false))],none,none,none,false,false,false,none,false,⟨.lcode,none,false,.lblank⟩⟩] (.node (.node (.node .leaf 111166696654 [⟨⟨.code,[64,82],.lblank,false,[],false⟩,false,false,[some (101,(.other,false)),some (12,(.ff,false))],none,none,none,false,false,false,none,false,⟨.lcode,none,false,.lblank⟩⟩] .leaf) 111167876398 [⟨⟨.code,[64,114],.lblank,false,[],false⟩,false,false,[some (101,(.other,false)),some (12,(.ff,false))],none,none,none,false,false,false,none,false,⟨.lcode,none,false,.lblank⟩⟩] (.node .leaf 111168696660 [⟨⟨.code,[64,82],.lblank,false,[],false⟩,false,false,[some (101,(.other,false)),some (13,(.cr,false))],none,none,none,false,false,false,none,false,⟨.lcode,none,false,.lblank⟩⟩] .leaf)) 111169696663 [⟨⟨.code,[64,82],.lblank,false,[],false⟩,false,false,[some (101,(.other,false)),some (13,(.cr,true))],none,none,none,false,false,false,none,false,⟨.lcode,none,false,.lblank⟩⟩] (.node (.node .leaf 111169876404 [⟨⟨.code,[64,114],.lblank,false,[],false⟩,false,false,[some (101,(.other,false)),some (13,(.cr,false))],none,none,none,false,false,false,none,false,⟨.lcode,none,false,.lblank⟩⟩] .leaf) 111170876407 [⟨⟨.code,[64,114],.lblank,false,[],false⟩,false,false,[some (101,(.other,false)),some (13,(.cr,true))],none,none,none,false,false,false,none,false,⟨.lcode,none,false,.lblank⟩⟩] .leaf)))) 111258696930 [⟨⟨.code,[64,82],.lblank,false,[],false⟩,false,false,[some (101,(.other,false)),some (58,(.other,false))],none,none,none,false,false,false,none,false,⟨.lcode,none,false,.lblank⟩⟩] (.node (.node (.node (.node (.node .leaf 111259876674 [⟨⟨.code,[64,114],.lblank,false,[],false⟩,false,false,[some (101,(.other,false)),some (58,(.other,false))],none,none,none,false,false,false,none,false,⟨.lcode,none,false,.lblank⟩⟩] .leaf) 111270696966 [⟨⟨.code,[64,82],.lblank,false,[],false⟩,false,false,[some (101,(.other,false)),some (64,(.other,false))],none,none,none,false,false,false,none,false,⟨.lcode,none,false,.lblank⟩⟩] (.node .leaf 111271876710 [⟨⟨.code,[64,114],.lblank,false,[],false⟩,false,false,[some (101,(.other,false)),some (64,(.other,false))],none,none,none,false,false,false,none,false,⟨.lcode,none,false,.lblank⟩⟩] .leaf)) 111280696996 [⟨⟨.code,[64,82],.lblank,false,[],false⟩,false,false,[some (101,(.other,false)),some (69,(.other,false))],none,none,none,false,false,false,none,false,⟨.lcode,none,false,.lblank⟩⟩] (.node (.node .leaf 111281876740 [⟨⟨.code,[64,114],.lblank,false,[],false⟩,false,false,[some (101,(.other,false)),some (69,(.other,false))],none,none,none,false,false,false,none,false,⟨.lcode,none,false,.lblank⟩⟩] .leaf) 111306697074 [⟨⟨.code,[64,82],.lblank,false,[],false⟩,false,false,[some (101,(.other,false)),some (82,(.other,false))],none,none,none,false,false,false,none,false,⟨.lcode,none,false,.lblank⟩⟩] (.node .leaf 111307876818 [⟨⟨.code,[64,114],.lblank,false,[],false⟩,false,false,[some (101,(.other,false)),some (82,(.other,false))],none,none,none,false,false,false,none,false,⟨.lcode,none,false,.lblank⟩⟩] .leaf))) 111326697134 [⟨⟨.code,[64,82],.lblank,false,[],false⟩,false,false,[some (101,(.other,false)),some (92,(.other,false))],none,none,none,false,false,false,none,false,⟨.lcode,none,false,.lblank⟩⟩] (.node (.node (.node .leaf 111327876878 [⟨⟨.code,[64,114],.lblank,false,[],false⟩,false,false,[some (101,(.other,false)),some (92,(.other,false))],none,none,none,false,false,false,none,false,⟨.lcode,none,false,.lblank⟩⟩] .leaf) 111344697188 [⟨⟨.code,[64,82],.lblank,false,[],false⟩,false,false,[some (101,(.other,false)),some (101,(.other,false))],none,none,none,false,false,false,none,false,⟨.lcode,none,false,.lblank⟩⟩] (.node .leaf 111345876932 [⟨⟨.code,[64,114],.lblank,false,[],false⟩,false,false,[some (101,(.other,false)),some (101,(.other,false))],none,none,none,false,false,false,none,false,⟨.lcode,none,false,.lblank⟩⟩] .leaf)) 111370697266 [⟨⟨.code,[64,82],.lblank,false,[],false⟩,false,false,[some (101,(.other,false)),some (114,(.other,false))],none,none,none,false,false,false,none,false,⟨.lcode,none,false,.lblank⟩⟩] (.node (.node .leaf 111371877010 [⟨⟨.code,[64,114],.lblank,false,[],false⟩,false,false,[some (101,(.other,false)),some (114,(.other,false))],none,none,none,false,false,false,none,false,⟨.lcode,none,false,.lblank⟩⟩] .leaf) 111654698118 [⟨⟨.code,[64,82],.lblank,false,[],false⟩,false,false,[some (101,(.other,false)),some (256,(.other,false))],none,none,none,false,false,false,none,false,⟨.lcode,none,false,.lblank⟩⟩] .leaf))) 111655877862 [⟨⟨.code,[64,114],.lblank,false,[],false⟩,false,false,[some (101,(.other,false)),some (256,(.other,false))],none,none,none,false,false,false,none,false,⟨.lcode,none,false,.lblank⟩⟩] (.node (.node (.node (.node .leaf 119330754467 [⟨⟨.code,[64],.lcode,false,[],false⟩,false,false,[some (114,(.other,false)),some (9,(.ws,false))],none,none,none,false,false,false,none,false,⟨.lcode,none,false,.lblank⟩⟩] .leaf) 119332754473 [⟨⟨.code,[64],.lcode,false,[],false⟩,false,false,[some (114,(.other,false)),some (10,(.lf,false))],none,none,none,false,false,false,none,false,⟨.lcode,none,false,.lblank⟩⟩] (.node .leaf 119336754485 [⟨⟨.code,[64],.lcode,false,[],false⟩,false,false,[some (114,(.other,false)),some (12,(.ff,false))],none,none,none,false,false,false,none,false,⟨.lcode,none,false,.lblank⟩⟩] .leaf)) 119338754491 [⟨⟨.code,[64],.lcode,false,[],false⟩,false,false,[some (114,(.other,false)),some (13,(.cr,false))],none,none,none,false,false,false,none,false,⟨.lcode,none,false,.lblank⟩⟩] (.node (.node .leaf 119339754494 [⟨⟨.code,[64],.lcode,false,[],false⟩,false,false,[some (114,(.other,false)),some (13,(.cr,true))],none,none,none,false,false,false,none,false,⟨.lcode,none,false,.lblank⟩⟩] .leaf) 119369391083 [⟨⟨.code,[64],.lblank,false,[],false⟩,false,false,[some (114,(.other,false)),some (9,(.ws,false))],none,none,none,false,false,false,none,false,⟨.lcode,none,false,.lblank⟩⟩] (.node .leaf 119371391089 [⟨⟨.code,[64],.lblank,false,[],false⟩,false,false,[some (114,(.other,false)),some (10,(.lf,false))],none,none,none,false,false,false,none,false,⟨.lcode,none,false,.lblank⟩⟩] .leaf))) 119375391101 [⟨⟨.code,[64],.lblank,false,[],false⟩,false,false,[some (114,(.other,false)),some (12,(.ff,false))],none,none,none,false,false,false,none,false,⟨.lcode,none,false,.lblank⟩⟩] (.node (.node (.node .leaf 119377391107 [⟨⟨.code,[64],.lblank,false,[],false⟩,false,false,[some (114,(.other,false)),some (13,(.cr,false))],none,none,none,false,false,false,none,false,⟨.lcode,none,false,.lblank⟩⟩] .leaf) 119378391110 [⟨⟨.code,[64],.lblank,false,[],false⟩,false,false,[some (114,(.other,false)),some (13,(.cr,true))],none,none,none,false,false,false,none,false,⟨.lcode,none,false,.lblank⟩⟩] (.node .leaf 119428754761 [⟨⟨.code,[64],.lcode,false,[],false⟩,false,false,[some (114,(.other,false)),some (58,(.other,false))],none,none,none,false,false,false,none,false,⟨.lcode,none,false,.lblank⟩⟩] .leaf)) 119440754797 [⟨⟨.code,[64],.lcode,false,[],false⟩,false,false,[some (114,(.other,false)),some (64,(.other,false))],none,none,none,false,false,false,none,false,⟨.lcode,none,false,.lblank⟩⟩] (.node (.node .leaf 119466754875 [⟨⟨.code,[64],.lcode,false,[],false⟩,false,false,[some (114,(.other,false)),some (77,(.other,false))],none,none,none,false,false,false,none,false,⟨.lcode,none,false,.lblank⟩⟩] .leaf) 119467391377 [⟨⟨.code,[64],.lblank,false,[],false⟩,false,false,[some (114,(.other,false)),some (58,(.other,false))],none,none,none,false,false,false,none,false,⟨.lcode,none,false,.lblank⟩⟩] .leaf))))) 119476754905 [⟨⟨.code,[64],.lcode,false,[],false⟩,false,false,[some (114,(.other,false)),some (82,(.other,false))],none,none,none,false,false,false,none,false,⟨.lcode,none,false,.lblank⟩⟩] (.node (.node (.node (.node (.node (.node .leaf 119479391413 [⟨⟨.code,[64],.lblank,false,[],false⟩,false,false,[some (114,(.other,false)),some (64,(.other,false))],none,none,none,false,false,false,none,false,⟨.lcode,none,false,.lblank⟩⟩] .leaf) 119496754965 [⟨⟨.code,[64],.lcode,false,[],false⟩,false,false,[some (114,(.other,false)),some (92,(.other,false))],none,none,none,false,false,false,none,false,⟨.lcode,none,false,.lblank⟩⟩] (.node .leaf 119505391491 [⟨⟨.code,[64],.lblank,false,[],false⟩,false,false,[some (114,(.other,false)),some (77,(.other,false))],none,none,none,false,false,false,none,false,⟨.lcode,none,false,.lblank⟩⟩] .leaf)) 119515391521 [⟨⟨.code,[64],.lblank,false,[],false⟩,false,false,[some (114,(.other,false)),some (82,(.other,false))],none,none,none,false,false,false,none,false,⟨.lcode,none,false,.lblank⟩⟩] (.node (.node .leaf 119530755067 [⟨⟨.code,[64],.lcode,false,[],false⟩,false,false,[some (114,(.other,false)),some (109,(.other,false))],none,none,none,false,false,false,none,false,⟨.lcode,none,false,.lblank⟩⟩] .leaf) 119535391581 [⟨⟨.code,[64],.lblank,false,[],false⟩,false,false,[some (114,(.other,false)),some (92,(.other,false))],none,none,none,false,false,false,none,false,⟨.lcode,none,false,.lblank⟩⟩] (.node .leaf 119540755097 [⟨⟨.code,[64],.lcode,false,[],false⟩,false,false,[some (114,(.other,false)),some (114,(.other,false))],none,none,none,false,false,false,none,false,⟨.lcode,none,false,.lblank⟩⟩] .leaf))) 119569391683 [⟨⟨.code,[64],.lblank,false,[],false⟩,false,false,[some (114,(.other,false)),some (109,(.other,false))],none,none,none,false,false,false,none,false,⟨.lcode,none,false,.lblank⟩⟩] (.node (.node (.node .leaf 119579391713 [⟨⟨.code,[64],.lblank,false,[],false⟩,false,false,[some (114,(.other,false)),some (114,(.other,false))],none,none,none,false,false,false,none,false,⟨.lcode,none,false,.lblank⟩⟩] .leaf) 119824755949 [⟨⟨.code,[64],.lcode,false,[],false⟩,false,false,[some (114,(.other,false)),some (256,(.other,false))],none,none,none,false,false,false,none,false,⟨.lcode,none,false,.lblank⟩⟩] (.node .leaf 119863392565 [⟨⟨.code,[64],.lblank,false,[],false⟩,false,false,[some (114,(.other,false)),some (256,(.other,false))],none,none,none,false,false,false,none,false,⟨.lcode,none,false,.lblank⟩⟩] .leaf)) 602732204667 [⟨⟨.code,[64],.lcode,false,[],false⟩,false,false,[some (82,(.other,false)),some (69,(.other,false)),none],none,none,none,false,false,false,none,false,⟨.lcode,none,false,.lblank⟩⟩] (.node (.node .leaf 602770841283 [⟨⟨.code,[64],.lblank,false,[],false⟩,false,false,[some (82,(.other,false)),some (69,(.other,false)),none],none,none,none,false,false,false,none,false,⟨.lcode,none,false,.lblank⟩⟩] .leaf) 603180206011 [⟨⟨.code,[64],.lcode,false,[],false⟩,false,false,[some (82,(.other,false)),some (101,(.other,false)),none],none,none,none,false,false,false,none,false,⟨.lcode,none,false,.lblank⟩⟩] .leaf))) 603218842627 [⟨⟨.code,[64],.lblank,false,[],false⟩,false,false,[some (82,(.other,false)),some (101,(.other,false)),none],none,none,none,false,false,false,none,false,⟨.lcode,none,false,.lblank⟩⟩] (.node (.node (.node (.node .leaf 704570251040 [⟨⟨.code,[64,82,69],.lblank,false,[],false⟩,false,false,[none],none,none,none,false,false,false,none,false,⟨.lcode,none,false,.lblank⟩⟩] .leaf) 704571430784 [⟨⟨.code,[64,82,101],.lblank,false,[],false⟩,false,false,[none],none,none,none,false,false,false,none,false,⟨.lcode,none,false,.lblank⟩⟩] (.node .leaf 704589251097 [⟨⟨.code,[64,82,69],.lblank,false,[],false⟩,false,false,[some (9,(.ws,false))],none,none,none,false,false,false,none,false,⟨.lcode,none,false,.lblank⟩⟩] .leaf)) 704590430841 [⟨⟨.code,[64,82,101],.lblank,false,[],false⟩,false,false,[some (9,(.ws,false))],none,none,none,false,false,false,none,false,⟨.lcode,none,false,.lblank⟩⟩] (.node (.node .leaf 704591251103 [⟨⟨.code,[64,82,69],.lblank,false,[],false⟩,false,false,[some (10,(.lf,false))],none,none,none,false,false,false,none,false,⟨.lcode,none,false,.lblank⟩⟩] .leaf) 704592430847 [⟨⟨.code,[64,82,101],.lblank,false,[],false⟩,false,false,[some (10,(.lf,false))],none,none,none,false,false,false,none,false,⟨.lcode,none,false,.lblank⟩⟩] (.node .leaf 704595251115 [⟨⟨.code,[64,82,69],.lblank,false,[],false⟩,false,false,[some (12,(.ff,false))],none,none,none,false,false,false,none,false,⟨.lcode,none,false,.lblank⟩⟩] .leaf))) 704596430859 [⟨⟨.code,[64,82,101],.lblank,false,[],false⟩,false,false,[some (12,(.ff,false))],none,none,none,false,false,false,none,false,⟨.lcode,none,false,.lblank⟩⟩] (.node (.node (.node .leaf 704597251121 [⟨⟨.code,[64,82,69],.lblank,false,[],false⟩,false,false,[some (13,(.cr,false))],none,none,none,false,false,false,none,false,⟨.lcode,none,false,.lblank⟩⟩] .leaf) 704598251124 [⟨⟨.code,[64,82,69],.lblank,false,[],false⟩,false,false,[some (13,(.cr,true))],none,none,none,false,false,false,none,false,⟨.lcode,none,false,.lblank⟩⟩] (.node .leaf 704598430865 [⟨⟨.code,[64,82,101],.lblank,false,[],false⟩,false,false,[some (13,(.cr,false))],none,none,none,false,false,false,none,false,⟨.lcode,none,false,.lblank⟩⟩] .leaf)) 704599430868 [⟨⟨.code,[64,82,101],.lblank,false,[],false⟩,false,false,[some (13,(.cr,true))],none,none,none,false,false,false,none,false,⟨.lcode,none,false,.lblank⟩⟩] (.node (.node .leaf 704687251391 [⟨⟨.code,[64,82,69],.lblank,false,[],false⟩,false,false,[some (58,(.other,false))],none,none,none,false,false,false,none,false,⟨.lcode,none,false,.lblank⟩⟩] .leaf) 704688431135 [⟨⟨.code,[64,82,101],.lblank,false,[],false⟩,false,false,[some (58,(.other,false))],none,none,none,false,false,false,none,false,⟨.lcode,none,false,.lblank⟩⟩] .leaf)))) 704699251427 [⟨⟨.code,[64,82,69],.lblank,false,[],false⟩,false,false,[some (64,(.other,false))],none,none,none,false,false,false,none,false,⟨.lcode,none,false,.lblank⟩⟩] (.node (.node (.node (.node (.node .leaf 704700431171 [⟨⟨.code,[64,82,101],.lblank,false,[],false⟩,false,false,[some (64,(.other,false))],none,none,none,false,false,false,none,false,⟨.lcode,none,false,.lblank⟩⟩] .leaf) 704709251457 [⟨⟨.code,[64,82,69],.lblank,false,[],false⟩,false,false,[some (69,(.other,false))],none,none,none,false,false,false,none,false,⟨.lcode,none,false,.lblank⟩⟩] (.node .leaf 704710431201 [⟨⟨.code,[64,82,101],.lblank,false,[],false⟩,false,false,[some (69,(.other,false))],none,none,none,false,false,false,none,false,⟨.lcode,none,false,.lblank⟩⟩] .leaf)) 704724797504 [⟨⟨.code,[64,114,69],.lblank,false,[],false⟩,false,false,[none],none,none,none,false,false,false,none,false,⟨.lcode,none,false,.lblank⟩⟩] (.node (.node .leaf 704725977248 [⟨⟨.code,[64,114,101],.lblank,false,[],false⟩,false,false,[none],none,none,none,false,false,false,none,false,⟨.lcode,none,false,.lblank⟩⟩] .leaf) 704735251535 [⟨⟨.code,[64,82,69],.lblank,false,[],false⟩,false,false,[some (82,(.other,false))],none,none,none,false,false,false,none,false,⟨.lcode,none,false,.lblank⟩⟩] (.node .leaf 704736431279 [⟨⟨.code,[64,82,101],.lblank,false,[],false⟩,false,false,[some (82,(.other,false))],none,none,none,false,false,false,none,false,⟨.lcode,none,false,.lblank⟩⟩] .leaf))) 704743797561 [⟨⟨.code,[64,114,69],.lblank,false,[],false⟩,false,false,[some (9,(.ws,false))],none,none,none,false,false,false,none,false,⟨.lcode,none,false,.lblank⟩⟩] (.node (.node (.node .leaf 704744977305 [⟨⟨.code,[64,114,101],.lblank,false,[],false⟩,false,false,[some (9,(.ws,false))],none,none,none,false,false,false,none,false,⟨.lcode,none,false,.lblank⟩⟩] .leaf) 704745797567 [⟨⟨.code,[64,114,69],.lblank,false,[],false⟩,false,false,[some (10,(.lf,false))],none,none,none,false,false,false,none,false,⟨.lcode,none,false,.lblank⟩⟩] (.node .leaf 704746977311 [⟨⟨.code,[64,114,101],.lblank,false,[],false⟩,false,false,[some (10,(.lf,false))],none,none,none,false,false,false,none,false,⟨.lcode,none,false,.lblank⟩⟩] .leaf)) 704749797579 [⟨⟨.code,[64,114,69],.lblank,false,[],false⟩,false,false,[some (12,(.ff,false))],none,none,none,false,false,false,none,false,⟨.lcode,none,false,.lblank⟩⟩] (.node (.node .leaf 704750977323 [⟨⟨.code,[64,114,101],.lblank,false,[],false⟩,false,false,[some (12,(.ff,false))],none,none,none,false,false,false,none,false,⟨.lcode,none,false,.lblank⟩⟩] .leaf) 704751797585 [⟨⟨.code,[64,114,69],.lblank,false,[],false⟩,false,false,[some (13,(.cr,false))],none,none,none,false,false,false,none,false,⟨.lcode,none,false,.lblank⟩⟩] .leaf))) 704752797588 [⟨⟨.code,[64,114,69],.lblank,false,[],false⟩,false,false,[some (13,(.cr,true))],none,none,none,false,false,false,none,false,⟨.lcode,none,false,.lblank⟩⟩] (.node (.node (.node (.node .leaf 704752977329 [⟨⟨.code,[64,114,101],.lblank,false,[],false⟩,false,false,[some (13,(.cr,false))],none,none,none,false,false,false,none,false,⟨.lcode,none,false,.lblank⟩⟩] .leaf) 704753977332 [⟨⟨.code,[64,114,101],.lblank,false,[],false⟩,false,false,[some (13,(.cr,true))],none,none,none,false,false,false,none,false,⟨.lcode,none,false,.lblank⟩⟩] (.node .leaf 704755251595 [⟨⟨.code,[64,82,69],.lblank,false,[],false⟩,false,false,[some (92,(.other,false))],none,none,none,false,false,false,none,false,⟨.lcode,none,false,.lblank⟩⟩] .leaf)) 704756431339 [⟨⟨.code,[64,82,101],.lblank,false,[],false⟩,false,false,[some (92,(.other,false))],none,none,none,false,false,false,none,false,⟨.lcode,none,false,.lblank⟩⟩] (.node (.node .leaf 704773251649 [⟨⟨.code,[64,82,69],.lblank,false,[],false⟩,false,false,[some (101,(.other,false))],none,none,none,false,false,false,none,false,⟨.lcode,none,false,.lblank⟩⟩] .leaf) 704774431393 [⟨⟨.code,[64,82,101],.lblank,false,[],false⟩,false,false,[some (101,(.other,false))],none,none,none,false,false,false,none,false,⟨.lcode,none,false,.lblank⟩⟩] (.node .leaf 704799251727 [⟨⟨.code,[64,82,69],.lblank,false,[],false⟩,false,false,[some (114,(.other,false))],none,none,none,false,false,false,none,false,⟨.lcode,none,false,.lblank⟩⟩] .leaf))) 704800431471 [⟨⟨.code,[64,82,101],.lblank,false,[],false⟩,false,false,[some (114,(.other,false))],none,none,none,false,false,false,none,false,⟨.lcode,none,false,.lblank⟩⟩] (.node (.node (.node .leaf 704841797855 [⟨⟨.code,[64,114,69],.lblank,false,[],false⟩,false,false,[some (58,(.other,false))],none,none,none,false,false,false,none,false,⟨.lcode,none,false,.lblank⟩⟩] .leaf) 704842977599 [⟨⟨.code,[64,114,101],.lblank,false,[],false⟩,false,false,[some (58,(.other,false))],none,none,none,false,false,false,none,false,⟨.lcode,none,false,.lblank⟩⟩] (.node .leaf 704853797891 [⟨⟨.code,[64,114,69],.lblank,false,[],false⟩,false,false,[some (64,(.other,false))],none,none,none,false,false,false,none,false,⟨.lcode,none,false,.lblank⟩⟩] .leaf)) 704854977635 [⟨⟨.code,[64,114,101],.lblank,false,[],false⟩,false,false,[some (64,(.other,false))],none,none,none,false,false,false,none,false,⟨.lcode,none,false,.lblank⟩⟩] (.node (.node .leaf 704863797921 [⟨⟨.code,[64,114,69],.lblank,false,[],false⟩,false,false,[some (69,(.other,false))],none,none,none,false,false,false,none,false,⟨.lcode,none,false,.lblank⟩⟩] .leaf) 704864977665 [⟨⟨.code,[64,114,101],.lblank,false,[],false⟩,false,false,[some (69,(.other,false))],none,none,none,false,false,false,none,false,⟨.lcode,none,false,.lblank⟩⟩] .leaf)))))) 704889797999 [⟨⟨.code,[64,114,69],.lblank,false,[],false⟩,false,false,[some (82,(.other,false))],none,none,none,false,false,false,none,false,⟨.lcode,none,false,.lblank⟩⟩] (.node (.node (.node (.node (.node (.node (.node .leaf 704890977743 [⟨⟨.code,[64,114,101],.lblank,false,[],false⟩,false,false,[some (82,(.other,false))],none,none,none,false,false,false,none,false,⟨.lcode,none,false,.lblank⟩⟩] .leaf) 704909798059 [⟨⟨.code,[64,114,69],.lblank,false,[],false⟩,false,false,[some (92,(.other,false))],none,none,none,false,false,false,none,false,⟨.lcode,none,false,.lblank⟩⟩] (.node .leaf 704910977803 [⟨⟨.code,[64,114,101],.lblank,false,[],false⟩,false,false,[some (92,(.other,false))],none,none,none,false,false,false,none,false,⟨.lcode,none,false,.lblank⟩⟩] .leaf)) 704927798113 [⟨⟨.code,[64,114,69],.lblank,false,[],false⟩,false,false,[some (101,(.other,false))],none,none,none,false,false,false,none,false,⟨.lcode,none,false,.lblank⟩⟩] (.node (.node .leaf 704928977857 [⟨⟨.code,[64,114,101],.lblank,false,[],false⟩,false,false,[some (101,(.other,false))],none,none,none,false,false,false,none,false,⟨.lcode,none,false,.lblank⟩⟩] .leaf) 704953798191 [⟨⟨.code,[64,114,69],.lblank,false,[],false⟩,false,false,[some (114,(.other,false))],none,none,none,false,false,false,none,false,⟨.lcode,none,false,.lblank⟩⟩] (.node .leaf 704954977935 [⟨⟨.code,[64,114,101],.lblank,false,[],false⟩,false,false,[some (114,(.other,false))],none,none,none,false,false,false,none,false,⟨.lcode,none,false,.lblank⟩⟩] .leaf))) 705083252579 [⟨⟨.code,[64,82,69],.lblank,false,[],false⟩,false,false,[some (256,(.other,false))],none,none,none,false,false,false,none,false,⟨.lcode,none,false,.lblank⟩⟩] (.node (.node (.node .leaf 705084432323 [⟨⟨.code,[64,82,101],.lblank,false,[],false⟩,false,false,[some (256,(.other,false))],none,none,none,false,false,false,none,false,⟨.lcode,none,false,.lblank⟩⟩] .leaf) 705237799043 [⟨⟨.code,[64,114,69],.lblank,false,[],false⟩,false,false,[some (256,(.other,false))],none,none,none,false,false,false,none,false,⟨.lcode,none,false,.lblank⟩⟩] (.node .leaf 705238978787 [⟨⟨.code,[64,114,101],.lblank,false,[],false⟩,false,false,[some (256,(.other,false))],none,none,none,false,false,false,none,false,⟨.lcode,none,false,.lblank⟩⟩] .leaf)) 836140904891 [⟨⟨.code,[64],.lcode,false,[],false⟩,false,false,[some (114,(.other,false)),some (69,(.other,false)),none],none,none,none,false,false,false,none,false,⟨.lcode,none,false,.lblank⟩⟩] (.node (.node .leaf 836179541507 [⟨⟨.code,[64],.lblank,false,[],false⟩,false,false,[some (114,(.other,false)),some (69,(.other,false)),none],none,none,none,false,false,false,none,false,⟨.lcode,none,false,.lblank⟩⟩] .leaf) 836588906235 [⟨⟨.code,[64],.lcode,false,[],false⟩,false,false,[some (114,(.other,false)),some (101,(.other,false)),none],none,none,none,false,false,false,none,false,⟨.lcode,none,false,.lblank⟩⟩] .leaf))) 836627542851 [⟨⟨.code,[64],.lblank,false,[],false⟩,false,false,[some (114,(.other,false)),some (101,(.other,false)),none],none,none,none,false,false,false,none,false,⟨.lcode,none,false,.lblank⟩⟩] (.node (.node (.node (.node .leaf 44860339977092 [⟨⟨.code,[64],.lcode,false,[],false⟩,false,false,[some (82,(.other,false)),some (69,(.other,false)),some (9,(.ws,false))],none,none,none,false,false,false,none,false,⟨.lcode,none,false,.lblank⟩⟩] .leaf) 44860341977098 [⟨⟨.code,[64],.lcode,false,[],false⟩,false,false,[some (82,(.other,false)),some (69,(.other,false)),some (10,(.lf,false))],none,none,none,false,false,false,none,false,⟨.lcode,none,false,.lblank⟩⟩] (.node .leaf 44860345977110 [⟨⟨.code,[64],.lcode,false,[],false⟩,false,false,[some (82,(.other,false)),some (69,(.other,false)),some (12,(.ff,false))],none,none,none,false,false,false,none,false,⟨.lcode,none,false,.lblank⟩⟩] .leaf)) 44860347977116 [⟨⟨.code,[64],.lcode,false,[],false⟩,false,false,[some (82,(.other,false)),some (69,(.other,false)),some (13,(.cr,false))],none,none,none,false,false,false,none,false,⟨.lcode,none,false,.lblank⟩⟩] (.node (.node .leaf 44860348977119 [⟨⟨.code,[64],.lcode,false,[],false⟩,false,false,[some (82,(.other,false)),some (69,(.other,false)),some (13,(.cr,true))],none,none,none,false,false,false,none,false,⟨.lcode,none,false,.lblank⟩⟩] .leaf) 44860378613708 [⟨⟨.code,[64],.lblank,false,[],false⟩,false,false,[some (82,(.other,false)),some (69,(.other,false)),some (9,(.ws,false))],none,none,none,false,false,false,none,false,⟨.lcode,none,false,.lblank⟩⟩] (.node .leaf 44860380613714 [⟨⟨.code,[64],.lblank,false,[],false⟩,false,false,[some (82,(.other,false)),some (69,(.other,false)),some (10,(.lf,false))],none,none,none,false,false,false,none,false,⟨.lcode,none,false,.lblank⟩⟩] .leaf))) 44860384613726 [⟨⟨.code,[64],.lblank,false,[],false⟩,false,false,[some (82,(.other,false)),some (69,(.other,false)),some (12,(.ff,false))],none,none,none,false,false,false,none,false,⟨.lcode,none,false,.lblank⟩⟩] (.node (.node (.node .leaf 44860386613732 [⟨⟨.code,[64],.lblank,false,[],false⟩,false,false,[some (82,(.other,false)),some (69,(.other,false)),some (13,(.cr,false))],none,none,none,false,false,false,none,false,⟨.lcode,none,false,.lblank⟩⟩] .leaf) 44860387613735 [⟨⟨.code,[64],.lblank,false,[],false⟩,false,false,[some (82,(.other,false)),some (69,(.other,false)),some (13,(.cr,true))],none,none,none,false,false,false,none,false,⟨.lcode,none,false,.lblank⟩⟩] (.node .leaf 44860437977386 [⟨⟨.code,[64],.lcode,false,[],false⟩,false,false,[some (82,(.other,false)),some (69,(.other,false)),some (58,(.other,false))],none,none,none,false,false,false,none,false,⟨.lcode,none,false,.lblank⟩⟩] .leaf)) 44860449977422 [⟨⟨.code,[64],.lcode,false,[],false⟩,false,false,[some (82,(.other,false)),some (69,(.other,false)),some (64,(.other,false))],none,none,none,false,false,false,none,false,⟨.lcode,none,false,.lblank⟩⟩] (.node (.node .leaf 44860459977452 [⟨⟨.code,[64],.lcode,false,[],false⟩,false,false,[some (82,(.other,false)),some (69,(.other,false)),some (69,(.other,false))],none,none,none,false,false,false,none,false,⟨.lcode,none,false,.lblank⟩⟩] .leaf) 44860476614002 [⟨⟨.code,[64],.lblank,false,[],false⟩,false,false,[some (82,(.other,false)),some (69,(.other,false)),some (58,(.other,false))],none,none,none,false,false,false,none,false,⟨.lcode,none,false,.lblank⟩⟩] .leaf)))) 44860485977530 [⟨⟨.code,[64],.lcode,false,[],false⟩,false,false,[some (82,(.other,false)),some (69,(.other,false)),some (82,(.other,false))],none,none,none,false,false,false,none,false,⟨.lcode,none,false,.lblank⟩⟩] (.node (.node (.node (.node (.node .leaf 44860488614038 [⟨⟨.code,[64],.lblank,false,[],false⟩,false,false,[some (82,(.other,false)),some (69,(.other,false)),some (64,(.other,false))],none,none,none,false,false,false,none,false,⟨.lcode,none,false,.lblank⟩⟩] .leaf) 44860498614068 [⟨⟨.code,[64],.lblank,false,[],false⟩,false,false,[some (82,(.other,false)),some (69,(.other,false)),some (69,(.other,false))],none,none,none,false,false,false,none,false,⟨.lcode,none,false,.lblank⟩⟩] (.node .leaf 44860505977590 [⟨⟨.code,[64],.lcode,false,[],false⟩,false,false,[some (82,(.other,false)),some (69,(.other,false)),some (92,(.other,false))],none,none,none,false,false,false,none,false,⟨.lcode,none,false,.lblank⟩⟩] .leaf)) 44860523977644 [⟨⟨.code,[64],.lcode,false,[],false⟩,false,false,[some (82,(.other,false)),some (69,(.other,false)),some (101,(.other,false))],none,none,none,false,false,false,none,false,⟨.lcode,none,false,.lblank⟩⟩] (.node (.node .leaf 44860524614146 [⟨⟨.code,[64],.lblank,false,[],false⟩,false,false,[some (82,(.other,false)),some (69,(.other,false)),some (82,(.other,false))],none,none,none,false,false,false,none,false,⟨.lcode,none,false,.lblank⟩⟩] .leaf) 44860544614206 [⟨⟨.code,[64],.lblank,false,[],false⟩,false,false,[some (82,(.other,false)),some (69,(.other,false)),some (92,(.other,false))],none,none,none,false,false,false,none,false,⟨.lcode,none,false,.lblank⟩⟩] (.node .leaf 44860549977722 [⟨⟨.code,[64],.lcode,false,[],false⟩,false,false,[some (82,(.other,false)),some (69,(.other,false)),some (114,(.other,false))],none,none,none,false,false,false,none,false,⟨.lcode,none,false,.lblank⟩⟩] .leaf))) 44860562614260 [⟨⟨.code,[64],.lblank,false,[],false⟩,false,false,[some (82,(.other,false)),some (69,(.other,false)),some (101,(.other,false))],none,none,none,false,false,false,none,false,⟨.lcode,none,false,.lblank⟩⟩] (.node (.node (.node .leaf 44860588614338 [⟨⟨.code,[64],.lblank,false,[],false⟩,false,false,[some (82,(.other,false)),some (69,(.other,false)),some (114,(.other,false))],none,none,none,false,false,false,none,false,⟨.lcode,none,false,.lblank⟩⟩] .leaf) 44860833978574 [⟨⟨.code,[64],.lcode,false,[],false⟩,false,false,[some (82,(.other,false)),some (69,(.other,false)),some (256,(.other,false))],none,none,none,false,false,false,none,false,⟨.lcode,none,false,.lblank⟩⟩] (.node .leaf 44860872615190 [⟨⟨.code,[64],.lblank,false,[],false⟩,false,false,[some (82,(.other,false)),some (69,(.other,false)),some (256,(.other,false))],none,none,none,false,false,false,none,false,⟨.lcode,none,false,.lblank⟩⟩] .leaf)) 44893684077124 [⟨⟨.code,[64],.lcode,false,[],false⟩,false,false,[some (82,(.other,false)),some (101,(.other,false)),some (9,(.ws,false))],none,none,none,false,false,false,none,false,⟨.lcode,none,false,.lblank⟩⟩] (.node (.node .leaf 44893686077130 [⟨⟨.code,[64],.lcode,false,[],false⟩,false,false,[some (82,(.other,false)),some (101,(.other,false)),some (10,(.lf,false))],none,none,none,false,false,false,none,false,⟨.lcode,none,false,.lblank⟩⟩] .leaf) 44893690077142 [⟨⟨.code,[64],.lcode,false,[],false⟩,false,false,[some (82,(.other,false)),some (101,(.other,false)),some (12,(.ff,false))],none,none,none,false,false,false,none,false,⟨.lcode,none,false,.lblank⟩⟩] .leaf))) 44893692077148 [⟨⟨.code,[64],.lcode,false,[],false⟩,false,false,[some (82,(.other,false)),some (101,(.other,false)),some (13,(.cr,false))],none,none,none,false,false,false,none,false,⟨.lcode,none,false,.lblank⟩⟩] (.node (.node (.node (.node .leaf 44893693077151 [⟨⟨.code,[64],.lcode,false,[],false⟩,false,false,[some (82,(.other,false)),some (101,(.other,false)),some (13,(.cr,true))],none,none,none,false,false,false,none,false,⟨.lcode,none,false,.lblank⟩⟩] .leaf) 44893722713740 [⟨⟨.code,[64],.lblank,false,[],false⟩,false,false,[some (82,(.other,false)),some (101,(.other,false)),some (9,(.ws,false))],none,none,none,false,false,false,none,false,⟨.lcode,none,false,.lblank⟩⟩] (.node .leaf 44893724713746 [⟨⟨.code,[64],.lblank,false,[],false⟩,false,false,[some (82,(.other,false)),some (101,(.other,false)),some (10,(.lf,false))],none,none,none,false,false,false,none,false,⟨.lcode,none,false,.lblank⟩⟩] .leaf)) 44893728713758 [⟨⟨.code,[64],.lblank,false,[],false⟩,false,false,[some (82,(.other,false)),some (101,(.other,false)),some (12,(.ff,false))],none,none,none,false,false,false,none,false,⟨.lcode,none,false,.lblank⟩⟩] (.node (.node .leaf 44893730713764 [⟨⟨.code,[64],.lblank,false,[],false⟩,false,false,[some (82,(.other,false)),some (101,(.other,false)),some (13,(.cr,false))],none,none,none,false,false,false,none,false,⟨.lcode,none,false,.lblank⟩⟩] .leaf) 44893731713767 [⟨⟨.code,[64],.lblank,false,[],false⟩,false,false,[some (82,(.other,false)),some (101,(.other,false)),some (13,(.cr,true))],none,none,none,false,false,false,none,false,⟨.lcode,none,false,.lblank⟩⟩] (.node .leaf 44893782077418 [⟨⟨.code,[64],.lcode,false,[],false⟩,false,false,[some (82,(.other,false)),some (101,(.other,false)),some (58,(.other,false))],none,none,none,false,false,false,none,false,⟨.lcode,none,false,.lblank⟩⟩] .leaf))) 44893794077454 [⟨⟨.code,[64],.lcode,false,[],false⟩,false,false,[some (82,(.other,false)),some (101,(.other,false)),some (64,(.other,false))],none,none,none,false,false,false,none,false,⟨.lcode,none,false,.lblank⟩⟩] (.node (.node (.node .leaf 44893804077484 [⟨⟨.code,[64],.lcode,false,[],false⟩,false,false,[some (82,(.other,false)),some (101,(.other,false)),some (69,(.other,false))],none,none,none,false,false,false,none,false,⟨.lcode,none,false,.lblank⟩⟩] .leaf) 44893820714034 [⟨⟨.code,[64],.lblank,false,[],false⟩,false,false,[some (82,(.other,false)),some (101,(.other,false)),some (58,(.other,false))],none,none,none,false,false,false,none,false,⟨.lcode,none,false,.lblank⟩⟩] (.node .leaf 44893830077562 [⟨⟨.code,[64],.lcode,false,[],false⟩,false,false,[some (82,(.other,false)),some (101,(.other,false)),some (82,(.other,false))],none,none,none,false,false,false,none,false,⟨.lcode,none,false,.lblank⟩⟩] .leaf)) 44893832714070 [⟨⟨.code,[64],.lblank,false,[],false⟩,false,false,[some (82,(.other,false)),some (101,(.other,false)),some (64,(.other,false))],none,none,none,false,false,false,none,false,⟨.lcode,none,false,.lblank⟩⟩] (.node (.node .leaf 44893842714100 [⟨⟨.code,[64],.lblank,false,[],false⟩,false,false,[some (82,(.other,false)),some (101,(.other,false)),some (69,(.other,false))],none,none,none,false,false,false,none,false,⟨.lcode,none,false,.lblank⟩⟩] .leaf) 44893850077622 [⟨⟨.code,[64],.lcode,false,[],false⟩,false,false,[some (82,(.other,false)),some (101,(.other,false)),some (92,(.other,false))],none,none,none,false,false,false,none,false,⟨.lcode,none,false,.lblank⟩⟩] .leaf))))) 44893868077676 [⟨⟨.code,[64],.lcode,false,[],false⟩,false,false,[some (82,(.other,false)),some (101,(.other,false)),some (101,(.other,false))],none,none,none,false,false,false,none,false,⟨.lcode,none,false,.lblank⟩⟩] (.node (.node (.node (.node (.node (.node .leaf 44893868714178 [⟨⟨.code,[64],.lblank,false,[],false⟩,false,false,[some (82,(.other,false)),some (101,(.other,false)),some (82,(.other,false))],none,none,none,false,false,false,none,false,⟨.lcode,none,false,.lblank⟩⟩] .leaf) 44893888714238 [⟨⟨.code,[64],.lblank,false,[],false⟩,false,false,[some (82,(.other,false)),some (101,(.other,false)),some (92,(.other,false))],none,none,none,false,false,false,none,false,⟨.lcode,none,false,.lblank⟩⟩] (.node .leaf 44893894077754 [⟨⟨.code,[64],.lcode,false,[],false⟩,false,false,[some (82,(.other,false)),some (101,(.other,false)),some (114,(.other,false))],none,none,none,false,false,false,none,false,⟨.lcode,none,false,.lblank⟩⟩] .leaf)) 44893906714292 [⟨⟨.code,[64],.lblank,false,[],false⟩,false,false,[some (82,(.other,false)),some (101,(.other,false)),some (101,(.other,false))],none,none,none,false,false,false,none,false,⟨.lcode,none,false,.lblank⟩⟩] (.node (.node .leaf 44893932714370 [⟨⟨.code,[64],.lblank,false,[],false⟩,false,false,[some (82,(.other,false)),some (101,(.other,false)),some (114,(.other,false))],none,none,none,false,false,false,none,false,⟨.lcode,none,false,.lblank⟩⟩] .leaf) 44894178078606 [⟨⟨.code,[64],.lcode,false,[],false⟩,false,false,[some (82,(.other,false)),some (101,(.other,false)),some (256,(.other,false))],none,none,none,false,false,false,none,false,⟨.lcode,none,false,.lblank⟩⟩] (.node .leaf 44894216715222 [⟨⟨.code,[64],.lblank,false,[],false⟩,false,false,[some (82,(.other,false)),some (101,(.other,false)),some (256,(.other,false))],none,none,none,false,false,false,none,false,⟨.lcode,none,false,.lblank⟩⟩] .leaf))) 62232616093764 [⟨⟨.code,[64],.lcode,false,[],false⟩,false,false,[some (114,(.other,false)),some (69,(.other,false)),some (9,(.ws,false))],none,none,none,false,false,false,none,false,⟨.lcode,none,false,.lblank⟩⟩] (.node (.node (.node .leaf 62232618093770 [⟨⟨.code,[64],.lcode,false,[],false⟩,false,false,[some (114,(.other,false)),some (69,(.other,false)),some (10,(.lf,false))],none,none,none,false,false,false,none,false,⟨.lcode,none,false,.lblank⟩⟩] .leaf) 62232622093782 [⟨⟨.code,[64],.lcode,false,[],false⟩,false,false,[some (114,(.other,false)),some (69,(.other,false)),some (12,(.ff,false))],none,none,none,false,false,false,none,false,⟨.lcode,none,false,.lblank⟩⟩] (.node .leaf 62232624093788 [⟨⟨.code,[64],.lcode,false,[],false⟩,false,false,[some (114,(.other,false)),some (69,(.other,false)),some (13,(.cr,false))],none,none,none,false,false,false,none,false,⟨.lcode,none,false,.lblank⟩⟩] .leaf)) 62232625093791 [⟨⟨.code,[64],.lcode,false,[],false⟩,false,false,[some (114,(.other,false)),some (69,(.other,false)),some (13,(.cr,true))],none,none,none,false,false,false,none,false,⟨.lcode,none,false,.lblank⟩⟩] (.node (.node .leaf 62232654730380 [⟨⟨.code,[64],.lblank,false,[],false⟩,false,false,[some (114,(.other,false)),some (69,(.other,false)),some (9,(.ws,false))],none,none,none,false,false,false,none,false,⟨.lcode,none,false,.lblank⟩⟩] .leaf) 62232656730386 [⟨⟨.code,[64],.lblank,false,[],false⟩,false,false,[some (114,(.other,false)),some (69,(.other,false)),some (10,(.lf,false))],none,none,none,false,false,false,none,false,⟨.lcode,none,false,.lblank⟩⟩] .leaf))) 62232660730398 [⟨⟨.code,[64],.lblank,false,[],false⟩,false,false,[some (114,(.other,false)),some (69,(.other,false)),some (12,(.ff,false))],none,none,none,false,false,false,none,false,⟨.lcode,none,false,.lblank⟩⟩] (.node (.node (.node (.node .leaf 62232662730404 [⟨⟨.code,[64],.lblank,false,[],false⟩,false,false,[some (114,(.other,false)),some (69,(.other,false)),some (13,(.cr,false))],none,none,none,false,false,false,none,false,⟨.lcode,none,false,.lblank⟩⟩] .leaf) 62232663730407 [⟨⟨.code,[64],.lblank,false,[],false⟩,false,false,[some (114,(.other,false)),some (69,(.other,false)),some (13,(.cr,true))],none,none,none,false,false,false,none,false,⟨.lcode,none,false,.lblank⟩⟩] (.node .leaf 62232714094058 [⟨⟨.code,[64],.lcode,false,[],false⟩,false,false,[some (114,(.other,false)),some (69,(.other,false)),some (58,(.other,false))],none,none,none,false,false,false,none,false,⟨.lcode,none,false,.lblank⟩⟩] .leaf)) 62232726094094 [⟨⟨.code,[64],.lcode,false,[],false⟩,false,false,[some (114,(.other,false)),some (69,(.other,false)),some (64,(.other,false))],none,none,none,false,false,false,none,false,⟨.lcode,none,false,.lblank⟩⟩] (.node (.node .leaf 62232736094124 [⟨⟨.code,[64],.lcode,false,[],false⟩,false,false,[some (114,(.other,false)),some (69,(.other,false)),some (69,(.other,false))],none,none,none,false,false,false,none,false,⟨.lcode,none,false,.lblank⟩⟩] .leaf) 62232752730674 [⟨⟨.code,[64],.lblank,false,[],false⟩,false,false,[some (114,(.other,false)),some (69,(.other,false)),some (58,(.other,false))],none,none,none,false,false,false,none,false,⟨.lcode,none,false,.lblank⟩⟩] (.node .leaf 62232762094202 [⟨⟨.code,[64],.lcode,false,[],false⟩,false,false,[some (114,(.other,false)),some (69,(.other,false)),some (82,(.other,false))],none,none,none,false,false,false,none,false,⟨.lcode,none,false,.lblank⟩⟩] .leaf))) 62232764730710 [⟨⟨.code,[64],.lblank,false,[],false⟩,false,false,[some (114,(.other,false)),some (69,(.other,false)),some (64,(.other,false))],none,none,none,false,false,false,none,false,⟨.lcode,none,false,.lblank⟩⟩] (.node (.node (.node .leaf 62232774730740 [⟨⟨.code,[64],.lblank,false,[],false⟩,false,false,[some (114,(.other,false)),some (69,(.other,false)),some (69,(.other,false))],none,none,none,false,false,false,none,false,⟨.lcode,none,false,.lblank⟩⟩] .leaf) 62232782094262 [⟨⟨.code,[64],.lcode,false,[],false⟩,false,false,[some (114,(.other,false)),some (69,(.other,false)),some (92,(.other,false))],none,none,none,false,false,false,none,false,⟨.lcode,none,false,.lblank⟩⟩] (.node .leaf 62232800094316 [⟨⟨.code,[64],.lcode,false,[],false⟩,false,false,[some (114,(.other,false)),some (69,(.other,false)),some (101,(.other,false))],none,none,none,false,false,false,none,false,⟨.lcode,none,false,.lblank⟩⟩] .leaf)) 62232800730818 [⟨⟨.code,[64],.lblank,false,[],false⟩,false,false,[some (114,(.other,false)),some (69,(.other,false)),some (82,(.other,false))],none,none,none,false,false,false,none,false,⟨.lcode,none,false,.lblank⟩⟩] (.node (.node .leaf 62232820730878 [⟨⟨.code,[64],.lblank,false,[],false⟩,false,false,[some (114,(.other,false)),some (69,(.other,false)),some (92,(.other,false))],none,none,none,false,false,false,none,false,⟨.lcode,none,false,.lblank⟩⟩] .leaf) 62232826094394 [⟨⟨.code,[64],.lcode,false,[],false⟩,false,false,[some (114,(.other,false)),some (69,(.other,false)),some (114,(.other,false))],none,none,none,false,false,false,none,false,⟨.lcode,none,false,.lblank⟩⟩] .leaf)))) 62232838730932 [⟨⟨.code,[64],.lblank,false,[],false⟩,false,false,[some (114,(.other,false)),some (69,(.other,false)),some (101,(.other,false))],none,none,none,false,false,false,none,false,⟨.lcode,none,false,.lblank⟩⟩] (.node (.node (.node (.node (.node .leaf 62232864731010 [⟨⟨.code,[64],.lblank,false,[],false⟩,false,false,[some (114,(.other,false)),some (69,(.other,false)),some (114,(.other,false))],none,none,none,false,false,false,none,false,⟨.lcode,none,false,.lblank⟩⟩] .leaf) 62233110095246 [⟨⟨.code,[64],.lcode,false,[],false⟩,false,false,[some (114,(.other,false)),some (69,(.other,false)),some (256,(.other,false))],none,none,none,false,false,false,none,false,⟨.lcode,none,false,.lblank⟩⟩] (.node .leaf 62233148731862 [⟨⟨.code,[64],.lblank,false,[],false⟩,false,false,[some (114,(.other,false)),some (69,(.other,false)),some (256,(.other,false))],none,none,none,false,false,false,none,false,⟨.lcode,none,false,.lblank⟩⟩] .leaf)) 62265960193796 [⟨⟨.code,[64],.lcode,false,[],false⟩,false,false,[some (114,(.other,false)),some (101,(.other,false)),some (9,(.ws,false))],none,none,none,false,false,false,none,false,⟨.lcode,none,false,.lblank⟩⟩] (.node (.node .leaf 62265962193802 [⟨⟨.code,[64],.lcode,false,[],false⟩,false,false,[some (114,(.other,false)),some (101,(.other,false)),some (10,(.lf,false))],none,none,none,false,false,false,none,false,⟨.lcode,none,false,.lblank⟩⟩] .leaf) 62265966193814 [⟨⟨.code,[64],.lcode,false,[],false⟩,false,false,[some (114,(.other,false)),some (101,(.other,false)),some (12,(.ff,false))],none,none,none,false,false,false,none,false,⟨.lcode,none,false,.lblank⟩⟩] (.node .leaf 62265968193820 [⟨⟨.code,[64],.lcode,false,[],false⟩,false,false,[some (114,(.other,false)),some (101,(.other,false)),some (13,(.cr,false))],none,none,none,false,false,false,none,false,⟨.lcode,none,false,.lblank⟩⟩] .leaf))) 62265969193823 [⟨⟨.code,[64],.lcode,false,[],false⟩,false,false,[some (114,(.other,false)),some (101,(.other,false)),some (13,(.cr,true))],none,none,none,false,false,false,none,false,⟨.lcode,none,false,.lblank⟩⟩] (.node (.node (.node .leaf 62265998830412 [⟨⟨.code,[64],.lblank,false,[],false⟩,false,false,[some (114,(.other,false)),some (101,(.other,false)),some (9,(.ws,false))],none,none,none,false,false,false,none,false,⟨.lcode,none,false,.lblank⟩⟩] .leaf) 62266000830418 [⟨⟨.code,[64],.lblank,false,[],false⟩,false,false,[some (114,(.other,false)),some (101,(.other,false)),some (10,(.lf,false))],none,none,none,false,false,false,none,false,⟨.lcode,none,false,.lblank⟩⟩] (.node .leaf 62266004830430 [⟨⟨.code,[64],.lblank,false,[],false⟩,false,false,[some (114,(.other,false)),some (101,(.other,false)),some (12,(.ff,false))],none,none,none,false,false,false,none,false,⟨.lcode,none,false,.lblank⟩⟩] .leaf)) 62266006830436 [⟨⟨.code,[64],.lblank,false,[],false⟩,false,false,[some (114,(.other,false)),some (101,(.other,false)),some (13,(.cr,false))],none,none,none,false,false,false,none,false,⟨.lcode,none,false,.lblank⟩⟩] (.node (.node .leaf 62266007830439 [⟨⟨.code,[64],.lblank,false,[],false⟩,false,false,[some (114,(.other,false)),some (101,(.other,false)),some (13,(.cr,true))],none,none,none,false,false,false,none,false,⟨.lcode,none,false,.lblank⟩⟩] .leaf) 62266058194090 [⟨⟨.code,[64],.lcode,false,[],false⟩,false,false,[some (114,(.other,false)),some (101,(.other,false)),some (58,(.other,false))],none,none,none,false,false,false,none,false,⟨.lcode,none,false,.lblank⟩⟩] .leaf))) 62266070194126 [⟨⟨.code,[64],.lcode,false,[],false⟩,false,false,[some (114,(.other,false)),some (101,(.other,false)),some (64,(.other,false))],none,none,none,false,false,false,none,false,⟨.lcode,none,false,.lblank⟩⟩] (.node (.node (.node (.node .leaf 62266080194156 [⟨⟨.code,[64],.lcode,false,[],false⟩,false,false,[some (114,(.other,false)),some (101,(.other,false)),some (69,(.other,false))],none,none,none,false,false,false,none,false,⟨.lcode,none,false,.lblank⟩⟩] .leaf) 62266096830706 [⟨⟨.code,[64],.lblank,false,[],false⟩,false,false,[some (114,(.other,false)),some (101,(.other,false)),some (58,(.other,false))],none,none,none,false,false,false,none,false,⟨.lcode,none,false,.lblank⟩⟩] (.node .leaf 62266106194234 [⟨⟨.code,[64],.lcode,false,[],false⟩,false,false,[some (114,(.other,false)),some (101,(.other,false)),some (82,(.other,false))],none,none,none,false,false,false,none,false,⟨.lcode,none,false,.lblank⟩⟩] .leaf)) 62266108830742 [⟨⟨.code,[64],.lblank,false,[],false⟩,false,false,[some (114,(.other,false)),some (101,(.other,false)),some (64,(.other,false))],none,none,none,false,false,false,none,false,⟨.lcode,none,false,.lblank⟩⟩] (.node (.node .leaf 62266118830772 [⟨⟨.code,[64],.lblank,false,[],false⟩,false,false,[some (114,(.other,false)),some (101,(.other,false)),some (69,(.other,false))],none,none,none,false,false,false,none,false,⟨.lcode,none,false,.lblank⟩⟩] .leaf) 62266126194294 [⟨⟨.code,[64],.lcode,false,[],false⟩,false,false,[some (114,(.other,false)),some (101,(.other,false)),some (92,(.other,false))],none,none,none,false,false,false,none,false,⟨.lcode,none,false,.lblank⟩⟩] (.node .leaf 62266144194348 [⟨⟨.code,[64],.lcode,false,[],false⟩,false,false,[some (114,(.other,false)),some (101,(.other,false)),some (101,(.other,false))],none,none,none,false,false,false,none,false,⟨.lcode,none,false,.lblank⟩⟩] .leaf))) 62266144830850 [⟨⟨.code,[64],.lblank,false,[],false⟩,false,false,[some (114,(.other,false)),some (101,(.other,false)),some (82,(.other,false))],none,none,none,false,false,false,none,false,⟨.lcode,none,false,.lblank⟩⟩] (.node (.node (.node .leaf 62266164830910 [⟨⟨.code,[64],.lblank,false,[],false⟩,false,false,[some (114,(.other,false)),some (101,(.other,false)),some (92,(.other,false))],none,none,none,false,false,false,none,false,⟨.lcode,none,false,.lblank⟩⟩] .leaf) 62266170194426 [⟨⟨.code,[64],.lcode,false,[],false⟩,false,false,[some (114,(.other,false)),some (101,(.other,false)),some (114,(.other,false))],none,none,none,false,false,false,none,false,⟨.lcode,none,false,.lblank⟩⟩] (.node .leaf 62266182830964 [⟨⟨.code,[64],.lblank,false,[],false⟩,false,false,[some (114,(.other,false)),some (101,(.other,false)),some (101,(.other,false))],none,none,none,false,false,false,none,false,⟨.lcode,none,false,.lblank⟩⟩] .leaf)) 62266208831042 [⟨⟨.code,[64],.lblank,false,[],false⟩,false,false,[some (114,(.other,false)),some (101,(.other,false)),some (114,(.other,false))],none,none,none,false,false,false,none,false,⟨.lcode,none,false,.lblank⟩⟩] (.node (.node .leaf 62266454195278 [⟨⟨.code,[64],.lcode,false,[],false⟩,false,false,[some (114,(.other,false)),some (101,(.other,false)),some (256,(.other,false))],none,none,none,false,false,false,none,false,⟨.lcode,none,false,.lblank⟩⟩] .leaf) 62266492831894 [⟨⟨.code,[64],.lblank,false,[],false⟩,false,false,[some (114,(.other,false)),some (101,(.other,false)),some (256,(.other,false))],none,none,none,false,false,false,none,false,⟨.lcode,none,false,.lblank⟩⟩] .leaf))))))))),(.node (.node .leaf 128 [⟨⟨.code,[],.lcode,false,[],false⟩,false,false,[],none,none,none,false,false,false,none,false,⟨.lcode,some (.own 0),false,.lblank⟩⟩] .leaf) 296088 [⟨⟨.code,[],.lblank,false,[],false⟩,false,false,[],none,none,none,false,false,false,none,false,⟨.lblank,some (.own 0),false,.lblank⟩⟩] .leaf),(.node (.node .leaf 160 [⟨⟨.code,[],.lcode,false,[],false⟩,true,false,[],none,none,none,false,false,false,none,false,⟨.lcode,some .newline,false,.lblank⟩⟩] .leaf) 148140 [⟨⟨.code,[],.lcomment,false,[],false⟩,true,false,[],none,none,none,false,false,false,none,false,⟨.lcomment,some .newline,false,.lblank⟩⟩] (.node .leaf 296120 [⟨⟨.code,[],.lblank,false,[],false⟩,true,false,[],none,none,none,false,false,false,none,false,⟨.lblank,some .newline,false,.lblank⟩⟩] .leaf)),(.node (.node .leaf 37011 [⟨⟨.code,[],.lcode,true,[],false⟩,false,true,[],none,none,none,false,false,false,none,false,⟨.lcode,some .newline,false,.lblank⟩⟩] .leaf) 184991 [⟨⟨.code,[],.lcomment,true,[],false⟩,false,true,[],none,none,none,false,false,false,none,false,⟨.lcomment,some .newline,false,.lblank⟩⟩] (.node .leaf 332971 [⟨⟨.code,[],.lblank,true,[],false⟩,false,true,[],none,none,none,false,false,false,none,false,⟨.lblank,some .newline,false,.lblank⟩⟩] .leaf)),(.node (.node .leaf 2175281 [⟨⟨.code,[58],.lcode,false,[],false⟩,false,false,[],none,none,none,false,false,false,none,false,⟨.lcode,some (.own 3),false,.lblank⟩⟩] .leaf) 2175283 [⟨⟨.code,[58],.lcode,false,[],false⟩,false,false,[],none,none,none,false,false,true,none,false,⟨.lcode,some (.own 3),false,.lblank⟩⟩] (.node .leaf 40812923 [⟨⟨.code,[58],.lblank,false,[],false⟩,false,false,[],none,none,none,false,false,true,none,false,⟨.lblank,some (.own 3),false,.lblank⟩⟩] .leaf)),(.node (.node .leaf 2396483 [⟨⟨.code,[64],.lcode,false,[],false⟩,false,false,[],none,none,none,false,false,false,none,false,⟨.lcode,some (.own 3),false,.lblank⟩⟩] .leaf) 2396485 [⟨⟨.code,[64],.lcode,false,[],false⟩,false,false,[],none,none,none,false,false,true,none,false,⟨.lcode,some (.own 3),false,.lblank⟩⟩] (.node .leaf 41034125 [⟨⟨.code,[64],.lblank,false,[],false⟩,false,false,[],none,none,none,false,false,true,none,false,⟨.lblank,some (.own 3),false,.lblank⟩⟩] .leaf)),(.node (.node (.node (.node (.node (.node (.node (.node .leaf 3060089 [⟨⟨.code,[82],.lcode,false,[],false⟩,false,false,[],none,none,none,false,false,false,none,false,⟨.lcode,some (.own 3),false,.lblank⟩⟩] .leaf) 3060091 [⟨⟨.code,[82],.lcode,false,[],false⟩,false,false,[],none,none,none,false,false,true,none,false,⟨.lcode,some (.own 3),false,.lblank⟩⟩] .leaf) 4239833 [⟨⟨.code,[114],.lcode,false,[],false⟩,false,false,[],none,none,none,false,false,false,none,false,⟨.lcode,some (.own 3),false,.lblank⟩⟩] (.node (.node .leaf 4239835 [⟨⟨.code,[114],.lcode,false,[],false⟩,false,false,[],none,none,none,false,false,true,none,false,⟨.lcode,some (.own 3),false,.lblank⟩⟩] .leaf) 41697731 [⟨⟨.code,[82],.lblank,false,[],false⟩,false,false,[],none,none,none,false,false,true,none,false,⟨.lblank,some (.own 3),false,.lblank⟩⟩] .leaf)) 42877475 [⟨⟨.code,[114],.lblank,false,[],false⟩,false,false,[],none,none,none,false,false,true,none,false,⟨.lblank,some (.own 3),false,.lblank⟩⟩] (.node (.node (.node .leaf 316982594 [⟨⟨.code,[64,82],.lcode,false,[],false⟩,false,false,[none],none,none,none,false,false,false,none,false,⟨.lcode,some (.own 3),false,.lblank⟩⟩] .leaf) 318162338 [⟨⟨.code,[64,114],.lcode,false,[],false⟩,false,false,[none],none,none,none,false,false,false,none,false,⟨.lcode,some (.own 3),false,.lblank⟩⟩] .leaf) 335982651 [⟨⟨.code,[64,82],.lcode,false,[],false⟩,false,false,[some (9,(.ws,false))],none,none,none,false,false,false,none,false,⟨.lcode,some (.own 3),false,.lblank⟩⟩] (.node .leaf 337162395 [⟨⟨.code,[64,114],.lcode,false,[],false⟩,false,false,[some (9,(.ws,false))],none,none,none,false,false,false,none,false,⟨.lcode,some (.own 3),false,.lblank⟩⟩] .leaf))) 337982657 [⟨⟨.code,[64,82],.lcode,false,[],false⟩,false,false,[some (10,(.lf,false))],none,none,none,false,false,false,none,false,⟨.lcode,some (.own 3),false,.lblank⟩⟩] (.node (.node (.node (.node .leaf 339162401 [⟨⟨.code,[64,114],.lcode,false,[],false⟩,false,false,[some (10,(.lf,false))],none,none,none,false,false,false,none,false,⟨.lcode,some (.own 3),false,.lblank⟩⟩] .leaf) 341982669 [⟨⟨.code,[64,82],.lcode,false,[],false⟩,false,false,[some (12,(.ff,false))],none,none,none,false,false,false,none,false,⟨.lcode,some (.own 3),false,.lblank⟩⟩] .leaf) 343162413 [⟨⟨.code,[64,114],.lcode,false,[],false⟩,false,false,[some (12,(.ff,false))],none,none,none,false,false,false,none,false,⟨.lcode,some (.own 3),false,.lblank⟩⟩] (.node (.node .leaf 343982675 [⟨⟨.code,[64,82],.lcode,false,[],false⟩,false,false,[some (13,(.cr,false))],none,none,none,false,false,false,none,false,⟨.lcode,some (.own 3),false,.lblank⟩⟩] .leaf) 344982678 [⟨⟨.code,[64,82],.lcode,false,[],false⟩,false,false,[some (13,(.cr,true))],none,none,none,false,false,false,none,false,⟨.lcode,some (.own 3),false,.lblank⟩⟩] .leaf)) 345162419 [⟨⟨.code,[64,114],.lcode,false,[],false⟩,false,false,[some (13,(.cr,false))],none,none,none,false,false,false,none,false,⟨.lcode,some (.own 3),false,.lblank⟩⟩] (.node (.node (.node .leaf 346162422 [⟨⟨.code,[64,114],.lcode,false,[],false⟩,false,false,[some (13,(.cr,true))],none,none,none,false,false,false,none,false,⟨.lcode,some (.own 3),false,.lblank⟩⟩] .leaf) 433982945 [⟨⟨.code,[64,82],.lcode,false,[],false⟩,false,false,[some (58,(.other,false))],none,none,none,false,false,false,none,false,⟨.lcode,some (.own 3),false,.lblank⟩⟩] .leaf) 435162689 [⟨⟨.code,[64,114],.lcode,false,[],false⟩,false,false,[some (58,(.other,false))],none,none,none,false,false,false,none,false,⟨.lcode,some (.own 3),false,.lblank⟩⟩] (.node .leaf 445982981 [⟨⟨.code,[64,82],.lcode,false,[],false⟩,false,false,[some (64,(.other,false))],none,none,none,false,false,false,none,false,⟨.lcode,some (.own 3),false,.lblank⟩⟩] .leaf)))) 447162725 [⟨⟨.code,[64,114],.lcode,false,[],false⟩,false,false,[some (64,(.other,false))],none,none,none,false,false,false,none,false,⟨.lcode,some (.own 3),false,.lblank⟩⟩] (.node (.node (.node (.node (.node .leaf 471983059 [⟨⟨.code,[64,82],.lcode,false,[],false⟩,false,false,[some (77,(.other,false))],none,none,none,false,false,false,none,false,⟨.lcode,some (.own 3),false,.lblank⟩⟩] .leaf) 473162803 [⟨⟨.code,[64,114],.lcode,false,[],false⟩,false,false,[some (77,(.other,false))],none,none,none,false,false,false,none,false,⟨.lcode,some (.own 3),false,.lblank⟩⟩] .leaf) 481983089 [⟨⟨.code,[64,82],.lcode,false,[],false⟩,false,false,[some (82,(.other,false))],none,none,none,false,false,false,none,false,⟨.lcode,some (.own 3),false,.lblank⟩⟩] (.node (.node .leaf 483162833 [⟨⟨.code,[64,114],.lcode,false,[],false⟩,false,false,[some (82,(.other,false))],none,none,none,false,false,false,none,false,⟨.lcode,some (.own 3),false,.lblank⟩⟩] .leaf) 501983149 [⟨⟨.code,[64,82],.lcode,false,[],false⟩,false,false,[some (92,(.other,false))],none,none,none,false,false,false,none,false,⟨.lcode,some (.own 3),false,.lblank⟩⟩] .leaf)) 503162893 [⟨⟨.code,[64,114],.lcode,false,[],false⟩,false,false,[some (92,(.other,false))],none,none,none,false,false,false,none,false,⟨.lcode,some (.own 3),false,.lblank⟩⟩] (.node (.node (.node .leaf 535983251 [⟨⟨.code,[64,82],.lcode,false,[],false⟩,false,false,[some (109,(.other,false))],none,none,none,false,false,false,none,false,⟨.lcode,some (.own 3),false,.lblank⟩⟩] .leaf) 537162995 [⟨⟨.code,[64,114],.lcode,false,[],false⟩,false,false,[some (109,(.other,false))],none,none,none,false,false,false,none,false,⟨.lcode,some (.own 3),false,.lblank⟩⟩] .leaf) 545983281 [⟨⟨.code,[64,82],.lcode,false,[],false⟩,false,false,[some (114,(.other,false))],none,none,none,false,false,false,none,false,⟨.lcode,some (.own 3),false,.lblank⟩⟩] (.node .leaf 547163025 [⟨⟨.code,[64,114],.lcode,false,[],false⟩,false,false,[some (114,(.other,false))],none,none,none,false,false,false,none,false,⟨.lcode,some (.own 3),false,.lblank⟩⟩] .leaf))) 829984133 [⟨⟨.code,[64,82],.lcode,false,[],false⟩,false,false,[some (256,(.other,false))],none,none,none,false,false,false,none,false,⟨.lcode,some (.own 3),false,.lblank⟩⟩] (.node (.node (.node (.node .leaf 831163877 [⟨⟨.code,[64,114],.lcode,false,[],false⟩,false,false,[some (256,(.other,false))],none,none,none,false,false,false,none,false,⟨.lcode,some (.own 3),false,.lblank⟩⟩] .leaf) 1289985513 [⟨⟨.code,[64,82],.lcode,false,[],false⟩,false,false,[some (69,(.other,false)),none],none,none,none,false,false,false,none,false,⟨.lcode,some (.own 3),false,.lblank⟩⟩] .leaf) 1291165257 [⟨⟨.code,[64,114],.lcode,false,[],false⟩,false,false,[some (69,(.other,false)),none],none,none,none,false,false,false,none,false,⟨.lcode,some (.own 3),false,.lblank⟩⟩] (.node (.node .leaf 1737986857 [⟨⟨.code,[64,82],.lcode,false,[],false⟩,false,false,[some (101,(.other,false)),none],none,none,none,false,false,false,none,false,⟨.lcode,some (.own 3),false,.lblank⟩⟩] .leaf) 1739166601 [⟨⟨.code,[64,114],.lcode,false,[],false⟩,false,false,[some (101,(.other,false)),none],none,none,none,false,false,false,none,false,⟨.lcode,some (.own 3),false,.lblank⟩⟩] .leaf)) 5378379290 [⟨⟨.code,[64,82],.lblank,false,[],false⟩,false,false,[none],none,none,none,false,false,false,none,false,⟨.lcode,some (.own 3),false,.lblank⟩⟩] (.node (.node (.node .leaf 5379559034 [⟨⟨.code,[64,114],.lblank,false,[],false⟩,false,false,[none],none,none,none,false,false,false,none,false,⟨.lcode,some (.own 3),false,.lblank⟩⟩] .leaf) 5397379347 [⟨⟨.code,[64,82],.lblank,false,[],false⟩,false,false,[some (9,(.ws,false))],none,none,none,false,false,false,none,false,⟨.lcode,some (.own 3),false,.lblank⟩⟩] .leaf) 5398559091 [⟨⟨.code,[64,114],.lblank,false,[],false⟩,false,false,[some (9,(.ws,false))],none,none,none,false,false,false,none,false,⟨.lcode,some (.own 3),false,.lblank⟩⟩] (.node .leaf 5399379353 [⟨⟨.code,[64,82],.lblank,false,[],false⟩,false,false,[some (10,(.lf,false))],none,none,none,false,false,false,none,false,⟨.lcode,some (.own 3),false,.lblank⟩⟩] .leaf))))) 5400559097 [⟨⟨.code,[64,114],.lblank,false,[],false⟩,false,false,[some (10,(.lf,false))],none,none,none,false,false,false,none,false,⟨.lcode,some (.own 3),false,.lblank⟩⟩] (.node (.node (.node (.node (.node (.node .leaf 5403379365 [⟨⟨.code,[64,82],.lblank,false,[],false⟩,false,false,[some (12,(.ff,false))],none,none,none,false,false,false,none,false,⟨.lcode,some (.own 3),false,.lblank⟩⟩] .leaf) 5404559109 [⟨⟨.code,[64,114],.lblank,false,[],false⟩,false,false,[some (12,(.ff,false))],none,none,none,false,false,false,none,false,⟨.lcode,some (.own 3),false,.lblank⟩⟩] .leaf) 5405379371 [⟨⟨.code,[64,82],.lblank,false,[],false⟩,false,false,[some (13,(.cr,false))],none,none,none,false,false,false,none,false,⟨.lcode,some (.own 3),false,.lblank⟩⟩] (.node (.node .leaf 5406379374 [⟨⟨.code,[64,82],.lblank,false,[],false⟩,false,false,[some (13,(.cr,true))],none,none,none,false,false,false,none,false,⟨.lcode,some (.own 3),false,.lblank⟩⟩] .leaf) 5406559115 [⟨⟨.code,[64,114],.lblank,false,[],false⟩,false,false,[some (13,(.cr,false))],none,none,none,false,false,false,none,false,⟨.lcode,some (.own 3),false,.lblank⟩⟩] .leaf)) 5407559118 [⟨⟨.code,[64,114],.lblank,false,[],false⟩,false,false,[some (13,(.cr,true))],none,none,none,false,false,false,none,false,⟨.lcode,some (.own 3),false,.lblank⟩⟩] (.node (.node (.node .leaf 5495379641 [⟨⟨.code,[64,82],.lblank,false,[],false⟩,false,false,[some (58,(.other,false))],none,none,none,false,false,false,none,false,⟨.lcode,some (.own 3),false,.lblank⟩⟩] .leaf) 5496559385 [⟨⟨.code,[64,114],.lblank,false,[],false⟩,false,false,[some (58,(.other,false))],none,none,none,false,false,false,none,false,⟨.lcode,some (.own 3),false,.lblank⟩⟩] .leaf) 5507379677 [⟨⟨.code,[64,82],.lblank,false,[],false⟩,false,false,[some (64,(.other,false))],none,none,none,false,false,false,none,false,⟨.lcode,some (.own 3),false,.lblank⟩⟩] (.node .leaf 5508559421 [⟨⟨.code,[64,114],.lblank,false,[],false⟩,false,false,[some (64,(.other,false))],none,none,none,false,false,false,none,false,⟨.lcode,some (.own 3),false,.lblank⟩⟩] .leaf))) 5533379755 [⟨⟨.code,[64,82],.lblank,false,[],false⟩,false,false,[some (77,(.other,false))],none,none,none,false,false,false,none,false,⟨.lcode,some (.own 3),false,.lblank⟩⟩] (.node (.node (.node (.node .leaf 5534559499 [⟨⟨.code,[64,114],.lblank,false,[],false⟩,false,false,[some (77,(.other,false))],none,none,none,false,false,false,none,false,⟨.lcode,some (.own 3),false,.lblank⟩⟩] .leaf) 5543379785 [⟨⟨.code,[64,82],.lblank,false,[],false⟩,false,false,[some (82,(.other,false))],none,none,none,false,false,false,none,false,⟨.lcode,some (.own 3),false,.lblank⟩⟩] .leaf) 5544559529 [⟨⟨.code,[64,114],.lblank,false,[],false⟩,false,false,[some (82,(.other,false))],none,none,none,false,false,false,none,false,⟨.lcode,some (.own 3),false,.lblank⟩⟩] (.node (.node .leaf 5563379845 [⟨⟨.code,[64,82],.lblank,false,[],false⟩,false,false,[some (92,(.other,false))],none,none,none,false,false,false,none,false,⟨.lcode,some (.own 3),false,.lblank⟩⟩] .leaf) 5564559589 [⟨⟨.code,[64,114],.lblank,false,[],false⟩,false,false,[some (92,(.other,false))],none,none,none,false,false,false,none,false,⟨.lcode,some (.own 3),false,.lblank⟩⟩] .leaf)) 5597379947 [⟨⟨.code,[64,82],.lblank,false,[],false⟩,false,false,[some (109,(.other,false))],none,none,none,false,false,false,none,false,⟨.lcode,some (.own 3),false,.lblank⟩⟩] (.node (.node (.node .leaf 5598559691 [⟨⟨.code,[64,114],.lblank,false,[],false⟩,false,false,[some (109,(.other,false))],none,none,none,false,false,false,none,false,⟨.lcode,some (.own 3),false,.lblank⟩⟩] .leaf) 5607379977 [⟨⟨.code,[64,82],.lblank,false,[],false⟩,false,false,[some (114,(.other,false))],none,none,none,false,false,false,none,false,⟨.lcode,some (.own 3),false,.lblank⟩⟩] .leaf) 5608559721 [⟨⟨.code,[64,114],.lblank,false,[],false⟩,false,false,[some (114,(.other,false))],none,none,none,false,false,false,none,false,⟨.lcode,some (.own 3),false,.lblank⟩⟩] (.node .leaf 5891380829 [⟨⟨.code,[64,82],.lblank,false,[],false⟩,false,false,[some (256,(.other,false))],none,none,none,false,false,false,none,false,⟨.lcode,some (.own 3),false,.lblank⟩⟩] .leaf)))) 5892560573 [⟨⟨.code,[64,114],.lblank,false,[],false⟩,false,false,[some (256,(.other,false))],none,none,none,false,false,false,none,false,⟨.lcode,some (.own 3),false,.lblank⟩⟩] (.node (.node (.node (.node (.node .leaf 6351382209 [⟨⟨.code,[64,82],.lblank,false,[],false⟩,false,false,[some (69,(.other,false)),none],none,none,none,false,false,false,none,false,⟨.lcode,some (.own 3),false,.lblank⟩⟩] .leaf) 6352561953 [⟨⟨.code,[64,114],.lblank,false,[],false⟩,false,false,[some (69,(.other,false)),none],none,none,none,false,false,false,none,false,⟨.lcode,some (.own 3),false,.lblank⟩⟩] .leaf) 6799383553 [⟨⟨.code,[64,82],.lblank,false,[],false⟩,false,false,[some (101,(.other,false)),none],none,none,none,false,false,false,none,false,⟨.lcode,some (.own 3),false,.lblank⟩⟩] (.node (.node .leaf 6800563297 [⟨⟨.code,[64,114],.lblank,false,[],false⟩,false,false,[some (101,(.other,false)),none],none,none,none,false,false,false,none,false,⟨.lcode,some (.own 3),false,.lblank⟩⟩] .leaf) 72755199908 [⟨⟨.code,[64,82],.lcode,false,[],false⟩,false,false,[some (69,(.other,false)),some (9,(.ws,false))],none,none,none,false,false,false,none,false,⟨.lcode,some (.own 3),false,.lblank⟩⟩] .leaf)) 72756379652 [⟨⟨.code,[64,114],.lcode,false,[],false⟩,false,false,[some (69,(.other,false)),some (9,(.ws,false))],none,none,none,false,false,false,none,false,⟨.lcode,some (.own 3),false,.lblank⟩⟩] (.node (.node (.node .leaf 72757199914 [⟨⟨.code,[64,82],.lcode,false,[],false⟩,false,false,[some (69,(.other,false)),some (10,(.lf,false))],none,none,none,false,false,false,none,false,⟨.lcode,some (.own 3),false,.lblank⟩⟩] .leaf) 72758379658 [⟨⟨.code,[64,114],.lcode,false,[],false⟩,false,false,[some (69,(.other,false)),some (10,(.lf,false))],none,none,none,false,false,false,none,false,⟨.lcode,some (.own 3),false,.lblank⟩⟩] .leaf) 72761199926 [⟨⟨.code,[64,82],.lcode,false,[],false⟩,false,false,[some (69,(.other,false)),some (12,(.ff,false))],none,none,none,false,false,false,none,false,⟨.lcode,some (.own 3),false,.lblank⟩⟩] (.node .leaf 72762379670 [⟨⟨.code,[64,114],.lcode,false,[],false⟩,false,false,[some (69,(.other,false)),some (12,(.ff,false))],none,none,none,false,false,false,none,false,⟨.lcode,some (.own 3),false,.lblank⟩⟩] .leaf))) 72763199932 [⟨⟨.code,[64,82],.lcode,false,[],false⟩,false,false,[some (69,(.other,false)),some (13,(.cr,false))],none,none,none,false,false,false,none,false,⟨.lcode,some (.own 3),false,.lblank⟩⟩] (.node (.node (.node (.node .leaf 72764199935 [⟨⟨.code,[64,82],.lcode,false,[],false⟩,false,false,[some (69,(.other,false)),some (13,(.cr,true))],none,none,none,false,false,false,none,false,⟨.lcode,some (.own 3),false,.lblank⟩⟩] .leaf) 72764379676 [⟨⟨.code,[64,114],.lcode,false,[],false⟩,false,false,[some (69,(.other,false)),some (13,(.cr,false))],none,none,none,false,false,false,none,false,⟨.lcode,some (.own 3),false,.lblank⟩⟩] .leaf) 72765379679 [⟨⟨.code,[64,114],.lcode,false,[],false⟩,false,false,[some (69,(.other,false)),some (13,(.cr,true))],none,none,none,false,false,false,none,false,⟨.lcode,some (.own 3),false,.lblank⟩⟩] (.node (.node .leaf 72853200202 [⟨⟨.code,[64,82],.lcode,false,[],false⟩,false,false,[some (69,(.other,false)),some (58,(.other,false))],none,none,none,false,false,false,none,false,⟨.lcode,some (.own 3),false,.lblank⟩⟩] .leaf) 72854379946 [⟨⟨.code,[64,114],.lcode,false,[],false⟩,false,false,[some (69,(.other,false)),some (58,(.other,false))],none,none,none,false,false,false,none,false,⟨.lcode,some (.own 3),false,.lblank⟩⟩] .leaf)) 72865200238 [⟨⟨.code,[64,82],.lcode,false,[],false⟩,false,false,[some (69,(.other,false)),some (64,(.other,false))],none,none,none,false,false,false,none,false,⟨.lcode,some (.own 3),false,.lblank⟩⟩] (.node (.node (.node .leaf 72866379982 [⟨⟨.code,[64,114],.lcode,false,[],false⟩,false,false,[some (69,(.other,false)),some (64,(.other,false))],none,none,none,false,false,false,none,false,⟨.lcode,some (.own 3),false,.lblank⟩⟩] .leaf) 72875200268 [⟨⟨.code,[64,82],.lcode,false,[],false⟩,false,false,[some (69,(.other,false)),some (69,(.other,false))],none,none,none,false,false,false,none,false,⟨.lcode,some (.own 3),false,.lblank⟩⟩] .leaf) 72876380012 [⟨⟨.code,[64,114],.lcode,false,[],false⟩,false,false,[some (69,(.other,false)),some (69,(.other,false))],none,none,none,false,false,false,none,false,⟨.lcode,some (.own 3),false,.lblank⟩⟩] (.node .leaf 72901200346 [⟨⟨.code,[64,82],.lcode,false,[],false⟩,false,false,[some (69,(.other,false)),some (82,(.other,false))],none,none,none,false,false,false,none,false,⟨.lcode,some (.own 3),false,.lblank⟩⟩] .leaf)))))) 72902380090 [⟨⟨.code,[64,114],.lcode,false,[],false⟩,false,false,[some (69,(.other,false)),some (82,(.other,false))],none,none,none,false,false,false,none,false,⟨.lcode,some (.own 3),false,.lblank⟩⟩] (.node (.node (.node (.node (.node (.node (.node .leaf 72921200406 [⟨⟨.code,[64,82],.lcode,false,[],false⟩,false,false,[some (69,(.other,false)),some (92,(.other,false))],none,none,none,false,false,false,none,false,⟨.lcode,some (.own 3),false,.lblank⟩⟩] .leaf) 72922380150 [⟨⟨.code,[64,114],.lcode,false,[],false⟩,false,false,[some (69,(.other,false)),some (92,(.other,false))],none,none,none,false,false,false,none,false,⟨.lcode,some (.own 3),false,.lblank⟩⟩] .leaf) 72939200460 [⟨⟨.code,[64,82],.lcode,false,[],false⟩,false,false,[some (69,(.other,false)),some (101,(.other,false))],none,none,none,false,false,false,none,false,⟨.lcode,some (.own 3),false,.lblank⟩⟩] (.node (.node .leaf 72940380204 [⟨⟨.code,[64,114],.lcode,false,[],false⟩,false,false,[some (69,(.other,false)),some (101,(.other,false))],none,none,none,false,false,false,none,false,⟨.lcode,some (.own 3),false,.lblank⟩⟩] .leaf) 72965200538 [⟨⟨.code,[64,82],.lcode,false,[],false⟩,false,false,[some (69,(.other,false)),some (114,(.other,false))],none,none,none,false,false,false,none,false,⟨.lcode,some (.own 3),false,.lblank⟩⟩] .leaf)) 72966380282 [⟨⟨.code,[64,114],.lcode,false,[],false⟩,false,false,[some (69,(.other,false)),some (114,(.other,false))],none,none,none,false,false,false,none,false,⟨.lcode,some (.own 3),false,.lblank⟩⟩] (.node (.node (.node .leaf 73249201390 [⟨⟨.code,[64,82],.lcode,false,[],false⟩,false,false,[some (69,(.other,false)),some (256,(.other,false))],none,none,none,false,false,false,none,false,⟨.lcode,some (.own 3),false,.lblank⟩⟩] .leaf) 73250381134 [⟨⟨.code,[64,114],.lcode,false,[],false⟩,false,false,[some (69,(.other,false)),some (256,(.other,false))],none,none,none,false,false,false,none,false,⟨.lcode,some (.own 3),false,.lblank⟩⟩] .leaf) 77816596604 [⟨⟨.code,[64,82],.lblank,false,[],false⟩,false,false,[some (69,(.other,false)),some (9,(.ws,false))],none,none,none,false,false,false,none,false,⟨.lcode,some (.own 3),false,.lblank⟩⟩] (.node .leaf 77817776348 [⟨⟨.code,[64,114],.lblank,false,[],false⟩,false,false,[some (69,(.other,false)),some (9,(.ws,false))],none,none,none,false,false,false,none,false,⟨.lcode,some (.own 3),false,.lblank⟩⟩] .leaf))) 77818596610 [⟨⟨.code,[64,82],.lblank,false,[],false⟩,false,false,[some (69,(.other,false)),some (10,(.lf,false))],none,none,none,false,false,false,none,false,⟨.lcode,some (.own 3),false,.lblank⟩⟩] (.node (.node (.node (.node .leaf 77819776354 [⟨⟨.code,[64,114],.lblank,false,[],false⟩,false,false,[some (69,(.other,false)),some (10,(.lf,false))],none,none,none,false,false,false,none,false,⟨.lcode,some (.own 3),false,.lblank⟩⟩] .leaf) 77822596622 [⟨⟨.code,[64,82],.lblank,false,[],false⟩,false,false,[some (69,(.other,false)),some (12,(.ff,false))],none,none,none,false,false,false,none,false,⟨.lcode,some (.own 3),false,.lblank⟩⟩] .leaf) 77823776366 [⟨⟨.code,[64,114],.lblank,false,[],false⟩,false,false,[some (69,(.other,false)),some (12,(.ff,false))],none,none,none,false,false,false,none,false,⟨.lcode,some (.own 3),false,.lblank⟩⟩] (.node (.node .leaf 77824596628 [⟨⟨.code,[64,82],.lblank,false,[],false⟩,false,false,[some (69,(.other,false)),some (13,(.cr,false))],none,none,none,false,false,false,none,false,⟨.lcode,some (.own 3),false,.lblank⟩⟩] .leaf) 77825596631 [⟨⟨.code,[64,82],.lblank,false,[],false⟩,false,false,[some (69,(.other,false)),some (13,(.cr,true))],none,none,none,false,false,false,none,false,⟨.lcode,some (.own 3),false,.lblank⟩⟩] .leaf)) 77825776372 [⟨⟨.code,[64,114],.lblank,false,[],false⟩,false,false,[some (69,(.other,false)),some (13,(.cr,false))],none,none,none,false,false,false,none,false,⟨.lcode,some (.own 3),false,.lblank⟩⟩] (.node (.node (.node .leaf 77826776375 [⟨⟨.code,[64,114],.lblank,false,[],false⟩,false,false,[some (69,(.other,false)),some (13,(.cr,true))],none,none,none,false,false,false,none,false,⟨.lcode,some (.own 3),false,.lblank⟩⟩] .leaf) 77914596898 [⟨⟨.code,[64,82],.lblank,false,[],false⟩,false,false,[some (69,(.other,false)),some (58,(.other,false))],none,none,none,false,false,false,none,false,⟨.lcode,some (.own 3),false,.lblank⟩⟩] .leaf) 77915776642 [⟨⟨.code,[64,114],.lblank,false,[],false⟩,false,false,[some (69,(.other,false)),some (58,(.other,false))],none,none,none,false,false,false,none,false,⟨.lcode,some (.own 3),false,.lblank⟩⟩] (.node .leaf 77926596934 [⟨⟨.code,[64,82],.lblank,false,[],false⟩,false,false,[some (69,(.other,false)),some (64,(.other,false))],none,none,none,false,false,false,none,false,⟨.lcode,some (.own 3),false,.lblank⟩⟩] .leaf)))) 77927776678 [⟨⟨.code,[64,114],.lblank,false,[],false⟩,false,false,[some (69,(.other,false)),some (64,(.other,false))],none,none,none,false,false,false,none,false,⟨.lcode,some (.own 3),false,.lblank⟩⟩] (.node (.node (.node (.node (.node .leaf 77936596964 [⟨⟨.code,[64,82],.lblank,false,[],false⟩,false,false,[some (69,(.other,false)),some (69,(.other,false))],none,none,none,false,false,false,none,false,⟨.lcode,some (.own 3),false,.lblank⟩⟩] .leaf) 77937776708 [⟨⟨.code,[64,114],.lblank,false,[],false⟩,false,false,[some (69,(.other,false)),some (69,(.other,false))],none,none,none,false,false,false,none,false,⟨.lcode,some (.own 3),false,.lblank⟩⟩] .leaf) 77962597042 [⟨⟨.code,[64,82],.lblank,false,[],false⟩,false,false,[some (69,(.other,false)),some (82,(.other,false))],none,none,none,false,false,false,none,false,⟨.lcode,some (.own 3),false,.lblank⟩⟩] (.node (.node .leaf 77963776786 [⟨⟨.code,[64,114],.lblank,false,[],false⟩,false,false,[some (69,(.other,false)),some (82,(.other,false))],none,none,none,false,false,false,none,false,⟨.lcode,some (.own 3),false,.lblank⟩⟩] .leaf) 77982597102 [⟨⟨.code,[64,82],.lblank,false,[],false⟩,false,false,[some (69,(.other,false)),some (92,(.other,false))],none,none,none,false,false,false,none,false,⟨.lcode,some (.own 3),false,.lblank⟩⟩] .leaf)) 77983776846 [⟨⟨.code,[64,114],.lblank,false,[],false⟩,false,false,[some (69,(.other,false)),some (92,(.other,false))],none,none,none,false,false,false,none,false,⟨.lcode,some (.own 3),false,.lblank⟩⟩] (.node (.node (.node .leaf 78000597156 [⟨⟨.code,[64,82],.lblank,false,[],false⟩,false,false,[some (69,(.other,false)),some (101,(.other,false))],none,none,none,false,false,false,none,false,⟨.lcode,some (.own 3),false,.lblank⟩⟩] .leaf) 78001776900 [⟨⟨.code,[64,114],.lblank,false,[],false⟩,false,false,[some (69,(.other,false)),some (101,(.other,false))],none,none,none,false,false,false,none,false,⟨.lcode,some (.own 3),false,.lblank⟩⟩] .leaf) 78026597234 [⟨⟨.code,[64,82],.lblank,false,[],false⟩,false,false,[some (69,(.other,false)),some (114,(.other,false))],none,none,none,false,false,false,none,false,⟨.lcode,some (.own 3),false,.lblank⟩⟩] (.node .leaf 78027776978 [⟨⟨.code,[64,114],.lblank,false,[],false⟩,false,false,[some (69,(.other,false)),some (114,(.other,false))],none,none,none,false,false,false,none,false,⟨.lcode,some (.own 3),false,.lblank⟩⟩] .leaf))) 78310598086 [⟨⟨.code,[64,82],.lblank,false,[],false⟩,false,false,[some (69,(.other,false)),some (256,(.other,false))],none,none,none,false,false,false,none,false,⟨.lcode,some (.own 3),false,.lblank⟩⟩] (.node (.node (.node (.node .leaf 78311777830 [⟨⟨.code,[64,114],.lblank,false,[],false⟩,false,false,[some (69,(.other,false)),some (256,(.other,false))],none,none,none,false,false,false,none,false,⟨.lcode,some (.own 3),false,.lblank⟩⟩] .leaf) 106099299940 [⟨⟨.code,[64,82],.lcode,false,[],false⟩,false,false,[some (101,(.other,false)),some (9,(.ws,false))],none,none,none,false,false,false,none,false,⟨.lcode,some (.own 3),false,.lblank⟩⟩] .leaf) 106100479684 [⟨⟨.code,[64,114],.lcode,false,[],false⟩,false,false,[some (101,(.other,false)),some (9,(.ws,false))],none,none,none,false,false,false,none,false,⟨.lcode,some (.own 3),false,.lblank⟩⟩] (.node (.node .leaf 106101299946 [⟨⟨.code,[64,82],.lcode,false,[],false⟩,false,false,[some (101,(.other,false)),some (10,(.lf,false))],none,none,none,false,false,false,none,false,⟨.lcode,some (.own 3),false,.lblank⟩⟩] .leaf) 106102479690 [⟨⟨.code,[64,114],.lcode,false,[],false⟩,false,false,[some (101,(.other,false)),some (10,(.lf,false))],none,none,none,false,false,false,none,false,⟨.lcode,some (.own 3),false,.lblank⟩⟩] .leaf)) 106105299958 [⟨⟨.code,[64,82],.lcode,false,[],false⟩,false,false,[some (101,(.other,false)),some (12,(.ff,false))],none,none,none,false,false,false,none,false,⟨.lcode,some (.own 3),false,.lblank⟩⟩] (.node (.node (.node .leaf 106106479702 [⟨⟨.code,[64,114],.lcode,false,[],false⟩,false,false,[some (101,(.other,false)),some (12,(.ff,false))],none,none,none,false,false,false,none,false,⟨.lcode,some (.own 3),false,.lblank⟩⟩] .leaf) 106107299964 [⟨⟨.code,[64,82],.lcode,false,[],false⟩,false,false,[some (101,(.other,false)),some (13,(.cr,false))],none,none,none,false,false,false,none,false,⟨.lcode,some (.own 3),false,.lblank⟩⟩] .leaf) 106108299967 [⟨⟨.code,[64,82],.lcode,false,[],false⟩,false,false,[some (101,(.other,false)),some (13,(.cr,true))],none,none,none,false,false,false,none,false,⟨.lcode,some (.own 3),false,.lblank⟩⟩] (.node .leaf 106108479708 [⟨⟨.code,[64,114],.lcode,false,[],false⟩,false,false,[some (101,(.other,false)),some (13,(.cr,false))],none,none,none,false,false,false,none,false,⟨.lcode,some (.own 3),false,.lblank⟩⟩] .leaf))))) 106109479711 [⟨⟨.code,[64,114],.lcode,false,[],false⟩,false,false,[some (101,(.other,false)),some (13,(.cr,true))],none,none,none,false,false,false,none,false,⟨.lcode,some (.own 3),false,.lblank⟩⟩] (.node (.node (.node (.node (.node (.node .leaf 106197300234 [⟨⟨.code,[64,82],.lcode,false,[],false⟩,false,false,[some (101,(.other,false)),some (58,(.other,false))],none,none,none,false,false,false,none,false,⟨.lcode,some (.own 3),false,.lblank⟩⟩] .leaf) 106198479978 [⟨⟨.code,[64,114],.lcode,false,[],false⟩,false,false,[some (101,(.other,false)),some (58,(.other,false))],none,none,none,false,false,false,none,false,⟨.lcode,some (.own 3),false,.lblank⟩⟩] .leaf) 106209300270 [⟨⟨.code,[64,82],.lcode,false,[],false⟩,false,false,[some (101,(.other,false)),some (64,(.other,false))],none,none,none,false,false,false,none,false,⟨.lcode,some (.own 3),false,.lblank⟩⟩] (.node (.node .leaf 106210480014 [⟨⟨.code,[64,114],.lcode,false,[],false⟩,false,false,[some (101,(.other,false)),some (64,(.other,false))],none,none,none,false,false,false,none,false,⟨.lcode,some (.own 3),false,.lblank⟩⟩] .leaf) 106219300300 [⟨⟨.code,[64,82],.lcode,false,[],false⟩,false,false,[some (101,(.other,false)),some (69,(.other,false))],none,none,none,false,false,false,none,false,⟨.lcode,some (.own 3),false,.lblank⟩⟩] .leaf)) 106220480044 [⟨⟨.code,[64,114],.lcode,false,[],false⟩,false,false,[some (101,(.other,false)),some (69,(.other,false))],none,none,none,false,false,false,none,false,⟨.lcode,some (.own 3),false,.lblank⟩⟩] (.node (.node (.node .leaf 106245300378 [⟨⟨.code,[64,82],.lcode,false,[],false⟩,false,false,[some (101,(.other,false)),some (82,(.other,false))],none,none,none,false,false,false,none,false,⟨.lcode,some (.own 3),false,.lblank⟩⟩] .leaf) 106246480122 [⟨⟨.code,[64,114],.lcode,false,[],false⟩,false,false,[some (101,(.other,false)),some (82,(.other,false))],none,none,none,false,false,false,none,false,⟨.lcode,some (.own 3),false,.lblank⟩⟩] .leaf) 106265300438 [⟨⟨.code,[64,82],.lcode,false,[],false⟩,false,false,[some (101,(.other,false)),some (92,(.other,false))],none,none,none,false,false,false,none,false,⟨.lcode,some (.own 3),false,.lblank⟩⟩] (.node .leaf 106266480182 [⟨⟨.code,[64,114],.lcode,false,[],false⟩,false,false,[some (101,(.other,false)),some (92,(.other,false))],none,none,none,false,false,false,none,false,⟨.lcode,some (.own 3),false,.lblank⟩⟩] .leaf))) 106283300492 [⟨⟨.code,[64,82],.lcode,false,[],false⟩,false,false,[some (101,(.other,false)),some (101,(.other,false))],none,none,none,false,false,false,none,false,⟨.lcode,some (.own 3),false,.lblank⟩⟩] (.node (.node (.node (.node .leaf 106284480236 [⟨⟨.code,[64,114],.lcode,false,[],false⟩,false,false,[some (101,(.other,false)),some (101,(.other,false))],none,none,none,false,false,false,none,false,⟨.lcode,some (.own 3),false,.lblank⟩⟩] .leaf) 106309300570 [⟨⟨.code,[64,82],.lcode,false,[],false⟩,false,false,[some (101,(.other,false)),some (114,(.other,false))],none,none,none,false,false,false,none,false,⟨.lcode,some (.own 3),false,.lblank⟩⟩] .leaf) 106310480314 [⟨⟨.code,[64,114],.lcode,false,[],false⟩,false,false,[some (101,(.other,false)),some (114,(.other,false))],none,none,none,false,false,false,none,false,⟨.lcode,some (.own 3),false,.lblank⟩⟩] (.node (.node .leaf 106593301422 [⟨⟨.code,[64,82],.lcode,false,[],false⟩,false,false,[some (101,(.other,false)),some (256,(.other,false))],none,none,none,false,false,false,none,false,⟨.lcode,some (.own 3),false,.lblank⟩⟩] .leaf) 106594481166 [⟨⟨.code,[64,114],.lcode,false,[],false⟩,false,false,[some (101,(.other,false)),some (256,(.other,false))],none,none,none,false,false,false,none,false,⟨.lcode,some (.own 3),false,.lblank⟩⟩] .leaf)) 111160696636 [⟨⟨.code,[64,82],.lblank,false,[],false⟩,false,false,[some (101,(.other,false)),some (9,(.ws,false))],none,none,none,false,false,false,none,false,⟨.lcode,some (.own 3),false,.lblank⟩⟩] (.node (.node (.node .leaf 111161876380 [⟨⟨.code,[64,114],.lblank,false,[],false⟩,false,false,[some (101,(.other,false)),some (9,(.ws,false))],none,none,none,false,false,false,none,false,⟨.lcode,some (.own 3),false,.lblank⟩⟩] .leaf) 111162696642 [⟨⟨.code,[64,82],.lblank,false,[],false⟩,false,false,[some (101,(.other,false)),some (10,(.lf,false))],none,none,none,false,false,false,none,false,⟨.lcode,some (.own 3),false,.lblank⟩⟩] .leaf) 111163876386 [⟨⟨.code,[64,114],.lblank,false,[],false⟩,false,false,[some (101,(.other,false)),some (10,(.lf,false))],none,none,none,false,false,false,none,false,⟨.lcode,some (.own 3),false,.lblank⟩⟩] (.node .leaf 111166696654 [⟨⟨.code,[64,82],.lblank,false,[],false⟩,false,false,[some (101,(.other,false)),some (12,(.ff,false))],none,none,none,false,false,false,none,false,⟨.lcode,some (.own 3),false,.lblank⟩⟩] .leaf)))) 111167876398 [⟨⟨.code,[64,114],.lblank,false,[],false⟩,false,false,[some (101,(.other,false)),some (12,(.ff,false))],none,none,none,false,false,false,none,false,⟨.lcode,some (.own 3),false,.lblank⟩⟩] (.node (.node (.node (.node (.node .leaf 111168696660 [⟨⟨.code,[64,82],.lblank,false,[],false⟩,false,false,[some (101,(.other,false)),some (13,(.cr,false))],none,none,none,false,false,false,none,false,⟨.lcode,some (.own 3),false,.lblank⟩⟩] .leaf) 111169696663 [⟨⟨.code,[64,82],.lblank,false,[],false⟩,false,false,[some (101,(.other,false)),some (13,(.cr,true))],none,none,none,false,false,false,none,false,⟨.lcode,some (.own 3),false,.lblank⟩⟩] .leaf) 111169876404 [⟨⟨.code,[64,114],.lblank,false,[],false⟩,false,false,[some (101,(.other,false)),some (13,(.cr,false))],none,none,none,false,false,false,none,false,⟨.lcode,some (.own 3),false,.lblank⟩⟩] (.node (.node .leaf 111170876407 [⟨⟨.code,[64,114],.lblank,false,[],false⟩,false,false,[some (101,(.other,false)),some (13,(.cr,true))],none,none,none,false,false,false,none,false,⟨.lcode,some (.own 3),false,.lblank⟩⟩] .leaf) 111258696930 [⟨⟨.code,[64,82],.lblank,false,[],false⟩,false,false,[some (101,(.other,false)),some (58,(.other,false))],none,none,none,false,false,false,none,false,⟨.lcode,some (.own 3),false,.lblank⟩⟩] .leaf)) 111259876674 [⟨⟨.code,[64,114],.lblank,false,[],false⟩,false,false,[some (101,(.other,false)),some (58,(.other,false))],none,none,none,false,false,false,none,false,⟨.lcode,some (.own 3),false,.lblank⟩⟩] (.node (.node (.node .leaf 111270696966 [⟨⟨.code,[64,82],.lblank,false,[],false⟩,false,false,[some (101,(.other,false)),some (64,(.other,false))],none,none,none,false,false,false,none,false,⟨.lcode,some (.own 3),false,.lblank⟩⟩] .leaf) 111271876710 [⟨⟨.code,[64,114],.lblank,false,[],false⟩,false,false,[some (101,(.other,false)),some (64,(.other,false))],none,none,none,false,false,false,none,false,⟨.lcode,some (.own 3),false,.lblank⟩⟩] .leaf) 111280696996 [⟨⟨.code,[64,82],.lblank,false,[],false⟩,false,false,[some (101,(.other,false)),some (69,(.other,false))],none,none,none,false,false,false,none,false,⟨.lcode,some (.own 3),false,.lblank⟩⟩] (.node .leaf 111281876740 [⟨⟨.code,[64,114],.lblank,false,[],false⟩,false,false,[some (101,(.other,false)),some (69,(.other,false))],none,none,none,false,false,false,none,false,⟨.lcode,some (.own 3),false,.lblank⟩⟩] .leaf))) 111306697074 [⟨⟨.code,[64,82],.lblank,false,[],false⟩,false,false,[some (101,(.other,false)),some (82,(.other,false))],none,none,none,false,false,false,none,false,⟨.lcode,some (.own 3),false,.lblank⟩⟩] (.node (.node (.node (.node .leaf 111307876818 [⟨⟨.code,[64,114],.lblank,false,[],false⟩,false,false,[some (101,(.other,false)),some (82,(.other,false))],none,none,none,false,false,false,none,false,⟨.lcode,some (.own 3),false,.lblank⟩⟩] .leaf) 111326697134 [⟨⟨.code,[64,82],.lblank,false,[],false⟩,false,false,[some (101,(.other,false)),some (92,(.other,false))],none,none,none,false,false,false,none,false,⟨.lcode,some (.own 3),false,.lblank⟩⟩] .leaf) 111327876878 [⟨⟨.code,[64,114],.lblank,false,[],false⟩,false,false,[some (101,(.other,false)),some (92,(.other,false))],none,none,none,false,false,false,none,false,⟨.lcode,some (.own 3),false,.lblank⟩⟩] (.node .leaf 111344697188 [⟨⟨.code,[64,82],.lblank,false,[],false⟩,false,false,[some (101,(.other,false)),some (101,(.other,false))],none,none,none,false,false,false,none,false,⟨.lcode,some (.own 3),false,.lblank⟩⟩] .leaf)) 111345876932 [⟨⟨.code,[64,114],.lblank,false,[],false⟩,false,false,[some (101,(.other,false)),some (101,(.other,false))],none,none,none,false,false,false,none,false,⟨.lcode,some (.own 3),false,.lblank⟩⟩] (.node (.node (.node .leaf 111370697266 [⟨⟨.code,[64,82],.lblank,false,[],false⟩,false,false,[some (101,(.other,false)),some (114,(.other,false))],none,none,none,false,false,false,none,false,⟨.lcode,some (.own 3),false,.lblank⟩⟩] .leaf) 111371877010 [⟨⟨.code,[64,114],.lblank,false,[],false⟩,false,false,[some (101,(.other,false)),some (114,(.other,false))],none,none,none,false,false,false,none,false,⟨.lcode,some (.own 3),false,.lblank⟩⟩] .leaf) 111654698118 [⟨⟨.code,[64,82],.lblank,false,[],false⟩,false,false,[some (101,(.other,false)),some (256,(.other,false))],none,none,none,false,false,false,none,false,⟨.lcode,some (.own 3),false,.lblank⟩⟩] (.node .leaf 111655877862 [⟨⟨.code,[64,114],.lblank,false,[],false⟩,false,false,[some (101,(.other,false)),some (256,(.other,false))],none,none,none,false,false,false,none,false,⟨.lcode,some (.own 3),false,.lblank⟩⟩] .leaf))))))),(.node (.node .leaf 48369632 [⟨⟨(.inside 16),[],.lcode,false,[],false⟩,false,false,[],none,none,none,false,false,false,none,false,⟨.lcode,some (.own 3),false,.lblank⟩⟩] .leaf) 48517612 [⟨⟨(.inside 16),[],.lcomment,false,[],false⟩,false,false,[],none,none,none,false,false,false,none,false,⟨.lcomment,some (.own 3),false,.lblank⟩⟩] .leaf),(.node (.node (.node .leaf 1524136558 [⟨⟨.code,[64,82],.lcode,false,[],false⟩,false,false,[],some 3,some ⟨.code,[64],.lcode,false,[],false⟩,some ([(82,(.other,false))],true),false,false,false,none,false,⟨.lcode,some (.own 3),false,.lblank⟩⟩] .leaf) 1524136560 [⟨⟨.code,[64,82],.lcode,false,[],false⟩,false,false,[],some 3,some ⟨.code,[64],.lcode,false,[],false⟩,some ([(82,(.other,false))],true),false,false,true,none,false,⟨.lcode,some (.own 3),false,.lblank⟩⟩] (.node .leaf 1589316494 [⟨⟨.code,[64,114],.lcode,false,[],false⟩,false,false,[],some 3,some ⟨.code,[64],.lcode,false,[],false⟩,some ([(114,(.other,false))],true),false,false,false,none,false,⟨.lcode,some (.own 3),false,.lblank⟩⟩] .leaf)) 1589316496 [⟨⟨.code,[64,114],.lcode,false,[],false⟩,false,false,[],some 3,some ⟨.code,[64],.lcode,false,[],false⟩,some ([(114,(.other,false))],true),false,false,true,none,false,⟨.lcode,some (.own 3),false,.lblank⟩⟩] (.node (.node .leaf 6587952016 [⟨⟨.code,[64,82],.lblank,false,[],false⟩,false,false,[],some 3,some ⟨.code,[64],.lblank,false,[],false⟩,some ([(82,(.other,false))],true),false,false,true,none,false,⟨.lblank,some (.own 3),false,.lblank⟩⟩] .leaf) 6653131952 [⟨⟨.code,[64,114],.lblank,false,[],false⟩,false,false,[],some 3,some ⟨.code,[64],.lblank,false,[],false⟩,some ([(114,(.other,false))],true),false,false,true,none,false,⟨.lblank,some (.own 3),false,.lblank⟩⟩] .leaf)),(.node (.node (.node (.node (.node (.node (.node .leaf 1584631121 [⟨⟨.code,[82,69],.lcode,false,[],false⟩,false,false,[],some 3,some ⟨.code,[82],.lcode,false,[],false⟩,some ([(69,(.other,false))],true),false,false,false,none,false,⟨.lcode,some (.own 3),false,.lblank⟩⟩] .leaf) 1584631123 [⟨⟨.code,[82,69],.lcode,false,[],false⟩,false,false,[],some 3,some ⟨.code,[82],.lcode,false,[],false⟩,some ([(69,(.other,false))],true),false,false,true,none,false,⟨.lcode,some (.own 3),false,.lblank⟩⟩] (.node .leaf 1649811057 [⟨⟨.code,[82,101],.lcode,false,[],false⟩,false,false,[],some 3,some ⟨.code,[82],.lcode,false,[],false⟩,some ([(101,(.other,false))],true),false,false,false,none,false,⟨.lcode,some (.own 3),false,.lblank⟩⟩] .leaf)) 1649811059 [⟨⟨.code,[82,101],.lcode,false,[],false⟩,false,false,[],some 3,some ⟨.code,[82],.lcode,false,[],false⟩,some ([(101,(.other,false))],true),false,false,true,none,false,⟨.lcode,some (.own 3),false,.lblank⟩⟩] (.node (.node .leaf 1739251409 [⟨⟨.code,[114,69],.lcode,false,[],false⟩,false,false,[],some 3,some ⟨.code,[114],.lcode,false,[],false⟩,some ([(69,(.other,false))],true),false,false,false,none,false,⟨.lcode,some (.own 3),false,.lblank⟩⟩] .leaf) 1739251411 [⟨⟨.code,[114,69],.lcode,false,[],false⟩,false,false,[],some 3,some ⟨.code,[114],.lcode,false,[],false⟩,some ([(69,(.other,false))],true),false,false,true,none,false,⟨.lcode,some (.own 3),false,.lblank⟩⟩] (.node .leaf 1804431345 [⟨⟨.code,[114,101],.lcode,false,[],false⟩,false,false,[],some 3,some ⟨.code,[114],.lcode,false,[],false⟩,some ([(101,(.other,false))],true),false,false,false,none,false,⟨.lcode,some (.own 3),false,.lblank⟩⟩] .leaf))) 1804431347 [⟨⟨.code,[114,101],.lcode,false,[],false⟩,false,false,[],some 3,some ⟨.code,[114],.lcode,false,[],false⟩,some ([(101,(.other,false))],true),false,false,true,none,false,⟨.lcode,some (.own 3),false,.lblank⟩⟩] (.node (.node (.node .leaf 6648446579 [⟨⟨.code,[82,69],.lblank,false,[],false⟩,false,false,[],some 3,some ⟨.code,[82],.lblank,false,[],false⟩,some ([(69,(.other,false))],true),false,false,true,none,false,⟨.lblank,some (.own 3),false,.lblank⟩⟩] .leaf) 6713626515 [⟨⟨.code,[82,101],.lblank,false,[],false⟩,false,false,[],some 3,some ⟨.code,[82],.lblank,false,[],false⟩,some ([(101,(.other,false))],true),false,false,true,none,false,⟨.lblank,some (.own 3),false,.lblank⟩⟩] (.node .leaf 6803066867 [⟨⟨.code,[114,69],.lblank,false,[],false⟩,false,false,[],some 3,some ⟨.code,[114],.lblank,false,[],false⟩,some ([(69,(.other,false))],true),false,false,true,none,false,⟨.lblank,some (.own 3),false,.lblank⟩⟩] .leaf)) 6868246803 [⟨⟨.code,[114,101],.lblank,false,[],false⟩,false,false,[],some 3,some ⟨.code,[114],.lblank,false,[],false⟩,some ([(101,(.other,false))],true),false,false,true,none,false,⟨.lblank,some (.own 3),false,.lblank⟩⟩] (.node (.node .leaf 49814144639 [⟨⟨.code,[64,82,69],.lcode,false,[],false⟩,false,false,[none],some 3,some ⟨.code,[64,82],.lcode,false,[],false⟩,some ([(69,(.other,false))],true),false,false,false,none,false,⟨.lcode,some (.own 3),false,.lblank⟩⟩] .leaf) 49968764927 [⟨⟨.code,[64,114,69],.lcode,false,[],false⟩,false,false,[none],some 3,some ⟨.code,[64,114],.lcode,false,[],false⟩,some ([(69,(.other,false))],true),false,false,false,none,false,⟨.lcode,some (.own 3),false,.lblank⟩⟩] (.node .leaf 50263325727 [⟨⟨.code,[64,82,101],.lcode,false,[],false⟩,false,false,[none],some 3,some ⟨.code,[64,82],.lcode,false,[],false⟩,some ([(101,(.other,false))],true),false,false,false,none,false,⟨.lcode,some (.own 3),false,.lblank⟩⟩] .leaf)))) 50417946015 [⟨⟨.code,[64,114,101],.lcode,false,[],false⟩,false,false,[none],some 3,some ⟨.code,[64,114],.lcode,false,[],false⟩,some ([(101,(.other,false))],true),false,false,false,none,false,⟨.lcode,some (.own 3),false,.lblank⟩⟩] (.node (.node (.node (.node .leaf 656868965798 [⟨⟨.code,[64,82,69],.lcode,false,[],false⟩,false,false,[some (9,(.ws,false))],some 3,some ⟨.code,[64,82],.lcode,false,[],false⟩,some ([(69,(.other,false))],true),false,false,false,none,false,⟨.lcode,some (.own 3),false,.lblank⟩⟩] .leaf) 656870965804 [⟨⟨.code,[64,82,69],.lcode,false,[],false⟩,false,false,[some (10,(.lf,false))],some 3,some ⟨.code,[64,82],.lcode,false,[],false⟩,some ([(69,(.other,false))],true),false,false,false,none,false,⟨.lcode,some (.own 3),false,.lblank⟩⟩] (.node .leaf 656874965816 [⟨⟨.code,[64,82,69],.lcode,false,[],false⟩,false,false,[some (12,(.ff,false))],some 3,some ⟨.code,[64,82],.lcode,false,[],false⟩,some ([(69,(.other,false))],true),false,false,false,none,false,⟨.lcode,some (.own 3),false,.lblank⟩⟩] .leaf)) 656876965822 [⟨⟨.code,[64,82,69],.lcode,false,[],false⟩,false,false,[some (13,(.cr,false))],some 3,some ⟨.code,[64,82],.lcode,false,[],false⟩,some ([(69,(.other,false))],true),false,false,false,none,false,⟨.lcode,some (.own 3),false,.lblank⟩⟩] (.node (.node .leaf 656877965825 [⟨⟨.code,[64,82,69],.lcode,false,[],false⟩,false,false,[some (13,(.cr,true))],some 3,some ⟨.code,[64,82],.lcode,false,[],false⟩,some ([(69,(.other,false))],true),false,false,false,none,false,⟨.lcode,some (.own 3),false,.lblank⟩⟩] .leaf) 656966966092 [⟨⟨.code,[64,82,69],.lcode,false,[],false⟩,false,false,[some (58,(.other,false))],some 3,some ⟨.code,[64,82],.lcode,false,[],false⟩,some ([(69,(.other,false))],true),false,false,false,none,false,⟨.lcode,some (.own 3),false,.lblank⟩⟩] (.node .leaf 656978966128 [⟨⟨.code,[64,82,69],.lcode,false,[],false⟩,false,false,[some (64,(.other,false))],some 3,some ⟨.code,[64,82],.lcode,false,[],false⟩,some ([(69,(.other,false))],true),false,false,false,none,false,⟨.lcode,some (.own 3),false,.lblank⟩⟩] .leaf))) 656988966158 [⟨⟨.code,[64,82,69],.lcode,false,[],false⟩,false,false,[some (69,(.other,false))],some 3,some ⟨.code,[64,82],.lcode,false,[],false⟩,some ([(69,(.other,false))],true),false,false,false,none,false,⟨.lcode,some (.own 3),false,.lblank⟩⟩] (.node (.node (.node .leaf 657014966236 [⟨⟨.code,[64,82,69],.lcode,false,[],false⟩,false,false,[some (82,(.other,false))],some 3,some ⟨.code,[64,82],.lcode,false,[],false⟩,some ([(69,(.other,false))],true),false,false,false,none,false,⟨.lcode,some (.own 3),false,.lblank⟩⟩] .leaf) 657023586086 [⟨⟨.code,[64,114,69],.lcode,false,[],false⟩,false,false,[some (9,(.ws,false))],some 3,some ⟨.code,[64,114],.lcode,false,[],false⟩,some ([(69,(.other,false))],true),false,false,false,none,false,⟨.lcode,some (.own 3),false,.lblank⟩⟩] (.node .leaf 657025586092 [⟨⟨.code,[64,114,69],.lcode,false,[],false⟩,false,false,[some (10,(.lf,false))],some 3,some ⟨.code,[64,114],.lcode,false,[],false⟩,some ([(69,(.other,false))],true),false,false,false,none,false,⟨.lcode,some (.own 3),false,.lblank⟩⟩] .leaf)) 657029586104 [⟨⟨.code,[64,114,69],.lcode,false,[],false⟩,false,false,[some (12,(.ff,false))],some 3,some ⟨.code,[64,114],.lcode,false,[],false⟩,some ([(69,(.other,false))],true),false,false,false,none,false,⟨.lcode,some (.own 3),false,.lblank⟩⟩] (.node (.node .leaf 657031586110 [⟨⟨.code,[64,114,69],.lcode,false,[],false⟩,false,false,[some (13,(.cr,false))],some 3,some ⟨.code,[64,114],.lcode,false,[],false⟩,some ([(69,(.other,false))],true),false,false,false,none,false,⟨.lcode,some (.own 3),false,.lblank⟩⟩] .leaf) 657032586113 [⟨⟨.code,[64,114,69],.lcode,false,[],false⟩,false,false,[some (13,(.cr,true))],some 3,some ⟨.code,[64,114],.lcode,false,[],false⟩,some ([(69,(.other,false))],true),false,false,false,none,false,⟨.lcode,some (.own 3),false,.lblank⟩⟩] (.node .leaf 657034966296 [⟨⟨.code,[64,82,69],.lcode,false,[],false⟩,false,false,[some (92,(.other,false))],some 3,some ⟨.code,[64,82],.lcode,false,[],false⟩,some ([(69,(.other,false))],true),false,false,false,none,false,⟨.lcode,some (.own 3),false,.lblank⟩⟩] .leaf))))) 657052966350 [⟨⟨.code,[64,82,69],.lcode,false,[],false⟩,false,false,[some (101,(.other,false))],some 3,some ⟨.code,[64,82],.lcode,false,[],false⟩,some ([(69,(.other,false))],true),false,false,false,none,false,⟨.lcode,some (.own 3),false,.lblank⟩⟩] (.node (.node (.node (.node (.node .leaf 657078966428 [⟨⟨.code,[64,82,69],.lcode,false,[],false⟩,false,false,[some (114,(.other,false))],some 3,some ⟨.code,[64,82],.lcode,false,[],false⟩,some ([(69,(.other,false))],true),false,false,false,none,false,⟨.lcode,some (.own 3),false,.lblank⟩⟩] .leaf) 657121586380 [⟨⟨.code,[64,114,69],.lcode,false,[],false⟩,false,false,[some (58,(.other,false))],some 3,some ⟨.code,[64,114],.lcode,false,[],false⟩,some ([(69,(.other,false))],true),false,false,false,none,false,⟨.lcode,some (.own 3),false,.lblank⟩⟩] (.node .leaf 657133586416 [⟨⟨.code,[64,114,69],.lcode,false,[],false⟩,false,false,[some (64,(.other,false))],some 3,some ⟨.code,[64,114],.lcode,false,[],false⟩,some ([(69,(.other,false))],true),false,false,false,none,false,⟨.lcode,some (.own 3),false,.lblank⟩⟩] .leaf)) 657143586446 [⟨⟨.code,[64,114,69],.lcode,false,[],false⟩,false,false,[some (69,(.other,false))],some 3,some ⟨.code,[64,114],.lcode,false,[],false⟩,some ([(69,(.other,false))],true),false,false,false,none,false,⟨.lcode,some (.own 3),false,.lblank⟩⟩] (.node (.node .leaf 657169586524 [⟨⟨.code,[64,114,69],.lcode,false,[],false⟩,false,false,[some (82,(.other,false))],some 3,some ⟨.code,[64,114],.lcode,false,[],false⟩,some ([(69,(.other,false))],true),false,false,false,none,false,⟨.lcode,some (.own 3),false,.lblank⟩⟩] .leaf) 657189586584 [⟨⟨.code,[64,114,69],.lcode,false,[],false⟩,false,false,[some (92,(.other,false))],some 3,some ⟨.code,[64,114],.lcode,false,[],false⟩,some ([(69,(.other,false))],true),false,false,false,none,false,⟨.lcode,some (.own 3),false,.lblank⟩⟩] (.node .leaf 657207586638 [⟨⟨.code,[64,114,69],.lcode,false,[],false⟩,false,false,[some (101,(.other,false))],some 3,some ⟨.code,[64,114],.lcode,false,[],false⟩,some ([(69,(.other,false))],true),false,false,false,none,false,⟨.lcode,some (.own 3),false,.lblank⟩⟩] .leaf))) 657233586716 [⟨⟨.code,[64,114,69],.lcode,false,[],false⟩,false,false,[some (114,(.other,false))],some 3,some ⟨.code,[64,114],.lcode,false,[],false⟩,some ([(69,(.other,false))],true),false,false,false,none,false,⟨.lcode,some (.own 3),false,.lblank⟩⟩] (.node (.node (.node .leaf 657362967280 [⟨⟨.code,[64,82,69],.lcode,false,[],false⟩,false,false,[some (256,(.other,false))],some 3,some ⟨.code,[64,82],.lcode,false,[],false⟩,some ([(69,(.other,false))],true),false,false,false,none,false,⟨.lcode,some (.own 3),false,.lblank⟩⟩] .leaf) 657517587568 [⟨⟨.code,[64,114,69],.lcode,false,[],false⟩,false,false,[some (256,(.other,false))],some 3,some ⟨.code,[64,114],.lcode,false,[],false⟩,some ([(69,(.other,false))],true),false,false,false,none,false,⟨.lcode,some (.own 3),false,.lblank⟩⟩] (.node .leaf 690214245574 [⟨⟨.code,[64,82,101],.lcode,false,[],false⟩,false,false,[some (9,(.ws,false))],some 3,some ⟨.code,[64,82],.lcode,false,[],false⟩,some ([(101,(.other,false))],true),false,false,false,none,false,⟨.lcode,some (.own 3),false,.lblank⟩⟩] .leaf)) 690216245580 [⟨⟨.code,[64,82,101],.lcode,false,[],false⟩,false,false,[some (10,(.lf,false))],some 3,some ⟨.code,[64,82],.lcode,false,[],false⟩,some ([(101,(.other,false))],true),false,false,false,none,false,⟨.lcode,some (.own 3),false,.lblank⟩⟩] (.node (.node .leaf 690220245592 [⟨⟨.code,[64,82,101],.lcode,false,[],false⟩,false,false,[some (12,(.ff,false))],some 3,some ⟨.code,[64,82],.lcode,false,[],false⟩,some ([(101,(.other,false))],true),false,false,false,none,false,⟨.lcode,some (.own 3),false,.lblank⟩⟩] .leaf) 690222245598 [⟨⟨.code,[64,82,101],.lcode,false,[],false⟩,false,false,[some (13,(.cr,false))],some 3,some ⟨.code,[64,82],.lcode,false,[],false⟩,some ([(101,(.other,false))],true),false,false,false,none,false,⟨.lcode,some (.own 3),false,.lblank⟩⟩] (.node .leaf 690223245601 [⟨⟨.code,[64,82,101],.lcode,false,[],false⟩,false,false,[some (13,(.cr,true))],some 3,some ⟨.code,[64,82],.lcode,false,[],false⟩,some ([(101,(.other,false))],true),false,false,false,none,false,⟨.lcode,some (.own 3),false,.lblank⟩⟩] .leaf)))) 690312245868 [⟨⟨.code,[64,82,101],.lcode,false,[],false⟩,false,false,[some (58,(.other,false))],some 3,some ⟨.code,[64,82],.lcode,false,[],false⟩,some ([(101,(.other,false))],true),false,false,false,none,false,⟨.lcode,some (.own 3),false,.lblank⟩⟩] (.node (.node (.node (.node .leaf 690324245904 [⟨⟨.code,[64,82,101],.lcode,false,[],false⟩,false,false,[some (64,(.other,false))],some 3,some ⟨.code,[64,82],.lcode,false,[],false⟩,some ([(101,(.other,false))],true),false,false,false,none,false,⟨.lcode,some (.own 3),false,.lblank⟩⟩] .leaf) 690334245934 [⟨⟨.code,[64,82,101],.lcode,false,[],false⟩,false,false,[some (69,(.other,false))],some 3,some ⟨.code,[64,82],.lcode,false,[],false⟩,some ([(101,(.other,false))],true),false,false,false,none,false,⟨.lcode,some (.own 3),false,.lblank⟩⟩] (.node .leaf 690360246012 [⟨⟨.code,[64,82,101],.lcode,false,[],false⟩,false,false,[some (82,(.other,false))],some 3,some ⟨.code,[64,82],.lcode,false,[],false⟩,some ([(101,(.other,false))],true),false,false,false,none,false,⟨.lcode,some (.own 3),false,.lblank⟩⟩] .leaf)) 690368865862 [⟨⟨.code,[64,114,101],.lcode,false,[],false⟩,false,false,[some (9,(.ws,false))],some 3,some ⟨.code,[64,114],.lcode,false,[],false⟩,some ([(101,(.other,false))],true),false,false,false,none,false,⟨.lcode,some (.own 3),false,.lblank⟩⟩] (.node (.node .leaf 690370865868 [⟨⟨.code,[64,114,101],.lcode,false,[],false⟩,false,false,[some (10,(.lf,false))],some 3,some ⟨.code,[64,114],.lcode,false,[],false⟩,some ([(101,(.other,false))],true),false,false,false,none,false,⟨.lcode,some (.own 3),false,.lblank⟩⟩] .leaf) 690374865880 [⟨⟨.code,[64,114,101],.lcode,false,[],false⟩,false,false,[some (12,(.ff,false))],some 3,some ⟨.code,[64,114],.lcode,false,[],false⟩,some ([(101,(.other,false))],true),false,false,false,none,false,⟨.lcode,some (.own 3),false,.lblank⟩⟩] (.node .leaf 690376865886 [⟨⟨.code,[64,114,101],.lcode,false,[],false⟩,false,false,[some (13,(.cr,false))],some 3,some ⟨.code,[64,114],.lcode,false,[],false⟩,some ([(101,(.other,false))],true),false,false,false,none,false,⟨.lcode,some (.own 3),false,.lblank⟩⟩] .leaf))) 690377865889 [⟨⟨.code,[64,114,101],.lcode,false,[],false⟩,false,false,[some (13,(.cr,true))],some 3,some ⟨.code,[64,114],.lcode,false,[],false⟩,some ([(101,(.other,false))],true),false,false,false,none,false,⟨.lcode,some (.own 3),false,.lblank⟩⟩] (.node (.node (.node .leaf 690380246072 [⟨⟨.code,[64,82,101],.lcode,false,[],false⟩,false,false,[some (92,(.other,false))],some 3,some ⟨.code,[64,82],.lcode,false,[],false⟩,some ([(101,(.other,false))],true),false,false,false,none,false,⟨.lcode,some (.own 3),false,.lblank⟩⟩] .leaf) 690398246126 [⟨⟨.code,[64,82,101],.lcode,false,[],false⟩,false,false,[some (101,(.other,false))],some 3,some ⟨.code,[64,82],.lcode,false,[],false⟩,some ([(101,(.other,false))],true),false,false,false,none,false,⟨.lcode,some (.own 3),false,.lblank⟩⟩] (.node .leaf 690424246204 [⟨⟨.code,[64,82,101],.lcode,false,[],false⟩,false,false,[some (114,(.other,false))],some 3,some ⟨.code,[64,82],.lcode,false,[],false⟩,some ([(101,(.other,false))],true),false,false,false,none,false,⟨.lcode,some (.own 3),false,.lblank⟩⟩] .leaf)) 690466866156 [⟨⟨.code,[64,114,101],.lcode,false,[],false⟩,false,false,[some (58,(.other,false))],some 3,some ⟨.code,[64,114],.lcode,false,[],false⟩,some ([(101,(.other,false))],true),false,false,false,none,false,⟨.lcode,some (.own 3),false,.lblank⟩⟩] (.node (.node .leaf 690478866192 [⟨⟨.code,[64,114,101],.lcode,false,[],false⟩,false,false,[some (64,(.other,false))],some 3,some ⟨.code,[64,114],.lcode,false,[],false⟩,some ([(101,(.other,false))],true),false,false,false,none,false,⟨.lcode,some (.own 3),false,.lblank⟩⟩] .leaf) 690488866222 [⟨⟨.code,[64,114,101],.lcode,false,[],false⟩,false,false,[some (69,(.other,false))],some 3,some ⟨.code,[64,114],.lcode,false,[],false⟩,some ([(101,(.other,false))],true),false,false,false,none,false,⟨.lcode,some (.own 3),false,.lblank⟩⟩] .leaf))))) 690514866300 [⟨⟨.code,[64,114,101],.lcode,false,[],false⟩,false,false,[some (82,(.other,false))],some 3,some ⟨.code,[64,114],.lcode,false,[],false⟩,some ([(101,(.other,false))],true),false,false,false,none,false,⟨.lcode,some (.own 3),false,.lblank⟩⟩] (.node (.node (.node (.node (.node (.node .leaf 690534866360 [⟨⟨.code,[64,114,101],.lcode,false,[],false⟩,false,false,[some (92,(.other,false))],some 3,some ⟨.code,[64,114],.lcode,false,[],false⟩,some ([(101,(.other,false))],true),false,false,false,none,false,⟨.lcode,some (.own 3),false,.lblank⟩⟩] .leaf) 690552866414 [⟨⟨.code,[64,114,101],.lcode,false,[],false⟩,false,false,[some (101,(.other,false))],some 3,some ⟨.code,[64,114],.lcode,false,[],false⟩,some ([(101,(.other,false))],true),false,false,false,none,false,⟨.lcode,some (.own 3),false,.lblank⟩⟩] (.node .leaf 690578866492 [⟨⟨.code,[64,114,101],.lcode,false,[],false⟩,false,false,[some (114,(.other,false))],some 3,some ⟨.code,[64,114],.lcode,false,[],false⟩,some ([(101,(.other,false))],true),false,false,false,none,false,⟨.lcode,some (.own 3),false,.lblank⟩⟩] .leaf)) 690708247056 [⟨⟨.code,[64,82,101],.lcode,false,[],false⟩,false,false,[some (256,(.other,false))],some 3,some ⟨.code,[64,82],.lcode,false,[],false⟩,some ([(101,(.other,false))],true),false,false,false,none,false,⟨.lcode,some (.own 3),false,.lblank⟩⟩] (.node (.node .leaf 690862867344 [⟨⟨.code,[64,114,101],.lcode,false,[],false⟩,false,false,[some (256,(.other,false))],some 3,some ⟨.code,[64,114],.lcode,false,[],false⟩,some ([(101,(.other,false))],true),false,false,false,none,false,⟨.lcode,some (.own 3),false,.lblank⟩⟩] .leaf) 713173835231 [⟨⟨.code,[64,82,69],.lblank,false,[],false⟩,false,false,[none],some 3,some ⟨.code,[64,82],.lblank,false,[],false⟩,some ([(69,(.other,false))],true),false,false,false,none,false,⟨.lcode,some (.own 3),false,.lblank⟩⟩] (.node .leaf 713328455519 [⟨⟨.code,[64,114,69],.lblank,false,[],false⟩,false,false,[none],some 3,some ⟨.code,[64,114],.lblank,false,[],false⟩,some ([(69,(.other,false))],true),false,false,false,none,false,⟨.lcode,some (.own 3),false,.lblank⟩⟩] .leaf))) 713623016319 [⟨⟨.code,[64,82,101],.lblank,false,[],false⟩,false,false,[none],some 3,some ⟨.code,[64,82],.lblank,false,[],false⟩,some ([(101,(.other,false))],true),false,false,false,none,false,⟨.lcode,some (.own 3),false,.lblank⟩⟩] (.node (.node (.node .leaf 713777636607 [⟨⟨.code,[64,114,101],.lblank,false,[],false⟩,false,false,[none],some 3,some ⟨.code,[64,114],.lblank,false,[],false⟩,some ([(101,(.other,false))],true),false,false,false,none,false,⟨.lcode,some (.own 3),false,.lblank⟩⟩] .leaf) 1320228656390 [⟨⟨.code,[64,82,69],.lblank,false,[],false⟩,false,false,[some (9,(.ws,false))],some 3,some ⟨.code,[64,82],.lblank,false,[],false⟩,some ([(69,(.other,false))],true),false,false,false,none,false,⟨.lcode,some (.own 3),false,.lblank⟩⟩] (.node .leaf 1320230656396 [⟨⟨.code,[64,82,69],.lblank,false,[],false⟩,false,false,[some (10,(.lf,false))],some 3,some ⟨.code,[64,82],.lblank,false,[],false⟩,some ([(69,(.other,false))],true),false,false,false,none,false,⟨.lcode,some (.own 3),false,.lblank⟩⟩] .leaf)) 1320234656408 [⟨⟨.code,[64,82,69],.lblank,false,[],false⟩,false,false,[some (12,(.ff,false))],some 3,some ⟨.code,[64,82],.lblank,false,[],false⟩,some ([(69,(.other,false))],true),false,false,false,none,false,⟨.lcode,some (.own 3),false,.lblank⟩⟩] (.node (.node .leaf 1320236656414 [⟨⟨.code,[64,82,69],.lblank,false,[],false⟩,false,false,[some (13,(.cr,false))],some 3,some ⟨.code,[64,82],.lblank,false,[],false⟩,some ([(69,(.other,false))],true),false,false,false,none,false,⟨.lcode,some (.own 3),false,.lblank⟩⟩] .leaf) 1320237656417 [⟨⟨.code,[64,82,69],.lblank,false,[],false⟩,false,false,[some (13,(.cr,true))],some 3,some ⟨.code,[64,82],.lblank,false,[],false⟩,some ([(69,(.other,false))],true),false,false,false,none,false,⟨.lcode,some (.own 3),false,.lblank⟩⟩] (.node .leaf 1320326656684 [⟨⟨.code,[64,82,69],.lblank,false,[],false⟩,false,false,[some (58,(.other,false))],some 3,some ⟨.code,[64,82],.lblank,false,[],false⟩,some ([(69,(.other,false))],true),false,false,false,none,false,⟨.lcode,some (.own 3),false,.lblank⟩⟩] .leaf)))) 1320338656720 [⟨⟨.code,[64,82,69],.lblank,false,[],false⟩,false,false,[some (64,(.other,false))],some 3,some ⟨.code,[64,82],.lblank,false,[],false⟩,some ([(69,(.other,false))],true),false,false,false,none,false,⟨.lcode,some (.own 3),false,.lblank⟩⟩] (.node (.node (.node (.node .leaf 1320348656750 [⟨⟨.code,[64,82,69],.lblank,false,[],false⟩,false,false,[some (69,(.other,false))],some 3,some ⟨.code,[64,82],.lblank,false,[],false⟩,some ([(69,(.other,false))],true),false,false,false,none,false,⟨.lcode,some (.own 3),false,.lblank⟩⟩] .leaf) 1320374656828 [⟨⟨.code,[64,82,69],.lblank,false,[],false⟩,false,false,[some (82,(.other,false))],some 3,some ⟨.code,[64,82],.lblank,false,[],false⟩,some ([(69,(.other,false))],true),false,false,false,none,false,⟨.lcode,some (.own 3),false,.lblank⟩⟩] (.node .leaf 1320383276678 [⟨⟨.code,[64,114,69],.lblank,false,[],false⟩,false,false,[some (9,(.ws,false))],some 3,some ⟨.code,[64,114],.lblank,false,[],false⟩,some ([(69,(.other,false))],true),false,false,false,none,false,⟨.lcode,some (.own 3),false,.lblank⟩⟩] .leaf)) 1320385276684 [⟨⟨.code,[64,114,69],.lblank,false,[],false⟩,false,false,[some (10,(.lf,false))],some 3,some ⟨.code,[64,114],.lblank,false,[],false⟩,some ([(69,(.other,false))],true),false,false,false,none,false,⟨.lcode,some (.own 3),false,.lblank⟩⟩] (.node (.node .leaf 1320389276696 [⟨⟨.code,[64,114,69],.lblank,false,[],false⟩,false,false,[some (12,(.ff,false))],some 3,some ⟨.code,[64,114],.lblank,false,[],false⟩,some ([(69,(.other,false))],true),false,false,false,none,false,⟨.lcode,some (.own 3),false,.lblank⟩⟩] .leaf) 1320391276702 [⟨⟨.code,[64,114,69],.lblank,false,[],false⟩,false,false,[some (13,(.cr,false))],some 3,some ⟨.code,[64,114],.lblank,false,[],false⟩,some ([(69,(.other,false))],true),false,false,false,none,false,⟨.lcode,some (.own 3),false,.lblank⟩⟩] (.node .leaf 1320392276705 [⟨⟨.code,[64,114,69],.lblank,false,[],false⟩,false,false,[some (13,(.cr,true))],some 3,some ⟨.code,[64,114],.lblank,false,[],false⟩,some ([(69,(.other,false))],true),false,false,false,none,false,⟨.lcode,some (.own 3),false,.lblank⟩⟩] .leaf))) 1320394656888 [⟨⟨.code,[64,82,69],.lblank,false,[],false⟩,false,false,[some (92,(.other,false))],some 3,some ⟨.code,[64,82],.lblank,false,[],false⟩,some ([(69,(.other,false))],true),false,false,false,none,false,⟨.lcode,some (.own 3),false,.lblank⟩⟩] (.node (.node (.node .leaf 1320412656942 [⟨⟨.code,[64,82,69],.lblank,false,[],false⟩,false,false,[some (101,(.other,false))],some 3,some ⟨.code,[64,82],.lblank,false,[],false⟩,some ([(69,(.other,false))],true),false,false,false,none,false,⟨.lcode,some (.own 3),false,.lblank⟩⟩] .leaf) 1320438657020 [⟨⟨.code,[64,82,69],.lblank,false,[],false⟩,false,false,[some (114,(.other,false))],some 3,some ⟨.code,[64,82],.lblank,false,[],false⟩,some ([(69,(.other,false))],true),false,false,false,none,false,⟨.lcode,some (.own 3),false,.lblank⟩⟩] (.node .leaf 1320481276972 [⟨⟨.code,[64,114,69],.lblank,false,[],false⟩,false,false,[some (58,(.other,false))],some 3,some ⟨.code,[64,114],.lblank,false,[],false⟩,some ([(69,(.other,false))],true),false,false,false,none,false,⟨.lcode,some (.own 3),false,.lblank⟩⟩] .leaf)) 1320493277008 [⟨⟨.code,[64,114,69],.lblank,false,[],false⟩,false,false,[some (64,(.other,false))],some 3,some ⟨.code,[64,114],.lblank,false,[],false⟩,some ([(69,(.other,false))],true),false,false,false,none,false,⟨.lcode,some (.own 3),false,.lblank⟩⟩] (.node (.node .leaf 1320503277038 [⟨⟨.code,[64,114,69],.lblank,false,[],false⟩,false,false,[some (69,(.other,false))],some 3,some ⟨.code,[64,114],.lblank,false,[],false⟩,some ([(69,(.other,false))],true),false,false,false,none,false,⟨.lcode,some (.own 3),false,.lblank⟩⟩] .leaf) 1320529277116 [⟨⟨.code,[64,114,69],.lblank,false,[],false⟩,false,false,[some (82,(.other,false))],some 3,some ⟨.code,[64,114],.lblank,false,[],false⟩,some ([(69,(.other,false))],true),false,false,false,none,false,⟨.lcode,some (.own 3),false,.lblank⟩⟩] .leaf)))) 1320549277176 [⟨⟨.code,[64,114,69],.lblank,false,[],false⟩,false,false,[some (92,(.other,false))],some 3,some ⟨.code,[64,114],.lblank,false,[],false⟩,some ([(69,(.other,false))],true),false,false,false,none,false,⟨.lcode,some (.own 3),false,.lblank⟩⟩] (.node (.node (.node (.node (.node .leaf 1320567277230 [⟨⟨.code,[64,114,69],.lblank,false,[],false⟩,false,false,[some (101,(.other,false))],some 3,some ⟨.code,[64,114],.lblank,false,[],false⟩,some ([(69,(.other,false))],true),false,false,false,none,false,⟨.lcode,some (.own 3),false,.lblank⟩⟩] .leaf) 1320593277308 [⟨⟨.code,[64,114,69],.lblank,false,[],false⟩,false,false,[some (114,(.other,false))],some 3,some ⟨.code,[64,114],.lblank,false,[],false⟩,some ([(69,(.other,false))],true),false,false,false,none,false,⟨.lcode,some (.own 3),false,.lblank⟩⟩] (.node .leaf 1320722657872 [⟨⟨.code,[64,82,69],.lblank,false,[],false⟩,false,false,[some (256,(.other,false))],some 3,some ⟨.code,[64,82],.lblank,false,[],false⟩,some ([(69,(.other,false))],true),false,false,false,none,false,⟨.lcode,some (.own 3),false,.lblank⟩⟩] .leaf)) 1320877278160 [⟨⟨.code,[64,114,69],.lblank,false,[],false⟩,false,false,[some (256,(.other,false))],some 3,some ⟨.code,[64,114],.lblank,false,[],false⟩,some ([(69,(.other,false))],true),false,false,false,none,false,⟨.lcode,some (.own 3),false,.lblank⟩⟩] (.node (.node .leaf 1353573936166 [⟨⟨.code,[64,82,101],.lblank,false,[],false⟩,false,false,[some (9,(.ws,false))],some 3,some ⟨.code,[64,82],.lblank,false,[],false⟩,some ([(101,(.other,false))],true),false,false,false,none,false,⟨.lcode,some (.own 3),false,.lblank⟩⟩] .leaf) 1353575936172 [⟨⟨.code,[64,82,101],.lblank,false,[],false⟩,false,false,[some (10,(.lf,false))],some 3,some ⟨.code,[64,82],.lblank,false,[],false⟩,some ([(101,(.other,false))],true),false,false,false,none,false,⟨.lcode,some (.own 3),false,.lblank⟩⟩] (.node .leaf 1353579936184 [⟨⟨.code,[64,82,101],.lblank,false,[],false⟩,false,false,[some (12,(.ff,false))],some 3,some ⟨.code,[64,82],.lblank,false,[],false⟩,some ([(101,(.other,false))],true),false,false,false,none,false,⟨.lcode,some (.own 3),false,.lblank⟩⟩] .leaf))) 1353581936190 [⟨⟨.code,[64,82,101],.lblank,false,[],false⟩,false,false,[some (13,(.cr,false))],some 3,some ⟨.code,[64,82],.lblank,false,[],false⟩,some ([(101,(.other,false))],true),false,false,false,none,false,⟨.lcode,some (.own 3),false,.lblank⟩⟩] (.node (.node (.node .leaf 1353582936193 [⟨⟨.code,[64,82,101],.lblank,false,[],false⟩,false,false,[some (13,(.cr,true))],some 3,some ⟨.code,[64,82],.lblank,false,[],false⟩,some ([(101,(.other,false))],true),false,false,false,none,false,⟨.lcode,some (.own 3),false,.lblank⟩⟩] .leaf) 1353671936460 [⟨⟨.code,[64,82,101],.lblank,false,[],false⟩,false,false,[some (58,(.other,false))],some 3,some ⟨.code,[64,82],.lblank,false,[],false⟩,some ([(101,(.other,false))],true),false,false,false,none,false,⟨.lcode,some (.own 3),false,.lblank⟩⟩] (.node .leaf 1353683936496 [⟨⟨.code,[64,82,101],.lblank,false,[],false⟩,false,false,[some (64,(.other,false))],some 3,some ⟨.code,[64,82],.lblank,false,[],false⟩,some ([(101,(.other,false))],true),false,false,false,none,false,⟨.lcode,some (.own 3),false,.lblank⟩⟩] .leaf)) 1353693936526 [⟨⟨.code,[64,82,101],.lblank,false,[],false⟩,false,false,[some (69,(.other,false))],some 3,some ⟨.code,[64,82],.lblank,false,[],false⟩,some ([(101,(.other,false))],true),false,false,false,none,false,⟨.lcode,some (.own 3),false,.lblank⟩⟩] (.node (.node .leaf 1353719936604 [⟨⟨.code,[64,82,101],.lblank,false,[],false⟩,false,false,[some (82,(.other,false))],some 3,some ⟨.code,[64,82],.lblank,false,[],false⟩,some ([(101,(.other,false))],true),false,false,false,none,false,⟨.lcode,some (.own 3),false,.lblank⟩⟩] .leaf) 1353728556454 [⟨⟨.code,[64,114,101],.lblank,false,[],false⟩,false,false,[some (9,(.ws,false))],some 3,some ⟨.code,[64,114],.lblank,false,[],false⟩,some ([(101,(.other,false))],true),false,false,false,none,false,⟨.lcode,some (.own 3),false,.lblank⟩⟩] (.node .leaf 1353730556460 [⟨⟨.code,[64,114,101],.lblank,false,[],false⟩,false,false,[some (10,(.lf,false))],some 3,some ⟨.code,[64,114],.lblank,false,[],false⟩,some ([(101,(.other,false))],true),false,false,false,none,false,⟨.lcode,some (.own 3),false,.lblank⟩⟩] .leaf)))) 1353734556472 [⟨⟨.code,[64,114,101],.lblank,false,[],false⟩,false,false,[some (12,(.ff,false))],some 3,some ⟨.code,[64,114],.lblank,false,[],false⟩,some ([(101,(.other,false))],true),false,false,false,none,false,⟨.lcode,some (.own 3),false,.lblank⟩⟩] (.node (.node (.node (.node .leaf 1353736556478 [⟨⟨.code,[64,114,101],.lblank,false,[],false⟩,false,false,[some (13,(.cr,false))],some 3,some ⟨.code,[64,114],.lblank,false,[],false⟩,some ([(101,(.other,false))],true),false,false,false,none,false,⟨.lcode,some (.own 3),false,.lblank⟩⟩] .leaf) 1353737556481 [⟨⟨.code,[64,114,101],.lblank,false,[],false⟩,false,false,[some (13,(.cr,true))],some 3,some ⟨.code,[64,114],.lblank,false,[],false⟩,some ([(101,(.other,false))],true),false,false,false,none,false,⟨.lcode,some (.own 3),false,.lblank⟩⟩] (.node .leaf 1353739936664 [⟨⟨.code,[64,82,101],.lblank,false,[],false⟩,false,false,[some (92,(.other,false))],some 3,some ⟨.code,[64,82],.lblank,false,[],false⟩,some ([(101,(.other,false))],true),false,false,false,none,false,⟨.lcode,some (.own 3),false,.lblank⟩⟩] .leaf)) 1353757936718 [⟨⟨.code,[64,82,101],.lblank,false,[],false⟩,false,false,[some (101,(.other,false))],some 3,some ⟨.code,[64,82],.lblank,false,[],false⟩,some ([(101,(.other,false))],true),false,false,false,none,false,⟨.lcode,some (.own 3),false,.lblank⟩⟩] (.node (.node .leaf 1353783936796 [⟨⟨.code,[64,82,101],.lblank,false,[],false⟩,false,false,[some (114,(.other,false))],some 3,some ⟨.code,[64,82],.lblank,false,[],false⟩,some ([(101,(.other,false))],true),false,false,false,none,false,⟨.lcode,some (.own 3),false,.lblank⟩⟩] .leaf) 1353826556748 [⟨⟨.code,[64,114,101],.lblank,false,[],false⟩,false,false,[some (58,(.other,false))],some 3,some ⟨.code,[64,114],.lblank,false,[],false⟩,some ([(101,(.other,false))],true),false,false,false,none,false,⟨.lcode,some (.own 3),false,.lblank⟩⟩] (.node .leaf 1353838556784 [⟨⟨.code,[64,114,101],.lblank,false,[],false⟩,false,false,[some (64,(.other,false))],some 3,some ⟨.code,[64,114],.lblank,false,[],false⟩,some ([(101,(.other,false))],true),false,false,false,none,false,⟨.lcode,some (.own 3),false,.lblank⟩⟩] .leaf))) 1353848556814 [⟨⟨.code,[64,114,101],.lblank,false,[],false⟩,false,false,[some (69,(.other,false))],some 3,some ⟨.code,[64,114],.lblank,false,[],false⟩,some ([(101,(.other,false))],true),false,false,false,none,false,⟨.lcode,some (.own 3),false,.lblank⟩⟩] (.node (.node (.node .leaf 1353874556892 [⟨⟨.code,[64,114,101],.lblank,false,[],false⟩,false,false,[some (82,(.other,false))],some 3,some ⟨.code,[64,114],.lblank,false,[],false⟩,some ([(101,(.other,false))],true),false,false,false,none,false,⟨.lcode,some (.own 3),false,.lblank⟩⟩] .leaf) 1353894556952 [⟨⟨.code,[64,114,101],.lblank,false,[],false⟩,false,false,[some (92,(.other,false))],some 3,some ⟨.code,[64,114],.lblank,false,[],false⟩,some ([(101,(.other,false))],true),false,false,false,none,false,⟨.lcode,some (.own 3),false,.lblank⟩⟩] (.node .leaf 1353912557006 [⟨⟨.code,[64,114,101],.lblank,false,[],false⟩,false,false,[some (101,(.other,false))],some 3,some ⟨.code,[64,114],.lblank,false,[],false⟩,some ([(101,(.other,false))],true),false,false,false,none,false,⟨.lcode,some (.own 3),false,.lblank⟩⟩] .leaf)) 1353938557084 [⟨⟨.code,[64,114,101],.lblank,false,[],false⟩,false,false,[some (114,(.other,false))],some 3,some ⟨.code,[64,114],.lblank,false,[],false⟩,some ([(101,(.other,false))],true),false,false,false,none,false,⟨.lcode,some (.own 3),false,.lblank⟩⟩] (.node (.node .leaf 1354067937648 [⟨⟨.code,[64,82,101],.lblank,false,[],false⟩,false,false,[some (256,(.other,false))],some 3,some ⟨.code,[64,82],.lblank,false,[],false⟩,some ([(101,(.other,false))],true),false,false,false,none,false,⟨.lcode,some (.own 3),false,.lblank⟩⟩] .leaf) 1354222557936 [⟨⟨.code,[64,114,101],.lblank,false,[],false⟩,false,false,[some (256,(.other,false))],some 3,some ⟨.code,[64,114],.lblank,false,[],false⟩,some ([(101,(.other,false))],true),false,false,false,none,false,⟨.lcode,some (.own 3),false,.lblank⟩⟩] .leaf)))))),(.node (.node (.node (.node (.node (.node .leaf 1179872 [⟨⟨(.inside 0),[],.lcode,false,[],false⟩,false,false,[],none,none,none,false,false,false,none,false,⟨.lcode,some (.own 3),false,.lblank⟩⟩] .leaf) 1327852 [⟨⟨(.inside 0),[],.lcomment,false,[],false⟩,false,false,[],none,none,none,false,false,false,none,false,⟨.lcomment,some (.own 3),false,.lblank⟩⟩] .leaf) 4129232 [⟨⟨(.inside 1),[],.lcode,false,[],false⟩,false,false,[],none,none,none,false,false,false,none,false,⟨.lcode,some (.own 3),false,.lblank⟩⟩] (.node .leaf 4277212 [⟨⟨(.inside 1),[],.lcomment,false,[],false⟩,false,false,[],none,none,none,false,false,false,none,false,⟨.lcomment,some (.own 3),false,.lblank⟩⟩] .leaf)) 7078592 [⟨⟨(.inside 2),[],.lcode,false,[],false⟩,false,false,[],none,none,none,false,false,false,none,false,⟨.lcode,some (.own 3),false,.lblank⟩⟩] (.node (.node .leaf 7226572 [⟨⟨(.inside 2),[],.lcomment,false,[],false⟩,false,false,[],none,none,none,false,false,false,none,false,⟨.lcomment,some (.own 3),false,.lblank⟩⟩] .leaf) 10027952 [⟨⟨(.inside 3),[],.lcode,false,[],false⟩,false,false,[],none,none,none,false,false,false,none,false,⟨.lcode,some (.own 3),false,.lblank⟩⟩] (.node .leaf 10175932 [⟨⟨(.inside 3),[],.lcomment,false,[],false⟩,false,false,[],none,none,none,false,false,false,none,false,⟨.lcomment,some (.own 3),false,.lblank⟩⟩] .leaf))) 12977312 [⟨⟨(.inside 4),[],.lcode,false,[],false⟩,false,false,[],none,none,none,false,false,false,none,false,⟨.lcode,some (.own 3),false,.lblank⟩⟩] (.node (.node (.node (.node .leaf 13125292 [⟨⟨(.inside 4),[],.lcomment,false,[],false⟩,false,false,[],none,none,none,false,false,false,none,false,⟨.lcomment,some (.own 3),false,.lblank⟩⟩] .leaf) 15926672 [⟨⟨(.inside 5),[],.lcode,false,[],false⟩,false,false,[],none,none,none,false,false,false,none,false,⟨.lcode,some (.own 3),false,.lblank⟩⟩] .leaf) 16074652 [⟨⟨(.inside 5),[],.lcomment,false,[],false⟩,false,false,[],none,none,none,false,false,false,none,false,⟨.lcomment,some (.own 3),false,.lblank⟩⟩] (.node .leaf 18876032 [⟨⟨(.inside 6),[],.lcode,false,[],false⟩,false,false,[],none,none,none,false,false,false,none,false,⟨.lcode,some (.own 3),false,.lblank⟩⟩] .leaf)) 19024012 [⟨⟨(.inside 6),[],.lcomment,false,[],false⟩,false,false,[],none,none,none,false,false,false,none,false,⟨.lcomment,some (.own 3),false,.lblank⟩⟩] (.node (.node .leaf 21825392 [⟨⟨(.inside 7),[],.lcode,false,[],false⟩,false,false,[],none,none,none,false,false,false,none,false,⟨.lcode,some (.own 3),false,.lblank⟩⟩] .leaf) 21973372 [⟨⟨(.inside 7),[],.lcomment,false,[],false⟩,false,false,[],none,none,none,false,false,false,none,false,⟨.lcomment,some (.own 3),false,.lblank⟩⟩] (.node .leaf 24774752 [⟨⟨(.inside 8),[],.lcode,false,[],false⟩,false,false,[],none,none,none,false,false,false,none,false,⟨.lcode,some (.own 3),false,.lblank⟩⟩] .leaf)))) 24922732 [⟨⟨(.inside 8),[],.lcomment,false,[],false⟩,false,false,[],none,none,none,false,false,false,none,false,⟨.lcomment,some (.own 3),false,.lblank⟩⟩] (.node (.node (.node (.node (.node .leaf 27724112 [⟨⟨(.inside 9),[],.lcode,false,[],false⟩,false,false,[],none,none,none,false,false,false,none,false,⟨.lcode,some (.own 3),false,.lblank⟩⟩] .leaf) 27872092 [⟨⟨(.inside 9),[],.lcomment,false,[],false⟩,false,false,[],none,none,none,false,false,false,none,false,⟨.lcomment,some (.own 3),false,.lblank⟩⟩] .leaf) 30673472 [⟨⟨(.inside 10),[],.lcode,false,[],false⟩,false,false,[],none,none,none,false,false,false,none,false,⟨.lcode,some (.own 3),false,.lblank⟩⟩] (.node .leaf 30821452 [⟨⟨(.inside 10),[],.lcomment,false,[],false⟩,false,false,[],none,none,none,false,false,false,none,false,⟨.lcomment,some (.own 3),false,.lblank⟩⟩] .leaf)) 33622832 [⟨⟨(.inside 11),[],.lcode,false,[],false⟩,false,false,[],none,none,none,false,false,false,none,false,⟨.lcode,some (.own 3),false,.lblank⟩⟩] (.node (.node .leaf 33770812 [⟨⟨(.inside 11),[],.lcomment,false,[],false⟩,false,false,[],none,none,none,false,false,false,none,false,⟨.lcomment,some (.own 3),false,.lblank⟩⟩] .leaf) 36572192 [⟨⟨(.inside 12),[],.lcode,false,[],false⟩,false,false,[],none,none,none,false,false,false,none,false,⟨.lcode,some (.own 3),false,.lblank⟩⟩] (.node .leaf 36720172 [⟨⟨(.inside 12),[],.lcomment,false,[],false⟩,false,false,[],none,none,none,false,false,false,none,false,⟨.lcomment,some (.own 3),false,.lblank⟩⟩] .leaf))) 39521552 [⟨⟨(.inside 13),[],.lcode,false,[],false⟩,false,false,[],none,none,none,false,false,false,none,false,⟨.lcode,some (.own 3),false,.lblank⟩⟩] (.node (.node (.node .leaf 39669532 [⟨⟨(.inside 13),[],.lcomment,false,[],false⟩,false,false,[],none,none,none,false,false,false,none,false,⟨.lcomment,some (.own 3),false,.lblank⟩⟩] .leaf) 42470912 [⟨⟨(.inside 14),[],.lcode,false,[],false⟩,false,false,[],none,none,none,false,false,false,none,false,⟨.lcode,some (.own 3),false,.lblank⟩⟩] (.node .leaf 42618892 [⟨⟨(.inside 14),[],.lcomment,false,[],false⟩,false,false,[],none,none,none,false,false,false,none,false,⟨.lcomment,some (.own 3),false,.lblank⟩⟩] .leaf)) 45420272 [⟨⟨(.inside 15),[],.lcode,false,[],false⟩,false,false,[],none,none,none,false,false,false,none,false,⟨.lcode,some (.own 3),false,.lblank⟩⟩] (.node (.node .leaf 45568252 [⟨⟨(.inside 15),[],.lcomment,false,[],false⟩,false,false,[],none,none,none,false,false,false,none,false,⟨.lcomment,some (.own 3),false,.lblank⟩⟩] .leaf) 48369632 [⟨⟨(.inside 16),[],.lcode,false,[],false⟩,false,false,[],none,none,none,false,false,false,none,false,⟨.lcode,some (.own 3),false,.lblank⟩⟩] (.node .leaf 48517612 [⟨⟨(.inside 16),[],.lcomment,false,[],false⟩,false,false,[],none,none,none,false,false,false,none,false,⟨.lcomment,some (.own 3),false,.lblank⟩⟩] .leaf))))),(.node (.node (.node (.node .leaf 670515321165 [⟨⟨.code,[64,82,69],.lcode,false,[],false⟩,false,false,[],some 3,some ⟨.code,[64],.lcode,false,[],false⟩,some ([(82,(.other,false)),(69,(.other,false))],true),false,false,false,none,false,⟨.lcode,some (.own 3),false,.lblank⟩⟩] .leaf) 670515321167 [⟨⟨.code,[64,82,69],.lcode,false,[],false⟩,false,false,[],some 3,some ⟨.code,[64],.lcode,false,[],false⟩,some ([(82,(.other,false)),(69,(.other,false))],true),false,false,true,none,false,⟨.lcode,some (.own 3),false,.lblank⟩⟩] (.node .leaf 670580501101 [⟨⟨.code,[64,82,101],.lcode,false,[],false⟩,false,false,[],some 3,some ⟨.code,[64],.lcode,false,[],false⟩,some ([(82,(.other,false)),(101,(.other,false))],true),false,false,false,none,false,⟨.lcode,some (.own 3),false,.lblank⟩⟩] .leaf)) 670580501103 [⟨⟨.code,[64,82,101],.lcode,false,[],false⟩,false,false,[],some 3,some ⟨.code,[64],.lcode,false,[],false⟩,some ([(82,(.other,false)),(101,(.other,false))],true),false,false,true,none,false,⟨.lcode,some (.own 3),false,.lblank⟩⟩] (.node (.node .leaf 704013967661 [⟨⟨.code,[64,114,69],.lcode,false,[],false⟩,false,false,[],some 3,some ⟨.code,[64],.lcode,false,[],false⟩,some ([(114,(.other,false)),(69,(.other,false))],true),false,false,false,none,false,⟨.lcode,some (.own 3),false,.lblank⟩⟩] .leaf) 704013967663 [⟨⟨.code,[64,114,69],.lcode,false,[],false⟩,false,false,[],some 3,some ⟨.code,[64],.lcode,false,[],false⟩,some ([(114,(.other,false)),(69,(.other,false))],true),false,false,true,none,false,⟨.lcode,some (.own 3),false,.lblank⟩⟩] .leaf)) 704079147597 [⟨⟨.code,[64,114,101],.lcode,false,[],false⟩,false,false,[],some 3,some ⟨.code,[64],.lcode,false,[],false⟩,some ([(114,(.other,false)),(101,(.other,false))],true),false,false,false,none,false,⟨.lcode,some (.own 3),false,.lblank⟩⟩] (.node (.node (.node .leaf 704079147599 [⟨⟨.code,[64,114,101],.lcode,false,[],false⟩,false,false,[],some 3,some ⟨.code,[64],.lcode,false,[],false⟩,some ([(114,(.other,false)),(101,(.other,false))],true),false,false,true,none,false,⟨.lcode,some (.own 3),false,.lblank⟩⟩] .leaf) 1333560707103 [⟨⟨.code,[64,82,69],.lblank,false,[],false⟩,false,false,[],some 3,some ⟨.code,[64],.lblank,false,[],false⟩,some ([(82,(.other,false)),(69,(.other,false))],true),false,false,true,none,false,⟨.lblank,some (.own 3),false,.lblank⟩⟩] .leaf) 1333625887039 [⟨⟨.code,[64,82,101],.lblank,false,[],false⟩,false,false,[],some 3,some ⟨.code,[64],.lblank,false,[],false⟩,some ([(82,(.other,false)),(101,(.other,false))],true),false,false,true,none,false,⟨.lblank,some (.own 3),false,.lblank⟩⟩] (.node (.node .leaf 1367059353599 [⟨⟨.code,[64,114,69],.lblank,false,[],false⟩,false,false,[],some 3,some ⟨.code,[64],.lblank,false,[],false⟩,some ([(114,(.other,false)),(69,(.other,false))],true),false,false,true,none,false,⟨.lblank,some (.own 3),false,.lblank⟩⟩] .leaf) 1367124533535 [⟨⟨.code,[64,114,101],.lblank,false,[],false⟩,false,false,[],some 3,some ⟨.code,[64],.lblank,false,[],false⟩,some ([(114,(.other,false)),(101,(.other,false))],true),false,false,true,none,false,⟨.lblank,some (.own 3),false,.lblank⟩⟩] .leaf))),(.node (.node (.node (.node (.node .leaf 1179872 [⟨⟨(.inside 0),[],.lcode,false,[],false⟩,false,false,[],none,none,none,false,false,false,none,false,⟨.lcode,some (.own 3),false,.lblank⟩⟩] .leaf) 1327852 [⟨⟨(.inside 0),[],.lcomment,false,[],false⟩,false,false,[],none,none,none,false,false,false,none,false,⟨.lcomment,some (.own 3),false,.lblank⟩⟩] .leaf) 4129232 [⟨⟨(.inside 1),[],.lcode,false,[],false⟩,false,false,[],none,none,none,false,false,false,none,false,⟨.lcode,some (.own 3),false,.lblank⟩⟩] (.node .leaf 4277212 [⟨⟨(.inside 1),[],.lcomment,false,[],false⟩,false,false,[],none,none,none,false,false,false,none,false,⟨.lcomment,some (.own 3),false,.lblank⟩⟩] .leaf)) 7078592 [⟨⟨(.inside 2),[],.lcode,false,[],false⟩,false,false,[],none,none,none,false,false,false,none,false,⟨.lcode,some (.own 3),false,.lblank⟩⟩] (.node (.node .leaf 7226572 [⟨⟨(.inside 2),[],.lcomment,false,[],false⟩,false,false,[],none,none,none,false,false,false,none,false,⟨.lcomment,some (.own 3),false,.lblank⟩⟩] .leaf) 10027952 [⟨⟨(.inside 3),[],.lcode,false,[],false⟩,false,false,[],none,none,none,false,false,false,none,false,⟨.lcode,some (.own 3),false,.lblank⟩⟩] (.node .leaf 10175932 [⟨⟨(.inside 3),[],.lcomment,false,[],false⟩,false,false,[],none,none,none,false,false,false,none,false,⟨.lcomment,some (.own 3),false,.lblank⟩⟩] .leaf))) 12977312 [⟨⟨(.inside 4),[],.lcode,false,[],false⟩,false,false,[],none,none,none,false,false,false,none,false,⟨.lcode,some (.own 3),false,.lblank⟩⟩] (.node (.node (.node .leaf 13125292 [⟨⟨(.inside 4),[],.lcomment,false,[],false⟩,false,false,[],none,none,none,false,false,false,none,false,⟨.lcomment,some (.own 3),false,.lblank⟩⟩] .leaf) 15926672 [⟨⟨(.inside 5),[],.lcode,false,[],false⟩,false,false,[],none,none,none,false,false,false,none,false,⟨.lcode,some (.own 3),false,.lblank⟩⟩] (.node .leaf 16074652 [⟨⟨(.inside 5),[],.lcomment,false,[],false⟩,false,false,[],none,none,none,false,false,false,none,false,⟨.lcomment,some (.own 3),false,.lblank⟩⟩] .leaf)) 18876032 [⟨⟨(.inside 6),[],.lcode,false,[],false⟩,false,false,[],none,none,none,false,false,false,none,false,⟨.lcode,some (.own 3),false,.lblank⟩⟩] (.node (.node .leaf 19024012 [⟨⟨(.inside 6),[],.lcomment,false,[],false⟩,false,false,[],none,none,none,false,false,false,none,false,⟨.lcomment,some (.own 3),false,.lblank⟩⟩] .leaf) 21825392 [⟨⟨(.inside 7),[],.lcode,false,[],false⟩,false,false,[],none,none,none,false,false,false,none,false,⟨.lcode,some (.own 3),false,.lblank⟩⟩] (.node .leaf 21973372 [⟨⟨(.inside 7),[],.lcomment,false,[],false⟩,false,false,[],none,none,none,false,false,false,none,false,⟨.lcomment,some (.own 3),false,.lblank⟩⟩] .leaf)))),(.node (.node (.node (.node (.node .leaf 24774752 [⟨⟨(.inside 8),[],.lcode,false,[],false⟩,false,false,[],none,none,none,false,false,false,none,false,⟨.lcode,some (.own 3),false,.lblank⟩⟩] .leaf) 24922732 [⟨⟨(.inside 8),[],.lcomment,false,[],false⟩,false,false,[],none,none,none,false,false,false,none,false,⟨.lcomment,some (.own 3),false,.lblank⟩⟩] .leaf) 27724112 [⟨⟨(.inside 9),[],.lcode,false,[],false⟩,false,false,[],none,none,none,false,false,false,none,false,⟨.lcode,some (.own 3),false,.lblank⟩⟩] (.node .leaf 27872092 [⟨⟨(.inside 9),[],.lcomment,false,[],false⟩,false,false,[],none,none,none,false,false,false,none,false,⟨.lcomment,some (.own 3),false,.lblank⟩⟩] .leaf)) 30673472 [⟨⟨(.inside 10),[],.lcode,false,[],false⟩,false,false,[],none,none,none,false,false,false,none,false,⟨.lcode,some (.own 3),false,.lblank⟩⟩] (.node (.node .leaf 30821452 [⟨⟨(.inside 10),[],.lcomment,false,[],false⟩,false,false,[],none,none,none,false,false,false,none,false,⟨.lcomment,some (.own 3),false,.lblank⟩⟩] .leaf) 33622832 [⟨⟨(.inside 11),[],.lcode,false,[],false⟩,false,false,[],none,none,none,false,false,false,none,false,⟨.lcode,some (.own 3),false,.lblank⟩⟩] (.node .leaf 33770812 [⟨⟨(.inside 11),[],.lcomment,false,[],false⟩,false,false,[],none,none,none,false,false,false,none,false,⟨.lcomment,some (.own 3),false,.lblank⟩⟩] .leaf))) 36572192 [⟨⟨(.inside 12),[],.lcode,false,[],false⟩,false,false,[],none,none,none,false,false,false,none,false,⟨.lcode,some (.own 3),false,.lblank⟩⟩] (.node (.node (.node .leaf 36720172 [⟨⟨(.inside 12),[],.lcomment,false,[],false⟩,false,false,[],none,none,none,false,false,false,none,false,⟨.lcomment,some (.own 3),false,.lblank⟩⟩] .leaf) 39521552 [⟨⟨(.inside 13),[],.lcode,false,[],false⟩,false,false,[],none,none,none,false,false,false,none,false,⟨.lcode,some (.own 3),false,.lblank⟩⟩] (.node .leaf 39669532 [⟨⟨(.inside 13),[],.lcomment,false,[],false⟩,false,false,[],none,none,none,false,false,false,none,false,⟨.lcomment,some (.own 3),false,.lblank⟩⟩] .leaf)) 42470912 [⟨⟨(.inside 14),[],.lcode,false,[],false⟩,false,false,[],none,none,none,false,false,false,none,false,⟨.lcode,some (.own 3),false,.lblank⟩⟩] (.node (.node .leaf 42618892 [⟨⟨(.inside 14),[],.lcomment,false,[],false⟩,false,false,[],none,none,none,false,false,false,none,false,⟨.lcomment,some (.own 3),false,.lblank⟩⟩] .leaf) 45420272 [⟨⟨(.inside 15),[],.lcode,false,[],false⟩,false,false,[],none,none,none,false,false,false,none,false,⟨.lcode,some (.own 3),false,.lblank⟩⟩] (.node .leaf 45568252 [⟨⟨(.inside 15),[],.lcomment,false,[],false⟩,false,false,[],none,none,none,false,false,false,none,false,⟨.lcomment,some (.own 3),false,.lblank⟩⟩] .leaf))))]
theorem bat_line_lClosed : CA.closedF bat_line_M bat_line_lex true false bat_line_lfr bat_line_lTab = true := by decide +kernel
def bat_line_L : LCert LexisTable.bat_line bat_line_M := bat_line_lex_eq ▸ ⟨⟨bat_line_lmasks, bat_line_lex.rel, bat_line_lcs, bat_line_lrows, bat_line_lmasksIn, bat_line_lrepOk, bat_line_lrowsOk⟩,
  _, rfl, by decide +kernel, by decide +kernel, true, false, CA.closed_of bat_line_lfrOk bat_line_lClosed⟩
theorem bat_line_L_chk : bat_line_L.chk = true := by
  have : ∀ (l : Lexis) (h : LexisTable.bat_line = l) (C : LCert l bat_line_M), (h ▸ C : LCert LexisTable.bat_line bat_line_M).chk = C.chk := by rintro _ rfl _; rfl
  exact this _ bat_line_lex_eq _

end Ohcount.Cert
