import Verif.Gram.All
import Verif.RagelCheck

/-! Generated by tools/gen_certs.py. -/

namespace Ohcount.Cert
open Ohcount.Ragel Ohcount.Gram

set_option maxRecDepth 100000

def as_line_nfa : Nfa := ⟨[⟨0,4294967808,[],[(0,.setEnt (.own 0))],0,0⟩,⟨1,140737488355328,[],[],0,0⟩,⟨4,140737488355328,[],[],0,2⟩,⟨15,549755813888,[],[(6,.code)],0,0⟩,⟨20,17179869184,[],[(7,.code)],0,0⟩,⟨25,1152921504606846976,[],[],0,4⟩,⟨44,8192,[],[(12,.setEnt .newline)],0,0⟩,⟨46,1024,[],[(12,.setEnt .newline)],0,0⟩,⟨47,4096,[],[(12,.setEnt .newline)],0,0⟩,⟨48,8192,[.crAlone],[(12,.setEnt .newline)],0,0⟩,⟨49,115792089237316195423570985008687907853269984665640564039457584007908834656767,[],[(13,.setEnt (.own 3))],0,0⟩],[[⟨0,4294967808,[],[(0,.setEnt (.own 0))],0,0⟩],[⟨2,140737488355328,[],[(1,.comment)],0,0⟩],[⟨3,115792089237316195423570985008687907853269984665640564039457584007913129626623,[],[],0,0⟩],[⟨3,115792089237316195423570985008687907853269984665640564039457584007913129626623,[],[],0,0⟩],[⟨5,4398046511104,[],[(2,.comment)],0,2⟩],[⟨6,8192,[],[],0,2⟩,⟨8,1024,[],[],0,2⟩,⟨9,4096,[],[],0,2⟩,⟨10,8192,[.crAlone],[],0,2⟩,⟨11,4294967808,[],[],0,2⟩,⟨12,115792089237316195423570985008687907853269984665640564039457584007908834658815,[],[(5,.comment)],0,2⟩,⟨13,4398046511104,[],[],0,2⟩],[⟨7,1024,[],[],0,2⟩],[⟨6,8192,[],[(3,.setEnt .internalNl),(4,.cb)],0,2⟩,⟨8,1024,[],[(3,.setEnt .internalNl),(4,.cb)],0,2⟩,⟨9,4096,[],[(3,.setEnt .internalNl),(4,.cb)],0,2⟩,⟨10,8192,[.crAlone],[(3,.setEnt .internalNl),(4,.cb)],0,2⟩,⟨11,4294967808,[],[(3,.setEnt .internalNl),(4,.cb)],0,2⟩,⟨12,115792089237316195423570985008687907853269984665640564039457584007908834658815,[],[(3,.setEnt .internalNl),(4,.cb),(5,.comment)],0,2⟩,⟨13,4398046511104,[],[(3,.setEnt .internalNl),(4,.cb)],0,2⟩],[⟨6,8192,[],[(3,.setEnt .internalNl),(4,.cb)],0,2⟩,⟨8,1024,[],[(3,.setEnt .internalNl),(4,.cb)],0,2⟩,⟨9,4096,[],[(3,.setEnt .internalNl),(4,.cb)],0,2⟩,⟨10,8192,[.crAlone],[(3,.setEnt .internalNl),(4,.cb)],0,2⟩,⟨11,4294967808,[],[(3,.setEnt .internalNl),(4,.cb)],0,2⟩,⟨12,115792089237316195423570985008687907853269984665640564039457584007908834658815,[],[(3,.setEnt .internalNl),(4,.cb),(5,.comment)],0,2⟩,⟨13,4398046511104,[],[(3,.setEnt .internalNl),(4,.cb)],0,2⟩],[⟨6,8192,[],[(3,.setEnt .internalNl),(4,.cb)],0,2⟩,⟨8,1024,[],[(3,.setEnt .internalNl),(4,.cb)],0,2⟩,⟨9,4096,[],[(3,.setEnt .internalNl),(4,.cb)],0,2⟩,⟨10,8192,[.crAlone],[(3,.setEnt .internalNl),(4,.cb)],0,2⟩,⟨11,4294967808,[],[(3,.setEnt .internalNl),(4,.cb)],0,2⟩,⟨12,115792089237316195423570985008687907853269984665640564039457584007908834658815,[],[(3,.setEnt .internalNl),(4,.cb),(5,.comment)],0,2⟩,⟨13,4398046511104,[],[(3,.setEnt .internalNl),(4,.cb)],0,2⟩],[⟨6,8192,[],[(3,.setEnt .internalNl),(4,.cb)],0,2⟩,⟨8,1024,[],[(3,.setEnt .internalNl),(4,.cb)],0,2⟩,⟨9,4096,[],[(3,.setEnt .internalNl),(4,.cb)],0,2⟩,⟨10,8192,[.crAlone],[(3,.setEnt .internalNl),(4,.cb)],0,2⟩,⟨11,4294967808,[],[(3,.setEnt .internalNl),(4,.cb)],0,2⟩,⟨12,115792089237316195423570985008687907853269984665640564039457584007908834658815,[],[(3,.setEnt .internalNl),(4,.cb),(5,.comment)],0,2⟩,⟨13,4398046511104,[],[(3,.setEnt .internalNl),(4,.cb)],0,2⟩],[⟨6,8192,[],[],0,2⟩,⟨8,1024,[],[],0,2⟩,⟨9,4096,[],[],0,2⟩,⟨10,8192,[.crAlone],[],0,2⟩,⟨11,4294967808,[],[],0,2⟩,⟨12,115792089237316195423570985008687907853269984665640564039457584007908834658815,[],[(5,.comment)],0,2⟩,⟨13,4398046511104,[],[],0,2⟩],[⟨6,8192,[],[],0,2⟩,⟨8,1024,[],[],0,2⟩,⟨9,4096,[],[],0,2⟩,⟨10,8192,[.crAlone],[],0,2⟩,⟨11,4294967808,[],[],0,2⟩,⟨12,115792089237316195423570985008687907853269984665640564039457584007908834658815,[],[(5,.comment)],0,2⟩,⟨13,4398046511104,[],[],0,2⟩],[⟨14,140737488355328,[],[],2,0⟩],[],[⟨16,115792089237316195423570985008687907853269984665635612279300442486263777315839,[],[],0,0⟩,⟨17,4951760157141521099596496896,[],[],0,0⟩,⟨19,549755813888,[],[],0,0⟩],[⟨16,115792089237316195423570985008687907853269984665635612279300442486263777315839,[],[],0,0⟩,⟨17,4951760157141521099596496896,[],[],0,0⟩,⟨19,549755813888,[],[],0,0⟩],[⟨18,115792089237316195423570985008687907853269984665640564039457584007913129626623,[],[],0,0⟩],[⟨16,115792089237316195423570985008687907853269984665635612279300442486263777315839,[],[],0,0⟩,⟨17,4951760157141521099596496896,[],[],0,0⟩,⟨19,549755813888,[],[],0,0⟩],[],[⟨21,115792089237316195423570985008687907853269984665635612279300442486796353260543,[],[],0,0⟩,⟨22,4951760157141521099596496896,[],[],0,0⟩,⟨24,17179869184,[],[],0,0⟩],[⟨21,115792089237316195423570985008687907853269984665635612279300442486796353260543,[],[],0,0⟩,⟨22,4951760157141521099596496896,[],[],0,0⟩,⟨24,17179869184,[],[],0,0⟩],[⟨23,115792089237316195423570985008687907853269984665640564039457584007913129626623,[],[],0,0⟩],[⟨21,115792089237316195423570985008687907853269984665635612279300442486796353260543,[],[],0,0⟩,⟨22,4951760157141521099596496896,[],[],0,0⟩,⟨24,17179869184,[],[],0,0⟩],[],[⟨26,8589934592,[],[],0,4⟩],[⟨27,2475880078570760549798248448,[],[],0,4⟩],[⟨28,147573952589676412928,[],[],0,4⟩],[⟨29,295147905179352825856,[],[],0,4⟩],[⟨30,36893488147419103232,[],[],0,4⟩],[⟨31,19342813113834066795298816,[],[],0,4⟩],[⟨32,36893488147419103232,[],[],0,4⟩],[⟨33,2475880078570760549798248448,[],[(8,.code)],0,4⟩],[⟨34,8192,[],[],0,4⟩,⟨36,1024,[],[],0,4⟩,⟨37,4096,[],[],0,4⟩,⟨38,8192,[.crAlone],[],0,4⟩,⟨39,4294967808,[],[],0,4⟩,⟨40,115792089237316195423570985008687907853269984665640564039457584007908834658815,[],[(11,.code)],0,4⟩,⟨41,9903520314283042199192993792,[],[],0,4⟩],[⟨35,1024,[],[],0,4⟩],[⟨34,8192,[],[(9,.setEnt .internalNl),(10,.cb)],0,4⟩,⟨36,1024,[],[(9,.setEnt .internalNl),(10,.cb)],0,4⟩,⟨37,4096,[],[(9,.setEnt .internalNl),(10,.cb)],0,4⟩,⟨38,8192,[.crAlone],[(9,.setEnt .internalNl),(10,.cb)],0,4⟩,⟨39,4294967808,[],[(9,.setEnt .internalNl),(10,.cb)],0,4⟩,⟨40,115792089237316195423570985008687907853269984665640564039457584007908834658815,[],[(9,.setEnt .internalNl),(10,.cb),(11,.code)],0,4⟩,⟨41,9903520314283042199192993792,[],[(9,.setEnt .internalNl),(10,.cb)],0,4⟩],[⟨34,8192,[],[(9,.setEnt .internalNl),(10,.cb)],0,4⟩,⟨36,1024,[],[(9,.setEnt .internalNl),(10,.cb)],0,4⟩,⟨37,4096,[],[(9,.setEnt .internalNl),(10,.cb)],0,4⟩,⟨38,8192,[.crAlone],[(9,.setEnt .internalNl),(10,.cb)],0,4⟩,⟨39,4294967808,[],[(9,.setEnt .internalNl),(10,.cb)],0,4⟩,⟨40,115792089237316195423570985008687907853269984665640564039457584007908834658815,[],[(9,.setEnt .internalNl),(10,.cb),(11,.code)],0,4⟩,⟨41,9903520314283042199192993792,[],[(9,.setEnt .internalNl),(10,.cb)],0,4⟩],[⟨34,8192,[],[(9,.setEnt .internalNl),(10,.cb)],0,4⟩,⟨36,1024,[],[(9,.setEnt .internalNl),(10,.cb)],0,4⟩,⟨37,4096,[],[(9,.setEnt .internalNl),(10,.cb)],0,4⟩,⟨38,8192,[.crAlone],[(9,.setEnt .internalNl),(10,.cb)],0,4⟩,⟨39,4294967808,[],[(9,.setEnt .internalNl),(10,.cb)],0,4⟩,⟨40,115792089237316195423570985008687907853269984665640564039457584007908834658815,[],[(9,.setEnt .internalNl),(10,.cb),(11,.code)],0,4⟩,⟨41,9903520314283042199192993792,[],[(9,.setEnt .internalNl),(10,.cb)],0,4⟩],[⟨34,8192,[],[(9,.setEnt .internalNl),(10,.cb)],0,4⟩,⟨36,1024,[],[(9,.setEnt .internalNl),(10,.cb)],0,4⟩,⟨37,4096,[],[(9,.setEnt .internalNl),(10,.cb)],0,4⟩,⟨38,8192,[.crAlone],[(9,.setEnt .internalNl),(10,.cb)],0,4⟩,⟨39,4294967808,[],[(9,.setEnt .internalNl),(10,.cb)],0,4⟩,⟨40,115792089237316195423570985008687907853269984665640564039457584007908834658815,[],[(9,.setEnt .internalNl),(10,.cb),(11,.code)],0,4⟩,⟨41,9903520314283042199192993792,[],[(9,.setEnt .internalNl),(10,.cb)],0,4⟩],[⟨34,8192,[],[],0,4⟩,⟨36,1024,[],[],0,4⟩,⟨37,4096,[],[],0,4⟩,⟨38,8192,[.crAlone],[],0,4⟩,⟨39,4294967808,[],[],0,4⟩,⟨40,115792089237316195423570985008687907853269984665640564039457584007908834658815,[],[(11,.code)],0,4⟩,⟨41,9903520314283042199192993792,[],[],0,4⟩],[⟨34,8192,[],[],0,4⟩,⟨36,1024,[],[],0,4⟩,⟨37,4096,[],[],0,4⟩,⟨38,8192,[.crAlone],[],0,4⟩,⟨39,4294967808,[],[],0,4⟩,⟨40,115792089237316195423570985008687907853269984665640564039457584007908834658815,[],[(11,.code)],0,4⟩,⟨41,9903520314283042199192993792,[],[],0,4⟩],[⟨42,9903520314283042199192993792,[],[],0,0⟩],[⟨43,4611686018427387904,[],[],4,0⟩],[],[⟨45,1024,[],[(12,.setEnt .newline)],0,0⟩],[],[],[],[],[]],[some (0,[]),none,some (1,[]),some (1,[]),none,none,none,none,none,none,none,none,none,none,some (1,[]),none,none,none,none,some (2,[]),none,none,none,none,some (2,[]),none,none,none,none,none,none,none,none,none,none,none,none,none,none,none,none,none,none,some (2,[]),none,some (3,[]),some (3,[]),some (3,[]),some (3,[]),some (4,[])],[1,6,12,13,14]⟩
theorem as_line_nfa_eq : Actionscript.as_line.nfa = as_line_nfa := by decide +kernel
/-- The machine of `Actionscript.as_line`, with its automaton as a literal. -/
def as_line_M : Machine := ⟨as_line_nfa, Actionscript.as_line.ends, Actionscript.as_line.sw⟩
theorem as_line_M_eq : Actionscript.as_line.machine = as_line_M := by
  unfold Scanner.machine as_line_M; rw [as_line_nfa_eq]
def as_line_masks : List Nat := [4294967808,140737488355328,549755813888,17179869184,1152921504606846976,8192,1024,4096,115792089237316195423570985008687907853269984665640564039457584007908834656767,115792089237316195423570985008687907853269984665640564039457584007913129626623,4398046511104,115792089237316195423570985008687907853269984665640564039457584007908834658815,115792089237316195423570985008687907853269984665635612279300442486263777315839,4951760157141521099596496896,115792089237316195423570985008687907853269984665635612279300442486796353260543,8589934592,2475880078570760549798248448,147573952589676412928,295147905179352825856,36893488147419103232,19342813113834066795298816,9903520314283042199192993792,4611686018427387904]
def as_line_cs : List (Nat × Nat) := [(0,115792089237316195423570985008687907853269984665623213535609094750842908557823),(9,4294967808),(10,1024),(11,2048),(12,4096),(13,8192),(33,8589934592),(34,17179869184),(39,549755813888),(42,4398046511104),(47,140737488355328),(60,1152921504606846976),(62,4611686018427387904),(65,36893488147419103232),(67,147573952589676412928),(68,295147905179352825856),(84,19342813113834066795298816),(91,2475880078570760549798248448),(92,4951760157141521099596496896),(93,9903520314283042199192993792)]
theorem as_line_masksIn : masksIn as_line_nfa as_line_masks = true := by decide +kernel
theorem as_line_repOk : repOk as_line_masks as_line_cs = true := by decide +kernel
def as_line_rows : List Row := [⟨[],none,[],[⟨256,.other,false,some ⟨0,[.setEnt (.own 3)],some 4,true⟩⟩,⟨256,.ws,false,some ⟨1,[.setEnt (.own 0)],some 0,false⟩⟩,⟨256,.lf,false,some ⟨0,[.setEnt .newline],some 3,true⟩⟩,⟨256,.vt,false,none⟩,⟨256,.ff,false,some ⟨0,[.setEnt .newline],some 3,true⟩⟩,⟨256,.cr,false,some ⟨2,[.setEnt .newline],none,false⟩⟩,⟨256,.cr,true,some ⟨3,[.setEnt .newline],some 3,false⟩⟩,⟨256,.other,false,some ⟨4,[.code,.setEnt (.own 3)],some 4,false⟩⟩,⟨256,.other,false,some ⟨5,[.code,.setEnt (.own 3)],some 4,false⟩⟩,⟨256,.other,false,some ⟨6,[.setEnt (.own 3)],some 4,false⟩⟩,⟨256,.other,false,some ⟨7,[.setEnt (.own 3)],some 4,false⟩⟩]⟩,⟨[0],some 0,[],[⟨256,.other,false,none⟩,⟨256,.ws,false,some ⟨1,[.setEnt (.own 0)],some 0,false⟩⟩,⟨256,.lf,false,none⟩,⟨256,.vt,false,none⟩,⟨256,.ff,false,none⟩,⟨256,.cr,false,none⟩,⟨256,.cr,true,none⟩]⟩,⟨[44],none,[],[⟨256,.other,false,none⟩,⟨256,.ws,false,none⟩,⟨256,.lf,false,some ⟨0,[.setEnt .newline],some 3,true⟩⟩,⟨256,.vt,false,none⟩,⟨256,.ff,false,none⟩,⟨256,.cr,false,none⟩,⟨256,.cr,true,none⟩]⟩,⟨[44,48],some 3,[],[⟨256,.other,false,none⟩,⟨256,.ws,false,none⟩,⟨256,.lf,false,some ⟨0,[.setEnt .newline],some 3,true⟩⟩,⟨256,.vt,false,none⟩,⟨256,.ff,false,none⟩,⟨256,.cr,false,none⟩,⟨256,.cr,true,none⟩]⟩,⟨[20,49],some 4,[],[⟨256,.other,false,some ⟨8,[],none,false⟩⟩,⟨256,.ws,false,some ⟨8,[],none,false⟩⟩,⟨256,.lf,false,none⟩,⟨256,.vt,false,some ⟨8,[],none,false⟩⟩,⟨256,.ff,false,none⟩,⟨256,.cr,false,none⟩,⟨256,.cr,true,none⟩,⟨256,.other,false,some ⟨0,[],some 2,true⟩⟩,⟨256,.other,false,some ⟨9,[],none,false⟩⟩]⟩,⟨[15,49],some 4,[],[⟨256,.other,false,some ⟨10,[],none,false⟩⟩,⟨256,.ws,false,some ⟨10,[],none,false⟩⟩,⟨256,.lf,false,none⟩,⟨256,.vt,false,some ⟨10,[],none,false⟩⟩,⟨256,.ff,false,none⟩,⟨256,.cr,false,none⟩,⟨256,.cr,true,none⟩,⟨256,.other,false,some ⟨0,[],some 2,true⟩⟩,⟨256,.other,false,some ⟨11,[],none,false⟩⟩]⟩,⟨[1,4,49],some 4,[],[⟨256,.other,false,none⟩,⟨256,.ws,false,none⟩,⟨256,.lf,false,none⟩,⟨256,.vt,false,none⟩,⟨256,.ff,false,none⟩,⟨256,.cr,false,none⟩,⟨256,.cr,true,none⟩,⟨256,.other,false,some ⟨12,[.comment],none,false⟩⟩,⟨256,.other,false,some ⟨13,[.comment],some 1,false⟩⟩]⟩,⟨[25,49],some 4,[],[⟨256,.other,false,none⟩,⟨256,.ws,false,none⟩,⟨256,.lf,false,none⟩,⟨256,.vt,false,none⟩,⟨256,.ff,false,none⟩,⟨256,.cr,false,none⟩,⟨256,.cr,true,none⟩,⟨256,.other,false,some ⟨14,[],none,false⟩⟩]⟩,⟨[21],none,[],[⟨256,.other,false,some ⟨8,[],none,false⟩⟩,⟨256,.ws,false,some ⟨8,[],none,false⟩⟩,⟨256,.lf,false,none⟩,⟨256,.vt,false,some ⟨8,[],none,false⟩⟩,⟨256,.ff,false,none⟩,⟨256,.cr,false,none⟩,⟨256,.cr,true,none⟩,⟨256,.other,false,some ⟨0,[],some 2,true⟩⟩,⟨256,.other,false,some ⟨9,[],none,false⟩⟩]⟩,⟨[22],none,[],[⟨256,.other,false,some ⟨15,[],none,false⟩⟩,⟨256,.ws,false,some ⟨15,[],none,false⟩⟩,⟨256,.lf,false,none⟩,⟨256,.vt,false,some ⟨15,[],none,false⟩⟩,⟨256,.ff,false,none⟩,⟨256,.cr,false,none⟩,⟨256,.cr,true,none⟩]⟩,⟨[16],none,[],[⟨256,.other,false,some ⟨10,[],none,false⟩⟩,⟨256,.ws,false,some ⟨10,[],none,false⟩⟩,⟨256,.lf,false,none⟩,⟨256,.vt,false,some ⟨10,[],none,false⟩⟩,⟨256,.ff,false,none⟩,⟨256,.cr,false,none⟩,⟨256,.cr,true,none⟩,⟨256,.other,false,some ⟨0,[],some 2,true⟩⟩,⟨256,.other,false,some ⟨11,[],none,false⟩⟩]⟩,⟨[17],none,[],[⟨256,.other,false,some ⟨16,[],none,false⟩⟩,⟨256,.ws,false,some ⟨16,[],none,false⟩⟩,⟨256,.lf,false,none⟩,⟨256,.vt,false,some ⟨16,[],none,false⟩⟩,⟨256,.ff,false,none⟩,⟨256,.cr,false,none⟩,⟨256,.cr,true,none⟩]⟩,⟨[5],none,[],[⟨256,.other,false,some ⟨17,[.comment],none,false⟩⟩,⟨256,.ws,false,some ⟨18,[],none,false⟩⟩,⟨256,.lf,false,some ⟨19,[],none,false⟩⟩,⟨256,.vt,false,some ⟨17,[.comment],none,false⟩⟩,⟨256,.ff,false,some ⟨20,[],none,false⟩⟩,⟨256,.cr,false,some ⟨21,[],none,false⟩⟩,⟨256,.cr,true,some ⟨22,[],none,false⟩⟩,⟨256,.other,false,some ⟨23,[.comment],none,false⟩⟩]⟩,⟨[2],some 1,[],[⟨256,.other,false,some ⟨24,[],some 1,false⟩⟩,⟨256,.ws,false,some ⟨24,[],some 1,false⟩⟩,⟨256,.lf,false,none⟩,⟨256,.vt,false,some ⟨24,[],some 1,false⟩⟩,⟨256,.ff,false,none⟩,⟨256,.cr,false,none⟩,⟨256,.cr,true,none⟩]⟩,⟨[26],none,[],[⟨256,.other,false,none⟩,⟨256,.ws,false,none⟩,⟨256,.lf,false,none⟩,⟨256,.vt,false,none⟩,⟨256,.ff,false,none⟩,⟨256,.cr,false,none⟩,⟨256,.cr,true,none⟩,⟨256,.other,false,some ⟨25,[],none,false⟩⟩]⟩,⟨[23],none,[],[⟨256,.other,false,some ⟨8,[],none,false⟩⟩,⟨256,.ws,false,some ⟨8,[],none,false⟩⟩,⟨256,.lf,false,none⟩,⟨256,.vt,false,some ⟨8,[],none,false⟩⟩,⟨256,.ff,false,none⟩,⟨256,.cr,false,none⟩,⟨256,.cr,true,none⟩,⟨256,.other,false,some ⟨0,[],some 2,true⟩⟩,⟨256,.other,false,some ⟨9,[],none,false⟩⟩]⟩,⟨[18],none,[],[⟨256,.other,false,some ⟨10,[],none,false⟩⟩,⟨256,.ws,false,some ⟨10,[],none,false⟩⟩,⟨256,.lf,false,none⟩,⟨256,.vt,false,some ⟨10,[],none,false⟩⟩,⟨256,.ff,false,none⟩,⟨256,.cr,false,none⟩,⟨256,.cr,true,none⟩,⟨256,.other,false,some ⟨0,[],some 2,true⟩⟩,⟨256,.other,false,some ⟨11,[],none,false⟩⟩]⟩,⟨[12],none,[],[⟨256,.other,false,some ⟨17,[.comment],none,false⟩⟩,⟨256,.ws,false,some ⟨18,[],none,false⟩⟩,⟨256,.lf,false,some ⟨19,[],none,false⟩⟩,⟨256,.vt,false,some ⟨17,[.comment],none,false⟩⟩,⟨256,.ff,false,some ⟨20,[],none,false⟩⟩,⟨256,.cr,false,some ⟨21,[],none,false⟩⟩,⟨256,.cr,true,some ⟨22,[],none,false⟩⟩,⟨256,.other,false,some ⟨23,[.comment],none,false⟩⟩]⟩,⟨[11],none,[],[⟨256,.other,false,some ⟨17,[.comment],none,false⟩⟩,⟨256,.ws,false,some ⟨18,[],none,false⟩⟩,⟨256,.lf,false,some ⟨19,[],none,false⟩⟩,⟨256,.vt,false,some ⟨17,[.comment],none,false⟩⟩,⟨256,.ff,false,some ⟨20,[],none,false⟩⟩,⟨256,.cr,false,some ⟨21,[],none,false⟩⟩,⟨256,.cr,true,some ⟨22,[],none,false⟩⟩,⟨256,.other,false,some ⟨23,[.comment],none,false⟩⟩]⟩,⟨[8],none,[],[⟨256,.other,false,some ⟨17,[.setEnt .internalNl,.cb,.comment],none,false⟩⟩,⟨256,.ws,false,some ⟨18,[.setEnt .internalNl,.cb],none,false⟩⟩,⟨256,.lf,false,some ⟨19,[.setEnt .internalNl,.cb],none,false⟩⟩,⟨256,.vt,false,some ⟨17,[.setEnt .internalNl,.cb,.comment],none,false⟩⟩,⟨256,.ff,false,some ⟨20,[.setEnt .internalNl,.cb],none,false⟩⟩,⟨256,.cr,false,some ⟨21,[.setEnt .internalNl,.cb],none,false⟩⟩,⟨256,.cr,true,some ⟨22,[.setEnt .internalNl,.cb],none,false⟩⟩,⟨256,.other,false,some ⟨23,[.setEnt .internalNl,.cb,.comment],none,false⟩⟩]⟩,⟨[9],none,[],[⟨256,.other,false,some ⟨17,[.setEnt .internalNl,.cb,.comment],none,false⟩⟩,⟨256,.ws,false,some ⟨18,[.setEnt .internalNl,.cb],none,false⟩⟩,⟨256,.lf,false,some ⟨19,[.setEnt .internalNl,.cb],none,false⟩⟩,⟨256,.vt,false,some ⟨17,[.setEnt .internalNl,.cb,.comment],none,false⟩⟩,⟨256,.ff,false,some ⟨20,[.setEnt .internalNl,.cb],none,false⟩⟩,⟨256,.cr,false,some ⟨21,[.setEnt .internalNl,.cb],none,false⟩⟩,⟨256,.cr,true,some ⟨22,[.setEnt .internalNl,.cb],none,false⟩⟩,⟨256,.other,false,some ⟨23,[.setEnt .internalNl,.cb,.comment],none,false⟩⟩]⟩,⟨[6],none,[],[⟨256,.other,false,none⟩,⟨256,.ws,false,none⟩,⟨256,.lf,false,some ⟨26,[],none,false⟩⟩,⟨256,.vt,false,none⟩,⟨256,.ff,false,none⟩,⟨256,.cr,false,none⟩,⟨256,.cr,true,none⟩]⟩,⟨[6,10],none,[],[⟨256,.other,false,some ⟨17,[.setEnt .internalNl,.cb,.comment],none,false⟩⟩,⟨256,.ws,false,some ⟨18,[.setEnt .internalNl,.cb],none,false⟩⟩,⟨256,.lf,false,some ⟨27,[.setEnt .internalNl,.cb],none,false⟩⟩,⟨256,.vt,false,some ⟨17,[.setEnt .internalNl,.cb,.comment],none,false⟩⟩,⟨256,.ff,false,some ⟨20,[.setEnt .internalNl,.cb],none,false⟩⟩,⟨256,.cr,false,some ⟨21,[.setEnt .internalNl,.cb],none,false⟩⟩,⟨256,.cr,true,some ⟨22,[.setEnt .internalNl,.cb],none,false⟩⟩,⟨256,.other,false,some ⟨23,[.setEnt .internalNl,.cb,.comment],none,false⟩⟩]⟩,⟨[12,13],none,[],[⟨256,.other,false,some ⟨17,[.comment],none,false⟩⟩,⟨256,.ws,false,some ⟨18,[],none,false⟩⟩,⟨256,.lf,false,some ⟨19,[],none,false⟩⟩,⟨256,.vt,false,some ⟨17,[.comment],none,false⟩⟩,⟨256,.ff,false,some ⟨20,[],none,false⟩⟩,⟨256,.cr,false,some ⟨21,[],none,false⟩⟩,⟨256,.cr,true,some ⟨22,[],none,false⟩⟩,⟨256,.other,false,some ⟨23,[.comment],none,false⟩⟩,⟨256,.other,false,some ⟨0,[],some 1,true⟩⟩]⟩,⟨[3],some 1,[],[⟨256,.other,false,some ⟨24,[],some 1,false⟩⟩,⟨256,.ws,false,some ⟨24,[],some 1,false⟩⟩,⟨256,.lf,false,none⟩,⟨256,.vt,false,some ⟨24,[],some 1,false⟩⟩,⟨256,.ff,false,none⟩,⟨256,.cr,false,none⟩,⟨256,.cr,true,none⟩]⟩,⟨[27],none,[],[⟨256,.other,false,none⟩,⟨256,.ws,false,none⟩,⟨256,.lf,false,none⟩,⟨256,.vt,false,none⟩,⟨256,.ff,false,none⟩,⟨256,.cr,false,none⟩,⟨256,.cr,true,none⟩,⟨256,.other,false,some ⟨28,[],none,false⟩⟩]⟩,⟨[7],none,[],[⟨256,.other,false,some ⟨17,[.setEnt .internalNl,.cb,.comment],none,false⟩⟩,⟨256,.ws,false,some ⟨18,[.setEnt .internalNl,.cb],none,false⟩⟩,⟨256,.lf,false,some ⟨19,[.setEnt .internalNl,.cb],none,false⟩⟩,⟨256,.vt,false,some ⟨17,[.setEnt .internalNl,.cb,.comment],none,false⟩⟩,⟨256,.ff,false,some ⟨20,[.setEnt .internalNl,.cb],none,false⟩⟩,⟨256,.cr,false,some ⟨21,[.setEnt .internalNl,.cb],none,false⟩⟩,⟨256,.cr,true,some ⟨22,[.setEnt .internalNl,.cb],none,false⟩⟩,⟨256,.other,false,some ⟨23,[.setEnt .internalNl,.cb,.comment],none,false⟩⟩]⟩,⟨[7,8],none,[],[⟨256,.other,false,some ⟨17,[.setEnt .internalNl,.cb,.comment],none,false⟩⟩,⟨256,.ws,false,some ⟨18,[.setEnt .internalNl,.cb],none,false⟩⟩,⟨256,.lf,false,some ⟨19,[.setEnt .internalNl,.cb],none,false⟩⟩,⟨256,.vt,false,some ⟨17,[.setEnt .internalNl,.cb,.comment],none,false⟩⟩,⟨256,.ff,false,some ⟨20,[.setEnt .internalNl,.cb],none,false⟩⟩,⟨256,.cr,false,some ⟨21,[.setEnt .internalNl,.cb],none,false⟩⟩,⟨256,.cr,true,some ⟨22,[.setEnt .internalNl,.cb],none,false⟩⟩,⟨256,.other,false,some ⟨23,[.setEnt .internalNl,.cb,.comment],none,false⟩⟩]⟩,⟨[28],none,[],[⟨256,.other,false,none⟩,⟨256,.ws,false,none⟩,⟨256,.lf,false,none⟩,⟨256,.vt,false,none⟩,⟨256,.ff,false,none⟩,⟨256,.cr,false,none⟩,⟨256,.cr,true,none⟩,⟨256,.other,false,some ⟨29,[],none,false⟩⟩]⟩,⟨[29],none,[],[⟨256,.other,false,none⟩,⟨256,.ws,false,none⟩,⟨256,.lf,false,none⟩,⟨256,.vt,false,none⟩,⟨256,.ff,false,none⟩,⟨256,.cr,false,none⟩,⟨256,.cr,true,none⟩,⟨256,.other,false,some ⟨30,[],none,false⟩⟩]⟩,⟨[30],none,[],[⟨256,.other,false,none⟩,⟨256,.ws,false,none⟩,⟨256,.lf,false,none⟩,⟨256,.vt,false,none⟩,⟨256,.ff,false,none⟩,⟨256,.cr,false,none⟩,⟨256,.cr,true,none⟩,⟨256,.other,false,some ⟨31,[],none,false⟩⟩]⟩,⟨[31],none,[],[⟨256,.other,false,none⟩,⟨256,.ws,false,none⟩,⟨256,.lf,false,none⟩,⟨256,.vt,false,none⟩,⟨256,.ff,false,none⟩,⟨256,.cr,false,none⟩,⟨256,.cr,true,none⟩,⟨256,.other,false,some ⟨32,[],none,false⟩⟩]⟩,⟨[32],none,[],[⟨256,.other,false,none⟩,⟨256,.ws,false,none⟩,⟨256,.lf,false,none⟩,⟨256,.vt,false,none⟩,⟨256,.ff,false,none⟩,⟨256,.cr,false,none⟩,⟨256,.cr,true,none⟩,⟨256,.other,false,some ⟨33,[.code],none,false⟩⟩]⟩,⟨[33],none,[],[⟨256,.other,false,some ⟨34,[.code],none,false⟩⟩,⟨256,.ws,false,some ⟨35,[],none,false⟩⟩,⟨256,.lf,false,some ⟨36,[],none,false⟩⟩,⟨256,.vt,false,some ⟨34,[.code],none,false⟩⟩,⟨256,.ff,false,some ⟨37,[],none,false⟩⟩,⟨256,.cr,false,some ⟨38,[],none,false⟩⟩,⟨256,.cr,true,some ⟨39,[],none,false⟩⟩,⟨256,.other,false,some ⟨40,[.code],none,false⟩⟩]⟩,⟨[40],none,[],[⟨256,.other,false,some ⟨34,[.code],none,false⟩⟩,⟨256,.ws,false,some ⟨35,[],none,false⟩⟩,⟨256,.lf,false,some ⟨36,[],none,false⟩⟩,⟨256,.vt,false,some ⟨34,[.code],none,false⟩⟩,⟨256,.ff,false,some ⟨37,[],none,false⟩⟩,⟨256,.cr,false,some ⟨38,[],none,false⟩⟩,⟨256,.cr,true,some ⟨39,[],none,false⟩⟩,⟨256,.other,false,some ⟨40,[.code],none,false⟩⟩]⟩,⟨[39],none,[],[⟨256,.other,false,some ⟨34,[.code],none,false⟩⟩,⟨256,.ws,false,some ⟨35,[],none,false⟩⟩,⟨256,.lf,false,some ⟨36,[],none,false⟩⟩,⟨256,.vt,false,some ⟨34,[.code],none,false⟩⟩,⟨256,.ff,false,some ⟨37,[],none,false⟩⟩,⟨256,.cr,false,some ⟨38,[],none,false⟩⟩,⟨256,.cr,true,some ⟨39,[],none,false⟩⟩,⟨256,.other,false,some ⟨40,[.code],none,false⟩⟩]⟩,⟨[36],none,[],[⟨256,.other,false,some ⟨34,[.setEnt .internalNl,.cb,.code],none,false⟩⟩,⟨256,.ws,false,some ⟨35,[.setEnt .internalNl,.cb],none,false⟩⟩,⟨256,.lf,false,some ⟨36,[.setEnt .internalNl,.cb],none,false⟩⟩,⟨256,.vt,false,some ⟨34,[.setEnt .internalNl,.cb,.code],none,false⟩⟩,⟨256,.ff,false,some ⟨37,[.setEnt .internalNl,.cb],none,false⟩⟩,⟨256,.cr,false,some ⟨38,[.setEnt .internalNl,.cb],none,false⟩⟩,⟨256,.cr,true,some ⟨39,[.setEnt .internalNl,.cb],none,false⟩⟩,⟨256,.other,false,some ⟨40,[.setEnt .internalNl,.cb,.code],none,false⟩⟩]⟩,⟨[37],none,[],[⟨256,.other,false,some ⟨34,[.setEnt .internalNl,.cb,.code],none,false⟩⟩,⟨256,.ws,false,some ⟨35,[.setEnt .internalNl,.cb],none,false⟩⟩,⟨256,.lf,false,some ⟨36,[.setEnt .internalNl,.cb],none,false⟩⟩,⟨256,.vt,false,some ⟨34,[.setEnt .internalNl,.cb,.code],none,false⟩⟩,⟨256,.ff,false,some ⟨37,[.setEnt .internalNl,.cb],none,false⟩⟩,⟨256,.cr,false,some ⟨38,[.setEnt .internalNl,.cb],none,false⟩⟩,⟨256,.cr,true,some ⟨39,[.setEnt .internalNl,.cb],none,false⟩⟩,⟨256,.other,false,some ⟨40,[.setEnt .internalNl,.cb,.code],none,false⟩⟩]⟩,⟨[34],none,[],[⟨256,.other,false,none⟩,⟨256,.ws,false,none⟩,⟨256,.lf,false,some ⟨41,[],none,false⟩⟩,⟨256,.vt,false,none⟩,⟨256,.ff,false,none⟩,⟨256,.cr,false,none⟩,⟨256,.cr,true,none⟩]⟩,⟨[34,38],none,[],[⟨256,.other,false,some ⟨34,[.setEnt .internalNl,.cb,.code],none,false⟩⟩,⟨256,.ws,false,some ⟨35,[.setEnt .internalNl,.cb],none,false⟩⟩,⟨256,.lf,false,some ⟨42,[.setEnt .internalNl,.cb],none,false⟩⟩,⟨256,.vt,false,some ⟨34,[.setEnt .internalNl,.cb,.code],none,false⟩⟩,⟨256,.ff,false,some ⟨37,[.setEnt .internalNl,.cb],none,false⟩⟩,⟨256,.cr,false,some ⟨38,[.setEnt .internalNl,.cb],none,false⟩⟩,⟨256,.cr,true,some ⟨39,[.setEnt .internalNl,.cb],none,false⟩⟩,⟨256,.other,false,some ⟨40,[.setEnt .internalNl,.cb,.code],none,false⟩⟩]⟩,⟨[40,41],none,[],[⟨256,.other,false,some ⟨34,[.code],none,false⟩⟩,⟨256,.ws,false,some ⟨35,[],none,false⟩⟩,⟨256,.lf,false,some ⟨36,[],none,false⟩⟩,⟨256,.vt,false,some ⟨34,[.code],none,false⟩⟩,⟨256,.ff,false,some ⟨37,[],none,false⟩⟩,⟨256,.cr,false,some ⟨38,[],none,false⟩⟩,⟨256,.cr,true,some ⟨39,[],none,false⟩⟩,⟨256,.other,false,some ⟨43,[.code],none,false⟩⟩]⟩,⟨[35],none,[],[⟨256,.other,false,some ⟨34,[.setEnt .internalNl,.cb,.code],none,false⟩⟩,⟨256,.ws,false,some ⟨35,[.setEnt .internalNl,.cb],none,false⟩⟩,⟨256,.lf,false,some ⟨36,[.setEnt .internalNl,.cb],none,false⟩⟩,⟨256,.vt,false,some ⟨34,[.setEnt .internalNl,.cb,.code],none,false⟩⟩,⟨256,.ff,false,some ⟨37,[.setEnt .internalNl,.cb],none,false⟩⟩,⟨256,.cr,false,some ⟨38,[.setEnt .internalNl,.cb],none,false⟩⟩,⟨256,.cr,true,some ⟨39,[.setEnt .internalNl,.cb],none,false⟩⟩,⟨256,.other,false,some ⟨40,[.setEnt .internalNl,.cb,.code],none,false⟩⟩]⟩,⟨[35,36],none,[],[⟨256,.other,false,some ⟨34,[.setEnt .internalNl,.cb,.code],none,false⟩⟩,⟨256,.ws,false,some ⟨35,[.setEnt .internalNl,.cb],none,false⟩⟩,⟨256,.lf,false,some ⟨36,[.setEnt .internalNl,.cb],none,false⟩⟩,⟨256,.vt,false,some ⟨34,[.setEnt .internalNl,.cb,.code],none,false⟩⟩,⟨256,.ff,false,some ⟨37,[.setEnt .internalNl,.cb],none,false⟩⟩,⟨256,.cr,false,some ⟨38,[.setEnt .internalNl,.cb],none,false⟩⟩,⟨256,.cr,true,some ⟨39,[.setEnt .internalNl,.cb],none,false⟩⟩,⟨256,.other,false,some ⟨40,[.setEnt .internalNl,.cb,.code],none,false⟩⟩]⟩,⟨[40,41,42],none,[],[⟨256,.other,false,some ⟨34,[.code],none,false⟩⟩,⟨256,.ws,false,some ⟨35,[],none,false⟩⟩,⟨256,.lf,false,some ⟨36,[],none,false⟩⟩,⟨256,.vt,false,some ⟨34,[.code],none,false⟩⟩,⟨256,.ff,false,some ⟨37,[],none,false⟩⟩,⟨256,.cr,false,some ⟨38,[],none,false⟩⟩,⟨256,.cr,true,some ⟨39,[],none,false⟩⟩,⟨256,.other,false,some ⟨0,[],some 2,true⟩⟩,⟨256,.other,false,some ⟨43,[.code],none,false⟩⟩]⟩]
theorem as_line_rowsOk : rowsOk as_line_nfa [] (as_line_cs.map (·.1)) as_line_rows = true := by decide +kernel
def as_line_D : Dfa as_line_M.nfa := ⟨as_line_masks, [], as_line_cs, as_line_rows, as_line_masksIn, as_line_repOk, as_line_rowsOk⟩

def dcl_line_nfa : Nfa := ⟨[⟨0,68719476736,[],[(0,.setEnt (.own 1))],0,0⟩,⟨1,4294967808,[],[(1,.setEnt (.own 0))],0,0⟩,⟨2,8589934592,[],[(2,.comment)],0,0⟩,⟨4,17179869184,[],[(3,.code)],0,0⟩,⟨9,8192,[],[(4,.setEnt .newline)],0,0⟩,⟨11,1024,[],[(4,.setEnt .newline)],0,0⟩,⟨12,4096,[],[(4,.setEnt .newline)],0,0⟩,⟨13,8192,[.crAlone],[(4,.setEnt .newline)],0,0⟩,⟨14,115792089237316195423570985008687907853269984665640564039457584007840115180031,[],[(5,.setEnt (.own 4))],0,0⟩],[[],[⟨1,4294967808,[],[(1,.setEnt (.own 0))],0,0⟩],[⟨3,115792089237316195423570985008687907853269984665640564039457584007913129626623,[],[],0,0⟩],[⟨3,115792089237316195423570985008687907853269984665640564039457584007913129626623,[],[],0,0⟩],[⟨5,115792089237316195423570985008687907853269984665635612279300442486796353260543,[],[],0,0⟩,⟨6,4951760157141521099596496896,[],[],0,0⟩,⟨8,17179869184,[],[],0,0⟩],[⟨5,115792089237316195423570985008687907853269984665635612279300442486796353260543,[],[],0,0⟩,⟨6,4951760157141521099596496896,[],[],0,0⟩,⟨8,17179869184,[],[],0,0⟩],[⟨7,115792089237316195423570985008687907853269984665640564039457584007913129626623,[],[],0,0⟩],[⟨5,115792089237316195423570985008687907853269984665635612279300442486796353260543,[],[],0,0⟩,⟨6,4951760157141521099596496896,[],[],0,0⟩,⟨8,17179869184,[],[],0,0⟩],[],[⟨10,1024,[],[(4,.setEnt .newline)],0,0⟩],[],[],[],[],[]],[some (0,[]),some (1,[]),some (2,[]),some (2,[]),none,none,none,none,some (3,[]),none,some (4,[]),some (4,[]),some (4,[]),some (4,[]),some (5,[])],[1,2,3,4,5,6]⟩
theorem dcl_line_nfa_eq : Dcl.dcl_line.nfa = dcl_line_nfa := by decide +kernel
/-- The machine of `Dcl.dcl_line`, with its automaton as a literal. -/
def dcl_line_M : Machine := ⟨dcl_line_nfa, Dcl.dcl_line.ends, Dcl.dcl_line.sw⟩
theorem dcl_line_M_eq : Dcl.dcl_line.machine = dcl_line_M := by
  unfold Scanner.machine dcl_line_M; rw [dcl_line_nfa_eq]
def dcl_line_masks : List Nat := [68719476736,4294967808,8589934592,17179869184,8192,1024,4096,115792089237316195423570985008687907853269984665640564039457584007840115180031,115792089237316195423570985008687907853269984665640564039457584007913129626623,115792089237316195423570985008687907853269984665635612279300442486796353260543,4951760157141521099596496896]
def dcl_line_cs : List (Nat × Nat) := [(0,115792089237316195423570985008687907853269984665635612279300442486714748879359),(9,4294967808),(10,1024),(11,2048),(12,4096),(13,8192),(33,8589934592),(34,17179869184),(36,68719476736),(92,4951760157141521099596496896)]
theorem dcl_line_masksIn : masksIn dcl_line_nfa dcl_line_masks = true := by decide +kernel
theorem dcl_line_repOk : repOk dcl_line_masks dcl_line_cs = true := by decide +kernel
def dcl_line_rows : List Row := [⟨[],none,[],[⟨256,.other,false,some ⟨0,[.setEnt (.own 4)],some 5,true⟩⟩,⟨256,.ws,false,some ⟨1,[.setEnt (.own 0)],some 1,false⟩⟩,⟨256,.lf,false,some ⟨0,[.setEnt .newline],some 4,true⟩⟩,⟨256,.vt,false,none⟩,⟨256,.ff,false,some ⟨0,[.setEnt .newline],some 4,true⟩⟩,⟨256,.cr,false,some ⟨2,[.setEnt .newline],none,false⟩⟩,⟨256,.cr,true,some ⟨3,[.setEnt .newline],some 4,false⟩⟩,⟨256,.other,false,some ⟨4,[.comment,.setEnt (.own 4)],some 2,false⟩⟩,⟨256,.other,false,some ⟨5,[.code,.setEnt (.own 4)],some 5,false⟩⟩,⟨256,.other,false,some ⟨0,[.setEnt (.own 1)],some 0,true⟩⟩]⟩,⟨[1],some 1,[],[⟨256,.other,false,none⟩,⟨256,.ws,false,some ⟨1,[.setEnt (.own 0)],some 1,false⟩⟩,⟨256,.lf,false,none⟩,⟨256,.vt,false,none⟩,⟨256,.ff,false,none⟩,⟨256,.cr,false,none⟩,⟨256,.cr,true,none⟩]⟩,⟨[9],none,[],[⟨256,.other,false,none⟩,⟨256,.ws,false,none⟩,⟨256,.lf,false,some ⟨0,[.setEnt .newline],some 4,true⟩⟩,⟨256,.vt,false,none⟩,⟨256,.ff,false,none⟩,⟨256,.cr,false,none⟩,⟨256,.cr,true,none⟩]⟩,⟨[9,13],some 4,[],[⟨256,.other,false,none⟩,⟨256,.ws,false,none⟩,⟨256,.lf,false,some ⟨0,[.setEnt .newline],some 4,true⟩⟩,⟨256,.vt,false,none⟩,⟨256,.ff,false,none⟩,⟨256,.cr,false,none⟩,⟨256,.cr,true,none⟩]⟩,⟨[2,14],some 2,[],[⟨256,.other,false,some ⟨6,[],some 2,false⟩⟩,⟨256,.ws,false,some ⟨6,[],some 2,false⟩⟩,⟨256,.lf,false,none⟩,⟨256,.vt,false,some ⟨6,[],some 2,false⟩⟩,⟨256,.ff,false,none⟩,⟨256,.cr,false,none⟩,⟨256,.cr,true,none⟩]⟩,⟨[4,14],some 5,[],[⟨256,.other,false,some ⟨7,[],none,false⟩⟩,⟨256,.ws,false,some ⟨7,[],none,false⟩⟩,⟨256,.lf,false,none⟩,⟨256,.vt,false,some ⟨7,[],none,false⟩⟩,⟨256,.ff,false,none⟩,⟨256,.cr,false,none⟩,⟨256,.cr,true,none⟩,⟨256,.other,false,some ⟨0,[],some 3,true⟩⟩,⟨256,.other,false,some ⟨8,[],none,false⟩⟩]⟩,⟨[3],some 2,[],[⟨256,.other,false,some ⟨6,[],some 2,false⟩⟩,⟨256,.ws,false,some ⟨6,[],some 2,false⟩⟩,⟨256,.lf,false,none⟩,⟨256,.vt,false,some ⟨6,[],some 2,false⟩⟩,⟨256,.ff,false,none⟩,⟨256,.cr,false,none⟩,⟨256,.cr,true,none⟩]⟩,⟨[5],none,[],[⟨256,.other,false,some ⟨7,[],none,false⟩⟩,⟨256,.ws,false,some ⟨7,[],none,false⟩⟩,⟨256,.lf,false,none⟩,⟨256,.vt,false,some ⟨7,[],none,false⟩⟩,⟨256,.ff,false,none⟩,⟨256,.cr,false,none⟩,⟨256,.cr,true,none⟩,⟨256,.other,false,some ⟨0,[],some 3,true⟩⟩,⟨256,.other,false,some ⟨8,[],none,false⟩⟩]⟩,⟨[6],none,[],[⟨256,.other,false,some ⟨9,[],none,false⟩⟩,⟨256,.ws,false,some ⟨9,[],none,false⟩⟩,⟨256,.lf,false,none⟩,⟨256,.vt,false,some ⟨9,[],none,false⟩⟩,⟨256,.ff,false,none⟩,⟨256,.cr,false,none⟩,⟨256,.cr,true,none⟩]⟩,⟨[7],none,[],[⟨256,.other,false,some ⟨7,[],none,false⟩⟩,⟨256,.ws,false,some ⟨7,[],none,false⟩⟩,⟨256,.lf,false,none⟩,⟨256,.vt,false,some ⟨7,[],none,false⟩⟩,⟨256,.ff,false,none⟩,⟨256,.cr,false,none⟩,⟨256,.cr,true,none⟩,⟨256,.other,false,some ⟨0,[],some 3,true⟩⟩,⟨256,.other,false,some ⟨8,[],none,false⟩⟩]⟩]
theorem dcl_line_rowsOk : rowsOk dcl_line_nfa [] (dcl_line_cs.map (·.1)) dcl_line_rows = true := by decide +kernel
def dcl_line_D : Dfa dcl_line_M.nfa := ⟨dcl_line_masks, [], dcl_line_cs, dcl_line_rows, dcl_line_masksIn, dcl_line_repOk, dcl_line_rowsOk⟩

def fsharp_line_nfa : Nfa := ⟨[⟨0,4294967808,[],[(0,.setEnt (.own 0))],0,0⟩,⟨1,140737488355328,[],[],0,0⟩,⟨11,1099511627776,[],[],0,2⟩,⟨22,549755813888,[],[(9,.code)],0,0⟩,⟨34,17179869184,[],[(14,.code)],0,0⟩,⟨46,8192,[],[(19,.setEnt .newline)],0,0⟩,⟨48,1024,[],[(19,.setEnt .newline)],0,0⟩,⟨49,4096,[],[(19,.setEnt .newline)],0,0⟩,⟨50,8192,[.crAlone],[(19,.setEnt .newline)],0,0⟩,⟨51,115792089237316195423570985008687907853269984665640564039457584007908834656767,[],[(20,.setEnt (.own 8))],0,0⟩],[[⟨0,4294967808,[],[(0,.setEnt (.own 0))],0,0⟩],[⟨2,140737488355328,[],[(1,.comment)],0,0⟩],[⟨3,4951760157141521099596496896,[],[],0,0⟩,⟨9,4294967808,[],[],0,0⟩,⟨10,115792089237316195423570985008687907853269984665640564039457584007908834658815,[],[(4,.comment)],0,0⟩],[⟨4,8192,[],[],0,0⟩,⟨6,1024,[],[],0,0⟩,⟨7,4096,[],[],0,0⟩,⟨8,8192,[.crAlone],[],0,0⟩],[⟨5,1024,[],[],0,0⟩],[⟨3,4951760157141521099596496896,[],[(2,.setEnt .internalNl),(3,.cb)],0,0⟩,⟨9,4294967808,[],[(2,.setEnt .internalNl),(3,.cb)],0,0⟩,⟨10,115792089237316195423570985008687907853269984665640564039457584007908834658815,[],[(2,.setEnt .internalNl),(3,.cb),(4,.comment)],0,0⟩],[⟨3,4951760157141521099596496896,[],[(2,.setEnt .internalNl),(3,.cb)],0,0⟩,⟨9,4294967808,[],[(2,.setEnt .internalNl),(3,.cb)],0,0⟩,⟨10,115792089237316195423570985008687907853269984665640564039457584007908834658815,[],[(2,.setEnt .internalNl),(3,.cb),(4,.comment)],0,0⟩],[⟨3,4951760157141521099596496896,[],[(2,.setEnt .internalNl),(3,.cb)],0,0⟩,⟨9,4294967808,[],[(2,.setEnt .internalNl),(3,.cb)],0,0⟩,⟨10,115792089237316195423570985008687907853269984665640564039457584007908834658815,[],[(2,.setEnt .internalNl),(3,.cb),(4,.comment)],0,0⟩],[⟨3,4951760157141521099596496896,[],[(2,.setEnt .internalNl),(3,.cb)],0,0⟩,⟨9,4294967808,[],[(2,.setEnt .internalNl),(3,.cb)],0,0⟩,⟨10,115792089237316195423570985008687907853269984665640564039457584007908834658815,[],[(2,.setEnt .internalNl),(3,.cb),(4,.comment)],0,0⟩],[⟨3,4951760157141521099596496896,[],[],0,0⟩,⟨9,4294967808,[],[],0,0⟩,⟨10,115792089237316195423570985008687907853269984665640564039457584007908834658815,[],[(4,.comment)],0,0⟩],[⟨3,4951760157141521099596496896,[],[],0,0⟩,⟨9,4294967808,[],[],0,0⟩,⟨10,115792089237316195423570985008687907853269984665640564039457584007908834658815,[],[(4,.comment)],0,0⟩],[⟨12,4398046511104,[],[(5,.comment)],0,2⟩],[⟨13,8192,[],[],0,2⟩,⟨15,1024,[],[],0,2⟩,⟨16,4096,[],[],0,2⟩,⟨17,8192,[.crAlone],[],0,2⟩,⟨18,4294967808,[],[],0,2⟩,⟨19,115792089237316195423570985008687907853269984665640564039457584007908834658815,[],[(8,.comment)],0,2⟩,⟨20,4398046511104,[],[],0,2⟩],[⟨14,1024,[],[],0,2⟩],[⟨13,8192,[],[(6,.setEnt .internalNl),(7,.cb)],0,2⟩,⟨15,1024,[],[(6,.setEnt .internalNl),(7,.cb)],0,2⟩,⟨16,4096,[],[(6,.setEnt .internalNl),(7,.cb)],0,2⟩,⟨17,8192,[.crAlone],[(6,.setEnt .internalNl),(7,.cb)],0,2⟩,⟨18,4294967808,[],[(6,.setEnt .internalNl),(7,.cb)],0,2⟩,⟨19,115792089237316195423570985008687907853269984665640564039457584007908834658815,[],[(6,.setEnt .internalNl),(7,.cb),(8,.comment)],0,2⟩,⟨20,4398046511104,[],[(6,.setEnt .internalNl),(7,.cb)],0,2⟩],[⟨13,8192,[],[(6,.setEnt .internalNl),(7,.cb)],0,2⟩,⟨15,1024,[],[(6,.setEnt .internalNl),(7,.cb)],0,2⟩,⟨16,4096,[],[(6,.setEnt .internalNl),(7,.cb)],0,2⟩,⟨17,8192,[.crAlone],[(6,.setEnt .internalNl),(7,.cb)],0,2⟩,⟨18,4294967808,[],[(6,.setEnt .internalNl),(7,.cb)],0,2⟩,⟨19,115792089237316195423570985008687907853269984665640564039457584007908834658815,[],[(6,.setEnt .internalNl),(7,.cb),(8,.comment)],0,2⟩,⟨20,4398046511104,[],[(6,.setEnt .internalNl),(7,.cb)],0,2⟩],[⟨13,8192,[],[(6,.setEnt .internalNl),(7,.cb)],0,2⟩,⟨15,1024,[],[(6,.setEnt .internalNl),(7,.cb)],0,2⟩,⟨16,4096,[],[(6,.setEnt .internalNl),(7,.cb)],0,2⟩,⟨17,8192,[.crAlone],[(6,.setEnt .internalNl),(7,.cb)],0,2⟩,⟨18,4294967808,[],[(6,.setEnt .internalNl),(7,.cb)],0,2⟩,⟨19,115792089237316195423570985008687907853269984665640564039457584007908834658815,[],[(6,.setEnt .internalNl),(7,.cb),(8,.comment)],0,2⟩,⟨20,4398046511104,[],[(6,.setEnt .internalNl),(7,.cb)],0,2⟩],[⟨13,8192,[],[(6,.setEnt .internalNl),(7,.cb)],0,2⟩,⟨15,1024,[],[(6,.setEnt .internalNl),(7,.cb)],0,2⟩,⟨16,4096,[],[(6,.setEnt .internalNl),(7,.cb)],0,2⟩,⟨17,8192,[.crAlone],[(6,.setEnt .internalNl),(7,.cb)],0,2⟩,⟨18,4294967808,[],[(6,.setEnt .internalNl),(7,.cb)],0,2⟩,⟨19,115792089237316195423570985008687907853269984665640564039457584007908834658815,[],[(6,.setEnt .internalNl),(7,.cb),(8,.comment)],0,2⟩,⟨20,4398046511104,[],[(6,.setEnt .internalNl),(7,.cb)],0,2⟩],[⟨13,8192,[],[],0,2⟩,⟨15,1024,[],[],0,2⟩,⟨16,4096,[],[],0,2⟩,⟨17,8192,[.crAlone],[],0,2⟩,⟨18,4294967808,[],[],0,2⟩,⟨19,115792089237316195423570985008687907853269984665640564039457584007908834658815,[],[(8,.comment)],0,2⟩,⟨20,4398046511104,[],[],0,2⟩],[⟨13,8192,[],[],0,2⟩,⟨15,1024,[],[],0,2⟩,⟨16,4096,[],[],0,2⟩,⟨17,8192,[.crAlone],[],0,2⟩,⟨18,4294967808,[],[],0,2⟩,⟨19,115792089237316195423570985008687907853269984665640564039457584007908834658815,[],[(8,.comment)],0,2⟩,⟨20,4398046511104,[],[],0,2⟩],[⟨21,2199023255552,[],[],2,0⟩],[],[⟨23,4951760157141521099596496896,[],[],0,0⟩,⟨29,4294967808,[],[],0,0⟩,⟨30,115792089237316195423570985008687907853269984665635612279300442486259482361343,[],[(12,.code)],0,0⟩,⟨31,4951760157141521099596496896,[],[],0,0⟩,⟨33,549755813888,[],[],0,0⟩],[⟨24,8192,[],[],0,0⟩,⟨26,1024,[],[],0,0⟩,⟨27,4096,[],[],0,0⟩,⟨28,8192,[.crAlone],[],0,0⟩],[⟨25,1024,[],[],0,0⟩],[⟨23,4951760157141521099596496896,[],[(10,.setEnt .internalNl),(11,.cb)],0,0⟩,⟨29,4294967808,[],[(10,.setEnt .internalNl),(11,.cb)],0,0⟩,⟨30,115792089237316195423570985008687907853269984665635612279300442486259482361343,[],[(10,.setEnt .internalNl),(11,.cb),(12,.code)],0,0⟩,⟨31,4951760157141521099596496896,[],[(10,.setEnt .internalNl),(11,.cb)],0,0⟩,⟨33,549755813888,[],[(10,.setEnt .internalNl),(11,.cb)],0,0⟩],[⟨23,4951760157141521099596496896,[],[(10,.setEnt .internalNl),(11,.cb)],0,0⟩,⟨29,4294967808,[],[(10,.setEnt .internalNl),(11,.cb)],0,0⟩,⟨30,115792089237316195423570985008687907853269984665635612279300442486259482361343,[],[(10,.setEnt .internalNl),(11,.cb),(12,.code)],0,0⟩,⟨31,4951760157141521099596496896,[],[(10,.setEnt .internalNl),(11,.cb)],0,0⟩,⟨33,549755813888,[],[(10,.setEnt .internalNl),(11,.cb)],0,0⟩],[⟨23,4951760157141521099596496896,[],[(10,.setEnt .internalNl),(11,.cb)],0,0⟩,⟨29,4294967808,[],[(10,.setEnt .internalNl),(11,.cb)],0,0⟩,⟨30,115792089237316195423570985008687907853269984665635612279300442486259482361343,[],[(10,.setEnt .internalNl),(11,.cb),(12,.code)],0,0⟩,⟨31,4951760157141521099596496896,[],[(10,.setEnt .internalNl),(11,.cb)],0,0⟩,⟨33,549755813888,[],[(10,.setEnt .internalNl),(11,.cb)],0,0⟩],[⟨23,4951760157141521099596496896,[],[(10,.setEnt .internalNl),(11,.cb)],0,0⟩,⟨29,4294967808,[],[(10,.setEnt .internalNl),(11,.cb)],0,0⟩,⟨30,115792089237316195423570985008687907853269984665635612279300442486259482361343,[],[(10,.setEnt .internalNl),(11,.cb),(12,.code)],0,0⟩,⟨31,4951760157141521099596496896,[],[(10,.setEnt .internalNl),(11,.cb)],0,0⟩,⟨33,549755813888,[],[(10,.setEnt .internalNl),(11,.cb)],0,0⟩],[⟨23,4951760157141521099596496896,[],[],0,0⟩,⟨29,4294967808,[],[],0,0⟩,⟨30,115792089237316195423570985008687907853269984665635612279300442486259482361343,[],[(12,.code)],0,0⟩,⟨31,4951760157141521099596496896,[],[],0,0⟩,⟨33,549755813888,[],[],0,0⟩],[⟨23,4951760157141521099596496896,[],[],0,0⟩,⟨29,4294967808,[],[],0,0⟩,⟨30,115792089237316195423570985008687907853269984665635612279300442486259482361343,[],[(12,.code)],0,0⟩,⟨31,4951760157141521099596496896,[],[],0,0⟩,⟨33,549755813888,[],[],0,0⟩],[⟨32,115792089237316195423570985008687907853269984665640564039457584007913129626623,[],[(13,.code)],0,0⟩],[⟨23,4951760157141521099596496896,[],[],0,0⟩,⟨29,4294967808,[],[],0,0⟩,⟨30,115792089237316195423570985008687907853269984665635612279300442486259482361343,[],[(12,.code)],0,0⟩,⟨31,4951760157141521099596496896,[],[],0,0⟩,⟨33,549755813888,[],[],0,0⟩],[],[⟨35,4951760157141521099596496896,[],[],0,0⟩,⟨41,4294967808,[],[],0,0⟩,⟨42,115792089237316195423570985008687907853269984665635612279300442486792058306047,[],[(17,.code)],0,0⟩,⟨43,4951760157141521099596496896,[],[],0,0⟩,⟨45,17179869184,[],[],0,0⟩],[⟨36,8192,[],[],0,0⟩,⟨38,1024,[],[],0,0⟩,⟨39,4096,[],[],0,0⟩,⟨40,8192,[.crAlone],[],0,0⟩],[⟨37,1024,[],[],0,0⟩],[⟨35,4951760157141521099596496896,[],[(15,.setEnt .internalNl),(16,.cb)],0,0⟩,⟨41,4294967808,[],[(15,.setEnt .internalNl),(16,.cb)],0,0⟩,⟨42,115792089237316195423570985008687907853269984665635612279300442486792058306047,[],[(15,.setEnt .internalNl),(16,.cb),(17,.code)],0,0⟩,⟨43,4951760157141521099596496896,[],[(15,.setEnt .internalNl),(16,.cb)],0,0⟩,⟨45,17179869184,[],[(15,.setEnt .internalNl),(16,.cb)],0,0⟩],[⟨35,4951760157141521099596496896,[],[(15,.setEnt .internalNl),(16,.cb)],0,0⟩,⟨41,4294967808,[],[(15,.setEnt .internalNl),(16,.cb)],0,0⟩,⟨42,115792089237316195423570985008687907853269984665635612279300442486792058306047,[],[(15,.setEnt .internalNl),(16,.cb),(17,.code)],0,0⟩,⟨43,4951760157141521099596496896,[],[(15,.setEnt .internalNl),(16,.cb)],0,0⟩,⟨45,17179869184,[],[(15,.setEnt .internalNl),(16,.cb)],0,0⟩],[⟨35,4951760157141521099596496896,[],[(15,.setEnt .internalNl),(16,.cb)],0,0⟩,⟨41,4294967808,[],[(15,.setEnt .internalNl),(16,.cb)],0,0⟩,⟨42,115792089237316195423570985008687907853269984665635612279300442486792058306047,[],[(15,.setEnt .internalNl),(16,.cb),(17,.code)],0,0⟩,⟨43,4951760157141521099596496896,[],[(15,.setEnt .internalNl),(16,.cb)],0,0⟩,⟨45,17179869184,[],[(15,.setEnt .internalNl),(16,.cb)],0,0⟩],[⟨35,4951760157141521099596496896,[],[(15,.setEnt .internalNl),(16,.cb)],0,0⟩,⟨41,4294967808,[],[(15,.setEnt .internalNl),(16,.cb)],0,0⟩,⟨42,115792089237316195423570985008687907853269984665635612279300442486792058306047,[],[(15,.setEnt .internalNl),(16,.cb),(17,.code)],0,0⟩,⟨43,4951760157141521099596496896,[],[(15,.setEnt .internalNl),(16,.cb)],0,0⟩,⟨45,17179869184,[],[(15,.setEnt .internalNl),(16,.cb)],0,0⟩],[⟨35,4951760157141521099596496896,[],[],0,0⟩,⟨41,4294967808,[],[],0,0⟩,⟨42,115792089237316195423570985008687907853269984665635612279300442486792058306047,[],[(17,.code)],0,0⟩,⟨43,4951760157141521099596496896,[],[],0,0⟩,⟨45,17179869184,[],[],0,0⟩],[⟨35,4951760157141521099596496896,[],[],0,0⟩,⟨41,4294967808,[],[],0,0⟩,⟨42,115792089237316195423570985008687907853269984665635612279300442486792058306047,[],[(17,.code)],0,0⟩,⟨43,4951760157141521099596496896,[],[],0,0⟩,⟨45,17179869184,[],[],0,0⟩],[⟨44,115792089237316195423570985008687907853269984665640564039457584007913129626623,[],[(18,.code)],0,0⟩],[⟨35,4951760157141521099596496896,[],[],0,0⟩,⟨41,4294967808,[],[],0,0⟩,⟨42,115792089237316195423570985008687907853269984665635612279300442486792058306047,[],[(17,.code)],0,0⟩,⟨43,4951760157141521099596496896,[],[],0,0⟩,⟨45,17179869184,[],[],0,0⟩],[],[⟨47,1024,[],[(19,.setEnt .newline)],0,0⟩],[],[],[],[],[]],[some (0,[]),none,some (1,[]),none,none,some (1,[(2,.setEnt .internalNl),(3,.cb)]),some (1,[(2,.setEnt .internalNl),(3,.cb)]),some (1,[(2,.setEnt .internalNl),(3,.cb)]),some (1,[(2,.setEnt .internalNl),(3,.cb)]),some (1,[]),some (1,[]),none,none,none,none,none,none,none,none,none,none,some (1,[]),none,none,none,none,none,none,none,none,none,none,none,some (2,[]),none,none,none,none,none,none,none,none,none,none,none,some (2,[]),none,some (3,[]),some (3,[]),some (3,[]),some (3,[]),some (4,[])],[1,9,19,20,21]⟩
theorem fsharp_line_nfa_eq : Fsharp.fsharp_line.nfa = fsharp_line_nfa := by decide +kernel
/-- The machine of `Fsharp.fsharp_line`, with its automaton as a literal. -/
def fsharp_line_M : Machine := ⟨fsharp_line_nfa, Fsharp.fsharp_line.ends, Fsharp.fsharp_line.sw⟩
theorem fsharp_line_M_eq : Fsharp.fsharp_line.machine = fsharp_line_M := by
  unfold Scanner.machine fsharp_line_M; rw [fsharp_line_nfa_eq]
def fsharp_line_masks : List Nat := [4294967808,140737488355328,1099511627776,549755813888,17179869184,8192,1024,4096,115792089237316195423570985008687907853269984665640564039457584007908834656767,4951760157141521099596496896,115792089237316195423570985008687907853269984665640564039457584007908834658815,4398046511104,2199023255552,115792089237316195423570985008687907853269984665635612279300442486259482361343,115792089237316195423570985008687907853269984665640564039457584007913129626623,115792089237316195423570985008687907853269984665635612279300442486792058306047]
def fsharp_line_cs : List (Nat × Nat) := [(0,115792089237316195423570985008687907853269984665635612279300442337808232727039),(9,4294967808),(10,1024),(11,2048),(12,4096),(13,8192),(34,17179869184),(39,549755813888),(40,1099511627776),(41,2199023255552),(42,4398046511104),(47,140737488355328),(92,4951760157141521099596496896)]
theorem fsharp_line_masksIn : masksIn fsharp_line_nfa fsharp_line_masks = true := by decide +kernel
theorem fsharp_line_repOk : repOk fsharp_line_masks fsharp_line_cs = true := by decide +kernel
def fsharp_line_rows : List Row := [⟨[],none,[],[⟨256,.other,false,some ⟨0,[.setEnt (.own 8)],some 4,true⟩⟩,⟨256,.ws,false,some ⟨1,[.setEnt (.own 0)],some 0,false⟩⟩,⟨256,.lf,false,some ⟨0,[.setEnt .newline],some 3,true⟩⟩,⟨256,.vt,false,none⟩,⟨256,.ff,false,some ⟨0,[.setEnt .newline],some 3,true⟩⟩,⟨256,.cr,false,some ⟨2,[.setEnt .newline],none,false⟩⟩,⟨256,.cr,true,some ⟨3,[.setEnt .newline],some 3,false⟩⟩,⟨256,.other,false,some ⟨4,[.code,.setEnt (.own 8)],some 4,false⟩⟩,⟨256,.other,false,some ⟨5,[.code,.setEnt (.own 8)],some 4,false⟩⟩,⟨256,.other,false,some ⟨6,[.setEnt (.own 8)],some 4,false⟩⟩,⟨256,.other,false,some ⟨7,[.setEnt (.own 8)],some 4,false⟩⟩]⟩,⟨[0],some 0,[],[⟨256,.other,false,none⟩,⟨256,.ws,false,some ⟨1,[.setEnt (.own 0)],some 0,false⟩⟩,⟨256,.lf,false,none⟩,⟨256,.vt,false,none⟩,⟨256,.ff,false,none⟩,⟨256,.cr,false,none⟩,⟨256,.cr,true,none⟩]⟩,⟨[46],none,[],[⟨256,.other,false,none⟩,⟨256,.ws,false,none⟩,⟨256,.lf,false,some ⟨0,[.setEnt .newline],some 3,true⟩⟩,⟨256,.vt,false,none⟩,⟨256,.ff,false,none⟩,⟨256,.cr,false,none⟩,⟨256,.cr,true,none⟩]⟩,⟨[46,50],some 3,[],[⟨256,.other,false,none⟩,⟨256,.ws,false,none⟩,⟨256,.lf,false,some ⟨0,[.setEnt .newline],some 3,true⟩⟩,⟨256,.vt,false,none⟩,⟨256,.ff,false,none⟩,⟨256,.cr,false,none⟩,⟨256,.cr,true,none⟩]⟩,⟨[34,51],some 4,[],[⟨256,.other,false,some ⟨8,[.code],none,false⟩⟩,⟨256,.ws,false,some ⟨9,[],none,false⟩⟩,⟨256,.lf,false,some ⟨8,[.code],none,false⟩⟩,⟨256,.vt,false,some ⟨8,[.code],none,false⟩⟩,⟨256,.ff,false,some ⟨8,[.code],none,false⟩⟩,⟨256,.cr,false,some ⟨8,[.code],none,false⟩⟩,⟨256,.cr,true,some ⟨8,[.code],none,false⟩⟩,⟨256,.other,false,some ⟨0,[],some 2,true⟩⟩,⟨256,.other,false,some ⟨10,[],none,false⟩⟩]⟩,⟨[22,51],some 4,[],[⟨256,.other,false,some ⟨11,[.code],none,false⟩⟩,⟨256,.ws,false,some ⟨12,[],none,false⟩⟩,⟨256,.lf,false,some ⟨11,[.code],none,false⟩⟩,⟨256,.vt,false,some ⟨11,[.code],none,false⟩⟩,⟨256,.ff,false,some ⟨11,[.code],none,false⟩⟩,⟨256,.cr,false,some ⟨11,[.code],none,false⟩⟩,⟨256,.cr,true,some ⟨11,[.code],none,false⟩⟩,⟨256,.other,false,some ⟨0,[],some 2,true⟩⟩,⟨256,.other,false,some ⟨13,[],none,false⟩⟩]⟩,⟨[11,51],some 4,[],[⟨256,.other,false,none⟩,⟨256,.ws,false,none⟩,⟨256,.lf,false,none⟩,⟨256,.vt,false,none⟩,⟨256,.ff,false,none⟩,⟨256,.cr,false,none⟩,⟨256,.cr,true,none⟩,⟨256,.other,false,some ⟨14,[.comment],none,false⟩⟩]⟩,⟨[1,51],some 4,[],[⟨256,.other,false,none⟩,⟨256,.ws,false,none⟩,⟨256,.lf,false,none⟩,⟨256,.vt,false,none⟩,⟨256,.ff,false,none⟩,⟨256,.cr,false,none⟩,⟨256,.cr,true,none⟩,⟨256,.other,false,some ⟨15,[.comment],some 1,false⟩⟩]⟩,⟨[42],none,[],[⟨256,.other,false,some ⟨8,[.code],none,false⟩⟩,⟨256,.ws,false,some ⟨9,[],none,false⟩⟩,⟨256,.lf,false,some ⟨8,[.code],none,false⟩⟩,⟨256,.vt,false,some ⟨8,[.code],none,false⟩⟩,⟨256,.ff,false,some ⟨8,[.code],none,false⟩⟩,⟨256,.cr,false,some ⟨8,[.code],none,false⟩⟩,⟨256,.cr,true,some ⟨8,[.code],none,false⟩⟩,⟨256,.other,false,some ⟨0,[],some 2,true⟩⟩,⟨256,.other,false,some ⟨10,[],none,false⟩⟩]⟩,⟨[41],none,[],[⟨256,.other,false,some ⟨8,[.code],none,false⟩⟩,⟨256,.ws,false,some ⟨9,[],none,false⟩⟩,⟨256,.lf,false,some ⟨8,[.code],none,false⟩⟩,⟨256,.vt,false,some ⟨8,[.code],none,false⟩⟩,⟨256,.ff,false,some ⟨8,[.code],none,false⟩⟩,⟨256,.cr,false,some ⟨8,[.code],none,false⟩⟩,⟨256,.cr,true,some ⟨8,[.code],none,false⟩⟩,⟨256,.other,false,some ⟨0,[],some 2,true⟩⟩,⟨256,.other,false,some ⟨10,[],none,false⟩⟩]⟩,⟨[35,43],none,[],[⟨256,.other,false,some ⟨16,[.code],none,false⟩⟩,⟨256,.ws,false,some ⟨16,[.code],none,false⟩⟩,⟨256,.lf,false,some ⟨17,[],none,false⟩⟩,⟨256,.vt,false,some ⟨16,[.code],none,false⟩⟩,⟨256,.ff,false,some ⟨18,[],none,false⟩⟩,⟨256,.cr,false,some ⟨19,[],none,false⟩⟩,⟨256,.cr,true,some ⟨20,[],none,false⟩⟩]⟩,⟨[30],none,[],[⟨256,.other,false,some ⟨11,[.code],none,false⟩⟩,⟨256,.ws,false,some ⟨12,[],none,false⟩⟩,⟨256,.lf,false,some ⟨11,[.code],none,false⟩⟩,⟨256,.vt,false,some ⟨11,[.code],none,false⟩⟩,⟨256,.ff,false,some ⟨11,[.code],none,false⟩⟩,⟨256,.cr,false,some ⟨11,[.code],none,false⟩⟩,⟨256,.cr,true,some ⟨11,[.code],none,false⟩⟩,⟨256,.other,false,some ⟨0,[],some 2,true⟩⟩,⟨256,.other,false,some ⟨13,[],none,false⟩⟩]⟩,⟨[29],none,[],[⟨256,.other,false,some ⟨11,[.code],none,false⟩⟩,⟨256,.ws,false,some ⟨12,[],none,false⟩⟩,⟨256,.lf,false,some ⟨11,[.code],none,false⟩⟩,⟨256,.vt,false,some ⟨11,[.code],none,false⟩⟩,⟨256,.ff,false,some ⟨11,[.code],none,false⟩⟩,⟨256,.cr,false,some ⟨11,[.code],none,false⟩⟩,⟨256,.cr,true,some ⟨11,[.code],none,false⟩⟩,⟨256,.other,false,some ⟨0,[],some 2,true⟩⟩,⟨256,.other,false,some ⟨13,[],none,false⟩⟩]⟩,⟨[23,31],none,[],[⟨256,.other,false,some ⟨21,[.code],none,false⟩⟩,⟨256,.ws,false,some ⟨21,[.code],none,false⟩⟩,⟨256,.lf,false,some ⟨22,[],none,false⟩⟩,⟨256,.vt,false,some ⟨21,[.code],none,false⟩⟩,⟨256,.ff,false,some ⟨23,[],none,false⟩⟩,⟨256,.cr,false,some ⟨24,[],none,false⟩⟩,⟨256,.cr,true,some ⟨25,[],none,false⟩⟩]⟩,⟨[12],none,[],[⟨256,.other,false,some ⟨26,[.comment],none,false⟩⟩,⟨256,.ws,false,some ⟨27,[],none,false⟩⟩,⟨256,.lf,false,some ⟨28,[],none,false⟩⟩,⟨256,.vt,false,some ⟨26,[.comment],none,false⟩⟩,⟨256,.ff,false,some ⟨29,[],none,false⟩⟩,⟨256,.cr,false,some ⟨30,[],none,false⟩⟩,⟨256,.cr,true,some ⟨31,[],none,false⟩⟩,⟨256,.other,false,some ⟨32,[.comment],none,false⟩⟩]⟩,⟨[2],some 1,[],[⟨256,.other,false,some ⟨33,[.comment],some 1,false⟩⟩,⟨256,.ws,false,some ⟨34,[],some 1,false⟩⟩,⟨256,.lf,false,none⟩,⟨256,.vt,false,some ⟨33,[.comment],some 1,false⟩⟩,⟨256,.ff,false,none⟩,⟨256,.cr,false,none⟩,⟨256,.cr,true,none⟩,⟨256,.other,false,some ⟨35,[.comment],some 1,false⟩⟩]⟩,⟨[44],none,[],[⟨256,.other,false,some ⟨8,[.code],none,false⟩⟩,⟨256,.ws,false,some ⟨9,[],none,false⟩⟩,⟨256,.lf,false,some ⟨8,[.code],none,false⟩⟩,⟨256,.vt,false,some ⟨8,[.code],none,false⟩⟩,⟨256,.ff,false,some ⟨8,[.code],none,false⟩⟩,⟨256,.cr,false,some ⟨8,[.code],none,false⟩⟩,⟨256,.cr,true,some ⟨8,[.code],none,false⟩⟩,⟨256,.other,false,some ⟨0,[],some 2,true⟩⟩,⟨256,.other,false,some ⟨10,[],none,false⟩⟩]⟩,⟨[38],none,[],[⟨256,.other,false,some ⟨8,[.setEnt .internalNl,.cb,.code],none,false⟩⟩,⟨256,.ws,false,some ⟨9,[.setEnt .internalNl,.cb],none,false⟩⟩,⟨256,.lf,false,some ⟨8,[.setEnt .internalNl,.cb,.code],none,false⟩⟩,⟨256,.vt,false,some ⟨8,[.setEnt .internalNl,.cb,.code],none,false⟩⟩,⟨256,.ff,false,some ⟨8,[.setEnt .internalNl,.cb,.code],none,false⟩⟩,⟨256,.cr,false,some ⟨8,[.setEnt .internalNl,.cb,.code],none,false⟩⟩,⟨256,.cr,true,some ⟨8,[.setEnt .internalNl,.cb,.code],none,false⟩⟩,⟨256,.other,false,some ⟨0,[.setEnt .internalNl,.cb],some 2,true⟩⟩,⟨256,.other,false,some ⟨10,[.setEnt .internalNl,.cb],none,false⟩⟩]⟩,⟨[39],none,[],[⟨256,.other,false,some ⟨8,[.setEnt .internalNl,.cb,.code],none,false⟩⟩,⟨256,.ws,false,some ⟨9,[.setEnt .internalNl,.cb],none,false⟩⟩,⟨256,.lf,false,some ⟨8,[.setEnt .internalNl,.cb,.code],none,false⟩⟩,⟨256,.vt,false,some ⟨8,[.setEnt .internalNl,.cb,.code],none,false⟩⟩,⟨256,.ff,false,some ⟨8,[.setEnt .internalNl,.cb,.code],none,false⟩⟩,⟨256,.cr,false,some ⟨8,[.setEnt .internalNl,.cb,.code],none,false⟩⟩,⟨256,.cr,true,some ⟨8,[.setEnt .internalNl,.cb,.code],none,false⟩⟩,⟨256,.other,false,some ⟨0,[.setEnt .internalNl,.cb],some 2,true⟩⟩,⟨256,.other,false,some ⟨10,[.setEnt .internalNl,.cb],none,false⟩⟩]⟩,⟨[36],none,[],[⟨256,.other,false,none⟩,⟨256,.ws,false,none⟩,⟨256,.lf,false,some ⟨36,[],none,false⟩⟩,⟨256,.vt,false,none⟩,⟨256,.ff,false,none⟩,⟨256,.cr,false,none⟩,⟨256,.cr,true,none⟩]⟩,⟨[36,40],none,[],[⟨256,.other,false,some ⟨8,[.setEnt .internalNl,.cb,.code],none,false⟩⟩,⟨256,.ws,false,some ⟨9,[.setEnt .internalNl,.cb],none,false⟩⟩,⟨256,.lf,false,some ⟨37,[.setEnt .internalNl,.cb,.code],none,false⟩⟩,⟨256,.vt,false,some ⟨8,[.setEnt .internalNl,.cb,.code],none,false⟩⟩,⟨256,.ff,false,some ⟨8,[.setEnt .internalNl,.cb,.code],none,false⟩⟩,⟨256,.cr,false,some ⟨8,[.setEnt .internalNl,.cb,.code],none,false⟩⟩,⟨256,.cr,true,some ⟨8,[.setEnt .internalNl,.cb,.code],none,false⟩⟩,⟨256,.other,false,some ⟨0,[.setEnt .internalNl,.cb],some 2,true⟩⟩,⟨256,.other,false,some ⟨10,[.setEnt .internalNl,.cb],none,false⟩⟩]⟩,⟨[32],none,[],[⟨256,.other,false,some ⟨11,[.code],none,false⟩⟩,⟨256,.ws,false,some ⟨12,[],none,false⟩⟩,⟨256,.lf,false,some ⟨11,[.code],none,false⟩⟩,⟨256,.vt,false,some ⟨11,[.code],none,false⟩⟩,⟨256,.ff,false,some ⟨11,[.code],none,false⟩⟩,⟨256,.cr,false,some ⟨11,[.code],none,false⟩⟩,⟨256,.cr,true,some ⟨11,[.code],none,false⟩⟩,⟨256,.other,false,some ⟨0,[],some 2,true⟩⟩,⟨256,.other,false,some ⟨13,[],none,false⟩⟩]⟩,⟨[26],none,[],[⟨256,.other,false,some ⟨11,[.setEnt .internalNl,.cb,.code],none,false⟩⟩,⟨256,.ws,false,some ⟨12,[.setEnt .internalNl,.cb],none,false⟩⟩,⟨256,.lf,false,some ⟨11,[.setEnt .internalNl,.cb,.code],none,false⟩⟩,⟨256,.vt,false,some ⟨11,[.setEnt .internalNl,.cb,.code],none,false⟩⟩,⟨256,.ff,false,some ⟨11,[.setEnt .internalNl,.cb,.code],none,false⟩⟩,⟨256,.cr,false,some ⟨11,[.setEnt .internalNl,.cb,.code],none,false⟩⟩,⟨256,.cr,true,some ⟨11,[.setEnt .internalNl,.cb,.code],none,false⟩⟩,⟨256,.other,false,some ⟨0,[.setEnt .internalNl,.cb],some 2,true⟩⟩,⟨256,.other,false,some ⟨13,[.setEnt .internalNl,.cb],none,false⟩⟩]⟩,⟨[27],none,[],[⟨256,.other,false,some ⟨11,[.setEnt .internalNl,.cb,.code],none,false⟩⟩,⟨256,.ws,false,some ⟨12,[.setEnt .internalNl,.cb],none,false⟩⟩,⟨256,.lf,false,some ⟨11,[.setEnt .internalNl,.cb,.code],none,false⟩⟩,⟨256,.vt,false,some ⟨11,[.setEnt .internalNl,.cb,.code],none,false⟩⟩,⟨256,.ff,false,some ⟨11,[.setEnt .internalNl,.cb,.code],none,false⟩⟩,⟨256,.cr,false,some ⟨11,[.setEnt .internalNl,.cb,.code],none,false⟩⟩,⟨256,.cr,true,some ⟨11,[.setEnt .internalNl,.cb,.code],none,false⟩⟩,⟨256,.other,false,some ⟨0,[.setEnt .internalNl,.cb],some 2,true⟩⟩,⟨256,.other,false,some ⟨13,[.setEnt .internalNl,.cb],none,false⟩⟩]⟩,⟨[24],none,[],[⟨256,.other,false,none⟩,⟨256,.ws,false,none⟩,⟨256,.lf,false,some ⟨38,[],none,false⟩⟩,⟨256,.vt,false,none⟩,⟨256,.ff,false,none⟩,⟨256,.cr,false,none⟩,⟨256,.cr,true,none⟩]⟩,⟨[24,28],none,[],[⟨256,.other,false,some ⟨11,[.setEnt .internalNl,.cb,.code],none,false⟩⟩,⟨256,.ws,false,some ⟨12,[.setEnt .internalNl,.cb],none,false⟩⟩,⟨256,.lf,false,some ⟨39,[.setEnt .internalNl,.cb,.code],none,false⟩⟩,⟨256,.vt,false,some ⟨11,[.setEnt .internalNl,.cb,.code],none,false⟩⟩,⟨256,.ff,false,some ⟨11,[.setEnt .internalNl,.cb,.code],none,false⟩⟩,⟨256,.cr,false,some ⟨11,[.setEnt .internalNl,.cb,.code],none,false⟩⟩,⟨256,.cr,true,some ⟨11,[.setEnt .internalNl,.cb,.code],none,false⟩⟩,⟨256,.other,false,some ⟨0,[.setEnt .internalNl,.cb],some 2,true⟩⟩,⟨256,.other,false,some ⟨13,[.setEnt .internalNl,.cb],none,false⟩⟩]⟩,⟨[19],none,[],[⟨256,.other,false,some ⟨26,[.comment],none,false⟩⟩,⟨256,.ws,false,some ⟨27,[],none,false⟩⟩,⟨256,.lf,false,some ⟨28,[],none,false⟩⟩,⟨256,.vt,false,some ⟨26,[.comment],none,false⟩⟩,⟨256,.ff,false,some ⟨29,[],none,false⟩⟩,⟨256,.cr,false,some ⟨30,[],none,false⟩⟩,⟨256,.cr,true,some ⟨31,[],none,false⟩⟩,⟨256,.other,false,some ⟨32,[.comment],none,false⟩⟩]⟩,⟨[18],none,[],[⟨256,.other,false,some ⟨26,[.comment],none,false⟩⟩,⟨256,.ws,false,some ⟨27,[],none,false⟩⟩,⟨256,.lf,false,some ⟨28,[],none,false⟩⟩,⟨256,.vt,false,some ⟨26,[.comment],none,false⟩⟩,⟨256,.ff,false,some ⟨29,[],none,false⟩⟩,⟨256,.cr,false,some ⟨30,[],none,false⟩⟩,⟨256,.cr,true,some ⟨31,[],none,false⟩⟩,⟨256,.other,false,some ⟨32,[.comment],none,false⟩⟩]⟩,⟨[15],none,[],[⟨256,.other,false,some ⟨26,[.setEnt .internalNl,.cb,.comment],none,false⟩⟩,⟨256,.ws,false,some ⟨27,[.setEnt .internalNl,.cb],none,false⟩⟩,⟨256,.lf,false,some ⟨28,[.setEnt .internalNl,.cb],none,false⟩⟩,⟨256,.vt,false,some ⟨26,[.setEnt .internalNl,.cb,.comment],none,false⟩⟩,⟨256,.ff,false,some ⟨29,[.setEnt .internalNl,.cb],none,false⟩⟩,⟨256,.cr,false,some ⟨30,[.setEnt .internalNl,.cb],none,false⟩⟩,⟨256,.cr,true,some ⟨31,[.setEnt .internalNl,.cb],none,false⟩⟩,⟨256,.other,false,some ⟨32,[.setEnt .internalNl,.cb,.comment],none,false⟩⟩]⟩,⟨[16],none,[],[⟨256,.other,false,some ⟨26,[.setEnt .internalNl,.cb,.comment],none,false⟩⟩,⟨256,.ws,false,some ⟨27,[.setEnt .internalNl,.cb],none,false⟩⟩,⟨256,.lf,false,some ⟨28,[.setEnt .internalNl,.cb],none,false⟩⟩,⟨256,.vt,false,some ⟨26,[.setEnt .internalNl,.cb,.comment],none,false⟩⟩,⟨256,.ff,false,some ⟨29,[.setEnt .internalNl,.cb],none,false⟩⟩,⟨256,.cr,false,some ⟨30,[.setEnt .internalNl,.cb],none,false⟩⟩,⟨256,.cr,true,some ⟨31,[.setEnt .internalNl,.cb],none,false⟩⟩,⟨256,.other,false,some ⟨32,[.setEnt .internalNl,.cb,.comment],none,false⟩⟩]⟩,⟨[13],none,[],[⟨256,.other,false,none⟩,⟨256,.ws,false,none⟩,⟨256,.lf,false,some ⟨40,[],none,false⟩⟩,⟨256,.vt,false,none⟩,⟨256,.ff,false,none⟩,⟨256,.cr,false,none⟩,⟨256,.cr,true,none⟩]⟩,⟨[13,17],none,[],[⟨256,.other,false,some ⟨26,[.setEnt .internalNl,.cb,.comment],none,false⟩⟩,⟨256,.ws,false,some ⟨27,[.setEnt .internalNl,.cb],none,false⟩⟩,⟨256,.lf,false,some ⟨41,[.setEnt .internalNl,.cb],none,false⟩⟩,⟨256,.vt,false,some ⟨26,[.setEnt .internalNl,.cb,.comment],none,false⟩⟩,⟨256,.ff,false,some ⟨29,[.setEnt .internalNl,.cb],none,false⟩⟩,⟨256,.cr,false,some ⟨30,[.setEnt .internalNl,.cb],none,false⟩⟩,⟨256,.cr,true,some ⟨31,[.setEnt .internalNl,.cb],none,false⟩⟩,⟨256,.other,false,some ⟨32,[.setEnt .internalNl,.cb,.comment],none,false⟩⟩]⟩,⟨[19,20],none,[],[⟨256,.other,false,some ⟨26,[.comment],none,false⟩⟩,⟨256,.ws,false,some ⟨27,[],none,false⟩⟩,⟨256,.lf,false,some ⟨28,[],none,false⟩⟩,⟨256,.vt,false,some ⟨26,[.comment],none,false⟩⟩,⟨256,.ff,false,some ⟨29,[],none,false⟩⟩,⟨256,.cr,false,some ⟨30,[],none,false⟩⟩,⟨256,.cr,true,some ⟨31,[],none,false⟩⟩,⟨256,.other,false,some ⟨0,[],some 1,true⟩⟩,⟨256,.other,false,some ⟨32,[.comment],none,false⟩⟩]⟩,⟨[10],some 1,[],[⟨256,.other,false,some ⟨33,[.comment],some 1,false⟩⟩,⟨256,.ws,false,some ⟨34,[],some 1,false⟩⟩,⟨256,.lf,false,none⟩,⟨256,.vt,false,some ⟨33,[.comment],some 1,false⟩⟩,⟨256,.ff,false,none⟩,⟨256,.cr,false,none⟩,⟨256,.cr,true,none⟩,⟨256,.other,false,some ⟨35,[.comment],some 1,false⟩⟩]⟩,⟨[9],some 1,[],[⟨256,.other,false,some ⟨33,[.comment],some 1,false⟩⟩,⟨256,.ws,false,some ⟨34,[],some 1,false⟩⟩,⟨256,.lf,false,none⟩,⟨256,.vt,false,some ⟨33,[.comment],some 1,false⟩⟩,⟨256,.ff,false,none⟩,⟨256,.cr,false,none⟩,⟨256,.cr,true,none⟩,⟨256,.other,false,some ⟨35,[.comment],some 1,false⟩⟩]⟩,⟨[3,10],some 1,[],[⟨256,.other,false,some ⟨33,[.comment],some 1,false⟩⟩,⟨256,.ws,false,some ⟨34,[],some 1,false⟩⟩,⟨256,.lf,false,some ⟨42,[],some 1,false⟩⟩,⟨256,.vt,false,some ⟨33,[.comment],some 1,false⟩⟩,⟨256,.ff,false,some ⟨43,[],some 1,false⟩⟩,⟨256,.cr,false,some ⟨44,[],none,false⟩⟩,⟨256,.cr,true,some ⟨45,[],some 1,false⟩⟩,⟨256,.other,false,some ⟨35,[.comment],some 1,false⟩⟩]⟩,⟨[37],none,[],[⟨256,.other,false,some ⟨8,[.setEnt .internalNl,.cb,.code],none,false⟩⟩,⟨256,.ws,false,some ⟨9,[.setEnt .internalNl,.cb],none,false⟩⟩,⟨256,.lf,false,some ⟨8,[.setEnt .internalNl,.cb,.code],none,false⟩⟩,⟨256,.vt,false,some ⟨8,[.setEnt .internalNl,.cb,.code],none,false⟩⟩,⟨256,.ff,false,some ⟨8,[.setEnt .internalNl,.cb,.code],none,false⟩⟩,⟨256,.cr,false,some ⟨8,[.setEnt .internalNl,.cb,.code],none,false⟩⟩,⟨256,.cr,true,some ⟨8,[.setEnt .internalNl,.cb,.code],none,false⟩⟩,⟨256,.other,false,some ⟨0,[.setEnt .internalNl,.cb],some 2,true⟩⟩,⟨256,.other,false,some ⟨10,[.setEnt .internalNl,.cb],none,false⟩⟩]⟩,⟨[37,42],none,[],[⟨256,.other,false,some ⟨8,[.setEnt .internalNl,.cb,.code],none,false⟩⟩,⟨256,.ws,false,some ⟨9,[.setEnt .internalNl,.cb],none,false⟩⟩,⟨256,.lf,false,some ⟨8,[.setEnt .internalNl,.cb,.code],none,false⟩⟩,⟨256,.vt,false,some ⟨8,[.setEnt .internalNl,.cb,.code],none,false⟩⟩,⟨256,.ff,false,some ⟨8,[.setEnt .internalNl,.cb,.code],none,false⟩⟩,⟨256,.cr,false,some ⟨8,[.setEnt .internalNl,.cb,.code],none,false⟩⟩,⟨256,.cr,true,some ⟨8,[.setEnt .internalNl,.cb,.code],none,false⟩⟩,⟨256,.other,false,some ⟨0,[.setEnt .internalNl,.cb],some 2,true⟩⟩,⟨256,.other,false,some ⟨10,[.setEnt .internalNl,.cb],none,false⟩⟩]⟩,⟨[25],none,[],[⟨256,.other,false,some ⟨11,[.setEnt .internalNl,.cb,.code],none,false⟩⟩,⟨256,.ws,false,some ⟨12,[.setEnt .internalNl,.cb],none,false⟩⟩,⟨256,.lf,false,some ⟨11,[.setEnt .internalNl,.cb,.code],none,false⟩⟩,⟨256,.vt,false,some ⟨11,[.setEnt .internalNl,.cb,.code],none,false⟩⟩,⟨256,.ff,false,some ⟨11,[.setEnt .internalNl,.cb,.code],none,false⟩⟩,⟨256,.cr,false,some ⟨11,[.setEnt .internalNl,.cb,.code],none,false⟩⟩,⟨256,.cr,true,some ⟨11,[.setEnt .internalNl,.cb,.code],none,false⟩⟩,⟨256,.other,false,some ⟨0,[.setEnt .internalNl,.cb],some 2,true⟩⟩,⟨256,.other,false,some ⟨13,[.setEnt .internalNl,.cb],none,false⟩⟩]⟩,⟨[25,30],none,[],[⟨256,.other,false,some ⟨11,[.setEnt .internalNl,.cb,.code],none,false⟩⟩,⟨256,.ws,false,some ⟨12,[.setEnt .internalNl,.cb],none,false⟩⟩,⟨256,.lf,false,some ⟨11,[.setEnt .internalNl,.cb,.code],none,false⟩⟩,⟨256,.vt,false,some ⟨11,[.setEnt .internalNl,.cb,.code],none,false⟩⟩,⟨256,.ff,false,some ⟨11,[.setEnt .internalNl,.cb,.code],none,false⟩⟩,⟨256,.cr,false,some ⟨11,[.setEnt .internalNl,.cb,.code],none,false⟩⟩,⟨256,.cr,true,some ⟨11,[.setEnt .internalNl,.cb,.code],none,false⟩⟩,⟨256,.other,false,some ⟨0,[.setEnt .internalNl,.cb],some 2,true⟩⟩,⟨256,.other,false,some ⟨13,[.setEnt .internalNl,.cb],none,false⟩⟩]⟩,⟨[14],none,[],[⟨256,.other,false,some ⟨26,[.setEnt .internalNl,.cb,.comment],none,false⟩⟩,⟨256,.ws,false,some ⟨27,[.setEnt .internalNl,.cb],none,false⟩⟩,⟨256,.lf,false,some ⟨28,[.setEnt .internalNl,.cb],none,false⟩⟩,⟨256,.vt,false,some ⟨26,[.setEnt .internalNl,.cb,.comment],none,false⟩⟩,⟨256,.ff,false,some ⟨29,[.setEnt .internalNl,.cb],none,false⟩⟩,⟨256,.cr,false,some ⟨30,[.setEnt .internalNl,.cb],none,false⟩⟩,⟨256,.cr,true,some ⟨31,[.setEnt .internalNl,.cb],none,false⟩⟩,⟨256,.other,false,some ⟨32,[.setEnt .internalNl,.cb,.comment],none,false⟩⟩]⟩,⟨[14,15],none,[],[⟨256,.other,false,some ⟨26,[.setEnt .internalNl,.cb,.comment],none,false⟩⟩,⟨256,.ws,false,some ⟨27,[.setEnt .internalNl,.cb],none,false⟩⟩,⟨256,.lf,false,some ⟨28,[.setEnt .internalNl,.cb],none,false⟩⟩,⟨256,.vt,false,some ⟨26,[.setEnt .internalNl,.cb,.comment],none,false⟩⟩,⟨256,.ff,false,some ⟨29,[.setEnt .internalNl,.cb],none,false⟩⟩,⟨256,.cr,false,some ⟨30,[.setEnt .internalNl,.cb],none,false⟩⟩,⟨256,.cr,true,some ⟨31,[.setEnt .internalNl,.cb],none,false⟩⟩,⟨256,.other,false,some ⟨32,[.setEnt .internalNl,.cb,.comment],none,false⟩⟩]⟩,⟨[6],some 1,[.setEnt .internalNl,.cb],[⟨256,.other,false,some ⟨33,[.setEnt .internalNl,.cb,.comment],some 1,false⟩⟩,⟨256,.ws,false,some ⟨34,[.setEnt .internalNl,.cb],some 1,false⟩⟩,⟨256,.lf,false,none⟩,⟨256,.vt,false,some ⟨33,[.setEnt .internalNl,.cb,.comment],some 1,false⟩⟩,⟨256,.ff,false,none⟩,⟨256,.cr,false,none⟩,⟨256,.cr,true,none⟩,⟨256,.other,false,some ⟨35,[.setEnt .internalNl,.cb,.comment],some 1,false⟩⟩]⟩,⟨[7],some 1,[.setEnt .internalNl,.cb],[⟨256,.other,false,some ⟨33,[.setEnt .internalNl,.cb,.comment],some 1,false⟩⟩,⟨256,.ws,false,some ⟨34,[.setEnt .internalNl,.cb],some 1,false⟩⟩,⟨256,.lf,false,none⟩,⟨256,.vt,false,some ⟨33,[.setEnt .internalNl,.cb,.comment],some 1,false⟩⟩,⟨256,.ff,false,none⟩,⟨256,.cr,false,none⟩,⟨256,.cr,true,none⟩,⟨256,.other,false,some ⟨35,[.setEnt .internalNl,.cb,.comment],some 1,false⟩⟩]⟩,⟨[4],none,[],[⟨256,.other,false,none⟩,⟨256,.ws,false,none⟩,⟨256,.lf,false,some ⟨46,[],some 1,false⟩⟩,⟨256,.vt,false,none⟩,⟨256,.ff,false,none⟩,⟨256,.cr,false,none⟩,⟨256,.cr,true,none⟩]⟩,⟨[4,8],some 1,[.setEnt .internalNl,.cb],[⟨256,.other,false,some ⟨33,[.setEnt .internalNl,.cb,.comment],some 1,false⟩⟩,⟨256,.ws,false,some ⟨34,[.setEnt .internalNl,.cb],some 1,false⟩⟩,⟨256,.lf,false,some ⟨46,[],some 1,false⟩⟩,⟨256,.vt,false,some ⟨33,[.setEnt .internalNl,.cb,.comment],some 1,false⟩⟩,⟨256,.ff,false,none⟩,⟨256,.cr,false,none⟩,⟨256,.cr,true,none⟩,⟨256,.other,false,some ⟨35,[.setEnt .internalNl,.cb,.comment],some 1,false⟩⟩]⟩,⟨[5],some 1,[.setEnt .internalNl,.cb],[⟨256,.other,false,some ⟨33,[.setEnt .internalNl,.cb,.comment],some 1,false⟩⟩,⟨256,.ws,false,some ⟨34,[.setEnt .internalNl,.cb],some 1,false⟩⟩,⟨256,.lf,false,none⟩,⟨256,.vt,false,some ⟨33,[.setEnt .internalNl,.cb,.comment],some 1,false⟩⟩,⟨256,.ff,false,none⟩,⟨256,.cr,false,none⟩,⟨256,.cr,true,none⟩,⟨256,.other,false,some ⟨35,[.setEnt .internalNl,.cb,.comment],some 1,false⟩⟩]⟩]
theorem fsharp_line_rowsOk : rowsOk fsharp_line_nfa [] (fsharp_line_cs.map (·.1)) fsharp_line_rows = true := by decide +kernel
def fsharp_line_D : Dfa fsharp_line_M.nfa := ⟨fsharp_line_masks, [], fsharp_line_cs, fsharp_line_rows, fsharp_line_masksIn, fsharp_line_repOk, fsharp_line_rowsOk⟩

def glsl_line_nfa : Nfa := ⟨[⟨0,4294967808,[],[(0,.setEnt (.own 0))],0,0⟩,⟨1,140737488355328,[],[],0,0⟩,⟨11,140737488355328,[],[],0,2⟩,⟨22,549755813888,[],[(9,.code)],0,0⟩,⟨34,17179869184,[],[(14,.code)],0,0⟩,⟨46,8192,[],[(19,.setEnt .newline)],0,0⟩,⟨48,1024,[],[(19,.setEnt .newline)],0,0⟩,⟨49,4096,[],[(19,.setEnt .newline)],0,0⟩,⟨50,8192,[.crAlone],[(19,.setEnt .newline)],0,0⟩,⟨51,115792089237316195423570985008687907853269984665640564039457584007908834656767,[],[(20,.setEnt (.own 8))],0,0⟩],[[⟨0,4294967808,[],[(0,.setEnt (.own 0))],0,0⟩],[⟨2,140737488355328,[],[(1,.comment)],0,0⟩],[⟨3,4951760157141521099596496896,[],[],0,0⟩,⟨9,4294967808,[],[],0,0⟩,⟨10,115792089237316195423570985008687907853269984665640564039457584007908834658815,[],[(4,.comment)],0,0⟩],[⟨4,8192,[],[],0,0⟩,⟨6,1024,[],[],0,0⟩,⟨7,4096,[],[],0,0⟩,⟨8,8192,[.crAlone],[],0,0⟩],[⟨5,1024,[],[],0,0⟩],[⟨3,4951760157141521099596496896,[],[(2,.setEnt .internalNl),(3,.cb)],0,0⟩,⟨9,4294967808,[],[(2,.setEnt .internalNl),(3,.cb)],0,0⟩,⟨10,115792089237316195423570985008687907853269984665640564039457584007908834658815,[],[(2,.setEnt .internalNl),(3,.cb),(4,.comment)],0,0⟩],[⟨3,4951760157141521099596496896,[],[(2,.setEnt .internalNl),(3,.cb)],0,0⟩,⟨9,4294967808,[],[(2,.setEnt .internalNl),(3,.cb)],0,0⟩,⟨10,115792089237316195423570985008687907853269984665640564039457584007908834658815,[],[(2,.setEnt .internalNl),(3,.cb),(4,.comment)],0,0⟩],[⟨3,4951760157141521099596496896,[],[(2,.setEnt .internalNl),(3,.cb)],0,0⟩,⟨9,4294967808,[],[(2,.setEnt .internalNl),(3,.cb)],0,0⟩,⟨10,115792089237316195423570985008687907853269984665640564039457584007908834658815,[],[(2,.setEnt .internalNl),(3,.cb),(4,.comment)],0,0⟩],[⟨3,4951760157141521099596496896,[],[(2,.setEnt .internalNl),(3,.cb)],0,0⟩,⟨9,4294967808,[],[(2,.setEnt .internalNl),(3,.cb)],0,0⟩,⟨10,115792089237316195423570985008687907853269984665640564039457584007908834658815,[],[(2,.setEnt .internalNl),(3,.cb),(4,.comment)],0,0⟩],[⟨3,4951760157141521099596496896,[],[],0,0⟩,⟨9,4294967808,[],[],0,0⟩,⟨10,115792089237316195423570985008687907853269984665640564039457584007908834658815,[],[(4,.comment)],0,0⟩],[⟨3,4951760157141521099596496896,[],[],0,0⟩,⟨9,4294967808,[],[],0,0⟩,⟨10,115792089237316195423570985008687907853269984665640564039457584007908834658815,[],[(4,.comment)],0,0⟩],[⟨12,4398046511104,[],[(5,.comment)],0,2⟩],[⟨13,8192,[],[],0,2⟩,⟨15,1024,[],[],0,2⟩,⟨16,4096,[],[],0,2⟩,⟨17,8192,[.crAlone],[],0,2⟩,⟨18,4294967808,[],[],0,2⟩,⟨19,115792089237316195423570985008687907853269984665640564039457584007908834658815,[],[(8,.comment)],0,2⟩,⟨20,4398046511104,[],[],0,2⟩],[⟨14,1024,[],[],0,2⟩],[⟨13,8192,[],[(6,.setEnt .internalNl),(7,.cb)],0,2⟩,⟨15,1024,[],[(6,.setEnt .internalNl),(7,.cb)],0,2⟩,⟨16,4096,[],[(6,.setEnt .internalNl),(7,.cb)],0,2⟩,⟨17,8192,[.crAlone],[(6,.setEnt .internalNl),(7,.cb)],0,2⟩,⟨18,4294967808,[],[(6,.setEnt .internalNl),(7,.cb)],0,2⟩,⟨19,115792089237316195423570985008687907853269984665640564039457584007908834658815,[],[(6,.setEnt .internalNl),(7,.cb),(8,.comment)],0,2⟩,⟨20,4398046511104,[],[(6,.setEnt .internalNl),(7,.cb)],0,2⟩],[⟨13,8192,[],[(6,.setEnt .internalNl),(7,.cb)],0,2⟩,⟨15,1024,[],[(6,.setEnt .internalNl),(7,.cb)],0,2⟩,⟨16,4096,[],[(6,.setEnt .internalNl),(7,.cb)],0,2⟩,⟨17,8192,[.crAlone],[(6,.setEnt .internalNl),(7,.cb)],0,2⟩,⟨18,4294967808,[],[(6,.setEnt .internalNl),(7,.cb)],0,2⟩,⟨19,115792089237316195423570985008687907853269984665640564039457584007908834658815,[],[(6,.setEnt .internalNl),(7,.cb),(8,.comment)],0,2⟩,⟨20,4398046511104,[],[(6,.setEnt .internalNl),(7,.cb)],0,2⟩],[⟨13,8192,[],[(6,.setEnt .internalNl),(7,.cb)],0,2⟩,⟨15,1024,[],[(6,.setEnt .internalNl),(7,.cb)],0,2⟩,⟨16,4096,[],[(6,.setEnt .internalNl),(7,.cb)],0,2⟩,⟨17,8192,[.crAlone],[(6,.setEnt .internalNl),(7,.cb)],0,2⟩,⟨18,4294967808,[],[(6,.setEnt .internalNl),(7,.cb)],0,2⟩,⟨19,115792089237316195423570985008687907853269984665640564039457584007908834658815,[],[(6,.setEnt .internalNl),(7,.cb),(8,.comment)],0,2⟩,⟨20,4398046511104,[],[(6,.setEnt .internalNl),(7,.cb)],0,2⟩],[⟨13,8192,[],[(6,.setEnt .internalNl),(7,.cb)],0,2⟩,⟨15,1024,[],[(6,.setEnt .internalNl),(7,.cb)],0,2⟩,⟨16,4096,[],[(6,.setEnt .internalNl),(7,.cb)],0,2⟩,⟨17,8192,[.crAlone],[(6,.setEnt .internalNl),(7,.cb)],0,2⟩,⟨18,4294967808,[],[(6,.setEnt .internalNl),(7,.cb)],0,2⟩,⟨19,115792089237316195423570985008687907853269984665640564039457584007908834658815,[],[(6,.setEnt .internalNl),(7,.cb),(8,.comment)],0,2⟩,⟨20,4398046511104,[],[(6,.setEnt .internalNl),(7,.cb)],0,2⟩],[⟨13,8192,[],[],0,2⟩,⟨15,1024,[],[],0,2⟩,⟨16,4096,[],[],0,2⟩,⟨17,8192,[.crAlone],[],0,2⟩,⟨18,4294967808,[],[],0,2⟩,⟨19,115792089237316195423570985008687907853269984665640564039457584007908834658815,[],[(8,.comment)],0,2⟩,⟨20,4398046511104,[],[],0,2⟩],[⟨13,8192,[],[],0,2⟩,⟨15,1024,[],[],0,2⟩,⟨16,4096,[],[],0,2⟩,⟨17,8192,[.crAlone],[],0,2⟩,⟨18,4294967808,[],[],0,2⟩,⟨19,115792089237316195423570985008687907853269984665640564039457584007908834658815,[],[(8,.comment)],0,2⟩,⟨20,4398046511104,[],[],0,2⟩],[⟨21,140737488355328,[],[],2,0⟩],[],[⟨23,4951760157141521099596496896,[],[],0,0⟩,⟨29,4294967808,[],[],0,0⟩,⟨30,115792089237316195423570985008687907853269984665635612279300442486259482361343,[],[(12,.code)],0,0⟩,⟨31,4951760157141521099596496896,[],[],0,0⟩,⟨33,549755813888,[],[],0,0⟩],[⟨24,8192,[],[],0,0⟩,⟨26,1024,[],[],0,0⟩,⟨27,4096,[],[],0,0⟩,⟨28,8192,[.crAlone],[],0,0⟩],[⟨25,1024,[],[],0,0⟩],[⟨23,4951760157141521099596496896,[],[(10,.setEnt .internalNl),(11,.cb)],0,0⟩,⟨29,4294967808,[],[(10,.setEnt .internalNl),(11,.cb)],0,0⟩,⟨30,115792089237316195423570985008687907853269984665635612279300442486259482361343,[],[(10,.setEnt .internalNl),(11,.cb),(12,.code)],0,0⟩,⟨31,4951760157141521099596496896,[],[(10,.setEnt .internalNl),(11,.cb)],0,0⟩,⟨33,549755813888,[],[(10,.setEnt .internalNl),(11,.cb)],0,0⟩],[⟨23,4951760157141521099596496896,[],[(10,.setEnt .internalNl),(11,.cb)],0,0⟩,⟨29,4294967808,[],[(10,.setEnt .internalNl),(11,.cb)],0,0⟩,⟨30,115792089237316195423570985008687907853269984665635612279300442486259482361343,[],[(10,.setEnt .internalNl),(11,.cb),(12,.code)],0,0⟩,⟨31,4951760157141521099596496896,[],[(10,.setEnt .internalNl),(11,.cb)],0,0⟩,⟨33,549755813888,[],[(10,.setEnt .internalNl),(11,.cb)],0,0⟩],[⟨23,4951760157141521099596496896,[],[(10,.setEnt .internalNl),(11,.cb)],0,0⟩,⟨29,4294967808,[],[(10,.setEnt .internalNl),(11,.cb)],0,0⟩,⟨30,115792089237316195423570985008687907853269984665635612279300442486259482361343,[],[(10,.setEnt .internalNl),(11,.cb),(12,.code)],0,0⟩,⟨31,4951760157141521099596496896,[],[(10,.setEnt .internalNl),(11,.cb)],0,0⟩,⟨33,549755813888,[],[(10,.setEnt .internalNl),(11,.cb)],0,0⟩],[⟨23,4951760157141521099596496896,[],[(10,.setEnt .internalNl),(11,.cb)],0,0⟩,⟨29,4294967808,[],[(10,.setEnt .internalNl),(11,.cb)],0,0⟩,⟨30,115792089237316195423570985008687907853269984665635612279300442486259482361343,[],[(10,.setEnt .internalNl),(11,.cb),(12,.code)],0,0⟩,⟨31,4951760157141521099596496896,[],[(10,.setEnt .internalNl),(11,.cb)],0,0⟩,⟨33,549755813888,[],[(10,.setEnt .internalNl),(11,.cb)],0,0⟩],[⟨23,4951760157141521099596496896,[],[],0,0⟩,⟨29,4294967808,[],[],0,0⟩,⟨30,115792089237316195423570985008687907853269984665635612279300442486259482361343,[],[(12,.code)],0,0⟩,⟨31,4951760157141521099596496896,[],[],0,0⟩,⟨33,549755813888,[],[],0,0⟩],[⟨23,4951760157141521099596496896,[],[],0,0⟩,⟨29,4294967808,[],[],0,0⟩,⟨30,115792089237316195423570985008687907853269984665635612279300442486259482361343,[],[(12,.code)],0,0⟩,⟨31,4951760157141521099596496896,[],[],0,0⟩,⟨33,549755813888,[],[],0,0⟩],[⟨32,115792089237316195423570985008687907853269984665640564039457584007913129626623,[],[(13,.code)],0,0⟩],[⟨23,4951760157141521099596496896,[],[],0,0⟩,⟨29,4294967808,[],[],0,0⟩,⟨30,115792089237316195423570985008687907853269984665635612279300442486259482361343,[],[(12,.code)],0,0⟩,⟨31,4951760157141521099596496896,[],[],0,0⟩,⟨33,549755813888,[],[],0,0⟩],[],[⟨35,4951760157141521099596496896,[],[],0,0⟩,⟨41,4294967808,[],[],0,0⟩,⟨42,115792089237316195423570985008687907853269984665635612279300442486792058306047,[],[(17,.code)],0,0⟩,⟨43,4951760157141521099596496896,[],[],0,0⟩,⟨45,17179869184,[],[],0,0⟩],[⟨36,8192,[],[],0,0⟩,⟨38,1024,[],[],0,0⟩,⟨39,4096,[],[],0,0⟩,⟨40,8192,[.crAlone],[],0,0⟩],[⟨37,1024,[],[],0,0⟩],[⟨35,4951760157141521099596496896,[],[(15,.setEnt .internalNl),(16,.cb)],0,0⟩,⟨41,4294967808,[],[(15,.setEnt .internalNl),(16,.cb)],0,0⟩,⟨42,115792089237316195423570985008687907853269984665635612279300442486792058306047,[],[(15,.setEnt .internalNl),(16,.cb),(17,.code)],0,0⟩,⟨43,4951760157141521099596496896,[],[(15,.setEnt .internalNl),(16,.cb)],0,0⟩,⟨45,17179869184,[],[(15,.setEnt .internalNl),(16,.cb)],0,0⟩],[⟨35,4951760157141521099596496896,[],[(15,.setEnt .internalNl),(16,.cb)],0,0⟩,⟨41,4294967808,[],[(15,.setEnt .internalNl),(16,.cb)],0,0⟩,⟨42,115792089237316195423570985008687907853269984665635612279300442486792058306047,[],[(15,.setEnt .internalNl),(16,.cb),(17,.code)],0,0⟩,⟨43,4951760157141521099596496896,[],[(15,.setEnt .internalNl),(16,.cb)],0,0⟩,⟨45,17179869184,[],[(15,.setEnt .internalNl),(16,.cb)],0,0⟩],[⟨35,4951760157141521099596496896,[],[(15,.setEnt .internalNl),(16,.cb)],0,0⟩,⟨41,4294967808,[],[(15,.setEnt .internalNl),(16,.cb)],0,0⟩,⟨42,115792089237316195423570985008687907853269984665635612279300442486792058306047,[],[(15,.setEnt .internalNl),(16,.cb),(17,.code)],0,0⟩,⟨43,4951760157141521099596496896,[],[(15,.setEnt .internalNl),(16,.cb)],0,0⟩,⟨45,17179869184,[],[(15,.setEnt .internalNl),(16,.cb)],0,0⟩],[⟨35,4951760157141521099596496896,[],[(15,.setEnt .internalNl),(16,.cb)],0,0⟩,⟨41,4294967808,[],[(15,.setEnt .internalNl),(16,.cb)],0,0⟩,⟨42,115792089237316195423570985008687907853269984665635612279300442486792058306047,[],[(15,.setEnt .internalNl),(16,.cb),(17,.code)],0,0⟩,⟨43,4951760157141521099596496896,[],[(15,.setEnt .internalNl),(16,.cb)],0,0⟩,⟨45,17179869184,[],[(15,.setEnt .internalNl),(16,.cb)],0,0⟩],[⟨35,4951760157141521099596496896,[],[],0,0⟩,⟨41,4294967808,[],[],0,0⟩,⟨42,115792089237316195423570985008687907853269984665635612279300442486792058306047,[],[(17,.code)],0,0⟩,⟨43,4951760157141521099596496896,[],[],0,0⟩,⟨45,17179869184,[],[],0,0⟩],[⟨35,4951760157141521099596496896,[],[],0,0⟩,⟨41,4294967808,[],[],0,0⟩,⟨42,115792089237316195423570985008687907853269984665635612279300442486792058306047,[],[(17,.code)],0,0⟩,⟨43,4951760157141521099596496896,[],[],0,0⟩,⟨45,17179869184,[],[],0,0⟩],[⟨44,115792089237316195423570985008687907853269984665640564039457584007913129626623,[],[(18,.code)],0,0⟩],[⟨35,4951760157141521099596496896,[],[],0,0⟩,⟨41,4294967808,[],[],0,0⟩,⟨42,115792089237316195423570985008687907853269984665635612279300442486792058306047,[],[(17,.code)],0,0⟩,⟨43,4951760157141521099596496896,[],[],0,0⟩,⟨45,17179869184,[],[],0,0⟩],[],[⟨47,1024,[],[(19,.setEnt .newline)],0,0⟩],[],[],[],[],[]],[some (0,[]),none,some (1,[]),none,none,some (1,[(2,.setEnt .internalNl),(3,.cb)]),some (1,[(2,.setEnt .internalNl),(3,.cb)]),some (1,[(2,.setEnt .internalNl),(3,.cb)]),some (1,[(2,.setEnt .internalNl),(3,.cb)]),some (1,[]),some (1,[]),none,none,none,none,none,none,none,none,none,none,some (1,[]),none,none,none,none,none,none,none,none,none,none,none,some (2,[]),none,none,none,none,none,none,none,none,none,none,none,some (2,[]),none,some (3,[]),some (3,[]),some (3,[]),some (3,[]),some (4,[])],[1,9,19,20,21]⟩
theorem glsl_line_nfa_eq : Glsl.glsl_line.nfa = glsl_line_nfa := by decide +kernel
/-- The machine of `Glsl.glsl_line`, with its automaton as a literal. -/
def glsl_line_M : Machine := ⟨glsl_line_nfa, Glsl.glsl_line.ends, Glsl.glsl_line.sw⟩
theorem glsl_line_M_eq : Glsl.glsl_line.machine = glsl_line_M := by
  unfold Scanner.machine glsl_line_M; rw [glsl_line_nfa_eq]
def glsl_line_masks : List Nat := [4294967808,140737488355328,549755813888,17179869184,8192,1024,4096,115792089237316195423570985008687907853269984665640564039457584007908834656767,4951760157141521099596496896,115792089237316195423570985008687907853269984665640564039457584007908834658815,4398046511104,115792089237316195423570985008687907853269984665635612279300442486259482361343,115792089237316195423570985008687907853269984665640564039457584007913129626623,115792089237316195423570985008687907853269984665635612279300442486792058306047]
def glsl_line_cs : List (Nat × Nat) := [(0,115792089237316195423570985008687907853269984665635612279300442341106767610367),(9,4294967808),(10,1024),(11,2048),(12,4096),(13,8192),(34,17179869184),(39,549755813888),(42,4398046511104),(47,140737488355328),(92,4951760157141521099596496896)]
theorem glsl_line_masksIn : masksIn glsl_line_nfa glsl_line_masks = true := by decide +kernel
theorem glsl_line_repOk : repOk glsl_line_masks glsl_line_cs = true := by decide +kernel
def glsl_line_rows : List Row := [⟨[],none,[],[⟨256,.other,false,some ⟨0,[.setEnt (.own 8)],some 4,true⟩⟩,⟨256,.ws,false,some ⟨1,[.setEnt (.own 0)],some 0,false⟩⟩,⟨256,.lf,false,some ⟨0,[.setEnt .newline],some 3,true⟩⟩,⟨256,.vt,false,none⟩,⟨256,.ff,false,some ⟨0,[.setEnt .newline],some 3,true⟩⟩,⟨256,.cr,false,some ⟨2,[.setEnt .newline],none,false⟩⟩,⟨256,.cr,true,some ⟨3,[.setEnt .newline],some 3,false⟩⟩,⟨256,.other,false,some ⟨4,[.code,.setEnt (.own 8)],some 4,false⟩⟩,⟨256,.other,false,some ⟨5,[.code,.setEnt (.own 8)],some 4,false⟩⟩,⟨256,.other,false,some ⟨6,[.setEnt (.own 8)],some 4,false⟩⟩]⟩,⟨[0],some 0,[],[⟨256,.other,false,none⟩,⟨256,.ws,false,some ⟨1,[.setEnt (.own 0)],some 0,false⟩⟩,⟨256,.lf,false,none⟩,⟨256,.vt,false,none⟩,⟨256,.ff,false,none⟩,⟨256,.cr,false,none⟩,⟨256,.cr,true,none⟩]⟩,⟨[46],none,[],[⟨256,.other,false,none⟩,⟨256,.ws,false,none⟩,⟨256,.lf,false,some ⟨0,[.setEnt .newline],some 3,true⟩⟩,⟨256,.vt,false,none⟩,⟨256,.ff,false,none⟩,⟨256,.cr,false,none⟩,⟨256,.cr,true,none⟩]⟩,⟨[46,50],some 3,[],[⟨256,.other,false,none⟩,⟨256,.ws,false,none⟩,⟨256,.lf,false,some ⟨0,[.setEnt .newline],some 3,true⟩⟩,⟨256,.vt,false,none⟩,⟨256,.ff,false,none⟩,⟨256,.cr,false,none⟩,⟨256,.cr,true,none⟩]⟩,⟨[34,51],some 4,[],[⟨256,.other,false,some ⟨7,[.code],none,false⟩⟩,⟨256,.ws,false,some ⟨8,[],none,false⟩⟩,⟨256,.lf,false,some ⟨7,[.code],none,false⟩⟩,⟨256,.vt,false,some ⟨7,[.code],none,false⟩⟩,⟨256,.ff,false,some ⟨7,[.code],none,false⟩⟩,⟨256,.cr,false,some ⟨7,[.code],none,false⟩⟩,⟨256,.cr,true,some ⟨7,[.code],none,false⟩⟩,⟨256,.other,false,some ⟨0,[],some 2,true⟩⟩,⟨256,.other,false,some ⟨9,[],none,false⟩⟩]⟩,⟨[22,51],some 4,[],[⟨256,.other,false,some ⟨10,[.code],none,false⟩⟩,⟨256,.ws,false,some ⟨11,[],none,false⟩⟩,⟨256,.lf,false,some ⟨10,[.code],none,false⟩⟩,⟨256,.vt,false,some ⟨10,[.code],none,false⟩⟩,⟨256,.ff,false,some ⟨10,[.code],none,false⟩⟩,⟨256,.cr,false,some ⟨10,[.code],none,false⟩⟩,⟨256,.cr,true,some ⟨10,[.code],none,false⟩⟩,⟨256,.other,false,some ⟨0,[],some 2,true⟩⟩,⟨256,.other,false,some ⟨12,[],none,false⟩⟩]⟩,⟨[1,11,51],some 4,[],[⟨256,.other,false,none⟩,⟨256,.ws,false,none⟩,⟨256,.lf,false,none⟩,⟨256,.vt,false,none⟩,⟨256,.ff,false,none⟩,⟨256,.cr,false,none⟩,⟨256,.cr,true,none⟩,⟨256,.other,false,some ⟨13,[.comment],none,false⟩⟩,⟨256,.other,false,some ⟨14,[.comment],some 1,false⟩⟩]⟩,⟨[42],none,[],[⟨256,.other,false,some ⟨7,[.code],none,false⟩⟩,⟨256,.ws,false,some ⟨8,[],none,false⟩⟩,⟨256,.lf,false,some ⟨7,[.code],none,false⟩⟩,⟨256,.vt,false,some ⟨7,[.code],none,false⟩⟩,⟨256,.ff,false,some ⟨7,[.code],none,false⟩⟩,⟨256,.cr,false,some ⟨7,[.code],none,false⟩⟩,⟨256,.cr,true,some ⟨7,[.code],none,false⟩⟩,⟨256,.other,false,some ⟨0,[],some 2,true⟩⟩,⟨256,.other,false,some ⟨9,[],none,false⟩⟩]⟩,⟨[41],none,[],[⟨256,.other,false,some ⟨7,[.code],none,false⟩⟩,⟨256,.ws,false,some ⟨8,[],none,false⟩⟩,⟨256,.lf,false,some ⟨7,[.code],none,false⟩⟩,⟨256,.vt,false,some ⟨7,[.code],none,false⟩⟩,⟨256,.ff,false,some ⟨7,[.code],none,false⟩⟩,⟨256,.cr,false,some ⟨7,[.code],none,false⟩⟩,⟨256,.cr,true,some ⟨7,[.code],none,false⟩⟩,⟨256,.other,false,some ⟨0,[],some 2,true⟩⟩,⟨256,.other,false,some ⟨9,[],none,false⟩⟩]⟩,⟨[35,43],none,[],[⟨256,.other,false,some ⟨15,[.code],none,false⟩⟩,⟨256,.ws,false,some ⟨15,[.code],none,false⟩⟩,⟨256,.lf,false,some ⟨16,[],none,false⟩⟩,⟨256,.vt,false,some ⟨15,[.code],none,false⟩⟩,⟨256,.ff,false,some ⟨17,[],none,false⟩⟩,⟨256,.cr,false,some ⟨18,[],none,false⟩⟩,⟨256,.cr,true,some ⟨19,[],none,false⟩⟩]⟩,⟨[30],none,[],[⟨256,.other,false,some ⟨10,[.code],none,false⟩⟩,⟨256,.ws,false,some ⟨11,[],none,false⟩⟩,⟨256,.lf,false,some ⟨10,[.code],none,false⟩⟩,⟨256,.vt,false,some ⟨10,[.code],none,false⟩⟩,⟨256,.ff,false,some ⟨10,[.code],none,false⟩⟩,⟨256,.cr,false,some ⟨10,[.code],none,false⟩⟩,⟨256,.cr,true,some ⟨10,[.code],none,false⟩⟩,⟨256,.other,false,some ⟨0,[],some 2,true⟩⟩,⟨256,.other,false,some ⟨12,[],none,false⟩⟩]⟩,⟨[29],none,[],[⟨256,.other,false,some ⟨10,[.code],none,false⟩⟩,⟨256,.ws,false,some ⟨11,[],none,false⟩⟩,⟨256,.lf,false,some ⟨10,[.code],none,false⟩⟩,⟨256,.vt,false,some ⟨10,[.code],none,false⟩⟩,⟨256,.ff,false,some ⟨10,[.code],none,false⟩⟩,⟨256,.cr,false,some ⟨10,[.code],none,false⟩⟩,⟨256,.cr,true,some ⟨10,[.code],none,false⟩⟩,⟨256,.other,false,some ⟨0,[],some 2,true⟩⟩,⟨256,.other,false,some ⟨12,[],none,false⟩⟩]⟩,⟨[23,31],none,[],[⟨256,.other,false,some ⟨20,[.code],none,false⟩⟩,⟨256,.ws,false,some ⟨20,[.code],none,false⟩⟩,⟨256,.lf,false,some ⟨21,[],none,false⟩⟩,⟨256,.vt,false,some ⟨20,[.code],none,false⟩⟩,⟨256,.ff,false,some ⟨22,[],none,false⟩⟩,⟨256,.cr,false,some ⟨23,[],none,false⟩⟩,⟨256,.cr,true,some ⟨24,[],none,false⟩⟩]⟩,⟨[12],none,[],[⟨256,.other,false,some ⟨25,[.comment],none,false⟩⟩,⟨256,.ws,false,some ⟨26,[],none,false⟩⟩,⟨256,.lf,false,some ⟨27,[],none,false⟩⟩,⟨256,.vt,false,some ⟨25,[.comment],none,false⟩⟩,⟨256,.ff,false,some ⟨28,[],none,false⟩⟩,⟨256,.cr,false,some ⟨29,[],none,false⟩⟩,⟨256,.cr,true,some ⟨30,[],none,false⟩⟩,⟨256,.other,false,some ⟨31,[.comment],none,false⟩⟩]⟩,⟨[2],some 1,[],[⟨256,.other,false,some ⟨32,[.comment],some 1,false⟩⟩,⟨256,.ws,false,some ⟨33,[],some 1,false⟩⟩,⟨256,.lf,false,none⟩,⟨256,.vt,false,some ⟨32,[.comment],some 1,false⟩⟩,⟨256,.ff,false,none⟩,⟨256,.cr,false,none⟩,⟨256,.cr,true,none⟩,⟨256,.other,false,some ⟨34,[.comment],some 1,false⟩⟩]⟩,⟨[44],none,[],[⟨256,.other,false,some ⟨7,[.code],none,false⟩⟩,⟨256,.ws,false,some ⟨8,[],none,false⟩⟩,⟨256,.lf,false,some ⟨7,[.code],none,false⟩⟩,⟨256,.vt,false,some ⟨7,[.code],none,false⟩⟩,⟨256,.ff,false,some ⟨7,[.code],none,false⟩⟩,⟨256,.cr,false,some ⟨7,[.code],none,false⟩⟩,⟨256,.cr,true,some ⟨7,[.code],none,false⟩⟩,⟨256,.other,false,some ⟨0,[],some 2,true⟩⟩,⟨256,.other,false,some ⟨9,[],none,false⟩⟩]⟩,⟨[38],none,[],[⟨256,.other,false,some ⟨7,[.setEnt .internalNl,.cb,.code],none,false⟩⟩,⟨256,.ws,false,some ⟨8,[.setEnt .internalNl,.cb],none,false⟩⟩,⟨256,.lf,false,some ⟨7,[.setEnt .internalNl,.cb,.code],none,false⟩⟩,⟨256,.vt,false,some ⟨7,[.setEnt .internalNl,.cb,.code],none,false⟩⟩,⟨256,.ff,false,some ⟨7,[.setEnt .internalNl,.cb,.code],none,false⟩⟩,⟨256,.cr,false,some ⟨7,[.setEnt .internalNl,.cb,.code],none,false⟩⟩,⟨256,.cr,true,some ⟨7,[.setEnt .internalNl,.cb,.code],none,false⟩⟩,⟨256,.other,false,some ⟨0,[.setEnt .internalNl,.cb],some 2,true⟩⟩,⟨256,.other,false,some ⟨9,[.setEnt .internalNl,.cb],none,false⟩⟩]⟩,⟨[39],none,[],[⟨256,.other,false,some ⟨7,[.setEnt .internalNl,.cb,.code],none,false⟩⟩,⟨256,.ws,false,some ⟨8,[.setEnt .internalNl,.cb],none,false⟩⟩,⟨256,.lf,false,some ⟨7,[.setEnt .internalNl,.cb,.code],none,false⟩⟩,⟨256,.vt,false,some ⟨7,[.setEnt .internalNl,.cb,.code],none,false⟩⟩,⟨256,.ff,false,some ⟨7,[.setEnt .internalNl,.cb,.code],none,false⟩⟩,⟨256,.cr,false,some ⟨7,[.setEnt .internalNl,.cb,.code],none,false⟩⟩,⟨256,.cr,true,some ⟨7,[.setEnt .internalNl,.cb,.code],none,false⟩⟩,⟨256,.other,false,some ⟨0,[.setEnt .internalNl,.cb],some 2,true⟩⟩,⟨256,.other,false,some ⟨9,[.setEnt .internalNl,.cb],none,false⟩⟩]⟩,⟨[36],none,[],[⟨256,.other,false,none⟩,⟨256,.ws,false,none⟩,⟨256,.lf,false,some ⟨35,[],none,false⟩⟩,⟨256,.vt,false,none⟩,⟨256,.ff,false,none⟩,⟨256,.cr,false,none⟩,⟨256,.cr,true,none⟩]⟩,⟨[36,40],none,[],[⟨256,.other,false,some ⟨7,[.setEnt .internalNl,.cb,.code],none,false⟩⟩,⟨256,.ws,false,some ⟨8,[.setEnt .internalNl,.cb],none,false⟩⟩,⟨256,.lf,false,some ⟨36,[.setEnt .internalNl,.cb,.code],none,false⟩⟩,⟨256,.vt,false,some ⟨7,[.setEnt .internalNl,.cb,.code],none,false⟩⟩,⟨256,.ff,false,some ⟨7,[.setEnt .internalNl,.cb,.code],none,false⟩⟩,⟨256,.cr,false,some ⟨7,[.setEnt .internalNl,.cb,.code],none,false⟩⟩,⟨256,.cr,true,some ⟨7,[.setEnt .internalNl,.cb,.code],none,false⟩⟩,⟨256,.other,false,some ⟨0,[.setEnt .internalNl,.cb],some 2,true⟩⟩,⟨256,.other,false,some ⟨9,[.setEnt .internalNl,.cb],none,false⟩⟩]⟩,⟨[32],none,[],[⟨256,.other,false,some ⟨10,[.code],none,false⟩⟩,⟨256,.ws,false,some ⟨11,[],none,false⟩⟩,⟨256,.lf,false,some ⟨10,[.code],none,false⟩⟩,⟨256,.vt,false,some ⟨10,[.code],none,false⟩⟩,⟨256,.ff,false,some ⟨10,[.code],none,false⟩⟩,⟨256,.cr,false,some ⟨10,[.code],none,false⟩⟩,⟨256,.cr,true,some ⟨10,[.code],none,false⟩⟩,⟨256,.other,false,some ⟨0,[],some 2,true⟩⟩,⟨256,.other,false,some ⟨12,[],none,false⟩⟩]⟩,⟨[26],none,[],[⟨256,.other,false,some ⟨10,[.setEnt .internalNl,.cb,.code],none,false⟩⟩,⟨256,.ws,false,some ⟨11,[.setEnt .internalNl,.cb],none,false⟩⟩,⟨256,.lf,false,some ⟨10,[.setEnt .internalNl,.cb,.code],none,false⟩⟩,⟨256,.vt,false,some ⟨10,[.setEnt .internalNl,.cb,.code],none,false⟩⟩,⟨256,.ff,false,some ⟨10,[.setEnt .internalNl,.cb,.code],none,false⟩⟩,⟨256,.cr,false,some ⟨10,[.setEnt .internalNl,.cb,.code],none,false⟩⟩,⟨256,.cr,true,some ⟨10,[.setEnt .internalNl,.cb,.code],none,false⟩⟩,⟨256,.other,false,some ⟨0,[.setEnt .internalNl,.cb],some 2,true⟩⟩,⟨256,.other,false,some ⟨12,[.setEnt .internalNl,.cb],none,false⟩⟩]⟩,⟨[27],none,[],[⟨256,.other,false,some ⟨10,[.setEnt .internalNl,.cb,.code],none,false⟩⟩,⟨256,.ws,false,some ⟨11,[.setEnt .internalNl,.cb],none,false⟩⟩,⟨256,.lf,false,some ⟨10,[.setEnt .internalNl,.cb,.code],none,false⟩⟩,⟨256,.vt,false,some ⟨10,[.setEnt .internalNl,.cb,.code],none,false⟩⟩,⟨256,.ff,false,some ⟨10,[.setEnt .internalNl,.cb,.code],none,false⟩⟩,⟨256,.cr,false,some ⟨10,[.setEnt .internalNl,.cb,.code],none,false⟩⟩,⟨256,.cr,true,some ⟨10,[.setEnt .internalNl,.cb,.code],none,false⟩⟩,⟨256,.other,false,some ⟨0,[.setEnt .internalNl,.cb],some 2,true⟩⟩,⟨256,.other,false,some ⟨12,[.setEnt .internalNl,.cb],none,false⟩⟩]⟩,⟨[24],none,[],[⟨256,.other,false,none⟩,⟨256,.ws,false,none⟩,⟨256,.lf,false,some ⟨37,[],none,false⟩⟩,⟨256,.vt,false,none⟩,⟨256,.ff,false,none⟩,⟨256,.cr,false,none⟩,⟨256,.cr,true,none⟩]⟩,⟨[24,28],none,[],[⟨256,.other,false,some ⟨10,[.setEnt .internalNl,.cb,.code],none,false⟩⟩,⟨256,.ws,false,some ⟨11,[.setEnt .internalNl,.cb],none,false⟩⟩,⟨256,.lf,false,some ⟨38,[.setEnt .internalNl,.cb,.code],none,false⟩⟩,⟨256,.vt,false,some ⟨10,[.setEnt .internalNl,.cb,.code],none,false⟩⟩,⟨256,.ff,false,some ⟨10,[.setEnt .internalNl,.cb,.code],none,false⟩⟩,⟨256,.cr,false,some ⟨10,[.setEnt .internalNl,.cb,.code],none,false⟩⟩,⟨256,.cr,true,some ⟨10,[.setEnt .internalNl,.cb,.code],none,false⟩⟩,⟨256,.other,false,some ⟨0,[.setEnt .internalNl,.cb],some 2,true⟩⟩,⟨256,.other,false,some ⟨12,[.setEnt .internalNl,.cb],none,false⟩⟩]⟩,⟨[19],none,[],[⟨256,.other,false,some ⟨25,[.comment],none,false⟩⟩,⟨256,.ws,false,some ⟨26,[],none,false⟩⟩,⟨256,.lf,false,some ⟨27,[],none,false⟩⟩,⟨256,.vt,false,some ⟨25,[.comment],none,false⟩⟩,⟨256,.ff,false,some ⟨28,[],none,false⟩⟩,⟨256,.cr,false,some ⟨29,[],none,false⟩⟩,⟨256,.cr,true,some ⟨30,[],none,false⟩⟩,⟨256,.other,false,some ⟨31,[.comment],none,false⟩⟩]⟩,⟨[18],none,[],[⟨256,.other,false,some ⟨25,[.comment],none,false⟩⟩,⟨256,.ws,false,some ⟨26,[],none,false⟩⟩,⟨256,.lf,false,some ⟨27,[],none,false⟩⟩,⟨256,.vt,false,some ⟨25,[.comment],none,false⟩⟩,⟨256,.ff,false,some ⟨28,[],none,false⟩⟩,⟨256,.cr,false,some ⟨29,[],none,false⟩⟩,⟨256,.cr,true,some ⟨30,[],none,false⟩⟩,⟨256,.other,false,some ⟨31,[.comment],none,false⟩⟩]⟩,⟨[15],none,[],[⟨256,.other,false,some ⟨25,[.setEnt .internalNl,.cb,.comment],none,false⟩⟩,⟨256,.ws,false,some ⟨26,[.setEnt .internalNl,.cb],none,false⟩⟩,⟨256,.lf,false,some ⟨27,[.setEnt .internalNl,.cb],none,false⟩⟩,⟨256,.vt,false,some ⟨25,[.setEnt .internalNl,.cb,.comment],none,false⟩⟩,⟨256,.ff,false,some ⟨28,[.setEnt .internalNl,.cb],none,false⟩⟩,⟨256,.cr,false,some ⟨29,[.setEnt .internalNl,.cb],none,false⟩⟩,⟨256,.cr,true,some ⟨30,[.setEnt .internalNl,.cb],none,false⟩⟩,⟨256,.other,false,some ⟨31,[.setEnt .internalNl,.cb,.comment],none,false⟩⟩]⟩,⟨[16],none,[],[⟨256,.other,false,some ⟨25,[.setEnt .internalNl,.cb,.comment],none,false⟩⟩,⟨256,.ws,false,some ⟨26,[.setEnt .internalNl,.cb],none,false⟩⟩,⟨256,.lf,false,some ⟨27,[.setEnt .internalNl,.cb],none,false⟩⟩,⟨256,.vt,false,some ⟨25,[.setEnt .internalNl,.cb,.comment],none,false⟩⟩,⟨256,.ff,false,some ⟨28,[.setEnt .internalNl,.cb],none,false⟩⟩,⟨256,.cr,false,some ⟨29,[.setEnt .internalNl,.cb],none,false⟩⟩,⟨256,.cr,true,some ⟨30,[.setEnt .internalNl,.cb],none,false⟩⟩,⟨256,.other,false,some ⟨31,[.setEnt .internalNl,.cb,.comment],none,false⟩⟩]⟩,⟨[13],none,[],[⟨256,.other,false,none⟩,⟨256,.ws,false,none⟩,⟨256,.lf,false,some ⟨39,[],none,false⟩⟩,⟨256,.vt,false,none⟩,⟨256,.ff,false,none⟩,⟨256,.cr,false,none⟩,⟨256,.cr,true,none⟩]⟩,⟨[13,17],none,[],[⟨256,.other,false,some ⟨25,[.setEnt .internalNl,.cb,.comment],none,false⟩⟩,⟨256,.ws,false,some ⟨26,[.setEnt .internalNl,.cb],none,false⟩⟩,⟨256,.lf,false,some ⟨40,[.setEnt .internalNl,.cb],none,false⟩⟩,⟨256,.vt,false,some ⟨25,[.setEnt .internalNl,.cb,.comment],none,false⟩⟩,⟨256,.ff,false,some ⟨28,[.setEnt .internalNl,.cb],none,false⟩⟩,⟨256,.cr,false,some ⟨29,[.setEnt .internalNl,.cb],none,false⟩⟩,⟨256,.cr,true,some ⟨30,[.setEnt .internalNl,.cb],none,false⟩⟩,⟨256,.other,false,some ⟨31,[.setEnt .internalNl,.cb,.comment],none,false⟩⟩]⟩,⟨[19,20],none,[],[⟨256,.other,false,some ⟨25,[.comment],none,false⟩⟩,⟨256,.ws,false,some ⟨26,[],none,false⟩⟩,⟨256,.lf,false,some ⟨27,[],none,false⟩⟩,⟨256,.vt,false,some ⟨25,[.comment],none,false⟩⟩,⟨256,.ff,false,some ⟨28,[],none,false⟩⟩,⟨256,.cr,false,some ⟨29,[],none,false⟩⟩,⟨256,.cr,true,some ⟨30,[],none,false⟩⟩,⟨256,.other,false,some ⟨31,[.comment],none,false⟩⟩,⟨256,.other,false,some ⟨0,[],some 1,true⟩⟩]⟩,⟨[10],some 1,[],[⟨256,.other,false,some ⟨32,[.comment],some 1,false⟩⟩,⟨256,.ws,false,some ⟨33,[],some 1,false⟩⟩,⟨256,.lf,false,none⟩,⟨256,.vt,false,some ⟨32,[.comment],some 1,false⟩⟩,⟨256,.ff,false,none⟩,⟨256,.cr,false,none⟩,⟨256,.cr,true,none⟩,⟨256,.other,false,some ⟨34,[.comment],some 1,false⟩⟩]⟩,⟨[9],some 1,[],[⟨256,.other,false,some ⟨32,[.comment],some 1,false⟩⟩,⟨256,.ws,false,some ⟨33,[],some 1,false⟩⟩,⟨256,.lf,false,none⟩,⟨256,.vt,false,some ⟨32,[.comment],some 1,false⟩⟩,⟨256,.ff,false,none⟩,⟨256,.cr,false,none⟩,⟨256,.cr,true,none⟩,⟨256,.other,false,some ⟨34,[.comment],some 1,false⟩⟩]⟩,⟨[3,10],some 1,[],[⟨256,.other,false,some ⟨32,[.comment],some 1,false⟩⟩,⟨256,.ws,false,some ⟨33,[],some 1,false⟩⟩,⟨256,.lf,false,some ⟨41,[],some 1,false⟩⟩,⟨256,.vt,false,some ⟨32,[.comment],some 1,false⟩⟩,⟨256,.ff,false,some ⟨42,[],some 1,false⟩⟩,⟨256,.cr,false,some ⟨43,[],none,false⟩⟩,⟨256,.cr,true,some ⟨44,[],some 1,false⟩⟩,⟨256,.other,false,some ⟨34,[.comment],some 1,false⟩⟩]⟩,⟨[37],none,[],[⟨256,.other,false,some ⟨7,[.setEnt .internalNl,.cb,.code],none,false⟩⟩,⟨256,.ws,false,some ⟨8,[.setEnt .internalNl,.cb],none,false⟩⟩,⟨256,.lf,false,some ⟨7,[.setEnt .internalNl,.cb,.code],none,false⟩⟩,⟨256,.vt,false,some ⟨7,[.setEnt .internalNl,.cb,.code],none,false⟩⟩,⟨256,.ff,false,some ⟨7,[.setEnt .internalNl,.cb,.code],none,false⟩⟩,⟨256,.cr,false,some ⟨7,[.setEnt .internalNl,.cb,.code],none,false⟩⟩,⟨256,.cr,true,some ⟨7,[.setEnt .internalNl,.cb,.code],none,false⟩⟩,⟨256,.other,false,some ⟨0,[.setEnt .internalNl,.cb],some 2,true⟩⟩,⟨256,.other,false,some ⟨9,[.setEnt .internalNl,.cb],none,false⟩⟩]⟩,⟨[37,42],none,[],[⟨256,.other,false,some ⟨7,[.setEnt .internalNl,.cb,.code],none,false⟩⟩,⟨256,.ws,false,some ⟨8,[.setEnt .internalNl,.cb],none,false⟩⟩,⟨256,.lf,false,some ⟨7,[.setEnt .internalNl,.cb,.code],none,false⟩⟩,⟨256,.vt,false,some ⟨7,[.setEnt .internalNl,.cb,.code],none,false⟩⟩,⟨256,.ff,false,some ⟨7,[.setEnt .internalNl,.cb,.code],none,false⟩⟩,⟨256,.cr,false,some ⟨7,[.setEnt .internalNl,.cb,.code],none,false⟩⟩,⟨256,.cr,true,some ⟨7,[.setEnt .internalNl,.cb,.code],none,false⟩⟩,⟨256,.other,false,some ⟨0,[.setEnt .internalNl,.cb],some 2,true⟩⟩,⟨256,.other,false,some ⟨9,[.setEnt .internalNl,.cb],none,false⟩⟩]⟩,⟨[25],none,[],[⟨256,.other,false,some ⟨10,[.setEnt .internalNl,.cb,.code],none,false⟩⟩,⟨256,.ws,false,some ⟨11,[.setEnt .internalNl,.cb],none,false⟩⟩,⟨256,.lf,false,some ⟨10,[.setEnt .internalNl,.cb,.code],none,false⟩⟩,⟨256,.vt,false,some ⟨10,[.setEnt .internalNl,.cb,.code],none,false⟩⟩,⟨256,.ff,false,some ⟨10,[.setEnt .internalNl,.cb,.code],none,false⟩⟩,⟨256,.cr,false,some ⟨10,[.setEnt .internalNl,.cb,.code],none,false⟩⟩,⟨256,.cr,true,some ⟨10,[.setEnt .internalNl,.cb,.code],none,false⟩⟩,⟨256,.other,false,some ⟨0,[.setEnt .internalNl,.cb],some 2,true⟩⟩,⟨256,.other,false,some ⟨12,[.setEnt .internalNl,.cb],none,false⟩⟩]⟩,⟨[25,30],none,[],[⟨256,.other,false,some ⟨10,[.setEnt .internalNl,.cb,.code],none,false⟩⟩,⟨256,.ws,false,some ⟨11,[.setEnt .internalNl,.cb],none,false⟩⟩,⟨256,.lf,false,some ⟨10,[.setEnt .internalNl,.cb,.code],none,false⟩⟩,⟨256,.vt,false,some ⟨10,[.setEnt .internalNl,.cb,.code],none,false⟩⟩,⟨256,.ff,false,some ⟨10,[.setEnt .internalNl,.cb,.code],none,false⟩⟩,⟨256,.cr,false,some ⟨10,[.setEnt .internalNl,.cb,.code],none,false⟩⟩,⟨256,.cr,true,some ⟨10,[.setEnt .internalNl,.cb,.code],none,false⟩⟩,⟨256,.other,false,some ⟨0,[.setEnt .internalNl,.cb],some 2,true⟩⟩,⟨256,.other,false,some ⟨12,[.setEnt .internalNl,.cb],none,false⟩⟩]⟩,⟨[14],none,[],[⟨256,.other,false,some ⟨25,[.setEnt .internalNl,.cb,.comment],none,false⟩⟩,⟨256,.ws,false,some ⟨26,[.setEnt .internalNl,.cb],none,false⟩⟩,⟨256,.lf,false,some ⟨27,[.setEnt .internalNl,.cb],none,false⟩⟩,⟨256,.vt,false,some ⟨25,[.setEnt .internalNl,.cb,.comment],none,false⟩⟩,⟨256,.ff,false,some ⟨28,[.setEnt .internalNl,.cb],none,false⟩⟩,⟨256,.cr,false,some ⟨29,[.setEnt .internalNl,.cb],none,false⟩⟩,⟨256,.cr,true,some ⟨30,[.setEnt .internalNl,.cb],none,false⟩⟩,⟨256,.other,false,some ⟨31,[.setEnt .internalNl,.cb,.comment],none,false⟩⟩]⟩,⟨[14,15],none,[],[⟨256,.other,false,some ⟨25,[.setEnt .internalNl,.cb,.comment],none,false⟩⟩,⟨256,.ws,false,some ⟨26,[.setEnt .internalNl,.cb],none,false⟩⟩,⟨256,.lf,false,some ⟨27,[.setEnt .internalNl,.cb],none,false⟩⟩,⟨256,.vt,false,some ⟨25,[.setEnt .internalNl,.cb,.comment],none,false⟩⟩,⟨256,.ff,false,some ⟨28,[.setEnt .internalNl,.cb],none,false⟩⟩,⟨256,.cr,false,some ⟨29,[.setEnt .internalNl,.cb],none,false⟩⟩,⟨256,.cr,true,some ⟨30,[.setEnt .internalNl,.cb],none,false⟩⟩,⟨256,.other,false,some ⟨31,[.setEnt .internalNl,.cb,.comment],none,false⟩⟩]⟩,⟨[6],some 1,[.setEnt .internalNl,.cb],[⟨256,.other,false,some ⟨32,[.setEnt .internalNl,.cb,.comment],some 1,false⟩⟩,⟨256,.ws,false,some ⟨33,[.setEnt .internalNl,.cb],some 1,false⟩⟩,⟨256,.lf,false,none⟩,⟨256,.vt,false,some ⟨32,[.setEnt .internalNl,.cb,.comment],some 1,false⟩⟩,⟨256,.ff,false,none⟩,⟨256,.cr,false,none⟩,⟨256,.cr,true,none⟩,⟨256,.other,false,some ⟨34,[.setEnt .internalNl,.cb,.comment],some 1,false⟩⟩]⟩,⟨[7],some 1,[.setEnt .internalNl,.cb],[⟨256,.other,false,some ⟨32,[.setEnt .internalNl,.cb,.comment],some 1,false⟩⟩,⟨256,.ws,false,some ⟨33,[.setEnt .internalNl,.cb],some 1,false⟩⟩,⟨256,.lf,false,none⟩,⟨256,.vt,false,some ⟨32,[.setEnt .internalNl,.cb,.comment],some 1,false⟩⟩,⟨256,.ff,false,none⟩,⟨256,.cr,false,none⟩,⟨256,.cr,true,none⟩,⟨256,.other,false,some ⟨34,[.setEnt .internalNl,.cb,.comment],some 1,false⟩⟩]⟩,⟨[4],none,[],[⟨256,.other,false,none⟩,⟨256,.ws,false,none⟩,⟨256,.lf,false,some ⟨45,[],some 1,false⟩⟩,⟨256,.vt,false,none⟩,⟨256,.ff,false,none⟩,⟨256,.cr,false,none⟩,⟨256,.cr,true,none⟩]⟩,⟨[4,8],some 1,[.setEnt .internalNl,.cb],[⟨256,.other,false,some ⟨32,[.setEnt .internalNl,.cb,.comment],some 1,false⟩⟩,⟨256,.ws,false,some ⟨33,[.setEnt .internalNl,.cb],some 1,false⟩⟩,⟨256,.lf,false,some ⟨45,[],some 1,false⟩⟩,⟨256,.vt,false,some ⟨32,[.setEnt .internalNl,.cb,.comment],some 1,false⟩⟩,⟨256,.ff,false,none⟩,⟨256,.cr,false,none⟩,⟨256,.cr,true,none⟩,⟨256,.other,false,some ⟨34,[.setEnt .internalNl,.cb,.comment],some 1,false⟩⟩]⟩,⟨[5],some 1,[.setEnt .internalNl,.cb],[⟨256,.other,false,some ⟨32,[.setEnt .internalNl,.cb,.comment],some 1,false⟩⟩,⟨256,.ws,false,some ⟨33,[.setEnt .internalNl,.cb],some 1,false⟩⟩,⟨256,.lf,false,none⟩,⟨256,.vt,false,some ⟨32,[.setEnt .internalNl,.cb,.comment],some 1,false⟩⟩,⟨256,.ff,false,none⟩,⟨256,.cr,false,none⟩,⟨256,.cr,true,none⟩,⟨256,.other,false,some ⟨34,[.setEnt .internalNl,.cb,.comment],some 1,false⟩⟩]⟩]
theorem glsl_line_rowsOk : rowsOk glsl_line_nfa [] (glsl_line_cs.map (·.1)) glsl_line_rows = true := by decide +kernel
def glsl_line_D : Dfa glsl_line_M.nfa := ⟨glsl_line_masks, [], glsl_line_cs, glsl_line_rows, glsl_line_masksIn, glsl_line_repOk, glsl_line_rowsOk⟩

def limbo_line_nfa : Nfa := ⟨[⟨0,4294967808,[],[(0,.setEnt (.own 0))],0,0⟩,⟨1,34359738368,[],[(1,.comment)],0,0⟩,⟨3,549755813888,[],[(2,.code)],0,0⟩,⟨8,17179869184,[],[(6,.enqueue),(7,.code)],0,0⟩,⟨13,8192,[],[(11,.setEnt .newline)],0,0⟩,⟨15,1024,[],[(11,.setEnt .newline)],0,0⟩,⟨16,4096,[],[(11,.setEnt .newline)],0,0⟩,⟨17,8192,[.crAlone],[(11,.setEnt .newline)],0,0⟩,⟨18,115792089237316195423570985008687907853269984665640564039457584007908834656767,[],[(12,.setEnt (.own 7))],0,0⟩],[[⟨0,4294967808,[],[(0,.setEnt (.own 0))],0,0⟩],[⟨2,115792089237316195423570985008687907853269984665640564039457584007913129626623,[],[],0,0⟩],[⟨2,115792089237316195423570985008687907853269984665640564039457584007913129626623,[],[],0,0⟩],[⟨4,115792089237316195423570985008687907853269984665635612279300442486259482348031,[],[(3,.code)],0,0⟩,⟨5,4951760157141521099596496896,[],[],0,0⟩,⟨7,549755813888,[],[(5,.commit)],0,0⟩],[⟨4,115792089237316195423570985008687907853269984665635612279300442486259482348031,[],[(3,.code)],0,0⟩,⟨5,4951760157141521099596496896,[],[],0,0⟩,⟨7,549755813888,[],[(5,.commit)],0,0⟩],[⟨6,115792089237316195423570985008687907853269984665640564039457584007913129626623,[],[(4,.code)],0,0⟩],[⟨4,115792089237316195423570985008687907853269984665635612279300442486259482348031,[],[(3,.code)],0,0⟩,⟨5,4951760157141521099596496896,[],[],0,0⟩,⟨7,549755813888,[],[(5,.commit)],0,0⟩],[],[⟨9,115792089237316195423570985008687907853269984665635612279300442486792058292735,[],[(8,.code)],0,0⟩,⟨10,4951760157141521099596496896,[],[],0,0⟩,⟨12,17179869184,[],[(10,.commit)],0,0⟩],[⟨9,115792089237316195423570985008687907853269984665635612279300442486792058292735,[],[(8,.code)],0,0⟩,⟨10,4951760157141521099596496896,[],[],0,0⟩,⟨12,17179869184,[],[(10,.commit)],0,0⟩],[⟨11,115792089237316195423570985008687907853269984665640564039457584007913129626623,[],[(9,.code)],0,0⟩],[⟨9,115792089237316195423570985008687907853269984665635612279300442486792058292735,[],[(8,.code)],0,0⟩,⟨10,4951760157141521099596496896,[],[],0,0⟩,⟨12,17179869184,[],[(10,.commit)],0,0⟩],[],[⟨14,1024,[],[(11,.setEnt .newline)],0,0⟩],[],[],[],[],[]],[some (0,[]),some (1,[]),some (1,[]),none,none,none,none,some (2,[]),none,none,none,none,some (2,[]),none,some (3,[]),some (3,[]),some (3,[]),some (3,[]),some (4,[])],[1,2,11,12,13]⟩
theorem limbo_line_nfa_eq : Limbo.limbo_line.nfa = limbo_line_nfa := by decide +kernel
/-- The machine of `Limbo.limbo_line`, with its automaton as a literal. -/
def limbo_line_M : Machine := ⟨limbo_line_nfa, Limbo.limbo_line.ends, Limbo.limbo_line.sw⟩
theorem limbo_line_M_eq : Limbo.limbo_line.machine = limbo_line_M := by
  unfold Scanner.machine limbo_line_M; rw [limbo_line_nfa_eq]
def limbo_line_masks : List Nat := [4294967808,34359738368,549755813888,17179869184,8192,1024,4096,115792089237316195423570985008687907853269984665640564039457584007908834656767,115792089237316195423570985008687907853269984665640564039457584007913129626623,115792089237316195423570985008687907853269984665635612279300442486259482348031,4951760157141521099596496896,115792089237316195423570985008687907853269984665635612279300442486792058292735]
def limbo_line_cs : List (Nat × Nat) := [(0,115792089237316195423570985008687907853269984665635612279300442486207942738431),(9,4294967808),(10,1024),(11,2048),(12,4096),(13,8192),(34,17179869184),(35,34359738368),(39,549755813888),(92,4951760157141521099596496896)]
theorem limbo_line_masksIn : masksIn limbo_line_nfa limbo_line_masks = true := by decide +kernel
theorem limbo_line_repOk : repOk limbo_line_masks limbo_line_cs = true := by decide +kernel
def limbo_line_rows : List Row := [⟨[],none,[],[⟨256,.other,false,some ⟨0,[.setEnt (.own 7)],some 4,true⟩⟩,⟨256,.ws,false,some ⟨1,[.setEnt (.own 0)],some 0,false⟩⟩,⟨256,.lf,false,some ⟨0,[.setEnt .newline],some 3,true⟩⟩,⟨256,.vt,false,none⟩,⟨256,.ff,false,some ⟨0,[.setEnt .newline],some 3,true⟩⟩,⟨256,.cr,false,some ⟨2,[.setEnt .newline],none,false⟩⟩,⟨256,.cr,true,some ⟨3,[.setEnt .newline],some 3,false⟩⟩,⟨256,.other,false,some ⟨4,[.enqueue,.code,.setEnt (.own 7)],some 4,false⟩⟩,⟨256,.other,false,some ⟨5,[.comment,.setEnt (.own 7)],some 1,false⟩⟩,⟨256,.other,false,some ⟨6,[.code,.setEnt (.own 7)],some 4,false⟩⟩]⟩,⟨[0],some 0,[],[⟨256,.other,false,none⟩,⟨256,.ws,false,some ⟨1,[.setEnt (.own 0)],some 0,false⟩⟩,⟨256,.lf,false,none⟩,⟨256,.vt,false,none⟩,⟨256,.ff,false,none⟩,⟨256,.cr,false,none⟩,⟨256,.cr,true,none⟩]⟩,⟨[13],none,[],[⟨256,.other,false,none⟩,⟨256,.ws,false,none⟩,⟨256,.lf,false,some ⟨0,[.setEnt .newline],some 3,true⟩⟩,⟨256,.vt,false,none⟩,⟨256,.ff,false,none⟩,⟨256,.cr,false,none⟩,⟨256,.cr,true,none⟩]⟩,⟨[13,17],some 3,[],[⟨256,.other,false,none⟩,⟨256,.ws,false,none⟩,⟨256,.lf,false,some ⟨0,[.setEnt .newline],some 3,true⟩⟩,⟨256,.vt,false,none⟩,⟨256,.ff,false,none⟩,⟨256,.cr,false,none⟩,⟨256,.cr,true,none⟩]⟩,⟨[8,18],some 4,[],[⟨256,.other,false,some ⟨7,[.code],none,false⟩⟩,⟨256,.ws,false,none⟩,⟨256,.lf,false,none⟩,⟨256,.vt,false,some ⟨7,[.code],none,false⟩⟩,⟨256,.ff,false,none⟩,⟨256,.cr,false,none⟩,⟨256,.cr,true,none⟩,⟨256,.other,false,some ⟨0,[.commit],some 2,true⟩⟩,⟨256,.other,false,some ⟨8,[],none,false⟩⟩]⟩,⟨[1,18],some 1,[],[⟨256,.other,false,some ⟨9,[],some 1,false⟩⟩,⟨256,.ws,false,some ⟨9,[],some 1,false⟩⟩,⟨256,.lf,false,none⟩,⟨256,.vt,false,some ⟨9,[],some 1,false⟩⟩,⟨256,.ff,false,none⟩,⟨256,.cr,false,none⟩,⟨256,.cr,true,none⟩]⟩,⟨[3,18],some 4,[],[⟨256,.other,false,some ⟨10,[.code],none,false⟩⟩,⟨256,.ws,false,none⟩,⟨256,.lf,false,none⟩,⟨256,.vt,false,some ⟨10,[.code],none,false⟩⟩,⟨256,.ff,false,none⟩,⟨256,.cr,false,none⟩,⟨256,.cr,true,none⟩,⟨256,.other,false,some ⟨0,[.commit],some 2,true⟩⟩,⟨256,.other,false,some ⟨11,[],none,false⟩⟩]⟩,⟨[9],none,[],[⟨256,.other,false,some ⟨7,[.code],none,false⟩⟩,⟨256,.ws,false,none⟩,⟨256,.lf,false,none⟩,⟨256,.vt,false,some ⟨7,[.code],none,false⟩⟩,⟨256,.ff,false,none⟩,⟨256,.cr,false,none⟩,⟨256,.cr,true,none⟩,⟨256,.other,false,some ⟨0,[.commit],some 2,true⟩⟩,⟨256,.other,false,some ⟨8,[],none,false⟩⟩]⟩,⟨[10],none,[],[⟨256,.other,false,some ⟨12,[.code],none,false⟩⟩,⟨256,.ws,false,some ⟨12,[.code],none,false⟩⟩,⟨256,.lf,false,none⟩,⟨256,.vt,false,some ⟨12,[.code],none,false⟩⟩,⟨256,.ff,false,none⟩,⟨256,.cr,false,none⟩,⟨256,.cr,true,none⟩]⟩,⟨[2],some 1,[],[⟨256,.other,false,some ⟨9,[],some 1,false⟩⟩,⟨256,.ws,false,some ⟨9,[],some 1,false⟩⟩,⟨256,.lf,false,none⟩,⟨256,.vt,false,some ⟨9,[],some 1,false⟩⟩,⟨256,.ff,false,none⟩,⟨256,.cr,false,none⟩,⟨256,.cr,true,none⟩]⟩,⟨[4],none,[],[⟨256,.other,false,some ⟨10,[.code],none,false⟩⟩,⟨256,.ws,false,none⟩,⟨256,.lf,false,none⟩,⟨256,.vt,false,some ⟨10,[.code],none,false⟩⟩,⟨256,.ff,false,none⟩,⟨256,.cr,false,none⟩,⟨256,.cr,true,none⟩,⟨256,.other,false,some ⟨0,[.commit],some 2,true⟩⟩,⟨256,.other,false,some ⟨11,[],none,false⟩⟩]⟩,⟨[5],none,[],[⟨256,.other,false,some ⟨13,[.code],none,false⟩⟩,⟨256,.ws,false,some ⟨13,[.code],none,false⟩⟩,⟨256,.lf,false,none⟩,⟨256,.vt,false,some ⟨13,[.code],none,false⟩⟩,⟨256,.ff,false,none⟩,⟨256,.cr,false,none⟩,⟨256,.cr,true,none⟩]⟩,⟨[11],none,[],[⟨256,.other,false,some ⟨7,[.code],none,false⟩⟩,⟨256,.ws,false,none⟩,⟨256,.lf,false,none⟩,⟨256,.vt,false,some ⟨7,[.code],none,false⟩⟩,⟨256,.ff,false,none⟩,⟨256,.cr,false,none⟩,⟨256,.cr,true,none⟩,⟨256,.other,false,some ⟨0,[.commit],some 2,true⟩⟩,⟨256,.other,false,some ⟨8,[],none,false⟩⟩]⟩,⟨[6],none,[],[⟨256,.other,false,some ⟨10,[.code],none,false⟩⟩,⟨256,.ws,false,none⟩,⟨256,.lf,false,none⟩,⟨256,.vt,false,some ⟨10,[.code],none,false⟩⟩,⟨256,.ff,false,none⟩,⟨256,.cr,false,none⟩,⟨256,.cr,true,none⟩,⟨256,.other,false,some ⟨0,[.commit],some 2,true⟩⟩,⟨256,.other,false,some ⟨11,[],none,false⟩⟩]⟩]
theorem limbo_line_rowsOk : rowsOk limbo_line_nfa [] (limbo_line_cs.map (·.1)) limbo_line_rows = true := by decide +kernel
def limbo_line_D : Dfa limbo_line_M.nfa := ⟨limbo_line_masks, [], limbo_line_cs, limbo_line_rows, limbo_line_masksIn, limbo_line_repOk, limbo_line_rowsOk⟩

def objc_line_nfa : Nfa := ⟨[⟨0,4294967808,[],[(0,.setEnt (.own 0))],0,0⟩,⟨1,140737488355328,[],[],0,0⟩,⟨11,140737488355328,[],[],0,2⟩,⟨22,549755813888,[],[(9,.code)],0,0⟩,⟨27,17179869184,[],[(10,.code)],0,0⟩,⟨32,8192,[],[(11,.setEnt .newline)],0,0⟩,⟨34,1024,[],[(11,.setEnt .newline)],0,0⟩,⟨35,4096,[],[(11,.setEnt .newline)],0,0⟩,⟨36,8192,[.crAlone],[(11,.setEnt .newline)],0,0⟩,⟨37,115792089237316195423570985008687907853269984665640564039457584007908834656767,[],[(12,.setEnt (.own 3))],0,0⟩],[[⟨0,4294967808,[],[(0,.setEnt (.own 0))],0,0⟩],[⟨2,140737488355328,[],[(1,.comment)],0,0⟩],[⟨3,4951760157141521099596496896,[],[],0,0⟩,⟨9,4294967808,[],[],0,0⟩,⟨10,115792089237316195423570985008687907853269984665640564039457584007908834658815,[],[(4,.comment)],0,0⟩],[⟨4,8192,[],[],0,0⟩,⟨6,1024,[],[],0,0⟩,⟨7,4096,[],[],0,0⟩,⟨8,8192,[.crAlone],[],0,0⟩],[⟨5,1024,[],[],0,0⟩],[⟨3,4951760157141521099596496896,[],[(2,.setEnt .internalNl),(3,.cb)],0,0⟩,⟨9,4294967808,[],[(2,.setEnt .internalNl),(3,.cb)],0,0⟩,⟨10,115792089237316195423570985008687907853269984665640564039457584007908834658815,[],[(2,.setEnt .internalNl),(3,.cb),(4,.comment)],0,0⟩],[⟨3,4951760157141521099596496896,[],[(2,.setEnt .internalNl),(3,.cb)],0,0⟩,⟨9,4294967808,[],[(2,.setEnt .internalNl),(3,.cb)],0,0⟩,⟨10,115792089237316195423570985008687907853269984665640564039457584007908834658815,[],[(2,.setEnt .internalNl),(3,.cb),(4,.comment)],0,0⟩],[⟨3,4951760157141521099596496896,[],[(2,.setEnt .internalNl),(3,.cb)],0,0⟩,⟨9,4294967808,[],[(2,.setEnt .internalNl),(3,.cb)],0,0⟩,⟨10,115792089237316195423570985008687907853269984665640564039457584007908834658815,[],[(2,.setEnt .internalNl),(3,.cb),(4,.comment)],0,0⟩],[⟨3,4951760157141521099596496896,[],[(2,.setEnt .internalNl),(3,.cb)],0,0⟩,⟨9,4294967808,[],[(2,.setEnt .internalNl),(3,.cb)],0,0⟩,⟨10,115792089237316195423570985008687907853269984665640564039457584007908834658815,[],[(2,.setEnt .internalNl),(3,.cb),(4,.comment)],0,0⟩],[⟨3,4951760157141521099596496896,[],[],0,0⟩,⟨9,4294967808,[],[],0,0⟩,⟨10,115792089237316195423570985008687907853269984665640564039457584007908834658815,[],[(4,.comment)],0,0⟩],[⟨3,4951760157141521099596496896,[],[],0,0⟩,⟨9,4294967808,[],[],0,0⟩,⟨10,115792089237316195423570985008687907853269984665640564039457584007908834658815,[],[(4,.comment)],0,0⟩],[⟨12,4398046511104,[],[(5,.comment)],0,2⟩],[⟨13,8192,[],[],0,2⟩,⟨15,1024,[],[],0,2⟩,⟨16,4096,[],[],0,2⟩,⟨17,8192,[.crAlone],[],0,2⟩,⟨18,4294967808,[],[],0,2⟩,⟨19,115792089237316195423570985008687907853269984665640564039457584007908834658815,[],[(8,.comment)],0,2⟩,⟨20,4398046511104,[],[],0,2⟩],[⟨14,1024,[],[],0,2⟩],[⟨13,8192,[],[(6,.setEnt .internalNl),(7,.cb)],0,2⟩,⟨15,1024,[],[(6,.setEnt .internalNl),(7,.cb)],0,2⟩,⟨16,4096,[],[(6,.setEnt .internalNl),(7,.cb)],0,2⟩,⟨17,8192,[.crAlone],[(6,.setEnt .internalNl),(7,.cb)],0,2⟩,⟨18,4294967808,[],[(6,.setEnt .internalNl),(7,.cb)],0,2⟩,⟨19,115792089237316195423570985008687907853269984665640564039457584007908834658815,[],[(6,.setEnt .internalNl),(7,.cb),(8,.comment)],0,2⟩,⟨20,4398046511104,[],[(6,.setEnt .internalNl),(7,.cb)],0,2⟩],[⟨13,8192,[],[(6,.setEnt .internalNl),(7,.cb)],0,2⟩,⟨15,1024,[],[(6,.setEnt .internalNl),(7,.cb)],0,2⟩,⟨16,4096,[],[(6,.setEnt .internalNl),(7,.cb)],0,2⟩,⟨17,8192,[.crAlone],[(6,.setEnt .internalNl),(7,.cb)],0,2⟩,⟨18,4294967808,[],[(6,.setEnt .internalNl),(7,.cb)],0,2⟩,⟨19,115792089237316195423570985008687907853269984665640564039457584007908834658815,[],[(6,.setEnt .internalNl),(7,.cb),(8,.comment)],0,2⟩,⟨20,4398046511104,[],[(6,.setEnt .internalNl),(7,.cb)],0,2⟩],[⟨13,8192,[],[(6,.setEnt .internalNl),(7,.cb)],0,2⟩,⟨15,1024,[],[(6,.setEnt .internalNl),(7,.cb)],0,2⟩,⟨16,4096,[],[(6,.setEnt .internalNl),(7,.cb)],0,2⟩,⟨17,8192,[.crAlone],[(6,.setEnt .internalNl),(7,.cb)],0,2⟩,⟨18,4294967808,[],[(6,.setEnt .internalNl),(7,.cb)],0,2⟩,⟨19,115792089237316195423570985008687907853269984665640564039457584007908834658815,[],[(6,.setEnt .internalNl),(7,.cb),(8,.comment)],0,2⟩,⟨20,4398046511104,[],[(6,.setEnt .internalNl),(7,.cb)],0,2⟩],[⟨13,8192,[],[(6,.setEnt .internalNl),(7,.cb)],0,2⟩,⟨15,1024,[],[(6,.setEnt .internalNl),(7,.cb)],0,2⟩,⟨16,4096,[],[(6,.setEnt .internalNl),(7,.cb)],0,2⟩,⟨17,8192,[.crAlone],[(6,.setEnt .internalNl),(7,.cb)],0,2⟩,⟨18,4294967808,[],[(6,.setEnt .internalNl),(7,.cb)],0,2⟩,⟨19,115792089237316195423570985008687907853269984665640564039457584007908834658815,[],[(6,.setEnt .internalNl),(7,.cb),(8,.comment)],0,2⟩,⟨20,4398046511104,[],[(6,.setEnt .internalNl),(7,.cb)],0,2⟩],[⟨13,8192,[],[],0,2⟩,⟨15,1024,[],[],0,2⟩,⟨16,4096,[],[],0,2⟩,⟨17,8192,[.crAlone],[],0,2⟩,⟨18,4294967808,[],[],0,2⟩,⟨19,115792089237316195423570985008687907853269984665640564039457584007908834658815,[],[(8,.comment)],0,2⟩,⟨20,4398046511104,[],[],0,2⟩],[⟨13,8192,[],[],0,2⟩,⟨15,1024,[],[],0,2⟩,⟨16,4096,[],[],0,2⟩,⟨17,8192,[.crAlone],[],0,2⟩,⟨18,4294967808,[],[],0,2⟩,⟨19,115792089237316195423570985008687907853269984665640564039457584007908834658815,[],[(8,.comment)],0,2⟩,⟨20,4398046511104,[],[],0,2⟩],[⟨21,140737488355328,[],[],2,0⟩],[],[⟨23,115792089237316195423570985008687907853269984665635612279300442486263777315839,[],[],0,0⟩,⟨24,4951760157141521099596496896,[],[],0,0⟩,⟨26,549755813888,[],[],0,0⟩],[⟨23,115792089237316195423570985008687907853269984665635612279300442486263777315839,[],[],0,0⟩,⟨24,4951760157141521099596496896,[],[],0,0⟩,⟨26,549755813888,[],[],0,0⟩],[⟨25,115792089237316195423570985008687907853269984665640564039457584007913129626623,[],[],0,0⟩],[⟨23,115792089237316195423570985008687907853269984665635612279300442486263777315839,[],[],0,0⟩,⟨24,4951760157141521099596496896,[],[],0,0⟩,⟨26,549755813888,[],[],0,0⟩],[],[⟨28,115792089237316195423570985008687907853269984665635612279300442486796353260543,[],[],0,0⟩,⟨29,4951760157141521099596496896,[],[],0,0⟩,⟨31,17179869184,[],[],0,0⟩],[⟨28,115792089237316195423570985008687907853269984665635612279300442486796353260543,[],[],0,0⟩,⟨29,4951760157141521099596496896,[],[],0,0⟩,⟨31,17179869184,[],[],0,0⟩],[⟨30,115792089237316195423570985008687907853269984665640564039457584007913129626623,[],[],0,0⟩],[⟨28,115792089237316195423570985008687907853269984665635612279300442486796353260543,[],[],0,0⟩,⟨29,4951760157141521099596496896,[],[],0,0⟩,⟨31,17179869184,[],[],0,0⟩],[],[⟨33,1024,[],[(11,.setEnt .newline)],0,0⟩],[],[],[],[],[]],[some (0,[]),none,some (1,[]),none,none,some (1,[(2,.setEnt .internalNl),(3,.cb)]),some (1,[(2,.setEnt .internalNl),(3,.cb)]),some (1,[(2,.setEnt .internalNl),(3,.cb)]),some (1,[(2,.setEnt .internalNl),(3,.cb)]),some (1,[]),some (1,[]),none,none,none,none,none,none,none,none,none,none,some (1,[]),none,none,none,none,some (2,[]),none,none,none,none,some (2,[]),none,some (3,[]),some (3,[]),some (3,[]),some (3,[]),some (4,[])],[1,9,11,12,13]⟩
theorem objc_line_nfa_eq : ObjectiveC.objc_line.nfa = objc_line_nfa := by decide +kernel
/-- The machine of `ObjectiveC.objc_line`, with its automaton as a literal. -/
def objc_line_M : Machine := ⟨objc_line_nfa, ObjectiveC.objc_line.ends, ObjectiveC.objc_line.sw⟩
theorem objc_line_M_eq : ObjectiveC.objc_line.machine = objc_line_M := by
  unfold Scanner.machine objc_line_M; rw [objc_line_nfa_eq]
def objc_line_masks : List Nat := [4294967808,140737488355328,549755813888,17179869184,8192,1024,4096,115792089237316195423570985008687907853269984665640564039457584007908834656767,4951760157141521099596496896,115792089237316195423570985008687907853269984665640564039457584007908834658815,4398046511104,115792089237316195423570985008687907853269984665635612279300442486263777315839,115792089237316195423570985008687907853269984665640564039457584007913129626623,115792089237316195423570985008687907853269984665635612279300442486796353260543]
def objc_line_cs : List (Nat × Nat) := [(0,115792089237316195423570985008687907853269984665635612279300442341106767610367),(9,4294967808),(10,1024),(11,2048),(12,4096),(13,8192),(34,17179869184),(39,549755813888),(42,4398046511104),(47,140737488355328),(92,4951760157141521099596496896)]
theorem objc_line_masksIn : masksIn objc_line_nfa objc_line_masks = true := by decide +kernel
theorem objc_line_repOk : repOk objc_line_masks objc_line_cs = true := by decide +kernel
def objc_line_rows : List Row := [⟨[],none,[],[⟨256,.other,false,some ⟨0,[.setEnt (.own 3)],some 4,true⟩⟩,⟨256,.ws,false,some ⟨1,[.setEnt (.own 0)],some 0,false⟩⟩,⟨256,.lf,false,some ⟨0,[.setEnt .newline],some 3,true⟩⟩,⟨256,.vt,false,none⟩,⟨256,.ff,false,some ⟨0,[.setEnt .newline],some 3,true⟩⟩,⟨256,.cr,false,some ⟨2,[.setEnt .newline],none,false⟩⟩,⟨256,.cr,true,some ⟨3,[.setEnt .newline],some 3,false⟩⟩,⟨256,.other,false,some ⟨4,[.code,.setEnt (.own 3)],some 4,false⟩⟩,⟨256,.other,false,some ⟨5,[.code,.setEnt (.own 3)],some 4,false⟩⟩,⟨256,.other,false,some ⟨6,[.setEnt (.own 3)],some 4,false⟩⟩]⟩,⟨[0],some 0,[],[⟨256,.other,false,none⟩,⟨256,.ws,false,some ⟨1,[.setEnt (.own 0)],some 0,false⟩⟩,⟨256,.lf,false,none⟩,⟨256,.vt,false,none⟩,⟨256,.ff,false,none⟩,⟨256,.cr,false,none⟩,⟨256,.cr,true,none⟩]⟩,⟨[32],none,[],[⟨256,.other,false,none⟩,⟨256,.ws,false,none⟩,⟨256,.lf,false,some ⟨0,[.setEnt .newline],some 3,true⟩⟩,⟨256,.vt,false,none⟩,⟨256,.ff,false,none⟩,⟨256,.cr,false,none⟩,⟨256,.cr,true,none⟩]⟩,⟨[32,36],some 3,[],[⟨256,.other,false,none⟩,⟨256,.ws,false,none⟩,⟨256,.lf,false,some ⟨0,[.setEnt .newline],some 3,true⟩⟩,⟨256,.vt,false,none⟩,⟨256,.ff,false,none⟩,⟨256,.cr,false,none⟩,⟨256,.cr,true,none⟩]⟩,⟨[27,37],some 4,[],[⟨256,.other,false,some ⟨7,[],none,false⟩⟩,⟨256,.ws,false,some ⟨7,[],none,false⟩⟩,⟨256,.lf,false,none⟩,⟨256,.vt,false,some ⟨7,[],none,false⟩⟩,⟨256,.ff,false,none⟩,⟨256,.cr,false,none⟩,⟨256,.cr,true,none⟩,⟨256,.other,false,some ⟨0,[],some 2,true⟩⟩,⟨256,.other,false,some ⟨8,[],none,false⟩⟩]⟩,⟨[22,37],some 4,[],[⟨256,.other,false,some ⟨9,[],none,false⟩⟩,⟨256,.ws,false,some ⟨9,[],none,false⟩⟩,⟨256,.lf,false,none⟩,⟨256,.vt,false,some ⟨9,[],none,false⟩⟩,⟨256,.ff,false,none⟩,⟨256,.cr,false,none⟩,⟨256,.cr,true,none⟩,⟨256,.other,false,some ⟨0,[],some 2,true⟩⟩,⟨256,.other,false,some ⟨10,[],none,false⟩⟩]⟩,⟨[1,11,37],some 4,[],[⟨256,.other,false,none⟩,⟨256,.ws,false,none⟩,⟨256,.lf,false,none⟩,⟨256,.vt,false,none⟩,⟨256,.ff,false,none⟩,⟨256,.cr,false,none⟩,⟨256,.cr,true,none⟩,⟨256,.other,false,some ⟨11,[.comment],none,false⟩⟩,⟨256,.other,false,some ⟨12,[.comment],some 1,false⟩⟩]⟩,⟨[28],none,[],[⟨256,.other,false,some ⟨7,[],none,false⟩⟩,⟨256,.ws,false,some ⟨7,[],none,false⟩⟩,⟨256,.lf,false,none⟩,⟨256,.vt,false,some ⟨7,[],none,false⟩⟩,⟨256,.ff,false,none⟩,⟨256,.cr,false,none⟩,⟨256,.cr,true,none⟩,⟨256,.other,false,some ⟨0,[],some 2,true⟩⟩,⟨256,.other,false,some ⟨8,[],none,false⟩⟩]⟩,⟨[29],none,[],[⟨256,.other,false,some ⟨13,[],none,false⟩⟩,⟨256,.ws,false,some ⟨13,[],none,false⟩⟩,⟨256,.lf,false,none⟩,⟨256,.vt,false,some ⟨13,[],none,false⟩⟩,⟨256,.ff,false,none⟩,⟨256,.cr,false,none⟩,⟨256,.cr,true,none⟩]⟩,⟨[23],none,[],[⟨256,.other,false,some ⟨9,[],none,false⟩⟩,⟨256,.ws,false,some ⟨9,[],none,false⟩⟩,⟨256,.lf,false,none⟩,⟨256,.vt,false,some ⟨9,[],none,false⟩⟩,⟨256,.ff,false,none⟩,⟨256,.cr,false,none⟩,⟨256,.cr,true,none⟩,⟨256,.other,false,some ⟨0,[],some 2,true⟩⟩,⟨256,.other,false,some ⟨10,[],none,false⟩⟩]⟩,⟨[24],none,[],[⟨256,.other,false,some ⟨14,[],none,false⟩⟩,⟨256,.ws,false,some ⟨14,[],none,false⟩⟩,⟨256,.lf,false,none⟩,⟨256,.vt,false,some ⟨14,[],none,false⟩⟩,⟨256,.ff,false,none⟩,⟨256,.cr,false,none⟩,⟨256,.cr,true,none⟩]⟩,⟨[12],none,[],[⟨256,.other,false,some ⟨15,[.comment],none,false⟩⟩,⟨256,.ws,false,some ⟨16,[],none,false⟩⟩,⟨256,.lf,false,some ⟨17,[],none,false⟩⟩,⟨256,.vt,false,some ⟨15,[.comment],none,false⟩⟩,⟨256,.ff,false,some ⟨18,[],none,false⟩⟩,⟨256,.cr,false,some ⟨19,[],none,false⟩⟩,⟨256,.cr,true,some ⟨20,[],none,false⟩⟩,⟨256,.other,false,some ⟨21,[.comment],none,false⟩⟩]⟩,⟨[2],some 1,[],[⟨256,.other,false,some ⟨22,[.comment],some 1,false⟩⟩,⟨256,.ws,false,some ⟨23,[],some 1,false⟩⟩,⟨256,.lf,false,none⟩,⟨256,.vt,false,some ⟨22,[.comment],some 1,false⟩⟩,⟨256,.ff,false,none⟩,⟨256,.cr,false,none⟩,⟨256,.cr,true,none⟩,⟨256,.other,false,some ⟨24,[.comment],some 1,false⟩⟩]⟩,⟨[30],none,[],[⟨256,.other,false,some ⟨7,[],none,false⟩⟩,⟨256,.ws,false,some ⟨7,[],none,false⟩⟩,⟨256,.lf,false,none⟩,⟨256,.vt,false,some ⟨7,[],none,false⟩⟩,⟨256,.ff,false,none⟩,⟨256,.cr,false,none⟩,⟨256,.cr,true,none⟩,⟨256,.other,false,some ⟨0,[],some 2,true⟩⟩,⟨256,.other,false,some ⟨8,[],none,false⟩⟩]⟩,⟨[25],none,[],[⟨256,.other,false,some ⟨9,[],none,false⟩⟩,⟨256,.ws,false,some ⟨9,[],none,false⟩⟩,⟨256,.lf,false,none⟩,⟨256,.vt,false,some ⟨9,[],none,false⟩⟩,⟨256,.ff,false,none⟩,⟨256,.cr,false,none⟩,⟨256,.cr,true,none⟩,⟨256,.other,false,some ⟨0,[],some 2,true⟩⟩,⟨256,.other,false,some ⟨10,[],none,false⟩⟩]⟩,⟨[19],none,[],[⟨256,.other,false,some ⟨15,[.comment],none,false⟩⟩,⟨256,.ws,false,some ⟨16,[],none,false⟩⟩,⟨256,.lf,false,some ⟨17,[],none,false⟩⟩,⟨256,.vt,false,some ⟨15,[.comment],none,false⟩⟩,⟨256,.ff,false,some ⟨18,[],none,false⟩⟩,⟨256,.cr,false,some ⟨19,[],none,false⟩⟩,⟨256,.cr,true,some ⟨20,[],none,false⟩⟩,⟨256,.other,false,some ⟨21,[.comment],none,false⟩⟩]⟩,⟨[18],none,[],[⟨256,.other,false,some ⟨15,[.comment],none,false⟩⟩,⟨256,.ws,false,some ⟨16,[],none,false⟩⟩,⟨256,.lf,false,some ⟨17,[],none,false⟩⟩,⟨256,.vt,false,some ⟨15,[.comment],none,false⟩⟩,⟨256,.ff,false,some ⟨18,[],none,false⟩⟩,⟨256,.cr,false,some ⟨19,[],none,false⟩⟩,⟨256,.cr,true,some ⟨20,[],none,false⟩⟩,⟨256,.other,false,some ⟨21,[.comment],none,false⟩⟩]⟩,⟨[15],none,[],[⟨256,.other,false,some ⟨15,[.setEnt .internalNl,.cb,.comment],none,false⟩⟩,⟨256,.ws,false,some ⟨16,[.setEnt .internalNl,.cb],none,false⟩⟩,⟨256,.lf,false,some ⟨17,[.setEnt .internalNl,.cb],none,false⟩⟩,⟨256,.vt,false,some ⟨15,[.setEnt .internalNl,.cb,.comment],none,false⟩⟩,⟨256,.ff,false,some ⟨18,[.setEnt .internalNl,.cb],none,false⟩⟩,⟨256,.cr,false,some ⟨19,[.setEnt .internalNl,.cb],none,false⟩⟩,⟨256,.cr,true,some ⟨20,[.setEnt .internalNl,.cb],none,false⟩⟩,⟨256,.other,false,some ⟨21,[.setEnt .internalNl,.cb,.comment],none,false⟩⟩]⟩,⟨[16],none,[],[⟨256,.other,false,some ⟨15,[.setEnt .internalNl,.cb,.comment],none,false⟩⟩,⟨256,.ws,false,some ⟨16,[.setEnt .internalNl,.cb],none,false⟩⟩,⟨256,.lf,false,some ⟨17,[.setEnt .internalNl,.cb],none,false⟩⟩,⟨256,.vt,false,some ⟨15,[.setEnt .internalNl,.cb,.comment],none,false⟩⟩,⟨256,.ff,false,some ⟨18,[.setEnt .internalNl,.cb],none,false⟩⟩,⟨256,.cr,false,some ⟨19,[.setEnt .internalNl,.cb],none,false⟩⟩,⟨256,.cr,true,some ⟨20,[.setEnt .internalNl,.cb],none,false⟩⟩,⟨256,.other,false,some ⟨21,[.setEnt .internalNl,.cb,.comment],none,false⟩⟩]⟩,⟨[13],none,[],[⟨256,.other,false,none⟩,⟨256,.ws,false,none⟩,⟨256,.lf,false,some ⟨25,[],none,false⟩⟩,⟨256,.vt,false,none⟩,⟨256,.ff,false,none⟩,⟨256,.cr,false,none⟩,⟨256,.cr,true,none⟩]⟩,⟨[13,17],none,[],[⟨256,.other,false,some ⟨15,[.setEnt .internalNl,.cb,.comment],none,false⟩⟩,⟨256,.ws,false,some ⟨16,[.setEnt .internalNl,.cb],none,false⟩⟩,⟨256,.lf,false,some ⟨26,[.setEnt .internalNl,.cb],none,false⟩⟩,⟨256,.vt,false,some ⟨15,[.setEnt .internalNl,.cb,.comment],none,false⟩⟩,⟨256,.ff,false,some ⟨18,[.setEnt .internalNl,.cb],none,false⟩⟩,⟨256,.cr,false,some ⟨19,[.setEnt .internalNl,.cb],none,false⟩⟩,⟨256,.cr,true,some ⟨20,[.setEnt .internalNl,.cb],none,false⟩⟩,⟨256,.other,false,some ⟨21,[.setEnt .internalNl,.cb,.comment],none,false⟩⟩]⟩,⟨[19,20],none,[],[⟨256,.other,false,some ⟨15,[.comment],none,false⟩⟩,⟨256,.ws,false,some ⟨16,[],none,false⟩⟩,⟨256,.lf,false,some ⟨17,[],none,false⟩⟩,⟨256,.vt,false,some ⟨15,[.comment],none,false⟩⟩,⟨256,.ff,false,some ⟨18,[],none,false⟩⟩,⟨256,.cr,false,some ⟨19,[],none,false⟩⟩,⟨256,.cr,true,some ⟨20,[],none,false⟩⟩,⟨256,.other,false,some ⟨21,[.comment],none,false⟩⟩,⟨256,.other,false,some ⟨0,[],some 1,true⟩⟩]⟩,⟨[10],some 1,[],[⟨256,.other,false,some ⟨22,[.comment],some 1,false⟩⟩,⟨256,.ws,false,some ⟨23,[],some 1,false⟩⟩,⟨256,.lf,false,none⟩,⟨256,.vt,false,some ⟨22,[.comment],some 1,false⟩⟩,⟨256,.ff,false,none⟩,⟨256,.cr,false,none⟩,⟨256,.cr,true,none⟩,⟨256,.other,false,some ⟨24,[.comment],some 1,false⟩⟩]⟩,⟨[9],some 1,[],[⟨256,.other,false,some ⟨22,[.comment],some 1,false⟩⟩,⟨256,.ws,false,some ⟨23,[],some 1,false⟩⟩,⟨256,.lf,false,none⟩,⟨256,.vt,false,some ⟨22,[.comment],some 1,false⟩⟩,⟨256,.ff,false,none⟩,⟨256,.cr,false,none⟩,⟨256,.cr,true,none⟩,⟨256,.other,false,some ⟨24,[.comment],some 1,false⟩⟩]⟩,⟨[3,10],some 1,[],[⟨256,.other,false,some ⟨22,[.comment],some 1,false⟩⟩,⟨256,.ws,false,some ⟨23,[],some 1,false⟩⟩,⟨256,.lf,false,some ⟨27,[],some 1,false⟩⟩,⟨256,.vt,false,some ⟨22,[.comment],some 1,false⟩⟩,⟨256,.ff,false,some ⟨28,[],some 1,false⟩⟩,⟨256,.cr,false,some ⟨29,[],none,false⟩⟩,⟨256,.cr,true,some ⟨30,[],some 1,false⟩⟩,⟨256,.other,false,some ⟨24,[.comment],some 1,false⟩⟩]⟩,⟨[14],none,[],[⟨256,.other,false,some ⟨15,[.setEnt .internalNl,.cb,.comment],none,false⟩⟩,⟨256,.ws,false,some ⟨16,[.setEnt .internalNl,.cb],none,false⟩⟩,⟨256,.lf,false,some ⟨17,[.setEnt .internalNl,.cb],none,false⟩⟩,⟨256,.vt,false,some ⟨15,[.setEnt .internalNl,.cb,.comment],none,false⟩⟩,⟨256,.ff,false,some ⟨18,[.setEnt .internalNl,.cb],none,false⟩⟩,⟨256,.cr,false,some ⟨19,[.setEnt .internalNl,.cb],none,false⟩⟩,⟨256,.cr,true,some ⟨20,[.setEnt .internalNl,.cb],none,false⟩⟩,⟨256,.other,false,some ⟨21,[.setEnt .internalNl,.cb,.comment],none,false⟩⟩]⟩,⟨[14,15],none,[],[⟨256,.other,false,some ⟨15,[.setEnt .internalNl,.cb,.comment],none,false⟩⟩,⟨256,.ws,false,some ⟨16,[.setEnt .internalNl,.cb],none,false⟩⟩,⟨256,.lf,false,some ⟨17,[.setEnt .internalNl,.cb],none,false⟩⟩,⟨256,.vt,false,some ⟨15,[.setEnt .internalNl,.cb,.comment],none,false⟩⟩,⟨256,.ff,false,some ⟨18,[.setEnt .internalNl,.cb],none,false⟩⟩,⟨256,.cr,false,some ⟨19,[.setEnt .internalNl,.cb],none,false⟩⟩,⟨256,.cr,true,some ⟨20,[.setEnt .internalNl,.cb],none,false⟩⟩,⟨256,.other,false,some ⟨21,[.setEnt .internalNl,.cb,.comment],none,false⟩⟩]⟩,⟨[6],some 1,[.setEnt .internalNl,.cb],[⟨256,.other,false,some ⟨22,[.setEnt .internalNl,.cb,.comment],some 1,false⟩⟩,⟨256,.ws,false,some ⟨23,[.setEnt .internalNl,.cb],some 1,false⟩⟩,⟨256,.lf,false,none⟩,⟨256,.vt,false,some ⟨22,[.setEnt .internalNl,.cb,.comment],some 1,false⟩⟩,⟨256,.ff,false,none⟩,⟨256,.cr,false,none⟩,⟨256,.cr,true,none⟩,⟨256,.other,false,some ⟨24,[.setEnt .internalNl,.cb,.comment],some 1,false⟩⟩]⟩,⟨[7],some 1,[.setEnt .internalNl,.cb],[⟨256,.other,false,some ⟨22,[.setEnt .internalNl,.cb,.comment],some 1,false⟩⟩,⟨256,.ws,false,some ⟨23,[.setEnt .internalNl,.cb],some 1,false⟩⟩,⟨256,.lf,false,none⟩,⟨256,.vt,false,some ⟨22,[.setEnt .internalNl,.cb,.comment],some 1,false⟩⟩,⟨256,.ff,false,none⟩,⟨256,.cr,false,none⟩,⟨256,.cr,true,none⟩,⟨256,.other,false,some ⟨24,[.setEnt .internalNl,.cb,.comment],some 1,false⟩⟩]⟩,⟨[4],none,[],[⟨256,.other,false,none⟩,⟨256,.ws,false,none⟩,⟨256,.lf,false,some ⟨31,[],some 1,false⟩⟩,⟨256,.vt,false,none⟩,⟨256,.ff,false,none⟩,⟨256,.cr,false,none⟩,⟨256,.cr,true,none⟩]⟩,⟨[4,8],some 1,[.setEnt .internalNl,.cb],[⟨256,.other,false,some ⟨22,[.setEnt .internalNl,.cb,.comment],some 1,false⟩⟩,⟨256,.ws,false,some ⟨23,[.setEnt .internalNl,.cb],some 1,false⟩⟩,⟨256,.lf,false,some ⟨31,[],some 1,false⟩⟩,⟨256,.vt,false,some ⟨22,[.setEnt .internalNl,.cb,.comment],some 1,false⟩⟩,⟨256,.ff,false,none⟩,⟨256,.cr,false,none⟩,⟨256,.cr,true,none⟩,⟨256,.other,false,some ⟨24,[.setEnt .internalNl,.cb,.comment],some 1,false⟩⟩]⟩,⟨[5],some 1,[.setEnt .internalNl,.cb],[⟨256,.other,false,some ⟨22,[.setEnt .internalNl,.cb,.comment],some 1,false⟩⟩,⟨256,.ws,false,some ⟨23,[.setEnt .internalNl,.cb],some 1,false⟩⟩,⟨256,.lf,false,none⟩,⟨256,.vt,false,some ⟨22,[.setEnt .internalNl,.cb,.comment],some 1,false⟩⟩,⟨256,.ff,false,none⟩,⟨256,.cr,false,none⟩,⟨256,.cr,true,none⟩,⟨256,.other,false,some ⟨24,[.setEnt .internalNl,.cb,.comment],some 1,false⟩⟩]⟩]
theorem objc_line_rowsOk : rowsOk objc_line_nfa [] (objc_line_cs.map (·.1)) objc_line_rows = true := by decide +kernel
def objc_line_D : Dfa objc_line_M.nfa := ⟨objc_line_masks, [], objc_line_cs, objc_line_rows, objc_line_masksIn, objc_line_repOk, objc_line_rowsOk⟩

def octave_line_nfa : Nfa := ⟨[⟨0,4294967808,[],[(0,.setEnt (.own 0))],0,0⟩,⟨1,137438953472,[],[],0,0⟩,⟨2,70368744177664,[],[],0,0⟩,⟨6,34359738368,[],[(2,.comment)],0,0⟩,⟨8,137438953472,[],[],0,2⟩,⟨19,549755813888,[],[(7,.code)],0,0⟩,⟨24,17179869184,[],[(8,.code)],0,0⟩,⟨29,8192,[],[(9,.setEnt .newline)],0,0⟩,⟨31,1024,[],[(9,.setEnt .newline)],0,0⟩,⟨32,4096,[],[(9,.setEnt .newline)],0,0⟩,⟨33,8192,[.crAlone],[(9,.setEnt .newline)],0,0⟩,⟨34,115792089237316195423570985008687907853269984665640564039457584007908834656767,[],[(10,.setEnt (.own 3))],0,0⟩],[[⟨0,4294967808,[],[(0,.setEnt (.own 0))],0,0⟩],[⟨5,115792089237316195423570985008687907853259350841674284712474353551430886883327,[],[(1,.fhold 0),(2,.comment)],0,0⟩],[⟨3,70368744177664,[],[],0,0⟩],[⟨4,70368744177664,[],[],0,0⟩],[⟨5,115792089237316195423570985008687907853259350841674284712474353551430886883327,[],[(1,.fhold 0),(2,.comment)],0,0⟩],[⟨7,115792089237316195423570985008687907853269984665640564039457584007913129626623,[],[],0,0⟩],[⟨7,115792089237316195423570985008687907853269984665640564039457584007913129626623,[],[],0,0⟩],[⟨7,115792089237316195423570985008687907853269984665640564039457584007913129626623,[],[],0,0⟩],[⟨9,10633823966279326983230456482242756608,[],[(3,.comment)],0,2⟩],[⟨10,8192,[],[],0,2⟩,⟨12,1024,[],[],0,2⟩,⟨13,4096,[],[],0,2⟩,⟨14,8192,[.crAlone],[],0,2⟩,⟨15,4294967808,[],[],0,2⟩,⟨16,115792089237316195423570985008687907853269984665640564039457584007908834658815,[],[(6,.code)],0,2⟩,⟨17,137438953472,[],[],0,2⟩],[⟨11,1024,[],[],0,2⟩],[⟨10,8192,[],[(4,.setEnt .internalNl),(5,.cb)],0,2⟩,⟨12,1024,[],[(4,.setEnt .internalNl),(5,.cb)],0,2⟩,⟨13,4096,[],[(4,.setEnt .internalNl),(5,.cb)],0,2⟩,⟨14,8192,[.crAlone],[(4,.setEnt .internalNl),(5,.cb)],0,2⟩,⟨15,4294967808,[],[(4,.setEnt .internalNl),(5,.cb)],0,2⟩,⟨16,115792089237316195423570985008687907853269984665640564039457584007908834658815,[],[(4,.setEnt .internalNl),(5,.cb),(6,.code)],0,2⟩,⟨17,137438953472,[],[(4,.setEnt .internalNl),(5,.cb)],0,2⟩],[⟨10,8192,[],[(4,.setEnt .internalNl),(5,.cb)],0,2⟩,⟨12,1024,[],[(4,.setEnt .internalNl),(5,.cb)],0,2⟩,⟨13,4096,[],[(4,.setEnt .internalNl),(5,.cb)],0,2⟩,⟨14,8192,[.crAlone],[(4,.setEnt .internalNl),(5,.cb)],0,2⟩,⟨15,4294967808,[],[(4,.setEnt .internalNl),(5,.cb)],0,2⟩,⟨16,115792089237316195423570985008687907853269984665640564039457584007908834658815,[],[(4,.setEnt .internalNl),(5,.cb),(6,.code)],0,2⟩,⟨17,137438953472,[],[(4,.setEnt .internalNl),(5,.cb)],0,2⟩],[⟨10,8192,[],[(4,.setEnt .internalNl),(5,.cb)],0,2⟩,⟨12,1024,[],[(4,.setEnt .internalNl),(5,.cb)],0,2⟩,⟨13,4096,[],[(4,.setEnt .internalNl),(5,.cb)],0,2⟩,⟨14,8192,[.crAlone],[(4,.setEnt .internalNl),(5,.cb)],0,2⟩,⟨15,4294967808,[],[(4,.setEnt .internalNl),(5,.cb)],0,2⟩,⟨16,115792089237316195423570985008687907853269984665640564039457584007908834658815,[],[(4,.setEnt .internalNl),(5,.cb),(6,.code)],0,2⟩,⟨17,137438953472,[],[(4,.setEnt .internalNl),(5,.cb)],0,2⟩],[⟨10,8192,[],[(4,.setEnt .internalNl),(5,.cb)],0,2⟩,⟨12,1024,[],[(4,.setEnt .internalNl),(5,.cb)],0,2⟩,⟨13,4096,[],[(4,.setEnt .internalNl),(5,.cb)],0,2⟩,⟨14,8192,[.crAlone],[(4,.setEnt .internalNl),(5,.cb)],0,2⟩,⟨15,4294967808,[],[(4,.setEnt .internalNl),(5,.cb)],0,2⟩,⟨16,115792089237316195423570985008687907853269984665640564039457584007908834658815,[],[(4,.setEnt .internalNl),(5,.cb),(6,.code)],0,2⟩,⟨17,137438953472,[],[(4,.setEnt .internalNl),(5,.cb)],0,2⟩],[⟨10,8192,[],[],0,2⟩,⟨12,1024,[],[],0,2⟩,⟨13,4096,[],[],0,2⟩,⟨14,8192,[.crAlone],[],0,2⟩,⟨15,4294967808,[],[],0,2⟩,⟨16,115792089237316195423570985008687907853269984665640564039457584007908834658815,[],[(6,.code)],0,2⟩,⟨17,137438953472,[],[],0,2⟩],[⟨10,8192,[],[],0,2⟩,⟨12,1024,[],[],0,2⟩,⟨13,4096,[],[],0,2⟩,⟨14,8192,[.crAlone],[],0,2⟩,⟨15,4294967808,[],[],0,2⟩,⟨16,115792089237316195423570985008687907853269984665640564039457584007908834658815,[],[(6,.code)],0,2⟩,⟨17,137438953472,[],[],0,2⟩],[⟨18,42535295865117307932921825928971026432,[],[],2,0⟩],[],[⟨20,115792089237316195423570985008687907853269984665635612279300442486263777315839,[],[],0,0⟩,⟨21,4951760157141521099596496896,[],[],0,0⟩,⟨23,549755813888,[],[],0,0⟩],[⟨20,115792089237316195423570985008687907853269984665635612279300442486263777315839,[],[],0,0⟩,⟨21,4951760157141521099596496896,[],[],0,0⟩,⟨23,549755813888,[],[],0,0⟩],[⟨22,115792089237316195423570985008687907853269984665640564039457584007913129626623,[],[],0,0⟩],[⟨20,115792089237316195423570985008687907853269984665635612279300442486263777315839,[],[],0,0⟩,⟨21,4951760157141521099596496896,[],[],0,0⟩,⟨23,549755813888,[],[],0,0⟩],[],[⟨25,115792089237316195423570985008687907853269984665635612279300442486796353260543,[],[],0,0⟩,⟨26,4951760157141521099596496896,[],[],0,0⟩,⟨28,17179869184,[],[],0,0⟩],[⟨25,115792089237316195423570985008687907853269984665635612279300442486796353260543,[],[],0,0⟩,⟨26,4951760157141521099596496896,[],[],0,0⟩,⟨28,17179869184,[],[],0,0⟩],[⟨27,115792089237316195423570985008687907853269984665640564039457584007913129626623,[],[],0,0⟩],[⟨25,115792089237316195423570985008687907853269984665635612279300442486796353260543,[],[],0,0⟩,⟨26,4951760157141521099596496896,[],[],0,0⟩,⟨28,17179869184,[],[],0,0⟩],[],[⟨30,1024,[],[(9,.setEnt .newline)],0,0⟩],[],[],[],[],[]],[some (0,[]),none,none,none,none,some (1,[]),some (1,[]),some (1,[]),none,none,none,none,none,none,none,none,none,none,some (1,[]),none,none,none,none,some (2,[]),none,none,none,none,some (2,[]),none,some (3,[]),some (3,[]),some (3,[]),some (3,[]),some (4,[])],[1,7,9,10,11]⟩
theorem octave_line_nfa_eq : Octave.octave_line.nfa = octave_line_nfa := by decide +kernel
/-- The machine of `Octave.octave_line`, with its automaton as a literal. -/
def octave_line_M : Machine := ⟨octave_line_nfa, Octave.octave_line.ends, Octave.octave_line.sw⟩
theorem octave_line_M_eq : Octave.octave_line.machine = octave_line_M := by
  unfold Scanner.machine octave_line_M; rw [octave_line_nfa_eq]
def octave_line_masks : List Nat := [4294967808,137438953472,70368744177664,34359738368,549755813888,17179869184,8192,1024,4096,115792089237316195423570985008687907853269984665640564039457584007908834656767,115792089237316195423570985008687907853259350841674284712474353551430886883327,115792089237316195423570985008687907853269984665640564039457584007913129626623,10633823966279326983230456482242756608,115792089237316195423570985008687907853269984665640564039457584007908834658815,42535295865117307932921825928971026432,115792089237316195423570985008687907853269984665635612279300442486263777315839,4951760157141521099596496896,115792089237316195423570985008687907853269984665635612279300442486796353260543]
def octave_line_cs : List (Nat × Nat) := [(0,115792089237316195423570985008687907853216815545804215644384290133290545824255),(9,4294967808),(10,1024),(11,2048),(12,4096),(13,8192),(34,17179869184),(35,34359738368),(37,137438953472),(39,549755813888),(46,70368744177664),(92,4951760157141521099596496896),(123,10633823966279326983230456482242756608),(125,42535295865117307932921825928971026432)]
theorem octave_line_masksIn : masksIn octave_line_nfa octave_line_masks = true := by decide +kernel
theorem octave_line_repOk : repOk octave_line_masks octave_line_cs = true := by decide +kernel
def octave_line_rows : List Row := [⟨[],none,[],[⟨0,.other,false,some ⟨0,[.setEnt (.own 3)],some 4,true⟩⟩,⟨9,.ws,false,some ⟨1,[.setEnt (.own 0)],some 0,false⟩⟩,⟨10,.lf,false,some ⟨0,[.setEnt .newline],some 3,true⟩⟩,⟨11,.vt,false,none⟩,⟨12,.ff,false,some ⟨0,[.setEnt .newline],some 3,true⟩⟩,⟨13,.cr,false,some ⟨2,[.setEnt .newline],none,false⟩⟩,⟨13,.cr,true,some ⟨3,[.setEnt .newline],some 3,false⟩⟩,⟨34,.other,false,some ⟨4,[.code,.setEnt (.own 3)],some 4,false⟩⟩,⟨35,.other,false,some ⟨5,[.comment,.setEnt (.own 3)],some 1,false⟩⟩,⟨37,.other,false,some ⟨6,[.setEnt (.own 3)],some 4,false⟩⟩,⟨39,.other,false,some ⟨7,[.code,.setEnt (.own 3)],some 4,false⟩⟩,⟨46,.other,false,some ⟨8,[.setEnt (.own 3)],some 4,false⟩⟩,⟨92,.other,false,some ⟨0,[.setEnt (.own 3)],some 4,true⟩⟩,⟨123,.other,false,some ⟨0,[.setEnt (.own 3)],some 4,true⟩⟩,⟨125,.other,false,some ⟨0,[.setEnt (.own 3)],some 4,true⟩⟩]⟩,⟨[0],some 0,[],[⟨0,.other,false,none⟩,⟨9,.ws,false,some ⟨1,[.setEnt (.own 0)],some 0,false⟩⟩,⟨10,.lf,false,none⟩,⟨11,.vt,false,none⟩,⟨12,.ff,false,none⟩,⟨13,.cr,false,none⟩,⟨13,.cr,true,none⟩,⟨34,.other,false,none⟩,⟨35,.other,false,none⟩,⟨37,.other,false,none⟩,⟨39,.other,false,none⟩,⟨46,.other,false,none⟩,⟨92,.other,false,none⟩,⟨123,.other,false,none⟩,⟨125,.other,false,none⟩]⟩,⟨[29],none,[],[⟨0,.other,false,none⟩,⟨9,.ws,false,none⟩,⟨10,.lf,false,some ⟨0,[.setEnt .newline],some 3,true⟩⟩,⟨11,.vt,false,none⟩,⟨12,.ff,false,none⟩,⟨13,.cr,false,none⟩,⟨13,.cr,true,none⟩,⟨34,.other,false,none⟩,⟨35,.other,false,none⟩,⟨37,.other,false,none⟩,⟨39,.other,false,none⟩,⟨46,.other,false,none⟩,⟨92,.other,false,none⟩,⟨123,.other,false,none⟩,⟨125,.other,false,none⟩]⟩,⟨[29,33],some 3,[],[⟨0,.other,false,none⟩,⟨9,.ws,false,none⟩,⟨10,.lf,false,some ⟨0,[.setEnt .newline],some 3,true⟩⟩,⟨11,.vt,false,none⟩,⟨12,.ff,false,none⟩,⟨13,.cr,false,none⟩,⟨13,.cr,true,none⟩,⟨34,.other,false,none⟩,⟨35,.other,false,none⟩,⟨37,.other,false,none⟩,⟨39,.other,false,none⟩,⟨46,.other,false,none⟩,⟨92,.other,false,none⟩,⟨123,.other,false,none⟩,⟨125,.other,false,none⟩]⟩,⟨[24,34],some 4,[],[⟨0,.other,false,some ⟨9,[],none,false⟩⟩,⟨9,.ws,false,some ⟨9,[],none,false⟩⟩,⟨10,.lf,false,none⟩,⟨11,.vt,false,some ⟨9,[],none,false⟩⟩,⟨12,.ff,false,none⟩,⟨13,.cr,false,none⟩,⟨13,.cr,true,none⟩,⟨34,.other,false,some ⟨0,[],some 2,true⟩⟩,⟨35,.other,false,some ⟨9,[],none,false⟩⟩,⟨37,.other,false,some ⟨9,[],none,false⟩⟩,⟨39,.other,false,some ⟨9,[],none,false⟩⟩,⟨46,.other,false,some ⟨9,[],none,false⟩⟩,⟨92,.other,false,some ⟨10,[],none,false⟩⟩,⟨123,.other,false,some ⟨9,[],none,false⟩⟩,⟨125,.other,false,some ⟨9,[],none,false⟩⟩]⟩,⟨[6,34],some 1,[],[⟨0,.other,false,some ⟨11,[],some 1,false⟩⟩,⟨9,.ws,false,some ⟨11,[],some 1,false⟩⟩,⟨10,.lf,false,none⟩,⟨11,.vt,false,some ⟨11,[],some 1,false⟩⟩,⟨12,.ff,false,none⟩,⟨13,.cr,false,none⟩,⟨13,.cr,true,none⟩,⟨34,.other,false,some ⟨11,[],some 1,false⟩⟩,⟨35,.other,false,some ⟨11,[],some 1,false⟩⟩,⟨37,.other,false,some ⟨11,[],some 1,false⟩⟩,⟨39,.other,false,some ⟨11,[],some 1,false⟩⟩,⟨46,.other,false,some ⟨11,[],some 1,false⟩⟩,⟨92,.other,false,some ⟨11,[],some 1,false⟩⟩,⟨123,.other,false,some ⟨11,[],some 1,false⟩⟩,⟨125,.other,false,some ⟨11,[],some 1,false⟩⟩]⟩,⟨[1,8,34],some 4,[],[⟨0,.other,false,some ⟨12,[.fhold 0,.comment],some 1,false⟩⟩,⟨9,.ws,false,some ⟨12,[.fhold 0,.comment],some 1,false⟩⟩,⟨10,.lf,false,some ⟨12,[.fhold 0,.comment],some 1,false⟩⟩,⟨11,.vt,false,some ⟨12,[.fhold 0,.comment],some 1,false⟩⟩,⟨12,.ff,false,some ⟨12,[.fhold 0,.comment],some 1,false⟩⟩,⟨13,.cr,false,some ⟨12,[.fhold 0,.comment],some 1,false⟩⟩,⟨13,.cr,true,some ⟨12,[.fhold 0,.comment],some 1,false⟩⟩,⟨34,.other,false,some ⟨12,[.fhold 0,.comment],some 1,false⟩⟩,⟨35,.other,false,some ⟨12,[.fhold 0,.comment],some 1,false⟩⟩,⟨37,.other,false,some ⟨12,[.fhold 0,.comment],some 1,false⟩⟩,⟨39,.other,false,some ⟨12,[.fhold 0,.comment],some 1,false⟩⟩,⟨46,.other,false,some ⟨12,[.fhold 0,.comment],some 1,false⟩⟩,⟨92,.other,false,some ⟨12,[.fhold 0,.comment],some 1,false⟩⟩,⟨123,.other,false,some ⟨13,[.comment],none,false⟩⟩,⟨125,.other,false,some ⟨12,[.fhold 0,.comment],some 1,false⟩⟩]⟩,⟨[19,34],some 4,[],[⟨0,.other,false,some ⟨14,[],none,false⟩⟩,⟨9,.ws,false,some ⟨14,[],none,false⟩⟩,⟨10,.lf,false,none⟩,⟨11,.vt,false,some ⟨14,[],none,false⟩⟩,⟨12,.ff,false,none⟩,⟨13,.cr,false,none⟩,⟨13,.cr,true,none⟩,⟨34,.other,false,some ⟨14,[],none,false⟩⟩,⟨35,.other,false,some ⟨14,[],none,false⟩⟩,⟨37,.other,false,some ⟨14,[],none,false⟩⟩,⟨39,.other,false,some ⟨0,[],some 2,true⟩⟩,⟨46,.other,false,some ⟨14,[],none,false⟩⟩,⟨92,.other,false,some ⟨15,[],none,false⟩⟩,⟨123,.other,false,some ⟨14,[],none,false⟩⟩,⟨125,.other,false,some ⟨14,[],none,false⟩⟩]⟩,⟨[2,34],some 4,[],[⟨0,.other,false,none⟩,⟨9,.ws,false,none⟩,⟨10,.lf,false,none⟩,⟨11,.vt,false,none⟩,⟨12,.ff,false,none⟩,⟨13,.cr,false,none⟩,⟨13,.cr,true,none⟩,⟨34,.other,false,none⟩,⟨35,.other,false,none⟩,⟨37,.other,false,none⟩,⟨39,.other,false,none⟩,⟨46,.other,false,some ⟨16,[],none,false⟩⟩,⟨92,.other,false,none⟩,⟨123,.other,false,none⟩,⟨125,.other,false,none⟩]⟩,⟨[25],none,[],[⟨0,.other,false,some ⟨9,[],none,false⟩⟩,⟨9,.ws,false,some ⟨9,[],none,false⟩⟩,⟨10,.lf,false,none⟩,⟨11,.vt,false,some ⟨9,[],none,false⟩⟩,⟨12,.ff,false,none⟩,⟨13,.cr,false,none⟩,⟨13,.cr,true,none⟩,⟨34,.other,false,some ⟨0,[],some 2,true⟩⟩,⟨35,.other,false,some ⟨9,[],none,false⟩⟩,⟨37,.other,false,some ⟨9,[],none,false⟩⟩,⟨39,.other,false,some ⟨9,[],none,false⟩⟩,⟨46,.other,false,some ⟨9,[],none,false⟩⟩,⟨92,.other,false,some ⟨10,[],none,false⟩⟩,⟨123,.other,false,some ⟨9,[],none,false⟩⟩,⟨125,.other,false,some ⟨9,[],none,false⟩⟩]⟩,⟨[26],none,[],[⟨0,.other,false,some ⟨17,[],none,false⟩⟩,⟨9,.ws,false,some ⟨17,[],none,false⟩⟩,⟨10,.lf,false,none⟩,⟨11,.vt,false,some ⟨17,[],none,false⟩⟩,⟨12,.ff,false,none⟩,⟨13,.cr,false,none⟩,⟨13,.cr,true,none⟩,⟨34,.other,false,some ⟨17,[],none,false⟩⟩,⟨35,.other,false,some ⟨17,[],none,false⟩⟩,⟨37,.other,false,some ⟨17,[],none,false⟩⟩,⟨39,.other,false,some ⟨17,[],none,false⟩⟩,⟨46,.other,false,some ⟨17,[],none,false⟩⟩,⟨92,.other,false,some ⟨17,[],none,false⟩⟩,⟨123,.other,false,some ⟨17,[],none,false⟩⟩,⟨125,.other,false,some ⟨17,[],none,false⟩⟩]⟩,⟨[7],some 1,[],[⟨0,.other,false,some ⟨11,[],some 1,false⟩⟩,⟨9,.ws,false,some ⟨11,[],some 1,false⟩⟩,⟨10,.lf,false,none⟩,⟨11,.vt,false,some ⟨11,[],some 1,false⟩⟩,⟨12,.ff,false,none⟩,⟨13,.cr,false,none⟩,⟨13,.cr,true,none⟩,⟨34,.other,false,some ⟨11,[],some 1,false⟩⟩,⟨35,.other,false,some ⟨11,[],some 1,false⟩⟩,⟨37,.other,false,some ⟨11,[],some 1,false⟩⟩,⟨39,.other,false,some ⟨11,[],some 1,false⟩⟩,⟨46,.other,false,some ⟨11,[],some 1,false⟩⟩,⟨92,.other,false,some ⟨11,[],some 1,false⟩⟩,⟨123,.other,false,some ⟨11,[],some 1,false⟩⟩,⟨125,.other,false,some ⟨11,[],some 1,false⟩⟩]⟩,⟨[5],some 1,[],[⟨0,.other,false,some ⟨11,[],some 1,false⟩⟩,⟨9,.ws,false,some ⟨11,[],some 1,false⟩⟩,⟨10,.lf,false,none⟩,⟨11,.vt,false,some ⟨11,[],some 1,false⟩⟩,⟨12,.ff,false,none⟩,⟨13,.cr,false,none⟩,⟨13,.cr,true,none⟩,⟨34,.other,false,some ⟨11,[],some 1,false⟩⟩,⟨35,.other,false,some ⟨11,[],some 1,false⟩⟩,⟨37,.other,false,some ⟨11,[],some 1,false⟩⟩,⟨39,.other,false,some ⟨11,[],some 1,false⟩⟩,⟨46,.other,false,some ⟨11,[],some 1,false⟩⟩,⟨92,.other,false,some ⟨11,[],some 1,false⟩⟩,⟨123,.other,false,some ⟨11,[],some 1,false⟩⟩,⟨125,.other,false,some ⟨11,[],some 1,false⟩⟩]⟩,⟨[9],none,[],[⟨0,.other,false,some ⟨18,[.code],none,false⟩⟩,⟨9,.ws,false,some ⟨19,[],none,false⟩⟩,⟨10,.lf,false,some ⟨20,[],none,false⟩⟩,⟨11,.vt,false,some ⟨18,[.code],none,false⟩⟩,⟨12,.ff,false,some ⟨21,[],none,false⟩⟩,⟨13,.cr,false,some ⟨22,[],none,false⟩⟩,⟨13,.cr,true,some ⟨23,[],none,false⟩⟩,⟨34,.other,false,some ⟨18,[.code],none,false⟩⟩,⟨35,.other,false,some ⟨18,[.code],none,false⟩⟩,⟨37,.other,false,some ⟨24,[.code],none,false⟩⟩,⟨39,.other,false,some ⟨18,[.code],none,false⟩⟩,⟨46,.other,false,some ⟨18,[.code],none,false⟩⟩,⟨92,.other,false,some ⟨18,[.code],none,false⟩⟩,⟨123,.other,false,some ⟨18,[.code],none,false⟩⟩,⟨125,.other,false,some ⟨18,[.code],none,false⟩⟩]⟩,⟨[20],none,[],[⟨0,.other,false,some ⟨14,[],none,false⟩⟩,⟨9,.ws,false,some ⟨14,[],none,false⟩⟩,⟨10,.lf,false,none⟩,⟨11,.vt,false,some ⟨14,[],none,false⟩⟩,⟨12,.ff,false,none⟩,⟨13,.cr,false,none⟩,⟨13,.cr,true,none⟩,⟨34,.other,false,some ⟨14,[],none,false⟩⟩,⟨35,.other,false,some ⟨14,[],none,false⟩⟩,⟨37,.other,false,some ⟨14,[],none,false⟩⟩,⟨39,.other,false,some ⟨0,[],some 2,true⟩⟩,⟨46,.other,false,some ⟨14,[],none,false⟩⟩,⟨92,.other,false,some ⟨15,[],none,false⟩⟩,⟨123,.other,false,some ⟨14,[],none,false⟩⟩,⟨125,.other,false,some ⟨14,[],none,false⟩⟩]⟩,⟨[21],none,[],[⟨0,.other,false,some ⟨25,[],none,false⟩⟩,⟨9,.ws,false,some ⟨25,[],none,false⟩⟩,⟨10,.lf,false,none⟩,⟨11,.vt,false,some ⟨25,[],none,false⟩⟩,⟨12,.ff,false,none⟩,⟨13,.cr,false,none⟩,⟨13,.cr,true,none⟩,⟨34,.other,false,some ⟨25,[],none,false⟩⟩,⟨35,.other,false,some ⟨25,[],none,false⟩⟩,⟨37,.other,false,some ⟨25,[],none,false⟩⟩,⟨39,.other,false,some ⟨25,[],none,false⟩⟩,⟨46,.other,false,some ⟨25,[],none,false⟩⟩,⟨92,.other,false,some ⟨25,[],none,false⟩⟩,⟨123,.other,false,some ⟨25,[],none,false⟩⟩,⟨125,.other,false,some ⟨25,[],none,false⟩⟩]⟩,⟨[3],none,[],[⟨0,.other,false,none⟩,⟨9,.ws,false,none⟩,⟨10,.lf,false,none⟩,⟨11,.vt,false,none⟩,⟨12,.ff,false,none⟩,⟨13,.cr,false,none⟩,⟨13,.cr,true,none⟩,⟨34,.other,false,none⟩,⟨35,.other,false,none⟩,⟨37,.other,false,none⟩,⟨39,.other,false,none⟩,⟨46,.other,false,some ⟨26,[],none,false⟩⟩,⟨92,.other,false,none⟩,⟨123,.other,false,none⟩,⟨125,.other,false,none⟩]⟩,⟨[27],none,[],[⟨0,.other,false,some ⟨9,[],none,false⟩⟩,⟨9,.ws,false,some ⟨9,[],none,false⟩⟩,⟨10,.lf,false,none⟩,⟨11,.vt,false,some ⟨9,[],none,false⟩⟩,⟨12,.ff,false,none⟩,⟨13,.cr,false,none⟩,⟨13,.cr,true,none⟩,⟨34,.other,false,some ⟨0,[],some 2,true⟩⟩,⟨35,.other,false,some ⟨9,[],none,false⟩⟩,⟨37,.other,false,some ⟨9,[],none,false⟩⟩,⟨39,.other,false,some ⟨9,[],none,false⟩⟩,⟨46,.other,false,some ⟨9,[],none,false⟩⟩,⟨92,.other,false,some ⟨10,[],none,false⟩⟩,⟨123,.other,false,some ⟨9,[],none,false⟩⟩,⟨125,.other,false,some ⟨9,[],none,false⟩⟩]⟩,⟨[16],none,[],[⟨0,.other,false,some ⟨18,[.code],none,false⟩⟩,⟨9,.ws,false,some ⟨19,[],none,false⟩⟩,⟨10,.lf,false,some ⟨20,[],none,false⟩⟩,⟨11,.vt,false,some ⟨18,[.code],none,false⟩⟩,⟨12,.ff,false,some ⟨21,[],none,false⟩⟩,⟨13,.cr,false,some ⟨22,[],none,false⟩⟩,⟨13,.cr,true,some ⟨23,[],none,false⟩⟩,⟨34,.other,false,some ⟨18,[.code],none,false⟩⟩,⟨35,.other,false,some ⟨18,[.code],none,false⟩⟩,⟨37,.other,false,some ⟨24,[.code],none,false⟩⟩,⟨39,.other,false,some ⟨18,[.code],none,false⟩⟩,⟨46,.other,false,some ⟨18,[.code],none,false⟩⟩,⟨92,.other,false,some ⟨18,[.code],none,false⟩⟩,⟨123,.other,false,some ⟨18,[.code],none,false⟩⟩,⟨125,.other,false,some ⟨18,[.code],none,false⟩⟩]⟩,⟨[15],none,[],[⟨0,.other,false,some ⟨18,[.code],none,false⟩⟩,⟨9,.ws,false,some ⟨19,[],none,false⟩⟩,⟨10,.lf,false,some ⟨20,[],none,false⟩⟩,⟨11,.vt,false,some ⟨18,[.code],none,false⟩⟩,⟨12,.ff,false,some ⟨21,[],none,false⟩⟩,⟨13,.cr,false,some ⟨22,[],none,false⟩⟩,⟨13,.cr,true,some ⟨23,[],none,false⟩⟩,⟨34,.other,false,some ⟨18,[.code],none,false⟩⟩,⟨35,.other,false,some ⟨18,[.code],none,false⟩⟩,⟨37,.other,false,some ⟨24,[.code],none,false⟩⟩,⟨39,.other,false,some ⟨18,[.code],none,false⟩⟩,⟨46,.other,false,some ⟨18,[.code],none,false⟩⟩,⟨92,.other,false,some ⟨18,[.code],none,false⟩⟩,⟨123,.other,false,some ⟨18,[.code],none,false⟩⟩,⟨125,.other,false,some ⟨18,[.code],none,false⟩⟩]⟩,⟨[12],none,[],[⟨0,.other,false,some ⟨18,[.setEnt .internalNl,.cb,.code],none,false⟩⟩,⟨9,.ws,false,some ⟨19,[.setEnt .internalNl,.cb],none,false⟩⟩,⟨10,.lf,false,some ⟨20,[.setEnt .internalNl,.cb],none,false⟩⟩,⟨11,.vt,false,some ⟨18,[.setEnt .internalNl,.cb,.code],none,false⟩⟩,⟨12,.ff,false,some ⟨21,[.setEnt .internalNl,.cb],none,false⟩⟩,⟨13,.cr,false,some ⟨22,[.setEnt .internalNl,.cb],none,false⟩⟩,⟨13,.cr,true,some ⟨23,[.setEnt .internalNl,.cb],none,false⟩⟩,⟨34,.other,false,some ⟨18,[.setEnt .internalNl,.cb,.code],none,false⟩⟩,⟨35,.other,false,some ⟨18,[.setEnt .internalNl,.cb,.code],none,false⟩⟩,⟨37,.other,false,some ⟨24,[.setEnt .internalNl,.cb,.code],none,false⟩⟩,⟨39,.other,false,some ⟨18,[.setEnt .internalNl,.cb,.code],none,false⟩⟩,⟨46,.other,false,some ⟨18,[.setEnt .internalNl,.cb,.code],none,false⟩⟩,⟨92,.other,false,some ⟨18,[.setEnt .internalNl,.cb,.code],none,false⟩⟩,⟨123,.other,false,some ⟨18,[.setEnt .internalNl,.cb,.code],none,false⟩⟩,⟨125,.other,false,some ⟨18,[.setEnt .internalNl,.cb,.code],none,false⟩⟩]⟩,⟨[13],none,[],[⟨0,.other,false,some ⟨18,[.setEnt .internalNl,.cb,.code],none,false⟩⟩,⟨9,.ws,false,some ⟨19,[.setEnt .internalNl,.cb],none,false⟩⟩,⟨10,.lf,false,some ⟨20,[.setEnt .internalNl,.cb],none,false⟩⟩,⟨11,.vt,false,some ⟨18,[.setEnt .internalNl,.cb,.code],none,false⟩⟩,⟨12,.ff,false,some ⟨21,[.setEnt .internalNl,.cb],none,false⟩⟩,⟨13,.cr,false,some ⟨22,[.setEnt .internalNl,.cb],none,false⟩⟩,⟨13,.cr,true,some ⟨23,[.setEnt .internalNl,.cb],none,false⟩⟩,⟨34,.other,false,some ⟨18,[.setEnt .internalNl,.cb,.code],none,false⟩⟩,⟨35,.other,false,some ⟨18,[.setEnt .internalNl,.cb,.code],none,false⟩⟩,⟨37,.other,false,some ⟨24,[.setEnt .internalNl,.cb,.code],none,false⟩⟩,⟨39,.other,false,some ⟨18,[.setEnt .internalNl,.cb,.code],none,false⟩⟩,⟨46,.other,false,some ⟨18,[.setEnt .internalNl,.cb,.code],none,false⟩⟩,⟨92,.other,false,some ⟨18,[.setEnt .internalNl,.cb,.code],none,false⟩⟩,⟨123,.other,false,some ⟨18,[.setEnt .internalNl,.cb,.code],none,false⟩⟩,⟨125,.other,false,some ⟨18,[.setEnt .internalNl,.cb,.code],none,false⟩⟩]⟩,⟨[10],none,[],[⟨0,.other,false,none⟩,⟨9,.ws,false,none⟩,⟨10,.lf,false,some ⟨27,[],none,false⟩⟩,⟨11,.vt,false,none⟩,⟨12,.ff,false,none⟩,⟨13,.cr,false,none⟩,⟨13,.cr,true,none⟩,⟨34,.other,false,none⟩,⟨35,.other,false,none⟩,⟨37,.other,false,none⟩,⟨39,.other,false,none⟩,⟨46,.other,false,none⟩,⟨92,.other,false,none⟩,⟨123,.other,false,none⟩,⟨125,.other,false,none⟩]⟩,⟨[10,14],none,[],[⟨0,.other,false,some ⟨18,[.setEnt .internalNl,.cb,.code],none,false⟩⟩,⟨9,.ws,false,some ⟨19,[.setEnt .internalNl,.cb],none,false⟩⟩,⟨10,.lf,false,some ⟨28,[.setEnt .internalNl,.cb],none,false⟩⟩,⟨11,.vt,false,some ⟨18,[.setEnt .internalNl,.cb,.code],none,false⟩⟩,⟨12,.ff,false,some ⟨21,[.setEnt .internalNl,.cb],none,false⟩⟩,⟨13,.cr,false,some ⟨22,[.setEnt .internalNl,.cb],none,false⟩⟩,⟨13,.cr,true,some ⟨23,[.setEnt .internalNl,.cb],none,false⟩⟩,⟨34,.other,false,some ⟨18,[.setEnt .internalNl,.cb,.code],none,false⟩⟩,⟨35,.other,false,some ⟨18,[.setEnt .internalNl,.cb,.code],none,false⟩⟩,⟨37,.other,false,some ⟨24,[.setEnt .internalNl,.cb,.code],none,false⟩⟩,⟨39,.other,false,some ⟨18,[.setEnt .internalNl,.cb,.code],none,false⟩⟩,⟨46,.other,false,some ⟨18,[.setEnt .internalNl,.cb,.code],none,false⟩⟩,⟨92,.other,false,some ⟨18,[.setEnt .internalNl,.cb,.code],none,false⟩⟩,⟨123,.other,false,some ⟨18,[.setEnt .internalNl,.cb,.code],none,false⟩⟩,⟨125,.other,false,some ⟨18,[.setEnt .internalNl,.cb,.code],none,false⟩⟩]⟩,⟨[16,17],none,[],[⟨0,.other,false,some ⟨18,[.code],none,false⟩⟩,⟨9,.ws,false,some ⟨19,[],none,false⟩⟩,⟨10,.lf,false,some ⟨20,[],none,false⟩⟩,⟨11,.vt,false,some ⟨18,[.code],none,false⟩⟩,⟨12,.ff,false,some ⟨21,[],none,false⟩⟩,⟨13,.cr,false,some ⟨22,[],none,false⟩⟩,⟨13,.cr,true,some ⟨23,[],none,false⟩⟩,⟨34,.other,false,some ⟨18,[.code],none,false⟩⟩,⟨35,.other,false,some ⟨18,[.code],none,false⟩⟩,⟨37,.other,false,some ⟨24,[.code],none,false⟩⟩,⟨39,.other,false,some ⟨18,[.code],none,false⟩⟩,⟨46,.other,false,some ⟨18,[.code],none,false⟩⟩,⟨92,.other,false,some ⟨18,[.code],none,false⟩⟩,⟨123,.other,false,some ⟨18,[.code],none,false⟩⟩,⟨125,.other,false,some ⟨0,[],some 1,true⟩⟩]⟩,⟨[22],none,[],[⟨0,.other,false,some ⟨14,[],none,false⟩⟩,⟨9,.ws,false,some ⟨14,[],none,false⟩⟩,⟨10,.lf,false,none⟩,⟨11,.vt,false,some ⟨14,[],none,false⟩⟩,⟨12,.ff,false,none⟩,⟨13,.cr,false,none⟩,⟨13,.cr,true,none⟩,⟨34,.other,false,some ⟨14,[],none,false⟩⟩,⟨35,.other,false,some ⟨14,[],none,false⟩⟩,⟨37,.other,false,some ⟨14,[],none,false⟩⟩,⟨39,.other,false,some ⟨0,[],some 2,true⟩⟩,⟨46,.other,false,some ⟨14,[],none,false⟩⟩,⟨92,.other,false,some ⟨15,[],none,false⟩⟩,⟨123,.other,false,some ⟨14,[],none,false⟩⟩,⟨125,.other,false,some ⟨14,[],none,false⟩⟩]⟩,⟨[4],none,[],[⟨0,.other,false,some ⟨12,[.fhold 0,.comment],some 1,false⟩⟩,⟨9,.ws,false,some ⟨12,[.fhold 0,.comment],some 1,false⟩⟩,⟨10,.lf,false,some ⟨12,[.fhold 0,.comment],some 1,false⟩⟩,⟨11,.vt,false,some ⟨12,[.fhold 0,.comment],some 1,false⟩⟩,⟨12,.ff,false,some ⟨12,[.fhold 0,.comment],some 1,false⟩⟩,⟨13,.cr,false,some ⟨12,[.fhold 0,.comment],some 1,false⟩⟩,⟨13,.cr,true,some ⟨12,[.fhold 0,.comment],some 1,false⟩⟩,⟨34,.other,false,some ⟨12,[.fhold 0,.comment],some 1,false⟩⟩,⟨35,.other,false,some ⟨12,[.fhold 0,.comment],some 1,false⟩⟩,⟨37,.other,false,some ⟨12,[.fhold 0,.comment],some 1,false⟩⟩,⟨39,.other,false,some ⟨12,[.fhold 0,.comment],some 1,false⟩⟩,⟨46,.other,false,some ⟨12,[.fhold 0,.comment],some 1,false⟩⟩,⟨92,.other,false,some ⟨12,[.fhold 0,.comment],some 1,false⟩⟩,⟨123,.other,false,none⟩,⟨125,.other,false,some ⟨12,[.fhold 0,.comment],some 1,false⟩⟩]⟩,⟨[11],none,[],[⟨0,.other,false,some ⟨18,[.setEnt .internalNl,.cb,.code],none,false⟩⟩,⟨9,.ws,false,some ⟨19,[.setEnt .internalNl,.cb],none,false⟩⟩,⟨10,.lf,false,some ⟨20,[.setEnt .internalNl,.cb],none,false⟩⟩,⟨11,.vt,false,some ⟨18,[.setEnt .internalNl,.cb,.code],none,false⟩⟩,⟨12,.ff,false,some ⟨21,[.setEnt .internalNl,.cb],none,false⟩⟩,⟨13,.cr,false,some ⟨22,[.setEnt .internalNl,.cb],none,false⟩⟩,⟨13,.cr,true,some ⟨23,[.setEnt .internalNl,.cb],none,false⟩⟩,⟨34,.other,false,some ⟨18,[.setEnt .internalNl,.cb,.code],none,false⟩⟩,⟨35,.other,false,some ⟨18,[.setEnt .internalNl,.cb,.code],none,false⟩⟩,⟨37,.other,false,some ⟨24,[.setEnt .internalNl,.cb,.code],none,false⟩⟩,⟨39,.other,false,some ⟨18,[.setEnt .internalNl,.cb,.code],none,false⟩⟩,⟨46,.other,false,some ⟨18,[.setEnt .internalNl,.cb,.code],none,false⟩⟩,⟨92,.other,false,some ⟨18,[.setEnt .internalNl,.cb,.code],none,false⟩⟩,⟨123,.other,false,some ⟨18,[.setEnt .internalNl,.cb,.code],none,false⟩⟩,⟨125,.other,false,some ⟨18,[.setEnt .internalNl,.cb,.code],none,false⟩⟩]⟩,⟨[11,12],none,[],[⟨0,.other,false,some ⟨18,[.setEnt .internalNl,.cb,.code],none,false⟩⟩,⟨9,.ws,false,some ⟨19,[.setEnt .internalNl,.cb],none,false⟩⟩,⟨10,.lf,false,some ⟨20,[.setEnt .internalNl,.cb],none,false⟩⟩,⟨11,.vt,false,some ⟨18,[.setEnt .internalNl,.cb,.code],none,false⟩⟩,⟨12,.ff,false,some ⟨21,[.setEnt .internalNl,.cb],none,false⟩⟩,⟨13,.cr,false,some ⟨22,[.setEnt .internalNl,.cb],none,false⟩⟩,⟨13,.cr,true,some ⟨23,[.setEnt .internalNl,.cb],none,false⟩⟩,⟨34,.other,false,some ⟨18,[.setEnt .internalNl,.cb,.code],none,false⟩⟩,⟨35,.other,false,some ⟨18,[.setEnt .internalNl,.cb,.code],none,false⟩⟩,⟨37,.other,false,some ⟨24,[.setEnt .internalNl,.cb,.code],none,false⟩⟩,⟨39,.other,false,some ⟨18,[.setEnt .internalNl,.cb,.code],none,false⟩⟩,⟨46,.other,false,some ⟨18,[.setEnt .internalNl,.cb,.code],none,false⟩⟩,⟨92,.other,false,some ⟨18,[.setEnt .internalNl,.cb,.code],none,false⟩⟩,⟨123,.other,false,some ⟨18,[.setEnt .internalNl,.cb,.code],none,false⟩⟩,⟨125,.other,false,some ⟨18,[.setEnt .internalNl,.cb,.code],none,false⟩⟩]⟩]
theorem octave_line_rowsOk : rowsOk octave_line_nfa [] (octave_line_cs.map (·.1)) octave_line_rows = true := by decide +kernel
def octave_line_D : Dfa octave_line_M.nfa := ⟨octave_line_masks, [], octave_line_cs, octave_line_rows, octave_line_masksIn, octave_line_repOk, octave_line_rowsOk⟩

def postscript_line_nfa : Nfa := ⟨[⟨0,4294967808,[],[(0,.setEnt (.own 0))],0,0⟩,⟨1,137438953472,[],[(1,.comment)],0,0⟩,⟨3,1099511627776,[],[(2,.code)],0,0⟩,⟨6,8192,[],[(3,.setEnt .newline)],0,0⟩,⟨8,1024,[],[(3,.setEnt .newline)],0,0⟩,⟨9,4096,[],[(3,.setEnt .newline)],0,0⟩,⟨10,8192,[.crAlone],[(3,.setEnt .newline)],0,0⟩,⟨11,115792089237316195423570985008687907853269984665640564039457584007908834656767,[],[(4,.setEnt (.own 3))],0,0⟩],[[⟨0,4294967808,[],[(0,.setEnt (.own 0))],0,0⟩],[⟨2,115792089237316195423570985008687907853269984665640564039457584007913129626623,[],[],0,0⟩],[⟨2,115792089237316195423570985008687907853269984665640564039457584007913129626623,[],[],0,0⟩],[⟨4,115792089237316195423570985008687907853269984665640564039457584007913129626623,[],[],0,0⟩,⟨5,2199023255552,[],[],0,0⟩],[⟨4,115792089237316195423570985008687907853269984665640564039457584007913129626623,[],[],0,0⟩,⟨5,2199023255552,[],[],0,0⟩],[],[⟨7,1024,[],[(3,.setEnt .newline)],0,0⟩],[],[],[],[],[]],[some (0,[]),some (1,[]),some (1,[]),none,none,some (2,[]),none,some (3,[]),some (3,[]),some (3,[]),some (3,[]),some (4,[])],[1,2,3,4,5]⟩
theorem postscript_line_nfa_eq : Postscript.postscript_line.nfa = postscript_line_nfa := by decide +kernel
/-- The machine of `Postscript.postscript_line`, with its automaton as a literal. -/
def postscript_line_M : Machine := ⟨postscript_line_nfa, Postscript.postscript_line.ends, Postscript.postscript_line.sw⟩
theorem postscript_line_M_eq : Postscript.postscript_line.machine = postscript_line_M := by
  unfold Scanner.machine postscript_line_M; rw [postscript_line_nfa_eq]
def postscript_line_masks : List Nat := [4294967808,137438953472,1099511627776,8192,1024,4096,115792089237316195423570985008687907853269984665640564039457584007908834656767,115792089237316195423570985008687907853269984665640564039457584007913129626623,2199023255552]
def postscript_line_cs : List (Nat × Nat) := [(0,115792089237316195423570985008687907853269984665640564039457584004472860819967),(9,4294967808),(10,1024),(11,2048),(12,4096),(13,8192),(37,137438953472),(40,1099511627776),(41,2199023255552)]
theorem postscript_line_masksIn : masksIn postscript_line_nfa postscript_line_masks = true := by decide +kernel
theorem postscript_line_repOk : repOk postscript_line_masks postscript_line_cs = true := by decide +kernel
def postscript_line_rows : List Row := [⟨[],none,[],[⟨256,.other,false,some ⟨0,[.setEnt (.own 3)],some 4,true⟩⟩,⟨256,.ws,false,some ⟨1,[.setEnt (.own 0)],some 0,false⟩⟩,⟨256,.lf,false,some ⟨0,[.setEnt .newline],some 3,true⟩⟩,⟨256,.vt,false,none⟩,⟨256,.ff,false,some ⟨0,[.setEnt .newline],some 3,true⟩⟩,⟨256,.cr,false,some ⟨2,[.setEnt .newline],none,false⟩⟩,⟨256,.cr,true,some ⟨3,[.setEnt .newline],some 3,false⟩⟩,⟨256,.other,false,some ⟨4,[.comment,.setEnt (.own 3)],some 1,false⟩⟩,⟨256,.other,false,some ⟨5,[.code,.setEnt (.own 3)],some 4,false⟩⟩]⟩,⟨[0],some 0,[],[⟨256,.other,false,none⟩,⟨256,.ws,false,some ⟨1,[.setEnt (.own 0)],some 0,false⟩⟩,⟨256,.lf,false,none⟩,⟨256,.vt,false,none⟩,⟨256,.ff,false,none⟩,⟨256,.cr,false,none⟩,⟨256,.cr,true,none⟩]⟩,⟨[6],none,[],[⟨256,.other,false,none⟩,⟨256,.ws,false,none⟩,⟨256,.lf,false,some ⟨0,[.setEnt .newline],some 3,true⟩⟩,⟨256,.vt,false,none⟩,⟨256,.ff,false,none⟩,⟨256,.cr,false,none⟩,⟨256,.cr,true,none⟩]⟩,⟨[6,10],some 3,[],[⟨256,.other,false,none⟩,⟨256,.ws,false,none⟩,⟨256,.lf,false,some ⟨0,[.setEnt .newline],some 3,true⟩⟩,⟨256,.vt,false,none⟩,⟨256,.ff,false,none⟩,⟨256,.cr,false,none⟩,⟨256,.cr,true,none⟩]⟩,⟨[1,11],some 1,[],[⟨256,.other,false,some ⟨6,[],some 1,false⟩⟩,⟨256,.ws,false,some ⟨6,[],some 1,false⟩⟩,⟨256,.lf,false,none⟩,⟨256,.vt,false,some ⟨6,[],some 1,false⟩⟩,⟨256,.ff,false,none⟩,⟨256,.cr,false,none⟩,⟨256,.cr,true,none⟩]⟩,⟨[3,11],some 4,[],[⟨256,.other,false,some ⟨7,[],none,false⟩⟩,⟨256,.ws,false,some ⟨7,[],none,false⟩⟩,⟨256,.lf,false,none⟩,⟨256,.vt,false,some ⟨7,[],none,false⟩⟩,⟨256,.ff,false,none⟩,⟨256,.cr,false,none⟩,⟨256,.cr,true,none⟩,⟨256,.other,false,some ⟨8,[],some 2,false⟩⟩]⟩,⟨[2],some 1,[],[⟨256,.other,false,some ⟨6,[],some 1,false⟩⟩,⟨256,.ws,false,some ⟨6,[],some 1,false⟩⟩,⟨256,.lf,false,none⟩,⟨256,.vt,false,some ⟨6,[],some 1,false⟩⟩,⟨256,.ff,false,none⟩,⟨256,.cr,false,none⟩,⟨256,.cr,true,none⟩]⟩,⟨[4],none,[],[⟨256,.other,false,some ⟨7,[],none,false⟩⟩,⟨256,.ws,false,some ⟨7,[],none,false⟩⟩,⟨256,.lf,false,none⟩,⟨256,.vt,false,some ⟨7,[],none,false⟩⟩,⟨256,.ff,false,none⟩,⟨256,.cr,false,none⟩,⟨256,.cr,true,none⟩,⟨256,.other,false,some ⟨8,[],some 2,false⟩⟩]⟩,⟨[4,5],some 2,[],[⟨256,.other,false,some ⟨7,[],none,false⟩⟩,⟨256,.ws,false,some ⟨7,[],none,false⟩⟩,⟨256,.lf,false,none⟩,⟨256,.vt,false,some ⟨7,[],none,false⟩⟩,⟨256,.ff,false,none⟩,⟨256,.cr,false,none⟩,⟨256,.cr,true,none⟩,⟨256,.other,false,some ⟨8,[],some 2,false⟩⟩]⟩]
theorem postscript_line_rowsOk : rowsOk postscript_line_nfa [] (postscript_line_cs.map (·.1)) postscript_line_rows = true := by decide +kernel
def postscript_line_D : Dfa postscript_line_M.nfa := ⟨postscript_line_masks, [], postscript_line_cs, postscript_line_rows, postscript_line_masksIn, postscript_line_repOk, postscript_line_rowsOk⟩

def umple_line_nfa : Nfa := ⟨[⟨0,4294967808,[],[(0,.setEnt (.own 0))],0,0⟩,⟨1,140737488355328,[],[],0,0⟩,⟨4,140737488355328,[],[],0,2⟩,⟨15,549755813888,[],[(6,.code)],0,0⟩,⟨20,17179869184,[],[(7,.code)],0,0⟩,⟨25,8192,[],[(8,.setEnt .newline)],0,0⟩,⟨27,1024,[],[(8,.setEnt .newline)],0,0⟩,⟨28,4096,[],[(8,.setEnt .newline)],0,0⟩,⟨29,8192,[.crAlone],[(8,.setEnt .newline)],0,0⟩,⟨30,115792089237316195423570985008687907853269984665640564039457584007908834656767,[],[(9,.setEnt (.own 7))],0,0⟩],[[⟨0,4294967808,[],[(0,.setEnt (.own 0))],0,0⟩],[⟨2,140737488355328,[],[(1,.comment)],0,0⟩],[⟨3,115792089237316195423570985008687907853269984665640564039457584007913129626623,[],[],0,0⟩],[⟨3,115792089237316195423570985008687907853269984665640564039457584007913129626623,[],[],0,0⟩],[⟨5,4398046511104,[],[(2,.comment)],0,2⟩],[⟨6,8192,[],[],0,2⟩,⟨8,1024,[],[],0,2⟩,⟨9,4096,[],[],0,2⟩,⟨10,8192,[.crAlone],[],0,2⟩,⟨11,4294967808,[],[],0,2⟩,⟨12,115792089237316195423570985008687907853269984665640564039457584007908834658815,[],[(5,.comment)],0,2⟩,⟨13,4398046511104,[],[],0,2⟩],[⟨7,1024,[],[],0,2⟩],[⟨6,8192,[],[(3,.setEnt .internalNl),(4,.cb)],0,2⟩,⟨8,1024,[],[(3,.setEnt .internalNl),(4,.cb)],0,2⟩,⟨9,4096,[],[(3,.setEnt .internalNl),(4,.cb)],0,2⟩,⟨10,8192,[.crAlone],[(3,.setEnt .internalNl),(4,.cb)],0,2⟩,⟨11,4294967808,[],[(3,.setEnt .internalNl),(4,.cb)],0,2⟩,⟨12,115792089237316195423570985008687907853269984665640564039457584007908834658815,[],[(3,.setEnt .internalNl),(4,.cb),(5,.comment)],0,2⟩,⟨13,4398046511104,[],[(3,.setEnt .internalNl),(4,.cb)],0,2⟩],[⟨6,8192,[],[(3,.setEnt .internalNl),(4,.cb)],0,2⟩,⟨8,1024,[],[(3,.setEnt .internalNl),(4,.cb)],0,2⟩,⟨9,4096,[],[(3,.setEnt .internalNl),(4,.cb)],0,2⟩,⟨10,8192,[.crAlone],[(3,.setEnt .internalNl),(4,.cb)],0,2⟩,⟨11,4294967808,[],[(3,.setEnt .internalNl),(4,.cb)],0,2⟩,⟨12,115792089237316195423570985008687907853269984665640564039457584007908834658815,[],[(3,.setEnt .internalNl),(4,.cb),(5,.comment)],0,2⟩,⟨13,4398046511104,[],[(3,.setEnt .internalNl),(4,.cb)],0,2⟩],[⟨6,8192,[],[(3,.setEnt .internalNl),(4,.cb)],0,2⟩,⟨8,1024,[],[(3,.setEnt .internalNl),(4,.cb)],0,2⟩,⟨9,4096,[],[(3,.setEnt .internalNl),(4,.cb)],0,2⟩,⟨10,8192,[.crAlone],[(3,.setEnt .internalNl),(4,.cb)],0,2⟩,⟨11,4294967808,[],[(3,.setEnt .internalNl),(4,.cb)],0,2⟩,⟨12,115792089237316195423570985008687907853269984665640564039457584007908834658815,[],[(3,.setEnt .internalNl),(4,.cb),(5,.comment)],0,2⟩,⟨13,4398046511104,[],[(3,.setEnt .internalNl),(4,.cb)],0,2⟩],[⟨6,8192,[],[(3,.setEnt .internalNl),(4,.cb)],0,2⟩,⟨8,1024,[],[(3,.setEnt .internalNl),(4,.cb)],0,2⟩,⟨9,4096,[],[(3,.setEnt .internalNl),(4,.cb)],0,2⟩,⟨10,8192,[.crAlone],[(3,.setEnt .internalNl),(4,.cb)],0,2⟩,⟨11,4294967808,[],[(3,.setEnt .internalNl),(4,.cb)],0,2⟩,⟨12,115792089237316195423570985008687907853269984665640564039457584007908834658815,[],[(3,.setEnt .internalNl),(4,.cb),(5,.comment)],0,2⟩,⟨13,4398046511104,[],[(3,.setEnt .internalNl),(4,.cb)],0,2⟩],[⟨6,8192,[],[],0,2⟩,⟨8,1024,[],[],0,2⟩,⟨9,4096,[],[],0,2⟩,⟨10,8192,[.crAlone],[],0,2⟩,⟨11,4294967808,[],[],0,2⟩,⟨12,115792089237316195423570985008687907853269984665640564039457584007908834658815,[],[(5,.comment)],0,2⟩,⟨13,4398046511104,[],[],0,2⟩],[⟨6,8192,[],[],0,2⟩,⟨8,1024,[],[],0,2⟩,⟨9,4096,[],[],0,2⟩,⟨10,8192,[.crAlone],[],0,2⟩,⟨11,4294967808,[],[],0,2⟩,⟨12,115792089237316195423570985008687907853269984665640564039457584007908834658815,[],[(5,.comment)],0,2⟩,⟨13,4398046511104,[],[],0,2⟩],[⟨14,140737488355328,[],[],2,0⟩],[],[⟨16,115792089237316195423570985008687907853269984665635612279300442486263777315839,[],[],0,0⟩,⟨17,4951760157141521099596496896,[],[],0,0⟩,⟨19,549755813888,[],[],0,0⟩],[⟨16,115792089237316195423570985008687907853269984665635612279300442486263777315839,[],[],0,0⟩,⟨17,4951760157141521099596496896,[],[],0,0⟩,⟨19,549755813888,[],[],0,0⟩],[⟨18,115792089237316195423570985008687907853269984665640564039457584007913129626623,[],[],0,0⟩],[⟨16,115792089237316195423570985008687907853269984665635612279300442486263777315839,[],[],0,0⟩,⟨17,4951760157141521099596496896,[],[],0,0⟩,⟨19,549755813888,[],[],0,0⟩],[],[⟨21,115792089237316195423570985008687907853269984665635612279300442486796353260543,[],[],0,0⟩,⟨22,4951760157141521099596496896,[],[],0,0⟩,⟨24,17179869184,[],[],0,0⟩],[⟨21,115792089237316195423570985008687907853269984665635612279300442486796353260543,[],[],0,0⟩,⟨22,4951760157141521099596496896,[],[],0,0⟩,⟨24,17179869184,[],[],0,0⟩],[⟨23,115792089237316195423570985008687907853269984665640564039457584007913129626623,[],[],0,0⟩],[⟨21,115792089237316195423570985008687907853269984665635612279300442486796353260543,[],[],0,0⟩,⟨22,4951760157141521099596496896,[],[],0,0⟩,⟨24,17179869184,[],[],0,0⟩],[],[⟨26,1024,[],[(8,.setEnt .newline)],0,0⟩],[],[],[],[],[]],[some (0,[]),none,some (1,[]),some (1,[]),none,none,none,none,none,none,none,none,none,none,some (1,[]),none,none,none,none,some (2,[]),none,none,none,none,some (2,[]),none,some (3,[]),some (3,[]),some (3,[]),some (3,[]),some (4,[])],[1,6,8,9,10]⟩
theorem umple_line_nfa_eq : Umple.umple_line.nfa = umple_line_nfa := by decide +kernel
/-- The machine of `Umple.umple_line`, with its automaton as a literal. -/
def umple_line_M : Machine := ⟨umple_line_nfa, Umple.umple_line.ends, Umple.umple_line.sw⟩
theorem umple_line_M_eq : Umple.umple_line.machine = umple_line_M := by
  unfold Scanner.machine umple_line_M; rw [umple_line_nfa_eq]
def umple_line_masks : List Nat := [4294967808,140737488355328,549755813888,17179869184,8192,1024,4096,115792089237316195423570985008687907853269984665640564039457584007908834656767,115792089237316195423570985008687907853269984665640564039457584007913129626623,4398046511104,115792089237316195423570985008687907853269984665640564039457584007908834658815,115792089237316195423570985008687907853269984665635612279300442486263777315839,4951760157141521099596496896,115792089237316195423570985008687907853269984665635612279300442486796353260543]
def umple_line_cs : List (Nat × Nat) := [(0,115792089237316195423570985008687907853269984665635612279300442341106767610367),(9,4294967808),(10,1024),(11,2048),(12,4096),(13,8192),(34,17179869184),(39,549755813888),(42,4398046511104),(47,140737488355328),(92,4951760157141521099596496896)]
theorem umple_line_masksIn : masksIn umple_line_nfa umple_line_masks = true := by decide +kernel
theorem umple_line_repOk : repOk umple_line_masks umple_line_cs = true := by decide +kernel
def umple_line_rows : List Row := [⟨[],none,[],[⟨256,.other,false,some ⟨0,[.setEnt (.own 7)],some 4,true⟩⟩,⟨256,.ws,false,some ⟨1,[.setEnt (.own 0)],some 0,false⟩⟩,⟨256,.lf,false,some ⟨0,[.setEnt .newline],some 3,true⟩⟩,⟨256,.vt,false,none⟩,⟨256,.ff,false,some ⟨0,[.setEnt .newline],some 3,true⟩⟩,⟨256,.cr,false,some ⟨2,[.setEnt .newline],none,false⟩⟩,⟨256,.cr,true,some ⟨3,[.setEnt .newline],some 3,false⟩⟩,⟨256,.other,false,some ⟨4,[.code,.setEnt (.own 7)],some 4,false⟩⟩,⟨256,.other,false,some ⟨5,[.code,.setEnt (.own 7)],some 4,false⟩⟩,⟨256,.other,false,some ⟨6,[.setEnt (.own 7)],some 4,false⟩⟩]⟩,⟨[0],some 0,[],[⟨256,.other,false,none⟩,⟨256,.ws,false,some ⟨1,[.setEnt (.own 0)],some 0,false⟩⟩,⟨256,.lf,false,none⟩,⟨256,.vt,false,none⟩,⟨256,.ff,false,none⟩,⟨256,.cr,false,none⟩,⟨256,.cr,true,none⟩]⟩,⟨[25],none,[],[⟨256,.other,false,none⟩,⟨256,.ws,false,none⟩,⟨256,.lf,false,some ⟨0,[.setEnt .newline],some 3,true⟩⟩,⟨256,.vt,false,none⟩,⟨256,.ff,false,none⟩,⟨256,.cr,false,none⟩,⟨256,.cr,true,none⟩]⟩,⟨[25,29],some 3,[],[⟨256,.other,false,none⟩,⟨256,.ws,false,none⟩,⟨256,.lf,false,some ⟨0,[.setEnt .newline],some 3,true⟩⟩,⟨256,.vt,false,none⟩,⟨256,.ff,false,none⟩,⟨256,.cr,false,none⟩,⟨256,.cr,true,none⟩]⟩,⟨[20,30],some 4,[],[⟨256,.other,false,some ⟨7,[],none,false⟩⟩,⟨256,.ws,false,some ⟨7,[],none,false⟩⟩,⟨256,.lf,false,none⟩,⟨256,.vt,false,some ⟨7,[],none,false⟩⟩,⟨256,.ff,false,none⟩,⟨256,.cr,false,none⟩,⟨256,.cr,true,none⟩,⟨256,.other,false,some ⟨0,[],some 2,true⟩⟩,⟨256,.other,false,some ⟨8,[],none,false⟩⟩]⟩,⟨[15,30],some 4,[],[⟨256,.other,false,some ⟨9,[],none,false⟩⟩,⟨256,.ws,false,some ⟨9,[],none,false⟩⟩,⟨256,.lf,false,none⟩,⟨256,.vt,false,some ⟨9,[],none,false⟩⟩,⟨256,.ff,false,none⟩,⟨256,.cr,false,none⟩,⟨256,.cr,true,none⟩,⟨256,.other,false,some ⟨0,[],some 2,true⟩⟩,⟨256,.other,false,some ⟨10,[],none,false⟩⟩]⟩,⟨[1,4,30],some 4,[],[⟨256,.other,false,none⟩,⟨256,.ws,false,none⟩,⟨256,.lf,false,none⟩,⟨256,.vt,false,none⟩,⟨256,.ff,false,none⟩,⟨256,.cr,false,none⟩,⟨256,.cr,true,none⟩,⟨256,.other,false,some ⟨11,[.comment],none,false⟩⟩,⟨256,.other,false,some ⟨12,[.comment],some 1,false⟩⟩]⟩,⟨[21],none,[],[⟨256,.other,false,some ⟨7,[],none,false⟩⟩,⟨256,.ws,false,some ⟨7,[],none,false⟩⟩,⟨256,.lf,false,none⟩,⟨256,.vt,false,some ⟨7,[],none,false⟩⟩,⟨256,.ff,false,none⟩,⟨256,.cr,false,none⟩,⟨256,.cr,true,none⟩,⟨256,.other,false,some ⟨0,[],some 2,true⟩⟩,⟨256,.other,false,some ⟨8,[],none,false⟩⟩]⟩,⟨[22],none,[],[⟨256,.other,false,some ⟨13,[],none,false⟩⟩,⟨256,.ws,false,some ⟨13,[],none,false⟩⟩,⟨256,.lf,false,none⟩,⟨256,.vt,false,some ⟨13,[],none,false⟩⟩,⟨256,.ff,false,none⟩,⟨256,.cr,false,none⟩,⟨256,.cr,true,none⟩]⟩,⟨[16],none,[],[⟨256,.other,false,some ⟨9,[],none,false⟩⟩,⟨256,.ws,false,some ⟨9,[],none,false⟩⟩,⟨256,.lf,false,none⟩,⟨256,.vt,false,some ⟨9,[],none,false⟩⟩,⟨256,.ff,false,none⟩,⟨256,.cr,false,none⟩,⟨256,.cr,true,none⟩,⟨256,.other,false,some ⟨0,[],some 2,true⟩⟩,⟨256,.other,false,some ⟨10,[],none,false⟩⟩]⟩,⟨[17],none,[],[⟨256,.other,false,some ⟨14,[],none,false⟩⟩,⟨256,.ws,false,some ⟨14,[],none,false⟩⟩,⟨256,.lf,false,none⟩,⟨256,.vt,false,some ⟨14,[],none,false⟩⟩,⟨256,.ff,false,none⟩,⟨256,.cr,false,none⟩,⟨256,.cr,true,none⟩]⟩,⟨[5],none,[],[⟨256,.other,false,some ⟨15,[.comment],none,false⟩⟩,⟨256,.ws,false,some ⟨16,[],none,false⟩⟩,⟨256,.lf,false,some ⟨17,[],none,false⟩⟩,⟨256,.vt,false,some ⟨15,[.comment],none,false⟩⟩,⟨256,.ff,false,some ⟨18,[],none,false⟩⟩,⟨256,.cr,false,some ⟨19,[],none,false⟩⟩,⟨256,.cr,true,some ⟨20,[],none,false⟩⟩,⟨256,.other,false,some ⟨21,[.comment],none,false⟩⟩]⟩,⟨[2],some 1,[],[⟨256,.other,false,some ⟨22,[],some 1,false⟩⟩,⟨256,.ws,false,some ⟨22,[],some 1,false⟩⟩,⟨256,.lf,false,none⟩,⟨256,.vt,false,some ⟨22,[],some 1,false⟩⟩,⟨256,.ff,false,none⟩,⟨256,.cr,false,none⟩,⟨256,.cr,true,none⟩]⟩,⟨[23],none,[],[⟨256,.other,false,some ⟨7,[],none,false⟩⟩,⟨256,.ws,false,some ⟨7,[],none,false⟩⟩,⟨256,.lf,false,none⟩,⟨256,.vt,false,some ⟨7,[],none,false⟩⟩,⟨256,.ff,false,none⟩,⟨256,.cr,false,none⟩,⟨256,.cr,true,none⟩,⟨256,.other,false,some ⟨0,[],some 2,true⟩⟩,⟨256,.other,false,some ⟨8,[],none,false⟩⟩]⟩,⟨[18],none,[],[⟨256,.other,false,some ⟨9,[],none,false⟩⟩,⟨256,.ws,false,some ⟨9,[],none,false⟩⟩,⟨256,.lf,false,none⟩,⟨256,.vt,false,some ⟨9,[],none,false⟩⟩,⟨256,.ff,false,none⟩,⟨256,.cr,false,none⟩,⟨256,.cr,true,none⟩,⟨256,.other,false,some ⟨0,[],some 2,true⟩⟩,⟨256,.other,false,some ⟨10,[],none,false⟩⟩]⟩,⟨[12],none,[],[⟨256,.other,false,some ⟨15,[.comment],none,false⟩⟩,⟨256,.ws,false,some ⟨16,[],none,false⟩⟩,⟨256,.lf,false,some ⟨17,[],none,false⟩⟩,⟨256,.vt,false,some ⟨15,[.comment],none,false⟩⟩,⟨256,.ff,false,some ⟨18,[],none,false⟩⟩,⟨256,.cr,false,some ⟨19,[],none,false⟩⟩,⟨256,.cr,true,some ⟨20,[],none,false⟩⟩,⟨256,.other,false,some ⟨21,[.comment],none,false⟩⟩]⟩,⟨[11],none,[],[⟨256,.other,false,some ⟨15,[.comment],none,false⟩⟩,⟨256,.ws,false,some ⟨16,[],none,false⟩⟩,⟨256,.lf,false,some ⟨17,[],none,false⟩⟩,⟨256,.vt,false,some ⟨15,[.comment],none,false⟩⟩,⟨256,.ff,false,some ⟨18,[],none,false⟩⟩,⟨256,.cr,false,some ⟨19,[],none,false⟩⟩,⟨256,.cr,true,some ⟨20,[],none,false⟩⟩,⟨256,.other,false,some ⟨21,[.comment],none,false⟩⟩]⟩,⟨[8],none,[],[⟨256,.other,false,some ⟨15,[.setEnt .internalNl,.cb,.comment],none,false⟩⟩,⟨256,.ws,false,some ⟨16,[.setEnt .internalNl,.cb],none,false⟩⟩,⟨256,.lf,false,some ⟨17,[.setEnt .internalNl,.cb],none,false⟩⟩,⟨256,.vt,false,some ⟨15,[.setEnt .internalNl,.cb,.comment],none,false⟩⟩,⟨256,.ff,false,some ⟨18,[.setEnt .internalNl,.cb],none,false⟩⟩,⟨256,.cr,false,some ⟨19,[.setEnt .internalNl,.cb],none,false⟩⟩,⟨256,.cr,true,some ⟨20,[.setEnt .internalNl,.cb],none,false⟩⟩,⟨256,.other,false,some ⟨21,[.setEnt .internalNl,.cb,.comment],none,false⟩⟩]⟩,⟨[9],none,[],[⟨256,.other,false,some ⟨15,[.setEnt .internalNl,.cb,.comment],none,false⟩⟩,⟨256,.ws,false,some ⟨16,[.setEnt .internalNl,.cb],none,false⟩⟩,⟨256,.lf,false,some ⟨17,[.setEnt .internalNl,.cb],none,false⟩⟩,⟨256,.vt,false,some ⟨15,[.setEnt .internalNl,.cb,.comment],none,false⟩⟩,⟨256,.ff,false,some ⟨18,[.setEnt .internalNl,.cb],none,false⟩⟩,⟨256,.cr,false,some ⟨19,[.setEnt .internalNl,.cb],none,false⟩⟩,⟨256,.cr,true,some ⟨20,[.setEnt .internalNl,.cb],none,false⟩⟩,⟨256,.other,false,some ⟨21,[.setEnt .internalNl,.cb,.comment],none,false⟩⟩]⟩,⟨[6],none,[],[⟨256,.other,false,none⟩,⟨256,.ws,false,none⟩,⟨256,.lf,false,some ⟨23,[],none,false⟩⟩,⟨256,.vt,false,none⟩,⟨256,.ff,false,none⟩,⟨256,.cr,false,none⟩,⟨256,.cr,true,none⟩]⟩,⟨[6,10],none,[],[⟨256,.other,false,some ⟨15,[.setEnt .internalNl,.cb,.comment],none,false⟩⟩,⟨256,.ws,false,some ⟨16,[.setEnt .internalNl,.cb],none,false⟩⟩,⟨256,.lf,false,some ⟨24,[.setEnt .internalNl,.cb],none,false⟩⟩,⟨256,.vt,false,some ⟨15,[.setEnt .internalNl,.cb,.comment],none,false⟩⟩,⟨256,.ff,false,some ⟨18,[.setEnt .internalNl,.cb],none,false⟩⟩,⟨256,.cr,false,some ⟨19,[.setEnt .internalNl,.cb],none,false⟩⟩,⟨256,.cr,true,some ⟨20,[.setEnt .internalNl,.cb],none,false⟩⟩,⟨256,.other,false,some ⟨21,[.setEnt .internalNl,.cb,.comment],none,false⟩⟩]⟩,⟨[12,13],none,[],[⟨256,.other,false,some ⟨15,[.comment],none,false⟩⟩,⟨256,.ws,false,some ⟨16,[],none,false⟩⟩,⟨256,.lf,false,some ⟨17,[],none,false⟩⟩,⟨256,.vt,false,some ⟨15,[.comment],none,false⟩⟩,⟨256,.ff,false,some ⟨18,[],none,false⟩⟩,⟨256,.cr,false,some ⟨19,[],none,false⟩⟩,⟨256,.cr,true,some ⟨20,[],none,false⟩⟩,⟨256,.other,false,some ⟨21,[.comment],none,false⟩⟩,⟨256,.other,false,some ⟨0,[],some 1,true⟩⟩]⟩,⟨[3],some 1,[],[⟨256,.other,false,some ⟨22,[],some 1,false⟩⟩,⟨256,.ws,false,some ⟨22,[],some 1,false⟩⟩,⟨256,.lf,false,none⟩,⟨256,.vt,false,some ⟨22,[],some 1,false⟩⟩,⟨256,.ff,false,none⟩,⟨256,.cr,false,none⟩,⟨256,.cr,true,none⟩]⟩,⟨[7],none,[],[⟨256,.other,false,some ⟨15,[.setEnt .internalNl,.cb,.comment],none,false⟩⟩,⟨256,.ws,false,some ⟨16,[.setEnt .internalNl,.cb],none,false⟩⟩,⟨256,.lf,false,some ⟨17,[.setEnt .internalNl,.cb],none,false⟩⟩,⟨256,.vt,false,some ⟨15,[.setEnt .internalNl,.cb,.comment],none,false⟩⟩,⟨256,.ff,false,some ⟨18,[.setEnt .internalNl,.cb],none,false⟩⟩,⟨256,.cr,false,some ⟨19,[.setEnt .internalNl,.cb],none,false⟩⟩,⟨256,.cr,true,some ⟨20,[.setEnt .internalNl,.cb],none,false⟩⟩,⟨256,.other,false,some ⟨21,[.setEnt .internalNl,.cb,.comment],none,false⟩⟩]⟩,⟨[7,8],none,[],[⟨256,.other,false,some ⟨15,[.setEnt .internalNl,.cb,.comment],none,false⟩⟩,⟨256,.ws,false,some ⟨16,[.setEnt .internalNl,.cb],none,false⟩⟩,⟨256,.lf,false,some ⟨17,[.setEnt .internalNl,.cb],none,false⟩⟩,⟨256,.vt,false,some ⟨15,[.setEnt .internalNl,.cb,.comment],none,false⟩⟩,⟨256,.ff,false,some ⟨18,[.setEnt .internalNl,.cb],none,false⟩⟩,⟨256,.cr,false,some ⟨19,[.setEnt .internalNl,.cb],none,false⟩⟩,⟨256,.cr,true,some ⟨20,[.setEnt .internalNl,.cb],none,false⟩⟩,⟨256,.other,false,some ⟨21,[.setEnt .internalNl,.cb,.comment],none,false⟩⟩]⟩]
theorem umple_line_rowsOk : rowsOk umple_line_nfa [] (umple_line_cs.map (·.1)) umple_line_rows = true := by decide +kernel
def umple_line_D : Dfa umple_line_M.nfa := ⟨umple_line_masks, [], umple_line_cs, umple_line_rows, umple_line_masksIn, umple_line_repOk, umple_line_rowsOk⟩

end Ohcount.Cert
