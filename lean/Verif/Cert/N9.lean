import Verif.Gram.All
import Verif.RagelCheck

/-! Generated by tools/gen_certs.py. -/

namespace Ohcount.Cert
open Ohcount.Ragel Ohcount.Gram

set_option maxRecDepth 100000

def boo_line_nfa : Nfa := ⟨[⟨0,4294967808,[],[(0,.setEnt (.own 0))],0,0⟩,⟨1,34359738368,[],[(1,.comment)],0,0⟩,⟨2,140737488355328,[],[],0,0⟩,⟨5,140737488355328,[],[(2,.nestRes)],0,2⟩,⟨20,17179869184,[],[],0,4⟩,⟨33,549755813888,[],[],0,0⟩,⟨38,17179869184,[],[],0,0⟩,⟨46,140737488355328,[],[],0,0⟩,⟨52,8192,[],[(21,.setEnt .newline)],0,0⟩,⟨54,1024,[],[(21,.setEnt .newline)],0,0⟩,⟨55,4096,[],[(21,.setEnt .newline)],0,0⟩,⟨56,8192,[.crAlone],[(21,.setEnt .newline)],0,0⟩,⟨57,115792089237316195423570985008687907853269984665640564039457584007908834656767,[],[(22,.setEnt (.own 3))],0,0⟩],[[⟨0,4294967808,[],[(0,.setEnt (.own 0))],0,0⟩],[⟨4,115792089237316195423570985008687907853269984665640564039457584007913129626623,[],[],0,0⟩],[⟨3,140737488355328,[],[(1,.comment)],0,0⟩],[⟨4,115792089237316195423570985008687907853269984665640564039457584007913129626623,[],[],0,0⟩],[⟨4,115792089237316195423570985008687907853269984665640564039457584007913129626623,[],[],0,0⟩],[⟨6,4398046511104,[],[(3,.comment)],0,2⟩],[⟨7,8192,[],[],0,2⟩,⟨9,1024,[],[],0,2⟩,⟨10,4096,[],[],0,2⟩,⟨11,8192,[.crAlone],[],0,2⟩,⟨12,4294967808,[],[],0,2⟩,⟨13,140737488355328,[],[],0,2⟩,⟨15,4398046511104,[],[],0,2⟩,⟨17,115792089237316195423570985008687907853269984665640564039457584007908834656767,[],[(10,.comment)],0,2⟩,⟨18,4398046511104,[.nestZero],[],0,2⟩],[⟨8,1024,[],[],0,2⟩],[⟨7,8192,[],[(4,.setEnt .internalNl),(5,.cb)],0,2⟩,⟨9,1024,[],[(4,.setEnt .internalNl),(5,.cb)],0,2⟩,⟨10,4096,[],[(4,.setEnt .internalNl),(5,.cb)],0,2⟩,⟨11,8192,[.crAlone],[(4,.setEnt .internalNl),(5,.cb)],0,2⟩,⟨12,4294967808,[],[(4,.setEnt .internalNl),(5,.cb)],0,2⟩,⟨13,140737488355328,[],[(4,.setEnt .internalNl),(5,.cb)],0,2⟩,⟨15,4398046511104,[],[(4,.setEnt .internalNl),(5,.cb)],0,2⟩,⟨17,115792089237316195423570985008687907853269984665640564039457584007908834656767,[],[(4,.setEnt .internalNl),(5,.cb),(10,.comment)],0,2⟩,⟨18,4398046511104,[.nestZero],[(4,.setEnt .internalNl),(5,.cb)],0,2⟩],[⟨7,8192,[],[(4,.setEnt .internalNl),(5,.cb)],0,2⟩,⟨9,1024,[],[(4,.setEnt .internalNl),(5,.cb)],0,2⟩,⟨10,4096,[],[(4,.setEnt .internalNl),(5,.cb)],0,2⟩,⟨11,8192,[.crAlone],[(4,.setEnt .internalNl),(5,.cb)],0,2⟩,⟨12,4294967808,[],[(4,.setEnt .internalNl),(5,.cb)],0,2⟩,⟨13,140737488355328,[],[(4,.setEnt .internalNl),(5,.cb)],0,2⟩,⟨15,4398046511104,[],[(4,.setEnt .internalNl),(5,.cb)],0,2⟩,⟨17,115792089237316195423570985008687907853269984665640564039457584007908834656767,[],[(4,.setEnt .internalNl),(5,.cb),(10,.comment)],0,2⟩,⟨18,4398046511104,[.nestZero],[(4,.setEnt .internalNl),(5,.cb)],0,2⟩],[⟨7,8192,[],[(4,.setEnt .internalNl),(5,.cb)],0,2⟩,⟨9,1024,[],[(4,.setEnt .internalNl),(5,.cb)],0,2⟩,⟨10,4096,[],[(4,.setEnt .internalNl),(5,.cb)],0,2⟩,⟨11,8192,[.crAlone],[(4,.setEnt .internalNl),(5,.cb)],0,2⟩,⟨12,4294967808,[],[(4,.setEnt .internalNl),(5,.cb)],0,2⟩,⟨13,140737488355328,[],[(4,.setEnt .internalNl),(5,.cb)],0,2⟩,⟨15,4398046511104,[],[(4,.setEnt .internalNl),(5,.cb)],0,2⟩,⟨17,115792089237316195423570985008687907853269984665640564039457584007908834656767,[],[(4,.setEnt .internalNl),(5,.cb),(10,.comment)],0,2⟩,⟨18,4398046511104,[.nestZero],[(4,.setEnt .internalNl),(5,.cb)],0,2⟩],[⟨7,8192,[],[(4,.setEnt .internalNl),(5,.cb)],0,2⟩,⟨9,1024,[],[(4,.setEnt .internalNl),(5,.cb)],0,2⟩,⟨10,4096,[],[(4,.setEnt .internalNl),(5,.cb)],0,2⟩,⟨11,8192,[.crAlone],[(4,.setEnt .internalNl),(5,.cb)],0,2⟩,⟨12,4294967808,[],[(4,.setEnt .internalNl),(5,.cb)],0,2⟩,⟨13,140737488355328,[],[(4,.setEnt .internalNl),(5,.cb)],0,2⟩,⟨15,4398046511104,[],[(4,.setEnt .internalNl),(5,.cb)],0,2⟩,⟨17,115792089237316195423570985008687907853269984665640564039457584007908834656767,[],[(4,.setEnt .internalNl),(5,.cb),(10,.comment)],0,2⟩,⟨18,4398046511104,[.nestZero],[(4,.setEnt .internalNl),(5,.cb)],0,2⟩],[⟨7,8192,[],[],0,2⟩,⟨9,1024,[],[],0,2⟩,⟨10,4096,[],[],0,2⟩,⟨11,8192,[.crAlone],[],0,2⟩,⟨12,4294967808,[],[],0,2⟩,⟨13,140737488355328,[],[],0,2⟩,⟨15,4398046511104,[],[],0,2⟩,⟨17,115792089237316195423570985008687907853269984665640564039457584007908834656767,[],[(10,.comment)],0,2⟩,⟨18,4398046511104,[.nestZero],[],0,2⟩],[⟨14,4398046511104,[],[(6,.nestInc),(7,.comment)],0,2⟩],[⟨7,8192,[],[],0,2⟩,⟨9,1024,[],[],0,2⟩,⟨10,4096,[],[],0,2⟩,⟨11,8192,[.crAlone],[],0,2⟩,⟨12,4294967808,[],[],0,2⟩,⟨13,140737488355328,[],[],0,2⟩,⟨15,4398046511104,[],[],0,2⟩,⟨17,115792089237316195423570985008687907853269984665640564039457584007908834656767,[],[(10,.comment)],0,2⟩,⟨18,4398046511104,[.nestZero],[],0,2⟩],[⟨16,140737488355328,[],[(8,.nestDec),(9,.comment)],0,2⟩],[⟨7,8192,[],[],0,2⟩,⟨9,1024,[],[],0,2⟩,⟨10,4096,[],[],0,2⟩,⟨11,8192,[.crAlone],[],0,2⟩,⟨12,4294967808,[],[],0,2⟩,⟨13,140737488355328,[],[],0,2⟩,⟨15,4398046511104,[],[],0,2⟩,⟨17,115792089237316195423570985008687907853269984665640564039457584007908834656767,[],[(10,.comment)],0,2⟩,⟨18,4398046511104,[.nestZero],[],0,2⟩],[⟨7,8192,[],[],0,2⟩,⟨9,1024,[],[],0,2⟩,⟨10,4096,[],[],0,2⟩,⟨11,8192,[.crAlone],[],0,2⟩,⟨12,4294967808,[],[],0,2⟩,⟨13,140737488355328,[],[],0,2⟩,⟨15,4398046511104,[],[],0,2⟩,⟨17,115792089237316195423570985008687907853269984665640564039457584007908834656767,[],[(10,.comment)],0,2⟩,⟨18,4398046511104,[.nestZero],[],0,2⟩],[⟨19,140737488355328,[.nestZero],[(11,.comment)],2,0⟩],[],[⟨21,17179869184,[],[],0,4⟩],[⟨22,17179869184,[],[(12,.comment)],0,4⟩],[⟨23,8192,[],[],0,4⟩,⟨25,1024,[],[],0,4⟩,⟨26,4096,[],[],0,4⟩,⟨27,8192,[.crAlone],[],0,4⟩,⟨28,4294967808,[],[],0,4⟩,⟨29,115792089237316195423570985008687907853269984665640564039457584007908834658815,[],[(15,.comment)],0,4⟩,⟨30,17179869184,[],[],0,4⟩],[⟨24,1024,[],[],0,4⟩],[⟨23,8192,[],[(13,.setEnt .internalNl),(14,.cb)],0,4⟩,⟨25,1024,[],[(13,.setEnt .internalNl),(14,.cb)],0,4⟩,⟨26,4096,[],[(13,.setEnt .internalNl),(14,.cb)],0,4⟩,⟨27,8192,[.crAlone],[(13,.setEnt .internalNl),(14,.cb)],0,4⟩,⟨28,4294967808,[],[(13,.setEnt .internalNl),(14,.cb)],0,4⟩,⟨29,115792089237316195423570985008687907853269984665640564039457584007908834658815,[],[(13,.setEnt .internalNl),(14,.cb),(15,.comment)],0,4⟩,⟨30,17179869184,[],[(13,.setEnt .internalNl),(14,.cb)],0,4⟩],[⟨23,8192,[],[(13,.setEnt .internalNl),(14,.cb)],0,4⟩,⟨25,1024,[],[(13,.setEnt .internalNl),(14,.cb)],0,4⟩,⟨26,4096,[],[(13,.setEnt .internalNl),(14,.cb)],0,4⟩,⟨27,8192,[.crAlone],[(13,.setEnt .internalNl),(14,.cb)],0,4⟩,⟨28,4294967808,[],[(13,.setEnt .internalNl),(14,.cb)],0,4⟩,⟨29,115792089237316195423570985008687907853269984665640564039457584007908834658815,[],[(13,.setEnt .internalNl),(14,.cb),(15,.comment)],0,4⟩,⟨30,17179869184,[],[(13,.setEnt .internalNl),(14,.cb)],0,4⟩],[⟨23,8192,[],[(13,.setEnt .internalNl),(14,.cb)],0,4⟩,⟨25,1024,[],[(13,.setEnt .internalNl),(14,.cb)],0,4⟩,⟨26,4096,[],[(13,.setEnt .internalNl),(14,.cb)],0,4⟩,⟨27,8192,[.crAlone],[(13,.setEnt .internalNl),(14,.cb)],0,4⟩,⟨28,4294967808,[],[(13,.setEnt .internalNl),(14,.cb)],0,4⟩,⟨29,115792089237316195423570985008687907853269984665640564039457584007908834658815,[],[(13,.setEnt .internalNl),(14,.cb),(15,.comment)],0,4⟩,⟨30,17179869184,[],[(13,.setEnt .internalNl),(14,.cb)],0,4⟩],[⟨23,8192,[],[(13,.setEnt .internalNl),(14,.cb)],0,4⟩,⟨25,1024,[],[(13,.setEnt .internalNl),(14,.cb)],0,4⟩,⟨26,4096,[],[(13,.setEnt .internalNl),(14,.cb)],0,4⟩,⟨27,8192,[.crAlone],[(13,.setEnt .internalNl),(14,.cb)],0,4⟩,⟨28,4294967808,[],[(13,.setEnt .internalNl),(14,.cb)],0,4⟩,⟨29,115792089237316195423570985008687907853269984665640564039457584007908834658815,[],[(13,.setEnt .internalNl),(14,.cb),(15,.comment)],0,4⟩,⟨30,17179869184,[],[(13,.setEnt .internalNl),(14,.cb)],0,4⟩],[⟨23,8192,[],[],0,4⟩,⟨25,1024,[],[],0,4⟩,⟨26,4096,[],[],0,4⟩,⟨27,8192,[.crAlone],[],0,4⟩,⟨28,4294967808,[],[],0,4⟩,⟨29,115792089237316195423570985008687907853269984665640564039457584007908834658815,[],[(15,.comment)],0,4⟩,⟨30,17179869184,[],[],0,4⟩],[⟨23,8192,[],[],0,4⟩,⟨25,1024,[],[],0,4⟩,⟨26,4096,[],[],0,4⟩,⟨27,8192,[.crAlone],[],0,4⟩,⟨28,4294967808,[],[],0,4⟩,⟨29,115792089237316195423570985008687907853269984665640564039457584007908834658815,[],[(15,.comment)],0,4⟩,⟨30,17179869184,[],[],0,4⟩],[⟨31,17179869184,[],[],0,0⟩],[⟨32,17179869184,[],[(16,.comment)],4,0⟩],[],[⟨34,115792089237316195423570985008687907853269984665635612279300442486263777315839,[],[],0,0⟩,⟨35,4951760157141521099596496896,[],[],0,0⟩],[⟨37,549755813888,[],[(20,.code)],0,0⟩],[⟨36,115792089237316195423570985008687907853269984665640564039457584007913129626623,[],[],0,0⟩],[⟨37,549755813888,[],[(20,.code)],0,0⟩],[],[⟨39,115792089237316195423570985008687907853269984665640564039457584007895949770751,[],[(18,.fhold 1)],0,0⟩,⟨40,17179869184,[],[],0,0⟩],[⟨42,115792089237316195423570985008687907853269984665635612279300442486796353260543,[],[],0,0⟩,⟨43,4951760157141521099596496896,[],[],0,0⟩,⟨45,17179869184,[],[(20,.code)],0,0⟩],[⟨41,115792089237316195423570985008687907853269984665640564039457584007895949770751,[],[(17,.fhold 0),(18,.fhold 1)],0,0⟩],[⟨42,115792089237316195423570985008687907853269984665635612279300442486796353260543,[],[],0,0⟩,⟨43,4951760157141521099596496896,[],[],0,0⟩,⟨45,17179869184,[],[(20,.code)],0,0⟩],[⟨42,115792089237316195423570985008687907853269984665635612279300442486796353260543,[],[],0,0⟩,⟨43,4951760157141521099596496896,[],[],0,0⟩,⟨45,17179869184,[],[(20,.code)],0,0⟩],[⟨44,115792089237316195423570985008687907853269984665640564039457584007913129626623,[],[],0,0⟩],[⟨42,115792089237316195423570985008687907853269984665635612279300442486796353260543,[],[],0,0⟩,⟨43,4951760157141521099596496896,[],[],0,0⟩,⟨45,17179869184,[],[(20,.code)],0,0⟩],[],[⟨47,115792089237316195423570985008687907853269984665640564039457583862777594773503,[],[(19,.fhold 2)],0,0⟩],[⟨48,115792089237316195423570985008687907853269984665635612279300442346076044774399,[],[],0,0⟩,⟨49,4951760157141521099596496896,[],[],0,0⟩,⟨51,140737488355328,[],[(20,.code)],0,0⟩],[⟨48,115792089237316195423570985008687907853269984665635612279300442346076044774399,[],[],0,0⟩,⟨49,4951760157141521099596496896,[],[],0,0⟩,⟨51,140737488355328,[],[(20,.code)],0,0⟩],[⟨50,115792089237316195423570985008687907853269984665640564039457584007913129626623,[],[],0,0⟩],[⟨48,115792089237316195423570985008687907853269984665635612279300442346076044774399,[],[],0,0⟩,⟨49,4951760157141521099596496896,[],[],0,0⟩,⟨51,140737488355328,[],[(20,.code)],0,0⟩],[],[⟨53,1024,[],[(21,.setEnt .newline)],0,0⟩],[],[],[],[],[]],[some (0,[]),some (1,[]),none,some (1,[]),some (1,[]),none,none,none,none,none,none,none,none,none,none,none,none,none,none,some (1,[]),none,none,none,none,none,none,none,none,none,none,none,none,some (1,[]),none,none,none,none,some (2,[]),none,none,none,none,none,none,none,some (2,[]),none,none,none,none,none,some (2,[]),none,some (3,[]),some (3,[]),some (3,[]),some (3,[]),some (4,[])],[1,17,21,22,23]⟩
theorem boo_line_nfa_eq : Boo.boo_line.nfa = boo_line_nfa := by decide +kernel
/-- The machine of `Boo.boo_line`, with its automaton as a literal. -/
def boo_line_M : Machine := ⟨boo_line_nfa, Boo.boo_line.ends, Boo.boo_line.sw⟩
theorem boo_line_M_eq : Boo.boo_line.machine = boo_line_M := by
  unfold Scanner.machine boo_line_M; rw [boo_line_nfa_eq]
def boo_line_masks : List Nat := [4294967808,34359738368,140737488355328,17179869184,549755813888,8192,1024,4096,115792089237316195423570985008687907853269984665640564039457584007908834656767,115792089237316195423570985008687907853269984665640564039457584007913129626623,4398046511104,115792089237316195423570985008687907853269984665640564039457584007908834658815,115792089237316195423570985008687907853269984665635612279300442486263777315839,4951760157141521099596496896,115792089237316195423570985008687907853269984665640564039457584007895949770751,115792089237316195423570985008687907853269984665635612279300442486796353260543,115792089237316195423570985008687907853269984665640564039457583862777594773503,115792089237316195423570985008687907853269984665635612279300442346076044774399]
def boo_line_cs : List (Nat × Nat) := [(0,115792089237316195423570985008687907853269984665635612279300442341072407871999),(9,4294967808),(10,1024),(11,2048),(12,4096),(13,8192),(34,17179869184),(35,34359738368),(39,549755813888),(42,4398046511104),(47,140737488355328),(92,4951760157141521099596496896)]
theorem boo_line_masksIn : masksIn boo_line_nfa boo_line_masks = true := by decide +kernel
theorem boo_line_repOk : repOk boo_line_masks boo_line_cs = true := by decide +kernel
def boo_line_rows : List Row := [⟨[],none,[],[⟨0,.other,false,some ⟨0,[.setEnt (.own 3)],some 4,true⟩⟩,⟨9,.ws,false,some ⟨1,[.setEnt (.own 0)],some 0,false⟩⟩,⟨10,.lf,false,some ⟨0,[.setEnt .newline],some 3,true⟩⟩,⟨11,.vt,false,none⟩,⟨12,.ff,false,some ⟨0,[.setEnt .newline],some 3,true⟩⟩,⟨13,.cr,false,some ⟨2,[.setEnt .newline],none,false⟩⟩,⟨13,.cr,true,some ⟨3,[.setEnt .newline],some 3,false⟩⟩,⟨34,.other,false,some ⟨4,[.setEnt (.own 3)],some 4,false⟩⟩,⟨35,.other,false,some ⟨5,[.comment,.setEnt (.own 3)],some 1,false⟩⟩,⟨39,.other,false,some ⟨6,[.setEnt (.own 3)],some 4,false⟩⟩,⟨42,.other,false,some ⟨0,[.setEnt (.own 3)],some 4,true⟩⟩,⟨47,.other,false,some ⟨7,[.nestRes,.setEnt (.own 3)],some 4,false⟩⟩,⟨92,.other,false,some ⟨0,[.setEnt (.own 3)],some 4,true⟩⟩]⟩,⟨[0],some 0,[],[⟨0,.other,false,none⟩,⟨9,.ws,false,some ⟨1,[.setEnt (.own 0)],some 0,false⟩⟩,⟨10,.lf,false,none⟩,⟨11,.vt,false,none⟩,⟨12,.ff,false,none⟩,⟨13,.cr,false,none⟩,⟨13,.cr,true,none⟩,⟨34,.other,false,none⟩,⟨35,.other,false,none⟩,⟨39,.other,false,none⟩,⟨42,.other,false,none⟩,⟨47,.other,false,none⟩,⟨92,.other,false,none⟩]⟩,⟨[52],none,[],[⟨0,.other,false,none⟩,⟨9,.ws,false,none⟩,⟨10,.lf,false,some ⟨0,[.setEnt .newline],some 3,true⟩⟩,⟨11,.vt,false,none⟩,⟨12,.ff,false,none⟩,⟨13,.cr,false,none⟩,⟨13,.cr,true,none⟩,⟨34,.other,false,none⟩,⟨35,.other,false,none⟩,⟨39,.other,false,none⟩,⟨42,.other,false,none⟩,⟨47,.other,false,none⟩,⟨92,.other,false,none⟩]⟩,⟨[52,56],some 3,[],[⟨0,.other,false,none⟩,⟨9,.ws,false,none⟩,⟨10,.lf,false,some ⟨0,[.setEnt .newline],some 3,true⟩⟩,⟨11,.vt,false,none⟩,⟨12,.ff,false,none⟩,⟨13,.cr,false,none⟩,⟨13,.cr,true,none⟩,⟨34,.other,false,none⟩,⟨35,.other,false,none⟩,⟨39,.other,false,none⟩,⟨42,.other,false,none⟩,⟨47,.other,false,none⟩,⟨92,.other,false,none⟩]⟩,⟨[20,38,57],some 4,[],[⟨0,.other,false,some ⟨8,[.fhold 1],none,false⟩⟩,⟨9,.ws,false,some ⟨8,[.fhold 1],none,false⟩⟩,⟨10,.lf,false,some ⟨8,[.fhold 1],none,false⟩⟩,⟨11,.vt,false,some ⟨8,[.fhold 1],none,false⟩⟩,⟨12,.ff,false,some ⟨8,[.fhold 1],none,false⟩⟩,⟨13,.cr,false,some ⟨8,[.fhold 1],none,false⟩⟩,⟨13,.cr,true,some ⟨8,[.fhold 1],none,false⟩⟩,⟨34,.other,false,some ⟨9,[],none,false⟩⟩,⟨35,.other,false,some ⟨8,[.fhold 1],none,false⟩⟩,⟨39,.other,false,some ⟨8,[.fhold 1],none,false⟩⟩,⟨42,.other,false,some ⟨8,[.fhold 1],none,false⟩⟩,⟨47,.other,false,some ⟨8,[.fhold 1],none,false⟩⟩,⟨92,.other,false,some ⟨8,[.fhold 1],none,false⟩⟩]⟩,⟨[1,57],some 1,[],[⟨0,.other,false,some ⟨10,[],some 1,false⟩⟩,⟨9,.ws,false,some ⟨10,[],some 1,false⟩⟩,⟨10,.lf,false,none⟩,⟨11,.vt,false,some ⟨10,[],some 1,false⟩⟩,⟨12,.ff,false,none⟩,⟨13,.cr,false,none⟩,⟨13,.cr,true,none⟩,⟨34,.other,false,some ⟨10,[],some 1,false⟩⟩,⟨35,.other,false,some ⟨10,[],some 1,false⟩⟩,⟨39,.other,false,some ⟨10,[],some 1,false⟩⟩,⟨42,.other,false,some ⟨10,[],some 1,false⟩⟩,⟨47,.other,false,some ⟨10,[],some 1,false⟩⟩,⟨92,.other,false,some ⟨10,[],some 1,false⟩⟩]⟩,⟨[33,57],some 4,[],[⟨0,.other,false,some ⟨11,[],none,false⟩⟩,⟨9,.ws,false,some ⟨11,[],none,false⟩⟩,⟨10,.lf,false,none⟩,⟨11,.vt,false,some ⟨11,[],none,false⟩⟩,⟨12,.ff,false,none⟩,⟨13,.cr,false,none⟩,⟨13,.cr,true,none⟩,⟨34,.other,false,some ⟨11,[],none,false⟩⟩,⟨35,.other,false,some ⟨11,[],none,false⟩⟩,⟨39,.other,false,none⟩,⟨42,.other,false,some ⟨11,[],none,false⟩⟩,⟨47,.other,false,some ⟨11,[],none,false⟩⟩,⟨92,.other,false,some ⟨12,[],none,false⟩⟩]⟩,⟨[2,5,46,57],some 4,[],[⟨0,.other,false,some ⟨13,[.fhold 2],none,false⟩⟩,⟨9,.ws,false,some ⟨13,[.fhold 2],none,false⟩⟩,⟨10,.lf,false,some ⟨13,[.fhold 2],none,false⟩⟩,⟨11,.vt,false,some ⟨13,[.fhold 2],none,false⟩⟩,⟨12,.ff,false,some ⟨13,[.fhold 2],none,false⟩⟩,⟨13,.cr,false,some ⟨13,[.fhold 2],none,false⟩⟩,⟨13,.cr,true,some ⟨13,[.fhold 2],none,false⟩⟩,⟨34,.other,false,some ⟨13,[.fhold 2],none,false⟩⟩,⟨35,.other,false,some ⟨13,[.fhold 2],none,false⟩⟩,⟨39,.other,false,some ⟨13,[.fhold 2],none,false⟩⟩,⟨42,.other,false,some ⟨14,[.comment],none,false⟩⟩,⟨47,.other,false,some ⟨15,[.comment],some 1,false⟩⟩,⟨92,.other,false,some ⟨13,[.fhold 2],none,false⟩⟩]⟩,⟨[39],none,[],[⟨0,.other,false,some ⟨16,[],none,false⟩⟩,⟨9,.ws,false,some ⟨16,[],none,false⟩⟩,⟨10,.lf,false,none⟩,⟨11,.vt,false,some ⟨16,[],none,false⟩⟩,⟨12,.ff,false,none⟩,⟨13,.cr,false,none⟩,⟨13,.cr,true,none⟩,⟨34,.other,false,some ⟨0,[.code],some 2,true⟩⟩,⟨35,.other,false,some ⟨16,[],none,false⟩⟩,⟨39,.other,false,some ⟨16,[],none,false⟩⟩,⟨42,.other,false,some ⟨16,[],none,false⟩⟩,⟨47,.other,false,some ⟨16,[],none,false⟩⟩,⟨92,.other,false,some ⟨17,[],none,false⟩⟩]⟩,⟨[21,40],none,[],[⟨0,.other,false,some ⟨18,[.fhold 0,.fhold 1],none,false⟩⟩,⟨9,.ws,false,some ⟨18,[.fhold 0,.fhold 1],none,false⟩⟩,⟨10,.lf,false,some ⟨18,[.fhold 0,.fhold 1],none,false⟩⟩,⟨11,.vt,false,some ⟨18,[.fhold 0,.fhold 1],none,false⟩⟩,⟨12,.ff,false,some ⟨18,[.fhold 0,.fhold 1],none,false⟩⟩,⟨13,.cr,false,some ⟨18,[.fhold 0,.fhold 1],none,false⟩⟩,⟨13,.cr,true,some ⟨18,[.fhold 0,.fhold 1],none,false⟩⟩,⟨34,.other,false,some ⟨19,[.comment],none,false⟩⟩,⟨35,.other,false,some ⟨18,[.fhold 0,.fhold 1],none,false⟩⟩,⟨39,.other,false,some ⟨18,[.fhold 0,.fhold 1],none,false⟩⟩,⟨42,.other,false,some ⟨18,[.fhold 0,.fhold 1],none,false⟩⟩,⟨47,.other,false,some ⟨18,[.fhold 0,.fhold 1],none,false⟩⟩,⟨92,.other,false,some ⟨18,[.fhold 0,.fhold 1],none,false⟩⟩]⟩,⟨[4],some 1,[],[⟨0,.other,false,some ⟨10,[],some 1,false⟩⟩,⟨9,.ws,false,some ⟨10,[],some 1,false⟩⟩,⟨10,.lf,false,none⟩,⟨11,.vt,false,some ⟨10,[],some 1,false⟩⟩,⟨12,.ff,false,none⟩,⟨13,.cr,false,none⟩,⟨13,.cr,true,none⟩,⟨34,.other,false,some ⟨10,[],some 1,false⟩⟩,⟨35,.other,false,some ⟨10,[],some 1,false⟩⟩,⟨39,.other,false,some ⟨10,[],some 1,false⟩⟩,⟨42,.other,false,some ⟨10,[],some 1,false⟩⟩,⟨47,.other,false,some ⟨10,[],some 1,false⟩⟩,⟨92,.other,false,some ⟨10,[],some 1,false⟩⟩]⟩,⟨[34],none,[],[⟨0,.other,false,none⟩,⟨9,.ws,false,none⟩,⟨10,.lf,false,none⟩,⟨11,.vt,false,none⟩,⟨12,.ff,false,none⟩,⟨13,.cr,false,none⟩,⟨13,.cr,true,none⟩,⟨34,.other,false,none⟩,⟨35,.other,false,none⟩,⟨39,.other,false,some ⟨0,[.code],some 2,true⟩⟩,⟨42,.other,false,none⟩,⟨47,.other,false,none⟩,⟨92,.other,false,none⟩]⟩,⟨[35],none,[],[⟨0,.other,false,some ⟨20,[],none,false⟩⟩,⟨9,.ws,false,some ⟨20,[],none,false⟩⟩,⟨10,.lf,false,none⟩,⟨11,.vt,false,some ⟨20,[],none,false⟩⟩,⟨12,.ff,false,none⟩,⟨13,.cr,false,none⟩,⟨13,.cr,true,none⟩,⟨34,.other,false,some ⟨20,[],none,false⟩⟩,⟨35,.other,false,some ⟨20,[],none,false⟩⟩,⟨39,.other,false,some ⟨20,[],none,false⟩⟩,⟨42,.other,false,some ⟨20,[],none,false⟩⟩,⟨47,.other,false,some ⟨20,[],none,false⟩⟩,⟨92,.other,false,some ⟨20,[],none,false⟩⟩]⟩,⟨[47],none,[],[⟨0,.other,false,some ⟨21,[],none,false⟩⟩,⟨9,.ws,false,some ⟨21,[],none,false⟩⟩,⟨10,.lf,false,none⟩,⟨11,.vt,false,some ⟨21,[],none,false⟩⟩,⟨12,.ff,false,none⟩,⟨13,.cr,false,none⟩,⟨13,.cr,true,none⟩,⟨34,.other,false,some ⟨21,[],none,false⟩⟩,⟨35,.other,false,some ⟨21,[],none,false⟩⟩,⟨39,.other,false,some ⟨21,[],none,false⟩⟩,⟨42,.other,false,some ⟨21,[],none,false⟩⟩,⟨47,.other,false,some ⟨0,[.code],some 2,true⟩⟩,⟨92,.other,false,some ⟨22,[],none,false⟩⟩]⟩,⟨[6],none,[],[⟨0,.other,false,some ⟨23,[.comment],none,false⟩⟩,⟨9,.ws,false,some ⟨24,[],none,false⟩⟩,⟨10,.lf,false,some ⟨25,[],none,false⟩⟩,⟨11,.vt,false,none⟩,⟨12,.ff,false,some ⟨26,[],none,false⟩⟩,⟨13,.cr,false,some ⟨27,[],none,false⟩⟩,⟨13,.cr,true,some ⟨28,[],none,false⟩⟩,⟨34,.other,false,some ⟨23,[.comment],none,false⟩⟩,⟨35,.other,false,some ⟨23,[.comment],none,false⟩⟩,⟨39,.other,false,some ⟨23,[.comment],none,false⟩⟩,⟨42,.other,false,some ⟨29,[.comment],none,false⟩⟩,⟨42,.other,false,some ⟨30,[.comment],none,false⟩⟩,⟨47,.other,false,some ⟨31,[.comment],none,false⟩⟩,⟨92,.other,false,some ⟨23,[.comment],none,false⟩⟩]⟩,⟨[3],some 1,[],[⟨0,.other,false,some ⟨10,[],some 1,false⟩⟩,⟨9,.ws,false,some ⟨10,[],some 1,false⟩⟩,⟨10,.lf,false,none⟩,⟨11,.vt,false,some ⟨10,[],some 1,false⟩⟩,⟨12,.ff,false,none⟩,⟨13,.cr,false,none⟩,⟨13,.cr,true,none⟩,⟨34,.other,false,some ⟨10,[],some 1,false⟩⟩,⟨35,.other,false,some ⟨10,[],some 1,false⟩⟩,⟨39,.other,false,some ⟨10,[],some 1,false⟩⟩,⟨42,.other,false,some ⟨10,[],some 1,false⟩⟩,⟨47,.other,false,some ⟨10,[],some 1,false⟩⟩,⟨92,.other,false,some ⟨10,[],some 1,false⟩⟩]⟩,⟨[42],none,[],[⟨0,.other,false,some ⟨16,[],none,false⟩⟩,⟨9,.ws,false,some ⟨16,[],none,false⟩⟩,⟨10,.lf,false,none⟩,⟨11,.vt,false,some ⟨16,[],none,false⟩⟩,⟨12,.ff,false,none⟩,⟨13,.cr,false,none⟩,⟨13,.cr,true,none⟩,⟨34,.other,false,some ⟨0,[.code],some 2,true⟩⟩,⟨35,.other,false,some ⟨16,[],none,false⟩⟩,⟨39,.other,false,some ⟨16,[],none,false⟩⟩,⟨42,.other,false,some ⟨16,[],none,false⟩⟩,⟨47,.other,false,some ⟨16,[],none,false⟩⟩,⟨92,.other,false,some ⟨17,[],none,false⟩⟩]⟩,⟨[43],none,[],[⟨0,.other,false,some ⟨32,[],none,false⟩⟩,⟨9,.ws,false,some ⟨32,[],none,false⟩⟩,⟨10,.lf,false,none⟩,⟨11,.vt,false,some ⟨32,[],none,false⟩⟩,⟨12,.ff,false,none⟩,⟨13,.cr,false,none⟩,⟨13,.cr,true,none⟩,⟨34,.other,false,some ⟨32,[],none,false⟩⟩,⟨35,.other,false,some ⟨32,[],none,false⟩⟩,⟨39,.other,false,some ⟨32,[],none,false⟩⟩,⟨42,.other,false,some ⟨32,[],none,false⟩⟩,⟨47,.other,false,some ⟨32,[],none,false⟩⟩,⟨92,.other,false,some ⟨32,[],none,false⟩⟩]⟩,⟨[41],none,[],[⟨0,.other,false,some ⟨16,[],none,false⟩⟩,⟨9,.ws,false,some ⟨16,[],none,false⟩⟩,⟨10,.lf,false,none⟩,⟨11,.vt,false,some ⟨16,[],none,false⟩⟩,⟨12,.ff,false,none⟩,⟨13,.cr,false,none⟩,⟨13,.cr,true,none⟩,⟨34,.other,false,some ⟨0,[.code],some 2,true⟩⟩,⟨35,.other,false,some ⟨16,[],none,false⟩⟩,⟨39,.other,false,some ⟨16,[],none,false⟩⟩,⟨42,.other,false,some ⟨16,[],none,false⟩⟩,⟨47,.other,false,some ⟨16,[],none,false⟩⟩,⟨92,.other,false,some ⟨17,[],none,false⟩⟩]⟩,⟨[22],none,[],[⟨0,.other,false,some ⟨33,[.comment],none,false⟩⟩,⟨9,.ws,false,some ⟨34,[],none,false⟩⟩,⟨10,.lf,false,some ⟨35,[],none,false⟩⟩,⟨11,.vt,false,some ⟨33,[.comment],none,false⟩⟩,⟨12,.ff,false,some ⟨36,[],none,false⟩⟩,⟨13,.cr,false,some ⟨37,[],none,false⟩⟩,⟨13,.cr,true,some ⟨38,[],none,false⟩⟩,⟨34,.other,false,some ⟨39,[.comment],none,false⟩⟩,⟨35,.other,false,some ⟨33,[.comment],none,false⟩⟩,⟨39,.other,false,some ⟨33,[.comment],none,false⟩⟩,⟨42,.other,false,some ⟨33,[.comment],none,false⟩⟩,⟨47,.other,false,some ⟨33,[.comment],none,false⟩⟩,⟨92,.other,false,some ⟨33,[.comment],none,false⟩⟩]⟩,⟨[36],none,[],[⟨0,.other,false,none⟩,⟨9,.ws,false,none⟩,⟨10,.lf,false,none⟩,⟨11,.vt,false,none⟩,⟨12,.ff,false,none⟩,⟨13,.cr,false,none⟩,⟨13,.cr,true,none⟩,⟨34,.other,false,none⟩,⟨35,.other,false,none⟩,⟨39,.other,false,some ⟨0,[.code],some 2,true⟩⟩,⟨42,.other,false,none⟩,⟨47,.other,false,none⟩,⟨92,.other,false,none⟩]⟩,⟨[48],none,[],[⟨0,.other,false,some ⟨21,[],none,false⟩⟩,⟨9,.ws,false,some ⟨21,[],none,false⟩⟩,⟨10,.lf,false,none⟩,⟨11,.vt,false,some ⟨21,[],none,false⟩⟩,⟨12,.ff,false,none⟩,⟨13,.cr,false,none⟩,⟨13,.cr,true,none⟩,⟨34,.other,false,some ⟨21,[],none,false⟩⟩,⟨35,.other,false,some ⟨21,[],none,false⟩⟩,⟨39,.other,false,some ⟨21,[],none,false⟩⟩,⟨42,.other,false,some ⟨21,[],none,false⟩⟩,⟨47,.other,false,some ⟨0,[.code],some 2,true⟩⟩,⟨92,.other,false,some ⟨22,[],none,false⟩⟩]⟩,⟨[49],none,[],[⟨0,.other,false,some ⟨40,[],none,false⟩⟩,⟨9,.ws,false,some ⟨40,[],none,false⟩⟩,⟨10,.lf,false,none⟩,⟨11,.vt,false,some ⟨40,[],none,false⟩⟩,⟨12,.ff,false,none⟩,⟨13,.cr,false,none⟩,⟨13,.cr,true,none⟩,⟨34,.other,false,some ⟨40,[],none,false⟩⟩,⟨35,.other,false,some ⟨40,[],none,false⟩⟩,⟨39,.other,false,some ⟨40,[],none,false⟩⟩,⟨42,.other,false,some ⟨40,[],none,false⟩⟩,⟨47,.other,false,some ⟨40,[],none,false⟩⟩,⟨92,.other,false,some ⟨40,[],none,false⟩⟩]⟩,⟨[17],none,[],[⟨0,.other,false,some ⟨23,[.comment],none,false⟩⟩,⟨9,.ws,false,some ⟨24,[],none,false⟩⟩,⟨10,.lf,false,some ⟨25,[],none,false⟩⟩,⟨11,.vt,false,none⟩,⟨12,.ff,false,some ⟨26,[],none,false⟩⟩,⟨13,.cr,false,some ⟨27,[],none,false⟩⟩,⟨13,.cr,true,some ⟨28,[],none,false⟩⟩,⟨34,.other,false,some ⟨23,[.comment],none,false⟩⟩,⟨35,.other,false,some ⟨23,[.comment],none,false⟩⟩,⟨39,.other,false,some ⟨23,[.comment],none,false⟩⟩,⟨42,.other,false,some ⟨29,[.comment],none,false⟩⟩,⟨42,.other,false,some ⟨30,[.comment],none,false⟩⟩,⟨47,.other,false,some ⟨31,[.comment],none,false⟩⟩,⟨92,.other,false,some ⟨23,[.comment],none,false⟩⟩]⟩,⟨[12],none,[],[⟨0,.other,false,some ⟨23,[.comment],none,false⟩⟩,⟨9,.ws,false,some ⟨24,[],none,false⟩⟩,⟨10,.lf,false,some ⟨25,[],none,false⟩⟩,⟨11,.vt,false,none⟩,⟨12,.ff,false,some ⟨26,[],none,false⟩⟩,⟨13,.cr,false,some ⟨27,[],none,false⟩⟩,⟨13,.cr,true,some ⟨28,[],none,false⟩⟩,⟨34,.other,false,some ⟨23,[.comment],none,false⟩⟩,⟨35,.other,false,some ⟨23,[.comment],none,false⟩⟩,⟨39,.other,false,some ⟨23,[.comment],none,false⟩⟩,⟨42,.other,false,some ⟨29,[.comment],none,false⟩⟩,⟨42,.other,false,some ⟨30,[.comment],none,false⟩⟩,⟨47,.other,false,some ⟨31,[.comment],none,false⟩⟩,⟨92,.other,false,some ⟨23,[.comment],none,false⟩⟩]⟩,⟨[9],none,[],[⟨0,.other,false,some ⟨23,[.setEnt .internalNl,.cb,.comment],none,false⟩⟩,⟨9,.ws,false,some ⟨24,[.setEnt .internalNl,.cb],none,false⟩⟩,⟨10,.lf,false,some ⟨25,[.setEnt .internalNl,.cb],none,false⟩⟩,⟨11,.vt,false,none⟩,⟨12,.ff,false,some ⟨26,[.setEnt .internalNl,.cb],none,false⟩⟩,⟨13,.cr,false,some ⟨27,[.setEnt .internalNl,.cb],none,false⟩⟩,⟨13,.cr,true,some ⟨28,[.setEnt .internalNl,.cb],none,false⟩⟩,⟨34,.other,false,some ⟨23,[.setEnt .internalNl,.cb,.comment],none,false⟩⟩,⟨35,.other,false,some ⟨23,[.setEnt .internalNl,.cb,.comment],none,false⟩⟩,⟨39,.other,false,some ⟨23,[.setEnt .internalNl,.cb,.comment],none,false⟩⟩,⟨42,.other,false,some ⟨29,[.setEnt .internalNl,.cb,.comment],none,false⟩⟩,⟨42,.other,false,some ⟨30,[.setEnt .internalNl,.cb,.comment],none,false⟩⟩,⟨47,.other,false,some ⟨31,[.setEnt .internalNl,.cb,.comment],none,false⟩⟩,⟨92,.other,false,some ⟨23,[.setEnt .internalNl,.cb,.comment],none,false⟩⟩]⟩,⟨[10],none,[],[⟨0,.other,false,some ⟨23,[.setEnt .internalNl,.cb,.comment],none,false⟩⟩,⟨9,.ws,false,some ⟨24,[.setEnt .internalNl,.cb],none,false⟩⟩,⟨10,.lf,false,some ⟨25,[.setEnt .internalNl,.cb],none,false⟩⟩,⟨11,.vt,false,none⟩,⟨12,.ff,false,some ⟨26,[.setEnt .internalNl,.cb],none,false⟩⟩,⟨13,.cr,false,some ⟨27,[.setEnt .internalNl,.cb],none,false⟩⟩,⟨13,.cr,true,some ⟨28,[.setEnt .internalNl,.cb],none,false⟩⟩,⟨34,.other,false,some ⟨23,[.setEnt .internalNl,.cb,.comment],none,false⟩⟩,⟨35,.other,false,some ⟨23,[.setEnt .internalNl,.cb,.comment],none,false⟩⟩,⟨39,.other,false,some ⟨23,[.setEnt .internalNl,.cb,.comment],none,false⟩⟩,⟨42,.other,false,some ⟨29,[.setEnt .internalNl,.cb,.comment],none,false⟩⟩,⟨42,.other,false,some ⟨30,[.setEnt .internalNl,.cb,.comment],none,false⟩⟩,⟨47,.other,false,some ⟨31,[.setEnt .internalNl,.cb,.comment],none,false⟩⟩,⟨92,.other,false,some ⟨23,[.setEnt .internalNl,.cb,.comment],none,false⟩⟩]⟩,⟨[7],none,[],[⟨0,.other,false,none⟩,⟨9,.ws,false,none⟩,⟨10,.lf,false,some ⟨41,[],none,false⟩⟩,⟨11,.vt,false,none⟩,⟨12,.ff,false,none⟩,⟨13,.cr,false,none⟩,⟨13,.cr,true,none⟩,⟨34,.other,false,none⟩,⟨35,.other,false,none⟩,⟨39,.other,false,none⟩,⟨42,.other,false,none⟩,⟨47,.other,false,none⟩,⟨92,.other,false,none⟩]⟩,⟨[7,11],none,[],[⟨0,.other,false,some ⟨23,[.setEnt .internalNl,.cb,.comment],none,false⟩⟩,⟨9,.ws,false,some ⟨24,[.setEnt .internalNl,.cb],none,false⟩⟩,⟨10,.lf,false,some ⟨42,[.setEnt .internalNl,.cb],none,false⟩⟩,⟨11,.vt,false,none⟩,⟨12,.ff,false,some ⟨26,[.setEnt .internalNl,.cb],none,false⟩⟩,⟨13,.cr,false,some ⟨27,[.setEnt .internalNl,.cb],none,false⟩⟩,⟨13,.cr,true,some ⟨28,[.setEnt .internalNl,.cb],none,false⟩⟩,⟨34,.other,false,some ⟨23,[.setEnt .internalNl,.cb,.comment],none,false⟩⟩,⟨35,.other,false,some ⟨23,[.setEnt .internalNl,.cb,.comment],none,false⟩⟩,⟨39,.other,false,some ⟨23,[.setEnt .internalNl,.cb,.comment],none,false⟩⟩,⟨42,.other,false,some ⟨29,[.setEnt .internalNl,.cb,.comment],none,false⟩⟩,⟨42,.other,false,some ⟨30,[.setEnt .internalNl,.cb,.comment],none,false⟩⟩,⟨47,.other,false,some ⟨31,[.setEnt .internalNl,.cb,.comment],none,false⟩⟩,⟨92,.other,false,some ⟨23,[.setEnt .internalNl,.cb,.comment],none,false⟩⟩]⟩,⟨[15,17],none,[],[⟨0,.other,false,some ⟨23,[.comment],none,false⟩⟩,⟨9,.ws,false,some ⟨24,[],none,false⟩⟩,⟨10,.lf,false,some ⟨25,[],none,false⟩⟩,⟨11,.vt,false,none⟩,⟨12,.ff,false,some ⟨26,[],none,false⟩⟩,⟨13,.cr,false,some ⟨27,[],none,false⟩⟩,⟨13,.cr,true,some ⟨28,[],none,false⟩⟩,⟨34,.other,false,some ⟨23,[.comment],none,false⟩⟩,⟨35,.other,false,some ⟨23,[.comment],none,false⟩⟩,⟨39,.other,false,some ⟨23,[.comment],none,false⟩⟩,⟨42,.other,false,some ⟨29,[.comment],none,false⟩⟩,⟨42,.other,false,some ⟨30,[.comment],none,false⟩⟩,⟨47,.other,false,some ⟨43,[.nestDec,.comment],none,false⟩⟩,⟨92,.other,false,some ⟨23,[.comment],none,false⟩⟩]⟩,⟨[15,17,18],none,[],[⟨0,.other,false,some ⟨23,[.comment],none,false⟩⟩,⟨9,.ws,false,some ⟨24,[],none,false⟩⟩,⟨10,.lf,false,some ⟨25,[],none,false⟩⟩,⟨11,.vt,false,none⟩,⟨12,.ff,false,some ⟨26,[],none,false⟩⟩,⟨13,.cr,false,some ⟨27,[],none,false⟩⟩,⟨13,.cr,true,some ⟨28,[],none,false⟩⟩,⟨34,.other,false,some ⟨23,[.comment],none,false⟩⟩,⟨35,.other,false,some ⟨23,[.comment],none,false⟩⟩,⟨39,.other,false,some ⟨23,[.comment],none,false⟩⟩,⟨42,.other,false,some ⟨29,[.comment],none,false⟩⟩,⟨42,.other,false,some ⟨30,[.comment],none,false⟩⟩,⟨47,.other,false,some ⟨43,[.nestDec,.comment],none,false⟩⟩,⟨47,.other,false,some ⟨0,[.comment],some 1,true⟩⟩,⟨92,.other,false,some ⟨23,[.comment],none,false⟩⟩]⟩,⟨[13,17],none,[],[⟨0,.other,false,some ⟨23,[.comment],none,false⟩⟩,⟨9,.ws,false,some ⟨24,[],none,false⟩⟩,⟨10,.lf,false,some ⟨25,[],none,false⟩⟩,⟨11,.vt,false,none⟩,⟨12,.ff,false,some ⟨26,[],none,false⟩⟩,⟨13,.cr,false,some ⟨27,[],none,false⟩⟩,⟨13,.cr,true,some ⟨28,[],none,false⟩⟩,⟨34,.other,false,some ⟨23,[.comment],none,false⟩⟩,⟨35,.other,false,some ⟨23,[.comment],none,false⟩⟩,⟨39,.other,false,some ⟨23,[.comment],none,false⟩⟩,⟨42,.other,false,some ⟨44,[.nestInc,.comment],none,false⟩⟩,⟨42,.other,false,some ⟨45,[.nestInc,.comment],none,false⟩⟩,⟨47,.other,false,some ⟨31,[.comment],none,false⟩⟩,⟨92,.other,false,some ⟨23,[.comment],none,false⟩⟩]⟩,⟨[44],none,[],[⟨0,.other,false,some ⟨16,[],none,false⟩⟩,⟨9,.ws,false,some ⟨16,[],none,false⟩⟩,⟨10,.lf,false,none⟩,⟨11,.vt,false,some ⟨16,[],none,false⟩⟩,⟨12,.ff,false,none⟩,⟨13,.cr,false,none⟩,⟨13,.cr,true,none⟩,⟨34,.other,false,some ⟨0,[.code],some 2,true⟩⟩,⟨35,.other,false,some ⟨16,[],none,false⟩⟩,⟨39,.other,false,some ⟨16,[],none,false⟩⟩,⟨42,.other,false,some ⟨16,[],none,false⟩⟩,⟨47,.other,false,some ⟨16,[],none,false⟩⟩,⟨92,.other,false,some ⟨17,[],none,false⟩⟩]⟩,⟨[29],none,[],[⟨0,.other,false,some ⟨33,[.comment],none,false⟩⟩,⟨9,.ws,false,some ⟨34,[],none,false⟩⟩,⟨10,.lf,false,some ⟨35,[],none,false⟩⟩,⟨11,.vt,false,some ⟨33,[.comment],none,false⟩⟩,⟨12,.ff,false,some ⟨36,[],none,false⟩⟩,⟨13,.cr,false,some ⟨37,[],none,false⟩⟩,⟨13,.cr,true,some ⟨38,[],none,false⟩⟩,⟨34,.other,false,some ⟨39,[.comment],none,false⟩⟩,⟨35,.other,false,some ⟨33,[.comment],none,false⟩⟩,⟨39,.other,false,some ⟨33,[.comment],none,false⟩⟩,⟨42,.other,false,some ⟨33,[.comment],none,false⟩⟩,⟨47,.other,false,some ⟨33,[.comment],none,false⟩⟩,⟨92,.other,false,some ⟨33,[.comment],none,false⟩⟩]⟩,⟨[28],none,[],[⟨0,.other,false,some ⟨33,[.comment],none,false⟩⟩,⟨9,.ws,false,some ⟨34,[],none,false⟩⟩,⟨10,.lf,false,some ⟨35,[],none,false⟩⟩,⟨11,.vt,false,some ⟨33,[.comment],none,false⟩⟩,⟨12,.ff,false,some ⟨36,[],none,false⟩⟩,⟨13,.cr,false,some ⟨37,[],none,false⟩⟩,⟨13,.cr,true,some ⟨38,[],none,false⟩⟩,⟨34,.other,false,some ⟨39,[.comment],none,false⟩⟩,⟨35,.other,false,some ⟨33,[.comment],none,false⟩⟩,⟨39,.other,false,some ⟨33,[.comment],none,false⟩⟩,⟨42,.other,false,some ⟨33,[.comment],none,false⟩⟩,⟨47,.other,false,some ⟨33,[.comment],none,false⟩⟩,⟨92,.other,false,some ⟨33,[.comment],none,false⟩⟩]⟩,⟨[25],none,[],[⟨0,.other,false,some ⟨33,[.setEnt .internalNl,.cb,.comment],none,false⟩⟩,⟨9,.ws,false,some ⟨34,[.setEnt .internalNl,.cb],none,false⟩⟩,⟨10,.lf,false,some ⟨35,[.setEnt .internalNl,.cb],none,false⟩⟩,⟨11,.vt,false,some ⟨33,[.setEnt .internalNl,.cb,.comment],none,false⟩⟩,⟨12,.ff,false,some ⟨36,[.setEnt .internalNl,.cb],none,false⟩⟩,⟨13,.cr,false,some ⟨37,[.setEnt .internalNl,.cb],none,false⟩⟩,⟨13,.cr,true,some ⟨38,[.setEnt .internalNl,.cb],none,false⟩⟩,⟨34,.other,false,some ⟨39,[.setEnt .internalNl,.cb,.comment],none,false⟩⟩,⟨35,.other,false,some ⟨33,[.setEnt .internalNl,.cb,.comment],none,false⟩⟩,⟨39,.other,false,some ⟨33,[.setEnt .internalNl,.cb,.comment],none,false⟩⟩,⟨42,.other,false,some ⟨33,[.setEnt .internalNl,.cb,.comment],none,false⟩⟩,⟨47,.other,false,some ⟨33,[.setEnt .internalNl,.cb,.comment],none,false⟩⟩,⟨92,.other,false,some ⟨33,[.setEnt .internalNl,.cb,.comment],none,false⟩⟩]⟩,⟨[26],none,[],[⟨0,.other,false,some ⟨33,[.setEnt .internalNl,.cb,.comment],none,false⟩⟩,⟨9,.ws,false,some ⟨34,[.setEnt .internalNl,.cb],none,false⟩⟩,⟨10,.lf,false,some ⟨35,[.setEnt .internalNl,.cb],none,false⟩⟩,⟨11,.vt,false,some ⟨33,[.setEnt .internalNl,.cb,.comment],none,false⟩⟩,⟨12,.ff,false,some ⟨36,[.setEnt .internalNl,.cb],none,false⟩⟩,⟨13,.cr,false,some ⟨37,[.setEnt .internalNl,.cb],none,false⟩⟩,⟨13,.cr,true,some ⟨38,[.setEnt .internalNl,.cb],none,false⟩⟩,⟨34,.other,false,some ⟨39,[.setEnt .internalNl,.cb,.comment],none,false⟩⟩,⟨35,.other,false,some ⟨33,[.setEnt .internalNl,.cb,.comment],none,false⟩⟩,⟨39,.other,false,some ⟨33,[.setEnt .internalNl,.cb,.comment],none,false⟩⟩,⟨42,.other,false,some ⟨33,[.setEnt .internalNl,.cb,.comment],none,false⟩⟩,⟨47,.other,false,some ⟨33,[.setEnt .internalNl,.cb,.comment],none,false⟩⟩,⟨92,.other,false,some ⟨33,[.setEnt .internalNl,.cb,.comment],none,false⟩⟩]⟩,⟨[23],none,[],[⟨0,.other,false,none⟩,⟨9,.ws,false,none⟩,⟨10,.lf,false,some ⟨46,[],none,false⟩⟩,⟨11,.vt,false,none⟩,⟨12,.ff,false,none⟩,⟨13,.cr,false,none⟩,⟨13,.cr,true,none⟩,⟨34,.other,false,none⟩,⟨35,.other,false,none⟩,⟨39,.other,false,none⟩,⟨42,.other,false,none⟩,⟨47,.other,false,none⟩,⟨92,.other,false,none⟩]⟩,⟨[23,27],none,[],[⟨0,.other,false,some ⟨33,[.setEnt .internalNl,.cb,.comment],none,false⟩⟩,⟨9,.ws,false,some ⟨34,[.setEnt .internalNl,.cb],none,false⟩⟩,⟨10,.lf,false,some ⟨47,[.setEnt .internalNl,.cb],none,false⟩⟩,⟨11,.vt,false,some ⟨33,[.setEnt .internalNl,.cb,.comment],none,false⟩⟩,⟨12,.ff,false,some ⟨36,[.setEnt .internalNl,.cb],none,false⟩⟩,⟨13,.cr,false,some ⟨37,[.setEnt .internalNl,.cb],none,false⟩⟩,⟨13,.cr,true,some ⟨38,[.setEnt .internalNl,.cb],none,false⟩⟩,⟨34,.other,false,some ⟨39,[.setEnt .internalNl,.cb,.comment],none,false⟩⟩,⟨35,.other,false,some ⟨33,[.setEnt .internalNl,.cb,.comment],none,false⟩⟩,⟨39,.other,false,some ⟨33,[.setEnt .internalNl,.cb,.comment],none,false⟩⟩,⟨42,.other,false,some ⟨33,[.setEnt .internalNl,.cb,.comment],none,false⟩⟩,⟨47,.other,false,some ⟨33,[.setEnt .internalNl,.cb,.comment],none,false⟩⟩,⟨92,.other,false,some ⟨33,[.setEnt .internalNl,.cb,.comment],none,false⟩⟩]⟩,⟨[29,30],none,[],[⟨0,.other,false,some ⟨33,[.comment],none,false⟩⟩,⟨9,.ws,false,some ⟨34,[],none,false⟩⟩,⟨10,.lf,false,some ⟨35,[],none,false⟩⟩,⟨11,.vt,false,some ⟨33,[.comment],none,false⟩⟩,⟨12,.ff,false,some ⟨36,[],none,false⟩⟩,⟨13,.cr,false,some ⟨37,[],none,false⟩⟩,⟨13,.cr,true,some ⟨38,[],none,false⟩⟩,⟨34,.other,false,some ⟨48,[.comment],none,false⟩⟩,⟨35,.other,false,some ⟨33,[.comment],none,false⟩⟩,⟨39,.other,false,some ⟨33,[.comment],none,false⟩⟩,⟨42,.other,false,some ⟨33,[.comment],none,false⟩⟩,⟨47,.other,false,some ⟨33,[.comment],none,false⟩⟩,⟨92,.other,false,some ⟨33,[.comment],none,false⟩⟩]⟩,⟨[50],none,[],[⟨0,.other,false,some ⟨21,[],none,false⟩⟩,⟨9,.ws,false,some ⟨21,[],none,false⟩⟩,⟨10,.lf,false,none⟩,⟨11,.vt,false,some ⟨21,[],none,false⟩⟩,⟨12,.ff,false,none⟩,⟨13,.cr,false,none⟩,⟨13,.cr,true,none⟩,⟨34,.other,false,some ⟨21,[],none,false⟩⟩,⟨35,.other,false,some ⟨21,[],none,false⟩⟩,⟨39,.other,false,some ⟨21,[],none,false⟩⟩,⟨42,.other,false,some ⟨21,[],none,false⟩⟩,⟨47,.other,false,some ⟨0,[.code],some 2,true⟩⟩,⟨92,.other,false,some ⟨22,[],none,false⟩⟩]⟩,⟨[8],none,[],[⟨0,.other,false,some ⟨23,[.setEnt .internalNl,.cb,.comment],none,false⟩⟩,⟨9,.ws,false,some ⟨24,[.setEnt .internalNl,.cb],none,false⟩⟩,⟨10,.lf,false,some ⟨25,[.setEnt .internalNl,.cb],none,false⟩⟩,⟨11,.vt,false,none⟩,⟨12,.ff,false,some ⟨26,[.setEnt .internalNl,.cb],none,false⟩⟩,⟨13,.cr,false,some ⟨27,[.setEnt .internalNl,.cb],none,false⟩⟩,⟨13,.cr,true,some ⟨28,[.setEnt .internalNl,.cb],none,false⟩⟩,⟨34,.other,false,some ⟨23,[.setEnt .internalNl,.cb,.comment],none,false⟩⟩,⟨35,.other,false,some ⟨23,[.setEnt .internalNl,.cb,.comment],none,false⟩⟩,⟨39,.other,false,some ⟨23,[.setEnt .internalNl,.cb,.comment],none,false⟩⟩,⟨42,.other,false,some ⟨29,[.setEnt .internalNl,.cb,.comment],none,false⟩⟩,⟨42,.other,false,some ⟨30,[.setEnt .internalNl,.cb,.comment],none,false⟩⟩,⟨47,.other,false,some ⟨31,[.setEnt .internalNl,.cb,.comment],none,false⟩⟩,⟨92,.other,false,some ⟨23,[.setEnt .internalNl,.cb,.comment],none,false⟩⟩]⟩,⟨[8,9],none,[],[⟨0,.other,false,some ⟨23,[.setEnt .internalNl,.cb,.comment],none,false⟩⟩,⟨9,.ws,false,some ⟨24,[.setEnt .internalNl,.cb],none,false⟩⟩,⟨10,.lf,false,some ⟨25,[.setEnt .internalNl,.cb],none,false⟩⟩,⟨11,.vt,false,none⟩,⟨12,.ff,false,some ⟨26,[.setEnt .internalNl,.cb],none,false⟩⟩,⟨13,.cr,false,some ⟨27,[.setEnt .internalNl,.cb],none,false⟩⟩,⟨13,.cr,true,some ⟨28,[.setEnt .internalNl,.cb],none,false⟩⟩,⟨34,.other,false,some ⟨23,[.setEnt .internalNl,.cb,.comment],none,false⟩⟩,⟨35,.other,false,some ⟨23,[.setEnt .internalNl,.cb,.comment],none,false⟩⟩,⟨39,.other,false,some ⟨23,[.setEnt .internalNl,.cb,.comment],none,false⟩⟩,⟨42,.other,false,some ⟨29,[.setEnt .internalNl,.cb,.comment],none,false⟩⟩,⟨42,.other,false,some ⟨30,[.setEnt .internalNl,.cb,.comment],none,false⟩⟩,⟨47,.other,false,some ⟨31,[.setEnt .internalNl,.cb,.comment],none,false⟩⟩,⟨92,.other,false,some ⟨23,[.setEnt .internalNl,.cb,.comment],none,false⟩⟩]⟩,⟨[13,16,17],none,[],[⟨0,.other,false,some ⟨23,[.comment],none,false⟩⟩,⟨9,.ws,false,some ⟨24,[],none,false⟩⟩,⟨10,.lf,false,some ⟨25,[],none,false⟩⟩,⟨11,.vt,false,none⟩,⟨12,.ff,false,some ⟨26,[],none,false⟩⟩,⟨13,.cr,false,some ⟨27,[],none,false⟩⟩,⟨13,.cr,true,some ⟨28,[],none,false⟩⟩,⟨34,.other,false,some ⟨23,[.comment],none,false⟩⟩,⟨35,.other,false,some ⟨23,[.comment],none,false⟩⟩,⟨39,.other,false,some ⟨23,[.comment],none,false⟩⟩,⟨42,.other,false,some ⟨44,[.nestInc,.comment],none,false⟩⟩,⟨42,.other,false,some ⟨45,[.nestInc,.comment],none,false⟩⟩,⟨47,.other,false,some ⟨31,[.comment],none,false⟩⟩,⟨92,.other,false,some ⟨23,[.comment],none,false⟩⟩]⟩,⟨[14,15,17],none,[],[⟨0,.other,false,some ⟨23,[.comment],none,false⟩⟩,⟨9,.ws,false,some ⟨24,[],none,false⟩⟩,⟨10,.lf,false,some ⟨25,[],none,false⟩⟩,⟨11,.vt,false,none⟩,⟨12,.ff,false,some ⟨26,[],none,false⟩⟩,⟨13,.cr,false,some ⟨27,[],none,false⟩⟩,⟨13,.cr,true,some ⟨28,[],none,false⟩⟩,⟨34,.other,false,some ⟨23,[.comment],none,false⟩⟩,⟨35,.other,false,some ⟨23,[.comment],none,false⟩⟩,⟨39,.other,false,some ⟨23,[.comment],none,false⟩⟩,⟨42,.other,false,some ⟨29,[.comment],none,false⟩⟩,⟨42,.other,false,some ⟨30,[.comment],none,false⟩⟩,⟨47,.other,false,some ⟨43,[.nestDec,.comment],none,false⟩⟩,⟨92,.other,false,some ⟨23,[.comment],none,false⟩⟩]⟩,⟨[14,15,17,18],none,[],[⟨0,.other,false,some ⟨23,[.comment],none,false⟩⟩,⟨9,.ws,false,some ⟨24,[],none,false⟩⟩,⟨10,.lf,false,some ⟨25,[],none,false⟩⟩,⟨11,.vt,false,none⟩,⟨12,.ff,false,some ⟨26,[],none,false⟩⟩,⟨13,.cr,false,some ⟨27,[],none,false⟩⟩,⟨13,.cr,true,some ⟨28,[],none,false⟩⟩,⟨34,.other,false,some ⟨23,[.comment],none,false⟩⟩,⟨35,.other,false,some ⟨23,[.comment],none,false⟩⟩,⟨39,.other,false,some ⟨23,[.comment],none,false⟩⟩,⟨42,.other,false,some ⟨29,[.comment],none,false⟩⟩,⟨42,.other,false,some ⟨30,[.comment],none,false⟩⟩,⟨47,.other,false,some ⟨43,[.nestDec,.comment],none,false⟩⟩,⟨47,.other,false,some ⟨0,[.comment],some 1,true⟩⟩,⟨92,.other,false,some ⟨23,[.comment],none,false⟩⟩]⟩,⟨[24],none,[],[⟨0,.other,false,some ⟨33,[.setEnt .internalNl,.cb,.comment],none,false⟩⟩,⟨9,.ws,false,some ⟨34,[.setEnt .internalNl,.cb],none,false⟩⟩,⟨10,.lf,false,some ⟨35,[.setEnt .internalNl,.cb],none,false⟩⟩,⟨11,.vt,false,some ⟨33,[.setEnt .internalNl,.cb,.comment],none,false⟩⟩,⟨12,.ff,false,some ⟨36,[.setEnt .internalNl,.cb],none,false⟩⟩,⟨13,.cr,false,some ⟨37,[.setEnt .internalNl,.cb],none,false⟩⟩,⟨13,.cr,true,some ⟨38,[.setEnt .internalNl,.cb],none,false⟩⟩,⟨34,.other,false,some ⟨39,[.setEnt .internalNl,.cb,.comment],none,false⟩⟩,⟨35,.other,false,some ⟨33,[.setEnt .internalNl,.cb,.comment],none,false⟩⟩,⟨39,.other,false,some ⟨33,[.setEnt .internalNl,.cb,.comment],none,false⟩⟩,⟨42,.other,false,some ⟨33,[.setEnt .internalNl,.cb,.comment],none,false⟩⟩,⟨47,.other,false,some ⟨33,[.setEnt .internalNl,.cb,.comment],none,false⟩⟩,⟨92,.other,false,some ⟨33,[.setEnt .internalNl,.cb,.comment],none,false⟩⟩]⟩,⟨[24,25],none,[],[⟨0,.other,false,some ⟨33,[.setEnt .internalNl,.cb,.comment],none,false⟩⟩,⟨9,.ws,false,some ⟨34,[.setEnt .internalNl,.cb],none,false⟩⟩,⟨10,.lf,false,some ⟨35,[.setEnt .internalNl,.cb],none,false⟩⟩,⟨11,.vt,false,some ⟨33,[.setEnt .internalNl,.cb,.comment],none,false⟩⟩,⟨12,.ff,false,some ⟨36,[.setEnt .internalNl,.cb],none,false⟩⟩,⟨13,.cr,false,some ⟨37,[.setEnt .internalNl,.cb],none,false⟩⟩,⟨13,.cr,true,some ⟨38,[.setEnt .internalNl,.cb],none,false⟩⟩,⟨34,.other,false,some ⟨39,[.setEnt .internalNl,.cb,.comment],none,false⟩⟩,⟨35,.other,false,some ⟨33,[.setEnt .internalNl,.cb,.comment],none,false⟩⟩,⟨39,.other,false,some ⟨33,[.setEnt .internalNl,.cb,.comment],none,false⟩⟩,⟨42,.other,false,some ⟨33,[.setEnt .internalNl,.cb,.comment],none,false⟩⟩,⟨47,.other,false,some ⟨33,[.setEnt .internalNl,.cb,.comment],none,false⟩⟩,⟨92,.other,false,some ⟨33,[.setEnt .internalNl,.cb,.comment],none,false⟩⟩]⟩,⟨[29,30,31],none,[],[⟨0,.other,false,some ⟨33,[.comment],none,false⟩⟩,⟨9,.ws,false,some ⟨34,[],none,false⟩⟩,⟨10,.lf,false,some ⟨35,[],none,false⟩⟩,⟨11,.vt,false,some ⟨33,[.comment],none,false⟩⟩,⟨12,.ff,false,some ⟨36,[],none,false⟩⟩,⟨13,.cr,false,some ⟨37,[],none,false⟩⟩,⟨13,.cr,true,some ⟨38,[],none,false⟩⟩,⟨34,.other,false,some ⟨49,[.comment],some 1,false⟩⟩,⟨35,.other,false,some ⟨33,[.comment],none,false⟩⟩,⟨39,.other,false,some ⟨33,[.comment],none,false⟩⟩,⟨42,.other,false,some ⟨33,[.comment],none,false⟩⟩,⟨47,.other,false,some ⟨33,[.comment],none,false⟩⟩,⟨92,.other,false,some ⟨33,[.comment],none,false⟩⟩]⟩,⟨[31,32],some 1,[],[⟨0,.other,false,none⟩,⟨9,.ws,false,none⟩,⟨10,.lf,false,none⟩,⟨11,.vt,false,none⟩,⟨12,.ff,false,none⟩,⟨13,.cr,false,none⟩,⟨13,.cr,true,none⟩,⟨34,.other,false,some ⟨0,[.comment],some 1,true⟩⟩,⟨35,.other,false,none⟩,⟨39,.other,false,none⟩,⟨42,.other,false,none⟩,⟨47,.other,false,none⟩,⟨92,.other,false,none⟩]⟩]
theorem boo_line_rowsOk : rowsOk boo_line_nfa [] (boo_line_cs.map (·.1)) boo_line_rows = true := by decide +kernel
def boo_line_D : Dfa boo_line_M.nfa := ⟨boo_line_masks, [], boo_line_cs, boo_line_rows, boo_line_masksIn, boo_line_repOk, boo_line_rowsOk⟩

def elm_line_nfa : Nfa := ⟨[⟨0,4294967808,[],[(0,.setEnt (.own 0))],0,0⟩,⟨1,35184372088832,[],[],0,0⟩,⟨5,10633823966279326983230456482242756608,[],[(3,.nestRes)],0,2⟩,⟨20,549755813888,[],[(13,.code)],0,0⟩,⟨25,17179869184,[],[(14,.code)],0,0⟩,⟨37,8192,[],[(19,.setEnt .newline)],0,0⟩,⟨39,1024,[],[(19,.setEnt .newline)],0,0⟩,⟨40,4096,[],[(19,.setEnt .newline)],0,0⟩,⟨41,8192,[.crAlone],[(19,.setEnt .newline)],0,0⟩,⟨42,115792089237316195423570985008687907853269984665640564039457584007908834656767,[],[(20,.setEnt (.own 3))],0,0⟩],[[⟨0,4294967808,[],[(0,.setEnt (.own 0))],0,0⟩],[⟨2,35184372088832,[],[],0,0⟩],[⟨3,115792089237316195423570985008687907853269984665640564039452972321894702252031,[],[(1,.fhold 0),(2,.comment)],0,0⟩],[⟨4,115792089237316195423570985008687907853269984665640564039457584007913129626623,[],[],0,0⟩],[⟨4,115792089237316195423570985008687907853269984665640564039457584007913129626623,[],[],0,0⟩],[⟨6,35184372088832,[],[(4,.comment)],0,2⟩],[⟨7,8192,[],[],0,2⟩,⟨9,1024,[],[],0,2⟩,⟨10,4096,[],[],0,2⟩,⟨11,8192,[.crAlone],[],0,2⟩,⟨12,4294967808,[],[],0,2⟩,⟨13,10633823966279326983230456482242756608,[],[],0,2⟩,⟨15,35184372088832,[],[],0,2⟩,⟨17,115792089237316195423570985008687907853269984665640564039457584007908834658815,[],[(11,.comment)],0,2⟩,⟨18,35184372088832,[.nestZero],[],0,2⟩],[⟨8,1024,[],[],0,2⟩],[⟨7,8192,[],[(5,.setEnt .internalNl),(6,.cb)],0,2⟩,⟨9,1024,[],[(5,.setEnt .internalNl),(6,.cb)],0,2⟩,⟨10,4096,[],[(5,.setEnt .internalNl),(6,.cb)],0,2⟩,⟨11,8192,[.crAlone],[(5,.setEnt .internalNl),(6,.cb)],0,2⟩,⟨12,4294967808,[],[(5,.setEnt .internalNl),(6,.cb)],0,2⟩,⟨13,10633823966279326983230456482242756608,[],[(5,.setEnt .internalNl),(6,.cb)],0,2⟩,⟨15,35184372088832,[],[(5,.setEnt .internalNl),(6,.cb)],0,2⟩,⟨17,115792089237316195423570985008687907853269984665640564039457584007908834658815,[],[(5,.setEnt .internalNl),(6,.cb),(11,.comment)],0,2⟩,⟨18,35184372088832,[.nestZero],[(5,.setEnt .internalNl),(6,.cb)],0,2⟩],[⟨7,8192,[],[(5,.setEnt .internalNl),(6,.cb)],0,2⟩,⟨9,1024,[],[(5,.setEnt .internalNl),(6,.cb)],0,2⟩,⟨10,4096,[],[(5,.setEnt .internalNl),(6,.cb)],0,2⟩,⟨11,8192,[.crAlone],[(5,.setEnt .internalNl),(6,.cb)],0,2⟩,⟨12,4294967808,[],[(5,.setEnt .internalNl),(6,.cb)],0,2⟩,⟨13,10633823966279326983230456482242756608,[],[(5,.setEnt .internalNl),(6,.cb)],0,2⟩,⟨15,35184372088832,[],[(5,.setEnt .internalNl),(6,.cb)],0,2⟩,⟨17,115792089237316195423570985008687907853269984665640564039457584007908834658815,[],[(5,.setEnt .internalNl),(6,.cb),(11,.comment)],0,2⟩,⟨18,35184372088832,[.nestZero],[(5,.setEnt .internalNl),(6,.cb)],0,2⟩],[⟨7,8192,[],[(5,.setEnt .internalNl),(6,.cb)],0,2⟩,⟨9,1024,[],[(5,.setEnt .internalNl),(6,.cb)],0,2⟩,⟨10,4096,[],[(5,.setEnt .internalNl),(6,.cb)],0,2⟩,⟨11,8192,[.crAlone],[(5,.setEnt .internalNl),(6,.cb)],0,2⟩,⟨12,4294967808,[],[(5,.setEnt .internalNl),(6,.cb)],0,2⟩,⟨13,10633823966279326983230456482242756608,[],[(5,.setEnt .internalNl),(6,.cb)],0,2⟩,⟨15,35184372088832,[],[(5,.setEnt .internalNl),(6,.cb)],0,2⟩,⟨17,115792089237316195423570985008687907853269984665640564039457584007908834658815,[],[(5,.setEnt .internalNl),(6,.cb),(11,.comment)],0,2⟩,⟨18,35184372088832,[.nestZero],[(5,.setEnt .internalNl),(6,.cb)],0,2⟩],[⟨7,8192,[],[(5,.setEnt .internalNl),(6,.cb)],0,2⟩,⟨9,1024,[],[(5,.setEnt .internalNl),(6,.cb)],0,2⟩,⟨10,4096,[],[(5,.setEnt .internalNl),(6,.cb)],0,2⟩,⟨11,8192,[.crAlone],[(5,.setEnt .internalNl),(6,.cb)],0,2⟩,⟨12,4294967808,[],[(5,.setEnt .internalNl),(6,.cb)],0,2⟩,⟨13,10633823966279326983230456482242756608,[],[(5,.setEnt .internalNl),(6,.cb)],0,2⟩,⟨15,35184372088832,[],[(5,.setEnt .internalNl),(6,.cb)],0,2⟩,⟨17,115792089237316195423570985008687907853269984665640564039457584007908834658815,[],[(5,.setEnt .internalNl),(6,.cb),(11,.comment)],0,2⟩,⟨18,35184372088832,[.nestZero],[(5,.setEnt .internalNl),(6,.cb)],0,2⟩],[⟨7,8192,[],[],0,2⟩,⟨9,1024,[],[],0,2⟩,⟨10,4096,[],[],0,2⟩,⟨11,8192,[.crAlone],[],0,2⟩,⟨12,4294967808,[],[],0,2⟩,⟨13,10633823966279326983230456482242756608,[],[],0,2⟩,⟨15,35184372088832,[],[],0,2⟩,⟨17,115792089237316195423570985008687907853269984665640564039457584007908834658815,[],[(11,.comment)],0,2⟩,⟨18,35184372088832,[.nestZero],[],0,2⟩],[⟨14,35184372088832,[],[(7,.nestInc),(8,.comment)],0,2⟩],[⟨7,8192,[],[],0,2⟩,⟨9,1024,[],[],0,2⟩,⟨10,4096,[],[],0,2⟩,⟨11,8192,[.crAlone],[],0,2⟩,⟨12,4294967808,[],[],0,2⟩,⟨13,10633823966279326983230456482242756608,[],[],0,2⟩,⟨15,35184372088832,[],[],0,2⟩,⟨17,115792089237316195423570985008687907853269984665640564039457584007908834658815,[],[(11,.comment)],0,2⟩,⟨18,35184372088832,[.nestZero],[],0,2⟩],[⟨16,42535295865117307932921825928971026432,[],[(9,.nestDec),(10,.comment)],0,2⟩],[⟨7,8192,[],[],0,2⟩,⟨9,1024,[],[],0,2⟩,⟨10,4096,[],[],0,2⟩,⟨11,8192,[.crAlone],[],0,2⟩,⟨12,4294967808,[],[],0,2⟩,⟨13,10633823966279326983230456482242756608,[],[],0,2⟩,⟨15,35184372088832,[],[],0,2⟩,⟨17,115792089237316195423570985008687907853269984665640564039457584007908834658815,[],[(11,.comment)],0,2⟩,⟨18,35184372088832,[.nestZero],[],0,2⟩],[⟨7,8192,[],[],0,2⟩,⟨9,1024,[],[],0,2⟩,⟨10,4096,[],[],0,2⟩,⟨11,8192,[.crAlone],[],0,2⟩,⟨12,4294967808,[],[],0,2⟩,⟨13,10633823966279326983230456482242756608,[],[],0,2⟩,⟨15,35184372088832,[],[],0,2⟩,⟨17,115792089237316195423570985008687907853269984665640564039457584007908834658815,[],[(11,.comment)],0,2⟩,⟨18,35184372088832,[.nestZero],[],0,2⟩],[⟨19,42535295865117307932921825928971026432,[.nestZero],[(12,.comment)],2,0⟩],[],[⟨21,115792089237316195423570985008687907853269984665635612279300442486263777315839,[],[],0,0⟩,⟨22,4951760157141521099596496896,[],[],0,0⟩],[⟨24,549755813888,[],[],0,0⟩],[⟨23,115792089237316195423570985008687907853269984665640564039457584007913129626623,[],[],0,0⟩],[⟨24,549755813888,[],[],0,0⟩],[],[⟨26,4951760157141521099596496896,[],[],0,0⟩,⟨32,4294967808,[],[],0,0⟩,⟨33,115792089237316195423570985008687907853269984665635612279300442486792058306047,[],[(17,.code)],0,0⟩,⟨34,4951760157141521099596496896,[],[],0,0⟩,⟨36,17179869184,[],[],0,0⟩],[⟨27,8192,[],[],0,0⟩,⟨29,1024,[],[],0,0⟩,⟨30,4096,[],[],0,0⟩,⟨31,8192,[.crAlone],[],0,0⟩],[⟨28,1024,[],[],0,0⟩],[⟨26,4951760157141521099596496896,[],[(15,.setEnt .internalNl),(16,.cb)],0,0⟩,⟨32,4294967808,[],[(15,.setEnt .internalNl),(16,.cb)],0,0⟩,⟨33,115792089237316195423570985008687907853269984665635612279300442486792058306047,[],[(15,.setEnt .internalNl),(16,.cb),(17,.code)],0,0⟩,⟨34,4951760157141521099596496896,[],[(15,.setEnt .internalNl),(16,.cb)],0,0⟩,⟨36,17179869184,[],[(15,.setEnt .internalNl),(16,.cb)],0,0⟩],[⟨26,4951760157141521099596496896,[],[(15,.setEnt .internalNl),(16,.cb)],0,0⟩,⟨32,4294967808,[],[(15,.setEnt .internalNl),(16,.cb)],0,0⟩,⟨33,115792089237316195423570985008687907853269984665635612279300442486792058306047,[],[(15,.setEnt .internalNl),(16,.cb),(17,.code)],0,0⟩,⟨34,4951760157141521099596496896,[],[(15,.setEnt .internalNl),(16,.cb)],0,0⟩,⟨36,17179869184,[],[(15,.setEnt .internalNl),(16,.cb)],0,0⟩],[⟨26,4951760157141521099596496896,[],[(15,.setEnt .internalNl),(16,.cb)],0,0⟩,⟨32,4294967808,[],[(15,.setEnt .internalNl),(16,.cb)],0,0⟩,⟨33,115792089237316195423570985008687907853269984665635612279300442486792058306047,[],[(15,.setEnt .internalNl),(16,.cb),(17,.code)],0,0⟩,⟨34,4951760157141521099596496896,[],[(15,.setEnt .internalNl),(16,.cb)],0,0⟩,⟨36,17179869184,[],[(15,.setEnt .internalNl),(16,.cb)],0,0⟩],[⟨26,4951760157141521099596496896,[],[(15,.setEnt .internalNl),(16,.cb)],0,0⟩,⟨32,4294967808,[],[(15,.setEnt .internalNl),(16,.cb)],0,0⟩,⟨33,115792089237316195423570985008687907853269984665635612279300442486792058306047,[],[(15,.setEnt .internalNl),(16,.cb),(17,.code)],0,0⟩,⟨34,4951760157141521099596496896,[],[(15,.setEnt .internalNl),(16,.cb)],0,0⟩,⟨36,17179869184,[],[(15,.setEnt .internalNl),(16,.cb)],0,0⟩],[⟨26,4951760157141521099596496896,[],[],0,0⟩,⟨32,4294967808,[],[],0,0⟩,⟨33,115792089237316195423570985008687907853269984665635612279300442486792058306047,[],[(17,.code)],0,0⟩,⟨34,4951760157141521099596496896,[],[],0,0⟩,⟨36,17179869184,[],[],0,0⟩],[⟨26,4951760157141521099596496896,[],[],0,0⟩,⟨32,4294967808,[],[],0,0⟩,⟨33,115792089237316195423570985008687907853269984665635612279300442486792058306047,[],[(17,.code)],0,0⟩,⟨34,4951760157141521099596496896,[],[],0,0⟩,⟨36,17179869184,[],[],0,0⟩],[⟨35,115792089237316195423570985008687907853269984665640564039457584007913129626623,[],[(18,.code)],0,0⟩],[⟨26,4951760157141521099596496896,[],[],0,0⟩,⟨32,4294967808,[],[],0,0⟩,⟨33,115792089237316195423570985008687907853269984665635612279300442486792058306047,[],[(17,.code)],0,0⟩,⟨34,4951760157141521099596496896,[],[],0,0⟩,⟨36,17179869184,[],[],0,0⟩],[],[⟨38,1024,[],[(19,.setEnt .newline)],0,0⟩],[],[],[],[],[]],[some (0,[]),none,none,some (1,[]),some (1,[]),none,none,none,none,none,none,none,none,none,none,none,none,none,none,some (1,[]),none,none,none,none,some (2,[]),none,none,none,none,none,none,none,none,none,none,none,some (2,[]),none,some (3,[]),some (3,[]),some (3,[]),some (3,[]),some (4,[])],[1,13,19,20,21]⟩
theorem elm_line_nfa_eq : Elm.elm_line.nfa = elm_line_nfa := by decide +kernel
/-- The machine of `Elm.elm_line`, with its automaton as a literal. -/
def elm_line_M : Machine := ⟨elm_line_nfa, Elm.elm_line.ends, Elm.elm_line.sw⟩
theorem elm_line_M_eq : Elm.elm_line.machine = elm_line_M := by
  unfold Scanner.machine elm_line_M; rw [elm_line_nfa_eq]
def elm_line_masks : List Nat := [4294967808,35184372088832,10633823966279326983230456482242756608,549755813888,17179869184,8192,1024,4096,115792089237316195423570985008687907853269984665640564039457584007908834656767,115792089237316195423570985008687907853269984665640564039452972321894702252031,115792089237316195423570985008687907853269984665640564039457584007913129626623,115792089237316195423570985008687907853269984665640564039457584007908834658815,42535295865117307932921825928971026432,115792089237316195423570985008687907853269984665635612279300442486263777315839,4951760157141521099596496896,115792089237316195423570985008687907853269984665635612279300442486792058306047]
def elm_line_cs : List (Nat × Nat) := [(0,115792089237316195423570985008687907853216815545804215644379678482628289217023),(9,4294967808),(10,1024),(11,2048),(12,4096),(13,8192),(34,17179869184),(39,549755813888),(45,35184372088832),(62,4611686018427387904),(92,4951760157141521099596496896),(123,10633823966279326983230456482242756608),(125,42535295865117307932921825928971026432)]
theorem elm_line_masksIn : masksIn elm_line_nfa elm_line_masks = true := by decide +kernel
theorem elm_line_repOk : repOk elm_line_masks elm_line_cs = true := by decide +kernel
def elm_line_rows : List Row := [⟨[],none,[],[⟨0,.other,false,some ⟨0,[.setEnt (.own 3)],some 4,true⟩⟩,⟨9,.ws,false,some ⟨1,[.setEnt (.own 0)],some 0,false⟩⟩,⟨10,.lf,false,some ⟨0,[.setEnt .newline],some 3,true⟩⟩,⟨11,.vt,false,none⟩,⟨12,.ff,false,some ⟨0,[.setEnt .newline],some 3,true⟩⟩,⟨13,.cr,false,some ⟨2,[.setEnt .newline],none,false⟩⟩,⟨13,.cr,true,some ⟨3,[.setEnt .newline],some 3,false⟩⟩,⟨34,.other,false,some ⟨4,[.code,.setEnt (.own 3)],some 4,false⟩⟩,⟨39,.other,false,some ⟨5,[.code,.setEnt (.own 3)],some 4,false⟩⟩,⟨45,.other,false,some ⟨6,[.setEnt (.own 3)],some 4,false⟩⟩,⟨62,.other,false,some ⟨0,[.setEnt (.own 3)],some 4,true⟩⟩,⟨92,.other,false,some ⟨0,[.setEnt (.own 3)],some 4,true⟩⟩,⟨123,.other,false,some ⟨7,[.nestRes,.setEnt (.own 3)],some 4,false⟩⟩,⟨125,.other,false,some ⟨0,[.setEnt (.own 3)],some 4,true⟩⟩]⟩,⟨[0],some 0,[],[⟨0,.other,false,none⟩,⟨9,.ws,false,some ⟨1,[.setEnt (.own 0)],some 0,false⟩⟩,⟨10,.lf,false,none⟩,⟨11,.vt,false,none⟩,⟨12,.ff,false,none⟩,⟨13,.cr,false,none⟩,⟨13,.cr,true,none⟩,⟨34,.other,false,none⟩,⟨39,.other,false,none⟩,⟨45,.other,false,none⟩,⟨62,.other,false,none⟩,⟨92,.other,false,none⟩,⟨123,.other,false,none⟩,⟨125,.other,false,none⟩]⟩,⟨[37],none,[],[⟨0,.other,false,none⟩,⟨9,.ws,false,none⟩,⟨10,.lf,false,some ⟨0,[.setEnt .newline],some 3,true⟩⟩,⟨11,.vt,false,none⟩,⟨12,.ff,false,none⟩,⟨13,.cr,false,none⟩,⟨13,.cr,true,none⟩,⟨34,.other,false,none⟩,⟨39,.other,false,none⟩,⟨45,.other,false,none⟩,⟨62,.other,false,none⟩,⟨92,.other,false,none⟩,⟨123,.other,false,none⟩,⟨125,.other,false,none⟩]⟩,⟨[37,41],some 3,[],[⟨0,.other,false,none⟩,⟨9,.ws,false,none⟩,⟨10,.lf,false,some ⟨0,[.setEnt .newline],some 3,true⟩⟩,⟨11,.vt,false,none⟩,⟨12,.ff,false,none⟩,⟨13,.cr,false,none⟩,⟨13,.cr,true,none⟩,⟨34,.other,false,none⟩,⟨39,.other,false,none⟩,⟨45,.other,false,none⟩,⟨62,.other,false,none⟩,⟨92,.other,false,none⟩,⟨123,.other,false,none⟩,⟨125,.other,false,none⟩]⟩,⟨[25,42],some 4,[],[⟨0,.other,false,some ⟨8,[.code],none,false⟩⟩,⟨9,.ws,false,some ⟨9,[],none,false⟩⟩,⟨10,.lf,false,some ⟨8,[.code],none,false⟩⟩,⟨11,.vt,false,some ⟨8,[.code],none,false⟩⟩,⟨12,.ff,false,some ⟨8,[.code],none,false⟩⟩,⟨13,.cr,false,some ⟨8,[.code],none,false⟩⟩,⟨13,.cr,true,some ⟨8,[.code],none,false⟩⟩,⟨34,.other,false,some ⟨0,[],some 2,true⟩⟩,⟨39,.other,false,some ⟨8,[.code],none,false⟩⟩,⟨45,.other,false,some ⟨8,[.code],none,false⟩⟩,⟨62,.other,false,some ⟨8,[.code],none,false⟩⟩,⟨92,.other,false,some ⟨10,[],none,false⟩⟩,⟨123,.other,false,some ⟨8,[.code],none,false⟩⟩,⟨125,.other,false,some ⟨8,[.code],none,false⟩⟩]⟩,⟨[20,42],some 4,[],[⟨0,.other,false,some ⟨11,[],none,false⟩⟩,⟨9,.ws,false,some ⟨11,[],none,false⟩⟩,⟨10,.lf,false,none⟩,⟨11,.vt,false,some ⟨11,[],none,false⟩⟩,⟨12,.ff,false,none⟩,⟨13,.cr,false,none⟩,⟨13,.cr,true,none⟩,⟨34,.other,false,some ⟨11,[],none,false⟩⟩,⟨39,.other,false,none⟩,⟨45,.other,false,some ⟨11,[],none,false⟩⟩,⟨62,.other,false,some ⟨11,[],none,false⟩⟩,⟨92,.other,false,some ⟨12,[],none,false⟩⟩,⟨123,.other,false,some ⟨11,[],none,false⟩⟩,⟨125,.other,false,some ⟨11,[],none,false⟩⟩]⟩,⟨[1,42],some 4,[],[⟨0,.other,false,none⟩,⟨9,.ws,false,none⟩,⟨10,.lf,false,none⟩,⟨11,.vt,false,none⟩,⟨12,.ff,false,none⟩,⟨13,.cr,false,none⟩,⟨13,.cr,true,none⟩,⟨34,.other,false,none⟩,⟨39,.other,false,none⟩,⟨45,.other,false,some ⟨13,[],none,false⟩⟩,⟨62,.other,false,none⟩,⟨92,.other,false,none⟩,⟨123,.other,false,none⟩,⟨125,.other,false,none⟩]⟩,⟨[5,42],some 4,[],[⟨0,.other,false,none⟩,⟨9,.ws,false,none⟩,⟨10,.lf,false,none⟩,⟨11,.vt,false,none⟩,⟨12,.ff,false,none⟩,⟨13,.cr,false,none⟩,⟨13,.cr,true,none⟩,⟨34,.other,false,none⟩,⟨39,.other,false,none⟩,⟨45,.other,false,some ⟨14,[.comment],none,false⟩⟩,⟨62,.other,false,none⟩,⟨92,.other,false,none⟩,⟨123,.other,false,none⟩,⟨125,.other,false,none⟩]⟩,⟨[33],none,[],[⟨0,.other,false,some ⟨8,[.code],none,false⟩⟩,⟨9,.ws,false,some ⟨9,[],none,false⟩⟩,⟨10,.lf,false,some ⟨8,[.code],none,false⟩⟩,⟨11,.vt,false,some ⟨8,[.code],none,false⟩⟩,⟨12,.ff,false,some ⟨8,[.code],none,false⟩⟩,⟨13,.cr,false,some ⟨8,[.code],none,false⟩⟩,⟨13,.cr,true,some ⟨8,[.code],none,false⟩⟩,⟨34,.other,false,some ⟨0,[],some 2,true⟩⟩,⟨39,.other,false,some ⟨8,[.code],none,false⟩⟩,⟨45,.other,false,some ⟨8,[.code],none,false⟩⟩,⟨62,.other,false,some ⟨8,[.code],none,false⟩⟩,⟨92,.other,false,some ⟨10,[],none,false⟩⟩,⟨123,.other,false,some ⟨8,[.code],none,false⟩⟩,⟨125,.other,false,some ⟨8,[.code],none,false⟩⟩]⟩,⟨[32],none,[],[⟨0,.other,false,some ⟨8,[.code],none,false⟩⟩,⟨9,.ws,false,some ⟨9,[],none,false⟩⟩,⟨10,.lf,false,some ⟨8,[.code],none,false⟩⟩,⟨11,.vt,false,some ⟨8,[.code],none,false⟩⟩,⟨12,.ff,false,some ⟨8,[.code],none,false⟩⟩,⟨13,.cr,false,some ⟨8,[.code],none,false⟩⟩,⟨13,.cr,true,some ⟨8,[.code],none,false⟩⟩,⟨34,.other,false,some ⟨0,[],some 2,true⟩⟩,⟨39,.other,false,some ⟨8,[.code],none,false⟩⟩,⟨45,.other,false,some ⟨8,[.code],none,false⟩⟩,⟨62,.other,false,some ⟨8,[.code],none,false⟩⟩,⟨92,.other,false,some ⟨10,[],none,false⟩⟩,⟨123,.other,false,some ⟨8,[.code],none,false⟩⟩,⟨125,.other,false,some ⟨8,[.code],none,false⟩⟩]⟩,⟨[26,34],none,[],[⟨0,.other,false,some ⟨15,[.code],none,false⟩⟩,⟨9,.ws,false,some ⟨15,[.code],none,false⟩⟩,⟨10,.lf,false,some ⟨16,[],none,false⟩⟩,⟨11,.vt,false,some ⟨15,[.code],none,false⟩⟩,⟨12,.ff,false,some ⟨17,[],none,false⟩⟩,⟨13,.cr,false,some ⟨18,[],none,false⟩⟩,⟨13,.cr,true,some ⟨19,[],none,false⟩⟩,⟨34,.other,false,some ⟨15,[.code],none,false⟩⟩,⟨39,.other,false,some ⟨15,[.code],none,false⟩⟩,⟨45,.other,false,some ⟨15,[.code],none,false⟩⟩,⟨62,.other,false,some ⟨15,[.code],none,false⟩⟩,⟨92,.other,false,some ⟨15,[.code],none,false⟩⟩,⟨123,.other,false,some ⟨15,[.code],none,false⟩⟩,⟨125,.other,false,some ⟨15,[.code],none,false⟩⟩]⟩,⟨[21],none,[],[⟨0,.other,false,none⟩,⟨9,.ws,false,none⟩,⟨10,.lf,false,none⟩,⟨11,.vt,false,none⟩,⟨12,.ff,false,none⟩,⟨13,.cr,false,none⟩,⟨13,.cr,true,none⟩,⟨34,.other,false,none⟩,⟨39,.other,false,some ⟨0,[],some 2,true⟩⟩,⟨45,.other,false,none⟩,⟨62,.other,false,none⟩,⟨92,.other,false,none⟩,⟨123,.other,false,none⟩,⟨125,.other,false,none⟩]⟩,⟨[22],none,[],[⟨0,.other,false,some ⟨20,[],none,false⟩⟩,⟨9,.ws,false,some ⟨20,[],none,false⟩⟩,⟨10,.lf,false,none⟩,⟨11,.vt,false,some ⟨20,[],none,false⟩⟩,⟨12,.ff,false,none⟩,⟨13,.cr,false,none⟩,⟨13,.cr,true,none⟩,⟨34,.other,false,some ⟨20,[],none,false⟩⟩,⟨39,.other,false,some ⟨20,[],none,false⟩⟩,⟨45,.other,false,some ⟨20,[],none,false⟩⟩,⟨62,.other,false,some ⟨20,[],none,false⟩⟩,⟨92,.other,false,some ⟨20,[],none,false⟩⟩,⟨123,.other,false,some ⟨20,[],none,false⟩⟩,⟨125,.other,false,some ⟨20,[],none,false⟩⟩]⟩,⟨[2],none,[],[⟨0,.other,false,some ⟨21,[.fhold 0,.comment],some 1,false⟩⟩,⟨9,.ws,false,some ⟨21,[.fhold 0,.comment],some 1,false⟩⟩,⟨10,.lf,false,some ⟨21,[.fhold 0,.comment],some 1,false⟩⟩,⟨11,.vt,false,some ⟨21,[.fhold 0,.comment],some 1,false⟩⟩,⟨12,.ff,false,some ⟨21,[.fhold 0,.comment],some 1,false⟩⟩,⟨13,.cr,false,some ⟨21,[.fhold 0,.comment],some 1,false⟩⟩,⟨13,.cr,true,some ⟨21,[.fhold 0,.comment],some 1,false⟩⟩,⟨34,.other,false,some ⟨21,[.fhold 0,.comment],some 1,false⟩⟩,⟨39,.other,false,some ⟨21,[.fhold 0,.comment],some 1,false⟩⟩,⟨45,.other,false,some ⟨21,[.fhold 0,.comment],some 1,false⟩⟩,⟨62,.other,false,none⟩,⟨92,.other,false,some ⟨21,[.fhold 0,.comment],some 1,false⟩⟩,⟨123,.other,false,some ⟨21,[.fhold 0,.comment],some 1,false⟩⟩,⟨125,.other,false,some ⟨21,[.fhold 0,.comment],some 1,false⟩⟩]⟩,⟨[6],none,[],[⟨0,.other,false,some ⟨22,[.comment],none,false⟩⟩,⟨9,.ws,false,some ⟨23,[],none,false⟩⟩,⟨10,.lf,false,some ⟨24,[],none,false⟩⟩,⟨11,.vt,false,some ⟨22,[.comment],none,false⟩⟩,⟨12,.ff,false,some ⟨25,[],none,false⟩⟩,⟨13,.cr,false,some ⟨26,[],none,false⟩⟩,⟨13,.cr,true,some ⟨27,[],none,false⟩⟩,⟨34,.other,false,some ⟨22,[.comment],none,false⟩⟩,⟨39,.other,false,some ⟨22,[.comment],none,false⟩⟩,⟨45,.other,false,some ⟨28,[.comment],none,false⟩⟩,⟨45,.other,false,some ⟨29,[.comment],none,false⟩⟩,⟨62,.other,false,some ⟨22,[.comment],none,false⟩⟩,⟨92,.other,false,some ⟨22,[.comment],none,false⟩⟩,⟨123,.other,false,some ⟨30,[.comment],none,false⟩⟩,⟨125,.other,false,some ⟨22,[.comment],none,false⟩⟩]⟩,⟨[35],none,[],[⟨0,.other,false,some ⟨8,[.code],none,false⟩⟩,⟨9,.ws,false,some ⟨9,[],none,false⟩⟩,⟨10,.lf,false,some ⟨8,[.code],none,false⟩⟩,⟨11,.vt,false,some ⟨8,[.code],none,false⟩⟩,⟨12,.ff,false,some ⟨8,[.code],none,false⟩⟩,⟨13,.cr,false,some ⟨8,[.code],none,false⟩⟩,⟨13,.cr,true,some ⟨8,[.code],none,false⟩⟩,⟨34,.other,false,some ⟨0,[],some 2,true⟩⟩,⟨39,.other,false,some ⟨8,[.code],none,false⟩⟩,⟨45,.other,false,some ⟨8,[.code],none,false⟩⟩,⟨62,.other,false,some ⟨8,[.code],none,false⟩⟩,⟨92,.other,false,some ⟨10,[],none,false⟩⟩,⟨123,.other,false,some ⟨8,[.code],none,false⟩⟩,⟨125,.other,false,some ⟨8,[.code],none,false⟩⟩]⟩,⟨[29],none,[],[⟨0,.other,false,some ⟨8,[.setEnt .internalNl,.cb,.code],none,false⟩⟩,⟨9,.ws,false,some ⟨9,[.setEnt .internalNl,.cb],none,false⟩⟩,⟨10,.lf,false,some ⟨8,[.setEnt .internalNl,.cb,.code],none,false⟩⟩,⟨11,.vt,false,some ⟨8,[.setEnt .internalNl,.cb,.code],none,false⟩⟩,⟨12,.ff,false,some ⟨8,[.setEnt .internalNl,.cb,.code],none,false⟩⟩,⟨13,.cr,false,some ⟨8,[.setEnt .internalNl,.cb,.code],none,false⟩⟩,⟨13,.cr,true,some ⟨8,[.setEnt .internalNl,.cb,.code],none,false⟩⟩,⟨34,.other,false,some ⟨0,[.setEnt .internalNl,.cb],some 2,true⟩⟩,⟨39,.other,false,some ⟨8,[.setEnt .internalNl,.cb,.code],none,false⟩⟩,⟨45,.other,false,some ⟨8,[.setEnt .internalNl,.cb,.code],none,false⟩⟩,⟨62,.other,false,some ⟨8,[.setEnt .internalNl,.cb,.code],none,false⟩⟩,⟨92,.other,false,some ⟨10,[.setEnt .internalNl,.cb],none,false⟩⟩,⟨123,.other,false,some ⟨8,[.setEnt .internalNl,.cb,.code],none,false⟩⟩,⟨125,.other,false,some ⟨8,[.setEnt .internalNl,.cb,.code],none,false⟩⟩]⟩,⟨[30],none,[],[⟨0,.other,false,some ⟨8,[.setEnt .internalNl,.cb,.code],none,false⟩⟩,⟨9,.ws,false,some ⟨9,[.setEnt .internalNl,.cb],none,false⟩⟩,⟨10,.lf,false,some ⟨8,[.setEnt .internalNl,.cb,.code],none,false⟩⟩,⟨11,.vt,false,some ⟨8,[.setEnt .internalNl,.cb,.code],none,false⟩⟩,⟨12,.ff,false,some ⟨8,[.setEnt .internalNl,.cb,.code],none,false⟩⟩,⟨13,.cr,false,some ⟨8,[.setEnt .internalNl,.cb,.code],none,false⟩⟩,⟨13,.cr,true,some ⟨8,[.setEnt .internalNl,.cb,.code],none,false⟩⟩,⟨34,.other,false,some ⟨0,[.setEnt .internalNl,.cb],some 2,true⟩⟩,⟨39,.other,false,some ⟨8,[.setEnt .internalNl,.cb,.code],none,false⟩⟩,⟨45,.other,false,some ⟨8,[.setEnt .internalNl,.cb,.code],none,false⟩⟩,⟨62,.other,false,some ⟨8,[.setEnt .internalNl,.cb,.code],none,false⟩⟩,⟨92,.other,false,some ⟨10,[.setEnt .internalNl,.cb],none,false⟩⟩,⟨123,.other,false,some ⟨8,[.setEnt .internalNl,.cb,.code],none,false⟩⟩,⟨125,.other,false,some ⟨8,[.setEnt .internalNl,.cb,.code],none,false⟩⟩]⟩,⟨[27],none,[],[⟨0,.other,false,none⟩,⟨9,.ws,false,none⟩,⟨10,.lf,false,some ⟨31,[],none,false⟩⟩,⟨11,.vt,false,none⟩,⟨12,.ff,false,none⟩,⟨13,.cr,false,none⟩,⟨13,.cr,true,none⟩,⟨34,.other,false,none⟩,⟨39,.other,false,none⟩,⟨45,.other,false,none⟩,⟨62,.other,false,none⟩,⟨92,.other,false,none⟩,⟨123,.other,false,none⟩,⟨125,.other,false,none⟩]⟩,⟨[27,31],none,[],[⟨0,.other,false,some ⟨8,[.setEnt .internalNl,.cb,.code],none,false⟩⟩,⟨9,.ws,false,some ⟨9,[.setEnt .internalNl,.cb],none,false⟩⟩,⟨10,.lf,false,some ⟨32,[.setEnt .internalNl,.cb,.code],none,false⟩⟩,⟨11,.vt,false,some ⟨8,[.setEnt .internalNl,.cb,.code],none,false⟩⟩,⟨12,.ff,false,some ⟨8,[.setEnt .internalNl,.cb,.code],none,false⟩⟩,⟨13,.cr,false,some ⟨8,[.setEnt .internalNl,.cb,.code],none,false⟩⟩,⟨13,.cr,true,some ⟨8,[.setEnt .internalNl,.cb,.code],none,false⟩⟩,⟨34,.other,false,some ⟨0,[.setEnt .internalNl,.cb],some 2,true⟩⟩,⟨39,.other,false,some ⟨8,[.setEnt .internalNl,.cb,.code],none,false⟩⟩,⟨45,.other,false,some ⟨8,[.setEnt .internalNl,.cb,.code],none,false⟩⟩,⟨62,.other,false,some ⟨8,[.setEnt .internalNl,.cb,.code],none,false⟩⟩,⟨92,.other,false,some ⟨10,[.setEnt .internalNl,.cb],none,false⟩⟩,⟨123,.other,false,some ⟨8,[.setEnt .internalNl,.cb,.code],none,false⟩⟩,⟨125,.other,false,some ⟨8,[.setEnt .internalNl,.cb,.code],none,false⟩⟩]⟩,⟨[23],none,[],[⟨0,.other,false,none⟩,⟨9,.ws,false,none⟩,⟨10,.lf,false,none⟩,⟨11,.vt,false,none⟩,⟨12,.ff,false,none⟩,⟨13,.cr,false,none⟩,⟨13,.cr,true,none⟩,⟨34,.other,false,none⟩,⟨39,.other,false,some ⟨0,[],some 2,true⟩⟩,⟨45,.other,false,none⟩,⟨62,.other,false,none⟩,⟨92,.other,false,none⟩,⟨123,.other,false,none⟩,⟨125,.other,false,none⟩]⟩,⟨[3],some 1,[],[⟨0,.other,false,some ⟨33,[],some 1,false⟩⟩,⟨9,.ws,false,some ⟨33,[],some 1,false⟩⟩,⟨10,.lf,false,none⟩,⟨11,.vt,false,some ⟨33,[],some 1,false⟩⟩,⟨12,.ff,false,none⟩,⟨13,.cr,false,none⟩,⟨13,.cr,true,none⟩,⟨34,.other,false,some ⟨33,[],some 1,false⟩⟩,⟨39,.other,false,some ⟨33,[],some 1,false⟩⟩,⟨45,.other,false,some ⟨33,[],some 1,false⟩⟩,⟨62,.other,false,some ⟨33,[],some 1,false⟩⟩,⟨92,.other,false,some ⟨33,[],some 1,false⟩⟩,⟨123,.other,false,some ⟨33,[],some 1,false⟩⟩,⟨125,.other,false,some ⟨33,[],some 1,false⟩⟩]⟩,⟨[17],none,[],[⟨0,.other,false,some ⟨22,[.comment],none,false⟩⟩,⟨9,.ws,false,some ⟨23,[],none,false⟩⟩,⟨10,.lf,false,some ⟨24,[],none,false⟩⟩,⟨11,.vt,false,some ⟨22,[.comment],none,false⟩⟩,⟨12,.ff,false,some ⟨25,[],none,false⟩⟩,⟨13,.cr,false,some ⟨26,[],none,false⟩⟩,⟨13,.cr,true,some ⟨27,[],none,false⟩⟩,⟨34,.other,false,some ⟨22,[.comment],none,false⟩⟩,⟨39,.other,false,some ⟨22,[.comment],none,false⟩⟩,⟨45,.other,false,some ⟨28,[.comment],none,false⟩⟩,⟨45,.other,false,some ⟨29,[.comment],none,false⟩⟩,⟨62,.other,false,some ⟨22,[.comment],none,false⟩⟩,⟨92,.other,false,some ⟨22,[.comment],none,false⟩⟩,⟨123,.other,false,some ⟨30,[.comment],none,false⟩⟩,⟨125,.other,false,some ⟨22,[.comment],none,false⟩⟩]⟩,⟨[12],none,[],[⟨0,.other,false,some ⟨22,[.comment],none,false⟩⟩,⟨9,.ws,false,some ⟨23,[],none,false⟩⟩,⟨10,.lf,false,some ⟨24,[],none,false⟩⟩,⟨11,.vt,false,some ⟨22,[.comment],none,false⟩⟩,⟨12,.ff,false,some ⟨25,[],none,false⟩⟩,⟨13,.cr,false,some ⟨26,[],none,false⟩⟩,⟨13,.cr,true,some ⟨27,[],none,false⟩⟩,⟨34,.other,false,some ⟨22,[.comment],none,false⟩⟩,⟨39,.other,false,some ⟨22,[.comment],none,false⟩⟩,⟨45,.other,false,some ⟨28,[.comment],none,false⟩⟩,⟨45,.other,false,some ⟨29,[.comment],none,false⟩⟩,⟨62,.other,false,some ⟨22,[.comment],none,false⟩⟩,⟨92,.other,false,some ⟨22,[.comment],none,false⟩⟩,⟨123,.other,false,some ⟨30,[.comment],none,false⟩⟩,⟨125,.other,false,some ⟨22,[.comment],none,false⟩⟩]⟩,⟨[9],none,[],[⟨0,.other,false,some ⟨22,[.setEnt .internalNl,.cb,.comment],none,false⟩⟩,⟨9,.ws,false,some ⟨23,[.setEnt .internalNl,.cb],none,false⟩⟩,⟨10,.lf,false,some ⟨24,[.setEnt .internalNl,.cb],none,false⟩⟩,⟨11,.vt,false,some ⟨22,[.setEnt .internalNl,.cb,.comment],none,false⟩⟩,⟨12,.ff,false,some ⟨25,[.setEnt .internalNl,.cb],none,false⟩⟩,⟨13,.cr,false,some ⟨26,[.setEnt .internalNl,.cb],none,false⟩⟩,⟨13,.cr,true,some ⟨27,[.setEnt .internalNl,.cb],none,false⟩⟩,⟨34,.other,false,some ⟨22,[.setEnt .internalNl,.cb,.comment],none,false⟩⟩,⟨39,.other,false,some ⟨22,[.setEnt .internalNl,.cb,.comment],none,false⟩⟩,⟨45,.other,false,some ⟨28,[.setEnt .internalNl,.cb,.comment],none,false⟩⟩,⟨45,.other,false,some ⟨29,[.setEnt .internalNl,.cb,.comment],none,false⟩⟩,⟨62,.other,false,some ⟨22,[.setEnt .internalNl,.cb,.comment],none,false⟩⟩,⟨92,.other,false,some ⟨22,[.setEnt .internalNl,.cb,.comment],none,false⟩⟩,⟨123,.other,false,some ⟨30,[.setEnt .internalNl,.cb,.comment],none,false⟩⟩,⟨125,.other,false,some ⟨22,[.setEnt .internalNl,.cb,.comment],none,false⟩⟩]⟩,⟨[10],none,[],[⟨0,.other,false,some ⟨22,[.setEnt .internalNl,.cb,.comment],none,false⟩⟩,⟨9,.ws,false,some ⟨23,[.setEnt .internalNl,.cb],none,false⟩⟩,⟨10,.lf,false,some ⟨24,[.setEnt .internalNl,.cb],none,false⟩⟩,⟨11,.vt,false,some ⟨22,[.setEnt .internalNl,.cb,.comment],none,false⟩⟩,⟨12,.ff,false,some ⟨25,[.setEnt .internalNl,.cb],none,false⟩⟩,⟨13,.cr,false,some ⟨26,[.setEnt .internalNl,.cb],none,false⟩⟩,⟨13,.cr,true,some ⟨27,[.setEnt .internalNl,.cb],none,false⟩⟩,⟨34,.other,false,some ⟨22,[.setEnt .internalNl,.cb,.comment],none,false⟩⟩,⟨39,.other,false,some ⟨22,[.setEnt .internalNl,.cb,.comment],none,false⟩⟩,⟨45,.other,false,some ⟨28,[.setEnt .internalNl,.cb,.comment],none,false⟩⟩,⟨45,.other,false,some ⟨29,[.setEnt .internalNl,.cb,.comment],none,false⟩⟩,⟨62,.other,false,some ⟨22,[.setEnt .internalNl,.cb,.comment],none,false⟩⟩,⟨92,.other,false,some ⟨22,[.setEnt .internalNl,.cb,.comment],none,false⟩⟩,⟨123,.other,false,some ⟨30,[.setEnt .internalNl,.cb,.comment],none,false⟩⟩,⟨125,.other,false,some ⟨22,[.setEnt .internalNl,.cb,.comment],none,false⟩⟩]⟩,⟨[7],none,[],[⟨0,.other,false,none⟩,⟨9,.ws,false,none⟩,⟨10,.lf,false,some ⟨34,[],none,false⟩⟩,⟨11,.vt,false,none⟩,⟨12,.ff,false,none⟩,⟨13,.cr,false,none⟩,⟨13,.cr,true,none⟩,⟨34,.other,false,none⟩,⟨39,.other,false,none⟩,⟨45,.other,false,none⟩,⟨62,.other,false,none⟩,⟨92,.other,false,none⟩,⟨123,.other,false,none⟩,⟨125,.other,false,none⟩]⟩,⟨[7,11],none,[],[⟨0,.other,false,some ⟨22,[.setEnt .internalNl,.cb,.comment],none,false⟩⟩,⟨9,.ws,false,some ⟨23,[.setEnt .internalNl,.cb],none,false⟩⟩,⟨10,.lf,false,some ⟨35,[.setEnt .internalNl,.cb],none,false⟩⟩,⟨11,.vt,false,some ⟨22,[.setEnt .internalNl,.cb,.comment],none,false⟩⟩,⟨12,.ff,false,some ⟨25,[.setEnt .internalNl,.cb],none,false⟩⟩,⟨13,.cr,false,some ⟨26,[.setEnt .internalNl,.cb],none,false⟩⟩,⟨13,.cr,true,some ⟨27,[.setEnt .internalNl,.cb],none,false⟩⟩,⟨34,.other,false,some ⟨22,[.setEnt .internalNl,.cb,.comment],none,false⟩⟩,⟨39,.other,false,some ⟨22,[.setEnt .internalNl,.cb,.comment],none,false⟩⟩,⟨45,.other,false,some ⟨28,[.setEnt .internalNl,.cb,.comment],none,false⟩⟩,⟨45,.other,false,some ⟨29,[.setEnt .internalNl,.cb,.comment],none,false⟩⟩,⟨62,.other,false,some ⟨22,[.setEnt .internalNl,.cb,.comment],none,false⟩⟩,⟨92,.other,false,some ⟨22,[.setEnt .internalNl,.cb,.comment],none,false⟩⟩,⟨123,.other,false,some ⟨30,[.setEnt .internalNl,.cb,.comment],none,false⟩⟩,⟨125,.other,false,some ⟨22,[.setEnt .internalNl,.cb,.comment],none,false⟩⟩]⟩,⟨[15,17],none,[],[⟨0,.other,false,some ⟨22,[.comment],none,false⟩⟩,⟨9,.ws,false,some ⟨23,[],none,false⟩⟩,⟨10,.lf,false,some ⟨24,[],none,false⟩⟩,⟨11,.vt,false,some ⟨22,[.comment],none,false⟩⟩,⟨12,.ff,false,some ⟨25,[],none,false⟩⟩,⟨13,.cr,false,some ⟨26,[],none,false⟩⟩,⟨13,.cr,true,some ⟨27,[],none,false⟩⟩,⟨34,.other,false,some ⟨22,[.comment],none,false⟩⟩,⟨39,.other,false,some ⟨22,[.comment],none,false⟩⟩,⟨45,.other,false,some ⟨28,[.comment],none,false⟩⟩,⟨45,.other,false,some ⟨29,[.comment],none,false⟩⟩,⟨62,.other,false,some ⟨22,[.comment],none,false⟩⟩,⟨92,.other,false,some ⟨22,[.comment],none,false⟩⟩,⟨123,.other,false,some ⟨30,[.comment],none,false⟩⟩,⟨125,.other,false,some ⟨36,[.nestDec,.comment],none,false⟩⟩]⟩,⟨[15,17,18],none,[],[⟨0,.other,false,some ⟨22,[.comment],none,false⟩⟩,⟨9,.ws,false,some ⟨23,[],none,false⟩⟩,⟨10,.lf,false,some ⟨24,[],none,false⟩⟩,⟨11,.vt,false,some ⟨22,[.comment],none,false⟩⟩,⟨12,.ff,false,some ⟨25,[],none,false⟩⟩,⟨13,.cr,false,some ⟨26,[],none,false⟩⟩,⟨13,.cr,true,some ⟨27,[],none,false⟩⟩,⟨34,.other,false,some ⟨22,[.comment],none,false⟩⟩,⟨39,.other,false,some ⟨22,[.comment],none,false⟩⟩,⟨45,.other,false,some ⟨28,[.comment],none,false⟩⟩,⟨45,.other,false,some ⟨29,[.comment],none,false⟩⟩,⟨62,.other,false,some ⟨22,[.comment],none,false⟩⟩,⟨92,.other,false,some ⟨22,[.comment],none,false⟩⟩,⟨123,.other,false,some ⟨30,[.comment],none,false⟩⟩,⟨125,.other,false,some ⟨36,[.nestDec,.comment],none,false⟩⟩,⟨125,.other,false,some ⟨0,[.comment],some 1,true⟩⟩]⟩,⟨[13,17],none,[],[⟨0,.other,false,some ⟨22,[.comment],none,false⟩⟩,⟨9,.ws,false,some ⟨23,[],none,false⟩⟩,⟨10,.lf,false,some ⟨24,[],none,false⟩⟩,⟨11,.vt,false,some ⟨22,[.comment],none,false⟩⟩,⟨12,.ff,false,some ⟨25,[],none,false⟩⟩,⟨13,.cr,false,some ⟨26,[],none,false⟩⟩,⟨13,.cr,true,some ⟨27,[],none,false⟩⟩,⟨34,.other,false,some ⟨22,[.comment],none,false⟩⟩,⟨39,.other,false,some ⟨22,[.comment],none,false⟩⟩,⟨45,.other,false,some ⟨37,[.nestInc,.comment],none,false⟩⟩,⟨45,.other,false,some ⟨38,[.nestInc,.comment],none,false⟩⟩,⟨62,.other,false,some ⟨22,[.comment],none,false⟩⟩,⟨92,.other,false,some ⟨22,[.comment],none,false⟩⟩,⟨123,.other,false,some ⟨30,[.comment],none,false⟩⟩,⟨125,.other,false,some ⟨22,[.comment],none,false⟩⟩]⟩,⟨[28],none,[],[⟨0,.other,false,some ⟨8,[.setEnt .internalNl,.cb,.code],none,false⟩⟩,⟨9,.ws,false,some ⟨9,[.setEnt .internalNl,.cb],none,false⟩⟩,⟨10,.lf,false,some ⟨8,[.setEnt .internalNl,.cb,.code],none,false⟩⟩,⟨11,.vt,false,some ⟨8,[.setEnt .internalNl,.cb,.code],none,false⟩⟩,⟨12,.ff,false,some ⟨8,[.setEnt .internalNl,.cb,.code],none,false⟩⟩,⟨13,.cr,false,some ⟨8,[.setEnt .internalNl,.cb,.code],none,false⟩⟩,⟨13,.cr,true,some ⟨8,[.setEnt .internalNl,.cb,.code],none,false⟩⟩,⟨34,.other,false,some ⟨0,[.setEnt .internalNl,.cb],some 2,true⟩⟩,⟨39,.other,false,some ⟨8,[.setEnt .internalNl,.cb,.code],none,false⟩⟩,⟨45,.other,false,some ⟨8,[.setEnt .internalNl,.cb,.code],none,false⟩⟩,⟨62,.other,false,some ⟨8,[.setEnt .internalNl,.cb,.code],none,false⟩⟩,⟨92,.other,false,some ⟨10,[.setEnt .internalNl,.cb],none,false⟩⟩,⟨123,.other,false,some ⟨8,[.setEnt .internalNl,.cb,.code],none,false⟩⟩,⟨125,.other,false,some ⟨8,[.setEnt .internalNl,.cb,.code],none,false⟩⟩]⟩,⟨[28,33],none,[],[⟨0,.other,false,some ⟨8,[.setEnt .internalNl,.cb,.code],none,false⟩⟩,⟨9,.ws,false,some ⟨9,[.setEnt .internalNl,.cb],none,false⟩⟩,⟨10,.lf,false,some ⟨8,[.setEnt .internalNl,.cb,.code],none,false⟩⟩,⟨11,.vt,false,some ⟨8,[.setEnt .internalNl,.cb,.code],none,false⟩⟩,⟨12,.ff,false,some ⟨8,[.setEnt .internalNl,.cb,.code],none,false⟩⟩,⟨13,.cr,false,some ⟨8,[.setEnt .internalNl,.cb,.code],none,false⟩⟩,⟨13,.cr,true,some ⟨8,[.setEnt .internalNl,.cb,.code],none,false⟩⟩,⟨34,.other,false,some ⟨0,[.setEnt .internalNl,.cb],some 2,true⟩⟩,⟨39,.other,false,some ⟨8,[.setEnt .internalNl,.cb,.code],none,false⟩⟩,⟨45,.other,false,some ⟨8,[.setEnt .internalNl,.cb,.code],none,false⟩⟩,⟨62,.other,false,some ⟨8,[.setEnt .internalNl,.cb,.code],none,false⟩⟩,⟨92,.other,false,some ⟨10,[.setEnt .internalNl,.cb],none,false⟩⟩,⟨123,.other,false,some ⟨8,[.setEnt .internalNl,.cb,.code],none,false⟩⟩,⟨125,.other,false,some ⟨8,[.setEnt .internalNl,.cb,.code],none,false⟩⟩]⟩,⟨[4],some 1,[],[⟨0,.other,false,some ⟨33,[],some 1,false⟩⟩,⟨9,.ws,false,some ⟨33,[],some 1,false⟩⟩,⟨10,.lf,false,none⟩,⟨11,.vt,false,some ⟨33,[],some 1,false⟩⟩,⟨12,.ff,false,none⟩,⟨13,.cr,false,none⟩,⟨13,.cr,true,none⟩,⟨34,.other,false,some ⟨33,[],some 1,false⟩⟩,⟨39,.other,false,some ⟨33,[],some 1,false⟩⟩,⟨45,.other,false,some ⟨33,[],some 1,false⟩⟩,⟨62,.other,false,some ⟨33,[],some 1,false⟩⟩,⟨92,.other,false,some ⟨33,[],some 1,false⟩⟩,⟨123,.other,false,some ⟨33,[],some 1,false⟩⟩,⟨125,.other,false,some ⟨33,[],some 1,false⟩⟩]⟩,⟨[8],none,[],[⟨0,.other,false,some ⟨22,[.setEnt .internalNl,.cb,.comment],none,false⟩⟩,⟨9,.ws,false,some ⟨23,[.setEnt .internalNl,.cb],none,false⟩⟩,⟨10,.lf,false,some ⟨24,[.setEnt .internalNl,.cb],none,false⟩⟩,⟨11,.vt,false,some ⟨22,[.setEnt .internalNl,.cb,.comment],none,false⟩⟩,⟨12,.ff,false,some ⟨25,[.setEnt .internalNl,.cb],none,false⟩⟩,⟨13,.cr,false,some ⟨26,[.setEnt .internalNl,.cb],none,false⟩⟩,⟨13,.cr,true,some ⟨27,[.setEnt .internalNl,.cb],none,false⟩⟩,⟨34,.other,false,some ⟨22,[.setEnt .internalNl,.cb,.comment],none,false⟩⟩,⟨39,.other,false,some ⟨22,[.setEnt .internalNl,.cb,.comment],none,false⟩⟩,⟨45,.other,false,some ⟨28,[.setEnt .internalNl,.cb,.comment],none,false⟩⟩,⟨45,.other,false,some ⟨29,[.setEnt .internalNl,.cb,.comment],none,false⟩⟩,⟨62,.other,false,some ⟨22,[.setEnt .internalNl,.cb,.comment],none,false⟩⟩,⟨92,.other,false,some ⟨22,[.setEnt .internalNl,.cb,.comment],none,false⟩⟩,⟨123,.other,false,some ⟨30,[.setEnt .internalNl,.cb,.comment],none,false⟩⟩,⟨125,.other,false,some ⟨22,[.setEnt .internalNl,.cb,.comment],none,false⟩⟩]⟩,⟨[8,9],none,[],[⟨0,.other,false,some ⟨22,[.setEnt .internalNl,.cb,.comment],none,false⟩⟩,⟨9,.ws,false,some ⟨23,[.setEnt .internalNl,.cb],none,false⟩⟩,⟨10,.lf,false,some ⟨24,[.setEnt .internalNl,.cb],none,false⟩⟩,⟨11,.vt,false,some ⟨22,[.setEnt .internalNl,.cb,.comment],none,false⟩⟩,⟨12,.ff,false,some ⟨25,[.setEnt .internalNl,.cb],none,false⟩⟩,⟨13,.cr,false,some ⟨26,[.setEnt .internalNl,.cb],none,false⟩⟩,⟨13,.cr,true,some ⟨27,[.setEnt .internalNl,.cb],none,false⟩⟩,⟨34,.other,false,some ⟨22,[.setEnt .internalNl,.cb,.comment],none,false⟩⟩,⟨39,.other,false,some ⟨22,[.setEnt .internalNl,.cb,.comment],none,false⟩⟩,⟨45,.other,false,some ⟨28,[.setEnt .internalNl,.cb,.comment],none,false⟩⟩,⟨45,.other,false,some ⟨29,[.setEnt .internalNl,.cb,.comment],none,false⟩⟩,⟨62,.other,false,some ⟨22,[.setEnt .internalNl,.cb,.comment],none,false⟩⟩,⟨92,.other,false,some ⟨22,[.setEnt .internalNl,.cb,.comment],none,false⟩⟩,⟨123,.other,false,some ⟨30,[.setEnt .internalNl,.cb,.comment],none,false⟩⟩,⟨125,.other,false,some ⟨22,[.setEnt .internalNl,.cb,.comment],none,false⟩⟩]⟩,⟨[16,17],none,[],[⟨0,.other,false,some ⟨22,[.comment],none,false⟩⟩,⟨9,.ws,false,some ⟨23,[],none,false⟩⟩,⟨10,.lf,false,some ⟨24,[],none,false⟩⟩,⟨11,.vt,false,some ⟨22,[.comment],none,false⟩⟩,⟨12,.ff,false,some ⟨25,[],none,false⟩⟩,⟨13,.cr,false,some ⟨26,[],none,false⟩⟩,⟨13,.cr,true,some ⟨27,[],none,false⟩⟩,⟨34,.other,false,some ⟨22,[.comment],none,false⟩⟩,⟨39,.other,false,some ⟨22,[.comment],none,false⟩⟩,⟨45,.other,false,some ⟨28,[.comment],none,false⟩⟩,⟨45,.other,false,some ⟨29,[.comment],none,false⟩⟩,⟨62,.other,false,some ⟨22,[.comment],none,false⟩⟩,⟨92,.other,false,some ⟨22,[.comment],none,false⟩⟩,⟨123,.other,false,some ⟨30,[.comment],none,false⟩⟩,⟨125,.other,false,some ⟨22,[.comment],none,false⟩⟩]⟩,⟨[14,15,17],none,[],[⟨0,.other,false,some ⟨22,[.comment],none,false⟩⟩,⟨9,.ws,false,some ⟨23,[],none,false⟩⟩,⟨10,.lf,false,some ⟨24,[],none,false⟩⟩,⟨11,.vt,false,some ⟨22,[.comment],none,false⟩⟩,⟨12,.ff,false,some ⟨25,[],none,false⟩⟩,⟨13,.cr,false,some ⟨26,[],none,false⟩⟩,⟨13,.cr,true,some ⟨27,[],none,false⟩⟩,⟨34,.other,false,some ⟨22,[.comment],none,false⟩⟩,⟨39,.other,false,some ⟨22,[.comment],none,false⟩⟩,⟨45,.other,false,some ⟨28,[.comment],none,false⟩⟩,⟨45,.other,false,some ⟨29,[.comment],none,false⟩⟩,⟨62,.other,false,some ⟨22,[.comment],none,false⟩⟩,⟨92,.other,false,some ⟨22,[.comment],none,false⟩⟩,⟨123,.other,false,some ⟨30,[.comment],none,false⟩⟩,⟨125,.other,false,some ⟨36,[.nestDec,.comment],none,false⟩⟩]⟩,⟨[14,15,17,18],none,[],[⟨0,.other,false,some ⟨22,[.comment],none,false⟩⟩,⟨9,.ws,false,some ⟨23,[],none,false⟩⟩,⟨10,.lf,false,some ⟨24,[],none,false⟩⟩,⟨11,.vt,false,some ⟨22,[.comment],none,false⟩⟩,⟨12,.ff,false,some ⟨25,[],none,false⟩⟩,⟨13,.cr,false,some ⟨26,[],none,false⟩⟩,⟨13,.cr,true,some ⟨27,[],none,false⟩⟩,⟨34,.other,false,some ⟨22,[.comment],none,false⟩⟩,⟨39,.other,false,some ⟨22,[.comment],none,false⟩⟩,⟨45,.other,false,some ⟨28,[.comment],none,false⟩⟩,⟨45,.other,false,some ⟨29,[.comment],none,false⟩⟩,⟨62,.other,false,some ⟨22,[.comment],none,false⟩⟩,⟨92,.other,false,some ⟨22,[.comment],none,false⟩⟩,⟨123,.other,false,some ⟨30,[.comment],none,false⟩⟩,⟨125,.other,false,some ⟨36,[.nestDec,.comment],none,false⟩⟩,⟨125,.other,false,some ⟨0,[.comment],some 1,true⟩⟩]⟩]
theorem elm_line_rowsOk : rowsOk elm_line_nfa [] (elm_line_cs.map (·.1)) elm_line_rows = true := by decide +kernel
def elm_line_D : Dfa elm_line_M.nfa := ⟨elm_line_masks, [], elm_line_cs, elm_line_rows, elm_line_masksIn, elm_line_repOk, elm_line_rowsOk⟩

def hx_line_nfa : Nfa := ⟨[⟨0,4294967808,[],[(0,.setEnt (.own 0))],0,0⟩,⟨1,140737488355328,[],[],0,0⟩,⟨11,140737488355328,[],[],0,2⟩,⟨22,549755813888,[],[(9,.code)],0,0⟩,⟨27,17179869184,[],[(10,.code)],0,0⟩,⟨32,8192,[],[(11,.setEnt .newline)],0,0⟩,⟨34,1024,[],[(11,.setEnt .newline)],0,0⟩,⟨35,4096,[],[(11,.setEnt .newline)],0,0⟩,⟨36,8192,[.crAlone],[(11,.setEnt .newline)],0,0⟩,⟨37,115792089237316195423570985008687907853269984665640564039457584007908834656767,[],[(12,.setEnt (.own 3))],0,0⟩],[[⟨0,4294967808,[],[(0,.setEnt (.own 0))],0,0⟩],[⟨2,140737488355328,[],[(1,.comment)],0,0⟩],[⟨3,4951760157141521099596496896,[],[],0,0⟩,⟨9,4294967808,[],[],0,0⟩,⟨10,115792089237316195423570985008687907853269984665640564039457584007908834658815,[],[(4,.comment)],0,0⟩],[⟨4,8192,[],[],0,0⟩,⟨6,1024,[],[],0,0⟩,⟨7,4096,[],[],0,0⟩,⟨8,8192,[.crAlone],[],0,0⟩],[⟨5,1024,[],[],0,0⟩],[⟨3,4951760157141521099596496896,[],[(2,.setEnt .internalNl),(3,.cb)],0,0⟩,⟨9,4294967808,[],[(2,.setEnt .internalNl),(3,.cb)],0,0⟩,⟨10,115792089237316195423570985008687907853269984665640564039457584007908834658815,[],[(2,.setEnt .internalNl),(3,.cb),(4,.comment)],0,0⟩],[⟨3,4951760157141521099596496896,[],[(2,.setEnt .internalNl),(3,.cb)],0,0⟩,⟨9,4294967808,[],[(2,.setEnt .internalNl),(3,.cb)],0,0⟩,⟨10,115792089237316195423570985008687907853269984665640564039457584007908834658815,[],[(2,.setEnt .internalNl),(3,.cb),(4,.comment)],0,0⟩],[⟨3,4951760157141521099596496896,[],[(2,.setEnt .internalNl),(3,.cb)],0,0⟩,⟨9,4294967808,[],[(2,.setEnt .internalNl),(3,.cb)],0,0⟩,⟨10,115792089237316195423570985008687907853269984665640564039457584007908834658815,[],[(2,.setEnt .internalNl),(3,.cb),(4,.comment)],0,0⟩],[⟨3,4951760157141521099596496896,[],[(2,.setEnt .internalNl),(3,.cb)],0,0⟩,⟨9,4294967808,[],[(2,.setEnt .internalNl),(3,.cb)],0,0⟩,⟨10,115792089237316195423570985008687907853269984665640564039457584007908834658815,[],[(2,.setEnt .internalNl),(3,.cb),(4,.comment)],0,0⟩],[⟨3,4951760157141521099596496896,[],[],0,0⟩,⟨9,4294967808,[],[],0,0⟩,⟨10,115792089237316195423570985008687907853269984665640564039457584007908834658815,[],[(4,.comment)],0,0⟩],[⟨3,4951760157141521099596496896,[],[],0,0⟩,⟨9,4294967808,[],[],0,0⟩,⟨10,115792089237316195423570985008687907853269984665640564039457584007908834658815,[],[(4,.comment)],0,0⟩],[⟨12,4398046511104,[],[(5,.comment)],0,2⟩],[⟨13,8192,[],[],0,2⟩,⟨15,1024,[],[],0,2⟩,⟨16,4096,[],[],0,2⟩,⟨17,8192,[.crAlone],[],0,2⟩,⟨18,4294967808,[],[],0,2⟩,⟨19,115792089237316195423570985008687907853269984665640564039457584007908834658815,[],[(8,.comment)],0,2⟩,⟨20,4398046511104,[],[],0,2⟩],[⟨14,1024,[],[],0,2⟩],[⟨13,8192,[],[(6,.setEnt .internalNl),(7,.cb)],0,2⟩,⟨15,1024,[],[(6,.setEnt .internalNl),(7,.cb)],0,2⟩,⟨16,4096,[],[(6,.setEnt .internalNl),(7,.cb)],0,2⟩,⟨17,8192,[.crAlone],[(6,.setEnt .internalNl),(7,.cb)],0,2⟩,⟨18,4294967808,[],[(6,.setEnt .internalNl),(7,.cb)],0,2⟩,⟨19,115792089237316195423570985008687907853269984665640564039457584007908834658815,[],[(6,.setEnt .internalNl),(7,.cb),(8,.comment)],0,2⟩,⟨20,4398046511104,[],[(6,.setEnt .internalNl),(7,.cb)],0,2⟩],[⟨13,8192,[],[(6,.setEnt .internalNl),(7,.cb)],0,2⟩,⟨15,1024,[],[(6,.setEnt .internalNl),(7,.cb)],0,2⟩,⟨16,4096,[],[(6,.setEnt .internalNl),(7,.cb)],0,2⟩,⟨17,8192,[.crAlone],[(6,.setEnt .internalNl),(7,.cb)],0,2⟩,⟨18,4294967808,[],[(6,.setEnt .internalNl),(7,.cb)],0,2⟩,⟨19,115792089237316195423570985008687907853269984665640564039457584007908834658815,[],[(6,.setEnt .internalNl),(7,.cb),(8,.comment)],0,2⟩,⟨20,4398046511104,[],[(6,.setEnt .internalNl),(7,.cb)],0,2⟩],[⟨13,8192,[],[(6,.setEnt .internalNl),(7,.cb)],0,2⟩,⟨15,1024,[],[(6,.setEnt .internalNl),(7,.cb)],0,2⟩,⟨16,4096,[],[(6,.setEnt .internalNl),(7,.cb)],0,2⟩,⟨17,8192,[.crAlone],[(6,.setEnt .internalNl),(7,.cb)],0,2⟩,⟨18,4294967808,[],[(6,.setEnt .internalNl),(7,.cb)],0,2⟩,⟨19,115792089237316195423570985008687907853269984665640564039457584007908834658815,[],[(6,.setEnt .internalNl),(7,.cb),(8,.comment)],0,2⟩,⟨20,4398046511104,[],[(6,.setEnt .internalNl),(7,.cb)],0,2⟩],[⟨13,8192,[],[(6,.setEnt .internalNl),(7,.cb)],0,2⟩,⟨15,1024,[],[(6,.setEnt .internalNl),(7,.cb)],0,2⟩,⟨16,4096,[],[(6,.setEnt .internalNl),(7,.cb)],0,2⟩,⟨17,8192,[.crAlone],[(6,.setEnt .internalNl),(7,.cb)],0,2⟩,⟨18,4294967808,[],[(6,.setEnt .internalNl),(7,.cb)],0,2⟩,⟨19,115792089237316195423570985008687907853269984665640564039457584007908834658815,[],[(6,.setEnt .internalNl),(7,.cb),(8,.comment)],0,2⟩,⟨20,4398046511104,[],[(6,.setEnt .internalNl),(7,.cb)],0,2⟩],[⟨13,8192,[],[],0,2⟩,⟨15,1024,[],[],0,2⟩,⟨16,4096,[],[],0,2⟩,⟨17,8192,[.crAlone],[],0,2⟩,⟨18,4294967808,[],[],0,2⟩,⟨19,115792089237316195423570985008687907853269984665640564039457584007908834658815,[],[(8,.comment)],0,2⟩,⟨20,4398046511104,[],[],0,2⟩],[⟨13,8192,[],[],0,2⟩,⟨15,1024,[],[],0,2⟩,⟨16,4096,[],[],0,2⟩,⟨17,8192,[.crAlone],[],0,2⟩,⟨18,4294967808,[],[],0,2⟩,⟨19,115792089237316195423570985008687907853269984665640564039457584007908834658815,[],[(8,.comment)],0,2⟩,⟨20,4398046511104,[],[],0,2⟩],[⟨21,140737488355328,[],[],2,0⟩],[],[⟨23,115792089237316195423570985008687907853269984665635612279300442486263777315839,[],[],0,0⟩,⟨24,4951760157141521099596496896,[],[],0,0⟩,⟨26,549755813888,[],[],0,0⟩],[⟨23,115792089237316195423570985008687907853269984665635612279300442486263777315839,[],[],0,0⟩,⟨24,4951760157141521099596496896,[],[],0,0⟩,⟨26,549755813888,[],[],0,0⟩],[⟨25,115792089237316195423570985008687907853269984665640564039457584007913129626623,[],[],0,0⟩],[⟨23,115792089237316195423570985008687907853269984665635612279300442486263777315839,[],[],0,0⟩,⟨24,4951760157141521099596496896,[],[],0,0⟩,⟨26,549755813888,[],[],0,0⟩],[],[⟨28,115792089237316195423570985008687907853269984665635612279300442486796353260543,[],[],0,0⟩,⟨29,4951760157141521099596496896,[],[],0,0⟩,⟨31,17179869184,[],[],0,0⟩],[⟨28,115792089237316195423570985008687907853269984665635612279300442486796353260543,[],[],0,0⟩,⟨29,4951760157141521099596496896,[],[],0,0⟩,⟨31,17179869184,[],[],0,0⟩],[⟨30,115792089237316195423570985008687907853269984665640564039457584007913129626623,[],[],0,0⟩],[⟨28,115792089237316195423570985008687907853269984665635612279300442486796353260543,[],[],0,0⟩,⟨29,4951760157141521099596496896,[],[],0,0⟩,⟨31,17179869184,[],[],0,0⟩],[],[⟨33,1024,[],[(11,.setEnt .newline)],0,0⟩],[],[],[],[],[]],[some (0,[]),none,some (1,[]),none,none,some (1,[(2,.setEnt .internalNl),(3,.cb)]),some (1,[(2,.setEnt .internalNl),(3,.cb)]),some (1,[(2,.setEnt .internalNl),(3,.cb)]),some (1,[(2,.setEnt .internalNl),(3,.cb)]),some (1,[]),some (1,[]),none,none,none,none,none,none,none,none,none,none,some (1,[]),none,none,none,none,some (2,[]),none,none,none,none,some (2,[]),none,some (3,[]),some (3,[]),some (3,[]),some (3,[]),some (4,[])],[1,9,11,12,13]⟩
theorem hx_line_nfa_eq : Haxe.hx_line.nfa = hx_line_nfa := by decide +kernel
/-- The machine of `Haxe.hx_line`, with its automaton as a literal. -/
def hx_line_M : Machine := ⟨hx_line_nfa, Haxe.hx_line.ends, Haxe.hx_line.sw⟩
theorem hx_line_M_eq : Haxe.hx_line.machine = hx_line_M := by
  unfold Scanner.machine hx_line_M; rw [hx_line_nfa_eq]
def hx_line_masks : List Nat := [4294967808,140737488355328,549755813888,17179869184,8192,1024,4096,115792089237316195423570985008687907853269984665640564039457584007908834656767,4951760157141521099596496896,115792089237316195423570985008687907853269984665640564039457584007908834658815,4398046511104,115792089237316195423570985008687907853269984665635612279300442486263777315839,115792089237316195423570985008687907853269984665640564039457584007913129626623,115792089237316195423570985008687907853269984665635612279300442486796353260543]
def hx_line_cs : List (Nat × Nat) := [(0,115792089237316195423570985008687907853269984665635612279300442341106767610367),(9,4294967808),(10,1024),(11,2048),(12,4096),(13,8192),(34,17179869184),(39,549755813888),(42,4398046511104),(47,140737488355328),(92,4951760157141521099596496896)]
theorem hx_line_masksIn : masksIn hx_line_nfa hx_line_masks = true := by decide +kernel
theorem hx_line_repOk : repOk hx_line_masks hx_line_cs = true := by decide +kernel
def hx_line_rows : List Row := [⟨[],none,[],[⟨256,.other,false,some ⟨0,[.setEnt (.own 3)],some 4,true⟩⟩,⟨256,.ws,false,some ⟨1,[.setEnt (.own 0)],some 0,false⟩⟩,⟨256,.lf,false,some ⟨0,[.setEnt .newline],some 3,true⟩⟩,⟨256,.vt,false,none⟩,⟨256,.ff,false,some ⟨0,[.setEnt .newline],some 3,true⟩⟩,⟨256,.cr,false,some ⟨2,[.setEnt .newline],none,false⟩⟩,⟨256,.cr,true,some ⟨3,[.setEnt .newline],some 3,false⟩⟩,⟨256,.other,false,some ⟨4,[.code,.setEnt (.own 3)],some 4,false⟩⟩,⟨256,.other,false,some ⟨5,[.code,.setEnt (.own 3)],some 4,false⟩⟩,⟨256,.other,false,some ⟨6,[.setEnt (.own 3)],some 4,false⟩⟩]⟩,⟨[0],some 0,[],[⟨256,.other,false,none⟩,⟨256,.ws,false,some ⟨1,[.setEnt (.own 0)],some 0,false⟩⟩,⟨256,.lf,false,none⟩,⟨256,.vt,false,none⟩,⟨256,.ff,false,none⟩,⟨256,.cr,false,none⟩,⟨256,.cr,true,none⟩]⟩,⟨[32],none,[],[⟨256,.other,false,none⟩,⟨256,.ws,false,none⟩,⟨256,.lf,false,some ⟨0,[.setEnt .newline],some 3,true⟩⟩,⟨256,.vt,false,none⟩,⟨256,.ff,false,none⟩,⟨256,.cr,false,none⟩,⟨256,.cr,true,none⟩]⟩,⟨[32,36],some 3,[],[⟨256,.other,false,none⟩,⟨256,.ws,false,none⟩,⟨256,.lf,false,some ⟨0,[.setEnt .newline],some 3,true⟩⟩,⟨256,.vt,false,none⟩,⟨256,.ff,false,none⟩,⟨256,.cr,false,none⟩,⟨256,.cr,true,none⟩]⟩,⟨[27,37],some 4,[],[⟨256,.other,false,some ⟨7,[],none,false⟩⟩,⟨256,.ws,false,some ⟨7,[],none,false⟩⟩,⟨256,.lf,false,none⟩,⟨256,.vt,false,some ⟨7,[],none,false⟩⟩,⟨256,.ff,false,none⟩,⟨256,.cr,false,none⟩,⟨256,.cr,true,none⟩,⟨256,.other,false,some ⟨0,[],some 2,true⟩⟩,⟨256,.other,false,some ⟨8,[],none,false⟩⟩]⟩,⟨[22,37],some 4,[],[⟨256,.other,false,some ⟨9,[],none,false⟩⟩,⟨256,.ws,false,some ⟨9,[],none,false⟩⟩,⟨256,.lf,false,none⟩,⟨256,.vt,false,some ⟨9,[],none,false⟩⟩,⟨256,.ff,false,none⟩,⟨256,.cr,false,none⟩,⟨256,.cr,true,none⟩,⟨256,.other,false,some ⟨0,[],some 2,true⟩⟩,⟨256,.other,false,some ⟨10,[],none,false⟩⟩]⟩,⟨[1,11,37],some 4,[],[⟨256,.other,false,none⟩,⟨256,.ws,false,none⟩,⟨256,.lf,false,none⟩,⟨256,.vt,false,none⟩,⟨256,.ff,false,none⟩,⟨256,.cr,false,none⟩,⟨256,.cr,true,none⟩,⟨256,.other,false,some ⟨11,[.comment],none,false⟩⟩,⟨256,.other,false,some ⟨12,[.comment],some 1,false⟩⟩]⟩,⟨[28],none,[],[⟨256,.other,false,some ⟨7,[],none,false⟩⟩,⟨256,.ws,false,some ⟨7,[],none,false⟩⟩,⟨256,.lf,false,none⟩,⟨256,.vt,false,some ⟨7,[],none,false⟩⟩,⟨256,.ff,false,none⟩,⟨256,.cr,false,none⟩,⟨256,.cr,true,none⟩,⟨256,.other,false,some ⟨0,[],some 2,true⟩⟩,⟨256,.other,false,some ⟨8,[],none,false⟩⟩]⟩,⟨[29],none,[],[⟨256,.other,false,some ⟨13,[],none,false⟩⟩,⟨256,.ws,false,some ⟨13,[],none,false⟩⟩,⟨256,.lf,false,none⟩,⟨256,.vt,false,some ⟨13,[],none,false⟩⟩,⟨256,.ff,false,none⟩,⟨256,.cr,false,none⟩,⟨256,.cr,true,none⟩]⟩,⟨[23],none,[],[⟨256,.other,false,some ⟨9,[],none,false⟩⟩,⟨256,.ws,false,some ⟨9,[],none,false⟩⟩,⟨256,.lf,false,none⟩,⟨256,.vt,false,some ⟨9,[],none,false⟩⟩,⟨256,.ff,false,none⟩,⟨256,.cr,false,none⟩,⟨256,.cr,true,none⟩,⟨256,.other,false,some ⟨0,[],some 2,true⟩⟩,⟨256,.other,false,some ⟨10,[],none,false⟩⟩]⟩,⟨[24],none,[],[⟨256,.other,false,some ⟨14,[],none,false⟩⟩,⟨256,.ws,false,some ⟨14,[],none,false⟩⟩,⟨256,.lf,false,none⟩,⟨256,.vt,false,some ⟨14,[],none,false⟩⟩,⟨256,.ff,false,none⟩,⟨256,.cr,false,none⟩,⟨256,.cr,true,none⟩]⟩,⟨[12],none,[],[⟨256,.other,false,some ⟨15,[.comment],none,false⟩⟩,⟨256,.ws,false,some ⟨16,[],none,false⟩⟩,⟨256,.lf,false,some ⟨17,[],none,false⟩⟩,⟨256,.vt,false,some ⟨15,[.comment],none,false⟩⟩,⟨256,.ff,false,some ⟨18,[],none,false⟩⟩,⟨256,.cr,false,some ⟨19,[],none,false⟩⟩,⟨256,.cr,true,some ⟨20,[],none,false⟩⟩,⟨256,.other,false,some ⟨21,[.comment],none,false⟩⟩]⟩,⟨[2],some 1,[],[⟨256,.other,false,some ⟨22,[.comment],some 1,false⟩⟩,⟨256,.ws,false,some ⟨23,[],some 1,false⟩⟩,⟨256,.lf,false,none⟩,⟨256,.vt,false,some ⟨22,[.comment],some 1,false⟩⟩,⟨256,.ff,false,none⟩,⟨256,.cr,false,none⟩,⟨256,.cr,true,none⟩,⟨256,.other,false,some ⟨24,[.comment],some 1,false⟩⟩]⟩,⟨[30],none,[],[⟨256,.other,false,some ⟨7,[],none,false⟩⟩,⟨256,.ws,false,some ⟨7,[],none,false⟩⟩,⟨256,.lf,false,none⟩,⟨256,.vt,false,some ⟨7,[],none,false⟩⟩,⟨256,.ff,false,none⟩,⟨256,.cr,false,none⟩,⟨256,.cr,true,none⟩,⟨256,.other,false,some ⟨0,[],some 2,true⟩⟩,⟨256,.other,false,some ⟨8,[],none,false⟩⟩]⟩,⟨[25],none,[],[⟨256,.other,false,some ⟨9,[],none,false⟩⟩,⟨256,.ws,false,some ⟨9,[],none,false⟩⟩,⟨256,.lf,false,none⟩,⟨256,.vt,false,some ⟨9,[],none,false⟩⟩,⟨256,.ff,false,none⟩,⟨256,.cr,false,none⟩,⟨256,.cr,true,none⟩,⟨256,.other,false,some ⟨0,[],some 2,true⟩⟩,⟨256,.other,false,some ⟨10,[],none,false⟩⟩]⟩,⟨[19],none,[],[⟨256,.other,false,some ⟨15,[.comment],none,false⟩⟩,⟨256,.ws,false,some ⟨16,[],none,false⟩⟩,⟨256,.lf,false,some ⟨17,[],none,false⟩⟩,⟨256,.vt,false,some ⟨15,[.comment],none,false⟩⟩,⟨256,.ff,false,some ⟨18,[],none,false⟩⟩,⟨256,.cr,false,some ⟨19,[],none,false⟩⟩,⟨256,.cr,true,some ⟨20,[],none,false⟩⟩,⟨256,.other,false,some ⟨21,[.comment],none,false⟩⟩]⟩,⟨[18],none,[],[⟨256,.other,false,some ⟨15,[.comment],none,false⟩⟩,⟨256,.ws,false,some ⟨16,[],none,false⟩⟩,⟨256,.lf,false,some ⟨17,[],none,false⟩⟩,⟨256,.vt,false,some ⟨15,[.comment],none,false⟩⟩,⟨256,.ff,false,some ⟨18,[],none,false⟩⟩,⟨256,.cr,false,some ⟨19,[],none,false⟩⟩,⟨256,.cr,true,some ⟨20,[],none,false⟩⟩,⟨256,.other,false,some ⟨21,[.comment],none,false⟩⟩]⟩,⟨[15],none,[],[⟨256,.other,false,some ⟨15,[.setEnt .internalNl,.cb,.comment],none,false⟩⟩,⟨256,.ws,false,some ⟨16,[.setEnt .internalNl,.cb],none,false⟩⟩,⟨256,.lf,false,some ⟨17,[.setEnt .internalNl,.cb],none,false⟩⟩,⟨256,.vt,false,some ⟨15,[.setEnt .internalNl,.cb,.comment],none,false⟩⟩,⟨256,.ff,false,some ⟨18,[.setEnt .internalNl,.cb],none,false⟩⟩,⟨256,.cr,false,some ⟨19,[.setEnt .internalNl,.cb],none,false⟩⟩,⟨256,.cr,true,some ⟨20,[.setEnt .internalNl,.cb],none,false⟩⟩,⟨256,.other,false,some ⟨21,[.setEnt .internalNl,.cb,.comment],none,false⟩⟩]⟩,⟨[16],none,[],[⟨256,.other,false,some ⟨15,[.setEnt .internalNl,.cb,.comment],none,false⟩⟩,⟨256,.ws,false,some ⟨16,[.setEnt .internalNl,.cb],none,false⟩⟩,⟨256,.lf,false,some ⟨17,[.setEnt .internalNl,.cb],none,false⟩⟩,⟨256,.vt,false,some ⟨15,[.setEnt .internalNl,.cb,.comment],none,false⟩⟩,⟨256,.ff,false,some ⟨18,[.setEnt .internalNl,.cb],none,false⟩⟩,⟨256,.cr,false,some ⟨19,[.setEnt .internalNl,.cb],none,false⟩⟩,⟨256,.cr,true,some ⟨20,[.setEnt .internalNl,.cb],none,false⟩⟩,⟨256,.other,false,some ⟨21,[.setEnt .internalNl,.cb,.comment],none,false⟩⟩]⟩,⟨[13],none,[],[⟨256,.other,false,none⟩,⟨256,.ws,false,none⟩,⟨256,.lf,false,some ⟨25,[],none,false⟩⟩,⟨256,.vt,false,none⟩,⟨256,.ff,false,none⟩,⟨256,.cr,false,none⟩,⟨256,.cr,true,none⟩]⟩,⟨[13,17],none,[],[⟨256,.other,false,some ⟨15,[.setEnt .internalNl,.cb,.comment],none,false⟩⟩,⟨256,.ws,false,some ⟨16,[.setEnt .internalNl,.cb],none,false⟩⟩,⟨256,.lf,false,some ⟨26,[.setEnt .internalNl,.cb],none,false⟩⟩,⟨256,.vt,false,some ⟨15,[.setEnt .internalNl,.cb,.comment],none,false⟩⟩,⟨256,.ff,false,some ⟨18,[.setEnt .internalNl,.cb],none,false⟩⟩,⟨256,.cr,false,some ⟨19,[.setEnt .internalNl,.cb],none,false⟩⟩,⟨256,.cr,true,some ⟨20,[.setEnt .internalNl,.cb],none,false⟩⟩,⟨256,.other,false,some ⟨21,[.setEnt .internalNl,.cb,.comment],none,false⟩⟩]⟩,⟨[19,20],none,[],[⟨256,.other,false,some ⟨15,[.comment],none,false⟩⟩,⟨256,.ws,false,some ⟨16,[],none,false⟩⟩,⟨256,.lf,false,some ⟨17,[],none,false⟩⟩,⟨256,.vt,false,some ⟨15,[.comment],none,false⟩⟩,⟨256,.ff,false,some ⟨18,[],none,false⟩⟩,⟨256,.cr,false,some ⟨19,[],none,false⟩⟩,⟨256,.cr,true,some ⟨20,[],none,false⟩⟩,⟨256,.other,false,some ⟨21,[.comment],none,false⟩⟩,⟨256,.other,false,some ⟨0,[],some 1,true⟩⟩]⟩,⟨[10],some 1,[],[⟨256,.other,false,some ⟨22,[.comment],some 1,false⟩⟩,⟨256,.ws,false,some ⟨23,[],some 1,false⟩⟩,⟨256,.lf,false,none⟩,⟨256,.vt,false,some ⟨22,[.comment],some 1,false⟩⟩,⟨256,.ff,false,none⟩,⟨256,.cr,false,none⟩,⟨256,.cr,true,none⟩,⟨256,.other,false,some ⟨24,[.comment],some 1,false⟩⟩]⟩,⟨[9],some 1,[],[⟨256,.other,false,some ⟨22,[.comment],some 1,false⟩⟩,⟨256,.ws,false,some ⟨23,[],some 1,false⟩⟩,⟨256,.lf,false,none⟩,⟨256,.vt,false,some ⟨22,[.comment],some 1,false⟩⟩,⟨256,.ff,false,none⟩,⟨256,.cr,false,none⟩,⟨256,.cr,true,none⟩,⟨256,.other,false,some ⟨24,[.comment],some 1,false⟩⟩]⟩,⟨[3,10],some 1,[],[⟨256,.other,false,some ⟨22,[.comment],some 1,false⟩⟩,⟨256,.ws,false,some ⟨23,[],some 1,false⟩⟩,⟨256,.lf,false,some ⟨27,[],some 1,false⟩⟩,⟨256,.vt,false,some ⟨22,[.comment],some 1,false⟩⟩,⟨256,.ff,false,some ⟨28,[],some 1,false⟩⟩,⟨256,.cr,false,some ⟨29,[],none,false⟩⟩,⟨256,.cr,true,some ⟨30,[],some 1,false⟩⟩,⟨256,.other,false,some ⟨24,[.comment],some 1,false⟩⟩]⟩,⟨[14],none,[],[⟨256,.other,false,some ⟨15,[.setEnt .internalNl,.cb,.comment],none,false⟩⟩,⟨256,.ws,false,some ⟨16,[.setEnt .internalNl,.cb],none,false⟩⟩,⟨256,.lf,false,some ⟨17,[.setEnt .internalNl,.cb],none,false⟩⟩,⟨256,.vt,false,some ⟨15,[.setEnt .internalNl,.cb,.comment],none,false⟩⟩,⟨256,.ff,false,some ⟨18,[.setEnt .internalNl,.cb],none,false⟩⟩,⟨256,.cr,false,some ⟨19,[.setEnt .internalNl,.cb],none,false⟩⟩,⟨256,.cr,true,some ⟨20,[.setEnt .internalNl,.cb],none,false⟩⟩,⟨256,.other,false,some ⟨21,[.setEnt .internalNl,.cb,.comment],none,false⟩⟩]⟩,⟨[14,15],none,[],[⟨256,.other,false,some ⟨15,[.setEnt .internalNl,.cb,.comment],none,false⟩⟩,⟨256,.ws,false,some ⟨16,[.setEnt .internalNl,.cb],none,false⟩⟩,⟨256,.lf,false,some ⟨17,[.setEnt .internalNl,.cb],none,false⟩⟩,⟨256,.vt,false,some ⟨15,[.setEnt .internalNl,.cb,.comment],none,false⟩⟩,⟨256,.ff,false,some ⟨18,[.setEnt .internalNl,.cb],none,false⟩⟩,⟨256,.cr,false,some ⟨19,[.setEnt .internalNl,.cb],none,false⟩⟩,⟨256,.cr,true,some ⟨20,[.setEnt .internalNl,.cb],none,false⟩⟩,⟨256,.other,false,some ⟨21,[.setEnt .internalNl,.cb,.comment],none,false⟩⟩]⟩,⟨[6],some 1,[.setEnt .internalNl,.cb],[⟨256,.other,false,some ⟨22,[.setEnt .internalNl,.cb,.comment],some 1,false⟩⟩,⟨256,.ws,false,some ⟨23,[.setEnt .internalNl,.cb],some 1,false⟩⟩,⟨256,.lf,false,none⟩,⟨256,.vt,false,some ⟨22,[.setEnt .internalNl,.cb,.comment],some 1,false⟩⟩,⟨256,.ff,false,none⟩,⟨256,.cr,false,none⟩,⟨256,.cr,true,none⟩,⟨256,.other,false,some ⟨24,[.setEnt .internalNl,.cb,.comment],some 1,false⟩⟩]⟩,⟨[7],some 1,[.setEnt .internalNl,.cb],[⟨256,.other,false,some ⟨22,[.setEnt .internalNl,.cb,.comment],some 1,false⟩⟩,⟨256,.ws,false,some ⟨23,[.setEnt .internalNl,.cb],some 1,false⟩⟩,⟨256,.lf,false,none⟩,⟨256,.vt,false,some ⟨22,[.setEnt .internalNl,.cb,.comment],some 1,false⟩⟩,⟨256,.ff,false,none⟩,⟨256,.cr,false,none⟩,⟨256,.cr,true,none⟩,⟨256,.other,false,some ⟨24,[.setEnt .internalNl,.cb,.comment],some 1,false⟩⟩]⟩,⟨[4],none,[],[⟨256,.other,false,none⟩,⟨256,.ws,false,none⟩,⟨256,.lf,false,some ⟨31,[],some 1,false⟩⟩,⟨256,.vt,false,none⟩,⟨256,.ff,false,none⟩,⟨256,.cr,false,none⟩,⟨256,.cr,true,none⟩]⟩,⟨[4,8],some 1,[.setEnt .internalNl,.cb],[⟨256,.other,false,some ⟨22,[.setEnt .internalNl,.cb,.comment],some 1,false⟩⟩,⟨256,.ws,false,some ⟨23,[.setEnt .internalNl,.cb],some 1,false⟩⟩,⟨256,.lf,false,some ⟨31,[],some 1,false⟩⟩,⟨256,.vt,false,some ⟨22,[.setEnt .internalNl,.cb,.comment],some 1,false⟩⟩,⟨256,.ff,false,none⟩,⟨256,.cr,false,none⟩,⟨256,.cr,true,none⟩,⟨256,.other,false,some ⟨24,[.setEnt .internalNl,.cb,.comment],some 1,false⟩⟩]⟩,⟨[5],some 1,[.setEnt .internalNl,.cb],[⟨256,.other,false,some ⟨22,[.setEnt .internalNl,.cb,.comment],some 1,false⟩⟩,⟨256,.ws,false,some ⟨23,[.setEnt .internalNl,.cb],some 1,false⟩⟩,⟨256,.lf,false,none⟩,⟨256,.vt,false,some ⟨22,[.setEnt .internalNl,.cb,.comment],some 1,false⟩⟩,⟨256,.ff,false,none⟩,⟨256,.cr,false,none⟩,⟨256,.cr,true,none⟩,⟨256,.other,false,some ⟨24,[.setEnt .internalNl,.cb,.comment],some 1,false⟩⟩]⟩]
theorem hx_line_rowsOk : rowsOk hx_line_nfa [] (hx_line_cs.map (·.1)) hx_line_rows = true := by decide +kernel
def hx_line_D : Dfa hx_line_M.nfa := ⟨hx_line_masks, [], hx_line_cs, hx_line_rows, hx_line_masksIn, hx_line_repOk, hx_line_rowsOk⟩

def logtalk_line_nfa : Nfa := ⟨[⟨0,4294967808,[],[(0,.setEnt (.own 0))],0,0⟩,⟨1,137438953472,[],[(1,.comment)],0,0⟩,⟨3,140737488355328,[],[],0,2⟩,⟨14,549755813888,[],[(6,.code)],0,0⟩,⟨19,17179869184,[],[(7,.code)],0,0⟩,⟨24,8192,[],[(8,.setEnt .newline)],0,0⟩,⟨26,1024,[],[(8,.setEnt .newline)],0,0⟩,⟨27,4096,[],[(8,.setEnt .newline)],0,0⟩,⟨28,8192,[.crAlone],[(8,.setEnt .newline)],0,0⟩,⟨29,115792089237316195423570985008687907853269984665640564039457584007908834656767,[],[(9,.setEnt (.own 3))],0,0⟩],[[⟨0,4294967808,[],[(0,.setEnt (.own 0))],0,0⟩],[⟨2,115792089237316195423570985008687907853269984665640564039457584007913129626623,[],[],0,0⟩],[⟨2,115792089237316195423570985008687907853269984665640564039457584007913129626623,[],[],0,0⟩],[⟨4,4398046511104,[],[(2,.comment)],0,2⟩],[⟨5,8192,[],[],0,2⟩,⟨7,1024,[],[],0,2⟩,⟨8,4096,[],[],0,2⟩,⟨9,8192,[.crAlone],[],0,2⟩,⟨10,4294967808,[],[],0,2⟩,⟨11,115792089237316195423570985008687907853269984665640564039457584007908834658815,[],[(5,.comment)],0,2⟩,⟨12,4398046511104,[],[],0,2⟩],[⟨6,1024,[],[],0,2⟩],[⟨5,8192,[],[(3,.setEnt .internalNl),(4,.cb)],0,2⟩,⟨7,1024,[],[(3,.setEnt .internalNl),(4,.cb)],0,2⟩,⟨8,4096,[],[(3,.setEnt .internalNl),(4,.cb)],0,2⟩,⟨9,8192,[.crAlone],[(3,.setEnt .internalNl),(4,.cb)],0,2⟩,⟨10,4294967808,[],[(3,.setEnt .internalNl),(4,.cb)],0,2⟩,⟨11,115792089237316195423570985008687907853269984665640564039457584007908834658815,[],[(3,.setEnt .internalNl),(4,.cb),(5,.comment)],0,2⟩,⟨12,4398046511104,[],[(3,.setEnt .internalNl),(4,.cb)],0,2⟩],[⟨5,8192,[],[(3,.setEnt .internalNl),(4,.cb)],0,2⟩,⟨7,1024,[],[(3,.setEnt .internalNl),(4,.cb)],0,2⟩,⟨8,4096,[],[(3,.setEnt .internalNl),(4,.cb)],0,2⟩,⟨9,8192,[.crAlone],[(3,.setEnt .internalNl),(4,.cb)],0,2⟩,⟨10,4294967808,[],[(3,.setEnt .internalNl),(4,.cb)],0,2⟩,⟨11,115792089237316195423570985008687907853269984665640564039457584007908834658815,[],[(3,.setEnt .internalNl),(4,.cb),(5,.comment)],0,2⟩,⟨12,4398046511104,[],[(3,.setEnt .internalNl),(4,.cb)],0,2⟩],[⟨5,8192,[],[(3,.setEnt .internalNl),(4,.cb)],0,2⟩,⟨7,1024,[],[(3,.setEnt .internalNl),(4,.cb)],0,2⟩,⟨8,4096,[],[(3,.setEnt .internalNl),(4,.cb)],0,2⟩,⟨9,8192,[.crAlone],[(3,.setEnt .internalNl),(4,.cb)],0,2⟩,⟨10,4294967808,[],[(3,.setEnt .internalNl),(4,.cb)],0,2⟩,⟨11,115792089237316195423570985008687907853269984665640564039457584007908834658815,[],[(3,.setEnt .internalNl),(4,.cb),(5,.comment)],0,2⟩,⟨12,4398046511104,[],[(3,.setEnt .internalNl),(4,.cb)],0,2⟩],[⟨5,8192,[],[(3,.setEnt .internalNl),(4,.cb)],0,2⟩,⟨7,1024,[],[(3,.setEnt .internalNl),(4,.cb)],0,2⟩,⟨8,4096,[],[(3,.setEnt .internalNl),(4,.cb)],0,2⟩,⟨9,8192,[.crAlone],[(3,.setEnt .internalNl),(4,.cb)],0,2⟩,⟨10,4294967808,[],[(3,.setEnt .internalNl),(4,.cb)],0,2⟩,⟨11,115792089237316195423570985008687907853269984665640564039457584007908834658815,[],[(3,.setEnt .internalNl),(4,.cb),(5,.comment)],0,2⟩,⟨12,4398046511104,[],[(3,.setEnt .internalNl),(4,.cb)],0,2⟩],[⟨5,8192,[],[],0,2⟩,⟨7,1024,[],[],0,2⟩,⟨8,4096,[],[],0,2⟩,⟨9,8192,[.crAlone],[],0,2⟩,⟨10,4294967808,[],[],0,2⟩,⟨11,115792089237316195423570985008687907853269984665640564039457584007908834658815,[],[(5,.comment)],0,2⟩,⟨12,4398046511104,[],[],0,2⟩],[⟨5,8192,[],[],0,2⟩,⟨7,1024,[],[],0,2⟩,⟨8,4096,[],[],0,2⟩,⟨9,8192,[.crAlone],[],0,2⟩,⟨10,4294967808,[],[],0,2⟩,⟨11,115792089237316195423570985008687907853269984665640564039457584007908834658815,[],[(5,.comment)],0,2⟩,⟨12,4398046511104,[],[],0,2⟩],[⟨13,140737488355328,[],[],2,0⟩],[],[⟨15,115792089237316195423570985008687907853269984665635612279300442486263777315839,[],[],0,0⟩,⟨16,4951760157141521099596496896,[],[],0,0⟩,⟨18,549755813888,[],[],0,0⟩],[⟨15,115792089237316195423570985008687907853269984665635612279300442486263777315839,[],[],0,0⟩,⟨16,4951760157141521099596496896,[],[],0,0⟩,⟨18,549755813888,[],[],0,0⟩],[⟨17,115792089237316195423570985008687907853269984665640564039457584007913129626623,[],[],0,0⟩],[⟨15,115792089237316195423570985008687907853269984665635612279300442486263777315839,[],[],0,0⟩,⟨16,4951760157141521099596496896,[],[],0,0⟩,⟨18,549755813888,[],[],0,0⟩],[],[⟨20,115792089237316195423570985008687907853269984665635612279300442486796353260543,[],[],0,0⟩,⟨21,4951760157141521099596496896,[],[],0,0⟩,⟨23,17179869184,[],[],0,0⟩],[⟨20,115792089237316195423570985008687907853269984665635612279300442486796353260543,[],[],0,0⟩,⟨21,4951760157141521099596496896,[],[],0,0⟩,⟨23,17179869184,[],[],0,0⟩],[⟨22,115792089237316195423570985008687907853269984665640564039457584007913129626623,[],[],0,0⟩],[⟨20,115792089237316195423570985008687907853269984665635612279300442486796353260543,[],[],0,0⟩,⟨21,4951760157141521099596496896,[],[],0,0⟩,⟨23,17179869184,[],[],0,0⟩],[],[⟨25,1024,[],[(8,.setEnt .newline)],0,0⟩],[],[],[],[],[]],[some (0,[]),some (1,[]),some (1,[]),none,none,none,none,none,none,none,none,none,none,some (1,[]),none,none,none,none,some (2,[]),none,none,none,none,some (2,[]),none,some (3,[]),some (3,[]),some (3,[]),some (3,[]),some (4,[])],[1,6,8,9,10]⟩
theorem logtalk_line_nfa_eq : Logtalk.logtalk_line.nfa = logtalk_line_nfa := by decide +kernel
/-- The machine of `Logtalk.logtalk_line`, with its automaton as a literal. -/
def logtalk_line_M : Machine := ⟨logtalk_line_nfa, Logtalk.logtalk_line.ends, Logtalk.logtalk_line.sw⟩
theorem logtalk_line_M_eq : Logtalk.logtalk_line.machine = logtalk_line_M := by
  unfold Scanner.machine logtalk_line_M; rw [logtalk_line_nfa_eq]
def logtalk_line_masks : List Nat := [4294967808,137438953472,140737488355328,549755813888,17179869184,8192,1024,4096,115792089237316195423570985008687907853269984665640564039457584007908834656767,115792089237316195423570985008687907853269984665640564039457584007913129626623,4398046511104,115792089237316195423570985008687907853269984665640564039457584007908834658815,115792089237316195423570985008687907853269984665635612279300442486263777315839,4951760157141521099596496896,115792089237316195423570985008687907853269984665635612279300442486796353260543]
def logtalk_line_cs : List (Nat × Nat) := [(0,115792089237316195423570985008687907853269984665635612279300442340969328656895),(9,4294967808),(10,1024),(11,2048),(12,4096),(13,8192),(34,17179869184),(37,137438953472),(39,549755813888),(42,4398046511104),(47,140737488355328),(92,4951760157141521099596496896)]
theorem logtalk_line_masksIn : masksIn logtalk_line_nfa logtalk_line_masks = true := by decide +kernel
theorem logtalk_line_repOk : repOk logtalk_line_masks logtalk_line_cs = true := by decide +kernel
def logtalk_line_rows : List Row := [⟨[],none,[],[⟨256,.other,false,some ⟨0,[.setEnt (.own 3)],some 4,true⟩⟩,⟨256,.ws,false,some ⟨1,[.setEnt (.own 0)],some 0,false⟩⟩,⟨256,.lf,false,some ⟨0,[.setEnt .newline],some 3,true⟩⟩,⟨256,.vt,false,none⟩,⟨256,.ff,false,some ⟨0,[.setEnt .newline],some 3,true⟩⟩,⟨256,.cr,false,some ⟨2,[.setEnt .newline],none,false⟩⟩,⟨256,.cr,true,some ⟨3,[.setEnt .newline],some 3,false⟩⟩,⟨256,.other,false,some ⟨4,[.code,.setEnt (.own 3)],some 4,false⟩⟩,⟨256,.other,false,some ⟨5,[.comment,.setEnt (.own 3)],some 1,false⟩⟩,⟨256,.other,false,some ⟨6,[.code,.setEnt (.own 3)],some 4,false⟩⟩,⟨256,.other,false,some ⟨7,[.setEnt (.own 3)],some 4,false⟩⟩]⟩,⟨[0],some 0,[],[⟨256,.other,false,none⟩,⟨256,.ws,false,some ⟨1,[.setEnt (.own 0)],some 0,false⟩⟩,⟨256,.lf,false,none⟩,⟨256,.vt,false,none⟩,⟨256,.ff,false,none⟩,⟨256,.cr,false,none⟩,⟨256,.cr,true,none⟩]⟩,⟨[24],none,[],[⟨256,.other,false,none⟩,⟨256,.ws,false,none⟩,⟨256,.lf,false,some ⟨0,[.setEnt .newline],some 3,true⟩⟩,⟨256,.vt,false,none⟩,⟨256,.ff,false,none⟩,⟨256,.cr,false,none⟩,⟨256,.cr,true,none⟩]⟩,⟨[24,28],some 3,[],[⟨256,.other,false,none⟩,⟨256,.ws,false,none⟩,⟨256,.lf,false,some ⟨0,[.setEnt .newline],some 3,true⟩⟩,⟨256,.vt,false,none⟩,⟨256,.ff,false,none⟩,⟨256,.cr,false,none⟩,⟨256,.cr,true,none⟩]⟩,⟨[19,29],some 4,[],[⟨256,.other,false,some ⟨8,[],none,false⟩⟩,⟨256,.ws,false,some ⟨8,[],none,false⟩⟩,⟨256,.lf,false,none⟩,⟨256,.vt,false,some ⟨8,[],none,false⟩⟩,⟨256,.ff,false,none⟩,⟨256,.cr,false,none⟩,⟨256,.cr,true,none⟩,⟨256,.other,false,some ⟨0,[],some 2,true⟩⟩,⟨256,.other,false,some ⟨9,[],none,false⟩⟩]⟩,⟨[1,29],some 1,[],[⟨256,.other,false,some ⟨10,[],some 1,false⟩⟩,⟨256,.ws,false,some ⟨10,[],some 1,false⟩⟩,⟨256,.lf,false,none⟩,⟨256,.vt,false,some ⟨10,[],some 1,false⟩⟩,⟨256,.ff,false,none⟩,⟨256,.cr,false,none⟩,⟨256,.cr,true,none⟩]⟩,⟨[14,29],some 4,[],[⟨256,.other,false,some ⟨11,[],none,false⟩⟩,⟨256,.ws,false,some ⟨11,[],none,false⟩⟩,⟨256,.lf,false,none⟩,⟨256,.vt,false,some ⟨11,[],none,false⟩⟩,⟨256,.ff,false,none⟩,⟨256,.cr,false,none⟩,⟨256,.cr,true,none⟩,⟨256,.other,false,some ⟨0,[],some 2,true⟩⟩,⟨256,.other,false,some ⟨12,[],none,false⟩⟩]⟩,⟨[3,29],some 4,[],[⟨256,.other,false,none⟩,⟨256,.ws,false,none⟩,⟨256,.lf,false,none⟩,⟨256,.vt,false,none⟩,⟨256,.ff,false,none⟩,⟨256,.cr,false,none⟩,⟨256,.cr,true,none⟩,⟨256,.other,false,some ⟨13,[.comment],none,false⟩⟩]⟩,⟨[20],none,[],[⟨256,.other,false,some ⟨8,[],none,false⟩⟩,⟨256,.ws,false,some ⟨8,[],none,false⟩⟩,⟨256,.lf,false,none⟩,⟨256,.vt,false,some ⟨8,[],none,false⟩⟩,⟨256,.ff,false,none⟩,⟨256,.cr,false,none⟩,⟨256,.cr,true,none⟩,⟨256,.other,false,some ⟨0,[],some 2,true⟩⟩,⟨256,.other,false,some ⟨9,[],none,false⟩⟩]⟩,⟨[21],none,[],[⟨256,.other,false,some ⟨14,[],none,false⟩⟩,⟨256,.ws,false,some ⟨14,[],none,false⟩⟩,⟨256,.lf,false,none⟩,⟨256,.vt,false,some ⟨14,[],none,false⟩⟩,⟨256,.ff,false,none⟩,⟨256,.cr,false,none⟩,⟨256,.cr,true,none⟩]⟩,⟨[2],some 1,[],[⟨256,.other,false,some ⟨10,[],some 1,false⟩⟩,⟨256,.ws,false,some ⟨10,[],some 1,false⟩⟩,⟨256,.lf,false,none⟩,⟨256,.vt,false,some ⟨10,[],some 1,false⟩⟩,⟨256,.ff,false,none⟩,⟨256,.cr,false,none⟩,⟨256,.cr,true,none⟩]⟩,⟨[15],none,[],[⟨256,.other,false,some ⟨11,[],none,false⟩⟩,⟨256,.ws,false,some ⟨11,[],none,false⟩⟩,⟨256,.lf,false,none⟩,⟨256,.vt,false,some ⟨11,[],none,false⟩⟩,⟨256,.ff,false,none⟩,⟨256,.cr,false,none⟩,⟨256,.cr,true,none⟩,⟨256,.other,false,some ⟨0,[],some 2,true⟩⟩,⟨256,.other,false,some ⟨12,[],none,false⟩⟩]⟩,⟨[16],none,[],[⟨256,.other,false,some ⟨15,[],none,false⟩⟩,⟨256,.ws,false,some ⟨15,[],none,false⟩⟩,⟨256,.lf,false,none⟩,⟨256,.vt,false,some ⟨15,[],none,false⟩⟩,⟨256,.ff,false,none⟩,⟨256,.cr,false,none⟩,⟨256,.cr,true,none⟩]⟩,⟨[4],none,[],[⟨256,.other,false,some ⟨16,[.comment],none,false⟩⟩,⟨256,.ws,false,some ⟨17,[],none,false⟩⟩,⟨256,.lf,false,some ⟨18,[],none,false⟩⟩,⟨256,.vt,false,some ⟨16,[.comment],none,false⟩⟩,⟨256,.ff,false,some ⟨19,[],none,false⟩⟩,⟨256,.cr,false,some ⟨20,[],none,false⟩⟩,⟨256,.cr,true,some ⟨21,[],none,false⟩⟩,⟨256,.other,false,some ⟨22,[.comment],none,false⟩⟩]⟩,⟨[22],none,[],[⟨256,.other,false,some ⟨8,[],none,false⟩⟩,⟨256,.ws,false,some ⟨8,[],none,false⟩⟩,⟨256,.lf,false,none⟩,⟨256,.vt,false,some ⟨8,[],none,false⟩⟩,⟨256,.ff,false,none⟩,⟨256,.cr,false,none⟩,⟨256,.cr,true,none⟩,⟨256,.other,false,some ⟨0,[],some 2,true⟩⟩,⟨256,.other,false,some ⟨9,[],none,false⟩⟩]⟩,⟨[17],none,[],[⟨256,.other,false,some ⟨11,[],none,false⟩⟩,⟨256,.ws,false,some ⟨11,[],none,false⟩⟩,⟨256,.lf,false,none⟩,⟨256,.vt,false,some ⟨11,[],none,false⟩⟩,⟨256,.ff,false,none⟩,⟨256,.cr,false,none⟩,⟨256,.cr,true,none⟩,⟨256,.other,false,some ⟨0,[],some 2,true⟩⟩,⟨256,.other,false,some ⟨12,[],none,false⟩⟩]⟩,⟨[11],none,[],[⟨256,.other,false,some ⟨16,[.comment],none,false⟩⟩,⟨256,.ws,false,some ⟨17,[],none,false⟩⟩,⟨256,.lf,false,some ⟨18,[],none,false⟩⟩,⟨256,.vt,false,some ⟨16,[.comment],none,false⟩⟩,⟨256,.ff,false,some ⟨19,[],none,false⟩⟩,⟨256,.cr,false,some ⟨20,[],none,false⟩⟩,⟨256,.cr,true,some ⟨21,[],none,false⟩⟩,⟨256,.other,false,some ⟨22,[.comment],none,false⟩⟩]⟩,⟨[10],none,[],[⟨256,.other,false,some ⟨16,[.comment],none,false⟩⟩,⟨256,.ws,false,some ⟨17,[],none,false⟩⟩,⟨256,.lf,false,some ⟨18,[],none,false⟩⟩,⟨256,.vt,false,some ⟨16,[.comment],none,false⟩⟩,⟨256,.ff,false,some ⟨19,[],none,false⟩⟩,⟨256,.cr,false,some ⟨20,[],none,false⟩⟩,⟨256,.cr,true,some ⟨21,[],none,false⟩⟩,⟨256,.other,false,some ⟨22,[.comment],none,false⟩⟩]⟩,⟨[7],none,[],[⟨256,.other,false,some ⟨16,[.setEnt .internalNl,.cb,.comment],none,false⟩⟩,⟨256,.ws,false,some ⟨17,[.setEnt .internalNl,.cb],none,false⟩⟩,⟨256,.lf,false,some ⟨18,[.setEnt .internalNl,.cb],none,false⟩⟩,⟨256,.vt,false,some ⟨16,[.setEnt .internalNl,.cb,.comment],none,false⟩⟩,⟨256,.ff,false,some ⟨19,[.setEnt .internalNl,.cb],none,false⟩⟩,⟨256,.cr,false,some ⟨20,[.setEnt .internalNl,.cb],none,false⟩⟩,⟨256,.cr,true,some ⟨21,[.setEnt .internalNl,.cb],none,false⟩⟩,⟨256,.other,false,some ⟨22,[.setEnt .internalNl,.cb,.comment],none,false⟩⟩]⟩,⟨[8],none,[],[⟨256,.other,false,some ⟨16,[.setEnt .internalNl,.cb,.comment],none,false⟩⟩,⟨256,.ws,false,some ⟨17,[.setEnt .internalNl,.cb],none,false⟩⟩,⟨256,.lf,false,some ⟨18,[.setEnt .internalNl,.cb],none,false⟩⟩,⟨256,.vt,false,some ⟨16,[.setEnt .internalNl,.cb,.comment],none,false⟩⟩,⟨256,.ff,false,some ⟨19,[.setEnt .internalNl,.cb],none,false⟩⟩,⟨256,.cr,false,some ⟨20,[.setEnt .internalNl,.cb],none,false⟩⟩,⟨256,.cr,true,some ⟨21,[.setEnt .internalNl,.cb],none,false⟩⟩,⟨256,.other,false,some ⟨22,[.setEnt .internalNl,.cb,.comment],none,false⟩⟩]⟩,⟨[5],none,[],[⟨256,.other,false,none⟩,⟨256,.ws,false,none⟩,⟨256,.lf,false,some ⟨23,[],none,false⟩⟩,⟨256,.vt,false,none⟩,⟨256,.ff,false,none⟩,⟨256,.cr,false,none⟩,⟨256,.cr,true,none⟩]⟩,⟨[5,9],none,[],[⟨256,.other,false,some ⟨16,[.setEnt .internalNl,.cb,.comment],none,false⟩⟩,⟨256,.ws,false,some ⟨17,[.setEnt .internalNl,.cb],none,false⟩⟩,⟨256,.lf,false,some ⟨24,[.setEnt .internalNl,.cb],none,false⟩⟩,⟨256,.vt,false,some ⟨16,[.setEnt .internalNl,.cb,.comment],none,false⟩⟩,⟨256,.ff,false,some ⟨19,[.setEnt .internalNl,.cb],none,false⟩⟩,⟨256,.cr,false,some ⟨20,[.setEnt .internalNl,.cb],none,false⟩⟩,⟨256,.cr,true,some ⟨21,[.setEnt .internalNl,.cb],none,false⟩⟩,⟨256,.other,false,some ⟨22,[.setEnt .internalNl,.cb,.comment],none,false⟩⟩]⟩,⟨[11,12],none,[],[⟨256,.other,false,some ⟨16,[.comment],none,false⟩⟩,⟨256,.ws,false,some ⟨17,[],none,false⟩⟩,⟨256,.lf,false,some ⟨18,[],none,false⟩⟩,⟨256,.vt,false,some ⟨16,[.comment],none,false⟩⟩,⟨256,.ff,false,some ⟨19,[],none,false⟩⟩,⟨256,.cr,false,some ⟨20,[],none,false⟩⟩,⟨256,.cr,true,some ⟨21,[],none,false⟩⟩,⟨256,.other,false,some ⟨22,[.comment],none,false⟩⟩,⟨256,.other,false,some ⟨0,[],some 1,true⟩⟩]⟩,⟨[6],none,[],[⟨256,.other,false,some ⟨16,[.setEnt .internalNl,.cb,.comment],none,false⟩⟩,⟨256,.ws,false,some ⟨17,[.setEnt .internalNl,.cb],none,false⟩⟩,⟨256,.lf,false,some ⟨18,[.setEnt .internalNl,.cb],none,false⟩⟩,⟨256,.vt,false,some ⟨16,[.setEnt .internalNl,.cb,.comment],none,false⟩⟩,⟨256,.ff,false,some ⟨19,[.setEnt .internalNl,.cb],none,false⟩⟩,⟨256,.cr,false,some ⟨20,[.setEnt .internalNl,.cb],none,false⟩⟩,⟨256,.cr,true,some ⟨21,[.setEnt .internalNl,.cb],none,false⟩⟩,⟨256,.other,false,some ⟨22,[.setEnt .internalNl,.cb,.comment],none,false⟩⟩]⟩,⟨[6,7],none,[],[⟨256,.other,false,some ⟨16,[.setEnt .internalNl,.cb,.comment],none,false⟩⟩,⟨256,.ws,false,some ⟨17,[.setEnt .internalNl,.cb],none,false⟩⟩,⟨256,.lf,false,some ⟨18,[.setEnt .internalNl,.cb],none,false⟩⟩,⟨256,.vt,false,some ⟨16,[.setEnt .internalNl,.cb,.comment],none,false⟩⟩,⟨256,.ff,false,some ⟨19,[.setEnt .internalNl,.cb],none,false⟩⟩,⟨256,.cr,false,some ⟨20,[.setEnt .internalNl,.cb],none,false⟩⟩,⟨256,.cr,true,some ⟨21,[.setEnt .internalNl,.cb],none,false⟩⟩,⟨256,.other,false,some ⟨22,[.setEnt .internalNl,.cb,.comment],none,false⟩⟩]⟩]
theorem logtalk_line_rowsOk : rowsOk logtalk_line_nfa [] (logtalk_line_cs.map (·.1)) logtalk_line_rows = true := by decide +kernel
def logtalk_line_D : Dfa logtalk_line_M.nfa := ⟨logtalk_line_masks, [], logtalk_line_cs, logtalk_line_rows, logtalk_line_masksIn, logtalk_line_repOk, logtalk_line_rowsOk⟩

def ocaml_line_nfa : Nfa := ⟨[⟨0,4294967808,[],[(0,.setEnt (.own 0))],0,0⟩,⟨1,1099511627776,[],[(1,.nestRes)],0,2⟩,⟨16,17179869184,[],[(11,.code)],0,0⟩,⟨21,8192,[],[(12,.setEnt .newline)],0,0⟩,⟨23,1024,[],[(12,.setEnt .newline)],0,0⟩,⟨24,4096,[],[(12,.setEnt .newline)],0,0⟩,⟨25,8192,[.crAlone],[(12,.setEnt .newline)],0,0⟩,⟨26,115792089237316195423570985008687907853269984665640564039457584007908834656767,[],[(13,.setEnt (.own 3))],0,0⟩],[[⟨0,4294967808,[],[(0,.setEnt (.own 0))],0,0⟩],[⟨2,4398046511104,[],[(2,.comment)],0,2⟩],[⟨3,8192,[],[],0,2⟩,⟨5,1024,[],[],0,2⟩,⟨6,4096,[],[],0,2⟩,⟨7,8192,[.crAlone],[],0,2⟩,⟨8,4294967808,[],[],0,2⟩,⟨9,1099511627776,[],[],0,2⟩,⟨11,4398046511104,[],[],0,2⟩,⟨13,115792089237316195423570985008687907853269984665640564039457584007908834658815,[],[(9,.comment)],0,2⟩,⟨14,4398046511104,[.nestZero],[],0,2⟩],[⟨4,1024,[],[],0,2⟩],[⟨3,8192,[],[(3,.setEnt .internalNl),(4,.cb)],0,2⟩,⟨5,1024,[],[(3,.setEnt .internalNl),(4,.cb)],0,2⟩,⟨6,4096,[],[(3,.setEnt .internalNl),(4,.cb)],0,2⟩,⟨7,8192,[.crAlone],[(3,.setEnt .internalNl),(4,.cb)],0,2⟩,⟨8,4294967808,[],[(3,.setEnt .internalNl),(4,.cb)],0,2⟩,⟨9,1099511627776,[],[(3,.setEnt .internalNl),(4,.cb)],0,2⟩,⟨11,4398046511104,[],[(3,.setEnt .internalNl),(4,.cb)],0,2⟩,⟨13,115792089237316195423570985008687907853269984665640564039457584007908834658815,[],[(3,.setEnt .internalNl),(4,.cb),(9,.comment)],0,2⟩,⟨14,4398046511104,[.nestZero],[(3,.setEnt .internalNl),(4,.cb)],0,2⟩],[⟨3,8192,[],[(3,.setEnt .internalNl),(4,.cb)],0,2⟩,⟨5,1024,[],[(3,.setEnt .internalNl),(4,.cb)],0,2⟩,⟨6,4096,[],[(3,.setEnt .internalNl),(4,.cb)],0,2⟩,⟨7,8192,[.crAlone],[(3,.setEnt .internalNl),(4,.cb)],0,2⟩,⟨8,4294967808,[],[(3,.setEnt .internalNl),(4,.cb)],0,2⟩,⟨9,1099511627776,[],[(3,.setEnt .internalNl),(4,.cb)],0,2⟩,⟨11,4398046511104,[],[(3,.setEnt .internalNl),(4,.cb)],0,2⟩,⟨13,115792089237316195423570985008687907853269984665640564039457584007908834658815,[],[(3,.setEnt .internalNl),(4,.cb),(9,.comment)],0,2⟩,⟨14,4398046511104,[.nestZero],[(3,.setEnt .internalNl),(4,.cb)],0,2⟩],[⟨3,8192,[],[(3,.setEnt .internalNl),(4,.cb)],0,2⟩,⟨5,1024,[],[(3,.setEnt .internalNl),(4,.cb)],0,2⟩,⟨6,4096,[],[(3,.setEnt .internalNl),(4,.cb)],0,2⟩,⟨7,8192,[.crAlone],[(3,.setEnt .internalNl),(4,.cb)],0,2⟩,⟨8,4294967808,[],[(3,.setEnt .internalNl),(4,.cb)],0,2⟩,⟨9,1099511627776,[],[(3,.setEnt .internalNl),(4,.cb)],0,2⟩,⟨11,4398046511104,[],[(3,.setEnt .internalNl),(4,.cb)],0,2⟩,⟨13,115792089237316195423570985008687907853269984665640564039457584007908834658815,[],[(3,.setEnt .internalNl),(4,.cb),(9,.comment)],0,2⟩,⟨14,4398046511104,[.nestZero],[(3,.setEnt .internalNl),(4,.cb)],0,2⟩],[⟨3,8192,[],[(3,.setEnt .internalNl),(4,.cb)],0,2⟩,⟨5,1024,[],[(3,.setEnt .internalNl),(4,.cb)],0,2⟩,⟨6,4096,[],[(3,.setEnt .internalNl),(4,.cb)],0,2⟩,⟨7,8192,[.crAlone],[(3,.setEnt .internalNl),(4,.cb)],0,2⟩,⟨8,4294967808,[],[(3,.setEnt .internalNl),(4,.cb)],0,2⟩,⟨9,1099511627776,[],[(3,.setEnt .internalNl),(4,.cb)],0,2⟩,⟨11,4398046511104,[],[(3,.setEnt .internalNl),(4,.cb)],0,2⟩,⟨13,115792089237316195423570985008687907853269984665640564039457584007908834658815,[],[(3,.setEnt .internalNl),(4,.cb),(9,.comment)],0,2⟩,⟨14,4398046511104,[.nestZero],[(3,.setEnt .internalNl),(4,.cb)],0,2⟩],[⟨3,8192,[],[],0,2⟩,⟨5,1024,[],[],0,2⟩,⟨6,4096,[],[],0,2⟩,⟨7,8192,[.crAlone],[],0,2⟩,⟨8,4294967808,[],[],0,2⟩,⟨9,1099511627776,[],[],0,2⟩,⟨11,4398046511104,[],[],0,2⟩,⟨13,115792089237316195423570985008687907853269984665640564039457584007908834658815,[],[(9,.comment)],0,2⟩,⟨14,4398046511104,[.nestZero],[],0,2⟩],[⟨10,4398046511104,[],[(5,.nestInc),(6,.comment)],0,2⟩],[⟨3,8192,[],[],0,2⟩,⟨5,1024,[],[],0,2⟩,⟨6,4096,[],[],0,2⟩,⟨7,8192,[.crAlone],[],0,2⟩,⟨8,4294967808,[],[],0,2⟩,⟨9,1099511627776,[],[],0,2⟩,⟨11,4398046511104,[],[],0,2⟩,⟨13,115792089237316195423570985008687907853269984665640564039457584007908834658815,[],[(9,.comment)],0,2⟩,⟨14,4398046511104,[.nestZero],[],0,2⟩],[⟨12,2199023255552,[],[(7,.nestDec),(8,.comment)],0,2⟩],[⟨3,8192,[],[],0,2⟩,⟨5,1024,[],[],0,2⟩,⟨6,4096,[],[],0,2⟩,⟨7,8192,[.crAlone],[],0,2⟩,⟨8,4294967808,[],[],0,2⟩,⟨9,1099511627776,[],[],0,2⟩,⟨11,4398046511104,[],[],0,2⟩,⟨13,115792089237316195423570985008687907853269984665640564039457584007908834658815,[],[(9,.comment)],0,2⟩,⟨14,4398046511104,[.nestZero],[],0,2⟩],[⟨3,8192,[],[],0,2⟩,⟨5,1024,[],[],0,2⟩,⟨6,4096,[],[],0,2⟩,⟨7,8192,[.crAlone],[],0,2⟩,⟨8,4294967808,[],[],0,2⟩,⟨9,1099511627776,[],[],0,2⟩,⟨11,4398046511104,[],[],0,2⟩,⟨13,115792089237316195423570985008687907853269984665640564039457584007908834658815,[],[(9,.comment)],0,2⟩,⟨14,4398046511104,[.nestZero],[],0,2⟩],[⟨15,2199023255552,[.nestZero],[(10,.comment)],2,0⟩],[],[⟨17,115792089237316195423570985008687907853269984665635612279300442486796353260543,[],[],0,0⟩,⟨18,4951760157141521099596496896,[],[],0,0⟩,⟨20,17179869184,[],[],0,0⟩],[⟨17,115792089237316195423570985008687907853269984665635612279300442486796353260543,[],[],0,0⟩,⟨18,4951760157141521099596496896,[],[],0,0⟩,⟨20,17179869184,[],[],0,0⟩],[⟨19,115792089237316195423570985008687907853269984665640564039457584007913129626623,[],[],0,0⟩],[⟨17,115792089237316195423570985008687907853269984665635612279300442486796353260543,[],[],0,0⟩,⟨18,4951760157141521099596496896,[],[],0,0⟩,⟨20,17179869184,[],[],0,0⟩],[],[⟨22,1024,[],[(12,.setEnt .newline)],0,0⟩],[],[],[],[],[]],[some (0,[]),none,none,none,none,none,none,none,none,none,none,none,none,none,none,some (1,[]),none,none,none,none,some (2,[]),none,some (3,[]),some (3,[]),some (3,[]),some (3,[]),some (4,[])],[1,11,12,13,14]⟩
theorem ocaml_line_nfa_eq : Ocaml.ocaml_line.nfa = ocaml_line_nfa := by decide +kernel
/-- The machine of `Ocaml.ocaml_line`, with its automaton as a literal. -/
def ocaml_line_M : Machine := ⟨ocaml_line_nfa, Ocaml.ocaml_line.ends, Ocaml.ocaml_line.sw⟩
theorem ocaml_line_M_eq : Ocaml.ocaml_line.machine = ocaml_line_M := by
  unfold Scanner.machine ocaml_line_M; rw [ocaml_line_nfa_eq]
def ocaml_line_masks : List Nat := [4294967808,1099511627776,17179869184,8192,1024,4096,115792089237316195423570985008687907853269984665640564039457584007908834656767,4398046511104,115792089237316195423570985008687907853269984665640564039457584007908834658815,2199023255552,115792089237316195423570985008687907853269984665635612279300442486796353260543,4951760157141521099596496896,115792089237316195423570985008687907853269984665640564039457584007913129626623]
def ocaml_line_cs : List (Nat × Nat) := [(0,115792089237316195423570985008687907853269984665635612279300442479095476896255),(9,4294967808),(10,1024),(11,2048),(12,4096),(13,8192),(34,17179869184),(40,1099511627776),(41,2199023255552),(42,4398046511104),(92,4951760157141521099596496896)]
theorem ocaml_line_masksIn : masksIn ocaml_line_nfa ocaml_line_masks = true := by decide +kernel
theorem ocaml_line_repOk : repOk ocaml_line_masks ocaml_line_cs = true := by decide +kernel
def ocaml_line_rows : List Row := [⟨[],none,[],[⟨256,.other,false,some ⟨0,[.setEnt (.own 3)],some 4,true⟩⟩,⟨256,.ws,false,some ⟨1,[.setEnt (.own 0)],some 0,false⟩⟩,⟨256,.lf,false,some ⟨0,[.setEnt .newline],some 3,true⟩⟩,⟨256,.vt,false,none⟩,⟨256,.ff,false,some ⟨0,[.setEnt .newline],some 3,true⟩⟩,⟨256,.cr,false,some ⟨2,[.setEnt .newline],none,false⟩⟩,⟨256,.cr,true,some ⟨3,[.setEnt .newline],some 3,false⟩⟩,⟨256,.other,false,some ⟨4,[.code,.setEnt (.own 3)],some 4,false⟩⟩,⟨256,.other,false,some ⟨5,[.nestRes,.setEnt (.own 3)],some 4,false⟩⟩]⟩,⟨[0],some 0,[],[⟨256,.other,false,none⟩,⟨256,.ws,false,some ⟨1,[.setEnt (.own 0)],some 0,false⟩⟩,⟨256,.lf,false,none⟩,⟨256,.vt,false,none⟩,⟨256,.ff,false,none⟩,⟨256,.cr,false,none⟩,⟨256,.cr,true,none⟩]⟩,⟨[21],none,[],[⟨256,.other,false,none⟩,⟨256,.ws,false,none⟩,⟨256,.lf,false,some ⟨0,[.setEnt .newline],some 3,true⟩⟩,⟨256,.vt,false,none⟩,⟨256,.ff,false,none⟩,⟨256,.cr,false,none⟩,⟨256,.cr,true,none⟩]⟩,⟨[21,25],some 3,[],[⟨256,.other,false,none⟩,⟨256,.ws,false,none⟩,⟨256,.lf,false,some ⟨0,[.setEnt .newline],some 3,true⟩⟩,⟨256,.vt,false,none⟩,⟨256,.ff,false,none⟩,⟨256,.cr,false,none⟩,⟨256,.cr,true,none⟩]⟩,⟨[16,26],some 4,[],[⟨256,.other,false,some ⟨6,[],none,false⟩⟩,⟨256,.ws,false,some ⟨6,[],none,false⟩⟩,⟨256,.lf,false,none⟩,⟨256,.vt,false,some ⟨6,[],none,false⟩⟩,⟨256,.ff,false,none⟩,⟨256,.cr,false,none⟩,⟨256,.cr,true,none⟩,⟨256,.other,false,some ⟨0,[],some 2,true⟩⟩,⟨256,.other,false,some ⟨7,[],none,false⟩⟩]⟩,⟨[1,26],some 4,[],[⟨256,.other,false,none⟩,⟨256,.ws,false,none⟩,⟨256,.lf,false,none⟩,⟨256,.vt,false,none⟩,⟨256,.ff,false,none⟩,⟨256,.cr,false,none⟩,⟨256,.cr,true,none⟩,⟨256,.other,false,some ⟨8,[.comment],none,false⟩⟩]⟩,⟨[17],none,[],[⟨256,.other,false,some ⟨6,[],none,false⟩⟩,⟨256,.ws,false,some ⟨6,[],none,false⟩⟩,⟨256,.lf,false,none⟩,⟨256,.vt,false,some ⟨6,[],none,false⟩⟩,⟨256,.ff,false,none⟩,⟨256,.cr,false,none⟩,⟨256,.cr,true,none⟩,⟨256,.other,false,some ⟨0,[],some 2,true⟩⟩,⟨256,.other,false,some ⟨7,[],none,false⟩⟩]⟩,⟨[18],none,[],[⟨256,.other,false,some ⟨9,[],none,false⟩⟩,⟨256,.ws,false,some ⟨9,[],none,false⟩⟩,⟨256,.lf,false,none⟩,⟨256,.vt,false,some ⟨9,[],none,false⟩⟩,⟨256,.ff,false,none⟩,⟨256,.cr,false,none⟩,⟨256,.cr,true,none⟩]⟩,⟨[2],none,[],[⟨256,.other,false,some ⟨10,[.comment],none,false⟩⟩,⟨256,.ws,false,some ⟨11,[],none,false⟩⟩,⟨256,.lf,false,some ⟨12,[],none,false⟩⟩,⟨256,.vt,false,some ⟨10,[.comment],none,false⟩⟩,⟨256,.ff,false,some ⟨13,[],none,false⟩⟩,⟨256,.cr,false,some ⟨14,[],none,false⟩⟩,⟨256,.cr,true,some ⟨15,[],none,false⟩⟩,⟨256,.other,false,some ⟨16,[.comment],none,false⟩⟩,⟨256,.other,false,some ⟨17,[.comment],none,false⟩⟩,⟨256,.other,false,some ⟨18,[.comment],none,false⟩⟩]⟩,⟨[19],none,[],[⟨256,.other,false,some ⟨6,[],none,false⟩⟩,⟨256,.ws,false,some ⟨6,[],none,false⟩⟩,⟨256,.lf,false,none⟩,⟨256,.vt,false,some ⟨6,[],none,false⟩⟩,⟨256,.ff,false,none⟩,⟨256,.cr,false,none⟩,⟨256,.cr,true,none⟩,⟨256,.other,false,some ⟨0,[],some 2,true⟩⟩,⟨256,.other,false,some ⟨7,[],none,false⟩⟩]⟩,⟨[13],none,[],[⟨256,.other,false,some ⟨10,[.comment],none,false⟩⟩,⟨256,.ws,false,some ⟨11,[],none,false⟩⟩,⟨256,.lf,false,some ⟨12,[],none,false⟩⟩,⟨256,.vt,false,some ⟨10,[.comment],none,false⟩⟩,⟨256,.ff,false,some ⟨13,[],none,false⟩⟩,⟨256,.cr,false,some ⟨14,[],none,false⟩⟩,⟨256,.cr,true,some ⟨15,[],none,false⟩⟩,⟨256,.other,false,some ⟨16,[.comment],none,false⟩⟩,⟨256,.other,false,some ⟨17,[.comment],none,false⟩⟩,⟨256,.other,false,some ⟨18,[.comment],none,false⟩⟩]⟩,⟨[8],none,[],[⟨256,.other,false,some ⟨10,[.comment],none,false⟩⟩,⟨256,.ws,false,some ⟨11,[],none,false⟩⟩,⟨256,.lf,false,some ⟨12,[],none,false⟩⟩,⟨256,.vt,false,some ⟨10,[.comment],none,false⟩⟩,⟨256,.ff,false,some ⟨13,[],none,false⟩⟩,⟨256,.cr,false,some ⟨14,[],none,false⟩⟩,⟨256,.cr,true,some ⟨15,[],none,false⟩⟩,⟨256,.other,false,some ⟨16,[.comment],none,false⟩⟩,⟨256,.other,false,some ⟨17,[.comment],none,false⟩⟩,⟨256,.other,false,some ⟨18,[.comment],none,false⟩⟩]⟩,⟨[5],none,[],[⟨256,.other,false,some ⟨10,[.setEnt .internalNl,.cb,.comment],none,false⟩⟩,⟨256,.ws,false,some ⟨11,[.setEnt .internalNl,.cb],none,false⟩⟩,⟨256,.lf,false,some ⟨12,[.setEnt .internalNl,.cb],none,false⟩⟩,⟨256,.vt,false,some ⟨10,[.setEnt .internalNl,.cb,.comment],none,false⟩⟩,⟨256,.ff,false,some ⟨13,[.setEnt .internalNl,.cb],none,false⟩⟩,⟨256,.cr,false,some ⟨14,[.setEnt .internalNl,.cb],none,false⟩⟩,⟨256,.cr,true,some ⟨15,[.setEnt .internalNl,.cb],none,false⟩⟩,⟨256,.other,false,some ⟨16,[.setEnt .internalNl,.cb,.comment],none,false⟩⟩,⟨256,.other,false,some ⟨17,[.setEnt .internalNl,.cb,.comment],none,false⟩⟩,⟨256,.other,false,some ⟨18,[.setEnt .internalNl,.cb,.comment],none,false⟩⟩]⟩,⟨[6],none,[],[⟨256,.other,false,some ⟨10,[.setEnt .internalNl,.cb,.comment],none,false⟩⟩,⟨256,.ws,false,some ⟨11,[.setEnt .internalNl,.cb],none,false⟩⟩,⟨256,.lf,false,some ⟨12,[.setEnt .internalNl,.cb],none,false⟩⟩,⟨256,.vt,false,some ⟨10,[.setEnt .internalNl,.cb,.comment],none,false⟩⟩,⟨256,.ff,false,some ⟨13,[.setEnt .internalNl,.cb],none,false⟩⟩,⟨256,.cr,false,some ⟨14,[.setEnt .internalNl,.cb],none,false⟩⟩,⟨256,.cr,true,some ⟨15,[.setEnt .internalNl,.cb],none,false⟩⟩,⟨256,.other,false,some ⟨16,[.setEnt .internalNl,.cb,.comment],none,false⟩⟩,⟨256,.other,false,some ⟨17,[.setEnt .internalNl,.cb,.comment],none,false⟩⟩,⟨256,.other,false,some ⟨18,[.setEnt .internalNl,.cb,.comment],none,false⟩⟩]⟩,⟨[3],none,[],[⟨256,.other,false,none⟩,⟨256,.ws,false,none⟩,⟨256,.lf,false,some ⟨19,[],none,false⟩⟩,⟨256,.vt,false,none⟩,⟨256,.ff,false,none⟩,⟨256,.cr,false,none⟩,⟨256,.cr,true,none⟩]⟩,⟨[3,7],none,[],[⟨256,.other,false,some ⟨10,[.setEnt .internalNl,.cb,.comment],none,false⟩⟩,⟨256,.ws,false,some ⟨11,[.setEnt .internalNl,.cb],none,false⟩⟩,⟨256,.lf,false,some ⟨20,[.setEnt .internalNl,.cb],none,false⟩⟩,⟨256,.vt,false,some ⟨10,[.setEnt .internalNl,.cb,.comment],none,false⟩⟩,⟨256,.ff,false,some ⟨13,[.setEnt .internalNl,.cb],none,false⟩⟩,⟨256,.cr,false,some ⟨14,[.setEnt .internalNl,.cb],none,false⟩⟩,⟨256,.cr,true,some ⟨15,[.setEnt .internalNl,.cb],none,false⟩⟩,⟨256,.other,false,some ⟨16,[.setEnt .internalNl,.cb,.comment],none,false⟩⟩,⟨256,.other,false,some ⟨17,[.setEnt .internalNl,.cb,.comment],none,false⟩⟩,⟨256,.other,false,some ⟨18,[.setEnt .internalNl,.cb,.comment],none,false⟩⟩]⟩,⟨[9,13],none,[],[⟨256,.other,false,some ⟨10,[.comment],none,false⟩⟩,⟨256,.ws,false,some ⟨11,[],none,false⟩⟩,⟨256,.lf,false,some ⟨12,[],none,false⟩⟩,⟨256,.vt,false,some ⟨10,[.comment],none,false⟩⟩,⟨256,.ff,false,some ⟨13,[],none,false⟩⟩,⟨256,.cr,false,some ⟨14,[],none,false⟩⟩,⟨256,.cr,true,some ⟨15,[],none,false⟩⟩,⟨256,.other,false,some ⟨16,[.comment],none,false⟩⟩,⟨256,.other,false,some ⟨21,[.nestInc,.comment],none,false⟩⟩,⟨256,.other,false,some ⟨22,[.nestInc,.comment],none,false⟩⟩]⟩,⟨[11,13],none,[],[⟨256,.other,false,some ⟨10,[.comment],none,false⟩⟩,⟨256,.ws,false,some ⟨11,[],none,false⟩⟩,⟨256,.lf,false,some ⟨12,[],none,false⟩⟩,⟨256,.vt,false,some ⟨10,[.comment],none,false⟩⟩,⟨256,.ff,false,some ⟨13,[],none,false⟩⟩,⟨256,.cr,false,some ⟨14,[],none,false⟩⟩,⟨256,.cr,true,some ⟨15,[],none,false⟩⟩,⟨256,.other,false,some ⟨16,[.comment],none,false⟩⟩,⟨256,.other,false,some ⟨23,[.nestDec,.comment],none,false⟩⟩,⟨256,.other,false,some ⟨17,[.comment],none,false⟩⟩,⟨256,.other,false,some ⟨18,[.comment],none,false⟩⟩]⟩,⟨[11,13,14],none,[],[⟨256,.other,false,some ⟨10,[.comment],none,false⟩⟩,⟨256,.ws,false,some ⟨11,[],none,false⟩⟩,⟨256,.lf,false,some ⟨12,[],none,false⟩⟩,⟨256,.vt,false,some ⟨10,[.comment],none,false⟩⟩,⟨256,.ff,false,some ⟨13,[],none,false⟩⟩,⟨256,.cr,false,some ⟨14,[],none,false⟩⟩,⟨256,.cr,true,some ⟨15,[],none,false⟩⟩,⟨256,.other,false,some ⟨16,[.comment],none,false⟩⟩,⟨256,.other,false,some ⟨23,[.nestDec,.comment],none,false⟩⟩,⟨256,.other,false,some ⟨0,[.comment],some 1,true⟩⟩,⟨256,.other,false,some ⟨17,[.comment],none,false⟩⟩,⟨256,.other,false,some ⟨18,[.comment],none,false⟩⟩]⟩,⟨[4],none,[],[⟨256,.other,false,some ⟨10,[.setEnt .internalNl,.cb,.comment],none,false⟩⟩,⟨256,.ws,false,some ⟨11,[.setEnt .internalNl,.cb],none,false⟩⟩,⟨256,.lf,false,some ⟨12,[.setEnt .internalNl,.cb],none,false⟩⟩,⟨256,.vt,false,some ⟨10,[.setEnt .internalNl,.cb,.comment],none,false⟩⟩,⟨256,.ff,false,some ⟨13,[.setEnt .internalNl,.cb],none,false⟩⟩,⟨256,.cr,false,some ⟨14,[.setEnt .internalNl,.cb],none,false⟩⟩,⟨256,.cr,true,some ⟨15,[.setEnt .internalNl,.cb],none,false⟩⟩,⟨256,.other,false,some ⟨16,[.setEnt .internalNl,.cb,.comment],none,false⟩⟩,⟨256,.other,false,some ⟨17,[.setEnt .internalNl,.cb,.comment],none,false⟩⟩,⟨256,.other,false,some ⟨18,[.setEnt .internalNl,.cb,.comment],none,false⟩⟩]⟩,⟨[4,5],none,[],[⟨256,.other,false,some ⟨10,[.setEnt .internalNl,.cb,.comment],none,false⟩⟩,⟨256,.ws,false,some ⟨11,[.setEnt .internalNl,.cb],none,false⟩⟩,⟨256,.lf,false,some ⟨12,[.setEnt .internalNl,.cb],none,false⟩⟩,⟨256,.vt,false,some ⟨10,[.setEnt .internalNl,.cb,.comment],none,false⟩⟩,⟨256,.ff,false,some ⟨13,[.setEnt .internalNl,.cb],none,false⟩⟩,⟨256,.cr,false,some ⟨14,[.setEnt .internalNl,.cb],none,false⟩⟩,⟨256,.cr,true,some ⟨15,[.setEnt .internalNl,.cb],none,false⟩⟩,⟨256,.other,false,some ⟨16,[.setEnt .internalNl,.cb,.comment],none,false⟩⟩,⟨256,.other,false,some ⟨17,[.setEnt .internalNl,.cb,.comment],none,false⟩⟩,⟨256,.other,false,some ⟨18,[.setEnt .internalNl,.cb,.comment],none,false⟩⟩]⟩,⟨[10,11,13],none,[],[⟨256,.other,false,some ⟨10,[.comment],none,false⟩⟩,⟨256,.ws,false,some ⟨11,[],none,false⟩⟩,⟨256,.lf,false,some ⟨12,[],none,false⟩⟩,⟨256,.vt,false,some ⟨10,[.comment],none,false⟩⟩,⟨256,.ff,false,some ⟨13,[],none,false⟩⟩,⟨256,.cr,false,some ⟨14,[],none,false⟩⟩,⟨256,.cr,true,some ⟨15,[],none,false⟩⟩,⟨256,.other,false,some ⟨16,[.comment],none,false⟩⟩,⟨256,.other,false,some ⟨23,[.nestDec,.comment],none,false⟩⟩,⟨256,.other,false,some ⟨17,[.comment],none,false⟩⟩,⟨256,.other,false,some ⟨18,[.comment],none,false⟩⟩]⟩,⟨[10,11,13,14],none,[],[⟨256,.other,false,some ⟨10,[.comment],none,false⟩⟩,⟨256,.ws,false,some ⟨11,[],none,false⟩⟩,⟨256,.lf,false,some ⟨12,[],none,false⟩⟩,⟨256,.vt,false,some ⟨10,[.comment],none,false⟩⟩,⟨256,.ff,false,some ⟨13,[],none,false⟩⟩,⟨256,.cr,false,some ⟨14,[],none,false⟩⟩,⟨256,.cr,true,some ⟨15,[],none,false⟩⟩,⟨256,.other,false,some ⟨16,[.comment],none,false⟩⟩,⟨256,.other,false,some ⟨23,[.nestDec,.comment],none,false⟩⟩,⟨256,.other,false,some ⟨0,[.comment],some 1,true⟩⟩,⟨256,.other,false,some ⟨17,[.comment],none,false⟩⟩,⟨256,.other,false,some ⟨18,[.comment],none,false⟩⟩]⟩,⟨[12,13],none,[],[⟨256,.other,false,some ⟨10,[.comment],none,false⟩⟩,⟨256,.ws,false,some ⟨11,[],none,false⟩⟩,⟨256,.lf,false,some ⟨12,[],none,false⟩⟩,⟨256,.vt,false,some ⟨10,[.comment],none,false⟩⟩,⟨256,.ff,false,some ⟨13,[],none,false⟩⟩,⟨256,.cr,false,some ⟨14,[],none,false⟩⟩,⟨256,.cr,true,some ⟨15,[],none,false⟩⟩,⟨256,.other,false,some ⟨16,[.comment],none,false⟩⟩,⟨256,.other,false,some ⟨17,[.comment],none,false⟩⟩,⟨256,.other,false,some ⟨18,[.comment],none,false⟩⟩]⟩]
theorem ocaml_line_rowsOk : rowsOk ocaml_line_nfa [] (ocaml_line_cs.map (·.1)) ocaml_line_rows = true := by decide +kernel
def ocaml_line_D : Dfa ocaml_line_M.nfa := ⟨ocaml_line_masks, [], ocaml_line_cs, ocaml_line_rows, ocaml_line_masksIn, ocaml_line_repOk, ocaml_line_rowsOk⟩

def php_line_nfa : Nfa := ⟨[⟨0,4294967808,[],[(0,.setEnt (.own 0))],0,0⟩,⟨1,140737488355328,[],[],0,0⟩,⟨3,34359738368,[],[(1,.comment)],0,0⟩,⟨5,140737488355328,[],[],0,2⟩,⟨16,549755813888,[],[(6,.enqueue),(7,.code)],0,0⟩,⟨27,17179869184,[],[(14,.enqueue),(15,.code)],0,0⟩,⟨38,8192,[],[(22,.setEnt .newline)],0,0⟩,⟨40,1024,[],[(22,.setEnt .newline)],0,0⟩,⟨41,4096,[],[(22,.setEnt .newline)],0,0⟩,⟨42,8192,[.crAlone],[(22,.setEnt .newline)],0,0⟩,⟨43,115792089237316195423570985008687907853269984665640564039457584007908834656767,[],[(23,.setEnt (.own 3))],0,0⟩],[[⟨0,4294967808,[],[(0,.setEnt (.own 0))],0,0⟩],[⟨2,140737488355328,[],[(1,.comment)],0,0⟩],[⟨4,115792089237316195423570985008687907853269984665640564039457584007913129626623,[],[],0,0⟩],[⟨4,115792089237316195423570985008687907853269984665640564039457584007913129626623,[],[],0,0⟩],[⟨4,115792089237316195423570985008687907853269984665640564039457584007913129626623,[],[],0,0⟩],[⟨6,4398046511104,[],[(2,.comment)],0,2⟩],[⟨7,8192,[],[],0,2⟩,⟨9,1024,[],[],0,2⟩,⟨10,4096,[],[],0,2⟩,⟨11,8192,[.crAlone],[],0,2⟩,⟨12,4294967808,[],[],0,2⟩,⟨13,115792089237316195423570985008687907853269984665640564039457584007908834658815,[],[(5,.comment)],0,2⟩,⟨14,4398046511104,[],[],0,2⟩],[⟨8,1024,[],[],0,2⟩],[⟨7,8192,[],[(3,.setEnt .internalNl),(4,.cb)],0,2⟩,⟨9,1024,[],[(3,.setEnt .internalNl),(4,.cb)],0,2⟩,⟨10,4096,[],[(3,.setEnt .internalNl),(4,.cb)],0,2⟩,⟨11,8192,[.crAlone],[(3,.setEnt .internalNl),(4,.cb)],0,2⟩,⟨12,4294967808,[],[(3,.setEnt .internalNl),(4,.cb)],0,2⟩,⟨13,115792089237316195423570985008687907853269984665640564039457584007908834658815,[],[(3,.setEnt .internalNl),(4,.cb),(5,.comment)],0,2⟩,⟨14,4398046511104,[],[(3,.setEnt .internalNl),(4,.cb)],0,2⟩],[⟨7,8192,[],[(3,.setEnt .internalNl),(4,.cb)],0,2⟩,⟨9,1024,[],[(3,.setEnt .internalNl),(4,.cb)],0,2⟩,⟨10,4096,[],[(3,.setEnt .internalNl),(4,.cb)],0,2⟩,⟨11,8192,[.crAlone],[(3,.setEnt .internalNl),(4,.cb)],0,2⟩,⟨12,4294967808,[],[(3,.setEnt .internalNl),(4,.cb)],0,2⟩,⟨13,115792089237316195423570985008687907853269984665640564039457584007908834658815,[],[(3,.setEnt .internalNl),(4,.cb),(5,.comment)],0,2⟩,⟨14,4398046511104,[],[(3,.setEnt .internalNl),(4,.cb)],0,2⟩],[⟨7,8192,[],[(3,.setEnt .internalNl),(4,.cb)],0,2⟩,⟨9,1024,[],[(3,.setEnt .internalNl),(4,.cb)],0,2⟩,⟨10,4096,[],[(3,.setEnt .internalNl),(4,.cb)],0,2⟩,⟨11,8192,[.crAlone],[(3,.setEnt .internalNl),(4,.cb)],0,2⟩,⟨12,4294967808,[],[(3,.setEnt .internalNl),(4,.cb)],0,2⟩,⟨13,115792089237316195423570985008687907853269984665640564039457584007908834658815,[],[(3,.setEnt .internalNl),(4,.cb),(5,.comment)],0,2⟩,⟨14,4398046511104,[],[(3,.setEnt .internalNl),(4,.cb)],0,2⟩],[⟨7,8192,[],[(3,.setEnt .internalNl),(4,.cb)],0,2⟩,⟨9,1024,[],[(3,.setEnt .internalNl),(4,.cb)],0,2⟩,⟨10,4096,[],[(3,.setEnt .internalNl),(4,.cb)],0,2⟩,⟨11,8192,[.crAlone],[(3,.setEnt .internalNl),(4,.cb)],0,2⟩,⟨12,4294967808,[],[(3,.setEnt .internalNl),(4,.cb)],0,2⟩,⟨13,115792089237316195423570985008687907853269984665640564039457584007908834658815,[],[(3,.setEnt .internalNl),(4,.cb),(5,.comment)],0,2⟩,⟨14,4398046511104,[],[(3,.setEnt .internalNl),(4,.cb)],0,2⟩],[⟨7,8192,[],[],0,2⟩,⟨9,1024,[],[],0,2⟩,⟨10,4096,[],[],0,2⟩,⟨11,8192,[.crAlone],[],0,2⟩,⟨12,4294967808,[],[],0,2⟩,⟨13,115792089237316195423570985008687907853269984665640564039457584007908834658815,[],[(5,.comment)],0,2⟩,⟨14,4398046511104,[],[],0,2⟩],[⟨7,8192,[],[],0,2⟩,⟨9,1024,[],[],0,2⟩,⟨10,4096,[],[],0,2⟩,⟨11,8192,[.crAlone],[],0,2⟩,⟨12,4294967808,[],[],0,2⟩,⟨13,115792089237316195423570985008687907853269984665640564039457584007908834658815,[],[(5,.comment)],0,2⟩,⟨14,4398046511104,[],[],0,2⟩],[⟨15,140737488355328,[],[],2,0⟩],[],[⟨17,8192,[],[],0,0⟩,⟨19,1024,[],[],0,0⟩,⟨20,4096,[],[],0,0⟩,⟨21,8192,[.crAlone],[],0,0⟩,⟨22,4294967808,[],[],0,0⟩,⟨23,115792089237316195423570985008687907853269984665635612279300442486263777315839,[],[(10,.code)],0,0⟩,⟨24,4951760157141521099596496896,[],[],0,0⟩,⟨26,549755813888,[],[(12,.commit),(13,.code)],0,0⟩],[⟨18,1024,[],[],0,0⟩],[⟨17,8192,[],[(8,.setEnt .internalNl),(9,.cb)],0,0⟩,⟨19,1024,[],[(8,.setEnt .internalNl),(9,.cb)],0,0⟩,⟨20,4096,[],[(8,.setEnt .internalNl),(9,.cb)],0,0⟩,⟨21,8192,[.crAlone],[(8,.setEnt .internalNl),(9,.cb)],0,0⟩,⟨22,4294967808,[],[(8,.setEnt .internalNl),(9,.cb)],0,0⟩,⟨23,115792089237316195423570985008687907853269984665635612279300442486263777315839,[],[(8,.setEnt .internalNl),(9,.cb),(10,.code)],0,0⟩,⟨24,4951760157141521099596496896,[],[(8,.setEnt .internalNl),(9,.cb)],0,0⟩,⟨26,549755813888,[],[(8,.setEnt .internalNl),(9,.cb),(12,.commit),(13,.code)],0,0⟩],[⟨17,8192,[],[(8,.setEnt .internalNl),(9,.cb)],0,0⟩,⟨19,1024,[],[(8,.setEnt .internalNl),(9,.cb)],0,0⟩,⟨20,4096,[],[(8,.setEnt .internalNl),(9,.cb)],0,0⟩,⟨21,8192,[.crAlone],[(8,.setEnt .internalNl),(9,.cb)],0,0⟩,⟨22,4294967808,[],[(8,.setEnt .internalNl),(9,.cb)],0,0⟩,⟨23,115792089237316195423570985008687907853269984665635612279300442486263777315839,[],[(8,.setEnt .internalNl),(9,.cb),(10,.code)],0,0⟩,⟨24,4951760157141521099596496896,[],[(8,.setEnt .internalNl),(9,.cb)],0,0⟩,⟨26,549755813888,[],[(8,.setEnt .internalNl),(9,.cb),(12,.commit),(13,.code)],0,0⟩],[⟨17,8192,[],[(8,.setEnt .internalNl),(9,.cb)],0,0⟩,⟨19,1024,[],[(8,.setEnt .internalNl),(9,.cb)],0,0⟩,⟨20,4096,[],[(8,.setEnt .internalNl),(9,.cb)],0,0⟩,⟨21,8192,[.crAlone],[(8,.setEnt .internalNl),(9,.cb)],0,0⟩,⟨22,4294967808,[],[(8,.setEnt .internalNl),(9,.cb)],0,0⟩,⟨23,115792089237316195423570985008687907853269984665635612279300442486263777315839,[],[(8,.setEnt .internalNl),(9,.cb),(10,.code)],0,0⟩,⟨24,4951760157141521099596496896,[],[(8,.setEnt .internalNl),(9,.cb)],0,0⟩,⟨26,549755813888,[],[(8,.setEnt .internalNl),(9,.cb),(12,.commit),(13,.code)],0,0⟩],[⟨17,8192,[],[(8,.setEnt .internalNl),(9,.cb)],0,0⟩,⟨19,1024,[],[(8,.setEnt .internalNl),(9,.cb)],0,0⟩,⟨20,4096,[],[(8,.setEnt .internalNl),(9,.cb)],0,0⟩,⟨21,8192,[.crAlone],[(8,.setEnt .internalNl),(9,.cb)],0,0⟩,⟨22,4294967808,[],[(8,.setEnt .internalNl),(9,.cb)],0,0⟩,⟨23,115792089237316195423570985008687907853269984665635612279300442486263777315839,[],[(8,.setEnt .internalNl),(9,.cb),(10,.code)],0,0⟩,⟨24,4951760157141521099596496896,[],[(8,.setEnt .internalNl),(9,.cb)],0,0⟩,⟨26,549755813888,[],[(8,.setEnt .internalNl),(9,.cb),(12,.commit),(13,.code)],0,0⟩],[⟨17,8192,[],[],0,0⟩,⟨19,1024,[],[],0,0⟩,⟨20,4096,[],[],0,0⟩,⟨21,8192,[.crAlone],[],0,0⟩,⟨22,4294967808,[],[],0,0⟩,⟨23,115792089237316195423570985008687907853269984665635612279300442486263777315839,[],[(10,.code)],0,0⟩,⟨24,4951760157141521099596496896,[],[],0,0⟩,⟨26,549755813888,[],[(12,.commit),(13,.code)],0,0⟩],[⟨17,8192,[],[],0,0⟩,⟨19,1024,[],[],0,0⟩,⟨20,4096,[],[],0,0⟩,⟨21,8192,[.crAlone],[],0,0⟩,⟨22,4294967808,[],[],0,0⟩,⟨23,115792089237316195423570985008687907853269984665635612279300442486263777315839,[],[(10,.code)],0,0⟩,⟨24,4951760157141521099596496896,[],[],0,0⟩,⟨26,549755813888,[],[(12,.commit),(13,.code)],0,0⟩],[⟨25,115792089237316195423570985008687907853269984665640564039457584007913129626623,[],[(11,.code)],0,0⟩],[⟨17,8192,[],[],0,0⟩,⟨19,1024,[],[],0,0⟩,⟨20,4096,[],[],0,0⟩,⟨21,8192,[.crAlone],[],0,0⟩,⟨22,4294967808,[],[],0,0⟩,⟨23,115792089237316195423570985008687907853269984665635612279300442486263777315839,[],[(10,.code)],0,0⟩,⟨24,4951760157141521099596496896,[],[],0,0⟩,⟨26,549755813888,[],[(12,.commit),(13,.code)],0,0⟩],[],[⟨28,8192,[],[],0,0⟩,⟨30,1024,[],[],0,0⟩,⟨31,4096,[],[],0,0⟩,⟨32,8192,[.crAlone],[],0,0⟩,⟨33,4294967808,[],[],0,0⟩,⟨34,115792089237316195423570985008687907853269984665635612279300442486796353260543,[],[(18,.code)],0,0⟩,⟨35,4951760157141521099596496896,[],[],0,0⟩,⟨37,17179869184,[],[(20,.commit),(21,.code)],0,0⟩],[⟨29,1024,[],[],0,0⟩],[⟨28,8192,[],[(16,.setEnt .internalNl),(17,.cb)],0,0⟩,⟨30,1024,[],[(16,.setEnt .internalNl),(17,.cb)],0,0⟩,⟨31,4096,[],[(16,.setEnt .internalNl),(17,.cb)],0,0⟩,⟨32,8192,[.crAlone],[(16,.setEnt .internalNl),(17,.cb)],0,0⟩,⟨33,4294967808,[],[(16,.setEnt .internalNl),(17,.cb)],0,0⟩,⟨34,115792089237316195423570985008687907853269984665635612279300442486796353260543,[],[(16,.setEnt .internalNl),(17,.cb),(18,.code)],0,0⟩,⟨35,4951760157141521099596496896,[],[(16,.setEnt .internalNl),(17,.cb)],0,0⟩,⟨37,17179869184,[],[(16,.setEnt .internalNl),(17,.cb),(20,.commit),(21,.code)],0,0⟩],[⟨28,8192,[],[(16,.setEnt .internalNl),(17,.cb)],0,0⟩,⟨30,1024,[],[(16,.setEnt .internalNl),(17,.cb)],0,0⟩,⟨31,4096,[],[(16,.setEnt .internalNl),(17,.cb)],0,0⟩,⟨32,8192,[.crAlone],[(16,.setEnt .internalNl),(17,.cb)],0,0⟩,⟨33,4294967808,[],[(16,.setEnt .internalNl),(17,.cb)],0,0⟩,⟨34,115792089237316195423570985008687907853269984665635612279300442486796353260543,[],[(16,.setEnt .internalNl),(17,.cb),(18,.code)],0,0⟩,⟨35,4951760157141521099596496896,[],[(16,.setEnt .internalNl),(17,.cb)],0,0⟩,⟨37,17179869184,[],[(16,.setEnt .internalNl),(17,.cb),(20,.commit),(21,.code)],0,0⟩],[⟨28,8192,[],[(16,.setEnt .internalNl),(17,.cb)],0,0⟩,⟨30,1024,[],[(16,.setEnt .internalNl),(17,.cb)],0,0⟩,⟨31,4096,[],[(16,.setEnt .internalNl),(17,.cb)],0,0⟩,⟨32,8192,[.crAlone],[(16,.setEnt .internalNl),(17,.cb)],0,0⟩,⟨33,4294967808,[],[(16,.setEnt .internalNl),(17,.cb)],0,0⟩,⟨34,115792089237316195423570985008687907853269984665635612279300442486796353260543,[],[(16,.setEnt .internalNl),(17,.cb),(18,.code)],0,0⟩,⟨35,4951760157141521099596496896,[],[(16,.setEnt .internalNl),(17,.cb)],0,0⟩,⟨37,17179869184,[],[(16,.setEnt .internalNl),(17,.cb),(20,.commit),(21,.code)],0,0⟩],[⟨28,8192,[],[(16,.setEnt .internalNl),(17,.cb)],0,0⟩,⟨30,1024,[],[(16,.setEnt .internalNl),(17,.cb)],0,0⟩,⟨31,4096,[],[(16,.setEnt .internalNl),(17,.cb)],0,0⟩,⟨32,8192,[.crAlone],[(16,.setEnt .internalNl),(17,.cb)],0,0⟩,⟨33,4294967808,[],[(16,.setEnt .internalNl),(17,.cb)],0,0⟩,⟨34,115792089237316195423570985008687907853269984665635612279300442486796353260543,[],[(16,.setEnt .internalNl),(17,.cb),(18,.code)],0,0⟩,⟨35,4951760157141521099596496896,[],[(16,.setEnt .internalNl),(17,.cb)],0,0⟩,⟨37,17179869184,[],[(16,.setEnt .internalNl),(17,.cb),(20,.commit),(21,.code)],0,0⟩],[⟨28,8192,[],[],0,0⟩,⟨30,1024,[],[],0,0⟩,⟨31,4096,[],[],0,0⟩,⟨32,8192,[.crAlone],[],0,0⟩,⟨33,4294967808,[],[],0,0⟩,⟨34,115792089237316195423570985008687907853269984665635612279300442486796353260543,[],[(18,.code)],0,0⟩,⟨35,4951760157141521099596496896,[],[],0,0⟩,⟨37,17179869184,[],[(20,.commit),(21,.code)],0,0⟩],[⟨28,8192,[],[],0,0⟩,⟨30,1024,[],[],0,0⟩,⟨31,4096,[],[],0,0⟩,⟨32,8192,[.crAlone],[],0,0⟩,⟨33,4294967808,[],[],0,0⟩,⟨34,115792089237316195423570985008687907853269984665635612279300442486796353260543,[],[(18,.code)],0,0⟩,⟨35,4951760157141521099596496896,[],[],0,0⟩,⟨37,17179869184,[],[(20,.commit),(21,.code)],0,0⟩],[⟨36,115792089237316195423570985008687907853269984665640564039457584007913129626623,[],[(19,.code)],0,0⟩],[⟨28,8192,[],[],0,0⟩,⟨30,1024,[],[],0,0⟩,⟨31,4096,[],[],0,0⟩,⟨32,8192,[.crAlone],[],0,0⟩,⟨33,4294967808,[],[],0,0⟩,⟨34,115792089237316195423570985008687907853269984665635612279300442486796353260543,[],[(18,.code)],0,0⟩,⟨35,4951760157141521099596496896,[],[],0,0⟩,⟨37,17179869184,[],[(20,.commit),(21,.code)],0,0⟩],[],[⟨39,1024,[],[(22,.setEnt .newline)],0,0⟩],[],[],[],[],[]],[some (0,[]),none,some (1,[]),some (1,[]),some (1,[]),none,none,none,none,none,none,none,none,none,none,some (1,[]),none,none,none,none,none,none,none,none,none,none,some (2,[]),none,none,none,none,none,none,none,none,none,none,some (2,[]),none,some (3,[]),some (3,[]),some (3,[]),some (3,[]),some (4,[])],[1,6,22,23,24]⟩
theorem php_line_nfa_eq : Php.php_line.nfa = php_line_nfa := by decide +kernel
/-- The machine of `Php.php_line`, with its automaton as a literal. -/
def php_line_M : Machine := ⟨php_line_nfa, Php.php_line.ends, Php.php_line.sw⟩
theorem php_line_M_eq : Php.php_line.machine = php_line_M := by
  unfold Scanner.machine php_line_M; rw [php_line_nfa_eq]
def php_line_masks : List Nat := [4294967808,140737488355328,34359738368,549755813888,17179869184,8192,1024,4096,115792089237316195423570985008687907853269984665640564039457584007908834656767,115792089237316195423570985008687907853269984665640564039457584007913129626623,4398046511104,115792089237316195423570985008687907853269984665640564039457584007908834658815,115792089237316195423570985008687907853269984665635612279300442486263777315839,4951760157141521099596496896,115792089237316195423570985008687907853269984665635612279300442486796353260543]
def php_line_cs : List (Nat × Nat) := [(0,115792089237316195423570985008687907853269984665635612279300442341072407871999),(9,4294967808),(10,1024),(11,2048),(12,4096),(13,8192),(34,17179869184),(35,34359738368),(39,549755813888),(42,4398046511104),(47,140737488355328),(92,4951760157141521099596496896)]
theorem php_line_masksIn : masksIn php_line_nfa php_line_masks = true := by decide +kernel
theorem php_line_repOk : repOk php_line_masks php_line_cs = true := by decide +kernel
def php_line_rows : List Row := [⟨[],none,[],[⟨256,.other,false,some ⟨0,[.setEnt (.own 3)],some 4,true⟩⟩,⟨256,.ws,false,some ⟨1,[.setEnt (.own 0)],some 0,false⟩⟩,⟨256,.lf,false,some ⟨0,[.setEnt .newline],some 3,true⟩⟩,⟨256,.vt,false,none⟩,⟨256,.ff,false,some ⟨0,[.setEnt .newline],some 3,true⟩⟩,⟨256,.cr,false,some ⟨2,[.setEnt .newline],none,false⟩⟩,⟨256,.cr,true,some ⟨3,[.setEnt .newline],some 3,false⟩⟩,⟨256,.other,false,some ⟨4,[.enqueue,.code,.setEnt (.own 3)],some 4,false⟩⟩,⟨256,.other,false,some ⟨5,[.comment,.setEnt (.own 3)],some 1,false⟩⟩,⟨256,.other,false,some ⟨6,[.enqueue,.code,.setEnt (.own 3)],some 4,false⟩⟩,⟨256,.other,false,some ⟨7,[.setEnt (.own 3)],some 4,false⟩⟩]⟩,⟨[0],some 0,[],[⟨256,.other,false,none⟩,⟨256,.ws,false,some ⟨1,[.setEnt (.own 0)],some 0,false⟩⟩,⟨256,.lf,false,none⟩,⟨256,.vt,false,none⟩,⟨256,.ff,false,none⟩,⟨256,.cr,false,none⟩,⟨256,.cr,true,none⟩]⟩,⟨[38],none,[],[⟨256,.other,false,none⟩,⟨256,.ws,false,none⟩,⟨256,.lf,false,some ⟨0,[.setEnt .newline],some 3,true⟩⟩,⟨256,.vt,false,none⟩,⟨256,.ff,false,none⟩,⟨256,.cr,false,none⟩,⟨256,.cr,true,none⟩]⟩,⟨[38,42],some 3,[],[⟨256,.other,false,none⟩,⟨256,.ws,false,none⟩,⟨256,.lf,false,some ⟨0,[.setEnt .newline],some 3,true⟩⟩,⟨256,.vt,false,none⟩,⟨256,.ff,false,none⟩,⟨256,.cr,false,none⟩,⟨256,.cr,true,none⟩]⟩,⟨[27,43],some 4,[],[⟨256,.other,false,some ⟨8,[.code],none,false⟩⟩,⟨256,.ws,false,some ⟨9,[.code],none,false⟩⟩,⟨256,.lf,false,some ⟨10,[],none,false⟩⟩,⟨256,.vt,false,some ⟨8,[.code],none,false⟩⟩,⟨256,.ff,false,some ⟨11,[],none,false⟩⟩,⟨256,.cr,false,some ⟨12,[],none,false⟩⟩,⟨256,.cr,true,some ⟨13,[],none,false⟩⟩,⟨256,.other,false,some ⟨0,[.commit,.code],some 2,true⟩⟩,⟨256,.other,false,some ⟨14,[],none,false⟩⟩]⟩,⟨[3,43],some 1,[],[⟨256,.other,false,some ⟨15,[],some 1,false⟩⟩,⟨256,.ws,false,some ⟨15,[],some 1,false⟩⟩,⟨256,.lf,false,none⟩,⟨256,.vt,false,some ⟨15,[],some 1,false⟩⟩,⟨256,.ff,false,none⟩,⟨256,.cr,false,none⟩,⟨256,.cr,true,none⟩]⟩,⟨[16,43],some 4,[],[⟨256,.other,false,some ⟨16,[.code],none,false⟩⟩,⟨256,.ws,false,some ⟨17,[.code],none,false⟩⟩,⟨256,.lf,false,some ⟨18,[],none,false⟩⟩,⟨256,.vt,false,some ⟨16,[.code],none,false⟩⟩,⟨256,.ff,false,some ⟨19,[],none,false⟩⟩,⟨256,.cr,false,some ⟨20,[],none,false⟩⟩,⟨256,.cr,true,some ⟨21,[],none,false⟩⟩,⟨256,.other,false,some ⟨0,[.commit,.code],some 2,true⟩⟩,⟨256,.other,false,some ⟨22,[],none,false⟩⟩]⟩,⟨[1,5,43],some 4,[],[⟨256,.other,false,none⟩,⟨256,.ws,false,none⟩,⟨256,.lf,false,none⟩,⟨256,.vt,false,none⟩,⟨256,.ff,false,none⟩,⟨256,.cr,false,none⟩,⟨256,.cr,true,none⟩,⟨256,.other,false,some ⟨23,[.comment],none,false⟩⟩,⟨256,.other,false,some ⟨24,[.comment],some 1,false⟩⟩]⟩,⟨[34],none,[],[⟨256,.other,false,some ⟨8,[.code],none,false⟩⟩,⟨256,.ws,false,some ⟨9,[.code],none,false⟩⟩,⟨256,.lf,false,some ⟨10,[],none,false⟩⟩,⟨256,.vt,false,some ⟨8,[.code],none,false⟩⟩,⟨256,.ff,false,some ⟨11,[],none,false⟩⟩,⟨256,.cr,false,some ⟨12,[],none,false⟩⟩,⟨256,.cr,true,some ⟨13,[],none,false⟩⟩,⟨256,.other,false,some ⟨0,[.commit,.code],some 2,true⟩⟩,⟨256,.other,false,some ⟨14,[],none,false⟩⟩]⟩,⟨[33,34],none,[],[⟨256,.other,false,some ⟨8,[.code],none,false⟩⟩,⟨256,.ws,false,some ⟨9,[.code],none,false⟩⟩,⟨256,.lf,false,some ⟨10,[],none,false⟩⟩,⟨256,.vt,false,some ⟨8,[.code],none,false⟩⟩,⟨256,.ff,false,some ⟨11,[],none,false⟩⟩,⟨256,.cr,false,some ⟨12,[],none,false⟩⟩,⟨256,.cr,true,some ⟨13,[],none,false⟩⟩,⟨256,.other,false,some ⟨0,[.commit,.code],some 2,true⟩⟩,⟨256,.other,false,some ⟨14,[],none,false⟩⟩]⟩,⟨[30],none,[],[⟨256,.other,false,some ⟨8,[.setEnt .internalNl,.cb,.code],none,false⟩⟩,⟨256,.ws,false,some ⟨9,[.setEnt .internalNl,.cb,.code],none,false⟩⟩,⟨256,.lf,false,some ⟨10,[.setEnt .internalNl,.cb],none,false⟩⟩,⟨256,.vt,false,some ⟨8,[.setEnt .internalNl,.cb,.code],none,false⟩⟩,⟨256,.ff,false,some ⟨11,[.setEnt .internalNl,.cb],none,false⟩⟩,⟨256,.cr,false,some ⟨12,[.setEnt .internalNl,.cb],none,false⟩⟩,⟨256,.cr,true,some ⟨13,[.setEnt .internalNl,.cb],none,false⟩⟩,⟨256,.other,false,some ⟨0,[.setEnt .internalNl,.cb,.commit,.code],some 2,true⟩⟩,⟨256,.other,false,some ⟨14,[.setEnt .internalNl,.cb],none,false⟩⟩]⟩,⟨[31],none,[],[⟨256,.other,false,some ⟨8,[.setEnt .internalNl,.cb,.code],none,false⟩⟩,⟨256,.ws,false,some ⟨9,[.setEnt .internalNl,.cb,.code],none,false⟩⟩,⟨256,.lf,false,some ⟨10,[.setEnt .internalNl,.cb],none,false⟩⟩,⟨256,.vt,false,some ⟨8,[.setEnt .internalNl,.cb,.code],none,false⟩⟩,⟨256,.ff,false,some ⟨11,[.setEnt .internalNl,.cb],none,false⟩⟩,⟨256,.cr,false,some ⟨12,[.setEnt .internalNl,.cb],none,false⟩⟩,⟨256,.cr,true,some ⟨13,[.setEnt .internalNl,.cb],none,false⟩⟩,⟨256,.other,false,some ⟨0,[.setEnt .internalNl,.cb,.commit,.code],some 2,true⟩⟩,⟨256,.other,false,some ⟨14,[.setEnt .internalNl,.cb],none,false⟩⟩]⟩,⟨[28],none,[],[⟨256,.other,false,none⟩,⟨256,.ws,false,none⟩,⟨256,.lf,false,some ⟨25,[],none,false⟩⟩,⟨256,.vt,false,none⟩,⟨256,.ff,false,none⟩,⟨256,.cr,false,none⟩,⟨256,.cr,true,none⟩]⟩,⟨[28,32],none,[],[⟨256,.other,false,some ⟨8,[.setEnt .internalNl,.cb,.code],none,false⟩⟩,⟨256,.ws,false,some ⟨9,[.setEnt .internalNl,.cb,.code],none,false⟩⟩,⟨256,.lf,false,some ⟨26,[.setEnt .internalNl,.cb],none,false⟩⟩,⟨256,.vt,false,some ⟨8,[.setEnt .internalNl,.cb,.code],none,false⟩⟩,⟨256,.ff,false,some ⟨11,[.setEnt .internalNl,.cb],none,false⟩⟩,⟨256,.cr,false,some ⟨12,[.setEnt .internalNl,.cb],none,false⟩⟩,⟨256,.cr,true,some ⟨13,[.setEnt .internalNl,.cb],none,false⟩⟩,⟨256,.other,false,some ⟨0,[.setEnt .internalNl,.cb,.commit,.code],some 2,true⟩⟩,⟨256,.other,false,some ⟨14,[.setEnt .internalNl,.cb],none,false⟩⟩]⟩,⟨[35],none,[],[⟨256,.other,false,some ⟨27,[.code],none,false⟩⟩,⟨256,.ws,false,some ⟨27,[.code],none,false⟩⟩,⟨256,.lf,false,none⟩,⟨256,.vt,false,some ⟨27,[.code],none,false⟩⟩,⟨256,.ff,false,none⟩,⟨256,.cr,false,none⟩,⟨256,.cr,true,none⟩]⟩,⟨[4],some 1,[],[⟨256,.other,false,some ⟨15,[],some 1,false⟩⟩,⟨256,.ws,false,some ⟨15,[],some 1,false⟩⟩,⟨256,.lf,false,none⟩,⟨256,.vt,false,some ⟨15,[],some 1,false⟩⟩,⟨256,.ff,false,none⟩,⟨256,.cr,false,none⟩,⟨256,.cr,true,none⟩]⟩,⟨[23],none,[],[⟨256,.other,false,some ⟨16,[.code],none,false⟩⟩,⟨256,.ws,false,some ⟨17,[.code],none,false⟩⟩,⟨256,.lf,false,some ⟨18,[],none,false⟩⟩,⟨256,.vt,false,some ⟨16,[.code],none,false⟩⟩,⟨256,.ff,false,some ⟨19,[],none,false⟩⟩,⟨256,.cr,false,some ⟨20,[],none,false⟩⟩,⟨256,.cr,true,some ⟨21,[],none,false⟩⟩,⟨256,.other,false,some ⟨0,[.commit,.code],some 2,true⟩⟩,⟨256,.other,false,some ⟨22,[],none,false⟩⟩]⟩,⟨[22,23],none,[],[⟨256,.other,false,some ⟨16,[.code],none,false⟩⟩,⟨256,.ws,false,some ⟨17,[.code],none,false⟩⟩,⟨256,.lf,false,some ⟨18,[],none,false⟩⟩,⟨256,.vt,false,some ⟨16,[.code],none,false⟩⟩,⟨256,.ff,false,some ⟨19,[],none,false⟩⟩,⟨256,.cr,false,some ⟨20,[],none,false⟩⟩,⟨256,.cr,true,some ⟨21,[],none,false⟩⟩,⟨256,.other,false,some ⟨0,[.commit,.code],some 2,true⟩⟩,⟨256,.other,false,some ⟨22,[],none,false⟩⟩]⟩,⟨[19],none,[],[⟨256,.other,false,some ⟨16,[.setEnt .internalNl,.cb,.code],none,false⟩⟩,⟨256,.ws,false,some ⟨17,[.setEnt .internalNl,.cb,.code],none,false⟩⟩,⟨256,.lf,false,some ⟨18,[.setEnt .internalNl,.cb],none,false⟩⟩,⟨256,.vt,false,some ⟨16,[.setEnt .internalNl,.cb,.code],none,false⟩⟩,⟨256,.ff,false,some ⟨19,[.setEnt .internalNl,.cb],none,false⟩⟩,⟨256,.cr,false,some ⟨20,[.setEnt .internalNl,.cb],none,false⟩⟩,⟨256,.cr,true,some ⟨21,[.setEnt .internalNl,.cb],none,false⟩⟩,⟨256,.other,false,some ⟨0,[.setEnt .internalNl,.cb,.commit,.code],some 2,true⟩⟩,⟨256,.other,false,some ⟨22,[.setEnt .internalNl,.cb],none,false⟩⟩]⟩,⟨[20],none,[],[⟨256,.other,false,some ⟨16,[.setEnt .internalNl,.cb,.code],none,false⟩⟩,⟨256,.ws,false,some ⟨17,[.setEnt .internalNl,.cb,.code],none,false⟩⟩,⟨256,.lf,false,some ⟨18,[.setEnt .internalNl,.cb],none,false⟩⟩,⟨256,.vt,false,some ⟨16,[.setEnt .internalNl,.cb,.code],none,false⟩⟩,⟨256,.ff,false,some ⟨19,[.setEnt .internalNl,.cb],none,false⟩⟩,⟨256,.cr,false,some ⟨20,[.setEnt .internalNl,.cb],none,false⟩⟩,⟨256,.cr,true,some ⟨21,[.setEnt .internalNl,.cb],none,false⟩⟩,⟨256,.other,false,some ⟨0,[.setEnt .internalNl,.cb,.commit,.code],some 2,true⟩⟩,⟨256,.other,false,some ⟨22,[.setEnt .internalNl,.cb],none,false⟩⟩]⟩,⟨[17],none,[],[⟨256,.other,false,none⟩,⟨256,.ws,false,none⟩,⟨256,.lf,false,some ⟨28,[],none,false⟩⟩,⟨256,.vt,false,none⟩,⟨256,.ff,false,none⟩,⟨256,.cr,false,none⟩,⟨256,.cr,true,none⟩]⟩,⟨[17,21],none,[],[⟨256,.other,false,some ⟨16,[.setEnt .internalNl,.cb,.code],none,false⟩⟩,⟨256,.ws,false,some ⟨17,[.setEnt .internalNl,.cb,.code],none,false⟩⟩,⟨256,.lf,false,some ⟨29,[.setEnt .internalNl,.cb],none,false⟩⟩,⟨256,.vt,false,some ⟨16,[.setEnt .internalNl,.cb,.code],none,false⟩⟩,⟨256,.ff,false,some ⟨19,[.setEnt .internalNl,.cb],none,false⟩⟩,⟨256,.cr,false,some ⟨20,[.setEnt .internalNl,.cb],none,false⟩⟩,⟨256,.cr,true,some ⟨21,[.setEnt .internalNl,.cb],none,false⟩⟩,⟨256,.other,false,some ⟨0,[.setEnt .internalNl,.cb,.commit,.code],some 2,true⟩⟩,⟨256,.other,false,some ⟨22,[.setEnt .internalNl,.cb],none,false⟩⟩]⟩,⟨[24],none,[],[⟨256,.other,false,some ⟨30,[.code],none,false⟩⟩,⟨256,.ws,false,some ⟨30,[.code],none,false⟩⟩,⟨256,.lf,false,none⟩,⟨256,.vt,false,some ⟨30,[.code],none,false⟩⟩,⟨256,.ff,false,none⟩,⟨256,.cr,false,none⟩,⟨256,.cr,true,none⟩]⟩,⟨[6],none,[],[⟨256,.other,false,some ⟨31,[.comment],none,false⟩⟩,⟨256,.ws,false,some ⟨32,[],none,false⟩⟩,⟨256,.lf,false,some ⟨33,[],none,false⟩⟩,⟨256,.vt,false,some ⟨31,[.comment],none,false⟩⟩,⟨256,.ff,false,some ⟨34,[],none,false⟩⟩,⟨256,.cr,false,some ⟨35,[],none,false⟩⟩,⟨256,.cr,true,some ⟨36,[],none,false⟩⟩,⟨256,.other,false,some ⟨37,[.comment],none,false⟩⟩]⟩,⟨[2],some 1,[],[⟨256,.other,false,some ⟨15,[],some 1,false⟩⟩,⟨256,.ws,false,some ⟨15,[],some 1,false⟩⟩,⟨256,.lf,false,none⟩,⟨256,.vt,false,some ⟨15,[],some 1,false⟩⟩,⟨256,.ff,false,none⟩,⟨256,.cr,false,none⟩,⟨256,.cr,true,none⟩]⟩,⟨[29],none,[],[⟨256,.other,false,some ⟨8,[.setEnt .internalNl,.cb,.code],none,false⟩⟩,⟨256,.ws,false,some ⟨9,[.setEnt .internalNl,.cb,.code],none,false⟩⟩,⟨256,.lf,false,some ⟨10,[.setEnt .internalNl,.cb],none,false⟩⟩,⟨256,.vt,false,some ⟨8,[.setEnt .internalNl,.cb,.code],none,false⟩⟩,⟨256,.ff,false,some ⟨11,[.setEnt .internalNl,.cb],none,false⟩⟩,⟨256,.cr,false,some ⟨12,[.setEnt .internalNl,.cb],none,false⟩⟩,⟨256,.cr,true,some ⟨13,[.setEnt .internalNl,.cb],none,false⟩⟩,⟨256,.other,false,some ⟨0,[.setEnt .internalNl,.cb,.commit,.code],some 2,true⟩⟩,⟨256,.other,false,some ⟨14,[.setEnt .internalNl,.cb],none,false⟩⟩]⟩,⟨[29,30],none,[],[⟨256,.other,false,some ⟨8,[.setEnt .internalNl,.cb,.code],none,false⟩⟩,⟨256,.ws,false,some ⟨9,[.setEnt .internalNl,.cb,.code],none,false⟩⟩,⟨256,.lf,false,some ⟨10,[.setEnt .internalNl,.cb],none,false⟩⟩,⟨256,.vt,false,some ⟨8,[.setEnt .internalNl,.cb,.code],none,false⟩⟩,⟨256,.ff,false,some ⟨11,[.setEnt .internalNl,.cb],none,false⟩⟩,⟨256,.cr,false,some ⟨12,[.setEnt .internalNl,.cb],none,false⟩⟩,⟨256,.cr,true,some ⟨13,[.setEnt .internalNl,.cb],none,false⟩⟩,⟨256,.other,false,some ⟨0,[.setEnt .internalNl,.cb,.commit,.code],some 2,true⟩⟩,⟨256,.other,false,some ⟨14,[.setEnt .internalNl,.cb],none,false⟩⟩]⟩,⟨[36],none,[],[⟨256,.other,false,some ⟨8,[.code],none,false⟩⟩,⟨256,.ws,false,some ⟨9,[.code],none,false⟩⟩,⟨256,.lf,false,some ⟨10,[],none,false⟩⟩,⟨256,.vt,false,some ⟨8,[.code],none,false⟩⟩,⟨256,.ff,false,some ⟨11,[],none,false⟩⟩,⟨256,.cr,false,some ⟨12,[],none,false⟩⟩,⟨256,.cr,true,some ⟨13,[],none,false⟩⟩,⟨256,.other,false,some ⟨0,[.commit,.code],some 2,true⟩⟩,⟨256,.other,false,some ⟨14,[],none,false⟩⟩]⟩,⟨[18],none,[],[⟨256,.other,false,some ⟨16,[.setEnt .internalNl,.cb,.code],none,false⟩⟩,⟨256,.ws,false,some ⟨17,[.setEnt .internalNl,.cb,.code],none,false⟩⟩,⟨256,.lf,false,some ⟨18,[.setEnt .internalNl,.cb],none,false⟩⟩,⟨256,.vt,false,some ⟨16,[.setEnt .internalNl,.cb,.code],none,false⟩⟩,⟨256,.ff,false,some ⟨19,[.setEnt .internalNl,.cb],none,false⟩⟩,⟨256,.cr,false,some ⟨20,[.setEnt .internalNl,.cb],none,false⟩⟩,⟨256,.cr,true,some ⟨21,[.setEnt .internalNl,.cb],none,false⟩⟩,⟨256,.other,false,some ⟨0,[.setEnt .internalNl,.cb,.commit,.code],some 2,true⟩⟩,⟨256,.other,false,some ⟨22,[.setEnt .internalNl,.cb],none,false⟩⟩]⟩,⟨[18,19],none,[],[⟨256,.other,false,some ⟨16,[.setEnt .internalNl,.cb,.code],none,false⟩⟩,⟨256,.ws,false,some ⟨17,[.setEnt .internalNl,.cb,.code],none,false⟩⟩,⟨256,.lf,false,some ⟨18,[.setEnt .internalNl,.cb],none,false⟩⟩,⟨256,.vt,false,some ⟨16,[.setEnt .internalNl,.cb,.code],none,false⟩⟩,⟨256,.ff,false,some ⟨19,[.setEnt .internalNl,.cb],none,false⟩⟩,⟨256,.cr,false,some ⟨20,[.setEnt .internalNl,.cb],none,false⟩⟩,⟨256,.cr,true,some ⟨21,[.setEnt .internalNl,.cb],none,false⟩⟩,⟨256,.other,false,some ⟨0,[.setEnt .internalNl,.cb,.commit,.code],some 2,true⟩⟩,⟨256,.other,false,some ⟨22,[.setEnt .internalNl,.cb],none,false⟩⟩]⟩,⟨[25],none,[],[⟨256,.other,false,some ⟨16,[.code],none,false⟩⟩,⟨256,.ws,false,some ⟨17,[.code],none,false⟩⟩,⟨256,.lf,false,some ⟨18,[],none,false⟩⟩,⟨256,.vt,false,some ⟨16,[.code],none,false⟩⟩,⟨256,.ff,false,some ⟨19,[],none,false⟩⟩,⟨256,.cr,false,some ⟨20,[],none,false⟩⟩,⟨256,.cr,true,some ⟨21,[],none,false⟩⟩,⟨256,.other,false,some ⟨0,[.commit,.code],some 2,true⟩⟩,⟨256,.other,false,some ⟨22,[],none,false⟩⟩]⟩,⟨[13],none,[],[⟨256,.other,false,some ⟨31,[.comment],none,false⟩⟩,⟨256,.ws,false,some ⟨32,[],none,false⟩⟩,⟨256,.lf,false,some ⟨33,[],none,false⟩⟩,⟨256,.vt,false,some ⟨31,[.comment],none,false⟩⟩,⟨256,.ff,false,some ⟨34,[],none,false⟩⟩,⟨256,.cr,false,some ⟨35,[],none,false⟩⟩,⟨256,.cr,true,some ⟨36,[],none,false⟩⟩,⟨256,.other,false,some ⟨37,[.comment],none,false⟩⟩]⟩,⟨[12],none,[],[⟨256,.other,false,some ⟨31,[.comment],none,false⟩⟩,⟨256,.ws,false,some ⟨32,[],none,false⟩⟩,⟨256,.lf,false,some ⟨33,[],none,false⟩⟩,⟨256,.vt,false,some ⟨31,[.comment],none,false⟩⟩,⟨256,.ff,false,some ⟨34,[],none,false⟩⟩,⟨256,.cr,false,some ⟨35,[],none,false⟩⟩,⟨256,.cr,true,some ⟨36,[],none,false⟩⟩,⟨256,.other,false,some ⟨37,[.comment],none,false⟩⟩]⟩,⟨[9],none,[],[⟨256,.other,false,some ⟨31,[.setEnt .internalNl,.cb,.comment],none,false⟩⟩,⟨256,.ws,false,some ⟨32,[.setEnt .internalNl,.cb],none,false⟩⟩,⟨256,.lf,false,some ⟨33,[.setEnt .internalNl,.cb],none,false⟩⟩,⟨256,.vt,false,some ⟨31,[.setEnt .internalNl,.cb,.comment],none,false⟩⟩,⟨256,.ff,false,some ⟨34,[.setEnt .internalNl,.cb],none,false⟩⟩,⟨256,.cr,false,some ⟨35,[.setEnt .internalNl,.cb],none,false⟩⟩,⟨256,.cr,true,some ⟨36,[.setEnt .internalNl,.cb],none,false⟩⟩,⟨256,.other,false,some ⟨37,[.setEnt .internalNl,.cb,.comment],none,false⟩⟩]⟩,⟨[10],none,[],[⟨256,.other,false,some ⟨31,[.setEnt .internalNl,.cb,.comment],none,false⟩⟩,⟨256,.ws,false,some ⟨32,[.setEnt .internalNl,.cb],none,false⟩⟩,⟨256,.lf,false,some ⟨33,[.setEnt .internalNl,.cb],none,false⟩⟩,⟨256,.vt,false,some ⟨31,[.setEnt .internalNl,.cb,.comment],none,false⟩⟩,⟨256,.ff,false,some ⟨34,[.setEnt .internalNl,.cb],none,false⟩⟩,⟨256,.cr,false,some ⟨35,[.setEnt .internalNl,.cb],none,false⟩⟩,⟨256,.cr,true,some ⟨36,[.setEnt .internalNl,.cb],none,false⟩⟩,⟨256,.other,false,some ⟨37,[.setEnt .internalNl,.cb,.comment],none,false⟩⟩]⟩,⟨[7],none,[],[⟨256,.other,false,none⟩,⟨256,.ws,false,none⟩,⟨256,.lf,false,some ⟨38,[],none,false⟩⟩,⟨256,.vt,false,none⟩,⟨256,.ff,false,none⟩,⟨256,.cr,false,none⟩,⟨256,.cr,true,none⟩]⟩,⟨[7,11],none,[],[⟨256,.other,false,some ⟨31,[.setEnt .internalNl,.cb,.comment],none,false⟩⟩,⟨256,.ws,false,some ⟨32,[.setEnt .internalNl,.cb],none,false⟩⟩,⟨256,.lf,false,some ⟨39,[.setEnt .internalNl,.cb],none,false⟩⟩,⟨256,.vt,false,some ⟨31,[.setEnt .internalNl,.cb,.comment],none,false⟩⟩,⟨256,.ff,false,some ⟨34,[.setEnt .internalNl,.cb],none,false⟩⟩,⟨256,.cr,false,some ⟨35,[.setEnt .internalNl,.cb],none,false⟩⟩,⟨256,.cr,true,some ⟨36,[.setEnt .internalNl,.cb],none,false⟩⟩,⟨256,.other,false,some ⟨37,[.setEnt .internalNl,.cb,.comment],none,false⟩⟩]⟩,⟨[13,14],none,[],[⟨256,.other,false,some ⟨31,[.comment],none,false⟩⟩,⟨256,.ws,false,some ⟨32,[],none,false⟩⟩,⟨256,.lf,false,some ⟨33,[],none,false⟩⟩,⟨256,.vt,false,some ⟨31,[.comment],none,false⟩⟩,⟨256,.ff,false,some ⟨34,[],none,false⟩⟩,⟨256,.cr,false,some ⟨35,[],none,false⟩⟩,⟨256,.cr,true,some ⟨36,[],none,false⟩⟩,⟨256,.other,false,some ⟨37,[.comment],none,false⟩⟩,⟨256,.other,false,some ⟨0,[],some 1,true⟩⟩]⟩,⟨[8],none,[],[⟨256,.other,false,some ⟨31,[.setEnt .internalNl,.cb,.comment],none,false⟩⟩,⟨256,.ws,false,some ⟨32,[.setEnt .internalNl,.cb],none,false⟩⟩,⟨256,.lf,false,some ⟨33,[.setEnt .internalNl,.cb],none,false⟩⟩,⟨256,.vt,false,some ⟨31,[.setEnt .internalNl,.cb,.comment],none,false⟩⟩,⟨256,.ff,false,some ⟨34,[.setEnt .internalNl,.cb],none,false⟩⟩,⟨256,.cr,false,some ⟨35,[.setEnt .internalNl,.cb],none,false⟩⟩,⟨256,.cr,true,some ⟨36,[.setEnt .internalNl,.cb],none,false⟩⟩,⟨256,.other,false,some ⟨37,[.setEnt .internalNl,.cb,.comment],none,false⟩⟩]⟩,⟨[8,9],none,[],[⟨256,.other,false,some ⟨31,[.setEnt .internalNl,.cb,.comment],none,false⟩⟩,⟨256,.ws,false,some ⟨32,[.setEnt .internalNl,.cb],none,false⟩⟩,⟨256,.lf,false,some ⟨33,[.setEnt .internalNl,.cb],none,false⟩⟩,⟨256,.vt,false,some ⟨31,[.setEnt .internalNl,.cb,.comment],none,false⟩⟩,⟨256,.ff,false,some ⟨34,[.setEnt .internalNl,.cb],none,false⟩⟩,⟨256,.cr,false,some ⟨35,[.setEnt .internalNl,.cb],none,false⟩⟩,⟨256,.cr,true,some ⟨36,[.setEnt .internalNl,.cb],none,false⟩⟩,⟨256,.other,false,some ⟨37,[.setEnt .internalNl,.cb,.comment],none,false⟩⟩]⟩]
theorem php_line_rowsOk : rowsOk php_line_nfa [] (php_line_cs.map (·.1)) php_line_rows = true := by decide +kernel
def php_line_D : Dfa php_line_M.nfa := ⟨php_line_masks, [], php_line_cs, php_line_rows, php_line_masksIn, php_line_repOk, php_line_rowsOk⟩

def smalltalk_line_nfa : Nfa := ⟨[⟨0,4294967808,[],[(0,.setEnt (.own 0))],0,0⟩,⟨1,17179869184,[],[(1,.comment)],0,0⟩,⟨10,549755813888,[],[(5,.code)],0,0⟩,⟨13,8192,[],[(6,.setEnt .newline)],0,0⟩,⟨15,1024,[],[(6,.setEnt .newline)],0,0⟩,⟨16,4096,[],[(6,.setEnt .newline)],0,0⟩,⟨17,8192,[.crAlone],[(6,.setEnt .newline)],0,0⟩,⟨18,115792089237316195423570985008687907853269984665640564039457584007908834656767,[],[(7,.setEnt (.own 3))],0,0⟩],[[⟨0,4294967808,[],[(0,.setEnt (.own 0))],0,0⟩],[⟨2,8192,[],[],0,0⟩,⟨4,1024,[],[],0,0⟩,⟨5,4096,[],[],0,0⟩,⟨6,8192,[.crAlone],[],0,0⟩,⟨7,4294967808,[],[],0,0⟩,⟨8,115792089237316195423570985008687907853269984665640564039457584007891654789631,[],[(4,.comment)],0,0⟩,⟨9,17179869184,[],[],0,0⟩],[⟨3,1024,[],[],0,0⟩],[⟨2,8192,[],[(2,.setEnt .internalNl),(3,.cb)],0,0⟩,⟨4,1024,[],[(2,.setEnt .internalNl),(3,.cb)],0,0⟩,⟨5,4096,[],[(2,.setEnt .internalNl),(3,.cb)],0,0⟩,⟨6,8192,[.crAlone],[(2,.setEnt .internalNl),(3,.cb)],0,0⟩,⟨7,4294967808,[],[(2,.setEnt .internalNl),(3,.cb)],0,0⟩,⟨8,115792089237316195423570985008687907853269984665640564039457584007891654789631,[],[(2,.setEnt .internalNl),(3,.cb),(4,.comment)],0,0⟩,⟨9,17179869184,[],[(2,.setEnt .internalNl),(3,.cb)],0,0⟩],[⟨2,8192,[],[(2,.setEnt .internalNl),(3,.cb)],0,0⟩,⟨4,1024,[],[(2,.setEnt .internalNl),(3,.cb)],0,0⟩,⟨5,4096,[],[(2,.setEnt .internalNl),(3,.cb)],0,0⟩,⟨6,8192,[.crAlone],[(2,.setEnt .internalNl),(3,.cb)],0,0⟩,⟨7,4294967808,[],[(2,.setEnt .internalNl),(3,.cb)],0,0⟩,⟨8,115792089237316195423570985008687907853269984665640564039457584007891654789631,[],[(2,.setEnt .internalNl),(3,.cb),(4,.comment)],0,0⟩,⟨9,17179869184,[],[(2,.setEnt .internalNl),(3,.cb)],0,0⟩],[⟨2,8192,[],[(2,.setEnt .internalNl),(3,.cb)],0,0⟩,⟨4,1024,[],[(2,.setEnt .internalNl),(3,.cb)],0,0⟩,⟨5,4096,[],[(2,.setEnt .internalNl),(3,.cb)],0,0⟩,⟨6,8192,[.crAlone],[(2,.setEnt .internalNl),(3,.cb)],0,0⟩,⟨7,4294967808,[],[(2,.setEnt .internalNl),(3,.cb)],0,0⟩,⟨8,115792089237316195423570985008687907853269984665640564039457584007891654789631,[],[(2,.setEnt .internalNl),(3,.cb),(4,.comment)],0,0⟩,⟨9,17179869184,[],[(2,.setEnt .internalNl),(3,.cb)],0,0⟩],[⟨2,8192,[],[(2,.setEnt .internalNl),(3,.cb)],0,0⟩,⟨4,1024,[],[(2,.setEnt .internalNl),(3,.cb)],0,0⟩,⟨5,4096,[],[(2,.setEnt .internalNl),(3,.cb)],0,0⟩,⟨6,8192,[.crAlone],[(2,.setEnt .internalNl),(3,.cb)],0,0⟩,⟨7,4294967808,[],[(2,.setEnt .internalNl),(3,.cb)],0,0⟩,⟨8,115792089237316195423570985008687907853269984665640564039457584007891654789631,[],[(2,.setEnt .internalNl),(3,.cb),(4,.comment)],0,0⟩,⟨9,17179869184,[],[(2,.setEnt .internalNl),(3,.cb)],0,0⟩],[⟨2,8192,[],[],0,0⟩,⟨4,1024,[],[],0,0⟩,⟨5,4096,[],[],0,0⟩,⟨6,8192,[.crAlone],[],0,0⟩,⟨7,4294967808,[],[],0,0⟩,⟨8,115792089237316195423570985008687907853269984665640564039457584007891654789631,[],[(4,.comment)],0,0⟩,⟨9,17179869184,[],[],0,0⟩],[⟨2,8192,[],[],0,0⟩,⟨4,1024,[],[],0,0⟩,⟨5,4096,[],[],0,0⟩,⟨6,8192,[.crAlone],[],0,0⟩,⟨7,4294967808,[],[],0,0⟩,⟨8,115792089237316195423570985008687907853269984665640564039457584007891654789631,[],[(4,.comment)],0,0⟩,⟨9,17179869184,[],[],0,0⟩],[],[⟨11,115792089237316195423570985008687907853269984665640564039457584007363373812735,[],[],0,0⟩,⟨12,549755813888,[],[],0,0⟩],[⟨11,115792089237316195423570985008687907853269984665640564039457584007363373812735,[],[],0,0⟩,⟨12,549755813888,[],[],0,0⟩],[],[⟨14,1024,[],[(6,.setEnt .newline)],0,0⟩],[],[],[],[],[]],[some (0,[]),none,none,none,none,none,none,none,none,some (1,[]),none,none,some (2,[]),none,some (3,[]),some (3,[]),some (3,[]),some (3,[]),some (4,[])],[1,5,6,7,8]⟩
theorem smalltalk_line_nfa_eq : Smalltalk.smalltalk_line.nfa = smalltalk_line_nfa := by decide +kernel
/-- The machine of `Smalltalk.smalltalk_line`, with its automaton as a literal. -/
def smalltalk_line_M : Machine := ⟨smalltalk_line_nfa, Smalltalk.smalltalk_line.ends, Smalltalk.smalltalk_line.sw⟩
theorem smalltalk_line_M_eq : Smalltalk.smalltalk_line.machine = smalltalk_line_M := by
  unfold Scanner.machine smalltalk_line_M; rw [smalltalk_line_nfa_eq]
def smalltalk_line_masks : List Nat := [4294967808,17179869184,549755813888,8192,1024,4096,115792089237316195423570985008687907853269984665640564039457584007908834656767,115792089237316195423570985008687907853269984665640564039457584007891654789631,115792089237316195423570985008687907853269984665640564039457584007363373812735]
def smalltalk_line_cs : List (Nat × Nat) := [(0,115792089237316195423570985008687907853269984665640564039457584007341898973695),(9,4294967808),(10,1024),(11,2048),(12,4096),(13,8192),(34,17179869184),(39,549755813888)]
theorem smalltalk_line_masksIn : masksIn smalltalk_line_nfa smalltalk_line_masks = true := by decide +kernel
theorem smalltalk_line_repOk : repOk smalltalk_line_masks smalltalk_line_cs = true := by decide +kernel
def smalltalk_line_rows : List Row := [⟨[],none,[],[⟨256,.other,false,some ⟨0,[.setEnt (.own 3)],some 4,true⟩⟩,⟨256,.ws,false,some ⟨1,[.setEnt (.own 0)],some 0,false⟩⟩,⟨256,.lf,false,some ⟨0,[.setEnt .newline],some 3,true⟩⟩,⟨256,.vt,false,none⟩,⟨256,.ff,false,some ⟨0,[.setEnt .newline],some 3,true⟩⟩,⟨256,.cr,false,some ⟨2,[.setEnt .newline],none,false⟩⟩,⟨256,.cr,true,some ⟨3,[.setEnt .newline],some 3,false⟩⟩,⟨256,.other,false,some ⟨4,[.comment,.setEnt (.own 3)],some 4,false⟩⟩,⟨256,.other,false,some ⟨5,[.code,.setEnt (.own 3)],some 4,false⟩⟩]⟩,⟨[0],some 0,[],[⟨256,.other,false,none⟩,⟨256,.ws,false,some ⟨1,[.setEnt (.own 0)],some 0,false⟩⟩,⟨256,.lf,false,none⟩,⟨256,.vt,false,none⟩,⟨256,.ff,false,none⟩,⟨256,.cr,false,none⟩,⟨256,.cr,true,none⟩]⟩,⟨[13],none,[],[⟨256,.other,false,none⟩,⟨256,.ws,false,none⟩,⟨256,.lf,false,some ⟨0,[.setEnt .newline],some 3,true⟩⟩,⟨256,.vt,false,none⟩,⟨256,.ff,false,none⟩,⟨256,.cr,false,none⟩,⟨256,.cr,true,none⟩]⟩,⟨[13,17],some 3,[],[⟨256,.other,false,none⟩,⟨256,.ws,false,none⟩,⟨256,.lf,false,some ⟨0,[.setEnt .newline],some 3,true⟩⟩,⟨256,.vt,false,none⟩,⟨256,.ff,false,none⟩,⟨256,.cr,false,none⟩,⟨256,.cr,true,none⟩]⟩,⟨[1,18],some 4,[],[⟨256,.other,false,some ⟨6,[.comment],none,false⟩⟩,⟨256,.ws,false,some ⟨7,[],none,false⟩⟩,⟨256,.lf,false,some ⟨8,[],none,false⟩⟩,⟨256,.vt,false,some ⟨6,[.comment],none,false⟩⟩,⟨256,.ff,false,some ⟨9,[],none,false⟩⟩,⟨256,.cr,false,some ⟨10,[],none,false⟩⟩,⟨256,.cr,true,some ⟨11,[],none,false⟩⟩,⟨256,.other,false,some ⟨0,[],some 1,true⟩⟩]⟩,⟨[10,18],some 4,[],[⟨256,.other,false,some ⟨12,[],none,false⟩⟩,⟨256,.ws,false,some ⟨12,[],none,false⟩⟩,⟨256,.lf,false,none⟩,⟨256,.vt,false,some ⟨12,[],none,false⟩⟩,⟨256,.ff,false,none⟩,⟨256,.cr,false,none⟩,⟨256,.cr,true,none⟩,⟨256,.other,false,some ⟨0,[],some 2,true⟩⟩]⟩,⟨[8],none,[],[⟨256,.other,false,some ⟨6,[.comment],none,false⟩⟩,⟨256,.ws,false,some ⟨7,[],none,false⟩⟩,⟨256,.lf,false,some ⟨8,[],none,false⟩⟩,⟨256,.vt,false,some ⟨6,[.comment],none,false⟩⟩,⟨256,.ff,false,some ⟨9,[],none,false⟩⟩,⟨256,.cr,false,some ⟨10,[],none,false⟩⟩,⟨256,.cr,true,some ⟨11,[],none,false⟩⟩,⟨256,.other,false,some ⟨0,[],some 1,true⟩⟩]⟩,⟨[7],none,[],[⟨256,.other,false,some ⟨6,[.comment],none,false⟩⟩,⟨256,.ws,false,some ⟨7,[],none,false⟩⟩,⟨256,.lf,false,some ⟨8,[],none,false⟩⟩,⟨256,.vt,false,some ⟨6,[.comment],none,false⟩⟩,⟨256,.ff,false,some ⟨9,[],none,false⟩⟩,⟨256,.cr,false,some ⟨10,[],none,false⟩⟩,⟨256,.cr,true,some ⟨11,[],none,false⟩⟩,⟨256,.other,false,some ⟨0,[],some 1,true⟩⟩]⟩,⟨[4],none,[],[⟨256,.other,false,some ⟨6,[.setEnt .internalNl,.cb,.comment],none,false⟩⟩,⟨256,.ws,false,some ⟨7,[.setEnt .internalNl,.cb],none,false⟩⟩,⟨256,.lf,false,some ⟨8,[.setEnt .internalNl,.cb],none,false⟩⟩,⟨256,.vt,false,some ⟨6,[.setEnt .internalNl,.cb,.comment],none,false⟩⟩,⟨256,.ff,false,some ⟨9,[.setEnt .internalNl,.cb],none,false⟩⟩,⟨256,.cr,false,some ⟨10,[.setEnt .internalNl,.cb],none,false⟩⟩,⟨256,.cr,true,some ⟨11,[.setEnt .internalNl,.cb],none,false⟩⟩,⟨256,.other,false,some ⟨0,[.setEnt .internalNl,.cb],some 1,true⟩⟩]⟩,⟨[5],none,[],[⟨256,.other,false,some ⟨6,[.setEnt .internalNl,.cb,.comment],none,false⟩⟩,⟨256,.ws,false,some ⟨7,[.setEnt .internalNl,.cb],none,false⟩⟩,⟨256,.lf,false,some ⟨8,[.setEnt .internalNl,.cb],none,false⟩⟩,⟨256,.vt,false,some ⟨6,[.setEnt .internalNl,.cb,.comment],none,false⟩⟩,⟨256,.ff,false,some ⟨9,[.setEnt .internalNl,.cb],none,false⟩⟩,⟨256,.cr,false,some ⟨10,[.setEnt .internalNl,.cb],none,false⟩⟩,⟨256,.cr,true,some ⟨11,[.setEnt .internalNl,.cb],none,false⟩⟩,⟨256,.other,false,some ⟨0,[.setEnt .internalNl,.cb],some 1,true⟩⟩]⟩,⟨[2],none,[],[⟨256,.other,false,none⟩,⟨256,.ws,false,none⟩,⟨256,.lf,false,some ⟨13,[],none,false⟩⟩,⟨256,.vt,false,none⟩,⟨256,.ff,false,none⟩,⟨256,.cr,false,none⟩,⟨256,.cr,true,none⟩]⟩,⟨[2,6],none,[],[⟨256,.other,false,some ⟨6,[.setEnt .internalNl,.cb,.comment],none,false⟩⟩,⟨256,.ws,false,some ⟨7,[.setEnt .internalNl,.cb],none,false⟩⟩,⟨256,.lf,false,some ⟨14,[.setEnt .internalNl,.cb],none,false⟩⟩,⟨256,.vt,false,some ⟨6,[.setEnt .internalNl,.cb,.comment],none,false⟩⟩,⟨256,.ff,false,some ⟨9,[.setEnt .internalNl,.cb],none,false⟩⟩,⟨256,.cr,false,some ⟨10,[.setEnt .internalNl,.cb],none,false⟩⟩,⟨256,.cr,true,some ⟨11,[.setEnt .internalNl,.cb],none,false⟩⟩,⟨256,.other,false,some ⟨0,[.setEnt .internalNl,.cb],some 1,true⟩⟩]⟩,⟨[11],none,[],[⟨256,.other,false,some ⟨12,[],none,false⟩⟩,⟨256,.ws,false,some ⟨12,[],none,false⟩⟩,⟨256,.lf,false,none⟩,⟨256,.vt,false,some ⟨12,[],none,false⟩⟩,⟨256,.ff,false,none⟩,⟨256,.cr,false,none⟩,⟨256,.cr,true,none⟩,⟨256,.other,false,some ⟨0,[],some 2,true⟩⟩]⟩,⟨[3],none,[],[⟨256,.other,false,some ⟨6,[.setEnt .internalNl,.cb,.comment],none,false⟩⟩,⟨256,.ws,false,some ⟨7,[.setEnt .internalNl,.cb],none,false⟩⟩,⟨256,.lf,false,some ⟨8,[.setEnt .internalNl,.cb],none,false⟩⟩,⟨256,.vt,false,some ⟨6,[.setEnt .internalNl,.cb,.comment],none,false⟩⟩,⟨256,.ff,false,some ⟨9,[.setEnt .internalNl,.cb],none,false⟩⟩,⟨256,.cr,false,some ⟨10,[.setEnt .internalNl,.cb],none,false⟩⟩,⟨256,.cr,true,some ⟨11,[.setEnt .internalNl,.cb],none,false⟩⟩,⟨256,.other,false,some ⟨0,[.setEnt .internalNl,.cb],some 1,true⟩⟩]⟩,⟨[3,4],none,[],[⟨256,.other,false,some ⟨6,[.setEnt .internalNl,.cb,.comment],none,false⟩⟩,⟨256,.ws,false,some ⟨7,[.setEnt .internalNl,.cb],none,false⟩⟩,⟨256,.lf,false,some ⟨8,[.setEnt .internalNl,.cb],none,false⟩⟩,⟨256,.vt,false,some ⟨6,[.setEnt .internalNl,.cb,.comment],none,false⟩⟩,⟨256,.ff,false,some ⟨9,[.setEnt .internalNl,.cb],none,false⟩⟩,⟨256,.cr,false,some ⟨10,[.setEnt .internalNl,.cb],none,false⟩⟩,⟨256,.cr,true,some ⟨11,[.setEnt .internalNl,.cb],none,false⟩⟩,⟨256,.other,false,some ⟨0,[.setEnt .internalNl,.cb],some 1,true⟩⟩]⟩]
theorem smalltalk_line_rowsOk : rowsOk smalltalk_line_nfa [] (smalltalk_line_cs.map (·.1)) smalltalk_line_rows = true := by decide +kernel
def smalltalk_line_D : Dfa smalltalk_line_M.nfa := ⟨smalltalk_line_masks, [], smalltalk_line_cs, smalltalk_line_rows, smalltalk_line_masksIn, smalltalk_line_repOk, smalltalk_line_rowsOk⟩

def vhdl_line_nfa : Nfa := ⟨[⟨0,4294967808,[],[(0,.setEnt (.own 0))],0,0⟩,⟨1,35184372088832,[],[],0,0⟩,⟨4,549755813888,[],[(2,.code)],0,0⟩,⟨7,17179869184,[],[(3,.code)],0,0⟩,⟨10,8192,[],[(4,.setEnt .newline)],0,0⟩,⟨12,1024,[],[(4,.setEnt .newline)],0,0⟩,⟨13,4096,[],[(4,.setEnt .newline)],0,0⟩,⟨14,8192,[.crAlone],[(4,.setEnt .newline)],0,0⟩,⟨15,115792089237316195423570985008687907853269984665640564039457584007908834656767,[],[(5,.setEnt (.own 3))],0,0⟩],[[⟨0,4294967808,[],[(0,.setEnt (.own 0))],0,0⟩],[⟨2,35184372088832,[],[(1,.comment)],0,0⟩],[⟨3,115792089237316195423570985008687907853269984665640564039457584007913129626623,[],[],0,0⟩],[⟨3,115792089237316195423570985008687907853269984665640564039457584007913129626623,[],[],0,0⟩],[⟨5,115792089237316195423570985008687907853269984665640564039457584007363373812735,[],[],0,0⟩],[⟨6,549755813888,[],[],0,0⟩],[],[⟨8,115792089237316195423570985008687907853269984665640564039457584007895949757439,[],[],0,0⟩,⟨9,17179869184,[],[],0,0⟩],[⟨8,115792089237316195423570985008687907853269984665640564039457584007895949757439,[],[],0,0⟩,⟨9,17179869184,[],[],0,0⟩],[],[⟨11,1024,[],[(4,.setEnt .newline)],0,0⟩],[],[],[],[],[]],[some (0,[]),none,some (1,[]),some (1,[]),none,none,some (2,[]),none,none,some (2,[]),none,some (3,[]),some (3,[]),some (3,[]),some (3,[]),some (4,[])],[1,2,4,5,6]⟩
theorem vhdl_line_nfa_eq : Vhdl.vhdl_line.nfa = vhdl_line_nfa := by decide +kernel
/-- The machine of `Vhdl.vhdl_line`, with its automaton as a literal. -/
def vhdl_line_M : Machine := ⟨vhdl_line_nfa, Vhdl.vhdl_line.ends, Vhdl.vhdl_line.sw⟩
theorem vhdl_line_M_eq : Vhdl.vhdl_line.machine = vhdl_line_M := by
  unfold Scanner.machine vhdl_line_M; rw [vhdl_line_nfa_eq]
def vhdl_line_masks : List Nat := [4294967808,35184372088832,549755813888,17179869184,8192,1024,4096,115792089237316195423570985008687907853269984665640564039457584007908834656767,115792089237316195423570985008687907853269984665640564039457584007913129626623,115792089237316195423570985008687907853269984665640564039457584007363373812735,115792089237316195423570985008687907853269984665640564039457584007895949757439]
def vhdl_line_cs : List (Nat × Nat) := [(0,115792089237316195423570985008687907853269984665640564039457583972157526884863),(9,4294967808),(10,1024),(11,2048),(12,4096),(13,8192),(34,17179869184),(39,549755813888),(45,35184372088832)]
theorem vhdl_line_masksIn : masksIn vhdl_line_nfa vhdl_line_masks = true := by decide +kernel
theorem vhdl_line_repOk : repOk vhdl_line_masks vhdl_line_cs = true := by decide +kernel
def vhdl_line_rows : List Row := [⟨[],none,[],[⟨256,.other,false,some ⟨0,[.setEnt (.own 3)],some 4,true⟩⟩,⟨256,.ws,false,some ⟨1,[.setEnt (.own 0)],some 0,false⟩⟩,⟨256,.lf,false,some ⟨0,[.setEnt .newline],some 3,true⟩⟩,⟨256,.vt,false,none⟩,⟨256,.ff,false,some ⟨0,[.setEnt .newline],some 3,true⟩⟩,⟨256,.cr,false,some ⟨2,[.setEnt .newline],none,false⟩⟩,⟨256,.cr,true,some ⟨3,[.setEnt .newline],some 3,false⟩⟩,⟨256,.other,false,some ⟨4,[.code,.setEnt (.own 3)],some 4,false⟩⟩,⟨256,.other,false,some ⟨5,[.code,.setEnt (.own 3)],some 4,false⟩⟩,⟨256,.other,false,some ⟨6,[.setEnt (.own 3)],some 4,false⟩⟩]⟩,⟨[0],some 0,[],[⟨256,.other,false,none⟩,⟨256,.ws,false,some ⟨1,[.setEnt (.own 0)],some 0,false⟩⟩,⟨256,.lf,false,none⟩,⟨256,.vt,false,none⟩,⟨256,.ff,false,none⟩,⟨256,.cr,false,none⟩,⟨256,.cr,true,none⟩]⟩,⟨[10],none,[],[⟨256,.other,false,none⟩,⟨256,.ws,false,none⟩,⟨256,.lf,false,some ⟨0,[.setEnt .newline],some 3,true⟩⟩,⟨256,.vt,false,none⟩,⟨256,.ff,false,none⟩,⟨256,.cr,false,none⟩,⟨256,.cr,true,none⟩]⟩,⟨[10,14],some 3,[],[⟨256,.other,false,none⟩,⟨256,.ws,false,none⟩,⟨256,.lf,false,some ⟨0,[.setEnt .newline],some 3,true⟩⟩,⟨256,.vt,false,none⟩,⟨256,.ff,false,none⟩,⟨256,.cr,false,none⟩,⟨256,.cr,true,none⟩]⟩,⟨[7,15],some 4,[],[⟨256,.other,false,some ⟨7,[],none,false⟩⟩,⟨256,.ws,false,some ⟨7,[],none,false⟩⟩,⟨256,.lf,false,none⟩,⟨256,.vt,false,some ⟨7,[],none,false⟩⟩,⟨256,.ff,false,none⟩,⟨256,.cr,false,none⟩,⟨256,.cr,true,none⟩,⟨256,.other,false,some ⟨0,[],some 2,true⟩⟩]⟩,⟨[4,15],some 4,[],[⟨256,.other,false,some ⟨8,[],none,false⟩⟩,⟨256,.ws,false,some ⟨8,[],none,false⟩⟩,⟨256,.lf,false,none⟩,⟨256,.vt,false,some ⟨8,[],none,false⟩⟩,⟨256,.ff,false,none⟩,⟨256,.cr,false,none⟩,⟨256,.cr,true,none⟩,⟨256,.other,false,none⟩]⟩,⟨[1,15],some 4,[],[⟨256,.other,false,none⟩,⟨256,.ws,false,none⟩,⟨256,.lf,false,none⟩,⟨256,.vt,false,none⟩,⟨256,.ff,false,none⟩,⟨256,.cr,false,none⟩,⟨256,.cr,true,none⟩,⟨256,.other,false,some ⟨9,[.comment],some 1,false⟩⟩]⟩,⟨[8],none,[],[⟨256,.other,false,some ⟨7,[],none,false⟩⟩,⟨256,.ws,false,some ⟨7,[],none,false⟩⟩,⟨256,.lf,false,none⟩,⟨256,.vt,false,some ⟨7,[],none,false⟩⟩,⟨256,.ff,false,none⟩,⟨256,.cr,false,none⟩,⟨256,.cr,true,none⟩,⟨256,.other,false,some ⟨0,[],some 2,true⟩⟩]⟩,⟨[5],none,[],[⟨256,.other,false,none⟩,⟨256,.ws,false,none⟩,⟨256,.lf,false,none⟩,⟨256,.vt,false,none⟩,⟨256,.ff,false,none⟩,⟨256,.cr,false,none⟩,⟨256,.cr,true,none⟩,⟨256,.other,false,some ⟨0,[],some 2,true⟩⟩]⟩,⟨[2],some 1,[],[⟨256,.other,false,some ⟨10,[],some 1,false⟩⟩,⟨256,.ws,false,some ⟨10,[],some 1,false⟩⟩,⟨256,.lf,false,none⟩,⟨256,.vt,false,some ⟨10,[],some 1,false⟩⟩,⟨256,.ff,false,none⟩,⟨256,.cr,false,none⟩,⟨256,.cr,true,none⟩]⟩,⟨[3],some 1,[],[⟨256,.other,false,some ⟨10,[],some 1,false⟩⟩,⟨256,.ws,false,some ⟨10,[],some 1,false⟩⟩,⟨256,.lf,false,none⟩,⟨256,.vt,false,some ⟨10,[],some 1,false⟩⟩,⟨256,.ff,false,none⟩,⟨256,.cr,false,none⟩,⟨256,.cr,true,none⟩]⟩]
theorem vhdl_line_rowsOk : rowsOk vhdl_line_nfa [] (vhdl_line_cs.map (·.1)) vhdl_line_rows = true := by decide +kernel
def vhdl_line_D : Dfa vhdl_line_M.nfa := ⟨vhdl_line_masks, [], vhdl_line_cs, vhdl_line_rows, vhdl_line_masksIn, vhdl_line_repOk, vhdl_line_rowsOk⟩

end Ohcount.Cert
