import Verif.Gram.Emb
import Verif.RagelCheck

/-! Generated by tools/gen_embcerts.py. -/

namespace Ohcount.Cert
open Ohcount.Ragel Ohcount.Gram

set_option maxRecDepth 100000

/-- The automaton of `Emb.Html.html_css_line`. -/
def emb0_nfa : Nfa := ⟨[⟨0,1152921504606846976,[],[],0,0⟩,⟨14,4294967808,[],[(5,.setEnt (.own 0))],0,0⟩,⟨15,140737488355328,[],[],0,2⟩,⟨26,549755813888,[],[(10,.code)],0,0⟩,⟨37,17179869184,[],[(15,.code)],0,0⟩,⟨48,8192,[],[(20,.setEnt .newline)],0,0⟩,⟨50,1024,[],[(20,.setEnt .newline)],0,0⟩,⟨51,4096,[],[(20,.setEnt .newline)],0,0⟩,⟨52,8192,[.crAlone],[(20,.setEnt .newline)],0,0⟩,⟨53,115792089237316195423570985008687907853269984665640564039457584007908834656767,[],[(21,.setEnt (.own 9))],0,0⟩],[[⟨1,140737488355328,[],[],0,0⟩],[⟨2,41538374877950027585161004031410176,[],[],0,0⟩],[⟨3,83076749755900055170322008062820352,[],[],0,0⟩],[⟨4,2658455992188801765450304258010251264,[],[],0,0⟩],[⟨5,324518553733984590509070343995392,[],[],0,0⟩],[⟨6,2535301201046754613352112062464,[],[],0,0⟩],[⟨7,4294967808,[],[],0,0⟩,⟨8,8192,[],[],0,0⟩,⟨10,1024,[],[(0,.setEnt .internalNl)],0,0⟩,⟨11,4096,[],[(0,.setEnt .internalNl)],0,0⟩,⟨12,8192,[.crAlone],[(0,.setEnt .internalNl)],0,0⟩,⟨13,4611686018427387904,[],[(2,.emb .outry),(3,.code),(4,.emb .back)],0,0⟩],[⟨7,4294967808,[],[],0,0⟩,⟨8,8192,[],[],0,0⟩,⟨10,1024,[],[(0,.setEnt .internalNl)],0,0⟩,⟨11,4096,[],[(0,.setEnt .internalNl)],0,0⟩,⟨12,8192,[.crAlone],[(0,.setEnt .internalNl)],0,0⟩,⟨13,4611686018427387904,[],[(2,.emb .outry),(3,.code),(4,.emb .back)],0,0⟩],[⟨9,1024,[],[(0,.setEnt .internalNl)],0,0⟩],[⟨7,4294967808,[],[(1,.cb)],0,0⟩,⟨8,8192,[],[(1,.cb)],0,0⟩,⟨10,1024,[],[(1,.cb),(0,.setEnt .internalNl)],0,0⟩,⟨11,4096,[],[(1,.cb),(0,.setEnt .internalNl)],0,0⟩,⟨12,8192,[.crAlone],[(1,.cb),(0,.setEnt .internalNl)],0,0⟩,⟨13,4611686018427387904,[],[(1,.cb),(2,.emb .outry),(3,.code),(4,.emb .back)],0,0⟩],[⟨7,4294967808,[],[(1,.cb)],0,0⟩,⟨8,8192,[],[(1,.cb)],0,0⟩,⟨10,1024,[],[(1,.cb),(0,.setEnt .internalNl)],0,0⟩,⟨11,4096,[],[(1,.cb),(0,.setEnt .internalNl)],0,0⟩,⟨12,8192,[.crAlone],[(1,.cb),(0,.setEnt .internalNl)],0,0⟩,⟨13,4611686018427387904,[],[(1,.cb),(2,.emb .outry),(3,.code),(4,.emb .back)],0,0⟩],[⟨7,4294967808,[],[(1,.cb)],0,0⟩,⟨8,8192,[],[(1,.cb)],0,0⟩,⟨10,1024,[],[(1,.cb),(0,.setEnt .internalNl)],0,0⟩,⟨11,4096,[],[(1,.cb),(0,.setEnt .internalNl)],0,0⟩,⟨12,8192,[.crAlone],[(1,.cb),(0,.setEnt .internalNl)],0,0⟩,⟨13,4611686018427387904,[],[(1,.cb),(2,.emb .outry),(3,.code),(4,.emb .back)],0,0⟩],[⟨7,4294967808,[],[(1,.cb)],0,0⟩,⟨8,8192,[],[(1,.cb)],0,0⟩,⟨10,1024,[],[(1,.cb),(0,.setEnt .internalNl)],0,0⟩,⟨11,4096,[],[(1,.cb),(0,.setEnt .internalNl)],0,0⟩,⟨12,8192,[.crAlone],[(1,.cb),(0,.setEnt .internalNl)],0,0⟩,⟨13,4611686018427387904,[],[(1,.cb),(2,.emb .outry),(3,.code),(4,.emb .back)],0,0⟩],[],[⟨14,4294967808,[],[(5,.setEnt (.own 0))],0,0⟩],[⟨16,4398046511104,[],[(6,.comment)],0,2⟩],[⟨17,8192,[],[],0,2⟩,⟨19,1024,[],[],0,2⟩,⟨20,4096,[],[],0,2⟩,⟨21,8192,[.crAlone],[],0,2⟩,⟨22,4294967808,[],[],0,2⟩,⟨23,115792089237316195423570985008687907853269984665640564039457584007908834658815,[],[(9,.comment)],0,2⟩,⟨24,4398046511104,[],[],0,2⟩],[⟨18,1024,[],[],0,2⟩],[⟨17,8192,[],[(7,.setEnt .internalNl),(8,.emb (.cb 1))],0,2⟩,⟨19,1024,[],[(7,.setEnt .internalNl),(8,.emb (.cb 1))],0,2⟩,⟨20,4096,[],[(7,.setEnt .internalNl),(8,.emb (.cb 1))],0,2⟩,⟨21,8192,[.crAlone],[(7,.setEnt .internalNl),(8,.emb (.cb 1))],0,2⟩,⟨22,4294967808,[],[(7,.setEnt .internalNl),(8,.emb (.cb 1))],0,2⟩,⟨23,115792089237316195423570985008687907853269984665640564039457584007908834658815,[],[(7,.setEnt .internalNl),(8,.emb (.cb 1)),(9,.comment)],0,2⟩,⟨24,4398046511104,[],[(7,.setEnt .internalNl),(8,.emb (.cb 1))],0,2⟩],[⟨17,8192,[],[(7,.setEnt .internalNl),(8,.emb (.cb 1))],0,2⟩,⟨19,1024,[],[(7,.setEnt .internalNl),(8,.emb (.cb 1))],0,2⟩,⟨20,4096,[],[(7,.setEnt .internalNl),(8,.emb (.cb 1))],0,2⟩,⟨21,8192,[.crAlone],[(7,.setEnt .internalNl),(8,.emb (.cb 1))],0,2⟩,⟨22,4294967808,[],[(7,.setEnt .internalNl),(8,.emb (.cb 1))],0,2⟩,⟨23,115792089237316195423570985008687907853269984665640564039457584007908834658815,[],[(7,.setEnt .internalNl),(8,.emb (.cb 1)),(9,.comment)],0,2⟩,⟨24,4398046511104,[],[(7,.setEnt .internalNl),(8,.emb (.cb 1))],0,2⟩],[⟨17,8192,[],[(7,.setEnt .internalNl),(8,.emb (.cb 1))],0,2⟩,⟨19,1024,[],[(7,.setEnt .internalNl),(8,.emb (.cb 1))],0,2⟩,⟨20,4096,[],[(7,.setEnt .internalNl),(8,.emb (.cb 1))],0,2⟩,⟨21,8192,[.crAlone],[(7,.setEnt .internalNl),(8,.emb (.cb 1))],0,2⟩,⟨22,4294967808,[],[(7,.setEnt .internalNl),(8,.emb (.cb 1))],0,2⟩,⟨23,115792089237316195423570985008687907853269984665640564039457584007908834658815,[],[(7,.setEnt .internalNl),(8,.emb (.cb 1)),(9,.comment)],0,2⟩,⟨24,4398046511104,[],[(7,.setEnt .internalNl),(8,.emb (.cb 1))],0,2⟩],[⟨17,8192,[],[(7,.setEnt .internalNl),(8,.emb (.cb 1))],0,2⟩,⟨19,1024,[],[(7,.setEnt .internalNl),(8,.emb (.cb 1))],0,2⟩,⟨20,4096,[],[(7,.setEnt .internalNl),(8,.emb (.cb 1))],0,2⟩,⟨21,8192,[.crAlone],[(7,.setEnt .internalNl),(8,.emb (.cb 1))],0,2⟩,⟨22,4294967808,[],[(7,.setEnt .internalNl),(8,.emb (.cb 1))],0,2⟩,⟨23,115792089237316195423570985008687907853269984665640564039457584007908834658815,[],[(7,.setEnt .internalNl),(8,.emb (.cb 1)),(9,.comment)],0,2⟩,⟨24,4398046511104,[],[(7,.setEnt .internalNl),(8,.emb (.cb 1))],0,2⟩],[⟨17,8192,[],[],0,2⟩,⟨19,1024,[],[],0,2⟩,⟨20,4096,[],[],0,2⟩,⟨21,8192,[.crAlone],[],0,2⟩,⟨22,4294967808,[],[],0,2⟩,⟨23,115792089237316195423570985008687907853269984665640564039457584007908834658815,[],[(9,.comment)],0,2⟩,⟨24,4398046511104,[],[],0,2⟩],[⟨17,8192,[],[],0,2⟩,⟨19,1024,[],[],0,2⟩,⟨20,4096,[],[],0,2⟩,⟨21,8192,[.crAlone],[],0,2⟩,⟨22,4294967808,[],[],0,2⟩,⟨23,115792089237316195423570985008687907853269984665640564039457584007908834658815,[],[(9,.comment)],0,2⟩,⟨24,4398046511104,[],[],0,2⟩],[⟨25,140737488355328,[],[],2,0⟩],[],[⟨27,8192,[],[],0,0⟩,⟨29,1024,[],[],0,0⟩,⟨30,4096,[],[],0,0⟩,⟨31,8192,[.crAlone],[],0,0⟩,⟨32,4294967808,[],[],0,0⟩,⟨33,115792089237316195423570985008687907853269984665635612279300442486259482348031,[],[(13,.code)],0,0⟩,⟨34,4951760157141521099596496896,[],[],0,0⟩,⟨36,549755813888,[],[],0,0⟩],[⟨28,1024,[],[],0,0⟩],[⟨27,8192,[],[(11,.setEnt .internalNl),(12,.emb (.cb 1))],0,0⟩,⟨29,1024,[],[(11,.setEnt .internalNl),(12,.emb (.cb 1))],0,0⟩,⟨30,4096,[],[(11,.setEnt .internalNl),(12,.emb (.cb 1))],0,0⟩,⟨31,8192,[.crAlone],[(11,.setEnt .internalNl),(12,.emb (.cb 1))],0,0⟩,⟨32,4294967808,[],[(11,.setEnt .internalNl),(12,.emb (.cb 1))],0,0⟩,⟨33,115792089237316195423570985008687907853269984665635612279300442486259482348031,[],[(11,.setEnt .internalNl),(12,.emb (.cb 1)),(13,.code)],0,0⟩,⟨34,4951760157141521099596496896,[],[(11,.setEnt .internalNl),(12,.emb (.cb 1))],0,0⟩,⟨36,549755813888,[],[(11,.setEnt .internalNl),(12,.emb (.cb 1))],0,0⟩],[⟨27,8192,[],[(11,.setEnt .internalNl),(12,.emb (.cb 1))],0,0⟩,⟨29,1024,[],[(11,.setEnt .internalNl),(12,.emb (.cb 1))],0,0⟩,⟨30,4096,[],[(11,.setEnt .internalNl),(12,.emb (.cb 1))],0,0⟩,⟨31,8192,[.crAlone],[(11,.setEnt .internalNl),(12,.emb (.cb 1))],0,0⟩,⟨32,4294967808,[],[(11,.setEnt .internalNl),(12,.emb (.cb 1))],0,0⟩,⟨33,115792089237316195423570985008687907853269984665635612279300442486259482348031,[],[(11,.setEnt .internalNl),(12,.emb (.cb 1)),(13,.code)],0,0⟩,⟨34,4951760157141521099596496896,[],[(11,.setEnt .internalNl),(12,.emb (.cb 1))],0,0⟩,⟨36,549755813888,[],[(11,.setEnt .internalNl),(12,.emb (.cb 1))],0,0⟩],[⟨27,8192,[],[(11,.setEnt .internalNl),(12,.emb (.cb 1))],0,0⟩,⟨29,1024,[],[(11,.setEnt .internalNl),(12,.emb (.cb 1))],0,0⟩,⟨30,4096,[],[(11,.setEnt .internalNl),(12,.emb (.cb 1))],0,0⟩,⟨31,8192,[.crAlone],[(11,.setEnt .internalNl),(12,.emb (.cb 1))],0,0⟩,⟨32,4294967808,[],[(11,.setEnt .internalNl),(12,.emb (.cb 1))],0,0⟩,⟨33,115792089237316195423570985008687907853269984665635612279300442486259482348031,[],[(11,.setEnt .internalNl),(12,.emb (.cb 1)),(13,.code)],0,0⟩,⟨34,4951760157141521099596496896,[],[(11,.setEnt .internalNl),(12,.emb (.cb 1))],0,0⟩,⟨36,549755813888,[],[(11,.setEnt .internalNl),(12,.emb (.cb 1))],0,0⟩],[⟨27,8192,[],[(11,.setEnt .internalNl),(12,.emb (.cb 1))],0,0⟩,⟨29,1024,[],[(11,.setEnt .internalNl),(12,.emb (.cb 1))],0,0⟩,⟨30,4096,[],[(11,.setEnt .internalNl),(12,.emb (.cb 1))],0,0⟩,⟨31,8192,[.crAlone],[(11,.setEnt .internalNl),(12,.emb (.cb 1))],0,0⟩,⟨32,4294967808,[],[(11,.setEnt .internalNl),(12,.emb (.cb 1))],0,0⟩,⟨33,115792089237316195423570985008687907853269984665635612279300442486259482348031,[],[(11,.setEnt .internalNl),(12,.emb (.cb 1)),(13,.code)],0,0⟩,⟨34,4951760157141521099596496896,[],[(11,.setEnt .internalNl),(12,.emb (.cb 1))],0,0⟩,⟨36,549755813888,[],[(11,.setEnt .internalNl),(12,.emb (.cb 1))],0,0⟩],[⟨27,8192,[],[],0,0⟩,⟨29,1024,[],[],0,0⟩,⟨30,4096,[],[],0,0⟩,⟨31,8192,[.crAlone],[],0,0⟩,⟨32,4294967808,[],[],0,0⟩,⟨33,115792089237316195423570985008687907853269984665635612279300442486259482348031,[],[(13,.code)],0,0⟩,⟨34,4951760157141521099596496896,[],[],0,0⟩,⟨36,549755813888,[],[],0,0⟩],[⟨27,8192,[],[],0,0⟩,⟨29,1024,[],[],0,0⟩,⟨30,4096,[],[],0,0⟩,⟨31,8192,[.crAlone],[],0,0⟩,⟨32,4294967808,[],[],0,0⟩,⟨33,115792089237316195423570985008687907853269984665635612279300442486259482348031,[],[(13,.code)],0,0⟩,⟨34,4951760157141521099596496896,[],[],0,0⟩,⟨36,549755813888,[],[],0,0⟩],[⟨35,115792089237316195423570985008687907853269984665640564039457584007913129626623,[],[(14,.code)],0,0⟩],[⟨27,8192,[],[],0,0⟩,⟨29,1024,[],[],0,0⟩,⟨30,4096,[],[],0,0⟩,⟨31,8192,[.crAlone],[],0,0⟩,⟨32,4294967808,[],[],0,0⟩,⟨33,115792089237316195423570985008687907853269984665635612279300442486259482348031,[],[(13,.code)],0,0⟩,⟨34,4951760157141521099596496896,[],[],0,0⟩,⟨36,549755813888,[],[],0,0⟩],[],[⟨38,8192,[],[],0,0⟩,⟨40,1024,[],[],0,0⟩,⟨41,4096,[],[],0,0⟩,⟨42,8192,[.crAlone],[],0,0⟩,⟨43,4294967808,[],[],0,0⟩,⟨44,115792089237316195423570985008687907853269984665635612279300442486792058292735,[],[(18,.code)],0,0⟩,⟨45,4951760157141521099596496896,[],[],0,0⟩,⟨47,17179869184,[],[],0,0⟩],[⟨39,1024,[],[],0,0⟩],[⟨38,8192,[],[(16,.setEnt .internalNl),(17,.emb (.cb 1))],0,0⟩,⟨40,1024,[],[(16,.setEnt .internalNl),(17,.emb (.cb 1))],0,0⟩,⟨41,4096,[],[(16,.setEnt .internalNl),(17,.emb (.cb 1))],0,0⟩,⟨42,8192,[.crAlone],[(16,.setEnt .internalNl),(17,.emb (.cb 1))],0,0⟩,⟨43,4294967808,[],[(16,.setEnt .internalNl),(17,.emb (.cb 1))],0,0⟩,⟨44,115792089237316195423570985008687907853269984665635612279300442486792058292735,[],[(16,.setEnt .internalNl),(17,.emb (.cb 1)),(18,.code)],0,0⟩,⟨45,4951760157141521099596496896,[],[(16,.setEnt .internalNl),(17,.emb (.cb 1))],0,0⟩,⟨47,17179869184,[],[(16,.setEnt .internalNl),(17,.emb (.cb 1))],0,0⟩],[⟨38,8192,[],[(16,.setEnt .internalNl),(17,.emb (.cb 1))],0,0⟩,⟨40,1024,[],[(16,.setEnt .internalNl),(17,.emb (.cb 1))],0,0⟩,⟨41,4096,[],[(16,.setEnt .internalNl),(17,.emb (.cb 1))],0,0⟩,⟨42,8192,[.crAlone],[(16,.setEnt .internalNl),(17,.emb (.cb 1))],0,0⟩,⟨43,4294967808,[],[(16,.setEnt .internalNl),(17,.emb (.cb 1))],0,0⟩,⟨44,115792089237316195423570985008687907853269984665635612279300442486792058292735,[],[(16,.setEnt .internalNl),(17,.emb (.cb 1)),(18,.code)],0,0⟩,⟨45,4951760157141521099596496896,[],[(16,.setEnt .internalNl),(17,.emb (.cb 1))],0,0⟩,⟨47,17179869184,[],[(16,.setEnt .internalNl),(17,.emb (.cb 1))],0,0⟩],[⟨38,8192,[],[(16,.setEnt .internalNl),(17,.emb (.cb 1))],0,0⟩,⟨40,1024,[],[(16,.setEnt .internalNl),(17,.emb (.cb 1))],0,0⟩,⟨41,4096,[],[(16,.setEnt .internalNl),(17,.emb (.cb 1))],0,0⟩,⟨42,8192,[.crAlone],[(16,.setEnt .internalNl),(17,.emb (.cb 1))],0,0⟩,⟨43,4294967808,[],[(16,.setEnt .internalNl),(17,.emb (.cb 1))],0,0⟩,⟨44,115792089237316195423570985008687907853269984665635612279300442486792058292735,[],[(16,.setEnt .internalNl),(17,.emb (.cb 1)),(18,.code)],0,0⟩,⟨45,4951760157141521099596496896,[],[(16,.setEnt .internalNl),(17,.emb (.cb 1))],0,0⟩,⟨47,17179869184,[],[(16,.setEnt .internalNl),(17,.emb (.cb 1))],0,0⟩],[⟨38,8192,[],[(16,.setEnt .internalNl),(17,.emb (.cb 1))],0,0⟩,⟨40,1024,[],[(16,.setEnt .internalNl),(17,.emb (.cb 1))],0,0⟩,⟨41,4096,[],[(16,.setEnt .internalNl),(17,.emb (.cb 1))],0,0⟩,⟨42,8192,[.crAlone],[(16,.setEnt .internalNl),(17,.emb (.cb 1))],0,0⟩,⟨43,4294967808,[],[(16,.setEnt .internalNl),(17,.emb (.cb 1))],0,0⟩,⟨44,115792089237316195423570985008687907853269984665635612279300442486792058292735,[],[(16,.setEnt .internalNl),(17,.emb (.cb 1)),(18,.code)],0,0⟩,⟨45,4951760157141521099596496896,[],[(16,.setEnt .internalNl),(17,.emb (.cb 1))],0,0⟩,⟨47,17179869184,[],[(16,.setEnt .internalNl),(17,.emb (.cb 1))],0,0⟩],[⟨38,8192,[],[],0,0⟩,⟨40,1024,[],[],0,0⟩,⟨41,4096,[],[],0,0⟩,⟨42,8192,[.crAlone],[],0,0⟩,⟨43,4294967808,[],[],0,0⟩,⟨44,115792089237316195423570985008687907853269984665635612279300442486792058292735,[],[(18,.code)],0,0⟩,⟨45,4951760157141521099596496896,[],[],0,0⟩,⟨47,17179869184,[],[],0,0⟩],[⟨38,8192,[],[],0,0⟩,⟨40,1024,[],[],0,0⟩,⟨41,4096,[],[],0,0⟩,⟨42,8192,[.crAlone],[],0,0⟩,⟨43,4294967808,[],[],0,0⟩,⟨44,115792089237316195423570985008687907853269984665635612279300442486792058292735,[],[(18,.code)],0,0⟩,⟨45,4951760157141521099596496896,[],[],0,0⟩,⟨47,17179869184,[],[],0,0⟩],[⟨46,115792089237316195423570985008687907853269984665640564039457584007913129626623,[],[(19,.code)],0,0⟩],[⟨38,8192,[],[],0,0⟩,⟨40,1024,[],[],0,0⟩,⟨41,4096,[],[],0,0⟩,⟨42,8192,[.crAlone],[],0,0⟩,⟨43,4294967808,[],[],0,0⟩,⟨44,115792089237316195423570985008687907853269984665635612279300442486792058292735,[],[(18,.code)],0,0⟩,⟨45,4951760157141521099596496896,[],[],0,0⟩,⟨47,17179869184,[],[],0,0⟩],[],[⟨49,1024,[],[(20,.setEnt .newline)],0,0⟩],[],[],[],[],[]],[none,none,none,none,none,none,none,none,none,none,none,none,none,some (0,[]),some (1,[]),none,none,none,none,none,none,none,none,none,none,some (2,[]),none,none,none,none,none,none,none,none,none,none,some (3,[]),none,none,none,none,none,none,none,none,none,none,some (3,[]),none,some (4,[]),some (4,[]),some (4,[]),some (4,[]),some (5,[])],[5,6,10,20,21,22]⟩
def emb0_masks : List Nat := [1152921504606846976,4294967808,140737488355328,549755813888,17179869184,8192,1024,4096,115792089237316195423570985008687907853269984665640564039457584007908834656767,41538374877950027585161004031410176,83076749755900055170322008062820352,2658455992188801765450304258010251264,324518553733984590509070343995392,2535301201046754613352112062464,4611686018427387904,4398046511104,115792089237316195423570985008687907853269984665640564039457584007908834658815,115792089237316195423570985008687907853269984665635612279300442486259482348031,4951760157141521099596496896,115792089237316195423570985008687907853269984665640564039457584007913129626623,115792089237316195423570985008687907853269984665635612279300442486792058292735]
def emb0_cs : List (Nat × Nat) := [(0,115792089237316195423570985008687907853267201267464934692415126823891172835839),(9,4294967808),(10,1024),(11,2048),(12,4096),(13,8192),(34,17179869184),(39,549755813888),(42,4398046511104),(47,140737488355328),(60,1152921504606846976),(62,4611686018427387904),(69,2535301201046754613352112062464),(76,324518553733984590509070343995392),(83,41538374877950027585161004031410176),(84,83076749755900055170322008062820352),(89,2658455992188801765450304258010251264),(92,4951760157141521099596496896)]
theorem emb0_masksIn : masksIn emb0_nfa emb0_masks = true := by decide +kernel
theorem emb0_repOk : repOk emb0_masks emb0_cs = true := by decide +kernel
def emb0_rows : List Row := [⟨[],none,[],[⟨256,.other,false,some ⟨0,[.setEnt (.own 9)],some 5,true⟩⟩,⟨256,.ws,false,some ⟨1,[.setEnt (.own 0)],some 1,false⟩⟩,⟨256,.lf,false,some ⟨0,[.setEnt .newline],some 4,true⟩⟩,⟨256,.vt,false,none⟩,⟨256,.ff,false,some ⟨0,[.setEnt .newline],some 4,true⟩⟩,⟨256,.cr,false,some ⟨2,[.setEnt .newline],none,false⟩⟩,⟨256,.cr,true,some ⟨3,[.setEnt .newline],some 4,false⟩⟩,⟨256,.other,false,some ⟨4,[.code,.setEnt (.own 9)],some 5,false⟩⟩,⟨256,.other,false,some ⟨5,[.code,.setEnt (.own 9)],some 5,false⟩⟩,⟨256,.other,false,some ⟨6,[.setEnt (.own 9)],some 5,false⟩⟩,⟨256,.other,false,some ⟨7,[.setEnt (.own 9)],some 5,false⟩⟩]⟩,⟨[14],some 1,[],[⟨256,.other,false,none⟩,⟨256,.ws,false,some ⟨1,[.setEnt (.own 0)],some 1,false⟩⟩,⟨256,.lf,false,none⟩,⟨256,.vt,false,none⟩,⟨256,.ff,false,none⟩,⟨256,.cr,false,none⟩,⟨256,.cr,true,none⟩]⟩,⟨[48],none,[],[⟨256,.other,false,none⟩,⟨256,.ws,false,none⟩,⟨256,.lf,false,some ⟨0,[.setEnt .newline],some 4,true⟩⟩,⟨256,.vt,false,none⟩,⟨256,.ff,false,none⟩,⟨256,.cr,false,none⟩,⟨256,.cr,true,none⟩]⟩,⟨[48,52],some 4,[],[⟨256,.other,false,none⟩,⟨256,.ws,false,none⟩,⟨256,.lf,false,some ⟨0,[.setEnt .newline],some 4,true⟩⟩,⟨256,.vt,false,none⟩,⟨256,.ff,false,none⟩,⟨256,.cr,false,none⟩,⟨256,.cr,true,none⟩]⟩,⟨[37,53],some 5,[],[⟨256,.other,false,some ⟨8,[.code],none,false⟩⟩,⟨256,.ws,false,some ⟨9,[],none,false⟩⟩,⟨256,.lf,false,some ⟨10,[],none,false⟩⟩,⟨256,.vt,false,some ⟨8,[.code],none,false⟩⟩,⟨256,.ff,false,some ⟨11,[],none,false⟩⟩,⟨256,.cr,false,some ⟨12,[],none,false⟩⟩,⟨256,.cr,true,some ⟨13,[],none,false⟩⟩,⟨256,.other,false,some ⟨0,[],some 3,true⟩⟩,⟨256,.other,false,some ⟨14,[],none,false⟩⟩]⟩,⟨[26,53],some 5,[],[⟨256,.other,false,some ⟨15,[.code],none,false⟩⟩,⟨256,.ws,false,some ⟨16,[],none,false⟩⟩,⟨256,.lf,false,some ⟨17,[],none,false⟩⟩,⟨256,.vt,false,some ⟨15,[.code],none,false⟩⟩,⟨256,.ff,false,some ⟨18,[],none,false⟩⟩,⟨256,.cr,false,some ⟨19,[],none,false⟩⟩,⟨256,.cr,true,some ⟨20,[],none,false⟩⟩,⟨256,.other,false,some ⟨0,[],some 3,true⟩⟩,⟨256,.other,false,some ⟨21,[],none,false⟩⟩]⟩,⟨[15,53],some 5,[],[⟨256,.other,false,none⟩,⟨256,.ws,false,none⟩,⟨256,.lf,false,none⟩,⟨256,.vt,false,none⟩,⟨256,.ff,false,none⟩,⟨256,.cr,false,none⟩,⟨256,.cr,true,none⟩,⟨256,.other,false,some ⟨22,[.comment],none,false⟩⟩]⟩,⟨[0,53],some 5,[],[⟨256,.other,false,none⟩,⟨256,.ws,false,none⟩,⟨256,.lf,false,none⟩,⟨256,.vt,false,none⟩,⟨256,.ff,false,none⟩,⟨256,.cr,false,none⟩,⟨256,.cr,true,none⟩,⟨256,.other,false,some ⟨23,[],none,false⟩⟩]⟩,⟨[44],none,[],[⟨256,.other,false,some ⟨8,[.code],none,false⟩⟩,⟨256,.ws,false,some ⟨9,[],none,false⟩⟩,⟨256,.lf,false,some ⟨10,[],none,false⟩⟩,⟨256,.vt,false,some ⟨8,[.code],none,false⟩⟩,⟨256,.ff,false,some ⟨11,[],none,false⟩⟩,⟨256,.cr,false,some ⟨12,[],none,false⟩⟩,⟨256,.cr,true,some ⟨13,[],none,false⟩⟩,⟨256,.other,false,some ⟨0,[],some 3,true⟩⟩,⟨256,.other,false,some ⟨14,[],none,false⟩⟩]⟩,⟨[43],none,[],[⟨256,.other,false,some ⟨8,[.code],none,false⟩⟩,⟨256,.ws,false,some ⟨9,[],none,false⟩⟩,⟨256,.lf,false,some ⟨10,[],none,false⟩⟩,⟨256,.vt,false,some ⟨8,[.code],none,false⟩⟩,⟨256,.ff,false,some ⟨11,[],none,false⟩⟩,⟨256,.cr,false,some ⟨12,[],none,false⟩⟩,⟨256,.cr,true,some ⟨13,[],none,false⟩⟩,⟨256,.other,false,some ⟨0,[],some 3,true⟩⟩,⟨256,.other,false,some ⟨14,[],none,false⟩⟩]⟩,⟨[40],none,[],[⟨256,.other,false,some ⟨8,[.setEnt .internalNl,.emb (.cb 1),.code],none,false⟩⟩,⟨256,.ws,false,some ⟨9,[.setEnt .internalNl,.emb (.cb 1)],none,false⟩⟩,⟨256,.lf,false,some ⟨10,[.setEnt .internalNl,.emb (.cb 1)],none,false⟩⟩,⟨256,.vt,false,some ⟨8,[.setEnt .internalNl,.emb (.cb 1),.code],none,false⟩⟩,⟨256,.ff,false,some ⟨11,[.setEnt .internalNl,.emb (.cb 1)],none,false⟩⟩,⟨256,.cr,false,some ⟨12,[.setEnt .internalNl,.emb (.cb 1)],none,false⟩⟩,⟨256,.cr,true,some ⟨13,[.setEnt .internalNl,.emb (.cb 1)],none,false⟩⟩,⟨256,.other,false,some ⟨0,[.setEnt .internalNl,.emb (.cb 1)],some 3,true⟩⟩,⟨256,.other,false,some ⟨14,[.setEnt .internalNl,.emb (.cb 1)],none,false⟩⟩]⟩,⟨[41],none,[],[⟨256,.other,false,some ⟨8,[.setEnt .internalNl,.emb (.cb 1),.code],none,false⟩⟩,⟨256,.ws,false,some ⟨9,[.setEnt .internalNl,.emb (.cb 1)],none,false⟩⟩,⟨256,.lf,false,some ⟨10,[.setEnt .internalNl,.emb (.cb 1)],none,false⟩⟩,⟨256,.vt,false,some ⟨8,[.setEnt .internalNl,.emb (.cb 1),.code],none,false⟩⟩,⟨256,.ff,false,some ⟨11,[.setEnt .internalNl,.emb (.cb 1)],none,false⟩⟩,⟨256,.cr,false,some ⟨12,[.setEnt .internalNl,.emb (.cb 1)],none,false⟩⟩,⟨256,.cr,true,some ⟨13,[.setEnt .internalNl,.emb (.cb 1)],none,false⟩⟩,⟨256,.other,false,some ⟨0,[.setEnt .internalNl,.emb (.cb 1)],some 3,true⟩⟩,⟨256,.other,false,some ⟨14,[.setEnt .internalNl,.emb (.cb 1)],none,false⟩⟩]⟩,⟨[38],none,[],[⟨256,.other,false,none⟩,⟨256,.ws,false,none⟩,⟨256,.lf,false,some ⟨24,[],none,false⟩⟩,⟨256,.vt,false,none⟩,⟨256,.ff,false,none⟩,⟨256,.cr,false,none⟩,⟨256,.cr,true,none⟩]⟩,⟨[38,42],none,[],[⟨256,.other,false,some ⟨8,[.setEnt .internalNl,.emb (.cb 1),.code],none,false⟩⟩,⟨256,.ws,false,some ⟨9,[.setEnt .internalNl,.emb (.cb 1)],none,false⟩⟩,⟨256,.lf,false,some ⟨25,[.setEnt .internalNl,.emb (.cb 1)],none,false⟩⟩,⟨256,.vt,false,some ⟨8,[.setEnt .internalNl,.emb (.cb 1),.code],none,false⟩⟩,⟨256,.ff,false,some ⟨11,[.setEnt .internalNl,.emb (.cb 1)],none,false⟩⟩,⟨256,.cr,false,some ⟨12,[.setEnt .internalNl,.emb (.cb 1)],none,false⟩⟩,⟨256,.cr,true,some ⟨13,[.setEnt .internalNl,.emb (.cb 1)],none,false⟩⟩,⟨256,.other,false,some ⟨0,[.setEnt .internalNl,.emb (.cb 1)],some 3,true⟩⟩,⟨256,.other,false,some ⟨14,[.setEnt .internalNl,.emb (.cb 1)],none,false⟩⟩]⟩,⟨[45],none,[],[⟨256,.other,false,some ⟨26,[.code],none,false⟩⟩,⟨256,.ws,false,some ⟨26,[.code],none,false⟩⟩,⟨256,.lf,false,none⟩,⟨256,.vt,false,some ⟨26,[.code],none,false⟩⟩,⟨256,.ff,false,none⟩,⟨256,.cr,false,none⟩,⟨256,.cr,true,none⟩]⟩,⟨[33],none,[],[⟨256,.other,false,some ⟨15,[.code],none,false⟩⟩,⟨256,.ws,false,some ⟨16,[],none,false⟩⟩,⟨256,.lf,false,some ⟨17,[],none,false⟩⟩,⟨256,.vt,false,some ⟨15,[.code],none,false⟩⟩,⟨256,.ff,false,some ⟨18,[],none,false⟩⟩,⟨256,.cr,false,some ⟨19,[],none,false⟩⟩,⟨256,.cr,true,some ⟨20,[],none,false⟩⟩,⟨256,.other,false,some ⟨0,[],some 3,true⟩⟩,⟨256,.other,false,some ⟨21,[],none,false⟩⟩]⟩,⟨[32],none,[],[⟨256,.other,false,some ⟨15,[.code],none,false⟩⟩,⟨256,.ws,false,some ⟨16,[],none,false⟩⟩,⟨256,.lf,false,some ⟨17,[],none,false⟩⟩,⟨256,.vt,false,some ⟨15,[.code],none,false⟩⟩,⟨256,.ff,false,some ⟨18,[],none,false⟩⟩,⟨256,.cr,false,some ⟨19,[],none,false⟩⟩,⟨256,.cr,true,some ⟨20,[],none,false⟩⟩,⟨256,.other,false,some ⟨0,[],some 3,true⟩⟩,⟨256,.other,false,some ⟨21,[],none,false⟩⟩]⟩,⟨[29],none,[],[⟨256,.other,false,some ⟨15,[.setEnt .internalNl,.emb (.cb 1),.code],none,false⟩⟩,⟨256,.ws,false,some ⟨16,[.setEnt .internalNl,.emb (.cb 1)],none,false⟩⟩,⟨256,.lf,false,some ⟨17,[.setEnt .internalNl,.emb (.cb 1)],none,false⟩⟩,⟨256,.vt,false,some ⟨15,[.setEnt .internalNl,.emb (.cb 1),.code],none,false⟩⟩,⟨256,.ff,false,some ⟨18,[.setEnt .internalNl,.emb (.cb 1)],none,false⟩⟩,⟨256,.cr,false,some ⟨19,[.setEnt .internalNl,.emb (.cb 1)],none,false⟩⟩,⟨256,.cr,true,some ⟨20,[.setEnt .internalNl,.emb (.cb 1)],none,false⟩⟩,⟨256,.other,false,some ⟨0,[.setEnt .internalNl,.emb (.cb 1)],some 3,true⟩⟩,⟨256,.other,false,some ⟨21,[.setEnt .internalNl,.emb (.cb 1)],none,false⟩⟩]⟩,⟨[30],none,[],[⟨256,.other,false,some ⟨15,[.setEnt .internalNl,.emb (.cb 1),.code],none,false⟩⟩,⟨256,.ws,false,some ⟨16,[.setEnt .internalNl,.emb (.cb 1)],none,false⟩⟩,⟨256,.lf,false,some ⟨17,[.setEnt .internalNl,.emb (.cb 1)],none,false⟩⟩,⟨256,.vt,false,some ⟨15,[.setEnt .internalNl,.emb (.cb 1),.code],none,false⟩⟩,⟨256,.ff,false,some ⟨18,[.setEnt .internalNl,.emb (.cb 1)],none,false⟩⟩,⟨256,.cr,false,some ⟨19,[.setEnt .internalNl,.emb (.cb 1)],none,false⟩⟩,⟨256,.cr,true,some ⟨20,[.setEnt .internalNl,.emb (.cb 1)],none,false⟩⟩,⟨256,.other,false,some ⟨0,[.setEnt .internalNl,.emb (.cb 1)],some 3,true⟩⟩,⟨256,.other,false,some ⟨21,[.setEnt .internalNl,.emb (.cb 1)],none,false⟩⟩]⟩,⟨[27],none,[],[⟨256,.other,false,none⟩,⟨256,.ws,false,none⟩,⟨256,.lf,false,some ⟨27,[],none,false⟩⟩,⟨256,.vt,false,none⟩,⟨256,.ff,false,none⟩,⟨256,.cr,false,none⟩,⟨256,.cr,true,none⟩]⟩,⟨[27,31],none,[],[⟨256,.other,false,some ⟨15,[.setEnt .internalNl,.emb (.cb 1),.code],none,false⟩⟩,⟨256,.ws,false,some ⟨16,[.setEnt .internalNl,.emb (.cb 1)],none,false⟩⟩,⟨256,.lf,false,some ⟨28,[.setEnt .internalNl,.emb (.cb 1)],none,false⟩⟩,⟨256,.vt,false,some ⟨15,[.setEnt .internalNl,.emb (.cb 1),.code],none,false⟩⟩,⟨256,.ff,false,some ⟨18,[.setEnt .internalNl,.emb (.cb 1)],none,false⟩⟩,⟨256,.cr,false,some ⟨19,[.setEnt .internalNl,.emb (.cb 1)],none,false⟩⟩,⟨256,.cr,true,some ⟨20,[.setEnt .internalNl,.emb (.cb 1)],none,false⟩⟩,⟨256,.other,false,some ⟨0,[.setEnt .internalNl,.emb (.cb 1)],some 3,true⟩⟩,⟨256,.other,false,some ⟨21,[.setEnt .internalNl,.emb (.cb 1)],none,false⟩⟩]⟩,⟨[34],none,[],[⟨256,.other,false,some ⟨29,[.code],none,false⟩⟩,⟨256,.ws,false,some ⟨29,[.code],none,false⟩⟩,⟨256,.lf,false,none⟩,⟨256,.vt,false,some ⟨29,[.code],none,false⟩⟩,⟨256,.ff,false,none⟩,⟨256,.cr,false,none⟩,⟨256,.cr,true,none⟩]⟩,⟨[16],none,[],[⟨256,.other,false,some ⟨30,[.comment],none,false⟩⟩,⟨256,.ws,false,some ⟨31,[],none,false⟩⟩,⟨256,.lf,false,some ⟨32,[],none,false⟩⟩,⟨256,.vt,false,some ⟨30,[.comment],none,false⟩⟩,⟨256,.ff,false,some ⟨33,[],none,false⟩⟩,⟨256,.cr,false,some ⟨34,[],none,false⟩⟩,⟨256,.cr,true,some ⟨35,[],none,false⟩⟩,⟨256,.other,false,some ⟨36,[.comment],none,false⟩⟩]⟩,⟨[1],none,[],[⟨256,.other,false,none⟩,⟨256,.ws,false,none⟩,⟨256,.lf,false,none⟩,⟨256,.vt,false,none⟩,⟨256,.ff,false,none⟩,⟨256,.cr,false,none⟩,⟨256,.cr,true,none⟩,⟨256,.other,false,some ⟨37,[],none,false⟩⟩]⟩,⟨[39],none,[],[⟨256,.other,false,some ⟨8,[.setEnt .internalNl,.emb (.cb 1),.code],none,false⟩⟩,⟨256,.ws,false,some ⟨9,[.setEnt .internalNl,.emb (.cb 1)],none,false⟩⟩,⟨256,.lf,false,some ⟨10,[.setEnt .internalNl,.emb (.cb 1)],none,false⟩⟩,⟨256,.vt,false,some ⟨8,[.setEnt .internalNl,.emb (.cb 1),.code],none,false⟩⟩,⟨256,.ff,false,some ⟨11,[.setEnt .internalNl,.emb (.cb 1)],none,false⟩⟩,⟨256,.cr,false,some ⟨12,[.setEnt .internalNl,.emb (.cb 1)],none,false⟩⟩,⟨256,.cr,true,some ⟨13,[.setEnt .internalNl,.emb (.cb 1)],none,false⟩⟩,⟨256,.other,false,some ⟨0,[.setEnt .internalNl,.emb (.cb 1)],some 3,true⟩⟩,⟨256,.other,false,some ⟨14,[.setEnt .internalNl,.emb (.cb 1)],none,false⟩⟩]⟩,⟨[39,40],none,[],[⟨256,.other,false,some ⟨8,[.setEnt .internalNl,.emb (.cb 1),.code],none,false⟩⟩,⟨256,.ws,false,some ⟨9,[.setEnt .internalNl,.emb (.cb 1)],none,false⟩⟩,⟨256,.lf,false,some ⟨10,[.setEnt .internalNl,.emb (.cb 1)],none,false⟩⟩,⟨256,.vt,false,some ⟨8,[.setEnt .internalNl,.emb (.cb 1),.code],none,false⟩⟩,⟨256,.ff,false,some ⟨11,[.setEnt .internalNl,.emb (.cb 1)],none,false⟩⟩,⟨256,.cr,false,some ⟨12,[.setEnt .internalNl,.emb (.cb 1)],none,false⟩⟩,⟨256,.cr,true,some ⟨13,[.setEnt .internalNl,.emb (.cb 1)],none,false⟩⟩,⟨256,.other,false,some ⟨0,[.setEnt .internalNl,.emb (.cb 1)],some 3,true⟩⟩,⟨256,.other,false,some ⟨14,[.setEnt .internalNl,.emb (.cb 1)],none,false⟩⟩]⟩,⟨[46],none,[],[⟨256,.other,false,some ⟨8,[.code],none,false⟩⟩,⟨256,.ws,false,some ⟨9,[],none,false⟩⟩,⟨256,.lf,false,some ⟨10,[],none,false⟩⟩,⟨256,.vt,false,some ⟨8,[.code],none,false⟩⟩,⟨256,.ff,false,some ⟨11,[],none,false⟩⟩,⟨256,.cr,false,some ⟨12,[],none,false⟩⟩,⟨256,.cr,true,some ⟨13,[],none,false⟩⟩,⟨256,.other,false,some ⟨0,[],some 3,true⟩⟩,⟨256,.other,false,some ⟨14,[],none,false⟩⟩]⟩,⟨[28],none,[],[⟨256,.other,false,some ⟨15,[.setEnt .internalNl,.emb (.cb 1),.code],none,false⟩⟩,⟨256,.ws,false,some ⟨16,[.setEnt .internalNl,.emb (.cb 1)],none,false⟩⟩,⟨256,.lf,false,some ⟨17,[.setEnt .internalNl,.emb (.cb 1)],none,false⟩⟩,⟨256,.vt,false,some ⟨15,[.setEnt .internalNl,.emb (.cb 1),.code],none,false⟩⟩,⟨256,.ff,false,some ⟨18,[.setEnt .internalNl,.emb (.cb 1)],none,false⟩⟩,⟨256,.cr,false,some ⟨19,[.setEnt .internalNl,.emb (.cb 1)],none,false⟩⟩,⟨256,.cr,true,some ⟨20,[.setEnt .internalNl,.emb (.cb 1)],none,false⟩⟩,⟨256,.other,false,some ⟨0,[.setEnt .internalNl,.emb (.cb 1)],some 3,true⟩⟩,⟨256,.other,false,some ⟨21,[.setEnt .internalNl,.emb (.cb 1)],none,false⟩⟩]⟩,⟨[28,29],none,[],[⟨256,.other,false,some ⟨15,[.setEnt .internalNl,.emb (.cb 1),.code],none,false⟩⟩,⟨256,.ws,false,some ⟨16,[.setEnt .internalNl,.emb (.cb 1)],none,false⟩⟩,⟨256,.lf,false,some ⟨17,[.setEnt .internalNl,.emb (.cb 1)],none,false⟩⟩,⟨256,.vt,false,some ⟨15,[.setEnt .internalNl,.emb (.cb 1),.code],none,false⟩⟩,⟨256,.ff,false,some ⟨18,[.setEnt .internalNl,.emb (.cb 1)],none,false⟩⟩,⟨256,.cr,false,some ⟨19,[.setEnt .internalNl,.emb (.cb 1)],none,false⟩⟩,⟨256,.cr,true,some ⟨20,[.setEnt .internalNl,.emb (.cb 1)],none,false⟩⟩,⟨256,.other,false,some ⟨0,[.setEnt .internalNl,.emb (.cb 1)],some 3,true⟩⟩,⟨256,.other,false,some ⟨21,[.setEnt .internalNl,.emb (.cb 1)],none,false⟩⟩]⟩,⟨[35],none,[],[⟨256,.other,false,some ⟨15,[.code],none,false⟩⟩,⟨256,.ws,false,some ⟨16,[],none,false⟩⟩,⟨256,.lf,false,some ⟨17,[],none,false⟩⟩,⟨256,.vt,false,some ⟨15,[.code],none,false⟩⟩,⟨256,.ff,false,some ⟨18,[],none,false⟩⟩,⟨256,.cr,false,some ⟨19,[],none,false⟩⟩,⟨256,.cr,true,some ⟨20,[],none,false⟩⟩,⟨256,.other,false,some ⟨0,[],some 3,true⟩⟩,⟨256,.other,false,some ⟨21,[],none,false⟩⟩]⟩,⟨[23],none,[],[⟨256,.other,false,some ⟨30,[.comment],none,false⟩⟩,⟨256,.ws,false,some ⟨31,[],none,false⟩⟩,⟨256,.lf,false,some ⟨32,[],none,false⟩⟩,⟨256,.vt,false,some ⟨30,[.comment],none,false⟩⟩,⟨256,.ff,false,some ⟨33,[],none,false⟩⟩,⟨256,.cr,false,some ⟨34,[],none,false⟩⟩,⟨256,.cr,true,some ⟨35,[],none,false⟩⟩,⟨256,.other,false,some ⟨36,[.comment],none,false⟩⟩]⟩,⟨[22],none,[],[⟨256,.other,false,some ⟨30,[.comment],none,false⟩⟩,⟨256,.ws,false,some ⟨31,[],none,false⟩⟩,⟨256,.lf,false,some ⟨32,[],none,false⟩⟩,⟨256,.vt,false,some ⟨30,[.comment],none,false⟩⟩,⟨256,.ff,false,some ⟨33,[],none,false⟩⟩,⟨256,.cr,false,some ⟨34,[],none,false⟩⟩,⟨256,.cr,true,some ⟨35,[],none,false⟩⟩,⟨256,.other,false,some ⟨36,[.comment],none,false⟩⟩]⟩,⟨[19],none,[],[⟨256,.other,false,some ⟨30,[.setEnt .internalNl,.emb (.cb 1),.comment],none,false⟩⟩,⟨256,.ws,false,some ⟨31,[.setEnt .internalNl,.emb (.cb 1)],none,false⟩⟩,⟨256,.lf,false,some ⟨32,[.setEnt .internalNl,.emb (.cb 1)],none,false⟩⟩,⟨256,.vt,false,some ⟨30,[.setEnt .internalNl,.emb (.cb 1),.comment],none,false⟩⟩,⟨256,.ff,false,some ⟨33,[.setEnt .internalNl,.emb (.cb 1)],none,false⟩⟩,⟨256,.cr,false,some ⟨34,[.setEnt .internalNl,.emb (.cb 1)],none,false⟩⟩,⟨256,.cr,true,some ⟨35,[.setEnt .internalNl,.emb (.cb 1)],none,false⟩⟩,⟨256,.other,false,some ⟨36,[.setEnt .internalNl,.emb (.cb 1),.comment],none,false⟩⟩]⟩,⟨[20],none,[],[⟨256,.other,false,some ⟨30,[.setEnt .internalNl,.emb (.cb 1),.comment],none,false⟩⟩,⟨256,.ws,false,some ⟨31,[.setEnt .internalNl,.emb (.cb 1)],none,false⟩⟩,⟨256,.lf,false,some ⟨32,[.setEnt .internalNl,.emb (.cb 1)],none,false⟩⟩,⟨256,.vt,false,some ⟨30,[.setEnt .internalNl,.emb (.cb 1),.comment],none,false⟩⟩,⟨256,.ff,false,some ⟨33,[.setEnt .internalNl,.emb (.cb 1)],none,false⟩⟩,⟨256,.cr,false,some ⟨34,[.setEnt .internalNl,.emb (.cb 1)],none,false⟩⟩,⟨256,.cr,true,some ⟨35,[.setEnt .internalNl,.emb (.cb 1)],none,false⟩⟩,⟨256,.other,false,some ⟨36,[.setEnt .internalNl,.emb (.cb 1),.comment],none,false⟩⟩]⟩,⟨[17],none,[],[⟨256,.other,false,none⟩,⟨256,.ws,false,none⟩,⟨256,.lf,false,some ⟨38,[],none,false⟩⟩,⟨256,.vt,false,none⟩,⟨256,.ff,false,none⟩,⟨256,.cr,false,none⟩,⟨256,.cr,true,none⟩]⟩,⟨[17,21],none,[],[⟨256,.other,false,some ⟨30,[.setEnt .internalNl,.emb (.cb 1),.comment],none,false⟩⟩,⟨256,.ws,false,some ⟨31,[.setEnt .internalNl,.emb (.cb 1)],none,false⟩⟩,⟨256,.lf,false,some ⟨39,[.setEnt .internalNl,.emb (.cb 1)],none,false⟩⟩,⟨256,.vt,false,some ⟨30,[.setEnt .internalNl,.emb (.cb 1),.comment],none,false⟩⟩,⟨256,.ff,false,some ⟨33,[.setEnt .internalNl,.emb (.cb 1)],none,false⟩⟩,⟨256,.cr,false,some ⟨34,[.setEnt .internalNl,.emb (.cb 1)],none,false⟩⟩,⟨256,.cr,true,some ⟨35,[.setEnt .internalNl,.emb (.cb 1)],none,false⟩⟩,⟨256,.other,false,some ⟨36,[.setEnt .internalNl,.emb (.cb 1),.comment],none,false⟩⟩]⟩,⟨[23,24],none,[],[⟨256,.other,false,some ⟨30,[.comment],none,false⟩⟩,⟨256,.ws,false,some ⟨31,[],none,false⟩⟩,⟨256,.lf,false,some ⟨32,[],none,false⟩⟩,⟨256,.vt,false,some ⟨30,[.comment],none,false⟩⟩,⟨256,.ff,false,some ⟨33,[],none,false⟩⟩,⟨256,.cr,false,some ⟨34,[],none,false⟩⟩,⟨256,.cr,true,some ⟨35,[],none,false⟩⟩,⟨256,.other,false,some ⟨36,[.comment],none,false⟩⟩,⟨256,.other,false,some ⟨0,[],some 2,true⟩⟩]⟩,⟨[2],none,[],[⟨256,.other,false,none⟩,⟨256,.ws,false,none⟩,⟨256,.lf,false,none⟩,⟨256,.vt,false,none⟩,⟨256,.ff,false,none⟩,⟨256,.cr,false,none⟩,⟨256,.cr,true,none⟩,⟨256,.other,false,some ⟨40,[],none,false⟩⟩]⟩,⟨[18],none,[],[⟨256,.other,false,some ⟨30,[.setEnt .internalNl,.emb (.cb 1),.comment],none,false⟩⟩,⟨256,.ws,false,some ⟨31,[.setEnt .internalNl,.emb (.cb 1)],none,false⟩⟩,⟨256,.lf,false,some ⟨32,[.setEnt .internalNl,.emb (.cb 1)],none,false⟩⟩,⟨256,.vt,false,some ⟨30,[.setEnt .internalNl,.emb (.cb 1),.comment],none,false⟩⟩,⟨256,.ff,false,some ⟨33,[.setEnt .internalNl,.emb (.cb 1)],none,false⟩⟩,⟨256,.cr,false,some ⟨34,[.setEnt .internalNl,.emb (.cb 1)],none,false⟩⟩,⟨256,.cr,true,some ⟨35,[.setEnt .internalNl,.emb (.cb 1)],none,false⟩⟩,⟨256,.other,false,some ⟨36,[.setEnt .internalNl,.emb (.cb 1),.comment],none,false⟩⟩]⟩,⟨[18,19],none,[],[⟨256,.other,false,some ⟨30,[.setEnt .internalNl,.emb (.cb 1),.comment],none,false⟩⟩,⟨256,.ws,false,some ⟨31,[.setEnt .internalNl,.emb (.cb 1)],none,false⟩⟩,⟨256,.lf,false,some ⟨32,[.setEnt .internalNl,.emb (.cb 1)],none,false⟩⟩,⟨256,.vt,false,some ⟨30,[.setEnt .internalNl,.emb (.cb 1),.comment],none,false⟩⟩,⟨256,.ff,false,some ⟨33,[.setEnt .internalNl,.emb (.cb 1)],none,false⟩⟩,⟨256,.cr,false,some ⟨34,[.setEnt .internalNl,.emb (.cb 1)],none,false⟩⟩,⟨256,.cr,true,some ⟨35,[.setEnt .internalNl,.emb (.cb 1)],none,false⟩⟩,⟨256,.other,false,some ⟨36,[.setEnt .internalNl,.emb (.cb 1),.comment],none,false⟩⟩]⟩,⟨[3],none,[],[⟨256,.other,false,none⟩,⟨256,.ws,false,none⟩,⟨256,.lf,false,none⟩,⟨256,.vt,false,none⟩,⟨256,.ff,false,none⟩,⟨256,.cr,false,none⟩,⟨256,.cr,true,none⟩,⟨256,.other,false,some ⟨41,[],none,false⟩⟩]⟩,⟨[4],none,[],[⟨256,.other,false,none⟩,⟨256,.ws,false,none⟩,⟨256,.lf,false,none⟩,⟨256,.vt,false,none⟩,⟨256,.ff,false,none⟩,⟨256,.cr,false,none⟩,⟨256,.cr,true,none⟩,⟨256,.other,false,some ⟨42,[],none,false⟩⟩]⟩,⟨[5],none,[],[⟨256,.other,false,none⟩,⟨256,.ws,false,none⟩,⟨256,.lf,false,none⟩,⟨256,.vt,false,none⟩,⟨256,.ff,false,none⟩,⟨256,.cr,false,none⟩,⟨256,.cr,true,none⟩,⟨256,.other,false,some ⟨43,[],none,false⟩⟩]⟩,⟨[6],none,[],[⟨256,.other,false,none⟩,⟨256,.ws,false,some ⟨44,[],none,false⟩⟩,⟨256,.lf,false,some ⟨45,[.setEnt .internalNl],none,false⟩⟩,⟨256,.vt,false,none⟩,⟨256,.ff,false,some ⟨46,[.setEnt .internalNl],none,false⟩⟩,⟨256,.cr,false,some ⟨47,[],none,false⟩⟩,⟨256,.cr,true,some ⟨48,[.setEnt .internalNl],none,false⟩⟩,⟨256,.other,false,some ⟨0,[.emb .outry,.code,.emb .back],some 0,true⟩⟩]⟩,⟨[7],none,[],[⟨256,.other,false,none⟩,⟨256,.ws,false,some ⟨44,[],none,false⟩⟩,⟨256,.lf,false,some ⟨45,[.setEnt .internalNl],none,false⟩⟩,⟨256,.vt,false,none⟩,⟨256,.ff,false,some ⟨46,[.setEnt .internalNl],none,false⟩⟩,⟨256,.cr,false,some ⟨47,[],none,false⟩⟩,⟨256,.cr,true,some ⟨48,[.setEnt .internalNl],none,false⟩⟩,⟨256,.other,false,some ⟨0,[.emb .outry,.code,.emb .back],some 0,true⟩⟩]⟩,⟨[10],none,[],[⟨256,.other,false,none⟩,⟨256,.ws,false,some ⟨44,[.cb],none,false⟩⟩,⟨256,.lf,false,some ⟨45,[.setEnt .internalNl,.cb],none,false⟩⟩,⟨256,.vt,false,none⟩,⟨256,.ff,false,some ⟨46,[.setEnt .internalNl,.cb],none,false⟩⟩,⟨256,.cr,false,some ⟨47,[.cb],none,false⟩⟩,⟨256,.cr,true,some ⟨48,[.setEnt .internalNl,.cb],none,false⟩⟩,⟨256,.other,false,some ⟨0,[.cb,.emb .outry,.code,.emb .back],some 0,true⟩⟩]⟩,⟨[11],none,[],[⟨256,.other,false,none⟩,⟨256,.ws,false,some ⟨44,[.cb],none,false⟩⟩,⟨256,.lf,false,some ⟨45,[.setEnt .internalNl,.cb],none,false⟩⟩,⟨256,.vt,false,none⟩,⟨256,.ff,false,some ⟨46,[.setEnt .internalNl,.cb],none,false⟩⟩,⟨256,.cr,false,some ⟨47,[.cb],none,false⟩⟩,⟨256,.cr,true,some ⟨48,[.setEnt .internalNl,.cb],none,false⟩⟩,⟨256,.other,false,some ⟨0,[.cb,.emb .outry,.code,.emb .back],some 0,true⟩⟩]⟩,⟨[8],none,[],[⟨256,.other,false,none⟩,⟨256,.ws,false,none⟩,⟨256,.lf,false,some ⟨49,[.setEnt .internalNl],none,false⟩⟩,⟨256,.vt,false,none⟩,⟨256,.ff,false,none⟩,⟨256,.cr,false,none⟩,⟨256,.cr,true,none⟩]⟩,⟨[8,12],none,[],[⟨256,.other,false,none⟩,⟨256,.ws,false,some ⟨44,[.cb],none,false⟩⟩,⟨256,.lf,false,some ⟨50,[.setEnt .internalNl,.cb],none,false⟩⟩,⟨256,.vt,false,none⟩,⟨256,.ff,false,some ⟨46,[.setEnt .internalNl,.cb],none,false⟩⟩,⟨256,.cr,false,some ⟨47,[.cb],none,false⟩⟩,⟨256,.cr,true,some ⟨48,[.setEnt .internalNl,.cb],none,false⟩⟩,⟨256,.other,false,some ⟨0,[.cb,.emb .outry,.code,.emb .back],some 0,true⟩⟩]⟩,⟨[9],none,[],[⟨256,.other,false,none⟩,⟨256,.ws,false,some ⟨44,[.cb],none,false⟩⟩,⟨256,.lf,false,some ⟨45,[.setEnt .internalNl,.cb],none,false⟩⟩,⟨256,.vt,false,none⟩,⟨256,.ff,false,some ⟨46,[.setEnt .internalNl,.cb],none,false⟩⟩,⟨256,.cr,false,some ⟨47,[.cb],none,false⟩⟩,⟨256,.cr,true,some ⟨48,[.setEnt .internalNl,.cb],none,false⟩⟩,⟨256,.other,false,some ⟨0,[.cb,.emb .outry,.code,.emb .back],some 0,true⟩⟩]⟩,⟨[9,10],none,[],[⟨256,.other,false,none⟩,⟨256,.ws,false,some ⟨44,[.cb],none,false⟩⟩,⟨256,.lf,false,some ⟨45,[.setEnt .internalNl,.cb],none,false⟩⟩,⟨256,.vt,false,none⟩,⟨256,.ff,false,some ⟨46,[.setEnt .internalNl,.cb],none,false⟩⟩,⟨256,.cr,false,some ⟨47,[.cb],none,false⟩⟩,⟨256,.cr,true,some ⟨48,[.setEnt .internalNl,.cb],none,false⟩⟩,⟨256,.other,false,some ⟨0,[.cb,.emb .outry,.code,.emb .back],some 0,true⟩⟩]⟩]
theorem emb0_rowsOk : rowsOk emb0_nfa [] (emb0_cs.map (·.1)) emb0_rows = true := by decide +kernel
def emb0_D : Dfa emb0_nfa := ⟨emb0_masks, [], emb0_cs, emb0_rows, emb0_masksIn, emb0_repOk, emb0_rowsOk⟩
def emb0_maskst : List Nat := [1152921504606846976,4294967808,140737488355328,549755813888,17179869184,8192,1024,4096,115792089237316195423570985008687907853269984665640564039457584007908834656767,41538374877950027585161004031410176,83076749755900055170322008062820352,2658455992188801765450304258010251264,324518553733984590509070343995392,2535301201046754613352112062464,4611686018427387904,4398046511104,115792089237316195423570985008687907853269984665640564039457584007908834658815,115792089237316195423570985008687907853269984665635612279300442486259482348031,4951760157141521099596496896,115792089237316195423570985008687907853269984665640564039457584007913129626623,115792089237316195423570985008687907853269984665635612279300442486792058292735]
def emb0_cst : List (Nat × Nat) := [(0,115792089237316195423570985008687907853267201267464934692415126823891172835839),(9,4294967808),(10,1024),(11,2048),(12,4096),(13,8192),(34,17179869184),(39,549755813888),(42,4398046511104),(47,140737488355328),(60,1152921504606846976),(62,4611686018427387904),(69,2535301201046754613352112062464),(76,324518553733984590509070343995392),(83,41538374877950027585161004031410176),(84,83076749755900055170322008062820352),(89,2658455992188801765450304258010251264),(92,4951760157141521099596496896)]
theorem emb0_masksInt : masksIn emb0_nfa emb0_maskst = true := by decide +kernel
theorem emb0_repOkt : repOk emb0_maskst emb0_cst = true := by decide +kernel
def emb0_rowst : List Row := [⟨[],none,[],[⟨256,.other,false,some ⟨0,[.setEnt (.own 9)],some 5,true⟩⟩,⟨256,.ws,false,some ⟨1,[.setEnt (.own 0)],some 1,false⟩⟩,⟨256,.lf,false,some ⟨0,[.setEnt .newline],some 4,true⟩⟩,⟨256,.vt,false,none⟩,⟨256,.ff,false,some ⟨0,[.setEnt .newline],some 4,true⟩⟩,⟨256,.cr,false,some ⟨2,[.setEnt .newline],none,false⟩⟩,⟨256,.cr,true,some ⟨3,[.setEnt .newline],some 4,false⟩⟩,⟨256,.other,false,some ⟨4,[.code,.setEnt (.own 9)],some 5,false⟩⟩,⟨256,.other,false,some ⟨5,[.code,.setEnt (.own 9)],some 5,false⟩⟩,⟨47,.other,false,some ⟨6,[.setEnt (.own 9)],some 5,false⟩⟩,⟨60,.other,false,some ⟨7,[.setEnt (.own 9)],some 5,false⟩⟩,⟨62,.other,false,some ⟨0,[.setEnt (.own 9)],some 5,true⟩⟩]⟩,⟨[14],some 1,[],[⟨256,.other,false,none⟩,⟨256,.ws,false,some ⟨1,[.setEnt (.own 0)],some 1,false⟩⟩,⟨256,.lf,false,none⟩,⟨256,.vt,false,none⟩,⟨256,.ff,false,none⟩,⟨256,.cr,false,none⟩,⟨256,.cr,true,none⟩,⟨47,.other,false,none⟩,⟨60,.other,false,none⟩,⟨62,.other,false,none⟩]⟩,⟨[48],none,[],[⟨256,.other,false,none⟩,⟨256,.ws,false,none⟩,⟨256,.lf,false,some ⟨0,[.setEnt .newline],some 4,true⟩⟩,⟨256,.vt,false,none⟩,⟨256,.ff,false,none⟩,⟨256,.cr,false,none⟩,⟨256,.cr,true,none⟩,⟨47,.other,false,none⟩,⟨60,.other,false,none⟩,⟨62,.other,false,none⟩]⟩,⟨[48,52],some 4,[],[⟨256,.other,false,none⟩,⟨256,.ws,false,none⟩,⟨256,.lf,false,some ⟨0,[.setEnt .newline],some 4,true⟩⟩,⟨256,.vt,false,none⟩,⟨256,.ff,false,none⟩,⟨256,.cr,false,none⟩,⟨256,.cr,true,none⟩,⟨47,.other,false,none⟩,⟨60,.other,false,none⟩,⟨62,.other,false,none⟩]⟩,⟨[37,53],some 5,[],[⟨256,.other,false,some ⟨8,[.code],none,false⟩⟩,⟨256,.ws,false,some ⟨9,[],none,false⟩⟩,⟨256,.lf,false,some ⟨10,[],none,false⟩⟩,⟨256,.vt,false,some ⟨8,[.code],none,false⟩⟩,⟨256,.ff,false,some ⟨11,[],none,false⟩⟩,⟨256,.cr,false,some ⟨12,[],none,false⟩⟩,⟨256,.cr,true,some ⟨13,[],none,false⟩⟩,⟨256,.other,false,some ⟨0,[],some 3,true⟩⟩,⟨47,.other,false,some ⟨8,[.code],none,false⟩⟩,⟨60,.other,false,some ⟨8,[.code],none,false⟩⟩,⟨62,.other,false,some ⟨8,[.code],none,false⟩⟩,⟨256,.other,false,some ⟨14,[],none,false⟩⟩]⟩,⟨[26,53],some 5,[],[⟨256,.other,false,some ⟨15,[.code],none,false⟩⟩,⟨256,.ws,false,some ⟨16,[],none,false⟩⟩,⟨256,.lf,false,some ⟨17,[],none,false⟩⟩,⟨256,.vt,false,some ⟨15,[.code],none,false⟩⟩,⟨256,.ff,false,some ⟨18,[],none,false⟩⟩,⟨256,.cr,false,some ⟨19,[],none,false⟩⟩,⟨256,.cr,true,some ⟨20,[],none,false⟩⟩,⟨256,.other,false,some ⟨0,[],some 3,true⟩⟩,⟨47,.other,false,some ⟨15,[.code],none,false⟩⟩,⟨60,.other,false,some ⟨15,[.code],none,false⟩⟩,⟨62,.other,false,some ⟨15,[.code],none,false⟩⟩,⟨256,.other,false,some ⟨21,[],none,false⟩⟩]⟩,⟨[15,53],some 5,[],[⟨256,.other,false,none⟩,⟨256,.ws,false,none⟩,⟨256,.lf,false,none⟩,⟨256,.vt,false,none⟩,⟨256,.ff,false,none⟩,⟨256,.cr,false,none⟩,⟨256,.cr,true,none⟩,⟨256,.other,false,some ⟨22,[.comment],none,false⟩⟩,⟨47,.other,false,none⟩,⟨60,.other,false,none⟩,⟨62,.other,false,none⟩]⟩,⟨[0,53],some 5,[],[⟨256,.other,false,none⟩,⟨256,.ws,false,none⟩,⟨256,.lf,false,none⟩,⟨256,.vt,false,none⟩,⟨256,.ff,false,none⟩,⟨256,.cr,false,none⟩,⟨256,.cr,true,none⟩,⟨47,.other,false,some ⟨23,[],none,false⟩⟩,⟨60,.other,false,none⟩,⟨62,.other,false,none⟩]⟩,⟨[44],none,[],[⟨256,.other,false,some ⟨8,[.code],none,false⟩⟩,⟨256,.ws,false,some ⟨9,[],none,false⟩⟩,⟨256,.lf,false,some ⟨10,[],none,false⟩⟩,⟨256,.vt,false,some ⟨8,[.code],none,false⟩⟩,⟨256,.ff,false,some ⟨11,[],none,false⟩⟩,⟨256,.cr,false,some ⟨12,[],none,false⟩⟩,⟨256,.cr,true,some ⟨13,[],none,false⟩⟩,⟨256,.other,false,some ⟨0,[],some 3,true⟩⟩,⟨47,.other,false,some ⟨8,[.code],none,false⟩⟩,⟨60,.other,false,some ⟨8,[.code],none,false⟩⟩,⟨62,.other,false,some ⟨8,[.code],none,false⟩⟩,⟨256,.other,false,some ⟨14,[],none,false⟩⟩]⟩,⟨[43],none,[],[⟨256,.other,false,some ⟨8,[.code],none,false⟩⟩,⟨256,.ws,false,some ⟨9,[],none,false⟩⟩,⟨256,.lf,false,some ⟨10,[],none,false⟩⟩,⟨256,.vt,false,some ⟨8,[.code],none,false⟩⟩,⟨256,.ff,false,some ⟨11,[],none,false⟩⟩,⟨256,.cr,false,some ⟨12,[],none,false⟩⟩,⟨256,.cr,true,some ⟨13,[],none,false⟩⟩,⟨256,.other,false,some ⟨0,[],some 3,true⟩⟩,⟨47,.other,false,some ⟨8,[.code],none,false⟩⟩,⟨60,.other,false,some ⟨8,[.code],none,false⟩⟩,⟨62,.other,false,some ⟨8,[.code],none,false⟩⟩,⟨256,.other,false,some ⟨14,[],none,false⟩⟩]⟩,⟨[40],none,[],[⟨256,.other,false,some ⟨8,[.setEnt .internalNl,.emb (.cb 1),.code],none,false⟩⟩,⟨256,.ws,false,some ⟨9,[.setEnt .internalNl,.emb (.cb 1)],none,false⟩⟩,⟨256,.lf,false,some ⟨10,[.setEnt .internalNl,.emb (.cb 1)],none,false⟩⟩,⟨256,.vt,false,some ⟨8,[.setEnt .internalNl,.emb (.cb 1),.code],none,false⟩⟩,⟨256,.ff,false,some ⟨11,[.setEnt .internalNl,.emb (.cb 1)],none,false⟩⟩,⟨256,.cr,false,some ⟨12,[.setEnt .internalNl,.emb (.cb 1)],none,false⟩⟩,⟨256,.cr,true,some ⟨13,[.setEnt .internalNl,.emb (.cb 1)],none,false⟩⟩,⟨256,.other,false,some ⟨0,[.setEnt .internalNl,.emb (.cb 1)],some 3,true⟩⟩,⟨47,.other,false,some ⟨8,[.setEnt .internalNl,.emb (.cb 1),.code],none,false⟩⟩,⟨60,.other,false,some ⟨8,[.setEnt .internalNl,.emb (.cb 1),.code],none,false⟩⟩,⟨62,.other,false,some ⟨8,[.setEnt .internalNl,.emb (.cb 1),.code],none,false⟩⟩,⟨256,.other,false,some ⟨14,[.setEnt .internalNl,.emb (.cb 1)],none,false⟩⟩]⟩,⟨[41],none,[],[⟨256,.other,false,some ⟨8,[.setEnt .internalNl,.emb (.cb 1),.code],none,false⟩⟩,⟨256,.ws,false,some ⟨9,[.setEnt .internalNl,.emb (.cb 1)],none,false⟩⟩,⟨256,.lf,false,some ⟨10,[.setEnt .internalNl,.emb (.cb 1)],none,false⟩⟩,⟨256,.vt,false,some ⟨8,[.setEnt .internalNl,.emb (.cb 1),.code],none,false⟩⟩,⟨256,.ff,false,some ⟨11,[.setEnt .internalNl,.emb (.cb 1)],none,false⟩⟩,⟨256,.cr,false,some ⟨12,[.setEnt .internalNl,.emb (.cb 1)],none,false⟩⟩,⟨256,.cr,true,some ⟨13,[.setEnt .internalNl,.emb (.cb 1)],none,false⟩⟩,⟨256,.other,false,some ⟨0,[.setEnt .internalNl,.emb (.cb 1)],some 3,true⟩⟩,⟨47,.other,false,some ⟨8,[.setEnt .internalNl,.emb (.cb 1),.code],none,false⟩⟩,⟨60,.other,false,some ⟨8,[.setEnt .internalNl,.emb (.cb 1),.code],none,false⟩⟩,⟨62,.other,false,some ⟨8,[.setEnt .internalNl,.emb (.cb 1),.code],none,false⟩⟩,⟨256,.other,false,some ⟨14,[.setEnt .internalNl,.emb (.cb 1)],none,false⟩⟩]⟩,⟨[38],none,[],[⟨256,.other,false,none⟩,⟨256,.ws,false,none⟩,⟨256,.lf,false,some ⟨24,[],none,false⟩⟩,⟨256,.vt,false,none⟩,⟨256,.ff,false,none⟩,⟨256,.cr,false,none⟩,⟨256,.cr,true,none⟩,⟨47,.other,false,none⟩,⟨60,.other,false,none⟩,⟨62,.other,false,none⟩]⟩,⟨[38,42],none,[],[⟨256,.other,false,some ⟨8,[.setEnt .internalNl,.emb (.cb 1),.code],none,false⟩⟩,⟨256,.ws,false,some ⟨9,[.setEnt .internalNl,.emb (.cb 1)],none,false⟩⟩,⟨256,.lf,false,some ⟨25,[.setEnt .internalNl,.emb (.cb 1)],none,false⟩⟩,⟨256,.vt,false,some ⟨8,[.setEnt .internalNl,.emb (.cb 1),.code],none,false⟩⟩,⟨256,.ff,false,some ⟨11,[.setEnt .internalNl,.emb (.cb 1)],none,false⟩⟩,⟨256,.cr,false,some ⟨12,[.setEnt .internalNl,.emb (.cb 1)],none,false⟩⟩,⟨256,.cr,true,some ⟨13,[.setEnt .internalNl,.emb (.cb 1)],none,false⟩⟩,⟨256,.other,false,some ⟨0,[.setEnt .internalNl,.emb (.cb 1)],some 3,true⟩⟩,⟨47,.other,false,some ⟨8,[.setEnt .internalNl,.emb (.cb 1),.code],none,false⟩⟩,⟨60,.other,false,some ⟨8,[.setEnt .internalNl,.emb (.cb 1),.code],none,false⟩⟩,⟨62,.other,false,some ⟨8,[.setEnt .internalNl,.emb (.cb 1),.code],none,false⟩⟩,⟨256,.other,false,some ⟨14,[.setEnt .internalNl,.emb (.cb 1)],none,false⟩⟩]⟩,⟨[45],none,[],[⟨256,.other,false,some ⟨26,[.code],none,false⟩⟩,⟨256,.ws,false,some ⟨26,[.code],none,false⟩⟩,⟨256,.lf,false,none⟩,⟨256,.vt,false,some ⟨26,[.code],none,false⟩⟩,⟨256,.ff,false,none⟩,⟨256,.cr,false,none⟩,⟨256,.cr,true,none⟩,⟨47,.other,false,some ⟨26,[.code],none,false⟩⟩,⟨60,.other,false,some ⟨26,[.code],none,false⟩⟩,⟨62,.other,false,some ⟨26,[.code],none,false⟩⟩]⟩,⟨[33],none,[],[⟨256,.other,false,some ⟨15,[.code],none,false⟩⟩,⟨256,.ws,false,some ⟨16,[],none,false⟩⟩,⟨256,.lf,false,some ⟨17,[],none,false⟩⟩,⟨256,.vt,false,some ⟨15,[.code],none,false⟩⟩,⟨256,.ff,false,some ⟨18,[],none,false⟩⟩,⟨256,.cr,false,some ⟨19,[],none,false⟩⟩,⟨256,.cr,true,some ⟨20,[],none,false⟩⟩,⟨256,.other,false,some ⟨0,[],some 3,true⟩⟩,⟨47,.other,false,some ⟨15,[.code],none,false⟩⟩,⟨60,.other,false,some ⟨15,[.code],none,false⟩⟩,⟨62,.other,false,some ⟨15,[.code],none,false⟩⟩,⟨256,.other,false,some ⟨21,[],none,false⟩⟩]⟩,⟨[32],none,[],[⟨256,.other,false,some ⟨15,[.code],none,false⟩⟩,⟨256,.ws,false,some ⟨16,[],none,false⟩⟩,⟨256,.lf,false,some ⟨17,[],none,false⟩⟩,⟨256,.vt,false,some ⟨15,[.code],none,false⟩⟩,⟨256,.ff,false,some ⟨18,[],none,false⟩⟩,⟨256,.cr,false,some ⟨19,[],none,false⟩⟩,⟨256,.cr,true,some ⟨20,[],none,false⟩⟩,⟨256,.other,false,some ⟨0,[],some 3,true⟩⟩,⟨47,.other,false,some ⟨15,[.code],none,false⟩⟩,⟨60,.other,false,some ⟨15,[.code],none,false⟩⟩,⟨62,.other,false,some ⟨15,[.code],none,false⟩⟩,⟨256,.other,false,some ⟨21,[],none,false⟩⟩]⟩,⟨[29],none,[],[⟨256,.other,false,some ⟨15,[.setEnt .internalNl,.emb (.cb 1),.code],none,false⟩⟩,⟨256,.ws,false,some ⟨16,[.setEnt .internalNl,.emb (.cb 1)],none,false⟩⟩,⟨256,.lf,false,some ⟨17,[.setEnt .internalNl,.emb (.cb 1)],none,false⟩⟩,⟨256,.vt,false,some ⟨15,[.setEnt .internalNl,.emb (.cb 1),.code],none,false⟩⟩,⟨256,.ff,false,some ⟨18,[.setEnt .internalNl,.emb (.cb 1)],none,false⟩⟩,⟨256,.cr,false,some ⟨19,[.setEnt .internalNl,.emb (.cb 1)],none,false⟩⟩,⟨256,.cr,true,some ⟨20,[.setEnt .internalNl,.emb (.cb 1)],none,false⟩⟩,⟨256,.other,false,some ⟨0,[.setEnt .internalNl,.emb (.cb 1)],some 3,true⟩⟩,⟨47,.other,false,some ⟨15,[.setEnt .internalNl,.emb (.cb 1),.code],none,false⟩⟩,⟨60,.other,false,some ⟨15,[.setEnt .internalNl,.emb (.cb 1),.code],none,false⟩⟩,⟨62,.other,false,some ⟨15,[.setEnt .internalNl,.emb (.cb 1),.code],none,false⟩⟩,⟨256,.other,false,some ⟨21,[.setEnt .internalNl,.emb (.cb 1)],none,false⟩⟩]⟩,⟨[30],none,[],[⟨256,.other,false,some ⟨15,[.setEnt .internalNl,.emb (.cb 1),.code],none,false⟩⟩,⟨256,.ws,false,some ⟨16,[.setEnt .internalNl,.emb (.cb 1)],none,false⟩⟩,⟨256,.lf,false,some ⟨17,[.setEnt .internalNl,.emb (.cb 1)],none,false⟩⟩,⟨256,.vt,false,some ⟨15,[.setEnt .internalNl,.emb (.cb 1),.code],none,false⟩⟩,⟨256,.ff,false,some ⟨18,[.setEnt .internalNl,.emb (.cb 1)],none,false⟩⟩,⟨256,.cr,false,some ⟨19,[.setEnt .internalNl,.emb (.cb 1)],none,false⟩⟩,⟨256,.cr,true,some ⟨20,[.setEnt .internalNl,.emb (.cb 1)],none,false⟩⟩,⟨256,.other,false,some ⟨0,[.setEnt .internalNl,.emb (.cb 1)],some 3,true⟩⟩,⟨47,.other,false,some ⟨15,[.setEnt .internalNl,.emb (.cb 1),.code],none,false⟩⟩,⟨60,.other,false,some ⟨15,[.setEnt .internalNl,.emb (.cb 1),.code],none,false⟩⟩,⟨62,.other,false,some ⟨15,[.setEnt .internalNl,.emb (.cb 1),.code],none,false⟩⟩,⟨256,.other,false,some ⟨21,[.setEnt .internalNl,.emb (.cb 1)],none,false⟩⟩]⟩,⟨[27],none,[],[⟨256,.other,false,none⟩,⟨256,.ws,false,none⟩,⟨256,.lf,false,some ⟨27,[],none,false⟩⟩,⟨256,.vt,false,none⟩,⟨256,.ff,false,none⟩,⟨256,.cr,false,none⟩,⟨256,.cr,true,none⟩,⟨47,.other,false,none⟩,⟨60,.other,false,none⟩,⟨62,.other,false,none⟩]⟩,⟨[27,31],none,[],[⟨256,.other,false,some ⟨15,[.setEnt .internalNl,.emb (.cb 1),.code],none,false⟩⟩,⟨256,.ws,false,some ⟨16,[.setEnt .internalNl,.emb (.cb 1)],none,false⟩⟩,⟨256,.lf,false,some ⟨28,[.setEnt .internalNl,.emb (.cb 1)],none,false⟩⟩,⟨256,.vt,false,some ⟨15,[.setEnt .internalNl,.emb (.cb 1),.code],none,false⟩⟩,⟨256,.ff,false,some ⟨18,[.setEnt .internalNl,.emb (.cb 1)],none,false⟩⟩,⟨256,.cr,false,some ⟨19,[.setEnt .internalNl,.emb (.cb 1)],none,false⟩⟩,⟨256,.cr,true,some ⟨20,[.setEnt .internalNl,.emb (.cb 1)],none,false⟩⟩,⟨256,.other,false,some ⟨0,[.setEnt .internalNl,.emb (.cb 1)],some 3,true⟩⟩,⟨47,.other,false,some ⟨15,[.setEnt .internalNl,.emb (.cb 1),.code],none,false⟩⟩,⟨60,.other,false,some ⟨15,[.setEnt .internalNl,.emb (.cb 1),.code],none,false⟩⟩,⟨62,.other,false,some ⟨15,[.setEnt .internalNl,.emb (.cb 1),.code],none,false⟩⟩,⟨256,.other,false,some ⟨21,[.setEnt .internalNl,.emb (.cb 1)],none,false⟩⟩]⟩,⟨[34],none,[],[⟨256,.other,false,some ⟨29,[.code],none,false⟩⟩,⟨256,.ws,false,some ⟨29,[.code],none,false⟩⟩,⟨256,.lf,false,none⟩,⟨256,.vt,false,some ⟨29,[.code],none,false⟩⟩,⟨256,.ff,false,none⟩,⟨256,.cr,false,none⟩,⟨256,.cr,true,none⟩,⟨47,.other,false,some ⟨29,[.code],none,false⟩⟩,⟨60,.other,false,some ⟨29,[.code],none,false⟩⟩,⟨62,.other,false,some ⟨29,[.code],none,false⟩⟩]⟩,⟨[16],none,[],[⟨256,.other,false,some ⟨30,[.comment],none,false⟩⟩,⟨256,.ws,false,some ⟨31,[],none,false⟩⟩,⟨256,.lf,false,some ⟨32,[],none,false⟩⟩,⟨256,.vt,false,some ⟨30,[.comment],none,false⟩⟩,⟨256,.ff,false,some ⟨33,[],none,false⟩⟩,⟨256,.cr,false,some ⟨34,[],none,false⟩⟩,⟨256,.cr,true,some ⟨35,[],none,false⟩⟩,⟨256,.other,false,some ⟨36,[.comment],none,false⟩⟩,⟨47,.other,false,some ⟨30,[.comment],none,false⟩⟩,⟨60,.other,false,some ⟨30,[.comment],none,false⟩⟩,⟨62,.other,false,some ⟨30,[.comment],none,false⟩⟩]⟩,⟨[1],none,[],[⟨256,.other,false,none⟩,⟨256,.ws,false,none⟩,⟨256,.lf,false,none⟩,⟨256,.vt,false,none⟩,⟨256,.ff,false,none⟩,⟨256,.cr,false,none⟩,⟨256,.cr,true,none⟩,⟨47,.other,false,none⟩,⟨60,.other,false,none⟩,⟨62,.other,false,none⟩,⟨256,.other,false,some ⟨37,[],none,false⟩⟩]⟩,⟨[39],none,[],[⟨256,.other,false,some ⟨8,[.setEnt .internalNl,.emb (.cb 1),.code],none,false⟩⟩,⟨256,.ws,false,some ⟨9,[.setEnt .internalNl,.emb (.cb 1)],none,false⟩⟩,⟨256,.lf,false,some ⟨10,[.setEnt .internalNl,.emb (.cb 1)],none,false⟩⟩,⟨256,.vt,false,some ⟨8,[.setEnt .internalNl,.emb (.cb 1),.code],none,false⟩⟩,⟨256,.ff,false,some ⟨11,[.setEnt .internalNl,.emb (.cb 1)],none,false⟩⟩,⟨256,.cr,false,some ⟨12,[.setEnt .internalNl,.emb (.cb 1)],none,false⟩⟩,⟨256,.cr,true,some ⟨13,[.setEnt .internalNl,.emb (.cb 1)],none,false⟩⟩,⟨256,.other,false,some ⟨0,[.setEnt .internalNl,.emb (.cb 1)],some 3,true⟩⟩,⟨47,.other,false,some ⟨8,[.setEnt .internalNl,.emb (.cb 1),.code],none,false⟩⟩,⟨60,.other,false,some ⟨8,[.setEnt .internalNl,.emb (.cb 1),.code],none,false⟩⟩,⟨62,.other,false,some ⟨8,[.setEnt .internalNl,.emb (.cb 1),.code],none,false⟩⟩,⟨256,.other,false,some ⟨14,[.setEnt .internalNl,.emb (.cb 1)],none,false⟩⟩]⟩,⟨[39,40],none,[],[⟨256,.other,false,some ⟨8,[.setEnt .internalNl,.emb (.cb 1),.code],none,false⟩⟩,⟨256,.ws,false,some ⟨9,[.setEnt .internalNl,.emb (.cb 1)],none,false⟩⟩,⟨256,.lf,false,some ⟨10,[.setEnt .internalNl,.emb (.cb 1)],none,false⟩⟩,⟨256,.vt,false,some ⟨8,[.setEnt .internalNl,.emb (.cb 1),.code],none,false⟩⟩,⟨256,.ff,false,some ⟨11,[.setEnt .internalNl,.emb (.cb 1)],none,false⟩⟩,⟨256,.cr,false,some ⟨12,[.setEnt .internalNl,.emb (.cb 1)],none,false⟩⟩,⟨256,.cr,true,some ⟨13,[.setEnt .internalNl,.emb (.cb 1)],none,false⟩⟩,⟨256,.other,false,some ⟨0,[.setEnt .internalNl,.emb (.cb 1)],some 3,true⟩⟩,⟨47,.other,false,some ⟨8,[.setEnt .internalNl,.emb (.cb 1),.code],none,false⟩⟩,⟨60,.other,false,some ⟨8,[.setEnt .internalNl,.emb (.cb 1),.code],none,false⟩⟩,⟨62,.other,false,some ⟨8,[.setEnt .internalNl,.emb (.cb 1),.code],none,false⟩⟩,⟨256,.other,false,some ⟨14,[.setEnt .internalNl,.emb (.cb 1)],none,false⟩⟩]⟩,⟨[46],none,[],[⟨256,.other,false,some ⟨8,[.code],none,false⟩⟩,⟨256,.ws,false,some ⟨9,[],none,false⟩⟩,⟨256,.lf,false,some ⟨10,[],none,false⟩⟩,⟨256,.vt,false,some ⟨8,[.code],none,false⟩⟩,⟨256,.ff,false,some ⟨11,[],none,false⟩⟩,⟨256,.cr,false,some ⟨12,[],none,false⟩⟩,⟨256,.cr,true,some ⟨13,[],none,false⟩⟩,⟨256,.other,false,some ⟨0,[],some 3,true⟩⟩,⟨47,.other,false,some ⟨8,[.code],none,false⟩⟩,⟨60,.other,false,some ⟨8,[.code],none,false⟩⟩,⟨62,.other,false,some ⟨8,[.code],none,false⟩⟩,⟨256,.other,false,some ⟨14,[],none,false⟩⟩]⟩,⟨[28],none,[],[⟨256,.other,false,some ⟨15,[.setEnt .internalNl,.emb (.cb 1),.code],none,false⟩⟩,⟨256,.ws,false,some ⟨16,[.setEnt .internalNl,.emb (.cb 1)],none,false⟩⟩,⟨256,.lf,false,some ⟨17,[.setEnt .internalNl,.emb (.cb 1)],none,false⟩⟩,⟨256,.vt,false,some ⟨15,[.setEnt .internalNl,.emb (.cb 1),.code],none,false⟩⟩,⟨256,.ff,false,some ⟨18,[.setEnt .internalNl,.emb (.cb 1)],none,false⟩⟩,⟨256,.cr,false,some ⟨19,[.setEnt .internalNl,.emb (.cb 1)],none,false⟩⟩,⟨256,.cr,true,some ⟨20,[.setEnt .internalNl,.emb (.cb 1)],none,false⟩⟩,⟨256,.other,false,some ⟨0,[.setEnt .internalNl,.emb (.cb 1)],some 3,true⟩⟩,⟨47,.other,false,some ⟨15,[.setEnt .internalNl,.emb (.cb 1),.code],none,false⟩⟩,⟨60,.other,false,some ⟨15,[.setEnt .internalNl,.emb (.cb 1),.code],none,false⟩⟩,⟨62,.other,false,some ⟨15,[.setEnt .internalNl,.emb (.cb 1),.code],none,false⟩⟩,⟨256,.other,false,some ⟨21,[.setEnt .internalNl,.emb (.cb 1)],none,false⟩⟩]⟩,⟨[28,29],none,[],[⟨256,.other,false,some ⟨15,[.setEnt .internalNl,.emb (.cb 1),.code],none,false⟩⟩,⟨256,.ws,false,some ⟨16,[.setEnt .internalNl,.emb (.cb 1)],none,false⟩⟩,⟨256,.lf,false,some ⟨17,[.setEnt .internalNl,.emb (.cb 1)],none,false⟩⟩,⟨256,.vt,false,some ⟨15,[.setEnt .internalNl,.emb (.cb 1),.code],none,false⟩⟩,⟨256,.ff,false,some ⟨18,[.setEnt .internalNl,.emb (.cb 1)],none,false⟩⟩,⟨256,.cr,false,some ⟨19,[.setEnt .internalNl,.emb (.cb 1)],none,false⟩⟩,⟨256,.cr,true,some ⟨20,[.setEnt .internalNl,.emb (.cb 1)],none,false⟩⟩,⟨256,.other,false,some ⟨0,[.setEnt .internalNl,.emb (.cb 1)],some 3,true⟩⟩,⟨47,.other,false,some ⟨15,[.setEnt .internalNl,.emb (.cb 1),.code],none,false⟩⟩,⟨60,.other,false,some ⟨15,[.setEnt .internalNl,.emb (.cb 1),.code],none,false⟩⟩,⟨62,.other,false,some ⟨15,[.setEnt .internalNl,.emb (.cb 1),.code],none,false⟩⟩,⟨256,.other,false,some ⟨21,[.setEnt .internalNl,.emb (.cb 1)],none,false⟩⟩]⟩,⟨[35],none,[],[⟨256,.other,false,some ⟨15,[.code],none,false⟩⟩,⟨256,.ws,false,some ⟨16,[],none,false⟩⟩,⟨256,.lf,false,some ⟨17,[],none,false⟩⟩,⟨256,.vt,false,some ⟨15,[.code],none,false⟩⟩,⟨256,.ff,false,some ⟨18,[],none,false⟩⟩,⟨256,.cr,false,some ⟨19,[],none,false⟩⟩,⟨256,.cr,true,some ⟨20,[],none,false⟩⟩,⟨256,.other,false,some ⟨0,[],some 3,true⟩⟩,⟨47,.other,false,some ⟨15,[.code],none,false⟩⟩,⟨60,.other,false,some ⟨15,[.code],none,false⟩⟩,⟨62,.other,false,some ⟨15,[.code],none,false⟩⟩,⟨256,.other,false,some ⟨21,[],none,false⟩⟩]⟩,⟨[23],none,[],[⟨256,.other,false,some ⟨30,[.comment],none,false⟩⟩,⟨256,.ws,false,some ⟨31,[],none,false⟩⟩,⟨256,.lf,false,some ⟨32,[],none,false⟩⟩,⟨256,.vt,false,some ⟨30,[.comment],none,false⟩⟩,⟨256,.ff,false,some ⟨33,[],none,false⟩⟩,⟨256,.cr,false,some ⟨34,[],none,false⟩⟩,⟨256,.cr,true,some ⟨35,[],none,false⟩⟩,⟨256,.other,false,some ⟨36,[.comment],none,false⟩⟩,⟨47,.other,false,some ⟨30,[.comment],none,false⟩⟩,⟨60,.other,false,some ⟨30,[.comment],none,false⟩⟩,⟨62,.other,false,some ⟨30,[.comment],none,false⟩⟩]⟩,⟨[22],none,[],[⟨256,.other,false,some ⟨30,[.comment],none,false⟩⟩,⟨256,.ws,false,some ⟨31,[],none,false⟩⟩,⟨256,.lf,false,some ⟨32,[],none,false⟩⟩,⟨256,.vt,false,some ⟨30,[.comment],none,false⟩⟩,⟨256,.ff,false,some ⟨33,[],none,false⟩⟩,⟨256,.cr,false,some ⟨34,[],none,false⟩⟩,⟨256,.cr,true,some ⟨35,[],none,false⟩⟩,⟨256,.other,false,some ⟨36,[.comment],none,false⟩⟩,⟨47,.other,false,some ⟨30,[.comment],none,false⟩⟩,⟨60,.other,false,some ⟨30,[.comment],none,false⟩⟩,⟨62,.other,false,some ⟨30,[.comment],none,false⟩⟩]⟩,⟨[19],none,[],[⟨256,.other,false,some ⟨30,[.setEnt .internalNl,.emb (.cb 1),.comment],none,false⟩⟩,⟨256,.ws,false,some ⟨31,[.setEnt .internalNl,.emb (.cb 1)],none,false⟩⟩,⟨256,.lf,false,some ⟨32,[.setEnt .internalNl,.emb (.cb 1)],none,false⟩⟩,⟨256,.vt,false,some ⟨30,[.setEnt .internalNl,.emb (.cb 1),.comment],none,false⟩⟩,⟨256,.ff,false,some ⟨33,[.setEnt .internalNl,.emb (.cb 1)],none,false⟩⟩,⟨256,.cr,false,some ⟨34,[.setEnt .internalNl,.emb (.cb 1)],none,false⟩⟩,⟨256,.cr,true,some ⟨35,[.setEnt .internalNl,.emb (.cb 1)],none,false⟩⟩,⟨256,.other,false,some ⟨36,[.setEnt .internalNl,.emb (.cb 1),.comment],none,false⟩⟩,⟨47,.other,false,some ⟨30,[.setEnt .internalNl,.emb (.cb 1),.comment],none,false⟩⟩,⟨60,.other,false,some ⟨30,[.setEnt .internalNl,.emb (.cb 1),.comment],none,false⟩⟩,⟨62,.other,false,some ⟨30,[.setEnt .internalNl,.emb (.cb 1),.comment],none,false⟩⟩]⟩,⟨[20],none,[],[⟨256,.other,false,some ⟨30,[.setEnt .internalNl,.emb (.cb 1),.comment],none,false⟩⟩,⟨256,.ws,false,some ⟨31,[.setEnt .internalNl,.emb (.cb 1)],none,false⟩⟩,⟨256,.lf,false,some ⟨32,[.setEnt .internalNl,.emb (.cb 1)],none,false⟩⟩,⟨256,.vt,false,some ⟨30,[.setEnt .internalNl,.emb (.cb 1),.comment],none,false⟩⟩,⟨256,.ff,false,some ⟨33,[.setEnt .internalNl,.emb (.cb 1)],none,false⟩⟩,⟨256,.cr,false,some ⟨34,[.setEnt .internalNl,.emb (.cb 1)],none,false⟩⟩,⟨256,.cr,true,some ⟨35,[.setEnt .internalNl,.emb (.cb 1)],none,false⟩⟩,⟨256,.other,false,some ⟨36,[.setEnt .internalNl,.emb (.cb 1),.comment],none,false⟩⟩,⟨47,.other,false,some ⟨30,[.setEnt .internalNl,.emb (.cb 1),.comment],none,false⟩⟩,⟨60,.other,false,some ⟨30,[.setEnt .internalNl,.emb (.cb 1),.comment],none,false⟩⟩,⟨62,.other,false,some ⟨30,[.setEnt .internalNl,.emb (.cb 1),.comment],none,false⟩⟩]⟩,⟨[17],none,[],[⟨256,.other,false,none⟩,⟨256,.ws,false,none⟩,⟨256,.lf,false,some ⟨38,[],none,false⟩⟩,⟨256,.vt,false,none⟩,⟨256,.ff,false,none⟩,⟨256,.cr,false,none⟩,⟨256,.cr,true,none⟩,⟨47,.other,false,none⟩,⟨60,.other,false,none⟩,⟨62,.other,false,none⟩]⟩,⟨[17,21],none,[],[⟨256,.other,false,some ⟨30,[.setEnt .internalNl,.emb (.cb 1),.comment],none,false⟩⟩,⟨256,.ws,false,some ⟨31,[.setEnt .internalNl,.emb (.cb 1)],none,false⟩⟩,⟨256,.lf,false,some ⟨39,[.setEnt .internalNl,.emb (.cb 1)],none,false⟩⟩,⟨256,.vt,false,some ⟨30,[.setEnt .internalNl,.emb (.cb 1),.comment],none,false⟩⟩,⟨256,.ff,false,some ⟨33,[.setEnt .internalNl,.emb (.cb 1)],none,false⟩⟩,⟨256,.cr,false,some ⟨34,[.setEnt .internalNl,.emb (.cb 1)],none,false⟩⟩,⟨256,.cr,true,some ⟨35,[.setEnt .internalNl,.emb (.cb 1)],none,false⟩⟩,⟨256,.other,false,some ⟨36,[.setEnt .internalNl,.emb (.cb 1),.comment],none,false⟩⟩,⟨47,.other,false,some ⟨30,[.setEnt .internalNl,.emb (.cb 1),.comment],none,false⟩⟩,⟨60,.other,false,some ⟨30,[.setEnt .internalNl,.emb (.cb 1),.comment],none,false⟩⟩,⟨62,.other,false,some ⟨30,[.setEnt .internalNl,.emb (.cb 1),.comment],none,false⟩⟩]⟩,⟨[23,24],none,[],[⟨256,.other,false,some ⟨30,[.comment],none,false⟩⟩,⟨256,.ws,false,some ⟨31,[],none,false⟩⟩,⟨256,.lf,false,some ⟨32,[],none,false⟩⟩,⟨256,.vt,false,some ⟨30,[.comment],none,false⟩⟩,⟨256,.ff,false,some ⟨33,[],none,false⟩⟩,⟨256,.cr,false,some ⟨34,[],none,false⟩⟩,⟨256,.cr,true,some ⟨35,[],none,false⟩⟩,⟨256,.other,false,some ⟨36,[.comment],none,false⟩⟩,⟨47,.other,false,some ⟨0,[],some 2,true⟩⟩,⟨60,.other,false,some ⟨30,[.comment],none,false⟩⟩,⟨62,.other,false,some ⟨30,[.comment],none,false⟩⟩]⟩,⟨[2],none,[],[⟨256,.other,false,none⟩,⟨256,.ws,false,none⟩,⟨256,.lf,false,none⟩,⟨256,.vt,false,none⟩,⟨256,.ff,false,none⟩,⟨256,.cr,false,none⟩,⟨256,.cr,true,none⟩,⟨47,.other,false,none⟩,⟨60,.other,false,none⟩,⟨62,.other,false,none⟩,⟨256,.other,false,some ⟨40,[],none,false⟩⟩]⟩,⟨[18],none,[],[⟨256,.other,false,some ⟨30,[.setEnt .internalNl,.emb (.cb 1),.comment],none,false⟩⟩,⟨256,.ws,false,some ⟨31,[.setEnt .internalNl,.emb (.cb 1)],none,false⟩⟩,⟨256,.lf,false,some ⟨32,[.setEnt .internalNl,.emb (.cb 1)],none,false⟩⟩,⟨256,.vt,false,some ⟨30,[.setEnt .internalNl,.emb (.cb 1),.comment],none,false⟩⟩,⟨256,.ff,false,some ⟨33,[.setEnt .internalNl,.emb (.cb 1)],none,false⟩⟩,⟨256,.cr,false,some ⟨34,[.setEnt .internalNl,.emb (.cb 1)],none,false⟩⟩,⟨256,.cr,true,some ⟨35,[.setEnt .internalNl,.emb (.cb 1)],none,false⟩⟩,⟨256,.other,false,some ⟨36,[.setEnt .internalNl,.emb (.cb 1),.comment],none,false⟩⟩,⟨47,.other,false,some ⟨30,[.setEnt .internalNl,.emb (.cb 1),.comment],none,false⟩⟩,⟨60,.other,false,some ⟨30,[.setEnt .internalNl,.emb (.cb 1),.comment],none,false⟩⟩,⟨62,.other,false,some ⟨30,[.setEnt .internalNl,.emb (.cb 1),.comment],none,false⟩⟩]⟩,⟨[18,19],none,[],[⟨256,.other,false,some ⟨30,[.setEnt .internalNl,.emb (.cb 1),.comment],none,false⟩⟩,⟨256,.ws,false,some ⟨31,[.setEnt .internalNl,.emb (.cb 1)],none,false⟩⟩,⟨256,.lf,false,some ⟨32,[.setEnt .internalNl,.emb (.cb 1)],none,false⟩⟩,⟨256,.vt,false,some ⟨30,[.setEnt .internalNl,.emb (.cb 1),.comment],none,false⟩⟩,⟨256,.ff,false,some ⟨33,[.setEnt .internalNl,.emb (.cb 1)],none,false⟩⟩,⟨256,.cr,false,some ⟨34,[.setEnt .internalNl,.emb (.cb 1)],none,false⟩⟩,⟨256,.cr,true,some ⟨35,[.setEnt .internalNl,.emb (.cb 1)],none,false⟩⟩,⟨256,.other,false,some ⟨36,[.setEnt .internalNl,.emb (.cb 1),.comment],none,false⟩⟩,⟨47,.other,false,some ⟨30,[.setEnt .internalNl,.emb (.cb 1),.comment],none,false⟩⟩,⟨60,.other,false,some ⟨30,[.setEnt .internalNl,.emb (.cb 1),.comment],none,false⟩⟩,⟨62,.other,false,some ⟨30,[.setEnt .internalNl,.emb (.cb 1),.comment],none,false⟩⟩]⟩,⟨[3],none,[],[⟨256,.other,false,none⟩,⟨256,.ws,false,none⟩,⟨256,.lf,false,none⟩,⟨256,.vt,false,none⟩,⟨256,.ff,false,none⟩,⟨256,.cr,false,none⟩,⟨256,.cr,true,none⟩,⟨47,.other,false,none⟩,⟨60,.other,false,none⟩,⟨62,.other,false,none⟩,⟨256,.other,false,some ⟨41,[],none,false⟩⟩]⟩,⟨[4],none,[],[⟨256,.other,false,none⟩,⟨256,.ws,false,none⟩,⟨256,.lf,false,none⟩,⟨256,.vt,false,none⟩,⟨256,.ff,false,none⟩,⟨256,.cr,false,none⟩,⟨256,.cr,true,none⟩,⟨47,.other,false,none⟩,⟨60,.other,false,none⟩,⟨62,.other,false,none⟩,⟨256,.other,false,some ⟨42,[],none,false⟩⟩]⟩,⟨[5],none,[],[⟨256,.other,false,none⟩,⟨256,.ws,false,none⟩,⟨256,.lf,false,none⟩,⟨256,.vt,false,none⟩,⟨256,.ff,false,none⟩,⟨256,.cr,false,none⟩,⟨256,.cr,true,none⟩,⟨47,.other,false,none⟩,⟨60,.other,false,none⟩,⟨62,.other,false,none⟩,⟨256,.other,false,some ⟨43,[],none,false⟩⟩]⟩,⟨[6],none,[],[⟨256,.other,false,none⟩,⟨256,.ws,false,some ⟨44,[],none,false⟩⟩,⟨256,.lf,false,some ⟨45,[.setEnt .internalNl],none,false⟩⟩,⟨256,.vt,false,none⟩,⟨256,.ff,false,some ⟨46,[.setEnt .internalNl],none,false⟩⟩,⟨256,.cr,false,some ⟨47,[],none,false⟩⟩,⟨256,.cr,true,some ⟨48,[.setEnt .internalNl],none,false⟩⟩,⟨47,.other,false,none⟩,⟨60,.other,false,none⟩,⟨62,.other,false,some ⟨0,[.emb .outry,.code,.emb .back],some 0,true⟩⟩]⟩,⟨[7],none,[],[⟨256,.other,false,none⟩,⟨256,.ws,false,some ⟨44,[],none,false⟩⟩,⟨256,.lf,false,some ⟨45,[.setEnt .internalNl],none,false⟩⟩,⟨256,.vt,false,none⟩,⟨256,.ff,false,some ⟨46,[.setEnt .internalNl],none,false⟩⟩,⟨256,.cr,false,some ⟨47,[],none,false⟩⟩,⟨256,.cr,true,some ⟨48,[.setEnt .internalNl],none,false⟩⟩,⟨47,.other,false,none⟩,⟨60,.other,false,none⟩,⟨62,.other,false,some ⟨0,[.emb .outry,.code,.emb .back],some 0,true⟩⟩]⟩,⟨[10],none,[],[⟨256,.other,false,none⟩,⟨256,.ws,false,some ⟨44,[.cb],none,false⟩⟩,⟨256,.lf,false,some ⟨45,[.setEnt .internalNl,.cb],none,false⟩⟩,⟨256,.vt,false,none⟩,⟨256,.ff,false,some ⟨46,[.setEnt .internalNl,.cb],none,false⟩⟩,⟨256,.cr,false,some ⟨47,[.cb],none,false⟩⟩,⟨256,.cr,true,some ⟨48,[.setEnt .internalNl,.cb],none,false⟩⟩,⟨47,.other,false,none⟩,⟨60,.other,false,none⟩,⟨62,.other,false,some ⟨0,[.cb,.emb .outry,.code,.emb .back],some 0,true⟩⟩]⟩,⟨[11],none,[],[⟨256,.other,false,none⟩,⟨256,.ws,false,some ⟨44,[.cb],none,false⟩⟩,⟨256,.lf,false,some ⟨45,[.setEnt .internalNl,.cb],none,false⟩⟩,⟨256,.vt,false,none⟩,⟨256,.ff,false,some ⟨46,[.setEnt .internalNl,.cb],none,false⟩⟩,⟨256,.cr,false,some ⟨47,[.cb],none,false⟩⟩,⟨256,.cr,true,some ⟨48,[.setEnt .internalNl,.cb],none,false⟩⟩,⟨47,.other,false,none⟩,⟨60,.other,false,none⟩,⟨62,.other,false,some ⟨0,[.cb,.emb .outry,.code,.emb .back],some 0,true⟩⟩]⟩,⟨[8],none,[],[⟨256,.other,false,none⟩,⟨256,.ws,false,none⟩,⟨256,.lf,false,some ⟨49,[.setEnt .internalNl],none,false⟩⟩,⟨256,.vt,false,none⟩,⟨256,.ff,false,none⟩,⟨256,.cr,false,none⟩,⟨256,.cr,true,none⟩,⟨47,.other,false,none⟩,⟨60,.other,false,none⟩,⟨62,.other,false,none⟩]⟩,⟨[8,12],none,[],[⟨256,.other,false,none⟩,⟨256,.ws,false,some ⟨44,[.cb],none,false⟩⟩,⟨256,.lf,false,some ⟨50,[.setEnt .internalNl,.cb],none,false⟩⟩,⟨256,.vt,false,none⟩,⟨256,.ff,false,some ⟨46,[.setEnt .internalNl,.cb],none,false⟩⟩,⟨256,.cr,false,some ⟨47,[.cb],none,false⟩⟩,⟨256,.cr,true,some ⟨48,[.setEnt .internalNl,.cb],none,false⟩⟩,⟨47,.other,false,none⟩,⟨60,.other,false,none⟩,⟨62,.other,false,some ⟨0,[.cb,.emb .outry,.code,.emb .back],some 0,true⟩⟩]⟩,⟨[9],none,[],[⟨256,.other,false,none⟩,⟨256,.ws,false,some ⟨44,[.cb],none,false⟩⟩,⟨256,.lf,false,some ⟨45,[.setEnt .internalNl,.cb],none,false⟩⟩,⟨256,.vt,false,none⟩,⟨256,.ff,false,some ⟨46,[.setEnt .internalNl,.cb],none,false⟩⟩,⟨256,.cr,false,some ⟨47,[.cb],none,false⟩⟩,⟨256,.cr,true,some ⟨48,[.setEnt .internalNl,.cb],none,false⟩⟩,⟨47,.other,false,none⟩,⟨60,.other,false,none⟩,⟨62,.other,false,some ⟨0,[.cb,.emb .outry,.code,.emb .back],some 0,true⟩⟩]⟩,⟨[9,10],none,[],[⟨256,.other,false,none⟩,⟨256,.ws,false,some ⟨44,[.cb],none,false⟩⟩,⟨256,.lf,false,some ⟨45,[.setEnt .internalNl,.cb],none,false⟩⟩,⟨256,.vt,false,none⟩,⟨256,.ff,false,some ⟨46,[.setEnt .internalNl,.cb],none,false⟩⟩,⟨256,.cr,false,some ⟨47,[.cb],none,false⟩⟩,⟨256,.cr,true,some ⟨48,[.setEnt .internalNl,.cb],none,false⟩⟩,⟨47,.other,false,none⟩,⟨60,.other,false,none⟩,⟨62,.other,false,some ⟨0,[.cb,.emb .outry,.code,.emb .back],some 0,true⟩⟩]⟩]
theorem emb0_rowsOkt : rowsOk emb0_nfa [47, 60, 62] (emb0_cst.map (·.1)) emb0_rowst = true := by decide +kernel
def emb0_Dt : Dfa emb0_nfa := ⟨emb0_maskst, [47, 60, 62], emb0_cst, emb0_rowst, emb0_masksInt, emb0_repOkt, emb0_rowsOkt⟩

/-- The automaton of `Emb.Nix.nix_entity`. -/
def emb17_nfa : Nfa := ⟨[⟨0,17179869184,[],[],0,0⟩,⟨1,549755813888,[],[],0,0⟩,⟨3,4294983168,[],[(0,.setEnt (.own 0))],0,0⟩,⟨4,34359738368,[],[(1,.setEnt (.own 1))],0,0⟩,⟨6,140737488355328,[],[(1,.setEnt (.own 1))],0,2⟩,⟨11,115792089237316195423570985008687907853269984665640564039457584007908834656767,[],[],0,0⟩],[[],[⟨2,549755813888,[],[],0,0⟩],[],[⟨3,4294983168,[],[(0,.setEnt (.own 0))],0,0⟩],[⟨5,115792089237316195423570985008687907853269984665640564039457584007913129626623,[],[(1,.setEnt (.own 1))],0,0⟩],[⟨5,115792089237316195423570985008687907853269984665640564039457584007913129626623,[],[(1,.setEnt (.own 1))],0,0⟩],[⟨7,4398046511104,[],[(1,.setEnt (.own 1))],0,2⟩],[⟨8,115792089237316195423570985008687907853269984665640564039457584007913129639935,[],[(1,.setEnt (.own 1))],0,2⟩,⟨9,4398046511104,[],[(1,.setEnt (.own 1))],0,2⟩],[⟨8,115792089237316195423570985008687907853269984665640564039457584007913129639935,[],[(1,.setEnt (.own 1))],0,2⟩,⟨9,4398046511104,[],[(1,.setEnt (.own 1))],0,2⟩],[⟨10,140737488355328,[],[(1,.setEnt (.own 1))],2,0⟩],[],[]],[some (0,[]),none,some (1,[]),some (2,[]),some (3,[]),some (3,[]),none,none,none,none,some (3,[]),some (4,[])],[0,0,1,2,2]⟩
def emb17_masks : List Nat := [17179869184,549755813888,4294983168,34359738368,140737488355328,115792089237316195423570985008687907853269984665640564039457584007908834656767,115792089237316195423570985008687907853269984665640564039457584007913129626623,4398046511104,115792089237316195423570985008687907853269984665640564039457584007913129639935]
def emb17_cs : List (Nat × Nat) := [(0,115792089237316195423570985008687907853269984665640564039457583862172004368895),(9,4294967808),(10,1024),(11,2048),(12,4096),(13,8192),(34,17179869184),(35,34359738368),(39,549755813888),(42,4398046511104),(47,140737488355328)]
theorem emb17_masksIn : masksIn emb17_nfa emb17_masks = true := by decide +kernel
theorem emb17_repOk : repOk emb17_masks emb17_cs = true := by decide +kernel
def emb17_rows : List Row := [⟨[],none,[],[⟨256,.other,false,some ⟨0,[],some 4,true⟩⟩,⟨256,.ws,false,some ⟨1,[.setEnt (.own 0)],some 2,false⟩⟩,⟨256,.lf,false,some ⟨1,[.setEnt (.own 0)],some 2,false⟩⟩,⟨256,.vt,false,some ⟨1,[.setEnt (.own 0)],some 2,false⟩⟩,⟨256,.ff,false,some ⟨1,[.setEnt (.own 0)],some 2,false⟩⟩,⟨256,.cr,false,some ⟨1,[.setEnt (.own 0)],some 2,false⟩⟩,⟨256,.cr,true,some ⟨1,[.setEnt (.own 0)],some 2,false⟩⟩,⟨256,.other,false,some ⟨0,[],some 0,true⟩⟩,⟨256,.other,false,some ⟨2,[.setEnt (.own 1)],some 3,false⟩⟩,⟨256,.other,false,some ⟨3,[],some 4,false⟩⟩,⟨256,.other,false,some ⟨4,[.setEnt (.own 1)],some 4,false⟩⟩]⟩,⟨[3],some 2,[],[⟨256,.other,false,none⟩,⟨256,.ws,false,some ⟨1,[.setEnt (.own 0)],some 2,false⟩⟩,⟨256,.lf,false,some ⟨1,[.setEnt (.own 0)],some 2,false⟩⟩,⟨256,.vt,false,some ⟨1,[.setEnt (.own 0)],some 2,false⟩⟩,⟨256,.ff,false,some ⟨1,[.setEnt (.own 0)],some 2,false⟩⟩,⟨256,.cr,false,some ⟨1,[.setEnt (.own 0)],some 2,false⟩⟩,⟨256,.cr,true,some ⟨1,[.setEnt (.own 0)],some 2,false⟩⟩]⟩,⟨[4,11],some 3,[],[⟨256,.other,false,some ⟨5,[.setEnt (.own 1)],some 3,false⟩⟩,⟨256,.ws,false,some ⟨5,[.setEnt (.own 1)],some 3,false⟩⟩,⟨256,.lf,false,none⟩,⟨256,.vt,false,some ⟨5,[.setEnt (.own 1)],some 3,false⟩⟩,⟨256,.ff,false,none⟩,⟨256,.cr,false,none⟩,⟨256,.cr,true,none⟩]⟩,⟨[1,11],some 4,[],[⟨256,.other,false,none⟩,⟨256,.ws,false,none⟩,⟨256,.lf,false,none⟩,⟨256,.vt,false,none⟩,⟨256,.ff,false,none⟩,⟨256,.cr,false,none⟩,⟨256,.cr,true,none⟩,⟨256,.other,false,some ⟨0,[],some 1,true⟩⟩]⟩,⟨[6,11],some 4,[],[⟨256,.other,false,none⟩,⟨256,.ws,false,none⟩,⟨256,.lf,false,none⟩,⟨256,.vt,false,none⟩,⟨256,.ff,false,none⟩,⟨256,.cr,false,none⟩,⟨256,.cr,true,none⟩,⟨256,.other,false,some ⟨6,[.setEnt (.own 1)],none,false⟩⟩]⟩,⟨[5],some 3,[],[⟨256,.other,false,some ⟨5,[.setEnt (.own 1)],some 3,false⟩⟩,⟨256,.ws,false,some ⟨5,[.setEnt (.own 1)],some 3,false⟩⟩,⟨256,.lf,false,none⟩,⟨256,.vt,false,some ⟨5,[.setEnt (.own 1)],some 3,false⟩⟩,⟨256,.ff,false,none⟩,⟨256,.cr,false,none⟩,⟨256,.cr,true,none⟩]⟩,⟨[7],none,[],[⟨256,.other,false,some ⟨7,[.setEnt (.own 1)],none,false⟩⟩,⟨256,.ws,false,some ⟨7,[.setEnt (.own 1)],none,false⟩⟩,⟨256,.lf,false,some ⟨7,[.setEnt (.own 1)],none,false⟩⟩,⟨256,.vt,false,some ⟨7,[.setEnt (.own 1)],none,false⟩⟩,⟨256,.ff,false,some ⟨7,[.setEnt (.own 1)],none,false⟩⟩,⟨256,.cr,false,some ⟨7,[.setEnt (.own 1)],none,false⟩⟩,⟨256,.cr,true,some ⟨7,[.setEnt (.own 1)],none,false⟩⟩,⟨256,.other,false,some ⟨8,[.setEnt (.own 1)],none,false⟩⟩]⟩,⟨[8],none,[],[⟨256,.other,false,some ⟨7,[.setEnt (.own 1)],none,false⟩⟩,⟨256,.ws,false,some ⟨7,[.setEnt (.own 1)],none,false⟩⟩,⟨256,.lf,false,some ⟨7,[.setEnt (.own 1)],none,false⟩⟩,⟨256,.vt,false,some ⟨7,[.setEnt (.own 1)],none,false⟩⟩,⟨256,.ff,false,some ⟨7,[.setEnt (.own 1)],none,false⟩⟩,⟨256,.cr,false,some ⟨7,[.setEnt (.own 1)],none,false⟩⟩,⟨256,.cr,true,some ⟨7,[.setEnt (.own 1)],none,false⟩⟩,⟨256,.other,false,some ⟨8,[.setEnt (.own 1)],none,false⟩⟩]⟩,⟨[8,9],none,[],[⟨256,.other,false,some ⟨7,[.setEnt (.own 1)],none,false⟩⟩,⟨256,.ws,false,some ⟨7,[.setEnt (.own 1)],none,false⟩⟩,⟨256,.lf,false,some ⟨7,[.setEnt (.own 1)],none,false⟩⟩,⟨256,.vt,false,some ⟨7,[.setEnt (.own 1)],none,false⟩⟩,⟨256,.ff,false,some ⟨7,[.setEnt (.own 1)],none,false⟩⟩,⟨256,.cr,false,some ⟨7,[.setEnt (.own 1)],none,false⟩⟩,⟨256,.cr,true,some ⟨7,[.setEnt (.own 1)],none,false⟩⟩,⟨256,.other,false,some ⟨8,[.setEnt (.own 1)],none,false⟩⟩,⟨256,.other,false,some ⟨0,[.setEnt (.own 1)],some 3,true⟩⟩]⟩]
theorem emb17_rowsOk : rowsOk emb17_nfa [] (emb17_cs.map (·.1)) emb17_rows = true := by decide +kernel
def emb17_D : Dfa emb17_nfa := ⟨emb17_masks, [], emb17_cs, emb17_rows, emb17_masksIn, emb17_repOk, emb17_rowsOk⟩

/-- The automaton of `Emb.Coffeescript.coffeescript_js_line`. -/
def emb18_nfa : Nfa := ⟨[⟨0,79228162514264337593543950336,[],[(0,.emb .outry),(1,.code),(2,.emb .back)],0,0⟩,⟨1,4294967808,[],[(3,.setEnt (.own 0))],0,0⟩,⟨2,140737488355328,[],[],0,0⟩,⟨5,140737488355328,[],[],0,2⟩,⟨16,549755813888,[],[(9,.code)],0,0⟩,⟨28,17179869184,[],[(14,.code)],0,0⟩,⟨40,140737488355328,[],[],0,0⟩,⟨46,8192,[],[(20,.setEnt .newline)],0,0⟩,⟨48,1024,[],[(20,.setEnt .newline)],0,0⟩,⟨49,4096,[],[(20,.setEnt .newline)],0,0⟩,⟨50,8192,[.crAlone],[(20,.setEnt .newline)],0,0⟩,⟨51,115792089237316195423570985008687907853269984665640564039457584007908834656767,[],[(21,.setEnt (.own 7))],0,0⟩],[[],[⟨1,4294967808,[],[(3,.setEnt (.own 0))],0,0⟩],[⟨3,140737488355328,[],[(4,.comment)],0,0⟩],[⟨4,115792089237316195423570985008687907853269984665640564039457584007913129626623,[],[],0,0⟩],[⟨4,115792089237316195423570985008687907853269984665640564039457584007913129626623,[],[],0,0⟩],[⟨6,4398046511104,[],[(5,.comment)],0,2⟩],[⟨7,8192,[],[],0,2⟩,⟨9,1024,[],[],0,2⟩,⟨10,4096,[],[],0,2⟩,⟨11,8192,[.crAlone],[],0,2⟩,⟨12,4294967808,[],[],0,2⟩,⟨13,115792089237316195423570985008687907853269984665640564039457584007908834658815,[],[(8,.comment)],0,2⟩,⟨14,4398046511104,[],[],0,2⟩],[⟨8,1024,[],[],0,2⟩],[⟨7,8192,[],[(6,.setEnt .internalNl),(7,.emb (.cb 1))],0,2⟩,⟨9,1024,[],[(6,.setEnt .internalNl),(7,.emb (.cb 1))],0,2⟩,⟨10,4096,[],[(6,.setEnt .internalNl),(7,.emb (.cb 1))],0,2⟩,⟨11,8192,[.crAlone],[(6,.setEnt .internalNl),(7,.emb (.cb 1))],0,2⟩,⟨12,4294967808,[],[(6,.setEnt .internalNl),(7,.emb (.cb 1))],0,2⟩,⟨13,115792089237316195423570985008687907853269984665640564039457584007908834658815,[],[(6,.setEnt .internalNl),(7,.emb (.cb 1)),(8,.comment)],0,2⟩,⟨14,4398046511104,[],[(6,.setEnt .internalNl),(7,.emb (.cb 1))],0,2⟩],[⟨7,8192,[],[(6,.setEnt .internalNl),(7,.emb (.cb 1))],0,2⟩,⟨9,1024,[],[(6,.setEnt .internalNl),(7,.emb (.cb 1))],0,2⟩,⟨10,4096,[],[(6,.setEnt .internalNl),(7,.emb (.cb 1))],0,2⟩,⟨11,8192,[.crAlone],[(6,.setEnt .internalNl),(7,.emb (.cb 1))],0,2⟩,⟨12,4294967808,[],[(6,.setEnt .internalNl),(7,.emb (.cb 1))],0,2⟩,⟨13,115792089237316195423570985008687907853269984665640564039457584007908834658815,[],[(6,.setEnt .internalNl),(7,.emb (.cb 1)),(8,.comment)],0,2⟩,⟨14,4398046511104,[],[(6,.setEnt .internalNl),(7,.emb (.cb 1))],0,2⟩],[⟨7,8192,[],[(6,.setEnt .internalNl),(7,.emb (.cb 1))],0,2⟩,⟨9,1024,[],[(6,.setEnt .internalNl),(7,.emb (.cb 1))],0,2⟩,⟨10,4096,[],[(6,.setEnt .internalNl),(7,.emb (.cb 1))],0,2⟩,⟨11,8192,[.crAlone],[(6,.setEnt .internalNl),(7,.emb (.cb 1))],0,2⟩,⟨12,4294967808,[],[(6,.setEnt .internalNl),(7,.emb (.cb 1))],0,2⟩,⟨13,115792089237316195423570985008687907853269984665640564039457584007908834658815,[],[(6,.setEnt .internalNl),(7,.emb (.cb 1)),(8,.comment)],0,2⟩,⟨14,4398046511104,[],[(6,.setEnt .internalNl),(7,.emb (.cb 1))],0,2⟩],[⟨7,8192,[],[(6,.setEnt .internalNl),(7,.emb (.cb 1))],0,2⟩,⟨9,1024,[],[(6,.setEnt .internalNl),(7,.emb (.cb 1))],0,2⟩,⟨10,4096,[],[(6,.setEnt .internalNl),(7,.emb (.cb 1))],0,2⟩,⟨11,8192,[.crAlone],[(6,.setEnt .internalNl),(7,.emb (.cb 1))],0,2⟩,⟨12,4294967808,[],[(6,.setEnt .internalNl),(7,.emb (.cb 1))],0,2⟩,⟨13,115792089237316195423570985008687907853269984665640564039457584007908834658815,[],[(6,.setEnt .internalNl),(7,.emb (.cb 1)),(8,.comment)],0,2⟩,⟨14,4398046511104,[],[(6,.setEnt .internalNl),(7,.emb (.cb 1))],0,2⟩],[⟨7,8192,[],[],0,2⟩,⟨9,1024,[],[],0,2⟩,⟨10,4096,[],[],0,2⟩,⟨11,8192,[.crAlone],[],0,2⟩,⟨12,4294967808,[],[],0,2⟩,⟨13,115792089237316195423570985008687907853269984665640564039457584007908834658815,[],[(8,.comment)],0,2⟩,⟨14,4398046511104,[],[],0,2⟩],[⟨7,8192,[],[],0,2⟩,⟨9,1024,[],[],0,2⟩,⟨10,4096,[],[],0,2⟩,⟨11,8192,[.crAlone],[],0,2⟩,⟨12,4294967808,[],[],0,2⟩,⟨13,115792089237316195423570985008687907853269984665640564039457584007908834658815,[],[(8,.comment)],0,2⟩,⟨14,4398046511104,[],[],0,2⟩],[⟨15,140737488355328,[],[],2,0⟩],[],[⟨17,4951760157141521099596496896,[],[],0,0⟩,⟨23,4294967808,[],[],0,0⟩,⟨24,115792089237316195423570985008687907853269984665635612279300442486259482361343,[],[(12,.code)],0,0⟩,⟨25,4951760157141521099596496896,[],[],0,0⟩,⟨27,549755813888,[],[],0,0⟩],[⟨18,8192,[],[],0,0⟩,⟨20,1024,[],[],0,0⟩,⟨21,4096,[],[],0,0⟩,⟨22,8192,[.crAlone],[],0,0⟩],[⟨19,1024,[],[],0,0⟩],[⟨17,4951760157141521099596496896,[],[(10,.setEnt .internalNl),(11,.emb (.cb 1))],0,0⟩,⟨23,4294967808,[],[(10,.setEnt .internalNl),(11,.emb (.cb 1))],0,0⟩,⟨24,115792089237316195423570985008687907853269984665635612279300442486259482361343,[],[(10,.setEnt .internalNl),(11,.emb (.cb 1)),(12,.code)],0,0⟩,⟨25,4951760157141521099596496896,[],[(10,.setEnt .internalNl),(11,.emb (.cb 1))],0,0⟩,⟨27,549755813888,[],[(10,.setEnt .internalNl),(11,.emb (.cb 1))],0,0⟩],[⟨17,4951760157141521099596496896,[],[(10,.setEnt .internalNl),(11,.emb (.cb 1))],0,0⟩,⟨23,4294967808,[],[(10,.setEnt .internalNl),(11,.emb (.cb 1))],0,0⟩,⟨24,115792089237316195423570985008687907853269984665635612279300442486259482361343,[],[(10,.setEnt .internalNl),(11,.emb (.cb 1)),(12,.code)],0,0⟩,⟨25,4951760157141521099596496896,[],[(10,.setEnt .internalNl),(11,.emb (.cb 1))],0,0⟩,⟨27,549755813888,[],[(10,.setEnt .internalNl),(11,.emb (.cb 1))],0,0⟩],[⟨17,4951760157141521099596496896,[],[(10,.setEnt .internalNl),(11,.emb (.cb 1))],0,0⟩,⟨23,4294967808,[],[(10,.setEnt .internalNl),(11,.emb (.cb 1))],0,0⟩,⟨24,115792089237316195423570985008687907853269984665635612279300442486259482361343,[],[(10,.setEnt .internalNl),(11,.emb (.cb 1)),(12,.code)],0,0⟩,⟨25,4951760157141521099596496896,[],[(10,.setEnt .internalNl),(11,.emb (.cb 1))],0,0⟩,⟨27,549755813888,[],[(10,.setEnt .internalNl),(11,.emb (.cb 1))],0,0⟩],[⟨17,4951760157141521099596496896,[],[(10,.setEnt .internalNl),(11,.emb (.cb 1))],0,0⟩,⟨23,4294967808,[],[(10,.setEnt .internalNl),(11,.emb (.cb 1))],0,0⟩,⟨24,115792089237316195423570985008687907853269984665635612279300442486259482361343,[],[(10,.setEnt .internalNl),(11,.emb (.cb 1)),(12,.code)],0,0⟩,⟨25,4951760157141521099596496896,[],[(10,.setEnt .internalNl),(11,.emb (.cb 1))],0,0⟩,⟨27,549755813888,[],[(10,.setEnt .internalNl),(11,.emb (.cb 1))],0,0⟩],[⟨17,4951760157141521099596496896,[],[],0,0⟩,⟨23,4294967808,[],[],0,0⟩,⟨24,115792089237316195423570985008687907853269984665635612279300442486259482361343,[],[(12,.code)],0,0⟩,⟨25,4951760157141521099596496896,[],[],0,0⟩,⟨27,549755813888,[],[],0,0⟩],[⟨17,4951760157141521099596496896,[],[],0,0⟩,⟨23,4294967808,[],[],0,0⟩,⟨24,115792089237316195423570985008687907853269984665635612279300442486259482361343,[],[(12,.code)],0,0⟩,⟨25,4951760157141521099596496896,[],[],0,0⟩,⟨27,549755813888,[],[],0,0⟩],[⟨26,115792089237316195423570985008687907853269984665640564039457584007913129626623,[],[(13,.code)],0,0⟩],[⟨17,4951760157141521099596496896,[],[],0,0⟩,⟨23,4294967808,[],[],0,0⟩,⟨24,115792089237316195423570985008687907853269984665635612279300442486259482361343,[],[(12,.code)],0,0⟩,⟨25,4951760157141521099596496896,[],[],0,0⟩,⟨27,549755813888,[],[],0,0⟩],[],[⟨29,4951760157141521099596496896,[],[],0,0⟩,⟨35,4294967808,[],[],0,0⟩,⟨36,115792089237316195423570985008687907853269984665635612279300442486792058306047,[],[(17,.code)],0,0⟩,⟨37,4951760157141521099596496896,[],[],0,0⟩,⟨39,17179869184,[],[],0,0⟩],[⟨30,8192,[],[],0,0⟩,⟨32,1024,[],[],0,0⟩,⟨33,4096,[],[],0,0⟩,⟨34,8192,[.crAlone],[],0,0⟩],[⟨31,1024,[],[],0,0⟩],[⟨29,4951760157141521099596496896,[],[(15,.setEnt .internalNl),(16,.emb (.cb 1))],0,0⟩,⟨35,4294967808,[],[(15,.setEnt .internalNl),(16,.emb (.cb 1))],0,0⟩,⟨36,115792089237316195423570985008687907853269984665635612279300442486792058306047,[],[(15,.setEnt .internalNl),(16,.emb (.cb 1)),(17,.code)],0,0⟩,⟨37,4951760157141521099596496896,[],[(15,.setEnt .internalNl),(16,.emb (.cb 1))],0,0⟩,⟨39,17179869184,[],[(15,.setEnt .internalNl),(16,.emb (.cb 1))],0,0⟩],[⟨29,4951760157141521099596496896,[],[(15,.setEnt .internalNl),(16,.emb (.cb 1))],0,0⟩,⟨35,4294967808,[],[(15,.setEnt .internalNl),(16,.emb (.cb 1))],0,0⟩,⟨36,115792089237316195423570985008687907853269984665635612279300442486792058306047,[],[(15,.setEnt .internalNl),(16,.emb (.cb 1)),(17,.code)],0,0⟩,⟨37,4951760157141521099596496896,[],[(15,.setEnt .internalNl),(16,.emb (.cb 1))],0,0⟩,⟨39,17179869184,[],[(15,.setEnt .internalNl),(16,.emb (.cb 1))],0,0⟩],[⟨29,4951760157141521099596496896,[],[(15,.setEnt .internalNl),(16,.emb (.cb 1))],0,0⟩,⟨35,4294967808,[],[(15,.setEnt .internalNl),(16,.emb (.cb 1))],0,0⟩,⟨36,115792089237316195423570985008687907853269984665635612279300442486792058306047,[],[(15,.setEnt .internalNl),(16,.emb (.cb 1)),(17,.code)],0,0⟩,⟨37,4951760157141521099596496896,[],[(15,.setEnt .internalNl),(16,.emb (.cb 1))],0,0⟩,⟨39,17179869184,[],[(15,.setEnt .internalNl),(16,.emb (.cb 1))],0,0⟩],[⟨29,4951760157141521099596496896,[],[(15,.setEnt .internalNl),(16,.emb (.cb 1))],0,0⟩,⟨35,4294967808,[],[(15,.setEnt .internalNl),(16,.emb (.cb 1))],0,0⟩,⟨36,115792089237316195423570985008687907853269984665635612279300442486792058306047,[],[(15,.setEnt .internalNl),(16,.emb (.cb 1)),(17,.code)],0,0⟩,⟨37,4951760157141521099596496896,[],[(15,.setEnt .internalNl),(16,.emb (.cb 1))],0,0⟩,⟨39,17179869184,[],[(15,.setEnt .internalNl),(16,.emb (.cb 1))],0,0⟩],[⟨29,4951760157141521099596496896,[],[],0,0⟩,⟨35,4294967808,[],[],0,0⟩,⟨36,115792089237316195423570985008687907853269984665635612279300442486792058306047,[],[(17,.code)],0,0⟩,⟨37,4951760157141521099596496896,[],[],0,0⟩,⟨39,17179869184,[],[],0,0⟩],[⟨29,4951760157141521099596496896,[],[],0,0⟩,⟨35,4294967808,[],[],0,0⟩,⟨36,115792089237316195423570985008687907853269984665635612279300442486792058306047,[],[(17,.code)],0,0⟩,⟨37,4951760157141521099596496896,[],[],0,0⟩,⟨39,17179869184,[],[],0,0⟩],[⟨38,115792089237316195423570985008687907853269984665640564039457584007913129626623,[],[(18,.code)],0,0⟩],[⟨29,4951760157141521099596496896,[],[],0,0⟩,⟨35,4294967808,[],[],0,0⟩,⟨36,115792089237316195423570985008687907853269984665635612279300442486792058306047,[],[(17,.code)],0,0⟩,⟨37,4951760157141521099596496896,[],[],0,0⟩,⟨39,17179869184,[],[],0,0⟩],[],[⟨41,115792089237316195423570985008687907853269984665640564039457583862777594773503,[],[],0,0⟩],[⟨42,115792089237316195423570985008687907853269984665635612279300442346076044774399,[],[],0,0⟩,⟨43,4951760157141521099596496896,[],[],0,0⟩,⟨45,140737488355328,[],[(19,.code)],0,0⟩],[⟨42,115792089237316195423570985008687907853269984665635612279300442346076044774399,[],[],0,0⟩,⟨43,4951760157141521099596496896,[],[],0,0⟩,⟨45,140737488355328,[],[(19,.code)],0,0⟩],[⟨44,115792089237316195423570985008687907853269984665640564039457584007913129626623,[],[],0,0⟩],[⟨42,115792089237316195423570985008687907853269984665635612279300442346076044774399,[],[],0,0⟩,⟨43,4951760157141521099596496896,[],[],0,0⟩,⟨45,140737488355328,[],[(19,.code)],0,0⟩],[],[⟨47,1024,[],[(20,.setEnt .newline)],0,0⟩],[],[],[],[],[]],[some (0,[]),some (1,[]),none,some (2,[]),some (2,[]),none,none,none,none,none,none,none,none,none,none,some (2,[]),none,none,none,none,none,none,none,none,none,none,none,some (3,[]),none,none,none,none,none,none,none,none,none,none,none,some (3,[]),none,none,none,none,none,some (3,[]),none,some (4,[]),some (4,[]),some (4,[]),some (4,[]),some (5,[])],[3,4,9,20,21,22]⟩
def emb18_masks : List Nat := [79228162514264337593543950336,4294967808,140737488355328,549755813888,17179869184,8192,1024,4096,115792089237316195423570985008687907853269984665640564039457584007908834656767,115792089237316195423570985008687907853269984665640564039457584007913129626623,4398046511104,115792089237316195423570985008687907853269984665640564039457584007908834658815,4951760157141521099596496896,115792089237316195423570985008687907853269984665635612279300442486259482361343,115792089237316195423570985008687907853269984665635612279300442486792058306047,115792089237316195423570985008687907853269984665640564039457583862777594773503,115792089237316195423570985008687907853269984665635612279300442346076044774399]
def emb18_cs : List (Nat × Nat) := [(0,115792089237316195423570985008687907853269984665556384116786178003513223660031),(9,4294967808),(10,1024),(11,2048),(12,4096),(13,8192),(34,17179869184),(39,549755813888),(42,4398046511104),(47,140737488355328),(92,4951760157141521099596496896),(96,79228162514264337593543950336)]
theorem emb18_masksIn : masksIn emb18_nfa emb18_masks = true := by decide +kernel
theorem emb18_repOk : repOk emb18_masks emb18_cs = true := by decide +kernel
def emb18_rows : List Row := [⟨[],none,[],[⟨256,.other,false,some ⟨0,[.setEnt (.own 7)],some 5,true⟩⟩,⟨256,.ws,false,some ⟨1,[.setEnt (.own 0)],some 1,false⟩⟩,⟨256,.lf,false,some ⟨0,[.setEnt .newline],some 4,true⟩⟩,⟨256,.vt,false,none⟩,⟨256,.ff,false,some ⟨0,[.setEnt .newline],some 4,true⟩⟩,⟨256,.cr,false,some ⟨2,[.setEnt .newline],none,false⟩⟩,⟨256,.cr,true,some ⟨3,[.setEnt .newline],some 4,false⟩⟩,⟨256,.other,false,some ⟨4,[.code,.setEnt (.own 7)],some 5,false⟩⟩,⟨256,.other,false,some ⟨5,[.code,.setEnt (.own 7)],some 5,false⟩⟩,⟨256,.other,false,some ⟨6,[.setEnt (.own 7)],some 5,false⟩⟩,⟨256,.other,false,some ⟨0,[.emb .outry,.code,.emb .back],some 0,true⟩⟩]⟩,⟨[1],some 1,[],[⟨256,.other,false,none⟩,⟨256,.ws,false,some ⟨1,[.setEnt (.own 0)],some 1,false⟩⟩,⟨256,.lf,false,none⟩,⟨256,.vt,false,none⟩,⟨256,.ff,false,none⟩,⟨256,.cr,false,none⟩,⟨256,.cr,true,none⟩]⟩,⟨[46],none,[],[⟨256,.other,false,none⟩,⟨256,.ws,false,none⟩,⟨256,.lf,false,some ⟨0,[.setEnt .newline],some 4,true⟩⟩,⟨256,.vt,false,none⟩,⟨256,.ff,false,none⟩,⟨256,.cr,false,none⟩,⟨256,.cr,true,none⟩]⟩,⟨[46,50],some 4,[],[⟨256,.other,false,none⟩,⟨256,.ws,false,none⟩,⟨256,.lf,false,some ⟨0,[.setEnt .newline],some 4,true⟩⟩,⟨256,.vt,false,none⟩,⟨256,.ff,false,none⟩,⟨256,.cr,false,none⟩,⟨256,.cr,true,none⟩]⟩,⟨[28,51],some 5,[],[⟨256,.other,false,some ⟨7,[.code],none,false⟩⟩,⟨256,.ws,false,some ⟨8,[],none,false⟩⟩,⟨256,.lf,false,some ⟨7,[.code],none,false⟩⟩,⟨256,.vt,false,some ⟨7,[.code],none,false⟩⟩,⟨256,.ff,false,some ⟨7,[.code],none,false⟩⟩,⟨256,.cr,false,some ⟨7,[.code],none,false⟩⟩,⟨256,.cr,true,some ⟨7,[.code],none,false⟩⟩,⟨256,.other,false,some ⟨0,[],some 3,true⟩⟩,⟨256,.other,false,some ⟨9,[],none,false⟩⟩]⟩,⟨[16,51],some 5,[],[⟨256,.other,false,some ⟨10,[.code],none,false⟩⟩,⟨256,.ws,false,some ⟨11,[],none,false⟩⟩,⟨256,.lf,false,some ⟨10,[.code],none,false⟩⟩,⟨256,.vt,false,some ⟨10,[.code],none,false⟩⟩,⟨256,.ff,false,some ⟨10,[.code],none,false⟩⟩,⟨256,.cr,false,some ⟨10,[.code],none,false⟩⟩,⟨256,.cr,true,some ⟨10,[.code],none,false⟩⟩,⟨256,.other,false,some ⟨0,[],some 3,true⟩⟩,⟨256,.other,false,some ⟨12,[],none,false⟩⟩]⟩,⟨[2,5,40,51],some 5,[],[⟨256,.other,false,some ⟨13,[],none,false⟩⟩,⟨256,.ws,false,some ⟨13,[],none,false⟩⟩,⟨256,.lf,false,some ⟨13,[],none,false⟩⟩,⟨256,.vt,false,some ⟨13,[],none,false⟩⟩,⟨256,.ff,false,some ⟨13,[],none,false⟩⟩,⟨256,.cr,false,some ⟨13,[],none,false⟩⟩,⟨256,.cr,true,some ⟨13,[],none,false⟩⟩,⟨256,.other,false,some ⟨14,[.comment],none,false⟩⟩,⟨256,.other,false,some ⟨15,[.comment],some 2,false⟩⟩]⟩,⟨[36],none,[],[⟨256,.other,false,some ⟨7,[.code],none,false⟩⟩,⟨256,.ws,false,some ⟨8,[],none,false⟩⟩,⟨256,.lf,false,some ⟨7,[.code],none,false⟩⟩,⟨256,.vt,false,some ⟨7,[.code],none,false⟩⟩,⟨256,.ff,false,some ⟨7,[.code],none,false⟩⟩,⟨256,.cr,false,some ⟨7,[.code],none,false⟩⟩,⟨256,.cr,true,some ⟨7,[.code],none,false⟩⟩,⟨256,.other,false,some ⟨0,[],some 3,true⟩⟩,⟨256,.other,false,some ⟨9,[],none,false⟩⟩]⟩,⟨[35],none,[],[⟨256,.other,false,some ⟨7,[.code],none,false⟩⟩,⟨256,.ws,false,some ⟨8,[],none,false⟩⟩,⟨256,.lf,false,some ⟨7,[.code],none,false⟩⟩,⟨256,.vt,false,some ⟨7,[.code],none,false⟩⟩,⟨256,.ff,false,some ⟨7,[.code],none,false⟩⟩,⟨256,.cr,false,some ⟨7,[.code],none,false⟩⟩,⟨256,.cr,true,some ⟨7,[.code],none,false⟩⟩,⟨256,.other,false,some ⟨0,[],some 3,true⟩⟩,⟨256,.other,false,some ⟨9,[],none,false⟩⟩]⟩,⟨[29,37],none,[],[⟨256,.other,false,some ⟨16,[.code],none,false⟩⟩,⟨256,.ws,false,some ⟨16,[.code],none,false⟩⟩,⟨256,.lf,false,some ⟨17,[],none,false⟩⟩,⟨256,.vt,false,some ⟨16,[.code],none,false⟩⟩,⟨256,.ff,false,some ⟨18,[],none,false⟩⟩,⟨256,.cr,false,some ⟨19,[],none,false⟩⟩,⟨256,.cr,true,some ⟨20,[],none,false⟩⟩]⟩,⟨[24],none,[],[⟨256,.other,false,some ⟨10,[.code],none,false⟩⟩,⟨256,.ws,false,some ⟨11,[],none,false⟩⟩,⟨256,.lf,false,some ⟨10,[.code],none,false⟩⟩,⟨256,.vt,false,some ⟨10,[.code],none,false⟩⟩,⟨256,.ff,false,some ⟨10,[.code],none,false⟩⟩,⟨256,.cr,false,some ⟨10,[.code],none,false⟩⟩,⟨256,.cr,true,some ⟨10,[.code],none,false⟩⟩,⟨256,.other,false,some ⟨0,[],some 3,true⟩⟩,⟨256,.other,false,some ⟨12,[],none,false⟩⟩]⟩,⟨[23],none,[],[⟨256,.other,false,some ⟨10,[.code],none,false⟩⟩,⟨256,.ws,false,some ⟨11,[],none,false⟩⟩,⟨256,.lf,false,some ⟨10,[.code],none,false⟩⟩,⟨256,.vt,false,some ⟨10,[.code],none,false⟩⟩,⟨256,.ff,false,some ⟨10,[.code],none,false⟩⟩,⟨256,.cr,false,some ⟨10,[.code],none,false⟩⟩,⟨256,.cr,true,some ⟨10,[.code],none,false⟩⟩,⟨256,.other,false,some ⟨0,[],some 3,true⟩⟩,⟨256,.other,false,some ⟨12,[],none,false⟩⟩]⟩,⟨[17,25],none,[],[⟨256,.other,false,some ⟨21,[.code],none,false⟩⟩,⟨256,.ws,false,some ⟨21,[.code],none,false⟩⟩,⟨256,.lf,false,some ⟨22,[],none,false⟩⟩,⟨256,.vt,false,some ⟨21,[.code],none,false⟩⟩,⟨256,.ff,false,some ⟨23,[],none,false⟩⟩,⟨256,.cr,false,some ⟨24,[],none,false⟩⟩,⟨256,.cr,true,some ⟨25,[],none,false⟩⟩]⟩,⟨[41],none,[],[⟨256,.other,false,some ⟨26,[],none,false⟩⟩,⟨256,.ws,false,some ⟨26,[],none,false⟩⟩,⟨256,.lf,false,none⟩,⟨256,.vt,false,some ⟨26,[],none,false⟩⟩,⟨256,.ff,false,none⟩,⟨256,.cr,false,none⟩,⟨256,.cr,true,none⟩,⟨256,.other,false,some ⟨0,[.code],some 3,true⟩⟩,⟨256,.other,false,some ⟨27,[],none,false⟩⟩]⟩,⟨[6],none,[],[⟨256,.other,false,some ⟨28,[.comment],none,false⟩⟩,⟨256,.ws,false,some ⟨29,[],none,false⟩⟩,⟨256,.lf,false,some ⟨30,[],none,false⟩⟩,⟨256,.vt,false,some ⟨28,[.comment],none,false⟩⟩,⟨256,.ff,false,some ⟨31,[],none,false⟩⟩,⟨256,.cr,false,some ⟨32,[],none,false⟩⟩,⟨256,.cr,true,some ⟨33,[],none,false⟩⟩,⟨256,.other,false,some ⟨34,[.comment],none,false⟩⟩]⟩,⟨[3],some 2,[],[⟨256,.other,false,some ⟨35,[],some 2,false⟩⟩,⟨256,.ws,false,some ⟨35,[],some 2,false⟩⟩,⟨256,.lf,false,none⟩,⟨256,.vt,false,some ⟨35,[],some 2,false⟩⟩,⟨256,.ff,false,none⟩,⟨256,.cr,false,none⟩,⟨256,.cr,true,none⟩]⟩,⟨[38],none,[],[⟨256,.other,false,some ⟨7,[.code],none,false⟩⟩,⟨256,.ws,false,some ⟨8,[],none,false⟩⟩,⟨256,.lf,false,some ⟨7,[.code],none,false⟩⟩,⟨256,.vt,false,some ⟨7,[.code],none,false⟩⟩,⟨256,.ff,false,some ⟨7,[.code],none,false⟩⟩,⟨256,.cr,false,some ⟨7,[.code],none,false⟩⟩,⟨256,.cr,true,some ⟨7,[.code],none,false⟩⟩,⟨256,.other,false,some ⟨0,[],some 3,true⟩⟩,⟨256,.other,false,some ⟨9,[],none,false⟩⟩]⟩,⟨[32],none,[],[⟨256,.other,false,some ⟨7,[.setEnt .internalNl,.emb (.cb 1),.code],none,false⟩⟩,⟨256,.ws,false,some ⟨8,[.setEnt .internalNl,.emb (.cb 1)],none,false⟩⟩,⟨256,.lf,false,some ⟨7,[.setEnt .internalNl,.emb (.cb 1),.code],none,false⟩⟩,⟨256,.vt,false,some ⟨7,[.setEnt .internalNl,.emb (.cb 1),.code],none,false⟩⟩,⟨256,.ff,false,some ⟨7,[.setEnt .internalNl,.emb (.cb 1),.code],none,false⟩⟩,⟨256,.cr,false,some ⟨7,[.setEnt .internalNl,.emb (.cb 1),.code],none,false⟩⟩,⟨256,.cr,true,some ⟨7,[.setEnt .internalNl,.emb (.cb 1),.code],none,false⟩⟩,⟨256,.other,false,some ⟨0,[.setEnt .internalNl,.emb (.cb 1)],some 3,true⟩⟩,⟨256,.other,false,some ⟨9,[.setEnt .internalNl,.emb (.cb 1)],none,false⟩⟩]⟩,⟨[33],none,[],[⟨256,.other,false,some ⟨7,[.setEnt .internalNl,.emb (.cb 1),.code],none,false⟩⟩,⟨256,.ws,false,some ⟨8,[.setEnt .internalNl,.emb (.cb 1)],none,false⟩⟩,⟨256,.lf,false,some ⟨7,[.setEnt .internalNl,.emb (.cb 1),.code],none,false⟩⟩,⟨256,.vt,false,some ⟨7,[.setEnt .internalNl,.emb (.cb 1),.code],none,false⟩⟩,⟨256,.ff,false,some ⟨7,[.setEnt .internalNl,.emb (.cb 1),.code],none,false⟩⟩,⟨256,.cr,false,some ⟨7,[.setEnt .internalNl,.emb (.cb 1),.code],none,false⟩⟩,⟨256,.cr,true,some ⟨7,[.setEnt .internalNl,.emb (.cb 1),.code],none,false⟩⟩,⟨256,.other,false,some ⟨0,[.setEnt .internalNl,.emb (.cb 1)],some 3,true⟩⟩,⟨256,.other,false,some ⟨9,[.setEnt .internalNl,.emb (.cb 1)],none,false⟩⟩]⟩,⟨[30],none,[],[⟨256,.other,false,none⟩,⟨256,.ws,false,none⟩,⟨256,.lf,false,some ⟨36,[],none,false⟩⟩,⟨256,.vt,false,none⟩,⟨256,.ff,false,none⟩,⟨256,.cr,false,none⟩,⟨256,.cr,true,none⟩]⟩,⟨[30,34],none,[],[⟨256,.other,false,some ⟨7,[.setEnt .internalNl,.emb (.cb 1),.code],none,false⟩⟩,⟨256,.ws,false,some ⟨8,[.setEnt .internalNl,.emb (.cb 1)],none,false⟩⟩,⟨256,.lf,false,some ⟨37,[.setEnt .internalNl,.emb (.cb 1),.code],none,false⟩⟩,⟨256,.vt,false,some ⟨7,[.setEnt .internalNl,.emb (.cb 1),.code],none,false⟩⟩,⟨256,.ff,false,some ⟨7,[.setEnt .internalNl,.emb (.cb 1),.code],none,false⟩⟩,⟨256,.cr,false,some ⟨7,[.setEnt .internalNl,.emb (.cb 1),.code],none,false⟩⟩,⟨256,.cr,true,some ⟨7,[.setEnt .internalNl,.emb (.cb 1),.code],none,false⟩⟩,⟨256,.other,false,some ⟨0,[.setEnt .internalNl,.emb (.cb 1)],some 3,true⟩⟩,⟨256,.other,false,some ⟨9,[.setEnt .internalNl,.emb (.cb 1)],none,false⟩⟩]⟩,⟨[26],none,[],[⟨256,.other,false,some ⟨10,[.code],none,false⟩⟩,⟨256,.ws,false,some ⟨11,[],none,false⟩⟩,⟨256,.lf,false,some ⟨10,[.code],none,false⟩⟩,⟨256,.vt,false,some ⟨10,[.code],none,false⟩⟩,⟨256,.ff,false,some ⟨10,[.code],none,false⟩⟩,⟨256,.cr,false,some ⟨10,[.code],none,false⟩⟩,⟨256,.cr,true,some ⟨10,[.code],none,false⟩⟩,⟨256,.other,false,some ⟨0,[],some 3,true⟩⟩,⟨256,.other,false,some ⟨12,[],none,false⟩⟩]⟩,⟨[20],none,[],[⟨256,.other,false,some ⟨10,[.setEnt .internalNl,.emb (.cb 1),.code],none,false⟩⟩,⟨256,.ws,false,some ⟨11,[.setEnt .internalNl,.emb (.cb 1)],none,false⟩⟩,⟨256,.lf,false,some ⟨10,[.setEnt .internalNl,.emb (.cb 1),.code],none,false⟩⟩,⟨256,.vt,false,some ⟨10,[.setEnt .internalNl,.emb (.cb 1),.code],none,false⟩⟩,⟨256,.ff,false,some ⟨10,[.setEnt .internalNl,.emb (.cb 1),.code],none,false⟩⟩,⟨256,.cr,false,some ⟨10,[.setEnt .internalNl,.emb (.cb 1),.code],none,false⟩⟩,⟨256,.cr,true,some ⟨10,[.setEnt .internalNl,.emb (.cb 1),.code],none,false⟩⟩,⟨256,.other,false,some ⟨0,[.setEnt .internalNl,.emb (.cb 1)],some 3,true⟩⟩,⟨256,.other,false,some ⟨12,[.setEnt .internalNl,.emb (.cb 1)],none,false⟩⟩]⟩,⟨[21],none,[],[⟨256,.other,false,some ⟨10,[.setEnt .internalNl,.emb (.cb 1),.code],none,false⟩⟩,⟨256,.ws,false,some ⟨11,[.setEnt .internalNl,.emb (.cb 1)],none,false⟩⟩,⟨256,.lf,false,some ⟨10,[.setEnt .internalNl,.emb (.cb 1),.code],none,false⟩⟩,⟨256,.vt,false,some ⟨10,[.setEnt .internalNl,.emb (.cb 1),.code],none,false⟩⟩,⟨256,.ff,false,some ⟨10,[.setEnt .internalNl,.emb (.cb 1),.code],none,false⟩⟩,⟨256,.cr,false,some ⟨10,[.setEnt .internalNl,.emb (.cb 1),.code],none,false⟩⟩,⟨256,.cr,true,some ⟨10,[.setEnt .internalNl,.emb (.cb 1),.code],none,false⟩⟩,⟨256,.other,false,some ⟨0,[.setEnt .internalNl,.emb (.cb 1)],some 3,true⟩⟩,⟨256,.other,false,some ⟨12,[.setEnt .internalNl,.emb (.cb 1)],none,false⟩⟩]⟩,⟨[18],none,[],[⟨256,.other,false,none⟩,⟨256,.ws,false,none⟩,⟨256,.lf,false,some ⟨38,[],none,false⟩⟩,⟨256,.vt,false,none⟩,⟨256,.ff,false,none⟩,⟨256,.cr,false,none⟩,⟨256,.cr,true,none⟩]⟩,⟨[18,22],none,[],[⟨256,.other,false,some ⟨10,[.setEnt .internalNl,.emb (.cb 1),.code],none,false⟩⟩,⟨256,.ws,false,some ⟨11,[.setEnt .internalNl,.emb (.cb 1)],none,false⟩⟩,⟨256,.lf,false,some ⟨39,[.setEnt .internalNl,.emb (.cb 1),.code],none,false⟩⟩,⟨256,.vt,false,some ⟨10,[.setEnt .internalNl,.emb (.cb 1),.code],none,false⟩⟩,⟨256,.ff,false,some ⟨10,[.setEnt .internalNl,.emb (.cb 1),.code],none,false⟩⟩,⟨256,.cr,false,some ⟨10,[.setEnt .internalNl,.emb (.cb 1),.code],none,false⟩⟩,⟨256,.cr,true,some ⟨10,[.setEnt .internalNl,.emb (.cb 1),.code],none,false⟩⟩,⟨256,.other,false,some ⟨0,[.setEnt .internalNl,.emb (.cb 1)],some 3,true⟩⟩,⟨256,.other,false,some ⟨12,[.setEnt .internalNl,.emb (.cb 1)],none,false⟩⟩]⟩,⟨[42],none,[],[⟨256,.other,false,some ⟨26,[],none,false⟩⟩,⟨256,.ws,false,some ⟨26,[],none,false⟩⟩,⟨256,.lf,false,none⟩,⟨256,.vt,false,some ⟨26,[],none,false⟩⟩,⟨256,.ff,false,none⟩,⟨256,.cr,false,none⟩,⟨256,.cr,true,none⟩,⟨256,.other,false,some ⟨0,[.code],some 3,true⟩⟩,⟨256,.other,false,some ⟨27,[],none,false⟩⟩]⟩,⟨[43],none,[],[⟨256,.other,false,some ⟨40,[],none,false⟩⟩,⟨256,.ws,false,some ⟨40,[],none,false⟩⟩,⟨256,.lf,false,none⟩,⟨256,.vt,false,some ⟨40,[],none,false⟩⟩,⟨256,.ff,false,none⟩,⟨256,.cr,false,none⟩,⟨256,.cr,true,none⟩]⟩,⟨[13],none,[],[⟨256,.other,false,some ⟨28,[.comment],none,false⟩⟩,⟨256,.ws,false,some ⟨29,[],none,false⟩⟩,⟨256,.lf,false,some ⟨30,[],none,false⟩⟩,⟨256,.vt,false,some ⟨28,[.comment],none,false⟩⟩,⟨256,.ff,false,some ⟨31,[],none,false⟩⟩,⟨256,.cr,false,some ⟨32,[],none,false⟩⟩,⟨256,.cr,true,some ⟨33,[],none,false⟩⟩,⟨256,.other,false,some ⟨34,[.comment],none,false⟩⟩]⟩,⟨[12],none,[],[⟨256,.other,false,some ⟨28,[.comment],none,false⟩⟩,⟨256,.ws,false,some ⟨29,[],none,false⟩⟩,⟨256,.lf,false,some ⟨30,[],none,false⟩⟩,⟨256,.vt,false,some ⟨28,[.comment],none,false⟩⟩,⟨256,.ff,false,some ⟨31,[],none,false⟩⟩,⟨256,.cr,false,some ⟨32,[],none,false⟩⟩,⟨256,.cr,true,some ⟨33,[],none,false⟩⟩,⟨256,.other,false,some ⟨34,[.comment],none,false⟩⟩]⟩,⟨[9],none,[],[⟨256,.other,false,some ⟨28,[.setEnt .internalNl,.emb (.cb 1),.comment],none,false⟩⟩,⟨256,.ws,false,some ⟨29,[.setEnt .internalNl,.emb (.cb 1)],none,false⟩⟩,⟨256,.lf,false,some ⟨30,[.setEnt .internalNl,.emb (.cb 1)],none,false⟩⟩,⟨256,.vt,false,some ⟨28,[.setEnt .internalNl,.emb (.cb 1),.comment],none,false⟩⟩,⟨256,.ff,false,some ⟨31,[.setEnt .internalNl,.emb (.cb 1)],none,false⟩⟩,⟨256,.cr,false,some ⟨32,[.setEnt .internalNl,.emb (.cb 1)],none,false⟩⟩,⟨256,.cr,true,some ⟨33,[.setEnt .internalNl,.emb (.cb 1)],none,false⟩⟩,⟨256,.other,false,some ⟨34,[.setEnt .internalNl,.emb (.cb 1),.comment],none,false⟩⟩]⟩,⟨[10],none,[],[⟨256,.other,false,some ⟨28,[.setEnt .internalNl,.emb (.cb 1),.comment],none,false⟩⟩,⟨256,.ws,false,some ⟨29,[.setEnt .internalNl,.emb (.cb 1)],none,false⟩⟩,⟨256,.lf,false,some ⟨30,[.setEnt .internalNl,.emb (.cb 1)],none,false⟩⟩,⟨256,.vt,false,some ⟨28,[.setEnt .internalNl,.emb (.cb 1),.comment],none,false⟩⟩,⟨256,.ff,false,some ⟨31,[.setEnt .internalNl,.emb (.cb 1)],none,false⟩⟩,⟨256,.cr,false,some ⟨32,[.setEnt .internalNl,.emb (.cb 1)],none,false⟩⟩,⟨256,.cr,true,some ⟨33,[.setEnt .internalNl,.emb (.cb 1)],none,false⟩⟩,⟨256,.other,false,some ⟨34,[.setEnt .internalNl,.emb (.cb 1),.comment],none,false⟩⟩]⟩,⟨[7],none,[],[⟨256,.other,false,none⟩,⟨256,.ws,false,none⟩,⟨256,.lf,false,some ⟨41,[],none,false⟩⟩,⟨256,.vt,false,none⟩,⟨256,.ff,false,none⟩,⟨256,.cr,false,none⟩,⟨256,.cr,true,none⟩]⟩,⟨[7,11],none,[],[⟨256,.other,false,some ⟨28,[.setEnt .internalNl,.emb (.cb 1),.comment],none,false⟩⟩,⟨256,.ws,false,some ⟨29,[.setEnt .internalNl,.emb (.cb 1)],none,false⟩⟩,⟨256,.lf,false,some ⟨42,[.setEnt .internalNl,.emb (.cb 1)],none,false⟩⟩,⟨256,.vt,false,some ⟨28,[.setEnt .internalNl,.emb (.cb 1),.comment],none,false⟩⟩,⟨256,.ff,false,some ⟨31,[.setEnt .internalNl,.emb (.cb 1)],none,false⟩⟩,⟨256,.cr,false,some ⟨32,[.setEnt .internalNl,.emb (.cb 1)],none,false⟩⟩,⟨256,.cr,true,some ⟨33,[.setEnt .internalNl,.emb (.cb 1)],none,false⟩⟩,⟨256,.other,false,some ⟨34,[.setEnt .internalNl,.emb (.cb 1),.comment],none,false⟩⟩]⟩,⟨[13,14],none,[],[⟨256,.other,false,some ⟨28,[.comment],none,false⟩⟩,⟨256,.ws,false,some ⟨29,[],none,false⟩⟩,⟨256,.lf,false,some ⟨30,[],none,false⟩⟩,⟨256,.vt,false,some ⟨28,[.comment],none,false⟩⟩,⟨256,.ff,false,some ⟨31,[],none,false⟩⟩,⟨256,.cr,false,some ⟨32,[],none,false⟩⟩,⟨256,.cr,true,some ⟨33,[],none,false⟩⟩,⟨256,.other,false,some ⟨34,[.comment],none,false⟩⟩,⟨256,.other,false,some ⟨0,[],some 2,true⟩⟩]⟩,⟨[4],some 2,[],[⟨256,.other,false,some ⟨35,[],some 2,false⟩⟩,⟨256,.ws,false,some ⟨35,[],some 2,false⟩⟩,⟨256,.lf,false,none⟩,⟨256,.vt,false,some ⟨35,[],some 2,false⟩⟩,⟨256,.ff,false,none⟩,⟨256,.cr,false,none⟩,⟨256,.cr,true,none⟩]⟩,⟨[31],none,[],[⟨256,.other,false,some ⟨7,[.setEnt .internalNl,.emb (.cb 1),.code],none,false⟩⟩,⟨256,.ws,false,some ⟨8,[.setEnt .internalNl,.emb (.cb 1)],none,false⟩⟩,⟨256,.lf,false,some ⟨7,[.setEnt .internalNl,.emb (.cb 1),.code],none,false⟩⟩,⟨256,.vt,false,some ⟨7,[.setEnt .internalNl,.emb (.cb 1),.code],none,false⟩⟩,⟨256,.ff,false,some ⟨7,[.setEnt .internalNl,.emb (.cb 1),.code],none,false⟩⟩,⟨256,.cr,false,some ⟨7,[.setEnt .internalNl,.emb (.cb 1),.code],none,false⟩⟩,⟨256,.cr,true,some ⟨7,[.setEnt .internalNl,.emb (.cb 1),.code],none,false⟩⟩,⟨256,.other,false,some ⟨0,[.setEnt .internalNl,.emb (.cb 1)],some 3,true⟩⟩,⟨256,.other,false,some ⟨9,[.setEnt .internalNl,.emb (.cb 1)],none,false⟩⟩]⟩,⟨[31,36],none,[],[⟨256,.other,false,some ⟨7,[.setEnt .internalNl,.emb (.cb 1),.code],none,false⟩⟩,⟨256,.ws,false,some ⟨8,[.setEnt .internalNl,.emb (.cb 1)],none,false⟩⟩,⟨256,.lf,false,some ⟨7,[.setEnt .internalNl,.emb (.cb 1),.code],none,false⟩⟩,⟨256,.vt,false,some ⟨7,[.setEnt .internalNl,.emb (.cb 1),.code],none,false⟩⟩,⟨256,.ff,false,some ⟨7,[.setEnt .internalNl,.emb (.cb 1),.code],none,false⟩⟩,⟨256,.cr,false,some ⟨7,[.setEnt .internalNl,.emb (.cb 1),.code],none,false⟩⟩,⟨256,.cr,true,some ⟨7,[.setEnt .internalNl,.emb (.cb 1),.code],none,false⟩⟩,⟨256,.other,false,some ⟨0,[.setEnt .internalNl,.emb (.cb 1)],some 3,true⟩⟩,⟨256,.other,false,some ⟨9,[.setEnt .internalNl,.emb (.cb 1)],none,false⟩⟩]⟩,⟨[19],none,[],[⟨256,.other,false,some ⟨10,[.setEnt .internalNl,.emb (.cb 1),.code],none,false⟩⟩,⟨256,.ws,false,some ⟨11,[.setEnt .internalNl,.emb (.cb 1)],none,false⟩⟩,⟨256,.lf,false,some ⟨10,[.setEnt .internalNl,.emb (.cb 1),.code],none,false⟩⟩,⟨256,.vt,false,some ⟨10,[.setEnt .internalNl,.emb (.cb 1),.code],none,false⟩⟩,⟨256,.ff,false,some ⟨10,[.setEnt .internalNl,.emb (.cb 1),.code],none,false⟩⟩,⟨256,.cr,false,some ⟨10,[.setEnt .internalNl,.emb (.cb 1),.code],none,false⟩⟩,⟨256,.cr,true,some ⟨10,[.setEnt .internalNl,.emb (.cb 1),.code],none,false⟩⟩,⟨256,.other,false,some ⟨0,[.setEnt .internalNl,.emb (.cb 1)],some 3,true⟩⟩,⟨256,.other,false,some ⟨12,[.setEnt .internalNl,.emb (.cb 1)],none,false⟩⟩]⟩,⟨[19,24],none,[],[⟨256,.other,false,some ⟨10,[.setEnt .internalNl,.emb (.cb 1),.code],none,false⟩⟩,⟨256,.ws,false,some ⟨11,[.setEnt .internalNl,.emb (.cb 1)],none,false⟩⟩,⟨256,.lf,false,some ⟨10,[.setEnt .internalNl,.emb (.cb 1),.code],none,false⟩⟩,⟨256,.vt,false,some ⟨10,[.setEnt .internalNl,.emb (.cb 1),.code],none,false⟩⟩,⟨256,.ff,false,some ⟨10,[.setEnt .internalNl,.emb (.cb 1),.code],none,false⟩⟩,⟨256,.cr,false,some ⟨10,[.setEnt .internalNl,.emb (.cb 1),.code],none,false⟩⟩,⟨256,.cr,true,some ⟨10,[.setEnt .internalNl,.emb (.cb 1),.code],none,false⟩⟩,⟨256,.other,false,some ⟨0,[.setEnt .internalNl,.emb (.cb 1)],some 3,true⟩⟩,⟨256,.other,false,some ⟨12,[.setEnt .internalNl,.emb (.cb 1)],none,false⟩⟩]⟩,⟨[44],none,[],[⟨256,.other,false,some ⟨26,[],none,false⟩⟩,⟨256,.ws,false,some ⟨26,[],none,false⟩⟩,⟨256,.lf,false,none⟩,⟨256,.vt,false,some ⟨26,[],none,false⟩⟩,⟨256,.ff,false,none⟩,⟨256,.cr,false,none⟩,⟨256,.cr,true,none⟩,⟨256,.other,false,some ⟨0,[.code],some 3,true⟩⟩,⟨256,.other,false,some ⟨27,[],none,false⟩⟩]⟩,⟨[8],none,[],[⟨256,.other,false,some ⟨28,[.setEnt .internalNl,.emb (.cb 1),.comment],none,false⟩⟩,⟨256,.ws,false,some ⟨29,[.setEnt .internalNl,.emb (.cb 1)],none,false⟩⟩,⟨256,.lf,false,some ⟨30,[.setEnt .internalNl,.emb (.cb 1)],none,false⟩⟩,⟨256,.vt,false,some ⟨28,[.setEnt .internalNl,.emb (.cb 1),.comment],none,false⟩⟩,⟨256,.ff,false,some ⟨31,[.setEnt .internalNl,.emb (.cb 1)],none,false⟩⟩,⟨256,.cr,false,some ⟨32,[.setEnt .internalNl,.emb (.cb 1)],none,false⟩⟩,⟨256,.cr,true,some ⟨33,[.setEnt .internalNl,.emb (.cb 1)],none,false⟩⟩,⟨256,.other,false,some ⟨34,[.setEnt .internalNl,.emb (.cb 1),.comment],none,false⟩⟩]⟩,⟨[8,9],none,[],[⟨256,.other,false,some ⟨28,[.setEnt .internalNl,.emb (.cb 1),.comment],none,false⟩⟩,⟨256,.ws,false,some ⟨29,[.setEnt .internalNl,.emb (.cb 1)],none,false⟩⟩,⟨256,.lf,false,some ⟨30,[.setEnt .internalNl,.emb (.cb 1)],none,false⟩⟩,⟨256,.vt,false,some ⟨28,[.setEnt .internalNl,.emb (.cb 1),.comment],none,false⟩⟩,⟨256,.ff,false,some ⟨31,[.setEnt .internalNl,.emb (.cb 1)],none,false⟩⟩,⟨256,.cr,false,some ⟨32,[.setEnt .internalNl,.emb (.cb 1)],none,false⟩⟩,⟨256,.cr,true,some ⟨33,[.setEnt .internalNl,.emb (.cb 1)],none,false⟩⟩,⟨256,.other,false,some ⟨34,[.setEnt .internalNl,.emb (.cb 1),.comment],none,false⟩⟩]⟩]
theorem emb18_rowsOk : rowsOk emb18_nfa [] (emb18_cs.map (·.1)) emb18_rows = true := by decide +kernel
def emb18_D : Dfa emb18_nfa := ⟨emb18_masks, [], emb18_cs, emb18_rows, emb18_masksIn, emb18_repOk, emb18_rowsOk⟩

/-- The automaton of `Emb.Coffeescript.coffeescript_entity`. -/
def emb20_nfa : Nfa := ⟨[⟨0,4294983168,[],[(0,.setEnt (.own 0))],0,0⟩,⟨1,34359738368,[],[(1,.setEnt (.own 1))],0,0⟩,⟨3,34359738368,[],[(1,.setEnt (.own 1))],0,2⟩,⟨10,115792089237316195423570985008687907853269984665640564039457584007908834656767,[],[],0,0⟩],[[⟨0,4294983168,[],[(0,.setEnt (.own 0))],0,0⟩],[⟨2,115792089237316195423570985008687907853269984665640564039457584007913129626623,[],[(1,.setEnt (.own 1))],0,0⟩],[⟨2,115792089237316195423570985008687907853269984665640564039457584007913129626623,[],[(1,.setEnt (.own 1))],0,0⟩],[⟨4,34359738368,[],[(1,.setEnt (.own 1))],0,2⟩],[⟨5,34359738368,[],[(1,.setEnt (.own 1))],0,2⟩],[⟨6,115792089237316195423570985008687907853269984665640564039457584007913129639935,[],[(1,.setEnt (.own 1))],0,2⟩,⟨7,34359738368,[],[(1,.setEnt (.own 1))],0,2⟩],[⟨6,115792089237316195423570985008687907853269984665640564039457584007913129639935,[],[(1,.setEnt (.own 1))],0,2⟩,⟨7,34359738368,[],[(1,.setEnt (.own 1))],0,2⟩],[⟨8,34359738368,[],[(1,.setEnt (.own 1))],0,0⟩],[⟨9,34359738368,[],[(1,.setEnt (.own 1))],2,0⟩],[],[]],[some (0,[]),some (1,[]),some (1,[]),none,none,none,none,none,none,some (1,[]),some (2,[])],[1,2,2]⟩
def emb20_masks : List Nat := [4294983168,34359738368,115792089237316195423570985008687907853269984665640564039457584007908834656767,115792089237316195423570985008687907853269984665640564039457584007913129626623,115792089237316195423570985008687907853269984665640564039457584007913129639935]
def emb20_cs : List (Nat × Nat) := [(0,115792089237316195423570985008687907853269984665640564039457584007874474918399),(9,4294967808),(10,1024),(11,2048),(12,4096),(13,8192),(35,34359738368)]
theorem emb20_masksIn : masksIn emb20_nfa emb20_masks = true := by decide +kernel
theorem emb20_repOk : repOk emb20_masks emb20_cs = true := by decide +kernel
def emb20_rows : List Row := [⟨[],none,[],[⟨256,.other,false,some ⟨0,[],some 2,true⟩⟩,⟨256,.ws,false,some ⟨1,[.setEnt (.own 0)],some 0,false⟩⟩,⟨256,.lf,false,some ⟨1,[.setEnt (.own 0)],some 0,false⟩⟩,⟨256,.vt,false,some ⟨1,[.setEnt (.own 0)],some 0,false⟩⟩,⟨256,.ff,false,some ⟨1,[.setEnt (.own 0)],some 0,false⟩⟩,⟨256,.cr,false,some ⟨1,[.setEnt (.own 0)],some 0,false⟩⟩,⟨256,.cr,true,some ⟨1,[.setEnt (.own 0)],some 0,false⟩⟩,⟨256,.other,false,some ⟨2,[.setEnt (.own 1)],some 1,false⟩⟩]⟩,⟨[0],some 0,[],[⟨256,.other,false,none⟩,⟨256,.ws,false,some ⟨1,[.setEnt (.own 0)],some 0,false⟩⟩,⟨256,.lf,false,some ⟨1,[.setEnt (.own 0)],some 0,false⟩⟩,⟨256,.vt,false,some ⟨1,[.setEnt (.own 0)],some 0,false⟩⟩,⟨256,.ff,false,some ⟨1,[.setEnt (.own 0)],some 0,false⟩⟩,⟨256,.cr,false,some ⟨1,[.setEnt (.own 0)],some 0,false⟩⟩,⟨256,.cr,true,some ⟨1,[.setEnt (.own 0)],some 0,false⟩⟩]⟩,⟨[1,3,10],some 1,[],[⟨256,.other,false,some ⟨3,[.setEnt (.own 1)],some 1,false⟩⟩,⟨256,.ws,false,some ⟨3,[.setEnt (.own 1)],some 1,false⟩⟩,⟨256,.lf,false,none⟩,⟨256,.vt,false,some ⟨3,[.setEnt (.own 1)],some 1,false⟩⟩,⟨256,.ff,false,none⟩,⟨256,.cr,false,none⟩,⟨256,.cr,true,none⟩,⟨256,.other,false,some ⟨4,[.setEnt (.own 1)],some 1,false⟩⟩]⟩,⟨[2],some 1,[],[⟨256,.other,false,some ⟨3,[.setEnt (.own 1)],some 1,false⟩⟩,⟨256,.ws,false,some ⟨3,[.setEnt (.own 1)],some 1,false⟩⟩,⟨256,.lf,false,none⟩,⟨256,.vt,false,some ⟨3,[.setEnt (.own 1)],some 1,false⟩⟩,⟨256,.ff,false,none⟩,⟨256,.cr,false,none⟩,⟨256,.cr,true,none⟩]⟩,⟨[2,4],some 1,[],[⟨256,.other,false,some ⟨3,[.setEnt (.own 1)],some 1,false⟩⟩,⟨256,.ws,false,some ⟨3,[.setEnt (.own 1)],some 1,false⟩⟩,⟨256,.lf,false,none⟩,⟨256,.vt,false,some ⟨3,[.setEnt (.own 1)],some 1,false⟩⟩,⟨256,.ff,false,none⟩,⟨256,.cr,false,none⟩,⟨256,.cr,true,none⟩,⟨256,.other,false,some ⟨5,[.setEnt (.own 1)],some 1,false⟩⟩]⟩,⟨[2,5],some 1,[],[⟨256,.other,false,some ⟨6,[.setEnt (.own 1)],some 1,false⟩⟩,⟨256,.ws,false,some ⟨6,[.setEnt (.own 1)],some 1,false⟩⟩,⟨256,.lf,false,some ⟨7,[.setEnt (.own 1)],none,false⟩⟩,⟨256,.vt,false,some ⟨6,[.setEnt (.own 1)],some 1,false⟩⟩,⟨256,.ff,false,some ⟨7,[.setEnt (.own 1)],none,false⟩⟩,⟨256,.cr,false,some ⟨7,[.setEnt (.own 1)],none,false⟩⟩,⟨256,.cr,true,some ⟨7,[.setEnt (.own 1)],none,false⟩⟩,⟨256,.other,false,some ⟨8,[.setEnt (.own 1)],some 1,false⟩⟩]⟩,⟨[2,6],some 1,[],[⟨256,.other,false,some ⟨6,[.setEnt (.own 1)],some 1,false⟩⟩,⟨256,.ws,false,some ⟨6,[.setEnt (.own 1)],some 1,false⟩⟩,⟨256,.lf,false,some ⟨7,[.setEnt (.own 1)],none,false⟩⟩,⟨256,.vt,false,some ⟨6,[.setEnt (.own 1)],some 1,false⟩⟩,⟨256,.ff,false,some ⟨7,[.setEnt (.own 1)],none,false⟩⟩,⟨256,.cr,false,some ⟨7,[.setEnt (.own 1)],none,false⟩⟩,⟨256,.cr,true,some ⟨7,[.setEnt (.own 1)],none,false⟩⟩,⟨256,.other,false,some ⟨8,[.setEnt (.own 1)],some 1,false⟩⟩]⟩,⟨[6],none,[],[⟨256,.other,false,some ⟨7,[.setEnt (.own 1)],none,false⟩⟩,⟨256,.ws,false,some ⟨7,[.setEnt (.own 1)],none,false⟩⟩,⟨256,.lf,false,some ⟨7,[.setEnt (.own 1)],none,false⟩⟩,⟨256,.vt,false,some ⟨7,[.setEnt (.own 1)],none,false⟩⟩,⟨256,.ff,false,some ⟨7,[.setEnt (.own 1)],none,false⟩⟩,⟨256,.cr,false,some ⟨7,[.setEnt (.own 1)],none,false⟩⟩,⟨256,.cr,true,some ⟨7,[.setEnt (.own 1)],none,false⟩⟩,⟨256,.other,false,some ⟨9,[.setEnt (.own 1)],none,false⟩⟩]⟩,⟨[2,6,7],some 1,[],[⟨256,.other,false,some ⟨6,[.setEnt (.own 1)],some 1,false⟩⟩,⟨256,.ws,false,some ⟨6,[.setEnt (.own 1)],some 1,false⟩⟩,⟨256,.lf,false,some ⟨7,[.setEnt (.own 1)],none,false⟩⟩,⟨256,.vt,false,some ⟨6,[.setEnt (.own 1)],some 1,false⟩⟩,⟨256,.ff,false,some ⟨7,[.setEnt (.own 1)],none,false⟩⟩,⟨256,.cr,false,some ⟨7,[.setEnt (.own 1)],none,false⟩⟩,⟨256,.cr,true,some ⟨7,[.setEnt (.own 1)],none,false⟩⟩,⟨256,.other,false,some ⟨10,[.setEnt (.own 1)],some 1,false⟩⟩]⟩,⟨[6,7],none,[],[⟨256,.other,false,some ⟨7,[.setEnt (.own 1)],none,false⟩⟩,⟨256,.ws,false,some ⟨7,[.setEnt (.own 1)],none,false⟩⟩,⟨256,.lf,false,some ⟨7,[.setEnt (.own 1)],none,false⟩⟩,⟨256,.vt,false,some ⟨7,[.setEnt (.own 1)],none,false⟩⟩,⟨256,.ff,false,some ⟨7,[.setEnt (.own 1)],none,false⟩⟩,⟨256,.cr,false,some ⟨7,[.setEnt (.own 1)],none,false⟩⟩,⟨256,.cr,true,some ⟨7,[.setEnt (.own 1)],none,false⟩⟩,⟨256,.other,false,some ⟨11,[.setEnt (.own 1)],none,false⟩⟩]⟩,⟨[2,6,7,8],some 1,[],[⟨256,.other,false,some ⟨6,[.setEnt (.own 1)],some 1,false⟩⟩,⟨256,.ws,false,some ⟨6,[.setEnt (.own 1)],some 1,false⟩⟩,⟨256,.lf,false,some ⟨7,[.setEnt (.own 1)],none,false⟩⟩,⟨256,.vt,false,some ⟨6,[.setEnt (.own 1)],some 1,false⟩⟩,⟨256,.ff,false,some ⟨7,[.setEnt (.own 1)],none,false⟩⟩,⟨256,.cr,false,some ⟨7,[.setEnt (.own 1)],none,false⟩⟩,⟨256,.cr,true,some ⟨7,[.setEnt (.own 1)],none,false⟩⟩,⟨256,.other,false,some ⟨12,[.setEnt (.own 1)],some 1,false⟩⟩]⟩,⟨[6,7,8],none,[],[⟨256,.other,false,some ⟨7,[.setEnt (.own 1)],none,false⟩⟩,⟨256,.ws,false,some ⟨7,[.setEnt (.own 1)],none,false⟩⟩,⟨256,.lf,false,some ⟨7,[.setEnt (.own 1)],none,false⟩⟩,⟨256,.vt,false,some ⟨7,[.setEnt (.own 1)],none,false⟩⟩,⟨256,.ff,false,some ⟨7,[.setEnt (.own 1)],none,false⟩⟩,⟨256,.cr,false,some ⟨7,[.setEnt (.own 1)],none,false⟩⟩,⟨256,.cr,true,some ⟨7,[.setEnt (.own 1)],none,false⟩⟩,⟨256,.other,false,some ⟨13,[.setEnt (.own 1)],some 1,false⟩⟩]⟩,⟨[2,8,9],some 1,[],[⟨256,.other,false,some ⟨3,[.setEnt (.own 1)],some 1,false⟩⟩,⟨256,.ws,false,some ⟨3,[.setEnt (.own 1)],some 1,false⟩⟩,⟨256,.lf,false,none⟩,⟨256,.vt,false,some ⟨3,[.setEnt (.own 1)],some 1,false⟩⟩,⟨256,.ff,false,none⟩,⟨256,.cr,false,none⟩,⟨256,.cr,true,none⟩,⟨256,.other,false,some ⟨14,[.setEnt (.own 1)],some 1,false⟩⟩]⟩,⟨[8,9],some 1,[],[⟨256,.other,false,none⟩,⟨256,.ws,false,none⟩,⟨256,.lf,false,none⟩,⟨256,.vt,false,none⟩,⟨256,.ff,false,none⟩,⟨256,.cr,false,none⟩,⟨256,.cr,true,none⟩,⟨256,.other,false,some ⟨0,[.setEnt (.own 1)],some 1,true⟩⟩]⟩,⟨[2,9],some 1,[],[⟨256,.other,false,some ⟨3,[.setEnt (.own 1)],some 1,false⟩⟩,⟨256,.ws,false,some ⟨3,[.setEnt (.own 1)],some 1,false⟩⟩,⟨256,.lf,false,none⟩,⟨256,.vt,false,some ⟨3,[.setEnt (.own 1)],some 1,false⟩⟩,⟨256,.ff,false,none⟩,⟨256,.cr,false,none⟩,⟨256,.cr,true,none⟩]⟩]
theorem emb20_rowsOk : rowsOk emb20_nfa [] (emb20_cs.map (·.1)) emb20_rows = true := by decide +kernel
def emb20_D : Dfa emb20_nfa := ⟨emb20_masks, [], emb20_cs, emb20_rows, emb20_masksIn, emb20_repOk, emb20_rowsOk⟩

/-- The automaton of `Emb.MetapostWithTex.mptex_tex_entity`. -/
def emb23_nfa : Nfa := ⟨[⟨0,2535301200456458802993406410752,[],[],0,0⟩,⟨4,4294983168,[],[(1,.setEnt (.own 0))],0,0⟩,⟨5,137438953472,[],[(2,.setEnt (.own 1))],0,0⟩,⟨7,115792089237316195423570985008687907853269984665640564039457584007908834656767,[],[],0,0⟩],[[⟨1,83076749736557242056487941267521536,[],[],0,0⟩],[⟨2,2535301200456458802993406410752,[],[],0,0⟩],[⟨3,1329227995784915872903807060280344576,[],[(0,.emb .ret)],0,0⟩],[],[⟨4,4294983168,[],[(1,.setEnt (.own 0))],0,0⟩],[⟨6,115792089237316195423570985008687907853269984665640564039457584007913129626623,[],[(2,.setEnt (.own 1))],0,0⟩],[⟨6,115792089237316195423570985008687907853269984665640564039457584007913129626623,[],[(2,.setEnt (.own 1))],0,0⟩],[]],[none,none,none,some (0,[]),some (1,[]),some (2,[]),some (2,[]),some (3,[])],[1,2,3,3]⟩
def emb23_masks : List Nat := [2535301200456458802993406410752,4294983168,137438953472,115792089237316195423570985008687907853269984665640564039457584007908834656767,83076749736557242056487941267521536,1329227995784915872903807060280344576,115792089237316195423570985008687907853269984665640564039457584007913129626623]
def emb23_cs : List (Nat × Nat) := [(0,115792089237316195423570985008687907853268572358359741365886164909776441426431),(9,4294967808),(10,1024),(11,2048),(12,4096),(13,8192),(37,137438953472),(101,2535301200456458802993406410752),(116,83076749736557242056487941267521536),(120,1329227995784915872903807060280344576)]
theorem emb23_masksIn : masksIn emb23_nfa emb23_masks = true := by decide +kernel
theorem emb23_repOk : repOk emb23_masks emb23_cs = true := by decide +kernel
def emb23_rows : List Row := [⟨[],none,[],[⟨256,.other,false,some ⟨0,[],some 3,true⟩⟩,⟨256,.ws,false,some ⟨1,[.setEnt (.own 0)],some 1,false⟩⟩,⟨256,.lf,false,some ⟨1,[.setEnt (.own 0)],some 1,false⟩⟩,⟨256,.vt,false,some ⟨1,[.setEnt (.own 0)],some 1,false⟩⟩,⟨256,.ff,false,some ⟨1,[.setEnt (.own 0)],some 1,false⟩⟩,⟨256,.cr,false,some ⟨1,[.setEnt (.own 0)],some 1,false⟩⟩,⟨256,.cr,true,some ⟨1,[.setEnt (.own 0)],some 1,false⟩⟩,⟨256,.other,false,some ⟨2,[.setEnt (.own 1)],some 2,false⟩⟩,⟨256,.other,false,some ⟨3,[],some 3,false⟩⟩]⟩,⟨[4],some 1,[],[⟨256,.other,false,none⟩,⟨256,.ws,false,some ⟨1,[.setEnt (.own 0)],some 1,false⟩⟩,⟨256,.lf,false,some ⟨1,[.setEnt (.own 0)],some 1,false⟩⟩,⟨256,.vt,false,some ⟨1,[.setEnt (.own 0)],some 1,false⟩⟩,⟨256,.ff,false,some ⟨1,[.setEnt (.own 0)],some 1,false⟩⟩,⟨256,.cr,false,some ⟨1,[.setEnt (.own 0)],some 1,false⟩⟩,⟨256,.cr,true,some ⟨1,[.setEnt (.own 0)],some 1,false⟩⟩]⟩,⟨[5,7],some 2,[],[⟨256,.other,false,some ⟨4,[.setEnt (.own 1)],some 2,false⟩⟩,⟨256,.ws,false,some ⟨4,[.setEnt (.own 1)],some 2,false⟩⟩,⟨256,.lf,false,none⟩,⟨256,.vt,false,some ⟨4,[.setEnt (.own 1)],some 2,false⟩⟩,⟨256,.ff,false,none⟩,⟨256,.cr,false,none⟩,⟨256,.cr,true,none⟩]⟩,⟨[0,7],some 3,[],[⟨256,.other,false,none⟩,⟨256,.ws,false,none⟩,⟨256,.lf,false,none⟩,⟨256,.vt,false,none⟩,⟨256,.ff,false,none⟩,⟨256,.cr,false,none⟩,⟨256,.cr,true,none⟩,⟨256,.other,false,some ⟨5,[],none,false⟩⟩]⟩,⟨[6],some 2,[],[⟨256,.other,false,some ⟨4,[.setEnt (.own 1)],some 2,false⟩⟩,⟨256,.ws,false,some ⟨4,[.setEnt (.own 1)],some 2,false⟩⟩,⟨256,.lf,false,none⟩,⟨256,.vt,false,some ⟨4,[.setEnt (.own 1)],some 2,false⟩⟩,⟨256,.ff,false,none⟩,⟨256,.cr,false,none⟩,⟨256,.cr,true,none⟩]⟩,⟨[1],none,[],[⟨256,.other,false,none⟩,⟨256,.ws,false,none⟩,⟨256,.lf,false,none⟩,⟨256,.vt,false,none⟩,⟨256,.ff,false,none⟩,⟨256,.cr,false,none⟩,⟨256,.cr,true,none⟩,⟨256,.other,false,some ⟨6,[],none,false⟩⟩]⟩,⟨[2],none,[],[⟨256,.other,false,none⟩,⟨256,.ws,false,none⟩,⟨256,.lf,false,none⟩,⟨256,.vt,false,none⟩,⟨256,.ff,false,none⟩,⟨256,.cr,false,none⟩,⟨256,.cr,true,none⟩,⟨256,.other,false,some ⟨0,[.emb .ret],some 0,true⟩⟩]⟩]
theorem emb23_rowsOk : rowsOk emb23_nfa [] (emb23_cs.map (·.1)) emb23_rows = true := by decide +kernel
def emb23_D : Dfa emb23_nfa := ⟨emb23_masks, [], emb23_cs, emb23_rows, emb23_masksIn, emb23_repOk, emb23_rowsOk⟩

/-- The automaton of `Emb.Jsp.jsp_sq_str`. -/
def emb26_nfa : Nfa := ⟨[⟨0,1152921504606846976,[],[],0,0⟩,⟨2,8192,[],[],0,0⟩,⟨4,1024,[],[],0,0⟩,⟨5,4096,[],[],0,0⟩,⟨6,8192,[.crAlone],[],0,0⟩,⟨7,4294967808,[],[],0,0⟩,⟨8,115792089237316195423570985008687907853269984665635612279299289564754875501055,[],[(3,.code)],0,0⟩,⟨9,4951760157141521099596496896,[],[],0,0⟩,⟨11,1152921504606846976,[],[],0,0⟩,⟨16,549755813888,[],[(5,.emb (.goto 6))],0,0⟩],[[⟨1,137438953472,[],[(0,.emb (.sawCall 3 5))],0,0⟩],[⟨0,1152921504606846976,[],[],0,0⟩,⟨2,8192,[],[],0,0⟩,⟨4,1024,[],[],0,0⟩,⟨5,4096,[],[],0,0⟩,⟨6,8192,[.crAlone],[],0,0⟩,⟨7,4294967808,[],[],0,0⟩,⟨8,115792089237316195423570985008687907853269984665635612279299289564754875501055,[],[(3,.code)],0,0⟩,⟨9,4951760157141521099596496896,[],[],0,0⟩,⟨11,1152921504606846976,[],[],0,0⟩,⟨16,549755813888,[],[(5,.emb (.goto 6))],0,0⟩],[⟨3,1024,[],[],0,0⟩],[⟨0,1152921504606846976,[],[(1,.setEnt .internalNl),(2,.cb)],0,0⟩,⟨2,8192,[],[(1,.setEnt .internalNl),(2,.cb)],0,0⟩,⟨4,1024,[],[(1,.setEnt .internalNl),(2,.cb)],0,0⟩,⟨5,4096,[],[(1,.setEnt .internalNl),(2,.cb)],0,0⟩,⟨6,8192,[.crAlone],[(1,.setEnt .internalNl),(2,.cb)],0,0⟩,⟨7,4294967808,[],[(1,.setEnt .internalNl),(2,.cb)],0,0⟩,⟨8,115792089237316195423570985008687907853269984665635612279299289564754875501055,[],[(1,.setEnt .internalNl),(2,.cb),(3,.code)],0,0⟩,⟨9,4951760157141521099596496896,[],[(1,.setEnt .internalNl),(2,.cb)],0,0⟩,⟨11,1152921504606846976,[],[(1,.setEnt .internalNl),(2,.cb)],0,0⟩,⟨16,549755813888,[],[(1,.setEnt .internalNl),(2,.cb),(5,.emb (.goto 6))],0,0⟩],[⟨0,1152921504606846976,[],[(1,.setEnt .internalNl),(2,.cb)],0,0⟩,⟨2,8192,[],[(1,.setEnt .internalNl),(2,.cb)],0,0⟩,⟨4,1024,[],[(1,.setEnt .internalNl),(2,.cb)],0,0⟩,⟨5,4096,[],[(1,.setEnt .internalNl),(2,.cb)],0,0⟩,⟨6,8192,[.crAlone],[(1,.setEnt .internalNl),(2,.cb)],0,0⟩,⟨7,4294967808,[],[(1,.setEnt .internalNl),(2,.cb)],0,0⟩,⟨8,115792089237316195423570985008687907853269984665635612279299289564754875501055,[],[(1,.setEnt .internalNl),(2,.cb),(3,.code)],0,0⟩,⟨9,4951760157141521099596496896,[],[(1,.setEnt .internalNl),(2,.cb)],0,0⟩,⟨11,1152921504606846976,[],[(1,.setEnt .internalNl),(2,.cb)],0,0⟩,⟨16,549755813888,[],[(1,.setEnt .internalNl),(2,.cb),(5,.emb (.goto 6))],0,0⟩],[⟨0,1152921504606846976,[],[(1,.setEnt .internalNl),(2,.cb)],0,0⟩,⟨2,8192,[],[(1,.setEnt .internalNl),(2,.cb)],0,0⟩,⟨4,1024,[],[(1,.setEnt .internalNl),(2,.cb)],0,0⟩,⟨5,4096,[],[(1,.setEnt .internalNl),(2,.cb)],0,0⟩,⟨6,8192,[.crAlone],[(1,.setEnt .internalNl),(2,.cb)],0,0⟩,⟨7,4294967808,[],[(1,.setEnt .internalNl),(2,.cb)],0,0⟩,⟨8,115792089237316195423570985008687907853269984665635612279299289564754875501055,[],[(1,.setEnt .internalNl),(2,.cb),(3,.code)],0,0⟩,⟨9,4951760157141521099596496896,[],[(1,.setEnt .internalNl),(2,.cb)],0,0⟩,⟨11,1152921504606846976,[],[(1,.setEnt .internalNl),(2,.cb)],0,0⟩,⟨16,549755813888,[],[(1,.setEnt .internalNl),(2,.cb),(5,.emb (.goto 6))],0,0⟩],[⟨0,1152921504606846976,[],[(1,.setEnt .internalNl),(2,.cb)],0,0⟩,⟨2,8192,[],[(1,.setEnt .internalNl),(2,.cb)],0,0⟩,⟨4,1024,[],[(1,.setEnt .internalNl),(2,.cb)],0,0⟩,⟨5,4096,[],[(1,.setEnt .internalNl),(2,.cb)],0,0⟩,⟨6,8192,[.crAlone],[(1,.setEnt .internalNl),(2,.cb)],0,0⟩,⟨7,4294967808,[],[(1,.setEnt .internalNl),(2,.cb)],0,0⟩,⟨8,115792089237316195423570985008687907853269984665635612279299289564754875501055,[],[(1,.setEnt .internalNl),(2,.cb),(3,.code)],0,0⟩,⟨9,4951760157141521099596496896,[],[(1,.setEnt .internalNl),(2,.cb)],0,0⟩,⟨11,1152921504606846976,[],[(1,.setEnt .internalNl),(2,.cb)],0,0⟩,⟨16,549755813888,[],[(1,.setEnt .internalNl),(2,.cb),(5,.emb (.goto 6))],0,0⟩],[⟨0,1152921504606846976,[],[],0,0⟩,⟨2,8192,[],[],0,0⟩,⟨4,1024,[],[],0,0⟩,⟨5,4096,[],[],0,0⟩,⟨6,8192,[.crAlone],[],0,0⟩,⟨7,4294967808,[],[],0,0⟩,⟨8,115792089237316195423570985008687907853269984665635612279299289564754875501055,[],[(3,.code)],0,0⟩,⟨9,4951760157141521099596496896,[],[],0,0⟩,⟨11,1152921504606846976,[],[],0,0⟩,⟨16,549755813888,[],[(5,.emb (.goto 6))],0,0⟩],[⟨0,1152921504606846976,[],[],0,0⟩,⟨2,8192,[],[],0,0⟩,⟨4,1024,[],[],0,0⟩,⟨5,4096,[],[],0,0⟩,⟨6,8192,[.crAlone],[],0,0⟩,⟨7,4294967808,[],[],0,0⟩,⟨8,115792089237316195423570985008687907853269984665635612279299289564754875501055,[],[(3,.code)],0,0⟩,⟨9,4951760157141521099596496896,[],[],0,0⟩,⟨11,1152921504606846976,[],[],0,0⟩,⟨16,549755813888,[],[(5,.emb (.goto 6))],0,0⟩],[⟨10,115792089237316195423570985008687907853269984665640564039457584007913129626623,[],[(4,.code)],0,0⟩],[⟨0,1152921504606846976,[],[],0,0⟩,⟨2,8192,[],[],0,0⟩,⟨4,1024,[],[],0,0⟩,⟨5,4096,[],[],0,0⟩,⟨6,8192,[.crAlone],[],0,0⟩,⟨7,4294967808,[],[],0,0⟩,⟨8,115792089237316195423570985008687907853269984665635612279299289564754875501055,[],[(3,.code)],0,0⟩,⟨9,4951760157141521099596496896,[],[],0,0⟩,⟨11,1152921504606846976,[],[],0,0⟩,⟨16,549755813888,[],[(5,.emb (.goto 6))],0,0⟩],[⟨12,115792089237316195423570985008687907853269984665640564039457584007775690686463,[],[],0,0⟩,⟨13,137438953472,[],[],0,0⟩,⟨0,1152921504606846976,[],[],0,0⟩,⟨2,8192,[],[],0,0⟩,⟨4,1024,[],[],0,0⟩,⟨5,4096,[],[],0,0⟩,⟨6,8192,[.crAlone],[],0,0⟩,⟨7,4294967808,[],[],0,0⟩,⟨8,115792089237316195423570985008687907853269984665635612279299289564754875501055,[],[(3,.code)],0,0⟩,⟨9,4951760157141521099596496896,[],[],0,0⟩,⟨11,1152921504606846976,[],[],0,0⟩,⟨16,549755813888,[],[(5,.emb (.goto 6))],0,0⟩],[⟨15,115792089237316195423570985008687907853269984665640564039457584007913129639935,[],[],0,0⟩,⟨0,1152921504606846976,[],[],0,0⟩,⟨2,8192,[],[],0,0⟩,⟨4,1024,[],[],0,0⟩,⟨5,4096,[],[],0,0⟩,⟨6,8192,[.crAlone],[],0,0⟩,⟨7,4294967808,[],[],0,0⟩,⟨8,115792089237316195423570985008687907853269984665635612279299289564754875501055,[],[(3,.code)],0,0⟩,⟨9,4951760157141521099596496896,[],[],0,0⟩,⟨11,1152921504606846976,[],[],0,0⟩,⟨16,549755813888,[],[(5,.emb (.goto 6))],0,0⟩],[⟨14,115792089237316195423570985008687907853269984665640564039457584007913129639935,[],[],0,0⟩],[⟨15,115792089237316195423570985008687907853269984665640564039457584007913129639935,[],[],0,0⟩,⟨0,1152921504606846976,[],[],0,0⟩,⟨2,8192,[],[],0,0⟩,⟨4,1024,[],[],0,0⟩,⟨5,4096,[],[],0,0⟩,⟨6,8192,[.crAlone],[],0,0⟩,⟨7,4294967808,[],[],0,0⟩,⟨8,115792089237316195423570985008687907853269984665635612279299289564754875501055,[],[(3,.code)],0,0⟩,⟨9,4951760157141521099596496896,[],[],0,0⟩,⟨11,1152921504606846976,[],[],0,0⟩,⟨16,549755813888,[],[(5,.emb (.goto 6))],0,0⟩],[⟨15,115792089237316195423570985008687907853269984665640564039457584007913129639935,[],[],0,0⟩,⟨0,1152921504606846976,[],[],0,0⟩,⟨2,8192,[],[],0,0⟩,⟨4,1024,[],[],0,0⟩,⟨5,4096,[],[],0,0⟩,⟨6,8192,[.crAlone],[],0,0⟩,⟨7,4294967808,[],[],0,0⟩,⟨8,115792089237316195423570985008687907853269984665635612279299289564754875501055,[],[(3,.code)],0,0⟩,⟨9,4951760157141521099596496896,[],[],0,0⟩,⟨11,1152921504606846976,[],[],0,0⟩,⟨16,549755813888,[],[(5,.emb (.goto 6))],0,0⟩],[]],[none,none,none,none,none,none,none,none,none,none,none,none,none,none,none,none,some (0,[])],[6]⟩
def emb26_masks : List Nat := [1152921504606846976,8192,1024,4096,4294967808,115792089237316195423570985008687907853269984665635612279299289564754875501055,4951760157141521099596496896,549755813888,137438953472,115792089237316195423570985008687907853269984665640564039457584007913129626623,115792089237316195423570985008687907853269984665640564039457584007775690686463,115792089237316195423570985008687907853269984665640564039457584007913129639935]
def emb26_cs : List (Nat × Nat) := [(0,115792089237316195423570985008687907853269984665635612279299289564617436545535),(9,4294967808),(10,1024),(11,2048),(12,4096),(13,8192),(37,137438953472),(39,549755813888),(60,1152921504606846976),(92,4951760157141521099596496896)]
theorem emb26_masksIn : masksIn emb26_nfa emb26_masks = true := by decide +kernel
theorem emb26_repOk : repOk emb26_masks emb26_cs = true := by decide +kernel
def emb26_rows : List Row := [⟨[],none,[],[⟨256,.other,false,some ⟨1,[.code],none,false⟩⟩,⟨256,.ws,false,some ⟨2,[],none,false⟩⟩,⟨256,.lf,false,some ⟨3,[],none,false⟩⟩,⟨256,.vt,false,some ⟨1,[.code],none,false⟩⟩,⟨256,.ff,false,some ⟨4,[],none,false⟩⟩,⟨256,.cr,false,some ⟨5,[],none,false⟩⟩,⟨256,.cr,true,some ⟨6,[],none,false⟩⟩,⟨256,.other,false,some ⟨0,[.emb (.goto 6)],some 0,true⟩⟩,⟨256,.other,false,some ⟨7,[],none,false⟩⟩,⟨256,.other,false,some ⟨8,[],none,false⟩⟩]⟩,⟨[8],none,[],[⟨256,.other,false,some ⟨1,[.code],none,false⟩⟩,⟨256,.ws,false,some ⟨2,[],none,false⟩⟩,⟨256,.lf,false,some ⟨3,[],none,false⟩⟩,⟨256,.vt,false,some ⟨1,[.code],none,false⟩⟩,⟨256,.ff,false,some ⟨4,[],none,false⟩⟩,⟨256,.cr,false,some ⟨5,[],none,false⟩⟩,⟨256,.cr,true,some ⟨6,[],none,false⟩⟩,⟨256,.other,false,some ⟨0,[.emb (.goto 6)],some 0,true⟩⟩,⟨256,.other,false,some ⟨7,[],none,false⟩⟩,⟨256,.other,false,some ⟨8,[],none,false⟩⟩]⟩,⟨[7],none,[],[⟨256,.other,false,some ⟨1,[.code],none,false⟩⟩,⟨256,.ws,false,some ⟨2,[],none,false⟩⟩,⟨256,.lf,false,some ⟨3,[],none,false⟩⟩,⟨256,.vt,false,some ⟨1,[.code],none,false⟩⟩,⟨256,.ff,false,some ⟨4,[],none,false⟩⟩,⟨256,.cr,false,some ⟨5,[],none,false⟩⟩,⟨256,.cr,true,some ⟨6,[],none,false⟩⟩,⟨256,.other,false,some ⟨0,[.emb (.goto 6)],some 0,true⟩⟩,⟨256,.other,false,some ⟨7,[],none,false⟩⟩,⟨256,.other,false,some ⟨8,[],none,false⟩⟩]⟩,⟨[4],none,[],[⟨256,.other,false,some ⟨1,[.setEnt .internalNl,.cb,.code],none,false⟩⟩,⟨256,.ws,false,some ⟨2,[.setEnt .internalNl,.cb],none,false⟩⟩,⟨256,.lf,false,some ⟨3,[.setEnt .internalNl,.cb],none,false⟩⟩,⟨256,.vt,false,some ⟨1,[.setEnt .internalNl,.cb,.code],none,false⟩⟩,⟨256,.ff,false,some ⟨4,[.setEnt .internalNl,.cb],none,false⟩⟩,⟨256,.cr,false,some ⟨5,[.setEnt .internalNl,.cb],none,false⟩⟩,⟨256,.cr,true,some ⟨6,[.setEnt .internalNl,.cb],none,false⟩⟩,⟨256,.other,false,some ⟨0,[.setEnt .internalNl,.cb,.emb (.goto 6)],some 0,true⟩⟩,⟨256,.other,false,some ⟨7,[.setEnt .internalNl,.cb],none,false⟩⟩,⟨256,.other,false,some ⟨8,[.setEnt .internalNl,.cb],none,false⟩⟩]⟩,⟨[5],none,[],[⟨256,.other,false,some ⟨1,[.setEnt .internalNl,.cb,.code],none,false⟩⟩,⟨256,.ws,false,some ⟨2,[.setEnt .internalNl,.cb],none,false⟩⟩,⟨256,.lf,false,some ⟨3,[.setEnt .internalNl,.cb],none,false⟩⟩,⟨256,.vt,false,some ⟨1,[.setEnt .internalNl,.cb,.code],none,false⟩⟩,⟨256,.ff,false,some ⟨4,[.setEnt .internalNl,.cb],none,false⟩⟩,⟨256,.cr,false,some ⟨5,[.setEnt .internalNl,.cb],none,false⟩⟩,⟨256,.cr,true,some ⟨6,[.setEnt .internalNl,.cb],none,false⟩⟩,⟨256,.other,false,some ⟨0,[.setEnt .internalNl,.cb,.emb (.goto 6)],some 0,true⟩⟩,⟨256,.other,false,some ⟨7,[.setEnt .internalNl,.cb],none,false⟩⟩,⟨256,.other,false,some ⟨8,[.setEnt .internalNl,.cb],none,false⟩⟩]⟩,⟨[2],none,[],[⟨256,.other,false,none⟩,⟨256,.ws,false,none⟩,⟨256,.lf,false,some ⟨9,[],none,false⟩⟩,⟨256,.vt,false,none⟩,⟨256,.ff,false,none⟩,⟨256,.cr,false,none⟩,⟨256,.cr,true,none⟩]⟩,⟨[2,6],none,[],[⟨256,.other,false,some ⟨1,[.setEnt .internalNl,.cb,.code],none,false⟩⟩,⟨256,.ws,false,some ⟨2,[.setEnt .internalNl,.cb],none,false⟩⟩,⟨256,.lf,false,some ⟨10,[.setEnt .internalNl,.cb],none,false⟩⟩,⟨256,.vt,false,some ⟨1,[.setEnt .internalNl,.cb,.code],none,false⟩⟩,⟨256,.ff,false,some ⟨4,[.setEnt .internalNl,.cb],none,false⟩⟩,⟨256,.cr,false,some ⟨5,[.setEnt .internalNl,.cb],none,false⟩⟩,⟨256,.cr,true,some ⟨6,[.setEnt .internalNl,.cb],none,false⟩⟩,⟨256,.other,false,some ⟨0,[.setEnt .internalNl,.cb,.emb (.goto 6)],some 0,true⟩⟩,⟨256,.other,false,some ⟨7,[.setEnt .internalNl,.cb],none,false⟩⟩,⟨256,.other,false,some ⟨8,[.setEnt .internalNl,.cb],none,false⟩⟩]⟩,⟨[0,11],none,[],[⟨256,.other,false,some ⟨11,[.code],none,false⟩⟩,⟨256,.ws,false,some ⟨12,[],none,false⟩⟩,⟨256,.lf,false,some ⟨13,[],none,false⟩⟩,⟨256,.vt,false,some ⟨11,[.code],none,false⟩⟩,⟨256,.ff,false,some ⟨14,[],none,false⟩⟩,⟨256,.cr,false,some ⟨15,[],none,false⟩⟩,⟨256,.cr,true,some ⟨16,[],none,false⟩⟩,⟨256,.other,false,some ⟨17,[.emb (.sawCall 3 5),.code],none,false⟩⟩,⟨256,.other,false,some ⟨18,[.emb (.goto 6)],some 0,false⟩⟩,⟨256,.other,false,some ⟨19,[],none,false⟩⟩,⟨256,.other,false,some ⟨20,[],none,false⟩⟩]⟩,⟨[9],none,[],[⟨256,.other,false,some ⟨21,[.code],none,false⟩⟩,⟨256,.ws,false,some ⟨21,[.code],none,false⟩⟩,⟨256,.lf,false,none⟩,⟨256,.vt,false,some ⟨21,[.code],none,false⟩⟩,⟨256,.ff,false,none⟩,⟨256,.cr,false,none⟩,⟨256,.cr,true,none⟩]⟩,⟨[3],none,[],[⟨256,.other,false,some ⟨1,[.setEnt .internalNl,.cb,.code],none,false⟩⟩,⟨256,.ws,false,some ⟨2,[.setEnt .internalNl,.cb],none,false⟩⟩,⟨256,.lf,false,some ⟨3,[.setEnt .internalNl,.cb],none,false⟩⟩,⟨256,.vt,false,some ⟨1,[.setEnt .internalNl,.cb,.code],none,false⟩⟩,⟨256,.ff,false,some ⟨4,[.setEnt .internalNl,.cb],none,false⟩⟩,⟨256,.cr,false,some ⟨5,[.setEnt .internalNl,.cb],none,false⟩⟩,⟨256,.cr,true,some ⟨6,[.setEnt .internalNl,.cb],none,false⟩⟩,⟨256,.other,false,some ⟨0,[.setEnt .internalNl,.cb,.emb (.goto 6)],some 0,true⟩⟩,⟨256,.other,false,some ⟨7,[.setEnt .internalNl,.cb],none,false⟩⟩,⟨256,.other,false,some ⟨8,[.setEnt .internalNl,.cb],none,false⟩⟩]⟩,⟨[3,4],none,[],[⟨256,.other,false,some ⟨1,[.setEnt .internalNl,.cb,.code],none,false⟩⟩,⟨256,.ws,false,some ⟨2,[.setEnt .internalNl,.cb],none,false⟩⟩,⟨256,.lf,false,some ⟨3,[.setEnt .internalNl,.cb],none,false⟩⟩,⟨256,.vt,false,some ⟨1,[.setEnt .internalNl,.cb,.code],none,false⟩⟩,⟨256,.ff,false,some ⟨4,[.setEnt .internalNl,.cb],none,false⟩⟩,⟨256,.cr,false,some ⟨5,[.setEnt .internalNl,.cb],none,false⟩⟩,⟨256,.cr,true,some ⟨6,[.setEnt .internalNl,.cb],none,false⟩⟩,⟨256,.other,false,some ⟨0,[.setEnt .internalNl,.cb,.emb (.goto 6)],some 0,true⟩⟩,⟨256,.other,false,some ⟨7,[.setEnt .internalNl,.cb],none,false⟩⟩,⟨256,.other,false,some ⟨8,[.setEnt .internalNl,.cb],none,false⟩⟩]⟩,⟨[8,12],none,[],[⟨256,.other,false,some ⟨22,[.code],none,false⟩⟩,⟨256,.ws,false,some ⟨23,[],none,false⟩⟩,⟨256,.lf,false,some ⟨24,[],none,false⟩⟩,⟨256,.vt,false,some ⟨22,[.code],none,false⟩⟩,⟨256,.ff,false,some ⟨25,[],none,false⟩⟩,⟨256,.cr,false,some ⟨26,[],none,false⟩⟩,⟨256,.cr,true,some ⟨27,[],none,false⟩⟩,⟨256,.other,false,some ⟨28,[.emb (.goto 6)],some 0,false⟩⟩,⟨256,.other,false,some ⟨29,[],none,false⟩⟩,⟨256,.other,false,some ⟨30,[],none,false⟩⟩]⟩,⟨[7,12],none,[],[⟨256,.other,false,some ⟨22,[.code],none,false⟩⟩,⟨256,.ws,false,some ⟨23,[],none,false⟩⟩,⟨256,.lf,false,some ⟨24,[],none,false⟩⟩,⟨256,.vt,false,some ⟨22,[.code],none,false⟩⟩,⟨256,.ff,false,some ⟨25,[],none,false⟩⟩,⟨256,.cr,false,some ⟨26,[],none,false⟩⟩,⟨256,.cr,true,some ⟨27,[],none,false⟩⟩,⟨256,.other,false,some ⟨28,[.emb (.goto 6)],some 0,false⟩⟩,⟨256,.other,false,some ⟨29,[],none,false⟩⟩,⟨256,.other,false,some ⟨30,[],none,false⟩⟩]⟩,⟨[4,12],none,[],[⟨256,.other,false,some ⟨22,[.setEnt .internalNl,.cb,.code],none,false⟩⟩,⟨256,.ws,false,some ⟨23,[.setEnt .internalNl,.cb],none,false⟩⟩,⟨256,.lf,false,some ⟨24,[.setEnt .internalNl,.cb],none,false⟩⟩,⟨256,.vt,false,some ⟨22,[.setEnt .internalNl,.cb,.code],none,false⟩⟩,⟨256,.ff,false,some ⟨25,[.setEnt .internalNl,.cb],none,false⟩⟩,⟨256,.cr,false,some ⟨26,[.setEnt .internalNl,.cb],none,false⟩⟩,⟨256,.cr,true,some ⟨27,[.setEnt .internalNl,.cb],none,false⟩⟩,⟨256,.other,false,some ⟨28,[.setEnt .internalNl,.cb,.emb (.goto 6)],some 0,false⟩⟩,⟨256,.other,false,some ⟨29,[.setEnt .internalNl,.cb],none,false⟩⟩,⟨256,.other,false,some ⟨30,[.setEnt .internalNl,.cb],none,false⟩⟩]⟩,⟨[5,12],none,[],[⟨256,.other,false,some ⟨22,[.setEnt .internalNl,.cb,.code],none,false⟩⟩,⟨256,.ws,false,some ⟨23,[.setEnt .internalNl,.cb],none,false⟩⟩,⟨256,.lf,false,some ⟨24,[.setEnt .internalNl,.cb],none,false⟩⟩,⟨256,.vt,false,some ⟨22,[.setEnt .internalNl,.cb,.code],none,false⟩⟩,⟨256,.ff,false,some ⟨25,[.setEnt .internalNl,.cb],none,false⟩⟩,⟨256,.cr,false,some ⟨26,[.setEnt .internalNl,.cb],none,false⟩⟩,⟨256,.cr,true,some ⟨27,[.setEnt .internalNl,.cb],none,false⟩⟩,⟨256,.other,false,some ⟨28,[.setEnt .internalNl,.cb,.emb (.goto 6)],some 0,false⟩⟩,⟨256,.other,false,some ⟨29,[.setEnt .internalNl,.cb],none,false⟩⟩,⟨256,.other,false,some ⟨30,[.setEnt .internalNl,.cb],none,false⟩⟩]⟩,⟨[2,12],none,[],[⟨256,.other,false,some ⟨22,[.code],none,false⟩⟩,⟨256,.ws,false,some ⟨23,[],none,false⟩⟩,⟨256,.lf,false,some ⟨31,[],none,false⟩⟩,⟨256,.vt,false,some ⟨22,[.code],none,false⟩⟩,⟨256,.ff,false,some ⟨25,[],none,false⟩⟩,⟨256,.cr,false,some ⟨26,[],none,false⟩⟩,⟨256,.cr,true,some ⟨27,[],none,false⟩⟩,⟨256,.other,false,some ⟨28,[.emb (.goto 6)],some 0,false⟩⟩,⟨256,.other,false,some ⟨29,[],none,false⟩⟩,⟨256,.other,false,some ⟨30,[],none,false⟩⟩]⟩,⟨[2,6,12],none,[],[⟨256,.other,false,some ⟨22,[.setEnt .internalNl,.cb,.code],none,false⟩⟩,⟨256,.ws,false,some ⟨23,[.setEnt .internalNl,.cb],none,false⟩⟩,⟨256,.lf,false,some ⟨31,[.setEnt .internalNl,.cb],none,false⟩⟩,⟨256,.vt,false,some ⟨22,[.setEnt .internalNl,.cb,.code],none,false⟩⟩,⟨256,.ff,false,some ⟨25,[.setEnt .internalNl,.cb],none,false⟩⟩,⟨256,.cr,false,some ⟨26,[.setEnt .internalNl,.cb],none,false⟩⟩,⟨256,.cr,true,some ⟨27,[.setEnt .internalNl,.cb],none,false⟩⟩,⟨256,.other,false,some ⟨28,[.setEnt .internalNl,.cb,.emb (.goto 6)],some 0,false⟩⟩,⟨256,.other,false,some ⟨29,[.setEnt .internalNl,.cb],none,false⟩⟩,⟨256,.other,false,some ⟨30,[.setEnt .internalNl,.cb],none,false⟩⟩]⟩,⟨[1,8,13],none,[],[⟨256,.other,false,some ⟨32,[.code],none,false⟩⟩,⟨256,.ws,false,some ⟨33,[],none,false⟩⟩,⟨256,.lf,false,some ⟨34,[],none,false⟩⟩,⟨256,.vt,false,some ⟨32,[.code],none,false⟩⟩,⟨256,.ff,false,some ⟨35,[],none,false⟩⟩,⟨256,.cr,false,some ⟨36,[],none,false⟩⟩,⟨256,.cr,true,some ⟨37,[],none,false⟩⟩,⟨256,.other,false,some ⟨38,[.emb (.goto 6)],some 0,false⟩⟩,⟨256,.other,false,some ⟨39,[],none,false⟩⟩,⟨256,.other,false,some ⟨40,[],none,false⟩⟩]⟩,⟨[12,16],some 0,[],[⟨256,.other,false,some ⟨22,[.code],none,false⟩⟩,⟨256,.ws,false,some ⟨23,[],none,false⟩⟩,⟨256,.lf,false,some ⟨24,[],none,false⟩⟩,⟨256,.vt,false,some ⟨22,[.code],none,false⟩⟩,⟨256,.ff,false,some ⟨25,[],none,false⟩⟩,⟨256,.cr,false,some ⟨26,[],none,false⟩⟩,⟨256,.cr,true,some ⟨27,[],none,false⟩⟩,⟨256,.other,false,some ⟨28,[.emb (.goto 6)],some 0,false⟩⟩,⟨256,.other,false,some ⟨29,[],none,false⟩⟩,⟨256,.other,false,some ⟨30,[],none,false⟩⟩]⟩,⟨[0,11,12],none,[],[⟨256,.other,false,some ⟨41,[.code],none,false⟩⟩,⟨256,.ws,false,some ⟨42,[],none,false⟩⟩,⟨256,.lf,false,some ⟨43,[],none,false⟩⟩,⟨256,.vt,false,some ⟨41,[.code],none,false⟩⟩,⟨256,.ff,false,some ⟨44,[],none,false⟩⟩,⟨256,.cr,false,some ⟨45,[],none,false⟩⟩,⟨256,.cr,true,some ⟨46,[],none,false⟩⟩,⟨256,.other,false,some ⟨47,[.emb (.sawCall 3 5),.code],none,false⟩⟩,⟨256,.other,false,some ⟨48,[.emb (.goto 6)],some 0,false⟩⟩,⟨256,.other,false,some ⟨49,[],none,false⟩⟩,⟨256,.other,false,some ⟨50,[],none,false⟩⟩]⟩,⟨[9,12],none,[],[⟨256,.other,false,some ⟨51,[.code],none,false⟩⟩,⟨256,.ws,false,some ⟨52,[.code],none,false⟩⟩,⟨256,.lf,false,some ⟨24,[],none,false⟩⟩,⟨256,.vt,false,some ⟨51,[.code],none,false⟩⟩,⟨256,.ff,false,some ⟨25,[],none,false⟩⟩,⟨256,.cr,false,some ⟨26,[],none,false⟩⟩,⟨256,.cr,true,some ⟨27,[],none,false⟩⟩,⟨256,.other,false,some ⟨53,[.code,.emb (.goto 6)],some 0,false⟩⟩,⟨256,.other,false,some ⟨54,[.code],none,false⟩⟩,⟨256,.other,false,some ⟨55,[.code],none,false⟩⟩]⟩,⟨[10],none,[],[⟨256,.other,false,some ⟨1,[.code],none,false⟩⟩,⟨256,.ws,false,some ⟨2,[],none,false⟩⟩,⟨256,.lf,false,some ⟨3,[],none,false⟩⟩,⟨256,.vt,false,some ⟨1,[.code],none,false⟩⟩,⟨256,.ff,false,some ⟨4,[],none,false⟩⟩,⟨256,.cr,false,some ⟨5,[],none,false⟩⟩,⟨256,.cr,true,some ⟨6,[],none,false⟩⟩,⟨256,.other,false,some ⟨0,[.emb (.goto 6)],some 0,true⟩⟩,⟨256,.other,false,some ⟨7,[],none,false⟩⟩,⟨256,.other,false,some ⟨8,[],none,false⟩⟩]⟩,⟨[8,15],none,[],[⟨256,.other,false,some ⟨22,[.code],none,false⟩⟩,⟨256,.ws,false,some ⟨23,[],none,false⟩⟩,⟨256,.lf,false,some ⟨24,[],none,false⟩⟩,⟨256,.vt,false,some ⟨22,[.code],none,false⟩⟩,⟨256,.ff,false,some ⟨25,[],none,false⟩⟩,⟨256,.cr,false,some ⟨26,[],none,false⟩⟩,⟨256,.cr,true,some ⟨27,[],none,false⟩⟩,⟨256,.other,false,some ⟨28,[.emb (.goto 6)],some 0,false⟩⟩,⟨256,.other,false,some ⟨29,[],none,false⟩⟩,⟨256,.other,false,some ⟨30,[],none,false⟩⟩]⟩,⟨[7,15],none,[],[⟨256,.other,false,some ⟨22,[.code],none,false⟩⟩,⟨256,.ws,false,some ⟨23,[],none,false⟩⟩,⟨256,.lf,false,some ⟨24,[],none,false⟩⟩,⟨256,.vt,false,some ⟨22,[.code],none,false⟩⟩,⟨256,.ff,false,some ⟨25,[],none,false⟩⟩,⟨256,.cr,false,some ⟨26,[],none,false⟩⟩,⟨256,.cr,true,some ⟨27,[],none,false⟩⟩,⟨256,.other,false,some ⟨28,[.emb (.goto 6)],some 0,false⟩⟩,⟨256,.other,false,some ⟨29,[],none,false⟩⟩,⟨256,.other,false,some ⟨30,[],none,false⟩⟩]⟩,⟨[4,15],none,[],[⟨256,.other,false,some ⟨22,[.setEnt .internalNl,.cb,.code],none,false⟩⟩,⟨256,.ws,false,some ⟨23,[.setEnt .internalNl,.cb],none,false⟩⟩,⟨256,.lf,false,some ⟨24,[.setEnt .internalNl,.cb],none,false⟩⟩,⟨256,.vt,false,some ⟨22,[.setEnt .internalNl,.cb,.code],none,false⟩⟩,⟨256,.ff,false,some ⟨25,[.setEnt .internalNl,.cb],none,false⟩⟩,⟨256,.cr,false,some ⟨26,[.setEnt .internalNl,.cb],none,false⟩⟩,⟨256,.cr,true,some ⟨27,[.setEnt .internalNl,.cb],none,false⟩⟩,⟨256,.other,false,some ⟨28,[.setEnt .internalNl,.cb,.emb (.goto 6)],some 0,false⟩⟩,⟨256,.other,false,some ⟨29,[.setEnt .internalNl,.cb],none,false⟩⟩,⟨256,.other,false,some ⟨30,[.setEnt .internalNl,.cb],none,false⟩⟩]⟩,⟨[5,15],none,[],[⟨256,.other,false,some ⟨22,[.setEnt .internalNl,.cb,.code],none,false⟩⟩,⟨256,.ws,false,some ⟨23,[.setEnt .internalNl,.cb],none,false⟩⟩,⟨256,.lf,false,some ⟨24,[.setEnt .internalNl,.cb],none,false⟩⟩,⟨256,.vt,false,some ⟨22,[.setEnt .internalNl,.cb,.code],none,false⟩⟩,⟨256,.ff,false,some ⟨25,[.setEnt .internalNl,.cb],none,false⟩⟩,⟨256,.cr,false,some ⟨26,[.setEnt .internalNl,.cb],none,false⟩⟩,⟨256,.cr,true,some ⟨27,[.setEnt .internalNl,.cb],none,false⟩⟩,⟨256,.other,false,some ⟨28,[.setEnt .internalNl,.cb,.emb (.goto 6)],some 0,false⟩⟩,⟨256,.other,false,some ⟨29,[.setEnt .internalNl,.cb],none,false⟩⟩,⟨256,.other,false,some ⟨30,[.setEnt .internalNl,.cb],none,false⟩⟩]⟩,⟨[2,15],none,[],[⟨256,.other,false,some ⟨22,[.code],none,false⟩⟩,⟨256,.ws,false,some ⟨23,[],none,false⟩⟩,⟨256,.lf,false,some ⟨31,[],none,false⟩⟩,⟨256,.vt,false,some ⟨22,[.code],none,false⟩⟩,⟨256,.ff,false,some ⟨25,[],none,false⟩⟩,⟨256,.cr,false,some ⟨26,[],none,false⟩⟩,⟨256,.cr,true,some ⟨27,[],none,false⟩⟩,⟨256,.other,false,some ⟨28,[.emb (.goto 6)],some 0,false⟩⟩,⟨256,.other,false,some ⟨29,[],none,false⟩⟩,⟨256,.other,false,some ⟨30,[],none,false⟩⟩]⟩,⟨[2,6,15],none,[],[⟨256,.other,false,some ⟨22,[.setEnt .internalNl,.cb,.code],none,false⟩⟩,⟨256,.ws,false,some ⟨23,[.setEnt .internalNl,.cb],none,false⟩⟩,⟨256,.lf,false,some ⟨31,[.setEnt .internalNl,.cb],none,false⟩⟩,⟨256,.vt,false,some ⟨22,[.setEnt .internalNl,.cb,.code],none,false⟩⟩,⟨256,.ff,false,some ⟨25,[.setEnt .internalNl,.cb],none,false⟩⟩,⟨256,.cr,false,some ⟨26,[.setEnt .internalNl,.cb],none,false⟩⟩,⟨256,.cr,true,some ⟨27,[.setEnt .internalNl,.cb],none,false⟩⟩,⟨256,.other,false,some ⟨28,[.setEnt .internalNl,.cb,.emb (.goto 6)],some 0,false⟩⟩,⟨256,.other,false,some ⟨29,[.setEnt .internalNl,.cb],none,false⟩⟩,⟨256,.other,false,some ⟨30,[.setEnt .internalNl,.cb],none,false⟩⟩]⟩,⟨[15,16],some 0,[],[⟨256,.other,false,some ⟨22,[.code],none,false⟩⟩,⟨256,.ws,false,some ⟨23,[],none,false⟩⟩,⟨256,.lf,false,some ⟨24,[],none,false⟩⟩,⟨256,.vt,false,some ⟨22,[.code],none,false⟩⟩,⟨256,.ff,false,some ⟨25,[],none,false⟩⟩,⟨256,.cr,false,some ⟨26,[],none,false⟩⟩,⟨256,.cr,true,some ⟨27,[],none,false⟩⟩,⟨256,.other,false,some ⟨28,[.emb (.goto 6)],some 0,false⟩⟩,⟨256,.other,false,some ⟨29,[],none,false⟩⟩,⟨256,.other,false,some ⟨30,[],none,false⟩⟩]⟩,⟨[0,11,15],none,[],[⟨256,.other,false,some ⟨41,[.code],none,false⟩⟩,⟨256,.ws,false,some ⟨42,[],none,false⟩⟩,⟨256,.lf,false,some ⟨43,[],none,false⟩⟩,⟨256,.vt,false,some ⟨41,[.code],none,false⟩⟩,⟨256,.ff,false,some ⟨44,[],none,false⟩⟩,⟨256,.cr,false,some ⟨45,[],none,false⟩⟩,⟨256,.cr,true,some ⟨46,[],none,false⟩⟩,⟨256,.other,false,some ⟨47,[.emb (.sawCall 3 5),.code],none,false⟩⟩,⟨256,.other,false,some ⟨48,[.emb (.goto 6)],some 0,false⟩⟩,⟨256,.other,false,some ⟨49,[],none,false⟩⟩,⟨256,.other,false,some ⟨50,[],none,false⟩⟩]⟩,⟨[9,15],none,[],[⟨256,.other,false,some ⟨51,[.code],none,false⟩⟩,⟨256,.ws,false,some ⟨52,[.code],none,false⟩⟩,⟨256,.lf,false,some ⟨24,[],none,false⟩⟩,⟨256,.vt,false,some ⟨51,[.code],none,false⟩⟩,⟨256,.ff,false,some ⟨25,[],none,false⟩⟩,⟨256,.cr,false,some ⟨26,[],none,false⟩⟩,⟨256,.cr,true,some ⟨27,[],none,false⟩⟩,⟨256,.other,false,some ⟨53,[.code,.emb (.goto 6)],some 0,false⟩⟩,⟨256,.other,false,some ⟨54,[.code],none,false⟩⟩,⟨256,.other,false,some ⟨55,[.code],none,false⟩⟩]⟩,⟨[3,4,15],none,[],[⟨256,.other,false,some ⟨22,[.setEnt .internalNl,.cb,.code],none,false⟩⟩,⟨256,.ws,false,some ⟨23,[.setEnt .internalNl,.cb],none,false⟩⟩,⟨256,.lf,false,some ⟨24,[.setEnt .internalNl,.cb],none,false⟩⟩,⟨256,.vt,false,some ⟨22,[.setEnt .internalNl,.cb,.code],none,false⟩⟩,⟨256,.ff,false,some ⟨25,[.setEnt .internalNl,.cb],none,false⟩⟩,⟨256,.cr,false,some ⟨26,[.setEnt .internalNl,.cb],none,false⟩⟩,⟨256,.cr,true,some ⟨27,[.setEnt .internalNl,.cb],none,false⟩⟩,⟨256,.other,false,some ⟨28,[.setEnt .internalNl,.cb,.emb (.goto 6)],some 0,false⟩⟩,⟨256,.other,false,some ⟨29,[.setEnt .internalNl,.cb],none,false⟩⟩,⟨256,.other,false,some ⟨30,[.setEnt .internalNl,.cb],none,false⟩⟩]⟩,⟨[8,14],none,[],[⟨256,.other,false,some ⟨22,[.code],none,false⟩⟩,⟨256,.ws,false,some ⟨23,[],none,false⟩⟩,⟨256,.lf,false,some ⟨24,[],none,false⟩⟩,⟨256,.vt,false,some ⟨22,[.code],none,false⟩⟩,⟨256,.ff,false,some ⟨25,[],none,false⟩⟩,⟨256,.cr,false,some ⟨26,[],none,false⟩⟩,⟨256,.cr,true,some ⟨27,[],none,false⟩⟩,⟨256,.other,false,some ⟨28,[.emb (.goto 6)],some 0,false⟩⟩,⟨256,.other,false,some ⟨29,[],none,false⟩⟩,⟨256,.other,false,some ⟨30,[],none,false⟩⟩]⟩,⟨[7,14],none,[],[⟨256,.other,false,some ⟨22,[.code],none,false⟩⟩,⟨256,.ws,false,some ⟨23,[],none,false⟩⟩,⟨256,.lf,false,some ⟨24,[],none,false⟩⟩,⟨256,.vt,false,some ⟨22,[.code],none,false⟩⟩,⟨256,.ff,false,some ⟨25,[],none,false⟩⟩,⟨256,.cr,false,some ⟨26,[],none,false⟩⟩,⟨256,.cr,true,some ⟨27,[],none,false⟩⟩,⟨256,.other,false,some ⟨28,[.emb (.goto 6)],some 0,false⟩⟩,⟨256,.other,false,some ⟨29,[],none,false⟩⟩,⟨256,.other,false,some ⟨30,[],none,false⟩⟩]⟩,⟨[4,14],none,[],[⟨256,.other,false,some ⟨22,[.setEnt .internalNl,.cb,.code],none,false⟩⟩,⟨256,.ws,false,some ⟨23,[.setEnt .internalNl,.cb],none,false⟩⟩,⟨256,.lf,false,some ⟨24,[.setEnt .internalNl,.cb],none,false⟩⟩,⟨256,.vt,false,some ⟨22,[.setEnt .internalNl,.cb,.code],none,false⟩⟩,⟨256,.ff,false,some ⟨25,[.setEnt .internalNl,.cb],none,false⟩⟩,⟨256,.cr,false,some ⟨26,[.setEnt .internalNl,.cb],none,false⟩⟩,⟨256,.cr,true,some ⟨27,[.setEnt .internalNl,.cb],none,false⟩⟩,⟨256,.other,false,some ⟨28,[.setEnt .internalNl,.cb,.emb (.goto 6)],some 0,false⟩⟩,⟨256,.other,false,some ⟨29,[.setEnt .internalNl,.cb],none,false⟩⟩,⟨256,.other,false,some ⟨30,[.setEnt .internalNl,.cb],none,false⟩⟩]⟩,⟨[5,14],none,[],[⟨256,.other,false,some ⟨22,[.setEnt .internalNl,.cb,.code],none,false⟩⟩,⟨256,.ws,false,some ⟨23,[.setEnt .internalNl,.cb],none,false⟩⟩,⟨256,.lf,false,some ⟨24,[.setEnt .internalNl,.cb],none,false⟩⟩,⟨256,.vt,false,some ⟨22,[.setEnt .internalNl,.cb,.code],none,false⟩⟩,⟨256,.ff,false,some ⟨25,[.setEnt .internalNl,.cb],none,false⟩⟩,⟨256,.cr,false,some ⟨26,[.setEnt .internalNl,.cb],none,false⟩⟩,⟨256,.cr,true,some ⟨27,[.setEnt .internalNl,.cb],none,false⟩⟩,⟨256,.other,false,some ⟨28,[.setEnt .internalNl,.cb,.emb (.goto 6)],some 0,false⟩⟩,⟨256,.other,false,some ⟨29,[.setEnt .internalNl,.cb],none,false⟩⟩,⟨256,.other,false,some ⟨30,[.setEnt .internalNl,.cb],none,false⟩⟩]⟩,⟨[2,14],none,[],[⟨256,.other,false,some ⟨22,[.code],none,false⟩⟩,⟨256,.ws,false,some ⟨23,[],none,false⟩⟩,⟨256,.lf,false,some ⟨31,[],none,false⟩⟩,⟨256,.vt,false,some ⟨22,[.code],none,false⟩⟩,⟨256,.ff,false,some ⟨25,[],none,false⟩⟩,⟨256,.cr,false,some ⟨26,[],none,false⟩⟩,⟨256,.cr,true,some ⟨27,[],none,false⟩⟩,⟨256,.other,false,some ⟨28,[.emb (.goto 6)],some 0,false⟩⟩,⟨256,.other,false,some ⟨29,[],none,false⟩⟩,⟨256,.other,false,some ⟨30,[],none,false⟩⟩]⟩,⟨[2,6,14],none,[],[⟨256,.other,false,some ⟨22,[.setEnt .internalNl,.cb,.code],none,false⟩⟩,⟨256,.ws,false,some ⟨23,[.setEnt .internalNl,.cb],none,false⟩⟩,⟨256,.lf,false,some ⟨31,[.setEnt .internalNl,.cb],none,false⟩⟩,⟨256,.vt,false,some ⟨22,[.setEnt .internalNl,.cb,.code],none,false⟩⟩,⟨256,.ff,false,some ⟨25,[.setEnt .internalNl,.cb],none,false⟩⟩,⟨256,.cr,false,some ⟨26,[.setEnt .internalNl,.cb],none,false⟩⟩,⟨256,.cr,true,some ⟨27,[.setEnt .internalNl,.cb],none,false⟩⟩,⟨256,.other,false,some ⟨28,[.setEnt .internalNl,.cb,.emb (.goto 6)],some 0,false⟩⟩,⟨256,.other,false,some ⟨29,[.setEnt .internalNl,.cb],none,false⟩⟩,⟨256,.other,false,some ⟨30,[.setEnt .internalNl,.cb],none,false⟩⟩]⟩,⟨[14,16],some 0,[],[⟨256,.other,false,some ⟨22,[.code],none,false⟩⟩,⟨256,.ws,false,some ⟨23,[],none,false⟩⟩,⟨256,.lf,false,some ⟨24,[],none,false⟩⟩,⟨256,.vt,false,some ⟨22,[.code],none,false⟩⟩,⟨256,.ff,false,some ⟨25,[],none,false⟩⟩,⟨256,.cr,false,some ⟨26,[],none,false⟩⟩,⟨256,.cr,true,some ⟨27,[],none,false⟩⟩,⟨256,.other,false,some ⟨28,[.emb (.goto 6)],some 0,false⟩⟩,⟨256,.other,false,some ⟨29,[],none,false⟩⟩,⟨256,.other,false,some ⟨30,[],none,false⟩⟩]⟩,⟨[0,11,14],none,[],[⟨256,.other,false,some ⟨41,[.code],none,false⟩⟩,⟨256,.ws,false,some ⟨42,[],none,false⟩⟩,⟨256,.lf,false,some ⟨43,[],none,false⟩⟩,⟨256,.vt,false,some ⟨41,[.code],none,false⟩⟩,⟨256,.ff,false,some ⟨44,[],none,false⟩⟩,⟨256,.cr,false,some ⟨45,[],none,false⟩⟩,⟨256,.cr,true,some ⟨46,[],none,false⟩⟩,⟨256,.other,false,some ⟨47,[.emb (.sawCall 3 5),.code],none,false⟩⟩,⟨256,.other,false,some ⟨48,[.emb (.goto 6)],some 0,false⟩⟩,⟨256,.other,false,some ⟨49,[],none,false⟩⟩,⟨256,.other,false,some ⟨50,[],none,false⟩⟩]⟩,⟨[9,14],none,[],[⟨256,.other,false,some ⟨51,[.code],none,false⟩⟩,⟨256,.ws,false,some ⟨52,[.code],none,false⟩⟩,⟨256,.lf,false,some ⟨24,[],none,false⟩⟩,⟨256,.vt,false,some ⟨51,[.code],none,false⟩⟩,⟨256,.ff,false,some ⟨25,[],none,false⟩⟩,⟨256,.cr,false,some ⟨26,[],none,false⟩⟩,⟨256,.cr,true,some ⟨27,[],none,false⟩⟩,⟨256,.other,false,some ⟨53,[.code,.emb (.goto 6)],some 0,false⟩⟩,⟨256,.other,false,some ⟨54,[.code],none,false⟩⟩,⟨256,.other,false,some ⟨55,[.code],none,false⟩⟩]⟩,⟨[8,12,15],none,[],[⟨256,.other,false,some ⟨22,[.code],none,false⟩⟩,⟨256,.ws,false,some ⟨23,[],none,false⟩⟩,⟨256,.lf,false,some ⟨24,[],none,false⟩⟩,⟨256,.vt,false,some ⟨22,[.code],none,false⟩⟩,⟨256,.ff,false,some ⟨25,[],none,false⟩⟩,⟨256,.cr,false,some ⟨26,[],none,false⟩⟩,⟨256,.cr,true,some ⟨27,[],none,false⟩⟩,⟨256,.other,false,some ⟨28,[.emb (.goto 6)],some 0,false⟩⟩,⟨256,.other,false,some ⟨29,[],none,false⟩⟩,⟨256,.other,false,some ⟨30,[],none,false⟩⟩]⟩,⟨[7,12,15],none,[],[⟨256,.other,false,some ⟨22,[.code],none,false⟩⟩,⟨256,.ws,false,some ⟨23,[],none,false⟩⟩,⟨256,.lf,false,some ⟨24,[],none,false⟩⟩,⟨256,.vt,false,some ⟨22,[.code],none,false⟩⟩,⟨256,.ff,false,some ⟨25,[],none,false⟩⟩,⟨256,.cr,false,some ⟨26,[],none,false⟩⟩,⟨256,.cr,true,some ⟨27,[],none,false⟩⟩,⟨256,.other,false,some ⟨28,[.emb (.goto 6)],some 0,false⟩⟩,⟨256,.other,false,some ⟨29,[],none,false⟩⟩,⟨256,.other,false,some ⟨30,[],none,false⟩⟩]⟩,⟨[4,12,15],none,[],[⟨256,.other,false,some ⟨22,[.setEnt .internalNl,.cb,.code],none,false⟩⟩,⟨256,.ws,false,some ⟨23,[.setEnt .internalNl,.cb],none,false⟩⟩,⟨256,.lf,false,some ⟨24,[.setEnt .internalNl,.cb],none,false⟩⟩,⟨256,.vt,false,some ⟨22,[.setEnt .internalNl,.cb,.code],none,false⟩⟩,⟨256,.ff,false,some ⟨25,[.setEnt .internalNl,.cb],none,false⟩⟩,⟨256,.cr,false,some ⟨26,[.setEnt .internalNl,.cb],none,false⟩⟩,⟨256,.cr,true,some ⟨27,[.setEnt .internalNl,.cb],none,false⟩⟩,⟨256,.other,false,some ⟨28,[.setEnt .internalNl,.cb,.emb (.goto 6)],some 0,false⟩⟩,⟨256,.other,false,some ⟨29,[.setEnt .internalNl,.cb],none,false⟩⟩,⟨256,.other,false,some ⟨30,[.setEnt .internalNl,.cb],none,false⟩⟩]⟩,⟨[5,12,15],none,[],[⟨256,.other,false,some ⟨22,[.setEnt .internalNl,.cb,.code],none,false⟩⟩,⟨256,.ws,false,some ⟨23,[.setEnt .internalNl,.cb],none,false⟩⟩,⟨256,.lf,false,some ⟨24,[.setEnt .internalNl,.cb],none,false⟩⟩,⟨256,.vt,false,some ⟨22,[.setEnt .internalNl,.cb,.code],none,false⟩⟩,⟨256,.ff,false,some ⟨25,[.setEnt .internalNl,.cb],none,false⟩⟩,⟨256,.cr,false,some ⟨26,[.setEnt .internalNl,.cb],none,false⟩⟩,⟨256,.cr,true,some ⟨27,[.setEnt .internalNl,.cb],none,false⟩⟩,⟨256,.other,false,some ⟨28,[.setEnt .internalNl,.cb,.emb (.goto 6)],some 0,false⟩⟩,⟨256,.other,false,some ⟨29,[.setEnt .internalNl,.cb],none,false⟩⟩,⟨256,.other,false,some ⟨30,[.setEnt .internalNl,.cb],none,false⟩⟩]⟩,⟨[2,12,15],none,[],[⟨256,.other,false,some ⟨22,[.code],none,false⟩⟩,⟨256,.ws,false,some ⟨23,[],none,false⟩⟩,⟨256,.lf,false,some ⟨31,[],none,false⟩⟩,⟨256,.vt,false,some ⟨22,[.code],none,false⟩⟩,⟨256,.ff,false,some ⟨25,[],none,false⟩⟩,⟨256,.cr,false,some ⟨26,[],none,false⟩⟩,⟨256,.cr,true,some ⟨27,[],none,false⟩⟩,⟨256,.other,false,some ⟨28,[.emb (.goto 6)],some 0,false⟩⟩,⟨256,.other,false,some ⟨29,[],none,false⟩⟩,⟨256,.other,false,some ⟨30,[],none,false⟩⟩]⟩,⟨[2,6,12,15],none,[],[⟨256,.other,false,some ⟨22,[.setEnt .internalNl,.cb,.code],none,false⟩⟩,⟨256,.ws,false,some ⟨23,[.setEnt .internalNl,.cb],none,false⟩⟩,⟨256,.lf,false,some ⟨31,[.setEnt .internalNl,.cb],none,false⟩⟩,⟨256,.vt,false,some ⟨22,[.setEnt .internalNl,.cb,.code],none,false⟩⟩,⟨256,.ff,false,some ⟨25,[.setEnt .internalNl,.cb],none,false⟩⟩,⟨256,.cr,false,some ⟨26,[.setEnt .internalNl,.cb],none,false⟩⟩,⟨256,.cr,true,some ⟨27,[.setEnt .internalNl,.cb],none,false⟩⟩,⟨256,.other,false,some ⟨28,[.setEnt .internalNl,.cb,.emb (.goto 6)],some 0,false⟩⟩,⟨256,.other,false,some ⟨29,[.setEnt .internalNl,.cb],none,false⟩⟩,⟨256,.other,false,some ⟨30,[.setEnt .internalNl,.cb],none,false⟩⟩]⟩,⟨[1,8,13,15],none,[],[⟨256,.other,false,some ⟨56,[.code],none,false⟩⟩,⟨256,.ws,false,some ⟨57,[],none,false⟩⟩,⟨256,.lf,false,some ⟨58,[],none,false⟩⟩,⟨256,.vt,false,some ⟨56,[.code],none,false⟩⟩,⟨256,.ff,false,some ⟨59,[],none,false⟩⟩,⟨256,.cr,false,some ⟨60,[],none,false⟩⟩,⟨256,.cr,true,some ⟨61,[],none,false⟩⟩,⟨256,.other,false,some ⟨62,[.emb (.goto 6)],some 0,false⟩⟩,⟨256,.other,false,some ⟨63,[],none,false⟩⟩,⟨256,.other,false,some ⟨64,[],none,false⟩⟩]⟩,⟨[12,15,16],some 0,[],[⟨256,.other,false,some ⟨22,[.code],none,false⟩⟩,⟨256,.ws,false,some ⟨23,[],none,false⟩⟩,⟨256,.lf,false,some ⟨24,[],none,false⟩⟩,⟨256,.vt,false,some ⟨22,[.code],none,false⟩⟩,⟨256,.ff,false,some ⟨25,[],none,false⟩⟩,⟨256,.cr,false,some ⟨26,[],none,false⟩⟩,⟨256,.cr,true,some ⟨27,[],none,false⟩⟩,⟨256,.other,false,some ⟨28,[.emb (.goto 6)],some 0,false⟩⟩,⟨256,.other,false,some ⟨29,[],none,false⟩⟩,⟨256,.other,false,some ⟨30,[],none,false⟩⟩]⟩,⟨[0,11,12,15],none,[],[⟨256,.other,false,some ⟨41,[.code],none,false⟩⟩,⟨256,.ws,false,some ⟨42,[],none,false⟩⟩,⟨256,.lf,false,some ⟨43,[],none,false⟩⟩,⟨256,.vt,false,some ⟨41,[.code],none,false⟩⟩,⟨256,.ff,false,some ⟨44,[],none,false⟩⟩,⟨256,.cr,false,some ⟨45,[],none,false⟩⟩,⟨256,.cr,true,some ⟨46,[],none,false⟩⟩,⟨256,.other,false,some ⟨47,[.emb (.sawCall 3 5),.code],none,false⟩⟩,⟨256,.other,false,some ⟨48,[.emb (.goto 6)],some 0,false⟩⟩,⟨256,.other,false,some ⟨49,[],none,false⟩⟩,⟨256,.other,false,some ⟨50,[],none,false⟩⟩]⟩,⟨[9,12,15],none,[],[⟨256,.other,false,some ⟨51,[.code],none,false⟩⟩,⟨256,.ws,false,some ⟨52,[.code],none,false⟩⟩,⟨256,.lf,false,some ⟨24,[],none,false⟩⟩,⟨256,.vt,false,some ⟨51,[.code],none,false⟩⟩,⟨256,.ff,false,some ⟨25,[],none,false⟩⟩,⟨256,.cr,false,some ⟨26,[],none,false⟩⟩,⟨256,.cr,true,some ⟨27,[],none,false⟩⟩,⟨256,.other,false,some ⟨53,[.code,.emb (.goto 6)],some 0,false⟩⟩,⟨256,.other,false,some ⟨54,[.code],none,false⟩⟩,⟨256,.other,false,some ⟨55,[.code],none,false⟩⟩]⟩,⟨[8,10,15],none,[],[⟨256,.other,false,some ⟨22,[.code],none,false⟩⟩,⟨256,.ws,false,some ⟨23,[],none,false⟩⟩,⟨256,.lf,false,some ⟨24,[],none,false⟩⟩,⟨256,.vt,false,some ⟨22,[.code],none,false⟩⟩,⟨256,.ff,false,some ⟨25,[],none,false⟩⟩,⟨256,.cr,false,some ⟨26,[],none,false⟩⟩,⟨256,.cr,true,some ⟨27,[],none,false⟩⟩,⟨256,.other,false,some ⟨28,[.emb (.goto 6)],some 0,false⟩⟩,⟨256,.other,false,some ⟨29,[],none,false⟩⟩,⟨256,.other,false,some ⟨30,[],none,false⟩⟩]⟩,⟨[7,10,15],none,[],[⟨256,.other,false,some ⟨22,[.code],none,false⟩⟩,⟨256,.ws,false,some ⟨23,[],none,false⟩⟩,⟨256,.lf,false,some ⟨24,[],none,false⟩⟩,⟨256,.vt,false,some ⟨22,[.code],none,false⟩⟩,⟨256,.ff,false,some ⟨25,[],none,false⟩⟩,⟨256,.cr,false,some ⟨26,[],none,false⟩⟩,⟨256,.cr,true,some ⟨27,[],none,false⟩⟩,⟨256,.other,false,some ⟨28,[.emb (.goto 6)],some 0,false⟩⟩,⟨256,.other,false,some ⟨29,[],none,false⟩⟩,⟨256,.other,false,some ⟨30,[],none,false⟩⟩]⟩,⟨[10,15,16],some 0,[],[⟨256,.other,false,some ⟨22,[.code],none,false⟩⟩,⟨256,.ws,false,some ⟨23,[],none,false⟩⟩,⟨256,.lf,false,some ⟨24,[],none,false⟩⟩,⟨256,.vt,false,some ⟨22,[.code],none,false⟩⟩,⟨256,.ff,false,some ⟨25,[],none,false⟩⟩,⟨256,.cr,false,some ⟨26,[],none,false⟩⟩,⟨256,.cr,true,some ⟨27,[],none,false⟩⟩,⟨256,.other,false,some ⟨28,[.emb (.goto 6)],some 0,false⟩⟩,⟨256,.other,false,some ⟨29,[],none,false⟩⟩,⟨256,.other,false,some ⟨30,[],none,false⟩⟩]⟩,⟨[0,10,11,15],none,[],[⟨256,.other,false,some ⟨41,[.code],none,false⟩⟩,⟨256,.ws,false,some ⟨42,[],none,false⟩⟩,⟨256,.lf,false,some ⟨43,[],none,false⟩⟩,⟨256,.vt,false,some ⟨41,[.code],none,false⟩⟩,⟨256,.ff,false,some ⟨44,[],none,false⟩⟩,⟨256,.cr,false,some ⟨45,[],none,false⟩⟩,⟨256,.cr,true,some ⟨46,[],none,false⟩⟩,⟨256,.other,false,some ⟨47,[.emb (.sawCall 3 5),.code],none,false⟩⟩,⟨256,.other,false,some ⟨48,[.emb (.goto 6)],some 0,false⟩⟩,⟨256,.other,false,some ⟨49,[],none,false⟩⟩,⟨256,.other,false,some ⟨50,[],none,false⟩⟩]⟩,⟨[9,10,15],none,[],[⟨256,.other,false,some ⟨51,[.code],none,false⟩⟩,⟨256,.ws,false,some ⟨52,[.code],none,false⟩⟩,⟨256,.lf,false,some ⟨24,[],none,false⟩⟩,⟨256,.vt,false,some ⟨51,[.code],none,false⟩⟩,⟨256,.ff,false,some ⟨25,[],none,false⟩⟩,⟨256,.cr,false,some ⟨26,[],none,false⟩⟩,⟨256,.cr,true,some ⟨27,[],none,false⟩⟩,⟨256,.other,false,some ⟨53,[.code,.emb (.goto 6)],some 0,false⟩⟩,⟨256,.other,false,some ⟨54,[.code],none,false⟩⟩,⟨256,.other,false,some ⟨55,[.code],none,false⟩⟩]⟩,⟨[8,14,15],none,[],[⟨256,.other,false,some ⟨22,[.code],none,false⟩⟩,⟨256,.ws,false,some ⟨23,[],none,false⟩⟩,⟨256,.lf,false,some ⟨24,[],none,false⟩⟩,⟨256,.vt,false,some ⟨22,[.code],none,false⟩⟩,⟨256,.ff,false,some ⟨25,[],none,false⟩⟩,⟨256,.cr,false,some ⟨26,[],none,false⟩⟩,⟨256,.cr,true,some ⟨27,[],none,false⟩⟩,⟨256,.other,false,some ⟨28,[.emb (.goto 6)],some 0,false⟩⟩,⟨256,.other,false,some ⟨29,[],none,false⟩⟩,⟨256,.other,false,some ⟨30,[],none,false⟩⟩]⟩,⟨[7,14,15],none,[],[⟨256,.other,false,some ⟨22,[.code],none,false⟩⟩,⟨256,.ws,false,some ⟨23,[],none,false⟩⟩,⟨256,.lf,false,some ⟨24,[],none,false⟩⟩,⟨256,.vt,false,some ⟨22,[.code],none,false⟩⟩,⟨256,.ff,false,some ⟨25,[],none,false⟩⟩,⟨256,.cr,false,some ⟨26,[],none,false⟩⟩,⟨256,.cr,true,some ⟨27,[],none,false⟩⟩,⟨256,.other,false,some ⟨28,[.emb (.goto 6)],some 0,false⟩⟩,⟨256,.other,false,some ⟨29,[],none,false⟩⟩,⟨256,.other,false,some ⟨30,[],none,false⟩⟩]⟩,⟨[4,14,15],none,[],[⟨256,.other,false,some ⟨22,[.setEnt .internalNl,.cb,.code],none,false⟩⟩,⟨256,.ws,false,some ⟨23,[.setEnt .internalNl,.cb],none,false⟩⟩,⟨256,.lf,false,some ⟨24,[.setEnt .internalNl,.cb],none,false⟩⟩,⟨256,.vt,false,some ⟨22,[.setEnt .internalNl,.cb,.code],none,false⟩⟩,⟨256,.ff,false,some ⟨25,[.setEnt .internalNl,.cb],none,false⟩⟩,⟨256,.cr,false,some ⟨26,[.setEnt .internalNl,.cb],none,false⟩⟩,⟨256,.cr,true,some ⟨27,[.setEnt .internalNl,.cb],none,false⟩⟩,⟨256,.other,false,some ⟨28,[.setEnt .internalNl,.cb,.emb (.goto 6)],some 0,false⟩⟩,⟨256,.other,false,some ⟨29,[.setEnt .internalNl,.cb],none,false⟩⟩,⟨256,.other,false,some ⟨30,[.setEnt .internalNl,.cb],none,false⟩⟩]⟩,⟨[5,14,15],none,[],[⟨256,.other,false,some ⟨22,[.setEnt .internalNl,.cb,.code],none,false⟩⟩,⟨256,.ws,false,some ⟨23,[.setEnt .internalNl,.cb],none,false⟩⟩,⟨256,.lf,false,some ⟨24,[.setEnt .internalNl,.cb],none,false⟩⟩,⟨256,.vt,false,some ⟨22,[.setEnt .internalNl,.cb,.code],none,false⟩⟩,⟨256,.ff,false,some ⟨25,[.setEnt .internalNl,.cb],none,false⟩⟩,⟨256,.cr,false,some ⟨26,[.setEnt .internalNl,.cb],none,false⟩⟩,⟨256,.cr,true,some ⟨27,[.setEnt .internalNl,.cb],none,false⟩⟩,⟨256,.other,false,some ⟨28,[.setEnt .internalNl,.cb,.emb (.goto 6)],some 0,false⟩⟩,⟨256,.other,false,some ⟨29,[.setEnt .internalNl,.cb],none,false⟩⟩,⟨256,.other,false,some ⟨30,[.setEnt .internalNl,.cb],none,false⟩⟩]⟩,⟨[2,14,15],none,[],[⟨256,.other,false,some ⟨22,[.code],none,false⟩⟩,⟨256,.ws,false,some ⟨23,[],none,false⟩⟩,⟨256,.lf,false,some ⟨31,[],none,false⟩⟩,⟨256,.vt,false,some ⟨22,[.code],none,false⟩⟩,⟨256,.ff,false,some ⟨25,[],none,false⟩⟩,⟨256,.cr,false,some ⟨26,[],none,false⟩⟩,⟨256,.cr,true,some ⟨27,[],none,false⟩⟩,⟨256,.other,false,some ⟨28,[.emb (.goto 6)],some 0,false⟩⟩,⟨256,.other,false,some ⟨29,[],none,false⟩⟩,⟨256,.other,false,some ⟨30,[],none,false⟩⟩]⟩,⟨[2,6,14,15],none,[],[⟨256,.other,false,some ⟨22,[.setEnt .internalNl,.cb,.code],none,false⟩⟩,⟨256,.ws,false,some ⟨23,[.setEnt .internalNl,.cb],none,false⟩⟩,⟨256,.lf,false,some ⟨31,[.setEnt .internalNl,.cb],none,false⟩⟩,⟨256,.vt,false,some ⟨22,[.setEnt .internalNl,.cb,.code],none,false⟩⟩,⟨256,.ff,false,some ⟨25,[.setEnt .internalNl,.cb],none,false⟩⟩,⟨256,.cr,false,some ⟨26,[.setEnt .internalNl,.cb],none,false⟩⟩,⟨256,.cr,true,some ⟨27,[.setEnt .internalNl,.cb],none,false⟩⟩,⟨256,.other,false,some ⟨28,[.setEnt .internalNl,.cb,.emb (.goto 6)],some 0,false⟩⟩,⟨256,.other,false,some ⟨29,[.setEnt .internalNl,.cb],none,false⟩⟩,⟨256,.other,false,some ⟨30,[.setEnt .internalNl,.cb],none,false⟩⟩]⟩,⟨[14,15,16],some 0,[],[⟨256,.other,false,some ⟨22,[.code],none,false⟩⟩,⟨256,.ws,false,some ⟨23,[],none,false⟩⟩,⟨256,.lf,false,some ⟨24,[],none,false⟩⟩,⟨256,.vt,false,some ⟨22,[.code],none,false⟩⟩,⟨256,.ff,false,some ⟨25,[],none,false⟩⟩,⟨256,.cr,false,some ⟨26,[],none,false⟩⟩,⟨256,.cr,true,some ⟨27,[],none,false⟩⟩,⟨256,.other,false,some ⟨28,[.emb (.goto 6)],some 0,false⟩⟩,⟨256,.other,false,some ⟨29,[],none,false⟩⟩,⟨256,.other,false,some ⟨30,[],none,false⟩⟩]⟩,⟨[0,11,14,15],none,[],[⟨256,.other,false,some ⟨41,[.code],none,false⟩⟩,⟨256,.ws,false,some ⟨42,[],none,false⟩⟩,⟨256,.lf,false,some ⟨43,[],none,false⟩⟩,⟨256,.vt,false,some ⟨41,[.code],none,false⟩⟩,⟨256,.ff,false,some ⟨44,[],none,false⟩⟩,⟨256,.cr,false,some ⟨45,[],none,false⟩⟩,⟨256,.cr,true,some ⟨46,[],none,false⟩⟩,⟨256,.other,false,some ⟨47,[.emb (.sawCall 3 5),.code],none,false⟩⟩,⟨256,.other,false,some ⟨48,[.emb (.goto 6)],some 0,false⟩⟩,⟨256,.other,false,some ⟨49,[],none,false⟩⟩,⟨256,.other,false,some ⟨50,[],none,false⟩⟩]⟩,⟨[9,14,15],none,[],[⟨256,.other,false,some ⟨51,[.code],none,false⟩⟩,⟨256,.ws,false,some ⟨52,[.code],none,false⟩⟩,⟨256,.lf,false,some ⟨24,[],none,false⟩⟩,⟨256,.vt,false,some ⟨51,[.code],none,false⟩⟩,⟨256,.ff,false,some ⟨25,[],none,false⟩⟩,⟨256,.cr,false,some ⟨26,[],none,false⟩⟩,⟨256,.cr,true,some ⟨27,[],none,false⟩⟩,⟨256,.other,false,some ⟨53,[.code,.emb (.goto 6)],some 0,false⟩⟩,⟨256,.other,false,some ⟨54,[.code],none,false⟩⟩,⟨256,.other,false,some ⟨55,[.code],none,false⟩⟩]⟩]
theorem emb26_rowsOk : rowsOk emb26_nfa [] (emb26_cs.map (·.1)) emb26_rows = true := by decide +kernel
def emb26_D : Dfa emb26_nfa := ⟨emb26_masks, [], emb26_cs, emb26_rows, emb26_masksIn, emb26_repOk, emb26_rowsOk⟩

/-- The automaton of `Emb.Phphtml.phtml_dq_str`. -/
def emb34_nfa : Nfa := ⟨[⟨0,1152921504606846976,[],[],0,0⟩,⟨5,8192,[],[],0,0⟩,⟨7,1024,[],[],0,0⟩,⟨8,4096,[],[],0,0⟩,⟨9,8192,[.crAlone],[],0,0⟩,⟨10,4294967808,[],[],0,0⟩,⟨11,115792089237316195423570985008687907853269984665635612279299289565287451445759,[],[(3,.code)],0,0⟩,⟨12,4951760157141521099596496896,[],[],0,0⟩,⟨14,1152921504606846976,[],[],0,0⟩,⟨28,17179869184,[],[(5,.emb (.goto 6))],0,0⟩],[[⟨1,9223372036854775808,[],[],0,0⟩],[⟨2,5192296858534827628530496329220096,[],[],0,0⟩],[⟨3,20282409603651670423947251286016,[],[],0,0⟩],[⟨4,5192296858534827628530496329220096,[],[(0,.emb (.sawCall 3 5))],0,0⟩],[⟨0,1152921504606846976,[],[],0,0⟩,⟨5,8192,[],[],0,0⟩,⟨7,1024,[],[],0,0⟩,⟨8,4096,[],[],0,0⟩,⟨9,8192,[.crAlone],[],0,0⟩,⟨10,4294967808,[],[],0,0⟩,⟨11,115792089237316195423570985008687907853269984665635612279299289565287451445759,[],[(3,.code)],0,0⟩,⟨12,4951760157141521099596496896,[],[],0,0⟩,⟨14,1152921504606846976,[],[],0,0⟩,⟨28,17179869184,[],[(5,.emb (.goto 6))],0,0⟩],[⟨6,1024,[],[],0,0⟩],[⟨0,1152921504606846976,[],[(1,.setEnt .internalNl),(2,.cb)],0,0⟩,⟨5,8192,[],[(1,.setEnt .internalNl),(2,.cb)],0,0⟩,⟨7,1024,[],[(1,.setEnt .internalNl),(2,.cb)],0,0⟩,⟨8,4096,[],[(1,.setEnt .internalNl),(2,.cb)],0,0⟩,⟨9,8192,[.crAlone],[(1,.setEnt .internalNl),(2,.cb)],0,0⟩,⟨10,4294967808,[],[(1,.setEnt .internalNl),(2,.cb)],0,0⟩,⟨11,115792089237316195423570985008687907853269984665635612279299289565287451445759,[],[(1,.setEnt .internalNl),(2,.cb),(3,.code)],0,0⟩,⟨12,4951760157141521099596496896,[],[(1,.setEnt .internalNl),(2,.cb)],0,0⟩,⟨14,1152921504606846976,[],[(1,.setEnt .internalNl),(2,.cb)],0,0⟩,⟨28,17179869184,[],[(1,.setEnt .internalNl),(2,.cb),(5,.emb (.goto 6))],0,0⟩],[⟨0,1152921504606846976,[],[(1,.setEnt .internalNl),(2,.cb)],0,0⟩,⟨5,8192,[],[(1,.setEnt .internalNl),(2,.cb)],0,0⟩,⟨7,1024,[],[(1,.setEnt .internalNl),(2,.cb)],0,0⟩,⟨8,4096,[],[(1,.setEnt .internalNl),(2,.cb)],0,0⟩,⟨9,8192,[.crAlone],[(1,.setEnt .internalNl),(2,.cb)],0,0⟩,⟨10,4294967808,[],[(1,.setEnt .internalNl),(2,.cb)],0,0⟩,⟨11,115792089237316195423570985008687907853269984665635612279299289565287451445759,[],[(1,.setEnt .internalNl),(2,.cb),(3,.code)],0,0⟩,⟨12,4951760157141521099596496896,[],[(1,.setEnt .internalNl),(2,.cb)],0,0⟩,⟨14,1152921504606846976,[],[(1,.setEnt .internalNl),(2,.cb)],0,0⟩,⟨28,17179869184,[],[(1,.setEnt .internalNl),(2,.cb),(5,.emb (.goto 6))],0,0⟩],[⟨0,1152921504606846976,[],[(1,.setEnt .internalNl),(2,.cb)],0,0⟩,⟨5,8192,[],[(1,.setEnt .internalNl),(2,.cb)],0,0⟩,⟨7,1024,[],[(1,.setEnt .internalNl),(2,.cb)],0,0⟩,⟨8,4096,[],[(1,.setEnt .internalNl),(2,.cb)],0,0⟩,⟨9,8192,[.crAlone],[(1,.setEnt .internalNl),(2,.cb)],0,0⟩,⟨10,4294967808,[],[(1,.setEnt .internalNl),(2,.cb)],0,0⟩,⟨11,115792089237316195423570985008687907853269984665635612279299289565287451445759,[],[(1,.setEnt .internalNl),(2,.cb),(3,.code)],0,0⟩,⟨12,4951760157141521099596496896,[],[(1,.setEnt .internalNl),(2,.cb)],0,0⟩,⟨14,1152921504606846976,[],[(1,.setEnt .internalNl),(2,.cb)],0,0⟩,⟨28,17179869184,[],[(1,.setEnt .internalNl),(2,.cb),(5,.emb (.goto 6))],0,0⟩],[⟨0,1152921504606846976,[],[(1,.setEnt .internalNl),(2,.cb)],0,0⟩,⟨5,8192,[],[(1,.setEnt .internalNl),(2,.cb)],0,0⟩,⟨7,1024,[],[(1,.setEnt .internalNl),(2,.cb)],0,0⟩,⟨8,4096,[],[(1,.setEnt .internalNl),(2,.cb)],0,0⟩,⟨9,8192,[.crAlone],[(1,.setEnt .internalNl),(2,.cb)],0,0⟩,⟨10,4294967808,[],[(1,.setEnt .internalNl),(2,.cb)],0,0⟩,⟨11,115792089237316195423570985008687907853269984665635612279299289565287451445759,[],[(1,.setEnt .internalNl),(2,.cb),(3,.code)],0,0⟩,⟨12,4951760157141521099596496896,[],[(1,.setEnt .internalNl),(2,.cb)],0,0⟩,⟨14,1152921504606846976,[],[(1,.setEnt .internalNl),(2,.cb)],0,0⟩,⟨28,17179869184,[],[(1,.setEnt .internalNl),(2,.cb),(5,.emb (.goto 6))],0,0⟩],[⟨0,1152921504606846976,[],[],0,0⟩,⟨5,8192,[],[],0,0⟩,⟨7,1024,[],[],0,0⟩,⟨8,4096,[],[],0,0⟩,⟨9,8192,[.crAlone],[],0,0⟩,⟨10,4294967808,[],[],0,0⟩,⟨11,115792089237316195423570985008687907853269984665635612279299289565287451445759,[],[(3,.code)],0,0⟩,⟨12,4951760157141521099596496896,[],[],0,0⟩,⟨14,1152921504606846976,[],[],0,0⟩,⟨28,17179869184,[],[(5,.emb (.goto 6))],0,0⟩],[⟨0,1152921504606846976,[],[],0,0⟩,⟨5,8192,[],[],0,0⟩,⟨7,1024,[],[],0,0⟩,⟨8,4096,[],[],0,0⟩,⟨9,8192,[.crAlone],[],0,0⟩,⟨10,4294967808,[],[],0,0⟩,⟨11,115792089237316195423570985008687907853269984665635612279299289565287451445759,[],[(3,.code)],0,0⟩,⟨12,4951760157141521099596496896,[],[],0,0⟩,⟨14,1152921504606846976,[],[],0,0⟩,⟨28,17179869184,[],[(5,.emb (.goto 6))],0,0⟩],[⟨13,115792089237316195423570985008687907853269984665640564039457584007913129626623,[],[(4,.code)],0,0⟩],[⟨0,1152921504606846976,[],[],0,0⟩,⟨5,8192,[],[],0,0⟩,⟨7,1024,[],[],0,0⟩,⟨8,4096,[],[],0,0⟩,⟨9,8192,[.crAlone],[],0,0⟩,⟨10,4294967808,[],[],0,0⟩,⟨11,115792089237316195423570985008687907853269984665635612279299289565287451445759,[],[(3,.code)],0,0⟩,⟨12,4951760157141521099596496896,[],[],0,0⟩,⟨14,1152921504606846976,[],[],0,0⟩,⟨28,17179869184,[],[(5,.emb (.goto 6))],0,0⟩],[⟨15,115792089237316195423570985008687907853269984665640564039448360635876274864127,[],[],0,0⟩,⟨16,9223372036854775808,[],[],0,0⟩,⟨25,9223372036854775808,[],[],0,0⟩,⟨0,1152921504606846976,[],[],0,0⟩,⟨5,8192,[],[],0,0⟩,⟨7,1024,[],[],0,0⟩,⟨8,4096,[],[],0,0⟩,⟨9,8192,[.crAlone],[],0,0⟩,⟨10,4294967808,[],[],0,0⟩,⟨11,115792089237316195423570985008687907853269984665635612279299289565287451445759,[],[(3,.code)],0,0⟩,⟨12,4951760157141521099596496896,[],[],0,0⟩,⟨14,1152921504606846976,[],[],0,0⟩,⟨28,17179869184,[],[(5,.emb (.goto 6))],0,0⟩],[⟨24,115792089237316195423570985008687907853269984665640564039457584007913129639935,[],[],0,0⟩,⟨0,1152921504606846976,[],[],0,0⟩,⟨5,8192,[],[],0,0⟩,⟨7,1024,[],[],0,0⟩,⟨8,4096,[],[],0,0⟩,⟨9,8192,[.crAlone],[],0,0⟩,⟨10,4294967808,[],[],0,0⟩,⟨11,115792089237316195423570985008687907853269984665635612279299289565287451445759,[],[(3,.code)],0,0⟩,⟨12,4951760157141521099596496896,[],[],0,0⟩,⟨14,1152921504606846976,[],[],0,0⟩,⟨28,17179869184,[],[(5,.emb (.goto 6))],0,0⟩],[⟨17,115792089237316195423570985008687907853269979473343705504629955477416800419839,[],[],0,0⟩,⟨18,5192296858534827628530496329220096,[],[],0,0⟩],[⟨24,115792089237316195423570985008687907853269984665640564039457584007913129639935,[],[],0,0⟩,⟨0,1152921504606846976,[],[],0,0⟩,⟨5,8192,[],[],0,0⟩,⟨7,1024,[],[],0,0⟩,⟨8,4096,[],[],0,0⟩,⟨9,8192,[.crAlone],[],0,0⟩,⟨10,4294967808,[],[],0,0⟩,⟨11,115792089237316195423570985008687907853269984665635612279299289565287451445759,[],[(3,.code)],0,0⟩,⟨12,4951760157141521099596496896,[],[],0,0⟩,⟨14,1152921504606846976,[],[],0,0⟩,⟨28,17179869184,[],[(5,.emb (.goto 6))],0,0⟩],[⟨19,115792089237316195423570985008687907853269984645358154435805913583965878353919,[],[],0,0⟩,⟨20,20282409603651670423947251286016,[],[],0,0⟩],[⟨24,115792089237316195423570985008687907853269984665640564039457584007913129639935,[],[],0,0⟩,⟨0,1152921504606846976,[],[],0,0⟩,⟨5,8192,[],[],0,0⟩,⟨7,1024,[],[],0,0⟩,⟨8,4096,[],[],0,0⟩,⟨9,8192,[.crAlone],[],0,0⟩,⟨10,4294967808,[],[],0,0⟩,⟨11,115792089237316195423570985008687907853269984665635612279299289565287451445759,[],[(3,.code)],0,0⟩,⟨12,4951760157141521099596496896,[],[],0,0⟩,⟨14,1152921504606846976,[],[],0,0⟩,⟨28,17179869184,[],[(5,.emb (.goto 6))],0,0⟩],[⟨21,115792089237316195423570985008687907853269979473343705504629955477416800419839,[],[],0,0⟩,⟨22,5192296858534827628530496329220096,[],[],0,0⟩],[⟨24,115792089237316195423570985008687907853269984665640564039457584007913129639935,[],[],0,0⟩,⟨0,1152921504606846976,[],[],0,0⟩,⟨5,8192,[],[],0,0⟩,⟨7,1024,[],[],0,0⟩,⟨8,4096,[],[],0,0⟩,⟨9,8192,[.crAlone],[],0,0⟩,⟨10,4294967808,[],[],0,0⟩,⟨11,115792089237316195423570985008687907853269984665635612279299289565287451445759,[],[(3,.code)],0,0⟩,⟨12,4951760157141521099596496896,[],[],0,0⟩,⟨14,1152921504606846976,[],[],0,0⟩,⟨28,17179869184,[],[(5,.emb (.goto 6))],0,0⟩],[⟨23,115792089237316195423570985008687907853269984665640564039457584007913129639935,[],[],0,0⟩],[⟨24,115792089237316195423570985008687907853269984665640564039457584007913129639935,[],[],0,0⟩,⟨0,1152921504606846976,[],[],0,0⟩,⟨5,8192,[],[],0,0⟩,⟨7,1024,[],[],0,0⟩,⟨8,4096,[],[],0,0⟩,⟨9,8192,[.crAlone],[],0,0⟩,⟨10,4294967808,[],[],0,0⟩,⟨11,115792089237316195423570985008687907853269984665635612279299289565287451445759,[],[(3,.code)],0,0⟩,⟨12,4951760157141521099596496896,[],[],0,0⟩,⟨14,1152921504606846976,[],[],0,0⟩,⟨28,17179869184,[],[(5,.emb (.goto 6))],0,0⟩],[⟨24,115792089237316195423570985008687907853269984665640564039457584007913129639935,[],[],0,0⟩,⟨0,1152921504606846976,[],[],0,0⟩,⟨5,8192,[],[],0,0⟩,⟨7,1024,[],[],0,0⟩,⟨8,4096,[],[],0,0⟩,⟨9,8192,[.crAlone],[],0,0⟩,⟨10,4294967808,[],[],0,0⟩,⟨11,115792089237316195423570985008687907853269984665635612279299289565287451445759,[],[(3,.code)],0,0⟩,⟨12,4951760157141521099596496896,[],[],0,0⟩,⟨14,1152921504606846976,[],[],0,0⟩,⟨28,17179869184,[],[(5,.emb (.goto 6))],0,0⟩],[⟨26,5192296858534827628530496329220096,[],[],0,0⟩,⟨0,1152921504606846976,[],[],0,0⟩,⟨5,8192,[],[],0,0⟩,⟨7,1024,[],[],0,0⟩,⟨8,4096,[],[],0,0⟩,⟨9,8192,[.crAlone],[],0,0⟩,⟨10,4294967808,[],[],0,0⟩,⟨11,115792089237316195423570985008687907853269984665635612279299289565287451445759,[],[(3,.code)],0,0⟩,⟨12,4951760157141521099596496896,[],[],0,0⟩,⟨14,1152921504606846976,[],[],0,0⟩,⟨28,17179869184,[],[(5,.emb (.goto 6))],0,0⟩],[⟨27,20282409603651670423947251286016,[],[],0,0⟩,⟨0,1152921504606846976,[],[],0,0⟩,⟨5,8192,[],[],0,0⟩,⟨7,1024,[],[],0,0⟩,⟨8,4096,[],[],0,0⟩,⟨9,8192,[.crAlone],[],0,0⟩,⟨10,4294967808,[],[],0,0⟩,⟨11,115792089237316195423570985008687907853269984665635612279299289565287451445759,[],[(3,.code)],0,0⟩,⟨12,4951760157141521099596496896,[],[],0,0⟩,⟨14,1152921504606846976,[],[],0,0⟩,⟨28,17179869184,[],[(5,.emb (.goto 6))],0,0⟩],[⟨0,1152921504606846976,[],[],0,0⟩,⟨5,8192,[],[],0,0⟩,⟨7,1024,[],[],0,0⟩,⟨8,4096,[],[],0,0⟩,⟨9,8192,[.crAlone],[],0,0⟩,⟨10,4294967808,[],[],0,0⟩,⟨11,115792089237316195423570985008687907853269984665635612279299289565287451445759,[],[(3,.code)],0,0⟩,⟨12,4951760157141521099596496896,[],[],0,0⟩,⟨14,1152921504606846976,[],[],0,0⟩,⟨28,17179869184,[],[(5,.emb (.goto 6))],0,0⟩],[]],[none,none,none,none,none,none,none,none,none,none,none,none,none,none,none,none,none,none,none,none,none,none,none,none,none,none,none,none,some (0,[])],[6]⟩
def emb34_masks : List Nat := [1152921504606846976,8192,1024,4096,4294967808,115792089237316195423570985008687907853269984665635612279299289565287451445759,4951760157141521099596496896,17179869184,9223372036854775808,5192296858534827628530496329220096,20282409603651670423947251286016,115792089237316195423570985008687907853269984665640564039457584007913129626623,115792089237316195423570985008687907853269984665640564039448360635876274864127,115792089237316195423570985008687907853269984665640564039457584007913129639935,115792089237316195423570985008687907853269979473343705504629955477416800419839,115792089237316195423570985008687907853269984645358154435805913583965878353919]
def emb34_cs : List (Nat × Nat) := [(0,115792089237316195423570985008687907853269979453056344140810767238807016161791),(9,4294967808),(10,1024),(11,2048),(12,4096),(13,8192),(34,17179869184),(60,1152921504606846976),(63,9223372036854775808),(92,4951760157141521099596496896),(104,20282409603651670423947251286016),(112,5192296858534827628530496329220096)]
theorem emb34_masksIn : masksIn emb34_nfa emb34_masks = true := by decide +kernel
theorem emb34_repOk : repOk emb34_masks emb34_cs = true := by decide +kernel
def emb34_rows : List Row := [⟨[],none,[],[⟨256,.other,false,some ⟨1,[.code],none,false⟩⟩,⟨256,.ws,false,some ⟨2,[],none,false⟩⟩,⟨256,.lf,false,some ⟨3,[],none,false⟩⟩,⟨256,.vt,false,some ⟨1,[.code],none,false⟩⟩,⟨256,.ff,false,some ⟨4,[],none,false⟩⟩,⟨256,.cr,false,some ⟨5,[],none,false⟩⟩,⟨256,.cr,true,some ⟨6,[],none,false⟩⟩,⟨256,.other,false,some ⟨0,[.emb (.goto 6)],some 0,true⟩⟩,⟨256,.other,false,some ⟨7,[],none,false⟩⟩,⟨256,.other,false,some ⟨8,[],none,false⟩⟩]⟩,⟨[11],none,[],[⟨256,.other,false,some ⟨1,[.code],none,false⟩⟩,⟨256,.ws,false,some ⟨2,[],none,false⟩⟩,⟨256,.lf,false,some ⟨3,[],none,false⟩⟩,⟨256,.vt,false,some ⟨1,[.code],none,false⟩⟩,⟨256,.ff,false,some ⟨4,[],none,false⟩⟩,⟨256,.cr,false,some ⟨5,[],none,false⟩⟩,⟨256,.cr,true,some ⟨6,[],none,false⟩⟩,⟨256,.other,false,some ⟨0,[.emb (.goto 6)],some 0,true⟩⟩,⟨256,.other,false,some ⟨7,[],none,false⟩⟩,⟨256,.other,false,some ⟨8,[],none,false⟩⟩]⟩,⟨[10],none,[],[⟨256,.other,false,some ⟨1,[.code],none,false⟩⟩,⟨256,.ws,false,some ⟨2,[],none,false⟩⟩,⟨256,.lf,false,some ⟨3,[],none,false⟩⟩,⟨256,.vt,false,some ⟨1,[.code],none,false⟩⟩,⟨256,.ff,false,some ⟨4,[],none,false⟩⟩,⟨256,.cr,false,some ⟨5,[],none,false⟩⟩,⟨256,.cr,true,some ⟨6,[],none,false⟩⟩,⟨256,.other,false,some ⟨0,[.emb (.goto 6)],some 0,true⟩⟩,⟨256,.other,false,some ⟨7,[],none,false⟩⟩,⟨256,.other,false,some ⟨8,[],none,false⟩⟩]⟩,⟨[7],none,[],[⟨256,.other,false,some ⟨1,[.setEnt .internalNl,.cb,.code],none,false⟩⟩,⟨256,.ws,false,some ⟨2,[.setEnt .internalNl,.cb],none,false⟩⟩,⟨256,.lf,false,some ⟨3,[.setEnt .internalNl,.cb],none,false⟩⟩,⟨256,.vt,false,some ⟨1,[.setEnt .internalNl,.cb,.code],none,false⟩⟩,⟨256,.ff,false,some ⟨4,[.setEnt .internalNl,.cb],none,false⟩⟩,⟨256,.cr,false,some ⟨5,[.setEnt .internalNl,.cb],none,false⟩⟩,⟨256,.cr,true,some ⟨6,[.setEnt .internalNl,.cb],none,false⟩⟩,⟨256,.other,false,some ⟨0,[.setEnt .internalNl,.cb,.emb (.goto 6)],some 0,true⟩⟩,⟨256,.other,false,some ⟨7,[.setEnt .internalNl,.cb],none,false⟩⟩,⟨256,.other,false,some ⟨8,[.setEnt .internalNl,.cb],none,false⟩⟩]⟩,⟨[8],none,[],[⟨256,.other,false,some ⟨1,[.setEnt .internalNl,.cb,.code],none,false⟩⟩,⟨256,.ws,false,some ⟨2,[.setEnt .internalNl,.cb],none,false⟩⟩,⟨256,.lf,false,some ⟨3,[.setEnt .internalNl,.cb],none,false⟩⟩,⟨256,.vt,false,some ⟨1,[.setEnt .internalNl,.cb,.code],none,false⟩⟩,⟨256,.ff,false,some ⟨4,[.setEnt .internalNl,.cb],none,false⟩⟩,⟨256,.cr,false,some ⟨5,[.setEnt .internalNl,.cb],none,false⟩⟩,⟨256,.cr,true,some ⟨6,[.setEnt .internalNl,.cb],none,false⟩⟩,⟨256,.other,false,some ⟨0,[.setEnt .internalNl,.cb,.emb (.goto 6)],some 0,true⟩⟩,⟨256,.other,false,some ⟨7,[.setEnt .internalNl,.cb],none,false⟩⟩,⟨256,.other,false,some ⟨8,[.setEnt .internalNl,.cb],none,false⟩⟩]⟩,⟨[5],none,[],[⟨256,.other,false,none⟩,⟨256,.ws,false,none⟩,⟨256,.lf,false,some ⟨9,[],none,false⟩⟩,⟨256,.vt,false,none⟩,⟨256,.ff,false,none⟩,⟨256,.cr,false,none⟩,⟨256,.cr,true,none⟩]⟩,⟨[5,9],none,[],[⟨256,.other,false,some ⟨1,[.setEnt .internalNl,.cb,.code],none,false⟩⟩,⟨256,.ws,false,some ⟨2,[.setEnt .internalNl,.cb],none,false⟩⟩,⟨256,.lf,false,some ⟨10,[.setEnt .internalNl,.cb],none,false⟩⟩,⟨256,.vt,false,some ⟨1,[.setEnt .internalNl,.cb,.code],none,false⟩⟩,⟨256,.ff,false,some ⟨4,[.setEnt .internalNl,.cb],none,false⟩⟩,⟨256,.cr,false,some ⟨5,[.setEnt .internalNl,.cb],none,false⟩⟩,⟨256,.cr,true,some ⟨6,[.setEnt .internalNl,.cb],none,false⟩⟩,⟨256,.other,false,some ⟨0,[.setEnt .internalNl,.cb,.emb (.goto 6)],some 0,true⟩⟩,⟨256,.other,false,some ⟨7,[.setEnt .internalNl,.cb],none,false⟩⟩,⟨256,.other,false,some ⟨8,[.setEnt .internalNl,.cb],none,false⟩⟩]⟩,⟨[0,14],none,[],[⟨256,.other,false,some ⟨11,[.code],none,false⟩⟩,⟨256,.ws,false,some ⟨12,[],none,false⟩⟩,⟨256,.lf,false,some ⟨13,[],none,false⟩⟩,⟨256,.vt,false,some ⟨11,[.code],none,false⟩⟩,⟨256,.ff,false,some ⟨14,[],none,false⟩⟩,⟨256,.cr,false,some ⟨15,[],none,false⟩⟩,⟨256,.cr,true,some ⟨16,[],none,false⟩⟩,⟨256,.other,false,some ⟨17,[.emb (.goto 6)],some 0,false⟩⟩,⟨256,.other,false,some ⟨18,[],none,false⟩⟩,⟨256,.other,false,some ⟨19,[.code],none,false⟩⟩,⟨256,.other,false,some ⟨20,[],none,false⟩⟩]⟩,⟨[12],none,[],[⟨256,.other,false,some ⟨21,[.code],none,false⟩⟩,⟨256,.ws,false,some ⟨21,[.code],none,false⟩⟩,⟨256,.lf,false,none⟩,⟨256,.vt,false,some ⟨21,[.code],none,false⟩⟩,⟨256,.ff,false,none⟩,⟨256,.cr,false,none⟩,⟨256,.cr,true,none⟩]⟩,⟨[6],none,[],[⟨256,.other,false,some ⟨1,[.setEnt .internalNl,.cb,.code],none,false⟩⟩,⟨256,.ws,false,some ⟨2,[.setEnt .internalNl,.cb],none,false⟩⟩,⟨256,.lf,false,some ⟨3,[.setEnt .internalNl,.cb],none,false⟩⟩,⟨256,.vt,false,some ⟨1,[.setEnt .internalNl,.cb,.code],none,false⟩⟩,⟨256,.ff,false,some ⟨4,[.setEnt .internalNl,.cb],none,false⟩⟩,⟨256,.cr,false,some ⟨5,[.setEnt .internalNl,.cb],none,false⟩⟩,⟨256,.cr,true,some ⟨6,[.setEnt .internalNl,.cb],none,false⟩⟩,⟨256,.other,false,some ⟨0,[.setEnt .internalNl,.cb,.emb (.goto 6)],some 0,true⟩⟩,⟨256,.other,false,some ⟨7,[.setEnt .internalNl,.cb],none,false⟩⟩,⟨256,.other,false,some ⟨8,[.setEnt .internalNl,.cb],none,false⟩⟩]⟩,⟨[6,7],none,[],[⟨256,.other,false,some ⟨1,[.setEnt .internalNl,.cb,.code],none,false⟩⟩,⟨256,.ws,false,some ⟨2,[.setEnt .internalNl,.cb],none,false⟩⟩,⟨256,.lf,false,some ⟨3,[.setEnt .internalNl,.cb],none,false⟩⟩,⟨256,.vt,false,some ⟨1,[.setEnt .internalNl,.cb,.code],none,false⟩⟩,⟨256,.ff,false,some ⟨4,[.setEnt .internalNl,.cb],none,false⟩⟩,⟨256,.cr,false,some ⟨5,[.setEnt .internalNl,.cb],none,false⟩⟩,⟨256,.cr,true,some ⟨6,[.setEnt .internalNl,.cb],none,false⟩⟩,⟨256,.other,false,some ⟨0,[.setEnt .internalNl,.cb,.emb (.goto 6)],some 0,true⟩⟩,⟨256,.other,false,some ⟨7,[.setEnt .internalNl,.cb],none,false⟩⟩,⟨256,.other,false,some ⟨8,[.setEnt .internalNl,.cb],none,false⟩⟩]⟩,⟨[11,15],none,[],[⟨256,.other,false,some ⟨22,[.code],none,false⟩⟩,⟨256,.ws,false,some ⟨23,[],none,false⟩⟩,⟨256,.lf,false,some ⟨24,[],none,false⟩⟩,⟨256,.vt,false,some ⟨22,[.code],none,false⟩⟩,⟨256,.ff,false,some ⟨25,[],none,false⟩⟩,⟨256,.cr,false,some ⟨26,[],none,false⟩⟩,⟨256,.cr,true,some ⟨27,[],none,false⟩⟩,⟨256,.other,false,some ⟨28,[.emb (.goto 6)],some 0,false⟩⟩,⟨256,.other,false,some ⟨29,[],none,false⟩⟩,⟨256,.other,false,some ⟨30,[],none,false⟩⟩]⟩,⟨[10,15],none,[],[⟨256,.other,false,some ⟨22,[.code],none,false⟩⟩,⟨256,.ws,false,some ⟨23,[],none,false⟩⟩,⟨256,.lf,false,some ⟨24,[],none,false⟩⟩,⟨256,.vt,false,some ⟨22,[.code],none,false⟩⟩,⟨256,.ff,false,some ⟨25,[],none,false⟩⟩,⟨256,.cr,false,some ⟨26,[],none,false⟩⟩,⟨256,.cr,true,some ⟨27,[],none,false⟩⟩,⟨256,.other,false,some ⟨28,[.emb (.goto 6)],some 0,false⟩⟩,⟨256,.other,false,some ⟨29,[],none,false⟩⟩,⟨256,.other,false,some ⟨30,[],none,false⟩⟩]⟩,⟨[7,15],none,[],[⟨256,.other,false,some ⟨22,[.setEnt .internalNl,.cb,.code],none,false⟩⟩,⟨256,.ws,false,some ⟨23,[.setEnt .internalNl,.cb],none,false⟩⟩,⟨256,.lf,false,some ⟨24,[.setEnt .internalNl,.cb],none,false⟩⟩,⟨256,.vt,false,some ⟨22,[.setEnt .internalNl,.cb,.code],none,false⟩⟩,⟨256,.ff,false,some ⟨25,[.setEnt .internalNl,.cb],none,false⟩⟩,⟨256,.cr,false,some ⟨26,[.setEnt .internalNl,.cb],none,false⟩⟩,⟨256,.cr,true,some ⟨27,[.setEnt .internalNl,.cb],none,false⟩⟩,⟨256,.other,false,some ⟨28,[.setEnt .internalNl,.cb,.emb (.goto 6)],some 0,false⟩⟩,⟨256,.other,false,some ⟨29,[.setEnt .internalNl,.cb],none,false⟩⟩,⟨256,.other,false,some ⟨30,[.setEnt .internalNl,.cb],none,false⟩⟩]⟩,⟨[8,15],none,[],[⟨256,.other,false,some ⟨22,[.setEnt .internalNl,.cb,.code],none,false⟩⟩,⟨256,.ws,false,some ⟨23,[.setEnt .internalNl,.cb],none,false⟩⟩,⟨256,.lf,false,some ⟨24,[.setEnt .internalNl,.cb],none,false⟩⟩,⟨256,.vt,false,some ⟨22,[.setEnt .internalNl,.cb,.code],none,false⟩⟩,⟨256,.ff,false,some ⟨25,[.setEnt .internalNl,.cb],none,false⟩⟩,⟨256,.cr,false,some ⟨26,[.setEnt .internalNl,.cb],none,false⟩⟩,⟨256,.cr,true,some ⟨27,[.setEnt .internalNl,.cb],none,false⟩⟩,⟨256,.other,false,some ⟨28,[.setEnt .internalNl,.cb,.emb (.goto 6)],some 0,false⟩⟩,⟨256,.other,false,some ⟨29,[.setEnt .internalNl,.cb],none,false⟩⟩,⟨256,.other,false,some ⟨30,[.setEnt .internalNl,.cb],none,false⟩⟩]⟩,⟨[5,15],none,[],[⟨256,.other,false,some ⟨22,[.code],none,false⟩⟩,⟨256,.ws,false,some ⟨23,[],none,false⟩⟩,⟨256,.lf,false,some ⟨31,[],none,false⟩⟩,⟨256,.vt,false,some ⟨22,[.code],none,false⟩⟩,⟨256,.ff,false,some ⟨25,[],none,false⟩⟩,⟨256,.cr,false,some ⟨26,[],none,false⟩⟩,⟨256,.cr,true,some ⟨27,[],none,false⟩⟩,⟨256,.other,false,some ⟨28,[.emb (.goto 6)],some 0,false⟩⟩,⟨256,.other,false,some ⟨29,[],none,false⟩⟩,⟨256,.other,false,some ⟨30,[],none,false⟩⟩]⟩,⟨[5,9,15],none,[],[⟨256,.other,false,some ⟨22,[.setEnt .internalNl,.cb,.code],none,false⟩⟩,⟨256,.ws,false,some ⟨23,[.setEnt .internalNl,.cb],none,false⟩⟩,⟨256,.lf,false,some ⟨31,[.setEnt .internalNl,.cb],none,false⟩⟩,⟨256,.vt,false,some ⟨22,[.setEnt .internalNl,.cb,.code],none,false⟩⟩,⟨256,.ff,false,some ⟨25,[.setEnt .internalNl,.cb],none,false⟩⟩,⟨256,.cr,false,some ⟨26,[.setEnt .internalNl,.cb],none,false⟩⟩,⟨256,.cr,true,some ⟨27,[.setEnt .internalNl,.cb],none,false⟩⟩,⟨256,.other,false,some ⟨28,[.setEnt .internalNl,.cb,.emb (.goto 6)],some 0,false⟩⟩,⟨256,.other,false,some ⟨29,[.setEnt .internalNl,.cb],none,false⟩⟩,⟨256,.other,false,some ⟨30,[.setEnt .internalNl,.cb],none,false⟩⟩]⟩,⟨[15,28],some 0,[],[⟨256,.other,false,some ⟨22,[.code],none,false⟩⟩,⟨256,.ws,false,some ⟨23,[],none,false⟩⟩,⟨256,.lf,false,some ⟨24,[],none,false⟩⟩,⟨256,.vt,false,some ⟨22,[.code],none,false⟩⟩,⟨256,.ff,false,some ⟨25,[],none,false⟩⟩,⟨256,.cr,false,some ⟨26,[],none,false⟩⟩,⟨256,.cr,true,some ⟨27,[],none,false⟩⟩,⟨256,.other,false,some ⟨28,[.emb (.goto 6)],some 0,false⟩⟩,⟨256,.other,false,some ⟨29,[],none,false⟩⟩,⟨256,.other,false,some ⟨30,[],none,false⟩⟩]⟩,⟨[0,14,15],none,[],[⟨256,.other,false,some ⟨32,[.code],none,false⟩⟩,⟨256,.ws,false,some ⟨33,[],none,false⟩⟩,⟨256,.lf,false,some ⟨34,[],none,false⟩⟩,⟨256,.vt,false,some ⟨32,[.code],none,false⟩⟩,⟨256,.ff,false,some ⟨35,[],none,false⟩⟩,⟨256,.cr,false,some ⟨36,[],none,false⟩⟩,⟨256,.cr,true,some ⟨37,[],none,false⟩⟩,⟨256,.other,false,some ⟨38,[.emb (.goto 6)],some 0,false⟩⟩,⟨256,.other,false,some ⟨39,[],none,false⟩⟩,⟨256,.other,false,some ⟨40,[.code],none,false⟩⟩,⟨256,.other,false,some ⟨41,[],none,false⟩⟩]⟩,⟨[1,11,16,25],none,[],[⟨256,.other,false,some ⟨42,[.code],none,false⟩⟩,⟨256,.ws,false,some ⟨43,[],none,false⟩⟩,⟨256,.lf,false,some ⟨44,[],none,false⟩⟩,⟨256,.vt,false,some ⟨42,[.code],none,false⟩⟩,⟨256,.ff,false,some ⟨45,[],none,false⟩⟩,⟨256,.cr,false,some ⟨46,[],none,false⟩⟩,⟨256,.cr,true,some ⟨47,[],none,false⟩⟩,⟨256,.other,false,some ⟨48,[.emb (.goto 6)],some 0,false⟩⟩,⟨256,.other,false,some ⟨49,[],none,false⟩⟩,⟨256,.other,false,some ⟨50,[],none,false⟩⟩,⟨256,.other,false,some ⟨51,[.code],none,false⟩⟩]⟩,⟨[12,15],none,[],[⟨256,.other,false,some ⟨52,[.code],none,false⟩⟩,⟨256,.ws,false,some ⟨53,[.code],none,false⟩⟩,⟨256,.lf,false,some ⟨24,[],none,false⟩⟩,⟨256,.vt,false,some ⟨52,[.code],none,false⟩⟩,⟨256,.ff,false,some ⟨25,[],none,false⟩⟩,⟨256,.cr,false,some ⟨26,[],none,false⟩⟩,⟨256,.cr,true,some ⟨27,[],none,false⟩⟩,⟨256,.other,false,some ⟨54,[.code,.emb (.goto 6)],some 0,false⟩⟩,⟨256,.other,false,some ⟨55,[.code],none,false⟩⟩,⟨256,.other,false,some ⟨56,[.code],none,false⟩⟩]⟩,⟨[13],none,[],[⟨256,.other,false,some ⟨1,[.code],none,false⟩⟩,⟨256,.ws,false,some ⟨2,[],none,false⟩⟩,⟨256,.lf,false,some ⟨3,[],none,false⟩⟩,⟨256,.vt,false,some ⟨1,[.code],none,false⟩⟩,⟨256,.ff,false,some ⟨4,[],none,false⟩⟩,⟨256,.cr,false,some ⟨5,[],none,false⟩⟩,⟨256,.cr,true,some ⟨6,[],none,false⟩⟩,⟨256,.other,false,some ⟨0,[.emb (.goto 6)],some 0,true⟩⟩,⟨256,.other,false,some ⟨7,[],none,false⟩⟩,⟨256,.other,false,some ⟨8,[],none,false⟩⟩]⟩,⟨[11,24],none,[],[⟨256,.other,false,some ⟨22,[.code],none,false⟩⟩,⟨256,.ws,false,some ⟨23,[],none,false⟩⟩,⟨256,.lf,false,some ⟨24,[],none,false⟩⟩,⟨256,.vt,false,some ⟨22,[.code],none,false⟩⟩,⟨256,.ff,false,some ⟨25,[],none,false⟩⟩,⟨256,.cr,false,some ⟨26,[],none,false⟩⟩,⟨256,.cr,true,some ⟨27,[],none,false⟩⟩,⟨256,.other,false,some ⟨28,[.emb (.goto 6)],some 0,false⟩⟩,⟨256,.other,false,some ⟨29,[],none,false⟩⟩,⟨256,.other,false,some ⟨30,[],none,false⟩⟩]⟩,⟨[10,24],none,[],[⟨256,.other,false,some ⟨22,[.code],none,false⟩⟩,⟨256,.ws,false,some ⟨23,[],none,false⟩⟩,⟨256,.lf,false,some ⟨24,[],none,false⟩⟩,⟨256,.vt,false,some ⟨22,[.code],none,false⟩⟩,⟨256,.ff,false,some ⟨25,[],none,false⟩⟩,⟨256,.cr,false,some ⟨26,[],none,false⟩⟩,⟨256,.cr,true,some ⟨27,[],none,false⟩⟩,⟨256,.other,false,some ⟨28,[.emb (.goto 6)],some 0,false⟩⟩,⟨256,.other,false,some ⟨29,[],none,false⟩⟩,⟨256,.other,false,some ⟨30,[],none,false⟩⟩]⟩,⟨[7,24],none,[],[⟨256,.other,false,some ⟨22,[.setEnt .internalNl,.cb,.code],none,false⟩⟩,⟨256,.ws,false,some ⟨23,[.setEnt .internalNl,.cb],none,false⟩⟩,⟨256,.lf,false,some ⟨24,[.setEnt .internalNl,.cb],none,false⟩⟩,⟨256,.vt,false,some ⟨22,[.setEnt .internalNl,.cb,.code],none,false⟩⟩,⟨256,.ff,false,some ⟨25,[.setEnt .internalNl,.cb],none,false⟩⟩,⟨256,.cr,false,some ⟨26,[.setEnt .internalNl,.cb],none,false⟩⟩,⟨256,.cr,true,some ⟨27,[.setEnt .internalNl,.cb],none,false⟩⟩,⟨256,.other,false,some ⟨28,[.setEnt .internalNl,.cb,.emb (.goto 6)],some 0,false⟩⟩,⟨256,.other,false,some ⟨29,[.setEnt .internalNl,.cb],none,false⟩⟩,⟨256,.other,false,some ⟨30,[.setEnt .internalNl,.cb],none,false⟩⟩]⟩,⟨[8,24],none,[],[⟨256,.other,false,some ⟨22,[.setEnt .internalNl,.cb,.code],none,false⟩⟩,⟨256,.ws,false,some ⟨23,[.setEnt .internalNl,.cb],none,false⟩⟩,⟨256,.lf,false,some ⟨24,[.setEnt .internalNl,.cb],none,false⟩⟩,⟨256,.vt,false,some ⟨22,[.setEnt .internalNl,.cb,.code],none,false⟩⟩,⟨256,.ff,false,some ⟨25,[.setEnt .internalNl,.cb],none,false⟩⟩,⟨256,.cr,false,some ⟨26,[.setEnt .internalNl,.cb],none,false⟩⟩,⟨256,.cr,true,some ⟨27,[.setEnt .internalNl,.cb],none,false⟩⟩,⟨256,.other,false,some ⟨28,[.setEnt .internalNl,.cb,.emb (.goto 6)],some 0,false⟩⟩,⟨256,.other,false,some ⟨29,[.setEnt .internalNl,.cb],none,false⟩⟩,⟨256,.other,false,some ⟨30,[.setEnt .internalNl,.cb],none,false⟩⟩]⟩,⟨[5,24],none,[],[⟨256,.other,false,some ⟨22,[.code],none,false⟩⟩,⟨256,.ws,false,some ⟨23,[],none,false⟩⟩,⟨256,.lf,false,some ⟨31,[],none,false⟩⟩,⟨256,.vt,false,some ⟨22,[.code],none,false⟩⟩,⟨256,.ff,false,some ⟨25,[],none,false⟩⟩,⟨256,.cr,false,some ⟨26,[],none,false⟩⟩,⟨256,.cr,true,some ⟨27,[],none,false⟩⟩,⟨256,.other,false,some ⟨28,[.emb (.goto 6)],some 0,false⟩⟩,⟨256,.other,false,some ⟨29,[],none,false⟩⟩,⟨256,.other,false,some ⟨30,[],none,false⟩⟩]⟩,⟨[5,9,24],none,[],[⟨256,.other,false,some ⟨22,[.setEnt .internalNl,.cb,.code],none,false⟩⟩,⟨256,.ws,false,some ⟨23,[.setEnt .internalNl,.cb],none,false⟩⟩,⟨256,.lf,false,some ⟨31,[.setEnt .internalNl,.cb],none,false⟩⟩,⟨256,.vt,false,some ⟨22,[.setEnt .internalNl,.cb,.code],none,false⟩⟩,⟨256,.ff,false,some ⟨25,[.setEnt .internalNl,.cb],none,false⟩⟩,⟨256,.cr,false,some ⟨26,[.setEnt .internalNl,.cb],none,false⟩⟩,⟨256,.cr,true,some ⟨27,[.setEnt .internalNl,.cb],none,false⟩⟩,⟨256,.other,false,some ⟨28,[.setEnt .internalNl,.cb,.emb (.goto 6)],some 0,false⟩⟩,⟨256,.other,false,some ⟨29,[.setEnt .internalNl,.cb],none,false⟩⟩,⟨256,.other,false,some ⟨30,[.setEnt .internalNl,.cb],none,false⟩⟩]⟩,⟨[24,28],some 0,[],[⟨256,.other,false,some ⟨22,[.code],none,false⟩⟩,⟨256,.ws,false,some ⟨23,[],none,false⟩⟩,⟨256,.lf,false,some ⟨24,[],none,false⟩⟩,⟨256,.vt,false,some ⟨22,[.code],none,false⟩⟩,⟨256,.ff,false,some ⟨25,[],none,false⟩⟩,⟨256,.cr,false,some ⟨26,[],none,false⟩⟩,⟨256,.cr,true,some ⟨27,[],none,false⟩⟩,⟨256,.other,false,some ⟨28,[.emb (.goto 6)],some 0,false⟩⟩,⟨256,.other,false,some ⟨29,[],none,false⟩⟩,⟨256,.other,false,some ⟨30,[],none,false⟩⟩]⟩,⟨[0,14,24],none,[],[⟨256,.other,false,some ⟨32,[.code],none,false⟩⟩,⟨256,.ws,false,some ⟨33,[],none,false⟩⟩,⟨256,.lf,false,some ⟨34,[],none,false⟩⟩,⟨256,.vt,false,some ⟨32,[.code],none,false⟩⟩,⟨256,.ff,false,some ⟨35,[],none,false⟩⟩,⟨256,.cr,false,some ⟨36,[],none,false⟩⟩,⟨256,.cr,true,some ⟨37,[],none,false⟩⟩,⟨256,.other,false,some ⟨38,[.emb (.goto 6)],some 0,false⟩⟩,⟨256,.other,false,some ⟨39,[],none,false⟩⟩,⟨256,.other,false,some ⟨40,[.code],none,false⟩⟩,⟨256,.other,false,some ⟨41,[],none,false⟩⟩]⟩,⟨[12,24],none,[],[⟨256,.other,false,some ⟨52,[.code],none,false⟩⟩,⟨256,.ws,false,some ⟨53,[.code],none,false⟩⟩,⟨256,.lf,false,some ⟨24,[],none,false⟩⟩,⟨256,.vt,false,some ⟨52,[.code],none,false⟩⟩,⟨256,.ff,false,some ⟨25,[],none,false⟩⟩,⟨256,.cr,false,some ⟨26,[],none,false⟩⟩,⟨256,.cr,true,some ⟨27,[],none,false⟩⟩,⟨256,.other,false,some ⟨54,[.code,.emb (.goto 6)],some 0,false⟩⟩,⟨256,.other,false,some ⟨55,[.code],none,false⟩⟩,⟨256,.other,false,some ⟨56,[.code],none,false⟩⟩]⟩,⟨[6,7,24],none,[],[⟨256,.other,false,some ⟨22,[.setEnt .internalNl,.cb,.code],none,false⟩⟩,⟨256,.ws,false,some ⟨23,[.setEnt .internalNl,.cb],none,false⟩⟩,⟨256,.lf,false,some ⟨24,[.setEnt .internalNl,.cb],none,false⟩⟩,⟨256,.vt,false,some ⟨22,[.setEnt .internalNl,.cb,.code],none,false⟩⟩,⟨256,.ff,false,some ⟨25,[.setEnt .internalNl,.cb],none,false⟩⟩,⟨256,.cr,false,some ⟨26,[.setEnt .internalNl,.cb],none,false⟩⟩,⟨256,.cr,true,some ⟨27,[.setEnt .internalNl,.cb],none,false⟩⟩,⟨256,.other,false,some ⟨28,[.setEnt .internalNl,.cb,.emb (.goto 6)],some 0,false⟩⟩,⟨256,.other,false,some ⟨29,[.setEnt .internalNl,.cb],none,false⟩⟩,⟨256,.other,false,some ⟨30,[.setEnt .internalNl,.cb],none,false⟩⟩]⟩,⟨[11,15,24],none,[],[⟨256,.other,false,some ⟨22,[.code],none,false⟩⟩,⟨256,.ws,false,some ⟨23,[],none,false⟩⟩,⟨256,.lf,false,some ⟨24,[],none,false⟩⟩,⟨256,.vt,false,some ⟨22,[.code],none,false⟩⟩,⟨256,.ff,false,some ⟨25,[],none,false⟩⟩,⟨256,.cr,false,some ⟨26,[],none,false⟩⟩,⟨256,.cr,true,some ⟨27,[],none,false⟩⟩,⟨256,.other,false,some ⟨28,[.emb (.goto 6)],some 0,false⟩⟩,⟨256,.other,false,some ⟨29,[],none,false⟩⟩,⟨256,.other,false,some ⟨30,[],none,false⟩⟩]⟩,⟨[10,15,24],none,[],[⟨256,.other,false,some ⟨22,[.code],none,false⟩⟩,⟨256,.ws,false,some ⟨23,[],none,false⟩⟩,⟨256,.lf,false,some ⟨24,[],none,false⟩⟩,⟨256,.vt,false,some ⟨22,[.code],none,false⟩⟩,⟨256,.ff,false,some ⟨25,[],none,false⟩⟩,⟨256,.cr,false,some ⟨26,[],none,false⟩⟩,⟨256,.cr,true,some ⟨27,[],none,false⟩⟩,⟨256,.other,false,some ⟨28,[.emb (.goto 6)],some 0,false⟩⟩,⟨256,.other,false,some ⟨29,[],none,false⟩⟩,⟨256,.other,false,some ⟨30,[],none,false⟩⟩]⟩,⟨[7,15,24],none,[],[⟨256,.other,false,some ⟨22,[.setEnt .internalNl,.cb,.code],none,false⟩⟩,⟨256,.ws,false,some ⟨23,[.setEnt .internalNl,.cb],none,false⟩⟩,⟨256,.lf,false,some ⟨24,[.setEnt .internalNl,.cb],none,false⟩⟩,⟨256,.vt,false,some ⟨22,[.setEnt .internalNl,.cb,.code],none,false⟩⟩,⟨256,.ff,false,some ⟨25,[.setEnt .internalNl,.cb],none,false⟩⟩,⟨256,.cr,false,some ⟨26,[.setEnt .internalNl,.cb],none,false⟩⟩,⟨256,.cr,true,some ⟨27,[.setEnt .internalNl,.cb],none,false⟩⟩,⟨256,.other,false,some ⟨28,[.setEnt .internalNl,.cb,.emb (.goto 6)],some 0,false⟩⟩,⟨256,.other,false,some ⟨29,[.setEnt .internalNl,.cb],none,false⟩⟩,⟨256,.other,false,some ⟨30,[.setEnt .internalNl,.cb],none,false⟩⟩]⟩,⟨[8,15,24],none,[],[⟨256,.other,false,some ⟨22,[.setEnt .internalNl,.cb,.code],none,false⟩⟩,⟨256,.ws,false,some ⟨23,[.setEnt .internalNl,.cb],none,false⟩⟩,⟨256,.lf,false,some ⟨24,[.setEnt .internalNl,.cb],none,false⟩⟩,⟨256,.vt,false,some ⟨22,[.setEnt .internalNl,.cb,.code],none,false⟩⟩,⟨256,.ff,false,some ⟨25,[.setEnt .internalNl,.cb],none,false⟩⟩,⟨256,.cr,false,some ⟨26,[.setEnt .internalNl,.cb],none,false⟩⟩,⟨256,.cr,true,some ⟨27,[.setEnt .internalNl,.cb],none,false⟩⟩,⟨256,.other,false,some ⟨28,[.setEnt .internalNl,.cb,.emb (.goto 6)],some 0,false⟩⟩,⟨256,.other,false,some ⟨29,[.setEnt .internalNl,.cb],none,false⟩⟩,⟨256,.other,false,some ⟨30,[.setEnt .internalNl,.cb],none,false⟩⟩]⟩,⟨[5,15,24],none,[],[⟨256,.other,false,some ⟨22,[.code],none,false⟩⟩,⟨256,.ws,false,some ⟨23,[],none,false⟩⟩,⟨256,.lf,false,some ⟨31,[],none,false⟩⟩,⟨256,.vt,false,some ⟨22,[.code],none,false⟩⟩,⟨256,.ff,false,some ⟨25,[],none,false⟩⟩,⟨256,.cr,false,some ⟨26,[],none,false⟩⟩,⟨256,.cr,true,some ⟨27,[],none,false⟩⟩,⟨256,.other,false,some ⟨28,[.emb (.goto 6)],some 0,false⟩⟩,⟨256,.other,false,some ⟨29,[],none,false⟩⟩,⟨256,.other,false,some ⟨30,[],none,false⟩⟩]⟩,⟨[5,9,15,24],none,[],[⟨256,.other,false,some ⟨22,[.setEnt .internalNl,.cb,.code],none,false⟩⟩,⟨256,.ws,false,some ⟨23,[.setEnt .internalNl,.cb],none,false⟩⟩,⟨256,.lf,false,some ⟨31,[.setEnt .internalNl,.cb],none,false⟩⟩,⟨256,.vt,false,some ⟨22,[.setEnt .internalNl,.cb,.code],none,false⟩⟩,⟨256,.ff,false,some ⟨25,[.setEnt .internalNl,.cb],none,false⟩⟩,⟨256,.cr,false,some ⟨26,[.setEnt .internalNl,.cb],none,false⟩⟩,⟨256,.cr,true,some ⟨27,[.setEnt .internalNl,.cb],none,false⟩⟩,⟨256,.other,false,some ⟨28,[.setEnt .internalNl,.cb,.emb (.goto 6)],some 0,false⟩⟩,⟨256,.other,false,some ⟨29,[.setEnt .internalNl,.cb],none,false⟩⟩,⟨256,.other,false,some ⟨30,[.setEnt .internalNl,.cb],none,false⟩⟩]⟩,⟨[15,24,28],some 0,[],[⟨256,.other,false,some ⟨22,[.code],none,false⟩⟩,⟨256,.ws,false,some ⟨23,[],none,false⟩⟩,⟨256,.lf,false,some ⟨24,[],none,false⟩⟩,⟨256,.vt,false,some ⟨22,[.code],none,false⟩⟩,⟨256,.ff,false,some ⟨25,[],none,false⟩⟩,⟨256,.cr,false,some ⟨26,[],none,false⟩⟩,⟨256,.cr,true,some ⟨27,[],none,false⟩⟩,⟨256,.other,false,some ⟨28,[.emb (.goto 6)],some 0,false⟩⟩,⟨256,.other,false,some ⟨29,[],none,false⟩⟩,⟨256,.other,false,some ⟨30,[],none,false⟩⟩]⟩,⟨[0,14,15,24],none,[],[⟨256,.other,false,some ⟨32,[.code],none,false⟩⟩,⟨256,.ws,false,some ⟨33,[],none,false⟩⟩,⟨256,.lf,false,some ⟨34,[],none,false⟩⟩,⟨256,.vt,false,some ⟨32,[.code],none,false⟩⟩,⟨256,.ff,false,some ⟨35,[],none,false⟩⟩,⟨256,.cr,false,some ⟨36,[],none,false⟩⟩,⟨256,.cr,true,some ⟨37,[],none,false⟩⟩,⟨256,.other,false,some ⟨38,[.emb (.goto 6)],some 0,false⟩⟩,⟨256,.other,false,some ⟨39,[],none,false⟩⟩,⟨256,.other,false,some ⟨40,[.code],none,false⟩⟩,⟨256,.other,false,some ⟨41,[],none,false⟩⟩]⟩,⟨[1,11,16,24,25],none,[],[⟨256,.other,false,some ⟨57,[.code],none,false⟩⟩,⟨256,.ws,false,some ⟨58,[],none,false⟩⟩,⟨256,.lf,false,some ⟨59,[],none,false⟩⟩,⟨256,.vt,false,some ⟨57,[.code],none,false⟩⟩,⟨256,.ff,false,some ⟨60,[],none,false⟩⟩,⟨256,.cr,false,some ⟨61,[],none,false⟩⟩,⟨256,.cr,true,some ⟨62,[],none,false⟩⟩,⟨256,.other,false,some ⟨63,[.emb (.goto 6)],some 0,false⟩⟩,⟨256,.other,false,some ⟨64,[],none,false⟩⟩,⟨256,.other,false,some ⟨65,[],none,false⟩⟩,⟨256,.other,false,some ⟨66,[.code],none,false⟩⟩]⟩,⟨[12,15,24],none,[],[⟨256,.other,false,some ⟨52,[.code],none,false⟩⟩,⟨256,.ws,false,some ⟨53,[.code],none,false⟩⟩,⟨256,.lf,false,some ⟨24,[],none,false⟩⟩,⟨256,.vt,false,some ⟨52,[.code],none,false⟩⟩,⟨256,.ff,false,some ⟨25,[],none,false⟩⟩,⟨256,.cr,false,some ⟨26,[],none,false⟩⟩,⟨256,.cr,true,some ⟨27,[],none,false⟩⟩,⟨256,.other,false,some ⟨54,[.code,.emb (.goto 6)],some 0,false⟩⟩,⟨256,.other,false,some ⟨55,[.code],none,false⟩⟩,⟨256,.other,false,some ⟨56,[.code],none,false⟩⟩]⟩,⟨[11,17],none,[],[⟨256,.other,false,some ⟨22,[.code],none,false⟩⟩,⟨256,.ws,false,some ⟨23,[],none,false⟩⟩,⟨256,.lf,false,some ⟨24,[],none,false⟩⟩,⟨256,.vt,false,some ⟨22,[.code],none,false⟩⟩,⟨256,.ff,false,some ⟨25,[],none,false⟩⟩,⟨256,.cr,false,some ⟨26,[],none,false⟩⟩,⟨256,.cr,true,some ⟨27,[],none,false⟩⟩,⟨256,.other,false,some ⟨28,[.emb (.goto 6)],some 0,false⟩⟩,⟨256,.other,false,some ⟨29,[],none,false⟩⟩,⟨256,.other,false,some ⟨30,[],none,false⟩⟩]⟩,⟨[10,17],none,[],[⟨256,.other,false,some ⟨22,[.code],none,false⟩⟩,⟨256,.ws,false,some ⟨23,[],none,false⟩⟩,⟨256,.lf,false,some ⟨24,[],none,false⟩⟩,⟨256,.vt,false,some ⟨22,[.code],none,false⟩⟩,⟨256,.ff,false,some ⟨25,[],none,false⟩⟩,⟨256,.cr,false,some ⟨26,[],none,false⟩⟩,⟨256,.cr,true,some ⟨27,[],none,false⟩⟩,⟨256,.other,false,some ⟨28,[.emb (.goto 6)],some 0,false⟩⟩,⟨256,.other,false,some ⟨29,[],none,false⟩⟩,⟨256,.other,false,some ⟨30,[],none,false⟩⟩]⟩,⟨[7,17],none,[],[⟨256,.other,false,some ⟨22,[.setEnt .internalNl,.cb,.code],none,false⟩⟩,⟨256,.ws,false,some ⟨23,[.setEnt .internalNl,.cb],none,false⟩⟩,⟨256,.lf,false,some ⟨24,[.setEnt .internalNl,.cb],none,false⟩⟩,⟨256,.vt,false,some ⟨22,[.setEnt .internalNl,.cb,.code],none,false⟩⟩,⟨256,.ff,false,some ⟨25,[.setEnt .internalNl,.cb],none,false⟩⟩,⟨256,.cr,false,some ⟨26,[.setEnt .internalNl,.cb],none,false⟩⟩,⟨256,.cr,true,some ⟨27,[.setEnt .internalNl,.cb],none,false⟩⟩,⟨256,.other,false,some ⟨28,[.setEnt .internalNl,.cb,.emb (.goto 6)],some 0,false⟩⟩,⟨256,.other,false,some ⟨29,[.setEnt .internalNl,.cb],none,false⟩⟩,⟨256,.other,false,some ⟨30,[.setEnt .internalNl,.cb],none,false⟩⟩]⟩,⟨[8,17],none,[],[⟨256,.other,false,some ⟨22,[.setEnt .internalNl,.cb,.code],none,false⟩⟩,⟨256,.ws,false,some ⟨23,[.setEnt .internalNl,.cb],none,false⟩⟩,⟨256,.lf,false,some ⟨24,[.setEnt .internalNl,.cb],none,false⟩⟩,⟨256,.vt,false,some ⟨22,[.setEnt .internalNl,.cb,.code],none,false⟩⟩,⟨256,.ff,false,some ⟨25,[.setEnt .internalNl,.cb],none,false⟩⟩,⟨256,.cr,false,some ⟨26,[.setEnt .internalNl,.cb],none,false⟩⟩,⟨256,.cr,true,some ⟨27,[.setEnt .internalNl,.cb],none,false⟩⟩,⟨256,.other,false,some ⟨28,[.setEnt .internalNl,.cb,.emb (.goto 6)],some 0,false⟩⟩,⟨256,.other,false,some ⟨29,[.setEnt .internalNl,.cb],none,false⟩⟩,⟨256,.other,false,some ⟨30,[.setEnt .internalNl,.cb],none,false⟩⟩]⟩,⟨[5,17],none,[],[⟨256,.other,false,some ⟨22,[.code],none,false⟩⟩,⟨256,.ws,false,some ⟨23,[],none,false⟩⟩,⟨256,.lf,false,some ⟨31,[],none,false⟩⟩,⟨256,.vt,false,some ⟨22,[.code],none,false⟩⟩,⟨256,.ff,false,some ⟨25,[],none,false⟩⟩,⟨256,.cr,false,some ⟨26,[],none,false⟩⟩,⟨256,.cr,true,some ⟨27,[],none,false⟩⟩,⟨256,.other,false,some ⟨28,[.emb (.goto 6)],some 0,false⟩⟩,⟨256,.other,false,some ⟨29,[],none,false⟩⟩,⟨256,.other,false,some ⟨30,[],none,false⟩⟩]⟩,⟨[5,9,17],none,[],[⟨256,.other,false,some ⟨22,[.setEnt .internalNl,.cb,.code],none,false⟩⟩,⟨256,.ws,false,some ⟨23,[.setEnt .internalNl,.cb],none,false⟩⟩,⟨256,.lf,false,some ⟨31,[.setEnt .internalNl,.cb],none,false⟩⟩,⟨256,.vt,false,some ⟨22,[.setEnt .internalNl,.cb,.code],none,false⟩⟩,⟨256,.ff,false,some ⟨25,[.setEnt .internalNl,.cb],none,false⟩⟩,⟨256,.cr,false,some ⟨26,[.setEnt .internalNl,.cb],none,false⟩⟩,⟨256,.cr,true,some ⟨27,[.setEnt .internalNl,.cb],none,false⟩⟩,⟨256,.other,false,some ⟨28,[.setEnt .internalNl,.cb,.emb (.goto 6)],some 0,false⟩⟩,⟨256,.other,false,some ⟨29,[.setEnt .internalNl,.cb],none,false⟩⟩,⟨256,.other,false,some ⟨30,[.setEnt .internalNl,.cb],none,false⟩⟩]⟩,⟨[17,28],some 0,[],[⟨256,.other,false,some ⟨22,[.code],none,false⟩⟩,⟨256,.ws,false,some ⟨23,[],none,false⟩⟩,⟨256,.lf,false,some ⟨24,[],none,false⟩⟩,⟨256,.vt,false,some ⟨22,[.code],none,false⟩⟩,⟨256,.ff,false,some ⟨25,[],none,false⟩⟩,⟨256,.cr,false,some ⟨26,[],none,false⟩⟩,⟨256,.cr,true,some ⟨27,[],none,false⟩⟩,⟨256,.other,false,some ⟨28,[.emb (.goto 6)],some 0,false⟩⟩,⟨256,.other,false,some ⟨29,[],none,false⟩⟩,⟨256,.other,false,some ⟨30,[],none,false⟩⟩]⟩,⟨[0,14,17],none,[],[⟨256,.other,false,some ⟨32,[.code],none,false⟩⟩,⟨256,.ws,false,some ⟨33,[],none,false⟩⟩,⟨256,.lf,false,some ⟨34,[],none,false⟩⟩,⟨256,.vt,false,some ⟨32,[.code],none,false⟩⟩,⟨256,.ff,false,some ⟨35,[],none,false⟩⟩,⟨256,.cr,false,some ⟨36,[],none,false⟩⟩,⟨256,.cr,true,some ⟨37,[],none,false⟩⟩,⟨256,.other,false,some ⟨38,[.emb (.goto 6)],some 0,false⟩⟩,⟨256,.other,false,some ⟨39,[],none,false⟩⟩,⟨256,.other,false,some ⟨40,[.code],none,false⟩⟩,⟨256,.other,false,some ⟨41,[],none,false⟩⟩]⟩,⟨[12,17],none,[],[⟨256,.other,false,some ⟨52,[.code],none,false⟩⟩,⟨256,.ws,false,some ⟨53,[.code],none,false⟩⟩,⟨256,.lf,false,some ⟨24,[],none,false⟩⟩,⟨256,.vt,false,some ⟨52,[.code],none,false⟩⟩,⟨256,.ff,false,some ⟨25,[],none,false⟩⟩,⟨256,.cr,false,some ⟨26,[],none,false⟩⟩,⟨256,.cr,true,some ⟨27,[],none,false⟩⟩,⟨256,.other,false,some ⟨54,[.code,.emb (.goto 6)],some 0,false⟩⟩,⟨256,.other,false,some ⟨55,[.code],none,false⟩⟩,⟨256,.other,false,some ⟨56,[.code],none,false⟩⟩]⟩,⟨[2,11,18,26],none,[],[⟨256,.other,false,some ⟨67,[.code],none,false⟩⟩,⟨256,.ws,false,some ⟨68,[],none,false⟩⟩,⟨256,.lf,false,some ⟨69,[],none,false⟩⟩,⟨256,.vt,false,some ⟨67,[.code],none,false⟩⟩,⟨256,.ff,false,some ⟨70,[],none,false⟩⟩,⟨256,.cr,false,some ⟨71,[],none,false⟩⟩,⟨256,.cr,true,some ⟨72,[],none,false⟩⟩,⟨256,.other,false,some ⟨73,[.emb (.goto 6)],some 0,false⟩⟩,⟨256,.other,false,some ⟨74,[],none,false⟩⟩,⟨256,.other,false,some ⟨75,[],none,false⟩⟩,⟨256,.other,false,some ⟨76,[.code],none,false⟩⟩]⟩,⟨[11,13,24],none,[],[⟨256,.other,false,some ⟨22,[.code],none,false⟩⟩,⟨256,.ws,false,some ⟨23,[],none,false⟩⟩,⟨256,.lf,false,some ⟨24,[],none,false⟩⟩,⟨256,.vt,false,some ⟨22,[.code],none,false⟩⟩,⟨256,.ff,false,some ⟨25,[],none,false⟩⟩,⟨256,.cr,false,some ⟨26,[],none,false⟩⟩,⟨256,.cr,true,some ⟨27,[],none,false⟩⟩,⟨256,.other,false,some ⟨28,[.emb (.goto 6)],some 0,false⟩⟩,⟨256,.other,false,some ⟨29,[],none,false⟩⟩,⟨256,.other,false,some ⟨30,[],none,false⟩⟩]⟩,⟨[10,13,24],none,[],[⟨256,.other,false,some ⟨22,[.code],none,false⟩⟩,⟨256,.ws,false,some ⟨23,[],none,false⟩⟩,⟨256,.lf,false,some ⟨24,[],none,false⟩⟩,⟨256,.vt,false,some ⟨22,[.code],none,false⟩⟩,⟨256,.ff,false,some ⟨25,[],none,false⟩⟩,⟨256,.cr,false,some ⟨26,[],none,false⟩⟩,⟨256,.cr,true,some ⟨27,[],none,false⟩⟩,⟨256,.other,false,some ⟨28,[.emb (.goto 6)],some 0,false⟩⟩,⟨256,.other,false,some ⟨29,[],none,false⟩⟩,⟨256,.other,false,some ⟨30,[],none,false⟩⟩]⟩,⟨[13,24,28],some 0,[],[⟨256,.other,false,some ⟨22,[.code],none,false⟩⟩,⟨256,.ws,false,some ⟨23,[],none,false⟩⟩,⟨256,.lf,false,some ⟨24,[],none,false⟩⟩,⟨256,.vt,false,some ⟨22,[.code],none,false⟩⟩,⟨256,.ff,false,some ⟨25,[],none,false⟩⟩,⟨256,.cr,false,some ⟨26,[],none,false⟩⟩,⟨256,.cr,true,some ⟨27,[],none,false⟩⟩,⟨256,.other,false,some ⟨28,[.emb (.goto 6)],some 0,false⟩⟩,⟨256,.other,false,some ⟨29,[],none,false⟩⟩,⟨256,.other,false,some ⟨30,[],none,false⟩⟩]⟩,⟨[0,13,14,24],none,[],[⟨256,.other,false,some ⟨32,[.code],none,false⟩⟩,⟨256,.ws,false,some ⟨33,[],none,false⟩⟩,⟨256,.lf,false,some ⟨34,[],none,false⟩⟩,⟨256,.vt,false,some ⟨32,[.code],none,false⟩⟩,⟨256,.ff,false,some ⟨35,[],none,false⟩⟩,⟨256,.cr,false,some ⟨36,[],none,false⟩⟩,⟨256,.cr,true,some ⟨37,[],none,false⟩⟩,⟨256,.other,false,some ⟨38,[.emb (.goto 6)],some 0,false⟩⟩,⟨256,.other,false,some ⟨39,[],none,false⟩⟩,⟨256,.other,false,some ⟨40,[.code],none,false⟩⟩,⟨256,.other,false,some ⟨41,[],none,false⟩⟩]⟩,⟨[12,13,24],none,[],[⟨256,.other,false,some ⟨52,[.code],none,false⟩⟩,⟨256,.ws,false,some ⟨53,[.code],none,false⟩⟩,⟨256,.lf,false,some ⟨24,[],none,false⟩⟩,⟨256,.vt,false,some ⟨52,[.code],none,false⟩⟩,⟨256,.ff,false,some ⟨25,[],none,false⟩⟩,⟨256,.cr,false,some ⟨26,[],none,false⟩⟩,⟨256,.cr,true,some ⟨27,[],none,false⟩⟩,⟨256,.other,false,some ⟨54,[.code,.emb (.goto 6)],some 0,false⟩⟩,⟨256,.other,false,some ⟨55,[.code],none,false⟩⟩,⟨256,.other,false,some ⟨56,[.code],none,false⟩⟩]⟩,⟨[11,17,24],none,[],[⟨256,.other,false,some ⟨22,[.code],none,false⟩⟩,⟨256,.ws,false,some ⟨23,[],none,false⟩⟩,⟨256,.lf,false,some ⟨24,[],none,false⟩⟩,⟨256,.vt,false,some ⟨22,[.code],none,false⟩⟩,⟨256,.ff,false,some ⟨25,[],none,false⟩⟩,⟨256,.cr,false,some ⟨26,[],none,false⟩⟩,⟨256,.cr,true,some ⟨27,[],none,false⟩⟩,⟨256,.other,false,some ⟨28,[.emb (.goto 6)],some 0,false⟩⟩,⟨256,.other,false,some ⟨29,[],none,false⟩⟩,⟨256,.other,false,some ⟨30,[],none,false⟩⟩]⟩,⟨[10,17,24],none,[],[⟨256,.other,false,some ⟨22,[.code],none,false⟩⟩,⟨256,.ws,false,some ⟨23,[],none,false⟩⟩,⟨256,.lf,false,some ⟨24,[],none,false⟩⟩,⟨256,.vt,false,some ⟨22,[.code],none,false⟩⟩,⟨256,.ff,false,some ⟨25,[],none,false⟩⟩,⟨256,.cr,false,some ⟨26,[],none,false⟩⟩,⟨256,.cr,true,some ⟨27,[],none,false⟩⟩,⟨256,.other,false,some ⟨28,[.emb (.goto 6)],some 0,false⟩⟩,⟨256,.other,false,some ⟨29,[],none,false⟩⟩,⟨256,.other,false,some ⟨30,[],none,false⟩⟩]⟩,⟨[7,17,24],none,[],[⟨256,.other,false,some ⟨22,[.setEnt .internalNl,.cb,.code],none,false⟩⟩,⟨256,.ws,false,some ⟨23,[.setEnt .internalNl,.cb],none,false⟩⟩,⟨256,.lf,false,some ⟨24,[.setEnt .internalNl,.cb],none,false⟩⟩,⟨256,.vt,false,some ⟨22,[.setEnt .internalNl,.cb,.code],none,false⟩⟩,⟨256,.ff,false,some ⟨25,[.setEnt .internalNl,.cb],none,false⟩⟩,⟨256,.cr,false,some ⟨26,[.setEnt .internalNl,.cb],none,false⟩⟩,⟨256,.cr,true,some ⟨27,[.setEnt .internalNl,.cb],none,false⟩⟩,⟨256,.other,false,some ⟨28,[.setEnt .internalNl,.cb,.emb (.goto 6)],some 0,false⟩⟩,⟨256,.other,false,some ⟨29,[.setEnt .internalNl,.cb],none,false⟩⟩,⟨256,.other,false,some ⟨30,[.setEnt .internalNl,.cb],none,false⟩⟩]⟩,⟨[8,17,24],none,[],[⟨256,.other,false,some ⟨22,[.setEnt .internalNl,.cb,.code],none,false⟩⟩,⟨256,.ws,false,some ⟨23,[.setEnt .internalNl,.cb],none,false⟩⟩,⟨256,.lf,false,some ⟨24,[.setEnt .internalNl,.cb],none,false⟩⟩,⟨256,.vt,false,some ⟨22,[.setEnt .internalNl,.cb,.code],none,false⟩⟩,⟨256,.ff,false,some ⟨25,[.setEnt .internalNl,.cb],none,false⟩⟩,⟨256,.cr,false,some ⟨26,[.setEnt .internalNl,.cb],none,false⟩⟩,⟨256,.cr,true,some ⟨27,[.setEnt .internalNl,.cb],none,false⟩⟩,⟨256,.other,false,some ⟨28,[.setEnt .internalNl,.cb,.emb (.goto 6)],some 0,false⟩⟩,⟨256,.other,false,some ⟨29,[.setEnt .internalNl,.cb],none,false⟩⟩,⟨256,.other,false,some ⟨30,[.setEnt .internalNl,.cb],none,false⟩⟩]⟩,⟨[5,17,24],none,[],[⟨256,.other,false,some ⟨22,[.code],none,false⟩⟩,⟨256,.ws,false,some ⟨23,[],none,false⟩⟩,⟨256,.lf,false,some ⟨31,[],none,false⟩⟩,⟨256,.vt,false,some ⟨22,[.code],none,false⟩⟩,⟨256,.ff,false,some ⟨25,[],none,false⟩⟩,⟨256,.cr,false,some ⟨26,[],none,false⟩⟩,⟨256,.cr,true,some ⟨27,[],none,false⟩⟩,⟨256,.other,false,some ⟨28,[.emb (.goto 6)],some 0,false⟩⟩,⟨256,.other,false,some ⟨29,[],none,false⟩⟩,⟨256,.other,false,some ⟨30,[],none,false⟩⟩]⟩,⟨[5,9,17,24],none,[],[⟨256,.other,false,some ⟨22,[.setEnt .internalNl,.cb,.code],none,false⟩⟩,⟨256,.ws,false,some ⟨23,[.setEnt .internalNl,.cb],none,false⟩⟩,⟨256,.lf,false,some ⟨31,[.setEnt .internalNl,.cb],none,false⟩⟩,⟨256,.vt,false,some ⟨22,[.setEnt .internalNl,.cb,.code],none,false⟩⟩,⟨256,.ff,false,some ⟨25,[.setEnt .internalNl,.cb],none,false⟩⟩,⟨256,.cr,false,some ⟨26,[.setEnt .internalNl,.cb],none,false⟩⟩,⟨256,.cr,true,some ⟨27,[.setEnt .internalNl,.cb],none,false⟩⟩,⟨256,.other,false,some ⟨28,[.setEnt .internalNl,.cb,.emb (.goto 6)],some 0,false⟩⟩,⟨256,.other,false,some ⟨29,[.setEnt .internalNl,.cb],none,false⟩⟩,⟨256,.other,false,some ⟨30,[.setEnt .internalNl,.cb],none,false⟩⟩]⟩,⟨[17,24,28],some 0,[],[⟨256,.other,false,some ⟨22,[.code],none,false⟩⟩,⟨256,.ws,false,some ⟨23,[],none,false⟩⟩,⟨256,.lf,false,some ⟨24,[],none,false⟩⟩,⟨256,.vt,false,some ⟨22,[.code],none,false⟩⟩,⟨256,.ff,false,some ⟨25,[],none,false⟩⟩,⟨256,.cr,false,some ⟨26,[],none,false⟩⟩,⟨256,.cr,true,some ⟨27,[],none,false⟩⟩,⟨256,.other,false,some ⟨28,[.emb (.goto 6)],some 0,false⟩⟩,⟨256,.other,false,some ⟨29,[],none,false⟩⟩,⟨256,.other,false,some ⟨30,[],none,false⟩⟩]⟩,⟨[0,14,17,24],none,[],[⟨256,.other,false,some ⟨32,[.code],none,false⟩⟩,⟨256,.ws,false,some ⟨33,[],none,false⟩⟩,⟨256,.lf,false,some ⟨34,[],none,false⟩⟩,⟨256,.vt,false,some ⟨32,[.code],none,false⟩⟩,⟨256,.ff,false,some ⟨35,[],none,false⟩⟩,⟨256,.cr,false,some ⟨36,[],none,false⟩⟩,⟨256,.cr,true,some ⟨37,[],none,false⟩⟩,⟨256,.other,false,some ⟨38,[.emb (.goto 6)],some 0,false⟩⟩,⟨256,.other,false,some ⟨39,[],none,false⟩⟩,⟨256,.other,false,some ⟨40,[.code],none,false⟩⟩,⟨256,.other,false,some ⟨41,[],none,false⟩⟩]⟩,⟨[12,17,24],none,[],[⟨256,.other,false,some ⟨52,[.code],none,false⟩⟩,⟨256,.ws,false,some ⟨53,[.code],none,false⟩⟩,⟨256,.lf,false,some ⟨24,[],none,false⟩⟩,⟨256,.vt,false,some ⟨52,[.code],none,false⟩⟩,⟨256,.ff,false,some ⟨25,[],none,false⟩⟩,⟨256,.cr,false,some ⟨26,[],none,false⟩⟩,⟨256,.cr,true,some ⟨27,[],none,false⟩⟩,⟨256,.other,false,some ⟨54,[.code,.emb (.goto 6)],some 0,false⟩⟩,⟨256,.other,false,some ⟨55,[.code],none,false⟩⟩,⟨256,.other,false,some ⟨56,[.code],none,false⟩⟩]⟩,⟨[2,11,18,24,26],none,[],[⟨256,.other,false,some ⟨77,[.code],none,false⟩⟩,⟨256,.ws,false,some ⟨78,[],none,false⟩⟩,⟨256,.lf,false,some ⟨79,[],none,false⟩⟩,⟨256,.vt,false,some ⟨77,[.code],none,false⟩⟩,⟨256,.ff,false,some ⟨80,[],none,false⟩⟩,⟨256,.cr,false,some ⟨81,[],none,false⟩⟩,⟨256,.cr,true,some ⟨82,[],none,false⟩⟩,⟨256,.other,false,some ⟨83,[.emb (.goto 6)],some 0,false⟩⟩,⟨256,.other,false,some ⟨84,[],none,false⟩⟩,⟨256,.other,false,some ⟨85,[],none,false⟩⟩,⟨256,.other,false,some ⟨86,[.code],none,false⟩⟩]⟩,⟨[11,19],none,[],[⟨256,.other,false,some ⟨22,[.code],none,false⟩⟩,⟨256,.ws,false,some ⟨23,[],none,false⟩⟩,⟨256,.lf,false,some ⟨24,[],none,false⟩⟩,⟨256,.vt,false,some ⟨22,[.code],none,false⟩⟩,⟨256,.ff,false,some ⟨25,[],none,false⟩⟩,⟨256,.cr,false,some ⟨26,[],none,false⟩⟩,⟨256,.cr,true,some ⟨27,[],none,false⟩⟩,⟨256,.other,false,some ⟨28,[.emb (.goto 6)],some 0,false⟩⟩,⟨256,.other,false,some ⟨29,[],none,false⟩⟩,⟨256,.other,false,some ⟨30,[],none,false⟩⟩]⟩,⟨[10,19],none,[],[⟨256,.other,false,some ⟨22,[.code],none,false⟩⟩,⟨256,.ws,false,some ⟨23,[],none,false⟩⟩,⟨256,.lf,false,some ⟨24,[],none,false⟩⟩,⟨256,.vt,false,some ⟨22,[.code],none,false⟩⟩,⟨256,.ff,false,some ⟨25,[],none,false⟩⟩,⟨256,.cr,false,some ⟨26,[],none,false⟩⟩,⟨256,.cr,true,some ⟨27,[],none,false⟩⟩,⟨256,.other,false,some ⟨28,[.emb (.goto 6)],some 0,false⟩⟩,⟨256,.other,false,some ⟨29,[],none,false⟩⟩,⟨256,.other,false,some ⟨30,[],none,false⟩⟩]⟩,⟨[7,19],none,[],[⟨256,.other,false,some ⟨22,[.setEnt .internalNl,.cb,.code],none,false⟩⟩,⟨256,.ws,false,some ⟨23,[.setEnt .internalNl,.cb],none,false⟩⟩,⟨256,.lf,false,some ⟨24,[.setEnt .internalNl,.cb],none,false⟩⟩,⟨256,.vt,false,some ⟨22,[.setEnt .internalNl,.cb,.code],none,false⟩⟩,⟨256,.ff,false,some ⟨25,[.setEnt .internalNl,.cb],none,false⟩⟩,⟨256,.cr,false,some ⟨26,[.setEnt .internalNl,.cb],none,false⟩⟩,⟨256,.cr,true,some ⟨27,[.setEnt .internalNl,.cb],none,false⟩⟩,⟨256,.other,false,some ⟨28,[.setEnt .internalNl,.cb,.emb (.goto 6)],some 0,false⟩⟩,⟨256,.other,false,some ⟨29,[.setEnt .internalNl,.cb],none,false⟩⟩,⟨256,.other,false,some ⟨30,[.setEnt .internalNl,.cb],none,false⟩⟩]⟩,⟨[8,19],none,[],[⟨256,.other,false,some ⟨22,[.setEnt .internalNl,.cb,.code],none,false⟩⟩,⟨256,.ws,false,some ⟨23,[.setEnt .internalNl,.cb],none,false⟩⟩,⟨256,.lf,false,some ⟨24,[.setEnt .internalNl,.cb],none,false⟩⟩,⟨256,.vt,false,some ⟨22,[.setEnt .internalNl,.cb,.code],none,false⟩⟩,⟨256,.ff,false,some ⟨25,[.setEnt .internalNl,.cb],none,false⟩⟩,⟨256,.cr,false,some ⟨26,[.setEnt .internalNl,.cb],none,false⟩⟩,⟨256,.cr,true,some ⟨27,[.setEnt .internalNl,.cb],none,false⟩⟩,⟨256,.other,false,some ⟨28,[.setEnt .internalNl,.cb,.emb (.goto 6)],some 0,false⟩⟩,⟨256,.other,false,some ⟨29,[.setEnt .internalNl,.cb],none,false⟩⟩,⟨256,.other,false,some ⟨30,[.setEnt .internalNl,.cb],none,false⟩⟩]⟩,⟨[5,19],none,[],[⟨256,.other,false,some ⟨22,[.code],none,false⟩⟩,⟨256,.ws,false,some ⟨23,[],none,false⟩⟩,⟨256,.lf,false,some ⟨31,[],none,false⟩⟩,⟨256,.vt,false,some ⟨22,[.code],none,false⟩⟩,⟨256,.ff,false,some ⟨25,[],none,false⟩⟩,⟨256,.cr,false,some ⟨26,[],none,false⟩⟩,⟨256,.cr,true,some ⟨27,[],none,false⟩⟩,⟨256,.other,false,some ⟨28,[.emb (.goto 6)],some 0,false⟩⟩,⟨256,.other,false,some ⟨29,[],none,false⟩⟩,⟨256,.other,false,some ⟨30,[],none,false⟩⟩]⟩,⟨[5,9,19],none,[],[⟨256,.other,false,some ⟨22,[.setEnt .internalNl,.cb,.code],none,false⟩⟩,⟨256,.ws,false,some ⟨23,[.setEnt .internalNl,.cb],none,false⟩⟩,⟨256,.lf,false,some ⟨31,[.setEnt .internalNl,.cb],none,false⟩⟩,⟨256,.vt,false,some ⟨22,[.setEnt .internalNl,.cb,.code],none,false⟩⟩,⟨256,.ff,false,some ⟨25,[.setEnt .internalNl,.cb],none,false⟩⟩,⟨256,.cr,false,some ⟨26,[.setEnt .internalNl,.cb],none,false⟩⟩,⟨256,.cr,true,some ⟨27,[.setEnt .internalNl,.cb],none,false⟩⟩,⟨256,.other,false,some ⟨28,[.setEnt .internalNl,.cb,.emb (.goto 6)],some 0,false⟩⟩,⟨256,.other,false,some ⟨29,[.setEnt .internalNl,.cb],none,false⟩⟩,⟨256,.other,false,some ⟨30,[.setEnt .internalNl,.cb],none,false⟩⟩]⟩,⟨[19,28],some 0,[],[⟨256,.other,false,some ⟨22,[.code],none,false⟩⟩,⟨256,.ws,false,some ⟨23,[],none,false⟩⟩,⟨256,.lf,false,some ⟨24,[],none,false⟩⟩,⟨256,.vt,false,some ⟨22,[.code],none,false⟩⟩,⟨256,.ff,false,some ⟨25,[],none,false⟩⟩,⟨256,.cr,false,some ⟨26,[],none,false⟩⟩,⟨256,.cr,true,some ⟨27,[],none,false⟩⟩,⟨256,.other,false,some ⟨28,[.emb (.goto 6)],some 0,false⟩⟩,⟨256,.other,false,some ⟨29,[],none,false⟩⟩,⟨256,.other,false,some ⟨30,[],none,false⟩⟩]⟩,⟨[0,14,19],none,[],[⟨256,.other,false,some ⟨32,[.code],none,false⟩⟩,⟨256,.ws,false,some ⟨33,[],none,false⟩⟩,⟨256,.lf,false,some ⟨34,[],none,false⟩⟩,⟨256,.vt,false,some ⟨32,[.code],none,false⟩⟩,⟨256,.ff,false,some ⟨35,[],none,false⟩⟩,⟨256,.cr,false,some ⟨36,[],none,false⟩⟩,⟨256,.cr,true,some ⟨37,[],none,false⟩⟩,⟨256,.other,false,some ⟨38,[.emb (.goto 6)],some 0,false⟩⟩,⟨256,.other,false,some ⟨39,[],none,false⟩⟩,⟨256,.other,false,some ⟨40,[.code],none,false⟩⟩,⟨256,.other,false,some ⟨41,[],none,false⟩⟩]⟩,⟨[12,19],none,[],[⟨256,.other,false,some ⟨52,[.code],none,false⟩⟩,⟨256,.ws,false,some ⟨53,[.code],none,false⟩⟩,⟨256,.lf,false,some ⟨24,[],none,false⟩⟩,⟨256,.vt,false,some ⟨52,[.code],none,false⟩⟩,⟨256,.ff,false,some ⟨25,[],none,false⟩⟩,⟨256,.cr,false,some ⟨26,[],none,false⟩⟩,⟨256,.cr,true,some ⟨27,[],none,false⟩⟩,⟨256,.other,false,some ⟨54,[.code,.emb (.goto 6)],some 0,false⟩⟩,⟨256,.other,false,some ⟨55,[.code],none,false⟩⟩,⟨256,.other,false,some ⟨56,[.code],none,false⟩⟩]⟩,⟨[3,11,20,27],none,[],[⟨256,.other,false,some ⟨87,[.code],none,false⟩⟩,⟨256,.ws,false,some ⟨88,[],none,false⟩⟩,⟨256,.lf,false,some ⟨89,[],none,false⟩⟩,⟨256,.vt,false,some ⟨87,[.code],none,false⟩⟩,⟨256,.ff,false,some ⟨90,[],none,false⟩⟩,⟨256,.cr,false,some ⟨91,[],none,false⟩⟩,⟨256,.cr,true,some ⟨92,[],none,false⟩⟩,⟨256,.other,false,some ⟨93,[.emb (.goto 6)],some 0,false⟩⟩,⟨256,.other,false,some ⟨94,[],none,false⟩⟩,⟨256,.other,false,some ⟨95,[],none,false⟩⟩,⟨256,.other,false,some ⟨96,[.emb (.sawCall 3 5),.code],none,false⟩⟩]⟩,⟨[11,19,24],none,[],[⟨256,.other,false,some ⟨22,[.code],none,false⟩⟩,⟨256,.ws,false,some ⟨23,[],none,false⟩⟩,⟨256,.lf,false,some ⟨24,[],none,false⟩⟩,⟨256,.vt,false,some ⟨22,[.code],none,false⟩⟩,⟨256,.ff,false,some ⟨25,[],none,false⟩⟩,⟨256,.cr,false,some ⟨26,[],none,false⟩⟩,⟨256,.cr,true,some ⟨27,[],none,false⟩⟩,⟨256,.other,false,some ⟨28,[.emb (.goto 6)],some 0,false⟩⟩,⟨256,.other,false,some ⟨29,[],none,false⟩⟩,⟨256,.other,false,some ⟨30,[],none,false⟩⟩]⟩,⟨[10,19,24],none,[],[⟨256,.other,false,some ⟨22,[.code],none,false⟩⟩,⟨256,.ws,false,some ⟨23,[],none,false⟩⟩,⟨256,.lf,false,some ⟨24,[],none,false⟩⟩,⟨256,.vt,false,some ⟨22,[.code],none,false⟩⟩,⟨256,.ff,false,some ⟨25,[],none,false⟩⟩,⟨256,.cr,false,some ⟨26,[],none,false⟩⟩,⟨256,.cr,true,some ⟨27,[],none,false⟩⟩,⟨256,.other,false,some ⟨28,[.emb (.goto 6)],some 0,false⟩⟩,⟨256,.other,false,some ⟨29,[],none,false⟩⟩,⟨256,.other,false,some ⟨30,[],none,false⟩⟩]⟩,⟨[7,19,24],none,[],[⟨256,.other,false,some ⟨22,[.setEnt .internalNl,.cb,.code],none,false⟩⟩,⟨256,.ws,false,some ⟨23,[.setEnt .internalNl,.cb],none,false⟩⟩,⟨256,.lf,false,some ⟨24,[.setEnt .internalNl,.cb],none,false⟩⟩,⟨256,.vt,false,some ⟨22,[.setEnt .internalNl,.cb,.code],none,false⟩⟩,⟨256,.ff,false,some ⟨25,[.setEnt .internalNl,.cb],none,false⟩⟩,⟨256,.cr,false,some ⟨26,[.setEnt .internalNl,.cb],none,false⟩⟩,⟨256,.cr,true,some ⟨27,[.setEnt .internalNl,.cb],none,false⟩⟩,⟨256,.other,false,some ⟨28,[.setEnt .internalNl,.cb,.emb (.goto 6)],some 0,false⟩⟩,⟨256,.other,false,some ⟨29,[.setEnt .internalNl,.cb],none,false⟩⟩,⟨256,.other,false,some ⟨30,[.setEnt .internalNl,.cb],none,false⟩⟩]⟩,⟨[8,19,24],none,[],[⟨256,.other,false,some ⟨22,[.setEnt .internalNl,.cb,.code],none,false⟩⟩,⟨256,.ws,false,some ⟨23,[.setEnt .internalNl,.cb],none,false⟩⟩,⟨256,.lf,false,some ⟨24,[.setEnt .internalNl,.cb],none,false⟩⟩,⟨256,.vt,false,some ⟨22,[.setEnt .internalNl,.cb,.code],none,false⟩⟩,⟨256,.ff,false,some ⟨25,[.setEnt .internalNl,.cb],none,false⟩⟩,⟨256,.cr,false,some ⟨26,[.setEnt .internalNl,.cb],none,false⟩⟩,⟨256,.cr,true,some ⟨27,[.setEnt .internalNl,.cb],none,false⟩⟩,⟨256,.other,false,some ⟨28,[.setEnt .internalNl,.cb,.emb (.goto 6)],some 0,false⟩⟩,⟨256,.other,false,some ⟨29,[.setEnt .internalNl,.cb],none,false⟩⟩,⟨256,.other,false,some ⟨30,[.setEnt .internalNl,.cb],none,false⟩⟩]⟩,⟨[5,19,24],none,[],[⟨256,.other,false,some ⟨22,[.code],none,false⟩⟩,⟨256,.ws,false,some ⟨23,[],none,false⟩⟩,⟨256,.lf,false,some ⟨31,[],none,false⟩⟩,⟨256,.vt,false,some ⟨22,[.code],none,false⟩⟩,⟨256,.ff,false,some ⟨25,[],none,false⟩⟩,⟨256,.cr,false,some ⟨26,[],none,false⟩⟩,⟨256,.cr,true,some ⟨27,[],none,false⟩⟩,⟨256,.other,false,some ⟨28,[.emb (.goto 6)],some 0,false⟩⟩,⟨256,.other,false,some ⟨29,[],none,false⟩⟩,⟨256,.other,false,some ⟨30,[],none,false⟩⟩]⟩,⟨[5,9,19,24],none,[],[⟨256,.other,false,some ⟨22,[.setEnt .internalNl,.cb,.code],none,false⟩⟩,⟨256,.ws,false,some ⟨23,[.setEnt .internalNl,.cb],none,false⟩⟩,⟨256,.lf,false,some ⟨31,[.setEnt .internalNl,.cb],none,false⟩⟩,⟨256,.vt,false,some ⟨22,[.setEnt .internalNl,.cb,.code],none,false⟩⟩,⟨256,.ff,false,some ⟨25,[.setEnt .internalNl,.cb],none,false⟩⟩,⟨256,.cr,false,some ⟨26,[.setEnt .internalNl,.cb],none,false⟩⟩,⟨256,.cr,true,some ⟨27,[.setEnt .internalNl,.cb],none,false⟩⟩,⟨256,.other,false,some ⟨28,[.setEnt .internalNl,.cb,.emb (.goto 6)],some 0,false⟩⟩,⟨256,.other,false,some ⟨29,[.setEnt .internalNl,.cb],none,false⟩⟩,⟨256,.other,false,some ⟨30,[.setEnt .internalNl,.cb],none,false⟩⟩]⟩,⟨[19,24,28],some 0,[],[⟨256,.other,false,some ⟨22,[.code],none,false⟩⟩,⟨256,.ws,false,some ⟨23,[],none,false⟩⟩,⟨256,.lf,false,some ⟨24,[],none,false⟩⟩,⟨256,.vt,false,some ⟨22,[.code],none,false⟩⟩,⟨256,.ff,false,some ⟨25,[],none,false⟩⟩,⟨256,.cr,false,some ⟨26,[],none,false⟩⟩,⟨256,.cr,true,some ⟨27,[],none,false⟩⟩,⟨256,.other,false,some ⟨28,[.emb (.goto 6)],some 0,false⟩⟩,⟨256,.other,false,some ⟨29,[],none,false⟩⟩,⟨256,.other,false,some ⟨30,[],none,false⟩⟩]⟩,⟨[0,14,19,24],none,[],[⟨256,.other,false,some ⟨32,[.code],none,false⟩⟩,⟨256,.ws,false,some ⟨33,[],none,false⟩⟩,⟨256,.lf,false,some ⟨34,[],none,false⟩⟩,⟨256,.vt,false,some ⟨32,[.code],none,false⟩⟩,⟨256,.ff,false,some ⟨35,[],none,false⟩⟩,⟨256,.cr,false,some ⟨36,[],none,false⟩⟩,⟨256,.cr,true,some ⟨37,[],none,false⟩⟩,⟨256,.other,false,some ⟨38,[.emb (.goto 6)],some 0,false⟩⟩,⟨256,.other,false,some ⟨39,[],none,false⟩⟩,⟨256,.other,false,some ⟨40,[.code],none,false⟩⟩,⟨256,.other,false,some ⟨41,[],none,false⟩⟩]⟩,⟨[12,19,24],none,[],[⟨256,.other,false,some ⟨52,[.code],none,false⟩⟩,⟨256,.ws,false,some ⟨53,[.code],none,false⟩⟩,⟨256,.lf,false,some ⟨24,[],none,false⟩⟩,⟨256,.vt,false,some ⟨52,[.code],none,false⟩⟩,⟨256,.ff,false,some ⟨25,[],none,false⟩⟩,⟨256,.cr,false,some ⟨26,[],none,false⟩⟩,⟨256,.cr,true,some ⟨27,[],none,false⟩⟩,⟨256,.other,false,some ⟨54,[.code,.emb (.goto 6)],some 0,false⟩⟩,⟨256,.other,false,some ⟨55,[.code],none,false⟩⟩,⟨256,.other,false,some ⟨56,[.code],none,false⟩⟩]⟩,⟨[3,11,20,24,27],none,[],[⟨256,.other,false,some ⟨97,[.code],none,false⟩⟩,⟨256,.ws,false,some ⟨98,[],none,false⟩⟩,⟨256,.lf,false,some ⟨99,[],none,false⟩⟩,⟨256,.vt,false,some ⟨97,[.code],none,false⟩⟩,⟨256,.ff,false,some ⟨100,[],none,false⟩⟩,⟨256,.cr,false,some ⟨101,[],none,false⟩⟩,⟨256,.cr,true,some ⟨102,[],none,false⟩⟩,⟨256,.other,false,some ⟨103,[.emb (.goto 6)],some 0,false⟩⟩,⟨256,.other,false,some ⟨104,[],none,false⟩⟩,⟨256,.other,false,some ⟨105,[],none,false⟩⟩,⟨256,.other,false,some ⟨106,[.emb (.sawCall 3 5),.code],none,false⟩⟩]⟩,⟨[11,21],none,[],[⟨256,.other,false,some ⟨22,[.code],none,false⟩⟩,⟨256,.ws,false,some ⟨23,[],none,false⟩⟩,⟨256,.lf,false,some ⟨24,[],none,false⟩⟩,⟨256,.vt,false,some ⟨22,[.code],none,false⟩⟩,⟨256,.ff,false,some ⟨25,[],none,false⟩⟩,⟨256,.cr,false,some ⟨26,[],none,false⟩⟩,⟨256,.cr,true,some ⟨27,[],none,false⟩⟩,⟨256,.other,false,some ⟨28,[.emb (.goto 6)],some 0,false⟩⟩,⟨256,.other,false,some ⟨29,[],none,false⟩⟩,⟨256,.other,false,some ⟨30,[],none,false⟩⟩]⟩,⟨[10,21],none,[],[⟨256,.other,false,some ⟨22,[.code],none,false⟩⟩,⟨256,.ws,false,some ⟨23,[],none,false⟩⟩,⟨256,.lf,false,some ⟨24,[],none,false⟩⟩,⟨256,.vt,false,some ⟨22,[.code],none,false⟩⟩,⟨256,.ff,false,some ⟨25,[],none,false⟩⟩,⟨256,.cr,false,some ⟨26,[],none,false⟩⟩,⟨256,.cr,true,some ⟨27,[],none,false⟩⟩,⟨256,.other,false,some ⟨28,[.emb (.goto 6)],some 0,false⟩⟩,⟨256,.other,false,some ⟨29,[],none,false⟩⟩,⟨256,.other,false,some ⟨30,[],none,false⟩⟩]⟩,⟨[7,21],none,[],[⟨256,.other,false,some ⟨22,[.setEnt .internalNl,.cb,.code],none,false⟩⟩,⟨256,.ws,false,some ⟨23,[.setEnt .internalNl,.cb],none,false⟩⟩,⟨256,.lf,false,some ⟨24,[.setEnt .internalNl,.cb],none,false⟩⟩,⟨256,.vt,false,some ⟨22,[.setEnt .internalNl,.cb,.code],none,false⟩⟩,⟨256,.ff,false,some ⟨25,[.setEnt .internalNl,.cb],none,false⟩⟩,⟨256,.cr,false,some ⟨26,[.setEnt .internalNl,.cb],none,false⟩⟩,⟨256,.cr,true,some ⟨27,[.setEnt .internalNl,.cb],none,false⟩⟩,⟨256,.other,false,some ⟨28,[.setEnt .internalNl,.cb,.emb (.goto 6)],some 0,false⟩⟩,⟨256,.other,false,some ⟨29,[.setEnt .internalNl,.cb],none,false⟩⟩,⟨256,.other,false,some ⟨30,[.setEnt .internalNl,.cb],none,false⟩⟩]⟩,⟨[8,21],none,[],[⟨256,.other,false,some ⟨22,[.setEnt .internalNl,.cb,.code],none,false⟩⟩,⟨256,.ws,false,some ⟨23,[.setEnt .internalNl,.cb],none,false⟩⟩,⟨256,.lf,false,some ⟨24,[.setEnt .internalNl,.cb],none,false⟩⟩,⟨256,.vt,false,some ⟨22,[.setEnt .internalNl,.cb,.code],none,false⟩⟩,⟨256,.ff,false,some ⟨25,[.setEnt .internalNl,.cb],none,false⟩⟩,⟨256,.cr,false,some ⟨26,[.setEnt .internalNl,.cb],none,false⟩⟩,⟨256,.cr,true,some ⟨27,[.setEnt .internalNl,.cb],none,false⟩⟩,⟨256,.other,false,some ⟨28,[.setEnt .internalNl,.cb,.emb (.goto 6)],some 0,false⟩⟩,⟨256,.other,false,some ⟨29,[.setEnt .internalNl,.cb],none,false⟩⟩,⟨256,.other,false,some ⟨30,[.setEnt .internalNl,.cb],none,false⟩⟩]⟩,⟨[5,21],none,[],[⟨256,.other,false,some ⟨22,[.code],none,false⟩⟩,⟨256,.ws,false,some ⟨23,[],none,false⟩⟩,⟨256,.lf,false,some ⟨31,[],none,false⟩⟩,⟨256,.vt,false,some ⟨22,[.code],none,false⟩⟩,⟨256,.ff,false,some ⟨25,[],none,false⟩⟩,⟨256,.cr,false,some ⟨26,[],none,false⟩⟩,⟨256,.cr,true,some ⟨27,[],none,false⟩⟩,⟨256,.other,false,some ⟨28,[.emb (.goto 6)],some 0,false⟩⟩,⟨256,.other,false,some ⟨29,[],none,false⟩⟩,⟨256,.other,false,some ⟨30,[],none,false⟩⟩]⟩,⟨[5,9,21],none,[],[⟨256,.other,false,some ⟨22,[.setEnt .internalNl,.cb,.code],none,false⟩⟩,⟨256,.ws,false,some ⟨23,[.setEnt .internalNl,.cb],none,false⟩⟩,⟨256,.lf,false,some ⟨31,[.setEnt .internalNl,.cb],none,false⟩⟩,⟨256,.vt,false,some ⟨22,[.setEnt .internalNl,.cb,.code],none,false⟩⟩,⟨256,.ff,false,some ⟨25,[.setEnt .internalNl,.cb],none,false⟩⟩,⟨256,.cr,false,some ⟨26,[.setEnt .internalNl,.cb],none,false⟩⟩,⟨256,.cr,true,some ⟨27,[.setEnt .internalNl,.cb],none,false⟩⟩,⟨256,.other,false,some ⟨28,[.setEnt .internalNl,.cb,.emb (.goto 6)],some 0,false⟩⟩,⟨256,.other,false,some ⟨29,[.setEnt .internalNl,.cb],none,false⟩⟩,⟨256,.other,false,some ⟨30,[.setEnt .internalNl,.cb],none,false⟩⟩]⟩,⟨[21,28],some 0,[],[⟨256,.other,false,some ⟨22,[.code],none,false⟩⟩,⟨256,.ws,false,some ⟨23,[],none,false⟩⟩,⟨256,.lf,false,some ⟨24,[],none,false⟩⟩,⟨256,.vt,false,some ⟨22,[.code],none,false⟩⟩,⟨256,.ff,false,some ⟨25,[],none,false⟩⟩,⟨256,.cr,false,some ⟨26,[],none,false⟩⟩,⟨256,.cr,true,some ⟨27,[],none,false⟩⟩,⟨256,.other,false,some ⟨28,[.emb (.goto 6)],some 0,false⟩⟩,⟨256,.other,false,some ⟨29,[],none,false⟩⟩,⟨256,.other,false,some ⟨30,[],none,false⟩⟩]⟩,⟨[0,14,21],none,[],[⟨256,.other,false,some ⟨32,[.code],none,false⟩⟩,⟨256,.ws,false,some ⟨33,[],none,false⟩⟩,⟨256,.lf,false,some ⟨34,[],none,false⟩⟩,⟨256,.vt,false,some ⟨32,[.code],none,false⟩⟩,⟨256,.ff,false,some ⟨35,[],none,false⟩⟩,⟨256,.cr,false,some ⟨36,[],none,false⟩⟩,⟨256,.cr,true,some ⟨37,[],none,false⟩⟩,⟨256,.other,false,some ⟨38,[.emb (.goto 6)],some 0,false⟩⟩,⟨256,.other,false,some ⟨39,[],none,false⟩⟩,⟨256,.other,false,some ⟨40,[.code],none,false⟩⟩,⟨256,.other,false,some ⟨41,[],none,false⟩⟩]⟩,⟨[12,21],none,[],[⟨256,.other,false,some ⟨52,[.code],none,false⟩⟩,⟨256,.ws,false,some ⟨53,[.code],none,false⟩⟩,⟨256,.lf,false,some ⟨24,[],none,false⟩⟩,⟨256,.vt,false,some ⟨52,[.code],none,false⟩⟩,⟨256,.ff,false,some ⟨25,[],none,false⟩⟩,⟨256,.cr,false,some ⟨26,[],none,false⟩⟩,⟨256,.cr,true,some ⟨27,[],none,false⟩⟩,⟨256,.other,false,some ⟨54,[.code,.emb (.goto 6)],some 0,false⟩⟩,⟨256,.other,false,some ⟨55,[.code],none,false⟩⟩,⟨256,.other,false,some ⟨56,[.code],none,false⟩⟩]⟩,⟨[4,11,22],none,[],[⟨256,.other,false,some ⟨107,[.code],none,false⟩⟩,⟨256,.ws,false,some ⟨108,[],none,false⟩⟩,⟨256,.lf,false,some ⟨109,[],none,false⟩⟩,⟨256,.vt,false,some ⟨107,[.code],none,false⟩⟩,⟨256,.ff,false,some ⟨110,[],none,false⟩⟩,⟨256,.cr,false,some ⟨111,[],none,false⟩⟩,⟨256,.cr,true,some ⟨112,[],none,false⟩⟩,⟨256,.other,false,some ⟨113,[.emb (.goto 6)],some 0,false⟩⟩,⟨256,.other,false,some ⟨114,[],none,false⟩⟩,⟨256,.other,false,some ⟨115,[],none,false⟩⟩]⟩,⟨[11,21,24],none,[],[⟨256,.other,false,some ⟨22,[.code],none,false⟩⟩,⟨256,.ws,false,some ⟨23,[],none,false⟩⟩,⟨256,.lf,false,some ⟨24,[],none,false⟩⟩,⟨256,.vt,false,some ⟨22,[.code],none,false⟩⟩,⟨256,.ff,false,some ⟨25,[],none,false⟩⟩,⟨256,.cr,false,some ⟨26,[],none,false⟩⟩,⟨256,.cr,true,some ⟨27,[],none,false⟩⟩,⟨256,.other,false,some ⟨28,[.emb (.goto 6)],some 0,false⟩⟩,⟨256,.other,false,some ⟨29,[],none,false⟩⟩,⟨256,.other,false,some ⟨30,[],none,false⟩⟩]⟩,⟨[10,21,24],none,[],[⟨256,.other,false,some ⟨22,[.code],none,false⟩⟩,⟨256,.ws,false,some ⟨23,[],none,false⟩⟩,⟨256,.lf,false,some ⟨24,[],none,false⟩⟩,⟨256,.vt,false,some ⟨22,[.code],none,false⟩⟩,⟨256,.ff,false,some ⟨25,[],none,false⟩⟩,⟨256,.cr,false,some ⟨26,[],none,false⟩⟩,⟨256,.cr,true,some ⟨27,[],none,false⟩⟩,⟨256,.other,false,some ⟨28,[.emb (.goto 6)],some 0,false⟩⟩,⟨256,.other,false,some ⟨29,[],none,false⟩⟩,⟨256,.other,false,some ⟨30,[],none,false⟩⟩]⟩,⟨[7,21,24],none,[],[⟨256,.other,false,some ⟨22,[.setEnt .internalNl,.cb,.code],none,false⟩⟩,⟨256,.ws,false,some ⟨23,[.setEnt .internalNl,.cb],none,false⟩⟩,⟨256,.lf,false,some ⟨24,[.setEnt .internalNl,.cb],none,false⟩⟩,⟨256,.vt,false,some ⟨22,[.setEnt .internalNl,.cb,.code],none,false⟩⟩,⟨256,.ff,false,some ⟨25,[.setEnt .internalNl,.cb],none,false⟩⟩,⟨256,.cr,false,some ⟨26,[.setEnt .internalNl,.cb],none,false⟩⟩,⟨256,.cr,true,some ⟨27,[.setEnt .internalNl,.cb],none,false⟩⟩,⟨256,.other,false,some ⟨28,[.setEnt .internalNl,.cb,.emb (.goto 6)],some 0,false⟩⟩,⟨256,.other,false,some ⟨29,[.setEnt .internalNl,.cb],none,false⟩⟩,⟨256,.other,false,some ⟨30,[.setEnt .internalNl,.cb],none,false⟩⟩]⟩,⟨[8,21,24],none,[],[⟨256,.other,false,some ⟨22,[.setEnt .internalNl,.cb,.code],none,false⟩⟩,⟨256,.ws,false,some ⟨23,[.setEnt .internalNl,.cb],none,false⟩⟩,⟨256,.lf,false,some ⟨24,[.setEnt .internalNl,.cb],none,false⟩⟩,⟨256,.vt,false,some ⟨22,[.setEnt .internalNl,.cb,.code],none,false⟩⟩,⟨256,.ff,false,some ⟨25,[.setEnt .internalNl,.cb],none,false⟩⟩,⟨256,.cr,false,some ⟨26,[.setEnt .internalNl,.cb],none,false⟩⟩,⟨256,.cr,true,some ⟨27,[.setEnt .internalNl,.cb],none,false⟩⟩,⟨256,.other,false,some ⟨28,[.setEnt .internalNl,.cb,.emb (.goto 6)],some 0,false⟩⟩,⟨256,.other,false,some ⟨29,[.setEnt .internalNl,.cb],none,false⟩⟩,⟨256,.other,false,some ⟨30,[.setEnt .internalNl,.cb],none,false⟩⟩]⟩,⟨[5,21,24],none,[],[⟨256,.other,false,some ⟨22,[.code],none,false⟩⟩,⟨256,.ws,false,some ⟨23,[],none,false⟩⟩,⟨256,.lf,false,some ⟨31,[],none,false⟩⟩,⟨256,.vt,false,some ⟨22,[.code],none,false⟩⟩,⟨256,.ff,false,some ⟨25,[],none,false⟩⟩,⟨256,.cr,false,some ⟨26,[],none,false⟩⟩,⟨256,.cr,true,some ⟨27,[],none,false⟩⟩,⟨256,.other,false,some ⟨28,[.emb (.goto 6)],some 0,false⟩⟩,⟨256,.other,false,some ⟨29,[],none,false⟩⟩,⟨256,.other,false,some ⟨30,[],none,false⟩⟩]⟩,⟨[5,9,21,24],none,[],[⟨256,.other,false,some ⟨22,[.setEnt .internalNl,.cb,.code],none,false⟩⟩,⟨256,.ws,false,some ⟨23,[.setEnt .internalNl,.cb],none,false⟩⟩,⟨256,.lf,false,some ⟨31,[.setEnt .internalNl,.cb],none,false⟩⟩,⟨256,.vt,false,some ⟨22,[.setEnt .internalNl,.cb,.code],none,false⟩⟩,⟨256,.ff,false,some ⟨25,[.setEnt .internalNl,.cb],none,false⟩⟩,⟨256,.cr,false,some ⟨26,[.setEnt .internalNl,.cb],none,false⟩⟩,⟨256,.cr,true,some ⟨27,[.setEnt .internalNl,.cb],none,false⟩⟩,⟨256,.other,false,some ⟨28,[.setEnt .internalNl,.cb,.emb (.goto 6)],some 0,false⟩⟩,⟨256,.other,false,some ⟨29,[.setEnt .internalNl,.cb],none,false⟩⟩,⟨256,.other,false,some ⟨30,[.setEnt .internalNl,.cb],none,false⟩⟩]⟩,⟨[21,24,28],some 0,[],[⟨256,.other,false,some ⟨22,[.code],none,false⟩⟩,⟨256,.ws,false,some ⟨23,[],none,false⟩⟩,⟨256,.lf,false,some ⟨24,[],none,false⟩⟩,⟨256,.vt,false,some ⟨22,[.code],none,false⟩⟩,⟨256,.ff,false,some ⟨25,[],none,false⟩⟩,⟨256,.cr,false,some ⟨26,[],none,false⟩⟩,⟨256,.cr,true,some ⟨27,[],none,false⟩⟩,⟨256,.other,false,some ⟨28,[.emb (.goto 6)],some 0,false⟩⟩,⟨256,.other,false,some ⟨29,[],none,false⟩⟩,⟨256,.other,false,some ⟨30,[],none,false⟩⟩]⟩,⟨[0,14,21,24],none,[],[⟨256,.other,false,some ⟨32,[.code],none,false⟩⟩,⟨256,.ws,false,some ⟨33,[],none,false⟩⟩,⟨256,.lf,false,some ⟨34,[],none,false⟩⟩,⟨256,.vt,false,some ⟨32,[.code],none,false⟩⟩,⟨256,.ff,false,some ⟨35,[],none,false⟩⟩,⟨256,.cr,false,some ⟨36,[],none,false⟩⟩,⟨256,.cr,true,some ⟨37,[],none,false⟩⟩,⟨256,.other,false,some ⟨38,[.emb (.goto 6)],some 0,false⟩⟩,⟨256,.other,false,some ⟨39,[],none,false⟩⟩,⟨256,.other,false,some ⟨40,[.code],none,false⟩⟩,⟨256,.other,false,some ⟨41,[],none,false⟩⟩]⟩,⟨[12,21,24],none,[],[⟨256,.other,false,some ⟨52,[.code],none,false⟩⟩,⟨256,.ws,false,some ⟨53,[.code],none,false⟩⟩,⟨256,.lf,false,some ⟨24,[],none,false⟩⟩,⟨256,.vt,false,some ⟨52,[.code],none,false⟩⟩,⟨256,.ff,false,some ⟨25,[],none,false⟩⟩,⟨256,.cr,false,some ⟨26,[],none,false⟩⟩,⟨256,.cr,true,some ⟨27,[],none,false⟩⟩,⟨256,.other,false,some ⟨54,[.code,.emb (.goto 6)],some 0,false⟩⟩,⟨256,.other,false,some ⟨55,[.code],none,false⟩⟩,⟨256,.other,false,some ⟨56,[.code],none,false⟩⟩]⟩,⟨[4,11,22,24],none,[],[⟨256,.other,false,some ⟨116,[.code],none,false⟩⟩,⟨256,.ws,false,some ⟨117,[],none,false⟩⟩,⟨256,.lf,false,some ⟨118,[],none,false⟩⟩,⟨256,.vt,false,some ⟨116,[.code],none,false⟩⟩,⟨256,.ff,false,some ⟨119,[],none,false⟩⟩,⟨256,.cr,false,some ⟨120,[],none,false⟩⟩,⟨256,.cr,true,some ⟨121,[],none,false⟩⟩,⟨256,.other,false,some ⟨122,[.emb (.goto 6)],some 0,false⟩⟩,⟨256,.other,false,some ⟨123,[],none,false⟩⟩,⟨256,.other,false,some ⟨124,[],none,false⟩⟩]⟩,⟨[11,23],none,[],[⟨256,.other,false,some ⟨22,[.code],none,false⟩⟩,⟨256,.ws,false,some ⟨23,[],none,false⟩⟩,⟨256,.lf,false,some ⟨24,[],none,false⟩⟩,⟨256,.vt,false,some ⟨22,[.code],none,false⟩⟩,⟨256,.ff,false,some ⟨25,[],none,false⟩⟩,⟨256,.cr,false,some ⟨26,[],none,false⟩⟩,⟨256,.cr,true,some ⟨27,[],none,false⟩⟩,⟨256,.other,false,some ⟨28,[.emb (.goto 6)],some 0,false⟩⟩,⟨256,.other,false,some ⟨29,[],none,false⟩⟩,⟨256,.other,false,some ⟨30,[],none,false⟩⟩]⟩,⟨[10,23],none,[],[⟨256,.other,false,some ⟨22,[.code],none,false⟩⟩,⟨256,.ws,false,some ⟨23,[],none,false⟩⟩,⟨256,.lf,false,some ⟨24,[],none,false⟩⟩,⟨256,.vt,false,some ⟨22,[.code],none,false⟩⟩,⟨256,.ff,false,some ⟨25,[],none,false⟩⟩,⟨256,.cr,false,some ⟨26,[],none,false⟩⟩,⟨256,.cr,true,some ⟨27,[],none,false⟩⟩,⟨256,.other,false,some ⟨28,[.emb (.goto 6)],some 0,false⟩⟩,⟨256,.other,false,some ⟨29,[],none,false⟩⟩,⟨256,.other,false,some ⟨30,[],none,false⟩⟩]⟩,⟨[7,23],none,[],[⟨256,.other,false,some ⟨22,[.setEnt .internalNl,.cb,.code],none,false⟩⟩,⟨256,.ws,false,some ⟨23,[.setEnt .internalNl,.cb],none,false⟩⟩,⟨256,.lf,false,some ⟨24,[.setEnt .internalNl,.cb],none,false⟩⟩,⟨256,.vt,false,some ⟨22,[.setEnt .internalNl,.cb,.code],none,false⟩⟩,⟨256,.ff,false,some ⟨25,[.setEnt .internalNl,.cb],none,false⟩⟩,⟨256,.cr,false,some ⟨26,[.setEnt .internalNl,.cb],none,false⟩⟩,⟨256,.cr,true,some ⟨27,[.setEnt .internalNl,.cb],none,false⟩⟩,⟨256,.other,false,some ⟨28,[.setEnt .internalNl,.cb,.emb (.goto 6)],some 0,false⟩⟩,⟨256,.other,false,some ⟨29,[.setEnt .internalNl,.cb],none,false⟩⟩,⟨256,.other,false,some ⟨30,[.setEnt .internalNl,.cb],none,false⟩⟩]⟩,⟨[8,23],none,[],[⟨256,.other,false,some ⟨22,[.setEnt .internalNl,.cb,.code],none,false⟩⟩,⟨256,.ws,false,some ⟨23,[.setEnt .internalNl,.cb],none,false⟩⟩,⟨256,.lf,false,some ⟨24,[.setEnt .internalNl,.cb],none,false⟩⟩,⟨256,.vt,false,some ⟨22,[.setEnt .internalNl,.cb,.code],none,false⟩⟩,⟨256,.ff,false,some ⟨25,[.setEnt .internalNl,.cb],none,false⟩⟩,⟨256,.cr,false,some ⟨26,[.setEnt .internalNl,.cb],none,false⟩⟩,⟨256,.cr,true,some ⟨27,[.setEnt .internalNl,.cb],none,false⟩⟩,⟨256,.other,false,some ⟨28,[.setEnt .internalNl,.cb,.emb (.goto 6)],some 0,false⟩⟩,⟨256,.other,false,some ⟨29,[.setEnt .internalNl,.cb],none,false⟩⟩,⟨256,.other,false,some ⟨30,[.setEnt .internalNl,.cb],none,false⟩⟩]⟩,⟨[5,23],none,[],[⟨256,.other,false,some ⟨22,[.code],none,false⟩⟩,⟨256,.ws,false,some ⟨23,[],none,false⟩⟩,⟨256,.lf,false,some ⟨31,[],none,false⟩⟩,⟨256,.vt,false,some ⟨22,[.code],none,false⟩⟩,⟨256,.ff,false,some ⟨25,[],none,false⟩⟩,⟨256,.cr,false,some ⟨26,[],none,false⟩⟩,⟨256,.cr,true,some ⟨27,[],none,false⟩⟩,⟨256,.other,false,some ⟨28,[.emb (.goto 6)],some 0,false⟩⟩,⟨256,.other,false,some ⟨29,[],none,false⟩⟩,⟨256,.other,false,some ⟨30,[],none,false⟩⟩]⟩,⟨[5,9,23],none,[],[⟨256,.other,false,some ⟨22,[.setEnt .internalNl,.cb,.code],none,false⟩⟩,⟨256,.ws,false,some ⟨23,[.setEnt .internalNl,.cb],none,false⟩⟩,⟨256,.lf,false,some ⟨31,[.setEnt .internalNl,.cb],none,false⟩⟩,⟨256,.vt,false,some ⟨22,[.setEnt .internalNl,.cb,.code],none,false⟩⟩,⟨256,.ff,false,some ⟨25,[.setEnt .internalNl,.cb],none,false⟩⟩,⟨256,.cr,false,some ⟨26,[.setEnt .internalNl,.cb],none,false⟩⟩,⟨256,.cr,true,some ⟨27,[.setEnt .internalNl,.cb],none,false⟩⟩,⟨256,.other,false,some ⟨28,[.setEnt .internalNl,.cb,.emb (.goto 6)],some 0,false⟩⟩,⟨256,.other,false,some ⟨29,[.setEnt .internalNl,.cb],none,false⟩⟩,⟨256,.other,false,some ⟨30,[.setEnt .internalNl,.cb],none,false⟩⟩]⟩,⟨[23,28],some 0,[],[⟨256,.other,false,some ⟨22,[.code],none,false⟩⟩,⟨256,.ws,false,some ⟨23,[],none,false⟩⟩,⟨256,.lf,false,some ⟨24,[],none,false⟩⟩,⟨256,.vt,false,some ⟨22,[.code],none,false⟩⟩,⟨256,.ff,false,some ⟨25,[],none,false⟩⟩,⟨256,.cr,false,some ⟨26,[],none,false⟩⟩,⟨256,.cr,true,some ⟨27,[],none,false⟩⟩,⟨256,.other,false,some ⟨28,[.emb (.goto 6)],some 0,false⟩⟩,⟨256,.other,false,some ⟨29,[],none,false⟩⟩,⟨256,.other,false,some ⟨30,[],none,false⟩⟩]⟩,⟨[0,14,23],none,[],[⟨256,.other,false,some ⟨32,[.code],none,false⟩⟩,⟨256,.ws,false,some ⟨33,[],none,false⟩⟩,⟨256,.lf,false,some ⟨34,[],none,false⟩⟩,⟨256,.vt,false,some ⟨32,[.code],none,false⟩⟩,⟨256,.ff,false,some ⟨35,[],none,false⟩⟩,⟨256,.cr,false,some ⟨36,[],none,false⟩⟩,⟨256,.cr,true,some ⟨37,[],none,false⟩⟩,⟨256,.other,false,some ⟨38,[.emb (.goto 6)],some 0,false⟩⟩,⟨256,.other,false,some ⟨39,[],none,false⟩⟩,⟨256,.other,false,some ⟨40,[.code],none,false⟩⟩,⟨256,.other,false,some ⟨41,[],none,false⟩⟩]⟩,⟨[12,23],none,[],[⟨256,.other,false,some ⟨52,[.code],none,false⟩⟩,⟨256,.ws,false,some ⟨53,[.code],none,false⟩⟩,⟨256,.lf,false,some ⟨24,[],none,false⟩⟩,⟨256,.vt,false,some ⟨52,[.code],none,false⟩⟩,⟨256,.ff,false,some ⟨25,[],none,false⟩⟩,⟨256,.cr,false,some ⟨26,[],none,false⟩⟩,⟨256,.cr,true,some ⟨27,[],none,false⟩⟩,⟨256,.other,false,some ⟨54,[.code,.emb (.goto 6)],some 0,false⟩⟩,⟨256,.other,false,some ⟨55,[.code],none,false⟩⟩,⟨256,.other,false,some ⟨56,[.code],none,false⟩⟩]⟩,⟨[11,23,24],none,[],[⟨256,.other,false,some ⟨22,[.code],none,false⟩⟩,⟨256,.ws,false,some ⟨23,[],none,false⟩⟩,⟨256,.lf,false,some ⟨24,[],none,false⟩⟩,⟨256,.vt,false,some ⟨22,[.code],none,false⟩⟩,⟨256,.ff,false,some ⟨25,[],none,false⟩⟩,⟨256,.cr,false,some ⟨26,[],none,false⟩⟩,⟨256,.cr,true,some ⟨27,[],none,false⟩⟩,⟨256,.other,false,some ⟨28,[.emb (.goto 6)],some 0,false⟩⟩,⟨256,.other,false,some ⟨29,[],none,false⟩⟩,⟨256,.other,false,some ⟨30,[],none,false⟩⟩]⟩,⟨[10,23,24],none,[],[⟨256,.other,false,some ⟨22,[.code],none,false⟩⟩,⟨256,.ws,false,some ⟨23,[],none,false⟩⟩,⟨256,.lf,false,some ⟨24,[],none,false⟩⟩,⟨256,.vt,false,some ⟨22,[.code],none,false⟩⟩,⟨256,.ff,false,some ⟨25,[],none,false⟩⟩,⟨256,.cr,false,some ⟨26,[],none,false⟩⟩,⟨256,.cr,true,some ⟨27,[],none,false⟩⟩,⟨256,.other,false,some ⟨28,[.emb (.goto 6)],some 0,false⟩⟩,⟨256,.other,false,some ⟨29,[],none,false⟩⟩,⟨256,.other,false,some ⟨30,[],none,false⟩⟩]⟩,⟨[7,23,24],none,[],[⟨256,.other,false,some ⟨22,[.setEnt .internalNl,.cb,.code],none,false⟩⟩,⟨256,.ws,false,some ⟨23,[.setEnt .internalNl,.cb],none,false⟩⟩,⟨256,.lf,false,some ⟨24,[.setEnt .internalNl,.cb],none,false⟩⟩,⟨256,.vt,false,some ⟨22,[.setEnt .internalNl,.cb,.code],none,false⟩⟩,⟨256,.ff,false,some ⟨25,[.setEnt .internalNl,.cb],none,false⟩⟩,⟨256,.cr,false,some ⟨26,[.setEnt .internalNl,.cb],none,false⟩⟩,⟨256,.cr,true,some ⟨27,[.setEnt .internalNl,.cb],none,false⟩⟩,⟨256,.other,false,some ⟨28,[.setEnt .internalNl,.cb,.emb (.goto 6)],some 0,false⟩⟩,⟨256,.other,false,some ⟨29,[.setEnt .internalNl,.cb],none,false⟩⟩,⟨256,.other,false,some ⟨30,[.setEnt .internalNl,.cb],none,false⟩⟩]⟩,⟨[8,23,24],none,[],[⟨256,.other,false,some ⟨22,[.setEnt .internalNl,.cb,.code],none,false⟩⟩,⟨256,.ws,false,some ⟨23,[.setEnt .internalNl,.cb],none,false⟩⟩,⟨256,.lf,false,some ⟨24,[.setEnt .internalNl,.cb],none,false⟩⟩,⟨256,.vt,false,some ⟨22,[.setEnt .internalNl,.cb,.code],none,false⟩⟩,⟨256,.ff,false,some ⟨25,[.setEnt .internalNl,.cb],none,false⟩⟩,⟨256,.cr,false,some ⟨26,[.setEnt .internalNl,.cb],none,false⟩⟩,⟨256,.cr,true,some ⟨27,[.setEnt .internalNl,.cb],none,false⟩⟩,⟨256,.other,false,some ⟨28,[.setEnt .internalNl,.cb,.emb (.goto 6)],some 0,false⟩⟩,⟨256,.other,false,some ⟨29,[.setEnt .internalNl,.cb],none,false⟩⟩,⟨256,.other,false,some ⟨30,[.setEnt .internalNl,.cb],none,false⟩⟩]⟩,⟨[5,23,24],none,[],[⟨256,.other,false,some ⟨22,[.code],none,false⟩⟩,⟨256,.ws,false,some ⟨23,[],none,false⟩⟩,⟨256,.lf,false,some ⟨31,[],none,false⟩⟩,⟨256,.vt,false,some ⟨22,[.code],none,false⟩⟩,⟨256,.ff,false,some ⟨25,[],none,false⟩⟩,⟨256,.cr,false,some ⟨26,[],none,false⟩⟩,⟨256,.cr,true,some ⟨27,[],none,false⟩⟩,⟨256,.other,false,some ⟨28,[.emb (.goto 6)],some 0,false⟩⟩,⟨256,.other,false,some ⟨29,[],none,false⟩⟩,⟨256,.other,false,some ⟨30,[],none,false⟩⟩]⟩,⟨[5,9,23,24],none,[],[⟨256,.other,false,some ⟨22,[.setEnt .internalNl,.cb,.code],none,false⟩⟩,⟨256,.ws,false,some ⟨23,[.setEnt .internalNl,.cb],none,false⟩⟩,⟨256,.lf,false,some ⟨31,[.setEnt .internalNl,.cb],none,false⟩⟩,⟨256,.vt,false,some ⟨22,[.setEnt .internalNl,.cb,.code],none,false⟩⟩,⟨256,.ff,false,some ⟨25,[.setEnt .internalNl,.cb],none,false⟩⟩,⟨256,.cr,false,some ⟨26,[.setEnt .internalNl,.cb],none,false⟩⟩,⟨256,.cr,true,some ⟨27,[.setEnt .internalNl,.cb],none,false⟩⟩,⟨256,.other,false,some ⟨28,[.setEnt .internalNl,.cb,.emb (.goto 6)],some 0,false⟩⟩,⟨256,.other,false,some ⟨29,[.setEnt .internalNl,.cb],none,false⟩⟩,⟨256,.other,false,some ⟨30,[.setEnt .internalNl,.cb],none,false⟩⟩]⟩,⟨[23,24,28],some 0,[],[⟨256,.other,false,some ⟨22,[.code],none,false⟩⟩,⟨256,.ws,false,some ⟨23,[],none,false⟩⟩,⟨256,.lf,false,some ⟨24,[],none,false⟩⟩,⟨256,.vt,false,some ⟨22,[.code],none,false⟩⟩,⟨256,.ff,false,some ⟨25,[],none,false⟩⟩,⟨256,.cr,false,some ⟨26,[],none,false⟩⟩,⟨256,.cr,true,some ⟨27,[],none,false⟩⟩,⟨256,.other,false,some ⟨28,[.emb (.goto 6)],some 0,false⟩⟩,⟨256,.other,false,some ⟨29,[],none,false⟩⟩,⟨256,.other,false,some ⟨30,[],none,false⟩⟩]⟩,⟨[0,14,23,24],none,[],[⟨256,.other,false,some ⟨32,[.code],none,false⟩⟩,⟨256,.ws,false,some ⟨33,[],none,false⟩⟩,⟨256,.lf,false,some ⟨34,[],none,false⟩⟩,⟨256,.vt,false,some ⟨32,[.code],none,false⟩⟩,⟨256,.ff,false,some ⟨35,[],none,false⟩⟩,⟨256,.cr,false,some ⟨36,[],none,false⟩⟩,⟨256,.cr,true,some ⟨37,[],none,false⟩⟩,⟨256,.other,false,some ⟨38,[.emb (.goto 6)],some 0,false⟩⟩,⟨256,.other,false,some ⟨39,[],none,false⟩⟩,⟨256,.other,false,some ⟨40,[.code],none,false⟩⟩,⟨256,.other,false,some ⟨41,[],none,false⟩⟩]⟩,⟨[12,23,24],none,[],[⟨256,.other,false,some ⟨52,[.code],none,false⟩⟩,⟨256,.ws,false,some ⟨53,[.code],none,false⟩⟩,⟨256,.lf,false,some ⟨24,[],none,false⟩⟩,⟨256,.vt,false,some ⟨52,[.code],none,false⟩⟩,⟨256,.ff,false,some ⟨25,[],none,false⟩⟩,⟨256,.cr,false,some ⟨26,[],none,false⟩⟩,⟨256,.cr,true,some ⟨27,[],none,false⟩⟩,⟨256,.other,false,some ⟨54,[.code,.emb (.goto 6)],some 0,false⟩⟩,⟨256,.other,false,some ⟨55,[.code],none,false⟩⟩,⟨256,.other,false,some ⟨56,[.code],none,false⟩⟩]⟩]
theorem emb34_rowsOk : rowsOk emb34_nfa [] (emb34_cs.map (·.1)) emb34_rows = true := by decide +kernel
def emb34_D : Dfa emb34_nfa := ⟨emb34_masks, [], emb34_cs, emb34_rows, emb34_masksIn, emb34_repOk, emb34_rowsOk⟩

/-- The automaton of `Emb.Phphtml.phtml_line`. -/
def emb36_nfa : Nfa := ⟨[⟨0,1152921504606846976,[],[],0,2⟩,⟨17,1152921504606846976,[],[],0,4⟩,⟨42,1152921504606846976,[],[],0,0⟩,⟨47,4294967808,[],[(12,.setEnt (.own 0))],0,0⟩,⟨48,1152921504606846976,[],[],0,0⟩,⟨52,549755813888,[],[(14,.code)],0,0⟩,⟨53,17179869184,[],[(15,.code)],0,0⟩,⟨54,8192,[],[(16,.setEnt .newline)],0,0⟩,⟨56,1024,[],[(16,.setEnt .newline)],0,0⟩,⟨57,4096,[],[(16,.setEnt .newline)],0,0⟩,⟨58,8192,[.crAlone],[(16,.setEnt .newline)],0,0⟩,⟨59,115792089237316195423570985008687907853269984665640564039457584007908834656767,[],[(17,.setEnt (.own 5))],0,0⟩],[[⟨1,41538374877950027585161004031410176,[],[],0,2⟩],[⟨2,83076749755900055170322008062820352,[],[],0,2⟩],[⟨3,2658455992188801765450304258010251264,[],[],0,2⟩],[⟨4,324518553733984590509070343995392,[],[],0,2⟩],[⟨5,2535301201046754613352112062464,[],[],0,2⟩],[⟨6,115792089237316195423570985008687907853269984665640564039452972321894702252031,[],[],0,2⟩],[⟨6,115792089237316195423570985008687907853269984665640564039452972321894702252031,[],[],0,2⟩,⟨7,83076749736557242056487941267521536,[],[],0,2⟩],[⟨8,2535301200456458802993406410752,[],[],0,0⟩],[⟨9,1329227995784915872903807060280344576,[],[],0,0⟩],[⟨10,83076749736557242056487941267521536,[],[],0,0⟩],[⟨11,140737488355328,[],[],0,0⟩],[⟨12,633825300114114700748351602688,[],[],0,0⟩],[⟨13,41538374868278621028243970633760768,[],[],0,0⟩],[⟨14,41538374868278621028243970633760768,[],[],2,0⟩],[⟨15,115792089237316195423570985008687907853269984665640564039452972321894702252031,[],[],0,0⟩],[⟨15,115792089237316195423570985008687907853269984665640564039452972321894702252031,[],[],0,0⟩,⟨16,4611686018427387904,[],[(0,.code),(1,.setEnt .checkBlank),(2,.cb),(3,.emb (.saw 1))],0,0⟩],[],[⟨18,41538374877950027585161004031410176,[],[],0,4⟩],[⟨19,633825300261688653338028015616,[],[],0,4⟩],[⟨20,20769187438975013792580502015705088,[],[],0,4⟩],[⟨21,40564819216748073813633792999424,[],[],0,4⟩],[⟨22,5192296859743753448145125503926272,[],[],0,4⟩],[⟨23,83076749755900055170322008062820352,[],[],0,4⟩],[⟨24,115792089237316195423570985008687907853269984665640564039452972321894702252031,[],[],0,4⟩],[⟨24,115792089237316195423570985008687907853269984665640564039452972321894702252031,[],[],0,4⟩,⟨25,83076749736557242056487941267521536,[],[],0,4⟩],[⟨26,2535301200456458802993406410752,[],[],0,0⟩],[⟨27,1329227995784915872903807060280344576,[],[],0,0⟩],[⟨28,83076749736557242056487941267521536,[],[],0,0⟩],[⟨29,140737488355328,[],[],0,0⟩],[⟨30,81129638414606681695789005144064,[],[],0,0⟩],[⟨31,158456325028528675187087900672,[],[],0,0⟩],[⟨32,332306998946228968225951765070086144,[],[],0,0⟩],[⟨33,158456325028528675187087900672,[],[],0,0⟩],[⟨34,41538374868278621028243970633760768,[],[],0,0⟩],[⟨35,633825300114114700748351602688,[],[],0,0⟩],[⟨36,20769187434139310514121985316880384,[],[],0,0⟩],[⟨37,40564819207303340847894502572032,[],[],0,0⟩],[⟨38,5192296858534827628530496329220096,[],[],0,0⟩],[⟨39,83076749736557242056487941267521536,[],[],4,0⟩],[⟨40,115792089237316195423570985008687907853269984665640564039452972321894702252031,[],[],0,0⟩],[⟨40,115792089237316195423570985008687907853269984665640564039452972321894702252031,[],[],0,0⟩,⟨41,4611686018427387904,[],[(4,.code),(5,.setEnt .checkBlank),(6,.cb),(7,.emb (.saw 2))],0,0⟩],[],[⟨43,9223372036854775808,[],[(8,.code),(9,.setEnt .checkBlank),(10,.emb (.cb 3)),(11,.emb (.saw 3))],0,0⟩],[⟨44,5192296858534827628530496329220096,[],[],0,0⟩],[⟨45,20282409603651670423947251286016,[],[],0,0⟩],[⟨46,5192296858534827628530496329220096,[],[(8,.code),(9,.setEnt .checkBlank),(10,.emb (.cb 3)),(11,.emb (.saw 3))],0,0⟩],[],[⟨47,4294967808,[],[(12,.setEnt (.own 0))],0,0⟩],[⟨49,8589934592,[],[],0,0⟩],[⟨50,35184372088832,[],[],0,0⟩],[⟨51,35184372088832,[],[(13,.comment)],0,0⟩],[],[],[],[⟨55,1024,[],[(16,.setEnt .newline)],0,0⟩],[],[],[],[],[]],[none,none,none,none,none,none,none,none,none,none,none,none,none,none,none,none,some (0,[]),none,none,none,none,none,none,none,none,none,none,none,none,none,none,none,none,none,none,none,none,none,none,none,none,some (1,[]),none,some (2,[]),none,none,some (2,[]),some (3,[]),none,none,none,some (4,[]),some (5,[]),some (6,[]),none,some (7,[]),some (7,[]),some (7,[]),some (7,[]),some (8,[])],[4,8,12,13,14,15,16,17,18]⟩
def emb36_masks : List Nat := [1152921504606846976,4294967808,549755813888,17179869184,8192,1024,4096,115792089237316195423570985008687907853269984665640564039457584007908834656767,41538374877950027585161004031410176,83076749755900055170322008062820352,2658455992188801765450304258010251264,324518553733984590509070343995392,2535301201046754613352112062464,115792089237316195423570985008687907853269984665640564039452972321894702252031,83076749736557242056487941267521536,2535301200456458802993406410752,1329227995784915872903807060280344576,140737488355328,633825300114114700748351602688,41538374868278621028243970633760768,4611686018427387904,633825300261688653338028015616,20769187438975013792580502015705088,40564819216748073813633792999424,5192296859743753448145125503926272,81129638414606681695789005144064,158456325028528675187087900672,332306998946228968225951765070086144,20769187434139310514121985316880384,40564819207303340847894502572032,5192296858534827628530496329220096,9223372036854775808,20282409603651670423947251286016,8589934592,35184372088832]
def emb36_cs : List (Nat × Nat) := [(0,115792089237316195423570985008687907853265513628221707728658031195810963636735),(9,4294967808),(10,1024),(11,2048),(12,4096),(13,8192),(33,8589934592),(34,17179869184),(39,549755813888),(45,35184372088832),(47,140737488355328),(60,1152921504606846976),(62,4611686018427387904),(63,9223372036854775808),(67,147573952589676412928),(69,590295810358705651712),(73,9444732965739290427392),(76,324518553733984590509070343995392),(80,1208925819614629174706176),(82,4835703278458516698824704),(83,9671406556917033397649408),(84,19342813113834066795298816),(89,2658455992188801765450304258010251264),(97,158456325028528675187087900672),(99,633825300114114700748351602688),(101,2535301200456458802993406410752),(104,20282409603651670423947251286016),(105,40564819207303340847894502572032),(106,81129638414606681695789005144064),(112,5192296858534827628530496329220096),(114,20769187434139310514121985316880384),(115,41538374868278621028243970633760768),(116,83076749736557242056487941267521536),(118,332306998946228968225951765070086144),(120,1329227995784915872903807060280344576)]
theorem emb36_masksIn : masksIn emb36_nfa emb36_masks = true := by decide +kernel
theorem emb36_repOk : repOk emb36_masks emb36_cs = true := by decide +kernel
def emb36_rows : List Row := [⟨[],none,[],[⟨256,.other,false,some ⟨0,[.setEnt (.own 5)],some 8,true⟩⟩,⟨256,.ws,false,some ⟨1,[.setEnt (.own 0)],some 3,false⟩⟩,⟨256,.lf,false,some ⟨0,[.setEnt .newline],some 7,true⟩⟩,⟨256,.vt,false,none⟩,⟨256,.ff,false,some ⟨0,[.setEnt .newline],some 7,true⟩⟩,⟨256,.cr,false,some ⟨2,[.setEnt .newline],none,false⟩⟩,⟨256,.cr,true,some ⟨3,[.setEnt .newline],some 7,false⟩⟩,⟨256,.other,false,some ⟨0,[.code],some 6,true⟩⟩,⟨256,.other,false,some ⟨0,[.code],some 5,true⟩⟩,⟨256,.other,false,some ⟨4,[.setEnt (.own 5)],some 8,false⟩⟩]⟩,⟨[47],some 3,[],[⟨256,.other,false,none⟩,⟨256,.ws,false,some ⟨1,[.setEnt (.own 0)],some 3,false⟩⟩,⟨256,.lf,false,none⟩,⟨256,.vt,false,none⟩,⟨256,.ff,false,none⟩,⟨256,.cr,false,none⟩,⟨256,.cr,true,none⟩]⟩,⟨[54],none,[],[⟨256,.other,false,none⟩,⟨256,.ws,false,none⟩,⟨256,.lf,false,some ⟨0,[.setEnt .newline],some 7,true⟩⟩,⟨256,.vt,false,none⟩,⟨256,.ff,false,none⟩,⟨256,.cr,false,none⟩,⟨256,.cr,true,none⟩]⟩,⟨[54,58],some 7,[],[⟨256,.other,false,none⟩,⟨256,.ws,false,none⟩,⟨256,.lf,false,some ⟨0,[.setEnt .newline],some 7,true⟩⟩,⟨256,.vt,false,none⟩,⟨256,.ff,false,none⟩,⟨256,.cr,false,none⟩,⟨256,.cr,true,none⟩]⟩,⟨[0,17,42,48,59],some 8,[],[⟨256,.other,false,none⟩,⟨256,.ws,false,none⟩,⟨256,.lf,false,none⟩,⟨256,.vt,false,none⟩,⟨256,.ff,false,none⟩,⟨256,.cr,false,none⟩,⟨256,.cr,true,none⟩,⟨256,.other,false,some ⟨5,[],none,false⟩⟩,⟨256,.other,false,some ⟨6,[.code,.setEnt .checkBlank,.emb (.cb 3),.emb (.saw 3)],some 2,false⟩⟩,⟨256,.other,false,some ⟨7,[],none,false⟩⟩]⟩,⟨[49],none,[],[⟨256,.other,false,none⟩,⟨256,.ws,false,none⟩,⟨256,.lf,false,none⟩,⟨256,.vt,false,none⟩,⟨256,.ff,false,none⟩,⟨256,.cr,false,none⟩,⟨256,.cr,true,none⟩,⟨256,.other,false,some ⟨8,[],none,false⟩⟩]⟩,⟨[43],some 2,[],[⟨256,.other,false,none⟩,⟨256,.ws,false,none⟩,⟨256,.lf,false,none⟩,⟨256,.vt,false,none⟩,⟨256,.ff,false,none⟩,⟨256,.cr,false,none⟩,⟨256,.cr,true,none⟩,⟨256,.other,false,some ⟨9,[],none,false⟩⟩]⟩,⟨[1,18],none,[],[⟨256,.other,false,none⟩,⟨256,.ws,false,none⟩,⟨256,.lf,false,none⟩,⟨256,.vt,false,none⟩,⟨256,.ff,false,none⟩,⟨256,.cr,false,none⟩,⟨256,.cr,true,none⟩,⟨256,.other,false,some ⟨10,[],none,false⟩⟩,⟨256,.other,false,some ⟨11,[],none,false⟩⟩]⟩,⟨[50],none,[],[⟨256,.other,false,none⟩,⟨256,.ws,false,none⟩,⟨256,.lf,false,none⟩,⟨256,.vt,false,none⟩,⟨256,.ff,false,none⟩,⟨256,.cr,false,none⟩,⟨256,.cr,true,none⟩,⟨256,.other,false,some ⟨0,[.comment],some 4,true⟩⟩]⟩,⟨[44],none,[],[⟨256,.other,false,none⟩,⟨256,.ws,false,none⟩,⟨256,.lf,false,none⟩,⟨256,.vt,false,none⟩,⟨256,.ff,false,none⟩,⟨256,.cr,false,none⟩,⟨256,.cr,true,none⟩,⟨256,.other,false,some ⟨12,[],none,false⟩⟩]⟩,⟨[19],none,[],[⟨256,.other,false,none⟩,⟨256,.ws,false,none⟩,⟨256,.lf,false,none⟩,⟨256,.vt,false,none⟩,⟨256,.ff,false,none⟩,⟨256,.cr,false,none⟩,⟨256,.cr,true,none⟩,⟨256,.other,false,some ⟨13,[],none,false⟩⟩]⟩,⟨[2],none,[],[⟨256,.other,false,none⟩,⟨256,.ws,false,none⟩,⟨256,.lf,false,none⟩,⟨256,.vt,false,none⟩,⟨256,.ff,false,none⟩,⟨256,.cr,false,none⟩,⟨256,.cr,true,none⟩,⟨256,.other,false,some ⟨14,[],none,false⟩⟩]⟩,⟨[45],none,[],[⟨256,.other,false,none⟩,⟨256,.ws,false,none⟩,⟨256,.lf,false,none⟩,⟨256,.vt,false,none⟩,⟨256,.ff,false,none⟩,⟨256,.cr,false,none⟩,⟨256,.cr,true,none⟩,⟨256,.other,false,some ⟨0,[.code,.setEnt .checkBlank,.emb (.cb 3),.emb (.saw 3)],some 2,true⟩⟩]⟩,⟨[20],none,[],[⟨256,.other,false,none⟩,⟨256,.ws,false,none⟩,⟨256,.lf,false,none⟩,⟨256,.vt,false,none⟩,⟨256,.ff,false,none⟩,⟨256,.cr,false,none⟩,⟨256,.cr,true,none⟩,⟨256,.other,false,some ⟨15,[],none,false⟩⟩]⟩,⟨[3],none,[],[⟨256,.other,false,none⟩,⟨256,.ws,false,none⟩,⟨256,.lf,false,none⟩,⟨256,.vt,false,none⟩,⟨256,.ff,false,none⟩,⟨256,.cr,false,none⟩,⟨256,.cr,true,none⟩,⟨256,.other,false,some ⟨16,[],none,false⟩⟩]⟩,⟨[21],none,[],[⟨256,.other,false,none⟩,⟨256,.ws,false,none⟩,⟨256,.lf,false,none⟩,⟨256,.vt,false,none⟩,⟨256,.ff,false,none⟩,⟨256,.cr,false,none⟩,⟨256,.cr,true,none⟩,⟨256,.other,false,some ⟨17,[],none,false⟩⟩]⟩,⟨[4],none,[],[⟨256,.other,false,none⟩,⟨256,.ws,false,none⟩,⟨256,.lf,false,none⟩,⟨256,.vt,false,none⟩,⟨256,.ff,false,none⟩,⟨256,.cr,false,none⟩,⟨256,.cr,true,none⟩,⟨256,.other,false,some ⟨18,[],none,false⟩⟩]⟩,⟨[22],none,[],[⟨256,.other,false,none⟩,⟨256,.ws,false,none⟩,⟨256,.lf,false,none⟩,⟨256,.vt,false,none⟩,⟨256,.ff,false,none⟩,⟨256,.cr,false,none⟩,⟨256,.cr,true,none⟩,⟨256,.other,false,some ⟨19,[],none,false⟩⟩]⟩,⟨[5],none,[],[⟨256,.other,false,some ⟨20,[],none,false⟩⟩,⟨256,.ws,false,some ⟨20,[],none,false⟩⟩,⟨256,.lf,false,some ⟨20,[],none,false⟩⟩,⟨256,.vt,false,some ⟨20,[],none,false⟩⟩,⟨256,.ff,false,some ⟨20,[],none,false⟩⟩,⟨256,.cr,false,some ⟨20,[],none,false⟩⟩,⟨256,.cr,true,some ⟨20,[],none,false⟩⟩,⟨256,.other,false,none⟩]⟩,⟨[23],none,[],[⟨256,.other,false,some ⟨21,[],none,false⟩⟩,⟨256,.ws,false,some ⟨21,[],none,false⟩⟩,⟨256,.lf,false,some ⟨21,[],none,false⟩⟩,⟨256,.vt,false,some ⟨21,[],none,false⟩⟩,⟨256,.ff,false,some ⟨21,[],none,false⟩⟩,⟨256,.cr,false,some ⟨21,[],none,false⟩⟩,⟨256,.cr,true,some ⟨21,[],none,false⟩⟩,⟨256,.other,false,none⟩]⟩,⟨[6],none,[],[⟨256,.other,false,some ⟨20,[],none,false⟩⟩,⟨256,.ws,false,some ⟨20,[],none,false⟩⟩,⟨256,.lf,false,some ⟨20,[],none,false⟩⟩,⟨256,.vt,false,some ⟨20,[],none,false⟩⟩,⟨256,.ff,false,some ⟨20,[],none,false⟩⟩,⟨256,.cr,false,some ⟨20,[],none,false⟩⟩,⟨256,.cr,true,some ⟨20,[],none,false⟩⟩,⟨256,.other,false,none⟩,⟨256,.other,false,some ⟨22,[],none,false⟩⟩]⟩,⟨[24],none,[],[⟨256,.other,false,some ⟨21,[],none,false⟩⟩,⟨256,.ws,false,some ⟨21,[],none,false⟩⟩,⟨256,.lf,false,some ⟨21,[],none,false⟩⟩,⟨256,.vt,false,some ⟨21,[],none,false⟩⟩,⟨256,.ff,false,some ⟨21,[],none,false⟩⟩,⟨256,.cr,false,some ⟨21,[],none,false⟩⟩,⟨256,.cr,true,some ⟨21,[],none,false⟩⟩,⟨256,.other,false,none⟩,⟨256,.other,false,some ⟨23,[],none,false⟩⟩]⟩,⟨[6,7],none,[],[⟨256,.other,false,some ⟨20,[],none,false⟩⟩,⟨256,.ws,false,some ⟨20,[],none,false⟩⟩,⟨256,.lf,false,some ⟨20,[],none,false⟩⟩,⟨256,.vt,false,some ⟨20,[],none,false⟩⟩,⟨256,.ff,false,some ⟨20,[],none,false⟩⟩,⟨256,.cr,false,some ⟨20,[],none,false⟩⟩,⟨256,.cr,true,some ⟨20,[],none,false⟩⟩,⟨256,.other,false,none⟩,⟨256,.other,false,some ⟨24,[],none,false⟩⟩,⟨256,.other,false,some ⟨22,[],none,false⟩⟩]⟩,⟨[24,25],none,[],[⟨256,.other,false,some ⟨21,[],none,false⟩⟩,⟨256,.ws,false,some ⟨21,[],none,false⟩⟩,⟨256,.lf,false,some ⟨21,[],none,false⟩⟩,⟨256,.vt,false,some ⟨21,[],none,false⟩⟩,⟨256,.ff,false,some ⟨21,[],none,false⟩⟩,⟨256,.cr,false,some ⟨21,[],none,false⟩⟩,⟨256,.cr,true,some ⟨21,[],none,false⟩⟩,⟨256,.other,false,none⟩,⟨256,.other,false,some ⟨25,[],none,false⟩⟩,⟨256,.other,false,some ⟨23,[],none,false⟩⟩]⟩,⟨[6,8],none,[],[⟨256,.other,false,some ⟨20,[],none,false⟩⟩,⟨256,.ws,false,some ⟨20,[],none,false⟩⟩,⟨256,.lf,false,some ⟨20,[],none,false⟩⟩,⟨256,.vt,false,some ⟨20,[],none,false⟩⟩,⟨256,.ff,false,some ⟨20,[],none,false⟩⟩,⟨256,.cr,false,some ⟨20,[],none,false⟩⟩,⟨256,.cr,true,some ⟨20,[],none,false⟩⟩,⟨256,.other,false,none⟩,⟨256,.other,false,some ⟨22,[],none,false⟩⟩,⟨256,.other,false,some ⟨26,[],none,false⟩⟩]⟩,⟨[24,26],none,[],[⟨256,.other,false,some ⟨21,[],none,false⟩⟩,⟨256,.ws,false,some ⟨21,[],none,false⟩⟩,⟨256,.lf,false,some ⟨21,[],none,false⟩⟩,⟨256,.vt,false,some ⟨21,[],none,false⟩⟩,⟨256,.ff,false,some ⟨21,[],none,false⟩⟩,⟨256,.cr,false,some ⟨21,[],none,false⟩⟩,⟨256,.cr,true,some ⟨21,[],none,false⟩⟩,⟨256,.other,false,none⟩,⟨256,.other,false,some ⟨23,[],none,false⟩⟩,⟨256,.other,false,some ⟨27,[],none,false⟩⟩]⟩,⟨[6,9],none,[],[⟨256,.other,false,some ⟨20,[],none,false⟩⟩,⟨256,.ws,false,some ⟨20,[],none,false⟩⟩,⟨256,.lf,false,some ⟨20,[],none,false⟩⟩,⟨256,.vt,false,some ⟨20,[],none,false⟩⟩,⟨256,.ff,false,some ⟨20,[],none,false⟩⟩,⟨256,.cr,false,some ⟨20,[],none,false⟩⟩,⟨256,.cr,true,some ⟨20,[],none,false⟩⟩,⟨256,.other,false,none⟩,⟨256,.other,false,some ⟨28,[],none,false⟩⟩]⟩,⟨[24,27],none,[],[⟨256,.other,false,some ⟨21,[],none,false⟩⟩,⟨256,.ws,false,some ⟨21,[],none,false⟩⟩,⟨256,.lf,false,some ⟨21,[],none,false⟩⟩,⟨256,.vt,false,some ⟨21,[],none,false⟩⟩,⟨256,.ff,false,some ⟨21,[],none,false⟩⟩,⟨256,.cr,false,some ⟨21,[],none,false⟩⟩,⟨256,.cr,true,some ⟨21,[],none,false⟩⟩,⟨256,.other,false,none⟩,⟨256,.other,false,some ⟨29,[],none,false⟩⟩]⟩,⟨[6,7,10],none,[],[⟨256,.other,false,some ⟨20,[],none,false⟩⟩,⟨256,.ws,false,some ⟨20,[],none,false⟩⟩,⟨256,.lf,false,some ⟨20,[],none,false⟩⟩,⟨256,.vt,false,some ⟨20,[],none,false⟩⟩,⟨256,.ff,false,some ⟨20,[],none,false⟩⟩,⟨256,.cr,false,some ⟨20,[],none,false⟩⟩,⟨256,.cr,true,some ⟨20,[],none,false⟩⟩,⟨256,.other,false,some ⟨30,[],none,false⟩⟩,⟨256,.other,false,none⟩,⟨256,.other,false,some ⟨24,[],none,false⟩⟩,⟨256,.other,false,some ⟨22,[],none,false⟩⟩]⟩,⟨[24,25,28],none,[],[⟨256,.other,false,some ⟨21,[],none,false⟩⟩,⟨256,.ws,false,some ⟨21,[],none,false⟩⟩,⟨256,.lf,false,some ⟨21,[],none,false⟩⟩,⟨256,.vt,false,some ⟨21,[],none,false⟩⟩,⟨256,.ff,false,some ⟨21,[],none,false⟩⟩,⟨256,.cr,false,some ⟨21,[],none,false⟩⟩,⟨256,.cr,true,some ⟨21,[],none,false⟩⟩,⟨256,.other,false,some ⟨31,[],none,false⟩⟩,⟨256,.other,false,none⟩,⟨256,.other,false,some ⟨25,[],none,false⟩⟩,⟨256,.other,false,some ⟨23,[],none,false⟩⟩]⟩,⟨[6,11],none,[],[⟨256,.other,false,some ⟨20,[],none,false⟩⟩,⟨256,.ws,false,some ⟨20,[],none,false⟩⟩,⟨256,.lf,false,some ⟨20,[],none,false⟩⟩,⟨256,.vt,false,some ⟨20,[],none,false⟩⟩,⟨256,.ff,false,some ⟨20,[],none,false⟩⟩,⟨256,.cr,false,some ⟨20,[],none,false⟩⟩,⟨256,.cr,true,some ⟨20,[],none,false⟩⟩,⟨256,.other,false,none⟩,⟨256,.other,false,some ⟨32,[],none,false⟩⟩,⟨256,.other,false,some ⟨22,[],none,false⟩⟩]⟩,⟨[24,29],none,[],[⟨256,.other,false,some ⟨21,[],none,false⟩⟩,⟨256,.ws,false,some ⟨21,[],none,false⟩⟩,⟨256,.lf,false,some ⟨21,[],none,false⟩⟩,⟨256,.vt,false,some ⟨21,[],none,false⟩⟩,⟨256,.ff,false,some ⟨21,[],none,false⟩⟩,⟨256,.cr,false,some ⟨21,[],none,false⟩⟩,⟨256,.cr,true,some ⟨21,[],none,false⟩⟩,⟨256,.other,false,none⟩,⟨256,.other,false,some ⟨33,[],none,false⟩⟩,⟨256,.other,false,some ⟨23,[],none,false⟩⟩]⟩,⟨[6,12],none,[],[⟨256,.other,false,some ⟨20,[],none,false⟩⟩,⟨256,.ws,false,some ⟨20,[],none,false⟩⟩,⟨256,.lf,false,some ⟨20,[],none,false⟩⟩,⟨256,.vt,false,some ⟨20,[],none,false⟩⟩,⟨256,.ff,false,some ⟨20,[],none,false⟩⟩,⟨256,.cr,false,some ⟨20,[],none,false⟩⟩,⟨256,.cr,true,some ⟨20,[],none,false⟩⟩,⟨256,.other,false,none⟩,⟨256,.other,false,some ⟨34,[],none,false⟩⟩,⟨256,.other,false,some ⟨22,[],none,false⟩⟩]⟩,⟨[24,30],none,[],[⟨256,.other,false,some ⟨21,[],none,false⟩⟩,⟨256,.ws,false,some ⟨21,[],none,false⟩⟩,⟨256,.lf,false,some ⟨21,[],none,false⟩⟩,⟨256,.vt,false,some ⟨21,[],none,false⟩⟩,⟨256,.ff,false,some ⟨21,[],none,false⟩⟩,⟨256,.cr,false,some ⟨21,[],none,false⟩⟩,⟨256,.cr,true,some ⟨21,[],none,false⟩⟩,⟨256,.other,false,none⟩,⟨256,.other,false,some ⟨35,[],none,false⟩⟩,⟨256,.other,false,some ⟨23,[],none,false⟩⟩]⟩,⟨[6,13],none,[],[⟨256,.other,false,some ⟨20,[],none,false⟩⟩,⟨256,.ws,false,some ⟨20,[],none,false⟩⟩,⟨256,.lf,false,some ⟨20,[],none,false⟩⟩,⟨256,.vt,false,some ⟨20,[],none,false⟩⟩,⟨256,.ff,false,some ⟨20,[],none,false⟩⟩,⟨256,.cr,false,some ⟨20,[],none,false⟩⟩,⟨256,.cr,true,some ⟨20,[],none,false⟩⟩,⟨256,.other,false,none⟩,⟨256,.other,false,some ⟨36,[],none,false⟩⟩,⟨256,.other,false,some ⟨22,[],none,false⟩⟩]⟩,⟨[24,31],none,[],[⟨256,.other,false,some ⟨21,[],none,false⟩⟩,⟨256,.ws,false,some ⟨21,[],none,false⟩⟩,⟨256,.lf,false,some ⟨21,[],none,false⟩⟩,⟨256,.vt,false,some ⟨21,[],none,false⟩⟩,⟨256,.ff,false,some ⟨21,[],none,false⟩⟩,⟨256,.cr,false,some ⟨21,[],none,false⟩⟩,⟨256,.cr,true,some ⟨21,[],none,false⟩⟩,⟨256,.other,false,none⟩,⟨256,.other,false,some ⟨23,[],none,false⟩⟩,⟨256,.other,false,some ⟨37,[],none,false⟩⟩]⟩,⟨[14],none,[],[⟨256,.other,false,some ⟨38,[],none,false⟩⟩,⟨256,.ws,false,some ⟨38,[],none,false⟩⟩,⟨256,.lf,false,some ⟨38,[],none,false⟩⟩,⟨256,.vt,false,some ⟨38,[],none,false⟩⟩,⟨256,.ff,false,some ⟨38,[],none,false⟩⟩,⟨256,.cr,false,some ⟨38,[],none,false⟩⟩,⟨256,.cr,true,some ⟨38,[],none,false⟩⟩,⟨256,.other,false,none⟩]⟩,⟨[24,32],none,[],[⟨256,.other,false,some ⟨21,[],none,false⟩⟩,⟨256,.ws,false,some ⟨21,[],none,false⟩⟩,⟨256,.lf,false,some ⟨21,[],none,false⟩⟩,⟨256,.vt,false,some ⟨21,[],none,false⟩⟩,⟨256,.ff,false,some ⟨21,[],none,false⟩⟩,⟨256,.cr,false,some ⟨21,[],none,false⟩⟩,⟨256,.cr,true,some ⟨21,[],none,false⟩⟩,⟨256,.other,false,none⟩,⟨256,.other,false,some ⟨39,[],none,false⟩⟩,⟨256,.other,false,some ⟨23,[],none,false⟩⟩]⟩,⟨[15],none,[],[⟨256,.other,false,some ⟨38,[],none,false⟩⟩,⟨256,.ws,false,some ⟨38,[],none,false⟩⟩,⟨256,.lf,false,some ⟨38,[],none,false⟩⟩,⟨256,.vt,false,some ⟨38,[],none,false⟩⟩,⟨256,.ff,false,some ⟨38,[],none,false⟩⟩,⟨256,.cr,false,some ⟨38,[],none,false⟩⟩,⟨256,.cr,true,some ⟨38,[],none,false⟩⟩,⟨256,.other,false,some ⟨0,[.code,.setEnt .checkBlank,.cb,.emb (.saw 1)],some 0,true⟩⟩]⟩,⟨[24,33],none,[],[⟨256,.other,false,some ⟨21,[],none,false⟩⟩,⟨256,.ws,false,some ⟨21,[],none,false⟩⟩,⟨256,.lf,false,some ⟨21,[],none,false⟩⟩,⟨256,.vt,false,some ⟨21,[],none,false⟩⟩,⟨256,.ff,false,some ⟨21,[],none,false⟩⟩,⟨256,.cr,false,some ⟨21,[],none,false⟩⟩,⟨256,.cr,true,some ⟨21,[],none,false⟩⟩,⟨256,.other,false,none⟩,⟨256,.other,false,some ⟨40,[],none,false⟩⟩,⟨256,.other,false,some ⟨23,[],none,false⟩⟩]⟩,⟨[24,34],none,[],[⟨256,.other,false,some ⟨21,[],none,false⟩⟩,⟨256,.ws,false,some ⟨21,[],none,false⟩⟩,⟨256,.lf,false,some ⟨21,[],none,false⟩⟩,⟨256,.vt,false,some ⟨21,[],none,false⟩⟩,⟨256,.ff,false,some ⟨21,[],none,false⟩⟩,⟨256,.cr,false,some ⟨21,[],none,false⟩⟩,⟨256,.cr,true,some ⟨21,[],none,false⟩⟩,⟨256,.other,false,none⟩,⟨256,.other,false,some ⟨41,[],none,false⟩⟩,⟨256,.other,false,some ⟨23,[],none,false⟩⟩]⟩,⟨[24,35],none,[],[⟨256,.other,false,some ⟨21,[],none,false⟩⟩,⟨256,.ws,false,some ⟨21,[],none,false⟩⟩,⟨256,.lf,false,some ⟨21,[],none,false⟩⟩,⟨256,.vt,false,some ⟨21,[],none,false⟩⟩,⟨256,.ff,false,some ⟨21,[],none,false⟩⟩,⟨256,.cr,false,some ⟨21,[],none,false⟩⟩,⟨256,.cr,true,some ⟨21,[],none,false⟩⟩,⟨256,.other,false,none⟩,⟨256,.other,false,some ⟨42,[],none,false⟩⟩,⟨256,.other,false,some ⟨23,[],none,false⟩⟩]⟩,⟨[24,36],none,[],[⟨256,.other,false,some ⟨21,[],none,false⟩⟩,⟨256,.ws,false,some ⟨21,[],none,false⟩⟩,⟨256,.lf,false,some ⟨21,[],none,false⟩⟩,⟨256,.vt,false,some ⟨21,[],none,false⟩⟩,⟨256,.ff,false,some ⟨21,[],none,false⟩⟩,⟨256,.cr,false,some ⟨21,[],none,false⟩⟩,⟨256,.cr,true,some ⟨21,[],none,false⟩⟩,⟨256,.other,false,none⟩,⟨256,.other,false,some ⟨43,[],none,false⟩⟩,⟨256,.other,false,some ⟨23,[],none,false⟩⟩]⟩,⟨[24,37],none,[],[⟨256,.other,false,some ⟨21,[],none,false⟩⟩,⟨256,.ws,false,some ⟨21,[],none,false⟩⟩,⟨256,.lf,false,some ⟨21,[],none,false⟩⟩,⟨256,.vt,false,some ⟨21,[],none,false⟩⟩,⟨256,.ff,false,some ⟨21,[],none,false⟩⟩,⟨256,.cr,false,some ⟨21,[],none,false⟩⟩,⟨256,.cr,true,some ⟨21,[],none,false⟩⟩,⟨256,.other,false,none⟩,⟨256,.other,false,some ⟨44,[],none,false⟩⟩,⟨256,.other,false,some ⟨23,[],none,false⟩⟩]⟩,⟨[24,38],none,[],[⟨256,.other,false,some ⟨21,[],none,false⟩⟩,⟨256,.ws,false,some ⟨21,[],none,false⟩⟩,⟨256,.lf,false,some ⟨21,[],none,false⟩⟩,⟨256,.vt,false,some ⟨21,[],none,false⟩⟩,⟨256,.ff,false,some ⟨21,[],none,false⟩⟩,⟨256,.cr,false,some ⟨21,[],none,false⟩⟩,⟨256,.cr,true,some ⟨21,[],none,false⟩⟩,⟨256,.other,false,none⟩,⟨256,.other,false,some ⟨45,[],none,false⟩⟩]⟩,⟨[39],none,[],[⟨256,.other,false,some ⟨46,[],none,false⟩⟩,⟨256,.ws,false,some ⟨46,[],none,false⟩⟩,⟨256,.lf,false,some ⟨46,[],none,false⟩⟩,⟨256,.vt,false,some ⟨46,[],none,false⟩⟩,⟨256,.ff,false,some ⟨46,[],none,false⟩⟩,⟨256,.cr,false,some ⟨46,[],none,false⟩⟩,⟨256,.cr,true,some ⟨46,[],none,false⟩⟩,⟨256,.other,false,none⟩]⟩,⟨[40],none,[],[⟨256,.other,false,some ⟨46,[],none,false⟩⟩,⟨256,.ws,false,some ⟨46,[],none,false⟩⟩,⟨256,.lf,false,some ⟨46,[],none,false⟩⟩,⟨256,.vt,false,some ⟨46,[],none,false⟩⟩,⟨256,.ff,false,some ⟨46,[],none,false⟩⟩,⟨256,.cr,false,some ⟨46,[],none,false⟩⟩,⟨256,.cr,true,some ⟨46,[],none,false⟩⟩,⟨256,.other,false,some ⟨0,[.code,.setEnt .checkBlank,.cb,.emb (.saw 2)],some 1,true⟩⟩]⟩]
theorem emb36_rowsOk : rowsOk emb36_nfa [] (emb36_cs.map (·.1)) emb36_rows = true := by decide +kernel
def emb36_D : Dfa emb36_nfa := ⟨emb36_masks, [], emb36_cs, emb36_rows, emb36_masksIn, emb36_repOk, emb36_rowsOk⟩

/-- The automaton of `Emb.Phphtml.phtml_entity`. -/
def emb38_nfa : Nfa := ⟨[⟨0,1152921504606846976,[],[],0,2⟩,⟨17,1152921504606846976,[],[],0,4⟩,⟨42,1152921504606846976,[],[],0,0⟩,⟨47,4294983168,[],[(0,.setEnt (.own 0))],0,0⟩,⟨48,1152921504606846976,[],[(1,.setEnt (.own 1))],0,8⟩,⟨56,115792089237316195423570985008687907853269984665640564039457584007908834656767,[],[],0,0⟩],[[⟨1,41538374877950027585161004031410176,[],[],0,2⟩],[⟨2,83076749755900055170322008062820352,[],[],0,2⟩],[⟨3,2658455992188801765450304258010251264,[],[],0,2⟩],[⟨4,324518553733984590509070343995392,[],[],0,2⟩],[⟨5,2535301201046754613352112062464,[],[],0,2⟩],[⟨6,115792089237316195423570985008687907853269984665640564039452972321894702252031,[],[],0,2⟩],[⟨6,115792089237316195423570985008687907853269984665640564039452972321894702252031,[],[],0,2⟩,⟨7,83076749736557242056487941267521536,[],[],0,2⟩],[⟨8,2535301200456458802993406410752,[],[],0,0⟩],[⟨9,1329227995784915872903807060280344576,[],[],0,0⟩],[⟨10,83076749736557242056487941267521536,[],[],0,0⟩],[⟨11,140737488355328,[],[],0,0⟩],[⟨12,633825300114114700748351602688,[],[],0,0⟩],[⟨13,41538374868278621028243970633760768,[],[],0,0⟩],[⟨14,41538374868278621028243970633760768,[],[],2,0⟩],[⟨15,115792089237316195423570985008687907853269984665640564039452972321894702252031,[],[],0,0⟩],[⟨15,115792089237316195423570985008687907853269984665640564039452972321894702252031,[],[],0,0⟩,⟨16,4611686018427387904,[],[],0,0⟩],[],[⟨18,41538374877950027585161004031410176,[],[],0,4⟩],[⟨19,633825300261688653338028015616,[],[],0,4⟩],[⟨20,20769187438975013792580502015705088,[],[],0,4⟩],[⟨21,40564819216748073813633792999424,[],[],0,4⟩],[⟨22,5192296859743753448145125503926272,[],[],0,4⟩],[⟨23,83076749755900055170322008062820352,[],[],0,4⟩],[⟨24,115792089237316195423570985008687907853269984665640564039452972321894702252031,[],[],0,4⟩],[⟨24,115792089237316195423570985008687907853269984665640564039452972321894702252031,[],[],0,4⟩,⟨25,83076749736557242056487941267521536,[],[],0,4⟩],[⟨26,2535301200456458802993406410752,[],[],0,0⟩],[⟨27,1329227995784915872903807060280344576,[],[],0,0⟩],[⟨28,83076749736557242056487941267521536,[],[],0,0⟩],[⟨29,140737488355328,[],[],0,0⟩],[⟨30,81129638414606681695789005144064,[],[],0,0⟩],[⟨31,158456325028528675187087900672,[],[],0,0⟩],[⟨32,332306998946228968225951765070086144,[],[],0,0⟩],[⟨33,158456325028528675187087900672,[],[],0,0⟩],[⟨34,41538374868278621028243970633760768,[],[],0,0⟩],[⟨35,633825300114114700748351602688,[],[],0,0⟩],[⟨36,20769187434139310514121985316880384,[],[],0,0⟩],[⟨37,40564819207303340847894502572032,[],[],0,0⟩],[⟨38,5192296858534827628530496329220096,[],[],0,0⟩],[⟨39,83076749736557242056487941267521536,[],[],4,0⟩],[⟨40,115792089237316195423570985008687907853269984665640564039452972321894702252031,[],[],0,0⟩],[⟨40,115792089237316195423570985008687907853269984665640564039452972321894702252031,[],[],0,0⟩,⟨41,4611686018427387904,[],[],0,0⟩],[],[⟨43,9223372036854775808,[],[],0,0⟩],[⟨44,5192296858534827628530496329220096,[],[],0,0⟩],[⟨45,20282409603651670423947251286016,[],[],0,0⟩],[⟨46,5192296858534827628530496329220096,[],[],0,0⟩],[],[⟨47,4294983168,[],[(0,.setEnt (.own 0))],0,0⟩],[⟨49,8589934592,[],[(1,.setEnt (.own 1))],0,8⟩],[⟨50,35184372088832,[],[(1,.setEnt (.own 1))],0,8⟩],[⟨51,35184372088832,[],[(1,.setEnt (.own 1))],0,8⟩],[⟨52,115792089237316195423570985008687907853269984665640564039457584007913129639935,[],[(1,.setEnt (.own 1))],0,8⟩,⟨53,35184372088832,[],[(1,.setEnt (.own 1))],0,8⟩],[⟨52,115792089237316195423570985008687907853269984665640564039457584007913129639935,[],[(1,.setEnt (.own 1))],0,8⟩,⟨53,35184372088832,[],[(1,.setEnt (.own 1))],0,8⟩],[⟨54,35184372088832,[],[(1,.setEnt (.own 1))],0,0⟩],[⟨55,4611686018427387904,[],[(1,.setEnt (.own 1))],8,0⟩],[],[]],[none,none,none,none,none,none,none,none,none,none,none,none,none,none,none,none,some (0,[]),none,none,none,none,none,none,none,none,none,none,none,none,none,none,none,none,none,none,none,none,none,none,none,none,some (1,[]),none,some (2,[]),none,none,some (2,[]),some (3,[]),none,none,none,none,none,none,none,some (4,[]),some (5,[])],[0,0,0,1,2,2]⟩
def emb38_masks : List Nat := [1152921504606846976,4294983168,115792089237316195423570985008687907853269984665640564039457584007908834656767,41538374877950027585161004031410176,83076749755900055170322008062820352,2658455992188801765450304258010251264,324518553733984590509070343995392,2535301201046754613352112062464,115792089237316195423570985008687907853269984665640564039452972321894702252031,83076749736557242056487941267521536,2535301200456458802993406410752,1329227995784915872903807060280344576,140737488355328,633825300114114700748351602688,41538374868278621028243970633760768,4611686018427387904,633825300261688653338028015616,20769187438975013792580502015705088,40564819216748073813633792999424,5192296859743753448145125503926272,81129638414606681695789005144064,158456325028528675187087900672,332306998946228968225951765070086144,20769187434139310514121985316880384,40564819207303340847894502572032,5192296858534827628530496329220096,9223372036854775808,20282409603651670423947251286016,8589934592,35184372088832,115792089237316195423570985008687907853269984665640564039457584007913129639935]
def emb38_cs : List (Nat × Nat) := [(0,115792089237316195423570985008687907853265513628221707728658031196377899319807),(9,4294967808),(10,1024),(11,2048),(12,4096),(13,8192),(33,8589934592),(45,35184372088832),(47,140737488355328),(60,1152921504606846976),(62,4611686018427387904),(63,9223372036854775808),(67,147573952589676412928),(69,590295810358705651712),(73,9444732965739290427392),(76,324518553733984590509070343995392),(80,1208925819614629174706176),(82,4835703278458516698824704),(83,9671406556917033397649408),(84,19342813113834066795298816),(89,2658455992188801765450304258010251264),(97,158456325028528675187087900672),(99,633825300114114700748351602688),(101,2535301200456458802993406410752),(104,20282409603651670423947251286016),(105,40564819207303340847894502572032),(106,81129638414606681695789005144064),(112,5192296858534827628530496329220096),(114,20769187434139310514121985316880384),(115,41538374868278621028243970633760768),(116,83076749736557242056487941267521536),(118,332306998946228968225951765070086144),(120,1329227995784915872903807060280344576)]
theorem emb38_masksIn : masksIn emb38_nfa emb38_masks = true := by decide +kernel
theorem emb38_repOk : repOk emb38_masks emb38_cs = true := by decide +kernel
def emb38_rows : List Row := [⟨[],none,[],[⟨256,.other,false,some ⟨0,[],some 5,true⟩⟩,⟨256,.ws,false,some ⟨1,[.setEnt (.own 0)],some 3,false⟩⟩,⟨256,.lf,false,some ⟨1,[.setEnt (.own 0)],some 3,false⟩⟩,⟨256,.vt,false,some ⟨1,[.setEnt (.own 0)],some 3,false⟩⟩,⟨256,.ff,false,some ⟨1,[.setEnt (.own 0)],some 3,false⟩⟩,⟨256,.cr,false,some ⟨1,[.setEnt (.own 0)],some 3,false⟩⟩,⟨256,.cr,true,some ⟨1,[.setEnt (.own 0)],some 3,false⟩⟩,⟨256,.other,false,some ⟨2,[.setEnt (.own 1)],some 5,false⟩⟩]⟩,⟨[47],some 3,[],[⟨256,.other,false,none⟩,⟨256,.ws,false,some ⟨1,[.setEnt (.own 0)],some 3,false⟩⟩,⟨256,.lf,false,some ⟨1,[.setEnt (.own 0)],some 3,false⟩⟩,⟨256,.vt,false,some ⟨1,[.setEnt (.own 0)],some 3,false⟩⟩,⟨256,.ff,false,some ⟨1,[.setEnt (.own 0)],some 3,false⟩⟩,⟨256,.cr,false,some ⟨1,[.setEnt (.own 0)],some 3,false⟩⟩,⟨256,.cr,true,some ⟨1,[.setEnt (.own 0)],some 3,false⟩⟩]⟩,⟨[0,17,42,48,56],some 5,[],[⟨256,.other,false,none⟩,⟨256,.ws,false,none⟩,⟨256,.lf,false,none⟩,⟨256,.vt,false,none⟩,⟨256,.ff,false,none⟩,⟨256,.cr,false,none⟩,⟨256,.cr,true,none⟩,⟨256,.other,false,some ⟨3,[.setEnt (.own 1)],none,false⟩⟩,⟨256,.other,false,some ⟨4,[],some 2,false⟩⟩,⟨256,.other,false,some ⟨5,[],none,false⟩⟩]⟩,⟨[49],none,[],[⟨256,.other,false,none⟩,⟨256,.ws,false,none⟩,⟨256,.lf,false,none⟩,⟨256,.vt,false,none⟩,⟨256,.ff,false,none⟩,⟨256,.cr,false,none⟩,⟨256,.cr,true,none⟩,⟨256,.other,false,some ⟨6,[.setEnt (.own 1)],none,false⟩⟩]⟩,⟨[43],some 2,[],[⟨256,.other,false,none⟩,⟨256,.ws,false,none⟩,⟨256,.lf,false,none⟩,⟨256,.vt,false,none⟩,⟨256,.ff,false,none⟩,⟨256,.cr,false,none⟩,⟨256,.cr,true,none⟩,⟨256,.other,false,some ⟨7,[],none,false⟩⟩]⟩,⟨[1,18],none,[],[⟨256,.other,false,none⟩,⟨256,.ws,false,none⟩,⟨256,.lf,false,none⟩,⟨256,.vt,false,none⟩,⟨256,.ff,false,none⟩,⟨256,.cr,false,none⟩,⟨256,.cr,true,none⟩,⟨256,.other,false,some ⟨8,[],none,false⟩⟩,⟨256,.other,false,some ⟨9,[],none,false⟩⟩]⟩,⟨[50],none,[],[⟨256,.other,false,none⟩,⟨256,.ws,false,none⟩,⟨256,.lf,false,none⟩,⟨256,.vt,false,none⟩,⟨256,.ff,false,none⟩,⟨256,.cr,false,none⟩,⟨256,.cr,true,none⟩,⟨256,.other,false,some ⟨10,[.setEnt (.own 1)],none,false⟩⟩]⟩,⟨[44],none,[],[⟨256,.other,false,none⟩,⟨256,.ws,false,none⟩,⟨256,.lf,false,none⟩,⟨256,.vt,false,none⟩,⟨256,.ff,false,none⟩,⟨256,.cr,false,none⟩,⟨256,.cr,true,none⟩,⟨256,.other,false,some ⟨11,[],none,false⟩⟩]⟩,⟨[19],none,[],[⟨256,.other,false,none⟩,⟨256,.ws,false,none⟩,⟨256,.lf,false,none⟩,⟨256,.vt,false,none⟩,⟨256,.ff,false,none⟩,⟨256,.cr,false,none⟩,⟨256,.cr,true,none⟩,⟨256,.other,false,some ⟨12,[],none,false⟩⟩]⟩,⟨[2],none,[],[⟨256,.other,false,none⟩,⟨256,.ws,false,none⟩,⟨256,.lf,false,none⟩,⟨256,.vt,false,none⟩,⟨256,.ff,false,none⟩,⟨256,.cr,false,none⟩,⟨256,.cr,true,none⟩,⟨256,.other,false,some ⟨13,[],none,false⟩⟩]⟩,⟨[51],none,[],[⟨256,.other,false,some ⟨14,[.setEnt (.own 1)],none,false⟩⟩,⟨256,.ws,false,some ⟨14,[.setEnt (.own 1)],none,false⟩⟩,⟨256,.lf,false,some ⟨14,[.setEnt (.own 1)],none,false⟩⟩,⟨256,.vt,false,some ⟨14,[.setEnt (.own 1)],none,false⟩⟩,⟨256,.ff,false,some ⟨14,[.setEnt (.own 1)],none,false⟩⟩,⟨256,.cr,false,some ⟨14,[.setEnt (.own 1)],none,false⟩⟩,⟨256,.cr,true,some ⟨14,[.setEnt (.own 1)],none,false⟩⟩,⟨256,.other,false,some ⟨15,[.setEnt (.own 1)],none,false⟩⟩]⟩,⟨[45],none,[],[⟨256,.other,false,none⟩,⟨256,.ws,false,none⟩,⟨256,.lf,false,none⟩,⟨256,.vt,false,none⟩,⟨256,.ff,false,none⟩,⟨256,.cr,false,none⟩,⟨256,.cr,true,none⟩,⟨256,.other,false,some ⟨0,[],some 2,true⟩⟩]⟩,⟨[20],none,[],[⟨256,.other,false,none⟩,⟨256,.ws,false,none⟩,⟨256,.lf,false,none⟩,⟨256,.vt,false,none⟩,⟨256,.ff,false,none⟩,⟨256,.cr,false,none⟩,⟨256,.cr,true,none⟩,⟨256,.other,false,some ⟨16,[],none,false⟩⟩]⟩,⟨[3],none,[],[⟨256,.other,false,none⟩,⟨256,.ws,false,none⟩,⟨256,.lf,false,none⟩,⟨256,.vt,false,none⟩,⟨256,.ff,false,none⟩,⟨256,.cr,false,none⟩,⟨256,.cr,true,none⟩,⟨256,.other,false,some ⟨17,[],none,false⟩⟩]⟩,⟨[52],none,[],[⟨256,.other,false,some ⟨14,[.setEnt (.own 1)],none,false⟩⟩,⟨256,.ws,false,some ⟨14,[.setEnt (.own 1)],none,false⟩⟩,⟨256,.lf,false,some ⟨14,[.setEnt (.own 1)],none,false⟩⟩,⟨256,.vt,false,some ⟨14,[.setEnt (.own 1)],none,false⟩⟩,⟨256,.ff,false,some ⟨14,[.setEnt (.own 1)],none,false⟩⟩,⟨256,.cr,false,some ⟨14,[.setEnt (.own 1)],none,false⟩⟩,⟨256,.cr,true,some ⟨14,[.setEnt (.own 1)],none,false⟩⟩,⟨256,.other,false,some ⟨15,[.setEnt (.own 1)],none,false⟩⟩]⟩,⟨[52,53],none,[],[⟨256,.other,false,some ⟨14,[.setEnt (.own 1)],none,false⟩⟩,⟨256,.ws,false,some ⟨14,[.setEnt (.own 1)],none,false⟩⟩,⟨256,.lf,false,some ⟨14,[.setEnt (.own 1)],none,false⟩⟩,⟨256,.vt,false,some ⟨14,[.setEnt (.own 1)],none,false⟩⟩,⟨256,.ff,false,some ⟨14,[.setEnt (.own 1)],none,false⟩⟩,⟨256,.cr,false,some ⟨14,[.setEnt (.own 1)],none,false⟩⟩,⟨256,.cr,true,some ⟨14,[.setEnt (.own 1)],none,false⟩⟩,⟨256,.other,false,some ⟨18,[.setEnt (.own 1)],none,false⟩⟩]⟩,⟨[21],none,[],[⟨256,.other,false,none⟩,⟨256,.ws,false,none⟩,⟨256,.lf,false,none⟩,⟨256,.vt,false,none⟩,⟨256,.ff,false,none⟩,⟨256,.cr,false,none⟩,⟨256,.cr,true,none⟩,⟨256,.other,false,some ⟨19,[],none,false⟩⟩]⟩,⟨[4],none,[],[⟨256,.other,false,none⟩,⟨256,.ws,false,none⟩,⟨256,.lf,false,none⟩,⟨256,.vt,false,none⟩,⟨256,.ff,false,none⟩,⟨256,.cr,false,none⟩,⟨256,.cr,true,none⟩,⟨256,.other,false,some ⟨20,[],none,false⟩⟩]⟩,⟨[52,53,54],none,[],[⟨256,.other,false,some ⟨14,[.setEnt (.own 1)],none,false⟩⟩,⟨256,.ws,false,some ⟨14,[.setEnt (.own 1)],none,false⟩⟩,⟨256,.lf,false,some ⟨14,[.setEnt (.own 1)],none,false⟩⟩,⟨256,.vt,false,some ⟨14,[.setEnt (.own 1)],none,false⟩⟩,⟨256,.ff,false,some ⟨14,[.setEnt (.own 1)],none,false⟩⟩,⟨256,.cr,false,some ⟨14,[.setEnt (.own 1)],none,false⟩⟩,⟨256,.cr,true,some ⟨14,[.setEnt (.own 1)],none,false⟩⟩,⟨256,.other,false,some ⟨18,[.setEnt (.own 1)],none,false⟩⟩,⟨256,.other,false,some ⟨0,[.setEnt (.own 1)],some 4,true⟩⟩]⟩,⟨[22],none,[],[⟨256,.other,false,none⟩,⟨256,.ws,false,none⟩,⟨256,.lf,false,none⟩,⟨256,.vt,false,none⟩,⟨256,.ff,false,none⟩,⟨256,.cr,false,none⟩,⟨256,.cr,true,none⟩,⟨256,.other,false,some ⟨21,[],none,false⟩⟩]⟩,⟨[5],none,[],[⟨256,.other,false,some ⟨22,[],none,false⟩⟩,⟨256,.ws,false,some ⟨22,[],none,false⟩⟩,⟨256,.lf,false,some ⟨22,[],none,false⟩⟩,⟨256,.vt,false,some ⟨22,[],none,false⟩⟩,⟨256,.ff,false,some ⟨22,[],none,false⟩⟩,⟨256,.cr,false,some ⟨22,[],none,false⟩⟩,⟨256,.cr,true,some ⟨22,[],none,false⟩⟩,⟨256,.other,false,none⟩]⟩,⟨[23],none,[],[⟨256,.other,false,some ⟨23,[],none,false⟩⟩,⟨256,.ws,false,some ⟨23,[],none,false⟩⟩,⟨256,.lf,false,some ⟨23,[],none,false⟩⟩,⟨256,.vt,false,some ⟨23,[],none,false⟩⟩,⟨256,.ff,false,some ⟨23,[],none,false⟩⟩,⟨256,.cr,false,some ⟨23,[],none,false⟩⟩,⟨256,.cr,true,some ⟨23,[],none,false⟩⟩,⟨256,.other,false,none⟩]⟩,⟨[6],none,[],[⟨256,.other,false,some ⟨22,[],none,false⟩⟩,⟨256,.ws,false,some ⟨22,[],none,false⟩⟩,⟨256,.lf,false,some ⟨22,[],none,false⟩⟩,⟨256,.vt,false,some ⟨22,[],none,false⟩⟩,⟨256,.ff,false,some ⟨22,[],none,false⟩⟩,⟨256,.cr,false,some ⟨22,[],none,false⟩⟩,⟨256,.cr,true,some ⟨22,[],none,false⟩⟩,⟨256,.other,false,none⟩,⟨256,.other,false,some ⟨24,[],none,false⟩⟩]⟩,⟨[24],none,[],[⟨256,.other,false,some ⟨23,[],none,false⟩⟩,⟨256,.ws,false,some ⟨23,[],none,false⟩⟩,⟨256,.lf,false,some ⟨23,[],none,false⟩⟩,⟨256,.vt,false,some ⟨23,[],none,false⟩⟩,⟨256,.ff,false,some ⟨23,[],none,false⟩⟩,⟨256,.cr,false,some ⟨23,[],none,false⟩⟩,⟨256,.cr,true,some ⟨23,[],none,false⟩⟩,⟨256,.other,false,none⟩,⟨256,.other,false,some ⟨25,[],none,false⟩⟩]⟩,⟨[6,7],none,[],[⟨256,.other,false,some ⟨22,[],none,false⟩⟩,⟨256,.ws,false,some ⟨22,[],none,false⟩⟩,⟨256,.lf,false,some ⟨22,[],none,false⟩⟩,⟨256,.vt,false,some ⟨22,[],none,false⟩⟩,⟨256,.ff,false,some ⟨22,[],none,false⟩⟩,⟨256,.cr,false,some ⟨22,[],none,false⟩⟩,⟨256,.cr,true,some ⟨22,[],none,false⟩⟩,⟨256,.other,false,none⟩,⟨256,.other,false,some ⟨26,[],none,false⟩⟩,⟨256,.other,false,some ⟨24,[],none,false⟩⟩]⟩,⟨[24,25],none,[],[⟨256,.other,false,some ⟨23,[],none,false⟩⟩,⟨256,.ws,false,some ⟨23,[],none,false⟩⟩,⟨256,.lf,false,some ⟨23,[],none,false⟩⟩,⟨256,.vt,false,some ⟨23,[],none,false⟩⟩,⟨256,.ff,false,some ⟨23,[],none,false⟩⟩,⟨256,.cr,false,some ⟨23,[],none,false⟩⟩,⟨256,.cr,true,some ⟨23,[],none,false⟩⟩,⟨256,.other,false,none⟩,⟨256,.other,false,some ⟨27,[],none,false⟩⟩,⟨256,.other,false,some ⟨25,[],none,false⟩⟩]⟩,⟨[6,8],none,[],[⟨256,.other,false,some ⟨22,[],none,false⟩⟩,⟨256,.ws,false,some ⟨22,[],none,false⟩⟩,⟨256,.lf,false,some ⟨22,[],none,false⟩⟩,⟨256,.vt,false,some ⟨22,[],none,false⟩⟩,⟨256,.ff,false,some ⟨22,[],none,false⟩⟩,⟨256,.cr,false,some ⟨22,[],none,false⟩⟩,⟨256,.cr,true,some ⟨22,[],none,false⟩⟩,⟨256,.other,false,none⟩,⟨256,.other,false,some ⟨24,[],none,false⟩⟩,⟨256,.other,false,some ⟨28,[],none,false⟩⟩]⟩,⟨[24,26],none,[],[⟨256,.other,false,some ⟨23,[],none,false⟩⟩,⟨256,.ws,false,some ⟨23,[],none,false⟩⟩,⟨256,.lf,false,some ⟨23,[],none,false⟩⟩,⟨256,.vt,false,some ⟨23,[],none,false⟩⟩,⟨256,.ff,false,some ⟨23,[],none,false⟩⟩,⟨256,.cr,false,some ⟨23,[],none,false⟩⟩,⟨256,.cr,true,some ⟨23,[],none,false⟩⟩,⟨256,.other,false,none⟩,⟨256,.other,false,some ⟨25,[],none,false⟩⟩,⟨256,.other,false,some ⟨29,[],none,false⟩⟩]⟩,⟨[6,9],none,[],[⟨256,.other,false,some ⟨22,[],none,false⟩⟩,⟨256,.ws,false,some ⟨22,[],none,false⟩⟩,⟨256,.lf,false,some ⟨22,[],none,false⟩⟩,⟨256,.vt,false,some ⟨22,[],none,false⟩⟩,⟨256,.ff,false,some ⟨22,[],none,false⟩⟩,⟨256,.cr,false,some ⟨22,[],none,false⟩⟩,⟨256,.cr,true,some ⟨22,[],none,false⟩⟩,⟨256,.other,false,none⟩,⟨256,.other,false,some ⟨30,[],none,false⟩⟩]⟩,⟨[24,27],none,[],[⟨256,.other,false,some ⟨23,[],none,false⟩⟩,⟨256,.ws,false,some ⟨23,[],none,false⟩⟩,⟨256,.lf,false,some ⟨23,[],none,false⟩⟩,⟨256,.vt,false,some ⟨23,[],none,false⟩⟩,⟨256,.ff,false,some ⟨23,[],none,false⟩⟩,⟨256,.cr,false,some ⟨23,[],none,false⟩⟩,⟨256,.cr,true,some ⟨23,[],none,false⟩⟩,⟨256,.other,false,none⟩,⟨256,.other,false,some ⟨31,[],none,false⟩⟩]⟩,⟨[6,7,10],none,[],[⟨256,.other,false,some ⟨22,[],none,false⟩⟩,⟨256,.ws,false,some ⟨22,[],none,false⟩⟩,⟨256,.lf,false,some ⟨22,[],none,false⟩⟩,⟨256,.vt,false,some ⟨22,[],none,false⟩⟩,⟨256,.ff,false,some ⟨22,[],none,false⟩⟩,⟨256,.cr,false,some ⟨22,[],none,false⟩⟩,⟨256,.cr,true,some ⟨22,[],none,false⟩⟩,⟨256,.other,false,some ⟨32,[],none,false⟩⟩,⟨256,.other,false,none⟩,⟨256,.other,false,some ⟨26,[],none,false⟩⟩,⟨256,.other,false,some ⟨24,[],none,false⟩⟩]⟩,⟨[24,25,28],none,[],[⟨256,.other,false,some ⟨23,[],none,false⟩⟩,⟨256,.ws,false,some ⟨23,[],none,false⟩⟩,⟨256,.lf,false,some ⟨23,[],none,false⟩⟩,⟨256,.vt,false,some ⟨23,[],none,false⟩⟩,⟨256,.ff,false,some ⟨23,[],none,false⟩⟩,⟨256,.cr,false,some ⟨23,[],none,false⟩⟩,⟨256,.cr,true,some ⟨23,[],none,false⟩⟩,⟨256,.other,false,some ⟨33,[],none,false⟩⟩,⟨256,.other,false,none⟩,⟨256,.other,false,some ⟨27,[],none,false⟩⟩,⟨256,.other,false,some ⟨25,[],none,false⟩⟩]⟩,⟨[6,11],none,[],[⟨256,.other,false,some ⟨22,[],none,false⟩⟩,⟨256,.ws,false,some ⟨22,[],none,false⟩⟩,⟨256,.lf,false,some ⟨22,[],none,false⟩⟩,⟨256,.vt,false,some ⟨22,[],none,false⟩⟩,⟨256,.ff,false,some ⟨22,[],none,false⟩⟩,⟨256,.cr,false,some ⟨22,[],none,false⟩⟩,⟨256,.cr,true,some ⟨22,[],none,false⟩⟩,⟨256,.other,false,none⟩,⟨256,.other,false,some ⟨34,[],none,false⟩⟩,⟨256,.other,false,some ⟨24,[],none,false⟩⟩]⟩,⟨[24,29],none,[],[⟨256,.other,false,some ⟨23,[],none,false⟩⟩,⟨256,.ws,false,some ⟨23,[],none,false⟩⟩,⟨256,.lf,false,some ⟨23,[],none,false⟩⟩,⟨256,.vt,false,some ⟨23,[],none,false⟩⟩,⟨256,.ff,false,some ⟨23,[],none,false⟩⟩,⟨256,.cr,false,some ⟨23,[],none,false⟩⟩,⟨256,.cr,true,some ⟨23,[],none,false⟩⟩,⟨256,.other,false,none⟩,⟨256,.other,false,some ⟨35,[],none,false⟩⟩,⟨256,.other,false,some ⟨25,[],none,false⟩⟩]⟩,⟨[6,12],none,[],[⟨256,.other,false,some ⟨22,[],none,false⟩⟩,⟨256,.ws,false,some ⟨22,[],none,false⟩⟩,⟨256,.lf,false,some ⟨22,[],none,false⟩⟩,⟨256,.vt,false,some ⟨22,[],none,false⟩⟩,⟨256,.ff,false,some ⟨22,[],none,false⟩⟩,⟨256,.cr,false,some ⟨22,[],none,false⟩⟩,⟨256,.cr,true,some ⟨22,[],none,false⟩⟩,⟨256,.other,false,none⟩,⟨256,.other,false,some ⟨36,[],none,false⟩⟩,⟨256,.other,false,some ⟨24,[],none,false⟩⟩]⟩,⟨[24,30],none,[],[⟨256,.other,false,some ⟨23,[],none,false⟩⟩,⟨256,.ws,false,some ⟨23,[],none,false⟩⟩,⟨256,.lf,false,some ⟨23,[],none,false⟩⟩,⟨256,.vt,false,some ⟨23,[],none,false⟩⟩,⟨256,.ff,false,some ⟨23,[],none,false⟩⟩,⟨256,.cr,false,some ⟨23,[],none,false⟩⟩,⟨256,.cr,true,some ⟨23,[],none,false⟩⟩,⟨256,.other,false,none⟩,⟨256,.other,false,some ⟨37,[],none,false⟩⟩,⟨256,.other,false,some ⟨25,[],none,false⟩⟩]⟩,⟨[6,13],none,[],[⟨256,.other,false,some ⟨22,[],none,false⟩⟩,⟨256,.ws,false,some ⟨22,[],none,false⟩⟩,⟨256,.lf,false,some ⟨22,[],none,false⟩⟩,⟨256,.vt,false,some ⟨22,[],none,false⟩⟩,⟨256,.ff,false,some ⟨22,[],none,false⟩⟩,⟨256,.cr,false,some ⟨22,[],none,false⟩⟩,⟨256,.cr,true,some ⟨22,[],none,false⟩⟩,⟨256,.other,false,none⟩,⟨256,.other,false,some ⟨38,[],none,false⟩⟩,⟨256,.other,false,some ⟨24,[],none,false⟩⟩]⟩,⟨[24,31],none,[],[⟨256,.other,false,some ⟨23,[],none,false⟩⟩,⟨256,.ws,false,some ⟨23,[],none,false⟩⟩,⟨256,.lf,false,some ⟨23,[],none,false⟩⟩,⟨256,.vt,false,some ⟨23,[],none,false⟩⟩,⟨256,.ff,false,some ⟨23,[],none,false⟩⟩,⟨256,.cr,false,some ⟨23,[],none,false⟩⟩,⟨256,.cr,true,some ⟨23,[],none,false⟩⟩,⟨256,.other,false,none⟩,⟨256,.other,false,some ⟨25,[],none,false⟩⟩,⟨256,.other,false,some ⟨39,[],none,false⟩⟩]⟩,⟨[14],none,[],[⟨256,.other,false,some ⟨40,[],none,false⟩⟩,⟨256,.ws,false,some ⟨40,[],none,false⟩⟩,⟨256,.lf,false,some ⟨40,[],none,false⟩⟩,⟨256,.vt,false,some ⟨40,[],none,false⟩⟩,⟨256,.ff,false,some ⟨40,[],none,false⟩⟩,⟨256,.cr,false,some ⟨40,[],none,false⟩⟩,⟨256,.cr,true,some ⟨40,[],none,false⟩⟩,⟨256,.other,false,none⟩]⟩,⟨[24,32],none,[],[⟨256,.other,false,some ⟨23,[],none,false⟩⟩,⟨256,.ws,false,some ⟨23,[],none,false⟩⟩,⟨256,.lf,false,some ⟨23,[],none,false⟩⟩,⟨256,.vt,false,some ⟨23,[],none,false⟩⟩,⟨256,.ff,false,some ⟨23,[],none,false⟩⟩,⟨256,.cr,false,some ⟨23,[],none,false⟩⟩,⟨256,.cr,true,some ⟨23,[],none,false⟩⟩,⟨256,.other,false,none⟩,⟨256,.other,false,some ⟨41,[],none,false⟩⟩,⟨256,.other,false,some ⟨25,[],none,false⟩⟩]⟩,⟨[15],none,[],[⟨256,.other,false,some ⟨40,[],none,false⟩⟩,⟨256,.ws,false,some ⟨40,[],none,false⟩⟩,⟨256,.lf,false,some ⟨40,[],none,false⟩⟩,⟨256,.vt,false,some ⟨40,[],none,false⟩⟩,⟨256,.ff,false,some ⟨40,[],none,false⟩⟩,⟨256,.cr,false,some ⟨40,[],none,false⟩⟩,⟨256,.cr,true,some ⟨40,[],none,false⟩⟩,⟨256,.other,false,some ⟨0,[],some 0,true⟩⟩]⟩,⟨[24,33],none,[],[⟨256,.other,false,some ⟨23,[],none,false⟩⟩,⟨256,.ws,false,some ⟨23,[],none,false⟩⟩,⟨256,.lf,false,some ⟨23,[],none,false⟩⟩,⟨256,.vt,false,some ⟨23,[],none,false⟩⟩,⟨256,.ff,false,some ⟨23,[],none,false⟩⟩,⟨256,.cr,false,some ⟨23,[],none,false⟩⟩,⟨256,.cr,true,some ⟨23,[],none,false⟩⟩,⟨256,.other,false,none⟩,⟨256,.other,false,some ⟨42,[],none,false⟩⟩,⟨256,.other,false,some ⟨25,[],none,false⟩⟩]⟩,⟨[24,34],none,[],[⟨256,.other,false,some ⟨23,[],none,false⟩⟩,⟨256,.ws,false,some ⟨23,[],none,false⟩⟩,⟨256,.lf,false,some ⟨23,[],none,false⟩⟩,⟨256,.vt,false,some ⟨23,[],none,false⟩⟩,⟨256,.ff,false,some ⟨23,[],none,false⟩⟩,⟨256,.cr,false,some ⟨23,[],none,false⟩⟩,⟨256,.cr,true,some ⟨23,[],none,false⟩⟩,⟨256,.other,false,none⟩,⟨256,.other,false,some ⟨43,[],none,false⟩⟩,⟨256,.other,false,some ⟨25,[],none,false⟩⟩]⟩,⟨[24,35],none,[],[⟨256,.other,false,some ⟨23,[],none,false⟩⟩,⟨256,.ws,false,some ⟨23,[],none,false⟩⟩,⟨256,.lf,false,some ⟨23,[],none,false⟩⟩,⟨256,.vt,false,some ⟨23,[],none,false⟩⟩,⟨256,.ff,false,some ⟨23,[],none,false⟩⟩,⟨256,.cr,false,some ⟨23,[],none,false⟩⟩,⟨256,.cr,true,some ⟨23,[],none,false⟩⟩,⟨256,.other,false,none⟩,⟨256,.other,false,some ⟨44,[],none,false⟩⟩,⟨256,.other,false,some ⟨25,[],none,false⟩⟩]⟩,⟨[24,36],none,[],[⟨256,.other,false,some ⟨23,[],none,false⟩⟩,⟨256,.ws,false,some ⟨23,[],none,false⟩⟩,⟨256,.lf,false,some ⟨23,[],none,false⟩⟩,⟨256,.vt,false,some ⟨23,[],none,false⟩⟩,⟨256,.ff,false,some ⟨23,[],none,false⟩⟩,⟨256,.cr,false,some ⟨23,[],none,false⟩⟩,⟨256,.cr,true,some ⟨23,[],none,false⟩⟩,⟨256,.other,false,none⟩,⟨256,.other,false,some ⟨45,[],none,false⟩⟩,⟨256,.other,false,some ⟨25,[],none,false⟩⟩]⟩,⟨[24,37],none,[],[⟨256,.other,false,some ⟨23,[],none,false⟩⟩,⟨256,.ws,false,some ⟨23,[],none,false⟩⟩,⟨256,.lf,false,some ⟨23,[],none,false⟩⟩,⟨256,.vt,false,some ⟨23,[],none,false⟩⟩,⟨256,.ff,false,some ⟨23,[],none,false⟩⟩,⟨256,.cr,false,some ⟨23,[],none,false⟩⟩,⟨256,.cr,true,some ⟨23,[],none,false⟩⟩,⟨256,.other,false,none⟩,⟨256,.other,false,some ⟨46,[],none,false⟩⟩,⟨256,.other,false,some ⟨25,[],none,false⟩⟩]⟩,⟨[24,38],none,[],[⟨256,.other,false,some ⟨23,[],none,false⟩⟩,⟨256,.ws,false,some ⟨23,[],none,false⟩⟩,⟨256,.lf,false,some ⟨23,[],none,false⟩⟩,⟨256,.vt,false,some ⟨23,[],none,false⟩⟩,⟨256,.ff,false,some ⟨23,[],none,false⟩⟩,⟨256,.cr,false,some ⟨23,[],none,false⟩⟩,⟨256,.cr,true,some ⟨23,[],none,false⟩⟩,⟨256,.other,false,none⟩,⟨256,.other,false,some ⟨47,[],none,false⟩⟩]⟩,⟨[39],none,[],[⟨256,.other,false,some ⟨48,[],none,false⟩⟩,⟨256,.ws,false,some ⟨48,[],none,false⟩⟩,⟨256,.lf,false,some ⟨48,[],none,false⟩⟩,⟨256,.vt,false,some ⟨48,[],none,false⟩⟩,⟨256,.ff,false,some ⟨48,[],none,false⟩⟩,⟨256,.cr,false,some ⟨48,[],none,false⟩⟩,⟨256,.cr,true,some ⟨48,[],none,false⟩⟩,⟨256,.other,false,none⟩]⟩,⟨[40],none,[],[⟨256,.other,false,some ⟨48,[],none,false⟩⟩,⟨256,.ws,false,some ⟨48,[],none,false⟩⟩,⟨256,.lf,false,some ⟨48,[],none,false⟩⟩,⟨256,.vt,false,some ⟨48,[],none,false⟩⟩,⟨256,.ff,false,some ⟨48,[],none,false⟩⟩,⟨256,.cr,false,some ⟨48,[],none,false⟩⟩,⟨256,.cr,true,some ⟨48,[],none,false⟩⟩,⟨256,.other,false,some ⟨0,[],some 1,true⟩⟩]⟩]
theorem emb38_rowsOk : rowsOk emb38_nfa [] (emb38_cs.map (·.1)) emb38_rows = true := by decide +kernel
def emb38_D : Dfa emb38_nfa := ⟨emb38_masks, [], emb38_cs, emb38_rows, emb38_masksIn, emb38_repOk, emb38_rowsOk⟩
def emb38_maskst : List Nat := [1152921504606846976,4294983168,115792089237316195423570985008687907853269984665640564039457584007908834656767,41538374877950027585161004031410176,83076749755900055170322008062820352,2658455992188801765450304258010251264,324518553733984590509070343995392,2535301201046754613352112062464,115792089237316195423570985008687907853269984665640564039452972321894702252031,83076749736557242056487941267521536,2535301200456458802993406410752,1329227995784915872903807060280344576,140737488355328,633825300114114700748351602688,41538374868278621028243970633760768,4611686018427387904,633825300261688653338028015616,20769187438975013792580502015705088,40564819216748073813633792999424,5192296859743753448145125503926272,81129638414606681695789005144064,158456325028528675187087900672,332306998946228968225951765070086144,20769187434139310514121985316880384,40564819207303340847894502572032,5192296858534827628530496329220096,9223372036854775808,20282409603651670423947251286016,8589934592,35184372088832,115792089237316195423570985008687907853269984665640564039457584007913129639935]
def emb38_cst : List (Nat × Nat) := [(0,115792089237316195423570985008687907853265513628221707728658031196377899319807),(9,4294967808),(10,1024),(11,2048),(12,4096),(13,8192),(33,8589934592),(45,35184372088832),(47,140737488355328),(60,1152921504606846976),(62,4611686018427387904),(63,9223372036854775808),(67,147573952589676412928),(69,590295810358705651712),(73,9444732965739290427392),(76,324518553733984590509070343995392),(80,1208925819614629174706176),(82,4835703278458516698824704),(83,9671406556917033397649408),(84,19342813113834066795298816),(89,2658455992188801765450304258010251264),(97,158456325028528675187087900672),(99,633825300114114700748351602688),(101,2535301200456458802993406410752),(104,20282409603651670423947251286016),(105,40564819207303340847894502572032),(106,81129638414606681695789005144064),(112,5192296858534827628530496329220096),(114,20769187434139310514121985316880384),(115,41538374868278621028243970633760768),(116,83076749736557242056487941267521536),(118,332306998946228968225951765070086144),(120,1329227995784915872903807060280344576)]
theorem emb38_masksInt : masksIn emb38_nfa emb38_maskst = true := by decide +kernel
theorem emb38_repOkt : repOk emb38_maskst emb38_cst = true := by decide +kernel
def emb38_rowst : List Row := [⟨[],none,[],[⟨256,.other,false,some ⟨0,[],some 5,true⟩⟩,⟨256,.ws,false,some ⟨1,[.setEnt (.own 0)],some 3,false⟩⟩,⟨256,.lf,false,some ⟨1,[.setEnt (.own 0)],some 3,false⟩⟩,⟨256,.vt,false,some ⟨1,[.setEnt (.own 0)],some 3,false⟩⟩,⟨256,.ff,false,some ⟨1,[.setEnt (.own 0)],some 3,false⟩⟩,⟨256,.cr,false,some ⟨1,[.setEnt (.own 0)],some 3,false⟩⟩,⟨256,.cr,true,some ⟨1,[.setEnt (.own 0)],some 3,false⟩⟩,⟨47,.other,false,some ⟨0,[],some 5,true⟩⟩,⟨60,.other,false,some ⟨2,[.setEnt (.own 1)],some 5,false⟩⟩,⟨62,.other,false,some ⟨0,[],some 5,true⟩⟩]⟩,⟨[47],some 3,[],[⟨256,.other,false,none⟩,⟨256,.ws,false,some ⟨1,[.setEnt (.own 0)],some 3,false⟩⟩,⟨256,.lf,false,some ⟨1,[.setEnt (.own 0)],some 3,false⟩⟩,⟨256,.vt,false,some ⟨1,[.setEnt (.own 0)],some 3,false⟩⟩,⟨256,.ff,false,some ⟨1,[.setEnt (.own 0)],some 3,false⟩⟩,⟨256,.cr,false,some ⟨1,[.setEnt (.own 0)],some 3,false⟩⟩,⟨256,.cr,true,some ⟨1,[.setEnt (.own 0)],some 3,false⟩⟩,⟨47,.other,false,none⟩,⟨60,.other,false,none⟩,⟨62,.other,false,none⟩]⟩,⟨[0,17,42,48,56],some 5,[],[⟨256,.other,false,none⟩,⟨256,.ws,false,none⟩,⟨256,.lf,false,none⟩,⟨256,.vt,false,none⟩,⟨256,.ff,false,none⟩,⟨256,.cr,false,none⟩,⟨256,.cr,true,none⟩,⟨256,.other,false,some ⟨3,[.setEnt (.own 1)],none,false⟩⟩,⟨47,.other,false,none⟩,⟨60,.other,false,none⟩,⟨62,.other,false,none⟩,⟨256,.other,false,some ⟨4,[],some 2,false⟩⟩,⟨256,.other,false,some ⟨5,[],none,false⟩⟩]⟩,⟨[49],none,[],[⟨256,.other,false,none⟩,⟨256,.ws,false,none⟩,⟨256,.lf,false,none⟩,⟨256,.vt,false,none⟩,⟨256,.ff,false,none⟩,⟨256,.cr,false,none⟩,⟨256,.cr,true,none⟩,⟨256,.other,false,some ⟨6,[.setEnt (.own 1)],none,false⟩⟩,⟨47,.other,false,none⟩,⟨60,.other,false,none⟩,⟨62,.other,false,none⟩]⟩,⟨[43],some 2,[],[⟨256,.other,false,none⟩,⟨256,.ws,false,none⟩,⟨256,.lf,false,none⟩,⟨256,.vt,false,none⟩,⟨256,.ff,false,none⟩,⟨256,.cr,false,none⟩,⟨256,.cr,true,none⟩,⟨47,.other,false,none⟩,⟨60,.other,false,none⟩,⟨62,.other,false,none⟩,⟨256,.other,false,some ⟨7,[],none,false⟩⟩]⟩,⟨[1,18],none,[],[⟨256,.other,false,none⟩,⟨256,.ws,false,none⟩,⟨256,.lf,false,none⟩,⟨256,.vt,false,none⟩,⟨256,.ff,false,none⟩,⟨256,.cr,false,none⟩,⟨256,.cr,true,none⟩,⟨47,.other,false,none⟩,⟨60,.other,false,none⟩,⟨62,.other,false,none⟩,⟨256,.other,false,some ⟨8,[],none,false⟩⟩,⟨256,.other,false,some ⟨9,[],none,false⟩⟩]⟩,⟨[50],none,[],[⟨256,.other,false,none⟩,⟨256,.ws,false,none⟩,⟨256,.lf,false,none⟩,⟨256,.vt,false,none⟩,⟨256,.ff,false,none⟩,⟨256,.cr,false,none⟩,⟨256,.cr,true,none⟩,⟨256,.other,false,some ⟨10,[.setEnt (.own 1)],none,false⟩⟩,⟨47,.other,false,none⟩,⟨60,.other,false,none⟩,⟨62,.other,false,none⟩]⟩,⟨[44],none,[],[⟨256,.other,false,none⟩,⟨256,.ws,false,none⟩,⟨256,.lf,false,none⟩,⟨256,.vt,false,none⟩,⟨256,.ff,false,none⟩,⟨256,.cr,false,none⟩,⟨256,.cr,true,none⟩,⟨47,.other,false,none⟩,⟨60,.other,false,none⟩,⟨62,.other,false,none⟩,⟨256,.other,false,some ⟨11,[],none,false⟩⟩]⟩,⟨[19],none,[],[⟨256,.other,false,none⟩,⟨256,.ws,false,none⟩,⟨256,.lf,false,none⟩,⟨256,.vt,false,none⟩,⟨256,.ff,false,none⟩,⟨256,.cr,false,none⟩,⟨256,.cr,true,none⟩,⟨47,.other,false,none⟩,⟨60,.other,false,none⟩,⟨62,.other,false,none⟩,⟨256,.other,false,some ⟨12,[],none,false⟩⟩]⟩,⟨[2],none,[],[⟨256,.other,false,none⟩,⟨256,.ws,false,none⟩,⟨256,.lf,false,none⟩,⟨256,.vt,false,none⟩,⟨256,.ff,false,none⟩,⟨256,.cr,false,none⟩,⟨256,.cr,true,none⟩,⟨47,.other,false,none⟩,⟨60,.other,false,none⟩,⟨62,.other,false,none⟩,⟨256,.other,false,some ⟨13,[],none,false⟩⟩]⟩,⟨[51],none,[],[⟨256,.other,false,some ⟨14,[.setEnt (.own 1)],none,false⟩⟩,⟨256,.ws,false,some ⟨14,[.setEnt (.own 1)],none,false⟩⟩,⟨256,.lf,false,some ⟨14,[.setEnt (.own 1)],none,false⟩⟩,⟨256,.vt,false,some ⟨14,[.setEnt (.own 1)],none,false⟩⟩,⟨256,.ff,false,some ⟨14,[.setEnt (.own 1)],none,false⟩⟩,⟨256,.cr,false,some ⟨14,[.setEnt (.own 1)],none,false⟩⟩,⟨256,.cr,true,some ⟨14,[.setEnt (.own 1)],none,false⟩⟩,⟨256,.other,false,some ⟨15,[.setEnt (.own 1)],none,false⟩⟩,⟨47,.other,false,some ⟨14,[.setEnt (.own 1)],none,false⟩⟩,⟨60,.other,false,some ⟨14,[.setEnt (.own 1)],none,false⟩⟩,⟨62,.other,false,some ⟨14,[.setEnt (.own 1)],none,false⟩⟩]⟩,⟨[45],none,[],[⟨256,.other,false,none⟩,⟨256,.ws,false,none⟩,⟨256,.lf,false,none⟩,⟨256,.vt,false,none⟩,⟨256,.ff,false,none⟩,⟨256,.cr,false,none⟩,⟨256,.cr,true,none⟩,⟨47,.other,false,none⟩,⟨60,.other,false,none⟩,⟨62,.other,false,none⟩,⟨256,.other,false,some ⟨0,[],some 2,true⟩⟩]⟩,⟨[20],none,[],[⟨256,.other,false,none⟩,⟨256,.ws,false,none⟩,⟨256,.lf,false,none⟩,⟨256,.vt,false,none⟩,⟨256,.ff,false,none⟩,⟨256,.cr,false,none⟩,⟨256,.cr,true,none⟩,⟨47,.other,false,none⟩,⟨60,.other,false,none⟩,⟨62,.other,false,none⟩,⟨256,.other,false,some ⟨16,[],none,false⟩⟩]⟩,⟨[3],none,[],[⟨256,.other,false,none⟩,⟨256,.ws,false,none⟩,⟨256,.lf,false,none⟩,⟨256,.vt,false,none⟩,⟨256,.ff,false,none⟩,⟨256,.cr,false,none⟩,⟨256,.cr,true,none⟩,⟨47,.other,false,none⟩,⟨60,.other,false,none⟩,⟨62,.other,false,none⟩,⟨256,.other,false,some ⟨17,[],none,false⟩⟩]⟩,⟨[52],none,[],[⟨256,.other,false,some ⟨14,[.setEnt (.own 1)],none,false⟩⟩,⟨256,.ws,false,some ⟨14,[.setEnt (.own 1)],none,false⟩⟩,⟨256,.lf,false,some ⟨14,[.setEnt (.own 1)],none,false⟩⟩,⟨256,.vt,false,some ⟨14,[.setEnt (.own 1)],none,false⟩⟩,⟨256,.ff,false,some ⟨14,[.setEnt (.own 1)],none,false⟩⟩,⟨256,.cr,false,some ⟨14,[.setEnt (.own 1)],none,false⟩⟩,⟨256,.cr,true,some ⟨14,[.setEnt (.own 1)],none,false⟩⟩,⟨256,.other,false,some ⟨15,[.setEnt (.own 1)],none,false⟩⟩,⟨47,.other,false,some ⟨14,[.setEnt (.own 1)],none,false⟩⟩,⟨60,.other,false,some ⟨14,[.setEnt (.own 1)],none,false⟩⟩,⟨62,.other,false,some ⟨14,[.setEnt (.own 1)],none,false⟩⟩]⟩,⟨[52,53],none,[],[⟨256,.other,false,some ⟨14,[.setEnt (.own 1)],none,false⟩⟩,⟨256,.ws,false,some ⟨14,[.setEnt (.own 1)],none,false⟩⟩,⟨256,.lf,false,some ⟨14,[.setEnt (.own 1)],none,false⟩⟩,⟨256,.vt,false,some ⟨14,[.setEnt (.own 1)],none,false⟩⟩,⟨256,.ff,false,some ⟨14,[.setEnt (.own 1)],none,false⟩⟩,⟨256,.cr,false,some ⟨14,[.setEnt (.own 1)],none,false⟩⟩,⟨256,.cr,true,some ⟨14,[.setEnt (.own 1)],none,false⟩⟩,⟨256,.other,false,some ⟨18,[.setEnt (.own 1)],none,false⟩⟩,⟨47,.other,false,some ⟨14,[.setEnt (.own 1)],none,false⟩⟩,⟨60,.other,false,some ⟨14,[.setEnt (.own 1)],none,false⟩⟩,⟨62,.other,false,some ⟨14,[.setEnt (.own 1)],none,false⟩⟩]⟩,⟨[21],none,[],[⟨256,.other,false,none⟩,⟨256,.ws,false,none⟩,⟨256,.lf,false,none⟩,⟨256,.vt,false,none⟩,⟨256,.ff,false,none⟩,⟨256,.cr,false,none⟩,⟨256,.cr,true,none⟩,⟨47,.other,false,none⟩,⟨60,.other,false,none⟩,⟨62,.other,false,none⟩,⟨256,.other,false,some ⟨19,[],none,false⟩⟩]⟩,⟨[4],none,[],[⟨256,.other,false,none⟩,⟨256,.ws,false,none⟩,⟨256,.lf,false,none⟩,⟨256,.vt,false,none⟩,⟨256,.ff,false,none⟩,⟨256,.cr,false,none⟩,⟨256,.cr,true,none⟩,⟨47,.other,false,none⟩,⟨60,.other,false,none⟩,⟨62,.other,false,none⟩,⟨256,.other,false,some ⟨20,[],none,false⟩⟩]⟩,⟨[52,53,54],none,[],[⟨256,.other,false,some ⟨14,[.setEnt (.own 1)],none,false⟩⟩,⟨256,.ws,false,some ⟨14,[.setEnt (.own 1)],none,false⟩⟩,⟨256,.lf,false,some ⟨14,[.setEnt (.own 1)],none,false⟩⟩,⟨256,.vt,false,some ⟨14,[.setEnt (.own 1)],none,false⟩⟩,⟨256,.ff,false,some ⟨14,[.setEnt (.own 1)],none,false⟩⟩,⟨256,.cr,false,some ⟨14,[.setEnt (.own 1)],none,false⟩⟩,⟨256,.cr,true,some ⟨14,[.setEnt (.own 1)],none,false⟩⟩,⟨256,.other,false,some ⟨18,[.setEnt (.own 1)],none,false⟩⟩,⟨47,.other,false,some ⟨14,[.setEnt (.own 1)],none,false⟩⟩,⟨60,.other,false,some ⟨14,[.setEnt (.own 1)],none,false⟩⟩,⟨62,.other,false,some ⟨0,[.setEnt (.own 1)],some 4,true⟩⟩]⟩,⟨[22],none,[],[⟨256,.other,false,none⟩,⟨256,.ws,false,none⟩,⟨256,.lf,false,none⟩,⟨256,.vt,false,none⟩,⟨256,.ff,false,none⟩,⟨256,.cr,false,none⟩,⟨256,.cr,true,none⟩,⟨47,.other,false,none⟩,⟨60,.other,false,none⟩,⟨62,.other,false,none⟩,⟨256,.other,false,some ⟨21,[],none,false⟩⟩]⟩,⟨[5],none,[],[⟨256,.other,false,some ⟨22,[],none,false⟩⟩,⟨256,.ws,false,some ⟨22,[],none,false⟩⟩,⟨256,.lf,false,some ⟨22,[],none,false⟩⟩,⟨256,.vt,false,some ⟨22,[],none,false⟩⟩,⟨256,.ff,false,some ⟨22,[],none,false⟩⟩,⟨256,.cr,false,some ⟨22,[],none,false⟩⟩,⟨256,.cr,true,some ⟨22,[],none,false⟩⟩,⟨47,.other,false,some ⟨22,[],none,false⟩⟩,⟨60,.other,false,some ⟨22,[],none,false⟩⟩,⟨62,.other,false,none⟩]⟩,⟨[23],none,[],[⟨256,.other,false,some ⟨23,[],none,false⟩⟩,⟨256,.ws,false,some ⟨23,[],none,false⟩⟩,⟨256,.lf,false,some ⟨23,[],none,false⟩⟩,⟨256,.vt,false,some ⟨23,[],none,false⟩⟩,⟨256,.ff,false,some ⟨23,[],none,false⟩⟩,⟨256,.cr,false,some ⟨23,[],none,false⟩⟩,⟨256,.cr,true,some ⟨23,[],none,false⟩⟩,⟨47,.other,false,some ⟨23,[],none,false⟩⟩,⟨60,.other,false,some ⟨23,[],none,false⟩⟩,⟨62,.other,false,none⟩]⟩,⟨[6],none,[],[⟨256,.other,false,some ⟨22,[],none,false⟩⟩,⟨256,.ws,false,some ⟨22,[],none,false⟩⟩,⟨256,.lf,false,some ⟨22,[],none,false⟩⟩,⟨256,.vt,false,some ⟨22,[],none,false⟩⟩,⟨256,.ff,false,some ⟨22,[],none,false⟩⟩,⟨256,.cr,false,some ⟨22,[],none,false⟩⟩,⟨256,.cr,true,some ⟨22,[],none,false⟩⟩,⟨47,.other,false,some ⟨22,[],none,false⟩⟩,⟨60,.other,false,some ⟨22,[],none,false⟩⟩,⟨62,.other,false,none⟩,⟨256,.other,false,some ⟨24,[],none,false⟩⟩]⟩,⟨[24],none,[],[⟨256,.other,false,some ⟨23,[],none,false⟩⟩,⟨256,.ws,false,some ⟨23,[],none,false⟩⟩,⟨256,.lf,false,some ⟨23,[],none,false⟩⟩,⟨256,.vt,false,some ⟨23,[],none,false⟩⟩,⟨256,.ff,false,some ⟨23,[],none,false⟩⟩,⟨256,.cr,false,some ⟨23,[],none,false⟩⟩,⟨256,.cr,true,some ⟨23,[],none,false⟩⟩,⟨47,.other,false,some ⟨23,[],none,false⟩⟩,⟨60,.other,false,some ⟨23,[],none,false⟩⟩,⟨62,.other,false,none⟩,⟨256,.other,false,some ⟨25,[],none,false⟩⟩]⟩,⟨[6,7],none,[],[⟨256,.other,false,some ⟨22,[],none,false⟩⟩,⟨256,.ws,false,some ⟨22,[],none,false⟩⟩,⟨256,.lf,false,some ⟨22,[],none,false⟩⟩,⟨256,.vt,false,some ⟨22,[],none,false⟩⟩,⟨256,.ff,false,some ⟨22,[],none,false⟩⟩,⟨256,.cr,false,some ⟨22,[],none,false⟩⟩,⟨256,.cr,true,some ⟨22,[],none,false⟩⟩,⟨47,.other,false,some ⟨22,[],none,false⟩⟩,⟨60,.other,false,some ⟨22,[],none,false⟩⟩,⟨62,.other,false,none⟩,⟨256,.other,false,some ⟨26,[],none,false⟩⟩,⟨256,.other,false,some ⟨24,[],none,false⟩⟩]⟩,⟨[24,25],none,[],[⟨256,.other,false,some ⟨23,[],none,false⟩⟩,⟨256,.ws,false,some ⟨23,[],none,false⟩⟩,⟨256,.lf,false,some ⟨23,[],none,false⟩⟩,⟨256,.vt,false,some ⟨23,[],none,false⟩⟩,⟨256,.ff,false,some ⟨23,[],none,false⟩⟩,⟨256,.cr,false,some ⟨23,[],none,false⟩⟩,⟨256,.cr,true,some ⟨23,[],none,false⟩⟩,⟨47,.other,false,some ⟨23,[],none,false⟩⟩,⟨60,.other,false,some ⟨23,[],none,false⟩⟩,⟨62,.other,false,none⟩,⟨256,.other,false,some ⟨27,[],none,false⟩⟩,⟨256,.other,false,some ⟨25,[],none,false⟩⟩]⟩,⟨[6,8],none,[],[⟨256,.other,false,some ⟨22,[],none,false⟩⟩,⟨256,.ws,false,some ⟨22,[],none,false⟩⟩,⟨256,.lf,false,some ⟨22,[],none,false⟩⟩,⟨256,.vt,false,some ⟨22,[],none,false⟩⟩,⟨256,.ff,false,some ⟨22,[],none,false⟩⟩,⟨256,.cr,false,some ⟨22,[],none,false⟩⟩,⟨256,.cr,true,some ⟨22,[],none,false⟩⟩,⟨47,.other,false,some ⟨22,[],none,false⟩⟩,⟨60,.other,false,some ⟨22,[],none,false⟩⟩,⟨62,.other,false,none⟩,⟨256,.other,false,some ⟨24,[],none,false⟩⟩,⟨256,.other,false,some ⟨28,[],none,false⟩⟩]⟩,⟨[24,26],none,[],[⟨256,.other,false,some ⟨23,[],none,false⟩⟩,⟨256,.ws,false,some ⟨23,[],none,false⟩⟩,⟨256,.lf,false,some ⟨23,[],none,false⟩⟩,⟨256,.vt,false,some ⟨23,[],none,false⟩⟩,⟨256,.ff,false,some ⟨23,[],none,false⟩⟩,⟨256,.cr,false,some ⟨23,[],none,false⟩⟩,⟨256,.cr,true,some ⟨23,[],none,false⟩⟩,⟨47,.other,false,some ⟨23,[],none,false⟩⟩,⟨60,.other,false,some ⟨23,[],none,false⟩⟩,⟨62,.other,false,none⟩,⟨256,.other,false,some ⟨25,[],none,false⟩⟩,⟨256,.other,false,some ⟨29,[],none,false⟩⟩]⟩,⟨[6,9],none,[],[⟨256,.other,false,some ⟨22,[],none,false⟩⟩,⟨256,.ws,false,some ⟨22,[],none,false⟩⟩,⟨256,.lf,false,some ⟨22,[],none,false⟩⟩,⟨256,.vt,false,some ⟨22,[],none,false⟩⟩,⟨256,.ff,false,some ⟨22,[],none,false⟩⟩,⟨256,.cr,false,some ⟨22,[],none,false⟩⟩,⟨256,.cr,true,some ⟨22,[],none,false⟩⟩,⟨47,.other,false,some ⟨22,[],none,false⟩⟩,⟨60,.other,false,some ⟨22,[],none,false⟩⟩,⟨62,.other,false,none⟩,⟨256,.other,false,some ⟨30,[],none,false⟩⟩]⟩,⟨[24,27],none,[],[⟨256,.other,false,some ⟨23,[],none,false⟩⟩,⟨256,.ws,false,some ⟨23,[],none,false⟩⟩,⟨256,.lf,false,some ⟨23,[],none,false⟩⟩,⟨256,.vt,false,some ⟨23,[],none,false⟩⟩,⟨256,.ff,false,some ⟨23,[],none,false⟩⟩,⟨256,.cr,false,some ⟨23,[],none,false⟩⟩,⟨256,.cr,true,some ⟨23,[],none,false⟩⟩,⟨47,.other,false,some ⟨23,[],none,false⟩⟩,⟨60,.other,false,some ⟨23,[],none,false⟩⟩,⟨62,.other,false,none⟩,⟨256,.other,false,some ⟨31,[],none,false⟩⟩]⟩,⟨[6,7,10],none,[],[⟨256,.other,false,some ⟨22,[],none,false⟩⟩,⟨256,.ws,false,some ⟨22,[],none,false⟩⟩,⟨256,.lf,false,some ⟨22,[],none,false⟩⟩,⟨256,.vt,false,some ⟨22,[],none,false⟩⟩,⟨256,.ff,false,some ⟨22,[],none,false⟩⟩,⟨256,.cr,false,some ⟨22,[],none,false⟩⟩,⟨256,.cr,true,some ⟨22,[],none,false⟩⟩,⟨47,.other,false,some ⟨32,[],none,false⟩⟩,⟨60,.other,false,some ⟨22,[],none,false⟩⟩,⟨62,.other,false,none⟩,⟨256,.other,false,some ⟨26,[],none,false⟩⟩,⟨256,.other,false,some ⟨24,[],none,false⟩⟩]⟩,⟨[24,25,28],none,[],[⟨256,.other,false,some ⟨23,[],none,false⟩⟩,⟨256,.ws,false,some ⟨23,[],none,false⟩⟩,⟨256,.lf,false,some ⟨23,[],none,false⟩⟩,⟨256,.vt,false,some ⟨23,[],none,false⟩⟩,⟨256,.ff,false,some ⟨23,[],none,false⟩⟩,⟨256,.cr,false,some ⟨23,[],none,false⟩⟩,⟨256,.cr,true,some ⟨23,[],none,false⟩⟩,⟨47,.other,false,some ⟨33,[],none,false⟩⟩,⟨60,.other,false,some ⟨23,[],none,false⟩⟩,⟨62,.other,false,none⟩,⟨256,.other,false,some ⟨27,[],none,false⟩⟩,⟨256,.other,false,some ⟨25,[],none,false⟩⟩]⟩,⟨[6,11],none,[],[⟨256,.other,false,some ⟨22,[],none,false⟩⟩,⟨256,.ws,false,some ⟨22,[],none,false⟩⟩,⟨256,.lf,false,some ⟨22,[],none,false⟩⟩,⟨256,.vt,false,some ⟨22,[],none,false⟩⟩,⟨256,.ff,false,some ⟨22,[],none,false⟩⟩,⟨256,.cr,false,some ⟨22,[],none,false⟩⟩,⟨256,.cr,true,some ⟨22,[],none,false⟩⟩,⟨47,.other,false,some ⟨22,[],none,false⟩⟩,⟨60,.other,false,some ⟨22,[],none,false⟩⟩,⟨62,.other,false,none⟩,⟨256,.other,false,some ⟨34,[],none,false⟩⟩,⟨256,.other,false,some ⟨24,[],none,false⟩⟩]⟩,⟨[24,29],none,[],[⟨256,.other,false,some ⟨23,[],none,false⟩⟩,⟨256,.ws,false,some ⟨23,[],none,false⟩⟩,⟨256,.lf,false,some ⟨23,[],none,false⟩⟩,⟨256,.vt,false,some ⟨23,[],none,false⟩⟩,⟨256,.ff,false,some ⟨23,[],none,false⟩⟩,⟨256,.cr,false,some ⟨23,[],none,false⟩⟩,⟨256,.cr,true,some ⟨23,[],none,false⟩⟩,⟨47,.other,false,some ⟨23,[],none,false⟩⟩,⟨60,.other,false,some ⟨23,[],none,false⟩⟩,⟨62,.other,false,none⟩,⟨256,.other,false,some ⟨35,[],none,false⟩⟩,⟨256,.other,false,some ⟨25,[],none,false⟩⟩]⟩,⟨[6,12],none,[],[⟨256,.other,false,some ⟨22,[],none,false⟩⟩,⟨256,.ws,false,some ⟨22,[],none,false⟩⟩,⟨256,.lf,false,some ⟨22,[],none,false⟩⟩,⟨256,.vt,false,some ⟨22,[],none,false⟩⟩,⟨256,.ff,false,some ⟨22,[],none,false⟩⟩,⟨256,.cr,false,some ⟨22,[],none,false⟩⟩,⟨256,.cr,true,some ⟨22,[],none,false⟩⟩,⟨47,.other,false,some ⟨22,[],none,false⟩⟩,⟨60,.other,false,some ⟨22,[],none,false⟩⟩,⟨62,.other,false,none⟩,⟨256,.other,false,some ⟨36,[],none,false⟩⟩,⟨256,.other,false,some ⟨24,[],none,false⟩⟩]⟩,⟨[24,30],none,[],[⟨256,.other,false,some ⟨23,[],none,false⟩⟩,⟨256,.ws,false,some ⟨23,[],none,false⟩⟩,⟨256,.lf,false,some ⟨23,[],none,false⟩⟩,⟨256,.vt,false,some ⟨23,[],none,false⟩⟩,⟨256,.ff,false,some ⟨23,[],none,false⟩⟩,⟨256,.cr,false,some ⟨23,[],none,false⟩⟩,⟨256,.cr,true,some ⟨23,[],none,false⟩⟩,⟨47,.other,false,some ⟨23,[],none,false⟩⟩,⟨60,.other,false,some ⟨23,[],none,false⟩⟩,⟨62,.other,false,none⟩,⟨256,.other,false,some ⟨37,[],none,false⟩⟩,⟨256,.other,false,some ⟨25,[],none,false⟩⟩]⟩,⟨[6,13],none,[],[⟨256,.other,false,some ⟨22,[],none,false⟩⟩,⟨256,.ws,false,some ⟨22,[],none,false⟩⟩,⟨256,.lf,false,some ⟨22,[],none,false⟩⟩,⟨256,.vt,false,some ⟨22,[],none,false⟩⟩,⟨256,.ff,false,some ⟨22,[],none,false⟩⟩,⟨256,.cr,false,some ⟨22,[],none,false⟩⟩,⟨256,.cr,true,some ⟨22,[],none,false⟩⟩,⟨47,.other,false,some ⟨22,[],none,false⟩⟩,⟨60,.other,false,some ⟨22,[],none,false⟩⟩,⟨62,.other,false,none⟩,⟨256,.other,false,some ⟨38,[],none,false⟩⟩,⟨256,.other,false,some ⟨24,[],none,false⟩⟩]⟩,⟨[24,31],none,[],[⟨256,.other,false,some ⟨23,[],none,false⟩⟩,⟨256,.ws,false,some ⟨23,[],none,false⟩⟩,⟨256,.lf,false,some ⟨23,[],none,false⟩⟩,⟨256,.vt,false,some ⟨23,[],none,false⟩⟩,⟨256,.ff,false,some ⟨23,[],none,false⟩⟩,⟨256,.cr,false,some ⟨23,[],none,false⟩⟩,⟨256,.cr,true,some ⟨23,[],none,false⟩⟩,⟨47,.other,false,some ⟨23,[],none,false⟩⟩,⟨60,.other,false,some ⟨23,[],none,false⟩⟩,⟨62,.other,false,none⟩,⟨256,.other,false,some ⟨25,[],none,false⟩⟩,⟨256,.other,false,some ⟨39,[],none,false⟩⟩]⟩,⟨[14],none,[],[⟨256,.other,false,some ⟨40,[],none,false⟩⟩,⟨256,.ws,false,some ⟨40,[],none,false⟩⟩,⟨256,.lf,false,some ⟨40,[],none,false⟩⟩,⟨256,.vt,false,some ⟨40,[],none,false⟩⟩,⟨256,.ff,false,some ⟨40,[],none,false⟩⟩,⟨256,.cr,false,some ⟨40,[],none,false⟩⟩,⟨256,.cr,true,some ⟨40,[],none,false⟩⟩,⟨47,.other,false,some ⟨40,[],none,false⟩⟩,⟨60,.other,false,some ⟨40,[],none,false⟩⟩,⟨62,.other,false,none⟩]⟩,⟨[24,32],none,[],[⟨256,.other,false,some ⟨23,[],none,false⟩⟩,⟨256,.ws,false,some ⟨23,[],none,false⟩⟩,⟨256,.lf,false,some ⟨23,[],none,false⟩⟩,⟨256,.vt,false,some ⟨23,[],none,false⟩⟩,⟨256,.ff,false,some ⟨23,[],none,false⟩⟩,⟨256,.cr,false,some ⟨23,[],none,false⟩⟩,⟨256,.cr,true,some ⟨23,[],none,false⟩⟩,⟨47,.other,false,some ⟨23,[],none,false⟩⟩,⟨60,.other,false,some ⟨23,[],none,false⟩⟩,⟨62,.other,false,none⟩,⟨256,.other,false,some ⟨41,[],none,false⟩⟩,⟨256,.other,false,some ⟨25,[],none,false⟩⟩]⟩,⟨[15],none,[],[⟨256,.other,false,some ⟨40,[],none,false⟩⟩,⟨256,.ws,false,some ⟨40,[],none,false⟩⟩,⟨256,.lf,false,some ⟨40,[],none,false⟩⟩,⟨256,.vt,false,some ⟨40,[],none,false⟩⟩,⟨256,.ff,false,some ⟨40,[],none,false⟩⟩,⟨256,.cr,false,some ⟨40,[],none,false⟩⟩,⟨256,.cr,true,some ⟨40,[],none,false⟩⟩,⟨47,.other,false,some ⟨40,[],none,false⟩⟩,⟨60,.other,false,some ⟨40,[],none,false⟩⟩,⟨62,.other,false,some ⟨0,[],some 0,true⟩⟩]⟩,⟨[24,33],none,[],[⟨256,.other,false,some ⟨23,[],none,false⟩⟩,⟨256,.ws,false,some ⟨23,[],none,false⟩⟩,⟨256,.lf,false,some ⟨23,[],none,false⟩⟩,⟨256,.vt,false,some ⟨23,[],none,false⟩⟩,⟨256,.ff,false,some ⟨23,[],none,false⟩⟩,⟨256,.cr,false,some ⟨23,[],none,false⟩⟩,⟨256,.cr,true,some ⟨23,[],none,false⟩⟩,⟨47,.other,false,some ⟨23,[],none,false⟩⟩,⟨60,.other,false,some ⟨23,[],none,false⟩⟩,⟨62,.other,false,none⟩,⟨256,.other,false,some ⟨42,[],none,false⟩⟩,⟨256,.other,false,some ⟨25,[],none,false⟩⟩]⟩,⟨[24,34],none,[],[⟨256,.other,false,some ⟨23,[],none,false⟩⟩,⟨256,.ws,false,some ⟨23,[],none,false⟩⟩,⟨256,.lf,false,some ⟨23,[],none,false⟩⟩,⟨256,.vt,false,some ⟨23,[],none,false⟩⟩,⟨256,.ff,false,some ⟨23,[],none,false⟩⟩,⟨256,.cr,false,some ⟨23,[],none,false⟩⟩,⟨256,.cr,true,some ⟨23,[],none,false⟩⟩,⟨47,.other,false,some ⟨23,[],none,false⟩⟩,⟨60,.other,false,some ⟨23,[],none,false⟩⟩,⟨62,.other,false,none⟩,⟨256,.other,false,some ⟨43,[],none,false⟩⟩,⟨256,.other,false,some ⟨25,[],none,false⟩⟩]⟩,⟨[24,35],none,[],[⟨256,.other,false,some ⟨23,[],none,false⟩⟩,⟨256,.ws,false,some ⟨23,[],none,false⟩⟩,⟨256,.lf,false,some ⟨23,[],none,false⟩⟩,⟨256,.vt,false,some ⟨23,[],none,false⟩⟩,⟨256,.ff,false,some ⟨23,[],none,false⟩⟩,⟨256,.cr,false,some ⟨23,[],none,false⟩⟩,⟨256,.cr,true,some ⟨23,[],none,false⟩⟩,⟨47,.other,false,some ⟨23,[],none,false⟩⟩,⟨60,.other,false,some ⟨23,[],none,false⟩⟩,⟨62,.other,false,none⟩,⟨256,.other,false,some ⟨44,[],none,false⟩⟩,⟨256,.other,false,some ⟨25,[],none,false⟩⟩]⟩,⟨[24,36],none,[],[⟨256,.other,false,some ⟨23,[],none,false⟩⟩,⟨256,.ws,false,some ⟨23,[],none,false⟩⟩,⟨256,.lf,false,some ⟨23,[],none,false⟩⟩,⟨256,.vt,false,some ⟨23,[],none,false⟩⟩,⟨256,.ff,false,some ⟨23,[],none,false⟩⟩,⟨256,.cr,false,some ⟨23,[],none,false⟩⟩,⟨256,.cr,true,some ⟨23,[],none,false⟩⟩,⟨47,.other,false,some ⟨23,[],none,false⟩⟩,⟨60,.other,false,some ⟨23,[],none,false⟩⟩,⟨62,.other,false,none⟩,⟨256,.other,false,some ⟨45,[],none,false⟩⟩,⟨256,.other,false,some ⟨25,[],none,false⟩⟩]⟩,⟨[24,37],none,[],[⟨256,.other,false,some ⟨23,[],none,false⟩⟩,⟨256,.ws,false,some ⟨23,[],none,false⟩⟩,⟨256,.lf,false,some ⟨23,[],none,false⟩⟩,⟨256,.vt,false,some ⟨23,[],none,false⟩⟩,⟨256,.ff,false,some ⟨23,[],none,false⟩⟩,⟨256,.cr,false,some ⟨23,[],none,false⟩⟩,⟨256,.cr,true,some ⟨23,[],none,false⟩⟩,⟨47,.other,false,some ⟨23,[],none,false⟩⟩,⟨60,.other,false,some ⟨23,[],none,false⟩⟩,⟨62,.other,false,none⟩,⟨256,.other,false,some ⟨46,[],none,false⟩⟩,⟨256,.other,false,some ⟨25,[],none,false⟩⟩]⟩,⟨[24,38],none,[],[⟨256,.other,false,some ⟨23,[],none,false⟩⟩,⟨256,.ws,false,some ⟨23,[],none,false⟩⟩,⟨256,.lf,false,some ⟨23,[],none,false⟩⟩,⟨256,.vt,false,some ⟨23,[],none,false⟩⟩,⟨256,.ff,false,some ⟨23,[],none,false⟩⟩,⟨256,.cr,false,some ⟨23,[],none,false⟩⟩,⟨256,.cr,true,some ⟨23,[],none,false⟩⟩,⟨47,.other,false,some ⟨23,[],none,false⟩⟩,⟨60,.other,false,some ⟨23,[],none,false⟩⟩,⟨62,.other,false,none⟩,⟨256,.other,false,some ⟨47,[],none,false⟩⟩]⟩,⟨[39],none,[],[⟨256,.other,false,some ⟨48,[],none,false⟩⟩,⟨256,.ws,false,some ⟨48,[],none,false⟩⟩,⟨256,.lf,false,some ⟨48,[],none,false⟩⟩,⟨256,.vt,false,some ⟨48,[],none,false⟩⟩,⟨256,.ff,false,some ⟨48,[],none,false⟩⟩,⟨256,.cr,false,some ⟨48,[],none,false⟩⟩,⟨256,.cr,true,some ⟨48,[],none,false⟩⟩,⟨47,.other,false,some ⟨48,[],none,false⟩⟩,⟨60,.other,false,some ⟨48,[],none,false⟩⟩,⟨62,.other,false,none⟩]⟩,⟨[40],none,[],[⟨256,.other,false,some ⟨48,[],none,false⟩⟩,⟨256,.ws,false,some ⟨48,[],none,false⟩⟩,⟨256,.lf,false,some ⟨48,[],none,false⟩⟩,⟨256,.vt,false,some ⟨48,[],none,false⟩⟩,⟨256,.ff,false,some ⟨48,[],none,false⟩⟩,⟨256,.cr,false,some ⟨48,[],none,false⟩⟩,⟨256,.cr,true,some ⟨48,[],none,false⟩⟩,⟨47,.other,false,some ⟨48,[],none,false⟩⟩,⟨60,.other,false,some ⟨48,[],none,false⟩⟩,⟨62,.other,false,some ⟨0,[],some 1,true⟩⟩]⟩]
theorem emb38_rowsOkt : rowsOk emb38_nfa [47, 60, 62] (emb38_cst.map (·.1)) emb38_rowst = true := by decide +kernel
def emb38_Dt : Dfa emb38_nfa := ⟨emb38_maskst, [47, 60, 62], emb38_cst, emb38_rowst, emb38_masksInt, emb38_repOkt, emb38_rowsOkt⟩

/-- The automaton of `Emb.Clearsilverhtml.cshtml_dq_str`. -/
def emb41_nfa : Nfa := ⟨[⟨0,1152921504606846976,[],[],0,0⟩,⟨4,8192,[],[],0,0⟩,⟨6,1024,[],[],0,0⟩,⟨7,4096,[],[],0,0⟩,⟨8,8192,[.crAlone],[],0,0⟩,⟨9,4294967808,[],[],0,0⟩,⟨10,115792089237316195423570985008687907853269984665635612279299289565287451445759,[],[(3,.code)],0,0⟩,⟨11,4951760157141521099596496896,[],[],0,0⟩,⟨13,1152921504606846976,[],[],0,0⟩,⟨24,17179869184,[],[(5,.emb (.goto 6))],0,0⟩],[[⟨1,9223372036854775808,[],[],0,0⟩],[⟨2,633825300114114700748351602688,[],[],0,0⟩],[⟨3,41538374868278621028243970633760768,[],[(0,.emb (.sawCall 3 5))],0,0⟩],[⟨0,1152921504606846976,[],[],0,0⟩,⟨4,8192,[],[],0,0⟩,⟨6,1024,[],[],0,0⟩,⟨7,4096,[],[],0,0⟩,⟨8,8192,[.crAlone],[],0,0⟩,⟨9,4294967808,[],[],0,0⟩,⟨10,115792089237316195423570985008687907853269984665635612279299289565287451445759,[],[(3,.code)],0,0⟩,⟨11,4951760157141521099596496896,[],[],0,0⟩,⟨13,1152921504606846976,[],[],0,0⟩,⟨24,17179869184,[],[(5,.emb (.goto 6))],0,0⟩],[⟨5,1024,[],[],0,0⟩],[⟨0,1152921504606846976,[],[(1,.setEnt .internalNl),(2,.cb)],0,0⟩,⟨4,8192,[],[(1,.setEnt .internalNl),(2,.cb)],0,0⟩,⟨6,1024,[],[(1,.setEnt .internalNl),(2,.cb)],0,0⟩,⟨7,4096,[],[(1,.setEnt .internalNl),(2,.cb)],0,0⟩,⟨8,8192,[.crAlone],[(1,.setEnt .internalNl),(2,.cb)],0,0⟩,⟨9,4294967808,[],[(1,.setEnt .internalNl),(2,.cb)],0,0⟩,⟨10,115792089237316195423570985008687907853269984665635612279299289565287451445759,[],[(1,.setEnt .internalNl),(2,.cb),(3,.code)],0,0⟩,⟨11,4951760157141521099596496896,[],[(1,.setEnt .internalNl),(2,.cb)],0,0⟩,⟨13,1152921504606846976,[],[(1,.setEnt .internalNl),(2,.cb)],0,0⟩,⟨24,17179869184,[],[(1,.setEnt .internalNl),(2,.cb),(5,.emb (.goto 6))],0,0⟩],[⟨0,1152921504606846976,[],[(1,.setEnt .internalNl),(2,.cb)],0,0⟩,⟨4,8192,[],[(1,.setEnt .internalNl),(2,.cb)],0,0⟩,⟨6,1024,[],[(1,.setEnt .internalNl),(2,.cb)],0,0⟩,⟨7,4096,[],[(1,.setEnt .internalNl),(2,.cb)],0,0⟩,⟨8,8192,[.crAlone],[(1,.setEnt .internalNl),(2,.cb)],0,0⟩,⟨9,4294967808,[],[(1,.setEnt .internalNl),(2,.cb)],0,0⟩,⟨10,115792089237316195423570985008687907853269984665635612279299289565287451445759,[],[(1,.setEnt .internalNl),(2,.cb),(3,.code)],0,0⟩,⟨11,4951760157141521099596496896,[],[(1,.setEnt .internalNl),(2,.cb)],0,0⟩,⟨13,1152921504606846976,[],[(1,.setEnt .internalNl),(2,.cb)],0,0⟩,⟨24,17179869184,[],[(1,.setEnt .internalNl),(2,.cb),(5,.emb (.goto 6))],0,0⟩],[⟨0,1152921504606846976,[],[(1,.setEnt .internalNl),(2,.cb)],0,0⟩,⟨4,8192,[],[(1,.setEnt .internalNl),(2,.cb)],0,0⟩,⟨6,1024,[],[(1,.setEnt .internalNl),(2,.cb)],0,0⟩,⟨7,4096,[],[(1,.setEnt .internalNl),(2,.cb)],0,0⟩,⟨8,8192,[.crAlone],[(1,.setEnt .internalNl),(2,.cb)],0,0⟩,⟨9,4294967808,[],[(1,.setEnt .internalNl),(2,.cb)],0,0⟩,⟨10,115792089237316195423570985008687907853269984665635612279299289565287451445759,[],[(1,.setEnt .internalNl),(2,.cb),(3,.code)],0,0⟩,⟨11,4951760157141521099596496896,[],[(1,.setEnt .internalNl),(2,.cb)],0,0⟩,⟨13,1152921504606846976,[],[(1,.setEnt .internalNl),(2,.cb)],0,0⟩,⟨24,17179869184,[],[(1,.setEnt .internalNl),(2,.cb),(5,.emb (.goto 6))],0,0⟩],[⟨0,1152921504606846976,[],[(1,.setEnt .internalNl),(2,.cb)],0,0⟩,⟨4,8192,[],[(1,.setEnt .internalNl),(2,.cb)],0,0⟩,⟨6,1024,[],[(1,.setEnt .internalNl),(2,.cb)],0,0⟩,⟨7,4096,[],[(1,.setEnt .internalNl),(2,.cb)],0,0⟩,⟨8,8192,[.crAlone],[(1,.setEnt .internalNl),(2,.cb)],0,0⟩,⟨9,4294967808,[],[(1,.setEnt .internalNl),(2,.cb)],0,0⟩,⟨10,115792089237316195423570985008687907853269984665635612279299289565287451445759,[],[(1,.setEnt .internalNl),(2,.cb),(3,.code)],0,0⟩,⟨11,4951760157141521099596496896,[],[(1,.setEnt .internalNl),(2,.cb)],0,0⟩,⟨13,1152921504606846976,[],[(1,.setEnt .internalNl),(2,.cb)],0,0⟩,⟨24,17179869184,[],[(1,.setEnt .internalNl),(2,.cb),(5,.emb (.goto 6))],0,0⟩],[⟨0,1152921504606846976,[],[],0,0⟩,⟨4,8192,[],[],0,0⟩,⟨6,1024,[],[],0,0⟩,⟨7,4096,[],[],0,0⟩,⟨8,8192,[.crAlone],[],0,0⟩,⟨9,4294967808,[],[],0,0⟩,⟨10,115792089237316195423570985008687907853269984665635612279299289565287451445759,[],[(3,.code)],0,0⟩,⟨11,4951760157141521099596496896,[],[],0,0⟩,⟨13,1152921504606846976,[],[],0,0⟩,⟨24,17179869184,[],[(5,.emb (.goto 6))],0,0⟩],[⟨0,1152921504606846976,[],[],0,0⟩,⟨4,8192,[],[],0,0⟩,⟨6,1024,[],[],0,0⟩,⟨7,4096,[],[],0,0⟩,⟨8,8192,[.crAlone],[],0,0⟩,⟨9,4294967808,[],[],0,0⟩,⟨10,115792089237316195423570985008687907853269984665635612279299289565287451445759,[],[(3,.code)],0,0⟩,⟨11,4951760157141521099596496896,[],[],0,0⟩,⟨13,1152921504606846976,[],[],0,0⟩,⟨24,17179869184,[],[(5,.emb (.goto 6))],0,0⟩],[⟨12,115792089237316195423570985008687907853269984665640564039457584007913129626623,[],[(4,.code)],0,0⟩],[⟨0,1152921504606846976,[],[],0,0⟩,⟨4,8192,[],[],0,0⟩,⟨6,1024,[],[],0,0⟩,⟨7,4096,[],[],0,0⟩,⟨8,8192,[.crAlone],[],0,0⟩,⟨9,4294967808,[],[],0,0⟩,⟨10,115792089237316195423570985008687907853269984665635612279299289565287451445759,[],[(3,.code)],0,0⟩,⟨11,4951760157141521099596496896,[],[],0,0⟩,⟨13,1152921504606846976,[],[],0,0⟩,⟨24,17179869184,[],[(5,.emb (.goto 6))],0,0⟩],[⟨14,115792089237316195423570985008687907853269984665640564039448360635876274864127,[],[],0,0⟩,⟨15,9223372036854775808,[],[],0,0⟩,⟨22,9223372036854775808,[],[],0,0⟩,⟨0,1152921504606846976,[],[],0,0⟩,⟨4,8192,[],[],0,0⟩,⟨6,1024,[],[],0,0⟩,⟨7,4096,[],[],0,0⟩,⟨8,8192,[.crAlone],[],0,0⟩,⟨9,4294967808,[],[],0,0⟩,⟨10,115792089237316195423570985008687907853269984665635612279299289565287451445759,[],[(3,.code)],0,0⟩,⟨11,4951760157141521099596496896,[],[],0,0⟩,⟨13,1152921504606846976,[],[],0,0⟩,⟨24,17179869184,[],[(5,.emb (.goto 6))],0,0⟩],[⟨21,115792089237316195423570985008687907853269984665640564039457584007913129639935,[],[],0,0⟩,⟨0,1152921504606846976,[],[],0,0⟩,⟨4,8192,[],[],0,0⟩,⟨6,1024,[],[],0,0⟩,⟨7,4096,[],[],0,0⟩,⟨8,8192,[.crAlone],[],0,0⟩,⟨9,4294967808,[],[],0,0⟩,⟨10,115792089237316195423570985008687907853269984665635612279299289565287451445759,[],[(3,.code)],0,0⟩,⟨11,4951760157141521099596496896,[],[],0,0⟩,⟨13,1152921504606846976,[],[],0,0⟩,⟨24,17179869184,[],[(5,.emb (.goto 6))],0,0⟩],[⟨16,115792089237316195423570985008687907853269984665006738739343469307164778037247,[],[],0,0⟩,⟨17,633825300114114700748351602688,[],[],0,0⟩],[⟨21,115792089237316195423570985008687907853269984665640564039457584007913129639935,[],[],0,0⟩,⟨0,1152921504606846976,[],[],0,0⟩,⟨4,8192,[],[],0,0⟩,⟨6,1024,[],[],0,0⟩,⟨7,4096,[],[],0,0⟩,⟨8,8192,[.crAlone],[],0,0⟩,⟨9,4294967808,[],[],0,0⟩,⟨10,115792089237316195423570985008687907853269984665635612279299289565287451445759,[],[(3,.code)],0,0⟩,⟨11,4951760157141521099596496896,[],[],0,0⟩,⟨13,1152921504606846976,[],[],0,0⟩,⟨24,17179869184,[],[(5,.emb (.goto 6))],0,0⟩],[⟨18,115792089237316195423570985008687907853269943127265695760836555763942495879167,[],[],0,0⟩,⟨19,41538374868278621028243970633760768,[],[],0,0⟩],[⟨21,115792089237316195423570985008687907853269984665640564039457584007913129639935,[],[],0,0⟩,⟨0,1152921504606846976,[],[],0,0⟩,⟨4,8192,[],[],0,0⟩,⟨6,1024,[],[],0,0⟩,⟨7,4096,[],[],0,0⟩,⟨8,8192,[.crAlone],[],0,0⟩,⟨9,4294967808,[],[],0,0⟩,⟨10,115792089237316195423570985008687907853269984665635612279299289565287451445759,[],[(3,.code)],0,0⟩,⟨11,4951760157141521099596496896,[],[],0,0⟩,⟨13,1152921504606846976,[],[],0,0⟩,⟨24,17179869184,[],[(5,.emb (.goto 6))],0,0⟩],[⟨20,115792089237316195423570985008687907853269984665640564039457584007913129639935,[],[],0,0⟩],[⟨21,115792089237316195423570985008687907853269984665640564039457584007913129639935,[],[],0,0⟩,⟨0,1152921504606846976,[],[],0,0⟩,⟨4,8192,[],[],0,0⟩,⟨6,1024,[],[],0,0⟩,⟨7,4096,[],[],0,0⟩,⟨8,8192,[.crAlone],[],0,0⟩,⟨9,4294967808,[],[],0,0⟩,⟨10,115792089237316195423570985008687907853269984665635612279299289565287451445759,[],[(3,.code)],0,0⟩,⟨11,4951760157141521099596496896,[],[],0,0⟩,⟨13,1152921504606846976,[],[],0,0⟩,⟨24,17179869184,[],[(5,.emb (.goto 6))],0,0⟩],[⟨21,115792089237316195423570985008687907853269984665640564039457584007913129639935,[],[],0,0⟩,⟨0,1152921504606846976,[],[],0,0⟩,⟨4,8192,[],[],0,0⟩,⟨6,1024,[],[],0,0⟩,⟨7,4096,[],[],0,0⟩,⟨8,8192,[.crAlone],[],0,0⟩,⟨9,4294967808,[],[],0,0⟩,⟨10,115792089237316195423570985008687907853269984665635612279299289565287451445759,[],[(3,.code)],0,0⟩,⟨11,4951760157141521099596496896,[],[],0,0⟩,⟨13,1152921504606846976,[],[],0,0⟩,⟨24,17179869184,[],[(5,.emb (.goto 6))],0,0⟩],[⟨23,633825300114114700748351602688,[],[],0,0⟩,⟨0,1152921504606846976,[],[],0,0⟩,⟨4,8192,[],[],0,0⟩,⟨6,1024,[],[],0,0⟩,⟨7,4096,[],[],0,0⟩,⟨8,8192,[.crAlone],[],0,0⟩,⟨9,4294967808,[],[],0,0⟩,⟨10,115792089237316195423570985008687907853269984665635612279299289565287451445759,[],[(3,.code)],0,0⟩,⟨11,4951760157141521099596496896,[],[],0,0⟩,⟨13,1152921504606846976,[],[],0,0⟩,⟨24,17179869184,[],[(5,.emb (.goto 6))],0,0⟩],[⟨0,1152921504606846976,[],[],0,0⟩,⟨4,8192,[],[],0,0⟩,⟨6,1024,[],[],0,0⟩,⟨7,4096,[],[],0,0⟩,⟨8,8192,[.crAlone],[],0,0⟩,⟨9,4294967808,[],[],0,0⟩,⟨10,115792089237316195423570985008687907853269984665635612279299289565287451445759,[],[(3,.code)],0,0⟩,⟨11,4951760157141521099596496896,[],[],0,0⟩,⟨13,1152921504606846976,[],[],0,0⟩,⟨24,17179869184,[],[(5,.emb (.goto 6))],0,0⟩],[]],[none,none,none,none,none,none,none,none,none,none,none,none,none,none,none,none,none,none,none,none,none,none,none,none,some (0,[])],[6]⟩
def emb41_masks : List Nat := [1152921504606846976,8192,1024,4096,4294967808,115792089237316195423570985008687907853269984665635612279299289565287451445759,4951760157141521099596496896,17179869184,9223372036854775808,633825300114114700748351602688,41538374868278621028243970633760768,115792089237316195423570985008687907853269984665640564039457584007913129626623,115792089237316195423570985008687907853269984665640564039448360635876274864127,115792089237316195423570985008687907853269984665640564039457584007913129639935,115792089237316195423570985008687907853269984665006738739343469307164778037247,115792089237316195423570985008687907853269943127265695760836555763942495879167]
def emb41_cs : List (Nat × Nat) := [(0,115792089237316195423570985008687907853269943126626918700554923248531611304447),(9,4294967808),(10,1024),(11,2048),(12,4096),(13,8192),(34,17179869184),(60,1152921504606846976),(63,9223372036854775808),(92,4951760157141521099596496896),(99,633825300114114700748351602688),(115,41538374868278621028243970633760768)]
theorem emb41_masksIn : masksIn emb41_nfa emb41_masks = true := by decide +kernel
theorem emb41_repOk : repOk emb41_masks emb41_cs = true := by decide +kernel
def emb41_rows : List Row := [⟨[],none,[],[⟨256,.other,false,some ⟨1,[.code],none,false⟩⟩,⟨256,.ws,false,some ⟨2,[],none,false⟩⟩,⟨256,.lf,false,some ⟨3,[],none,false⟩⟩,⟨256,.vt,false,some ⟨1,[.code],none,false⟩⟩,⟨256,.ff,false,some ⟨4,[],none,false⟩⟩,⟨256,.cr,false,some ⟨5,[],none,false⟩⟩,⟨256,.cr,true,some ⟨6,[],none,false⟩⟩,⟨256,.other,false,some ⟨0,[.emb (.goto 6)],some 0,true⟩⟩,⟨256,.other,false,some ⟨7,[],none,false⟩⟩,⟨256,.other,false,some ⟨8,[],none,false⟩⟩]⟩,⟨[10],none,[],[⟨256,.other,false,some ⟨1,[.code],none,false⟩⟩,⟨256,.ws,false,some ⟨2,[],none,false⟩⟩,⟨256,.lf,false,some ⟨3,[],none,false⟩⟩,⟨256,.vt,false,some ⟨1,[.code],none,false⟩⟩,⟨256,.ff,false,some ⟨4,[],none,false⟩⟩,⟨256,.cr,false,some ⟨5,[],none,false⟩⟩,⟨256,.cr,true,some ⟨6,[],none,false⟩⟩,⟨256,.other,false,some ⟨0,[.emb (.goto 6)],some 0,true⟩⟩,⟨256,.other,false,some ⟨7,[],none,false⟩⟩,⟨256,.other,false,some ⟨8,[],none,false⟩⟩]⟩,⟨[9],none,[],[⟨256,.other,false,some ⟨1,[.code],none,false⟩⟩,⟨256,.ws,false,some ⟨2,[],none,false⟩⟩,⟨256,.lf,false,some ⟨3,[],none,false⟩⟩,⟨256,.vt,false,some ⟨1,[.code],none,false⟩⟩,⟨256,.ff,false,some ⟨4,[],none,false⟩⟩,⟨256,.cr,false,some ⟨5,[],none,false⟩⟩,⟨256,.cr,true,some ⟨6,[],none,false⟩⟩,⟨256,.other,false,some ⟨0,[.emb (.goto 6)],some 0,true⟩⟩,⟨256,.other,false,some ⟨7,[],none,false⟩⟩,⟨256,.other,false,some ⟨8,[],none,false⟩⟩]⟩,⟨[6],none,[],[⟨256,.other,false,some ⟨1,[.setEnt .internalNl,.cb,.code],none,false⟩⟩,⟨256,.ws,false,some ⟨2,[.setEnt .internalNl,.cb],none,false⟩⟩,⟨256,.lf,false,some ⟨3,[.setEnt .internalNl,.cb],none,false⟩⟩,⟨256,.vt,false,some ⟨1,[.setEnt .internalNl,.cb,.code],none,false⟩⟩,⟨256,.ff,false,some ⟨4,[.setEnt .internalNl,.cb],none,false⟩⟩,⟨256,.cr,false,some ⟨5,[.setEnt .internalNl,.cb],none,false⟩⟩,⟨256,.cr,true,some ⟨6,[.setEnt .internalNl,.cb],none,false⟩⟩,⟨256,.other,false,some ⟨0,[.setEnt .internalNl,.cb,.emb (.goto 6)],some 0,true⟩⟩,⟨256,.other,false,some ⟨7,[.setEnt .internalNl,.cb],none,false⟩⟩,⟨256,.other,false,some ⟨8,[.setEnt .internalNl,.cb],none,false⟩⟩]⟩,⟨[7],none,[],[⟨256,.other,false,some ⟨1,[.setEnt .internalNl,.cb,.code],none,false⟩⟩,⟨256,.ws,false,some ⟨2,[.setEnt .internalNl,.cb],none,false⟩⟩,⟨256,.lf,false,some ⟨3,[.setEnt .internalNl,.cb],none,false⟩⟩,⟨256,.vt,false,some ⟨1,[.setEnt .internalNl,.cb,.code],none,false⟩⟩,⟨256,.ff,false,some ⟨4,[.setEnt .internalNl,.cb],none,false⟩⟩,⟨256,.cr,false,some ⟨5,[.setEnt .internalNl,.cb],none,false⟩⟩,⟨256,.cr,true,some ⟨6,[.setEnt .internalNl,.cb],none,false⟩⟩,⟨256,.other,false,some ⟨0,[.setEnt .internalNl,.cb,.emb (.goto 6)],some 0,true⟩⟩,⟨256,.other,false,some ⟨7,[.setEnt .internalNl,.cb],none,false⟩⟩,⟨256,.other,false,some ⟨8,[.setEnt .internalNl,.cb],none,false⟩⟩]⟩,⟨[4],none,[],[⟨256,.other,false,none⟩,⟨256,.ws,false,none⟩,⟨256,.lf,false,some ⟨9,[],none,false⟩⟩,⟨256,.vt,false,none⟩,⟨256,.ff,false,none⟩,⟨256,.cr,false,none⟩,⟨256,.cr,true,none⟩]⟩,⟨[4,8],none,[],[⟨256,.other,false,some ⟨1,[.setEnt .internalNl,.cb,.code],none,false⟩⟩,⟨256,.ws,false,some ⟨2,[.setEnt .internalNl,.cb],none,false⟩⟩,⟨256,.lf,false,some ⟨10,[.setEnt .internalNl,.cb],none,false⟩⟩,⟨256,.vt,false,some ⟨1,[.setEnt .internalNl,.cb,.code],none,false⟩⟩,⟨256,.ff,false,some ⟨4,[.setEnt .internalNl,.cb],none,false⟩⟩,⟨256,.cr,false,some ⟨5,[.setEnt .internalNl,.cb],none,false⟩⟩,⟨256,.cr,true,some ⟨6,[.setEnt .internalNl,.cb],none,false⟩⟩,⟨256,.other,false,some ⟨0,[.setEnt .internalNl,.cb,.emb (.goto 6)],some 0,true⟩⟩,⟨256,.other,false,some ⟨7,[.setEnt .internalNl,.cb],none,false⟩⟩,⟨256,.other,false,some ⟨8,[.setEnt .internalNl,.cb],none,false⟩⟩]⟩,⟨[0,13],none,[],[⟨256,.other,false,some ⟨11,[.code],none,false⟩⟩,⟨256,.ws,false,some ⟨12,[],none,false⟩⟩,⟨256,.lf,false,some ⟨13,[],none,false⟩⟩,⟨256,.vt,false,some ⟨11,[.code],none,false⟩⟩,⟨256,.ff,false,some ⟨14,[],none,false⟩⟩,⟨256,.cr,false,some ⟨15,[],none,false⟩⟩,⟨256,.cr,true,some ⟨16,[],none,false⟩⟩,⟨256,.other,false,some ⟨17,[.emb (.goto 6)],some 0,false⟩⟩,⟨256,.other,false,some ⟨18,[],none,false⟩⟩,⟨256,.other,false,some ⟨19,[.code],none,false⟩⟩,⟨256,.other,false,some ⟨20,[],none,false⟩⟩]⟩,⟨[11],none,[],[⟨256,.other,false,some ⟨21,[.code],none,false⟩⟩,⟨256,.ws,false,some ⟨21,[.code],none,false⟩⟩,⟨256,.lf,false,none⟩,⟨256,.vt,false,some ⟨21,[.code],none,false⟩⟩,⟨256,.ff,false,none⟩,⟨256,.cr,false,none⟩,⟨256,.cr,true,none⟩]⟩,⟨[5],none,[],[⟨256,.other,false,some ⟨1,[.setEnt .internalNl,.cb,.code],none,false⟩⟩,⟨256,.ws,false,some ⟨2,[.setEnt .internalNl,.cb],none,false⟩⟩,⟨256,.lf,false,some ⟨3,[.setEnt .internalNl,.cb],none,false⟩⟩,⟨256,.vt,false,some ⟨1,[.setEnt .internalNl,.cb,.code],none,false⟩⟩,⟨256,.ff,false,some ⟨4,[.setEnt .internalNl,.cb],none,false⟩⟩,⟨256,.cr,false,some ⟨5,[.setEnt .internalNl,.cb],none,false⟩⟩,⟨256,.cr,true,some ⟨6,[.setEnt .internalNl,.cb],none,false⟩⟩,⟨256,.other,false,some ⟨0,[.setEnt .internalNl,.cb,.emb (.goto 6)],some 0,true⟩⟩,⟨256,.other,false,some ⟨7,[.setEnt .internalNl,.cb],none,false⟩⟩,⟨256,.other,false,some ⟨8,[.setEnt .internalNl,.cb],none,false⟩⟩]⟩,⟨[5,6],none,[],[⟨256,.other,false,some ⟨1,[.setEnt .internalNl,.cb,.code],none,false⟩⟩,⟨256,.ws,false,some ⟨2,[.setEnt .internalNl,.cb],none,false⟩⟩,⟨256,.lf,false,some ⟨3,[.setEnt .internalNl,.cb],none,false⟩⟩,⟨256,.vt,false,some ⟨1,[.setEnt .internalNl,.cb,.code],none,false⟩⟩,⟨256,.ff,false,some ⟨4,[.setEnt .internalNl,.cb],none,false⟩⟩,⟨256,.cr,false,some ⟨5,[.setEnt .internalNl,.cb],none,false⟩⟩,⟨256,.cr,true,some ⟨6,[.setEnt .internalNl,.cb],none,false⟩⟩,⟨256,.other,false,some ⟨0,[.setEnt .internalNl,.cb,.emb (.goto 6)],some 0,true⟩⟩,⟨256,.other,false,some ⟨7,[.setEnt .internalNl,.cb],none,false⟩⟩,⟨256,.other,false,some ⟨8,[.setEnt .internalNl,.cb],none,false⟩⟩]⟩,⟨[10,14],none,[],[⟨256,.other,false,some ⟨22,[.code],none,false⟩⟩,⟨256,.ws,false,some ⟨23,[],none,false⟩⟩,⟨256,.lf,false,some ⟨24,[],none,false⟩⟩,⟨256,.vt,false,some ⟨22,[.code],none,false⟩⟩,⟨256,.ff,false,some ⟨25,[],none,false⟩⟩,⟨256,.cr,false,some ⟨26,[],none,false⟩⟩,⟨256,.cr,true,some ⟨27,[],none,false⟩⟩,⟨256,.other,false,some ⟨28,[.emb (.goto 6)],some 0,false⟩⟩,⟨256,.other,false,some ⟨29,[],none,false⟩⟩,⟨256,.other,false,some ⟨30,[],none,false⟩⟩]⟩,⟨[9,14],none,[],[⟨256,.other,false,some ⟨22,[.code],none,false⟩⟩,⟨256,.ws,false,some ⟨23,[],none,false⟩⟩,⟨256,.lf,false,some ⟨24,[],none,false⟩⟩,⟨256,.vt,false,some ⟨22,[.code],none,false⟩⟩,⟨256,.ff,false,some ⟨25,[],none,false⟩⟩,⟨256,.cr,false,some ⟨26,[],none,false⟩⟩,⟨256,.cr,true,some ⟨27,[],none,false⟩⟩,⟨256,.other,false,some ⟨28,[.emb (.goto 6)],some 0,false⟩⟩,⟨256,.other,false,some ⟨29,[],none,false⟩⟩,⟨256,.other,false,some ⟨30,[],none,false⟩⟩]⟩,⟨[6,14],none,[],[⟨256,.other,false,some ⟨22,[.setEnt .internalNl,.cb,.code],none,false⟩⟩,⟨256,.ws,false,some ⟨23,[.setEnt .internalNl,.cb],none,false⟩⟩,⟨256,.lf,false,some ⟨24,[.setEnt .internalNl,.cb],none,false⟩⟩,⟨256,.vt,false,some ⟨22,[.setEnt .internalNl,.cb,.code],none,false⟩⟩,⟨256,.ff,false,some ⟨25,[.setEnt .internalNl,.cb],none,false⟩⟩,⟨256,.cr,false,some ⟨26,[.setEnt .internalNl,.cb],none,false⟩⟩,⟨256,.cr,true,some ⟨27,[.setEnt .internalNl,.cb],none,false⟩⟩,⟨256,.other,false,some ⟨28,[.setEnt .internalNl,.cb,.emb (.goto 6)],some 0,false⟩⟩,⟨256,.other,false,some ⟨29,[.setEnt .internalNl,.cb],none,false⟩⟩,⟨256,.other,false,some ⟨30,[.setEnt .internalNl,.cb],none,false⟩⟩]⟩,⟨[7,14],none,[],[⟨256,.other,false,some ⟨22,[.setEnt .internalNl,.cb,.code],none,false⟩⟩,⟨256,.ws,false,some ⟨23,[.setEnt .internalNl,.cb],none,false⟩⟩,⟨256,.lf,false,some ⟨24,[.setEnt .internalNl,.cb],none,false⟩⟩,⟨256,.vt,false,some ⟨22,[.setEnt .internalNl,.cb,.code],none,false⟩⟩,⟨256,.ff,false,some ⟨25,[.setEnt .internalNl,.cb],none,false⟩⟩,⟨256,.cr,false,some ⟨26,[.setEnt .internalNl,.cb],none,false⟩⟩,⟨256,.cr,true,some ⟨27,[.setEnt .internalNl,.cb],none,false⟩⟩,⟨256,.other,false,some ⟨28,[.setEnt .internalNl,.cb,.emb (.goto 6)],some 0,false⟩⟩,⟨256,.other,false,some ⟨29,[.setEnt .internalNl,.cb],none,false⟩⟩,⟨256,.other,false,some ⟨30,[.setEnt .internalNl,.cb],none,false⟩⟩]⟩,⟨[4,14],none,[],[⟨256,.other,false,some ⟨22,[.code],none,false⟩⟩,⟨256,.ws,false,some ⟨23,[],none,false⟩⟩,⟨256,.lf,false,some ⟨31,[],none,false⟩⟩,⟨256,.vt,false,some ⟨22,[.code],none,false⟩⟩,⟨256,.ff,false,some ⟨25,[],none,false⟩⟩,⟨256,.cr,false,some ⟨26,[],none,false⟩⟩,⟨256,.cr,true,some ⟨27,[],none,false⟩⟩,⟨256,.other,false,some ⟨28,[.emb (.goto 6)],some 0,false⟩⟩,⟨256,.other,false,some ⟨29,[],none,false⟩⟩,⟨256,.other,false,some ⟨30,[],none,false⟩⟩]⟩,⟨[4,8,14],none,[],[⟨256,.other,false,some ⟨22,[.setEnt .internalNl,.cb,.code],none,false⟩⟩,⟨256,.ws,false,some ⟨23,[.setEnt .internalNl,.cb],none,false⟩⟩,⟨256,.lf,false,some ⟨31,[.setEnt .internalNl,.cb],none,false⟩⟩,⟨256,.vt,false,some ⟨22,[.setEnt .internalNl,.cb,.code],none,false⟩⟩,⟨256,.ff,false,some ⟨25,[.setEnt .internalNl,.cb],none,false⟩⟩,⟨256,.cr,false,some ⟨26,[.setEnt .internalNl,.cb],none,false⟩⟩,⟨256,.cr,true,some ⟨27,[.setEnt .internalNl,.cb],none,false⟩⟩,⟨256,.other,false,some ⟨28,[.setEnt .internalNl,.cb,.emb (.goto 6)],some 0,false⟩⟩,⟨256,.other,false,some ⟨29,[.setEnt .internalNl,.cb],none,false⟩⟩,⟨256,.other,false,some ⟨30,[.setEnt .internalNl,.cb],none,false⟩⟩]⟩,⟨[14,24],some 0,[],[⟨256,.other,false,some ⟨22,[.code],none,false⟩⟩,⟨256,.ws,false,some ⟨23,[],none,false⟩⟩,⟨256,.lf,false,some ⟨24,[],none,false⟩⟩,⟨256,.vt,false,some ⟨22,[.code],none,false⟩⟩,⟨256,.ff,false,some ⟨25,[],none,false⟩⟩,⟨256,.cr,false,some ⟨26,[],none,false⟩⟩,⟨256,.cr,true,some ⟨27,[],none,false⟩⟩,⟨256,.other,false,some ⟨28,[.emb (.goto 6)],some 0,false⟩⟩,⟨256,.other,false,some ⟨29,[],none,false⟩⟩,⟨256,.other,false,some ⟨30,[],none,false⟩⟩]⟩,⟨[0,13,14],none,[],[⟨256,.other,false,some ⟨32,[.code],none,false⟩⟩,⟨256,.ws,false,some ⟨33,[],none,false⟩⟩,⟨256,.lf,false,some ⟨34,[],none,false⟩⟩,⟨256,.vt,false,some ⟨32,[.code],none,false⟩⟩,⟨256,.ff,false,some ⟨35,[],none,false⟩⟩,⟨256,.cr,false,some ⟨36,[],none,false⟩⟩,⟨256,.cr,true,some ⟨37,[],none,false⟩⟩,⟨256,.other,false,some ⟨38,[.emb (.goto 6)],some 0,false⟩⟩,⟨256,.other,false,some ⟨39,[],none,false⟩⟩,⟨256,.other,false,some ⟨40,[.code],none,false⟩⟩,⟨256,.other,false,some ⟨41,[],none,false⟩⟩]⟩,⟨[1,10,15,22],none,[],[⟨256,.other,false,some ⟨42,[.code],none,false⟩⟩,⟨256,.ws,false,some ⟨43,[],none,false⟩⟩,⟨256,.lf,false,some ⟨44,[],none,false⟩⟩,⟨256,.vt,false,some ⟨42,[.code],none,false⟩⟩,⟨256,.ff,false,some ⟨45,[],none,false⟩⟩,⟨256,.cr,false,some ⟨46,[],none,false⟩⟩,⟨256,.cr,true,some ⟨47,[],none,false⟩⟩,⟨256,.other,false,some ⟨48,[.emb (.goto 6)],some 0,false⟩⟩,⟨256,.other,false,some ⟨49,[],none,false⟩⟩,⟨256,.other,false,some ⟨50,[],none,false⟩⟩,⟨256,.other,false,some ⟨51,[.code],none,false⟩⟩]⟩,⟨[11,14],none,[],[⟨256,.other,false,some ⟨52,[.code],none,false⟩⟩,⟨256,.ws,false,some ⟨53,[.code],none,false⟩⟩,⟨256,.lf,false,some ⟨24,[],none,false⟩⟩,⟨256,.vt,false,some ⟨52,[.code],none,false⟩⟩,⟨256,.ff,false,some ⟨25,[],none,false⟩⟩,⟨256,.cr,false,some ⟨26,[],none,false⟩⟩,⟨256,.cr,true,some ⟨27,[],none,false⟩⟩,⟨256,.other,false,some ⟨54,[.code,.emb (.goto 6)],some 0,false⟩⟩,⟨256,.other,false,some ⟨55,[.code],none,false⟩⟩,⟨256,.other,false,some ⟨56,[.code],none,false⟩⟩]⟩,⟨[12],none,[],[⟨256,.other,false,some ⟨1,[.code],none,false⟩⟩,⟨256,.ws,false,some ⟨2,[],none,false⟩⟩,⟨256,.lf,false,some ⟨3,[],none,false⟩⟩,⟨256,.vt,false,some ⟨1,[.code],none,false⟩⟩,⟨256,.ff,false,some ⟨4,[],none,false⟩⟩,⟨256,.cr,false,some ⟨5,[],none,false⟩⟩,⟨256,.cr,true,some ⟨6,[],none,false⟩⟩,⟨256,.other,false,some ⟨0,[.emb (.goto 6)],some 0,true⟩⟩,⟨256,.other,false,some ⟨7,[],none,false⟩⟩,⟨256,.other,false,some ⟨8,[],none,false⟩⟩]⟩,⟨[10,21],none,[],[⟨256,.other,false,some ⟨22,[.code],none,false⟩⟩,⟨256,.ws,false,some ⟨23,[],none,false⟩⟩,⟨256,.lf,false,some ⟨24,[],none,false⟩⟩,⟨256,.vt,false,some ⟨22,[.code],none,false⟩⟩,⟨256,.ff,false,some ⟨25,[],none,false⟩⟩,⟨256,.cr,false,some ⟨26,[],none,false⟩⟩,⟨256,.cr,true,some ⟨27,[],none,false⟩⟩,⟨256,.other,false,some ⟨28,[.emb (.goto 6)],some 0,false⟩⟩,⟨256,.other,false,some ⟨29,[],none,false⟩⟩,⟨256,.other,false,some ⟨30,[],none,false⟩⟩]⟩,⟨[9,21],none,[],[⟨256,.other,false,some ⟨22,[.code],none,false⟩⟩,⟨256,.ws,false,some ⟨23,[],none,false⟩⟩,⟨256,.lf,false,some ⟨24,[],none,false⟩⟩,⟨256,.vt,false,some ⟨22,[.code],none,false⟩⟩,⟨256,.ff,false,some ⟨25,[],none,false⟩⟩,⟨256,.cr,false,some ⟨26,[],none,false⟩⟩,⟨256,.cr,true,some ⟨27,[],none,false⟩⟩,⟨256,.other,false,some ⟨28,[.emb (.goto 6)],some 0,false⟩⟩,⟨256,.other,false,some ⟨29,[],none,false⟩⟩,⟨256,.other,false,some ⟨30,[],none,false⟩⟩]⟩,⟨[6,21],none,[],[⟨256,.other,false,some ⟨22,[.setEnt .internalNl,.cb,.code],none,false⟩⟩,⟨256,.ws,false,some ⟨23,[.setEnt .internalNl,.cb],none,false⟩⟩,⟨256,.lf,false,some ⟨24,[.setEnt .internalNl,.cb],none,false⟩⟩,⟨256,.vt,false,some ⟨22,[.setEnt .internalNl,.cb,.code],none,false⟩⟩,⟨256,.ff,false,some ⟨25,[.setEnt .internalNl,.cb],none,false⟩⟩,⟨256,.cr,false,some ⟨26,[.setEnt .internalNl,.cb],none,false⟩⟩,⟨256,.cr,true,some ⟨27,[.setEnt .internalNl,.cb],none,false⟩⟩,⟨256,.other,false,some ⟨28,[.setEnt .internalNl,.cb,.emb (.goto 6)],some 0,false⟩⟩,⟨256,.other,false,some ⟨29,[.setEnt .internalNl,.cb],none,false⟩⟩,⟨256,.other,false,some ⟨30,[.setEnt .internalNl,.cb],none,false⟩⟩]⟩,⟨[7,21],none,[],[⟨256,.other,false,some ⟨22,[.setEnt .internalNl,.cb,.code],none,false⟩⟩,⟨256,.ws,false,some ⟨23,[.setEnt .internalNl,.cb],none,false⟩⟩,⟨256,.lf,false,some ⟨24,[.setEnt .internalNl,.cb],none,false⟩⟩,⟨256,.vt,false,some ⟨22,[.setEnt .internalNl,.cb,.code],none,false⟩⟩,⟨256,.ff,false,some ⟨25,[.setEnt .internalNl,.cb],none,false⟩⟩,⟨256,.cr,false,some ⟨26,[.setEnt .internalNl,.cb],none,false⟩⟩,⟨256,.cr,true,some ⟨27,[.setEnt .internalNl,.cb],none,false⟩⟩,⟨256,.other,false,some ⟨28,[.setEnt .internalNl,.cb,.emb (.goto 6)],some 0,false⟩⟩,⟨256,.other,false,some ⟨29,[.setEnt .internalNl,.cb],none,false⟩⟩,⟨256,.other,false,some ⟨30,[.setEnt .internalNl,.cb],none,false⟩⟩]⟩,⟨[4,21],none,[],[⟨256,.other,false,some ⟨22,[.code],none,false⟩⟩,⟨256,.ws,false,some ⟨23,[],none,false⟩⟩,⟨256,.lf,false,some ⟨31,[],none,false⟩⟩,⟨256,.vt,false,some ⟨22,[.code],none,false⟩⟩,⟨256,.ff,false,some ⟨25,[],none,false⟩⟩,⟨256,.cr,false,some ⟨26,[],none,false⟩⟩,⟨256,.cr,true,some ⟨27,[],none,false⟩⟩,⟨256,.other,false,some ⟨28,[.emb (.goto 6)],some 0,false⟩⟩,⟨256,.other,false,some ⟨29,[],none,false⟩⟩,⟨256,.other,false,some ⟨30,[],none,false⟩⟩]⟩,⟨[4,8,21],none,[],[⟨256,.other,false,some ⟨22,[.setEnt .internalNl,.cb,.code],none,false⟩⟩,⟨256,.ws,false,some ⟨23,[.setEnt .internalNl,.cb],none,false⟩⟩,⟨256,.lf,false,some ⟨31,[.setEnt .internalNl,.cb],none,false⟩⟩,⟨256,.vt,false,some ⟨22,[.setEnt .internalNl,.cb,.code],none,false⟩⟩,⟨256,.ff,false,some ⟨25,[.setEnt .internalNl,.cb],none,false⟩⟩,⟨256,.cr,false,some ⟨26,[.setEnt .internalNl,.cb],none,false⟩⟩,⟨256,.cr,true,some ⟨27,[.setEnt .internalNl,.cb],none,false⟩⟩,⟨256,.other,false,some ⟨28,[.setEnt .internalNl,.cb,.emb (.goto 6)],some 0,false⟩⟩,⟨256,.other,false,some ⟨29,[.setEnt .internalNl,.cb],none,false⟩⟩,⟨256,.other,false,some ⟨30,[.setEnt .internalNl,.cb],none,false⟩⟩]⟩,⟨[21,24],some 0,[],[⟨256,.other,false,some ⟨22,[.code],none,false⟩⟩,⟨256,.ws,false,some ⟨23,[],none,false⟩⟩,⟨256,.lf,false,some ⟨24,[],none,false⟩⟩,⟨256,.vt,false,some ⟨22,[.code],none,false⟩⟩,⟨256,.ff,false,some ⟨25,[],none,false⟩⟩,⟨256,.cr,false,some ⟨26,[],none,false⟩⟩,⟨256,.cr,true,some ⟨27,[],none,false⟩⟩,⟨256,.other,false,some ⟨28,[.emb (.goto 6)],some 0,false⟩⟩,⟨256,.other,false,some ⟨29,[],none,false⟩⟩,⟨256,.other,false,some ⟨30,[],none,false⟩⟩]⟩,⟨[0,13,21],none,[],[⟨256,.other,false,some ⟨32,[.code],none,false⟩⟩,⟨256,.ws,false,some ⟨33,[],none,false⟩⟩,⟨256,.lf,false,some ⟨34,[],none,false⟩⟩,⟨256,.vt,false,some ⟨32,[.code],none,false⟩⟩,⟨256,.ff,false,some ⟨35,[],none,false⟩⟩,⟨256,.cr,false,some ⟨36,[],none,false⟩⟩,⟨256,.cr,true,some ⟨37,[],none,false⟩⟩,⟨256,.other,false,some ⟨38,[.emb (.goto 6)],some 0,false⟩⟩,⟨256,.other,false,some ⟨39,[],none,false⟩⟩,⟨256,.other,false,some ⟨40,[.code],none,false⟩⟩,⟨256,.other,false,some ⟨41,[],none,false⟩⟩]⟩,⟨[11,21],none,[],[⟨256,.other,false,some ⟨52,[.code],none,false⟩⟩,⟨256,.ws,false,some ⟨53,[.code],none,false⟩⟩,⟨256,.lf,false,some ⟨24,[],none,false⟩⟩,⟨256,.vt,false,some ⟨52,[.code],none,false⟩⟩,⟨256,.ff,false,some ⟨25,[],none,false⟩⟩,⟨256,.cr,false,some ⟨26,[],none,false⟩⟩,⟨256,.cr,true,some ⟨27,[],none,false⟩⟩,⟨256,.other,false,some ⟨54,[.code,.emb (.goto 6)],some 0,false⟩⟩,⟨256,.other,false,some ⟨55,[.code],none,false⟩⟩,⟨256,.other,false,some ⟨56,[.code],none,false⟩⟩]⟩,⟨[5,6,21],none,[],[⟨256,.other,false,some ⟨22,[.setEnt .internalNl,.cb,.code],none,false⟩⟩,⟨256,.ws,false,some ⟨23,[.setEnt .internalNl,.cb],none,false⟩⟩,⟨256,.lf,false,some ⟨24,[.setEnt .internalNl,.cb],none,false⟩⟩,⟨256,.vt,false,some ⟨22,[.setEnt .internalNl,.cb,.code],none,false⟩⟩,⟨256,.ff,false,some ⟨25,[.setEnt .internalNl,.cb],none,false⟩⟩,⟨256,.cr,false,some ⟨26,[.setEnt .internalNl,.cb],none,false⟩⟩,⟨256,.cr,true,some ⟨27,[.setEnt .internalNl,.cb],none,false⟩⟩,⟨256,.other,false,some ⟨28,[.setEnt .internalNl,.cb,.emb (.goto 6)],some 0,false⟩⟩,⟨256,.other,false,some ⟨29,[.setEnt .internalNl,.cb],none,false⟩⟩,⟨256,.other,false,some ⟨30,[.setEnt .internalNl,.cb],none,false⟩⟩]⟩,⟨[10,14,21],none,[],[⟨256,.other,false,some ⟨22,[.code],none,false⟩⟩,⟨256,.ws,false,some ⟨23,[],none,false⟩⟩,⟨256,.lf,false,some ⟨24,[],none,false⟩⟩,⟨256,.vt,false,some ⟨22,[.code],none,false⟩⟩,⟨256,.ff,false,some ⟨25,[],none,false⟩⟩,⟨256,.cr,false,some ⟨26,[],none,false⟩⟩,⟨256,.cr,true,some ⟨27,[],none,false⟩⟩,⟨256,.other,false,some ⟨28,[.emb (.goto 6)],some 0,false⟩⟩,⟨256,.other,false,some ⟨29,[],none,false⟩⟩,⟨256,.other,false,some ⟨30,[],none,false⟩⟩]⟩,⟨[9,14,21],none,[],[⟨256,.other,false,some ⟨22,[.code],none,false⟩⟩,⟨256,.ws,false,some ⟨23,[],none,false⟩⟩,⟨256,.lf,false,some ⟨24,[],none,false⟩⟩,⟨256,.vt,false,some ⟨22,[.code],none,false⟩⟩,⟨256,.ff,false,some ⟨25,[],none,false⟩⟩,⟨256,.cr,false,some ⟨26,[],none,false⟩⟩,⟨256,.cr,true,some ⟨27,[],none,false⟩⟩,⟨256,.other,false,some ⟨28,[.emb (.goto 6)],some 0,false⟩⟩,⟨256,.other,false,some ⟨29,[],none,false⟩⟩,⟨256,.other,false,some ⟨30,[],none,false⟩⟩]⟩,⟨[6,14,21],none,[],[⟨256,.other,false,some ⟨22,[.setEnt .internalNl,.cb,.code],none,false⟩⟩,⟨256,.ws,false,some ⟨23,[.setEnt .internalNl,.cb],none,false⟩⟩,⟨256,.lf,false,some ⟨24,[.setEnt .internalNl,.cb],none,false⟩⟩,⟨256,.vt,false,some ⟨22,[.setEnt .internalNl,.cb,.code],none,false⟩⟩,⟨256,.ff,false,some ⟨25,[.setEnt .internalNl,.cb],none,false⟩⟩,⟨256,.cr,false,some ⟨26,[.setEnt .internalNl,.cb],none,false⟩⟩,⟨256,.cr,true,some ⟨27,[.setEnt .internalNl,.cb],none,false⟩⟩,⟨256,.other,false,some ⟨28,[.setEnt .internalNl,.cb,.emb (.goto 6)],some 0,false⟩⟩,⟨256,.other,false,some ⟨29,[.setEnt .internalNl,.cb],none,false⟩⟩,⟨256,.other,false,some ⟨30,[.setEnt .internalNl,.cb],none,false⟩⟩]⟩,⟨[7,14,21],none,[],[⟨256,.other,false,some ⟨22,[.setEnt .internalNl,.cb,.code],none,false⟩⟩,⟨256,.ws,false,some ⟨23,[.setEnt .internalNl,.cb],none,false⟩⟩,⟨256,.lf,false,some ⟨24,[.setEnt .internalNl,.cb],none,false⟩⟩,⟨256,.vt,false,some ⟨22,[.setEnt .internalNl,.cb,.code],none,false⟩⟩,⟨256,.ff,false,some ⟨25,[.setEnt .internalNl,.cb],none,false⟩⟩,⟨256,.cr,false,some ⟨26,[.setEnt .internalNl,.cb],none,false⟩⟩,⟨256,.cr,true,some ⟨27,[.setEnt .internalNl,.cb],none,false⟩⟩,⟨256,.other,false,some ⟨28,[.setEnt .internalNl,.cb,.emb (.goto 6)],some 0,false⟩⟩,⟨256,.other,false,some ⟨29,[.setEnt .internalNl,.cb],none,false⟩⟩,⟨256,.other,false,some ⟨30,[.setEnt .internalNl,.cb],none,false⟩⟩]⟩,⟨[4,14,21],none,[],[⟨256,.other,false,some ⟨22,[.code],none,false⟩⟩,⟨256,.ws,false,some ⟨23,[],none,false⟩⟩,⟨256,.lf,false,some ⟨31,[],none,false⟩⟩,⟨256,.vt,false,some ⟨22,[.code],none,false⟩⟩,⟨256,.ff,false,some ⟨25,[],none,false⟩⟩,⟨256,.cr,false,some ⟨26,[],none,false⟩⟩,⟨256,.cr,true,some ⟨27,[],none,false⟩⟩,⟨256,.other,false,some ⟨28,[.emb (.goto 6)],some 0,false⟩⟩,⟨256,.other,false,some ⟨29,[],none,false⟩⟩,⟨256,.other,false,some ⟨30,[],none,false⟩⟩]⟩,⟨[4,8,14,21],none,[],[⟨256,.other,false,some ⟨22,[.setEnt .internalNl,.cb,.code],none,false⟩⟩,⟨256,.ws,false,some ⟨23,[.setEnt .internalNl,.cb],none,false⟩⟩,⟨256,.lf,false,some ⟨31,[.setEnt .internalNl,.cb],none,false⟩⟩,⟨256,.vt,false,some ⟨22,[.setEnt .internalNl,.cb,.code],none,false⟩⟩,⟨256,.ff,false,some ⟨25,[.setEnt .internalNl,.cb],none,false⟩⟩,⟨256,.cr,false,some ⟨26,[.setEnt .internalNl,.cb],none,false⟩⟩,⟨256,.cr,true,some ⟨27,[.setEnt .internalNl,.cb],none,false⟩⟩,⟨256,.other,false,some ⟨28,[.setEnt .internalNl,.cb,.emb (.goto 6)],some 0,false⟩⟩,⟨256,.other,false,some ⟨29,[.setEnt .internalNl,.cb],none,false⟩⟩,⟨256,.other,false,some ⟨30,[.setEnt .internalNl,.cb],none,false⟩⟩]⟩,⟨[14,21,24],some 0,[],[⟨256,.other,false,some ⟨22,[.code],none,false⟩⟩,⟨256,.ws,false,some ⟨23,[],none,false⟩⟩,⟨256,.lf,false,some ⟨24,[],none,false⟩⟩,⟨256,.vt,false,some ⟨22,[.code],none,false⟩⟩,⟨256,.ff,false,some ⟨25,[],none,false⟩⟩,⟨256,.cr,false,some ⟨26,[],none,false⟩⟩,⟨256,.cr,true,some ⟨27,[],none,false⟩⟩,⟨256,.other,false,some ⟨28,[.emb (.goto 6)],some 0,false⟩⟩,⟨256,.other,false,some ⟨29,[],none,false⟩⟩,⟨256,.other,false,some ⟨30,[],none,false⟩⟩]⟩,⟨[0,13,14,21],none,[],[⟨256,.other,false,some ⟨32,[.code],none,false⟩⟩,⟨256,.ws,false,some ⟨33,[],none,false⟩⟩,⟨256,.lf,false,some ⟨34,[],none,false⟩⟩,⟨256,.vt,false,some ⟨32,[.code],none,false⟩⟩,⟨256,.ff,false,some ⟨35,[],none,false⟩⟩,⟨256,.cr,false,some ⟨36,[],none,false⟩⟩,⟨256,.cr,true,some ⟨37,[],none,false⟩⟩,⟨256,.other,false,some ⟨38,[.emb (.goto 6)],some 0,false⟩⟩,⟨256,.other,false,some ⟨39,[],none,false⟩⟩,⟨256,.other,false,some ⟨40,[.code],none,false⟩⟩,⟨256,.other,false,some ⟨41,[],none,false⟩⟩]⟩,⟨[1,10,15,21,22],none,[],[⟨256,.other,false,some ⟨57,[.code],none,false⟩⟩,⟨256,.ws,false,some ⟨58,[],none,false⟩⟩,⟨256,.lf,false,some ⟨59,[],none,false⟩⟩,⟨256,.vt,false,some ⟨57,[.code],none,false⟩⟩,⟨256,.ff,false,some ⟨60,[],none,false⟩⟩,⟨256,.cr,false,some ⟨61,[],none,false⟩⟩,⟨256,.cr,true,some ⟨62,[],none,false⟩⟩,⟨256,.other,false,some ⟨63,[.emb (.goto 6)],some 0,false⟩⟩,⟨256,.other,false,some ⟨64,[],none,false⟩⟩,⟨256,.other,false,some ⟨65,[],none,false⟩⟩,⟨256,.other,false,some ⟨66,[.code],none,false⟩⟩]⟩,⟨[11,14,21],none,[],[⟨256,.other,false,some ⟨52,[.code],none,false⟩⟩,⟨256,.ws,false,some ⟨53,[.code],none,false⟩⟩,⟨256,.lf,false,some ⟨24,[],none,false⟩⟩,⟨256,.vt,false,some ⟨52,[.code],none,false⟩⟩,⟨256,.ff,false,some ⟨25,[],none,false⟩⟩,⟨256,.cr,false,some ⟨26,[],none,false⟩⟩,⟨256,.cr,true,some ⟨27,[],none,false⟩⟩,⟨256,.other,false,some ⟨54,[.code,.emb (.goto 6)],some 0,false⟩⟩,⟨256,.other,false,some ⟨55,[.code],none,false⟩⟩,⟨256,.other,false,some ⟨56,[.code],none,false⟩⟩]⟩,⟨[10,16],none,[],[⟨256,.other,false,some ⟨22,[.code],none,false⟩⟩,⟨256,.ws,false,some ⟨23,[],none,false⟩⟩,⟨256,.lf,false,some ⟨24,[],none,false⟩⟩,⟨256,.vt,false,some ⟨22,[.code],none,false⟩⟩,⟨256,.ff,false,some ⟨25,[],none,false⟩⟩,⟨256,.cr,false,some ⟨26,[],none,false⟩⟩,⟨256,.cr,true,some ⟨27,[],none,false⟩⟩,⟨256,.other,false,some ⟨28,[.emb (.goto 6)],some 0,false⟩⟩,⟨256,.other,false,some ⟨29,[],none,false⟩⟩,⟨256,.other,false,some ⟨30,[],none,false⟩⟩]⟩,⟨[9,16],none,[],[⟨256,.other,false,some ⟨22,[.code],none,false⟩⟩,⟨256,.ws,false,some ⟨23,[],none,false⟩⟩,⟨256,.lf,false,some ⟨24,[],none,false⟩⟩,⟨256,.vt,false,some ⟨22,[.code],none,false⟩⟩,⟨256,.ff,false,some ⟨25,[],none,false⟩⟩,⟨256,.cr,false,some ⟨26,[],none,false⟩⟩,⟨256,.cr,true,some ⟨27,[],none,false⟩⟩,⟨256,.other,false,some ⟨28,[.emb (.goto 6)],some 0,false⟩⟩,⟨256,.other,false,some ⟨29,[],none,false⟩⟩,⟨256,.other,false,some ⟨30,[],none,false⟩⟩]⟩,⟨[6,16],none,[],[⟨256,.other,false,some ⟨22,[.setEnt .internalNl,.cb,.code],none,false⟩⟩,⟨256,.ws,false,some ⟨23,[.setEnt .internalNl,.cb],none,false⟩⟩,⟨256,.lf,false,some ⟨24,[.setEnt .internalNl,.cb],none,false⟩⟩,⟨256,.vt,false,some ⟨22,[.setEnt .internalNl,.cb,.code],none,false⟩⟩,⟨256,.ff,false,some ⟨25,[.setEnt .internalNl,.cb],none,false⟩⟩,⟨256,.cr,false,some ⟨26,[.setEnt .internalNl,.cb],none,false⟩⟩,⟨256,.cr,true,some ⟨27,[.setEnt .internalNl,.cb],none,false⟩⟩,⟨256,.other,false,some ⟨28,[.setEnt .internalNl,.cb,.emb (.goto 6)],some 0,false⟩⟩,⟨256,.other,false,some ⟨29,[.setEnt .internalNl,.cb],none,false⟩⟩,⟨256,.other,false,some ⟨30,[.setEnt .internalNl,.cb],none,false⟩⟩]⟩,⟨[7,16],none,[],[⟨256,.other,false,some ⟨22,[.setEnt .internalNl,.cb,.code],none,false⟩⟩,⟨256,.ws,false,some ⟨23,[.setEnt .internalNl,.cb],none,false⟩⟩,⟨256,.lf,false,some ⟨24,[.setEnt .internalNl,.cb],none,false⟩⟩,⟨256,.vt,false,some ⟨22,[.setEnt .internalNl,.cb,.code],none,false⟩⟩,⟨256,.ff,false,some ⟨25,[.setEnt .internalNl,.cb],none,false⟩⟩,⟨256,.cr,false,some ⟨26,[.setEnt .internalNl,.cb],none,false⟩⟩,⟨256,.cr,true,some ⟨27,[.setEnt .internalNl,.cb],none,false⟩⟩,⟨256,.other,false,some ⟨28,[.setEnt .internalNl,.cb,.emb (.goto 6)],some 0,false⟩⟩,⟨256,.other,false,some ⟨29,[.setEnt .internalNl,.cb],none,false⟩⟩,⟨256,.other,false,some ⟨30,[.setEnt .internalNl,.cb],none,false⟩⟩]⟩,⟨[4,16],none,[],[⟨256,.other,false,some ⟨22,[.code],none,false⟩⟩,⟨256,.ws,false,some ⟨23,[],none,false⟩⟩,⟨256,.lf,false,some ⟨31,[],none,false⟩⟩,⟨256,.vt,false,some ⟨22,[.code],none,false⟩⟩,⟨256,.ff,false,some ⟨25,[],none,false⟩⟩,⟨256,.cr,false,some ⟨26,[],none,false⟩⟩,⟨256,.cr,true,some ⟨27,[],none,false⟩⟩,⟨256,.other,false,some ⟨28,[.emb (.goto 6)],some 0,false⟩⟩,⟨256,.other,false,some ⟨29,[],none,false⟩⟩,⟨256,.other,false,some ⟨30,[],none,false⟩⟩]⟩,⟨[4,8,16],none,[],[⟨256,.other,false,some ⟨22,[.setEnt .internalNl,.cb,.code],none,false⟩⟩,⟨256,.ws,false,some ⟨23,[.setEnt .internalNl,.cb],none,false⟩⟩,⟨256,.lf,false,some ⟨31,[.setEnt .internalNl,.cb],none,false⟩⟩,⟨256,.vt,false,some ⟨22,[.setEnt .internalNl,.cb,.code],none,false⟩⟩,⟨256,.ff,false,some ⟨25,[.setEnt .internalNl,.cb],none,false⟩⟩,⟨256,.cr,false,some ⟨26,[.setEnt .internalNl,.cb],none,false⟩⟩,⟨256,.cr,true,some ⟨27,[.setEnt .internalNl,.cb],none,false⟩⟩,⟨256,.other,false,some ⟨28,[.setEnt .internalNl,.cb,.emb (.goto 6)],some 0,false⟩⟩,⟨256,.other,false,some ⟨29,[.setEnt .internalNl,.cb],none,false⟩⟩,⟨256,.other,false,some ⟨30,[.setEnt .internalNl,.cb],none,false⟩⟩]⟩,⟨[16,24],some 0,[],[⟨256,.other,false,some ⟨22,[.code],none,false⟩⟩,⟨256,.ws,false,some ⟨23,[],none,false⟩⟩,⟨256,.lf,false,some ⟨24,[],none,false⟩⟩,⟨256,.vt,false,some ⟨22,[.code],none,false⟩⟩,⟨256,.ff,false,some ⟨25,[],none,false⟩⟩,⟨256,.cr,false,some ⟨26,[],none,false⟩⟩,⟨256,.cr,true,some ⟨27,[],none,false⟩⟩,⟨256,.other,false,some ⟨28,[.emb (.goto 6)],some 0,false⟩⟩,⟨256,.other,false,some ⟨29,[],none,false⟩⟩,⟨256,.other,false,some ⟨30,[],none,false⟩⟩]⟩,⟨[0,13,16],none,[],[⟨256,.other,false,some ⟨32,[.code],none,false⟩⟩,⟨256,.ws,false,some ⟨33,[],none,false⟩⟩,⟨256,.lf,false,some ⟨34,[],none,false⟩⟩,⟨256,.vt,false,some ⟨32,[.code],none,false⟩⟩,⟨256,.ff,false,some ⟨35,[],none,false⟩⟩,⟨256,.cr,false,some ⟨36,[],none,false⟩⟩,⟨256,.cr,true,some ⟨37,[],none,false⟩⟩,⟨256,.other,false,some ⟨38,[.emb (.goto 6)],some 0,false⟩⟩,⟨256,.other,false,some ⟨39,[],none,false⟩⟩,⟨256,.other,false,some ⟨40,[.code],none,false⟩⟩,⟨256,.other,false,some ⟨41,[],none,false⟩⟩]⟩,⟨[11,16],none,[],[⟨256,.other,false,some ⟨52,[.code],none,false⟩⟩,⟨256,.ws,false,some ⟨53,[.code],none,false⟩⟩,⟨256,.lf,false,some ⟨24,[],none,false⟩⟩,⟨256,.vt,false,some ⟨52,[.code],none,false⟩⟩,⟨256,.ff,false,some ⟨25,[],none,false⟩⟩,⟨256,.cr,false,some ⟨26,[],none,false⟩⟩,⟨256,.cr,true,some ⟨27,[],none,false⟩⟩,⟨256,.other,false,some ⟨54,[.code,.emb (.goto 6)],some 0,false⟩⟩,⟨256,.other,false,some ⟨55,[.code],none,false⟩⟩,⟨256,.other,false,some ⟨56,[.code],none,false⟩⟩]⟩,⟨[2,10,17,23],none,[],[⟨256,.other,false,some ⟨67,[.code],none,false⟩⟩,⟨256,.ws,false,some ⟨68,[],none,false⟩⟩,⟨256,.lf,false,some ⟨69,[],none,false⟩⟩,⟨256,.vt,false,some ⟨67,[.code],none,false⟩⟩,⟨256,.ff,false,some ⟨70,[],none,false⟩⟩,⟨256,.cr,false,some ⟨71,[],none,false⟩⟩,⟨256,.cr,true,some ⟨72,[],none,false⟩⟩,⟨256,.other,false,some ⟨73,[.emb (.goto 6)],some 0,false⟩⟩,⟨256,.other,false,some ⟨74,[],none,false⟩⟩,⟨256,.other,false,some ⟨75,[],none,false⟩⟩,⟨256,.other,false,some ⟨76,[.emb (.sawCall 3 5),.code],none,false⟩⟩]⟩,⟨[10,12,21],none,[],[⟨256,.other,false,some ⟨22,[.code],none,false⟩⟩,⟨256,.ws,false,some ⟨23,[],none,false⟩⟩,⟨256,.lf,false,some ⟨24,[],none,false⟩⟩,⟨256,.vt,false,some ⟨22,[.code],none,false⟩⟩,⟨256,.ff,false,some ⟨25,[],none,false⟩⟩,⟨256,.cr,false,some ⟨26,[],none,false⟩⟩,⟨256,.cr,true,some ⟨27,[],none,false⟩⟩,⟨256,.other,false,some ⟨28,[.emb (.goto 6)],some 0,false⟩⟩,⟨256,.other,false,some ⟨29,[],none,false⟩⟩,⟨256,.other,false,some ⟨30,[],none,false⟩⟩]⟩,⟨[9,12,21],none,[],[⟨256,.other,false,some ⟨22,[.code],none,false⟩⟩,⟨256,.ws,false,some ⟨23,[],none,false⟩⟩,⟨256,.lf,false,some ⟨24,[],none,false⟩⟩,⟨256,.vt,false,some ⟨22,[.code],none,false⟩⟩,⟨256,.ff,false,some ⟨25,[],none,false⟩⟩,⟨256,.cr,false,some ⟨26,[],none,false⟩⟩,⟨256,.cr,true,some ⟨27,[],none,false⟩⟩,⟨256,.other,false,some ⟨28,[.emb (.goto 6)],some 0,false⟩⟩,⟨256,.other,false,some ⟨29,[],none,false⟩⟩,⟨256,.other,false,some ⟨30,[],none,false⟩⟩]⟩,⟨[12,21,24],some 0,[],[⟨256,.other,false,some ⟨22,[.code],none,false⟩⟩,⟨256,.ws,false,some ⟨23,[],none,false⟩⟩,⟨256,.lf,false,some ⟨24,[],none,false⟩⟩,⟨256,.vt,false,some ⟨22,[.code],none,false⟩⟩,⟨256,.ff,false,some ⟨25,[],none,false⟩⟩,⟨256,.cr,false,some ⟨26,[],none,false⟩⟩,⟨256,.cr,true,some ⟨27,[],none,false⟩⟩,⟨256,.other,false,some ⟨28,[.emb (.goto 6)],some 0,false⟩⟩,⟨256,.other,false,some ⟨29,[],none,false⟩⟩,⟨256,.other,false,some ⟨30,[],none,false⟩⟩]⟩,⟨[0,12,13,21],none,[],[⟨256,.other,false,some ⟨32,[.code],none,false⟩⟩,⟨256,.ws,false,some ⟨33,[],none,false⟩⟩,⟨256,.lf,false,some ⟨34,[],none,false⟩⟩,⟨256,.vt,false,some ⟨32,[.code],none,false⟩⟩,⟨256,.ff,false,some ⟨35,[],none,false⟩⟩,⟨256,.cr,false,some ⟨36,[],none,false⟩⟩,⟨256,.cr,true,some ⟨37,[],none,false⟩⟩,⟨256,.other,false,some ⟨38,[.emb (.goto 6)],some 0,false⟩⟩,⟨256,.other,false,some ⟨39,[],none,false⟩⟩,⟨256,.other,false,some ⟨40,[.code],none,false⟩⟩,⟨256,.other,false,some ⟨41,[],none,false⟩⟩]⟩,⟨[11,12,21],none,[],[⟨256,.other,false,some ⟨52,[.code],none,false⟩⟩,⟨256,.ws,false,some ⟨53,[.code],none,false⟩⟩,⟨256,.lf,false,some ⟨24,[],none,false⟩⟩,⟨256,.vt,false,some ⟨52,[.code],none,false⟩⟩,⟨256,.ff,false,some ⟨25,[],none,false⟩⟩,⟨256,.cr,false,some ⟨26,[],none,false⟩⟩,⟨256,.cr,true,some ⟨27,[],none,false⟩⟩,⟨256,.other,false,some ⟨54,[.code,.emb (.goto 6)],some 0,false⟩⟩,⟨256,.other,false,some ⟨55,[.code],none,false⟩⟩,⟨256,.other,false,some ⟨56,[.code],none,false⟩⟩]⟩,⟨[10,16,21],none,[],[⟨256,.other,false,some ⟨22,[.code],none,false⟩⟩,⟨256,.ws,false,some ⟨23,[],none,false⟩⟩,⟨256,.lf,false,some ⟨24,[],none,false⟩⟩,⟨256,.vt,false,some ⟨22,[.code],none,false⟩⟩,⟨256,.ff,false,some ⟨25,[],none,false⟩⟩,⟨256,.cr,false,some ⟨26,[],none,false⟩⟩,⟨256,.cr,true,some ⟨27,[],none,false⟩⟩,⟨256,.other,false,some ⟨28,[.emb (.goto 6)],some 0,false⟩⟩,⟨256,.other,false,some ⟨29,[],none,false⟩⟩,⟨256,.other,false,some ⟨30,[],none,false⟩⟩]⟩,⟨[9,16,21],none,[],[⟨256,.other,false,some ⟨22,[.code],none,false⟩⟩,⟨256,.ws,false,some ⟨23,[],none,false⟩⟩,⟨256,.lf,false,some ⟨24,[],none,false⟩⟩,⟨256,.vt,false,some ⟨22,[.code],none,false⟩⟩,⟨256,.ff,false,some ⟨25,[],none,false⟩⟩,⟨256,.cr,false,some ⟨26,[],none,false⟩⟩,⟨256,.cr,true,some ⟨27,[],none,false⟩⟩,⟨256,.other,false,some ⟨28,[.emb (.goto 6)],some 0,false⟩⟩,⟨256,.other,false,some ⟨29,[],none,false⟩⟩,⟨256,.other,false,some ⟨30,[],none,false⟩⟩]⟩,⟨[6,16,21],none,[],[⟨256,.other,false,some ⟨22,[.setEnt .internalNl,.cb,.code],none,false⟩⟩,⟨256,.ws,false,some ⟨23,[.setEnt .internalNl,.cb],none,false⟩⟩,⟨256,.lf,false,some ⟨24,[.setEnt .internalNl,.cb],none,false⟩⟩,⟨256,.vt,false,some ⟨22,[.setEnt .internalNl,.cb,.code],none,false⟩⟩,⟨256,.ff,false,some ⟨25,[.setEnt .internalNl,.cb],none,false⟩⟩,⟨256,.cr,false,some ⟨26,[.setEnt .internalNl,.cb],none,false⟩⟩,⟨256,.cr,true,some ⟨27,[.setEnt .internalNl,.cb],none,false⟩⟩,⟨256,.other,false,some ⟨28,[.setEnt .internalNl,.cb,.emb (.goto 6)],some 0,false⟩⟩,⟨256,.other,false,some ⟨29,[.setEnt .internalNl,.cb],none,false⟩⟩,⟨256,.other,false,some ⟨30,[.setEnt .internalNl,.cb],none,false⟩⟩]⟩,⟨[7,16,21],none,[],[⟨256,.other,false,some ⟨22,[.setEnt .internalNl,.cb,.code],none,false⟩⟩,⟨256,.ws,false,some ⟨23,[.setEnt .internalNl,.cb],none,false⟩⟩,⟨256,.lf,false,some ⟨24,[.setEnt .internalNl,.cb],none,false⟩⟩,⟨256,.vt,false,some ⟨22,[.setEnt .internalNl,.cb,.code],none,false⟩⟩,⟨256,.ff,false,some ⟨25,[.setEnt .internalNl,.cb],none,false⟩⟩,⟨256,.cr,false,some ⟨26,[.setEnt .internalNl,.cb],none,false⟩⟩,⟨256,.cr,true,some ⟨27,[.setEnt .internalNl,.cb],none,false⟩⟩,⟨256,.other,false,some ⟨28,[.setEnt .internalNl,.cb,.emb (.goto 6)],some 0,false⟩⟩,⟨256,.other,false,some ⟨29,[.setEnt .internalNl,.cb],none,false⟩⟩,⟨256,.other,false,some ⟨30,[.setEnt .internalNl,.cb],none,false⟩⟩]⟩,⟨[4,16,21],none,[],[⟨256,.other,false,some ⟨22,[.code],none,false⟩⟩,⟨256,.ws,false,some ⟨23,[],none,false⟩⟩,⟨256,.lf,false,some ⟨31,[],none,false⟩⟩,⟨256,.vt,false,some ⟨22,[.code],none,false⟩⟩,⟨256,.ff,false,some ⟨25,[],none,false⟩⟩,⟨256,.cr,false,some ⟨26,[],none,false⟩⟩,⟨256,.cr,true,some ⟨27,[],none,false⟩⟩,⟨256,.other,false,some ⟨28,[.emb (.goto 6)],some 0,false⟩⟩,⟨256,.other,false,some ⟨29,[],none,false⟩⟩,⟨256,.other,false,some ⟨30,[],none,false⟩⟩]⟩,⟨[4,8,16,21],none,[],[⟨256,.other,false,some ⟨22,[.setEnt .internalNl,.cb,.code],none,false⟩⟩,⟨256,.ws,false,some ⟨23,[.setEnt .internalNl,.cb],none,false⟩⟩,⟨256,.lf,false,some ⟨31,[.setEnt .internalNl,.cb],none,false⟩⟩,⟨256,.vt,false,some ⟨22,[.setEnt .internalNl,.cb,.code],none,false⟩⟩,⟨256,.ff,false,some ⟨25,[.setEnt .internalNl,.cb],none,false⟩⟩,⟨256,.cr,false,some ⟨26,[.setEnt .internalNl,.cb],none,false⟩⟩,⟨256,.cr,true,some ⟨27,[.setEnt .internalNl,.cb],none,false⟩⟩,⟨256,.other,false,some ⟨28,[.setEnt .internalNl,.cb,.emb (.goto 6)],some 0,false⟩⟩,⟨256,.other,false,some ⟨29,[.setEnt .internalNl,.cb],none,false⟩⟩,⟨256,.other,false,some ⟨30,[.setEnt .internalNl,.cb],none,false⟩⟩]⟩,⟨[16,21,24],some 0,[],[⟨256,.other,false,some ⟨22,[.code],none,false⟩⟩,⟨256,.ws,false,some ⟨23,[],none,false⟩⟩,⟨256,.lf,false,some ⟨24,[],none,false⟩⟩,⟨256,.vt,false,some ⟨22,[.code],none,false⟩⟩,⟨256,.ff,false,some ⟨25,[],none,false⟩⟩,⟨256,.cr,false,some ⟨26,[],none,false⟩⟩,⟨256,.cr,true,some ⟨27,[],none,false⟩⟩,⟨256,.other,false,some ⟨28,[.emb (.goto 6)],some 0,false⟩⟩,⟨256,.other,false,some ⟨29,[],none,false⟩⟩,⟨256,.other,false,some ⟨30,[],none,false⟩⟩]⟩,⟨[0,13,16,21],none,[],[⟨256,.other,false,some ⟨32,[.code],none,false⟩⟩,⟨256,.ws,false,some ⟨33,[],none,false⟩⟩,⟨256,.lf,false,some ⟨34,[],none,false⟩⟩,⟨256,.vt,false,some ⟨32,[.code],none,false⟩⟩,⟨256,.ff,false,some ⟨35,[],none,false⟩⟩,⟨256,.cr,false,some ⟨36,[],none,false⟩⟩,⟨256,.cr,true,some ⟨37,[],none,false⟩⟩,⟨256,.other,false,some ⟨38,[.emb (.goto 6)],some 0,false⟩⟩,⟨256,.other,false,some ⟨39,[],none,false⟩⟩,⟨256,.other,false,some ⟨40,[.code],none,false⟩⟩,⟨256,.other,false,some ⟨41,[],none,false⟩⟩]⟩,⟨[11,16,21],none,[],[⟨256,.other,false,some ⟨52,[.code],none,false⟩⟩,⟨256,.ws,false,some ⟨53,[.code],none,false⟩⟩,⟨256,.lf,false,some ⟨24,[],none,false⟩⟩,⟨256,.vt,false,some ⟨52,[.code],none,false⟩⟩,⟨256,.ff,false,some ⟨25,[],none,false⟩⟩,⟨256,.cr,false,some ⟨26,[],none,false⟩⟩,⟨256,.cr,true,some ⟨27,[],none,false⟩⟩,⟨256,.other,false,some ⟨54,[.code,.emb (.goto 6)],some 0,false⟩⟩,⟨256,.other,false,some ⟨55,[.code],none,false⟩⟩,⟨256,.other,false,some ⟨56,[.code],none,false⟩⟩]⟩,⟨[2,10,17,21,23],none,[],[⟨256,.other,false,some ⟨77,[.code],none,false⟩⟩,⟨256,.ws,false,some ⟨78,[],none,false⟩⟩,⟨256,.lf,false,some ⟨79,[],none,false⟩⟩,⟨256,.vt,false,some ⟨77,[.code],none,false⟩⟩,⟨256,.ff,false,some ⟨80,[],none,false⟩⟩,⟨256,.cr,false,some ⟨81,[],none,false⟩⟩,⟨256,.cr,true,some ⟨82,[],none,false⟩⟩,⟨256,.other,false,some ⟨83,[.emb (.goto 6)],some 0,false⟩⟩,⟨256,.other,false,some ⟨84,[],none,false⟩⟩,⟨256,.other,false,some ⟨85,[],none,false⟩⟩,⟨256,.other,false,some ⟨86,[.emb (.sawCall 3 5),.code],none,false⟩⟩]⟩,⟨[10,18],none,[],[⟨256,.other,false,some ⟨22,[.code],none,false⟩⟩,⟨256,.ws,false,some ⟨23,[],none,false⟩⟩,⟨256,.lf,false,some ⟨24,[],none,false⟩⟩,⟨256,.vt,false,some ⟨22,[.code],none,false⟩⟩,⟨256,.ff,false,some ⟨25,[],none,false⟩⟩,⟨256,.cr,false,some ⟨26,[],none,false⟩⟩,⟨256,.cr,true,some ⟨27,[],none,false⟩⟩,⟨256,.other,false,some ⟨28,[.emb (.goto 6)],some 0,false⟩⟩,⟨256,.other,false,some ⟨29,[],none,false⟩⟩,⟨256,.other,false,some ⟨30,[],none,false⟩⟩]⟩,⟨[9,18],none,[],[⟨256,.other,false,some ⟨22,[.code],none,false⟩⟩,⟨256,.ws,false,some ⟨23,[],none,false⟩⟩,⟨256,.lf,false,some ⟨24,[],none,false⟩⟩,⟨256,.vt,false,some ⟨22,[.code],none,false⟩⟩,⟨256,.ff,false,some ⟨25,[],none,false⟩⟩,⟨256,.cr,false,some ⟨26,[],none,false⟩⟩,⟨256,.cr,true,some ⟨27,[],none,false⟩⟩,⟨256,.other,false,some ⟨28,[.emb (.goto 6)],some 0,false⟩⟩,⟨256,.other,false,some ⟨29,[],none,false⟩⟩,⟨256,.other,false,some ⟨30,[],none,false⟩⟩]⟩,⟨[6,18],none,[],[⟨256,.other,false,some ⟨22,[.setEnt .internalNl,.cb,.code],none,false⟩⟩,⟨256,.ws,false,some ⟨23,[.setEnt .internalNl,.cb],none,false⟩⟩,⟨256,.lf,false,some ⟨24,[.setEnt .internalNl,.cb],none,false⟩⟩,⟨256,.vt,false,some ⟨22,[.setEnt .internalNl,.cb,.code],none,false⟩⟩,⟨256,.ff,false,some ⟨25,[.setEnt .internalNl,.cb],none,false⟩⟩,⟨256,.cr,false,some ⟨26,[.setEnt .internalNl,.cb],none,false⟩⟩,⟨256,.cr,true,some ⟨27,[.setEnt .internalNl,.cb],none,false⟩⟩,⟨256,.other,false,some ⟨28,[.setEnt .internalNl,.cb,.emb (.goto 6)],some 0,false⟩⟩,⟨256,.other,false,some ⟨29,[.setEnt .internalNl,.cb],none,false⟩⟩,⟨256,.other,false,some ⟨30,[.setEnt .internalNl,.cb],none,false⟩⟩]⟩,⟨[7,18],none,[],[⟨256,.other,false,some ⟨22,[.setEnt .internalNl,.cb,.code],none,false⟩⟩,⟨256,.ws,false,some ⟨23,[.setEnt .internalNl,.cb],none,false⟩⟩,⟨256,.lf,false,some ⟨24,[.setEnt .internalNl,.cb],none,false⟩⟩,⟨256,.vt,false,some ⟨22,[.setEnt .internalNl,.cb,.code],none,false⟩⟩,⟨256,.ff,false,some ⟨25,[.setEnt .internalNl,.cb],none,false⟩⟩,⟨256,.cr,false,some ⟨26,[.setEnt .internalNl,.cb],none,false⟩⟩,⟨256,.cr,true,some ⟨27,[.setEnt .internalNl,.cb],none,false⟩⟩,⟨256,.other,false,some ⟨28,[.setEnt .internalNl,.cb,.emb (.goto 6)],some 0,false⟩⟩,⟨256,.other,false,some ⟨29,[.setEnt .internalNl,.cb],none,false⟩⟩,⟨256,.other,false,some ⟨30,[.setEnt .internalNl,.cb],none,false⟩⟩]⟩,⟨[4,18],none,[],[⟨256,.other,false,some ⟨22,[.code],none,false⟩⟩,⟨256,.ws,false,some ⟨23,[],none,false⟩⟩,⟨256,.lf,false,some ⟨31,[],none,false⟩⟩,⟨256,.vt,false,some ⟨22,[.code],none,false⟩⟩,⟨256,.ff,false,some ⟨25,[],none,false⟩⟩,⟨256,.cr,false,some ⟨26,[],none,false⟩⟩,⟨256,.cr,true,some ⟨27,[],none,false⟩⟩,⟨256,.other,false,some ⟨28,[.emb (.goto 6)],some 0,false⟩⟩,⟨256,.other,false,some ⟨29,[],none,false⟩⟩,⟨256,.other,false,some ⟨30,[],none,false⟩⟩]⟩,⟨[4,8,18],none,[],[⟨256,.other,false,some ⟨22,[.setEnt .internalNl,.cb,.code],none,false⟩⟩,⟨256,.ws,false,some ⟨23,[.setEnt .internalNl,.cb],none,false⟩⟩,⟨256,.lf,false,some ⟨31,[.setEnt .internalNl,.cb],none,false⟩⟩,⟨256,.vt,false,some ⟨22,[.setEnt .internalNl,.cb,.code],none,false⟩⟩,⟨256,.ff,false,some ⟨25,[.setEnt .internalNl,.cb],none,false⟩⟩,⟨256,.cr,false,some ⟨26,[.setEnt .internalNl,.cb],none,false⟩⟩,⟨256,.cr,true,some ⟨27,[.setEnt .internalNl,.cb],none,false⟩⟩,⟨256,.other,false,some ⟨28,[.setEnt .internalNl,.cb,.emb (.goto 6)],some 0,false⟩⟩,⟨256,.other,false,some ⟨29,[.setEnt .internalNl,.cb],none,false⟩⟩,⟨256,.other,false,some ⟨30,[.setEnt .internalNl,.cb],none,false⟩⟩]⟩,⟨[18,24],some 0,[],[⟨256,.other,false,some ⟨22,[.code],none,false⟩⟩,⟨256,.ws,false,some ⟨23,[],none,false⟩⟩,⟨256,.lf,false,some ⟨24,[],none,false⟩⟩,⟨256,.vt,false,some ⟨22,[.code],none,false⟩⟩,⟨256,.ff,false,some ⟨25,[],none,false⟩⟩,⟨256,.cr,false,some ⟨26,[],none,false⟩⟩,⟨256,.cr,true,some ⟨27,[],none,false⟩⟩,⟨256,.other,false,some ⟨28,[.emb (.goto 6)],some 0,false⟩⟩,⟨256,.other,false,some ⟨29,[],none,false⟩⟩,⟨256,.other,false,some ⟨30,[],none,false⟩⟩]⟩,⟨[0,13,18],none,[],[⟨256,.other,false,some ⟨32,[.code],none,false⟩⟩,⟨256,.ws,false,some ⟨33,[],none,false⟩⟩,⟨256,.lf,false,some ⟨34,[],none,false⟩⟩,⟨256,.vt,false,some ⟨32,[.code],none,false⟩⟩,⟨256,.ff,false,some ⟨35,[],none,false⟩⟩,⟨256,.cr,false,some ⟨36,[],none,false⟩⟩,⟨256,.cr,true,some ⟨37,[],none,false⟩⟩,⟨256,.other,false,some ⟨38,[.emb (.goto 6)],some 0,false⟩⟩,⟨256,.other,false,some ⟨39,[],none,false⟩⟩,⟨256,.other,false,some ⟨40,[.code],none,false⟩⟩,⟨256,.other,false,some ⟨41,[],none,false⟩⟩]⟩,⟨[11,18],none,[],[⟨256,.other,false,some ⟨52,[.code],none,false⟩⟩,⟨256,.ws,false,some ⟨53,[.code],none,false⟩⟩,⟨256,.lf,false,some ⟨24,[],none,false⟩⟩,⟨256,.vt,false,some ⟨52,[.code],none,false⟩⟩,⟨256,.ff,false,some ⟨25,[],none,false⟩⟩,⟨256,.cr,false,some ⟨26,[],none,false⟩⟩,⟨256,.cr,true,some ⟨27,[],none,false⟩⟩,⟨256,.other,false,some ⟨54,[.code,.emb (.goto 6)],some 0,false⟩⟩,⟨256,.other,false,some ⟨55,[.code],none,false⟩⟩,⟨256,.other,false,some ⟨56,[.code],none,false⟩⟩]⟩,⟨[3,10,19],none,[],[⟨256,.other,false,some ⟨87,[.code],none,false⟩⟩,⟨256,.ws,false,some ⟨88,[],none,false⟩⟩,⟨256,.lf,false,some ⟨89,[],none,false⟩⟩,⟨256,.vt,false,some ⟨87,[.code],none,false⟩⟩,⟨256,.ff,false,some ⟨90,[],none,false⟩⟩,⟨256,.cr,false,some ⟨91,[],none,false⟩⟩,⟨256,.cr,true,some ⟨92,[],none,false⟩⟩,⟨256,.other,false,some ⟨93,[.emb (.goto 6)],some 0,false⟩⟩,⟨256,.other,false,some ⟨94,[],none,false⟩⟩,⟨256,.other,false,some ⟨95,[],none,false⟩⟩]⟩,⟨[10,18,21],none,[],[⟨256,.other,false,some ⟨22,[.code],none,false⟩⟩,⟨256,.ws,false,some ⟨23,[],none,false⟩⟩,⟨256,.lf,false,some ⟨24,[],none,false⟩⟩,⟨256,.vt,false,some ⟨22,[.code],none,false⟩⟩,⟨256,.ff,false,some ⟨25,[],none,false⟩⟩,⟨256,.cr,false,some ⟨26,[],none,false⟩⟩,⟨256,.cr,true,some ⟨27,[],none,false⟩⟩,⟨256,.other,false,some ⟨28,[.emb (.goto 6)],some 0,false⟩⟩,⟨256,.other,false,some ⟨29,[],none,false⟩⟩,⟨256,.other,false,some ⟨30,[],none,false⟩⟩]⟩,⟨[9,18,21],none,[],[⟨256,.other,false,some ⟨22,[.code],none,false⟩⟩,⟨256,.ws,false,some ⟨23,[],none,false⟩⟩,⟨256,.lf,false,some ⟨24,[],none,false⟩⟩,⟨256,.vt,false,some ⟨22,[.code],none,false⟩⟩,⟨256,.ff,false,some ⟨25,[],none,false⟩⟩,⟨256,.cr,false,some ⟨26,[],none,false⟩⟩,⟨256,.cr,true,some ⟨27,[],none,false⟩⟩,⟨256,.other,false,some ⟨28,[.emb (.goto 6)],some 0,false⟩⟩,⟨256,.other,false,some ⟨29,[],none,false⟩⟩,⟨256,.other,false,some ⟨30,[],none,false⟩⟩]⟩,⟨[6,18,21],none,[],[⟨256,.other,false,some ⟨22,[.setEnt .internalNl,.cb,.code],none,false⟩⟩,⟨256,.ws,false,some ⟨23,[.setEnt .internalNl,.cb],none,false⟩⟩,⟨256,.lf,false,some ⟨24,[.setEnt .internalNl,.cb],none,false⟩⟩,⟨256,.vt,false,some ⟨22,[.setEnt .internalNl,.cb,.code],none,false⟩⟩,⟨256,.ff,false,some ⟨25,[.setEnt .internalNl,.cb],none,false⟩⟩,⟨256,.cr,false,some ⟨26,[.setEnt .internalNl,.cb],none,false⟩⟩,⟨256,.cr,true,some ⟨27,[.setEnt .internalNl,.cb],none,false⟩⟩,⟨256,.other,false,some ⟨28,[.setEnt .internalNl,.cb,.emb (.goto 6)],some 0,false⟩⟩,⟨256,.other,false,some ⟨29,[.setEnt .internalNl,.cb],none,false⟩⟩,⟨256,.other,false,some ⟨30,[.setEnt .internalNl,.cb],none,false⟩⟩]⟩,⟨[7,18,21],none,[],[⟨256,.other,false,some ⟨22,[.setEnt .internalNl,.cb,.code],none,false⟩⟩,⟨256,.ws,false,some ⟨23,[.setEnt .internalNl,.cb],none,false⟩⟩,⟨256,.lf,false,some ⟨24,[.setEnt .internalNl,.cb],none,false⟩⟩,⟨256,.vt,false,some ⟨22,[.setEnt .internalNl,.cb,.code],none,false⟩⟩,⟨256,.ff,false,some ⟨25,[.setEnt .internalNl,.cb],none,false⟩⟩,⟨256,.cr,false,some ⟨26,[.setEnt .internalNl,.cb],none,false⟩⟩,⟨256,.cr,true,some ⟨27,[.setEnt .internalNl,.cb],none,false⟩⟩,⟨256,.other,false,some ⟨28,[.setEnt .internalNl,.cb,.emb (.goto 6)],some 0,false⟩⟩,⟨256,.other,false,some ⟨29,[.setEnt .internalNl,.cb],none,false⟩⟩,⟨256,.other,false,some ⟨30,[.setEnt .internalNl,.cb],none,false⟩⟩]⟩,⟨[4,18,21],none,[],[⟨256,.other,false,some ⟨22,[.code],none,false⟩⟩,⟨256,.ws,false,some ⟨23,[],none,false⟩⟩,⟨256,.lf,false,some ⟨31,[],none,false⟩⟩,⟨256,.vt,false,some ⟨22,[.code],none,false⟩⟩,⟨256,.ff,false,some ⟨25,[],none,false⟩⟩,⟨256,.cr,false,some ⟨26,[],none,false⟩⟩,⟨256,.cr,true,some ⟨27,[],none,false⟩⟩,⟨256,.other,false,some ⟨28,[.emb (.goto 6)],some 0,false⟩⟩,⟨256,.other,false,some ⟨29,[],none,false⟩⟩,⟨256,.other,false,some ⟨30,[],none,false⟩⟩]⟩,⟨[4,8,18,21],none,[],[⟨256,.other,false,some ⟨22,[.setEnt .internalNl,.cb,.code],none,false⟩⟩,⟨256,.ws,false,some ⟨23,[.setEnt .internalNl,.cb],none,false⟩⟩,⟨256,.lf,false,some ⟨31,[.setEnt .internalNl,.cb],none,false⟩⟩,⟨256,.vt,false,some ⟨22,[.setEnt .internalNl,.cb,.code],none,false⟩⟩,⟨256,.ff,false,some ⟨25,[.setEnt .internalNl,.cb],none,false⟩⟩,⟨256,.cr,false,some ⟨26,[.setEnt .internalNl,.cb],none,false⟩⟩,⟨256,.cr,true,some ⟨27,[.setEnt .internalNl,.cb],none,false⟩⟩,⟨256,.other,false,some ⟨28,[.setEnt .internalNl,.cb,.emb (.goto 6)],some 0,false⟩⟩,⟨256,.other,false,some ⟨29,[.setEnt .internalNl,.cb],none,false⟩⟩,⟨256,.other,false,some ⟨30,[.setEnt .internalNl,.cb],none,false⟩⟩]⟩,⟨[18,21,24],some 0,[],[⟨256,.other,false,some ⟨22,[.code],none,false⟩⟩,⟨256,.ws,false,some ⟨23,[],none,false⟩⟩,⟨256,.lf,false,some ⟨24,[],none,false⟩⟩,⟨256,.vt,false,some ⟨22,[.code],none,false⟩⟩,⟨256,.ff,false,some ⟨25,[],none,false⟩⟩,⟨256,.cr,false,some ⟨26,[],none,false⟩⟩,⟨256,.cr,true,some ⟨27,[],none,false⟩⟩,⟨256,.other,false,some ⟨28,[.emb (.goto 6)],some 0,false⟩⟩,⟨256,.other,false,some ⟨29,[],none,false⟩⟩,⟨256,.other,false,some ⟨30,[],none,false⟩⟩]⟩,⟨[0,13,18,21],none,[],[⟨256,.other,false,some ⟨32,[.code],none,false⟩⟩,⟨256,.ws,false,some ⟨33,[],none,false⟩⟩,⟨256,.lf,false,some ⟨34,[],none,false⟩⟩,⟨256,.vt,false,some ⟨32,[.code],none,false⟩⟩,⟨256,.ff,false,some ⟨35,[],none,false⟩⟩,⟨256,.cr,false,some ⟨36,[],none,false⟩⟩,⟨256,.cr,true,some ⟨37,[],none,false⟩⟩,⟨256,.other,false,some ⟨38,[.emb (.goto 6)],some 0,false⟩⟩,⟨256,.other,false,some ⟨39,[],none,false⟩⟩,⟨256,.other,false,some ⟨40,[.code],none,false⟩⟩,⟨256,.other,false,some ⟨41,[],none,false⟩⟩]⟩,⟨[11,18,21],none,[],[⟨256,.other,false,some ⟨52,[.code],none,false⟩⟩,⟨256,.ws,false,some ⟨53,[.code],none,false⟩⟩,⟨256,.lf,false,some ⟨24,[],none,false⟩⟩,⟨256,.vt,false,some ⟨52,[.code],none,false⟩⟩,⟨256,.ff,false,some ⟨25,[],none,false⟩⟩,⟨256,.cr,false,some ⟨26,[],none,false⟩⟩,⟨256,.cr,true,some ⟨27,[],none,false⟩⟩,⟨256,.other,false,some ⟨54,[.code,.emb (.goto 6)],some 0,false⟩⟩,⟨256,.other,false,some ⟨55,[.code],none,false⟩⟩,⟨256,.other,false,some ⟨56,[.code],none,false⟩⟩]⟩,⟨[3,10,19,21],none,[],[⟨256,.other,false,some ⟨96,[.code],none,false⟩⟩,⟨256,.ws,false,some ⟨97,[],none,false⟩⟩,⟨256,.lf,false,some ⟨98,[],none,false⟩⟩,⟨256,.vt,false,some ⟨96,[.code],none,false⟩⟩,⟨256,.ff,false,some ⟨99,[],none,false⟩⟩,⟨256,.cr,false,some ⟨100,[],none,false⟩⟩,⟨256,.cr,true,some ⟨101,[],none,false⟩⟩,⟨256,.other,false,some ⟨102,[.emb (.goto 6)],some 0,false⟩⟩,⟨256,.other,false,some ⟨103,[],none,false⟩⟩,⟨256,.other,false,some ⟨104,[],none,false⟩⟩]⟩,⟨[10,20],none,[],[⟨256,.other,false,some ⟨22,[.code],none,false⟩⟩,⟨256,.ws,false,some ⟨23,[],none,false⟩⟩,⟨256,.lf,false,some ⟨24,[],none,false⟩⟩,⟨256,.vt,false,some ⟨22,[.code],none,false⟩⟩,⟨256,.ff,false,some ⟨25,[],none,false⟩⟩,⟨256,.cr,false,some ⟨26,[],none,false⟩⟩,⟨256,.cr,true,some ⟨27,[],none,false⟩⟩,⟨256,.other,false,some ⟨28,[.emb (.goto 6)],some 0,false⟩⟩,⟨256,.other,false,some ⟨29,[],none,false⟩⟩,⟨256,.other,false,some ⟨30,[],none,false⟩⟩]⟩,⟨[9,20],none,[],[⟨256,.other,false,some ⟨22,[.code],none,false⟩⟩,⟨256,.ws,false,some ⟨23,[],none,false⟩⟩,⟨256,.lf,false,some ⟨24,[],none,false⟩⟩,⟨256,.vt,false,some ⟨22,[.code],none,false⟩⟩,⟨256,.ff,false,some ⟨25,[],none,false⟩⟩,⟨256,.cr,false,some ⟨26,[],none,false⟩⟩,⟨256,.cr,true,some ⟨27,[],none,false⟩⟩,⟨256,.other,false,some ⟨28,[.emb (.goto 6)],some 0,false⟩⟩,⟨256,.other,false,some ⟨29,[],none,false⟩⟩,⟨256,.other,false,some ⟨30,[],none,false⟩⟩]⟩,⟨[6,20],none,[],[⟨256,.other,false,some ⟨22,[.setEnt .internalNl,.cb,.code],none,false⟩⟩,⟨256,.ws,false,some ⟨23,[.setEnt .internalNl,.cb],none,false⟩⟩,⟨256,.lf,false,some ⟨24,[.setEnt .internalNl,.cb],none,false⟩⟩,⟨256,.vt,false,some ⟨22,[.setEnt .internalNl,.cb,.code],none,false⟩⟩,⟨256,.ff,false,some ⟨25,[.setEnt .internalNl,.cb],none,false⟩⟩,⟨256,.cr,false,some ⟨26,[.setEnt .internalNl,.cb],none,false⟩⟩,⟨256,.cr,true,some ⟨27,[.setEnt .internalNl,.cb],none,false⟩⟩,⟨256,.other,false,some ⟨28,[.setEnt .internalNl,.cb,.emb (.goto 6)],some 0,false⟩⟩,⟨256,.other,false,some ⟨29,[.setEnt .internalNl,.cb],none,false⟩⟩,⟨256,.other,false,some ⟨30,[.setEnt .internalNl,.cb],none,false⟩⟩]⟩,⟨[7,20],none,[],[⟨256,.other,false,some ⟨22,[.setEnt .internalNl,.cb,.code],none,false⟩⟩,⟨256,.ws,false,some ⟨23,[.setEnt .internalNl,.cb],none,false⟩⟩,⟨256,.lf,false,some ⟨24,[.setEnt .internalNl,.cb],none,false⟩⟩,⟨256,.vt,false,some ⟨22,[.setEnt .internalNl,.cb,.code],none,false⟩⟩,⟨256,.ff,false,some ⟨25,[.setEnt .internalNl,.cb],none,false⟩⟩,⟨256,.cr,false,some ⟨26,[.setEnt .internalNl,.cb],none,false⟩⟩,⟨256,.cr,true,some ⟨27,[.setEnt .internalNl,.cb],none,false⟩⟩,⟨256,.other,false,some ⟨28,[.setEnt .internalNl,.cb,.emb (.goto 6)],some 0,false⟩⟩,⟨256,.other,false,some ⟨29,[.setEnt .internalNl,.cb],none,false⟩⟩,⟨256,.other,false,some ⟨30,[.setEnt .internalNl,.cb],none,false⟩⟩]⟩,⟨[4,20],none,[],[⟨256,.other,false,some ⟨22,[.code],none,false⟩⟩,⟨256,.ws,false,some ⟨23,[],none,false⟩⟩,⟨256,.lf,false,some ⟨31,[],none,false⟩⟩,⟨256,.vt,false,some ⟨22,[.code],none,false⟩⟩,⟨256,.ff,false,some ⟨25,[],none,false⟩⟩,⟨256,.cr,false,some ⟨26,[],none,false⟩⟩,⟨256,.cr,true,some ⟨27,[],none,false⟩⟩,⟨256,.other,false,some ⟨28,[.emb (.goto 6)],some 0,false⟩⟩,⟨256,.other,false,some ⟨29,[],none,false⟩⟩,⟨256,.other,false,some ⟨30,[],none,false⟩⟩]⟩,⟨[4,8,20],none,[],[⟨256,.other,false,some ⟨22,[.setEnt .internalNl,.cb,.code],none,false⟩⟩,⟨256,.ws,false,some ⟨23,[.setEnt .internalNl,.cb],none,false⟩⟩,⟨256,.lf,false,some ⟨31,[.setEnt .internalNl,.cb],none,false⟩⟩,⟨256,.vt,false,some ⟨22,[.setEnt .internalNl,.cb,.code],none,false⟩⟩,⟨256,.ff,false,some ⟨25,[.setEnt .internalNl,.cb],none,false⟩⟩,⟨256,.cr,false,some ⟨26,[.setEnt .internalNl,.cb],none,false⟩⟩,⟨256,.cr,true,some ⟨27,[.setEnt .internalNl,.cb],none,false⟩⟩,⟨256,.other,false,some ⟨28,[.setEnt .internalNl,.cb,.emb (.goto 6)],some 0,false⟩⟩,⟨256,.other,false,some ⟨29,[.setEnt .internalNl,.cb],none,false⟩⟩,⟨256,.other,false,some ⟨30,[.setEnt .internalNl,.cb],none,false⟩⟩]⟩,⟨[20,24],some 0,[],[⟨256,.other,false,some ⟨22,[.code],none,false⟩⟩,⟨256,.ws,false,some ⟨23,[],none,false⟩⟩,⟨256,.lf,false,some ⟨24,[],none,false⟩⟩,⟨256,.vt,false,some ⟨22,[.code],none,false⟩⟩,⟨256,.ff,false,some ⟨25,[],none,false⟩⟩,⟨256,.cr,false,some ⟨26,[],none,false⟩⟩,⟨256,.cr,true,some ⟨27,[],none,false⟩⟩,⟨256,.other,false,some ⟨28,[.emb (.goto 6)],some 0,false⟩⟩,⟨256,.other,false,some ⟨29,[],none,false⟩⟩,⟨256,.other,false,some ⟨30,[],none,false⟩⟩]⟩,⟨[0,13,20],none,[],[⟨256,.other,false,some ⟨32,[.code],none,false⟩⟩,⟨256,.ws,false,some ⟨33,[],none,false⟩⟩,⟨256,.lf,false,some ⟨34,[],none,false⟩⟩,⟨256,.vt,false,some ⟨32,[.code],none,false⟩⟩,⟨256,.ff,false,some ⟨35,[],none,false⟩⟩,⟨256,.cr,false,some ⟨36,[],none,false⟩⟩,⟨256,.cr,true,some ⟨37,[],none,false⟩⟩,⟨256,.other,false,some ⟨38,[.emb (.goto 6)],some 0,false⟩⟩,⟨256,.other,false,some ⟨39,[],none,false⟩⟩,⟨256,.other,false,some ⟨40,[.code],none,false⟩⟩,⟨256,.other,false,some ⟨41,[],none,false⟩⟩]⟩,⟨[11,20],none,[],[⟨256,.other,false,some ⟨52,[.code],none,false⟩⟩,⟨256,.ws,false,some ⟨53,[.code],none,false⟩⟩,⟨256,.lf,false,some ⟨24,[],none,false⟩⟩,⟨256,.vt,false,some ⟨52,[.code],none,false⟩⟩,⟨256,.ff,false,some ⟨25,[],none,false⟩⟩,⟨256,.cr,false,some ⟨26,[],none,false⟩⟩,⟨256,.cr,true,some ⟨27,[],none,false⟩⟩,⟨256,.other,false,some ⟨54,[.code,.emb (.goto 6)],some 0,false⟩⟩,⟨256,.other,false,some ⟨55,[.code],none,false⟩⟩,⟨256,.other,false,some ⟨56,[.code],none,false⟩⟩]⟩,⟨[10,20,21],none,[],[⟨256,.other,false,some ⟨22,[.code],none,false⟩⟩,⟨256,.ws,false,some ⟨23,[],none,false⟩⟩,⟨256,.lf,false,some ⟨24,[],none,false⟩⟩,⟨256,.vt,false,some ⟨22,[.code],none,false⟩⟩,⟨256,.ff,false,some ⟨25,[],none,false⟩⟩,⟨256,.cr,false,some ⟨26,[],none,false⟩⟩,⟨256,.cr,true,some ⟨27,[],none,false⟩⟩,⟨256,.other,false,some ⟨28,[.emb (.goto 6)],some 0,false⟩⟩,⟨256,.other,false,some ⟨29,[],none,false⟩⟩,⟨256,.other,false,some ⟨30,[],none,false⟩⟩]⟩,⟨[9,20,21],none,[],[⟨256,.other,false,some ⟨22,[.code],none,false⟩⟩,⟨256,.ws,false,some ⟨23,[],none,false⟩⟩,⟨256,.lf,false,some ⟨24,[],none,false⟩⟩,⟨256,.vt,false,some ⟨22,[.code],none,false⟩⟩,⟨256,.ff,false,some ⟨25,[],none,false⟩⟩,⟨256,.cr,false,some ⟨26,[],none,false⟩⟩,⟨256,.cr,true,some ⟨27,[],none,false⟩⟩,⟨256,.other,false,some ⟨28,[.emb (.goto 6)],some 0,false⟩⟩,⟨256,.other,false,some ⟨29,[],none,false⟩⟩,⟨256,.other,false,some ⟨30,[],none,false⟩⟩]⟩,⟨[6,20,21],none,[],[⟨256,.other,false,some ⟨22,[.setEnt .internalNl,.cb,.code],none,false⟩⟩,⟨256,.ws,false,some ⟨23,[.setEnt .internalNl,.cb],none,false⟩⟩,⟨256,.lf,false,some ⟨24,[.setEnt .internalNl,.cb],none,false⟩⟩,⟨256,.vt,false,some ⟨22,[.setEnt .internalNl,.cb,.code],none,false⟩⟩,⟨256,.ff,false,some ⟨25,[.setEnt .internalNl,.cb],none,false⟩⟩,⟨256,.cr,false,some ⟨26,[.setEnt .internalNl,.cb],none,false⟩⟩,⟨256,.cr,true,some ⟨27,[.setEnt .internalNl,.cb],none,false⟩⟩,⟨256,.other,false,some ⟨28,[.setEnt .internalNl,.cb,.emb (.goto 6)],some 0,false⟩⟩,⟨256,.other,false,some ⟨29,[.setEnt .internalNl,.cb],none,false⟩⟩,⟨256,.other,false,some ⟨30,[.setEnt .internalNl,.cb],none,false⟩⟩]⟩,⟨[7,20,21],none,[],[⟨256,.other,false,some ⟨22,[.setEnt .internalNl,.cb,.code],none,false⟩⟩,⟨256,.ws,false,some ⟨23,[.setEnt .internalNl,.cb],none,false⟩⟩,⟨256,.lf,false,some ⟨24,[.setEnt .internalNl,.cb],none,false⟩⟩,⟨256,.vt,false,some ⟨22,[.setEnt .internalNl,.cb,.code],none,false⟩⟩,⟨256,.ff,false,some ⟨25,[.setEnt .internalNl,.cb],none,false⟩⟩,⟨256,.cr,false,some ⟨26,[.setEnt .internalNl,.cb],none,false⟩⟩,⟨256,.cr,true,some ⟨27,[.setEnt .internalNl,.cb],none,false⟩⟩,⟨256,.other,false,some ⟨28,[.setEnt .internalNl,.cb,.emb (.goto 6)],some 0,false⟩⟩,⟨256,.other,false,some ⟨29,[.setEnt .internalNl,.cb],none,false⟩⟩,⟨256,.other,false,some ⟨30,[.setEnt .internalNl,.cb],none,false⟩⟩]⟩,⟨[4,20,21],none,[],[⟨256,.other,false,some ⟨22,[.code],none,false⟩⟩,⟨256,.ws,false,some ⟨23,[],none,false⟩⟩,⟨256,.lf,false,some ⟨31,[],none,false⟩⟩,⟨256,.vt,false,some ⟨22,[.code],none,false⟩⟩,⟨256,.ff,false,some ⟨25,[],none,false⟩⟩,⟨256,.cr,false,some ⟨26,[],none,false⟩⟩,⟨256,.cr,true,some ⟨27,[],none,false⟩⟩,⟨256,.other,false,some ⟨28,[.emb (.goto 6)],some 0,false⟩⟩,⟨256,.other,false,some ⟨29,[],none,false⟩⟩,⟨256,.other,false,some ⟨30,[],none,false⟩⟩]⟩,⟨[4,8,20,21],none,[],[⟨256,.other,false,some ⟨22,[.setEnt .internalNl,.cb,.code],none,false⟩⟩,⟨256,.ws,false,some ⟨23,[.setEnt .internalNl,.cb],none,false⟩⟩,⟨256,.lf,false,some ⟨31,[.setEnt .internalNl,.cb],none,false⟩⟩,⟨256,.vt,false,some ⟨22,[.setEnt .internalNl,.cb,.code],none,false⟩⟩,⟨256,.ff,false,some ⟨25,[.setEnt .internalNl,.cb],none,false⟩⟩,⟨256,.cr,false,some ⟨26,[.setEnt .internalNl,.cb],none,false⟩⟩,⟨256,.cr,true,some ⟨27,[.setEnt .internalNl,.cb],none,false⟩⟩,⟨256,.other,false,some ⟨28,[.setEnt .internalNl,.cb,.emb (.goto 6)],some 0,false⟩⟩,⟨256,.other,false,some ⟨29,[.setEnt .internalNl,.cb],none,false⟩⟩,⟨256,.other,false,some ⟨30,[.setEnt .internalNl,.cb],none,false⟩⟩]⟩,⟨[20,21,24],some 0,[],[⟨256,.other,false,some ⟨22,[.code],none,false⟩⟩,⟨256,.ws,false,some ⟨23,[],none,false⟩⟩,⟨256,.lf,false,some ⟨24,[],none,false⟩⟩,⟨256,.vt,false,some ⟨22,[.code],none,false⟩⟩,⟨256,.ff,false,some ⟨25,[],none,false⟩⟩,⟨256,.cr,false,some ⟨26,[],none,false⟩⟩,⟨256,.cr,true,some ⟨27,[],none,false⟩⟩,⟨256,.other,false,some ⟨28,[.emb (.goto 6)],some 0,false⟩⟩,⟨256,.other,false,some ⟨29,[],none,false⟩⟩,⟨256,.other,false,some ⟨30,[],none,false⟩⟩]⟩,⟨[0,13,20,21],none,[],[⟨256,.other,false,some ⟨32,[.code],none,false⟩⟩,⟨256,.ws,false,some ⟨33,[],none,false⟩⟩,⟨256,.lf,false,some ⟨34,[],none,false⟩⟩,⟨256,.vt,false,some ⟨32,[.code],none,false⟩⟩,⟨256,.ff,false,some ⟨35,[],none,false⟩⟩,⟨256,.cr,false,some ⟨36,[],none,false⟩⟩,⟨256,.cr,true,some ⟨37,[],none,false⟩⟩,⟨256,.other,false,some ⟨38,[.emb (.goto 6)],some 0,false⟩⟩,⟨256,.other,false,some ⟨39,[],none,false⟩⟩,⟨256,.other,false,some ⟨40,[.code],none,false⟩⟩,⟨256,.other,false,some ⟨41,[],none,false⟩⟩]⟩,⟨[11,20,21],none,[],[⟨256,.other,false,some ⟨52,[.code],none,false⟩⟩,⟨256,.ws,false,some ⟨53,[.code],none,false⟩⟩,⟨256,.lf,false,some ⟨24,[],none,false⟩⟩,⟨256,.vt,false,some ⟨52,[.code],none,false⟩⟩,⟨256,.ff,false,some ⟨25,[],none,false⟩⟩,⟨256,.cr,false,some ⟨26,[],none,false⟩⟩,⟨256,.cr,true,some ⟨27,[],none,false⟩⟩,⟨256,.other,false,some ⟨54,[.code,.emb (.goto 6)],some 0,false⟩⟩,⟨256,.other,false,some ⟨55,[.code],none,false⟩⟩,⟨256,.other,false,some ⟨56,[.code],none,false⟩⟩]⟩]
theorem emb41_rowsOk : rowsOk emb41_nfa [] (emb41_cs.map (·.1)) emb41_rows = true := by decide +kernel
def emb41_D : Dfa emb41_nfa := ⟨emb41_masks, [], emb41_cs, emb41_rows, emb41_masksIn, emb41_repOk, emb41_rowsOk⟩

/-- The automaton of `Emb.CsAspx.cs_aspx_cs_entity`. -/
def emb48_nfa : Nfa := ⟨[⟨0,137438953472,[],[],0,0⟩,⟨2,1152921504606846976,[],[],0,0⟩,⟨17,4294983168,[],[(5,.setEnt (.own 0))],0,0⟩,⟨18,140737488355328,[],[(6,.setEnt (.own 1))],0,0⟩,⟨27,140737488355328,[],[(6,.setEnt (.own 1))],0,2⟩,⟨32,115792089237316195423570985008687907853269984665640564039457584007908834656767,[],[],0,0⟩],[[⟨1,4611686018427387904,[],[(3,.code),(4,.emb .ret)],0,0⟩],[],[⟨3,140737488355328,[],[],0,0⟩],[⟨4,41538374877950027585161004031410176,[],[],0,0⟩],[⟨5,633825300261688653338028015616,[],[],0,0⟩],[⟨6,20769187438975013792580502015705088,[],[],0,0⟩],[⟨7,40564819216748073813633792999424,[],[],0,0⟩],[⟨8,5192296859743753448145125503926272,[],[],0,0⟩],[⟨9,83076749755900055170322008062820352,[],[],0,0⟩],[⟨10,4294967808,[],[],0,0⟩,⟨11,8192,[],[],0,0⟩,⟨13,1024,[],[(0,.setEnt .internalNl)],0,0⟩,⟨14,4096,[],[(0,.setEnt .internalNl)],0,0⟩,⟨15,8192,[.crAlone],[(0,.setEnt .internalNl)],0,0⟩,⟨16,4611686018427387904,[],[(2,.emb .outry),(3,.code),(4,.emb .ret)],0,0⟩],[⟨10,4294967808,[],[],0,0⟩,⟨11,8192,[],[],0,0⟩,⟨13,1024,[],[(0,.setEnt .internalNl)],0,0⟩,⟨14,4096,[],[(0,.setEnt .internalNl)],0,0⟩,⟨15,8192,[.crAlone],[(0,.setEnt .internalNl)],0,0⟩,⟨16,4611686018427387904,[],[(2,.emb .outry),(3,.code),(4,.emb .ret)],0,0⟩],[⟨12,1024,[],[(0,.setEnt .internalNl)],0,0⟩],[⟨10,4294967808,[],[(1,.cb)],0,0⟩,⟨11,8192,[],[(1,.cb)],0,0⟩,⟨13,1024,[],[(1,.cb),(0,.setEnt .internalNl)],0,0⟩,⟨14,4096,[],[(1,.cb),(0,.setEnt .internalNl)],0,0⟩,⟨15,8192,[.crAlone],[(1,.cb),(0,.setEnt .internalNl)],0,0⟩,⟨16,4611686018427387904,[],[(1,.cb),(2,.emb .outry),(3,.code),(4,.emb .ret)],0,0⟩],[⟨10,4294967808,[],[(1,.cb)],0,0⟩,⟨11,8192,[],[(1,.cb)],0,0⟩,⟨13,1024,[],[(1,.cb),(0,.setEnt .internalNl)],0,0⟩,⟨14,4096,[],[(1,.cb),(0,.setEnt .internalNl)],0,0⟩,⟨15,8192,[.crAlone],[(1,.cb),(0,.setEnt .internalNl)],0,0⟩,⟨16,4611686018427387904,[],[(1,.cb),(2,.emb .outry),(3,.code),(4,.emb .ret)],0,0⟩],[⟨10,4294967808,[],[(1,.cb)],0,0⟩,⟨11,8192,[],[(1,.cb)],0,0⟩,⟨13,1024,[],[(1,.cb),(0,.setEnt .internalNl)],0,0⟩,⟨14,4096,[],[(1,.cb),(0,.setEnt .internalNl)],0,0⟩,⟨15,8192,[.crAlone],[(1,.cb),(0,.setEnt .internalNl)],0,0⟩,⟨16,4611686018427387904,[],[(1,.cb),(2,.emb .outry),(3,.code),(4,.emb .ret)],0,0⟩],[⟨10,4294967808,[],[(1,.cb)],0,0⟩,⟨11,8192,[],[(1,.cb)],0,0⟩,⟨13,1024,[],[(1,.cb),(0,.setEnt .internalNl)],0,0⟩,⟨14,4096,[],[(1,.cb),(0,.setEnt .internalNl)],0,0⟩,⟨15,8192,[.crAlone],[(1,.cb),(0,.setEnt .internalNl)],0,0⟩,⟨16,4611686018427387904,[],[(1,.cb),(2,.emb .outry),(3,.code),(4,.emb .ret)],0,0⟩],[],[⟨17,4294983168,[],[(5,.setEnt (.own 0))],0,0⟩],[⟨19,140737488355328,[],[(6,.setEnt (.own 1))],0,0⟩],[⟨20,4951760157141521099596496896,[],[(6,.setEnt (.own 1))],0,0⟩,⟨26,115792089237316195423570985008687907853269984665640564039457584007913129626623,[],[(6,.setEnt (.own 1))],0,0⟩],[⟨21,8192,[],[(6,.setEnt (.own 1))],0,0⟩,⟨23,1024,[],[(6,.setEnt (.own 1))],0,0⟩,⟨24,4096,[],[(6,.setEnt (.own 1))],0,0⟩,⟨25,8192,[.crAlone],[(6,.setEnt (.own 1))],0,0⟩],[⟨22,1024,[],[(6,.setEnt (.own 1))],0,0⟩],[⟨20,4951760157141521099596496896,[],[(6,.setEnt (.own 1))],0,0⟩,⟨26,115792089237316195423570985008687907853269984665640564039457584007913129626623,[],[(6,.setEnt (.own 1))],0,0⟩],[⟨20,4951760157141521099596496896,[],[(6,.setEnt (.own 1))],0,0⟩,⟨26,115792089237316195423570985008687907853269984665640564039457584007913129626623,[],[(6,.setEnt (.own 1))],0,0⟩],[⟨20,4951760157141521099596496896,[],[(6,.setEnt (.own 1))],0,0⟩,⟨26,115792089237316195423570985008687907853269984665640564039457584007913129626623,[],[(6,.setEnt (.own 1))],0,0⟩],[⟨20,4951760157141521099596496896,[],[(6,.setEnt (.own 1))],0,0⟩,⟨26,115792089237316195423570985008687907853269984665640564039457584007913129626623,[],[(6,.setEnt (.own 1))],0,0⟩],[⟨20,4951760157141521099596496896,[],[(6,.setEnt (.own 1))],0,0⟩,⟨26,115792089237316195423570985008687907853269984665640564039457584007913129626623,[],[(6,.setEnt (.own 1))],0,0⟩],[⟨28,4398046511104,[],[(6,.setEnt (.own 1))],0,2⟩],[⟨29,115792089237316195423570985008687907853269984665640564039457584007913129639935,[],[(6,.setEnt (.own 1))],0,2⟩,⟨30,4398046511104,[],[(6,.setEnt (.own 1))],0,2⟩],[⟨29,115792089237316195423570985008687907853269984665640564039457584007913129639935,[],[(6,.setEnt (.own 1))],0,2⟩,⟨30,4398046511104,[],[(6,.setEnt (.own 1))],0,2⟩],[⟨31,140737488355328,[],[(6,.setEnt (.own 1))],2,0⟩],[],[]],[none,some (0,[]),none,none,none,none,none,none,none,none,none,none,none,none,none,none,some (0,[]),some (1,[]),none,some (2,[]),none,none,some (2,[]),some (2,[]),some (2,[]),some (2,[]),some (2,[]),none,none,none,none,some (2,[]),some (3,[])],[5,6,7,7]⟩
def emb48_masks : List Nat := [137438953472,1152921504606846976,4294983168,140737488355328,115792089237316195423570985008687907853269984665640564039457584007908834656767,4611686018427387904,41538374877950027585161004031410176,633825300261688653338028015616,20769187438975013792580502015705088,40564819216748073813633792999424,5192296859743753448145125503926272,83076749755900055170322008062820352,4294967808,8192,1024,4096,4951760157141521099596496896,115792089237316195423570985008687907853269984665640564039457584007913129626623,4398046511104,115792089237316195423570985008687907853269984665640564039457584007913129639935]
def emb48_cs : List (Nat × Nat) := [(0,115792089237316195423570985008687907853269834047828035193434919058401795228159),(9,4294967808),(10,1024),(11,2048),(12,4096),(13,8192),(37,137438953472),(42,4398046511104),(47,140737488355328),(60,1152921504606846976),(62,4611686018427387904),(67,633825300261688653338028015616),(73,40564819216748073813633792999424),(80,5192296859743753448145125503926272),(82,20769187438975013792580502015705088),(83,41538374877950027585161004031410176),(84,83076749755900055170322008062820352),(92,4951760157141521099596496896)]
theorem emb48_masksIn : masksIn emb48_nfa emb48_masks = true := by decide +kernel
theorem emb48_repOk : repOk emb48_masks emb48_cs = true := by decide +kernel
def emb48_rows : List Row := [⟨[],none,[],[⟨256,.other,false,some ⟨0,[],some 3,true⟩⟩,⟨256,.ws,false,some ⟨1,[.setEnt (.own 0)],some 1,false⟩⟩,⟨256,.lf,false,some ⟨1,[.setEnt (.own 0)],some 1,false⟩⟩,⟨256,.vt,false,some ⟨1,[.setEnt (.own 0)],some 1,false⟩⟩,⟨256,.ff,false,some ⟨1,[.setEnt (.own 0)],some 1,false⟩⟩,⟨256,.cr,false,some ⟨1,[.setEnt (.own 0)],some 1,false⟩⟩,⟨256,.cr,true,some ⟨1,[.setEnt (.own 0)],some 1,false⟩⟩,⟨256,.other,false,some ⟨2,[],some 3,false⟩⟩,⟨256,.other,false,some ⟨3,[.setEnt (.own 1)],some 3,false⟩⟩,⟨256,.other,false,some ⟨4,[],some 3,false⟩⟩]⟩,⟨[17],some 1,[],[⟨256,.other,false,none⟩,⟨256,.ws,false,some ⟨1,[.setEnt (.own 0)],some 1,false⟩⟩,⟨256,.lf,false,some ⟨1,[.setEnt (.own 0)],some 1,false⟩⟩,⟨256,.vt,false,some ⟨1,[.setEnt (.own 0)],some 1,false⟩⟩,⟨256,.ff,false,some ⟨1,[.setEnt (.own 0)],some 1,false⟩⟩,⟨256,.cr,false,some ⟨1,[.setEnt (.own 0)],some 1,false⟩⟩,⟨256,.cr,true,some ⟨1,[.setEnt (.own 0)],some 1,false⟩⟩]⟩,⟨[0,32],some 3,[],[⟨256,.other,false,none⟩,⟨256,.ws,false,none⟩,⟨256,.lf,false,none⟩,⟨256,.vt,false,none⟩,⟨256,.ff,false,none⟩,⟨256,.cr,false,none⟩,⟨256,.cr,true,none⟩,⟨256,.other,false,some ⟨0,[.code,.emb .ret],some 0,true⟩⟩]⟩,⟨[18,27,32],some 3,[],[⟨256,.other,false,none⟩,⟨256,.ws,false,none⟩,⟨256,.lf,false,none⟩,⟨256,.vt,false,none⟩,⟨256,.ff,false,none⟩,⟨256,.cr,false,none⟩,⟨256,.cr,true,none⟩,⟨256,.other,false,some ⟨5,[.setEnt (.own 1)],none,false⟩⟩,⟨256,.other,false,some ⟨6,[.setEnt (.own 1)],some 2,false⟩⟩]⟩,⟨[2,32],some 3,[],[⟨256,.other,false,none⟩,⟨256,.ws,false,none⟩,⟨256,.lf,false,none⟩,⟨256,.vt,false,none⟩,⟨256,.ff,false,none⟩,⟨256,.cr,false,none⟩,⟨256,.cr,true,none⟩,⟨256,.other,false,some ⟨7,[],none,false⟩⟩]⟩,⟨[28],none,[],[⟨256,.other,false,some ⟨8,[.setEnt (.own 1)],none,false⟩⟩,⟨256,.ws,false,some ⟨8,[.setEnt (.own 1)],none,false⟩⟩,⟨256,.lf,false,some ⟨8,[.setEnt (.own 1)],none,false⟩⟩,⟨256,.vt,false,some ⟨8,[.setEnt (.own 1)],none,false⟩⟩,⟨256,.ff,false,some ⟨8,[.setEnt (.own 1)],none,false⟩⟩,⟨256,.cr,false,some ⟨8,[.setEnt (.own 1)],none,false⟩⟩,⟨256,.cr,true,some ⟨8,[.setEnt (.own 1)],none,false⟩⟩,⟨256,.other,false,some ⟨9,[.setEnt (.own 1)],none,false⟩⟩]⟩,⟨[19],some 2,[],[⟨256,.other,false,some ⟨10,[.setEnt (.own 1)],some 2,false⟩⟩,⟨256,.ws,false,some ⟨10,[.setEnt (.own 1)],some 2,false⟩⟩,⟨256,.lf,false,none⟩,⟨256,.vt,false,some ⟨10,[.setEnt (.own 1)],some 2,false⟩⟩,⟨256,.ff,false,none⟩,⟨256,.cr,false,none⟩,⟨256,.cr,true,none⟩,⟨256,.other,false,some ⟨11,[.setEnt (.own 1)],some 2,false⟩⟩]⟩,⟨[3],none,[],[⟨256,.other,false,none⟩,⟨256,.ws,false,none⟩,⟨256,.lf,false,none⟩,⟨256,.vt,false,none⟩,⟨256,.ff,false,none⟩,⟨256,.cr,false,none⟩,⟨256,.cr,true,none⟩,⟨256,.other,false,some ⟨12,[],none,false⟩⟩]⟩,⟨[29],none,[],[⟨256,.other,false,some ⟨8,[.setEnt (.own 1)],none,false⟩⟩,⟨256,.ws,false,some ⟨8,[.setEnt (.own 1)],none,false⟩⟩,⟨256,.lf,false,some ⟨8,[.setEnt (.own 1)],none,false⟩⟩,⟨256,.vt,false,some ⟨8,[.setEnt (.own 1)],none,false⟩⟩,⟨256,.ff,false,some ⟨8,[.setEnt (.own 1)],none,false⟩⟩,⟨256,.cr,false,some ⟨8,[.setEnt (.own 1)],none,false⟩⟩,⟨256,.cr,true,some ⟨8,[.setEnt (.own 1)],none,false⟩⟩,⟨256,.other,false,some ⟨9,[.setEnt (.own 1)],none,false⟩⟩]⟩,⟨[29,30],none,[],[⟨256,.other,false,some ⟨8,[.setEnt (.own 1)],none,false⟩⟩,⟨256,.ws,false,some ⟨8,[.setEnt (.own 1)],none,false⟩⟩,⟨256,.lf,false,some ⟨8,[.setEnt (.own 1)],none,false⟩⟩,⟨256,.vt,false,some ⟨8,[.setEnt (.own 1)],none,false⟩⟩,⟨256,.ff,false,some ⟨8,[.setEnt (.own 1)],none,false⟩⟩,⟨256,.cr,false,some ⟨8,[.setEnt (.own 1)],none,false⟩⟩,⟨256,.cr,true,some ⟨8,[.setEnt (.own 1)],none,false⟩⟩,⟨256,.other,false,some ⟨9,[.setEnt (.own 1)],none,false⟩⟩,⟨256,.other,false,some ⟨0,[.setEnt (.own 1)],some 2,true⟩⟩]⟩,⟨[26],some 2,[],[⟨256,.other,false,some ⟨10,[.setEnt (.own 1)],some 2,false⟩⟩,⟨256,.ws,false,some ⟨10,[.setEnt (.own 1)],some 2,false⟩⟩,⟨256,.lf,false,none⟩,⟨256,.vt,false,some ⟨10,[.setEnt (.own 1)],some 2,false⟩⟩,⟨256,.ff,false,none⟩,⟨256,.cr,false,none⟩,⟨256,.cr,true,none⟩,⟨256,.other,false,some ⟨11,[.setEnt (.own 1)],some 2,false⟩⟩]⟩,⟨[20,26],some 2,[],[⟨256,.other,false,some ⟨10,[.setEnt (.own 1)],some 2,false⟩⟩,⟨256,.ws,false,some ⟨10,[.setEnt (.own 1)],some 2,false⟩⟩,⟨256,.lf,false,some ⟨13,[.setEnt (.own 1)],some 2,false⟩⟩,⟨256,.vt,false,some ⟨10,[.setEnt (.own 1)],some 2,false⟩⟩,⟨256,.ff,false,some ⟨14,[.setEnt (.own 1)],some 2,false⟩⟩,⟨256,.cr,false,some ⟨15,[.setEnt (.own 1)],none,false⟩⟩,⟨256,.cr,true,some ⟨16,[.setEnt (.own 1)],some 2,false⟩⟩,⟨256,.other,false,some ⟨11,[.setEnt (.own 1)],some 2,false⟩⟩]⟩,⟨[4],none,[],[⟨256,.other,false,none⟩,⟨256,.ws,false,none⟩,⟨256,.lf,false,none⟩,⟨256,.vt,false,none⟩,⟨256,.ff,false,none⟩,⟨256,.cr,false,none⟩,⟨256,.cr,true,none⟩,⟨256,.other,false,some ⟨17,[],none,false⟩⟩]⟩,⟨[23],some 2,[],[⟨256,.other,false,some ⟨10,[.setEnt (.own 1)],some 2,false⟩⟩,⟨256,.ws,false,some ⟨10,[.setEnt (.own 1)],some 2,false⟩⟩,⟨256,.lf,false,none⟩,⟨256,.vt,false,some ⟨10,[.setEnt (.own 1)],some 2,false⟩⟩,⟨256,.ff,false,none⟩,⟨256,.cr,false,none⟩,⟨256,.cr,true,none⟩,⟨256,.other,false,some ⟨11,[.setEnt (.own 1)],some 2,false⟩⟩]⟩,⟨[24],some 2,[],[⟨256,.other,false,some ⟨10,[.setEnt (.own 1)],some 2,false⟩⟩,⟨256,.ws,false,some ⟨10,[.setEnt (.own 1)],some 2,false⟩⟩,⟨256,.lf,false,none⟩,⟨256,.vt,false,some ⟨10,[.setEnt (.own 1)],some 2,false⟩⟩,⟨256,.ff,false,none⟩,⟨256,.cr,false,none⟩,⟨256,.cr,true,none⟩,⟨256,.other,false,some ⟨11,[.setEnt (.own 1)],some 2,false⟩⟩]⟩,⟨[21],none,[],[⟨256,.other,false,none⟩,⟨256,.ws,false,none⟩,⟨256,.lf,false,some ⟨18,[.setEnt (.own 1)],some 2,false⟩⟩,⟨256,.vt,false,none⟩,⟨256,.ff,false,none⟩,⟨256,.cr,false,none⟩,⟨256,.cr,true,none⟩]⟩,⟨[21,25],some 2,[],[⟨256,.other,false,some ⟨10,[.setEnt (.own 1)],some 2,false⟩⟩,⟨256,.ws,false,some ⟨10,[.setEnt (.own 1)],some 2,false⟩⟩,⟨256,.lf,false,some ⟨18,[.setEnt (.own 1)],some 2,false⟩⟩,⟨256,.vt,false,some ⟨10,[.setEnt (.own 1)],some 2,false⟩⟩,⟨256,.ff,false,none⟩,⟨256,.cr,false,none⟩,⟨256,.cr,true,none⟩,⟨256,.other,false,some ⟨11,[.setEnt (.own 1)],some 2,false⟩⟩]⟩,⟨[5],none,[],[⟨256,.other,false,none⟩,⟨256,.ws,false,none⟩,⟨256,.lf,false,none⟩,⟨256,.vt,false,none⟩,⟨256,.ff,false,none⟩,⟨256,.cr,false,none⟩,⟨256,.cr,true,none⟩,⟨256,.other,false,some ⟨19,[],none,false⟩⟩]⟩,⟨[22],some 2,[],[⟨256,.other,false,some ⟨10,[.setEnt (.own 1)],some 2,false⟩⟩,⟨256,.ws,false,some ⟨10,[.setEnt (.own 1)],some 2,false⟩⟩,⟨256,.lf,false,none⟩,⟨256,.vt,false,some ⟨10,[.setEnt (.own 1)],some 2,false⟩⟩,⟨256,.ff,false,none⟩,⟨256,.cr,false,none⟩,⟨256,.cr,true,none⟩,⟨256,.other,false,some ⟨11,[.setEnt (.own 1)],some 2,false⟩⟩]⟩,⟨[6],none,[],[⟨256,.other,false,none⟩,⟨256,.ws,false,none⟩,⟨256,.lf,false,none⟩,⟨256,.vt,false,none⟩,⟨256,.ff,false,none⟩,⟨256,.cr,false,none⟩,⟨256,.cr,true,none⟩,⟨256,.other,false,some ⟨20,[],none,false⟩⟩]⟩,⟨[7],none,[],[⟨256,.other,false,none⟩,⟨256,.ws,false,none⟩,⟨256,.lf,false,none⟩,⟨256,.vt,false,none⟩,⟨256,.ff,false,none⟩,⟨256,.cr,false,none⟩,⟨256,.cr,true,none⟩,⟨256,.other,false,some ⟨21,[],none,false⟩⟩]⟩,⟨[8],none,[],[⟨256,.other,false,none⟩,⟨256,.ws,false,none⟩,⟨256,.lf,false,none⟩,⟨256,.vt,false,none⟩,⟨256,.ff,false,none⟩,⟨256,.cr,false,none⟩,⟨256,.cr,true,none⟩,⟨256,.other,false,some ⟨22,[],none,false⟩⟩]⟩,⟨[9],none,[],[⟨256,.other,false,none⟩,⟨256,.ws,false,some ⟨23,[],none,false⟩⟩,⟨256,.lf,false,some ⟨24,[.setEnt .internalNl],none,false⟩⟩,⟨256,.vt,false,none⟩,⟨256,.ff,false,some ⟨25,[.setEnt .internalNl],none,false⟩⟩,⟨256,.cr,false,some ⟨26,[],none,false⟩⟩,⟨256,.cr,true,some ⟨27,[.setEnt .internalNl],none,false⟩⟩,⟨256,.other,false,some ⟨0,[.emb .outry,.code,.emb .ret],some 0,true⟩⟩]⟩,⟨[10],none,[],[⟨256,.other,false,none⟩,⟨256,.ws,false,some ⟨23,[],none,false⟩⟩,⟨256,.lf,false,some ⟨24,[.setEnt .internalNl],none,false⟩⟩,⟨256,.vt,false,none⟩,⟨256,.ff,false,some ⟨25,[.setEnt .internalNl],none,false⟩⟩,⟨256,.cr,false,some ⟨26,[],none,false⟩⟩,⟨256,.cr,true,some ⟨27,[.setEnt .internalNl],none,false⟩⟩,⟨256,.other,false,some ⟨0,[.emb .outry,.code,.emb .ret],some 0,true⟩⟩]⟩,⟨[13],none,[],[⟨256,.other,false,none⟩,⟨256,.ws,false,some ⟨23,[.cb],none,false⟩⟩,⟨256,.lf,false,some ⟨24,[.setEnt .internalNl,.cb],none,false⟩⟩,⟨256,.vt,false,none⟩,⟨256,.ff,false,some ⟨25,[.setEnt .internalNl,.cb],none,false⟩⟩,⟨256,.cr,false,some ⟨26,[.cb],none,false⟩⟩,⟨256,.cr,true,some ⟨27,[.setEnt .internalNl,.cb],none,false⟩⟩,⟨256,.other,false,some ⟨0,[.cb,.emb .outry,.code,.emb .ret],some 0,true⟩⟩]⟩,⟨[14],none,[],[⟨256,.other,false,none⟩,⟨256,.ws,false,some ⟨23,[.cb],none,false⟩⟩,⟨256,.lf,false,some ⟨24,[.setEnt .internalNl,.cb],none,false⟩⟩,⟨256,.vt,false,none⟩,⟨256,.ff,false,some ⟨25,[.setEnt .internalNl,.cb],none,false⟩⟩,⟨256,.cr,false,some ⟨26,[.cb],none,false⟩⟩,⟨256,.cr,true,some ⟨27,[.setEnt .internalNl,.cb],none,false⟩⟩,⟨256,.other,false,some ⟨0,[.cb,.emb .outry,.code,.emb .ret],some 0,true⟩⟩]⟩,⟨[11],none,[],[⟨256,.other,false,none⟩,⟨256,.ws,false,none⟩,⟨256,.lf,false,some ⟨28,[.setEnt .internalNl],none,false⟩⟩,⟨256,.vt,false,none⟩,⟨256,.ff,false,none⟩,⟨256,.cr,false,none⟩,⟨256,.cr,true,none⟩]⟩,⟨[11,15],none,[],[⟨256,.other,false,none⟩,⟨256,.ws,false,some ⟨23,[.cb],none,false⟩⟩,⟨256,.lf,false,some ⟨29,[.setEnt .internalNl,.cb],none,false⟩⟩,⟨256,.vt,false,none⟩,⟨256,.ff,false,some ⟨25,[.setEnt .internalNl,.cb],none,false⟩⟩,⟨256,.cr,false,some ⟨26,[.cb],none,false⟩⟩,⟨256,.cr,true,some ⟨27,[.setEnt .internalNl,.cb],none,false⟩⟩,⟨256,.other,false,some ⟨0,[.cb,.emb .outry,.code,.emb .ret],some 0,true⟩⟩]⟩,⟨[12],none,[],[⟨256,.other,false,none⟩,⟨256,.ws,false,some ⟨23,[.cb],none,false⟩⟩,⟨256,.lf,false,some ⟨24,[.setEnt .internalNl,.cb],none,false⟩⟩,⟨256,.vt,false,none⟩,⟨256,.ff,false,some ⟨25,[.setEnt .internalNl,.cb],none,false⟩⟩,⟨256,.cr,false,some ⟨26,[.cb],none,false⟩⟩,⟨256,.cr,true,some ⟨27,[.setEnt .internalNl,.cb],none,false⟩⟩,⟨256,.other,false,some ⟨0,[.cb,.emb .outry,.code,.emb .ret],some 0,true⟩⟩]⟩,⟨[12,13],none,[],[⟨256,.other,false,none⟩,⟨256,.ws,false,some ⟨23,[.cb],none,false⟩⟩,⟨256,.lf,false,some ⟨24,[.setEnt .internalNl,.cb],none,false⟩⟩,⟨256,.vt,false,none⟩,⟨256,.ff,false,some ⟨25,[.setEnt .internalNl,.cb],none,false⟩⟩,⟨256,.cr,false,some ⟨26,[.cb],none,false⟩⟩,⟨256,.cr,true,some ⟨27,[.setEnt .internalNl,.cb],none,false⟩⟩,⟨256,.other,false,some ⟨0,[.cb,.emb .outry,.code,.emb .ret],some 0,true⟩⟩]⟩]
theorem emb48_rowsOk : rowsOk emb48_nfa [] (emb48_cs.map (·.1)) emb48_rows = true := by decide +kernel
def emb48_D : Dfa emb48_nfa := ⟨emb48_masks, [], emb48_cs, emb48_rows, emb48_masksIn, emb48_repOk, emb48_rowsOk⟩
def emb48_maskst : List Nat := [137438953472,1152921504606846976,4294983168,140737488355328,115792089237316195423570985008687907853269984665640564039457584007908834656767,4611686018427387904,41538374877950027585161004031410176,633825300261688653338028015616,20769187438975013792580502015705088,40564819216748073813633792999424,5192296859743753448145125503926272,83076749755900055170322008062820352,4294967808,8192,1024,4096,4951760157141521099596496896,115792089237316195423570985008687907853269984665640564039457584007913129626623,4398046511104,115792089237316195423570985008687907853269984665640564039457584007913129639935]
def emb48_cst : List (Nat × Nat) := [(0,115792089237316195423570985008687907853269834047828035193434919058401795228159),(9,4294967808),(10,1024),(11,2048),(12,4096),(13,8192),(37,137438953472),(42,4398046511104),(47,140737488355328),(60,1152921504606846976),(62,4611686018427387904),(67,633825300261688653338028015616),(73,40564819216748073813633792999424),(80,5192296859743753448145125503926272),(82,20769187438975013792580502015705088),(83,41538374877950027585161004031410176),(84,83076749755900055170322008062820352),(92,4951760157141521099596496896)]
theorem emb48_masksInt : masksIn emb48_nfa emb48_maskst = true := by decide +kernel
theorem emb48_repOkt : repOk emb48_maskst emb48_cst = true := by decide +kernel
def emb48_rowst : List Row := [⟨[],none,[],[⟨256,.other,false,some ⟨0,[],some 3,true⟩⟩,⟨256,.ws,false,some ⟨1,[.setEnt (.own 0)],some 1,false⟩⟩,⟨256,.lf,false,some ⟨1,[.setEnt (.own 0)],some 1,false⟩⟩,⟨256,.vt,false,some ⟨1,[.setEnt (.own 0)],some 1,false⟩⟩,⟨256,.ff,false,some ⟨1,[.setEnt (.own 0)],some 1,false⟩⟩,⟨256,.cr,false,some ⟨1,[.setEnt (.own 0)],some 1,false⟩⟩,⟨256,.cr,true,some ⟨1,[.setEnt (.own 0)],some 1,false⟩⟩,⟨256,.other,false,some ⟨2,[],some 3,false⟩⟩,⟨47,.other,false,some ⟨3,[.setEnt (.own 1)],some 3,false⟩⟩,⟨60,.other,false,some ⟨4,[],some 3,false⟩⟩,⟨62,.other,false,some ⟨0,[],some 3,true⟩⟩]⟩,⟨[17],some 1,[],[⟨256,.other,false,none⟩,⟨256,.ws,false,some ⟨1,[.setEnt (.own 0)],some 1,false⟩⟩,⟨256,.lf,false,some ⟨1,[.setEnt (.own 0)],some 1,false⟩⟩,⟨256,.vt,false,some ⟨1,[.setEnt (.own 0)],some 1,false⟩⟩,⟨256,.ff,false,some ⟨1,[.setEnt (.own 0)],some 1,false⟩⟩,⟨256,.cr,false,some ⟨1,[.setEnt (.own 0)],some 1,false⟩⟩,⟨256,.cr,true,some ⟨1,[.setEnt (.own 0)],some 1,false⟩⟩,⟨47,.other,false,none⟩,⟨60,.other,false,none⟩,⟨62,.other,false,none⟩]⟩,⟨[0,32],some 3,[],[⟨256,.other,false,none⟩,⟨256,.ws,false,none⟩,⟨256,.lf,false,none⟩,⟨256,.vt,false,none⟩,⟨256,.ff,false,none⟩,⟨256,.cr,false,none⟩,⟨256,.cr,true,none⟩,⟨47,.other,false,none⟩,⟨60,.other,false,none⟩,⟨62,.other,false,some ⟨0,[.code,.emb .ret],some 0,true⟩⟩]⟩,⟨[18,27,32],some 3,[],[⟨256,.other,false,none⟩,⟨256,.ws,false,none⟩,⟨256,.lf,false,none⟩,⟨256,.vt,false,none⟩,⟨256,.ff,false,none⟩,⟨256,.cr,false,none⟩,⟨256,.cr,true,none⟩,⟨256,.other,false,some ⟨5,[.setEnt (.own 1)],none,false⟩⟩,⟨47,.other,false,some ⟨6,[.setEnt (.own 1)],some 2,false⟩⟩,⟨60,.other,false,none⟩,⟨62,.other,false,none⟩]⟩,⟨[2,32],some 3,[],[⟨256,.other,false,none⟩,⟨256,.ws,false,none⟩,⟨256,.lf,false,none⟩,⟨256,.vt,false,none⟩,⟨256,.ff,false,none⟩,⟨256,.cr,false,none⟩,⟨256,.cr,true,none⟩,⟨47,.other,false,some ⟨7,[],none,false⟩⟩,⟨60,.other,false,none⟩,⟨62,.other,false,none⟩]⟩,⟨[28],none,[],[⟨256,.other,false,some ⟨8,[.setEnt (.own 1)],none,false⟩⟩,⟨256,.ws,false,some ⟨8,[.setEnt (.own 1)],none,false⟩⟩,⟨256,.lf,false,some ⟨8,[.setEnt (.own 1)],none,false⟩⟩,⟨256,.vt,false,some ⟨8,[.setEnt (.own 1)],none,false⟩⟩,⟨256,.ff,false,some ⟨8,[.setEnt (.own 1)],none,false⟩⟩,⟨256,.cr,false,some ⟨8,[.setEnt (.own 1)],none,false⟩⟩,⟨256,.cr,true,some ⟨8,[.setEnt (.own 1)],none,false⟩⟩,⟨256,.other,false,some ⟨9,[.setEnt (.own 1)],none,false⟩⟩,⟨47,.other,false,some ⟨8,[.setEnt (.own 1)],none,false⟩⟩,⟨60,.other,false,some ⟨8,[.setEnt (.own 1)],none,false⟩⟩,⟨62,.other,false,some ⟨8,[.setEnt (.own 1)],none,false⟩⟩]⟩,⟨[19],some 2,[],[⟨256,.other,false,some ⟨10,[.setEnt (.own 1)],some 2,false⟩⟩,⟨256,.ws,false,some ⟨10,[.setEnt (.own 1)],some 2,false⟩⟩,⟨256,.lf,false,none⟩,⟨256,.vt,false,some ⟨10,[.setEnt (.own 1)],some 2,false⟩⟩,⟨256,.ff,false,none⟩,⟨256,.cr,false,none⟩,⟨256,.cr,true,none⟩,⟨47,.other,false,some ⟨10,[.setEnt (.own 1)],some 2,false⟩⟩,⟨60,.other,false,some ⟨10,[.setEnt (.own 1)],some 2,false⟩⟩,⟨62,.other,false,some ⟨10,[.setEnt (.own 1)],some 2,false⟩⟩,⟨256,.other,false,some ⟨11,[.setEnt (.own 1)],some 2,false⟩⟩]⟩,⟨[3],none,[],[⟨256,.other,false,none⟩,⟨256,.ws,false,none⟩,⟨256,.lf,false,none⟩,⟨256,.vt,false,none⟩,⟨256,.ff,false,none⟩,⟨256,.cr,false,none⟩,⟨256,.cr,true,none⟩,⟨47,.other,false,none⟩,⟨60,.other,false,none⟩,⟨62,.other,false,none⟩,⟨256,.other,false,some ⟨12,[],none,false⟩⟩]⟩,⟨[29],none,[],[⟨256,.other,false,some ⟨8,[.setEnt (.own 1)],none,false⟩⟩,⟨256,.ws,false,some ⟨8,[.setEnt (.own 1)],none,false⟩⟩,⟨256,.lf,false,some ⟨8,[.setEnt (.own 1)],none,false⟩⟩,⟨256,.vt,false,some ⟨8,[.setEnt (.own 1)],none,false⟩⟩,⟨256,.ff,false,some ⟨8,[.setEnt (.own 1)],none,false⟩⟩,⟨256,.cr,false,some ⟨8,[.setEnt (.own 1)],none,false⟩⟩,⟨256,.cr,true,some ⟨8,[.setEnt (.own 1)],none,false⟩⟩,⟨256,.other,false,some ⟨9,[.setEnt (.own 1)],none,false⟩⟩,⟨47,.other,false,some ⟨8,[.setEnt (.own 1)],none,false⟩⟩,⟨60,.other,false,some ⟨8,[.setEnt (.own 1)],none,false⟩⟩,⟨62,.other,false,some ⟨8,[.setEnt (.own 1)],none,false⟩⟩]⟩,⟨[29,30],none,[],[⟨256,.other,false,some ⟨8,[.setEnt (.own 1)],none,false⟩⟩,⟨256,.ws,false,some ⟨8,[.setEnt (.own 1)],none,false⟩⟩,⟨256,.lf,false,some ⟨8,[.setEnt (.own 1)],none,false⟩⟩,⟨256,.vt,false,some ⟨8,[.setEnt (.own 1)],none,false⟩⟩,⟨256,.ff,false,some ⟨8,[.setEnt (.own 1)],none,false⟩⟩,⟨256,.cr,false,some ⟨8,[.setEnt (.own 1)],none,false⟩⟩,⟨256,.cr,true,some ⟨8,[.setEnt (.own 1)],none,false⟩⟩,⟨256,.other,false,some ⟨9,[.setEnt (.own 1)],none,false⟩⟩,⟨47,.other,false,some ⟨0,[.setEnt (.own 1)],some 2,true⟩⟩,⟨60,.other,false,some ⟨8,[.setEnt (.own 1)],none,false⟩⟩,⟨62,.other,false,some ⟨8,[.setEnt (.own 1)],none,false⟩⟩]⟩,⟨[26],some 2,[],[⟨256,.other,false,some ⟨10,[.setEnt (.own 1)],some 2,false⟩⟩,⟨256,.ws,false,some ⟨10,[.setEnt (.own 1)],some 2,false⟩⟩,⟨256,.lf,false,none⟩,⟨256,.vt,false,some ⟨10,[.setEnt (.own 1)],some 2,false⟩⟩,⟨256,.ff,false,none⟩,⟨256,.cr,false,none⟩,⟨256,.cr,true,none⟩,⟨47,.other,false,some ⟨10,[.setEnt (.own 1)],some 2,false⟩⟩,⟨60,.other,false,some ⟨10,[.setEnt (.own 1)],some 2,false⟩⟩,⟨62,.other,false,some ⟨10,[.setEnt (.own 1)],some 2,false⟩⟩,⟨256,.other,false,some ⟨11,[.setEnt (.own 1)],some 2,false⟩⟩]⟩,⟨[20,26],some 2,[],[⟨256,.other,false,some ⟨10,[.setEnt (.own 1)],some 2,false⟩⟩,⟨256,.ws,false,some ⟨10,[.setEnt (.own 1)],some 2,false⟩⟩,⟨256,.lf,false,some ⟨13,[.setEnt (.own 1)],some 2,false⟩⟩,⟨256,.vt,false,some ⟨10,[.setEnt (.own 1)],some 2,false⟩⟩,⟨256,.ff,false,some ⟨14,[.setEnt (.own 1)],some 2,false⟩⟩,⟨256,.cr,false,some ⟨15,[.setEnt (.own 1)],none,false⟩⟩,⟨256,.cr,true,some ⟨16,[.setEnt (.own 1)],some 2,false⟩⟩,⟨47,.other,false,some ⟨10,[.setEnt (.own 1)],some 2,false⟩⟩,⟨60,.other,false,some ⟨10,[.setEnt (.own 1)],some 2,false⟩⟩,⟨62,.other,false,some ⟨10,[.setEnt (.own 1)],some 2,false⟩⟩,⟨256,.other,false,some ⟨11,[.setEnt (.own 1)],some 2,false⟩⟩]⟩,⟨[4],none,[],[⟨256,.other,false,none⟩,⟨256,.ws,false,none⟩,⟨256,.lf,false,none⟩,⟨256,.vt,false,none⟩,⟨256,.ff,false,none⟩,⟨256,.cr,false,none⟩,⟨256,.cr,true,none⟩,⟨47,.other,false,none⟩,⟨60,.other,false,none⟩,⟨62,.other,false,none⟩,⟨256,.other,false,some ⟨17,[],none,false⟩⟩]⟩,⟨[23],some 2,[],[⟨256,.other,false,some ⟨10,[.setEnt (.own 1)],some 2,false⟩⟩,⟨256,.ws,false,some ⟨10,[.setEnt (.own 1)],some 2,false⟩⟩,⟨256,.lf,false,none⟩,⟨256,.vt,false,some ⟨10,[.setEnt (.own 1)],some 2,false⟩⟩,⟨256,.ff,false,none⟩,⟨256,.cr,false,none⟩,⟨256,.cr,true,none⟩,⟨47,.other,false,some ⟨10,[.setEnt (.own 1)],some 2,false⟩⟩,⟨60,.other,false,some ⟨10,[.setEnt (.own 1)],some 2,false⟩⟩,⟨62,.other,false,some ⟨10,[.setEnt (.own 1)],some 2,false⟩⟩,⟨256,.other,false,some ⟨11,[.setEnt (.own 1)],some 2,false⟩⟩]⟩,⟨[24],some 2,[],[⟨256,.other,false,some ⟨10,[.setEnt (.own 1)],some 2,false⟩⟩,⟨256,.ws,false,some ⟨10,[.setEnt (.own 1)],some 2,false⟩⟩,⟨256,.lf,false,none⟩,⟨256,.vt,false,some ⟨10,[.setEnt (.own 1)],some 2,false⟩⟩,⟨256,.ff,false,none⟩,⟨256,.cr,false,none⟩,⟨256,.cr,true,none⟩,⟨47,.other,false,some ⟨10,[.setEnt (.own 1)],some 2,false⟩⟩,⟨60,.other,false,some ⟨10,[.setEnt (.own 1)],some 2,false⟩⟩,⟨62,.other,false,some ⟨10,[.setEnt (.own 1)],some 2,false⟩⟩,⟨256,.other,false,some ⟨11,[.setEnt (.own 1)],some 2,false⟩⟩]⟩,⟨[21],none,[],[⟨256,.other,false,none⟩,⟨256,.ws,false,none⟩,⟨256,.lf,false,some ⟨18,[.setEnt (.own 1)],some 2,false⟩⟩,⟨256,.vt,false,none⟩,⟨256,.ff,false,none⟩,⟨256,.cr,false,none⟩,⟨256,.cr,true,none⟩,⟨47,.other,false,none⟩,⟨60,.other,false,none⟩,⟨62,.other,false,none⟩]⟩,⟨[21,25],some 2,[],[⟨256,.other,false,some ⟨10,[.setEnt (.own 1)],some 2,false⟩⟩,⟨256,.ws,false,some ⟨10,[.setEnt (.own 1)],some 2,false⟩⟩,⟨256,.lf,false,some ⟨18,[.setEnt (.own 1)],some 2,false⟩⟩,⟨256,.vt,false,some ⟨10,[.setEnt (.own 1)],some 2,false⟩⟩,⟨256,.ff,false,none⟩,⟨256,.cr,false,none⟩,⟨256,.cr,true,none⟩,⟨47,.other,false,some ⟨10,[.setEnt (.own 1)],some 2,false⟩⟩,⟨60,.other,false,some ⟨10,[.setEnt (.own 1)],some 2,false⟩⟩,⟨62,.other,false,some ⟨10,[.setEnt (.own 1)],some 2,false⟩⟩,⟨256,.other,false,some ⟨11,[.setEnt (.own 1)],some 2,false⟩⟩]⟩,⟨[5],none,[],[⟨256,.other,false,none⟩,⟨256,.ws,false,none⟩,⟨256,.lf,false,none⟩,⟨256,.vt,false,none⟩,⟨256,.ff,false,none⟩,⟨256,.cr,false,none⟩,⟨256,.cr,true,none⟩,⟨47,.other,false,none⟩,⟨60,.other,false,none⟩,⟨62,.other,false,none⟩,⟨256,.other,false,some ⟨19,[],none,false⟩⟩]⟩,⟨[22],some 2,[],[⟨256,.other,false,some ⟨10,[.setEnt (.own 1)],some 2,false⟩⟩,⟨256,.ws,false,some ⟨10,[.setEnt (.own 1)],some 2,false⟩⟩,⟨256,.lf,false,none⟩,⟨256,.vt,false,some ⟨10,[.setEnt (.own 1)],some 2,false⟩⟩,⟨256,.ff,false,none⟩,⟨256,.cr,false,none⟩,⟨256,.cr,true,none⟩,⟨47,.other,false,some ⟨10,[.setEnt (.own 1)],some 2,false⟩⟩,⟨60,.other,false,some ⟨10,[.setEnt (.own 1)],some 2,false⟩⟩,⟨62,.other,false,some ⟨10,[.setEnt (.own 1)],some 2,false⟩⟩,⟨256,.other,false,some ⟨11,[.setEnt (.own 1)],some 2,false⟩⟩]⟩,⟨[6],none,[],[⟨256,.other,false,none⟩,⟨256,.ws,false,none⟩,⟨256,.lf,false,none⟩,⟨256,.vt,false,none⟩,⟨256,.ff,false,none⟩,⟨256,.cr,false,none⟩,⟨256,.cr,true,none⟩,⟨47,.other,false,none⟩,⟨60,.other,false,none⟩,⟨62,.other,false,none⟩,⟨256,.other,false,some ⟨20,[],none,false⟩⟩]⟩,⟨[7],none,[],[⟨256,.other,false,none⟩,⟨256,.ws,false,none⟩,⟨256,.lf,false,none⟩,⟨256,.vt,false,none⟩,⟨256,.ff,false,none⟩,⟨256,.cr,false,none⟩,⟨256,.cr,true,none⟩,⟨47,.other,false,none⟩,⟨60,.other,false,none⟩,⟨62,.other,false,none⟩,⟨256,.other,false,some ⟨21,[],none,false⟩⟩]⟩,⟨[8],none,[],[⟨256,.other,false,none⟩,⟨256,.ws,false,none⟩,⟨256,.lf,false,none⟩,⟨256,.vt,false,none⟩,⟨256,.ff,false,none⟩,⟨256,.cr,false,none⟩,⟨256,.cr,true,none⟩,⟨47,.other,false,none⟩,⟨60,.other,false,none⟩,⟨62,.other,false,none⟩,⟨256,.other,false,some ⟨22,[],none,false⟩⟩]⟩,⟨[9],none,[],[⟨256,.other,false,none⟩,⟨256,.ws,false,some ⟨23,[],none,false⟩⟩,⟨256,.lf,false,some ⟨24,[.setEnt .internalNl],none,false⟩⟩,⟨256,.vt,false,none⟩,⟨256,.ff,false,some ⟨25,[.setEnt .internalNl],none,false⟩⟩,⟨256,.cr,false,some ⟨26,[],none,false⟩⟩,⟨256,.cr,true,some ⟨27,[.setEnt .internalNl],none,false⟩⟩,⟨47,.other,false,none⟩,⟨60,.other,false,none⟩,⟨62,.other,false,some ⟨0,[.emb .outry,.code,.emb .ret],some 0,true⟩⟩]⟩,⟨[10],none,[],[⟨256,.other,false,none⟩,⟨256,.ws,false,some ⟨23,[],none,false⟩⟩,⟨256,.lf,false,some ⟨24,[.setEnt .internalNl],none,false⟩⟩,⟨256,.vt,false,none⟩,⟨256,.ff,false,some ⟨25,[.setEnt .internalNl],none,false⟩⟩,⟨256,.cr,false,some ⟨26,[],none,false⟩⟩,⟨256,.cr,true,some ⟨27,[.setEnt .internalNl],none,false⟩⟩,⟨47,.other,false,none⟩,⟨60,.other,false,none⟩,⟨62,.other,false,some ⟨0,[.emb .outry,.code,.emb .ret],some 0,true⟩⟩]⟩,⟨[13],none,[],[⟨256,.other,false,none⟩,⟨256,.ws,false,some ⟨23,[.cb],none,false⟩⟩,⟨256,.lf,false,some ⟨24,[.setEnt .internalNl,.cb],none,false⟩⟩,⟨256,.vt,false,none⟩,⟨256,.ff,false,some ⟨25,[.setEnt .internalNl,.cb],none,false⟩⟩,⟨256,.cr,false,some ⟨26,[.cb],none,false⟩⟩,⟨256,.cr,true,some ⟨27,[.setEnt .internalNl,.cb],none,false⟩⟩,⟨47,.other,false,none⟩,⟨60,.other,false,none⟩,⟨62,.other,false,some ⟨0,[.cb,.emb .outry,.code,.emb .ret],some 0,true⟩⟩]⟩,⟨[14],none,[],[⟨256,.other,false,none⟩,⟨256,.ws,false,some ⟨23,[.cb],none,false⟩⟩,⟨256,.lf,false,some ⟨24,[.setEnt .internalNl,.cb],none,false⟩⟩,⟨256,.vt,false,none⟩,⟨256,.ff,false,some ⟨25,[.setEnt .internalNl,.cb],none,false⟩⟩,⟨256,.cr,false,some ⟨26,[.cb],none,false⟩⟩,⟨256,.cr,true,some ⟨27,[.setEnt .internalNl,.cb],none,false⟩⟩,⟨47,.other,false,none⟩,⟨60,.other,false,none⟩,⟨62,.other,false,some ⟨0,[.cb,.emb .outry,.code,.emb .ret],some 0,true⟩⟩]⟩,⟨[11],none,[],[⟨256,.other,false,none⟩,⟨256,.ws,false,none⟩,⟨256,.lf,false,some ⟨28,[.setEnt .internalNl],none,false⟩⟩,⟨256,.vt,false,none⟩,⟨256,.ff,false,none⟩,⟨256,.cr,false,none⟩,⟨256,.cr,true,none⟩,⟨47,.other,false,none⟩,⟨60,.other,false,none⟩,⟨62,.other,false,none⟩]⟩,⟨[11,15],none,[],[⟨256,.other,false,none⟩,⟨256,.ws,false,some ⟨23,[.cb],none,false⟩⟩,⟨256,.lf,false,some ⟨29,[.setEnt .internalNl,.cb],none,false⟩⟩,⟨256,.vt,false,none⟩,⟨256,.ff,false,some ⟨25,[.setEnt .internalNl,.cb],none,false⟩⟩,⟨256,.cr,false,some ⟨26,[.cb],none,false⟩⟩,⟨256,.cr,true,some ⟨27,[.setEnt .internalNl,.cb],none,false⟩⟩,⟨47,.other,false,none⟩,⟨60,.other,false,none⟩,⟨62,.other,false,some ⟨0,[.cb,.emb .outry,.code,.emb .ret],some 0,true⟩⟩]⟩,⟨[12],none,[],[⟨256,.other,false,none⟩,⟨256,.ws,false,some ⟨23,[.cb],none,false⟩⟩,⟨256,.lf,false,some ⟨24,[.setEnt .internalNl,.cb],none,false⟩⟩,⟨256,.vt,false,none⟩,⟨256,.ff,false,some ⟨25,[.setEnt .internalNl,.cb],none,false⟩⟩,⟨256,.cr,false,some ⟨26,[.cb],none,false⟩⟩,⟨256,.cr,true,some ⟨27,[.setEnt .internalNl,.cb],none,false⟩⟩,⟨47,.other,false,none⟩,⟨60,.other,false,none⟩,⟨62,.other,false,some ⟨0,[.cb,.emb .outry,.code,.emb .ret],some 0,true⟩⟩]⟩,⟨[12,13],none,[],[⟨256,.other,false,none⟩,⟨256,.ws,false,some ⟨23,[.cb],none,false⟩⟩,⟨256,.lf,false,some ⟨24,[.setEnt .internalNl,.cb],none,false⟩⟩,⟨256,.vt,false,none⟩,⟨256,.ff,false,some ⟨25,[.setEnt .internalNl,.cb],none,false⟩⟩,⟨256,.cr,false,some ⟨26,[.cb],none,false⟩⟩,⟨256,.cr,true,some ⟨27,[.setEnt .internalNl,.cb],none,false⟩⟩,⟨47,.other,false,none⟩,⟨60,.other,false,none⟩,⟨62,.other,false,some ⟨0,[.cb,.emb .outry,.code,.emb .ret],some 0,true⟩⟩]⟩]
theorem emb48_rowsOkt : rowsOk emb48_nfa [47, 60, 62] (emb48_cst.map (·.1)) emb48_rowst = true := by decide +kernel
def emb48_Dt : Dfa emb48_nfa := ⟨emb48_maskst, [47, 60, 62], emb48_cst, emb48_rowst, emb48_masksInt, emb48_repOkt, emb48_rowsOkt⟩

/-- The automaton of `Emb.CsAspx.cs_aspx_entity`. -/
def emb49_nfa : Nfa := ⟨[⟨0,1152921504606846976,[],[],0,2⟩,⟨17,1152921504606846976,[],[],0,4⟩,⟨42,1152921504606846976,[],[],0,0⟩,⟨44,1152921504606846976,[],[],0,8⟩,⟨60,4294983168,[],[(1,.setEnt (.own 0))],0,0⟩,⟨61,1152921504606846976,[],[(2,.setEnt (.own 1))],0,16⟩,⟨69,115792089237316195423570985008687907853269984665640564039457584007908834656767,[],[],0,0⟩],[[⟨1,41538374877950027585161004031410176,[],[],0,2⟩],[⟨2,83076749755900055170322008062820352,[],[],0,2⟩],[⟨3,2658455992188801765450304258010251264,[],[],0,2⟩],[⟨4,324518553733984590509070343995392,[],[],0,2⟩],[⟨5,2535301201046754613352112062464,[],[],0,2⟩],[⟨6,115792089237316195423570985008687907853269984665640564039452972321894702252031,[],[],0,2⟩],[⟨6,115792089237316195423570985008687907853269984665640564039452972321894702252031,[],[],0,2⟩,⟨7,83076749736557242056487941267521536,[],[],0,2⟩],[⟨8,2535301200456458802993406410752,[],[],0,0⟩],[⟨9,1329227995784915872903807060280344576,[],[],0,0⟩],[⟨10,83076749736557242056487941267521536,[],[],0,0⟩],[⟨11,140737488355328,[],[],0,0⟩],[⟨12,633825300114114700748351602688,[],[],0,0⟩],[⟨13,41538374868278621028243970633760768,[],[],0,0⟩],[⟨14,41538374868278621028243970633760768,[],[],2,0⟩],[⟨15,115792089237316195423570985008687907853269984665640564039452972321894702252031,[],[],0,0⟩],[⟨15,115792089237316195423570985008687907853269984665640564039452972321894702252031,[],[],0,0⟩,⟨16,4611686018427387904,[],[],0,0⟩],[],[⟨18,41538374877950027585161004031410176,[],[],0,4⟩],[⟨19,633825300261688653338028015616,[],[],0,4⟩],[⟨20,20769187438975013792580502015705088,[],[],0,4⟩],[⟨21,40564819216748073813633792999424,[],[],0,4⟩],[⟨22,5192296859743753448145125503926272,[],[],0,4⟩],[⟨23,83076749755900055170322008062820352,[],[],0,4⟩],[⟨24,115792089237316195423570985008687907853269984665640564039452972321894702252031,[],[],0,4⟩],[⟨24,115792089237316195423570985008687907853269984665640564039452972321894702252031,[],[],0,4⟩,⟨25,83076749736557242056487941267521536,[],[],0,4⟩],[⟨26,2535301200456458802993406410752,[],[],0,0⟩],[⟨27,1329227995784915872903807060280344576,[],[],0,0⟩],[⟨28,83076749736557242056487941267521536,[],[],0,0⟩],[⟨29,140737488355328,[],[],0,0⟩],[⟨30,81129638414606681695789005144064,[],[],0,0⟩],[⟨31,158456325028528675187087900672,[],[],0,0⟩],[⟨32,332306998946228968225951765070086144,[],[],0,0⟩],[⟨33,158456325028528675187087900672,[],[],0,0⟩],[⟨34,41538374868278621028243970633760768,[],[],0,0⟩],[⟨35,633825300114114700748351602688,[],[],0,0⟩],[⟨36,20769187434139310514121985316880384,[],[],0,0⟩],[⟨37,40564819207303340847894502572032,[],[],0,0⟩],[⟨38,5192296858534827628530496329220096,[],[],0,0⟩],[⟨39,83076749736557242056487941267521536,[],[],4,0⟩],[⟨40,115792089237316195423570985008687907853269984665640564039452972321894702252031,[],[],0,0⟩],[⟨40,115792089237316195423570985008687907853269984665640564039452972321894702252031,[],[],0,0⟩,⟨41,4611686018427387904,[],[],0,0⟩],[],[⟨43,137438953472,[],[(0,.code)],0,0⟩],[],[⟨45,41538374877950027585161004031410176,[],[],0,8⟩],[⟨46,633825300261688653338028015616,[],[],0,8⟩],[⟨47,20769187438975013792580502015705088,[],[],0,8⟩],[⟨48,40564819216748073813633792999424,[],[],0,8⟩],[⟨49,5192296859743753448145125503926272,[],[],0,8⟩],[⟨50,83076749755900055170322008062820352,[],[],0,8⟩],[⟨51,115792089237316195423570985008687907853269984665640564039452972321894702252031,[],[],0,8⟩],[⟨51,115792089237316195423570985008687907853269984665640564039452972321894702252031,[],[],0,8⟩,⟨52,41538374868278621028243970633760768,[],[],0,8⟩],[⟨53,2535301200456458802993406410752,[],[],0,0⟩],[⟨54,20769187434139310514121985316880384,[],[],0,0⟩],[⟨55,332306998946228968225951765070086144,[],[],0,0⟩],[⟨56,2535301200456458802993406410752,[],[],0,0⟩],[⟨57,20769187434139310514121985316880384,[],[],8,0⟩],[⟨58,115792089237316195423570985008687907853269984665640564039452972321894702252031,[],[],0,0⟩],[⟨58,115792089237316195423570985008687907853269984665640564039452972321894702252031,[],[],0,0⟩,⟨59,4611686018427387904,[],[(0,.code)],0,0⟩],[],[⟨60,4294983168,[],[(1,.setEnt (.own 0))],0,0⟩],[⟨62,8589934592,[],[(2,.setEnt (.own 1))],0,16⟩],[⟨63,35184372088832,[],[(2,.setEnt (.own 1))],0,16⟩],[⟨64,35184372088832,[],[(2,.setEnt (.own 1))],0,16⟩],[⟨65,115792089237316195423570985008687907853269984665640564039457584007913129639935,[],[(2,.setEnt (.own 1))],0,16⟩,⟨66,35184372088832,[],[(2,.setEnt (.own 1))],0,16⟩],[⟨65,115792089237316195423570985008687907853269984665640564039457584007913129639935,[],[(2,.setEnt (.own 1))],0,16⟩,⟨66,35184372088832,[],[(2,.setEnt (.own 1))],0,16⟩],[⟨67,35184372088832,[],[(2,.setEnt (.own 1))],0,0⟩],[⟨68,4611686018427387904,[],[(2,.setEnt (.own 1))],16,0⟩],[],[]],[none,none,none,none,none,none,none,none,none,none,none,none,none,none,none,none,some (0,[]),none,none,none,none,none,none,none,none,none,none,none,none,none,none,none,none,none,none,none,none,none,none,none,none,some (1,[]),none,some (2,[]),none,none,none,none,none,none,none,none,none,none,none,none,none,none,none,some (2,[]),some (3,[]),none,none,none,none,none,none,none,some (4,[]),some (5,[])],[0,0,1,2,3,3]⟩
def emb49_masks : List Nat := [1152921504606846976,4294983168,115792089237316195423570985008687907853269984665640564039457584007908834656767,41538374877950027585161004031410176,83076749755900055170322008062820352,2658455992188801765450304258010251264,324518553733984590509070343995392,2535301201046754613352112062464,115792089237316195423570985008687907853269984665640564039452972321894702252031,83076749736557242056487941267521536,2535301200456458802993406410752,1329227995784915872903807060280344576,140737488355328,633825300114114700748351602688,41538374868278621028243970633760768,4611686018427387904,633825300261688653338028015616,20769187438975013792580502015705088,40564819216748073813633792999424,5192296859743753448145125503926272,81129638414606681695789005144064,158456325028528675187087900672,332306998946228968225951765070086144,20769187434139310514121985316880384,40564819207303340847894502572032,5192296858534827628530496329220096,137438953472,8589934592,35184372088832,115792089237316195423570985008687907853269984665640564039457584007913129639935]
def emb49_cs : List (Nat × Nat) := [(0,115792089237316195423570985008687907853265513648504117332318924992224566428159),(9,4294967808),(10,1024),(11,2048),(12,4096),(13,8192),(33,8589934592),(37,137438953472),(45,35184372088832),(47,140737488355328),(60,1152921504606846976),(62,4611686018427387904),(67,147573952589676412928),(69,590295810358705651712),(73,9444732965739290427392),(76,324518553733984590509070343995392),(80,1208925819614629174706176),(82,4835703278458516698824704),(83,9671406556917033397649408),(84,19342813113834066795298816),(89,2658455992188801765450304258010251264),(97,158456325028528675187087900672),(99,633825300114114700748351602688),(101,2535301200456458802993406410752),(105,40564819207303340847894502572032),(106,81129638414606681695789005144064),(112,5192296858534827628530496329220096),(114,20769187434139310514121985316880384),(115,41538374868278621028243970633760768),(116,83076749736557242056487941267521536),(118,332306998946228968225951765070086144),(120,1329227995784915872903807060280344576)]
theorem emb49_masksIn : masksIn emb49_nfa emb49_masks = true := by decide +kernel
theorem emb49_repOk : repOk emb49_masks emb49_cs = true := by decide +kernel
def emb49_rows : List Row := [⟨[],none,[],[⟨256,.other,false,some ⟨0,[],some 5,true⟩⟩,⟨256,.ws,false,some ⟨1,[.setEnt (.own 0)],some 3,false⟩⟩,⟨256,.lf,false,some ⟨1,[.setEnt (.own 0)],some 3,false⟩⟩,⟨256,.vt,false,some ⟨1,[.setEnt (.own 0)],some 3,false⟩⟩,⟨256,.ff,false,some ⟨1,[.setEnt (.own 0)],some 3,false⟩⟩,⟨256,.cr,false,some ⟨1,[.setEnt (.own 0)],some 3,false⟩⟩,⟨256,.cr,true,some ⟨1,[.setEnt (.own 0)],some 3,false⟩⟩,⟨256,.other,false,some ⟨2,[.setEnt (.own 1)],some 5,false⟩⟩]⟩,⟨[60],some 3,[],[⟨256,.other,false,none⟩,⟨256,.ws,false,some ⟨1,[.setEnt (.own 0)],some 3,false⟩⟩,⟨256,.lf,false,some ⟨1,[.setEnt (.own 0)],some 3,false⟩⟩,⟨256,.vt,false,some ⟨1,[.setEnt (.own 0)],some 3,false⟩⟩,⟨256,.ff,false,some ⟨1,[.setEnt (.own 0)],some 3,false⟩⟩,⟨256,.cr,false,some ⟨1,[.setEnt (.own 0)],some 3,false⟩⟩,⟨256,.cr,true,some ⟨1,[.setEnt (.own 0)],some 3,false⟩⟩]⟩,⟨[0,17,42,44,61,69],some 5,[],[⟨256,.other,false,none⟩,⟨256,.ws,false,none⟩,⟨256,.lf,false,none⟩,⟨256,.vt,false,none⟩,⟨256,.ff,false,none⟩,⟨256,.cr,false,none⟩,⟨256,.cr,true,none⟩,⟨256,.other,false,some ⟨3,[.setEnt (.own 1)],none,false⟩⟩,⟨256,.other,false,some ⟨0,[.code],some 2,true⟩⟩,⟨256,.other,false,some ⟨4,[],none,false⟩⟩]⟩,⟨[62],none,[],[⟨256,.other,false,none⟩,⟨256,.ws,false,none⟩,⟨256,.lf,false,none⟩,⟨256,.vt,false,none⟩,⟨256,.ff,false,none⟩,⟨256,.cr,false,none⟩,⟨256,.cr,true,none⟩,⟨256,.other,false,some ⟨5,[.setEnt (.own 1)],none,false⟩⟩]⟩,⟨[1,18,45],none,[],[⟨256,.other,false,none⟩,⟨256,.ws,false,none⟩,⟨256,.lf,false,none⟩,⟨256,.vt,false,none⟩,⟨256,.ff,false,none⟩,⟨256,.cr,false,none⟩,⟨256,.cr,true,none⟩,⟨256,.other,false,some ⟨6,[],none,false⟩⟩,⟨256,.other,false,some ⟨7,[],none,false⟩⟩]⟩,⟨[63],none,[],[⟨256,.other,false,none⟩,⟨256,.ws,false,none⟩,⟨256,.lf,false,none⟩,⟨256,.vt,false,none⟩,⟨256,.ff,false,none⟩,⟨256,.cr,false,none⟩,⟨256,.cr,true,none⟩,⟨256,.other,false,some ⟨8,[.setEnt (.own 1)],none,false⟩⟩]⟩,⟨[19,46],none,[],[⟨256,.other,false,none⟩,⟨256,.ws,false,none⟩,⟨256,.lf,false,none⟩,⟨256,.vt,false,none⟩,⟨256,.ff,false,none⟩,⟨256,.cr,false,none⟩,⟨256,.cr,true,none⟩,⟨256,.other,false,some ⟨9,[],none,false⟩⟩]⟩,⟨[2],none,[],[⟨256,.other,false,none⟩,⟨256,.ws,false,none⟩,⟨256,.lf,false,none⟩,⟨256,.vt,false,none⟩,⟨256,.ff,false,none⟩,⟨256,.cr,false,none⟩,⟨256,.cr,true,none⟩,⟨256,.other,false,some ⟨10,[],none,false⟩⟩]⟩,⟨[64],none,[],[⟨256,.other,false,some ⟨11,[.setEnt (.own 1)],none,false⟩⟩,⟨256,.ws,false,some ⟨11,[.setEnt (.own 1)],none,false⟩⟩,⟨256,.lf,false,some ⟨11,[.setEnt (.own 1)],none,false⟩⟩,⟨256,.vt,false,some ⟨11,[.setEnt (.own 1)],none,false⟩⟩,⟨256,.ff,false,some ⟨11,[.setEnt (.own 1)],none,false⟩⟩,⟨256,.cr,false,some ⟨11,[.setEnt (.own 1)],none,false⟩⟩,⟨256,.cr,true,some ⟨11,[.setEnt (.own 1)],none,false⟩⟩,⟨256,.other,false,some ⟨12,[.setEnt (.own 1)],none,false⟩⟩]⟩,⟨[20,47],none,[],[⟨256,.other,false,none⟩,⟨256,.ws,false,none⟩,⟨256,.lf,false,none⟩,⟨256,.vt,false,none⟩,⟨256,.ff,false,none⟩,⟨256,.cr,false,none⟩,⟨256,.cr,true,none⟩,⟨256,.other,false,some ⟨13,[],none,false⟩⟩]⟩,⟨[3],none,[],[⟨256,.other,false,none⟩,⟨256,.ws,false,none⟩,⟨256,.lf,false,none⟩,⟨256,.vt,false,none⟩,⟨256,.ff,false,none⟩,⟨256,.cr,false,none⟩,⟨256,.cr,true,none⟩,⟨256,.other,false,some ⟨14,[],none,false⟩⟩]⟩,⟨[65],none,[],[⟨256,.other,false,some ⟨11,[.setEnt (.own 1)],none,false⟩⟩,⟨256,.ws,false,some ⟨11,[.setEnt (.own 1)],none,false⟩⟩,⟨256,.lf,false,some ⟨11,[.setEnt (.own 1)],none,false⟩⟩,⟨256,.vt,false,some ⟨11,[.setEnt (.own 1)],none,false⟩⟩,⟨256,.ff,false,some ⟨11,[.setEnt (.own 1)],none,false⟩⟩,⟨256,.cr,false,some ⟨11,[.setEnt (.own 1)],none,false⟩⟩,⟨256,.cr,true,some ⟨11,[.setEnt (.own 1)],none,false⟩⟩,⟨256,.other,false,some ⟨12,[.setEnt (.own 1)],none,false⟩⟩]⟩,⟨[65,66],none,[],[⟨256,.other,false,some ⟨11,[.setEnt (.own 1)],none,false⟩⟩,⟨256,.ws,false,some ⟨11,[.setEnt (.own 1)],none,false⟩⟩,⟨256,.lf,false,some ⟨11,[.setEnt (.own 1)],none,false⟩⟩,⟨256,.vt,false,some ⟨11,[.setEnt (.own 1)],none,false⟩⟩,⟨256,.ff,false,some ⟨11,[.setEnt (.own 1)],none,false⟩⟩,⟨256,.cr,false,some ⟨11,[.setEnt (.own 1)],none,false⟩⟩,⟨256,.cr,true,some ⟨11,[.setEnt (.own 1)],none,false⟩⟩,⟨256,.other,false,some ⟨15,[.setEnt (.own 1)],none,false⟩⟩]⟩,⟨[21,48],none,[],[⟨256,.other,false,none⟩,⟨256,.ws,false,none⟩,⟨256,.lf,false,none⟩,⟨256,.vt,false,none⟩,⟨256,.ff,false,none⟩,⟨256,.cr,false,none⟩,⟨256,.cr,true,none⟩,⟨256,.other,false,some ⟨16,[],none,false⟩⟩]⟩,⟨[4],none,[],[⟨256,.other,false,none⟩,⟨256,.ws,false,none⟩,⟨256,.lf,false,none⟩,⟨256,.vt,false,none⟩,⟨256,.ff,false,none⟩,⟨256,.cr,false,none⟩,⟨256,.cr,true,none⟩,⟨256,.other,false,some ⟨17,[],none,false⟩⟩]⟩,⟨[65,66,67],none,[],[⟨256,.other,false,some ⟨11,[.setEnt (.own 1)],none,false⟩⟩,⟨256,.ws,false,some ⟨11,[.setEnt (.own 1)],none,false⟩⟩,⟨256,.lf,false,some ⟨11,[.setEnt (.own 1)],none,false⟩⟩,⟨256,.vt,false,some ⟨11,[.setEnt (.own 1)],none,false⟩⟩,⟨256,.ff,false,some ⟨11,[.setEnt (.own 1)],none,false⟩⟩,⟨256,.cr,false,some ⟨11,[.setEnt (.own 1)],none,false⟩⟩,⟨256,.cr,true,some ⟨11,[.setEnt (.own 1)],none,false⟩⟩,⟨256,.other,false,some ⟨15,[.setEnt (.own 1)],none,false⟩⟩,⟨256,.other,false,some ⟨0,[.setEnt (.own 1)],some 4,true⟩⟩]⟩,⟨[22,49],none,[],[⟨256,.other,false,none⟩,⟨256,.ws,false,none⟩,⟨256,.lf,false,none⟩,⟨256,.vt,false,none⟩,⟨256,.ff,false,none⟩,⟨256,.cr,false,none⟩,⟨256,.cr,true,none⟩,⟨256,.other,false,some ⟨18,[],none,false⟩⟩]⟩,⟨[5],none,[],[⟨256,.other,false,some ⟨19,[],none,false⟩⟩,⟨256,.ws,false,some ⟨19,[],none,false⟩⟩,⟨256,.lf,false,some ⟨19,[],none,false⟩⟩,⟨256,.vt,false,some ⟨19,[],none,false⟩⟩,⟨256,.ff,false,some ⟨19,[],none,false⟩⟩,⟨256,.cr,false,some ⟨19,[],none,false⟩⟩,⟨256,.cr,true,some ⟨19,[],none,false⟩⟩,⟨256,.other,false,none⟩]⟩,⟨[23,50],none,[],[⟨256,.other,false,some ⟨20,[],none,false⟩⟩,⟨256,.ws,false,some ⟨20,[],none,false⟩⟩,⟨256,.lf,false,some ⟨20,[],none,false⟩⟩,⟨256,.vt,false,some ⟨20,[],none,false⟩⟩,⟨256,.ff,false,some ⟨20,[],none,false⟩⟩,⟨256,.cr,false,some ⟨20,[],none,false⟩⟩,⟨256,.cr,true,some ⟨20,[],none,false⟩⟩,⟨256,.other,false,none⟩]⟩,⟨[6],none,[],[⟨256,.other,false,some ⟨19,[],none,false⟩⟩,⟨256,.ws,false,some ⟨19,[],none,false⟩⟩,⟨256,.lf,false,some ⟨19,[],none,false⟩⟩,⟨256,.vt,false,some ⟨19,[],none,false⟩⟩,⟨256,.ff,false,some ⟨19,[],none,false⟩⟩,⟨256,.cr,false,some ⟨19,[],none,false⟩⟩,⟨256,.cr,true,some ⟨19,[],none,false⟩⟩,⟨256,.other,false,none⟩,⟨256,.other,false,some ⟨21,[],none,false⟩⟩]⟩,⟨[24,51],none,[],[⟨256,.other,false,some ⟨20,[],none,false⟩⟩,⟨256,.ws,false,some ⟨20,[],none,false⟩⟩,⟨256,.lf,false,some ⟨20,[],none,false⟩⟩,⟨256,.vt,false,some ⟨20,[],none,false⟩⟩,⟨256,.ff,false,some ⟨20,[],none,false⟩⟩,⟨256,.cr,false,some ⟨20,[],none,false⟩⟩,⟨256,.cr,true,some ⟨20,[],none,false⟩⟩,⟨256,.other,false,none⟩,⟨256,.other,false,some ⟨22,[],none,false⟩⟩,⟨256,.other,false,some ⟨23,[],none,false⟩⟩]⟩,⟨[6,7],none,[],[⟨256,.other,false,some ⟨19,[],none,false⟩⟩,⟨256,.ws,false,some ⟨19,[],none,false⟩⟩,⟨256,.lf,false,some ⟨19,[],none,false⟩⟩,⟨256,.vt,false,some ⟨19,[],none,false⟩⟩,⟨256,.ff,false,some ⟨19,[],none,false⟩⟩,⟨256,.cr,false,some ⟨19,[],none,false⟩⟩,⟨256,.cr,true,some ⟨19,[],none,false⟩⟩,⟨256,.other,false,none⟩,⟨256,.other,false,some ⟨24,[],none,false⟩⟩,⟨256,.other,false,some ⟨21,[],none,false⟩⟩]⟩,⟨[24,51,52],none,[],[⟨256,.other,false,some ⟨20,[],none,false⟩⟩,⟨256,.ws,false,some ⟨20,[],none,false⟩⟩,⟨256,.lf,false,some ⟨20,[],none,false⟩⟩,⟨256,.vt,false,some ⟨20,[],none,false⟩⟩,⟨256,.ff,false,some ⟨20,[],none,false⟩⟩,⟨256,.cr,false,some ⟨20,[],none,false⟩⟩,⟨256,.cr,true,some ⟨20,[],none,false⟩⟩,⟨256,.other,false,none⟩,⟨256,.other,false,some ⟨25,[],none,false⟩⟩,⟨256,.other,false,some ⟨22,[],none,false⟩⟩,⟨256,.other,false,some ⟨23,[],none,false⟩⟩]⟩,⟨[24,25,51],none,[],[⟨256,.other,false,some ⟨20,[],none,false⟩⟩,⟨256,.ws,false,some ⟨20,[],none,false⟩⟩,⟨256,.lf,false,some ⟨20,[],none,false⟩⟩,⟨256,.vt,false,some ⟨20,[],none,false⟩⟩,⟨256,.ff,false,some ⟨20,[],none,false⟩⟩,⟨256,.cr,false,some ⟨20,[],none,false⟩⟩,⟨256,.cr,true,some ⟨20,[],none,false⟩⟩,⟨256,.other,false,none⟩,⟨256,.other,false,some ⟨26,[],none,false⟩⟩,⟨256,.other,false,some ⟨22,[],none,false⟩⟩,⟨256,.other,false,some ⟨23,[],none,false⟩⟩]⟩,⟨[6,8],none,[],[⟨256,.other,false,some ⟨19,[],none,false⟩⟩,⟨256,.ws,false,some ⟨19,[],none,false⟩⟩,⟨256,.lf,false,some ⟨19,[],none,false⟩⟩,⟨256,.vt,false,some ⟨19,[],none,false⟩⟩,⟨256,.ff,false,some ⟨19,[],none,false⟩⟩,⟨256,.cr,false,some ⟨19,[],none,false⟩⟩,⟨256,.cr,true,some ⟨19,[],none,false⟩⟩,⟨256,.other,false,none⟩,⟨256,.other,false,some ⟨21,[],none,false⟩⟩,⟨256,.other,false,some ⟨27,[],none,false⟩⟩]⟩,⟨[24,51,53],none,[],[⟨256,.other,false,some ⟨20,[],none,false⟩⟩,⟨256,.ws,false,some ⟨20,[],none,false⟩⟩,⟨256,.lf,false,some ⟨20,[],none,false⟩⟩,⟨256,.vt,false,some ⟨20,[],none,false⟩⟩,⟨256,.ff,false,some ⟨20,[],none,false⟩⟩,⟨256,.cr,false,some ⟨20,[],none,false⟩⟩,⟨256,.cr,true,some ⟨20,[],none,false⟩⟩,⟨256,.other,false,none⟩,⟨256,.other,false,some ⟨28,[],none,false⟩⟩,⟨256,.other,false,some ⟨22,[],none,false⟩⟩,⟨256,.other,false,some ⟨23,[],none,false⟩⟩]⟩,⟨[24,26,51],none,[],[⟨256,.other,false,some ⟨20,[],none,false⟩⟩,⟨256,.ws,false,some ⟨20,[],none,false⟩⟩,⟨256,.lf,false,some ⟨20,[],none,false⟩⟩,⟨256,.vt,false,some ⟨20,[],none,false⟩⟩,⟨256,.ff,false,some ⟨20,[],none,false⟩⟩,⟨256,.cr,false,some ⟨20,[],none,false⟩⟩,⟨256,.cr,true,some ⟨20,[],none,false⟩⟩,⟨256,.other,false,none⟩,⟨256,.other,false,some ⟨22,[],none,false⟩⟩,⟨256,.other,false,some ⟨23,[],none,false⟩⟩,⟨256,.other,false,some ⟨29,[],none,false⟩⟩]⟩,⟨[6,9],none,[],[⟨256,.other,false,some ⟨19,[],none,false⟩⟩,⟨256,.ws,false,some ⟨19,[],none,false⟩⟩,⟨256,.lf,false,some ⟨19,[],none,false⟩⟩,⟨256,.vt,false,some ⟨19,[],none,false⟩⟩,⟨256,.ff,false,some ⟨19,[],none,false⟩⟩,⟨256,.cr,false,some ⟨19,[],none,false⟩⟩,⟨256,.cr,true,some ⟨19,[],none,false⟩⟩,⟨256,.other,false,none⟩,⟨256,.other,false,some ⟨30,[],none,false⟩⟩]⟩,⟨[24,51,54],none,[],[⟨256,.other,false,some ⟨20,[],none,false⟩⟩,⟨256,.ws,false,some ⟨20,[],none,false⟩⟩,⟨256,.lf,false,some ⟨20,[],none,false⟩⟩,⟨256,.vt,false,some ⟨20,[],none,false⟩⟩,⟨256,.ff,false,some ⟨20,[],none,false⟩⟩,⟨256,.cr,false,some ⟨20,[],none,false⟩⟩,⟨256,.cr,true,some ⟨20,[],none,false⟩⟩,⟨256,.other,false,none⟩,⟨256,.other,false,some ⟨22,[],none,false⟩⟩,⟨256,.other,false,some ⟨23,[],none,false⟩⟩,⟨256,.other,false,some ⟨31,[],none,false⟩⟩]⟩,⟨[24,27,51],none,[],[⟨256,.other,false,some ⟨20,[],none,false⟩⟩,⟨256,.ws,false,some ⟨20,[],none,false⟩⟩,⟨256,.lf,false,some ⟨20,[],none,false⟩⟩,⟨256,.vt,false,some ⟨20,[],none,false⟩⟩,⟨256,.ff,false,some ⟨20,[],none,false⟩⟩,⟨256,.cr,false,some ⟨20,[],none,false⟩⟩,⟨256,.cr,true,some ⟨20,[],none,false⟩⟩,⟨256,.other,false,none⟩,⟨256,.other,false,some ⟨22,[],none,false⟩⟩,⟨256,.other,false,some ⟨32,[],none,false⟩⟩]⟩,⟨[6,7,10],none,[],[⟨256,.other,false,some ⟨19,[],none,false⟩⟩,⟨256,.ws,false,some ⟨19,[],none,false⟩⟩,⟨256,.lf,false,some ⟨19,[],none,false⟩⟩,⟨256,.vt,false,some ⟨19,[],none,false⟩⟩,⟨256,.ff,false,some ⟨19,[],none,false⟩⟩,⟨256,.cr,false,some ⟨19,[],none,false⟩⟩,⟨256,.cr,true,some ⟨19,[],none,false⟩⟩,⟨256,.other,false,some ⟨33,[],none,false⟩⟩,⟨256,.other,false,none⟩,⟨256,.other,false,some ⟨24,[],none,false⟩⟩,⟨256,.other,false,some ⟨21,[],none,false⟩⟩]⟩,⟨[24,51,55],none,[],[⟨256,.other,false,some ⟨20,[],none,false⟩⟩,⟨256,.ws,false,some ⟨20,[],none,false⟩⟩,⟨256,.lf,false,some ⟨20,[],none,false⟩⟩,⟨256,.vt,false,some ⟨20,[],none,false⟩⟩,⟨256,.ff,false,some ⟨20,[],none,false⟩⟩,⟨256,.cr,false,some ⟨20,[],none,false⟩⟩,⟨256,.cr,true,some ⟨20,[],none,false⟩⟩,⟨256,.other,false,none⟩,⟨256,.other,false,some ⟨34,[],none,false⟩⟩,⟨256,.other,false,some ⟨22,[],none,false⟩⟩,⟨256,.other,false,some ⟨23,[],none,false⟩⟩]⟩,⟨[24,25,28,51],none,[],[⟨256,.other,false,some ⟨20,[],none,false⟩⟩,⟨256,.ws,false,some ⟨20,[],none,false⟩⟩,⟨256,.lf,false,some ⟨20,[],none,false⟩⟩,⟨256,.vt,false,some ⟨20,[],none,false⟩⟩,⟨256,.ff,false,some ⟨20,[],none,false⟩⟩,⟨256,.cr,false,some ⟨20,[],none,false⟩⟩,⟨256,.cr,true,some ⟨20,[],none,false⟩⟩,⟨256,.other,false,some ⟨35,[],none,false⟩⟩,⟨256,.other,false,none⟩,⟨256,.other,false,some ⟨26,[],none,false⟩⟩,⟨256,.other,false,some ⟨22,[],none,false⟩⟩,⟨256,.other,false,some ⟨23,[],none,false⟩⟩]⟩,⟨[6,11],none,[],[⟨256,.other,false,some ⟨19,[],none,false⟩⟩,⟨256,.ws,false,some ⟨19,[],none,false⟩⟩,⟨256,.lf,false,some ⟨19,[],none,false⟩⟩,⟨256,.vt,false,some ⟨19,[],none,false⟩⟩,⟨256,.ff,false,some ⟨19,[],none,false⟩⟩,⟨256,.cr,false,some ⟨19,[],none,false⟩⟩,⟨256,.cr,true,some ⟨19,[],none,false⟩⟩,⟨256,.other,false,none⟩,⟨256,.other,false,some ⟨36,[],none,false⟩⟩,⟨256,.other,false,some ⟨21,[],none,false⟩⟩]⟩,⟨[24,51,56],none,[],[⟨256,.other,false,some ⟨20,[],none,false⟩⟩,⟨256,.ws,false,some ⟨20,[],none,false⟩⟩,⟨256,.lf,false,some ⟨20,[],none,false⟩⟩,⟨256,.vt,false,some ⟨20,[],none,false⟩⟩,⟨256,.ff,false,some ⟨20,[],none,false⟩⟩,⟨256,.cr,false,some ⟨20,[],none,false⟩⟩,⟨256,.cr,true,some ⟨20,[],none,false⟩⟩,⟨256,.other,false,none⟩,⟨256,.other,false,some ⟨37,[],none,false⟩⟩,⟨256,.other,false,some ⟨22,[],none,false⟩⟩,⟨256,.other,false,some ⟨23,[],none,false⟩⟩]⟩,⟨[24,29,51],none,[],[⟨256,.other,false,some ⟨20,[],none,false⟩⟩,⟨256,.ws,false,some ⟨20,[],none,false⟩⟩,⟨256,.lf,false,some ⟨20,[],none,false⟩⟩,⟨256,.vt,false,some ⟨20,[],none,false⟩⟩,⟨256,.ff,false,some ⟨20,[],none,false⟩⟩,⟨256,.cr,false,some ⟨20,[],none,false⟩⟩,⟨256,.cr,true,some ⟨20,[],none,false⟩⟩,⟨256,.other,false,none⟩,⟨256,.other,false,some ⟨38,[],none,false⟩⟩,⟨256,.other,false,some ⟨22,[],none,false⟩⟩,⟨256,.other,false,some ⟨23,[],none,false⟩⟩]⟩,⟨[6,12],none,[],[⟨256,.other,false,some ⟨19,[],none,false⟩⟩,⟨256,.ws,false,some ⟨19,[],none,false⟩⟩,⟨256,.lf,false,some ⟨19,[],none,false⟩⟩,⟨256,.vt,false,some ⟨19,[],none,false⟩⟩,⟨256,.ff,false,some ⟨19,[],none,false⟩⟩,⟨256,.cr,false,some ⟨19,[],none,false⟩⟩,⟨256,.cr,true,some ⟨19,[],none,false⟩⟩,⟨256,.other,false,none⟩,⟨256,.other,false,some ⟨39,[],none,false⟩⟩,⟨256,.other,false,some ⟨21,[],none,false⟩⟩]⟩,⟨[24,57],none,[],[⟨256,.other,false,some ⟨40,[],none,false⟩⟩,⟨256,.ws,false,some ⟨40,[],none,false⟩⟩,⟨256,.lf,false,some ⟨40,[],none,false⟩⟩,⟨256,.vt,false,some ⟨40,[],none,false⟩⟩,⟨256,.ff,false,some ⟨40,[],none,false⟩⟩,⟨256,.cr,false,some ⟨40,[],none,false⟩⟩,⟨256,.cr,true,some ⟨40,[],none,false⟩⟩,⟨256,.other,false,none⟩,⟨256,.other,false,some ⟨41,[],none,false⟩⟩]⟩,⟨[24,30,51],none,[],[⟨256,.other,false,some ⟨20,[],none,false⟩⟩,⟨256,.ws,false,some ⟨20,[],none,false⟩⟩,⟨256,.lf,false,some ⟨20,[],none,false⟩⟩,⟨256,.vt,false,some ⟨20,[],none,false⟩⟩,⟨256,.ff,false,some ⟨20,[],none,false⟩⟩,⟨256,.cr,false,some ⟨20,[],none,false⟩⟩,⟨256,.cr,true,some ⟨20,[],none,false⟩⟩,⟨256,.other,false,none⟩,⟨256,.other,false,some ⟨42,[],none,false⟩⟩,⟨256,.other,false,some ⟨22,[],none,false⟩⟩,⟨256,.other,false,some ⟨23,[],none,false⟩⟩]⟩,⟨[6,13],none,[],[⟨256,.other,false,some ⟨19,[],none,false⟩⟩,⟨256,.ws,false,some ⟨19,[],none,false⟩⟩,⟨256,.lf,false,some ⟨19,[],none,false⟩⟩,⟨256,.vt,false,some ⟨19,[],none,false⟩⟩,⟨256,.ff,false,some ⟨19,[],none,false⟩⟩,⟨256,.cr,false,some ⟨19,[],none,false⟩⟩,⟨256,.cr,true,some ⟨19,[],none,false⟩⟩,⟨256,.other,false,none⟩,⟨256,.other,false,some ⟨43,[],none,false⟩⟩,⟨256,.other,false,some ⟨21,[],none,false⟩⟩]⟩,⟨[24,58],none,[],[⟨256,.other,false,some ⟨40,[],none,false⟩⟩,⟨256,.ws,false,some ⟨40,[],none,false⟩⟩,⟨256,.lf,false,some ⟨40,[],none,false⟩⟩,⟨256,.vt,false,some ⟨40,[],none,false⟩⟩,⟨256,.ff,false,some ⟨40,[],none,false⟩⟩,⟨256,.cr,false,some ⟨40,[],none,false⟩⟩,⟨256,.cr,true,some ⟨40,[],none,false⟩⟩,⟨256,.other,false,some ⟨0,[.code],some 2,true⟩⟩,⟨256,.other,false,some ⟨41,[],none,false⟩⟩]⟩,⟨[24,25,58],none,[],[⟨256,.other,false,some ⟨40,[],none,false⟩⟩,⟨256,.ws,false,some ⟨40,[],none,false⟩⟩,⟨256,.lf,false,some ⟨40,[],none,false⟩⟩,⟨256,.vt,false,some ⟨40,[],none,false⟩⟩,⟨256,.ff,false,some ⟨40,[],none,false⟩⟩,⟨256,.cr,false,some ⟨40,[],none,false⟩⟩,⟨256,.cr,true,some ⟨40,[],none,false⟩⟩,⟨256,.other,false,some ⟨0,[.code],some 2,true⟩⟩,⟨256,.other,false,some ⟨44,[],none,false⟩⟩,⟨256,.other,false,some ⟨41,[],none,false⟩⟩]⟩,⟨[24,31,51],none,[],[⟨256,.other,false,some ⟨20,[],none,false⟩⟩,⟨256,.ws,false,some ⟨20,[],none,false⟩⟩,⟨256,.lf,false,some ⟨20,[],none,false⟩⟩,⟨256,.vt,false,some ⟨20,[],none,false⟩⟩,⟨256,.ff,false,some ⟨20,[],none,false⟩⟩,⟨256,.cr,false,some ⟨20,[],none,false⟩⟩,⟨256,.cr,true,some ⟨20,[],none,false⟩⟩,⟨256,.other,false,none⟩,⟨256,.other,false,some ⟨22,[],none,false⟩⟩,⟨256,.other,false,some ⟨23,[],none,false⟩⟩,⟨256,.other,false,some ⟨45,[],none,false⟩⟩]⟩,⟨[14],none,[],[⟨256,.other,false,some ⟨46,[],none,false⟩⟩,⟨256,.ws,false,some ⟨46,[],none,false⟩⟩,⟨256,.lf,false,some ⟨46,[],none,false⟩⟩,⟨256,.vt,false,some ⟨46,[],none,false⟩⟩,⟨256,.ff,false,some ⟨46,[],none,false⟩⟩,⟨256,.cr,false,some ⟨46,[],none,false⟩⟩,⟨256,.cr,true,some ⟨46,[],none,false⟩⟩,⟨256,.other,false,none⟩]⟩,⟨[24,26,58],none,[],[⟨256,.other,false,some ⟨40,[],none,false⟩⟩,⟨256,.ws,false,some ⟨40,[],none,false⟩⟩,⟨256,.lf,false,some ⟨40,[],none,false⟩⟩,⟨256,.vt,false,some ⟨40,[],none,false⟩⟩,⟨256,.ff,false,some ⟨40,[],none,false⟩⟩,⟨256,.cr,false,some ⟨40,[],none,false⟩⟩,⟨256,.cr,true,some ⟨40,[],none,false⟩⟩,⟨256,.other,false,some ⟨0,[.code],some 2,true⟩⟩,⟨256,.other,false,some ⟨41,[],none,false⟩⟩,⟨256,.other,false,some ⟨47,[],none,false⟩⟩]⟩,⟨[24,32,51],none,[],[⟨256,.other,false,some ⟨20,[],none,false⟩⟩,⟨256,.ws,false,some ⟨20,[],none,false⟩⟩,⟨256,.lf,false,some ⟨20,[],none,false⟩⟩,⟨256,.vt,false,some ⟨20,[],none,false⟩⟩,⟨256,.ff,false,some ⟨20,[],none,false⟩⟩,⟨256,.cr,false,some ⟨20,[],none,false⟩⟩,⟨256,.cr,true,some ⟨20,[],none,false⟩⟩,⟨256,.other,false,none⟩,⟨256,.other,false,some ⟨48,[],none,false⟩⟩,⟨256,.other,false,some ⟨22,[],none,false⟩⟩,⟨256,.other,false,some ⟨23,[],none,false⟩⟩]⟩,⟨[15],none,[],[⟨256,.other,false,some ⟨46,[],none,false⟩⟩,⟨256,.ws,false,some ⟨46,[],none,false⟩⟩,⟨256,.lf,false,some ⟨46,[],none,false⟩⟩,⟨256,.vt,false,some ⟨46,[],none,false⟩⟩,⟨256,.ff,false,some ⟨46,[],none,false⟩⟩,⟨256,.cr,false,some ⟨46,[],none,false⟩⟩,⟨256,.cr,true,some ⟨46,[],none,false⟩⟩,⟨256,.other,false,some ⟨0,[],some 0,true⟩⟩]⟩,⟨[24,27,58],none,[],[⟨256,.other,false,some ⟨40,[],none,false⟩⟩,⟨256,.ws,false,some ⟨40,[],none,false⟩⟩,⟨256,.lf,false,some ⟨40,[],none,false⟩⟩,⟨256,.vt,false,some ⟨40,[],none,false⟩⟩,⟨256,.ff,false,some ⟨40,[],none,false⟩⟩,⟨256,.cr,false,some ⟨40,[],none,false⟩⟩,⟨256,.cr,true,some ⟨40,[],none,false⟩⟩,⟨256,.other,false,some ⟨0,[.code],some 2,true⟩⟩,⟨256,.other,false,some ⟨49,[],none,false⟩⟩]⟩,⟨[24,33,51],none,[],[⟨256,.other,false,some ⟨20,[],none,false⟩⟩,⟨256,.ws,false,some ⟨20,[],none,false⟩⟩,⟨256,.lf,false,some ⟨20,[],none,false⟩⟩,⟨256,.vt,false,some ⟨20,[],none,false⟩⟩,⟨256,.ff,false,some ⟨20,[],none,false⟩⟩,⟨256,.cr,false,some ⟨20,[],none,false⟩⟩,⟨256,.cr,true,some ⟨20,[],none,false⟩⟩,⟨256,.other,false,none⟩,⟨256,.other,false,some ⟨50,[],none,false⟩⟩,⟨256,.other,false,some ⟨23,[],none,false⟩⟩]⟩,⟨[24,25,28,58],none,[],[⟨256,.other,false,some ⟨40,[],none,false⟩⟩,⟨256,.ws,false,some ⟨40,[],none,false⟩⟩,⟨256,.lf,false,some ⟨40,[],none,false⟩⟩,⟨256,.vt,false,some ⟨40,[],none,false⟩⟩,⟨256,.ff,false,some ⟨40,[],none,false⟩⟩,⟨256,.cr,false,some ⟨40,[],none,false⟩⟩,⟨256,.cr,true,some ⟨40,[],none,false⟩⟩,⟨256,.other,false,some ⟨51,[],none,false⟩⟩,⟨256,.other,false,some ⟨0,[.code],some 2,true⟩⟩,⟨256,.other,false,some ⟨44,[],none,false⟩⟩,⟨256,.other,false,some ⟨41,[],none,false⟩⟩]⟩,⟨[24,34,51,52],none,[],[⟨256,.other,false,some ⟨20,[],none,false⟩⟩,⟨256,.ws,false,some ⟨20,[],none,false⟩⟩,⟨256,.lf,false,some ⟨20,[],none,false⟩⟩,⟨256,.vt,false,some ⟨20,[],none,false⟩⟩,⟨256,.ff,false,some ⟨20,[],none,false⟩⟩,⟨256,.cr,false,some ⟨20,[],none,false⟩⟩,⟨256,.cr,true,some ⟨20,[],none,false⟩⟩,⟨256,.other,false,none⟩,⟨256,.other,false,some ⟨52,[],none,false⟩⟩,⟨256,.other,false,some ⟨25,[],none,false⟩⟩,⟨256,.other,false,some ⟨22,[],none,false⟩⟩,⟨256,.other,false,some ⟨23,[],none,false⟩⟩]⟩,⟨[24,29,58],none,[],[⟨256,.other,false,some ⟨40,[],none,false⟩⟩,⟨256,.ws,false,some ⟨40,[],none,false⟩⟩,⟨256,.lf,false,some ⟨40,[],none,false⟩⟩,⟨256,.vt,false,some ⟨40,[],none,false⟩⟩,⟨256,.ff,false,some ⟨40,[],none,false⟩⟩,⟨256,.cr,false,some ⟨40,[],none,false⟩⟩,⟨256,.cr,true,some ⟨40,[],none,false⟩⟩,⟨256,.other,false,some ⟨0,[.code],some 2,true⟩⟩,⟨256,.other,false,some ⟨53,[],none,false⟩⟩,⟨256,.other,false,some ⟨41,[],none,false⟩⟩]⟩,⟨[24,35,51],none,[],[⟨256,.other,false,some ⟨20,[],none,false⟩⟩,⟨256,.ws,false,some ⟨20,[],none,false⟩⟩,⟨256,.lf,false,some ⟨20,[],none,false⟩⟩,⟨256,.vt,false,some ⟨20,[],none,false⟩⟩,⟨256,.ff,false,some ⟨20,[],none,false⟩⟩,⟨256,.cr,false,some ⟨20,[],none,false⟩⟩,⟨256,.cr,true,some ⟨20,[],none,false⟩⟩,⟨256,.other,false,none⟩,⟨256,.other,false,some ⟨54,[],none,false⟩⟩,⟨256,.other,false,some ⟨22,[],none,false⟩⟩,⟨256,.other,false,some ⟨23,[],none,false⟩⟩]⟩,⟨[24,30,58],none,[],[⟨256,.other,false,some ⟨40,[],none,false⟩⟩,⟨256,.ws,false,some ⟨40,[],none,false⟩⟩,⟨256,.lf,false,some ⟨40,[],none,false⟩⟩,⟨256,.vt,false,some ⟨40,[],none,false⟩⟩,⟨256,.ff,false,some ⟨40,[],none,false⟩⟩,⟨256,.cr,false,some ⟨40,[],none,false⟩⟩,⟨256,.cr,true,some ⟨40,[],none,false⟩⟩,⟨256,.other,false,some ⟨0,[.code],some 2,true⟩⟩,⟨256,.other,false,some ⟨55,[],none,false⟩⟩,⟨256,.other,false,some ⟨41,[],none,false⟩⟩]⟩,⟨[24,36,51],none,[],[⟨256,.other,false,some ⟨20,[],none,false⟩⟩,⟨256,.ws,false,some ⟨20,[],none,false⟩⟩,⟨256,.lf,false,some ⟨20,[],none,false⟩⟩,⟨256,.vt,false,some ⟨20,[],none,false⟩⟩,⟨256,.ff,false,some ⟨20,[],none,false⟩⟩,⟨256,.cr,false,some ⟨20,[],none,false⟩⟩,⟨256,.cr,true,some ⟨20,[],none,false⟩⟩,⟨256,.other,false,none⟩,⟨256,.other,false,some ⟨56,[],none,false⟩⟩,⟨256,.other,false,some ⟨22,[],none,false⟩⟩,⟨256,.other,false,some ⟨23,[],none,false⟩⟩]⟩,⟨[24,31,58],none,[],[⟨256,.other,false,some ⟨40,[],none,false⟩⟩,⟨256,.ws,false,some ⟨40,[],none,false⟩⟩,⟨256,.lf,false,some ⟨40,[],none,false⟩⟩,⟨256,.vt,false,some ⟨40,[],none,false⟩⟩,⟨256,.ff,false,some ⟨40,[],none,false⟩⟩,⟨256,.cr,false,some ⟨40,[],none,false⟩⟩,⟨256,.cr,true,some ⟨40,[],none,false⟩⟩,⟨256,.other,false,some ⟨0,[.code],some 2,true⟩⟩,⟨256,.other,false,some ⟨41,[],none,false⟩⟩,⟨256,.other,false,some ⟨57,[],none,false⟩⟩]⟩,⟨[24,37,51],none,[],[⟨256,.other,false,some ⟨20,[],none,false⟩⟩,⟨256,.ws,false,some ⟨20,[],none,false⟩⟩,⟨256,.lf,false,some ⟨20,[],none,false⟩⟩,⟨256,.vt,false,some ⟨20,[],none,false⟩⟩,⟨256,.ff,false,some ⟨20,[],none,false⟩⟩,⟨256,.cr,false,some ⟨20,[],none,false⟩⟩,⟨256,.cr,true,some ⟨20,[],none,false⟩⟩,⟨256,.other,false,none⟩,⟨256,.other,false,some ⟨58,[],none,false⟩⟩,⟨256,.other,false,some ⟨22,[],none,false⟩⟩,⟨256,.other,false,some ⟨23,[],none,false⟩⟩]⟩,⟨[24,32,58],none,[],[⟨256,.other,false,some ⟨40,[],none,false⟩⟩,⟨256,.ws,false,some ⟨40,[],none,false⟩⟩,⟨256,.lf,false,some ⟨40,[],none,false⟩⟩,⟨256,.vt,false,some ⟨40,[],none,false⟩⟩,⟨256,.ff,false,some ⟨40,[],none,false⟩⟩,⟨256,.cr,false,some ⟨40,[],none,false⟩⟩,⟨256,.cr,true,some ⟨40,[],none,false⟩⟩,⟨256,.other,false,some ⟨0,[.code],some 2,true⟩⟩,⟨256,.other,false,some ⟨59,[],none,false⟩⟩,⟨256,.other,false,some ⟨41,[],none,false⟩⟩]⟩,⟨[24,38,51],none,[],[⟨256,.other,false,some ⟨20,[],none,false⟩⟩,⟨256,.ws,false,some ⟨20,[],none,false⟩⟩,⟨256,.lf,false,some ⟨20,[],none,false⟩⟩,⟨256,.vt,false,some ⟨20,[],none,false⟩⟩,⟨256,.ff,false,some ⟨20,[],none,false⟩⟩,⟨256,.cr,false,some ⟨20,[],none,false⟩⟩,⟨256,.cr,true,some ⟨20,[],none,false⟩⟩,⟨256,.other,false,none⟩,⟨256,.other,false,some ⟨22,[],none,false⟩⟩,⟨256,.other,false,some ⟨60,[],none,false⟩⟩]⟩,⟨[24,33,58],none,[],[⟨256,.other,false,some ⟨40,[],none,false⟩⟩,⟨256,.ws,false,some ⟨40,[],none,false⟩⟩,⟨256,.lf,false,some ⟨40,[],none,false⟩⟩,⟨256,.vt,false,some ⟨40,[],none,false⟩⟩,⟨256,.ff,false,some ⟨40,[],none,false⟩⟩,⟨256,.cr,false,some ⟨40,[],none,false⟩⟩,⟨256,.cr,true,some ⟨40,[],none,false⟩⟩,⟨256,.other,false,some ⟨0,[.code],some 2,true⟩⟩,⟨256,.other,false,some ⟨61,[],none,false⟩⟩,⟨256,.other,false,some ⟨41,[],none,false⟩⟩]⟩,⟨[39,51],none,[],[⟨256,.other,false,some ⟨62,[],none,false⟩⟩,⟨256,.ws,false,some ⟨62,[],none,false⟩⟩,⟨256,.lf,false,some ⟨62,[],none,false⟩⟩,⟨256,.vt,false,some ⟨62,[],none,false⟩⟩,⟨256,.ff,false,some ⟨62,[],none,false⟩⟩,⟨256,.cr,false,some ⟨62,[],none,false⟩⟩,⟨256,.cr,true,some ⟨62,[],none,false⟩⟩,⟨256,.other,false,none⟩,⟨256,.other,false,some ⟨63,[],none,false⟩⟩]⟩,⟨[24,34,58],none,[],[⟨256,.other,false,some ⟨40,[],none,false⟩⟩,⟨256,.ws,false,some ⟨40,[],none,false⟩⟩,⟨256,.lf,false,some ⟨40,[],none,false⟩⟩,⟨256,.vt,false,some ⟨40,[],none,false⟩⟩,⟨256,.ff,false,some ⟨40,[],none,false⟩⟩,⟨256,.cr,false,some ⟨40,[],none,false⟩⟩,⟨256,.cr,true,some ⟨40,[],none,false⟩⟩,⟨256,.other,false,some ⟨0,[.code],some 2,true⟩⟩,⟨256,.other,false,some ⟨64,[],none,false⟩⟩,⟨256,.other,false,some ⟨41,[],none,false⟩⟩]⟩,⟨[40,51],none,[],[⟨256,.other,false,some ⟨62,[],none,false⟩⟩,⟨256,.ws,false,some ⟨62,[],none,false⟩⟩,⟨256,.lf,false,some ⟨62,[],none,false⟩⟩,⟨256,.vt,false,some ⟨62,[],none,false⟩⟩,⟨256,.ff,false,some ⟨62,[],none,false⟩⟩,⟨256,.cr,false,some ⟨62,[],none,false⟩⟩,⟨256,.cr,true,some ⟨62,[],none,false⟩⟩,⟨256,.other,false,some ⟨0,[],some 1,true⟩⟩,⟨256,.other,false,some ⟨63,[],none,false⟩⟩]⟩,⟨[40,51,52],none,[],[⟨256,.other,false,some ⟨62,[],none,false⟩⟩,⟨256,.ws,false,some ⟨62,[],none,false⟩⟩,⟨256,.lf,false,some ⟨62,[],none,false⟩⟩,⟨256,.vt,false,some ⟨62,[],none,false⟩⟩,⟨256,.ff,false,some ⟨62,[],none,false⟩⟩,⟨256,.cr,false,some ⟨62,[],none,false⟩⟩,⟨256,.cr,true,some ⟨62,[],none,false⟩⟩,⟨256,.other,false,some ⟨0,[],some 1,true⟩⟩,⟨256,.other,false,some ⟨65,[],none,false⟩⟩,⟨256,.other,false,some ⟨63,[],none,false⟩⟩]⟩,⟨[24,35,58],none,[],[⟨256,.other,false,some ⟨40,[],none,false⟩⟩,⟨256,.ws,false,some ⟨40,[],none,false⟩⟩,⟨256,.lf,false,some ⟨40,[],none,false⟩⟩,⟨256,.vt,false,some ⟨40,[],none,false⟩⟩,⟨256,.ff,false,some ⟨40,[],none,false⟩⟩,⟨256,.cr,false,some ⟨40,[],none,false⟩⟩,⟨256,.cr,true,some ⟨40,[],none,false⟩⟩,⟨256,.other,false,some ⟨0,[.code],some 2,true⟩⟩,⟨256,.other,false,some ⟨66,[],none,false⟩⟩,⟨256,.other,false,some ⟨41,[],none,false⟩⟩]⟩,⟨[40,51,53],none,[],[⟨256,.other,false,some ⟨62,[],none,false⟩⟩,⟨256,.ws,false,some ⟨62,[],none,false⟩⟩,⟨256,.lf,false,some ⟨62,[],none,false⟩⟩,⟨256,.vt,false,some ⟨62,[],none,false⟩⟩,⟨256,.ff,false,some ⟨62,[],none,false⟩⟩,⟨256,.cr,false,some ⟨62,[],none,false⟩⟩,⟨256,.cr,true,some ⟨62,[],none,false⟩⟩,⟨256,.other,false,some ⟨0,[],some 1,true⟩⟩,⟨256,.other,false,some ⟨67,[],none,false⟩⟩,⟨256,.other,false,some ⟨63,[],none,false⟩⟩]⟩,⟨[24,36,58],none,[],[⟨256,.other,false,some ⟨40,[],none,false⟩⟩,⟨256,.ws,false,some ⟨40,[],none,false⟩⟩,⟨256,.lf,false,some ⟨40,[],none,false⟩⟩,⟨256,.vt,false,some ⟨40,[],none,false⟩⟩,⟨256,.ff,false,some ⟨40,[],none,false⟩⟩,⟨256,.cr,false,some ⟨40,[],none,false⟩⟩,⟨256,.cr,true,some ⟨40,[],none,false⟩⟩,⟨256,.other,false,some ⟨0,[.code],some 2,true⟩⟩,⟨256,.other,false,some ⟨68,[],none,false⟩⟩,⟨256,.other,false,some ⟨41,[],none,false⟩⟩]⟩,⟨[40,51,54],none,[],[⟨256,.other,false,some ⟨62,[],none,false⟩⟩,⟨256,.ws,false,some ⟨62,[],none,false⟩⟩,⟨256,.lf,false,some ⟨62,[],none,false⟩⟩,⟨256,.vt,false,some ⟨62,[],none,false⟩⟩,⟨256,.ff,false,some ⟨62,[],none,false⟩⟩,⟨256,.cr,false,some ⟨62,[],none,false⟩⟩,⟨256,.cr,true,some ⟨62,[],none,false⟩⟩,⟨256,.other,false,some ⟨0,[],some 1,true⟩⟩,⟨256,.other,false,some ⟨63,[],none,false⟩⟩,⟨256,.other,false,some ⟨69,[],none,false⟩⟩]⟩,⟨[24,37,58],none,[],[⟨256,.other,false,some ⟨40,[],none,false⟩⟩,⟨256,.ws,false,some ⟨40,[],none,false⟩⟩,⟨256,.lf,false,some ⟨40,[],none,false⟩⟩,⟨256,.vt,false,some ⟨40,[],none,false⟩⟩,⟨256,.ff,false,some ⟨40,[],none,false⟩⟩,⟨256,.cr,false,some ⟨40,[],none,false⟩⟩,⟨256,.cr,true,some ⟨40,[],none,false⟩⟩,⟨256,.other,false,some ⟨0,[.code],some 2,true⟩⟩,⟨256,.other,false,some ⟨70,[],none,false⟩⟩,⟨256,.other,false,some ⟨41,[],none,false⟩⟩]⟩,⟨[40,51,55],none,[],[⟨256,.other,false,some ⟨62,[],none,false⟩⟩,⟨256,.ws,false,some ⟨62,[],none,false⟩⟩,⟨256,.lf,false,some ⟨62,[],none,false⟩⟩,⟨256,.vt,false,some ⟨62,[],none,false⟩⟩,⟨256,.ff,false,some ⟨62,[],none,false⟩⟩,⟨256,.cr,false,some ⟨62,[],none,false⟩⟩,⟨256,.cr,true,some ⟨62,[],none,false⟩⟩,⟨256,.other,false,some ⟨0,[],some 1,true⟩⟩,⟨256,.other,false,some ⟨71,[],none,false⟩⟩,⟨256,.other,false,some ⟨63,[],none,false⟩⟩]⟩,⟨[24,38,58],none,[],[⟨256,.other,false,some ⟨40,[],none,false⟩⟩,⟨256,.ws,false,some ⟨40,[],none,false⟩⟩,⟨256,.lf,false,some ⟨40,[],none,false⟩⟩,⟨256,.vt,false,some ⟨40,[],none,false⟩⟩,⟨256,.ff,false,some ⟨40,[],none,false⟩⟩,⟨256,.cr,false,some ⟨40,[],none,false⟩⟩,⟨256,.cr,true,some ⟨40,[],none,false⟩⟩,⟨256,.other,false,some ⟨0,[.code],some 2,true⟩⟩,⟨256,.other,false,some ⟨72,[],none,false⟩⟩]⟩,⟨[40,51,56],none,[],[⟨256,.other,false,some ⟨62,[],none,false⟩⟩,⟨256,.ws,false,some ⟨62,[],none,false⟩⟩,⟨256,.lf,false,some ⟨62,[],none,false⟩⟩,⟨256,.vt,false,some ⟨62,[],none,false⟩⟩,⟨256,.ff,false,some ⟨62,[],none,false⟩⟩,⟨256,.cr,false,some ⟨62,[],none,false⟩⟩,⟨256,.cr,true,some ⟨62,[],none,false⟩⟩,⟨256,.other,false,some ⟨0,[],some 1,true⟩⟩,⟨256,.other,false,some ⟨73,[],none,false⟩⟩,⟨256,.other,false,some ⟨63,[],none,false⟩⟩]⟩,⟨[39,58],none,[],[⟨256,.other,false,some ⟨74,[],none,false⟩⟩,⟨256,.ws,false,some ⟨74,[],none,false⟩⟩,⟨256,.lf,false,some ⟨74,[],none,false⟩⟩,⟨256,.vt,false,some ⟨74,[],none,false⟩⟩,⟨256,.ff,false,some ⟨74,[],none,false⟩⟩,⟨256,.cr,false,some ⟨74,[],none,false⟩⟩,⟨256,.cr,true,some ⟨74,[],none,false⟩⟩,⟨256,.other,false,some ⟨0,[.code],some 2,true⟩⟩]⟩,⟨[40,57],none,[],[⟨256,.other,false,some ⟨74,[],none,false⟩⟩,⟨256,.ws,false,some ⟨74,[],none,false⟩⟩,⟨256,.lf,false,some ⟨74,[],none,false⟩⟩,⟨256,.vt,false,some ⟨74,[],none,false⟩⟩,⟨256,.ff,false,some ⟨74,[],none,false⟩⟩,⟨256,.cr,false,some ⟨74,[],none,false⟩⟩,⟨256,.cr,true,some ⟨74,[],none,false⟩⟩,⟨256,.other,false,some ⟨0,[],some 1,true⟩⟩]⟩,⟨[40,58],none,[],[⟨256,.other,false,some ⟨74,[],none,false⟩⟩,⟨256,.ws,false,some ⟨74,[],none,false⟩⟩,⟨256,.lf,false,some ⟨74,[],none,false⟩⟩,⟨256,.vt,false,some ⟨74,[],none,false⟩⟩,⟨256,.ff,false,some ⟨74,[],none,false⟩⟩,⟨256,.cr,false,some ⟨74,[],none,false⟩⟩,⟨256,.cr,true,some ⟨74,[],none,false⟩⟩,⟨256,.other,false,some ⟨0,[],some 1,true⟩⟩]⟩]
theorem emb49_rowsOk : rowsOk emb49_nfa [] (emb49_cs.map (·.1)) emb49_rows = true := by decide +kernel
def emb49_D : Dfa emb49_nfa := ⟨emb49_masks, [], emb49_cs, emb49_rows, emb49_masksIn, emb49_repOk, emb49_rowsOk⟩
def emb49_maskst : List Nat := [1152921504606846976,4294983168,115792089237316195423570985008687907853269984665640564039457584007908834656767,41538374877950027585161004031410176,83076749755900055170322008062820352,2658455992188801765450304258010251264,324518553733984590509070343995392,2535301201046754613352112062464,115792089237316195423570985008687907853269984665640564039452972321894702252031,83076749736557242056487941267521536,2535301200456458802993406410752,1329227995784915872903807060280344576,140737488355328,633825300114114700748351602688,41538374868278621028243970633760768,4611686018427387904,633825300261688653338028015616,20769187438975013792580502015705088,40564819216748073813633792999424,5192296859743753448145125503926272,81129638414606681695789005144064,158456325028528675187087900672,332306998946228968225951765070086144,20769187434139310514121985316880384,40564819207303340847894502572032,5192296858534827628530496329220096,137438953472,8589934592,35184372088832,115792089237316195423570985008687907853269984665640564039457584007913129639935]
def emb49_cst : List (Nat × Nat) := [(0,115792089237316195423570985008687907853265513648504117332318924992224566428159),(9,4294967808),(10,1024),(11,2048),(12,4096),(13,8192),(33,8589934592),(37,137438953472),(45,35184372088832),(47,140737488355328),(60,1152921504606846976),(62,4611686018427387904),(67,147573952589676412928),(69,590295810358705651712),(73,9444732965739290427392),(76,324518553733984590509070343995392),(80,1208925819614629174706176),(82,4835703278458516698824704),(83,9671406556917033397649408),(84,19342813113834066795298816),(89,2658455992188801765450304258010251264),(97,158456325028528675187087900672),(99,633825300114114700748351602688),(101,2535301200456458802993406410752),(105,40564819207303340847894502572032),(106,81129638414606681695789005144064),(112,5192296858534827628530496329220096),(114,20769187434139310514121985316880384),(115,41538374868278621028243970633760768),(116,83076749736557242056487941267521536),(118,332306998946228968225951765070086144),(120,1329227995784915872903807060280344576)]
theorem emb49_masksInt : masksIn emb49_nfa emb49_maskst = true := by decide +kernel
theorem emb49_repOkt : repOk emb49_maskst emb49_cst = true := by decide +kernel
def emb49_rowst : List Row := [⟨[],none,[],[⟨256,.other,false,some ⟨0,[],some 5,true⟩⟩,⟨256,.ws,false,some ⟨1,[.setEnt (.own 0)],some 3,false⟩⟩,⟨256,.lf,false,some ⟨1,[.setEnt (.own 0)],some 3,false⟩⟩,⟨256,.vt,false,some ⟨1,[.setEnt (.own 0)],some 3,false⟩⟩,⟨256,.ff,false,some ⟨1,[.setEnt (.own 0)],some 3,false⟩⟩,⟨256,.cr,false,some ⟨1,[.setEnt (.own 0)],some 3,false⟩⟩,⟨256,.cr,true,some ⟨1,[.setEnt (.own 0)],some 3,false⟩⟩,⟨47,.other,false,some ⟨0,[],some 5,true⟩⟩,⟨60,.other,false,some ⟨2,[.setEnt (.own 1)],some 5,false⟩⟩,⟨62,.other,false,some ⟨0,[],some 5,true⟩⟩]⟩,⟨[60],some 3,[],[⟨256,.other,false,none⟩,⟨256,.ws,false,some ⟨1,[.setEnt (.own 0)],some 3,false⟩⟩,⟨256,.lf,false,some ⟨1,[.setEnt (.own 0)],some 3,false⟩⟩,⟨256,.vt,false,some ⟨1,[.setEnt (.own 0)],some 3,false⟩⟩,⟨256,.ff,false,some ⟨1,[.setEnt (.own 0)],some 3,false⟩⟩,⟨256,.cr,false,some ⟨1,[.setEnt (.own 0)],some 3,false⟩⟩,⟨256,.cr,true,some ⟨1,[.setEnt (.own 0)],some 3,false⟩⟩,⟨47,.other,false,none⟩,⟨60,.other,false,none⟩,⟨62,.other,false,none⟩]⟩,⟨[0,17,42,44,61,69],some 5,[],[⟨256,.other,false,none⟩,⟨256,.ws,false,none⟩,⟨256,.lf,false,none⟩,⟨256,.vt,false,none⟩,⟨256,.ff,false,none⟩,⟨256,.cr,false,none⟩,⟨256,.cr,true,none⟩,⟨256,.other,false,some ⟨3,[.setEnt (.own 1)],none,false⟩⟩,⟨256,.other,false,some ⟨0,[.code],some 2,true⟩⟩,⟨47,.other,false,none⟩,⟨60,.other,false,none⟩,⟨62,.other,false,none⟩,⟨256,.other,false,some ⟨4,[],none,false⟩⟩]⟩,⟨[62],none,[],[⟨256,.other,false,none⟩,⟨256,.ws,false,none⟩,⟨256,.lf,false,none⟩,⟨256,.vt,false,none⟩,⟨256,.ff,false,none⟩,⟨256,.cr,false,none⟩,⟨256,.cr,true,none⟩,⟨256,.other,false,some ⟨5,[.setEnt (.own 1)],none,false⟩⟩,⟨47,.other,false,none⟩,⟨60,.other,false,none⟩,⟨62,.other,false,none⟩]⟩,⟨[1,18,45],none,[],[⟨256,.other,false,none⟩,⟨256,.ws,false,none⟩,⟨256,.lf,false,none⟩,⟨256,.vt,false,none⟩,⟨256,.ff,false,none⟩,⟨256,.cr,false,none⟩,⟨256,.cr,true,none⟩,⟨47,.other,false,none⟩,⟨60,.other,false,none⟩,⟨62,.other,false,none⟩,⟨256,.other,false,some ⟨6,[],none,false⟩⟩,⟨256,.other,false,some ⟨7,[],none,false⟩⟩]⟩,⟨[63],none,[],[⟨256,.other,false,none⟩,⟨256,.ws,false,none⟩,⟨256,.lf,false,none⟩,⟨256,.vt,false,none⟩,⟨256,.ff,false,none⟩,⟨256,.cr,false,none⟩,⟨256,.cr,true,none⟩,⟨256,.other,false,some ⟨8,[.setEnt (.own 1)],none,false⟩⟩,⟨47,.other,false,none⟩,⟨60,.other,false,none⟩,⟨62,.other,false,none⟩]⟩,⟨[19,46],none,[],[⟨256,.other,false,none⟩,⟨256,.ws,false,none⟩,⟨256,.lf,false,none⟩,⟨256,.vt,false,none⟩,⟨256,.ff,false,none⟩,⟨256,.cr,false,none⟩,⟨256,.cr,true,none⟩,⟨47,.other,false,none⟩,⟨60,.other,false,none⟩,⟨62,.other,false,none⟩,⟨256,.other,false,some ⟨9,[],none,false⟩⟩]⟩,⟨[2],none,[],[⟨256,.other,false,none⟩,⟨256,.ws,false,none⟩,⟨256,.lf,false,none⟩,⟨256,.vt,false,none⟩,⟨256,.ff,false,none⟩,⟨256,.cr,false,none⟩,⟨256,.cr,true,none⟩,⟨47,.other,false,none⟩,⟨60,.other,false,none⟩,⟨62,.other,false,none⟩,⟨256,.other,false,some ⟨10,[],none,false⟩⟩]⟩,⟨[64],none,[],[⟨256,.other,false,some ⟨11,[.setEnt (.own 1)],none,false⟩⟩,⟨256,.ws,false,some ⟨11,[.setEnt (.own 1)],none,false⟩⟩,⟨256,.lf,false,some ⟨11,[.setEnt (.own 1)],none,false⟩⟩,⟨256,.vt,false,some ⟨11,[.setEnt (.own 1)],none,false⟩⟩,⟨256,.ff,false,some ⟨11,[.setEnt (.own 1)],none,false⟩⟩,⟨256,.cr,false,some ⟨11,[.setEnt (.own 1)],none,false⟩⟩,⟨256,.cr,true,some ⟨11,[.setEnt (.own 1)],none,false⟩⟩,⟨256,.other,false,some ⟨12,[.setEnt (.own 1)],none,false⟩⟩,⟨47,.other,false,some ⟨11,[.setEnt (.own 1)],none,false⟩⟩,⟨60,.other,false,some ⟨11,[.setEnt (.own 1)],none,false⟩⟩,⟨62,.other,false,some ⟨11,[.setEnt (.own 1)],none,false⟩⟩]⟩,⟨[20,47],none,[],[⟨256,.other,false,none⟩,⟨256,.ws,false,none⟩,⟨256,.lf,false,none⟩,⟨256,.vt,false,none⟩,⟨256,.ff,false,none⟩,⟨256,.cr,false,none⟩,⟨256,.cr,true,none⟩,⟨47,.other,false,none⟩,⟨60,.other,false,none⟩,⟨62,.other,false,none⟩,⟨256,.other,false,some ⟨13,[],none,false⟩⟩]⟩,⟨[3],none,[],[⟨256,.other,false,none⟩,⟨256,.ws,false,none⟩,⟨256,.lf,false,none⟩,⟨256,.vt,false,none⟩,⟨256,.ff,false,none⟩,⟨256,.cr,false,none⟩,⟨256,.cr,true,none⟩,⟨47,.other,false,none⟩,⟨60,.other,false,none⟩,⟨62,.other,false,none⟩,⟨256,.other,false,some ⟨14,[],none,false⟩⟩]⟩,⟨[65],none,[],[⟨256,.other,false,some ⟨11,[.setEnt (.own 1)],none,false⟩⟩,⟨256,.ws,false,some ⟨11,[.setEnt (.own 1)],none,false⟩⟩,⟨256,.lf,false,some ⟨11,[.setEnt (.own 1)],none,false⟩⟩,⟨256,.vt,false,some ⟨11,[.setEnt (.own 1)],none,false⟩⟩,⟨256,.ff,false,some ⟨11,[.setEnt (.own 1)],none,false⟩⟩,⟨256,.cr,false,some ⟨11,[.setEnt (.own 1)],none,false⟩⟩,⟨256,.cr,true,some ⟨11,[.setEnt (.own 1)],none,false⟩⟩,⟨256,.other,false,some ⟨12,[.setEnt (.own 1)],none,false⟩⟩,⟨47,.other,false,some ⟨11,[.setEnt (.own 1)],none,false⟩⟩,⟨60,.other,false,some ⟨11,[.setEnt (.own 1)],none,false⟩⟩,⟨62,.other,false,some ⟨11,[.setEnt (.own 1)],none,false⟩⟩]⟩,⟨[65,66],none,[],[⟨256,.other,false,some ⟨11,[.setEnt (.own 1)],none,false⟩⟩,⟨256,.ws,false,some ⟨11,[.setEnt (.own 1)],none,false⟩⟩,⟨256,.lf,false,some ⟨11,[.setEnt (.own 1)],none,false⟩⟩,⟨256,.vt,false,some ⟨11,[.setEnt (.own 1)],none,false⟩⟩,⟨256,.ff,false,some ⟨11,[.setEnt (.own 1)],none,false⟩⟩,⟨256,.cr,false,some ⟨11,[.setEnt (.own 1)],none,false⟩⟩,⟨256,.cr,true,some ⟨11,[.setEnt (.own 1)],none,false⟩⟩,⟨256,.other,false,some ⟨15,[.setEnt (.own 1)],none,false⟩⟩,⟨47,.other,false,some ⟨11,[.setEnt (.own 1)],none,false⟩⟩,⟨60,.other,false,some ⟨11,[.setEnt (.own 1)],none,false⟩⟩,⟨62,.other,false,some ⟨11,[.setEnt (.own 1)],none,false⟩⟩]⟩,⟨[21,48],none,[],[⟨256,.other,false,none⟩,⟨256,.ws,false,none⟩,⟨256,.lf,false,none⟩,⟨256,.vt,false,none⟩,⟨256,.ff,false,none⟩,⟨256,.cr,false,none⟩,⟨256,.cr,true,none⟩,⟨47,.other,false,none⟩,⟨60,.other,false,none⟩,⟨62,.other,false,none⟩,⟨256,.other,false,some ⟨16,[],none,false⟩⟩]⟩,⟨[4],none,[],[⟨256,.other,false,none⟩,⟨256,.ws,false,none⟩,⟨256,.lf,false,none⟩,⟨256,.vt,false,none⟩,⟨256,.ff,false,none⟩,⟨256,.cr,false,none⟩,⟨256,.cr,true,none⟩,⟨47,.other,false,none⟩,⟨60,.other,false,none⟩,⟨62,.other,false,none⟩,⟨256,.other,false,some ⟨17,[],none,false⟩⟩]⟩,⟨[65,66,67],none,[],[⟨256,.other,false,some ⟨11,[.setEnt (.own 1)],none,false⟩⟩,⟨256,.ws,false,some ⟨11,[.setEnt (.own 1)],none,false⟩⟩,⟨256,.lf,false,some ⟨11,[.setEnt (.own 1)],none,false⟩⟩,⟨256,.vt,false,some ⟨11,[.setEnt (.own 1)],none,false⟩⟩,⟨256,.ff,false,some ⟨11,[.setEnt (.own 1)],none,false⟩⟩,⟨256,.cr,false,some ⟨11,[.setEnt (.own 1)],none,false⟩⟩,⟨256,.cr,true,some ⟨11,[.setEnt (.own 1)],none,false⟩⟩,⟨256,.other,false,some ⟨15,[.setEnt (.own 1)],none,false⟩⟩,⟨47,.other,false,some ⟨11,[.setEnt (.own 1)],none,false⟩⟩,⟨60,.other,false,some ⟨11,[.setEnt (.own 1)],none,false⟩⟩,⟨62,.other,false,some ⟨0,[.setEnt (.own 1)],some 4,true⟩⟩]⟩,⟨[22,49],none,[],[⟨256,.other,false,none⟩,⟨256,.ws,false,none⟩,⟨256,.lf,false,none⟩,⟨256,.vt,false,none⟩,⟨256,.ff,false,none⟩,⟨256,.cr,false,none⟩,⟨256,.cr,true,none⟩,⟨47,.other,false,none⟩,⟨60,.other,false,none⟩,⟨62,.other,false,none⟩,⟨256,.other,false,some ⟨18,[],none,false⟩⟩]⟩,⟨[5],none,[],[⟨256,.other,false,some ⟨19,[],none,false⟩⟩,⟨256,.ws,false,some ⟨19,[],none,false⟩⟩,⟨256,.lf,false,some ⟨19,[],none,false⟩⟩,⟨256,.vt,false,some ⟨19,[],none,false⟩⟩,⟨256,.ff,false,some ⟨19,[],none,false⟩⟩,⟨256,.cr,false,some ⟨19,[],none,false⟩⟩,⟨256,.cr,true,some ⟨19,[],none,false⟩⟩,⟨47,.other,false,some ⟨19,[],none,false⟩⟩,⟨60,.other,false,some ⟨19,[],none,false⟩⟩,⟨62,.other,false,none⟩]⟩,⟨[23,50],none,[],[⟨256,.other,false,some ⟨20,[],none,false⟩⟩,⟨256,.ws,false,some ⟨20,[],none,false⟩⟩,⟨256,.lf,false,some ⟨20,[],none,false⟩⟩,⟨256,.vt,false,some ⟨20,[],none,false⟩⟩,⟨256,.ff,false,some ⟨20,[],none,false⟩⟩,⟨256,.cr,false,some ⟨20,[],none,false⟩⟩,⟨256,.cr,true,some ⟨20,[],none,false⟩⟩,⟨47,.other,false,some ⟨20,[],none,false⟩⟩,⟨60,.other,false,some ⟨20,[],none,false⟩⟩,⟨62,.other,false,none⟩]⟩,⟨[6],none,[],[⟨256,.other,false,some ⟨19,[],none,false⟩⟩,⟨256,.ws,false,some ⟨19,[],none,false⟩⟩,⟨256,.lf,false,some ⟨19,[],none,false⟩⟩,⟨256,.vt,false,some ⟨19,[],none,false⟩⟩,⟨256,.ff,false,some ⟨19,[],none,false⟩⟩,⟨256,.cr,false,some ⟨19,[],none,false⟩⟩,⟨256,.cr,true,some ⟨19,[],none,false⟩⟩,⟨47,.other,false,some ⟨19,[],none,false⟩⟩,⟨60,.other,false,some ⟨19,[],none,false⟩⟩,⟨62,.other,false,none⟩,⟨256,.other,false,some ⟨21,[],none,false⟩⟩]⟩,⟨[24,51],none,[],[⟨256,.other,false,some ⟨20,[],none,false⟩⟩,⟨256,.ws,false,some ⟨20,[],none,false⟩⟩,⟨256,.lf,false,some ⟨20,[],none,false⟩⟩,⟨256,.vt,false,some ⟨20,[],none,false⟩⟩,⟨256,.ff,false,some ⟨20,[],none,false⟩⟩,⟨256,.cr,false,some ⟨20,[],none,false⟩⟩,⟨256,.cr,true,some ⟨20,[],none,false⟩⟩,⟨47,.other,false,some ⟨20,[],none,false⟩⟩,⟨60,.other,false,some ⟨20,[],none,false⟩⟩,⟨62,.other,false,none⟩,⟨256,.other,false,some ⟨22,[],none,false⟩⟩,⟨256,.other,false,some ⟨23,[],none,false⟩⟩]⟩,⟨[6,7],none,[],[⟨256,.other,false,some ⟨19,[],none,false⟩⟩,⟨256,.ws,false,some ⟨19,[],none,false⟩⟩,⟨256,.lf,false,some ⟨19,[],none,false⟩⟩,⟨256,.vt,false,some ⟨19,[],none,false⟩⟩,⟨256,.ff,false,some ⟨19,[],none,false⟩⟩,⟨256,.cr,false,some ⟨19,[],none,false⟩⟩,⟨256,.cr,true,some ⟨19,[],none,false⟩⟩,⟨47,.other,false,some ⟨19,[],none,false⟩⟩,⟨60,.other,false,some ⟨19,[],none,false⟩⟩,⟨62,.other,false,none⟩,⟨256,.other,false,some ⟨24,[],none,false⟩⟩,⟨256,.other,false,some ⟨21,[],none,false⟩⟩]⟩,⟨[24,51,52],none,[],[⟨256,.other,false,some ⟨20,[],none,false⟩⟩,⟨256,.ws,false,some ⟨20,[],none,false⟩⟩,⟨256,.lf,false,some ⟨20,[],none,false⟩⟩,⟨256,.vt,false,some ⟨20,[],none,false⟩⟩,⟨256,.ff,false,some ⟨20,[],none,false⟩⟩,⟨256,.cr,false,some ⟨20,[],none,false⟩⟩,⟨256,.cr,true,some ⟨20,[],none,false⟩⟩,⟨47,.other,false,some ⟨20,[],none,false⟩⟩,⟨60,.other,false,some ⟨20,[],none,false⟩⟩,⟨62,.other,false,none⟩,⟨256,.other,false,some ⟨25,[],none,false⟩⟩,⟨256,.other,false,some ⟨22,[],none,false⟩⟩,⟨256,.other,false,some ⟨23,[],none,false⟩⟩]⟩,⟨[24,25,51],none,[],[⟨256,.other,false,some ⟨20,[],none,false⟩⟩,⟨256,.ws,false,some ⟨20,[],none,false⟩⟩,⟨256,.lf,false,some ⟨20,[],none,false⟩⟩,⟨256,.vt,false,some ⟨20,[],none,false⟩⟩,⟨256,.ff,false,some ⟨20,[],none,false⟩⟩,⟨256,.cr,false,some ⟨20,[],none,false⟩⟩,⟨256,.cr,true,some ⟨20,[],none,false⟩⟩,⟨47,.other,false,some ⟨20,[],none,false⟩⟩,⟨60,.other,false,some ⟨20,[],none,false⟩⟩,⟨62,.other,false,none⟩,⟨256,.other,false,some ⟨26,[],none,false⟩⟩,⟨256,.other,false,some ⟨22,[],none,false⟩⟩,⟨256,.other,false,some ⟨23,[],none,false⟩⟩]⟩,⟨[6,8],none,[],[⟨256,.other,false,some ⟨19,[],none,false⟩⟩,⟨256,.ws,false,some ⟨19,[],none,false⟩⟩,⟨256,.lf,false,some ⟨19,[],none,false⟩⟩,⟨256,.vt,false,some ⟨19,[],none,false⟩⟩,⟨256,.ff,false,some ⟨19,[],none,false⟩⟩,⟨256,.cr,false,some ⟨19,[],none,false⟩⟩,⟨256,.cr,true,some ⟨19,[],none,false⟩⟩,⟨47,.other,false,some ⟨19,[],none,false⟩⟩,⟨60,.other,false,some ⟨19,[],none,false⟩⟩,⟨62,.other,false,none⟩,⟨256,.other,false,some ⟨21,[],none,false⟩⟩,⟨256,.other,false,some ⟨27,[],none,false⟩⟩]⟩,⟨[24,51,53],none,[],[⟨256,.other,false,some ⟨20,[],none,false⟩⟩,⟨256,.ws,false,some ⟨20,[],none,false⟩⟩,⟨256,.lf,false,some ⟨20,[],none,false⟩⟩,⟨256,.vt,false,some ⟨20,[],none,false⟩⟩,⟨256,.ff,false,some ⟨20,[],none,false⟩⟩,⟨256,.cr,false,some ⟨20,[],none,false⟩⟩,⟨256,.cr,true,some ⟨20,[],none,false⟩⟩,⟨47,.other,false,some ⟨20,[],none,false⟩⟩,⟨60,.other,false,some ⟨20,[],none,false⟩⟩,⟨62,.other,false,none⟩,⟨256,.other,false,some ⟨28,[],none,false⟩⟩,⟨256,.other,false,some ⟨22,[],none,false⟩⟩,⟨256,.other,false,some ⟨23,[],none,false⟩⟩]⟩,⟨[24,26,51],none,[],[⟨256,.other,false,some ⟨20,[],none,false⟩⟩,⟨256,.ws,false,some ⟨20,[],none,false⟩⟩,⟨256,.lf,false,some ⟨20,[],none,false⟩⟩,⟨256,.vt,false,some ⟨20,[],none,false⟩⟩,⟨256,.ff,false,some ⟨20,[],none,false⟩⟩,⟨256,.cr,false,some ⟨20,[],none,false⟩⟩,⟨256,.cr,true,some ⟨20,[],none,false⟩⟩,⟨47,.other,false,some ⟨20,[],none,false⟩⟩,⟨60,.other,false,some ⟨20,[],none,false⟩⟩,⟨62,.other,false,none⟩,⟨256,.other,false,some ⟨22,[],none,false⟩⟩,⟨256,.other,false,some ⟨23,[],none,false⟩⟩,⟨256,.other,false,some ⟨29,[],none,false⟩⟩]⟩,⟨[6,9],none,[],[⟨256,.other,false,some ⟨19,[],none,false⟩⟩,⟨256,.ws,false,some ⟨19,[],none,false⟩⟩,⟨256,.lf,false,some ⟨19,[],none,false⟩⟩,⟨256,.vt,false,some ⟨19,[],none,false⟩⟩,⟨256,.ff,false,some ⟨19,[],none,false⟩⟩,⟨256,.cr,false,some ⟨19,[],none,false⟩⟩,⟨256,.cr,true,some ⟨19,[],none,false⟩⟩,⟨47,.other,false,some ⟨19,[],none,false⟩⟩,⟨60,.other,false,some ⟨19,[],none,false⟩⟩,⟨62,.other,false,none⟩,⟨256,.other,false,some ⟨30,[],none,false⟩⟩]⟩,⟨[24,51,54],none,[],[⟨256,.other,false,some ⟨20,[],none,false⟩⟩,⟨256,.ws,false,some ⟨20,[],none,false⟩⟩,⟨256,.lf,false,some ⟨20,[],none,false⟩⟩,⟨256,.vt,false,some ⟨20,[],none,false⟩⟩,⟨256,.ff,false,some ⟨20,[],none,false⟩⟩,⟨256,.cr,false,some ⟨20,[],none,false⟩⟩,⟨256,.cr,true,some ⟨20,[],none,false⟩⟩,⟨47,.other,false,some ⟨20,[],none,false⟩⟩,⟨60,.other,false,some ⟨20,[],none,false⟩⟩,⟨62,.other,false,none⟩,⟨256,.other,false,some ⟨22,[],none,false⟩⟩,⟨256,.other,false,some ⟨23,[],none,false⟩⟩,⟨256,.other,false,some ⟨31,[],none,false⟩⟩]⟩,⟨[24,27,51],none,[],[⟨256,.other,false,some ⟨20,[],none,false⟩⟩,⟨256,.ws,false,some ⟨20,[],none,false⟩⟩,⟨256,.lf,false,some ⟨20,[],none,false⟩⟩,⟨256,.vt,false,some ⟨20,[],none,false⟩⟩,⟨256,.ff,false,some ⟨20,[],none,false⟩⟩,⟨256,.cr,false,some ⟨20,[],none,false⟩⟩,⟨256,.cr,true,some ⟨20,[],none,false⟩⟩,⟨47,.other,false,some ⟨20,[],none,false⟩⟩,⟨60,.other,false,some ⟨20,[],none,false⟩⟩,⟨62,.other,false,none⟩,⟨256,.other,false,some ⟨22,[],none,false⟩⟩,⟨256,.other,false,some ⟨32,[],none,false⟩⟩]⟩,⟨[6,7,10],none,[],[⟨256,.other,false,some ⟨19,[],none,false⟩⟩,⟨256,.ws,false,some ⟨19,[],none,false⟩⟩,⟨256,.lf,false,some ⟨19,[],none,false⟩⟩,⟨256,.vt,false,some ⟨19,[],none,false⟩⟩,⟨256,.ff,false,some ⟨19,[],none,false⟩⟩,⟨256,.cr,false,some ⟨19,[],none,false⟩⟩,⟨256,.cr,true,some ⟨19,[],none,false⟩⟩,⟨47,.other,false,some ⟨33,[],none,false⟩⟩,⟨60,.other,false,some ⟨19,[],none,false⟩⟩,⟨62,.other,false,none⟩,⟨256,.other,false,some ⟨24,[],none,false⟩⟩,⟨256,.other,false,some ⟨21,[],none,false⟩⟩]⟩,⟨[24,51,55],none,[],[⟨256,.other,false,some ⟨20,[],none,false⟩⟩,⟨256,.ws,false,some ⟨20,[],none,false⟩⟩,⟨256,.lf,false,some ⟨20,[],none,false⟩⟩,⟨256,.vt,false,some ⟨20,[],none,false⟩⟩,⟨256,.ff,false,some ⟨20,[],none,false⟩⟩,⟨256,.cr,false,some ⟨20,[],none,false⟩⟩,⟨256,.cr,true,some ⟨20,[],none,false⟩⟩,⟨47,.other,false,some ⟨20,[],none,false⟩⟩,⟨60,.other,false,some ⟨20,[],none,false⟩⟩,⟨62,.other,false,none⟩,⟨256,.other,false,some ⟨34,[],none,false⟩⟩,⟨256,.other,false,some ⟨22,[],none,false⟩⟩,⟨256,.other,false,some ⟨23,[],none,false⟩⟩]⟩,⟨[24,25,28,51],none,[],[⟨256,.other,false,some ⟨20,[],none,false⟩⟩,⟨256,.ws,false,some ⟨20,[],none,false⟩⟩,⟨256,.lf,false,some ⟨20,[],none,false⟩⟩,⟨256,.vt,false,some ⟨20,[],none,false⟩⟩,⟨256,.ff,false,some ⟨20,[],none,false⟩⟩,⟨256,.cr,false,some ⟨20,[],none,false⟩⟩,⟨256,.cr,true,some ⟨20,[],none,false⟩⟩,⟨47,.other,false,some ⟨35,[],none,false⟩⟩,⟨60,.other,false,some ⟨20,[],none,false⟩⟩,⟨62,.other,false,none⟩,⟨256,.other,false,some ⟨26,[],none,false⟩⟩,⟨256,.other,false,some ⟨22,[],none,false⟩⟩,⟨256,.other,false,some ⟨23,[],none,false⟩⟩]⟩,⟨[6,11],none,[],[⟨256,.other,false,some ⟨19,[],none,false⟩⟩,⟨256,.ws,false,some ⟨19,[],none,false⟩⟩,⟨256,.lf,false,some ⟨19,[],none,false⟩⟩,⟨256,.vt,false,some ⟨19,[],none,false⟩⟩,⟨256,.ff,false,some ⟨19,[],none,false⟩⟩,⟨256,.cr,false,some ⟨19,[],none,false⟩⟩,⟨256,.cr,true,some ⟨19,[],none,false⟩⟩,⟨47,.other,false,some ⟨19,[],none,false⟩⟩,⟨60,.other,false,some ⟨19,[],none,false⟩⟩,⟨62,.other,false,none⟩,⟨256,.other,false,some ⟨36,[],none,false⟩⟩,⟨256,.other,false,some ⟨21,[],none,false⟩⟩]⟩,⟨[24,51,56],none,[],[⟨256,.other,false,some ⟨20,[],none,false⟩⟩,⟨256,.ws,false,some ⟨20,[],none,false⟩⟩,⟨256,.lf,false,some ⟨20,[],none,false⟩⟩,⟨256,.vt,false,some ⟨20,[],none,false⟩⟩,⟨256,.ff,false,some ⟨20,[],none,false⟩⟩,⟨256,.cr,false,some ⟨20,[],none,false⟩⟩,⟨256,.cr,true,some ⟨20,[],none,false⟩⟩,⟨47,.other,false,some ⟨20,[],none,false⟩⟩,⟨60,.other,false,some ⟨20,[],none,false⟩⟩,⟨62,.other,false,none⟩,⟨256,.other,false,some ⟨37,[],none,false⟩⟩,⟨256,.other,false,some ⟨22,[],none,false⟩⟩,⟨256,.other,false,some ⟨23,[],none,false⟩⟩]⟩,⟨[24,29,51],none,[],[⟨256,.other,false,some ⟨20,[],none,false⟩⟩,⟨256,.ws,false,some ⟨20,[],none,false⟩⟩,⟨256,.lf,false,some ⟨20,[],none,false⟩⟩,⟨256,.vt,false,some ⟨20,[],none,false⟩⟩,⟨256,.ff,false,some ⟨20,[],none,false⟩⟩,⟨256,.cr,false,some ⟨20,[],none,false⟩⟩,⟨256,.cr,true,some ⟨20,[],none,false⟩⟩,⟨47,.other,false,some ⟨20,[],none,false⟩⟩,⟨60,.other,false,some ⟨20,[],none,false⟩⟩,⟨62,.other,false,none⟩,⟨256,.other,false,some ⟨38,[],none,false⟩⟩,⟨256,.other,false,some ⟨22,[],none,false⟩⟩,⟨256,.other,false,some ⟨23,[],none,false⟩⟩]⟩,⟨[6,12],none,[],[⟨256,.other,false,some ⟨19,[],none,false⟩⟩,⟨256,.ws,false,some ⟨19,[],none,false⟩⟩,⟨256,.lf,false,some ⟨19,[],none,false⟩⟩,⟨256,.vt,false,some ⟨19,[],none,false⟩⟩,⟨256,.ff,false,some ⟨19,[],none,false⟩⟩,⟨256,.cr,false,some ⟨19,[],none,false⟩⟩,⟨256,.cr,true,some ⟨19,[],none,false⟩⟩,⟨47,.other,false,some ⟨19,[],none,false⟩⟩,⟨60,.other,false,some ⟨19,[],none,false⟩⟩,⟨62,.other,false,none⟩,⟨256,.other,false,some ⟨39,[],none,false⟩⟩,⟨256,.other,false,some ⟨21,[],none,false⟩⟩]⟩,⟨[24,57],none,[],[⟨256,.other,false,some ⟨40,[],none,false⟩⟩,⟨256,.ws,false,some ⟨40,[],none,false⟩⟩,⟨256,.lf,false,some ⟨40,[],none,false⟩⟩,⟨256,.vt,false,some ⟨40,[],none,false⟩⟩,⟨256,.ff,false,some ⟨40,[],none,false⟩⟩,⟨256,.cr,false,some ⟨40,[],none,false⟩⟩,⟨256,.cr,true,some ⟨40,[],none,false⟩⟩,⟨47,.other,false,some ⟨40,[],none,false⟩⟩,⟨60,.other,false,some ⟨40,[],none,false⟩⟩,⟨62,.other,false,none⟩,⟨256,.other,false,some ⟨41,[],none,false⟩⟩]⟩,⟨[24,30,51],none,[],[⟨256,.other,false,some ⟨20,[],none,false⟩⟩,⟨256,.ws,false,some ⟨20,[],none,false⟩⟩,⟨256,.lf,false,some ⟨20,[],none,false⟩⟩,⟨256,.vt,false,some ⟨20,[],none,false⟩⟩,⟨256,.ff,false,some ⟨20,[],none,false⟩⟩,⟨256,.cr,false,some ⟨20,[],none,false⟩⟩,⟨256,.cr,true,some ⟨20,[],none,false⟩⟩,⟨47,.other,false,some ⟨20,[],none,false⟩⟩,⟨60,.other,false,some ⟨20,[],none,false⟩⟩,⟨62,.other,false,none⟩,⟨256,.other,false,some ⟨42,[],none,false⟩⟩,⟨256,.other,false,some ⟨22,[],none,false⟩⟩,⟨256,.other,false,some ⟨23,[],none,false⟩⟩]⟩,⟨[6,13],none,[],[⟨256,.other,false,some ⟨19,[],none,false⟩⟩,⟨256,.ws,false,some ⟨19,[],none,false⟩⟩,⟨256,.lf,false,some ⟨19,[],none,false⟩⟩,⟨256,.vt,false,some ⟨19,[],none,false⟩⟩,⟨256,.ff,false,some ⟨19,[],none,false⟩⟩,⟨256,.cr,false,some ⟨19,[],none,false⟩⟩,⟨256,.cr,true,some ⟨19,[],none,false⟩⟩,⟨47,.other,false,some ⟨19,[],none,false⟩⟩,⟨60,.other,false,some ⟨19,[],none,false⟩⟩,⟨62,.other,false,none⟩,⟨256,.other,false,some ⟨43,[],none,false⟩⟩,⟨256,.other,false,some ⟨21,[],none,false⟩⟩]⟩,⟨[24,58],none,[],[⟨256,.other,false,some ⟨40,[],none,false⟩⟩,⟨256,.ws,false,some ⟨40,[],none,false⟩⟩,⟨256,.lf,false,some ⟨40,[],none,false⟩⟩,⟨256,.vt,false,some ⟨40,[],none,false⟩⟩,⟨256,.ff,false,some ⟨40,[],none,false⟩⟩,⟨256,.cr,false,some ⟨40,[],none,false⟩⟩,⟨256,.cr,true,some ⟨40,[],none,false⟩⟩,⟨47,.other,false,some ⟨40,[],none,false⟩⟩,⟨60,.other,false,some ⟨40,[],none,false⟩⟩,⟨62,.other,false,some ⟨0,[.code],some 2,true⟩⟩,⟨256,.other,false,some ⟨41,[],none,false⟩⟩]⟩,⟨[24,25,58],none,[],[⟨256,.other,false,some ⟨40,[],none,false⟩⟩,⟨256,.ws,false,some ⟨40,[],none,false⟩⟩,⟨256,.lf,false,some ⟨40,[],none,false⟩⟩,⟨256,.vt,false,some ⟨40,[],none,false⟩⟩,⟨256,.ff,false,some ⟨40,[],none,false⟩⟩,⟨256,.cr,false,some ⟨40,[],none,false⟩⟩,⟨256,.cr,true,some ⟨40,[],none,false⟩⟩,⟨47,.other,false,some ⟨40,[],none,false⟩⟩,⟨60,.other,false,some ⟨40,[],none,false⟩⟩,⟨62,.other,false,some ⟨0,[.code],some 2,true⟩⟩,⟨256,.other,false,some ⟨44,[],none,false⟩⟩,⟨256,.other,false,some ⟨41,[],none,false⟩⟩]⟩,⟨[24,31,51],none,[],[⟨256,.other,false,some ⟨20,[],none,false⟩⟩,⟨256,.ws,false,some ⟨20,[],none,false⟩⟩,⟨256,.lf,false,some ⟨20,[],none,false⟩⟩,⟨256,.vt,false,some ⟨20,[],none,false⟩⟩,⟨256,.ff,false,some ⟨20,[],none,false⟩⟩,⟨256,.cr,false,some ⟨20,[],none,false⟩⟩,⟨256,.cr,true,some ⟨20,[],none,false⟩⟩,⟨47,.other,false,some ⟨20,[],none,false⟩⟩,⟨60,.other,false,some ⟨20,[],none,false⟩⟩,⟨62,.other,false,none⟩,⟨256,.other,false,some ⟨22,[],none,false⟩⟩,⟨256,.other,false,some ⟨23,[],none,false⟩⟩,⟨256,.other,false,some ⟨45,[],none,false⟩⟩]⟩,⟨[14],none,[],[⟨256,.other,false,some ⟨46,[],none,false⟩⟩,⟨256,.ws,false,some ⟨46,[],none,false⟩⟩,⟨256,.lf,false,some ⟨46,[],none,false⟩⟩,⟨256,.vt,false,some ⟨46,[],none,false⟩⟩,⟨256,.ff,false,some ⟨46,[],none,false⟩⟩,⟨256,.cr,false,some ⟨46,[],none,false⟩⟩,⟨256,.cr,true,some ⟨46,[],none,false⟩⟩,⟨47,.other,false,some ⟨46,[],none,false⟩⟩,⟨60,.other,false,some ⟨46,[],none,false⟩⟩,⟨62,.other,false,none⟩]⟩,⟨[24,26,58],none,[],[⟨256,.other,false,some ⟨40,[],none,false⟩⟩,⟨256,.ws,false,some ⟨40,[],none,false⟩⟩,⟨256,.lf,false,some ⟨40,[],none,false⟩⟩,⟨256,.vt,false,some ⟨40,[],none,false⟩⟩,⟨256,.ff,false,some ⟨40,[],none,false⟩⟩,⟨256,.cr,false,some ⟨40,[],none,false⟩⟩,⟨256,.cr,true,some ⟨40,[],none,false⟩⟩,⟨47,.other,false,some ⟨40,[],none,false⟩⟩,⟨60,.other,false,some ⟨40,[],none,false⟩⟩,⟨62,.other,false,some ⟨0,[.code],some 2,true⟩⟩,⟨256,.other,false,some ⟨41,[],none,false⟩⟩,⟨256,.other,false,some ⟨47,[],none,false⟩⟩]⟩,⟨[24,32,51],none,[],[⟨256,.other,false,some ⟨20,[],none,false⟩⟩,⟨256,.ws,false,some ⟨20,[],none,false⟩⟩,⟨256,.lf,false,some ⟨20,[],none,false⟩⟩,⟨256,.vt,false,some ⟨20,[],none,false⟩⟩,⟨256,.ff,false,some ⟨20,[],none,false⟩⟩,⟨256,.cr,false,some ⟨20,[],none,false⟩⟩,⟨256,.cr,true,some ⟨20,[],none,false⟩⟩,⟨47,.other,false,some ⟨20,[],none,false⟩⟩,⟨60,.other,false,some ⟨20,[],none,false⟩⟩,⟨62,.other,false,none⟩,⟨256,.other,false,some ⟨48,[],none,false⟩⟩,⟨256,.other,false,some ⟨22,[],none,false⟩⟩,⟨256,.other,false,some ⟨23,[],none,false⟩⟩]⟩,⟨[15],none,[],[⟨256,.other,false,some ⟨46,[],none,false⟩⟩,⟨256,.ws,false,some ⟨46,[],none,false⟩⟩,⟨256,.lf,false,some ⟨46,[],none,false⟩⟩,⟨256,.vt,false,some ⟨46,[],none,false⟩⟩,⟨256,.ff,false,some ⟨46,[],none,false⟩⟩,⟨256,.cr,false,some ⟨46,[],none,false⟩⟩,⟨256,.cr,true,some ⟨46,[],none,false⟩⟩,⟨47,.other,false,some ⟨46,[],none,false⟩⟩,⟨60,.other,false,some ⟨46,[],none,false⟩⟩,⟨62,.other,false,some ⟨0,[],some 0,true⟩⟩]⟩,⟨[24,27,58],none,[],[⟨256,.other,false,some ⟨40,[],none,false⟩⟩,⟨256,.ws,false,some ⟨40,[],none,false⟩⟩,⟨256,.lf,false,some ⟨40,[],none,false⟩⟩,⟨256,.vt,false,some ⟨40,[],none,false⟩⟩,⟨256,.ff,false,some ⟨40,[],none,false⟩⟩,⟨256,.cr,false,some ⟨40,[],none,false⟩⟩,⟨256,.cr,true,some ⟨40,[],none,false⟩⟩,⟨47,.other,false,some ⟨40,[],none,false⟩⟩,⟨60,.other,false,some ⟨40,[],none,false⟩⟩,⟨62,.other,false,some ⟨0,[.code],some 2,true⟩⟩,⟨256,.other,false,some ⟨49,[],none,false⟩⟩]⟩,⟨[24,33,51],none,[],[⟨256,.other,false,some ⟨20,[],none,false⟩⟩,⟨256,.ws,false,some ⟨20,[],none,false⟩⟩,⟨256,.lf,false,some ⟨20,[],none,false⟩⟩,⟨256,.vt,false,some ⟨20,[],none,false⟩⟩,⟨256,.ff,false,some ⟨20,[],none,false⟩⟩,⟨256,.cr,false,some ⟨20,[],none,false⟩⟩,⟨256,.cr,true,some ⟨20,[],none,false⟩⟩,⟨47,.other,false,some ⟨20,[],none,false⟩⟩,⟨60,.other,false,some ⟨20,[],none,false⟩⟩,⟨62,.other,false,none⟩,⟨256,.other,false,some ⟨50,[],none,false⟩⟩,⟨256,.other,false,some ⟨23,[],none,false⟩⟩]⟩,⟨[24,25,28,58],none,[],[⟨256,.other,false,some ⟨40,[],none,false⟩⟩,⟨256,.ws,false,some ⟨40,[],none,false⟩⟩,⟨256,.lf,false,some ⟨40,[],none,false⟩⟩,⟨256,.vt,false,some ⟨40,[],none,false⟩⟩,⟨256,.ff,false,some ⟨40,[],none,false⟩⟩,⟨256,.cr,false,some ⟨40,[],none,false⟩⟩,⟨256,.cr,true,some ⟨40,[],none,false⟩⟩,⟨47,.other,false,some ⟨51,[],none,false⟩⟩,⟨60,.other,false,some ⟨40,[],none,false⟩⟩,⟨62,.other,false,some ⟨0,[.code],some 2,true⟩⟩,⟨256,.other,false,some ⟨44,[],none,false⟩⟩,⟨256,.other,false,some ⟨41,[],none,false⟩⟩]⟩,⟨[24,34,51,52],none,[],[⟨256,.other,false,some ⟨20,[],none,false⟩⟩,⟨256,.ws,false,some ⟨20,[],none,false⟩⟩,⟨256,.lf,false,some ⟨20,[],none,false⟩⟩,⟨256,.vt,false,some ⟨20,[],none,false⟩⟩,⟨256,.ff,false,some ⟨20,[],none,false⟩⟩,⟨256,.cr,false,some ⟨20,[],none,false⟩⟩,⟨256,.cr,true,some ⟨20,[],none,false⟩⟩,⟨47,.other,false,some ⟨20,[],none,false⟩⟩,⟨60,.other,false,some ⟨20,[],none,false⟩⟩,⟨62,.other,false,none⟩,⟨256,.other,false,some ⟨52,[],none,false⟩⟩,⟨256,.other,false,some ⟨25,[],none,false⟩⟩,⟨256,.other,false,some ⟨22,[],none,false⟩⟩,⟨256,.other,false,some ⟨23,[],none,false⟩⟩]⟩,⟨[24,29,58],none,[],[⟨256,.other,false,some ⟨40,[],none,false⟩⟩,⟨256,.ws,false,some ⟨40,[],none,false⟩⟩,⟨256,.lf,false,some ⟨40,[],none,false⟩⟩,⟨256,.vt,false,some ⟨40,[],none,false⟩⟩,⟨256,.ff,false,some ⟨40,[],none,false⟩⟩,⟨256,.cr,false,some ⟨40,[],none,false⟩⟩,⟨256,.cr,true,some ⟨40,[],none,false⟩⟩,⟨47,.other,false,some ⟨40,[],none,false⟩⟩,⟨60,.other,false,some ⟨40,[],none,false⟩⟩,⟨62,.other,false,some ⟨0,[.code],some 2,true⟩⟩,⟨256,.other,false,some ⟨53,[],none,false⟩⟩,⟨256,.other,false,some ⟨41,[],none,false⟩⟩]⟩,⟨[24,35,51],none,[],[⟨256,.other,false,some ⟨20,[],none,false⟩⟩,⟨256,.ws,false,some ⟨20,[],none,false⟩⟩,⟨256,.lf,false,some ⟨20,[],none,false⟩⟩,⟨256,.vt,false,some ⟨20,[],none,false⟩⟩,⟨256,.ff,false,some ⟨20,[],none,false⟩⟩,⟨256,.cr,false,some ⟨20,[],none,false⟩⟩,⟨256,.cr,true,some ⟨20,[],none,false⟩⟩,⟨47,.other,false,some ⟨20,[],none,false⟩⟩,⟨60,.other,false,some ⟨20,[],none,false⟩⟩,⟨62,.other,false,none⟩,⟨256,.other,false,some ⟨54,[],none,false⟩⟩,⟨256,.other,false,some ⟨22,[],none,false⟩⟩,⟨256,.other,false,some ⟨23,[],none,false⟩⟩]⟩,⟨[24,30,58],none,[],[⟨256,.other,false,some ⟨40,[],none,false⟩⟩,⟨256,.ws,false,some ⟨40,[],none,false⟩⟩,⟨256,.lf,false,some ⟨40,[],none,false⟩⟩,⟨256,.vt,false,some ⟨40,[],none,false⟩⟩,⟨256,.ff,false,some ⟨40,[],none,false⟩⟩,⟨256,.cr,false,some ⟨40,[],none,false⟩⟩,⟨256,.cr,true,some ⟨40,[],none,false⟩⟩,⟨47,.other,false,some ⟨40,[],none,false⟩⟩,⟨60,.other,false,some ⟨40,[],none,false⟩⟩,⟨62,.other,false,some ⟨0,[.code],some 2,true⟩⟩,⟨256,.other,false,some ⟨55,[],none,false⟩⟩,⟨256,.other,false,some ⟨41,[],none,false⟩⟩]⟩,⟨[24,36,51],none,[],[⟨256,.other,false,some ⟨20,[],none,false⟩⟩,⟨256,.ws,false,some ⟨20,[],none,false⟩⟩,⟨256,.lf,false,some ⟨20,[],none,false⟩⟩,⟨256,.vt,false,some ⟨20,[],none,false⟩⟩,⟨256,.ff,false,some ⟨20,[],none,false⟩⟩,⟨256,.cr,false,some ⟨20,[],none,false⟩⟩,⟨256,.cr,true,some ⟨20,[],none,false⟩⟩,⟨47,.other,false,some ⟨20,[],none,false⟩⟩,⟨60,.other,false,some ⟨20,[],none,false⟩⟩,⟨62,.other,false,none⟩,⟨256,.other,false,some ⟨56,[],none,false⟩⟩,⟨256,.other,false,some ⟨22,[],none,false⟩⟩,⟨256,.other,false,some ⟨23,[],none,false⟩⟩]⟩,⟨[24,31,58],none,[],[⟨256,.other,false,some ⟨40,[],none,false⟩⟩,⟨256,.ws,false,some ⟨40,[],none,false⟩⟩,⟨256,.lf,false,some ⟨40,[],none,false⟩⟩,⟨256,.vt,false,some ⟨40,[],none,false⟩⟩,⟨256,.ff,false,some ⟨40,[],none,false⟩⟩,⟨256,.cr,false,some ⟨40,[],none,false⟩⟩,⟨256,.cr,true,some ⟨40,[],none,false⟩⟩,⟨47,.other,false,some ⟨40,[],none,false⟩⟩,⟨60,.other,false,some ⟨40,[],none,false⟩⟩,⟨62,.other,false,some ⟨0,[.code],some 2,true⟩⟩,⟨256,.other,false,some ⟨41,[],none,false⟩⟩,⟨256,.other,false,some ⟨57,[],none,false⟩⟩]⟩,⟨[24,37,51],none,[],[⟨256,.other,false,some ⟨20,[],none,false⟩⟩,⟨256,.ws,false,some ⟨20,[],none,false⟩⟩,⟨256,.lf,false,some ⟨20,[],none,false⟩⟩,⟨256,.vt,false,some ⟨20,[],none,false⟩⟩,⟨256,.ff,false,some ⟨20,[],none,false⟩⟩,⟨256,.cr,false,some ⟨20,[],none,false⟩⟩,⟨256,.cr,true,some ⟨20,[],none,false⟩⟩,⟨47,.other,false,some ⟨20,[],none,false⟩⟩,⟨60,.other,false,some ⟨20,[],none,false⟩⟩,⟨62,.other,false,none⟩,⟨256,.other,false,some ⟨58,[],none,false⟩⟩,⟨256,.other,false,some ⟨22,[],none,false⟩⟩,⟨256,.other,false,some ⟨23,[],none,false⟩⟩]⟩,⟨[24,32,58],none,[],[⟨256,.other,false,some ⟨40,[],none,false⟩⟩,⟨256,.ws,false,some ⟨40,[],none,false⟩⟩,⟨256,.lf,false,some ⟨40,[],none,false⟩⟩,⟨256,.vt,false,some ⟨40,[],none,false⟩⟩,⟨256,.ff,false,some ⟨40,[],none,false⟩⟩,⟨256,.cr,false,some ⟨40,[],none,false⟩⟩,⟨256,.cr,true,some ⟨40,[],none,false⟩⟩,⟨47,.other,false,some ⟨40,[],none,false⟩⟩,⟨60,.other,false,some ⟨40,[],none,false⟩⟩,⟨62,.other,false,some ⟨0,[.code],some 2,true⟩⟩,⟨256,.other,false,some ⟨59,[],none,false⟩⟩,⟨256,.other,false,some ⟨41,[],none,false⟩⟩]⟩,⟨[24,38,51],none,[],[⟨256,.other,false,some ⟨20,[],none,false⟩⟩,⟨256,.ws,false,some ⟨20,[],none,false⟩⟩,⟨256,.lf,false,some ⟨20,[],none,false⟩⟩,⟨256,.vt,false,some ⟨20,[],none,false⟩⟩,⟨256,.ff,false,some ⟨20,[],none,false⟩⟩,⟨256,.cr,false,some ⟨20,[],none,false⟩⟩,⟨256,.cr,true,some ⟨20,[],none,false⟩⟩,⟨47,.other,false,some ⟨20,[],none,false⟩⟩,⟨60,.other,false,some ⟨20,[],none,false⟩⟩,⟨62,.other,false,none⟩,⟨256,.other,false,some ⟨22,[],none,false⟩⟩,⟨256,.other,false,some ⟨60,[],none,false⟩⟩]⟩,⟨[24,33,58],none,[],[⟨256,.other,false,some ⟨40,[],none,false⟩⟩,⟨256,.ws,false,some ⟨40,[],none,false⟩⟩,⟨256,.lf,false,some ⟨40,[],none,false⟩⟩,⟨256,.vt,false,some ⟨40,[],none,false⟩⟩,⟨256,.ff,false,some ⟨40,[],none,false⟩⟩,⟨256,.cr,false,some ⟨40,[],none,false⟩⟩,⟨256,.cr,true,some ⟨40,[],none,false⟩⟩,⟨47,.other,false,some ⟨40,[],none,false⟩⟩,⟨60,.other,false,some ⟨40,[],none,false⟩⟩,⟨62,.other,false,some ⟨0,[.code],some 2,true⟩⟩,⟨256,.other,false,some ⟨61,[],none,false⟩⟩,⟨256,.other,false,some ⟨41,[],none,false⟩⟩]⟩,⟨[39,51],none,[],[⟨256,.other,false,some ⟨62,[],none,false⟩⟩,⟨256,.ws,false,some ⟨62,[],none,false⟩⟩,⟨256,.lf,false,some ⟨62,[],none,false⟩⟩,⟨256,.vt,false,some ⟨62,[],none,false⟩⟩,⟨256,.ff,false,some ⟨62,[],none,false⟩⟩,⟨256,.cr,false,some ⟨62,[],none,false⟩⟩,⟨256,.cr,true,some ⟨62,[],none,false⟩⟩,⟨47,.other,false,some ⟨62,[],none,false⟩⟩,⟨60,.other,false,some ⟨62,[],none,false⟩⟩,⟨62,.other,false,none⟩,⟨256,.other,false,some ⟨63,[],none,false⟩⟩]⟩,⟨[24,34,58],none,[],[⟨256,.other,false,some ⟨40,[],none,false⟩⟩,⟨256,.ws,false,some ⟨40,[],none,false⟩⟩,⟨256,.lf,false,some ⟨40,[],none,false⟩⟩,⟨256,.vt,false,some ⟨40,[],none,false⟩⟩,⟨256,.ff,false,some ⟨40,[],none,false⟩⟩,⟨256,.cr,false,some ⟨40,[],none,false⟩⟩,⟨256,.cr,true,some ⟨40,[],none,false⟩⟩,⟨47,.other,false,some ⟨40,[],none,false⟩⟩,⟨60,.other,false,some ⟨40,[],none,false⟩⟩,⟨62,.other,false,some ⟨0,[.code],some 2,true⟩⟩,⟨256,.other,false,some ⟨64,[],none,false⟩⟩,⟨256,.other,false,some ⟨41,[],none,false⟩⟩]⟩,⟨[40,51],none,[],[⟨256,.other,false,some ⟨62,[],none,false⟩⟩,⟨256,.ws,false,some ⟨62,[],none,false⟩⟩,⟨256,.lf,false,some ⟨62,[],none,false⟩⟩,⟨256,.vt,false,some ⟨62,[],none,false⟩⟩,⟨256,.ff,false,some ⟨62,[],none,false⟩⟩,⟨256,.cr,false,some ⟨62,[],none,false⟩⟩,⟨256,.cr,true,some ⟨62,[],none,false⟩⟩,⟨47,.other,false,some ⟨62,[],none,false⟩⟩,⟨60,.other,false,some ⟨62,[],none,false⟩⟩,⟨62,.other,false,some ⟨0,[],some 1,true⟩⟩,⟨256,.other,false,some ⟨63,[],none,false⟩⟩]⟩,⟨[40,51,52],none,[],[⟨256,.other,false,some ⟨62,[],none,false⟩⟩,⟨256,.ws,false,some ⟨62,[],none,false⟩⟩,⟨256,.lf,false,some ⟨62,[],none,false⟩⟩,⟨256,.vt,false,some ⟨62,[],none,false⟩⟩,⟨256,.ff,false,some ⟨62,[],none,false⟩⟩,⟨256,.cr,false,some ⟨62,[],none,false⟩⟩,⟨256,.cr,true,some ⟨62,[],none,false⟩⟩,⟨47,.other,false,some ⟨62,[],none,false⟩⟩,⟨60,.other,false,some ⟨62,[],none,false⟩⟩,⟨62,.other,false,some ⟨0,[],some 1,true⟩⟩,⟨256,.other,false,some ⟨65,[],none,false⟩⟩,⟨256,.other,false,some ⟨63,[],none,false⟩⟩]⟩,⟨[24,35,58],none,[],[⟨256,.other,false,some ⟨40,[],none,false⟩⟩,⟨256,.ws,false,some ⟨40,[],none,false⟩⟩,⟨256,.lf,false,some ⟨40,[],none,false⟩⟩,⟨256,.vt,false,some ⟨40,[],none,false⟩⟩,⟨256,.ff,false,some ⟨40,[],none,false⟩⟩,⟨256,.cr,false,some ⟨40,[],none,false⟩⟩,⟨256,.cr,true,some ⟨40,[],none,false⟩⟩,⟨47,.other,false,some ⟨40,[],none,false⟩⟩,⟨60,.other,false,some ⟨40,[],none,false⟩⟩,⟨62,.other,false,some ⟨0,[.code],some 2,true⟩⟩,⟨256,.other,false,some ⟨66,[],none,false⟩⟩,⟨256,.other,false,some ⟨41,[],none,false⟩⟩]⟩,⟨[40,51,53],none,[],[⟨256,.other,false,some ⟨62,[],none,false⟩⟩,⟨256,.ws,false,some ⟨62,[],none,false⟩⟩,⟨256,.lf,false,some ⟨62,[],none,false⟩⟩,⟨256,.vt,false,some ⟨62,[],none,false⟩⟩,⟨256,.ff,false,some ⟨62,[],none,false⟩⟩,⟨256,.cr,false,some ⟨62,[],none,false⟩⟩,⟨256,.cr,true,some ⟨62,[],none,false⟩⟩,⟨47,.other,false,some ⟨62,[],none,false⟩⟩,⟨60,.other,false,some ⟨62,[],none,false⟩⟩,⟨62,.other,false,some ⟨0,[],some 1,true⟩⟩,⟨256,.other,false,some ⟨67,[],none,false⟩⟩,⟨256,.other,false,some ⟨63,[],none,false⟩⟩]⟩,⟨[24,36,58],none,[],[⟨256,.other,false,some ⟨40,[],none,false⟩⟩,⟨256,.ws,false,some ⟨40,[],none,false⟩⟩,⟨256,.lf,false,some ⟨40,[],none,false⟩⟩,⟨256,.vt,false,some ⟨40,[],none,false⟩⟩,⟨256,.ff,false,some ⟨40,[],none,false⟩⟩,⟨256,.cr,false,some ⟨40,[],none,false⟩⟩,⟨256,.cr,true,some ⟨40,[],none,false⟩⟩,⟨47,.other,false,some ⟨40,[],none,false⟩⟩,⟨60,.other,false,some ⟨40,[],none,false⟩⟩,⟨62,.other,false,some ⟨0,[.code],some 2,true⟩⟩,⟨256,.other,false,some ⟨68,[],none,false⟩⟩,⟨256,.other,false,some ⟨41,[],none,false⟩⟩]⟩,⟨[40,51,54],none,[],[⟨256,.other,false,some ⟨62,[],none,false⟩⟩,⟨256,.ws,false,some ⟨62,[],none,false⟩⟩,⟨256,.lf,false,some ⟨62,[],none,false⟩⟩,⟨256,.vt,false,some ⟨62,[],none,false⟩⟩,⟨256,.ff,false,some ⟨62,[],none,false⟩⟩,⟨256,.cr,false,some ⟨62,[],none,false⟩⟩,⟨256,.cr,true,some ⟨62,[],none,false⟩⟩,⟨47,.other,false,some ⟨62,[],none,false⟩⟩,⟨60,.other,false,some ⟨62,[],none,false⟩⟩,⟨62,.other,false,some ⟨0,[],some 1,true⟩⟩,⟨256,.other,false,some ⟨63,[],none,false⟩⟩,⟨256,.other,false,some ⟨69,[],none,false⟩⟩]⟩,⟨[24,37,58],none,[],[⟨256,.other,false,some ⟨40,[],none,false⟩⟩,⟨256,.ws,false,some ⟨40,[],none,false⟩⟩,⟨256,.lf,false,some ⟨40,[],none,false⟩⟩,⟨256,.vt,false,some ⟨40,[],none,false⟩⟩,⟨256,.ff,false,some ⟨40,[],none,false⟩⟩,⟨256,.cr,false,some ⟨40,[],none,false⟩⟩,⟨256,.cr,true,some ⟨40,[],none,false⟩⟩,⟨47,.other,false,some ⟨40,[],none,false⟩⟩,⟨60,.other,false,some ⟨40,[],none,false⟩⟩,⟨62,.other,false,some ⟨0,[.code],some 2,true⟩⟩,⟨256,.other,false,some ⟨70,[],none,false⟩⟩,⟨256,.other,false,some ⟨41,[],none,false⟩⟩]⟩,⟨[40,51,55],none,[],[⟨256,.other,false,some ⟨62,[],none,false⟩⟩,⟨256,.ws,false,some ⟨62,[],none,false⟩⟩,⟨256,.lf,false,some ⟨62,[],none,false⟩⟩,⟨256,.vt,false,some ⟨62,[],none,false⟩⟩,⟨256,.ff,false,some ⟨62,[],none,false⟩⟩,⟨256,.cr,false,some ⟨62,[],none,false⟩⟩,⟨256,.cr,true,some ⟨62,[],none,false⟩⟩,⟨47,.other,false,some ⟨62,[],none,false⟩⟩,⟨60,.other,false,some ⟨62,[],none,false⟩⟩,⟨62,.other,false,some ⟨0,[],some 1,true⟩⟩,⟨256,.other,false,some ⟨71,[],none,false⟩⟩,⟨256,.other,false,some ⟨63,[],none,false⟩⟩]⟩,⟨[24,38,58],none,[],[⟨256,.other,false,some ⟨40,[],none,false⟩⟩,⟨256,.ws,false,some ⟨40,[],none,false⟩⟩,⟨256,.lf,false,some ⟨40,[],none,false⟩⟩,⟨256,.vt,false,some ⟨40,[],none,false⟩⟩,⟨256,.ff,false,some ⟨40,[],none,false⟩⟩,⟨256,.cr,false,some ⟨40,[],none,false⟩⟩,⟨256,.cr,true,some ⟨40,[],none,false⟩⟩,⟨47,.other,false,some ⟨40,[],none,false⟩⟩,⟨60,.other,false,some ⟨40,[],none,false⟩⟩,⟨62,.other,false,some ⟨0,[.code],some 2,true⟩⟩,⟨256,.other,false,some ⟨72,[],none,false⟩⟩]⟩,⟨[40,51,56],none,[],[⟨256,.other,false,some ⟨62,[],none,false⟩⟩,⟨256,.ws,false,some ⟨62,[],none,false⟩⟩,⟨256,.lf,false,some ⟨62,[],none,false⟩⟩,⟨256,.vt,false,some ⟨62,[],none,false⟩⟩,⟨256,.ff,false,some ⟨62,[],none,false⟩⟩,⟨256,.cr,false,some ⟨62,[],none,false⟩⟩,⟨256,.cr,true,some ⟨62,[],none,false⟩⟩,⟨47,.other,false,some ⟨62,[],none,false⟩⟩,⟨60,.other,false,some ⟨62,[],none,false⟩⟩,⟨62,.other,false,some ⟨0,[],some 1,true⟩⟩,⟨256,.other,false,some ⟨73,[],none,false⟩⟩,⟨256,.other,false,some ⟨63,[],none,false⟩⟩]⟩,⟨[39,58],none,[],[⟨256,.other,false,some ⟨74,[],none,false⟩⟩,⟨256,.ws,false,some ⟨74,[],none,false⟩⟩,⟨256,.lf,false,some ⟨74,[],none,false⟩⟩,⟨256,.vt,false,some ⟨74,[],none,false⟩⟩,⟨256,.ff,false,some ⟨74,[],none,false⟩⟩,⟨256,.cr,false,some ⟨74,[],none,false⟩⟩,⟨256,.cr,true,some ⟨74,[],none,false⟩⟩,⟨47,.other,false,some ⟨74,[],none,false⟩⟩,⟨60,.other,false,some ⟨74,[],none,false⟩⟩,⟨62,.other,false,some ⟨0,[.code],some 2,true⟩⟩]⟩,⟨[40,57],none,[],[⟨256,.other,false,some ⟨74,[],none,false⟩⟩,⟨256,.ws,false,some ⟨74,[],none,false⟩⟩,⟨256,.lf,false,some ⟨74,[],none,false⟩⟩,⟨256,.vt,false,some ⟨74,[],none,false⟩⟩,⟨256,.ff,false,some ⟨74,[],none,false⟩⟩,⟨256,.cr,false,some ⟨74,[],none,false⟩⟩,⟨256,.cr,true,some ⟨74,[],none,false⟩⟩,⟨47,.other,false,some ⟨74,[],none,false⟩⟩,⟨60,.other,false,some ⟨74,[],none,false⟩⟩,⟨62,.other,false,some ⟨0,[],some 1,true⟩⟩]⟩,⟨[40,58],none,[],[⟨256,.other,false,some ⟨74,[],none,false⟩⟩,⟨256,.ws,false,some ⟨74,[],none,false⟩⟩,⟨256,.lf,false,some ⟨74,[],none,false⟩⟩,⟨256,.vt,false,some ⟨74,[],none,false⟩⟩,⟨256,.ff,false,some ⟨74,[],none,false⟩⟩,⟨256,.cr,false,some ⟨74,[],none,false⟩⟩,⟨256,.cr,true,some ⟨74,[],none,false⟩⟩,⟨47,.other,false,some ⟨74,[],none,false⟩⟩,⟨60,.other,false,some ⟨74,[],none,false⟩⟩,⟨62,.other,false,some ⟨0,[],some 1,true⟩⟩]⟩]
theorem emb49_rowsOkt : rowsOk emb49_nfa [47, 60, 62] (emb49_cst.map (·.1)) emb49_rowst = true := by decide +kernel
def emb49_Dt : Dfa emb49_nfa := ⟨emb49_maskst, [47, 60, 62], emb49_cst, emb49_rowst, emb49_masksInt, emb49_repOkt, emb49_rowsOkt⟩

/-- The automaton of `Emb.VbAspx.vb_aspx_cs_entity`. -/
def emb53_nfa : Nfa := ⟨[⟨0,137438953472,[],[],0,0⟩,⟨2,1152921504606846976,[],[],0,0⟩,⟨17,4294983168,[],[(5,.setEnt (.own 0))],0,0⟩,⟨18,549755813888,[],[(6,.setEnt (.own 1))],0,0⟩,⟨19,20769187438975013792580502015705088,[],[(6,.setEnt (.own 1))],0,0⟩,⟨23,115792089237316195423570985008687907853269984665640564039457584007908834656767,[],[],0,0⟩],[[⟨1,4611686018427387904,[],[(3,.code),(4,.emb .ret)],0,0⟩],[],[⟨3,140737488355328,[],[],0,0⟩],[⟨4,41538374877950027585161004031410176,[],[],0,0⟩],[⟨5,633825300261688653338028015616,[],[],0,0⟩],[⟨6,20769187438975013792580502015705088,[],[],0,0⟩],[⟨7,40564819216748073813633792999424,[],[],0,0⟩],[⟨8,5192296859743753448145125503926272,[],[],0,0⟩],[⟨9,83076749755900055170322008062820352,[],[],0,0⟩],[⟨10,4294967808,[],[],0,0⟩,⟨11,8192,[],[],0,0⟩,⟨13,1024,[],[(0,.setEnt .internalNl)],0,0⟩,⟨14,4096,[],[(0,.setEnt .internalNl)],0,0⟩,⟨15,8192,[.crAlone],[(0,.setEnt .internalNl)],0,0⟩,⟨16,4611686018427387904,[],[(2,.emb .outry),(3,.code),(4,.emb .ret)],0,0⟩],[⟨10,4294967808,[],[],0,0⟩,⟨11,8192,[],[],0,0⟩,⟨13,1024,[],[(0,.setEnt .internalNl)],0,0⟩,⟨14,4096,[],[(0,.setEnt .internalNl)],0,0⟩,⟨15,8192,[.crAlone],[(0,.setEnt .internalNl)],0,0⟩,⟨16,4611686018427387904,[],[(2,.emb .outry),(3,.code),(4,.emb .ret)],0,0⟩],[⟨12,1024,[],[(0,.setEnt .internalNl)],0,0⟩],[⟨10,4294967808,[],[(1,.cb)],0,0⟩,⟨11,8192,[],[(1,.cb)],0,0⟩,⟨13,1024,[],[(1,.cb),(0,.setEnt .internalNl)],0,0⟩,⟨14,4096,[],[(1,.cb),(0,.setEnt .internalNl)],0,0⟩,⟨15,8192,[.crAlone],[(1,.cb),(0,.setEnt .internalNl)],0,0⟩,⟨16,4611686018427387904,[],[(1,.cb),(2,.emb .outry),(3,.code),(4,.emb .ret)],0,0⟩],[⟨10,4294967808,[],[(1,.cb)],0,0⟩,⟨11,8192,[],[(1,.cb)],0,0⟩,⟨13,1024,[],[(1,.cb),(0,.setEnt .internalNl)],0,0⟩,⟨14,4096,[],[(1,.cb),(0,.setEnt .internalNl)],0,0⟩,⟨15,8192,[.crAlone],[(1,.cb),(0,.setEnt .internalNl)],0,0⟩,⟨16,4611686018427387904,[],[(1,.cb),(2,.emb .outry),(3,.code),(4,.emb .ret)],0,0⟩],[⟨10,4294967808,[],[(1,.cb)],0,0⟩,⟨11,8192,[],[(1,.cb)],0,0⟩,⟨13,1024,[],[(1,.cb),(0,.setEnt .internalNl)],0,0⟩,⟨14,4096,[],[(1,.cb),(0,.setEnt .internalNl)],0,0⟩,⟨15,8192,[.crAlone],[(1,.cb),(0,.setEnt .internalNl)],0,0⟩,⟨16,4611686018427387904,[],[(1,.cb),(2,.emb .outry),(3,.code),(4,.emb .ret)],0,0⟩],[⟨10,4294967808,[],[(1,.cb)],0,0⟩,⟨11,8192,[],[(1,.cb)],0,0⟩,⟨13,1024,[],[(1,.cb),(0,.setEnt .internalNl)],0,0⟩,⟨14,4096,[],[(1,.cb),(0,.setEnt .internalNl)],0,0⟩,⟨15,8192,[.crAlone],[(1,.cb),(0,.setEnt .internalNl)],0,0⟩,⟨16,4611686018427387904,[],[(1,.cb),(2,.emb .outry),(3,.code),(4,.emb .ret)],0,0⟩],[],[⟨17,4294983168,[],[(5,.setEnt (.own 0))],0,0⟩],[⟨22,115792089237316195423570985008687907853269984665640564039457584007913129626623,[],[(6,.setEnt (.own 1))],0,0⟩],[⟨20,2535301201046754613352112062464,[],[(6,.setEnt (.own 1))],0,0⟩],[⟨21,649037107467969181018140687990784,[],[(6,.setEnt (.own 1))],0,0⟩],[⟨22,115792089237316195423570985008687907853269984665640564039457584007913129626623,[],[(6,.setEnt (.own 1))],0,0⟩],[⟨22,115792089237316195423570985008687907853269984665640564039457584007913129626623,[],[(6,.setEnt (.own 1))],0,0⟩],[]],[none,some (0,[]),none,none,none,none,none,none,none,none,none,none,none,none,none,none,some (0,[]),some (1,[]),some (2,[]),none,none,some (2,[]),some (2,[]),some (3,[])],[5,6,7,7]⟩
def emb53_masks : List Nat := [137438953472,1152921504606846976,4294983168,549755813888,20769187438975013792580502015705088,115792089237316195423570985008687907853269984665640564039457584007908834656767,4611686018427387904,140737488355328,41538374877950027585161004031410176,633825300261688653338028015616,40564819216748073813633792999424,5192296859743753448145125503926272,83076749755900055170322008062820352,4294967808,8192,1024,4096,115792089237316195423570985008687907853269984665640564039457584007913129626623,2535301201046754613352112062464,649037107467969181018140687990784]
def emb53_cs : List (Nat × Nat) := [(0,115792089237316195423570985008687907853269833396260578284576124951856882369023),(9,4294967808),(10,1024),(11,2048),(12,4096),(13,8192),(37,137438953472),(39,549755813888),(47,140737488355328),(60,1152921504606846976),(62,4611686018427387904),(67,633825300261688653338028015616),(69,2535301201046754613352112062464),(73,40564819216748073813633792999424),(77,649037107467969181018140687990784),(80,5192296859743753448145125503926272),(82,20769187438975013792580502015705088),(83,41538374877950027585161004031410176),(84,83076749755900055170322008062820352)]
theorem emb53_masksIn : masksIn emb53_nfa emb53_masks = true := by decide +kernel
theorem emb53_repOk : repOk emb53_masks emb53_cs = true := by decide +kernel
def emb53_rows : List Row := [⟨[],none,[],[⟨256,.other,false,some ⟨0,[],some 3,true⟩⟩,⟨256,.ws,false,some ⟨1,[.setEnt (.own 0)],some 1,false⟩⟩,⟨256,.lf,false,some ⟨1,[.setEnt (.own 0)],some 1,false⟩⟩,⟨256,.vt,false,some ⟨1,[.setEnt (.own 0)],some 1,false⟩⟩,⟨256,.ff,false,some ⟨1,[.setEnt (.own 0)],some 1,false⟩⟩,⟨256,.cr,false,some ⟨1,[.setEnt (.own 0)],some 1,false⟩⟩,⟨256,.cr,true,some ⟨1,[.setEnt (.own 0)],some 1,false⟩⟩,⟨256,.other,false,some ⟨2,[],some 3,false⟩⟩,⟨256,.other,false,some ⟨3,[.setEnt (.own 1)],some 2,false⟩⟩,⟨256,.other,false,some ⟨4,[],some 3,false⟩⟩,⟨256,.other,false,some ⟨5,[.setEnt (.own 1)],some 3,false⟩⟩]⟩,⟨[17],some 1,[],[⟨256,.other,false,none⟩,⟨256,.ws,false,some ⟨1,[.setEnt (.own 0)],some 1,false⟩⟩,⟨256,.lf,false,some ⟨1,[.setEnt (.own 0)],some 1,false⟩⟩,⟨256,.vt,false,some ⟨1,[.setEnt (.own 0)],some 1,false⟩⟩,⟨256,.ff,false,some ⟨1,[.setEnt (.own 0)],some 1,false⟩⟩,⟨256,.cr,false,some ⟨1,[.setEnt (.own 0)],some 1,false⟩⟩,⟨256,.cr,true,some ⟨1,[.setEnt (.own 0)],some 1,false⟩⟩]⟩,⟨[0,23],some 3,[],[⟨256,.other,false,none⟩,⟨256,.ws,false,none⟩,⟨256,.lf,false,none⟩,⟨256,.vt,false,none⟩,⟨256,.ff,false,none⟩,⟨256,.cr,false,none⟩,⟨256,.cr,true,none⟩,⟨256,.other,false,some ⟨0,[.code,.emb .ret],some 0,true⟩⟩]⟩,⟨[18,23],some 2,[],[⟨256,.other,false,some ⟨6,[.setEnt (.own 1)],some 2,false⟩⟩,⟨256,.ws,false,some ⟨6,[.setEnt (.own 1)],some 2,false⟩⟩,⟨256,.lf,false,none⟩,⟨256,.vt,false,some ⟨6,[.setEnt (.own 1)],some 2,false⟩⟩,⟨256,.ff,false,none⟩,⟨256,.cr,false,none⟩,⟨256,.cr,true,none⟩]⟩,⟨[2,23],some 3,[],[⟨256,.other,false,none⟩,⟨256,.ws,false,none⟩,⟨256,.lf,false,none⟩,⟨256,.vt,false,none⟩,⟨256,.ff,false,none⟩,⟨256,.cr,false,none⟩,⟨256,.cr,true,none⟩,⟨256,.other,false,some ⟨7,[],none,false⟩⟩]⟩,⟨[19,23],some 3,[],[⟨256,.other,false,none⟩,⟨256,.ws,false,none⟩,⟨256,.lf,false,none⟩,⟨256,.vt,false,none⟩,⟨256,.ff,false,none⟩,⟨256,.cr,false,none⟩,⟨256,.cr,true,none⟩,⟨256,.other,false,some ⟨8,[.setEnt (.own 1)],none,false⟩⟩]⟩,⟨[22],some 2,[],[⟨256,.other,false,some ⟨6,[.setEnt (.own 1)],some 2,false⟩⟩,⟨256,.ws,false,some ⟨6,[.setEnt (.own 1)],some 2,false⟩⟩,⟨256,.lf,false,none⟩,⟨256,.vt,false,some ⟨6,[.setEnt (.own 1)],some 2,false⟩⟩,⟨256,.ff,false,none⟩,⟨256,.cr,false,none⟩,⟨256,.cr,true,none⟩]⟩,⟨[3],none,[],[⟨256,.other,false,none⟩,⟨256,.ws,false,none⟩,⟨256,.lf,false,none⟩,⟨256,.vt,false,none⟩,⟨256,.ff,false,none⟩,⟨256,.cr,false,none⟩,⟨256,.cr,true,none⟩,⟨256,.other,false,some ⟨9,[],none,false⟩⟩]⟩,⟨[20],none,[],[⟨256,.other,false,none⟩,⟨256,.ws,false,none⟩,⟨256,.lf,false,none⟩,⟨256,.vt,false,none⟩,⟨256,.ff,false,none⟩,⟨256,.cr,false,none⟩,⟨256,.cr,true,none⟩,⟨256,.other,false,some ⟨10,[.setEnt (.own 1)],some 2,false⟩⟩]⟩,⟨[4],none,[],[⟨256,.other,false,none⟩,⟨256,.ws,false,none⟩,⟨256,.lf,false,none⟩,⟨256,.vt,false,none⟩,⟨256,.ff,false,none⟩,⟨256,.cr,false,none⟩,⟨256,.cr,true,none⟩,⟨256,.other,false,some ⟨11,[],none,false⟩⟩]⟩,⟨[21],some 2,[],[⟨256,.other,false,some ⟨6,[.setEnt (.own 1)],some 2,false⟩⟩,⟨256,.ws,false,some ⟨6,[.setEnt (.own 1)],some 2,false⟩⟩,⟨256,.lf,false,none⟩,⟨256,.vt,false,some ⟨6,[.setEnt (.own 1)],some 2,false⟩⟩,⟨256,.ff,false,none⟩,⟨256,.cr,false,none⟩,⟨256,.cr,true,none⟩]⟩,⟨[5],none,[],[⟨256,.other,false,none⟩,⟨256,.ws,false,none⟩,⟨256,.lf,false,none⟩,⟨256,.vt,false,none⟩,⟨256,.ff,false,none⟩,⟨256,.cr,false,none⟩,⟨256,.cr,true,none⟩,⟨256,.other,false,some ⟨12,[],none,false⟩⟩]⟩,⟨[6],none,[],[⟨256,.other,false,none⟩,⟨256,.ws,false,none⟩,⟨256,.lf,false,none⟩,⟨256,.vt,false,none⟩,⟨256,.ff,false,none⟩,⟨256,.cr,false,none⟩,⟨256,.cr,true,none⟩,⟨256,.other,false,some ⟨13,[],none,false⟩⟩]⟩,⟨[7],none,[],[⟨256,.other,false,none⟩,⟨256,.ws,false,none⟩,⟨256,.lf,false,none⟩,⟨256,.vt,false,none⟩,⟨256,.ff,false,none⟩,⟨256,.cr,false,none⟩,⟨256,.cr,true,none⟩,⟨256,.other,false,some ⟨14,[],none,false⟩⟩]⟩,⟨[8],none,[],[⟨256,.other,false,none⟩,⟨256,.ws,false,none⟩,⟨256,.lf,false,none⟩,⟨256,.vt,false,none⟩,⟨256,.ff,false,none⟩,⟨256,.cr,false,none⟩,⟨256,.cr,true,none⟩,⟨256,.other,false,some ⟨15,[],none,false⟩⟩]⟩,⟨[9],none,[],[⟨256,.other,false,none⟩,⟨256,.ws,false,some ⟨16,[],none,false⟩⟩,⟨256,.lf,false,some ⟨17,[.setEnt .internalNl],none,false⟩⟩,⟨256,.vt,false,none⟩,⟨256,.ff,false,some ⟨18,[.setEnt .internalNl],none,false⟩⟩,⟨256,.cr,false,some ⟨19,[],none,false⟩⟩,⟨256,.cr,true,some ⟨20,[.setEnt .internalNl],none,false⟩⟩,⟨256,.other,false,some ⟨0,[.emb .outry,.code,.emb .ret],some 0,true⟩⟩]⟩,⟨[10],none,[],[⟨256,.other,false,none⟩,⟨256,.ws,false,some ⟨16,[],none,false⟩⟩,⟨256,.lf,false,some ⟨17,[.setEnt .internalNl],none,false⟩⟩,⟨256,.vt,false,none⟩,⟨256,.ff,false,some ⟨18,[.setEnt .internalNl],none,false⟩⟩,⟨256,.cr,false,some ⟨19,[],none,false⟩⟩,⟨256,.cr,true,some ⟨20,[.setEnt .internalNl],none,false⟩⟩,⟨256,.other,false,some ⟨0,[.emb .outry,.code,.emb .ret],some 0,true⟩⟩]⟩,⟨[13],none,[],[⟨256,.other,false,none⟩,⟨256,.ws,false,some ⟨16,[.cb],none,false⟩⟩,⟨256,.lf,false,some ⟨17,[.setEnt .internalNl,.cb],none,false⟩⟩,⟨256,.vt,false,none⟩,⟨256,.ff,false,some ⟨18,[.setEnt .internalNl,.cb],none,false⟩⟩,⟨256,.cr,false,some ⟨19,[.cb],none,false⟩⟩,⟨256,.cr,true,some ⟨20,[.setEnt .internalNl,.cb],none,false⟩⟩,⟨256,.other,false,some ⟨0,[.cb,.emb .outry,.code,.emb .ret],some 0,true⟩⟩]⟩,⟨[14],none,[],[⟨256,.other,false,none⟩,⟨256,.ws,false,some ⟨16,[.cb],none,false⟩⟩,⟨256,.lf,false,some ⟨17,[.setEnt .internalNl,.cb],none,false⟩⟩,⟨256,.vt,false,none⟩,⟨256,.ff,false,some ⟨18,[.setEnt .internalNl,.cb],none,false⟩⟩,⟨256,.cr,false,some ⟨19,[.cb],none,false⟩⟩,⟨256,.cr,true,some ⟨20,[.setEnt .internalNl,.cb],none,false⟩⟩,⟨256,.other,false,some ⟨0,[.cb,.emb .outry,.code,.emb .ret],some 0,true⟩⟩]⟩,⟨[11],none,[],[⟨256,.other,false,none⟩,⟨256,.ws,false,none⟩,⟨256,.lf,false,some ⟨21,[.setEnt .internalNl],none,false⟩⟩,⟨256,.vt,false,none⟩,⟨256,.ff,false,none⟩,⟨256,.cr,false,none⟩,⟨256,.cr,true,none⟩]⟩,⟨[11,15],none,[],[⟨256,.other,false,none⟩,⟨256,.ws,false,some ⟨16,[.cb],none,false⟩⟩,⟨256,.lf,false,some ⟨22,[.setEnt .internalNl,.cb],none,false⟩⟩,⟨256,.vt,false,none⟩,⟨256,.ff,false,some ⟨18,[.setEnt .internalNl,.cb],none,false⟩⟩,⟨256,.cr,false,some ⟨19,[.cb],none,false⟩⟩,⟨256,.cr,true,some ⟨20,[.setEnt .internalNl,.cb],none,false⟩⟩,⟨256,.other,false,some ⟨0,[.cb,.emb .outry,.code,.emb .ret],some 0,true⟩⟩]⟩,⟨[12],none,[],[⟨256,.other,false,none⟩,⟨256,.ws,false,some ⟨16,[.cb],none,false⟩⟩,⟨256,.lf,false,some ⟨17,[.setEnt .internalNl,.cb],none,false⟩⟩,⟨256,.vt,false,none⟩,⟨256,.ff,false,some ⟨18,[.setEnt .internalNl,.cb],none,false⟩⟩,⟨256,.cr,false,some ⟨19,[.cb],none,false⟩⟩,⟨256,.cr,true,some ⟨20,[.setEnt .internalNl,.cb],none,false⟩⟩,⟨256,.other,false,some ⟨0,[.cb,.emb .outry,.code,.emb .ret],some 0,true⟩⟩]⟩,⟨[12,13],none,[],[⟨256,.other,false,none⟩,⟨256,.ws,false,some ⟨16,[.cb],none,false⟩⟩,⟨256,.lf,false,some ⟨17,[.setEnt .internalNl,.cb],none,false⟩⟩,⟨256,.vt,false,none⟩,⟨256,.ff,false,some ⟨18,[.setEnt .internalNl,.cb],none,false⟩⟩,⟨256,.cr,false,some ⟨19,[.cb],none,false⟩⟩,⟨256,.cr,true,some ⟨20,[.setEnt .internalNl,.cb],none,false⟩⟩,⟨256,.other,false,some ⟨0,[.cb,.emb .outry,.code,.emb .ret],some 0,true⟩⟩]⟩]
theorem emb53_rowsOk : rowsOk emb53_nfa [] (emb53_cs.map (·.1)) emb53_rows = true := by decide +kernel
def emb53_D : Dfa emb53_nfa := ⟨emb53_masks, [], emb53_cs, emb53_rows, emb53_masksIn, emb53_repOk, emb53_rowsOk⟩
def emb53_maskst : List Nat := [137438953472,1152921504606846976,4294983168,549755813888,20769187438975013792580502015705088,115792089237316195423570985008687907853269984665640564039457584007908834656767,4611686018427387904,140737488355328,41538374877950027585161004031410176,633825300261688653338028015616,40564819216748073813633792999424,5192296859743753448145125503926272,83076749755900055170322008062820352,4294967808,8192,1024,4096,115792089237316195423570985008687907853269984665640564039457584007913129626623,2535301201046754613352112062464,649037107467969181018140687990784]
def emb53_cst : List (Nat × Nat) := [(0,115792089237316195423570985008687907853269833396260578284576124951856882369023),(9,4294967808),(10,1024),(11,2048),(12,4096),(13,8192),(37,137438953472),(39,549755813888),(47,140737488355328),(60,1152921504606846976),(62,4611686018427387904),(67,633825300261688653338028015616),(69,2535301201046754613352112062464),(73,40564819216748073813633792999424),(77,649037107467969181018140687990784),(80,5192296859743753448145125503926272),(82,20769187438975013792580502015705088),(83,41538374877950027585161004031410176),(84,83076749755900055170322008062820352)]
theorem emb53_masksInt : masksIn emb53_nfa emb53_maskst = true := by decide +kernel
theorem emb53_repOkt : repOk emb53_maskst emb53_cst = true := by decide +kernel
def emb53_rowst : List Row := [⟨[],none,[],[⟨256,.other,false,some ⟨0,[],some 3,true⟩⟩,⟨256,.ws,false,some ⟨1,[.setEnt (.own 0)],some 1,false⟩⟩,⟨256,.lf,false,some ⟨1,[.setEnt (.own 0)],some 1,false⟩⟩,⟨256,.vt,false,some ⟨1,[.setEnt (.own 0)],some 1,false⟩⟩,⟨256,.ff,false,some ⟨1,[.setEnt (.own 0)],some 1,false⟩⟩,⟨256,.cr,false,some ⟨1,[.setEnt (.own 0)],some 1,false⟩⟩,⟨256,.cr,true,some ⟨1,[.setEnt (.own 0)],some 1,false⟩⟩,⟨256,.other,false,some ⟨2,[],some 3,false⟩⟩,⟨256,.other,false,some ⟨3,[.setEnt (.own 1)],some 2,false⟩⟩,⟨47,.other,false,some ⟨0,[],some 3,true⟩⟩,⟨60,.other,false,some ⟨4,[],some 3,false⟩⟩,⟨62,.other,false,some ⟨0,[],some 3,true⟩⟩,⟨256,.other,false,some ⟨5,[.setEnt (.own 1)],some 3,false⟩⟩]⟩,⟨[17],some 1,[],[⟨256,.other,false,none⟩,⟨256,.ws,false,some ⟨1,[.setEnt (.own 0)],some 1,false⟩⟩,⟨256,.lf,false,some ⟨1,[.setEnt (.own 0)],some 1,false⟩⟩,⟨256,.vt,false,some ⟨1,[.setEnt (.own 0)],some 1,false⟩⟩,⟨256,.ff,false,some ⟨1,[.setEnt (.own 0)],some 1,false⟩⟩,⟨256,.cr,false,some ⟨1,[.setEnt (.own 0)],some 1,false⟩⟩,⟨256,.cr,true,some ⟨1,[.setEnt (.own 0)],some 1,false⟩⟩,⟨47,.other,false,none⟩,⟨60,.other,false,none⟩,⟨62,.other,false,none⟩]⟩,⟨[0,23],some 3,[],[⟨256,.other,false,none⟩,⟨256,.ws,false,none⟩,⟨256,.lf,false,none⟩,⟨256,.vt,false,none⟩,⟨256,.ff,false,none⟩,⟨256,.cr,false,none⟩,⟨256,.cr,true,none⟩,⟨47,.other,false,none⟩,⟨60,.other,false,none⟩,⟨62,.other,false,some ⟨0,[.code,.emb .ret],some 0,true⟩⟩]⟩,⟨[18,23],some 2,[],[⟨256,.other,false,some ⟨6,[.setEnt (.own 1)],some 2,false⟩⟩,⟨256,.ws,false,some ⟨6,[.setEnt (.own 1)],some 2,false⟩⟩,⟨256,.lf,false,none⟩,⟨256,.vt,false,some ⟨6,[.setEnt (.own 1)],some 2,false⟩⟩,⟨256,.ff,false,none⟩,⟨256,.cr,false,none⟩,⟨256,.cr,true,none⟩,⟨47,.other,false,some ⟨6,[.setEnt (.own 1)],some 2,false⟩⟩,⟨60,.other,false,some ⟨6,[.setEnt (.own 1)],some 2,false⟩⟩,⟨62,.other,false,some ⟨6,[.setEnt (.own 1)],some 2,false⟩⟩]⟩,⟨[2,23],some 3,[],[⟨256,.other,false,none⟩,⟨256,.ws,false,none⟩,⟨256,.lf,false,none⟩,⟨256,.vt,false,none⟩,⟨256,.ff,false,none⟩,⟨256,.cr,false,none⟩,⟨256,.cr,true,none⟩,⟨47,.other,false,some ⟨7,[],none,false⟩⟩,⟨60,.other,false,none⟩,⟨62,.other,false,none⟩]⟩,⟨[19,23],some 3,[],[⟨256,.other,false,none⟩,⟨256,.ws,false,none⟩,⟨256,.lf,false,none⟩,⟨256,.vt,false,none⟩,⟨256,.ff,false,none⟩,⟨256,.cr,false,none⟩,⟨256,.cr,true,none⟩,⟨47,.other,false,none⟩,⟨60,.other,false,none⟩,⟨62,.other,false,none⟩,⟨256,.other,false,some ⟨8,[.setEnt (.own 1)],none,false⟩⟩]⟩,⟨[22],some 2,[],[⟨256,.other,false,some ⟨6,[.setEnt (.own 1)],some 2,false⟩⟩,⟨256,.ws,false,some ⟨6,[.setEnt (.own 1)],some 2,false⟩⟩,⟨256,.lf,false,none⟩,⟨256,.vt,false,some ⟨6,[.setEnt (.own 1)],some 2,false⟩⟩,⟨256,.ff,false,none⟩,⟨256,.cr,false,none⟩,⟨256,.cr,true,none⟩,⟨47,.other,false,some ⟨6,[.setEnt (.own 1)],some 2,false⟩⟩,⟨60,.other,false,some ⟨6,[.setEnt (.own 1)],some 2,false⟩⟩,⟨62,.other,false,some ⟨6,[.setEnt (.own 1)],some 2,false⟩⟩]⟩,⟨[3],none,[],[⟨256,.other,false,none⟩,⟨256,.ws,false,none⟩,⟨256,.lf,false,none⟩,⟨256,.vt,false,none⟩,⟨256,.ff,false,none⟩,⟨256,.cr,false,none⟩,⟨256,.cr,true,none⟩,⟨47,.other,false,none⟩,⟨60,.other,false,none⟩,⟨62,.other,false,none⟩,⟨256,.other,false,some ⟨9,[],none,false⟩⟩]⟩,⟨[20],none,[],[⟨256,.other,false,none⟩,⟨256,.ws,false,none⟩,⟨256,.lf,false,none⟩,⟨256,.vt,false,none⟩,⟨256,.ff,false,none⟩,⟨256,.cr,false,none⟩,⟨256,.cr,true,none⟩,⟨47,.other,false,none⟩,⟨60,.other,false,none⟩,⟨62,.other,false,none⟩,⟨256,.other,false,some ⟨10,[.setEnt (.own 1)],some 2,false⟩⟩]⟩,⟨[4],none,[],[⟨256,.other,false,none⟩,⟨256,.ws,false,none⟩,⟨256,.lf,false,none⟩,⟨256,.vt,false,none⟩,⟨256,.ff,false,none⟩,⟨256,.cr,false,none⟩,⟨256,.cr,true,none⟩,⟨47,.other,false,none⟩,⟨60,.other,false,none⟩,⟨62,.other,false,none⟩,⟨256,.other,false,some ⟨11,[],none,false⟩⟩]⟩,⟨[21],some 2,[],[⟨256,.other,false,some ⟨6,[.setEnt (.own 1)],some 2,false⟩⟩,⟨256,.ws,false,some ⟨6,[.setEnt (.own 1)],some 2,false⟩⟩,⟨256,.lf,false,none⟩,⟨256,.vt,false,some ⟨6,[.setEnt (.own 1)],some 2,false⟩⟩,⟨256,.ff,false,none⟩,⟨256,.cr,false,none⟩,⟨256,.cr,true,none⟩,⟨47,.other,false,some ⟨6,[.setEnt (.own 1)],some 2,false⟩⟩,⟨60,.other,false,some ⟨6,[.setEnt (.own 1)],some 2,false⟩⟩,⟨62,.other,false,some ⟨6,[.setEnt (.own 1)],some 2,false⟩⟩]⟩,⟨[5],none,[],[⟨256,.other,false,none⟩,⟨256,.ws,false,none⟩,⟨256,.lf,false,none⟩,⟨256,.vt,false,none⟩,⟨256,.ff,false,none⟩,⟨256,.cr,false,none⟩,⟨256,.cr,true,none⟩,⟨47,.other,false,none⟩,⟨60,.other,false,none⟩,⟨62,.other,false,none⟩,⟨256,.other,false,some ⟨12,[],none,false⟩⟩]⟩,⟨[6],none,[],[⟨256,.other,false,none⟩,⟨256,.ws,false,none⟩,⟨256,.lf,false,none⟩,⟨256,.vt,false,none⟩,⟨256,.ff,false,none⟩,⟨256,.cr,false,none⟩,⟨256,.cr,true,none⟩,⟨47,.other,false,none⟩,⟨60,.other,false,none⟩,⟨62,.other,false,none⟩,⟨256,.other,false,some ⟨13,[],none,false⟩⟩]⟩,⟨[7],none,[],[⟨256,.other,false,none⟩,⟨256,.ws,false,none⟩,⟨256,.lf,false,none⟩,⟨256,.vt,false,none⟩,⟨256,.ff,false,none⟩,⟨256,.cr,false,none⟩,⟨256,.cr,true,none⟩,⟨47,.other,false,none⟩,⟨60,.other,false,none⟩,⟨62,.other,false,none⟩,⟨256,.other,false,some ⟨14,[],none,false⟩⟩]⟩,⟨[8],none,[],[⟨256,.other,false,none⟩,⟨256,.ws,false,none⟩,⟨256,.lf,false,none⟩,⟨256,.vt,false,none⟩,⟨256,.ff,false,none⟩,⟨256,.cr,false,none⟩,⟨256,.cr,true,none⟩,⟨47,.other,false,none⟩,⟨60,.other,false,none⟩,⟨62,.other,false,none⟩,⟨256,.other,false,some ⟨15,[],none,false⟩⟩]⟩,⟨[9],none,[],[⟨256,.other,false,none⟩,⟨256,.ws,false,some ⟨16,[],none,false⟩⟩,⟨256,.lf,false,some ⟨17,[.setEnt .internalNl],none,false⟩⟩,⟨256,.vt,false,none⟩,⟨256,.ff,false,some ⟨18,[.setEnt .internalNl],none,false⟩⟩,⟨256,.cr,false,some ⟨19,[],none,false⟩⟩,⟨256,.cr,true,some ⟨20,[.setEnt .internalNl],none,false⟩⟩,⟨47,.other,false,none⟩,⟨60,.other,false,none⟩,⟨62,.other,false,some ⟨0,[.emb .outry,.code,.emb .ret],some 0,true⟩⟩]⟩,⟨[10],none,[],[⟨256,.other,false,none⟩,⟨256,.ws,false,some ⟨16,[],none,false⟩⟩,⟨256,.lf,false,some ⟨17,[.setEnt .internalNl],none,false⟩⟩,⟨256,.vt,false,none⟩,⟨256,.ff,false,some ⟨18,[.setEnt .internalNl],none,false⟩⟩,⟨256,.cr,false,some ⟨19,[],none,false⟩⟩,⟨256,.cr,true,some ⟨20,[.setEnt .internalNl],none,false⟩⟩,⟨47,.other,false,none⟩,⟨60,.other,false,none⟩,⟨62,.other,false,some ⟨0,[.emb .outry,.code,.emb .ret],some 0,true⟩⟩]⟩,⟨[13],none,[],[⟨256,.other,false,none⟩,⟨256,.ws,false,some ⟨16,[.cb],none,false⟩⟩,⟨256,.lf,false,some ⟨17,[.setEnt .internalNl,.cb],none,false⟩⟩,⟨256,.vt,false,none⟩,⟨256,.ff,false,some ⟨18,[.setEnt .internalNl,.cb],none,false⟩⟩,⟨256,.cr,false,some ⟨19,[.cb],none,false⟩⟩,⟨256,.cr,true,some ⟨20,[.setEnt .internalNl,.cb],none,false⟩⟩,⟨47,.other,false,none⟩,⟨60,.other,false,none⟩,⟨62,.other,false,some ⟨0,[.cb,.emb .outry,.code,.emb .ret],some 0,true⟩⟩]⟩,⟨[14],none,[],[⟨256,.other,false,none⟩,⟨256,.ws,false,some ⟨16,[.cb],none,false⟩⟩,⟨256,.lf,false,some ⟨17,[.setEnt .internalNl,.cb],none,false⟩⟩,⟨256,.vt,false,none⟩,⟨256,.ff,false,some ⟨18,[.setEnt .internalNl,.cb],none,false⟩⟩,⟨256,.cr,false,some ⟨19,[.cb],none,false⟩⟩,⟨256,.cr,true,some ⟨20,[.setEnt .internalNl,.cb],none,false⟩⟩,⟨47,.other,false,none⟩,⟨60,.other,false,none⟩,⟨62,.other,false,some ⟨0,[.cb,.emb .outry,.code,.emb .ret],some 0,true⟩⟩]⟩,⟨[11],none,[],[⟨256,.other,false,none⟩,⟨256,.ws,false,none⟩,⟨256,.lf,false,some ⟨21,[.setEnt .internalNl],none,false⟩⟩,⟨256,.vt,false,none⟩,⟨256,.ff,false,none⟩,⟨256,.cr,false,none⟩,⟨256,.cr,true,none⟩,⟨47,.other,false,none⟩,⟨60,.other,false,none⟩,⟨62,.other,false,none⟩]⟩,⟨[11,15],none,[],[⟨256,.other,false,none⟩,⟨256,.ws,false,some ⟨16,[.cb],none,false⟩⟩,⟨256,.lf,false,some ⟨22,[.setEnt .internalNl,.cb],none,false⟩⟩,⟨256,.vt,false,none⟩,⟨256,.ff,false,some ⟨18,[.setEnt .internalNl,.cb],none,false⟩⟩,⟨256,.cr,false,some ⟨19,[.cb],none,false⟩⟩,⟨256,.cr,true,some ⟨20,[.setEnt .internalNl,.cb],none,false⟩⟩,⟨47,.other,false,none⟩,⟨60,.other,false,none⟩,⟨62,.other,false,some ⟨0,[.cb,.emb .outry,.code,.emb .ret],some 0,true⟩⟩]⟩,⟨[12],none,[],[⟨256,.other,false,none⟩,⟨256,.ws,false,some ⟨16,[.cb],none,false⟩⟩,⟨256,.lf,false,some ⟨17,[.setEnt .internalNl,.cb],none,false⟩⟩,⟨256,.vt,false,none⟩,⟨256,.ff,false,some ⟨18,[.setEnt .internalNl,.cb],none,false⟩⟩,⟨256,.cr,false,some ⟨19,[.cb],none,false⟩⟩,⟨256,.cr,true,some ⟨20,[.setEnt .internalNl,.cb],none,false⟩⟩,⟨47,.other,false,none⟩,⟨60,.other,false,none⟩,⟨62,.other,false,some ⟨0,[.cb,.emb .outry,.code,.emb .ret],some 0,true⟩⟩]⟩,⟨[12,13],none,[],[⟨256,.other,false,none⟩,⟨256,.ws,false,some ⟨16,[.cb],none,false⟩⟩,⟨256,.lf,false,some ⟨17,[.setEnt .internalNl,.cb],none,false⟩⟩,⟨256,.vt,false,none⟩,⟨256,.ff,false,some ⟨18,[.setEnt .internalNl,.cb],none,false⟩⟩,⟨256,.cr,false,some ⟨19,[.cb],none,false⟩⟩,⟨256,.cr,true,some ⟨20,[.setEnt .internalNl,.cb],none,false⟩⟩,⟨47,.other,false,none⟩,⟨60,.other,false,none⟩,⟨62,.other,false,some ⟨0,[.cb,.emb .outry,.code,.emb .ret],some 0,true⟩⟩]⟩]
theorem emb53_rowsOkt : rowsOk emb53_nfa [47, 60, 62] (emb53_cst.map (·.1)) emb53_rowst = true := by decide +kernel
def emb53_Dt : Dfa emb53_nfa := ⟨emb53_maskst, [47, 60, 62], emb53_cst, emb53_rowst, emb53_masksInt, emb53_repOkt, emb53_rowsOkt⟩

/-- The automaton of `Emb.Perl.perl_line`. -/
def emb54_nfa : Nfa := ⟨[⟨0,4294967808,[],[(0,.setEnt (.own 0))],0,0⟩,⟨1,34359738368,[],[(1,.comment)],0,0⟩,⟨3,2305843009213693952,[.startsLine],[(2,.enqueue),(3,.comment)],0,0⟩,⟨16,549755813888,[],[(11,.enqueue),(12,.code)],0,0⟩,⟨27,17179869184,[],[(19,.enqueue),(20,.code)],0,0⟩,⟨38,79228162514264337593543950336,[],[(27,.enqueue),(28,.code)],0,0⟩,⟨49,140737488355328,[],[],0,0⟩,⟨54,8192,[],[(36,.setEnt .newline)],0,0⟩,⟨56,1024,[],[(36,.setEnt .newline)],0,0⟩,⟨57,4096,[],[(36,.setEnt .newline)],0,0⟩,⟨58,8192,[.crAlone],[(36,.setEnt .newline)],0,0⟩,⟨59,2305843009213693952,[.midLine],[],0,0⟩,⟨60,115792089237316195423570985008687907853269984665640564039455278164899620962815,[],[(37,.setEnt (.own 3))],0,0⟩],[[⟨0,4294967808,[],[(0,.setEnt (.own 0))],0,0⟩],[⟨2,115792089237316195423570985008687907853269984665640564039457584007913129626623,[],[],0,0⟩],[⟨2,115792089237316195423570985008687907853269984665640564039457584007913129626623,[],[],0,0⟩],[⟨4,115792089237316195423570985008687907853269984665640564039457584007913129626623,[],[],0,0⟩],[⟨4,115792089237316195423570985008687907853269984665640564039457584007913129626623,[],[],0,0⟩,⟨5,2305843009213693952,[.startsLine],[],0,0⟩,⟨9,8192,[],[],0,0⟩,⟨11,1024,[],[],0,0⟩,⟨12,4096,[],[],0,0⟩,⟨13,8192,[.crAlone],[],0,0⟩,⟨14,4294967808,[],[],0,0⟩,⟨15,115792089237316195423570985008687907853269984665640564039457584007908834656767,[],[(9,.comment)],0,0⟩],[⟨6,633825300114114700748351602688,[],[],0,0⟩],[⟨7,166153499473114484112975882535043072,[],[],0,0⟩],[⟨8,83076749736557242056487941267521536,[],[(4,.commit),(5,.comment),(6,.emb (.goto 0))],0,0⟩],[⟨5,2305843009213693952,[.startsLine],[],0,0⟩,⟨9,8192,[],[],0,0⟩,⟨11,1024,[],[],0,0⟩,⟨12,4096,[],[],0,0⟩,⟨13,8192,[.crAlone],[],0,0⟩,⟨14,4294967808,[],[],0,0⟩,⟨15,115792089237316195423570985008687907853269984665640564039457584007908834656767,[],[(9,.comment)],0,0⟩],[⟨10,1024,[],[],0,0⟩],[⟨5,2305843009213693952,[.startsLine],[(7,.setEnt .internalNl),(8,.cb)],0,0⟩,⟨9,8192,[],[(7,.setEnt .internalNl),(8,.cb)],0,0⟩,⟨11,1024,[],[(7,.setEnt .internalNl),(8,.cb)],0,0⟩,⟨12,4096,[],[(7,.setEnt .internalNl),(8,.cb)],0,0⟩,⟨13,8192,[.crAlone],[(7,.setEnt .internalNl),(8,.cb)],0,0⟩,⟨14,4294967808,[],[(7,.setEnt .internalNl),(8,.cb)],0,0⟩,⟨15,115792089237316195423570985008687907853269984665640564039457584007908834656767,[],[(7,.setEnt .internalNl),(8,.cb),(9,.comment)],0,0⟩],[⟨5,2305843009213693952,[.startsLine],[(7,.setEnt .internalNl),(8,.cb)],0,0⟩,⟨9,8192,[],[(7,.setEnt .internalNl),(8,.cb)],0,0⟩,⟨11,1024,[],[(7,.setEnt .internalNl),(8,.cb)],0,0⟩,⟨12,4096,[],[(7,.setEnt .internalNl),(8,.cb)],0,0⟩,⟨13,8192,[.crAlone],[(7,.setEnt .internalNl),(8,.cb)],0,0⟩,⟨14,4294967808,[],[(7,.setEnt .internalNl),(8,.cb)],0,0⟩,⟨15,115792089237316195423570985008687907853269984665640564039457584007908834656767,[],[(7,.setEnt .internalNl),(8,.cb),(9,.comment)],0,0⟩],[⟨5,2305843009213693952,[.startsLine],[(7,.setEnt .internalNl),(8,.cb)],0,0⟩,⟨9,8192,[],[(7,.setEnt .internalNl),(8,.cb)],0,0⟩,⟨11,1024,[],[(7,.setEnt .internalNl),(8,.cb)],0,0⟩,⟨12,4096,[],[(7,.setEnt .internalNl),(8,.cb)],0,0⟩,⟨13,8192,[.crAlone],[(7,.setEnt .internalNl),(8,.cb)],0,0⟩,⟨14,4294967808,[],[(7,.setEnt .internalNl),(8,.cb)],0,0⟩,⟨15,115792089237316195423570985008687907853269984665640564039457584007908834656767,[],[(7,.setEnt .internalNl),(8,.cb),(9,.comment)],0,0⟩],[⟨5,2305843009213693952,[.startsLine],[(7,.setEnt .internalNl),(8,.cb)],0,0⟩,⟨9,8192,[],[(7,.setEnt .internalNl),(8,.cb)],0,0⟩,⟨11,1024,[],[(7,.setEnt .internalNl),(8,.cb)],0,0⟩,⟨12,4096,[],[(7,.setEnt .internalNl),(8,.cb)],0,0⟩,⟨13,8192,[.crAlone],[(7,.setEnt .internalNl),(8,.cb)],0,0⟩,⟨14,4294967808,[],[(7,.setEnt .internalNl),(8,.cb)],0,0⟩,⟨15,115792089237316195423570985008687907853269984665640564039457584007908834656767,[],[(7,.setEnt .internalNl),(8,.cb),(9,.comment)],0,0⟩],[⟨5,2305843009213693952,[.startsLine],[],0,0⟩,⟨9,8192,[],[],0,0⟩,⟨11,1024,[],[],0,0⟩,⟨12,4096,[],[],0,0⟩,⟨13,8192,[.crAlone],[],0,0⟩,⟨14,4294967808,[],[],0,0⟩,⟨15,115792089237316195423570985008687907853269984665640564039457584007908834656767,[],[(9,.comment)],0,0⟩],[⟨5,2305843009213693952,[.startsLine],[],0,0⟩,⟨9,8192,[],[],0,0⟩,⟨11,1024,[],[],0,0⟩,⟨12,4096,[],[],0,0⟩,⟨13,8192,[.crAlone],[],0,0⟩,⟨14,4294967808,[],[],0,0⟩,⟨15,115792089237316195423570985008687907853269984665640564039457584007908834656767,[],[(9,.comment)],0,0⟩],[⟨17,8192,[],[],0,0⟩,⟨19,1024,[],[],0,0⟩,⟨20,4096,[],[],0,0⟩,⟨21,8192,[.crAlone],[],0,0⟩,⟨22,4294967808,[],[],0,0⟩,⟨23,115792089237316195423570985008687907853269984665635612279300442486259482348031,[],[(15,.code)],0,0⟩,⟨24,4951760157141521099596496896,[],[],0,0⟩,⟨26,549755813888,[],[(17,.commit),(18,.code)],0,0⟩],[⟨18,1024,[],[],0,0⟩],[⟨17,8192,[],[(13,.setEnt .internalNl),(14,.cb)],0,0⟩,⟨19,1024,[],[(13,.setEnt .internalNl),(14,.cb)],0,0⟩,⟨20,4096,[],[(13,.setEnt .internalNl),(14,.cb)],0,0⟩,⟨21,8192,[.crAlone],[(13,.setEnt .internalNl),(14,.cb)],0,0⟩,⟨22,4294967808,[],[(13,.setEnt .internalNl),(14,.cb)],0,0⟩,⟨23,115792089237316195423570985008687907853269984665635612279300442486259482348031,[],[(13,.setEnt .internalNl),(14,.cb),(15,.code)],0,0⟩,⟨24,4951760157141521099596496896,[],[(13,.setEnt .internalNl),(14,.cb)],0,0⟩,⟨26,549755813888,[],[(13,.setEnt .internalNl),(14,.cb),(17,.commit),(18,.code)],0,0⟩],[⟨17,8192,[],[(13,.setEnt .internalNl),(14,.cb)],0,0⟩,⟨19,1024,[],[(13,.setEnt .internalNl),(14,.cb)],0,0⟩,⟨20,4096,[],[(13,.setEnt .internalNl),(14,.cb)],0,0⟩,⟨21,8192,[.crAlone],[(13,.setEnt .internalNl),(14,.cb)],0,0⟩,⟨22,4294967808,[],[(13,.setEnt .internalNl),(14,.cb)],0,0⟩,⟨23,115792089237316195423570985008687907853269984665635612279300442486259482348031,[],[(13,.setEnt .internalNl),(14,.cb),(15,.code)],0,0⟩,⟨24,4951760157141521099596496896,[],[(13,.setEnt .internalNl),(14,.cb)],0,0⟩,⟨26,549755813888,[],[(13,.setEnt .internalNl),(14,.cb),(17,.commit),(18,.code)],0,0⟩],[⟨17,8192,[],[(13,.setEnt .internalNl),(14,.cb)],0,0⟩,⟨19,1024,[],[(13,.setEnt .internalNl),(14,.cb)],0,0⟩,⟨20,4096,[],[(13,.setEnt .internalNl),(14,.cb)],0,0⟩,⟨21,8192,[.crAlone],[(13,.setEnt .internalNl),(14,.cb)],0,0⟩,⟨22,4294967808,[],[(13,.setEnt .internalNl),(14,.cb)],0,0⟩,⟨23,115792089237316195423570985008687907853269984665635612279300442486259482348031,[],[(13,.setEnt .internalNl),(14,.cb),(15,.code)],0,0⟩,⟨24,4951760157141521099596496896,[],[(13,.setEnt .internalNl),(14,.cb)],0,0⟩,⟨26,549755813888,[],[(13,.setEnt .internalNl),(14,.cb),(17,.commit),(18,.code)],0,0⟩],[⟨17,8192,[],[(13,.setEnt .internalNl),(14,.cb)],0,0⟩,⟨19,1024,[],[(13,.setEnt .internalNl),(14,.cb)],0,0⟩,⟨20,4096,[],[(13,.setEnt .internalNl),(14,.cb)],0,0⟩,⟨21,8192,[.crAlone],[(13,.setEnt .internalNl),(14,.cb)],0,0⟩,⟨22,4294967808,[],[(13,.setEnt .internalNl),(14,.cb)],0,0⟩,⟨23,115792089237316195423570985008687907853269984665635612279300442486259482348031,[],[(13,.setEnt .internalNl),(14,.cb),(15,.code)],0,0⟩,⟨24,4951760157141521099596496896,[],[(13,.setEnt .internalNl),(14,.cb)],0,0⟩,⟨26,549755813888,[],[(13,.setEnt .internalNl),(14,.cb),(17,.commit),(18,.code)],0,0⟩],[⟨17,8192,[],[],0,0⟩,⟨19,1024,[],[],0,0⟩,⟨20,4096,[],[],0,0⟩,⟨21,8192,[.crAlone],[],0,0⟩,⟨22,4294967808,[],[],0,0⟩,⟨23,115792089237316195423570985008687907853269984665635612279300442486259482348031,[],[(15,.code)],0,0⟩,⟨24,4951760157141521099596496896,[],[],0,0⟩,⟨26,549755813888,[],[(17,.commit),(18,.code)],0,0⟩],[⟨17,8192,[],[],0,0⟩,⟨19,1024,[],[],0,0⟩,⟨20,4096,[],[],0,0⟩,⟨21,8192,[.crAlone],[],0,0⟩,⟨22,4294967808,[],[],0,0⟩,⟨23,115792089237316195423570985008687907853269984665635612279300442486259482348031,[],[(15,.code)],0,0⟩,⟨24,4951760157141521099596496896,[],[],0,0⟩,⟨26,549755813888,[],[(17,.commit),(18,.code)],0,0⟩],[⟨25,115792089237316195423570985008687907853269984665640564039457584007913129626623,[],[(16,.code)],0,0⟩],[⟨17,8192,[],[],0,0⟩,⟨19,1024,[],[],0,0⟩,⟨20,4096,[],[],0,0⟩,⟨21,8192,[.crAlone],[],0,0⟩,⟨22,4294967808,[],[],0,0⟩,⟨23,115792089237316195423570985008687907853269984665635612279300442486259482348031,[],[(15,.code)],0,0⟩,⟨24,4951760157141521099596496896,[],[],0,0⟩,⟨26,549755813888,[],[(17,.commit),(18,.code)],0,0⟩],[],[⟨28,8192,[],[],0,0⟩,⟨30,1024,[],[],0,0⟩,⟨31,4096,[],[],0,0⟩,⟨32,8192,[.crAlone],[],0,0⟩,⟨33,4294967808,[],[],0,0⟩,⟨34,115792089237316195423570985008687907853269984665635612279300442486792058292735,[],[(23,.code)],0,0⟩,⟨35,4951760157141521099596496896,[],[],0,0⟩,⟨37,17179869184,[],[(25,.commit),(26,.code)],0,0⟩],[⟨29,1024,[],[],0,0⟩],[⟨28,8192,[],[(21,.setEnt .internalNl),(22,.cb)],0,0⟩,⟨30,1024,[],[(21,.setEnt .internalNl),(22,.cb)],0,0⟩,⟨31,4096,[],[(21,.setEnt .internalNl),(22,.cb)],0,0⟩,⟨32,8192,[.crAlone],[(21,.setEnt .internalNl),(22,.cb)],0,0⟩,⟨33,4294967808,[],[(21,.setEnt .internalNl),(22,.cb)],0,0⟩,⟨34,115792089237316195423570985008687907853269984665635612279300442486792058292735,[],[(21,.setEnt .internalNl),(22,.cb),(23,.code)],0,0⟩,⟨35,4951760157141521099596496896,[],[(21,.setEnt .internalNl),(22,.cb)],0,0⟩,⟨37,17179869184,[],[(21,.setEnt .internalNl),(22,.cb),(25,.commit),(26,.code)],0,0⟩],[⟨28,8192,[],[(21,.setEnt .internalNl),(22,.cb)],0,0⟩,⟨30,1024,[],[(21,.setEnt .internalNl),(22,.cb)],0,0⟩,⟨31,4096,[],[(21,.setEnt .internalNl),(22,.cb)],0,0⟩,⟨32,8192,[.crAlone],[(21,.setEnt .internalNl),(22,.cb)],0,0⟩,⟨33,4294967808,[],[(21,.setEnt .internalNl),(22,.cb)],0,0⟩,⟨34,115792089237316195423570985008687907853269984665635612279300442486792058292735,[],[(21,.setEnt .internalNl),(22,.cb),(23,.code)],0,0⟩,⟨35,4951760157141521099596496896,[],[(21,.setEnt .internalNl),(22,.cb)],0,0⟩,⟨37,17179869184,[],[(21,.setEnt .internalNl),(22,.cb),(25,.commit),(26,.code)],0,0⟩],[⟨28,8192,[],[(21,.setEnt .internalNl),(22,.cb)],0,0⟩,⟨30,1024,[],[(21,.setEnt .internalNl),(22,.cb)],0,0⟩,⟨31,4096,[],[(21,.setEnt .internalNl),(22,.cb)],0,0⟩,⟨32,8192,[.crAlone],[(21,.setEnt .internalNl),(22,.cb)],0,0⟩,⟨33,4294967808,[],[(21,.setEnt .internalNl),(22,.cb)],0,0⟩,⟨34,115792089237316195423570985008687907853269984665635612279300442486792058292735,[],[(21,.setEnt .internalNl),(22,.cb),(23,.code)],0,0⟩,⟨35,4951760157141521099596496896,[],[(21,.setEnt .internalNl),(22,.cb)],0,0⟩,⟨37,17179869184,[],[(21,.setEnt .internalNl),(22,.cb),(25,.commit),(26,.code)],0,0⟩],[⟨28,8192,[],[(21,.setEnt .internalNl),(22,.cb)],0,0⟩,⟨30,1024,[],[(21,.setEnt .internalNl),(22,.cb)],0,0⟩,⟨31,4096,[],[(21,.setEnt .internalNl),(22,.cb)],0,0⟩,⟨32,8192,[.crAlone],[(21,.setEnt .internalNl),(22,.cb)],0,0⟩,⟨33,4294967808,[],[(21,.setEnt .internalNl),(22,.cb)],0,0⟩,⟨34,115792089237316195423570985008687907853269984665635612279300442486792058292735,[],[(21,.setEnt .internalNl),(22,.cb),(23,.code)],0,0⟩,⟨35,4951760157141521099596496896,[],[(21,.setEnt .internalNl),(22,.cb)],0,0⟩,⟨37,17179869184,[],[(21,.setEnt .internalNl),(22,.cb),(25,.commit),(26,.code)],0,0⟩],[⟨28,8192,[],[],0,0⟩,⟨30,1024,[],[],0,0⟩,⟨31,4096,[],[],0,0⟩,⟨32,8192,[.crAlone],[],0,0⟩,⟨33,4294967808,[],[],0,0⟩,⟨34,115792089237316195423570985008687907853269984665635612279300442486792058292735,[],[(23,.code)],0,0⟩,⟨35,4951760157141521099596496896,[],[],0,0⟩,⟨37,17179869184,[],[(25,.commit),(26,.code)],0,0⟩],[⟨28,8192,[],[],0,0⟩,⟨30,1024,[],[],0,0⟩,⟨31,4096,[],[],0,0⟩,⟨32,8192,[.crAlone],[],0,0⟩,⟨33,4294967808,[],[],0,0⟩,⟨34,115792089237316195423570985008687907853269984665635612279300442486792058292735,[],[(23,.code)],0,0⟩,⟨35,4951760157141521099596496896,[],[],0,0⟩,⟨37,17179869184,[],[(25,.commit),(26,.code)],0,0⟩],[⟨36,115792089237316195423570985008687907853269984665640564039457584007913129626623,[],[(24,.code)],0,0⟩],[⟨28,8192,[],[],0,0⟩,⟨30,1024,[],[],0,0⟩,⟨31,4096,[],[],0,0⟩,⟨32,8192,[.crAlone],[],0,0⟩,⟨33,4294967808,[],[],0,0⟩,⟨34,115792089237316195423570985008687907853269984665635612279300442486792058292735,[],[(23,.code)],0,0⟩,⟨35,4951760157141521099596496896,[],[],0,0⟩,⟨37,17179869184,[],[(25,.commit),(26,.code)],0,0⟩],[],[⟨39,8192,[],[],0,0⟩,⟨41,1024,[],[],0,0⟩,⟨42,4096,[],[],0,0⟩,⟨43,8192,[.crAlone],[],0,0⟩,⟨44,4294967808,[],[],0,0⟩,⟨45,115792089237316195423570985008687907853269984665556384116786178149215694211583,[],[(31,.code)],0,0⟩,⟨46,4951760157141521099596496896,[],[],0,0⟩,⟨48,79228162514264337593543950336,[],[(33,.commit),(34,.code)],0,0⟩],[⟨40,1024,[],[],0,0⟩],[⟨39,8192,[],[(29,.setEnt .internalNl),(30,.cb)],0,0⟩,⟨41,1024,[],[(29,.setEnt .internalNl),(30,.cb)],0,0⟩,⟨42,4096,[],[(29,.setEnt .internalNl),(30,.cb)],0,0⟩,⟨43,8192,[.crAlone],[(29,.setEnt .internalNl),(30,.cb)],0,0⟩,⟨44,4294967808,[],[(29,.setEnt .internalNl),(30,.cb)],0,0⟩,⟨45,115792089237316195423570985008687907853269984665556384116786178149215694211583,[],[(29,.setEnt .internalNl),(30,.cb),(31,.code)],0,0⟩,⟨46,4951760157141521099596496896,[],[(29,.setEnt .internalNl),(30,.cb)],0,0⟩,⟨48,79228162514264337593543950336,[],[(29,.setEnt .internalNl),(30,.cb),(33,.commit),(34,.code)],0,0⟩],[⟨39,8192,[],[(29,.setEnt .internalNl),(30,.cb)],0,0⟩,⟨41,1024,[],[(29,.setEnt .internalNl),(30,.cb)],0,0⟩,⟨42,4096,[],[(29,.setEnt .internalNl),(30,.cb)],0,0⟩,⟨43,8192,[.crAlone],[(29,.setEnt .internalNl),(30,.cb)],0,0⟩,⟨44,4294967808,[],[(29,.setEnt .internalNl),(30,.cb)],0,0⟩,⟨45,115792089237316195423570985008687907853269984665556384116786178149215694211583,[],[(29,.setEnt .internalNl),(30,.cb),(31,.code)],0,0⟩,⟨46,4951760157141521099596496896,[],[(29,.setEnt .internalNl),(30,.cb)],0,0⟩,⟨48,79228162514264337593543950336,[],[(29,.setEnt .internalNl),(30,.cb),(33,.commit),(34,.code)],0,0⟩],[⟨39,8192,[],[(29,.setEnt .internalNl),(30,.cb)],0,0⟩,⟨41,1024,[],[(29,.setEnt .internalNl),(30,.cb)],0,0⟩,⟨42,4096,[],[(29,.setEnt .internalNl),(30,.cb)],0,0⟩,⟨43,8192,[.crAlone],[(29,.setEnt .internalNl),(30,.cb)],0,0⟩,⟨44,4294967808,[],[(29,.setEnt .internalNl),(30,.cb)],0,0⟩,⟨45,115792089237316195423570985008687907853269984665556384116786178149215694211583,[],[(29,.setEnt .internalNl),(30,.cb),(31,.code)],0,0⟩,⟨46,4951760157141521099596496896,[],[(29,.setEnt .internalNl),(30,.cb)],0,0⟩,⟨48,79228162514264337593543950336,[],[(29,.setEnt .internalNl),(30,.cb),(33,.commit),(34,.code)],0,0⟩],[⟨39,8192,[],[(29,.setEnt .internalNl),(30,.cb)],0,0⟩,⟨41,1024,[],[(29,.setEnt .internalNl),(30,.cb)],0,0⟩,⟨42,4096,[],[(29,.setEnt .internalNl),(30,.cb)],0,0⟩,⟨43,8192,[.crAlone],[(29,.setEnt .internalNl),(30,.cb)],0,0⟩,⟨44,4294967808,[],[(29,.setEnt .internalNl),(30,.cb)],0,0⟩,⟨45,115792089237316195423570985008687907853269984665556384116786178149215694211583,[],[(29,.setEnt .internalNl),(30,.cb),(31,.code)],0,0⟩,⟨46,4951760157141521099596496896,[],[(29,.setEnt .internalNl),(30,.cb)],0,0⟩,⟨48,79228162514264337593543950336,[],[(29,.setEnt .internalNl),(30,.cb),(33,.commit),(34,.code)],0,0⟩],[⟨39,8192,[],[],0,0⟩,⟨41,1024,[],[],0,0⟩,⟨42,4096,[],[],0,0⟩,⟨43,8192,[.crAlone],[],0,0⟩,⟨44,4294967808,[],[],0,0⟩,⟨45,115792089237316195423570985008687907853269984665556384116786178149215694211583,[],[(31,.code)],0,0⟩,⟨46,4951760157141521099596496896,[],[],0,0⟩,⟨48,79228162514264337593543950336,[],[(33,.commit),(34,.code)],0,0⟩],[⟨39,8192,[],[],0,0⟩,⟨41,1024,[],[],0,0⟩,⟨42,4096,[],[],0,0⟩,⟨43,8192,[.crAlone],[],0,0⟩,⟨44,4294967808,[],[],0,0⟩,⟨45,115792089237316195423570985008687907853269984665556384116786178149215694211583,[],[(31,.code)],0,0⟩,⟨46,4951760157141521099596496896,[],[],0,0⟩,⟨48,79228162514264337593543950336,[],[(33,.commit),(34,.code)],0,0⟩],[⟨47,115792089237316195423570985008687907853269984665640564039457584007913129626623,[],[(32,.code)],0,0⟩],[⟨39,8192,[],[],0,0⟩,⟨41,1024,[],[],0,0⟩,⟨42,4096,[],[],0,0⟩,⟨43,8192,[.crAlone],[],0,0⟩,⟨44,4294967808,[],[],0,0⟩,⟨45,115792089237316195423570985008687907853269984665556384116786178149215694211583,[],[(31,.code)],0,0⟩,⟨46,4951760157141521099596496896,[],[],0,0⟩,⟨48,79228162514264337593543950336,[],[(33,.commit),(34,.code)],0,0⟩],[],[⟨50,115792089237316195423570985008687907853269984665635612279300442346076044774399,[],[],0,0⟩,⟨51,4951760157141521099596496896,[],[],0,0⟩,⟨53,140737488355328,[],[(35,.code)],0,0⟩],[⟨50,115792089237316195423570985008687907853269984665635612279300442346076044774399,[],[],0,0⟩,⟨51,4951760157141521099596496896,[],[],0,0⟩,⟨53,140737488355328,[],[(35,.code)],0,0⟩],[⟨52,115792089237316195423570985008687907853269984665640564039457584007913129626623,[],[],0,0⟩],[⟨50,115792089237316195423570985008687907853269984665635612279300442346076044774399,[],[],0,0⟩,⟨51,4951760157141521099596496896,[],[],0,0⟩,⟨53,140737488355328,[],[(35,.code)],0,0⟩],[],[⟨55,1024,[],[(36,.setEnt .newline)],0,0⟩],[],[],[],[],[],[]],[some (0,[]),some (1,[]),some (1,[]),none,some (1,[(10,.emb .eofCommit)]),none,none,none,some (1,[(10,.emb .eofCommit)]),none,some (1,[(7,.setEnt .internalNl),(8,.cb),(10,.emb .eofCommit)]),some (1,[(7,.setEnt .internalNl),(8,.cb),(10,.emb .eofCommit)]),some (1,[(7,.setEnt .internalNl),(8,.cb),(10,.emb .eofCommit)]),some (1,[(7,.setEnt .internalNl),(8,.cb),(10,.emb .eofCommit)]),some (1,[(10,.emb .eofCommit)]),some (1,[(10,.emb .eofCommit)]),none,none,none,none,none,none,none,none,none,none,some (2,[]),none,none,none,none,none,none,none,none,none,none,some (2,[]),none,none,none,none,none,none,none,none,none,none,some (2,[]),none,none,none,none,some (2,[]),none,some (3,[]),some (3,[]),some (3,[]),some (3,[]),some (4,[]),some (5,[])],[1,11,36,37,37,38]⟩
def emb54_masks : List Nat := [4294967808,34359738368,2305843009213693952,549755813888,17179869184,79228162514264337593543950336,140737488355328,8192,1024,4096,115792089237316195423570985008687907853269984665640564039455278164899620962815,115792089237316195423570985008687907853269984665640564039457584007913129626623,115792089237316195423570985008687907853269984665640564039457584007908834656767,633825300114114700748351602688,166153499473114484112975882535043072,83076749736557242056487941267521536,115792089237316195423570985008687907853269984665635612279300442486259482348031,4951760157141521099596496896,115792089237316195423570985008687907853269984665635612279300442486792058292735,115792089237316195423570985008687907853269984665556384116786178149215694211583,115792089237316195423570985008687907853269984665635612279300442346076044774399]
def emb54_cs : List (Nat × Nat) := [(0,115792089237316195423570985008687907853269735434673349144943588000295542571519),(9,4294967808),(10,1024),(11,2048),(12,4096),(13,8192),(34,17179869184),(35,34359738368),(39,549755813888),(47,140737488355328),(61,2305843009213693952),(92,4951760157141521099596496896),(96,79228162514264337593543950336),(99,633825300114114700748351602688),(116,83076749736557242056487941267521536),(117,166153499473114484112975882535043072)]
theorem emb54_masksIn : masksIn emb54_nfa emb54_masks = true := by decide +kernel
theorem emb54_repOk : repOk emb54_masks emb54_cs = true := by decide +kernel
def emb54_rows : List Row := [⟨[],none,[],[⟨256,.other,false,some ⟨0,[.setEnt (.own 3)],some 5,true⟩⟩,⟨256,.ws,false,some ⟨1,[.setEnt (.own 0)],some 0,false⟩⟩,⟨256,.lf,false,some ⟨0,[.setEnt .newline],some 3,true⟩⟩,⟨256,.vt,false,none⟩,⟨256,.ff,false,some ⟨0,[.setEnt .newline],some 3,true⟩⟩,⟨256,.cr,false,some ⟨2,[.setEnt .newline],none,false⟩⟩,⟨256,.cr,true,some ⟨3,[.setEnt .newline],some 3,false⟩⟩,⟨256,.other,false,some ⟨4,[.enqueue,.code,.setEnt (.own 3)],some 5,false⟩⟩,⟨256,.other,false,some ⟨5,[.comment,.setEnt (.own 3)],some 1,false⟩⟩,⟨256,.other,false,some ⟨6,[.enqueue,.code,.setEnt (.own 3)],some 5,false⟩⟩,⟨256,.other,false,some ⟨7,[.setEnt (.own 3)],some 5,false⟩⟩,⟨256,.other,false,none⟩,⟨256,.other,false,some ⟨0,[],some 4,true⟩⟩,⟨256,.other,false,some ⟨8,[.enqueue,.comment],none,false⟩⟩,⟨256,.other,false,some ⟨9,[.enqueue,.comment],some 4,false⟩⟩,⟨256,.other,false,some ⟨10,[.enqueue,.code,.setEnt (.own 3)],some 5,false⟩⟩]⟩,⟨[0],some 0,[],[⟨256,.other,false,none⟩,⟨256,.ws,false,some ⟨1,[.setEnt (.own 0)],some 0,false⟩⟩,⟨256,.lf,false,none⟩,⟨256,.vt,false,none⟩,⟨256,.ff,false,none⟩,⟨256,.cr,false,none⟩,⟨256,.cr,true,none⟩]⟩,⟨[54],none,[],[⟨256,.other,false,none⟩,⟨256,.ws,false,none⟩,⟨256,.lf,false,some ⟨0,[.setEnt .newline],some 3,true⟩⟩,⟨256,.vt,false,none⟩,⟨256,.ff,false,none⟩,⟨256,.cr,false,none⟩,⟨256,.cr,true,none⟩]⟩,⟨[54,58],some 3,[],[⟨256,.other,false,none⟩,⟨256,.ws,false,none⟩,⟨256,.lf,false,some ⟨0,[.setEnt .newline],some 3,true⟩⟩,⟨256,.vt,false,none⟩,⟨256,.ff,false,none⟩,⟨256,.cr,false,none⟩,⟨256,.cr,true,none⟩]⟩,⟨[27,60],some 5,[],[⟨256,.other,false,some ⟨11,[.code],none,false⟩⟩,⟨256,.ws,false,some ⟨12,[],none,false⟩⟩,⟨256,.lf,false,some ⟨13,[],none,false⟩⟩,⟨256,.vt,false,some ⟨11,[.code],none,false⟩⟩,⟨256,.ff,false,some ⟨14,[],none,false⟩⟩,⟨256,.cr,false,some ⟨15,[],none,false⟩⟩,⟨256,.cr,true,some ⟨16,[],none,false⟩⟩,⟨256,.other,false,some ⟨0,[.commit,.code],some 2,true⟩⟩,⟨256,.other,false,some ⟨17,[],none,false⟩⟩]⟩,⟨[1,60],some 1,[],[⟨256,.other,false,some ⟨18,[],some 1,false⟩⟩,⟨256,.ws,false,some ⟨18,[],some 1,false⟩⟩,⟨256,.lf,false,none⟩,⟨256,.vt,false,some ⟨18,[],some 1,false⟩⟩,⟨256,.ff,false,none⟩,⟨256,.cr,false,none⟩,⟨256,.cr,true,none⟩]⟩,⟨[16,60],some 5,[],[⟨256,.other,false,some ⟨19,[.code],none,false⟩⟩,⟨256,.ws,false,some ⟨20,[],none,false⟩⟩,⟨256,.lf,false,some ⟨21,[],none,false⟩⟩,⟨256,.vt,false,some ⟨19,[.code],none,false⟩⟩,⟨256,.ff,false,some ⟨22,[],none,false⟩⟩,⟨256,.cr,false,some ⟨23,[],none,false⟩⟩,⟨256,.cr,true,some ⟨24,[],none,false⟩⟩,⟨256,.other,false,some ⟨0,[.commit,.code],some 2,true⟩⟩,⟨256,.other,false,some ⟨25,[],none,false⟩⟩]⟩,⟨[49,60],some 5,[],[⟨256,.other,false,some ⟨26,[],none,false⟩⟩,⟨256,.ws,false,some ⟨26,[],none,false⟩⟩,⟨256,.lf,false,none⟩,⟨256,.vt,false,some ⟨26,[],none,false⟩⟩,⟨256,.ff,false,none⟩,⟨256,.cr,false,none⟩,⟨256,.cr,true,none⟩,⟨256,.other,false,some ⟨0,[.code],some 2,true⟩⟩,⟨256,.other,false,some ⟨27,[],none,false⟩⟩]⟩,⟨[3],none,[],[⟨256,.other,false,some ⟨28,[],some 1,false⟩⟩,⟨256,.ws,false,some ⟨28,[],some 1,false⟩⟩,⟨256,.lf,false,none⟩,⟨256,.vt,false,some ⟨28,[],some 1,false⟩⟩,⟨256,.ff,false,none⟩,⟨256,.cr,false,none⟩,⟨256,.cr,true,none⟩]⟩,⟨[3,59],some 4,[],[⟨256,.other,false,some ⟨28,[],some 1,false⟩⟩,⟨256,.ws,false,some ⟨28,[],some 1,false⟩⟩,⟨256,.lf,false,none⟩,⟨256,.vt,false,some ⟨28,[],some 1,false⟩⟩,⟨256,.ff,false,none⟩,⟨256,.cr,false,none⟩,⟨256,.cr,true,none⟩]⟩,⟨[38,60],some 5,[],[⟨256,.other,false,some ⟨29,[.code],none,false⟩⟩,⟨256,.ws,false,some ⟨30,[],none,false⟩⟩,⟨256,.lf,false,some ⟨31,[],none,false⟩⟩,⟨256,.vt,false,some ⟨29,[.code],none,false⟩⟩,⟨256,.ff,false,some ⟨32,[],none,false⟩⟩,⟨256,.cr,false,some ⟨33,[],none,false⟩⟩,⟨256,.cr,true,some ⟨34,[],none,false⟩⟩,⟨256,.other,false,some ⟨35,[],none,false⟩⟩,⟨256,.other,false,some ⟨0,[.commit,.code],some 2,true⟩⟩]⟩,⟨[34],none,[],[⟨256,.other,false,some ⟨11,[.code],none,false⟩⟩,⟨256,.ws,false,some ⟨12,[],none,false⟩⟩,⟨256,.lf,false,some ⟨13,[],none,false⟩⟩,⟨256,.vt,false,some ⟨11,[.code],none,false⟩⟩,⟨256,.ff,false,some ⟨14,[],none,false⟩⟩,⟨256,.cr,false,some ⟨15,[],none,false⟩⟩,⟨256,.cr,true,some ⟨16,[],none,false⟩⟩,⟨256,.other,false,some ⟨0,[.commit,.code],some 2,true⟩⟩,⟨256,.other,false,some ⟨17,[],none,false⟩⟩]⟩,⟨[33],none,[],[⟨256,.other,false,some ⟨11,[.code],none,false⟩⟩,⟨256,.ws,false,some ⟨12,[],none,false⟩⟩,⟨256,.lf,false,some ⟨13,[],none,false⟩⟩,⟨256,.vt,false,some ⟨11,[.code],none,false⟩⟩,⟨256,.ff,false,some ⟨14,[],none,false⟩⟩,⟨256,.cr,false,some ⟨15,[],none,false⟩⟩,⟨256,.cr,true,some ⟨16,[],none,false⟩⟩,⟨256,.other,false,some ⟨0,[.commit,.code],some 2,true⟩⟩,⟨256,.other,false,some ⟨17,[],none,false⟩⟩]⟩,⟨[30],none,[],[⟨256,.other,false,some ⟨11,[.setEnt .internalNl,.cb,.code],none,false⟩⟩,⟨256,.ws,false,some ⟨12,[.setEnt .internalNl,.cb],none,false⟩⟩,⟨256,.lf,false,some ⟨13,[.setEnt .internalNl,.cb],none,false⟩⟩,⟨256,.vt,false,some ⟨11,[.setEnt .internalNl,.cb,.code],none,false⟩⟩,⟨256,.ff,false,some ⟨14,[.setEnt .internalNl,.cb],none,false⟩⟩,⟨256,.cr,false,some ⟨15,[.setEnt .internalNl,.cb],none,false⟩⟩,⟨256,.cr,true,some ⟨16,[.setEnt .internalNl,.cb],none,false⟩⟩,⟨256,.other,false,some ⟨0,[.setEnt .internalNl,.cb,.commit,.code],some 2,true⟩⟩,⟨256,.other,false,some ⟨17,[.setEnt .internalNl,.cb],none,false⟩⟩]⟩,⟨[31],none,[],[⟨256,.other,false,some ⟨11,[.setEnt .internalNl,.cb,.code],none,false⟩⟩,⟨256,.ws,false,some ⟨12,[.setEnt .internalNl,.cb],none,false⟩⟩,⟨256,.lf,false,some ⟨13,[.setEnt .internalNl,.cb],none,false⟩⟩,⟨256,.vt,false,some ⟨11,[.setEnt .internalNl,.cb,.code],none,false⟩⟩,⟨256,.ff,false,some ⟨14,[.setEnt .internalNl,.cb],none,false⟩⟩,⟨256,.cr,false,some ⟨15,[.setEnt .internalNl,.cb],none,false⟩⟩,⟨256,.cr,true,some ⟨16,[.setEnt .internalNl,.cb],none,false⟩⟩,⟨256,.other,false,some ⟨0,[.setEnt .internalNl,.cb,.commit,.code],some 2,true⟩⟩,⟨256,.other,false,some ⟨17,[.setEnt .internalNl,.cb],none,false⟩⟩]⟩,⟨[28],none,[],[⟨256,.other,false,none⟩,⟨256,.ws,false,none⟩,⟨256,.lf,false,some ⟨36,[],none,false⟩⟩,⟨256,.vt,false,none⟩,⟨256,.ff,false,none⟩,⟨256,.cr,false,none⟩,⟨256,.cr,true,none⟩]⟩,⟨[28,32],none,[],[⟨256,.other,false,some ⟨11,[.setEnt .internalNl,.cb,.code],none,false⟩⟩,⟨256,.ws,false,some ⟨12,[.setEnt .internalNl,.cb],none,false⟩⟩,⟨256,.lf,false,some ⟨37,[.setEnt .internalNl,.cb],none,false⟩⟩,⟨256,.vt,false,some ⟨11,[.setEnt .internalNl,.cb,.code],none,false⟩⟩,⟨256,.ff,false,some ⟨14,[.setEnt .internalNl,.cb],none,false⟩⟩,⟨256,.cr,false,some ⟨15,[.setEnt .internalNl,.cb],none,false⟩⟩,⟨256,.cr,true,some ⟨16,[.setEnt .internalNl,.cb],none,false⟩⟩,⟨256,.other,false,some ⟨0,[.setEnt .internalNl,.cb,.commit,.code],some 2,true⟩⟩,⟨256,.other,false,some ⟨17,[.setEnt .internalNl,.cb],none,false⟩⟩]⟩,⟨[35],none,[],[⟨256,.other,false,some ⟨38,[.code],none,false⟩⟩,⟨256,.ws,false,some ⟨38,[.code],none,false⟩⟩,⟨256,.lf,false,none⟩,⟨256,.vt,false,some ⟨38,[.code],none,false⟩⟩,⟨256,.ff,false,none⟩,⟨256,.cr,false,none⟩,⟨256,.cr,true,none⟩]⟩,⟨[2],some 1,[],[⟨256,.other,false,some ⟨18,[],some 1,false⟩⟩,⟨256,.ws,false,some ⟨18,[],some 1,false⟩⟩,⟨256,.lf,false,none⟩,⟨256,.vt,false,some ⟨18,[],some 1,false⟩⟩,⟨256,.ff,false,none⟩,⟨256,.cr,false,none⟩,⟨256,.cr,true,none⟩]⟩,⟨[23],none,[],[⟨256,.other,false,some ⟨19,[.code],none,false⟩⟩,⟨256,.ws,false,some ⟨20,[],none,false⟩⟩,⟨256,.lf,false,some ⟨21,[],none,false⟩⟩,⟨256,.vt,false,some ⟨19,[.code],none,false⟩⟩,⟨256,.ff,false,some ⟨22,[],none,false⟩⟩,⟨256,.cr,false,some ⟨23,[],none,false⟩⟩,⟨256,.cr,true,some ⟨24,[],none,false⟩⟩,⟨256,.other,false,some ⟨0,[.commit,.code],some 2,true⟩⟩,⟨256,.other,false,some ⟨25,[],none,false⟩⟩]⟩,⟨[22],none,[],[⟨256,.other,false,some ⟨19,[.code],none,false⟩⟩,⟨256,.ws,false,some ⟨20,[],none,false⟩⟩,⟨256,.lf,false,some ⟨21,[],none,false⟩⟩,⟨256,.vt,false,some ⟨19,[.code],none,false⟩⟩,⟨256,.ff,false,some ⟨22,[],none,false⟩⟩,⟨256,.cr,false,some ⟨23,[],none,false⟩⟩,⟨256,.cr,true,some ⟨24,[],none,false⟩⟩,⟨256,.other,false,some ⟨0,[.commit,.code],some 2,true⟩⟩,⟨256,.other,false,some ⟨25,[],none,false⟩⟩]⟩,⟨[19],none,[],[⟨256,.other,false,some ⟨19,[.setEnt .internalNl,.cb,.code],none,false⟩⟩,⟨256,.ws,false,some ⟨20,[.setEnt .internalNl,.cb],none,false⟩⟩,⟨256,.lf,false,some ⟨21,[.setEnt .internalNl,.cb],none,false⟩⟩,⟨256,.vt,false,some ⟨19,[.setEnt .internalNl,.cb,.code],none,false⟩⟩,⟨256,.ff,false,some ⟨22,[.setEnt .internalNl,.cb],none,false⟩⟩,⟨256,.cr,false,some ⟨23,[.setEnt .internalNl,.cb],none,false⟩⟩,⟨256,.cr,true,some ⟨24,[.setEnt .internalNl,.cb],none,false⟩⟩,⟨256,.other,false,some ⟨0,[.setEnt .internalNl,.cb,.commit,.code],some 2,true⟩⟩,⟨256,.other,false,some ⟨25,[.setEnt .internalNl,.cb],none,false⟩⟩]⟩,⟨[20],none,[],[⟨256,.other,false,some ⟨19,[.setEnt .internalNl,.cb,.code],none,false⟩⟩,⟨256,.ws,false,some ⟨20,[.setEnt .internalNl,.cb],none,false⟩⟩,⟨256,.lf,false,some ⟨21,[.setEnt .internalNl,.cb],none,false⟩⟩,⟨256,.vt,false,some ⟨19,[.setEnt .internalNl,.cb,.code],none,false⟩⟩,⟨256,.ff,false,some ⟨22,[.setEnt .internalNl,.cb],none,false⟩⟩,⟨256,.cr,false,some ⟨23,[.setEnt .internalNl,.cb],none,false⟩⟩,⟨256,.cr,true,some ⟨24,[.setEnt .internalNl,.cb],none,false⟩⟩,⟨256,.other,false,some ⟨0,[.setEnt .internalNl,.cb,.commit,.code],some 2,true⟩⟩,⟨256,.other,false,some ⟨25,[.setEnt .internalNl,.cb],none,false⟩⟩]⟩,⟨[17],none,[],[⟨256,.other,false,none⟩,⟨256,.ws,false,none⟩,⟨256,.lf,false,some ⟨39,[],none,false⟩⟩,⟨256,.vt,false,none⟩,⟨256,.ff,false,none⟩,⟨256,.cr,false,none⟩,⟨256,.cr,true,none⟩]⟩,⟨[17,21],none,[],[⟨256,.other,false,some ⟨19,[.setEnt .internalNl,.cb,.code],none,false⟩⟩,⟨256,.ws,false,some ⟨20,[.setEnt .internalNl,.cb],none,false⟩⟩,⟨256,.lf,false,some ⟨40,[.setEnt .internalNl,.cb],none,false⟩⟩,⟨256,.vt,false,some ⟨19,[.setEnt .internalNl,.cb,.code],none,false⟩⟩,⟨256,.ff,false,some ⟨22,[.setEnt .internalNl,.cb],none,false⟩⟩,⟨256,.cr,false,some ⟨23,[.setEnt .internalNl,.cb],none,false⟩⟩,⟨256,.cr,true,some ⟨24,[.setEnt .internalNl,.cb],none,false⟩⟩,⟨256,.other,false,some ⟨0,[.setEnt .internalNl,.cb,.commit,.code],some 2,true⟩⟩,⟨256,.other,false,some ⟨25,[.setEnt .internalNl,.cb],none,false⟩⟩]⟩,⟨[24],none,[],[⟨256,.other,false,some ⟨41,[.code],none,false⟩⟩,⟨256,.ws,false,some ⟨41,[.code],none,false⟩⟩,⟨256,.lf,false,none⟩,⟨256,.vt,false,some ⟨41,[.code],none,false⟩⟩,⟨256,.ff,false,none⟩,⟨256,.cr,false,none⟩,⟨256,.cr,true,none⟩]⟩,⟨[50],none,[],[⟨256,.other,false,some ⟨26,[],none,false⟩⟩,⟨256,.ws,false,some ⟨26,[],none,false⟩⟩,⟨256,.lf,false,none⟩,⟨256,.vt,false,some ⟨26,[],none,false⟩⟩,⟨256,.ff,false,none⟩,⟨256,.cr,false,none⟩,⟨256,.cr,true,none⟩,⟨256,.other,false,some ⟨0,[.code],some 2,true⟩⟩,⟨256,.other,false,some ⟨27,[],none,false⟩⟩]⟩,⟨[51],none,[],[⟨256,.other,false,some ⟨42,[],none,false⟩⟩,⟨256,.ws,false,some ⟨42,[],none,false⟩⟩,⟨256,.lf,false,none⟩,⟨256,.vt,false,some ⟨42,[],none,false⟩⟩,⟨256,.ff,false,none⟩,⟨256,.cr,false,none⟩,⟨256,.cr,true,none⟩]⟩,⟨[4],some 1,[.emb .eofCommit],[⟨256,.other,false,some ⟨43,[.comment],some 1,false⟩⟩,⟨256,.ws,false,some ⟨44,[],some 1,false⟩⟩,⟨256,.lf,false,some ⟨45,[],some 1,false⟩⟩,⟨256,.vt,false,some ⟨28,[],some 1,false⟩⟩,⟨256,.ff,false,some ⟨46,[],some 1,false⟩⟩,⟨256,.cr,false,some ⟨47,[],none,false⟩⟩,⟨256,.cr,true,some ⟨48,[],some 1,false⟩⟩,⟨256,.other,false,some ⟨49,[.comment],some 1,false⟩⟩]⟩,⟨[45],none,[],[⟨256,.other,false,some ⟨29,[.code],none,false⟩⟩,⟨256,.ws,false,some ⟨30,[],none,false⟩⟩,⟨256,.lf,false,some ⟨31,[],none,false⟩⟩,⟨256,.vt,false,some ⟨29,[.code],none,false⟩⟩,⟨256,.ff,false,some ⟨32,[],none,false⟩⟩,⟨256,.cr,false,some ⟨33,[],none,false⟩⟩,⟨256,.cr,true,some ⟨34,[],none,false⟩⟩,⟨256,.other,false,some ⟨35,[],none,false⟩⟩,⟨256,.other,false,some ⟨0,[.commit,.code],some 2,true⟩⟩]⟩,⟨[44],none,[],[⟨256,.other,false,some ⟨29,[.code],none,false⟩⟩,⟨256,.ws,false,some ⟨30,[],none,false⟩⟩,⟨256,.lf,false,some ⟨31,[],none,false⟩⟩,⟨256,.vt,false,some ⟨29,[.code],none,false⟩⟩,⟨256,.ff,false,some ⟨32,[],none,false⟩⟩,⟨256,.cr,false,some ⟨33,[],none,false⟩⟩,⟨256,.cr,true,some ⟨34,[],none,false⟩⟩,⟨256,.other,false,some ⟨35,[],none,false⟩⟩,⟨256,.other,false,some ⟨0,[.commit,.code],some 2,true⟩⟩]⟩,⟨[41],none,[],[⟨256,.other,false,some ⟨29,[.setEnt .internalNl,.cb,.code],none,false⟩⟩,⟨256,.ws,false,some ⟨30,[.setEnt .internalNl,.cb],none,false⟩⟩,⟨256,.lf,false,some ⟨31,[.setEnt .internalNl,.cb],none,false⟩⟩,⟨256,.vt,false,some ⟨29,[.setEnt .internalNl,.cb,.code],none,false⟩⟩,⟨256,.ff,false,some ⟨32,[.setEnt .internalNl,.cb],none,false⟩⟩,⟨256,.cr,false,some ⟨33,[.setEnt .internalNl,.cb],none,false⟩⟩,⟨256,.cr,true,some ⟨34,[.setEnt .internalNl,.cb],none,false⟩⟩,⟨256,.other,false,some ⟨35,[.setEnt .internalNl,.cb],none,false⟩⟩,⟨256,.other,false,some ⟨0,[.setEnt .internalNl,.cb,.commit,.code],some 2,true⟩⟩]⟩,⟨[42],none,[],[⟨256,.other,false,some ⟨29,[.setEnt .internalNl,.cb,.code],none,false⟩⟩,⟨256,.ws,false,some ⟨30,[.setEnt .internalNl,.cb],none,false⟩⟩,⟨256,.lf,false,some ⟨31,[.setEnt .internalNl,.cb],none,false⟩⟩,⟨256,.vt,false,some ⟨29,[.setEnt .internalNl,.cb,.code],none,false⟩⟩,⟨256,.ff,false,some ⟨32,[.setEnt .internalNl,.cb],none,false⟩⟩,⟨256,.cr,false,some ⟨33,[.setEnt .internalNl,.cb],none,false⟩⟩,⟨256,.cr,true,some ⟨34,[.setEnt .internalNl,.cb],none,false⟩⟩,⟨256,.other,false,some ⟨35,[.setEnt .internalNl,.cb],none,false⟩⟩,⟨256,.other,false,some ⟨0,[.setEnt .internalNl,.cb,.commit,.code],some 2,true⟩⟩]⟩,⟨[39],none,[],[⟨256,.other,false,none⟩,⟨256,.ws,false,none⟩,⟨256,.lf,false,some ⟨50,[],none,false⟩⟩,⟨256,.vt,false,none⟩,⟨256,.ff,false,none⟩,⟨256,.cr,false,none⟩,⟨256,.cr,true,none⟩]⟩,⟨[39,43],none,[],[⟨256,.other,false,some ⟨29,[.setEnt .internalNl,.cb,.code],none,false⟩⟩,⟨256,.ws,false,some ⟨30,[.setEnt .internalNl,.cb],none,false⟩⟩,⟨256,.lf,false,some ⟨51,[.setEnt .internalNl,.cb],none,false⟩⟩,⟨256,.vt,false,some ⟨29,[.setEnt .internalNl,.cb,.code],none,false⟩⟩,⟨256,.ff,false,some ⟨32,[.setEnt .internalNl,.cb],none,false⟩⟩,⟨256,.cr,false,some ⟨33,[.setEnt .internalNl,.cb],none,false⟩⟩,⟨256,.cr,true,some ⟨34,[.setEnt .internalNl,.cb],none,false⟩⟩,⟨256,.other,false,some ⟨35,[.setEnt .internalNl,.cb],none,false⟩⟩,⟨256,.other,false,some ⟨0,[.setEnt .internalNl,.cb,.commit,.code],some 2,true⟩⟩]⟩,⟨[46],none,[],[⟨256,.other,false,some ⟨52,[.code],none,false⟩⟩,⟨256,.ws,false,some ⟨52,[.code],none,false⟩⟩,⟨256,.lf,false,none⟩,⟨256,.vt,false,some ⟨52,[.code],none,false⟩⟩,⟨256,.ff,false,none⟩,⟨256,.cr,false,none⟩,⟨256,.cr,true,none⟩]⟩,⟨[29],none,[],[⟨256,.other,false,some ⟨11,[.setEnt .internalNl,.cb,.code],none,false⟩⟩,⟨256,.ws,false,some ⟨12,[.setEnt .internalNl,.cb],none,false⟩⟩,⟨256,.lf,false,some ⟨13,[.setEnt .internalNl,.cb],none,false⟩⟩,⟨256,.vt,false,some ⟨11,[.setEnt .internalNl,.cb,.code],none,false⟩⟩,⟨256,.ff,false,some ⟨14,[.setEnt .internalNl,.cb],none,false⟩⟩,⟨256,.cr,false,some ⟨15,[.setEnt .internalNl,.cb],none,false⟩⟩,⟨256,.cr,true,some ⟨16,[.setEnt .internalNl,.cb],none,false⟩⟩,⟨256,.other,false,some ⟨0,[.setEnt .internalNl,.cb,.commit,.code],some 2,true⟩⟩,⟨256,.other,false,some ⟨17,[.setEnt .internalNl,.cb],none,false⟩⟩]⟩,⟨[29,30],none,[],[⟨256,.other,false,some ⟨11,[.setEnt .internalNl,.cb,.code],none,false⟩⟩,⟨256,.ws,false,some ⟨12,[.setEnt .internalNl,.cb],none,false⟩⟩,⟨256,.lf,false,some ⟨13,[.setEnt .internalNl,.cb],none,false⟩⟩,⟨256,.vt,false,some ⟨11,[.setEnt .internalNl,.cb,.code],none,false⟩⟩,⟨256,.ff,false,some ⟨14,[.setEnt .internalNl,.cb],none,false⟩⟩,⟨256,.cr,false,some ⟨15,[.setEnt .internalNl,.cb],none,false⟩⟩,⟨256,.cr,true,some ⟨16,[.setEnt .internalNl,.cb],none,false⟩⟩,⟨256,.other,false,some ⟨0,[.setEnt .internalNl,.cb,.commit,.code],some 2,true⟩⟩,⟨256,.other,false,some ⟨17,[.setEnt .internalNl,.cb],none,false⟩⟩]⟩,⟨[36],none,[],[⟨256,.other,false,some ⟨11,[.code],none,false⟩⟩,⟨256,.ws,false,some ⟨12,[],none,false⟩⟩,⟨256,.lf,false,some ⟨13,[],none,false⟩⟩,⟨256,.vt,false,some ⟨11,[.code],none,false⟩⟩,⟨256,.ff,false,some ⟨14,[],none,false⟩⟩,⟨256,.cr,false,some ⟨15,[],none,false⟩⟩,⟨256,.cr,true,some ⟨16,[],none,false⟩⟩,⟨256,.other,false,some ⟨0,[.commit,.code],some 2,true⟩⟩,⟨256,.other,false,some ⟨17,[],none,false⟩⟩]⟩,⟨[18],none,[],[⟨256,.other,false,some ⟨19,[.setEnt .internalNl,.cb,.code],none,false⟩⟩,⟨256,.ws,false,some ⟨20,[.setEnt .internalNl,.cb],none,false⟩⟩,⟨256,.lf,false,some ⟨21,[.setEnt .internalNl,.cb],none,false⟩⟩,⟨256,.vt,false,some ⟨19,[.setEnt .internalNl,.cb,.code],none,false⟩⟩,⟨256,.ff,false,some ⟨22,[.setEnt .internalNl,.cb],none,false⟩⟩,⟨256,.cr,false,some ⟨23,[.setEnt .internalNl,.cb],none,false⟩⟩,⟨256,.cr,true,some ⟨24,[.setEnt .internalNl,.cb],none,false⟩⟩,⟨256,.other,false,some ⟨0,[.setEnt .internalNl,.cb,.commit,.code],some 2,true⟩⟩,⟨256,.other,false,some ⟨25,[.setEnt .internalNl,.cb],none,false⟩⟩]⟩,⟨[18,19],none,[],[⟨256,.other,false,some ⟨19,[.setEnt .internalNl,.cb,.code],none,false⟩⟩,⟨256,.ws,false,some ⟨20,[.setEnt .internalNl,.cb],none,false⟩⟩,⟨256,.lf,false,some ⟨21,[.setEnt .internalNl,.cb],none,false⟩⟩,⟨256,.vt,false,some ⟨19,[.setEnt .internalNl,.cb,.code],none,false⟩⟩,⟨256,.ff,false,some ⟨22,[.setEnt .internalNl,.cb],none,false⟩⟩,⟨256,.cr,false,some ⟨23,[.setEnt .internalNl,.cb],none,false⟩⟩,⟨256,.cr,true,some ⟨24,[.setEnt .internalNl,.cb],none,false⟩⟩,⟨256,.other,false,some ⟨0,[.setEnt .internalNl,.cb,.commit,.code],some 2,true⟩⟩,⟨256,.other,false,some ⟨25,[.setEnt .internalNl,.cb],none,false⟩⟩]⟩,⟨[25],none,[],[⟨256,.other,false,some ⟨19,[.code],none,false⟩⟩,⟨256,.ws,false,some ⟨20,[],none,false⟩⟩,⟨256,.lf,false,some ⟨21,[],none,false⟩⟩,⟨256,.vt,false,some ⟨19,[.code],none,false⟩⟩,⟨256,.ff,false,some ⟨22,[],none,false⟩⟩,⟨256,.cr,false,some ⟨23,[],none,false⟩⟩,⟨256,.cr,true,some ⟨24,[],none,false⟩⟩,⟨256,.other,false,some ⟨0,[.commit,.code],some 2,true⟩⟩,⟨256,.other,false,some ⟨25,[],none,false⟩⟩]⟩,⟨[52],none,[],[⟨256,.other,false,some ⟨26,[],none,false⟩⟩,⟨256,.ws,false,some ⟨26,[],none,false⟩⟩,⟨256,.lf,false,none⟩,⟨256,.vt,false,some ⟨26,[],none,false⟩⟩,⟨256,.ff,false,none⟩,⟨256,.cr,false,none⟩,⟨256,.cr,true,none⟩,⟨256,.other,false,some ⟨0,[.code],some 2,true⟩⟩,⟨256,.other,false,some ⟨27,[],none,false⟩⟩]⟩,⟨[4,15],some 1,[.emb .eofCommit],[⟨256,.other,false,some ⟨43,[.comment],some 1,false⟩⟩,⟨256,.ws,false,some ⟨44,[],some 1,false⟩⟩,⟨256,.lf,false,some ⟨45,[],some 1,false⟩⟩,⟨256,.vt,false,some ⟨28,[],some 1,false⟩⟩,⟨256,.ff,false,some ⟨46,[],some 1,false⟩⟩,⟨256,.cr,false,some ⟨47,[],none,false⟩⟩,⟨256,.cr,true,some ⟨48,[],some 1,false⟩⟩,⟨256,.other,false,some ⟨49,[.comment],some 1,false⟩⟩]⟩,⟨[4,14],some 1,[.emb .eofCommit],[⟨256,.other,false,some ⟨43,[.comment],some 1,false⟩⟩,⟨256,.ws,false,some ⟨44,[],some 1,false⟩⟩,⟨256,.lf,false,some ⟨45,[],some 1,false⟩⟩,⟨256,.vt,false,some ⟨28,[],some 1,false⟩⟩,⟨256,.ff,false,some ⟨46,[],some 1,false⟩⟩,⟨256,.cr,false,some ⟨47,[],none,false⟩⟩,⟨256,.cr,true,some ⟨48,[],some 1,false⟩⟩,⟨256,.other,false,some ⟨49,[.comment],some 1,false⟩⟩]⟩,⟨[11],some 1,[.setEnt .internalNl,.cb,.emb .eofCommit],[⟨256,.other,false,some ⟨53,[.setEnt .internalNl,.cb,.comment],some 1,false⟩⟩,⟨256,.ws,false,some ⟨54,[.setEnt .internalNl,.cb],some 1,false⟩⟩,⟨256,.lf,false,some ⟨45,[.setEnt .internalNl,.cb],some 1,false⟩⟩,⟨256,.vt,false,none⟩,⟨256,.ff,false,some ⟨46,[.setEnt .internalNl,.cb],some 1,false⟩⟩,⟨256,.cr,false,some ⟨47,[.setEnt .internalNl,.cb],none,false⟩⟩,⟨256,.cr,true,some ⟨48,[.setEnt .internalNl,.cb],some 1,false⟩⟩,⟨256,.other,false,some ⟨55,[.setEnt .internalNl,.cb,.comment],some 1,false⟩⟩]⟩,⟨[12],some 1,[.setEnt .internalNl,.cb,.emb .eofCommit],[⟨256,.other,false,some ⟨53,[.setEnt .internalNl,.cb,.comment],some 1,false⟩⟩,⟨256,.ws,false,some ⟨54,[.setEnt .internalNl,.cb],some 1,false⟩⟩,⟨256,.lf,false,some ⟨45,[.setEnt .internalNl,.cb],some 1,false⟩⟩,⟨256,.vt,false,none⟩,⟨256,.ff,false,some ⟨46,[.setEnt .internalNl,.cb],some 1,false⟩⟩,⟨256,.cr,false,some ⟨47,[.setEnt .internalNl,.cb],none,false⟩⟩,⟨256,.cr,true,some ⟨48,[.setEnt .internalNl,.cb],some 1,false⟩⟩,⟨256,.other,false,some ⟨55,[.setEnt .internalNl,.cb,.comment],some 1,false⟩⟩]⟩,⟨[9],none,[],[⟨256,.other,false,none⟩,⟨256,.ws,false,none⟩,⟨256,.lf,false,some ⟨56,[],some 1,false⟩⟩,⟨256,.vt,false,none⟩,⟨256,.ff,false,none⟩,⟨256,.cr,false,none⟩,⟨256,.cr,true,none⟩]⟩,⟨[9,13],some 1,[.setEnt .internalNl,.cb,.emb .eofCommit],[⟨256,.other,false,some ⟨53,[.setEnt .internalNl,.cb,.comment],some 1,false⟩⟩,⟨256,.ws,false,some ⟨54,[.setEnt .internalNl,.cb],some 1,false⟩⟩,⟨256,.lf,false,some ⟨57,[.setEnt .internalNl,.cb],some 1,false⟩⟩,⟨256,.vt,false,none⟩,⟨256,.ff,false,some ⟨46,[.setEnt .internalNl,.cb],some 1,false⟩⟩,⟨256,.cr,false,some ⟨47,[.setEnt .internalNl,.cb],none,false⟩⟩,⟨256,.cr,true,some ⟨48,[.setEnt .internalNl,.cb],some 1,false⟩⟩,⟨256,.other,false,some ⟨55,[.setEnt .internalNl,.cb,.comment],some 1,false⟩⟩]⟩,⟨[4,5,15],some 1,[.emb .eofCommit],[⟨256,.other,false,some ⟨43,[.comment],some 1,false⟩⟩,⟨256,.ws,false,some ⟨44,[],some 1,false⟩⟩,⟨256,.lf,false,some ⟨45,[],some 1,false⟩⟩,⟨256,.vt,false,some ⟨28,[],some 1,false⟩⟩,⟨256,.ff,false,some ⟨46,[],some 1,false⟩⟩,⟨256,.cr,false,some ⟨47,[],none,false⟩⟩,⟨256,.cr,true,some ⟨48,[],some 1,false⟩⟩,⟨256,.other,false,some ⟨49,[.comment],some 1,false⟩⟩,⟨256,.other,false,some ⟨58,[.comment],some 1,false⟩⟩]⟩,⟨[40],none,[],[⟨256,.other,false,some ⟨29,[.setEnt .internalNl,.cb,.code],none,false⟩⟩,⟨256,.ws,false,some ⟨30,[.setEnt .internalNl,.cb],none,false⟩⟩,⟨256,.lf,false,some ⟨31,[.setEnt .internalNl,.cb],none,false⟩⟩,⟨256,.vt,false,some ⟨29,[.setEnt .internalNl,.cb,.code],none,false⟩⟩,⟨256,.ff,false,some ⟨32,[.setEnt .internalNl,.cb],none,false⟩⟩,⟨256,.cr,false,some ⟨33,[.setEnt .internalNl,.cb],none,false⟩⟩,⟨256,.cr,true,some ⟨34,[.setEnt .internalNl,.cb],none,false⟩⟩,⟨256,.other,false,some ⟨35,[.setEnt .internalNl,.cb],none,false⟩⟩,⟨256,.other,false,some ⟨0,[.setEnt .internalNl,.cb,.commit,.code],some 2,true⟩⟩]⟩,⟨[40,41],none,[],[⟨256,.other,false,some ⟨29,[.setEnt .internalNl,.cb,.code],none,false⟩⟩,⟨256,.ws,false,some ⟨30,[.setEnt .internalNl,.cb],none,false⟩⟩,⟨256,.lf,false,some ⟨31,[.setEnt .internalNl,.cb],none,false⟩⟩,⟨256,.vt,false,some ⟨29,[.setEnt .internalNl,.cb,.code],none,false⟩⟩,⟨256,.ff,false,some ⟨32,[.setEnt .internalNl,.cb],none,false⟩⟩,⟨256,.cr,false,some ⟨33,[.setEnt .internalNl,.cb],none,false⟩⟩,⟨256,.cr,true,some ⟨34,[.setEnt .internalNl,.cb],none,false⟩⟩,⟨256,.other,false,some ⟨35,[.setEnt .internalNl,.cb],none,false⟩⟩,⟨256,.other,false,some ⟨0,[.setEnt .internalNl,.cb,.commit,.code],some 2,true⟩⟩]⟩,⟨[47],none,[],[⟨256,.other,false,some ⟨29,[.code],none,false⟩⟩,⟨256,.ws,false,some ⟨30,[],none,false⟩⟩,⟨256,.lf,false,some ⟨31,[],none,false⟩⟩,⟨256,.vt,false,some ⟨29,[.code],none,false⟩⟩,⟨256,.ff,false,some ⟨32,[],none,false⟩⟩,⟨256,.cr,false,some ⟨33,[],none,false⟩⟩,⟨256,.cr,true,some ⟨34,[],none,false⟩⟩,⟨256,.other,false,some ⟨35,[],none,false⟩⟩,⟨256,.other,false,some ⟨0,[.commit,.code],some 2,true⟩⟩]⟩,⟨[15],some 1,[.emb .eofCommit],[⟨256,.other,false,some ⟨53,[.comment],some 1,false⟩⟩,⟨256,.ws,false,some ⟨54,[],some 1,false⟩⟩,⟨256,.lf,false,some ⟨45,[],some 1,false⟩⟩,⟨256,.vt,false,none⟩,⟨256,.ff,false,some ⟨46,[],some 1,false⟩⟩,⟨256,.cr,false,some ⟨47,[],none,false⟩⟩,⟨256,.cr,true,some ⟨48,[],some 1,false⟩⟩,⟨256,.other,false,some ⟨55,[.comment],some 1,false⟩⟩]⟩,⟨[14],some 1,[.emb .eofCommit],[⟨256,.other,false,some ⟨53,[.comment],some 1,false⟩⟩,⟨256,.ws,false,some ⟨54,[],some 1,false⟩⟩,⟨256,.lf,false,some ⟨45,[],some 1,false⟩⟩,⟨256,.vt,false,none⟩,⟨256,.ff,false,some ⟨46,[],some 1,false⟩⟩,⟨256,.cr,false,some ⟨47,[],none,false⟩⟩,⟨256,.cr,true,some ⟨48,[],some 1,false⟩⟩,⟨256,.other,false,some ⟨55,[.comment],some 1,false⟩⟩]⟩,⟨[5,15],some 1,[.emb .eofCommit],[⟨256,.other,false,some ⟨53,[.comment],some 1,false⟩⟩,⟨256,.ws,false,some ⟨54,[],some 1,false⟩⟩,⟨256,.lf,false,some ⟨45,[],some 1,false⟩⟩,⟨256,.vt,false,none⟩,⟨256,.ff,false,some ⟨46,[],some 1,false⟩⟩,⟨256,.cr,false,some ⟨47,[],none,false⟩⟩,⟨256,.cr,true,some ⟨48,[],some 1,false⟩⟩,⟨256,.other,false,some ⟨55,[.comment],some 1,false⟩⟩,⟨256,.other,false,some ⟨59,[.comment],some 1,false⟩⟩]⟩,⟨[10],some 1,[.setEnt .internalNl,.cb,.emb .eofCommit],[⟨256,.other,false,some ⟨53,[.setEnt .internalNl,.cb,.comment],some 1,false⟩⟩,⟨256,.ws,false,some ⟨54,[.setEnt .internalNl,.cb],some 1,false⟩⟩,⟨256,.lf,false,some ⟨45,[.setEnt .internalNl,.cb],some 1,false⟩⟩,⟨256,.vt,false,none⟩,⟨256,.ff,false,some ⟨46,[.setEnt .internalNl,.cb],some 1,false⟩⟩,⟨256,.cr,false,some ⟨47,[.setEnt .internalNl,.cb],none,false⟩⟩,⟨256,.cr,true,some ⟨48,[.setEnt .internalNl,.cb],some 1,false⟩⟩,⟨256,.other,false,some ⟨55,[.setEnt .internalNl,.cb,.comment],some 1,false⟩⟩]⟩,⟨[10,11],some 1,[.setEnt .internalNl,.cb,.emb .eofCommit],[⟨256,.other,false,some ⟨53,[.setEnt .internalNl,.cb,.comment],some 1,false⟩⟩,⟨256,.ws,false,some ⟨54,[.setEnt .internalNl,.cb],some 1,false⟩⟩,⟨256,.lf,false,some ⟨45,[.setEnt .internalNl,.cb],some 1,false⟩⟩,⟨256,.vt,false,none⟩,⟨256,.ff,false,some ⟨46,[.setEnt .internalNl,.cb],some 1,false⟩⟩,⟨256,.cr,false,some ⟨47,[.setEnt .internalNl,.cb],none,false⟩⟩,⟨256,.cr,true,some ⟨48,[.setEnt .internalNl,.cb],some 1,false⟩⟩,⟨256,.other,false,some ⟨55,[.setEnt .internalNl,.cb,.comment],some 1,false⟩⟩]⟩,⟨[4,6,15],some 1,[.emb .eofCommit],[⟨256,.other,false,some ⟨43,[.comment],some 1,false⟩⟩,⟨256,.ws,false,some ⟨44,[],some 1,false⟩⟩,⟨256,.lf,false,some ⟨45,[],some 1,false⟩⟩,⟨256,.vt,false,some ⟨28,[],some 1,false⟩⟩,⟨256,.ff,false,some ⟨46,[],some 1,false⟩⟩,⟨256,.cr,false,some ⟨47,[],none,false⟩⟩,⟨256,.cr,true,some ⟨48,[],some 1,false⟩⟩,⟨256,.other,false,some ⟨49,[.comment],some 1,false⟩⟩,⟨256,.other,false,some ⟨60,[.comment],some 1,false⟩⟩]⟩,⟨[6,15],some 1,[.emb .eofCommit],[⟨256,.other,false,some ⟨53,[.comment],some 1,false⟩⟩,⟨256,.ws,false,some ⟨54,[],some 1,false⟩⟩,⟨256,.lf,false,some ⟨45,[],some 1,false⟩⟩,⟨256,.vt,false,none⟩,⟨256,.ff,false,some ⟨46,[],some 1,false⟩⟩,⟨256,.cr,false,some ⟨47,[],none,false⟩⟩,⟨256,.cr,true,some ⟨48,[],some 1,false⟩⟩,⟨256,.other,false,some ⟨55,[.comment],some 1,false⟩⟩,⟨256,.other,false,some ⟨61,[.comment],some 1,false⟩⟩]⟩,⟨[4,7,15],some 1,[.emb .eofCommit],[⟨256,.other,false,some ⟨43,[.comment],some 1,false⟩⟩,⟨256,.ws,false,some ⟨44,[],some 1,false⟩⟩,⟨256,.lf,false,some ⟨45,[],some 1,false⟩⟩,⟨256,.vt,false,some ⟨28,[],some 1,false⟩⟩,⟨256,.ff,false,some ⟨46,[],some 1,false⟩⟩,⟨256,.cr,false,some ⟨47,[],none,false⟩⟩,⟨256,.cr,true,some ⟨48,[],some 1,false⟩⟩,⟨256,.other,false,some ⟨49,[.comment],some 1,false⟩⟩,⟨256,.other,false,some ⟨62,[.commit,.comment,.emb (.goto 0)],some 1,false⟩⟩]⟩,⟨[7,15],some 1,[.emb .eofCommit],[⟨256,.other,false,some ⟨53,[.comment],some 1,false⟩⟩,⟨256,.ws,false,some ⟨54,[],some 1,false⟩⟩,⟨256,.lf,false,some ⟨45,[],some 1,false⟩⟩,⟨256,.vt,false,none⟩,⟨256,.ff,false,some ⟨46,[],some 1,false⟩⟩,⟨256,.cr,false,some ⟨47,[],none,false⟩⟩,⟨256,.cr,true,some ⟨48,[],some 1,false⟩⟩,⟨256,.other,false,some ⟨55,[.comment],some 1,false⟩⟩,⟨256,.other,false,some ⟨63,[.commit,.comment,.emb (.goto 0)],some 1,false⟩⟩]⟩,⟨[4,8,15],some 1,[.emb .eofCommit],[⟨256,.other,false,some ⟨43,[.comment],some 1,false⟩⟩,⟨256,.ws,false,some ⟨44,[],some 1,false⟩⟩,⟨256,.lf,false,some ⟨45,[],some 1,false⟩⟩,⟨256,.vt,false,some ⟨28,[],some 1,false⟩⟩,⟨256,.ff,false,some ⟨46,[],some 1,false⟩⟩,⟨256,.cr,false,some ⟨47,[],none,false⟩⟩,⟨256,.cr,true,some ⟨48,[],some 1,false⟩⟩,⟨256,.other,false,some ⟨49,[.comment],some 1,false⟩⟩]⟩,⟨[8,15],some 1,[.emb .eofCommit],[⟨256,.other,false,some ⟨53,[.comment],some 1,false⟩⟩,⟨256,.ws,false,some ⟨54,[],some 1,false⟩⟩,⟨256,.lf,false,some ⟨45,[],some 1,false⟩⟩,⟨256,.vt,false,none⟩,⟨256,.ff,false,some ⟨46,[],some 1,false⟩⟩,⟨256,.cr,false,some ⟨47,[],none,false⟩⟩,⟨256,.cr,true,some ⟨48,[],some 1,false⟩⟩,⟨256,.other,false,some ⟨55,[.comment],some 1,false⟩⟩]⟩]
theorem emb54_rowsOk : rowsOk emb54_nfa [] (emb54_cs.map (·.1)) emb54_rows = true := by decide +kernel
def emb54_D : Dfa emb54_nfa := ⟨emb54_masks, [], emb54_cs, emb54_rows, emb54_masksIn, emb54_repOk, emb54_rowsOk⟩

/-- The automaton of `Emb.Perl.perl_entity`. -/
def emb55_nfa : Nfa := ⟨[⟨0,4294983168,[],[(0,.setEnt (.own 0))],0,0⟩,⟨1,34359738368,[],[(1,.setEnt (.own 1))],0,0⟩,⟨3,2305843009213693952,[.startsLine],[(1,.setEnt (.own 1))],0,2⟩,⟨10,115792089237316195423570985008687907853269984665640564039457584007908834656767,[],[],0,0⟩],[[⟨0,4294983168,[],[(0,.setEnt (.own 0))],0,0⟩],[⟨2,115792089237316195423570985008687907853269984665640564039457584007913129626623,[],[(1,.setEnt (.own 1))],0,0⟩],[⟨2,115792089237316195423570985008687907853269984665640564039457584007913129626623,[],[(1,.setEnt (.own 1))],0,0⟩],[⟨4,10633823810298881996379053697534001152,[],[(1,.setEnt (.own 1))],0,2⟩],[⟨4,10633823810298881996379053697534001152,[],[(1,.setEnt (.own 1))],0,2⟩,⟨5,115792089237316195423570985008687907853269984665640564039457584007913129639935,[],[(1,.setEnt (.own 1))],0,2⟩,⟨6,2305843009213693952,[.startsLine],[(1,.setEnt (.own 1))],0,2⟩],[⟨5,115792089237316195423570985008687907853269984665640564039457584007913129639935,[],[(1,.setEnt (.own 1))],0,2⟩,⟨6,2305843009213693952,[.startsLine],[(1,.setEnt (.own 1))],0,2⟩],[⟨7,633825300114114700748351602688,[],[(1,.setEnt (.own 1))],0,0⟩],[⟨8,166153499473114484112975882535043072,[],[(1,.setEnt (.own 1))],0,0⟩],[⟨9,83076749736557242056487941267521536,[],[(1,.setEnt (.own 1))],2,0⟩],[],[]],[some (0,[]),some (1,[]),some (1,[]),none,none,none,none,none,none,some (1,[]),some (2,[])],[1,2,2]⟩
def emb55_masks : List Nat := [4294983168,34359738368,2305843009213693952,115792089237316195423570985008687907853269984665640564039457584007908834656767,115792089237316195423570985008687907853269984665640564039457584007913129626623,10633823810298881996379053697534001152,115792089237316195423570985008687907853269984665640564039457584007913129639935,633825300114114700748351602688,166153499473114484112975882535043072,83076749736557242056487941267521536]
def emb55_cs : List (Nat × Nat) := [(0,115792089237316195423570985008687907853259350841830265157458899111167727223295),(9,4294967808),(10,1024),(11,2048),(12,4096),(13,8192),(35,34359738368),(61,2305843009213693952),(65,10384592927263910156094889125379833856),(99,633825300114114700748351602688),(116,83076749736557242056487941267521536),(117,166153499473114484112975882535043072)]
theorem emb55_masksIn : masksIn emb55_nfa emb55_masks = true := by decide +kernel
theorem emb55_repOk : repOk emb55_masks emb55_cs = true := by decide +kernel
def emb55_rows : List Row := [⟨[],none,[],[⟨256,.other,false,some ⟨0,[],some 2,true⟩⟩,⟨256,.ws,false,some ⟨1,[.setEnt (.own 0)],some 0,false⟩⟩,⟨256,.lf,false,some ⟨1,[.setEnt (.own 0)],some 0,false⟩⟩,⟨256,.vt,false,some ⟨1,[.setEnt (.own 0)],some 0,false⟩⟩,⟨256,.ff,false,some ⟨1,[.setEnt (.own 0)],some 0,false⟩⟩,⟨256,.cr,false,some ⟨1,[.setEnt (.own 0)],some 0,false⟩⟩,⟨256,.cr,true,some ⟨1,[.setEnt (.own 0)],some 0,false⟩⟩,⟨256,.other,false,some ⟨2,[.setEnt (.own 1)],some 1,false⟩⟩,⟨256,.other,false,some ⟨3,[.setEnt (.own 1)],some 2,false⟩⟩]⟩,⟨[0],some 0,[],[⟨256,.other,false,none⟩,⟨256,.ws,false,some ⟨1,[.setEnt (.own 0)],some 0,false⟩⟩,⟨256,.lf,false,some ⟨1,[.setEnt (.own 0)],some 0,false⟩⟩,⟨256,.vt,false,some ⟨1,[.setEnt (.own 0)],some 0,false⟩⟩,⟨256,.ff,false,some ⟨1,[.setEnt (.own 0)],some 0,false⟩⟩,⟨256,.cr,false,some ⟨1,[.setEnt (.own 0)],some 0,false⟩⟩,⟨256,.cr,true,some ⟨1,[.setEnt (.own 0)],some 0,false⟩⟩]⟩,⟨[1,10],some 1,[],[⟨256,.other,false,some ⟨4,[.setEnt (.own 1)],some 1,false⟩⟩,⟨256,.ws,false,some ⟨4,[.setEnt (.own 1)],some 1,false⟩⟩,⟨256,.lf,false,none⟩,⟨256,.vt,false,some ⟨4,[.setEnt (.own 1)],some 1,false⟩⟩,⟨256,.ff,false,none⟩,⟨256,.cr,false,none⟩,⟨256,.cr,true,none⟩]⟩,⟨[3,10],some 2,[],[⟨256,.other,false,none⟩,⟨256,.ws,false,none⟩,⟨256,.lf,false,none⟩,⟨256,.vt,false,none⟩,⟨256,.ff,false,none⟩,⟨256,.cr,false,none⟩,⟨256,.cr,true,none⟩,⟨256,.other,false,some ⟨5,[.setEnt (.own 1)],none,false⟩⟩]⟩,⟨[2],some 1,[],[⟨256,.other,false,some ⟨4,[.setEnt (.own 1)],some 1,false⟩⟩,⟨256,.ws,false,some ⟨4,[.setEnt (.own 1)],some 1,false⟩⟩,⟨256,.lf,false,none⟩,⟨256,.vt,false,some ⟨4,[.setEnt (.own 1)],some 1,false⟩⟩,⟨256,.ff,false,none⟩,⟨256,.cr,false,none⟩,⟨256,.cr,true,none⟩]⟩,⟨[4],none,[],[⟨256,.other,false,some ⟨6,[.setEnt (.own 1)],none,false⟩⟩,⟨256,.ws,false,some ⟨6,[.setEnt (.own 1)],none,false⟩⟩,⟨256,.lf,false,some ⟨6,[.setEnt (.own 1)],none,false⟩⟩,⟨256,.vt,false,some ⟨6,[.setEnt (.own 1)],none,false⟩⟩,⟨256,.ff,false,some ⟨6,[.setEnt (.own 1)],none,false⟩⟩,⟨256,.cr,false,some ⟨6,[.setEnt (.own 1)],none,false⟩⟩,⟨256,.cr,true,some ⟨6,[.setEnt (.own 1)],none,false⟩⟩,⟨256,.other,false,some ⟨7,[.setEnt (.own 1)],none,false⟩⟩,⟨256,.other,false,some ⟨8,[.setEnt (.own 1)],none,false⟩⟩]⟩,⟨[5],none,[],[⟨256,.other,false,some ⟨6,[.setEnt (.own 1)],none,false⟩⟩,⟨256,.ws,false,some ⟨6,[.setEnt (.own 1)],none,false⟩⟩,⟨256,.lf,false,some ⟨6,[.setEnt (.own 1)],none,false⟩⟩,⟨256,.vt,false,some ⟨6,[.setEnt (.own 1)],none,false⟩⟩,⟨256,.ff,false,some ⟨6,[.setEnt (.own 1)],none,false⟩⟩,⟨256,.cr,false,some ⟨6,[.setEnt (.own 1)],none,false⟩⟩,⟨256,.cr,true,some ⟨6,[.setEnt (.own 1)],none,false⟩⟩,⟨256,.other,false,some ⟨7,[.setEnt (.own 1)],none,false⟩⟩]⟩,⟨[5,6],none,[],[⟨256,.other,false,some ⟨6,[.setEnt (.own 1)],none,false⟩⟩,⟨256,.ws,false,some ⟨6,[.setEnt (.own 1)],none,false⟩⟩,⟨256,.lf,false,some ⟨6,[.setEnt (.own 1)],none,false⟩⟩,⟨256,.vt,false,some ⟨6,[.setEnt (.own 1)],none,false⟩⟩,⟨256,.ff,false,some ⟨6,[.setEnt (.own 1)],none,false⟩⟩,⟨256,.cr,false,some ⟨6,[.setEnt (.own 1)],none,false⟩⟩,⟨256,.cr,true,some ⟨6,[.setEnt (.own 1)],none,false⟩⟩,⟨256,.other,false,some ⟨7,[.setEnt (.own 1)],none,false⟩⟩,⟨256,.other,false,some ⟨9,[.setEnt (.own 1)],none,false⟩⟩]⟩,⟨[4,5],none,[],[⟨256,.other,false,some ⟨6,[.setEnt (.own 1)],none,false⟩⟩,⟨256,.ws,false,some ⟨6,[.setEnt (.own 1)],none,false⟩⟩,⟨256,.lf,false,some ⟨6,[.setEnt (.own 1)],none,false⟩⟩,⟨256,.vt,false,some ⟨6,[.setEnt (.own 1)],none,false⟩⟩,⟨256,.ff,false,some ⟨6,[.setEnt (.own 1)],none,false⟩⟩,⟨256,.cr,false,some ⟨6,[.setEnt (.own 1)],none,false⟩⟩,⟨256,.cr,true,some ⟨6,[.setEnt (.own 1)],none,false⟩⟩,⟨256,.other,false,some ⟨7,[.setEnt (.own 1)],none,false⟩⟩,⟨256,.other,false,some ⟨8,[.setEnt (.own 1)],none,false⟩⟩]⟩,⟨[5,7],none,[],[⟨256,.other,false,some ⟨6,[.setEnt (.own 1)],none,false⟩⟩,⟨256,.ws,false,some ⟨6,[.setEnt (.own 1)],none,false⟩⟩,⟨256,.lf,false,some ⟨6,[.setEnt (.own 1)],none,false⟩⟩,⟨256,.vt,false,some ⟨6,[.setEnt (.own 1)],none,false⟩⟩,⟨256,.ff,false,some ⟨6,[.setEnt (.own 1)],none,false⟩⟩,⟨256,.cr,false,some ⟨6,[.setEnt (.own 1)],none,false⟩⟩,⟨256,.cr,true,some ⟨6,[.setEnt (.own 1)],none,false⟩⟩,⟨256,.other,false,some ⟨7,[.setEnt (.own 1)],none,false⟩⟩,⟨256,.other,false,some ⟨10,[.setEnt (.own 1)],none,false⟩⟩]⟩,⟨[5,8],none,[],[⟨256,.other,false,some ⟨6,[.setEnt (.own 1)],none,false⟩⟩,⟨256,.ws,false,some ⟨6,[.setEnt (.own 1)],none,false⟩⟩,⟨256,.lf,false,some ⟨6,[.setEnt (.own 1)],none,false⟩⟩,⟨256,.vt,false,some ⟨6,[.setEnt (.own 1)],none,false⟩⟩,⟨256,.ff,false,some ⟨6,[.setEnt (.own 1)],none,false⟩⟩,⟨256,.cr,false,some ⟨6,[.setEnt (.own 1)],none,false⟩⟩,⟨256,.cr,true,some ⟨6,[.setEnt (.own 1)],none,false⟩⟩,⟨256,.other,false,some ⟨7,[.setEnt (.own 1)],none,false⟩⟩,⟨256,.other,false,some ⟨0,[.setEnt (.own 1)],some 1,true⟩⟩]⟩]
theorem emb55_rowsOk : rowsOk emb55_nfa [] (emb55_cs.map (·.1)) emb55_rows = true := by decide +kernel
def emb55_D : Dfa emb55_nfa := ⟨emb55_masks, [], emb55_cs, emb55_rows, emb55_masksIn, emb55_repOk, emb55_rowsOk⟩

end Ohcount.Cert
