import Verif.Gram.Emb
import Verif.RagelCheck

/-! Generated by tools/gen_embcerts.py. -/

namespace Ohcount.Cert
open Ohcount.Ragel Ohcount.Gram

set_option maxRecDepth 100000

/-- The automaton of `Emb.Html.html_js_line`. -/
def emb1_nfa : Nfa := ⟨[⟨0,1152921504606846976,[],[],0,0⟩,⟨15,4294967808,[],[(5,.setEnt (.own 0))],0,0⟩,⟨16,140737488355328,[],[],0,0⟩,⟨19,140737488355328,[],[],0,2⟩,⟨30,549755813888,[],[(11,.code)],0,0⟩,⟨42,17179869184,[],[(16,.code)],0,0⟩,⟨54,140737488355328,[],[],0,0⟩,⟨60,8192,[],[(22,.setEnt .newline)],0,0⟩,⟨62,1024,[],[(22,.setEnt .newline)],0,0⟩,⟨63,4096,[],[(22,.setEnt .newline)],0,0⟩,⟨64,8192,[.crAlone],[(22,.setEnt .newline)],0,0⟩,⟨65,115792089237316195423570985008687907853269984665640564039457584007908834656767,[],[(23,.setEnt (.own 7))],0,0⟩],[[⟨1,140737488355328,[],[],0,0⟩],[⟨2,41538374877950027585161004031410176,[],[],0,0⟩],[⟨3,633825300261688653338028015616,[],[],0,0⟩],[⟨4,20769187438975013792580502015705088,[],[],0,0⟩],[⟨5,40564819216748073813633792999424,[],[],0,0⟩],[⟨6,5192296859743753448145125503926272,[],[],0,0⟩],[⟨7,83076749755900055170322008062820352,[],[],0,0⟩],[⟨8,4294967808,[],[],0,0⟩,⟨9,8192,[],[],0,0⟩,⟨11,1024,[],[(0,.setEnt .internalNl)],0,0⟩,⟨12,4096,[],[(0,.setEnt .internalNl)],0,0⟩,⟨13,8192,[.crAlone],[(0,.setEnt .internalNl)],0,0⟩,⟨14,4611686018427387904,[],[(2,.emb .outry),(3,.code),(4,.emb .back)],0,0⟩],[⟨8,4294967808,[],[],0,0⟩,⟨9,8192,[],[],0,0⟩,⟨11,1024,[],[(0,.setEnt .internalNl)],0,0⟩,⟨12,4096,[],[(0,.setEnt .internalNl)],0,0⟩,⟨13,8192,[.crAlone],[(0,.setEnt .internalNl)],0,0⟩,⟨14,4611686018427387904,[],[(2,.emb .outry),(3,.code),(4,.emb .back)],0,0⟩],[⟨10,1024,[],[(0,.setEnt .internalNl)],0,0⟩],[⟨8,4294967808,[],[(1,.cb)],0,0⟩,⟨9,8192,[],[(1,.cb)],0,0⟩,⟨11,1024,[],[(1,.cb),(0,.setEnt .internalNl)],0,0⟩,⟨12,4096,[],[(1,.cb),(0,.setEnt .internalNl)],0,0⟩,⟨13,8192,[.crAlone],[(1,.cb),(0,.setEnt .internalNl)],0,0⟩,⟨14,4611686018427387904,[],[(1,.cb),(2,.emb .outry),(3,.code),(4,.emb .back)],0,0⟩],[⟨8,4294967808,[],[(1,.cb)],0,0⟩,⟨9,8192,[],[(1,.cb)],0,0⟩,⟨11,1024,[],[(1,.cb),(0,.setEnt .internalNl)],0,0⟩,⟨12,4096,[],[(1,.cb),(0,.setEnt .internalNl)],0,0⟩,⟨13,8192,[.crAlone],[(1,.cb),(0,.setEnt .internalNl)],0,0⟩,⟨14,4611686018427387904,[],[(1,.cb),(2,.emb .outry),(3,.code),(4,.emb .back)],0,0⟩],[⟨8,4294967808,[],[(1,.cb)],0,0⟩,⟨9,8192,[],[(1,.cb)],0,0⟩,⟨11,1024,[],[(1,.cb),(0,.setEnt .internalNl)],0,0⟩,⟨12,4096,[],[(1,.cb),(0,.setEnt .internalNl)],0,0⟩,⟨13,8192,[.crAlone],[(1,.cb),(0,.setEnt .internalNl)],0,0⟩,⟨14,4611686018427387904,[],[(1,.cb),(2,.emb .outry),(3,.code),(4,.emb .back)],0,0⟩],[⟨8,4294967808,[],[(1,.cb)],0,0⟩,⟨9,8192,[],[(1,.cb)],0,0⟩,⟨11,1024,[],[(1,.cb),(0,.setEnt .internalNl)],0,0⟩,⟨12,4096,[],[(1,.cb),(0,.setEnt .internalNl)],0,0⟩,⟨13,8192,[.crAlone],[(1,.cb),(0,.setEnt .internalNl)],0,0⟩,⟨14,4611686018427387904,[],[(1,.cb),(2,.emb .outry),(3,.code),(4,.emb .back)],0,0⟩],[],[⟨15,4294967808,[],[(5,.setEnt (.own 0))],0,0⟩],[⟨17,140737488355328,[],[(6,.comment)],0,0⟩],[⟨18,115792089237316195423570985008687907853269984665640564039457584007913129626623,[],[],0,0⟩],[⟨18,115792089237316195423570985008687907853269984665640564039457584007913129626623,[],[],0,0⟩],[⟨20,4398046511104,[],[(7,.comment)],0,2⟩],[⟨21,8192,[],[],0,2⟩,⟨23,1024,[],[],0,2⟩,⟨24,4096,[],[],0,2⟩,⟨25,8192,[.crAlone],[],0,2⟩,⟨26,4294967808,[],[],0,2⟩,⟨27,115792089237316195423570985008687907853269984665640564039457584007908834658815,[],[(10,.comment)],0,2⟩,⟨28,4398046511104,[],[],0,2⟩],[⟨22,1024,[],[],0,2⟩],[⟨21,8192,[],[(8,.setEnt .internalNl),(9,.emb (.cb 2))],0,2⟩,⟨23,1024,[],[(8,.setEnt .internalNl),(9,.emb (.cb 2))],0,2⟩,⟨24,4096,[],[(8,.setEnt .internalNl),(9,.emb (.cb 2))],0,2⟩,⟨25,8192,[.crAlone],[(8,.setEnt .internalNl),(9,.emb (.cb 2))],0,2⟩,⟨26,4294967808,[],[(8,.setEnt .internalNl),(9,.emb (.cb 2))],0,2⟩,⟨27,115792089237316195423570985008687907853269984665640564039457584007908834658815,[],[(8,.setEnt .internalNl),(9,.emb (.cb 2)),(10,.comment)],0,2⟩,⟨28,4398046511104,[],[(8,.setEnt .internalNl),(9,.emb (.cb 2))],0,2⟩],[⟨21,8192,[],[(8,.setEnt .internalNl),(9,.emb (.cb 2))],0,2⟩,⟨23,1024,[],[(8,.setEnt .internalNl),(9,.emb (.cb 2))],0,2⟩,⟨24,4096,[],[(8,.setEnt .internalNl),(9,.emb (.cb 2))],0,2⟩,⟨25,8192,[.crAlone],[(8,.setEnt .internalNl),(9,.emb (.cb 2))],0,2⟩,⟨26,4294967808,[],[(8,.setEnt .internalNl),(9,.emb (.cb 2))],0,2⟩,⟨27,115792089237316195423570985008687907853269984665640564039457584007908834658815,[],[(8,.setEnt .internalNl),(9,.emb (.cb 2)),(10,.comment)],0,2⟩,⟨28,4398046511104,[],[(8,.setEnt .internalNl),(9,.emb (.cb 2))],0,2⟩],[⟨21,8192,[],[(8,.setEnt .internalNl),(9,.emb (.cb 2))],0,2⟩,⟨23,1024,[],[(8,.setEnt .internalNl),(9,.emb (.cb 2))],0,2⟩,⟨24,4096,[],[(8,.setEnt .internalNl),(9,.emb (.cb 2))],0,2⟩,⟨25,8192,[.crAlone],[(8,.setEnt .internalNl),(9,.emb (.cb 2))],0,2⟩,⟨26,4294967808,[],[(8,.setEnt .internalNl),(9,.emb (.cb 2))],0,2⟩,⟨27,115792089237316195423570985008687907853269984665640564039457584007908834658815,[],[(8,.setEnt .internalNl),(9,.emb (.cb 2)),(10,.comment)],0,2⟩,⟨28,4398046511104,[],[(8,.setEnt .internalNl),(9,.emb (.cb 2))],0,2⟩],[⟨21,8192,[],[(8,.setEnt .internalNl),(9,.emb (.cb 2))],0,2⟩,⟨23,1024,[],[(8,.setEnt .internalNl),(9,.emb (.cb 2))],0,2⟩,⟨24,4096,[],[(8,.setEnt .internalNl),(9,.emb (.cb 2))],0,2⟩,⟨25,8192,[.crAlone],[(8,.setEnt .internalNl),(9,.emb (.cb 2))],0,2⟩,⟨26,4294967808,[],[(8,.setEnt .internalNl),(9,.emb (.cb 2))],0,2⟩,⟨27,115792089237316195423570985008687907853269984665640564039457584007908834658815,[],[(8,.setEnt .internalNl),(9,.emb (.cb 2)),(10,.comment)],0,2⟩,⟨28,4398046511104,[],[(8,.setEnt .internalNl),(9,.emb (.cb 2))],0,2⟩],[⟨21,8192,[],[],0,2⟩,⟨23,1024,[],[],0,2⟩,⟨24,4096,[],[],0,2⟩,⟨25,8192,[.crAlone],[],0,2⟩,⟨26,4294967808,[],[],0,2⟩,⟨27,115792089237316195423570985008687907853269984665640564039457584007908834658815,[],[(10,.comment)],0,2⟩,⟨28,4398046511104,[],[],0,2⟩],[⟨21,8192,[],[],0,2⟩,⟨23,1024,[],[],0,2⟩,⟨24,4096,[],[],0,2⟩,⟨25,8192,[.crAlone],[],0,2⟩,⟨26,4294967808,[],[],0,2⟩,⟨27,115792089237316195423570985008687907853269984665640564039457584007908834658815,[],[(10,.comment)],0,2⟩,⟨28,4398046511104,[],[],0,2⟩],[⟨29,140737488355328,[],[],2,0⟩],[],[⟨31,4951760157141521099596496896,[],[],0,0⟩,⟨37,4294967808,[],[],0,0⟩,⟨38,115792089237316195423570985008687907853269984665635612279300442486259482361343,[],[(14,.code)],0,0⟩,⟨39,4951760157141521099596496896,[],[],0,0⟩,⟨41,549755813888,[],[],0,0⟩],[⟨32,8192,[],[],0,0⟩,⟨34,1024,[],[],0,0⟩,⟨35,4096,[],[],0,0⟩,⟨36,8192,[.crAlone],[],0,0⟩],[⟨33,1024,[],[],0,0⟩],[⟨31,4951760157141521099596496896,[],[(12,.setEnt .internalNl),(13,.emb (.cb 2))],0,0⟩,⟨37,4294967808,[],[(12,.setEnt .internalNl),(13,.emb (.cb 2))],0,0⟩,⟨38,115792089237316195423570985008687907853269984665635612279300442486259482361343,[],[(12,.setEnt .internalNl),(13,.emb (.cb 2)),(14,.code)],0,0⟩,⟨39,4951760157141521099596496896,[],[(12,.setEnt .internalNl),(13,.emb (.cb 2))],0,0⟩,⟨41,549755813888,[],[(12,.setEnt .internalNl),(13,.emb (.cb 2))],0,0⟩],[⟨31,4951760157141521099596496896,[],[(12,.setEnt .internalNl),(13,.emb (.cb 2))],0,0⟩,⟨37,4294967808,[],[(12,.setEnt .internalNl),(13,.emb (.cb 2))],0,0⟩,⟨38,115792089237316195423570985008687907853269984665635612279300442486259482361343,[],[(12,.setEnt .internalNl),(13,.emb (.cb 2)),(14,.code)],0,0⟩,⟨39,4951760157141521099596496896,[],[(12,.setEnt .internalNl),(13,.emb (.cb 2))],0,0⟩,⟨41,549755813888,[],[(12,.setEnt .internalNl),(13,.emb (.cb 2))],0,0⟩],[⟨31,4951760157141521099596496896,[],[(12,.setEnt .internalNl),(13,.emb (.cb 2))],0,0⟩,⟨37,4294967808,[],[(12,.setEnt .internalNl),(13,.emb (.cb 2))],0,0⟩,⟨38,115792089237316195423570985008687907853269984665635612279300442486259482361343,[],[(12,.setEnt .internalNl),(13,.emb (.cb 2)),(14,.code)],0,0⟩,⟨39,4951760157141521099596496896,[],[(12,.setEnt .internalNl),(13,.emb (.cb 2))],0,0⟩,⟨41,549755813888,[],[(12,.setEnt .internalNl),(13,.emb (.cb 2))],0,0⟩],[⟨31,4951760157141521099596496896,[],[(12,.setEnt .internalNl),(13,.emb (.cb 2))],0,0⟩,⟨37,4294967808,[],[(12,.setEnt .internalNl),(13,.emb (.cb 2))],0,0⟩,⟨38,115792089237316195423570985008687907853269984665635612279300442486259482361343,[],[(12,.setEnt .internalNl),(13,.emb (.cb 2)),(14,.code)],0,0⟩,⟨39,4951760157141521099596496896,[],[(12,.setEnt .internalNl),(13,.emb (.cb 2))],0,0⟩,⟨41,549755813888,[],[(12,.setEnt .internalNl),(13,.emb (.cb 2))],0,0⟩],[⟨31,4951760157141521099596496896,[],[],0,0⟩,⟨37,4294967808,[],[],0,0⟩,⟨38,115792089237316195423570985008687907853269984665635612279300442486259482361343,[],[(14,.code)],0,0⟩,⟨39,4951760157141521099596496896,[],[],0,0⟩,⟨41,549755813888,[],[],0,0⟩],[⟨31,4951760157141521099596496896,[],[],0,0⟩,⟨37,4294967808,[],[],0,0⟩,⟨38,115792089237316195423570985008687907853269984665635612279300442486259482361343,[],[(14,.code)],0,0⟩,⟨39,4951760157141521099596496896,[],[],0,0⟩,⟨41,549755813888,[],[],0,0⟩],[⟨40,115792089237316195423570985008687907853269984665640564039457584007913129626623,[],[(15,.code)],0,0⟩],[⟨31,4951760157141521099596496896,[],[],0,0⟩,⟨37,4294967808,[],[],0,0⟩,⟨38,115792089237316195423570985008687907853269984665635612279300442486259482361343,[],[(14,.code)],0,0⟩,⟨39,4951760157141521099596496896,[],[],0,0⟩,⟨41,549755813888,[],[],0,0⟩],[],[⟨43,4951760157141521099596496896,[],[],0,0⟩,⟨49,4294967808,[],[],0,0⟩,⟨50,115792089237316195423570985008687907853269984665635612279300442486792058306047,[],[(19,.code)],0,0⟩,⟨51,4951760157141521099596496896,[],[],0,0⟩,⟨53,17179869184,[],[],0,0⟩],[⟨44,8192,[],[],0,0⟩,⟨46,1024,[],[],0,0⟩,⟨47,4096,[],[],0,0⟩,⟨48,8192,[.crAlone],[],0,0⟩],[⟨45,1024,[],[],0,0⟩],[⟨43,4951760157141521099596496896,[],[(17,.setEnt .internalNl),(18,.emb (.cb 2))],0,0⟩,⟨49,4294967808,[],[(17,.setEnt .internalNl),(18,.emb (.cb 2))],0,0⟩,⟨50,115792089237316195423570985008687907853269984665635612279300442486792058306047,[],[(17,.setEnt .internalNl),(18,.emb (.cb 2)),(19,.code)],0,0⟩,⟨51,4951760157141521099596496896,[],[(17,.setEnt .internalNl),(18,.emb (.cb 2))],0,0⟩,⟨53,17179869184,[],[(17,.setEnt .internalNl),(18,.emb (.cb 2))],0,0⟩],[⟨43,4951760157141521099596496896,[],[(17,.setEnt .internalNl),(18,.emb (.cb 2))],0,0⟩,⟨49,4294967808,[],[(17,.setEnt .internalNl),(18,.emb (.cb 2))],0,0⟩,⟨50,115792089237316195423570985008687907853269984665635612279300442486792058306047,[],[(17,.setEnt .internalNl),(18,.emb (.cb 2)),(19,.code)],0,0⟩,⟨51,4951760157141521099596496896,[],[(17,.setEnt .internalNl),(18,.emb (.cb 2))],0,0⟩,⟨53,17179869184,[],[(17,.setEnt .internalNl),(18,.emb (.cb 2))],0,0⟩],[⟨43,4951760157141521099596496896,[],[(17,.setEnt .internalNl),(18,.emb (.cb 2))],0,0⟩,⟨49,4294967808,[],[(17,.setEnt .internalNl),(18,.emb (.cb 2))],0,0⟩,⟨50,115792089237316195423570985008687907853269984665635612279300442486792058306047,[],[(17,.setEnt .internalNl),(18,.emb (.cb 2)),(19,.code)],0,0⟩,⟨51,4951760157141521099596496896,[],[(17,.setEnt .internalNl),(18,.emb (.cb 2))],0,0⟩,⟨53,17179869184,[],[(17,.setEnt .internalNl),(18,.emb (.cb 2))],0,0⟩],[⟨43,4951760157141521099596496896,[],[(17,.setEnt .internalNl),(18,.emb (.cb 2))],0,0⟩,⟨49,4294967808,[],[(17,.setEnt .internalNl),(18,.emb (.cb 2))],0,0⟩,⟨50,115792089237316195423570985008687907853269984665635612279300442486792058306047,[],[(17,.setEnt .internalNl),(18,.emb (.cb 2)),(19,.code)],0,0⟩,⟨51,4951760157141521099596496896,[],[(17,.setEnt .internalNl),(18,.emb (.cb 2))],0,0⟩,⟨53,17179869184,[],[(17,.setEnt .internalNl),(18,.emb (.cb 2))],0,0⟩],[⟨43,4951760157141521099596496896,[],[],0,0⟩,⟨49,4294967808,[],[],0,0⟩,⟨50,115792089237316195423570985008687907853269984665635612279300442486792058306047,[],[(19,.code)],0,0⟩,⟨51,4951760157141521099596496896,[],[],0,0⟩,⟨53,17179869184,[],[],0,0⟩],[⟨43,4951760157141521099596496896,[],[],0,0⟩,⟨49,4294967808,[],[],0,0⟩,⟨50,115792089237316195423570985008687907853269984665635612279300442486792058306047,[],[(19,.code)],0,0⟩,⟨51,4951760157141521099596496896,[],[],0,0⟩,⟨53,17179869184,[],[],0,0⟩],[⟨52,115792089237316195423570985008687907853269984665640564039457584007913129626623,[],[(20,.code)],0,0⟩],[⟨43,4951760157141521099596496896,[],[],0,0⟩,⟨49,4294967808,[],[],0,0⟩,⟨50,115792089237316195423570985008687907853269984665635612279300442486792058306047,[],[(19,.code)],0,0⟩,⟨51,4951760157141521099596496896,[],[],0,0⟩,⟨53,17179869184,[],[],0,0⟩],[],[⟨55,115792089237316195423570985008687907853269984665640564039457583862777594773503,[],[],0,0⟩],[⟨56,115792089237316195423570985008687907853269984665635612279300442346076044774399,[],[],0,0⟩,⟨57,4951760157141521099596496896,[],[],0,0⟩,⟨59,140737488355328,[],[(21,.code)],0,0⟩],[⟨56,115792089237316195423570985008687907853269984665635612279300442346076044774399,[],[],0,0⟩,⟨57,4951760157141521099596496896,[],[],0,0⟩,⟨59,140737488355328,[],[(21,.code)],0,0⟩],[⟨58,115792089237316195423570985008687907853269984665640564039457584007913129626623,[],[],0,0⟩],[⟨56,115792089237316195423570985008687907853269984665635612279300442346076044774399,[],[],0,0⟩,⟨57,4951760157141521099596496896,[],[],0,0⟩,⟨59,140737488355328,[],[(21,.code)],0,0⟩],[],[⟨61,1024,[],[(22,.setEnt .newline)],0,0⟩],[],[],[],[],[]],[none,none,none,none,none,none,none,none,none,none,none,none,none,none,some (0,[]),some (1,[]),none,some (2,[]),some (2,[]),none,none,none,none,none,none,none,none,none,none,some (2,[]),none,none,none,none,none,none,none,none,none,none,none,some (3,[]),none,none,none,none,none,none,none,none,none,none,none,some (3,[]),none,none,none,none,none,some (3,[]),none,some (4,[]),some (4,[]),some (4,[]),some (4,[]),some (5,[])],[5,6,11,22,23,24]⟩
def emb1_masks : List Nat := [1152921504606846976,4294967808,140737488355328,549755813888,17179869184,8192,1024,4096,115792089237316195423570985008687907853269984665640564039457584007908834656767,41538374877950027585161004031410176,633825300261688653338028015616,20769187438975013792580502015705088,40564819216748073813633792999424,5192296859743753448145125503926272,83076749755900055170322008062820352,4611686018427387904,115792089237316195423570985008687907853269984665640564039457584007913129626623,4398046511104,115792089237316195423570985008687907853269984665640564039457584007908834658815,4951760157141521099596496896,115792089237316195423570985008687907853269984665635612279300442486259482361343,115792089237316195423570985008687907853269984665635612279300442486792058306047,115792089237316195423570985008687907853269984665640564039457583862777594773503,115792089237316195423570985008687907853269984665635612279300442346076044774399]
def emb1_cs : List (Nat × Nat) := [(0,115792089237316195423570985008687907853269834047828035193434919057972298498559),(9,4294967808),(10,1024),(11,2048),(12,4096),(13,8192),(34,17179869184),(39,549755813888),(42,4398046511104),(47,140737488355328),(60,1152921504606846976),(62,4611686018427387904),(67,633825300261688653338028015616),(73,40564819216748073813633792999424),(80,5192296859743753448145125503926272),(82,20769187438975013792580502015705088),(83,41538374877950027585161004031410176),(84,83076749755900055170322008062820352),(92,4951760157141521099596496896)]
theorem emb1_masksIn : masksIn emb1_nfa emb1_masks = true := by decide +kernel
theorem emb1_repOk : repOk emb1_masks emb1_cs = true := by decide +kernel
def emb1_rows : List Row := [⟨[],none,[],[⟨256,.other,false,some ⟨0,[.setEnt (.own 7)],some 5,true⟩⟩,⟨256,.ws,false,some ⟨1,[.setEnt (.own 0)],some 1,false⟩⟩,⟨256,.lf,false,some ⟨0,[.setEnt .newline],some 4,true⟩⟩,⟨256,.vt,false,none⟩,⟨256,.ff,false,some ⟨0,[.setEnt .newline],some 4,true⟩⟩,⟨256,.cr,false,some ⟨2,[.setEnt .newline],none,false⟩⟩,⟨256,.cr,true,some ⟨3,[.setEnt .newline],some 4,false⟩⟩,⟨256,.other,false,some ⟨4,[.code,.setEnt (.own 7)],some 5,false⟩⟩,⟨256,.other,false,some ⟨5,[.code,.setEnt (.own 7)],some 5,false⟩⟩,⟨256,.other,false,some ⟨6,[.setEnt (.own 7)],some 5,false⟩⟩,⟨256,.other,false,some ⟨7,[.setEnt (.own 7)],some 5,false⟩⟩]⟩,⟨[15],some 1,[],[⟨256,.other,false,none⟩,⟨256,.ws,false,some ⟨1,[.setEnt (.own 0)],some 1,false⟩⟩,⟨256,.lf,false,none⟩,⟨256,.vt,false,none⟩,⟨256,.ff,false,none⟩,⟨256,.cr,false,none⟩,⟨256,.cr,true,none⟩]⟩,⟨[60],none,[],[⟨256,.other,false,none⟩,⟨256,.ws,false,none⟩,⟨256,.lf,false,some ⟨0,[.setEnt .newline],some 4,true⟩⟩,⟨256,.vt,false,none⟩,⟨256,.ff,false,none⟩,⟨256,.cr,false,none⟩,⟨256,.cr,true,none⟩]⟩,⟨[60,64],some 4,[],[⟨256,.other,false,none⟩,⟨256,.ws,false,none⟩,⟨256,.lf,false,some ⟨0,[.setEnt .newline],some 4,true⟩⟩,⟨256,.vt,false,none⟩,⟨256,.ff,false,none⟩,⟨256,.cr,false,none⟩,⟨256,.cr,true,none⟩]⟩,⟨[42,65],some 5,[],[⟨256,.other,false,some ⟨8,[.code],none,false⟩⟩,⟨256,.ws,false,some ⟨9,[],none,false⟩⟩,⟨256,.lf,false,some ⟨8,[.code],none,false⟩⟩,⟨256,.vt,false,some ⟨8,[.code],none,false⟩⟩,⟨256,.ff,false,some ⟨8,[.code],none,false⟩⟩,⟨256,.cr,false,some ⟨8,[.code],none,false⟩⟩,⟨256,.cr,true,some ⟨8,[.code],none,false⟩⟩,⟨256,.other,false,some ⟨0,[],some 3,true⟩⟩,⟨256,.other,false,some ⟨10,[],none,false⟩⟩]⟩,⟨[30,65],some 5,[],[⟨256,.other,false,some ⟨11,[.code],none,false⟩⟩,⟨256,.ws,false,some ⟨12,[],none,false⟩⟩,⟨256,.lf,false,some ⟨11,[.code],none,false⟩⟩,⟨256,.vt,false,some ⟨11,[.code],none,false⟩⟩,⟨256,.ff,false,some ⟨11,[.code],none,false⟩⟩,⟨256,.cr,false,some ⟨11,[.code],none,false⟩⟩,⟨256,.cr,true,some ⟨11,[.code],none,false⟩⟩,⟨256,.other,false,some ⟨0,[],some 3,true⟩⟩,⟨256,.other,false,some ⟨13,[],none,false⟩⟩]⟩,⟨[16,19,54,65],some 5,[],[⟨256,.other,false,some ⟨14,[],none,false⟩⟩,⟨256,.ws,false,some ⟨14,[],none,false⟩⟩,⟨256,.lf,false,some ⟨14,[],none,false⟩⟩,⟨256,.vt,false,some ⟨14,[],none,false⟩⟩,⟨256,.ff,false,some ⟨14,[],none,false⟩⟩,⟨256,.cr,false,some ⟨14,[],none,false⟩⟩,⟨256,.cr,true,some ⟨14,[],none,false⟩⟩,⟨256,.other,false,some ⟨15,[.comment],none,false⟩⟩,⟨256,.other,false,some ⟨16,[.comment],some 2,false⟩⟩]⟩,⟨[0,65],some 5,[],[⟨256,.other,false,none⟩,⟨256,.ws,false,none⟩,⟨256,.lf,false,none⟩,⟨256,.vt,false,none⟩,⟨256,.ff,false,none⟩,⟨256,.cr,false,none⟩,⟨256,.cr,true,none⟩,⟨256,.other,false,some ⟨17,[],none,false⟩⟩]⟩,⟨[50],none,[],[⟨256,.other,false,some ⟨8,[.code],none,false⟩⟩,⟨256,.ws,false,some ⟨9,[],none,false⟩⟩,⟨256,.lf,false,some ⟨8,[.code],none,false⟩⟩,⟨256,.vt,false,some ⟨8,[.code],none,false⟩⟩,⟨256,.ff,false,some ⟨8,[.code],none,false⟩⟩,⟨256,.cr,false,some ⟨8,[.code],none,false⟩⟩,⟨256,.cr,true,some ⟨8,[.code],none,false⟩⟩,⟨256,.other,false,some ⟨0,[],some 3,true⟩⟩,⟨256,.other,false,some ⟨10,[],none,false⟩⟩]⟩,⟨[49],none,[],[⟨256,.other,false,some ⟨8,[.code],none,false⟩⟩,⟨256,.ws,false,some ⟨9,[],none,false⟩⟩,⟨256,.lf,false,some ⟨8,[.code],none,false⟩⟩,⟨256,.vt,false,some ⟨8,[.code],none,false⟩⟩,⟨256,.ff,false,some ⟨8,[.code],none,false⟩⟩,⟨256,.cr,false,some ⟨8,[.code],none,false⟩⟩,⟨256,.cr,true,some ⟨8,[.code],none,false⟩⟩,⟨256,.other,false,some ⟨0,[],some 3,true⟩⟩,⟨256,.other,false,some ⟨10,[],none,false⟩⟩]⟩,⟨[43,51],none,[],[⟨256,.other,false,some ⟨18,[.code],none,false⟩⟩,⟨256,.ws,false,some ⟨18,[.code],none,false⟩⟩,⟨256,.lf,false,some ⟨19,[],none,false⟩⟩,⟨256,.vt,false,some ⟨18,[.code],none,false⟩⟩,⟨256,.ff,false,some ⟨20,[],none,false⟩⟩,⟨256,.cr,false,some ⟨21,[],none,false⟩⟩,⟨256,.cr,true,some ⟨22,[],none,false⟩⟩]⟩,⟨[38],none,[],[⟨256,.other,false,some ⟨11,[.code],none,false⟩⟩,⟨256,.ws,false,some ⟨12,[],none,false⟩⟩,⟨256,.lf,false,some ⟨11,[.code],none,false⟩⟩,⟨256,.vt,false,some ⟨11,[.code],none,false⟩⟩,⟨256,.ff,false,some ⟨11,[.code],none,false⟩⟩,⟨256,.cr,false,some ⟨11,[.code],none,false⟩⟩,⟨256,.cr,true,some ⟨11,[.code],none,false⟩⟩,⟨256,.other,false,some ⟨0,[],some 3,true⟩⟩,⟨256,.other,false,some ⟨13,[],none,false⟩⟩]⟩,⟨[37],none,[],[⟨256,.other,false,some ⟨11,[.code],none,false⟩⟩,⟨256,.ws,false,some ⟨12,[],none,false⟩⟩,⟨256,.lf,false,some ⟨11,[.code],none,false⟩⟩,⟨256,.vt,false,some ⟨11,[.code],none,false⟩⟩,⟨256,.ff,false,some ⟨11,[.code],none,false⟩⟩,⟨256,.cr,false,some ⟨11,[.code],none,false⟩⟩,⟨256,.cr,true,some ⟨11,[.code],none,false⟩⟩,⟨256,.other,false,some ⟨0,[],some 3,true⟩⟩,⟨256,.other,false,some ⟨13,[],none,false⟩⟩]⟩,⟨[31,39],none,[],[⟨256,.other,false,some ⟨23,[.code],none,false⟩⟩,⟨256,.ws,false,some ⟨23,[.code],none,false⟩⟩,⟨256,.lf,false,some ⟨24,[],none,false⟩⟩,⟨256,.vt,false,some ⟨23,[.code],none,false⟩⟩,⟨256,.ff,false,some ⟨25,[],none,false⟩⟩,⟨256,.cr,false,some ⟨26,[],none,false⟩⟩,⟨256,.cr,true,some ⟨27,[],none,false⟩⟩]⟩,⟨[55],none,[],[⟨256,.other,false,some ⟨28,[],none,false⟩⟩,⟨256,.ws,false,some ⟨28,[],none,false⟩⟩,⟨256,.lf,false,none⟩,⟨256,.vt,false,some ⟨28,[],none,false⟩⟩,⟨256,.ff,false,none⟩,⟨256,.cr,false,none⟩,⟨256,.cr,true,none⟩,⟨256,.other,false,some ⟨0,[.code],some 3,true⟩⟩,⟨256,.other,false,some ⟨29,[],none,false⟩⟩]⟩,⟨[20],none,[],[⟨256,.other,false,some ⟨30,[.comment],none,false⟩⟩,⟨256,.ws,false,some ⟨31,[],none,false⟩⟩,⟨256,.lf,false,some ⟨32,[],none,false⟩⟩,⟨256,.vt,false,some ⟨30,[.comment],none,false⟩⟩,⟨256,.ff,false,some ⟨33,[],none,false⟩⟩,⟨256,.cr,false,some ⟨34,[],none,false⟩⟩,⟨256,.cr,true,some ⟨35,[],none,false⟩⟩,⟨256,.other,false,some ⟨36,[.comment],none,false⟩⟩]⟩,⟨[17],some 2,[],[⟨256,.other,false,some ⟨37,[],some 2,false⟩⟩,⟨256,.ws,false,some ⟨37,[],some 2,false⟩⟩,⟨256,.lf,false,none⟩,⟨256,.vt,false,some ⟨37,[],some 2,false⟩⟩,⟨256,.ff,false,none⟩,⟨256,.cr,false,none⟩,⟨256,.cr,true,none⟩]⟩,⟨[1],none,[],[⟨256,.other,false,none⟩,⟨256,.ws,false,none⟩,⟨256,.lf,false,none⟩,⟨256,.vt,false,none⟩,⟨256,.ff,false,none⟩,⟨256,.cr,false,none⟩,⟨256,.cr,true,none⟩,⟨256,.other,false,some ⟨38,[],none,false⟩⟩]⟩,⟨[52],none,[],[⟨256,.other,false,some ⟨8,[.code],none,false⟩⟩,⟨256,.ws,false,some ⟨9,[],none,false⟩⟩,⟨256,.lf,false,some ⟨8,[.code],none,false⟩⟩,⟨256,.vt,false,some ⟨8,[.code],none,false⟩⟩,⟨256,.ff,false,some ⟨8,[.code],none,false⟩⟩,⟨256,.cr,false,some ⟨8,[.code],none,false⟩⟩,⟨256,.cr,true,some ⟨8,[.code],none,false⟩⟩,⟨256,.other,false,some ⟨0,[],some 3,true⟩⟩,⟨256,.other,false,some ⟨10,[],none,false⟩⟩]⟩,⟨[46],none,[],[⟨256,.other,false,some ⟨8,[.setEnt .internalNl,.emb (.cb 2),.code],none,false⟩⟩,⟨256,.ws,false,some ⟨9,[.setEnt .internalNl,.emb (.cb 2)],none,false⟩⟩,⟨256,.lf,false,some ⟨8,[.setEnt .internalNl,.emb (.cb 2),.code],none,false⟩⟩,⟨256,.vt,false,some ⟨8,[.setEnt .internalNl,.emb (.cb 2),.code],none,false⟩⟩,⟨256,.ff,false,some ⟨8,[.setEnt .internalNl,.emb (.cb 2),.code],none,false⟩⟩,⟨256,.cr,false,some ⟨8,[.setEnt .internalNl,.emb (.cb 2),.code],none,false⟩⟩,⟨256,.cr,true,some ⟨8,[.setEnt .internalNl,.emb (.cb 2),.code],none,false⟩⟩,⟨256,.other,false,some ⟨0,[.setEnt .internalNl,.emb (.cb 2)],some 3,true⟩⟩,⟨256,.other,false,some ⟨10,[.setEnt .internalNl,.emb (.cb 2)],none,false⟩⟩]⟩,⟨[47],none,[],[⟨256,.other,false,some ⟨8,[.setEnt .internalNl,.emb (.cb 2),.code],none,false⟩⟩,⟨256,.ws,false,some ⟨9,[.setEnt .internalNl,.emb (.cb 2)],none,false⟩⟩,⟨256,.lf,false,some ⟨8,[.setEnt .internalNl,.emb (.cb 2),.code],none,false⟩⟩,⟨256,.vt,false,some ⟨8,[.setEnt .internalNl,.emb (.cb 2),.code],none,false⟩⟩,⟨256,.ff,false,some ⟨8,[.setEnt .internalNl,.emb (.cb 2),.code],none,false⟩⟩,⟨256,.cr,false,some ⟨8,[.setEnt .internalNl,.emb (.cb 2),.code],none,false⟩⟩,⟨256,.cr,true,some ⟨8,[.setEnt .internalNl,.emb (.cb 2),.code],none,false⟩⟩,⟨256,.other,false,some ⟨0,[.setEnt .internalNl,.emb (.cb 2)],some 3,true⟩⟩,⟨256,.other,false,some ⟨10,[.setEnt .internalNl,.emb (.cb 2)],none,false⟩⟩]⟩,⟨[44],none,[],[⟨256,.other,false,none⟩,⟨256,.ws,false,none⟩,⟨256,.lf,false,some ⟨39,[],none,false⟩⟩,⟨256,.vt,false,none⟩,⟨256,.ff,false,none⟩,⟨256,.cr,false,none⟩,⟨256,.cr,true,none⟩]⟩,⟨[44,48],none,[],[⟨256,.other,false,some ⟨8,[.setEnt .internalNl,.emb (.cb 2),.code],none,false⟩⟩,⟨256,.ws,false,some ⟨9,[.setEnt .internalNl,.emb (.cb 2)],none,false⟩⟩,⟨256,.lf,false,some ⟨40,[.setEnt .internalNl,.emb (.cb 2),.code],none,false⟩⟩,⟨256,.vt,false,some ⟨8,[.setEnt .internalNl,.emb (.cb 2),.code],none,false⟩⟩,⟨256,.ff,false,some ⟨8,[.setEnt .internalNl,.emb (.cb 2),.code],none,false⟩⟩,⟨256,.cr,false,some ⟨8,[.setEnt .internalNl,.emb (.cb 2),.code],none,false⟩⟩,⟨256,.cr,true,some ⟨8,[.setEnt .internalNl,.emb (.cb 2),.code],none,false⟩⟩,⟨256,.other,false,some ⟨0,[.setEnt .internalNl,.emb (.cb 2)],some 3,true⟩⟩,⟨256,.other,false,some ⟨10,[.setEnt .internalNl,.emb (.cb 2)],none,false⟩⟩]⟩,⟨[40],none,[],[⟨256,.other,false,some ⟨11,[.code],none,false⟩⟩,⟨256,.ws,false,some ⟨12,[],none,false⟩⟩,⟨256,.lf,false,some ⟨11,[.code],none,false⟩⟩,⟨256,.vt,false,some ⟨11,[.code],none,false⟩⟩,⟨256,.ff,false,some ⟨11,[.code],none,false⟩⟩,⟨256,.cr,false,some ⟨11,[.code],none,false⟩⟩,⟨256,.cr,true,some ⟨11,[.code],none,false⟩⟩,⟨256,.other,false,some ⟨0,[],some 3,true⟩⟩,⟨256,.other,false,some ⟨13,[],none,false⟩⟩]⟩,⟨[34],none,[],[⟨256,.other,false,some ⟨11,[.setEnt .internalNl,.emb (.cb 2),.code],none,false⟩⟩,⟨256,.ws,false,some ⟨12,[.setEnt .internalNl,.emb (.cb 2)],none,false⟩⟩,⟨256,.lf,false,some ⟨11,[.setEnt .internalNl,.emb (.cb 2),.code],none,false⟩⟩,⟨256,.vt,false,some ⟨11,[.setEnt .internalNl,.emb (.cb 2),.code],none,false⟩⟩,⟨256,.ff,false,some ⟨11,[.setEnt .internalNl,.emb (.cb 2),.code],none,false⟩⟩,⟨256,.cr,false,some ⟨11,[.setEnt .internalNl,.emb (.cb 2),.code],none,false⟩⟩,⟨256,.cr,true,some ⟨11,[.setEnt .internalNl,.emb (.cb 2),.code],none,false⟩⟩,⟨256,.other,false,some ⟨0,[.setEnt .internalNl,.emb (.cb 2)],some 3,true⟩⟩,⟨256,.other,false,some ⟨13,[.setEnt .internalNl,.emb (.cb 2)],none,false⟩⟩]⟩,⟨[35],none,[],[⟨256,.other,false,some ⟨11,[.setEnt .internalNl,.emb (.cb 2),.code],none,false⟩⟩,⟨256,.ws,false,some ⟨12,[.setEnt .internalNl,.emb (.cb 2)],none,false⟩⟩,⟨256,.lf,false,some ⟨11,[.setEnt .internalNl,.emb (.cb 2),.code],none,false⟩⟩,⟨256,.vt,false,some ⟨11,[.setEnt .internalNl,.emb (.cb 2),.code],none,false⟩⟩,⟨256,.ff,false,some ⟨11,[.setEnt .internalNl,.emb (.cb 2),.code],none,false⟩⟩,⟨256,.cr,false,some ⟨11,[.setEnt .internalNl,.emb (.cb 2),.code],none,false⟩⟩,⟨256,.cr,true,some ⟨11,[.setEnt .internalNl,.emb (.cb 2),.code],none,false⟩⟩,⟨256,.other,false,some ⟨0,[.setEnt .internalNl,.emb (.cb 2)],some 3,true⟩⟩,⟨256,.other,false,some ⟨13,[.setEnt .internalNl,.emb (.cb 2)],none,false⟩⟩]⟩,⟨[32],none,[],[⟨256,.other,false,none⟩,⟨256,.ws,false,none⟩,⟨256,.lf,false,some ⟨41,[],none,false⟩⟩,⟨256,.vt,false,none⟩,⟨256,.ff,false,none⟩,⟨256,.cr,false,none⟩,⟨256,.cr,true,none⟩]⟩,⟨[32,36],none,[],[⟨256,.other,false,some ⟨11,[.setEnt .internalNl,.emb (.cb 2),.code],none,false⟩⟩,⟨256,.ws,false,some ⟨12,[.setEnt .internalNl,.emb (.cb 2)],none,false⟩⟩,⟨256,.lf,false,some ⟨42,[.setEnt .internalNl,.emb (.cb 2),.code],none,false⟩⟩,⟨256,.vt,false,some ⟨11,[.setEnt .internalNl,.emb (.cb 2),.code],none,false⟩⟩,⟨256,.ff,false,some ⟨11,[.setEnt .internalNl,.emb (.cb 2),.code],none,false⟩⟩,⟨256,.cr,false,some ⟨11,[.setEnt .internalNl,.emb (.cb 2),.code],none,false⟩⟩,⟨256,.cr,true,some ⟨11,[.setEnt .internalNl,.emb (.cb 2),.code],none,false⟩⟩,⟨256,.other,false,some ⟨0,[.setEnt .internalNl,.emb (.cb 2)],some 3,true⟩⟩,⟨256,.other,false,some ⟨13,[.setEnt .internalNl,.emb (.cb 2)],none,false⟩⟩]⟩,⟨[56],none,[],[⟨256,.other,false,some ⟨28,[],none,false⟩⟩,⟨256,.ws,false,some ⟨28,[],none,false⟩⟩,⟨256,.lf,false,none⟩,⟨256,.vt,false,some ⟨28,[],none,false⟩⟩,⟨256,.ff,false,none⟩,⟨256,.cr,false,none⟩,⟨256,.cr,true,none⟩,⟨256,.other,false,some ⟨0,[.code],some 3,true⟩⟩,⟨256,.other,false,some ⟨29,[],none,false⟩⟩]⟩,⟨[57],none,[],[⟨256,.other,false,some ⟨43,[],none,false⟩⟩,⟨256,.ws,false,some ⟨43,[],none,false⟩⟩,⟨256,.lf,false,none⟩,⟨256,.vt,false,some ⟨43,[],none,false⟩⟩,⟨256,.ff,false,none⟩,⟨256,.cr,false,none⟩,⟨256,.cr,true,none⟩]⟩,⟨[27],none,[],[⟨256,.other,false,some ⟨30,[.comment],none,false⟩⟩,⟨256,.ws,false,some ⟨31,[],none,false⟩⟩,⟨256,.lf,false,some ⟨32,[],none,false⟩⟩,⟨256,.vt,false,some ⟨30,[.comment],none,false⟩⟩,⟨256,.ff,false,some ⟨33,[],none,false⟩⟩,⟨256,.cr,false,some ⟨34,[],none,false⟩⟩,⟨256,.cr,true,some ⟨35,[],none,false⟩⟩,⟨256,.other,false,some ⟨36,[.comment],none,false⟩⟩]⟩,⟨[26],none,[],[⟨256,.other,false,some ⟨30,[.comment],none,false⟩⟩,⟨256,.ws,false,some ⟨31,[],none,false⟩⟩,⟨256,.lf,false,some ⟨32,[],none,false⟩⟩,⟨256,.vt,false,some ⟨30,[.comment],none,false⟩⟩,⟨256,.ff,false,some ⟨33,[],none,false⟩⟩,⟨256,.cr,false,some ⟨34,[],none,false⟩⟩,⟨256,.cr,true,some ⟨35,[],none,false⟩⟩,⟨256,.other,false,some ⟨36,[.comment],none,false⟩⟩]⟩,⟨[23],none,[],[⟨256,.other,false,some ⟨30,[.setEnt .internalNl,.emb (.cb 2),.comment],none,false⟩⟩,⟨256,.ws,false,some ⟨31,[.setEnt .internalNl,.emb (.cb 2)],none,false⟩⟩,⟨256,.lf,false,some ⟨32,[.setEnt .internalNl,.emb (.cb 2)],none,false⟩⟩,⟨256,.vt,false,some ⟨30,[.setEnt .internalNl,.emb (.cb 2),.comment],none,false⟩⟩,⟨256,.ff,false,some ⟨33,[.setEnt .internalNl,.emb (.cb 2)],none,false⟩⟩,⟨256,.cr,false,some ⟨34,[.setEnt .internalNl,.emb (.cb 2)],none,false⟩⟩,⟨256,.cr,true,some ⟨35,[.setEnt .internalNl,.emb (.cb 2)],none,false⟩⟩,⟨256,.other,false,some ⟨36,[.setEnt .internalNl,.emb (.cb 2),.comment],none,false⟩⟩]⟩,⟨[24],none,[],[⟨256,.other,false,some ⟨30,[.setEnt .internalNl,.emb (.cb 2),.comment],none,false⟩⟩,⟨256,.ws,false,some ⟨31,[.setEnt .internalNl,.emb (.cb 2)],none,false⟩⟩,⟨256,.lf,false,some ⟨32,[.setEnt .internalNl,.emb (.cb 2)],none,false⟩⟩,⟨256,.vt,false,some ⟨30,[.setEnt .internalNl,.emb (.cb 2),.comment],none,false⟩⟩,⟨256,.ff,false,some ⟨33,[.setEnt .internalNl,.emb (.cb 2)],none,false⟩⟩,⟨256,.cr,false,some ⟨34,[.setEnt .internalNl,.emb (.cb 2)],none,false⟩⟩,⟨256,.cr,true,some ⟨35,[.setEnt .internalNl,.emb (.cb 2)],none,false⟩⟩,⟨256,.other,false,some ⟨36,[.setEnt .internalNl,.emb (.cb 2),.comment],none,false⟩⟩]⟩,⟨[21],none,[],[⟨256,.other,false,none⟩,⟨256,.ws,false,none⟩,⟨256,.lf,false,some ⟨44,[],none,false⟩⟩,⟨256,.vt,false,none⟩,⟨256,.ff,false,none⟩,⟨256,.cr,false,none⟩,⟨256,.cr,true,none⟩]⟩,⟨[21,25],none,[],[⟨256,.other,false,some ⟨30,[.setEnt .internalNl,.emb (.cb 2),.comment],none,false⟩⟩,⟨256,.ws,false,some ⟨31,[.setEnt .internalNl,.emb (.cb 2)],none,false⟩⟩,⟨256,.lf,false,some ⟨45,[.setEnt .internalNl,.emb (.cb 2)],none,false⟩⟩,⟨256,.vt,false,some ⟨30,[.setEnt .internalNl,.emb (.cb 2),.comment],none,false⟩⟩,⟨256,.ff,false,some ⟨33,[.setEnt .internalNl,.emb (.cb 2)],none,false⟩⟩,⟨256,.cr,false,some ⟨34,[.setEnt .internalNl,.emb (.cb 2)],none,false⟩⟩,⟨256,.cr,true,some ⟨35,[.setEnt .internalNl,.emb (.cb 2)],none,false⟩⟩,⟨256,.other,false,some ⟨36,[.setEnt .internalNl,.emb (.cb 2),.comment],none,false⟩⟩]⟩,⟨[27,28],none,[],[⟨256,.other,false,some ⟨30,[.comment],none,false⟩⟩,⟨256,.ws,false,some ⟨31,[],none,false⟩⟩,⟨256,.lf,false,some ⟨32,[],none,false⟩⟩,⟨256,.vt,false,some ⟨30,[.comment],none,false⟩⟩,⟨256,.ff,false,some ⟨33,[],none,false⟩⟩,⟨256,.cr,false,some ⟨34,[],none,false⟩⟩,⟨256,.cr,true,some ⟨35,[],none,false⟩⟩,⟨256,.other,false,some ⟨36,[.comment],none,false⟩⟩,⟨256,.other,false,some ⟨0,[],some 2,true⟩⟩]⟩,⟨[18],some 2,[],[⟨256,.other,false,some ⟨37,[],some 2,false⟩⟩,⟨256,.ws,false,some ⟨37,[],some 2,false⟩⟩,⟨256,.lf,false,none⟩,⟨256,.vt,false,some ⟨37,[],some 2,false⟩⟩,⟨256,.ff,false,none⟩,⟨256,.cr,false,none⟩,⟨256,.cr,true,none⟩]⟩,⟨[2],none,[],[⟨256,.other,false,none⟩,⟨256,.ws,false,none⟩,⟨256,.lf,false,none⟩,⟨256,.vt,false,none⟩,⟨256,.ff,false,none⟩,⟨256,.cr,false,none⟩,⟨256,.cr,true,none⟩,⟨256,.other,false,some ⟨46,[],none,false⟩⟩]⟩,⟨[45],none,[],[⟨256,.other,false,some ⟨8,[.setEnt .internalNl,.emb (.cb 2),.code],none,false⟩⟩,⟨256,.ws,false,some ⟨9,[.setEnt .internalNl,.emb (.cb 2)],none,false⟩⟩,⟨256,.lf,false,some ⟨8,[.setEnt .internalNl,.emb (.cb 2),.code],none,false⟩⟩,⟨256,.vt,false,some ⟨8,[.setEnt .internalNl,.emb (.cb 2),.code],none,false⟩⟩,⟨256,.ff,false,some ⟨8,[.setEnt .internalNl,.emb (.cb 2),.code],none,false⟩⟩,⟨256,.cr,false,some ⟨8,[.setEnt .internalNl,.emb (.cb 2),.code],none,false⟩⟩,⟨256,.cr,true,some ⟨8,[.setEnt .internalNl,.emb (.cb 2),.code],none,false⟩⟩,⟨256,.other,false,some ⟨0,[.setEnt .internalNl,.emb (.cb 2)],some 3,true⟩⟩,⟨256,.other,false,some ⟨10,[.setEnt .internalNl,.emb (.cb 2)],none,false⟩⟩]⟩,⟨[45,50],none,[],[⟨256,.other,false,some ⟨8,[.setEnt .internalNl,.emb (.cb 2),.code],none,false⟩⟩,⟨256,.ws,false,some ⟨9,[.setEnt .internalNl,.emb (.cb 2)],none,false⟩⟩,⟨256,.lf,false,some ⟨8,[.setEnt .internalNl,.emb (.cb 2),.code],none,false⟩⟩,⟨256,.vt,false,some ⟨8,[.setEnt .internalNl,.emb (.cb 2),.code],none,false⟩⟩,⟨256,.ff,false,some ⟨8,[.setEnt .internalNl,.emb (.cb 2),.code],none,false⟩⟩,⟨256,.cr,false,some ⟨8,[.setEnt .internalNl,.emb (.cb 2),.code],none,false⟩⟩,⟨256,.cr,true,some ⟨8,[.setEnt .internalNl,.emb (.cb 2),.code],none,false⟩⟩,⟨256,.other,false,some ⟨0,[.setEnt .internalNl,.emb (.cb 2)],some 3,true⟩⟩,⟨256,.other,false,some ⟨10,[.setEnt .internalNl,.emb (.cb 2)],none,false⟩⟩]⟩,⟨[33],none,[],[⟨256,.other,false,some ⟨11,[.setEnt .internalNl,.emb (.cb 2),.code],none,false⟩⟩,⟨256,.ws,false,some ⟨12,[.setEnt .internalNl,.emb (.cb 2)],none,false⟩⟩,⟨256,.lf,false,some ⟨11,[.setEnt .internalNl,.emb (.cb 2),.code],none,false⟩⟩,⟨256,.vt,false,some ⟨11,[.setEnt .internalNl,.emb (.cb 2),.code],none,false⟩⟩,⟨256,.ff,false,some ⟨11,[.setEnt .internalNl,.emb (.cb 2),.code],none,false⟩⟩,⟨256,.cr,false,some ⟨11,[.setEnt .internalNl,.emb (.cb 2),.code],none,false⟩⟩,⟨256,.cr,true,some ⟨11,[.setEnt .internalNl,.emb (.cb 2),.code],none,false⟩⟩,⟨256,.other,false,some ⟨0,[.setEnt .internalNl,.emb (.cb 2)],some 3,true⟩⟩,⟨256,.other,false,some ⟨13,[.setEnt .internalNl,.emb (.cb 2)],none,false⟩⟩]⟩,⟨[33,38],none,[],[⟨256,.other,false,some ⟨11,[.setEnt .internalNl,.emb (.cb 2),.code],none,false⟩⟩,⟨256,.ws,false,some ⟨12,[.setEnt .internalNl,.emb (.cb 2)],none,false⟩⟩,⟨256,.lf,false,some ⟨11,[.setEnt .internalNl,.emb (.cb 2),.code],none,false⟩⟩,⟨256,.vt,false,some ⟨11,[.setEnt .internalNl,.emb (.cb 2),.code],none,false⟩⟩,⟨256,.ff,false,some ⟨11,[.setEnt .internalNl,.emb (.cb 2),.code],none,false⟩⟩,⟨256,.cr,false,some ⟨11,[.setEnt .internalNl,.emb (.cb 2),.code],none,false⟩⟩,⟨256,.cr,true,some ⟨11,[.setEnt .internalNl,.emb (.cb 2),.code],none,false⟩⟩,⟨256,.other,false,some ⟨0,[.setEnt .internalNl,.emb (.cb 2)],some 3,true⟩⟩,⟨256,.other,false,some ⟨13,[.setEnt .internalNl,.emb (.cb 2)],none,false⟩⟩]⟩,⟨[58],none,[],[⟨256,.other,false,some ⟨28,[],none,false⟩⟩,⟨256,.ws,false,some ⟨28,[],none,false⟩⟩,⟨256,.lf,false,none⟩,⟨256,.vt,false,some ⟨28,[],none,false⟩⟩,⟨256,.ff,false,none⟩,⟨256,.cr,false,none⟩,⟨256,.cr,true,none⟩,⟨256,.other,false,some ⟨0,[.code],some 3,true⟩⟩,⟨256,.other,false,some ⟨29,[],none,false⟩⟩]⟩,⟨[22],none,[],[⟨256,.other,false,some ⟨30,[.setEnt .internalNl,.emb (.cb 2),.comment],none,false⟩⟩,⟨256,.ws,false,some ⟨31,[.setEnt .internalNl,.emb (.cb 2)],none,false⟩⟩,⟨256,.lf,false,some ⟨32,[.setEnt .internalNl,.emb (.cb 2)],none,false⟩⟩,⟨256,.vt,false,some ⟨30,[.setEnt .internalNl,.emb (.cb 2),.comment],none,false⟩⟩,⟨256,.ff,false,some ⟨33,[.setEnt .internalNl,.emb (.cb 2)],none,false⟩⟩,⟨256,.cr,false,some ⟨34,[.setEnt .internalNl,.emb (.cb 2)],none,false⟩⟩,⟨256,.cr,true,some ⟨35,[.setEnt .internalNl,.emb (.cb 2)],none,false⟩⟩,⟨256,.other,false,some ⟨36,[.setEnt .internalNl,.emb (.cb 2),.comment],none,false⟩⟩]⟩,⟨[22,23],none,[],[⟨256,.other,false,some ⟨30,[.setEnt .internalNl,.emb (.cb 2),.comment],none,false⟩⟩,⟨256,.ws,false,some ⟨31,[.setEnt .internalNl,.emb (.cb 2)],none,false⟩⟩,⟨256,.lf,false,some ⟨32,[.setEnt .internalNl,.emb (.cb 2)],none,false⟩⟩,⟨256,.vt,false,some ⟨30,[.setEnt .internalNl,.emb (.cb 2),.comment],none,false⟩⟩,⟨256,.ff,false,some ⟨33,[.setEnt .internalNl,.emb (.cb 2)],none,false⟩⟩,⟨256,.cr,false,some ⟨34,[.setEnt .internalNl,.emb (.cb 2)],none,false⟩⟩,⟨256,.cr,true,some ⟨35,[.setEnt .internalNl,.emb (.cb 2)],none,false⟩⟩,⟨256,.other,false,some ⟨36,[.setEnt .internalNl,.emb (.cb 2),.comment],none,false⟩⟩]⟩,⟨[3],none,[],[⟨256,.other,false,none⟩,⟨256,.ws,false,none⟩,⟨256,.lf,false,none⟩,⟨256,.vt,false,none⟩,⟨256,.ff,false,none⟩,⟨256,.cr,false,none⟩,⟨256,.cr,true,none⟩,⟨256,.other,false,some ⟨47,[],none,false⟩⟩]⟩,⟨[4],none,[],[⟨256,.other,false,none⟩,⟨256,.ws,false,none⟩,⟨256,.lf,false,none⟩,⟨256,.vt,false,none⟩,⟨256,.ff,false,none⟩,⟨256,.cr,false,none⟩,⟨256,.cr,true,none⟩,⟨256,.other,false,some ⟨48,[],none,false⟩⟩]⟩,⟨[5],none,[],[⟨256,.other,false,none⟩,⟨256,.ws,false,none⟩,⟨256,.lf,false,none⟩,⟨256,.vt,false,none⟩,⟨256,.ff,false,none⟩,⟨256,.cr,false,none⟩,⟨256,.cr,true,none⟩,⟨256,.other,false,some ⟨49,[],none,false⟩⟩]⟩,⟨[6],none,[],[⟨256,.other,false,none⟩,⟨256,.ws,false,none⟩,⟨256,.lf,false,none⟩,⟨256,.vt,false,none⟩,⟨256,.ff,false,none⟩,⟨256,.cr,false,none⟩,⟨256,.cr,true,none⟩,⟨256,.other,false,some ⟨50,[],none,false⟩⟩]⟩,⟨[7],none,[],[⟨256,.other,false,none⟩,⟨256,.ws,false,some ⟨51,[],none,false⟩⟩,⟨256,.lf,false,some ⟨52,[.setEnt .internalNl],none,false⟩⟩,⟨256,.vt,false,none⟩,⟨256,.ff,false,some ⟨53,[.setEnt .internalNl],none,false⟩⟩,⟨256,.cr,false,some ⟨54,[],none,false⟩⟩,⟨256,.cr,true,some ⟨55,[.setEnt .internalNl],none,false⟩⟩,⟨256,.other,false,some ⟨0,[.emb .outry,.code,.emb .back],some 0,true⟩⟩]⟩,⟨[8],none,[],[⟨256,.other,false,none⟩,⟨256,.ws,false,some ⟨51,[],none,false⟩⟩,⟨256,.lf,false,some ⟨52,[.setEnt .internalNl],none,false⟩⟩,⟨256,.vt,false,none⟩,⟨256,.ff,false,some ⟨53,[.setEnt .internalNl],none,false⟩⟩,⟨256,.cr,false,some ⟨54,[],none,false⟩⟩,⟨256,.cr,true,some ⟨55,[.setEnt .internalNl],none,false⟩⟩,⟨256,.other,false,some ⟨0,[.emb .outry,.code,.emb .back],some 0,true⟩⟩]⟩,⟨[11],none,[],[⟨256,.other,false,none⟩,⟨256,.ws,false,some ⟨51,[.cb],none,false⟩⟩,⟨256,.lf,false,some ⟨52,[.setEnt .internalNl,.cb],none,false⟩⟩,⟨256,.vt,false,none⟩,⟨256,.ff,false,some ⟨53,[.setEnt .internalNl,.cb],none,false⟩⟩,⟨256,.cr,false,some ⟨54,[.cb],none,false⟩⟩,⟨256,.cr,true,some ⟨55,[.setEnt .internalNl,.cb],none,false⟩⟩,⟨256,.other,false,some ⟨0,[.cb,.emb .outry,.code,.emb .back],some 0,true⟩⟩]⟩,⟨[12],none,[],[⟨256,.other,false,none⟩,⟨256,.ws,false,some ⟨51,[.cb],none,false⟩⟩,⟨256,.lf,false,some ⟨52,[.setEnt .internalNl,.cb],none,false⟩⟩,⟨256,.vt,false,none⟩,⟨256,.ff,false,some ⟨53,[.setEnt .internalNl,.cb],none,false⟩⟩,⟨256,.cr,false,some ⟨54,[.cb],none,false⟩⟩,⟨256,.cr,true,some ⟨55,[.setEnt .internalNl,.cb],none,false⟩⟩,⟨256,.other,false,some ⟨0,[.cb,.emb .outry,.code,.emb .back],some 0,true⟩⟩]⟩,⟨[9],none,[],[⟨256,.other,false,none⟩,⟨256,.ws,false,none⟩,⟨256,.lf,false,some ⟨56,[.setEnt .internalNl],none,false⟩⟩,⟨256,.vt,false,none⟩,⟨256,.ff,false,none⟩,⟨256,.cr,false,none⟩,⟨256,.cr,true,none⟩]⟩,⟨[9,13],none,[],[⟨256,.other,false,none⟩,⟨256,.ws,false,some ⟨51,[.cb],none,false⟩⟩,⟨256,.lf,false,some ⟨57,[.setEnt .internalNl,.cb],none,false⟩⟩,⟨256,.vt,false,none⟩,⟨256,.ff,false,some ⟨53,[.setEnt .internalNl,.cb],none,false⟩⟩,⟨256,.cr,false,some ⟨54,[.cb],none,false⟩⟩,⟨256,.cr,true,some ⟨55,[.setEnt .internalNl,.cb],none,false⟩⟩,⟨256,.other,false,some ⟨0,[.cb,.emb .outry,.code,.emb .back],some 0,true⟩⟩]⟩,⟨[10],none,[],[⟨256,.other,false,none⟩,⟨256,.ws,false,some ⟨51,[.cb],none,false⟩⟩,⟨256,.lf,false,some ⟨52,[.setEnt .internalNl,.cb],none,false⟩⟩,⟨256,.vt,false,none⟩,⟨256,.ff,false,some ⟨53,[.setEnt .internalNl,.cb],none,false⟩⟩,⟨256,.cr,false,some ⟨54,[.cb],none,false⟩⟩,⟨256,.cr,true,some ⟨55,[.setEnt .internalNl,.cb],none,false⟩⟩,⟨256,.other,false,some ⟨0,[.cb,.emb .outry,.code,.emb .back],some 0,true⟩⟩]⟩,⟨[10,11],none,[],[⟨256,.other,false,none⟩,⟨256,.ws,false,some ⟨51,[.cb],none,false⟩⟩,⟨256,.lf,false,some ⟨52,[.setEnt .internalNl,.cb],none,false⟩⟩,⟨256,.vt,false,none⟩,⟨256,.ff,false,some ⟨53,[.setEnt .internalNl,.cb],none,false⟩⟩,⟨256,.cr,false,some ⟨54,[.cb],none,false⟩⟩,⟨256,.cr,true,some ⟨55,[.setEnt .internalNl,.cb],none,false⟩⟩,⟨256,.other,false,some ⟨0,[.cb,.emb .outry,.code,.emb .back],some 0,true⟩⟩]⟩]
theorem emb1_rowsOk : rowsOk emb1_nfa [] (emb1_cs.map (·.1)) emb1_rows = true := by decide +kernel
def emb1_D : Dfa emb1_nfa := ⟨emb1_masks, [], emb1_cs, emb1_rows, emb1_masksIn, emb1_repOk, emb1_rowsOk⟩
def emb1_maskst : List Nat := [1152921504606846976,4294967808,140737488355328,549755813888,17179869184,8192,1024,4096,115792089237316195423570985008687907853269984665640564039457584007908834656767,41538374877950027585161004031410176,633825300261688653338028015616,20769187438975013792580502015705088,40564819216748073813633792999424,5192296859743753448145125503926272,83076749755900055170322008062820352,4611686018427387904,115792089237316195423570985008687907853269984665640564039457584007913129626623,4398046511104,115792089237316195423570985008687907853269984665640564039457584007908834658815,4951760157141521099596496896,115792089237316195423570985008687907853269984665635612279300442486259482361343,115792089237316195423570985008687907853269984665635612279300442486792058306047,115792089237316195423570985008687907853269984665640564039457583862777594773503,115792089237316195423570985008687907853269984665635612279300442346076044774399]
def emb1_cst : List (Nat × Nat) := [(0,115792089237316195423570985008687907853269834047828035193434919057972298498559),(9,4294967808),(10,1024),(11,2048),(12,4096),(13,8192),(34,17179869184),(39,549755813888),(42,4398046511104),(47,140737488355328),(60,1152921504606846976),(62,4611686018427387904),(67,633825300261688653338028015616),(73,40564819216748073813633792999424),(80,5192296859743753448145125503926272),(82,20769187438975013792580502015705088),(83,41538374877950027585161004031410176),(84,83076749755900055170322008062820352),(92,4951760157141521099596496896)]
theorem emb1_masksInt : masksIn emb1_nfa emb1_maskst = true := by decide +kernel
theorem emb1_repOkt : repOk emb1_maskst emb1_cst = true := by decide +kernel
def emb1_rowst : List Row := [⟨[],none,[],[⟨256,.other,false,some ⟨0,[.setEnt (.own 7)],some 5,true⟩⟩,⟨256,.ws,false,some ⟨1,[.setEnt (.own 0)],some 1,false⟩⟩,⟨256,.lf,false,some ⟨0,[.setEnt .newline],some 4,true⟩⟩,⟨256,.vt,false,none⟩,⟨256,.ff,false,some ⟨0,[.setEnt .newline],some 4,true⟩⟩,⟨256,.cr,false,some ⟨2,[.setEnt .newline],none,false⟩⟩,⟨256,.cr,true,some ⟨3,[.setEnt .newline],some 4,false⟩⟩,⟨256,.other,false,some ⟨4,[.code,.setEnt (.own 7)],some 5,false⟩⟩,⟨256,.other,false,some ⟨5,[.code,.setEnt (.own 7)],some 5,false⟩⟩,⟨47,.other,false,some ⟨6,[.setEnt (.own 7)],some 5,false⟩⟩,⟨60,.other,false,some ⟨7,[.setEnt (.own 7)],some 5,false⟩⟩,⟨62,.other,false,some ⟨0,[.setEnt (.own 7)],some 5,true⟩⟩]⟩,⟨[15],some 1,[],[⟨256,.other,false,none⟩,⟨256,.ws,false,some ⟨1,[.setEnt (.own 0)],some 1,false⟩⟩,⟨256,.lf,false,none⟩,⟨256,.vt,false,none⟩,⟨256,.ff,false,none⟩,⟨256,.cr,false,none⟩,⟨256,.cr,true,none⟩,⟨47,.other,false,none⟩,⟨60,.other,false,none⟩,⟨62,.other,false,none⟩]⟩,⟨[60],none,[],[⟨256,.other,false,none⟩,⟨256,.ws,false,none⟩,⟨256,.lf,false,some ⟨0,[.setEnt .newline],some 4,true⟩⟩,⟨256,.vt,false,none⟩,⟨256,.ff,false,none⟩,⟨256,.cr,false,none⟩,⟨256,.cr,true,none⟩,⟨47,.other,false,none⟩,⟨60,.other,false,none⟩,⟨62,.other,false,none⟩]⟩,⟨[60,64],some 4,[],[⟨256,.other,false,none⟩,⟨256,.ws,false,none⟩,⟨256,.lf,false,some ⟨0,[.setEnt .newline],some 4,true⟩⟩,⟨256,.vt,false,none⟩,⟨256,.ff,false,none⟩,⟨256,.cr,false,none⟩,⟨256,.cr,true,none⟩,⟨47,.other,false,none⟩,⟨60,.other,false,none⟩,⟨62,.other,false,none⟩]⟩,⟨[42,65],some 5,[],[⟨256,.other,false,some ⟨8,[.code],none,false⟩⟩,⟨256,.ws,false,some ⟨9,[],none,false⟩⟩,⟨256,.lf,false,some ⟨8,[.code],none,false⟩⟩,⟨256,.vt,false,some ⟨8,[.code],none,false⟩⟩,⟨256,.ff,false,some ⟨8,[.code],none,false⟩⟩,⟨256,.cr,false,some ⟨8,[.code],none,false⟩⟩,⟨256,.cr,true,some ⟨8,[.code],none,false⟩⟩,⟨256,.other,false,some ⟨0,[],some 3,true⟩⟩,⟨47,.other,false,some ⟨8,[.code],none,false⟩⟩,⟨60,.other,false,some ⟨8,[.code],none,false⟩⟩,⟨62,.other,false,some ⟨8,[.code],none,false⟩⟩,⟨256,.other,false,some ⟨10,[],none,false⟩⟩]⟩,⟨[30,65],some 5,[],[⟨256,.other,false,some ⟨11,[.code],none,false⟩⟩,⟨256,.ws,false,some ⟨12,[],none,false⟩⟩,⟨256,.lf,false,some ⟨11,[.code],none,false⟩⟩,⟨256,.vt,false,some ⟨11,[.code],none,false⟩⟩,⟨256,.ff,false,some ⟨11,[.code],none,false⟩⟩,⟨256,.cr,false,some ⟨11,[.code],none,false⟩⟩,⟨256,.cr,true,some ⟨11,[.code],none,false⟩⟩,⟨256,.other,false,some ⟨0,[],some 3,true⟩⟩,⟨47,.other,false,some ⟨11,[.code],none,false⟩⟩,⟨60,.other,false,some ⟨11,[.code],none,false⟩⟩,⟨62,.other,false,some ⟨11,[.code],none,false⟩⟩,⟨256,.other,false,some ⟨13,[],none,false⟩⟩]⟩,⟨[16,19,54,65],some 5,[],[⟨256,.other,false,some ⟨14,[],none,false⟩⟩,⟨256,.ws,false,some ⟨14,[],none,false⟩⟩,⟨256,.lf,false,some ⟨14,[],none,false⟩⟩,⟨256,.vt,false,some ⟨14,[],none,false⟩⟩,⟨256,.ff,false,some ⟨14,[],none,false⟩⟩,⟨256,.cr,false,some ⟨14,[],none,false⟩⟩,⟨256,.cr,true,some ⟨14,[],none,false⟩⟩,⟨256,.other,false,some ⟨15,[.comment],none,false⟩⟩,⟨47,.other,false,some ⟨16,[.comment],some 2,false⟩⟩,⟨60,.other,false,some ⟨14,[],none,false⟩⟩,⟨62,.other,false,some ⟨14,[],none,false⟩⟩]⟩,⟨[0,65],some 5,[],[⟨256,.other,false,none⟩,⟨256,.ws,false,none⟩,⟨256,.lf,false,none⟩,⟨256,.vt,false,none⟩,⟨256,.ff,false,none⟩,⟨256,.cr,false,none⟩,⟨256,.cr,true,none⟩,⟨47,.other,false,some ⟨17,[],none,false⟩⟩,⟨60,.other,false,none⟩,⟨62,.other,false,none⟩]⟩,⟨[50],none,[],[⟨256,.other,false,some ⟨8,[.code],none,false⟩⟩,⟨256,.ws,false,some ⟨9,[],none,false⟩⟩,⟨256,.lf,false,some ⟨8,[.code],none,false⟩⟩,⟨256,.vt,false,some ⟨8,[.code],none,false⟩⟩,⟨256,.ff,false,some ⟨8,[.code],none,false⟩⟩,⟨256,.cr,false,some ⟨8,[.code],none,false⟩⟩,⟨256,.cr,true,some ⟨8,[.code],none,false⟩⟩,⟨256,.other,false,some ⟨0,[],some 3,true⟩⟩,⟨47,.other,false,some ⟨8,[.code],none,false⟩⟩,⟨60,.other,false,some ⟨8,[.code],none,false⟩⟩,⟨62,.other,false,some ⟨8,[.code],none,false⟩⟩,⟨256,.other,false,some ⟨10,[],none,false⟩⟩]⟩,⟨[49],none,[],[⟨256,.other,false,some ⟨8,[.code],none,false⟩⟩,⟨256,.ws,false,some ⟨9,[],none,false⟩⟩,⟨256,.lf,false,some ⟨8,[.code],none,false⟩⟩,⟨256,.vt,false,some ⟨8,[.code],none,false⟩⟩,⟨256,.ff,false,some ⟨8,[.code],none,false⟩⟩,⟨256,.cr,false,some ⟨8,[.code],none,false⟩⟩,⟨256,.cr,true,some ⟨8,[.code],none,false⟩⟩,⟨256,.other,false,some ⟨0,[],some 3,true⟩⟩,⟨47,.other,false,some ⟨8,[.code],none,false⟩⟩,⟨60,.other,false,some ⟨8,[.code],none,false⟩⟩,⟨62,.other,false,some ⟨8,[.code],none,false⟩⟩,⟨256,.other,false,some ⟨10,[],none,false⟩⟩]⟩,⟨[43,51],none,[],[⟨256,.other,false,some ⟨18,[.code],none,false⟩⟩,⟨256,.ws,false,some ⟨18,[.code],none,false⟩⟩,⟨256,.lf,false,some ⟨19,[],none,false⟩⟩,⟨256,.vt,false,some ⟨18,[.code],none,false⟩⟩,⟨256,.ff,false,some ⟨20,[],none,false⟩⟩,⟨256,.cr,false,some ⟨21,[],none,false⟩⟩,⟨256,.cr,true,some ⟨22,[],none,false⟩⟩,⟨47,.other,false,some ⟨18,[.code],none,false⟩⟩,⟨60,.other,false,some ⟨18,[.code],none,false⟩⟩,⟨62,.other,false,some ⟨18,[.code],none,false⟩⟩]⟩,⟨[38],none,[],[⟨256,.other,false,some ⟨11,[.code],none,false⟩⟩,⟨256,.ws,false,some ⟨12,[],none,false⟩⟩,⟨256,.lf,false,some ⟨11,[.code],none,false⟩⟩,⟨256,.vt,false,some ⟨11,[.code],none,false⟩⟩,⟨256,.ff,false,some ⟨11,[.code],none,false⟩⟩,⟨256,.cr,false,some ⟨11,[.code],none,false⟩⟩,⟨256,.cr,true,some ⟨11,[.code],none,false⟩⟩,⟨256,.other,false,some ⟨0,[],some 3,true⟩⟩,⟨47,.other,false,some ⟨11,[.code],none,false⟩⟩,⟨60,.other,false,some ⟨11,[.code],none,false⟩⟩,⟨62,.other,false,some ⟨11,[.code],none,false⟩⟩,⟨256,.other,false,some ⟨13,[],none,false⟩⟩]⟩,⟨[37],none,[],[⟨256,.other,false,some ⟨11,[.code],none,false⟩⟩,⟨256,.ws,false,some ⟨12,[],none,false⟩⟩,⟨256,.lf,false,some ⟨11,[.code],none,false⟩⟩,⟨256,.vt,false,some ⟨11,[.code],none,false⟩⟩,⟨256,.ff,false,some ⟨11,[.code],none,false⟩⟩,⟨256,.cr,false,some ⟨11,[.code],none,false⟩⟩,⟨256,.cr,true,some ⟨11,[.code],none,false⟩⟩,⟨256,.other,false,some ⟨0,[],some 3,true⟩⟩,⟨47,.other,false,some ⟨11,[.code],none,false⟩⟩,⟨60,.other,false,some ⟨11,[.code],none,false⟩⟩,⟨62,.other,false,some ⟨11,[.code],none,false⟩⟩,⟨256,.other,false,some ⟨13,[],none,false⟩⟩]⟩,⟨[31,39],none,[],[⟨256,.other,false,some ⟨23,[.code],none,false⟩⟩,⟨256,.ws,false,some ⟨23,[.code],none,false⟩⟩,⟨256,.lf,false,some ⟨24,[],none,false⟩⟩,⟨256,.vt,false,some ⟨23,[.code],none,false⟩⟩,⟨256,.ff,false,some ⟨25,[],none,false⟩⟩,⟨256,.cr,false,some ⟨26,[],none,false⟩⟩,⟨256,.cr,true,some ⟨27,[],none,false⟩⟩,⟨47,.other,false,some ⟨23,[.code],none,false⟩⟩,⟨60,.other,false,some ⟨23,[.code],none,false⟩⟩,⟨62,.other,false,some ⟨23,[.code],none,false⟩⟩]⟩,⟨[55],none,[],[⟨256,.other,false,some ⟨28,[],none,false⟩⟩,⟨256,.ws,false,some ⟨28,[],none,false⟩⟩,⟨256,.lf,false,none⟩,⟨256,.vt,false,some ⟨28,[],none,false⟩⟩,⟨256,.ff,false,none⟩,⟨256,.cr,false,none⟩,⟨256,.cr,true,none⟩,⟨47,.other,false,some ⟨0,[.code],some 3,true⟩⟩,⟨60,.other,false,some ⟨28,[],none,false⟩⟩,⟨62,.other,false,some ⟨28,[],none,false⟩⟩,⟨256,.other,false,some ⟨29,[],none,false⟩⟩]⟩,⟨[20],none,[],[⟨256,.other,false,some ⟨30,[.comment],none,false⟩⟩,⟨256,.ws,false,some ⟨31,[],none,false⟩⟩,⟨256,.lf,false,some ⟨32,[],none,false⟩⟩,⟨256,.vt,false,some ⟨30,[.comment],none,false⟩⟩,⟨256,.ff,false,some ⟨33,[],none,false⟩⟩,⟨256,.cr,false,some ⟨34,[],none,false⟩⟩,⟨256,.cr,true,some ⟨35,[],none,false⟩⟩,⟨256,.other,false,some ⟨36,[.comment],none,false⟩⟩,⟨47,.other,false,some ⟨30,[.comment],none,false⟩⟩,⟨60,.other,false,some ⟨30,[.comment],none,false⟩⟩,⟨62,.other,false,some ⟨30,[.comment],none,false⟩⟩]⟩,⟨[17],some 2,[],[⟨256,.other,false,some ⟨37,[],some 2,false⟩⟩,⟨256,.ws,false,some ⟨37,[],some 2,false⟩⟩,⟨256,.lf,false,none⟩,⟨256,.vt,false,some ⟨37,[],some 2,false⟩⟩,⟨256,.ff,false,none⟩,⟨256,.cr,false,none⟩,⟨256,.cr,true,none⟩,⟨47,.other,false,some ⟨37,[],some 2,false⟩⟩,⟨60,.other,false,some ⟨37,[],some 2,false⟩⟩,⟨62,.other,false,some ⟨37,[],some 2,false⟩⟩]⟩,⟨[1],none,[],[⟨256,.other,false,none⟩,⟨256,.ws,false,none⟩,⟨256,.lf,false,none⟩,⟨256,.vt,false,none⟩,⟨256,.ff,false,none⟩,⟨256,.cr,false,none⟩,⟨256,.cr,true,none⟩,⟨47,.other,false,none⟩,⟨60,.other,false,none⟩,⟨62,.other,false,none⟩,⟨256,.other,false,some ⟨38,[],none,false⟩⟩]⟩,⟨[52],none,[],[⟨256,.other,false,some ⟨8,[.code],none,false⟩⟩,⟨256,.ws,false,some ⟨9,[],none,false⟩⟩,⟨256,.lf,false,some ⟨8,[.code],none,false⟩⟩,⟨256,.vt,false,some ⟨8,[.code],none,false⟩⟩,⟨256,.ff,false,some ⟨8,[.code],none,false⟩⟩,⟨256,.cr,false,some ⟨8,[.code],none,false⟩⟩,⟨256,.cr,true,some ⟨8,[.code],none,false⟩⟩,⟨256,.other,false,some ⟨0,[],some 3,true⟩⟩,⟨47,.other,false,some ⟨8,[.code],none,false⟩⟩,⟨60,.other,false,some ⟨8,[.code],none,false⟩⟩,⟨62,.other,false,some ⟨8,[.code],none,false⟩⟩,⟨256,.other,false,some ⟨10,[],none,false⟩⟩]⟩,⟨[46],none,[],[⟨256,.other,false,some ⟨8,[.setEnt .internalNl,.emb (.cb 2),.code],none,false⟩⟩,⟨256,.ws,false,some ⟨9,[.setEnt .internalNl,.emb (.cb 2)],none,false⟩⟩,⟨256,.lf,false,some ⟨8,[.setEnt .internalNl,.emb (.cb 2),.code],none,false⟩⟩,⟨256,.vt,false,some ⟨8,[.setEnt .internalNl,.emb (.cb 2),.code],none,false⟩⟩,⟨256,.ff,false,some ⟨8,[.setEnt .internalNl,.emb (.cb 2),.code],none,false⟩⟩,⟨256,.cr,false,some ⟨8,[.setEnt .internalNl,.emb (.cb 2),.code],none,false⟩⟩,⟨256,.cr,true,some ⟨8,[.setEnt .internalNl,.emb (.cb 2),.code],none,false⟩⟩,⟨256,.other,false,some ⟨0,[.setEnt .internalNl,.emb (.cb 2)],some 3,true⟩⟩,⟨47,.other,false,some ⟨8,[.setEnt .internalNl,.emb (.cb 2),.code],none,false⟩⟩,⟨60,.other,false,some ⟨8,[.setEnt .internalNl,.emb (.cb 2),.code],none,false⟩⟩,⟨62,.other,false,some ⟨8,[.setEnt .internalNl,.emb (.cb 2),.code],none,false⟩⟩,⟨256,.other,false,some ⟨10,[.setEnt .internalNl,.emb (.cb 2)],none,false⟩⟩]⟩,⟨[47],none,[],[⟨256,.other,false,some ⟨8,[.setEnt .internalNl,.emb (.cb 2),.code],none,false⟩⟩,⟨256,.ws,false,some ⟨9,[.setEnt .internalNl,.emb (.cb 2)],none,false⟩⟩,⟨256,.lf,false,some ⟨8,[.setEnt .internalNl,.emb (.cb 2),.code],none,false⟩⟩,⟨256,.vt,false,some ⟨8,[.setEnt .internalNl,.emb (.cb 2),.code],none,false⟩⟩,⟨256,.ff,false,some ⟨8,[.setEnt .internalNl,.emb (.cb 2),.code],none,false⟩⟩,⟨256,.cr,false,some ⟨8,[.setEnt .internalNl,.emb (.cb 2),.code],none,false⟩⟩,⟨256,.cr,true,some ⟨8,[.setEnt .internalNl,.emb (.cb 2),.code],none,false⟩⟩,⟨256,.other,false,some ⟨0,[.setEnt .internalNl,.emb (.cb 2)],some 3,true⟩⟩,⟨47,.other,false,some ⟨8,[.setEnt .internalNl,.emb (.cb 2),.code],none,false⟩⟩,⟨60,.other,false,some ⟨8,[.setEnt .internalNl,.emb (.cb 2),.code],none,false⟩⟩,⟨62,.other,false,some ⟨8,[.setEnt .internalNl,.emb (.cb 2),.code],none,false⟩⟩,⟨256,.other,false,some ⟨10,[.setEnt .internalNl,.emb (.cb 2)],none,false⟩⟩]⟩,⟨[44],none,[],[⟨256,.other,false,none⟩,⟨256,.ws,false,none⟩,⟨256,.lf,false,some ⟨39,[],none,false⟩⟩,⟨256,.vt,false,none⟩,⟨256,.ff,false,none⟩,⟨256,.cr,false,none⟩,⟨256,.cr,true,none⟩,⟨47,.other,false,none⟩,⟨60,.other,false,none⟩,⟨62,.other,false,none⟩]⟩,⟨[44,48],none,[],[⟨256,.other,false,some ⟨8,[.setEnt .internalNl,.emb (.cb 2),.code],none,false⟩⟩,⟨256,.ws,false,some ⟨9,[.setEnt .internalNl,.emb (.cb 2)],none,false⟩⟩,⟨256,.lf,false,some ⟨40,[.setEnt .internalNl,.emb (.cb 2),.code],none,false⟩⟩,⟨256,.vt,false,some ⟨8,[.setEnt .internalNl,.emb (.cb 2),.code],none,false⟩⟩,⟨256,.ff,false,some ⟨8,[.setEnt .internalNl,.emb (.cb 2),.code],none,false⟩⟩,⟨256,.cr,false,some ⟨8,[.setEnt .internalNl,.emb (.cb 2),.code],none,false⟩⟩,⟨256,.cr,true,some ⟨8,[.setEnt .internalNl,.emb (.cb 2),.code],none,false⟩⟩,⟨256,.other,false,some ⟨0,[.setEnt .internalNl,.emb (.cb 2)],some 3,true⟩⟩,⟨47,.other,false,some ⟨8,[.setEnt .internalNl,.emb (.cb 2),.code],none,false⟩⟩,⟨60,.other,false,some ⟨8,[.setEnt .internalNl,.emb (.cb 2),.code],none,false⟩⟩,⟨62,.other,false,some ⟨8,[.setEnt .internalNl,.emb (.cb 2),.code],none,false⟩⟩,⟨256,.other,false,some ⟨10,[.setEnt .internalNl,.emb (.cb 2)],none,false⟩⟩]⟩,⟨[40],none,[],[⟨256,.other,false,some ⟨11,[.code],none,false⟩⟩,⟨256,.ws,false,some ⟨12,[],none,false⟩⟩,⟨256,.lf,false,some ⟨11,[.code],none,false⟩⟩,⟨256,.vt,false,some ⟨11,[.code],none,false⟩⟩,⟨256,.ff,false,some ⟨11,[.code],none,false⟩⟩,⟨256,.cr,false,some ⟨11,[.code],none,false⟩⟩,⟨256,.cr,true,some ⟨11,[.code],none,false⟩⟩,⟨256,.other,false,some ⟨0,[],some 3,true⟩⟩,⟨47,.other,false,some ⟨11,[.code],none,false⟩⟩,⟨60,.other,false,some ⟨11,[.code],none,false⟩⟩,⟨62,.other,false,some ⟨11,[.code],none,false⟩⟩,⟨256,.other,false,some ⟨13,[],none,false⟩⟩]⟩,⟨[34],none,[],[⟨256,.other,false,some ⟨11,[.setEnt .internalNl,.emb (.cb 2),.code],none,false⟩⟩,⟨256,.ws,false,some ⟨12,[.setEnt .internalNl,.emb (.cb 2)],none,false⟩⟩,⟨256,.lf,false,some ⟨11,[.setEnt .internalNl,.emb (.cb 2),.code],none,false⟩⟩,⟨256,.vt,false,some ⟨11,[.setEnt .internalNl,.emb (.cb 2),.code],none,false⟩⟩,⟨256,.ff,false,some ⟨11,[.setEnt .internalNl,.emb (.cb 2),.code],none,false⟩⟩,⟨256,.cr,false,some ⟨11,[.setEnt .internalNl,.emb (.cb 2),.code],none,false⟩⟩,⟨256,.cr,true,some ⟨11,[.setEnt .internalNl,.emb (.cb 2),.code],none,false⟩⟩,⟨256,.other,false,some ⟨0,[.setEnt .internalNl,.emb (.cb 2)],some 3,true⟩⟩,⟨47,.other,false,some ⟨11,[.setEnt .internalNl,.emb (.cb 2),.code],none,false⟩⟩,⟨60,.other,false,some ⟨11,[.setEnt .internalNl,.emb (.cb 2),.code],none,false⟩⟩,⟨62,.other,false,some ⟨11,[.setEnt .internalNl,.emb (.cb 2),.code],none,false⟩⟩,⟨256,.other,false,some ⟨13,[.setEnt .internalNl,.emb (.cb 2)],none,false⟩⟩]⟩,⟨[35],none,[],[⟨256,.other,false,some ⟨11,[.setEnt .internalNl,.emb (.cb 2),.code],none,false⟩⟩,⟨256,.ws,false,some ⟨12,[.setEnt .internalNl,.emb (.cb 2)],none,false⟩⟩,⟨256,.lf,false,some ⟨11,[.setEnt .internalNl,.emb (.cb 2),.code],none,false⟩⟩,⟨256,.vt,false,some ⟨11,[.setEnt .internalNl,.emb (.cb 2),.code],none,false⟩⟩,⟨256,.ff,false,some ⟨11,[.setEnt .internalNl,.emb (.cb 2),.code],none,false⟩⟩,⟨256,.cr,false,some ⟨11,[.setEnt .internalNl,.emb (.cb 2),.code],none,false⟩⟩,⟨256,.cr,true,some ⟨11,[.setEnt .internalNl,.emb (.cb 2),.code],none,false⟩⟩,⟨256,.other,false,some ⟨0,[.setEnt .internalNl,.emb (.cb 2)],some 3,true⟩⟩,⟨47,.other,false,some ⟨11,[.setEnt .internalNl,.emb (.cb 2),.code],none,false⟩⟩,⟨60,.other,false,some ⟨11,[.setEnt .internalNl,.emb (.cb 2),.code],none,false⟩⟩,⟨62,.other,false,some ⟨11,[.setEnt .internalNl,.emb (.cb 2),.code],none,false⟩⟩,⟨256,.other,false,some ⟨13,[.setEnt .internalNl,.emb (.cb 2)],none,false⟩⟩]⟩,⟨[32],none,[],[⟨256,.other,false,none⟩,⟨256,.ws,false,none⟩,⟨256,.lf,false,some ⟨41,[],none,false⟩⟩,⟨256,.vt,false,none⟩,⟨256,.ff,false,none⟩,⟨256,.cr,false,none⟩,⟨256,.cr,true,none⟩,⟨47,.other,false,none⟩,⟨60,.other,false,none⟩,⟨62,.other,false,none⟩]⟩,⟨[32,36],none,[],[⟨256,.other,false,some ⟨11,[.setEnt .internalNl,.emb (.cb 2),.code],none,false⟩⟩,⟨256,.ws,false,some ⟨12,[.setEnt .internalNl,.emb (.cb 2)],none,false⟩⟩,⟨256,.lf,false,some ⟨42,[.setEnt .internalNl,.emb (.cb 2),.code],none,false⟩⟩,⟨256,.vt,false,some ⟨11,[.setEnt .internalNl,.emb (.cb 2),.code],none,false⟩⟩,⟨256,.ff,false,some ⟨11,[.setEnt .internalNl,.emb (.cb 2),.code],none,false⟩⟩,⟨256,.cr,false,some ⟨11,[.setEnt .internalNl,.emb (.cb 2),.code],none,false⟩⟩,⟨256,.cr,true,some ⟨11,[.setEnt .internalNl,.emb (.cb 2),.code],none,false⟩⟩,⟨256,.other,false,some ⟨0,[.setEnt .internalNl,.emb (.cb 2)],some 3,true⟩⟩,⟨47,.other,false,some ⟨11,[.setEnt .internalNl,.emb (.cb 2),.code],none,false⟩⟩,⟨60,.other,false,some ⟨11,[.setEnt .internalNl,.emb (.cb 2),.code],none,false⟩⟩,⟨62,.other,false,some ⟨11,[.setEnt .internalNl,.emb (.cb 2),.code],none,false⟩⟩,⟨256,.other,false,some ⟨13,[.setEnt .internalNl,.emb (.cb 2)],none,false⟩⟩]⟩,⟨[56],none,[],[⟨256,.other,false,some ⟨28,[],none,false⟩⟩,⟨256,.ws,false,some ⟨28,[],none,false⟩⟩,⟨256,.lf,false,none⟩,⟨256,.vt,false,some ⟨28,[],none,false⟩⟩,⟨256,.ff,false,none⟩,⟨256,.cr,false,none⟩,⟨256,.cr,true,none⟩,⟨47,.other,false,some ⟨0,[.code],some 3,true⟩⟩,⟨60,.other,false,some ⟨28,[],none,false⟩⟩,⟨62,.other,false,some ⟨28,[],none,false⟩⟩,⟨256,.other,false,some ⟨29,[],none,false⟩⟩]⟩,⟨[57],none,[],[⟨256,.other,false,some ⟨43,[],none,false⟩⟩,⟨256,.ws,false,some ⟨43,[],none,false⟩⟩,⟨256,.lf,false,none⟩,⟨256,.vt,false,some ⟨43,[],none,false⟩⟩,⟨256,.ff,false,none⟩,⟨256,.cr,false,none⟩,⟨256,.cr,true,none⟩,⟨47,.other,false,some ⟨43,[],none,false⟩⟩,⟨60,.other,false,some ⟨43,[],none,false⟩⟩,⟨62,.other,false,some ⟨43,[],none,false⟩⟩]⟩,⟨[27],none,[],[⟨256,.other,false,some ⟨30,[.comment],none,false⟩⟩,⟨256,.ws,false,some ⟨31,[],none,false⟩⟩,⟨256,.lf,false,some ⟨32,[],none,false⟩⟩,⟨256,.vt,false,some ⟨30,[.comment],none,false⟩⟩,⟨256,.ff,false,some ⟨33,[],none,false⟩⟩,⟨256,.cr,false,some ⟨34,[],none,false⟩⟩,⟨256,.cr,true,some ⟨35,[],none,false⟩⟩,⟨256,.other,false,some ⟨36,[.comment],none,false⟩⟩,⟨47,.other,false,some ⟨30,[.comment],none,false⟩⟩,⟨60,.other,false,some ⟨30,[.comment],none,false⟩⟩,⟨62,.other,false,some ⟨30,[.comment],none,false⟩⟩]⟩,⟨[26],none,[],[⟨256,.other,false,some ⟨30,[.comment],none,false⟩⟩,⟨256,.ws,false,some ⟨31,[],none,false⟩⟩,⟨256,.lf,false,some ⟨32,[],none,false⟩⟩,⟨256,.vt,false,some ⟨30,[.comment],none,false⟩⟩,⟨256,.ff,false,some ⟨33,[],none,false⟩⟩,⟨256,.cr,false,some ⟨34,[],none,false⟩⟩,⟨256,.cr,true,some ⟨35,[],none,false⟩⟩,⟨256,.other,false,some ⟨36,[.comment],none,false⟩⟩,⟨47,.other,false,some ⟨30,[.comment],none,false⟩⟩,⟨60,.other,false,some ⟨30,[.comment],none,false⟩⟩,⟨62,.other,false,some ⟨30,[.comment],none,false⟩⟩]⟩,⟨[23],none,[],[⟨256,.other,false,some ⟨30,[.setEnt .internalNl,.emb (.cb 2),.comment],none,false⟩⟩,⟨256,.ws,false,some ⟨31,[.setEnt .internalNl,.emb (.cb 2)],none,false⟩⟩,⟨256,.lf,false,some ⟨32,[.setEnt .internalNl,.emb (.cb 2)],none,false⟩⟩,⟨256,.vt,false,some ⟨30,[.setEnt .internalNl,.emb (.cb 2),.comment],none,false⟩⟩,⟨256,.ff,false,some ⟨33,[.setEnt .internalNl,.emb (.cb 2)],none,false⟩⟩,⟨256,.cr,false,some ⟨34,[.setEnt .internalNl,.emb (.cb 2)],none,false⟩⟩,⟨256,.cr,true,some ⟨35,[.setEnt .internalNl,.emb (.cb 2)],none,false⟩⟩,⟨256,.other,false,some ⟨36,[.setEnt .internalNl,.emb (.cb 2),.comment],none,false⟩⟩,⟨47,.other,false,some ⟨30,[.setEnt .internalNl,.emb (.cb 2),.comment],none,false⟩⟩,⟨60,.other,false,some ⟨30,[.setEnt .internalNl,.emb (.cb 2),.comment],none,false⟩⟩,⟨62,.other,false,some ⟨30,[.setEnt .internalNl,.emb (.cb 2),.comment],none,false⟩⟩]⟩,⟨[24],none,[],[⟨256,.other,false,some ⟨30,[.setEnt .internalNl,.emb (.cb 2),.comment],none,false⟩⟩,⟨256,.ws,false,some ⟨31,[.setEnt .internalNl,.emb (.cb 2)],none,false⟩⟩,⟨256,.lf,false,some ⟨32,[.setEnt .internalNl,.emb (.cb 2)],none,false⟩⟩,⟨256,.vt,false,some ⟨30,[.setEnt .internalNl,.emb (.cb 2),.comment],none,false⟩⟩,⟨256,.ff,false,some ⟨33,[.setEnt .internalNl,.emb (.cb 2)],none,false⟩⟩,⟨256,.cr,false,some ⟨34,[.setEnt .internalNl,.emb (.cb 2)],none,false⟩⟩,⟨256,.cr,true,some ⟨35,[.setEnt .internalNl,.emb (.cb 2)],none,false⟩⟩,⟨256,.other,false,some ⟨36,[.setEnt .internalNl,.emb (.cb 2),.comment],none,false⟩⟩,⟨47,.other,false,some ⟨30,[.setEnt .internalNl,.emb (.cb 2),.comment],none,false⟩⟩,⟨60,.other,false,some ⟨30,[.setEnt .internalNl,.emb (.cb 2),.comment],none,false⟩⟩,⟨62,.other,false,some ⟨30,[.setEnt .internalNl,.emb (.cb 2),.comment],none,false⟩⟩]⟩,⟨[21],none,[],[⟨256,.other,false,none⟩,⟨256,.ws,false,none⟩,⟨256,.lf,false,some ⟨44,[],none,false⟩⟩,⟨256,.vt,false,none⟩,⟨256,.ff,false,none⟩,⟨256,.cr,false,none⟩,⟨256,.cr,true,none⟩,⟨47,.other,false,none⟩,⟨60,.other,false,none⟩,⟨62,.other,false,none⟩]⟩,⟨[21,25],none,[],[⟨256,.other,false,some ⟨30,[.setEnt .internalNl,.emb (.cb 2),.comment],none,false⟩⟩,⟨256,.ws,false,some ⟨31,[.setEnt .internalNl,.emb (.cb 2)],none,false⟩⟩,⟨256,.lf,false,some ⟨45,[.setEnt .internalNl,.emb (.cb 2)],none,false⟩⟩,⟨256,.vt,false,some ⟨30,[.setEnt .internalNl,.emb (.cb 2),.comment],none,false⟩⟩,⟨256,.ff,false,some ⟨33,[.setEnt .internalNl,.emb (.cb 2)],none,false⟩⟩,⟨256,.cr,false,some ⟨34,[.setEnt .internalNl,.emb (.cb 2)],none,false⟩⟩,⟨256,.cr,true,some ⟨35,[.setEnt .internalNl,.emb (.cb 2)],none,false⟩⟩,⟨256,.other,false,some ⟨36,[.setEnt .internalNl,.emb (.cb 2),.comment],none,false⟩⟩,⟨47,.other,false,some ⟨30,[.setEnt .internalNl,.emb (.cb 2),.comment],none,false⟩⟩,⟨60,.other,false,some ⟨30,[.setEnt .internalNl,.emb (.cb 2),.comment],none,false⟩⟩,⟨62,.other,false,some ⟨30,[.setEnt .internalNl,.emb (.cb 2),.comment],none,false⟩⟩]⟩,⟨[27,28],none,[],[⟨256,.other,false,some ⟨30,[.comment],none,false⟩⟩,⟨256,.ws,false,some ⟨31,[],none,false⟩⟩,⟨256,.lf,false,some ⟨32,[],none,false⟩⟩,⟨256,.vt,false,some ⟨30,[.comment],none,false⟩⟩,⟨256,.ff,false,some ⟨33,[],none,false⟩⟩,⟨256,.cr,false,some ⟨34,[],none,false⟩⟩,⟨256,.cr,true,some ⟨35,[],none,false⟩⟩,⟨256,.other,false,some ⟨36,[.comment],none,false⟩⟩,⟨47,.other,false,some ⟨0,[],some 2,true⟩⟩,⟨60,.other,false,some ⟨30,[.comment],none,false⟩⟩,⟨62,.other,false,some ⟨30,[.comment],none,false⟩⟩]⟩,⟨[18],some 2,[],[⟨256,.other,false,some ⟨37,[],some 2,false⟩⟩,⟨256,.ws,false,some ⟨37,[],some 2,false⟩⟩,⟨256,.lf,false,none⟩,⟨256,.vt,false,some ⟨37,[],some 2,false⟩⟩,⟨256,.ff,false,none⟩,⟨256,.cr,false,none⟩,⟨256,.cr,true,none⟩,⟨47,.other,false,some ⟨37,[],some 2,false⟩⟩,⟨60,.other,false,some ⟨37,[],some 2,false⟩⟩,⟨62,.other,false,some ⟨37,[],some 2,false⟩⟩]⟩,⟨[2],none,[],[⟨256,.other,false,none⟩,⟨256,.ws,false,none⟩,⟨256,.lf,false,none⟩,⟨256,.vt,false,none⟩,⟨256,.ff,false,none⟩,⟨256,.cr,false,none⟩,⟨256,.cr,true,none⟩,⟨47,.other,false,none⟩,⟨60,.other,false,none⟩,⟨62,.other,false,none⟩,⟨256,.other,false,some ⟨46,[],none,false⟩⟩]⟩,⟨[45],none,[],[⟨256,.other,false,some ⟨8,[.setEnt .internalNl,.emb (.cb 2),.code],none,false⟩⟩,⟨256,.ws,false,some ⟨9,[.setEnt .internalNl,.emb (.cb 2)],none,false⟩⟩,⟨256,.lf,false,some ⟨8,[.setEnt .internalNl,.emb (.cb 2),.code],none,false⟩⟩,⟨256,.vt,false,some ⟨8,[.setEnt .internalNl,.emb (.cb 2),.code],none,false⟩⟩,⟨256,.ff,false,some ⟨8,[.setEnt .internalNl,.emb (.cb 2),.code],none,false⟩⟩,⟨256,.cr,false,some ⟨8,[.setEnt .internalNl,.emb (.cb 2),.code],none,false⟩⟩,⟨256,.cr,true,some ⟨8,[.setEnt .internalNl,.emb (.cb 2),.code],none,false⟩⟩,⟨256,.other,false,some ⟨0,[.setEnt .internalNl,.emb (.cb 2)],some 3,true⟩⟩,⟨47,.other,false,some ⟨8,[.setEnt .internalNl,.emb (.cb 2),.code],none,false⟩⟩,⟨60,.other,false,some ⟨8,[.setEnt .internalNl,.emb (.cb 2),.code],none,false⟩⟩,⟨62,.other,false,some ⟨8,[.setEnt .internalNl,.emb (.cb 2),.code],none,false⟩⟩,⟨256,.other,false,some ⟨10,[.setEnt .internalNl,.emb (.cb 2)],none,false⟩⟩]⟩,⟨[45,50],none,[],[⟨256,.other,false,some ⟨8,[.setEnt .internalNl,.emb (.cb 2),.code],none,false⟩⟩,⟨256,.ws,false,some ⟨9,[.setEnt .internalNl,.emb (.cb 2)],none,false⟩⟩,⟨256,.lf,false,some ⟨8,[.setEnt .internalNl,.emb (.cb 2),.code],none,false⟩⟩,⟨256,.vt,false,some ⟨8,[.setEnt .internalNl,.emb (.cb 2),.code],none,false⟩⟩,⟨256,.ff,false,some ⟨8,[.setEnt .internalNl,.emb (.cb 2),.code],none,false⟩⟩,⟨256,.cr,false,some ⟨8,[.setEnt .internalNl,.emb (.cb 2),.code],none,false⟩⟩,⟨256,.cr,true,some ⟨8,[.setEnt .internalNl,.emb (.cb 2),.code],none,false⟩⟩,⟨256,.other,false,some ⟨0,[.setEnt .internalNl,.emb (.cb 2)],some 3,true⟩⟩,⟨47,.other,false,some ⟨8,[.setEnt .internalNl,.emb (.cb 2),.code],none,false⟩⟩,⟨60,.other,false,some ⟨8,[.setEnt .internalNl,.emb (.cb 2),.code],none,false⟩⟩,⟨62,.other,false,some ⟨8,[.setEnt .internalNl,.emb (.cb 2),.code],none,false⟩⟩,⟨256,.other,false,some ⟨10,[.setEnt .internalNl,.emb (.cb 2)],none,false⟩⟩]⟩,⟨[33],none,[],[⟨256,.other,false,some ⟨11,[.setEnt .internalNl,.emb (.cb 2),.code],none,false⟩⟩,⟨256,.ws,false,some ⟨12,[.setEnt .internalNl,.emb (.cb 2)],none,false⟩⟩,⟨256,.lf,false,some ⟨11,[.setEnt .internalNl,.emb (.cb 2),.code],none,false⟩⟩,⟨256,.vt,false,some ⟨11,[.setEnt .internalNl,.emb (.cb 2),.code],none,false⟩⟩,⟨256,.ff,false,some ⟨11,[.setEnt .internalNl,.emb (.cb 2),.code],none,false⟩⟩,⟨256,.cr,false,some ⟨11,[.setEnt .internalNl,.emb (.cb 2),.code],none,false⟩⟩,⟨256,.cr,true,some ⟨11,[.setEnt .internalNl,.emb (.cb 2),.code],none,false⟩⟩,⟨256,.other,false,some ⟨0,[.setEnt .internalNl,.emb (.cb 2)],some 3,true⟩⟩,⟨47,.other,false,some ⟨11,[.setEnt .internalNl,.emb (.cb 2),.code],none,false⟩⟩,⟨60,.other,false,some ⟨11,[.setEnt .internalNl,.emb (.cb 2),.code],none,false⟩⟩,⟨62,.other,false,some ⟨11,[.setEnt .internalNl,.emb (.cb 2),.code],none,false⟩⟩,⟨256,.other,false,some ⟨13,[.setEnt .internalNl,.emb (.cb 2)],none,false⟩⟩]⟩,⟨[33,38],none,[],[⟨256,.other,false,some ⟨11,[.setEnt .internalNl,.emb (.cb 2),.code],none,false⟩⟩,⟨256,.ws,false,some ⟨12,[.setEnt .internalNl,.emb (.cb 2)],none,false⟩⟩,⟨256,.lf,false,some ⟨11,[.setEnt .internalNl,.emb (.cb 2),.code],none,false⟩⟩,⟨256,.vt,false,some ⟨11,[.setEnt .internalNl,.emb (.cb 2),.code],none,false⟩⟩,⟨256,.ff,false,some ⟨11,[.setEnt .internalNl,.emb (.cb 2),.code],none,false⟩⟩,⟨256,.cr,false,some ⟨11,[.setEnt .internalNl,.emb (.cb 2),.code],none,false⟩⟩,⟨256,.cr,true,some ⟨11,[.setEnt .internalNl,.emb (.cb 2),.code],none,false⟩⟩,⟨256,.other,false,some ⟨0,[.setEnt .internalNl,.emb (.cb 2)],some 3,true⟩⟩,⟨47,.other,false,some ⟨11,[.setEnt .internalNl,.emb (.cb 2),.code],none,false⟩⟩,⟨60,.other,false,some ⟨11,[.setEnt .internalNl,.emb (.cb 2),.code],none,false⟩⟩,⟨62,.other,false,some ⟨11,[.setEnt .internalNl,.emb (.cb 2),.code],none,false⟩⟩,⟨256,.other,false,some ⟨13,[.setEnt .internalNl,.emb (.cb 2)],none,false⟩⟩]⟩,⟨[58],none,[],[⟨256,.other,false,some ⟨28,[],none,false⟩⟩,⟨256,.ws,false,some ⟨28,[],none,false⟩⟩,⟨256,.lf,false,none⟩,⟨256,.vt,false,some ⟨28,[],none,false⟩⟩,⟨256,.ff,false,none⟩,⟨256,.cr,false,none⟩,⟨256,.cr,true,none⟩,⟨47,.other,false,some ⟨0,[.code],some 3,true⟩⟩,⟨60,.other,false,some ⟨28,[],none,false⟩⟩,⟨62,.other,false,some ⟨28,[],none,false⟩⟩,⟨256,.other,false,some ⟨29,[],none,false⟩⟩]⟩,⟨[22],none,[],[⟨256,.other,false,some ⟨30,[.setEnt .internalNl,.emb (.cb 2),.comment],none,false⟩⟩,⟨256,.ws,false,some ⟨31,[.setEnt .internalNl,.emb (.cb 2)],none,false⟩⟩,⟨256,.lf,false,some ⟨32,[.setEnt .internalNl,.emb (.cb 2)],none,false⟩⟩,⟨256,.vt,false,some ⟨30,[.setEnt .internalNl,.emb (.cb 2),.comment],none,false⟩⟩,⟨256,.ff,false,some ⟨33,[.setEnt .internalNl,.emb (.cb 2)],none,false⟩⟩,⟨256,.cr,false,some ⟨34,[.setEnt .internalNl,.emb (.cb 2)],none,false⟩⟩,⟨256,.cr,true,some ⟨35,[.setEnt .internalNl,.emb (.cb 2)],none,false⟩⟩,⟨256,.other,false,some ⟨36,[.setEnt .internalNl,.emb (.cb 2),.comment],none,false⟩⟩,⟨47,.other,false,some ⟨30,[.setEnt .internalNl,.emb (.cb 2),.comment],none,false⟩⟩,⟨60,.other,false,some ⟨30,[.setEnt .internalNl,.emb (.cb 2),.comment],none,false⟩⟩,⟨62,.other,false,some ⟨30,[.setEnt .internalNl,.emb (.cb 2),.comment],none,false⟩⟩]⟩,⟨[22,23],none,[],[⟨256,.other,false,some ⟨30,[.setEnt .internalNl,.emb (.cb 2),.comment],none,false⟩⟩,⟨256,.ws,false,some ⟨31,[.setEnt .internalNl,.emb (.cb 2)],none,false⟩⟩,⟨256,.lf,false,some ⟨32,[.setEnt .internalNl,.emb (.cb 2)],none,false⟩⟩,⟨256,.vt,false,some ⟨30,[.setEnt .internalNl,.emb (.cb 2),.comment],none,false⟩⟩,⟨256,.ff,false,some ⟨33,[.setEnt .internalNl,.emb (.cb 2)],none,false⟩⟩,⟨256,.cr,false,some ⟨34,[.setEnt .internalNl,.emb (.cb 2)],none,false⟩⟩,⟨256,.cr,true,some ⟨35,[.setEnt .internalNl,.emb (.cb 2)],none,false⟩⟩,⟨256,.other,false,some ⟨36,[.setEnt .internalNl,.emb (.cb 2),.comment],none,false⟩⟩,⟨47,.other,false,some ⟨30,[.setEnt .internalNl,.emb (.cb 2),.comment],none,false⟩⟩,⟨60,.other,false,some ⟨30,[.setEnt .internalNl,.emb (.cb 2),.comment],none,false⟩⟩,⟨62,.other,false,some ⟨30,[.setEnt .internalNl,.emb (.cb 2),.comment],none,false⟩⟩]⟩,⟨[3],none,[],[⟨256,.other,false,none⟩,⟨256,.ws,false,none⟩,⟨256,.lf,false,none⟩,⟨256,.vt,false,none⟩,⟨256,.ff,false,none⟩,⟨256,.cr,false,none⟩,⟨256,.cr,true,none⟩,⟨47,.other,false,none⟩,⟨60,.other,false,none⟩,⟨62,.other,false,none⟩,⟨256,.other,false,some ⟨47,[],none,false⟩⟩]⟩,⟨[4],none,[],[⟨256,.other,false,none⟩,⟨256,.ws,false,none⟩,⟨256,.lf,false,none⟩,⟨256,.vt,false,none⟩,⟨256,.ff,false,none⟩,⟨256,.cr,false,none⟩,⟨256,.cr,true,none⟩,⟨47,.other,false,none⟩,⟨60,.other,false,none⟩,⟨62,.other,false,none⟩,⟨256,.other,false,some ⟨48,[],none,false⟩⟩]⟩,⟨[5],none,[],[⟨256,.other,false,none⟩,⟨256,.ws,false,none⟩,⟨256,.lf,false,none⟩,⟨256,.vt,false,none⟩,⟨256,.ff,false,none⟩,⟨256,.cr,false,none⟩,⟨256,.cr,true,none⟩,⟨47,.other,false,none⟩,⟨60,.other,false,none⟩,⟨62,.other,false,none⟩,⟨256,.other,false,some ⟨49,[],none,false⟩⟩]⟩,⟨[6],none,[],[⟨256,.other,false,none⟩,⟨256,.ws,false,none⟩,⟨256,.lf,false,none⟩,⟨256,.vt,false,none⟩,⟨256,.ff,false,none⟩,⟨256,.cr,false,none⟩,⟨256,.cr,true,none⟩,⟨47,.other,false,none⟩,⟨60,.other,false,none⟩,⟨62,.other,false,none⟩,⟨256,.other,false,some ⟨50,[],none,false⟩⟩]⟩,⟨[7],none,[],[⟨256,.other,false,none⟩,⟨256,.ws,false,some ⟨51,[],none,false⟩⟩,⟨256,.lf,false,some ⟨52,[.setEnt .internalNl],none,false⟩⟩,⟨256,.vt,false,none⟩,⟨256,.ff,false,some ⟨53,[.setEnt .internalNl],none,false⟩⟩,⟨256,.cr,false,some ⟨54,[],none,false⟩⟩,⟨256,.cr,true,some ⟨55,[.setEnt .internalNl],none,false⟩⟩,⟨47,.other,false,none⟩,⟨60,.other,false,none⟩,⟨62,.other,false,some ⟨0,[.emb .outry,.code,.emb .back],some 0,true⟩⟩]⟩,⟨[8],none,[],[⟨256,.other,false,none⟩,⟨256,.ws,false,some ⟨51,[],none,false⟩⟩,⟨256,.lf,false,some ⟨52,[.setEnt .internalNl],none,false⟩⟩,⟨256,.vt,false,none⟩,⟨256,.ff,false,some ⟨53,[.setEnt .internalNl],none,false⟩⟩,⟨256,.cr,false,some ⟨54,[],none,false⟩⟩,⟨256,.cr,true,some ⟨55,[.setEnt .internalNl],none,false⟩⟩,⟨47,.other,false,none⟩,⟨60,.other,false,none⟩,⟨62,.other,false,some ⟨0,[.emb .outry,.code,.emb .back],some 0,true⟩⟩]⟩,⟨[11],none,[],[⟨256,.other,false,none⟩,⟨256,.ws,false,some ⟨51,[.cb],none,false⟩⟩,⟨256,.lf,false,some ⟨52,[.setEnt .internalNl,.cb],none,false⟩⟩,⟨256,.vt,false,none⟩,⟨256,.ff,false,some ⟨53,[.setEnt .internalNl,.cb],none,false⟩⟩,⟨256,.cr,false,some ⟨54,[.cb],none,false⟩⟩,⟨256,.cr,true,some ⟨55,[.setEnt .internalNl,.cb],none,false⟩⟩,⟨47,.other,false,none⟩,⟨60,.other,false,none⟩,⟨62,.other,false,some ⟨0,[.cb,.emb .outry,.code,.emb .back],some 0,true⟩⟩]⟩,⟨[12],none,[],[⟨256,.other,false,none⟩,⟨256,.ws,false,some ⟨51,[.cb],none,false⟩⟩,⟨256,.lf,false,some ⟨52,[.setEnt .internalNl,.cb],none,false⟩⟩,⟨256,.vt,false,none⟩,⟨256,.ff,false,some ⟨53,[.setEnt .internalNl,.cb],none,false⟩⟩,⟨256,.cr,false,some ⟨54,[.cb],none,false⟩⟩,⟨256,.cr,true,some ⟨55,[.setEnt .internalNl,.cb],none,false⟩⟩,⟨47,.other,false,none⟩,⟨60,.other,false,none⟩,⟨62,.other,false,some ⟨0,[.cb,.emb .outry,.code,.emb .back],some 0,true⟩⟩]⟩,⟨[9],none,[],[⟨256,.other,false,none⟩,⟨256,.ws,false,none⟩,⟨256,.lf,false,some ⟨56,[.setEnt .internalNl],none,false⟩⟩,⟨256,.vt,false,none⟩,⟨256,.ff,false,none⟩,⟨256,.cr,false,none⟩,⟨256,.cr,true,none⟩,⟨47,.other,false,none⟩,⟨60,.other,false,none⟩,⟨62,.other,false,none⟩]⟩,⟨[9,13],none,[],[⟨256,.other,false,none⟩,⟨256,.ws,false,some ⟨51,[.cb],none,false⟩⟩,⟨256,.lf,false,some ⟨57,[.setEnt .internalNl,.cb],none,false⟩⟩,⟨256,.vt,false,none⟩,⟨256,.ff,false,some ⟨53,[.setEnt .internalNl,.cb],none,false⟩⟩,⟨256,.cr,false,some ⟨54,[.cb],none,false⟩⟩,⟨256,.cr,true,some ⟨55,[.setEnt .internalNl,.cb],none,false⟩⟩,⟨47,.other,false,none⟩,⟨60,.other,false,none⟩,⟨62,.other,false,some ⟨0,[.cb,.emb .outry,.code,.emb .back],some 0,true⟩⟩]⟩,⟨[10],none,[],[⟨256,.other,false,none⟩,⟨256,.ws,false,some ⟨51,[.cb],none,false⟩⟩,⟨256,.lf,false,some ⟨52,[.setEnt .internalNl,.cb],none,false⟩⟩,⟨256,.vt,false,none⟩,⟨256,.ff,false,some ⟨53,[.setEnt .internalNl,.cb],none,false⟩⟩,⟨256,.cr,false,some ⟨54,[.cb],none,false⟩⟩,⟨256,.cr,true,some ⟨55,[.setEnt .internalNl,.cb],none,false⟩⟩,⟨47,.other,false,none⟩,⟨60,.other,false,none⟩,⟨62,.other,false,some ⟨0,[.cb,.emb .outry,.code,.emb .back],some 0,true⟩⟩]⟩,⟨[10,11],none,[],[⟨256,.other,false,none⟩,⟨256,.ws,false,some ⟨51,[.cb],none,false⟩⟩,⟨256,.lf,false,some ⟨52,[.setEnt .internalNl,.cb],none,false⟩⟩,⟨256,.vt,false,none⟩,⟨256,.ff,false,some ⟨53,[.setEnt .internalNl,.cb],none,false⟩⟩,⟨256,.cr,false,some ⟨54,[.cb],none,false⟩⟩,⟨256,.cr,true,some ⟨55,[.setEnt .internalNl,.cb],none,false⟩⟩,⟨47,.other,false,none⟩,⟨60,.other,false,none⟩,⟨62,.other,false,some ⟨0,[.cb,.emb .outry,.code,.emb .back],some 0,true⟩⟩]⟩]
theorem emb1_rowsOkt : rowsOk emb1_nfa [47, 60, 62] (emb1_cst.map (·.1)) emb1_rowst = true := by decide +kernel
def emb1_Dt : Dfa emb1_nfa := ⟨emb1_maskst, [47, 60, 62], emb1_cst, emb1_rowst, emb1_masksInt, emb1_repOkt, emb1_rowsOkt⟩

/-- The automaton of `Emb.Html.html_css_entity`. -/
def emb3_nfa : Nfa := ⟨[⟨0,1152921504606846976,[],[],0,0⟩,⟨14,4294983168,[],[(3,.setEnt (.own 0))],0,0⟩,⟨15,140737488355328,[],[(4,.setEnt (.own 1))],0,2⟩,⟨20,115792089237316195423570985008687907853269984665640564039457584007908834656767,[],[],0,0⟩],[[⟨1,140737488355328,[],[],0,0⟩],[⟨2,41538374877950027585161004031410176,[],[],0,0⟩],[⟨3,83076749755900055170322008062820352,[],[],0,0⟩],[⟨4,2658455992188801765450304258010251264,[],[],0,0⟩],[⟨5,324518553733984590509070343995392,[],[],0,0⟩],[⟨6,2535301201046754613352112062464,[],[],0,0⟩],[⟨7,4294967808,[],[],0,0⟩,⟨8,8192,[],[],0,0⟩,⟨10,1024,[],[(0,.setEnt .internalNl)],0,0⟩,⟨11,4096,[],[(0,.setEnt .internalNl)],0,0⟩,⟨12,8192,[.crAlone],[(0,.setEnt .internalNl)],0,0⟩,⟨13,4611686018427387904,[],[(2,.emb .ret)],0,0⟩],[⟨7,4294967808,[],[],0,0⟩,⟨8,8192,[],[],0,0⟩,⟨10,1024,[],[(0,.setEnt .internalNl)],0,0⟩,⟨11,4096,[],[(0,.setEnt .internalNl)],0,0⟩,⟨12,8192,[.crAlone],[(0,.setEnt .internalNl)],0,0⟩,⟨13,4611686018427387904,[],[(2,.emb .ret)],0,0⟩],[⟨9,1024,[],[(0,.setEnt .internalNl)],0,0⟩],[⟨7,4294967808,[],[(1,.cb)],0,0⟩,⟨8,8192,[],[(1,.cb)],0,0⟩,⟨10,1024,[],[(1,.cb),(0,.setEnt .internalNl)],0,0⟩,⟨11,4096,[],[(1,.cb),(0,.setEnt .internalNl)],0,0⟩,⟨12,8192,[.crAlone],[(1,.cb),(0,.setEnt .internalNl)],0,0⟩,⟨13,4611686018427387904,[],[(1,.cb),(2,.emb .ret)],0,0⟩],[⟨7,4294967808,[],[(1,.cb)],0,0⟩,⟨8,8192,[],[(1,.cb)],0,0⟩,⟨10,1024,[],[(1,.cb),(0,.setEnt .internalNl)],0,0⟩,⟨11,4096,[],[(1,.cb),(0,.setEnt .internalNl)],0,0⟩,⟨12,8192,[.crAlone],[(1,.cb),(0,.setEnt .internalNl)],0,0⟩,⟨13,4611686018427387904,[],[(1,.cb),(2,.emb .ret)],0,0⟩],[⟨7,4294967808,[],[(1,.cb)],0,0⟩,⟨8,8192,[],[(1,.cb)],0,0⟩,⟨10,1024,[],[(1,.cb),(0,.setEnt .internalNl)],0,0⟩,⟨11,4096,[],[(1,.cb),(0,.setEnt .internalNl)],0,0⟩,⟨12,8192,[.crAlone],[(1,.cb),(0,.setEnt .internalNl)],0,0⟩,⟨13,4611686018427387904,[],[(1,.cb),(2,.emb .ret)],0,0⟩],[⟨7,4294967808,[],[(1,.cb)],0,0⟩,⟨8,8192,[],[(1,.cb)],0,0⟩,⟨10,1024,[],[(1,.cb),(0,.setEnt .internalNl)],0,0⟩,⟨11,4096,[],[(1,.cb),(0,.setEnt .internalNl)],0,0⟩,⟨12,8192,[.crAlone],[(1,.cb),(0,.setEnt .internalNl)],0,0⟩,⟨13,4611686018427387904,[],[(1,.cb),(2,.emb .ret)],0,0⟩],[],[⟨14,4294983168,[],[(3,.setEnt (.own 0))],0,0⟩],[⟨16,4398046511104,[],[(4,.setEnt (.own 1))],0,2⟩],[⟨17,115792089237316195423570985008687907853269984665640564039457584007913129639935,[],[(4,.setEnt (.own 1))],0,2⟩,⟨18,4398046511104,[],[(4,.setEnt (.own 1))],0,2⟩],[⟨17,115792089237316195423570985008687907853269984665640564039457584007913129639935,[],[(4,.setEnt (.own 1))],0,2⟩,⟨18,4398046511104,[],[(4,.setEnt (.own 1))],0,2⟩],[⟨19,140737488355328,[],[(4,.setEnt (.own 1))],2,0⟩],[],[]],[none,none,none,none,none,none,none,none,none,none,none,none,none,some (0,[]),some (1,[]),none,none,none,none,some (2,[]),some (3,[])],[3,4,5,5]⟩
def emb3_masks : List Nat := [1152921504606846976,4294983168,140737488355328,115792089237316195423570985008687907853269984665640564039457584007908834656767,41538374877950027585161004031410176,83076749755900055170322008062820352,2658455992188801765450304258010251264,324518553733984590509070343995392,2535301201046754613352112062464,4294967808,8192,1024,4096,4611686018427387904,4398046511104,115792089237316195423570985008687907853269984665640564039457584007913129639935]
def emb3_cs : List (Nat × Nat) := [(0,115792089237316195423570985008687907853267201267469886452572268345557705015807),(9,4294967808),(10,1024),(11,2048),(12,4096),(13,8192),(42,4398046511104),(47,140737488355328),(60,1152921504606846976),(62,4611686018427387904),(69,2535301201046754613352112062464),(76,324518553733984590509070343995392),(83,41538374877950027585161004031410176),(84,83076749755900055170322008062820352),(89,2658455992188801765450304258010251264)]
theorem emb3_masksIn : masksIn emb3_nfa emb3_masks = true := by decide +kernel
theorem emb3_repOk : repOk emb3_masks emb3_cs = true := by decide +kernel
def emb3_rows : List Row := [⟨[],none,[],[⟨256,.other,false,some ⟨0,[],some 3,true⟩⟩,⟨256,.ws,false,some ⟨1,[.setEnt (.own 0)],some 1,false⟩⟩,⟨256,.lf,false,some ⟨1,[.setEnt (.own 0)],some 1,false⟩⟩,⟨256,.vt,false,some ⟨1,[.setEnt (.own 0)],some 1,false⟩⟩,⟨256,.ff,false,some ⟨1,[.setEnt (.own 0)],some 1,false⟩⟩,⟨256,.cr,false,some ⟨1,[.setEnt (.own 0)],some 1,false⟩⟩,⟨256,.cr,true,some ⟨1,[.setEnt (.own 0)],some 1,false⟩⟩,⟨256,.other,false,some ⟨2,[.setEnt (.own 1)],some 3,false⟩⟩,⟨256,.other,false,some ⟨3,[],some 3,false⟩⟩]⟩,⟨[14],some 1,[],[⟨256,.other,false,none⟩,⟨256,.ws,false,some ⟨1,[.setEnt (.own 0)],some 1,false⟩⟩,⟨256,.lf,false,some ⟨1,[.setEnt (.own 0)],some 1,false⟩⟩,⟨256,.vt,false,some ⟨1,[.setEnt (.own 0)],some 1,false⟩⟩,⟨256,.ff,false,some ⟨1,[.setEnt (.own 0)],some 1,false⟩⟩,⟨256,.cr,false,some ⟨1,[.setEnt (.own 0)],some 1,false⟩⟩,⟨256,.cr,true,some ⟨1,[.setEnt (.own 0)],some 1,false⟩⟩]⟩,⟨[15,20],some 3,[],[⟨256,.other,false,none⟩,⟨256,.ws,false,none⟩,⟨256,.lf,false,none⟩,⟨256,.vt,false,none⟩,⟨256,.ff,false,none⟩,⟨256,.cr,false,none⟩,⟨256,.cr,true,none⟩,⟨256,.other,false,some ⟨4,[.setEnt (.own 1)],none,false⟩⟩]⟩,⟨[0,20],some 3,[],[⟨256,.other,false,none⟩,⟨256,.ws,false,none⟩,⟨256,.lf,false,none⟩,⟨256,.vt,false,none⟩,⟨256,.ff,false,none⟩,⟨256,.cr,false,none⟩,⟨256,.cr,true,none⟩,⟨256,.other,false,some ⟨5,[],none,false⟩⟩]⟩,⟨[16],none,[],[⟨256,.other,false,some ⟨6,[.setEnt (.own 1)],none,false⟩⟩,⟨256,.ws,false,some ⟨6,[.setEnt (.own 1)],none,false⟩⟩,⟨256,.lf,false,some ⟨6,[.setEnt (.own 1)],none,false⟩⟩,⟨256,.vt,false,some ⟨6,[.setEnt (.own 1)],none,false⟩⟩,⟨256,.ff,false,some ⟨6,[.setEnt (.own 1)],none,false⟩⟩,⟨256,.cr,false,some ⟨6,[.setEnt (.own 1)],none,false⟩⟩,⟨256,.cr,true,some ⟨6,[.setEnt (.own 1)],none,false⟩⟩,⟨256,.other,false,some ⟨7,[.setEnt (.own 1)],none,false⟩⟩]⟩,⟨[1],none,[],[⟨256,.other,false,none⟩,⟨256,.ws,false,none⟩,⟨256,.lf,false,none⟩,⟨256,.vt,false,none⟩,⟨256,.ff,false,none⟩,⟨256,.cr,false,none⟩,⟨256,.cr,true,none⟩,⟨256,.other,false,some ⟨8,[],none,false⟩⟩]⟩,⟨[17],none,[],[⟨256,.other,false,some ⟨6,[.setEnt (.own 1)],none,false⟩⟩,⟨256,.ws,false,some ⟨6,[.setEnt (.own 1)],none,false⟩⟩,⟨256,.lf,false,some ⟨6,[.setEnt (.own 1)],none,false⟩⟩,⟨256,.vt,false,some ⟨6,[.setEnt (.own 1)],none,false⟩⟩,⟨256,.ff,false,some ⟨6,[.setEnt (.own 1)],none,false⟩⟩,⟨256,.cr,false,some ⟨6,[.setEnt (.own 1)],none,false⟩⟩,⟨256,.cr,true,some ⟨6,[.setEnt (.own 1)],none,false⟩⟩,⟨256,.other,false,some ⟨7,[.setEnt (.own 1)],none,false⟩⟩]⟩,⟨[17,18],none,[],[⟨256,.other,false,some ⟨6,[.setEnt (.own 1)],none,false⟩⟩,⟨256,.ws,false,some ⟨6,[.setEnt (.own 1)],none,false⟩⟩,⟨256,.lf,false,some ⟨6,[.setEnt (.own 1)],none,false⟩⟩,⟨256,.vt,false,some ⟨6,[.setEnt (.own 1)],none,false⟩⟩,⟨256,.ff,false,some ⟨6,[.setEnt (.own 1)],none,false⟩⟩,⟨256,.cr,false,some ⟨6,[.setEnt (.own 1)],none,false⟩⟩,⟨256,.cr,true,some ⟨6,[.setEnt (.own 1)],none,false⟩⟩,⟨256,.other,false,some ⟨7,[.setEnt (.own 1)],none,false⟩⟩,⟨256,.other,false,some ⟨0,[.setEnt (.own 1)],some 2,true⟩⟩]⟩,⟨[2],none,[],[⟨256,.other,false,none⟩,⟨256,.ws,false,none⟩,⟨256,.lf,false,none⟩,⟨256,.vt,false,none⟩,⟨256,.ff,false,none⟩,⟨256,.cr,false,none⟩,⟨256,.cr,true,none⟩,⟨256,.other,false,some ⟨9,[],none,false⟩⟩]⟩,⟨[3],none,[],[⟨256,.other,false,none⟩,⟨256,.ws,false,none⟩,⟨256,.lf,false,none⟩,⟨256,.vt,false,none⟩,⟨256,.ff,false,none⟩,⟨256,.cr,false,none⟩,⟨256,.cr,true,none⟩,⟨256,.other,false,some ⟨10,[],none,false⟩⟩]⟩,⟨[4],none,[],[⟨256,.other,false,none⟩,⟨256,.ws,false,none⟩,⟨256,.lf,false,none⟩,⟨256,.vt,false,none⟩,⟨256,.ff,false,none⟩,⟨256,.cr,false,none⟩,⟨256,.cr,true,none⟩,⟨256,.other,false,some ⟨11,[],none,false⟩⟩]⟩,⟨[5],none,[],[⟨256,.other,false,none⟩,⟨256,.ws,false,none⟩,⟨256,.lf,false,none⟩,⟨256,.vt,false,none⟩,⟨256,.ff,false,none⟩,⟨256,.cr,false,none⟩,⟨256,.cr,true,none⟩,⟨256,.other,false,some ⟨12,[],none,false⟩⟩]⟩,⟨[6],none,[],[⟨256,.other,false,none⟩,⟨256,.ws,false,some ⟨13,[],none,false⟩⟩,⟨256,.lf,false,some ⟨14,[.setEnt .internalNl],none,false⟩⟩,⟨256,.vt,false,none⟩,⟨256,.ff,false,some ⟨15,[.setEnt .internalNl],none,false⟩⟩,⟨256,.cr,false,some ⟨16,[],none,false⟩⟩,⟨256,.cr,true,some ⟨17,[.setEnt .internalNl],none,false⟩⟩,⟨256,.other,false,some ⟨0,[.emb .ret],some 0,true⟩⟩]⟩,⟨[7],none,[],[⟨256,.other,false,none⟩,⟨256,.ws,false,some ⟨13,[],none,false⟩⟩,⟨256,.lf,false,some ⟨14,[.setEnt .internalNl],none,false⟩⟩,⟨256,.vt,false,none⟩,⟨256,.ff,false,some ⟨15,[.setEnt .internalNl],none,false⟩⟩,⟨256,.cr,false,some ⟨16,[],none,false⟩⟩,⟨256,.cr,true,some ⟨17,[.setEnt .internalNl],none,false⟩⟩,⟨256,.other,false,some ⟨0,[.emb .ret],some 0,true⟩⟩]⟩,⟨[10],none,[],[⟨256,.other,false,none⟩,⟨256,.ws,false,some ⟨13,[.cb],none,false⟩⟩,⟨256,.lf,false,some ⟨14,[.setEnt .internalNl,.cb],none,false⟩⟩,⟨256,.vt,false,none⟩,⟨256,.ff,false,some ⟨15,[.setEnt .internalNl,.cb],none,false⟩⟩,⟨256,.cr,false,some ⟨16,[.cb],none,false⟩⟩,⟨256,.cr,true,some ⟨17,[.setEnt .internalNl,.cb],none,false⟩⟩,⟨256,.other,false,some ⟨0,[.cb,.emb .ret],some 0,true⟩⟩]⟩,⟨[11],none,[],[⟨256,.other,false,none⟩,⟨256,.ws,false,some ⟨13,[.cb],none,false⟩⟩,⟨256,.lf,false,some ⟨14,[.setEnt .internalNl,.cb],none,false⟩⟩,⟨256,.vt,false,none⟩,⟨256,.ff,false,some ⟨15,[.setEnt .internalNl,.cb],none,false⟩⟩,⟨256,.cr,false,some ⟨16,[.cb],none,false⟩⟩,⟨256,.cr,true,some ⟨17,[.setEnt .internalNl,.cb],none,false⟩⟩,⟨256,.other,false,some ⟨0,[.cb,.emb .ret],some 0,true⟩⟩]⟩,⟨[8],none,[],[⟨256,.other,false,none⟩,⟨256,.ws,false,none⟩,⟨256,.lf,false,some ⟨18,[.setEnt .internalNl],none,false⟩⟩,⟨256,.vt,false,none⟩,⟨256,.ff,false,none⟩,⟨256,.cr,false,none⟩,⟨256,.cr,true,none⟩]⟩,⟨[8,12],none,[],[⟨256,.other,false,none⟩,⟨256,.ws,false,some ⟨13,[.cb],none,false⟩⟩,⟨256,.lf,false,some ⟨19,[.setEnt .internalNl,.cb],none,false⟩⟩,⟨256,.vt,false,none⟩,⟨256,.ff,false,some ⟨15,[.setEnt .internalNl,.cb],none,false⟩⟩,⟨256,.cr,false,some ⟨16,[.cb],none,false⟩⟩,⟨256,.cr,true,some ⟨17,[.setEnt .internalNl,.cb],none,false⟩⟩,⟨256,.other,false,some ⟨0,[.cb,.emb .ret],some 0,true⟩⟩]⟩,⟨[9],none,[],[⟨256,.other,false,none⟩,⟨256,.ws,false,some ⟨13,[.cb],none,false⟩⟩,⟨256,.lf,false,some ⟨14,[.setEnt .internalNl,.cb],none,false⟩⟩,⟨256,.vt,false,none⟩,⟨256,.ff,false,some ⟨15,[.setEnt .internalNl,.cb],none,false⟩⟩,⟨256,.cr,false,some ⟨16,[.cb],none,false⟩⟩,⟨256,.cr,true,some ⟨17,[.setEnt .internalNl,.cb],none,false⟩⟩,⟨256,.other,false,some ⟨0,[.cb,.emb .ret],some 0,true⟩⟩]⟩,⟨[9,10],none,[],[⟨256,.other,false,none⟩,⟨256,.ws,false,some ⟨13,[.cb],none,false⟩⟩,⟨256,.lf,false,some ⟨14,[.setEnt .internalNl,.cb],none,false⟩⟩,⟨256,.vt,false,none⟩,⟨256,.ff,false,some ⟨15,[.setEnt .internalNl,.cb],none,false⟩⟩,⟨256,.cr,false,some ⟨16,[.cb],none,false⟩⟩,⟨256,.cr,true,some ⟨17,[.setEnt .internalNl,.cb],none,false⟩⟩,⟨256,.other,false,some ⟨0,[.cb,.emb .ret],some 0,true⟩⟩]⟩]
theorem emb3_rowsOk : rowsOk emb3_nfa [] (emb3_cs.map (·.1)) emb3_rows = true := by decide +kernel
def emb3_D : Dfa emb3_nfa := ⟨emb3_masks, [], emb3_cs, emb3_rows, emb3_masksIn, emb3_repOk, emb3_rowsOk⟩
def emb3_maskst : List Nat := [1152921504606846976,4294983168,140737488355328,115792089237316195423570985008687907853269984665640564039457584007908834656767,41538374877950027585161004031410176,83076749755900055170322008062820352,2658455992188801765450304258010251264,324518553733984590509070343995392,2535301201046754613352112062464,4294967808,8192,1024,4096,4611686018427387904,4398046511104,115792089237316195423570985008687907853269984665640564039457584007913129639935]
def emb3_cst : List (Nat × Nat) := [(0,115792089237316195423570985008687907853267201267469886452572268345557705015807),(9,4294967808),(10,1024),(11,2048),(12,4096),(13,8192),(42,4398046511104),(47,140737488355328),(60,1152921504606846976),(62,4611686018427387904),(69,2535301201046754613352112062464),(76,324518553733984590509070343995392),(83,41538374877950027585161004031410176),(84,83076749755900055170322008062820352),(89,2658455992188801765450304258010251264)]
theorem emb3_masksInt : masksIn emb3_nfa emb3_maskst = true := by decide +kernel
theorem emb3_repOkt : repOk emb3_maskst emb3_cst = true := by decide +kernel
def emb3_rowst : List Row := [⟨[],none,[],[⟨256,.other,false,some ⟨0,[],some 3,true⟩⟩,⟨256,.ws,false,some ⟨1,[.setEnt (.own 0)],some 1,false⟩⟩,⟨256,.lf,false,some ⟨1,[.setEnt (.own 0)],some 1,false⟩⟩,⟨256,.vt,false,some ⟨1,[.setEnt (.own 0)],some 1,false⟩⟩,⟨256,.ff,false,some ⟨1,[.setEnt (.own 0)],some 1,false⟩⟩,⟨256,.cr,false,some ⟨1,[.setEnt (.own 0)],some 1,false⟩⟩,⟨256,.cr,true,some ⟨1,[.setEnt (.own 0)],some 1,false⟩⟩,⟨47,.other,false,some ⟨2,[.setEnt (.own 1)],some 3,false⟩⟩,⟨60,.other,false,some ⟨3,[],some 3,false⟩⟩,⟨62,.other,false,some ⟨0,[],some 3,true⟩⟩]⟩,⟨[14],some 1,[],[⟨256,.other,false,none⟩,⟨256,.ws,false,some ⟨1,[.setEnt (.own 0)],some 1,false⟩⟩,⟨256,.lf,false,some ⟨1,[.setEnt (.own 0)],some 1,false⟩⟩,⟨256,.vt,false,some ⟨1,[.setEnt (.own 0)],some 1,false⟩⟩,⟨256,.ff,false,some ⟨1,[.setEnt (.own 0)],some 1,false⟩⟩,⟨256,.cr,false,some ⟨1,[.setEnt (.own 0)],some 1,false⟩⟩,⟨256,.cr,true,some ⟨1,[.setEnt (.own 0)],some 1,false⟩⟩,⟨47,.other,false,none⟩,⟨60,.other,false,none⟩,⟨62,.other,false,none⟩]⟩,⟨[15,20],some 3,[],[⟨256,.other,false,none⟩,⟨256,.ws,false,none⟩,⟨256,.lf,false,none⟩,⟨256,.vt,false,none⟩,⟨256,.ff,false,none⟩,⟨256,.cr,false,none⟩,⟨256,.cr,true,none⟩,⟨256,.other,false,some ⟨4,[.setEnt (.own 1)],none,false⟩⟩,⟨47,.other,false,none⟩,⟨60,.other,false,none⟩,⟨62,.other,false,none⟩]⟩,⟨[0,20],some 3,[],[⟨256,.other,false,none⟩,⟨256,.ws,false,none⟩,⟨256,.lf,false,none⟩,⟨256,.vt,false,none⟩,⟨256,.ff,false,none⟩,⟨256,.cr,false,none⟩,⟨256,.cr,true,none⟩,⟨47,.other,false,some ⟨5,[],none,false⟩⟩,⟨60,.other,false,none⟩,⟨62,.other,false,none⟩]⟩,⟨[16],none,[],[⟨256,.other,false,some ⟨6,[.setEnt (.own 1)],none,false⟩⟩,⟨256,.ws,false,some ⟨6,[.setEnt (.own 1)],none,false⟩⟩,⟨256,.lf,false,some ⟨6,[.setEnt (.own 1)],none,false⟩⟩,⟨256,.vt,false,some ⟨6,[.setEnt (.own 1)],none,false⟩⟩,⟨256,.ff,false,some ⟨6,[.setEnt (.own 1)],none,false⟩⟩,⟨256,.cr,false,some ⟨6,[.setEnt (.own 1)],none,false⟩⟩,⟨256,.cr,true,some ⟨6,[.setEnt (.own 1)],none,false⟩⟩,⟨256,.other,false,some ⟨7,[.setEnt (.own 1)],none,false⟩⟩,⟨47,.other,false,some ⟨6,[.setEnt (.own 1)],none,false⟩⟩,⟨60,.other,false,some ⟨6,[.setEnt (.own 1)],none,false⟩⟩,⟨62,.other,false,some ⟨6,[.setEnt (.own 1)],none,false⟩⟩]⟩,⟨[1],none,[],[⟨256,.other,false,none⟩,⟨256,.ws,false,none⟩,⟨256,.lf,false,none⟩,⟨256,.vt,false,none⟩,⟨256,.ff,false,none⟩,⟨256,.cr,false,none⟩,⟨256,.cr,true,none⟩,⟨47,.other,false,none⟩,⟨60,.other,false,none⟩,⟨62,.other,false,none⟩,⟨256,.other,false,some ⟨8,[],none,false⟩⟩]⟩,⟨[17],none,[],[⟨256,.other,false,some ⟨6,[.setEnt (.own 1)],none,false⟩⟩,⟨256,.ws,false,some ⟨6,[.setEnt (.own 1)],none,false⟩⟩,⟨256,.lf,false,some ⟨6,[.setEnt (.own 1)],none,false⟩⟩,⟨256,.vt,false,some ⟨6,[.setEnt (.own 1)],none,false⟩⟩,⟨256,.ff,false,some ⟨6,[.setEnt (.own 1)],none,false⟩⟩,⟨256,.cr,false,some ⟨6,[.setEnt (.own 1)],none,false⟩⟩,⟨256,.cr,true,some ⟨6,[.setEnt (.own 1)],none,false⟩⟩,⟨256,.other,false,some ⟨7,[.setEnt (.own 1)],none,false⟩⟩,⟨47,.other,false,some ⟨6,[.setEnt (.own 1)],none,false⟩⟩,⟨60,.other,false,some ⟨6,[.setEnt (.own 1)],none,false⟩⟩,⟨62,.other,false,some ⟨6,[.setEnt (.own 1)],none,false⟩⟩]⟩,⟨[17,18],none,[],[⟨256,.other,false,some ⟨6,[.setEnt (.own 1)],none,false⟩⟩,⟨256,.ws,false,some ⟨6,[.setEnt (.own 1)],none,false⟩⟩,⟨256,.lf,false,some ⟨6,[.setEnt (.own 1)],none,false⟩⟩,⟨256,.vt,false,some ⟨6,[.setEnt (.own 1)],none,false⟩⟩,⟨256,.ff,false,some ⟨6,[.setEnt (.own 1)],none,false⟩⟩,⟨256,.cr,false,some ⟨6,[.setEnt (.own 1)],none,false⟩⟩,⟨256,.cr,true,some ⟨6,[.setEnt (.own 1)],none,false⟩⟩,⟨256,.other,false,some ⟨7,[.setEnt (.own 1)],none,false⟩⟩,⟨47,.other,false,some ⟨0,[.setEnt (.own 1)],some 2,true⟩⟩,⟨60,.other,false,some ⟨6,[.setEnt (.own 1)],none,false⟩⟩,⟨62,.other,false,some ⟨6,[.setEnt (.own 1)],none,false⟩⟩]⟩,⟨[2],none,[],[⟨256,.other,false,none⟩,⟨256,.ws,false,none⟩,⟨256,.lf,false,none⟩,⟨256,.vt,false,none⟩,⟨256,.ff,false,none⟩,⟨256,.cr,false,none⟩,⟨256,.cr,true,none⟩,⟨47,.other,false,none⟩,⟨60,.other,false,none⟩,⟨62,.other,false,none⟩,⟨256,.other,false,some ⟨9,[],none,false⟩⟩]⟩,⟨[3],none,[],[⟨256,.other,false,none⟩,⟨256,.ws,false,none⟩,⟨256,.lf,false,none⟩,⟨256,.vt,false,none⟩,⟨256,.ff,false,none⟩,⟨256,.cr,false,none⟩,⟨256,.cr,true,none⟩,⟨47,.other,false,none⟩,⟨60,.other,false,none⟩,⟨62,.other,false,none⟩,⟨256,.other,false,some ⟨10,[],none,false⟩⟩]⟩,⟨[4],none,[],[⟨256,.other,false,none⟩,⟨256,.ws,false,none⟩,⟨256,.lf,false,none⟩,⟨256,.vt,false,none⟩,⟨256,.ff,false,none⟩,⟨256,.cr,false,none⟩,⟨256,.cr,true,none⟩,⟨47,.other,false,none⟩,⟨60,.other,false,none⟩,⟨62,.other,false,none⟩,⟨256,.other,false,some ⟨11,[],none,false⟩⟩]⟩,⟨[5],none,[],[⟨256,.other,false,none⟩,⟨256,.ws,false,none⟩,⟨256,.lf,false,none⟩,⟨256,.vt,false,none⟩,⟨256,.ff,false,none⟩,⟨256,.cr,false,none⟩,⟨256,.cr,true,none⟩,⟨47,.other,false,none⟩,⟨60,.other,false,none⟩,⟨62,.other,false,none⟩,⟨256,.other,false,some ⟨12,[],none,false⟩⟩]⟩,⟨[6],none,[],[⟨256,.other,false,none⟩,⟨256,.ws,false,some ⟨13,[],none,false⟩⟩,⟨256,.lf,false,some ⟨14,[.setEnt .internalNl],none,false⟩⟩,⟨256,.vt,false,none⟩,⟨256,.ff,false,some ⟨15,[.setEnt .internalNl],none,false⟩⟩,⟨256,.cr,false,some ⟨16,[],none,false⟩⟩,⟨256,.cr,true,some ⟨17,[.setEnt .internalNl],none,false⟩⟩,⟨47,.other,false,none⟩,⟨60,.other,false,none⟩,⟨62,.other,false,some ⟨0,[.emb .ret],some 0,true⟩⟩]⟩,⟨[7],none,[],[⟨256,.other,false,none⟩,⟨256,.ws,false,some ⟨13,[],none,false⟩⟩,⟨256,.lf,false,some ⟨14,[.setEnt .internalNl],none,false⟩⟩,⟨256,.vt,false,none⟩,⟨256,.ff,false,some ⟨15,[.setEnt .internalNl],none,false⟩⟩,⟨256,.cr,false,some ⟨16,[],none,false⟩⟩,⟨256,.cr,true,some ⟨17,[.setEnt .internalNl],none,false⟩⟩,⟨47,.other,false,none⟩,⟨60,.other,false,none⟩,⟨62,.other,false,some ⟨0,[.emb .ret],some 0,true⟩⟩]⟩,⟨[10],none,[],[⟨256,.other,false,none⟩,⟨256,.ws,false,some ⟨13,[.cb],none,false⟩⟩,⟨256,.lf,false,some ⟨14,[.setEnt .internalNl,.cb],none,false⟩⟩,⟨256,.vt,false,none⟩,⟨256,.ff,false,some ⟨15,[.setEnt .internalNl,.cb],none,false⟩⟩,⟨256,.cr,false,some ⟨16,[.cb],none,false⟩⟩,⟨256,.cr,true,some ⟨17,[.setEnt .internalNl,.cb],none,false⟩⟩,⟨47,.other,false,none⟩,⟨60,.other,false,none⟩,⟨62,.other,false,some ⟨0,[.cb,.emb .ret],some 0,true⟩⟩]⟩,⟨[11],none,[],[⟨256,.other,false,none⟩,⟨256,.ws,false,some ⟨13,[.cb],none,false⟩⟩,⟨256,.lf,false,some ⟨14,[.setEnt .internalNl,.cb],none,false⟩⟩,⟨256,.vt,false,none⟩,⟨256,.ff,false,some ⟨15,[.setEnt .internalNl,.cb],none,false⟩⟩,⟨256,.cr,false,some ⟨16,[.cb],none,false⟩⟩,⟨256,.cr,true,some ⟨17,[.setEnt .internalNl,.cb],none,false⟩⟩,⟨47,.other,false,none⟩,⟨60,.other,false,none⟩,⟨62,.other,false,some ⟨0,[.cb,.emb .ret],some 0,true⟩⟩]⟩,⟨[8],none,[],[⟨256,.other,false,none⟩,⟨256,.ws,false,none⟩,⟨256,.lf,false,some ⟨18,[.setEnt .internalNl],none,false⟩⟩,⟨256,.vt,false,none⟩,⟨256,.ff,false,none⟩,⟨256,.cr,false,none⟩,⟨256,.cr,true,none⟩,⟨47,.other,false,none⟩,⟨60,.other,false,none⟩,⟨62,.other,false,none⟩]⟩,⟨[8,12],none,[],[⟨256,.other,false,none⟩,⟨256,.ws,false,some ⟨13,[.cb],none,false⟩⟩,⟨256,.lf,false,some ⟨19,[.setEnt .internalNl,.cb],none,false⟩⟩,⟨256,.vt,false,none⟩,⟨256,.ff,false,some ⟨15,[.setEnt .internalNl,.cb],none,false⟩⟩,⟨256,.cr,false,some ⟨16,[.cb],none,false⟩⟩,⟨256,.cr,true,some ⟨17,[.setEnt .internalNl,.cb],none,false⟩⟩,⟨47,.other,false,none⟩,⟨60,.other,false,none⟩,⟨62,.other,false,some ⟨0,[.cb,.emb .ret],some 0,true⟩⟩]⟩,⟨[9],none,[],[⟨256,.other,false,none⟩,⟨256,.ws,false,some ⟨13,[.cb],none,false⟩⟩,⟨256,.lf,false,some ⟨14,[.setEnt .internalNl,.cb],none,false⟩⟩,⟨256,.vt,false,none⟩,⟨256,.ff,false,some ⟨15,[.setEnt .internalNl,.cb],none,false⟩⟩,⟨256,.cr,false,some ⟨16,[.cb],none,false⟩⟩,⟨256,.cr,true,some ⟨17,[.setEnt .internalNl,.cb],none,false⟩⟩,⟨47,.other,false,none⟩,⟨60,.other,false,none⟩,⟨62,.other,false,some ⟨0,[.cb,.emb .ret],some 0,true⟩⟩]⟩,⟨[9,10],none,[],[⟨256,.other,false,none⟩,⟨256,.ws,false,some ⟨13,[.cb],none,false⟩⟩,⟨256,.lf,false,some ⟨14,[.setEnt .internalNl,.cb],none,false⟩⟩,⟨256,.vt,false,none⟩,⟨256,.ff,false,some ⟨15,[.setEnt .internalNl,.cb],none,false⟩⟩,⟨256,.cr,false,some ⟨16,[.cb],none,false⟩⟩,⟨256,.cr,true,some ⟨17,[.setEnt .internalNl,.cb],none,false⟩⟩,⟨47,.other,false,none⟩,⟨60,.other,false,none⟩,⟨62,.other,false,some ⟨0,[.cb,.emb .ret],some 0,true⟩⟩]⟩]
theorem emb3_rowsOkt : rowsOk emb3_nfa [47, 60, 62] (emb3_cst.map (·.1)) emb3_rowst = true := by decide +kernel
def emb3_Dt : Dfa emb3_nfa := ⟨emb3_maskst, [47, 60, 62], emb3_cst, emb3_rowst, emb3_masksInt, emb3_repOkt, emb3_rowsOkt⟩

/-- The automaton of `Emb.Mxml.mxml_as_entity`. -/
def emb10_nfa : Nfa := ⟨[⟨0,1152921504606846976,[],[],0,0⟩,⟨12,4294983168,[],[(1,.setEnt (.own 0))],0,0⟩,⟨13,140737488355328,[],[(2,.setEnt (.own 1))],0,0⟩,⟨16,140737488355328,[],[(2,.setEnt (.own 1))],0,2⟩,⟨21,115792089237316195423570985008687907853269984665640564039457584007908834656767,[],[],0,0⟩],[[⟨1,140737488355328,[],[],0,0⟩],[⟨2,649037107316853453566312041152512,[],[],0,0⟩],[⟨3,1329227995784915872903807060280344576,[],[],0,0⟩],[⟨4,288230376151711744,[],[],0,0⟩],[⟨5,9671406556917033397649408,[],[],0,0⟩],[⟨6,633825300114114700748351602688,[],[],0,0⟩],[⟨7,20769187434139310514121985316880384,[],[],0,0⟩],[⟨8,40564819207303340847894502572032,[],[],0,0⟩],[⟨9,5192296858534827628530496329220096,[],[],0,0⟩],[⟨10,83076749736557242056487941267521536,[],[],0,0⟩],[⟨11,4611686018427387904,[],[(0,.emb .ret)],0,0⟩],[],[⟨12,4294983168,[],[(1,.setEnt (.own 0))],0,0⟩],[⟨14,140737488355328,[],[(2,.setEnt (.own 1))],0,0⟩],[⟨15,115792089237316195423570985008687907853269984665640564039457584007913129626623,[],[(2,.setEnt (.own 1))],0,0⟩],[⟨15,115792089237316195423570985008687907853269984665640564039457584007913129626623,[],[(2,.setEnt (.own 1))],0,0⟩],[⟨17,4398046511104,[],[(2,.setEnt (.own 1))],0,2⟩],[⟨18,115792089237316195423570985008687907853269984665640564039457584007913129639935,[],[(2,.setEnt (.own 1))],0,2⟩,⟨19,4398046511104,[],[(2,.setEnt (.own 1))],0,2⟩],[⟨18,115792089237316195423570985008687907853269984665640564039457584007913129639935,[],[(2,.setEnt (.own 1))],0,2⟩,⟨19,4398046511104,[],[(2,.setEnt (.own 1))],0,2⟩],[⟨20,140737488355328,[],[(2,.setEnt (.own 1))],2,0⟩],[],[]],[none,none,none,none,none,none,none,none,none,none,none,some (0,[]),some (1,[]),none,some (2,[]),some (2,[]),none,none,none,none,some (2,[]),some (3,[])],[1,2,3,3]⟩
def emb10_masks : List Nat := [1152921504606846976,4294983168,140737488355328,115792089237316195423570985008687907853269984665640564039457584007908834656767,649037107316853453566312041152512,1329227995784915872903807060280344576,288230376151711744,9671406556917033397649408,633825300114114700748351602688,20769187434139310514121985316880384,40564819207303340847894502572032,5192296858534827628530496329220096,83076749736557242056487941267521536,4611686018427387904,115792089237316195423570985008687907853269984665640564039457584007913129626623,4398046511104,115792089237316195423570985008687907853269984665640564039457584007913129639935]
def emb10_cs : List (Nat × Nat) := [(0,115792089237316195423570985008687907853268545709174988396520962045402626900479),(9,4294967808),(10,1024),(11,2048),(12,4096),(13,8192),(42,4398046511104),(47,140737488355328),(58,288230376151711744),(60,1152921504606846976),(62,4611686018427387904),(83,9671406556917033397649408),(99,633825300114114700748351602688),(105,40564819207303340847894502572032),(109,649037107316853453566312041152512),(112,5192296858534827628530496329220096),(114,20769187434139310514121985316880384),(116,83076749736557242056487941267521536),(120,1329227995784915872903807060280344576)]
theorem emb10_masksIn : masksIn emb10_nfa emb10_masks = true := by decide +kernel
theorem emb10_repOk : repOk emb10_masks emb10_cs = true := by decide +kernel
def emb10_rows : List Row := [⟨[],none,[],[⟨256,.other,false,some ⟨0,[],some 3,true⟩⟩,⟨256,.ws,false,some ⟨1,[.setEnt (.own 0)],some 1,false⟩⟩,⟨256,.lf,false,some ⟨1,[.setEnt (.own 0)],some 1,false⟩⟩,⟨256,.vt,false,some ⟨1,[.setEnt (.own 0)],some 1,false⟩⟩,⟨256,.ff,false,some ⟨1,[.setEnt (.own 0)],some 1,false⟩⟩,⟨256,.cr,false,some ⟨1,[.setEnt (.own 0)],some 1,false⟩⟩,⟨256,.cr,true,some ⟨1,[.setEnt (.own 0)],some 1,false⟩⟩,⟨256,.other,false,some ⟨2,[.setEnt (.own 1)],some 3,false⟩⟩,⟨256,.other,false,some ⟨3,[],some 3,false⟩⟩]⟩,⟨[12],some 1,[],[⟨256,.other,false,none⟩,⟨256,.ws,false,some ⟨1,[.setEnt (.own 0)],some 1,false⟩⟩,⟨256,.lf,false,some ⟨1,[.setEnt (.own 0)],some 1,false⟩⟩,⟨256,.vt,false,some ⟨1,[.setEnt (.own 0)],some 1,false⟩⟩,⟨256,.ff,false,some ⟨1,[.setEnt (.own 0)],some 1,false⟩⟩,⟨256,.cr,false,some ⟨1,[.setEnt (.own 0)],some 1,false⟩⟩,⟨256,.cr,true,some ⟨1,[.setEnt (.own 0)],some 1,false⟩⟩]⟩,⟨[13,16,21],some 3,[],[⟨256,.other,false,none⟩,⟨256,.ws,false,none⟩,⟨256,.lf,false,none⟩,⟨256,.vt,false,none⟩,⟨256,.ff,false,none⟩,⟨256,.cr,false,none⟩,⟨256,.cr,true,none⟩,⟨256,.other,false,some ⟨4,[.setEnt (.own 1)],none,false⟩⟩,⟨256,.other,false,some ⟨5,[.setEnt (.own 1)],some 2,false⟩⟩]⟩,⟨[0,21],some 3,[],[⟨256,.other,false,none⟩,⟨256,.ws,false,none⟩,⟨256,.lf,false,none⟩,⟨256,.vt,false,none⟩,⟨256,.ff,false,none⟩,⟨256,.cr,false,none⟩,⟨256,.cr,true,none⟩,⟨256,.other,false,some ⟨6,[],none,false⟩⟩]⟩,⟨[17],none,[],[⟨256,.other,false,some ⟨7,[.setEnt (.own 1)],none,false⟩⟩,⟨256,.ws,false,some ⟨7,[.setEnt (.own 1)],none,false⟩⟩,⟨256,.lf,false,some ⟨7,[.setEnt (.own 1)],none,false⟩⟩,⟨256,.vt,false,some ⟨7,[.setEnt (.own 1)],none,false⟩⟩,⟨256,.ff,false,some ⟨7,[.setEnt (.own 1)],none,false⟩⟩,⟨256,.cr,false,some ⟨7,[.setEnt (.own 1)],none,false⟩⟩,⟨256,.cr,true,some ⟨7,[.setEnt (.own 1)],none,false⟩⟩,⟨256,.other,false,some ⟨8,[.setEnt (.own 1)],none,false⟩⟩]⟩,⟨[14],some 2,[],[⟨256,.other,false,some ⟨9,[.setEnt (.own 1)],some 2,false⟩⟩,⟨256,.ws,false,some ⟨9,[.setEnt (.own 1)],some 2,false⟩⟩,⟨256,.lf,false,none⟩,⟨256,.vt,false,some ⟨9,[.setEnt (.own 1)],some 2,false⟩⟩,⟨256,.ff,false,none⟩,⟨256,.cr,false,none⟩,⟨256,.cr,true,none⟩]⟩,⟨[1],none,[],[⟨256,.other,false,none⟩,⟨256,.ws,false,none⟩,⟨256,.lf,false,none⟩,⟨256,.vt,false,none⟩,⟨256,.ff,false,none⟩,⟨256,.cr,false,none⟩,⟨256,.cr,true,none⟩,⟨256,.other,false,some ⟨10,[],none,false⟩⟩]⟩,⟨[18],none,[],[⟨256,.other,false,some ⟨7,[.setEnt (.own 1)],none,false⟩⟩,⟨256,.ws,false,some ⟨7,[.setEnt (.own 1)],none,false⟩⟩,⟨256,.lf,false,some ⟨7,[.setEnt (.own 1)],none,false⟩⟩,⟨256,.vt,false,some ⟨7,[.setEnt (.own 1)],none,false⟩⟩,⟨256,.ff,false,some ⟨7,[.setEnt (.own 1)],none,false⟩⟩,⟨256,.cr,false,some ⟨7,[.setEnt (.own 1)],none,false⟩⟩,⟨256,.cr,true,some ⟨7,[.setEnt (.own 1)],none,false⟩⟩,⟨256,.other,false,some ⟨8,[.setEnt (.own 1)],none,false⟩⟩]⟩,⟨[18,19],none,[],[⟨256,.other,false,some ⟨7,[.setEnt (.own 1)],none,false⟩⟩,⟨256,.ws,false,some ⟨7,[.setEnt (.own 1)],none,false⟩⟩,⟨256,.lf,false,some ⟨7,[.setEnt (.own 1)],none,false⟩⟩,⟨256,.vt,false,some ⟨7,[.setEnt (.own 1)],none,false⟩⟩,⟨256,.ff,false,some ⟨7,[.setEnt (.own 1)],none,false⟩⟩,⟨256,.cr,false,some ⟨7,[.setEnt (.own 1)],none,false⟩⟩,⟨256,.cr,true,some ⟨7,[.setEnt (.own 1)],none,false⟩⟩,⟨256,.other,false,some ⟨8,[.setEnt (.own 1)],none,false⟩⟩,⟨256,.other,false,some ⟨0,[.setEnt (.own 1)],some 2,true⟩⟩]⟩,⟨[15],some 2,[],[⟨256,.other,false,some ⟨9,[.setEnt (.own 1)],some 2,false⟩⟩,⟨256,.ws,false,some ⟨9,[.setEnt (.own 1)],some 2,false⟩⟩,⟨256,.lf,false,none⟩,⟨256,.vt,false,some ⟨9,[.setEnt (.own 1)],some 2,false⟩⟩,⟨256,.ff,false,none⟩,⟨256,.cr,false,none⟩,⟨256,.cr,true,none⟩]⟩,⟨[2],none,[],[⟨256,.other,false,none⟩,⟨256,.ws,false,none⟩,⟨256,.lf,false,none⟩,⟨256,.vt,false,none⟩,⟨256,.ff,false,none⟩,⟨256,.cr,false,none⟩,⟨256,.cr,true,none⟩,⟨256,.other,false,some ⟨11,[],none,false⟩⟩]⟩,⟨[3],none,[],[⟨256,.other,false,none⟩,⟨256,.ws,false,none⟩,⟨256,.lf,false,none⟩,⟨256,.vt,false,none⟩,⟨256,.ff,false,none⟩,⟨256,.cr,false,none⟩,⟨256,.cr,true,none⟩,⟨256,.other,false,some ⟨12,[],none,false⟩⟩]⟩,⟨[4],none,[],[⟨256,.other,false,none⟩,⟨256,.ws,false,none⟩,⟨256,.lf,false,none⟩,⟨256,.vt,false,none⟩,⟨256,.ff,false,none⟩,⟨256,.cr,false,none⟩,⟨256,.cr,true,none⟩,⟨256,.other,false,some ⟨13,[],none,false⟩⟩]⟩,⟨[5],none,[],[⟨256,.other,false,none⟩,⟨256,.ws,false,none⟩,⟨256,.lf,false,none⟩,⟨256,.vt,false,none⟩,⟨256,.ff,false,none⟩,⟨256,.cr,false,none⟩,⟨256,.cr,true,none⟩,⟨256,.other,false,some ⟨14,[],none,false⟩⟩]⟩,⟨[6],none,[],[⟨256,.other,false,none⟩,⟨256,.ws,false,none⟩,⟨256,.lf,false,none⟩,⟨256,.vt,false,none⟩,⟨256,.ff,false,none⟩,⟨256,.cr,false,none⟩,⟨256,.cr,true,none⟩,⟨256,.other,false,some ⟨15,[],none,false⟩⟩]⟩,⟨[7],none,[],[⟨256,.other,false,none⟩,⟨256,.ws,false,none⟩,⟨256,.lf,false,none⟩,⟨256,.vt,false,none⟩,⟨256,.ff,false,none⟩,⟨256,.cr,false,none⟩,⟨256,.cr,true,none⟩,⟨256,.other,false,some ⟨16,[],none,false⟩⟩]⟩,⟨[8],none,[],[⟨256,.other,false,none⟩,⟨256,.ws,false,none⟩,⟨256,.lf,false,none⟩,⟨256,.vt,false,none⟩,⟨256,.ff,false,none⟩,⟨256,.cr,false,none⟩,⟨256,.cr,true,none⟩,⟨256,.other,false,some ⟨17,[],none,false⟩⟩]⟩,⟨[9],none,[],[⟨256,.other,false,none⟩,⟨256,.ws,false,none⟩,⟨256,.lf,false,none⟩,⟨256,.vt,false,none⟩,⟨256,.ff,false,none⟩,⟨256,.cr,false,none⟩,⟨256,.cr,true,none⟩,⟨256,.other,false,some ⟨18,[],none,false⟩⟩]⟩,⟨[10],none,[],[⟨256,.other,false,none⟩,⟨256,.ws,false,none⟩,⟨256,.lf,false,none⟩,⟨256,.vt,false,none⟩,⟨256,.ff,false,none⟩,⟨256,.cr,false,none⟩,⟨256,.cr,true,none⟩,⟨256,.other,false,some ⟨0,[.emb .ret],some 0,true⟩⟩]⟩]
theorem emb10_rowsOk : rowsOk emb10_nfa [] (emb10_cs.map (·.1)) emb10_rows = true := by decide +kernel
def emb10_D : Dfa emb10_nfa := ⟨emb10_masks, [], emb10_cs, emb10_rows, emb10_masksIn, emb10_repOk, emb10_rowsOk⟩

/-- The automaton of `Emb.Nix.nix_dsq_shell_line`. -/
def emb13_nfa : Nfa := ⟨[⟨0,549755813888,[],[],0,0⟩,⟨2,4294967808,[],[(3,.setEnt (.own 0))],0,0⟩,⟨3,34359738368,[],[(4,.comment)],0,0⟩,⟨5,549755813888,[],[(5,.enqueue),(6,.code)],0,0⟩,⟨22,17179869184,[],[(14,.enqueue),(15,.code)],0,0⟩,⟨39,8192,[],[(23,.setEnt .newline)],0,0⟩,⟨41,1024,[],[(23,.setEnt .newline)],0,0⟩,⟨42,4096,[],[(23,.setEnt .newline)],0,0⟩,⟨43,8192,[.crAlone],[(23,.setEnt .newline)],0,0⟩,⟨44,115792089237316195423570985008687907853269984665640564039457584007908834656767,[],[(24,.setEnt (.own 3))],0,0⟩],[[⟨1,549755813888,[],[(0,.emb .outry),(1,.code),(2,.emb .back)],0,0⟩],[],[⟨2,4294967808,[],[(3,.setEnt (.own 0))],0,0⟩],[⟨4,115792089237316195423570985008687907853269984665640564039457584007913129626623,[],[],0,0⟩],[⟨4,115792089237316195423570985008687907853269984665640564039457584007913129626623,[],[],0,0⟩],[⟨6,8192,[],[],0,0⟩,⟨8,1024,[],[],0,0⟩,⟨9,4096,[],[],0,0⟩,⟨10,8192,[.crAlone],[],0,0⟩,⟨11,4951760157141521099596496896,[],[],0,0⟩,⟨17,4294967808,[],[],0,0⟩,⟨18,115792089237316195423570985008687907853269984665635612279300442486259482348031,[],[(11,.code)],0,0⟩,⟨19,4951760157141521099596496896,[],[],0,0⟩,⟨21,549755813888,[],[(13,.commit)],0,0⟩],[⟨7,1024,[],[],0,0⟩],[⟨6,8192,[],[(7,.setEnt .internalNl),(8,.emb (.cb 1))],0,0⟩,⟨8,1024,[],[(7,.setEnt .internalNl),(8,.emb (.cb 1))],0,0⟩,⟨9,4096,[],[(7,.setEnt .internalNl),(8,.emb (.cb 1))],0,0⟩,⟨10,8192,[.crAlone],[(7,.setEnt .internalNl),(8,.emb (.cb 1))],0,0⟩,⟨11,4951760157141521099596496896,[],[(7,.setEnt .internalNl),(8,.emb (.cb 1))],0,0⟩,⟨17,4294967808,[],[(7,.setEnt .internalNl),(8,.emb (.cb 1))],0,0⟩,⟨18,115792089237316195423570985008687907853269984665635612279300442486259482348031,[],[(7,.setEnt .internalNl),(8,.emb (.cb 1)),(11,.code)],0,0⟩,⟨19,4951760157141521099596496896,[],[(7,.setEnt .internalNl),(8,.emb (.cb 1))],0,0⟩,⟨21,549755813888,[],[(7,.setEnt .internalNl),(8,.emb (.cb 1)),(13,.commit)],0,0⟩],[⟨6,8192,[],[(7,.setEnt .internalNl),(8,.emb (.cb 1))],0,0⟩,⟨8,1024,[],[(7,.setEnt .internalNl),(8,.emb (.cb 1))],0,0⟩,⟨9,4096,[],[(7,.setEnt .internalNl),(8,.emb (.cb 1))],0,0⟩,⟨10,8192,[.crAlone],[(7,.setEnt .internalNl),(8,.emb (.cb 1))],0,0⟩,⟨11,4951760157141521099596496896,[],[(7,.setEnt .internalNl),(8,.emb (.cb 1))],0,0⟩,⟨17,4294967808,[],[(7,.setEnt .internalNl),(8,.emb (.cb 1))],0,0⟩,⟨18,115792089237316195423570985008687907853269984665635612279300442486259482348031,[],[(7,.setEnt .internalNl),(8,.emb (.cb 1)),(11,.code)],0,0⟩,⟨19,4951760157141521099596496896,[],[(7,.setEnt .internalNl),(8,.emb (.cb 1))],0,0⟩,⟨21,549755813888,[],[(7,.setEnt .internalNl),(8,.emb (.cb 1)),(13,.commit)],0,0⟩],[⟨6,8192,[],[(7,.setEnt .internalNl),(8,.emb (.cb 1))],0,0⟩,⟨8,1024,[],[(7,.setEnt .internalNl),(8,.emb (.cb 1))],0,0⟩,⟨9,4096,[],[(7,.setEnt .internalNl),(8,.emb (.cb 1))],0,0⟩,⟨10,8192,[.crAlone],[(7,.setEnt .internalNl),(8,.emb (.cb 1))],0,0⟩,⟨11,4951760157141521099596496896,[],[(7,.setEnt .internalNl),(8,.emb (.cb 1))],0,0⟩,⟨17,4294967808,[],[(7,.setEnt .internalNl),(8,.emb (.cb 1))],0,0⟩,⟨18,115792089237316195423570985008687907853269984665635612279300442486259482348031,[],[(7,.setEnt .internalNl),(8,.emb (.cb 1)),(11,.code)],0,0⟩,⟨19,4951760157141521099596496896,[],[(7,.setEnt .internalNl),(8,.emb (.cb 1))],0,0⟩,⟨21,549755813888,[],[(7,.setEnt .internalNl),(8,.emb (.cb 1)),(13,.commit)],0,0⟩],[⟨6,8192,[],[(7,.setEnt .internalNl),(8,.emb (.cb 1))],0,0⟩,⟨8,1024,[],[(7,.setEnt .internalNl),(8,.emb (.cb 1))],0,0⟩,⟨9,4096,[],[(7,.setEnt .internalNl),(8,.emb (.cb 1))],0,0⟩,⟨10,8192,[.crAlone],[(7,.setEnt .internalNl),(8,.emb (.cb 1))],0,0⟩,⟨11,4951760157141521099596496896,[],[(7,.setEnt .internalNl),(8,.emb (.cb 1))],0,0⟩,⟨17,4294967808,[],[(7,.setEnt .internalNl),(8,.emb (.cb 1))],0,0⟩,⟨18,115792089237316195423570985008687907853269984665635612279300442486259482348031,[],[(7,.setEnt .internalNl),(8,.emb (.cb 1)),(11,.code)],0,0⟩,⟨19,4951760157141521099596496896,[],[(7,.setEnt .internalNl),(8,.emb (.cb 1))],0,0⟩,⟨21,549755813888,[],[(7,.setEnt .internalNl),(8,.emb (.cb 1)),(13,.commit)],0,0⟩],[⟨12,8192,[],[],0,0⟩,⟨14,1024,[],[],0,0⟩,⟨15,4096,[],[],0,0⟩,⟨16,8192,[.crAlone],[],0,0⟩],[⟨13,1024,[],[],0,0⟩],[⟨6,8192,[],[(9,.setEnt .internalNl),(10,.emb (.cb 1))],0,0⟩,⟨8,1024,[],[(9,.setEnt .internalNl),(10,.emb (.cb 1))],0,0⟩,⟨9,4096,[],[(9,.setEnt .internalNl),(10,.emb (.cb 1))],0,0⟩,⟨10,8192,[.crAlone],[(9,.setEnt .internalNl),(10,.emb (.cb 1))],0,0⟩,⟨11,4951760157141521099596496896,[],[(9,.setEnt .internalNl),(10,.emb (.cb 1))],0,0⟩,⟨17,4294967808,[],[(9,.setEnt .internalNl),(10,.emb (.cb 1))],0,0⟩,⟨18,115792089237316195423570985008687907853269984665635612279300442486259482348031,[],[(9,.setEnt .internalNl),(10,.emb (.cb 1)),(11,.code)],0,0⟩,⟨19,4951760157141521099596496896,[],[(9,.setEnt .internalNl),(10,.emb (.cb 1))],0,0⟩,⟨21,549755813888,[],[(9,.setEnt .internalNl),(10,.emb (.cb 1)),(13,.commit)],0,0⟩],[⟨6,8192,[],[(9,.setEnt .internalNl),(10,.emb (.cb 1))],0,0⟩,⟨8,1024,[],[(9,.setEnt .internalNl),(10,.emb (.cb 1))],0,0⟩,⟨9,4096,[],[(9,.setEnt .internalNl),(10,.emb (.cb 1))],0,0⟩,⟨10,8192,[.crAlone],[(9,.setEnt .internalNl),(10,.emb (.cb 1))],0,0⟩,⟨11,4951760157141521099596496896,[],[(9,.setEnt .internalNl),(10,.emb (.cb 1))],0,0⟩,⟨17,4294967808,[],[(9,.setEnt .internalNl),(10,.emb (.cb 1))],0,0⟩,⟨18,115792089237316195423570985008687907853269984665635612279300442486259482348031,[],[(9,.setEnt .internalNl),(10,.emb (.cb 1)),(11,.code)],0,0⟩,⟨19,4951760157141521099596496896,[],[(9,.setEnt .internalNl),(10,.emb (.cb 1))],0,0⟩,⟨21,549755813888,[],[(9,.setEnt .internalNl),(10,.emb (.cb 1)),(13,.commit)],0,0⟩],[⟨6,8192,[],[(9,.setEnt .internalNl),(10,.emb (.cb 1))],0,0⟩,⟨8,1024,[],[(9,.setEnt .internalNl),(10,.emb (.cb 1))],0,0⟩,⟨9,4096,[],[(9,.setEnt .internalNl),(10,.emb (.cb 1))],0,0⟩,⟨10,8192,[.crAlone],[(9,.setEnt .internalNl),(10,.emb (.cb 1))],0,0⟩,⟨11,4951760157141521099596496896,[],[(9,.setEnt .internalNl),(10,.emb (.cb 1))],0,0⟩,⟨17,4294967808,[],[(9,.setEnt .internalNl),(10,.emb (.cb 1))],0,0⟩,⟨18,115792089237316195423570985008687907853269984665635612279300442486259482348031,[],[(9,.setEnt .internalNl),(10,.emb (.cb 1)),(11,.code)],0,0⟩,⟨19,4951760157141521099596496896,[],[(9,.setEnt .internalNl),(10,.emb (.cb 1))],0,0⟩,⟨21,549755813888,[],[(9,.setEnt .internalNl),(10,.emb (.cb 1)),(13,.commit)],0,0⟩],[⟨6,8192,[],[(9,.setEnt .internalNl),(10,.emb (.cb 1))],0,0⟩,⟨8,1024,[],[(9,.setEnt .internalNl),(10,.emb (.cb 1))],0,0⟩,⟨9,4096,[],[(9,.setEnt .internalNl),(10,.emb (.cb 1))],0,0⟩,⟨10,8192,[.crAlone],[(9,.setEnt .internalNl),(10,.emb (.cb 1))],0,0⟩,⟨11,4951760157141521099596496896,[],[(9,.setEnt .internalNl),(10,.emb (.cb 1))],0,0⟩,⟨17,4294967808,[],[(9,.setEnt .internalNl),(10,.emb (.cb 1))],0,0⟩,⟨18,115792089237316195423570985008687907853269984665635612279300442486259482348031,[],[(9,.setEnt .internalNl),(10,.emb (.cb 1)),(11,.code)],0,0⟩,⟨19,4951760157141521099596496896,[],[(9,.setEnt .internalNl),(10,.emb (.cb 1))],0,0⟩,⟨21,549755813888,[],[(9,.setEnt .internalNl),(10,.emb (.cb 1)),(13,.commit)],0,0⟩],[⟨6,8192,[],[],0,0⟩,⟨8,1024,[],[],0,0⟩,⟨9,4096,[],[],0,0⟩,⟨10,8192,[.crAlone],[],0,0⟩,⟨11,4951760157141521099596496896,[],[],0,0⟩,⟨17,4294967808,[],[],0,0⟩,⟨18,115792089237316195423570985008687907853269984665635612279300442486259482348031,[],[(11,.code)],0,0⟩,⟨19,4951760157141521099596496896,[],[],0,0⟩,⟨21,549755813888,[],[(13,.commit)],0,0⟩],[⟨6,8192,[],[],0,0⟩,⟨8,1024,[],[],0,0⟩,⟨9,4096,[],[],0,0⟩,⟨10,8192,[.crAlone],[],0,0⟩,⟨11,4951760157141521099596496896,[],[],0,0⟩,⟨17,4294967808,[],[],0,0⟩,⟨18,115792089237316195423570985008687907853269984665635612279300442486259482348031,[],[(11,.code)],0,0⟩,⟨19,4951760157141521099596496896,[],[],0,0⟩,⟨21,549755813888,[],[(13,.commit)],0,0⟩],[⟨20,115792089237316195423570985008687907853269984665640564039457584007913129626623,[],[(12,.code)],0,0⟩],[⟨6,8192,[],[],0,0⟩,⟨8,1024,[],[],0,0⟩,⟨9,4096,[],[],0,0⟩,⟨10,8192,[.crAlone],[],0,0⟩,⟨11,4951760157141521099596496896,[],[],0,0⟩,⟨17,4294967808,[],[],0,0⟩,⟨18,115792089237316195423570985008687907853269984665635612279300442486259482348031,[],[(11,.code)],0,0⟩,⟨19,4951760157141521099596496896,[],[],0,0⟩,⟨21,549755813888,[],[(13,.commit)],0,0⟩],[],[⟨23,8192,[],[],0,0⟩,⟨25,1024,[],[],0,0⟩,⟨26,4096,[],[],0,0⟩,⟨27,8192,[.crAlone],[],0,0⟩,⟨28,4951760157141521099596496896,[],[],0,0⟩,⟨34,4294967808,[],[],0,0⟩,⟨35,115792089237316195423570985008687907853269984665635612279300442486792058292735,[],[(20,.code)],0,0⟩,⟨36,4951760157141521099596496896,[],[],0,0⟩,⟨38,17179869184,[],[(22,.commit)],0,0⟩],[⟨24,1024,[],[],0,0⟩],[⟨23,8192,[],[(16,.setEnt .internalNl),(17,.emb (.cb 1))],0,0⟩,⟨25,1024,[],[(16,.setEnt .internalNl),(17,.emb (.cb 1))],0,0⟩,⟨26,4096,[],[(16,.setEnt .internalNl),(17,.emb (.cb 1))],0,0⟩,⟨27,8192,[.crAlone],[(16,.setEnt .internalNl),(17,.emb (.cb 1))],0,0⟩,⟨28,4951760157141521099596496896,[],[(16,.setEnt .internalNl),(17,.emb (.cb 1))],0,0⟩,⟨34,4294967808,[],[(16,.setEnt .internalNl),(17,.emb (.cb 1))],0,0⟩,⟨35,115792089237316195423570985008687907853269984665635612279300442486792058292735,[],[(16,.setEnt .internalNl),(17,.emb (.cb 1)),(20,.code)],0,0⟩,⟨36,4951760157141521099596496896,[],[(16,.setEnt .internalNl),(17,.emb (.cb 1))],0,0⟩,⟨38,17179869184,[],[(16,.setEnt .internalNl),(17,.emb (.cb 1)),(22,.commit)],0,0⟩],[⟨23,8192,[],[(16,.setEnt .internalNl),(17,.emb (.cb 1))],0,0⟩,⟨25,1024,[],[(16,.setEnt .internalNl),(17,.emb (.cb 1))],0,0⟩,⟨26,4096,[],[(16,.setEnt .internalNl),(17,.emb (.cb 1))],0,0⟩,⟨27,8192,[.crAlone],[(16,.setEnt .internalNl),(17,.emb (.cb 1))],0,0⟩,⟨28,4951760157141521099596496896,[],[(16,.setEnt .internalNl),(17,.emb (.cb 1))],0,0⟩,⟨34,4294967808,[],[(16,.setEnt .internalNl),(17,.emb (.cb 1))],0,0⟩,⟨35,115792089237316195423570985008687907853269984665635612279300442486792058292735,[],[(16,.setEnt .internalNl),(17,.emb (.cb 1)),(20,.code)],0,0⟩,⟨36,4951760157141521099596496896,[],[(16,.setEnt .internalNl),(17,.emb (.cb 1))],0,0⟩,⟨38,17179869184,[],[(16,.setEnt .internalNl),(17,.emb (.cb 1)),(22,.commit)],0,0⟩],[⟨23,8192,[],[(16,.setEnt .internalNl),(17,.emb (.cb 1))],0,0⟩,⟨25,1024,[],[(16,.setEnt .internalNl),(17,.emb (.cb 1))],0,0⟩,⟨26,4096,[],[(16,.setEnt .internalNl),(17,.emb (.cb 1))],0,0⟩,⟨27,8192,[.crAlone],[(16,.setEnt .internalNl),(17,.emb (.cb 1))],0,0⟩,⟨28,4951760157141521099596496896,[],[(16,.setEnt .internalNl),(17,.emb (.cb 1))],0,0⟩,⟨34,4294967808,[],[(16,.setEnt .internalNl),(17,.emb (.cb 1))],0,0⟩,⟨35,115792089237316195423570985008687907853269984665635612279300442486792058292735,[],[(16,.setEnt .internalNl),(17,.emb (.cb 1)),(20,.code)],0,0⟩,⟨36,4951760157141521099596496896,[],[(16,.setEnt .internalNl),(17,.emb (.cb 1))],0,0⟩,⟨38,17179869184,[],[(16,.setEnt .internalNl),(17,.emb (.cb 1)),(22,.commit)],0,0⟩],[⟨23,8192,[],[(16,.setEnt .internalNl),(17,.emb (.cb 1))],0,0⟩,⟨25,1024,[],[(16,.setEnt .internalNl),(17,.emb (.cb 1))],0,0⟩,⟨26,4096,[],[(16,.setEnt .internalNl),(17,.emb (.cb 1))],0,0⟩,⟨27,8192,[.crAlone],[(16,.setEnt .internalNl),(17,.emb (.cb 1))],0,0⟩,⟨28,4951760157141521099596496896,[],[(16,.setEnt .internalNl),(17,.emb (.cb 1))],0,0⟩,⟨34,4294967808,[],[(16,.setEnt .internalNl),(17,.emb (.cb 1))],0,0⟩,⟨35,115792089237316195423570985008687907853269984665635612279300442486792058292735,[],[(16,.setEnt .internalNl),(17,.emb (.cb 1)),(20,.code)],0,0⟩,⟨36,4951760157141521099596496896,[],[(16,.setEnt .internalNl),(17,.emb (.cb 1))],0,0⟩,⟨38,17179869184,[],[(16,.setEnt .internalNl),(17,.emb (.cb 1)),(22,.commit)],0,0⟩],[⟨29,8192,[],[],0,0⟩,⟨31,1024,[],[],0,0⟩,⟨32,4096,[],[],0,0⟩,⟨33,8192,[.crAlone],[],0,0⟩],[⟨30,1024,[],[],0,0⟩],[⟨23,8192,[],[(18,.setEnt .internalNl),(19,.emb (.cb 1))],0,0⟩,⟨25,1024,[],[(18,.setEnt .internalNl),(19,.emb (.cb 1))],0,0⟩,⟨26,4096,[],[(18,.setEnt .internalNl),(19,.emb (.cb 1))],0,0⟩,⟨27,8192,[.crAlone],[(18,.setEnt .internalNl),(19,.emb (.cb 1))],0,0⟩,⟨28,4951760157141521099596496896,[],[(18,.setEnt .internalNl),(19,.emb (.cb 1))],0,0⟩,⟨34,4294967808,[],[(18,.setEnt .internalNl),(19,.emb (.cb 1))],0,0⟩,⟨35,115792089237316195423570985008687907853269984665635612279300442486792058292735,[],[(18,.setEnt .internalNl),(19,.emb (.cb 1)),(20,.code)],0,0⟩,⟨36,4951760157141521099596496896,[],[(18,.setEnt .internalNl),(19,.emb (.cb 1))],0,0⟩,⟨38,17179869184,[],[(18,.setEnt .internalNl),(19,.emb (.cb 1)),(22,.commit)],0,0⟩],[⟨23,8192,[],[(18,.setEnt .internalNl),(19,.emb (.cb 1))],0,0⟩,⟨25,1024,[],[(18,.setEnt .internalNl),(19,.emb (.cb 1))],0,0⟩,⟨26,4096,[],[(18,.setEnt .internalNl),(19,.emb (.cb 1))],0,0⟩,⟨27,8192,[.crAlone],[(18,.setEnt .internalNl),(19,.emb (.cb 1))],0,0⟩,⟨28,4951760157141521099596496896,[],[(18,.setEnt .internalNl),(19,.emb (.cb 1))],0,0⟩,⟨34,4294967808,[],[(18,.setEnt .internalNl),(19,.emb (.cb 1))],0,0⟩,⟨35,115792089237316195423570985008687907853269984665635612279300442486792058292735,[],[(18,.setEnt .internalNl),(19,.emb (.cb 1)),(20,.code)],0,0⟩,⟨36,4951760157141521099596496896,[],[(18,.setEnt .internalNl),(19,.emb (.cb 1))],0,0⟩,⟨38,17179869184,[],[(18,.setEnt .internalNl),(19,.emb (.cb 1)),(22,.commit)],0,0⟩],[⟨23,8192,[],[(18,.setEnt .internalNl),(19,.emb (.cb 1))],0,0⟩,⟨25,1024,[],[(18,.setEnt .internalNl),(19,.emb (.cb 1))],0,0⟩,⟨26,4096,[],[(18,.setEnt .internalNl),(19,.emb (.cb 1))],0,0⟩,⟨27,8192,[.crAlone],[(18,.setEnt .internalNl),(19,.emb (.cb 1))],0,0⟩,⟨28,4951760157141521099596496896,[],[(18,.setEnt .internalNl),(19,.emb (.cb 1))],0,0⟩,⟨34,4294967808,[],[(18,.setEnt .internalNl),(19,.emb (.cb 1))],0,0⟩,⟨35,115792089237316195423570985008687907853269984665635612279300442486792058292735,[],[(18,.setEnt .internalNl),(19,.emb (.cb 1)),(20,.code)],0,0⟩,⟨36,4951760157141521099596496896,[],[(18,.setEnt .internalNl),(19,.emb (.cb 1))],0,0⟩,⟨38,17179869184,[],[(18,.setEnt .internalNl),(19,.emb (.cb 1)),(22,.commit)],0,0⟩],[⟨23,8192,[],[(18,.setEnt .internalNl),(19,.emb (.cb 1))],0,0⟩,⟨25,1024,[],[(18,.setEnt .internalNl),(19,.emb (.cb 1))],0,0⟩,⟨26,4096,[],[(18,.setEnt .internalNl),(19,.emb (.cb 1))],0,0⟩,⟨27,8192,[.crAlone],[(18,.setEnt .internalNl),(19,.emb (.cb 1))],0,0⟩,⟨28,4951760157141521099596496896,[],[(18,.setEnt .internalNl),(19,.emb (.cb 1))],0,0⟩,⟨34,4294967808,[],[(18,.setEnt .internalNl),(19,.emb (.cb 1))],0,0⟩,⟨35,115792089237316195423570985008687907853269984665635612279300442486792058292735,[],[(18,.setEnt .internalNl),(19,.emb (.cb 1)),(20,.code)],0,0⟩,⟨36,4951760157141521099596496896,[],[(18,.setEnt .internalNl),(19,.emb (.cb 1))],0,0⟩,⟨38,17179869184,[],[(18,.setEnt .internalNl),(19,.emb (.cb 1)),(22,.commit)],0,0⟩],[⟨23,8192,[],[],0,0⟩,⟨25,1024,[],[],0,0⟩,⟨26,4096,[],[],0,0⟩,⟨27,8192,[.crAlone],[],0,0⟩,⟨28,4951760157141521099596496896,[],[],0,0⟩,⟨34,4294967808,[],[],0,0⟩,⟨35,115792089237316195423570985008687907853269984665635612279300442486792058292735,[],[(20,.code)],0,0⟩,⟨36,4951760157141521099596496896,[],[],0,0⟩,⟨38,17179869184,[],[(22,.commit)],0,0⟩],[⟨23,8192,[],[],0,0⟩,⟨25,1024,[],[],0,0⟩,⟨26,4096,[],[],0,0⟩,⟨27,8192,[.crAlone],[],0,0⟩,⟨28,4951760157141521099596496896,[],[],0,0⟩,⟨34,4294967808,[],[],0,0⟩,⟨35,115792089237316195423570985008687907853269984665635612279300442486792058292735,[],[(20,.code)],0,0⟩,⟨36,4951760157141521099596496896,[],[],0,0⟩,⟨38,17179869184,[],[(22,.commit)],0,0⟩],[⟨37,115792089237316195423570985008687907853269984665640564039457584007913129626623,[],[(21,.code)],0,0⟩],[⟨23,8192,[],[],0,0⟩,⟨25,1024,[],[],0,0⟩,⟨26,4096,[],[],0,0⟩,⟨27,8192,[.crAlone],[],0,0⟩,⟨28,4951760157141521099596496896,[],[],0,0⟩,⟨34,4294967808,[],[],0,0⟩,⟨35,115792089237316195423570985008687907853269984665635612279300442486792058292735,[],[(20,.code)],0,0⟩,⟨36,4951760157141521099596496896,[],[],0,0⟩,⟨38,17179869184,[],[(22,.commit)],0,0⟩],[],[⟨40,1024,[],[(23,.setEnt .newline)],0,0⟩],[],[],[],[],[]],[none,some (0,[]),some (1,[]),some (2,[]),some (2,[]),none,none,none,none,none,none,none,none,none,none,none,none,none,none,none,none,some (3,[]),none,none,none,none,none,none,none,none,none,none,none,none,none,none,none,none,some (3,[]),none,some (4,[]),some (4,[]),some (4,[]),some (4,[]),some (5,[])],[3,4,5,23,24,25]⟩
def emb13_masks : List Nat := [549755813888,4294967808,34359738368,17179869184,8192,1024,4096,115792089237316195423570985008687907853269984665640564039457584007908834656767,115792089237316195423570985008687907853269984665640564039457584007913129626623,4951760157141521099596496896,115792089237316195423570985008687907853269984665635612279300442486259482348031,115792089237316195423570985008687907853269984665635612279300442486792058292735]
def emb13_cs : List (Nat × Nat) := [(0,115792089237316195423570985008687907853269984665635612279300442486207942738431),(9,4294967808),(10,1024),(11,2048),(12,4096),(13,8192),(34,17179869184),(35,34359738368),(39,549755813888),(92,4951760157141521099596496896)]
theorem emb13_masksIn : masksIn emb13_nfa emb13_masks = true := by decide +kernel
theorem emb13_repOk : repOk emb13_masks emb13_cs = true := by decide +kernel
def emb13_rows : List Row := [⟨[],none,[],[⟨256,.other,false,some ⟨0,[.setEnt (.own 3)],some 5,true⟩⟩,⟨256,.ws,false,some ⟨1,[.setEnt (.own 0)],some 1,false⟩⟩,⟨256,.lf,false,some ⟨0,[.setEnt .newline],some 4,true⟩⟩,⟨256,.vt,false,none⟩,⟨256,.ff,false,some ⟨0,[.setEnt .newline],some 4,true⟩⟩,⟨256,.cr,false,some ⟨2,[.setEnt .newline],none,false⟩⟩,⟨256,.cr,true,some ⟨3,[.setEnt .newline],some 4,false⟩⟩,⟨256,.other,false,some ⟨4,[.enqueue,.code,.setEnt (.own 3)],some 5,false⟩⟩,⟨256,.other,false,some ⟨5,[.comment,.setEnt (.own 3)],some 2,false⟩⟩,⟨256,.other,false,some ⟨6,[.enqueue,.code,.setEnt (.own 3)],some 5,false⟩⟩]⟩,⟨[2],some 1,[],[⟨256,.other,false,none⟩,⟨256,.ws,false,some ⟨1,[.setEnt (.own 0)],some 1,false⟩⟩,⟨256,.lf,false,none⟩,⟨256,.vt,false,none⟩,⟨256,.ff,false,none⟩,⟨256,.cr,false,none⟩,⟨256,.cr,true,none⟩]⟩,⟨[39],none,[],[⟨256,.other,false,none⟩,⟨256,.ws,false,none⟩,⟨256,.lf,false,some ⟨0,[.setEnt .newline],some 4,true⟩⟩,⟨256,.vt,false,none⟩,⟨256,.ff,false,none⟩,⟨256,.cr,false,none⟩,⟨256,.cr,true,none⟩]⟩,⟨[39,43],some 4,[],[⟨256,.other,false,none⟩,⟨256,.ws,false,none⟩,⟨256,.lf,false,some ⟨0,[.setEnt .newline],some 4,true⟩⟩,⟨256,.vt,false,none⟩,⟨256,.ff,false,none⟩,⟨256,.cr,false,none⟩,⟨256,.cr,true,none⟩]⟩,⟨[22,44],some 5,[],[⟨256,.other,false,some ⟨7,[.code],none,false⟩⟩,⟨256,.ws,false,some ⟨8,[],none,false⟩⟩,⟨256,.lf,false,some ⟨9,[],none,false⟩⟩,⟨256,.vt,false,some ⟨7,[.code],none,false⟩⟩,⟨256,.ff,false,some ⟨10,[],none,false⟩⟩,⟨256,.cr,false,some ⟨11,[],none,false⟩⟩,⟨256,.cr,true,some ⟨12,[],none,false⟩⟩,⟨256,.other,false,some ⟨0,[.commit],some 3,true⟩⟩,⟨256,.other,false,some ⟨13,[],none,false⟩⟩]⟩,⟨[3,44],some 2,[],[⟨256,.other,false,some ⟨14,[],some 2,false⟩⟩,⟨256,.ws,false,some ⟨14,[],some 2,false⟩⟩,⟨256,.lf,false,none⟩,⟨256,.vt,false,some ⟨14,[],some 2,false⟩⟩,⟨256,.ff,false,none⟩,⟨256,.cr,false,none⟩,⟨256,.cr,true,none⟩]⟩,⟨[0,5,44],some 5,[],[⟨256,.other,false,some ⟨15,[.code],none,false⟩⟩,⟨256,.ws,false,some ⟨16,[],none,false⟩⟩,⟨256,.lf,false,some ⟨17,[],none,false⟩⟩,⟨256,.vt,false,some ⟨15,[.code],none,false⟩⟩,⟨256,.ff,false,some ⟨18,[],none,false⟩⟩,⟨256,.cr,false,some ⟨19,[],none,false⟩⟩,⟨256,.cr,true,some ⟨20,[],none,false⟩⟩,⟨256,.other,false,some ⟨0,[.emb .outry,.code,.emb .back],some 0,true⟩⟩,⟨256,.other,false,some ⟨21,[],none,false⟩⟩]⟩,⟨[35],none,[],[⟨256,.other,false,some ⟨7,[.code],none,false⟩⟩,⟨256,.ws,false,some ⟨8,[],none,false⟩⟩,⟨256,.lf,false,some ⟨9,[],none,false⟩⟩,⟨256,.vt,false,some ⟨7,[.code],none,false⟩⟩,⟨256,.ff,false,some ⟨10,[],none,false⟩⟩,⟨256,.cr,false,some ⟨11,[],none,false⟩⟩,⟨256,.cr,true,some ⟨12,[],none,false⟩⟩,⟨256,.other,false,some ⟨0,[.commit],some 3,true⟩⟩,⟨256,.other,false,some ⟨13,[],none,false⟩⟩]⟩,⟨[34],none,[],[⟨256,.other,false,some ⟨7,[.code],none,false⟩⟩,⟨256,.ws,false,some ⟨8,[],none,false⟩⟩,⟨256,.lf,false,some ⟨9,[],none,false⟩⟩,⟨256,.vt,false,some ⟨7,[.code],none,false⟩⟩,⟨256,.ff,false,some ⟨10,[],none,false⟩⟩,⟨256,.cr,false,some ⟨11,[],none,false⟩⟩,⟨256,.cr,true,some ⟨12,[],none,false⟩⟩,⟨256,.other,false,some ⟨0,[.commit],some 3,true⟩⟩,⟨256,.other,false,some ⟨13,[],none,false⟩⟩]⟩,⟨[25],none,[],[⟨256,.other,false,some ⟨7,[.setEnt .internalNl,.emb (.cb 1),.code],none,false⟩⟩,⟨256,.ws,false,some ⟨8,[.setEnt .internalNl,.emb (.cb 1)],none,false⟩⟩,⟨256,.lf,false,some ⟨9,[.setEnt .internalNl,.emb (.cb 1)],none,false⟩⟩,⟨256,.vt,false,some ⟨7,[.setEnt .internalNl,.emb (.cb 1),.code],none,false⟩⟩,⟨256,.ff,false,some ⟨10,[.setEnt .internalNl,.emb (.cb 1)],none,false⟩⟩,⟨256,.cr,false,some ⟨11,[.setEnt .internalNl,.emb (.cb 1)],none,false⟩⟩,⟨256,.cr,true,some ⟨12,[.setEnt .internalNl,.emb (.cb 1)],none,false⟩⟩,⟨256,.other,false,some ⟨0,[.setEnt .internalNl,.emb (.cb 1),.commit],some 3,true⟩⟩,⟨256,.other,false,some ⟨13,[.setEnt .internalNl,.emb (.cb 1)],none,false⟩⟩]⟩,⟨[26],none,[],[⟨256,.other,false,some ⟨7,[.setEnt .internalNl,.emb (.cb 1),.code],none,false⟩⟩,⟨256,.ws,false,some ⟨8,[.setEnt .internalNl,.emb (.cb 1)],none,false⟩⟩,⟨256,.lf,false,some ⟨9,[.setEnt .internalNl,.emb (.cb 1)],none,false⟩⟩,⟨256,.vt,false,some ⟨7,[.setEnt .internalNl,.emb (.cb 1),.code],none,false⟩⟩,⟨256,.ff,false,some ⟨10,[.setEnt .internalNl,.emb (.cb 1)],none,false⟩⟩,⟨256,.cr,false,some ⟨11,[.setEnt .internalNl,.emb (.cb 1)],none,false⟩⟩,⟨256,.cr,true,some ⟨12,[.setEnt .internalNl,.emb (.cb 1)],none,false⟩⟩,⟨256,.other,false,some ⟨0,[.setEnt .internalNl,.emb (.cb 1),.commit],some 3,true⟩⟩,⟨256,.other,false,some ⟨13,[.setEnt .internalNl,.emb (.cb 1)],none,false⟩⟩]⟩,⟨[23],none,[],[⟨256,.other,false,none⟩,⟨256,.ws,false,none⟩,⟨256,.lf,false,some ⟨22,[],none,false⟩⟩,⟨256,.vt,false,none⟩,⟨256,.ff,false,none⟩,⟨256,.cr,false,none⟩,⟨256,.cr,true,none⟩]⟩,⟨[23,27],none,[],[⟨256,.other,false,some ⟨7,[.setEnt .internalNl,.emb (.cb 1),.code],none,false⟩⟩,⟨256,.ws,false,some ⟨8,[.setEnt .internalNl,.emb (.cb 1)],none,false⟩⟩,⟨256,.lf,false,some ⟨23,[.setEnt .internalNl,.emb (.cb 1)],none,false⟩⟩,⟨256,.vt,false,some ⟨7,[.setEnt .internalNl,.emb (.cb 1),.code],none,false⟩⟩,⟨256,.ff,false,some ⟨10,[.setEnt .internalNl,.emb (.cb 1)],none,false⟩⟩,⟨256,.cr,false,some ⟨11,[.setEnt .internalNl,.emb (.cb 1)],none,false⟩⟩,⟨256,.cr,true,some ⟨12,[.setEnt .internalNl,.emb (.cb 1)],none,false⟩⟩,⟨256,.other,false,some ⟨0,[.setEnt .internalNl,.emb (.cb 1),.commit],some 3,true⟩⟩,⟨256,.other,false,some ⟨13,[.setEnt .internalNl,.emb (.cb 1)],none,false⟩⟩]⟩,⟨[28,36],none,[],[⟨256,.other,false,some ⟨24,[.code],none,false⟩⟩,⟨256,.ws,false,some ⟨24,[.code],none,false⟩⟩,⟨256,.lf,false,some ⟨25,[],none,false⟩⟩,⟨256,.vt,false,some ⟨24,[.code],none,false⟩⟩,⟨256,.ff,false,some ⟨26,[],none,false⟩⟩,⟨256,.cr,false,some ⟨27,[],none,false⟩⟩,⟨256,.cr,true,some ⟨28,[],none,false⟩⟩]⟩,⟨[4],some 2,[],[⟨256,.other,false,some ⟨14,[],some 2,false⟩⟩,⟨256,.ws,false,some ⟨14,[],some 2,false⟩⟩,⟨256,.lf,false,none⟩,⟨256,.vt,false,some ⟨14,[],some 2,false⟩⟩,⟨256,.ff,false,none⟩,⟨256,.cr,false,none⟩,⟨256,.cr,true,none⟩]⟩,⟨[18],none,[],[⟨256,.other,false,some ⟨15,[.code],none,false⟩⟩,⟨256,.ws,false,some ⟨16,[],none,false⟩⟩,⟨256,.lf,false,some ⟨17,[],none,false⟩⟩,⟨256,.vt,false,some ⟨15,[.code],none,false⟩⟩,⟨256,.ff,false,some ⟨18,[],none,false⟩⟩,⟨256,.cr,false,some ⟨19,[],none,false⟩⟩,⟨256,.cr,true,some ⟨20,[],none,false⟩⟩,⟨256,.other,false,some ⟨0,[.commit],some 3,true⟩⟩,⟨256,.other,false,some ⟨21,[],none,false⟩⟩]⟩,⟨[17],none,[],[⟨256,.other,false,some ⟨15,[.code],none,false⟩⟩,⟨256,.ws,false,some ⟨16,[],none,false⟩⟩,⟨256,.lf,false,some ⟨17,[],none,false⟩⟩,⟨256,.vt,false,some ⟨15,[.code],none,false⟩⟩,⟨256,.ff,false,some ⟨18,[],none,false⟩⟩,⟨256,.cr,false,some ⟨19,[],none,false⟩⟩,⟨256,.cr,true,some ⟨20,[],none,false⟩⟩,⟨256,.other,false,some ⟨0,[.commit],some 3,true⟩⟩,⟨256,.other,false,some ⟨21,[],none,false⟩⟩]⟩,⟨[8],none,[],[⟨256,.other,false,some ⟨15,[.setEnt .internalNl,.emb (.cb 1),.code],none,false⟩⟩,⟨256,.ws,false,some ⟨16,[.setEnt .internalNl,.emb (.cb 1)],none,false⟩⟩,⟨256,.lf,false,some ⟨17,[.setEnt .internalNl,.emb (.cb 1)],none,false⟩⟩,⟨256,.vt,false,some ⟨15,[.setEnt .internalNl,.emb (.cb 1),.code],none,false⟩⟩,⟨256,.ff,false,some ⟨18,[.setEnt .internalNl,.emb (.cb 1)],none,false⟩⟩,⟨256,.cr,false,some ⟨19,[.setEnt .internalNl,.emb (.cb 1)],none,false⟩⟩,⟨256,.cr,true,some ⟨20,[.setEnt .internalNl,.emb (.cb 1)],none,false⟩⟩,⟨256,.other,false,some ⟨0,[.setEnt .internalNl,.emb (.cb 1),.commit],some 3,true⟩⟩,⟨256,.other,false,some ⟨21,[.setEnt .internalNl,.emb (.cb 1)],none,false⟩⟩]⟩,⟨[9],none,[],[⟨256,.other,false,some ⟨15,[.setEnt .internalNl,.emb (.cb 1),.code],none,false⟩⟩,⟨256,.ws,false,some ⟨16,[.setEnt .internalNl,.emb (.cb 1)],none,false⟩⟩,⟨256,.lf,false,some ⟨17,[.setEnt .internalNl,.emb (.cb 1)],none,false⟩⟩,⟨256,.vt,false,some ⟨15,[.setEnt .internalNl,.emb (.cb 1),.code],none,false⟩⟩,⟨256,.ff,false,some ⟨18,[.setEnt .internalNl,.emb (.cb 1)],none,false⟩⟩,⟨256,.cr,false,some ⟨19,[.setEnt .internalNl,.emb (.cb 1)],none,false⟩⟩,⟨256,.cr,true,some ⟨20,[.setEnt .internalNl,.emb (.cb 1)],none,false⟩⟩,⟨256,.other,false,some ⟨0,[.setEnt .internalNl,.emb (.cb 1),.commit],some 3,true⟩⟩,⟨256,.other,false,some ⟨21,[.setEnt .internalNl,.emb (.cb 1)],none,false⟩⟩]⟩,⟨[6],none,[],[⟨256,.other,false,none⟩,⟨256,.ws,false,none⟩,⟨256,.lf,false,some ⟨29,[],none,false⟩⟩,⟨256,.vt,false,none⟩,⟨256,.ff,false,none⟩,⟨256,.cr,false,none⟩,⟨256,.cr,true,none⟩]⟩,⟨[6,10],none,[],[⟨256,.other,false,some ⟨15,[.setEnt .internalNl,.emb (.cb 1),.code],none,false⟩⟩,⟨256,.ws,false,some ⟨16,[.setEnt .internalNl,.emb (.cb 1)],none,false⟩⟩,⟨256,.lf,false,some ⟨30,[.setEnt .internalNl,.emb (.cb 1)],none,false⟩⟩,⟨256,.vt,false,some ⟨15,[.setEnt .internalNl,.emb (.cb 1),.code],none,false⟩⟩,⟨256,.ff,false,some ⟨18,[.setEnt .internalNl,.emb (.cb 1)],none,false⟩⟩,⟨256,.cr,false,some ⟨19,[.setEnt .internalNl,.emb (.cb 1)],none,false⟩⟩,⟨256,.cr,true,some ⟨20,[.setEnt .internalNl,.emb (.cb 1)],none,false⟩⟩,⟨256,.other,false,some ⟨0,[.setEnt .internalNl,.emb (.cb 1),.commit],some 3,true⟩⟩,⟨256,.other,false,some ⟨21,[.setEnt .internalNl,.emb (.cb 1)],none,false⟩⟩]⟩,⟨[11,19],none,[],[⟨256,.other,false,some ⟨31,[.code],none,false⟩⟩,⟨256,.ws,false,some ⟨31,[.code],none,false⟩⟩,⟨256,.lf,false,some ⟨32,[],none,false⟩⟩,⟨256,.vt,false,some ⟨31,[.code],none,false⟩⟩,⟨256,.ff,false,some ⟨33,[],none,false⟩⟩,⟨256,.cr,false,some ⟨34,[],none,false⟩⟩,⟨256,.cr,true,some ⟨35,[],none,false⟩⟩]⟩,⟨[24],none,[],[⟨256,.other,false,some ⟨7,[.setEnt .internalNl,.emb (.cb 1),.code],none,false⟩⟩,⟨256,.ws,false,some ⟨8,[.setEnt .internalNl,.emb (.cb 1)],none,false⟩⟩,⟨256,.lf,false,some ⟨9,[.setEnt .internalNl,.emb (.cb 1)],none,false⟩⟩,⟨256,.vt,false,some ⟨7,[.setEnt .internalNl,.emb (.cb 1),.code],none,false⟩⟩,⟨256,.ff,false,some ⟨10,[.setEnt .internalNl,.emb (.cb 1)],none,false⟩⟩,⟨256,.cr,false,some ⟨11,[.setEnt .internalNl,.emb (.cb 1)],none,false⟩⟩,⟨256,.cr,true,some ⟨12,[.setEnt .internalNl,.emb (.cb 1)],none,false⟩⟩,⟨256,.other,false,some ⟨0,[.setEnt .internalNl,.emb (.cb 1),.commit],some 3,true⟩⟩,⟨256,.other,false,some ⟨13,[.setEnt .internalNl,.emb (.cb 1)],none,false⟩⟩]⟩,⟨[24,25],none,[],[⟨256,.other,false,some ⟨7,[.setEnt .internalNl,.emb (.cb 1),.code],none,false⟩⟩,⟨256,.ws,false,some ⟨8,[.setEnt .internalNl,.emb (.cb 1)],none,false⟩⟩,⟨256,.lf,false,some ⟨9,[.setEnt .internalNl,.emb (.cb 1)],none,false⟩⟩,⟨256,.vt,false,some ⟨7,[.setEnt .internalNl,.emb (.cb 1),.code],none,false⟩⟩,⟨256,.ff,false,some ⟨10,[.setEnt .internalNl,.emb (.cb 1)],none,false⟩⟩,⟨256,.cr,false,some ⟨11,[.setEnt .internalNl,.emb (.cb 1)],none,false⟩⟩,⟨256,.cr,true,some ⟨12,[.setEnt .internalNl,.emb (.cb 1)],none,false⟩⟩,⟨256,.other,false,some ⟨0,[.setEnt .internalNl,.emb (.cb 1),.commit],some 3,true⟩⟩,⟨256,.other,false,some ⟨13,[.setEnt .internalNl,.emb (.cb 1)],none,false⟩⟩]⟩,⟨[37],none,[],[⟨256,.other,false,some ⟨7,[.code],none,false⟩⟩,⟨256,.ws,false,some ⟨8,[],none,false⟩⟩,⟨256,.lf,false,some ⟨9,[],none,false⟩⟩,⟨256,.vt,false,some ⟨7,[.code],none,false⟩⟩,⟨256,.ff,false,some ⟨10,[],none,false⟩⟩,⟨256,.cr,false,some ⟨11,[],none,false⟩⟩,⟨256,.cr,true,some ⟨12,[],none,false⟩⟩,⟨256,.other,false,some ⟨0,[.commit],some 3,true⟩⟩,⟨256,.other,false,some ⟨13,[],none,false⟩⟩]⟩,⟨[31],none,[],[⟨256,.other,false,some ⟨7,[.setEnt .internalNl,.emb (.cb 1),.code],none,false⟩⟩,⟨256,.ws,false,some ⟨8,[.setEnt .internalNl,.emb (.cb 1)],none,false⟩⟩,⟨256,.lf,false,some ⟨9,[.setEnt .internalNl,.emb (.cb 1)],none,false⟩⟩,⟨256,.vt,false,some ⟨7,[.setEnt .internalNl,.emb (.cb 1),.code],none,false⟩⟩,⟨256,.ff,false,some ⟨10,[.setEnt .internalNl,.emb (.cb 1)],none,false⟩⟩,⟨256,.cr,false,some ⟨11,[.setEnt .internalNl,.emb (.cb 1)],none,false⟩⟩,⟨256,.cr,true,some ⟨12,[.setEnt .internalNl,.emb (.cb 1)],none,false⟩⟩,⟨256,.other,false,some ⟨0,[.setEnt .internalNl,.emb (.cb 1),.commit],some 3,true⟩⟩,⟨256,.other,false,some ⟨13,[.setEnt .internalNl,.emb (.cb 1)],none,false⟩⟩]⟩,⟨[32],none,[],[⟨256,.other,false,some ⟨7,[.setEnt .internalNl,.emb (.cb 1),.code],none,false⟩⟩,⟨256,.ws,false,some ⟨8,[.setEnt .internalNl,.emb (.cb 1)],none,false⟩⟩,⟨256,.lf,false,some ⟨9,[.setEnt .internalNl,.emb (.cb 1)],none,false⟩⟩,⟨256,.vt,false,some ⟨7,[.setEnt .internalNl,.emb (.cb 1),.code],none,false⟩⟩,⟨256,.ff,false,some ⟨10,[.setEnt .internalNl,.emb (.cb 1)],none,false⟩⟩,⟨256,.cr,false,some ⟨11,[.setEnt .internalNl,.emb (.cb 1)],none,false⟩⟩,⟨256,.cr,true,some ⟨12,[.setEnt .internalNl,.emb (.cb 1)],none,false⟩⟩,⟨256,.other,false,some ⟨0,[.setEnt .internalNl,.emb (.cb 1),.commit],some 3,true⟩⟩,⟨256,.other,false,some ⟨13,[.setEnt .internalNl,.emb (.cb 1)],none,false⟩⟩]⟩,⟨[29],none,[],[⟨256,.other,false,none⟩,⟨256,.ws,false,none⟩,⟨256,.lf,false,some ⟨36,[],none,false⟩⟩,⟨256,.vt,false,none⟩,⟨256,.ff,false,none⟩,⟨256,.cr,false,none⟩,⟨256,.cr,true,none⟩]⟩,⟨[29,33],none,[],[⟨256,.other,false,some ⟨7,[.setEnt .internalNl,.emb (.cb 1),.code],none,false⟩⟩,⟨256,.ws,false,some ⟨8,[.setEnt .internalNl,.emb (.cb 1)],none,false⟩⟩,⟨256,.lf,false,some ⟨37,[.setEnt .internalNl,.emb (.cb 1)],none,false⟩⟩,⟨256,.vt,false,some ⟨7,[.setEnt .internalNl,.emb (.cb 1),.code],none,false⟩⟩,⟨256,.ff,false,some ⟨10,[.setEnt .internalNl,.emb (.cb 1)],none,false⟩⟩,⟨256,.cr,false,some ⟨11,[.setEnt .internalNl,.emb (.cb 1)],none,false⟩⟩,⟨256,.cr,true,some ⟨12,[.setEnt .internalNl,.emb (.cb 1)],none,false⟩⟩,⟨256,.other,false,some ⟨0,[.setEnt .internalNl,.emb (.cb 1),.commit],some 3,true⟩⟩,⟨256,.other,false,some ⟨13,[.setEnt .internalNl,.emb (.cb 1)],none,false⟩⟩]⟩,⟨[7],none,[],[⟨256,.other,false,some ⟨15,[.setEnt .internalNl,.emb (.cb 1),.code],none,false⟩⟩,⟨256,.ws,false,some ⟨16,[.setEnt .internalNl,.emb (.cb 1)],none,false⟩⟩,⟨256,.lf,false,some ⟨17,[.setEnt .internalNl,.emb (.cb 1)],none,false⟩⟩,⟨256,.vt,false,some ⟨15,[.setEnt .internalNl,.emb (.cb 1),.code],none,false⟩⟩,⟨256,.ff,false,some ⟨18,[.setEnt .internalNl,.emb (.cb 1)],none,false⟩⟩,⟨256,.cr,false,some ⟨19,[.setEnt .internalNl,.emb (.cb 1)],none,false⟩⟩,⟨256,.cr,true,some ⟨20,[.setEnt .internalNl,.emb (.cb 1)],none,false⟩⟩,⟨256,.other,false,some ⟨0,[.setEnt .internalNl,.emb (.cb 1),.commit],some 3,true⟩⟩,⟨256,.other,false,some ⟨21,[.setEnt .internalNl,.emb (.cb 1)],none,false⟩⟩]⟩,⟨[7,8],none,[],[⟨256,.other,false,some ⟨15,[.setEnt .internalNl,.emb (.cb 1),.code],none,false⟩⟩,⟨256,.ws,false,some ⟨16,[.setEnt .internalNl,.emb (.cb 1)],none,false⟩⟩,⟨256,.lf,false,some ⟨17,[.setEnt .internalNl,.emb (.cb 1)],none,false⟩⟩,⟨256,.vt,false,some ⟨15,[.setEnt .internalNl,.emb (.cb 1),.code],none,false⟩⟩,⟨256,.ff,false,some ⟨18,[.setEnt .internalNl,.emb (.cb 1)],none,false⟩⟩,⟨256,.cr,false,some ⟨19,[.setEnt .internalNl,.emb (.cb 1)],none,false⟩⟩,⟨256,.cr,true,some ⟨20,[.setEnt .internalNl,.emb (.cb 1)],none,false⟩⟩,⟨256,.other,false,some ⟨0,[.setEnt .internalNl,.emb (.cb 1),.commit],some 3,true⟩⟩,⟨256,.other,false,some ⟨21,[.setEnt .internalNl,.emb (.cb 1)],none,false⟩⟩]⟩,⟨[20],none,[],[⟨256,.other,false,some ⟨15,[.code],none,false⟩⟩,⟨256,.ws,false,some ⟨16,[],none,false⟩⟩,⟨256,.lf,false,some ⟨17,[],none,false⟩⟩,⟨256,.vt,false,some ⟨15,[.code],none,false⟩⟩,⟨256,.ff,false,some ⟨18,[],none,false⟩⟩,⟨256,.cr,false,some ⟨19,[],none,false⟩⟩,⟨256,.cr,true,some ⟨20,[],none,false⟩⟩,⟨256,.other,false,some ⟨0,[.commit],some 3,true⟩⟩,⟨256,.other,false,some ⟨21,[],none,false⟩⟩]⟩,⟨[14],none,[],[⟨256,.other,false,some ⟨15,[.setEnt .internalNl,.emb (.cb 1),.code],none,false⟩⟩,⟨256,.ws,false,some ⟨16,[.setEnt .internalNl,.emb (.cb 1)],none,false⟩⟩,⟨256,.lf,false,some ⟨17,[.setEnt .internalNl,.emb (.cb 1)],none,false⟩⟩,⟨256,.vt,false,some ⟨15,[.setEnt .internalNl,.emb (.cb 1),.code],none,false⟩⟩,⟨256,.ff,false,some ⟨18,[.setEnt .internalNl,.emb (.cb 1)],none,false⟩⟩,⟨256,.cr,false,some ⟨19,[.setEnt .internalNl,.emb (.cb 1)],none,false⟩⟩,⟨256,.cr,true,some ⟨20,[.setEnt .internalNl,.emb (.cb 1)],none,false⟩⟩,⟨256,.other,false,some ⟨0,[.setEnt .internalNl,.emb (.cb 1),.commit],some 3,true⟩⟩,⟨256,.other,false,some ⟨21,[.setEnt .internalNl,.emb (.cb 1)],none,false⟩⟩]⟩,⟨[15],none,[],[⟨256,.other,false,some ⟨15,[.setEnt .internalNl,.emb (.cb 1),.code],none,false⟩⟩,⟨256,.ws,false,some ⟨16,[.setEnt .internalNl,.emb (.cb 1)],none,false⟩⟩,⟨256,.lf,false,some ⟨17,[.setEnt .internalNl,.emb (.cb 1)],none,false⟩⟩,⟨256,.vt,false,some ⟨15,[.setEnt .internalNl,.emb (.cb 1),.code],none,false⟩⟩,⟨256,.ff,false,some ⟨18,[.setEnt .internalNl,.emb (.cb 1)],none,false⟩⟩,⟨256,.cr,false,some ⟨19,[.setEnt .internalNl,.emb (.cb 1)],none,false⟩⟩,⟨256,.cr,true,some ⟨20,[.setEnt .internalNl,.emb (.cb 1)],none,false⟩⟩,⟨256,.other,false,some ⟨0,[.setEnt .internalNl,.emb (.cb 1),.commit],some 3,true⟩⟩,⟨256,.other,false,some ⟨21,[.setEnt .internalNl,.emb (.cb 1)],none,false⟩⟩]⟩,⟨[12],none,[],[⟨256,.other,false,none⟩,⟨256,.ws,false,none⟩,⟨256,.lf,false,some ⟨38,[],none,false⟩⟩,⟨256,.vt,false,none⟩,⟨256,.ff,false,none⟩,⟨256,.cr,false,none⟩,⟨256,.cr,true,none⟩]⟩,⟨[12,16],none,[],[⟨256,.other,false,some ⟨15,[.setEnt .internalNl,.emb (.cb 1),.code],none,false⟩⟩,⟨256,.ws,false,some ⟨16,[.setEnt .internalNl,.emb (.cb 1)],none,false⟩⟩,⟨256,.lf,false,some ⟨39,[.setEnt .internalNl,.emb (.cb 1)],none,false⟩⟩,⟨256,.vt,false,some ⟨15,[.setEnt .internalNl,.emb (.cb 1),.code],none,false⟩⟩,⟨256,.ff,false,some ⟨18,[.setEnt .internalNl,.emb (.cb 1)],none,false⟩⟩,⟨256,.cr,false,some ⟨19,[.setEnt .internalNl,.emb (.cb 1)],none,false⟩⟩,⟨256,.cr,true,some ⟨20,[.setEnt .internalNl,.emb (.cb 1)],none,false⟩⟩,⟨256,.other,false,some ⟨0,[.setEnt .internalNl,.emb (.cb 1),.commit],some 3,true⟩⟩,⟨256,.other,false,some ⟨21,[.setEnt .internalNl,.emb (.cb 1)],none,false⟩⟩]⟩,⟨[30],none,[],[⟨256,.other,false,some ⟨7,[.setEnt .internalNl,.emb (.cb 1),.code],none,false⟩⟩,⟨256,.ws,false,some ⟨8,[.setEnt .internalNl,.emb (.cb 1)],none,false⟩⟩,⟨256,.lf,false,some ⟨9,[.setEnt .internalNl,.emb (.cb 1)],none,false⟩⟩,⟨256,.vt,false,some ⟨7,[.setEnt .internalNl,.emb (.cb 1),.code],none,false⟩⟩,⟨256,.ff,false,some ⟨10,[.setEnt .internalNl,.emb (.cb 1)],none,false⟩⟩,⟨256,.cr,false,some ⟨11,[.setEnt .internalNl,.emb (.cb 1)],none,false⟩⟩,⟨256,.cr,true,some ⟨12,[.setEnt .internalNl,.emb (.cb 1)],none,false⟩⟩,⟨256,.other,false,some ⟨0,[.setEnt .internalNl,.emb (.cb 1),.commit],some 3,true⟩⟩,⟨256,.other,false,some ⟨13,[.setEnt .internalNl,.emb (.cb 1)],none,false⟩⟩]⟩,⟨[25,30],none,[],[⟨256,.other,false,some ⟨7,[.setEnt .internalNl,.emb (.cb 1),.code],none,false⟩⟩,⟨256,.ws,false,some ⟨8,[.setEnt .internalNl,.emb (.cb 1)],none,false⟩⟩,⟨256,.lf,false,some ⟨9,[.setEnt .internalNl,.emb (.cb 1)],none,false⟩⟩,⟨256,.vt,false,some ⟨7,[.setEnt .internalNl,.emb (.cb 1),.code],none,false⟩⟩,⟨256,.ff,false,some ⟨10,[.setEnt .internalNl,.emb (.cb 1)],none,false⟩⟩,⟨256,.cr,false,some ⟨11,[.setEnt .internalNl,.emb (.cb 1)],none,false⟩⟩,⟨256,.cr,true,some ⟨12,[.setEnt .internalNl,.emb (.cb 1)],none,false⟩⟩,⟨256,.other,false,some ⟨0,[.setEnt .internalNl,.emb (.cb 1),.commit],some 3,true⟩⟩,⟨256,.other,false,some ⟨13,[.setEnt .internalNl,.emb (.cb 1)],none,false⟩⟩]⟩,⟨[13],none,[],[⟨256,.other,false,some ⟨15,[.setEnt .internalNl,.emb (.cb 1),.code],none,false⟩⟩,⟨256,.ws,false,some ⟨16,[.setEnt .internalNl,.emb (.cb 1)],none,false⟩⟩,⟨256,.lf,false,some ⟨17,[.setEnt .internalNl,.emb (.cb 1)],none,false⟩⟩,⟨256,.vt,false,some ⟨15,[.setEnt .internalNl,.emb (.cb 1),.code],none,false⟩⟩,⟨256,.ff,false,some ⟨18,[.setEnt .internalNl,.emb (.cb 1)],none,false⟩⟩,⟨256,.cr,false,some ⟨19,[.setEnt .internalNl,.emb (.cb 1)],none,false⟩⟩,⟨256,.cr,true,some ⟨20,[.setEnt .internalNl,.emb (.cb 1)],none,false⟩⟩,⟨256,.other,false,some ⟨0,[.setEnt .internalNl,.emb (.cb 1),.commit],some 3,true⟩⟩,⟨256,.other,false,some ⟨21,[.setEnt .internalNl,.emb (.cb 1)],none,false⟩⟩]⟩,⟨[8,13],none,[],[⟨256,.other,false,some ⟨15,[.setEnt .internalNl,.emb (.cb 1),.code],none,false⟩⟩,⟨256,.ws,false,some ⟨16,[.setEnt .internalNl,.emb (.cb 1)],none,false⟩⟩,⟨256,.lf,false,some ⟨17,[.setEnt .internalNl,.emb (.cb 1)],none,false⟩⟩,⟨256,.vt,false,some ⟨15,[.setEnt .internalNl,.emb (.cb 1),.code],none,false⟩⟩,⟨256,.ff,false,some ⟨18,[.setEnt .internalNl,.emb (.cb 1)],none,false⟩⟩,⟨256,.cr,false,some ⟨19,[.setEnt .internalNl,.emb (.cb 1)],none,false⟩⟩,⟨256,.cr,true,some ⟨20,[.setEnt .internalNl,.emb (.cb 1)],none,false⟩⟩,⟨256,.other,false,some ⟨0,[.setEnt .internalNl,.emb (.cb 1),.commit],some 3,true⟩⟩,⟨256,.other,false,some ⟨21,[.setEnt .internalNl,.emb (.cb 1)],none,false⟩⟩]⟩]
theorem emb13_rowsOk : rowsOk emb13_nfa [] (emb13_cs.map (·.1)) emb13_rows = true := by decide +kernel
def emb13_D : Dfa emb13_nfa := ⟨emb13_masks, [], emb13_cs, emb13_rows, emb13_masksIn, emb13_repOk, emb13_rowsOk⟩

/-- The automaton of `Emb.MetapostWithTex.mptex_entity`. -/
def emb24_nfa : Nfa := ⟨[⟨0,332306998946228968225951765070086144,[],[],0,0⟩,⟨11,316912650057057350374175801344,[],[],0,0⟩,⟨15,4294983168,[],[(0,.setEnt (.own 0))],0,0⟩,⟨16,137438953472,[],[(1,.setEnt (.own 1))],0,0⟩,⟨18,115792089237316195423570985008687907853269984665640564039457584007908834656767,[],[],0,0⟩],[[⟨1,2535301200456458802993406410752,[],[],0,0⟩],[⟨2,20769187434139310514121985316880384,[],[],0,0⟩],[⟨3,316912650057057350374175801344,[],[],0,0⟩],[⟨4,158456325028528675187087900672,[],[],0,0⟩],[⟨5,83076749736557242056487941267521536,[],[],0,0⟩],[⟨6,40564819207303340847894502572032,[],[],0,0⟩],[⟨7,649037107316853453566312041152512,[],[],0,0⟩],[⟨8,83076749736557242056487941267521536,[],[],0,0⟩],[⟨9,2535301200456458802993406410752,[],[],0,0⟩],[⟨10,1329227995784915872903807060280344576,[],[],0,0⟩],[],[⟨12,83076749736557242056487941267521536,[],[],0,0⟩],[⟨13,2535301200456458802993406410752,[],[],0,0⟩],[⟨14,1329227995784915872903807060280344576,[],[],0,0⟩],[],[⟨15,4294983168,[],[(0,.setEnt (.own 0))],0,0⟩],[⟨17,115792089237316195423570985008687907853269984665640564039457584007913129626623,[],[(1,.setEnt (.own 1))],0,0⟩],[⟨17,115792089237316195423570985008687907853269984665640564039457584007913129626623,[],[(1,.setEnt (.own 1))],0,0⟩],[]],[none,none,none,none,none,none,none,none,none,none,some (0,[]),none,none,none,some (0,[]),some (1,[]),some (2,[]),some (2,[]),some (3,[])],[0,1,2,2]⟩
def emb24_masks : List Nat := [332306998946228968225951765070086144,316912650057057350374175801344,4294983168,137438953472,115792089237316195423570985008687907853269984665640564039457584007908834656767,2535301200456458802993406410752,20769187434139310514121985316880384,158456325028528675187087900672,83076749736557242056487941267521536,40564819207303340847894502572032,649037107316853453566312041152512,1329227995784915872903807060280344576,115792089237316195423570985008687907853269984665640564039457584007913129626623]
def emb24_cs : List (Nat × Nat) := [(0,115792089237316195423570985008687907853268218592096065498365044396258247033343),(9,4294967808),(10,1024),(11,2048),(12,4096),(13,8192),(37,137438953472),(97,158456325028528675187087900672),(98,316912650057057350374175801344),(101,2535301200456458802993406410752),(105,40564819207303340847894502572032),(109,649037107316853453566312041152512),(114,20769187434139310514121985316880384),(116,83076749736557242056487941267521536),(118,332306998946228968225951765070086144),(120,1329227995784915872903807060280344576)]
theorem emb24_masksIn : masksIn emb24_nfa emb24_masks = true := by decide +kernel
theorem emb24_repOk : repOk emb24_masks emb24_cs = true := by decide +kernel
def emb24_rows : List Row := [⟨[],none,[],[⟨256,.other,false,some ⟨0,[],some 3,true⟩⟩,⟨256,.ws,false,some ⟨1,[.setEnt (.own 0)],some 1,false⟩⟩,⟨256,.lf,false,some ⟨1,[.setEnt (.own 0)],some 1,false⟩⟩,⟨256,.vt,false,some ⟨1,[.setEnt (.own 0)],some 1,false⟩⟩,⟨256,.ff,false,some ⟨1,[.setEnt (.own 0)],some 1,false⟩⟩,⟨256,.cr,false,some ⟨1,[.setEnt (.own 0)],some 1,false⟩⟩,⟨256,.cr,true,some ⟨1,[.setEnt (.own 0)],some 1,false⟩⟩,⟨256,.other,false,some ⟨2,[.setEnt (.own 1)],some 2,false⟩⟩,⟨256,.other,false,some ⟨3,[],some 3,false⟩⟩,⟨256,.other,false,some ⟨4,[],some 3,false⟩⟩]⟩,⟨[15],some 1,[],[⟨256,.other,false,none⟩,⟨256,.ws,false,some ⟨1,[.setEnt (.own 0)],some 1,false⟩⟩,⟨256,.lf,false,some ⟨1,[.setEnt (.own 0)],some 1,false⟩⟩,⟨256,.vt,false,some ⟨1,[.setEnt (.own 0)],some 1,false⟩⟩,⟨256,.ff,false,some ⟨1,[.setEnt (.own 0)],some 1,false⟩⟩,⟨256,.cr,false,some ⟨1,[.setEnt (.own 0)],some 1,false⟩⟩,⟨256,.cr,true,some ⟨1,[.setEnt (.own 0)],some 1,false⟩⟩]⟩,⟨[16,18],some 2,[],[⟨256,.other,false,some ⟨5,[.setEnt (.own 1)],some 2,false⟩⟩,⟨256,.ws,false,some ⟨5,[.setEnt (.own 1)],some 2,false⟩⟩,⟨256,.lf,false,none⟩,⟨256,.vt,false,some ⟨5,[.setEnt (.own 1)],some 2,false⟩⟩,⟨256,.ff,false,none⟩,⟨256,.cr,false,none⟩,⟨256,.cr,true,none⟩]⟩,⟨[11,18],some 3,[],[⟨256,.other,false,none⟩,⟨256,.ws,false,none⟩,⟨256,.lf,false,none⟩,⟨256,.vt,false,none⟩,⟨256,.ff,false,none⟩,⟨256,.cr,false,none⟩,⟨256,.cr,true,none⟩,⟨256,.other,false,some ⟨6,[],none,false⟩⟩]⟩,⟨[0,18],some 3,[],[⟨256,.other,false,none⟩,⟨256,.ws,false,none⟩,⟨256,.lf,false,none⟩,⟨256,.vt,false,none⟩,⟨256,.ff,false,none⟩,⟨256,.cr,false,none⟩,⟨256,.cr,true,none⟩,⟨256,.other,false,some ⟨7,[],none,false⟩⟩]⟩,⟨[17],some 2,[],[⟨256,.other,false,some ⟨5,[.setEnt (.own 1)],some 2,false⟩⟩,⟨256,.ws,false,some ⟨5,[.setEnt (.own 1)],some 2,false⟩⟩,⟨256,.lf,false,none⟩,⟨256,.vt,false,some ⟨5,[.setEnt (.own 1)],some 2,false⟩⟩,⟨256,.ff,false,none⟩,⟨256,.cr,false,none⟩,⟨256,.cr,true,none⟩]⟩,⟨[12],none,[],[⟨256,.other,false,none⟩,⟨256,.ws,false,none⟩,⟨256,.lf,false,none⟩,⟨256,.vt,false,none⟩,⟨256,.ff,false,none⟩,⟨256,.cr,false,none⟩,⟨256,.cr,true,none⟩,⟨256,.other,false,some ⟨8,[],none,false⟩⟩]⟩,⟨[1],none,[],[⟨256,.other,false,none⟩,⟨256,.ws,false,none⟩,⟨256,.lf,false,none⟩,⟨256,.vt,false,none⟩,⟨256,.ff,false,none⟩,⟨256,.cr,false,none⟩,⟨256,.cr,true,none⟩,⟨256,.other,false,some ⟨9,[],none,false⟩⟩]⟩,⟨[13],none,[],[⟨256,.other,false,none⟩,⟨256,.ws,false,none⟩,⟨256,.lf,false,none⟩,⟨256,.vt,false,none⟩,⟨256,.ff,false,none⟩,⟨256,.cr,false,none⟩,⟨256,.cr,true,none⟩,⟨256,.other,false,some ⟨0,[],some 0,true⟩⟩]⟩,⟨[2],none,[],[⟨256,.other,false,none⟩,⟨256,.ws,false,none⟩,⟨256,.lf,false,none⟩,⟨256,.vt,false,none⟩,⟨256,.ff,false,none⟩,⟨256,.cr,false,none⟩,⟨256,.cr,true,none⟩,⟨256,.other,false,some ⟨10,[],none,false⟩⟩]⟩,⟨[3],none,[],[⟨256,.other,false,none⟩,⟨256,.ws,false,none⟩,⟨256,.lf,false,none⟩,⟨256,.vt,false,none⟩,⟨256,.ff,false,none⟩,⟨256,.cr,false,none⟩,⟨256,.cr,true,none⟩,⟨256,.other,false,some ⟨11,[],none,false⟩⟩]⟩,⟨[4],none,[],[⟨256,.other,false,none⟩,⟨256,.ws,false,none⟩,⟨256,.lf,false,none⟩,⟨256,.vt,false,none⟩,⟨256,.ff,false,none⟩,⟨256,.cr,false,none⟩,⟨256,.cr,true,none⟩,⟨256,.other,false,some ⟨12,[],none,false⟩⟩]⟩,⟨[5],none,[],[⟨256,.other,false,none⟩,⟨256,.ws,false,none⟩,⟨256,.lf,false,none⟩,⟨256,.vt,false,none⟩,⟨256,.ff,false,none⟩,⟨256,.cr,false,none⟩,⟨256,.cr,true,none⟩,⟨256,.other,false,some ⟨13,[],none,false⟩⟩]⟩,⟨[6],none,[],[⟨256,.other,false,none⟩,⟨256,.ws,false,none⟩,⟨256,.lf,false,none⟩,⟨256,.vt,false,none⟩,⟨256,.ff,false,none⟩,⟨256,.cr,false,none⟩,⟨256,.cr,true,none⟩,⟨256,.other,false,some ⟨14,[],none,false⟩⟩]⟩,⟨[7],none,[],[⟨256,.other,false,none⟩,⟨256,.ws,false,none⟩,⟨256,.lf,false,none⟩,⟨256,.vt,false,none⟩,⟨256,.ff,false,none⟩,⟨256,.cr,false,none⟩,⟨256,.cr,true,none⟩,⟨256,.other,false,some ⟨15,[],none,false⟩⟩]⟩,⟨[8],none,[],[⟨256,.other,false,none⟩,⟨256,.ws,false,none⟩,⟨256,.lf,false,none⟩,⟨256,.vt,false,none⟩,⟨256,.ff,false,none⟩,⟨256,.cr,false,none⟩,⟨256,.cr,true,none⟩,⟨256,.other,false,some ⟨16,[],none,false⟩⟩]⟩,⟨[9],none,[],[⟨256,.other,false,none⟩,⟨256,.ws,false,none⟩,⟨256,.lf,false,none⟩,⟨256,.vt,false,none⟩,⟨256,.ff,false,none⟩,⟨256,.cr,false,none⟩,⟨256,.cr,true,none⟩,⟨256,.other,false,some ⟨0,[],some 0,true⟩⟩]⟩]
theorem emb24_rowsOk : rowsOk emb24_nfa [] (emb24_cs.map (·.1)) emb24_rows = true := by decide +kernel
def emb24_D : Dfa emb24_nfa := ⟨emb24_masks, [], emb24_cs, emb24_rows, emb24_masksIn, emb24_repOk, emb24_rowsOk⟩

/-- The automaton of `Emb.Jsp.jsp_line`. -/
def emb29_nfa : Nfa := ⟨[⟨0,1152921504606846976,[],[],0,2⟩,⟨17,1152921504606846976,[],[],0,4⟩,⟨42,1152921504606846976,[],[],0,0⟩,⟨44,4294967808,[],[(12,.setEnt (.own 0))],0,0⟩,⟨45,1152921504606846976,[],[],0,0⟩,⟨49,549755813888,[],[(14,.code)],0,0⟩,⟨50,17179869184,[],[(15,.code)],0,0⟩,⟨51,8192,[],[(16,.setEnt .newline)],0,0⟩,⟨53,1024,[],[(16,.setEnt .newline)],0,0⟩,⟨54,4096,[],[(16,.setEnt .newline)],0,0⟩,⟨55,8192,[.crAlone],[(16,.setEnt .newline)],0,0⟩,⟨56,115792089237316195423570985008687907853269984665640564039457584007908834656767,[],[(17,.setEnt (.own 5))],0,0⟩],[[⟨1,41538374877950027585161004031410176,[],[],0,2⟩],[⟨2,83076749755900055170322008062820352,[],[],0,2⟩],[⟨3,2658455992188801765450304258010251264,[],[],0,2⟩],[⟨4,324518553733984590509070343995392,[],[],0,2⟩],[⟨5,2535301201046754613352112062464,[],[],0,2⟩],[⟨6,115792089237316195423570985008687907853269984665640564039452972321894702252031,[],[],0,2⟩],[⟨6,115792089237316195423570985008687907853269984665640564039452972321894702252031,[],[],0,2⟩,⟨7,83076749736557242056487941267521536,[],[],0,2⟩],[⟨8,2535301200456458802993406410752,[],[],0,0⟩],[⟨9,1329227995784915872903807060280344576,[],[],0,0⟩],[⟨10,83076749736557242056487941267521536,[],[],0,0⟩],[⟨11,140737488355328,[],[],0,0⟩],[⟨12,633825300114114700748351602688,[],[],0,0⟩],[⟨13,41538374868278621028243970633760768,[],[],0,0⟩],[⟨14,41538374868278621028243970633760768,[],[],2,0⟩],[⟨15,115792089237316195423570985008687907853269984665640564039452972321894702252031,[],[],0,0⟩],[⟨15,115792089237316195423570985008687907853269984665640564039452972321894702252031,[],[],0,0⟩,⟨16,4611686018427387904,[],[(0,.code),(1,.setEnt .checkBlank),(2,.cb),(3,.emb (.saw 1))],0,0⟩],[],[⟨18,41538374877950027585161004031410176,[],[],0,4⟩],[⟨19,633825300261688653338028015616,[],[],0,4⟩],[⟨20,20769187438975013792580502015705088,[],[],0,4⟩],[⟨21,40564819216748073813633792999424,[],[],0,4⟩],[⟨22,5192296859743753448145125503926272,[],[],0,4⟩],[⟨23,83076749755900055170322008062820352,[],[],0,4⟩],[⟨24,115792089237316195423570985008687907853269984665640564039452972321894702252031,[],[],0,4⟩],[⟨24,115792089237316195423570985008687907853269984665640564039452972321894702252031,[],[],0,4⟩,⟨25,83076749736557242056487941267521536,[],[],0,4⟩],[⟨26,2535301200456458802993406410752,[],[],0,0⟩],[⟨27,1329227995784915872903807060280344576,[],[],0,0⟩],[⟨28,83076749736557242056487941267521536,[],[],0,0⟩],[⟨29,140737488355328,[],[],0,0⟩],[⟨30,81129638414606681695789005144064,[],[],0,0⟩],[⟨31,158456325028528675187087900672,[],[],0,0⟩],[⟨32,332306998946228968225951765070086144,[],[],0,0⟩],[⟨33,158456325028528675187087900672,[],[],0,0⟩],[⟨34,41538374868278621028243970633760768,[],[],0,0⟩],[⟨35,633825300114114700748351602688,[],[],0,0⟩],[⟨36,20769187434139310514121985316880384,[],[],0,0⟩],[⟨37,40564819207303340847894502572032,[],[],0,0⟩],[⟨38,5192296858534827628530496329220096,[],[],0,0⟩],[⟨39,83076749736557242056487941267521536,[],[],4,0⟩],[⟨40,115792089237316195423570985008687907853269984665640564039452972321894702252031,[],[],0,0⟩],[⟨40,115792089237316195423570985008687907853269984665640564039452972321894702252031,[],[],0,0⟩,⟨41,4611686018427387904,[],[(4,.code),(5,.setEnt .checkBlank),(6,.cb),(7,.emb (.saw 2))],0,0⟩],[],[⟨43,137438953472,[],[(8,.code),(9,.setEnt .checkBlank),(10,.cb),(11,.emb (.saw 3))],0,0⟩],[],[⟨44,4294967808,[],[(12,.setEnt (.own 0))],0,0⟩],[⟨46,8589934592,[],[],0,0⟩],[⟨47,35184372088832,[],[],0,0⟩],[⟨48,35184372088832,[],[(13,.comment)],0,0⟩],[],[],[],[⟨52,1024,[],[(16,.setEnt .newline)],0,0⟩],[],[],[],[],[]],[none,none,none,none,none,none,none,none,none,none,none,none,none,none,none,none,some (0,[]),none,none,none,none,none,none,none,none,none,none,none,none,none,none,none,none,none,none,none,none,none,none,none,none,some (1,[]),none,some (2,[]),some (3,[]),none,none,none,some (4,[]),some (5,[]),some (6,[]),none,some (7,[]),some (7,[]),some (7,[]),some (7,[]),some (8,[])],[4,8,12,13,14,15,16,17,18]⟩
def emb29_masks : List Nat := [1152921504606846976,4294967808,549755813888,17179869184,8192,1024,4096,115792089237316195423570985008687907853269984665640564039457584007908834656767,41538374877950027585161004031410176,83076749755900055170322008062820352,2658455992188801765450304258010251264,324518553733984590509070343995392,2535301201046754613352112062464,115792089237316195423570985008687907853269984665640564039452972321894702252031,83076749736557242056487941267521536,2535301200456458802993406410752,1329227995784915872903807060280344576,140737488355328,633825300114114700748351602688,41538374868278621028243970633760768,4611686018427387904,633825300261688653338028015616,20769187438975013792580502015705088,40564819216748073813633792999424,5192296859743753448145125503926272,81129638414606681695789005144064,158456325028528675187087900672,332306998946228968225951765070086144,20769187434139310514121985316880384,40564819207303340847894502572032,5192296858534827628530496329220096,137438953472,8589934592,35184372088832]
def emb29_cs : List (Nat × Nat) := [(0,115792089237316195423570985008687907853265513648504117332318924991657630745087),(9,4294967808),(10,1024),(11,2048),(12,4096),(13,8192),(33,8589934592),(34,17179869184),(37,137438953472),(39,549755813888),(45,35184372088832),(47,140737488355328),(60,1152921504606846976),(62,4611686018427387904),(67,147573952589676412928),(69,590295810358705651712),(73,9444732965739290427392),(76,324518553733984590509070343995392),(80,1208925819614629174706176),(82,4835703278458516698824704),(83,9671406556917033397649408),(84,19342813113834066795298816),(89,2658455992188801765450304258010251264),(97,158456325028528675187087900672),(99,633825300114114700748351602688),(101,2535301200456458802993406410752),(105,40564819207303340847894502572032),(106,81129638414606681695789005144064),(112,5192296858534827628530496329220096),(114,20769187434139310514121985316880384),(115,41538374868278621028243970633760768),(116,83076749736557242056487941267521536),(118,332306998946228968225951765070086144),(120,1329227995784915872903807060280344576)]
theorem emb29_masksIn : masksIn emb29_nfa emb29_masks = true := by decide +kernel
theorem emb29_repOk : repOk emb29_masks emb29_cs = true := by decide +kernel
def emb29_rows : List Row := [⟨[],none,[],[⟨256,.other,false,some ⟨0,[.setEnt (.own 5)],some 8,true⟩⟩,⟨256,.ws,false,some ⟨1,[.setEnt (.own 0)],some 3,false⟩⟩,⟨256,.lf,false,some ⟨0,[.setEnt .newline],some 7,true⟩⟩,⟨256,.vt,false,none⟩,⟨256,.ff,false,some ⟨0,[.setEnt .newline],some 7,true⟩⟩,⟨256,.cr,false,some ⟨2,[.setEnt .newline],none,false⟩⟩,⟨256,.cr,true,some ⟨3,[.setEnt .newline],some 7,false⟩⟩,⟨256,.other,false,some ⟨0,[.code],some 6,true⟩⟩,⟨256,.other,false,some ⟨0,[.code],some 5,true⟩⟩,⟨256,.other,false,some ⟨4,[.setEnt (.own 5)],some 8,false⟩⟩]⟩,⟨[44],some 3,[],[⟨256,.other,false,none⟩,⟨256,.ws,false,some ⟨1,[.setEnt (.own 0)],some 3,false⟩⟩,⟨256,.lf,false,none⟩,⟨256,.vt,false,none⟩,⟨256,.ff,false,none⟩,⟨256,.cr,false,none⟩,⟨256,.cr,true,none⟩]⟩,⟨[51],none,[],[⟨256,.other,false,none⟩,⟨256,.ws,false,none⟩,⟨256,.lf,false,some ⟨0,[.setEnt .newline],some 7,true⟩⟩,⟨256,.vt,false,none⟩,⟨256,.ff,false,none⟩,⟨256,.cr,false,none⟩,⟨256,.cr,true,none⟩]⟩,⟨[51,55],some 7,[],[⟨256,.other,false,none⟩,⟨256,.ws,false,none⟩,⟨256,.lf,false,some ⟨0,[.setEnt .newline],some 7,true⟩⟩,⟨256,.vt,false,none⟩,⟨256,.ff,false,none⟩,⟨256,.cr,false,none⟩,⟨256,.cr,true,none⟩]⟩,⟨[0,17,42,45,56],some 8,[],[⟨256,.other,false,none⟩,⟨256,.ws,false,none⟩,⟨256,.lf,false,none⟩,⟨256,.vt,false,none⟩,⟨256,.ff,false,none⟩,⟨256,.cr,false,none⟩,⟨256,.cr,true,none⟩,⟨256,.other,false,some ⟨5,[],none,false⟩⟩,⟨256,.other,false,some ⟨0,[.code,.setEnt .checkBlank,.cb,.emb (.saw 3)],some 2,true⟩⟩,⟨256,.other,false,some ⟨6,[],none,false⟩⟩]⟩,⟨[46],none,[],[⟨256,.other,false,none⟩,⟨256,.ws,false,none⟩,⟨256,.lf,false,none⟩,⟨256,.vt,false,none⟩,⟨256,.ff,false,none⟩,⟨256,.cr,false,none⟩,⟨256,.cr,true,none⟩,⟨256,.other,false,some ⟨7,[],none,false⟩⟩]⟩,⟨[1,18],none,[],[⟨256,.other,false,none⟩,⟨256,.ws,false,none⟩,⟨256,.lf,false,none⟩,⟨256,.vt,false,none⟩,⟨256,.ff,false,none⟩,⟨256,.cr,false,none⟩,⟨256,.cr,true,none⟩,⟨256,.other,false,some ⟨8,[],none,false⟩⟩,⟨256,.other,false,some ⟨9,[],none,false⟩⟩]⟩,⟨[47],none,[],[⟨256,.other,false,none⟩,⟨256,.ws,false,none⟩,⟨256,.lf,false,none⟩,⟨256,.vt,false,none⟩,⟨256,.ff,false,none⟩,⟨256,.cr,false,none⟩,⟨256,.cr,true,none⟩,⟨256,.other,false,some ⟨0,[.comment],some 4,true⟩⟩]⟩,⟨[19],none,[],[⟨256,.other,false,none⟩,⟨256,.ws,false,none⟩,⟨256,.lf,false,none⟩,⟨256,.vt,false,none⟩,⟨256,.ff,false,none⟩,⟨256,.cr,false,none⟩,⟨256,.cr,true,none⟩,⟨256,.other,false,some ⟨10,[],none,false⟩⟩]⟩,⟨[2],none,[],[⟨256,.other,false,none⟩,⟨256,.ws,false,none⟩,⟨256,.lf,false,none⟩,⟨256,.vt,false,none⟩,⟨256,.ff,false,none⟩,⟨256,.cr,false,none⟩,⟨256,.cr,true,none⟩,⟨256,.other,false,some ⟨11,[],none,false⟩⟩]⟩,⟨[20],none,[],[⟨256,.other,false,none⟩,⟨256,.ws,false,none⟩,⟨256,.lf,false,none⟩,⟨256,.vt,false,none⟩,⟨256,.ff,false,none⟩,⟨256,.cr,false,none⟩,⟨256,.cr,true,none⟩,⟨256,.other,false,some ⟨12,[],none,false⟩⟩]⟩,⟨[3],none,[],[⟨256,.other,false,none⟩,⟨256,.ws,false,none⟩,⟨256,.lf,false,none⟩,⟨256,.vt,false,none⟩,⟨256,.ff,false,none⟩,⟨256,.cr,false,none⟩,⟨256,.cr,true,none⟩,⟨256,.other,false,some ⟨13,[],none,false⟩⟩]⟩,⟨[21],none,[],[⟨256,.other,false,none⟩,⟨256,.ws,false,none⟩,⟨256,.lf,false,none⟩,⟨256,.vt,false,none⟩,⟨256,.ff,false,none⟩,⟨256,.cr,false,none⟩,⟨256,.cr,true,none⟩,⟨256,.other,false,some ⟨14,[],none,false⟩⟩]⟩,⟨[4],none,[],[⟨256,.other,false,none⟩,⟨256,.ws,false,none⟩,⟨256,.lf,false,none⟩,⟨256,.vt,false,none⟩,⟨256,.ff,false,none⟩,⟨256,.cr,false,none⟩,⟨256,.cr,true,none⟩,⟨256,.other,false,some ⟨15,[],none,false⟩⟩]⟩,⟨[22],none,[],[⟨256,.other,false,none⟩,⟨256,.ws,false,none⟩,⟨256,.lf,false,none⟩,⟨256,.vt,false,none⟩,⟨256,.ff,false,none⟩,⟨256,.cr,false,none⟩,⟨256,.cr,true,none⟩,⟨256,.other,false,some ⟨16,[],none,false⟩⟩]⟩,⟨[5],none,[],[⟨256,.other,false,some ⟨17,[],none,false⟩⟩,⟨256,.ws,false,some ⟨17,[],none,false⟩⟩,⟨256,.lf,false,some ⟨17,[],none,false⟩⟩,⟨256,.vt,false,some ⟨17,[],none,false⟩⟩,⟨256,.ff,false,some ⟨17,[],none,false⟩⟩,⟨256,.cr,false,some ⟨17,[],none,false⟩⟩,⟨256,.cr,true,some ⟨17,[],none,false⟩⟩,⟨256,.other,false,none⟩]⟩,⟨[23],none,[],[⟨256,.other,false,some ⟨18,[],none,false⟩⟩,⟨256,.ws,false,some ⟨18,[],none,false⟩⟩,⟨256,.lf,false,some ⟨18,[],none,false⟩⟩,⟨256,.vt,false,some ⟨18,[],none,false⟩⟩,⟨256,.ff,false,some ⟨18,[],none,false⟩⟩,⟨256,.cr,false,some ⟨18,[],none,false⟩⟩,⟨256,.cr,true,some ⟨18,[],none,false⟩⟩,⟨256,.other,false,none⟩]⟩,⟨[6],none,[],[⟨256,.other,false,some ⟨17,[],none,false⟩⟩,⟨256,.ws,false,some ⟨17,[],none,false⟩⟩,⟨256,.lf,false,some ⟨17,[],none,false⟩⟩,⟨256,.vt,false,some ⟨17,[],none,false⟩⟩,⟨256,.ff,false,some ⟨17,[],none,false⟩⟩,⟨256,.cr,false,some ⟨17,[],none,false⟩⟩,⟨256,.cr,true,some ⟨17,[],none,false⟩⟩,⟨256,.other,false,none⟩,⟨256,.other,false,some ⟨19,[],none,false⟩⟩]⟩,⟨[24],none,[],[⟨256,.other,false,some ⟨18,[],none,false⟩⟩,⟨256,.ws,false,some ⟨18,[],none,false⟩⟩,⟨256,.lf,false,some ⟨18,[],none,false⟩⟩,⟨256,.vt,false,some ⟨18,[],none,false⟩⟩,⟨256,.ff,false,some ⟨18,[],none,false⟩⟩,⟨256,.cr,false,some ⟨18,[],none,false⟩⟩,⟨256,.cr,true,some ⟨18,[],none,false⟩⟩,⟨256,.other,false,none⟩,⟨256,.other,false,some ⟨20,[],none,false⟩⟩]⟩,⟨[6,7],none,[],[⟨256,.other,false,some ⟨17,[],none,false⟩⟩,⟨256,.ws,false,some ⟨17,[],none,false⟩⟩,⟨256,.lf,false,some ⟨17,[],none,false⟩⟩,⟨256,.vt,false,some ⟨17,[],none,false⟩⟩,⟨256,.ff,false,some ⟨17,[],none,false⟩⟩,⟨256,.cr,false,some ⟨17,[],none,false⟩⟩,⟨256,.cr,true,some ⟨17,[],none,false⟩⟩,⟨256,.other,false,none⟩,⟨256,.other,false,some ⟨21,[],none,false⟩⟩,⟨256,.other,false,some ⟨19,[],none,false⟩⟩]⟩,⟨[24,25],none,[],[⟨256,.other,false,some ⟨18,[],none,false⟩⟩,⟨256,.ws,false,some ⟨18,[],none,false⟩⟩,⟨256,.lf,false,some ⟨18,[],none,false⟩⟩,⟨256,.vt,false,some ⟨18,[],none,false⟩⟩,⟨256,.ff,false,some ⟨18,[],none,false⟩⟩,⟨256,.cr,false,some ⟨18,[],none,false⟩⟩,⟨256,.cr,true,some ⟨18,[],none,false⟩⟩,⟨256,.other,false,none⟩,⟨256,.other,false,some ⟨22,[],none,false⟩⟩,⟨256,.other,false,some ⟨20,[],none,false⟩⟩]⟩,⟨[6,8],none,[],[⟨256,.other,false,some ⟨17,[],none,false⟩⟩,⟨256,.ws,false,some ⟨17,[],none,false⟩⟩,⟨256,.lf,false,some ⟨17,[],none,false⟩⟩,⟨256,.vt,false,some ⟨17,[],none,false⟩⟩,⟨256,.ff,false,some ⟨17,[],none,false⟩⟩,⟨256,.cr,false,some ⟨17,[],none,false⟩⟩,⟨256,.cr,true,some ⟨17,[],none,false⟩⟩,⟨256,.other,false,none⟩,⟨256,.other,false,some ⟨19,[],none,false⟩⟩,⟨256,.other,false,some ⟨23,[],none,false⟩⟩]⟩,⟨[24,26],none,[],[⟨256,.other,false,some ⟨18,[],none,false⟩⟩,⟨256,.ws,false,some ⟨18,[],none,false⟩⟩,⟨256,.lf,false,some ⟨18,[],none,false⟩⟩,⟨256,.vt,false,some ⟨18,[],none,false⟩⟩,⟨256,.ff,false,some ⟨18,[],none,false⟩⟩,⟨256,.cr,false,some ⟨18,[],none,false⟩⟩,⟨256,.cr,true,some ⟨18,[],none,false⟩⟩,⟨256,.other,false,none⟩,⟨256,.other,false,some ⟨20,[],none,false⟩⟩,⟨256,.other,false,some ⟨24,[],none,false⟩⟩]⟩,⟨[6,9],none,[],[⟨256,.other,false,some ⟨17,[],none,false⟩⟩,⟨256,.ws,false,some ⟨17,[],none,false⟩⟩,⟨256,.lf,false,some ⟨17,[],none,false⟩⟩,⟨256,.vt,false,some ⟨17,[],none,false⟩⟩,⟨256,.ff,false,some ⟨17,[],none,false⟩⟩,⟨256,.cr,false,some ⟨17,[],none,false⟩⟩,⟨256,.cr,true,some ⟨17,[],none,false⟩⟩,⟨256,.other,false,none⟩,⟨256,.other,false,some ⟨25,[],none,false⟩⟩]⟩,⟨[24,27],none,[],[⟨256,.other,false,some ⟨18,[],none,false⟩⟩,⟨256,.ws,false,some ⟨18,[],none,false⟩⟩,⟨256,.lf,false,some ⟨18,[],none,false⟩⟩,⟨256,.vt,false,some ⟨18,[],none,false⟩⟩,⟨256,.ff,false,some ⟨18,[],none,false⟩⟩,⟨256,.cr,false,some ⟨18,[],none,false⟩⟩,⟨256,.cr,true,some ⟨18,[],none,false⟩⟩,⟨256,.other,false,none⟩,⟨256,.other,false,some ⟨26,[],none,false⟩⟩]⟩,⟨[6,7,10],none,[],[⟨256,.other,false,some ⟨17,[],none,false⟩⟩,⟨256,.ws,false,some ⟨17,[],none,false⟩⟩,⟨256,.lf,false,some ⟨17,[],none,false⟩⟩,⟨256,.vt,false,some ⟨17,[],none,false⟩⟩,⟨256,.ff,false,some ⟨17,[],none,false⟩⟩,⟨256,.cr,false,some ⟨17,[],none,false⟩⟩,⟨256,.cr,true,some ⟨17,[],none,false⟩⟩,⟨256,.other,false,some ⟨27,[],none,false⟩⟩,⟨256,.other,false,none⟩,⟨256,.other,false,some ⟨21,[],none,false⟩⟩,⟨256,.other,false,some ⟨19,[],none,false⟩⟩]⟩,⟨[24,25,28],none,[],[⟨256,.other,false,some ⟨18,[],none,false⟩⟩,⟨256,.ws,false,some ⟨18,[],none,false⟩⟩,⟨256,.lf,false,some ⟨18,[],none,false⟩⟩,⟨256,.vt,false,some ⟨18,[],none,false⟩⟩,⟨256,.ff,false,some ⟨18,[],none,false⟩⟩,⟨256,.cr,false,some ⟨18,[],none,false⟩⟩,⟨256,.cr,true,some ⟨18,[],none,false⟩⟩,⟨256,.other,false,some ⟨28,[],none,false⟩⟩,⟨256,.other,false,none⟩,⟨256,.other,false,some ⟨22,[],none,false⟩⟩,⟨256,.other,false,some ⟨20,[],none,false⟩⟩]⟩,⟨[6,11],none,[],[⟨256,.other,false,some ⟨17,[],none,false⟩⟩,⟨256,.ws,false,some ⟨17,[],none,false⟩⟩,⟨256,.lf,false,some ⟨17,[],none,false⟩⟩,⟨256,.vt,false,some ⟨17,[],none,false⟩⟩,⟨256,.ff,false,some ⟨17,[],none,false⟩⟩,⟨256,.cr,false,some ⟨17,[],none,false⟩⟩,⟨256,.cr,true,some ⟨17,[],none,false⟩⟩,⟨256,.other,false,none⟩,⟨256,.other,false,some ⟨29,[],none,false⟩⟩,⟨256,.other,false,some ⟨19,[],none,false⟩⟩]⟩,⟨[24,29],none,[],[⟨256,.other,false,some ⟨18,[],none,false⟩⟩,⟨256,.ws,false,some ⟨18,[],none,false⟩⟩,⟨256,.lf,false,some ⟨18,[],none,false⟩⟩,⟨256,.vt,false,some ⟨18,[],none,false⟩⟩,⟨256,.ff,false,some ⟨18,[],none,false⟩⟩,⟨256,.cr,false,some ⟨18,[],none,false⟩⟩,⟨256,.cr,true,some ⟨18,[],none,false⟩⟩,⟨256,.other,false,none⟩,⟨256,.other,false,some ⟨30,[],none,false⟩⟩,⟨256,.other,false,some ⟨20,[],none,false⟩⟩]⟩,⟨[6,12],none,[],[⟨256,.other,false,some ⟨17,[],none,false⟩⟩,⟨256,.ws,false,some ⟨17,[],none,false⟩⟩,⟨256,.lf,false,some ⟨17,[],none,false⟩⟩,⟨256,.vt,false,some ⟨17,[],none,false⟩⟩,⟨256,.ff,false,some ⟨17,[],none,false⟩⟩,⟨256,.cr,false,some ⟨17,[],none,false⟩⟩,⟨256,.cr,true,some ⟨17,[],none,false⟩⟩,⟨256,.other,false,none⟩,⟨256,.other,false,some ⟨31,[],none,false⟩⟩,⟨256,.other,false,some ⟨19,[],none,false⟩⟩]⟩,⟨[24,30],none,[],[⟨256,.other,false,some ⟨18,[],none,false⟩⟩,⟨256,.ws,false,some ⟨18,[],none,false⟩⟩,⟨256,.lf,false,some ⟨18,[],none,false⟩⟩,⟨256,.vt,false,some ⟨18,[],none,false⟩⟩,⟨256,.ff,false,some ⟨18,[],none,false⟩⟩,⟨256,.cr,false,some ⟨18,[],none,false⟩⟩,⟨256,.cr,true,some ⟨18,[],none,false⟩⟩,⟨256,.other,false,none⟩,⟨256,.other,false,some ⟨32,[],none,false⟩⟩,⟨256,.other,false,some ⟨20,[],none,false⟩⟩]⟩,⟨[6,13],none,[],[⟨256,.other,false,some ⟨17,[],none,false⟩⟩,⟨256,.ws,false,some ⟨17,[],none,false⟩⟩,⟨256,.lf,false,some ⟨17,[],none,false⟩⟩,⟨256,.vt,false,some ⟨17,[],none,false⟩⟩,⟨256,.ff,false,some ⟨17,[],none,false⟩⟩,⟨256,.cr,false,some ⟨17,[],none,false⟩⟩,⟨256,.cr,true,some ⟨17,[],none,false⟩⟩,⟨256,.other,false,none⟩,⟨256,.other,false,some ⟨33,[],none,false⟩⟩,⟨256,.other,false,some ⟨19,[],none,false⟩⟩]⟩,⟨[24,31],none,[],[⟨256,.other,false,some ⟨18,[],none,false⟩⟩,⟨256,.ws,false,some ⟨18,[],none,false⟩⟩,⟨256,.lf,false,some ⟨18,[],none,false⟩⟩,⟨256,.vt,false,some ⟨18,[],none,false⟩⟩,⟨256,.ff,false,some ⟨18,[],none,false⟩⟩,⟨256,.cr,false,some ⟨18,[],none,false⟩⟩,⟨256,.cr,true,some ⟨18,[],none,false⟩⟩,⟨256,.other,false,none⟩,⟨256,.other,false,some ⟨20,[],none,false⟩⟩,⟨256,.other,false,some ⟨34,[],none,false⟩⟩]⟩,⟨[14],none,[],[⟨256,.other,false,some ⟨35,[],none,false⟩⟩,⟨256,.ws,false,some ⟨35,[],none,false⟩⟩,⟨256,.lf,false,some ⟨35,[],none,false⟩⟩,⟨256,.vt,false,some ⟨35,[],none,false⟩⟩,⟨256,.ff,false,some ⟨35,[],none,false⟩⟩,⟨256,.cr,false,some ⟨35,[],none,false⟩⟩,⟨256,.cr,true,some ⟨35,[],none,false⟩⟩,⟨256,.other,false,none⟩]⟩,⟨[24,32],none,[],[⟨256,.other,false,some ⟨18,[],none,false⟩⟩,⟨256,.ws,false,some ⟨18,[],none,false⟩⟩,⟨256,.lf,false,some ⟨18,[],none,false⟩⟩,⟨256,.vt,false,some ⟨18,[],none,false⟩⟩,⟨256,.ff,false,some ⟨18,[],none,false⟩⟩,⟨256,.cr,false,some ⟨18,[],none,false⟩⟩,⟨256,.cr,true,some ⟨18,[],none,false⟩⟩,⟨256,.other,false,none⟩,⟨256,.other,false,some ⟨36,[],none,false⟩⟩,⟨256,.other,false,some ⟨20,[],none,false⟩⟩]⟩,⟨[15],none,[],[⟨256,.other,false,some ⟨35,[],none,false⟩⟩,⟨256,.ws,false,some ⟨35,[],none,false⟩⟩,⟨256,.lf,false,some ⟨35,[],none,false⟩⟩,⟨256,.vt,false,some ⟨35,[],none,false⟩⟩,⟨256,.ff,false,some ⟨35,[],none,false⟩⟩,⟨256,.cr,false,some ⟨35,[],none,false⟩⟩,⟨256,.cr,true,some ⟨35,[],none,false⟩⟩,⟨256,.other,false,some ⟨0,[.code,.setEnt .checkBlank,.cb,.emb (.saw 1)],some 0,true⟩⟩]⟩,⟨[24,33],none,[],[⟨256,.other,false,some ⟨18,[],none,false⟩⟩,⟨256,.ws,false,some ⟨18,[],none,false⟩⟩,⟨256,.lf,false,some ⟨18,[],none,false⟩⟩,⟨256,.vt,false,some ⟨18,[],none,false⟩⟩,⟨256,.ff,false,some ⟨18,[],none,false⟩⟩,⟨256,.cr,false,some ⟨18,[],none,false⟩⟩,⟨256,.cr,true,some ⟨18,[],none,false⟩⟩,⟨256,.other,false,none⟩,⟨256,.other,false,some ⟨37,[],none,false⟩⟩,⟨256,.other,false,some ⟨20,[],none,false⟩⟩]⟩,⟨[24,34],none,[],[⟨256,.other,false,some ⟨18,[],none,false⟩⟩,⟨256,.ws,false,some ⟨18,[],none,false⟩⟩,⟨256,.lf,false,some ⟨18,[],none,false⟩⟩,⟨256,.vt,false,some ⟨18,[],none,false⟩⟩,⟨256,.ff,false,some ⟨18,[],none,false⟩⟩,⟨256,.cr,false,some ⟨18,[],none,false⟩⟩,⟨256,.cr,true,some ⟨18,[],none,false⟩⟩,⟨256,.other,false,none⟩,⟨256,.other,false,some ⟨38,[],none,false⟩⟩,⟨256,.other,false,some ⟨20,[],none,false⟩⟩]⟩,⟨[24,35],none,[],[⟨256,.other,false,some ⟨18,[],none,false⟩⟩,⟨256,.ws,false,some ⟨18,[],none,false⟩⟩,⟨256,.lf,false,some ⟨18,[],none,false⟩⟩,⟨256,.vt,false,some ⟨18,[],none,false⟩⟩,⟨256,.ff,false,some ⟨18,[],none,false⟩⟩,⟨256,.cr,false,some ⟨18,[],none,false⟩⟩,⟨256,.cr,true,some ⟨18,[],none,false⟩⟩,⟨256,.other,false,none⟩,⟨256,.other,false,some ⟨39,[],none,false⟩⟩,⟨256,.other,false,some ⟨20,[],none,false⟩⟩]⟩,⟨[24,36],none,[],[⟨256,.other,false,some ⟨18,[],none,false⟩⟩,⟨256,.ws,false,some ⟨18,[],none,false⟩⟩,⟨256,.lf,false,some ⟨18,[],none,false⟩⟩,⟨256,.vt,false,some ⟨18,[],none,false⟩⟩,⟨256,.ff,false,some ⟨18,[],none,false⟩⟩,⟨256,.cr,false,some ⟨18,[],none,false⟩⟩,⟨256,.cr,true,some ⟨18,[],none,false⟩⟩,⟨256,.other,false,none⟩,⟨256,.other,false,some ⟨40,[],none,false⟩⟩,⟨256,.other,false,some ⟨20,[],none,false⟩⟩]⟩,⟨[24,37],none,[],[⟨256,.other,false,some ⟨18,[],none,false⟩⟩,⟨256,.ws,false,some ⟨18,[],none,false⟩⟩,⟨256,.lf,false,some ⟨18,[],none,false⟩⟩,⟨256,.vt,false,some ⟨18,[],none,false⟩⟩,⟨256,.ff,false,some ⟨18,[],none,false⟩⟩,⟨256,.cr,false,some ⟨18,[],none,false⟩⟩,⟨256,.cr,true,some ⟨18,[],none,false⟩⟩,⟨256,.other,false,none⟩,⟨256,.other,false,some ⟨41,[],none,false⟩⟩,⟨256,.other,false,some ⟨20,[],none,false⟩⟩]⟩,⟨[24,38],none,[],[⟨256,.other,false,some ⟨18,[],none,false⟩⟩,⟨256,.ws,false,some ⟨18,[],none,false⟩⟩,⟨256,.lf,false,some ⟨18,[],none,false⟩⟩,⟨256,.vt,false,some ⟨18,[],none,false⟩⟩,⟨256,.ff,false,some ⟨18,[],none,false⟩⟩,⟨256,.cr,false,some ⟨18,[],none,false⟩⟩,⟨256,.cr,true,some ⟨18,[],none,false⟩⟩,⟨256,.other,false,none⟩,⟨256,.other,false,some ⟨42,[],none,false⟩⟩]⟩,⟨[39],none,[],[⟨256,.other,false,some ⟨43,[],none,false⟩⟩,⟨256,.ws,false,some ⟨43,[],none,false⟩⟩,⟨256,.lf,false,some ⟨43,[],none,false⟩⟩,⟨256,.vt,false,some ⟨43,[],none,false⟩⟩,⟨256,.ff,false,some ⟨43,[],none,false⟩⟩,⟨256,.cr,false,some ⟨43,[],none,false⟩⟩,⟨256,.cr,true,some ⟨43,[],none,false⟩⟩,⟨256,.other,false,none⟩]⟩,⟨[40],none,[],[⟨256,.other,false,some ⟨43,[],none,false⟩⟩,⟨256,.ws,false,some ⟨43,[],none,false⟩⟩,⟨256,.lf,false,some ⟨43,[],none,false⟩⟩,⟨256,.vt,false,some ⟨43,[],none,false⟩⟩,⟨256,.ff,false,some ⟨43,[],none,false⟩⟩,⟨256,.cr,false,some ⟨43,[],none,false⟩⟩,⟨256,.cr,true,some ⟨43,[],none,false⟩⟩,⟨256,.other,false,some ⟨0,[.code,.setEnt .checkBlank,.cb,.emb (.saw 2)],some 1,true⟩⟩]⟩]
theorem emb29_rowsOk : rowsOk emb29_nfa [] (emb29_cs.map (·.1)) emb29_rows = true := by decide +kernel
def emb29_D : Dfa emb29_nfa := ⟨emb29_masks, [], emb29_cs, emb29_rows, emb29_masksIn, emb29_repOk, emb29_rowsOk⟩

/-- The automaton of `Emb.Jsp.jsp_entity`. -/
def emb31_nfa : Nfa := ⟨[⟨0,1152921504606846976,[],[],0,2⟩,⟨17,1152921504606846976,[],[],0,4⟩,⟨42,1152921504606846976,[],[],0,0⟩,⟨44,4294983168,[],[(0,.setEnt (.own 0))],0,0⟩,⟨45,1152921504606846976,[],[(1,.setEnt (.own 1))],0,8⟩,⟨53,115792089237316195423570985008687907853269984665640564039457584007908834656767,[],[],0,0⟩],[[⟨1,41538374877950027585161004031410176,[],[],0,2⟩],[⟨2,83076749755900055170322008062820352,[],[],0,2⟩],[⟨3,2658455992188801765450304258010251264,[],[],0,2⟩],[⟨4,324518553733984590509070343995392,[],[],0,2⟩],[⟨5,2535301201046754613352112062464,[],[],0,2⟩],[⟨6,115792089237316195423570985008687907853269984665640564039452972321894702252031,[],[],0,2⟩],[⟨6,115792089237316195423570985008687907853269984665640564039452972321894702252031,[],[],0,2⟩,⟨7,83076749736557242056487941267521536,[],[],0,2⟩],[⟨8,2535301200456458802993406410752,[],[],0,0⟩],[⟨9,1329227995784915872903807060280344576,[],[],0,0⟩],[⟨10,83076749736557242056487941267521536,[],[],0,0⟩],[⟨11,140737488355328,[],[],0,0⟩],[⟨12,633825300114114700748351602688,[],[],0,0⟩],[⟨13,41538374868278621028243970633760768,[],[],0,0⟩],[⟨14,41538374868278621028243970633760768,[],[],2,0⟩],[⟨15,115792089237316195423570985008687907853269984665640564039452972321894702252031,[],[],0,0⟩],[⟨15,115792089237316195423570985008687907853269984665640564039452972321894702252031,[],[],0,0⟩,⟨16,4611686018427387904,[],[],0,0⟩],[],[⟨18,41538374877950027585161004031410176,[],[],0,4⟩],[⟨19,633825300261688653338028015616,[],[],0,4⟩],[⟨20,20769187438975013792580502015705088,[],[],0,4⟩],[⟨21,40564819216748073813633792999424,[],[],0,4⟩],[⟨22,5192296859743753448145125503926272,[],[],0,4⟩],[⟨23,83076749755900055170322008062820352,[],[],0,4⟩],[⟨24,115792089237316195423570985008687907853269984665640564039452972321894702252031,[],[],0,4⟩],[⟨24,115792089237316195423570985008687907853269984665640564039452972321894702252031,[],[],0,4⟩,⟨25,83076749736557242056487941267521536,[],[],0,4⟩],[⟨26,2535301200456458802993406410752,[],[],0,0⟩],[⟨27,1329227995784915872903807060280344576,[],[],0,0⟩],[⟨28,83076749736557242056487941267521536,[],[],0,0⟩],[⟨29,140737488355328,[],[],0,0⟩],[⟨30,81129638414606681695789005144064,[],[],0,0⟩],[⟨31,158456325028528675187087900672,[],[],0,0⟩],[⟨32,332306998946228968225951765070086144,[],[],0,0⟩],[⟨33,158456325028528675187087900672,[],[],0,0⟩],[⟨34,41538374868278621028243970633760768,[],[],0,0⟩],[⟨35,633825300114114700748351602688,[],[],0,0⟩],[⟨36,20769187434139310514121985316880384,[],[],0,0⟩],[⟨37,40564819207303340847894502572032,[],[],0,0⟩],[⟨38,5192296858534827628530496329220096,[],[],0,0⟩],[⟨39,83076749736557242056487941267521536,[],[],4,0⟩],[⟨40,115792089237316195423570985008687907853269984665640564039452972321894702252031,[],[],0,0⟩],[⟨40,115792089237316195423570985008687907853269984665640564039452972321894702252031,[],[],0,0⟩,⟨41,4611686018427387904,[],[],0,0⟩],[],[⟨43,137438953472,[],[],0,0⟩],[],[⟨44,4294983168,[],[(0,.setEnt (.own 0))],0,0⟩],[⟨46,8589934592,[],[(1,.setEnt (.own 1))],0,8⟩],[⟨47,35184372088832,[],[(1,.setEnt (.own 1))],0,8⟩],[⟨48,35184372088832,[],[(1,.setEnt (.own 1))],0,8⟩],[⟨49,115792089237316195423570985008687907853269984665640564039457584007913129639935,[],[(1,.setEnt (.own 1))],0,8⟩,⟨50,35184372088832,[],[(1,.setEnt (.own 1))],0,8⟩],[⟨49,115792089237316195423570985008687907853269984665640564039457584007913129639935,[],[(1,.setEnt (.own 1))],0,8⟩,⟨50,35184372088832,[],[(1,.setEnt (.own 1))],0,8⟩],[⟨51,35184372088832,[],[(1,.setEnt (.own 1))],0,0⟩],[⟨52,4611686018427387904,[],[(1,.setEnt (.own 1))],8,0⟩],[],[]],[none,none,none,none,none,none,none,none,none,none,none,none,none,none,none,none,some (0,[]),none,none,none,none,none,none,none,none,none,none,none,none,none,none,none,none,none,none,none,none,none,none,none,none,some (1,[]),none,some (2,[]),some (3,[]),none,none,none,none,none,none,none,some (4,[]),some (5,[])],[0,0,0,1,2,2]⟩
def emb31_masks : List Nat := [1152921504606846976,4294983168,115792089237316195423570985008687907853269984665640564039457584007908834656767,41538374877950027585161004031410176,83076749755900055170322008062820352,2658455992188801765450304258010251264,324518553733984590509070343995392,2535301201046754613352112062464,115792089237316195423570985008687907853269984665640564039452972321894702252031,83076749736557242056487941267521536,2535301200456458802993406410752,1329227995784915872903807060280344576,140737488355328,633825300114114700748351602688,41538374868278621028243970633760768,4611686018427387904,633825300261688653338028015616,20769187438975013792580502015705088,40564819216748073813633792999424,5192296859743753448145125503926272,81129638414606681695789005144064,158456325028528675187087900672,332306998946228968225951765070086144,20769187434139310514121985316880384,40564819207303340847894502572032,5192296858534827628530496329220096,137438953472,8589934592,35184372088832,115792089237316195423570985008687907853269984665640564039457584007913129639935]
def emb31_cs : List (Nat × Nat) := [(0,115792089237316195423570985008687907853265513648504117332318924992224566428159),(9,4294967808),(10,1024),(11,2048),(12,4096),(13,8192),(33,8589934592),(37,137438953472),(45,35184372088832),(47,140737488355328),(60,1152921504606846976),(62,4611686018427387904),(67,147573952589676412928),(69,590295810358705651712),(73,9444732965739290427392),(76,324518553733984590509070343995392),(80,1208925819614629174706176),(82,4835703278458516698824704),(83,9671406556917033397649408),(84,19342813113834066795298816),(89,2658455992188801765450304258010251264),(97,158456325028528675187087900672),(99,633825300114114700748351602688),(101,2535301200456458802993406410752),(105,40564819207303340847894502572032),(106,81129638414606681695789005144064),(112,5192296858534827628530496329220096),(114,20769187434139310514121985316880384),(115,41538374868278621028243970633760768),(116,83076749736557242056487941267521536),(118,332306998946228968225951765070086144),(120,1329227995784915872903807060280344576)]
theorem emb31_masksIn : masksIn emb31_nfa emb31_masks = true := by decide +kernel
theorem emb31_repOk : repOk emb31_masks emb31_cs = true := by decide +kernel
def emb31_rows : List Row := [⟨[],none,[],[⟨256,.other,false,some ⟨0,[],some 5,true⟩⟩,⟨256,.ws,false,some ⟨1,[.setEnt (.own 0)],some 3,false⟩⟩,⟨256,.lf,false,some ⟨1,[.setEnt (.own 0)],some 3,false⟩⟩,⟨256,.vt,false,some ⟨1,[.setEnt (.own 0)],some 3,false⟩⟩,⟨256,.ff,false,some ⟨1,[.setEnt (.own 0)],some 3,false⟩⟩,⟨256,.cr,false,some ⟨1,[.setEnt (.own 0)],some 3,false⟩⟩,⟨256,.cr,true,some ⟨1,[.setEnt (.own 0)],some 3,false⟩⟩,⟨256,.other,false,some ⟨2,[.setEnt (.own 1)],some 5,false⟩⟩]⟩,⟨[44],some 3,[],[⟨256,.other,false,none⟩,⟨256,.ws,false,some ⟨1,[.setEnt (.own 0)],some 3,false⟩⟩,⟨256,.lf,false,some ⟨1,[.setEnt (.own 0)],some 3,false⟩⟩,⟨256,.vt,false,some ⟨1,[.setEnt (.own 0)],some 3,false⟩⟩,⟨256,.ff,false,some ⟨1,[.setEnt (.own 0)],some 3,false⟩⟩,⟨256,.cr,false,some ⟨1,[.setEnt (.own 0)],some 3,false⟩⟩,⟨256,.cr,true,some ⟨1,[.setEnt (.own 0)],some 3,false⟩⟩]⟩,⟨[0,17,42,45,53],some 5,[],[⟨256,.other,false,none⟩,⟨256,.ws,false,none⟩,⟨256,.lf,false,none⟩,⟨256,.vt,false,none⟩,⟨256,.ff,false,none⟩,⟨256,.cr,false,none⟩,⟨256,.cr,true,none⟩,⟨256,.other,false,some ⟨3,[.setEnt (.own 1)],none,false⟩⟩,⟨256,.other,false,some ⟨0,[],some 2,true⟩⟩,⟨256,.other,false,some ⟨4,[],none,false⟩⟩]⟩,⟨[46],none,[],[⟨256,.other,false,none⟩,⟨256,.ws,false,none⟩,⟨256,.lf,false,none⟩,⟨256,.vt,false,none⟩,⟨256,.ff,false,none⟩,⟨256,.cr,false,none⟩,⟨256,.cr,true,none⟩,⟨256,.other,false,some ⟨5,[.setEnt (.own 1)],none,false⟩⟩]⟩,⟨[1,18],none,[],[⟨256,.other,false,none⟩,⟨256,.ws,false,none⟩,⟨256,.lf,false,none⟩,⟨256,.vt,false,none⟩,⟨256,.ff,false,none⟩,⟨256,.cr,false,none⟩,⟨256,.cr,true,none⟩,⟨256,.other,false,some ⟨6,[],none,false⟩⟩,⟨256,.other,false,some ⟨7,[],none,false⟩⟩]⟩,⟨[47],none,[],[⟨256,.other,false,none⟩,⟨256,.ws,false,none⟩,⟨256,.lf,false,none⟩,⟨256,.vt,false,none⟩,⟨256,.ff,false,none⟩,⟨256,.cr,false,none⟩,⟨256,.cr,true,none⟩,⟨256,.other,false,some ⟨8,[.setEnt (.own 1)],none,false⟩⟩]⟩,⟨[19],none,[],[⟨256,.other,false,none⟩,⟨256,.ws,false,none⟩,⟨256,.lf,false,none⟩,⟨256,.vt,false,none⟩,⟨256,.ff,false,none⟩,⟨256,.cr,false,none⟩,⟨256,.cr,true,none⟩,⟨256,.other,false,some ⟨9,[],none,false⟩⟩]⟩,⟨[2],none,[],[⟨256,.other,false,none⟩,⟨256,.ws,false,none⟩,⟨256,.lf,false,none⟩,⟨256,.vt,false,none⟩,⟨256,.ff,false,none⟩,⟨256,.cr,false,none⟩,⟨256,.cr,true,none⟩,⟨256,.other,false,some ⟨10,[],none,false⟩⟩]⟩,⟨[48],none,[],[⟨256,.other,false,some ⟨11,[.setEnt (.own 1)],none,false⟩⟩,⟨256,.ws,false,some ⟨11,[.setEnt (.own 1)],none,false⟩⟩,⟨256,.lf,false,some ⟨11,[.setEnt (.own 1)],none,false⟩⟩,⟨256,.vt,false,some ⟨11,[.setEnt (.own 1)],none,false⟩⟩,⟨256,.ff,false,some ⟨11,[.setEnt (.own 1)],none,false⟩⟩,⟨256,.cr,false,some ⟨11,[.setEnt (.own 1)],none,false⟩⟩,⟨256,.cr,true,some ⟨11,[.setEnt (.own 1)],none,false⟩⟩,⟨256,.other,false,some ⟨12,[.setEnt (.own 1)],none,false⟩⟩]⟩,⟨[20],none,[],[⟨256,.other,false,none⟩,⟨256,.ws,false,none⟩,⟨256,.lf,false,none⟩,⟨256,.vt,false,none⟩,⟨256,.ff,false,none⟩,⟨256,.cr,false,none⟩,⟨256,.cr,true,none⟩,⟨256,.other,false,some ⟨13,[],none,false⟩⟩]⟩,⟨[3],none,[],[⟨256,.other,false,none⟩,⟨256,.ws,false,none⟩,⟨256,.lf,false,none⟩,⟨256,.vt,false,none⟩,⟨256,.ff,false,none⟩,⟨256,.cr,false,none⟩,⟨256,.cr,true,none⟩,⟨256,.other,false,some ⟨14,[],none,false⟩⟩]⟩,⟨[49],none,[],[⟨256,.other,false,some ⟨11,[.setEnt (.own 1)],none,false⟩⟩,⟨256,.ws,false,some ⟨11,[.setEnt (.own 1)],none,false⟩⟩,⟨256,.lf,false,some ⟨11,[.setEnt (.own 1)],none,false⟩⟩,⟨256,.vt,false,some ⟨11,[.setEnt (.own 1)],none,false⟩⟩,⟨256,.ff,false,some ⟨11,[.setEnt (.own 1)],none,false⟩⟩,⟨256,.cr,false,some ⟨11,[.setEnt (.own 1)],none,false⟩⟩,⟨256,.cr,true,some ⟨11,[.setEnt (.own 1)],none,false⟩⟩,⟨256,.other,false,some ⟨12,[.setEnt (.own 1)],none,false⟩⟩]⟩,⟨[49,50],none,[],[⟨256,.other,false,some ⟨11,[.setEnt (.own 1)],none,false⟩⟩,⟨256,.ws,false,some ⟨11,[.setEnt (.own 1)],none,false⟩⟩,⟨256,.lf,false,some ⟨11,[.setEnt (.own 1)],none,false⟩⟩,⟨256,.vt,false,some ⟨11,[.setEnt (.own 1)],none,false⟩⟩,⟨256,.ff,false,some ⟨11,[.setEnt (.own 1)],none,false⟩⟩,⟨256,.cr,false,some ⟨11,[.setEnt (.own 1)],none,false⟩⟩,⟨256,.cr,true,some ⟨11,[.setEnt (.own 1)],none,false⟩⟩,⟨256,.other,false,some ⟨15,[.setEnt (.own 1)],none,false⟩⟩]⟩,⟨[21],none,[],[⟨256,.other,false,none⟩,⟨256,.ws,false,none⟩,⟨256,.lf,false,none⟩,⟨256,.vt,false,none⟩,⟨256,.ff,false,none⟩,⟨256,.cr,false,none⟩,⟨256,.cr,true,none⟩,⟨256,.other,false,some ⟨16,[],none,false⟩⟩]⟩,⟨[4],none,[],[⟨256,.other,false,none⟩,⟨256,.ws,false,none⟩,⟨256,.lf,false,none⟩,⟨256,.vt,false,none⟩,⟨256,.ff,false,none⟩,⟨256,.cr,false,none⟩,⟨256,.cr,true,none⟩,⟨256,.other,false,some ⟨17,[],none,false⟩⟩]⟩,⟨[49,50,51],none,[],[⟨256,.other,false,some ⟨11,[.setEnt (.own 1)],none,false⟩⟩,⟨256,.ws,false,some ⟨11,[.setEnt (.own 1)],none,false⟩⟩,⟨256,.lf,false,some ⟨11,[.setEnt (.own 1)],none,false⟩⟩,⟨256,.vt,false,some ⟨11,[.setEnt (.own 1)],none,false⟩⟩,⟨256,.ff,false,some ⟨11,[.setEnt (.own 1)],none,false⟩⟩,⟨256,.cr,false,some ⟨11,[.setEnt (.own 1)],none,false⟩⟩,⟨256,.cr,true,some ⟨11,[.setEnt (.own 1)],none,false⟩⟩,⟨256,.other,false,some ⟨15,[.setEnt (.own 1)],none,false⟩⟩,⟨256,.other,false,some ⟨0,[.setEnt (.own 1)],some 4,true⟩⟩]⟩,⟨[22],none,[],[⟨256,.other,false,none⟩,⟨256,.ws,false,none⟩,⟨256,.lf,false,none⟩,⟨256,.vt,false,none⟩,⟨256,.ff,false,none⟩,⟨256,.cr,false,none⟩,⟨256,.cr,true,none⟩,⟨256,.other,false,some ⟨18,[],none,false⟩⟩]⟩,⟨[5],none,[],[⟨256,.other,false,some ⟨19,[],none,false⟩⟩,⟨256,.ws,false,some ⟨19,[],none,false⟩⟩,⟨256,.lf,false,some ⟨19,[],none,false⟩⟩,⟨256,.vt,false,some ⟨19,[],none,false⟩⟩,⟨256,.ff,false,some ⟨19,[],none,false⟩⟩,⟨256,.cr,false,some ⟨19,[],none,false⟩⟩,⟨256,.cr,true,some ⟨19,[],none,false⟩⟩,⟨256,.other,false,none⟩]⟩,⟨[23],none,[],[⟨256,.other,false,some ⟨20,[],none,false⟩⟩,⟨256,.ws,false,some ⟨20,[],none,false⟩⟩,⟨256,.lf,false,some ⟨20,[],none,false⟩⟩,⟨256,.vt,false,some ⟨20,[],none,false⟩⟩,⟨256,.ff,false,some ⟨20,[],none,false⟩⟩,⟨256,.cr,false,some ⟨20,[],none,false⟩⟩,⟨256,.cr,true,some ⟨20,[],none,false⟩⟩,⟨256,.other,false,none⟩]⟩,⟨[6],none,[],[⟨256,.other,false,some ⟨19,[],none,false⟩⟩,⟨256,.ws,false,some ⟨19,[],none,false⟩⟩,⟨256,.lf,false,some ⟨19,[],none,false⟩⟩,⟨256,.vt,false,some ⟨19,[],none,false⟩⟩,⟨256,.ff,false,some ⟨19,[],none,false⟩⟩,⟨256,.cr,false,some ⟨19,[],none,false⟩⟩,⟨256,.cr,true,some ⟨19,[],none,false⟩⟩,⟨256,.other,false,none⟩,⟨256,.other,false,some ⟨21,[],none,false⟩⟩]⟩,⟨[24],none,[],[⟨256,.other,false,some ⟨20,[],none,false⟩⟩,⟨256,.ws,false,some ⟨20,[],none,false⟩⟩,⟨256,.lf,false,some ⟨20,[],none,false⟩⟩,⟨256,.vt,false,some ⟨20,[],none,false⟩⟩,⟨256,.ff,false,some ⟨20,[],none,false⟩⟩,⟨256,.cr,false,some ⟨20,[],none,false⟩⟩,⟨256,.cr,true,some ⟨20,[],none,false⟩⟩,⟨256,.other,false,none⟩,⟨256,.other,false,some ⟨22,[],none,false⟩⟩]⟩,⟨[6,7],none,[],[⟨256,.other,false,some ⟨19,[],none,false⟩⟩,⟨256,.ws,false,some ⟨19,[],none,false⟩⟩,⟨256,.lf,false,some ⟨19,[],none,false⟩⟩,⟨256,.vt,false,some ⟨19,[],none,false⟩⟩,⟨256,.ff,false,some ⟨19,[],none,false⟩⟩,⟨256,.cr,false,some ⟨19,[],none,false⟩⟩,⟨256,.cr,true,some ⟨19,[],none,false⟩⟩,⟨256,.other,false,none⟩,⟨256,.other,false,some ⟨23,[],none,false⟩⟩,⟨256,.other,false,some ⟨21,[],none,false⟩⟩]⟩,⟨[24,25],none,[],[⟨256,.other,false,some ⟨20,[],none,false⟩⟩,⟨256,.ws,false,some ⟨20,[],none,false⟩⟩,⟨256,.lf,false,some ⟨20,[],none,false⟩⟩,⟨256,.vt,false,some ⟨20,[],none,false⟩⟩,⟨256,.ff,false,some ⟨20,[],none,false⟩⟩,⟨256,.cr,false,some ⟨20,[],none,false⟩⟩,⟨256,.cr,true,some ⟨20,[],none,false⟩⟩,⟨256,.other,false,none⟩,⟨256,.other,false,some ⟨24,[],none,false⟩⟩,⟨256,.other,false,some ⟨22,[],none,false⟩⟩]⟩,⟨[6,8],none,[],[⟨256,.other,false,some ⟨19,[],none,false⟩⟩,⟨256,.ws,false,some ⟨19,[],none,false⟩⟩,⟨256,.lf,false,some ⟨19,[],none,false⟩⟩,⟨256,.vt,false,some ⟨19,[],none,false⟩⟩,⟨256,.ff,false,some ⟨19,[],none,false⟩⟩,⟨256,.cr,false,some ⟨19,[],none,false⟩⟩,⟨256,.cr,true,some ⟨19,[],none,false⟩⟩,⟨256,.other,false,none⟩,⟨256,.other,false,some ⟨21,[],none,false⟩⟩,⟨256,.other,false,some ⟨25,[],none,false⟩⟩]⟩,⟨[24,26],none,[],[⟨256,.other,false,some ⟨20,[],none,false⟩⟩,⟨256,.ws,false,some ⟨20,[],none,false⟩⟩,⟨256,.lf,false,some ⟨20,[],none,false⟩⟩,⟨256,.vt,false,some ⟨20,[],none,false⟩⟩,⟨256,.ff,false,some ⟨20,[],none,false⟩⟩,⟨256,.cr,false,some ⟨20,[],none,false⟩⟩,⟨256,.cr,true,some ⟨20,[],none,false⟩⟩,⟨256,.other,false,none⟩,⟨256,.other,false,some ⟨22,[],none,false⟩⟩,⟨256,.other,false,some ⟨26,[],none,false⟩⟩]⟩,⟨[6,9],none,[],[⟨256,.other,false,some ⟨19,[],none,false⟩⟩,⟨256,.ws,false,some ⟨19,[],none,false⟩⟩,⟨256,.lf,false,some ⟨19,[],none,false⟩⟩,⟨256,.vt,false,some ⟨19,[],none,false⟩⟩,⟨256,.ff,false,some ⟨19,[],none,false⟩⟩,⟨256,.cr,false,some ⟨19,[],none,false⟩⟩,⟨256,.cr,true,some ⟨19,[],none,false⟩⟩,⟨256,.other,false,none⟩,⟨256,.other,false,some ⟨27,[],none,false⟩⟩]⟩,⟨[24,27],none,[],[⟨256,.other,false,some ⟨20,[],none,false⟩⟩,⟨256,.ws,false,some ⟨20,[],none,false⟩⟩,⟨256,.lf,false,some ⟨20,[],none,false⟩⟩,⟨256,.vt,false,some ⟨20,[],none,false⟩⟩,⟨256,.ff,false,some ⟨20,[],none,false⟩⟩,⟨256,.cr,false,some ⟨20,[],none,false⟩⟩,⟨256,.cr,true,some ⟨20,[],none,false⟩⟩,⟨256,.other,false,none⟩,⟨256,.other,false,some ⟨28,[],none,false⟩⟩]⟩,⟨[6,7,10],none,[],[⟨256,.other,false,some ⟨19,[],none,false⟩⟩,⟨256,.ws,false,some ⟨19,[],none,false⟩⟩,⟨256,.lf,false,some ⟨19,[],none,false⟩⟩,⟨256,.vt,false,some ⟨19,[],none,false⟩⟩,⟨256,.ff,false,some ⟨19,[],none,false⟩⟩,⟨256,.cr,false,some ⟨19,[],none,false⟩⟩,⟨256,.cr,true,some ⟨19,[],none,false⟩⟩,⟨256,.other,false,some ⟨29,[],none,false⟩⟩,⟨256,.other,false,none⟩,⟨256,.other,false,some ⟨23,[],none,false⟩⟩,⟨256,.other,false,some ⟨21,[],none,false⟩⟩]⟩,⟨[24,25,28],none,[],[⟨256,.other,false,some ⟨20,[],none,false⟩⟩,⟨256,.ws,false,some ⟨20,[],none,false⟩⟩,⟨256,.lf,false,some ⟨20,[],none,false⟩⟩,⟨256,.vt,false,some ⟨20,[],none,false⟩⟩,⟨256,.ff,false,some ⟨20,[],none,false⟩⟩,⟨256,.cr,false,some ⟨20,[],none,false⟩⟩,⟨256,.cr,true,some ⟨20,[],none,false⟩⟩,⟨256,.other,false,some ⟨30,[],none,false⟩⟩,⟨256,.other,false,none⟩,⟨256,.other,false,some ⟨24,[],none,false⟩⟩,⟨256,.other,false,some ⟨22,[],none,false⟩⟩]⟩,⟨[6,11],none,[],[⟨256,.other,false,some ⟨19,[],none,false⟩⟩,⟨256,.ws,false,some ⟨19,[],none,false⟩⟩,⟨256,.lf,false,some ⟨19,[],none,false⟩⟩,⟨256,.vt,false,some ⟨19,[],none,false⟩⟩,⟨256,.ff,false,some ⟨19,[],none,false⟩⟩,⟨256,.cr,false,some ⟨19,[],none,false⟩⟩,⟨256,.cr,true,some ⟨19,[],none,false⟩⟩,⟨256,.other,false,none⟩,⟨256,.other,false,some ⟨31,[],none,false⟩⟩,⟨256,.other,false,some ⟨21,[],none,false⟩⟩]⟩,⟨[24,29],none,[],[⟨256,.other,false,some ⟨20,[],none,false⟩⟩,⟨256,.ws,false,some ⟨20,[],none,false⟩⟩,⟨256,.lf,false,some ⟨20,[],none,false⟩⟩,⟨256,.vt,false,some ⟨20,[],none,false⟩⟩,⟨256,.ff,false,some ⟨20,[],none,false⟩⟩,⟨256,.cr,false,some ⟨20,[],none,false⟩⟩,⟨256,.cr,true,some ⟨20,[],none,false⟩⟩,⟨256,.other,false,none⟩,⟨256,.other,false,some ⟨32,[],none,false⟩⟩,⟨256,.other,false,some ⟨22,[],none,false⟩⟩]⟩,⟨[6,12],none,[],[⟨256,.other,false,some ⟨19,[],none,false⟩⟩,⟨256,.ws,false,some ⟨19,[],none,false⟩⟩,⟨256,.lf,false,some ⟨19,[],none,false⟩⟩,⟨256,.vt,false,some ⟨19,[],none,false⟩⟩,⟨256,.ff,false,some ⟨19,[],none,false⟩⟩,⟨256,.cr,false,some ⟨19,[],none,false⟩⟩,⟨256,.cr,true,some ⟨19,[],none,false⟩⟩,⟨256,.other,false,none⟩,⟨256,.other,false,some ⟨33,[],none,false⟩⟩,⟨256,.other,false,some ⟨21,[],none,false⟩⟩]⟩,⟨[24,30],none,[],[⟨256,.other,false,some ⟨20,[],none,false⟩⟩,⟨256,.ws,false,some ⟨20,[],none,false⟩⟩,⟨256,.lf,false,some ⟨20,[],none,false⟩⟩,⟨256,.vt,false,some ⟨20,[],none,false⟩⟩,⟨256,.ff,false,some ⟨20,[],none,false⟩⟩,⟨256,.cr,false,some ⟨20,[],none,false⟩⟩,⟨256,.cr,true,some ⟨20,[],none,false⟩⟩,⟨256,.other,false,none⟩,⟨256,.other,false,some ⟨34,[],none,false⟩⟩,⟨256,.other,false,some ⟨22,[],none,false⟩⟩]⟩,⟨[6,13],none,[],[⟨256,.other,false,some ⟨19,[],none,false⟩⟩,⟨256,.ws,false,some ⟨19,[],none,false⟩⟩,⟨256,.lf,false,some ⟨19,[],none,false⟩⟩,⟨256,.vt,false,some ⟨19,[],none,false⟩⟩,⟨256,.ff,false,some ⟨19,[],none,false⟩⟩,⟨256,.cr,false,some ⟨19,[],none,false⟩⟩,⟨256,.cr,true,some ⟨19,[],none,false⟩⟩,⟨256,.other,false,none⟩,⟨256,.other,false,some ⟨35,[],none,false⟩⟩,⟨256,.other,false,some ⟨21,[],none,false⟩⟩]⟩,⟨[24,31],none,[],[⟨256,.other,false,some ⟨20,[],none,false⟩⟩,⟨256,.ws,false,some ⟨20,[],none,false⟩⟩,⟨256,.lf,false,some ⟨20,[],none,false⟩⟩,⟨256,.vt,false,some ⟨20,[],none,false⟩⟩,⟨256,.ff,false,some ⟨20,[],none,false⟩⟩,⟨256,.cr,false,some ⟨20,[],none,false⟩⟩,⟨256,.cr,true,some ⟨20,[],none,false⟩⟩,⟨256,.other,false,none⟩,⟨256,.other,false,some ⟨22,[],none,false⟩⟩,⟨256,.other,false,some ⟨36,[],none,false⟩⟩]⟩,⟨[14],none,[],[⟨256,.other,false,some ⟨37,[],none,false⟩⟩,⟨256,.ws,false,some ⟨37,[],none,false⟩⟩,⟨256,.lf,false,some ⟨37,[],none,false⟩⟩,⟨256,.vt,false,some ⟨37,[],none,false⟩⟩,⟨256,.ff,false,some ⟨37,[],none,false⟩⟩,⟨256,.cr,false,some ⟨37,[],none,false⟩⟩,⟨256,.cr,true,some ⟨37,[],none,false⟩⟩,⟨256,.other,false,none⟩]⟩,⟨[24,32],none,[],[⟨256,.other,false,some ⟨20,[],none,false⟩⟩,⟨256,.ws,false,some ⟨20,[],none,false⟩⟩,⟨256,.lf,false,some ⟨20,[],none,false⟩⟩,⟨256,.vt,false,some ⟨20,[],none,false⟩⟩,⟨256,.ff,false,some ⟨20,[],none,false⟩⟩,⟨256,.cr,false,some ⟨20,[],none,false⟩⟩,⟨256,.cr,true,some ⟨20,[],none,false⟩⟩,⟨256,.other,false,none⟩,⟨256,.other,false,some ⟨38,[],none,false⟩⟩,⟨256,.other,false,some ⟨22,[],none,false⟩⟩]⟩,⟨[15],none,[],[⟨256,.other,false,some ⟨37,[],none,false⟩⟩,⟨256,.ws,false,some ⟨37,[],none,false⟩⟩,⟨256,.lf,false,some ⟨37,[],none,false⟩⟩,⟨256,.vt,false,some ⟨37,[],none,false⟩⟩,⟨256,.ff,false,some ⟨37,[],none,false⟩⟩,⟨256,.cr,false,some ⟨37,[],none,false⟩⟩,⟨256,.cr,true,some ⟨37,[],none,false⟩⟩,⟨256,.other,false,some ⟨0,[],some 0,true⟩⟩]⟩,⟨[24,33],none,[],[⟨256,.other,false,some ⟨20,[],none,false⟩⟩,⟨256,.ws,false,some ⟨20,[],none,false⟩⟩,⟨256,.lf,false,some ⟨20,[],none,false⟩⟩,⟨256,.vt,false,some ⟨20,[],none,false⟩⟩,⟨256,.ff,false,some ⟨20,[],none,false⟩⟩,⟨256,.cr,false,some ⟨20,[],none,false⟩⟩,⟨256,.cr,true,some ⟨20,[],none,false⟩⟩,⟨256,.other,false,none⟩,⟨256,.other,false,some ⟨39,[],none,false⟩⟩,⟨256,.other,false,some ⟨22,[],none,false⟩⟩]⟩,⟨[24,34],none,[],[⟨256,.other,false,some ⟨20,[],none,false⟩⟩,⟨256,.ws,false,some ⟨20,[],none,false⟩⟩,⟨256,.lf,false,some ⟨20,[],none,false⟩⟩,⟨256,.vt,false,some ⟨20,[],none,false⟩⟩,⟨256,.ff,false,some ⟨20,[],none,false⟩⟩,⟨256,.cr,false,some ⟨20,[],none,false⟩⟩,⟨256,.cr,true,some ⟨20,[],none,false⟩⟩,⟨256,.other,false,none⟩,⟨256,.other,false,some ⟨40,[],none,false⟩⟩,⟨256,.other,false,some ⟨22,[],none,false⟩⟩]⟩,⟨[24,35],none,[],[⟨256,.other,false,some ⟨20,[],none,false⟩⟩,⟨256,.ws,false,some ⟨20,[],none,false⟩⟩,⟨256,.lf,false,some ⟨20,[],none,false⟩⟩,⟨256,.vt,false,some ⟨20,[],none,false⟩⟩,⟨256,.ff,false,some ⟨20,[],none,false⟩⟩,⟨256,.cr,false,some ⟨20,[],none,false⟩⟩,⟨256,.cr,true,some ⟨20,[],none,false⟩⟩,⟨256,.other,false,none⟩,⟨256,.other,false,some ⟨41,[],none,false⟩⟩,⟨256,.other,false,some ⟨22,[],none,false⟩⟩]⟩,⟨[24,36],none,[],[⟨256,.other,false,some ⟨20,[],none,false⟩⟩,⟨256,.ws,false,some ⟨20,[],none,false⟩⟩,⟨256,.lf,false,some ⟨20,[],none,false⟩⟩,⟨256,.vt,false,some ⟨20,[],none,false⟩⟩,⟨256,.ff,false,some ⟨20,[],none,false⟩⟩,⟨256,.cr,false,some ⟨20,[],none,false⟩⟩,⟨256,.cr,true,some ⟨20,[],none,false⟩⟩,⟨256,.other,false,none⟩,⟨256,.other,false,some ⟨42,[],none,false⟩⟩,⟨256,.other,false,some ⟨22,[],none,false⟩⟩]⟩,⟨[24,37],none,[],[⟨256,.other,false,some ⟨20,[],none,false⟩⟩,⟨256,.ws,false,some ⟨20,[],none,false⟩⟩,⟨256,.lf,false,some ⟨20,[],none,false⟩⟩,⟨256,.vt,false,some ⟨20,[],none,false⟩⟩,⟨256,.ff,false,some ⟨20,[],none,false⟩⟩,⟨256,.cr,false,some ⟨20,[],none,false⟩⟩,⟨256,.cr,true,some ⟨20,[],none,false⟩⟩,⟨256,.other,false,none⟩,⟨256,.other,false,some ⟨43,[],none,false⟩⟩,⟨256,.other,false,some ⟨22,[],none,false⟩⟩]⟩,⟨[24,38],none,[],[⟨256,.other,false,some ⟨20,[],none,false⟩⟩,⟨256,.ws,false,some ⟨20,[],none,false⟩⟩,⟨256,.lf,false,some ⟨20,[],none,false⟩⟩,⟨256,.vt,false,some ⟨20,[],none,false⟩⟩,⟨256,.ff,false,some ⟨20,[],none,false⟩⟩,⟨256,.cr,false,some ⟨20,[],none,false⟩⟩,⟨256,.cr,true,some ⟨20,[],none,false⟩⟩,⟨256,.other,false,none⟩,⟨256,.other,false,some ⟨44,[],none,false⟩⟩]⟩,⟨[39],none,[],[⟨256,.other,false,some ⟨45,[],none,false⟩⟩,⟨256,.ws,false,some ⟨45,[],none,false⟩⟩,⟨256,.lf,false,some ⟨45,[],none,false⟩⟩,⟨256,.vt,false,some ⟨45,[],none,false⟩⟩,⟨256,.ff,false,some ⟨45,[],none,false⟩⟩,⟨256,.cr,false,some ⟨45,[],none,false⟩⟩,⟨256,.cr,true,some ⟨45,[],none,false⟩⟩,⟨256,.other,false,none⟩]⟩,⟨[40],none,[],[⟨256,.other,false,some ⟨45,[],none,false⟩⟩,⟨256,.ws,false,some ⟨45,[],none,false⟩⟩,⟨256,.lf,false,some ⟨45,[],none,false⟩⟩,⟨256,.vt,false,some ⟨45,[],none,false⟩⟩,⟨256,.ff,false,some ⟨45,[],none,false⟩⟩,⟨256,.cr,false,some ⟨45,[],none,false⟩⟩,⟨256,.cr,true,some ⟨45,[],none,false⟩⟩,⟨256,.other,false,some ⟨0,[],some 1,true⟩⟩]⟩]
theorem emb31_rowsOk : rowsOk emb31_nfa [] (emb31_cs.map (·.1)) emb31_rows = true := by decide +kernel
def emb31_D : Dfa emb31_nfa := ⟨emb31_masks, [], emb31_cs, emb31_rows, emb31_masksIn, emb31_repOk, emb31_rowsOk⟩
def emb31_maskst : List Nat := [1152921504606846976,4294983168,115792089237316195423570985008687907853269984665640564039457584007908834656767,41538374877950027585161004031410176,83076749755900055170322008062820352,2658455992188801765450304258010251264,324518553733984590509070343995392,2535301201046754613352112062464,115792089237316195423570985008687907853269984665640564039452972321894702252031,83076749736557242056487941267521536,2535301200456458802993406410752,1329227995784915872903807060280344576,140737488355328,633825300114114700748351602688,41538374868278621028243970633760768,4611686018427387904,633825300261688653338028015616,20769187438975013792580502015705088,40564819216748073813633792999424,5192296859743753448145125503926272,81129638414606681695789005144064,158456325028528675187087900672,332306998946228968225951765070086144,20769187434139310514121985316880384,40564819207303340847894502572032,5192296858534827628530496329220096,137438953472,8589934592,35184372088832,115792089237316195423570985008687907853269984665640564039457584007913129639935]
def emb31_cst : List (Nat × Nat) := [(0,115792089237316195423570985008687907853265513648504117332318924992224566428159),(9,4294967808),(10,1024),(11,2048),(12,4096),(13,8192),(33,8589934592),(37,137438953472),(45,35184372088832),(47,140737488355328),(60,1152921504606846976),(62,4611686018427387904),(67,147573952589676412928),(69,590295810358705651712),(73,9444732965739290427392),(76,324518553733984590509070343995392),(80,1208925819614629174706176),(82,4835703278458516698824704),(83,9671406556917033397649408),(84,19342813113834066795298816),(89,2658455992188801765450304258010251264),(97,158456325028528675187087900672),(99,633825300114114700748351602688),(101,2535301200456458802993406410752),(105,40564819207303340847894502572032),(106,81129638414606681695789005144064),(112,5192296858534827628530496329220096),(114,20769187434139310514121985316880384),(115,41538374868278621028243970633760768),(116,83076749736557242056487941267521536),(118,332306998946228968225951765070086144),(120,1329227995784915872903807060280344576)]
theorem emb31_masksInt : masksIn emb31_nfa emb31_maskst = true := by decide +kernel
theorem emb31_repOkt : repOk emb31_maskst emb31_cst = true := by decide +kernel
def emb31_rowst : List Row := [⟨[],none,[],[⟨256,.other,false,some ⟨0,[],some 5,true⟩⟩,⟨256,.ws,false,some ⟨1,[.setEnt (.own 0)],some 3,false⟩⟩,⟨256,.lf,false,some ⟨1,[.setEnt (.own 0)],some 3,false⟩⟩,⟨256,.vt,false,some ⟨1,[.setEnt (.own 0)],some 3,false⟩⟩,⟨256,.ff,false,some ⟨1,[.setEnt (.own 0)],some 3,false⟩⟩,⟨256,.cr,false,some ⟨1,[.setEnt (.own 0)],some 3,false⟩⟩,⟨256,.cr,true,some ⟨1,[.setEnt (.own 0)],some 3,false⟩⟩,⟨47,.other,false,some ⟨0,[],some 5,true⟩⟩,⟨60,.other,false,some ⟨2,[.setEnt (.own 1)],some 5,false⟩⟩,⟨62,.other,false,some ⟨0,[],some 5,true⟩⟩]⟩,⟨[44],some 3,[],[⟨256,.other,false,none⟩,⟨256,.ws,false,some ⟨1,[.setEnt (.own 0)],some 3,false⟩⟩,⟨256,.lf,false,some ⟨1,[.setEnt (.own 0)],some 3,false⟩⟩,⟨256,.vt,false,some ⟨1,[.setEnt (.own 0)],some 3,false⟩⟩,⟨256,.ff,false,some ⟨1,[.setEnt (.own 0)],some 3,false⟩⟩,⟨256,.cr,false,some ⟨1,[.setEnt (.own 0)],some 3,false⟩⟩,⟨256,.cr,true,some ⟨1,[.setEnt (.own 0)],some 3,false⟩⟩,⟨47,.other,false,none⟩,⟨60,.other,false,none⟩,⟨62,.other,false,none⟩]⟩,⟨[0,17,42,45,53],some 5,[],[⟨256,.other,false,none⟩,⟨256,.ws,false,none⟩,⟨256,.lf,false,none⟩,⟨256,.vt,false,none⟩,⟨256,.ff,false,none⟩,⟨256,.cr,false,none⟩,⟨256,.cr,true,none⟩,⟨256,.other,false,some ⟨3,[.setEnt (.own 1)],none,false⟩⟩,⟨256,.other,false,some ⟨0,[],some 2,true⟩⟩,⟨47,.other,false,none⟩,⟨60,.other,false,none⟩,⟨62,.other,false,none⟩,⟨256,.other,false,some ⟨4,[],none,false⟩⟩]⟩,⟨[46],none,[],[⟨256,.other,false,none⟩,⟨256,.ws,false,none⟩,⟨256,.lf,false,none⟩,⟨256,.vt,false,none⟩,⟨256,.ff,false,none⟩,⟨256,.cr,false,none⟩,⟨256,.cr,true,none⟩,⟨256,.other,false,some ⟨5,[.setEnt (.own 1)],none,false⟩⟩,⟨47,.other,false,none⟩,⟨60,.other,false,none⟩,⟨62,.other,false,none⟩]⟩,⟨[1,18],none,[],[⟨256,.other,false,none⟩,⟨256,.ws,false,none⟩,⟨256,.lf,false,none⟩,⟨256,.vt,false,none⟩,⟨256,.ff,false,none⟩,⟨256,.cr,false,none⟩,⟨256,.cr,true,none⟩,⟨47,.other,false,none⟩,⟨60,.other,false,none⟩,⟨62,.other,false,none⟩,⟨256,.other,false,some ⟨6,[],none,false⟩⟩,⟨256,.other,false,some ⟨7,[],none,false⟩⟩]⟩,⟨[47],none,[],[⟨256,.other,false,none⟩,⟨256,.ws,false,none⟩,⟨256,.lf,false,none⟩,⟨256,.vt,false,none⟩,⟨256,.ff,false,none⟩,⟨256,.cr,false,none⟩,⟨256,.cr,true,none⟩,⟨256,.other,false,some ⟨8,[.setEnt (.own 1)],none,false⟩⟩,⟨47,.other,false,none⟩,⟨60,.other,false,none⟩,⟨62,.other,false,none⟩]⟩,⟨[19],none,[],[⟨256,.other,false,none⟩,⟨256,.ws,false,none⟩,⟨256,.lf,false,none⟩,⟨256,.vt,false,none⟩,⟨256,.ff,false,none⟩,⟨256,.cr,false,none⟩,⟨256,.cr,true,none⟩,⟨47,.other,false,none⟩,⟨60,.other,false,none⟩,⟨62,.other,false,none⟩,⟨256,.other,false,some ⟨9,[],none,false⟩⟩]⟩,⟨[2],none,[],[⟨256,.other,false,none⟩,⟨256,.ws,false,none⟩,⟨256,.lf,false,none⟩,⟨256,.vt,false,none⟩,⟨256,.ff,false,none⟩,⟨256,.cr,false,none⟩,⟨256,.cr,true,none⟩,⟨47,.other,false,none⟩,⟨60,.other,false,none⟩,⟨62,.other,false,none⟩,⟨256,.other,false,some ⟨10,[],none,false⟩⟩]⟩,⟨[48],none,[],[⟨256,.other,false,some ⟨11,[.setEnt (.own 1)],none,false⟩⟩,⟨256,.ws,false,some ⟨11,[.setEnt (.own 1)],none,false⟩⟩,⟨256,.lf,false,some ⟨11,[.setEnt (.own 1)],none,false⟩⟩,⟨256,.vt,false,some ⟨11,[.setEnt (.own 1)],none,false⟩⟩,⟨256,.ff,false,some ⟨11,[.setEnt (.own 1)],none,false⟩⟩,⟨256,.cr,false,some ⟨11,[.setEnt (.own 1)],none,false⟩⟩,⟨256,.cr,true,some ⟨11,[.setEnt (.own 1)],none,false⟩⟩,⟨256,.other,false,some ⟨12,[.setEnt (.own 1)],none,false⟩⟩,⟨47,.other,false,some ⟨11,[.setEnt (.own 1)],none,false⟩⟩,⟨60,.other,false,some ⟨11,[.setEnt (.own 1)],none,false⟩⟩,⟨62,.other,false,some ⟨11,[.setEnt (.own 1)],none,false⟩⟩]⟩,⟨[20],none,[],[⟨256,.other,false,none⟩,⟨256,.ws,false,none⟩,⟨256,.lf,false,none⟩,⟨256,.vt,false,none⟩,⟨256,.ff,false,none⟩,⟨256,.cr,false,none⟩,⟨256,.cr,true,none⟩,⟨47,.other,false,none⟩,⟨60,.other,false,none⟩,⟨62,.other,false,none⟩,⟨256,.other,false,some ⟨13,[],none,false⟩⟩]⟩,⟨[3],none,[],[⟨256,.other,false,none⟩,⟨256,.ws,false,none⟩,⟨256,.lf,false,none⟩,⟨256,.vt,false,none⟩,⟨256,.ff,false,none⟩,⟨256,.cr,false,none⟩,⟨256,.cr,true,none⟩,⟨47,.other,false,none⟩,⟨60,.other,false,none⟩,⟨62,.other,false,none⟩,⟨256,.other,false,some ⟨14,[],none,false⟩⟩]⟩,⟨[49],none,[],[⟨256,.other,false,some ⟨11,[.setEnt (.own 1)],none,false⟩⟩,⟨256,.ws,false,some ⟨11,[.setEnt (.own 1)],none,false⟩⟩,⟨256,.lf,false,some ⟨11,[.setEnt (.own 1)],none,false⟩⟩,⟨256,.vt,false,some ⟨11,[.setEnt (.own 1)],none,false⟩⟩,⟨256,.ff,false,some ⟨11,[.setEnt (.own 1)],none,false⟩⟩,⟨256,.cr,false,some ⟨11,[.setEnt (.own 1)],none,false⟩⟩,⟨256,.cr,true,some ⟨11,[.setEnt (.own 1)],none,false⟩⟩,⟨256,.other,false,some ⟨12,[.setEnt (.own 1)],none,false⟩⟩,⟨47,.other,false,some ⟨11,[.setEnt (.own 1)],none,false⟩⟩,⟨60,.other,false,some ⟨11,[.setEnt (.own 1)],none,false⟩⟩,⟨62,.other,false,some ⟨11,[.setEnt (.own 1)],none,false⟩⟩]⟩,⟨[49,50],none,[],[⟨256,.other,false,some ⟨11,[.setEnt (.own 1)],none,false⟩⟩,⟨256,.ws,false,some ⟨11,[.setEnt (.own 1)],none,false⟩⟩,⟨256,.lf,false,some ⟨11,[.setEnt (.own 1)],none,false⟩⟩,⟨256,.vt,false,some ⟨11,[.setEnt (.own 1)],none,false⟩⟩,⟨256,.ff,false,some ⟨11,[.setEnt (.own 1)],none,false⟩⟩,⟨256,.cr,false,some ⟨11,[.setEnt (.own 1)],none,false⟩⟩,⟨256,.cr,true,some ⟨11,[.setEnt (.own 1)],none,false⟩⟩,⟨256,.other,false,some ⟨15,[.setEnt (.own 1)],none,false⟩⟩,⟨47,.other,false,some ⟨11,[.setEnt (.own 1)],none,false⟩⟩,⟨60,.other,false,some ⟨11,[.setEnt (.own 1)],none,false⟩⟩,⟨62,.other,false,some ⟨11,[.setEnt (.own 1)],none,false⟩⟩]⟩,⟨[21],none,[],[⟨256,.other,false,none⟩,⟨256,.ws,false,none⟩,⟨256,.lf,false,none⟩,⟨256,.vt,false,none⟩,⟨256,.ff,false,none⟩,⟨256,.cr,false,none⟩,⟨256,.cr,true,none⟩,⟨47,.other,false,none⟩,⟨60,.other,false,none⟩,⟨62,.other,false,none⟩,⟨256,.other,false,some ⟨16,[],none,false⟩⟩]⟩,⟨[4],none,[],[⟨256,.other,false,none⟩,⟨256,.ws,false,none⟩,⟨256,.lf,false,none⟩,⟨256,.vt,false,none⟩,⟨256,.ff,false,none⟩,⟨256,.cr,false,none⟩,⟨256,.cr,true,none⟩,⟨47,.other,false,none⟩,⟨60,.other,false,none⟩,⟨62,.other,false,none⟩,⟨256,.other,false,some ⟨17,[],none,false⟩⟩]⟩,⟨[49,50,51],none,[],[⟨256,.other,false,some ⟨11,[.setEnt (.own 1)],none,false⟩⟩,⟨256,.ws,false,some ⟨11,[.setEnt (.own 1)],none,false⟩⟩,⟨256,.lf,false,some ⟨11,[.setEnt (.own 1)],none,false⟩⟩,⟨256,.vt,false,some ⟨11,[.setEnt (.own 1)],none,false⟩⟩,⟨256,.ff,false,some ⟨11,[.setEnt (.own 1)],none,false⟩⟩,⟨256,.cr,false,some ⟨11,[.setEnt (.own 1)],none,false⟩⟩,⟨256,.cr,true,some ⟨11,[.setEnt (.own 1)],none,false⟩⟩,⟨256,.other,false,some ⟨15,[.setEnt (.own 1)],none,false⟩⟩,⟨47,.other,false,some ⟨11,[.setEnt (.own 1)],none,false⟩⟩,⟨60,.other,false,some ⟨11,[.setEnt (.own 1)],none,false⟩⟩,⟨62,.other,false,some ⟨0,[.setEnt (.own 1)],some 4,true⟩⟩]⟩,⟨[22],none,[],[⟨256,.other,false,none⟩,⟨256,.ws,false,none⟩,⟨256,.lf,false,none⟩,⟨256,.vt,false,none⟩,⟨256,.ff,false,none⟩,⟨256,.cr,false,none⟩,⟨256,.cr,true,none⟩,⟨47,.other,false,none⟩,⟨60,.other,false,none⟩,⟨62,.other,false,none⟩,⟨256,.other,false,some ⟨18,[],none,false⟩⟩]⟩,⟨[5],none,[],[⟨256,.other,false,some ⟨19,[],none,false⟩⟩,⟨256,.ws,false,some ⟨19,[],none,false⟩⟩,⟨256,.lf,false,some ⟨19,[],none,false⟩⟩,⟨256,.vt,false,some ⟨19,[],none,false⟩⟩,⟨256,.ff,false,some ⟨19,[],none,false⟩⟩,⟨256,.cr,false,some ⟨19,[],none,false⟩⟩,⟨256,.cr,true,some ⟨19,[],none,false⟩⟩,⟨47,.other,false,some ⟨19,[],none,false⟩⟩,⟨60,.other,false,some ⟨19,[],none,false⟩⟩,⟨62,.other,false,none⟩]⟩,⟨[23],none,[],[⟨256,.other,false,some ⟨20,[],none,false⟩⟩,⟨256,.ws,false,some ⟨20,[],none,false⟩⟩,⟨256,.lf,false,some ⟨20,[],none,false⟩⟩,⟨256,.vt,false,some ⟨20,[],none,false⟩⟩,⟨256,.ff,false,some ⟨20,[],none,false⟩⟩,⟨256,.cr,false,some ⟨20,[],none,false⟩⟩,⟨256,.cr,true,some ⟨20,[],none,false⟩⟩,⟨47,.other,false,some ⟨20,[],none,false⟩⟩,⟨60,.other,false,some ⟨20,[],none,false⟩⟩,⟨62,.other,false,none⟩]⟩,⟨[6],none,[],[⟨256,.other,false,some ⟨19,[],none,false⟩⟩,⟨256,.ws,false,some ⟨19,[],none,false⟩⟩,⟨256,.lf,false,some ⟨19,[],none,false⟩⟩,⟨256,.vt,false,some ⟨19,[],none,false⟩⟩,⟨256,.ff,false,some ⟨19,[],none,false⟩⟩,⟨256,.cr,false,some ⟨19,[],none,false⟩⟩,⟨256,.cr,true,some ⟨19,[],none,false⟩⟩,⟨47,.other,false,some ⟨19,[],none,false⟩⟩,⟨60,.other,false,some ⟨19,[],none,false⟩⟩,⟨62,.other,false,none⟩,⟨256,.other,false,some ⟨21,[],none,false⟩⟩]⟩,⟨[24],none,[],[⟨256,.other,false,some ⟨20,[],none,false⟩⟩,⟨256,.ws,false,some ⟨20,[],none,false⟩⟩,⟨256,.lf,false,some ⟨20,[],none,false⟩⟩,⟨256,.vt,false,some ⟨20,[],none,false⟩⟩,⟨256,.ff,false,some ⟨20,[],none,false⟩⟩,⟨256,.cr,false,some ⟨20,[],none,false⟩⟩,⟨256,.cr,true,some ⟨20,[],none,false⟩⟩,⟨47,.other,false,some ⟨20,[],none,false⟩⟩,⟨60,.other,false,some ⟨20,[],none,false⟩⟩,⟨62,.other,false,none⟩,⟨256,.other,false,some ⟨22,[],none,false⟩⟩]⟩,⟨[6,7],none,[],[⟨256,.other,false,some ⟨19,[],none,false⟩⟩,⟨256,.ws,false,some ⟨19,[],none,false⟩⟩,⟨256,.lf,false,some ⟨19,[],none,false⟩⟩,⟨256,.vt,false,some ⟨19,[],none,false⟩⟩,⟨256,.ff,false,some ⟨19,[],none,false⟩⟩,⟨256,.cr,false,some ⟨19,[],none,false⟩⟩,⟨256,.cr,true,some ⟨19,[],none,false⟩⟩,⟨47,.other,false,some ⟨19,[],none,false⟩⟩,⟨60,.other,false,some ⟨19,[],none,false⟩⟩,⟨62,.other,false,none⟩,⟨256,.other,false,some ⟨23,[],none,false⟩⟩,⟨256,.other,false,some ⟨21,[],none,false⟩⟩]⟩,⟨[24,25],none,[],[⟨256,.other,false,some ⟨20,[],none,false⟩⟩,⟨256,.ws,false,some ⟨20,[],none,false⟩⟩,⟨256,.lf,false,some ⟨20,[],none,false⟩⟩,⟨256,.vt,false,some ⟨20,[],none,false⟩⟩,⟨256,.ff,false,some ⟨20,[],none,false⟩⟩,⟨256,.cr,false,some ⟨20,[],none,false⟩⟩,⟨256,.cr,true,some ⟨20,[],none,false⟩⟩,⟨47,.other,false,some ⟨20,[],none,false⟩⟩,⟨60,.other,false,some ⟨20,[],none,false⟩⟩,⟨62,.other,false,none⟩,⟨256,.other,false,some ⟨24,[],none,false⟩⟩,⟨256,.other,false,some ⟨22,[],none,false⟩⟩]⟩,⟨[6,8],none,[],[⟨256,.other,false,some ⟨19,[],none,false⟩⟩,⟨256,.ws,false,some ⟨19,[],none,false⟩⟩,⟨256,.lf,false,some ⟨19,[],none,false⟩⟩,⟨256,.vt,false,some ⟨19,[],none,false⟩⟩,⟨256,.ff,false,some ⟨19,[],none,false⟩⟩,⟨256,.cr,false,some ⟨19,[],none,false⟩⟩,⟨256,.cr,true,some ⟨19,[],none,false⟩⟩,⟨47,.other,false,some ⟨19,[],none,false⟩⟩,⟨60,.other,false,some ⟨19,[],none,false⟩⟩,⟨62,.other,false,none⟩,⟨256,.other,false,some ⟨21,[],none,false⟩⟩,⟨256,.other,false,some ⟨25,[],none,false⟩⟩]⟩,⟨[24,26],none,[],[⟨256,.other,false,some ⟨20,[],none,false⟩⟩,⟨256,.ws,false,some ⟨20,[],none,false⟩⟩,⟨256,.lf,false,some ⟨20,[],none,false⟩⟩,⟨256,.vt,false,some ⟨20,[],none,false⟩⟩,⟨256,.ff,false,some ⟨20,[],none,false⟩⟩,⟨256,.cr,false,some ⟨20,[],none,false⟩⟩,⟨256,.cr,true,some ⟨20,[],none,false⟩⟩,⟨47,.other,false,some ⟨20,[],none,false⟩⟩,⟨60,.other,false,some ⟨20,[],none,false⟩⟩,⟨62,.other,false,none⟩,⟨256,.other,false,some ⟨22,[],none,false⟩⟩,⟨256,.other,false,some ⟨26,[],none,false⟩⟩]⟩,⟨[6,9],none,[],[⟨256,.other,false,some ⟨19,[],none,false⟩⟩,⟨256,.ws,false,some ⟨19,[],none,false⟩⟩,⟨256,.lf,false,some ⟨19,[],none,false⟩⟩,⟨256,.vt,false,some ⟨19,[],none,false⟩⟩,⟨256,.ff,false,some ⟨19,[],none,false⟩⟩,⟨256,.cr,false,some ⟨19,[],none,false⟩⟩,⟨256,.cr,true,some ⟨19,[],none,false⟩⟩,⟨47,.other,false,some ⟨19,[],none,false⟩⟩,⟨60,.other,false,some ⟨19,[],none,false⟩⟩,⟨62,.other,false,none⟩,⟨256,.other,false,some ⟨27,[],none,false⟩⟩]⟩,⟨[24,27],none,[],[⟨256,.other,false,some ⟨20,[],none,false⟩⟩,⟨256,.ws,false,some ⟨20,[],none,false⟩⟩,⟨256,.lf,false,some ⟨20,[],none,false⟩⟩,⟨256,.vt,false,some ⟨20,[],none,false⟩⟩,⟨256,.ff,false,some ⟨20,[],none,false⟩⟩,⟨256,.cr,false,some ⟨20,[],none,false⟩⟩,⟨256,.cr,true,some ⟨20,[],none,false⟩⟩,⟨47,.other,false,some ⟨20,[],none,false⟩⟩,⟨60,.other,false,some ⟨20,[],none,false⟩⟩,⟨62,.other,false,none⟩,⟨256,.other,false,some ⟨28,[],none,false⟩⟩]⟩,⟨[6,7,10],none,[],[⟨256,.other,false,some ⟨19,[],none,false⟩⟩,⟨256,.ws,false,some ⟨19,[],none,false⟩⟩,⟨256,.lf,false,some ⟨19,[],none,false⟩⟩,⟨256,.vt,false,some ⟨19,[],none,false⟩⟩,⟨256,.ff,false,some ⟨19,[],none,false⟩⟩,⟨256,.cr,false,some ⟨19,[],none,false⟩⟩,⟨256,.cr,true,some ⟨19,[],none,false⟩⟩,⟨47,.other,false,some ⟨29,[],none,false⟩⟩,⟨60,.other,false,some ⟨19,[],none,false⟩⟩,⟨62,.other,false,none⟩,⟨256,.other,false,some ⟨23,[],none,false⟩⟩,⟨256,.other,false,some ⟨21,[],none,false⟩⟩]⟩,⟨[24,25,28],none,[],[⟨256,.other,false,some ⟨20,[],none,false⟩⟩,⟨256,.ws,false,some ⟨20,[],none,false⟩⟩,⟨256,.lf,false,some ⟨20,[],none,false⟩⟩,⟨256,.vt,false,some ⟨20,[],none,false⟩⟩,⟨256,.ff,false,some ⟨20,[],none,false⟩⟩,⟨256,.cr,false,some ⟨20,[],none,false⟩⟩,⟨256,.cr,true,some ⟨20,[],none,false⟩⟩,⟨47,.other,false,some ⟨30,[],none,false⟩⟩,⟨60,.other,false,some ⟨20,[],none,false⟩⟩,⟨62,.other,false,none⟩,⟨256,.other,false,some ⟨24,[],none,false⟩⟩,⟨256,.other,false,some ⟨22,[],none,false⟩⟩]⟩,⟨[6,11],none,[],[⟨256,.other,false,some ⟨19,[],none,false⟩⟩,⟨256,.ws,false,some ⟨19,[],none,false⟩⟩,⟨256,.lf,false,some ⟨19,[],none,false⟩⟩,⟨256,.vt,false,some ⟨19,[],none,false⟩⟩,⟨256,.ff,false,some ⟨19,[],none,false⟩⟩,⟨256,.cr,false,some ⟨19,[],none,false⟩⟩,⟨256,.cr,true,some ⟨19,[],none,false⟩⟩,⟨47,.other,false,some ⟨19,[],none,false⟩⟩,⟨60,.other,false,some ⟨19,[],none,false⟩⟩,⟨62,.other,false,none⟩,⟨256,.other,false,some ⟨31,[],none,false⟩⟩,⟨256,.other,false,some ⟨21,[],none,false⟩⟩]⟩,⟨[24,29],none,[],[⟨256,.other,false,some ⟨20,[],none,false⟩⟩,⟨256,.ws,false,some ⟨20,[],none,false⟩⟩,⟨256,.lf,false,some ⟨20,[],none,false⟩⟩,⟨256,.vt,false,some ⟨20,[],none,false⟩⟩,⟨256,.ff,false,some ⟨20,[],none,false⟩⟩,⟨256,.cr,false,some ⟨20,[],none,false⟩⟩,⟨256,.cr,true,some ⟨20,[],none,false⟩⟩,⟨47,.other,false,some ⟨20,[],none,false⟩⟩,⟨60,.other,false,some ⟨20,[],none,false⟩⟩,⟨62,.other,false,none⟩,⟨256,.other,false,some ⟨32,[],none,false⟩⟩,⟨256,.other,false,some ⟨22,[],none,false⟩⟩]⟩,⟨[6,12],none,[],[⟨256,.other,false,some ⟨19,[],none,false⟩⟩,⟨256,.ws,false,some ⟨19,[],none,false⟩⟩,⟨256,.lf,false,some ⟨19,[],none,false⟩⟩,⟨256,.vt,false,some ⟨19,[],none,false⟩⟩,⟨256,.ff,false,some ⟨19,[],none,false⟩⟩,⟨256,.cr,false,some ⟨19,[],none,false⟩⟩,⟨256,.cr,true,some ⟨19,[],none,false⟩⟩,⟨47,.other,false,some ⟨19,[],none,false⟩⟩,⟨60,.other,false,some ⟨19,[],none,false⟩⟩,⟨62,.other,false,none⟩,⟨256,.other,false,some ⟨33,[],none,false⟩⟩,⟨256,.other,false,some ⟨21,[],none,false⟩⟩]⟩,⟨[24,30],none,[],[⟨256,.other,false,some ⟨20,[],none,false⟩⟩,⟨256,.ws,false,some ⟨20,[],none,false⟩⟩,⟨256,.lf,false,some ⟨20,[],none,false⟩⟩,⟨256,.vt,false,some ⟨20,[],none,false⟩⟩,⟨256,.ff,false,some ⟨20,[],none,false⟩⟩,⟨256,.cr,false,some ⟨20,[],none,false⟩⟩,⟨256,.cr,true,some ⟨20,[],none,false⟩⟩,⟨47,.other,false,some ⟨20,[],none,false⟩⟩,⟨60,.other,false,some ⟨20,[],none,false⟩⟩,⟨62,.other,false,none⟩,⟨256,.other,false,some ⟨34,[],none,false⟩⟩,⟨256,.other,false,some ⟨22,[],none,false⟩⟩]⟩,⟨[6,13],none,[],[⟨256,.other,false,some ⟨19,[],none,false⟩⟩,⟨256,.ws,false,some ⟨19,[],none,false⟩⟩,⟨256,.lf,false,some ⟨19,[],none,false⟩⟩,⟨256,.vt,false,some ⟨19,[],none,false⟩⟩,⟨256,.ff,false,some ⟨19,[],none,false⟩⟩,⟨256,.cr,false,some ⟨19,[],none,false⟩⟩,⟨256,.cr,true,some ⟨19,[],none,false⟩⟩,⟨47,.other,false,some ⟨19,[],none,false⟩⟩,⟨60,.other,false,some ⟨19,[],none,false⟩⟩,⟨62,.other,false,none⟩,⟨256,.other,false,some ⟨35,[],none,false⟩⟩,⟨256,.other,false,some ⟨21,[],none,false⟩⟩]⟩,⟨[24,31],none,[],[⟨256,.other,false,some ⟨20,[],none,false⟩⟩,⟨256,.ws,false,some ⟨20,[],none,false⟩⟩,⟨256,.lf,false,some ⟨20,[],none,false⟩⟩,⟨256,.vt,false,some ⟨20,[],none,false⟩⟩,⟨256,.ff,false,some ⟨20,[],none,false⟩⟩,⟨256,.cr,false,some ⟨20,[],none,false⟩⟩,⟨256,.cr,true,some ⟨20,[],none,false⟩⟩,⟨47,.other,false,some ⟨20,[],none,false⟩⟩,⟨60,.other,false,some ⟨20,[],none,false⟩⟩,⟨62,.other,false,none⟩,⟨256,.other,false,some ⟨22,[],none,false⟩⟩,⟨256,.other,false,some ⟨36,[],none,false⟩⟩]⟩,⟨[14],none,[],[⟨256,.other,false,some ⟨37,[],none,false⟩⟩,⟨256,.ws,false,some ⟨37,[],none,false⟩⟩,⟨256,.lf,false,some ⟨37,[],none,false⟩⟩,⟨256,.vt,false,some ⟨37,[],none,false⟩⟩,⟨256,.ff,false,some ⟨37,[],none,false⟩⟩,⟨256,.cr,false,some ⟨37,[],none,false⟩⟩,⟨256,.cr,true,some ⟨37,[],none,false⟩⟩,⟨47,.other,false,some ⟨37,[],none,false⟩⟩,⟨60,.other,false,some ⟨37,[],none,false⟩⟩,⟨62,.other,false,none⟩]⟩,⟨[24,32],none,[],[⟨256,.other,false,some ⟨20,[],none,false⟩⟩,⟨256,.ws,false,some ⟨20,[],none,false⟩⟩,⟨256,.lf,false,some ⟨20,[],none,false⟩⟩,⟨256,.vt,false,some ⟨20,[],none,false⟩⟩,⟨256,.ff,false,some ⟨20,[],none,false⟩⟩,⟨256,.cr,false,some ⟨20,[],none,false⟩⟩,⟨256,.cr,true,some ⟨20,[],none,false⟩⟩,⟨47,.other,false,some ⟨20,[],none,false⟩⟩,⟨60,.other,false,some ⟨20,[],none,false⟩⟩,⟨62,.other,false,none⟩,⟨256,.other,false,some ⟨38,[],none,false⟩⟩,⟨256,.other,false,some ⟨22,[],none,false⟩⟩]⟩,⟨[15],none,[],[⟨256,.other,false,some ⟨37,[],none,false⟩⟩,⟨256,.ws,false,some ⟨37,[],none,false⟩⟩,⟨256,.lf,false,some ⟨37,[],none,false⟩⟩,⟨256,.vt,false,some ⟨37,[],none,false⟩⟩,⟨256,.ff,false,some ⟨37,[],none,false⟩⟩,⟨256,.cr,false,some ⟨37,[],none,false⟩⟩,⟨256,.cr,true,some ⟨37,[],none,false⟩⟩,⟨47,.other,false,some ⟨37,[],none,false⟩⟩,⟨60,.other,false,some ⟨37,[],none,false⟩⟩,⟨62,.other,false,some ⟨0,[],some 0,true⟩⟩]⟩,⟨[24,33],none,[],[⟨256,.other,false,some ⟨20,[],none,false⟩⟩,⟨256,.ws,false,some ⟨20,[],none,false⟩⟩,⟨256,.lf,false,some ⟨20,[],none,false⟩⟩,⟨256,.vt,false,some ⟨20,[],none,false⟩⟩,⟨256,.ff,false,some ⟨20,[],none,false⟩⟩,⟨256,.cr,false,some ⟨20,[],none,false⟩⟩,⟨256,.cr,true,some ⟨20,[],none,false⟩⟩,⟨47,.other,false,some ⟨20,[],none,false⟩⟩,⟨60,.other,false,some ⟨20,[],none,false⟩⟩,⟨62,.other,false,none⟩,⟨256,.other,false,some ⟨39,[],none,false⟩⟩,⟨256,.other,false,some ⟨22,[],none,false⟩⟩]⟩,⟨[24,34],none,[],[⟨256,.other,false,some ⟨20,[],none,false⟩⟩,⟨256,.ws,false,some ⟨20,[],none,false⟩⟩,⟨256,.lf,false,some ⟨20,[],none,false⟩⟩,⟨256,.vt,false,some ⟨20,[],none,false⟩⟩,⟨256,.ff,false,some ⟨20,[],none,false⟩⟩,⟨256,.cr,false,some ⟨20,[],none,false⟩⟩,⟨256,.cr,true,some ⟨20,[],none,false⟩⟩,⟨47,.other,false,some ⟨20,[],none,false⟩⟩,⟨60,.other,false,some ⟨20,[],none,false⟩⟩,⟨62,.other,false,none⟩,⟨256,.other,false,some ⟨40,[],none,false⟩⟩,⟨256,.other,false,some ⟨22,[],none,false⟩⟩]⟩,⟨[24,35],none,[],[⟨256,.other,false,some ⟨20,[],none,false⟩⟩,⟨256,.ws,false,some ⟨20,[],none,false⟩⟩,⟨256,.lf,false,some ⟨20,[],none,false⟩⟩,⟨256,.vt,false,some ⟨20,[],none,false⟩⟩,⟨256,.ff,false,some ⟨20,[],none,false⟩⟩,⟨256,.cr,false,some ⟨20,[],none,false⟩⟩,⟨256,.cr,true,some ⟨20,[],none,false⟩⟩,⟨47,.other,false,some ⟨20,[],none,false⟩⟩,⟨60,.other,false,some ⟨20,[],none,false⟩⟩,⟨62,.other,false,none⟩,⟨256,.other,false,some ⟨41,[],none,false⟩⟩,⟨256,.other,false,some ⟨22,[],none,false⟩⟩]⟩,⟨[24,36],none,[],[⟨256,.other,false,some ⟨20,[],none,false⟩⟩,⟨256,.ws,false,some ⟨20,[],none,false⟩⟩,⟨256,.lf,false,some ⟨20,[],none,false⟩⟩,⟨256,.vt,false,some ⟨20,[],none,false⟩⟩,⟨256,.ff,false,some ⟨20,[],none,false⟩⟩,⟨256,.cr,false,some ⟨20,[],none,false⟩⟩,⟨256,.cr,true,some ⟨20,[],none,false⟩⟩,⟨47,.other,false,some ⟨20,[],none,false⟩⟩,⟨60,.other,false,some ⟨20,[],none,false⟩⟩,⟨62,.other,false,none⟩,⟨256,.other,false,some ⟨42,[],none,false⟩⟩,⟨256,.other,false,some ⟨22,[],none,false⟩⟩]⟩,⟨[24,37],none,[],[⟨256,.other,false,some ⟨20,[],none,false⟩⟩,⟨256,.ws,false,some ⟨20,[],none,false⟩⟩,⟨256,.lf,false,some ⟨20,[],none,false⟩⟩,⟨256,.vt,false,some ⟨20,[],none,false⟩⟩,⟨256,.ff,false,some ⟨20,[],none,false⟩⟩,⟨256,.cr,false,some ⟨20,[],none,false⟩⟩,⟨256,.cr,true,some ⟨20,[],none,false⟩⟩,⟨47,.other,false,some ⟨20,[],none,false⟩⟩,⟨60,.other,false,some ⟨20,[],none,false⟩⟩,⟨62,.other,false,none⟩,⟨256,.other,false,some ⟨43,[],none,false⟩⟩,⟨256,.other,false,some ⟨22,[],none,false⟩⟩]⟩,⟨[24,38],none,[],[⟨256,.other,false,some ⟨20,[],none,false⟩⟩,⟨256,.ws,false,some ⟨20,[],none,false⟩⟩,⟨256,.lf,false,some ⟨20,[],none,false⟩⟩,⟨256,.vt,false,some ⟨20,[],none,false⟩⟩,⟨256,.ff,false,some ⟨20,[],none,false⟩⟩,⟨256,.cr,false,some ⟨20,[],none,false⟩⟩,⟨256,.cr,true,some ⟨20,[],none,false⟩⟩,⟨47,.other,false,some ⟨20,[],none,false⟩⟩,⟨60,.other,false,some ⟨20,[],none,false⟩⟩,⟨62,.other,false,none⟩,⟨256,.other,false,some ⟨44,[],none,false⟩⟩]⟩,⟨[39],none,[],[⟨256,.other,false,some ⟨45,[],none,false⟩⟩,⟨256,.ws,false,some ⟨45,[],none,false⟩⟩,⟨256,.lf,false,some ⟨45,[],none,false⟩⟩,⟨256,.vt,false,some ⟨45,[],none,false⟩⟩,⟨256,.ff,false,some ⟨45,[],none,false⟩⟩,⟨256,.cr,false,some ⟨45,[],none,false⟩⟩,⟨256,.cr,true,some ⟨45,[],none,false⟩⟩,⟨47,.other,false,some ⟨45,[],none,false⟩⟩,⟨60,.other,false,some ⟨45,[],none,false⟩⟩,⟨62,.other,false,none⟩]⟩,⟨[40],none,[],[⟨256,.other,false,some ⟨45,[],none,false⟩⟩,⟨256,.ws,false,some ⟨45,[],none,false⟩⟩,⟨256,.lf,false,some ⟨45,[],none,false⟩⟩,⟨256,.vt,false,some ⟨45,[],none,false⟩⟩,⟨256,.ff,false,some ⟨45,[],none,false⟩⟩,⟨256,.cr,false,some ⟨45,[],none,false⟩⟩,⟨256,.cr,true,some ⟨45,[],none,false⟩⟩,⟨47,.other,false,some ⟨45,[],none,false⟩⟩,⟨60,.other,false,some ⟨45,[],none,false⟩⟩,⟨62,.other,false,some ⟨0,[],some 1,true⟩⟩]⟩]
theorem emb31_rowsOkt : rowsOk emb31_nfa [47, 60, 62] (emb31_cst.map (·.1)) emb31_rowst = true := by decide +kernel
def emb31_Dt : Dfa emb31_nfa := ⟨emb31_maskst, [47, 60, 62], emb31_cst, emb31_rowst, emb31_masksInt, emb31_repOkt, emb31_rowsOkt⟩

/-- The automaton of `Emb.Phphtml.phtml_php_line`. -/
def emb35_nfa : Nfa := ⟨[⟨0,9223372036854775808,[],[(2,.emb .back)],0,0⟩,⟨2,4294967808,[],[(3,.setEnt (.own 0))],0,0⟩,⟨3,140737488355328,[],[],0,0⟩,⟨5,34359738368,[],[(4,.comment)],0,0⟩,⟨7,140737488355328,[],[],0,2⟩,⟨18,549755813888,[],[(9,.enqueue),(10,.code)],0,0⟩,⟨29,17179869184,[],[(17,.enqueue),(18,.code)],0,0⟩,⟨40,8192,[],[(25,.setEnt .newline)],0,0⟩,⟨42,1024,[],[(25,.setEnt .newline)],0,0⟩,⟨43,4096,[],[(25,.setEnt .newline)],0,0⟩,⟨44,8192,[.crAlone],[(25,.setEnt .newline)],0,0⟩,⟨45,115792089237316195423570985008687907853269984665640564039457584007908834656767,[],[(26,.setEnt (.own 3))],0,0⟩],[[⟨1,4611686018427387904,[],[(0,.emb .outry),(1,.code),(2,.emb .back)],0,0⟩],[],[⟨2,4294967808,[],[(3,.setEnt (.own 0))],0,0⟩],[⟨4,140737488355328,[],[(4,.comment)],0,0⟩],[⟨6,115792089237316195423570985008687907853269984665640564039457584007913129626623,[],[],0,0⟩],[⟨6,115792089237316195423570985008687907853269984665640564039457584007913129626623,[],[],0,0⟩],[⟨6,115792089237316195423570985008687907853269984665640564039457584007913129626623,[],[],0,0⟩],[⟨8,4398046511104,[],[(5,.comment)],0,2⟩],[⟨9,8192,[],[],0,2⟩,⟨11,1024,[],[],0,2⟩,⟨12,4096,[],[],0,2⟩,⟨13,8192,[.crAlone],[],0,2⟩,⟨14,4294967808,[],[],0,2⟩,⟨15,115792089237316195423570985008687907853269984665640564039457584007908834658815,[],[(8,.comment)],0,2⟩,⟨16,4398046511104,[],[],0,2⟩],[⟨10,1024,[],[],0,2⟩],[⟨9,8192,[],[(6,.setEnt .internalNl),(7,.emb (.cb 3))],0,2⟩,⟨11,1024,[],[(6,.setEnt .internalNl),(7,.emb (.cb 3))],0,2⟩,⟨12,4096,[],[(6,.setEnt .internalNl),(7,.emb (.cb 3))],0,2⟩,⟨13,8192,[.crAlone],[(6,.setEnt .internalNl),(7,.emb (.cb 3))],0,2⟩,⟨14,4294967808,[],[(6,.setEnt .internalNl),(7,.emb (.cb 3))],0,2⟩,⟨15,115792089237316195423570985008687907853269984665640564039457584007908834658815,[],[(6,.setEnt .internalNl),(7,.emb (.cb 3)),(8,.comment)],0,2⟩,⟨16,4398046511104,[],[(6,.setEnt .internalNl),(7,.emb (.cb 3))],0,2⟩],[⟨9,8192,[],[(6,.setEnt .internalNl),(7,.emb (.cb 3))],0,2⟩,⟨11,1024,[],[(6,.setEnt .internalNl),(7,.emb (.cb 3))],0,2⟩,⟨12,4096,[],[(6,.setEnt .internalNl),(7,.emb (.cb 3))],0,2⟩,⟨13,8192,[.crAlone],[(6,.setEnt .internalNl),(7,.emb (.cb 3))],0,2⟩,⟨14,4294967808,[],[(6,.setEnt .internalNl),(7,.emb (.cb 3))],0,2⟩,⟨15,115792089237316195423570985008687907853269984665640564039457584007908834658815,[],[(6,.setEnt .internalNl),(7,.emb (.cb 3)),(8,.comment)],0,2⟩,⟨16,4398046511104,[],[(6,.setEnt .internalNl),(7,.emb (.cb 3))],0,2⟩],[⟨9,8192,[],[(6,.setEnt .internalNl),(7,.emb (.cb 3))],0,2⟩,⟨11,1024,[],[(6,.setEnt .internalNl),(7,.emb (.cb 3))],0,2⟩,⟨12,4096,[],[(6,.setEnt .internalNl),(7,.emb (.cb 3))],0,2⟩,⟨13,8192,[.crAlone],[(6,.setEnt .internalNl),(7,.emb (.cb 3))],0,2⟩,⟨14,4294967808,[],[(6,.setEnt .internalNl),(7,.emb (.cb 3))],0,2⟩,⟨15,115792089237316195423570985008687907853269984665640564039457584007908834658815,[],[(6,.setEnt .internalNl),(7,.emb (.cb 3)),(8,.comment)],0,2⟩,⟨16,4398046511104,[],[(6,.setEnt .internalNl),(7,.emb (.cb 3))],0,2⟩],[⟨9,8192,[],[(6,.setEnt .internalNl),(7,.emb (.cb 3))],0,2⟩,⟨11,1024,[],[(6,.setEnt .internalNl),(7,.emb (.cb 3))],0,2⟩,⟨12,4096,[],[(6,.setEnt .internalNl),(7,.emb (.cb 3))],0,2⟩,⟨13,8192,[.crAlone],[(6,.setEnt .internalNl),(7,.emb (.cb 3))],0,2⟩,⟨14,4294967808,[],[(6,.setEnt .internalNl),(7,.emb (.cb 3))],0,2⟩,⟨15,115792089237316195423570985008687907853269984665640564039457584007908834658815,[],[(6,.setEnt .internalNl),(7,.emb (.cb 3)),(8,.comment)],0,2⟩,⟨16,4398046511104,[],[(6,.setEnt .internalNl),(7,.emb (.cb 3))],0,2⟩],[⟨9,8192,[],[],0,2⟩,⟨11,1024,[],[],0,2⟩,⟨12,4096,[],[],0,2⟩,⟨13,8192,[.crAlone],[],0,2⟩,⟨14,4294967808,[],[],0,2⟩,⟨15,115792089237316195423570985008687907853269984665640564039457584007908834658815,[],[(8,.comment)],0,2⟩,⟨16,4398046511104,[],[],0,2⟩],[⟨9,8192,[],[],0,2⟩,⟨11,1024,[],[],0,2⟩,⟨12,4096,[],[],0,2⟩,⟨13,8192,[.crAlone],[],0,2⟩,⟨14,4294967808,[],[],0,2⟩,⟨15,115792089237316195423570985008687907853269984665640564039457584007908834658815,[],[(8,.comment)],0,2⟩,⟨16,4398046511104,[],[],0,2⟩],[⟨17,140737488355328,[],[],2,0⟩],[],[⟨19,8192,[],[],0,0⟩,⟨21,1024,[],[],0,0⟩,⟨22,4096,[],[],0,0⟩,⟨23,8192,[.crAlone],[],0,0⟩,⟨24,4294967808,[],[],0,0⟩,⟨25,115792089237316195423570985008687907853269984665635612279300442486263777315839,[],[(13,.code)],0,0⟩,⟨26,4951760157141521099596496896,[],[],0,0⟩,⟨28,549755813888,[],[(15,.commit),(16,.code)],0,0⟩],[⟨20,1024,[],[],0,0⟩],[⟨19,8192,[],[(11,.setEnt .internalNl),(12,.emb (.cb 3))],0,0⟩,⟨21,1024,[],[(11,.setEnt .internalNl),(12,.emb (.cb 3))],0,0⟩,⟨22,4096,[],[(11,.setEnt .internalNl),(12,.emb (.cb 3))],0,0⟩,⟨23,8192,[.crAlone],[(11,.setEnt .internalNl),(12,.emb (.cb 3))],0,0⟩,⟨24,4294967808,[],[(11,.setEnt .internalNl),(12,.emb (.cb 3))],0,0⟩,⟨25,115792089237316195423570985008687907853269984665635612279300442486263777315839,[],[(11,.setEnt .internalNl),(12,.emb (.cb 3)),(13,.code)],0,0⟩,⟨26,4951760157141521099596496896,[],[(11,.setEnt .internalNl),(12,.emb (.cb 3))],0,0⟩,⟨28,549755813888,[],[(11,.setEnt .internalNl),(12,.emb (.cb 3)),(15,.commit),(16,.code)],0,0⟩],[⟨19,8192,[],[(11,.setEnt .internalNl),(12,.emb (.cb 3))],0,0⟩,⟨21,1024,[],[(11,.setEnt .internalNl),(12,.emb (.cb 3))],0,0⟩,⟨22,4096,[],[(11,.setEnt .internalNl),(12,.emb (.cb 3))],0,0⟩,⟨23,8192,[.crAlone],[(11,.setEnt .internalNl),(12,.emb (.cb 3))],0,0⟩,⟨24,4294967808,[],[(11,.setEnt .internalNl),(12,.emb (.cb 3))],0,0⟩,⟨25,115792089237316195423570985008687907853269984665635612279300442486263777315839,[],[(11,.setEnt .internalNl),(12,.emb (.cb 3)),(13,.code)],0,0⟩,⟨26,4951760157141521099596496896,[],[(11,.setEnt .internalNl),(12,.emb (.cb 3))],0,0⟩,⟨28,549755813888,[],[(11,.setEnt .internalNl),(12,.emb (.cb 3)),(15,.commit),(16,.code)],0,0⟩],[⟨19,8192,[],[(11,.setEnt .internalNl),(12,.emb (.cb 3))],0,0⟩,⟨21,1024,[],[(11,.setEnt .internalNl),(12,.emb (.cb 3))],0,0⟩,⟨22,4096,[],[(11,.setEnt .internalNl),(12,.emb (.cb 3))],0,0⟩,⟨23,8192,[.crAlone],[(11,.setEnt .internalNl),(12,.emb (.cb 3))],0,0⟩,⟨24,4294967808,[],[(11,.setEnt .internalNl),(12,.emb (.cb 3))],0,0⟩,⟨25,115792089237316195423570985008687907853269984665635612279300442486263777315839,[],[(11,.setEnt .internalNl),(12,.emb (.cb 3)),(13,.code)],0,0⟩,⟨26,4951760157141521099596496896,[],[(11,.setEnt .internalNl),(12,.emb (.cb 3))],0,0⟩,⟨28,549755813888,[],[(11,.setEnt .internalNl),(12,.emb (.cb 3)),(15,.commit),(16,.code)],0,0⟩],[⟨19,8192,[],[(11,.setEnt .internalNl),(12,.emb (.cb 3))],0,0⟩,⟨21,1024,[],[(11,.setEnt .internalNl),(12,.emb (.cb 3))],0,0⟩,⟨22,4096,[],[(11,.setEnt .internalNl),(12,.emb (.cb 3))],0,0⟩,⟨23,8192,[.crAlone],[(11,.setEnt .internalNl),(12,.emb (.cb 3))],0,0⟩,⟨24,4294967808,[],[(11,.setEnt .internalNl),(12,.emb (.cb 3))],0,0⟩,⟨25,115792089237316195423570985008687907853269984665635612279300442486263777315839,[],[(11,.setEnt .internalNl),(12,.emb (.cb 3)),(13,.code)],0,0⟩,⟨26,4951760157141521099596496896,[],[(11,.setEnt .internalNl),(12,.emb (.cb 3))],0,0⟩,⟨28,549755813888,[],[(11,.setEnt .internalNl),(12,.emb (.cb 3)),(15,.commit),(16,.code)],0,0⟩],[⟨19,8192,[],[],0,0⟩,⟨21,1024,[],[],0,0⟩,⟨22,4096,[],[],0,0⟩,⟨23,8192,[.crAlone],[],0,0⟩,⟨24,4294967808,[],[],0,0⟩,⟨25,115792089237316195423570985008687907853269984665635612279300442486263777315839,[],[(13,.code)],0,0⟩,⟨26,4951760157141521099596496896,[],[],0,0⟩,⟨28,549755813888,[],[(15,.commit),(16,.code)],0,0⟩],[⟨19,8192,[],[],0,0⟩,⟨21,1024,[],[],0,0⟩,⟨22,4096,[],[],0,0⟩,⟨23,8192,[.crAlone],[],0,0⟩,⟨24,4294967808,[],[],0,0⟩,⟨25,115792089237316195423570985008687907853269984665635612279300442486263777315839,[],[(13,.code)],0,0⟩,⟨26,4951760157141521099596496896,[],[],0,0⟩,⟨28,549755813888,[],[(15,.commit),(16,.code)],0,0⟩],[⟨27,115792089237316195423570985008687907853269984665640564039457584007913129626623,[],[(14,.code)],0,0⟩],[⟨19,8192,[],[],0,0⟩,⟨21,1024,[],[],0,0⟩,⟨22,4096,[],[],0,0⟩,⟨23,8192,[.crAlone],[],0,0⟩,⟨24,4294967808,[],[],0,0⟩,⟨25,115792089237316195423570985008687907853269984665635612279300442486263777315839,[],[(13,.code)],0,0⟩,⟨26,4951760157141521099596496896,[],[],0,0⟩,⟨28,549755813888,[],[(15,.commit),(16,.code)],0,0⟩],[],[⟨30,8192,[],[],0,0⟩,⟨32,1024,[],[],0,0⟩,⟨33,4096,[],[],0,0⟩,⟨34,8192,[.crAlone],[],0,0⟩,⟨35,4294967808,[],[],0,0⟩,⟨36,115792089237316195423570985008687907853269984665635612279300442486796353260543,[],[(21,.code)],0,0⟩,⟨37,4951760157141521099596496896,[],[],0,0⟩,⟨39,17179869184,[],[(23,.commit),(24,.code)],0,0⟩],[⟨31,1024,[],[],0,0⟩],[⟨30,8192,[],[(19,.setEnt .internalNl),(20,.emb (.cb 3))],0,0⟩,⟨32,1024,[],[(19,.setEnt .internalNl),(20,.emb (.cb 3))],0,0⟩,⟨33,4096,[],[(19,.setEnt .internalNl),(20,.emb (.cb 3))],0,0⟩,⟨34,8192,[.crAlone],[(19,.setEnt .internalNl),(20,.emb (.cb 3))],0,0⟩,⟨35,4294967808,[],[(19,.setEnt .internalNl),(20,.emb (.cb 3))],0,0⟩,⟨36,115792089237316195423570985008687907853269984665635612279300442486796353260543,[],[(19,.setEnt .internalNl),(20,.emb (.cb 3)),(21,.code)],0,0⟩,⟨37,4951760157141521099596496896,[],[(19,.setEnt .internalNl),(20,.emb (.cb 3))],0,0⟩,⟨39,17179869184,[],[(19,.setEnt .internalNl),(20,.emb (.cb 3)),(23,.commit),(24,.code)],0,0⟩],[⟨30,8192,[],[(19,.setEnt .internalNl),(20,.emb (.cb 3))],0,0⟩,⟨32,1024,[],[(19,.setEnt .internalNl),(20,.emb (.cb 3))],0,0⟩,⟨33,4096,[],[(19,.setEnt .internalNl),(20,.emb (.cb 3))],0,0⟩,⟨34,8192,[.crAlone],[(19,.setEnt .internalNl),(20,.emb (.cb 3))],0,0⟩,⟨35,4294967808,[],[(19,.setEnt .internalNl),(20,.emb (.cb 3))],0,0⟩,⟨36,115792089237316195423570985008687907853269984665635612279300442486796353260543,[],[(19,.setEnt .internalNl),(20,.emb (.cb 3)),(21,.code)],0,0⟩,⟨37,4951760157141521099596496896,[],[(19,.setEnt .internalNl),(20,.emb (.cb 3))],0,0⟩,⟨39,17179869184,[],[(19,.setEnt .internalNl),(20,.emb (.cb 3)),(23,.commit),(24,.code)],0,0⟩],[⟨30,8192,[],[(19,.setEnt .internalNl),(20,.emb (.cb 3))],0,0⟩,⟨32,1024,[],[(19,.setEnt .internalNl),(20,.emb (.cb 3))],0,0⟩,⟨33,4096,[],[(19,.setEnt .internalNl),(20,.emb (.cb 3))],0,0⟩,⟨34,8192,[.crAlone],[(19,.setEnt .internalNl),(20,.emb (.cb 3))],0,0⟩,⟨35,4294967808,[],[(19,.setEnt .internalNl),(20,.emb (.cb 3))],0,0⟩,⟨36,115792089237316195423570985008687907853269984665635612279300442486796353260543,[],[(19,.setEnt .internalNl),(20,.emb (.cb 3)),(21,.code)],0,0⟩,⟨37,4951760157141521099596496896,[],[(19,.setEnt .internalNl),(20,.emb (.cb 3))],0,0⟩,⟨39,17179869184,[],[(19,.setEnt .internalNl),(20,.emb (.cb 3)),(23,.commit),(24,.code)],0,0⟩],[⟨30,8192,[],[(19,.setEnt .internalNl),(20,.emb (.cb 3))],0,0⟩,⟨32,1024,[],[(19,.setEnt .internalNl),(20,.emb (.cb 3))],0,0⟩,⟨33,4096,[],[(19,.setEnt .internalNl),(20,.emb (.cb 3))],0,0⟩,⟨34,8192,[.crAlone],[(19,.setEnt .internalNl),(20,.emb (.cb 3))],0,0⟩,⟨35,4294967808,[],[(19,.setEnt .internalNl),(20,.emb (.cb 3))],0,0⟩,⟨36,115792089237316195423570985008687907853269984665635612279300442486796353260543,[],[(19,.setEnt .internalNl),(20,.emb (.cb 3)),(21,.code)],0,0⟩,⟨37,4951760157141521099596496896,[],[(19,.setEnt .internalNl),(20,.emb (.cb 3))],0,0⟩,⟨39,17179869184,[],[(19,.setEnt .internalNl),(20,.emb (.cb 3)),(23,.commit),(24,.code)],0,0⟩],[⟨30,8192,[],[],0,0⟩,⟨32,1024,[],[],0,0⟩,⟨33,4096,[],[],0,0⟩,⟨34,8192,[.crAlone],[],0,0⟩,⟨35,4294967808,[],[],0,0⟩,⟨36,115792089237316195423570985008687907853269984665635612279300442486796353260543,[],[(21,.code)],0,0⟩,⟨37,4951760157141521099596496896,[],[],0,0⟩,⟨39,17179869184,[],[(23,.commit),(24,.code)],0,0⟩],[⟨30,8192,[],[],0,0⟩,⟨32,1024,[],[],0,0⟩,⟨33,4096,[],[],0,0⟩,⟨34,8192,[.crAlone],[],0,0⟩,⟨35,4294967808,[],[],0,0⟩,⟨36,115792089237316195423570985008687907853269984665635612279300442486796353260543,[],[(21,.code)],0,0⟩,⟨37,4951760157141521099596496896,[],[],0,0⟩,⟨39,17179869184,[],[(23,.commit),(24,.code)],0,0⟩],[⟨38,115792089237316195423570985008687907853269984665640564039457584007913129626623,[],[(22,.code)],0,0⟩],[⟨30,8192,[],[],0,0⟩,⟨32,1024,[],[],0,0⟩,⟨33,4096,[],[],0,0⟩,⟨34,8192,[.crAlone],[],0,0⟩,⟨35,4294967808,[],[],0,0⟩,⟨36,115792089237316195423570985008687907853269984665635612279300442486796353260543,[],[(21,.code)],0,0⟩,⟨37,4951760157141521099596496896,[],[],0,0⟩,⟨39,17179869184,[],[(23,.commit),(24,.code)],0,0⟩],[],[⟨41,1024,[],[(25,.setEnt .newline)],0,0⟩],[],[],[],[],[]],[none,some (0,[]),some (1,[]),none,some (2,[]),some (2,[]),some (2,[]),none,none,none,none,none,none,none,none,none,none,some (2,[]),none,none,none,none,none,none,none,none,none,none,some (3,[]),none,none,none,none,none,none,none,none,none,none,some (3,[]),none,some (4,[]),some (4,[]),some (4,[]),some (4,[]),some (5,[])],[3,4,9,25,26,27]⟩
def emb35_masks : List Nat := [9223372036854775808,4294967808,140737488355328,34359738368,549755813888,17179869184,8192,1024,4096,115792089237316195423570985008687907853269984665640564039457584007908834656767,4611686018427387904,115792089237316195423570985008687907853269984665640564039457584007913129626623,4398046511104,115792089237316195423570985008687907853269984665640564039457584007908834658815,115792089237316195423570985008687907853269984665635612279300442486263777315839,4951760157141521099596496896,115792089237316195423570985008687907853269984665635612279300442486796353260543]
def emb35_cs : List (Nat × Nat) := [(0,115792089237316195423570985008687907853269984665635612279286607283017125708287),(9,4294967808),(10,1024),(11,2048),(12,4096),(13,8192),(34,17179869184),(35,34359738368),(39,549755813888),(42,4398046511104),(47,140737488355328),(62,4611686018427387904),(63,9223372036854775808),(92,4951760157141521099596496896)]
theorem emb35_masksIn : masksIn emb35_nfa emb35_masks = true := by decide +kernel
theorem emb35_repOk : repOk emb35_masks emb35_cs = true := by decide +kernel
def emb35_rows : List Row := [⟨[],none,[],[⟨256,.other,false,some ⟨0,[.setEnt (.own 3)],some 5,true⟩⟩,⟨256,.ws,false,some ⟨1,[.setEnt (.own 0)],some 1,false⟩⟩,⟨256,.lf,false,some ⟨0,[.setEnt .newline],some 4,true⟩⟩,⟨256,.vt,false,none⟩,⟨256,.ff,false,some ⟨0,[.setEnt .newline],some 4,true⟩⟩,⟨256,.cr,false,some ⟨2,[.setEnt .newline],none,false⟩⟩,⟨256,.cr,true,some ⟨3,[.setEnt .newline],some 4,false⟩⟩,⟨256,.other,false,some ⟨4,[.enqueue,.code,.setEnt (.own 3)],some 5,false⟩⟩,⟨256,.other,false,some ⟨5,[.comment,.setEnt (.own 3)],some 2,false⟩⟩,⟨256,.other,false,some ⟨6,[.enqueue,.code,.setEnt (.own 3)],some 5,false⟩⟩,⟨256,.other,false,some ⟨7,[.setEnt (.own 3)],some 5,false⟩⟩,⟨256,.other,false,some ⟨8,[.emb .back,.setEnt (.own 3)],some 5,false⟩⟩]⟩,⟨[2],some 1,[],[⟨256,.other,false,none⟩,⟨256,.ws,false,some ⟨1,[.setEnt (.own 0)],some 1,false⟩⟩,⟨256,.lf,false,none⟩,⟨256,.vt,false,none⟩,⟨256,.ff,false,none⟩,⟨256,.cr,false,none⟩,⟨256,.cr,true,none⟩]⟩,⟨[40],none,[],[⟨256,.other,false,none⟩,⟨256,.ws,false,none⟩,⟨256,.lf,false,some ⟨0,[.setEnt .newline],some 4,true⟩⟩,⟨256,.vt,false,none⟩,⟨256,.ff,false,none⟩,⟨256,.cr,false,none⟩,⟨256,.cr,true,none⟩]⟩,⟨[40,44],some 4,[],[⟨256,.other,false,none⟩,⟨256,.ws,false,none⟩,⟨256,.lf,false,some ⟨0,[.setEnt .newline],some 4,true⟩⟩,⟨256,.vt,false,none⟩,⟨256,.ff,false,none⟩,⟨256,.cr,false,none⟩,⟨256,.cr,true,none⟩]⟩,⟨[29,45],some 5,[],[⟨256,.other,false,some ⟨9,[.code],none,false⟩⟩,⟨256,.ws,false,some ⟨10,[.code],none,false⟩⟩,⟨256,.lf,false,some ⟨11,[],none,false⟩⟩,⟨256,.vt,false,some ⟨9,[.code],none,false⟩⟩,⟨256,.ff,false,some ⟨12,[],none,false⟩⟩,⟨256,.cr,false,some ⟨13,[],none,false⟩⟩,⟨256,.cr,true,some ⟨14,[],none,false⟩⟩,⟨256,.other,false,some ⟨0,[.commit,.code],some 3,true⟩⟩,⟨256,.other,false,some ⟨15,[],none,false⟩⟩]⟩,⟨[5,45],some 2,[],[⟨256,.other,false,some ⟨16,[],some 2,false⟩⟩,⟨256,.ws,false,some ⟨16,[],some 2,false⟩⟩,⟨256,.lf,false,none⟩,⟨256,.vt,false,some ⟨16,[],some 2,false⟩⟩,⟨256,.ff,false,none⟩,⟨256,.cr,false,none⟩,⟨256,.cr,true,none⟩]⟩,⟨[18,45],some 5,[],[⟨256,.other,false,some ⟨17,[.code],none,false⟩⟩,⟨256,.ws,false,some ⟨18,[.code],none,false⟩⟩,⟨256,.lf,false,some ⟨19,[],none,false⟩⟩,⟨256,.vt,false,some ⟨17,[.code],none,false⟩⟩,⟨256,.ff,false,some ⟨20,[],none,false⟩⟩,⟨256,.cr,false,some ⟨21,[],none,false⟩⟩,⟨256,.cr,true,some ⟨22,[],none,false⟩⟩,⟨256,.other,false,some ⟨0,[.commit,.code],some 3,true⟩⟩,⟨256,.other,false,some ⟨23,[],none,false⟩⟩]⟩,⟨[3,7,45],some 5,[],[⟨256,.other,false,none⟩,⟨256,.ws,false,none⟩,⟨256,.lf,false,none⟩,⟨256,.vt,false,none⟩,⟨256,.ff,false,none⟩,⟨256,.cr,false,none⟩,⟨256,.cr,true,none⟩,⟨256,.other,false,some ⟨24,[.comment],none,false⟩⟩,⟨256,.other,false,some ⟨25,[.comment],some 2,false⟩⟩]⟩,⟨[0,45],some 5,[],[⟨256,.other,false,none⟩,⟨256,.ws,false,none⟩,⟨256,.lf,false,none⟩,⟨256,.vt,false,none⟩,⟨256,.ff,false,none⟩,⟨256,.cr,false,none⟩,⟨256,.cr,true,none⟩,⟨256,.other,false,some ⟨0,[.emb .outry,.code,.emb .back],some 0,true⟩⟩]⟩,⟨[36],none,[],[⟨256,.other,false,some ⟨9,[.code],none,false⟩⟩,⟨256,.ws,false,some ⟨10,[.code],none,false⟩⟩,⟨256,.lf,false,some ⟨11,[],none,false⟩⟩,⟨256,.vt,false,some ⟨9,[.code],none,false⟩⟩,⟨256,.ff,false,some ⟨12,[],none,false⟩⟩,⟨256,.cr,false,some ⟨13,[],none,false⟩⟩,⟨256,.cr,true,some ⟨14,[],none,false⟩⟩,⟨256,.other,false,some ⟨0,[.commit,.code],some 3,true⟩⟩,⟨256,.other,false,some ⟨15,[],none,false⟩⟩]⟩,⟨[35,36],none,[],[⟨256,.other,false,some ⟨9,[.code],none,false⟩⟩,⟨256,.ws,false,some ⟨10,[.code],none,false⟩⟩,⟨256,.lf,false,some ⟨11,[],none,false⟩⟩,⟨256,.vt,false,some ⟨9,[.code],none,false⟩⟩,⟨256,.ff,false,some ⟨12,[],none,false⟩⟩,⟨256,.cr,false,some ⟨13,[],none,false⟩⟩,⟨256,.cr,true,some ⟨14,[],none,false⟩⟩,⟨256,.other,false,some ⟨0,[.commit,.code],some 3,true⟩⟩,⟨256,.other,false,some ⟨15,[],none,false⟩⟩]⟩,⟨[32],none,[],[⟨256,.other,false,some ⟨9,[.setEnt .internalNl,.emb (.cb 3),.code],none,false⟩⟩,⟨256,.ws,false,some ⟨10,[.setEnt .internalNl,.emb (.cb 3),.code],none,false⟩⟩,⟨256,.lf,false,some ⟨11,[.setEnt .internalNl,.emb (.cb 3)],none,false⟩⟩,⟨256,.vt,false,some ⟨9,[.setEnt .internalNl,.emb (.cb 3),.code],none,false⟩⟩,⟨256,.ff,false,some ⟨12,[.setEnt .internalNl,.emb (.cb 3)],none,false⟩⟩,⟨256,.cr,false,some ⟨13,[.setEnt .internalNl,.emb (.cb 3)],none,false⟩⟩,⟨256,.cr,true,some ⟨14,[.setEnt .internalNl,.emb (.cb 3)],none,false⟩⟩,⟨256,.other,false,some ⟨0,[.setEnt .internalNl,.emb (.cb 3),.commit,.code],some 3,true⟩⟩,⟨256,.other,false,some ⟨15,[.setEnt .internalNl,.emb (.cb 3)],none,false⟩⟩]⟩,⟨[33],none,[],[⟨256,.other,false,some ⟨9,[.setEnt .internalNl,.emb (.cb 3),.code],none,false⟩⟩,⟨256,.ws,false,some ⟨10,[.setEnt .internalNl,.emb (.cb 3),.code],none,false⟩⟩,⟨256,.lf,false,some ⟨11,[.setEnt .internalNl,.emb (.cb 3)],none,false⟩⟩,⟨256,.vt,false,some ⟨9,[.setEnt .internalNl,.emb (.cb 3),.code],none,false⟩⟩,⟨256,.ff,false,some ⟨12,[.setEnt .internalNl,.emb (.cb 3)],none,false⟩⟩,⟨256,.cr,false,some ⟨13,[.setEnt .internalNl,.emb (.cb 3)],none,false⟩⟩,⟨256,.cr,true,some ⟨14,[.setEnt .internalNl,.emb (.cb 3)],none,false⟩⟩,⟨256,.other,false,some ⟨0,[.setEnt .internalNl,.emb (.cb 3),.commit,.code],some 3,true⟩⟩,⟨256,.other,false,some ⟨15,[.setEnt .internalNl,.emb (.cb 3)],none,false⟩⟩]⟩,⟨[30],none,[],[⟨256,.other,false,none⟩,⟨256,.ws,false,none⟩,⟨256,.lf,false,some ⟨26,[],none,false⟩⟩,⟨256,.vt,false,none⟩,⟨256,.ff,false,none⟩,⟨256,.cr,false,none⟩,⟨256,.cr,true,none⟩]⟩,⟨[30,34],none,[],[⟨256,.other,false,some ⟨9,[.setEnt .internalNl,.emb (.cb 3),.code],none,false⟩⟩,⟨256,.ws,false,some ⟨10,[.setEnt .internalNl,.emb (.cb 3),.code],none,false⟩⟩,⟨256,.lf,false,some ⟨27,[.setEnt .internalNl,.emb (.cb 3)],none,false⟩⟩,⟨256,.vt,false,some ⟨9,[.setEnt .internalNl,.emb (.cb 3),.code],none,false⟩⟩,⟨256,.ff,false,some ⟨12,[.setEnt .internalNl,.emb (.cb 3)],none,false⟩⟩,⟨256,.cr,false,some ⟨13,[.setEnt .internalNl,.emb (.cb 3)],none,false⟩⟩,⟨256,.cr,true,some ⟨14,[.setEnt .internalNl,.emb (.cb 3)],none,false⟩⟩,⟨256,.other,false,some ⟨0,[.setEnt .internalNl,.emb (.cb 3),.commit,.code],some 3,true⟩⟩,⟨256,.other,false,some ⟨15,[.setEnt .internalNl,.emb (.cb 3)],none,false⟩⟩]⟩,⟨[37],none,[],[⟨256,.other,false,some ⟨28,[.code],none,false⟩⟩,⟨256,.ws,false,some ⟨28,[.code],none,false⟩⟩,⟨256,.lf,false,none⟩,⟨256,.vt,false,some ⟨28,[.code],none,false⟩⟩,⟨256,.ff,false,none⟩,⟨256,.cr,false,none⟩,⟨256,.cr,true,none⟩]⟩,⟨[6],some 2,[],[⟨256,.other,false,some ⟨16,[],some 2,false⟩⟩,⟨256,.ws,false,some ⟨16,[],some 2,false⟩⟩,⟨256,.lf,false,none⟩,⟨256,.vt,false,some ⟨16,[],some 2,false⟩⟩,⟨256,.ff,false,none⟩,⟨256,.cr,false,none⟩,⟨256,.cr,true,none⟩]⟩,⟨[25],none,[],[⟨256,.other,false,some ⟨17,[.code],none,false⟩⟩,⟨256,.ws,false,some ⟨18,[.code],none,false⟩⟩,⟨256,.lf,false,some ⟨19,[],none,false⟩⟩,⟨256,.vt,false,some ⟨17,[.code],none,false⟩⟩,⟨256,.ff,false,some ⟨20,[],none,false⟩⟩,⟨256,.cr,false,some ⟨21,[],none,false⟩⟩,⟨256,.cr,true,some ⟨22,[],none,false⟩⟩,⟨256,.other,false,some ⟨0,[.commit,.code],some 3,true⟩⟩,⟨256,.other,false,some ⟨23,[],none,false⟩⟩]⟩,⟨[24,25],none,[],[⟨256,.other,false,some ⟨17,[.code],none,false⟩⟩,⟨256,.ws,false,some ⟨18,[.code],none,false⟩⟩,⟨256,.lf,false,some ⟨19,[],none,false⟩⟩,⟨256,.vt,false,some ⟨17,[.code],none,false⟩⟩,⟨256,.ff,false,some ⟨20,[],none,false⟩⟩,⟨256,.cr,false,some ⟨21,[],none,false⟩⟩,⟨256,.cr,true,some ⟨22,[],none,false⟩⟩,⟨256,.other,false,some ⟨0,[.commit,.code],some 3,true⟩⟩,⟨256,.other,false,some ⟨23,[],none,false⟩⟩]⟩,⟨[21],none,[],[⟨256,.other,false,some ⟨17,[.setEnt .internalNl,.emb (.cb 3),.code],none,false⟩⟩,⟨256,.ws,false,some ⟨18,[.setEnt .internalNl,.emb (.cb 3),.code],none,false⟩⟩,⟨256,.lf,false,some ⟨19,[.setEnt .internalNl,.emb (.cb 3)],none,false⟩⟩,⟨256,.vt,false,some ⟨17,[.setEnt .internalNl,.emb (.cb 3),.code],none,false⟩⟩,⟨256,.ff,false,some ⟨20,[.setEnt .internalNl,.emb (.cb 3)],none,false⟩⟩,⟨256,.cr,false,some ⟨21,[.setEnt .internalNl,.emb (.cb 3)],none,false⟩⟩,⟨256,.cr,true,some ⟨22,[.setEnt .internalNl,.emb (.cb 3)],none,false⟩⟩,⟨256,.other,false,some ⟨0,[.setEnt .internalNl,.emb (.cb 3),.commit,.code],some 3,true⟩⟩,⟨256,.other,false,some ⟨23,[.setEnt .internalNl,.emb (.cb 3)],none,false⟩⟩]⟩,⟨[22],none,[],[⟨256,.other,false,some ⟨17,[.setEnt .internalNl,.emb (.cb 3),.code],none,false⟩⟩,⟨256,.ws,false,some ⟨18,[.setEnt .internalNl,.emb (.cb 3),.code],none,false⟩⟩,⟨256,.lf,false,some ⟨19,[.setEnt .internalNl,.emb (.cb 3)],none,false⟩⟩,⟨256,.vt,false,some ⟨17,[.setEnt .internalNl,.emb (.cb 3),.code],none,false⟩⟩,⟨256,.ff,false,some ⟨20,[.setEnt .internalNl,.emb (.cb 3)],none,false⟩⟩,⟨256,.cr,false,some ⟨21,[.setEnt .internalNl,.emb (.cb 3)],none,false⟩⟩,⟨256,.cr,true,some ⟨22,[.setEnt .internalNl,.emb (.cb 3)],none,false⟩⟩,⟨256,.other,false,some ⟨0,[.setEnt .internalNl,.emb (.cb 3),.commit,.code],some 3,true⟩⟩,⟨256,.other,false,some ⟨23,[.setEnt .internalNl,.emb (.cb 3)],none,false⟩⟩]⟩,⟨[19],none,[],[⟨256,.other,false,none⟩,⟨256,.ws,false,none⟩,⟨256,.lf,false,some ⟨29,[],none,false⟩⟩,⟨256,.vt,false,none⟩,⟨256,.ff,false,none⟩,⟨256,.cr,false,none⟩,⟨256,.cr,true,none⟩]⟩,⟨[19,23],none,[],[⟨256,.other,false,some ⟨17,[.setEnt .internalNl,.emb (.cb 3),.code],none,false⟩⟩,⟨256,.ws,false,some ⟨18,[.setEnt .internalNl,.emb (.cb 3),.code],none,false⟩⟩,⟨256,.lf,false,some ⟨30,[.setEnt .internalNl,.emb (.cb 3)],none,false⟩⟩,⟨256,.vt,false,some ⟨17,[.setEnt .internalNl,.emb (.cb 3),.code],none,false⟩⟩,⟨256,.ff,false,some ⟨20,[.setEnt .internalNl,.emb (.cb 3)],none,false⟩⟩,⟨256,.cr,false,some ⟨21,[.setEnt .internalNl,.emb (.cb 3)],none,false⟩⟩,⟨256,.cr,true,some ⟨22,[.setEnt .internalNl,.emb (.cb 3)],none,false⟩⟩,⟨256,.other,false,some ⟨0,[.setEnt .internalNl,.emb (.cb 3),.commit,.code],some 3,true⟩⟩,⟨256,.other,false,some ⟨23,[.setEnt .internalNl,.emb (.cb 3)],none,false⟩⟩]⟩,⟨[26],none,[],[⟨256,.other,false,some ⟨31,[.code],none,false⟩⟩,⟨256,.ws,false,some ⟨31,[.code],none,false⟩⟩,⟨256,.lf,false,none⟩,⟨256,.vt,false,some ⟨31,[.code],none,false⟩⟩,⟨256,.ff,false,none⟩,⟨256,.cr,false,none⟩,⟨256,.cr,true,none⟩]⟩,⟨[8],none,[],[⟨256,.other,false,some ⟨32,[.comment],none,false⟩⟩,⟨256,.ws,false,some ⟨33,[],none,false⟩⟩,⟨256,.lf,false,some ⟨34,[],none,false⟩⟩,⟨256,.vt,false,some ⟨32,[.comment],none,false⟩⟩,⟨256,.ff,false,some ⟨35,[],none,false⟩⟩,⟨256,.cr,false,some ⟨36,[],none,false⟩⟩,⟨256,.cr,true,some ⟨37,[],none,false⟩⟩,⟨256,.other,false,some ⟨38,[.comment],none,false⟩⟩]⟩,⟨[4],some 2,[],[⟨256,.other,false,some ⟨16,[],some 2,false⟩⟩,⟨256,.ws,false,some ⟨16,[],some 2,false⟩⟩,⟨256,.lf,false,none⟩,⟨256,.vt,false,some ⟨16,[],some 2,false⟩⟩,⟨256,.ff,false,none⟩,⟨256,.cr,false,none⟩,⟨256,.cr,true,none⟩]⟩,⟨[31],none,[],[⟨256,.other,false,some ⟨9,[.setEnt .internalNl,.emb (.cb 3),.code],none,false⟩⟩,⟨256,.ws,false,some ⟨10,[.setEnt .internalNl,.emb (.cb 3),.code],none,false⟩⟩,⟨256,.lf,false,some ⟨11,[.setEnt .internalNl,.emb (.cb 3)],none,false⟩⟩,⟨256,.vt,false,some ⟨9,[.setEnt .internalNl,.emb (.cb 3),.code],none,false⟩⟩,⟨256,.ff,false,some ⟨12,[.setEnt .internalNl,.emb (.cb 3)],none,false⟩⟩,⟨256,.cr,false,some ⟨13,[.setEnt .internalNl,.emb (.cb 3)],none,false⟩⟩,⟨256,.cr,true,some ⟨14,[.setEnt .internalNl,.emb (.cb 3)],none,false⟩⟩,⟨256,.other,false,some ⟨0,[.setEnt .internalNl,.emb (.cb 3),.commit,.code],some 3,true⟩⟩,⟨256,.other,false,some ⟨15,[.setEnt .internalNl,.emb (.cb 3)],none,false⟩⟩]⟩,⟨[31,32],none,[],[⟨256,.other,false,some ⟨9,[.setEnt .internalNl,.emb (.cb 3),.code],none,false⟩⟩,⟨256,.ws,false,some ⟨10,[.setEnt .internalNl,.emb (.cb 3),.code],none,false⟩⟩,⟨256,.lf,false,some ⟨11,[.setEnt .internalNl,.emb (.cb 3)],none,false⟩⟩,⟨256,.vt,false,some ⟨9,[.setEnt .internalNl,.emb (.cb 3),.code],none,false⟩⟩,⟨256,.ff,false,some ⟨12,[.setEnt .internalNl,.emb (.cb 3)],none,false⟩⟩,⟨256,.cr,false,some ⟨13,[.setEnt .internalNl,.emb (.cb 3)],none,false⟩⟩,⟨256,.cr,true,some ⟨14,[.setEnt .internalNl,.emb (.cb 3)],none,false⟩⟩,⟨256,.other,false,some ⟨0,[.setEnt .internalNl,.emb (.cb 3),.commit,.code],some 3,true⟩⟩,⟨256,.other,false,some ⟨15,[.setEnt .internalNl,.emb (.cb 3)],none,false⟩⟩]⟩,⟨[38],none,[],[⟨256,.other,false,some ⟨9,[.code],none,false⟩⟩,⟨256,.ws,false,some ⟨10,[.code],none,false⟩⟩,⟨256,.lf,false,some ⟨11,[],none,false⟩⟩,⟨256,.vt,false,some ⟨9,[.code],none,false⟩⟩,⟨256,.ff,false,some ⟨12,[],none,false⟩⟩,⟨256,.cr,false,some ⟨13,[],none,false⟩⟩,⟨256,.cr,true,some ⟨14,[],none,false⟩⟩,⟨256,.other,false,some ⟨0,[.commit,.code],some 3,true⟩⟩,⟨256,.other,false,some ⟨15,[],none,false⟩⟩]⟩,⟨[20],none,[],[⟨256,.other,false,some ⟨17,[.setEnt .internalNl,.emb (.cb 3),.code],none,false⟩⟩,⟨256,.ws,false,some ⟨18,[.setEnt .internalNl,.emb (.cb 3),.code],none,false⟩⟩,⟨256,.lf,false,some ⟨19,[.setEnt .internalNl,.emb (.cb 3)],none,false⟩⟩,⟨256,.vt,false,some ⟨17,[.setEnt .internalNl,.emb (.cb 3),.code],none,false⟩⟩,⟨256,.ff,false,some ⟨20,[.setEnt .internalNl,.emb (.cb 3)],none,false⟩⟩,⟨256,.cr,false,some ⟨21,[.setEnt .internalNl,.emb (.cb 3)],none,false⟩⟩,⟨256,.cr,true,some ⟨22,[.setEnt .internalNl,.emb (.cb 3)],none,false⟩⟩,⟨256,.other,false,some ⟨0,[.setEnt .internalNl,.emb (.cb 3),.commit,.code],some 3,true⟩⟩,⟨256,.other,false,some ⟨23,[.setEnt .internalNl,.emb (.cb 3)],none,false⟩⟩]⟩,⟨[20,21],none,[],[⟨256,.other,false,some ⟨17,[.setEnt .internalNl,.emb (.cb 3),.code],none,false⟩⟩,⟨256,.ws,false,some ⟨18,[.setEnt .internalNl,.emb (.cb 3),.code],none,false⟩⟩,⟨256,.lf,false,some ⟨19,[.setEnt .internalNl,.emb (.cb 3)],none,false⟩⟩,⟨256,.vt,false,some ⟨17,[.setEnt .internalNl,.emb (.cb 3),.code],none,false⟩⟩,⟨256,.ff,false,some ⟨20,[.setEnt .internalNl,.emb (.cb 3)],none,false⟩⟩,⟨256,.cr,false,some ⟨21,[.setEnt .internalNl,.emb (.cb 3)],none,false⟩⟩,⟨256,.cr,true,some ⟨22,[.setEnt .internalNl,.emb (.cb 3)],none,false⟩⟩,⟨256,.other,false,some ⟨0,[.setEnt .internalNl,.emb (.cb 3),.commit,.code],some 3,true⟩⟩,⟨256,.other,false,some ⟨23,[.setEnt .internalNl,.emb (.cb 3)],none,false⟩⟩]⟩,⟨[27],none,[],[⟨256,.other,false,some ⟨17,[.code],none,false⟩⟩,⟨256,.ws,false,some ⟨18,[.code],none,false⟩⟩,⟨256,.lf,false,some ⟨19,[],none,false⟩⟩,⟨256,.vt,false,some ⟨17,[.code],none,false⟩⟩,⟨256,.ff,false,some ⟨20,[],none,false⟩⟩,⟨256,.cr,false,some ⟨21,[],none,false⟩⟩,⟨256,.cr,true,some ⟨22,[],none,false⟩⟩,⟨256,.other,false,some ⟨0,[.commit,.code],some 3,true⟩⟩,⟨256,.other,false,some ⟨23,[],none,false⟩⟩]⟩,⟨[15],none,[],[⟨256,.other,false,some ⟨32,[.comment],none,false⟩⟩,⟨256,.ws,false,some ⟨33,[],none,false⟩⟩,⟨256,.lf,false,some ⟨34,[],none,false⟩⟩,⟨256,.vt,false,some ⟨32,[.comment],none,false⟩⟩,⟨256,.ff,false,some ⟨35,[],none,false⟩⟩,⟨256,.cr,false,some ⟨36,[],none,false⟩⟩,⟨256,.cr,true,some ⟨37,[],none,false⟩⟩,⟨256,.other,false,some ⟨38,[.comment],none,false⟩⟩]⟩,⟨[14],none,[],[⟨256,.other,false,some ⟨32,[.comment],none,false⟩⟩,⟨256,.ws,false,some ⟨33,[],none,false⟩⟩,⟨256,.lf,false,some ⟨34,[],none,false⟩⟩,⟨256,.vt,false,some ⟨32,[.comment],none,false⟩⟩,⟨256,.ff,false,some ⟨35,[],none,false⟩⟩,⟨256,.cr,false,some ⟨36,[],none,false⟩⟩,⟨256,.cr,true,some ⟨37,[],none,false⟩⟩,⟨256,.other,false,some ⟨38,[.comment],none,false⟩⟩]⟩,⟨[11],none,[],[⟨256,.other,false,some ⟨32,[.setEnt .internalNl,.emb (.cb 3),.comment],none,false⟩⟩,⟨256,.ws,false,some ⟨33,[.setEnt .internalNl,.emb (.cb 3)],none,false⟩⟩,⟨256,.lf,false,some ⟨34,[.setEnt .internalNl,.emb (.cb 3)],none,false⟩⟩,⟨256,.vt,false,some ⟨32,[.setEnt .internalNl,.emb (.cb 3),.comment],none,false⟩⟩,⟨256,.ff,false,some ⟨35,[.setEnt .internalNl,.emb (.cb 3)],none,false⟩⟩,⟨256,.cr,false,some ⟨36,[.setEnt .internalNl,.emb (.cb 3)],none,false⟩⟩,⟨256,.cr,true,some ⟨37,[.setEnt .internalNl,.emb (.cb 3)],none,false⟩⟩,⟨256,.other,false,some ⟨38,[.setEnt .internalNl,.emb (.cb 3),.comment],none,false⟩⟩]⟩,⟨[12],none,[],[⟨256,.other,false,some ⟨32,[.setEnt .internalNl,.emb (.cb 3),.comment],none,false⟩⟩,⟨256,.ws,false,some ⟨33,[.setEnt .internalNl,.emb (.cb 3)],none,false⟩⟩,⟨256,.lf,false,some ⟨34,[.setEnt .internalNl,.emb (.cb 3)],none,false⟩⟩,⟨256,.vt,false,some ⟨32,[.setEnt .internalNl,.emb (.cb 3),.comment],none,false⟩⟩,⟨256,.ff,false,some ⟨35,[.setEnt .internalNl,.emb (.cb 3)],none,false⟩⟩,⟨256,.cr,false,some ⟨36,[.setEnt .internalNl,.emb (.cb 3)],none,false⟩⟩,⟨256,.cr,true,some ⟨37,[.setEnt .internalNl,.emb (.cb 3)],none,false⟩⟩,⟨256,.other,false,some ⟨38,[.setEnt .internalNl,.emb (.cb 3),.comment],none,false⟩⟩]⟩,⟨[9],none,[],[⟨256,.other,false,none⟩,⟨256,.ws,false,none⟩,⟨256,.lf,false,some ⟨39,[],none,false⟩⟩,⟨256,.vt,false,none⟩,⟨256,.ff,false,none⟩,⟨256,.cr,false,none⟩,⟨256,.cr,true,none⟩]⟩,⟨[9,13],none,[],[⟨256,.other,false,some ⟨32,[.setEnt .internalNl,.emb (.cb 3),.comment],none,false⟩⟩,⟨256,.ws,false,some ⟨33,[.setEnt .internalNl,.emb (.cb 3)],none,false⟩⟩,⟨256,.lf,false,some ⟨40,[.setEnt .internalNl,.emb (.cb 3)],none,false⟩⟩,⟨256,.vt,false,some ⟨32,[.setEnt .internalNl,.emb (.cb 3),.comment],none,false⟩⟩,⟨256,.ff,false,some ⟨35,[.setEnt .internalNl,.emb (.cb 3)],none,false⟩⟩,⟨256,.cr,false,some ⟨36,[.setEnt .internalNl,.emb (.cb 3)],none,false⟩⟩,⟨256,.cr,true,some ⟨37,[.setEnt .internalNl,.emb (.cb 3)],none,false⟩⟩,⟨256,.other,false,some ⟨38,[.setEnt .internalNl,.emb (.cb 3),.comment],none,false⟩⟩]⟩,⟨[15,16],none,[],[⟨256,.other,false,some ⟨32,[.comment],none,false⟩⟩,⟨256,.ws,false,some ⟨33,[],none,false⟩⟩,⟨256,.lf,false,some ⟨34,[],none,false⟩⟩,⟨256,.vt,false,some ⟨32,[.comment],none,false⟩⟩,⟨256,.ff,false,some ⟨35,[],none,false⟩⟩,⟨256,.cr,false,some ⟨36,[],none,false⟩⟩,⟨256,.cr,true,some ⟨37,[],none,false⟩⟩,⟨256,.other,false,some ⟨38,[.comment],none,false⟩⟩,⟨256,.other,false,some ⟨0,[],some 2,true⟩⟩]⟩,⟨[10],none,[],[⟨256,.other,false,some ⟨32,[.setEnt .internalNl,.emb (.cb 3),.comment],none,false⟩⟩,⟨256,.ws,false,some ⟨33,[.setEnt .internalNl,.emb (.cb 3)],none,false⟩⟩,⟨256,.lf,false,some ⟨34,[.setEnt .internalNl,.emb (.cb 3)],none,false⟩⟩,⟨256,.vt,false,some ⟨32,[.setEnt .internalNl,.emb (.cb 3),.comment],none,false⟩⟩,⟨256,.ff,false,some ⟨35,[.setEnt .internalNl,.emb (.cb 3)],none,false⟩⟩,⟨256,.cr,false,some ⟨36,[.setEnt .internalNl,.emb (.cb 3)],none,false⟩⟩,⟨256,.cr,true,some ⟨37,[.setEnt .internalNl,.emb (.cb 3)],none,false⟩⟩,⟨256,.other,false,some ⟨38,[.setEnt .internalNl,.emb (.cb 3),.comment],none,false⟩⟩]⟩,⟨[10,11],none,[],[⟨256,.other,false,some ⟨32,[.setEnt .internalNl,.emb (.cb 3),.comment],none,false⟩⟩,⟨256,.ws,false,some ⟨33,[.setEnt .internalNl,.emb (.cb 3)],none,false⟩⟩,⟨256,.lf,false,some ⟨34,[.setEnt .internalNl,.emb (.cb 3)],none,false⟩⟩,⟨256,.vt,false,some ⟨32,[.setEnt .internalNl,.emb (.cb 3),.comment],none,false⟩⟩,⟨256,.ff,false,some ⟨35,[.setEnt .internalNl,.emb (.cb 3)],none,false⟩⟩,⟨256,.cr,false,some ⟨36,[.setEnt .internalNl,.emb (.cb 3)],none,false⟩⟩,⟨256,.cr,true,some ⟨37,[.setEnt .internalNl,.emb (.cb 3)],none,false⟩⟩,⟨256,.other,false,some ⟨38,[.setEnt .internalNl,.emb (.cb 3),.comment],none,false⟩⟩]⟩]
theorem emb35_rowsOk : rowsOk emb35_nfa [] (emb35_cs.map (·.1)) emb35_rows = true := by decide +kernel
def emb35_D : Dfa emb35_nfa := ⟨emb35_masks, [], emb35_cs, emb35_rows, emb35_masksIn, emb35_repOk, emb35_rowsOk⟩

/-- The automaton of `Emb.Clearsilverhtml.cshtml_comment`. -/
def emb39_nfa : Nfa := ⟨[⟨0,1152921504606846976,[],[],0,2⟩,⟨4,8192,[],[],0,2⟩,⟨6,1024,[],[],0,2⟩,⟨7,4096,[],[],0,2⟩,⟨8,8192,[.crAlone],[],0,2⟩,⟨9,4294967808,[],[],0,2⟩,⟨10,115792089237316195423570985008687907853269984665640564039456431051219855720959,[],[(3,.comment)],0,2⟩,⟨11,1152921504606846976,[],[],0,2⟩,⟨22,35184372088832,[],[],0,2⟩],[[⟨1,9223372036854775808,[],[],0,2⟩],[⟨2,633825300114114700748351602688,[],[],0,2⟩],[⟨3,41538374868278621028243970633760768,[],[(0,.emb (.sawCall 3 5))],0,2⟩],[⟨0,1152921504606846976,[],[],0,2⟩,⟨4,8192,[],[],0,2⟩,⟨6,1024,[],[],0,2⟩,⟨7,4096,[],[],0,2⟩,⟨8,8192,[.crAlone],[],0,2⟩,⟨9,4294967808,[],[],0,2⟩,⟨10,115792089237316195423570985008687907853269984665640564039456431051219855720959,[],[(3,.comment)],0,2⟩,⟨11,1152921504606846976,[],[],0,2⟩,⟨22,35184372088832,[],[],0,2⟩],[⟨5,1024,[],[],0,2⟩],[⟨0,1152921504606846976,[],[(1,.setEnt .internalNl),(2,.cb)],0,2⟩,⟨4,8192,[],[(1,.setEnt .internalNl),(2,.cb)],0,2⟩,⟨6,1024,[],[(1,.setEnt .internalNl),(2,.cb)],0,2⟩,⟨7,4096,[],[(1,.setEnt .internalNl),(2,.cb)],0,2⟩,⟨8,8192,[.crAlone],[(1,.setEnt .internalNl),(2,.cb)],0,2⟩,⟨9,4294967808,[],[(1,.setEnt .internalNl),(2,.cb)],0,2⟩,⟨10,115792089237316195423570985008687907853269984665640564039456431051219855720959,[],[(1,.setEnt .internalNl),(2,.cb),(3,.comment)],0,2⟩,⟨11,1152921504606846976,[],[(1,.setEnt .internalNl),(2,.cb)],0,2⟩,⟨22,35184372088832,[],[(1,.setEnt .internalNl),(2,.cb)],0,2⟩],[⟨0,1152921504606846976,[],[(1,.setEnt .internalNl),(2,.cb)],0,2⟩,⟨4,8192,[],[(1,.setEnt .internalNl),(2,.cb)],0,2⟩,⟨6,1024,[],[(1,.setEnt .internalNl),(2,.cb)],0,2⟩,⟨7,4096,[],[(1,.setEnt .internalNl),(2,.cb)],0,2⟩,⟨8,8192,[.crAlone],[(1,.setEnt .internalNl),(2,.cb)],0,2⟩,⟨9,4294967808,[],[(1,.setEnt .internalNl),(2,.cb)],0,2⟩,⟨10,115792089237316195423570985008687907853269984665640564039456431051219855720959,[],[(1,.setEnt .internalNl),(2,.cb),(3,.comment)],0,2⟩,⟨11,1152921504606846976,[],[(1,.setEnt .internalNl),(2,.cb)],0,2⟩,⟨22,35184372088832,[],[(1,.setEnt .internalNl),(2,.cb)],0,2⟩],[⟨0,1152921504606846976,[],[(1,.setEnt .internalNl),(2,.cb)],0,2⟩,⟨4,8192,[],[(1,.setEnt .internalNl),(2,.cb)],0,2⟩,⟨6,1024,[],[(1,.setEnt .internalNl),(2,.cb)],0,2⟩,⟨7,4096,[],[(1,.setEnt .internalNl),(2,.cb)],0,2⟩,⟨8,8192,[.crAlone],[(1,.setEnt .internalNl),(2,.cb)],0,2⟩,⟨9,4294967808,[],[(1,.setEnt .internalNl),(2,.cb)],0,2⟩,⟨10,115792089237316195423570985008687907853269984665640564039456431051219855720959,[],[(1,.setEnt .internalNl),(2,.cb),(3,.comment)],0,2⟩,⟨11,1152921504606846976,[],[(1,.setEnt .internalNl),(2,.cb)],0,2⟩,⟨22,35184372088832,[],[(1,.setEnt .internalNl),(2,.cb)],0,2⟩],[⟨0,1152921504606846976,[],[(1,.setEnt .internalNl),(2,.cb)],0,2⟩,⟨4,8192,[],[(1,.setEnt .internalNl),(2,.cb)],0,2⟩,⟨6,1024,[],[(1,.setEnt .internalNl),(2,.cb)],0,2⟩,⟨7,4096,[],[(1,.setEnt .internalNl),(2,.cb)],0,2⟩,⟨8,8192,[.crAlone],[(1,.setEnt .internalNl),(2,.cb)],0,2⟩,⟨9,4294967808,[],[(1,.setEnt .internalNl),(2,.cb)],0,2⟩,⟨10,115792089237316195423570985008687907853269984665640564039456431051219855720959,[],[(1,.setEnt .internalNl),(2,.cb),(3,.comment)],0,2⟩,⟨11,1152921504606846976,[],[(1,.setEnt .internalNl),(2,.cb)],0,2⟩,⟨22,35184372088832,[],[(1,.setEnt .internalNl),(2,.cb)],0,2⟩],[⟨0,1152921504606846976,[],[],0,2⟩,⟨4,8192,[],[],0,2⟩,⟨6,1024,[],[],0,2⟩,⟨7,4096,[],[],0,2⟩,⟨8,8192,[.crAlone],[],0,2⟩,⟨9,4294967808,[],[],0,2⟩,⟨10,115792089237316195423570985008687907853269984665640564039456431051219855720959,[],[(3,.comment)],0,2⟩,⟨11,1152921504606846976,[],[],0,2⟩,⟨22,35184372088832,[],[],0,2⟩],[⟨0,1152921504606846976,[],[],0,2⟩,⟨4,8192,[],[],0,2⟩,⟨6,1024,[],[],0,2⟩,⟨7,4096,[],[],0,2⟩,⟨8,8192,[.crAlone],[],0,2⟩,⟨9,4294967808,[],[],0,2⟩,⟨10,115792089237316195423570985008687907853269984665640564039456431051219855720959,[],[(3,.comment)],0,2⟩,⟨11,1152921504606846976,[],[],0,2⟩,⟨22,35184372088832,[],[],0,2⟩],[⟨12,115792089237316195423570985008687907853269984665640564039448360635876274864127,[],[],0,2⟩,⟨13,9223372036854775808,[],[],0,2⟩,⟨20,9223372036854775808,[],[],0,2⟩,⟨0,1152921504606846976,[],[],0,2⟩,⟨4,8192,[],[],0,2⟩,⟨6,1024,[],[],0,2⟩,⟨7,4096,[],[],0,2⟩,⟨8,8192,[.crAlone],[],0,2⟩,⟨9,4294967808,[],[],0,2⟩,⟨10,115792089237316195423570985008687907853269984665640564039456431051219855720959,[],[(3,.comment)],0,2⟩,⟨11,1152921504606846976,[],[],0,2⟩,⟨22,35184372088832,[],[],0,2⟩],[⟨19,115792089237316195423570985008687907853269984665640564039457584007913129639935,[],[],0,2⟩,⟨0,1152921504606846976,[],[],0,2⟩,⟨4,8192,[],[],0,2⟩,⟨6,1024,[],[],0,2⟩,⟨7,4096,[],[],0,2⟩,⟨8,8192,[.crAlone],[],0,2⟩,⟨9,4294967808,[],[],0,2⟩,⟨10,115792089237316195423570985008687907853269984665640564039456431051219855720959,[],[(3,.comment)],0,2⟩,⟨11,1152921504606846976,[],[],0,2⟩,⟨22,35184372088832,[],[],0,2⟩],[⟨14,115792089237316195423570985008687907853269984665006738739343469307164778037247,[],[],0,2⟩,⟨15,633825300114114700748351602688,[],[],0,2⟩],[⟨19,115792089237316195423570985008687907853269984665640564039457584007913129639935,[],[],0,2⟩,⟨0,1152921504606846976,[],[],0,2⟩,⟨4,8192,[],[],0,2⟩,⟨6,1024,[],[],0,2⟩,⟨7,4096,[],[],0,2⟩,⟨8,8192,[.crAlone],[],0,2⟩,⟨9,4294967808,[],[],0,2⟩,⟨10,115792089237316195423570985008687907853269984665640564039456431051219855720959,[],[(3,.comment)],0,2⟩,⟨11,1152921504606846976,[],[],0,2⟩,⟨22,35184372088832,[],[],0,2⟩],[⟨16,115792089237316195423570985008687907853269943127265695760836555763942495879167,[],[],0,2⟩,⟨17,41538374868278621028243970633760768,[],[],0,2⟩],[⟨19,115792089237316195423570985008687907853269984665640564039457584007913129639935,[],[],0,2⟩,⟨0,1152921504606846976,[],[],0,2⟩,⟨4,8192,[],[],0,2⟩,⟨6,1024,[],[],0,2⟩,⟨7,4096,[],[],0,2⟩,⟨8,8192,[.crAlone],[],0,2⟩,⟨9,4294967808,[],[],0,2⟩,⟨10,115792089237316195423570985008687907853269984665640564039456431051219855720959,[],[(3,.comment)],0,2⟩,⟨11,1152921504606846976,[],[],0,2⟩,⟨22,35184372088832,[],[],0,2⟩],[⟨18,115792089237316195423570985008687907853269984665640564039457584007913129639935,[],[],0,2⟩],[⟨19,115792089237316195423570985008687907853269984665640564039457584007913129639935,[],[],0,2⟩,⟨0,1152921504606846976,[],[],0,2⟩,⟨4,8192,[],[],0,2⟩,⟨6,1024,[],[],0,2⟩,⟨7,4096,[],[],0,2⟩,⟨8,8192,[.crAlone],[],0,2⟩,⟨9,4294967808,[],[],0,2⟩,⟨10,115792089237316195423570985008687907853269984665640564039456431051219855720959,[],[(3,.comment)],0,2⟩,⟨11,1152921504606846976,[],[],0,2⟩,⟨22,35184372088832,[],[],0,2⟩],[⟨19,115792089237316195423570985008687907853269984665640564039457584007913129639935,[],[],0,2⟩,⟨0,1152921504606846976,[],[],0,2⟩,⟨4,8192,[],[],0,2⟩,⟨6,1024,[],[],0,2⟩,⟨7,4096,[],[],0,2⟩,⟨8,8192,[.crAlone],[],0,2⟩,⟨9,4294967808,[],[],0,2⟩,⟨10,115792089237316195423570985008687907853269984665640564039456431051219855720959,[],[(3,.comment)],0,2⟩,⟨11,1152921504606846976,[],[],0,2⟩,⟨22,35184372088832,[],[],0,2⟩],[⟨21,633825300114114700748351602688,[],[],0,2⟩,⟨0,1152921504606846976,[],[],0,2⟩,⟨4,8192,[],[],0,2⟩,⟨6,1024,[],[],0,2⟩,⟨7,4096,[],[],0,2⟩,⟨8,8192,[.crAlone],[],0,2⟩,⟨9,4294967808,[],[],0,2⟩,⟨10,115792089237316195423570985008687907853269984665640564039456431051219855720959,[],[(3,.comment)],0,2⟩,⟨11,1152921504606846976,[],[],0,2⟩,⟨22,35184372088832,[],[],0,2⟩],[⟨0,1152921504606846976,[],[],0,2⟩,⟨4,8192,[],[],0,2⟩,⟨6,1024,[],[],0,2⟩,⟨7,4096,[],[],0,2⟩,⟨8,8192,[.crAlone],[],0,2⟩,⟨9,4294967808,[],[],0,2⟩,⟨10,115792089237316195423570985008687907853269984665640564039456431051219855720959,[],[(3,.comment)],0,2⟩,⟨11,1152921504606846976,[],[],0,2⟩,⟨22,35184372088832,[],[],0,2⟩],[⟨23,35184372088832,[],[],0,0⟩],[⟨24,4611686018427387904,[],[(4,.comment),(5,.emb (.goto 6))],2,0⟩],[]],[none,none,none,none,none,none,none,none,none,none,none,none,none,none,none,none,none,none,none,none,none,none,none,none,some (0,[])],[6]⟩
def emb39_masks : List Nat := [1152921504606846976,8192,1024,4096,4294967808,115792089237316195423570985008687907853269984665640564039456431051219855720959,35184372088832,9223372036854775808,633825300114114700748351602688,41538374868278621028243970633760768,115792089237316195423570985008687907853269984665640564039448360635876274864127,115792089237316195423570985008687907853269984665640564039457584007913129639935,115792089237316195423570985008687907853269984665006738739343469307164778037247,115792089237316195423570985008687907853269943127265695760836555763942495879167,4611686018427387904]
def emb39_cs : List (Nat × Nat) := [(0,115792089237316195423570985008687907853269943126631870460707453048445588193791),(9,4294967808),(10,1024),(11,2048),(12,4096),(13,8192),(45,35184372088832),(60,1152921504606846976),(62,4611686018427387904),(63,9223372036854775808),(99,633825300114114700748351602688),(115,41538374868278621028243970633760768)]
theorem emb39_masksIn : masksIn emb39_nfa emb39_masks = true := by decide +kernel
theorem emb39_repOk : repOk emb39_masks emb39_cs = true := by decide +kernel
def emb39_rows : List Row := [⟨[],none,[],[⟨256,.other,false,some ⟨1,[.comment],none,false⟩⟩,⟨256,.ws,false,some ⟨2,[],none,false⟩⟩,⟨256,.lf,false,some ⟨3,[],none,false⟩⟩,⟨256,.vt,false,none⟩,⟨256,.ff,false,some ⟨4,[],none,false⟩⟩,⟨256,.cr,false,some ⟨5,[],none,false⟩⟩,⟨256,.cr,true,some ⟨6,[],none,false⟩⟩,⟨256,.other,false,some ⟨7,[],none,false⟩⟩,⟨256,.other,false,some ⟨8,[],none,false⟩⟩]⟩,⟨[10],none,[],[⟨256,.other,false,some ⟨1,[.comment],none,false⟩⟩,⟨256,.ws,false,some ⟨2,[],none,false⟩⟩,⟨256,.lf,false,some ⟨3,[],none,false⟩⟩,⟨256,.vt,false,none⟩,⟨256,.ff,false,some ⟨4,[],none,false⟩⟩,⟨256,.cr,false,some ⟨5,[],none,false⟩⟩,⟨256,.cr,true,some ⟨6,[],none,false⟩⟩,⟨256,.other,false,some ⟨7,[],none,false⟩⟩,⟨256,.other,false,some ⟨8,[],none,false⟩⟩]⟩,⟨[9],none,[],[⟨256,.other,false,some ⟨1,[.comment],none,false⟩⟩,⟨256,.ws,false,some ⟨2,[],none,false⟩⟩,⟨256,.lf,false,some ⟨3,[],none,false⟩⟩,⟨256,.vt,false,none⟩,⟨256,.ff,false,some ⟨4,[],none,false⟩⟩,⟨256,.cr,false,some ⟨5,[],none,false⟩⟩,⟨256,.cr,true,some ⟨6,[],none,false⟩⟩,⟨256,.other,false,some ⟨7,[],none,false⟩⟩,⟨256,.other,false,some ⟨8,[],none,false⟩⟩]⟩,⟨[6],none,[],[⟨256,.other,false,some ⟨1,[.setEnt .internalNl,.cb,.comment],none,false⟩⟩,⟨256,.ws,false,some ⟨2,[.setEnt .internalNl,.cb],none,false⟩⟩,⟨256,.lf,false,some ⟨3,[.setEnt .internalNl,.cb],none,false⟩⟩,⟨256,.vt,false,none⟩,⟨256,.ff,false,some ⟨4,[.setEnt .internalNl,.cb],none,false⟩⟩,⟨256,.cr,false,some ⟨5,[.setEnt .internalNl,.cb],none,false⟩⟩,⟨256,.cr,true,some ⟨6,[.setEnt .internalNl,.cb],none,false⟩⟩,⟨256,.other,false,some ⟨7,[.setEnt .internalNl,.cb],none,false⟩⟩,⟨256,.other,false,some ⟨8,[.setEnt .internalNl,.cb],none,false⟩⟩]⟩,⟨[7],none,[],[⟨256,.other,false,some ⟨1,[.setEnt .internalNl,.cb,.comment],none,false⟩⟩,⟨256,.ws,false,some ⟨2,[.setEnt .internalNl,.cb],none,false⟩⟩,⟨256,.lf,false,some ⟨3,[.setEnt .internalNl,.cb],none,false⟩⟩,⟨256,.vt,false,none⟩,⟨256,.ff,false,some ⟨4,[.setEnt .internalNl,.cb],none,false⟩⟩,⟨256,.cr,false,some ⟨5,[.setEnt .internalNl,.cb],none,false⟩⟩,⟨256,.cr,true,some ⟨6,[.setEnt .internalNl,.cb],none,false⟩⟩,⟨256,.other,false,some ⟨7,[.setEnt .internalNl,.cb],none,false⟩⟩,⟨256,.other,false,some ⟨8,[.setEnt .internalNl,.cb],none,false⟩⟩]⟩,⟨[4],none,[],[⟨256,.other,false,none⟩,⟨256,.ws,false,none⟩,⟨256,.lf,false,some ⟨9,[],none,false⟩⟩,⟨256,.vt,false,none⟩,⟨256,.ff,false,none⟩,⟨256,.cr,false,none⟩,⟨256,.cr,true,none⟩]⟩,⟨[4,8],none,[],[⟨256,.other,false,some ⟨1,[.setEnt .internalNl,.cb,.comment],none,false⟩⟩,⟨256,.ws,false,some ⟨2,[.setEnt .internalNl,.cb],none,false⟩⟩,⟨256,.lf,false,some ⟨10,[.setEnt .internalNl,.cb],none,false⟩⟩,⟨256,.vt,false,none⟩,⟨256,.ff,false,some ⟨4,[.setEnt .internalNl,.cb],none,false⟩⟩,⟨256,.cr,false,some ⟨5,[.setEnt .internalNl,.cb],none,false⟩⟩,⟨256,.cr,true,some ⟨6,[.setEnt .internalNl,.cb],none,false⟩⟩,⟨256,.other,false,some ⟨7,[.setEnt .internalNl,.cb],none,false⟩⟩,⟨256,.other,false,some ⟨8,[.setEnt .internalNl,.cb],none,false⟩⟩]⟩,⟨[22],none,[],[⟨256,.other,false,none⟩,⟨256,.ws,false,none⟩,⟨256,.lf,false,none⟩,⟨256,.vt,false,none⟩,⟨256,.ff,false,none⟩,⟨256,.cr,false,none⟩,⟨256,.cr,true,none⟩,⟨256,.other,false,some ⟨11,[],none,false⟩⟩]⟩,⟨[0,11],none,[],[⟨256,.other,false,some ⟨12,[.comment],none,false⟩⟩,⟨256,.ws,false,some ⟨13,[],none,false⟩⟩,⟨256,.lf,false,some ⟨14,[],none,false⟩⟩,⟨256,.vt,false,some ⟨15,[],none,false⟩⟩,⟨256,.ff,false,some ⟨16,[],none,false⟩⟩,⟨256,.cr,false,some ⟨17,[],none,false⟩⟩,⟨256,.cr,true,some ⟨18,[],none,false⟩⟩,⟨256,.other,false,some ⟨19,[],none,false⟩⟩,⟨256,.other,false,some ⟨20,[],none,false⟩⟩,⟨256,.other,false,some ⟨21,[.comment],none,false⟩⟩]⟩,⟨[5],none,[],[⟨256,.other,false,some ⟨1,[.setEnt .internalNl,.cb,.comment],none,false⟩⟩,⟨256,.ws,false,some ⟨2,[.setEnt .internalNl,.cb],none,false⟩⟩,⟨256,.lf,false,some ⟨3,[.setEnt .internalNl,.cb],none,false⟩⟩,⟨256,.vt,false,none⟩,⟨256,.ff,false,some ⟨4,[.setEnt .internalNl,.cb],none,false⟩⟩,⟨256,.cr,false,some ⟨5,[.setEnt .internalNl,.cb],none,false⟩⟩,⟨256,.cr,true,some ⟨6,[.setEnt .internalNl,.cb],none,false⟩⟩,⟨256,.other,false,some ⟨7,[.setEnt .internalNl,.cb],none,false⟩⟩,⟨256,.other,false,some ⟨8,[.setEnt .internalNl,.cb],none,false⟩⟩]⟩,⟨[5,6],none,[],[⟨256,.other,false,some ⟨1,[.setEnt .internalNl,.cb,.comment],none,false⟩⟩,⟨256,.ws,false,some ⟨2,[.setEnt .internalNl,.cb],none,false⟩⟩,⟨256,.lf,false,some ⟨3,[.setEnt .internalNl,.cb],none,false⟩⟩,⟨256,.vt,false,none⟩,⟨256,.ff,false,some ⟨4,[.setEnt .internalNl,.cb],none,false⟩⟩,⟨256,.cr,false,some ⟨5,[.setEnt .internalNl,.cb],none,false⟩⟩,⟨256,.cr,true,some ⟨6,[.setEnt .internalNl,.cb],none,false⟩⟩,⟨256,.other,false,some ⟨7,[.setEnt .internalNl,.cb],none,false⟩⟩,⟨256,.other,false,some ⟨8,[.setEnt .internalNl,.cb],none,false⟩⟩]⟩,⟨[23],none,[],[⟨256,.other,false,none⟩,⟨256,.ws,false,none⟩,⟨256,.lf,false,none⟩,⟨256,.vt,false,none⟩,⟨256,.ff,false,none⟩,⟨256,.cr,false,none⟩,⟨256,.cr,true,none⟩,⟨256,.other,false,some ⟨0,[.comment,.emb (.goto 6)],some 0,true⟩⟩]⟩,⟨[10,12],none,[],[⟨256,.other,false,some ⟨22,[.comment],none,false⟩⟩,⟨256,.ws,false,some ⟨23,[],none,false⟩⟩,⟨256,.lf,false,some ⟨24,[],none,false⟩⟩,⟨256,.vt,false,some ⟨25,[],none,false⟩⟩,⟨256,.ff,false,some ⟨26,[],none,false⟩⟩,⟨256,.cr,false,some ⟨27,[],none,false⟩⟩,⟨256,.cr,true,some ⟨28,[],none,false⟩⟩,⟨256,.other,false,some ⟨29,[],none,false⟩⟩,⟨256,.other,false,some ⟨30,[],none,false⟩⟩]⟩,⟨[9,12],none,[],[⟨256,.other,false,some ⟨22,[.comment],none,false⟩⟩,⟨256,.ws,false,some ⟨23,[],none,false⟩⟩,⟨256,.lf,false,some ⟨24,[],none,false⟩⟩,⟨256,.vt,false,some ⟨25,[],none,false⟩⟩,⟨256,.ff,false,some ⟨26,[],none,false⟩⟩,⟨256,.cr,false,some ⟨27,[],none,false⟩⟩,⟨256,.cr,true,some ⟨28,[],none,false⟩⟩,⟨256,.other,false,some ⟨29,[],none,false⟩⟩,⟨256,.other,false,some ⟨30,[],none,false⟩⟩]⟩,⟨[6,12],none,[],[⟨256,.other,false,some ⟨22,[.setEnt .internalNl,.cb,.comment],none,false⟩⟩,⟨256,.ws,false,some ⟨23,[.setEnt .internalNl,.cb],none,false⟩⟩,⟨256,.lf,false,some ⟨24,[.setEnt .internalNl,.cb],none,false⟩⟩,⟨256,.vt,false,some ⟨25,[],none,false⟩⟩,⟨256,.ff,false,some ⟨26,[.setEnt .internalNl,.cb],none,false⟩⟩,⟨256,.cr,false,some ⟨27,[.setEnt .internalNl,.cb],none,false⟩⟩,⟨256,.cr,true,some ⟨28,[.setEnt .internalNl,.cb],none,false⟩⟩,⟨256,.other,false,some ⟨29,[.setEnt .internalNl,.cb],none,false⟩⟩,⟨256,.other,false,some ⟨30,[.setEnt .internalNl,.cb],none,false⟩⟩]⟩,⟨[12],none,[],[⟨256,.other,false,some ⟨22,[.comment],none,false⟩⟩,⟨256,.ws,false,some ⟨23,[],none,false⟩⟩,⟨256,.lf,false,some ⟨24,[],none,false⟩⟩,⟨256,.vt,false,some ⟨25,[],none,false⟩⟩,⟨256,.ff,false,some ⟨26,[],none,false⟩⟩,⟨256,.cr,false,some ⟨27,[],none,false⟩⟩,⟨256,.cr,true,some ⟨28,[],none,false⟩⟩,⟨256,.other,false,some ⟨29,[],none,false⟩⟩,⟨256,.other,false,some ⟨30,[],none,false⟩⟩]⟩,⟨[7,12],none,[],[⟨256,.other,false,some ⟨22,[.setEnt .internalNl,.cb,.comment],none,false⟩⟩,⟨256,.ws,false,some ⟨23,[.setEnt .internalNl,.cb],none,false⟩⟩,⟨256,.lf,false,some ⟨24,[.setEnt .internalNl,.cb],none,false⟩⟩,⟨256,.vt,false,some ⟨25,[],none,false⟩⟩,⟨256,.ff,false,some ⟨26,[.setEnt .internalNl,.cb],none,false⟩⟩,⟨256,.cr,false,some ⟨27,[.setEnt .internalNl,.cb],none,false⟩⟩,⟨256,.cr,true,some ⟨28,[.setEnt .internalNl,.cb],none,false⟩⟩,⟨256,.other,false,some ⟨29,[.setEnt .internalNl,.cb],none,false⟩⟩,⟨256,.other,false,some ⟨30,[.setEnt .internalNl,.cb],none,false⟩⟩]⟩,⟨[4,12],none,[],[⟨256,.other,false,some ⟨22,[.comment],none,false⟩⟩,⟨256,.ws,false,some ⟨23,[],none,false⟩⟩,⟨256,.lf,false,some ⟨31,[],none,false⟩⟩,⟨256,.vt,false,some ⟨25,[],none,false⟩⟩,⟨256,.ff,false,some ⟨26,[],none,false⟩⟩,⟨256,.cr,false,some ⟨27,[],none,false⟩⟩,⟨256,.cr,true,some ⟨28,[],none,false⟩⟩,⟨256,.other,false,some ⟨29,[],none,false⟩⟩,⟨256,.other,false,some ⟨30,[],none,false⟩⟩]⟩,⟨[4,8,12],none,[],[⟨256,.other,false,some ⟨22,[.setEnt .internalNl,.cb,.comment],none,false⟩⟩,⟨256,.ws,false,some ⟨23,[.setEnt .internalNl,.cb],none,false⟩⟩,⟨256,.lf,false,some ⟨31,[.setEnt .internalNl,.cb],none,false⟩⟩,⟨256,.vt,false,some ⟨25,[],none,false⟩⟩,⟨256,.ff,false,some ⟨26,[.setEnt .internalNl,.cb],none,false⟩⟩,⟨256,.cr,false,some ⟨27,[.setEnt .internalNl,.cb],none,false⟩⟩,⟨256,.cr,true,some ⟨28,[.setEnt .internalNl,.cb],none,false⟩⟩,⟨256,.other,false,some ⟨29,[.setEnt .internalNl,.cb],none,false⟩⟩,⟨256,.other,false,some ⟨30,[.setEnt .internalNl,.cb],none,false⟩⟩]⟩,⟨[12,22],none,[],[⟨256,.other,false,some ⟨22,[.comment],none,false⟩⟩,⟨256,.ws,false,some ⟨23,[],none,false⟩⟩,⟨256,.lf,false,some ⟨24,[],none,false⟩⟩,⟨256,.vt,false,some ⟨25,[],none,false⟩⟩,⟨256,.ff,false,some ⟨26,[],none,false⟩⟩,⟨256,.cr,false,some ⟨27,[],none,false⟩⟩,⟨256,.cr,true,some ⟨28,[],none,false⟩⟩,⟨256,.other,false,some ⟨32,[],none,false⟩⟩,⟨256,.other,false,some ⟨30,[],none,false⟩⟩]⟩,⟨[0,11,12],none,[],[⟨256,.other,false,some ⟨33,[.comment],none,false⟩⟩,⟨256,.ws,false,some ⟨34,[],none,false⟩⟩,⟨256,.lf,false,some ⟨35,[],none,false⟩⟩,⟨256,.vt,false,some ⟨36,[],none,false⟩⟩,⟨256,.ff,false,some ⟨37,[],none,false⟩⟩,⟨256,.cr,false,some ⟨38,[],none,false⟩⟩,⟨256,.cr,true,some ⟨39,[],none,false⟩⟩,⟨256,.other,false,some ⟨40,[],none,false⟩⟩,⟨256,.other,false,some ⟨41,[],none,false⟩⟩,⟨256,.other,false,some ⟨42,[.comment],none,false⟩⟩]⟩,⟨[1,10,13,20],none,[],[⟨256,.other,false,some ⟨43,[.comment],none,false⟩⟩,⟨256,.ws,false,some ⟨44,[],none,false⟩⟩,⟨256,.lf,false,some ⟨45,[],none,false⟩⟩,⟨256,.vt,false,some ⟨46,[],none,false⟩⟩,⟨256,.ff,false,some ⟨47,[],none,false⟩⟩,⟨256,.cr,false,some ⟨48,[],none,false⟩⟩,⟨256,.cr,true,some ⟨49,[],none,false⟩⟩,⟨256,.other,false,some ⟨50,[],none,false⟩⟩,⟨256,.other,false,some ⟨51,[],none,false⟩⟩,⟨256,.other,false,some ⟨52,[.comment],none,false⟩⟩]⟩,⟨[10,19],none,[],[⟨256,.other,false,some ⟨22,[.comment],none,false⟩⟩,⟨256,.ws,false,some ⟨23,[],none,false⟩⟩,⟨256,.lf,false,some ⟨24,[],none,false⟩⟩,⟨256,.vt,false,some ⟨25,[],none,false⟩⟩,⟨256,.ff,false,some ⟨26,[],none,false⟩⟩,⟨256,.cr,false,some ⟨27,[],none,false⟩⟩,⟨256,.cr,true,some ⟨28,[],none,false⟩⟩,⟨256,.other,false,some ⟨29,[],none,false⟩⟩,⟨256,.other,false,some ⟨30,[],none,false⟩⟩]⟩,⟨[9,19],none,[],[⟨256,.other,false,some ⟨22,[.comment],none,false⟩⟩,⟨256,.ws,false,some ⟨23,[],none,false⟩⟩,⟨256,.lf,false,some ⟨24,[],none,false⟩⟩,⟨256,.vt,false,some ⟨25,[],none,false⟩⟩,⟨256,.ff,false,some ⟨26,[],none,false⟩⟩,⟨256,.cr,false,some ⟨27,[],none,false⟩⟩,⟨256,.cr,true,some ⟨28,[],none,false⟩⟩,⟨256,.other,false,some ⟨29,[],none,false⟩⟩,⟨256,.other,false,some ⟨30,[],none,false⟩⟩]⟩,⟨[6,19],none,[],[⟨256,.other,false,some ⟨22,[.setEnt .internalNl,.cb,.comment],none,false⟩⟩,⟨256,.ws,false,some ⟨23,[.setEnt .internalNl,.cb],none,false⟩⟩,⟨256,.lf,false,some ⟨24,[.setEnt .internalNl,.cb],none,false⟩⟩,⟨256,.vt,false,some ⟨25,[],none,false⟩⟩,⟨256,.ff,false,some ⟨26,[.setEnt .internalNl,.cb],none,false⟩⟩,⟨256,.cr,false,some ⟨27,[.setEnt .internalNl,.cb],none,false⟩⟩,⟨256,.cr,true,some ⟨28,[.setEnt .internalNl,.cb],none,false⟩⟩,⟨256,.other,false,some ⟨29,[.setEnt .internalNl,.cb],none,false⟩⟩,⟨256,.other,false,some ⟨30,[.setEnt .internalNl,.cb],none,false⟩⟩]⟩,⟨[19],none,[],[⟨256,.other,false,some ⟨22,[.comment],none,false⟩⟩,⟨256,.ws,false,some ⟨23,[],none,false⟩⟩,⟨256,.lf,false,some ⟨24,[],none,false⟩⟩,⟨256,.vt,false,some ⟨25,[],none,false⟩⟩,⟨256,.ff,false,some ⟨26,[],none,false⟩⟩,⟨256,.cr,false,some ⟨27,[],none,false⟩⟩,⟨256,.cr,true,some ⟨28,[],none,false⟩⟩,⟨256,.other,false,some ⟨29,[],none,false⟩⟩,⟨256,.other,false,some ⟨30,[],none,false⟩⟩]⟩,⟨[7,19],none,[],[⟨256,.other,false,some ⟨22,[.setEnt .internalNl,.cb,.comment],none,false⟩⟩,⟨256,.ws,false,some ⟨23,[.setEnt .internalNl,.cb],none,false⟩⟩,⟨256,.lf,false,some ⟨24,[.setEnt .internalNl,.cb],none,false⟩⟩,⟨256,.vt,false,some ⟨25,[],none,false⟩⟩,⟨256,.ff,false,some ⟨26,[.setEnt .internalNl,.cb],none,false⟩⟩,⟨256,.cr,false,some ⟨27,[.setEnt .internalNl,.cb],none,false⟩⟩,⟨256,.cr,true,some ⟨28,[.setEnt .internalNl,.cb],none,false⟩⟩,⟨256,.other,false,some ⟨29,[.setEnt .internalNl,.cb],none,false⟩⟩,⟨256,.other,false,some ⟨30,[.setEnt .internalNl,.cb],none,false⟩⟩]⟩,⟨[4,19],none,[],[⟨256,.other,false,some ⟨22,[.comment],none,false⟩⟩,⟨256,.ws,false,some ⟨23,[],none,false⟩⟩,⟨256,.lf,false,some ⟨31,[],none,false⟩⟩,⟨256,.vt,false,some ⟨25,[],none,false⟩⟩,⟨256,.ff,false,some ⟨26,[],none,false⟩⟩,⟨256,.cr,false,some ⟨27,[],none,false⟩⟩,⟨256,.cr,true,some ⟨28,[],none,false⟩⟩,⟨256,.other,false,some ⟨29,[],none,false⟩⟩,⟨256,.other,false,some ⟨30,[],none,false⟩⟩]⟩,⟨[4,8,19],none,[],[⟨256,.other,false,some ⟨22,[.setEnt .internalNl,.cb,.comment],none,false⟩⟩,⟨256,.ws,false,some ⟨23,[.setEnt .internalNl,.cb],none,false⟩⟩,⟨256,.lf,false,some ⟨31,[.setEnt .internalNl,.cb],none,false⟩⟩,⟨256,.vt,false,some ⟨25,[],none,false⟩⟩,⟨256,.ff,false,some ⟨26,[.setEnt .internalNl,.cb],none,false⟩⟩,⟨256,.cr,false,some ⟨27,[.setEnt .internalNl,.cb],none,false⟩⟩,⟨256,.cr,true,some ⟨28,[.setEnt .internalNl,.cb],none,false⟩⟩,⟨256,.other,false,some ⟨29,[.setEnt .internalNl,.cb],none,false⟩⟩,⟨256,.other,false,some ⟨30,[.setEnt .internalNl,.cb],none,false⟩⟩]⟩,⟨[19,22],none,[],[⟨256,.other,false,some ⟨22,[.comment],none,false⟩⟩,⟨256,.ws,false,some ⟨23,[],none,false⟩⟩,⟨256,.lf,false,some ⟨24,[],none,false⟩⟩,⟨256,.vt,false,some ⟨25,[],none,false⟩⟩,⟨256,.ff,false,some ⟨26,[],none,false⟩⟩,⟨256,.cr,false,some ⟨27,[],none,false⟩⟩,⟨256,.cr,true,some ⟨28,[],none,false⟩⟩,⟨256,.other,false,some ⟨32,[],none,false⟩⟩,⟨256,.other,false,some ⟨30,[],none,false⟩⟩]⟩,⟨[0,11,19],none,[],[⟨256,.other,false,some ⟨33,[.comment],none,false⟩⟩,⟨256,.ws,false,some ⟨34,[],none,false⟩⟩,⟨256,.lf,false,some ⟨35,[],none,false⟩⟩,⟨256,.vt,false,some ⟨36,[],none,false⟩⟩,⟨256,.ff,false,some ⟨37,[],none,false⟩⟩,⟨256,.cr,false,some ⟨38,[],none,false⟩⟩,⟨256,.cr,true,some ⟨39,[],none,false⟩⟩,⟨256,.other,false,some ⟨40,[],none,false⟩⟩,⟨256,.other,false,some ⟨41,[],none,false⟩⟩,⟨256,.other,false,some ⟨42,[.comment],none,false⟩⟩]⟩,⟨[5,6,19],none,[],[⟨256,.other,false,some ⟨22,[.setEnt .internalNl,.cb,.comment],none,false⟩⟩,⟨256,.ws,false,some ⟨23,[.setEnt .internalNl,.cb],none,false⟩⟩,⟨256,.lf,false,some ⟨24,[.setEnt .internalNl,.cb],none,false⟩⟩,⟨256,.vt,false,some ⟨25,[],none,false⟩⟩,⟨256,.ff,false,some ⟨26,[.setEnt .internalNl,.cb],none,false⟩⟩,⟨256,.cr,false,some ⟨27,[.setEnt .internalNl,.cb],none,false⟩⟩,⟨256,.cr,true,some ⟨28,[.setEnt .internalNl,.cb],none,false⟩⟩,⟨256,.other,false,some ⟨29,[.setEnt .internalNl,.cb],none,false⟩⟩,⟨256,.other,false,some ⟨30,[.setEnt .internalNl,.cb],none,false⟩⟩]⟩,⟨[19,22,23],none,[],[⟨256,.other,false,some ⟨22,[.comment],none,false⟩⟩,⟨256,.ws,false,some ⟨23,[],none,false⟩⟩,⟨256,.lf,false,some ⟨24,[],none,false⟩⟩,⟨256,.vt,false,some ⟨25,[],none,false⟩⟩,⟨256,.ff,false,some ⟨26,[],none,false⟩⟩,⟨256,.cr,false,some ⟨27,[],none,false⟩⟩,⟨256,.cr,true,some ⟨28,[],none,false⟩⟩,⟨256,.other,false,some ⟨32,[],none,false⟩⟩,⟨256,.other,false,some ⟨30,[],none,false⟩⟩,⟨256,.other,false,some ⟨0,[.comment,.emb (.goto 6)],some 0,true⟩⟩]⟩,⟨[10,12,19],none,[],[⟨256,.other,false,some ⟨22,[.comment],none,false⟩⟩,⟨256,.ws,false,some ⟨23,[],none,false⟩⟩,⟨256,.lf,false,some ⟨24,[],none,false⟩⟩,⟨256,.vt,false,some ⟨25,[],none,false⟩⟩,⟨256,.ff,false,some ⟨26,[],none,false⟩⟩,⟨256,.cr,false,some ⟨27,[],none,false⟩⟩,⟨256,.cr,true,some ⟨28,[],none,false⟩⟩,⟨256,.other,false,some ⟨29,[],none,false⟩⟩,⟨256,.other,false,some ⟨30,[],none,false⟩⟩]⟩,⟨[9,12,19],none,[],[⟨256,.other,false,some ⟨22,[.comment],none,false⟩⟩,⟨256,.ws,false,some ⟨23,[],none,false⟩⟩,⟨256,.lf,false,some ⟨24,[],none,false⟩⟩,⟨256,.vt,false,some ⟨25,[],none,false⟩⟩,⟨256,.ff,false,some ⟨26,[],none,false⟩⟩,⟨256,.cr,false,some ⟨27,[],none,false⟩⟩,⟨256,.cr,true,some ⟨28,[],none,false⟩⟩,⟨256,.other,false,some ⟨29,[],none,false⟩⟩,⟨256,.other,false,some ⟨30,[],none,false⟩⟩]⟩,⟨[6,12,19],none,[],[⟨256,.other,false,some ⟨22,[.setEnt .internalNl,.cb,.comment],none,false⟩⟩,⟨256,.ws,false,some ⟨23,[.setEnt .internalNl,.cb],none,false⟩⟩,⟨256,.lf,false,some ⟨24,[.setEnt .internalNl,.cb],none,false⟩⟩,⟨256,.vt,false,some ⟨25,[],none,false⟩⟩,⟨256,.ff,false,some ⟨26,[.setEnt .internalNl,.cb],none,false⟩⟩,⟨256,.cr,false,some ⟨27,[.setEnt .internalNl,.cb],none,false⟩⟩,⟨256,.cr,true,some ⟨28,[.setEnt .internalNl,.cb],none,false⟩⟩,⟨256,.other,false,some ⟨29,[.setEnt .internalNl,.cb],none,false⟩⟩,⟨256,.other,false,some ⟨30,[.setEnt .internalNl,.cb],none,false⟩⟩]⟩,⟨[12,19],none,[],[⟨256,.other,false,some ⟨22,[.comment],none,false⟩⟩,⟨256,.ws,false,some ⟨23,[],none,false⟩⟩,⟨256,.lf,false,some ⟨24,[],none,false⟩⟩,⟨256,.vt,false,some ⟨25,[],none,false⟩⟩,⟨256,.ff,false,some ⟨26,[],none,false⟩⟩,⟨256,.cr,false,some ⟨27,[],none,false⟩⟩,⟨256,.cr,true,some ⟨28,[],none,false⟩⟩,⟨256,.other,false,some ⟨29,[],none,false⟩⟩,⟨256,.other,false,some ⟨30,[],none,false⟩⟩]⟩,⟨[7,12,19],none,[],[⟨256,.other,false,some ⟨22,[.setEnt .internalNl,.cb,.comment],none,false⟩⟩,⟨256,.ws,false,some ⟨23,[.setEnt .internalNl,.cb],none,false⟩⟩,⟨256,.lf,false,some ⟨24,[.setEnt .internalNl,.cb],none,false⟩⟩,⟨256,.vt,false,some ⟨25,[],none,false⟩⟩,⟨256,.ff,false,some ⟨26,[.setEnt .internalNl,.cb],none,false⟩⟩,⟨256,.cr,false,some ⟨27,[.setEnt .internalNl,.cb],none,false⟩⟩,⟨256,.cr,true,some ⟨28,[.setEnt .internalNl,.cb],none,false⟩⟩,⟨256,.other,false,some ⟨29,[.setEnt .internalNl,.cb],none,false⟩⟩,⟨256,.other,false,some ⟨30,[.setEnt .internalNl,.cb],none,false⟩⟩]⟩,⟨[4,12,19],none,[],[⟨256,.other,false,some ⟨22,[.comment],none,false⟩⟩,⟨256,.ws,false,some ⟨23,[],none,false⟩⟩,⟨256,.lf,false,some ⟨31,[],none,false⟩⟩,⟨256,.vt,false,some ⟨25,[],none,false⟩⟩,⟨256,.ff,false,some ⟨26,[],none,false⟩⟩,⟨256,.cr,false,some ⟨27,[],none,false⟩⟩,⟨256,.cr,true,some ⟨28,[],none,false⟩⟩,⟨256,.other,false,some ⟨29,[],none,false⟩⟩,⟨256,.other,false,some ⟨30,[],none,false⟩⟩]⟩,⟨[4,8,12,19],none,[],[⟨256,.other,false,some ⟨22,[.setEnt .internalNl,.cb,.comment],none,false⟩⟩,⟨256,.ws,false,some ⟨23,[.setEnt .internalNl,.cb],none,false⟩⟩,⟨256,.lf,false,some ⟨31,[.setEnt .internalNl,.cb],none,false⟩⟩,⟨256,.vt,false,some ⟨25,[],none,false⟩⟩,⟨256,.ff,false,some ⟨26,[.setEnt .internalNl,.cb],none,false⟩⟩,⟨256,.cr,false,some ⟨27,[.setEnt .internalNl,.cb],none,false⟩⟩,⟨256,.cr,true,some ⟨28,[.setEnt .internalNl,.cb],none,false⟩⟩,⟨256,.other,false,some ⟨29,[.setEnt .internalNl,.cb],none,false⟩⟩,⟨256,.other,false,some ⟨30,[.setEnt .internalNl,.cb],none,false⟩⟩]⟩,⟨[12,19,22],none,[],[⟨256,.other,false,some ⟨22,[.comment],none,false⟩⟩,⟨256,.ws,false,some ⟨23,[],none,false⟩⟩,⟨256,.lf,false,some ⟨24,[],none,false⟩⟩,⟨256,.vt,false,some ⟨25,[],none,false⟩⟩,⟨256,.ff,false,some ⟨26,[],none,false⟩⟩,⟨256,.cr,false,some ⟨27,[],none,false⟩⟩,⟨256,.cr,true,some ⟨28,[],none,false⟩⟩,⟨256,.other,false,some ⟨32,[],none,false⟩⟩,⟨256,.other,false,some ⟨30,[],none,false⟩⟩]⟩,⟨[0,11,12,19],none,[],[⟨256,.other,false,some ⟨33,[.comment],none,false⟩⟩,⟨256,.ws,false,some ⟨34,[],none,false⟩⟩,⟨256,.lf,false,some ⟨35,[],none,false⟩⟩,⟨256,.vt,false,some ⟨36,[],none,false⟩⟩,⟨256,.ff,false,some ⟨37,[],none,false⟩⟩,⟨256,.cr,false,some ⟨38,[],none,false⟩⟩,⟨256,.cr,true,some ⟨39,[],none,false⟩⟩,⟨256,.other,false,some ⟨40,[],none,false⟩⟩,⟨256,.other,false,some ⟨41,[],none,false⟩⟩,⟨256,.other,false,some ⟨42,[.comment],none,false⟩⟩]⟩,⟨[1,10,13,19,20],none,[],[⟨256,.other,false,some ⟨53,[.comment],none,false⟩⟩,⟨256,.ws,false,some ⟨54,[],none,false⟩⟩,⟨256,.lf,false,some ⟨55,[],none,false⟩⟩,⟨256,.vt,false,some ⟨56,[],none,false⟩⟩,⟨256,.ff,false,some ⟨57,[],none,false⟩⟩,⟨256,.cr,false,some ⟨58,[],none,false⟩⟩,⟨256,.cr,true,some ⟨59,[],none,false⟩⟩,⟨256,.other,false,some ⟨60,[],none,false⟩⟩,⟨256,.other,false,some ⟨61,[],none,false⟩⟩,⟨256,.other,false,some ⟨62,[.comment],none,false⟩⟩]⟩,⟨[10,14],none,[],[⟨256,.other,false,some ⟨22,[.comment],none,false⟩⟩,⟨256,.ws,false,some ⟨23,[],none,false⟩⟩,⟨256,.lf,false,some ⟨24,[],none,false⟩⟩,⟨256,.vt,false,some ⟨25,[],none,false⟩⟩,⟨256,.ff,false,some ⟨26,[],none,false⟩⟩,⟨256,.cr,false,some ⟨27,[],none,false⟩⟩,⟨256,.cr,true,some ⟨28,[],none,false⟩⟩,⟨256,.other,false,some ⟨29,[],none,false⟩⟩,⟨256,.other,false,some ⟨30,[],none,false⟩⟩]⟩,⟨[9,14],none,[],[⟨256,.other,false,some ⟨22,[.comment],none,false⟩⟩,⟨256,.ws,false,some ⟨23,[],none,false⟩⟩,⟨256,.lf,false,some ⟨24,[],none,false⟩⟩,⟨256,.vt,false,some ⟨25,[],none,false⟩⟩,⟨256,.ff,false,some ⟨26,[],none,false⟩⟩,⟨256,.cr,false,some ⟨27,[],none,false⟩⟩,⟨256,.cr,true,some ⟨28,[],none,false⟩⟩,⟨256,.other,false,some ⟨29,[],none,false⟩⟩,⟨256,.other,false,some ⟨30,[],none,false⟩⟩]⟩,⟨[6,14],none,[],[⟨256,.other,false,some ⟨22,[.setEnt .internalNl,.cb,.comment],none,false⟩⟩,⟨256,.ws,false,some ⟨23,[.setEnt .internalNl,.cb],none,false⟩⟩,⟨256,.lf,false,some ⟨24,[.setEnt .internalNl,.cb],none,false⟩⟩,⟨256,.vt,false,some ⟨25,[],none,false⟩⟩,⟨256,.ff,false,some ⟨26,[.setEnt .internalNl,.cb],none,false⟩⟩,⟨256,.cr,false,some ⟨27,[.setEnt .internalNl,.cb],none,false⟩⟩,⟨256,.cr,true,some ⟨28,[.setEnt .internalNl,.cb],none,false⟩⟩,⟨256,.other,false,some ⟨29,[.setEnt .internalNl,.cb],none,false⟩⟩,⟨256,.other,false,some ⟨30,[.setEnt .internalNl,.cb],none,false⟩⟩]⟩,⟨[14],none,[],[⟨256,.other,false,some ⟨22,[.comment],none,false⟩⟩,⟨256,.ws,false,some ⟨23,[],none,false⟩⟩,⟨256,.lf,false,some ⟨24,[],none,false⟩⟩,⟨256,.vt,false,some ⟨25,[],none,false⟩⟩,⟨256,.ff,false,some ⟨26,[],none,false⟩⟩,⟨256,.cr,false,some ⟨27,[],none,false⟩⟩,⟨256,.cr,true,some ⟨28,[],none,false⟩⟩,⟨256,.other,false,some ⟨29,[],none,false⟩⟩,⟨256,.other,false,some ⟨30,[],none,false⟩⟩]⟩,⟨[7,14],none,[],[⟨256,.other,false,some ⟨22,[.setEnt .internalNl,.cb,.comment],none,false⟩⟩,⟨256,.ws,false,some ⟨23,[.setEnt .internalNl,.cb],none,false⟩⟩,⟨256,.lf,false,some ⟨24,[.setEnt .internalNl,.cb],none,false⟩⟩,⟨256,.vt,false,some ⟨25,[],none,false⟩⟩,⟨256,.ff,false,some ⟨26,[.setEnt .internalNl,.cb],none,false⟩⟩,⟨256,.cr,false,some ⟨27,[.setEnt .internalNl,.cb],none,false⟩⟩,⟨256,.cr,true,some ⟨28,[.setEnt .internalNl,.cb],none,false⟩⟩,⟨256,.other,false,some ⟨29,[.setEnt .internalNl,.cb],none,false⟩⟩,⟨256,.other,false,some ⟨30,[.setEnt .internalNl,.cb],none,false⟩⟩]⟩,⟨[4,14],none,[],[⟨256,.other,false,some ⟨22,[.comment],none,false⟩⟩,⟨256,.ws,false,some ⟨23,[],none,false⟩⟩,⟨256,.lf,false,some ⟨31,[],none,false⟩⟩,⟨256,.vt,false,some ⟨25,[],none,false⟩⟩,⟨256,.ff,false,some ⟨26,[],none,false⟩⟩,⟨256,.cr,false,some ⟨27,[],none,false⟩⟩,⟨256,.cr,true,some ⟨28,[],none,false⟩⟩,⟨256,.other,false,some ⟨29,[],none,false⟩⟩,⟨256,.other,false,some ⟨30,[],none,false⟩⟩]⟩,⟨[4,8,14],none,[],[⟨256,.other,false,some ⟨22,[.setEnt .internalNl,.cb,.comment],none,false⟩⟩,⟨256,.ws,false,some ⟨23,[.setEnt .internalNl,.cb],none,false⟩⟩,⟨256,.lf,false,some ⟨31,[.setEnt .internalNl,.cb],none,false⟩⟩,⟨256,.vt,false,some ⟨25,[],none,false⟩⟩,⟨256,.ff,false,some ⟨26,[.setEnt .internalNl,.cb],none,false⟩⟩,⟨256,.cr,false,some ⟨27,[.setEnt .internalNl,.cb],none,false⟩⟩,⟨256,.cr,true,some ⟨28,[.setEnt .internalNl,.cb],none,false⟩⟩,⟨256,.other,false,some ⟨29,[.setEnt .internalNl,.cb],none,false⟩⟩,⟨256,.other,false,some ⟨30,[.setEnt .internalNl,.cb],none,false⟩⟩]⟩,⟨[14,22],none,[],[⟨256,.other,false,some ⟨22,[.comment],none,false⟩⟩,⟨256,.ws,false,some ⟨23,[],none,false⟩⟩,⟨256,.lf,false,some ⟨24,[],none,false⟩⟩,⟨256,.vt,false,some ⟨25,[],none,false⟩⟩,⟨256,.ff,false,some ⟨26,[],none,false⟩⟩,⟨256,.cr,false,some ⟨27,[],none,false⟩⟩,⟨256,.cr,true,some ⟨28,[],none,false⟩⟩,⟨256,.other,false,some ⟨32,[],none,false⟩⟩,⟨256,.other,false,some ⟨30,[],none,false⟩⟩]⟩,⟨[0,11,14],none,[],[⟨256,.other,false,some ⟨33,[.comment],none,false⟩⟩,⟨256,.ws,false,some ⟨34,[],none,false⟩⟩,⟨256,.lf,false,some ⟨35,[],none,false⟩⟩,⟨256,.vt,false,some ⟨36,[],none,false⟩⟩,⟨256,.ff,false,some ⟨37,[],none,false⟩⟩,⟨256,.cr,false,some ⟨38,[],none,false⟩⟩,⟨256,.cr,true,some ⟨39,[],none,false⟩⟩,⟨256,.other,false,some ⟨40,[],none,false⟩⟩,⟨256,.other,false,some ⟨41,[],none,false⟩⟩,⟨256,.other,false,some ⟨42,[.comment],none,false⟩⟩]⟩,⟨[2,10,15,21],none,[],[⟨256,.other,false,some ⟨63,[.comment],none,false⟩⟩,⟨256,.ws,false,some ⟨64,[],none,false⟩⟩,⟨256,.lf,false,some ⟨65,[],none,false⟩⟩,⟨256,.vt,false,some ⟨66,[],none,false⟩⟩,⟨256,.ff,false,some ⟨67,[],none,false⟩⟩,⟨256,.cr,false,some ⟨68,[],none,false⟩⟩,⟨256,.cr,true,some ⟨69,[],none,false⟩⟩,⟨256,.other,false,some ⟨70,[],none,false⟩⟩,⟨256,.other,false,some ⟨71,[],none,false⟩⟩,⟨256,.other,false,some ⟨72,[.emb (.sawCall 3 5),.comment],none,false⟩⟩]⟩,⟨[10,14,19],none,[],[⟨256,.other,false,some ⟨22,[.comment],none,false⟩⟩,⟨256,.ws,false,some ⟨23,[],none,false⟩⟩,⟨256,.lf,false,some ⟨24,[],none,false⟩⟩,⟨256,.vt,false,some ⟨25,[],none,false⟩⟩,⟨256,.ff,false,some ⟨26,[],none,false⟩⟩,⟨256,.cr,false,some ⟨27,[],none,false⟩⟩,⟨256,.cr,true,some ⟨28,[],none,false⟩⟩,⟨256,.other,false,some ⟨29,[],none,false⟩⟩,⟨256,.other,false,some ⟨30,[],none,false⟩⟩]⟩,⟨[9,14,19],none,[],[⟨256,.other,false,some ⟨22,[.comment],none,false⟩⟩,⟨256,.ws,false,some ⟨23,[],none,false⟩⟩,⟨256,.lf,false,some ⟨24,[],none,false⟩⟩,⟨256,.vt,false,some ⟨25,[],none,false⟩⟩,⟨256,.ff,false,some ⟨26,[],none,false⟩⟩,⟨256,.cr,false,some ⟨27,[],none,false⟩⟩,⟨256,.cr,true,some ⟨28,[],none,false⟩⟩,⟨256,.other,false,some ⟨29,[],none,false⟩⟩,⟨256,.other,false,some ⟨30,[],none,false⟩⟩]⟩,⟨[6,14,19],none,[],[⟨256,.other,false,some ⟨22,[.setEnt .internalNl,.cb,.comment],none,false⟩⟩,⟨256,.ws,false,some ⟨23,[.setEnt .internalNl,.cb],none,false⟩⟩,⟨256,.lf,false,some ⟨24,[.setEnt .internalNl,.cb],none,false⟩⟩,⟨256,.vt,false,some ⟨25,[],none,false⟩⟩,⟨256,.ff,false,some ⟨26,[.setEnt .internalNl,.cb],none,false⟩⟩,⟨256,.cr,false,some ⟨27,[.setEnt .internalNl,.cb],none,false⟩⟩,⟨256,.cr,true,some ⟨28,[.setEnt .internalNl,.cb],none,false⟩⟩,⟨256,.other,false,some ⟨29,[.setEnt .internalNl,.cb],none,false⟩⟩,⟨256,.other,false,some ⟨30,[.setEnt .internalNl,.cb],none,false⟩⟩]⟩,⟨[14,19],none,[],[⟨256,.other,false,some ⟨22,[.comment],none,false⟩⟩,⟨256,.ws,false,some ⟨23,[],none,false⟩⟩,⟨256,.lf,false,some ⟨24,[],none,false⟩⟩,⟨256,.vt,false,some ⟨25,[],none,false⟩⟩,⟨256,.ff,false,some ⟨26,[],none,false⟩⟩,⟨256,.cr,false,some ⟨27,[],none,false⟩⟩,⟨256,.cr,true,some ⟨28,[],none,false⟩⟩,⟨256,.other,false,some ⟨29,[],none,false⟩⟩,⟨256,.other,false,some ⟨30,[],none,false⟩⟩]⟩,⟨[7,14,19],none,[],[⟨256,.other,false,some ⟨22,[.setEnt .internalNl,.cb,.comment],none,false⟩⟩,⟨256,.ws,false,some ⟨23,[.setEnt .internalNl,.cb],none,false⟩⟩,⟨256,.lf,false,some ⟨24,[.setEnt .internalNl,.cb],none,false⟩⟩,⟨256,.vt,false,some ⟨25,[],none,false⟩⟩,⟨256,.ff,false,some ⟨26,[.setEnt .internalNl,.cb],none,false⟩⟩,⟨256,.cr,false,some ⟨27,[.setEnt .internalNl,.cb],none,false⟩⟩,⟨256,.cr,true,some ⟨28,[.setEnt .internalNl,.cb],none,false⟩⟩,⟨256,.other,false,some ⟨29,[.setEnt .internalNl,.cb],none,false⟩⟩,⟨256,.other,false,some ⟨30,[.setEnt .internalNl,.cb],none,false⟩⟩]⟩,⟨[4,14,19],none,[],[⟨256,.other,false,some ⟨22,[.comment],none,false⟩⟩,⟨256,.ws,false,some ⟨23,[],none,false⟩⟩,⟨256,.lf,false,some ⟨31,[],none,false⟩⟩,⟨256,.vt,false,some ⟨25,[],none,false⟩⟩,⟨256,.ff,false,some ⟨26,[],none,false⟩⟩,⟨256,.cr,false,some ⟨27,[],none,false⟩⟩,⟨256,.cr,true,some ⟨28,[],none,false⟩⟩,⟨256,.other,false,some ⟨29,[],none,false⟩⟩,⟨256,.other,false,some ⟨30,[],none,false⟩⟩]⟩,⟨[4,8,14,19],none,[],[⟨256,.other,false,some ⟨22,[.setEnt .internalNl,.cb,.comment],none,false⟩⟩,⟨256,.ws,false,some ⟨23,[.setEnt .internalNl,.cb],none,false⟩⟩,⟨256,.lf,false,some ⟨31,[.setEnt .internalNl,.cb],none,false⟩⟩,⟨256,.vt,false,some ⟨25,[],none,false⟩⟩,⟨256,.ff,false,some ⟨26,[.setEnt .internalNl,.cb],none,false⟩⟩,⟨256,.cr,false,some ⟨27,[.setEnt .internalNl,.cb],none,false⟩⟩,⟨256,.cr,true,some ⟨28,[.setEnt .internalNl,.cb],none,false⟩⟩,⟨256,.other,false,some ⟨29,[.setEnt .internalNl,.cb],none,false⟩⟩,⟨256,.other,false,some ⟨30,[.setEnt .internalNl,.cb],none,false⟩⟩]⟩,⟨[14,19,22],none,[],[⟨256,.other,false,some ⟨22,[.comment],none,false⟩⟩,⟨256,.ws,false,some ⟨23,[],none,false⟩⟩,⟨256,.lf,false,some ⟨24,[],none,false⟩⟩,⟨256,.vt,false,some ⟨25,[],none,false⟩⟩,⟨256,.ff,false,some ⟨26,[],none,false⟩⟩,⟨256,.cr,false,some ⟨27,[],none,false⟩⟩,⟨256,.cr,true,some ⟨28,[],none,false⟩⟩,⟨256,.other,false,some ⟨32,[],none,false⟩⟩,⟨256,.other,false,some ⟨30,[],none,false⟩⟩]⟩,⟨[0,11,14,19],none,[],[⟨256,.other,false,some ⟨33,[.comment],none,false⟩⟩,⟨256,.ws,false,some ⟨34,[],none,false⟩⟩,⟨256,.lf,false,some ⟨35,[],none,false⟩⟩,⟨256,.vt,false,some ⟨36,[],none,false⟩⟩,⟨256,.ff,false,some ⟨37,[],none,false⟩⟩,⟨256,.cr,false,some ⟨38,[],none,false⟩⟩,⟨256,.cr,true,some ⟨39,[],none,false⟩⟩,⟨256,.other,false,some ⟨40,[],none,false⟩⟩,⟨256,.other,false,some ⟨41,[],none,false⟩⟩,⟨256,.other,false,some ⟨42,[.comment],none,false⟩⟩]⟩,⟨[2,10,15,19,21],none,[],[⟨256,.other,false,some ⟨73,[.comment],none,false⟩⟩,⟨256,.ws,false,some ⟨74,[],none,false⟩⟩,⟨256,.lf,false,some ⟨75,[],none,false⟩⟩,⟨256,.vt,false,some ⟨76,[],none,false⟩⟩,⟨256,.ff,false,some ⟨77,[],none,false⟩⟩,⟨256,.cr,false,some ⟨78,[],none,false⟩⟩,⟨256,.cr,true,some ⟨79,[],none,false⟩⟩,⟨256,.other,false,some ⟨80,[],none,false⟩⟩,⟨256,.other,false,some ⟨81,[],none,false⟩⟩,⟨256,.other,false,some ⟨82,[.emb (.sawCall 3 5),.comment],none,false⟩⟩]⟩,⟨[10,16],none,[],[⟨256,.other,false,some ⟨22,[.comment],none,false⟩⟩,⟨256,.ws,false,some ⟨23,[],none,false⟩⟩,⟨256,.lf,false,some ⟨24,[],none,false⟩⟩,⟨256,.vt,false,some ⟨25,[],none,false⟩⟩,⟨256,.ff,false,some ⟨26,[],none,false⟩⟩,⟨256,.cr,false,some ⟨27,[],none,false⟩⟩,⟨256,.cr,true,some ⟨28,[],none,false⟩⟩,⟨256,.other,false,some ⟨29,[],none,false⟩⟩,⟨256,.other,false,some ⟨30,[],none,false⟩⟩]⟩,⟨[9,16],none,[],[⟨256,.other,false,some ⟨22,[.comment],none,false⟩⟩,⟨256,.ws,false,some ⟨23,[],none,false⟩⟩,⟨256,.lf,false,some ⟨24,[],none,false⟩⟩,⟨256,.vt,false,some ⟨25,[],none,false⟩⟩,⟨256,.ff,false,some ⟨26,[],none,false⟩⟩,⟨256,.cr,false,some ⟨27,[],none,false⟩⟩,⟨256,.cr,true,some ⟨28,[],none,false⟩⟩,⟨256,.other,false,some ⟨29,[],none,false⟩⟩,⟨256,.other,false,some ⟨30,[],none,false⟩⟩]⟩,⟨[6,16],none,[],[⟨256,.other,false,some ⟨22,[.setEnt .internalNl,.cb,.comment],none,false⟩⟩,⟨256,.ws,false,some ⟨23,[.setEnt .internalNl,.cb],none,false⟩⟩,⟨256,.lf,false,some ⟨24,[.setEnt .internalNl,.cb],none,false⟩⟩,⟨256,.vt,false,some ⟨25,[],none,false⟩⟩,⟨256,.ff,false,some ⟨26,[.setEnt .internalNl,.cb],none,false⟩⟩,⟨256,.cr,false,some ⟨27,[.setEnt .internalNl,.cb],none,false⟩⟩,⟨256,.cr,true,some ⟨28,[.setEnt .internalNl,.cb],none,false⟩⟩,⟨256,.other,false,some ⟨29,[.setEnt .internalNl,.cb],none,false⟩⟩,⟨256,.other,false,some ⟨30,[.setEnt .internalNl,.cb],none,false⟩⟩]⟩,⟨[16],none,[],[⟨256,.other,false,some ⟨22,[.comment],none,false⟩⟩,⟨256,.ws,false,some ⟨23,[],none,false⟩⟩,⟨256,.lf,false,some ⟨24,[],none,false⟩⟩,⟨256,.vt,false,some ⟨25,[],none,false⟩⟩,⟨256,.ff,false,some ⟨26,[],none,false⟩⟩,⟨256,.cr,false,some ⟨27,[],none,false⟩⟩,⟨256,.cr,true,some ⟨28,[],none,false⟩⟩,⟨256,.other,false,some ⟨29,[],none,false⟩⟩,⟨256,.other,false,some ⟨30,[],none,false⟩⟩]⟩,⟨[7,16],none,[],[⟨256,.other,false,some ⟨22,[.setEnt .internalNl,.cb,.comment],none,false⟩⟩,⟨256,.ws,false,some ⟨23,[.setEnt .internalNl,.cb],none,false⟩⟩,⟨256,.lf,false,some ⟨24,[.setEnt .internalNl,.cb],none,false⟩⟩,⟨256,.vt,false,some ⟨25,[],none,false⟩⟩,⟨256,.ff,false,some ⟨26,[.setEnt .internalNl,.cb],none,false⟩⟩,⟨256,.cr,false,some ⟨27,[.setEnt .internalNl,.cb],none,false⟩⟩,⟨256,.cr,true,some ⟨28,[.setEnt .internalNl,.cb],none,false⟩⟩,⟨256,.other,false,some ⟨29,[.setEnt .internalNl,.cb],none,false⟩⟩,⟨256,.other,false,some ⟨30,[.setEnt .internalNl,.cb],none,false⟩⟩]⟩,⟨[4,16],none,[],[⟨256,.other,false,some ⟨22,[.comment],none,false⟩⟩,⟨256,.ws,false,some ⟨23,[],none,false⟩⟩,⟨256,.lf,false,some ⟨31,[],none,false⟩⟩,⟨256,.vt,false,some ⟨25,[],none,false⟩⟩,⟨256,.ff,false,some ⟨26,[],none,false⟩⟩,⟨256,.cr,false,some ⟨27,[],none,false⟩⟩,⟨256,.cr,true,some ⟨28,[],none,false⟩⟩,⟨256,.other,false,some ⟨29,[],none,false⟩⟩,⟨256,.other,false,some ⟨30,[],none,false⟩⟩]⟩,⟨[4,8,16],none,[],[⟨256,.other,false,some ⟨22,[.setEnt .internalNl,.cb,.comment],none,false⟩⟩,⟨256,.ws,false,some ⟨23,[.setEnt .internalNl,.cb],none,false⟩⟩,⟨256,.lf,false,some ⟨31,[.setEnt .internalNl,.cb],none,false⟩⟩,⟨256,.vt,false,some ⟨25,[],none,false⟩⟩,⟨256,.ff,false,some ⟨26,[.setEnt .internalNl,.cb],none,false⟩⟩,⟨256,.cr,false,some ⟨27,[.setEnt .internalNl,.cb],none,false⟩⟩,⟨256,.cr,true,some ⟨28,[.setEnt .internalNl,.cb],none,false⟩⟩,⟨256,.other,false,some ⟨29,[.setEnt .internalNl,.cb],none,false⟩⟩,⟨256,.other,false,some ⟨30,[.setEnt .internalNl,.cb],none,false⟩⟩]⟩,⟨[16,22],none,[],[⟨256,.other,false,some ⟨22,[.comment],none,false⟩⟩,⟨256,.ws,false,some ⟨23,[],none,false⟩⟩,⟨256,.lf,false,some ⟨24,[],none,false⟩⟩,⟨256,.vt,false,some ⟨25,[],none,false⟩⟩,⟨256,.ff,false,some ⟨26,[],none,false⟩⟩,⟨256,.cr,false,some ⟨27,[],none,false⟩⟩,⟨256,.cr,true,some ⟨28,[],none,false⟩⟩,⟨256,.other,false,some ⟨32,[],none,false⟩⟩,⟨256,.other,false,some ⟨30,[],none,false⟩⟩]⟩,⟨[0,11,16],none,[],[⟨256,.other,false,some ⟨33,[.comment],none,false⟩⟩,⟨256,.ws,false,some ⟨34,[],none,false⟩⟩,⟨256,.lf,false,some ⟨35,[],none,false⟩⟩,⟨256,.vt,false,some ⟨36,[],none,false⟩⟩,⟨256,.ff,false,some ⟨37,[],none,false⟩⟩,⟨256,.cr,false,some ⟨38,[],none,false⟩⟩,⟨256,.cr,true,some ⟨39,[],none,false⟩⟩,⟨256,.other,false,some ⟨40,[],none,false⟩⟩,⟨256,.other,false,some ⟨41,[],none,false⟩⟩,⟨256,.other,false,some ⟨42,[.comment],none,false⟩⟩]⟩,⟨[3,10,17],none,[],[⟨256,.other,false,some ⟨83,[.comment],none,false⟩⟩,⟨256,.ws,false,some ⟨84,[],none,false⟩⟩,⟨256,.lf,false,some ⟨85,[],none,false⟩⟩,⟨256,.vt,false,some ⟨86,[],none,false⟩⟩,⟨256,.ff,false,some ⟨87,[],none,false⟩⟩,⟨256,.cr,false,some ⟨88,[],none,false⟩⟩,⟨256,.cr,true,some ⟨89,[],none,false⟩⟩,⟨256,.other,false,some ⟨90,[],none,false⟩⟩,⟨256,.other,false,some ⟨91,[],none,false⟩⟩]⟩,⟨[10,16,19],none,[],[⟨256,.other,false,some ⟨22,[.comment],none,false⟩⟩,⟨256,.ws,false,some ⟨23,[],none,false⟩⟩,⟨256,.lf,false,some ⟨24,[],none,false⟩⟩,⟨256,.vt,false,some ⟨25,[],none,false⟩⟩,⟨256,.ff,false,some ⟨26,[],none,false⟩⟩,⟨256,.cr,false,some ⟨27,[],none,false⟩⟩,⟨256,.cr,true,some ⟨28,[],none,false⟩⟩,⟨256,.other,false,some ⟨29,[],none,false⟩⟩,⟨256,.other,false,some ⟨30,[],none,false⟩⟩]⟩,⟨[9,16,19],none,[],[⟨256,.other,false,some ⟨22,[.comment],none,false⟩⟩,⟨256,.ws,false,some ⟨23,[],none,false⟩⟩,⟨256,.lf,false,some ⟨24,[],none,false⟩⟩,⟨256,.vt,false,some ⟨25,[],none,false⟩⟩,⟨256,.ff,false,some ⟨26,[],none,false⟩⟩,⟨256,.cr,false,some ⟨27,[],none,false⟩⟩,⟨256,.cr,true,some ⟨28,[],none,false⟩⟩,⟨256,.other,false,some ⟨29,[],none,false⟩⟩,⟨256,.other,false,some ⟨30,[],none,false⟩⟩]⟩,⟨[6,16,19],none,[],[⟨256,.other,false,some ⟨22,[.setEnt .internalNl,.cb,.comment],none,false⟩⟩,⟨256,.ws,false,some ⟨23,[.setEnt .internalNl,.cb],none,false⟩⟩,⟨256,.lf,false,some ⟨24,[.setEnt .internalNl,.cb],none,false⟩⟩,⟨256,.vt,false,some ⟨25,[],none,false⟩⟩,⟨256,.ff,false,some ⟨26,[.setEnt .internalNl,.cb],none,false⟩⟩,⟨256,.cr,false,some ⟨27,[.setEnt .internalNl,.cb],none,false⟩⟩,⟨256,.cr,true,some ⟨28,[.setEnt .internalNl,.cb],none,false⟩⟩,⟨256,.other,false,some ⟨29,[.setEnt .internalNl,.cb],none,false⟩⟩,⟨256,.other,false,some ⟨30,[.setEnt .internalNl,.cb],none,false⟩⟩]⟩,⟨[16,19],none,[],[⟨256,.other,false,some ⟨22,[.comment],none,false⟩⟩,⟨256,.ws,false,some ⟨23,[],none,false⟩⟩,⟨256,.lf,false,some ⟨24,[],none,false⟩⟩,⟨256,.vt,false,some ⟨25,[],none,false⟩⟩,⟨256,.ff,false,some ⟨26,[],none,false⟩⟩,⟨256,.cr,false,some ⟨27,[],none,false⟩⟩,⟨256,.cr,true,some ⟨28,[],none,false⟩⟩,⟨256,.other,false,some ⟨29,[],none,false⟩⟩,⟨256,.other,false,some ⟨30,[],none,false⟩⟩]⟩,⟨[7,16,19],none,[],[⟨256,.other,false,some ⟨22,[.setEnt .internalNl,.cb,.comment],none,false⟩⟩,⟨256,.ws,false,some ⟨23,[.setEnt .internalNl,.cb],none,false⟩⟩,⟨256,.lf,false,some ⟨24,[.setEnt .internalNl,.cb],none,false⟩⟩,⟨256,.vt,false,some ⟨25,[],none,false⟩⟩,⟨256,.ff,false,some ⟨26,[.setEnt .internalNl,.cb],none,false⟩⟩,⟨256,.cr,false,some ⟨27,[.setEnt .internalNl,.cb],none,false⟩⟩,⟨256,.cr,true,some ⟨28,[.setEnt .internalNl,.cb],none,false⟩⟩,⟨256,.other,false,some ⟨29,[.setEnt .internalNl,.cb],none,false⟩⟩,⟨256,.other,false,some ⟨30,[.setEnt .internalNl,.cb],none,false⟩⟩]⟩,⟨[4,16,19],none,[],[⟨256,.other,false,some ⟨22,[.comment],none,false⟩⟩,⟨256,.ws,false,some ⟨23,[],none,false⟩⟩,⟨256,.lf,false,some ⟨31,[],none,false⟩⟩,⟨256,.vt,false,some ⟨25,[],none,false⟩⟩,⟨256,.ff,false,some ⟨26,[],none,false⟩⟩,⟨256,.cr,false,some ⟨27,[],none,false⟩⟩,⟨256,.cr,true,some ⟨28,[],none,false⟩⟩,⟨256,.other,false,some ⟨29,[],none,false⟩⟩,⟨256,.other,false,some ⟨30,[],none,false⟩⟩]⟩,⟨[4,8,16,19],none,[],[⟨256,.other,false,some ⟨22,[.setEnt .internalNl,.cb,.comment],none,false⟩⟩,⟨256,.ws,false,some ⟨23,[.setEnt .internalNl,.cb],none,false⟩⟩,⟨256,.lf,false,some ⟨31,[.setEnt .internalNl,.cb],none,false⟩⟩,⟨256,.vt,false,some ⟨25,[],none,false⟩⟩,⟨256,.ff,false,some ⟨26,[.setEnt .internalNl,.cb],none,false⟩⟩,⟨256,.cr,false,some ⟨27,[.setEnt .internalNl,.cb],none,false⟩⟩,⟨256,.cr,true,some ⟨28,[.setEnt .internalNl,.cb],none,false⟩⟩,⟨256,.other,false,some ⟨29,[.setEnt .internalNl,.cb],none,false⟩⟩,⟨256,.other,false,some ⟨30,[.setEnt .internalNl,.cb],none,false⟩⟩]⟩,⟨[16,19,22],none,[],[⟨256,.other,false,some ⟨22,[.comment],none,false⟩⟩,⟨256,.ws,false,some ⟨23,[],none,false⟩⟩,⟨256,.lf,false,some ⟨24,[],none,false⟩⟩,⟨256,.vt,false,some ⟨25,[],none,false⟩⟩,⟨256,.ff,false,some ⟨26,[],none,false⟩⟩,⟨256,.cr,false,some ⟨27,[],none,false⟩⟩,⟨256,.cr,true,some ⟨28,[],none,false⟩⟩,⟨256,.other,false,some ⟨32,[],none,false⟩⟩,⟨256,.other,false,some ⟨30,[],none,false⟩⟩]⟩,⟨[0,11,16,19],none,[],[⟨256,.other,false,some ⟨33,[.comment],none,false⟩⟩,⟨256,.ws,false,some ⟨34,[],none,false⟩⟩,⟨256,.lf,false,some ⟨35,[],none,false⟩⟩,⟨256,.vt,false,some ⟨36,[],none,false⟩⟩,⟨256,.ff,false,some ⟨37,[],none,false⟩⟩,⟨256,.cr,false,some ⟨38,[],none,false⟩⟩,⟨256,.cr,true,some ⟨39,[],none,false⟩⟩,⟨256,.other,false,some ⟨40,[],none,false⟩⟩,⟨256,.other,false,some ⟨41,[],none,false⟩⟩,⟨256,.other,false,some ⟨42,[.comment],none,false⟩⟩]⟩,⟨[3,10,17,19],none,[],[⟨256,.other,false,some ⟨92,[.comment],none,false⟩⟩,⟨256,.ws,false,some ⟨93,[],none,false⟩⟩,⟨256,.lf,false,some ⟨94,[],none,false⟩⟩,⟨256,.vt,false,some ⟨95,[],none,false⟩⟩,⟨256,.ff,false,some ⟨96,[],none,false⟩⟩,⟨256,.cr,false,some ⟨97,[],none,false⟩⟩,⟨256,.cr,true,some ⟨98,[],none,false⟩⟩,⟨256,.other,false,some ⟨99,[],none,false⟩⟩,⟨256,.other,false,some ⟨100,[],none,false⟩⟩]⟩,⟨[10,18],none,[],[⟨256,.other,false,some ⟨22,[.comment],none,false⟩⟩,⟨256,.ws,false,some ⟨23,[],none,false⟩⟩,⟨256,.lf,false,some ⟨24,[],none,false⟩⟩,⟨256,.vt,false,some ⟨25,[],none,false⟩⟩,⟨256,.ff,false,some ⟨26,[],none,false⟩⟩,⟨256,.cr,false,some ⟨27,[],none,false⟩⟩,⟨256,.cr,true,some ⟨28,[],none,false⟩⟩,⟨256,.other,false,some ⟨29,[],none,false⟩⟩,⟨256,.other,false,some ⟨30,[],none,false⟩⟩]⟩,⟨[9,18],none,[],[⟨256,.other,false,some ⟨22,[.comment],none,false⟩⟩,⟨256,.ws,false,some ⟨23,[],none,false⟩⟩,⟨256,.lf,false,some ⟨24,[],none,false⟩⟩,⟨256,.vt,false,some ⟨25,[],none,false⟩⟩,⟨256,.ff,false,some ⟨26,[],none,false⟩⟩,⟨256,.cr,false,some ⟨27,[],none,false⟩⟩,⟨256,.cr,true,some ⟨28,[],none,false⟩⟩,⟨256,.other,false,some ⟨29,[],none,false⟩⟩,⟨256,.other,false,some ⟨30,[],none,false⟩⟩]⟩,⟨[6,18],none,[],[⟨256,.other,false,some ⟨22,[.setEnt .internalNl,.cb,.comment],none,false⟩⟩,⟨256,.ws,false,some ⟨23,[.setEnt .internalNl,.cb],none,false⟩⟩,⟨256,.lf,false,some ⟨24,[.setEnt .internalNl,.cb],none,false⟩⟩,⟨256,.vt,false,some ⟨25,[],none,false⟩⟩,⟨256,.ff,false,some ⟨26,[.setEnt .internalNl,.cb],none,false⟩⟩,⟨256,.cr,false,some ⟨27,[.setEnt .internalNl,.cb],none,false⟩⟩,⟨256,.cr,true,some ⟨28,[.setEnt .internalNl,.cb],none,false⟩⟩,⟨256,.other,false,some ⟨29,[.setEnt .internalNl,.cb],none,false⟩⟩,⟨256,.other,false,some ⟨30,[.setEnt .internalNl,.cb],none,false⟩⟩]⟩,⟨[18],none,[],[⟨256,.other,false,some ⟨22,[.comment],none,false⟩⟩,⟨256,.ws,false,some ⟨23,[],none,false⟩⟩,⟨256,.lf,false,some ⟨24,[],none,false⟩⟩,⟨256,.vt,false,some ⟨25,[],none,false⟩⟩,⟨256,.ff,false,some ⟨26,[],none,false⟩⟩,⟨256,.cr,false,some ⟨27,[],none,false⟩⟩,⟨256,.cr,true,some ⟨28,[],none,false⟩⟩,⟨256,.other,false,some ⟨29,[],none,false⟩⟩,⟨256,.other,false,some ⟨30,[],none,false⟩⟩]⟩,⟨[7,18],none,[],[⟨256,.other,false,some ⟨22,[.setEnt .internalNl,.cb,.comment],none,false⟩⟩,⟨256,.ws,false,some ⟨23,[.setEnt .internalNl,.cb],none,false⟩⟩,⟨256,.lf,false,some ⟨24,[.setEnt .internalNl,.cb],none,false⟩⟩,⟨256,.vt,false,some ⟨25,[],none,false⟩⟩,⟨256,.ff,false,some ⟨26,[.setEnt .internalNl,.cb],none,false⟩⟩,⟨256,.cr,false,some ⟨27,[.setEnt .internalNl,.cb],none,false⟩⟩,⟨256,.cr,true,some ⟨28,[.setEnt .internalNl,.cb],none,false⟩⟩,⟨256,.other,false,some ⟨29,[.setEnt .internalNl,.cb],none,false⟩⟩,⟨256,.other,false,some ⟨30,[.setEnt .internalNl,.cb],none,false⟩⟩]⟩,⟨[4,18],none,[],[⟨256,.other,false,some ⟨22,[.comment],none,false⟩⟩,⟨256,.ws,false,some ⟨23,[],none,false⟩⟩,⟨256,.lf,false,some ⟨31,[],none,false⟩⟩,⟨256,.vt,false,some ⟨25,[],none,false⟩⟩,⟨256,.ff,false,some ⟨26,[],none,false⟩⟩,⟨256,.cr,false,some ⟨27,[],none,false⟩⟩,⟨256,.cr,true,some ⟨28,[],none,false⟩⟩,⟨256,.other,false,some ⟨29,[],none,false⟩⟩,⟨256,.other,false,some ⟨30,[],none,false⟩⟩]⟩,⟨[4,8,18],none,[],[⟨256,.other,false,some ⟨22,[.setEnt .internalNl,.cb,.comment],none,false⟩⟩,⟨256,.ws,false,some ⟨23,[.setEnt .internalNl,.cb],none,false⟩⟩,⟨256,.lf,false,some ⟨31,[.setEnt .internalNl,.cb],none,false⟩⟩,⟨256,.vt,false,some ⟨25,[],none,false⟩⟩,⟨256,.ff,false,some ⟨26,[.setEnt .internalNl,.cb],none,false⟩⟩,⟨256,.cr,false,some ⟨27,[.setEnt .internalNl,.cb],none,false⟩⟩,⟨256,.cr,true,some ⟨28,[.setEnt .internalNl,.cb],none,false⟩⟩,⟨256,.other,false,some ⟨29,[.setEnt .internalNl,.cb],none,false⟩⟩,⟨256,.other,false,some ⟨30,[.setEnt .internalNl,.cb],none,false⟩⟩]⟩,⟨[18,22],none,[],[⟨256,.other,false,some ⟨22,[.comment],none,false⟩⟩,⟨256,.ws,false,some ⟨23,[],none,false⟩⟩,⟨256,.lf,false,some ⟨24,[],none,false⟩⟩,⟨256,.vt,false,some ⟨25,[],none,false⟩⟩,⟨256,.ff,false,some ⟨26,[],none,false⟩⟩,⟨256,.cr,false,some ⟨27,[],none,false⟩⟩,⟨256,.cr,true,some ⟨28,[],none,false⟩⟩,⟨256,.other,false,some ⟨32,[],none,false⟩⟩,⟨256,.other,false,some ⟨30,[],none,false⟩⟩]⟩,⟨[0,11,18],none,[],[⟨256,.other,false,some ⟨33,[.comment],none,false⟩⟩,⟨256,.ws,false,some ⟨34,[],none,false⟩⟩,⟨256,.lf,false,some ⟨35,[],none,false⟩⟩,⟨256,.vt,false,some ⟨36,[],none,false⟩⟩,⟨256,.ff,false,some ⟨37,[],none,false⟩⟩,⟨256,.cr,false,some ⟨38,[],none,false⟩⟩,⟨256,.cr,true,some ⟨39,[],none,false⟩⟩,⟨256,.other,false,some ⟨40,[],none,false⟩⟩,⟨256,.other,false,some ⟨41,[],none,false⟩⟩,⟨256,.other,false,some ⟨42,[.comment],none,false⟩⟩]⟩,⟨[10,18,19],none,[],[⟨256,.other,false,some ⟨22,[.comment],none,false⟩⟩,⟨256,.ws,false,some ⟨23,[],none,false⟩⟩,⟨256,.lf,false,some ⟨24,[],none,false⟩⟩,⟨256,.vt,false,some ⟨25,[],none,false⟩⟩,⟨256,.ff,false,some ⟨26,[],none,false⟩⟩,⟨256,.cr,false,some ⟨27,[],none,false⟩⟩,⟨256,.cr,true,some ⟨28,[],none,false⟩⟩,⟨256,.other,false,some ⟨29,[],none,false⟩⟩,⟨256,.other,false,some ⟨30,[],none,false⟩⟩]⟩,⟨[9,18,19],none,[],[⟨256,.other,false,some ⟨22,[.comment],none,false⟩⟩,⟨256,.ws,false,some ⟨23,[],none,false⟩⟩,⟨256,.lf,false,some ⟨24,[],none,false⟩⟩,⟨256,.vt,false,some ⟨25,[],none,false⟩⟩,⟨256,.ff,false,some ⟨26,[],none,false⟩⟩,⟨256,.cr,false,some ⟨27,[],none,false⟩⟩,⟨256,.cr,true,some ⟨28,[],none,false⟩⟩,⟨256,.other,false,some ⟨29,[],none,false⟩⟩,⟨256,.other,false,some ⟨30,[],none,false⟩⟩]⟩,⟨[6,18,19],none,[],[⟨256,.other,false,some ⟨22,[.setEnt .internalNl,.cb,.comment],none,false⟩⟩,⟨256,.ws,false,some ⟨23,[.setEnt .internalNl,.cb],none,false⟩⟩,⟨256,.lf,false,some ⟨24,[.setEnt .internalNl,.cb],none,false⟩⟩,⟨256,.vt,false,some ⟨25,[],none,false⟩⟩,⟨256,.ff,false,some ⟨26,[.setEnt .internalNl,.cb],none,false⟩⟩,⟨256,.cr,false,some ⟨27,[.setEnt .internalNl,.cb],none,false⟩⟩,⟨256,.cr,true,some ⟨28,[.setEnt .internalNl,.cb],none,false⟩⟩,⟨256,.other,false,some ⟨29,[.setEnt .internalNl,.cb],none,false⟩⟩,⟨256,.other,false,some ⟨30,[.setEnt .internalNl,.cb],none,false⟩⟩]⟩,⟨[18,19],none,[],[⟨256,.other,false,some ⟨22,[.comment],none,false⟩⟩,⟨256,.ws,false,some ⟨23,[],none,false⟩⟩,⟨256,.lf,false,some ⟨24,[],none,false⟩⟩,⟨256,.vt,false,some ⟨25,[],none,false⟩⟩,⟨256,.ff,false,some ⟨26,[],none,false⟩⟩,⟨256,.cr,false,some ⟨27,[],none,false⟩⟩,⟨256,.cr,true,some ⟨28,[],none,false⟩⟩,⟨256,.other,false,some ⟨29,[],none,false⟩⟩,⟨256,.other,false,some ⟨30,[],none,false⟩⟩]⟩,⟨[7,18,19],none,[],[⟨256,.other,false,some ⟨22,[.setEnt .internalNl,.cb,.comment],none,false⟩⟩,⟨256,.ws,false,some ⟨23,[.setEnt .internalNl,.cb],none,false⟩⟩,⟨256,.lf,false,some ⟨24,[.setEnt .internalNl,.cb],none,false⟩⟩,⟨256,.vt,false,some ⟨25,[],none,false⟩⟩,⟨256,.ff,false,some ⟨26,[.setEnt .internalNl,.cb],none,false⟩⟩,⟨256,.cr,false,some ⟨27,[.setEnt .internalNl,.cb],none,false⟩⟩,⟨256,.cr,true,some ⟨28,[.setEnt .internalNl,.cb],none,false⟩⟩,⟨256,.other,false,some ⟨29,[.setEnt .internalNl,.cb],none,false⟩⟩,⟨256,.other,false,some ⟨30,[.setEnt .internalNl,.cb],none,false⟩⟩]⟩,⟨[4,18,19],none,[],[⟨256,.other,false,some ⟨22,[.comment],none,false⟩⟩,⟨256,.ws,false,some ⟨23,[],none,false⟩⟩,⟨256,.lf,false,some ⟨31,[],none,false⟩⟩,⟨256,.vt,false,some ⟨25,[],none,false⟩⟩,⟨256,.ff,false,some ⟨26,[],none,false⟩⟩,⟨256,.cr,false,some ⟨27,[],none,false⟩⟩,⟨256,.cr,true,some ⟨28,[],none,false⟩⟩,⟨256,.other,false,some ⟨29,[],none,false⟩⟩,⟨256,.other,false,some ⟨30,[],none,false⟩⟩]⟩,⟨[4,8,18,19],none,[],[⟨256,.other,false,some ⟨22,[.setEnt .internalNl,.cb,.comment],none,false⟩⟩,⟨256,.ws,false,some ⟨23,[.setEnt .internalNl,.cb],none,false⟩⟩,⟨256,.lf,false,some ⟨31,[.setEnt .internalNl,.cb],none,false⟩⟩,⟨256,.vt,false,some ⟨25,[],none,false⟩⟩,⟨256,.ff,false,some ⟨26,[.setEnt .internalNl,.cb],none,false⟩⟩,⟨256,.cr,false,some ⟨27,[.setEnt .internalNl,.cb],none,false⟩⟩,⟨256,.cr,true,some ⟨28,[.setEnt .internalNl,.cb],none,false⟩⟩,⟨256,.other,false,some ⟨29,[.setEnt .internalNl,.cb],none,false⟩⟩,⟨256,.other,false,some ⟨30,[.setEnt .internalNl,.cb],none,false⟩⟩]⟩,⟨[18,19,22],none,[],[⟨256,.other,false,some ⟨22,[.comment],none,false⟩⟩,⟨256,.ws,false,some ⟨23,[],none,false⟩⟩,⟨256,.lf,false,some ⟨24,[],none,false⟩⟩,⟨256,.vt,false,some ⟨25,[],none,false⟩⟩,⟨256,.ff,false,some ⟨26,[],none,false⟩⟩,⟨256,.cr,false,some ⟨27,[],none,false⟩⟩,⟨256,.cr,true,some ⟨28,[],none,false⟩⟩,⟨256,.other,false,some ⟨32,[],none,false⟩⟩,⟨256,.other,false,some ⟨30,[],none,false⟩⟩]⟩,⟨[0,11,18,19],none,[],[⟨256,.other,false,some ⟨33,[.comment],none,false⟩⟩,⟨256,.ws,false,some ⟨34,[],none,false⟩⟩,⟨256,.lf,false,some ⟨35,[],none,false⟩⟩,⟨256,.vt,false,some ⟨36,[],none,false⟩⟩,⟨256,.ff,false,some ⟨37,[],none,false⟩⟩,⟨256,.cr,false,some ⟨38,[],none,false⟩⟩,⟨256,.cr,true,some ⟨39,[],none,false⟩⟩,⟨256,.other,false,some ⟨40,[],none,false⟩⟩,⟨256,.other,false,some ⟨41,[],none,false⟩⟩,⟨256,.other,false,some ⟨42,[.comment],none,false⟩⟩]⟩]
theorem emb39_rowsOk : rowsOk emb39_nfa [] (emb39_cs.map (·.1)) emb39_rows = true := by decide +kernel
def emb39_D : Dfa emb39_nfa := ⟨emb39_masks, [], emb39_cs, emb39_rows, emb39_masksIn, emb39_repOk, emb39_rowsOk⟩

/-- The automaton of `Emb.Clearsilverhtml.cshtml_cs_line`. -/
def emb42_nfa : Nfa := ⟨[⟨0,9223372036854775808,[],[],0,0⟩,⟨2,4294967808,[],[(3,.setEnt (.own 0))],0,0⟩,⟨3,34359738368,[],[(4,.comment)],0,0⟩,⟨5,17179869184,[],[(5,.code)],0,0⟩,⟨10,8192,[],[(6,.setEnt .newline)],0,0⟩,⟨12,1024,[],[(6,.setEnt .newline)],0,0⟩,⟨13,4096,[],[(6,.setEnt .newline)],0,0⟩,⟨14,8192,[.crAlone],[(6,.setEnt .newline)],0,0⟩,⟨15,115792089237316195423570985008687907853269984665640564039457584007908834656767,[],[(7,.setEnt (.own 3))],0,0⟩],[[⟨1,4611686018427387904,[],[(0,.emb .outry),(1,.code),(2,.emb .back)],0,0⟩],[],[⟨2,4294967808,[],[(3,.setEnt (.own 0))],0,0⟩],[⟨4,115792089237316195423570985008687907853269984665640564039457584007913129626623,[],[],0,0⟩],[⟨4,115792089237316195423570985008687907853269984665640564039457584007913129626623,[],[],0,0⟩],[⟨6,115792089237316195423570985008687907853269984665635612279300442486796353260543,[],[],0,0⟩,⟨7,4951760157141521099596496896,[],[],0,0⟩,⟨9,17179869184,[],[],0,0⟩],[⟨6,115792089237316195423570985008687907853269984665635612279300442486796353260543,[],[],0,0⟩,⟨7,4951760157141521099596496896,[],[],0,0⟩,⟨9,17179869184,[],[],0,0⟩],[⟨8,115792089237316195423570985008687907853269984665640564039457584007913129626623,[],[],0,0⟩],[⟨6,115792089237316195423570985008687907853269984665635612279300442486796353260543,[],[],0,0⟩,⟨7,4951760157141521099596496896,[],[],0,0⟩,⟨9,17179869184,[],[],0,0⟩],[],[⟨11,1024,[],[(6,.setEnt .newline)],0,0⟩],[],[],[],[],[]],[none,some (0,[]),some (1,[]),some (2,[]),some (2,[]),none,none,none,none,some (3,[]),none,some (4,[]),some (4,[]),some (4,[]),some (4,[]),some (5,[])],[3,4,5,6,7,8]⟩
def emb42_masks : List Nat := [9223372036854775808,4294967808,34359738368,17179869184,8192,1024,4096,115792089237316195423570985008687907853269984665640564039457584007908834656767,4611686018427387904,115792089237316195423570985008687907853269984665640564039457584007913129626623,115792089237316195423570985008687907853269984665635612279300442486796353260543,4951760157141521099596496896]
def emb42_cs : List (Nat × Nat) := [(0,115792089237316195423570985008687907853269984665635612279286607428702416388607),(9,4294967808),(10,1024),(11,2048),(12,4096),(13,8192),(34,17179869184),(35,34359738368),(62,4611686018427387904),(63,9223372036854775808),(92,4951760157141521099596496896)]
theorem emb42_masksIn : masksIn emb42_nfa emb42_masks = true := by decide +kernel
theorem emb42_repOk : repOk emb42_masks emb42_cs = true := by decide +kernel
def emb42_rows : List Row := [⟨[],none,[],[⟨256,.other,false,some ⟨0,[.setEnt (.own 3)],some 5,true⟩⟩,⟨256,.ws,false,some ⟨1,[.setEnt (.own 0)],some 1,false⟩⟩,⟨256,.lf,false,some ⟨0,[.setEnt .newline],some 4,true⟩⟩,⟨256,.vt,false,none⟩,⟨256,.ff,false,some ⟨0,[.setEnt .newline],some 4,true⟩⟩,⟨256,.cr,false,some ⟨2,[.setEnt .newline],none,false⟩⟩,⟨256,.cr,true,some ⟨3,[.setEnt .newline],some 4,false⟩⟩,⟨256,.other,false,some ⟨4,[.code,.setEnt (.own 3)],some 5,false⟩⟩,⟨256,.other,false,some ⟨5,[.comment,.setEnt (.own 3)],some 2,false⟩⟩,⟨256,.other,false,some ⟨6,[.setEnt (.own 3)],some 5,false⟩⟩]⟩,⟨[2],some 1,[],[⟨256,.other,false,none⟩,⟨256,.ws,false,some ⟨1,[.setEnt (.own 0)],some 1,false⟩⟩,⟨256,.lf,false,none⟩,⟨256,.vt,false,none⟩,⟨256,.ff,false,none⟩,⟨256,.cr,false,none⟩,⟨256,.cr,true,none⟩]⟩,⟨[10],none,[],[⟨256,.other,false,none⟩,⟨256,.ws,false,none⟩,⟨256,.lf,false,some ⟨0,[.setEnt .newline],some 4,true⟩⟩,⟨256,.vt,false,none⟩,⟨256,.ff,false,none⟩,⟨256,.cr,false,none⟩,⟨256,.cr,true,none⟩]⟩,⟨[10,14],some 4,[],[⟨256,.other,false,none⟩,⟨256,.ws,false,none⟩,⟨256,.lf,false,some ⟨0,[.setEnt .newline],some 4,true⟩⟩,⟨256,.vt,false,none⟩,⟨256,.ff,false,none⟩,⟨256,.cr,false,none⟩,⟨256,.cr,true,none⟩]⟩,⟨[5,15],some 5,[],[⟨256,.other,false,some ⟨7,[],none,false⟩⟩,⟨256,.ws,false,some ⟨7,[],none,false⟩⟩,⟨256,.lf,false,none⟩,⟨256,.vt,false,some ⟨7,[],none,false⟩⟩,⟨256,.ff,false,none⟩,⟨256,.cr,false,none⟩,⟨256,.cr,true,none⟩,⟨256,.other,false,some ⟨0,[],some 3,true⟩⟩,⟨256,.other,false,some ⟨8,[],none,false⟩⟩]⟩,⟨[3,15],some 2,[],[⟨256,.other,false,some ⟨9,[],some 2,false⟩⟩,⟨256,.ws,false,some ⟨9,[],some 2,false⟩⟩,⟨256,.lf,false,none⟩,⟨256,.vt,false,some ⟨9,[],some 2,false⟩⟩,⟨256,.ff,false,none⟩,⟨256,.cr,false,none⟩,⟨256,.cr,true,none⟩]⟩,⟨[0,15],some 5,[],[⟨256,.other,false,none⟩,⟨256,.ws,false,none⟩,⟨256,.lf,false,none⟩,⟨256,.vt,false,none⟩,⟨256,.ff,false,none⟩,⟨256,.cr,false,none⟩,⟨256,.cr,true,none⟩,⟨256,.other,false,some ⟨0,[.emb .outry,.code,.emb .back],some 0,true⟩⟩]⟩,⟨[6],none,[],[⟨256,.other,false,some ⟨7,[],none,false⟩⟩,⟨256,.ws,false,some ⟨7,[],none,false⟩⟩,⟨256,.lf,false,none⟩,⟨256,.vt,false,some ⟨7,[],none,false⟩⟩,⟨256,.ff,false,none⟩,⟨256,.cr,false,none⟩,⟨256,.cr,true,none⟩,⟨256,.other,false,some ⟨0,[],some 3,true⟩⟩,⟨256,.other,false,some ⟨8,[],none,false⟩⟩]⟩,⟨[7],none,[],[⟨256,.other,false,some ⟨10,[],none,false⟩⟩,⟨256,.ws,false,some ⟨10,[],none,false⟩⟩,⟨256,.lf,false,none⟩,⟨256,.vt,false,some ⟨10,[],none,false⟩⟩,⟨256,.ff,false,none⟩,⟨256,.cr,false,none⟩,⟨256,.cr,true,none⟩]⟩,⟨[4],some 2,[],[⟨256,.other,false,some ⟨9,[],some 2,false⟩⟩,⟨256,.ws,false,some ⟨9,[],some 2,false⟩⟩,⟨256,.lf,false,none⟩,⟨256,.vt,false,some ⟨9,[],some 2,false⟩⟩,⟨256,.ff,false,none⟩,⟨256,.cr,false,none⟩,⟨256,.cr,true,none⟩]⟩,⟨[8],none,[],[⟨256,.other,false,some ⟨7,[],none,false⟩⟩,⟨256,.ws,false,some ⟨7,[],none,false⟩⟩,⟨256,.lf,false,none⟩,⟨256,.vt,false,some ⟨7,[],none,false⟩⟩,⟨256,.ff,false,none⟩,⟨256,.cr,false,none⟩,⟨256,.cr,true,none⟩,⟨256,.other,false,some ⟨0,[],some 3,true⟩⟩,⟨256,.other,false,some ⟨8,[],none,false⟩⟩]⟩]
theorem emb42_rowsOk : rowsOk emb42_nfa [] (emb42_cs.map (·.1)) emb42_rows = true := by decide +kernel
def emb42_D : Dfa emb42_nfa := ⟨emb42_masks, [], emb42_cs, emb42_rows, emb42_masksIn, emb42_repOk, emb42_rowsOk⟩

/-- The automaton of `Emb.Clearsilverhtml.cshtml_cs_entity`. -/
def emb44_nfa : Nfa := ⟨[⟨0,9223372036854775808,[],[],0,0⟩,⟨2,4294983168,[],[(1,.setEnt (.own 0))],0,0⟩,⟨3,34359738368,[],[(2,.setEnt (.own 1))],0,0⟩,⟨5,115792089237316195423570985008687907853269984665640564039457584007908834656767,[],[],0,0⟩],[[⟨1,4611686018427387904,[],[(0,.emb .ret)],0,0⟩],[],[⟨2,4294983168,[],[(1,.setEnt (.own 0))],0,0⟩],[⟨4,115792089237316195423570985008687907853269984665640564039457584007913129626623,[],[(2,.setEnt (.own 1))],0,0⟩],[⟨4,115792089237316195423570985008687907853269984665640564039457584007913129626623,[],[(2,.setEnt (.own 1))],0,0⟩],[]],[none,some (0,[]),some (1,[]),some (2,[]),some (2,[]),some (3,[])],[1,2,3,3]⟩
def emb44_masks : List Nat := [9223372036854775808,4294983168,34359738368,115792089237316195423570985008687907853269984665640564039457584007908834656767,4611686018427387904,115792089237316195423570985008687907853269984665640564039457584007913129626623]
def emb44_cs : List (Nat × Nat) := [(0,115792089237316195423570985008687907853269984665640564039443748949819192754687),(9,4294967808),(10,1024),(11,2048),(12,4096),(13,8192),(35,34359738368),(62,4611686018427387904),(63,9223372036854775808)]
theorem emb44_masksIn : masksIn emb44_nfa emb44_masks = true := by decide +kernel
theorem emb44_repOk : repOk emb44_masks emb44_cs = true := by decide +kernel
def emb44_rows : List Row := [⟨[],none,[],[⟨256,.other,false,some ⟨0,[],some 3,true⟩⟩,⟨256,.ws,false,some ⟨1,[.setEnt (.own 0)],some 1,false⟩⟩,⟨256,.lf,false,some ⟨1,[.setEnt (.own 0)],some 1,false⟩⟩,⟨256,.vt,false,some ⟨1,[.setEnt (.own 0)],some 1,false⟩⟩,⟨256,.ff,false,some ⟨1,[.setEnt (.own 0)],some 1,false⟩⟩,⟨256,.cr,false,some ⟨1,[.setEnt (.own 0)],some 1,false⟩⟩,⟨256,.cr,true,some ⟨1,[.setEnt (.own 0)],some 1,false⟩⟩,⟨256,.other,false,some ⟨2,[.setEnt (.own 1)],some 2,false⟩⟩,⟨256,.other,false,some ⟨3,[],some 3,false⟩⟩]⟩,⟨[2],some 1,[],[⟨256,.other,false,none⟩,⟨256,.ws,false,some ⟨1,[.setEnt (.own 0)],some 1,false⟩⟩,⟨256,.lf,false,some ⟨1,[.setEnt (.own 0)],some 1,false⟩⟩,⟨256,.vt,false,some ⟨1,[.setEnt (.own 0)],some 1,false⟩⟩,⟨256,.ff,false,some ⟨1,[.setEnt (.own 0)],some 1,false⟩⟩,⟨256,.cr,false,some ⟨1,[.setEnt (.own 0)],some 1,false⟩⟩,⟨256,.cr,true,some ⟨1,[.setEnt (.own 0)],some 1,false⟩⟩]⟩,⟨[3,5],some 2,[],[⟨256,.other,false,some ⟨4,[.setEnt (.own 1)],some 2,false⟩⟩,⟨256,.ws,false,some ⟨4,[.setEnt (.own 1)],some 2,false⟩⟩,⟨256,.lf,false,none⟩,⟨256,.vt,false,some ⟨4,[.setEnt (.own 1)],some 2,false⟩⟩,⟨256,.ff,false,none⟩,⟨256,.cr,false,none⟩,⟨256,.cr,true,none⟩]⟩,⟨[0,5],some 3,[],[⟨256,.other,false,none⟩,⟨256,.ws,false,none⟩,⟨256,.lf,false,none⟩,⟨256,.vt,false,none⟩,⟨256,.ff,false,none⟩,⟨256,.cr,false,none⟩,⟨256,.cr,true,none⟩,⟨256,.other,false,some ⟨0,[.emb .ret],some 0,true⟩⟩]⟩,⟨[4],some 2,[],[⟨256,.other,false,some ⟨4,[.setEnt (.own 1)],some 2,false⟩⟩,⟨256,.ws,false,some ⟨4,[.setEnt (.own 1)],some 2,false⟩⟩,⟨256,.lf,false,none⟩,⟨256,.vt,false,some ⟨4,[.setEnt (.own 1)],some 2,false⟩⟩,⟨256,.ff,false,none⟩,⟨256,.cr,false,none⟩,⟨256,.cr,true,none⟩]⟩]
theorem emb44_rowsOk : rowsOk emb44_nfa [] (emb44_cs.map (·.1)) emb44_rows = true := by decide +kernel
def emb44_D : Dfa emb44_nfa := ⟨emb44_masks, [], emb44_cs, emb44_rows, emb44_masksIn, emb44_repOk, emb44_rowsOk⟩
def emb44_maskst : List Nat := [9223372036854775808,4294983168,34359738368,115792089237316195423570985008687907853269984665640564039457584007908834656767,4611686018427387904,115792089237316195423570985008687907853269984665640564039457584007913129626623,140737488355328,1152921504606846976]
def emb44_cst : List (Nat × Nat) := [(0,115792089237316195423570985008687907853269984665640564039442595887577097552383),(9,4294967808),(10,1024),(11,2048),(12,4096),(13,8192),(35,34359738368),(47,140737488355328),(60,1152921504606846976),(62,4611686018427387904),(63,9223372036854775808)]
theorem emb44_masksInt : masksIn emb44_nfa emb44_maskst = true := by decide +kernel
theorem emb44_repOkt : repOk emb44_maskst emb44_cst = true := by decide +kernel
def emb44_rowst : List Row := [⟨[],none,[],[⟨256,.other,false,some ⟨0,[],some 3,true⟩⟩,⟨256,.ws,false,some ⟨1,[.setEnt (.own 0)],some 1,false⟩⟩,⟨256,.lf,false,some ⟨1,[.setEnt (.own 0)],some 1,false⟩⟩,⟨256,.vt,false,some ⟨1,[.setEnt (.own 0)],some 1,false⟩⟩,⟨256,.ff,false,some ⟨1,[.setEnt (.own 0)],some 1,false⟩⟩,⟨256,.cr,false,some ⟨1,[.setEnt (.own 0)],some 1,false⟩⟩,⟨256,.cr,true,some ⟨1,[.setEnt (.own 0)],some 1,false⟩⟩,⟨256,.other,false,some ⟨2,[.setEnt (.own 1)],some 2,false⟩⟩,⟨47,.other,false,some ⟨0,[],some 3,true⟩⟩,⟨60,.other,false,some ⟨0,[],some 3,true⟩⟩,⟨62,.other,false,some ⟨0,[],some 3,true⟩⟩,⟨256,.other,false,some ⟨3,[],some 3,false⟩⟩]⟩,⟨[2],some 1,[],[⟨256,.other,false,none⟩,⟨256,.ws,false,some ⟨1,[.setEnt (.own 0)],some 1,false⟩⟩,⟨256,.lf,false,some ⟨1,[.setEnt (.own 0)],some 1,false⟩⟩,⟨256,.vt,false,some ⟨1,[.setEnt (.own 0)],some 1,false⟩⟩,⟨256,.ff,false,some ⟨1,[.setEnt (.own 0)],some 1,false⟩⟩,⟨256,.cr,false,some ⟨1,[.setEnt (.own 0)],some 1,false⟩⟩,⟨256,.cr,true,some ⟨1,[.setEnt (.own 0)],some 1,false⟩⟩,⟨47,.other,false,none⟩,⟨60,.other,false,none⟩,⟨62,.other,false,none⟩]⟩,⟨[3,5],some 2,[],[⟨256,.other,false,some ⟨4,[.setEnt (.own 1)],some 2,false⟩⟩,⟨256,.ws,false,some ⟨4,[.setEnt (.own 1)],some 2,false⟩⟩,⟨256,.lf,false,none⟩,⟨256,.vt,false,some ⟨4,[.setEnt (.own 1)],some 2,false⟩⟩,⟨256,.ff,false,none⟩,⟨256,.cr,false,none⟩,⟨256,.cr,true,none⟩,⟨47,.other,false,some ⟨4,[.setEnt (.own 1)],some 2,false⟩⟩,⟨60,.other,false,some ⟨4,[.setEnt (.own 1)],some 2,false⟩⟩,⟨62,.other,false,some ⟨4,[.setEnt (.own 1)],some 2,false⟩⟩]⟩,⟨[0,5],some 3,[],[⟨256,.other,false,none⟩,⟨256,.ws,false,none⟩,⟨256,.lf,false,none⟩,⟨256,.vt,false,none⟩,⟨256,.ff,false,none⟩,⟨256,.cr,false,none⟩,⟨256,.cr,true,none⟩,⟨47,.other,false,none⟩,⟨60,.other,false,none⟩,⟨62,.other,false,some ⟨0,[.emb .ret],some 0,true⟩⟩]⟩,⟨[4],some 2,[],[⟨256,.other,false,some ⟨4,[.setEnt (.own 1)],some 2,false⟩⟩,⟨256,.ws,false,some ⟨4,[.setEnt (.own 1)],some 2,false⟩⟩,⟨256,.lf,false,none⟩,⟨256,.vt,false,some ⟨4,[.setEnt (.own 1)],some 2,false⟩⟩,⟨256,.ff,false,none⟩,⟨256,.cr,false,none⟩,⟨256,.cr,true,none⟩,⟨47,.other,false,some ⟨4,[.setEnt (.own 1)],some 2,false⟩⟩,⟨60,.other,false,some ⟨4,[.setEnt (.own 1)],some 2,false⟩⟩,⟨62,.other,false,some ⟨4,[.setEnt (.own 1)],some 2,false⟩⟩]⟩]
theorem emb44_rowsOkt : rowsOk emb44_nfa [47, 60, 62] (emb44_cst.map (·.1)) emb44_rowst = true := by decide +kernel
def emb44_Dt : Dfa emb44_nfa := ⟨emb44_maskst, [47, 60, 62], emb44_cst, emb44_rowst, emb44_masksInt, emb44_repOkt, emb44_rowsOkt⟩

/-- The automaton of `Emb.CsAspx.cs_aspx_line`. -/
def emb47_nfa : Nfa := ⟨[⟨0,1152921504606846976,[],[],0,2⟩,⟨17,1152921504606846976,[],[],0,4⟩,⟨42,1152921504606846976,[],[],0,0⟩,⟨44,1152921504606846976,[],[],0,8⟩,⟨60,4294967808,[],[(12,.setEnt (.own 0))],0,0⟩,⟨61,1152921504606846976,[],[],0,0⟩,⟨65,549755813888,[],[(14,.code)],0,0⟩,⟨66,17179869184,[],[(15,.code)],0,0⟩,⟨67,8192,[],[(16,.setEnt .newline)],0,0⟩,⟨69,1024,[],[(16,.setEnt .newline)],0,0⟩,⟨70,4096,[],[(16,.setEnt .newline)],0,0⟩,⟨71,8192,[.crAlone],[(16,.setEnt .newline)],0,0⟩,⟨72,115792089237316195423570985008687907853269984665640564039457584007908834656767,[],[(17,.setEnt (.own 5))],0,0⟩],[[⟨1,41538374877950027585161004031410176,[],[],0,2⟩],[⟨2,83076749755900055170322008062820352,[],[],0,2⟩],[⟨3,2658455992188801765450304258010251264,[],[],0,2⟩],[⟨4,324518553733984590509070343995392,[],[],0,2⟩],[⟨5,2535301201046754613352112062464,[],[],0,2⟩],[⟨6,115792089237316195423570985008687907853269984665640564039452972321894702252031,[],[],0,2⟩],[⟨6,115792089237316195423570985008687907853269984665640564039452972321894702252031,[],[],0,2⟩,⟨7,83076749736557242056487941267521536,[],[],0,2⟩],[⟨8,2535301200456458802993406410752,[],[],0,0⟩],[⟨9,1329227995784915872903807060280344576,[],[],0,0⟩],[⟨10,83076749736557242056487941267521536,[],[],0,0⟩],[⟨11,140737488355328,[],[],0,0⟩],[⟨12,633825300114114700748351602688,[],[],0,0⟩],[⟨13,41538374868278621028243970633760768,[],[],0,0⟩],[⟨14,41538374868278621028243970633760768,[],[],2,0⟩],[⟨15,115792089237316195423570985008687907853269984665640564039452972321894702252031,[],[],0,0⟩],[⟨15,115792089237316195423570985008687907853269984665640564039452972321894702252031,[],[],0,0⟩,⟨16,4611686018427387904,[],[(0,.code),(1,.setEnt .checkBlank),(2,.cb),(3,.emb (.saw 1))],0,0⟩],[],[⟨18,41538374877950027585161004031410176,[],[],0,4⟩],[⟨19,633825300261688653338028015616,[],[],0,4⟩],[⟨20,20769187438975013792580502015705088,[],[],0,4⟩],[⟨21,40564819216748073813633792999424,[],[],0,4⟩],[⟨22,5192296859743753448145125503926272,[],[],0,4⟩],[⟨23,83076749755900055170322008062820352,[],[],0,4⟩],[⟨24,115792089237316195423570985008687907853269984665640564039452972321894702252031,[],[],0,4⟩],[⟨24,115792089237316195423570985008687907853269984665640564039452972321894702252031,[],[],0,4⟩,⟨25,83076749736557242056487941267521536,[],[],0,4⟩],[⟨26,2535301200456458802993406410752,[],[],0,0⟩],[⟨27,1329227995784915872903807060280344576,[],[],0,0⟩],[⟨28,83076749736557242056487941267521536,[],[],0,0⟩],[⟨29,140737488355328,[],[],0,0⟩],[⟨30,81129638414606681695789005144064,[],[],0,0⟩],[⟨31,158456325028528675187087900672,[],[],0,0⟩],[⟨32,332306998946228968225951765070086144,[],[],0,0⟩],[⟨33,158456325028528675187087900672,[],[],0,0⟩],[⟨34,41538374868278621028243970633760768,[],[],0,0⟩],[⟨35,633825300114114700748351602688,[],[],0,0⟩],[⟨36,20769187434139310514121985316880384,[],[],0,0⟩],[⟨37,40564819207303340847894502572032,[],[],0,0⟩],[⟨38,5192296858534827628530496329220096,[],[],0,0⟩],[⟨39,83076749736557242056487941267521536,[],[],4,0⟩],[⟨40,115792089237316195423570985008687907853269984665640564039452972321894702252031,[],[],0,0⟩],[⟨40,115792089237316195423570985008687907853269984665640564039452972321894702252031,[],[],0,0⟩,⟨41,4611686018427387904,[],[(4,.code),(5,.setEnt .checkBlank),(6,.cb),(7,.emb (.saw 2))],0,0⟩],[],[⟨43,137438953472,[],[(8,.code),(9,.setEnt .checkBlank),(10,.cb),(11,.emb (.saw 3))],0,0⟩],[],[⟨45,41538374877950027585161004031410176,[],[],0,8⟩],[⟨46,633825300261688653338028015616,[],[],0,8⟩],[⟨47,20769187438975013792580502015705088,[],[],0,8⟩],[⟨48,40564819216748073813633792999424,[],[],0,8⟩],[⟨49,5192296859743753448145125503926272,[],[],0,8⟩],[⟨50,83076749755900055170322008062820352,[],[],0,8⟩],[⟨51,115792089237316195423570985008687907853269984665640564039452972321894702252031,[],[],0,8⟩],[⟨51,115792089237316195423570985008687907853269984665640564039452972321894702252031,[],[],0,8⟩,⟨52,41538374868278621028243970633760768,[],[],0,8⟩],[⟨53,2535301200456458802993406410752,[],[],0,0⟩],[⟨54,20769187434139310514121985316880384,[],[],0,0⟩],[⟨55,332306998946228968225951765070086144,[],[],0,0⟩],[⟨56,2535301200456458802993406410752,[],[],0,0⟩],[⟨57,20769187434139310514121985316880384,[],[],8,0⟩],[⟨58,115792089237316195423570985008687907853269984665640564039452972321894702252031,[],[],0,0⟩],[⟨58,115792089237316195423570985008687907853269984665640564039452972321894702252031,[],[],0,0⟩,⟨59,4611686018427387904,[],[(8,.code),(9,.setEnt .checkBlank),(10,.cb),(11,.emb (.saw 3))],0,0⟩],[],[⟨60,4294967808,[],[(12,.setEnt (.own 0))],0,0⟩],[⟨62,8589934592,[],[],0,0⟩],[⟨63,35184372088832,[],[],0,0⟩],[⟨64,35184372088832,[],[(13,.comment)],0,0⟩],[],[],[],[⟨68,1024,[],[(16,.setEnt .newline)],0,0⟩],[],[],[],[],[]],[none,none,none,none,none,none,none,none,none,none,none,none,none,none,none,none,some (0,[]),none,none,none,none,none,none,none,none,none,none,none,none,none,none,none,none,none,none,none,none,none,none,none,none,some (1,[]),none,some (2,[]),none,none,none,none,none,none,none,none,none,none,none,none,none,none,none,some (2,[]),some (3,[]),none,none,none,some (4,[]),some (5,[]),some (6,[]),none,some (7,[]),some (7,[]),some (7,[]),some (7,[]),some (8,[])],[4,8,12,13,14,15,16,17,18]⟩
def emb47_masks : List Nat := [1152921504606846976,4294967808,549755813888,17179869184,8192,1024,4096,115792089237316195423570985008687907853269984665640564039457584007908834656767,41538374877950027585161004031410176,83076749755900055170322008062820352,2658455992188801765450304258010251264,324518553733984590509070343995392,2535301201046754613352112062464,115792089237316195423570985008687907853269984665640564039452972321894702252031,83076749736557242056487941267521536,2535301200456458802993406410752,1329227995784915872903807060280344576,140737488355328,633825300114114700748351602688,41538374868278621028243970633760768,4611686018427387904,633825300261688653338028015616,20769187438975013792580502015705088,40564819216748073813633792999424,5192296859743753448145125503926272,81129638414606681695789005144064,158456325028528675187087900672,332306998946228968225951765070086144,20769187434139310514121985316880384,40564819207303340847894502572032,5192296858534827628530496329220096,137438953472,8589934592,35184372088832]
def emb47_cs : List (Nat × Nat) := [(0,115792089237316195423570985008687907853265513648504117332318924991657630745087),(9,4294967808),(10,1024),(11,2048),(12,4096),(13,8192),(33,8589934592),(34,17179869184),(37,137438953472),(39,549755813888),(45,35184372088832),(47,140737488355328),(60,1152921504606846976),(62,4611686018427387904),(67,147573952589676412928),(69,590295810358705651712),(73,9444732965739290427392),(76,324518553733984590509070343995392),(80,1208925819614629174706176),(82,4835703278458516698824704),(83,9671406556917033397649408),(84,19342813113834066795298816),(89,2658455992188801765450304258010251264),(97,158456325028528675187087900672),(99,633825300114114700748351602688),(101,2535301200456458802993406410752),(105,40564819207303340847894502572032),(106,81129638414606681695789005144064),(112,5192296858534827628530496329220096),(114,20769187434139310514121985316880384),(115,41538374868278621028243970633760768),(116,83076749736557242056487941267521536),(118,332306998946228968225951765070086144),(120,1329227995784915872903807060280344576)]
theorem emb47_masksIn : masksIn emb47_nfa emb47_masks = true := by decide +kernel
theorem emb47_repOk : repOk emb47_masks emb47_cs = true := by decide +kernel
def emb47_rows : List Row := [⟨[],none,[],[⟨256,.other,false,some ⟨0,[.setEnt (.own 5)],some 8,true⟩⟩,⟨256,.ws,false,some ⟨1,[.setEnt (.own 0)],some 3,false⟩⟩,⟨256,.lf,false,some ⟨0,[.setEnt .newline],some 7,true⟩⟩,⟨256,.vt,false,none⟩,⟨256,.ff,false,some ⟨0,[.setEnt .newline],some 7,true⟩⟩,⟨256,.cr,false,some ⟨2,[.setEnt .newline],none,false⟩⟩,⟨256,.cr,true,some ⟨3,[.setEnt .newline],some 7,false⟩⟩,⟨256,.other,false,some ⟨0,[.code],some 6,true⟩⟩,⟨256,.other,false,some ⟨0,[.code],some 5,true⟩⟩,⟨256,.other,false,some ⟨4,[.setEnt (.own 5)],some 8,false⟩⟩]⟩,⟨[60],some 3,[],[⟨256,.other,false,none⟩,⟨256,.ws,false,some ⟨1,[.setEnt (.own 0)],some 3,false⟩⟩,⟨256,.lf,false,none⟩,⟨256,.vt,false,none⟩,⟨256,.ff,false,none⟩,⟨256,.cr,false,none⟩,⟨256,.cr,true,none⟩]⟩,⟨[67],none,[],[⟨256,.other,false,none⟩,⟨256,.ws,false,none⟩,⟨256,.lf,false,some ⟨0,[.setEnt .newline],some 7,true⟩⟩,⟨256,.vt,false,none⟩,⟨256,.ff,false,none⟩,⟨256,.cr,false,none⟩,⟨256,.cr,true,none⟩]⟩,⟨[67,71],some 7,[],[⟨256,.other,false,none⟩,⟨256,.ws,false,none⟩,⟨256,.lf,false,some ⟨0,[.setEnt .newline],some 7,true⟩⟩,⟨256,.vt,false,none⟩,⟨256,.ff,false,none⟩,⟨256,.cr,false,none⟩,⟨256,.cr,true,none⟩]⟩,⟨[0,17,42,44,61,72],some 8,[],[⟨256,.other,false,none⟩,⟨256,.ws,false,none⟩,⟨256,.lf,false,none⟩,⟨256,.vt,false,none⟩,⟨256,.ff,false,none⟩,⟨256,.cr,false,none⟩,⟨256,.cr,true,none⟩,⟨256,.other,false,some ⟨5,[],none,false⟩⟩,⟨256,.other,false,some ⟨0,[.code,.setEnt .checkBlank,.cb,.emb (.saw 3)],some 2,true⟩⟩,⟨256,.other,false,some ⟨6,[],none,false⟩⟩]⟩,⟨[62],none,[],[⟨256,.other,false,none⟩,⟨256,.ws,false,none⟩,⟨256,.lf,false,none⟩,⟨256,.vt,false,none⟩,⟨256,.ff,false,none⟩,⟨256,.cr,false,none⟩,⟨256,.cr,true,none⟩,⟨256,.other,false,some ⟨7,[],none,false⟩⟩]⟩,⟨[1,18,45],none,[],[⟨256,.other,false,none⟩,⟨256,.ws,false,none⟩,⟨256,.lf,false,none⟩,⟨256,.vt,false,none⟩,⟨256,.ff,false,none⟩,⟨256,.cr,false,none⟩,⟨256,.cr,true,none⟩,⟨256,.other,false,some ⟨8,[],none,false⟩⟩,⟨256,.other,false,some ⟨9,[],none,false⟩⟩]⟩,⟨[63],none,[],[⟨256,.other,false,none⟩,⟨256,.ws,false,none⟩,⟨256,.lf,false,none⟩,⟨256,.vt,false,none⟩,⟨256,.ff,false,none⟩,⟨256,.cr,false,none⟩,⟨256,.cr,true,none⟩,⟨256,.other,false,some ⟨0,[.comment],some 4,true⟩⟩]⟩,⟨[19,46],none,[],[⟨256,.other,false,none⟩,⟨256,.ws,false,none⟩,⟨256,.lf,false,none⟩,⟨256,.vt,false,none⟩,⟨256,.ff,false,none⟩,⟨256,.cr,false,none⟩,⟨256,.cr,true,none⟩,⟨256,.other,false,some ⟨10,[],none,false⟩⟩]⟩,⟨[2],none,[],[⟨256,.other,false,none⟩,⟨256,.ws,false,none⟩,⟨256,.lf,false,none⟩,⟨256,.vt,false,none⟩,⟨256,.ff,false,none⟩,⟨256,.cr,false,none⟩,⟨256,.cr,true,none⟩,⟨256,.other,false,some ⟨11,[],none,false⟩⟩]⟩,⟨[20,47],none,[],[⟨256,.other,false,none⟩,⟨256,.ws,false,none⟩,⟨256,.lf,false,none⟩,⟨256,.vt,false,none⟩,⟨256,.ff,false,none⟩,⟨256,.cr,false,none⟩,⟨256,.cr,true,none⟩,⟨256,.other,false,some ⟨12,[],none,false⟩⟩]⟩,⟨[3],none,[],[⟨256,.other,false,none⟩,⟨256,.ws,false,none⟩,⟨256,.lf,false,none⟩,⟨256,.vt,false,none⟩,⟨256,.ff,false,none⟩,⟨256,.cr,false,none⟩,⟨256,.cr,true,none⟩,⟨256,.other,false,some ⟨13,[],none,false⟩⟩]⟩,⟨[21,48],none,[],[⟨256,.other,false,none⟩,⟨256,.ws,false,none⟩,⟨256,.lf,false,none⟩,⟨256,.vt,false,none⟩,⟨256,.ff,false,none⟩,⟨256,.cr,false,none⟩,⟨256,.cr,true,none⟩,⟨256,.other,false,some ⟨14,[],none,false⟩⟩]⟩,⟨[4],none,[],[⟨256,.other,false,none⟩,⟨256,.ws,false,none⟩,⟨256,.lf,false,none⟩,⟨256,.vt,false,none⟩,⟨256,.ff,false,none⟩,⟨256,.cr,false,none⟩,⟨256,.cr,true,none⟩,⟨256,.other,false,some ⟨15,[],none,false⟩⟩]⟩,⟨[22,49],none,[],[⟨256,.other,false,none⟩,⟨256,.ws,false,none⟩,⟨256,.lf,false,none⟩,⟨256,.vt,false,none⟩,⟨256,.ff,false,none⟩,⟨256,.cr,false,none⟩,⟨256,.cr,true,none⟩,⟨256,.other,false,some ⟨16,[],none,false⟩⟩]⟩,⟨[5],none,[],[⟨256,.other,false,some ⟨17,[],none,false⟩⟩,⟨256,.ws,false,some ⟨17,[],none,false⟩⟩,⟨256,.lf,false,some ⟨17,[],none,false⟩⟩,⟨256,.vt,false,some ⟨17,[],none,false⟩⟩,⟨256,.ff,false,some ⟨17,[],none,false⟩⟩,⟨256,.cr,false,some ⟨17,[],none,false⟩⟩,⟨256,.cr,true,some ⟨17,[],none,false⟩⟩,⟨256,.other,false,none⟩]⟩,⟨[23,50],none,[],[⟨256,.other,false,some ⟨18,[],none,false⟩⟩,⟨256,.ws,false,some ⟨18,[],none,false⟩⟩,⟨256,.lf,false,some ⟨18,[],none,false⟩⟩,⟨256,.vt,false,some ⟨18,[],none,false⟩⟩,⟨256,.ff,false,some ⟨18,[],none,false⟩⟩,⟨256,.cr,false,some ⟨18,[],none,false⟩⟩,⟨256,.cr,true,some ⟨18,[],none,false⟩⟩,⟨256,.other,false,none⟩]⟩,⟨[6],none,[],[⟨256,.other,false,some ⟨17,[],none,false⟩⟩,⟨256,.ws,false,some ⟨17,[],none,false⟩⟩,⟨256,.lf,false,some ⟨17,[],none,false⟩⟩,⟨256,.vt,false,some ⟨17,[],none,false⟩⟩,⟨256,.ff,false,some ⟨17,[],none,false⟩⟩,⟨256,.cr,false,some ⟨17,[],none,false⟩⟩,⟨256,.cr,true,some ⟨17,[],none,false⟩⟩,⟨256,.other,false,none⟩,⟨256,.other,false,some ⟨19,[],none,false⟩⟩]⟩,⟨[24,51],none,[],[⟨256,.other,false,some ⟨18,[],none,false⟩⟩,⟨256,.ws,false,some ⟨18,[],none,false⟩⟩,⟨256,.lf,false,some ⟨18,[],none,false⟩⟩,⟨256,.vt,false,some ⟨18,[],none,false⟩⟩,⟨256,.ff,false,some ⟨18,[],none,false⟩⟩,⟨256,.cr,false,some ⟨18,[],none,false⟩⟩,⟨256,.cr,true,some ⟨18,[],none,false⟩⟩,⟨256,.other,false,none⟩,⟨256,.other,false,some ⟨20,[],none,false⟩⟩,⟨256,.other,false,some ⟨21,[],none,false⟩⟩]⟩,⟨[6,7],none,[],[⟨256,.other,false,some ⟨17,[],none,false⟩⟩,⟨256,.ws,false,some ⟨17,[],none,false⟩⟩,⟨256,.lf,false,some ⟨17,[],none,false⟩⟩,⟨256,.vt,false,some ⟨17,[],none,false⟩⟩,⟨256,.ff,false,some ⟨17,[],none,false⟩⟩,⟨256,.cr,false,some ⟨17,[],none,false⟩⟩,⟨256,.cr,true,some ⟨17,[],none,false⟩⟩,⟨256,.other,false,none⟩,⟨256,.other,false,some ⟨22,[],none,false⟩⟩,⟨256,.other,false,some ⟨19,[],none,false⟩⟩]⟩,⟨[24,51,52],none,[],[⟨256,.other,false,some ⟨18,[],none,false⟩⟩,⟨256,.ws,false,some ⟨18,[],none,false⟩⟩,⟨256,.lf,false,some ⟨18,[],none,false⟩⟩,⟨256,.vt,false,some ⟨18,[],none,false⟩⟩,⟨256,.ff,false,some ⟨18,[],none,false⟩⟩,⟨256,.cr,false,some ⟨18,[],none,false⟩⟩,⟨256,.cr,true,some ⟨18,[],none,false⟩⟩,⟨256,.other,false,none⟩,⟨256,.other,false,some ⟨23,[],none,false⟩⟩,⟨256,.other,false,some ⟨20,[],none,false⟩⟩,⟨256,.other,false,some ⟨21,[],none,false⟩⟩]⟩,⟨[24,25,51],none,[],[⟨256,.other,false,some ⟨18,[],none,false⟩⟩,⟨256,.ws,false,some ⟨18,[],none,false⟩⟩,⟨256,.lf,false,some ⟨18,[],none,false⟩⟩,⟨256,.vt,false,some ⟨18,[],none,false⟩⟩,⟨256,.ff,false,some ⟨18,[],none,false⟩⟩,⟨256,.cr,false,some ⟨18,[],none,false⟩⟩,⟨256,.cr,true,some ⟨18,[],none,false⟩⟩,⟨256,.other,false,none⟩,⟨256,.other,false,some ⟨24,[],none,false⟩⟩,⟨256,.other,false,some ⟨20,[],none,false⟩⟩,⟨256,.other,false,some ⟨21,[],none,false⟩⟩]⟩,⟨[6,8],none,[],[⟨256,.other,false,some ⟨17,[],none,false⟩⟩,⟨256,.ws,false,some ⟨17,[],none,false⟩⟩,⟨256,.lf,false,some ⟨17,[],none,false⟩⟩,⟨256,.vt,false,some ⟨17,[],none,false⟩⟩,⟨256,.ff,false,some ⟨17,[],none,false⟩⟩,⟨256,.cr,false,some ⟨17,[],none,false⟩⟩,⟨256,.cr,true,some ⟨17,[],none,false⟩⟩,⟨256,.other,false,none⟩,⟨256,.other,false,some ⟨19,[],none,false⟩⟩,⟨256,.other,false,some ⟨25,[],none,false⟩⟩]⟩,⟨[24,51,53],none,[],[⟨256,.other,false,some ⟨18,[],none,false⟩⟩,⟨256,.ws,false,some ⟨18,[],none,false⟩⟩,⟨256,.lf,false,some ⟨18,[],none,false⟩⟩,⟨256,.vt,false,some ⟨18,[],none,false⟩⟩,⟨256,.ff,false,some ⟨18,[],none,false⟩⟩,⟨256,.cr,false,some ⟨18,[],none,false⟩⟩,⟨256,.cr,true,some ⟨18,[],none,false⟩⟩,⟨256,.other,false,none⟩,⟨256,.other,false,some ⟨26,[],none,false⟩⟩,⟨256,.other,false,some ⟨20,[],none,false⟩⟩,⟨256,.other,false,some ⟨21,[],none,false⟩⟩]⟩,⟨[24,26,51],none,[],[⟨256,.other,false,some ⟨18,[],none,false⟩⟩,⟨256,.ws,false,some ⟨18,[],none,false⟩⟩,⟨256,.lf,false,some ⟨18,[],none,false⟩⟩,⟨256,.vt,false,some ⟨18,[],none,false⟩⟩,⟨256,.ff,false,some ⟨18,[],none,false⟩⟩,⟨256,.cr,false,some ⟨18,[],none,false⟩⟩,⟨256,.cr,true,some ⟨18,[],none,false⟩⟩,⟨256,.other,false,none⟩,⟨256,.other,false,some ⟨20,[],none,false⟩⟩,⟨256,.other,false,some ⟨21,[],none,false⟩⟩,⟨256,.other,false,some ⟨27,[],none,false⟩⟩]⟩,⟨[6,9],none,[],[⟨256,.other,false,some ⟨17,[],none,false⟩⟩,⟨256,.ws,false,some ⟨17,[],none,false⟩⟩,⟨256,.lf,false,some ⟨17,[],none,false⟩⟩,⟨256,.vt,false,some ⟨17,[],none,false⟩⟩,⟨256,.ff,false,some ⟨17,[],none,false⟩⟩,⟨256,.cr,false,some ⟨17,[],none,false⟩⟩,⟨256,.cr,true,some ⟨17,[],none,false⟩⟩,⟨256,.other,false,none⟩,⟨256,.other,false,some ⟨28,[],none,false⟩⟩]⟩,⟨[24,51,54],none,[],[⟨256,.other,false,some ⟨18,[],none,false⟩⟩,⟨256,.ws,false,some ⟨18,[],none,false⟩⟩,⟨256,.lf,false,some ⟨18,[],none,false⟩⟩,⟨256,.vt,false,some ⟨18,[],none,false⟩⟩,⟨256,.ff,false,some ⟨18,[],none,false⟩⟩,⟨256,.cr,false,some ⟨18,[],none,false⟩⟩,⟨256,.cr,true,some ⟨18,[],none,false⟩⟩,⟨256,.other,false,none⟩,⟨256,.other,false,some ⟨20,[],none,false⟩⟩,⟨256,.other,false,some ⟨21,[],none,false⟩⟩,⟨256,.other,false,some ⟨29,[],none,false⟩⟩]⟩,⟨[24,27,51],none,[],[⟨256,.other,false,some ⟨18,[],none,false⟩⟩,⟨256,.ws,false,some ⟨18,[],none,false⟩⟩,⟨256,.lf,false,some ⟨18,[],none,false⟩⟩,⟨256,.vt,false,some ⟨18,[],none,false⟩⟩,⟨256,.ff,false,some ⟨18,[],none,false⟩⟩,⟨256,.cr,false,some ⟨18,[],none,false⟩⟩,⟨256,.cr,true,some ⟨18,[],none,false⟩⟩,⟨256,.other,false,none⟩,⟨256,.other,false,some ⟨20,[],none,false⟩⟩,⟨256,.other,false,some ⟨30,[],none,false⟩⟩]⟩,⟨[6,7,10],none,[],[⟨256,.other,false,some ⟨17,[],none,false⟩⟩,⟨256,.ws,false,some ⟨17,[],none,false⟩⟩,⟨256,.lf,false,some ⟨17,[],none,false⟩⟩,⟨256,.vt,false,some ⟨17,[],none,false⟩⟩,⟨256,.ff,false,some ⟨17,[],none,false⟩⟩,⟨256,.cr,false,some ⟨17,[],none,false⟩⟩,⟨256,.cr,true,some ⟨17,[],none,false⟩⟩,⟨256,.other,false,some ⟨31,[],none,false⟩⟩,⟨256,.other,false,none⟩,⟨256,.other,false,some ⟨22,[],none,false⟩⟩,⟨256,.other,false,some ⟨19,[],none,false⟩⟩]⟩,⟨[24,51,55],none,[],[⟨256,.other,false,some ⟨18,[],none,false⟩⟩,⟨256,.ws,false,some ⟨18,[],none,false⟩⟩,⟨256,.lf,false,some ⟨18,[],none,false⟩⟩,⟨256,.vt,false,some ⟨18,[],none,false⟩⟩,⟨256,.ff,false,some ⟨18,[],none,false⟩⟩,⟨256,.cr,false,some ⟨18,[],none,false⟩⟩,⟨256,.cr,true,some ⟨18,[],none,false⟩⟩,⟨256,.other,false,none⟩,⟨256,.other,false,some ⟨32,[],none,false⟩⟩,⟨256,.other,false,some ⟨20,[],none,false⟩⟩,⟨256,.other,false,some ⟨21,[],none,false⟩⟩]⟩,⟨[24,25,28,51],none,[],[⟨256,.other,false,some ⟨18,[],none,false⟩⟩,⟨256,.ws,false,some ⟨18,[],none,false⟩⟩,⟨256,.lf,false,some ⟨18,[],none,false⟩⟩,⟨256,.vt,false,some ⟨18,[],none,false⟩⟩,⟨256,.ff,false,some ⟨18,[],none,false⟩⟩,⟨256,.cr,false,some ⟨18,[],none,false⟩⟩,⟨256,.cr,true,some ⟨18,[],none,false⟩⟩,⟨256,.other,false,some ⟨33,[],none,false⟩⟩,⟨256,.other,false,none⟩,⟨256,.other,false,some ⟨24,[],none,false⟩⟩,⟨256,.other,false,some ⟨20,[],none,false⟩⟩,⟨256,.other,false,some ⟨21,[],none,false⟩⟩]⟩,⟨[6,11],none,[],[⟨256,.other,false,some ⟨17,[],none,false⟩⟩,⟨256,.ws,false,some ⟨17,[],none,false⟩⟩,⟨256,.lf,false,some ⟨17,[],none,false⟩⟩,⟨256,.vt,false,some ⟨17,[],none,false⟩⟩,⟨256,.ff,false,some ⟨17,[],none,false⟩⟩,⟨256,.cr,false,some ⟨17,[],none,false⟩⟩,⟨256,.cr,true,some ⟨17,[],none,false⟩⟩,⟨256,.other,false,none⟩,⟨256,.other,false,some ⟨34,[],none,false⟩⟩,⟨256,.other,false,some ⟨19,[],none,false⟩⟩]⟩,⟨[24,51,56],none,[],[⟨256,.other,false,some ⟨18,[],none,false⟩⟩,⟨256,.ws,false,some ⟨18,[],none,false⟩⟩,⟨256,.lf,false,some ⟨18,[],none,false⟩⟩,⟨256,.vt,false,some ⟨18,[],none,false⟩⟩,⟨256,.ff,false,some ⟨18,[],none,false⟩⟩,⟨256,.cr,false,some ⟨18,[],none,false⟩⟩,⟨256,.cr,true,some ⟨18,[],none,false⟩⟩,⟨256,.other,false,none⟩,⟨256,.other,false,some ⟨35,[],none,false⟩⟩,⟨256,.other,false,some ⟨20,[],none,false⟩⟩,⟨256,.other,false,some ⟨21,[],none,false⟩⟩]⟩,⟨[24,29,51],none,[],[⟨256,.other,false,some ⟨18,[],none,false⟩⟩,⟨256,.ws,false,some ⟨18,[],none,false⟩⟩,⟨256,.lf,false,some ⟨18,[],none,false⟩⟩,⟨256,.vt,false,some ⟨18,[],none,false⟩⟩,⟨256,.ff,false,some ⟨18,[],none,false⟩⟩,⟨256,.cr,false,some ⟨18,[],none,false⟩⟩,⟨256,.cr,true,some ⟨18,[],none,false⟩⟩,⟨256,.other,false,none⟩,⟨256,.other,false,some ⟨36,[],none,false⟩⟩,⟨256,.other,false,some ⟨20,[],none,false⟩⟩,⟨256,.other,false,some ⟨21,[],none,false⟩⟩]⟩,⟨[6,12],none,[],[⟨256,.other,false,some ⟨17,[],none,false⟩⟩,⟨256,.ws,false,some ⟨17,[],none,false⟩⟩,⟨256,.lf,false,some ⟨17,[],none,false⟩⟩,⟨256,.vt,false,some ⟨17,[],none,false⟩⟩,⟨256,.ff,false,some ⟨17,[],none,false⟩⟩,⟨256,.cr,false,some ⟨17,[],none,false⟩⟩,⟨256,.cr,true,some ⟨17,[],none,false⟩⟩,⟨256,.other,false,none⟩,⟨256,.other,false,some ⟨37,[],none,false⟩⟩,⟨256,.other,false,some ⟨19,[],none,false⟩⟩]⟩,⟨[24,57],none,[],[⟨256,.other,false,some ⟨38,[],none,false⟩⟩,⟨256,.ws,false,some ⟨38,[],none,false⟩⟩,⟨256,.lf,false,some ⟨38,[],none,false⟩⟩,⟨256,.vt,false,some ⟨38,[],none,false⟩⟩,⟨256,.ff,false,some ⟨38,[],none,false⟩⟩,⟨256,.cr,false,some ⟨38,[],none,false⟩⟩,⟨256,.cr,true,some ⟨38,[],none,false⟩⟩,⟨256,.other,false,none⟩,⟨256,.other,false,some ⟨39,[],none,false⟩⟩]⟩,⟨[24,30,51],none,[],[⟨256,.other,false,some ⟨18,[],none,false⟩⟩,⟨256,.ws,false,some ⟨18,[],none,false⟩⟩,⟨256,.lf,false,some ⟨18,[],none,false⟩⟩,⟨256,.vt,false,some ⟨18,[],none,false⟩⟩,⟨256,.ff,false,some ⟨18,[],none,false⟩⟩,⟨256,.cr,false,some ⟨18,[],none,false⟩⟩,⟨256,.cr,true,some ⟨18,[],none,false⟩⟩,⟨256,.other,false,none⟩,⟨256,.other,false,some ⟨40,[],none,false⟩⟩,⟨256,.other,false,some ⟨20,[],none,false⟩⟩,⟨256,.other,false,some ⟨21,[],none,false⟩⟩]⟩,⟨[6,13],none,[],[⟨256,.other,false,some ⟨17,[],none,false⟩⟩,⟨256,.ws,false,some ⟨17,[],none,false⟩⟩,⟨256,.lf,false,some ⟨17,[],none,false⟩⟩,⟨256,.vt,false,some ⟨17,[],none,false⟩⟩,⟨256,.ff,false,some ⟨17,[],none,false⟩⟩,⟨256,.cr,false,some ⟨17,[],none,false⟩⟩,⟨256,.cr,true,some ⟨17,[],none,false⟩⟩,⟨256,.other,false,none⟩,⟨256,.other,false,some ⟨41,[],none,false⟩⟩,⟨256,.other,false,some ⟨19,[],none,false⟩⟩]⟩,⟨[24,58],none,[],[⟨256,.other,false,some ⟨38,[],none,false⟩⟩,⟨256,.ws,false,some ⟨38,[],none,false⟩⟩,⟨256,.lf,false,some ⟨38,[],none,false⟩⟩,⟨256,.vt,false,some ⟨38,[],none,false⟩⟩,⟨256,.ff,false,some ⟨38,[],none,false⟩⟩,⟨256,.cr,false,some ⟨38,[],none,false⟩⟩,⟨256,.cr,true,some ⟨38,[],none,false⟩⟩,⟨256,.other,false,some ⟨0,[.code,.setEnt .checkBlank,.cb,.emb (.saw 3)],some 2,true⟩⟩,⟨256,.other,false,some ⟨39,[],none,false⟩⟩]⟩,⟨[24,25,58],none,[],[⟨256,.other,false,some ⟨38,[],none,false⟩⟩,⟨256,.ws,false,some ⟨38,[],none,false⟩⟩,⟨256,.lf,false,some ⟨38,[],none,false⟩⟩,⟨256,.vt,false,some ⟨38,[],none,false⟩⟩,⟨256,.ff,false,some ⟨38,[],none,false⟩⟩,⟨256,.cr,false,some ⟨38,[],none,false⟩⟩,⟨256,.cr,true,some ⟨38,[],none,false⟩⟩,⟨256,.other,false,some ⟨0,[.code,.setEnt .checkBlank,.cb,.emb (.saw 3)],some 2,true⟩⟩,⟨256,.other,false,some ⟨42,[],none,false⟩⟩,⟨256,.other,false,some ⟨39,[],none,false⟩⟩]⟩,⟨[24,31,51],none,[],[⟨256,.other,false,some ⟨18,[],none,false⟩⟩,⟨256,.ws,false,some ⟨18,[],none,false⟩⟩,⟨256,.lf,false,some ⟨18,[],none,false⟩⟩,⟨256,.vt,false,some ⟨18,[],none,false⟩⟩,⟨256,.ff,false,some ⟨18,[],none,false⟩⟩,⟨256,.cr,false,some ⟨18,[],none,false⟩⟩,⟨256,.cr,true,some ⟨18,[],none,false⟩⟩,⟨256,.other,false,none⟩,⟨256,.other,false,some ⟨20,[],none,false⟩⟩,⟨256,.other,false,some ⟨21,[],none,false⟩⟩,⟨256,.other,false,some ⟨43,[],none,false⟩⟩]⟩,⟨[14],none,[],[⟨256,.other,false,some ⟨44,[],none,false⟩⟩,⟨256,.ws,false,some ⟨44,[],none,false⟩⟩,⟨256,.lf,false,some ⟨44,[],none,false⟩⟩,⟨256,.vt,false,some ⟨44,[],none,false⟩⟩,⟨256,.ff,false,some ⟨44,[],none,false⟩⟩,⟨256,.cr,false,some ⟨44,[],none,false⟩⟩,⟨256,.cr,true,some ⟨44,[],none,false⟩⟩,⟨256,.other,false,none⟩]⟩,⟨[24,26,58],none,[],[⟨256,.other,false,some ⟨38,[],none,false⟩⟩,⟨256,.ws,false,some ⟨38,[],none,false⟩⟩,⟨256,.lf,false,some ⟨38,[],none,false⟩⟩,⟨256,.vt,false,some ⟨38,[],none,false⟩⟩,⟨256,.ff,false,some ⟨38,[],none,false⟩⟩,⟨256,.cr,false,some ⟨38,[],none,false⟩⟩,⟨256,.cr,true,some ⟨38,[],none,false⟩⟩,⟨256,.other,false,some ⟨0,[.code,.setEnt .checkBlank,.cb,.emb (.saw 3)],some 2,true⟩⟩,⟨256,.other,false,some ⟨39,[],none,false⟩⟩,⟨256,.other,false,some ⟨45,[],none,false⟩⟩]⟩,⟨[24,32,51],none,[],[⟨256,.other,false,some ⟨18,[],none,false⟩⟩,⟨256,.ws,false,some ⟨18,[],none,false⟩⟩,⟨256,.lf,false,some ⟨18,[],none,false⟩⟩,⟨256,.vt,false,some ⟨18,[],none,false⟩⟩,⟨256,.ff,false,some ⟨18,[],none,false⟩⟩,⟨256,.cr,false,some ⟨18,[],none,false⟩⟩,⟨256,.cr,true,some ⟨18,[],none,false⟩⟩,⟨256,.other,false,none⟩,⟨256,.other,false,some ⟨46,[],none,false⟩⟩,⟨256,.other,false,some ⟨20,[],none,false⟩⟩,⟨256,.other,false,some ⟨21,[],none,false⟩⟩]⟩,⟨[15],none,[],[⟨256,.other,false,some ⟨44,[],none,false⟩⟩,⟨256,.ws,false,some ⟨44,[],none,false⟩⟩,⟨256,.lf,false,some ⟨44,[],none,false⟩⟩,⟨256,.vt,false,some ⟨44,[],none,false⟩⟩,⟨256,.ff,false,some ⟨44,[],none,false⟩⟩,⟨256,.cr,false,some ⟨44,[],none,false⟩⟩,⟨256,.cr,true,some ⟨44,[],none,false⟩⟩,⟨256,.other,false,some ⟨0,[.code,.setEnt .checkBlank,.cb,.emb (.saw 1)],some 0,true⟩⟩]⟩,⟨[24,27,58],none,[],[⟨256,.other,false,some ⟨38,[],none,false⟩⟩,⟨256,.ws,false,some ⟨38,[],none,false⟩⟩,⟨256,.lf,false,some ⟨38,[],none,false⟩⟩,⟨256,.vt,false,some ⟨38,[],none,false⟩⟩,⟨256,.ff,false,some ⟨38,[],none,false⟩⟩,⟨256,.cr,false,some ⟨38,[],none,false⟩⟩,⟨256,.cr,true,some ⟨38,[],none,false⟩⟩,⟨256,.other,false,some ⟨0,[.code,.setEnt .checkBlank,.cb,.emb (.saw 3)],some 2,true⟩⟩,⟨256,.other,false,some ⟨47,[],none,false⟩⟩]⟩,⟨[24,33,51],none,[],[⟨256,.other,false,some ⟨18,[],none,false⟩⟩,⟨256,.ws,false,some ⟨18,[],none,false⟩⟩,⟨256,.lf,false,some ⟨18,[],none,false⟩⟩,⟨256,.vt,false,some ⟨18,[],none,false⟩⟩,⟨256,.ff,false,some ⟨18,[],none,false⟩⟩,⟨256,.cr,false,some ⟨18,[],none,false⟩⟩,⟨256,.cr,true,some ⟨18,[],none,false⟩⟩,⟨256,.other,false,none⟩,⟨256,.other,false,some ⟨48,[],none,false⟩⟩,⟨256,.other,false,some ⟨21,[],none,false⟩⟩]⟩,⟨[24,25,28,58],none,[],[⟨256,.other,false,some ⟨38,[],none,false⟩⟩,⟨256,.ws,false,some ⟨38,[],none,false⟩⟩,⟨256,.lf,false,some ⟨38,[],none,false⟩⟩,⟨256,.vt,false,some ⟨38,[],none,false⟩⟩,⟨256,.ff,false,some ⟨38,[],none,false⟩⟩,⟨256,.cr,false,some ⟨38,[],none,false⟩⟩,⟨256,.cr,true,some ⟨38,[],none,false⟩⟩,⟨256,.other,false,some ⟨49,[],none,false⟩⟩,⟨256,.other,false,some ⟨0,[.code,.setEnt .checkBlank,.cb,.emb (.saw 3)],some 2,true⟩⟩,⟨256,.other,false,some ⟨42,[],none,false⟩⟩,⟨256,.other,false,some ⟨39,[],none,false⟩⟩]⟩,⟨[24,34,51,52],none,[],[⟨256,.other,false,some ⟨18,[],none,false⟩⟩,⟨256,.ws,false,some ⟨18,[],none,false⟩⟩,⟨256,.lf,false,some ⟨18,[],none,false⟩⟩,⟨256,.vt,false,some ⟨18,[],none,false⟩⟩,⟨256,.ff,false,some ⟨18,[],none,false⟩⟩,⟨256,.cr,false,some ⟨18,[],none,false⟩⟩,⟨256,.cr,true,some ⟨18,[],none,false⟩⟩,⟨256,.other,false,none⟩,⟨256,.other,false,some ⟨50,[],none,false⟩⟩,⟨256,.other,false,some ⟨23,[],none,false⟩⟩,⟨256,.other,false,some ⟨20,[],none,false⟩⟩,⟨256,.other,false,some ⟨21,[],none,false⟩⟩]⟩,⟨[24,29,58],none,[],[⟨256,.other,false,some ⟨38,[],none,false⟩⟩,⟨256,.ws,false,some ⟨38,[],none,false⟩⟩,⟨256,.lf,false,some ⟨38,[],none,false⟩⟩,⟨256,.vt,false,some ⟨38,[],none,false⟩⟩,⟨256,.ff,false,some ⟨38,[],none,false⟩⟩,⟨256,.cr,false,some ⟨38,[],none,false⟩⟩,⟨256,.cr,true,some ⟨38,[],none,false⟩⟩,⟨256,.other,false,some ⟨0,[.code,.setEnt .checkBlank,.cb,.emb (.saw 3)],some 2,true⟩⟩,⟨256,.other,false,some ⟨51,[],none,false⟩⟩,⟨256,.other,false,some ⟨39,[],none,false⟩⟩]⟩,⟨[24,35,51],none,[],[⟨256,.other,false,some ⟨18,[],none,false⟩⟩,⟨256,.ws,false,some ⟨18,[],none,false⟩⟩,⟨256,.lf,false,some ⟨18,[],none,false⟩⟩,⟨256,.vt,false,some ⟨18,[],none,false⟩⟩,⟨256,.ff,false,some ⟨18,[],none,false⟩⟩,⟨256,.cr,false,some ⟨18,[],none,false⟩⟩,⟨256,.cr,true,some ⟨18,[],none,false⟩⟩,⟨256,.other,false,none⟩,⟨256,.other,false,some ⟨52,[],none,false⟩⟩,⟨256,.other,false,some ⟨20,[],none,false⟩⟩,⟨256,.other,false,some ⟨21,[],none,false⟩⟩]⟩,⟨[24,30,58],none,[],[⟨256,.other,false,some ⟨38,[],none,false⟩⟩,⟨256,.ws,false,some ⟨38,[],none,false⟩⟩,⟨256,.lf,false,some ⟨38,[],none,false⟩⟩,⟨256,.vt,false,some ⟨38,[],none,false⟩⟩,⟨256,.ff,false,some ⟨38,[],none,false⟩⟩,⟨256,.cr,false,some ⟨38,[],none,false⟩⟩,⟨256,.cr,true,some ⟨38,[],none,false⟩⟩,⟨256,.other,false,some ⟨0,[.code,.setEnt .checkBlank,.cb,.emb (.saw 3)],some 2,true⟩⟩,⟨256,.other,false,some ⟨53,[],none,false⟩⟩,⟨256,.other,false,some ⟨39,[],none,false⟩⟩]⟩,⟨[24,36,51],none,[],[⟨256,.other,false,some ⟨18,[],none,false⟩⟩,⟨256,.ws,false,some ⟨18,[],none,false⟩⟩,⟨256,.lf,false,some ⟨18,[],none,false⟩⟩,⟨256,.vt,false,some ⟨18,[],none,false⟩⟩,⟨256,.ff,false,some ⟨18,[],none,false⟩⟩,⟨256,.cr,false,some ⟨18,[],none,false⟩⟩,⟨256,.cr,true,some ⟨18,[],none,false⟩⟩,⟨256,.other,false,none⟩,⟨256,.other,false,some ⟨54,[],none,false⟩⟩,⟨256,.other,false,some ⟨20,[],none,false⟩⟩,⟨256,.other,false,some ⟨21,[],none,false⟩⟩]⟩,⟨[24,31,58],none,[],[⟨256,.other,false,some ⟨38,[],none,false⟩⟩,⟨256,.ws,false,some ⟨38,[],none,false⟩⟩,⟨256,.lf,false,some ⟨38,[],none,false⟩⟩,⟨256,.vt,false,some ⟨38,[],none,false⟩⟩,⟨256,.ff,false,some ⟨38,[],none,false⟩⟩,⟨256,.cr,false,some ⟨38,[],none,false⟩⟩,⟨256,.cr,true,some ⟨38,[],none,false⟩⟩,⟨256,.other,false,some ⟨0,[.code,.setEnt .checkBlank,.cb,.emb (.saw 3)],some 2,true⟩⟩,⟨256,.other,false,some ⟨39,[],none,false⟩⟩,⟨256,.other,false,some ⟨55,[],none,false⟩⟩]⟩,⟨[24,37,51],none,[],[⟨256,.other,false,some ⟨18,[],none,false⟩⟩,⟨256,.ws,false,some ⟨18,[],none,false⟩⟩,⟨256,.lf,false,some ⟨18,[],none,false⟩⟩,⟨256,.vt,false,some ⟨18,[],none,false⟩⟩,⟨256,.ff,false,some ⟨18,[],none,false⟩⟩,⟨256,.cr,false,some ⟨18,[],none,false⟩⟩,⟨256,.cr,true,some ⟨18,[],none,false⟩⟩,⟨256,.other,false,none⟩,⟨256,.other,false,some ⟨56,[],none,false⟩⟩,⟨256,.other,false,some ⟨20,[],none,false⟩⟩,⟨256,.other,false,some ⟨21,[],none,false⟩⟩]⟩,⟨[24,32,58],none,[],[⟨256,.other,false,some ⟨38,[],none,false⟩⟩,⟨256,.ws,false,some ⟨38,[],none,false⟩⟩,⟨256,.lf,false,some ⟨38,[],none,false⟩⟩,⟨256,.vt,false,some ⟨38,[],none,false⟩⟩,⟨256,.ff,false,some ⟨38,[],none,false⟩⟩,⟨256,.cr,false,some ⟨38,[],none,false⟩⟩,⟨256,.cr,true,some ⟨38,[],none,false⟩⟩,⟨256,.other,false,some ⟨0,[.code,.setEnt .checkBlank,.cb,.emb (.saw 3)],some 2,true⟩⟩,⟨256,.other,false,some ⟨57,[],none,false⟩⟩,⟨256,.other,false,some ⟨39,[],none,false⟩⟩]⟩,⟨[24,38,51],none,[],[⟨256,.other,false,some ⟨18,[],none,false⟩⟩,⟨256,.ws,false,some ⟨18,[],none,false⟩⟩,⟨256,.lf,false,some ⟨18,[],none,false⟩⟩,⟨256,.vt,false,some ⟨18,[],none,false⟩⟩,⟨256,.ff,false,some ⟨18,[],none,false⟩⟩,⟨256,.cr,false,some ⟨18,[],none,false⟩⟩,⟨256,.cr,true,some ⟨18,[],none,false⟩⟩,⟨256,.other,false,none⟩,⟨256,.other,false,some ⟨20,[],none,false⟩⟩,⟨256,.other,false,some ⟨58,[],none,false⟩⟩]⟩,⟨[24,33,58],none,[],[⟨256,.other,false,some ⟨38,[],none,false⟩⟩,⟨256,.ws,false,some ⟨38,[],none,false⟩⟩,⟨256,.lf,false,some ⟨38,[],none,false⟩⟩,⟨256,.vt,false,some ⟨38,[],none,false⟩⟩,⟨256,.ff,false,some ⟨38,[],none,false⟩⟩,⟨256,.cr,false,some ⟨38,[],none,false⟩⟩,⟨256,.cr,true,some ⟨38,[],none,false⟩⟩,⟨256,.other,false,some ⟨0,[.code,.setEnt .checkBlank,.cb,.emb (.saw 3)],some 2,true⟩⟩,⟨256,.other,false,some ⟨59,[],none,false⟩⟩,⟨256,.other,false,some ⟨39,[],none,false⟩⟩]⟩,⟨[39,51],none,[],[⟨256,.other,false,some ⟨60,[],none,false⟩⟩,⟨256,.ws,false,some ⟨60,[],none,false⟩⟩,⟨256,.lf,false,some ⟨60,[],none,false⟩⟩,⟨256,.vt,false,some ⟨60,[],none,false⟩⟩,⟨256,.ff,false,some ⟨60,[],none,false⟩⟩,⟨256,.cr,false,some ⟨60,[],none,false⟩⟩,⟨256,.cr,true,some ⟨60,[],none,false⟩⟩,⟨256,.other,false,none⟩,⟨256,.other,false,some ⟨61,[],none,false⟩⟩]⟩,⟨[24,34,58],none,[],[⟨256,.other,false,some ⟨38,[],none,false⟩⟩,⟨256,.ws,false,some ⟨38,[],none,false⟩⟩,⟨256,.lf,false,some ⟨38,[],none,false⟩⟩,⟨256,.vt,false,some ⟨38,[],none,false⟩⟩,⟨256,.ff,false,some ⟨38,[],none,false⟩⟩,⟨256,.cr,false,some ⟨38,[],none,false⟩⟩,⟨256,.cr,true,some ⟨38,[],none,false⟩⟩,⟨256,.other,false,some ⟨0,[.code,.setEnt .checkBlank,.cb,.emb (.saw 3)],some 2,true⟩⟩,⟨256,.other,false,some ⟨62,[],none,false⟩⟩,⟨256,.other,false,some ⟨39,[],none,false⟩⟩]⟩,⟨[40,51],none,[],[⟨256,.other,false,some ⟨60,[],none,false⟩⟩,⟨256,.ws,false,some ⟨60,[],none,false⟩⟩,⟨256,.lf,false,some ⟨60,[],none,false⟩⟩,⟨256,.vt,false,some ⟨60,[],none,false⟩⟩,⟨256,.ff,false,some ⟨60,[],none,false⟩⟩,⟨256,.cr,false,some ⟨60,[],none,false⟩⟩,⟨256,.cr,true,some ⟨60,[],none,false⟩⟩,⟨256,.other,false,some ⟨0,[.code,.setEnt .checkBlank,.cb,.emb (.saw 2)],some 1,true⟩⟩,⟨256,.other,false,some ⟨61,[],none,false⟩⟩]⟩,⟨[40,51,52],none,[],[⟨256,.other,false,some ⟨60,[],none,false⟩⟩,⟨256,.ws,false,some ⟨60,[],none,false⟩⟩,⟨256,.lf,false,some ⟨60,[],none,false⟩⟩,⟨256,.vt,false,some ⟨60,[],none,false⟩⟩,⟨256,.ff,false,some ⟨60,[],none,false⟩⟩,⟨256,.cr,false,some ⟨60,[],none,false⟩⟩,⟨256,.cr,true,some ⟨60,[],none,false⟩⟩,⟨256,.other,false,some ⟨0,[.code,.setEnt .checkBlank,.cb,.emb (.saw 2)],some 1,true⟩⟩,⟨256,.other,false,some ⟨63,[],none,false⟩⟩,⟨256,.other,false,some ⟨61,[],none,false⟩⟩]⟩,⟨[24,35,58],none,[],[⟨256,.other,false,some ⟨38,[],none,false⟩⟩,⟨256,.ws,false,some ⟨38,[],none,false⟩⟩,⟨256,.lf,false,some ⟨38,[],none,false⟩⟩,⟨256,.vt,false,some ⟨38,[],none,false⟩⟩,⟨256,.ff,false,some ⟨38,[],none,false⟩⟩,⟨256,.cr,false,some ⟨38,[],none,false⟩⟩,⟨256,.cr,true,some ⟨38,[],none,false⟩⟩,⟨256,.other,false,some ⟨0,[.code,.setEnt .checkBlank,.cb,.emb (.saw 3)],some 2,true⟩⟩,⟨256,.other,false,some ⟨64,[],none,false⟩⟩,⟨256,.other,false,some ⟨39,[],none,false⟩⟩]⟩,⟨[40,51,53],none,[],[⟨256,.other,false,some ⟨60,[],none,false⟩⟩,⟨256,.ws,false,some ⟨60,[],none,false⟩⟩,⟨256,.lf,false,some ⟨60,[],none,false⟩⟩,⟨256,.vt,false,some ⟨60,[],none,false⟩⟩,⟨256,.ff,false,some ⟨60,[],none,false⟩⟩,⟨256,.cr,false,some ⟨60,[],none,false⟩⟩,⟨256,.cr,true,some ⟨60,[],none,false⟩⟩,⟨256,.other,false,some ⟨0,[.code,.setEnt .checkBlank,.cb,.emb (.saw 2)],some 1,true⟩⟩,⟨256,.other,false,some ⟨65,[],none,false⟩⟩,⟨256,.other,false,some ⟨61,[],none,false⟩⟩]⟩,⟨[24,36,58],none,[],[⟨256,.other,false,some ⟨38,[],none,false⟩⟩,⟨256,.ws,false,some ⟨38,[],none,false⟩⟩,⟨256,.lf,false,some ⟨38,[],none,false⟩⟩,⟨256,.vt,false,some ⟨38,[],none,false⟩⟩,⟨256,.ff,false,some ⟨38,[],none,false⟩⟩,⟨256,.cr,false,some ⟨38,[],none,false⟩⟩,⟨256,.cr,true,some ⟨38,[],none,false⟩⟩,⟨256,.other,false,some ⟨0,[.code,.setEnt .checkBlank,.cb,.emb (.saw 3)],some 2,true⟩⟩,⟨256,.other,false,some ⟨66,[],none,false⟩⟩,⟨256,.other,false,some ⟨39,[],none,false⟩⟩]⟩,⟨[40,51,54],none,[],[⟨256,.other,false,some ⟨60,[],none,false⟩⟩,⟨256,.ws,false,some ⟨60,[],none,false⟩⟩,⟨256,.lf,false,some ⟨60,[],none,false⟩⟩,⟨256,.vt,false,some ⟨60,[],none,false⟩⟩,⟨256,.ff,false,some ⟨60,[],none,false⟩⟩,⟨256,.cr,false,some ⟨60,[],none,false⟩⟩,⟨256,.cr,true,some ⟨60,[],none,false⟩⟩,⟨256,.other,false,some ⟨0,[.code,.setEnt .checkBlank,.cb,.emb (.saw 2)],some 1,true⟩⟩,⟨256,.other,false,some ⟨61,[],none,false⟩⟩,⟨256,.other,false,some ⟨67,[],none,false⟩⟩]⟩,⟨[24,37,58],none,[],[⟨256,.other,false,some ⟨38,[],none,false⟩⟩,⟨256,.ws,false,some ⟨38,[],none,false⟩⟩,⟨256,.lf,false,some ⟨38,[],none,false⟩⟩,⟨256,.vt,false,some ⟨38,[],none,false⟩⟩,⟨256,.ff,false,some ⟨38,[],none,false⟩⟩,⟨256,.cr,false,some ⟨38,[],none,false⟩⟩,⟨256,.cr,true,some ⟨38,[],none,false⟩⟩,⟨256,.other,false,some ⟨0,[.code,.setEnt .checkBlank,.cb,.emb (.saw 3)],some 2,true⟩⟩,⟨256,.other,false,some ⟨68,[],none,false⟩⟩,⟨256,.other,false,some ⟨39,[],none,false⟩⟩]⟩,⟨[40,51,55],none,[],[⟨256,.other,false,some ⟨60,[],none,false⟩⟩,⟨256,.ws,false,some ⟨60,[],none,false⟩⟩,⟨256,.lf,false,some ⟨60,[],none,false⟩⟩,⟨256,.vt,false,some ⟨60,[],none,false⟩⟩,⟨256,.ff,false,some ⟨60,[],none,false⟩⟩,⟨256,.cr,false,some ⟨60,[],none,false⟩⟩,⟨256,.cr,true,some ⟨60,[],none,false⟩⟩,⟨256,.other,false,some ⟨0,[.code,.setEnt .checkBlank,.cb,.emb (.saw 2)],some 1,true⟩⟩,⟨256,.other,false,some ⟨69,[],none,false⟩⟩,⟨256,.other,false,some ⟨61,[],none,false⟩⟩]⟩,⟨[24,38,58],none,[],[⟨256,.other,false,some ⟨38,[],none,false⟩⟩,⟨256,.ws,false,some ⟨38,[],none,false⟩⟩,⟨256,.lf,false,some ⟨38,[],none,false⟩⟩,⟨256,.vt,false,some ⟨38,[],none,false⟩⟩,⟨256,.ff,false,some ⟨38,[],none,false⟩⟩,⟨256,.cr,false,some ⟨38,[],none,false⟩⟩,⟨256,.cr,true,some ⟨38,[],none,false⟩⟩,⟨256,.other,false,some ⟨0,[.code,.setEnt .checkBlank,.cb,.emb (.saw 3)],some 2,true⟩⟩,⟨256,.other,false,some ⟨70,[],none,false⟩⟩]⟩,⟨[40,51,56],none,[],[⟨256,.other,false,some ⟨60,[],none,false⟩⟩,⟨256,.ws,false,some ⟨60,[],none,false⟩⟩,⟨256,.lf,false,some ⟨60,[],none,false⟩⟩,⟨256,.vt,false,some ⟨60,[],none,false⟩⟩,⟨256,.ff,false,some ⟨60,[],none,false⟩⟩,⟨256,.cr,false,some ⟨60,[],none,false⟩⟩,⟨256,.cr,true,some ⟨60,[],none,false⟩⟩,⟨256,.other,false,some ⟨0,[.code,.setEnt .checkBlank,.cb,.emb (.saw 2)],some 1,true⟩⟩,⟨256,.other,false,some ⟨71,[],none,false⟩⟩,⟨256,.other,false,some ⟨61,[],none,false⟩⟩]⟩,⟨[39,58],none,[],[⟨256,.other,false,some ⟨72,[],none,false⟩⟩,⟨256,.ws,false,some ⟨72,[],none,false⟩⟩,⟨256,.lf,false,some ⟨72,[],none,false⟩⟩,⟨256,.vt,false,some ⟨72,[],none,false⟩⟩,⟨256,.ff,false,some ⟨72,[],none,false⟩⟩,⟨256,.cr,false,some ⟨72,[],none,false⟩⟩,⟨256,.cr,true,some ⟨72,[],none,false⟩⟩,⟨256,.other,false,some ⟨0,[.code,.setEnt .checkBlank,.cb,.emb (.saw 3)],some 2,true⟩⟩]⟩,⟨[40,57],none,[],[⟨256,.other,false,some ⟨72,[],none,false⟩⟩,⟨256,.ws,false,some ⟨72,[],none,false⟩⟩,⟨256,.lf,false,some ⟨72,[],none,false⟩⟩,⟨256,.vt,false,some ⟨72,[],none,false⟩⟩,⟨256,.ff,false,some ⟨72,[],none,false⟩⟩,⟨256,.cr,false,some ⟨72,[],none,false⟩⟩,⟨256,.cr,true,some ⟨72,[],none,false⟩⟩,⟨256,.other,false,some ⟨0,[.code,.setEnt .checkBlank,.cb,.emb (.saw 2)],some 1,true⟩⟩]⟩,⟨[40,58],none,[],[⟨256,.other,false,some ⟨72,[],none,false⟩⟩,⟨256,.ws,false,some ⟨72,[],none,false⟩⟩,⟨256,.lf,false,some ⟨72,[],none,false⟩⟩,⟨256,.vt,false,some ⟨72,[],none,false⟩⟩,⟨256,.ff,false,some ⟨72,[],none,false⟩⟩,⟨256,.cr,false,some ⟨72,[],none,false⟩⟩,⟨256,.cr,true,some ⟨72,[],none,false⟩⟩,⟨256,.other,false,some ⟨0,[.code,.setEnt .checkBlank,.cb,.emb (.saw 2)],some 1,true⟩⟩]⟩]
theorem emb47_rowsOk : rowsOk emb47_nfa [] (emb47_cs.map (·.1)) emb47_rows = true := by decide +kernel
def emb47_D : Dfa emb47_nfa := ⟨emb47_masks, [], emb47_cs, emb47_rows, emb47_masksIn, emb47_repOk, emb47_rowsOk⟩

/-- The automaton of `Emb.VbAspx.vb_aspx_cs_line`. -/
def emb52_nfa : Nfa := ⟨[⟨0,137438953472,[],[],0,0⟩,⟨2,1152921504606846976,[],[],0,0⟩,⟨17,4294967808,[],[(5,.setEnt (.own 0))],0,0⟩,⟨18,549755813888,[],[(6,.comment)],0,0⟩,⟨19,20769187438975013792580502015705088,[],[],0,0⟩,⟨23,17179869184,[],[(7,.code)],0,0⟩,⟨28,8192,[],[(8,.setEnt .newline)],0,0⟩,⟨30,1024,[],[(8,.setEnt .newline)],0,0⟩,⟨31,4096,[],[(8,.setEnt .newline)],0,0⟩,⟨32,8192,[.crAlone],[(8,.setEnt .newline)],0,0⟩,⟨33,115792089237316195423570985008687907853269984665640564039457584007908834656767,[],[(9,.setEnt (.own 3))],0,0⟩],[[⟨1,4611686018427387904,[],[(3,.code),(4,.emb .back)],0,0⟩],[],[⟨3,140737488355328,[],[],0,0⟩],[⟨4,41538374877950027585161004031410176,[],[],0,0⟩],[⟨5,633825300261688653338028015616,[],[],0,0⟩],[⟨6,20769187438975013792580502015705088,[],[],0,0⟩],[⟨7,40564819216748073813633792999424,[],[],0,0⟩],[⟨8,5192296859743753448145125503926272,[],[],0,0⟩],[⟨9,83076749755900055170322008062820352,[],[],0,0⟩],[⟨10,4294967808,[],[],0,0⟩,⟨11,8192,[],[],0,0⟩,⟨13,1024,[],[(0,.setEnt .internalNl)],0,0⟩,⟨14,4096,[],[(0,.setEnt .internalNl)],0,0⟩,⟨15,8192,[.crAlone],[(0,.setEnt .internalNl)],0,0⟩,⟨16,4611686018427387904,[],[(2,.emb .outry),(3,.code),(4,.emb .back)],0,0⟩],[⟨10,4294967808,[],[],0,0⟩,⟨11,8192,[],[],0,0⟩,⟨13,1024,[],[(0,.setEnt .internalNl)],0,0⟩,⟨14,4096,[],[(0,.setEnt .internalNl)],0,0⟩,⟨15,8192,[.crAlone],[(0,.setEnt .internalNl)],0,0⟩,⟨16,4611686018427387904,[],[(2,.emb .outry),(3,.code),(4,.emb .back)],0,0⟩],[⟨12,1024,[],[(0,.setEnt .internalNl)],0,0⟩],[⟨10,4294967808,[],[(1,.cb)],0,0⟩,⟨11,8192,[],[(1,.cb)],0,0⟩,⟨13,1024,[],[(1,.cb),(0,.setEnt .internalNl)],0,0⟩,⟨14,4096,[],[(1,.cb),(0,.setEnt .internalNl)],0,0⟩,⟨15,8192,[.crAlone],[(1,.cb),(0,.setEnt .internalNl)],0,0⟩,⟨16,4611686018427387904,[],[(1,.cb),(2,.emb .outry),(3,.code),(4,.emb .back)],0,0⟩],[⟨10,4294967808,[],[(1,.cb)],0,0⟩,⟨11,8192,[],[(1,.cb)],0,0⟩,⟨13,1024,[],[(1,.cb),(0,.setEnt .internalNl)],0,0⟩,⟨14,4096,[],[(1,.cb),(0,.setEnt .internalNl)],0,0⟩,⟨15,8192,[.crAlone],[(1,.cb),(0,.setEnt .internalNl)],0,0⟩,⟨16,4611686018427387904,[],[(1,.cb),(2,.emb .outry),(3,.code),(4,.emb .back)],0,0⟩],[⟨10,4294967808,[],[(1,.cb)],0,0⟩,⟨11,8192,[],[(1,.cb)],0,0⟩,⟨13,1024,[],[(1,.cb),(0,.setEnt .internalNl)],0,0⟩,⟨14,4096,[],[(1,.cb),(0,.setEnt .internalNl)],0,0⟩,⟨15,8192,[.crAlone],[(1,.cb),(0,.setEnt .internalNl)],0,0⟩,⟨16,4611686018427387904,[],[(1,.cb),(2,.emb .outry),(3,.code),(4,.emb .back)],0,0⟩],[⟨10,4294967808,[],[(1,.cb)],0,0⟩,⟨11,8192,[],[(1,.cb)],0,0⟩,⟨13,1024,[],[(1,.cb),(0,.setEnt .internalNl)],0,0⟩,⟨14,4096,[],[(1,.cb),(0,.setEnt .internalNl)],0,0⟩,⟨15,8192,[.crAlone],[(1,.cb),(0,.setEnt .internalNl)],0,0⟩,⟨16,4611686018427387904,[],[(1,.cb),(2,.emb .outry),(3,.code),(4,.emb .back)],0,0⟩],[],[⟨17,4294967808,[],[(5,.setEnt (.own 0))],0,0⟩],[⟨22,115792089237316195423570985008687907853269984665640564039457584007913129626623,[],[],0,0⟩],[⟨20,2535301201046754613352112062464,[],[],0,0⟩],[⟨21,649037107467969181018140687990784,[],[(6,.comment)],0,0⟩],[⟨22,115792089237316195423570985008687907853269984665640564039457584007913129626623,[],[],0,0⟩],[⟨22,115792089237316195423570985008687907853269984665640564039457584007913129626623,[],[],0,0⟩],[⟨24,115792089237316195423570985008687907853269984665635612279300442486796353260543,[],[],0,0⟩,⟨25,4951760157141521099596496896,[],[],0,0⟩,⟨27,17179869184,[],[],0,0⟩],[⟨24,115792089237316195423570985008687907853269984665635612279300442486796353260543,[],[],0,0⟩,⟨25,4951760157141521099596496896,[],[],0,0⟩,⟨27,17179869184,[],[],0,0⟩],[⟨26,115792089237316195423570985008687907853269984665640564039457584007913129626623,[],[],0,0⟩],[⟨24,115792089237316195423570985008687907853269984665635612279300442486796353260543,[],[],0,0⟩,⟨25,4951760157141521099596496896,[],[],0,0⟩,⟨27,17179869184,[],[],0,0⟩],[],[⟨29,1024,[],[(8,.setEnt .newline)],0,0⟩],[],[],[],[],[]],[none,some (0,[]),none,none,none,none,none,none,none,none,none,none,none,none,none,none,some (0,[]),some (1,[]),some (2,[]),none,none,some (2,[]),some (2,[]),none,none,none,none,some (3,[]),none,some (4,[]),some (4,[]),some (4,[]),some (4,[]),some (5,[])],[5,6,7,8,9,10]⟩
def emb52_masks : List Nat := [137438953472,1152921504606846976,4294967808,549755813888,20769187438975013792580502015705088,17179869184,8192,1024,4096,115792089237316195423570985008687907853269984665640564039457584007908834656767,4611686018427387904,140737488355328,41538374877950027585161004031410176,633825300261688653338028015616,40564819216748073813633792999424,5192296859743753448145125503926272,83076749755900055170322008062820352,115792089237316195423570985008687907853269984665640564039457584007913129626623,2535301201046754613352112062464,649037107467969181018140687990784,115792089237316195423570985008687907853269984665635612279300442486796353260543,4951760157141521099596496896]
def emb52_cs : List (Nat × Nat) := [(0,115792089237316195423570985008687907853269833396255626524418983430740106002943),(9,4294967808),(10,1024),(11,2048),(12,4096),(13,8192),(34,17179869184),(37,137438953472),(39,549755813888),(47,140737488355328),(60,1152921504606846976),(62,4611686018427387904),(67,633825300261688653338028015616),(69,2535301201046754613352112062464),(73,40564819216748073813633792999424),(77,649037107467969181018140687990784),(80,5192296859743753448145125503926272),(82,20769187438975013792580502015705088),(83,41538374877950027585161004031410176),(84,83076749755900055170322008062820352),(92,4951760157141521099596496896)]
theorem emb52_masksIn : masksIn emb52_nfa emb52_masks = true := by decide +kernel
theorem emb52_repOk : repOk emb52_masks emb52_cs = true := by decide +kernel
def emb52_rows : List Row := [⟨[],none,[],[⟨256,.other,false,some ⟨0,[.setEnt (.own 3)],some 5,true⟩⟩,⟨256,.ws,false,some ⟨1,[.setEnt (.own 0)],some 1,false⟩⟩,⟨256,.lf,false,some ⟨0,[.setEnt .newline],some 4,true⟩⟩,⟨256,.vt,false,none⟩,⟨256,.ff,false,some ⟨0,[.setEnt .newline],some 4,true⟩⟩,⟨256,.cr,false,some ⟨2,[.setEnt .newline],none,false⟩⟩,⟨256,.cr,true,some ⟨3,[.setEnt .newline],some 4,false⟩⟩,⟨256,.other,false,some ⟨4,[.code,.setEnt (.own 3)],some 5,false⟩⟩,⟨256,.other,false,some ⟨5,[.setEnt (.own 3)],some 5,false⟩⟩,⟨256,.other,false,some ⟨6,[.comment,.setEnt (.own 3)],some 2,false⟩⟩,⟨256,.other,false,some ⟨7,[.setEnt (.own 3)],some 5,false⟩⟩,⟨256,.other,false,some ⟨8,[.setEnt (.own 3)],some 5,false⟩⟩]⟩,⟨[17],some 1,[],[⟨256,.other,false,none⟩,⟨256,.ws,false,some ⟨1,[.setEnt (.own 0)],some 1,false⟩⟩,⟨256,.lf,false,none⟩,⟨256,.vt,false,none⟩,⟨256,.ff,false,none⟩,⟨256,.cr,false,none⟩,⟨256,.cr,true,none⟩]⟩,⟨[28],none,[],[⟨256,.other,false,none⟩,⟨256,.ws,false,none⟩,⟨256,.lf,false,some ⟨0,[.setEnt .newline],some 4,true⟩⟩,⟨256,.vt,false,none⟩,⟨256,.ff,false,none⟩,⟨256,.cr,false,none⟩,⟨256,.cr,true,none⟩]⟩,⟨[28,32],some 4,[],[⟨256,.other,false,none⟩,⟨256,.ws,false,none⟩,⟨256,.lf,false,some ⟨0,[.setEnt .newline],some 4,true⟩⟩,⟨256,.vt,false,none⟩,⟨256,.ff,false,none⟩,⟨256,.cr,false,none⟩,⟨256,.cr,true,none⟩]⟩,⟨[23,33],some 5,[],[⟨256,.other,false,some ⟨9,[],none,false⟩⟩,⟨256,.ws,false,some ⟨9,[],none,false⟩⟩,⟨256,.lf,false,none⟩,⟨256,.vt,false,some ⟨9,[],none,false⟩⟩,⟨256,.ff,false,none⟩,⟨256,.cr,false,none⟩,⟨256,.cr,true,none⟩,⟨256,.other,false,some ⟨0,[],some 3,true⟩⟩,⟨256,.other,false,some ⟨10,[],none,false⟩⟩]⟩,⟨[0,33],some 5,[],[⟨256,.other,false,none⟩,⟨256,.ws,false,none⟩,⟨256,.lf,false,none⟩,⟨256,.vt,false,none⟩,⟨256,.ff,false,none⟩,⟨256,.cr,false,none⟩,⟨256,.cr,true,none⟩,⟨256,.other,false,some ⟨0,[.code,.emb .back],some 0,true⟩⟩]⟩,⟨[18,33],some 2,[],[⟨256,.other,false,some ⟨11,[],some 2,false⟩⟩,⟨256,.ws,false,some ⟨11,[],some 2,false⟩⟩,⟨256,.lf,false,none⟩,⟨256,.vt,false,some ⟨11,[],some 2,false⟩⟩,⟨256,.ff,false,none⟩,⟨256,.cr,false,none⟩,⟨256,.cr,true,none⟩]⟩,⟨[2,33],some 5,[],[⟨256,.other,false,none⟩,⟨256,.ws,false,none⟩,⟨256,.lf,false,none⟩,⟨256,.vt,false,none⟩,⟨256,.ff,false,none⟩,⟨256,.cr,false,none⟩,⟨256,.cr,true,none⟩,⟨256,.other,false,some ⟨12,[],none,false⟩⟩]⟩,⟨[19,33],some 5,[],[⟨256,.other,false,none⟩,⟨256,.ws,false,none⟩,⟨256,.lf,false,none⟩,⟨256,.vt,false,none⟩,⟨256,.ff,false,none⟩,⟨256,.cr,false,none⟩,⟨256,.cr,true,none⟩,⟨256,.other,false,some ⟨13,[],none,false⟩⟩]⟩,⟨[24],none,[],[⟨256,.other,false,some ⟨9,[],none,false⟩⟩,⟨256,.ws,false,some ⟨9,[],none,false⟩⟩,⟨256,.lf,false,none⟩,⟨256,.vt,false,some ⟨9,[],none,false⟩⟩,⟨256,.ff,false,none⟩,⟨256,.cr,false,none⟩,⟨256,.cr,true,none⟩,⟨256,.other,false,some ⟨0,[],some 3,true⟩⟩,⟨256,.other,false,some ⟨10,[],none,false⟩⟩]⟩,⟨[25],none,[],[⟨256,.other,false,some ⟨14,[],none,false⟩⟩,⟨256,.ws,false,some ⟨14,[],none,false⟩⟩,⟨256,.lf,false,none⟩,⟨256,.vt,false,some ⟨14,[],none,false⟩⟩,⟨256,.ff,false,none⟩,⟨256,.cr,false,none⟩,⟨256,.cr,true,none⟩]⟩,⟨[22],some 2,[],[⟨256,.other,false,some ⟨11,[],some 2,false⟩⟩,⟨256,.ws,false,some ⟨11,[],some 2,false⟩⟩,⟨256,.lf,false,none⟩,⟨256,.vt,false,some ⟨11,[],some 2,false⟩⟩,⟨256,.ff,false,none⟩,⟨256,.cr,false,none⟩,⟨256,.cr,true,none⟩]⟩,⟨[3],none,[],[⟨256,.other,false,none⟩,⟨256,.ws,false,none⟩,⟨256,.lf,false,none⟩,⟨256,.vt,false,none⟩,⟨256,.ff,false,none⟩,⟨256,.cr,false,none⟩,⟨256,.cr,true,none⟩,⟨256,.other,false,some ⟨15,[],none,false⟩⟩]⟩,⟨[20],none,[],[⟨256,.other,false,none⟩,⟨256,.ws,false,none⟩,⟨256,.lf,false,none⟩,⟨256,.vt,false,none⟩,⟨256,.ff,false,none⟩,⟨256,.cr,false,none⟩,⟨256,.cr,true,none⟩,⟨256,.other,false,some ⟨16,[.comment],some 2,false⟩⟩]⟩,⟨[26],none,[],[⟨256,.other,false,some ⟨9,[],none,false⟩⟩,⟨256,.ws,false,some ⟨9,[],none,false⟩⟩,⟨256,.lf,false,none⟩,⟨256,.vt,false,some ⟨9,[],none,false⟩⟩,⟨256,.ff,false,none⟩,⟨256,.cr,false,none⟩,⟨256,.cr,true,none⟩,⟨256,.other,false,some ⟨0,[],some 3,true⟩⟩,⟨256,.other,false,some ⟨10,[],none,false⟩⟩]⟩,⟨[4],none,[],[⟨256,.other,false,none⟩,⟨256,.ws,false,none⟩,⟨256,.lf,false,none⟩,⟨256,.vt,false,none⟩,⟨256,.ff,false,none⟩,⟨256,.cr,false,none⟩,⟨256,.cr,true,none⟩,⟨256,.other,false,some ⟨17,[],none,false⟩⟩]⟩,⟨[21],some 2,[],[⟨256,.other,false,some ⟨11,[],some 2,false⟩⟩,⟨256,.ws,false,some ⟨11,[],some 2,false⟩⟩,⟨256,.lf,false,none⟩,⟨256,.vt,false,some ⟨11,[],some 2,false⟩⟩,⟨256,.ff,false,none⟩,⟨256,.cr,false,none⟩,⟨256,.cr,true,none⟩]⟩,⟨[5],none,[],[⟨256,.other,false,none⟩,⟨256,.ws,false,none⟩,⟨256,.lf,false,none⟩,⟨256,.vt,false,none⟩,⟨256,.ff,false,none⟩,⟨256,.cr,false,none⟩,⟨256,.cr,true,none⟩,⟨256,.other,false,some ⟨18,[],none,false⟩⟩]⟩,⟨[6],none,[],[⟨256,.other,false,none⟩,⟨256,.ws,false,none⟩,⟨256,.lf,false,none⟩,⟨256,.vt,false,none⟩,⟨256,.ff,false,none⟩,⟨256,.cr,false,none⟩,⟨256,.cr,true,none⟩,⟨256,.other,false,some ⟨19,[],none,false⟩⟩]⟩,⟨[7],none,[],[⟨256,.other,false,none⟩,⟨256,.ws,false,none⟩,⟨256,.lf,false,none⟩,⟨256,.vt,false,none⟩,⟨256,.ff,false,none⟩,⟨256,.cr,false,none⟩,⟨256,.cr,true,none⟩,⟨256,.other,false,some ⟨20,[],none,false⟩⟩]⟩,⟨[8],none,[],[⟨256,.other,false,none⟩,⟨256,.ws,false,none⟩,⟨256,.lf,false,none⟩,⟨256,.vt,false,none⟩,⟨256,.ff,false,none⟩,⟨256,.cr,false,none⟩,⟨256,.cr,true,none⟩,⟨256,.other,false,some ⟨21,[],none,false⟩⟩]⟩,⟨[9],none,[],[⟨256,.other,false,none⟩,⟨256,.ws,false,some ⟨22,[],none,false⟩⟩,⟨256,.lf,false,some ⟨23,[.setEnt .internalNl],none,false⟩⟩,⟨256,.vt,false,none⟩,⟨256,.ff,false,some ⟨24,[.setEnt .internalNl],none,false⟩⟩,⟨256,.cr,false,some ⟨25,[],none,false⟩⟩,⟨256,.cr,true,some ⟨26,[.setEnt .internalNl],none,false⟩⟩,⟨256,.other,false,some ⟨0,[.emb .outry,.code,.emb .back],some 0,true⟩⟩]⟩,⟨[10],none,[],[⟨256,.other,false,none⟩,⟨256,.ws,false,some ⟨22,[],none,false⟩⟩,⟨256,.lf,false,some ⟨23,[.setEnt .internalNl],none,false⟩⟩,⟨256,.vt,false,none⟩,⟨256,.ff,false,some ⟨24,[.setEnt .internalNl],none,false⟩⟩,⟨256,.cr,false,some ⟨25,[],none,false⟩⟩,⟨256,.cr,true,some ⟨26,[.setEnt .internalNl],none,false⟩⟩,⟨256,.other,false,some ⟨0,[.emb .outry,.code,.emb .back],some 0,true⟩⟩]⟩,⟨[13],none,[],[⟨256,.other,false,none⟩,⟨256,.ws,false,some ⟨22,[.cb],none,false⟩⟩,⟨256,.lf,false,some ⟨23,[.setEnt .internalNl,.cb],none,false⟩⟩,⟨256,.vt,false,none⟩,⟨256,.ff,false,some ⟨24,[.setEnt .internalNl,.cb],none,false⟩⟩,⟨256,.cr,false,some ⟨25,[.cb],none,false⟩⟩,⟨256,.cr,true,some ⟨26,[.setEnt .internalNl,.cb],none,false⟩⟩,⟨256,.other,false,some ⟨0,[.cb,.emb .outry,.code,.emb .back],some 0,true⟩⟩]⟩,⟨[14],none,[],[⟨256,.other,false,none⟩,⟨256,.ws,false,some ⟨22,[.cb],none,false⟩⟩,⟨256,.lf,false,some ⟨23,[.setEnt .internalNl,.cb],none,false⟩⟩,⟨256,.vt,false,none⟩,⟨256,.ff,false,some ⟨24,[.setEnt .internalNl,.cb],none,false⟩⟩,⟨256,.cr,false,some ⟨25,[.cb],none,false⟩⟩,⟨256,.cr,true,some ⟨26,[.setEnt .internalNl,.cb],none,false⟩⟩,⟨256,.other,false,some ⟨0,[.cb,.emb .outry,.code,.emb .back],some 0,true⟩⟩]⟩,⟨[11],none,[],[⟨256,.other,false,none⟩,⟨256,.ws,false,none⟩,⟨256,.lf,false,some ⟨27,[.setEnt .internalNl],none,false⟩⟩,⟨256,.vt,false,none⟩,⟨256,.ff,false,none⟩,⟨256,.cr,false,none⟩,⟨256,.cr,true,none⟩]⟩,⟨[11,15],none,[],[⟨256,.other,false,none⟩,⟨256,.ws,false,some ⟨22,[.cb],none,false⟩⟩,⟨256,.lf,false,some ⟨28,[.setEnt .internalNl,.cb],none,false⟩⟩,⟨256,.vt,false,none⟩,⟨256,.ff,false,some ⟨24,[.setEnt .internalNl,.cb],none,false⟩⟩,⟨256,.cr,false,some ⟨25,[.cb],none,false⟩⟩,⟨256,.cr,true,some ⟨26,[.setEnt .internalNl,.cb],none,false⟩⟩,⟨256,.other,false,some ⟨0,[.cb,.emb .outry,.code,.emb .back],some 0,true⟩⟩]⟩,⟨[12],none,[],[⟨256,.other,false,none⟩,⟨256,.ws,false,some ⟨22,[.cb],none,false⟩⟩,⟨256,.lf,false,some ⟨23,[.setEnt .internalNl,.cb],none,false⟩⟩,⟨256,.vt,false,none⟩,⟨256,.ff,false,some ⟨24,[.setEnt .internalNl,.cb],none,false⟩⟩,⟨256,.cr,false,some ⟨25,[.cb],none,false⟩⟩,⟨256,.cr,true,some ⟨26,[.setEnt .internalNl,.cb],none,false⟩⟩,⟨256,.other,false,some ⟨0,[.cb,.emb .outry,.code,.emb .back],some 0,true⟩⟩]⟩,⟨[12,13],none,[],[⟨256,.other,false,none⟩,⟨256,.ws,false,some ⟨22,[.cb],none,false⟩⟩,⟨256,.lf,false,some ⟨23,[.setEnt .internalNl,.cb],none,false⟩⟩,⟨256,.vt,false,none⟩,⟨256,.ff,false,some ⟨24,[.setEnt .internalNl,.cb],none,false⟩⟩,⟨256,.cr,false,some ⟨25,[.cb],none,false⟩⟩,⟨256,.cr,true,some ⟨26,[.setEnt .internalNl,.cb],none,false⟩⟩,⟨256,.other,false,some ⟨0,[.cb,.emb .outry,.code,.emb .back],some 0,true⟩⟩]⟩]
theorem emb52_rowsOk : rowsOk emb52_nfa [] (emb52_cs.map (·.1)) emb52_rows = true := by decide +kernel
def emb52_D : Dfa emb52_nfa := ⟨emb52_masks, [], emb52_cs, emb52_rows, emb52_masksIn, emb52_repOk, emb52_rowsOk⟩

/-- The automaton of `Emb.Haml.haml_ruby_line`. -/
def emb56_nfa : Nfa := ⟨[⟨0,8192,[],[],0,0⟩,⟨2,1024,[],[],0,0⟩,⟨3,4096,[],[],0,0⟩,⟨4,8192,[.crAlone],[],0,0⟩,⟨6,4294967808,[],[(4,.setEnt (.own 0))],0,0⟩,⟨7,34359738368,[],[(5,.comment)],0,0⟩,⟨9,2305843009213693952,[],[],0,2⟩,⟨26,549755813888,[],[(12,.enqueue),(13,.code)],0,0⟩,⟨37,17179869184,[],[(20,.enqueue),(21,.code)],0,0⟩,⟨48,137438953472,[],[],0,0⟩,⟨61,79228162514264337593543950336,[],[(36,.enqueue),(37,.code)],0,0⟩,⟨72,140737488355328,[],[],0,0⟩,⟨77,137438953472,[],[],0,0⟩,⟨90,8192,[],[(53,.setEnt .newline)],0,0⟩,⟨92,1024,[],[(53,.setEnt .newline)],0,0⟩,⟨93,4096,[],[(53,.setEnt .newline)],0,0⟩,⟨94,8192,[.crAlone],[(53,.setEnt .newline)],0,0⟩,⟨95,115792089237316195423570985008687907853269984665640564039457584007908834656767,[],[(54,.setEnt (.own 3))],0,0⟩],[[⟨1,1024,[],[],0,0⟩],[⟨5,115792089237316195423570985008687907853269984665640564039457584007913129639935,[],[(0,.setEnt .internalNl),(1,.cb),(2,.fhold 0),(3,.emb .back)],0,0⟩],[⟨5,115792089237316195423570985008687907853269984665640564039457584007913129639935,[],[(0,.setEnt .internalNl),(1,.cb),(2,.fhold 0),(3,.emb .back)],0,0⟩],[⟨5,115792089237316195423570985008687907853269984665640564039457584007913129639935,[],[(0,.setEnt .internalNl),(1,.cb),(2,.fhold 0),(3,.emb .back)],0,0⟩],[⟨5,115792089237316195423570985008687907853269984665640564039457584007913129639935,[],[(0,.setEnt .internalNl),(1,.cb),(2,.fhold 0),(3,.emb .back)],0,0⟩],[],[⟨6,4294967808,[],[(4,.setEnt (.own 0))],0,0⟩],[⟨8,115792089237316195423570985008687907853269984665640564039457584007913129626623,[],[],0,0⟩],[⟨8,115792089237316195423570985008687907853269984665640564039457584007913129626623,[],[],0,0⟩],[⟨10,316912650057057350374175801344,[],[],0,2⟩],[⟨11,2535301200456458802993406410752,[],[],0,2⟩],[⟨12,10141204801825835211973625643008,[],[],0,2⟩],[⟨13,40564819207303340847894502572032,[],[],0,2⟩],[⟨14,1298074214633706907132624082305024,[],[(6,.enqueue),(7,.comment)],0,2⟩],[⟨15,8192,[],[],0,2⟩,⟨17,1024,[],[],0,2⟩,⟨18,4096,[],[],0,2⟩,⟨19,8192,[.crAlone],[],0,2⟩,⟨20,4294967808,[],[],0,2⟩,⟨21,115792089237316195423570985008687907853269984665640564039457584007908834658815,[],[(10,.comment)],0,2⟩,⟨22,2305843009213693952,[],[],0,2⟩],[⟨16,1024,[],[],0,2⟩],[⟨15,8192,[],[(8,.setEnt .internalNl),(9,.emb (.cb 1))],0,2⟩,⟨17,1024,[],[(8,.setEnt .internalNl),(9,.emb (.cb 1))],0,2⟩,⟨18,4096,[],[(8,.setEnt .internalNl),(9,.emb (.cb 1))],0,2⟩,⟨19,8192,[.crAlone],[(8,.setEnt .internalNl),(9,.emb (.cb 1))],0,2⟩,⟨20,4294967808,[],[(8,.setEnt .internalNl),(9,.emb (.cb 1))],0,2⟩,⟨21,115792089237316195423570985008687907853269984665640564039457584007908834658815,[],[(8,.setEnt .internalNl),(9,.emb (.cb 1)),(10,.comment)],0,2⟩,⟨22,2305843009213693952,[],[(8,.setEnt .internalNl),(9,.emb (.cb 1))],0,2⟩],[⟨15,8192,[],[(8,.setEnt .internalNl),(9,.emb (.cb 1))],0,2⟩,⟨17,1024,[],[(8,.setEnt .internalNl),(9,.emb (.cb 1))],0,2⟩,⟨18,4096,[],[(8,.setEnt .internalNl),(9,.emb (.cb 1))],0,2⟩,⟨19,8192,[.crAlone],[(8,.setEnt .internalNl),(9,.emb (.cb 1))],0,2⟩,⟨20,4294967808,[],[(8,.setEnt .internalNl),(9,.emb (.cb 1))],0,2⟩,⟨21,115792089237316195423570985008687907853269984665640564039457584007908834658815,[],[(8,.setEnt .internalNl),(9,.emb (.cb 1)),(10,.comment)],0,2⟩,⟨22,2305843009213693952,[],[(8,.setEnt .internalNl),(9,.emb (.cb 1))],0,2⟩],[⟨15,8192,[],[(8,.setEnt .internalNl),(9,.emb (.cb 1))],0,2⟩,⟨17,1024,[],[(8,.setEnt .internalNl),(9,.emb (.cb 1))],0,2⟩,⟨18,4096,[],[(8,.setEnt .internalNl),(9,.emb (.cb 1))],0,2⟩,⟨19,8192,[.crAlone],[(8,.setEnt .internalNl),(9,.emb (.cb 1))],0,2⟩,⟨20,4294967808,[],[(8,.setEnt .internalNl),(9,.emb (.cb 1))],0,2⟩,⟨21,115792089237316195423570985008687907853269984665640564039457584007908834658815,[],[(8,.setEnt .internalNl),(9,.emb (.cb 1)),(10,.comment)],0,2⟩,⟨22,2305843009213693952,[],[(8,.setEnt .internalNl),(9,.emb (.cb 1))],0,2⟩],[⟨15,8192,[],[(8,.setEnt .internalNl),(9,.emb (.cb 1))],0,2⟩,⟨17,1024,[],[(8,.setEnt .internalNl),(9,.emb (.cb 1))],0,2⟩,⟨18,4096,[],[(8,.setEnt .internalNl),(9,.emb (.cb 1))],0,2⟩,⟨19,8192,[.crAlone],[(8,.setEnt .internalNl),(9,.emb (.cb 1))],0,2⟩,⟨20,4294967808,[],[(8,.setEnt .internalNl),(9,.emb (.cb 1))],0,2⟩,⟨21,115792089237316195423570985008687907853269984665640564039457584007908834658815,[],[(8,.setEnt .internalNl),(9,.emb (.cb 1)),(10,.comment)],0,2⟩,⟨22,2305843009213693952,[],[(8,.setEnt .internalNl),(9,.emb (.cb 1))],0,2⟩],[⟨15,8192,[],[],0,2⟩,⟨17,1024,[],[],0,2⟩,⟨18,4096,[],[],0,2⟩,⟨19,8192,[.crAlone],[],0,2⟩,⟨20,4294967808,[],[],0,2⟩,⟨21,115792089237316195423570985008687907853269984665640564039457584007908834658815,[],[(10,.comment)],0,2⟩,⟨22,2305843009213693952,[],[],0,2⟩],[⟨15,8192,[],[],0,2⟩,⟨17,1024,[],[],0,2⟩,⟨18,4096,[],[],0,2⟩,⟨19,8192,[.crAlone],[],0,2⟩,⟨20,4294967808,[],[],0,2⟩,⟨21,115792089237316195423570985008687907853269984665640564039457584007908834658815,[],[(10,.comment)],0,2⟩,⟨22,2305843009213693952,[],[],0,2⟩],[⟨23,2535301200456458802993406410752,[],[],0,0⟩],[⟨24,1298074214633706907132624082305024,[],[],0,0⟩],[⟨25,1267650600228229401496703205376,[],[(11,.commit)],2,0⟩],[],[⟨27,8192,[],[],0,0⟩,⟨29,1024,[],[],0,0⟩,⟨30,4096,[],[],0,0⟩,⟨31,8192,[.crAlone],[],0,0⟩,⟨32,4294967808,[],[],0,0⟩,⟨33,115792089237316195423570985008687907853269984665635612279300442486259482348031,[],[(16,.code)],0,0⟩,⟨34,4951760157141521099596496896,[],[],0,0⟩,⟨36,549755813888,[],[(18,.commit),(19,.code)],0,0⟩],[⟨28,1024,[],[],0,0⟩],[⟨27,8192,[],[(14,.setEnt .internalNl),(15,.emb (.cb 1))],0,0⟩,⟨29,1024,[],[(14,.setEnt .internalNl),(15,.emb (.cb 1))],0,0⟩,⟨30,4096,[],[(14,.setEnt .internalNl),(15,.emb (.cb 1))],0,0⟩,⟨31,8192,[.crAlone],[(14,.setEnt .internalNl),(15,.emb (.cb 1))],0,0⟩,⟨32,4294967808,[],[(14,.setEnt .internalNl),(15,.emb (.cb 1))],0,0⟩,⟨33,115792089237316195423570985008687907853269984665635612279300442486259482348031,[],[(14,.setEnt .internalNl),(15,.emb (.cb 1)),(16,.code)],0,0⟩,⟨34,4951760157141521099596496896,[],[(14,.setEnt .internalNl),(15,.emb (.cb 1))],0,0⟩,⟨36,549755813888,[],[(14,.setEnt .internalNl),(15,.emb (.cb 1)),(18,.commit),(19,.code)],0,0⟩],[⟨27,8192,[],[(14,.setEnt .internalNl),(15,.emb (.cb 1))],0,0⟩,⟨29,1024,[],[(14,.setEnt .internalNl),(15,.emb (.cb 1))],0,0⟩,⟨30,4096,[],[(14,.setEnt .internalNl),(15,.emb (.cb 1))],0,0⟩,⟨31,8192,[.crAlone],[(14,.setEnt .internalNl),(15,.emb (.cb 1))],0,0⟩,⟨32,4294967808,[],[(14,.setEnt .internalNl),(15,.emb (.cb 1))],0,0⟩,⟨33,115792089237316195423570985008687907853269984665635612279300442486259482348031,[],[(14,.setEnt .internalNl),(15,.emb (.cb 1)),(16,.code)],0,0⟩,⟨34,4951760157141521099596496896,[],[(14,.setEnt .internalNl),(15,.emb (.cb 1))],0,0⟩,⟨36,549755813888,[],[(14,.setEnt .internalNl),(15,.emb (.cb 1)),(18,.commit),(19,.code)],0,0⟩],[⟨27,8192,[],[(14,.setEnt .internalNl),(15,.emb (.cb 1))],0,0⟩,⟨29,1024,[],[(14,.setEnt .internalNl),(15,.emb (.cb 1))],0,0⟩,⟨30,4096,[],[(14,.setEnt .internalNl),(15,.emb (.cb 1))],0,0⟩,⟨31,8192,[.crAlone],[(14,.setEnt .internalNl),(15,.emb (.cb 1))],0,0⟩,⟨32,4294967808,[],[(14,.setEnt .internalNl),(15,.emb (.cb 1))],0,0⟩,⟨33,115792089237316195423570985008687907853269984665635612279300442486259482348031,[],[(14,.setEnt .internalNl),(15,.emb (.cb 1)),(16,.code)],0,0⟩,⟨34,4951760157141521099596496896,[],[(14,.setEnt .internalNl),(15,.emb (.cb 1))],0,0⟩,⟨36,549755813888,[],[(14,.setEnt .internalNl),(15,.emb (.cb 1)),(18,.commit),(19,.code)],0,0⟩],[⟨27,8192,[],[(14,.setEnt .internalNl),(15,.emb (.cb 1))],0,0⟩,⟨29,1024,[],[(14,.setEnt .internalNl),(15,.emb (.cb 1))],0,0⟩,⟨30,4096,[],[(14,.setEnt .internalNl),(15,.emb (.cb 1))],0,0⟩,⟨31,8192,[.crAlone],[(14,.setEnt .internalNl),(15,.emb (.cb 1))],0,0⟩,⟨32,4294967808,[],[(14,.setEnt .internalNl),(15,.emb (.cb 1))],0,0⟩,⟨33,115792089237316195423570985008687907853269984665635612279300442486259482348031,[],[(14,.setEnt .internalNl),(15,.emb (.cb 1)),(16,.code)],0,0⟩,⟨34,4951760157141521099596496896,[],[(14,.setEnt .internalNl),(15,.emb (.cb 1))],0,0⟩,⟨36,549755813888,[],[(14,.setEnt .internalNl),(15,.emb (.cb 1)),(18,.commit),(19,.code)],0,0⟩],[⟨27,8192,[],[],0,0⟩,⟨29,1024,[],[],0,0⟩,⟨30,4096,[],[],0,0⟩,⟨31,8192,[.crAlone],[],0,0⟩,⟨32,4294967808,[],[],0,0⟩,⟨33,115792089237316195423570985008687907853269984665635612279300442486259482348031,[],[(16,.code)],0,0⟩,⟨34,4951760157141521099596496896,[],[],0,0⟩,⟨36,549755813888,[],[(18,.commit),(19,.code)],0,0⟩],[⟨27,8192,[],[],0,0⟩,⟨29,1024,[],[],0,0⟩,⟨30,4096,[],[],0,0⟩,⟨31,8192,[.crAlone],[],0,0⟩,⟨32,4294967808,[],[],0,0⟩,⟨33,115792089237316195423570985008687907853269984665635612279300442486259482348031,[],[(16,.code)],0,0⟩,⟨34,4951760157141521099596496896,[],[],0,0⟩,⟨36,549755813888,[],[(18,.commit),(19,.code)],0,0⟩],[⟨35,115792089237316195423570985008687907853269984665640564039457584007913129626623,[],[(17,.code)],0,0⟩],[⟨27,8192,[],[],0,0⟩,⟨29,1024,[],[],0,0⟩,⟨30,4096,[],[],0,0⟩,⟨31,8192,[.crAlone],[],0,0⟩,⟨32,4294967808,[],[],0,0⟩,⟨33,115792089237316195423570985008687907853269984665635612279300442486259482348031,[],[(16,.code)],0,0⟩,⟨34,4951760157141521099596496896,[],[],0,0⟩,⟨36,549755813888,[],[(18,.commit),(19,.code)],0,0⟩],[],[⟨38,8192,[],[],0,0⟩,⟨40,1024,[],[],0,0⟩,⟨41,4096,[],[],0,0⟩,⟨42,8192,[.crAlone],[],0,0⟩,⟨43,4294967808,[],[],0,0⟩,⟨44,115792089237316195423570985008687907853269984665635612279300442486792058292735,[],[(24,.code)],0,0⟩,⟨45,4951760157141521099596496896,[],[],0,0⟩,⟨47,17179869184,[],[(26,.commit),(27,.code)],0,0⟩],[⟨39,1024,[],[],0,0⟩],[⟨38,8192,[],[(22,.setEnt .internalNl),(23,.emb (.cb 1))],0,0⟩,⟨40,1024,[],[(22,.setEnt .internalNl),(23,.emb (.cb 1))],0,0⟩,⟨41,4096,[],[(22,.setEnt .internalNl),(23,.emb (.cb 1))],0,0⟩,⟨42,8192,[.crAlone],[(22,.setEnt .internalNl),(23,.emb (.cb 1))],0,0⟩,⟨43,4294967808,[],[(22,.setEnt .internalNl),(23,.emb (.cb 1))],0,0⟩,⟨44,115792089237316195423570985008687907853269984665635612279300442486792058292735,[],[(22,.setEnt .internalNl),(23,.emb (.cb 1)),(24,.code)],0,0⟩,⟨45,4951760157141521099596496896,[],[(22,.setEnt .internalNl),(23,.emb (.cb 1))],0,0⟩,⟨47,17179869184,[],[(22,.setEnt .internalNl),(23,.emb (.cb 1)),(26,.commit),(27,.code)],0,0⟩],[⟨38,8192,[],[(22,.setEnt .internalNl),(23,.emb (.cb 1))],0,0⟩,⟨40,1024,[],[(22,.setEnt .internalNl),(23,.emb (.cb 1))],0,0⟩,⟨41,4096,[],[(22,.setEnt .internalNl),(23,.emb (.cb 1))],0,0⟩,⟨42,8192,[.crAlone],[(22,.setEnt .internalNl),(23,.emb (.cb 1))],0,0⟩,⟨43,4294967808,[],[(22,.setEnt .internalNl),(23,.emb (.cb 1))],0,0⟩,⟨44,115792089237316195423570985008687907853269984665635612279300442486792058292735,[],[(22,.setEnt .internalNl),(23,.emb (.cb 1)),(24,.code)],0,0⟩,⟨45,4951760157141521099596496896,[],[(22,.setEnt .internalNl),(23,.emb (.cb 1))],0,0⟩,⟨47,17179869184,[],[(22,.setEnt .internalNl),(23,.emb (.cb 1)),(26,.commit),(27,.code)],0,0⟩],[⟨38,8192,[],[(22,.setEnt .internalNl),(23,.emb (.cb 1))],0,0⟩,⟨40,1024,[],[(22,.setEnt .internalNl),(23,.emb (.cb 1))],0,0⟩,⟨41,4096,[],[(22,.setEnt .internalNl),(23,.emb (.cb 1))],0,0⟩,⟨42,8192,[.crAlone],[(22,.setEnt .internalNl),(23,.emb (.cb 1))],0,0⟩,⟨43,4294967808,[],[(22,.setEnt .internalNl),(23,.emb (.cb 1))],0,0⟩,⟨44,115792089237316195423570985008687907853269984665635612279300442486792058292735,[],[(22,.setEnt .internalNl),(23,.emb (.cb 1)),(24,.code)],0,0⟩,⟨45,4951760157141521099596496896,[],[(22,.setEnt .internalNl),(23,.emb (.cb 1))],0,0⟩,⟨47,17179869184,[],[(22,.setEnt .internalNl),(23,.emb (.cb 1)),(26,.commit),(27,.code)],0,0⟩],[⟨38,8192,[],[(22,.setEnt .internalNl),(23,.emb (.cb 1))],0,0⟩,⟨40,1024,[],[(22,.setEnt .internalNl),(23,.emb (.cb 1))],0,0⟩,⟨41,4096,[],[(22,.setEnt .internalNl),(23,.emb (.cb 1))],0,0⟩,⟨42,8192,[.crAlone],[(22,.setEnt .internalNl),(23,.emb (.cb 1))],0,0⟩,⟨43,4294967808,[],[(22,.setEnt .internalNl),(23,.emb (.cb 1))],0,0⟩,⟨44,115792089237316195423570985008687907853269984665635612279300442486792058292735,[],[(22,.setEnt .internalNl),(23,.emb (.cb 1)),(24,.code)],0,0⟩,⟨45,4951760157141521099596496896,[],[(22,.setEnt .internalNl),(23,.emb (.cb 1))],0,0⟩,⟨47,17179869184,[],[(22,.setEnt .internalNl),(23,.emb (.cb 1)),(26,.commit),(27,.code)],0,0⟩],[⟨38,8192,[],[],0,0⟩,⟨40,1024,[],[],0,0⟩,⟨41,4096,[],[],0,0⟩,⟨42,8192,[.crAlone],[],0,0⟩,⟨43,4294967808,[],[],0,0⟩,⟨44,115792089237316195423570985008687907853269984665635612279300442486792058292735,[],[(24,.code)],0,0⟩,⟨45,4951760157141521099596496896,[],[],0,0⟩,⟨47,17179869184,[],[(26,.commit),(27,.code)],0,0⟩],[⟨38,8192,[],[],0,0⟩,⟨40,1024,[],[],0,0⟩,⟨41,4096,[],[],0,0⟩,⟨42,8192,[.crAlone],[],0,0⟩,⟨43,4294967808,[],[],0,0⟩,⟨44,115792089237316195423570985008687907853269984665635612279300442486792058292735,[],[(24,.code)],0,0⟩,⟨45,4951760157141521099596496896,[],[],0,0⟩,⟨47,17179869184,[],[(26,.commit),(27,.code)],0,0⟩],[⟨46,115792089237316195423570985008687907853269984665640564039457584007913129626623,[],[(25,.code)],0,0⟩],[⟨38,8192,[],[],0,0⟩,⟨40,1024,[],[],0,0⟩,⟨41,4096,[],[],0,0⟩,⟨42,8192,[.crAlone],[],0,0⟩,⟨43,4294967808,[],[],0,0⟩,⟨44,115792089237316195423570985008687907853269984665635612279300442486792058292735,[],[(24,.code)],0,0⟩,⟨45,4951760157141521099596496896,[],[],0,0⟩,⟨47,17179869184,[],[(26,.commit),(27,.code)],0,0⟩],[],[⟨49,10384593719487506896290251007852544,[],[],0,0⟩,⟨50,10633823968755207061801218131552632832,[],[(28,.enqueue),(29,.code)],0,0⟩],[⟨50,10633823968755207061801218131552632832,[],[(28,.enqueue),(29,.code)],0,0⟩],[⟨51,8192,[],[],0,0⟩,⟨53,1024,[],[],0,0⟩,⟨54,4096,[],[],0,0⟩,⟨55,8192,[.crAlone],[],0,0⟩,⟨56,4294967808,[],[],0,0⟩,⟨57,115792089237316195423570985008687907853227449369760591451053237616482050886143,[],[(32,.code)],0,0⟩,⟨58,4951760157141521099596496896,[],[],0,0⟩,⟨60,42535295875020828247204870327187275776,[],[(34,.commit),(35,.code)],0,0⟩],[⟨52,1024,[],[],0,0⟩],[⟨51,8192,[],[(30,.setEnt .internalNl),(31,.emb (.cb 1))],0,0⟩,⟨53,1024,[],[(30,.setEnt .internalNl),(31,.emb (.cb 1))],0,0⟩,⟨54,4096,[],[(30,.setEnt .internalNl),(31,.emb (.cb 1))],0,0⟩,⟨55,8192,[.crAlone],[(30,.setEnt .internalNl),(31,.emb (.cb 1))],0,0⟩,⟨56,4294967808,[],[(30,.setEnt .internalNl),(31,.emb (.cb 1))],0,0⟩,⟨57,115792089237316195423570985008687907853227449369760591451053237616482050886143,[],[(30,.setEnt .internalNl),(31,.emb (.cb 1)),(32,.code)],0,0⟩,⟨58,4951760157141521099596496896,[],[(30,.setEnt .internalNl),(31,.emb (.cb 1))],0,0⟩,⟨60,42535295875020828247204870327187275776,[],[(30,.setEnt .internalNl),(31,.emb (.cb 1)),(34,.commit),(35,.code)],0,0⟩],[⟨51,8192,[],[(30,.setEnt .internalNl),(31,.emb (.cb 1))],0,0⟩,⟨53,1024,[],[(30,.setEnt .internalNl),(31,.emb (.cb 1))],0,0⟩,⟨54,4096,[],[(30,.setEnt .internalNl),(31,.emb (.cb 1))],0,0⟩,⟨55,8192,[.crAlone],[(30,.setEnt .internalNl),(31,.emb (.cb 1))],0,0⟩,⟨56,4294967808,[],[(30,.setEnt .internalNl),(31,.emb (.cb 1))],0,0⟩,⟨57,115792089237316195423570985008687907853227449369760591451053237616482050886143,[],[(30,.setEnt .internalNl),(31,.emb (.cb 1)),(32,.code)],0,0⟩,⟨58,4951760157141521099596496896,[],[(30,.setEnt .internalNl),(31,.emb (.cb 1))],0,0⟩,⟨60,42535295875020828247204870327187275776,[],[(30,.setEnt .internalNl),(31,.emb (.cb 1)),(34,.commit),(35,.code)],0,0⟩],[⟨51,8192,[],[(30,.setEnt .internalNl),(31,.emb (.cb 1))],0,0⟩,⟨53,1024,[],[(30,.setEnt .internalNl),(31,.emb (.cb 1))],0,0⟩,⟨54,4096,[],[(30,.setEnt .internalNl),(31,.emb (.cb 1))],0,0⟩,⟨55,8192,[.crAlone],[(30,.setEnt .internalNl),(31,.emb (.cb 1))],0,0⟩,⟨56,4294967808,[],[(30,.setEnt .internalNl),(31,.emb (.cb 1))],0,0⟩,⟨57,115792089237316195423570985008687907853227449369760591451053237616482050886143,[],[(30,.setEnt .internalNl),(31,.emb (.cb 1)),(32,.code)],0,0⟩,⟨58,4951760157141521099596496896,[],[(30,.setEnt .internalNl),(31,.emb (.cb 1))],0,0⟩,⟨60,42535295875020828247204870327187275776,[],[(30,.setEnt .internalNl),(31,.emb (.cb 1)),(34,.commit),(35,.code)],0,0⟩],[⟨51,8192,[],[(30,.setEnt .internalNl),(31,.emb (.cb 1))],0,0⟩,⟨53,1024,[],[(30,.setEnt .internalNl),(31,.emb (.cb 1))],0,0⟩,⟨54,4096,[],[(30,.setEnt .internalNl),(31,.emb (.cb 1))],0,0⟩,⟨55,8192,[.crAlone],[(30,.setEnt .internalNl),(31,.emb (.cb 1))],0,0⟩,⟨56,4294967808,[],[(30,.setEnt .internalNl),(31,.emb (.cb 1))],0,0⟩,⟨57,115792089237316195423570985008687907853227449369760591451053237616482050886143,[],[(30,.setEnt .internalNl),(31,.emb (.cb 1)),(32,.code)],0,0⟩,⟨58,4951760157141521099596496896,[],[(30,.setEnt .internalNl),(31,.emb (.cb 1))],0,0⟩,⟨60,42535295875020828247204870327187275776,[],[(30,.setEnt .internalNl),(31,.emb (.cb 1)),(34,.commit),(35,.code)],0,0⟩],[⟨51,8192,[],[],0,0⟩,⟨53,1024,[],[],0,0⟩,⟨54,4096,[],[],0,0⟩,⟨55,8192,[.crAlone],[],0,0⟩,⟨56,4294967808,[],[],0,0⟩,⟨57,115792089237316195423570985008687907853227449369760591451053237616482050886143,[],[(32,.code)],0,0⟩,⟨58,4951760157141521099596496896,[],[],0,0⟩,⟨60,42535295875020828247204870327187275776,[],[(34,.commit),(35,.code)],0,0⟩],[⟨51,8192,[],[],0,0⟩,⟨53,1024,[],[],0,0⟩,⟨54,4096,[],[],0,0⟩,⟨55,8192,[.crAlone],[],0,0⟩,⟨56,4294967808,[],[],0,0⟩,⟨57,115792089237316195423570985008687907853227449369760591451053237616482050886143,[],[(32,.code)],0,0⟩,⟨58,4951760157141521099596496896,[],[],0,0⟩,⟨60,42535295875020828247204870327187275776,[],[(34,.commit),(35,.code)],0,0⟩],[⟨59,115792089237316195423570985008687907853269984665640564039457584007913129626623,[],[(33,.code)],0,0⟩],[⟨51,8192,[],[],0,0⟩,⟨53,1024,[],[],0,0⟩,⟨54,4096,[],[],0,0⟩,⟨55,8192,[.crAlone],[],0,0⟩,⟨56,4294967808,[],[],0,0⟩,⟨57,115792089237316195423570985008687907853227449369760591451053237616482050886143,[],[(32,.code)],0,0⟩,⟨58,4951760157141521099596496896,[],[],0,0⟩,⟨60,42535295875020828247204870327187275776,[],[(34,.commit),(35,.code)],0,0⟩],[],[⟨62,8192,[],[],0,0⟩,⟨64,1024,[],[],0,0⟩,⟨65,4096,[],[],0,0⟩,⟨66,8192,[.crAlone],[],0,0⟩,⟨67,4294967808,[],[],0,0⟩,⟨68,115792089237316195423570985008687907853269984665556384116786178149215694211583,[],[(40,.code)],0,0⟩,⟨69,4951760157141521099596496896,[],[],0,0⟩,⟨71,79228162514264337593543950336,[],[(42,.commit),(43,.code)],0,0⟩],[⟨63,1024,[],[],0,0⟩],[⟨62,8192,[],[(38,.setEnt .internalNl),(39,.emb (.cb 1))],0,0⟩,⟨64,1024,[],[(38,.setEnt .internalNl),(39,.emb (.cb 1))],0,0⟩,⟨65,4096,[],[(38,.setEnt .internalNl),(39,.emb (.cb 1))],0,0⟩,⟨66,8192,[.crAlone],[(38,.setEnt .internalNl),(39,.emb (.cb 1))],0,0⟩,⟨67,4294967808,[],[(38,.setEnt .internalNl),(39,.emb (.cb 1))],0,0⟩,⟨68,115792089237316195423570985008687907853269984665556384116786178149215694211583,[],[(38,.setEnt .internalNl),(39,.emb (.cb 1)),(40,.code)],0,0⟩,⟨69,4951760157141521099596496896,[],[(38,.setEnt .internalNl),(39,.emb (.cb 1))],0,0⟩,⟨71,79228162514264337593543950336,[],[(38,.setEnt .internalNl),(39,.emb (.cb 1)),(42,.commit),(43,.code)],0,0⟩],[⟨62,8192,[],[(38,.setEnt .internalNl),(39,.emb (.cb 1))],0,0⟩,⟨64,1024,[],[(38,.setEnt .internalNl),(39,.emb (.cb 1))],0,0⟩,⟨65,4096,[],[(38,.setEnt .internalNl),(39,.emb (.cb 1))],0,0⟩,⟨66,8192,[.crAlone],[(38,.setEnt .internalNl),(39,.emb (.cb 1))],0,0⟩,⟨67,4294967808,[],[(38,.setEnt .internalNl),(39,.emb (.cb 1))],0,0⟩,⟨68,115792089237316195423570985008687907853269984665556384116786178149215694211583,[],[(38,.setEnt .internalNl),(39,.emb (.cb 1)),(40,.code)],0,0⟩,⟨69,4951760157141521099596496896,[],[(38,.setEnt .internalNl),(39,.emb (.cb 1))],0,0⟩,⟨71,79228162514264337593543950336,[],[(38,.setEnt .internalNl),(39,.emb (.cb 1)),(42,.commit),(43,.code)],0,0⟩],[⟨62,8192,[],[(38,.setEnt .internalNl),(39,.emb (.cb 1))],0,0⟩,⟨64,1024,[],[(38,.setEnt .internalNl),(39,.emb (.cb 1))],0,0⟩,⟨65,4096,[],[(38,.setEnt .internalNl),(39,.emb (.cb 1))],0,0⟩,⟨66,8192,[.crAlone],[(38,.setEnt .internalNl),(39,.emb (.cb 1))],0,0⟩,⟨67,4294967808,[],[(38,.setEnt .internalNl),(39,.emb (.cb 1))],0,0⟩,⟨68,115792089237316195423570985008687907853269984665556384116786178149215694211583,[],[(38,.setEnt .internalNl),(39,.emb (.cb 1)),(40,.code)],0,0⟩,⟨69,4951760157141521099596496896,[],[(38,.setEnt .internalNl),(39,.emb (.cb 1))],0,0⟩,⟨71,79228162514264337593543950336,[],[(38,.setEnt .internalNl),(39,.emb (.cb 1)),(42,.commit),(43,.code)],0,0⟩],[⟨62,8192,[],[(38,.setEnt .internalNl),(39,.emb (.cb 1))],0,0⟩,⟨64,1024,[],[(38,.setEnt .internalNl),(39,.emb (.cb 1))],0,0⟩,⟨65,4096,[],[(38,.setEnt .internalNl),(39,.emb (.cb 1))],0,0⟩,⟨66,8192,[.crAlone],[(38,.setEnt .internalNl),(39,.emb (.cb 1))],0,0⟩,⟨67,4294967808,[],[(38,.setEnt .internalNl),(39,.emb (.cb 1))],0,0⟩,⟨68,115792089237316195423570985008687907853269984665556384116786178149215694211583,[],[(38,.setEnt .internalNl),(39,.emb (.cb 1)),(40,.code)],0,0⟩,⟨69,4951760157141521099596496896,[],[(38,.setEnt .internalNl),(39,.emb (.cb 1))],0,0⟩,⟨71,79228162514264337593543950336,[],[(38,.setEnt .internalNl),(39,.emb (.cb 1)),(42,.commit),(43,.code)],0,0⟩],[⟨62,8192,[],[],0,0⟩,⟨64,1024,[],[],0,0⟩,⟨65,4096,[],[],0,0⟩,⟨66,8192,[.crAlone],[],0,0⟩,⟨67,4294967808,[],[],0,0⟩,⟨68,115792089237316195423570985008687907853269984665556384116786178149215694211583,[],[(40,.code)],0,0⟩,⟨69,4951760157141521099596496896,[],[],0,0⟩,⟨71,79228162514264337593543950336,[],[(42,.commit),(43,.code)],0,0⟩],[⟨62,8192,[],[],0,0⟩,⟨64,1024,[],[],0,0⟩,⟨65,4096,[],[],0,0⟩,⟨66,8192,[.crAlone],[],0,0⟩,⟨67,4294967808,[],[],0,0⟩,⟨68,115792089237316195423570985008687907853269984665556384116786178149215694211583,[],[(40,.code)],0,0⟩,⟨69,4951760157141521099596496896,[],[],0,0⟩,⟨71,79228162514264337593543950336,[],[(42,.commit),(43,.code)],0,0⟩],[⟨70,115792089237316195423570985008687907853269984665640564039457584007913129626623,[],[(41,.code)],0,0⟩],[⟨62,8192,[],[],0,0⟩,⟨64,1024,[],[],0,0⟩,⟨65,4096,[],[],0,0⟩,⟨66,8192,[.crAlone],[],0,0⟩,⟨67,4294967808,[],[],0,0⟩,⟨68,115792089237316195423570985008687907853269984665556384116786178149215694211583,[],[(40,.code)],0,0⟩,⟨69,4951760157141521099596496896,[],[],0,0⟩,⟨71,79228162514264337593543950336,[],[(42,.commit),(43,.code)],0,0⟩],[],[⟨73,115792089237316195423570985008687907853269984665635612279300442346076044774399,[],[],0,0⟩,⟨74,4951760157141521099596496896,[],[],0,0⟩,⟨76,140737488355328,[],[(44,.code)],0,0⟩],[⟨73,115792089237316195423570985008687907853269984665635612279300442346076044774399,[],[],0,0⟩,⟨74,4951760157141521099596496896,[],[],0,0⟩,⟨76,140737488355328,[],[(44,.code)],0,0⟩],[⟨75,115792089237316195423570985008687907853269984665640564039457584007913129626623,[],[],0,0⟩],[⟨73,115792089237316195423570985008687907853269984665635612279300442346076044774399,[],[],0,0⟩,⟨74,4951760157141521099596496896,[],[],0,0⟩,⟨76,140737488355328,[],[(44,.code)],0,0⟩],[],[⟨78,2014611181111513119869832575737397248,[],[],0,0⟩],[⟨79,10633823968755207061801218131552632832,[],[(45,.enqueue),(46,.code)],0,0⟩],[⟨80,8192,[],[],0,0⟩,⟨82,1024,[],[],0,0⟩,⟨83,4096,[],[],0,0⟩,⟨84,8192,[.crAlone],[],0,0⟩,⟨85,4294967808,[],[],0,0⟩,⟨86,115792089237316195423570985008687907853227449369760591451053237616482050886143,[],[(49,.code)],0,0⟩,⟨87,4951760157141521099596496896,[],[],0,0⟩,⟨89,42535295875020828247204870327187275776,[],[(51,.commit),(52,.code)],0,0⟩],[⟨81,1024,[],[],0,0⟩],[⟨80,8192,[],[(47,.setEnt .internalNl),(48,.emb (.cb 1))],0,0⟩,⟨82,1024,[],[(47,.setEnt .internalNl),(48,.emb (.cb 1))],0,0⟩,⟨83,4096,[],[(47,.setEnt .internalNl),(48,.emb (.cb 1))],0,0⟩,⟨84,8192,[.crAlone],[(47,.setEnt .internalNl),(48,.emb (.cb 1))],0,0⟩,⟨85,4294967808,[],[(47,.setEnt .internalNl),(48,.emb (.cb 1))],0,0⟩,⟨86,115792089237316195423570985008687907853227449369760591451053237616482050886143,[],[(47,.setEnt .internalNl),(48,.emb (.cb 1)),(49,.code)],0,0⟩,⟨87,4951760157141521099596496896,[],[(47,.setEnt .internalNl),(48,.emb (.cb 1))],0,0⟩,⟨89,42535295875020828247204870327187275776,[],[(47,.setEnt .internalNl),(48,.emb (.cb 1)),(51,.commit),(52,.code)],0,0⟩],[⟨80,8192,[],[(47,.setEnt .internalNl),(48,.emb (.cb 1))],0,0⟩,⟨82,1024,[],[(47,.setEnt .internalNl),(48,.emb (.cb 1))],0,0⟩,⟨83,4096,[],[(47,.setEnt .internalNl),(48,.emb (.cb 1))],0,0⟩,⟨84,8192,[.crAlone],[(47,.setEnt .internalNl),(48,.emb (.cb 1))],0,0⟩,⟨85,4294967808,[],[(47,.setEnt .internalNl),(48,.emb (.cb 1))],0,0⟩,⟨86,115792089237316195423570985008687907853227449369760591451053237616482050886143,[],[(47,.setEnt .internalNl),(48,.emb (.cb 1)),(49,.code)],0,0⟩,⟨87,4951760157141521099596496896,[],[(47,.setEnt .internalNl),(48,.emb (.cb 1))],0,0⟩,⟨89,42535295875020828247204870327187275776,[],[(47,.setEnt .internalNl),(48,.emb (.cb 1)),(51,.commit),(52,.code)],0,0⟩],[⟨80,8192,[],[(47,.setEnt .internalNl),(48,.emb (.cb 1))],0,0⟩,⟨82,1024,[],[(47,.setEnt .internalNl),(48,.emb (.cb 1))],0,0⟩,⟨83,4096,[],[(47,.setEnt .internalNl),(48,.emb (.cb 1))],0,0⟩,⟨84,8192,[.crAlone],[(47,.setEnt .internalNl),(48,.emb (.cb 1))],0,0⟩,⟨85,4294967808,[],[(47,.setEnt .internalNl),(48,.emb (.cb 1))],0,0⟩,⟨86,115792089237316195423570985008687907853227449369760591451053237616482050886143,[],[(47,.setEnt .internalNl),(48,.emb (.cb 1)),(49,.code)],0,0⟩,⟨87,4951760157141521099596496896,[],[(47,.setEnt .internalNl),(48,.emb (.cb 1))],0,0⟩,⟨89,42535295875020828247204870327187275776,[],[(47,.setEnt .internalNl),(48,.emb (.cb 1)),(51,.commit),(52,.code)],0,0⟩],[⟨80,8192,[],[(47,.setEnt .internalNl),(48,.emb (.cb 1))],0,0⟩,⟨82,1024,[],[(47,.setEnt .internalNl),(48,.emb (.cb 1))],0,0⟩,⟨83,4096,[],[(47,.setEnt .internalNl),(48,.emb (.cb 1))],0,0⟩,⟨84,8192,[.crAlone],[(47,.setEnt .internalNl),(48,.emb (.cb 1))],0,0⟩,⟨85,4294967808,[],[(47,.setEnt .internalNl),(48,.emb (.cb 1))],0,0⟩,⟨86,115792089237316195423570985008687907853227449369760591451053237616482050886143,[],[(47,.setEnt .internalNl),(48,.emb (.cb 1)),(49,.code)],0,0⟩,⟨87,4951760157141521099596496896,[],[(47,.setEnt .internalNl),(48,.emb (.cb 1))],0,0⟩,⟨89,42535295875020828247204870327187275776,[],[(47,.setEnt .internalNl),(48,.emb (.cb 1)),(51,.commit),(52,.code)],0,0⟩],[⟨80,8192,[],[],0,0⟩,⟨82,1024,[],[],0,0⟩,⟨83,4096,[],[],0,0⟩,⟨84,8192,[.crAlone],[],0,0⟩,⟨85,4294967808,[],[],0,0⟩,⟨86,115792089237316195423570985008687907853227449369760591451053237616482050886143,[],[(49,.code)],0,0⟩,⟨87,4951760157141521099596496896,[],[],0,0⟩,⟨89,42535295875020828247204870327187275776,[],[(51,.commit),(52,.code)],0,0⟩],[⟨80,8192,[],[],0,0⟩,⟨82,1024,[],[],0,0⟩,⟨83,4096,[],[],0,0⟩,⟨84,8192,[.crAlone],[],0,0⟩,⟨85,4294967808,[],[],0,0⟩,⟨86,115792089237316195423570985008687907853227449369760591451053237616482050886143,[],[(49,.code)],0,0⟩,⟨87,4951760157141521099596496896,[],[],0,0⟩,⟨89,42535295875020828247204870327187275776,[],[(51,.commit),(52,.code)],0,0⟩],[⟨88,115792089237316195423570985008687907853269984665640564039457584007913129626623,[],[(50,.code)],0,0⟩],[⟨80,8192,[],[],0,0⟩,⟨82,1024,[],[],0,0⟩,⟨83,4096,[],[],0,0⟩,⟨84,8192,[.crAlone],[],0,0⟩,⟨85,4294967808,[],[],0,0⟩,⟨86,115792089237316195423570985008687907853227449369760591451053237616482050886143,[],[(49,.code)],0,0⟩,⟨87,4951760157141521099596496896,[],[],0,0⟩,⟨89,42535295875020828247204870327187275776,[],[(51,.commit),(52,.code)],0,0⟩],[],[⟨91,1024,[],[(53,.setEnt .newline)],0,0⟩],[],[],[],[],[]],[none,none,none,none,none,some (0,[]),some (1,[]),some (2,[]),some (2,[]),none,none,none,none,none,none,none,none,none,none,none,none,none,none,none,none,some (2,[]),none,none,none,none,none,none,none,none,none,none,some (3,[]),none,none,none,none,none,none,none,none,none,none,some (3,[]),none,none,none,none,none,none,none,none,none,none,none,none,some (3,[]),none,none,none,none,none,none,none,none,none,none,some (3,[]),none,none,none,none,some (3,[]),none,none,none,none,none,none,none,none,none,none,none,none,some (3,[]),none,some (4,[]),some (4,[]),some (4,[]),some (4,[]),some (5,[])],[4,5,12,53,54,55]⟩
def emb56_masks : List Nat := [8192,1024,4096,4294967808,34359738368,2305843009213693952,549755813888,17179869184,137438953472,79228162514264337593543950336,140737488355328,115792089237316195423570985008687907853269984665640564039457584007908834656767,115792089237316195423570985008687907853269984665640564039457584007913129639935,115792089237316195423570985008687907853269984665640564039457584007913129626623,316912650057057350374175801344,2535301200456458802993406410752,10141204801825835211973625643008,40564819207303340847894502572032,1298074214633706907132624082305024,115792089237316195423570985008687907853269984665640564039457584007908834658815,1267650600228229401496703205376,115792089237316195423570985008687907853269984665635612279300442486259482348031,4951760157141521099596496896,115792089237316195423570985008687907853269984665635612279300442486792058292735,10384593719487506896290251007852544,10633823968755207061801218131552632832,115792089237316195423570985008687907853227449369760591451053237616482050886143,42535295875020828247204870327187275776,115792089237316195423570985008687907853269984665556384116786178149215694211583,115792089237316195423570985008687907853269984665635612279300442346076044774399,2014611181111513119869832575737397248]
def emb56_cs : List (Nat × Nat) := [(0,115792089237316195423570985008687907853214789197037673987270271206088276689407),(9,4294967808),(10,1024),(11,2048),(12,4096),(13,8192),(34,17179869184),(35,34359738368),(37,137438953472),(39,549755813888),(40,10633823968755207061801218131552632832),(41,42535295875020828247204870327187275776),(47,140737488355328),(61,2305843009213693952),(81,10384593719487506896290251007852544),(92,4951760157141521099596496896),(96,79228162514264337593543950336),(98,316912650057057350374175801344),(100,1267650600228229401496703205376),(101,2535301200456458802993406410752),(103,10141204801825835211973625643008),(105,40564819207303340847894502572032),(110,1298074214633706907132624082305024),(114,2014611181111513119869832575737397248)]
theorem emb56_masksIn : masksIn emb56_nfa emb56_masks = true := by decide +kernel
theorem emb56_repOk : repOk emb56_masks emb56_cs = true := by decide +kernel
def emb56_rows : List Row := [⟨[],none,[],[⟨0,.other,false,some ⟨0,[.setEnt (.own 3)],some 5,true⟩⟩,⟨9,.ws,false,some ⟨1,[.setEnt (.own 0)],some 1,false⟩⟩,⟨10,.lf,false,some ⟨2,[.setEnt .newline],some 4,false⟩⟩,⟨11,.vt,false,none⟩,⟨12,.ff,false,some ⟨3,[.setEnt .newline],some 4,false⟩⟩,⟨13,.cr,false,some ⟨4,[.setEnt .newline],none,false⟩⟩,⟨13,.cr,true,some ⟨5,[.setEnt .newline],some 4,false⟩⟩,⟨34,.other,false,some ⟨6,[.enqueue,.code,.setEnt (.own 3)],some 5,false⟩⟩,⟨35,.other,false,some ⟨7,[.comment,.setEnt (.own 3)],some 2,false⟩⟩,⟨37,.other,false,some ⟨8,[.setEnt (.own 3)],some 5,false⟩⟩,⟨39,.other,false,some ⟨9,[.enqueue,.code,.setEnt (.own 3)],some 5,false⟩⟩,⟨40,.other,false,some ⟨0,[.setEnt (.own 3)],some 5,true⟩⟩,⟨41,.other,false,some ⟨0,[.setEnt (.own 3)],some 5,true⟩⟩,⟨47,.other,false,some ⟨10,[.setEnt (.own 3)],some 5,false⟩⟩,⟨61,.other,false,some ⟨11,[.setEnt (.own 3)],some 5,false⟩⟩,⟨81,.other,false,some ⟨0,[.setEnt (.own 3)],some 5,true⟩⟩,⟨92,.other,false,some ⟨0,[.setEnt (.own 3)],some 5,true⟩⟩,⟨96,.other,false,some ⟨12,[.enqueue,.code,.setEnt (.own 3)],some 5,false⟩⟩,⟨98,.other,false,some ⟨0,[.setEnt (.own 3)],some 5,true⟩⟩,⟨100,.other,false,some ⟨0,[.setEnt (.own 3)],some 5,true⟩⟩,⟨101,.other,false,some ⟨0,[.setEnt (.own 3)],some 5,true⟩⟩,⟨103,.other,false,some ⟨0,[.setEnt (.own 3)],some 5,true⟩⟩,⟨105,.other,false,some ⟨0,[.setEnt (.own 3)],some 5,true⟩⟩,⟨110,.other,false,some ⟨0,[.setEnt (.own 3)],some 5,true⟩⟩,⟨114,.other,false,some ⟨0,[.setEnt (.own 3)],some 5,true⟩⟩]⟩,⟨[6],some 1,[],[⟨0,.other,false,none⟩,⟨9,.ws,false,some ⟨1,[.setEnt (.own 0)],some 1,false⟩⟩,⟨10,.lf,false,none⟩,⟨11,.vt,false,none⟩,⟨12,.ff,false,none⟩,⟨13,.cr,false,none⟩,⟨13,.cr,true,none⟩,⟨34,.other,false,none⟩,⟨35,.other,false,none⟩,⟨37,.other,false,none⟩,⟨39,.other,false,none⟩,⟨40,.other,false,none⟩,⟨41,.other,false,none⟩,⟨47,.other,false,none⟩,⟨61,.other,false,none⟩,⟨81,.other,false,none⟩,⟨92,.other,false,none⟩,⟨96,.other,false,none⟩,⟨98,.other,false,none⟩,⟨100,.other,false,none⟩,⟨101,.other,false,none⟩,⟨103,.other,false,none⟩,⟨105,.other,false,none⟩,⟨110,.other,false,none⟩,⟨114,.other,false,none⟩]⟩,⟨[2,92],some 4,[],[⟨0,.other,false,some ⟨0,[.setEnt .internalNl,.cb,.fhold 0,.emb .back],some 0,true⟩⟩,⟨9,.ws,false,some ⟨0,[.setEnt .internalNl,.cb,.fhold 0,.emb .back],some 0,true⟩⟩,⟨10,.lf,false,some ⟨0,[.setEnt .internalNl,.cb,.fhold 0,.emb .back],some 0,true⟩⟩,⟨11,.vt,false,some ⟨0,[.setEnt .internalNl,.cb,.fhold 0,.emb .back],some 0,true⟩⟩,⟨12,.ff,false,some ⟨0,[.setEnt .internalNl,.cb,.fhold 0,.emb .back],some 0,true⟩⟩,⟨13,.cr,false,some ⟨0,[.setEnt .internalNl,.cb,.fhold 0,.emb .back],some 0,true⟩⟩,⟨13,.cr,true,some ⟨0,[.setEnt .internalNl,.cb,.fhold 0,.emb .back],some 0,true⟩⟩,⟨34,.other,false,some ⟨0,[.setEnt .internalNl,.cb,.fhold 0,.emb .back],some 0,true⟩⟩,⟨35,.other,false,some ⟨0,[.setEnt .internalNl,.cb,.fhold 0,.emb .back],some 0,true⟩⟩,⟨37,.other,false,some ⟨0,[.setEnt .internalNl,.cb,.fhold 0,.emb .back],some 0,true⟩⟩,⟨39,.other,false,some ⟨0,[.setEnt .internalNl,.cb,.fhold 0,.emb .back],some 0,true⟩⟩,⟨40,.other,false,some ⟨0,[.setEnt .internalNl,.cb,.fhold 0,.emb .back],some 0,true⟩⟩,⟨41,.other,false,some ⟨0,[.setEnt .internalNl,.cb,.fhold 0,.emb .back],some 0,true⟩⟩,⟨47,.other,false,some ⟨0,[.setEnt .internalNl,.cb,.fhold 0,.emb .back],some 0,true⟩⟩,⟨61,.other,false,some ⟨0,[.setEnt .internalNl,.cb,.fhold 0,.emb .back],some 0,true⟩⟩,⟨81,.other,false,some ⟨0,[.setEnt .internalNl,.cb,.fhold 0,.emb .back],some 0,true⟩⟩,⟨92,.other,false,some ⟨0,[.setEnt .internalNl,.cb,.fhold 0,.emb .back],some 0,true⟩⟩,⟨96,.other,false,some ⟨0,[.setEnt .internalNl,.cb,.fhold 0,.emb .back],some 0,true⟩⟩,⟨98,.other,false,some ⟨0,[.setEnt .internalNl,.cb,.fhold 0,.emb .back],some 0,true⟩⟩,⟨100,.other,false,some ⟨0,[.setEnt .internalNl,.cb,.fhold 0,.emb .back],some 0,true⟩⟩,⟨101,.other,false,some ⟨0,[.setEnt .internalNl,.cb,.fhold 0,.emb .back],some 0,true⟩⟩,⟨103,.other,false,some ⟨0,[.setEnt .internalNl,.cb,.fhold 0,.emb .back],some 0,true⟩⟩,⟨105,.other,false,some ⟨0,[.setEnt .internalNl,.cb,.fhold 0,.emb .back],some 0,true⟩⟩,⟨110,.other,false,some ⟨0,[.setEnt .internalNl,.cb,.fhold 0,.emb .back],some 0,true⟩⟩,⟨114,.other,false,some ⟨0,[.setEnt .internalNl,.cb,.fhold 0,.emb .back],some 0,true⟩⟩]⟩,⟨[3,93],some 4,[],[⟨0,.other,false,some ⟨0,[.setEnt .internalNl,.cb,.fhold 0,.emb .back],some 0,true⟩⟩,⟨9,.ws,false,some ⟨0,[.setEnt .internalNl,.cb,.fhold 0,.emb .back],some 0,true⟩⟩,⟨10,.lf,false,some ⟨0,[.setEnt .internalNl,.cb,.fhold 0,.emb .back],some 0,true⟩⟩,⟨11,.vt,false,some ⟨0,[.setEnt .internalNl,.cb,.fhold 0,.emb .back],some 0,true⟩⟩,⟨12,.ff,false,some ⟨0,[.setEnt .internalNl,.cb,.fhold 0,.emb .back],some 0,true⟩⟩,⟨13,.cr,false,some ⟨0,[.setEnt .internalNl,.cb,.fhold 0,.emb .back],some 0,true⟩⟩,⟨13,.cr,true,some ⟨0,[.setEnt .internalNl,.cb,.fhold 0,.emb .back],some 0,true⟩⟩,⟨34,.other,false,some ⟨0,[.setEnt .internalNl,.cb,.fhold 0,.emb .back],some 0,true⟩⟩,⟨35,.other,false,some ⟨0,[.setEnt .internalNl,.cb,.fhold 0,.emb .back],some 0,true⟩⟩,⟨37,.other,false,some ⟨0,[.setEnt .internalNl,.cb,.fhold 0,.emb .back],some 0,true⟩⟩,⟨39,.other,false,some ⟨0,[.setEnt .internalNl,.cb,.fhold 0,.emb .back],some 0,true⟩⟩,⟨40,.other,false,some ⟨0,[.setEnt .internalNl,.cb,.fhold 0,.emb .back],some 0,true⟩⟩,⟨41,.other,false,some ⟨0,[.setEnt .internalNl,.cb,.fhold 0,.emb .back],some 0,true⟩⟩,⟨47,.other,false,some ⟨0,[.setEnt .internalNl,.cb,.fhold 0,.emb .back],some 0,true⟩⟩,⟨61,.other,false,some ⟨0,[.setEnt .internalNl,.cb,.fhold 0,.emb .back],some 0,true⟩⟩,⟨81,.other,false,some ⟨0,[.setEnt .internalNl,.cb,.fhold 0,.emb .back],some 0,true⟩⟩,⟨92,.other,false,some ⟨0,[.setEnt .internalNl,.cb,.fhold 0,.emb .back],some 0,true⟩⟩,⟨96,.other,false,some ⟨0,[.setEnt .internalNl,.cb,.fhold 0,.emb .back],some 0,true⟩⟩,⟨98,.other,false,some ⟨0,[.setEnt .internalNl,.cb,.fhold 0,.emb .back],some 0,true⟩⟩,⟨100,.other,false,some ⟨0,[.setEnt .internalNl,.cb,.fhold 0,.emb .back],some 0,true⟩⟩,⟨101,.other,false,some ⟨0,[.setEnt .internalNl,.cb,.fhold 0,.emb .back],some 0,true⟩⟩,⟨103,.other,false,some ⟨0,[.setEnt .internalNl,.cb,.fhold 0,.emb .back],some 0,true⟩⟩,⟨105,.other,false,some ⟨0,[.setEnt .internalNl,.cb,.fhold 0,.emb .back],some 0,true⟩⟩,⟨110,.other,false,some ⟨0,[.setEnt .internalNl,.cb,.fhold 0,.emb .back],some 0,true⟩⟩,⟨114,.other,false,some ⟨0,[.setEnt .internalNl,.cb,.fhold 0,.emb .back],some 0,true⟩⟩]⟩,⟨[0,90],none,[],[⟨0,.other,false,none⟩,⟨9,.ws,false,none⟩,⟨10,.lf,false,some ⟨13,[.setEnt .newline],some 4,false⟩⟩,⟨11,.vt,false,none⟩,⟨12,.ff,false,none⟩,⟨13,.cr,false,none⟩,⟨13,.cr,true,none⟩,⟨34,.other,false,none⟩,⟨35,.other,false,none⟩,⟨37,.other,false,none⟩,⟨39,.other,false,none⟩,⟨40,.other,false,none⟩,⟨41,.other,false,none⟩,⟨47,.other,false,none⟩,⟨61,.other,false,none⟩,⟨81,.other,false,none⟩,⟨92,.other,false,none⟩,⟨96,.other,false,none⟩,⟨98,.other,false,none⟩,⟨100,.other,false,none⟩,⟨101,.other,false,none⟩,⟨103,.other,false,none⟩,⟨105,.other,false,none⟩,⟨110,.other,false,none⟩,⟨114,.other,false,none⟩]⟩,⟨[0,4,90,94],some 4,[],[⟨0,.other,false,some ⟨0,[.setEnt .internalNl,.cb,.fhold 0,.emb .back],some 0,true⟩⟩,⟨9,.ws,false,some ⟨0,[.setEnt .internalNl,.cb,.fhold 0,.emb .back],some 0,true⟩⟩,⟨10,.lf,false,some ⟨14,[.setEnt .internalNl,.cb,.fhold 0,.emb .back,.setEnt .newline],some 0,false⟩⟩,⟨11,.vt,false,some ⟨0,[.setEnt .internalNl,.cb,.fhold 0,.emb .back],some 0,true⟩⟩,⟨12,.ff,false,some ⟨0,[.setEnt .internalNl,.cb,.fhold 0,.emb .back],some 0,true⟩⟩,⟨13,.cr,false,some ⟨0,[.setEnt .internalNl,.cb,.fhold 0,.emb .back],some 0,true⟩⟩,⟨13,.cr,true,some ⟨0,[.setEnt .internalNl,.cb,.fhold 0,.emb .back],some 0,true⟩⟩,⟨34,.other,false,some ⟨0,[.setEnt .internalNl,.cb,.fhold 0,.emb .back],some 0,true⟩⟩,⟨35,.other,false,some ⟨0,[.setEnt .internalNl,.cb,.fhold 0,.emb .back],some 0,true⟩⟩,⟨37,.other,false,some ⟨0,[.setEnt .internalNl,.cb,.fhold 0,.emb .back],some 0,true⟩⟩,⟨39,.other,false,some ⟨0,[.setEnt .internalNl,.cb,.fhold 0,.emb .back],some 0,true⟩⟩,⟨40,.other,false,some ⟨0,[.setEnt .internalNl,.cb,.fhold 0,.emb .back],some 0,true⟩⟩,⟨41,.other,false,some ⟨0,[.setEnt .internalNl,.cb,.fhold 0,.emb .back],some 0,true⟩⟩,⟨47,.other,false,some ⟨0,[.setEnt .internalNl,.cb,.fhold 0,.emb .back],some 0,true⟩⟩,⟨61,.other,false,some ⟨0,[.setEnt .internalNl,.cb,.fhold 0,.emb .back],some 0,true⟩⟩,⟨81,.other,false,some ⟨0,[.setEnt .internalNl,.cb,.fhold 0,.emb .back],some 0,true⟩⟩,⟨92,.other,false,some ⟨0,[.setEnt .internalNl,.cb,.fhold 0,.emb .back],some 0,true⟩⟩,⟨96,.other,false,some ⟨0,[.setEnt .internalNl,.cb,.fhold 0,.emb .back],some 0,true⟩⟩,⟨98,.other,false,some ⟨0,[.setEnt .internalNl,.cb,.fhold 0,.emb .back],some 0,true⟩⟩,⟨100,.other,false,some ⟨0,[.setEnt .internalNl,.cb,.fhold 0,.emb .back],some 0,true⟩⟩,⟨101,.other,false,some ⟨0,[.setEnt .internalNl,.cb,.fhold 0,.emb .back],some 0,true⟩⟩,⟨103,.other,false,some ⟨0,[.setEnt .internalNl,.cb,.fhold 0,.emb .back],some 0,true⟩⟩,⟨105,.other,false,some ⟨0,[.setEnt .internalNl,.cb,.fhold 0,.emb .back],some 0,true⟩⟩,⟨110,.other,false,some ⟨0,[.setEnt .internalNl,.cb,.fhold 0,.emb .back],some 0,true⟩⟩,⟨114,.other,false,some ⟨0,[.setEnt .internalNl,.cb,.fhold 0,.emb .back],some 0,true⟩⟩]⟩,⟨[37,95],some 5,[],[⟨0,.other,false,some ⟨15,[.code],none,false⟩⟩,⟨9,.ws,false,some ⟨16,[],none,false⟩⟩,⟨10,.lf,false,some ⟨17,[],none,false⟩⟩,⟨11,.vt,false,some ⟨15,[.code],none,false⟩⟩,⟨12,.ff,false,some ⟨18,[],none,false⟩⟩,⟨13,.cr,false,some ⟨19,[],none,false⟩⟩,⟨13,.cr,true,some ⟨20,[],none,false⟩⟩,⟨34,.other,false,some ⟨0,[.commit,.code],some 3,true⟩⟩,⟨35,.other,false,some ⟨15,[.code],none,false⟩⟩,⟨37,.other,false,some ⟨15,[.code],none,false⟩⟩,⟨39,.other,false,some ⟨15,[.code],none,false⟩⟩,⟨40,.other,false,some ⟨15,[.code],none,false⟩⟩,⟨41,.other,false,some ⟨15,[.code],none,false⟩⟩,⟨47,.other,false,some ⟨15,[.code],none,false⟩⟩,⟨61,.other,false,some ⟨15,[.code],none,false⟩⟩,⟨81,.other,false,some ⟨15,[.code],none,false⟩⟩,⟨92,.other,false,some ⟨21,[],none,false⟩⟩,⟨96,.other,false,some ⟨15,[.code],none,false⟩⟩,⟨98,.other,false,some ⟨15,[.code],none,false⟩⟩,⟨100,.other,false,some ⟨15,[.code],none,false⟩⟩,⟨101,.other,false,some ⟨15,[.code],none,false⟩⟩,⟨103,.other,false,some ⟨15,[.code],none,false⟩⟩,⟨105,.other,false,some ⟨15,[.code],none,false⟩⟩,⟨110,.other,false,some ⟨15,[.code],none,false⟩⟩,⟨114,.other,false,some ⟨15,[.code],none,false⟩⟩]⟩,⟨[7,95],some 2,[],[⟨0,.other,false,some ⟨22,[],some 2,false⟩⟩,⟨9,.ws,false,some ⟨22,[],some 2,false⟩⟩,⟨10,.lf,false,none⟩,⟨11,.vt,false,some ⟨22,[],some 2,false⟩⟩,⟨12,.ff,false,none⟩,⟨13,.cr,false,none⟩,⟨13,.cr,true,none⟩,⟨34,.other,false,some ⟨22,[],some 2,false⟩⟩,⟨35,.other,false,some ⟨22,[],some 2,false⟩⟩,⟨37,.other,false,some ⟨22,[],some 2,false⟩⟩,⟨39,.other,false,some ⟨22,[],some 2,false⟩⟩,⟨40,.other,false,some ⟨22,[],some 2,false⟩⟩,⟨41,.other,false,some ⟨22,[],some 2,false⟩⟩,⟨47,.other,false,some ⟨22,[],some 2,false⟩⟩,⟨61,.other,false,some ⟨22,[],some 2,false⟩⟩,⟨81,.other,false,some ⟨22,[],some 2,false⟩⟩,⟨92,.other,false,some ⟨22,[],some 2,false⟩⟩,⟨96,.other,false,some ⟨22,[],some 2,false⟩⟩,⟨98,.other,false,some ⟨22,[],some 2,false⟩⟩,⟨100,.other,false,some ⟨22,[],some 2,false⟩⟩,⟨101,.other,false,some ⟨22,[],some 2,false⟩⟩,⟨103,.other,false,some ⟨22,[],some 2,false⟩⟩,⟨105,.other,false,some ⟨22,[],some 2,false⟩⟩,⟨110,.other,false,some ⟨22,[],some 2,false⟩⟩,⟨114,.other,false,some ⟨22,[],some 2,false⟩⟩]⟩,⟨[48,77,95],some 5,[],[⟨0,.other,false,none⟩,⟨9,.ws,false,none⟩,⟨10,.lf,false,none⟩,⟨11,.vt,false,none⟩,⟨12,.ff,false,none⟩,⟨13,.cr,false,none⟩,⟨13,.cr,true,none⟩,⟨34,.other,false,none⟩,⟨35,.other,false,none⟩,⟨37,.other,false,none⟩,⟨39,.other,false,none⟩,⟨40,.other,false,some ⟨23,[.enqueue,.code],none,false⟩⟩,⟨41,.other,false,none⟩,⟨47,.other,false,none⟩,⟨61,.other,false,none⟩,⟨81,.other,false,some ⟨24,[],none,false⟩⟩,⟨92,.other,false,none⟩,⟨96,.other,false,none⟩,⟨98,.other,false,none⟩,⟨100,.other,false,none⟩,⟨101,.other,false,none⟩,⟨103,.other,false,none⟩,⟨105,.other,false,none⟩,⟨110,.other,false,none⟩,⟨114,.other,false,some ⟨25,[],none,false⟩⟩]⟩,⟨[26,95],some 5,[],[⟨0,.other,false,some ⟨26,[.code],none,false⟩⟩,⟨9,.ws,false,some ⟨27,[],none,false⟩⟩,⟨10,.lf,false,some ⟨28,[],none,false⟩⟩,⟨11,.vt,false,some ⟨26,[.code],none,false⟩⟩,⟨12,.ff,false,some ⟨29,[],none,false⟩⟩,⟨13,.cr,false,some ⟨30,[],none,false⟩⟩,⟨13,.cr,true,some ⟨31,[],none,false⟩⟩,⟨34,.other,false,some ⟨26,[.code],none,false⟩⟩,⟨35,.other,false,some ⟨26,[.code],none,false⟩⟩,⟨37,.other,false,some ⟨26,[.code],none,false⟩⟩,⟨39,.other,false,some ⟨0,[.commit,.code],some 3,true⟩⟩,⟨40,.other,false,some ⟨26,[.code],none,false⟩⟩,⟨41,.other,false,some ⟨26,[.code],none,false⟩⟩,⟨47,.other,false,some ⟨26,[.code],none,false⟩⟩,⟨61,.other,false,some ⟨26,[.code],none,false⟩⟩,⟨81,.other,false,some ⟨26,[.code],none,false⟩⟩,⟨92,.other,false,some ⟨32,[],none,false⟩⟩,⟨96,.other,false,some ⟨26,[.code],none,false⟩⟩,⟨98,.other,false,some ⟨26,[.code],none,false⟩⟩,⟨100,.other,false,some ⟨26,[.code],none,false⟩⟩,⟨101,.other,false,some ⟨26,[.code],none,false⟩⟩,⟨103,.other,false,some ⟨26,[.code],none,false⟩⟩,⟨105,.other,false,some ⟨26,[.code],none,false⟩⟩,⟨110,.other,false,some ⟨26,[.code],none,false⟩⟩,⟨114,.other,false,some ⟨26,[.code],none,false⟩⟩]⟩,⟨[72,95],some 5,[],[⟨0,.other,false,some ⟨33,[],none,false⟩⟩,⟨9,.ws,false,some ⟨33,[],none,false⟩⟩,⟨10,.lf,false,none⟩,⟨11,.vt,false,some ⟨33,[],none,false⟩⟩,⟨12,.ff,false,none⟩,⟨13,.cr,false,none⟩,⟨13,.cr,true,none⟩,⟨34,.other,false,some ⟨33,[],none,false⟩⟩,⟨35,.other,false,some ⟨33,[],none,false⟩⟩,⟨37,.other,false,some ⟨33,[],none,false⟩⟩,⟨39,.other,false,some ⟨33,[],none,false⟩⟩,⟨40,.other,false,some ⟨33,[],none,false⟩⟩,⟨41,.other,false,some ⟨33,[],none,false⟩⟩,⟨47,.other,false,some ⟨0,[.code],some 3,true⟩⟩,⟨61,.other,false,some ⟨33,[],none,false⟩⟩,⟨81,.other,false,some ⟨33,[],none,false⟩⟩,⟨92,.other,false,some ⟨34,[],none,false⟩⟩,⟨96,.other,false,some ⟨33,[],none,false⟩⟩,⟨98,.other,false,some ⟨33,[],none,false⟩⟩,⟨100,.other,false,some ⟨33,[],none,false⟩⟩,⟨101,.other,false,some ⟨33,[],none,false⟩⟩,⟨103,.other,false,some ⟨33,[],none,false⟩⟩,⟨105,.other,false,some ⟨33,[],none,false⟩⟩,⟨110,.other,false,some ⟨33,[],none,false⟩⟩,⟨114,.other,false,some ⟨33,[],none,false⟩⟩]⟩,⟨[9,95],some 5,[],[⟨0,.other,false,none⟩,⟨9,.ws,false,none⟩,⟨10,.lf,false,none⟩,⟨11,.vt,false,none⟩,⟨12,.ff,false,none⟩,⟨13,.cr,false,none⟩,⟨13,.cr,true,none⟩,⟨34,.other,false,none⟩,⟨35,.other,false,none⟩,⟨37,.other,false,none⟩,⟨39,.other,false,none⟩,⟨40,.other,false,none⟩,⟨41,.other,false,none⟩,⟨47,.other,false,none⟩,⟨61,.other,false,none⟩,⟨81,.other,false,none⟩,⟨92,.other,false,none⟩,⟨96,.other,false,none⟩,⟨98,.other,false,some ⟨35,[],none,false⟩⟩,⟨100,.other,false,none⟩,⟨101,.other,false,none⟩,⟨103,.other,false,none⟩,⟨105,.other,false,none⟩,⟨110,.other,false,none⟩,⟨114,.other,false,none⟩]⟩,⟨[61,95],some 5,[],[⟨0,.other,false,some ⟨36,[.code],none,false⟩⟩,⟨9,.ws,false,some ⟨37,[],none,false⟩⟩,⟨10,.lf,false,some ⟨38,[],none,false⟩⟩,⟨11,.vt,false,some ⟨36,[.code],none,false⟩⟩,⟨12,.ff,false,some ⟨39,[],none,false⟩⟩,⟨13,.cr,false,some ⟨40,[],none,false⟩⟩,⟨13,.cr,true,some ⟨41,[],none,false⟩⟩,⟨34,.other,false,some ⟨36,[.code],none,false⟩⟩,⟨35,.other,false,some ⟨36,[.code],none,false⟩⟩,⟨37,.other,false,some ⟨36,[.code],none,false⟩⟩,⟨39,.other,false,some ⟨36,[.code],none,false⟩⟩,⟨40,.other,false,some ⟨36,[.code],none,false⟩⟩,⟨41,.other,false,some ⟨36,[.code],none,false⟩⟩,⟨47,.other,false,some ⟨36,[.code],none,false⟩⟩,⟨61,.other,false,some ⟨36,[.code],none,false⟩⟩,⟨81,.other,false,some ⟨36,[.code],none,false⟩⟩,⟨92,.other,false,some ⟨42,[],none,false⟩⟩,⟨96,.other,false,some ⟨0,[.commit,.code],some 3,true⟩⟩,⟨98,.other,false,some ⟨36,[.code],none,false⟩⟩,⟨100,.other,false,some ⟨36,[.code],none,false⟩⟩,⟨101,.other,false,some ⟨36,[.code],none,false⟩⟩,⟨103,.other,false,some ⟨36,[.code],none,false⟩⟩,⟨105,.other,false,some ⟨36,[.code],none,false⟩⟩,⟨110,.other,false,some ⟨36,[.code],none,false⟩⟩,⟨114,.other,false,some ⟨36,[.code],none,false⟩⟩]⟩,⟨[1,91],some 4,[],[⟨0,.other,false,some ⟨0,[.setEnt .internalNl,.cb,.fhold 0,.emb .back],some 0,true⟩⟩,⟨9,.ws,false,some ⟨0,[.setEnt .internalNl,.cb,.fhold 0,.emb .back],some 0,true⟩⟩,⟨10,.lf,false,some ⟨0,[.setEnt .internalNl,.cb,.fhold 0,.emb .back],some 0,true⟩⟩,⟨11,.vt,false,some ⟨0,[.setEnt .internalNl,.cb,.fhold 0,.emb .back],some 0,true⟩⟩,⟨12,.ff,false,some ⟨0,[.setEnt .internalNl,.cb,.fhold 0,.emb .back],some 0,true⟩⟩,⟨13,.cr,false,some ⟨0,[.setEnt .internalNl,.cb,.fhold 0,.emb .back],some 0,true⟩⟩,⟨13,.cr,true,some ⟨0,[.setEnt .internalNl,.cb,.fhold 0,.emb .back],some 0,true⟩⟩,⟨34,.other,false,some ⟨0,[.setEnt .internalNl,.cb,.fhold 0,.emb .back],some 0,true⟩⟩,⟨35,.other,false,some ⟨0,[.setEnt .internalNl,.cb,.fhold 0,.emb .back],some 0,true⟩⟩,⟨37,.other,false,some ⟨0,[.setEnt .internalNl,.cb,.fhold 0,.emb .back],some 0,true⟩⟩,⟨39,.other,false,some ⟨0,[.setEnt .internalNl,.cb,.fhold 0,.emb .back],some 0,true⟩⟩,⟨40,.other,false,some ⟨0,[.setEnt .internalNl,.cb,.fhold 0,.emb .back],some 0,true⟩⟩,⟨41,.other,false,some ⟨0,[.setEnt .internalNl,.cb,.fhold 0,.emb .back],some 0,true⟩⟩,⟨47,.other,false,some ⟨0,[.setEnt .internalNl,.cb,.fhold 0,.emb .back],some 0,true⟩⟩,⟨61,.other,false,some ⟨0,[.setEnt .internalNl,.cb,.fhold 0,.emb .back],some 0,true⟩⟩,⟨81,.other,false,some ⟨0,[.setEnt .internalNl,.cb,.fhold 0,.emb .back],some 0,true⟩⟩,⟨92,.other,false,some ⟨0,[.setEnt .internalNl,.cb,.fhold 0,.emb .back],some 0,true⟩⟩,⟨96,.other,false,some ⟨0,[.setEnt .internalNl,.cb,.fhold 0,.emb .back],some 0,true⟩⟩,⟨98,.other,false,some ⟨0,[.setEnt .internalNl,.cb,.fhold 0,.emb .back],some 0,true⟩⟩,⟨100,.other,false,some ⟨0,[.setEnt .internalNl,.cb,.fhold 0,.emb .back],some 0,true⟩⟩,⟨101,.other,false,some ⟨0,[.setEnt .internalNl,.cb,.fhold 0,.emb .back],some 0,true⟩⟩,⟨103,.other,false,some ⟨0,[.setEnt .internalNl,.cb,.fhold 0,.emb .back],some 0,true⟩⟩,⟨105,.other,false,some ⟨0,[.setEnt .internalNl,.cb,.fhold 0,.emb .back],some 0,true⟩⟩,⟨110,.other,false,some ⟨0,[.setEnt .internalNl,.cb,.fhold 0,.emb .back],some 0,true⟩⟩,⟨114,.other,false,some ⟨0,[.setEnt .internalNl,.cb,.fhold 0,.emb .back],some 0,true⟩⟩]⟩,⟨[1,5,91],some 0,[],[⟨0,.other,false,some ⟨0,[.setEnt .internalNl,.cb,.fhold 0,.emb .back],some 0,true⟩⟩,⟨9,.ws,false,some ⟨0,[.setEnt .internalNl,.cb,.fhold 0,.emb .back],some 0,true⟩⟩,⟨10,.lf,false,some ⟨0,[.setEnt .internalNl,.cb,.fhold 0,.emb .back],some 0,true⟩⟩,⟨11,.vt,false,some ⟨0,[.setEnt .internalNl,.cb,.fhold 0,.emb .back],some 0,true⟩⟩,⟨12,.ff,false,some ⟨0,[.setEnt .internalNl,.cb,.fhold 0,.emb .back],some 0,true⟩⟩,⟨13,.cr,false,some ⟨0,[.setEnt .internalNl,.cb,.fhold 0,.emb .back],some 0,true⟩⟩,⟨13,.cr,true,some ⟨0,[.setEnt .internalNl,.cb,.fhold 0,.emb .back],some 0,true⟩⟩,⟨34,.other,false,some ⟨0,[.setEnt .internalNl,.cb,.fhold 0,.emb .back],some 0,true⟩⟩,⟨35,.other,false,some ⟨0,[.setEnt .internalNl,.cb,.fhold 0,.emb .back],some 0,true⟩⟩,⟨37,.other,false,some ⟨0,[.setEnt .internalNl,.cb,.fhold 0,.emb .back],some 0,true⟩⟩,⟨39,.other,false,some ⟨0,[.setEnt .internalNl,.cb,.fhold 0,.emb .back],some 0,true⟩⟩,⟨40,.other,false,some ⟨0,[.setEnt .internalNl,.cb,.fhold 0,.emb .back],some 0,true⟩⟩,⟨41,.other,false,some ⟨0,[.setEnt .internalNl,.cb,.fhold 0,.emb .back],some 0,true⟩⟩,⟨47,.other,false,some ⟨0,[.setEnt .internalNl,.cb,.fhold 0,.emb .back],some 0,true⟩⟩,⟨61,.other,false,some ⟨0,[.setEnt .internalNl,.cb,.fhold 0,.emb .back],some 0,true⟩⟩,⟨81,.other,false,some ⟨0,[.setEnt .internalNl,.cb,.fhold 0,.emb .back],some 0,true⟩⟩,⟨92,.other,false,some ⟨0,[.setEnt .internalNl,.cb,.fhold 0,.emb .back],some 0,true⟩⟩,⟨96,.other,false,some ⟨0,[.setEnt .internalNl,.cb,.fhold 0,.emb .back],some 0,true⟩⟩,⟨98,.other,false,some ⟨0,[.setEnt .internalNl,.cb,.fhold 0,.emb .back],some 0,true⟩⟩,⟨100,.other,false,some ⟨0,[.setEnt .internalNl,.cb,.fhold 0,.emb .back],some 0,true⟩⟩,⟨101,.other,false,some ⟨0,[.setEnt .internalNl,.cb,.fhold 0,.emb .back],some 0,true⟩⟩,⟨103,.other,false,some ⟨0,[.setEnt .internalNl,.cb,.fhold 0,.emb .back],some 0,true⟩⟩,⟨105,.other,false,some ⟨0,[.setEnt .internalNl,.cb,.fhold 0,.emb .back],some 0,true⟩⟩,⟨110,.other,false,some ⟨0,[.setEnt .internalNl,.cb,.fhold 0,.emb .back],some 0,true⟩⟩,⟨114,.other,false,some ⟨0,[.setEnt .internalNl,.cb,.fhold 0,.emb .back],some 0,true⟩⟩]⟩,⟨[44],none,[],[⟨0,.other,false,some ⟨15,[.code],none,false⟩⟩,⟨9,.ws,false,some ⟨16,[],none,false⟩⟩,⟨10,.lf,false,some ⟨17,[],none,false⟩⟩,⟨11,.vt,false,some ⟨15,[.code],none,false⟩⟩,⟨12,.ff,false,some ⟨18,[],none,false⟩⟩,⟨13,.cr,false,some ⟨19,[],none,false⟩⟩,⟨13,.cr,true,some ⟨20,[],none,false⟩⟩,⟨34,.other,false,some ⟨0,[.commit,.code],some 3,true⟩⟩,⟨35,.other,false,some ⟨15,[.code],none,false⟩⟩,⟨37,.other,false,some ⟨15,[.code],none,false⟩⟩,⟨39,.other,false,some ⟨15,[.code],none,false⟩⟩,⟨40,.other,false,some ⟨15,[.code],none,false⟩⟩,⟨41,.other,false,some ⟨15,[.code],none,false⟩⟩,⟨47,.other,false,some ⟨15,[.code],none,false⟩⟩,⟨61,.other,false,some ⟨15,[.code],none,false⟩⟩,⟨81,.other,false,some ⟨15,[.code],none,false⟩⟩,⟨92,.other,false,some ⟨21,[],none,false⟩⟩,⟨96,.other,false,some ⟨15,[.code],none,false⟩⟩,⟨98,.other,false,some ⟨15,[.code],none,false⟩⟩,⟨100,.other,false,some ⟨15,[.code],none,false⟩⟩,⟨101,.other,false,some ⟨15,[.code],none,false⟩⟩,⟨103,.other,false,some ⟨15,[.code],none,false⟩⟩,⟨105,.other,false,some ⟨15,[.code],none,false⟩⟩,⟨110,.other,false,some ⟨15,[.code],none,false⟩⟩,⟨114,.other,false,some ⟨15,[.code],none,false⟩⟩]⟩,⟨[43],none,[],[⟨0,.other,false,some ⟨15,[.code],none,false⟩⟩,⟨9,.ws,false,some ⟨16,[],none,false⟩⟩,⟨10,.lf,false,some ⟨17,[],none,false⟩⟩,⟨11,.vt,false,some ⟨15,[.code],none,false⟩⟩,⟨12,.ff,false,some ⟨18,[],none,false⟩⟩,⟨13,.cr,false,some ⟨19,[],none,false⟩⟩,⟨13,.cr,true,some ⟨20,[],none,false⟩⟩,⟨34,.other,false,some ⟨0,[.commit,.code],some 3,true⟩⟩,⟨35,.other,false,some ⟨15,[.code],none,false⟩⟩,⟨37,.other,false,some ⟨15,[.code],none,false⟩⟩,⟨39,.other,false,some ⟨15,[.code],none,false⟩⟩,⟨40,.other,false,some ⟨15,[.code],none,false⟩⟩,⟨41,.other,false,some ⟨15,[.code],none,false⟩⟩,⟨47,.other,false,some ⟨15,[.code],none,false⟩⟩,⟨61,.other,false,some ⟨15,[.code],none,false⟩⟩,⟨81,.other,false,some ⟨15,[.code],none,false⟩⟩,⟨92,.other,false,some ⟨21,[],none,false⟩⟩,⟨96,.other,false,some ⟨15,[.code],none,false⟩⟩,⟨98,.other,false,some ⟨15,[.code],none,false⟩⟩,⟨100,.other,false,some ⟨15,[.code],none,false⟩⟩,⟨101,.other,false,some ⟨15,[.code],none,false⟩⟩,⟨103,.other,false,some ⟨15,[.code],none,false⟩⟩,⟨105,.other,false,some ⟨15,[.code],none,false⟩⟩,⟨110,.other,false,some ⟨15,[.code],none,false⟩⟩,⟨114,.other,false,some ⟨15,[.code],none,false⟩⟩]⟩,⟨[40],none,[],[⟨0,.other,false,some ⟨15,[.setEnt .internalNl,.emb (.cb 1),.code],none,false⟩⟩,⟨9,.ws,false,some ⟨16,[.setEnt .internalNl,.emb (.cb 1)],none,false⟩⟩,⟨10,.lf,false,some ⟨17,[.setEnt .internalNl,.emb (.cb 1)],none,false⟩⟩,⟨11,.vt,false,some ⟨15,[.setEnt .internalNl,.emb (.cb 1),.code],none,false⟩⟩,⟨12,.ff,false,some ⟨18,[.setEnt .internalNl,.emb (.cb 1)],none,false⟩⟩,⟨13,.cr,false,some ⟨19,[.setEnt .internalNl,.emb (.cb 1)],none,false⟩⟩,⟨13,.cr,true,some ⟨20,[.setEnt .internalNl,.emb (.cb 1)],none,false⟩⟩,⟨34,.other,false,some ⟨0,[.setEnt .internalNl,.emb (.cb 1),.commit,.code],some 3,true⟩⟩,⟨35,.other,false,some ⟨15,[.setEnt .internalNl,.emb (.cb 1),.code],none,false⟩⟩,⟨37,.other,false,some ⟨15,[.setEnt .internalNl,.emb (.cb 1),.code],none,false⟩⟩,⟨39,.other,false,some ⟨15,[.setEnt .internalNl,.emb (.cb 1),.code],none,false⟩⟩,⟨40,.other,false,some ⟨15,[.setEnt .internalNl,.emb (.cb 1),.code],none,false⟩⟩,⟨41,.other,false,some ⟨15,[.setEnt .internalNl,.emb (.cb 1),.code],none,false⟩⟩,⟨47,.other,false,some ⟨15,[.setEnt .internalNl,.emb (.cb 1),.code],none,false⟩⟩,⟨61,.other,false,some ⟨15,[.setEnt .internalNl,.emb (.cb 1),.code],none,false⟩⟩,⟨81,.other,false,some ⟨15,[.setEnt .internalNl,.emb (.cb 1),.code],none,false⟩⟩,⟨92,.other,false,some ⟨21,[.setEnt .internalNl,.emb (.cb 1)],none,false⟩⟩,⟨96,.other,false,some ⟨15,[.setEnt .internalNl,.emb (.cb 1),.code],none,false⟩⟩,⟨98,.other,false,some ⟨15,[.setEnt .internalNl,.emb (.cb 1),.code],none,false⟩⟩,⟨100,.other,false,some ⟨15,[.setEnt .internalNl,.emb (.cb 1),.code],none,false⟩⟩,⟨101,.other,false,some ⟨15,[.setEnt .internalNl,.emb (.cb 1),.code],none,false⟩⟩,⟨103,.other,false,some ⟨15,[.setEnt .internalNl,.emb (.cb 1),.code],none,false⟩⟩,⟨105,.other,false,some ⟨15,[.setEnt .internalNl,.emb (.cb 1),.code],none,false⟩⟩,⟨110,.other,false,some ⟨15,[.setEnt .internalNl,.emb (.cb 1),.code],none,false⟩⟩,⟨114,.other,false,some ⟨15,[.setEnt .internalNl,.emb (.cb 1),.code],none,false⟩⟩]⟩,⟨[41],none,[],[⟨0,.other,false,some ⟨15,[.setEnt .internalNl,.emb (.cb 1),.code],none,false⟩⟩,⟨9,.ws,false,some ⟨16,[.setEnt .internalNl,.emb (.cb 1)],none,false⟩⟩,⟨10,.lf,false,some ⟨17,[.setEnt .internalNl,.emb (.cb 1)],none,false⟩⟩,⟨11,.vt,false,some ⟨15,[.setEnt .internalNl,.emb (.cb 1),.code],none,false⟩⟩,⟨12,.ff,false,some ⟨18,[.setEnt .internalNl,.emb (.cb 1)],none,false⟩⟩,⟨13,.cr,false,some ⟨19,[.setEnt .internalNl,.emb (.cb 1)],none,false⟩⟩,⟨13,.cr,true,some ⟨20,[.setEnt .internalNl,.emb (.cb 1)],none,false⟩⟩,⟨34,.other,false,some ⟨0,[.setEnt .internalNl,.emb (.cb 1),.commit,.code],some 3,true⟩⟩,⟨35,.other,false,some ⟨15,[.setEnt .internalNl,.emb (.cb 1),.code],none,false⟩⟩,⟨37,.other,false,some ⟨15,[.setEnt .internalNl,.emb (.cb 1),.code],none,false⟩⟩,⟨39,.other,false,some ⟨15,[.setEnt .internalNl,.emb (.cb 1),.code],none,false⟩⟩,⟨40,.other,false,some ⟨15,[.setEnt .internalNl,.emb (.cb 1),.code],none,false⟩⟩,⟨41,.other,false,some ⟨15,[.setEnt .internalNl,.emb (.cb 1),.code],none,false⟩⟩,⟨47,.other,false,some ⟨15,[.setEnt .internalNl,.emb (.cb 1),.code],none,false⟩⟩,⟨61,.other,false,some ⟨15,[.setEnt .internalNl,.emb (.cb 1),.code],none,false⟩⟩,⟨81,.other,false,some ⟨15,[.setEnt .internalNl,.emb (.cb 1),.code],none,false⟩⟩,⟨92,.other,false,some ⟨21,[.setEnt .internalNl,.emb (.cb 1)],none,false⟩⟩,⟨96,.other,false,some ⟨15,[.setEnt .internalNl,.emb (.cb 1),.code],none,false⟩⟩,⟨98,.other,false,some ⟨15,[.setEnt .internalNl,.emb (.cb 1),.code],none,false⟩⟩,⟨100,.other,false,some ⟨15,[.setEnt .internalNl,.emb (.cb 1),.code],none,false⟩⟩,⟨101,.other,false,some ⟨15,[.setEnt .internalNl,.emb (.cb 1),.code],none,false⟩⟩,⟨103,.other,false,some ⟨15,[.setEnt .internalNl,.emb (.cb 1),.code],none,false⟩⟩,⟨105,.other,false,some ⟨15,[.setEnt .internalNl,.emb (.cb 1),.code],none,false⟩⟩,⟨110,.other,false,some ⟨15,[.setEnt .internalNl,.emb (.cb 1),.code],none,false⟩⟩,⟨114,.other,false,some ⟨15,[.setEnt .internalNl,.emb (.cb 1),.code],none,false⟩⟩]⟩,⟨[38],none,[],[⟨0,.other,false,none⟩,⟨9,.ws,false,none⟩,⟨10,.lf,false,some ⟨43,[],none,false⟩⟩,⟨11,.vt,false,none⟩,⟨12,.ff,false,none⟩,⟨13,.cr,false,none⟩,⟨13,.cr,true,none⟩,⟨34,.other,false,none⟩,⟨35,.other,false,none⟩,⟨37,.other,false,none⟩,⟨39,.other,false,none⟩,⟨40,.other,false,none⟩,⟨41,.other,false,none⟩,⟨47,.other,false,none⟩,⟨61,.other,false,none⟩,⟨81,.other,false,none⟩,⟨92,.other,false,none⟩,⟨96,.other,false,none⟩,⟨98,.other,false,none⟩,⟨100,.other,false,none⟩,⟨101,.other,false,none⟩,⟨103,.other,false,none⟩,⟨105,.other,false,none⟩,⟨110,.other,false,none⟩,⟨114,.other,false,none⟩]⟩,⟨[38,42],none,[],[⟨0,.other,false,some ⟨15,[.setEnt .internalNl,.emb (.cb 1),.code],none,false⟩⟩,⟨9,.ws,false,some ⟨16,[.setEnt .internalNl,.emb (.cb 1)],none,false⟩⟩,⟨10,.lf,false,some ⟨44,[.setEnt .internalNl,.emb (.cb 1)],none,false⟩⟩,⟨11,.vt,false,some ⟨15,[.setEnt .internalNl,.emb (.cb 1),.code],none,false⟩⟩,⟨12,.ff,false,some ⟨18,[.setEnt .internalNl,.emb (.cb 1)],none,false⟩⟩,⟨13,.cr,false,some ⟨19,[.setEnt .internalNl,.emb (.cb 1)],none,false⟩⟩,⟨13,.cr,true,some ⟨20,[.setEnt .internalNl,.emb (.cb 1)],none,false⟩⟩,⟨34,.other,false,some ⟨0,[.setEnt .internalNl,.emb (.cb 1),.commit,.code],some 3,true⟩⟩,⟨35,.other,false,some ⟨15,[.setEnt .internalNl,.emb (.cb 1),.code],none,false⟩⟩,⟨37,.other,false,some ⟨15,[.setEnt .internalNl,.emb (.cb 1),.code],none,false⟩⟩,⟨39,.other,false,some ⟨15,[.setEnt .internalNl,.emb (.cb 1),.code],none,false⟩⟩,⟨40,.other,false,some ⟨15,[.setEnt .internalNl,.emb (.cb 1),.code],none,false⟩⟩,⟨41,.other,false,some ⟨15,[.setEnt .internalNl,.emb (.cb 1),.code],none,false⟩⟩,⟨47,.other,false,some ⟨15,[.setEnt .internalNl,.emb (.cb 1),.code],none,false⟩⟩,⟨61,.other,false,some ⟨15,[.setEnt .internalNl,.emb (.cb 1),.code],none,false⟩⟩,⟨81,.other,false,some ⟨15,[.setEnt .internalNl,.emb (.cb 1),.code],none,false⟩⟩,⟨92,.other,false,some ⟨21,[.setEnt .internalNl,.emb (.cb 1)],none,false⟩⟩,⟨96,.other,false,some ⟨15,[.setEnt .internalNl,.emb (.cb 1),.code],none,false⟩⟩,⟨98,.other,false,some ⟨15,[.setEnt .internalNl,.emb (.cb 1),.code],none,false⟩⟩,⟨100,.other,false,some ⟨15,[.setEnt .internalNl,.emb (.cb 1),.code],none,false⟩⟩,⟨101,.other,false,some ⟨15,[.setEnt .internalNl,.emb (.cb 1),.code],none,false⟩⟩,⟨103,.other,false,some ⟨15,[.setEnt .internalNl,.emb (.cb 1),.code],none,false⟩⟩,⟨105,.other,false,some ⟨15,[.setEnt .internalNl,.emb (.cb 1),.code],none,false⟩⟩,⟨110,.other,false,some ⟨15,[.setEnt .internalNl,.emb (.cb 1),.code],none,false⟩⟩,⟨114,.other,false,some ⟨15,[.setEnt .internalNl,.emb (.cb 1),.code],none,false⟩⟩]⟩,⟨[45],none,[],[⟨0,.other,false,some ⟨45,[.code],none,false⟩⟩,⟨9,.ws,false,some ⟨45,[.code],none,false⟩⟩,⟨10,.lf,false,none⟩,⟨11,.vt,false,some ⟨45,[.code],none,false⟩⟩,⟨12,.ff,false,none⟩,⟨13,.cr,false,none⟩,⟨13,.cr,true,none⟩,⟨34,.other,false,some ⟨45,[.code],none,false⟩⟩,⟨35,.other,false,some ⟨45,[.code],none,false⟩⟩,⟨37,.other,false,some ⟨45,[.code],none,false⟩⟩,⟨39,.other,false,some ⟨45,[.code],none,false⟩⟩,⟨40,.other,false,some ⟨45,[.code],none,false⟩⟩,⟨41,.other,false,some ⟨45,[.code],none,false⟩⟩,⟨47,.other,false,some ⟨45,[.code],none,false⟩⟩,⟨61,.other,false,some ⟨45,[.code],none,false⟩⟩,⟨81,.other,false,some ⟨45,[.code],none,false⟩⟩,⟨92,.other,false,some ⟨45,[.code],none,false⟩⟩,⟨96,.other,false,some ⟨45,[.code],none,false⟩⟩,⟨98,.other,false,some ⟨45,[.code],none,false⟩⟩,⟨100,.other,false,some ⟨45,[.code],none,false⟩⟩,⟨101,.other,false,some ⟨45,[.code],none,false⟩⟩,⟨103,.other,false,some ⟨45,[.code],none,false⟩⟩,⟨105,.other,false,some ⟨45,[.code],none,false⟩⟩,⟨110,.other,false,some ⟨45,[.code],none,false⟩⟩,⟨114,.other,false,some ⟨45,[.code],none,false⟩⟩]⟩,⟨[8],some 2,[],[⟨0,.other,false,some ⟨22,[],some 2,false⟩⟩,⟨9,.ws,false,some ⟨22,[],some 2,false⟩⟩,⟨10,.lf,false,none⟩,⟨11,.vt,false,some ⟨22,[],some 2,false⟩⟩,⟨12,.ff,false,none⟩,⟨13,.cr,false,none⟩,⟨13,.cr,true,none⟩,⟨34,.other,false,some ⟨22,[],some 2,false⟩⟩,⟨35,.other,false,some ⟨22,[],some 2,false⟩⟩,⟨37,.other,false,some ⟨22,[],some 2,false⟩⟩,⟨39,.other,false,some ⟨22,[],some 2,false⟩⟩,⟨40,.other,false,some ⟨22,[],some 2,false⟩⟩,⟨41,.other,false,some ⟨22,[],some 2,false⟩⟩,⟨47,.other,false,some ⟨22,[],some 2,false⟩⟩,⟨61,.other,false,some ⟨22,[],some 2,false⟩⟩,⟨81,.other,false,some ⟨22,[],some 2,false⟩⟩,⟨92,.other,false,some ⟨22,[],some 2,false⟩⟩,⟨96,.other,false,some ⟨22,[],some 2,false⟩⟩,⟨98,.other,false,some ⟨22,[],some 2,false⟩⟩,⟨100,.other,false,some ⟨22,[],some 2,false⟩⟩,⟨101,.other,false,some ⟨22,[],some 2,false⟩⟩,⟨103,.other,false,some ⟨22,[],some 2,false⟩⟩,⟨105,.other,false,some ⟨22,[],some 2,false⟩⟩,⟨110,.other,false,some ⟨22,[],some 2,false⟩⟩,⟨114,.other,false,some ⟨22,[],some 2,false⟩⟩]⟩,⟨[50],none,[],[⟨0,.other,false,some ⟨46,[.code],none,false⟩⟩,⟨9,.ws,false,some ⟨47,[],none,false⟩⟩,⟨10,.lf,false,some ⟨48,[],none,false⟩⟩,⟨11,.vt,false,some ⟨46,[.code],none,false⟩⟩,⟨12,.ff,false,some ⟨49,[],none,false⟩⟩,⟨13,.cr,false,some ⟨50,[],none,false⟩⟩,⟨13,.cr,true,some ⟨51,[],none,false⟩⟩,⟨34,.other,false,some ⟨46,[.code],none,false⟩⟩,⟨35,.other,false,some ⟨46,[.code],none,false⟩⟩,⟨37,.other,false,some ⟨46,[.code],none,false⟩⟩,⟨39,.other,false,some ⟨46,[.code],none,false⟩⟩,⟨40,.other,false,some ⟨46,[.code],none,false⟩⟩,⟨41,.other,false,some ⟨0,[.commit,.code],some 3,true⟩⟩,⟨47,.other,false,some ⟨46,[.code],none,false⟩⟩,⟨61,.other,false,some ⟨46,[.code],none,false⟩⟩,⟨81,.other,false,some ⟨46,[.code],none,false⟩⟩,⟨92,.other,false,some ⟨52,[],none,false⟩⟩,⟨96,.other,false,some ⟨46,[.code],none,false⟩⟩,⟨98,.other,false,some ⟨46,[.code],none,false⟩⟩,⟨100,.other,false,some ⟨46,[.code],none,false⟩⟩,⟨101,.other,false,some ⟨46,[.code],none,false⟩⟩,⟨103,.other,false,some ⟨46,[.code],none,false⟩⟩,⟨105,.other,false,some ⟨46,[.code],none,false⟩⟩,⟨110,.other,false,some ⟨46,[.code],none,false⟩⟩,⟨114,.other,false,some ⟨46,[.code],none,false⟩⟩]⟩,⟨[49],none,[],[⟨0,.other,false,none⟩,⟨9,.ws,false,none⟩,⟨10,.lf,false,none⟩,⟨11,.vt,false,none⟩,⟨12,.ff,false,none⟩,⟨13,.cr,false,none⟩,⟨13,.cr,true,none⟩,⟨34,.other,false,none⟩,⟨35,.other,false,none⟩,⟨37,.other,false,none⟩,⟨39,.other,false,none⟩,⟨40,.other,false,some ⟨23,[.enqueue,.code],none,false⟩⟩,⟨41,.other,false,none⟩,⟨47,.other,false,none⟩,⟨61,.other,false,none⟩,⟨81,.other,false,none⟩,⟨92,.other,false,none⟩,⟨96,.other,false,none⟩,⟨98,.other,false,none⟩,⟨100,.other,false,none⟩,⟨101,.other,false,none⟩,⟨103,.other,false,none⟩,⟨105,.other,false,none⟩,⟨110,.other,false,none⟩,⟨114,.other,false,none⟩]⟩,⟨[78],none,[],[⟨0,.other,false,none⟩,⟨9,.ws,false,none⟩,⟨10,.lf,false,none⟩,⟨11,.vt,false,none⟩,⟨12,.ff,false,none⟩,⟨13,.cr,false,none⟩,⟨13,.cr,true,none⟩,⟨34,.other,false,none⟩,⟨35,.other,false,none⟩,⟨37,.other,false,none⟩,⟨39,.other,false,none⟩,⟨40,.other,false,some ⟨53,[.enqueue,.code],none,false⟩⟩,⟨41,.other,false,none⟩,⟨47,.other,false,none⟩,⟨61,.other,false,none⟩,⟨81,.other,false,none⟩,⟨92,.other,false,none⟩,⟨96,.other,false,none⟩,⟨98,.other,false,none⟩,⟨100,.other,false,none⟩,⟨101,.other,false,none⟩,⟨103,.other,false,none⟩,⟨105,.other,false,none⟩,⟨110,.other,false,none⟩,⟨114,.other,false,none⟩]⟩,⟨[33],none,[],[⟨0,.other,false,some ⟨26,[.code],none,false⟩⟩,⟨9,.ws,false,some ⟨27,[],none,false⟩⟩,⟨10,.lf,false,some ⟨28,[],none,false⟩⟩,⟨11,.vt,false,some ⟨26,[.code],none,false⟩⟩,⟨12,.ff,false,some ⟨29,[],none,false⟩⟩,⟨13,.cr,false,some ⟨30,[],none,false⟩⟩,⟨13,.cr,true,some ⟨31,[],none,false⟩⟩,⟨34,.other,false,some ⟨26,[.code],none,false⟩⟩,⟨35,.other,false,some ⟨26,[.code],none,false⟩⟩,⟨37,.other,false,some ⟨26,[.code],none,false⟩⟩,⟨39,.other,false,some ⟨0,[.commit,.code],some 3,true⟩⟩,⟨40,.other,false,some ⟨26,[.code],none,false⟩⟩,⟨41,.other,false,some ⟨26,[.code],none,false⟩⟩,⟨47,.other,false,some ⟨26,[.code],none,false⟩⟩,⟨61,.other,false,some ⟨26,[.code],none,false⟩⟩,⟨81,.other,false,some ⟨26,[.code],none,false⟩⟩,⟨92,.other,false,some ⟨32,[],none,false⟩⟩,⟨96,.other,false,some ⟨26,[.code],none,false⟩⟩,⟨98,.other,false,some ⟨26,[.code],none,false⟩⟩,⟨100,.other,false,some ⟨26,[.code],none,false⟩⟩,⟨101,.other,false,some ⟨26,[.code],none,false⟩⟩,⟨103,.other,false,some ⟨26,[.code],none,false⟩⟩,⟨105,.other,false,some ⟨26,[.code],none,false⟩⟩,⟨110,.other,false,some ⟨26,[.code],none,false⟩⟩,⟨114,.other,false,some ⟨26,[.code],none,false⟩⟩]⟩,⟨[32],none,[],[⟨0,.other,false,some ⟨26,[.code],none,false⟩⟩,⟨9,.ws,false,some ⟨27,[],none,false⟩⟩,⟨10,.lf,false,some ⟨28,[],none,false⟩⟩,⟨11,.vt,false,some ⟨26,[.code],none,false⟩⟩,⟨12,.ff,false,some ⟨29,[],none,false⟩⟩,⟨13,.cr,false,some ⟨30,[],none,false⟩⟩,⟨13,.cr,true,some ⟨31,[],none,false⟩⟩,⟨34,.other,false,some ⟨26,[.code],none,false⟩⟩,⟨35,.other,false,some ⟨26,[.code],none,false⟩⟩,⟨37,.other,false,some ⟨26,[.code],none,false⟩⟩,⟨39,.other,false,some ⟨0,[.commit,.code],some 3,true⟩⟩,⟨40,.other,false,some ⟨26,[.code],none,false⟩⟩,⟨41,.other,false,some ⟨26,[.code],none,false⟩⟩,⟨47,.other,false,some ⟨26,[.code],none,false⟩⟩,⟨61,.other,false,some ⟨26,[.code],none,false⟩⟩,⟨81,.other,false,some ⟨26,[.code],none,false⟩⟩,⟨92,.other,false,some ⟨32,[],none,false⟩⟩,⟨96,.other,false,some ⟨26,[.code],none,false⟩⟩,⟨98,.other,false,some ⟨26,[.code],none,false⟩⟩,⟨100,.other,false,some ⟨26,[.code],none,false⟩⟩,⟨101,.other,false,some ⟨26,[.code],none,false⟩⟩,⟨103,.other,false,some ⟨26,[.code],none,false⟩⟩,⟨105,.other,false,some ⟨26,[.code],none,false⟩⟩,⟨110,.other,false,some ⟨26,[.code],none,false⟩⟩,⟨114,.other,false,some ⟨26,[.code],none,false⟩⟩]⟩,⟨[29],none,[],[⟨0,.other,false,some ⟨26,[.setEnt .internalNl,.emb (.cb 1),.code],none,false⟩⟩,⟨9,.ws,false,some ⟨27,[.setEnt .internalNl,.emb (.cb 1)],none,false⟩⟩,⟨10,.lf,false,some ⟨28,[.setEnt .internalNl,.emb (.cb 1)],none,false⟩⟩,⟨11,.vt,false,some ⟨26,[.setEnt .internalNl,.emb (.cb 1),.code],none,false⟩⟩,⟨12,.ff,false,some ⟨29,[.setEnt .internalNl,.emb (.cb 1)],none,false⟩⟩,⟨13,.cr,false,some ⟨30,[.setEnt .internalNl,.emb (.cb 1)],none,false⟩⟩,⟨13,.cr,true,some ⟨31,[.setEnt .internalNl,.emb (.cb 1)],none,false⟩⟩,⟨34,.other,false,some ⟨26,[.setEnt .internalNl,.emb (.cb 1),.code],none,false⟩⟩,⟨35,.other,false,some ⟨26,[.setEnt .internalNl,.emb (.cb 1),.code],none,false⟩⟩,⟨37,.other,false,some ⟨26,[.setEnt .internalNl,.emb (.cb 1),.code],none,false⟩⟩,⟨39,.other,false,some ⟨0,[.setEnt .internalNl,.emb (.cb 1),.commit,.code],some 3,true⟩⟩,⟨40,.other,false,some ⟨26,[.setEnt .internalNl,.emb (.cb 1),.code],none,false⟩⟩,⟨41,.other,false,some ⟨26,[.setEnt .internalNl,.emb (.cb 1),.code],none,false⟩⟩,⟨47,.other,false,some ⟨26,[.setEnt .internalNl,.emb (.cb 1),.code],none,false⟩⟩,⟨61,.other,false,some ⟨26,[.setEnt .internalNl,.emb (.cb 1),.code],none,false⟩⟩,⟨81,.other,false,some ⟨26,[.setEnt .internalNl,.emb (.cb 1),.code],none,false⟩⟩,⟨92,.other,false,some ⟨32,[.setEnt .internalNl,.emb (.cb 1)],none,false⟩⟩,⟨96,.other,false,some ⟨26,[.setEnt .internalNl,.emb (.cb 1),.code],none,false⟩⟩,⟨98,.other,false,some ⟨26,[.setEnt .internalNl,.emb (.cb 1),.code],none,false⟩⟩,⟨100,.other,false,some ⟨26,[.setEnt .internalNl,.emb (.cb 1),.code],none,false⟩⟩,⟨101,.other,false,some ⟨26,[.setEnt .internalNl,.emb (.cb 1),.code],none,false⟩⟩,⟨103,.other,false,some ⟨26,[.setEnt .internalNl,.emb (.cb 1),.code],none,false⟩⟩,⟨105,.other,false,some ⟨26,[.setEnt .internalNl,.emb (.cb 1),.code],none,false⟩⟩,⟨110,.other,false,some ⟨26,[.setEnt .internalNl,.emb (.cb 1),.code],none,false⟩⟩,⟨114,.other,false,some ⟨26,[.setEnt .internalNl,.emb (.cb 1),.code],none,false⟩⟩]⟩,⟨[30],none,[],[⟨0,.other,false,some ⟨26,[.setEnt .internalNl,.emb (.cb 1),.code],none,false⟩⟩,⟨9,.ws,false,some ⟨27,[.setEnt .internalNl,.emb (.cb 1)],none,false⟩⟩,⟨10,.lf,false,some ⟨28,[.setEnt .internalNl,.emb (.cb 1)],none,false⟩⟩,⟨11,.vt,false,some ⟨26,[.setEnt .internalNl,.emb (.cb 1),.code],none,false⟩⟩,⟨12,.ff,false,some ⟨29,[.setEnt .internalNl,.emb (.cb 1)],none,false⟩⟩,⟨13,.cr,false,some ⟨30,[.setEnt .internalNl,.emb (.cb 1)],none,false⟩⟩,⟨13,.cr,true,some ⟨31,[.setEnt .internalNl,.emb (.cb 1)],none,false⟩⟩,⟨34,.other,false,some ⟨26,[.setEnt .internalNl,.emb (.cb 1),.code],none,false⟩⟩,⟨35,.other,false,some ⟨26,[.setEnt .internalNl,.emb (.cb 1),.code],none,false⟩⟩,⟨37,.other,false,some ⟨26,[.setEnt .internalNl,.emb (.cb 1),.code],none,false⟩⟩,⟨39,.other,false,some ⟨0,[.setEnt .internalNl,.emb (.cb 1),.commit,.code],some 3,true⟩⟩,⟨40,.other,false,some ⟨26,[.setEnt .internalNl,.emb (.cb 1),.code],none,false⟩⟩,⟨41,.other,false,some ⟨26,[.setEnt .internalNl,.emb (.cb 1),.code],none,false⟩⟩,⟨47,.other,false,some ⟨26,[.setEnt .internalNl,.emb (.cb 1),.code],none,false⟩⟩,⟨61,.other,false,some ⟨26,[.setEnt .internalNl,.emb (.cb 1),.code],none,false⟩⟩,⟨81,.other,false,some ⟨26,[.setEnt .internalNl,.emb (.cb 1),.code],none,false⟩⟩,⟨92,.other,false,some ⟨32,[.setEnt .internalNl,.emb (.cb 1)],none,false⟩⟩,⟨96,.other,false,some ⟨26,[.setEnt .internalNl,.emb (.cb 1),.code],none,false⟩⟩,⟨98,.other,false,some ⟨26,[.setEnt .internalNl,.emb (.cb 1),.code],none,false⟩⟩,⟨100,.other,false,some ⟨26,[.setEnt .internalNl,.emb (.cb 1),.code],none,false⟩⟩,⟨101,.other,false,some ⟨26,[.setEnt .internalNl,.emb (.cb 1),.code],none,false⟩⟩,⟨103,.other,false,some ⟨26,[.setEnt .internalNl,.emb (.cb 1),.code],none,false⟩⟩,⟨105,.other,false,some ⟨26,[.setEnt .internalNl,.emb (.cb 1),.code],none,false⟩⟩,⟨110,.other,false,some ⟨26,[.setEnt .internalNl,.emb (.cb 1),.code],none,false⟩⟩,⟨114,.other,false,some ⟨26,[.setEnt .internalNl,.emb (.cb 1),.code],none,false⟩⟩]⟩,⟨[27],none,[],[⟨0,.other,false,none⟩,⟨9,.ws,false,none⟩,⟨10,.lf,false,some ⟨54,[],none,false⟩⟩,⟨11,.vt,false,none⟩,⟨12,.ff,false,none⟩,⟨13,.cr,false,none⟩,⟨13,.cr,true,none⟩,⟨34,.other,false,none⟩,⟨35,.other,false,none⟩,⟨37,.other,false,none⟩,⟨39,.other,false,none⟩,⟨40,.other,false,none⟩,⟨41,.other,false,none⟩,⟨47,.other,false,none⟩,⟨61,.other,false,none⟩,⟨81,.other,false,none⟩,⟨92,.other,false,none⟩,⟨96,.other,false,none⟩,⟨98,.other,false,none⟩,⟨100,.other,false,none⟩,⟨101,.other,false,none⟩,⟨103,.other,false,none⟩,⟨105,.other,false,none⟩,⟨110,.other,false,none⟩,⟨114,.other,false,none⟩]⟩,⟨[27,31],none,[],[⟨0,.other,false,some ⟨26,[.setEnt .internalNl,.emb (.cb 1),.code],none,false⟩⟩,⟨9,.ws,false,some ⟨27,[.setEnt .internalNl,.emb (.cb 1)],none,false⟩⟩,⟨10,.lf,false,some ⟨55,[.setEnt .internalNl,.emb (.cb 1)],none,false⟩⟩,⟨11,.vt,false,some ⟨26,[.setEnt .internalNl,.emb (.cb 1),.code],none,false⟩⟩,⟨12,.ff,false,some ⟨29,[.setEnt .internalNl,.emb (.cb 1)],none,false⟩⟩,⟨13,.cr,false,some ⟨30,[.setEnt .internalNl,.emb (.cb 1)],none,false⟩⟩,⟨13,.cr,true,some ⟨31,[.setEnt .internalNl,.emb (.cb 1)],none,false⟩⟩,⟨34,.other,false,some ⟨26,[.setEnt .internalNl,.emb (.cb 1),.code],none,false⟩⟩,⟨35,.other,false,some ⟨26,[.setEnt .internalNl,.emb (.cb 1),.code],none,false⟩⟩,⟨37,.other,false,some ⟨26,[.setEnt .internalNl,.emb (.cb 1),.code],none,false⟩⟩,⟨39,.other,false,some ⟨0,[.setEnt .internalNl,.emb (.cb 1),.commit,.code],some 3,true⟩⟩,⟨40,.other,false,some ⟨26,[.setEnt .internalNl,.emb (.cb 1),.code],none,false⟩⟩,⟨41,.other,false,some ⟨26,[.setEnt .internalNl,.emb (.cb 1),.code],none,false⟩⟩,⟨47,.other,false,some ⟨26,[.setEnt .internalNl,.emb (.cb 1),.code],none,false⟩⟩,⟨61,.other,false,some ⟨26,[.setEnt .internalNl,.emb (.cb 1),.code],none,false⟩⟩,⟨81,.other,false,some ⟨26,[.setEnt .internalNl,.emb (.cb 1),.code],none,false⟩⟩,⟨92,.other,false,some ⟨32,[.setEnt .internalNl,.emb (.cb 1)],none,false⟩⟩,⟨96,.other,false,some ⟨26,[.setEnt .internalNl,.emb (.cb 1),.code],none,false⟩⟩,⟨98,.other,false,some ⟨26,[.setEnt .internalNl,.emb (.cb 1),.code],none,false⟩⟩,⟨100,.other,false,some ⟨26,[.setEnt .internalNl,.emb (.cb 1),.code],none,false⟩⟩,⟨101,.other,false,some ⟨26,[.setEnt .internalNl,.emb (.cb 1),.code],none,false⟩⟩,⟨103,.other,false,some ⟨26,[.setEnt .internalNl,.emb (.cb 1),.code],none,false⟩⟩,⟨105,.other,false,some ⟨26,[.setEnt .internalNl,.emb (.cb 1),.code],none,false⟩⟩,⟨110,.other,false,some ⟨26,[.setEnt .internalNl,.emb (.cb 1),.code],none,false⟩⟩,⟨114,.other,false,some ⟨26,[.setEnt .internalNl,.emb (.cb 1),.code],none,false⟩⟩]⟩,⟨[34],none,[],[⟨0,.other,false,some ⟨56,[.code],none,false⟩⟩,⟨9,.ws,false,some ⟨56,[.code],none,false⟩⟩,⟨10,.lf,false,none⟩,⟨11,.vt,false,some ⟨56,[.code],none,false⟩⟩,⟨12,.ff,false,none⟩,⟨13,.cr,false,none⟩,⟨13,.cr,true,none⟩,⟨34,.other,false,some ⟨56,[.code],none,false⟩⟩,⟨35,.other,false,some ⟨56,[.code],none,false⟩⟩,⟨37,.other,false,some ⟨56,[.code],none,false⟩⟩,⟨39,.other,false,some ⟨56,[.code],none,false⟩⟩,⟨40,.other,false,some ⟨56,[.code],none,false⟩⟩,⟨41,.other,false,some ⟨56,[.code],none,false⟩⟩,⟨47,.other,false,some ⟨56,[.code],none,false⟩⟩,⟨61,.other,false,some ⟨56,[.code],none,false⟩⟩,⟨81,.other,false,some ⟨56,[.code],none,false⟩⟩,⟨92,.other,false,some ⟨56,[.code],none,false⟩⟩,⟨96,.other,false,some ⟨56,[.code],none,false⟩⟩,⟨98,.other,false,some ⟨56,[.code],none,false⟩⟩,⟨100,.other,false,some ⟨56,[.code],none,false⟩⟩,⟨101,.other,false,some ⟨56,[.code],none,false⟩⟩,⟨103,.other,false,some ⟨56,[.code],none,false⟩⟩,⟨105,.other,false,some ⟨56,[.code],none,false⟩⟩,⟨110,.other,false,some ⟨56,[.code],none,false⟩⟩,⟨114,.other,false,some ⟨56,[.code],none,false⟩⟩]⟩,⟨[73],none,[],[⟨0,.other,false,some ⟨33,[],none,false⟩⟩,⟨9,.ws,false,some ⟨33,[],none,false⟩⟩,⟨10,.lf,false,none⟩,⟨11,.vt,false,some ⟨33,[],none,false⟩⟩,⟨12,.ff,false,none⟩,⟨13,.cr,false,none⟩,⟨13,.cr,true,none⟩,⟨34,.other,false,some ⟨33,[],none,false⟩⟩,⟨35,.other,false,some ⟨33,[],none,false⟩⟩,⟨37,.other,false,some ⟨33,[],none,false⟩⟩,⟨39,.other,false,some ⟨33,[],none,false⟩⟩,⟨40,.other,false,some ⟨33,[],none,false⟩⟩,⟨41,.other,false,some ⟨33,[],none,false⟩⟩,⟨47,.other,false,some ⟨0,[.code],some 3,true⟩⟩,⟨61,.other,false,some ⟨33,[],none,false⟩⟩,⟨81,.other,false,some ⟨33,[],none,false⟩⟩,⟨92,.other,false,some ⟨34,[],none,false⟩⟩,⟨96,.other,false,some ⟨33,[],none,false⟩⟩,⟨98,.other,false,some ⟨33,[],none,false⟩⟩,⟨100,.other,false,some ⟨33,[],none,false⟩⟩,⟨101,.other,false,some ⟨33,[],none,false⟩⟩,⟨103,.other,false,some ⟨33,[],none,false⟩⟩,⟨105,.other,false,some ⟨33,[],none,false⟩⟩,⟨110,.other,false,some ⟨33,[],none,false⟩⟩,⟨114,.other,false,some ⟨33,[],none,false⟩⟩]⟩,⟨[74],none,[],[⟨0,.other,false,some ⟨57,[],none,false⟩⟩,⟨9,.ws,false,some ⟨57,[],none,false⟩⟩,⟨10,.lf,false,none⟩,⟨11,.vt,false,some ⟨57,[],none,false⟩⟩,⟨12,.ff,false,none⟩,⟨13,.cr,false,none⟩,⟨13,.cr,true,none⟩,⟨34,.other,false,some ⟨57,[],none,false⟩⟩,⟨35,.other,false,some ⟨57,[],none,false⟩⟩,⟨37,.other,false,some ⟨57,[],none,false⟩⟩,⟨39,.other,false,some ⟨57,[],none,false⟩⟩,⟨40,.other,false,some ⟨57,[],none,false⟩⟩,⟨41,.other,false,some ⟨57,[],none,false⟩⟩,⟨47,.other,false,some ⟨57,[],none,false⟩⟩,⟨61,.other,false,some ⟨57,[],none,false⟩⟩,⟨81,.other,false,some ⟨57,[],none,false⟩⟩,⟨92,.other,false,some ⟨57,[],none,false⟩⟩,⟨96,.other,false,some ⟨57,[],none,false⟩⟩,⟨98,.other,false,some ⟨57,[],none,false⟩⟩,⟨100,.other,false,some ⟨57,[],none,false⟩⟩,⟨101,.other,false,some ⟨57,[],none,false⟩⟩,⟨103,.other,false,some ⟨57,[],none,false⟩⟩,⟨105,.other,false,some ⟨57,[],none,false⟩⟩,⟨110,.other,false,some ⟨57,[],none,false⟩⟩,⟨114,.other,false,some ⟨57,[],none,false⟩⟩]⟩,⟨[10],none,[],[⟨0,.other,false,none⟩,⟨9,.ws,false,none⟩,⟨10,.lf,false,none⟩,⟨11,.vt,false,none⟩,⟨12,.ff,false,none⟩,⟨13,.cr,false,none⟩,⟨13,.cr,true,none⟩,⟨34,.other,false,none⟩,⟨35,.other,false,none⟩,⟨37,.other,false,none⟩,⟨39,.other,false,none⟩,⟨40,.other,false,none⟩,⟨41,.other,false,none⟩,⟨47,.other,false,none⟩,⟨61,.other,false,none⟩,⟨81,.other,false,none⟩,⟨92,.other,false,none⟩,⟨96,.other,false,none⟩,⟨98,.other,false,none⟩,⟨100,.other,false,none⟩,⟨101,.other,false,some ⟨58,[],none,false⟩⟩,⟨103,.other,false,none⟩,⟨105,.other,false,none⟩,⟨110,.other,false,none⟩,⟨114,.other,false,none⟩]⟩,⟨[68],none,[],[⟨0,.other,false,some ⟨36,[.code],none,false⟩⟩,⟨9,.ws,false,some ⟨37,[],none,false⟩⟩,⟨10,.lf,false,some ⟨38,[],none,false⟩⟩,⟨11,.vt,false,some ⟨36,[.code],none,false⟩⟩,⟨12,.ff,false,some ⟨39,[],none,false⟩⟩,⟨13,.cr,false,some ⟨40,[],none,false⟩⟩,⟨13,.cr,true,some ⟨41,[],none,false⟩⟩,⟨34,.other,false,some ⟨36,[.code],none,false⟩⟩,⟨35,.other,false,some ⟨36,[.code],none,false⟩⟩,⟨37,.other,false,some ⟨36,[.code],none,false⟩⟩,⟨39,.other,false,some ⟨36,[.code],none,false⟩⟩,⟨40,.other,false,some ⟨36,[.code],none,false⟩⟩,⟨41,.other,false,some ⟨36,[.code],none,false⟩⟩,⟨47,.other,false,some ⟨36,[.code],none,false⟩⟩,⟨61,.other,false,some ⟨36,[.code],none,false⟩⟩,⟨81,.other,false,some ⟨36,[.code],none,false⟩⟩,⟨92,.other,false,some ⟨42,[],none,false⟩⟩,⟨96,.other,false,some ⟨0,[.commit,.code],some 3,true⟩⟩,⟨98,.other,false,some ⟨36,[.code],none,false⟩⟩,⟨100,.other,false,some ⟨36,[.code],none,false⟩⟩,⟨101,.other,false,some ⟨36,[.code],none,false⟩⟩,⟨103,.other,false,some ⟨36,[.code],none,false⟩⟩,⟨105,.other,false,some ⟨36,[.code],none,false⟩⟩,⟨110,.other,false,some ⟨36,[.code],none,false⟩⟩,⟨114,.other,false,some ⟨36,[.code],none,false⟩⟩]⟩,⟨[67],none,[],[⟨0,.other,false,some ⟨36,[.code],none,false⟩⟩,⟨9,.ws,false,some ⟨37,[],none,false⟩⟩,⟨10,.lf,false,some ⟨38,[],none,false⟩⟩,⟨11,.vt,false,some ⟨36,[.code],none,false⟩⟩,⟨12,.ff,false,some ⟨39,[],none,false⟩⟩,⟨13,.cr,false,some ⟨40,[],none,false⟩⟩,⟨13,.cr,true,some ⟨41,[],none,false⟩⟩,⟨34,.other,false,some ⟨36,[.code],none,false⟩⟩,⟨35,.other,false,some ⟨36,[.code],none,false⟩⟩,⟨37,.other,false,some ⟨36,[.code],none,false⟩⟩,⟨39,.other,false,some ⟨36,[.code],none,false⟩⟩,⟨40,.other,false,some ⟨36,[.code],none,false⟩⟩,⟨41,.other,false,some ⟨36,[.code],none,false⟩⟩,⟨47,.other,false,some ⟨36,[.code],none,false⟩⟩,⟨61,.other,false,some ⟨36,[.code],none,false⟩⟩,⟨81,.other,false,some ⟨36,[.code],none,false⟩⟩,⟨92,.other,false,some ⟨42,[],none,false⟩⟩,⟨96,.other,false,some ⟨0,[.commit,.code],some 3,true⟩⟩,⟨98,.other,false,some ⟨36,[.code],none,false⟩⟩,⟨100,.other,false,some ⟨36,[.code],none,false⟩⟩,⟨101,.other,false,some ⟨36,[.code],none,false⟩⟩,⟨103,.other,false,some ⟨36,[.code],none,false⟩⟩,⟨105,.other,false,some ⟨36,[.code],none,false⟩⟩,⟨110,.other,false,some ⟨36,[.code],none,false⟩⟩,⟨114,.other,false,some ⟨36,[.code],none,false⟩⟩]⟩,⟨[64],none,[],[⟨0,.other,false,some ⟨36,[.setEnt .internalNl,.emb (.cb 1),.code],none,false⟩⟩,⟨9,.ws,false,some ⟨37,[.setEnt .internalNl,.emb (.cb 1)],none,false⟩⟩,⟨10,.lf,false,some ⟨38,[.setEnt .internalNl,.emb (.cb 1)],none,false⟩⟩,⟨11,.vt,false,some ⟨36,[.setEnt .internalNl,.emb (.cb 1),.code],none,false⟩⟩,⟨12,.ff,false,some ⟨39,[.setEnt .internalNl,.emb (.cb 1)],none,false⟩⟩,⟨13,.cr,false,some ⟨40,[.setEnt .internalNl,.emb (.cb 1)],none,false⟩⟩,⟨13,.cr,true,some ⟨41,[.setEnt .internalNl,.emb (.cb 1)],none,false⟩⟩,⟨34,.other,false,some ⟨36,[.setEnt .internalNl,.emb (.cb 1),.code],none,false⟩⟩,⟨35,.other,false,some ⟨36,[.setEnt .internalNl,.emb (.cb 1),.code],none,false⟩⟩,⟨37,.other,false,some ⟨36,[.setEnt .internalNl,.emb (.cb 1),.code],none,false⟩⟩,⟨39,.other,false,some ⟨36,[.setEnt .internalNl,.emb (.cb 1),.code],none,false⟩⟩,⟨40,.other,false,some ⟨36,[.setEnt .internalNl,.emb (.cb 1),.code],none,false⟩⟩,⟨41,.other,false,some ⟨36,[.setEnt .internalNl,.emb (.cb 1),.code],none,false⟩⟩,⟨47,.other,false,some ⟨36,[.setEnt .internalNl,.emb (.cb 1),.code],none,false⟩⟩,⟨61,.other,false,some ⟨36,[.setEnt .internalNl,.emb (.cb 1),.code],none,false⟩⟩,⟨81,.other,false,some ⟨36,[.setEnt .internalNl,.emb (.cb 1),.code],none,false⟩⟩,⟨92,.other,false,some ⟨42,[.setEnt .internalNl,.emb (.cb 1)],none,false⟩⟩,⟨96,.other,false,some ⟨0,[.setEnt .internalNl,.emb (.cb 1),.commit,.code],some 3,true⟩⟩,⟨98,.other,false,some ⟨36,[.setEnt .internalNl,.emb (.cb 1),.code],none,false⟩⟩,⟨100,.other,false,some ⟨36,[.setEnt .internalNl,.emb (.cb 1),.code],none,false⟩⟩,⟨101,.other,false,some ⟨36,[.setEnt .internalNl,.emb (.cb 1),.code],none,false⟩⟩,⟨103,.other,false,some ⟨36,[.setEnt .internalNl,.emb (.cb 1),.code],none,false⟩⟩,⟨105,.other,false,some ⟨36,[.setEnt .internalNl,.emb (.cb 1),.code],none,false⟩⟩,⟨110,.other,false,some ⟨36,[.setEnt .internalNl,.emb (.cb 1),.code],none,false⟩⟩,⟨114,.other,false,some ⟨36,[.setEnt .internalNl,.emb (.cb 1),.code],none,false⟩⟩]⟩,⟨[65],none,[],[⟨0,.other,false,some ⟨36,[.setEnt .internalNl,.emb (.cb 1),.code],none,false⟩⟩,⟨9,.ws,false,some ⟨37,[.setEnt .internalNl,.emb (.cb 1)],none,false⟩⟩,⟨10,.lf,false,some ⟨38,[.setEnt .internalNl,.emb (.cb 1)],none,false⟩⟩,⟨11,.vt,false,some ⟨36,[.setEnt .internalNl,.emb (.cb 1),.code],none,false⟩⟩,⟨12,.ff,false,some ⟨39,[.setEnt .internalNl,.emb (.cb 1)],none,false⟩⟩,⟨13,.cr,false,some ⟨40,[.setEnt .internalNl,.emb (.cb 1)],none,false⟩⟩,⟨13,.cr,true,some ⟨41,[.setEnt .internalNl,.emb (.cb 1)],none,false⟩⟩,⟨34,.other,false,some ⟨36,[.setEnt .internalNl,.emb (.cb 1),.code],none,false⟩⟩,⟨35,.other,false,some ⟨36,[.setEnt .internalNl,.emb (.cb 1),.code],none,false⟩⟩,⟨37,.other,false,some ⟨36,[.setEnt .internalNl,.emb (.cb 1),.code],none,false⟩⟩,⟨39,.other,false,some ⟨36,[.setEnt .internalNl,.emb (.cb 1),.code],none,false⟩⟩,⟨40,.other,false,some ⟨36,[.setEnt .internalNl,.emb (.cb 1),.code],none,false⟩⟩,⟨41,.other,false,some ⟨36,[.setEnt .internalNl,.emb (.cb 1),.code],none,false⟩⟩,⟨47,.other,false,some ⟨36,[.setEnt .internalNl,.emb (.cb 1),.code],none,false⟩⟩,⟨61,.other,false,some ⟨36,[.setEnt .internalNl,.emb (.cb 1),.code],none,false⟩⟩,⟨81,.other,false,some ⟨36,[.setEnt .internalNl,.emb (.cb 1),.code],none,false⟩⟩,⟨92,.other,false,some ⟨42,[.setEnt .internalNl,.emb (.cb 1)],none,false⟩⟩,⟨96,.other,false,some ⟨0,[.setEnt .internalNl,.emb (.cb 1),.commit,.code],some 3,true⟩⟩,⟨98,.other,false,some ⟨36,[.setEnt .internalNl,.emb (.cb 1),.code],none,false⟩⟩,⟨100,.other,false,some ⟨36,[.setEnt .internalNl,.emb (.cb 1),.code],none,false⟩⟩,⟨101,.other,false,some ⟨36,[.setEnt .internalNl,.emb (.cb 1),.code],none,false⟩⟩,⟨103,.other,false,some ⟨36,[.setEnt .internalNl,.emb (.cb 1),.code],none,false⟩⟩,⟨105,.other,false,some ⟨36,[.setEnt .internalNl,.emb (.cb 1),.code],none,false⟩⟩,⟨110,.other,false,some ⟨36,[.setEnt .internalNl,.emb (.cb 1),.code],none,false⟩⟩,⟨114,.other,false,some ⟨36,[.setEnt .internalNl,.emb (.cb 1),.code],none,false⟩⟩]⟩,⟨[62],none,[],[⟨0,.other,false,none⟩,⟨9,.ws,false,none⟩,⟨10,.lf,false,some ⟨59,[],none,false⟩⟩,⟨11,.vt,false,none⟩,⟨12,.ff,false,none⟩,⟨13,.cr,false,none⟩,⟨13,.cr,true,none⟩,⟨34,.other,false,none⟩,⟨35,.other,false,none⟩,⟨37,.other,false,none⟩,⟨39,.other,false,none⟩,⟨40,.other,false,none⟩,⟨41,.other,false,none⟩,⟨47,.other,false,none⟩,⟨61,.other,false,none⟩,⟨81,.other,false,none⟩,⟨92,.other,false,none⟩,⟨96,.other,false,none⟩,⟨98,.other,false,none⟩,⟨100,.other,false,none⟩,⟨101,.other,false,none⟩,⟨103,.other,false,none⟩,⟨105,.other,false,none⟩,⟨110,.other,false,none⟩,⟨114,.other,false,none⟩]⟩,⟨[62,66],none,[],[⟨0,.other,false,some ⟨36,[.setEnt .internalNl,.emb (.cb 1),.code],none,false⟩⟩,⟨9,.ws,false,some ⟨37,[.setEnt .internalNl,.emb (.cb 1)],none,false⟩⟩,⟨10,.lf,false,some ⟨60,[.setEnt .internalNl,.emb (.cb 1)],none,false⟩⟩,⟨11,.vt,false,some ⟨36,[.setEnt .internalNl,.emb (.cb 1),.code],none,false⟩⟩,⟨12,.ff,false,some ⟨39,[.setEnt .internalNl,.emb (.cb 1)],none,false⟩⟩,⟨13,.cr,false,some ⟨40,[.setEnt .internalNl,.emb (.cb 1)],none,false⟩⟩,⟨13,.cr,true,some ⟨41,[.setEnt .internalNl,.emb (.cb 1)],none,false⟩⟩,⟨34,.other,false,some ⟨36,[.setEnt .internalNl,.emb (.cb 1),.code],none,false⟩⟩,⟨35,.other,false,some ⟨36,[.setEnt .internalNl,.emb (.cb 1),.code],none,false⟩⟩,⟨37,.other,false,some ⟨36,[.setEnt .internalNl,.emb (.cb 1),.code],none,false⟩⟩,⟨39,.other,false,some ⟨36,[.setEnt .internalNl,.emb (.cb 1),.code],none,false⟩⟩,⟨40,.other,false,some ⟨36,[.setEnt .internalNl,.emb (.cb 1),.code],none,false⟩⟩,⟨41,.other,false,some ⟨36,[.setEnt .internalNl,.emb (.cb 1),.code],none,false⟩⟩,⟨47,.other,false,some ⟨36,[.setEnt .internalNl,.emb (.cb 1),.code],none,false⟩⟩,⟨61,.other,false,some ⟨36,[.setEnt .internalNl,.emb (.cb 1),.code],none,false⟩⟩,⟨81,.other,false,some ⟨36,[.setEnt .internalNl,.emb (.cb 1),.code],none,false⟩⟩,⟨92,.other,false,some ⟨42,[.setEnt .internalNl,.emb (.cb 1)],none,false⟩⟩,⟨96,.other,false,some ⟨0,[.setEnt .internalNl,.emb (.cb 1),.commit,.code],some 3,true⟩⟩,⟨98,.other,false,some ⟨36,[.setEnt .internalNl,.emb (.cb 1),.code],none,false⟩⟩,⟨100,.other,false,some ⟨36,[.setEnt .internalNl,.emb (.cb 1),.code],none,false⟩⟩,⟨101,.other,false,some ⟨36,[.setEnt .internalNl,.emb (.cb 1),.code],none,false⟩⟩,⟨103,.other,false,some ⟨36,[.setEnt .internalNl,.emb (.cb 1),.code],none,false⟩⟩,⟨105,.other,false,some ⟨36,[.setEnt .internalNl,.emb (.cb 1),.code],none,false⟩⟩,⟨110,.other,false,some ⟨36,[.setEnt .internalNl,.emb (.cb 1),.code],none,false⟩⟩,⟨114,.other,false,some ⟨36,[.setEnt .internalNl,.emb (.cb 1),.code],none,false⟩⟩]⟩,⟨[69],none,[],[⟨0,.other,false,some ⟨61,[.code],none,false⟩⟩,⟨9,.ws,false,some ⟨61,[.code],none,false⟩⟩,⟨10,.lf,false,none⟩,⟨11,.vt,false,some ⟨61,[.code],none,false⟩⟩,⟨12,.ff,false,none⟩,⟨13,.cr,false,none⟩,⟨13,.cr,true,none⟩,⟨34,.other,false,some ⟨61,[.code],none,false⟩⟩,⟨35,.other,false,some ⟨61,[.code],none,false⟩⟩,⟨37,.other,false,some ⟨61,[.code],none,false⟩⟩,⟨39,.other,false,some ⟨61,[.code],none,false⟩⟩,⟨40,.other,false,some ⟨61,[.code],none,false⟩⟩,⟨41,.other,false,some ⟨61,[.code],none,false⟩⟩,⟨47,.other,false,some ⟨61,[.code],none,false⟩⟩,⟨61,.other,false,some ⟨61,[.code],none,false⟩⟩,⟨81,.other,false,some ⟨61,[.code],none,false⟩⟩,⟨92,.other,false,some ⟨61,[.code],none,false⟩⟩,⟨96,.other,false,some ⟨61,[.code],none,false⟩⟩,⟨98,.other,false,some ⟨61,[.code],none,false⟩⟩,⟨100,.other,false,some ⟨61,[.code],none,false⟩⟩,⟨101,.other,false,some ⟨61,[.code],none,false⟩⟩,⟨103,.other,false,some ⟨61,[.code],none,false⟩⟩,⟨105,.other,false,some ⟨61,[.code],none,false⟩⟩,⟨110,.other,false,some ⟨61,[.code],none,false⟩⟩,⟨114,.other,false,some ⟨61,[.code],none,false⟩⟩]⟩,⟨[39],none,[],[⟨0,.other,false,some ⟨15,[.setEnt .internalNl,.emb (.cb 1),.code],none,false⟩⟩,⟨9,.ws,false,some ⟨16,[.setEnt .internalNl,.emb (.cb 1)],none,false⟩⟩,⟨10,.lf,false,some ⟨17,[.setEnt .internalNl,.emb (.cb 1)],none,false⟩⟩,⟨11,.vt,false,some ⟨15,[.setEnt .internalNl,.emb (.cb 1),.code],none,false⟩⟩,⟨12,.ff,false,some ⟨18,[.setEnt .internalNl,.emb (.cb 1)],none,false⟩⟩,⟨13,.cr,false,some ⟨19,[.setEnt .internalNl,.emb (.cb 1)],none,false⟩⟩,⟨13,.cr,true,some ⟨20,[.setEnt .internalNl,.emb (.cb 1)],none,false⟩⟩,⟨34,.other,false,some ⟨0,[.setEnt .internalNl,.emb (.cb 1),.commit,.code],some 3,true⟩⟩,⟨35,.other,false,some ⟨15,[.setEnt .internalNl,.emb (.cb 1),.code],none,false⟩⟩,⟨37,.other,false,some ⟨15,[.setEnt .internalNl,.emb (.cb 1),.code],none,false⟩⟩,⟨39,.other,false,some ⟨15,[.setEnt .internalNl,.emb (.cb 1),.code],none,false⟩⟩,⟨40,.other,false,some ⟨15,[.setEnt .internalNl,.emb (.cb 1),.code],none,false⟩⟩,⟨41,.other,false,some ⟨15,[.setEnt .internalNl,.emb (.cb 1),.code],none,false⟩⟩,⟨47,.other,false,some ⟨15,[.setEnt .internalNl,.emb (.cb 1),.code],none,false⟩⟩,⟨61,.other,false,some ⟨15,[.setEnt .internalNl,.emb (.cb 1),.code],none,false⟩⟩,⟨81,.other,false,some ⟨15,[.setEnt .internalNl,.emb (.cb 1),.code],none,false⟩⟩,⟨92,.other,false,some ⟨21,[.setEnt .internalNl,.emb (.cb 1)],none,false⟩⟩,⟨96,.other,false,some ⟨15,[.setEnt .internalNl,.emb (.cb 1),.code],none,false⟩⟩,⟨98,.other,false,some ⟨15,[.setEnt .internalNl,.emb (.cb 1),.code],none,false⟩⟩,⟨100,.other,false,some ⟨15,[.setEnt .internalNl,.emb (.cb 1),.code],none,false⟩⟩,⟨101,.other,false,some ⟨15,[.setEnt .internalNl,.emb (.cb 1),.code],none,false⟩⟩,⟨103,.other,false,some ⟨15,[.setEnt .internalNl,.emb (.cb 1),.code],none,false⟩⟩,⟨105,.other,false,some ⟨15,[.setEnt .internalNl,.emb (.cb 1),.code],none,false⟩⟩,⟨110,.other,false,some ⟨15,[.setEnt .internalNl,.emb (.cb 1),.code],none,false⟩⟩,⟨114,.other,false,some ⟨15,[.setEnt .internalNl,.emb (.cb 1),.code],none,false⟩⟩]⟩,⟨[39,40],none,[],[⟨0,.other,false,some ⟨15,[.setEnt .internalNl,.emb (.cb 1),.code],none,false⟩⟩,⟨9,.ws,false,some ⟨16,[.setEnt .internalNl,.emb (.cb 1)],none,false⟩⟩,⟨10,.lf,false,some ⟨17,[.setEnt .internalNl,.emb (.cb 1)],none,false⟩⟩,⟨11,.vt,false,some ⟨15,[.setEnt .internalNl,.emb (.cb 1),.code],none,false⟩⟩,⟨12,.ff,false,some ⟨18,[.setEnt .internalNl,.emb (.cb 1)],none,false⟩⟩,⟨13,.cr,false,some ⟨19,[.setEnt .internalNl,.emb (.cb 1)],none,false⟩⟩,⟨13,.cr,true,some ⟨20,[.setEnt .internalNl,.emb (.cb 1)],none,false⟩⟩,⟨34,.other,false,some ⟨0,[.setEnt .internalNl,.emb (.cb 1),.commit,.code],some 3,true⟩⟩,⟨35,.other,false,some ⟨15,[.setEnt .internalNl,.emb (.cb 1),.code],none,false⟩⟩,⟨37,.other,false,some ⟨15,[.setEnt .internalNl,.emb (.cb 1),.code],none,false⟩⟩,⟨39,.other,false,some ⟨15,[.setEnt .internalNl,.emb (.cb 1),.code],none,false⟩⟩,⟨40,.other,false,some ⟨15,[.setEnt .internalNl,.emb (.cb 1),.code],none,false⟩⟩,⟨41,.other,false,some ⟨15,[.setEnt .internalNl,.emb (.cb 1),.code],none,false⟩⟩,⟨47,.other,false,some ⟨15,[.setEnt .internalNl,.emb (.cb 1),.code],none,false⟩⟩,⟨61,.other,false,some ⟨15,[.setEnt .internalNl,.emb (.cb 1),.code],none,false⟩⟩,⟨81,.other,false,some ⟨15,[.setEnt .internalNl,.emb (.cb 1),.code],none,false⟩⟩,⟨92,.other,false,some ⟨21,[.setEnt .internalNl,.emb (.cb 1)],none,false⟩⟩,⟨96,.other,false,some ⟨15,[.setEnt .internalNl,.emb (.cb 1),.code],none,false⟩⟩,⟨98,.other,false,some ⟨15,[.setEnt .internalNl,.emb (.cb 1),.code],none,false⟩⟩,⟨100,.other,false,some ⟨15,[.setEnt .internalNl,.emb (.cb 1),.code],none,false⟩⟩,⟨101,.other,false,some ⟨15,[.setEnt .internalNl,.emb (.cb 1),.code],none,false⟩⟩,⟨103,.other,false,some ⟨15,[.setEnt .internalNl,.emb (.cb 1),.code],none,false⟩⟩,⟨105,.other,false,some ⟨15,[.setEnt .internalNl,.emb (.cb 1),.code],none,false⟩⟩,⟨110,.other,false,some ⟨15,[.setEnt .internalNl,.emb (.cb 1),.code],none,false⟩⟩,⟨114,.other,false,some ⟨15,[.setEnt .internalNl,.emb (.cb 1),.code],none,false⟩⟩]⟩,⟨[46],none,[],[⟨0,.other,false,some ⟨15,[.code],none,false⟩⟩,⟨9,.ws,false,some ⟨16,[],none,false⟩⟩,⟨10,.lf,false,some ⟨17,[],none,false⟩⟩,⟨11,.vt,false,some ⟨15,[.code],none,false⟩⟩,⟨12,.ff,false,some ⟨18,[],none,false⟩⟩,⟨13,.cr,false,some ⟨19,[],none,false⟩⟩,⟨13,.cr,true,some ⟨20,[],none,false⟩⟩,⟨34,.other,false,some ⟨0,[.commit,.code],some 3,true⟩⟩,⟨35,.other,false,some ⟨15,[.code],none,false⟩⟩,⟨37,.other,false,some ⟨15,[.code],none,false⟩⟩,⟨39,.other,false,some ⟨15,[.code],none,false⟩⟩,⟨40,.other,false,some ⟨15,[.code],none,false⟩⟩,⟨41,.other,false,some ⟨15,[.code],none,false⟩⟩,⟨47,.other,false,some ⟨15,[.code],none,false⟩⟩,⟨61,.other,false,some ⟨15,[.code],none,false⟩⟩,⟨81,.other,false,some ⟨15,[.code],none,false⟩⟩,⟨92,.other,false,some ⟨21,[],none,false⟩⟩,⟨96,.other,false,some ⟨15,[.code],none,false⟩⟩,⟨98,.other,false,some ⟨15,[.code],none,false⟩⟩,⟨100,.other,false,some ⟨15,[.code],none,false⟩⟩,⟨101,.other,false,some ⟨15,[.code],none,false⟩⟩,⟨103,.other,false,some ⟨15,[.code],none,false⟩⟩,⟨105,.other,false,some ⟨15,[.code],none,false⟩⟩,⟨110,.other,false,some ⟨15,[.code],none,false⟩⟩,⟨114,.other,false,some ⟨15,[.code],none,false⟩⟩]⟩,⟨[57],none,[],[⟨0,.other,false,some ⟨46,[.code],none,false⟩⟩,⟨9,.ws,false,some ⟨47,[],none,false⟩⟩,⟨10,.lf,false,some ⟨48,[],none,false⟩⟩,⟨11,.vt,false,some ⟨46,[.code],none,false⟩⟩,⟨12,.ff,false,some ⟨49,[],none,false⟩⟩,⟨13,.cr,false,some ⟨50,[],none,false⟩⟩,⟨13,.cr,true,some ⟨51,[],none,false⟩⟩,⟨34,.other,false,some ⟨46,[.code],none,false⟩⟩,⟨35,.other,false,some ⟨46,[.code],none,false⟩⟩,⟨37,.other,false,some ⟨46,[.code],none,false⟩⟩,⟨39,.other,false,some ⟨46,[.code],none,false⟩⟩,⟨40,.other,false,some ⟨46,[.code],none,false⟩⟩,⟨41,.other,false,some ⟨0,[.commit,.code],some 3,true⟩⟩,⟨47,.other,false,some ⟨46,[.code],none,false⟩⟩,⟨61,.other,false,some ⟨46,[.code],none,false⟩⟩,⟨81,.other,false,some ⟨46,[.code],none,false⟩⟩,⟨92,.other,false,some ⟨52,[],none,false⟩⟩,⟨96,.other,false,some ⟨46,[.code],none,false⟩⟩,⟨98,.other,false,some ⟨46,[.code],none,false⟩⟩,⟨100,.other,false,some ⟨46,[.code],none,false⟩⟩,⟨101,.other,false,some ⟨46,[.code],none,false⟩⟩,⟨103,.other,false,some ⟨46,[.code],none,false⟩⟩,⟨105,.other,false,some ⟨46,[.code],none,false⟩⟩,⟨110,.other,false,some ⟨46,[.code],none,false⟩⟩,⟨114,.other,false,some ⟨46,[.code],none,false⟩⟩]⟩,⟨[56],none,[],[⟨0,.other,false,some ⟨46,[.code],none,false⟩⟩,⟨9,.ws,false,some ⟨47,[],none,false⟩⟩,⟨10,.lf,false,some ⟨48,[],none,false⟩⟩,⟨11,.vt,false,some ⟨46,[.code],none,false⟩⟩,⟨12,.ff,false,some ⟨49,[],none,false⟩⟩,⟨13,.cr,false,some ⟨50,[],none,false⟩⟩,⟨13,.cr,true,some ⟨51,[],none,false⟩⟩,⟨34,.other,false,some ⟨46,[.code],none,false⟩⟩,⟨35,.other,false,some ⟨46,[.code],none,false⟩⟩,⟨37,.other,false,some ⟨46,[.code],none,false⟩⟩,⟨39,.other,false,some ⟨46,[.code],none,false⟩⟩,⟨40,.other,false,some ⟨46,[.code],none,false⟩⟩,⟨41,.other,false,some ⟨0,[.commit,.code],some 3,true⟩⟩,⟨47,.other,false,some ⟨46,[.code],none,false⟩⟩,⟨61,.other,false,some ⟨46,[.code],none,false⟩⟩,⟨81,.other,false,some ⟨46,[.code],none,false⟩⟩,⟨92,.other,false,some ⟨52,[],none,false⟩⟩,⟨96,.other,false,some ⟨46,[.code],none,false⟩⟩,⟨98,.other,false,some ⟨46,[.code],none,false⟩⟩,⟨100,.other,false,some ⟨46,[.code],none,false⟩⟩,⟨101,.other,false,some ⟨46,[.code],none,false⟩⟩,⟨103,.other,false,some ⟨46,[.code],none,false⟩⟩,⟨105,.other,false,some ⟨46,[.code],none,false⟩⟩,⟨110,.other,false,some ⟨46,[.code],none,false⟩⟩,⟨114,.other,false,some ⟨46,[.code],none,false⟩⟩]⟩,⟨[53],none,[],[⟨0,.other,false,some ⟨46,[.setEnt .internalNl,.emb (.cb 1),.code],none,false⟩⟩,⟨9,.ws,false,some ⟨47,[.setEnt .internalNl,.emb (.cb 1)],none,false⟩⟩,⟨10,.lf,false,some ⟨48,[.setEnt .internalNl,.emb (.cb 1)],none,false⟩⟩,⟨11,.vt,false,some ⟨46,[.setEnt .internalNl,.emb (.cb 1),.code],none,false⟩⟩,⟨12,.ff,false,some ⟨49,[.setEnt .internalNl,.emb (.cb 1)],none,false⟩⟩,⟨13,.cr,false,some ⟨50,[.setEnt .internalNl,.emb (.cb 1)],none,false⟩⟩,⟨13,.cr,true,some ⟨51,[.setEnt .internalNl,.emb (.cb 1)],none,false⟩⟩,⟨34,.other,false,some ⟨46,[.setEnt .internalNl,.emb (.cb 1),.code],none,false⟩⟩,⟨35,.other,false,some ⟨46,[.setEnt .internalNl,.emb (.cb 1),.code],none,false⟩⟩,⟨37,.other,false,some ⟨46,[.setEnt .internalNl,.emb (.cb 1),.code],none,false⟩⟩,⟨39,.other,false,some ⟨46,[.setEnt .internalNl,.emb (.cb 1),.code],none,false⟩⟩,⟨40,.other,false,some ⟨46,[.setEnt .internalNl,.emb (.cb 1),.code],none,false⟩⟩,⟨41,.other,false,some ⟨0,[.setEnt .internalNl,.emb (.cb 1),.commit,.code],some 3,true⟩⟩,⟨47,.other,false,some ⟨46,[.setEnt .internalNl,.emb (.cb 1),.code],none,false⟩⟩,⟨61,.other,false,some ⟨46,[.setEnt .internalNl,.emb (.cb 1),.code],none,false⟩⟩,⟨81,.other,false,some ⟨46,[.setEnt .internalNl,.emb (.cb 1),.code],none,false⟩⟩,⟨92,.other,false,some ⟨52,[.setEnt .internalNl,.emb (.cb 1)],none,false⟩⟩,⟨96,.other,false,some ⟨46,[.setEnt .internalNl,.emb (.cb 1),.code],none,false⟩⟩,⟨98,.other,false,some ⟨46,[.setEnt .internalNl,.emb (.cb 1),.code],none,false⟩⟩,⟨100,.other,false,some ⟨46,[.setEnt .internalNl,.emb (.cb 1),.code],none,false⟩⟩,⟨101,.other,false,some ⟨46,[.setEnt .internalNl,.emb (.cb 1),.code],none,false⟩⟩,⟨103,.other,false,some ⟨46,[.setEnt .internalNl,.emb (.cb 1),.code],none,false⟩⟩,⟨105,.other,false,some ⟨46,[.setEnt .internalNl,.emb (.cb 1),.code],none,false⟩⟩,⟨110,.other,false,some ⟨46,[.setEnt .internalNl,.emb (.cb 1),.code],none,false⟩⟩,⟨114,.other,false,some ⟨46,[.setEnt .internalNl,.emb (.cb 1),.code],none,false⟩⟩]⟩,⟨[54],none,[],[⟨0,.other,false,some ⟨46,[.setEnt .internalNl,.emb (.cb 1),.code],none,false⟩⟩,⟨9,.ws,false,some ⟨47,[.setEnt .internalNl,.emb (.cb 1)],none,false⟩⟩,⟨10,.lf,false,some ⟨48,[.setEnt .internalNl,.emb (.cb 1)],none,false⟩⟩,⟨11,.vt,false,some ⟨46,[.setEnt .internalNl,.emb (.cb 1),.code],none,false⟩⟩,⟨12,.ff,false,some ⟨49,[.setEnt .internalNl,.emb (.cb 1)],none,false⟩⟩,⟨13,.cr,false,some ⟨50,[.setEnt .internalNl,.emb (.cb 1)],none,false⟩⟩,⟨13,.cr,true,some ⟨51,[.setEnt .internalNl,.emb (.cb 1)],none,false⟩⟩,⟨34,.other,false,some ⟨46,[.setEnt .internalNl,.emb (.cb 1),.code],none,false⟩⟩,⟨35,.other,false,some ⟨46,[.setEnt .internalNl,.emb (.cb 1),.code],none,false⟩⟩,⟨37,.other,false,some ⟨46,[.setEnt .internalNl,.emb (.cb 1),.code],none,false⟩⟩,⟨39,.other,false,some ⟨46,[.setEnt .internalNl,.emb (.cb 1),.code],none,false⟩⟩,⟨40,.other,false,some ⟨46,[.setEnt .internalNl,.emb (.cb 1),.code],none,false⟩⟩,⟨41,.other,false,some ⟨0,[.setEnt .internalNl,.emb (.cb 1),.commit,.code],some 3,true⟩⟩,⟨47,.other,false,some ⟨46,[.setEnt .internalNl,.emb (.cb 1),.code],none,false⟩⟩,⟨61,.other,false,some ⟨46,[.setEnt .internalNl,.emb (.cb 1),.code],none,false⟩⟩,⟨81,.other,false,some ⟨46,[.setEnt .internalNl,.emb (.cb 1),.code],none,false⟩⟩,⟨92,.other,false,some ⟨52,[.setEnt .internalNl,.emb (.cb 1)],none,false⟩⟩,⟨96,.other,false,some ⟨46,[.setEnt .internalNl,.emb (.cb 1),.code],none,false⟩⟩,⟨98,.other,false,some ⟨46,[.setEnt .internalNl,.emb (.cb 1),.code],none,false⟩⟩,⟨100,.other,false,some ⟨46,[.setEnt .internalNl,.emb (.cb 1),.code],none,false⟩⟩,⟨101,.other,false,some ⟨46,[.setEnt .internalNl,.emb (.cb 1),.code],none,false⟩⟩,⟨103,.other,false,some ⟨46,[.setEnt .internalNl,.emb (.cb 1),.code],none,false⟩⟩,⟨105,.other,false,some ⟨46,[.setEnt .internalNl,.emb (.cb 1),.code],none,false⟩⟩,⟨110,.other,false,some ⟨46,[.setEnt .internalNl,.emb (.cb 1),.code],none,false⟩⟩,⟨114,.other,false,some ⟨46,[.setEnt .internalNl,.emb (.cb 1),.code],none,false⟩⟩]⟩,⟨[51],none,[],[⟨0,.other,false,none⟩,⟨9,.ws,false,none⟩,⟨10,.lf,false,some ⟨62,[],none,false⟩⟩,⟨11,.vt,false,none⟩,⟨12,.ff,false,none⟩,⟨13,.cr,false,none⟩,⟨13,.cr,true,none⟩,⟨34,.other,false,none⟩,⟨35,.other,false,none⟩,⟨37,.other,false,none⟩,⟨39,.other,false,none⟩,⟨40,.other,false,none⟩,⟨41,.other,false,none⟩,⟨47,.other,false,none⟩,⟨61,.other,false,none⟩,⟨81,.other,false,none⟩,⟨92,.other,false,none⟩,⟨96,.other,false,none⟩,⟨98,.other,false,none⟩,⟨100,.other,false,none⟩,⟨101,.other,false,none⟩,⟨103,.other,false,none⟩,⟨105,.other,false,none⟩,⟨110,.other,false,none⟩,⟨114,.other,false,none⟩]⟩,⟨[51,55],none,[],[⟨0,.other,false,some ⟨46,[.setEnt .internalNl,.emb (.cb 1),.code],none,false⟩⟩,⟨9,.ws,false,some ⟨47,[.setEnt .internalNl,.emb (.cb 1)],none,false⟩⟩,⟨10,.lf,false,some ⟨63,[.setEnt .internalNl,.emb (.cb 1)],none,false⟩⟩,⟨11,.vt,false,some ⟨46,[.setEnt .internalNl,.emb (.cb 1),.code],none,false⟩⟩,⟨12,.ff,false,some ⟨49,[.setEnt .internalNl,.emb (.cb 1)],none,false⟩⟩,⟨13,.cr,false,some ⟨50,[.setEnt .internalNl,.emb (.cb 1)],none,false⟩⟩,⟨13,.cr,true,some ⟨51,[.setEnt .internalNl,.emb (.cb 1)],none,false⟩⟩,⟨34,.other,false,some ⟨46,[.setEnt .internalNl,.emb (.cb 1),.code],none,false⟩⟩,⟨35,.other,false,some ⟨46,[.setEnt .internalNl,.emb (.cb 1),.code],none,false⟩⟩,⟨37,.other,false,some ⟨46,[.setEnt .internalNl,.emb (.cb 1),.code],none,false⟩⟩,⟨39,.other,false,some ⟨46,[.setEnt .internalNl,.emb (.cb 1),.code],none,false⟩⟩,⟨40,.other,false,some ⟨46,[.setEnt .internalNl,.emb (.cb 1),.code],none,false⟩⟩,⟨41,.other,false,some ⟨0,[.setEnt .internalNl,.emb (.cb 1),.commit,.code],some 3,true⟩⟩,⟨47,.other,false,some ⟨46,[.setEnt .internalNl,.emb (.cb 1),.code],none,false⟩⟩,⟨61,.other,false,some ⟨46,[.setEnt .internalNl,.emb (.cb 1),.code],none,false⟩⟩,⟨81,.other,false,some ⟨46,[.setEnt .internalNl,.emb (.cb 1),.code],none,false⟩⟩,⟨92,.other,false,some ⟨52,[.setEnt .internalNl,.emb (.cb 1)],none,false⟩⟩,⟨96,.other,false,some ⟨46,[.setEnt .internalNl,.emb (.cb 1),.code],none,false⟩⟩,⟨98,.other,false,some ⟨46,[.setEnt .internalNl,.emb (.cb 1),.code],none,false⟩⟩,⟨100,.other,false,some ⟨46,[.setEnt .internalNl,.emb (.cb 1),.code],none,false⟩⟩,⟨101,.other,false,some ⟨46,[.setEnt .internalNl,.emb (.cb 1),.code],none,false⟩⟩,⟨103,.other,false,some ⟨46,[.setEnt .internalNl,.emb (.cb 1),.code],none,false⟩⟩,⟨105,.other,false,some ⟨46,[.setEnt .internalNl,.emb (.cb 1),.code],none,false⟩⟩,⟨110,.other,false,some ⟨46,[.setEnt .internalNl,.emb (.cb 1),.code],none,false⟩⟩,⟨114,.other,false,some ⟨46,[.setEnt .internalNl,.emb (.cb 1),.code],none,false⟩⟩]⟩,⟨[58],none,[],[⟨0,.other,false,some ⟨64,[.code],none,false⟩⟩,⟨9,.ws,false,some ⟨64,[.code],none,false⟩⟩,⟨10,.lf,false,none⟩,⟨11,.vt,false,some ⟨64,[.code],none,false⟩⟩,⟨12,.ff,false,none⟩,⟨13,.cr,false,none⟩,⟨13,.cr,true,none⟩,⟨34,.other,false,some ⟨64,[.code],none,false⟩⟩,⟨35,.other,false,some ⟨64,[.code],none,false⟩⟩,⟨37,.other,false,some ⟨64,[.code],none,false⟩⟩,⟨39,.other,false,some ⟨64,[.code],none,false⟩⟩,⟨40,.other,false,some ⟨64,[.code],none,false⟩⟩,⟨41,.other,false,some ⟨64,[.code],none,false⟩⟩,⟨47,.other,false,some ⟨64,[.code],none,false⟩⟩,⟨61,.other,false,some ⟨64,[.code],none,false⟩⟩,⟨81,.other,false,some ⟨64,[.code],none,false⟩⟩,⟨92,.other,false,some ⟨64,[.code],none,false⟩⟩,⟨96,.other,false,some ⟨64,[.code],none,false⟩⟩,⟨98,.other,false,some ⟨64,[.code],none,false⟩⟩,⟨100,.other,false,some ⟨64,[.code],none,false⟩⟩,⟨101,.other,false,some ⟨64,[.code],none,false⟩⟩,⟨103,.other,false,some ⟨64,[.code],none,false⟩⟩,⟨105,.other,false,some ⟨64,[.code],none,false⟩⟩,⟨110,.other,false,some ⟨64,[.code],none,false⟩⟩,⟨114,.other,false,some ⟨64,[.code],none,false⟩⟩]⟩,⟨[79],none,[],[⟨0,.other,false,some ⟨65,[.code],none,false⟩⟩,⟨9,.ws,false,some ⟨66,[],none,false⟩⟩,⟨10,.lf,false,some ⟨67,[],none,false⟩⟩,⟨11,.vt,false,some ⟨65,[.code],none,false⟩⟩,⟨12,.ff,false,some ⟨68,[],none,false⟩⟩,⟨13,.cr,false,some ⟨69,[],none,false⟩⟩,⟨13,.cr,true,some ⟨70,[],none,false⟩⟩,⟨34,.other,false,some ⟨65,[.code],none,false⟩⟩,⟨35,.other,false,some ⟨65,[.code],none,false⟩⟩,⟨37,.other,false,some ⟨65,[.code],none,false⟩⟩,⟨39,.other,false,some ⟨65,[.code],none,false⟩⟩,⟨40,.other,false,some ⟨65,[.code],none,false⟩⟩,⟨41,.other,false,some ⟨0,[.commit,.code],some 3,true⟩⟩,⟨47,.other,false,some ⟨65,[.code],none,false⟩⟩,⟨61,.other,false,some ⟨65,[.code],none,false⟩⟩,⟨81,.other,false,some ⟨65,[.code],none,false⟩⟩,⟨92,.other,false,some ⟨71,[],none,false⟩⟩,⟨96,.other,false,some ⟨65,[.code],none,false⟩⟩,⟨98,.other,false,some ⟨65,[.code],none,false⟩⟩,⟨100,.other,false,some ⟨65,[.code],none,false⟩⟩,⟨101,.other,false,some ⟨65,[.code],none,false⟩⟩,⟨103,.other,false,some ⟨65,[.code],none,false⟩⟩,⟨105,.other,false,some ⟨65,[.code],none,false⟩⟩,⟨110,.other,false,some ⟨65,[.code],none,false⟩⟩,⟨114,.other,false,some ⟨65,[.code],none,false⟩⟩]⟩,⟨[28],none,[],[⟨0,.other,false,some ⟨26,[.setEnt .internalNl,.emb (.cb 1),.code],none,false⟩⟩,⟨9,.ws,false,some ⟨27,[.setEnt .internalNl,.emb (.cb 1)],none,false⟩⟩,⟨10,.lf,false,some ⟨28,[.setEnt .internalNl,.emb (.cb 1)],none,false⟩⟩,⟨11,.vt,false,some ⟨26,[.setEnt .internalNl,.emb (.cb 1),.code],none,false⟩⟩,⟨12,.ff,false,some ⟨29,[.setEnt .internalNl,.emb (.cb 1)],none,false⟩⟩,⟨13,.cr,false,some ⟨30,[.setEnt .internalNl,.emb (.cb 1)],none,false⟩⟩,⟨13,.cr,true,some ⟨31,[.setEnt .internalNl,.emb (.cb 1)],none,false⟩⟩,⟨34,.other,false,some ⟨26,[.setEnt .internalNl,.emb (.cb 1),.code],none,false⟩⟩,⟨35,.other,false,some ⟨26,[.setEnt .internalNl,.emb (.cb 1),.code],none,false⟩⟩,⟨37,.other,false,some ⟨26,[.setEnt .internalNl,.emb (.cb 1),.code],none,false⟩⟩,⟨39,.other,false,some ⟨0,[.setEnt .internalNl,.emb (.cb 1),.commit,.code],some 3,true⟩⟩,⟨40,.other,false,some ⟨26,[.setEnt .internalNl,.emb (.cb 1),.code],none,false⟩⟩,⟨41,.other,false,some ⟨26,[.setEnt .internalNl,.emb (.cb 1),.code],none,false⟩⟩,⟨47,.other,false,some ⟨26,[.setEnt .internalNl,.emb (.cb 1),.code],none,false⟩⟩,⟨61,.other,false,some ⟨26,[.setEnt .internalNl,.emb (.cb 1),.code],none,false⟩⟩,⟨81,.other,false,some ⟨26,[.setEnt .internalNl,.emb (.cb 1),.code],none,false⟩⟩,⟨92,.other,false,some ⟨32,[.setEnt .internalNl,.emb (.cb 1)],none,false⟩⟩,⟨96,.other,false,some ⟨26,[.setEnt .internalNl,.emb (.cb 1),.code],none,false⟩⟩,⟨98,.other,false,some ⟨26,[.setEnt .internalNl,.emb (.cb 1),.code],none,false⟩⟩,⟨100,.other,false,some ⟨26,[.setEnt .internalNl,.emb (.cb 1),.code],none,false⟩⟩,⟨101,.other,false,some ⟨26,[.setEnt .internalNl,.emb (.cb 1),.code],none,false⟩⟩,⟨103,.other,false,some ⟨26,[.setEnt .internalNl,.emb (.cb 1),.code],none,false⟩⟩,⟨105,.other,false,some ⟨26,[.setEnt .internalNl,.emb (.cb 1),.code],none,false⟩⟩,⟨110,.other,false,some ⟨26,[.setEnt .internalNl,.emb (.cb 1),.code],none,false⟩⟩,⟨114,.other,false,some ⟨26,[.setEnt .internalNl,.emb (.cb 1),.code],none,false⟩⟩]⟩,⟨[28,29],none,[],[⟨0,.other,false,some ⟨26,[.setEnt .internalNl,.emb (.cb 1),.code],none,false⟩⟩,⟨9,.ws,false,some ⟨27,[.setEnt .internalNl,.emb (.cb 1)],none,false⟩⟩,⟨10,.lf,false,some ⟨28,[.setEnt .internalNl,.emb (.cb 1)],none,false⟩⟩,⟨11,.vt,false,some ⟨26,[.setEnt .internalNl,.emb (.cb 1),.code],none,false⟩⟩,⟨12,.ff,false,some ⟨29,[.setEnt .internalNl,.emb (.cb 1)],none,false⟩⟩,⟨13,.cr,false,some ⟨30,[.setEnt .internalNl,.emb (.cb 1)],none,false⟩⟩,⟨13,.cr,true,some ⟨31,[.setEnt .internalNl,.emb (.cb 1)],none,false⟩⟩,⟨34,.other,false,some ⟨26,[.setEnt .internalNl,.emb (.cb 1),.code],none,false⟩⟩,⟨35,.other,false,some ⟨26,[.setEnt .internalNl,.emb (.cb 1),.code],none,false⟩⟩,⟨37,.other,false,some ⟨26,[.setEnt .internalNl,.emb (.cb 1),.code],none,false⟩⟩,⟨39,.other,false,some ⟨0,[.setEnt .internalNl,.emb (.cb 1),.commit,.code],some 3,true⟩⟩,⟨40,.other,false,some ⟨26,[.setEnt .internalNl,.emb (.cb 1),.code],none,false⟩⟩,⟨41,.other,false,some ⟨26,[.setEnt .internalNl,.emb (.cb 1),.code],none,false⟩⟩,⟨47,.other,false,some ⟨26,[.setEnt .internalNl,.emb (.cb 1),.code],none,false⟩⟩,⟨61,.other,false,some ⟨26,[.setEnt .internalNl,.emb (.cb 1),.code],none,false⟩⟩,⟨81,.other,false,some ⟨26,[.setEnt .internalNl,.emb (.cb 1),.code],none,false⟩⟩,⟨92,.other,false,some ⟨32,[.setEnt .internalNl,.emb (.cb 1)],none,false⟩⟩,⟨96,.other,false,some ⟨26,[.setEnt .internalNl,.emb (.cb 1),.code],none,false⟩⟩,⟨98,.other,false,some ⟨26,[.setEnt .internalNl,.emb (.cb 1),.code],none,false⟩⟩,⟨100,.other,false,some ⟨26,[.setEnt .internalNl,.emb (.cb 1),.code],none,false⟩⟩,⟨101,.other,false,some ⟨26,[.setEnt .internalNl,.emb (.cb 1),.code],none,false⟩⟩,⟨103,.other,false,some ⟨26,[.setEnt .internalNl,.emb (.cb 1),.code],none,false⟩⟩,⟨105,.other,false,some ⟨26,[.setEnt .internalNl,.emb (.cb 1),.code],none,false⟩⟩,⟨110,.other,false,some ⟨26,[.setEnt .internalNl,.emb (.cb 1),.code],none,false⟩⟩,⟨114,.other,false,some ⟨26,[.setEnt .internalNl,.emb (.cb 1),.code],none,false⟩⟩]⟩,⟨[35],none,[],[⟨0,.other,false,some ⟨26,[.code],none,false⟩⟩,⟨9,.ws,false,some ⟨27,[],none,false⟩⟩,⟨10,.lf,false,some ⟨28,[],none,false⟩⟩,⟨11,.vt,false,some ⟨26,[.code],none,false⟩⟩,⟨12,.ff,false,some ⟨29,[],none,false⟩⟩,⟨13,.cr,false,some ⟨30,[],none,false⟩⟩,⟨13,.cr,true,some ⟨31,[],none,false⟩⟩,⟨34,.other,false,some ⟨26,[.code],none,false⟩⟩,⟨35,.other,false,some ⟨26,[.code],none,false⟩⟩,⟨37,.other,false,some ⟨26,[.code],none,false⟩⟩,⟨39,.other,false,some ⟨0,[.commit,.code],some 3,true⟩⟩,⟨40,.other,false,some ⟨26,[.code],none,false⟩⟩,⟨41,.other,false,some ⟨26,[.code],none,false⟩⟩,⟨47,.other,false,some ⟨26,[.code],none,false⟩⟩,⟨61,.other,false,some ⟨26,[.code],none,false⟩⟩,⟨81,.other,false,some ⟨26,[.code],none,false⟩⟩,⟨92,.other,false,some ⟨32,[],none,false⟩⟩,⟨96,.other,false,some ⟨26,[.code],none,false⟩⟩,⟨98,.other,false,some ⟨26,[.code],none,false⟩⟩,⟨100,.other,false,some ⟨26,[.code],none,false⟩⟩,⟨101,.other,false,some ⟨26,[.code],none,false⟩⟩,⟨103,.other,false,some ⟨26,[.code],none,false⟩⟩,⟨105,.other,false,some ⟨26,[.code],none,false⟩⟩,⟨110,.other,false,some ⟨26,[.code],none,false⟩⟩,⟨114,.other,false,some ⟨26,[.code],none,false⟩⟩]⟩,⟨[75],none,[],[⟨0,.other,false,some ⟨33,[],none,false⟩⟩,⟨9,.ws,false,some ⟨33,[],none,false⟩⟩,⟨10,.lf,false,none⟩,⟨11,.vt,false,some ⟨33,[],none,false⟩⟩,⟨12,.ff,false,none⟩,⟨13,.cr,false,none⟩,⟨13,.cr,true,none⟩,⟨34,.other,false,some ⟨33,[],none,false⟩⟩,⟨35,.other,false,some ⟨33,[],none,false⟩⟩,⟨37,.other,false,some ⟨33,[],none,false⟩⟩,⟨39,.other,false,some ⟨33,[],none,false⟩⟩,⟨40,.other,false,some ⟨33,[],none,false⟩⟩,⟨41,.other,false,some ⟨33,[],none,false⟩⟩,⟨47,.other,false,some ⟨0,[.code],some 3,true⟩⟩,⟨61,.other,false,some ⟨33,[],none,false⟩⟩,⟨81,.other,false,some ⟨33,[],none,false⟩⟩,⟨92,.other,false,some ⟨34,[],none,false⟩⟩,⟨96,.other,false,some ⟨33,[],none,false⟩⟩,⟨98,.other,false,some ⟨33,[],none,false⟩⟩,⟨100,.other,false,some ⟨33,[],none,false⟩⟩,⟨101,.other,false,some ⟨33,[],none,false⟩⟩,⟨103,.other,false,some ⟨33,[],none,false⟩⟩,⟨105,.other,false,some ⟨33,[],none,false⟩⟩,⟨110,.other,false,some ⟨33,[],none,false⟩⟩,⟨114,.other,false,some ⟨33,[],none,false⟩⟩]⟩,⟨[11],none,[],[⟨0,.other,false,none⟩,⟨9,.ws,false,none⟩,⟨10,.lf,false,none⟩,⟨11,.vt,false,none⟩,⟨12,.ff,false,none⟩,⟨13,.cr,false,none⟩,⟨13,.cr,true,none⟩,⟨34,.other,false,none⟩,⟨35,.other,false,none⟩,⟨37,.other,false,none⟩,⟨39,.other,false,none⟩,⟨40,.other,false,none⟩,⟨41,.other,false,none⟩,⟨47,.other,false,none⟩,⟨61,.other,false,none⟩,⟨81,.other,false,none⟩,⟨92,.other,false,none⟩,⟨96,.other,false,none⟩,⟨98,.other,false,none⟩,⟨100,.other,false,none⟩,⟨101,.other,false,none⟩,⟨103,.other,false,some ⟨72,[],none,false⟩⟩,⟨105,.other,false,none⟩,⟨110,.other,false,none⟩,⟨114,.other,false,none⟩]⟩,⟨[63],none,[],[⟨0,.other,false,some ⟨36,[.setEnt .internalNl,.emb (.cb 1),.code],none,false⟩⟩,⟨9,.ws,false,some ⟨37,[.setEnt .internalNl,.emb (.cb 1)],none,false⟩⟩,⟨10,.lf,false,some ⟨38,[.setEnt .internalNl,.emb (.cb 1)],none,false⟩⟩,⟨11,.vt,false,some ⟨36,[.setEnt .internalNl,.emb (.cb 1),.code],none,false⟩⟩,⟨12,.ff,false,some ⟨39,[.setEnt .internalNl,.emb (.cb 1)],none,false⟩⟩,⟨13,.cr,false,some ⟨40,[.setEnt .internalNl,.emb (.cb 1)],none,false⟩⟩,⟨13,.cr,true,some ⟨41,[.setEnt .internalNl,.emb (.cb 1)],none,false⟩⟩,⟨34,.other,false,some ⟨36,[.setEnt .internalNl,.emb (.cb 1),.code],none,false⟩⟩,⟨35,.other,false,some ⟨36,[.setEnt .internalNl,.emb (.cb 1),.code],none,false⟩⟩,⟨37,.other,false,some ⟨36,[.setEnt .internalNl,.emb (.cb 1),.code],none,false⟩⟩,⟨39,.other,false,some ⟨36,[.setEnt .internalNl,.emb (.cb 1),.code],none,false⟩⟩,⟨40,.other,false,some ⟨36,[.setEnt .internalNl,.emb (.cb 1),.code],none,false⟩⟩,⟨41,.other,false,some ⟨36,[.setEnt .internalNl,.emb (.cb 1),.code],none,false⟩⟩,⟨47,.other,false,some ⟨36,[.setEnt .internalNl,.emb (.cb 1),.code],none,false⟩⟩,⟨61,.other,false,some ⟨36,[.setEnt .internalNl,.emb (.cb 1),.code],none,false⟩⟩,⟨81,.other,false,some ⟨36,[.setEnt .internalNl,.emb (.cb 1),.code],none,false⟩⟩,⟨92,.other,false,some ⟨42,[.setEnt .internalNl,.emb (.cb 1)],none,false⟩⟩,⟨96,.other,false,some ⟨0,[.setEnt .internalNl,.emb (.cb 1),.commit,.code],some 3,true⟩⟩,⟨98,.other,false,some ⟨36,[.setEnt .internalNl,.emb (.cb 1),.code],none,false⟩⟩,⟨100,.other,false,some ⟨36,[.setEnt .internalNl,.emb (.cb 1),.code],none,false⟩⟩,⟨101,.other,false,some ⟨36,[.setEnt .internalNl,.emb (.cb 1),.code],none,false⟩⟩,⟨103,.other,false,some ⟨36,[.setEnt .internalNl,.emb (.cb 1),.code],none,false⟩⟩,⟨105,.other,false,some ⟨36,[.setEnt .internalNl,.emb (.cb 1),.code],none,false⟩⟩,⟨110,.other,false,some ⟨36,[.setEnt .internalNl,.emb (.cb 1),.code],none,false⟩⟩,⟨114,.other,false,some ⟨36,[.setEnt .internalNl,.emb (.cb 1),.code],none,false⟩⟩]⟩,⟨[63,64],none,[],[⟨0,.other,false,some ⟨36,[.setEnt .internalNl,.emb (.cb 1),.code],none,false⟩⟩,⟨9,.ws,false,some ⟨37,[.setEnt .internalNl,.emb (.cb 1)],none,false⟩⟩,⟨10,.lf,false,some ⟨38,[.setEnt .internalNl,.emb (.cb 1)],none,false⟩⟩,⟨11,.vt,false,some ⟨36,[.setEnt .internalNl,.emb (.cb 1),.code],none,false⟩⟩,⟨12,.ff,false,some ⟨39,[.setEnt .internalNl,.emb (.cb 1)],none,false⟩⟩,⟨13,.cr,false,some ⟨40,[.setEnt .internalNl,.emb (.cb 1)],none,false⟩⟩,⟨13,.cr,true,some ⟨41,[.setEnt .internalNl,.emb (.cb 1)],none,false⟩⟩,⟨34,.other,false,some ⟨36,[.setEnt .internalNl,.emb (.cb 1),.code],none,false⟩⟩,⟨35,.other,false,some ⟨36,[.setEnt .internalNl,.emb (.cb 1),.code],none,false⟩⟩,⟨37,.other,false,some ⟨36,[.setEnt .internalNl,.emb (.cb 1),.code],none,false⟩⟩,⟨39,.other,false,some ⟨36,[.setEnt .internalNl,.emb (.cb 1),.code],none,false⟩⟩,⟨40,.other,false,some ⟨36,[.setEnt .internalNl,.emb (.cb 1),.code],none,false⟩⟩,⟨41,.other,false,some ⟨36,[.setEnt .internalNl,.emb (.cb 1),.code],none,false⟩⟩,⟨47,.other,false,some ⟨36,[.setEnt .internalNl,.emb (.cb 1),.code],none,false⟩⟩,⟨61,.other,false,some ⟨36,[.setEnt .internalNl,.emb (.cb 1),.code],none,false⟩⟩,⟨81,.other,false,some ⟨36,[.setEnt .internalNl,.emb (.cb 1),.code],none,false⟩⟩,⟨92,.other,false,some ⟨42,[.setEnt .internalNl,.emb (.cb 1)],none,false⟩⟩,⟨96,.other,false,some ⟨0,[.setEnt .internalNl,.emb (.cb 1),.commit,.code],some 3,true⟩⟩,⟨98,.other,false,some ⟨36,[.setEnt .internalNl,.emb (.cb 1),.code],none,false⟩⟩,⟨100,.other,false,some ⟨36,[.setEnt .internalNl,.emb (.cb 1),.code],none,false⟩⟩,⟨101,.other,false,some ⟨36,[.setEnt .internalNl,.emb (.cb 1),.code],none,false⟩⟩,⟨103,.other,false,some ⟨36,[.setEnt .internalNl,.emb (.cb 1),.code],none,false⟩⟩,⟨105,.other,false,some ⟨36,[.setEnt .internalNl,.emb (.cb 1),.code],none,false⟩⟩,⟨110,.other,false,some ⟨36,[.setEnt .internalNl,.emb (.cb 1),.code],none,false⟩⟩,⟨114,.other,false,some ⟨36,[.setEnt .internalNl,.emb (.cb 1),.code],none,false⟩⟩]⟩,⟨[70],none,[],[⟨0,.other,false,some ⟨36,[.code],none,false⟩⟩,⟨9,.ws,false,some ⟨37,[],none,false⟩⟩,⟨10,.lf,false,some ⟨38,[],none,false⟩⟩,⟨11,.vt,false,some ⟨36,[.code],none,false⟩⟩,⟨12,.ff,false,some ⟨39,[],none,false⟩⟩,⟨13,.cr,false,some ⟨40,[],none,false⟩⟩,⟨13,.cr,true,some ⟨41,[],none,false⟩⟩,⟨34,.other,false,some ⟨36,[.code],none,false⟩⟩,⟨35,.other,false,some ⟨36,[.code],none,false⟩⟩,⟨37,.other,false,some ⟨36,[.code],none,false⟩⟩,⟨39,.other,false,some ⟨36,[.code],none,false⟩⟩,⟨40,.other,false,some ⟨36,[.code],none,false⟩⟩,⟨41,.other,false,some ⟨36,[.code],none,false⟩⟩,⟨47,.other,false,some ⟨36,[.code],none,false⟩⟩,⟨61,.other,false,some ⟨36,[.code],none,false⟩⟩,⟨81,.other,false,some ⟨36,[.code],none,false⟩⟩,⟨92,.other,false,some ⟨42,[],none,false⟩⟩,⟨96,.other,false,some ⟨0,[.commit,.code],some 3,true⟩⟩,⟨98,.other,false,some ⟨36,[.code],none,false⟩⟩,⟨100,.other,false,some ⟨36,[.code],none,false⟩⟩,⟨101,.other,false,some ⟨36,[.code],none,false⟩⟩,⟨103,.other,false,some ⟨36,[.code],none,false⟩⟩,⟨105,.other,false,some ⟨36,[.code],none,false⟩⟩,⟨110,.other,false,some ⟨36,[.code],none,false⟩⟩,⟨114,.other,false,some ⟨36,[.code],none,false⟩⟩]⟩,⟨[52],none,[],[⟨0,.other,false,some ⟨46,[.setEnt .internalNl,.emb (.cb 1),.code],none,false⟩⟩,⟨9,.ws,false,some ⟨47,[.setEnt .internalNl,.emb (.cb 1)],none,false⟩⟩,⟨10,.lf,false,some ⟨48,[.setEnt .internalNl,.emb (.cb 1)],none,false⟩⟩,⟨11,.vt,false,some ⟨46,[.setEnt .internalNl,.emb (.cb 1),.code],none,false⟩⟩,⟨12,.ff,false,some ⟨49,[.setEnt .internalNl,.emb (.cb 1)],none,false⟩⟩,⟨13,.cr,false,some ⟨50,[.setEnt .internalNl,.emb (.cb 1)],none,false⟩⟩,⟨13,.cr,true,some ⟨51,[.setEnt .internalNl,.emb (.cb 1)],none,false⟩⟩,⟨34,.other,false,some ⟨46,[.setEnt .internalNl,.emb (.cb 1),.code],none,false⟩⟩,⟨35,.other,false,some ⟨46,[.setEnt .internalNl,.emb (.cb 1),.code],none,false⟩⟩,⟨37,.other,false,some ⟨46,[.setEnt .internalNl,.emb (.cb 1),.code],none,false⟩⟩,⟨39,.other,false,some ⟨46,[.setEnt .internalNl,.emb (.cb 1),.code],none,false⟩⟩,⟨40,.other,false,some ⟨46,[.setEnt .internalNl,.emb (.cb 1),.code],none,false⟩⟩,⟨41,.other,false,some ⟨0,[.setEnt .internalNl,.emb (.cb 1),.commit,.code],some 3,true⟩⟩,⟨47,.other,false,some ⟨46,[.setEnt .internalNl,.emb (.cb 1),.code],none,false⟩⟩,⟨61,.other,false,some ⟨46,[.setEnt .internalNl,.emb (.cb 1),.code],none,false⟩⟩,⟨81,.other,false,some ⟨46,[.setEnt .internalNl,.emb (.cb 1),.code],none,false⟩⟩,⟨92,.other,false,some ⟨52,[.setEnt .internalNl,.emb (.cb 1)],none,false⟩⟩,⟨96,.other,false,some ⟨46,[.setEnt .internalNl,.emb (.cb 1),.code],none,false⟩⟩,⟨98,.other,false,some ⟨46,[.setEnt .internalNl,.emb (.cb 1),.code],none,false⟩⟩,⟨100,.other,false,some ⟨46,[.setEnt .internalNl,.emb (.cb 1),.code],none,false⟩⟩,⟨101,.other,false,some ⟨46,[.setEnt .internalNl,.emb (.cb 1),.code],none,false⟩⟩,⟨103,.other,false,some ⟨46,[.setEnt .internalNl,.emb (.cb 1),.code],none,false⟩⟩,⟨105,.other,false,some ⟨46,[.setEnt .internalNl,.emb (.cb 1),.code],none,false⟩⟩,⟨110,.other,false,some ⟨46,[.setEnt .internalNl,.emb (.cb 1),.code],none,false⟩⟩,⟨114,.other,false,some ⟨46,[.setEnt .internalNl,.emb (.cb 1),.code],none,false⟩⟩]⟩,⟨[52,53],none,[],[⟨0,.other,false,some ⟨46,[.setEnt .internalNl,.emb (.cb 1),.code],none,false⟩⟩,⟨9,.ws,false,some ⟨47,[.setEnt .internalNl,.emb (.cb 1)],none,false⟩⟩,⟨10,.lf,false,some ⟨48,[.setEnt .internalNl,.emb (.cb 1)],none,false⟩⟩,⟨11,.vt,false,some ⟨46,[.setEnt .internalNl,.emb (.cb 1),.code],none,false⟩⟩,⟨12,.ff,false,some ⟨49,[.setEnt .internalNl,.emb (.cb 1)],none,false⟩⟩,⟨13,.cr,false,some ⟨50,[.setEnt .internalNl,.emb (.cb 1)],none,false⟩⟩,⟨13,.cr,true,some ⟨51,[.setEnt .internalNl,.emb (.cb 1)],none,false⟩⟩,⟨34,.other,false,some ⟨46,[.setEnt .internalNl,.emb (.cb 1),.code],none,false⟩⟩,⟨35,.other,false,some ⟨46,[.setEnt .internalNl,.emb (.cb 1),.code],none,false⟩⟩,⟨37,.other,false,some ⟨46,[.setEnt .internalNl,.emb (.cb 1),.code],none,false⟩⟩,⟨39,.other,false,some ⟨46,[.setEnt .internalNl,.emb (.cb 1),.code],none,false⟩⟩,⟨40,.other,false,some ⟨46,[.setEnt .internalNl,.emb (.cb 1),.code],none,false⟩⟩,⟨41,.other,false,some ⟨0,[.setEnt .internalNl,.emb (.cb 1),.commit,.code],some 3,true⟩⟩,⟨47,.other,false,some ⟨46,[.setEnt .internalNl,.emb (.cb 1),.code],none,false⟩⟩,⟨61,.other,false,some ⟨46,[.setEnt .internalNl,.emb (.cb 1),.code],none,false⟩⟩,⟨81,.other,false,some ⟨46,[.setEnt .internalNl,.emb (.cb 1),.code],none,false⟩⟩,⟨92,.other,false,some ⟨52,[.setEnt .internalNl,.emb (.cb 1)],none,false⟩⟩,⟨96,.other,false,some ⟨46,[.setEnt .internalNl,.emb (.cb 1),.code],none,false⟩⟩,⟨98,.other,false,some ⟨46,[.setEnt .internalNl,.emb (.cb 1),.code],none,false⟩⟩,⟨100,.other,false,some ⟨46,[.setEnt .internalNl,.emb (.cb 1),.code],none,false⟩⟩,⟨101,.other,false,some ⟨46,[.setEnt .internalNl,.emb (.cb 1),.code],none,false⟩⟩,⟨103,.other,false,some ⟨46,[.setEnt .internalNl,.emb (.cb 1),.code],none,false⟩⟩,⟨105,.other,false,some ⟨46,[.setEnt .internalNl,.emb (.cb 1),.code],none,false⟩⟩,⟨110,.other,false,some ⟨46,[.setEnt .internalNl,.emb (.cb 1),.code],none,false⟩⟩,⟨114,.other,false,some ⟨46,[.setEnt .internalNl,.emb (.cb 1),.code],none,false⟩⟩]⟩,⟨[59],none,[],[⟨0,.other,false,some ⟨46,[.code],none,false⟩⟩,⟨9,.ws,false,some ⟨47,[],none,false⟩⟩,⟨10,.lf,false,some ⟨48,[],none,false⟩⟩,⟨11,.vt,false,some ⟨46,[.code],none,false⟩⟩,⟨12,.ff,false,some ⟨49,[],none,false⟩⟩,⟨13,.cr,false,some ⟨50,[],none,false⟩⟩,⟨13,.cr,true,some ⟨51,[],none,false⟩⟩,⟨34,.other,false,some ⟨46,[.code],none,false⟩⟩,⟨35,.other,false,some ⟨46,[.code],none,false⟩⟩,⟨37,.other,false,some ⟨46,[.code],none,false⟩⟩,⟨39,.other,false,some ⟨46,[.code],none,false⟩⟩,⟨40,.other,false,some ⟨46,[.code],none,false⟩⟩,⟨41,.other,false,some ⟨0,[.commit,.code],some 3,true⟩⟩,⟨47,.other,false,some ⟨46,[.code],none,false⟩⟩,⟨61,.other,false,some ⟨46,[.code],none,false⟩⟩,⟨81,.other,false,some ⟨46,[.code],none,false⟩⟩,⟨92,.other,false,some ⟨52,[],none,false⟩⟩,⟨96,.other,false,some ⟨46,[.code],none,false⟩⟩,⟨98,.other,false,some ⟨46,[.code],none,false⟩⟩,⟨100,.other,false,some ⟨46,[.code],none,false⟩⟩,⟨101,.other,false,some ⟨46,[.code],none,false⟩⟩,⟨103,.other,false,some ⟨46,[.code],none,false⟩⟩,⟨105,.other,false,some ⟨46,[.code],none,false⟩⟩,⟨110,.other,false,some ⟨46,[.code],none,false⟩⟩,⟨114,.other,false,some ⟨46,[.code],none,false⟩⟩]⟩,⟨[86],none,[],[⟨0,.other,false,some ⟨65,[.code],none,false⟩⟩,⟨9,.ws,false,some ⟨66,[],none,false⟩⟩,⟨10,.lf,false,some ⟨67,[],none,false⟩⟩,⟨11,.vt,false,some ⟨65,[.code],none,false⟩⟩,⟨12,.ff,false,some ⟨68,[],none,false⟩⟩,⟨13,.cr,false,some ⟨69,[],none,false⟩⟩,⟨13,.cr,true,some ⟨70,[],none,false⟩⟩,⟨34,.other,false,some ⟨65,[.code],none,false⟩⟩,⟨35,.other,false,some ⟨65,[.code],none,false⟩⟩,⟨37,.other,false,some ⟨65,[.code],none,false⟩⟩,⟨39,.other,false,some ⟨65,[.code],none,false⟩⟩,⟨40,.other,false,some ⟨65,[.code],none,false⟩⟩,⟨41,.other,false,some ⟨0,[.commit,.code],some 3,true⟩⟩,⟨47,.other,false,some ⟨65,[.code],none,false⟩⟩,⟨61,.other,false,some ⟨65,[.code],none,false⟩⟩,⟨81,.other,false,some ⟨65,[.code],none,false⟩⟩,⟨92,.other,false,some ⟨71,[],none,false⟩⟩,⟨96,.other,false,some ⟨65,[.code],none,false⟩⟩,⟨98,.other,false,some ⟨65,[.code],none,false⟩⟩,⟨100,.other,false,some ⟨65,[.code],none,false⟩⟩,⟨101,.other,false,some ⟨65,[.code],none,false⟩⟩,⟨103,.other,false,some ⟨65,[.code],none,false⟩⟩,⟨105,.other,false,some ⟨65,[.code],none,false⟩⟩,⟨110,.other,false,some ⟨65,[.code],none,false⟩⟩,⟨114,.other,false,some ⟨65,[.code],none,false⟩⟩]⟩,⟨[85],none,[],[⟨0,.other,false,some ⟨65,[.code],none,false⟩⟩,⟨9,.ws,false,some ⟨66,[],none,false⟩⟩,⟨10,.lf,false,some ⟨67,[],none,false⟩⟩,⟨11,.vt,false,some ⟨65,[.code],none,false⟩⟩,⟨12,.ff,false,some ⟨68,[],none,false⟩⟩,⟨13,.cr,false,some ⟨69,[],none,false⟩⟩,⟨13,.cr,true,some ⟨70,[],none,false⟩⟩,⟨34,.other,false,some ⟨65,[.code],none,false⟩⟩,⟨35,.other,false,some ⟨65,[.code],none,false⟩⟩,⟨37,.other,false,some ⟨65,[.code],none,false⟩⟩,⟨39,.other,false,some ⟨65,[.code],none,false⟩⟩,⟨40,.other,false,some ⟨65,[.code],none,false⟩⟩,⟨41,.other,false,some ⟨0,[.commit,.code],some 3,true⟩⟩,⟨47,.other,false,some ⟨65,[.code],none,false⟩⟩,⟨61,.other,false,some ⟨65,[.code],none,false⟩⟩,⟨81,.other,false,some ⟨65,[.code],none,false⟩⟩,⟨92,.other,false,some ⟨71,[],none,false⟩⟩,⟨96,.other,false,some ⟨65,[.code],none,false⟩⟩,⟨98,.other,false,some ⟨65,[.code],none,false⟩⟩,⟨100,.other,false,some ⟨65,[.code],none,false⟩⟩,⟨101,.other,false,some ⟨65,[.code],none,false⟩⟩,⟨103,.other,false,some ⟨65,[.code],none,false⟩⟩,⟨105,.other,false,some ⟨65,[.code],none,false⟩⟩,⟨110,.other,false,some ⟨65,[.code],none,false⟩⟩,⟨114,.other,false,some ⟨65,[.code],none,false⟩⟩]⟩,⟨[82],none,[],[⟨0,.other,false,some ⟨65,[.setEnt .internalNl,.emb (.cb 1),.code],none,false⟩⟩,⟨9,.ws,false,some ⟨66,[.setEnt .internalNl,.emb (.cb 1)],none,false⟩⟩,⟨10,.lf,false,some ⟨67,[.setEnt .internalNl,.emb (.cb 1)],none,false⟩⟩,⟨11,.vt,false,some ⟨65,[.setEnt .internalNl,.emb (.cb 1),.code],none,false⟩⟩,⟨12,.ff,false,some ⟨68,[.setEnt .internalNl,.emb (.cb 1)],none,false⟩⟩,⟨13,.cr,false,some ⟨69,[.setEnt .internalNl,.emb (.cb 1)],none,false⟩⟩,⟨13,.cr,true,some ⟨70,[.setEnt .internalNl,.emb (.cb 1)],none,false⟩⟩,⟨34,.other,false,some ⟨65,[.setEnt .internalNl,.emb (.cb 1),.code],none,false⟩⟩,⟨35,.other,false,some ⟨65,[.setEnt .internalNl,.emb (.cb 1),.code],none,false⟩⟩,⟨37,.other,false,some ⟨65,[.setEnt .internalNl,.emb (.cb 1),.code],none,false⟩⟩,⟨39,.other,false,some ⟨65,[.setEnt .internalNl,.emb (.cb 1),.code],none,false⟩⟩,⟨40,.other,false,some ⟨65,[.setEnt .internalNl,.emb (.cb 1),.code],none,false⟩⟩,⟨41,.other,false,some ⟨0,[.setEnt .internalNl,.emb (.cb 1),.commit,.code],some 3,true⟩⟩,⟨47,.other,false,some ⟨65,[.setEnt .internalNl,.emb (.cb 1),.code],none,false⟩⟩,⟨61,.other,false,some ⟨65,[.setEnt .internalNl,.emb (.cb 1),.code],none,false⟩⟩,⟨81,.other,false,some ⟨65,[.setEnt .internalNl,.emb (.cb 1),.code],none,false⟩⟩,⟨92,.other,false,some ⟨71,[.setEnt .internalNl,.emb (.cb 1)],none,false⟩⟩,⟨96,.other,false,some ⟨65,[.setEnt .internalNl,.emb (.cb 1),.code],none,false⟩⟩,⟨98,.other,false,some ⟨65,[.setEnt .internalNl,.emb (.cb 1),.code],none,false⟩⟩,⟨100,.other,false,some ⟨65,[.setEnt .internalNl,.emb (.cb 1),.code],none,false⟩⟩,⟨101,.other,false,some ⟨65,[.setEnt .internalNl,.emb (.cb 1),.code],none,false⟩⟩,⟨103,.other,false,some ⟨65,[.setEnt .internalNl,.emb (.cb 1),.code],none,false⟩⟩,⟨105,.other,false,some ⟨65,[.setEnt .internalNl,.emb (.cb 1),.code],none,false⟩⟩,⟨110,.other,false,some ⟨65,[.setEnt .internalNl,.emb (.cb 1),.code],none,false⟩⟩,⟨114,.other,false,some ⟨65,[.setEnt .internalNl,.emb (.cb 1),.code],none,false⟩⟩]⟩,⟨[83],none,[],[⟨0,.other,false,some ⟨65,[.setEnt .internalNl,.emb (.cb 1),.code],none,false⟩⟩,⟨9,.ws,false,some ⟨66,[.setEnt .internalNl,.emb (.cb 1)],none,false⟩⟩,⟨10,.lf,false,some ⟨67,[.setEnt .internalNl,.emb (.cb 1)],none,false⟩⟩,⟨11,.vt,false,some ⟨65,[.setEnt .internalNl,.emb (.cb 1),.code],none,false⟩⟩,⟨12,.ff,false,some ⟨68,[.setEnt .internalNl,.emb (.cb 1)],none,false⟩⟩,⟨13,.cr,false,some ⟨69,[.setEnt .internalNl,.emb (.cb 1)],none,false⟩⟩,⟨13,.cr,true,some ⟨70,[.setEnt .internalNl,.emb (.cb 1)],none,false⟩⟩,⟨34,.other,false,some ⟨65,[.setEnt .internalNl,.emb (.cb 1),.code],none,false⟩⟩,⟨35,.other,false,some ⟨65,[.setEnt .internalNl,.emb (.cb 1),.code],none,false⟩⟩,⟨37,.other,false,some ⟨65,[.setEnt .internalNl,.emb (.cb 1),.code],none,false⟩⟩,⟨39,.other,false,some ⟨65,[.setEnt .internalNl,.emb (.cb 1),.code],none,false⟩⟩,⟨40,.other,false,some ⟨65,[.setEnt .internalNl,.emb (.cb 1),.code],none,false⟩⟩,⟨41,.other,false,some ⟨0,[.setEnt .internalNl,.emb (.cb 1),.commit,.code],some 3,true⟩⟩,⟨47,.other,false,some ⟨65,[.setEnt .internalNl,.emb (.cb 1),.code],none,false⟩⟩,⟨61,.other,false,some ⟨65,[.setEnt .internalNl,.emb (.cb 1),.code],none,false⟩⟩,⟨81,.other,false,some ⟨65,[.setEnt .internalNl,.emb (.cb 1),.code],none,false⟩⟩,⟨92,.other,false,some ⟨71,[.setEnt .internalNl,.emb (.cb 1)],none,false⟩⟩,⟨96,.other,false,some ⟨65,[.setEnt .internalNl,.emb (.cb 1),.code],none,false⟩⟩,⟨98,.other,false,some ⟨65,[.setEnt .internalNl,.emb (.cb 1),.code],none,false⟩⟩,⟨100,.other,false,some ⟨65,[.setEnt .internalNl,.emb (.cb 1),.code],none,false⟩⟩,⟨101,.other,false,some ⟨65,[.setEnt .internalNl,.emb (.cb 1),.code],none,false⟩⟩,⟨103,.other,false,some ⟨65,[.setEnt .internalNl,.emb (.cb 1),.code],none,false⟩⟩,⟨105,.other,false,some ⟨65,[.setEnt .internalNl,.emb (.cb 1),.code],none,false⟩⟩,⟨110,.other,false,some ⟨65,[.setEnt .internalNl,.emb (.cb 1),.code],none,false⟩⟩,⟨114,.other,false,some ⟨65,[.setEnt .internalNl,.emb (.cb 1),.code],none,false⟩⟩]⟩,⟨[80],none,[],[⟨0,.other,false,none⟩,⟨9,.ws,false,none⟩,⟨10,.lf,false,some ⟨73,[],none,false⟩⟩,⟨11,.vt,false,none⟩,⟨12,.ff,false,none⟩,⟨13,.cr,false,none⟩,⟨13,.cr,true,none⟩,⟨34,.other,false,none⟩,⟨35,.other,false,none⟩,⟨37,.other,false,none⟩,⟨39,.other,false,none⟩,⟨40,.other,false,none⟩,⟨41,.other,false,none⟩,⟨47,.other,false,none⟩,⟨61,.other,false,none⟩,⟨81,.other,false,none⟩,⟨92,.other,false,none⟩,⟨96,.other,false,none⟩,⟨98,.other,false,none⟩,⟨100,.other,false,none⟩,⟨101,.other,false,none⟩,⟨103,.other,false,none⟩,⟨105,.other,false,none⟩,⟨110,.other,false,none⟩,⟨114,.other,false,none⟩]⟩,⟨[80,84],none,[],[⟨0,.other,false,some ⟨65,[.setEnt .internalNl,.emb (.cb 1),.code],none,false⟩⟩,⟨9,.ws,false,some ⟨66,[.setEnt .internalNl,.emb (.cb 1)],none,false⟩⟩,⟨10,.lf,false,some ⟨74,[.setEnt .internalNl,.emb (.cb 1)],none,false⟩⟩,⟨11,.vt,false,some ⟨65,[.setEnt .internalNl,.emb (.cb 1),.code],none,false⟩⟩,⟨12,.ff,false,some ⟨68,[.setEnt .internalNl,.emb (.cb 1)],none,false⟩⟩,⟨13,.cr,false,some ⟨69,[.setEnt .internalNl,.emb (.cb 1)],none,false⟩⟩,⟨13,.cr,true,some ⟨70,[.setEnt .internalNl,.emb (.cb 1)],none,false⟩⟩,⟨34,.other,false,some ⟨65,[.setEnt .internalNl,.emb (.cb 1),.code],none,false⟩⟩,⟨35,.other,false,some ⟨65,[.setEnt .internalNl,.emb (.cb 1),.code],none,false⟩⟩,⟨37,.other,false,some ⟨65,[.setEnt .internalNl,.emb (.cb 1),.code],none,false⟩⟩,⟨39,.other,false,some ⟨65,[.setEnt .internalNl,.emb (.cb 1),.code],none,false⟩⟩,⟨40,.other,false,some ⟨65,[.setEnt .internalNl,.emb (.cb 1),.code],none,false⟩⟩,⟨41,.other,false,some ⟨0,[.setEnt .internalNl,.emb (.cb 1),.commit,.code],some 3,true⟩⟩,⟨47,.other,false,some ⟨65,[.setEnt .internalNl,.emb (.cb 1),.code],none,false⟩⟩,⟨61,.other,false,some ⟨65,[.setEnt .internalNl,.emb (.cb 1),.code],none,false⟩⟩,⟨81,.other,false,some ⟨65,[.setEnt .internalNl,.emb (.cb 1),.code],none,false⟩⟩,⟨92,.other,false,some ⟨71,[.setEnt .internalNl,.emb (.cb 1)],none,false⟩⟩,⟨96,.other,false,some ⟨65,[.setEnt .internalNl,.emb (.cb 1),.code],none,false⟩⟩,⟨98,.other,false,some ⟨65,[.setEnt .internalNl,.emb (.cb 1),.code],none,false⟩⟩,⟨100,.other,false,some ⟨65,[.setEnt .internalNl,.emb (.cb 1),.code],none,false⟩⟩,⟨101,.other,false,some ⟨65,[.setEnt .internalNl,.emb (.cb 1),.code],none,false⟩⟩,⟨103,.other,false,some ⟨65,[.setEnt .internalNl,.emb (.cb 1),.code],none,false⟩⟩,⟨105,.other,false,some ⟨65,[.setEnt .internalNl,.emb (.cb 1),.code],none,false⟩⟩,⟨110,.other,false,some ⟨65,[.setEnt .internalNl,.emb (.cb 1),.code],none,false⟩⟩,⟨114,.other,false,some ⟨65,[.setEnt .internalNl,.emb (.cb 1),.code],none,false⟩⟩]⟩,⟨[87],none,[],[⟨0,.other,false,some ⟨75,[.code],none,false⟩⟩,⟨9,.ws,false,some ⟨75,[.code],none,false⟩⟩,⟨10,.lf,false,none⟩,⟨11,.vt,false,some ⟨75,[.code],none,false⟩⟩,⟨12,.ff,false,none⟩,⟨13,.cr,false,none⟩,⟨13,.cr,true,none⟩,⟨34,.other,false,some ⟨75,[.code],none,false⟩⟩,⟨35,.other,false,some ⟨75,[.code],none,false⟩⟩,⟨37,.other,false,some ⟨75,[.code],none,false⟩⟩,⟨39,.other,false,some ⟨75,[.code],none,false⟩⟩,⟨40,.other,false,some ⟨75,[.code],none,false⟩⟩,⟨41,.other,false,some ⟨75,[.code],none,false⟩⟩,⟨47,.other,false,some ⟨75,[.code],none,false⟩⟩,⟨61,.other,false,some ⟨75,[.code],none,false⟩⟩,⟨81,.other,false,some ⟨75,[.code],none,false⟩⟩,⟨92,.other,false,some ⟨75,[.code],none,false⟩⟩,⟨96,.other,false,some ⟨75,[.code],none,false⟩⟩,⟨98,.other,false,some ⟨75,[.code],none,false⟩⟩,⟨100,.other,false,some ⟨75,[.code],none,false⟩⟩,⟨101,.other,false,some ⟨75,[.code],none,false⟩⟩,⟨103,.other,false,some ⟨75,[.code],none,false⟩⟩,⟨105,.other,false,some ⟨75,[.code],none,false⟩⟩,⟨110,.other,false,some ⟨75,[.code],none,false⟩⟩,⟨114,.other,false,some ⟨75,[.code],none,false⟩⟩]⟩,⟨[12],none,[],[⟨0,.other,false,none⟩,⟨9,.ws,false,none⟩,⟨10,.lf,false,none⟩,⟨11,.vt,false,none⟩,⟨12,.ff,false,none⟩,⟨13,.cr,false,none⟩,⟨13,.cr,true,none⟩,⟨34,.other,false,none⟩,⟨35,.other,false,none⟩,⟨37,.other,false,none⟩,⟨39,.other,false,none⟩,⟨40,.other,false,none⟩,⟨41,.other,false,none⟩,⟨47,.other,false,none⟩,⟨61,.other,false,none⟩,⟨81,.other,false,none⟩,⟨92,.other,false,none⟩,⟨96,.other,false,none⟩,⟨98,.other,false,none⟩,⟨100,.other,false,none⟩,⟨101,.other,false,none⟩,⟨103,.other,false,none⟩,⟨105,.other,false,some ⟨76,[],none,false⟩⟩,⟨110,.other,false,none⟩,⟨114,.other,false,none⟩]⟩,⟨[81],none,[],[⟨0,.other,false,some ⟨65,[.setEnt .internalNl,.emb (.cb 1),.code],none,false⟩⟩,⟨9,.ws,false,some ⟨66,[.setEnt .internalNl,.emb (.cb 1)],none,false⟩⟩,⟨10,.lf,false,some ⟨67,[.setEnt .internalNl,.emb (.cb 1)],none,false⟩⟩,⟨11,.vt,false,some ⟨65,[.setEnt .internalNl,.emb (.cb 1),.code],none,false⟩⟩,⟨12,.ff,false,some ⟨68,[.setEnt .internalNl,.emb (.cb 1)],none,false⟩⟩,⟨13,.cr,false,some ⟨69,[.setEnt .internalNl,.emb (.cb 1)],none,false⟩⟩,⟨13,.cr,true,some ⟨70,[.setEnt .internalNl,.emb (.cb 1)],none,false⟩⟩,⟨34,.other,false,some ⟨65,[.setEnt .internalNl,.emb (.cb 1),.code],none,false⟩⟩,⟨35,.other,false,some ⟨65,[.setEnt .internalNl,.emb (.cb 1),.code],none,false⟩⟩,⟨37,.other,false,some ⟨65,[.setEnt .internalNl,.emb (.cb 1),.code],none,false⟩⟩,⟨39,.other,false,some ⟨65,[.setEnt .internalNl,.emb (.cb 1),.code],none,false⟩⟩,⟨40,.other,false,some ⟨65,[.setEnt .internalNl,.emb (.cb 1),.code],none,false⟩⟩,⟨41,.other,false,some ⟨0,[.setEnt .internalNl,.emb (.cb 1),.commit,.code],some 3,true⟩⟩,⟨47,.other,false,some ⟨65,[.setEnt .internalNl,.emb (.cb 1),.code],none,false⟩⟩,⟨61,.other,false,some ⟨65,[.setEnt .internalNl,.emb (.cb 1),.code],none,false⟩⟩,⟨81,.other,false,some ⟨65,[.setEnt .internalNl,.emb (.cb 1),.code],none,false⟩⟩,⟨92,.other,false,some ⟨71,[.setEnt .internalNl,.emb (.cb 1)],none,false⟩⟩,⟨96,.other,false,some ⟨65,[.setEnt .internalNl,.emb (.cb 1),.code],none,false⟩⟩,⟨98,.other,false,some ⟨65,[.setEnt .internalNl,.emb (.cb 1),.code],none,false⟩⟩,⟨100,.other,false,some ⟨65,[.setEnt .internalNl,.emb (.cb 1),.code],none,false⟩⟩,⟨101,.other,false,some ⟨65,[.setEnt .internalNl,.emb (.cb 1),.code],none,false⟩⟩,⟨103,.other,false,some ⟨65,[.setEnt .internalNl,.emb (.cb 1),.code],none,false⟩⟩,⟨105,.other,false,some ⟨65,[.setEnt .internalNl,.emb (.cb 1),.code],none,false⟩⟩,⟨110,.other,false,some ⟨65,[.setEnt .internalNl,.emb (.cb 1),.code],none,false⟩⟩,⟨114,.other,false,some ⟨65,[.setEnt .internalNl,.emb (.cb 1),.code],none,false⟩⟩]⟩,⟨[81,82],none,[],[⟨0,.other,false,some ⟨65,[.setEnt .internalNl,.emb (.cb 1),.code],none,false⟩⟩,⟨9,.ws,false,some ⟨66,[.setEnt .internalNl,.emb (.cb 1)],none,false⟩⟩,⟨10,.lf,false,some ⟨67,[.setEnt .internalNl,.emb (.cb 1)],none,false⟩⟩,⟨11,.vt,false,some ⟨65,[.setEnt .internalNl,.emb (.cb 1),.code],none,false⟩⟩,⟨12,.ff,false,some ⟨68,[.setEnt .internalNl,.emb (.cb 1)],none,false⟩⟩,⟨13,.cr,false,some ⟨69,[.setEnt .internalNl,.emb (.cb 1)],none,false⟩⟩,⟨13,.cr,true,some ⟨70,[.setEnt .internalNl,.emb (.cb 1)],none,false⟩⟩,⟨34,.other,false,some ⟨65,[.setEnt .internalNl,.emb (.cb 1),.code],none,false⟩⟩,⟨35,.other,false,some ⟨65,[.setEnt .internalNl,.emb (.cb 1),.code],none,false⟩⟩,⟨37,.other,false,some ⟨65,[.setEnt .internalNl,.emb (.cb 1),.code],none,false⟩⟩,⟨39,.other,false,some ⟨65,[.setEnt .internalNl,.emb (.cb 1),.code],none,false⟩⟩,⟨40,.other,false,some ⟨65,[.setEnt .internalNl,.emb (.cb 1),.code],none,false⟩⟩,⟨41,.other,false,some ⟨0,[.setEnt .internalNl,.emb (.cb 1),.commit,.code],some 3,true⟩⟩,⟨47,.other,false,some ⟨65,[.setEnt .internalNl,.emb (.cb 1),.code],none,false⟩⟩,⟨61,.other,false,some ⟨65,[.setEnt .internalNl,.emb (.cb 1),.code],none,false⟩⟩,⟨81,.other,false,some ⟨65,[.setEnt .internalNl,.emb (.cb 1),.code],none,false⟩⟩,⟨92,.other,false,some ⟨71,[.setEnt .internalNl,.emb (.cb 1)],none,false⟩⟩,⟨96,.other,false,some ⟨65,[.setEnt .internalNl,.emb (.cb 1),.code],none,false⟩⟩,⟨98,.other,false,some ⟨65,[.setEnt .internalNl,.emb (.cb 1),.code],none,false⟩⟩,⟨100,.other,false,some ⟨65,[.setEnt .internalNl,.emb (.cb 1),.code],none,false⟩⟩,⟨101,.other,false,some ⟨65,[.setEnt .internalNl,.emb (.cb 1),.code],none,false⟩⟩,⟨103,.other,false,some ⟨65,[.setEnt .internalNl,.emb (.cb 1),.code],none,false⟩⟩,⟨105,.other,false,some ⟨65,[.setEnt .internalNl,.emb (.cb 1),.code],none,false⟩⟩,⟨110,.other,false,some ⟨65,[.setEnt .internalNl,.emb (.cb 1),.code],none,false⟩⟩,⟨114,.other,false,some ⟨65,[.setEnt .internalNl,.emb (.cb 1),.code],none,false⟩⟩]⟩,⟨[88],none,[],[⟨0,.other,false,some ⟨65,[.code],none,false⟩⟩,⟨9,.ws,false,some ⟨66,[],none,false⟩⟩,⟨10,.lf,false,some ⟨67,[],none,false⟩⟩,⟨11,.vt,false,some ⟨65,[.code],none,false⟩⟩,⟨12,.ff,false,some ⟨68,[],none,false⟩⟩,⟨13,.cr,false,some ⟨69,[],none,false⟩⟩,⟨13,.cr,true,some ⟨70,[],none,false⟩⟩,⟨34,.other,false,some ⟨65,[.code],none,false⟩⟩,⟨35,.other,false,some ⟨65,[.code],none,false⟩⟩,⟨37,.other,false,some ⟨65,[.code],none,false⟩⟩,⟨39,.other,false,some ⟨65,[.code],none,false⟩⟩,⟨40,.other,false,some ⟨65,[.code],none,false⟩⟩,⟨41,.other,false,some ⟨0,[.commit,.code],some 3,true⟩⟩,⟨47,.other,false,some ⟨65,[.code],none,false⟩⟩,⟨61,.other,false,some ⟨65,[.code],none,false⟩⟩,⟨81,.other,false,some ⟨65,[.code],none,false⟩⟩,⟨92,.other,false,some ⟨71,[],none,false⟩⟩,⟨96,.other,false,some ⟨65,[.code],none,false⟩⟩,⟨98,.other,false,some ⟨65,[.code],none,false⟩⟩,⟨100,.other,false,some ⟨65,[.code],none,false⟩⟩,⟨101,.other,false,some ⟨65,[.code],none,false⟩⟩,⟨103,.other,false,some ⟨65,[.code],none,false⟩⟩,⟨105,.other,false,some ⟨65,[.code],none,false⟩⟩,⟨110,.other,false,some ⟨65,[.code],none,false⟩⟩,⟨114,.other,false,some ⟨65,[.code],none,false⟩⟩]⟩,⟨[13],none,[],[⟨0,.other,false,none⟩,⟨9,.ws,false,none⟩,⟨10,.lf,false,none⟩,⟨11,.vt,false,none⟩,⟨12,.ff,false,none⟩,⟨13,.cr,false,none⟩,⟨13,.cr,true,none⟩,⟨34,.other,false,none⟩,⟨35,.other,false,none⟩,⟨37,.other,false,none⟩,⟨39,.other,false,none⟩,⟨40,.other,false,none⟩,⟨41,.other,false,none⟩,⟨47,.other,false,none⟩,⟨61,.other,false,none⟩,⟨81,.other,false,none⟩,⟨92,.other,false,none⟩,⟨96,.other,false,none⟩,⟨98,.other,false,none⟩,⟨100,.other,false,none⟩,⟨101,.other,false,none⟩,⟨103,.other,false,none⟩,⟨105,.other,false,none⟩,⟨110,.other,false,some ⟨77,[.enqueue,.comment],none,false⟩⟩,⟨114,.other,false,none⟩]⟩,⟨[14],none,[],[⟨0,.other,false,some ⟨78,[.comment],none,false⟩⟩,⟨9,.ws,false,some ⟨79,[],none,false⟩⟩,⟨10,.lf,false,some ⟨80,[],none,false⟩⟩,⟨11,.vt,false,some ⟨78,[.comment],none,false⟩⟩,⟨12,.ff,false,some ⟨81,[],none,false⟩⟩,⟨13,.cr,false,some ⟨82,[],none,false⟩⟩,⟨13,.cr,true,some ⟨83,[],none,false⟩⟩,⟨34,.other,false,some ⟨78,[.comment],none,false⟩⟩,⟨35,.other,false,some ⟨78,[.comment],none,false⟩⟩,⟨37,.other,false,some ⟨78,[.comment],none,false⟩⟩,⟨39,.other,false,some ⟨78,[.comment],none,false⟩⟩,⟨40,.other,false,some ⟨78,[.comment],none,false⟩⟩,⟨41,.other,false,some ⟨78,[.comment],none,false⟩⟩,⟨47,.other,false,some ⟨78,[.comment],none,false⟩⟩,⟨61,.other,false,some ⟨84,[.comment],none,false⟩⟩,⟨81,.other,false,some ⟨78,[.comment],none,false⟩⟩,⟨92,.other,false,some ⟨78,[.comment],none,false⟩⟩,⟨96,.other,false,some ⟨78,[.comment],none,false⟩⟩,⟨98,.other,false,some ⟨78,[.comment],none,false⟩⟩,⟨100,.other,false,some ⟨78,[.comment],none,false⟩⟩,⟨101,.other,false,some ⟨78,[.comment],none,false⟩⟩,⟨103,.other,false,some ⟨78,[.comment],none,false⟩⟩,⟨105,.other,false,some ⟨78,[.comment],none,false⟩⟩,⟨110,.other,false,some ⟨78,[.comment],none,false⟩⟩,⟨114,.other,false,some ⟨78,[.comment],none,false⟩⟩]⟩,⟨[21],none,[],[⟨0,.other,false,some ⟨78,[.comment],none,false⟩⟩,⟨9,.ws,false,some ⟨79,[],none,false⟩⟩,⟨10,.lf,false,some ⟨80,[],none,false⟩⟩,⟨11,.vt,false,some ⟨78,[.comment],none,false⟩⟩,⟨12,.ff,false,some ⟨81,[],none,false⟩⟩,⟨13,.cr,false,some ⟨82,[],none,false⟩⟩,⟨13,.cr,true,some ⟨83,[],none,false⟩⟩,⟨34,.other,false,some ⟨78,[.comment],none,false⟩⟩,⟨35,.other,false,some ⟨78,[.comment],none,false⟩⟩,⟨37,.other,false,some ⟨78,[.comment],none,false⟩⟩,⟨39,.other,false,some ⟨78,[.comment],none,false⟩⟩,⟨40,.other,false,some ⟨78,[.comment],none,false⟩⟩,⟨41,.other,false,some ⟨78,[.comment],none,false⟩⟩,⟨47,.other,false,some ⟨78,[.comment],none,false⟩⟩,⟨61,.other,false,some ⟨84,[.comment],none,false⟩⟩,⟨81,.other,false,some ⟨78,[.comment],none,false⟩⟩,⟨92,.other,false,some ⟨78,[.comment],none,false⟩⟩,⟨96,.other,false,some ⟨78,[.comment],none,false⟩⟩,⟨98,.other,false,some ⟨78,[.comment],none,false⟩⟩,⟨100,.other,false,some ⟨78,[.comment],none,false⟩⟩,⟨101,.other,false,some ⟨78,[.comment],none,false⟩⟩,⟨103,.other,false,some ⟨78,[.comment],none,false⟩⟩,⟨105,.other,false,some ⟨78,[.comment],none,false⟩⟩,⟨110,.other,false,some ⟨78,[.comment],none,false⟩⟩,⟨114,.other,false,some ⟨78,[.comment],none,false⟩⟩]⟩,⟨[20],none,[],[⟨0,.other,false,some ⟨78,[.comment],none,false⟩⟩,⟨9,.ws,false,some ⟨79,[],none,false⟩⟩,⟨10,.lf,false,some ⟨80,[],none,false⟩⟩,⟨11,.vt,false,some ⟨78,[.comment],none,false⟩⟩,⟨12,.ff,false,some ⟨81,[],none,false⟩⟩,⟨13,.cr,false,some ⟨82,[],none,false⟩⟩,⟨13,.cr,true,some ⟨83,[],none,false⟩⟩,⟨34,.other,false,some ⟨78,[.comment],none,false⟩⟩,⟨35,.other,false,some ⟨78,[.comment],none,false⟩⟩,⟨37,.other,false,some ⟨78,[.comment],none,false⟩⟩,⟨39,.other,false,some ⟨78,[.comment],none,false⟩⟩,⟨40,.other,false,some ⟨78,[.comment],none,false⟩⟩,⟨41,.other,false,some ⟨78,[.comment],none,false⟩⟩,⟨47,.other,false,some ⟨78,[.comment],none,false⟩⟩,⟨61,.other,false,some ⟨84,[.comment],none,false⟩⟩,⟨81,.other,false,some ⟨78,[.comment],none,false⟩⟩,⟨92,.other,false,some ⟨78,[.comment],none,false⟩⟩,⟨96,.other,false,some ⟨78,[.comment],none,false⟩⟩,⟨98,.other,false,some ⟨78,[.comment],none,false⟩⟩,⟨100,.other,false,some ⟨78,[.comment],none,false⟩⟩,⟨101,.other,false,some ⟨78,[.comment],none,false⟩⟩,⟨103,.other,false,some ⟨78,[.comment],none,false⟩⟩,⟨105,.other,false,some ⟨78,[.comment],none,false⟩⟩,⟨110,.other,false,some ⟨78,[.comment],none,false⟩⟩,⟨114,.other,false,some ⟨78,[.comment],none,false⟩⟩]⟩,⟨[17],none,[],[⟨0,.other,false,some ⟨78,[.setEnt .internalNl,.emb (.cb 1),.comment],none,false⟩⟩,⟨9,.ws,false,some ⟨79,[.setEnt .internalNl,.emb (.cb 1)],none,false⟩⟩,⟨10,.lf,false,some ⟨80,[.setEnt .internalNl,.emb (.cb 1)],none,false⟩⟩,⟨11,.vt,false,some ⟨78,[.setEnt .internalNl,.emb (.cb 1),.comment],none,false⟩⟩,⟨12,.ff,false,some ⟨81,[.setEnt .internalNl,.emb (.cb 1)],none,false⟩⟩,⟨13,.cr,false,some ⟨82,[.setEnt .internalNl,.emb (.cb 1)],none,false⟩⟩,⟨13,.cr,true,some ⟨83,[.setEnt .internalNl,.emb (.cb 1)],none,false⟩⟩,⟨34,.other,false,some ⟨78,[.setEnt .internalNl,.emb (.cb 1),.comment],none,false⟩⟩,⟨35,.other,false,some ⟨78,[.setEnt .internalNl,.emb (.cb 1),.comment],none,false⟩⟩,⟨37,.other,false,some ⟨78,[.setEnt .internalNl,.emb (.cb 1),.comment],none,false⟩⟩,⟨39,.other,false,some ⟨78,[.setEnt .internalNl,.emb (.cb 1),.comment],none,false⟩⟩,⟨40,.other,false,some ⟨78,[.setEnt .internalNl,.emb (.cb 1),.comment],none,false⟩⟩,⟨41,.other,false,some ⟨78,[.setEnt .internalNl,.emb (.cb 1),.comment],none,false⟩⟩,⟨47,.other,false,some ⟨78,[.setEnt .internalNl,.emb (.cb 1),.comment],none,false⟩⟩,⟨61,.other,false,some ⟨84,[.setEnt .internalNl,.emb (.cb 1),.comment],none,false⟩⟩,⟨81,.other,false,some ⟨78,[.setEnt .internalNl,.emb (.cb 1),.comment],none,false⟩⟩,⟨92,.other,false,some ⟨78,[.setEnt .internalNl,.emb (.cb 1),.comment],none,false⟩⟩,⟨96,.other,false,some ⟨78,[.setEnt .internalNl,.emb (.cb 1),.comment],none,false⟩⟩,⟨98,.other,false,some ⟨78,[.setEnt .internalNl,.emb (.cb 1),.comment],none,false⟩⟩,⟨100,.other,false,some ⟨78,[.setEnt .internalNl,.emb (.cb 1),.comment],none,false⟩⟩,⟨101,.other,false,some ⟨78,[.setEnt .internalNl,.emb (.cb 1),.comment],none,false⟩⟩,⟨103,.other,false,some ⟨78,[.setEnt .internalNl,.emb (.cb 1),.comment],none,false⟩⟩,⟨105,.other,false,some ⟨78,[.setEnt .internalNl,.emb (.cb 1),.comment],none,false⟩⟩,⟨110,.other,false,some ⟨78,[.setEnt .internalNl,.emb (.cb 1),.comment],none,false⟩⟩,⟨114,.other,false,some ⟨78,[.setEnt .internalNl,.emb (.cb 1),.comment],none,false⟩⟩]⟩,⟨[18],none,[],[⟨0,.other,false,some ⟨78,[.setEnt .internalNl,.emb (.cb 1),.comment],none,false⟩⟩,⟨9,.ws,false,some ⟨79,[.setEnt .internalNl,.emb (.cb 1)],none,false⟩⟩,⟨10,.lf,false,some ⟨80,[.setEnt .internalNl,.emb (.cb 1)],none,false⟩⟩,⟨11,.vt,false,some ⟨78,[.setEnt .internalNl,.emb (.cb 1),.comment],none,false⟩⟩,⟨12,.ff,false,some ⟨81,[.setEnt .internalNl,.emb (.cb 1)],none,false⟩⟩,⟨13,.cr,false,some ⟨82,[.setEnt .internalNl,.emb (.cb 1)],none,false⟩⟩,⟨13,.cr,true,some ⟨83,[.setEnt .internalNl,.emb (.cb 1)],none,false⟩⟩,⟨34,.other,false,some ⟨78,[.setEnt .internalNl,.emb (.cb 1),.comment],none,false⟩⟩,⟨35,.other,false,some ⟨78,[.setEnt .internalNl,.emb (.cb 1),.comment],none,false⟩⟩,⟨37,.other,false,some ⟨78,[.setEnt .internalNl,.emb (.cb 1),.comment],none,false⟩⟩,⟨39,.other,false,some ⟨78,[.setEnt .internalNl,.emb (.cb 1),.comment],none,false⟩⟩,⟨40,.other,false,some ⟨78,[.setEnt .internalNl,.emb (.cb 1),.comment],none,false⟩⟩,⟨41,.other,false,some ⟨78,[.setEnt .internalNl,.emb (.cb 1),.comment],none,false⟩⟩,⟨47,.other,false,some ⟨78,[.setEnt .internalNl,.emb (.cb 1),.comment],none,false⟩⟩,⟨61,.other,false,some ⟨84,[.setEnt .internalNl,.emb (.cb 1),.comment],none,false⟩⟩,⟨81,.other,false,some ⟨78,[.setEnt .internalNl,.emb (.cb 1),.comment],none,false⟩⟩,⟨92,.other,false,some ⟨78,[.setEnt .internalNl,.emb (.cb 1),.comment],none,false⟩⟩,⟨96,.other,false,some ⟨78,[.setEnt .internalNl,.emb (.cb 1),.comment],none,false⟩⟩,⟨98,.other,false,some ⟨78,[.setEnt .internalNl,.emb (.cb 1),.comment],none,false⟩⟩,⟨100,.other,false,some ⟨78,[.setEnt .internalNl,.emb (.cb 1),.comment],none,false⟩⟩,⟨101,.other,false,some ⟨78,[.setEnt .internalNl,.emb (.cb 1),.comment],none,false⟩⟩,⟨103,.other,false,some ⟨78,[.setEnt .internalNl,.emb (.cb 1),.comment],none,false⟩⟩,⟨105,.other,false,some ⟨78,[.setEnt .internalNl,.emb (.cb 1),.comment],none,false⟩⟩,⟨110,.other,false,some ⟨78,[.setEnt .internalNl,.emb (.cb 1),.comment],none,false⟩⟩,⟨114,.other,false,some ⟨78,[.setEnt .internalNl,.emb (.cb 1),.comment],none,false⟩⟩]⟩,⟨[15],none,[],[⟨0,.other,false,none⟩,⟨9,.ws,false,none⟩,⟨10,.lf,false,some ⟨85,[],none,false⟩⟩,⟨11,.vt,false,none⟩,⟨12,.ff,false,none⟩,⟨13,.cr,false,none⟩,⟨13,.cr,true,none⟩,⟨34,.other,false,none⟩,⟨35,.other,false,none⟩,⟨37,.other,false,none⟩,⟨39,.other,false,none⟩,⟨40,.other,false,none⟩,⟨41,.other,false,none⟩,⟨47,.other,false,none⟩,⟨61,.other,false,none⟩,⟨81,.other,false,none⟩,⟨92,.other,false,none⟩,⟨96,.other,false,none⟩,⟨98,.other,false,none⟩,⟨100,.other,false,none⟩,⟨101,.other,false,none⟩,⟨103,.other,false,none⟩,⟨105,.other,false,none⟩,⟨110,.other,false,none⟩,⟨114,.other,false,none⟩]⟩,⟨[15,19],none,[],[⟨0,.other,false,some ⟨78,[.setEnt .internalNl,.emb (.cb 1),.comment],none,false⟩⟩,⟨9,.ws,false,some ⟨79,[.setEnt .internalNl,.emb (.cb 1)],none,false⟩⟩,⟨10,.lf,false,some ⟨86,[.setEnt .internalNl,.emb (.cb 1)],none,false⟩⟩,⟨11,.vt,false,some ⟨78,[.setEnt .internalNl,.emb (.cb 1),.comment],none,false⟩⟩,⟨12,.ff,false,some ⟨81,[.setEnt .internalNl,.emb (.cb 1)],none,false⟩⟩,⟨13,.cr,false,some ⟨82,[.setEnt .internalNl,.emb (.cb 1)],none,false⟩⟩,⟨13,.cr,true,some ⟨83,[.setEnt .internalNl,.emb (.cb 1)],none,false⟩⟩,⟨34,.other,false,some ⟨78,[.setEnt .internalNl,.emb (.cb 1),.comment],none,false⟩⟩,⟨35,.other,false,some ⟨78,[.setEnt .internalNl,.emb (.cb 1),.comment],none,false⟩⟩,⟨37,.other,false,some ⟨78,[.setEnt .internalNl,.emb (.cb 1),.comment],none,false⟩⟩,⟨39,.other,false,some ⟨78,[.setEnt .internalNl,.emb (.cb 1),.comment],none,false⟩⟩,⟨40,.other,false,some ⟨78,[.setEnt .internalNl,.emb (.cb 1),.comment],none,false⟩⟩,⟨41,.other,false,some ⟨78,[.setEnt .internalNl,.emb (.cb 1),.comment],none,false⟩⟩,⟨47,.other,false,some ⟨78,[.setEnt .internalNl,.emb (.cb 1),.comment],none,false⟩⟩,⟨61,.other,false,some ⟨84,[.setEnt .internalNl,.emb (.cb 1),.comment],none,false⟩⟩,⟨81,.other,false,some ⟨78,[.setEnt .internalNl,.emb (.cb 1),.comment],none,false⟩⟩,⟨92,.other,false,some ⟨78,[.setEnt .internalNl,.emb (.cb 1),.comment],none,false⟩⟩,⟨96,.other,false,some ⟨78,[.setEnt .internalNl,.emb (.cb 1),.comment],none,false⟩⟩,⟨98,.other,false,some ⟨78,[.setEnt .internalNl,.emb (.cb 1),.comment],none,false⟩⟩,⟨100,.other,false,some ⟨78,[.setEnt .internalNl,.emb (.cb 1),.comment],none,false⟩⟩,⟨101,.other,false,some ⟨78,[.setEnt .internalNl,.emb (.cb 1),.comment],none,false⟩⟩,⟨103,.other,false,some ⟨78,[.setEnt .internalNl,.emb (.cb 1),.comment],none,false⟩⟩,⟨105,.other,false,some ⟨78,[.setEnt .internalNl,.emb (.cb 1),.comment],none,false⟩⟩,⟨110,.other,false,some ⟨78,[.setEnt .internalNl,.emb (.cb 1),.comment],none,false⟩⟩,⟨114,.other,false,some ⟨78,[.setEnt .internalNl,.emb (.cb 1),.comment],none,false⟩⟩]⟩,⟨[21,22],none,[],[⟨0,.other,false,some ⟨78,[.comment],none,false⟩⟩,⟨9,.ws,false,some ⟨79,[],none,false⟩⟩,⟨10,.lf,false,some ⟨80,[],none,false⟩⟩,⟨11,.vt,false,some ⟨78,[.comment],none,false⟩⟩,⟨12,.ff,false,some ⟨81,[],none,false⟩⟩,⟨13,.cr,false,some ⟨82,[],none,false⟩⟩,⟨13,.cr,true,some ⟨83,[],none,false⟩⟩,⟨34,.other,false,some ⟨78,[.comment],none,false⟩⟩,⟨35,.other,false,some ⟨78,[.comment],none,false⟩⟩,⟨37,.other,false,some ⟨78,[.comment],none,false⟩⟩,⟨39,.other,false,some ⟨78,[.comment],none,false⟩⟩,⟨40,.other,false,some ⟨78,[.comment],none,false⟩⟩,⟨41,.other,false,some ⟨78,[.comment],none,false⟩⟩,⟨47,.other,false,some ⟨78,[.comment],none,false⟩⟩,⟨61,.other,false,some ⟨84,[.comment],none,false⟩⟩,⟨81,.other,false,some ⟨78,[.comment],none,false⟩⟩,⟨92,.other,false,some ⟨78,[.comment],none,false⟩⟩,⟨96,.other,false,some ⟨78,[.comment],none,false⟩⟩,⟨98,.other,false,some ⟨78,[.comment],none,false⟩⟩,⟨100,.other,false,some ⟨78,[.comment],none,false⟩⟩,⟨101,.other,false,some ⟨87,[.comment],none,false⟩⟩,⟨103,.other,false,some ⟨78,[.comment],none,false⟩⟩,⟨105,.other,false,some ⟨78,[.comment],none,false⟩⟩,⟨110,.other,false,some ⟨78,[.comment],none,false⟩⟩,⟨114,.other,false,some ⟨78,[.comment],none,false⟩⟩]⟩,⟨[16],none,[],[⟨0,.other,false,some ⟨78,[.setEnt .internalNl,.emb (.cb 1),.comment],none,false⟩⟩,⟨9,.ws,false,some ⟨79,[.setEnt .internalNl,.emb (.cb 1)],none,false⟩⟩,⟨10,.lf,false,some ⟨80,[.setEnt .internalNl,.emb (.cb 1)],none,false⟩⟩,⟨11,.vt,false,some ⟨78,[.setEnt .internalNl,.emb (.cb 1),.comment],none,false⟩⟩,⟨12,.ff,false,some ⟨81,[.setEnt .internalNl,.emb (.cb 1)],none,false⟩⟩,⟨13,.cr,false,some ⟨82,[.setEnt .internalNl,.emb (.cb 1)],none,false⟩⟩,⟨13,.cr,true,some ⟨83,[.setEnt .internalNl,.emb (.cb 1)],none,false⟩⟩,⟨34,.other,false,some ⟨78,[.setEnt .internalNl,.emb (.cb 1),.comment],none,false⟩⟩,⟨35,.other,false,some ⟨78,[.setEnt .internalNl,.emb (.cb 1),.comment],none,false⟩⟩,⟨37,.other,false,some ⟨78,[.setEnt .internalNl,.emb (.cb 1),.comment],none,false⟩⟩,⟨39,.other,false,some ⟨78,[.setEnt .internalNl,.emb (.cb 1),.comment],none,false⟩⟩,⟨40,.other,false,some ⟨78,[.setEnt .internalNl,.emb (.cb 1),.comment],none,false⟩⟩,⟨41,.other,false,some ⟨78,[.setEnt .internalNl,.emb (.cb 1),.comment],none,false⟩⟩,⟨47,.other,false,some ⟨78,[.setEnt .internalNl,.emb (.cb 1),.comment],none,false⟩⟩,⟨61,.other,false,some ⟨84,[.setEnt .internalNl,.emb (.cb 1),.comment],none,false⟩⟩,⟨81,.other,false,some ⟨78,[.setEnt .internalNl,.emb (.cb 1),.comment],none,false⟩⟩,⟨92,.other,false,some ⟨78,[.setEnt .internalNl,.emb (.cb 1),.comment],none,false⟩⟩,⟨96,.other,false,some ⟨78,[.setEnt .internalNl,.emb (.cb 1),.comment],none,false⟩⟩,⟨98,.other,false,some ⟨78,[.setEnt .internalNl,.emb (.cb 1),.comment],none,false⟩⟩,⟨100,.other,false,some ⟨78,[.setEnt .internalNl,.emb (.cb 1),.comment],none,false⟩⟩,⟨101,.other,false,some ⟨78,[.setEnt .internalNl,.emb (.cb 1),.comment],none,false⟩⟩,⟨103,.other,false,some ⟨78,[.setEnt .internalNl,.emb (.cb 1),.comment],none,false⟩⟩,⟨105,.other,false,some ⟨78,[.setEnt .internalNl,.emb (.cb 1),.comment],none,false⟩⟩,⟨110,.other,false,some ⟨78,[.setEnt .internalNl,.emb (.cb 1),.comment],none,false⟩⟩,⟨114,.other,false,some ⟨78,[.setEnt .internalNl,.emb (.cb 1),.comment],none,false⟩⟩]⟩,⟨[16,17],none,[],[⟨0,.other,false,some ⟨78,[.setEnt .internalNl,.emb (.cb 1),.comment],none,false⟩⟩,⟨9,.ws,false,some ⟨79,[.setEnt .internalNl,.emb (.cb 1)],none,false⟩⟩,⟨10,.lf,false,some ⟨80,[.setEnt .internalNl,.emb (.cb 1)],none,false⟩⟩,⟨11,.vt,false,some ⟨78,[.setEnt .internalNl,.emb (.cb 1),.comment],none,false⟩⟩,⟨12,.ff,false,some ⟨81,[.setEnt .internalNl,.emb (.cb 1)],none,false⟩⟩,⟨13,.cr,false,some ⟨82,[.setEnt .internalNl,.emb (.cb 1)],none,false⟩⟩,⟨13,.cr,true,some ⟨83,[.setEnt .internalNl,.emb (.cb 1)],none,false⟩⟩,⟨34,.other,false,some ⟨78,[.setEnt .internalNl,.emb (.cb 1),.comment],none,false⟩⟩,⟨35,.other,false,some ⟨78,[.setEnt .internalNl,.emb (.cb 1),.comment],none,false⟩⟩,⟨37,.other,false,some ⟨78,[.setEnt .internalNl,.emb (.cb 1),.comment],none,false⟩⟩,⟨39,.other,false,some ⟨78,[.setEnt .internalNl,.emb (.cb 1),.comment],none,false⟩⟩,⟨40,.other,false,some ⟨78,[.setEnt .internalNl,.emb (.cb 1),.comment],none,false⟩⟩,⟨41,.other,false,some ⟨78,[.setEnt .internalNl,.emb (.cb 1),.comment],none,false⟩⟩,⟨47,.other,false,some ⟨78,[.setEnt .internalNl,.emb (.cb 1),.comment],none,false⟩⟩,⟨61,.other,false,some ⟨84,[.setEnt .internalNl,.emb (.cb 1),.comment],none,false⟩⟩,⟨81,.other,false,some ⟨78,[.setEnt .internalNl,.emb (.cb 1),.comment],none,false⟩⟩,⟨92,.other,false,some ⟨78,[.setEnt .internalNl,.emb (.cb 1),.comment],none,false⟩⟩,⟨96,.other,false,some ⟨78,[.setEnt .internalNl,.emb (.cb 1),.comment],none,false⟩⟩,⟨98,.other,false,some ⟨78,[.setEnt .internalNl,.emb (.cb 1),.comment],none,false⟩⟩,⟨100,.other,false,some ⟨78,[.setEnt .internalNl,.emb (.cb 1),.comment],none,false⟩⟩,⟨101,.other,false,some ⟨78,[.setEnt .internalNl,.emb (.cb 1),.comment],none,false⟩⟩,⟨103,.other,false,some ⟨78,[.setEnt .internalNl,.emb (.cb 1),.comment],none,false⟩⟩,⟨105,.other,false,some ⟨78,[.setEnt .internalNl,.emb (.cb 1),.comment],none,false⟩⟩,⟨110,.other,false,some ⟨78,[.setEnt .internalNl,.emb (.cb 1),.comment],none,false⟩⟩,⟨114,.other,false,some ⟨78,[.setEnt .internalNl,.emb (.cb 1),.comment],none,false⟩⟩]⟩,⟨[21,23],none,[],[⟨0,.other,false,some ⟨78,[.comment],none,false⟩⟩,⟨9,.ws,false,some ⟨79,[],none,false⟩⟩,⟨10,.lf,false,some ⟨80,[],none,false⟩⟩,⟨11,.vt,false,some ⟨78,[.comment],none,false⟩⟩,⟨12,.ff,false,some ⟨81,[],none,false⟩⟩,⟨13,.cr,false,some ⟨82,[],none,false⟩⟩,⟨13,.cr,true,some ⟨83,[],none,false⟩⟩,⟨34,.other,false,some ⟨78,[.comment],none,false⟩⟩,⟨35,.other,false,some ⟨78,[.comment],none,false⟩⟩,⟨37,.other,false,some ⟨78,[.comment],none,false⟩⟩,⟨39,.other,false,some ⟨78,[.comment],none,false⟩⟩,⟨40,.other,false,some ⟨78,[.comment],none,false⟩⟩,⟨41,.other,false,some ⟨78,[.comment],none,false⟩⟩,⟨47,.other,false,some ⟨78,[.comment],none,false⟩⟩,⟨61,.other,false,some ⟨84,[.comment],none,false⟩⟩,⟨81,.other,false,some ⟨78,[.comment],none,false⟩⟩,⟨92,.other,false,some ⟨78,[.comment],none,false⟩⟩,⟨96,.other,false,some ⟨78,[.comment],none,false⟩⟩,⟨98,.other,false,some ⟨78,[.comment],none,false⟩⟩,⟨100,.other,false,some ⟨78,[.comment],none,false⟩⟩,⟨101,.other,false,some ⟨78,[.comment],none,false⟩⟩,⟨103,.other,false,some ⟨78,[.comment],none,false⟩⟩,⟨105,.other,false,some ⟨78,[.comment],none,false⟩⟩,⟨110,.other,false,some ⟨88,[.comment],none,false⟩⟩,⟨114,.other,false,some ⟨78,[.comment],none,false⟩⟩]⟩,⟨[21,24],none,[],[⟨0,.other,false,some ⟨78,[.comment],none,false⟩⟩,⟨9,.ws,false,some ⟨79,[],none,false⟩⟩,⟨10,.lf,false,some ⟨80,[],none,false⟩⟩,⟨11,.vt,false,some ⟨78,[.comment],none,false⟩⟩,⟨12,.ff,false,some ⟨81,[],none,false⟩⟩,⟨13,.cr,false,some ⟨82,[],none,false⟩⟩,⟨13,.cr,true,some ⟨83,[],none,false⟩⟩,⟨34,.other,false,some ⟨78,[.comment],none,false⟩⟩,⟨35,.other,false,some ⟨78,[.comment],none,false⟩⟩,⟨37,.other,false,some ⟨78,[.comment],none,false⟩⟩,⟨39,.other,false,some ⟨78,[.comment],none,false⟩⟩,⟨40,.other,false,some ⟨78,[.comment],none,false⟩⟩,⟨41,.other,false,some ⟨78,[.comment],none,false⟩⟩,⟨47,.other,false,some ⟨78,[.comment],none,false⟩⟩,⟨61,.other,false,some ⟨84,[.comment],none,false⟩⟩,⟨81,.other,false,some ⟨78,[.comment],none,false⟩⟩,⟨92,.other,false,some ⟨78,[.comment],none,false⟩⟩,⟨96,.other,false,some ⟨78,[.comment],none,false⟩⟩,⟨98,.other,false,some ⟨78,[.comment],none,false⟩⟩,⟨100,.other,false,some ⟨0,[.commit],some 2,true⟩⟩,⟨101,.other,false,some ⟨78,[.comment],none,false⟩⟩,⟨103,.other,false,some ⟨78,[.comment],none,false⟩⟩,⟨105,.other,false,some ⟨78,[.comment],none,false⟩⟩,⟨110,.other,false,some ⟨78,[.comment],none,false⟩⟩,⟨114,.other,false,some ⟨78,[.comment],none,false⟩⟩]⟩]
theorem emb56_rowsOk : rowsOk emb56_nfa [] (emb56_cs.map (·.1)) emb56_rows = true := by decide +kernel
def emb56_D : Dfa emb56_nfa := ⟨emb56_masks, [], emb56_cs, emb56_rows, emb56_masksIn, emb56_repOk, emb56_rowsOk⟩

end Ohcount.Cert
