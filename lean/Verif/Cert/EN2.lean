import Verif.Gram.Emb
import Verif.RagelCheck

/-! Generated by tools/gen_embcerts.py. -/

namespace Ohcount.Cert
open Ohcount.Ragel Ohcount.Gram

set_option maxRecDepth 100000

/-- The automaton of `Emb.Html.html_line`. -/
def emb2_nfa : Nfa := ⟨[⟨0,1152921504606846976,[],[],0,2⟩,⟨17,1152921504606846976,[],[],0,4⟩,⟨42,4294967808,[],[(8,.setEnt (.own 0))],0,0⟩,⟨43,1152921504606846976,[],[],0,8⟩,⟨57,549755813888,[],[],0,0⟩,⟨62,17179869184,[],[],0,0⟩,⟨67,8192,[],[(15,.setEnt .newline)],0,0⟩,⟨69,1024,[],[(15,.setEnt .newline)],0,0⟩,⟨70,4096,[],[(15,.setEnt .newline)],0,0⟩,⟨71,8192,[.crAlone],[(15,.setEnt .newline)],0,0⟩,⟨72,115792089237316195423570985008687907853269984665640564039457584007908834656767,[],[(16,.setEnt (.own 5))],0,0⟩],[[⟨1,41538374877950027585161004031410176,[],[],0,2⟩],[⟨2,83076749755900055170322008062820352,[],[],0,2⟩],[⟨3,2658455992188801765450304258010251264,[],[],0,2⟩],[⟨4,324518553733984590509070343995392,[],[],0,2⟩],[⟨5,2535301201046754613352112062464,[],[],0,2⟩],[⟨6,115792089237316195423570985008687907853269984665640564039452972321894702252031,[],[],0,2⟩],[⟨6,115792089237316195423570985008687907853269984665640564039452972321894702252031,[],[],0,2⟩,⟨7,83076749736557242056487941267521536,[],[],0,2⟩],[⟨8,2535301200456458802993406410752,[],[],0,0⟩],[⟨9,1329227995784915872903807060280344576,[],[],0,0⟩],[⟨10,83076749736557242056487941267521536,[],[],0,0⟩],[⟨11,140737488355328,[],[],0,0⟩],[⟨12,633825300114114700748351602688,[],[],0,0⟩],[⟨13,41538374868278621028243970633760768,[],[],0,0⟩],[⟨14,41538374868278621028243970633760768,[],[],2,0⟩],[⟨15,115792089237316195423570985008687907853269984665640564039452972321894702252031,[],[],0,0⟩],[⟨15,115792089237316195423570985008687907853269984665640564039452972321894702252031,[],[],0,0⟩,⟨16,4611686018427387904,[],[(0,.code),(1,.setEnt .checkBlank),(2,.cb),(3,.emb (.saw 1))],0,0⟩],[],[⟨18,41538374877950027585161004031410176,[],[],0,4⟩],[⟨19,633825300261688653338028015616,[],[],0,4⟩],[⟨20,20769187438975013792580502015705088,[],[],0,4⟩],[⟨21,40564819216748073813633792999424,[],[],0,4⟩],[⟨22,5192296859743753448145125503926272,[],[],0,4⟩],[⟨23,83076749755900055170322008062820352,[],[],0,4⟩],[⟨24,115792089237316195423570985008687907853269984665640564039452972321894702252031,[],[],0,4⟩],[⟨24,115792089237316195423570985008687907853269984665640564039452972321894702252031,[],[],0,4⟩,⟨25,83076749736557242056487941267521536,[],[],0,4⟩],[⟨26,2535301200456458802993406410752,[],[],0,0⟩],[⟨27,1329227995784915872903807060280344576,[],[],0,0⟩],[⟨28,83076749736557242056487941267521536,[],[],0,0⟩],[⟨29,140737488355328,[],[],0,0⟩],[⟨30,81129638414606681695789005144064,[],[],0,0⟩],[⟨31,158456325028528675187087900672,[],[],0,0⟩],[⟨32,332306998946228968225951765070086144,[],[],0,0⟩],[⟨33,158456325028528675187087900672,[],[],0,0⟩],[⟨34,41538374868278621028243970633760768,[],[],0,0⟩],[⟨35,633825300114114700748351602688,[],[],0,0⟩],[⟨36,20769187434139310514121985316880384,[],[],0,0⟩],[⟨37,40564819207303340847894502572032,[],[],0,0⟩],[⟨38,5192296858534827628530496329220096,[],[],0,0⟩],[⟨39,83076749736557242056487941267521536,[],[],4,0⟩],[⟨40,115792089237316195423570985008687907853269984665640564039452972321894702252031,[],[],0,0⟩],[⟨40,115792089237316195423570985008687907853269984665640564039452972321894702252031,[],[],0,0⟩,⟨41,4611686018427387904,[],[(4,.code),(5,.setEnt .checkBlank),(6,.cb),(7,.emb (.saw 2))],0,0⟩],[],[⟨42,4294967808,[],[(8,.setEnt (.own 0))],0,0⟩],[⟨44,8589934592,[],[],0,8⟩],[⟨45,35184372088832,[],[],0,8⟩],[⟨46,35184372088832,[],[(9,.comment)],0,8⟩],[⟨47,8192,[],[],0,8⟩,⟨49,1024,[],[],0,8⟩,⟨50,4096,[],[],0,8⟩,⟨51,8192,[.crAlone],[],0,8⟩,⟨52,4294967808,[],[],0,8⟩,⟨53,115792089237316195423570985008687907853269984665640564039457584007908834658815,[],[(12,.comment)],0,8⟩,⟨54,35184372088832,[],[],0,8⟩],[⟨48,1024,[],[],0,8⟩],[⟨47,8192,[],[(10,.setEnt .internalNl),(11,.cb)],0,8⟩,⟨49,1024,[],[(10,.setEnt .internalNl),(11,.cb)],0,8⟩,⟨50,4096,[],[(10,.setEnt .internalNl),(11,.cb)],0,8⟩,⟨51,8192,[.crAlone],[(10,.setEnt .internalNl),(11,.cb)],0,8⟩,⟨52,4294967808,[],[(10,.setEnt .internalNl),(11,.cb)],0,8⟩,⟨53,115792089237316195423570985008687907853269984665640564039457584007908834658815,[],[(10,.setEnt .internalNl),(11,.cb),(12,.comment)],0,8⟩,⟨54,35184372088832,[],[(10,.setEnt .internalNl),(11,.cb)],0,8⟩],[⟨47,8192,[],[(10,.setEnt .internalNl),(11,.cb)],0,8⟩,⟨49,1024,[],[(10,.setEnt .internalNl),(11,.cb)],0,8⟩,⟨50,4096,[],[(10,.setEnt .internalNl),(11,.cb)],0,8⟩,⟨51,8192,[.crAlone],[(10,.setEnt .internalNl),(11,.cb)],0,8⟩,⟨52,4294967808,[],[(10,.setEnt .internalNl),(11,.cb)],0,8⟩,⟨53,115792089237316195423570985008687907853269984665640564039457584007908834658815,[],[(10,.setEnt .internalNl),(11,.cb),(12,.comment)],0,8⟩,⟨54,35184372088832,[],[(10,.setEnt .internalNl),(11,.cb)],0,8⟩],[⟨47,8192,[],[(10,.setEnt .internalNl),(11,.cb)],0,8⟩,⟨49,1024,[],[(10,.setEnt .internalNl),(11,.cb)],0,8⟩,⟨50,4096,[],[(10,.setEnt .internalNl),(11,.cb)],0,8⟩,⟨51,8192,[.crAlone],[(10,.setEnt .internalNl),(11,.cb)],0,8⟩,⟨52,4294967808,[],[(10,.setEnt .internalNl),(11,.cb)],0,8⟩,⟨53,115792089237316195423570985008687907853269984665640564039457584007908834658815,[],[(10,.setEnt .internalNl),(11,.cb),(12,.comment)],0,8⟩,⟨54,35184372088832,[],[(10,.setEnt .internalNl),(11,.cb)],0,8⟩],[⟨47,8192,[],[(10,.setEnt .internalNl),(11,.cb)],0,8⟩,⟨49,1024,[],[(10,.setEnt .internalNl),(11,.cb)],0,8⟩,⟨50,4096,[],[(10,.setEnt .internalNl),(11,.cb)],0,8⟩,⟨51,8192,[.crAlone],[(10,.setEnt .internalNl),(11,.cb)],0,8⟩,⟨52,4294967808,[],[(10,.setEnt .internalNl),(11,.cb)],0,8⟩,⟨53,115792089237316195423570985008687907853269984665640564039457584007908834658815,[],[(10,.setEnt .internalNl),(11,.cb),(12,.comment)],0,8⟩,⟨54,35184372088832,[],[(10,.setEnt .internalNl),(11,.cb)],0,8⟩],[⟨47,8192,[],[],0,8⟩,⟨49,1024,[],[],0,8⟩,⟨50,4096,[],[],0,8⟩,⟨51,8192,[.crAlone],[],0,8⟩,⟨52,4294967808,[],[],0,8⟩,⟨53,115792089237316195423570985008687907853269984665640564039457584007908834658815,[],[(12,.comment)],0,8⟩,⟨54,35184372088832,[],[],0,8⟩],[⟨47,8192,[],[],0,8⟩,⟨49,1024,[],[],0,8⟩,⟨50,4096,[],[],0,8⟩,⟨51,8192,[.crAlone],[],0,8⟩,⟨52,4294967808,[],[],0,8⟩,⟨53,115792089237316195423570985008687907853269984665640564039457584007908834658815,[],[(12,.comment)],0,8⟩,⟨54,35184372088832,[],[],0,8⟩],[⟨55,35184372088832,[],[],0,0⟩],[⟨56,4611686018427387904,[],[],8,0⟩],[],[⟨58,115792089237316195423570985008687907853269984665635612279300442486263777315839,[],[],0,0⟩,⟨59,4951760157141521099596496896,[],[],0,0⟩,⟨61,549755813888,[],[(13,.code)],0,0⟩],[⟨58,115792089237316195423570985008687907853269984665635612279300442486263777315839,[],[],0,0⟩,⟨59,4951760157141521099596496896,[],[],0,0⟩,⟨61,549755813888,[],[(13,.code)],0,0⟩],[⟨60,115792089237316195423570985008687907853269984665640564039457584007913129626623,[],[],0,0⟩],[⟨58,115792089237316195423570985008687907853269984665635612279300442486263777315839,[],[],0,0⟩,⟨59,4951760157141521099596496896,[],[],0,0⟩,⟨61,549755813888,[],[(13,.code)],0,0⟩],[],[⟨63,115792089237316195423570985008687907853269984665635612279300442486796353260543,[],[],0,0⟩,⟨64,4951760157141521099596496896,[],[],0,0⟩,⟨66,17179869184,[],[(14,.code)],0,0⟩],[⟨63,115792089237316195423570985008687907853269984665635612279300442486796353260543,[],[],0,0⟩,⟨64,4951760157141521099596496896,[],[],0,0⟩,⟨66,17179869184,[],[(14,.code)],0,0⟩],[⟨65,115792089237316195423570985008687907853269984665640564039457584007913129626623,[],[],0,0⟩],[⟨63,115792089237316195423570985008687907853269984665635612279300442486796353260543,[],[],0,0⟩,⟨64,4951760157141521099596496896,[],[],0,0⟩,⟨66,17179869184,[],[(14,.code)],0,0⟩],[],[⟨68,1024,[],[(15,.setEnt .newline)],0,0⟩],[],[],[],[],[]],[none,none,none,none,none,none,none,none,none,none,none,none,none,none,none,none,some (0,[]),none,none,none,none,none,none,none,none,none,none,none,none,none,none,none,none,none,none,none,none,none,none,none,none,some (1,[]),some (2,[]),none,none,none,none,none,none,none,none,none,none,none,none,none,some (3,[]),none,none,none,none,some (4,[]),none,none,none,none,some (4,[]),none,some (5,[]),some (5,[]),some (5,[]),some (5,[]),some (6,[])],[4,8,9,13,15,16,17]⟩
def emb2_masks : List Nat := [1152921504606846976,4294967808,549755813888,17179869184,8192,1024,4096,115792089237316195423570985008687907853269984665640564039457584007908834656767,41538374877950027585161004031410176,83076749755900055170322008062820352,2658455992188801765450304258010251264,324518553733984590509070343995392,2535301201046754613352112062464,115792089237316195423570985008687907853269984665640564039452972321894702252031,83076749736557242056487941267521536,2535301200456458802993406410752,1329227995784915872903807060280344576,140737488355328,633825300114114700748351602688,41538374868278621028243970633760768,4611686018427387904,633825300261688653338028015616,20769187438975013792580502015705088,40564819216748073813633792999424,5192296859743753448145125503926272,81129638414606681695789005144064,158456325028528675187087900672,332306998946228968225951765070086144,20769187434139310514121985316880384,40564819207303340847894502572032,5192296858534827628530496329220096,8589934592,35184372088832,115792089237316195423570985008687907853269984665640564039457584007908834658815,115792089237316195423570985008687907853269984665635612279300442486263777315839,4951760157141521099596496896,115792089237316195423570985008687907853269984665640564039457584007913129626623,115792089237316195423570985008687907853269984665635612279300442486796353260543]
def emb2_cs : List (Nat × Nat) := [(0,115792089237316195423570985008687907853265513648499165572161783470695473201663),(9,4294967808),(10,1024),(11,2048),(12,4096),(13,8192),(33,8589934592),(34,17179869184),(39,549755813888),(45,35184372088832),(47,140737488355328),(60,1152921504606846976),(62,4611686018427387904),(67,147573952589676412928),(69,590295810358705651712),(73,9444732965739290427392),(76,324518553733984590509070343995392),(80,1208925819614629174706176),(82,4835703278458516698824704),(83,9671406556917033397649408),(84,19342813113834066795298816),(89,2658455992188801765450304258010251264),(92,4951760157141521099596496896),(97,158456325028528675187087900672),(99,633825300114114700748351602688),(101,2535301200456458802993406410752),(105,40564819207303340847894502572032),(106,81129638414606681695789005144064),(112,5192296858534827628530496329220096),(114,20769187434139310514121985316880384),(115,41538374868278621028243970633760768),(116,83076749736557242056487941267521536),(118,332306998946228968225951765070086144),(120,1329227995784915872903807060280344576)]
theorem emb2_masksIn : masksIn emb2_nfa emb2_masks = true := by decide +kernel
theorem emb2_repOk : repOk emb2_masks emb2_cs = true := by decide +kernel
def emb2_rows : List Row := [⟨[],none,[],[⟨256,.other,false,some ⟨0,[.setEnt (.own 5)],some 6,true⟩⟩,⟨256,.ws,false,some ⟨1,[.setEnt (.own 0)],some 2,false⟩⟩,⟨256,.lf,false,some ⟨0,[.setEnt .newline],some 5,true⟩⟩,⟨256,.vt,false,none⟩,⟨256,.ff,false,some ⟨0,[.setEnt .newline],some 5,true⟩⟩,⟨256,.cr,false,some ⟨2,[.setEnt .newline],none,false⟩⟩,⟨256,.cr,true,some ⟨3,[.setEnt .newline],some 5,false⟩⟩,⟨256,.other,false,some ⟨4,[.setEnt (.own 5)],some 6,false⟩⟩,⟨256,.other,false,some ⟨5,[.setEnt (.own 5)],some 6,false⟩⟩,⟨256,.other,false,some ⟨6,[.setEnt (.own 5)],some 6,false⟩⟩]⟩,⟨[42],some 2,[],[⟨256,.other,false,none⟩,⟨256,.ws,false,some ⟨1,[.setEnt (.own 0)],some 2,false⟩⟩,⟨256,.lf,false,none⟩,⟨256,.vt,false,none⟩,⟨256,.ff,false,none⟩,⟨256,.cr,false,none⟩,⟨256,.cr,true,none⟩]⟩,⟨[67],none,[],[⟨256,.other,false,none⟩,⟨256,.ws,false,none⟩,⟨256,.lf,false,some ⟨0,[.setEnt .newline],some 5,true⟩⟩,⟨256,.vt,false,none⟩,⟨256,.ff,false,none⟩,⟨256,.cr,false,none⟩,⟨256,.cr,true,none⟩]⟩,⟨[67,71],some 5,[],[⟨256,.other,false,none⟩,⟨256,.ws,false,none⟩,⟨256,.lf,false,some ⟨0,[.setEnt .newline],some 5,true⟩⟩,⟨256,.vt,false,none⟩,⟨256,.ff,false,none⟩,⟨256,.cr,false,none⟩,⟨256,.cr,true,none⟩]⟩,⟨[62,72],some 6,[],[⟨256,.other,false,some ⟨7,[],none,false⟩⟩,⟨256,.ws,false,some ⟨7,[],none,false⟩⟩,⟨256,.lf,false,none⟩,⟨256,.vt,false,some ⟨7,[],none,false⟩⟩,⟨256,.ff,false,none⟩,⟨256,.cr,false,none⟩,⟨256,.cr,true,none⟩,⟨256,.other,false,some ⟨0,[.code],some 4,true⟩⟩,⟨256,.other,false,some ⟨8,[],none,false⟩⟩]⟩,⟨[57,72],some 6,[],[⟨256,.other,false,some ⟨9,[],none,false⟩⟩,⟨256,.ws,false,some ⟨9,[],none,false⟩⟩,⟨256,.lf,false,none⟩,⟨256,.vt,false,some ⟨9,[],none,false⟩⟩,⟨256,.ff,false,none⟩,⟨256,.cr,false,none⟩,⟨256,.cr,true,none⟩,⟨256,.other,false,some ⟨0,[.code],some 4,true⟩⟩,⟨256,.other,false,some ⟨10,[],none,false⟩⟩]⟩,⟨[0,17,43,72],some 6,[],[⟨256,.other,false,none⟩,⟨256,.ws,false,none⟩,⟨256,.lf,false,none⟩,⟨256,.vt,false,none⟩,⟨256,.ff,false,none⟩,⟨256,.cr,false,none⟩,⟨256,.cr,true,none⟩,⟨256,.other,false,some ⟨11,[],none,false⟩⟩,⟨256,.other,false,some ⟨12,[],none,false⟩⟩]⟩,⟨[63],none,[],[⟨256,.other,false,some ⟨7,[],none,false⟩⟩,⟨256,.ws,false,some ⟨7,[],none,false⟩⟩,⟨256,.lf,false,none⟩,⟨256,.vt,false,some ⟨7,[],none,false⟩⟩,⟨256,.ff,false,none⟩,⟨256,.cr,false,none⟩,⟨256,.cr,true,none⟩,⟨256,.other,false,some ⟨0,[.code],some 4,true⟩⟩,⟨256,.other,false,some ⟨8,[],none,false⟩⟩]⟩,⟨[64],none,[],[⟨256,.other,false,some ⟨13,[],none,false⟩⟩,⟨256,.ws,false,some ⟨13,[],none,false⟩⟩,⟨256,.lf,false,none⟩,⟨256,.vt,false,some ⟨13,[],none,false⟩⟩,⟨256,.ff,false,none⟩,⟨256,.cr,false,none⟩,⟨256,.cr,true,none⟩]⟩,⟨[58],none,[],[⟨256,.other,false,some ⟨9,[],none,false⟩⟩,⟨256,.ws,false,some ⟨9,[],none,false⟩⟩,⟨256,.lf,false,none⟩,⟨256,.vt,false,some ⟨9,[],none,false⟩⟩,⟨256,.ff,false,none⟩,⟨256,.cr,false,none⟩,⟨256,.cr,true,none⟩,⟨256,.other,false,some ⟨0,[.code],some 4,true⟩⟩,⟨256,.other,false,some ⟨10,[],none,false⟩⟩]⟩,⟨[59],none,[],[⟨256,.other,false,some ⟨14,[],none,false⟩⟩,⟨256,.ws,false,some ⟨14,[],none,false⟩⟩,⟨256,.lf,false,none⟩,⟨256,.vt,false,some ⟨14,[],none,false⟩⟩,⟨256,.ff,false,none⟩,⟨256,.cr,false,none⟩,⟨256,.cr,true,none⟩]⟩,⟨[44],none,[],[⟨256,.other,false,none⟩,⟨256,.ws,false,none⟩,⟨256,.lf,false,none⟩,⟨256,.vt,false,none⟩,⟨256,.ff,false,none⟩,⟨256,.cr,false,none⟩,⟨256,.cr,true,none⟩,⟨256,.other,false,some ⟨15,[],none,false⟩⟩]⟩,⟨[1,18],none,[],[⟨256,.other,false,none⟩,⟨256,.ws,false,none⟩,⟨256,.lf,false,none⟩,⟨256,.vt,false,none⟩,⟨256,.ff,false,none⟩,⟨256,.cr,false,none⟩,⟨256,.cr,true,none⟩,⟨256,.other,false,some ⟨16,[],none,false⟩⟩,⟨256,.other,false,some ⟨17,[],none,false⟩⟩]⟩,⟨[65],none,[],[⟨256,.other,false,some ⟨7,[],none,false⟩⟩,⟨256,.ws,false,some ⟨7,[],none,false⟩⟩,⟨256,.lf,false,none⟩,⟨256,.vt,false,some ⟨7,[],none,false⟩⟩,⟨256,.ff,false,none⟩,⟨256,.cr,false,none⟩,⟨256,.cr,true,none⟩,⟨256,.other,false,some ⟨0,[.code],some 4,true⟩⟩,⟨256,.other,false,some ⟨8,[],none,false⟩⟩]⟩,⟨[60],none,[],[⟨256,.other,false,some ⟨9,[],none,false⟩⟩,⟨256,.ws,false,some ⟨9,[],none,false⟩⟩,⟨256,.lf,false,none⟩,⟨256,.vt,false,some ⟨9,[],none,false⟩⟩,⟨256,.ff,false,none⟩,⟨256,.cr,false,none⟩,⟨256,.cr,true,none⟩,⟨256,.other,false,some ⟨0,[.code],some 4,true⟩⟩,⟨256,.other,false,some ⟨10,[],none,false⟩⟩]⟩,⟨[45],none,[],[⟨256,.other,false,none⟩,⟨256,.ws,false,none⟩,⟨256,.lf,false,none⟩,⟨256,.vt,false,none⟩,⟨256,.ff,false,none⟩,⟨256,.cr,false,none⟩,⟨256,.cr,true,none⟩,⟨256,.other,false,some ⟨18,[.comment],none,false⟩⟩]⟩,⟨[19],none,[],[⟨256,.other,false,none⟩,⟨256,.ws,false,none⟩,⟨256,.lf,false,none⟩,⟨256,.vt,false,none⟩,⟨256,.ff,false,none⟩,⟨256,.cr,false,none⟩,⟨256,.cr,true,none⟩,⟨256,.other,false,some ⟨19,[],none,false⟩⟩]⟩,⟨[2],none,[],[⟨256,.other,false,none⟩,⟨256,.ws,false,none⟩,⟨256,.lf,false,none⟩,⟨256,.vt,false,none⟩,⟨256,.ff,false,none⟩,⟨256,.cr,false,none⟩,⟨256,.cr,true,none⟩,⟨256,.other,false,some ⟨20,[],none,false⟩⟩]⟩,⟨[46],none,[],[⟨256,.other,false,some ⟨21,[.comment],none,false⟩⟩,⟨256,.ws,false,some ⟨22,[],none,false⟩⟩,⟨256,.lf,false,some ⟨23,[],none,false⟩⟩,⟨256,.vt,false,some ⟨21,[.comment],none,false⟩⟩,⟨256,.ff,false,some ⟨24,[],none,false⟩⟩,⟨256,.cr,false,some ⟨25,[],none,false⟩⟩,⟨256,.cr,true,some ⟨26,[],none,false⟩⟩,⟨256,.other,false,some ⟨27,[.comment],none,false⟩⟩]⟩,⟨[20],none,[],[⟨256,.other,false,none⟩,⟨256,.ws,false,none⟩,⟨256,.lf,false,none⟩,⟨256,.vt,false,none⟩,⟨256,.ff,false,none⟩,⟨256,.cr,false,none⟩,⟨256,.cr,true,none⟩,⟨256,.other,false,some ⟨28,[],none,false⟩⟩]⟩,⟨[3],none,[],[⟨256,.other,false,none⟩,⟨256,.ws,false,none⟩,⟨256,.lf,false,none⟩,⟨256,.vt,false,none⟩,⟨256,.ff,false,none⟩,⟨256,.cr,false,none⟩,⟨256,.cr,true,none⟩,⟨256,.other,false,some ⟨29,[],none,false⟩⟩]⟩,⟨[53],none,[],[⟨256,.other,false,some ⟨21,[.comment],none,false⟩⟩,⟨256,.ws,false,some ⟨22,[],none,false⟩⟩,⟨256,.lf,false,some ⟨23,[],none,false⟩⟩,⟨256,.vt,false,some ⟨21,[.comment],none,false⟩⟩,⟨256,.ff,false,some ⟨24,[],none,false⟩⟩,⟨256,.cr,false,some ⟨25,[],none,false⟩⟩,⟨256,.cr,true,some ⟨26,[],none,false⟩⟩,⟨256,.other,false,some ⟨27,[.comment],none,false⟩⟩]⟩,⟨[52],none,[],[⟨256,.other,false,some ⟨21,[.comment],none,false⟩⟩,⟨256,.ws,false,some ⟨22,[],none,false⟩⟩,⟨256,.lf,false,some ⟨23,[],none,false⟩⟩,⟨256,.vt,false,some ⟨21,[.comment],none,false⟩⟩,⟨256,.ff,false,some ⟨24,[],none,false⟩⟩,⟨256,.cr,false,some ⟨25,[],none,false⟩⟩,⟨256,.cr,true,some ⟨26,[],none,false⟩⟩,⟨256,.other,false,some ⟨27,[.comment],none,false⟩⟩]⟩,⟨[49],none,[],[⟨256,.other,false,some ⟨21,[.setEnt .internalNl,.cb,.comment],none,false⟩⟩,⟨256,.ws,false,some ⟨22,[.setEnt .internalNl,.cb],none,false⟩⟩,⟨256,.lf,false,some ⟨23,[.setEnt .internalNl,.cb],none,false⟩⟩,⟨256,.vt,false,some ⟨21,[.setEnt .internalNl,.cb,.comment],none,false⟩⟩,⟨256,.ff,false,some ⟨24,[.setEnt .internalNl,.cb],none,false⟩⟩,⟨256,.cr,false,some ⟨25,[.setEnt .internalNl,.cb],none,false⟩⟩,⟨256,.cr,true,some ⟨26,[.setEnt .internalNl,.cb],none,false⟩⟩,⟨256,.other,false,some ⟨27,[.setEnt .internalNl,.cb,.comment],none,false⟩⟩]⟩,⟨[50],none,[],[⟨256,.other,false,some ⟨21,[.setEnt .internalNl,.cb,.comment],none,false⟩⟩,⟨256,.ws,false,some ⟨22,[.setEnt .internalNl,.cb],none,false⟩⟩,⟨256,.lf,false,some ⟨23,[.setEnt .internalNl,.cb],none,false⟩⟩,⟨256,.vt,false,some ⟨21,[.setEnt .internalNl,.cb,.comment],none,false⟩⟩,⟨256,.ff,false,some ⟨24,[.setEnt .internalNl,.cb],none,false⟩⟩,⟨256,.cr,false,some ⟨25,[.setEnt .internalNl,.cb],none,false⟩⟩,⟨256,.cr,true,some ⟨26,[.setEnt .internalNl,.cb],none,false⟩⟩,⟨256,.other,false,some ⟨27,[.setEnt .internalNl,.cb,.comment],none,false⟩⟩]⟩,⟨[47],none,[],[⟨256,.other,false,none⟩,⟨256,.ws,false,none⟩,⟨256,.lf,false,some ⟨30,[],none,false⟩⟩,⟨256,.vt,false,none⟩,⟨256,.ff,false,none⟩,⟨256,.cr,false,none⟩,⟨256,.cr,true,none⟩]⟩,⟨[47,51],none,[],[⟨256,.other,false,some ⟨21,[.setEnt .internalNl,.cb,.comment],none,false⟩⟩,⟨256,.ws,false,some ⟨22,[.setEnt .internalNl,.cb],none,false⟩⟩,⟨256,.lf,false,some ⟨31,[.setEnt .internalNl,.cb],none,false⟩⟩,⟨256,.vt,false,some ⟨21,[.setEnt .internalNl,.cb,.comment],none,false⟩⟩,⟨256,.ff,false,some ⟨24,[.setEnt .internalNl,.cb],none,false⟩⟩,⟨256,.cr,false,some ⟨25,[.setEnt .internalNl,.cb],none,false⟩⟩,⟨256,.cr,true,some ⟨26,[.setEnt .internalNl,.cb],none,false⟩⟩,⟨256,.other,false,some ⟨27,[.setEnt .internalNl,.cb,.comment],none,false⟩⟩]⟩,⟨[53,54],none,[],[⟨256,.other,false,some ⟨21,[.comment],none,false⟩⟩,⟨256,.ws,false,some ⟨22,[],none,false⟩⟩,⟨256,.lf,false,some ⟨23,[],none,false⟩⟩,⟨256,.vt,false,some ⟨21,[.comment],none,false⟩⟩,⟨256,.ff,false,some ⟨24,[],none,false⟩⟩,⟨256,.cr,false,some ⟨25,[],none,false⟩⟩,⟨256,.cr,true,some ⟨26,[],none,false⟩⟩,⟨256,.other,false,some ⟨32,[.comment],none,false⟩⟩]⟩,⟨[21],none,[],[⟨256,.other,false,none⟩,⟨256,.ws,false,none⟩,⟨256,.lf,false,none⟩,⟨256,.vt,false,none⟩,⟨256,.ff,false,none⟩,⟨256,.cr,false,none⟩,⟨256,.cr,true,none⟩,⟨256,.other,false,some ⟨33,[],none,false⟩⟩]⟩,⟨[4],none,[],[⟨256,.other,false,none⟩,⟨256,.ws,false,none⟩,⟨256,.lf,false,none⟩,⟨256,.vt,false,none⟩,⟨256,.ff,false,none⟩,⟨256,.cr,false,none⟩,⟨256,.cr,true,none⟩,⟨256,.other,false,some ⟨34,[],none,false⟩⟩]⟩,⟨[48],none,[],[⟨256,.other,false,some ⟨21,[.setEnt .internalNl,.cb,.comment],none,false⟩⟩,⟨256,.ws,false,some ⟨22,[.setEnt .internalNl,.cb],none,false⟩⟩,⟨256,.lf,false,some ⟨23,[.setEnt .internalNl,.cb],none,false⟩⟩,⟨256,.vt,false,some ⟨21,[.setEnt .internalNl,.cb,.comment],none,false⟩⟩,⟨256,.ff,false,some ⟨24,[.setEnt .internalNl,.cb],none,false⟩⟩,⟨256,.cr,false,some ⟨25,[.setEnt .internalNl,.cb],none,false⟩⟩,⟨256,.cr,true,some ⟨26,[.setEnt .internalNl,.cb],none,false⟩⟩,⟨256,.other,false,some ⟨27,[.setEnt .internalNl,.cb,.comment],none,false⟩⟩]⟩,⟨[48,49],none,[],[⟨256,.other,false,some ⟨21,[.setEnt .internalNl,.cb,.comment],none,false⟩⟩,⟨256,.ws,false,some ⟨22,[.setEnt .internalNl,.cb],none,false⟩⟩,⟨256,.lf,false,some ⟨23,[.setEnt .internalNl,.cb],none,false⟩⟩,⟨256,.vt,false,some ⟨21,[.setEnt .internalNl,.cb,.comment],none,false⟩⟩,⟨256,.ff,false,some ⟨24,[.setEnt .internalNl,.cb],none,false⟩⟩,⟨256,.cr,false,some ⟨25,[.setEnt .internalNl,.cb],none,false⟩⟩,⟨256,.cr,true,some ⟨26,[.setEnt .internalNl,.cb],none,false⟩⟩,⟨256,.other,false,some ⟨27,[.setEnt .internalNl,.cb,.comment],none,false⟩⟩]⟩,⟨[53,54,55],none,[],[⟨256,.other,false,some ⟨21,[.comment],none,false⟩⟩,⟨256,.ws,false,some ⟨22,[],none,false⟩⟩,⟨256,.lf,false,some ⟨23,[],none,false⟩⟩,⟨256,.vt,false,some ⟨21,[.comment],none,false⟩⟩,⟨256,.ff,false,some ⟨24,[],none,false⟩⟩,⟨256,.cr,false,some ⟨25,[],none,false⟩⟩,⟨256,.cr,true,some ⟨26,[],none,false⟩⟩,⟨256,.other,false,some ⟨32,[.comment],none,false⟩⟩,⟨256,.other,false,some ⟨0,[],some 3,true⟩⟩]⟩,⟨[22],none,[],[⟨256,.other,false,none⟩,⟨256,.ws,false,none⟩,⟨256,.lf,false,none⟩,⟨256,.vt,false,none⟩,⟨256,.ff,false,none⟩,⟨256,.cr,false,none⟩,⟨256,.cr,true,none⟩,⟨256,.other,false,some ⟨35,[],none,false⟩⟩]⟩,⟨[5],none,[],[⟨256,.other,false,some ⟨36,[],none,false⟩⟩,⟨256,.ws,false,some ⟨36,[],none,false⟩⟩,⟨256,.lf,false,some ⟨36,[],none,false⟩⟩,⟨256,.vt,false,some ⟨36,[],none,false⟩⟩,⟨256,.ff,false,some ⟨36,[],none,false⟩⟩,⟨256,.cr,false,some ⟨36,[],none,false⟩⟩,⟨256,.cr,true,some ⟨36,[],none,false⟩⟩,⟨256,.other,false,none⟩]⟩,⟨[23],none,[],[⟨256,.other,false,some ⟨37,[],none,false⟩⟩,⟨256,.ws,false,some ⟨37,[],none,false⟩⟩,⟨256,.lf,false,some ⟨37,[],none,false⟩⟩,⟨256,.vt,false,some ⟨37,[],none,false⟩⟩,⟨256,.ff,false,some ⟨37,[],none,false⟩⟩,⟨256,.cr,false,some ⟨37,[],none,false⟩⟩,⟨256,.cr,true,some ⟨37,[],none,false⟩⟩,⟨256,.other,false,none⟩]⟩,⟨[6],none,[],[⟨256,.other,false,some ⟨36,[],none,false⟩⟩,⟨256,.ws,false,some ⟨36,[],none,false⟩⟩,⟨256,.lf,false,some ⟨36,[],none,false⟩⟩,⟨256,.vt,false,some ⟨36,[],none,false⟩⟩,⟨256,.ff,false,some ⟨36,[],none,false⟩⟩,⟨256,.cr,false,some ⟨36,[],none,false⟩⟩,⟨256,.cr,true,some ⟨36,[],none,false⟩⟩,⟨256,.other,false,none⟩,⟨256,.other,false,some ⟨38,[],none,false⟩⟩]⟩,⟨[24],none,[],[⟨256,.other,false,some ⟨37,[],none,false⟩⟩,⟨256,.ws,false,some ⟨37,[],none,false⟩⟩,⟨256,.lf,false,some ⟨37,[],none,false⟩⟩,⟨256,.vt,false,some ⟨37,[],none,false⟩⟩,⟨256,.ff,false,some ⟨37,[],none,false⟩⟩,⟨256,.cr,false,some ⟨37,[],none,false⟩⟩,⟨256,.cr,true,some ⟨37,[],none,false⟩⟩,⟨256,.other,false,none⟩,⟨256,.other,false,some ⟨39,[],none,false⟩⟩]⟩,⟨[6,7],none,[],[⟨256,.other,false,some ⟨36,[],none,false⟩⟩,⟨256,.ws,false,some ⟨36,[],none,false⟩⟩,⟨256,.lf,false,some ⟨36,[],none,false⟩⟩,⟨256,.vt,false,some ⟨36,[],none,false⟩⟩,⟨256,.ff,false,some ⟨36,[],none,false⟩⟩,⟨256,.cr,false,some ⟨36,[],none,false⟩⟩,⟨256,.cr,true,some ⟨36,[],none,false⟩⟩,⟨256,.other,false,none⟩,⟨256,.other,false,some ⟨40,[],none,false⟩⟩,⟨256,.other,false,some ⟨38,[],none,false⟩⟩]⟩,⟨[24,25],none,[],[⟨256,.other,false,some ⟨37,[],none,false⟩⟩,⟨256,.ws,false,some ⟨37,[],none,false⟩⟩,⟨256,.lf,false,some ⟨37,[],none,false⟩⟩,⟨256,.vt,false,some ⟨37,[],none,false⟩⟩,⟨256,.ff,false,some ⟨37,[],none,false⟩⟩,⟨256,.cr,false,some ⟨37,[],none,false⟩⟩,⟨256,.cr,true,some ⟨37,[],none,false⟩⟩,⟨256,.other,false,none⟩,⟨256,.other,false,some ⟨41,[],none,false⟩⟩,⟨256,.other,false,some ⟨39,[],none,false⟩⟩]⟩,⟨[6,8],none,[],[⟨256,.other,false,some ⟨36,[],none,false⟩⟩,⟨256,.ws,false,some ⟨36,[],none,false⟩⟩,⟨256,.lf,false,some ⟨36,[],none,false⟩⟩,⟨256,.vt,false,some ⟨36,[],none,false⟩⟩,⟨256,.ff,false,some ⟨36,[],none,false⟩⟩,⟨256,.cr,false,some ⟨36,[],none,false⟩⟩,⟨256,.cr,true,some ⟨36,[],none,false⟩⟩,⟨256,.other,false,none⟩,⟨256,.other,false,some ⟨38,[],none,false⟩⟩,⟨256,.other,false,some ⟨42,[],none,false⟩⟩]⟩,⟨[24,26],none,[],[⟨256,.other,false,some ⟨37,[],none,false⟩⟩,⟨256,.ws,false,some ⟨37,[],none,false⟩⟩,⟨256,.lf,false,some ⟨37,[],none,false⟩⟩,⟨256,.vt,false,some ⟨37,[],none,false⟩⟩,⟨256,.ff,false,some ⟨37,[],none,false⟩⟩,⟨256,.cr,false,some ⟨37,[],none,false⟩⟩,⟨256,.cr,true,some ⟨37,[],none,false⟩⟩,⟨256,.other,false,none⟩,⟨256,.other,false,some ⟨39,[],none,false⟩⟩,⟨256,.other,false,some ⟨43,[],none,false⟩⟩]⟩,⟨[6,9],none,[],[⟨256,.other,false,some ⟨36,[],none,false⟩⟩,⟨256,.ws,false,some ⟨36,[],none,false⟩⟩,⟨256,.lf,false,some ⟨36,[],none,false⟩⟩,⟨256,.vt,false,some ⟨36,[],none,false⟩⟩,⟨256,.ff,false,some ⟨36,[],none,false⟩⟩,⟨256,.cr,false,some ⟨36,[],none,false⟩⟩,⟨256,.cr,true,some ⟨36,[],none,false⟩⟩,⟨256,.other,false,none⟩,⟨256,.other,false,some ⟨44,[],none,false⟩⟩]⟩,⟨[24,27],none,[],[⟨256,.other,false,some ⟨37,[],none,false⟩⟩,⟨256,.ws,false,some ⟨37,[],none,false⟩⟩,⟨256,.lf,false,some ⟨37,[],none,false⟩⟩,⟨256,.vt,false,some ⟨37,[],none,false⟩⟩,⟨256,.ff,false,some ⟨37,[],none,false⟩⟩,⟨256,.cr,false,some ⟨37,[],none,false⟩⟩,⟨256,.cr,true,some ⟨37,[],none,false⟩⟩,⟨256,.other,false,none⟩,⟨256,.other,false,some ⟨45,[],none,false⟩⟩]⟩,⟨[6,7,10],none,[],[⟨256,.other,false,some ⟨36,[],none,false⟩⟩,⟨256,.ws,false,some ⟨36,[],none,false⟩⟩,⟨256,.lf,false,some ⟨36,[],none,false⟩⟩,⟨256,.vt,false,some ⟨36,[],none,false⟩⟩,⟨256,.ff,false,some ⟨36,[],none,false⟩⟩,⟨256,.cr,false,some ⟨36,[],none,false⟩⟩,⟨256,.cr,true,some ⟨36,[],none,false⟩⟩,⟨256,.other,false,some ⟨46,[],none,false⟩⟩,⟨256,.other,false,none⟩,⟨256,.other,false,some ⟨40,[],none,false⟩⟩,⟨256,.other,false,some ⟨38,[],none,false⟩⟩]⟩,⟨[24,25,28],none,[],[⟨256,.other,false,some ⟨37,[],none,false⟩⟩,⟨256,.ws,false,some ⟨37,[],none,false⟩⟩,⟨256,.lf,false,some ⟨37,[],none,false⟩⟩,⟨256,.vt,false,some ⟨37,[],none,false⟩⟩,⟨256,.ff,false,some ⟨37,[],none,false⟩⟩,⟨256,.cr,false,some ⟨37,[],none,false⟩⟩,⟨256,.cr,true,some ⟨37,[],none,false⟩⟩,⟨256,.other,false,some ⟨47,[],none,false⟩⟩,⟨256,.other,false,none⟩,⟨256,.other,false,some ⟨41,[],none,false⟩⟩,⟨256,.other,false,some ⟨39,[],none,false⟩⟩]⟩,⟨[6,11],none,[],[⟨256,.other,false,some ⟨36,[],none,false⟩⟩,⟨256,.ws,false,some ⟨36,[],none,false⟩⟩,⟨256,.lf,false,some ⟨36,[],none,false⟩⟩,⟨256,.vt,false,some ⟨36,[],none,false⟩⟩,⟨256,.ff,false,some ⟨36,[],none,false⟩⟩,⟨256,.cr,false,some ⟨36,[],none,false⟩⟩,⟨256,.cr,true,some ⟨36,[],none,false⟩⟩,⟨256,.other,false,none⟩,⟨256,.other,false,some ⟨48,[],none,false⟩⟩,⟨256,.other,false,some ⟨38,[],none,false⟩⟩]⟩,⟨[24,29],none,[],[⟨256,.other,false,some ⟨37,[],none,false⟩⟩,⟨256,.ws,false,some ⟨37,[],none,false⟩⟩,⟨256,.lf,false,some ⟨37,[],none,false⟩⟩,⟨256,.vt,false,some ⟨37,[],none,false⟩⟩,⟨256,.ff,false,some ⟨37,[],none,false⟩⟩,⟨256,.cr,false,some ⟨37,[],none,false⟩⟩,⟨256,.cr,true,some ⟨37,[],none,false⟩⟩,⟨256,.other,false,none⟩,⟨256,.other,false,some ⟨49,[],none,false⟩⟩,⟨256,.other,false,some ⟨39,[],none,false⟩⟩]⟩,⟨[6,12],none,[],[⟨256,.other,false,some ⟨36,[],none,false⟩⟩,⟨256,.ws,false,some ⟨36,[],none,false⟩⟩,⟨256,.lf,false,some ⟨36,[],none,false⟩⟩,⟨256,.vt,false,some ⟨36,[],none,false⟩⟩,⟨256,.ff,false,some ⟨36,[],none,false⟩⟩,⟨256,.cr,false,some ⟨36,[],none,false⟩⟩,⟨256,.cr,true,some ⟨36,[],none,false⟩⟩,⟨256,.other,false,none⟩,⟨256,.other,false,some ⟨50,[],none,false⟩⟩,⟨256,.other,false,some ⟨38,[],none,false⟩⟩]⟩,⟨[24,30],none,[],[⟨256,.other,false,some ⟨37,[],none,false⟩⟩,⟨256,.ws,false,some ⟨37,[],none,false⟩⟩,⟨256,.lf,false,some ⟨37,[],none,false⟩⟩,⟨256,.vt,false,some ⟨37,[],none,false⟩⟩,⟨256,.ff,false,some ⟨37,[],none,false⟩⟩,⟨256,.cr,false,some ⟨37,[],none,false⟩⟩,⟨256,.cr,true,some ⟨37,[],none,false⟩⟩,⟨256,.other,false,none⟩,⟨256,.other,false,some ⟨51,[],none,false⟩⟩,⟨256,.other,false,some ⟨39,[],none,false⟩⟩]⟩,⟨[6,13],none,[],[⟨256,.other,false,some ⟨36,[],none,false⟩⟩,⟨256,.ws,false,some ⟨36,[],none,false⟩⟩,⟨256,.lf,false,some ⟨36,[],none,false⟩⟩,⟨256,.vt,false,some ⟨36,[],none,false⟩⟩,⟨256,.ff,false,some ⟨36,[],none,false⟩⟩,⟨256,.cr,false,some ⟨36,[],none,false⟩⟩,⟨256,.cr,true,some ⟨36,[],none,false⟩⟩,⟨256,.other,false,none⟩,⟨256,.other,false,some ⟨52,[],none,false⟩⟩,⟨256,.other,false,some ⟨38,[],none,false⟩⟩]⟩,⟨[24,31],none,[],[⟨256,.other,false,some ⟨37,[],none,false⟩⟩,⟨256,.ws,false,some ⟨37,[],none,false⟩⟩,⟨256,.lf,false,some ⟨37,[],none,false⟩⟩,⟨256,.vt,false,some ⟨37,[],none,false⟩⟩,⟨256,.ff,false,some ⟨37,[],none,false⟩⟩,⟨256,.cr,false,some ⟨37,[],none,false⟩⟩,⟨256,.cr,true,some ⟨37,[],none,false⟩⟩,⟨256,.other,false,none⟩,⟨256,.other,false,some ⟨39,[],none,false⟩⟩,⟨256,.other,false,some ⟨53,[],none,false⟩⟩]⟩,⟨[14],none,[],[⟨256,.other,false,some ⟨54,[],none,false⟩⟩,⟨256,.ws,false,some ⟨54,[],none,false⟩⟩,⟨256,.lf,false,some ⟨54,[],none,false⟩⟩,⟨256,.vt,false,some ⟨54,[],none,false⟩⟩,⟨256,.ff,false,some ⟨54,[],none,false⟩⟩,⟨256,.cr,false,some ⟨54,[],none,false⟩⟩,⟨256,.cr,true,some ⟨54,[],none,false⟩⟩,⟨256,.other,false,none⟩]⟩,⟨[24,32],none,[],[⟨256,.other,false,some ⟨37,[],none,false⟩⟩,⟨256,.ws,false,some ⟨37,[],none,false⟩⟩,⟨256,.lf,false,some ⟨37,[],none,false⟩⟩,⟨256,.vt,false,some ⟨37,[],none,false⟩⟩,⟨256,.ff,false,some ⟨37,[],none,false⟩⟩,⟨256,.cr,false,some ⟨37,[],none,false⟩⟩,⟨256,.cr,true,some ⟨37,[],none,false⟩⟩,⟨256,.other,false,none⟩,⟨256,.other,false,some ⟨55,[],none,false⟩⟩,⟨256,.other,false,some ⟨39,[],none,false⟩⟩]⟩,⟨[15],none,[],[⟨256,.other,false,some ⟨54,[],none,false⟩⟩,⟨256,.ws,false,some ⟨54,[],none,false⟩⟩,⟨256,.lf,false,some ⟨54,[],none,false⟩⟩,⟨256,.vt,false,some ⟨54,[],none,false⟩⟩,⟨256,.ff,false,some ⟨54,[],none,false⟩⟩,⟨256,.cr,false,some ⟨54,[],none,false⟩⟩,⟨256,.cr,true,some ⟨54,[],none,false⟩⟩,⟨256,.other,false,some ⟨0,[.code,.setEnt .checkBlank,.cb,.emb (.saw 1)],some 0,true⟩⟩]⟩,⟨[24,33],none,[],[⟨256,.other,false,some ⟨37,[],none,false⟩⟩,⟨256,.ws,false,some ⟨37,[],none,false⟩⟩,⟨256,.lf,false,some ⟨37,[],none,false⟩⟩,⟨256,.vt,false,some ⟨37,[],none,false⟩⟩,⟨256,.ff,false,some ⟨37,[],none,false⟩⟩,⟨256,.cr,false,some ⟨37,[],none,false⟩⟩,⟨256,.cr,true,some ⟨37,[],none,false⟩⟩,⟨256,.other,false,none⟩,⟨256,.other,false,some ⟨56,[],none,false⟩⟩,⟨256,.other,false,some ⟨39,[],none,false⟩⟩]⟩,⟨[24,34],none,[],[⟨256,.other,false,some ⟨37,[],none,false⟩⟩,⟨256,.ws,false,some ⟨37,[],none,false⟩⟩,⟨256,.lf,false,some ⟨37,[],none,false⟩⟩,⟨256,.vt,false,some ⟨37,[],none,false⟩⟩,⟨256,.ff,false,some ⟨37,[],none,false⟩⟩,⟨256,.cr,false,some ⟨37,[],none,false⟩⟩,⟨256,.cr,true,some ⟨37,[],none,false⟩⟩,⟨256,.other,false,none⟩,⟨256,.other,false,some ⟨57,[],none,false⟩⟩,⟨256,.other,false,some ⟨39,[],none,false⟩⟩]⟩,⟨[24,35],none,[],[⟨256,.other,false,some ⟨37,[],none,false⟩⟩,⟨256,.ws,false,some ⟨37,[],none,false⟩⟩,⟨256,.lf,false,some ⟨37,[],none,false⟩⟩,⟨256,.vt,false,some ⟨37,[],none,false⟩⟩,⟨256,.ff,false,some ⟨37,[],none,false⟩⟩,⟨256,.cr,false,some ⟨37,[],none,false⟩⟩,⟨256,.cr,true,some ⟨37,[],none,false⟩⟩,⟨256,.other,false,none⟩,⟨256,.other,false,some ⟨58,[],none,false⟩⟩,⟨256,.other,false,some ⟨39,[],none,false⟩⟩]⟩,⟨[24,36],none,[],[⟨256,.other,false,some ⟨37,[],none,false⟩⟩,⟨256,.ws,false,some ⟨37,[],none,false⟩⟩,⟨256,.lf,false,some ⟨37,[],none,false⟩⟩,⟨256,.vt,false,some ⟨37,[],none,false⟩⟩,⟨256,.ff,false,some ⟨37,[],none,false⟩⟩,⟨256,.cr,false,some ⟨37,[],none,false⟩⟩,⟨256,.cr,true,some ⟨37,[],none,false⟩⟩,⟨256,.other,false,none⟩,⟨256,.other,false,some ⟨59,[],none,false⟩⟩,⟨256,.other,false,some ⟨39,[],none,false⟩⟩]⟩,⟨[24,37],none,[],[⟨256,.other,false,some ⟨37,[],none,false⟩⟩,⟨256,.ws,false,some ⟨37,[],none,false⟩⟩,⟨256,.lf,false,some ⟨37,[],none,false⟩⟩,⟨256,.vt,false,some ⟨37,[],none,false⟩⟩,⟨256,.ff,false,some ⟨37,[],none,false⟩⟩,⟨256,.cr,false,some ⟨37,[],none,false⟩⟩,⟨256,.cr,true,some ⟨37,[],none,false⟩⟩,⟨256,.other,false,none⟩,⟨256,.other,false,some ⟨60,[],none,false⟩⟩,⟨256,.other,false,some ⟨39,[],none,false⟩⟩]⟩,⟨[24,38],none,[],[⟨256,.other,false,some ⟨37,[],none,false⟩⟩,⟨256,.ws,false,some ⟨37,[],none,false⟩⟩,⟨256,.lf,false,some ⟨37,[],none,false⟩⟩,⟨256,.vt,false,some ⟨37,[],none,false⟩⟩,⟨256,.ff,false,some ⟨37,[],none,false⟩⟩,⟨256,.cr,false,some ⟨37,[],none,false⟩⟩,⟨256,.cr,true,some ⟨37,[],none,false⟩⟩,⟨256,.other,false,none⟩,⟨256,.other,false,some ⟨61,[],none,false⟩⟩]⟩,⟨[39],none,[],[⟨256,.other,false,some ⟨62,[],none,false⟩⟩,⟨256,.ws,false,some ⟨62,[],none,false⟩⟩,⟨256,.lf,false,some ⟨62,[],none,false⟩⟩,⟨256,.vt,false,some ⟨62,[],none,false⟩⟩,⟨256,.ff,false,some ⟨62,[],none,false⟩⟩,⟨256,.cr,false,some ⟨62,[],none,false⟩⟩,⟨256,.cr,true,some ⟨62,[],none,false⟩⟩,⟨256,.other,false,none⟩]⟩,⟨[40],none,[],[⟨256,.other,false,some ⟨62,[],none,false⟩⟩,⟨256,.ws,false,some ⟨62,[],none,false⟩⟩,⟨256,.lf,false,some ⟨62,[],none,false⟩⟩,⟨256,.vt,false,some ⟨62,[],none,false⟩⟩,⟨256,.ff,false,some ⟨62,[],none,false⟩⟩,⟨256,.cr,false,some ⟨62,[],none,false⟩⟩,⟨256,.cr,true,some ⟨62,[],none,false⟩⟩,⟨256,.other,false,some ⟨0,[.code,.setEnt .checkBlank,.cb,.emb (.saw 2)],some 1,true⟩⟩]⟩]
theorem emb2_rowsOk : rowsOk emb2_nfa [] (emb2_cs.map (·.1)) emb2_rows = true := by decide +kernel
def emb2_D : Dfa emb2_nfa := ⟨emb2_masks, [], emb2_cs, emb2_rows, emb2_masksIn, emb2_repOk, emb2_rowsOk⟩
def emb2_maskst : List Nat := [1152921504606846976,4294967808,549755813888,17179869184,8192,1024,4096,115792089237316195423570985008687907853269984665640564039457584007908834656767,41538374877950027585161004031410176,83076749755900055170322008062820352,2658455992188801765450304258010251264,324518553733984590509070343995392,2535301201046754613352112062464,115792089237316195423570985008687907853269984665640564039452972321894702252031,83076749736557242056487941267521536,2535301200456458802993406410752,1329227995784915872903807060280344576,140737488355328,633825300114114700748351602688,41538374868278621028243970633760768,4611686018427387904,633825300261688653338028015616,20769187438975013792580502015705088,40564819216748073813633792999424,5192296859743753448145125503926272,81129638414606681695789005144064,158456325028528675187087900672,332306998946228968225951765070086144,20769187434139310514121985316880384,40564819207303340847894502572032,5192296858534827628530496329220096,8589934592,35184372088832,115792089237316195423570985008687907853269984665640564039457584007908834658815,115792089237316195423570985008687907853269984665635612279300442486263777315839,4951760157141521099596496896,115792089237316195423570985008687907853269984665640564039457584007913129626623,115792089237316195423570985008687907853269984665635612279300442486796353260543]
def emb2_cst : List (Nat × Nat) := [(0,115792089237316195423570985008687907853265513648499165572161783470695473201663),(9,4294967808),(10,1024),(11,2048),(12,4096),(13,8192),(33,8589934592),(34,17179869184),(39,549755813888),(45,35184372088832),(47,140737488355328),(60,1152921504606846976),(62,4611686018427387904),(67,147573952589676412928),(69,590295810358705651712),(73,9444732965739290427392),(76,324518553733984590509070343995392),(80,1208925819614629174706176),(82,4835703278458516698824704),(83,9671406556917033397649408),(84,19342813113834066795298816),(89,2658455992188801765450304258010251264),(92,4951760157141521099596496896),(97,158456325028528675187087900672),(99,633825300114114700748351602688),(101,2535301200456458802993406410752),(105,40564819207303340847894502572032),(106,81129638414606681695789005144064),(112,5192296858534827628530496329220096),(114,20769187434139310514121985316880384),(115,41538374868278621028243970633760768),(116,83076749736557242056487941267521536),(118,332306998946228968225951765070086144),(120,1329227995784915872903807060280344576)]
theorem emb2_masksInt : masksIn emb2_nfa emb2_maskst = true := by decide +kernel
theorem emb2_repOkt : repOk emb2_maskst emb2_cst = true := by decide +kernel
def emb2_rowst : List Row := [⟨[],none,[],[⟨256,.other,false,some ⟨0,[.setEnt (.own 5)],some 6,true⟩⟩,⟨256,.ws,false,some ⟨1,[.setEnt (.own 0)],some 2,false⟩⟩,⟨256,.lf,false,some ⟨0,[.setEnt .newline],some 5,true⟩⟩,⟨256,.vt,false,none⟩,⟨256,.ff,false,some ⟨0,[.setEnt .newline],some 5,true⟩⟩,⟨256,.cr,false,some ⟨2,[.setEnt .newline],none,false⟩⟩,⟨256,.cr,true,some ⟨3,[.setEnt .newline],some 5,false⟩⟩,⟨256,.other,false,some ⟨4,[.setEnt (.own 5)],some 6,false⟩⟩,⟨256,.other,false,some ⟨5,[.setEnt (.own 5)],some 6,false⟩⟩,⟨47,.other,false,some ⟨0,[.setEnt (.own 5)],some 6,true⟩⟩,⟨60,.other,false,some ⟨6,[.setEnt (.own 5)],some 6,false⟩⟩,⟨62,.other,false,some ⟨0,[.setEnt (.own 5)],some 6,true⟩⟩]⟩,⟨[42],some 2,[],[⟨256,.other,false,none⟩,⟨256,.ws,false,some ⟨1,[.setEnt (.own 0)],some 2,false⟩⟩,⟨256,.lf,false,none⟩,⟨256,.vt,false,none⟩,⟨256,.ff,false,none⟩,⟨256,.cr,false,none⟩,⟨256,.cr,true,none⟩,⟨47,.other,false,none⟩,⟨60,.other,false,none⟩,⟨62,.other,false,none⟩]⟩,⟨[67],none,[],[⟨256,.other,false,none⟩,⟨256,.ws,false,none⟩,⟨256,.lf,false,some ⟨0,[.setEnt .newline],some 5,true⟩⟩,⟨256,.vt,false,none⟩,⟨256,.ff,false,none⟩,⟨256,.cr,false,none⟩,⟨256,.cr,true,none⟩,⟨47,.other,false,none⟩,⟨60,.other,false,none⟩,⟨62,.other,false,none⟩]⟩,⟨[67,71],some 5,[],[⟨256,.other,false,none⟩,⟨256,.ws,false,none⟩,⟨256,.lf,false,some ⟨0,[.setEnt .newline],some 5,true⟩⟩,⟨256,.vt,false,none⟩,⟨256,.ff,false,none⟩,⟨256,.cr,false,none⟩,⟨256,.cr,true,none⟩,⟨47,.other,false,none⟩,⟨60,.other,false,none⟩,⟨62,.other,false,none⟩]⟩,⟨[62,72],some 6,[],[⟨256,.other,false,some ⟨7,[],none,false⟩⟩,⟨256,.ws,false,some ⟨7,[],none,false⟩⟩,⟨256,.lf,false,none⟩,⟨256,.vt,false,some ⟨7,[],none,false⟩⟩,⟨256,.ff,false,none⟩,⟨256,.cr,false,none⟩,⟨256,.cr,true,none⟩,⟨256,.other,false,some ⟨0,[.code],some 4,true⟩⟩,⟨47,.other,false,some ⟨7,[],none,false⟩⟩,⟨60,.other,false,some ⟨7,[],none,false⟩⟩,⟨62,.other,false,some ⟨7,[],none,false⟩⟩,⟨256,.other,false,some ⟨8,[],none,false⟩⟩]⟩,⟨[57,72],some 6,[],[⟨256,.other,false,some ⟨9,[],none,false⟩⟩,⟨256,.ws,false,some ⟨9,[],none,false⟩⟩,⟨256,.lf,false,none⟩,⟨256,.vt,false,some ⟨9,[],none,false⟩⟩,⟨256,.ff,false,none⟩,⟨256,.cr,false,none⟩,⟨256,.cr,true,none⟩,⟨256,.other,false,some ⟨0,[.code],some 4,true⟩⟩,⟨47,.other,false,some ⟨9,[],none,false⟩⟩,⟨60,.other,false,some ⟨9,[],none,false⟩⟩,⟨62,.other,false,some ⟨9,[],none,false⟩⟩,⟨256,.other,false,some ⟨10,[],none,false⟩⟩]⟩,⟨[0,17,43,72],some 6,[],[⟨256,.other,false,none⟩,⟨256,.ws,false,none⟩,⟨256,.lf,false,none⟩,⟨256,.vt,false,none⟩,⟨256,.ff,false,none⟩,⟨256,.cr,false,none⟩,⟨256,.cr,true,none⟩,⟨256,.other,false,some ⟨11,[],none,false⟩⟩,⟨47,.other,false,none⟩,⟨60,.other,false,none⟩,⟨62,.other,false,none⟩,⟨256,.other,false,some ⟨12,[],none,false⟩⟩]⟩,⟨[63],none,[],[⟨256,.other,false,some ⟨7,[],none,false⟩⟩,⟨256,.ws,false,some ⟨7,[],none,false⟩⟩,⟨256,.lf,false,none⟩,⟨256,.vt,false,some ⟨7,[],none,false⟩⟩,⟨256,.ff,false,none⟩,⟨256,.cr,false,none⟩,⟨256,.cr,true,none⟩,⟨256,.other,false,some ⟨0,[.code],some 4,true⟩⟩,⟨47,.other,false,some ⟨7,[],none,false⟩⟩,⟨60,.other,false,some ⟨7,[],none,false⟩⟩,⟨62,.other,false,some ⟨7,[],none,false⟩⟩,⟨256,.other,false,some ⟨8,[],none,false⟩⟩]⟩,⟨[64],none,[],[⟨256,.other,false,some ⟨13,[],none,false⟩⟩,⟨256,.ws,false,some ⟨13,[],none,false⟩⟩,⟨256,.lf,false,none⟩,⟨256,.vt,false,some ⟨13,[],none,false⟩⟩,⟨256,.ff,false,none⟩,⟨256,.cr,false,none⟩,⟨256,.cr,true,none⟩,⟨47,.other,false,some ⟨13,[],none,false⟩⟩,⟨60,.other,false,some ⟨13,[],none,false⟩⟩,⟨62,.other,false,some ⟨13,[],none,false⟩⟩]⟩,⟨[58],none,[],[⟨256,.other,false,some ⟨9,[],none,false⟩⟩,⟨256,.ws,false,some ⟨9,[],none,false⟩⟩,⟨256,.lf,false,none⟩,⟨256,.vt,false,some ⟨9,[],none,false⟩⟩,⟨256,.ff,false,none⟩,⟨256,.cr,false,none⟩,⟨256,.cr,true,none⟩,⟨256,.other,false,some ⟨0,[.code],some 4,true⟩⟩,⟨47,.other,false,some ⟨9,[],none,false⟩⟩,⟨60,.other,false,some ⟨9,[],none,false⟩⟩,⟨62,.other,false,some ⟨9,[],none,false⟩⟩,⟨256,.other,false,some ⟨10,[],none,false⟩⟩]⟩,⟨[59],none,[],[⟨256,.other,false,some ⟨14,[],none,false⟩⟩,⟨256,.ws,false,some ⟨14,[],none,false⟩⟩,⟨256,.lf,false,none⟩,⟨256,.vt,false,some ⟨14,[],none,false⟩⟩,⟨256,.ff,false,none⟩,⟨256,.cr,false,none⟩,⟨256,.cr,true,none⟩,⟨47,.other,false,some ⟨14,[],none,false⟩⟩,⟨60,.other,false,some ⟨14,[],none,false⟩⟩,⟨62,.other,false,some ⟨14,[],none,false⟩⟩]⟩,⟨[44],none,[],[⟨256,.other,false,none⟩,⟨256,.ws,false,none⟩,⟨256,.lf,false,none⟩,⟨256,.vt,false,none⟩,⟨256,.ff,false,none⟩,⟨256,.cr,false,none⟩,⟨256,.cr,true,none⟩,⟨256,.other,false,some ⟨15,[],none,false⟩⟩,⟨47,.other,false,none⟩,⟨60,.other,false,none⟩,⟨62,.other,false,none⟩]⟩,⟨[1,18],none,[],[⟨256,.other,false,none⟩,⟨256,.ws,false,none⟩,⟨256,.lf,false,none⟩,⟨256,.vt,false,none⟩,⟨256,.ff,false,none⟩,⟨256,.cr,false,none⟩,⟨256,.cr,true,none⟩,⟨47,.other,false,none⟩,⟨60,.other,false,none⟩,⟨62,.other,false,none⟩,⟨256,.other,false,some ⟨16,[],none,false⟩⟩,⟨256,.other,false,some ⟨17,[],none,false⟩⟩]⟩,⟨[65],none,[],[⟨256,.other,false,some ⟨7,[],none,false⟩⟩,⟨256,.ws,false,some ⟨7,[],none,false⟩⟩,⟨256,.lf,false,none⟩,⟨256,.vt,false,some ⟨7,[],none,false⟩⟩,⟨256,.ff,false,none⟩,⟨256,.cr,false,none⟩,⟨256,.cr,true,none⟩,⟨256,.other,false,some ⟨0,[.code],some 4,true⟩⟩,⟨47,.other,false,some ⟨7,[],none,false⟩⟩,⟨60,.other,false,some ⟨7,[],none,false⟩⟩,⟨62,.other,false,some ⟨7,[],none,false⟩⟩,⟨256,.other,false,some ⟨8,[],none,false⟩⟩]⟩,⟨[60],none,[],[⟨256,.other,false,some ⟨9,[],none,false⟩⟩,⟨256,.ws,false,some ⟨9,[],none,false⟩⟩,⟨256,.lf,false,none⟩,⟨256,.vt,false,some ⟨9,[],none,false⟩⟩,⟨256,.ff,false,none⟩,⟨256,.cr,false,none⟩,⟨256,.cr,true,none⟩,⟨256,.other,false,some ⟨0,[.code],some 4,true⟩⟩,⟨47,.other,false,some ⟨9,[],none,false⟩⟩,⟨60,.other,false,some ⟨9,[],none,false⟩⟩,⟨62,.other,false,some ⟨9,[],none,false⟩⟩,⟨256,.other,false,some ⟨10,[],none,false⟩⟩]⟩,⟨[45],none,[],[⟨256,.other,false,none⟩,⟨256,.ws,false,none⟩,⟨256,.lf,false,none⟩,⟨256,.vt,false,none⟩,⟨256,.ff,false,none⟩,⟨256,.cr,false,none⟩,⟨256,.cr,true,none⟩,⟨256,.other,false,some ⟨18,[.comment],none,false⟩⟩,⟨47,.other,false,none⟩,⟨60,.other,false,none⟩,⟨62,.other,false,none⟩]⟩,⟨[19],none,[],[⟨256,.other,false,none⟩,⟨256,.ws,false,none⟩,⟨256,.lf,false,none⟩,⟨256,.vt,false,none⟩,⟨256,.ff,false,none⟩,⟨256,.cr,false,none⟩,⟨256,.cr,true,none⟩,⟨47,.other,false,none⟩,⟨60,.other,false,none⟩,⟨62,.other,false,none⟩,⟨256,.other,false,some ⟨19,[],none,false⟩⟩]⟩,⟨[2],none,[],[⟨256,.other,false,none⟩,⟨256,.ws,false,none⟩,⟨256,.lf,false,none⟩,⟨256,.vt,false,none⟩,⟨256,.ff,false,none⟩,⟨256,.cr,false,none⟩,⟨256,.cr,true,none⟩,⟨47,.other,false,none⟩,⟨60,.other,false,none⟩,⟨62,.other,false,none⟩,⟨256,.other,false,some ⟨20,[],none,false⟩⟩]⟩,⟨[46],none,[],[⟨256,.other,false,some ⟨21,[.comment],none,false⟩⟩,⟨256,.ws,false,some ⟨22,[],none,false⟩⟩,⟨256,.lf,false,some ⟨23,[],none,false⟩⟩,⟨256,.vt,false,some ⟨21,[.comment],none,false⟩⟩,⟨256,.ff,false,some ⟨24,[],none,false⟩⟩,⟨256,.cr,false,some ⟨25,[],none,false⟩⟩,⟨256,.cr,true,some ⟨26,[],none,false⟩⟩,⟨256,.other,false,some ⟨27,[.comment],none,false⟩⟩,⟨47,.other,false,some ⟨21,[.comment],none,false⟩⟩,⟨60,.other,false,some ⟨21,[.comment],none,false⟩⟩,⟨62,.other,false,some ⟨21,[.comment],none,false⟩⟩]⟩,⟨[20],none,[],[⟨256,.other,false,none⟩,⟨256,.ws,false,none⟩,⟨256,.lf,false,none⟩,⟨256,.vt,false,none⟩,⟨256,.ff,false,none⟩,⟨256,.cr,false,none⟩,⟨256,.cr,true,none⟩,⟨47,.other,false,none⟩,⟨60,.other,false,none⟩,⟨62,.other,false,none⟩,⟨256,.other,false,some ⟨28,[],none,false⟩⟩]⟩,⟨[3],none,[],[⟨256,.other,false,none⟩,⟨256,.ws,false,none⟩,⟨256,.lf,false,none⟩,⟨256,.vt,false,none⟩,⟨256,.ff,false,none⟩,⟨256,.cr,false,none⟩,⟨256,.cr,true,none⟩,⟨47,.other,false,none⟩,⟨60,.other,false,none⟩,⟨62,.other,false,none⟩,⟨256,.other,false,some ⟨29,[],none,false⟩⟩]⟩,⟨[53],none,[],[⟨256,.other,false,some ⟨21,[.comment],none,false⟩⟩,⟨256,.ws,false,some ⟨22,[],none,false⟩⟩,⟨256,.lf,false,some ⟨23,[],none,false⟩⟩,⟨256,.vt,false,some ⟨21,[.comment],none,false⟩⟩,⟨256,.ff,false,some ⟨24,[],none,false⟩⟩,⟨256,.cr,false,some ⟨25,[],none,false⟩⟩,⟨256,.cr,true,some ⟨26,[],none,false⟩⟩,⟨256,.other,false,some ⟨27,[.comment],none,false⟩⟩,⟨47,.other,false,some ⟨21,[.comment],none,false⟩⟩,⟨60,.other,false,some ⟨21,[.comment],none,false⟩⟩,⟨62,.other,false,some ⟨21,[.comment],none,false⟩⟩]⟩,⟨[52],none,[],[⟨256,.other,false,some ⟨21,[.comment],none,false⟩⟩,⟨256,.ws,false,some ⟨22,[],none,false⟩⟩,⟨256,.lf,false,some ⟨23,[],none,false⟩⟩,⟨256,.vt,false,some ⟨21,[.comment],none,false⟩⟩,⟨256,.ff,false,some ⟨24,[],none,false⟩⟩,⟨256,.cr,false,some ⟨25,[],none,false⟩⟩,⟨256,.cr,true,some ⟨26,[],none,false⟩⟩,⟨256,.other,false,some ⟨27,[.comment],none,false⟩⟩,⟨47,.other,false,some ⟨21,[.comment],none,false⟩⟩,⟨60,.other,false,some ⟨21,[.comment],none,false⟩⟩,⟨62,.other,false,some ⟨21,[.comment],none,false⟩⟩]⟩,⟨[49],none,[],[⟨256,.other,false,some ⟨21,[.setEnt .internalNl,.cb,.comment],none,false⟩⟩,⟨256,.ws,false,some ⟨22,[.setEnt .internalNl,.cb],none,false⟩⟩,⟨256,.lf,false,some ⟨23,[.setEnt .internalNl,.cb],none,false⟩⟩,⟨256,.vt,false,some ⟨21,[.setEnt .internalNl,.cb,.comment],none,false⟩⟩,⟨256,.ff,false,some ⟨24,[.setEnt .internalNl,.cb],none,false⟩⟩,⟨256,.cr,false,some ⟨25,[.setEnt .internalNl,.cb],none,false⟩⟩,⟨256,.cr,true,some ⟨26,[.setEnt .internalNl,.cb],none,false⟩⟩,⟨256,.other,false,some ⟨27,[.setEnt .internalNl,.cb,.comment],none,false⟩⟩,⟨47,.other,false,some ⟨21,[.setEnt .internalNl,.cb,.comment],none,false⟩⟩,⟨60,.other,false,some ⟨21,[.setEnt .internalNl,.cb,.comment],none,false⟩⟩,⟨62,.other,false,some ⟨21,[.setEnt .internalNl,.cb,.comment],none,false⟩⟩]⟩,⟨[50],none,[],[⟨256,.other,false,some ⟨21,[.setEnt .internalNl,.cb,.comment],none,false⟩⟩,⟨256,.ws,false,some ⟨22,[.setEnt .internalNl,.cb],none,false⟩⟩,⟨256,.lf,false,some ⟨23,[.setEnt .internalNl,.cb],none,false⟩⟩,⟨256,.vt,false,some ⟨21,[.setEnt .internalNl,.cb,.comment],none,false⟩⟩,⟨256,.ff,false,some ⟨24,[.setEnt .internalNl,.cb],none,false⟩⟩,⟨256,.cr,false,some ⟨25,[.setEnt .internalNl,.cb],none,false⟩⟩,⟨256,.cr,true,some ⟨26,[.setEnt .internalNl,.cb],none,false⟩⟩,⟨256,.other,false,some ⟨27,[.setEnt .internalNl,.cb,.comment],none,false⟩⟩,⟨47,.other,false,some ⟨21,[.setEnt .internalNl,.cb,.comment],none,false⟩⟩,⟨60,.other,false,some ⟨21,[.setEnt .internalNl,.cb,.comment],none,false⟩⟩,⟨62,.other,false,some ⟨21,[.setEnt .internalNl,.cb,.comment],none,false⟩⟩]⟩,⟨[47],none,[],[⟨256,.other,false,none⟩,⟨256,.ws,false,none⟩,⟨256,.lf,false,some ⟨30,[],none,false⟩⟩,⟨256,.vt,false,none⟩,⟨256,.ff,false,none⟩,⟨256,.cr,false,none⟩,⟨256,.cr,true,none⟩,⟨47,.other,false,none⟩,⟨60,.other,false,none⟩,⟨62,.other,false,none⟩]⟩,⟨[47,51],none,[],[⟨256,.other,false,some ⟨21,[.setEnt .internalNl,.cb,.comment],none,false⟩⟩,⟨256,.ws,false,some ⟨22,[.setEnt .internalNl,.cb],none,false⟩⟩,⟨256,.lf,false,some ⟨31,[.setEnt .internalNl,.cb],none,false⟩⟩,⟨256,.vt,false,some ⟨21,[.setEnt .internalNl,.cb,.comment],none,false⟩⟩,⟨256,.ff,false,some ⟨24,[.setEnt .internalNl,.cb],none,false⟩⟩,⟨256,.cr,false,some ⟨25,[.setEnt .internalNl,.cb],none,false⟩⟩,⟨256,.cr,true,some ⟨26,[.setEnt .internalNl,.cb],none,false⟩⟩,⟨256,.other,false,some ⟨27,[.setEnt .internalNl,.cb,.comment],none,false⟩⟩,⟨47,.other,false,some ⟨21,[.setEnt .internalNl,.cb,.comment],none,false⟩⟩,⟨60,.other,false,some ⟨21,[.setEnt .internalNl,.cb,.comment],none,false⟩⟩,⟨62,.other,false,some ⟨21,[.setEnt .internalNl,.cb,.comment],none,false⟩⟩]⟩,⟨[53,54],none,[],[⟨256,.other,false,some ⟨21,[.comment],none,false⟩⟩,⟨256,.ws,false,some ⟨22,[],none,false⟩⟩,⟨256,.lf,false,some ⟨23,[],none,false⟩⟩,⟨256,.vt,false,some ⟨21,[.comment],none,false⟩⟩,⟨256,.ff,false,some ⟨24,[],none,false⟩⟩,⟨256,.cr,false,some ⟨25,[],none,false⟩⟩,⟨256,.cr,true,some ⟨26,[],none,false⟩⟩,⟨256,.other,false,some ⟨32,[.comment],none,false⟩⟩,⟨47,.other,false,some ⟨21,[.comment],none,false⟩⟩,⟨60,.other,false,some ⟨21,[.comment],none,false⟩⟩,⟨62,.other,false,some ⟨21,[.comment],none,false⟩⟩]⟩,⟨[21],none,[],[⟨256,.other,false,none⟩,⟨256,.ws,false,none⟩,⟨256,.lf,false,none⟩,⟨256,.vt,false,none⟩,⟨256,.ff,false,none⟩,⟨256,.cr,false,none⟩,⟨256,.cr,true,none⟩,⟨47,.other,false,none⟩,⟨60,.other,false,none⟩,⟨62,.other,false,none⟩,⟨256,.other,false,some ⟨33,[],none,false⟩⟩]⟩,⟨[4],none,[],[⟨256,.other,false,none⟩,⟨256,.ws,false,none⟩,⟨256,.lf,false,none⟩,⟨256,.vt,false,none⟩,⟨256,.ff,false,none⟩,⟨256,.cr,false,none⟩,⟨256,.cr,true,none⟩,⟨47,.other,false,none⟩,⟨60,.other,false,none⟩,⟨62,.other,false,none⟩,⟨256,.other,false,some ⟨34,[],none,false⟩⟩]⟩,⟨[48],none,[],[⟨256,.other,false,some ⟨21,[.setEnt .internalNl,.cb,.comment],none,false⟩⟩,⟨256,.ws,false,some ⟨22,[.setEnt .internalNl,.cb],none,false⟩⟩,⟨256,.lf,false,some ⟨23,[.setEnt .internalNl,.cb],none,false⟩⟩,⟨256,.vt,false,some ⟨21,[.setEnt .internalNl,.cb,.comment],none,false⟩⟩,⟨256,.ff,false,some ⟨24,[.setEnt .internalNl,.cb],none,false⟩⟩,⟨256,.cr,false,some ⟨25,[.setEnt .internalNl,.cb],none,false⟩⟩,⟨256,.cr,true,some ⟨26,[.setEnt .internalNl,.cb],none,false⟩⟩,⟨256,.other,false,some ⟨27,[.setEnt .internalNl,.cb,.comment],none,false⟩⟩,⟨47,.other,false,some ⟨21,[.setEnt .internalNl,.cb,.comment],none,false⟩⟩,⟨60,.other,false,some ⟨21,[.setEnt .internalNl,.cb,.comment],none,false⟩⟩,⟨62,.other,false,some ⟨21,[.setEnt .internalNl,.cb,.comment],none,false⟩⟩]⟩,⟨[48,49],none,[],[⟨256,.other,false,some ⟨21,[.setEnt .internalNl,.cb,.comment],none,false⟩⟩,⟨256,.ws,false,some ⟨22,[.setEnt .internalNl,.cb],none,false⟩⟩,⟨256,.lf,false,some ⟨23,[.setEnt .internalNl,.cb],none,false⟩⟩,⟨256,.vt,false,some ⟨21,[.setEnt .internalNl,.cb,.comment],none,false⟩⟩,⟨256,.ff,false,some ⟨24,[.setEnt .internalNl,.cb],none,false⟩⟩,⟨256,.cr,false,some ⟨25,[.setEnt .internalNl,.cb],none,false⟩⟩,⟨256,.cr,true,some ⟨26,[.setEnt .internalNl,.cb],none,false⟩⟩,⟨256,.other,false,some ⟨27,[.setEnt .internalNl,.cb,.comment],none,false⟩⟩,⟨47,.other,false,some ⟨21,[.setEnt .internalNl,.cb,.comment],none,false⟩⟩,⟨60,.other,false,some ⟨21,[.setEnt .internalNl,.cb,.comment],none,false⟩⟩,⟨62,.other,false,some ⟨21,[.setEnt .internalNl,.cb,.comment],none,false⟩⟩]⟩,⟨[53,54,55],none,[],[⟨256,.other,false,some ⟨21,[.comment],none,false⟩⟩,⟨256,.ws,false,some ⟨22,[],none,false⟩⟩,⟨256,.lf,false,some ⟨23,[],none,false⟩⟩,⟨256,.vt,false,some ⟨21,[.comment],none,false⟩⟩,⟨256,.ff,false,some ⟨24,[],none,false⟩⟩,⟨256,.cr,false,some ⟨25,[],none,false⟩⟩,⟨256,.cr,true,some ⟨26,[],none,false⟩⟩,⟨256,.other,false,some ⟨32,[.comment],none,false⟩⟩,⟨47,.other,false,some ⟨21,[.comment],none,false⟩⟩,⟨60,.other,false,some ⟨21,[.comment],none,false⟩⟩,⟨62,.other,false,some ⟨0,[],some 3,true⟩⟩]⟩,⟨[22],none,[],[⟨256,.other,false,none⟩,⟨256,.ws,false,none⟩,⟨256,.lf,false,none⟩,⟨256,.vt,false,none⟩,⟨256,.ff,false,none⟩,⟨256,.cr,false,none⟩,⟨256,.cr,true,none⟩,⟨47,.other,false,none⟩,⟨60,.other,false,none⟩,⟨62,.other,false,none⟩,⟨256,.other,false,some ⟨35,[],none,false⟩⟩]⟩,⟨[5],none,[],[⟨256,.other,false,some ⟨36,[],none,false⟩⟩,⟨256,.ws,false,some ⟨36,[],none,false⟩⟩,⟨256,.lf,false,some ⟨36,[],none,false⟩⟩,⟨256,.vt,false,some ⟨36,[],none,false⟩⟩,⟨256,.ff,false,some ⟨36,[],none,false⟩⟩,⟨256,.cr,false,some ⟨36,[],none,false⟩⟩,⟨256,.cr,true,some ⟨36,[],none,false⟩⟩,⟨47,.other,false,some ⟨36,[],none,false⟩⟩,⟨60,.other,false,some ⟨36,[],none,false⟩⟩,⟨62,.other,false,none⟩]⟩,⟨[23],none,[],[⟨256,.other,false,some ⟨37,[],none,false⟩⟩,⟨256,.ws,false,some ⟨37,[],none,false⟩⟩,⟨256,.lf,false,some ⟨37,[],none,false⟩⟩,⟨256,.vt,false,some ⟨37,[],none,false⟩⟩,⟨256,.ff,false,some ⟨37,[],none,false⟩⟩,⟨256,.cr,false,some ⟨37,[],none,false⟩⟩,⟨256,.cr,true,some ⟨37,[],none,false⟩⟩,⟨47,.other,false,some ⟨37,[],none,false⟩⟩,⟨60,.other,false,some ⟨37,[],none,false⟩⟩,⟨62,.other,false,none⟩]⟩,⟨[6],none,[],[⟨256,.other,false,some ⟨36,[],none,false⟩⟩,⟨256,.ws,false,some ⟨36,[],none,false⟩⟩,⟨256,.lf,false,some ⟨36,[],none,false⟩⟩,⟨256,.vt,false,some ⟨36,[],none,false⟩⟩,⟨256,.ff,false,some ⟨36,[],none,false⟩⟩,⟨256,.cr,false,some ⟨36,[],none,false⟩⟩,⟨256,.cr,true,some ⟨36,[],none,false⟩⟩,⟨47,.other,false,some ⟨36,[],none,false⟩⟩,⟨60,.other,false,some ⟨36,[],none,false⟩⟩,⟨62,.other,false,none⟩,⟨256,.other,false,some ⟨38,[],none,false⟩⟩]⟩,⟨[24],none,[],[⟨256,.other,false,some ⟨37,[],none,false⟩⟩,⟨256,.ws,false,some ⟨37,[],none,false⟩⟩,⟨256,.lf,false,some ⟨37,[],none,false⟩⟩,⟨256,.vt,false,some ⟨37,[],none,false⟩⟩,⟨256,.ff,false,some ⟨37,[],none,false⟩⟩,⟨256,.cr,false,some ⟨37,[],none,false⟩⟩,⟨256,.cr,true,some ⟨37,[],none,false⟩⟩,⟨47,.other,false,some ⟨37,[],none,false⟩⟩,⟨60,.other,false,some ⟨37,[],none,false⟩⟩,⟨62,.other,false,none⟩,⟨256,.other,false,some ⟨39,[],none,false⟩⟩]⟩,⟨[6,7],none,[],[⟨256,.other,false,some ⟨36,[],none,false⟩⟩,⟨256,.ws,false,some ⟨36,[],none,false⟩⟩,⟨256,.lf,false,some ⟨36,[],none,false⟩⟩,⟨256,.vt,false,some ⟨36,[],none,false⟩⟩,⟨256,.ff,false,some ⟨36,[],none,false⟩⟩,⟨256,.cr,false,some ⟨36,[],none,false⟩⟩,⟨256,.cr,true,some ⟨36,[],none,false⟩⟩,⟨47,.other,false,some ⟨36,[],none,false⟩⟩,⟨60,.other,false,some ⟨36,[],none,false⟩⟩,⟨62,.other,false,none⟩,⟨256,.other,false,some ⟨40,[],none,false⟩⟩,⟨256,.other,false,some ⟨38,[],none,false⟩⟩]⟩,⟨[24,25],none,[],[⟨256,.other,false,some ⟨37,[],none,false⟩⟩,⟨256,.ws,false,some ⟨37,[],none,false⟩⟩,⟨256,.lf,false,some ⟨37,[],none,false⟩⟩,⟨256,.vt,false,some ⟨37,[],none,false⟩⟩,⟨256,.ff,false,some ⟨37,[],none,false⟩⟩,⟨256,.cr,false,some ⟨37,[],none,false⟩⟩,⟨256,.cr,true,some ⟨37,[],none,false⟩⟩,⟨47,.other,false,some ⟨37,[],none,false⟩⟩,⟨60,.other,false,some ⟨37,[],none,false⟩⟩,⟨62,.other,false,none⟩,⟨256,.other,false,some ⟨41,[],none,false⟩⟩,⟨256,.other,false,some ⟨39,[],none,false⟩⟩]⟩,⟨[6,8],none,[],[⟨256,.other,false,some ⟨36,[],none,false⟩⟩,⟨256,.ws,false,some ⟨36,[],none,false⟩⟩,⟨256,.lf,false,some ⟨36,[],none,false⟩⟩,⟨256,.vt,false,some ⟨36,[],none,false⟩⟩,⟨256,.ff,false,some ⟨36,[],none,false⟩⟩,⟨256,.cr,false,some ⟨36,[],none,false⟩⟩,⟨256,.cr,true,some ⟨36,[],none,false⟩⟩,⟨47,.other,false,some ⟨36,[],none,false⟩⟩,⟨60,.other,false,some ⟨36,[],none,false⟩⟩,⟨62,.other,false,none⟩,⟨256,.other,false,some ⟨38,[],none,false⟩⟩,⟨256,.other,false,some ⟨42,[],none,false⟩⟩]⟩,⟨[24,26],none,[],[⟨256,.other,false,some ⟨37,[],none,false⟩⟩,⟨256,.ws,false,some ⟨37,[],none,false⟩⟩,⟨256,.lf,false,some ⟨37,[],none,false⟩⟩,⟨256,.vt,false,some ⟨37,[],none,false⟩⟩,⟨256,.ff,false,some ⟨37,[],none,false⟩⟩,⟨256,.cr,false,some ⟨37,[],none,false⟩⟩,⟨256,.cr,true,some ⟨37,[],none,false⟩⟩,⟨47,.other,false,some ⟨37,[],none,false⟩⟩,⟨60,.other,false,some ⟨37,[],none,false⟩⟩,⟨62,.other,false,none⟩,⟨256,.other,false,some ⟨39,[],none,false⟩⟩,⟨256,.other,false,some ⟨43,[],none,false⟩⟩]⟩,⟨[6,9],none,[],[⟨256,.other,false,some ⟨36,[],none,false⟩⟩,⟨256,.ws,false,some ⟨36,[],none,false⟩⟩,⟨256,.lf,false,some ⟨36,[],none,false⟩⟩,⟨256,.vt,false,some ⟨36,[],none,false⟩⟩,⟨256,.ff,false,some ⟨36,[],none,false⟩⟩,⟨256,.cr,false,some ⟨36,[],none,false⟩⟩,⟨256,.cr,true,some ⟨36,[],none,false⟩⟩,⟨47,.other,false,some ⟨36,[],none,false⟩⟩,⟨60,.other,false,some ⟨36,[],none,false⟩⟩,⟨62,.other,false,none⟩,⟨256,.other,false,some ⟨44,[],none,false⟩⟩]⟩,⟨[24,27],none,[],[⟨256,.other,false,some ⟨37,[],none,false⟩⟩,⟨256,.ws,false,some ⟨37,[],none,false⟩⟩,⟨256,.lf,false,some ⟨37,[],none,false⟩⟩,⟨256,.vt,false,some ⟨37,[],none,false⟩⟩,⟨256,.ff,false,some ⟨37,[],none,false⟩⟩,⟨256,.cr,false,some ⟨37,[],none,false⟩⟩,⟨256,.cr,true,some ⟨37,[],none,false⟩⟩,⟨47,.other,false,some ⟨37,[],none,false⟩⟩,⟨60,.other,false,some ⟨37,[],none,false⟩⟩,⟨62,.other,false,none⟩,⟨256,.other,false,some ⟨45,[],none,false⟩⟩]⟩,⟨[6,7,10],none,[],[⟨256,.other,false,some ⟨36,[],none,false⟩⟩,⟨256,.ws,false,some ⟨36,[],none,false⟩⟩,⟨256,.lf,false,some ⟨36,[],none,false⟩⟩,⟨256,.vt,false,some ⟨36,[],none,false⟩⟩,⟨256,.ff,false,some ⟨36,[],none,false⟩⟩,⟨256,.cr,false,some ⟨36,[],none,false⟩⟩,⟨256,.cr,true,some ⟨36,[],none,false⟩⟩,⟨47,.other,false,some ⟨46,[],none,false⟩⟩,⟨60,.other,false,some ⟨36,[],none,false⟩⟩,⟨62,.other,false,none⟩,⟨256,.other,false,some ⟨40,[],none,false⟩⟩,⟨256,.other,false,some ⟨38,[],none,false⟩⟩]⟩,⟨[24,25,28],none,[],[⟨256,.other,false,some ⟨37,[],none,false⟩⟩,⟨256,.ws,false,some ⟨37,[],none,false⟩⟩,⟨256,.lf,false,some ⟨37,[],none,false⟩⟩,⟨256,.vt,false,some ⟨37,[],none,false⟩⟩,⟨256,.ff,false,some ⟨37,[],none,false⟩⟩,⟨256,.cr,false,some ⟨37,[],none,false⟩⟩,⟨256,.cr,true,some ⟨37,[],none,false⟩⟩,⟨47,.other,false,some ⟨47,[],none,false⟩⟩,⟨60,.other,false,some ⟨37,[],none,false⟩⟩,⟨62,.other,false,none⟩,⟨256,.other,false,some ⟨41,[],none,false⟩⟩,⟨256,.other,false,some ⟨39,[],none,false⟩⟩]⟩,⟨[6,11],none,[],[⟨256,.other,false,some ⟨36,[],none,false⟩⟩,⟨256,.ws,false,some ⟨36,[],none,false⟩⟩,⟨256,.lf,false,some ⟨36,[],none,false⟩⟩,⟨256,.vt,false,some ⟨36,[],none,false⟩⟩,⟨256,.ff,false,some ⟨36,[],none,false⟩⟩,⟨256,.cr,false,some ⟨36,[],none,false⟩⟩,⟨256,.cr,true,some ⟨36,[],none,false⟩⟩,⟨47,.other,false,some ⟨36,[],none,false⟩⟩,⟨60,.other,false,some ⟨36,[],none,false⟩⟩,⟨62,.other,false,none⟩,⟨256,.other,false,some ⟨48,[],none,false⟩⟩,⟨256,.other,false,some ⟨38,[],none,false⟩⟩]⟩,⟨[24,29],none,[],[⟨256,.other,false,some ⟨37,[],none,false⟩⟩,⟨256,.ws,false,some ⟨37,[],none,false⟩⟩,⟨256,.lf,false,some ⟨37,[],none,false⟩⟩,⟨256,.vt,false,some ⟨37,[],none,false⟩⟩,⟨256,.ff,false,some ⟨37,[],none,false⟩⟩,⟨256,.cr,false,some ⟨37,[],none,false⟩⟩,⟨256,.cr,true,some ⟨37,[],none,false⟩⟩,⟨47,.other,false,some ⟨37,[],none,false⟩⟩,⟨60,.other,false,some ⟨37,[],none,false⟩⟩,⟨62,.other,false,none⟩,⟨256,.other,false,some ⟨49,[],none,false⟩⟩,⟨256,.other,false,some ⟨39,[],none,false⟩⟩]⟩,⟨[6,12],none,[],[⟨256,.other,false,some ⟨36,[],none,false⟩⟩,⟨256,.ws,false,some ⟨36,[],none,false⟩⟩,⟨256,.lf,false,some ⟨36,[],none,false⟩⟩,⟨256,.vt,false,some ⟨36,[],none,false⟩⟩,⟨256,.ff,false,some ⟨36,[],none,false⟩⟩,⟨256,.cr,false,some ⟨36,[],none,false⟩⟩,⟨256,.cr,true,some ⟨36,[],none,false⟩⟩,⟨47,.other,false,some ⟨36,[],none,false⟩⟩,⟨60,.other,false,some ⟨36,[],none,false⟩⟩,⟨62,.other,false,none⟩,⟨256,.other,false,some ⟨50,[],none,false⟩⟩,⟨256,.other,false,some ⟨38,[],none,false⟩⟩]⟩,⟨[24,30],none,[],[⟨256,.other,false,some ⟨37,[],none,false⟩⟩,⟨256,.ws,false,some ⟨37,[],none,false⟩⟩,⟨256,.lf,false,some ⟨37,[],none,false⟩⟩,⟨256,.vt,false,some ⟨37,[],none,false⟩⟩,⟨256,.ff,false,some ⟨37,[],none,false⟩⟩,⟨256,.cr,false,some ⟨37,[],none,false⟩⟩,⟨256,.cr,true,some ⟨37,[],none,false⟩⟩,⟨47,.other,false,some ⟨37,[],none,false⟩⟩,⟨60,.other,false,some ⟨37,[],none,false⟩⟩,⟨62,.other,false,none⟩,⟨256,.other,false,some ⟨51,[],none,false⟩⟩,⟨256,.other,false,some ⟨39,[],none,false⟩⟩]⟩,⟨[6,13],none,[],[⟨256,.other,false,some ⟨36,[],none,false⟩⟩,⟨256,.ws,false,some ⟨36,[],none,false⟩⟩,⟨256,.lf,false,some ⟨36,[],none,false⟩⟩,⟨256,.vt,false,some ⟨36,[],none,false⟩⟩,⟨256,.ff,false,some ⟨36,[],none,false⟩⟩,⟨256,.cr,false,some ⟨36,[],none,false⟩⟩,⟨256,.cr,true,some ⟨36,[],none,false⟩⟩,⟨47,.other,false,some ⟨36,[],none,false⟩⟩,⟨60,.other,false,some ⟨36,[],none,false⟩⟩,⟨62,.other,false,none⟩,⟨256,.other,false,some ⟨52,[],none,false⟩⟩,⟨256,.other,false,some ⟨38,[],none,false⟩⟩]⟩,⟨[24,31],none,[],[⟨256,.other,false,some ⟨37,[],none,false⟩⟩,⟨256,.ws,false,some ⟨37,[],none,false⟩⟩,⟨256,.lf,false,some ⟨37,[],none,false⟩⟩,⟨256,.vt,false,some ⟨37,[],none,false⟩⟩,⟨256,.ff,false,some ⟨37,[],none,false⟩⟩,⟨256,.cr,false,some ⟨37,[],none,false⟩⟩,⟨256,.cr,true,some ⟨37,[],none,false⟩⟩,⟨47,.other,false,some ⟨37,[],none,false⟩⟩,⟨60,.other,false,some ⟨37,[],none,false⟩⟩,⟨62,.other,false,none⟩,⟨256,.other,false,some ⟨39,[],none,false⟩⟩,⟨256,.other,false,some ⟨53,[],none,false⟩⟩]⟩,⟨[14],none,[],[⟨256,.other,false,some ⟨54,[],none,false⟩⟩,⟨256,.ws,false,some ⟨54,[],none,false⟩⟩,⟨256,.lf,false,some ⟨54,[],none,false⟩⟩,⟨256,.vt,false,some ⟨54,[],none,false⟩⟩,⟨256,.ff,false,some ⟨54,[],none,false⟩⟩,⟨256,.cr,false,some ⟨54,[],none,false⟩⟩,⟨256,.cr,true,some ⟨54,[],none,false⟩⟩,⟨47,.other,false,some ⟨54,[],none,false⟩⟩,⟨60,.other,false,some ⟨54,[],none,false⟩⟩,⟨62,.other,false,none⟩]⟩,⟨[24,32],none,[],[⟨256,.other,false,some ⟨37,[],none,false⟩⟩,⟨256,.ws,false,some ⟨37,[],none,false⟩⟩,⟨256,.lf,false,some ⟨37,[],none,false⟩⟩,⟨256,.vt,false,some ⟨37,[],none,false⟩⟩,⟨256,.ff,false,some ⟨37,[],none,false⟩⟩,⟨256,.cr,false,some ⟨37,[],none,false⟩⟩,⟨256,.cr,true,some ⟨37,[],none,false⟩⟩,⟨47,.other,false,some ⟨37,[],none,false⟩⟩,⟨60,.other,false,some ⟨37,[],none,false⟩⟩,⟨62,.other,false,none⟩,⟨256,.other,false,some ⟨55,[],none,false⟩⟩,⟨256,.other,false,some ⟨39,[],none,false⟩⟩]⟩,⟨[15],none,[],[⟨256,.other,false,some ⟨54,[],none,false⟩⟩,⟨256,.ws,false,some ⟨54,[],none,false⟩⟩,⟨256,.lf,false,some ⟨54,[],none,false⟩⟩,⟨256,.vt,false,some ⟨54,[],none,false⟩⟩,⟨256,.ff,false,some ⟨54,[],none,false⟩⟩,⟨256,.cr,false,some ⟨54,[],none,false⟩⟩,⟨256,.cr,true,some ⟨54,[],none,false⟩⟩,⟨47,.other,false,some ⟨54,[],none,false⟩⟩,⟨60,.other,false,some ⟨54,[],none,false⟩⟩,⟨62,.other,false,some ⟨0,[.code,.setEnt .checkBlank,.cb,.emb (.saw 1)],some 0,true⟩⟩]⟩,⟨[24,33],none,[],[⟨256,.other,false,some ⟨37,[],none,false⟩⟩,⟨256,.ws,false,some ⟨37,[],none,false⟩⟩,⟨256,.lf,false,some ⟨37,[],none,false⟩⟩,⟨256,.vt,false,some ⟨37,[],none,false⟩⟩,⟨256,.ff,false,some ⟨37,[],none,false⟩⟩,⟨256,.cr,false,some ⟨37,[],none,false⟩⟩,⟨256,.cr,true,some ⟨37,[],none,false⟩⟩,⟨47,.other,false,some ⟨37,[],none,false⟩⟩,⟨60,.other,false,some ⟨37,[],none,false⟩⟩,⟨62,.other,false,none⟩,⟨256,.other,false,some ⟨56,[],none,false⟩⟩,⟨256,.other,false,some ⟨39,[],none,false⟩⟩]⟩,⟨[24,34],none,[],[⟨256,.other,false,some ⟨37,[],none,false⟩⟩,⟨256,.ws,false,some ⟨37,[],none,false⟩⟩,⟨256,.lf,false,some ⟨37,[],none,false⟩⟩,⟨256,.vt,false,some ⟨37,[],none,false⟩⟩,⟨256,.ff,false,some ⟨37,[],none,false⟩⟩,⟨256,.cr,false,some ⟨37,[],none,false⟩⟩,⟨256,.cr,true,some ⟨37,[],none,false⟩⟩,⟨47,.other,false,some ⟨37,[],none,false⟩⟩,⟨60,.other,false,some ⟨37,[],none,false⟩⟩,⟨62,.other,false,none⟩,⟨256,.other,false,some ⟨57,[],none,false⟩⟩,⟨256,.other,false,some ⟨39,[],none,false⟩⟩]⟩,⟨[24,35],none,[],[⟨256,.other,false,some ⟨37,[],none,false⟩⟩,⟨256,.ws,false,some ⟨37,[],none,false⟩⟩,⟨256,.lf,false,some ⟨37,[],none,false⟩⟩,⟨256,.vt,false,some ⟨37,[],none,false⟩⟩,⟨256,.ff,false,some ⟨37,[],none,false⟩⟩,⟨256,.cr,false,some ⟨37,[],none,false⟩⟩,⟨256,.cr,true,some ⟨37,[],none,false⟩⟩,⟨47,.other,false,some ⟨37,[],none,false⟩⟩,⟨60,.other,false,some ⟨37,[],none,false⟩⟩,⟨62,.other,false,none⟩,⟨256,.other,false,some ⟨58,[],none,false⟩⟩,⟨256,.other,false,some ⟨39,[],none,false⟩⟩]⟩,⟨[24,36],none,[],[⟨256,.other,false,some ⟨37,[],none,false⟩⟩,⟨256,.ws,false,some ⟨37,[],none,false⟩⟩,⟨256,.lf,false,some ⟨37,[],none,false⟩⟩,⟨256,.vt,false,some ⟨37,[],none,false⟩⟩,⟨256,.ff,false,some ⟨37,[],none,false⟩⟩,⟨256,.cr,false,some ⟨37,[],none,false⟩⟩,⟨256,.cr,true,some ⟨37,[],none,false⟩⟩,⟨47,.other,false,some ⟨37,[],none,false⟩⟩,⟨60,.other,false,some ⟨37,[],none,false⟩⟩,⟨62,.other,false,none⟩,⟨256,.other,false,some ⟨59,[],none,false⟩⟩,⟨256,.other,false,some ⟨39,[],none,false⟩⟩]⟩,⟨[24,37],none,[],[⟨256,.other,false,some ⟨37,[],none,false⟩⟩,⟨256,.ws,false,some ⟨37,[],none,false⟩⟩,⟨256,.lf,false,some ⟨37,[],none,false⟩⟩,⟨256,.vt,false,some ⟨37,[],none,false⟩⟩,⟨256,.ff,false,some ⟨37,[],none,false⟩⟩,⟨256,.cr,false,some ⟨37,[],none,false⟩⟩,⟨256,.cr,true,some ⟨37,[],none,false⟩⟩,⟨47,.other,false,some ⟨37,[],none,false⟩⟩,⟨60,.other,false,some ⟨37,[],none,false⟩⟩,⟨62,.other,false,none⟩,⟨256,.other,false,some ⟨60,[],none,false⟩⟩,⟨256,.other,false,some ⟨39,[],none,false⟩⟩]⟩,⟨[24,38],none,[],[⟨256,.other,false,some ⟨37,[],none,false⟩⟩,⟨256,.ws,false,some ⟨37,[],none,false⟩⟩,⟨256,.lf,false,some ⟨37,[],none,false⟩⟩,⟨256,.vt,false,some ⟨37,[],none,false⟩⟩,⟨256,.ff,false,some ⟨37,[],none,false⟩⟩,⟨256,.cr,false,some ⟨37,[],none,false⟩⟩,⟨256,.cr,true,some ⟨37,[],none,false⟩⟩,⟨47,.other,false,some ⟨37,[],none,false⟩⟩,⟨60,.other,false,some ⟨37,[],none,false⟩⟩,⟨62,.other,false,none⟩,⟨256,.other,false,some ⟨61,[],none,false⟩⟩]⟩,⟨[39],none,[],[⟨256,.other,false,some ⟨62,[],none,false⟩⟩,⟨256,.ws,false,some ⟨62,[],none,false⟩⟩,⟨256,.lf,false,some ⟨62,[],none,false⟩⟩,⟨256,.vt,false,some ⟨62,[],none,false⟩⟩,⟨256,.ff,false,some ⟨62,[],none,false⟩⟩,⟨256,.cr,false,some ⟨62,[],none,false⟩⟩,⟨256,.cr,true,some ⟨62,[],none,false⟩⟩,⟨47,.other,false,some ⟨62,[],none,false⟩⟩,⟨60,.other,false,some ⟨62,[],none,false⟩⟩,⟨62,.other,false,none⟩]⟩,⟨[40],none,[],[⟨256,.other,false,some ⟨62,[],none,false⟩⟩,⟨256,.ws,false,some ⟨62,[],none,false⟩⟩,⟨256,.lf,false,some ⟨62,[],none,false⟩⟩,⟨256,.vt,false,some ⟨62,[],none,false⟩⟩,⟨256,.ff,false,some ⟨62,[],none,false⟩⟩,⟨256,.cr,false,some ⟨62,[],none,false⟩⟩,⟨256,.cr,true,some ⟨62,[],none,false⟩⟩,⟨47,.other,false,some ⟨62,[],none,false⟩⟩,⟨60,.other,false,some ⟨62,[],none,false⟩⟩,⟨62,.other,false,some ⟨0,[.code,.setEnt .checkBlank,.cb,.emb (.saw 2)],some 1,true⟩⟩]⟩]
theorem emb2_rowsOkt : rowsOk emb2_nfa [47, 60, 62] (emb2_cst.map (·.1)) emb2_rowst = true := by decide +kernel
def emb2_Dt : Dfa emb2_nfa := ⟨emb2_maskst, [47, 60, 62], emb2_cst, emb2_rowst, emb2_masksInt, emb2_repOkt, emb2_rowsOkt⟩

/-- The automaton of `Emb.Html.html_entity`. -/
def emb5_nfa : Nfa := ⟨[⟨0,1152921504606846976,[],[],0,2⟩,⟨17,1152921504606846976,[],[],0,4⟩,⟨42,4294983168,[],[(0,.setEnt (.own 0))],0,0⟩,⟨43,1152921504606846976,[],[(1,.setEnt (.own 1))],0,8⟩,⟨51,115792089237316195423570985008687907853269984665640564039457584007908834656767,[],[],0,0⟩],[[⟨1,41538374877950027585161004031410176,[],[],0,2⟩],[⟨2,83076749755900055170322008062820352,[],[],0,2⟩],[⟨3,2658455992188801765450304258010251264,[],[],0,2⟩],[⟨4,324518553733984590509070343995392,[],[],0,2⟩],[⟨5,2535301201046754613352112062464,[],[],0,2⟩],[⟨6,115792089237316195423570985008687907853269984665640564039452972321894702252031,[],[],0,2⟩],[⟨6,115792089237316195423570985008687907853269984665640564039452972321894702252031,[],[],0,2⟩,⟨7,83076749736557242056487941267521536,[],[],0,2⟩],[⟨8,2535301200456458802993406410752,[],[],0,0⟩],[⟨9,1329227995784915872903807060280344576,[],[],0,0⟩],[⟨10,83076749736557242056487941267521536,[],[],0,0⟩],[⟨11,140737488355328,[],[],0,0⟩],[⟨12,633825300114114700748351602688,[],[],0,0⟩],[⟨13,41538374868278621028243970633760768,[],[],0,0⟩],[⟨14,41538374868278621028243970633760768,[],[],2,0⟩],[⟨15,115792089237316195423570985008687907853269984665640564039452972321894702252031,[],[],0,0⟩],[⟨15,115792089237316195423570985008687907853269984665640564039452972321894702252031,[],[],0,0⟩,⟨16,4611686018427387904,[],[],0,0⟩],[],[⟨18,41538374877950027585161004031410176,[],[],0,4⟩],[⟨19,633825300261688653338028015616,[],[],0,4⟩],[⟨20,20769187438975013792580502015705088,[],[],0,4⟩],[⟨21,40564819216748073813633792999424,[],[],0,4⟩],[⟨22,5192296859743753448145125503926272,[],[],0,4⟩],[⟨23,83076749755900055170322008062820352,[],[],0,4⟩],[⟨24,115792089237316195423570985008687907853269984665640564039452972321894702252031,[],[],0,4⟩],[⟨24,115792089237316195423570985008687907853269984665640564039452972321894702252031,[],[],0,4⟩,⟨25,83076749736557242056487941267521536,[],[],0,4⟩],[⟨26,2535301200456458802993406410752,[],[],0,0⟩],[⟨27,1329227995784915872903807060280344576,[],[],0,0⟩],[⟨28,83076749736557242056487941267521536,[],[],0,0⟩],[⟨29,140737488355328,[],[],0,0⟩],[⟨30,81129638414606681695789005144064,[],[],0,0⟩],[⟨31,158456325028528675187087900672,[],[],0,0⟩],[⟨32,332306998946228968225951765070086144,[],[],0,0⟩],[⟨33,158456325028528675187087900672,[],[],0,0⟩],[⟨34,41538374868278621028243970633760768,[],[],0,0⟩],[⟨35,633825300114114700748351602688,[],[],0,0⟩],[⟨36,20769187434139310514121985316880384,[],[],0,0⟩],[⟨37,40564819207303340847894502572032,[],[],0,0⟩],[⟨38,5192296858534827628530496329220096,[],[],0,0⟩],[⟨39,83076749736557242056487941267521536,[],[],4,0⟩],[⟨40,115792089237316195423570985008687907853269984665640564039452972321894702252031,[],[],0,0⟩],[⟨40,115792089237316195423570985008687907853269984665640564039452972321894702252031,[],[],0,0⟩,⟨41,4611686018427387904,[],[],0,0⟩],[],[⟨42,4294983168,[],[(0,.setEnt (.own 0))],0,0⟩],[⟨44,8589934592,[],[(1,.setEnt (.own 1))],0,8⟩],[⟨45,35184372088832,[],[(1,.setEnt (.own 1))],0,8⟩],[⟨46,35184372088832,[],[(1,.setEnt (.own 1))],0,8⟩],[⟨47,115792089237316195423570985008687907853269984665640564039457584007913129639935,[],[(1,.setEnt (.own 1))],0,8⟩,⟨48,35184372088832,[],[(1,.setEnt (.own 1))],0,8⟩],[⟨47,115792089237316195423570985008687907853269984665640564039457584007913129639935,[],[(1,.setEnt (.own 1))],0,8⟩,⟨48,35184372088832,[],[(1,.setEnt (.own 1))],0,8⟩],[⟨49,35184372088832,[],[(1,.setEnt (.own 1))],0,0⟩],[⟨50,4611686018427387904,[],[(1,.setEnt (.own 1))],8,0⟩],[],[]],[none,none,none,none,none,none,none,none,none,none,none,none,none,none,none,none,some (0,[]),none,none,none,none,none,none,none,none,none,none,none,none,none,none,none,none,none,none,none,none,none,none,none,none,some (1,[]),some (2,[]),none,none,none,none,none,none,none,some (3,[]),some (4,[])],[0,0,1,2,2]⟩
def emb5_masks : List Nat := [1152921504606846976,4294983168,115792089237316195423570985008687907853269984665640564039457584007908834656767,41538374877950027585161004031410176,83076749755900055170322008062820352,2658455992188801765450304258010251264,324518553733984590509070343995392,2535301201046754613352112062464,115792089237316195423570985008687907853269984665640564039452972321894702252031,83076749736557242056487941267521536,2535301200456458802993406410752,1329227995784915872903807060280344576,140737488355328,633825300114114700748351602688,41538374868278621028243970633760768,4611686018427387904,633825300261688653338028015616,20769187438975013792580502015705088,40564819216748073813633792999424,5192296859743753448145125503926272,81129638414606681695789005144064,158456325028528675187087900672,332306998946228968225951765070086144,20769187434139310514121985316880384,40564819207303340847894502572032,5192296858534827628530496329220096,8589934592,35184372088832,115792089237316195423570985008687907853269984665640564039457584007913129639935]
def emb5_cs : List (Nat × Nat) := [(0,115792089237316195423570985008687907853265513648504117332318924992362005381631),(9,4294967808),(10,1024),(11,2048),(12,4096),(13,8192),(33,8589934592),(45,35184372088832),(47,140737488355328),(60,1152921504606846976),(62,4611686018427387904),(67,147573952589676412928),(69,590295810358705651712),(73,9444732965739290427392),(76,324518553733984590509070343995392),(80,1208925819614629174706176),(82,4835703278458516698824704),(83,9671406556917033397649408),(84,19342813113834066795298816),(89,2658455992188801765450304258010251264),(97,158456325028528675187087900672),(99,633825300114114700748351602688),(101,2535301200456458802993406410752),(105,40564819207303340847894502572032),(106,81129638414606681695789005144064),(112,5192296858534827628530496329220096),(114,20769187434139310514121985316880384),(115,41538374868278621028243970633760768),(116,83076749736557242056487941267521536),(118,332306998946228968225951765070086144),(120,1329227995784915872903807060280344576)]
theorem emb5_masksIn : masksIn emb5_nfa emb5_masks = true := by decide +kernel
theorem emb5_repOk : repOk emb5_masks emb5_cs = true := by decide +kernel
def emb5_rows : List Row := [⟨[],none,[],[⟨256,.other,false,some ⟨0,[],some 4,true⟩⟩,⟨256,.ws,false,some ⟨1,[.setEnt (.own 0)],some 2,false⟩⟩,⟨256,.lf,false,some ⟨1,[.setEnt (.own 0)],some 2,false⟩⟩,⟨256,.vt,false,some ⟨1,[.setEnt (.own 0)],some 2,false⟩⟩,⟨256,.ff,false,some ⟨1,[.setEnt (.own 0)],some 2,false⟩⟩,⟨256,.cr,false,some ⟨1,[.setEnt (.own 0)],some 2,false⟩⟩,⟨256,.cr,true,some ⟨1,[.setEnt (.own 0)],some 2,false⟩⟩,⟨256,.other,false,some ⟨2,[.setEnt (.own 1)],some 4,false⟩⟩]⟩,⟨[42],some 2,[],[⟨256,.other,false,none⟩,⟨256,.ws,false,some ⟨1,[.setEnt (.own 0)],some 2,false⟩⟩,⟨256,.lf,false,some ⟨1,[.setEnt (.own 0)],some 2,false⟩⟩,⟨256,.vt,false,some ⟨1,[.setEnt (.own 0)],some 2,false⟩⟩,⟨256,.ff,false,some ⟨1,[.setEnt (.own 0)],some 2,false⟩⟩,⟨256,.cr,false,some ⟨1,[.setEnt (.own 0)],some 2,false⟩⟩,⟨256,.cr,true,some ⟨1,[.setEnt (.own 0)],some 2,false⟩⟩]⟩,⟨[0,17,43,51],some 4,[],[⟨256,.other,false,none⟩,⟨256,.ws,false,none⟩,⟨256,.lf,false,none⟩,⟨256,.vt,false,none⟩,⟨256,.ff,false,none⟩,⟨256,.cr,false,none⟩,⟨256,.cr,true,none⟩,⟨256,.other,false,some ⟨3,[.setEnt (.own 1)],none,false⟩⟩,⟨256,.other,false,some ⟨4,[],none,false⟩⟩]⟩,⟨[44],none,[],[⟨256,.other,false,none⟩,⟨256,.ws,false,none⟩,⟨256,.lf,false,none⟩,⟨256,.vt,false,none⟩,⟨256,.ff,false,none⟩,⟨256,.cr,false,none⟩,⟨256,.cr,true,none⟩,⟨256,.other,false,some ⟨5,[.setEnt (.own 1)],none,false⟩⟩]⟩,⟨[1,18],none,[],[⟨256,.other,false,none⟩,⟨256,.ws,false,none⟩,⟨256,.lf,false,none⟩,⟨256,.vt,false,none⟩,⟨256,.ff,false,none⟩,⟨256,.cr,false,none⟩,⟨256,.cr,true,none⟩,⟨256,.other,false,some ⟨6,[],none,false⟩⟩,⟨256,.other,false,some ⟨7,[],none,false⟩⟩]⟩,⟨[45],none,[],[⟨256,.other,false,none⟩,⟨256,.ws,false,none⟩,⟨256,.lf,false,none⟩,⟨256,.vt,false,none⟩,⟨256,.ff,false,none⟩,⟨256,.cr,false,none⟩,⟨256,.cr,true,none⟩,⟨256,.other,false,some ⟨8,[.setEnt (.own 1)],none,false⟩⟩]⟩,⟨[19],none,[],[⟨256,.other,false,none⟩,⟨256,.ws,false,none⟩,⟨256,.lf,false,none⟩,⟨256,.vt,false,none⟩,⟨256,.ff,false,none⟩,⟨256,.cr,false,none⟩,⟨256,.cr,true,none⟩,⟨256,.other,false,some ⟨9,[],none,false⟩⟩]⟩,⟨[2],none,[],[⟨256,.other,false,none⟩,⟨256,.ws,false,none⟩,⟨256,.lf,false,none⟩,⟨256,.vt,false,none⟩,⟨256,.ff,false,none⟩,⟨256,.cr,false,none⟩,⟨256,.cr,true,none⟩,⟨256,.other,false,some ⟨10,[],none,false⟩⟩]⟩,⟨[46],none,[],[⟨256,.other,false,some ⟨11,[.setEnt (.own 1)],none,false⟩⟩,⟨256,.ws,false,some ⟨11,[.setEnt (.own 1)],none,false⟩⟩,⟨256,.lf,false,some ⟨11,[.setEnt (.own 1)],none,false⟩⟩,⟨256,.vt,false,some ⟨11,[.setEnt (.own 1)],none,false⟩⟩,⟨256,.ff,false,some ⟨11,[.setEnt (.own 1)],none,false⟩⟩,⟨256,.cr,false,some ⟨11,[.setEnt (.own 1)],none,false⟩⟩,⟨256,.cr,true,some ⟨11,[.setEnt (.own 1)],none,false⟩⟩,⟨256,.other,false,some ⟨12,[.setEnt (.own 1)],none,false⟩⟩]⟩,⟨[20],none,[],[⟨256,.other,false,none⟩,⟨256,.ws,false,none⟩,⟨256,.lf,false,none⟩,⟨256,.vt,false,none⟩,⟨256,.ff,false,none⟩,⟨256,.cr,false,none⟩,⟨256,.cr,true,none⟩,⟨256,.other,false,some ⟨13,[],none,false⟩⟩]⟩,⟨[3],none,[],[⟨256,.other,false,none⟩,⟨256,.ws,false,none⟩,⟨256,.lf,false,none⟩,⟨256,.vt,false,none⟩,⟨256,.ff,false,none⟩,⟨256,.cr,false,none⟩,⟨256,.cr,true,none⟩,⟨256,.other,false,some ⟨14,[],none,false⟩⟩]⟩,⟨[47],none,[],[⟨256,.other,false,some ⟨11,[.setEnt (.own 1)],none,false⟩⟩,⟨256,.ws,false,some ⟨11,[.setEnt (.own 1)],none,false⟩⟩,⟨256,.lf,false,some ⟨11,[.setEnt (.own 1)],none,false⟩⟩,⟨256,.vt,false,some ⟨11,[.setEnt (.own 1)],none,false⟩⟩,⟨256,.ff,false,some ⟨11,[.setEnt (.own 1)],none,false⟩⟩,⟨256,.cr,false,some ⟨11,[.setEnt (.own 1)],none,false⟩⟩,⟨256,.cr,true,some ⟨11,[.setEnt (.own 1)],none,false⟩⟩,⟨256,.other,false,some ⟨12,[.setEnt (.own 1)],none,false⟩⟩]⟩,⟨[47,48],none,[],[⟨256,.other,false,some ⟨11,[.setEnt (.own 1)],none,false⟩⟩,⟨256,.ws,false,some ⟨11,[.setEnt (.own 1)],none,false⟩⟩,⟨256,.lf,false,some ⟨11,[.setEnt (.own 1)],none,false⟩⟩,⟨256,.vt,false,some ⟨11,[.setEnt (.own 1)],none,false⟩⟩,⟨256,.ff,false,some ⟨11,[.setEnt (.own 1)],none,false⟩⟩,⟨256,.cr,false,some ⟨11,[.setEnt (.own 1)],none,false⟩⟩,⟨256,.cr,true,some ⟨11,[.setEnt (.own 1)],none,false⟩⟩,⟨256,.other,false,some ⟨15,[.setEnt (.own 1)],none,false⟩⟩]⟩,⟨[21],none,[],[⟨256,.other,false,none⟩,⟨256,.ws,false,none⟩,⟨256,.lf,false,none⟩,⟨256,.vt,false,none⟩,⟨256,.ff,false,none⟩,⟨256,.cr,false,none⟩,⟨256,.cr,true,none⟩,⟨256,.other,false,some ⟨16,[],none,false⟩⟩]⟩,⟨[4],none,[],[⟨256,.other,false,none⟩,⟨256,.ws,false,none⟩,⟨256,.lf,false,none⟩,⟨256,.vt,false,none⟩,⟨256,.ff,false,none⟩,⟨256,.cr,false,none⟩,⟨256,.cr,true,none⟩,⟨256,.other,false,some ⟨17,[],none,false⟩⟩]⟩,⟨[47,48,49],none,[],[⟨256,.other,false,some ⟨11,[.setEnt (.own 1)],none,false⟩⟩,⟨256,.ws,false,some ⟨11,[.setEnt (.own 1)],none,false⟩⟩,⟨256,.lf,false,some ⟨11,[.setEnt (.own 1)],none,false⟩⟩,⟨256,.vt,false,some ⟨11,[.setEnt (.own 1)],none,false⟩⟩,⟨256,.ff,false,some ⟨11,[.setEnt (.own 1)],none,false⟩⟩,⟨256,.cr,false,some ⟨11,[.setEnt (.own 1)],none,false⟩⟩,⟨256,.cr,true,some ⟨11,[.setEnt (.own 1)],none,false⟩⟩,⟨256,.other,false,some ⟨15,[.setEnt (.own 1)],none,false⟩⟩,⟨256,.other,false,some ⟨0,[.setEnt (.own 1)],some 3,true⟩⟩]⟩,⟨[22],none,[],[⟨256,.other,false,none⟩,⟨256,.ws,false,none⟩,⟨256,.lf,false,none⟩,⟨256,.vt,false,none⟩,⟨256,.ff,false,none⟩,⟨256,.cr,false,none⟩,⟨256,.cr,true,none⟩,⟨256,.other,false,some ⟨18,[],none,false⟩⟩]⟩,⟨[5],none,[],[⟨256,.other,false,some ⟨19,[],none,false⟩⟩,⟨256,.ws,false,some ⟨19,[],none,false⟩⟩,⟨256,.lf,false,some ⟨19,[],none,false⟩⟩,⟨256,.vt,false,some ⟨19,[],none,false⟩⟩,⟨256,.ff,false,some ⟨19,[],none,false⟩⟩,⟨256,.cr,false,some ⟨19,[],none,false⟩⟩,⟨256,.cr,true,some ⟨19,[],none,false⟩⟩,⟨256,.other,false,none⟩]⟩,⟨[23],none,[],[⟨256,.other,false,some ⟨20,[],none,false⟩⟩,⟨256,.ws,false,some ⟨20,[],none,false⟩⟩,⟨256,.lf,false,some ⟨20,[],none,false⟩⟩,⟨256,.vt,false,some ⟨20,[],none,false⟩⟩,⟨256,.ff,false,some ⟨20,[],none,false⟩⟩,⟨256,.cr,false,some ⟨20,[],none,false⟩⟩,⟨256,.cr,true,some ⟨20,[],none,false⟩⟩,⟨256,.other,false,none⟩]⟩,⟨[6],none,[],[⟨256,.other,false,some ⟨19,[],none,false⟩⟩,⟨256,.ws,false,some ⟨19,[],none,false⟩⟩,⟨256,.lf,false,some ⟨19,[],none,false⟩⟩,⟨256,.vt,false,some ⟨19,[],none,false⟩⟩,⟨256,.ff,false,some ⟨19,[],none,false⟩⟩,⟨256,.cr,false,some ⟨19,[],none,false⟩⟩,⟨256,.cr,true,some ⟨19,[],none,false⟩⟩,⟨256,.other,false,none⟩,⟨256,.other,false,some ⟨21,[],none,false⟩⟩]⟩,⟨[24],none,[],[⟨256,.other,false,some ⟨20,[],none,false⟩⟩,⟨256,.ws,false,some ⟨20,[],none,false⟩⟩,⟨256,.lf,false,some ⟨20,[],none,false⟩⟩,⟨256,.vt,false,some ⟨20,[],none,false⟩⟩,⟨256,.ff,false,some ⟨20,[],none,false⟩⟩,⟨256,.cr,false,some ⟨20,[],none,false⟩⟩,⟨256,.cr,true,some ⟨20,[],none,false⟩⟩,⟨256,.other,false,none⟩,⟨256,.other,false,some ⟨22,[],none,false⟩⟩]⟩,⟨[6,7],none,[],[⟨256,.other,false,some ⟨19,[],none,false⟩⟩,⟨256,.ws,false,some ⟨19,[],none,false⟩⟩,⟨256,.lf,false,some ⟨19,[],none,false⟩⟩,⟨256,.vt,false,some ⟨19,[],none,false⟩⟩,⟨256,.ff,false,some ⟨19,[],none,false⟩⟩,⟨256,.cr,false,some ⟨19,[],none,false⟩⟩,⟨256,.cr,true,some ⟨19,[],none,false⟩⟩,⟨256,.other,false,none⟩,⟨256,.other,false,some ⟨23,[],none,false⟩⟩,⟨256,.other,false,some ⟨21,[],none,false⟩⟩]⟩,⟨[24,25],none,[],[⟨256,.other,false,some ⟨20,[],none,false⟩⟩,⟨256,.ws,false,some ⟨20,[],none,false⟩⟩,⟨256,.lf,false,some ⟨20,[],none,false⟩⟩,⟨256,.vt,false,some ⟨20,[],none,false⟩⟩,⟨256,.ff,false,some ⟨20,[],none,false⟩⟩,⟨256,.cr,false,some ⟨20,[],none,false⟩⟩,⟨256,.cr,true,some ⟨20,[],none,false⟩⟩,⟨256,.other,false,none⟩,⟨256,.other,false,some ⟨24,[],none,false⟩⟩,⟨256,.other,false,some ⟨22,[],none,false⟩⟩]⟩,⟨[6,8],none,[],[⟨256,.other,false,some ⟨19,[],none,false⟩⟩,⟨256,.ws,false,some ⟨19,[],none,false⟩⟩,⟨256,.lf,false,some ⟨19,[],none,false⟩⟩,⟨256,.vt,false,some ⟨19,[],none,false⟩⟩,⟨256,.ff,false,some ⟨19,[],none,false⟩⟩,⟨256,.cr,false,some ⟨19,[],none,false⟩⟩,⟨256,.cr,true,some ⟨19,[],none,false⟩⟩,⟨256,.other,false,none⟩,⟨256,.other,false,some ⟨21,[],none,false⟩⟩,⟨256,.other,false,some ⟨25,[],none,false⟩⟩]⟩,⟨[24,26],none,[],[⟨256,.other,false,some ⟨20,[],none,false⟩⟩,⟨256,.ws,false,some ⟨20,[],none,false⟩⟩,⟨256,.lf,false,some ⟨20,[],none,false⟩⟩,⟨256,.vt,false,some ⟨20,[],none,false⟩⟩,⟨256,.ff,false,some ⟨20,[],none,false⟩⟩,⟨256,.cr,false,some ⟨20,[],none,false⟩⟩,⟨256,.cr,true,some ⟨20,[],none,false⟩⟩,⟨256,.other,false,none⟩,⟨256,.other,false,some ⟨22,[],none,false⟩⟩,⟨256,.other,false,some ⟨26,[],none,false⟩⟩]⟩,⟨[6,9],none,[],[⟨256,.other,false,some ⟨19,[],none,false⟩⟩,⟨256,.ws,false,some ⟨19,[],none,false⟩⟩,⟨256,.lf,false,some ⟨19,[],none,false⟩⟩,⟨256,.vt,false,some ⟨19,[],none,false⟩⟩,⟨256,.ff,false,some ⟨19,[],none,false⟩⟩,⟨256,.cr,false,some ⟨19,[],none,false⟩⟩,⟨256,.cr,true,some ⟨19,[],none,false⟩⟩,⟨256,.other,false,none⟩,⟨256,.other,false,some ⟨27,[],none,false⟩⟩]⟩,⟨[24,27],none,[],[⟨256,.other,false,some ⟨20,[],none,false⟩⟩,⟨256,.ws,false,some ⟨20,[],none,false⟩⟩,⟨256,.lf,false,some ⟨20,[],none,false⟩⟩,⟨256,.vt,false,some ⟨20,[],none,false⟩⟩,⟨256,.ff,false,some ⟨20,[],none,false⟩⟩,⟨256,.cr,false,some ⟨20,[],none,false⟩⟩,⟨256,.cr,true,some ⟨20,[],none,false⟩⟩,⟨256,.other,false,none⟩,⟨256,.other,false,some ⟨28,[],none,false⟩⟩]⟩,⟨[6,7,10],none,[],[⟨256,.other,false,some ⟨19,[],none,false⟩⟩,⟨256,.ws,false,some ⟨19,[],none,false⟩⟩,⟨256,.lf,false,some ⟨19,[],none,false⟩⟩,⟨256,.vt,false,some ⟨19,[],none,false⟩⟩,⟨256,.ff,false,some ⟨19,[],none,false⟩⟩,⟨256,.cr,false,some ⟨19,[],none,false⟩⟩,⟨256,.cr,true,some ⟨19,[],none,false⟩⟩,⟨256,.other,false,some ⟨29,[],none,false⟩⟩,⟨256,.other,false,none⟩,⟨256,.other,false,some ⟨23,[],none,false⟩⟩,⟨256,.other,false,some ⟨21,[],none,false⟩⟩]⟩,⟨[24,25,28],none,[],[⟨256,.other,false,some ⟨20,[],none,false⟩⟩,⟨256,.ws,false,some ⟨20,[],none,false⟩⟩,⟨256,.lf,false,some ⟨20,[],none,false⟩⟩,⟨256,.vt,false,some ⟨20,[],none,false⟩⟩,⟨256,.ff,false,some ⟨20,[],none,false⟩⟩,⟨256,.cr,false,some ⟨20,[],none,false⟩⟩,⟨256,.cr,true,some ⟨20,[],none,false⟩⟩,⟨256,.other,false,some ⟨30,[],none,false⟩⟩,⟨256,.other,false,none⟩,⟨256,.other,false,some ⟨24,[],none,false⟩⟩,⟨256,.other,false,some ⟨22,[],none,false⟩⟩]⟩,⟨[6,11],none,[],[⟨256,.other,false,some ⟨19,[],none,false⟩⟩,⟨256,.ws,false,some ⟨19,[],none,false⟩⟩,⟨256,.lf,false,some ⟨19,[],none,false⟩⟩,⟨256,.vt,false,some ⟨19,[],none,false⟩⟩,⟨256,.ff,false,some ⟨19,[],none,false⟩⟩,⟨256,.cr,false,some ⟨19,[],none,false⟩⟩,⟨256,.cr,true,some ⟨19,[],none,false⟩⟩,⟨256,.other,false,none⟩,⟨256,.other,false,some ⟨31,[],none,false⟩⟩,⟨256,.other,false,some ⟨21,[],none,false⟩⟩]⟩,⟨[24,29],none,[],[⟨256,.other,false,some ⟨20,[],none,false⟩⟩,⟨256,.ws,false,some ⟨20,[],none,false⟩⟩,⟨256,.lf,false,some ⟨20,[],none,false⟩⟩,⟨256,.vt,false,some ⟨20,[],none,false⟩⟩,⟨256,.ff,false,some ⟨20,[],none,false⟩⟩,⟨256,.cr,false,some ⟨20,[],none,false⟩⟩,⟨256,.cr,true,some ⟨20,[],none,false⟩⟩,⟨256,.other,false,none⟩,⟨256,.other,false,some ⟨32,[],none,false⟩⟩,⟨256,.other,false,some ⟨22,[],none,false⟩⟩]⟩,⟨[6,12],none,[],[⟨256,.other,false,some ⟨19,[],none,false⟩⟩,⟨256,.ws,false,some ⟨19,[],none,false⟩⟩,⟨256,.lf,false,some ⟨19,[],none,false⟩⟩,⟨256,.vt,false,some ⟨19,[],none,false⟩⟩,⟨256,.ff,false,some ⟨19,[],none,false⟩⟩,⟨256,.cr,false,some ⟨19,[],none,false⟩⟩,⟨256,.cr,true,some ⟨19,[],none,false⟩⟩,⟨256,.other,false,none⟩,⟨256,.other,false,some ⟨33,[],none,false⟩⟩,⟨256,.other,false,some ⟨21,[],none,false⟩⟩]⟩,⟨[24,30],none,[],[⟨256,.other,false,some ⟨20,[],none,false⟩⟩,⟨256,.ws,false,some ⟨20,[],none,false⟩⟩,⟨256,.lf,false,some ⟨20,[],none,false⟩⟩,⟨256,.vt,false,some ⟨20,[],none,false⟩⟩,⟨256,.ff,false,some ⟨20,[],none,false⟩⟩,⟨256,.cr,false,some ⟨20,[],none,false⟩⟩,⟨256,.cr,true,some ⟨20,[],none,false⟩⟩,⟨256,.other,false,none⟩,⟨256,.other,false,some ⟨34,[],none,false⟩⟩,⟨256,.other,false,some ⟨22,[],none,false⟩⟩]⟩,⟨[6,13],none,[],[⟨256,.other,false,some ⟨19,[],none,false⟩⟩,⟨256,.ws,false,some ⟨19,[],none,false⟩⟩,⟨256,.lf,false,some ⟨19,[],none,false⟩⟩,⟨256,.vt,false,some ⟨19,[],none,false⟩⟩,⟨256,.ff,false,some ⟨19,[],none,false⟩⟩,⟨256,.cr,false,some ⟨19,[],none,false⟩⟩,⟨256,.cr,true,some ⟨19,[],none,false⟩⟩,⟨256,.other,false,none⟩,⟨256,.other,false,some ⟨35,[],none,false⟩⟩,⟨256,.other,false,some ⟨21,[],none,false⟩⟩]⟩,⟨[24,31],none,[],[⟨256,.other,false,some ⟨20,[],none,false⟩⟩,⟨256,.ws,false,some ⟨20,[],none,false⟩⟩,⟨256,.lf,false,some ⟨20,[],none,false⟩⟩,⟨256,.vt,false,some ⟨20,[],none,false⟩⟩,⟨256,.ff,false,some ⟨20,[],none,false⟩⟩,⟨256,.cr,false,some ⟨20,[],none,false⟩⟩,⟨256,.cr,true,some ⟨20,[],none,false⟩⟩,⟨256,.other,false,none⟩,⟨256,.other,false,some ⟨22,[],none,false⟩⟩,⟨256,.other,false,some ⟨36,[],none,false⟩⟩]⟩,⟨[14],none,[],[⟨256,.other,false,some ⟨37,[],none,false⟩⟩,⟨256,.ws,false,some ⟨37,[],none,false⟩⟩,⟨256,.lf,false,some ⟨37,[],none,false⟩⟩,⟨256,.vt,false,some ⟨37,[],none,false⟩⟩,⟨256,.ff,false,some ⟨37,[],none,false⟩⟩,⟨256,.cr,false,some ⟨37,[],none,false⟩⟩,⟨256,.cr,true,some ⟨37,[],none,false⟩⟩,⟨256,.other,false,none⟩]⟩,⟨[24,32],none,[],[⟨256,.other,false,some ⟨20,[],none,false⟩⟩,⟨256,.ws,false,some ⟨20,[],none,false⟩⟩,⟨256,.lf,false,some ⟨20,[],none,false⟩⟩,⟨256,.vt,false,some ⟨20,[],none,false⟩⟩,⟨256,.ff,false,some ⟨20,[],none,false⟩⟩,⟨256,.cr,false,some ⟨20,[],none,false⟩⟩,⟨256,.cr,true,some ⟨20,[],none,false⟩⟩,⟨256,.other,false,none⟩,⟨256,.other,false,some ⟨38,[],none,false⟩⟩,⟨256,.other,false,some ⟨22,[],none,false⟩⟩]⟩,⟨[15],none,[],[⟨256,.other,false,some ⟨37,[],none,false⟩⟩,⟨256,.ws,false,some ⟨37,[],none,false⟩⟩,⟨256,.lf,false,some ⟨37,[],none,false⟩⟩,⟨256,.vt,false,some ⟨37,[],none,false⟩⟩,⟨256,.ff,false,some ⟨37,[],none,false⟩⟩,⟨256,.cr,false,some ⟨37,[],none,false⟩⟩,⟨256,.cr,true,some ⟨37,[],none,false⟩⟩,⟨256,.other,false,some ⟨0,[],some 0,true⟩⟩]⟩,⟨[24,33],none,[],[⟨256,.other,false,some ⟨20,[],none,false⟩⟩,⟨256,.ws,false,some ⟨20,[],none,false⟩⟩,⟨256,.lf,false,some ⟨20,[],none,false⟩⟩,⟨256,.vt,false,some ⟨20,[],none,false⟩⟩,⟨256,.ff,false,some ⟨20,[],none,false⟩⟩,⟨256,.cr,false,some ⟨20,[],none,false⟩⟩,⟨256,.cr,true,some ⟨20,[],none,false⟩⟩,⟨256,.other,false,none⟩,⟨256,.other,false,some ⟨39,[],none,false⟩⟩,⟨256,.other,false,some ⟨22,[],none,false⟩⟩]⟩,⟨[24,34],none,[],[⟨256,.other,false,some ⟨20,[],none,false⟩⟩,⟨256,.ws,false,some ⟨20,[],none,false⟩⟩,⟨256,.lf,false,some ⟨20,[],none,false⟩⟩,⟨256,.vt,false,some ⟨20,[],none,false⟩⟩,⟨256,.ff,false,some ⟨20,[],none,false⟩⟩,⟨256,.cr,false,some ⟨20,[],none,false⟩⟩,⟨256,.cr,true,some ⟨20,[],none,false⟩⟩,⟨256,.other,false,none⟩,⟨256,.other,false,some ⟨40,[],none,false⟩⟩,⟨256,.other,false,some ⟨22,[],none,false⟩⟩]⟩,⟨[24,35],none,[],[⟨256,.other,false,some ⟨20,[],none,false⟩⟩,⟨256,.ws,false,some ⟨20,[],none,false⟩⟩,⟨256,.lf,false,some ⟨20,[],none,false⟩⟩,⟨256,.vt,false,some ⟨20,[],none,false⟩⟩,⟨256,.ff,false,some ⟨20,[],none,false⟩⟩,⟨256,.cr,false,some ⟨20,[],none,false⟩⟩,⟨256,.cr,true,some ⟨20,[],none,false⟩⟩,⟨256,.other,false,none⟩,⟨256,.other,false,some ⟨41,[],none,false⟩⟩,⟨256,.other,false,some ⟨22,[],none,false⟩⟩]⟩,⟨[24,36],none,[],[⟨256,.other,false,some ⟨20,[],none,false⟩⟩,⟨256,.ws,false,some ⟨20,[],none,false⟩⟩,⟨256,.lf,false,some ⟨20,[],none,false⟩⟩,⟨256,.vt,false,some ⟨20,[],none,false⟩⟩,⟨256,.ff,false,some ⟨20,[],none,false⟩⟩,⟨256,.cr,false,some ⟨20,[],none,false⟩⟩,⟨256,.cr,true,some ⟨20,[],none,false⟩⟩,⟨256,.other,false,none⟩,⟨256,.other,false,some ⟨42,[],none,false⟩⟩,⟨256,.other,false,some ⟨22,[],none,false⟩⟩]⟩,⟨[24,37],none,[],[⟨256,.other,false,some ⟨20,[],none,false⟩⟩,⟨256,.ws,false,some ⟨20,[],none,false⟩⟩,⟨256,.lf,false,some ⟨20,[],none,false⟩⟩,⟨256,.vt,false,some ⟨20,[],none,false⟩⟩,⟨256,.ff,false,some ⟨20,[],none,false⟩⟩,⟨256,.cr,false,some ⟨20,[],none,false⟩⟩,⟨256,.cr,true,some ⟨20,[],none,false⟩⟩,⟨256,.other,false,none⟩,⟨256,.other,false,some ⟨43,[],none,false⟩⟩,⟨256,.other,false,some ⟨22,[],none,false⟩⟩]⟩,⟨[24,38],none,[],[⟨256,.other,false,some ⟨20,[],none,false⟩⟩,⟨256,.ws,false,some ⟨20,[],none,false⟩⟩,⟨256,.lf,false,some ⟨20,[],none,false⟩⟩,⟨256,.vt,false,some ⟨20,[],none,false⟩⟩,⟨256,.ff,false,some ⟨20,[],none,false⟩⟩,⟨256,.cr,false,some ⟨20,[],none,false⟩⟩,⟨256,.cr,true,some ⟨20,[],none,false⟩⟩,⟨256,.other,false,none⟩,⟨256,.other,false,some ⟨44,[],none,false⟩⟩]⟩,⟨[39],none,[],[⟨256,.other,false,some ⟨45,[],none,false⟩⟩,⟨256,.ws,false,some ⟨45,[],none,false⟩⟩,⟨256,.lf,false,some ⟨45,[],none,false⟩⟩,⟨256,.vt,false,some ⟨45,[],none,false⟩⟩,⟨256,.ff,false,some ⟨45,[],none,false⟩⟩,⟨256,.cr,false,some ⟨45,[],none,false⟩⟩,⟨256,.cr,true,some ⟨45,[],none,false⟩⟩,⟨256,.other,false,none⟩]⟩,⟨[40],none,[],[⟨256,.other,false,some ⟨45,[],none,false⟩⟩,⟨256,.ws,false,some ⟨45,[],none,false⟩⟩,⟨256,.lf,false,some ⟨45,[],none,false⟩⟩,⟨256,.vt,false,some ⟨45,[],none,false⟩⟩,⟨256,.ff,false,some ⟨45,[],none,false⟩⟩,⟨256,.cr,false,some ⟨45,[],none,false⟩⟩,⟨256,.cr,true,some ⟨45,[],none,false⟩⟩,⟨256,.other,false,some ⟨0,[],some 1,true⟩⟩]⟩]
theorem emb5_rowsOk : rowsOk emb5_nfa [] (emb5_cs.map (·.1)) emb5_rows = true := by decide +kernel
def emb5_D : Dfa emb5_nfa := ⟨emb5_masks, [], emb5_cs, emb5_rows, emb5_masksIn, emb5_repOk, emb5_rowsOk⟩
def emb5_maskst : List Nat := [1152921504606846976,4294983168,115792089237316195423570985008687907853269984665640564039457584007908834656767,41538374877950027585161004031410176,83076749755900055170322008062820352,2658455992188801765450304258010251264,324518553733984590509070343995392,2535301201046754613352112062464,115792089237316195423570985008687907853269984665640564039452972321894702252031,83076749736557242056487941267521536,2535301200456458802993406410752,1329227995784915872903807060280344576,140737488355328,633825300114114700748351602688,41538374868278621028243970633760768,4611686018427387904,633825300261688653338028015616,20769187438975013792580502015705088,40564819216748073813633792999424,5192296859743753448145125503926272,81129638414606681695789005144064,158456325028528675187087900672,332306998946228968225951765070086144,20769187434139310514121985316880384,40564819207303340847894502572032,5192296858534827628530496329220096,8589934592,35184372088832,115792089237316195423570985008687907853269984665640564039457584007913129639935]
def emb5_cst : List (Nat × Nat) := [(0,115792089237316195423570985008687907853265513648504117332318924992362005381631),(9,4294967808),(10,1024),(11,2048),(12,4096),(13,8192),(33,8589934592),(45,35184372088832),(47,140737488355328),(60,1152921504606846976),(62,4611686018427387904),(67,147573952589676412928),(69,590295810358705651712),(73,9444732965739290427392),(76,324518553733984590509070343995392),(80,1208925819614629174706176),(82,4835703278458516698824704),(83,9671406556917033397649408),(84,19342813113834066795298816),(89,2658455992188801765450304258010251264),(97,158456325028528675187087900672),(99,633825300114114700748351602688),(101,2535301200456458802993406410752),(105,40564819207303340847894502572032),(106,81129638414606681695789005144064),(112,5192296858534827628530496329220096),(114,20769187434139310514121985316880384),(115,41538374868278621028243970633760768),(116,83076749736557242056487941267521536),(118,332306998946228968225951765070086144),(120,1329227995784915872903807060280344576)]
theorem emb5_masksInt : masksIn emb5_nfa emb5_maskst = true := by decide +kernel
theorem emb5_repOkt : repOk emb5_maskst emb5_cst = true := by decide +kernel
def emb5_rowst : List Row := [⟨[],none,[],[⟨256,.other,false,some ⟨0,[],some 4,true⟩⟩,⟨256,.ws,false,some ⟨1,[.setEnt (.own 0)],some 2,false⟩⟩,⟨256,.lf,false,some ⟨1,[.setEnt (.own 0)],some 2,false⟩⟩,⟨256,.vt,false,some ⟨1,[.setEnt (.own 0)],some 2,false⟩⟩,⟨256,.ff,false,some ⟨1,[.setEnt (.own 0)],some 2,false⟩⟩,⟨256,.cr,false,some ⟨1,[.setEnt (.own 0)],some 2,false⟩⟩,⟨256,.cr,true,some ⟨1,[.setEnt (.own 0)],some 2,false⟩⟩,⟨47,.other,false,some ⟨0,[],some 4,true⟩⟩,⟨60,.other,false,some ⟨2,[.setEnt (.own 1)],some 4,false⟩⟩,⟨62,.other,false,some ⟨0,[],some 4,true⟩⟩]⟩,⟨[42],some 2,[],[⟨256,.other,false,none⟩,⟨256,.ws,false,some ⟨1,[.setEnt (.own 0)],some 2,false⟩⟩,⟨256,.lf,false,some ⟨1,[.setEnt (.own 0)],some 2,false⟩⟩,⟨256,.vt,false,some ⟨1,[.setEnt (.own 0)],some 2,false⟩⟩,⟨256,.ff,false,some ⟨1,[.setEnt (.own 0)],some 2,false⟩⟩,⟨256,.cr,false,some ⟨1,[.setEnt (.own 0)],some 2,false⟩⟩,⟨256,.cr,true,some ⟨1,[.setEnt (.own 0)],some 2,false⟩⟩,⟨47,.other,false,none⟩,⟨60,.other,false,none⟩,⟨62,.other,false,none⟩]⟩,⟨[0,17,43,51],some 4,[],[⟨256,.other,false,none⟩,⟨256,.ws,false,none⟩,⟨256,.lf,false,none⟩,⟨256,.vt,false,none⟩,⟨256,.ff,false,none⟩,⟨256,.cr,false,none⟩,⟨256,.cr,true,none⟩,⟨256,.other,false,some ⟨3,[.setEnt (.own 1)],none,false⟩⟩,⟨47,.other,false,none⟩,⟨60,.other,false,none⟩,⟨62,.other,false,none⟩,⟨256,.other,false,some ⟨4,[],none,false⟩⟩]⟩,⟨[44],none,[],[⟨256,.other,false,none⟩,⟨256,.ws,false,none⟩,⟨256,.lf,false,none⟩,⟨256,.vt,false,none⟩,⟨256,.ff,false,none⟩,⟨256,.cr,false,none⟩,⟨256,.cr,true,none⟩,⟨256,.other,false,some ⟨5,[.setEnt (.own 1)],none,false⟩⟩,⟨47,.other,false,none⟩,⟨60,.other,false,none⟩,⟨62,.other,false,none⟩]⟩,⟨[1,18],none,[],[⟨256,.other,false,none⟩,⟨256,.ws,false,none⟩,⟨256,.lf,false,none⟩,⟨256,.vt,false,none⟩,⟨256,.ff,false,none⟩,⟨256,.cr,false,none⟩,⟨256,.cr,true,none⟩,⟨47,.other,false,none⟩,⟨60,.other,false,none⟩,⟨62,.other,false,none⟩,⟨256,.other,false,some ⟨6,[],none,false⟩⟩,⟨256,.other,false,some ⟨7,[],none,false⟩⟩]⟩,⟨[45],none,[],[⟨256,.other,false,none⟩,⟨256,.ws,false,none⟩,⟨256,.lf,false,none⟩,⟨256,.vt,false,none⟩,⟨256,.ff,false,none⟩,⟨256,.cr,false,none⟩,⟨256,.cr,true,none⟩,⟨256,.other,false,some ⟨8,[.setEnt (.own 1)],none,false⟩⟩,⟨47,.other,false,none⟩,⟨60,.other,false,none⟩,⟨62,.other,false,none⟩]⟩,⟨[19],none,[],[⟨256,.other,false,none⟩,⟨256,.ws,false,none⟩,⟨256,.lf,false,none⟩,⟨256,.vt,false,none⟩,⟨256,.ff,false,none⟩,⟨256,.cr,false,none⟩,⟨256,.cr,true,none⟩,⟨47,.other,false,none⟩,⟨60,.other,false,none⟩,⟨62,.other,false,none⟩,⟨256,.other,false,some ⟨9,[],none,false⟩⟩]⟩,⟨[2],none,[],[⟨256,.other,false,none⟩,⟨256,.ws,false,none⟩,⟨256,.lf,false,none⟩,⟨256,.vt,false,none⟩,⟨256,.ff,false,none⟩,⟨256,.cr,false,none⟩,⟨256,.cr,true,none⟩,⟨47,.other,false,none⟩,⟨60,.other,false,none⟩,⟨62,.other,false,none⟩,⟨256,.other,false,some ⟨10,[],none,false⟩⟩]⟩,⟨[46],none,[],[⟨256,.other,false,some ⟨11,[.setEnt (.own 1)],none,false⟩⟩,⟨256,.ws,false,some ⟨11,[.setEnt (.own 1)],none,false⟩⟩,⟨256,.lf,false,some ⟨11,[.setEnt (.own 1)],none,false⟩⟩,⟨256,.vt,false,some ⟨11,[.setEnt (.own 1)],none,false⟩⟩,⟨256,.ff,false,some ⟨11,[.setEnt (.own 1)],none,false⟩⟩,⟨256,.cr,false,some ⟨11,[.setEnt (.own 1)],none,false⟩⟩,⟨256,.cr,true,some ⟨11,[.setEnt (.own 1)],none,false⟩⟩,⟨256,.other,false,some ⟨12,[.setEnt (.own 1)],none,false⟩⟩,⟨47,.other,false,some ⟨11,[.setEnt (.own 1)],none,false⟩⟩,⟨60,.other,false,some ⟨11,[.setEnt (.own 1)],none,false⟩⟩,⟨62,.other,false,some ⟨11,[.setEnt (.own 1)],none,false⟩⟩]⟩,⟨[20],none,[],[⟨256,.other,false,none⟩,⟨256,.ws,false,none⟩,⟨256,.lf,false,none⟩,⟨256,.vt,false,none⟩,⟨256,.ff,false,none⟩,⟨256,.cr,false,none⟩,⟨256,.cr,true,none⟩,⟨47,.other,false,none⟩,⟨60,.other,false,none⟩,⟨62,.other,false,none⟩,⟨256,.other,false,some ⟨13,[],none,false⟩⟩]⟩,⟨[3],none,[],[⟨256,.other,false,none⟩,⟨256,.ws,false,none⟩,⟨256,.lf,false,none⟩,⟨256,.vt,false,none⟩,⟨256,.ff,false,none⟩,⟨256,.cr,false,none⟩,⟨256,.cr,true,none⟩,⟨47,.other,false,none⟩,⟨60,.other,false,none⟩,⟨62,.other,false,none⟩,⟨256,.other,false,some ⟨14,[],none,false⟩⟩]⟩,⟨[47],none,[],[⟨256,.other,false,some ⟨11,[.setEnt (.own 1)],none,false⟩⟩,⟨256,.ws,false,some ⟨11,[.setEnt (.own 1)],none,false⟩⟩,⟨256,.lf,false,some ⟨11,[.setEnt (.own 1)],none,false⟩⟩,⟨256,.vt,false,some ⟨11,[.setEnt (.own 1)],none,false⟩⟩,⟨256,.ff,false,some ⟨11,[.setEnt (.own 1)],none,false⟩⟩,⟨256,.cr,false,some ⟨11,[.setEnt (.own 1)],none,false⟩⟩,⟨256,.cr,true,some ⟨11,[.setEnt (.own 1)],none,false⟩⟩,⟨256,.other,false,some ⟨12,[.setEnt (.own 1)],none,false⟩⟩,⟨47,.other,false,some ⟨11,[.setEnt (.own 1)],none,false⟩⟩,⟨60,.other,false,some ⟨11,[.setEnt (.own 1)],none,false⟩⟩,⟨62,.other,false,some ⟨11,[.setEnt (.own 1)],none,false⟩⟩]⟩,⟨[47,48],none,[],[⟨256,.other,false,some ⟨11,[.setEnt (.own 1)],none,false⟩⟩,⟨256,.ws,false,some ⟨11,[.setEnt (.own 1)],none,false⟩⟩,⟨256,.lf,false,some ⟨11,[.setEnt (.own 1)],none,false⟩⟩,⟨256,.vt,false,some ⟨11,[.setEnt (.own 1)],none,false⟩⟩,⟨256,.ff,false,some ⟨11,[.setEnt (.own 1)],none,false⟩⟩,⟨256,.cr,false,some ⟨11,[.setEnt (.own 1)],none,false⟩⟩,⟨256,.cr,true,some ⟨11,[.setEnt (.own 1)],none,false⟩⟩,⟨256,.other,false,some ⟨15,[.setEnt (.own 1)],none,false⟩⟩,⟨47,.other,false,some ⟨11,[.setEnt (.own 1)],none,false⟩⟩,⟨60,.other,false,some ⟨11,[.setEnt (.own 1)],none,false⟩⟩,⟨62,.other,false,some ⟨11,[.setEnt (.own 1)],none,false⟩⟩]⟩,⟨[21],none,[],[⟨256,.other,false,none⟩,⟨256,.ws,false,none⟩,⟨256,.lf,false,none⟩,⟨256,.vt,false,none⟩,⟨256,.ff,false,none⟩,⟨256,.cr,false,none⟩,⟨256,.cr,true,none⟩,⟨47,.other,false,none⟩,⟨60,.other,false,none⟩,⟨62,.other,false,none⟩,⟨256,.other,false,some ⟨16,[],none,false⟩⟩]⟩,⟨[4],none,[],[⟨256,.other,false,none⟩,⟨256,.ws,false,none⟩,⟨256,.lf,false,none⟩,⟨256,.vt,false,none⟩,⟨256,.ff,false,none⟩,⟨256,.cr,false,none⟩,⟨256,.cr,true,none⟩,⟨47,.other,false,none⟩,⟨60,.other,false,none⟩,⟨62,.other,false,none⟩,⟨256,.other,false,some ⟨17,[],none,false⟩⟩]⟩,⟨[47,48,49],none,[],[⟨256,.other,false,some ⟨11,[.setEnt (.own 1)],none,false⟩⟩,⟨256,.ws,false,some ⟨11,[.setEnt (.own 1)],none,false⟩⟩,⟨256,.lf,false,some ⟨11,[.setEnt (.own 1)],none,false⟩⟩,⟨256,.vt,false,some ⟨11,[.setEnt (.own 1)],none,false⟩⟩,⟨256,.ff,false,some ⟨11,[.setEnt (.own 1)],none,false⟩⟩,⟨256,.cr,false,some ⟨11,[.setEnt (.own 1)],none,false⟩⟩,⟨256,.cr,true,some ⟨11,[.setEnt (.own 1)],none,false⟩⟩,⟨256,.other,false,some ⟨15,[.setEnt (.own 1)],none,false⟩⟩,⟨47,.other,false,some ⟨11,[.setEnt (.own 1)],none,false⟩⟩,⟨60,.other,false,some ⟨11,[.setEnt (.own 1)],none,false⟩⟩,⟨62,.other,false,some ⟨0,[.setEnt (.own 1)],some 3,true⟩⟩]⟩,⟨[22],none,[],[⟨256,.other,false,none⟩,⟨256,.ws,false,none⟩,⟨256,.lf,false,none⟩,⟨256,.vt,false,none⟩,⟨256,.ff,false,none⟩,⟨256,.cr,false,none⟩,⟨256,.cr,true,none⟩,⟨47,.other,false,none⟩,⟨60,.other,false,none⟩,⟨62,.other,false,none⟩,⟨256,.other,false,some ⟨18,[],none,false⟩⟩]⟩,⟨[5],none,[],[⟨256,.other,false,some ⟨19,[],none,false⟩⟩,⟨256,.ws,false,some ⟨19,[],none,false⟩⟩,⟨256,.lf,false,some ⟨19,[],none,false⟩⟩,⟨256,.vt,false,some ⟨19,[],none,false⟩⟩,⟨256,.ff,false,some ⟨19,[],none,false⟩⟩,⟨256,.cr,false,some ⟨19,[],none,false⟩⟩,⟨256,.cr,true,some ⟨19,[],none,false⟩⟩,⟨47,.other,false,some ⟨19,[],none,false⟩⟩,⟨60,.other,false,some ⟨19,[],none,false⟩⟩,⟨62,.other,false,none⟩]⟩,⟨[23],none,[],[⟨256,.other,false,some ⟨20,[],none,false⟩⟩,⟨256,.ws,false,some ⟨20,[],none,false⟩⟩,⟨256,.lf,false,some ⟨20,[],none,false⟩⟩,⟨256,.vt,false,some ⟨20,[],none,false⟩⟩,⟨256,.ff,false,some ⟨20,[],none,false⟩⟩,⟨256,.cr,false,some ⟨20,[],none,false⟩⟩,⟨256,.cr,true,some ⟨20,[],none,false⟩⟩,⟨47,.other,false,some ⟨20,[],none,false⟩⟩,⟨60,.other,false,some ⟨20,[],none,false⟩⟩,⟨62,.other,false,none⟩]⟩,⟨[6],none,[],[⟨256,.other,false,some ⟨19,[],none,false⟩⟩,⟨256,.ws,false,some ⟨19,[],none,false⟩⟩,⟨256,.lf,false,some ⟨19,[],none,false⟩⟩,⟨256,.vt,false,some ⟨19,[],none,false⟩⟩,⟨256,.ff,false,some ⟨19,[],none,false⟩⟩,⟨256,.cr,false,some ⟨19,[],none,false⟩⟩,⟨256,.cr,true,some ⟨19,[],none,false⟩⟩,⟨47,.other,false,some ⟨19,[],none,false⟩⟩,⟨60,.other,false,some ⟨19,[],none,false⟩⟩,⟨62,.other,false,none⟩,⟨256,.other,false,some ⟨21,[],none,false⟩⟩]⟩,⟨[24],none,[],[⟨256,.other,false,some ⟨20,[],none,false⟩⟩,⟨256,.ws,false,some ⟨20,[],none,false⟩⟩,⟨256,.lf,false,some ⟨20,[],none,false⟩⟩,⟨256,.vt,false,some ⟨20,[],none,false⟩⟩,⟨256,.ff,false,some ⟨20,[],none,false⟩⟩,⟨256,.cr,false,some ⟨20,[],none,false⟩⟩,⟨256,.cr,true,some ⟨20,[],none,false⟩⟩,⟨47,.other,false,some ⟨20,[],none,false⟩⟩,⟨60,.other,false,some ⟨20,[],none,false⟩⟩,⟨62,.other,false,none⟩,⟨256,.other,false,some ⟨22,[],none,false⟩⟩]⟩,⟨[6,7],none,[],[⟨256,.other,false,some ⟨19,[],none,false⟩⟩,⟨256,.ws,false,some ⟨19,[],none,false⟩⟩,⟨256,.lf,false,some ⟨19,[],none,false⟩⟩,⟨256,.vt,false,some ⟨19,[],none,false⟩⟩,⟨256,.ff,false,some ⟨19,[],none,false⟩⟩,⟨256,.cr,false,some ⟨19,[],none,false⟩⟩,⟨256,.cr,true,some ⟨19,[],none,false⟩⟩,⟨47,.other,false,some ⟨19,[],none,false⟩⟩,⟨60,.other,false,some ⟨19,[],none,false⟩⟩,⟨62,.other,false,none⟩,⟨256,.other,false,some ⟨23,[],none,false⟩⟩,⟨256,.other,false,some ⟨21,[],none,false⟩⟩]⟩,⟨[24,25],none,[],[⟨256,.other,false,some ⟨20,[],none,false⟩⟩,⟨256,.ws,false,some ⟨20,[],none,false⟩⟩,⟨256,.lf,false,some ⟨20,[],none,false⟩⟩,⟨256,.vt,false,some ⟨20,[],none,false⟩⟩,⟨256,.ff,false,some ⟨20,[],none,false⟩⟩,⟨256,.cr,false,some ⟨20,[],none,false⟩⟩,⟨256,.cr,true,some ⟨20,[],none,false⟩⟩,⟨47,.other,false,some ⟨20,[],none,false⟩⟩,⟨60,.other,false,some ⟨20,[],none,false⟩⟩,⟨62,.other,false,none⟩,⟨256,.other,false,some ⟨24,[],none,false⟩⟩,⟨256,.other,false,some ⟨22,[],none,false⟩⟩]⟩,⟨[6,8],none,[],[⟨256,.other,false,some ⟨19,[],none,false⟩⟩,⟨256,.ws,false,some ⟨19,[],none,false⟩⟩,⟨256,.lf,false,some ⟨19,[],none,false⟩⟩,⟨256,.vt,false,some ⟨19,[],none,false⟩⟩,⟨256,.ff,false,some ⟨19,[],none,false⟩⟩,⟨256,.cr,false,some ⟨19,[],none,false⟩⟩,⟨256,.cr,true,some ⟨19,[],none,false⟩⟩,⟨47,.other,false,some ⟨19,[],none,false⟩⟩,⟨60,.other,false,some ⟨19,[],none,false⟩⟩,⟨62,.other,false,none⟩,⟨256,.other,false,some ⟨21,[],none,false⟩⟩,⟨256,.other,false,some ⟨25,[],none,false⟩⟩]⟩,⟨[24,26],none,[],[⟨256,.other,false,some ⟨20,[],none,false⟩⟩,⟨256,.ws,false,some ⟨20,[],none,false⟩⟩,⟨256,.lf,false,some ⟨20,[],none,false⟩⟩,⟨256,.vt,false,some ⟨20,[],none,false⟩⟩,⟨256,.ff,false,some ⟨20,[],none,false⟩⟩,⟨256,.cr,false,some ⟨20,[],none,false⟩⟩,⟨256,.cr,true,some ⟨20,[],none,false⟩⟩,⟨47,.other,false,some ⟨20,[],none,false⟩⟩,⟨60,.other,false,some ⟨20,[],none,false⟩⟩,⟨62,.other,false,none⟩,⟨256,.other,false,some ⟨22,[],none,false⟩⟩,⟨256,.other,false,some ⟨26,[],none,false⟩⟩]⟩,⟨[6,9],none,[],[⟨256,.other,false,some ⟨19,[],none,false⟩⟩,⟨256,.ws,false,some ⟨19,[],none,false⟩⟩,⟨256,.lf,false,some ⟨19,[],none,false⟩⟩,⟨256,.vt,false,some ⟨19,[],none,false⟩⟩,⟨256,.ff,false,some ⟨19,[],none,false⟩⟩,⟨256,.cr,false,some ⟨19,[],none,false⟩⟩,⟨256,.cr,true,some ⟨19,[],none,false⟩⟩,⟨47,.other,false,some ⟨19,[],none,false⟩⟩,⟨60,.other,false,some ⟨19,[],none,false⟩⟩,⟨62,.other,false,none⟩,⟨256,.other,false,some ⟨27,[],none,false⟩⟩]⟩,⟨[24,27],none,[],[⟨256,.other,false,some ⟨20,[],none,false⟩⟩,⟨256,.ws,false,some ⟨20,[],none,false⟩⟩,⟨256,.lf,false,some ⟨20,[],none,false⟩⟩,⟨256,.vt,false,some ⟨20,[],none,false⟩⟩,⟨256,.ff,false,some ⟨20,[],none,false⟩⟩,⟨256,.cr,false,some ⟨20,[],none,false⟩⟩,⟨256,.cr,true,some ⟨20,[],none,false⟩⟩,⟨47,.other,false,some ⟨20,[],none,false⟩⟩,⟨60,.other,false,some ⟨20,[],none,false⟩⟩,⟨62,.other,false,none⟩,⟨256,.other,false,some ⟨28,[],none,false⟩⟩]⟩,⟨[6,7,10],none,[],[⟨256,.other,false,some ⟨19,[],none,false⟩⟩,⟨256,.ws,false,some ⟨19,[],none,false⟩⟩,⟨256,.lf,false,some ⟨19,[],none,false⟩⟩,⟨256,.vt,false,some ⟨19,[],none,false⟩⟩,⟨256,.ff,false,some ⟨19,[],none,false⟩⟩,⟨256,.cr,false,some ⟨19,[],none,false⟩⟩,⟨256,.cr,true,some ⟨19,[],none,false⟩⟩,⟨47,.other,false,some ⟨29,[],none,false⟩⟩,⟨60,.other,false,some ⟨19,[],none,false⟩⟩,⟨62,.other,false,none⟩,⟨256,.other,false,some ⟨23,[],none,false⟩⟩,⟨256,.other,false,some ⟨21,[],none,false⟩⟩]⟩,⟨[24,25,28],none,[],[⟨256,.other,false,some ⟨20,[],none,false⟩⟩,⟨256,.ws,false,some ⟨20,[],none,false⟩⟩,⟨256,.lf,false,some ⟨20,[],none,false⟩⟩,⟨256,.vt,false,some ⟨20,[],none,false⟩⟩,⟨256,.ff,false,some ⟨20,[],none,false⟩⟩,⟨256,.cr,false,some ⟨20,[],none,false⟩⟩,⟨256,.cr,true,some ⟨20,[],none,false⟩⟩,⟨47,.other,false,some ⟨30,[],none,false⟩⟩,⟨60,.other,false,some ⟨20,[],none,false⟩⟩,⟨62,.other,false,none⟩,⟨256,.other,false,some ⟨24,[],none,false⟩⟩,⟨256,.other,false,some ⟨22,[],none,false⟩⟩]⟩,⟨[6,11],none,[],[⟨256,.other,false,some ⟨19,[],none,false⟩⟩,⟨256,.ws,false,some ⟨19,[],none,false⟩⟩,⟨256,.lf,false,some ⟨19,[],none,false⟩⟩,⟨256,.vt,false,some ⟨19,[],none,false⟩⟩,⟨256,.ff,false,some ⟨19,[],none,false⟩⟩,⟨256,.cr,false,some ⟨19,[],none,false⟩⟩,⟨256,.cr,true,some ⟨19,[],none,false⟩⟩,⟨47,.other,false,some ⟨19,[],none,false⟩⟩,⟨60,.other,false,some ⟨19,[],none,false⟩⟩,⟨62,.other,false,none⟩,⟨256,.other,false,some ⟨31,[],none,false⟩⟩,⟨256,.other,false,some ⟨21,[],none,false⟩⟩]⟩,⟨[24,29],none,[],[⟨256,.other,false,some ⟨20,[],none,false⟩⟩,⟨256,.ws,false,some ⟨20,[],none,false⟩⟩,⟨256,.lf,false,some ⟨20,[],none,false⟩⟩,⟨256,.vt,false,some ⟨20,[],none,false⟩⟩,⟨256,.ff,false,some ⟨20,[],none,false⟩⟩,⟨256,.cr,false,some ⟨20,[],none,false⟩⟩,⟨256,.cr,true,some ⟨20,[],none,false⟩⟩,⟨47,.other,false,some ⟨20,[],none,false⟩⟩,⟨60,.other,false,some ⟨20,[],none,false⟩⟩,⟨62,.other,false,none⟩,⟨256,.other,false,some ⟨32,[],none,false⟩⟩,⟨256,.other,false,some ⟨22,[],none,false⟩⟩]⟩,⟨[6,12],none,[],[⟨256,.other,false,some ⟨19,[],none,false⟩⟩,⟨256,.ws,false,some ⟨19,[],none,false⟩⟩,⟨256,.lf,false,some ⟨19,[],none,false⟩⟩,⟨256,.vt,false,some ⟨19,[],none,false⟩⟩,⟨256,.ff,false,some ⟨19,[],none,false⟩⟩,⟨256,.cr,false,some ⟨19,[],none,false⟩⟩,⟨256,.cr,true,some ⟨19,[],none,false⟩⟩,⟨47,.other,false,some ⟨19,[],none,false⟩⟩,⟨60,.other,false,some ⟨19,[],none,false⟩⟩,⟨62,.other,false,none⟩,⟨256,.other,false,some ⟨33,[],none,false⟩⟩,⟨256,.other,false,some ⟨21,[],none,false⟩⟩]⟩,⟨[24,30],none,[],[⟨256,.other,false,some ⟨20,[],none,false⟩⟩,⟨256,.ws,false,some ⟨20,[],none,false⟩⟩,⟨256,.lf,false,some ⟨20,[],none,false⟩⟩,⟨256,.vt,false,some ⟨20,[],none,false⟩⟩,⟨256,.ff,false,some ⟨20,[],none,false⟩⟩,⟨256,.cr,false,some ⟨20,[],none,false⟩⟩,⟨256,.cr,true,some ⟨20,[],none,false⟩⟩,⟨47,.other,false,some ⟨20,[],none,false⟩⟩,⟨60,.other,false,some ⟨20,[],none,false⟩⟩,⟨62,.other,false,none⟩,⟨256,.other,false,some ⟨34,[],none,false⟩⟩,⟨256,.other,false,some ⟨22,[],none,false⟩⟩]⟩,⟨[6,13],none,[],[⟨256,.other,false,some ⟨19,[],none,false⟩⟩,⟨256,.ws,false,some ⟨19,[],none,false⟩⟩,⟨256,.lf,false,some ⟨19,[],none,false⟩⟩,⟨256,.vt,false,some ⟨19,[],none,false⟩⟩,⟨256,.ff,false,some ⟨19,[],none,false⟩⟩,⟨256,.cr,false,some ⟨19,[],none,false⟩⟩,⟨256,.cr,true,some ⟨19,[],none,false⟩⟩,⟨47,.other,false,some ⟨19,[],none,false⟩⟩,⟨60,.other,false,some ⟨19,[],none,false⟩⟩,⟨62,.other,false,none⟩,⟨256,.other,false,some ⟨35,[],none,false⟩⟩,⟨256,.other,false,some ⟨21,[],none,false⟩⟩]⟩,⟨[24,31],none,[],[⟨256,.other,false,some ⟨20,[],none,false⟩⟩,⟨256,.ws,false,some ⟨20,[],none,false⟩⟩,⟨256,.lf,false,some ⟨20,[],none,false⟩⟩,⟨256,.vt,false,some ⟨20,[],none,false⟩⟩,⟨256,.ff,false,some ⟨20,[],none,false⟩⟩,⟨256,.cr,false,some ⟨20,[],none,false⟩⟩,⟨256,.cr,true,some ⟨20,[],none,false⟩⟩,⟨47,.other,false,some ⟨20,[],none,false⟩⟩,⟨60,.other,false,some ⟨20,[],none,false⟩⟩,⟨62,.other,false,none⟩,⟨256,.other,false,some ⟨22,[],none,false⟩⟩,⟨256,.other,false,some ⟨36,[],none,false⟩⟩]⟩,⟨[14],none,[],[⟨256,.other,false,some ⟨37,[],none,false⟩⟩,⟨256,.ws,false,some ⟨37,[],none,false⟩⟩,⟨256,.lf,false,some ⟨37,[],none,false⟩⟩,⟨256,.vt,false,some ⟨37,[],none,false⟩⟩,⟨256,.ff,false,some ⟨37,[],none,false⟩⟩,⟨256,.cr,false,some ⟨37,[],none,false⟩⟩,⟨256,.cr,true,some ⟨37,[],none,false⟩⟩,⟨47,.other,false,some ⟨37,[],none,false⟩⟩,⟨60,.other,false,some ⟨37,[],none,false⟩⟩,⟨62,.other,false,none⟩]⟩,⟨[24,32],none,[],[⟨256,.other,false,some ⟨20,[],none,false⟩⟩,⟨256,.ws,false,some ⟨20,[],none,false⟩⟩,⟨256,.lf,false,some ⟨20,[],none,false⟩⟩,⟨256,.vt,false,some ⟨20,[],none,false⟩⟩,⟨256,.ff,false,some ⟨20,[],none,false⟩⟩,⟨256,.cr,false,some ⟨20,[],none,false⟩⟩,⟨256,.cr,true,some ⟨20,[],none,false⟩⟩,⟨47,.other,false,some ⟨20,[],none,false⟩⟩,⟨60,.other,false,some ⟨20,[],none,false⟩⟩,⟨62,.other,false,none⟩,⟨256,.other,false,some ⟨38,[],none,false⟩⟩,⟨256,.other,false,some ⟨22,[],none,false⟩⟩]⟩,⟨[15],none,[],[⟨256,.other,false,some ⟨37,[],none,false⟩⟩,⟨256,.ws,false,some ⟨37,[],none,false⟩⟩,⟨256,.lf,false,some ⟨37,[],none,false⟩⟩,⟨256,.vt,false,some ⟨37,[],none,false⟩⟩,⟨256,.ff,false,some ⟨37,[],none,false⟩⟩,⟨256,.cr,false,some ⟨37,[],none,false⟩⟩,⟨256,.cr,true,some ⟨37,[],none,false⟩⟩,⟨47,.other,false,some ⟨37,[],none,false⟩⟩,⟨60,.other,false,some ⟨37,[],none,false⟩⟩,⟨62,.other,false,some ⟨0,[],some 0,true⟩⟩]⟩,⟨[24,33],none,[],[⟨256,.other,false,some ⟨20,[],none,false⟩⟩,⟨256,.ws,false,some ⟨20,[],none,false⟩⟩,⟨256,.lf,false,some ⟨20,[],none,false⟩⟩,⟨256,.vt,false,some ⟨20,[],none,false⟩⟩,⟨256,.ff,false,some ⟨20,[],none,false⟩⟩,⟨256,.cr,false,some ⟨20,[],none,false⟩⟩,⟨256,.cr,true,some ⟨20,[],none,false⟩⟩,⟨47,.other,false,some ⟨20,[],none,false⟩⟩,⟨60,.other,false,some ⟨20,[],none,false⟩⟩,⟨62,.other,false,none⟩,⟨256,.other,false,some ⟨39,[],none,false⟩⟩,⟨256,.other,false,some ⟨22,[],none,false⟩⟩]⟩,⟨[24,34],none,[],[⟨256,.other,false,some ⟨20,[],none,false⟩⟩,⟨256,.ws,false,some ⟨20,[],none,false⟩⟩,⟨256,.lf,false,some ⟨20,[],none,false⟩⟩,⟨256,.vt,false,some ⟨20,[],none,false⟩⟩,⟨256,.ff,false,some ⟨20,[],none,false⟩⟩,⟨256,.cr,false,some ⟨20,[],none,false⟩⟩,⟨256,.cr,true,some ⟨20,[],none,false⟩⟩,⟨47,.other,false,some ⟨20,[],none,false⟩⟩,⟨60,.other,false,some ⟨20,[],none,false⟩⟩,⟨62,.other,false,none⟩,⟨256,.other,false,some ⟨40,[],none,false⟩⟩,⟨256,.other,false,some ⟨22,[],none,false⟩⟩]⟩,⟨[24,35],none,[],[⟨256,.other,false,some ⟨20,[],none,false⟩⟩,⟨256,.ws,false,some ⟨20,[],none,false⟩⟩,⟨256,.lf,false,some ⟨20,[],none,false⟩⟩,⟨256,.vt,false,some ⟨20,[],none,false⟩⟩,⟨256,.ff,false,some ⟨20,[],none,false⟩⟩,⟨256,.cr,false,some ⟨20,[],none,false⟩⟩,⟨256,.cr,true,some ⟨20,[],none,false⟩⟩,⟨47,.other,false,some ⟨20,[],none,false⟩⟩,⟨60,.other,false,some ⟨20,[],none,false⟩⟩,⟨62,.other,false,none⟩,⟨256,.other,false,some ⟨41,[],none,false⟩⟩,⟨256,.other,false,some ⟨22,[],none,false⟩⟩]⟩,⟨[24,36],none,[],[⟨256,.other,false,some ⟨20,[],none,false⟩⟩,⟨256,.ws,false,some ⟨20,[],none,false⟩⟩,⟨256,.lf,false,some ⟨20,[],none,false⟩⟩,⟨256,.vt,false,some ⟨20,[],none,false⟩⟩,⟨256,.ff,false,some ⟨20,[],none,false⟩⟩,⟨256,.cr,false,some ⟨20,[],none,false⟩⟩,⟨256,.cr,true,some ⟨20,[],none,false⟩⟩,⟨47,.other,false,some ⟨20,[],none,false⟩⟩,⟨60,.other,false,some ⟨20,[],none,false⟩⟩,⟨62,.other,false,none⟩,⟨256,.other,false,some ⟨42,[],none,false⟩⟩,⟨256,.other,false,some ⟨22,[],none,false⟩⟩]⟩,⟨[24,37],none,[],[⟨256,.other,false,some ⟨20,[],none,false⟩⟩,⟨256,.ws,false,some ⟨20,[],none,false⟩⟩,⟨256,.lf,false,some ⟨20,[],none,false⟩⟩,⟨256,.vt,false,some ⟨20,[],none,false⟩⟩,⟨256,.ff,false,some ⟨20,[],none,false⟩⟩,⟨256,.cr,false,some ⟨20,[],none,false⟩⟩,⟨256,.cr,true,some ⟨20,[],none,false⟩⟩,⟨47,.other,false,some ⟨20,[],none,false⟩⟩,⟨60,.other,false,some ⟨20,[],none,false⟩⟩,⟨62,.other,false,none⟩,⟨256,.other,false,some ⟨43,[],none,false⟩⟩,⟨256,.other,false,some ⟨22,[],none,false⟩⟩]⟩,⟨[24,38],none,[],[⟨256,.other,false,some ⟨20,[],none,false⟩⟩,⟨256,.ws,false,some ⟨20,[],none,false⟩⟩,⟨256,.lf,false,some ⟨20,[],none,false⟩⟩,⟨256,.vt,false,some ⟨20,[],none,false⟩⟩,⟨256,.ff,false,some ⟨20,[],none,false⟩⟩,⟨256,.cr,false,some ⟨20,[],none,false⟩⟩,⟨256,.cr,true,some ⟨20,[],none,false⟩⟩,⟨47,.other,false,some ⟨20,[],none,false⟩⟩,⟨60,.other,false,some ⟨20,[],none,false⟩⟩,⟨62,.other,false,none⟩,⟨256,.other,false,some ⟨44,[],none,false⟩⟩]⟩,⟨[39],none,[],[⟨256,.other,false,some ⟨45,[],none,false⟩⟩,⟨256,.ws,false,some ⟨45,[],none,false⟩⟩,⟨256,.lf,false,some ⟨45,[],none,false⟩⟩,⟨256,.vt,false,some ⟨45,[],none,false⟩⟩,⟨256,.ff,false,some ⟨45,[],none,false⟩⟩,⟨256,.cr,false,some ⟨45,[],none,false⟩⟩,⟨256,.cr,true,some ⟨45,[],none,false⟩⟩,⟨47,.other,false,some ⟨45,[],none,false⟩⟩,⟨60,.other,false,some ⟨45,[],none,false⟩⟩,⟨62,.other,false,none⟩]⟩,⟨[40],none,[],[⟨256,.other,false,some ⟨45,[],none,false⟩⟩,⟨256,.ws,false,some ⟨45,[],none,false⟩⟩,⟨256,.lf,false,some ⟨45,[],none,false⟩⟩,⟨256,.vt,false,some ⟨45,[],none,false⟩⟩,⟨256,.ff,false,some ⟨45,[],none,false⟩⟩,⟨256,.cr,false,some ⟨45,[],none,false⟩⟩,⟨256,.cr,true,some ⟨45,[],none,false⟩⟩,⟨47,.other,false,some ⟨45,[],none,false⟩⟩,⟨60,.other,false,some ⟨45,[],none,false⟩⟩,⟨62,.other,false,some ⟨0,[],some 1,true⟩⟩]⟩]
theorem emb5_rowsOkt : rowsOk emb5_nfa [47, 60, 62] (emb5_cst.map (·.1)) emb5_rowst = true := by decide +kernel
def emb5_Dt : Dfa emb5_nfa := ⟨emb5_maskst, [47, 60, 62], emb5_cst, emb5_rowst, emb5_masksInt, emb5_repOkt, emb5_rowsOkt⟩

/-- The automaton of `Emb.Mxml.mxml_as_line`. -/
def emb7_nfa : Nfa := ⟨[⟨0,1152921504606846976,[],[],0,0⟩,⟨12,4294967808,[],[(3,.setEnt (.own 0))],0,0⟩,⟨13,140737488355328,[],[],0,0⟩,⟨16,140737488355328,[],[],0,2⟩,⟨27,549755813888,[],[(9,.code)],0,0⟩,⟨32,17179869184,[],[(10,.code)],0,0⟩,⟨37,1152921504606846976,[],[],0,4⟩,⟨56,8192,[],[(15,.setEnt .newline)],0,0⟩,⟨58,1024,[],[(15,.setEnt .newline)],0,0⟩,⟨59,4096,[],[(15,.setEnt .newline)],0,0⟩,⟨60,8192,[.crAlone],[(15,.setEnt .newline)],0,0⟩,⟨61,115792089237316195423570985008687907853269984665640564039457584007908834656767,[],[(16,.setEnt (.own 3))],0,0⟩],[[⟨1,140737488355328,[],[],0,0⟩],[⟨2,649037107316853453566312041152512,[],[],0,0⟩],[⟨3,1329227995784915872903807060280344576,[],[],0,0⟩],[⟨4,288230376151711744,[],[],0,0⟩],[⟨5,9671406556917033397649408,[],[],0,0⟩],[⟨6,633825300114114700748351602688,[],[],0,0⟩],[⟨7,20769187434139310514121985316880384,[],[],0,0⟩],[⟨8,40564819207303340847894502572032,[],[],0,0⟩],[⟨9,5192296858534827628530496329220096,[],[],0,0⟩],[⟨10,83076749736557242056487941267521536,[],[],0,0⟩],[⟨11,4611686018427387904,[],[(0,.emb .outry),(1,.code),(2,.emb .back)],0,0⟩],[],[⟨12,4294967808,[],[(3,.setEnt (.own 0))],0,0⟩],[⟨14,140737488355328,[],[(4,.comment)],0,0⟩],[⟨15,115792089237316195423570985008687907853269984665640564039457584007913129626623,[],[],0,0⟩],[⟨15,115792089237316195423570985008687907853269984665640564039457584007913129626623,[],[],0,0⟩],[⟨17,4398046511104,[],[(5,.comment)],0,2⟩],[⟨18,8192,[],[],0,2⟩,⟨20,1024,[],[],0,2⟩,⟨21,4096,[],[],0,2⟩,⟨22,8192,[.crAlone],[],0,2⟩,⟨23,4294967808,[],[],0,2⟩,⟨24,115792089237316195423570985008687907853269984665640564039457584007908834658815,[],[(8,.comment)],0,2⟩,⟨25,4398046511104,[],[],0,2⟩],[⟨19,1024,[],[],0,2⟩],[⟨18,8192,[],[(6,.setEnt .internalNl),(7,.emb (.cb 2))],0,2⟩,⟨20,1024,[],[(6,.setEnt .internalNl),(7,.emb (.cb 2))],0,2⟩,⟨21,4096,[],[(6,.setEnt .internalNl),(7,.emb (.cb 2))],0,2⟩,⟨22,8192,[.crAlone],[(6,.setEnt .internalNl),(7,.emb (.cb 2))],0,2⟩,⟨23,4294967808,[],[(6,.setEnt .internalNl),(7,.emb (.cb 2))],0,2⟩,⟨24,115792089237316195423570985008687907853269984665640564039457584007908834658815,[],[(6,.setEnt .internalNl),(7,.emb (.cb 2)),(8,.comment)],0,2⟩,⟨25,4398046511104,[],[(6,.setEnt .internalNl),(7,.emb (.cb 2))],0,2⟩],[⟨18,8192,[],[(6,.setEnt .internalNl),(7,.emb (.cb 2))],0,2⟩,⟨20,1024,[],[(6,.setEnt .internalNl),(7,.emb (.cb 2))],0,2⟩,⟨21,4096,[],[(6,.setEnt .internalNl),(7,.emb (.cb 2))],0,2⟩,⟨22,8192,[.crAlone],[(6,.setEnt .internalNl),(7,.emb (.cb 2))],0,2⟩,⟨23,4294967808,[],[(6,.setEnt .internalNl),(7,.emb (.cb 2))],0,2⟩,⟨24,115792089237316195423570985008687907853269984665640564039457584007908834658815,[],[(6,.setEnt .internalNl),(7,.emb (.cb 2)),(8,.comment)],0,2⟩,⟨25,4398046511104,[],[(6,.setEnt .internalNl),(7,.emb (.cb 2))],0,2⟩],[⟨18,8192,[],[(6,.setEnt .internalNl),(7,.emb (.cb 2))],0,2⟩,⟨20,1024,[],[(6,.setEnt .internalNl),(7,.emb (.cb 2))],0,2⟩,⟨21,4096,[],[(6,.setEnt .internalNl),(7,.emb (.cb 2))],0,2⟩,⟨22,8192,[.crAlone],[(6,.setEnt .internalNl),(7,.emb (.cb 2))],0,2⟩,⟨23,4294967808,[],[(6,.setEnt .internalNl),(7,.emb (.cb 2))],0,2⟩,⟨24,115792089237316195423570985008687907853269984665640564039457584007908834658815,[],[(6,.setEnt .internalNl),(7,.emb (.cb 2)),(8,.comment)],0,2⟩,⟨25,4398046511104,[],[(6,.setEnt .internalNl),(7,.emb (.cb 2))],0,2⟩],[⟨18,8192,[],[(6,.setEnt .internalNl),(7,.emb (.cb 2))],0,2⟩,⟨20,1024,[],[(6,.setEnt .internalNl),(7,.emb (.cb 2))],0,2⟩,⟨21,4096,[],[(6,.setEnt .internalNl),(7,.emb (.cb 2))],0,2⟩,⟨22,8192,[.crAlone],[(6,.setEnt .internalNl),(7,.emb (.cb 2))],0,2⟩,⟨23,4294967808,[],[(6,.setEnt .internalNl),(7,.emb (.cb 2))],0,2⟩,⟨24,115792089237316195423570985008687907853269984665640564039457584007908834658815,[],[(6,.setEnt .internalNl),(7,.emb (.cb 2)),(8,.comment)],0,2⟩,⟨25,4398046511104,[],[(6,.setEnt .internalNl),(7,.emb (.cb 2))],0,2⟩],[⟨18,8192,[],[],0,2⟩,⟨20,1024,[],[],0,2⟩,⟨21,4096,[],[],0,2⟩,⟨22,8192,[.crAlone],[],0,2⟩,⟨23,4294967808,[],[],0,2⟩,⟨24,115792089237316195423570985008687907853269984665640564039457584007908834658815,[],[(8,.comment)],0,2⟩,⟨25,4398046511104,[],[],0,2⟩],[⟨18,8192,[],[],0,2⟩,⟨20,1024,[],[],0,2⟩,⟨21,4096,[],[],0,2⟩,⟨22,8192,[.crAlone],[],0,2⟩,⟨23,4294967808,[],[],0,2⟩,⟨24,115792089237316195423570985008687907853269984665640564039457584007908834658815,[],[(8,.comment)],0,2⟩,⟨25,4398046511104,[],[],0,2⟩],[⟨26,140737488355328,[],[],2,0⟩],[],[⟨28,115792089237316195423570985008687907853269984665635612279300442486263777315839,[],[],0,0⟩,⟨29,4951760157141521099596496896,[],[],0,0⟩,⟨31,549755813888,[],[],0,0⟩],[⟨28,115792089237316195423570985008687907853269984665635612279300442486263777315839,[],[],0,0⟩,⟨29,4951760157141521099596496896,[],[],0,0⟩,⟨31,549755813888,[],[],0,0⟩],[⟨30,115792089237316195423570985008687907853269984665640564039457584007913129626623,[],[],0,0⟩],[⟨28,115792089237316195423570985008687907853269984665635612279300442486263777315839,[],[],0,0⟩,⟨29,4951760157141521099596496896,[],[],0,0⟩,⟨31,549755813888,[],[],0,0⟩],[],[⟨33,115792089237316195423570985008687907853269984665635612279300442486796353260543,[],[],0,0⟩,⟨34,4951760157141521099596496896,[],[],0,0⟩,⟨36,17179869184,[],[],0,0⟩],[⟨33,115792089237316195423570985008687907853269984665635612279300442486796353260543,[],[],0,0⟩,⟨34,4951760157141521099596496896,[],[],0,0⟩,⟨36,17179869184,[],[],0,0⟩],[⟨35,115792089237316195423570985008687907853269984665640564039457584007913129626623,[],[],0,0⟩],[⟨33,115792089237316195423570985008687907853269984665635612279300442486796353260543,[],[],0,0⟩,⟨34,4951760157141521099596496896,[],[],0,0⟩,⟨36,17179869184,[],[],0,0⟩],[],[⟨38,8589934592,[],[],0,4⟩],[⟨39,2475880078570760549798248448,[],[],0,4⟩],[⟨40,147573952589676412928,[],[],0,4⟩],[⟨41,295147905179352825856,[],[],0,4⟩],[⟨42,36893488147419103232,[],[],0,4⟩],[⟨43,19342813113834066795298816,[],[],0,4⟩],[⟨44,36893488147419103232,[],[],0,4⟩],[⟨45,2475880078570760549798248448,[],[(11,.code)],0,4⟩],[⟨46,8192,[],[],0,4⟩,⟨48,1024,[],[],0,4⟩,⟨49,4096,[],[],0,4⟩,⟨50,8192,[.crAlone],[],0,4⟩,⟨51,4294967808,[],[],0,4⟩,⟨52,115792089237316195423570985008687907853269984665640564039457584007908834658815,[],[(14,.code)],0,4⟩,⟨53,9903520314283042199192993792,[],[],0,4⟩],[⟨47,1024,[],[],0,4⟩],[⟨46,8192,[],[(12,.setEnt .internalNl),(13,.emb (.cb 2))],0,4⟩,⟨48,1024,[],[(12,.setEnt .internalNl),(13,.emb (.cb 2))],0,4⟩,⟨49,4096,[],[(12,.setEnt .internalNl),(13,.emb (.cb 2))],0,4⟩,⟨50,8192,[.crAlone],[(12,.setEnt .internalNl),(13,.emb (.cb 2))],0,4⟩,⟨51,4294967808,[],[(12,.setEnt .internalNl),(13,.emb (.cb 2))],0,4⟩,⟨52,115792089237316195423570985008687907853269984665640564039457584007908834658815,[],[(12,.setEnt .internalNl),(13,.emb (.cb 2)),(14,.code)],0,4⟩,⟨53,9903520314283042199192993792,[],[(12,.setEnt .internalNl),(13,.emb (.cb 2))],0,4⟩],[⟨46,8192,[],[(12,.setEnt .internalNl),(13,.emb (.cb 2))],0,4⟩,⟨48,1024,[],[(12,.setEnt .internalNl),(13,.emb (.cb 2))],0,4⟩,⟨49,4096,[],[(12,.setEnt .internalNl),(13,.emb (.cb 2))],0,4⟩,⟨50,8192,[.crAlone],[(12,.setEnt .internalNl),(13,.emb (.cb 2))],0,4⟩,⟨51,4294967808,[],[(12,.setEnt .internalNl),(13,.emb (.cb 2))],0,4⟩,⟨52,115792089237316195423570985008687907853269984665640564039457584007908834658815,[],[(12,.setEnt .internalNl),(13,.emb (.cb 2)),(14,.code)],0,4⟩,⟨53,9903520314283042199192993792,[],[(12,.setEnt .internalNl),(13,.emb (.cb 2))],0,4⟩],[⟨46,8192,[],[(12,.setEnt .internalNl),(13,.emb (.cb 2))],0,4⟩,⟨48,1024,[],[(12,.setEnt .internalNl),(13,.emb (.cb 2))],0,4⟩,⟨49,4096,[],[(12,.setEnt .internalNl),(13,.emb (.cb 2))],0,4⟩,⟨50,8192,[.crAlone],[(12,.setEnt .internalNl),(13,.emb (.cb 2))],0,4⟩,⟨51,4294967808,[],[(12,.setEnt .internalNl),(13,.emb (.cb 2))],0,4⟩,⟨52,115792089237316195423570985008687907853269984665640564039457584007908834658815,[],[(12,.setEnt .internalNl),(13,.emb (.cb 2)),(14,.code)],0,4⟩,⟨53,9903520314283042199192993792,[],[(12,.setEnt .internalNl),(13,.emb (.cb 2))],0,4⟩],[⟨46,8192,[],[(12,.setEnt .internalNl),(13,.emb (.cb 2))],0,4⟩,⟨48,1024,[],[(12,.setEnt .internalNl),(13,.emb (.cb 2))],0,4⟩,⟨49,4096,[],[(12,.setEnt .internalNl),(13,.emb (.cb 2))],0,4⟩,⟨50,8192,[.crAlone],[(12,.setEnt .internalNl),(13,.emb (.cb 2))],0,4⟩,⟨51,4294967808,[],[(12,.setEnt .internalNl),(13,.emb (.cb 2))],0,4⟩,⟨52,115792089237316195423570985008687907853269984665640564039457584007908834658815,[],[(12,.setEnt .internalNl),(13,.emb (.cb 2)),(14,.code)],0,4⟩,⟨53,9903520314283042199192993792,[],[(12,.setEnt .internalNl),(13,.emb (.cb 2))],0,4⟩],[⟨46,8192,[],[],0,4⟩,⟨48,1024,[],[],0,4⟩,⟨49,4096,[],[],0,4⟩,⟨50,8192,[.crAlone],[],0,4⟩,⟨51,4294967808,[],[],0,4⟩,⟨52,115792089237316195423570985008687907853269984665640564039457584007908834658815,[],[(14,.code)],0,4⟩,⟨53,9903520314283042199192993792,[],[],0,4⟩],[⟨46,8192,[],[],0,4⟩,⟨48,1024,[],[],0,4⟩,⟨49,4096,[],[],0,4⟩,⟨50,8192,[.crAlone],[],0,4⟩,⟨51,4294967808,[],[],0,4⟩,⟨52,115792089237316195423570985008687907853269984665640564039457584007908834658815,[],[(14,.code)],0,4⟩,⟨53,9903520314283042199192993792,[],[],0,4⟩],[⟨54,9903520314283042199192993792,[],[],0,0⟩],[⟨55,4611686018427387904,[],[],4,0⟩],[],[⟨57,1024,[],[(15,.setEnt .newline)],0,0⟩],[],[],[],[],[]],[none,none,none,none,none,none,none,none,none,none,none,some (0,[]),some (1,[]),none,some (2,[]),some (2,[]),none,none,none,none,none,none,none,none,none,none,some (2,[]),none,none,none,none,some (3,[]),none,none,none,none,some (3,[]),none,none,none,none,none,none,none,none,none,none,none,none,none,none,none,none,none,none,some (3,[]),none,some (4,[]),some (4,[]),some (4,[]),some (4,[]),some (5,[])],[3,4,9,15,16,17]⟩
def emb7_masks : List Nat := [1152921504606846976,4294967808,140737488355328,549755813888,17179869184,8192,1024,4096,115792089237316195423570985008687907853269984665640564039457584007908834656767,649037107316853453566312041152512,1329227995784915872903807060280344576,288230376151711744,9671406556917033397649408,633825300114114700748351602688,20769187434139310514121985316880384,40564819207303340847894502572032,5192296858534827628530496329220096,83076749736557242056487941267521536,4611686018427387904,115792089237316195423570985008687907853269984665640564039457584007913129626623,4398046511104,115792089237316195423570985008687907853269984665640564039457584007908834658815,115792089237316195423570985008687907853269984665635612279300442486263777315839,4951760157141521099596496896,115792089237316195423570985008687907853269984665635612279300442486796353260543,8589934592,2475880078570760549798248448,147573952589676412928,295147905179352825856,36893488147419103232,19342813113834066795298816,9903520314283042199192993792]
def emb7_cs : List (Nat × Nat) := [(0,115792089237316195423570985008687907853268545709157637892678237540995269902847),(9,4294967808),(10,1024),(11,2048),(12,4096),(13,8192),(33,8589934592),(34,17179869184),(39,549755813888),(42,4398046511104),(47,140737488355328),(58,288230376151711744),(60,1152921504606846976),(62,4611686018427387904),(65,36893488147419103232),(67,147573952589676412928),(68,295147905179352825856),(83,9671406556917033397649408),(84,19342813113834066795298816),(91,2475880078570760549798248448),(92,4951760157141521099596496896),(93,9903520314283042199192993792),(99,633825300114114700748351602688),(105,40564819207303340847894502572032),(109,649037107316853453566312041152512),(112,5192296858534827628530496329220096),(114,20769187434139310514121985316880384),(116,83076749736557242056487941267521536),(120,1329227995784915872903807060280344576)]
theorem emb7_masksIn : masksIn emb7_nfa emb7_masks = true := by decide +kernel
theorem emb7_repOk : repOk emb7_masks emb7_cs = true := by decide +kernel
def emb7_rows : List Row := [⟨[],none,[],[⟨256,.other,false,some ⟨0,[.setEnt (.own 3)],some 5,true⟩⟩,⟨256,.ws,false,some ⟨1,[.setEnt (.own 0)],some 1,false⟩⟩,⟨256,.lf,false,some ⟨0,[.setEnt .newline],some 4,true⟩⟩,⟨256,.vt,false,none⟩,⟨256,.ff,false,some ⟨0,[.setEnt .newline],some 4,true⟩⟩,⟨256,.cr,false,some ⟨2,[.setEnt .newline],none,false⟩⟩,⟨256,.cr,true,some ⟨3,[.setEnt .newline],some 4,false⟩⟩,⟨256,.other,false,some ⟨4,[.code,.setEnt (.own 3)],some 5,false⟩⟩,⟨256,.other,false,some ⟨5,[.code,.setEnt (.own 3)],some 5,false⟩⟩,⟨256,.other,false,some ⟨6,[.setEnt (.own 3)],some 5,false⟩⟩,⟨256,.other,false,some ⟨7,[.setEnt (.own 3)],some 5,false⟩⟩]⟩,⟨[12],some 1,[],[⟨256,.other,false,none⟩,⟨256,.ws,false,some ⟨1,[.setEnt (.own 0)],some 1,false⟩⟩,⟨256,.lf,false,none⟩,⟨256,.vt,false,none⟩,⟨256,.ff,false,none⟩,⟨256,.cr,false,none⟩,⟨256,.cr,true,none⟩]⟩,⟨[56],none,[],[⟨256,.other,false,none⟩,⟨256,.ws,false,none⟩,⟨256,.lf,false,some ⟨0,[.setEnt .newline],some 4,true⟩⟩,⟨256,.vt,false,none⟩,⟨256,.ff,false,none⟩,⟨256,.cr,false,none⟩,⟨256,.cr,true,none⟩]⟩,⟨[56,60],some 4,[],[⟨256,.other,false,none⟩,⟨256,.ws,false,none⟩,⟨256,.lf,false,some ⟨0,[.setEnt .newline],some 4,true⟩⟩,⟨256,.vt,false,none⟩,⟨256,.ff,false,none⟩,⟨256,.cr,false,none⟩,⟨256,.cr,true,none⟩]⟩,⟨[32,61],some 5,[],[⟨256,.other,false,some ⟨8,[],none,false⟩⟩,⟨256,.ws,false,some ⟨8,[],none,false⟩⟩,⟨256,.lf,false,none⟩,⟨256,.vt,false,some ⟨8,[],none,false⟩⟩,⟨256,.ff,false,none⟩,⟨256,.cr,false,none⟩,⟨256,.cr,true,none⟩,⟨256,.other,false,some ⟨0,[],some 3,true⟩⟩,⟨256,.other,false,some ⟨9,[],none,false⟩⟩]⟩,⟨[27,61],some 5,[],[⟨256,.other,false,some ⟨10,[],none,false⟩⟩,⟨256,.ws,false,some ⟨10,[],none,false⟩⟩,⟨256,.lf,false,none⟩,⟨256,.vt,false,some ⟨10,[],none,false⟩⟩,⟨256,.ff,false,none⟩,⟨256,.cr,false,none⟩,⟨256,.cr,true,none⟩,⟨256,.other,false,some ⟨0,[],some 3,true⟩⟩,⟨256,.other,false,some ⟨11,[],none,false⟩⟩]⟩,⟨[13,16,61],some 5,[],[⟨256,.other,false,none⟩,⟨256,.ws,false,none⟩,⟨256,.lf,false,none⟩,⟨256,.vt,false,none⟩,⟨256,.ff,false,none⟩,⟨256,.cr,false,none⟩,⟨256,.cr,true,none⟩,⟨256,.other,false,some ⟨12,[.comment],none,false⟩⟩,⟨256,.other,false,some ⟨13,[.comment],some 2,false⟩⟩]⟩,⟨[0,37,61],some 5,[],[⟨256,.other,false,none⟩,⟨256,.ws,false,none⟩,⟨256,.lf,false,none⟩,⟨256,.vt,false,none⟩,⟨256,.ff,false,none⟩,⟨256,.cr,false,none⟩,⟨256,.cr,true,none⟩,⟨256,.other,false,some ⟨14,[],none,false⟩⟩,⟨256,.other,false,some ⟨15,[],none,false⟩⟩]⟩,⟨[33],none,[],[⟨256,.other,false,some ⟨8,[],none,false⟩⟩,⟨256,.ws,false,some ⟨8,[],none,false⟩⟩,⟨256,.lf,false,none⟩,⟨256,.vt,false,some ⟨8,[],none,false⟩⟩,⟨256,.ff,false,none⟩,⟨256,.cr,false,none⟩,⟨256,.cr,true,none⟩,⟨256,.other,false,some ⟨0,[],some 3,true⟩⟩,⟨256,.other,false,some ⟨9,[],none,false⟩⟩]⟩,⟨[34],none,[],[⟨256,.other,false,some ⟨16,[],none,false⟩⟩,⟨256,.ws,false,some ⟨16,[],none,false⟩⟩,⟨256,.lf,false,none⟩,⟨256,.vt,false,some ⟨16,[],none,false⟩⟩,⟨256,.ff,false,none⟩,⟨256,.cr,false,none⟩,⟨256,.cr,true,none⟩]⟩,⟨[28],none,[],[⟨256,.other,false,some ⟨10,[],none,false⟩⟩,⟨256,.ws,false,some ⟨10,[],none,false⟩⟩,⟨256,.lf,false,none⟩,⟨256,.vt,false,some ⟨10,[],none,false⟩⟩,⟨256,.ff,false,none⟩,⟨256,.cr,false,none⟩,⟨256,.cr,true,none⟩,⟨256,.other,false,some ⟨0,[],some 3,true⟩⟩,⟨256,.other,false,some ⟨11,[],none,false⟩⟩]⟩,⟨[29],none,[],[⟨256,.other,false,some ⟨17,[],none,false⟩⟩,⟨256,.ws,false,some ⟨17,[],none,false⟩⟩,⟨256,.lf,false,none⟩,⟨256,.vt,false,some ⟨17,[],none,false⟩⟩,⟨256,.ff,false,none⟩,⟨256,.cr,false,none⟩,⟨256,.cr,true,none⟩]⟩,⟨[17],none,[],[⟨256,.other,false,some ⟨18,[.comment],none,false⟩⟩,⟨256,.ws,false,some ⟨19,[],none,false⟩⟩,⟨256,.lf,false,some ⟨20,[],none,false⟩⟩,⟨256,.vt,false,some ⟨18,[.comment],none,false⟩⟩,⟨256,.ff,false,some ⟨21,[],none,false⟩⟩,⟨256,.cr,false,some ⟨22,[],none,false⟩⟩,⟨256,.cr,true,some ⟨23,[],none,false⟩⟩,⟨256,.other,false,some ⟨24,[.comment],none,false⟩⟩]⟩,⟨[14],some 2,[],[⟨256,.other,false,some ⟨25,[],some 2,false⟩⟩,⟨256,.ws,false,some ⟨25,[],some 2,false⟩⟩,⟨256,.lf,false,none⟩,⟨256,.vt,false,some ⟨25,[],some 2,false⟩⟩,⟨256,.ff,false,none⟩,⟨256,.cr,false,none⟩,⟨256,.cr,true,none⟩]⟩,⟨[38],none,[],[⟨256,.other,false,none⟩,⟨256,.ws,false,none⟩,⟨256,.lf,false,none⟩,⟨256,.vt,false,none⟩,⟨256,.ff,false,none⟩,⟨256,.cr,false,none⟩,⟨256,.cr,true,none⟩,⟨256,.other,false,some ⟨26,[],none,false⟩⟩]⟩,⟨[1],none,[],[⟨256,.other,false,none⟩,⟨256,.ws,false,none⟩,⟨256,.lf,false,none⟩,⟨256,.vt,false,none⟩,⟨256,.ff,false,none⟩,⟨256,.cr,false,none⟩,⟨256,.cr,true,none⟩,⟨256,.other,false,some ⟨27,[],none,false⟩⟩]⟩,⟨[35],none,[],[⟨256,.other,false,some ⟨8,[],none,false⟩⟩,⟨256,.ws,false,some ⟨8,[],none,false⟩⟩,⟨256,.lf,false,none⟩,⟨256,.vt,false,some ⟨8,[],none,false⟩⟩,⟨256,.ff,false,none⟩,⟨256,.cr,false,none⟩,⟨256,.cr,true,none⟩,⟨256,.other,false,some ⟨0,[],some 3,true⟩⟩,⟨256,.other,false,some ⟨9,[],none,false⟩⟩]⟩,⟨[30],none,[],[⟨256,.other,false,some ⟨10,[],none,false⟩⟩,⟨256,.ws,false,some ⟨10,[],none,false⟩⟩,⟨256,.lf,false,none⟩,⟨256,.vt,false,some ⟨10,[],none,false⟩⟩,⟨256,.ff,false,none⟩,⟨256,.cr,false,none⟩,⟨256,.cr,true,none⟩,⟨256,.other,false,some ⟨0,[],some 3,true⟩⟩,⟨256,.other,false,some ⟨11,[],none,false⟩⟩]⟩,⟨[24],none,[],[⟨256,.other,false,some ⟨18,[.comment],none,false⟩⟩,⟨256,.ws,false,some ⟨19,[],none,false⟩⟩,⟨256,.lf,false,some ⟨20,[],none,false⟩⟩,⟨256,.vt,false,some ⟨18,[.comment],none,false⟩⟩,⟨256,.ff,false,some ⟨21,[],none,false⟩⟩,⟨256,.cr,false,some ⟨22,[],none,false⟩⟩,⟨256,.cr,true,some ⟨23,[],none,false⟩⟩,⟨256,.other,false,some ⟨24,[.comment],none,false⟩⟩]⟩,⟨[23],none,[],[⟨256,.other,false,some ⟨18,[.comment],none,false⟩⟩,⟨256,.ws,false,some ⟨19,[],none,false⟩⟩,⟨256,.lf,false,some ⟨20,[],none,false⟩⟩,⟨256,.vt,false,some ⟨18,[.comment],none,false⟩⟩,⟨256,.ff,false,some ⟨21,[],none,false⟩⟩,⟨256,.cr,false,some ⟨22,[],none,false⟩⟩,⟨256,.cr,true,some ⟨23,[],none,false⟩⟩,⟨256,.other,false,some ⟨24,[.comment],none,false⟩⟩]⟩,⟨[20],none,[],[⟨256,.other,false,some ⟨18,[.setEnt .internalNl,.emb (.cb 2),.comment],none,false⟩⟩,⟨256,.ws,false,some ⟨19,[.setEnt .internalNl,.emb (.cb 2)],none,false⟩⟩,⟨256,.lf,false,some ⟨20,[.setEnt .internalNl,.emb (.cb 2)],none,false⟩⟩,⟨256,.vt,false,some ⟨18,[.setEnt .internalNl,.emb (.cb 2),.comment],none,false⟩⟩,⟨256,.ff,false,some ⟨21,[.setEnt .internalNl,.emb (.cb 2)],none,false⟩⟩,⟨256,.cr,false,some ⟨22,[.setEnt .internalNl,.emb (.cb 2)],none,false⟩⟩,⟨256,.cr,true,some ⟨23,[.setEnt .internalNl,.emb (.cb 2)],none,false⟩⟩,⟨256,.other,false,some ⟨24,[.setEnt .internalNl,.emb (.cb 2),.comment],none,false⟩⟩]⟩,⟨[21],none,[],[⟨256,.other,false,some ⟨18,[.setEnt .internalNl,.emb (.cb 2),.comment],none,false⟩⟩,⟨256,.ws,false,some ⟨19,[.setEnt .internalNl,.emb (.cb 2)],none,false⟩⟩,⟨256,.lf,false,some ⟨20,[.setEnt .internalNl,.emb (.cb 2)],none,false⟩⟩,⟨256,.vt,false,some ⟨18,[.setEnt .internalNl,.emb (.cb 2),.comment],none,false⟩⟩,⟨256,.ff,false,some ⟨21,[.setEnt .internalNl,.emb (.cb 2)],none,false⟩⟩,⟨256,.cr,false,some ⟨22,[.setEnt .internalNl,.emb (.cb 2)],none,false⟩⟩,⟨256,.cr,true,some ⟨23,[.setEnt .internalNl,.emb (.cb 2)],none,false⟩⟩,⟨256,.other,false,some ⟨24,[.setEnt .internalNl,.emb (.cb 2),.comment],none,false⟩⟩]⟩,⟨[18],none,[],[⟨256,.other,false,none⟩,⟨256,.ws,false,none⟩,⟨256,.lf,false,some ⟨28,[],none,false⟩⟩,⟨256,.vt,false,none⟩,⟨256,.ff,false,none⟩,⟨256,.cr,false,none⟩,⟨256,.cr,true,none⟩]⟩,⟨[18,22],none,[],[⟨256,.other,false,some ⟨18,[.setEnt .internalNl,.emb (.cb 2),.comment],none,false⟩⟩,⟨256,.ws,false,some ⟨19,[.setEnt .internalNl,.emb (.cb 2)],none,false⟩⟩,⟨256,.lf,false,some ⟨29,[.setEnt .internalNl,.emb (.cb 2)],none,false⟩⟩,⟨256,.vt,false,some ⟨18,[.setEnt .internalNl,.emb (.cb 2),.comment],none,false⟩⟩,⟨256,.ff,false,some ⟨21,[.setEnt .internalNl,.emb (.cb 2)],none,false⟩⟩,⟨256,.cr,false,some ⟨22,[.setEnt .internalNl,.emb (.cb 2)],none,false⟩⟩,⟨256,.cr,true,some ⟨23,[.setEnt .internalNl,.emb (.cb 2)],none,false⟩⟩,⟨256,.other,false,some ⟨24,[.setEnt .internalNl,.emb (.cb 2),.comment],none,false⟩⟩]⟩,⟨[24,25],none,[],[⟨256,.other,false,some ⟨18,[.comment],none,false⟩⟩,⟨256,.ws,false,some ⟨19,[],none,false⟩⟩,⟨256,.lf,false,some ⟨20,[],none,false⟩⟩,⟨256,.vt,false,some ⟨18,[.comment],none,false⟩⟩,⟨256,.ff,false,some ⟨21,[],none,false⟩⟩,⟨256,.cr,false,some ⟨22,[],none,false⟩⟩,⟨256,.cr,true,some ⟨23,[],none,false⟩⟩,⟨256,.other,false,some ⟨24,[.comment],none,false⟩⟩,⟨256,.other,false,some ⟨0,[],some 2,true⟩⟩]⟩,⟨[15],some 2,[],[⟨256,.other,false,some ⟨25,[],some 2,false⟩⟩,⟨256,.ws,false,some ⟨25,[],some 2,false⟩⟩,⟨256,.lf,false,none⟩,⟨256,.vt,false,some ⟨25,[],some 2,false⟩⟩,⟨256,.ff,false,none⟩,⟨256,.cr,false,none⟩,⟨256,.cr,true,none⟩]⟩,⟨[39],none,[],[⟨256,.other,false,none⟩,⟨256,.ws,false,none⟩,⟨256,.lf,false,none⟩,⟨256,.vt,false,none⟩,⟨256,.ff,false,none⟩,⟨256,.cr,false,none⟩,⟨256,.cr,true,none⟩,⟨256,.other,false,some ⟨30,[],none,false⟩⟩]⟩,⟨[2],none,[],[⟨256,.other,false,none⟩,⟨256,.ws,false,none⟩,⟨256,.lf,false,none⟩,⟨256,.vt,false,none⟩,⟨256,.ff,false,none⟩,⟨256,.cr,false,none⟩,⟨256,.cr,true,none⟩,⟨256,.other,false,some ⟨31,[],none,false⟩⟩]⟩,⟨[19],none,[],[⟨256,.other,false,some ⟨18,[.setEnt .internalNl,.emb (.cb 2),.comment],none,false⟩⟩,⟨256,.ws,false,some ⟨19,[.setEnt .internalNl,.emb (.cb 2)],none,false⟩⟩,⟨256,.lf,false,some ⟨20,[.setEnt .internalNl,.emb (.cb 2)],none,false⟩⟩,⟨256,.vt,false,some ⟨18,[.setEnt .internalNl,.emb (.cb 2),.comment],none,false⟩⟩,⟨256,.ff,false,some ⟨21,[.setEnt .internalNl,.emb (.cb 2)],none,false⟩⟩,⟨256,.cr,false,some ⟨22,[.setEnt .internalNl,.emb (.cb 2)],none,false⟩⟩,⟨256,.cr,true,some ⟨23,[.setEnt .internalNl,.emb (.cb 2)],none,false⟩⟩,⟨256,.other,false,some ⟨24,[.setEnt .internalNl,.emb (.cb 2),.comment],none,false⟩⟩]⟩,⟨[19,20],none,[],[⟨256,.other,false,some ⟨18,[.setEnt .internalNl,.emb (.cb 2),.comment],none,false⟩⟩,⟨256,.ws,false,some ⟨19,[.setEnt .internalNl,.emb (.cb 2)],none,false⟩⟩,⟨256,.lf,false,some ⟨20,[.setEnt .internalNl,.emb (.cb 2)],none,false⟩⟩,⟨256,.vt,false,some ⟨18,[.setEnt .internalNl,.emb (.cb 2),.comment],none,false⟩⟩,⟨256,.ff,false,some ⟨21,[.setEnt .internalNl,.emb (.cb 2)],none,false⟩⟩,⟨256,.cr,false,some ⟨22,[.setEnt .internalNl,.emb (.cb 2)],none,false⟩⟩,⟨256,.cr,true,some ⟨23,[.setEnt .internalNl,.emb (.cb 2)],none,false⟩⟩,⟨256,.other,false,some ⟨24,[.setEnt .internalNl,.emb (.cb 2),.comment],none,false⟩⟩]⟩,⟨[40],none,[],[⟨256,.other,false,none⟩,⟨256,.ws,false,none⟩,⟨256,.lf,false,none⟩,⟨256,.vt,false,none⟩,⟨256,.ff,false,none⟩,⟨256,.cr,false,none⟩,⟨256,.cr,true,none⟩,⟨256,.other,false,some ⟨32,[],none,false⟩⟩]⟩,⟨[3],none,[],[⟨256,.other,false,none⟩,⟨256,.ws,false,none⟩,⟨256,.lf,false,none⟩,⟨256,.vt,false,none⟩,⟨256,.ff,false,none⟩,⟨256,.cr,false,none⟩,⟨256,.cr,true,none⟩,⟨256,.other,false,some ⟨33,[],none,false⟩⟩]⟩,⟨[41],none,[],[⟨256,.other,false,none⟩,⟨256,.ws,false,none⟩,⟨256,.lf,false,none⟩,⟨256,.vt,false,none⟩,⟨256,.ff,false,none⟩,⟨256,.cr,false,none⟩,⟨256,.cr,true,none⟩,⟨256,.other,false,some ⟨34,[],none,false⟩⟩]⟩,⟨[4],none,[],[⟨256,.other,false,none⟩,⟨256,.ws,false,none⟩,⟨256,.lf,false,none⟩,⟨256,.vt,false,none⟩,⟨256,.ff,false,none⟩,⟨256,.cr,false,none⟩,⟨256,.cr,true,none⟩,⟨256,.other,false,some ⟨35,[],none,false⟩⟩]⟩,⟨[42],none,[],[⟨256,.other,false,none⟩,⟨256,.ws,false,none⟩,⟨256,.lf,false,none⟩,⟨256,.vt,false,none⟩,⟨256,.ff,false,none⟩,⟨256,.cr,false,none⟩,⟨256,.cr,true,none⟩,⟨256,.other,false,some ⟨36,[],none,false⟩⟩]⟩,⟨[5],none,[],[⟨256,.other,false,none⟩,⟨256,.ws,false,none⟩,⟨256,.lf,false,none⟩,⟨256,.vt,false,none⟩,⟨256,.ff,false,none⟩,⟨256,.cr,false,none⟩,⟨256,.cr,true,none⟩,⟨256,.other,false,some ⟨37,[],none,false⟩⟩]⟩,⟨[43],none,[],[⟨256,.other,false,none⟩,⟨256,.ws,false,none⟩,⟨256,.lf,false,none⟩,⟨256,.vt,false,none⟩,⟨256,.ff,false,none⟩,⟨256,.cr,false,none⟩,⟨256,.cr,true,none⟩,⟨256,.other,false,some ⟨38,[],none,false⟩⟩]⟩,⟨[6],none,[],[⟨256,.other,false,none⟩,⟨256,.ws,false,none⟩,⟨256,.lf,false,none⟩,⟨256,.vt,false,none⟩,⟨256,.ff,false,none⟩,⟨256,.cr,false,none⟩,⟨256,.cr,true,none⟩,⟨256,.other,false,some ⟨39,[],none,false⟩⟩]⟩,⟨[44],none,[],[⟨256,.other,false,none⟩,⟨256,.ws,false,none⟩,⟨256,.lf,false,none⟩,⟨256,.vt,false,none⟩,⟨256,.ff,false,none⟩,⟨256,.cr,false,none⟩,⟨256,.cr,true,none⟩,⟨256,.other,false,some ⟨40,[.code],none,false⟩⟩]⟩,⟨[7],none,[],[⟨256,.other,false,none⟩,⟨256,.ws,false,none⟩,⟨256,.lf,false,none⟩,⟨256,.vt,false,none⟩,⟨256,.ff,false,none⟩,⟨256,.cr,false,none⟩,⟨256,.cr,true,none⟩,⟨256,.other,false,some ⟨41,[],none,false⟩⟩]⟩,⟨[45],none,[],[⟨256,.other,false,some ⟨42,[.code],none,false⟩⟩,⟨256,.ws,false,some ⟨43,[],none,false⟩⟩,⟨256,.lf,false,some ⟨44,[],none,false⟩⟩,⟨256,.vt,false,some ⟨42,[.code],none,false⟩⟩,⟨256,.ff,false,some ⟨45,[],none,false⟩⟩,⟨256,.cr,false,some ⟨46,[],none,false⟩⟩,⟨256,.cr,true,some ⟨47,[],none,false⟩⟩,⟨256,.other,false,some ⟨48,[.code],none,false⟩⟩]⟩,⟨[8],none,[],[⟨256,.other,false,none⟩,⟨256,.ws,false,none⟩,⟨256,.lf,false,none⟩,⟨256,.vt,false,none⟩,⟨256,.ff,false,none⟩,⟨256,.cr,false,none⟩,⟨256,.cr,true,none⟩,⟨256,.other,false,some ⟨49,[],none,false⟩⟩]⟩,⟨[52],none,[],[⟨256,.other,false,some ⟨42,[.code],none,false⟩⟩,⟨256,.ws,false,some ⟨43,[],none,false⟩⟩,⟨256,.lf,false,some ⟨44,[],none,false⟩⟩,⟨256,.vt,false,some ⟨42,[.code],none,false⟩⟩,⟨256,.ff,false,some ⟨45,[],none,false⟩⟩,⟨256,.cr,false,some ⟨46,[],none,false⟩⟩,⟨256,.cr,true,some ⟨47,[],none,false⟩⟩,⟨256,.other,false,some ⟨48,[.code],none,false⟩⟩]⟩,⟨[51],none,[],[⟨256,.other,false,some ⟨42,[.code],none,false⟩⟩,⟨256,.ws,false,some ⟨43,[],none,false⟩⟩,⟨256,.lf,false,some ⟨44,[],none,false⟩⟩,⟨256,.vt,false,some ⟨42,[.code],none,false⟩⟩,⟨256,.ff,false,some ⟨45,[],none,false⟩⟩,⟨256,.cr,false,some ⟨46,[],none,false⟩⟩,⟨256,.cr,true,some ⟨47,[],none,false⟩⟩,⟨256,.other,false,some ⟨48,[.code],none,false⟩⟩]⟩,⟨[48],none,[],[⟨256,.other,false,some ⟨42,[.setEnt .internalNl,.emb (.cb 2),.code],none,false⟩⟩,⟨256,.ws,false,some ⟨43,[.setEnt .internalNl,.emb (.cb 2)],none,false⟩⟩,⟨256,.lf,false,some ⟨44,[.setEnt .internalNl,.emb (.cb 2)],none,false⟩⟩,⟨256,.vt,false,some ⟨42,[.setEnt .internalNl,.emb (.cb 2),.code],none,false⟩⟩,⟨256,.ff,false,some ⟨45,[.setEnt .internalNl,.emb (.cb 2)],none,false⟩⟩,⟨256,.cr,false,some ⟨46,[.setEnt .internalNl,.emb (.cb 2)],none,false⟩⟩,⟨256,.cr,true,some ⟨47,[.setEnt .internalNl,.emb (.cb 2)],none,false⟩⟩,⟨256,.other,false,some ⟨48,[.setEnt .internalNl,.emb (.cb 2),.code],none,false⟩⟩]⟩,⟨[49],none,[],[⟨256,.other,false,some ⟨42,[.setEnt .internalNl,.emb (.cb 2),.code],none,false⟩⟩,⟨256,.ws,false,some ⟨43,[.setEnt .internalNl,.emb (.cb 2)],none,false⟩⟩,⟨256,.lf,false,some ⟨44,[.setEnt .internalNl,.emb (.cb 2)],none,false⟩⟩,⟨256,.vt,false,some ⟨42,[.setEnt .internalNl,.emb (.cb 2),.code],none,false⟩⟩,⟨256,.ff,false,some ⟨45,[.setEnt .internalNl,.emb (.cb 2)],none,false⟩⟩,⟨256,.cr,false,some ⟨46,[.setEnt .internalNl,.emb (.cb 2)],none,false⟩⟩,⟨256,.cr,true,some ⟨47,[.setEnt .internalNl,.emb (.cb 2)],none,false⟩⟩,⟨256,.other,false,some ⟨48,[.setEnt .internalNl,.emb (.cb 2),.code],none,false⟩⟩]⟩,⟨[46],none,[],[⟨256,.other,false,none⟩,⟨256,.ws,false,none⟩,⟨256,.lf,false,some ⟨50,[],none,false⟩⟩,⟨256,.vt,false,none⟩,⟨256,.ff,false,none⟩,⟨256,.cr,false,none⟩,⟨256,.cr,true,none⟩]⟩,⟨[46,50],none,[],[⟨256,.other,false,some ⟨42,[.setEnt .internalNl,.emb (.cb 2),.code],none,false⟩⟩,⟨256,.ws,false,some ⟨43,[.setEnt .internalNl,.emb (.cb 2)],none,false⟩⟩,⟨256,.lf,false,some ⟨51,[.setEnt .internalNl,.emb (.cb 2)],none,false⟩⟩,⟨256,.vt,false,some ⟨42,[.setEnt .internalNl,.emb (.cb 2),.code],none,false⟩⟩,⟨256,.ff,false,some ⟨45,[.setEnt .internalNl,.emb (.cb 2)],none,false⟩⟩,⟨256,.cr,false,some ⟨46,[.setEnt .internalNl,.emb (.cb 2)],none,false⟩⟩,⟨256,.cr,true,some ⟨47,[.setEnt .internalNl,.emb (.cb 2)],none,false⟩⟩,⟨256,.other,false,some ⟨48,[.setEnt .internalNl,.emb (.cb 2),.code],none,false⟩⟩]⟩,⟨[52,53],none,[],[⟨256,.other,false,some ⟨42,[.code],none,false⟩⟩,⟨256,.ws,false,some ⟨43,[],none,false⟩⟩,⟨256,.lf,false,some ⟨44,[],none,false⟩⟩,⟨256,.vt,false,some ⟨42,[.code],none,false⟩⟩,⟨256,.ff,false,some ⟨45,[],none,false⟩⟩,⟨256,.cr,false,some ⟨46,[],none,false⟩⟩,⟨256,.cr,true,some ⟨47,[],none,false⟩⟩,⟨256,.other,false,some ⟨52,[.code],none,false⟩⟩]⟩,⟨[9],none,[],[⟨256,.other,false,none⟩,⟨256,.ws,false,none⟩,⟨256,.lf,false,none⟩,⟨256,.vt,false,none⟩,⟨256,.ff,false,none⟩,⟨256,.cr,false,none⟩,⟨256,.cr,true,none⟩,⟨256,.other,false,some ⟨53,[],none,false⟩⟩]⟩,⟨[47],none,[],[⟨256,.other,false,some ⟨42,[.setEnt .internalNl,.emb (.cb 2),.code],none,false⟩⟩,⟨256,.ws,false,some ⟨43,[.setEnt .internalNl,.emb (.cb 2)],none,false⟩⟩,⟨256,.lf,false,some ⟨44,[.setEnt .internalNl,.emb (.cb 2)],none,false⟩⟩,⟨256,.vt,false,some ⟨42,[.setEnt .internalNl,.emb (.cb 2),.code],none,false⟩⟩,⟨256,.ff,false,some ⟨45,[.setEnt .internalNl,.emb (.cb 2)],none,false⟩⟩,⟨256,.cr,false,some ⟨46,[.setEnt .internalNl,.emb (.cb 2)],none,false⟩⟩,⟨256,.cr,true,some ⟨47,[.setEnt .internalNl,.emb (.cb 2)],none,false⟩⟩,⟨256,.other,false,some ⟨48,[.setEnt .internalNl,.emb (.cb 2),.code],none,false⟩⟩]⟩,⟨[47,48],none,[],[⟨256,.other,false,some ⟨42,[.setEnt .internalNl,.emb (.cb 2),.code],none,false⟩⟩,⟨256,.ws,false,some ⟨43,[.setEnt .internalNl,.emb (.cb 2)],none,false⟩⟩,⟨256,.lf,false,some ⟨44,[.setEnt .internalNl,.emb (.cb 2)],none,false⟩⟩,⟨256,.vt,false,some ⟨42,[.setEnt .internalNl,.emb (.cb 2),.code],none,false⟩⟩,⟨256,.ff,false,some ⟨45,[.setEnt .internalNl,.emb (.cb 2)],none,false⟩⟩,⟨256,.cr,false,some ⟨46,[.setEnt .internalNl,.emb (.cb 2)],none,false⟩⟩,⟨256,.cr,true,some ⟨47,[.setEnt .internalNl,.emb (.cb 2)],none,false⟩⟩,⟨256,.other,false,some ⟨48,[.setEnt .internalNl,.emb (.cb 2),.code],none,false⟩⟩]⟩,⟨[52,53,54],none,[],[⟨256,.other,false,some ⟨42,[.code],none,false⟩⟩,⟨256,.ws,false,some ⟨43,[],none,false⟩⟩,⟨256,.lf,false,some ⟨44,[],none,false⟩⟩,⟨256,.vt,false,some ⟨42,[.code],none,false⟩⟩,⟨256,.ff,false,some ⟨45,[],none,false⟩⟩,⟨256,.cr,false,some ⟨46,[],none,false⟩⟩,⟨256,.cr,true,some ⟨47,[],none,false⟩⟩,⟨256,.other,false,some ⟨0,[],some 3,true⟩⟩,⟨256,.other,false,some ⟨52,[.code],none,false⟩⟩]⟩,⟨[10],none,[],[⟨256,.other,false,none⟩,⟨256,.ws,false,none⟩,⟨256,.lf,false,none⟩,⟨256,.vt,false,none⟩,⟨256,.ff,false,none⟩,⟨256,.cr,false,none⟩,⟨256,.cr,true,none⟩,⟨256,.other,false,some ⟨0,[.emb .outry,.code,.emb .back],some 0,true⟩⟩]⟩]
theorem emb7_rowsOk : rowsOk emb7_nfa [] (emb7_cs.map (·.1)) emb7_rows = true := by decide +kernel
def emb7_D : Dfa emb7_nfa := ⟨emb7_masks, [], emb7_cs, emb7_rows, emb7_masksIn, emb7_repOk, emb7_rowsOk⟩

/-- The automaton of `Emb.Mxml.mxml_line`. -/
def emb8_nfa : Nfa := ⟨[⟨0,1152921504606846976,[],[],0,0⟩,⟨10,1152921504606846976,[],[],0,0⟩,⟨21,4294967808,[],[(8,.setEnt (.own 0))],0,0⟩,⟨22,1152921504606846976,[],[],0,2⟩,⟨36,549755813888,[],[(13,.code)],0,0⟩,⟨47,17179869184,[],[(18,.code)],0,0⟩,⟨58,8192,[],[(23,.setEnt .newline)],0,0⟩,⟨60,1024,[],[(23,.setEnt .newline)],0,0⟩,⟨61,4096,[],[(23,.setEnt .newline)],0,0⟩,⟨62,8192,[.crAlone],[(23,.setEnt .newline)],0,0⟩,⟨63,115792089237316195423570985008687907853269984665640564039457584007908834656767,[],[(24,.setEnt (.own 5))],0,0⟩],[[⟨1,649037107316853453566312041152512,[],[],0,0⟩],[⟨2,1329227995784915872903807060280344576,[],[],0,0⟩],[⟨3,288230376151711744,[],[],0,0⟩],[⟨4,9671406556917033397649408,[],[],0,0⟩],[⟨5,83076749736557242056487941267521536,[],[],0,0⟩],[⟨6,2658455991569831745807614120560689152,[],[],0,0⟩],[⟨7,324518553658426726783156020576256,[],[],0,0⟩],[⟨8,2535301200456458802993406410752,[],[],0,0⟩],[⟨9,4611686018427387904,[],[(0,.code),(1,.setEnt .checkBlank),(2,.cb),(3,.emb (.saw 1))],0,0⟩],[],[⟨11,649037107316853453566312041152512,[],[],0,0⟩],[⟨12,1329227995784915872903807060280344576,[],[],0,0⟩],[⟨13,288230376151711744,[],[],0,0⟩],[⟨14,9671406556917033397649408,[],[],0,0⟩],[⟨15,633825300114114700748351602688,[],[],0,0⟩],[⟨16,20769187434139310514121985316880384,[],[],0,0⟩],[⟨17,40564819207303340847894502572032,[],[],0,0⟩],[⟨18,5192296858534827628530496329220096,[],[],0,0⟩],[⟨19,83076749736557242056487941267521536,[],[],0,0⟩],[⟨20,4611686018427387904,[],[(4,.code),(5,.setEnt .checkBlank),(6,.cb),(7,.emb (.saw 2))],0,0⟩],[],[⟨21,4294967808,[],[(8,.setEnt (.own 0))],0,0⟩],[⟨23,8589934592,[],[],0,2⟩],[⟨24,35184372088832,[],[],0,2⟩],[⟨25,35184372088832,[],[(9,.comment)],0,2⟩],[⟨26,8192,[],[],0,2⟩,⟨28,1024,[],[],0,2⟩,⟨29,4096,[],[],0,2⟩,⟨30,8192,[.crAlone],[],0,2⟩,⟨31,4294967808,[],[],0,2⟩,⟨32,115792089237316195423570985008687907853269984665640564039457584007908834658815,[],[(12,.comment)],0,2⟩,⟨33,35184372088832,[],[],0,2⟩],[⟨27,1024,[],[],0,2⟩],[⟨26,8192,[],[(10,.setEnt .internalNl),(11,.cb)],0,2⟩,⟨28,1024,[],[(10,.setEnt .internalNl),(11,.cb)],0,2⟩,⟨29,4096,[],[(10,.setEnt .internalNl),(11,.cb)],0,2⟩,⟨30,8192,[.crAlone],[(10,.setEnt .internalNl),(11,.cb)],0,2⟩,⟨31,4294967808,[],[(10,.setEnt .internalNl),(11,.cb)],0,2⟩,⟨32,115792089237316195423570985008687907853269984665640564039457584007908834658815,[],[(10,.setEnt .internalNl),(11,.cb),(12,.comment)],0,2⟩,⟨33,35184372088832,[],[(10,.setEnt .internalNl),(11,.cb)],0,2⟩],[⟨26,8192,[],[(10,.setEnt .internalNl),(11,.cb)],0,2⟩,⟨28,1024,[],[(10,.setEnt .internalNl),(11,.cb)],0,2⟩,⟨29,4096,[],[(10,.setEnt .internalNl),(11,.cb)],0,2⟩,⟨30,8192,[.crAlone],[(10,.setEnt .internalNl),(11,.cb)],0,2⟩,⟨31,4294967808,[],[(10,.setEnt .internalNl),(11,.cb)],0,2⟩,⟨32,115792089237316195423570985008687907853269984665640564039457584007908834658815,[],[(10,.setEnt .internalNl),(11,.cb),(12,.comment)],0,2⟩,⟨33,35184372088832,[],[(10,.setEnt .internalNl),(11,.cb)],0,2⟩],[⟨26,8192,[],[(10,.setEnt .internalNl),(11,.cb)],0,2⟩,⟨28,1024,[],[(10,.setEnt .internalNl),(11,.cb)],0,2⟩,⟨29,4096,[],[(10,.setEnt .internalNl),(11,.cb)],0,2⟩,⟨30,8192,[.crAlone],[(10,.setEnt .internalNl),(11,.cb)],0,2⟩,⟨31,4294967808,[],[(10,.setEnt .internalNl),(11,.cb)],0,2⟩,⟨32,115792089237316195423570985008687907853269984665640564039457584007908834658815,[],[(10,.setEnt .internalNl),(11,.cb),(12,.comment)],0,2⟩,⟨33,35184372088832,[],[(10,.setEnt .internalNl),(11,.cb)],0,2⟩],[⟨26,8192,[],[(10,.setEnt .internalNl),(11,.cb)],0,2⟩,⟨28,1024,[],[(10,.setEnt .internalNl),(11,.cb)],0,2⟩,⟨29,4096,[],[(10,.setEnt .internalNl),(11,.cb)],0,2⟩,⟨30,8192,[.crAlone],[(10,.setEnt .internalNl),(11,.cb)],0,2⟩,⟨31,4294967808,[],[(10,.setEnt .internalNl),(11,.cb)],0,2⟩,⟨32,115792089237316195423570985008687907853269984665640564039457584007908834658815,[],[(10,.setEnt .internalNl),(11,.cb),(12,.comment)],0,2⟩,⟨33,35184372088832,[],[(10,.setEnt .internalNl),(11,.cb)],0,2⟩],[⟨26,8192,[],[],0,2⟩,⟨28,1024,[],[],0,2⟩,⟨29,4096,[],[],0,2⟩,⟨30,8192,[.crAlone],[],0,2⟩,⟨31,4294967808,[],[],0,2⟩,⟨32,115792089237316195423570985008687907853269984665640564039457584007908834658815,[],[(12,.comment)],0,2⟩,⟨33,35184372088832,[],[],0,2⟩],[⟨26,8192,[],[],0,2⟩,⟨28,1024,[],[],0,2⟩,⟨29,4096,[],[],0,2⟩,⟨30,8192,[.crAlone],[],0,2⟩,⟨31,4294967808,[],[],0,2⟩,⟨32,115792089237316195423570985008687907853269984665640564039457584007908834658815,[],[(12,.comment)],0,2⟩,⟨33,35184372088832,[],[],0,2⟩],[⟨34,35184372088832,[],[],0,0⟩],[⟨35,4611686018427387904,[],[],2,0⟩],[],[⟨37,8192,[],[],0,0⟩,⟨39,1024,[],[],0,0⟩,⟨40,4096,[],[],0,0⟩,⟨41,8192,[.crAlone],[],0,0⟩,⟨42,4294967808,[],[],0,0⟩,⟨43,115792089237316195423570985008687907853269984665635612279300442486259482348031,[],[(16,.code)],0,0⟩,⟨44,4951760157141521099596496896,[],[],0,0⟩,⟨46,549755813888,[],[],0,0⟩],[⟨38,1024,[],[],0,0⟩],[⟨37,8192,[],[(14,.setEnt .internalNl),(15,.cb)],0,0⟩,⟨39,1024,[],[(14,.setEnt .internalNl),(15,.cb)],0,0⟩,⟨40,4096,[],[(14,.setEnt .internalNl),(15,.cb)],0,0⟩,⟨41,8192,[.crAlone],[(14,.setEnt .internalNl),(15,.cb)],0,0⟩,⟨42,4294967808,[],[(14,.setEnt .internalNl),(15,.cb)],0,0⟩,⟨43,115792089237316195423570985008687907853269984665635612279300442486259482348031,[],[(14,.setEnt .internalNl),(15,.cb),(16,.code)],0,0⟩,⟨44,4951760157141521099596496896,[],[(14,.setEnt .internalNl),(15,.cb)],0,0⟩,⟨46,549755813888,[],[(14,.setEnt .internalNl),(15,.cb)],0,0⟩],[⟨37,8192,[],[(14,.setEnt .internalNl),(15,.cb)],0,0⟩,⟨39,1024,[],[(14,.setEnt .internalNl),(15,.cb)],0,0⟩,⟨40,4096,[],[(14,.setEnt .internalNl),(15,.cb)],0,0⟩,⟨41,8192,[.crAlone],[(14,.setEnt .internalNl),(15,.cb)],0,0⟩,⟨42,4294967808,[],[(14,.setEnt .internalNl),(15,.cb)],0,0⟩,⟨43,115792089237316195423570985008687907853269984665635612279300442486259482348031,[],[(14,.setEnt .internalNl),(15,.cb),(16,.code)],0,0⟩,⟨44,4951760157141521099596496896,[],[(14,.setEnt .internalNl),(15,.cb)],0,0⟩,⟨46,549755813888,[],[(14,.setEnt .internalNl),(15,.cb)],0,0⟩],[⟨37,8192,[],[(14,.setEnt .internalNl),(15,.cb)],0,0⟩,⟨39,1024,[],[(14,.setEnt .internalNl),(15,.cb)],0,0⟩,⟨40,4096,[],[(14,.setEnt .internalNl),(15,.cb)],0,0⟩,⟨41,8192,[.crAlone],[(14,.setEnt .internalNl),(15,.cb)],0,0⟩,⟨42,4294967808,[],[(14,.setEnt .internalNl),(15,.cb)],0,0⟩,⟨43,115792089237316195423570985008687907853269984665635612279300442486259482348031,[],[(14,.setEnt .internalNl),(15,.cb),(16,.code)],0,0⟩,⟨44,4951760157141521099596496896,[],[(14,.setEnt .internalNl),(15,.cb)],0,0⟩,⟨46,549755813888,[],[(14,.setEnt .internalNl),(15,.cb)],0,0⟩],[⟨37,8192,[],[(14,.setEnt .internalNl),(15,.cb)],0,0⟩,⟨39,1024,[],[(14,.setEnt .internalNl),(15,.cb)],0,0⟩,⟨40,4096,[],[(14,.setEnt .internalNl),(15,.cb)],0,0⟩,⟨41,8192,[.crAlone],[(14,.setEnt .internalNl),(15,.cb)],0,0⟩,⟨42,4294967808,[],[(14,.setEnt .internalNl),(15,.cb)],0,0⟩,⟨43,115792089237316195423570985008687907853269984665635612279300442486259482348031,[],[(14,.setEnt .internalNl),(15,.cb),(16,.code)],0,0⟩,⟨44,4951760157141521099596496896,[],[(14,.setEnt .internalNl),(15,.cb)],0,0⟩,⟨46,549755813888,[],[(14,.setEnt .internalNl),(15,.cb)],0,0⟩],[⟨37,8192,[],[],0,0⟩,⟨39,1024,[],[],0,0⟩,⟨40,4096,[],[],0,0⟩,⟨41,8192,[.crAlone],[],0,0⟩,⟨42,4294967808,[],[],0,0⟩,⟨43,115792089237316195423570985008687907853269984665635612279300442486259482348031,[],[(16,.code)],0,0⟩,⟨44,4951760157141521099596496896,[],[],0,0⟩,⟨46,549755813888,[],[],0,0⟩],[⟨37,8192,[],[],0,0⟩,⟨39,1024,[],[],0,0⟩,⟨40,4096,[],[],0,0⟩,⟨41,8192,[.crAlone],[],0,0⟩,⟨42,4294967808,[],[],0,0⟩,⟨43,115792089237316195423570985008687907853269984665635612279300442486259482348031,[],[(16,.code)],0,0⟩,⟨44,4951760157141521099596496896,[],[],0,0⟩,⟨46,549755813888,[],[],0,0⟩],[⟨45,115792089237316195423570985008687907853269984665640564039457584007913129626623,[],[(17,.code)],0,0⟩],[⟨37,8192,[],[],0,0⟩,⟨39,1024,[],[],0,0⟩,⟨40,4096,[],[],0,0⟩,⟨41,8192,[.crAlone],[],0,0⟩,⟨42,4294967808,[],[],0,0⟩,⟨43,115792089237316195423570985008687907853269984665635612279300442486259482348031,[],[(16,.code)],0,0⟩,⟨44,4951760157141521099596496896,[],[],0,0⟩,⟨46,549755813888,[],[],0,0⟩],[],[⟨48,8192,[],[],0,0⟩,⟨50,1024,[],[],0,0⟩,⟨51,4096,[],[],0,0⟩,⟨52,8192,[.crAlone],[],0,0⟩,⟨53,4294967808,[],[],0,0⟩,⟨54,115792089237316195423570985008687907853269984665635612279300442486792058292735,[],[(21,.code)],0,0⟩,⟨55,4951760157141521099596496896,[],[],0,0⟩,⟨57,17179869184,[],[],0,0⟩],[⟨49,1024,[],[],0,0⟩],[⟨48,8192,[],[(19,.setEnt .internalNl),(20,.cb)],0,0⟩,⟨50,1024,[],[(19,.setEnt .internalNl),(20,.cb)],0,0⟩,⟨51,4096,[],[(19,.setEnt .internalNl),(20,.cb)],0,0⟩,⟨52,8192,[.crAlone],[(19,.setEnt .internalNl),(20,.cb)],0,0⟩,⟨53,4294967808,[],[(19,.setEnt .internalNl),(20,.cb)],0,0⟩,⟨54,115792089237316195423570985008687907853269984665635612279300442486792058292735,[],[(19,.setEnt .internalNl),(20,.cb),(21,.code)],0,0⟩,⟨55,4951760157141521099596496896,[],[(19,.setEnt .internalNl),(20,.cb)],0,0⟩,⟨57,17179869184,[],[(19,.setEnt .internalNl),(20,.cb)],0,0⟩],[⟨48,8192,[],[(19,.setEnt .internalNl),(20,.cb)],0,0⟩,⟨50,1024,[],[(19,.setEnt .internalNl),(20,.cb)],0,0⟩,⟨51,4096,[],[(19,.setEnt .internalNl),(20,.cb)],0,0⟩,⟨52,8192,[.crAlone],[(19,.setEnt .internalNl),(20,.cb)],0,0⟩,⟨53,4294967808,[],[(19,.setEnt .internalNl),(20,.cb)],0,0⟩,⟨54,115792089237316195423570985008687907853269984665635612279300442486792058292735,[],[(19,.setEnt .internalNl),(20,.cb),(21,.code)],0,0⟩,⟨55,4951760157141521099596496896,[],[(19,.setEnt .internalNl),(20,.cb)],0,0⟩,⟨57,17179869184,[],[(19,.setEnt .internalNl),(20,.cb)],0,0⟩],[⟨48,8192,[],[(19,.setEnt .internalNl),(20,.cb)],0,0⟩,⟨50,1024,[],[(19,.setEnt .internalNl),(20,.cb)],0,0⟩,⟨51,4096,[],[(19,.setEnt .internalNl),(20,.cb)],0,0⟩,⟨52,8192,[.crAlone],[(19,.setEnt .internalNl),(20,.cb)],0,0⟩,⟨53,4294967808,[],[(19,.setEnt .internalNl),(20,.cb)],0,0⟩,⟨54,115792089237316195423570985008687907853269984665635612279300442486792058292735,[],[(19,.setEnt .internalNl),(20,.cb),(21,.code)],0,0⟩,⟨55,4951760157141521099596496896,[],[(19,.setEnt .internalNl),(20,.cb)],0,0⟩,⟨57,17179869184,[],[(19,.setEnt .internalNl),(20,.cb)],0,0⟩],[⟨48,8192,[],[(19,.setEnt .internalNl),(20,.cb)],0,0⟩,⟨50,1024,[],[(19,.setEnt .internalNl),(20,.cb)],0,0⟩,⟨51,4096,[],[(19,.setEnt .internalNl),(20,.cb)],0,0⟩,⟨52,8192,[.crAlone],[(19,.setEnt .internalNl),(20,.cb)],0,0⟩,⟨53,4294967808,[],[(19,.setEnt .internalNl),(20,.cb)],0,0⟩,⟨54,115792089237316195423570985008687907853269984665635612279300442486792058292735,[],[(19,.setEnt .internalNl),(20,.cb),(21,.code)],0,0⟩,⟨55,4951760157141521099596496896,[],[(19,.setEnt .internalNl),(20,.cb)],0,0⟩,⟨57,17179869184,[],[(19,.setEnt .internalNl),(20,.cb)],0,0⟩],[⟨48,8192,[],[],0,0⟩,⟨50,1024,[],[],0,0⟩,⟨51,4096,[],[],0,0⟩,⟨52,8192,[.crAlone],[],0,0⟩,⟨53,4294967808,[],[],0,0⟩,⟨54,115792089237316195423570985008687907853269984665635612279300442486792058292735,[],[(21,.code)],0,0⟩,⟨55,4951760157141521099596496896,[],[],0,0⟩,⟨57,17179869184,[],[],0,0⟩],[⟨48,8192,[],[],0,0⟩,⟨50,1024,[],[],0,0⟩,⟨51,4096,[],[],0,0⟩,⟨52,8192,[.crAlone],[],0,0⟩,⟨53,4294967808,[],[],0,0⟩,⟨54,115792089237316195423570985008687907853269984665635612279300442486792058292735,[],[(21,.code)],0,0⟩,⟨55,4951760157141521099596496896,[],[],0,0⟩,⟨57,17179869184,[],[],0,0⟩],[⟨56,115792089237316195423570985008687907853269984665640564039457584007913129626623,[],[(22,.code)],0,0⟩],[⟨48,8192,[],[],0,0⟩,⟨50,1024,[],[],0,0⟩,⟨51,4096,[],[],0,0⟩,⟨52,8192,[.crAlone],[],0,0⟩,⟨53,4294967808,[],[],0,0⟩,⟨54,115792089237316195423570985008687907853269984665635612279300442486792058292735,[],[(21,.code)],0,0⟩,⟨55,4951760157141521099596496896,[],[],0,0⟩,⟨57,17179869184,[],[],0,0⟩],[],[⟨59,1024,[],[(23,.setEnt .newline)],0,0⟩],[],[],[],[],[]],[none,none,none,none,none,none,none,none,none,some (0,[]),none,none,none,none,none,none,none,none,none,none,some (1,[]),some (2,[]),none,none,none,none,none,none,none,none,none,none,none,none,none,some (3,[]),none,none,none,none,none,none,none,none,none,none,some (4,[]),none,none,none,none,none,none,none,none,none,none,some (4,[]),none,some (5,[]),some (5,[]),some (5,[]),some (5,[]),some (6,[])],[4,8,9,13,23,24,25]⟩
def emb8_masks : List Nat := [1152921504606846976,4294967808,549755813888,17179869184,8192,1024,4096,115792089237316195423570985008687907853269984665640564039457584007908834656767,649037107316853453566312041152512,1329227995784915872903807060280344576,288230376151711744,9671406556917033397649408,83076749736557242056487941267521536,2658455991569831745807614120560689152,324518553658426726783156020576256,2535301200456458802993406410752,4611686018427387904,633825300114114700748351602688,20769187434139310514121985316880384,40564819207303340847894502572032,5192296858534827628530496329220096,8589934592,35184372088832,115792089237316195423570985008687907853269984665640564039457584007908834658815,115792089237316195423570985008687907853269984665635612279300442486259482348031,4951760157141521099596496896,115792089237316195423570985008687907853269984665640564039457584007913129626623,115792089237316195423570985008687907853269984665635612279300442486792058292735]
def emb8_cs : List (Nat × Nat) := [(0,115792089237316195423570985008687907853265886926124611945734827433408679887359),(9,4294967808),(10,1024),(11,2048),(12,4096),(13,8192),(33,8589934592),(34,17179869184),(39,549755813888),(45,35184372088832),(58,288230376151711744),(60,1152921504606846976),(62,4611686018427387904),(83,9671406556917033397649408),(92,4951760157141521099596496896),(99,633825300114114700748351602688),(101,2535301200456458802993406410752),(105,40564819207303340847894502572032),(108,324518553658426726783156020576256),(109,649037107316853453566312041152512),(112,5192296858534827628530496329220096),(114,20769187434139310514121985316880384),(116,83076749736557242056487941267521536),(120,1329227995784915872903807060280344576),(121,2658455991569831745807614120560689152)]
theorem emb8_masksIn : masksIn emb8_nfa emb8_masks = true := by decide +kernel
theorem emb8_repOk : repOk emb8_masks emb8_cs = true := by decide +kernel
def emb8_rows : List Row := [⟨[],none,[],[⟨256,.other,false,some ⟨0,[.setEnt (.own 5)],some 6,true⟩⟩,⟨256,.ws,false,some ⟨1,[.setEnt (.own 0)],some 2,false⟩⟩,⟨256,.lf,false,some ⟨0,[.setEnt .newline],some 5,true⟩⟩,⟨256,.vt,false,none⟩,⟨256,.ff,false,some ⟨0,[.setEnt .newline],some 5,true⟩⟩,⟨256,.cr,false,some ⟨2,[.setEnt .newline],none,false⟩⟩,⟨256,.cr,true,some ⟨3,[.setEnt .newline],some 5,false⟩⟩,⟨256,.other,false,some ⟨4,[.code,.setEnt (.own 5)],some 6,false⟩⟩,⟨256,.other,false,some ⟨5,[.code,.setEnt (.own 5)],some 6,false⟩⟩,⟨256,.other,false,some ⟨6,[.setEnt (.own 5)],some 6,false⟩⟩]⟩,⟨[21],some 2,[],[⟨256,.other,false,none⟩,⟨256,.ws,false,some ⟨1,[.setEnt (.own 0)],some 2,false⟩⟩,⟨256,.lf,false,none⟩,⟨256,.vt,false,none⟩,⟨256,.ff,false,none⟩,⟨256,.cr,false,none⟩,⟨256,.cr,true,none⟩]⟩,⟨[58],none,[],[⟨256,.other,false,none⟩,⟨256,.ws,false,none⟩,⟨256,.lf,false,some ⟨0,[.setEnt .newline],some 5,true⟩⟩,⟨256,.vt,false,none⟩,⟨256,.ff,false,none⟩,⟨256,.cr,false,none⟩,⟨256,.cr,true,none⟩]⟩,⟨[58,62],some 5,[],[⟨256,.other,false,none⟩,⟨256,.ws,false,none⟩,⟨256,.lf,false,some ⟨0,[.setEnt .newline],some 5,true⟩⟩,⟨256,.vt,false,none⟩,⟨256,.ff,false,none⟩,⟨256,.cr,false,none⟩,⟨256,.cr,true,none⟩]⟩,⟨[47,63],some 6,[],[⟨256,.other,false,some ⟨7,[.code],none,false⟩⟩,⟨256,.ws,false,some ⟨8,[],none,false⟩⟩,⟨256,.lf,false,some ⟨9,[],none,false⟩⟩,⟨256,.vt,false,some ⟨7,[.code],none,false⟩⟩,⟨256,.ff,false,some ⟨10,[],none,false⟩⟩,⟨256,.cr,false,some ⟨11,[],none,false⟩⟩,⟨256,.cr,true,some ⟨12,[],none,false⟩⟩,⟨256,.other,false,some ⟨0,[],some 4,true⟩⟩,⟨256,.other,false,some ⟨13,[],none,false⟩⟩]⟩,⟨[36,63],some 6,[],[⟨256,.other,false,some ⟨14,[.code],none,false⟩⟩,⟨256,.ws,false,some ⟨15,[],none,false⟩⟩,⟨256,.lf,false,some ⟨16,[],none,false⟩⟩,⟨256,.vt,false,some ⟨14,[.code],none,false⟩⟩,⟨256,.ff,false,some ⟨17,[],none,false⟩⟩,⟨256,.cr,false,some ⟨18,[],none,false⟩⟩,⟨256,.cr,true,some ⟨19,[],none,false⟩⟩,⟨256,.other,false,some ⟨0,[],some 4,true⟩⟩,⟨256,.other,false,some ⟨20,[],none,false⟩⟩]⟩,⟨[0,10,22,63],some 6,[],[⟨256,.other,false,none⟩,⟨256,.ws,false,none⟩,⟨256,.lf,false,none⟩,⟨256,.vt,false,none⟩,⟨256,.ff,false,none⟩,⟨256,.cr,false,none⟩,⟨256,.cr,true,none⟩,⟨256,.other,false,some ⟨21,[],none,false⟩⟩,⟨256,.other,false,some ⟨22,[],none,false⟩⟩]⟩,⟨[54],none,[],[⟨256,.other,false,some ⟨7,[.code],none,false⟩⟩,⟨256,.ws,false,some ⟨8,[],none,false⟩⟩,⟨256,.lf,false,some ⟨9,[],none,false⟩⟩,⟨256,.vt,false,some ⟨7,[.code],none,false⟩⟩,⟨256,.ff,false,some ⟨10,[],none,false⟩⟩,⟨256,.cr,false,some ⟨11,[],none,false⟩⟩,⟨256,.cr,true,some ⟨12,[],none,false⟩⟩,⟨256,.other,false,some ⟨0,[],some 4,true⟩⟩,⟨256,.other,false,some ⟨13,[],none,false⟩⟩]⟩,⟨[53],none,[],[⟨256,.other,false,some ⟨7,[.code],none,false⟩⟩,⟨256,.ws,false,some ⟨8,[],none,false⟩⟩,⟨256,.lf,false,some ⟨9,[],none,false⟩⟩,⟨256,.vt,false,some ⟨7,[.code],none,false⟩⟩,⟨256,.ff,false,some ⟨10,[],none,false⟩⟩,⟨256,.cr,false,some ⟨11,[],none,false⟩⟩,⟨256,.cr,true,some ⟨12,[],none,false⟩⟩,⟨256,.other,false,some ⟨0,[],some 4,true⟩⟩,⟨256,.other,false,some ⟨13,[],none,false⟩⟩]⟩,⟨[50],none,[],[⟨256,.other,false,some ⟨7,[.setEnt .internalNl,.cb,.code],none,false⟩⟩,⟨256,.ws,false,some ⟨8,[.setEnt .internalNl,.cb],none,false⟩⟩,⟨256,.lf,false,some ⟨9,[.setEnt .internalNl,.cb],none,false⟩⟩,⟨256,.vt,false,some ⟨7,[.setEnt .internalNl,.cb,.code],none,false⟩⟩,⟨256,.ff,false,some ⟨10,[.setEnt .internalNl,.cb],none,false⟩⟩,⟨256,.cr,false,some ⟨11,[.setEnt .internalNl,.cb],none,false⟩⟩,⟨256,.cr,true,some ⟨12,[.setEnt .internalNl,.cb],none,false⟩⟩,⟨256,.other,false,some ⟨0,[.setEnt .internalNl,.cb],some 4,true⟩⟩,⟨256,.other,false,some ⟨13,[.setEnt .internalNl,.cb],none,false⟩⟩]⟩,⟨[51],none,[],[⟨256,.other,false,some ⟨7,[.setEnt .internalNl,.cb,.code],none,false⟩⟩,⟨256,.ws,false,some ⟨8,[.setEnt .internalNl,.cb],none,false⟩⟩,⟨256,.lf,false,some ⟨9,[.setEnt .internalNl,.cb],none,false⟩⟩,⟨256,.vt,false,some ⟨7,[.setEnt .internalNl,.cb,.code],none,false⟩⟩,⟨256,.ff,false,some ⟨10,[.setEnt .internalNl,.cb],none,false⟩⟩,⟨256,.cr,false,some ⟨11,[.setEnt .internalNl,.cb],none,false⟩⟩,⟨256,.cr,true,some ⟨12,[.setEnt .internalNl,.cb],none,false⟩⟩,⟨256,.other,false,some ⟨0,[.setEnt .internalNl,.cb],some 4,true⟩⟩,⟨256,.other,false,some ⟨13,[.setEnt .internalNl,.cb],none,false⟩⟩]⟩,⟨[48],none,[],[⟨256,.other,false,none⟩,⟨256,.ws,false,none⟩,⟨256,.lf,false,some ⟨23,[],none,false⟩⟩,⟨256,.vt,false,none⟩,⟨256,.ff,false,none⟩,⟨256,.cr,false,none⟩,⟨256,.cr,true,none⟩]⟩,⟨[48,52],none,[],[⟨256,.other,false,some ⟨7,[.setEnt .internalNl,.cb,.code],none,false⟩⟩,⟨256,.ws,false,some ⟨8,[.setEnt .internalNl,.cb],none,false⟩⟩,⟨256,.lf,false,some ⟨24,[.setEnt .internalNl,.cb],none,false⟩⟩,⟨256,.vt,false,some ⟨7,[.setEnt .internalNl,.cb,.code],none,false⟩⟩,⟨256,.ff,false,some ⟨10,[.setEnt .internalNl,.cb],none,false⟩⟩,⟨256,.cr,false,some ⟨11,[.setEnt .internalNl,.cb],none,false⟩⟩,⟨256,.cr,true,some ⟨12,[.setEnt .internalNl,.cb],none,false⟩⟩,⟨256,.other,false,some ⟨0,[.setEnt .internalNl,.cb],some 4,true⟩⟩,⟨256,.other,false,some ⟨13,[.setEnt .internalNl,.cb],none,false⟩⟩]⟩,⟨[55],none,[],[⟨256,.other,false,some ⟨25,[.code],none,false⟩⟩,⟨256,.ws,false,some ⟨25,[.code],none,false⟩⟩,⟨256,.lf,false,none⟩,⟨256,.vt,false,some ⟨25,[.code],none,false⟩⟩,⟨256,.ff,false,none⟩,⟨256,.cr,false,none⟩,⟨256,.cr,true,none⟩]⟩,⟨[43],none,[],[⟨256,.other,false,some ⟨14,[.code],none,false⟩⟩,⟨256,.ws,false,some ⟨15,[],none,false⟩⟩,⟨256,.lf,false,some ⟨16,[],none,false⟩⟩,⟨256,.vt,false,some ⟨14,[.code],none,false⟩⟩,⟨256,.ff,false,some ⟨17,[],none,false⟩⟩,⟨256,.cr,false,some ⟨18,[],none,false⟩⟩,⟨256,.cr,true,some ⟨19,[],none,false⟩⟩,⟨256,.other,false,some ⟨0,[],some 4,true⟩⟩,⟨256,.other,false,some ⟨20,[],none,false⟩⟩]⟩,⟨[42],none,[],[⟨256,.other,false,some ⟨14,[.code],none,false⟩⟩,⟨256,.ws,false,some ⟨15,[],none,false⟩⟩,⟨256,.lf,false,some ⟨16,[],none,false⟩⟩,⟨256,.vt,false,some ⟨14,[.code],none,false⟩⟩,⟨256,.ff,false,some ⟨17,[],none,false⟩⟩,⟨256,.cr,false,some ⟨18,[],none,false⟩⟩,⟨256,.cr,true,some ⟨19,[],none,false⟩⟩,⟨256,.other,false,some ⟨0,[],some 4,true⟩⟩,⟨256,.other,false,some ⟨20,[],none,false⟩⟩]⟩,⟨[39],none,[],[⟨256,.other,false,some ⟨14,[.setEnt .internalNl,.cb,.code],none,false⟩⟩,⟨256,.ws,false,some ⟨15,[.setEnt .internalNl,.cb],none,false⟩⟩,⟨256,.lf,false,some ⟨16,[.setEnt .internalNl,.cb],none,false⟩⟩,⟨256,.vt,false,some ⟨14,[.setEnt .internalNl,.cb,.code],none,false⟩⟩,⟨256,.ff,false,some ⟨17,[.setEnt .internalNl,.cb],none,false⟩⟩,⟨256,.cr,false,some ⟨18,[.setEnt .internalNl,.cb],none,false⟩⟩,⟨256,.cr,true,some ⟨19,[.setEnt .internalNl,.cb],none,false⟩⟩,⟨256,.other,false,some ⟨0,[.setEnt .internalNl,.cb],some 4,true⟩⟩,⟨256,.other,false,some ⟨20,[.setEnt .internalNl,.cb],none,false⟩⟩]⟩,⟨[40],none,[],[⟨256,.other,false,some ⟨14,[.setEnt .internalNl,.cb,.code],none,false⟩⟩,⟨256,.ws,false,some ⟨15,[.setEnt .internalNl,.cb],none,false⟩⟩,⟨256,.lf,false,some ⟨16,[.setEnt .internalNl,.cb],none,false⟩⟩,⟨256,.vt,false,some ⟨14,[.setEnt .internalNl,.cb,.code],none,false⟩⟩,⟨256,.ff,false,some ⟨17,[.setEnt .internalNl,.cb],none,false⟩⟩,⟨256,.cr,false,some ⟨18,[.setEnt .internalNl,.cb],none,false⟩⟩,⟨256,.cr,true,some ⟨19,[.setEnt .internalNl,.cb],none,false⟩⟩,⟨256,.other,false,some ⟨0,[.setEnt .internalNl,.cb],some 4,true⟩⟩,⟨256,.other,false,some ⟨20,[.setEnt .internalNl,.cb],none,false⟩⟩]⟩,⟨[37],none,[],[⟨256,.other,false,none⟩,⟨256,.ws,false,none⟩,⟨256,.lf,false,some ⟨26,[],none,false⟩⟩,⟨256,.vt,false,none⟩,⟨256,.ff,false,none⟩,⟨256,.cr,false,none⟩,⟨256,.cr,true,none⟩]⟩,⟨[37,41],none,[],[⟨256,.other,false,some ⟨14,[.setEnt .internalNl,.cb,.code],none,false⟩⟩,⟨256,.ws,false,some ⟨15,[.setEnt .internalNl,.cb],none,false⟩⟩,⟨256,.lf,false,some ⟨27,[.setEnt .internalNl,.cb],none,false⟩⟩,⟨256,.vt,false,some ⟨14,[.setEnt .internalNl,.cb,.code],none,false⟩⟩,⟨256,.ff,false,some ⟨17,[.setEnt .internalNl,.cb],none,false⟩⟩,⟨256,.cr,false,some ⟨18,[.setEnt .internalNl,.cb],none,false⟩⟩,⟨256,.cr,true,some ⟨19,[.setEnt .internalNl,.cb],none,false⟩⟩,⟨256,.other,false,some ⟨0,[.setEnt .internalNl,.cb],some 4,true⟩⟩,⟨256,.other,false,some ⟨20,[.setEnt .internalNl,.cb],none,false⟩⟩]⟩,⟨[44],none,[],[⟨256,.other,false,some ⟨28,[.code],none,false⟩⟩,⟨256,.ws,false,some ⟨28,[.code],none,false⟩⟩,⟨256,.lf,false,none⟩,⟨256,.vt,false,some ⟨28,[.code],none,false⟩⟩,⟨256,.ff,false,none⟩,⟨256,.cr,false,none⟩,⟨256,.cr,true,none⟩]⟩,⟨[23],none,[],[⟨256,.other,false,none⟩,⟨256,.ws,false,none⟩,⟨256,.lf,false,none⟩,⟨256,.vt,false,none⟩,⟨256,.ff,false,none⟩,⟨256,.cr,false,none⟩,⟨256,.cr,true,none⟩,⟨256,.other,false,some ⟨29,[],none,false⟩⟩]⟩,⟨[1,11],none,[],[⟨256,.other,false,none⟩,⟨256,.ws,false,none⟩,⟨256,.lf,false,none⟩,⟨256,.vt,false,none⟩,⟨256,.ff,false,none⟩,⟨256,.cr,false,none⟩,⟨256,.cr,true,none⟩,⟨256,.other,false,some ⟨30,[],none,false⟩⟩]⟩,⟨[49],none,[],[⟨256,.other,false,some ⟨7,[.setEnt .internalNl,.cb,.code],none,false⟩⟩,⟨256,.ws,false,some ⟨8,[.setEnt .internalNl,.cb],none,false⟩⟩,⟨256,.lf,false,some ⟨9,[.setEnt .internalNl,.cb],none,false⟩⟩,⟨256,.vt,false,some ⟨7,[.setEnt .internalNl,.cb,.code],none,false⟩⟩,⟨256,.ff,false,some ⟨10,[.setEnt .internalNl,.cb],none,false⟩⟩,⟨256,.cr,false,some ⟨11,[.setEnt .internalNl,.cb],none,false⟩⟩,⟨256,.cr,true,some ⟨12,[.setEnt .internalNl,.cb],none,false⟩⟩,⟨256,.other,false,some ⟨0,[.setEnt .internalNl,.cb],some 4,true⟩⟩,⟨256,.other,false,some ⟨13,[.setEnt .internalNl,.cb],none,false⟩⟩]⟩,⟨[49,50],none,[],[⟨256,.other,false,some ⟨7,[.setEnt .internalNl,.cb,.code],none,false⟩⟩,⟨256,.ws,false,some ⟨8,[.setEnt .internalNl,.cb],none,false⟩⟩,⟨256,.lf,false,some ⟨9,[.setEnt .internalNl,.cb],none,false⟩⟩,⟨256,.vt,false,some ⟨7,[.setEnt .internalNl,.cb,.code],none,false⟩⟩,⟨256,.ff,false,some ⟨10,[.setEnt .internalNl,.cb],none,false⟩⟩,⟨256,.cr,false,some ⟨11,[.setEnt .internalNl,.cb],none,false⟩⟩,⟨256,.cr,true,some ⟨12,[.setEnt .internalNl,.cb],none,false⟩⟩,⟨256,.other,false,some ⟨0,[.setEnt .internalNl,.cb],some 4,true⟩⟩,⟨256,.other,false,some ⟨13,[.setEnt .internalNl,.cb],none,false⟩⟩]⟩,⟨[56],none,[],[⟨256,.other,false,some ⟨7,[.code],none,false⟩⟩,⟨256,.ws,false,some ⟨8,[],none,false⟩⟩,⟨256,.lf,false,some ⟨9,[],none,false⟩⟩,⟨256,.vt,false,some ⟨7,[.code],none,false⟩⟩,⟨256,.ff,false,some ⟨10,[],none,false⟩⟩,⟨256,.cr,false,some ⟨11,[],none,false⟩⟩,⟨256,.cr,true,some ⟨12,[],none,false⟩⟩,⟨256,.other,false,some ⟨0,[],some 4,true⟩⟩,⟨256,.other,false,some ⟨13,[],none,false⟩⟩]⟩,⟨[38],none,[],[⟨256,.other,false,some ⟨14,[.setEnt .internalNl,.cb,.code],none,false⟩⟩,⟨256,.ws,false,some ⟨15,[.setEnt .internalNl,.cb],none,false⟩⟩,⟨256,.lf,false,some ⟨16,[.setEnt .internalNl,.cb],none,false⟩⟩,⟨256,.vt,false,some ⟨14,[.setEnt .internalNl,.cb,.code],none,false⟩⟩,⟨256,.ff,false,some ⟨17,[.setEnt .internalNl,.cb],none,false⟩⟩,⟨256,.cr,false,some ⟨18,[.setEnt .internalNl,.cb],none,false⟩⟩,⟨256,.cr,true,some ⟨19,[.setEnt .internalNl,.cb],none,false⟩⟩,⟨256,.other,false,some ⟨0,[.setEnt .internalNl,.cb],some 4,true⟩⟩,⟨256,.other,false,some ⟨20,[.setEnt .internalNl,.cb],none,false⟩⟩]⟩,⟨[38,39],none,[],[⟨256,.other,false,some ⟨14,[.setEnt .internalNl,.cb,.code],none,false⟩⟩,⟨256,.ws,false,some ⟨15,[.setEnt .internalNl,.cb],none,false⟩⟩,⟨256,.lf,false,some ⟨16,[.setEnt .internalNl,.cb],none,false⟩⟩,⟨256,.vt,false,some ⟨14,[.setEnt .internalNl,.cb,.code],none,false⟩⟩,⟨256,.ff,false,some ⟨17,[.setEnt .internalNl,.cb],none,false⟩⟩,⟨256,.cr,false,some ⟨18,[.setEnt .internalNl,.cb],none,false⟩⟩,⟨256,.cr,true,some ⟨19,[.setEnt .internalNl,.cb],none,false⟩⟩,⟨256,.other,false,some ⟨0,[.setEnt .internalNl,.cb],some 4,true⟩⟩,⟨256,.other,false,some ⟨20,[.setEnt .internalNl,.cb],none,false⟩⟩]⟩,⟨[45],none,[],[⟨256,.other,false,some ⟨14,[.code],none,false⟩⟩,⟨256,.ws,false,some ⟨15,[],none,false⟩⟩,⟨256,.lf,false,some ⟨16,[],none,false⟩⟩,⟨256,.vt,false,some ⟨14,[.code],none,false⟩⟩,⟨256,.ff,false,some ⟨17,[],none,false⟩⟩,⟨256,.cr,false,some ⟨18,[],none,false⟩⟩,⟨256,.cr,true,some ⟨19,[],none,false⟩⟩,⟨256,.other,false,some ⟨0,[],some 4,true⟩⟩,⟨256,.other,false,some ⟨20,[],none,false⟩⟩]⟩,⟨[24],none,[],[⟨256,.other,false,none⟩,⟨256,.ws,false,none⟩,⟨256,.lf,false,none⟩,⟨256,.vt,false,none⟩,⟨256,.ff,false,none⟩,⟨256,.cr,false,none⟩,⟨256,.cr,true,none⟩,⟨256,.other,false,some ⟨31,[.comment],none,false⟩⟩]⟩,⟨[2,12],none,[],[⟨256,.other,false,none⟩,⟨256,.ws,false,none⟩,⟨256,.lf,false,none⟩,⟨256,.vt,false,none⟩,⟨256,.ff,false,none⟩,⟨256,.cr,false,none⟩,⟨256,.cr,true,none⟩,⟨256,.other,false,some ⟨32,[],none,false⟩⟩]⟩,⟨[25],none,[],[⟨256,.other,false,some ⟨33,[.comment],none,false⟩⟩,⟨256,.ws,false,some ⟨34,[],none,false⟩⟩,⟨256,.lf,false,some ⟨35,[],none,false⟩⟩,⟨256,.vt,false,some ⟨33,[.comment],none,false⟩⟩,⟨256,.ff,false,some ⟨36,[],none,false⟩⟩,⟨256,.cr,false,some ⟨37,[],none,false⟩⟩,⟨256,.cr,true,some ⟨38,[],none,false⟩⟩,⟨256,.other,false,some ⟨39,[.comment],none,false⟩⟩]⟩,⟨[3,13],none,[],[⟨256,.other,false,none⟩,⟨256,.ws,false,none⟩,⟨256,.lf,false,none⟩,⟨256,.vt,false,none⟩,⟨256,.ff,false,none⟩,⟨256,.cr,false,none⟩,⟨256,.cr,true,none⟩,⟨256,.other,false,some ⟨40,[],none,false⟩⟩]⟩,⟨[32],none,[],[⟨256,.other,false,some ⟨33,[.comment],none,false⟩⟩,⟨256,.ws,false,some ⟨34,[],none,false⟩⟩,⟨256,.lf,false,some ⟨35,[],none,false⟩⟩,⟨256,.vt,false,some ⟨33,[.comment],none,false⟩⟩,⟨256,.ff,false,some ⟨36,[],none,false⟩⟩,⟨256,.cr,false,some ⟨37,[],none,false⟩⟩,⟨256,.cr,true,some ⟨38,[],none,false⟩⟩,⟨256,.other,false,some ⟨39,[.comment],none,false⟩⟩]⟩,⟨[31],none,[],[⟨256,.other,false,some ⟨33,[.comment],none,false⟩⟩,⟨256,.ws,false,some ⟨34,[],none,false⟩⟩,⟨256,.lf,false,some ⟨35,[],none,false⟩⟩,⟨256,.vt,false,some ⟨33,[.comment],none,false⟩⟩,⟨256,.ff,false,some ⟨36,[],none,false⟩⟩,⟨256,.cr,false,some ⟨37,[],none,false⟩⟩,⟨256,.cr,true,some ⟨38,[],none,false⟩⟩,⟨256,.other,false,some ⟨39,[.comment],none,false⟩⟩]⟩,⟨[28],none,[],[⟨256,.other,false,some ⟨33,[.setEnt .internalNl,.cb,.comment],none,false⟩⟩,⟨256,.ws,false,some ⟨34,[.setEnt .internalNl,.cb],none,false⟩⟩,⟨256,.lf,false,some ⟨35,[.setEnt .internalNl,.cb],none,false⟩⟩,⟨256,.vt,false,some ⟨33,[.setEnt .internalNl,.cb,.comment],none,false⟩⟩,⟨256,.ff,false,some ⟨36,[.setEnt .internalNl,.cb],none,false⟩⟩,⟨256,.cr,false,some ⟨37,[.setEnt .internalNl,.cb],none,false⟩⟩,⟨256,.cr,true,some ⟨38,[.setEnt .internalNl,.cb],none,false⟩⟩,⟨256,.other,false,some ⟨39,[.setEnt .internalNl,.cb,.comment],none,false⟩⟩]⟩,⟨[29],none,[],[⟨256,.other,false,some ⟨33,[.setEnt .internalNl,.cb,.comment],none,false⟩⟩,⟨256,.ws,false,some ⟨34,[.setEnt .internalNl,.cb],none,false⟩⟩,⟨256,.lf,false,some ⟨35,[.setEnt .internalNl,.cb],none,false⟩⟩,⟨256,.vt,false,some ⟨33,[.setEnt .internalNl,.cb,.comment],none,false⟩⟩,⟨256,.ff,false,some ⟨36,[.setEnt .internalNl,.cb],none,false⟩⟩,⟨256,.cr,false,some ⟨37,[.setEnt .internalNl,.cb],none,false⟩⟩,⟨256,.cr,true,some ⟨38,[.setEnt .internalNl,.cb],none,false⟩⟩,⟨256,.other,false,some ⟨39,[.setEnt .internalNl,.cb,.comment],none,false⟩⟩]⟩,⟨[26],none,[],[⟨256,.other,false,none⟩,⟨256,.ws,false,none⟩,⟨256,.lf,false,some ⟨41,[],none,false⟩⟩,⟨256,.vt,false,none⟩,⟨256,.ff,false,none⟩,⟨256,.cr,false,none⟩,⟨256,.cr,true,none⟩]⟩,⟨[26,30],none,[],[⟨256,.other,false,some ⟨33,[.setEnt .internalNl,.cb,.comment],none,false⟩⟩,⟨256,.ws,false,some ⟨34,[.setEnt .internalNl,.cb],none,false⟩⟩,⟨256,.lf,false,some ⟨42,[.setEnt .internalNl,.cb],none,false⟩⟩,⟨256,.vt,false,some ⟨33,[.setEnt .internalNl,.cb,.comment],none,false⟩⟩,⟨256,.ff,false,some ⟨36,[.setEnt .internalNl,.cb],none,false⟩⟩,⟨256,.cr,false,some ⟨37,[.setEnt .internalNl,.cb],none,false⟩⟩,⟨256,.cr,true,some ⟨38,[.setEnt .internalNl,.cb],none,false⟩⟩,⟨256,.other,false,some ⟨39,[.setEnt .internalNl,.cb,.comment],none,false⟩⟩]⟩,⟨[32,33],none,[],[⟨256,.other,false,some ⟨33,[.comment],none,false⟩⟩,⟨256,.ws,false,some ⟨34,[],none,false⟩⟩,⟨256,.lf,false,some ⟨35,[],none,false⟩⟩,⟨256,.vt,false,some ⟨33,[.comment],none,false⟩⟩,⟨256,.ff,false,some ⟨36,[],none,false⟩⟩,⟨256,.cr,false,some ⟨37,[],none,false⟩⟩,⟨256,.cr,true,some ⟨38,[],none,false⟩⟩,⟨256,.other,false,some ⟨43,[.comment],none,false⟩⟩]⟩,⟨[4,14],none,[],[⟨256,.other,false,none⟩,⟨256,.ws,false,none⟩,⟨256,.lf,false,none⟩,⟨256,.vt,false,none⟩,⟨256,.ff,false,none⟩,⟨256,.cr,false,none⟩,⟨256,.cr,true,none⟩,⟨256,.other,false,some ⟨44,[],none,false⟩⟩,⟨256,.other,false,some ⟨45,[],none,false⟩⟩]⟩,⟨[27],none,[],[⟨256,.other,false,some ⟨33,[.setEnt .internalNl,.cb,.comment],none,false⟩⟩,⟨256,.ws,false,some ⟨34,[.setEnt .internalNl,.cb],none,false⟩⟩,⟨256,.lf,false,some ⟨35,[.setEnt .internalNl,.cb],none,false⟩⟩,⟨256,.vt,false,some ⟨33,[.setEnt .internalNl,.cb,.comment],none,false⟩⟩,⟨256,.ff,false,some ⟨36,[.setEnt .internalNl,.cb],none,false⟩⟩,⟨256,.cr,false,some ⟨37,[.setEnt .internalNl,.cb],none,false⟩⟩,⟨256,.cr,true,some ⟨38,[.setEnt .internalNl,.cb],none,false⟩⟩,⟨256,.other,false,some ⟨39,[.setEnt .internalNl,.cb,.comment],none,false⟩⟩]⟩,⟨[27,28],none,[],[⟨256,.other,false,some ⟨33,[.setEnt .internalNl,.cb,.comment],none,false⟩⟩,⟨256,.ws,false,some ⟨34,[.setEnt .internalNl,.cb],none,false⟩⟩,⟨256,.lf,false,some ⟨35,[.setEnt .internalNl,.cb],none,false⟩⟩,⟨256,.vt,false,some ⟨33,[.setEnt .internalNl,.cb,.comment],none,false⟩⟩,⟨256,.ff,false,some ⟨36,[.setEnt .internalNl,.cb],none,false⟩⟩,⟨256,.cr,false,some ⟨37,[.setEnt .internalNl,.cb],none,false⟩⟩,⟨256,.cr,true,some ⟨38,[.setEnt .internalNl,.cb],none,false⟩⟩,⟨256,.other,false,some ⟨39,[.setEnt .internalNl,.cb,.comment],none,false⟩⟩]⟩,⟨[32,33,34],none,[],[⟨256,.other,false,some ⟨33,[.comment],none,false⟩⟩,⟨256,.ws,false,some ⟨34,[],none,false⟩⟩,⟨256,.lf,false,some ⟨35,[],none,false⟩⟩,⟨256,.vt,false,some ⟨33,[.comment],none,false⟩⟩,⟨256,.ff,false,some ⟨36,[],none,false⟩⟩,⟨256,.cr,false,some ⟨37,[],none,false⟩⟩,⟨256,.cr,true,some ⟨38,[],none,false⟩⟩,⟨256,.other,false,some ⟨43,[.comment],none,false⟩⟩,⟨256,.other,false,some ⟨0,[],some 3,true⟩⟩]⟩,⟨[15],none,[],[⟨256,.other,false,none⟩,⟨256,.ws,false,none⟩,⟨256,.lf,false,none⟩,⟨256,.vt,false,none⟩,⟨256,.ff,false,none⟩,⟨256,.cr,false,none⟩,⟨256,.cr,true,none⟩,⟨256,.other,false,some ⟨46,[],none,false⟩⟩]⟩,⟨[5],none,[],[⟨256,.other,false,none⟩,⟨256,.ws,false,none⟩,⟨256,.lf,false,none⟩,⟨256,.vt,false,none⟩,⟨256,.ff,false,none⟩,⟨256,.cr,false,none⟩,⟨256,.cr,true,none⟩,⟨256,.other,false,some ⟨47,[],none,false⟩⟩]⟩,⟨[16],none,[],[⟨256,.other,false,none⟩,⟨256,.ws,false,none⟩,⟨256,.lf,false,none⟩,⟨256,.vt,false,none⟩,⟨256,.ff,false,none⟩,⟨256,.cr,false,none⟩,⟨256,.cr,true,none⟩,⟨256,.other,false,some ⟨48,[],none,false⟩⟩]⟩,⟨[6],none,[],[⟨256,.other,false,none⟩,⟨256,.ws,false,none⟩,⟨256,.lf,false,none⟩,⟨256,.vt,false,none⟩,⟨256,.ff,false,none⟩,⟨256,.cr,false,none⟩,⟨256,.cr,true,none⟩,⟨256,.other,false,some ⟨49,[],none,false⟩⟩]⟩,⟨[17],none,[],[⟨256,.other,false,none⟩,⟨256,.ws,false,none⟩,⟨256,.lf,false,none⟩,⟨256,.vt,false,none⟩,⟨256,.ff,false,none⟩,⟨256,.cr,false,none⟩,⟨256,.cr,true,none⟩,⟨256,.other,false,some ⟨50,[],none,false⟩⟩]⟩,⟨[7],none,[],[⟨256,.other,false,none⟩,⟨256,.ws,false,none⟩,⟨256,.lf,false,none⟩,⟨256,.vt,false,none⟩,⟨256,.ff,false,none⟩,⟨256,.cr,false,none⟩,⟨256,.cr,true,none⟩,⟨256,.other,false,some ⟨51,[],none,false⟩⟩]⟩,⟨[18],none,[],[⟨256,.other,false,none⟩,⟨256,.ws,false,none⟩,⟨256,.lf,false,none⟩,⟨256,.vt,false,none⟩,⟨256,.ff,false,none⟩,⟨256,.cr,false,none⟩,⟨256,.cr,true,none⟩,⟨256,.other,false,some ⟨52,[],none,false⟩⟩]⟩,⟨[8],none,[],[⟨256,.other,false,none⟩,⟨256,.ws,false,none⟩,⟨256,.lf,false,none⟩,⟨256,.vt,false,none⟩,⟨256,.ff,false,none⟩,⟨256,.cr,false,none⟩,⟨256,.cr,true,none⟩,⟨256,.other,false,some ⟨0,[.code,.setEnt .checkBlank,.cb,.emb (.saw 1)],some 0,true⟩⟩]⟩,⟨[19],none,[],[⟨256,.other,false,none⟩,⟨256,.ws,false,none⟩,⟨256,.lf,false,none⟩,⟨256,.vt,false,none⟩,⟨256,.ff,false,none⟩,⟨256,.cr,false,none⟩,⟨256,.cr,true,none⟩,⟨256,.other,false,some ⟨0,[.code,.setEnt .checkBlank,.cb,.emb (.saw 2)],some 1,true⟩⟩]⟩]
theorem emb8_rowsOk : rowsOk emb8_nfa [] (emb8_cs.map (·.1)) emb8_rows = true := by decide +kernel
def emb8_D : Dfa emb8_nfa := ⟨emb8_masks, [], emb8_cs, emb8_rows, emb8_masksIn, emb8_repOk, emb8_rowsOk⟩

/-- The automaton of `Emb.Nix.nix_line`. -/
def emb14_nfa : Nfa := ⟨[⟨0,17179869184,[],[(0,.code),(1,.setEnt .checkBlank),(2,.cb),(3,.emb (.saw 1))],0,0⟩,⟨1,549755813888,[],[],0,0⟩,⟨3,4294967808,[],[(8,.setEnt (.own 0))],0,0⟩,⟨4,34359738368,[],[(9,.comment)],0,0⟩,⟨6,140737488355328,[],[],0,2⟩,⟨17,8192,[],[(14,.setEnt .newline)],0,0⟩,⟨19,1024,[],[(14,.setEnt .newline)],0,0⟩,⟨20,4096,[],[(14,.setEnt .newline)],0,0⟩,⟨21,8192,[.crAlone],[(14,.setEnt .newline)],0,0⟩,⟨22,115792089237316195423570985008687907853269984665640564039457584007908834656767,[],[(15,.setEnt (.own 2))],0,0⟩],[[],[⟨2,549755813888,[],[(4,.code),(5,.setEnt .checkBlank),(6,.cb),(7,.emb (.saw 1))],0,0⟩],[],[⟨3,4294967808,[],[(8,.setEnt (.own 0))],0,0⟩],[⟨5,115792089237316195423570985008687907853269984665640564039457584007913129626623,[],[],0,0⟩],[⟨5,115792089237316195423570985008687907853269984665640564039457584007913129626623,[],[],0,0⟩],[⟨7,4398046511104,[],[(10,.comment)],0,2⟩],[⟨8,8192,[],[],0,2⟩,⟨10,1024,[],[],0,2⟩,⟨11,4096,[],[],0,2⟩,⟨12,8192,[.crAlone],[],0,2⟩,⟨13,4294967808,[],[],0,2⟩,⟨14,115792089237316195423570985008687907853269984665640564039457584007908834658815,[],[(13,.comment)],0,2⟩,⟨15,4398046511104,[],[],0,2⟩],[⟨9,1024,[],[],0,2⟩],[⟨8,8192,[],[(11,.setEnt .internalNl),(12,.cb)],0,2⟩,⟨10,1024,[],[(11,.setEnt .internalNl),(12,.cb)],0,2⟩,⟨11,4096,[],[(11,.setEnt .internalNl),(12,.cb)],0,2⟩,⟨12,8192,[.crAlone],[(11,.setEnt .internalNl),(12,.cb)],0,2⟩,⟨13,4294967808,[],[(11,.setEnt .internalNl),(12,.cb)],0,2⟩,⟨14,115792089237316195423570985008687907853269984665640564039457584007908834658815,[],[(11,.setEnt .internalNl),(12,.cb),(13,.comment)],0,2⟩,⟨15,4398046511104,[],[(11,.setEnt .internalNl),(12,.cb)],0,2⟩],[⟨8,8192,[],[(11,.setEnt .internalNl),(12,.cb)],0,2⟩,⟨10,1024,[],[(11,.setEnt .internalNl),(12,.cb)],0,2⟩,⟨11,4096,[],[(11,.setEnt .internalNl),(12,.cb)],0,2⟩,⟨12,8192,[.crAlone],[(11,.setEnt .internalNl),(12,.cb)],0,2⟩,⟨13,4294967808,[],[(11,.setEnt .internalNl),(12,.cb)],0,2⟩,⟨14,115792089237316195423570985008687907853269984665640564039457584007908834658815,[],[(11,.setEnt .internalNl),(12,.cb),(13,.comment)],0,2⟩,⟨15,4398046511104,[],[(11,.setEnt .internalNl),(12,.cb)],0,2⟩],[⟨8,8192,[],[(11,.setEnt .internalNl),(12,.cb)],0,2⟩,⟨10,1024,[],[(11,.setEnt .internalNl),(12,.cb)],0,2⟩,⟨11,4096,[],[(11,.setEnt .internalNl),(12,.cb)],0,2⟩,⟨12,8192,[.crAlone],[(11,.setEnt .internalNl),(12,.cb)],0,2⟩,⟨13,4294967808,[],[(11,.setEnt .internalNl),(12,.cb)],0,2⟩,⟨14,115792089237316195423570985008687907853269984665640564039457584007908834658815,[],[(11,.setEnt .internalNl),(12,.cb),(13,.comment)],0,2⟩,⟨15,4398046511104,[],[(11,.setEnt .internalNl),(12,.cb)],0,2⟩],[⟨8,8192,[],[(11,.setEnt .internalNl),(12,.cb)],0,2⟩,⟨10,1024,[],[(11,.setEnt .internalNl),(12,.cb)],0,2⟩,⟨11,4096,[],[(11,.setEnt .internalNl),(12,.cb)],0,2⟩,⟨12,8192,[.crAlone],[(11,.setEnt .internalNl),(12,.cb)],0,2⟩,⟨13,4294967808,[],[(11,.setEnt .internalNl),(12,.cb)],0,2⟩,⟨14,115792089237316195423570985008687907853269984665640564039457584007908834658815,[],[(11,.setEnt .internalNl),(12,.cb),(13,.comment)],0,2⟩,⟨15,4398046511104,[],[(11,.setEnt .internalNl),(12,.cb)],0,2⟩],[⟨8,8192,[],[],0,2⟩,⟨10,1024,[],[],0,2⟩,⟨11,4096,[],[],0,2⟩,⟨12,8192,[.crAlone],[],0,2⟩,⟨13,4294967808,[],[],0,2⟩,⟨14,115792089237316195423570985008687907853269984665640564039457584007908834658815,[],[(13,.comment)],0,2⟩,⟨15,4398046511104,[],[],0,2⟩],[⟨8,8192,[],[],0,2⟩,⟨10,1024,[],[],0,2⟩,⟨11,4096,[],[],0,2⟩,⟨12,8192,[.crAlone],[],0,2⟩,⟨13,4294967808,[],[],0,2⟩,⟨14,115792089237316195423570985008687907853269984665640564039457584007908834658815,[],[(13,.comment)],0,2⟩,⟨15,4398046511104,[],[],0,2⟩],[⟨16,140737488355328,[],[],2,0⟩],[],[⟨18,1024,[],[(14,.setEnt .newline)],0,0⟩],[],[],[],[],[]],[some (0,[]),none,some (1,[]),some (2,[]),some (3,[]),some (3,[]),none,none,none,none,none,none,none,none,none,none,some (3,[]),none,some (4,[]),some (4,[]),some (4,[]),some (4,[]),some (5,[])],[4,8,9,14,15,16]⟩
def emb14_masks : List Nat := [17179869184,549755813888,4294967808,34359738368,140737488355328,8192,1024,4096,115792089237316195423570985008687907853269984665640564039457584007908834656767,115792089237316195423570985008687907853269984665640564039457584007913129626623,4398046511104,115792089237316195423570985008687907853269984665640564039457584007908834658815]
def emb14_cs : List (Nat × Nat) := [(0,115792089237316195423570985008687907853269984665640564039457583862172004368895),(9,4294967808),(10,1024),(11,2048),(12,4096),(13,8192),(34,17179869184),(35,34359738368),(39,549755813888),(42,4398046511104),(47,140737488355328)]
theorem emb14_masksIn : masksIn emb14_nfa emb14_masks = true := by decide +kernel
theorem emb14_repOk : repOk emb14_masks emb14_cs = true := by decide +kernel
def emb14_rows : List Row := [⟨[],none,[],[⟨256,.other,false,some ⟨0,[.setEnt (.own 2)],some 5,true⟩⟩,⟨256,.ws,false,some ⟨1,[.setEnt (.own 0)],some 2,false⟩⟩,⟨256,.lf,false,some ⟨0,[.setEnt .newline],some 4,true⟩⟩,⟨256,.vt,false,none⟩,⟨256,.ff,false,some ⟨0,[.setEnt .newline],some 4,true⟩⟩,⟨256,.cr,false,some ⟨2,[.setEnt .newline],none,false⟩⟩,⟨256,.cr,true,some ⟨3,[.setEnt .newline],some 4,false⟩⟩,⟨256,.other,false,some ⟨0,[.code,.setEnt .checkBlank,.cb,.emb (.saw 1)],some 0,true⟩⟩,⟨256,.other,false,some ⟨4,[.comment,.setEnt (.own 2)],some 3,false⟩⟩,⟨256,.other,false,some ⟨5,[.setEnt (.own 2)],some 5,false⟩⟩,⟨256,.other,false,some ⟨6,[.setEnt (.own 2)],some 5,false⟩⟩]⟩,⟨[3],some 2,[],[⟨256,.other,false,none⟩,⟨256,.ws,false,some ⟨1,[.setEnt (.own 0)],some 2,false⟩⟩,⟨256,.lf,false,none⟩,⟨256,.vt,false,none⟩,⟨256,.ff,false,none⟩,⟨256,.cr,false,none⟩,⟨256,.cr,true,none⟩]⟩,⟨[17],none,[],[⟨256,.other,false,none⟩,⟨256,.ws,false,none⟩,⟨256,.lf,false,some ⟨0,[.setEnt .newline],some 4,true⟩⟩,⟨256,.vt,false,none⟩,⟨256,.ff,false,none⟩,⟨256,.cr,false,none⟩,⟨256,.cr,true,none⟩]⟩,⟨[17,21],some 4,[],[⟨256,.other,false,none⟩,⟨256,.ws,false,none⟩,⟨256,.lf,false,some ⟨0,[.setEnt .newline],some 4,true⟩⟩,⟨256,.vt,false,none⟩,⟨256,.ff,false,none⟩,⟨256,.cr,false,none⟩,⟨256,.cr,true,none⟩]⟩,⟨[4,22],some 3,[],[⟨256,.other,false,some ⟨7,[],some 3,false⟩⟩,⟨256,.ws,false,some ⟨7,[],some 3,false⟩⟩,⟨256,.lf,false,none⟩,⟨256,.vt,false,some ⟨7,[],some 3,false⟩⟩,⟨256,.ff,false,none⟩,⟨256,.cr,false,none⟩,⟨256,.cr,true,none⟩]⟩,⟨[1,22],some 5,[],[⟨256,.other,false,none⟩,⟨256,.ws,false,none⟩,⟨256,.lf,false,none⟩,⟨256,.vt,false,none⟩,⟨256,.ff,false,none⟩,⟨256,.cr,false,none⟩,⟨256,.cr,true,none⟩,⟨256,.other,false,some ⟨0,[.code,.setEnt .checkBlank,.cb,.emb (.saw 1)],some 1,true⟩⟩]⟩,⟨[6,22],some 5,[],[⟨256,.other,false,none⟩,⟨256,.ws,false,none⟩,⟨256,.lf,false,none⟩,⟨256,.vt,false,none⟩,⟨256,.ff,false,none⟩,⟨256,.cr,false,none⟩,⟨256,.cr,true,none⟩,⟨256,.other,false,some ⟨8,[.comment],none,false⟩⟩]⟩,⟨[5],some 3,[],[⟨256,.other,false,some ⟨7,[],some 3,false⟩⟩,⟨256,.ws,false,some ⟨7,[],some 3,false⟩⟩,⟨256,.lf,false,none⟩,⟨256,.vt,false,some ⟨7,[],some 3,false⟩⟩,⟨256,.ff,false,none⟩,⟨256,.cr,false,none⟩,⟨256,.cr,true,none⟩]⟩,⟨[7],none,[],[⟨256,.other,false,some ⟨9,[.comment],none,false⟩⟩,⟨256,.ws,false,some ⟨10,[],none,false⟩⟩,⟨256,.lf,false,some ⟨11,[],none,false⟩⟩,⟨256,.vt,false,some ⟨9,[.comment],none,false⟩⟩,⟨256,.ff,false,some ⟨12,[],none,false⟩⟩,⟨256,.cr,false,some ⟨13,[],none,false⟩⟩,⟨256,.cr,true,some ⟨14,[],none,false⟩⟩,⟨256,.other,false,some ⟨15,[.comment],none,false⟩⟩]⟩,⟨[14],none,[],[⟨256,.other,false,some ⟨9,[.comment],none,false⟩⟩,⟨256,.ws,false,some ⟨10,[],none,false⟩⟩,⟨256,.lf,false,some ⟨11,[],none,false⟩⟩,⟨256,.vt,false,some ⟨9,[.comment],none,false⟩⟩,⟨256,.ff,false,some ⟨12,[],none,false⟩⟩,⟨256,.cr,false,some ⟨13,[],none,false⟩⟩,⟨256,.cr,true,some ⟨14,[],none,false⟩⟩,⟨256,.other,false,some ⟨15,[.comment],none,false⟩⟩]⟩,⟨[13],none,[],[⟨256,.other,false,some ⟨9,[.comment],none,false⟩⟩,⟨256,.ws,false,some ⟨10,[],none,false⟩⟩,⟨256,.lf,false,some ⟨11,[],none,false⟩⟩,⟨256,.vt,false,some ⟨9,[.comment],none,false⟩⟩,⟨256,.ff,false,some ⟨12,[],none,false⟩⟩,⟨256,.cr,false,some ⟨13,[],none,false⟩⟩,⟨256,.cr,true,some ⟨14,[],none,false⟩⟩,⟨256,.other,false,some ⟨15,[.comment],none,false⟩⟩]⟩,⟨[10],none,[],[⟨256,.other,false,some ⟨9,[.setEnt .internalNl,.cb,.comment],none,false⟩⟩,⟨256,.ws,false,some ⟨10,[.setEnt .internalNl,.cb],none,false⟩⟩,⟨256,.lf,false,some ⟨11,[.setEnt .internalNl,.cb],none,false⟩⟩,⟨256,.vt,false,some ⟨9,[.setEnt .internalNl,.cb,.comment],none,false⟩⟩,⟨256,.ff,false,some ⟨12,[.setEnt .internalNl,.cb],none,false⟩⟩,⟨256,.cr,false,some ⟨13,[.setEnt .internalNl,.cb],none,false⟩⟩,⟨256,.cr,true,some ⟨14,[.setEnt .internalNl,.cb],none,false⟩⟩,⟨256,.other,false,some ⟨15,[.setEnt .internalNl,.cb,.comment],none,false⟩⟩]⟩,⟨[11],none,[],[⟨256,.other,false,some ⟨9,[.setEnt .internalNl,.cb,.comment],none,false⟩⟩,⟨256,.ws,false,some ⟨10,[.setEnt .internalNl,.cb],none,false⟩⟩,⟨256,.lf,false,some ⟨11,[.setEnt .internalNl,.cb],none,false⟩⟩,⟨256,.vt,false,some ⟨9,[.setEnt .internalNl,.cb,.comment],none,false⟩⟩,⟨256,.ff,false,some ⟨12,[.setEnt .internalNl,.cb],none,false⟩⟩,⟨256,.cr,false,some ⟨13,[.setEnt .internalNl,.cb],none,false⟩⟩,⟨256,.cr,true,some ⟨14,[.setEnt .internalNl,.cb],none,false⟩⟩,⟨256,.other,false,some ⟨15,[.setEnt .internalNl,.cb,.comment],none,false⟩⟩]⟩,⟨[8],none,[],[⟨256,.other,false,none⟩,⟨256,.ws,false,none⟩,⟨256,.lf,false,some ⟨16,[],none,false⟩⟩,⟨256,.vt,false,none⟩,⟨256,.ff,false,none⟩,⟨256,.cr,false,none⟩,⟨256,.cr,true,none⟩]⟩,⟨[8,12],none,[],[⟨256,.other,false,some ⟨9,[.setEnt .internalNl,.cb,.comment],none,false⟩⟩,⟨256,.ws,false,some ⟨10,[.setEnt .internalNl,.cb],none,false⟩⟩,⟨256,.lf,false,some ⟨17,[.setEnt .internalNl,.cb],none,false⟩⟩,⟨256,.vt,false,some ⟨9,[.setEnt .internalNl,.cb,.comment],none,false⟩⟩,⟨256,.ff,false,some ⟨12,[.setEnt .internalNl,.cb],none,false⟩⟩,⟨256,.cr,false,some ⟨13,[.setEnt .internalNl,.cb],none,false⟩⟩,⟨256,.cr,true,some ⟨14,[.setEnt .internalNl,.cb],none,false⟩⟩,⟨256,.other,false,some ⟨15,[.setEnt .internalNl,.cb,.comment],none,false⟩⟩]⟩,⟨[14,15],none,[],[⟨256,.other,false,some ⟨9,[.comment],none,false⟩⟩,⟨256,.ws,false,some ⟨10,[],none,false⟩⟩,⟨256,.lf,false,some ⟨11,[],none,false⟩⟩,⟨256,.vt,false,some ⟨9,[.comment],none,false⟩⟩,⟨256,.ff,false,some ⟨12,[],none,false⟩⟩,⟨256,.cr,false,some ⟨13,[],none,false⟩⟩,⟨256,.cr,true,some ⟨14,[],none,false⟩⟩,⟨256,.other,false,some ⟨15,[.comment],none,false⟩⟩,⟨256,.other,false,some ⟨0,[],some 3,true⟩⟩]⟩,⟨[9],none,[],[⟨256,.other,false,some ⟨9,[.setEnt .internalNl,.cb,.comment],none,false⟩⟩,⟨256,.ws,false,some ⟨10,[.setEnt .internalNl,.cb],none,false⟩⟩,⟨256,.lf,false,some ⟨11,[.setEnt .internalNl,.cb],none,false⟩⟩,⟨256,.vt,false,some ⟨9,[.setEnt .internalNl,.cb,.comment],none,false⟩⟩,⟨256,.ff,false,some ⟨12,[.setEnt .internalNl,.cb],none,false⟩⟩,⟨256,.cr,false,some ⟨13,[.setEnt .internalNl,.cb],none,false⟩⟩,⟨256,.cr,true,some ⟨14,[.setEnt .internalNl,.cb],none,false⟩⟩,⟨256,.other,false,some ⟨15,[.setEnt .internalNl,.cb,.comment],none,false⟩⟩]⟩,⟨[9,10],none,[],[⟨256,.other,false,some ⟨9,[.setEnt .internalNl,.cb,.comment],none,false⟩⟩,⟨256,.ws,false,some ⟨10,[.setEnt .internalNl,.cb],none,false⟩⟩,⟨256,.lf,false,some ⟨11,[.setEnt .internalNl,.cb],none,false⟩⟩,⟨256,.vt,false,some ⟨9,[.setEnt .internalNl,.cb,.comment],none,false⟩⟩,⟨256,.ff,false,some ⟨12,[.setEnt .internalNl,.cb],none,false⟩⟩,⟨256,.cr,false,some ⟨13,[.setEnt .internalNl,.cb],none,false⟩⟩,⟨256,.cr,true,some ⟨14,[.setEnt .internalNl,.cb],none,false⟩⟩,⟨256,.other,false,some ⟨15,[.setEnt .internalNl,.cb,.comment],none,false⟩⟩]⟩]
theorem emb14_rowsOk : rowsOk emb14_nfa [] (emb14_cs.map (·.1)) emb14_rows = true := by decide +kernel
def emb14_D : Dfa emb14_nfa := ⟨emb14_masks, [], emb14_cs, emb14_rows, emb14_masksIn, emb14_repOk, emb14_rowsOk⟩

/-- The automaton of `Emb.Nix.nix_dq_shell_entity`. -/
def emb15_nfa : Nfa := ⟨[⟨0,17179869184,[],[(0,.emb .ret)],0,0⟩,⟨1,4294983168,[],[(1,.setEnt (.own 0))],0,0⟩,⟨2,34359738368,[],[(2,.setEnt (.own 1))],0,0⟩,⟨4,115792089237316195423570985008687907853269984665640564039457584007908834656767,[],[],0,0⟩],[[],[⟨1,4294983168,[],[(1,.setEnt (.own 0))],0,0⟩],[⟨3,115792089237316195423570985008687907853269984665640564039457584007913129626623,[],[(2,.setEnt (.own 1))],0,0⟩],[⟨3,115792089237316195423570985008687907853269984665640564039457584007913129626623,[],[(2,.setEnt (.own 1))],0,0⟩],[]],[some (0,[]),some (1,[]),some (2,[]),some (2,[]),some (3,[])],[1,2,3,3]⟩
def emb15_masks : List Nat := [17179869184,4294983168,34359738368,115792089237316195423570985008687907853269984665640564039457584007908834656767,115792089237316195423570985008687907853269984665640564039457584007913129626623]
def emb15_cs : List (Nat × Nat) := [(0,115792089237316195423570985008687907853269984665640564039457584007857295049215),(9,4294967808),(10,1024),(11,2048),(12,4096),(13,8192),(34,17179869184),(35,34359738368)]
theorem emb15_masksIn : masksIn emb15_nfa emb15_masks = true := by decide +kernel
theorem emb15_repOk : repOk emb15_masks emb15_cs = true := by decide +kernel
def emb15_rows : List Row := [⟨[],none,[],[⟨256,.other,false,some ⟨0,[],some 3,true⟩⟩,⟨256,.ws,false,some ⟨1,[.setEnt (.own 0)],some 1,false⟩⟩,⟨256,.lf,false,some ⟨1,[.setEnt (.own 0)],some 1,false⟩⟩,⟨256,.vt,false,some ⟨1,[.setEnt (.own 0)],some 1,false⟩⟩,⟨256,.ff,false,some ⟨1,[.setEnt (.own 0)],some 1,false⟩⟩,⟨256,.cr,false,some ⟨1,[.setEnt (.own 0)],some 1,false⟩⟩,⟨256,.cr,true,some ⟨1,[.setEnt (.own 0)],some 1,false⟩⟩,⟨256,.other,false,some ⟨0,[.emb .ret],some 0,true⟩⟩,⟨256,.other,false,some ⟨2,[.setEnt (.own 1)],some 2,false⟩⟩]⟩,⟨[1],some 1,[],[⟨256,.other,false,none⟩,⟨256,.ws,false,some ⟨1,[.setEnt (.own 0)],some 1,false⟩⟩,⟨256,.lf,false,some ⟨1,[.setEnt (.own 0)],some 1,false⟩⟩,⟨256,.vt,false,some ⟨1,[.setEnt (.own 0)],some 1,false⟩⟩,⟨256,.ff,false,some ⟨1,[.setEnt (.own 0)],some 1,false⟩⟩,⟨256,.cr,false,some ⟨1,[.setEnt (.own 0)],some 1,false⟩⟩,⟨256,.cr,true,some ⟨1,[.setEnt (.own 0)],some 1,false⟩⟩]⟩,⟨[2,4],some 2,[],[⟨256,.other,false,some ⟨3,[.setEnt (.own 1)],some 2,false⟩⟩,⟨256,.ws,false,some ⟨3,[.setEnt (.own 1)],some 2,false⟩⟩,⟨256,.lf,false,none⟩,⟨256,.vt,false,some ⟨3,[.setEnt (.own 1)],some 2,false⟩⟩,⟨256,.ff,false,none⟩,⟨256,.cr,false,none⟩,⟨256,.cr,true,none⟩]⟩,⟨[3],some 2,[],[⟨256,.other,false,some ⟨3,[.setEnt (.own 1)],some 2,false⟩⟩,⟨256,.ws,false,some ⟨3,[.setEnt (.own 1)],some 2,false⟩⟩,⟨256,.lf,false,none⟩,⟨256,.vt,false,some ⟨3,[.setEnt (.own 1)],some 2,false⟩⟩,⟨256,.ff,false,none⟩,⟨256,.cr,false,none⟩,⟨256,.cr,true,none⟩]⟩]
theorem emb15_rowsOk : rowsOk emb15_nfa [] (emb15_cs.map (·.1)) emb15_rows = true := by decide +kernel
def emb15_D : Dfa emb15_nfa := ⟨emb15_masks, [], emb15_cs, emb15_rows, emb15_masksIn, emb15_repOk, emb15_rowsOk⟩

/-- The automaton of `Emb.MetapostWithTex.mptex_tex_line`. -/
def emb21_nfa : Nfa := ⟨[⟨0,2535301200456458802993406410752,[],[],0,0⟩,⟨4,4294967808,[],[(3,.setEnt (.own 0))],0,0⟩,⟨5,137438953472,[],[(4,.comment)],0,0⟩,⟨7,8192,[],[(5,.setEnt .newline)],0,0⟩,⟨9,1024,[],[(5,.setEnt .newline)],0,0⟩,⟨10,4096,[],[(5,.setEnt .newline)],0,0⟩,⟨11,8192,[.crAlone],[(5,.setEnt .newline)],0,0⟩,⟨12,115792089237316195423570985008687907853269984665640564039457584007908834656767,[],[(6,.setEnt (.own 3))],0,0⟩],[[⟨1,83076749736557242056487941267521536,[],[],0,0⟩],[⟨2,2535301200456458802993406410752,[],[],0,0⟩],[⟨3,1329227995784915872903807060280344576,[],[(0,.emb .outry),(1,.code),(2,.emb .back)],0,0⟩],[],[⟨4,4294967808,[],[(3,.setEnt (.own 0))],0,0⟩],[⟨6,115792089237316195423570985008687907853269984665640564039457584007913129626623,[],[],0,0⟩],[⟨6,115792089237316195423570985008687907853269984665640564039457584007913129626623,[],[],0,0⟩],[⟨8,1024,[],[(5,.setEnt .newline)],0,0⟩],[],[],[],[],[]],[none,none,none,some (0,[]),some (1,[]),some (2,[]),some (2,[]),none,some (3,[]),some (3,[]),some (3,[]),some (3,[]),some (4,[])],[3,4,5,6,7]⟩
def emb21_masks : List Nat := [2535301200456458802993406410752,4294967808,137438953472,8192,1024,4096,115792089237316195423570985008687907853269984665640564039457584007908834656767,83076749736557242056487941267521536,1329227995784915872903807060280344576,115792089237316195423570985008687907853269984665640564039457584007913129626623]
def emb21_cs : List (Nat × Nat) := [(0,115792089237316195423570985008687907853268572358359741365886164909776441426431),(9,4294967808),(10,1024),(11,2048),(12,4096),(13,8192),(37,137438953472),(101,2535301200456458802993406410752),(116,83076749736557242056487941267521536),(120,1329227995784915872903807060280344576)]
theorem emb21_masksIn : masksIn emb21_nfa emb21_masks = true := by decide +kernel
theorem emb21_repOk : repOk emb21_masks emb21_cs = true := by decide +kernel
def emb21_rows : List Row := [⟨[],none,[],[⟨256,.other,false,some ⟨0,[.setEnt (.own 3)],some 4,true⟩⟩,⟨256,.ws,false,some ⟨1,[.setEnt (.own 0)],some 1,false⟩⟩,⟨256,.lf,false,some ⟨0,[.setEnt .newline],some 3,true⟩⟩,⟨256,.vt,false,none⟩,⟨256,.ff,false,some ⟨0,[.setEnt .newline],some 3,true⟩⟩,⟨256,.cr,false,some ⟨2,[.setEnt .newline],none,false⟩⟩,⟨256,.cr,true,some ⟨3,[.setEnt .newline],some 3,false⟩⟩,⟨256,.other,false,some ⟨4,[.comment,.setEnt (.own 3)],some 2,false⟩⟩,⟨256,.other,false,some ⟨5,[.setEnt (.own 3)],some 4,false⟩⟩]⟩,⟨[4],some 1,[],[⟨256,.other,false,none⟩,⟨256,.ws,false,some ⟨1,[.setEnt (.own 0)],some 1,false⟩⟩,⟨256,.lf,false,none⟩,⟨256,.vt,false,none⟩,⟨256,.ff,false,none⟩,⟨256,.cr,false,none⟩,⟨256,.cr,true,none⟩]⟩,⟨[7],none,[],[⟨256,.other,false,none⟩,⟨256,.ws,false,none⟩,⟨256,.lf,false,some ⟨0,[.setEnt .newline],some 3,true⟩⟩,⟨256,.vt,false,none⟩,⟨256,.ff,false,none⟩,⟨256,.cr,false,none⟩,⟨256,.cr,true,none⟩]⟩,⟨[7,11],some 3,[],[⟨256,.other,false,none⟩,⟨256,.ws,false,none⟩,⟨256,.lf,false,some ⟨0,[.setEnt .newline],some 3,true⟩⟩,⟨256,.vt,false,none⟩,⟨256,.ff,false,none⟩,⟨256,.cr,false,none⟩,⟨256,.cr,true,none⟩]⟩,⟨[5,12],some 2,[],[⟨256,.other,false,some ⟨6,[],some 2,false⟩⟩,⟨256,.ws,false,some ⟨6,[],some 2,false⟩⟩,⟨256,.lf,false,none⟩,⟨256,.vt,false,some ⟨6,[],some 2,false⟩⟩,⟨256,.ff,false,none⟩,⟨256,.cr,false,none⟩,⟨256,.cr,true,none⟩]⟩,⟨[0,12],some 4,[],[⟨256,.other,false,none⟩,⟨256,.ws,false,none⟩,⟨256,.lf,false,none⟩,⟨256,.vt,false,none⟩,⟨256,.ff,false,none⟩,⟨256,.cr,false,none⟩,⟨256,.cr,true,none⟩,⟨256,.other,false,some ⟨7,[],none,false⟩⟩]⟩,⟨[6],some 2,[],[⟨256,.other,false,some ⟨6,[],some 2,false⟩⟩,⟨256,.ws,false,some ⟨6,[],some 2,false⟩⟩,⟨256,.lf,false,none⟩,⟨256,.vt,false,some ⟨6,[],some 2,false⟩⟩,⟨256,.ff,false,none⟩,⟨256,.cr,false,none⟩,⟨256,.cr,true,none⟩]⟩,⟨[1],none,[],[⟨256,.other,false,none⟩,⟨256,.ws,false,none⟩,⟨256,.lf,false,none⟩,⟨256,.vt,false,none⟩,⟨256,.ff,false,none⟩,⟨256,.cr,false,none⟩,⟨256,.cr,true,none⟩,⟨256,.other,false,some ⟨8,[],none,false⟩⟩]⟩,⟨[2],none,[],[⟨256,.other,false,none⟩,⟨256,.ws,false,none⟩,⟨256,.lf,false,none⟩,⟨256,.vt,false,none⟩,⟨256,.ff,false,none⟩,⟨256,.cr,false,none⟩,⟨256,.cr,true,none⟩,⟨256,.other,false,some ⟨0,[.emb .outry,.code,.emb .back],some 0,true⟩⟩]⟩]
theorem emb21_rowsOk : rowsOk emb21_nfa [] (emb21_cs.map (·.1)) emb21_rows = true := by decide +kernel
def emb21_D : Dfa emb21_nfa := ⟨emb21_masks, [], emb21_cs, emb21_rows, emb21_masksIn, emb21_repOk, emb21_rowsOk⟩

/-- The automaton of `Emb.MetapostWithTex.mptex_line`. -/
def emb22_nfa : Nfa := ⟨[⟨0,332306998946228968225951765070086144,[],[],0,0⟩,⟨11,316912650057057350374175801344,[],[],0,0⟩,⟨15,4294967808,[],[(4,.setEnt (.own 0))],0,0⟩,⟨16,137438953472,[],[(5,.fhold 0),(6,.comment)],0,0⟩,⟨18,17179869184,[],[(7,.code)],0,0⟩,⟨23,8192,[],[(8,.setEnt .newline)],0,0⟩,⟨25,1024,[],[(8,.setEnt .newline)],0,0⟩,⟨26,4096,[],[(8,.setEnt .newline)],0,0⟩,⟨27,8192,[.crAlone],[(8,.setEnt .newline)],0,0⟩,⟨28,115792089237316195423570985008687907853269984665640564039457584007908834656767,[],[(9,.setEnt (.own 3))],0,0⟩],[[⟨1,2535301200456458802993406410752,[],[],0,0⟩],[⟨2,20769187434139310514121985316880384,[],[],0,0⟩],[⟨3,316912650057057350374175801344,[],[],0,0⟩],[⟨4,158456325028528675187087900672,[],[],0,0⟩],[⟨5,83076749736557242056487941267521536,[],[],0,0⟩],[⟨6,40564819207303340847894502572032,[],[],0,0⟩],[⟨7,649037107316853453566312041152512,[],[],0,0⟩],[⟨8,83076749736557242056487941267521536,[],[],0,0⟩],[⟨9,2535301200456458802993406410752,[],[],0,0⟩],[⟨10,1329227995784915872903807060280344576,[],[(0,.code),(1,.setEnt .checkBlank),(2,.cb),(3,.emb (.saw 1))],0,0⟩],[],[⟨12,83076749736557242056487941267521536,[],[],0,0⟩],[⟨13,2535301200456458802993406410752,[],[],0,0⟩],[⟨14,1329227995784915872903807060280344576,[],[(0,.code),(1,.setEnt .checkBlank),(2,.cb),(3,.emb (.saw 1))],0,0⟩],[],[⟨15,4294967808,[],[(4,.setEnt (.own 0))],0,0⟩],[⟨17,115792089237316195423570985008687907853269984665640564039457584007913129626623,[],[],0,0⟩],[⟨17,115792089237316195423570985008687907853269984665640564039457584007913129626623,[],[],0,0⟩],[⟨19,115792089237316195423570985008687907853269984665635612279300442486796353260543,[],[],0,0⟩,⟨20,4951760157141521099596496896,[],[],0,0⟩,⟨22,17179869184,[],[],0,0⟩],[⟨19,115792089237316195423570985008687907853269984665635612279300442486796353260543,[],[],0,0⟩,⟨20,4951760157141521099596496896,[],[],0,0⟩,⟨22,17179869184,[],[],0,0⟩],[⟨21,115792089237316195423570985008687907853269984665640564039457584007913129626623,[],[],0,0⟩],[⟨19,115792089237316195423570985008687907853269984665635612279300442486796353260543,[],[],0,0⟩,⟨20,4951760157141521099596496896,[],[],0,0⟩,⟨22,17179869184,[],[],0,0⟩],[],[⟨24,1024,[],[(8,.setEnt .newline)],0,0⟩],[],[],[],[],[]],[none,none,none,none,none,none,none,none,none,none,some (0,[]),none,none,none,some (0,[]),some (1,[]),some (2,[]),some (2,[]),none,none,none,none,some (3,[]),none,some (4,[]),some (4,[]),some (4,[]),some (4,[]),some (5,[])],[4,5,7,8,9,10]⟩
def emb22_masks : List Nat := [332306998946228968225951765070086144,316912650057057350374175801344,4294967808,137438953472,17179869184,8192,1024,4096,115792089237316195423570985008687907853269984665640564039457584007908834656767,2535301200456458802993406410752,20769187434139310514121985316880384,158456325028528675187087900672,83076749736557242056487941267521536,40564819207303340847894502572032,649037107316853453566312041152512,1329227995784915872903807060280344576,115792089237316195423570985008687907853269984665640564039457584007913129626623,115792089237316195423570985008687907853269984665635612279300442486796353260543,4951760157141521099596496896]
def emb22_cs : List (Nat × Nat) := [(0,115792089237316195423570985008687907853268218592091113738207902875141470667263),(9,4294967808),(10,1024),(11,2048),(12,4096),(13,8192),(34,17179869184),(37,137438953472),(92,4951760157141521099596496896),(97,158456325028528675187087900672),(98,316912650057057350374175801344),(101,2535301200456458802993406410752),(105,40564819207303340847894502572032),(109,649037107316853453566312041152512),(114,20769187434139310514121985316880384),(116,83076749736557242056487941267521536),(118,332306998946228968225951765070086144),(120,1329227995784915872903807060280344576)]
theorem emb22_masksIn : masksIn emb22_nfa emb22_masks = true := by decide +kernel
theorem emb22_repOk : repOk emb22_masks emb22_cs = true := by decide +kernel
def emb22_rows : List Row := [⟨[],none,[],[⟨0,.other,false,some ⟨0,[.setEnt (.own 3)],some 5,true⟩⟩,⟨9,.ws,false,some ⟨1,[.setEnt (.own 0)],some 1,false⟩⟩,⟨10,.lf,false,some ⟨0,[.setEnt .newline],some 4,true⟩⟩,⟨11,.vt,false,none⟩,⟨12,.ff,false,some ⟨0,[.setEnt .newline],some 4,true⟩⟩,⟨13,.cr,false,some ⟨2,[.setEnt .newline],none,false⟩⟩,⟨13,.cr,true,some ⟨3,[.setEnt .newline],some 4,false⟩⟩,⟨34,.other,false,some ⟨4,[.code,.setEnt (.own 3)],some 5,false⟩⟩,⟨37,.other,false,some ⟨5,[.fhold 0,.comment,.setEnt (.own 3)],some 2,false⟩⟩,⟨92,.other,false,some ⟨0,[.setEnt (.own 3)],some 5,true⟩⟩,⟨97,.other,false,some ⟨0,[.setEnt (.own 3)],some 5,true⟩⟩,⟨98,.other,false,some ⟨6,[.setEnt (.own 3)],some 5,false⟩⟩,⟨101,.other,false,some ⟨0,[.setEnt (.own 3)],some 5,true⟩⟩,⟨105,.other,false,some ⟨0,[.setEnt (.own 3)],some 5,true⟩⟩,⟨109,.other,false,some ⟨0,[.setEnt (.own 3)],some 5,true⟩⟩,⟨114,.other,false,some ⟨0,[.setEnt (.own 3)],some 5,true⟩⟩,⟨116,.other,false,some ⟨0,[.setEnt (.own 3)],some 5,true⟩⟩,⟨118,.other,false,some ⟨7,[.setEnt (.own 3)],some 5,false⟩⟩,⟨120,.other,false,some ⟨0,[.setEnt (.own 3)],some 5,true⟩⟩]⟩,⟨[15],some 1,[],[⟨0,.other,false,none⟩,⟨9,.ws,false,some ⟨1,[.setEnt (.own 0)],some 1,false⟩⟩,⟨10,.lf,false,none⟩,⟨11,.vt,false,none⟩,⟨12,.ff,false,none⟩,⟨13,.cr,false,none⟩,⟨13,.cr,true,none⟩,⟨34,.other,false,none⟩,⟨37,.other,false,none⟩,⟨92,.other,false,none⟩,⟨97,.other,false,none⟩,⟨98,.other,false,none⟩,⟨101,.other,false,none⟩,⟨105,.other,false,none⟩,⟨109,.other,false,none⟩,⟨114,.other,false,none⟩,⟨116,.other,false,none⟩,⟨118,.other,false,none⟩,⟨120,.other,false,none⟩]⟩,⟨[23],none,[],[⟨0,.other,false,none⟩,⟨9,.ws,false,none⟩,⟨10,.lf,false,some ⟨0,[.setEnt .newline],some 4,true⟩⟩,⟨11,.vt,false,none⟩,⟨12,.ff,false,none⟩,⟨13,.cr,false,none⟩,⟨13,.cr,true,none⟩,⟨34,.other,false,none⟩,⟨37,.other,false,none⟩,⟨92,.other,false,none⟩,⟨97,.other,false,none⟩,⟨98,.other,false,none⟩,⟨101,.other,false,none⟩,⟨105,.other,false,none⟩,⟨109,.other,false,none⟩,⟨114,.other,false,none⟩,⟨116,.other,false,none⟩,⟨118,.other,false,none⟩,⟨120,.other,false,none⟩]⟩,⟨[23,27],some 4,[],[⟨0,.other,false,none⟩,⟨9,.ws,false,none⟩,⟨10,.lf,false,some ⟨0,[.setEnt .newline],some 4,true⟩⟩,⟨11,.vt,false,none⟩,⟨12,.ff,false,none⟩,⟨13,.cr,false,none⟩,⟨13,.cr,true,none⟩,⟨34,.other,false,none⟩,⟨37,.other,false,none⟩,⟨92,.other,false,none⟩,⟨97,.other,false,none⟩,⟨98,.other,false,none⟩,⟨101,.other,false,none⟩,⟨105,.other,false,none⟩,⟨109,.other,false,none⟩,⟨114,.other,false,none⟩,⟨116,.other,false,none⟩,⟨118,.other,false,none⟩,⟨120,.other,false,none⟩]⟩,⟨[18,28],some 5,[],[⟨0,.other,false,some ⟨8,[],none,false⟩⟩,⟨9,.ws,false,some ⟨8,[],none,false⟩⟩,⟨10,.lf,false,none⟩,⟨11,.vt,false,some ⟨8,[],none,false⟩⟩,⟨12,.ff,false,none⟩,⟨13,.cr,false,none⟩,⟨13,.cr,true,none⟩,⟨34,.other,false,some ⟨0,[],some 3,true⟩⟩,⟨37,.other,false,some ⟨8,[],none,false⟩⟩,⟨92,.other,false,some ⟨9,[],none,false⟩⟩,⟨97,.other,false,some ⟨8,[],none,false⟩⟩,⟨98,.other,false,some ⟨8,[],none,false⟩⟩,⟨101,.other,false,some ⟨8,[],none,false⟩⟩,⟨105,.other,false,some ⟨8,[],none,false⟩⟩,⟨109,.other,false,some ⟨8,[],none,false⟩⟩,⟨114,.other,false,some ⟨8,[],none,false⟩⟩,⟨116,.other,false,some ⟨8,[],none,false⟩⟩,⟨118,.other,false,some ⟨8,[],none,false⟩⟩,⟨120,.other,false,some ⟨8,[],none,false⟩⟩]⟩,⟨[16,28],some 2,[],[⟨0,.other,false,some ⟨10,[],some 2,false⟩⟩,⟨9,.ws,false,some ⟨10,[],some 2,false⟩⟩,⟨10,.lf,false,none⟩,⟨11,.vt,false,some ⟨10,[],some 2,false⟩⟩,⟨12,.ff,false,none⟩,⟨13,.cr,false,none⟩,⟨13,.cr,true,none⟩,⟨34,.other,false,some ⟨10,[],some 2,false⟩⟩,⟨37,.other,false,some ⟨10,[],some 2,false⟩⟩,⟨92,.other,false,some ⟨10,[],some 2,false⟩⟩,⟨97,.other,false,some ⟨10,[],some 2,false⟩⟩,⟨98,.other,false,some ⟨10,[],some 2,false⟩⟩,⟨101,.other,false,some ⟨10,[],some 2,false⟩⟩,⟨105,.other,false,some ⟨10,[],some 2,false⟩⟩,⟨109,.other,false,some ⟨10,[],some 2,false⟩⟩,⟨114,.other,false,some ⟨10,[],some 2,false⟩⟩,⟨116,.other,false,some ⟨10,[],some 2,false⟩⟩,⟨118,.other,false,some ⟨10,[],some 2,false⟩⟩,⟨120,.other,false,some ⟨10,[],some 2,false⟩⟩]⟩,⟨[11,28],some 5,[],[⟨0,.other,false,none⟩,⟨9,.ws,false,none⟩,⟨10,.lf,false,none⟩,⟨11,.vt,false,none⟩,⟨12,.ff,false,none⟩,⟨13,.cr,false,none⟩,⟨13,.cr,true,none⟩,⟨34,.other,false,none⟩,⟨37,.other,false,none⟩,⟨92,.other,false,none⟩,⟨97,.other,false,none⟩,⟨98,.other,false,none⟩,⟨101,.other,false,none⟩,⟨105,.other,false,none⟩,⟨109,.other,false,none⟩,⟨114,.other,false,none⟩,⟨116,.other,false,some ⟨11,[],none,false⟩⟩,⟨118,.other,false,none⟩,⟨120,.other,false,none⟩]⟩,⟨[0,28],some 5,[],[⟨0,.other,false,none⟩,⟨9,.ws,false,none⟩,⟨10,.lf,false,none⟩,⟨11,.vt,false,none⟩,⟨12,.ff,false,none⟩,⟨13,.cr,false,none⟩,⟨13,.cr,true,none⟩,⟨34,.other,false,none⟩,⟨37,.other,false,none⟩,⟨92,.other,false,none⟩,⟨97,.other,false,none⟩,⟨98,.other,false,none⟩,⟨101,.other,false,some ⟨12,[],none,false⟩⟩,⟨105,.other,false,none⟩,⟨109,.other,false,none⟩,⟨114,.other,false,none⟩,⟨116,.other,false,none⟩,⟨118,.other,false,none⟩,⟨120,.other,false,none⟩]⟩,⟨[19],none,[],[⟨0,.other,false,some ⟨8,[],none,false⟩⟩,⟨9,.ws,false,some ⟨8,[],none,false⟩⟩,⟨10,.lf,false,none⟩,⟨11,.vt,false,some ⟨8,[],none,false⟩⟩,⟨12,.ff,false,none⟩,⟨13,.cr,false,none⟩,⟨13,.cr,true,none⟩,⟨34,.other,false,some ⟨0,[],some 3,true⟩⟩,⟨37,.other,false,some ⟨8,[],none,false⟩⟩,⟨92,.other,false,some ⟨9,[],none,false⟩⟩,⟨97,.other,false,some ⟨8,[],none,false⟩⟩,⟨98,.other,false,some ⟨8,[],none,false⟩⟩,⟨101,.other,false,some ⟨8,[],none,false⟩⟩,⟨105,.other,false,some ⟨8,[],none,false⟩⟩,⟨109,.other,false,some ⟨8,[],none,false⟩⟩,⟨114,.other,false,some ⟨8,[],none,false⟩⟩,⟨116,.other,false,some ⟨8,[],none,false⟩⟩,⟨118,.other,false,some ⟨8,[],none,false⟩⟩,⟨120,.other,false,some ⟨8,[],none,false⟩⟩]⟩,⟨[20],none,[],[⟨0,.other,false,some ⟨13,[],none,false⟩⟩,⟨9,.ws,false,some ⟨13,[],none,false⟩⟩,⟨10,.lf,false,none⟩,⟨11,.vt,false,some ⟨13,[],none,false⟩⟩,⟨12,.ff,false,none⟩,⟨13,.cr,false,none⟩,⟨13,.cr,true,none⟩,⟨34,.other,false,some ⟨13,[],none,false⟩⟩,⟨37,.other,false,some ⟨13,[],none,false⟩⟩,⟨92,.other,false,some ⟨13,[],none,false⟩⟩,⟨97,.other,false,some ⟨13,[],none,false⟩⟩,⟨98,.other,false,some ⟨13,[],none,false⟩⟩,⟨101,.other,false,some ⟨13,[],none,false⟩⟩,⟨105,.other,false,some ⟨13,[],none,false⟩⟩,⟨109,.other,false,some ⟨13,[],none,false⟩⟩,⟨114,.other,false,some ⟨13,[],none,false⟩⟩,⟨116,.other,false,some ⟨13,[],none,false⟩⟩,⟨118,.other,false,some ⟨13,[],none,false⟩⟩,⟨120,.other,false,some ⟨13,[],none,false⟩⟩]⟩,⟨[17],some 2,[],[⟨0,.other,false,some ⟨10,[],some 2,false⟩⟩,⟨9,.ws,false,some ⟨10,[],some 2,false⟩⟩,⟨10,.lf,false,none⟩,⟨11,.vt,false,some ⟨10,[],some 2,false⟩⟩,⟨12,.ff,false,none⟩,⟨13,.cr,false,none⟩,⟨13,.cr,true,none⟩,⟨34,.other,false,some ⟨10,[],some 2,false⟩⟩,⟨37,.other,false,some ⟨10,[],some 2,false⟩⟩,⟨92,.other,false,some ⟨10,[],some 2,false⟩⟩,⟨97,.other,false,some ⟨10,[],some 2,false⟩⟩,⟨98,.other,false,some ⟨10,[],some 2,false⟩⟩,⟨101,.other,false,some ⟨10,[],some 2,false⟩⟩,⟨105,.other,false,some ⟨10,[],some 2,false⟩⟩,⟨109,.other,false,some ⟨10,[],some 2,false⟩⟩,⟨114,.other,false,some ⟨10,[],some 2,false⟩⟩,⟨116,.other,false,some ⟨10,[],some 2,false⟩⟩,⟨118,.other,false,some ⟨10,[],some 2,false⟩⟩,⟨120,.other,false,some ⟨10,[],some 2,false⟩⟩]⟩,⟨[12],none,[],[⟨0,.other,false,none⟩,⟨9,.ws,false,none⟩,⟨10,.lf,false,none⟩,⟨11,.vt,false,none⟩,⟨12,.ff,false,none⟩,⟨13,.cr,false,none⟩,⟨13,.cr,true,none⟩,⟨34,.other,false,none⟩,⟨37,.other,false,none⟩,⟨92,.other,false,none⟩,⟨97,.other,false,none⟩,⟨98,.other,false,none⟩,⟨101,.other,false,some ⟨14,[],none,false⟩⟩,⟨105,.other,false,none⟩,⟨109,.other,false,none⟩,⟨114,.other,false,none⟩,⟨116,.other,false,none⟩,⟨118,.other,false,none⟩,⟨120,.other,false,none⟩]⟩,⟨[1],none,[],[⟨0,.other,false,none⟩,⟨9,.ws,false,none⟩,⟨10,.lf,false,none⟩,⟨11,.vt,false,none⟩,⟨12,.ff,false,none⟩,⟨13,.cr,false,none⟩,⟨13,.cr,true,none⟩,⟨34,.other,false,none⟩,⟨37,.other,false,none⟩,⟨92,.other,false,none⟩,⟨97,.other,false,none⟩,⟨98,.other,false,none⟩,⟨101,.other,false,none⟩,⟨105,.other,false,none⟩,⟨109,.other,false,none⟩,⟨114,.other,false,some ⟨15,[],none,false⟩⟩,⟨116,.other,false,none⟩,⟨118,.other,false,none⟩,⟨120,.other,false,none⟩]⟩,⟨[21],none,[],[⟨0,.other,false,some ⟨8,[],none,false⟩⟩,⟨9,.ws,false,some ⟨8,[],none,false⟩⟩,⟨10,.lf,false,none⟩,⟨11,.vt,false,some ⟨8,[],none,false⟩⟩,⟨12,.ff,false,none⟩,⟨13,.cr,false,none⟩,⟨13,.cr,true,none⟩,⟨34,.other,false,some ⟨0,[],some 3,true⟩⟩,⟨37,.other,false,some ⟨8,[],none,false⟩⟩,⟨92,.other,false,some ⟨9,[],none,false⟩⟩,⟨97,.other,false,some ⟨8,[],none,false⟩⟩,⟨98,.other,false,some ⟨8,[],none,false⟩⟩,⟨101,.other,false,some ⟨8,[],none,false⟩⟩,⟨105,.other,false,some ⟨8,[],none,false⟩⟩,⟨109,.other,false,some ⟨8,[],none,false⟩⟩,⟨114,.other,false,some ⟨8,[],none,false⟩⟩,⟨116,.other,false,some ⟨8,[],none,false⟩⟩,⟨118,.other,false,some ⟨8,[],none,false⟩⟩,⟨120,.other,false,some ⟨8,[],none,false⟩⟩]⟩,⟨[13],none,[],[⟨0,.other,false,none⟩,⟨9,.ws,false,none⟩,⟨10,.lf,false,none⟩,⟨11,.vt,false,none⟩,⟨12,.ff,false,none⟩,⟨13,.cr,false,none⟩,⟨13,.cr,true,none⟩,⟨34,.other,false,none⟩,⟨37,.other,false,none⟩,⟨92,.other,false,none⟩,⟨97,.other,false,none⟩,⟨98,.other,false,none⟩,⟨101,.other,false,none⟩,⟨105,.other,false,none⟩,⟨109,.other,false,none⟩,⟨114,.other,false,none⟩,⟨116,.other,false,none⟩,⟨118,.other,false,none⟩,⟨120,.other,false,some ⟨0,[.code,.setEnt .checkBlank,.cb,.emb (.saw 1)],some 0,true⟩⟩]⟩,⟨[2],none,[],[⟨0,.other,false,none⟩,⟨9,.ws,false,none⟩,⟨10,.lf,false,none⟩,⟨11,.vt,false,none⟩,⟨12,.ff,false,none⟩,⟨13,.cr,false,none⟩,⟨13,.cr,true,none⟩,⟨34,.other,false,none⟩,⟨37,.other,false,none⟩,⟨92,.other,false,none⟩,⟨97,.other,false,none⟩,⟨98,.other,false,some ⟨16,[],none,false⟩⟩,⟨101,.other,false,none⟩,⟨105,.other,false,none⟩,⟨109,.other,false,none⟩,⟨114,.other,false,none⟩,⟨116,.other,false,none⟩,⟨118,.other,false,none⟩,⟨120,.other,false,none⟩]⟩,⟨[3],none,[],[⟨0,.other,false,none⟩,⟨9,.ws,false,none⟩,⟨10,.lf,false,none⟩,⟨11,.vt,false,none⟩,⟨12,.ff,false,none⟩,⟨13,.cr,false,none⟩,⟨13,.cr,true,none⟩,⟨34,.other,false,none⟩,⟨37,.other,false,none⟩,⟨92,.other,false,none⟩,⟨97,.other,false,some ⟨17,[],none,false⟩⟩,⟨98,.other,false,none⟩,⟨101,.other,false,none⟩,⟨105,.other,false,none⟩,⟨109,.other,false,none⟩,⟨114,.other,false,none⟩,⟨116,.other,false,none⟩,⟨118,.other,false,none⟩,⟨120,.other,false,none⟩]⟩,⟨[4],none,[],[⟨0,.other,false,none⟩,⟨9,.ws,false,none⟩,⟨10,.lf,false,none⟩,⟨11,.vt,false,none⟩,⟨12,.ff,false,none⟩,⟨13,.cr,false,none⟩,⟨13,.cr,true,none⟩,⟨34,.other,false,none⟩,⟨37,.other,false,none⟩,⟨92,.other,false,none⟩,⟨97,.other,false,none⟩,⟨98,.other,false,none⟩,⟨101,.other,false,none⟩,⟨105,.other,false,none⟩,⟨109,.other,false,none⟩,⟨114,.other,false,none⟩,⟨116,.other,false,some ⟨18,[],none,false⟩⟩,⟨118,.other,false,none⟩,⟨120,.other,false,none⟩]⟩,⟨[5],none,[],[⟨0,.other,false,none⟩,⟨9,.ws,false,none⟩,⟨10,.lf,false,none⟩,⟨11,.vt,false,none⟩,⟨12,.ff,false,none⟩,⟨13,.cr,false,none⟩,⟨13,.cr,true,none⟩,⟨34,.other,false,none⟩,⟨37,.other,false,none⟩,⟨92,.other,false,none⟩,⟨97,.other,false,none⟩,⟨98,.other,false,none⟩,⟨101,.other,false,none⟩,⟨105,.other,false,some ⟨19,[],none,false⟩⟩,⟨109,.other,false,none⟩,⟨114,.other,false,none⟩,⟨116,.other,false,none⟩,⟨118,.other,false,none⟩,⟨120,.other,false,none⟩]⟩,⟨[6],none,[],[⟨0,.other,false,none⟩,⟨9,.ws,false,none⟩,⟨10,.lf,false,none⟩,⟨11,.vt,false,none⟩,⟨12,.ff,false,none⟩,⟨13,.cr,false,none⟩,⟨13,.cr,true,none⟩,⟨34,.other,false,none⟩,⟨37,.other,false,none⟩,⟨92,.other,false,none⟩,⟨97,.other,false,none⟩,⟨98,.other,false,none⟩,⟨101,.other,false,none⟩,⟨105,.other,false,none⟩,⟨109,.other,false,some ⟨20,[],none,false⟩⟩,⟨114,.other,false,none⟩,⟨116,.other,false,none⟩,⟨118,.other,false,none⟩,⟨120,.other,false,none⟩]⟩,⟨[7],none,[],[⟨0,.other,false,none⟩,⟨9,.ws,false,none⟩,⟨10,.lf,false,none⟩,⟨11,.vt,false,none⟩,⟨12,.ff,false,none⟩,⟨13,.cr,false,none⟩,⟨13,.cr,true,none⟩,⟨34,.other,false,none⟩,⟨37,.other,false,none⟩,⟨92,.other,false,none⟩,⟨97,.other,false,none⟩,⟨98,.other,false,none⟩,⟨101,.other,false,none⟩,⟨105,.other,false,none⟩,⟨109,.other,false,none⟩,⟨114,.other,false,none⟩,⟨116,.other,false,some ⟨21,[],none,false⟩⟩,⟨118,.other,false,none⟩,⟨120,.other,false,none⟩]⟩,⟨[8],none,[],[⟨0,.other,false,none⟩,⟨9,.ws,false,none⟩,⟨10,.lf,false,none⟩,⟨11,.vt,false,none⟩,⟨12,.ff,false,none⟩,⟨13,.cr,false,none⟩,⟨13,.cr,true,none⟩,⟨34,.other,false,none⟩,⟨37,.other,false,none⟩,⟨92,.other,false,none⟩,⟨97,.other,false,none⟩,⟨98,.other,false,none⟩,⟨101,.other,false,some ⟨22,[],none,false⟩⟩,⟨105,.other,false,none⟩,⟨109,.other,false,none⟩,⟨114,.other,false,none⟩,⟨116,.other,false,none⟩,⟨118,.other,false,none⟩,⟨120,.other,false,none⟩]⟩,⟨[9],none,[],[⟨0,.other,false,none⟩,⟨9,.ws,false,none⟩,⟨10,.lf,false,none⟩,⟨11,.vt,false,none⟩,⟨12,.ff,false,none⟩,⟨13,.cr,false,none⟩,⟨13,.cr,true,none⟩,⟨34,.other,false,none⟩,⟨37,.other,false,none⟩,⟨92,.other,false,none⟩,⟨97,.other,false,none⟩,⟨98,.other,false,none⟩,⟨101,.other,false,none⟩,⟨105,.other,false,none⟩,⟨109,.other,false,none⟩,⟨114,.other,false,none⟩,⟨116,.other,false,none⟩,⟨118,.other,false,none⟩,⟨120,.other,false,some ⟨0,[.code,.setEnt .checkBlank,.cb,.emb (.saw 1)],some 0,true⟩⟩]⟩]
theorem emb22_rowsOk : rowsOk emb22_nfa [] (emb22_cs.map (·.1)) emb22_rows = true := by decide +kernel
def emb22_D : Dfa emb22_nfa := ⟨emb22_masks, [], emb22_cs, emb22_rows, emb22_masksIn, emb22_repOk, emb22_rowsOk⟩

/-- The automaton of `Emb.Jsp.jsp_comment`. -/
def emb25_nfa : Nfa := ⟨[⟨0,1152921504606846976,[],[],0,2⟩,⟨2,8192,[],[],0,2⟩,⟨4,1024,[],[],0,2⟩,⟨5,4096,[],[],0,2⟩,⟨6,8192,[.crAlone],[],0,2⟩,⟨7,4294967808,[],[],0,2⟩,⟨8,115792089237316195423570985008687907853269984665640564039456431051219855720959,[],[(3,.comment)],0,2⟩,⟨9,1152921504606846976,[],[],0,2⟩,⟨14,35184372088832,[],[],0,2⟩],[[⟨1,137438953472,[],[(0,.emb (.sawCall 3 5))],0,2⟩],[⟨0,1152921504606846976,[],[],0,2⟩,⟨2,8192,[],[],0,2⟩,⟨4,1024,[],[],0,2⟩,⟨5,4096,[],[],0,2⟩,⟨6,8192,[.crAlone],[],0,2⟩,⟨7,4294967808,[],[],0,2⟩,⟨8,115792089237316195423570985008687907853269984665640564039456431051219855720959,[],[(3,.comment)],0,2⟩,⟨9,1152921504606846976,[],[],0,2⟩,⟨14,35184372088832,[],[],0,2⟩],[⟨3,1024,[],[],0,2⟩],[⟨0,1152921504606846976,[],[(1,.setEnt .internalNl),(2,.cb)],0,2⟩,⟨2,8192,[],[(1,.setEnt .internalNl),(2,.cb)],0,2⟩,⟨4,1024,[],[(1,.setEnt .internalNl),(2,.cb)],0,2⟩,⟨5,4096,[],[(1,.setEnt .internalNl),(2,.cb)],0,2⟩,⟨6,8192,[.crAlone],[(1,.setEnt .internalNl),(2,.cb)],0,2⟩,⟨7,4294967808,[],[(1,.setEnt .internalNl),(2,.cb)],0,2⟩,⟨8,115792089237316195423570985008687907853269984665640564039456431051219855720959,[],[(1,.setEnt .internalNl),(2,.cb),(3,.comment)],0,2⟩,⟨9,1152921504606846976,[],[(1,.setEnt .internalNl),(2,.cb)],0,2⟩,⟨14,35184372088832,[],[(1,.setEnt .internalNl),(2,.cb)],0,2⟩],[⟨0,1152921504606846976,[],[(1,.setEnt .internalNl),(2,.cb)],0,2⟩,⟨2,8192,[],[(1,.setEnt .internalNl),(2,.cb)],0,2⟩,⟨4,1024,[],[(1,.setEnt .internalNl),(2,.cb)],0,2⟩,⟨5,4096,[],[(1,.setEnt .internalNl),(2,.cb)],0,2⟩,⟨6,8192,[.crAlone],[(1,.setEnt .internalNl),(2,.cb)],0,2⟩,⟨7,4294967808,[],[(1,.setEnt .internalNl),(2,.cb)],0,2⟩,⟨8,115792089237316195423570985008687907853269984665640564039456431051219855720959,[],[(1,.setEnt .internalNl),(2,.cb),(3,.comment)],0,2⟩,⟨9,1152921504606846976,[],[(1,.setEnt .internalNl),(2,.cb)],0,2⟩,⟨14,35184372088832,[],[(1,.setEnt .internalNl),(2,.cb)],0,2⟩],[⟨0,1152921504606846976,[],[(1,.setEnt .internalNl),(2,.cb)],0,2⟩,⟨2,8192,[],[(1,.setEnt .internalNl),(2,.cb)],0,2⟩,⟨4,1024,[],[(1,.setEnt .internalNl),(2,.cb)],0,2⟩,⟨5,4096,[],[(1,.setEnt .internalNl),(2,.cb)],0,2⟩,⟨6,8192,[.crAlone],[(1,.setEnt .internalNl),(2,.cb)],0,2⟩,⟨7,4294967808,[],[(1,.setEnt .internalNl),(2,.cb)],0,2⟩,⟨8,115792089237316195423570985008687907853269984665640564039456431051219855720959,[],[(1,.setEnt .internalNl),(2,.cb),(3,.comment)],0,2⟩,⟨9,1152921504606846976,[],[(1,.setEnt .internalNl),(2,.cb)],0,2⟩,⟨14,35184372088832,[],[(1,.setEnt .internalNl),(2,.cb)],0,2⟩],[⟨0,1152921504606846976,[],[(1,.setEnt .internalNl),(2,.cb)],0,2⟩,⟨2,8192,[],[(1,.setEnt .internalNl),(2,.cb)],0,2⟩,⟨4,1024,[],[(1,.setEnt .internalNl),(2,.cb)],0,2⟩,⟨5,4096,[],[(1,.setEnt .internalNl),(2,.cb)],0,2⟩,⟨6,8192,[.crAlone],[(1,.setEnt .internalNl),(2,.cb)],0,2⟩,⟨7,4294967808,[],[(1,.setEnt .internalNl),(2,.cb)],0,2⟩,⟨8,115792089237316195423570985008687907853269984665640564039456431051219855720959,[],[(1,.setEnt .internalNl),(2,.cb),(3,.comment)],0,2⟩,⟨9,1152921504606846976,[],[(1,.setEnt .internalNl),(2,.cb)],0,2⟩,⟨14,35184372088832,[],[(1,.setEnt .internalNl),(2,.cb)],0,2⟩],[⟨0,1152921504606846976,[],[],0,2⟩,⟨2,8192,[],[],0,2⟩,⟨4,1024,[],[],0,2⟩,⟨5,4096,[],[],0,2⟩,⟨6,8192,[.crAlone],[],0,2⟩,⟨7,4294967808,[],[],0,2⟩,⟨8,115792089237316195423570985008687907853269984665640564039456431051219855720959,[],[(3,.comment)],0,2⟩,⟨9,1152921504606846976,[],[],0,2⟩,⟨14,35184372088832,[],[],0,2⟩],[⟨0,1152921504606846976,[],[],0,2⟩,⟨2,8192,[],[],0,2⟩,⟨4,1024,[],[],0,2⟩,⟨5,4096,[],[],0,2⟩,⟨6,8192,[.crAlone],[],0,2⟩,⟨7,4294967808,[],[],0,2⟩,⟨8,115792089237316195423570985008687907853269984665640564039456431051219855720959,[],[(3,.comment)],0,2⟩,⟨9,1152921504606846976,[],[],0,2⟩,⟨14,35184372088832,[],[],0,2⟩],[⟨10,115792089237316195423570985008687907853269984665640564039457584007775690686463,[],[],0,2⟩,⟨11,137438953472,[],[],0,2⟩,⟨0,1152921504606846976,[],[],0,2⟩,⟨2,8192,[],[],0,2⟩,⟨4,1024,[],[],0,2⟩,⟨5,4096,[],[],0,2⟩,⟨6,8192,[.crAlone],[],0,2⟩,⟨7,4294967808,[],[],0,2⟩,⟨8,115792089237316195423570985008687907853269984665640564039456431051219855720959,[],[(3,.comment)],0,2⟩,⟨9,1152921504606846976,[],[],0,2⟩,⟨14,35184372088832,[],[],0,2⟩],[⟨13,115792089237316195423570985008687907853269984665640564039457584007913129639935,[],[],0,2⟩,⟨0,1152921504606846976,[],[],0,2⟩,⟨2,8192,[],[],0,2⟩,⟨4,1024,[],[],0,2⟩,⟨5,4096,[],[],0,2⟩,⟨6,8192,[.crAlone],[],0,2⟩,⟨7,4294967808,[],[],0,2⟩,⟨8,115792089237316195423570985008687907853269984665640564039456431051219855720959,[],[(3,.comment)],0,2⟩,⟨9,1152921504606846976,[],[],0,2⟩,⟨14,35184372088832,[],[],0,2⟩],[⟨12,115792089237316195423570985008687907853269984665640564039457584007913129639935,[],[],0,2⟩],[⟨13,115792089237316195423570985008687907853269984665640564039457584007913129639935,[],[],0,2⟩,⟨0,1152921504606846976,[],[],0,2⟩,⟨2,8192,[],[],0,2⟩,⟨4,1024,[],[],0,2⟩,⟨5,4096,[],[],0,2⟩,⟨6,8192,[.crAlone],[],0,2⟩,⟨7,4294967808,[],[],0,2⟩,⟨8,115792089237316195423570985008687907853269984665640564039456431051219855720959,[],[(3,.comment)],0,2⟩,⟨9,1152921504606846976,[],[],0,2⟩,⟨14,35184372088832,[],[],0,2⟩],[⟨13,115792089237316195423570985008687907853269984665640564039457584007913129639935,[],[],0,2⟩,⟨0,1152921504606846976,[],[],0,2⟩,⟨2,8192,[],[],0,2⟩,⟨4,1024,[],[],0,2⟩,⟨5,4096,[],[],0,2⟩,⟨6,8192,[.crAlone],[],0,2⟩,⟨7,4294967808,[],[],0,2⟩,⟨8,115792089237316195423570985008687907853269984665640564039456431051219855720959,[],[(3,.comment)],0,2⟩,⟨9,1152921504606846976,[],[],0,2⟩,⟨14,35184372088832,[],[],0,2⟩],[⟨15,35184372088832,[],[],0,0⟩],[⟨16,4611686018427387904,[],[(4,.comment),(5,.emb (.goto 6))],2,0⟩],[]],[none,none,none,none,none,none,none,none,none,none,none,none,none,none,none,none,some (0,[])],[6]⟩
def emb25_masks : List Nat := [1152921504606846976,8192,1024,4096,4294967808,115792089237316195423570985008687907853269984665640564039456431051219855720959,35184372088832,137438953472,115792089237316195423570985008687907853269984665640564039457584007775690686463,115792089237316195423570985008687907853269984665640564039457584007913129639935,4611686018427387904]
def emb25_cs : List (Nat × Nat) := [(0,115792089237316195423570985008687907853269984665640564039451819365063989379583),(9,4294967808),(10,1024),(11,2048),(12,4096),(13,8192),(37,137438953472),(45,35184372088832),(60,1152921504606846976),(62,4611686018427387904)]
theorem emb25_masksIn : masksIn emb25_nfa emb25_masks = true := by decide +kernel
theorem emb25_repOk : repOk emb25_masks emb25_cs = true := by decide +kernel
def emb25_rows : List Row := [⟨[],none,[],[⟨256,.other,false,some ⟨1,[.comment],none,false⟩⟩,⟨256,.ws,false,some ⟨2,[],none,false⟩⟩,⟨256,.lf,false,some ⟨3,[],none,false⟩⟩,⟨256,.vt,false,none⟩,⟨256,.ff,false,some ⟨4,[],none,false⟩⟩,⟨256,.cr,false,some ⟨5,[],none,false⟩⟩,⟨256,.cr,true,some ⟨6,[],none,false⟩⟩,⟨256,.other,false,some ⟨7,[],none,false⟩⟩,⟨256,.other,false,some ⟨8,[],none,false⟩⟩]⟩,⟨[8],none,[],[⟨256,.other,false,some ⟨1,[.comment],none,false⟩⟩,⟨256,.ws,false,some ⟨2,[],none,false⟩⟩,⟨256,.lf,false,some ⟨3,[],none,false⟩⟩,⟨256,.vt,false,none⟩,⟨256,.ff,false,some ⟨4,[],none,false⟩⟩,⟨256,.cr,false,some ⟨5,[],none,false⟩⟩,⟨256,.cr,true,some ⟨6,[],none,false⟩⟩,⟨256,.other,false,some ⟨7,[],none,false⟩⟩,⟨256,.other,false,some ⟨8,[],none,false⟩⟩]⟩,⟨[7],none,[],[⟨256,.other,false,some ⟨1,[.comment],none,false⟩⟩,⟨256,.ws,false,some ⟨2,[],none,false⟩⟩,⟨256,.lf,false,some ⟨3,[],none,false⟩⟩,⟨256,.vt,false,none⟩,⟨256,.ff,false,some ⟨4,[],none,false⟩⟩,⟨256,.cr,false,some ⟨5,[],none,false⟩⟩,⟨256,.cr,true,some ⟨6,[],none,false⟩⟩,⟨256,.other,false,some ⟨7,[],none,false⟩⟩,⟨256,.other,false,some ⟨8,[],none,false⟩⟩]⟩,⟨[4],none,[],[⟨256,.other,false,some ⟨1,[.setEnt .internalNl,.cb,.comment],none,false⟩⟩,⟨256,.ws,false,some ⟨2,[.setEnt .internalNl,.cb],none,false⟩⟩,⟨256,.lf,false,some ⟨3,[.setEnt .internalNl,.cb],none,false⟩⟩,⟨256,.vt,false,none⟩,⟨256,.ff,false,some ⟨4,[.setEnt .internalNl,.cb],none,false⟩⟩,⟨256,.cr,false,some ⟨5,[.setEnt .internalNl,.cb],none,false⟩⟩,⟨256,.cr,true,some ⟨6,[.setEnt .internalNl,.cb],none,false⟩⟩,⟨256,.other,false,some ⟨7,[.setEnt .internalNl,.cb],none,false⟩⟩,⟨256,.other,false,some ⟨8,[.setEnt .internalNl,.cb],none,false⟩⟩]⟩,⟨[5],none,[],[⟨256,.other,false,some ⟨1,[.setEnt .internalNl,.cb,.comment],none,false⟩⟩,⟨256,.ws,false,some ⟨2,[.setEnt .internalNl,.cb],none,false⟩⟩,⟨256,.lf,false,some ⟨3,[.setEnt .internalNl,.cb],none,false⟩⟩,⟨256,.vt,false,none⟩,⟨256,.ff,false,some ⟨4,[.setEnt .internalNl,.cb],none,false⟩⟩,⟨256,.cr,false,some ⟨5,[.setEnt .internalNl,.cb],none,false⟩⟩,⟨256,.cr,true,some ⟨6,[.setEnt .internalNl,.cb],none,false⟩⟩,⟨256,.other,false,some ⟨7,[.setEnt .internalNl,.cb],none,false⟩⟩,⟨256,.other,false,some ⟨8,[.setEnt .internalNl,.cb],none,false⟩⟩]⟩,⟨[2],none,[],[⟨256,.other,false,none⟩,⟨256,.ws,false,none⟩,⟨256,.lf,false,some ⟨9,[],none,false⟩⟩,⟨256,.vt,false,none⟩,⟨256,.ff,false,none⟩,⟨256,.cr,false,none⟩,⟨256,.cr,true,none⟩]⟩,⟨[2,6],none,[],[⟨256,.other,false,some ⟨1,[.setEnt .internalNl,.cb,.comment],none,false⟩⟩,⟨256,.ws,false,some ⟨2,[.setEnt .internalNl,.cb],none,false⟩⟩,⟨256,.lf,false,some ⟨10,[.setEnt .internalNl,.cb],none,false⟩⟩,⟨256,.vt,false,none⟩,⟨256,.ff,false,some ⟨4,[.setEnt .internalNl,.cb],none,false⟩⟩,⟨256,.cr,false,some ⟨5,[.setEnt .internalNl,.cb],none,false⟩⟩,⟨256,.cr,true,some ⟨6,[.setEnt .internalNl,.cb],none,false⟩⟩,⟨256,.other,false,some ⟨7,[.setEnt .internalNl,.cb],none,false⟩⟩,⟨256,.other,false,some ⟨8,[.setEnt .internalNl,.cb],none,false⟩⟩]⟩,⟨[14],none,[],[⟨256,.other,false,none⟩,⟨256,.ws,false,none⟩,⟨256,.lf,false,none⟩,⟨256,.vt,false,none⟩,⟨256,.ff,false,none⟩,⟨256,.cr,false,none⟩,⟨256,.cr,true,none⟩,⟨256,.other,false,some ⟨11,[],none,false⟩⟩]⟩,⟨[0,9],none,[],[⟨256,.other,false,some ⟨12,[.comment],none,false⟩⟩,⟨256,.ws,false,some ⟨13,[],none,false⟩⟩,⟨256,.lf,false,some ⟨14,[],none,false⟩⟩,⟨256,.vt,false,some ⟨15,[],none,false⟩⟩,⟨256,.ff,false,some ⟨16,[],none,false⟩⟩,⟨256,.cr,false,some ⟨17,[],none,false⟩⟩,⟨256,.cr,true,some ⟨18,[],none,false⟩⟩,⟨256,.other,false,some ⟨19,[.emb (.sawCall 3 5),.comment],none,false⟩⟩,⟨256,.other,false,some ⟨20,[],none,false⟩⟩,⟨256,.other,false,some ⟨21,[],none,false⟩⟩]⟩,⟨[3],none,[],[⟨256,.other,false,some ⟨1,[.setEnt .internalNl,.cb,.comment],none,false⟩⟩,⟨256,.ws,false,some ⟨2,[.setEnt .internalNl,.cb],none,false⟩⟩,⟨256,.lf,false,some ⟨3,[.setEnt .internalNl,.cb],none,false⟩⟩,⟨256,.vt,false,none⟩,⟨256,.ff,false,some ⟨4,[.setEnt .internalNl,.cb],none,false⟩⟩,⟨256,.cr,false,some ⟨5,[.setEnt .internalNl,.cb],none,false⟩⟩,⟨256,.cr,true,some ⟨6,[.setEnt .internalNl,.cb],none,false⟩⟩,⟨256,.other,false,some ⟨7,[.setEnt .internalNl,.cb],none,false⟩⟩,⟨256,.other,false,some ⟨8,[.setEnt .internalNl,.cb],none,false⟩⟩]⟩,⟨[3,4],none,[],[⟨256,.other,false,some ⟨1,[.setEnt .internalNl,.cb,.comment],none,false⟩⟩,⟨256,.ws,false,some ⟨2,[.setEnt .internalNl,.cb],none,false⟩⟩,⟨256,.lf,false,some ⟨3,[.setEnt .internalNl,.cb],none,false⟩⟩,⟨256,.vt,false,none⟩,⟨256,.ff,false,some ⟨4,[.setEnt .internalNl,.cb],none,false⟩⟩,⟨256,.cr,false,some ⟨5,[.setEnt .internalNl,.cb],none,false⟩⟩,⟨256,.cr,true,some ⟨6,[.setEnt .internalNl,.cb],none,false⟩⟩,⟨256,.other,false,some ⟨7,[.setEnt .internalNl,.cb],none,false⟩⟩,⟨256,.other,false,some ⟨8,[.setEnt .internalNl,.cb],none,false⟩⟩]⟩,⟨[15],none,[],[⟨256,.other,false,none⟩,⟨256,.ws,false,none⟩,⟨256,.lf,false,none⟩,⟨256,.vt,false,none⟩,⟨256,.ff,false,none⟩,⟨256,.cr,false,none⟩,⟨256,.cr,true,none⟩,⟨256,.other,false,some ⟨0,[.comment,.emb (.goto 6)],some 0,true⟩⟩]⟩,⟨[8,10],none,[],[⟨256,.other,false,some ⟨22,[.comment],none,false⟩⟩,⟨256,.ws,false,some ⟨23,[],none,false⟩⟩,⟨256,.lf,false,some ⟨24,[],none,false⟩⟩,⟨256,.vt,false,some ⟨25,[],none,false⟩⟩,⟨256,.ff,false,some ⟨26,[],none,false⟩⟩,⟨256,.cr,false,some ⟨27,[],none,false⟩⟩,⟨256,.cr,true,some ⟨28,[],none,false⟩⟩,⟨256,.other,false,some ⟨29,[],none,false⟩⟩,⟨256,.other,false,some ⟨30,[],none,false⟩⟩]⟩,⟨[7,10],none,[],[⟨256,.other,false,some ⟨22,[.comment],none,false⟩⟩,⟨256,.ws,false,some ⟨23,[],none,false⟩⟩,⟨256,.lf,false,some ⟨24,[],none,false⟩⟩,⟨256,.vt,false,some ⟨25,[],none,false⟩⟩,⟨256,.ff,false,some ⟨26,[],none,false⟩⟩,⟨256,.cr,false,some ⟨27,[],none,false⟩⟩,⟨256,.cr,true,some ⟨28,[],none,false⟩⟩,⟨256,.other,false,some ⟨29,[],none,false⟩⟩,⟨256,.other,false,some ⟨30,[],none,false⟩⟩]⟩,⟨[4,10],none,[],[⟨256,.other,false,some ⟨22,[.setEnt .internalNl,.cb,.comment],none,false⟩⟩,⟨256,.ws,false,some ⟨23,[.setEnt .internalNl,.cb],none,false⟩⟩,⟨256,.lf,false,some ⟨24,[.setEnt .internalNl,.cb],none,false⟩⟩,⟨256,.vt,false,some ⟨25,[],none,false⟩⟩,⟨256,.ff,false,some ⟨26,[.setEnt .internalNl,.cb],none,false⟩⟩,⟨256,.cr,false,some ⟨27,[.setEnt .internalNl,.cb],none,false⟩⟩,⟨256,.cr,true,some ⟨28,[.setEnt .internalNl,.cb],none,false⟩⟩,⟨256,.other,false,some ⟨29,[.setEnt .internalNl,.cb],none,false⟩⟩,⟨256,.other,false,some ⟨30,[.setEnt .internalNl,.cb],none,false⟩⟩]⟩,⟨[10],none,[],[⟨256,.other,false,some ⟨22,[.comment],none,false⟩⟩,⟨256,.ws,false,some ⟨23,[],none,false⟩⟩,⟨256,.lf,false,some ⟨24,[],none,false⟩⟩,⟨256,.vt,false,some ⟨25,[],none,false⟩⟩,⟨256,.ff,false,some ⟨26,[],none,false⟩⟩,⟨256,.cr,false,some ⟨27,[],none,false⟩⟩,⟨256,.cr,true,some ⟨28,[],none,false⟩⟩,⟨256,.other,false,some ⟨29,[],none,false⟩⟩,⟨256,.other,false,some ⟨30,[],none,false⟩⟩]⟩,⟨[5,10],none,[],[⟨256,.other,false,some ⟨22,[.setEnt .internalNl,.cb,.comment],none,false⟩⟩,⟨256,.ws,false,some ⟨23,[.setEnt .internalNl,.cb],none,false⟩⟩,⟨256,.lf,false,some ⟨24,[.setEnt .internalNl,.cb],none,false⟩⟩,⟨256,.vt,false,some ⟨25,[],none,false⟩⟩,⟨256,.ff,false,some ⟨26,[.setEnt .internalNl,.cb],none,false⟩⟩,⟨256,.cr,false,some ⟨27,[.setEnt .internalNl,.cb],none,false⟩⟩,⟨256,.cr,true,some ⟨28,[.setEnt .internalNl,.cb],none,false⟩⟩,⟨256,.other,false,some ⟨29,[.setEnt .internalNl,.cb],none,false⟩⟩,⟨256,.other,false,some ⟨30,[.setEnt .internalNl,.cb],none,false⟩⟩]⟩,⟨[2,10],none,[],[⟨256,.other,false,some ⟨22,[.comment],none,false⟩⟩,⟨256,.ws,false,some ⟨23,[],none,false⟩⟩,⟨256,.lf,false,some ⟨31,[],none,false⟩⟩,⟨256,.vt,false,some ⟨25,[],none,false⟩⟩,⟨256,.ff,false,some ⟨26,[],none,false⟩⟩,⟨256,.cr,false,some ⟨27,[],none,false⟩⟩,⟨256,.cr,true,some ⟨28,[],none,false⟩⟩,⟨256,.other,false,some ⟨29,[],none,false⟩⟩,⟨256,.other,false,some ⟨30,[],none,false⟩⟩]⟩,⟨[2,6,10],none,[],[⟨256,.other,false,some ⟨22,[.setEnt .internalNl,.cb,.comment],none,false⟩⟩,⟨256,.ws,false,some ⟨23,[.setEnt .internalNl,.cb],none,false⟩⟩,⟨256,.lf,false,some ⟨31,[.setEnt .internalNl,.cb],none,false⟩⟩,⟨256,.vt,false,some ⟨25,[],none,false⟩⟩,⟨256,.ff,false,some ⟨26,[.setEnt .internalNl,.cb],none,false⟩⟩,⟨256,.cr,false,some ⟨27,[.setEnt .internalNl,.cb],none,false⟩⟩,⟨256,.cr,true,some ⟨28,[.setEnt .internalNl,.cb],none,false⟩⟩,⟨256,.other,false,some ⟨29,[.setEnt .internalNl,.cb],none,false⟩⟩,⟨256,.other,false,some ⟨30,[.setEnt .internalNl,.cb],none,false⟩⟩]⟩,⟨[1,8,11],none,[],[⟨256,.other,false,some ⟨32,[.comment],none,false⟩⟩,⟨256,.ws,false,some ⟨33,[],none,false⟩⟩,⟨256,.lf,false,some ⟨34,[],none,false⟩⟩,⟨256,.vt,false,some ⟨35,[],none,false⟩⟩,⟨256,.ff,false,some ⟨36,[],none,false⟩⟩,⟨256,.cr,false,some ⟨37,[],none,false⟩⟩,⟨256,.cr,true,some ⟨38,[],none,false⟩⟩,⟨256,.other,false,some ⟨39,[],none,false⟩⟩,⟨256,.other,false,some ⟨40,[],none,false⟩⟩]⟩,⟨[10,14],none,[],[⟨256,.other,false,some ⟨22,[.comment],none,false⟩⟩,⟨256,.ws,false,some ⟨23,[],none,false⟩⟩,⟨256,.lf,false,some ⟨24,[],none,false⟩⟩,⟨256,.vt,false,some ⟨25,[],none,false⟩⟩,⟨256,.ff,false,some ⟨26,[],none,false⟩⟩,⟨256,.cr,false,some ⟨27,[],none,false⟩⟩,⟨256,.cr,true,some ⟨28,[],none,false⟩⟩,⟨256,.other,false,some ⟨41,[],none,false⟩⟩,⟨256,.other,false,some ⟨30,[],none,false⟩⟩]⟩,⟨[0,9,10],none,[],[⟨256,.other,false,some ⟨42,[.comment],none,false⟩⟩,⟨256,.ws,false,some ⟨43,[],none,false⟩⟩,⟨256,.lf,false,some ⟨44,[],none,false⟩⟩,⟨256,.vt,false,some ⟨45,[],none,false⟩⟩,⟨256,.ff,false,some ⟨46,[],none,false⟩⟩,⟨256,.cr,false,some ⟨47,[],none,false⟩⟩,⟨256,.cr,true,some ⟨48,[],none,false⟩⟩,⟨256,.other,false,some ⟨49,[.emb (.sawCall 3 5),.comment],none,false⟩⟩,⟨256,.other,false,some ⟨50,[],none,false⟩⟩,⟨256,.other,false,some ⟨51,[],none,false⟩⟩]⟩,⟨[8,13],none,[],[⟨256,.other,false,some ⟨22,[.comment],none,false⟩⟩,⟨256,.ws,false,some ⟨23,[],none,false⟩⟩,⟨256,.lf,false,some ⟨24,[],none,false⟩⟩,⟨256,.vt,false,some ⟨25,[],none,false⟩⟩,⟨256,.ff,false,some ⟨26,[],none,false⟩⟩,⟨256,.cr,false,some ⟨27,[],none,false⟩⟩,⟨256,.cr,true,some ⟨28,[],none,false⟩⟩,⟨256,.other,false,some ⟨29,[],none,false⟩⟩,⟨256,.other,false,some ⟨30,[],none,false⟩⟩]⟩,⟨[7,13],none,[],[⟨256,.other,false,some ⟨22,[.comment],none,false⟩⟩,⟨256,.ws,false,some ⟨23,[],none,false⟩⟩,⟨256,.lf,false,some ⟨24,[],none,false⟩⟩,⟨256,.vt,false,some ⟨25,[],none,false⟩⟩,⟨256,.ff,false,some ⟨26,[],none,false⟩⟩,⟨256,.cr,false,some ⟨27,[],none,false⟩⟩,⟨256,.cr,true,some ⟨28,[],none,false⟩⟩,⟨256,.other,false,some ⟨29,[],none,false⟩⟩,⟨256,.other,false,some ⟨30,[],none,false⟩⟩]⟩,⟨[4,13],none,[],[⟨256,.other,false,some ⟨22,[.setEnt .internalNl,.cb,.comment],none,false⟩⟩,⟨256,.ws,false,some ⟨23,[.setEnt .internalNl,.cb],none,false⟩⟩,⟨256,.lf,false,some ⟨24,[.setEnt .internalNl,.cb],none,false⟩⟩,⟨256,.vt,false,some ⟨25,[],none,false⟩⟩,⟨256,.ff,false,some ⟨26,[.setEnt .internalNl,.cb],none,false⟩⟩,⟨256,.cr,false,some ⟨27,[.setEnt .internalNl,.cb],none,false⟩⟩,⟨256,.cr,true,some ⟨28,[.setEnt .internalNl,.cb],none,false⟩⟩,⟨256,.other,false,some ⟨29,[.setEnt .internalNl,.cb],none,false⟩⟩,⟨256,.other,false,some ⟨30,[.setEnt .internalNl,.cb],none,false⟩⟩]⟩,⟨[13],none,[],[⟨256,.other,false,some ⟨22,[.comment],none,false⟩⟩,⟨256,.ws,false,some ⟨23,[],none,false⟩⟩,⟨256,.lf,false,some ⟨24,[],none,false⟩⟩,⟨256,.vt,false,some ⟨25,[],none,false⟩⟩,⟨256,.ff,false,some ⟨26,[],none,false⟩⟩,⟨256,.cr,false,some ⟨27,[],none,false⟩⟩,⟨256,.cr,true,some ⟨28,[],none,false⟩⟩,⟨256,.other,false,some ⟨29,[],none,false⟩⟩,⟨256,.other,false,some ⟨30,[],none,false⟩⟩]⟩,⟨[5,13],none,[],[⟨256,.other,false,some ⟨22,[.setEnt .internalNl,.cb,.comment],none,false⟩⟩,⟨256,.ws,false,some ⟨23,[.setEnt .internalNl,.cb],none,false⟩⟩,⟨256,.lf,false,some ⟨24,[.setEnt .internalNl,.cb],none,false⟩⟩,⟨256,.vt,false,some ⟨25,[],none,false⟩⟩,⟨256,.ff,false,some ⟨26,[.setEnt .internalNl,.cb],none,false⟩⟩,⟨256,.cr,false,some ⟨27,[.setEnt .internalNl,.cb],none,false⟩⟩,⟨256,.cr,true,some ⟨28,[.setEnt .internalNl,.cb],none,false⟩⟩,⟨256,.other,false,some ⟨29,[.setEnt .internalNl,.cb],none,false⟩⟩,⟨256,.other,false,some ⟨30,[.setEnt .internalNl,.cb],none,false⟩⟩]⟩,⟨[2,13],none,[],[⟨256,.other,false,some ⟨22,[.comment],none,false⟩⟩,⟨256,.ws,false,some ⟨23,[],none,false⟩⟩,⟨256,.lf,false,some ⟨31,[],none,false⟩⟩,⟨256,.vt,false,some ⟨25,[],none,false⟩⟩,⟨256,.ff,false,some ⟨26,[],none,false⟩⟩,⟨256,.cr,false,some ⟨27,[],none,false⟩⟩,⟨256,.cr,true,some ⟨28,[],none,false⟩⟩,⟨256,.other,false,some ⟨29,[],none,false⟩⟩,⟨256,.other,false,some ⟨30,[],none,false⟩⟩]⟩,⟨[2,6,13],none,[],[⟨256,.other,false,some ⟨22,[.setEnt .internalNl,.cb,.comment],none,false⟩⟩,⟨256,.ws,false,some ⟨23,[.setEnt .internalNl,.cb],none,false⟩⟩,⟨256,.lf,false,some ⟨31,[.setEnt .internalNl,.cb],none,false⟩⟩,⟨256,.vt,false,some ⟨25,[],none,false⟩⟩,⟨256,.ff,false,some ⟨26,[.setEnt .internalNl,.cb],none,false⟩⟩,⟨256,.cr,false,some ⟨27,[.setEnt .internalNl,.cb],none,false⟩⟩,⟨256,.cr,true,some ⟨28,[.setEnt .internalNl,.cb],none,false⟩⟩,⟨256,.other,false,some ⟨29,[.setEnt .internalNl,.cb],none,false⟩⟩,⟨256,.other,false,some ⟨30,[.setEnt .internalNl,.cb],none,false⟩⟩]⟩,⟨[13,14],none,[],[⟨256,.other,false,some ⟨22,[.comment],none,false⟩⟩,⟨256,.ws,false,some ⟨23,[],none,false⟩⟩,⟨256,.lf,false,some ⟨24,[],none,false⟩⟩,⟨256,.vt,false,some ⟨25,[],none,false⟩⟩,⟨256,.ff,false,some ⟨26,[],none,false⟩⟩,⟨256,.cr,false,some ⟨27,[],none,false⟩⟩,⟨256,.cr,true,some ⟨28,[],none,false⟩⟩,⟨256,.other,false,some ⟨41,[],none,false⟩⟩,⟨256,.other,false,some ⟨30,[],none,false⟩⟩]⟩,⟨[0,9,13],none,[],[⟨256,.other,false,some ⟨42,[.comment],none,false⟩⟩,⟨256,.ws,false,some ⟨43,[],none,false⟩⟩,⟨256,.lf,false,some ⟨44,[],none,false⟩⟩,⟨256,.vt,false,some ⟨45,[],none,false⟩⟩,⟨256,.ff,false,some ⟨46,[],none,false⟩⟩,⟨256,.cr,false,some ⟨47,[],none,false⟩⟩,⟨256,.cr,true,some ⟨48,[],none,false⟩⟩,⟨256,.other,false,some ⟨49,[.emb (.sawCall 3 5),.comment],none,false⟩⟩,⟨256,.other,false,some ⟨50,[],none,false⟩⟩,⟨256,.other,false,some ⟨51,[],none,false⟩⟩]⟩,⟨[3,4,13],none,[],[⟨256,.other,false,some ⟨22,[.setEnt .internalNl,.cb,.comment],none,false⟩⟩,⟨256,.ws,false,some ⟨23,[.setEnt .internalNl,.cb],none,false⟩⟩,⟨256,.lf,false,some ⟨24,[.setEnt .internalNl,.cb],none,false⟩⟩,⟨256,.vt,false,some ⟨25,[],none,false⟩⟩,⟨256,.ff,false,some ⟨26,[.setEnt .internalNl,.cb],none,false⟩⟩,⟨256,.cr,false,some ⟨27,[.setEnt .internalNl,.cb],none,false⟩⟩,⟨256,.cr,true,some ⟨28,[.setEnt .internalNl,.cb],none,false⟩⟩,⟨256,.other,false,some ⟨29,[.setEnt .internalNl,.cb],none,false⟩⟩,⟨256,.other,false,some ⟨30,[.setEnt .internalNl,.cb],none,false⟩⟩]⟩,⟨[8,12],none,[],[⟨256,.other,false,some ⟨22,[.comment],none,false⟩⟩,⟨256,.ws,false,some ⟨23,[],none,false⟩⟩,⟨256,.lf,false,some ⟨24,[],none,false⟩⟩,⟨256,.vt,false,some ⟨25,[],none,false⟩⟩,⟨256,.ff,false,some ⟨26,[],none,false⟩⟩,⟨256,.cr,false,some ⟨27,[],none,false⟩⟩,⟨256,.cr,true,some ⟨28,[],none,false⟩⟩,⟨256,.other,false,some ⟨29,[],none,false⟩⟩,⟨256,.other,false,some ⟨30,[],none,false⟩⟩]⟩,⟨[7,12],none,[],[⟨256,.other,false,some ⟨22,[.comment],none,false⟩⟩,⟨256,.ws,false,some ⟨23,[],none,false⟩⟩,⟨256,.lf,false,some ⟨24,[],none,false⟩⟩,⟨256,.vt,false,some ⟨25,[],none,false⟩⟩,⟨256,.ff,false,some ⟨26,[],none,false⟩⟩,⟨256,.cr,false,some ⟨27,[],none,false⟩⟩,⟨256,.cr,true,some ⟨28,[],none,false⟩⟩,⟨256,.other,false,some ⟨29,[],none,false⟩⟩,⟨256,.other,false,some ⟨30,[],none,false⟩⟩]⟩,⟨[4,12],none,[],[⟨256,.other,false,some ⟨22,[.setEnt .internalNl,.cb,.comment],none,false⟩⟩,⟨256,.ws,false,some ⟨23,[.setEnt .internalNl,.cb],none,false⟩⟩,⟨256,.lf,false,some ⟨24,[.setEnt .internalNl,.cb],none,false⟩⟩,⟨256,.vt,false,some ⟨25,[],none,false⟩⟩,⟨256,.ff,false,some ⟨26,[.setEnt .internalNl,.cb],none,false⟩⟩,⟨256,.cr,false,some ⟨27,[.setEnt .internalNl,.cb],none,false⟩⟩,⟨256,.cr,true,some ⟨28,[.setEnt .internalNl,.cb],none,false⟩⟩,⟨256,.other,false,some ⟨29,[.setEnt .internalNl,.cb],none,false⟩⟩,⟨256,.other,false,some ⟨30,[.setEnt .internalNl,.cb],none,false⟩⟩]⟩,⟨[12],none,[],[⟨256,.other,false,some ⟨22,[.comment],none,false⟩⟩,⟨256,.ws,false,some ⟨23,[],none,false⟩⟩,⟨256,.lf,false,some ⟨24,[],none,false⟩⟩,⟨256,.vt,false,some ⟨25,[],none,false⟩⟩,⟨256,.ff,false,some ⟨26,[],none,false⟩⟩,⟨256,.cr,false,some ⟨27,[],none,false⟩⟩,⟨256,.cr,true,some ⟨28,[],none,false⟩⟩,⟨256,.other,false,some ⟨29,[],none,false⟩⟩,⟨256,.other,false,some ⟨30,[],none,false⟩⟩]⟩,⟨[5,12],none,[],[⟨256,.other,false,some ⟨22,[.setEnt .internalNl,.cb,.comment],none,false⟩⟩,⟨256,.ws,false,some ⟨23,[.setEnt .internalNl,.cb],none,false⟩⟩,⟨256,.lf,false,some ⟨24,[.setEnt .internalNl,.cb],none,false⟩⟩,⟨256,.vt,false,some ⟨25,[],none,false⟩⟩,⟨256,.ff,false,some ⟨26,[.setEnt .internalNl,.cb],none,false⟩⟩,⟨256,.cr,false,some ⟨27,[.setEnt .internalNl,.cb],none,false⟩⟩,⟨256,.cr,true,some ⟨28,[.setEnt .internalNl,.cb],none,false⟩⟩,⟨256,.other,false,some ⟨29,[.setEnt .internalNl,.cb],none,false⟩⟩,⟨256,.other,false,some ⟨30,[.setEnt .internalNl,.cb],none,false⟩⟩]⟩,⟨[2,12],none,[],[⟨256,.other,false,some ⟨22,[.comment],none,false⟩⟩,⟨256,.ws,false,some ⟨23,[],none,false⟩⟩,⟨256,.lf,false,some ⟨31,[],none,false⟩⟩,⟨256,.vt,false,some ⟨25,[],none,false⟩⟩,⟨256,.ff,false,some ⟨26,[],none,false⟩⟩,⟨256,.cr,false,some ⟨27,[],none,false⟩⟩,⟨256,.cr,true,some ⟨28,[],none,false⟩⟩,⟨256,.other,false,some ⟨29,[],none,false⟩⟩,⟨256,.other,false,some ⟨30,[],none,false⟩⟩]⟩,⟨[2,6,12],none,[],[⟨256,.other,false,some ⟨22,[.setEnt .internalNl,.cb,.comment],none,false⟩⟩,⟨256,.ws,false,some ⟨23,[.setEnt .internalNl,.cb],none,false⟩⟩,⟨256,.lf,false,some ⟨31,[.setEnt .internalNl,.cb],none,false⟩⟩,⟨256,.vt,false,some ⟨25,[],none,false⟩⟩,⟨256,.ff,false,some ⟨26,[.setEnt .internalNl,.cb],none,false⟩⟩,⟨256,.cr,false,some ⟨27,[.setEnt .internalNl,.cb],none,false⟩⟩,⟨256,.cr,true,some ⟨28,[.setEnt .internalNl,.cb],none,false⟩⟩,⟨256,.other,false,some ⟨29,[.setEnt .internalNl,.cb],none,false⟩⟩,⟨256,.other,false,some ⟨30,[.setEnt .internalNl,.cb],none,false⟩⟩]⟩,⟨[12,14],none,[],[⟨256,.other,false,some ⟨22,[.comment],none,false⟩⟩,⟨256,.ws,false,some ⟨23,[],none,false⟩⟩,⟨256,.lf,false,some ⟨24,[],none,false⟩⟩,⟨256,.vt,false,some ⟨25,[],none,false⟩⟩,⟨256,.ff,false,some ⟨26,[],none,false⟩⟩,⟨256,.cr,false,some ⟨27,[],none,false⟩⟩,⟨256,.cr,true,some ⟨28,[],none,false⟩⟩,⟨256,.other,false,some ⟨41,[],none,false⟩⟩,⟨256,.other,false,some ⟨30,[],none,false⟩⟩]⟩,⟨[0,9,12],none,[],[⟨256,.other,false,some ⟨42,[.comment],none,false⟩⟩,⟨256,.ws,false,some ⟨43,[],none,false⟩⟩,⟨256,.lf,false,some ⟨44,[],none,false⟩⟩,⟨256,.vt,false,some ⟨45,[],none,false⟩⟩,⟨256,.ff,false,some ⟨46,[],none,false⟩⟩,⟨256,.cr,false,some ⟨47,[],none,false⟩⟩,⟨256,.cr,true,some ⟨48,[],none,false⟩⟩,⟨256,.other,false,some ⟨49,[.emb (.sawCall 3 5),.comment],none,false⟩⟩,⟨256,.other,false,some ⟨50,[],none,false⟩⟩,⟨256,.other,false,some ⟨51,[],none,false⟩⟩]⟩,⟨[13,14,15],none,[],[⟨256,.other,false,some ⟨22,[.comment],none,false⟩⟩,⟨256,.ws,false,some ⟨23,[],none,false⟩⟩,⟨256,.lf,false,some ⟨24,[],none,false⟩⟩,⟨256,.vt,false,some ⟨25,[],none,false⟩⟩,⟨256,.ff,false,some ⟨26,[],none,false⟩⟩,⟨256,.cr,false,some ⟨27,[],none,false⟩⟩,⟨256,.cr,true,some ⟨28,[],none,false⟩⟩,⟨256,.other,false,some ⟨41,[],none,false⟩⟩,⟨256,.other,false,some ⟨30,[],none,false⟩⟩,⟨256,.other,false,some ⟨0,[.comment,.emb (.goto 6)],some 0,true⟩⟩]⟩,⟨[8,10,13],none,[],[⟨256,.other,false,some ⟨22,[.comment],none,false⟩⟩,⟨256,.ws,false,some ⟨23,[],none,false⟩⟩,⟨256,.lf,false,some ⟨24,[],none,false⟩⟩,⟨256,.vt,false,some ⟨25,[],none,false⟩⟩,⟨256,.ff,false,some ⟨26,[],none,false⟩⟩,⟨256,.cr,false,some ⟨27,[],none,false⟩⟩,⟨256,.cr,true,some ⟨28,[],none,false⟩⟩,⟨256,.other,false,some ⟨29,[],none,false⟩⟩,⟨256,.other,false,some ⟨30,[],none,false⟩⟩]⟩,⟨[7,10,13],none,[],[⟨256,.other,false,some ⟨22,[.comment],none,false⟩⟩,⟨256,.ws,false,some ⟨23,[],none,false⟩⟩,⟨256,.lf,false,some ⟨24,[],none,false⟩⟩,⟨256,.vt,false,some ⟨25,[],none,false⟩⟩,⟨256,.ff,false,some ⟨26,[],none,false⟩⟩,⟨256,.cr,false,some ⟨27,[],none,false⟩⟩,⟨256,.cr,true,some ⟨28,[],none,false⟩⟩,⟨256,.other,false,some ⟨29,[],none,false⟩⟩,⟨256,.other,false,some ⟨30,[],none,false⟩⟩]⟩,⟨[4,10,13],none,[],[⟨256,.other,false,some ⟨22,[.setEnt .internalNl,.cb,.comment],none,false⟩⟩,⟨256,.ws,false,some ⟨23,[.setEnt .internalNl,.cb],none,false⟩⟩,⟨256,.lf,false,some ⟨24,[.setEnt .internalNl,.cb],none,false⟩⟩,⟨256,.vt,false,some ⟨25,[],none,false⟩⟩,⟨256,.ff,false,some ⟨26,[.setEnt .internalNl,.cb],none,false⟩⟩,⟨256,.cr,false,some ⟨27,[.setEnt .internalNl,.cb],none,false⟩⟩,⟨256,.cr,true,some ⟨28,[.setEnt .internalNl,.cb],none,false⟩⟩,⟨256,.other,false,some ⟨29,[.setEnt .internalNl,.cb],none,false⟩⟩,⟨256,.other,false,some ⟨30,[.setEnt .internalNl,.cb],none,false⟩⟩]⟩,⟨[10,13],none,[],[⟨256,.other,false,some ⟨22,[.comment],none,false⟩⟩,⟨256,.ws,false,some ⟨23,[],none,false⟩⟩,⟨256,.lf,false,some ⟨24,[],none,false⟩⟩,⟨256,.vt,false,some ⟨25,[],none,false⟩⟩,⟨256,.ff,false,some ⟨26,[],none,false⟩⟩,⟨256,.cr,false,some ⟨27,[],none,false⟩⟩,⟨256,.cr,true,some ⟨28,[],none,false⟩⟩,⟨256,.other,false,some ⟨29,[],none,false⟩⟩,⟨256,.other,false,some ⟨30,[],none,false⟩⟩]⟩,⟨[5,10,13],none,[],[⟨256,.other,false,some ⟨22,[.setEnt .internalNl,.cb,.comment],none,false⟩⟩,⟨256,.ws,false,some ⟨23,[.setEnt .internalNl,.cb],none,false⟩⟩,⟨256,.lf,false,some ⟨24,[.setEnt .internalNl,.cb],none,false⟩⟩,⟨256,.vt,false,some ⟨25,[],none,false⟩⟩,⟨256,.ff,false,some ⟨26,[.setEnt .internalNl,.cb],none,false⟩⟩,⟨256,.cr,false,some ⟨27,[.setEnt .internalNl,.cb],none,false⟩⟩,⟨256,.cr,true,some ⟨28,[.setEnt .internalNl,.cb],none,false⟩⟩,⟨256,.other,false,some ⟨29,[.setEnt .internalNl,.cb],none,false⟩⟩,⟨256,.other,false,some ⟨30,[.setEnt .internalNl,.cb],none,false⟩⟩]⟩,⟨[2,10,13],none,[],[⟨256,.other,false,some ⟨22,[.comment],none,false⟩⟩,⟨256,.ws,false,some ⟨23,[],none,false⟩⟩,⟨256,.lf,false,some ⟨31,[],none,false⟩⟩,⟨256,.vt,false,some ⟨25,[],none,false⟩⟩,⟨256,.ff,false,some ⟨26,[],none,false⟩⟩,⟨256,.cr,false,some ⟨27,[],none,false⟩⟩,⟨256,.cr,true,some ⟨28,[],none,false⟩⟩,⟨256,.other,false,some ⟨29,[],none,false⟩⟩,⟨256,.other,false,some ⟨30,[],none,false⟩⟩]⟩,⟨[2,6,10,13],none,[],[⟨256,.other,false,some ⟨22,[.setEnt .internalNl,.cb,.comment],none,false⟩⟩,⟨256,.ws,false,some ⟨23,[.setEnt .internalNl,.cb],none,false⟩⟩,⟨256,.lf,false,some ⟨31,[.setEnt .internalNl,.cb],none,false⟩⟩,⟨256,.vt,false,some ⟨25,[],none,false⟩⟩,⟨256,.ff,false,some ⟨26,[.setEnt .internalNl,.cb],none,false⟩⟩,⟨256,.cr,false,some ⟨27,[.setEnt .internalNl,.cb],none,false⟩⟩,⟨256,.cr,true,some ⟨28,[.setEnt .internalNl,.cb],none,false⟩⟩,⟨256,.other,false,some ⟨29,[.setEnt .internalNl,.cb],none,false⟩⟩,⟨256,.other,false,some ⟨30,[.setEnt .internalNl,.cb],none,false⟩⟩]⟩,⟨[1,8,11,13],none,[],[⟨256,.other,false,some ⟨52,[.comment],none,false⟩⟩,⟨256,.ws,false,some ⟨53,[],none,false⟩⟩,⟨256,.lf,false,some ⟨54,[],none,false⟩⟩,⟨256,.vt,false,some ⟨55,[],none,false⟩⟩,⟨256,.ff,false,some ⟨56,[],none,false⟩⟩,⟨256,.cr,false,some ⟨57,[],none,false⟩⟩,⟨256,.cr,true,some ⟨58,[],none,false⟩⟩,⟨256,.other,false,some ⟨59,[],none,false⟩⟩,⟨256,.other,false,some ⟨60,[],none,false⟩⟩]⟩,⟨[10,13,14],none,[],[⟨256,.other,false,some ⟨22,[.comment],none,false⟩⟩,⟨256,.ws,false,some ⟨23,[],none,false⟩⟩,⟨256,.lf,false,some ⟨24,[],none,false⟩⟩,⟨256,.vt,false,some ⟨25,[],none,false⟩⟩,⟨256,.ff,false,some ⟨26,[],none,false⟩⟩,⟨256,.cr,false,some ⟨27,[],none,false⟩⟩,⟨256,.cr,true,some ⟨28,[],none,false⟩⟩,⟨256,.other,false,some ⟨41,[],none,false⟩⟩,⟨256,.other,false,some ⟨30,[],none,false⟩⟩]⟩,⟨[0,9,10,13],none,[],[⟨256,.other,false,some ⟨42,[.comment],none,false⟩⟩,⟨256,.ws,false,some ⟨43,[],none,false⟩⟩,⟨256,.lf,false,some ⟨44,[],none,false⟩⟩,⟨256,.vt,false,some ⟨45,[],none,false⟩⟩,⟨256,.ff,false,some ⟨46,[],none,false⟩⟩,⟨256,.cr,false,some ⟨47,[],none,false⟩⟩,⟨256,.cr,true,some ⟨48,[],none,false⟩⟩,⟨256,.other,false,some ⟨49,[.emb (.sawCall 3 5),.comment],none,false⟩⟩,⟨256,.other,false,some ⟨50,[],none,false⟩⟩,⟨256,.other,false,some ⟨51,[],none,false⟩⟩]⟩,⟨[8,12,13],none,[],[⟨256,.other,false,some ⟨22,[.comment],none,false⟩⟩,⟨256,.ws,false,some ⟨23,[],none,false⟩⟩,⟨256,.lf,false,some ⟨24,[],none,false⟩⟩,⟨256,.vt,false,some ⟨25,[],none,false⟩⟩,⟨256,.ff,false,some ⟨26,[],none,false⟩⟩,⟨256,.cr,false,some ⟨27,[],none,false⟩⟩,⟨256,.cr,true,some ⟨28,[],none,false⟩⟩,⟨256,.other,false,some ⟨29,[],none,false⟩⟩,⟨256,.other,false,some ⟨30,[],none,false⟩⟩]⟩,⟨[7,12,13],none,[],[⟨256,.other,false,some ⟨22,[.comment],none,false⟩⟩,⟨256,.ws,false,some ⟨23,[],none,false⟩⟩,⟨256,.lf,false,some ⟨24,[],none,false⟩⟩,⟨256,.vt,false,some ⟨25,[],none,false⟩⟩,⟨256,.ff,false,some ⟨26,[],none,false⟩⟩,⟨256,.cr,false,some ⟨27,[],none,false⟩⟩,⟨256,.cr,true,some ⟨28,[],none,false⟩⟩,⟨256,.other,false,some ⟨29,[],none,false⟩⟩,⟨256,.other,false,some ⟨30,[],none,false⟩⟩]⟩,⟨[4,12,13],none,[],[⟨256,.other,false,some ⟨22,[.setEnt .internalNl,.cb,.comment],none,false⟩⟩,⟨256,.ws,false,some ⟨23,[.setEnt .internalNl,.cb],none,false⟩⟩,⟨256,.lf,false,some ⟨24,[.setEnt .internalNl,.cb],none,false⟩⟩,⟨256,.vt,false,some ⟨25,[],none,false⟩⟩,⟨256,.ff,false,some ⟨26,[.setEnt .internalNl,.cb],none,false⟩⟩,⟨256,.cr,false,some ⟨27,[.setEnt .internalNl,.cb],none,false⟩⟩,⟨256,.cr,true,some ⟨28,[.setEnt .internalNl,.cb],none,false⟩⟩,⟨256,.other,false,some ⟨29,[.setEnt .internalNl,.cb],none,false⟩⟩,⟨256,.other,false,some ⟨30,[.setEnt .internalNl,.cb],none,false⟩⟩]⟩,⟨[12,13],none,[],[⟨256,.other,false,some ⟨22,[.comment],none,false⟩⟩,⟨256,.ws,false,some ⟨23,[],none,false⟩⟩,⟨256,.lf,false,some ⟨24,[],none,false⟩⟩,⟨256,.vt,false,some ⟨25,[],none,false⟩⟩,⟨256,.ff,false,some ⟨26,[],none,false⟩⟩,⟨256,.cr,false,some ⟨27,[],none,false⟩⟩,⟨256,.cr,true,some ⟨28,[],none,false⟩⟩,⟨256,.other,false,some ⟨29,[],none,false⟩⟩,⟨256,.other,false,some ⟨30,[],none,false⟩⟩]⟩,⟨[5,12,13],none,[],[⟨256,.other,false,some ⟨22,[.setEnt .internalNl,.cb,.comment],none,false⟩⟩,⟨256,.ws,false,some ⟨23,[.setEnt .internalNl,.cb],none,false⟩⟩,⟨256,.lf,false,some ⟨24,[.setEnt .internalNl,.cb],none,false⟩⟩,⟨256,.vt,false,some ⟨25,[],none,false⟩⟩,⟨256,.ff,false,some ⟨26,[.setEnt .internalNl,.cb],none,false⟩⟩,⟨256,.cr,false,some ⟨27,[.setEnt .internalNl,.cb],none,false⟩⟩,⟨256,.cr,true,some ⟨28,[.setEnt .internalNl,.cb],none,false⟩⟩,⟨256,.other,false,some ⟨29,[.setEnt .internalNl,.cb],none,false⟩⟩,⟨256,.other,false,some ⟨30,[.setEnt .internalNl,.cb],none,false⟩⟩]⟩,⟨[2,12,13],none,[],[⟨256,.other,false,some ⟨22,[.comment],none,false⟩⟩,⟨256,.ws,false,some ⟨23,[],none,false⟩⟩,⟨256,.lf,false,some ⟨31,[],none,false⟩⟩,⟨256,.vt,false,some ⟨25,[],none,false⟩⟩,⟨256,.ff,false,some ⟨26,[],none,false⟩⟩,⟨256,.cr,false,some ⟨27,[],none,false⟩⟩,⟨256,.cr,true,some ⟨28,[],none,false⟩⟩,⟨256,.other,false,some ⟨29,[],none,false⟩⟩,⟨256,.other,false,some ⟨30,[],none,false⟩⟩]⟩,⟨[2,6,12,13],none,[],[⟨256,.other,false,some ⟨22,[.setEnt .internalNl,.cb,.comment],none,false⟩⟩,⟨256,.ws,false,some ⟨23,[.setEnt .internalNl,.cb],none,false⟩⟩,⟨256,.lf,false,some ⟨31,[.setEnt .internalNl,.cb],none,false⟩⟩,⟨256,.vt,false,some ⟨25,[],none,false⟩⟩,⟨256,.ff,false,some ⟨26,[.setEnt .internalNl,.cb],none,false⟩⟩,⟨256,.cr,false,some ⟨27,[.setEnt .internalNl,.cb],none,false⟩⟩,⟨256,.cr,true,some ⟨28,[.setEnt .internalNl,.cb],none,false⟩⟩,⟨256,.other,false,some ⟨29,[.setEnt .internalNl,.cb],none,false⟩⟩,⟨256,.other,false,some ⟨30,[.setEnt .internalNl,.cb],none,false⟩⟩]⟩,⟨[12,13,14],none,[],[⟨256,.other,false,some ⟨22,[.comment],none,false⟩⟩,⟨256,.ws,false,some ⟨23,[],none,false⟩⟩,⟨256,.lf,false,some ⟨24,[],none,false⟩⟩,⟨256,.vt,false,some ⟨25,[],none,false⟩⟩,⟨256,.ff,false,some ⟨26,[],none,false⟩⟩,⟨256,.cr,false,some ⟨27,[],none,false⟩⟩,⟨256,.cr,true,some ⟨28,[],none,false⟩⟩,⟨256,.other,false,some ⟨41,[],none,false⟩⟩,⟨256,.other,false,some ⟨30,[],none,false⟩⟩]⟩,⟨[0,9,12,13],none,[],[⟨256,.other,false,some ⟨42,[.comment],none,false⟩⟩,⟨256,.ws,false,some ⟨43,[],none,false⟩⟩,⟨256,.lf,false,some ⟨44,[],none,false⟩⟩,⟨256,.vt,false,some ⟨45,[],none,false⟩⟩,⟨256,.ff,false,some ⟨46,[],none,false⟩⟩,⟨256,.cr,false,some ⟨47,[],none,false⟩⟩,⟨256,.cr,true,some ⟨48,[],none,false⟩⟩,⟨256,.other,false,some ⟨49,[.emb (.sawCall 3 5),.comment],none,false⟩⟩,⟨256,.other,false,some ⟨50,[],none,false⟩⟩,⟨256,.other,false,some ⟨51,[],none,false⟩⟩]⟩]
theorem emb25_rowsOk : rowsOk emb25_nfa [] (emb25_cs.map (·.1)) emb25_rows = true := by decide +kernel
def emb25_D : Dfa emb25_nfa := ⟨emb25_masks, [], emb25_cs, emb25_rows, emb25_masksIn, emb25_repOk, emb25_rowsOk⟩

/-- The automaton of `Emb.Jsp.jsp_dq_str`. -/
def emb27_nfa : Nfa := ⟨[⟨0,1152921504606846976,[],[],0,0⟩,⟨2,8192,[],[],0,0⟩,⟨4,1024,[],[],0,0⟩,⟨5,4096,[],[],0,0⟩,⟨6,8192,[.crAlone],[],0,0⟩,⟨7,4294967808,[],[],0,0⟩,⟨8,115792089237316195423570985008687907853269984665635612279299289565287451445759,[],[(3,.code)],0,0⟩,⟨9,4951760157141521099596496896,[],[],0,0⟩,⟨11,1152921504606846976,[],[],0,0⟩,⟨16,17179869184,[],[(5,.emb (.goto 6))],0,0⟩],[[⟨1,137438953472,[],[(0,.emb (.sawCall 3 5))],0,0⟩],[⟨0,1152921504606846976,[],[],0,0⟩,⟨2,8192,[],[],0,0⟩,⟨4,1024,[],[],0,0⟩,⟨5,4096,[],[],0,0⟩,⟨6,8192,[.crAlone],[],0,0⟩,⟨7,4294967808,[],[],0,0⟩,⟨8,115792089237316195423570985008687907853269984665635612279299289565287451445759,[],[(3,.code)],0,0⟩,⟨9,4951760157141521099596496896,[],[],0,0⟩,⟨11,1152921504606846976,[],[],0,0⟩,⟨16,17179869184,[],[(5,.emb (.goto 6))],0,0⟩],[⟨3,1024,[],[],0,0⟩],[⟨0,1152921504606846976,[],[(1,.setEnt .internalNl),(2,.cb)],0,0⟩,⟨2,8192,[],[(1,.setEnt .internalNl),(2,.cb)],0,0⟩,⟨4,1024,[],[(1,.setEnt .internalNl),(2,.cb)],0,0⟩,⟨5,4096,[],[(1,.setEnt .internalNl),(2,.cb)],0,0⟩,⟨6,8192,[.crAlone],[(1,.setEnt .internalNl),(2,.cb)],0,0⟩,⟨7,4294967808,[],[(1,.setEnt .internalNl),(2,.cb)],0,0⟩,⟨8,115792089237316195423570985008687907853269984665635612279299289565287451445759,[],[(1,.setEnt .internalNl),(2,.cb),(3,.code)],0,0⟩,⟨9,4951760157141521099596496896,[],[(1,.setEnt .internalNl),(2,.cb)],0,0⟩,⟨11,1152921504606846976,[],[(1,.setEnt .internalNl),(2,.cb)],0,0⟩,⟨16,17179869184,[],[(1,.setEnt .internalNl),(2,.cb),(5,.emb (.goto 6))],0,0⟩],[⟨0,1152921504606846976,[],[(1,.setEnt .internalNl),(2,.cb)],0,0⟩,⟨2,8192,[],[(1,.setEnt .internalNl),(2,.cb)],0,0⟩,⟨4,1024,[],[(1,.setEnt .internalNl),(2,.cb)],0,0⟩,⟨5,4096,[],[(1,.setEnt .internalNl),(2,.cb)],0,0⟩,⟨6,8192,[.crAlone],[(1,.setEnt .internalNl),(2,.cb)],0,0⟩,⟨7,4294967808,[],[(1,.setEnt .internalNl),(2,.cb)],0,0⟩,⟨8,115792089237316195423570985008687907853269984665635612279299289565287451445759,[],[(1,.setEnt .internalNl),(2,.cb),(3,.code)],0,0⟩,⟨9,4951760157141521099596496896,[],[(1,.setEnt .internalNl),(2,.cb)],0,0⟩,⟨11,1152921504606846976,[],[(1,.setEnt .internalNl),(2,.cb)],0,0⟩,⟨16,17179869184,[],[(1,.setEnt .internalNl),(2,.cb),(5,.emb (.goto 6))],0,0⟩],[⟨0,1152921504606846976,[],[(1,.setEnt .internalNl),(2,.cb)],0,0⟩,⟨2,8192,[],[(1,.setEnt .internalNl),(2,.cb)],0,0⟩,⟨4,1024,[],[(1,.setEnt .internalNl),(2,.cb)],0,0⟩,⟨5,4096,[],[(1,.setEnt .internalNl),(2,.cb)],0,0⟩,⟨6,8192,[.crAlone],[(1,.setEnt .internalNl),(2,.cb)],0,0⟩,⟨7,4294967808,[],[(1,.setEnt .internalNl),(2,.cb)],0,0⟩,⟨8,115792089237316195423570985008687907853269984665635612279299289565287451445759,[],[(1,.setEnt .internalNl),(2,.cb),(3,.code)],0,0⟩,⟨9,4951760157141521099596496896,[],[(1,.setEnt .internalNl),(2,.cb)],0,0⟩,⟨11,1152921504606846976,[],[(1,.setEnt .internalNl),(2,.cb)],0,0⟩,⟨16,17179869184,[],[(1,.setEnt .internalNl),(2,.cb),(5,.emb (.goto 6))],0,0⟩],[⟨0,1152921504606846976,[],[(1,.setEnt .internalNl),(2,.cb)],0,0⟩,⟨2,8192,[],[(1,.setEnt .internalNl),(2,.cb)],0,0⟩,⟨4,1024,[],[(1,.setEnt .internalNl),(2,.cb)],0,0⟩,⟨5,4096,[],[(1,.setEnt .internalNl),(2,.cb)],0,0⟩,⟨6,8192,[.crAlone],[(1,.setEnt .internalNl),(2,.cb)],0,0⟩,⟨7,4294967808,[],[(1,.setEnt .internalNl),(2,.cb)],0,0⟩,⟨8,115792089237316195423570985008687907853269984665635612279299289565287451445759,[],[(1,.setEnt .internalNl),(2,.cb),(3,.code)],0,0⟩,⟨9,4951760157141521099596496896,[],[(1,.setEnt .internalNl),(2,.cb)],0,0⟩,⟨11,1152921504606846976,[],[(1,.setEnt .internalNl),(2,.cb)],0,0⟩,⟨16,17179869184,[],[(1,.setEnt .internalNl),(2,.cb),(5,.emb (.goto 6))],0,0⟩],[⟨0,1152921504606846976,[],[],0,0⟩,⟨2,8192,[],[],0,0⟩,⟨4,1024,[],[],0,0⟩,⟨5,4096,[],[],0,0⟩,⟨6,8192,[.crAlone],[],0,0⟩,⟨7,4294967808,[],[],0,0⟩,⟨8,115792089237316195423570985008687907853269984665635612279299289565287451445759,[],[(3,.code)],0,0⟩,⟨9,4951760157141521099596496896,[],[],0,0⟩,⟨11,1152921504606846976,[],[],0,0⟩,⟨16,17179869184,[],[(5,.emb (.goto 6))],0,0⟩],[⟨0,1152921504606846976,[],[],0,0⟩,⟨2,8192,[],[],0,0⟩,⟨4,1024,[],[],0,0⟩,⟨5,4096,[],[],0,0⟩,⟨6,8192,[.crAlone],[],0,0⟩,⟨7,4294967808,[],[],0,0⟩,⟨8,115792089237316195423570985008687907853269984665635612279299289565287451445759,[],[(3,.code)],0,0⟩,⟨9,4951760157141521099596496896,[],[],0,0⟩,⟨11,1152921504606846976,[],[],0,0⟩,⟨16,17179869184,[],[(5,.emb (.goto 6))],0,0⟩],[⟨10,115792089237316195423570985008687907853269984665640564039457584007913129626623,[],[(4,.code)],0,0⟩],[⟨0,1152921504606846976,[],[],0,0⟩,⟨2,8192,[],[],0,0⟩,⟨4,1024,[],[],0,0⟩,⟨5,4096,[],[],0,0⟩,⟨6,8192,[.crAlone],[],0,0⟩,⟨7,4294967808,[],[],0,0⟩,⟨8,115792089237316195423570985008687907853269984665635612279299289565287451445759,[],[(3,.code)],0,0⟩,⟨9,4951760157141521099596496896,[],[],0,0⟩,⟨11,1152921504606846976,[],[],0,0⟩,⟨16,17179869184,[],[(5,.emb (.goto 6))],0,0⟩],[⟨12,115792089237316195423570985008687907853269984665640564039457584007775690686463,[],[],0,0⟩,⟨13,137438953472,[],[],0,0⟩,⟨0,1152921504606846976,[],[],0,0⟩,⟨2,8192,[],[],0,0⟩,⟨4,1024,[],[],0,0⟩,⟨5,4096,[],[],0,0⟩,⟨6,8192,[.crAlone],[],0,0⟩,⟨7,4294967808,[],[],0,0⟩,⟨8,115792089237316195423570985008687907853269984665635612279299289565287451445759,[],[(3,.code)],0,0⟩,⟨9,4951760157141521099596496896,[],[],0,0⟩,⟨11,1152921504606846976,[],[],0,0⟩,⟨16,17179869184,[],[(5,.emb (.goto 6))],0,0⟩],[⟨15,115792089237316195423570985008687907853269984665640564039457584007913129639935,[],[],0,0⟩,⟨0,1152921504606846976,[],[],0,0⟩,⟨2,8192,[],[],0,0⟩,⟨4,1024,[],[],0,0⟩,⟨5,4096,[],[],0,0⟩,⟨6,8192,[.crAlone],[],0,0⟩,⟨7,4294967808,[],[],0,0⟩,⟨8,115792089237316195423570985008687907853269984665635612279299289565287451445759,[],[(3,.code)],0,0⟩,⟨9,4951760157141521099596496896,[],[],0,0⟩,⟨11,1152921504606846976,[],[],0,0⟩,⟨16,17179869184,[],[(5,.emb (.goto 6))],0,0⟩],[⟨14,115792089237316195423570985008687907853269984665640564039457584007913129639935,[],[],0,0⟩],[⟨15,115792089237316195423570985008687907853269984665640564039457584007913129639935,[],[],0,0⟩,⟨0,1152921504606846976,[],[],0,0⟩,⟨2,8192,[],[],0,0⟩,⟨4,1024,[],[],0,0⟩,⟨5,4096,[],[],0,0⟩,⟨6,8192,[.crAlone],[],0,0⟩,⟨7,4294967808,[],[],0,0⟩,⟨8,115792089237316195423570985008687907853269984665635612279299289565287451445759,[],[(3,.code)],0,0⟩,⟨9,4951760157141521099596496896,[],[],0,0⟩,⟨11,1152921504606846976,[],[],0,0⟩,⟨16,17179869184,[],[(5,.emb (.goto 6))],0,0⟩],[⟨15,115792089237316195423570985008687907853269984665640564039457584007913129639935,[],[],0,0⟩,⟨0,1152921504606846976,[],[],0,0⟩,⟨2,8192,[],[],0,0⟩,⟨4,1024,[],[],0,0⟩,⟨5,4096,[],[],0,0⟩,⟨6,8192,[.crAlone],[],0,0⟩,⟨7,4294967808,[],[],0,0⟩,⟨8,115792089237316195423570985008687907853269984665635612279299289565287451445759,[],[(3,.code)],0,0⟩,⟨9,4951760157141521099596496896,[],[],0,0⟩,⟨11,1152921504606846976,[],[],0,0⟩,⟨16,17179869184,[],[(5,.emb (.goto 6))],0,0⟩],[]],[none,none,none,none,none,none,none,none,none,none,none,none,none,none,none,none,some (0,[])],[6]⟩
def emb27_masks : List Nat := [1152921504606846976,8192,1024,4096,4294967808,115792089237316195423570985008687907853269984665635612279299289565287451445759,4951760157141521099596496896,17179869184,137438953472,115792089237316195423570985008687907853269984665640564039457584007913129626623,115792089237316195423570985008687907853269984665640564039457584007775690686463,115792089237316195423570985008687907853269984665640564039457584007913129639935]
def emb27_cs : List (Nat × Nat) := [(0,115792089237316195423570985008687907853269984665635612279299289565150012490239),(9,4294967808),(10,1024),(11,2048),(12,4096),(13,8192),(34,17179869184),(37,137438953472),(60,1152921504606846976),(92,4951760157141521099596496896)]
theorem emb27_masksIn : masksIn emb27_nfa emb27_masks = true := by decide +kernel
theorem emb27_repOk : repOk emb27_masks emb27_cs = true := by decide +kernel
def emb27_rows : List Row := [⟨[],none,[],[⟨256,.other,false,some ⟨1,[.code],none,false⟩⟩,⟨256,.ws,false,some ⟨2,[],none,false⟩⟩,⟨256,.lf,false,some ⟨3,[],none,false⟩⟩,⟨256,.vt,false,some ⟨1,[.code],none,false⟩⟩,⟨256,.ff,false,some ⟨4,[],none,false⟩⟩,⟨256,.cr,false,some ⟨5,[],none,false⟩⟩,⟨256,.cr,true,some ⟨6,[],none,false⟩⟩,⟨256,.other,false,some ⟨0,[.emb (.goto 6)],some 0,true⟩⟩,⟨256,.other,false,some ⟨7,[],none,false⟩⟩,⟨256,.other,false,some ⟨8,[],none,false⟩⟩]⟩,⟨[8],none,[],[⟨256,.other,false,some ⟨1,[.code],none,false⟩⟩,⟨256,.ws,false,some ⟨2,[],none,false⟩⟩,⟨256,.lf,false,some ⟨3,[],none,false⟩⟩,⟨256,.vt,false,some ⟨1,[.code],none,false⟩⟩,⟨256,.ff,false,some ⟨4,[],none,false⟩⟩,⟨256,.cr,false,some ⟨5,[],none,false⟩⟩,⟨256,.cr,true,some ⟨6,[],none,false⟩⟩,⟨256,.other,false,some ⟨0,[.emb (.goto 6)],some 0,true⟩⟩,⟨256,.other,false,some ⟨7,[],none,false⟩⟩,⟨256,.other,false,some ⟨8,[],none,false⟩⟩]⟩,⟨[7],none,[],[⟨256,.other,false,some ⟨1,[.code],none,false⟩⟩,⟨256,.ws,false,some ⟨2,[],none,false⟩⟩,⟨256,.lf,false,some ⟨3,[],none,false⟩⟩,⟨256,.vt,false,some ⟨1,[.code],none,false⟩⟩,⟨256,.ff,false,some ⟨4,[],none,false⟩⟩,⟨256,.cr,false,some ⟨5,[],none,false⟩⟩,⟨256,.cr,true,some ⟨6,[],none,false⟩⟩,⟨256,.other,false,some ⟨0,[.emb (.goto 6)],some 0,true⟩⟩,⟨256,.other,false,some ⟨7,[],none,false⟩⟩,⟨256,.other,false,some ⟨8,[],none,false⟩⟩]⟩,⟨[4],none,[],[⟨256,.other,false,some ⟨1,[.setEnt .internalNl,.cb,.code],none,false⟩⟩,⟨256,.ws,false,some ⟨2,[.setEnt .internalNl,.cb],none,false⟩⟩,⟨256,.lf,false,some ⟨3,[.setEnt .internalNl,.cb],none,false⟩⟩,⟨256,.vt,false,some ⟨1,[.setEnt .internalNl,.cb,.code],none,false⟩⟩,⟨256,.ff,false,some ⟨4,[.setEnt .internalNl,.cb],none,false⟩⟩,⟨256,.cr,false,some ⟨5,[.setEnt .internalNl,.cb],none,false⟩⟩,⟨256,.cr,true,some ⟨6,[.setEnt .internalNl,.cb],none,false⟩⟩,⟨256,.other,false,some ⟨0,[.setEnt .internalNl,.cb,.emb (.goto 6)],some 0,true⟩⟩,⟨256,.other,false,some ⟨7,[.setEnt .internalNl,.cb],none,false⟩⟩,⟨256,.other,false,some ⟨8,[.setEnt .internalNl,.cb],none,false⟩⟩]⟩,⟨[5],none,[],[⟨256,.other,false,some ⟨1,[.setEnt .internalNl,.cb,.code],none,false⟩⟩,⟨256,.ws,false,some ⟨2,[.setEnt .internalNl,.cb],none,false⟩⟩,⟨256,.lf,false,some ⟨3,[.setEnt .internalNl,.cb],none,false⟩⟩,⟨256,.vt,false,some ⟨1,[.setEnt .internalNl,.cb,.code],none,false⟩⟩,⟨256,.ff,false,some ⟨4,[.setEnt .internalNl,.cb],none,false⟩⟩,⟨256,.cr,false,some ⟨5,[.setEnt .internalNl,.cb],none,false⟩⟩,⟨256,.cr,true,some ⟨6,[.setEnt .internalNl,.cb],none,false⟩⟩,⟨256,.other,false,some ⟨0,[.setEnt .internalNl,.cb,.emb (.goto 6)],some 0,true⟩⟩,⟨256,.other,false,some ⟨7,[.setEnt .internalNl,.cb],none,false⟩⟩,⟨256,.other,false,some ⟨8,[.setEnt .internalNl,.cb],none,false⟩⟩]⟩,⟨[2],none,[],[⟨256,.other,false,none⟩,⟨256,.ws,false,none⟩,⟨256,.lf,false,some ⟨9,[],none,false⟩⟩,⟨256,.vt,false,none⟩,⟨256,.ff,false,none⟩,⟨256,.cr,false,none⟩,⟨256,.cr,true,none⟩]⟩,⟨[2,6],none,[],[⟨256,.other,false,some ⟨1,[.setEnt .internalNl,.cb,.code],none,false⟩⟩,⟨256,.ws,false,some ⟨2,[.setEnt .internalNl,.cb],none,false⟩⟩,⟨256,.lf,false,some ⟨10,[.setEnt .internalNl,.cb],none,false⟩⟩,⟨256,.vt,false,some ⟨1,[.setEnt .internalNl,.cb,.code],none,false⟩⟩,⟨256,.ff,false,some ⟨4,[.setEnt .internalNl,.cb],none,false⟩⟩,⟨256,.cr,false,some ⟨5,[.setEnt .internalNl,.cb],none,false⟩⟩,⟨256,.cr,true,some ⟨6,[.setEnt .internalNl,.cb],none,false⟩⟩,⟨256,.other,false,some ⟨0,[.setEnt .internalNl,.cb,.emb (.goto 6)],some 0,true⟩⟩,⟨256,.other,false,some ⟨7,[.setEnt .internalNl,.cb],none,false⟩⟩,⟨256,.other,false,some ⟨8,[.setEnt .internalNl,.cb],none,false⟩⟩]⟩,⟨[0,11],none,[],[⟨256,.other,false,some ⟨11,[.code],none,false⟩⟩,⟨256,.ws,false,some ⟨12,[],none,false⟩⟩,⟨256,.lf,false,some ⟨13,[],none,false⟩⟩,⟨256,.vt,false,some ⟨11,[.code],none,false⟩⟩,⟨256,.ff,false,some ⟨14,[],none,false⟩⟩,⟨256,.cr,false,some ⟨15,[],none,false⟩⟩,⟨256,.cr,true,some ⟨16,[],none,false⟩⟩,⟨256,.other,false,some ⟨17,[.emb (.goto 6)],some 0,false⟩⟩,⟨256,.other,false,some ⟨18,[.emb (.sawCall 3 5),.code],none,false⟩⟩,⟨256,.other,false,some ⟨19,[],none,false⟩⟩,⟨256,.other,false,some ⟨20,[],none,false⟩⟩]⟩,⟨[9],none,[],[⟨256,.other,false,some ⟨21,[.code],none,false⟩⟩,⟨256,.ws,false,some ⟨21,[.code],none,false⟩⟩,⟨256,.lf,false,none⟩,⟨256,.vt,false,some ⟨21,[.code],none,false⟩⟩,⟨256,.ff,false,none⟩,⟨256,.cr,false,none⟩,⟨256,.cr,true,none⟩]⟩,⟨[3],none,[],[⟨256,.other,false,some ⟨1,[.setEnt .internalNl,.cb,.code],none,false⟩⟩,⟨256,.ws,false,some ⟨2,[.setEnt .internalNl,.cb],none,false⟩⟩,⟨256,.lf,false,some ⟨3,[.setEnt .internalNl,.cb],none,false⟩⟩,⟨256,.vt,false,some ⟨1,[.setEnt .internalNl,.cb,.code],none,false⟩⟩,⟨256,.ff,false,some ⟨4,[.setEnt .internalNl,.cb],none,false⟩⟩,⟨256,.cr,false,some ⟨5,[.setEnt .internalNl,.cb],none,false⟩⟩,⟨256,.cr,true,some ⟨6,[.setEnt .internalNl,.cb],none,false⟩⟩,⟨256,.other,false,some ⟨0,[.setEnt .internalNl,.cb,.emb (.goto 6)],some 0,true⟩⟩,⟨256,.other,false,some ⟨7,[.setEnt .internalNl,.cb],none,false⟩⟩,⟨256,.other,false,some ⟨8,[.setEnt .internalNl,.cb],none,false⟩⟩]⟩,⟨[3,4],none,[],[⟨256,.other,false,some ⟨1,[.setEnt .internalNl,.cb,.code],none,false⟩⟩,⟨256,.ws,false,some ⟨2,[.setEnt .internalNl,.cb],none,false⟩⟩,⟨256,.lf,false,some ⟨3,[.setEnt .internalNl,.cb],none,false⟩⟩,⟨256,.vt,false,some ⟨1,[.setEnt .internalNl,.cb,.code],none,false⟩⟩,⟨256,.ff,false,some ⟨4,[.setEnt .internalNl,.cb],none,false⟩⟩,⟨256,.cr,false,some ⟨5,[.setEnt .internalNl,.cb],none,false⟩⟩,⟨256,.cr,true,some ⟨6,[.setEnt .internalNl,.cb],none,false⟩⟩,⟨256,.other,false,some ⟨0,[.setEnt .internalNl,.cb,.emb (.goto 6)],some 0,true⟩⟩,⟨256,.other,false,some ⟨7,[.setEnt .internalNl,.cb],none,false⟩⟩,⟨256,.other,false,some ⟨8,[.setEnt .internalNl,.cb],none,false⟩⟩]⟩,⟨[8,12],none,[],[⟨256,.other,false,some ⟨22,[.code],none,false⟩⟩,⟨256,.ws,false,some ⟨23,[],none,false⟩⟩,⟨256,.lf,false,some ⟨24,[],none,false⟩⟩,⟨256,.vt,false,some ⟨22,[.code],none,false⟩⟩,⟨256,.ff,false,some ⟨25,[],none,false⟩⟩,⟨256,.cr,false,some ⟨26,[],none,false⟩⟩,⟨256,.cr,true,some ⟨27,[],none,false⟩⟩,⟨256,.other,false,some ⟨28,[.emb (.goto 6)],some 0,false⟩⟩,⟨256,.other,false,some ⟨29,[],none,false⟩⟩,⟨256,.other,false,some ⟨30,[],none,false⟩⟩]⟩,⟨[7,12],none,[],[⟨256,.other,false,some ⟨22,[.code],none,false⟩⟩,⟨256,.ws,false,some ⟨23,[],none,false⟩⟩,⟨256,.lf,false,some ⟨24,[],none,false⟩⟩,⟨256,.vt,false,some ⟨22,[.code],none,false⟩⟩,⟨256,.ff,false,some ⟨25,[],none,false⟩⟩,⟨256,.cr,false,some ⟨26,[],none,false⟩⟩,⟨256,.cr,true,some ⟨27,[],none,false⟩⟩,⟨256,.other,false,some ⟨28,[.emb (.goto 6)],some 0,false⟩⟩,⟨256,.other,false,some ⟨29,[],none,false⟩⟩,⟨256,.other,false,some ⟨30,[],none,false⟩⟩]⟩,⟨[4,12],none,[],[⟨256,.other,false,some ⟨22,[.setEnt .internalNl,.cb,.code],none,false⟩⟩,⟨256,.ws,false,some ⟨23,[.setEnt .internalNl,.cb],none,false⟩⟩,⟨256,.lf,false,some ⟨24,[.setEnt .internalNl,.cb],none,false⟩⟩,⟨256,.vt,false,some ⟨22,[.setEnt .internalNl,.cb,.code],none,false⟩⟩,⟨256,.ff,false,some ⟨25,[.setEnt .internalNl,.cb],none,false⟩⟩,⟨256,.cr,false,some ⟨26,[.setEnt .internalNl,.cb],none,false⟩⟩,⟨256,.cr,true,some ⟨27,[.setEnt .internalNl,.cb],none,false⟩⟩,⟨256,.other,false,some ⟨28,[.setEnt .internalNl,.cb,.emb (.goto 6)],some 0,false⟩⟩,⟨256,.other,false,some ⟨29,[.setEnt .internalNl,.cb],none,false⟩⟩,⟨256,.other,false,some ⟨30,[.setEnt .internalNl,.cb],none,false⟩⟩]⟩,⟨[5,12],none,[],[⟨256,.other,false,some ⟨22,[.setEnt .internalNl,.cb,.code],none,false⟩⟩,⟨256,.ws,false,some ⟨23,[.setEnt .internalNl,.cb],none,false⟩⟩,⟨256,.lf,false,some ⟨24,[.setEnt .internalNl,.cb],none,false⟩⟩,⟨256,.vt,false,some ⟨22,[.setEnt .internalNl,.cb,.code],none,false⟩⟩,⟨256,.ff,false,some ⟨25,[.setEnt .internalNl,.cb],none,false⟩⟩,⟨256,.cr,false,some ⟨26,[.setEnt .internalNl,.cb],none,false⟩⟩,⟨256,.cr,true,some ⟨27,[.setEnt .internalNl,.cb],none,false⟩⟩,⟨256,.other,false,some ⟨28,[.setEnt .internalNl,.cb,.emb (.goto 6)],some 0,false⟩⟩,⟨256,.other,false,some ⟨29,[.setEnt .internalNl,.cb],none,false⟩⟩,⟨256,.other,false,some ⟨30,[.setEnt .internalNl,.cb],none,false⟩⟩]⟩,⟨[2,12],none,[],[⟨256,.other,false,some ⟨22,[.code],none,false⟩⟩,⟨256,.ws,false,some ⟨23,[],none,false⟩⟩,⟨256,.lf,false,some ⟨31,[],none,false⟩⟩,⟨256,.vt,false,some ⟨22,[.code],none,false⟩⟩,⟨256,.ff,false,some ⟨25,[],none,false⟩⟩,⟨256,.cr,false,some ⟨26,[],none,false⟩⟩,⟨256,.cr,true,some ⟨27,[],none,false⟩⟩,⟨256,.other,false,some ⟨28,[.emb (.goto 6)],some 0,false⟩⟩,⟨256,.other,false,some ⟨29,[],none,false⟩⟩,⟨256,.other,false,some ⟨30,[],none,false⟩⟩]⟩,⟨[2,6,12],none,[],[⟨256,.other,false,some ⟨22,[.setEnt .internalNl,.cb,.code],none,false⟩⟩,⟨256,.ws,false,some ⟨23,[.setEnt .internalNl,.cb],none,false⟩⟩,⟨256,.lf,false,some ⟨31,[.setEnt .internalNl,.cb],none,false⟩⟩,⟨256,.vt,false,some ⟨22,[.setEnt .internalNl,.cb,.code],none,false⟩⟩,⟨256,.ff,false,some ⟨25,[.setEnt .internalNl,.cb],none,false⟩⟩,⟨256,.cr,false,some ⟨26,[.setEnt .internalNl,.cb],none,false⟩⟩,⟨256,.cr,true,some ⟨27,[.setEnt .internalNl,.cb],none,false⟩⟩,⟨256,.other,false,some ⟨28,[.setEnt .internalNl,.cb,.emb (.goto 6)],some 0,false⟩⟩,⟨256,.other,false,some ⟨29,[.setEnt .internalNl,.cb],none,false⟩⟩,⟨256,.other,false,some ⟨30,[.setEnt .internalNl,.cb],none,false⟩⟩]⟩,⟨[12,16],some 0,[],[⟨256,.other,false,some ⟨22,[.code],none,false⟩⟩,⟨256,.ws,false,some ⟨23,[],none,false⟩⟩,⟨256,.lf,false,some ⟨24,[],none,false⟩⟩,⟨256,.vt,false,some ⟨22,[.code],none,false⟩⟩,⟨256,.ff,false,some ⟨25,[],none,false⟩⟩,⟨256,.cr,false,some ⟨26,[],none,false⟩⟩,⟨256,.cr,true,some ⟨27,[],none,false⟩⟩,⟨256,.other,false,some ⟨28,[.emb (.goto 6)],some 0,false⟩⟩,⟨256,.other,false,some ⟨29,[],none,false⟩⟩,⟨256,.other,false,some ⟨30,[],none,false⟩⟩]⟩,⟨[1,8,13],none,[],[⟨256,.other,false,some ⟨32,[.code],none,false⟩⟩,⟨256,.ws,false,some ⟨33,[],none,false⟩⟩,⟨256,.lf,false,some ⟨34,[],none,false⟩⟩,⟨256,.vt,false,some ⟨32,[.code],none,false⟩⟩,⟨256,.ff,false,some ⟨35,[],none,false⟩⟩,⟨256,.cr,false,some ⟨36,[],none,false⟩⟩,⟨256,.cr,true,some ⟨37,[],none,false⟩⟩,⟨256,.other,false,some ⟨38,[.emb (.goto 6)],some 0,false⟩⟩,⟨256,.other,false,some ⟨39,[],none,false⟩⟩,⟨256,.other,false,some ⟨40,[],none,false⟩⟩]⟩,⟨[0,11,12],none,[],[⟨256,.other,false,some ⟨41,[.code],none,false⟩⟩,⟨256,.ws,false,some ⟨42,[],none,false⟩⟩,⟨256,.lf,false,some ⟨43,[],none,false⟩⟩,⟨256,.vt,false,some ⟨41,[.code],none,false⟩⟩,⟨256,.ff,false,some ⟨44,[],none,false⟩⟩,⟨256,.cr,false,some ⟨45,[],none,false⟩⟩,⟨256,.cr,true,some ⟨46,[],none,false⟩⟩,⟨256,.other,false,some ⟨47,[.emb (.goto 6)],some 0,false⟩⟩,⟨256,.other,false,some ⟨48,[.emb (.sawCall 3 5),.code],none,false⟩⟩,⟨256,.other,false,some ⟨49,[],none,false⟩⟩,⟨256,.other,false,some ⟨50,[],none,false⟩⟩]⟩,⟨[9,12],none,[],[⟨256,.other,false,some ⟨51,[.code],none,false⟩⟩,⟨256,.ws,false,some ⟨52,[.code],none,false⟩⟩,⟨256,.lf,false,some ⟨24,[],none,false⟩⟩,⟨256,.vt,false,some ⟨51,[.code],none,false⟩⟩,⟨256,.ff,false,some ⟨25,[],none,false⟩⟩,⟨256,.cr,false,some ⟨26,[],none,false⟩⟩,⟨256,.cr,true,some ⟨27,[],none,false⟩⟩,⟨256,.other,false,some ⟨53,[.code,.emb (.goto 6)],some 0,false⟩⟩,⟨256,.other,false,some ⟨54,[.code],none,false⟩⟩,⟨256,.other,false,some ⟨55,[.code],none,false⟩⟩]⟩,⟨[10],none,[],[⟨256,.other,false,some ⟨1,[.code],none,false⟩⟩,⟨256,.ws,false,some ⟨2,[],none,false⟩⟩,⟨256,.lf,false,some ⟨3,[],none,false⟩⟩,⟨256,.vt,false,some ⟨1,[.code],none,false⟩⟩,⟨256,.ff,false,some ⟨4,[],none,false⟩⟩,⟨256,.cr,false,some ⟨5,[],none,false⟩⟩,⟨256,.cr,true,some ⟨6,[],none,false⟩⟩,⟨256,.other,false,some ⟨0,[.emb (.goto 6)],some 0,true⟩⟩,⟨256,.other,false,some ⟨7,[],none,false⟩⟩,⟨256,.other,false,some ⟨8,[],none,false⟩⟩]⟩,⟨[8,15],none,[],[⟨256,.other,false,some ⟨22,[.code],none,false⟩⟩,⟨256,.ws,false,some ⟨23,[],none,false⟩⟩,⟨256,.lf,false,some ⟨24,[],none,false⟩⟩,⟨256,.vt,false,some ⟨22,[.code],none,false⟩⟩,⟨256,.ff,false,some ⟨25,[],none,false⟩⟩,⟨256,.cr,false,some ⟨26,[],none,false⟩⟩,⟨256,.cr,true,some ⟨27,[],none,false⟩⟩,⟨256,.other,false,some ⟨28,[.emb (.goto 6)],some 0,false⟩⟩,⟨256,.other,false,some ⟨29,[],none,false⟩⟩,⟨256,.other,false,some ⟨30,[],none,false⟩⟩]⟩,⟨[7,15],none,[],[⟨256,.other,false,some ⟨22,[.code],none,false⟩⟩,⟨256,.ws,false,some ⟨23,[],none,false⟩⟩,⟨256,.lf,false,some ⟨24,[],none,false⟩⟩,⟨256,.vt,false,some ⟨22,[.code],none,false⟩⟩,⟨256,.ff,false,some ⟨25,[],none,false⟩⟩,⟨256,.cr,false,some ⟨26,[],none,false⟩⟩,⟨256,.cr,true,some ⟨27,[],none,false⟩⟩,⟨256,.other,false,some ⟨28,[.emb (.goto 6)],some 0,false⟩⟩,⟨256,.other,false,some ⟨29,[],none,false⟩⟩,⟨256,.other,false,some ⟨30,[],none,false⟩⟩]⟩,⟨[4,15],none,[],[⟨256,.other,false,some ⟨22,[.setEnt .internalNl,.cb,.code],none,false⟩⟩,⟨256,.ws,false,some ⟨23,[.setEnt .internalNl,.cb],none,false⟩⟩,⟨256,.lf,false,some ⟨24,[.setEnt .internalNl,.cb],none,false⟩⟩,⟨256,.vt,false,some ⟨22,[.setEnt .internalNl,.cb,.code],none,false⟩⟩,⟨256,.ff,false,some ⟨25,[.setEnt .internalNl,.cb],none,false⟩⟩,⟨256,.cr,false,some ⟨26,[.setEnt .internalNl,.cb],none,false⟩⟩,⟨256,.cr,true,some ⟨27,[.setEnt .internalNl,.cb],none,false⟩⟩,⟨256,.other,false,some ⟨28,[.setEnt .internalNl,.cb,.emb (.goto 6)],some 0,false⟩⟩,⟨256,.other,false,some ⟨29,[.setEnt .internalNl,.cb],none,false⟩⟩,⟨256,.other,false,some ⟨30,[.setEnt .internalNl,.cb],none,false⟩⟩]⟩,⟨[5,15],none,[],[⟨256,.other,false,some ⟨22,[.setEnt .internalNl,.cb,.code],none,false⟩⟩,⟨256,.ws,false,some ⟨23,[.setEnt .internalNl,.cb],none,false⟩⟩,⟨256,.lf,false,some ⟨24,[.setEnt .internalNl,.cb],none,false⟩⟩,⟨256,.vt,false,some ⟨22,[.setEnt .internalNl,.cb,.code],none,false⟩⟩,⟨256,.ff,false,some ⟨25,[.setEnt .internalNl,.cb],none,false⟩⟩,⟨256,.cr,false,some ⟨26,[.setEnt .internalNl,.cb],none,false⟩⟩,⟨256,.cr,true,some ⟨27,[.setEnt .internalNl,.cb],none,false⟩⟩,⟨256,.other,false,some ⟨28,[.setEnt .internalNl,.cb,.emb (.goto 6)],some 0,false⟩⟩,⟨256,.other,false,some ⟨29,[.setEnt .internalNl,.cb],none,false⟩⟩,⟨256,.other,false,some ⟨30,[.setEnt .internalNl,.cb],none,false⟩⟩]⟩,⟨[2,15],none,[],[⟨256,.other,false,some ⟨22,[.code],none,false⟩⟩,⟨256,.ws,false,some ⟨23,[],none,false⟩⟩,⟨256,.lf,false,some ⟨31,[],none,false⟩⟩,⟨256,.vt,false,some ⟨22,[.code],none,false⟩⟩,⟨256,.ff,false,some ⟨25,[],none,false⟩⟩,⟨256,.cr,false,some ⟨26,[],none,false⟩⟩,⟨256,.cr,true,some ⟨27,[],none,false⟩⟩,⟨256,.other,false,some ⟨28,[.emb (.goto 6)],some 0,false⟩⟩,⟨256,.other,false,some ⟨29,[],none,false⟩⟩,⟨256,.other,false,some ⟨30,[],none,false⟩⟩]⟩,⟨[2,6,15],none,[],[⟨256,.other,false,some ⟨22,[.setEnt .internalNl,.cb,.code],none,false⟩⟩,⟨256,.ws,false,some ⟨23,[.setEnt .internalNl,.cb],none,false⟩⟩,⟨256,.lf,false,some ⟨31,[.setEnt .internalNl,.cb],none,false⟩⟩,⟨256,.vt,false,some ⟨22,[.setEnt .internalNl,.cb,.code],none,false⟩⟩,⟨256,.ff,false,some ⟨25,[.setEnt .internalNl,.cb],none,false⟩⟩,⟨256,.cr,false,some ⟨26,[.setEnt .internalNl,.cb],none,false⟩⟩,⟨256,.cr,true,some ⟨27,[.setEnt .internalNl,.cb],none,false⟩⟩,⟨256,.other,false,some ⟨28,[.setEnt .internalNl,.cb,.emb (.goto 6)],some 0,false⟩⟩,⟨256,.other,false,some ⟨29,[.setEnt .internalNl,.cb],none,false⟩⟩,⟨256,.other,false,some ⟨30,[.setEnt .internalNl,.cb],none,false⟩⟩]⟩,⟨[15,16],some 0,[],[⟨256,.other,false,some ⟨22,[.code],none,false⟩⟩,⟨256,.ws,false,some ⟨23,[],none,false⟩⟩,⟨256,.lf,false,some ⟨24,[],none,false⟩⟩,⟨256,.vt,false,some ⟨22,[.code],none,false⟩⟩,⟨256,.ff,false,some ⟨25,[],none,false⟩⟩,⟨256,.cr,false,some ⟨26,[],none,false⟩⟩,⟨256,.cr,true,some ⟨27,[],none,false⟩⟩,⟨256,.other,false,some ⟨28,[.emb (.goto 6)],some 0,false⟩⟩,⟨256,.other,false,some ⟨29,[],none,false⟩⟩,⟨256,.other,false,some ⟨30,[],none,false⟩⟩]⟩,⟨[0,11,15],none,[],[⟨256,.other,false,some ⟨41,[.code],none,false⟩⟩,⟨256,.ws,false,some ⟨42,[],none,false⟩⟩,⟨256,.lf,false,some ⟨43,[],none,false⟩⟩,⟨256,.vt,false,some ⟨41,[.code],none,false⟩⟩,⟨256,.ff,false,some ⟨44,[],none,false⟩⟩,⟨256,.cr,false,some ⟨45,[],none,false⟩⟩,⟨256,.cr,true,some ⟨46,[],none,false⟩⟩,⟨256,.other,false,some ⟨47,[.emb (.goto 6)],some 0,false⟩⟩,⟨256,.other,false,some ⟨48,[.emb (.sawCall 3 5),.code],none,false⟩⟩,⟨256,.other,false,some ⟨49,[],none,false⟩⟩,⟨256,.other,false,some ⟨50,[],none,false⟩⟩]⟩,⟨[9,15],none,[],[⟨256,.other,false,some ⟨51,[.code],none,false⟩⟩,⟨256,.ws,false,some ⟨52,[.code],none,false⟩⟩,⟨256,.lf,false,some ⟨24,[],none,false⟩⟩,⟨256,.vt,false,some ⟨51,[.code],none,false⟩⟩,⟨256,.ff,false,some ⟨25,[],none,false⟩⟩,⟨256,.cr,false,some ⟨26,[],none,false⟩⟩,⟨256,.cr,true,some ⟨27,[],none,false⟩⟩,⟨256,.other,false,some ⟨53,[.code,.emb (.goto 6)],some 0,false⟩⟩,⟨256,.other,false,some ⟨54,[.code],none,false⟩⟩,⟨256,.other,false,some ⟨55,[.code],none,false⟩⟩]⟩,⟨[3,4,15],none,[],[⟨256,.other,false,some ⟨22,[.setEnt .internalNl,.cb,.code],none,false⟩⟩,⟨256,.ws,false,some ⟨23,[.setEnt .internalNl,.cb],none,false⟩⟩,⟨256,.lf,false,some ⟨24,[.setEnt .internalNl,.cb],none,false⟩⟩,⟨256,.vt,false,some ⟨22,[.setEnt .internalNl,.cb,.code],none,false⟩⟩,⟨256,.ff,false,some ⟨25,[.setEnt .internalNl,.cb],none,false⟩⟩,⟨256,.cr,false,some ⟨26,[.setEnt .internalNl,.cb],none,false⟩⟩,⟨256,.cr,true,some ⟨27,[.setEnt .internalNl,.cb],none,false⟩⟩,⟨256,.other,false,some ⟨28,[.setEnt .internalNl,.cb,.emb (.goto 6)],some 0,false⟩⟩,⟨256,.other,false,some ⟨29,[.setEnt .internalNl,.cb],none,false⟩⟩,⟨256,.other,false,some ⟨30,[.setEnt .internalNl,.cb],none,false⟩⟩]⟩,⟨[8,14],none,[],[⟨256,.other,false,some ⟨22,[.code],none,false⟩⟩,⟨256,.ws,false,some ⟨23,[],none,false⟩⟩,⟨256,.lf,false,some ⟨24,[],none,false⟩⟩,⟨256,.vt,false,some ⟨22,[.code],none,false⟩⟩,⟨256,.ff,false,some ⟨25,[],none,false⟩⟩,⟨256,.cr,false,some ⟨26,[],none,false⟩⟩,⟨256,.cr,true,some ⟨27,[],none,false⟩⟩,⟨256,.other,false,some ⟨28,[.emb (.goto 6)],some 0,false⟩⟩,⟨256,.other,false,some ⟨29,[],none,false⟩⟩,⟨256,.other,false,some ⟨30,[],none,false⟩⟩]⟩,⟨[7,14],none,[],[⟨256,.other,false,some ⟨22,[.code],none,false⟩⟩,⟨256,.ws,false,some ⟨23,[],none,false⟩⟩,⟨256,.lf,false,some ⟨24,[],none,false⟩⟩,⟨256,.vt,false,some ⟨22,[.code],none,false⟩⟩,⟨256,.ff,false,some ⟨25,[],none,false⟩⟩,⟨256,.cr,false,some ⟨26,[],none,false⟩⟩,⟨256,.cr,true,some ⟨27,[],none,false⟩⟩,⟨256,.other,false,some ⟨28,[.emb (.goto 6)],some 0,false⟩⟩,⟨256,.other,false,some ⟨29,[],none,false⟩⟩,⟨256,.other,false,some ⟨30,[],none,false⟩⟩]⟩,⟨[4,14],none,[],[⟨256,.other,false,some ⟨22,[.setEnt .internalNl,.cb,.code],none,false⟩⟩,⟨256,.ws,false,some ⟨23,[.setEnt .internalNl,.cb],none,false⟩⟩,⟨256,.lf,false,some ⟨24,[.setEnt .internalNl,.cb],none,false⟩⟩,⟨256,.vt,false,some ⟨22,[.setEnt .internalNl,.cb,.code],none,false⟩⟩,⟨256,.ff,false,some ⟨25,[.setEnt .internalNl,.cb],none,false⟩⟩,⟨256,.cr,false,some ⟨26,[.setEnt .internalNl,.cb],none,false⟩⟩,⟨256,.cr,true,some ⟨27,[.setEnt .internalNl,.cb],none,false⟩⟩,⟨256,.other,false,some ⟨28,[.setEnt .internalNl,.cb,.emb (.goto 6)],some 0,false⟩⟩,⟨256,.other,false,some ⟨29,[.setEnt .internalNl,.cb],none,false⟩⟩,⟨256,.other,false,some ⟨30,[.setEnt .internalNl,.cb],none,false⟩⟩]⟩,⟨[5,14],none,[],[⟨256,.other,false,some ⟨22,[.setEnt .internalNl,.cb,.code],none,false⟩⟩,⟨256,.ws,false,some ⟨23,[.setEnt .internalNl,.cb],none,false⟩⟩,⟨256,.lf,false,some ⟨24,[.setEnt .internalNl,.cb],none,false⟩⟩,⟨256,.vt,false,some ⟨22,[.setEnt .internalNl,.cb,.code],none,false⟩⟩,⟨256,.ff,false,some ⟨25,[.setEnt .internalNl,.cb],none,false⟩⟩,⟨256,.cr,false,some ⟨26,[.setEnt .internalNl,.cb],none,false⟩⟩,⟨256,.cr,true,some ⟨27,[.setEnt .internalNl,.cb],none,false⟩⟩,⟨256,.other,false,some ⟨28,[.setEnt .internalNl,.cb,.emb (.goto 6)],some 0,false⟩⟩,⟨256,.other,false,some ⟨29,[.setEnt .internalNl,.cb],none,false⟩⟩,⟨256,.other,false,some ⟨30,[.setEnt .internalNl,.cb],none,false⟩⟩]⟩,⟨[2,14],none,[],[⟨256,.other,false,some ⟨22,[.code],none,false⟩⟩,⟨256,.ws,false,some ⟨23,[],none,false⟩⟩,⟨256,.lf,false,some ⟨31,[],none,false⟩⟩,⟨256,.vt,false,some ⟨22,[.code],none,false⟩⟩,⟨256,.ff,false,some ⟨25,[],none,false⟩⟩,⟨256,.cr,false,some ⟨26,[],none,false⟩⟩,⟨256,.cr,true,some ⟨27,[],none,false⟩⟩,⟨256,.other,false,some ⟨28,[.emb (.goto 6)],some 0,false⟩⟩,⟨256,.other,false,some ⟨29,[],none,false⟩⟩,⟨256,.other,false,some ⟨30,[],none,false⟩⟩]⟩,⟨[2,6,14],none,[],[⟨256,.other,false,some ⟨22,[.setEnt .internalNl,.cb,.code],none,false⟩⟩,⟨256,.ws,false,some ⟨23,[.setEnt .internalNl,.cb],none,false⟩⟩,⟨256,.lf,false,some ⟨31,[.setEnt .internalNl,.cb],none,false⟩⟩,⟨256,.vt,false,some ⟨22,[.setEnt .internalNl,.cb,.code],none,false⟩⟩,⟨256,.ff,false,some ⟨25,[.setEnt .internalNl,.cb],none,false⟩⟩,⟨256,.cr,false,some ⟨26,[.setEnt .internalNl,.cb],none,false⟩⟩,⟨256,.cr,true,some ⟨27,[.setEnt .internalNl,.cb],none,false⟩⟩,⟨256,.other,false,some ⟨28,[.setEnt .internalNl,.cb,.emb (.goto 6)],some 0,false⟩⟩,⟨256,.other,false,some ⟨29,[.setEnt .internalNl,.cb],none,false⟩⟩,⟨256,.other,false,some ⟨30,[.setEnt .internalNl,.cb],none,false⟩⟩]⟩,⟨[14,16],some 0,[],[⟨256,.other,false,some ⟨22,[.code],none,false⟩⟩,⟨256,.ws,false,some ⟨23,[],none,false⟩⟩,⟨256,.lf,false,some ⟨24,[],none,false⟩⟩,⟨256,.vt,false,some ⟨22,[.code],none,false⟩⟩,⟨256,.ff,false,some ⟨25,[],none,false⟩⟩,⟨256,.cr,false,some ⟨26,[],none,false⟩⟩,⟨256,.cr,true,some ⟨27,[],none,false⟩⟩,⟨256,.other,false,some ⟨28,[.emb (.goto 6)],some 0,false⟩⟩,⟨256,.other,false,some ⟨29,[],none,false⟩⟩,⟨256,.other,false,some ⟨30,[],none,false⟩⟩]⟩,⟨[0,11,14],none,[],[⟨256,.other,false,some ⟨41,[.code],none,false⟩⟩,⟨256,.ws,false,some ⟨42,[],none,false⟩⟩,⟨256,.lf,false,some ⟨43,[],none,false⟩⟩,⟨256,.vt,false,some ⟨41,[.code],none,false⟩⟩,⟨256,.ff,false,some ⟨44,[],none,false⟩⟩,⟨256,.cr,false,some ⟨45,[],none,false⟩⟩,⟨256,.cr,true,some ⟨46,[],none,false⟩⟩,⟨256,.other,false,some ⟨47,[.emb (.goto 6)],some 0,false⟩⟩,⟨256,.other,false,some ⟨48,[.emb (.sawCall 3 5),.code],none,false⟩⟩,⟨256,.other,false,some ⟨49,[],none,false⟩⟩,⟨256,.other,false,some ⟨50,[],none,false⟩⟩]⟩,⟨[9,14],none,[],[⟨256,.other,false,some ⟨51,[.code],none,false⟩⟩,⟨256,.ws,false,some ⟨52,[.code],none,false⟩⟩,⟨256,.lf,false,some ⟨24,[],none,false⟩⟩,⟨256,.vt,false,some ⟨51,[.code],none,false⟩⟩,⟨256,.ff,false,some ⟨25,[],none,false⟩⟩,⟨256,.cr,false,some ⟨26,[],none,false⟩⟩,⟨256,.cr,true,some ⟨27,[],none,false⟩⟩,⟨256,.other,false,some ⟨53,[.code,.emb (.goto 6)],some 0,false⟩⟩,⟨256,.other,false,some ⟨54,[.code],none,false⟩⟩,⟨256,.other,false,some ⟨55,[.code],none,false⟩⟩]⟩,⟨[8,12,15],none,[],[⟨256,.other,false,some ⟨22,[.code],none,false⟩⟩,⟨256,.ws,false,some ⟨23,[],none,false⟩⟩,⟨256,.lf,false,some ⟨24,[],none,false⟩⟩,⟨256,.vt,false,some ⟨22,[.code],none,false⟩⟩,⟨256,.ff,false,some ⟨25,[],none,false⟩⟩,⟨256,.cr,false,some ⟨26,[],none,false⟩⟩,⟨256,.cr,true,some ⟨27,[],none,false⟩⟩,⟨256,.other,false,some ⟨28,[.emb (.goto 6)],some 0,false⟩⟩,⟨256,.other,false,some ⟨29,[],none,false⟩⟩,⟨256,.other,false,some ⟨30,[],none,false⟩⟩]⟩,⟨[7,12,15],none,[],[⟨256,.other,false,some ⟨22,[.code],none,false⟩⟩,⟨256,.ws,false,some ⟨23,[],none,false⟩⟩,⟨256,.lf,false,some ⟨24,[],none,false⟩⟩,⟨256,.vt,false,some ⟨22,[.code],none,false⟩⟩,⟨256,.ff,false,some ⟨25,[],none,false⟩⟩,⟨256,.cr,false,some ⟨26,[],none,false⟩⟩,⟨256,.cr,true,some ⟨27,[],none,false⟩⟩,⟨256,.other,false,some ⟨28,[.emb (.goto 6)],some 0,false⟩⟩,⟨256,.other,false,some ⟨29,[],none,false⟩⟩,⟨256,.other,false,some ⟨30,[],none,false⟩⟩]⟩,⟨[4,12,15],none,[],[⟨256,.other,false,some ⟨22,[.setEnt .internalNl,.cb,.code],none,false⟩⟩,⟨256,.ws,false,some ⟨23,[.setEnt .internalNl,.cb],none,false⟩⟩,⟨256,.lf,false,some ⟨24,[.setEnt .internalNl,.cb],none,false⟩⟩,⟨256,.vt,false,some ⟨22,[.setEnt .internalNl,.cb,.code],none,false⟩⟩,⟨256,.ff,false,some ⟨25,[.setEnt .internalNl,.cb],none,false⟩⟩,⟨256,.cr,false,some ⟨26,[.setEnt .internalNl,.cb],none,false⟩⟩,⟨256,.cr,true,some ⟨27,[.setEnt .internalNl,.cb],none,false⟩⟩,⟨256,.other,false,some ⟨28,[.setEnt .internalNl,.cb,.emb (.goto 6)],some 0,false⟩⟩,⟨256,.other,false,some ⟨29,[.setEnt .internalNl,.cb],none,false⟩⟩,⟨256,.other,false,some ⟨30,[.setEnt .internalNl,.cb],none,false⟩⟩]⟩,⟨[5,12,15],none,[],[⟨256,.other,false,some ⟨22,[.setEnt .internalNl,.cb,.code],none,false⟩⟩,⟨256,.ws,false,some ⟨23,[.setEnt .internalNl,.cb],none,false⟩⟩,⟨256,.lf,false,some ⟨24,[.setEnt .internalNl,.cb],none,false⟩⟩,⟨256,.vt,false,some ⟨22,[.setEnt .internalNl,.cb,.code],none,false⟩⟩,⟨256,.ff,false,some ⟨25,[.setEnt .internalNl,.cb],none,false⟩⟩,⟨256,.cr,false,some ⟨26,[.setEnt .internalNl,.cb],none,false⟩⟩,⟨256,.cr,true,some ⟨27,[.setEnt .internalNl,.cb],none,false⟩⟩,⟨256,.other,false,some ⟨28,[.setEnt .internalNl,.cb,.emb (.goto 6)],some 0,false⟩⟩,⟨256,.other,false,some ⟨29,[.setEnt .internalNl,.cb],none,false⟩⟩,⟨256,.other,false,some ⟨30,[.setEnt .internalNl,.cb],none,false⟩⟩]⟩,⟨[2,12,15],none,[],[⟨256,.other,false,some ⟨22,[.code],none,false⟩⟩,⟨256,.ws,false,some ⟨23,[],none,false⟩⟩,⟨256,.lf,false,some ⟨31,[],none,false⟩⟩,⟨256,.vt,false,some ⟨22,[.code],none,false⟩⟩,⟨256,.ff,false,some ⟨25,[],none,false⟩⟩,⟨256,.cr,false,some ⟨26,[],none,false⟩⟩,⟨256,.cr,true,some ⟨27,[],none,false⟩⟩,⟨256,.other,false,some ⟨28,[.emb (.goto 6)],some 0,false⟩⟩,⟨256,.other,false,some ⟨29,[],none,false⟩⟩,⟨256,.other,false,some ⟨30,[],none,false⟩⟩]⟩,⟨[2,6,12,15],none,[],[⟨256,.other,false,some ⟨22,[.setEnt .internalNl,.cb,.code],none,false⟩⟩,⟨256,.ws,false,some ⟨23,[.setEnt .internalNl,.cb],none,false⟩⟩,⟨256,.lf,false,some ⟨31,[.setEnt .internalNl,.cb],none,false⟩⟩,⟨256,.vt,false,some ⟨22,[.setEnt .internalNl,.cb,.code],none,false⟩⟩,⟨256,.ff,false,some ⟨25,[.setEnt .internalNl,.cb],none,false⟩⟩,⟨256,.cr,false,some ⟨26,[.setEnt .internalNl,.cb],none,false⟩⟩,⟨256,.cr,true,some ⟨27,[.setEnt .internalNl,.cb],none,false⟩⟩,⟨256,.other,false,some ⟨28,[.setEnt .internalNl,.cb,.emb (.goto 6)],some 0,false⟩⟩,⟨256,.other,false,some ⟨29,[.setEnt .internalNl,.cb],none,false⟩⟩,⟨256,.other,false,some ⟨30,[.setEnt .internalNl,.cb],none,false⟩⟩]⟩,⟨[12,15,16],some 0,[],[⟨256,.other,false,some ⟨22,[.code],none,false⟩⟩,⟨256,.ws,false,some ⟨23,[],none,false⟩⟩,⟨256,.lf,false,some ⟨24,[],none,false⟩⟩,⟨256,.vt,false,some ⟨22,[.code],none,false⟩⟩,⟨256,.ff,false,some ⟨25,[],none,false⟩⟩,⟨256,.cr,false,some ⟨26,[],none,false⟩⟩,⟨256,.cr,true,some ⟨27,[],none,false⟩⟩,⟨256,.other,false,some ⟨28,[.emb (.goto 6)],some 0,false⟩⟩,⟨256,.other,false,some ⟨29,[],none,false⟩⟩,⟨256,.other,false,some ⟨30,[],none,false⟩⟩]⟩,⟨[1,8,13,15],none,[],[⟨256,.other,false,some ⟨56,[.code],none,false⟩⟩,⟨256,.ws,false,some ⟨57,[],none,false⟩⟩,⟨256,.lf,false,some ⟨58,[],none,false⟩⟩,⟨256,.vt,false,some ⟨56,[.code],none,false⟩⟩,⟨256,.ff,false,some ⟨59,[],none,false⟩⟩,⟨256,.cr,false,some ⟨60,[],none,false⟩⟩,⟨256,.cr,true,some ⟨61,[],none,false⟩⟩,⟨256,.other,false,some ⟨62,[.emb (.goto 6)],some 0,false⟩⟩,⟨256,.other,false,some ⟨63,[],none,false⟩⟩,⟨256,.other,false,some ⟨64,[],none,false⟩⟩]⟩,⟨[0,11,12,15],none,[],[⟨256,.other,false,some ⟨41,[.code],none,false⟩⟩,⟨256,.ws,false,some ⟨42,[],none,false⟩⟩,⟨256,.lf,false,some ⟨43,[],none,false⟩⟩,⟨256,.vt,false,some ⟨41,[.code],none,false⟩⟩,⟨256,.ff,false,some ⟨44,[],none,false⟩⟩,⟨256,.cr,false,some ⟨45,[],none,false⟩⟩,⟨256,.cr,true,some ⟨46,[],none,false⟩⟩,⟨256,.other,false,some ⟨47,[.emb (.goto 6)],some 0,false⟩⟩,⟨256,.other,false,some ⟨48,[.emb (.sawCall 3 5),.code],none,false⟩⟩,⟨256,.other,false,some ⟨49,[],none,false⟩⟩,⟨256,.other,false,some ⟨50,[],none,false⟩⟩]⟩,⟨[9,12,15],none,[],[⟨256,.other,false,some ⟨51,[.code],none,false⟩⟩,⟨256,.ws,false,some ⟨52,[.code],none,false⟩⟩,⟨256,.lf,false,some ⟨24,[],none,false⟩⟩,⟨256,.vt,false,some ⟨51,[.code],none,false⟩⟩,⟨256,.ff,false,some ⟨25,[],none,false⟩⟩,⟨256,.cr,false,some ⟨26,[],none,false⟩⟩,⟨256,.cr,true,some ⟨27,[],none,false⟩⟩,⟨256,.other,false,some ⟨53,[.code,.emb (.goto 6)],some 0,false⟩⟩,⟨256,.other,false,some ⟨54,[.code],none,false⟩⟩,⟨256,.other,false,some ⟨55,[.code],none,false⟩⟩]⟩,⟨[8,10,15],none,[],[⟨256,.other,false,some ⟨22,[.code],none,false⟩⟩,⟨256,.ws,false,some ⟨23,[],none,false⟩⟩,⟨256,.lf,false,some ⟨24,[],none,false⟩⟩,⟨256,.vt,false,some ⟨22,[.code],none,false⟩⟩,⟨256,.ff,false,some ⟨25,[],none,false⟩⟩,⟨256,.cr,false,some ⟨26,[],none,false⟩⟩,⟨256,.cr,true,some ⟨27,[],none,false⟩⟩,⟨256,.other,false,some ⟨28,[.emb (.goto 6)],some 0,false⟩⟩,⟨256,.other,false,some ⟨29,[],none,false⟩⟩,⟨256,.other,false,some ⟨30,[],none,false⟩⟩]⟩,⟨[7,10,15],none,[],[⟨256,.other,false,some ⟨22,[.code],none,false⟩⟩,⟨256,.ws,false,some ⟨23,[],none,false⟩⟩,⟨256,.lf,false,some ⟨24,[],none,false⟩⟩,⟨256,.vt,false,some ⟨22,[.code],none,false⟩⟩,⟨256,.ff,false,some ⟨25,[],none,false⟩⟩,⟨256,.cr,false,some ⟨26,[],none,false⟩⟩,⟨256,.cr,true,some ⟨27,[],none,false⟩⟩,⟨256,.other,false,some ⟨28,[.emb (.goto 6)],some 0,false⟩⟩,⟨256,.other,false,some ⟨29,[],none,false⟩⟩,⟨256,.other,false,some ⟨30,[],none,false⟩⟩]⟩,⟨[10,15,16],some 0,[],[⟨256,.other,false,some ⟨22,[.code],none,false⟩⟩,⟨256,.ws,false,some ⟨23,[],none,false⟩⟩,⟨256,.lf,false,some ⟨24,[],none,false⟩⟩,⟨256,.vt,false,some ⟨22,[.code],none,false⟩⟩,⟨256,.ff,false,some ⟨25,[],none,false⟩⟩,⟨256,.cr,false,some ⟨26,[],none,false⟩⟩,⟨256,.cr,true,some ⟨27,[],none,false⟩⟩,⟨256,.other,false,some ⟨28,[.emb (.goto 6)],some 0,false⟩⟩,⟨256,.other,false,some ⟨29,[],none,false⟩⟩,⟨256,.other,false,some ⟨30,[],none,false⟩⟩]⟩,⟨[0,10,11,15],none,[],[⟨256,.other,false,some ⟨41,[.code],none,false⟩⟩,⟨256,.ws,false,some ⟨42,[],none,false⟩⟩,⟨256,.lf,false,some ⟨43,[],none,false⟩⟩,⟨256,.vt,false,some ⟨41,[.code],none,false⟩⟩,⟨256,.ff,false,some ⟨44,[],none,false⟩⟩,⟨256,.cr,false,some ⟨45,[],none,false⟩⟩,⟨256,.cr,true,some ⟨46,[],none,false⟩⟩,⟨256,.other,false,some ⟨47,[.emb (.goto 6)],some 0,false⟩⟩,⟨256,.other,false,some ⟨48,[.emb (.sawCall 3 5),.code],none,false⟩⟩,⟨256,.other,false,some ⟨49,[],none,false⟩⟩,⟨256,.other,false,some ⟨50,[],none,false⟩⟩]⟩,⟨[9,10,15],none,[],[⟨256,.other,false,some ⟨51,[.code],none,false⟩⟩,⟨256,.ws,false,some ⟨52,[.code],none,false⟩⟩,⟨256,.lf,false,some ⟨24,[],none,false⟩⟩,⟨256,.vt,false,some ⟨51,[.code],none,false⟩⟩,⟨256,.ff,false,some ⟨25,[],none,false⟩⟩,⟨256,.cr,false,some ⟨26,[],none,false⟩⟩,⟨256,.cr,true,some ⟨27,[],none,false⟩⟩,⟨256,.other,false,some ⟨53,[.code,.emb (.goto 6)],some 0,false⟩⟩,⟨256,.other,false,some ⟨54,[.code],none,false⟩⟩,⟨256,.other,false,some ⟨55,[.code],none,false⟩⟩]⟩,⟨[8,14,15],none,[],[⟨256,.other,false,some ⟨22,[.code],none,false⟩⟩,⟨256,.ws,false,some ⟨23,[],none,false⟩⟩,⟨256,.lf,false,some ⟨24,[],none,false⟩⟩,⟨256,.vt,false,some ⟨22,[.code],none,false⟩⟩,⟨256,.ff,false,some ⟨25,[],none,false⟩⟩,⟨256,.cr,false,some ⟨26,[],none,false⟩⟩,⟨256,.cr,true,some ⟨27,[],none,false⟩⟩,⟨256,.other,false,some ⟨28,[.emb (.goto 6)],some 0,false⟩⟩,⟨256,.other,false,some ⟨29,[],none,false⟩⟩,⟨256,.other,false,some ⟨30,[],none,false⟩⟩]⟩,⟨[7,14,15],none,[],[⟨256,.other,false,some ⟨22,[.code],none,false⟩⟩,⟨256,.ws,false,some ⟨23,[],none,false⟩⟩,⟨256,.lf,false,some ⟨24,[],none,false⟩⟩,⟨256,.vt,false,some ⟨22,[.code],none,false⟩⟩,⟨256,.ff,false,some ⟨25,[],none,false⟩⟩,⟨256,.cr,false,some ⟨26,[],none,false⟩⟩,⟨256,.cr,true,some ⟨27,[],none,false⟩⟩,⟨256,.other,false,some ⟨28,[.emb (.goto 6)],some 0,false⟩⟩,⟨256,.other,false,some ⟨29,[],none,false⟩⟩,⟨256,.other,false,some ⟨30,[],none,false⟩⟩]⟩,⟨[4,14,15],none,[],[⟨256,.other,false,some ⟨22,[.setEnt .internalNl,.cb,.code],none,false⟩⟩,⟨256,.ws,false,some ⟨23,[.setEnt .internalNl,.cb],none,false⟩⟩,⟨256,.lf,false,some ⟨24,[.setEnt .internalNl,.cb],none,false⟩⟩,⟨256,.vt,false,some ⟨22,[.setEnt .internalNl,.cb,.code],none,false⟩⟩,⟨256,.ff,false,some ⟨25,[.setEnt .internalNl,.cb],none,false⟩⟩,⟨256,.cr,false,some ⟨26,[.setEnt .internalNl,.cb],none,false⟩⟩,⟨256,.cr,true,some ⟨27,[.setEnt .internalNl,.cb],none,false⟩⟩,⟨256,.other,false,some ⟨28,[.setEnt .internalNl,.cb,.emb (.goto 6)],some 0,false⟩⟩,⟨256,.other,false,some ⟨29,[.setEnt .internalNl,.cb],none,false⟩⟩,⟨256,.other,false,some ⟨30,[.setEnt .internalNl,.cb],none,false⟩⟩]⟩,⟨[5,14,15],none,[],[⟨256,.other,false,some ⟨22,[.setEnt .internalNl,.cb,.code],none,false⟩⟩,⟨256,.ws,false,some ⟨23,[.setEnt .internalNl,.cb],none,false⟩⟩,⟨256,.lf,false,some ⟨24,[.setEnt .internalNl,.cb],none,false⟩⟩,⟨256,.vt,false,some ⟨22,[.setEnt .internalNl,.cb,.code],none,false⟩⟩,⟨256,.ff,false,some ⟨25,[.setEnt .internalNl,.cb],none,false⟩⟩,⟨256,.cr,false,some ⟨26,[.setEnt .internalNl,.cb],none,false⟩⟩,⟨256,.cr,true,some ⟨27,[.setEnt .internalNl,.cb],none,false⟩⟩,⟨256,.other,false,some ⟨28,[.setEnt .internalNl,.cb,.emb (.goto 6)],some 0,false⟩⟩,⟨256,.other,false,some ⟨29,[.setEnt .internalNl,.cb],none,false⟩⟩,⟨256,.other,false,some ⟨30,[.setEnt .internalNl,.cb],none,false⟩⟩]⟩,⟨[2,14,15],none,[],[⟨256,.other,false,some ⟨22,[.code],none,false⟩⟩,⟨256,.ws,false,some ⟨23,[],none,false⟩⟩,⟨256,.lf,false,some ⟨31,[],none,false⟩⟩,⟨256,.vt,false,some ⟨22,[.code],none,false⟩⟩,⟨256,.ff,false,some ⟨25,[],none,false⟩⟩,⟨256,.cr,false,some ⟨26,[],none,false⟩⟩,⟨256,.cr,true,some ⟨27,[],none,false⟩⟩,⟨256,.other,false,some ⟨28,[.emb (.goto 6)],some 0,false⟩⟩,⟨256,.other,false,some ⟨29,[],none,false⟩⟩,⟨256,.other,false,some ⟨30,[],none,false⟩⟩]⟩,⟨[2,6,14,15],none,[],[⟨256,.other,false,some ⟨22,[.setEnt .internalNl,.cb,.code],none,false⟩⟩,⟨256,.ws,false,some ⟨23,[.setEnt .internalNl,.cb],none,false⟩⟩,⟨256,.lf,false,some ⟨31,[.setEnt .internalNl,.cb],none,false⟩⟩,⟨256,.vt,false,some ⟨22,[.setEnt .internalNl,.cb,.code],none,false⟩⟩,⟨256,.ff,false,some ⟨25,[.setEnt .internalNl,.cb],none,false⟩⟩,⟨256,.cr,false,some ⟨26,[.setEnt .internalNl,.cb],none,false⟩⟩,⟨256,.cr,true,some ⟨27,[.setEnt .internalNl,.cb],none,false⟩⟩,⟨256,.other,false,some ⟨28,[.setEnt .internalNl,.cb,.emb (.goto 6)],some 0,false⟩⟩,⟨256,.other,false,some ⟨29,[.setEnt .internalNl,.cb],none,false⟩⟩,⟨256,.other,false,some ⟨30,[.setEnt .internalNl,.cb],none,false⟩⟩]⟩,⟨[14,15,16],some 0,[],[⟨256,.other,false,some ⟨22,[.code],none,false⟩⟩,⟨256,.ws,false,some ⟨23,[],none,false⟩⟩,⟨256,.lf,false,some ⟨24,[],none,false⟩⟩,⟨256,.vt,false,some ⟨22,[.code],none,false⟩⟩,⟨256,.ff,false,some ⟨25,[],none,false⟩⟩,⟨256,.cr,false,some ⟨26,[],none,false⟩⟩,⟨256,.cr,true,some ⟨27,[],none,false⟩⟩,⟨256,.other,false,some ⟨28,[.emb (.goto 6)],some 0,false⟩⟩,⟨256,.other,false,some ⟨29,[],none,false⟩⟩,⟨256,.other,false,some ⟨30,[],none,false⟩⟩]⟩,⟨[0,11,14,15],none,[],[⟨256,.other,false,some ⟨41,[.code],none,false⟩⟩,⟨256,.ws,false,some ⟨42,[],none,false⟩⟩,⟨256,.lf,false,some ⟨43,[],none,false⟩⟩,⟨256,.vt,false,some ⟨41,[.code],none,false⟩⟩,⟨256,.ff,false,some ⟨44,[],none,false⟩⟩,⟨256,.cr,false,some ⟨45,[],none,false⟩⟩,⟨256,.cr,true,some ⟨46,[],none,false⟩⟩,⟨256,.other,false,some ⟨47,[.emb (.goto 6)],some 0,false⟩⟩,⟨256,.other,false,some ⟨48,[.emb (.sawCall 3 5),.code],none,false⟩⟩,⟨256,.other,false,some ⟨49,[],none,false⟩⟩,⟨256,.other,false,some ⟨50,[],none,false⟩⟩]⟩,⟨[9,14,15],none,[],[⟨256,.other,false,some ⟨51,[.code],none,false⟩⟩,⟨256,.ws,false,some ⟨52,[.code],none,false⟩⟩,⟨256,.lf,false,some ⟨24,[],none,false⟩⟩,⟨256,.vt,false,some ⟨51,[.code],none,false⟩⟩,⟨256,.ff,false,some ⟨25,[],none,false⟩⟩,⟨256,.cr,false,some ⟨26,[],none,false⟩⟩,⟨256,.cr,true,some ⟨27,[],none,false⟩⟩,⟨256,.other,false,some ⟨53,[.code,.emb (.goto 6)],some 0,false⟩⟩,⟨256,.other,false,some ⟨54,[.code],none,false⟩⟩,⟨256,.other,false,some ⟨55,[.code],none,false⟩⟩]⟩]
theorem emb27_rowsOk : rowsOk emb27_nfa [] (emb27_cs.map (·.1)) emb27_rows = true := by decide +kernel
def emb27_D : Dfa emb27_nfa := ⟨emb27_masks, [], emb27_cs, emb27_rows, emb27_masksIn, emb27_repOk, emb27_rowsOk⟩

/-- The automaton of `Emb.Phphtml.phtml_comment`. -/
def emb32_nfa : Nfa := ⟨[⟨0,1152921504606846976,[],[],0,2⟩,⟨5,8192,[],[],0,2⟩,⟨7,1024,[],[],0,2⟩,⟨8,4096,[],[],0,2⟩,⟨9,8192,[.crAlone],[],0,2⟩,⟨10,4294967808,[],[],0,2⟩,⟨11,115792089237316195423570985008687907853269984665640564039456431051219855720959,[],[(3,.comment)],0,2⟩,⟨12,1152921504606846976,[],[],0,2⟩,⟨26,35184372088832,[],[],0,2⟩],[[⟨1,9223372036854775808,[],[],0,2⟩],[⟨2,5192296858534827628530496329220096,[],[],0,2⟩],[⟨3,20282409603651670423947251286016,[],[],0,2⟩],[⟨4,5192296858534827628530496329220096,[],[(0,.emb (.sawCall 3 5))],0,2⟩],[⟨0,1152921504606846976,[],[],0,2⟩,⟨5,8192,[],[],0,2⟩,⟨7,1024,[],[],0,2⟩,⟨8,4096,[],[],0,2⟩,⟨9,8192,[.crAlone],[],0,2⟩,⟨10,4294967808,[],[],0,2⟩,⟨11,115792089237316195423570985008687907853269984665640564039456431051219855720959,[],[(3,.comment)],0,2⟩,⟨12,1152921504606846976,[],[],0,2⟩,⟨26,35184372088832,[],[],0,2⟩],[⟨6,1024,[],[],0,2⟩],[⟨0,1152921504606846976,[],[(1,.setEnt .internalNl),(2,.cb)],0,2⟩,⟨5,8192,[],[(1,.setEnt .internalNl),(2,.cb)],0,2⟩,⟨7,1024,[],[(1,.setEnt .internalNl),(2,.cb)],0,2⟩,⟨8,4096,[],[(1,.setEnt .internalNl),(2,.cb)],0,2⟩,⟨9,8192,[.crAlone],[(1,.setEnt .internalNl),(2,.cb)],0,2⟩,⟨10,4294967808,[],[(1,.setEnt .internalNl),(2,.cb)],0,2⟩,⟨11,115792089237316195423570985008687907853269984665640564039456431051219855720959,[],[(1,.setEnt .internalNl),(2,.cb),(3,.comment)],0,2⟩,⟨12,1152921504606846976,[],[(1,.setEnt .internalNl),(2,.cb)],0,2⟩,⟨26,35184372088832,[],[(1,.setEnt .internalNl),(2,.cb)],0,2⟩],[⟨0,1152921504606846976,[],[(1,.setEnt .internalNl),(2,.cb)],0,2⟩,⟨5,8192,[],[(1,.setEnt .internalNl),(2,.cb)],0,2⟩,⟨7,1024,[],[(1,.setEnt .internalNl),(2,.cb)],0,2⟩,⟨8,4096,[],[(1,.setEnt .internalNl),(2,.cb)],0,2⟩,⟨9,8192,[.crAlone],[(1,.setEnt .internalNl),(2,.cb)],0,2⟩,⟨10,4294967808,[],[(1,.setEnt .internalNl),(2,.cb)],0,2⟩,⟨11,115792089237316195423570985008687907853269984665640564039456431051219855720959,[],[(1,.setEnt .internalNl),(2,.cb),(3,.comment)],0,2⟩,⟨12,1152921504606846976,[],[(1,.setEnt .internalNl),(2,.cb)],0,2⟩,⟨26,35184372088832,[],[(1,.setEnt .internalNl),(2,.cb)],0,2⟩],[⟨0,1152921504606846976,[],[(1,.setEnt .internalNl),(2,.cb)],0,2⟩,⟨5,8192,[],[(1,.setEnt .internalNl),(2,.cb)],0,2⟩,⟨7,1024,[],[(1,.setEnt .internalNl),(2,.cb)],0,2⟩,⟨8,4096,[],[(1,.setEnt .internalNl),(2,.cb)],0,2⟩,⟨9,8192,[.crAlone],[(1,.setEnt .internalNl),(2,.cb)],0,2⟩,⟨10,4294967808,[],[(1,.setEnt .internalNl),(2,.cb)],0,2⟩,⟨11,115792089237316195423570985008687907853269984665640564039456431051219855720959,[],[(1,.setEnt .internalNl),(2,.cb),(3,.comment)],0,2⟩,⟨12,1152921504606846976,[],[(1,.setEnt .internalNl),(2,.cb)],0,2⟩,⟨26,35184372088832,[],[(1,.setEnt .internalNl),(2,.cb)],0,2⟩],[⟨0,1152921504606846976,[],[(1,.setEnt .internalNl),(2,.cb)],0,2⟩,⟨5,8192,[],[(1,.setEnt .internalNl),(2,.cb)],0,2⟩,⟨7,1024,[],[(1,.setEnt .internalNl),(2,.cb)],0,2⟩,⟨8,4096,[],[(1,.setEnt .internalNl),(2,.cb)],0,2⟩,⟨9,8192,[.crAlone],[(1,.setEnt .internalNl),(2,.cb)],0,2⟩,⟨10,4294967808,[],[(1,.setEnt .internalNl),(2,.cb)],0,2⟩,⟨11,115792089237316195423570985008687907853269984665640564039456431051219855720959,[],[(1,.setEnt .internalNl),(2,.cb),(3,.comment)],0,2⟩,⟨12,1152921504606846976,[],[(1,.setEnt .internalNl),(2,.cb)],0,2⟩,⟨26,35184372088832,[],[(1,.setEnt .internalNl),(2,.cb)],0,2⟩],[⟨0,1152921504606846976,[],[],0,2⟩,⟨5,8192,[],[],0,2⟩,⟨7,1024,[],[],0,2⟩,⟨8,4096,[],[],0,2⟩,⟨9,8192,[.crAlone],[],0,2⟩,⟨10,4294967808,[],[],0,2⟩,⟨11,115792089237316195423570985008687907853269984665640564039456431051219855720959,[],[(3,.comment)],0,2⟩,⟨12,1152921504606846976,[],[],0,2⟩,⟨26,35184372088832,[],[],0,2⟩],[⟨0,1152921504606846976,[],[],0,2⟩,⟨5,8192,[],[],0,2⟩,⟨7,1024,[],[],0,2⟩,⟨8,4096,[],[],0,2⟩,⟨9,8192,[.crAlone],[],0,2⟩,⟨10,4294967808,[],[],0,2⟩,⟨11,115792089237316195423570985008687907853269984665640564039456431051219855720959,[],[(3,.comment)],0,2⟩,⟨12,1152921504606846976,[],[],0,2⟩,⟨26,35184372088832,[],[],0,2⟩],[⟨13,115792089237316195423570985008687907853269984665640564039448360635876274864127,[],[],0,2⟩,⟨14,9223372036854775808,[],[],0,2⟩,⟨23,9223372036854775808,[],[],0,2⟩,⟨0,1152921504606846976,[],[],0,2⟩,⟨5,8192,[],[],0,2⟩,⟨7,1024,[],[],0,2⟩,⟨8,4096,[],[],0,2⟩,⟨9,8192,[.crAlone],[],0,2⟩,⟨10,4294967808,[],[],0,2⟩,⟨11,115792089237316195423570985008687907853269984665640564039456431051219855720959,[],[(3,.comment)],0,2⟩,⟨12,1152921504606846976,[],[],0,2⟩,⟨26,35184372088832,[],[],0,2⟩],[⟨22,115792089237316195423570985008687907853269984665640564039457584007913129639935,[],[],0,2⟩,⟨0,1152921504606846976,[],[],0,2⟩,⟨5,8192,[],[],0,2⟩,⟨7,1024,[],[],0,2⟩,⟨8,4096,[],[],0,2⟩,⟨9,8192,[.crAlone],[],0,2⟩,⟨10,4294967808,[],[],0,2⟩,⟨11,115792089237316195423570985008687907853269984665640564039456431051219855720959,[],[(3,.comment)],0,2⟩,⟨12,1152921504606846976,[],[],0,2⟩,⟨26,35184372088832,[],[],0,2⟩],[⟨15,115792089237316195423570985008687907853269979473343705504629955477416800419839,[],[],0,2⟩,⟨16,5192296858534827628530496329220096,[],[],0,2⟩],[⟨22,115792089237316195423570985008687907853269984665640564039457584007913129639935,[],[],0,2⟩,⟨0,1152921504606846976,[],[],0,2⟩,⟨5,8192,[],[],0,2⟩,⟨7,1024,[],[],0,2⟩,⟨8,4096,[],[],0,2⟩,⟨9,8192,[.crAlone],[],0,2⟩,⟨10,4294967808,[],[],0,2⟩,⟨11,115792089237316195423570985008687907853269984665640564039456431051219855720959,[],[(3,.comment)],0,2⟩,⟨12,1152921504606846976,[],[],0,2⟩,⟨26,35184372088832,[],[],0,2⟩],[⟨17,115792089237316195423570985008687907853269984645358154435805913583965878353919,[],[],0,2⟩,⟨18,20282409603651670423947251286016,[],[],0,2⟩],[⟨22,115792089237316195423570985008687907853269984665640564039457584007913129639935,[],[],0,2⟩,⟨0,1152921504606846976,[],[],0,2⟩,⟨5,8192,[],[],0,2⟩,⟨7,1024,[],[],0,2⟩,⟨8,4096,[],[],0,2⟩,⟨9,8192,[.crAlone],[],0,2⟩,⟨10,4294967808,[],[],0,2⟩,⟨11,115792089237316195423570985008687907853269984665640564039456431051219855720959,[],[(3,.comment)],0,2⟩,⟨12,1152921504606846976,[],[],0,2⟩,⟨26,35184372088832,[],[],0,2⟩],[⟨19,115792089237316195423570985008687907853269979473343705504629955477416800419839,[],[],0,2⟩,⟨20,5192296858534827628530496329220096,[],[],0,2⟩],[⟨22,115792089237316195423570985008687907853269984665640564039457584007913129639935,[],[],0,2⟩,⟨0,1152921504606846976,[],[],0,2⟩,⟨5,8192,[],[],0,2⟩,⟨7,1024,[],[],0,2⟩,⟨8,4096,[],[],0,2⟩,⟨9,8192,[.crAlone],[],0,2⟩,⟨10,4294967808,[],[],0,2⟩,⟨11,115792089237316195423570985008687907853269984665640564039456431051219855720959,[],[(3,.comment)],0,2⟩,⟨12,1152921504606846976,[],[],0,2⟩,⟨26,35184372088832,[],[],0,2⟩],[⟨21,115792089237316195423570985008687907853269984665640564039457584007913129639935,[],[],0,2⟩],[⟨22,115792089237316195423570985008687907853269984665640564039457584007913129639935,[],[],0,2⟩,⟨0,1152921504606846976,[],[],0,2⟩,⟨5,8192,[],[],0,2⟩,⟨7,1024,[],[],0,2⟩,⟨8,4096,[],[],0,2⟩,⟨9,8192,[.crAlone],[],0,2⟩,⟨10,4294967808,[],[],0,2⟩,⟨11,115792089237316195423570985008687907853269984665640564039456431051219855720959,[],[(3,.comment)],0,2⟩,⟨12,1152921504606846976,[],[],0,2⟩,⟨26,35184372088832,[],[],0,2⟩],[⟨22,115792089237316195423570985008687907853269984665640564039457584007913129639935,[],[],0,2⟩,⟨0,1152921504606846976,[],[],0,2⟩,⟨5,8192,[],[],0,2⟩,⟨7,1024,[],[],0,2⟩,⟨8,4096,[],[],0,2⟩,⟨9,8192,[.crAlone],[],0,2⟩,⟨10,4294967808,[],[],0,2⟩,⟨11,115792089237316195423570985008687907853269984665640564039456431051219855720959,[],[(3,.comment)],0,2⟩,⟨12,1152921504606846976,[],[],0,2⟩,⟨26,35184372088832,[],[],0,2⟩],[⟨24,5192296858534827628530496329220096,[],[],0,2⟩,⟨0,1152921504606846976,[],[],0,2⟩,⟨5,8192,[],[],0,2⟩,⟨7,1024,[],[],0,2⟩,⟨8,4096,[],[],0,2⟩,⟨9,8192,[.crAlone],[],0,2⟩,⟨10,4294967808,[],[],0,2⟩,⟨11,115792089237316195423570985008687907853269984665640564039456431051219855720959,[],[(3,.comment)],0,2⟩,⟨12,1152921504606846976,[],[],0,2⟩,⟨26,35184372088832,[],[],0,2⟩],[⟨25,20282409603651670423947251286016,[],[],0,2⟩,⟨0,1152921504606846976,[],[],0,2⟩,⟨5,8192,[],[],0,2⟩,⟨7,1024,[],[],0,2⟩,⟨8,4096,[],[],0,2⟩,⟨9,8192,[.crAlone],[],0,2⟩,⟨10,4294967808,[],[],0,2⟩,⟨11,115792089237316195423570985008687907853269984665640564039456431051219855720959,[],[(3,.comment)],0,2⟩,⟨12,1152921504606846976,[],[],0,2⟩,⟨26,35184372088832,[],[],0,2⟩],[⟨0,1152921504606846976,[],[],0,2⟩,⟨5,8192,[],[],0,2⟩,⟨7,1024,[],[],0,2⟩,⟨8,4096,[],[],0,2⟩,⟨9,8192,[.crAlone],[],0,2⟩,⟨10,4294967808,[],[],0,2⟩,⟨11,115792089237316195423570985008687907853269984665640564039456431051219855720959,[],[(3,.comment)],0,2⟩,⟨12,1152921504606846976,[],[],0,2⟩,⟨26,35184372088832,[],[],0,2⟩],[⟨27,35184372088832,[],[],0,0⟩],[⟨28,4611686018427387904,[],[(4,.comment),(5,.emb (.goto 6))],2,0⟩],[]],[none,none,none,none,none,none,none,none,none,none,none,none,none,none,none,none,none,none,none,none,none,none,none,none,none,none,none,none,some (0,[])],[6]⟩
def emb32_masks : List Nat := [1152921504606846976,8192,1024,4096,4294967808,115792089237316195423570985008687907853269984665640564039456431051219855720959,35184372088832,9223372036854775808,5192296858534827628530496329220096,20282409603651670423947251286016,115792089237316195423570985008687907853269984665640564039448360635876274864127,115792089237316195423570985008687907853269984665640564039457584007913129639935,115792089237316195423570985008687907853269979473343705504629955477416800419839,115792089237316195423570985008687907853269984645358154435805913583965878353919,4611686018427387904]
def emb32_cs : List (Nat × Nat) := [(0,115792089237316195423570985008687907853269979453061295900963297038720993051135),(9,4294967808),(10,1024),(11,2048),(12,4096),(13,8192),(45,35184372088832),(60,1152921504606846976),(62,4611686018427387904),(63,9223372036854775808),(104,20282409603651670423947251286016),(112,5192296858534827628530496329220096)]
theorem emb32_masksIn : masksIn emb32_nfa emb32_masks = true := by decide +kernel
theorem emb32_repOk : repOk emb32_masks emb32_cs = true := by decide +kernel
def emb32_rows : List Row := [⟨[],none,[],[⟨256,.other,false,some ⟨1,[.comment],none,false⟩⟩,⟨256,.ws,false,some ⟨2,[],none,false⟩⟩,⟨256,.lf,false,some ⟨3,[],none,false⟩⟩,⟨256,.vt,false,none⟩,⟨256,.ff,false,some ⟨4,[],none,false⟩⟩,⟨256,.cr,false,some ⟨5,[],none,false⟩⟩,⟨256,.cr,true,some ⟨6,[],none,false⟩⟩,⟨256,.other,false,some ⟨7,[],none,false⟩⟩,⟨256,.other,false,some ⟨8,[],none,false⟩⟩]⟩,⟨[11],none,[],[⟨256,.other,false,some ⟨1,[.comment],none,false⟩⟩,⟨256,.ws,false,some ⟨2,[],none,false⟩⟩,⟨256,.lf,false,some ⟨3,[],none,false⟩⟩,⟨256,.vt,false,none⟩,⟨256,.ff,false,some ⟨4,[],none,false⟩⟩,⟨256,.cr,false,some ⟨5,[],none,false⟩⟩,⟨256,.cr,true,some ⟨6,[],none,false⟩⟩,⟨256,.other,false,some ⟨7,[],none,false⟩⟩,⟨256,.other,false,some ⟨8,[],none,false⟩⟩]⟩,⟨[10],none,[],[⟨256,.other,false,some ⟨1,[.comment],none,false⟩⟩,⟨256,.ws,false,some ⟨2,[],none,false⟩⟩,⟨256,.lf,false,some ⟨3,[],none,false⟩⟩,⟨256,.vt,false,none⟩,⟨256,.ff,false,some ⟨4,[],none,false⟩⟩,⟨256,.cr,false,some ⟨5,[],none,false⟩⟩,⟨256,.cr,true,some ⟨6,[],none,false⟩⟩,⟨256,.other,false,some ⟨7,[],none,false⟩⟩,⟨256,.other,false,some ⟨8,[],none,false⟩⟩]⟩,⟨[7],none,[],[⟨256,.other,false,some ⟨1,[.setEnt .internalNl,.cb,.comment],none,false⟩⟩,⟨256,.ws,false,some ⟨2,[.setEnt .internalNl,.cb],none,false⟩⟩,⟨256,.lf,false,some ⟨3,[.setEnt .internalNl,.cb],none,false⟩⟩,⟨256,.vt,false,none⟩,⟨256,.ff,false,some ⟨4,[.setEnt .internalNl,.cb],none,false⟩⟩,⟨256,.cr,false,some ⟨5,[.setEnt .internalNl,.cb],none,false⟩⟩,⟨256,.cr,true,some ⟨6,[.setEnt .internalNl,.cb],none,false⟩⟩,⟨256,.other,false,some ⟨7,[.setEnt .internalNl,.cb],none,false⟩⟩,⟨256,.other,false,some ⟨8,[.setEnt .internalNl,.cb],none,false⟩⟩]⟩,⟨[8],none,[],[⟨256,.other,false,some ⟨1,[.setEnt .internalNl,.cb,.comment],none,false⟩⟩,⟨256,.ws,false,some ⟨2,[.setEnt .internalNl,.cb],none,false⟩⟩,⟨256,.lf,false,some ⟨3,[.setEnt .internalNl,.cb],none,false⟩⟩,⟨256,.vt,false,none⟩,⟨256,.ff,false,some ⟨4,[.setEnt .internalNl,.cb],none,false⟩⟩,⟨256,.cr,false,some ⟨5,[.setEnt .internalNl,.cb],none,false⟩⟩,⟨256,.cr,true,some ⟨6,[.setEnt .internalNl,.cb],none,false⟩⟩,⟨256,.other,false,some ⟨7,[.setEnt .internalNl,.cb],none,false⟩⟩,⟨256,.other,false,some ⟨8,[.setEnt .internalNl,.cb],none,false⟩⟩]⟩,⟨[5],none,[],[⟨256,.other,false,none⟩,⟨256,.ws,false,none⟩,⟨256,.lf,false,some ⟨9,[],none,false⟩⟩,⟨256,.vt,false,none⟩,⟨256,.ff,false,none⟩,⟨256,.cr,false,none⟩,⟨256,.cr,true,none⟩]⟩,⟨[5,9],none,[],[⟨256,.other,false,some ⟨1,[.setEnt .internalNl,.cb,.comment],none,false⟩⟩,⟨256,.ws,false,some ⟨2,[.setEnt .internalNl,.cb],none,false⟩⟩,⟨256,.lf,false,some ⟨10,[.setEnt .internalNl,.cb],none,false⟩⟩,⟨256,.vt,false,none⟩,⟨256,.ff,false,some ⟨4,[.setEnt .internalNl,.cb],none,false⟩⟩,⟨256,.cr,false,some ⟨5,[.setEnt .internalNl,.cb],none,false⟩⟩,⟨256,.cr,true,some ⟨6,[.setEnt .internalNl,.cb],none,false⟩⟩,⟨256,.other,false,some ⟨7,[.setEnt .internalNl,.cb],none,false⟩⟩,⟨256,.other,false,some ⟨8,[.setEnt .internalNl,.cb],none,false⟩⟩]⟩,⟨[26],none,[],[⟨256,.other,false,none⟩,⟨256,.ws,false,none⟩,⟨256,.lf,false,none⟩,⟨256,.vt,false,none⟩,⟨256,.ff,false,none⟩,⟨256,.cr,false,none⟩,⟨256,.cr,true,none⟩,⟨256,.other,false,some ⟨11,[],none,false⟩⟩]⟩,⟨[0,12],none,[],[⟨256,.other,false,some ⟨12,[.comment],none,false⟩⟩,⟨256,.ws,false,some ⟨13,[],none,false⟩⟩,⟨256,.lf,false,some ⟨14,[],none,false⟩⟩,⟨256,.vt,false,some ⟨15,[],none,false⟩⟩,⟨256,.ff,false,some ⟨16,[],none,false⟩⟩,⟨256,.cr,false,some ⟨17,[],none,false⟩⟩,⟨256,.cr,true,some ⟨18,[],none,false⟩⟩,⟨256,.other,false,some ⟨19,[],none,false⟩⟩,⟨256,.other,false,some ⟨20,[],none,false⟩⟩,⟨256,.other,false,some ⟨21,[.comment],none,false⟩⟩]⟩,⟨[6],none,[],[⟨256,.other,false,some ⟨1,[.setEnt .internalNl,.cb,.comment],none,false⟩⟩,⟨256,.ws,false,some ⟨2,[.setEnt .internalNl,.cb],none,false⟩⟩,⟨256,.lf,false,some ⟨3,[.setEnt .internalNl,.cb],none,false⟩⟩,⟨256,.vt,false,none⟩,⟨256,.ff,false,some ⟨4,[.setEnt .internalNl,.cb],none,false⟩⟩,⟨256,.cr,false,some ⟨5,[.setEnt .internalNl,.cb],none,false⟩⟩,⟨256,.cr,true,some ⟨6,[.setEnt .internalNl,.cb],none,false⟩⟩,⟨256,.other,false,some ⟨7,[.setEnt .internalNl,.cb],none,false⟩⟩,⟨256,.other,false,some ⟨8,[.setEnt .internalNl,.cb],none,false⟩⟩]⟩,⟨[6,7],none,[],[⟨256,.other,false,some ⟨1,[.setEnt .internalNl,.cb,.comment],none,false⟩⟩,⟨256,.ws,false,some ⟨2,[.setEnt .internalNl,.cb],none,false⟩⟩,⟨256,.lf,false,some ⟨3,[.setEnt .internalNl,.cb],none,false⟩⟩,⟨256,.vt,false,none⟩,⟨256,.ff,false,some ⟨4,[.setEnt .internalNl,.cb],none,false⟩⟩,⟨256,.cr,false,some ⟨5,[.setEnt .internalNl,.cb],none,false⟩⟩,⟨256,.cr,true,some ⟨6,[.setEnt .internalNl,.cb],none,false⟩⟩,⟨256,.other,false,some ⟨7,[.setEnt .internalNl,.cb],none,false⟩⟩,⟨256,.other,false,some ⟨8,[.setEnt .internalNl,.cb],none,false⟩⟩]⟩,⟨[27],none,[],[⟨256,.other,false,none⟩,⟨256,.ws,false,none⟩,⟨256,.lf,false,none⟩,⟨256,.vt,false,none⟩,⟨256,.ff,false,none⟩,⟨256,.cr,false,none⟩,⟨256,.cr,true,none⟩,⟨256,.other,false,some ⟨0,[.comment,.emb (.goto 6)],some 0,true⟩⟩]⟩,⟨[11,13],none,[],[⟨256,.other,false,some ⟨22,[.comment],none,false⟩⟩,⟨256,.ws,false,some ⟨23,[],none,false⟩⟩,⟨256,.lf,false,some ⟨24,[],none,false⟩⟩,⟨256,.vt,false,some ⟨25,[],none,false⟩⟩,⟨256,.ff,false,some ⟨26,[],none,false⟩⟩,⟨256,.cr,false,some ⟨27,[],none,false⟩⟩,⟨256,.cr,true,some ⟨28,[],none,false⟩⟩,⟨256,.other,false,some ⟨29,[],none,false⟩⟩,⟨256,.other,false,some ⟨30,[],none,false⟩⟩]⟩,⟨[10,13],none,[],[⟨256,.other,false,some ⟨22,[.comment],none,false⟩⟩,⟨256,.ws,false,some ⟨23,[],none,false⟩⟩,⟨256,.lf,false,some ⟨24,[],none,false⟩⟩,⟨256,.vt,false,some ⟨25,[],none,false⟩⟩,⟨256,.ff,false,some ⟨26,[],none,false⟩⟩,⟨256,.cr,false,some ⟨27,[],none,false⟩⟩,⟨256,.cr,true,some ⟨28,[],none,false⟩⟩,⟨256,.other,false,some ⟨29,[],none,false⟩⟩,⟨256,.other,false,some ⟨30,[],none,false⟩⟩]⟩,⟨[7,13],none,[],[⟨256,.other,false,some ⟨22,[.setEnt .internalNl,.cb,.comment],none,false⟩⟩,⟨256,.ws,false,some ⟨23,[.setEnt .internalNl,.cb],none,false⟩⟩,⟨256,.lf,false,some ⟨24,[.setEnt .internalNl,.cb],none,false⟩⟩,⟨256,.vt,false,some ⟨25,[],none,false⟩⟩,⟨256,.ff,false,some ⟨26,[.setEnt .internalNl,.cb],none,false⟩⟩,⟨256,.cr,false,some ⟨27,[.setEnt .internalNl,.cb],none,false⟩⟩,⟨256,.cr,true,some ⟨28,[.setEnt .internalNl,.cb],none,false⟩⟩,⟨256,.other,false,some ⟨29,[.setEnt .internalNl,.cb],none,false⟩⟩,⟨256,.other,false,some ⟨30,[.setEnt .internalNl,.cb],none,false⟩⟩]⟩,⟨[13],none,[],[⟨256,.other,false,some ⟨22,[.comment],none,false⟩⟩,⟨256,.ws,false,some ⟨23,[],none,false⟩⟩,⟨256,.lf,false,some ⟨24,[],none,false⟩⟩,⟨256,.vt,false,some ⟨25,[],none,false⟩⟩,⟨256,.ff,false,some ⟨26,[],none,false⟩⟩,⟨256,.cr,false,some ⟨27,[],none,false⟩⟩,⟨256,.cr,true,some ⟨28,[],none,false⟩⟩,⟨256,.other,false,some ⟨29,[],none,false⟩⟩,⟨256,.other,false,some ⟨30,[],none,false⟩⟩]⟩,⟨[8,13],none,[],[⟨256,.other,false,some ⟨22,[.setEnt .internalNl,.cb,.comment],none,false⟩⟩,⟨256,.ws,false,some ⟨23,[.setEnt .internalNl,.cb],none,false⟩⟩,⟨256,.lf,false,some ⟨24,[.setEnt .internalNl,.cb],none,false⟩⟩,⟨256,.vt,false,some ⟨25,[],none,false⟩⟩,⟨256,.ff,false,some ⟨26,[.setEnt .internalNl,.cb],none,false⟩⟩,⟨256,.cr,false,some ⟨27,[.setEnt .internalNl,.cb],none,false⟩⟩,⟨256,.cr,true,some ⟨28,[.setEnt .internalNl,.cb],none,false⟩⟩,⟨256,.other,false,some ⟨29,[.setEnt .internalNl,.cb],none,false⟩⟩,⟨256,.other,false,some ⟨30,[.setEnt .internalNl,.cb],none,false⟩⟩]⟩,⟨[5,13],none,[],[⟨256,.other,false,some ⟨22,[.comment],none,false⟩⟩,⟨256,.ws,false,some ⟨23,[],none,false⟩⟩,⟨256,.lf,false,some ⟨31,[],none,false⟩⟩,⟨256,.vt,false,some ⟨25,[],none,false⟩⟩,⟨256,.ff,false,some ⟨26,[],none,false⟩⟩,⟨256,.cr,false,some ⟨27,[],none,false⟩⟩,⟨256,.cr,true,some ⟨28,[],none,false⟩⟩,⟨256,.other,false,some ⟨29,[],none,false⟩⟩,⟨256,.other,false,some ⟨30,[],none,false⟩⟩]⟩,⟨[5,9,13],none,[],[⟨256,.other,false,some ⟨22,[.setEnt .internalNl,.cb,.comment],none,false⟩⟩,⟨256,.ws,false,some ⟨23,[.setEnt .internalNl,.cb],none,false⟩⟩,⟨256,.lf,false,some ⟨31,[.setEnt .internalNl,.cb],none,false⟩⟩,⟨256,.vt,false,some ⟨25,[],none,false⟩⟩,⟨256,.ff,false,some ⟨26,[.setEnt .internalNl,.cb],none,false⟩⟩,⟨256,.cr,false,some ⟨27,[.setEnt .internalNl,.cb],none,false⟩⟩,⟨256,.cr,true,some ⟨28,[.setEnt .internalNl,.cb],none,false⟩⟩,⟨256,.other,false,some ⟨29,[.setEnt .internalNl,.cb],none,false⟩⟩,⟨256,.other,false,some ⟨30,[.setEnt .internalNl,.cb],none,false⟩⟩]⟩,⟨[13,26],none,[],[⟨256,.other,false,some ⟨22,[.comment],none,false⟩⟩,⟨256,.ws,false,some ⟨23,[],none,false⟩⟩,⟨256,.lf,false,some ⟨24,[],none,false⟩⟩,⟨256,.vt,false,some ⟨25,[],none,false⟩⟩,⟨256,.ff,false,some ⟨26,[],none,false⟩⟩,⟨256,.cr,false,some ⟨27,[],none,false⟩⟩,⟨256,.cr,true,some ⟨28,[],none,false⟩⟩,⟨256,.other,false,some ⟨32,[],none,false⟩⟩,⟨256,.other,false,some ⟨30,[],none,false⟩⟩]⟩,⟨[0,12,13],none,[],[⟨256,.other,false,some ⟨33,[.comment],none,false⟩⟩,⟨256,.ws,false,some ⟨34,[],none,false⟩⟩,⟨256,.lf,false,some ⟨35,[],none,false⟩⟩,⟨256,.vt,false,some ⟨36,[],none,false⟩⟩,⟨256,.ff,false,some ⟨37,[],none,false⟩⟩,⟨256,.cr,false,some ⟨38,[],none,false⟩⟩,⟨256,.cr,true,some ⟨39,[],none,false⟩⟩,⟨256,.other,false,some ⟨40,[],none,false⟩⟩,⟨256,.other,false,some ⟨41,[],none,false⟩⟩,⟨256,.other,false,some ⟨42,[.comment],none,false⟩⟩]⟩,⟨[1,11,14,23],none,[],[⟨256,.other,false,some ⟨43,[.comment],none,false⟩⟩,⟨256,.ws,false,some ⟨44,[],none,false⟩⟩,⟨256,.lf,false,some ⟨45,[],none,false⟩⟩,⟨256,.vt,false,some ⟨46,[],none,false⟩⟩,⟨256,.ff,false,some ⟨47,[],none,false⟩⟩,⟨256,.cr,false,some ⟨48,[],none,false⟩⟩,⟨256,.cr,true,some ⟨49,[],none,false⟩⟩,⟨256,.other,false,some ⟨50,[],none,false⟩⟩,⟨256,.other,false,some ⟨51,[],none,false⟩⟩,⟨256,.other,false,some ⟨52,[.comment],none,false⟩⟩]⟩,⟨[11,22],none,[],[⟨256,.other,false,some ⟨22,[.comment],none,false⟩⟩,⟨256,.ws,false,some ⟨23,[],none,false⟩⟩,⟨256,.lf,false,some ⟨24,[],none,false⟩⟩,⟨256,.vt,false,some ⟨25,[],none,false⟩⟩,⟨256,.ff,false,some ⟨26,[],none,false⟩⟩,⟨256,.cr,false,some ⟨27,[],none,false⟩⟩,⟨256,.cr,true,some ⟨28,[],none,false⟩⟩,⟨256,.other,false,some ⟨29,[],none,false⟩⟩,⟨256,.other,false,some ⟨30,[],none,false⟩⟩]⟩,⟨[10,22],none,[],[⟨256,.other,false,some ⟨22,[.comment],none,false⟩⟩,⟨256,.ws,false,some ⟨23,[],none,false⟩⟩,⟨256,.lf,false,some ⟨24,[],none,false⟩⟩,⟨256,.vt,false,some ⟨25,[],none,false⟩⟩,⟨256,.ff,false,some ⟨26,[],none,false⟩⟩,⟨256,.cr,false,some ⟨27,[],none,false⟩⟩,⟨256,.cr,true,some ⟨28,[],none,false⟩⟩,⟨256,.other,false,some ⟨29,[],none,false⟩⟩,⟨256,.other,false,some ⟨30,[],none,false⟩⟩]⟩,⟨[7,22],none,[],[⟨256,.other,false,some ⟨22,[.setEnt .internalNl,.cb,.comment],none,false⟩⟩,⟨256,.ws,false,some ⟨23,[.setEnt .internalNl,.cb],none,false⟩⟩,⟨256,.lf,false,some ⟨24,[.setEnt .internalNl,.cb],none,false⟩⟩,⟨256,.vt,false,some ⟨25,[],none,false⟩⟩,⟨256,.ff,false,some ⟨26,[.setEnt .internalNl,.cb],none,false⟩⟩,⟨256,.cr,false,some ⟨27,[.setEnt .internalNl,.cb],none,false⟩⟩,⟨256,.cr,true,some ⟨28,[.setEnt .internalNl,.cb],none,false⟩⟩,⟨256,.other,false,some ⟨29,[.setEnt .internalNl,.cb],none,false⟩⟩,⟨256,.other,false,some ⟨30,[.setEnt .internalNl,.cb],none,false⟩⟩]⟩,⟨[22],none,[],[⟨256,.other,false,some ⟨22,[.comment],none,false⟩⟩,⟨256,.ws,false,some ⟨23,[],none,false⟩⟩,⟨256,.lf,false,some ⟨24,[],none,false⟩⟩,⟨256,.vt,false,some ⟨25,[],none,false⟩⟩,⟨256,.ff,false,some ⟨26,[],none,false⟩⟩,⟨256,.cr,false,some ⟨27,[],none,false⟩⟩,⟨256,.cr,true,some ⟨28,[],none,false⟩⟩,⟨256,.other,false,some ⟨29,[],none,false⟩⟩,⟨256,.other,false,some ⟨30,[],none,false⟩⟩]⟩,⟨[8,22],none,[],[⟨256,.other,false,some ⟨22,[.setEnt .internalNl,.cb,.comment],none,false⟩⟩,⟨256,.ws,false,some ⟨23,[.setEnt .internalNl,.cb],none,false⟩⟩,⟨256,.lf,false,some ⟨24,[.setEnt .internalNl,.cb],none,false⟩⟩,⟨256,.vt,false,some ⟨25,[],none,false⟩⟩,⟨256,.ff,false,some ⟨26,[.setEnt .internalNl,.cb],none,false⟩⟩,⟨256,.cr,false,some ⟨27,[.setEnt .internalNl,.cb],none,false⟩⟩,⟨256,.cr,true,some ⟨28,[.setEnt .internalNl,.cb],none,false⟩⟩,⟨256,.other,false,some ⟨29,[.setEnt .internalNl,.cb],none,false⟩⟩,⟨256,.other,false,some ⟨30,[.setEnt .internalNl,.cb],none,false⟩⟩]⟩,⟨[5,22],none,[],[⟨256,.other,false,some ⟨22,[.comment],none,false⟩⟩,⟨256,.ws,false,some ⟨23,[],none,false⟩⟩,⟨256,.lf,false,some ⟨31,[],none,false⟩⟩,⟨256,.vt,false,some ⟨25,[],none,false⟩⟩,⟨256,.ff,false,some ⟨26,[],none,false⟩⟩,⟨256,.cr,false,some ⟨27,[],none,false⟩⟩,⟨256,.cr,true,some ⟨28,[],none,false⟩⟩,⟨256,.other,false,some ⟨29,[],none,false⟩⟩,⟨256,.other,false,some ⟨30,[],none,false⟩⟩]⟩,⟨[5,9,22],none,[],[⟨256,.other,false,some ⟨22,[.setEnt .internalNl,.cb,.comment],none,false⟩⟩,⟨256,.ws,false,some ⟨23,[.setEnt .internalNl,.cb],none,false⟩⟩,⟨256,.lf,false,some ⟨31,[.setEnt .internalNl,.cb],none,false⟩⟩,⟨256,.vt,false,some ⟨25,[],none,false⟩⟩,⟨256,.ff,false,some ⟨26,[.setEnt .internalNl,.cb],none,false⟩⟩,⟨256,.cr,false,some ⟨27,[.setEnt .internalNl,.cb],none,false⟩⟩,⟨256,.cr,true,some ⟨28,[.setEnt .internalNl,.cb],none,false⟩⟩,⟨256,.other,false,some ⟨29,[.setEnt .internalNl,.cb],none,false⟩⟩,⟨256,.other,false,some ⟨30,[.setEnt .internalNl,.cb],none,false⟩⟩]⟩,⟨[22,26],none,[],[⟨256,.other,false,some ⟨22,[.comment],none,false⟩⟩,⟨256,.ws,false,some ⟨23,[],none,false⟩⟩,⟨256,.lf,false,some ⟨24,[],none,false⟩⟩,⟨256,.vt,false,some ⟨25,[],none,false⟩⟩,⟨256,.ff,false,some ⟨26,[],none,false⟩⟩,⟨256,.cr,false,some ⟨27,[],none,false⟩⟩,⟨256,.cr,true,some ⟨28,[],none,false⟩⟩,⟨256,.other,false,some ⟨32,[],none,false⟩⟩,⟨256,.other,false,some ⟨30,[],none,false⟩⟩]⟩,⟨[0,12,22],none,[],[⟨256,.other,false,some ⟨33,[.comment],none,false⟩⟩,⟨256,.ws,false,some ⟨34,[],none,false⟩⟩,⟨256,.lf,false,some ⟨35,[],none,false⟩⟩,⟨256,.vt,false,some ⟨36,[],none,false⟩⟩,⟨256,.ff,false,some ⟨37,[],none,false⟩⟩,⟨256,.cr,false,some ⟨38,[],none,false⟩⟩,⟨256,.cr,true,some ⟨39,[],none,false⟩⟩,⟨256,.other,false,some ⟨40,[],none,false⟩⟩,⟨256,.other,false,some ⟨41,[],none,false⟩⟩,⟨256,.other,false,some ⟨42,[.comment],none,false⟩⟩]⟩,⟨[6,7,22],none,[],[⟨256,.other,false,some ⟨22,[.setEnt .internalNl,.cb,.comment],none,false⟩⟩,⟨256,.ws,false,some ⟨23,[.setEnt .internalNl,.cb],none,false⟩⟩,⟨256,.lf,false,some ⟨24,[.setEnt .internalNl,.cb],none,false⟩⟩,⟨256,.vt,false,some ⟨25,[],none,false⟩⟩,⟨256,.ff,false,some ⟨26,[.setEnt .internalNl,.cb],none,false⟩⟩,⟨256,.cr,false,some ⟨27,[.setEnt .internalNl,.cb],none,false⟩⟩,⟨256,.cr,true,some ⟨28,[.setEnt .internalNl,.cb],none,false⟩⟩,⟨256,.other,false,some ⟨29,[.setEnt .internalNl,.cb],none,false⟩⟩,⟨256,.other,false,some ⟨30,[.setEnt .internalNl,.cb],none,false⟩⟩]⟩,⟨[22,26,27],none,[],[⟨256,.other,false,some ⟨22,[.comment],none,false⟩⟩,⟨256,.ws,false,some ⟨23,[],none,false⟩⟩,⟨256,.lf,false,some ⟨24,[],none,false⟩⟩,⟨256,.vt,false,some ⟨25,[],none,false⟩⟩,⟨256,.ff,false,some ⟨26,[],none,false⟩⟩,⟨256,.cr,false,some ⟨27,[],none,false⟩⟩,⟨256,.cr,true,some ⟨28,[],none,false⟩⟩,⟨256,.other,false,some ⟨32,[],none,false⟩⟩,⟨256,.other,false,some ⟨30,[],none,false⟩⟩,⟨256,.other,false,some ⟨0,[.comment,.emb (.goto 6)],some 0,true⟩⟩]⟩,⟨[11,13,22],none,[],[⟨256,.other,false,some ⟨22,[.comment],none,false⟩⟩,⟨256,.ws,false,some ⟨23,[],none,false⟩⟩,⟨256,.lf,false,some ⟨24,[],none,false⟩⟩,⟨256,.vt,false,some ⟨25,[],none,false⟩⟩,⟨256,.ff,false,some ⟨26,[],none,false⟩⟩,⟨256,.cr,false,some ⟨27,[],none,false⟩⟩,⟨256,.cr,true,some ⟨28,[],none,false⟩⟩,⟨256,.other,false,some ⟨29,[],none,false⟩⟩,⟨256,.other,false,some ⟨30,[],none,false⟩⟩]⟩,⟨[10,13,22],none,[],[⟨256,.other,false,some ⟨22,[.comment],none,false⟩⟩,⟨256,.ws,false,some ⟨23,[],none,false⟩⟩,⟨256,.lf,false,some ⟨24,[],none,false⟩⟩,⟨256,.vt,false,some ⟨25,[],none,false⟩⟩,⟨256,.ff,false,some ⟨26,[],none,false⟩⟩,⟨256,.cr,false,some ⟨27,[],none,false⟩⟩,⟨256,.cr,true,some ⟨28,[],none,false⟩⟩,⟨256,.other,false,some ⟨29,[],none,false⟩⟩,⟨256,.other,false,some ⟨30,[],none,false⟩⟩]⟩,⟨[7,13,22],none,[],[⟨256,.other,false,some ⟨22,[.setEnt .internalNl,.cb,.comment],none,false⟩⟩,⟨256,.ws,false,some ⟨23,[.setEnt .internalNl,.cb],none,false⟩⟩,⟨256,.lf,false,some ⟨24,[.setEnt .internalNl,.cb],none,false⟩⟩,⟨256,.vt,false,some ⟨25,[],none,false⟩⟩,⟨256,.ff,false,some ⟨26,[.setEnt .internalNl,.cb],none,false⟩⟩,⟨256,.cr,false,some ⟨27,[.setEnt .internalNl,.cb],none,false⟩⟩,⟨256,.cr,true,some ⟨28,[.setEnt .internalNl,.cb],none,false⟩⟩,⟨256,.other,false,some ⟨29,[.setEnt .internalNl,.cb],none,false⟩⟩,⟨256,.other,false,some ⟨30,[.setEnt .internalNl,.cb],none,false⟩⟩]⟩,⟨[13,22],none,[],[⟨256,.other,false,some ⟨22,[.comment],none,false⟩⟩,⟨256,.ws,false,some ⟨23,[],none,false⟩⟩,⟨256,.lf,false,some ⟨24,[],none,false⟩⟩,⟨256,.vt,false,some ⟨25,[],none,false⟩⟩,⟨256,.ff,false,some ⟨26,[],none,false⟩⟩,⟨256,.cr,false,some ⟨27,[],none,false⟩⟩,⟨256,.cr,true,some ⟨28,[],none,false⟩⟩,⟨256,.other,false,some ⟨29,[],none,false⟩⟩,⟨256,.other,false,some ⟨30,[],none,false⟩⟩]⟩,⟨[8,13,22],none,[],[⟨256,.other,false,some ⟨22,[.setEnt .internalNl,.cb,.comment],none,false⟩⟩,⟨256,.ws,false,some ⟨23,[.setEnt .internalNl,.cb],none,false⟩⟩,⟨256,.lf,false,some ⟨24,[.setEnt .internalNl,.cb],none,false⟩⟩,⟨256,.vt,false,some ⟨25,[],none,false⟩⟩,⟨256,.ff,false,some ⟨26,[.setEnt .internalNl,.cb],none,false⟩⟩,⟨256,.cr,false,some ⟨27,[.setEnt .internalNl,.cb],none,false⟩⟩,⟨256,.cr,true,some ⟨28,[.setEnt .internalNl,.cb],none,false⟩⟩,⟨256,.other,false,some ⟨29,[.setEnt .internalNl,.cb],none,false⟩⟩,⟨256,.other,false,some ⟨30,[.setEnt .internalNl,.cb],none,false⟩⟩]⟩,⟨[5,13,22],none,[],[⟨256,.other,false,some ⟨22,[.comment],none,false⟩⟩,⟨256,.ws,false,some ⟨23,[],none,false⟩⟩,⟨256,.lf,false,some ⟨31,[],none,false⟩⟩,⟨256,.vt,false,some ⟨25,[],none,false⟩⟩,⟨256,.ff,false,some ⟨26,[],none,false⟩⟩,⟨256,.cr,false,some ⟨27,[],none,false⟩⟩,⟨256,.cr,true,some ⟨28,[],none,false⟩⟩,⟨256,.other,false,some ⟨29,[],none,false⟩⟩,⟨256,.other,false,some ⟨30,[],none,false⟩⟩]⟩,⟨[5,9,13,22],none,[],[⟨256,.other,false,some ⟨22,[.setEnt .internalNl,.cb,.comment],none,false⟩⟩,⟨256,.ws,false,some ⟨23,[.setEnt .internalNl,.cb],none,false⟩⟩,⟨256,.lf,false,some ⟨31,[.setEnt .internalNl,.cb],none,false⟩⟩,⟨256,.vt,false,some ⟨25,[],none,false⟩⟩,⟨256,.ff,false,some ⟨26,[.setEnt .internalNl,.cb],none,false⟩⟩,⟨256,.cr,false,some ⟨27,[.setEnt .internalNl,.cb],none,false⟩⟩,⟨256,.cr,true,some ⟨28,[.setEnt .internalNl,.cb],none,false⟩⟩,⟨256,.other,false,some ⟨29,[.setEnt .internalNl,.cb],none,false⟩⟩,⟨256,.other,false,some ⟨30,[.setEnt .internalNl,.cb],none,false⟩⟩]⟩,⟨[13,22,26],none,[],[⟨256,.other,false,some ⟨22,[.comment],none,false⟩⟩,⟨256,.ws,false,some ⟨23,[],none,false⟩⟩,⟨256,.lf,false,some ⟨24,[],none,false⟩⟩,⟨256,.vt,false,some ⟨25,[],none,false⟩⟩,⟨256,.ff,false,some ⟨26,[],none,false⟩⟩,⟨256,.cr,false,some ⟨27,[],none,false⟩⟩,⟨256,.cr,true,some ⟨28,[],none,false⟩⟩,⟨256,.other,false,some ⟨32,[],none,false⟩⟩,⟨256,.other,false,some ⟨30,[],none,false⟩⟩]⟩,⟨[0,12,13,22],none,[],[⟨256,.other,false,some ⟨33,[.comment],none,false⟩⟩,⟨256,.ws,false,some ⟨34,[],none,false⟩⟩,⟨256,.lf,false,some ⟨35,[],none,false⟩⟩,⟨256,.vt,false,some ⟨36,[],none,false⟩⟩,⟨256,.ff,false,some ⟨37,[],none,false⟩⟩,⟨256,.cr,false,some ⟨38,[],none,false⟩⟩,⟨256,.cr,true,some ⟨39,[],none,false⟩⟩,⟨256,.other,false,some ⟨40,[],none,false⟩⟩,⟨256,.other,false,some ⟨41,[],none,false⟩⟩,⟨256,.other,false,some ⟨42,[.comment],none,false⟩⟩]⟩,⟨[1,11,14,22,23],none,[],[⟨256,.other,false,some ⟨53,[.comment],none,false⟩⟩,⟨256,.ws,false,some ⟨54,[],none,false⟩⟩,⟨256,.lf,false,some ⟨55,[],none,false⟩⟩,⟨256,.vt,false,some ⟨56,[],none,false⟩⟩,⟨256,.ff,false,some ⟨57,[],none,false⟩⟩,⟨256,.cr,false,some ⟨58,[],none,false⟩⟩,⟨256,.cr,true,some ⟨59,[],none,false⟩⟩,⟨256,.other,false,some ⟨60,[],none,false⟩⟩,⟨256,.other,false,some ⟨61,[],none,false⟩⟩,⟨256,.other,false,some ⟨62,[.comment],none,false⟩⟩]⟩,⟨[11,15],none,[],[⟨256,.other,false,some ⟨22,[.comment],none,false⟩⟩,⟨256,.ws,false,some ⟨23,[],none,false⟩⟩,⟨256,.lf,false,some ⟨24,[],none,false⟩⟩,⟨256,.vt,false,some ⟨25,[],none,false⟩⟩,⟨256,.ff,false,some ⟨26,[],none,false⟩⟩,⟨256,.cr,false,some ⟨27,[],none,false⟩⟩,⟨256,.cr,true,some ⟨28,[],none,false⟩⟩,⟨256,.other,false,some ⟨29,[],none,false⟩⟩,⟨256,.other,false,some ⟨30,[],none,false⟩⟩]⟩,⟨[10,15],none,[],[⟨256,.other,false,some ⟨22,[.comment],none,false⟩⟩,⟨256,.ws,false,some ⟨23,[],none,false⟩⟩,⟨256,.lf,false,some ⟨24,[],none,false⟩⟩,⟨256,.vt,false,some ⟨25,[],none,false⟩⟩,⟨256,.ff,false,some ⟨26,[],none,false⟩⟩,⟨256,.cr,false,some ⟨27,[],none,false⟩⟩,⟨256,.cr,true,some ⟨28,[],none,false⟩⟩,⟨256,.other,false,some ⟨29,[],none,false⟩⟩,⟨256,.other,false,some ⟨30,[],none,false⟩⟩]⟩,⟨[7,15],none,[],[⟨256,.other,false,some ⟨22,[.setEnt .internalNl,.cb,.comment],none,false⟩⟩,⟨256,.ws,false,some ⟨23,[.setEnt .internalNl,.cb],none,false⟩⟩,⟨256,.lf,false,some ⟨24,[.setEnt .internalNl,.cb],none,false⟩⟩,⟨256,.vt,false,some ⟨25,[],none,false⟩⟩,⟨256,.ff,false,some ⟨26,[.setEnt .internalNl,.cb],none,false⟩⟩,⟨256,.cr,false,some ⟨27,[.setEnt .internalNl,.cb],none,false⟩⟩,⟨256,.cr,true,some ⟨28,[.setEnt .internalNl,.cb],none,false⟩⟩,⟨256,.other,false,some ⟨29,[.setEnt .internalNl,.cb],none,false⟩⟩,⟨256,.other,false,some ⟨30,[.setEnt .internalNl,.cb],none,false⟩⟩]⟩,⟨[15],none,[],[⟨256,.other,false,some ⟨22,[.comment],none,false⟩⟩,⟨256,.ws,false,some ⟨23,[],none,false⟩⟩,⟨256,.lf,false,some ⟨24,[],none,false⟩⟩,⟨256,.vt,false,some ⟨25,[],none,false⟩⟩,⟨256,.ff,false,some ⟨26,[],none,false⟩⟩,⟨256,.cr,false,some ⟨27,[],none,false⟩⟩,⟨256,.cr,true,some ⟨28,[],none,false⟩⟩,⟨256,.other,false,some ⟨29,[],none,false⟩⟩,⟨256,.other,false,some ⟨30,[],none,false⟩⟩]⟩,⟨[8,15],none,[],[⟨256,.other,false,some ⟨22,[.setEnt .internalNl,.cb,.comment],none,false⟩⟩,⟨256,.ws,false,some ⟨23,[.setEnt .internalNl,.cb],none,false⟩⟩,⟨256,.lf,false,some ⟨24,[.setEnt .internalNl,.cb],none,false⟩⟩,⟨256,.vt,false,some ⟨25,[],none,false⟩⟩,⟨256,.ff,false,some ⟨26,[.setEnt .internalNl,.cb],none,false⟩⟩,⟨256,.cr,false,some ⟨27,[.setEnt .internalNl,.cb],none,false⟩⟩,⟨256,.cr,true,some ⟨28,[.setEnt .internalNl,.cb],none,false⟩⟩,⟨256,.other,false,some ⟨29,[.setEnt .internalNl,.cb],none,false⟩⟩,⟨256,.other,false,some ⟨30,[.setEnt .internalNl,.cb],none,false⟩⟩]⟩,⟨[5,15],none,[],[⟨256,.other,false,some ⟨22,[.comment],none,false⟩⟩,⟨256,.ws,false,some ⟨23,[],none,false⟩⟩,⟨256,.lf,false,some ⟨31,[],none,false⟩⟩,⟨256,.vt,false,some ⟨25,[],none,false⟩⟩,⟨256,.ff,false,some ⟨26,[],none,false⟩⟩,⟨256,.cr,false,some ⟨27,[],none,false⟩⟩,⟨256,.cr,true,some ⟨28,[],none,false⟩⟩,⟨256,.other,false,some ⟨29,[],none,false⟩⟩,⟨256,.other,false,some ⟨30,[],none,false⟩⟩]⟩,⟨[5,9,15],none,[],[⟨256,.other,false,some ⟨22,[.setEnt .internalNl,.cb,.comment],none,false⟩⟩,⟨256,.ws,false,some ⟨23,[.setEnt .internalNl,.cb],none,false⟩⟩,⟨256,.lf,false,some ⟨31,[.setEnt .internalNl,.cb],none,false⟩⟩,⟨256,.vt,false,some ⟨25,[],none,false⟩⟩,⟨256,.ff,false,some ⟨26,[.setEnt .internalNl,.cb],none,false⟩⟩,⟨256,.cr,false,some ⟨27,[.setEnt .internalNl,.cb],none,false⟩⟩,⟨256,.cr,true,some ⟨28,[.setEnt .internalNl,.cb],none,false⟩⟩,⟨256,.other,false,some ⟨29,[.setEnt .internalNl,.cb],none,false⟩⟩,⟨256,.other,false,some ⟨30,[.setEnt .internalNl,.cb],none,false⟩⟩]⟩,⟨[15,26],none,[],[⟨256,.other,false,some ⟨22,[.comment],none,false⟩⟩,⟨256,.ws,false,some ⟨23,[],none,false⟩⟩,⟨256,.lf,false,some ⟨24,[],none,false⟩⟩,⟨256,.vt,false,some ⟨25,[],none,false⟩⟩,⟨256,.ff,false,some ⟨26,[],none,false⟩⟩,⟨256,.cr,false,some ⟨27,[],none,false⟩⟩,⟨256,.cr,true,some ⟨28,[],none,false⟩⟩,⟨256,.other,false,some ⟨32,[],none,false⟩⟩,⟨256,.other,false,some ⟨30,[],none,false⟩⟩]⟩,⟨[0,12,15],none,[],[⟨256,.other,false,some ⟨33,[.comment],none,false⟩⟩,⟨256,.ws,false,some ⟨34,[],none,false⟩⟩,⟨256,.lf,false,some ⟨35,[],none,false⟩⟩,⟨256,.vt,false,some ⟨36,[],none,false⟩⟩,⟨256,.ff,false,some ⟨37,[],none,false⟩⟩,⟨256,.cr,false,some ⟨38,[],none,false⟩⟩,⟨256,.cr,true,some ⟨39,[],none,false⟩⟩,⟨256,.other,false,some ⟨40,[],none,false⟩⟩,⟨256,.other,false,some ⟨41,[],none,false⟩⟩,⟨256,.other,false,some ⟨42,[.comment],none,false⟩⟩]⟩,⟨[2,11,16,24],none,[],[⟨256,.other,false,some ⟨63,[.comment],none,false⟩⟩,⟨256,.ws,false,some ⟨64,[],none,false⟩⟩,⟨256,.lf,false,some ⟨65,[],none,false⟩⟩,⟨256,.vt,false,some ⟨66,[],none,false⟩⟩,⟨256,.ff,false,some ⟨67,[],none,false⟩⟩,⟨256,.cr,false,some ⟨68,[],none,false⟩⟩,⟨256,.cr,true,some ⟨69,[],none,false⟩⟩,⟨256,.other,false,some ⟨70,[],none,false⟩⟩,⟨256,.other,false,some ⟨71,[],none,false⟩⟩,⟨256,.other,false,some ⟨72,[.comment],none,false⟩⟩]⟩,⟨[11,15,22],none,[],[⟨256,.other,false,some ⟨22,[.comment],none,false⟩⟩,⟨256,.ws,false,some ⟨23,[],none,false⟩⟩,⟨256,.lf,false,some ⟨24,[],none,false⟩⟩,⟨256,.vt,false,some ⟨25,[],none,false⟩⟩,⟨256,.ff,false,some ⟨26,[],none,false⟩⟩,⟨256,.cr,false,some ⟨27,[],none,false⟩⟩,⟨256,.cr,true,some ⟨28,[],none,false⟩⟩,⟨256,.other,false,some ⟨29,[],none,false⟩⟩,⟨256,.other,false,some ⟨30,[],none,false⟩⟩]⟩,⟨[10,15,22],none,[],[⟨256,.other,false,some ⟨22,[.comment],none,false⟩⟩,⟨256,.ws,false,some ⟨23,[],none,false⟩⟩,⟨256,.lf,false,some ⟨24,[],none,false⟩⟩,⟨256,.vt,false,some ⟨25,[],none,false⟩⟩,⟨256,.ff,false,some ⟨26,[],none,false⟩⟩,⟨256,.cr,false,some ⟨27,[],none,false⟩⟩,⟨256,.cr,true,some ⟨28,[],none,false⟩⟩,⟨256,.other,false,some ⟨29,[],none,false⟩⟩,⟨256,.other,false,some ⟨30,[],none,false⟩⟩]⟩,⟨[7,15,22],none,[],[⟨256,.other,false,some ⟨22,[.setEnt .internalNl,.cb,.comment],none,false⟩⟩,⟨256,.ws,false,some ⟨23,[.setEnt .internalNl,.cb],none,false⟩⟩,⟨256,.lf,false,some ⟨24,[.setEnt .internalNl,.cb],none,false⟩⟩,⟨256,.vt,false,some ⟨25,[],none,false⟩⟩,⟨256,.ff,false,some ⟨26,[.setEnt .internalNl,.cb],none,false⟩⟩,⟨256,.cr,false,some ⟨27,[.setEnt .internalNl,.cb],none,false⟩⟩,⟨256,.cr,true,some ⟨28,[.setEnt .internalNl,.cb],none,false⟩⟩,⟨256,.other,false,some ⟨29,[.setEnt .internalNl,.cb],none,false⟩⟩,⟨256,.other,false,some ⟨30,[.setEnt .internalNl,.cb],none,false⟩⟩]⟩,⟨[15,22],none,[],[⟨256,.other,false,some ⟨22,[.comment],none,false⟩⟩,⟨256,.ws,false,some ⟨23,[],none,false⟩⟩,⟨256,.lf,false,some ⟨24,[],none,false⟩⟩,⟨256,.vt,false,some ⟨25,[],none,false⟩⟩,⟨256,.ff,false,some ⟨26,[],none,false⟩⟩,⟨256,.cr,false,some ⟨27,[],none,false⟩⟩,⟨256,.cr,true,some ⟨28,[],none,false⟩⟩,⟨256,.other,false,some ⟨29,[],none,false⟩⟩,⟨256,.other,false,some ⟨30,[],none,false⟩⟩]⟩,⟨[8,15,22],none,[],[⟨256,.other,false,some ⟨22,[.setEnt .internalNl,.cb,.comment],none,false⟩⟩,⟨256,.ws,false,some ⟨23,[.setEnt .internalNl,.cb],none,false⟩⟩,⟨256,.lf,false,some ⟨24,[.setEnt .internalNl,.cb],none,false⟩⟩,⟨256,.vt,false,some ⟨25,[],none,false⟩⟩,⟨256,.ff,false,some ⟨26,[.setEnt .internalNl,.cb],none,false⟩⟩,⟨256,.cr,false,some ⟨27,[.setEnt .internalNl,.cb],none,false⟩⟩,⟨256,.cr,true,some ⟨28,[.setEnt .internalNl,.cb],none,false⟩⟩,⟨256,.other,false,some ⟨29,[.setEnt .internalNl,.cb],none,false⟩⟩,⟨256,.other,false,some ⟨30,[.setEnt .internalNl,.cb],none,false⟩⟩]⟩,⟨[5,15,22],none,[],[⟨256,.other,false,some ⟨22,[.comment],none,false⟩⟩,⟨256,.ws,false,some ⟨23,[],none,false⟩⟩,⟨256,.lf,false,some ⟨31,[],none,false⟩⟩,⟨256,.vt,false,some ⟨25,[],none,false⟩⟩,⟨256,.ff,false,some ⟨26,[],none,false⟩⟩,⟨256,.cr,false,some ⟨27,[],none,false⟩⟩,⟨256,.cr,true,some ⟨28,[],none,false⟩⟩,⟨256,.other,false,some ⟨29,[],none,false⟩⟩,⟨256,.other,false,some ⟨30,[],none,false⟩⟩]⟩,⟨[5,9,15,22],none,[],[⟨256,.other,false,some ⟨22,[.setEnt .internalNl,.cb,.comment],none,false⟩⟩,⟨256,.ws,false,some ⟨23,[.setEnt .internalNl,.cb],none,false⟩⟩,⟨256,.lf,false,some ⟨31,[.setEnt .internalNl,.cb],none,false⟩⟩,⟨256,.vt,false,some ⟨25,[],none,false⟩⟩,⟨256,.ff,false,some ⟨26,[.setEnt .internalNl,.cb],none,false⟩⟩,⟨256,.cr,false,some ⟨27,[.setEnt .internalNl,.cb],none,false⟩⟩,⟨256,.cr,true,some ⟨28,[.setEnt .internalNl,.cb],none,false⟩⟩,⟨256,.other,false,some ⟨29,[.setEnt .internalNl,.cb],none,false⟩⟩,⟨256,.other,false,some ⟨30,[.setEnt .internalNl,.cb],none,false⟩⟩]⟩,⟨[15,22,26],none,[],[⟨256,.other,false,some ⟨22,[.comment],none,false⟩⟩,⟨256,.ws,false,some ⟨23,[],none,false⟩⟩,⟨256,.lf,false,some ⟨24,[],none,false⟩⟩,⟨256,.vt,false,some ⟨25,[],none,false⟩⟩,⟨256,.ff,false,some ⟨26,[],none,false⟩⟩,⟨256,.cr,false,some ⟨27,[],none,false⟩⟩,⟨256,.cr,true,some ⟨28,[],none,false⟩⟩,⟨256,.other,false,some ⟨32,[],none,false⟩⟩,⟨256,.other,false,some ⟨30,[],none,false⟩⟩]⟩,⟨[0,12,15,22],none,[],[⟨256,.other,false,some ⟨33,[.comment],none,false⟩⟩,⟨256,.ws,false,some ⟨34,[],none,false⟩⟩,⟨256,.lf,false,some ⟨35,[],none,false⟩⟩,⟨256,.vt,false,some ⟨36,[],none,false⟩⟩,⟨256,.ff,false,some ⟨37,[],none,false⟩⟩,⟨256,.cr,false,some ⟨38,[],none,false⟩⟩,⟨256,.cr,true,some ⟨39,[],none,false⟩⟩,⟨256,.other,false,some ⟨40,[],none,false⟩⟩,⟨256,.other,false,some ⟨41,[],none,false⟩⟩,⟨256,.other,false,some ⟨42,[.comment],none,false⟩⟩]⟩,⟨[2,11,16,22,24],none,[],[⟨256,.other,false,some ⟨73,[.comment],none,false⟩⟩,⟨256,.ws,false,some ⟨74,[],none,false⟩⟩,⟨256,.lf,false,some ⟨75,[],none,false⟩⟩,⟨256,.vt,false,some ⟨76,[],none,false⟩⟩,⟨256,.ff,false,some ⟨77,[],none,false⟩⟩,⟨256,.cr,false,some ⟨78,[],none,false⟩⟩,⟨256,.cr,true,some ⟨79,[],none,false⟩⟩,⟨256,.other,false,some ⟨80,[],none,false⟩⟩,⟨256,.other,false,some ⟨81,[],none,false⟩⟩,⟨256,.other,false,some ⟨82,[.comment],none,false⟩⟩]⟩,⟨[11,17],none,[],[⟨256,.other,false,some ⟨22,[.comment],none,false⟩⟩,⟨256,.ws,false,some ⟨23,[],none,false⟩⟩,⟨256,.lf,false,some ⟨24,[],none,false⟩⟩,⟨256,.vt,false,some ⟨25,[],none,false⟩⟩,⟨256,.ff,false,some ⟨26,[],none,false⟩⟩,⟨256,.cr,false,some ⟨27,[],none,false⟩⟩,⟨256,.cr,true,some ⟨28,[],none,false⟩⟩,⟨256,.other,false,some ⟨29,[],none,false⟩⟩,⟨256,.other,false,some ⟨30,[],none,false⟩⟩]⟩,⟨[10,17],none,[],[⟨256,.other,false,some ⟨22,[.comment],none,false⟩⟩,⟨256,.ws,false,some ⟨23,[],none,false⟩⟩,⟨256,.lf,false,some ⟨24,[],none,false⟩⟩,⟨256,.vt,false,some ⟨25,[],none,false⟩⟩,⟨256,.ff,false,some ⟨26,[],none,false⟩⟩,⟨256,.cr,false,some ⟨27,[],none,false⟩⟩,⟨256,.cr,true,some ⟨28,[],none,false⟩⟩,⟨256,.other,false,some ⟨29,[],none,false⟩⟩,⟨256,.other,false,some ⟨30,[],none,false⟩⟩]⟩,⟨[7,17],none,[],[⟨256,.other,false,some ⟨22,[.setEnt .internalNl,.cb,.comment],none,false⟩⟩,⟨256,.ws,false,some ⟨23,[.setEnt .internalNl,.cb],none,false⟩⟩,⟨256,.lf,false,some ⟨24,[.setEnt .internalNl,.cb],none,false⟩⟩,⟨256,.vt,false,some ⟨25,[],none,false⟩⟩,⟨256,.ff,false,some ⟨26,[.setEnt .internalNl,.cb],none,false⟩⟩,⟨256,.cr,false,some ⟨27,[.setEnt .internalNl,.cb],none,false⟩⟩,⟨256,.cr,true,some ⟨28,[.setEnt .internalNl,.cb],none,false⟩⟩,⟨256,.other,false,some ⟨29,[.setEnt .internalNl,.cb],none,false⟩⟩,⟨256,.other,false,some ⟨30,[.setEnt .internalNl,.cb],none,false⟩⟩]⟩,⟨[17],none,[],[⟨256,.other,false,some ⟨22,[.comment],none,false⟩⟩,⟨256,.ws,false,some ⟨23,[],none,false⟩⟩,⟨256,.lf,false,some ⟨24,[],none,false⟩⟩,⟨256,.vt,false,some ⟨25,[],none,false⟩⟩,⟨256,.ff,false,some ⟨26,[],none,false⟩⟩,⟨256,.cr,false,some ⟨27,[],none,false⟩⟩,⟨256,.cr,true,some ⟨28,[],none,false⟩⟩,⟨256,.other,false,some ⟨29,[],none,false⟩⟩,⟨256,.other,false,some ⟨30,[],none,false⟩⟩]⟩,⟨[8,17],none,[],[⟨256,.other,false,some ⟨22,[.setEnt .internalNl,.cb,.comment],none,false⟩⟩,⟨256,.ws,false,some ⟨23,[.setEnt .internalNl,.cb],none,false⟩⟩,⟨256,.lf,false,some ⟨24,[.setEnt .internalNl,.cb],none,false⟩⟩,⟨256,.vt,false,some ⟨25,[],none,false⟩⟩,⟨256,.ff,false,some ⟨26,[.setEnt .internalNl,.cb],none,false⟩⟩,⟨256,.cr,false,some ⟨27,[.setEnt .internalNl,.cb],none,false⟩⟩,⟨256,.cr,true,some ⟨28,[.setEnt .internalNl,.cb],none,false⟩⟩,⟨256,.other,false,some ⟨29,[.setEnt .internalNl,.cb],none,false⟩⟩,⟨256,.other,false,some ⟨30,[.setEnt .internalNl,.cb],none,false⟩⟩]⟩,⟨[5,17],none,[],[⟨256,.other,false,some ⟨22,[.comment],none,false⟩⟩,⟨256,.ws,false,some ⟨23,[],none,false⟩⟩,⟨256,.lf,false,some ⟨31,[],none,false⟩⟩,⟨256,.vt,false,some ⟨25,[],none,false⟩⟩,⟨256,.ff,false,some ⟨26,[],none,false⟩⟩,⟨256,.cr,false,some ⟨27,[],none,false⟩⟩,⟨256,.cr,true,some ⟨28,[],none,false⟩⟩,⟨256,.other,false,some ⟨29,[],none,false⟩⟩,⟨256,.other,false,some ⟨30,[],none,false⟩⟩]⟩,⟨[5,9,17],none,[],[⟨256,.other,false,some ⟨22,[.setEnt .internalNl,.cb,.comment],none,false⟩⟩,⟨256,.ws,false,some ⟨23,[.setEnt .internalNl,.cb],none,false⟩⟩,⟨256,.lf,false,some ⟨31,[.setEnt .internalNl,.cb],none,false⟩⟩,⟨256,.vt,false,some ⟨25,[],none,false⟩⟩,⟨256,.ff,false,some ⟨26,[.setEnt .internalNl,.cb],none,false⟩⟩,⟨256,.cr,false,some ⟨27,[.setEnt .internalNl,.cb],none,false⟩⟩,⟨256,.cr,true,some ⟨28,[.setEnt .internalNl,.cb],none,false⟩⟩,⟨256,.other,false,some ⟨29,[.setEnt .internalNl,.cb],none,false⟩⟩,⟨256,.other,false,some ⟨30,[.setEnt .internalNl,.cb],none,false⟩⟩]⟩,⟨[17,26],none,[],[⟨256,.other,false,some ⟨22,[.comment],none,false⟩⟩,⟨256,.ws,false,some ⟨23,[],none,false⟩⟩,⟨256,.lf,false,some ⟨24,[],none,false⟩⟩,⟨256,.vt,false,some ⟨25,[],none,false⟩⟩,⟨256,.ff,false,some ⟨26,[],none,false⟩⟩,⟨256,.cr,false,some ⟨27,[],none,false⟩⟩,⟨256,.cr,true,some ⟨28,[],none,false⟩⟩,⟨256,.other,false,some ⟨32,[],none,false⟩⟩,⟨256,.other,false,some ⟨30,[],none,false⟩⟩]⟩,⟨[0,12,17],none,[],[⟨256,.other,false,some ⟨33,[.comment],none,false⟩⟩,⟨256,.ws,false,some ⟨34,[],none,false⟩⟩,⟨256,.lf,false,some ⟨35,[],none,false⟩⟩,⟨256,.vt,false,some ⟨36,[],none,false⟩⟩,⟨256,.ff,false,some ⟨37,[],none,false⟩⟩,⟨256,.cr,false,some ⟨38,[],none,false⟩⟩,⟨256,.cr,true,some ⟨39,[],none,false⟩⟩,⟨256,.other,false,some ⟨40,[],none,false⟩⟩,⟨256,.other,false,some ⟨41,[],none,false⟩⟩,⟨256,.other,false,some ⟨42,[.comment],none,false⟩⟩]⟩,⟨[3,11,18,25],none,[],[⟨256,.other,false,some ⟨83,[.comment],none,false⟩⟩,⟨256,.ws,false,some ⟨84,[],none,false⟩⟩,⟨256,.lf,false,some ⟨85,[],none,false⟩⟩,⟨256,.vt,false,some ⟨86,[],none,false⟩⟩,⟨256,.ff,false,some ⟨87,[],none,false⟩⟩,⟨256,.cr,false,some ⟨88,[],none,false⟩⟩,⟨256,.cr,true,some ⟨89,[],none,false⟩⟩,⟨256,.other,false,some ⟨90,[],none,false⟩⟩,⟨256,.other,false,some ⟨91,[],none,false⟩⟩,⟨256,.other,false,some ⟨92,[.emb (.sawCall 3 5),.comment],none,false⟩⟩]⟩,⟨[11,17,22],none,[],[⟨256,.other,false,some ⟨22,[.comment],none,false⟩⟩,⟨256,.ws,false,some ⟨23,[],none,false⟩⟩,⟨256,.lf,false,some ⟨24,[],none,false⟩⟩,⟨256,.vt,false,some ⟨25,[],none,false⟩⟩,⟨256,.ff,false,some ⟨26,[],none,false⟩⟩,⟨256,.cr,false,some ⟨27,[],none,false⟩⟩,⟨256,.cr,true,some ⟨28,[],none,false⟩⟩,⟨256,.other,false,some ⟨29,[],none,false⟩⟩,⟨256,.other,false,some ⟨30,[],none,false⟩⟩]⟩,⟨[10,17,22],none,[],[⟨256,.other,false,some ⟨22,[.comment],none,false⟩⟩,⟨256,.ws,false,some ⟨23,[],none,false⟩⟩,⟨256,.lf,false,some ⟨24,[],none,false⟩⟩,⟨256,.vt,false,some ⟨25,[],none,false⟩⟩,⟨256,.ff,false,some ⟨26,[],none,false⟩⟩,⟨256,.cr,false,some ⟨27,[],none,false⟩⟩,⟨256,.cr,true,some ⟨28,[],none,false⟩⟩,⟨256,.other,false,some ⟨29,[],none,false⟩⟩,⟨256,.other,false,some ⟨30,[],none,false⟩⟩]⟩,⟨[7,17,22],none,[],[⟨256,.other,false,some ⟨22,[.setEnt .internalNl,.cb,.comment],none,false⟩⟩,⟨256,.ws,false,some ⟨23,[.setEnt .internalNl,.cb],none,false⟩⟩,⟨256,.lf,false,some ⟨24,[.setEnt .internalNl,.cb],none,false⟩⟩,⟨256,.vt,false,some ⟨25,[],none,false⟩⟩,⟨256,.ff,false,some ⟨26,[.setEnt .internalNl,.cb],none,false⟩⟩,⟨256,.cr,false,some ⟨27,[.setEnt .internalNl,.cb],none,false⟩⟩,⟨256,.cr,true,some ⟨28,[.setEnt .internalNl,.cb],none,false⟩⟩,⟨256,.other,false,some ⟨29,[.setEnt .internalNl,.cb],none,false⟩⟩,⟨256,.other,false,some ⟨30,[.setEnt .internalNl,.cb],none,false⟩⟩]⟩,⟨[17,22],none,[],[⟨256,.other,false,some ⟨22,[.comment],none,false⟩⟩,⟨256,.ws,false,some ⟨23,[],none,false⟩⟩,⟨256,.lf,false,some ⟨24,[],none,false⟩⟩,⟨256,.vt,false,some ⟨25,[],none,false⟩⟩,⟨256,.ff,false,some ⟨26,[],none,false⟩⟩,⟨256,.cr,false,some ⟨27,[],none,false⟩⟩,⟨256,.cr,true,some ⟨28,[],none,false⟩⟩,⟨256,.other,false,some ⟨29,[],none,false⟩⟩,⟨256,.other,false,some ⟨30,[],none,false⟩⟩]⟩,⟨[8,17,22],none,[],[⟨256,.other,false,some ⟨22,[.setEnt .internalNl,.cb,.comment],none,false⟩⟩,⟨256,.ws,false,some ⟨23,[.setEnt .internalNl,.cb],none,false⟩⟩,⟨256,.lf,false,some ⟨24,[.setEnt .internalNl,.cb],none,false⟩⟩,⟨256,.vt,false,some ⟨25,[],none,false⟩⟩,⟨256,.ff,false,some ⟨26,[.setEnt .internalNl,.cb],none,false⟩⟩,⟨256,.cr,false,some ⟨27,[.setEnt .internalNl,.cb],none,false⟩⟩,⟨256,.cr,true,some ⟨28,[.setEnt .internalNl,.cb],none,false⟩⟩,⟨256,.other,false,some ⟨29,[.setEnt .internalNl,.cb],none,false⟩⟩,⟨256,.other,false,some ⟨30,[.setEnt .internalNl,.cb],none,false⟩⟩]⟩,⟨[5,17,22],none,[],[⟨256,.other,false,some ⟨22,[.comment],none,false⟩⟩,⟨256,.ws,false,some ⟨23,[],none,false⟩⟩,⟨256,.lf,false,some ⟨31,[],none,false⟩⟩,⟨256,.vt,false,some ⟨25,[],none,false⟩⟩,⟨256,.ff,false,some ⟨26,[],none,false⟩⟩,⟨256,.cr,false,some ⟨27,[],none,false⟩⟩,⟨256,.cr,true,some ⟨28,[],none,false⟩⟩,⟨256,.other,false,some ⟨29,[],none,false⟩⟩,⟨256,.other,false,some ⟨30,[],none,false⟩⟩]⟩,⟨[5,9,17,22],none,[],[⟨256,.other,false,some ⟨22,[.setEnt .internalNl,.cb,.comment],none,false⟩⟩,⟨256,.ws,false,some ⟨23,[.setEnt .internalNl,.cb],none,false⟩⟩,⟨256,.lf,false,some ⟨31,[.setEnt .internalNl,.cb],none,false⟩⟩,⟨256,.vt,false,some ⟨25,[],none,false⟩⟩,⟨256,.ff,false,some ⟨26,[.setEnt .internalNl,.cb],none,false⟩⟩,⟨256,.cr,false,some ⟨27,[.setEnt .internalNl,.cb],none,false⟩⟩,⟨256,.cr,true,some ⟨28,[.setEnt .internalNl,.cb],none,false⟩⟩,⟨256,.other,false,some ⟨29,[.setEnt .internalNl,.cb],none,false⟩⟩,⟨256,.other,false,some ⟨30,[.setEnt .internalNl,.cb],none,false⟩⟩]⟩,⟨[17,22,26],none,[],[⟨256,.other,false,some ⟨22,[.comment],none,false⟩⟩,⟨256,.ws,false,some ⟨23,[],none,false⟩⟩,⟨256,.lf,false,some ⟨24,[],none,false⟩⟩,⟨256,.vt,false,some ⟨25,[],none,false⟩⟩,⟨256,.ff,false,some ⟨26,[],none,false⟩⟩,⟨256,.cr,false,some ⟨27,[],none,false⟩⟩,⟨256,.cr,true,some ⟨28,[],none,false⟩⟩,⟨256,.other,false,some ⟨32,[],none,false⟩⟩,⟨256,.other,false,some ⟨30,[],none,false⟩⟩]⟩,⟨[0,12,17,22],none,[],[⟨256,.other,false,some ⟨33,[.comment],none,false⟩⟩,⟨256,.ws,false,some ⟨34,[],none,false⟩⟩,⟨256,.lf,false,some ⟨35,[],none,false⟩⟩,⟨256,.vt,false,some ⟨36,[],none,false⟩⟩,⟨256,.ff,false,some ⟨37,[],none,false⟩⟩,⟨256,.cr,false,some ⟨38,[],none,false⟩⟩,⟨256,.cr,true,some ⟨39,[],none,false⟩⟩,⟨256,.other,false,some ⟨40,[],none,false⟩⟩,⟨256,.other,false,some ⟨41,[],none,false⟩⟩,⟨256,.other,false,some ⟨42,[.comment],none,false⟩⟩]⟩,⟨[3,11,18,22,25],none,[],[⟨256,.other,false,some ⟨93,[.comment],none,false⟩⟩,⟨256,.ws,false,some ⟨94,[],none,false⟩⟩,⟨256,.lf,false,some ⟨95,[],none,false⟩⟩,⟨256,.vt,false,some ⟨96,[],none,false⟩⟩,⟨256,.ff,false,some ⟨97,[],none,false⟩⟩,⟨256,.cr,false,some ⟨98,[],none,false⟩⟩,⟨256,.cr,true,some ⟨99,[],none,false⟩⟩,⟨256,.other,false,some ⟨100,[],none,false⟩⟩,⟨256,.other,false,some ⟨101,[],none,false⟩⟩,⟨256,.other,false,some ⟨102,[.emb (.sawCall 3 5),.comment],none,false⟩⟩]⟩,⟨[11,19],none,[],[⟨256,.other,false,some ⟨22,[.comment],none,false⟩⟩,⟨256,.ws,false,some ⟨23,[],none,false⟩⟩,⟨256,.lf,false,some ⟨24,[],none,false⟩⟩,⟨256,.vt,false,some ⟨25,[],none,false⟩⟩,⟨256,.ff,false,some ⟨26,[],none,false⟩⟩,⟨256,.cr,false,some ⟨27,[],none,false⟩⟩,⟨256,.cr,true,some ⟨28,[],none,false⟩⟩,⟨256,.other,false,some ⟨29,[],none,false⟩⟩,⟨256,.other,false,some ⟨30,[],none,false⟩⟩]⟩,⟨[10,19],none,[],[⟨256,.other,false,some ⟨22,[.comment],none,false⟩⟩,⟨256,.ws,false,some ⟨23,[],none,false⟩⟩,⟨256,.lf,false,some ⟨24,[],none,false⟩⟩,⟨256,.vt,false,some ⟨25,[],none,false⟩⟩,⟨256,.ff,false,some ⟨26,[],none,false⟩⟩,⟨256,.cr,false,some ⟨27,[],none,false⟩⟩,⟨256,.cr,true,some ⟨28,[],none,false⟩⟩,⟨256,.other,false,some ⟨29,[],none,false⟩⟩,⟨256,.other,false,some ⟨30,[],none,false⟩⟩]⟩,⟨[7,19],none,[],[⟨256,.other,false,some ⟨22,[.setEnt .internalNl,.cb,.comment],none,false⟩⟩,⟨256,.ws,false,some ⟨23,[.setEnt .internalNl,.cb],none,false⟩⟩,⟨256,.lf,false,some ⟨24,[.setEnt .internalNl,.cb],none,false⟩⟩,⟨256,.vt,false,some ⟨25,[],none,false⟩⟩,⟨256,.ff,false,some ⟨26,[.setEnt .internalNl,.cb],none,false⟩⟩,⟨256,.cr,false,some ⟨27,[.setEnt .internalNl,.cb],none,false⟩⟩,⟨256,.cr,true,some ⟨28,[.setEnt .internalNl,.cb],none,false⟩⟩,⟨256,.other,false,some ⟨29,[.setEnt .internalNl,.cb],none,false⟩⟩,⟨256,.other,false,some ⟨30,[.setEnt .internalNl,.cb],none,false⟩⟩]⟩,⟨[19],none,[],[⟨256,.other,false,some ⟨22,[.comment],none,false⟩⟩,⟨256,.ws,false,some ⟨23,[],none,false⟩⟩,⟨256,.lf,false,some ⟨24,[],none,false⟩⟩,⟨256,.vt,false,some ⟨25,[],none,false⟩⟩,⟨256,.ff,false,some ⟨26,[],none,false⟩⟩,⟨256,.cr,false,some ⟨27,[],none,false⟩⟩,⟨256,.cr,true,some ⟨28,[],none,false⟩⟩,⟨256,.other,false,some ⟨29,[],none,false⟩⟩,⟨256,.other,false,some ⟨30,[],none,false⟩⟩]⟩,⟨[8,19],none,[],[⟨256,.other,false,some ⟨22,[.setEnt .internalNl,.cb,.comment],none,false⟩⟩,⟨256,.ws,false,some ⟨23,[.setEnt .internalNl,.cb],none,false⟩⟩,⟨256,.lf,false,some ⟨24,[.setEnt .internalNl,.cb],none,false⟩⟩,⟨256,.vt,false,some ⟨25,[],none,false⟩⟩,⟨256,.ff,false,some ⟨26,[.setEnt .internalNl,.cb],none,false⟩⟩,⟨256,.cr,false,some ⟨27,[.setEnt .internalNl,.cb],none,false⟩⟩,⟨256,.cr,true,some ⟨28,[.setEnt .internalNl,.cb],none,false⟩⟩,⟨256,.other,false,some ⟨29,[.setEnt .internalNl,.cb],none,false⟩⟩,⟨256,.other,false,some ⟨30,[.setEnt .internalNl,.cb],none,false⟩⟩]⟩,⟨[5,19],none,[],[⟨256,.other,false,some ⟨22,[.comment],none,false⟩⟩,⟨256,.ws,false,some ⟨23,[],none,false⟩⟩,⟨256,.lf,false,some ⟨31,[],none,false⟩⟩,⟨256,.vt,false,some ⟨25,[],none,false⟩⟩,⟨256,.ff,false,some ⟨26,[],none,false⟩⟩,⟨256,.cr,false,some ⟨27,[],none,false⟩⟩,⟨256,.cr,true,some ⟨28,[],none,false⟩⟩,⟨256,.other,false,some ⟨29,[],none,false⟩⟩,⟨256,.other,false,some ⟨30,[],none,false⟩⟩]⟩,⟨[5,9,19],none,[],[⟨256,.other,false,some ⟨22,[.setEnt .internalNl,.cb,.comment],none,false⟩⟩,⟨256,.ws,false,some ⟨23,[.setEnt .internalNl,.cb],none,false⟩⟩,⟨256,.lf,false,some ⟨31,[.setEnt .internalNl,.cb],none,false⟩⟩,⟨256,.vt,false,some ⟨25,[],none,false⟩⟩,⟨256,.ff,false,some ⟨26,[.setEnt .internalNl,.cb],none,false⟩⟩,⟨256,.cr,false,some ⟨27,[.setEnt .internalNl,.cb],none,false⟩⟩,⟨256,.cr,true,some ⟨28,[.setEnt .internalNl,.cb],none,false⟩⟩,⟨256,.other,false,some ⟨29,[.setEnt .internalNl,.cb],none,false⟩⟩,⟨256,.other,false,some ⟨30,[.setEnt .internalNl,.cb],none,false⟩⟩]⟩,⟨[19,26],none,[],[⟨256,.other,false,some ⟨22,[.comment],none,false⟩⟩,⟨256,.ws,false,some ⟨23,[],none,false⟩⟩,⟨256,.lf,false,some ⟨24,[],none,false⟩⟩,⟨256,.vt,false,some ⟨25,[],none,false⟩⟩,⟨256,.ff,false,some ⟨26,[],none,false⟩⟩,⟨256,.cr,false,some ⟨27,[],none,false⟩⟩,⟨256,.cr,true,some ⟨28,[],none,false⟩⟩,⟨256,.other,false,some ⟨32,[],none,false⟩⟩,⟨256,.other,false,some ⟨30,[],none,false⟩⟩]⟩,⟨[0,12,19],none,[],[⟨256,.other,false,some ⟨33,[.comment],none,false⟩⟩,⟨256,.ws,false,some ⟨34,[],none,false⟩⟩,⟨256,.lf,false,some ⟨35,[],none,false⟩⟩,⟨256,.vt,false,some ⟨36,[],none,false⟩⟩,⟨256,.ff,false,some ⟨37,[],none,false⟩⟩,⟨256,.cr,false,some ⟨38,[],none,false⟩⟩,⟨256,.cr,true,some ⟨39,[],none,false⟩⟩,⟨256,.other,false,some ⟨40,[],none,false⟩⟩,⟨256,.other,false,some ⟨41,[],none,false⟩⟩,⟨256,.other,false,some ⟨42,[.comment],none,false⟩⟩]⟩,⟨[4,11,20],none,[],[⟨256,.other,false,some ⟨103,[.comment],none,false⟩⟩,⟨256,.ws,false,some ⟨104,[],none,false⟩⟩,⟨256,.lf,false,some ⟨105,[],none,false⟩⟩,⟨256,.vt,false,some ⟨106,[],none,false⟩⟩,⟨256,.ff,false,some ⟨107,[],none,false⟩⟩,⟨256,.cr,false,some ⟨108,[],none,false⟩⟩,⟨256,.cr,true,some ⟨109,[],none,false⟩⟩,⟨256,.other,false,some ⟨110,[],none,false⟩⟩,⟨256,.other,false,some ⟨111,[],none,false⟩⟩]⟩,⟨[11,19,22],none,[],[⟨256,.other,false,some ⟨22,[.comment],none,false⟩⟩,⟨256,.ws,false,some ⟨23,[],none,false⟩⟩,⟨256,.lf,false,some ⟨24,[],none,false⟩⟩,⟨256,.vt,false,some ⟨25,[],none,false⟩⟩,⟨256,.ff,false,some ⟨26,[],none,false⟩⟩,⟨256,.cr,false,some ⟨27,[],none,false⟩⟩,⟨256,.cr,true,some ⟨28,[],none,false⟩⟩,⟨256,.other,false,some ⟨29,[],none,false⟩⟩,⟨256,.other,false,some ⟨30,[],none,false⟩⟩]⟩,⟨[10,19,22],none,[],[⟨256,.other,false,some ⟨22,[.comment],none,false⟩⟩,⟨256,.ws,false,some ⟨23,[],none,false⟩⟩,⟨256,.lf,false,some ⟨24,[],none,false⟩⟩,⟨256,.vt,false,some ⟨25,[],none,false⟩⟩,⟨256,.ff,false,some ⟨26,[],none,false⟩⟩,⟨256,.cr,false,some ⟨27,[],none,false⟩⟩,⟨256,.cr,true,some ⟨28,[],none,false⟩⟩,⟨256,.other,false,some ⟨29,[],none,false⟩⟩,⟨256,.other,false,some ⟨30,[],none,false⟩⟩]⟩,⟨[7,19,22],none,[],[⟨256,.other,false,some ⟨22,[.setEnt .internalNl,.cb,.comment],none,false⟩⟩,⟨256,.ws,false,some ⟨23,[.setEnt .internalNl,.cb],none,false⟩⟩,⟨256,.lf,false,some ⟨24,[.setEnt .internalNl,.cb],none,false⟩⟩,⟨256,.vt,false,some ⟨25,[],none,false⟩⟩,⟨256,.ff,false,some ⟨26,[.setEnt .internalNl,.cb],none,false⟩⟩,⟨256,.cr,false,some ⟨27,[.setEnt .internalNl,.cb],none,false⟩⟩,⟨256,.cr,true,some ⟨28,[.setEnt .internalNl,.cb],none,false⟩⟩,⟨256,.other,false,some ⟨29,[.setEnt .internalNl,.cb],none,false⟩⟩,⟨256,.other,false,some ⟨30,[.setEnt .internalNl,.cb],none,false⟩⟩]⟩,⟨[19,22],none,[],[⟨256,.other,false,some ⟨22,[.comment],none,false⟩⟩,⟨256,.ws,false,some ⟨23,[],none,false⟩⟩,⟨256,.lf,false,some ⟨24,[],none,false⟩⟩,⟨256,.vt,false,some ⟨25,[],none,false⟩⟩,⟨256,.ff,false,some ⟨26,[],none,false⟩⟩,⟨256,.cr,false,some ⟨27,[],none,false⟩⟩,⟨256,.cr,true,some ⟨28,[],none,false⟩⟩,⟨256,.other,false,some ⟨29,[],none,false⟩⟩,⟨256,.other,false,some ⟨30,[],none,false⟩⟩]⟩,⟨[8,19,22],none,[],[⟨256,.other,false,some ⟨22,[.setEnt .internalNl,.cb,.comment],none,false⟩⟩,⟨256,.ws,false,some ⟨23,[.setEnt .internalNl,.cb],none,false⟩⟩,⟨256,.lf,false,some ⟨24,[.setEnt .internalNl,.cb],none,false⟩⟩,⟨256,.vt,false,some ⟨25,[],none,false⟩⟩,⟨256,.ff,false,some ⟨26,[.setEnt .internalNl,.cb],none,false⟩⟩,⟨256,.cr,false,some ⟨27,[.setEnt .internalNl,.cb],none,false⟩⟩,⟨256,.cr,true,some ⟨28,[.setEnt .internalNl,.cb],none,false⟩⟩,⟨256,.other,false,some ⟨29,[.setEnt .internalNl,.cb],none,false⟩⟩,⟨256,.other,false,some ⟨30,[.setEnt .internalNl,.cb],none,false⟩⟩]⟩,⟨[5,19,22],none,[],[⟨256,.other,false,some ⟨22,[.comment],none,false⟩⟩,⟨256,.ws,false,some ⟨23,[],none,false⟩⟩,⟨256,.lf,false,some ⟨31,[],none,false⟩⟩,⟨256,.vt,false,some ⟨25,[],none,false⟩⟩,⟨256,.ff,false,some ⟨26,[],none,false⟩⟩,⟨256,.cr,false,some ⟨27,[],none,false⟩⟩,⟨256,.cr,true,some ⟨28,[],none,false⟩⟩,⟨256,.other,false,some ⟨29,[],none,false⟩⟩,⟨256,.other,false,some ⟨30,[],none,false⟩⟩]⟩,⟨[5,9,19,22],none,[],[⟨256,.other,false,some ⟨22,[.setEnt .internalNl,.cb,.comment],none,false⟩⟩,⟨256,.ws,false,some ⟨23,[.setEnt .internalNl,.cb],none,false⟩⟩,⟨256,.lf,false,some ⟨31,[.setEnt .internalNl,.cb],none,false⟩⟩,⟨256,.vt,false,some ⟨25,[],none,false⟩⟩,⟨256,.ff,false,some ⟨26,[.setEnt .internalNl,.cb],none,false⟩⟩,⟨256,.cr,false,some ⟨27,[.setEnt .internalNl,.cb],none,false⟩⟩,⟨256,.cr,true,some ⟨28,[.setEnt .internalNl,.cb],none,false⟩⟩,⟨256,.other,false,some ⟨29,[.setEnt .internalNl,.cb],none,false⟩⟩,⟨256,.other,false,some ⟨30,[.setEnt .internalNl,.cb],none,false⟩⟩]⟩,⟨[19,22,26],none,[],[⟨256,.other,false,some ⟨22,[.comment],none,false⟩⟩,⟨256,.ws,false,some ⟨23,[],none,false⟩⟩,⟨256,.lf,false,some ⟨24,[],none,false⟩⟩,⟨256,.vt,false,some ⟨25,[],none,false⟩⟩,⟨256,.ff,false,some ⟨26,[],none,false⟩⟩,⟨256,.cr,false,some ⟨27,[],none,false⟩⟩,⟨256,.cr,true,some ⟨28,[],none,false⟩⟩,⟨256,.other,false,some ⟨32,[],none,false⟩⟩,⟨256,.other,false,some ⟨30,[],none,false⟩⟩]⟩,⟨[0,12,19,22],none,[],[⟨256,.other,false,some ⟨33,[.comment],none,false⟩⟩,⟨256,.ws,false,some ⟨34,[],none,false⟩⟩,⟨256,.lf,false,some ⟨35,[],none,false⟩⟩,⟨256,.vt,false,some ⟨36,[],none,false⟩⟩,⟨256,.ff,false,some ⟨37,[],none,false⟩⟩,⟨256,.cr,false,some ⟨38,[],none,false⟩⟩,⟨256,.cr,true,some ⟨39,[],none,false⟩⟩,⟨256,.other,false,some ⟨40,[],none,false⟩⟩,⟨256,.other,false,some ⟨41,[],none,false⟩⟩,⟨256,.other,false,some ⟨42,[.comment],none,false⟩⟩]⟩,⟨[4,11,20,22],none,[],[⟨256,.other,false,some ⟨112,[.comment],none,false⟩⟩,⟨256,.ws,false,some ⟨113,[],none,false⟩⟩,⟨256,.lf,false,some ⟨114,[],none,false⟩⟩,⟨256,.vt,false,some ⟨115,[],none,false⟩⟩,⟨256,.ff,false,some ⟨116,[],none,false⟩⟩,⟨256,.cr,false,some ⟨117,[],none,false⟩⟩,⟨256,.cr,true,some ⟨118,[],none,false⟩⟩,⟨256,.other,false,some ⟨119,[],none,false⟩⟩,⟨256,.other,false,some ⟨120,[],none,false⟩⟩]⟩,⟨[11,21],none,[],[⟨256,.other,false,some ⟨22,[.comment],none,false⟩⟩,⟨256,.ws,false,some ⟨23,[],none,false⟩⟩,⟨256,.lf,false,some ⟨24,[],none,false⟩⟩,⟨256,.vt,false,some ⟨25,[],none,false⟩⟩,⟨256,.ff,false,some ⟨26,[],none,false⟩⟩,⟨256,.cr,false,some ⟨27,[],none,false⟩⟩,⟨256,.cr,true,some ⟨28,[],none,false⟩⟩,⟨256,.other,false,some ⟨29,[],none,false⟩⟩,⟨256,.other,false,some ⟨30,[],none,false⟩⟩]⟩,⟨[10,21],none,[],[⟨256,.other,false,some ⟨22,[.comment],none,false⟩⟩,⟨256,.ws,false,some ⟨23,[],none,false⟩⟩,⟨256,.lf,false,some ⟨24,[],none,false⟩⟩,⟨256,.vt,false,some ⟨25,[],none,false⟩⟩,⟨256,.ff,false,some ⟨26,[],none,false⟩⟩,⟨256,.cr,false,some ⟨27,[],none,false⟩⟩,⟨256,.cr,true,some ⟨28,[],none,false⟩⟩,⟨256,.other,false,some ⟨29,[],none,false⟩⟩,⟨256,.other,false,some ⟨30,[],none,false⟩⟩]⟩,⟨[7,21],none,[],[⟨256,.other,false,some ⟨22,[.setEnt .internalNl,.cb,.comment],none,false⟩⟩,⟨256,.ws,false,some ⟨23,[.setEnt .internalNl,.cb],none,false⟩⟩,⟨256,.lf,false,some ⟨24,[.setEnt .internalNl,.cb],none,false⟩⟩,⟨256,.vt,false,some ⟨25,[],none,false⟩⟩,⟨256,.ff,false,some ⟨26,[.setEnt .internalNl,.cb],none,false⟩⟩,⟨256,.cr,false,some ⟨27,[.setEnt .internalNl,.cb],none,false⟩⟩,⟨256,.cr,true,some ⟨28,[.setEnt .internalNl,.cb],none,false⟩⟩,⟨256,.other,false,some ⟨29,[.setEnt .internalNl,.cb],none,false⟩⟩,⟨256,.other,false,some ⟨30,[.setEnt .internalNl,.cb],none,false⟩⟩]⟩,⟨[21],none,[],[⟨256,.other,false,some ⟨22,[.comment],none,false⟩⟩,⟨256,.ws,false,some ⟨23,[],none,false⟩⟩,⟨256,.lf,false,some ⟨24,[],none,false⟩⟩,⟨256,.vt,false,some ⟨25,[],none,false⟩⟩,⟨256,.ff,false,some ⟨26,[],none,false⟩⟩,⟨256,.cr,false,some ⟨27,[],none,false⟩⟩,⟨256,.cr,true,some ⟨28,[],none,false⟩⟩,⟨256,.other,false,some ⟨29,[],none,false⟩⟩,⟨256,.other,false,some ⟨30,[],none,false⟩⟩]⟩,⟨[8,21],none,[],[⟨256,.other,false,some ⟨22,[.setEnt .internalNl,.cb,.comment],none,false⟩⟩,⟨256,.ws,false,some ⟨23,[.setEnt .internalNl,.cb],none,false⟩⟩,⟨256,.lf,false,some ⟨24,[.setEnt .internalNl,.cb],none,false⟩⟩,⟨256,.vt,false,some ⟨25,[],none,false⟩⟩,⟨256,.ff,false,some ⟨26,[.setEnt .internalNl,.cb],none,false⟩⟩,⟨256,.cr,false,some ⟨27,[.setEnt .internalNl,.cb],none,false⟩⟩,⟨256,.cr,true,some ⟨28,[.setEnt .internalNl,.cb],none,false⟩⟩,⟨256,.other,false,some ⟨29,[.setEnt .internalNl,.cb],none,false⟩⟩,⟨256,.other,false,some ⟨30,[.setEnt .internalNl,.cb],none,false⟩⟩]⟩,⟨[5,21],none,[],[⟨256,.other,false,some ⟨22,[.comment],none,false⟩⟩,⟨256,.ws,false,some ⟨23,[],none,false⟩⟩,⟨256,.lf,false,some ⟨31,[],none,false⟩⟩,⟨256,.vt,false,some ⟨25,[],none,false⟩⟩,⟨256,.ff,false,some ⟨26,[],none,false⟩⟩,⟨256,.cr,false,some ⟨27,[],none,false⟩⟩,⟨256,.cr,true,some ⟨28,[],none,false⟩⟩,⟨256,.other,false,some ⟨29,[],none,false⟩⟩,⟨256,.other,false,some ⟨30,[],none,false⟩⟩]⟩,⟨[5,9,21],none,[],[⟨256,.other,false,some ⟨22,[.setEnt .internalNl,.cb,.comment],none,false⟩⟩,⟨256,.ws,false,some ⟨23,[.setEnt .internalNl,.cb],none,false⟩⟩,⟨256,.lf,false,some ⟨31,[.setEnt .internalNl,.cb],none,false⟩⟩,⟨256,.vt,false,some ⟨25,[],none,false⟩⟩,⟨256,.ff,false,some ⟨26,[.setEnt .internalNl,.cb],none,false⟩⟩,⟨256,.cr,false,some ⟨27,[.setEnt .internalNl,.cb],none,false⟩⟩,⟨256,.cr,true,some ⟨28,[.setEnt .internalNl,.cb],none,false⟩⟩,⟨256,.other,false,some ⟨29,[.setEnt .internalNl,.cb],none,false⟩⟩,⟨256,.other,false,some ⟨30,[.setEnt .internalNl,.cb],none,false⟩⟩]⟩,⟨[21,26],none,[],[⟨256,.other,false,some ⟨22,[.comment],none,false⟩⟩,⟨256,.ws,false,some ⟨23,[],none,false⟩⟩,⟨256,.lf,false,some ⟨24,[],none,false⟩⟩,⟨256,.vt,false,some ⟨25,[],none,false⟩⟩,⟨256,.ff,false,some ⟨26,[],none,false⟩⟩,⟨256,.cr,false,some ⟨27,[],none,false⟩⟩,⟨256,.cr,true,some ⟨28,[],none,false⟩⟩,⟨256,.other,false,some ⟨32,[],none,false⟩⟩,⟨256,.other,false,some ⟨30,[],none,false⟩⟩]⟩,⟨[0,12,21],none,[],[⟨256,.other,false,some ⟨33,[.comment],none,false⟩⟩,⟨256,.ws,false,some ⟨34,[],none,false⟩⟩,⟨256,.lf,false,some ⟨35,[],none,false⟩⟩,⟨256,.vt,false,some ⟨36,[],none,false⟩⟩,⟨256,.ff,false,some ⟨37,[],none,false⟩⟩,⟨256,.cr,false,some ⟨38,[],none,false⟩⟩,⟨256,.cr,true,some ⟨39,[],none,false⟩⟩,⟨256,.other,false,some ⟨40,[],none,false⟩⟩,⟨256,.other,false,some ⟨41,[],none,false⟩⟩,⟨256,.other,false,some ⟨42,[.comment],none,false⟩⟩]⟩,⟨[11,21,22],none,[],[⟨256,.other,false,some ⟨22,[.comment],none,false⟩⟩,⟨256,.ws,false,some ⟨23,[],none,false⟩⟩,⟨256,.lf,false,some ⟨24,[],none,false⟩⟩,⟨256,.vt,false,some ⟨25,[],none,false⟩⟩,⟨256,.ff,false,some ⟨26,[],none,false⟩⟩,⟨256,.cr,false,some ⟨27,[],none,false⟩⟩,⟨256,.cr,true,some ⟨28,[],none,false⟩⟩,⟨256,.other,false,some ⟨29,[],none,false⟩⟩,⟨256,.other,false,some ⟨30,[],none,false⟩⟩]⟩,⟨[10,21,22],none,[],[⟨256,.other,false,some ⟨22,[.comment],none,false⟩⟩,⟨256,.ws,false,some ⟨23,[],none,false⟩⟩,⟨256,.lf,false,some ⟨24,[],none,false⟩⟩,⟨256,.vt,false,some ⟨25,[],none,false⟩⟩,⟨256,.ff,false,some ⟨26,[],none,false⟩⟩,⟨256,.cr,false,some ⟨27,[],none,false⟩⟩,⟨256,.cr,true,some ⟨28,[],none,false⟩⟩,⟨256,.other,false,some ⟨29,[],none,false⟩⟩,⟨256,.other,false,some ⟨30,[],none,false⟩⟩]⟩,⟨[7,21,22],none,[],[⟨256,.other,false,some ⟨22,[.setEnt .internalNl,.cb,.comment],none,false⟩⟩,⟨256,.ws,false,some ⟨23,[.setEnt .internalNl,.cb],none,false⟩⟩,⟨256,.lf,false,some ⟨24,[.setEnt .internalNl,.cb],none,false⟩⟩,⟨256,.vt,false,some ⟨25,[],none,false⟩⟩,⟨256,.ff,false,some ⟨26,[.setEnt .internalNl,.cb],none,false⟩⟩,⟨256,.cr,false,some ⟨27,[.setEnt .internalNl,.cb],none,false⟩⟩,⟨256,.cr,true,some ⟨28,[.setEnt .internalNl,.cb],none,false⟩⟩,⟨256,.other,false,some ⟨29,[.setEnt .internalNl,.cb],none,false⟩⟩,⟨256,.other,false,some ⟨30,[.setEnt .internalNl,.cb],none,false⟩⟩]⟩,⟨[21,22],none,[],[⟨256,.other,false,some ⟨22,[.comment],none,false⟩⟩,⟨256,.ws,false,some ⟨23,[],none,false⟩⟩,⟨256,.lf,false,some ⟨24,[],none,false⟩⟩,⟨256,.vt,false,some ⟨25,[],none,false⟩⟩,⟨256,.ff,false,some ⟨26,[],none,false⟩⟩,⟨256,.cr,false,some ⟨27,[],none,false⟩⟩,⟨256,.cr,true,some ⟨28,[],none,false⟩⟩,⟨256,.other,false,some ⟨29,[],none,false⟩⟩,⟨256,.other,false,some ⟨30,[],none,false⟩⟩]⟩,⟨[8,21,22],none,[],[⟨256,.other,false,some ⟨22,[.setEnt .internalNl,.cb,.comment],none,false⟩⟩,⟨256,.ws,false,some ⟨23,[.setEnt .internalNl,.cb],none,false⟩⟩,⟨256,.lf,false,some ⟨24,[.setEnt .internalNl,.cb],none,false⟩⟩,⟨256,.vt,false,some ⟨25,[],none,false⟩⟩,⟨256,.ff,false,some ⟨26,[.setEnt .internalNl,.cb],none,false⟩⟩,⟨256,.cr,false,some ⟨27,[.setEnt .internalNl,.cb],none,false⟩⟩,⟨256,.cr,true,some ⟨28,[.setEnt .internalNl,.cb],none,false⟩⟩,⟨256,.other,false,some ⟨29,[.setEnt .internalNl,.cb],none,false⟩⟩,⟨256,.other,false,some ⟨30,[.setEnt .internalNl,.cb],none,false⟩⟩]⟩,⟨[5,21,22],none,[],[⟨256,.other,false,some ⟨22,[.comment],none,false⟩⟩,⟨256,.ws,false,some ⟨23,[],none,false⟩⟩,⟨256,.lf,false,some ⟨31,[],none,false⟩⟩,⟨256,.vt,false,some ⟨25,[],none,false⟩⟩,⟨256,.ff,false,some ⟨26,[],none,false⟩⟩,⟨256,.cr,false,some ⟨27,[],none,false⟩⟩,⟨256,.cr,true,some ⟨28,[],none,false⟩⟩,⟨256,.other,false,some ⟨29,[],none,false⟩⟩,⟨256,.other,false,some ⟨30,[],none,false⟩⟩]⟩,⟨[5,9,21,22],none,[],[⟨256,.other,false,some ⟨22,[.setEnt .internalNl,.cb,.comment],none,false⟩⟩,⟨256,.ws,false,some ⟨23,[.setEnt .internalNl,.cb],none,false⟩⟩,⟨256,.lf,false,some ⟨31,[.setEnt .internalNl,.cb],none,false⟩⟩,⟨256,.vt,false,some ⟨25,[],none,false⟩⟩,⟨256,.ff,false,some ⟨26,[.setEnt .internalNl,.cb],none,false⟩⟩,⟨256,.cr,false,some ⟨27,[.setEnt .internalNl,.cb],none,false⟩⟩,⟨256,.cr,true,some ⟨28,[.setEnt .internalNl,.cb],none,false⟩⟩,⟨256,.other,false,some ⟨29,[.setEnt .internalNl,.cb],none,false⟩⟩,⟨256,.other,false,some ⟨30,[.setEnt .internalNl,.cb],none,false⟩⟩]⟩,⟨[21,22,26],none,[],[⟨256,.other,false,some ⟨22,[.comment],none,false⟩⟩,⟨256,.ws,false,some ⟨23,[],none,false⟩⟩,⟨256,.lf,false,some ⟨24,[],none,false⟩⟩,⟨256,.vt,false,some ⟨25,[],none,false⟩⟩,⟨256,.ff,false,some ⟨26,[],none,false⟩⟩,⟨256,.cr,false,some ⟨27,[],none,false⟩⟩,⟨256,.cr,true,some ⟨28,[],none,false⟩⟩,⟨256,.other,false,some ⟨32,[],none,false⟩⟩,⟨256,.other,false,some ⟨30,[],none,false⟩⟩]⟩,⟨[0,12,21,22],none,[],[⟨256,.other,false,some ⟨33,[.comment],none,false⟩⟩,⟨256,.ws,false,some ⟨34,[],none,false⟩⟩,⟨256,.lf,false,some ⟨35,[],none,false⟩⟩,⟨256,.vt,false,some ⟨36,[],none,false⟩⟩,⟨256,.ff,false,some ⟨37,[],none,false⟩⟩,⟨256,.cr,false,some ⟨38,[],none,false⟩⟩,⟨256,.cr,true,some ⟨39,[],none,false⟩⟩,⟨256,.other,false,some ⟨40,[],none,false⟩⟩,⟨256,.other,false,some ⟨41,[],none,false⟩⟩,⟨256,.other,false,some ⟨42,[.comment],none,false⟩⟩]⟩]
theorem emb32_rowsOk : rowsOk emb32_nfa [] (emb32_cs.map (·.1)) emb32_rows = true := by decide +kernel
def emb32_D : Dfa emb32_nfa := ⟨emb32_masks, [], emb32_cs, emb32_rows, emb32_masksIn, emb32_repOk, emb32_rowsOk⟩

/-- The automaton of `Emb.Phphtml.phtml_php_entity`. -/
def emb37_nfa : Nfa := ⟨[⟨0,9223372036854775808,[],[],0,0⟩,⟨2,4294983168,[],[(1,.setEnt (.own 0))],0,0⟩,⟨3,34359738368,[],[(2,.setEnt (.own 1))],0,0⟩,⟨4,140737488355328,[],[(2,.setEnt (.own 1))],0,0⟩,⟨7,140737488355328,[],[(2,.setEnt (.own 1))],0,2⟩,⟨12,115792089237316195423570985008687907853269984665640564039457584007908834656767,[],[],0,0⟩],[[⟨1,4611686018427387904,[],[(0,.emb .ret)],0,0⟩],[],[⟨2,4294983168,[],[(1,.setEnt (.own 0))],0,0⟩],[⟨6,115792089237316195423570985008687907853269984665640564039457584007913129626623,[],[(2,.setEnt (.own 1))],0,0⟩],[⟨5,140737488355328,[],[(2,.setEnt (.own 1))],0,0⟩],[⟨6,115792089237316195423570985008687907853269984665640564039457584007913129626623,[],[(2,.setEnt (.own 1))],0,0⟩],[⟨6,115792089237316195423570985008687907853269984665640564039457584007913129626623,[],[(2,.setEnt (.own 1))],0,0⟩],[⟨8,4398046511104,[],[(2,.setEnt (.own 1))],0,2⟩],[⟨9,115792089237316195423570985008687907853269984665640564039457584007913129639935,[],[(2,.setEnt (.own 1))],0,2⟩,⟨10,4398046511104,[],[(2,.setEnt (.own 1))],0,2⟩],[⟨9,115792089237316195423570985008687907853269984665640564039457584007913129639935,[],[(2,.setEnt (.own 1))],0,2⟩,⟨10,4398046511104,[],[(2,.setEnt (.own 1))],0,2⟩],[⟨11,140737488355328,[],[(2,.setEnt (.own 1))],2,0⟩],[],[]],[none,some (0,[]),some (1,[]),some (2,[]),none,some (2,[]),some (2,[]),none,none,none,none,some (2,[]),some (3,[])],[1,2,3,3]⟩
def emb37_masks : List Nat := [9223372036854775808,4294983168,34359738368,140737488355328,115792089237316195423570985008687907853269984665640564039457584007908834656767,4611686018427387904,115792089237316195423570985008687907853269984665640564039457584007913129626623,4398046511104,115792089237316195423570985008687907853269984665640564039457584007913129639935]
def emb37_cs : List (Nat × Nat) := [(0,115792089237316195423570985008687907853269984665640564039443748804683657888255),(9,4294967808),(10,1024),(11,2048),(12,4096),(13,8192),(35,34359738368),(42,4398046511104),(47,140737488355328),(62,4611686018427387904),(63,9223372036854775808)]
theorem emb37_masksIn : masksIn emb37_nfa emb37_masks = true := by decide +kernel
theorem emb37_repOk : repOk emb37_masks emb37_cs = true := by decide +kernel
def emb37_rows : List Row := [⟨[],none,[],[⟨256,.other,false,some ⟨0,[],some 3,true⟩⟩,⟨256,.ws,false,some ⟨1,[.setEnt (.own 0)],some 1,false⟩⟩,⟨256,.lf,false,some ⟨1,[.setEnt (.own 0)],some 1,false⟩⟩,⟨256,.vt,false,some ⟨1,[.setEnt (.own 0)],some 1,false⟩⟩,⟨256,.ff,false,some ⟨1,[.setEnt (.own 0)],some 1,false⟩⟩,⟨256,.cr,false,some ⟨1,[.setEnt (.own 0)],some 1,false⟩⟩,⟨256,.cr,true,some ⟨1,[.setEnt (.own 0)],some 1,false⟩⟩,⟨256,.other,false,some ⟨2,[.setEnt (.own 1)],some 2,false⟩⟩,⟨256,.other,false,some ⟨3,[.setEnt (.own 1)],some 3,false⟩⟩,⟨256,.other,false,some ⟨4,[],some 3,false⟩⟩]⟩,⟨[2],some 1,[],[⟨256,.other,false,none⟩,⟨256,.ws,false,some ⟨1,[.setEnt (.own 0)],some 1,false⟩⟩,⟨256,.lf,false,some ⟨1,[.setEnt (.own 0)],some 1,false⟩⟩,⟨256,.vt,false,some ⟨1,[.setEnt (.own 0)],some 1,false⟩⟩,⟨256,.ff,false,some ⟨1,[.setEnt (.own 0)],some 1,false⟩⟩,⟨256,.cr,false,some ⟨1,[.setEnt (.own 0)],some 1,false⟩⟩,⟨256,.cr,true,some ⟨1,[.setEnt (.own 0)],some 1,false⟩⟩]⟩,⟨[3,12],some 2,[],[⟨256,.other,false,some ⟨5,[.setEnt (.own 1)],some 2,false⟩⟩,⟨256,.ws,false,some ⟨5,[.setEnt (.own 1)],some 2,false⟩⟩,⟨256,.lf,false,none⟩,⟨256,.vt,false,some ⟨5,[.setEnt (.own 1)],some 2,false⟩⟩,⟨256,.ff,false,none⟩,⟨256,.cr,false,none⟩,⟨256,.cr,true,none⟩]⟩,⟨[4,7,12],some 3,[],[⟨256,.other,false,none⟩,⟨256,.ws,false,none⟩,⟨256,.lf,false,none⟩,⟨256,.vt,false,none⟩,⟨256,.ff,false,none⟩,⟨256,.cr,false,none⟩,⟨256,.cr,true,none⟩,⟨256,.other,false,some ⟨6,[.setEnt (.own 1)],none,false⟩⟩,⟨256,.other,false,some ⟨7,[.setEnt (.own 1)],some 2,false⟩⟩]⟩,⟨[0,12],some 3,[],[⟨256,.other,false,none⟩,⟨256,.ws,false,none⟩,⟨256,.lf,false,none⟩,⟨256,.vt,false,none⟩,⟨256,.ff,false,none⟩,⟨256,.cr,false,none⟩,⟨256,.cr,true,none⟩,⟨256,.other,false,some ⟨0,[.emb .ret],some 0,true⟩⟩]⟩,⟨[6],some 2,[],[⟨256,.other,false,some ⟨5,[.setEnt (.own 1)],some 2,false⟩⟩,⟨256,.ws,false,some ⟨5,[.setEnt (.own 1)],some 2,false⟩⟩,⟨256,.lf,false,none⟩,⟨256,.vt,false,some ⟨5,[.setEnt (.own 1)],some 2,false⟩⟩,⟨256,.ff,false,none⟩,⟨256,.cr,false,none⟩,⟨256,.cr,true,none⟩]⟩,⟨[8],none,[],[⟨256,.other,false,some ⟨8,[.setEnt (.own 1)],none,false⟩⟩,⟨256,.ws,false,some ⟨8,[.setEnt (.own 1)],none,false⟩⟩,⟨256,.lf,false,some ⟨8,[.setEnt (.own 1)],none,false⟩⟩,⟨256,.vt,false,some ⟨8,[.setEnt (.own 1)],none,false⟩⟩,⟨256,.ff,false,some ⟨8,[.setEnt (.own 1)],none,false⟩⟩,⟨256,.cr,false,some ⟨8,[.setEnt (.own 1)],none,false⟩⟩,⟨256,.cr,true,some ⟨8,[.setEnt (.own 1)],none,false⟩⟩,⟨256,.other,false,some ⟨9,[.setEnt (.own 1)],none,false⟩⟩]⟩,⟨[5],some 2,[],[⟨256,.other,false,some ⟨5,[.setEnt (.own 1)],some 2,false⟩⟩,⟨256,.ws,false,some ⟨5,[.setEnt (.own 1)],some 2,false⟩⟩,⟨256,.lf,false,none⟩,⟨256,.vt,false,some ⟨5,[.setEnt (.own 1)],some 2,false⟩⟩,⟨256,.ff,false,none⟩,⟨256,.cr,false,none⟩,⟨256,.cr,true,none⟩]⟩,⟨[9],none,[],[⟨256,.other,false,some ⟨8,[.setEnt (.own 1)],none,false⟩⟩,⟨256,.ws,false,some ⟨8,[.setEnt (.own 1)],none,false⟩⟩,⟨256,.lf,false,some ⟨8,[.setEnt (.own 1)],none,false⟩⟩,⟨256,.vt,false,some ⟨8,[.setEnt (.own 1)],none,false⟩⟩,⟨256,.ff,false,some ⟨8,[.setEnt (.own 1)],none,false⟩⟩,⟨256,.cr,false,some ⟨8,[.setEnt (.own 1)],none,false⟩⟩,⟨256,.cr,true,some ⟨8,[.setEnt (.own 1)],none,false⟩⟩,⟨256,.other,false,some ⟨9,[.setEnt (.own 1)],none,false⟩⟩]⟩,⟨[9,10],none,[],[⟨256,.other,false,some ⟨8,[.setEnt (.own 1)],none,false⟩⟩,⟨256,.ws,false,some ⟨8,[.setEnt (.own 1)],none,false⟩⟩,⟨256,.lf,false,some ⟨8,[.setEnt (.own 1)],none,false⟩⟩,⟨256,.vt,false,some ⟨8,[.setEnt (.own 1)],none,false⟩⟩,⟨256,.ff,false,some ⟨8,[.setEnt (.own 1)],none,false⟩⟩,⟨256,.cr,false,some ⟨8,[.setEnt (.own 1)],none,false⟩⟩,⟨256,.cr,true,some ⟨8,[.setEnt (.own 1)],none,false⟩⟩,⟨256,.other,false,some ⟨9,[.setEnt (.own 1)],none,false⟩⟩,⟨256,.other,false,some ⟨0,[.setEnt (.own 1)],some 2,true⟩⟩]⟩]
theorem emb37_rowsOk : rowsOk emb37_nfa [] (emb37_cs.map (·.1)) emb37_rows = true := by decide +kernel
def emb37_D : Dfa emb37_nfa := ⟨emb37_masks, [], emb37_cs, emb37_rows, emb37_masksIn, emb37_repOk, emb37_rowsOk⟩
def emb37_maskst : List Nat := [9223372036854775808,4294983168,34359738368,140737488355328,115792089237316195423570985008687907853269984665640564039457584007908834656767,4611686018427387904,115792089237316195423570985008687907853269984665640564039457584007913129626623,4398046511104,115792089237316195423570985008687907853269984665640564039457584007913129639935,1152921504606846976]
def emb37_cst : List (Nat × Nat) := [(0,115792089237316195423570985008687907853269984665640564039442595883179051041279),(9,4294967808),(10,1024),(11,2048),(12,4096),(13,8192),(35,34359738368),(42,4398046511104),(47,140737488355328),(60,1152921504606846976),(62,4611686018427387904),(63,9223372036854775808)]
theorem emb37_masksInt : masksIn emb37_nfa emb37_maskst = true := by decide +kernel
theorem emb37_repOkt : repOk emb37_maskst emb37_cst = true := by decide +kernel
def emb37_rowst : List Row := [⟨[],none,[],[⟨256,.other,false,some ⟨0,[],some 3,true⟩⟩,⟨256,.ws,false,some ⟨1,[.setEnt (.own 0)],some 1,false⟩⟩,⟨256,.lf,false,some ⟨1,[.setEnt (.own 0)],some 1,false⟩⟩,⟨256,.vt,false,some ⟨1,[.setEnt (.own 0)],some 1,false⟩⟩,⟨256,.ff,false,some ⟨1,[.setEnt (.own 0)],some 1,false⟩⟩,⟨256,.cr,false,some ⟨1,[.setEnt (.own 0)],some 1,false⟩⟩,⟨256,.cr,true,some ⟨1,[.setEnt (.own 0)],some 1,false⟩⟩,⟨256,.other,false,some ⟨2,[.setEnt (.own 1)],some 2,false⟩⟩,⟨47,.other,false,some ⟨3,[.setEnt (.own 1)],some 3,false⟩⟩,⟨60,.other,false,some ⟨0,[],some 3,true⟩⟩,⟨62,.other,false,some ⟨0,[],some 3,true⟩⟩,⟨256,.other,false,some ⟨4,[],some 3,false⟩⟩]⟩,⟨[2],some 1,[],[⟨256,.other,false,none⟩,⟨256,.ws,false,some ⟨1,[.setEnt (.own 0)],some 1,false⟩⟩,⟨256,.lf,false,some ⟨1,[.setEnt (.own 0)],some 1,false⟩⟩,⟨256,.vt,false,some ⟨1,[.setEnt (.own 0)],some 1,false⟩⟩,⟨256,.ff,false,some ⟨1,[.setEnt (.own 0)],some 1,false⟩⟩,⟨256,.cr,false,some ⟨1,[.setEnt (.own 0)],some 1,false⟩⟩,⟨256,.cr,true,some ⟨1,[.setEnt (.own 0)],some 1,false⟩⟩,⟨47,.other,false,none⟩,⟨60,.other,false,none⟩,⟨62,.other,false,none⟩]⟩,⟨[3,12],some 2,[],[⟨256,.other,false,some ⟨5,[.setEnt (.own 1)],some 2,false⟩⟩,⟨256,.ws,false,some ⟨5,[.setEnt (.own 1)],some 2,false⟩⟩,⟨256,.lf,false,none⟩,⟨256,.vt,false,some ⟨5,[.setEnt (.own 1)],some 2,false⟩⟩,⟨256,.ff,false,none⟩,⟨256,.cr,false,none⟩,⟨256,.cr,true,none⟩,⟨47,.other,false,some ⟨5,[.setEnt (.own 1)],some 2,false⟩⟩,⟨60,.other,false,some ⟨5,[.setEnt (.own 1)],some 2,false⟩⟩,⟨62,.other,false,some ⟨5,[.setEnt (.own 1)],some 2,false⟩⟩]⟩,⟨[4,7,12],some 3,[],[⟨256,.other,false,none⟩,⟨256,.ws,false,none⟩,⟨256,.lf,false,none⟩,⟨256,.vt,false,none⟩,⟨256,.ff,false,none⟩,⟨256,.cr,false,none⟩,⟨256,.cr,true,none⟩,⟨256,.other,false,some ⟨6,[.setEnt (.own 1)],none,false⟩⟩,⟨47,.other,false,some ⟨7,[.setEnt (.own 1)],some 2,false⟩⟩,⟨60,.other,false,none⟩,⟨62,.other,false,none⟩]⟩,⟨[0,12],some 3,[],[⟨256,.other,false,none⟩,⟨256,.ws,false,none⟩,⟨256,.lf,false,none⟩,⟨256,.vt,false,none⟩,⟨256,.ff,false,none⟩,⟨256,.cr,false,none⟩,⟨256,.cr,true,none⟩,⟨47,.other,false,none⟩,⟨60,.other,false,none⟩,⟨62,.other,false,some ⟨0,[.emb .ret],some 0,true⟩⟩]⟩,⟨[6],some 2,[],[⟨256,.other,false,some ⟨5,[.setEnt (.own 1)],some 2,false⟩⟩,⟨256,.ws,false,some ⟨5,[.setEnt (.own 1)],some 2,false⟩⟩,⟨256,.lf,false,none⟩,⟨256,.vt,false,some ⟨5,[.setEnt (.own 1)],some 2,false⟩⟩,⟨256,.ff,false,none⟩,⟨256,.cr,false,none⟩,⟨256,.cr,true,none⟩,⟨47,.other,false,some ⟨5,[.setEnt (.own 1)],some 2,false⟩⟩,⟨60,.other,false,some ⟨5,[.setEnt (.own 1)],some 2,false⟩⟩,⟨62,.other,false,some ⟨5,[.setEnt (.own 1)],some 2,false⟩⟩]⟩,⟨[8],none,[],[⟨256,.other,false,some ⟨8,[.setEnt (.own 1)],none,false⟩⟩,⟨256,.ws,false,some ⟨8,[.setEnt (.own 1)],none,false⟩⟩,⟨256,.lf,false,some ⟨8,[.setEnt (.own 1)],none,false⟩⟩,⟨256,.vt,false,some ⟨8,[.setEnt (.own 1)],none,false⟩⟩,⟨256,.ff,false,some ⟨8,[.setEnt (.own 1)],none,false⟩⟩,⟨256,.cr,false,some ⟨8,[.setEnt (.own 1)],none,false⟩⟩,⟨256,.cr,true,some ⟨8,[.setEnt (.own 1)],none,false⟩⟩,⟨256,.other,false,some ⟨9,[.setEnt (.own 1)],none,false⟩⟩,⟨47,.other,false,some ⟨8,[.setEnt (.own 1)],none,false⟩⟩,⟨60,.other,false,some ⟨8,[.setEnt (.own 1)],none,false⟩⟩,⟨62,.other,false,some ⟨8,[.setEnt (.own 1)],none,false⟩⟩]⟩,⟨[5],some 2,[],[⟨256,.other,false,some ⟨5,[.setEnt (.own 1)],some 2,false⟩⟩,⟨256,.ws,false,some ⟨5,[.setEnt (.own 1)],some 2,false⟩⟩,⟨256,.lf,false,none⟩,⟨256,.vt,false,some ⟨5,[.setEnt (.own 1)],some 2,false⟩⟩,⟨256,.ff,false,none⟩,⟨256,.cr,false,none⟩,⟨256,.cr,true,none⟩,⟨47,.other,false,some ⟨5,[.setEnt (.own 1)],some 2,false⟩⟩,⟨60,.other,false,some ⟨5,[.setEnt (.own 1)],some 2,false⟩⟩,⟨62,.other,false,some ⟨5,[.setEnt (.own 1)],some 2,false⟩⟩]⟩,⟨[9],none,[],[⟨256,.other,false,some ⟨8,[.setEnt (.own 1)],none,false⟩⟩,⟨256,.ws,false,some ⟨8,[.setEnt (.own 1)],none,false⟩⟩,⟨256,.lf,false,some ⟨8,[.setEnt (.own 1)],none,false⟩⟩,⟨256,.vt,false,some ⟨8,[.setEnt (.own 1)],none,false⟩⟩,⟨256,.ff,false,some ⟨8,[.setEnt (.own 1)],none,false⟩⟩,⟨256,.cr,false,some ⟨8,[.setEnt (.own 1)],none,false⟩⟩,⟨256,.cr,true,some ⟨8,[.setEnt (.own 1)],none,false⟩⟩,⟨256,.other,false,some ⟨9,[.setEnt (.own 1)],none,false⟩⟩,⟨47,.other,false,some ⟨8,[.setEnt (.own 1)],none,false⟩⟩,⟨60,.other,false,some ⟨8,[.setEnt (.own 1)],none,false⟩⟩,⟨62,.other,false,some ⟨8,[.setEnt (.own 1)],none,false⟩⟩]⟩,⟨[9,10],none,[],[⟨256,.other,false,some ⟨8,[.setEnt (.own 1)],none,false⟩⟩,⟨256,.ws,false,some ⟨8,[.setEnt (.own 1)],none,false⟩⟩,⟨256,.lf,false,some ⟨8,[.setEnt (.own 1)],none,false⟩⟩,⟨256,.vt,false,some ⟨8,[.setEnt (.own 1)],none,false⟩⟩,⟨256,.ff,false,some ⟨8,[.setEnt (.own 1)],none,false⟩⟩,⟨256,.cr,false,some ⟨8,[.setEnt (.own 1)],none,false⟩⟩,⟨256,.cr,true,some ⟨8,[.setEnt (.own 1)],none,false⟩⟩,⟨256,.other,false,some ⟨9,[.setEnt (.own 1)],none,false⟩⟩,⟨47,.other,false,some ⟨0,[.setEnt (.own 1)],some 2,true⟩⟩,⟨60,.other,false,some ⟨8,[.setEnt (.own 1)],none,false⟩⟩,⟨62,.other,false,some ⟨8,[.setEnt (.own 1)],none,false⟩⟩]⟩]
theorem emb37_rowsOkt : rowsOk emb37_nfa [47, 60, 62] (emb37_cst.map (·.1)) emb37_rowst = true := by decide +kernel
def emb37_Dt : Dfa emb37_nfa := ⟨emb37_maskst, [47, 60, 62], emb37_cst, emb37_rowst, emb37_masksInt, emb37_repOkt, emb37_rowsOkt⟩

/-- The automaton of `Emb.Rhtml.rhtml_ruby_entity`. -/
def emb51_nfa : Nfa := ⟨[⟨0,137438953472,[],[],0,0⟩,⟨2,4294983168,[],[(1,.setEnt (.own 0))],0,0⟩,⟨3,34359738368,[],[(2,.setEnt (.own 1))],0,0⟩,⟨5,2305843009213693952,[.startsLine],[(2,.setEnt (.own 1))],0,2⟩,⟨16,115792089237316195423570985008687907853269984665640564039457584007908834656767,[],[],0,0⟩],[[⟨1,4611686018427387904,[],[(0,.emb .ret)],0,0⟩],[],[⟨2,4294983168,[],[(1,.setEnt (.own 0))],0,0⟩],[⟨4,115792089237316195423570985008687907853269984665640564039457584007913129626623,[],[(2,.setEnt (.own 1))],0,0⟩],[⟨4,115792089237316195423570985008687907853269984665640564039457584007913129626623,[],[(2,.setEnt (.own 1))],0,0⟩],[⟨6,316912650057057350374175801344,[],[(2,.setEnt (.own 1))],0,2⟩],[⟨7,2535301200456458802993406410752,[],[(2,.setEnt (.own 1))],0,2⟩],[⟨8,10141204801825835211973625643008,[],[(2,.setEnt (.own 1))],0,2⟩],[⟨9,40564819207303340847894502572032,[],[(2,.setEnt (.own 1))],0,2⟩],[⟨10,1298074214633706907132624082305024,[],[(2,.setEnt (.own 1))],0,2⟩],[⟨11,115792089237316195423570985008687907853269984665640564039457584007913129639935,[],[(2,.setEnt (.own 1))],0,2⟩,⟨12,2305843009213693952,[.startsLine],[(2,.setEnt (.own 1))],0,2⟩],[⟨11,115792089237316195423570985008687907853269984665640564039457584007913129639935,[],[(2,.setEnt (.own 1))],0,2⟩,⟨12,2305843009213693952,[.startsLine],[(2,.setEnt (.own 1))],0,2⟩],[⟨13,2535301200456458802993406410752,[],[(2,.setEnt (.own 1))],0,0⟩],[⟨14,1298074214633706907132624082305024,[],[(2,.setEnt (.own 1))],0,0⟩],[⟨15,1267650600228229401496703205376,[],[(2,.setEnt (.own 1))],2,0⟩],[],[]],[none,some (0,[]),some (1,[]),some (2,[]),some (2,[]),none,none,none,none,none,none,none,none,none,none,some (2,[]),some (3,[])],[1,2,3,3]⟩
def emb51_masks : List Nat := [137438953472,4294983168,34359738368,2305843009213693952,115792089237316195423570985008687907853269984665640564039457584007908834656767,4611686018427387904,115792089237316195423570985008687907853269984665640564039457584007913129626623,316912650057057350374175801344,2535301200456458802993406410752,10141204801825835211973625643008,40564819207303340847894502572032,1298074214633706907132624082305024,115792089237316195423570985008687907853269984665640564039457584007913129639935,1267650600228229401496703205376]
def emb51_cs : List (Nat × Nat) := [(0,115792089237316195423570985008687907853269983312740460945872837731352898945535),(9,4294967808),(10,1024),(11,2048),(12,4096),(13,8192),(35,34359738368),(37,137438953472),(61,2305843009213693952),(62,4611686018427387904),(98,316912650057057350374175801344),(100,1267650600228229401496703205376),(101,2535301200456458802993406410752),(103,10141204801825835211973625643008),(105,40564819207303340847894502572032),(110,1298074214633706907132624082305024)]
theorem emb51_masksIn : masksIn emb51_nfa emb51_masks = true := by decide +kernel
theorem emb51_repOk : repOk emb51_masks emb51_cs = true := by decide +kernel
def emb51_rows : List Row := [⟨[],none,[],[⟨256,.other,false,some ⟨0,[],some 3,true⟩⟩,⟨256,.ws,false,some ⟨1,[.setEnt (.own 0)],some 1,false⟩⟩,⟨256,.lf,false,some ⟨1,[.setEnt (.own 0)],some 1,false⟩⟩,⟨256,.vt,false,some ⟨1,[.setEnt (.own 0)],some 1,false⟩⟩,⟨256,.ff,false,some ⟨1,[.setEnt (.own 0)],some 1,false⟩⟩,⟨256,.cr,false,some ⟨1,[.setEnt (.own 0)],some 1,false⟩⟩,⟨256,.cr,true,some ⟨1,[.setEnt (.own 0)],some 1,false⟩⟩,⟨256,.other,false,some ⟨2,[.setEnt (.own 1)],some 2,false⟩⟩,⟨256,.other,false,some ⟨3,[],some 3,false⟩⟩,⟨256,.other,false,some ⟨4,[.setEnt (.own 1)],some 3,false⟩⟩]⟩,⟨[2],some 1,[],[⟨256,.other,false,none⟩,⟨256,.ws,false,some ⟨1,[.setEnt (.own 0)],some 1,false⟩⟩,⟨256,.lf,false,some ⟨1,[.setEnt (.own 0)],some 1,false⟩⟩,⟨256,.vt,false,some ⟨1,[.setEnt (.own 0)],some 1,false⟩⟩,⟨256,.ff,false,some ⟨1,[.setEnt (.own 0)],some 1,false⟩⟩,⟨256,.cr,false,some ⟨1,[.setEnt (.own 0)],some 1,false⟩⟩,⟨256,.cr,true,some ⟨1,[.setEnt (.own 0)],some 1,false⟩⟩]⟩,⟨[3,16],some 2,[],[⟨256,.other,false,some ⟨5,[.setEnt (.own 1)],some 2,false⟩⟩,⟨256,.ws,false,some ⟨5,[.setEnt (.own 1)],some 2,false⟩⟩,⟨256,.lf,false,none⟩,⟨256,.vt,false,some ⟨5,[.setEnt (.own 1)],some 2,false⟩⟩,⟨256,.ff,false,none⟩,⟨256,.cr,false,none⟩,⟨256,.cr,true,none⟩]⟩,⟨[0,16],some 3,[],[⟨256,.other,false,none⟩,⟨256,.ws,false,none⟩,⟨256,.lf,false,none⟩,⟨256,.vt,false,none⟩,⟨256,.ff,false,none⟩,⟨256,.cr,false,none⟩,⟨256,.cr,true,none⟩,⟨256,.other,false,some ⟨0,[.emb .ret],some 0,true⟩⟩]⟩,⟨[5,16],some 3,[],[⟨256,.other,false,none⟩,⟨256,.ws,false,none⟩,⟨256,.lf,false,none⟩,⟨256,.vt,false,none⟩,⟨256,.ff,false,none⟩,⟨256,.cr,false,none⟩,⟨256,.cr,true,none⟩,⟨256,.other,false,some ⟨6,[.setEnt (.own 1)],none,false⟩⟩]⟩,⟨[4],some 2,[],[⟨256,.other,false,some ⟨5,[.setEnt (.own 1)],some 2,false⟩⟩,⟨256,.ws,false,some ⟨5,[.setEnt (.own 1)],some 2,false⟩⟩,⟨256,.lf,false,none⟩,⟨256,.vt,false,some ⟨5,[.setEnt (.own 1)],some 2,false⟩⟩,⟨256,.ff,false,none⟩,⟨256,.cr,false,none⟩,⟨256,.cr,true,none⟩]⟩,⟨[6],none,[],[⟨256,.other,false,none⟩,⟨256,.ws,false,none⟩,⟨256,.lf,false,none⟩,⟨256,.vt,false,none⟩,⟨256,.ff,false,none⟩,⟨256,.cr,false,none⟩,⟨256,.cr,true,none⟩,⟨256,.other,false,some ⟨7,[.setEnt (.own 1)],none,false⟩⟩]⟩,⟨[7],none,[],[⟨256,.other,false,none⟩,⟨256,.ws,false,none⟩,⟨256,.lf,false,none⟩,⟨256,.vt,false,none⟩,⟨256,.ff,false,none⟩,⟨256,.cr,false,none⟩,⟨256,.cr,true,none⟩,⟨256,.other,false,some ⟨8,[.setEnt (.own 1)],none,false⟩⟩]⟩,⟨[8],none,[],[⟨256,.other,false,none⟩,⟨256,.ws,false,none⟩,⟨256,.lf,false,none⟩,⟨256,.vt,false,none⟩,⟨256,.ff,false,none⟩,⟨256,.cr,false,none⟩,⟨256,.cr,true,none⟩,⟨256,.other,false,some ⟨9,[.setEnt (.own 1)],none,false⟩⟩]⟩,⟨[9],none,[],[⟨256,.other,false,none⟩,⟨256,.ws,false,none⟩,⟨256,.lf,false,none⟩,⟨256,.vt,false,none⟩,⟨256,.ff,false,none⟩,⟨256,.cr,false,none⟩,⟨256,.cr,true,none⟩,⟨256,.other,false,some ⟨10,[.setEnt (.own 1)],none,false⟩⟩]⟩,⟨[10],none,[],[⟨256,.other,false,some ⟨11,[.setEnt (.own 1)],none,false⟩⟩,⟨256,.ws,false,some ⟨11,[.setEnt (.own 1)],none,false⟩⟩,⟨256,.lf,false,some ⟨11,[.setEnt (.own 1)],none,false⟩⟩,⟨256,.vt,false,some ⟨11,[.setEnt (.own 1)],none,false⟩⟩,⟨256,.ff,false,some ⟨11,[.setEnt (.own 1)],none,false⟩⟩,⟨256,.cr,false,some ⟨11,[.setEnt (.own 1)],none,false⟩⟩,⟨256,.cr,true,some ⟨11,[.setEnt (.own 1)],none,false⟩⟩,⟨256,.other,false,some ⟨12,[.setEnt (.own 1)],none,false⟩⟩]⟩,⟨[11],none,[],[⟨256,.other,false,some ⟨11,[.setEnt (.own 1)],none,false⟩⟩,⟨256,.ws,false,some ⟨11,[.setEnt (.own 1)],none,false⟩⟩,⟨256,.lf,false,some ⟨11,[.setEnt (.own 1)],none,false⟩⟩,⟨256,.vt,false,some ⟨11,[.setEnt (.own 1)],none,false⟩⟩,⟨256,.ff,false,some ⟨11,[.setEnt (.own 1)],none,false⟩⟩,⟨256,.cr,false,some ⟨11,[.setEnt (.own 1)],none,false⟩⟩,⟨256,.cr,true,some ⟨11,[.setEnt (.own 1)],none,false⟩⟩,⟨256,.other,false,some ⟨12,[.setEnt (.own 1)],none,false⟩⟩]⟩,⟨[11,12],none,[],[⟨256,.other,false,some ⟨11,[.setEnt (.own 1)],none,false⟩⟩,⟨256,.ws,false,some ⟨11,[.setEnt (.own 1)],none,false⟩⟩,⟨256,.lf,false,some ⟨11,[.setEnt (.own 1)],none,false⟩⟩,⟨256,.vt,false,some ⟨11,[.setEnt (.own 1)],none,false⟩⟩,⟨256,.ff,false,some ⟨11,[.setEnt (.own 1)],none,false⟩⟩,⟨256,.cr,false,some ⟨11,[.setEnt (.own 1)],none,false⟩⟩,⟨256,.cr,true,some ⟨11,[.setEnt (.own 1)],none,false⟩⟩,⟨256,.other,false,some ⟨12,[.setEnt (.own 1)],none,false⟩⟩,⟨256,.other,false,some ⟨13,[.setEnt (.own 1)],none,false⟩⟩]⟩,⟨[11,13],none,[],[⟨256,.other,false,some ⟨11,[.setEnt (.own 1)],none,false⟩⟩,⟨256,.ws,false,some ⟨11,[.setEnt (.own 1)],none,false⟩⟩,⟨256,.lf,false,some ⟨11,[.setEnt (.own 1)],none,false⟩⟩,⟨256,.vt,false,some ⟨11,[.setEnt (.own 1)],none,false⟩⟩,⟨256,.ff,false,some ⟨11,[.setEnt (.own 1)],none,false⟩⟩,⟨256,.cr,false,some ⟨11,[.setEnt (.own 1)],none,false⟩⟩,⟨256,.cr,true,some ⟨11,[.setEnt (.own 1)],none,false⟩⟩,⟨256,.other,false,some ⟨12,[.setEnt (.own 1)],none,false⟩⟩,⟨256,.other,false,some ⟨14,[.setEnt (.own 1)],none,false⟩⟩]⟩,⟨[11,14],none,[],[⟨256,.other,false,some ⟨11,[.setEnt (.own 1)],none,false⟩⟩,⟨256,.ws,false,some ⟨11,[.setEnt (.own 1)],none,false⟩⟩,⟨256,.lf,false,some ⟨11,[.setEnt (.own 1)],none,false⟩⟩,⟨256,.vt,false,some ⟨11,[.setEnt (.own 1)],none,false⟩⟩,⟨256,.ff,false,some ⟨11,[.setEnt (.own 1)],none,false⟩⟩,⟨256,.cr,false,some ⟨11,[.setEnt (.own 1)],none,false⟩⟩,⟨256,.cr,true,some ⟨11,[.setEnt (.own 1)],none,false⟩⟩,⟨256,.other,false,some ⟨12,[.setEnt (.own 1)],none,false⟩⟩,⟨256,.other,false,some ⟨0,[.setEnt (.own 1)],some 2,true⟩⟩]⟩]
theorem emb51_rowsOk : rowsOk emb51_nfa [] (emb51_cs.map (·.1)) emb51_rows = true := by decide +kernel
def emb51_D : Dfa emb51_nfa := ⟨emb51_masks, [], emb51_cs, emb51_rows, emb51_masksIn, emb51_repOk, emb51_rowsOk⟩
def emb51_maskst : List Nat := [137438953472,4294983168,34359738368,2305843009213693952,115792089237316195423570985008687907853269984665640564039457584007908834656767,4611686018427387904,115792089237316195423570985008687907853269984665640564039457584007913129626623,316912650057057350374175801344,2535301200456458802993406410752,10141204801825835211973625643008,40564819207303340847894502572032,1298074214633706907132624082305024,115792089237316195423570985008687907853269984665640564039457584007913129639935,1267650600228229401496703205376,140737488355328,1152921504606846976]
def emb51_cst : List (Nat × Nat) := [(0,115792089237316195423570985008687907853269983312740460945871684669110803743231),(9,4294967808),(10,1024),(11,2048),(12,4096),(13,8192),(35,34359738368),(37,137438953472),(47,140737488355328),(60,1152921504606846976),(61,2305843009213693952),(62,4611686018427387904),(98,316912650057057350374175801344),(100,1267650600228229401496703205376),(101,2535301200456458802993406410752),(103,10141204801825835211973625643008),(105,40564819207303340847894502572032),(110,1298074214633706907132624082305024)]
theorem emb51_masksInt : masksIn emb51_nfa emb51_maskst = true := by decide +kernel
theorem emb51_repOkt : repOk emb51_maskst emb51_cst = true := by decide +kernel
def emb51_rowst : List Row := [⟨[],none,[],[⟨256,.other,false,some ⟨0,[],some 3,true⟩⟩,⟨256,.ws,false,some ⟨1,[.setEnt (.own 0)],some 1,false⟩⟩,⟨256,.lf,false,some ⟨1,[.setEnt (.own 0)],some 1,false⟩⟩,⟨256,.vt,false,some ⟨1,[.setEnt (.own 0)],some 1,false⟩⟩,⟨256,.ff,false,some ⟨1,[.setEnt (.own 0)],some 1,false⟩⟩,⟨256,.cr,false,some ⟨1,[.setEnt (.own 0)],some 1,false⟩⟩,⟨256,.cr,true,some ⟨1,[.setEnt (.own 0)],some 1,false⟩⟩,⟨256,.other,false,some ⟨2,[.setEnt (.own 1)],some 2,false⟩⟩,⟨256,.other,false,some ⟨3,[],some 3,false⟩⟩,⟨47,.other,false,some ⟨0,[],some 3,true⟩⟩,⟨60,.other,false,some ⟨0,[],some 3,true⟩⟩,⟨256,.other,false,some ⟨4,[.setEnt (.own 1)],some 3,false⟩⟩,⟨62,.other,false,some ⟨0,[],some 3,true⟩⟩]⟩,⟨[2],some 1,[],[⟨256,.other,false,none⟩,⟨256,.ws,false,some ⟨1,[.setEnt (.own 0)],some 1,false⟩⟩,⟨256,.lf,false,some ⟨1,[.setEnt (.own 0)],some 1,false⟩⟩,⟨256,.vt,false,some ⟨1,[.setEnt (.own 0)],some 1,false⟩⟩,⟨256,.ff,false,some ⟨1,[.setEnt (.own 0)],some 1,false⟩⟩,⟨256,.cr,false,some ⟨1,[.setEnt (.own 0)],some 1,false⟩⟩,⟨256,.cr,true,some ⟨1,[.setEnt (.own 0)],some 1,false⟩⟩,⟨47,.other,false,none⟩,⟨60,.other,false,none⟩,⟨62,.other,false,none⟩]⟩,⟨[3,16],some 2,[],[⟨256,.other,false,some ⟨5,[.setEnt (.own 1)],some 2,false⟩⟩,⟨256,.ws,false,some ⟨5,[.setEnt (.own 1)],some 2,false⟩⟩,⟨256,.lf,false,none⟩,⟨256,.vt,false,some ⟨5,[.setEnt (.own 1)],some 2,false⟩⟩,⟨256,.ff,false,none⟩,⟨256,.cr,false,none⟩,⟨256,.cr,true,none⟩,⟨47,.other,false,some ⟨5,[.setEnt (.own 1)],some 2,false⟩⟩,⟨60,.other,false,some ⟨5,[.setEnt (.own 1)],some 2,false⟩⟩,⟨62,.other,false,some ⟨5,[.setEnt (.own 1)],some 2,false⟩⟩]⟩,⟨[0,16],some 3,[],[⟨256,.other,false,none⟩,⟨256,.ws,false,none⟩,⟨256,.lf,false,none⟩,⟨256,.vt,false,none⟩,⟨256,.ff,false,none⟩,⟨256,.cr,false,none⟩,⟨256,.cr,true,none⟩,⟨47,.other,false,none⟩,⟨60,.other,false,none⟩,⟨62,.other,false,some ⟨0,[.emb .ret],some 0,true⟩⟩]⟩,⟨[5,16],some 3,[],[⟨256,.other,false,none⟩,⟨256,.ws,false,none⟩,⟨256,.lf,false,none⟩,⟨256,.vt,false,none⟩,⟨256,.ff,false,none⟩,⟨256,.cr,false,none⟩,⟨256,.cr,true,none⟩,⟨47,.other,false,none⟩,⟨60,.other,false,none⟩,⟨62,.other,false,none⟩,⟨256,.other,false,some ⟨6,[.setEnt (.own 1)],none,false⟩⟩]⟩,⟨[4],some 2,[],[⟨256,.other,false,some ⟨5,[.setEnt (.own 1)],some 2,false⟩⟩,⟨256,.ws,false,some ⟨5,[.setEnt (.own 1)],some 2,false⟩⟩,⟨256,.lf,false,none⟩,⟨256,.vt,false,some ⟨5,[.setEnt (.own 1)],some 2,false⟩⟩,⟨256,.ff,false,none⟩,⟨256,.cr,false,none⟩,⟨256,.cr,true,none⟩,⟨47,.other,false,some ⟨5,[.setEnt (.own 1)],some 2,false⟩⟩,⟨60,.other,false,some ⟨5,[.setEnt (.own 1)],some 2,false⟩⟩,⟨62,.other,false,some ⟨5,[.setEnt (.own 1)],some 2,false⟩⟩]⟩,⟨[6],none,[],[⟨256,.other,false,none⟩,⟨256,.ws,false,none⟩,⟨256,.lf,false,none⟩,⟨256,.vt,false,none⟩,⟨256,.ff,false,none⟩,⟨256,.cr,false,none⟩,⟨256,.cr,true,none⟩,⟨47,.other,false,none⟩,⟨60,.other,false,none⟩,⟨62,.other,false,none⟩,⟨256,.other,false,some ⟨7,[.setEnt (.own 1)],none,false⟩⟩]⟩,⟨[7],none,[],[⟨256,.other,false,none⟩,⟨256,.ws,false,none⟩,⟨256,.lf,false,none⟩,⟨256,.vt,false,none⟩,⟨256,.ff,false,none⟩,⟨256,.cr,false,none⟩,⟨256,.cr,true,none⟩,⟨47,.other,false,none⟩,⟨60,.other,false,none⟩,⟨62,.other,false,none⟩,⟨256,.other,false,some ⟨8,[.setEnt (.own 1)],none,false⟩⟩]⟩,⟨[8],none,[],[⟨256,.other,false,none⟩,⟨256,.ws,false,none⟩,⟨256,.lf,false,none⟩,⟨256,.vt,false,none⟩,⟨256,.ff,false,none⟩,⟨256,.cr,false,none⟩,⟨256,.cr,true,none⟩,⟨47,.other,false,none⟩,⟨60,.other,false,none⟩,⟨62,.other,false,none⟩,⟨256,.other,false,some ⟨9,[.setEnt (.own 1)],none,false⟩⟩]⟩,⟨[9],none,[],[⟨256,.other,false,none⟩,⟨256,.ws,false,none⟩,⟨256,.lf,false,none⟩,⟨256,.vt,false,none⟩,⟨256,.ff,false,none⟩,⟨256,.cr,false,none⟩,⟨256,.cr,true,none⟩,⟨47,.other,false,none⟩,⟨60,.other,false,none⟩,⟨62,.other,false,none⟩,⟨256,.other,false,some ⟨10,[.setEnt (.own 1)],none,false⟩⟩]⟩,⟨[10],none,[],[⟨256,.other,false,some ⟨11,[.setEnt (.own 1)],none,false⟩⟩,⟨256,.ws,false,some ⟨11,[.setEnt (.own 1)],none,false⟩⟩,⟨256,.lf,false,some ⟨11,[.setEnt (.own 1)],none,false⟩⟩,⟨256,.vt,false,some ⟨11,[.setEnt (.own 1)],none,false⟩⟩,⟨256,.ff,false,some ⟨11,[.setEnt (.own 1)],none,false⟩⟩,⟨256,.cr,false,some ⟨11,[.setEnt (.own 1)],none,false⟩⟩,⟨256,.cr,true,some ⟨11,[.setEnt (.own 1)],none,false⟩⟩,⟨47,.other,false,some ⟨11,[.setEnt (.own 1)],none,false⟩⟩,⟨60,.other,false,some ⟨11,[.setEnt (.own 1)],none,false⟩⟩,⟨256,.other,false,some ⟨12,[.setEnt (.own 1)],none,false⟩⟩,⟨62,.other,false,some ⟨11,[.setEnt (.own 1)],none,false⟩⟩]⟩,⟨[11],none,[],[⟨256,.other,false,some ⟨11,[.setEnt (.own 1)],none,false⟩⟩,⟨256,.ws,false,some ⟨11,[.setEnt (.own 1)],none,false⟩⟩,⟨256,.lf,false,some ⟨11,[.setEnt (.own 1)],none,false⟩⟩,⟨256,.vt,false,some ⟨11,[.setEnt (.own 1)],none,false⟩⟩,⟨256,.ff,false,some ⟨11,[.setEnt (.own 1)],none,false⟩⟩,⟨256,.cr,false,some ⟨11,[.setEnt (.own 1)],none,false⟩⟩,⟨256,.cr,true,some ⟨11,[.setEnt (.own 1)],none,false⟩⟩,⟨47,.other,false,some ⟨11,[.setEnt (.own 1)],none,false⟩⟩,⟨60,.other,false,some ⟨11,[.setEnt (.own 1)],none,false⟩⟩,⟨256,.other,false,some ⟨12,[.setEnt (.own 1)],none,false⟩⟩,⟨62,.other,false,some ⟨11,[.setEnt (.own 1)],none,false⟩⟩]⟩,⟨[11,12],none,[],[⟨256,.other,false,some ⟨11,[.setEnt (.own 1)],none,false⟩⟩,⟨256,.ws,false,some ⟨11,[.setEnt (.own 1)],none,false⟩⟩,⟨256,.lf,false,some ⟨11,[.setEnt (.own 1)],none,false⟩⟩,⟨256,.vt,false,some ⟨11,[.setEnt (.own 1)],none,false⟩⟩,⟨256,.ff,false,some ⟨11,[.setEnt (.own 1)],none,false⟩⟩,⟨256,.cr,false,some ⟨11,[.setEnt (.own 1)],none,false⟩⟩,⟨256,.cr,true,some ⟨11,[.setEnt (.own 1)],none,false⟩⟩,⟨47,.other,false,some ⟨11,[.setEnt (.own 1)],none,false⟩⟩,⟨60,.other,false,some ⟨11,[.setEnt (.own 1)],none,false⟩⟩,⟨256,.other,false,some ⟨12,[.setEnt (.own 1)],none,false⟩⟩,⟨62,.other,false,some ⟨11,[.setEnt (.own 1)],none,false⟩⟩,⟨256,.other,false,some ⟨13,[.setEnt (.own 1)],none,false⟩⟩]⟩,⟨[11,13],none,[],[⟨256,.other,false,some ⟨11,[.setEnt (.own 1)],none,false⟩⟩,⟨256,.ws,false,some ⟨11,[.setEnt (.own 1)],none,false⟩⟩,⟨256,.lf,false,some ⟨11,[.setEnt (.own 1)],none,false⟩⟩,⟨256,.vt,false,some ⟨11,[.setEnt (.own 1)],none,false⟩⟩,⟨256,.ff,false,some ⟨11,[.setEnt (.own 1)],none,false⟩⟩,⟨256,.cr,false,some ⟨11,[.setEnt (.own 1)],none,false⟩⟩,⟨256,.cr,true,some ⟨11,[.setEnt (.own 1)],none,false⟩⟩,⟨47,.other,false,some ⟨11,[.setEnt (.own 1)],none,false⟩⟩,⟨60,.other,false,some ⟨11,[.setEnt (.own 1)],none,false⟩⟩,⟨256,.other,false,some ⟨12,[.setEnt (.own 1)],none,false⟩⟩,⟨62,.other,false,some ⟨11,[.setEnt (.own 1)],none,false⟩⟩,⟨256,.other,false,some ⟨14,[.setEnt (.own 1)],none,false⟩⟩]⟩,⟨[11,14],none,[],[⟨256,.other,false,some ⟨11,[.setEnt (.own 1)],none,false⟩⟩,⟨256,.ws,false,some ⟨11,[.setEnt (.own 1)],none,false⟩⟩,⟨256,.lf,false,some ⟨11,[.setEnt (.own 1)],none,false⟩⟩,⟨256,.vt,false,some ⟨11,[.setEnt (.own 1)],none,false⟩⟩,⟨256,.ff,false,some ⟨11,[.setEnt (.own 1)],none,false⟩⟩,⟨256,.cr,false,some ⟨11,[.setEnt (.own 1)],none,false⟩⟩,⟨256,.cr,true,some ⟨11,[.setEnt (.own 1)],none,false⟩⟩,⟨47,.other,false,some ⟨11,[.setEnt (.own 1)],none,false⟩⟩,⟨60,.other,false,some ⟨11,[.setEnt (.own 1)],none,false⟩⟩,⟨256,.other,false,some ⟨12,[.setEnt (.own 1)],none,false⟩⟩,⟨62,.other,false,some ⟨11,[.setEnt (.own 1)],none,false⟩⟩,⟨256,.other,false,some ⟨0,[.setEnt (.own 1)],some 2,true⟩⟩]⟩]
theorem emb51_rowsOkt : rowsOk emb51_nfa [47, 60, 62] (emb51_cst.map (·.1)) emb51_rowst = true := by decide +kernel
def emb51_Dt : Dfa emb51_nfa := ⟨emb51_maskst, [47, 60, 62], emb51_cst, emb51_rowst, emb51_masksInt, emb51_repOkt, emb51_rowsOkt⟩

/-- The automaton of `Emb.Haml.haml_line`. -/
def emb57_nfa : Nfa := ⟨[⟨0,4294967296,[],[],0,0⟩,⟨2,137438953472,[],[],0,0⟩,⟨48,2305843009213693952,[],[],0,0⟩,⟨50,283467841536,[],[],0,0⟩,⟨51,2305843009213693952,[],[],0,0⟩,⟨52,35184372088832,[],[],0,0⟩,⟨53,85070591730234615865843651857942052864,[],[],0,0⟩,⟨55,4294967808,[],[(19,.setEnt (.own 0))],0,0⟩,⟨56,4294967296,[],[(20,.emb .indRes)],0,0⟩,⟨58,4294967296,[],[],0,0⟩,⟨60,35184372088832,[],[(23,.emb .indSet)],0,0⟩,⟨62,140737488355328,[],[(23,.emb .indSet),(24,.comment)],0,0⟩,⟨79,4294967296,[],[],0,0⟩,⟨81,115792089237316195423570985008687907853184914073910329423589434266579275598847,[],[(34,.code)],0,0⟩,⟨89,8192,[],[(38,.setEnt .newline)],0,0⟩,⟨91,1024,[],[(38,.setEnt .newline)],0,0⟩,⟨92,4096,[],[(38,.setEnt .newline)],0,0⟩,⟨93,8192,[.crAlone],[(38,.setEnt .newline)],0,0⟩,⟨94,115792089237316195423570985008687907853269984665640564039457584007908834656767,[],[(39,.setEnt (.own 7))],0,0⟩],[[⟨1,4294967296,[],[],0,0⟩],[⟨0,4294967296,[],[],0,0⟩,⟨2,137438953472,[],[],0,0⟩,⟨48,2305843009213693952,[],[],0,0⟩,⟨50,283467841536,[],[],0,0⟩,⟨51,2305843009213693952,[],[],0,0⟩,⟨52,35184372088832,[],[],0,0⟩,⟨53,85070591730234615865843651857942052864,[],[],0,0⟩],[⟨3,115792089237316195423570985008687907853174280249941574216527633260541797976575,[],[],0,0⟩,⟨5,8589934592,[],[],0,0⟩,⟨10,274877906944,[],[],0,0⟩,⟨15,35184372088832,[],[],0,0⟩,⟨17,2305843009213693952,[],[],0,0⟩,⟨22,85070591730234615865843651857942052864,[],[],0,0⟩],[⟨4,115792089237316195423570985008687907853259350841671808832395782790876793653759,[],[],0,0⟩,⟨24,10633823966279326983230456482242756608,[],[(0,.nestRes),(1,.code)],0,2⟩,⟨35,2475880078570760549798248448,[],[(8,.nestRes),(9,.code)],0,4⟩,⟨46,140737488355328,[],[],0,0⟩,⟨48,2305843009213693952,[],[],0,0⟩,⟨50,283467841536,[],[],0,0⟩,⟨51,2305843009213693952,[],[],0,0⟩,⟨52,35184372088832,[],[],0,0⟩,⟨53,85070591730234615865843651857942052864,[],[],0,0⟩],[⟨4,115792089237316195423570985008687907853259350841671808832395782790876793653759,[],[],0,0⟩,⟨24,10633823966279326983230456482242756608,[],[(0,.nestRes),(1,.code)],0,2⟩,⟨35,2475880078570760549798248448,[],[(8,.nestRes),(9,.code)],0,4⟩,⟨46,140737488355328,[],[],0,0⟩,⟨48,2305843009213693952,[],[],0,0⟩,⟨50,283467841536,[],[],0,0⟩,⟨51,2305843009213693952,[],[],0,0⟩,⟨52,35184372088832,[],[],0,0⟩,⟨53,85070591730234615865843651857942052864,[],[],0,0⟩],[⟨6,115792089237316195423570985008687907853259350841671808832393476947867579959807,[],[],0,0⟩,⟨8,2305843009213693952,[],[],0,0⟩,⟨24,10633823966279326983230456482242756608,[],[(0,.nestRes),(1,.code)],0,2⟩,⟨35,2475880078570760549798248448,[],[(8,.nestRes),(9,.code)],0,4⟩,⟨46,140737488355328,[],[],0,0⟩,⟨48,2305843009213693952,[],[],0,0⟩,⟨50,283467841536,[],[],0,0⟩,⟨51,2305843009213693952,[],[],0,0⟩,⟨52,35184372088832,[],[],0,0⟩,⟨53,85070591730234615865843651857942052864,[],[],0,0⟩],[⟨7,115792089237316195423570985008687907853259350841671808832395782790876793653759,[],[],0,0⟩,⟨24,10633823966279326983230456482242756608,[],[(0,.nestRes),(1,.code)],0,2⟩,⟨35,2475880078570760549798248448,[],[(8,.nestRes),(9,.code)],0,4⟩,⟨46,140737488355328,[],[],0,0⟩,⟨48,2305843009213693952,[],[],0,0⟩,⟨50,283467841536,[],[],0,0⟩,⟨51,2305843009213693952,[],[],0,0⟩,⟨52,35184372088832,[],[],0,0⟩,⟨53,85070591730234615865843651857942052864,[],[],0,0⟩],[⟨7,115792089237316195423570985008687907853259350841671808832395782790876793653759,[],[],0,0⟩,⟨24,10633823966279326983230456482242756608,[],[(0,.nestRes),(1,.code)],0,2⟩,⟨35,2475880078570760549798248448,[],[(8,.nestRes),(9,.code)],0,4⟩,⟨46,140737488355328,[],[],0,0⟩,⟨48,2305843009213693952,[],[],0,0⟩,⟨50,283467841536,[],[],0,0⟩,⟨51,2305843009213693952,[],[],0,0⟩,⟨52,35184372088832,[],[],0,0⟩,⟨53,85070591730234615865843651857942052864,[],[],0,0⟩],[⟨9,115792089237316195423570985008687907853259350841671808832395782790876793653759,[],[],0,0⟩],[⟨9,115792089237316195423570985008687907853259350841671808832395782790876793653759,[],[],0,0⟩,⟨24,10633823966279326983230456482242756608,[],[(0,.nestRes),(1,.code)],0,2⟩,⟨35,2475880078570760549798248448,[],[(8,.nestRes),(9,.code)],0,4⟩,⟨46,140737488355328,[],[],0,0⟩,⟨48,2305843009213693952,[],[],0,0⟩,⟨50,283467841536,[],[],0,0⟩,⟨51,2305843009213693952,[],[],0,0⟩,⟨52,35184372088832,[],[],0,0⟩,⟨53,85070591730234615865843651857942052864,[],[],0,0⟩],[⟨11,115792089237316195423570985008687907853259350841671808832393476947867579959807,[],[],0,0⟩,⟨13,2305843009213693952,[],[],0,0⟩,⟨24,10633823966279326983230456482242756608,[],[(0,.nestRes),(1,.code)],0,2⟩,⟨35,2475880078570760549798248448,[],[(8,.nestRes),(9,.code)],0,4⟩,⟨46,140737488355328,[],[],0,0⟩,⟨48,2305843009213693952,[],[],0,0⟩,⟨50,283467841536,[],[],0,0⟩,⟨51,2305843009213693952,[],[],0,0⟩,⟨52,35184372088832,[],[],0,0⟩,⟨53,85070591730234615865843651857942052864,[],[],0,0⟩],[⟨12,115792089237316195423570985008687907853259350841671808832395782790876793653759,[],[],0,0⟩,⟨24,10633823966279326983230456482242756608,[],[(0,.nestRes),(1,.code)],0,2⟩,⟨35,2475880078570760549798248448,[],[(8,.nestRes),(9,.code)],0,4⟩,⟨46,140737488355328,[],[],0,0⟩,⟨48,2305843009213693952,[],[],0,0⟩,⟨50,283467841536,[],[],0,0⟩,⟨51,2305843009213693952,[],[],0,0⟩,⟨52,35184372088832,[],[],0,0⟩,⟨53,85070591730234615865843651857942052864,[],[],0,0⟩],[⟨12,115792089237316195423570985008687907853259350841671808832395782790876793653759,[],[],0,0⟩,⟨24,10633823966279326983230456482242756608,[],[(0,.nestRes),(1,.code)],0,2⟩,⟨35,2475880078570760549798248448,[],[(8,.nestRes),(9,.code)],0,4⟩,⟨46,140737488355328,[],[],0,0⟩,⟨48,2305843009213693952,[],[],0,0⟩,⟨50,283467841536,[],[],0,0⟩,⟨51,2305843009213693952,[],[],0,0⟩,⟨52,35184372088832,[],[],0,0⟩,⟨53,85070591730234615865843651857942052864,[],[],0,0⟩],[⟨14,115792089237316195423570985008687907853259350841671808832395782790876793653759,[],[],0,0⟩],[⟨14,115792089237316195423570985008687907853259350841671808832395782790876793653759,[],[],0,0⟩,⟨24,10633823966279326983230456482242756608,[],[(0,.nestRes),(1,.code)],0,2⟩,⟨35,2475880078570760549798248448,[],[(8,.nestRes),(9,.code)],0,4⟩,⟨46,140737488355328,[],[],0,0⟩,⟨48,2305843009213693952,[],[],0,0⟩,⟨50,283467841536,[],[],0,0⟩,⟨51,2305843009213693952,[],[],0,0⟩,⟨52,35184372088832,[],[],0,0⟩,⟨53,85070591730234615865843651857942052864,[],[],0,0⟩],[⟨16,115792089237316195423570985008687907853259350841671808832395782790876793653759,[],[],0,0⟩],[⟨16,115792089237316195423570985008687907853259350841671808832395782790876793653759,[],[],0,0⟩,⟨24,10633823966279326983230456482242756608,[],[(0,.nestRes),(1,.code)],0,2⟩,⟨35,2475880078570760549798248448,[],[(8,.nestRes),(9,.code)],0,4⟩,⟨46,140737488355328,[],[],0,0⟩,⟨48,2305843009213693952,[],[],0,0⟩,⟨50,283467841536,[],[],0,0⟩,⟨51,2305843009213693952,[],[],0,0⟩,⟨52,35184372088832,[],[],0,0⟩,⟨53,85070591730234615865843651857942052864,[],[],0,0⟩],[⟨18,115792089237316195423570985008687907853259350841671808832393476947867579959807,[],[],0,0⟩,⟨20,2305843009213693952,[],[],0,0⟩],[⟨19,115792089237316195423570985008687907853259350841671808832395782790876793653759,[],[],0,0⟩,⟨24,10633823966279326983230456482242756608,[],[(0,.nestRes),(1,.code)],0,2⟩,⟨35,2475880078570760549798248448,[],[(8,.nestRes),(9,.code)],0,4⟩,⟨46,140737488355328,[],[],0,0⟩,⟨48,2305843009213693952,[],[],0,0⟩,⟨50,283467841536,[],[],0,0⟩,⟨51,2305843009213693952,[],[],0,0⟩,⟨52,35184372088832,[],[],0,0⟩,⟨53,85070591730234615865843651857942052864,[],[],0,0⟩],[⟨19,115792089237316195423570985008687907853259350841671808832395782790876793653759,[],[],0,0⟩,⟨24,10633823966279326983230456482242756608,[],[(0,.nestRes),(1,.code)],0,2⟩,⟨35,2475880078570760549798248448,[],[(8,.nestRes),(9,.code)],0,4⟩,⟨46,140737488355328,[],[],0,0⟩,⟨48,2305843009213693952,[],[],0,0⟩,⟨50,283467841536,[],[],0,0⟩,⟨51,2305843009213693952,[],[],0,0⟩,⟨52,35184372088832,[],[],0,0⟩,⟨53,85070591730234615865843651857942052864,[],[],0,0⟩],[⟨21,115792089237316195423570985008687907853259350841671808832395782790876793653759,[],[],0,0⟩],[⟨21,115792089237316195423570985008687907853259350841671808832395782790876793653759,[],[],0,0⟩,⟨24,10633823966279326983230456482242756608,[],[(0,.nestRes),(1,.code)],0,2⟩,⟨35,2475880078570760549798248448,[],[(8,.nestRes),(9,.code)],0,4⟩,⟨46,140737488355328,[],[],0,0⟩,⟨48,2305843009213693952,[],[],0,0⟩,⟨50,283467841536,[],[],0,0⟩,⟨51,2305843009213693952,[],[],0,0⟩,⟨52,35184372088832,[],[],0,0⟩,⟨53,85070591730234615865843651857942052864,[],[],0,0⟩],[⟨23,115792089237316195423570985008687907853259350841671808832395782790876793653759,[],[],0,0⟩],[⟨23,115792089237316195423570985008687907853259350841671808832395782790876793653759,[],[],0,0⟩,⟨24,10633823966279326983230456482242756608,[],[(0,.nestRes),(1,.code)],0,2⟩,⟨35,2475880078570760549798248448,[],[(8,.nestRes),(9,.code)],0,4⟩,⟨46,140737488355328,[],[],0,0⟩,⟨48,2305843009213693952,[],[],0,0⟩,⟨50,283467841536,[],[],0,0⟩,⟨51,2305843009213693952,[],[],0,0⟩,⟨52,35184372088832,[],[],0,0⟩,⟨53,85070591730234615865843651857942052864,[],[],0,0⟩],[⟨25,8192,[],[],0,2⟩,⟨27,1024,[],[],0,2⟩,⟨28,4096,[],[],0,2⟩,⟨29,8192,[.crAlone],[],0,2⟩,⟨30,4294967808,[],[],0,2⟩,⟨31,115792089237316195423570985008687907853216815545809167404541431725497620875775,[],[(4,.code)],0,2⟩,⟨32,10633823966279326983230456482242756608,[],[(5,.nestInc)],0,2⟩,⟨33,42535295865117307932921825928971026432,[],[(6,.nestDec)],0,2⟩,⟨34,42535295865117307932921825928971026432,[.nestZero],[(7,.code)],2,0⟩],[⟨26,1024,[],[],0,2⟩],[⟨25,8192,[],[(2,.setEnt .internalNl),(3,.cb)],0,2⟩,⟨27,1024,[],[(2,.setEnt .internalNl),(3,.cb)],0,2⟩,⟨28,4096,[],[(2,.setEnt .internalNl),(3,.cb)],0,2⟩,⟨29,8192,[.crAlone],[(2,.setEnt .internalNl),(3,.cb)],0,2⟩,⟨30,4294967808,[],[(2,.setEnt .internalNl),(3,.cb)],0,2⟩,⟨31,115792089237316195423570985008687907853216815545809167404541431725497620875775,[],[(2,.setEnt .internalNl),(3,.cb),(4,.code)],0,2⟩,⟨32,10633823966279326983230456482242756608,[],[(2,.setEnt .internalNl),(3,.cb),(5,.nestInc)],0,2⟩,⟨33,42535295865117307932921825928971026432,[],[(2,.setEnt .internalNl),(3,.cb),(6,.nestDec)],0,2⟩,⟨34,42535295865117307932921825928971026432,[.nestZero],[(2,.setEnt .internalNl),(3,.cb),(7,.code)],2,0⟩],[⟨25,8192,[],[(2,.setEnt .internalNl),(3,.cb)],0,2⟩,⟨27,1024,[],[(2,.setEnt .internalNl),(3,.cb)],0,2⟩,⟨28,4096,[],[(2,.setEnt .internalNl),(3,.cb)],0,2⟩,⟨29,8192,[.crAlone],[(2,.setEnt .internalNl),(3,.cb)],0,2⟩,⟨30,4294967808,[],[(2,.setEnt .internalNl),(3,.cb)],0,2⟩,⟨31,115792089237316195423570985008687907853216815545809167404541431725497620875775,[],[(2,.setEnt .internalNl),(3,.cb),(4,.code)],0,2⟩,⟨32,10633823966279326983230456482242756608,[],[(2,.setEnt .internalNl),(3,.cb),(5,.nestInc)],0,2⟩,⟨33,42535295865117307932921825928971026432,[],[(2,.setEnt .internalNl),(3,.cb),(6,.nestDec)],0,2⟩,⟨34,42535295865117307932921825928971026432,[.nestZero],[(2,.setEnt .internalNl),(3,.cb),(7,.code)],2,0⟩],[⟨25,8192,[],[(2,.setEnt .internalNl),(3,.cb)],0,2⟩,⟨27,1024,[],[(2,.setEnt .internalNl),(3,.cb)],0,2⟩,⟨28,4096,[],[(2,.setEnt .internalNl),(3,.cb)],0,2⟩,⟨29,8192,[.crAlone],[(2,.setEnt .internalNl),(3,.cb)],0,2⟩,⟨30,4294967808,[],[(2,.setEnt .internalNl),(3,.cb)],0,2⟩,⟨31,115792089237316195423570985008687907853216815545809167404541431725497620875775,[],[(2,.setEnt .internalNl),(3,.cb),(4,.code)],0,2⟩,⟨32,10633823966279326983230456482242756608,[],[(2,.setEnt .internalNl),(3,.cb),(5,.nestInc)],0,2⟩,⟨33,42535295865117307932921825928971026432,[],[(2,.setEnt .internalNl),(3,.cb),(6,.nestDec)],0,2⟩,⟨34,42535295865117307932921825928971026432,[.nestZero],[(2,.setEnt .internalNl),(3,.cb),(7,.code)],2,0⟩],[⟨25,8192,[],[(2,.setEnt .internalNl),(3,.cb)],0,2⟩,⟨27,1024,[],[(2,.setEnt .internalNl),(3,.cb)],0,2⟩,⟨28,4096,[],[(2,.setEnt .internalNl),(3,.cb)],0,2⟩,⟨29,8192,[.crAlone],[(2,.setEnt .internalNl),(3,.cb)],0,2⟩,⟨30,4294967808,[],[(2,.setEnt .internalNl),(3,.cb)],0,2⟩,⟨31,115792089237316195423570985008687907853216815545809167404541431725497620875775,[],[(2,.setEnt .internalNl),(3,.cb),(4,.code)],0,2⟩,⟨32,10633823966279326983230456482242756608,[],[(2,.setEnt .internalNl),(3,.cb),(5,.nestInc)],0,2⟩,⟨33,42535295865117307932921825928971026432,[],[(2,.setEnt .internalNl),(3,.cb),(6,.nestDec)],0,2⟩,⟨34,42535295865117307932921825928971026432,[.nestZero],[(2,.setEnt .internalNl),(3,.cb),(7,.code)],2,0⟩],[⟨25,8192,[],[],0,2⟩,⟨27,1024,[],[],0,2⟩,⟨28,4096,[],[],0,2⟩,⟨29,8192,[.crAlone],[],0,2⟩,⟨30,4294967808,[],[],0,2⟩,⟨31,115792089237316195423570985008687907853216815545809167404541431725497620875775,[],[(4,.code)],0,2⟩,⟨32,10633823966279326983230456482242756608,[],[(5,.nestInc)],0,2⟩,⟨33,42535295865117307932921825928971026432,[],[(6,.nestDec)],0,2⟩,⟨34,42535295865117307932921825928971026432,[.nestZero],[(7,.code)],2,0⟩],[⟨25,8192,[],[],0,2⟩,⟨27,1024,[],[],0,2⟩,⟨28,4096,[],[],0,2⟩,⟨29,8192,[.crAlone],[],0,2⟩,⟨30,4294967808,[],[],0,2⟩,⟨31,115792089237316195423570985008687907853216815545809167404541431725497620875775,[],[(4,.code)],0,2⟩,⟨32,10633823966279326983230456482242756608,[],[(5,.nestInc)],0,2⟩,⟨33,42535295865117307932921825928971026432,[],[(6,.nestDec)],0,2⟩,⟨34,42535295865117307932921825928971026432,[.nestZero],[(7,.code)],2,0⟩],[⟨25,8192,[],[],0,2⟩,⟨27,1024,[],[],0,2⟩,⟨28,4096,[],[],0,2⟩,⟨29,8192,[.crAlone],[],0,2⟩,⟨30,4294967808,[],[],0,2⟩,⟨31,115792089237316195423570985008687907853216815545809167404541431725497620875775,[],[(4,.code)],0,2⟩,⟨32,10633823966279326983230456482242756608,[],[(5,.nestInc)],0,2⟩,⟨33,42535295865117307932921825928971026432,[],[(6,.nestDec)],0,2⟩,⟨34,42535295865117307932921825928971026432,[.nestZero],[(7,.code)],2,0⟩],[⟨25,8192,[],[],0,2⟩,⟨27,1024,[],[],0,2⟩,⟨28,4096,[],[],0,2⟩,⟨29,8192,[.crAlone],[],0,2⟩,⟨30,4294967808,[],[],0,2⟩,⟨31,115792089237316195423570985008687907853216815545809167404541431725497620875775,[],[(4,.code)],0,2⟩,⟨32,10633823966279326983230456482242756608,[],[(5,.nestInc)],0,2⟩,⟨33,42535295865117307932921825928971026432,[],[(6,.nestDec)],0,2⟩,⟨34,42535295865117307932921825928971026432,[.nestZero],[(7,.code)],2,0⟩],[⟨46,140737488355328,[],[],0,0⟩,⟨48,2305843009213693952,[],[],0,0⟩,⟨50,283467841536,[],[],0,0⟩,⟨51,2305843009213693952,[],[],0,0⟩,⟨52,35184372088832,[],[],0,0⟩,⟨53,85070591730234615865843651857942052864,[],[],0,0⟩],[⟨36,8192,[],[],0,4⟩,⟨38,1024,[],[],0,4⟩,⟨39,4096,[],[],0,4⟩,⟨40,8192,[.crAlone],[],0,4⟩,⟨41,4294967808,[],[],0,4⟩,⟨42,2475880078570760549798248448,[],[(12,.nestInc)],0,4⟩,⟨43,9903520314283042199192993792,[],[(13,.nestDec)],0,4⟩,⟨44,115792089237316195423570985008687907853269984665628184639064730205159843416575,[],[(14,.code)],0,4⟩,⟨45,9903520314283042199192993792,[.nestZero],[(15,.code)],4,0⟩],[⟨37,1024,[],[],0,4⟩],[⟨36,8192,[],[(10,.setEnt .internalNl),(11,.cb)],0,4⟩,⟨38,1024,[],[(10,.setEnt .internalNl),(11,.cb)],0,4⟩,⟨39,4096,[],[(10,.setEnt .internalNl),(11,.cb)],0,4⟩,⟨40,8192,[.crAlone],[(10,.setEnt .internalNl),(11,.cb)],0,4⟩,⟨41,4294967808,[],[(10,.setEnt .internalNl),(11,.cb)],0,4⟩,⟨42,2475880078570760549798248448,[],[(10,.setEnt .internalNl),(11,.cb),(12,.nestInc)],0,4⟩,⟨43,9903520314283042199192993792,[],[(10,.setEnt .internalNl),(11,.cb),(13,.nestDec)],0,4⟩,⟨44,115792089237316195423570985008687907853269984665628184639064730205159843416575,[],[(10,.setEnt .internalNl),(11,.cb),(14,.code)],0,4⟩,⟨45,9903520314283042199192993792,[.nestZero],[(10,.setEnt .internalNl),(11,.cb),(15,.code)],4,0⟩],[⟨36,8192,[],[(10,.setEnt .internalNl),(11,.cb)],0,4⟩,⟨38,1024,[],[(10,.setEnt .internalNl),(11,.cb)],0,4⟩,⟨39,4096,[],[(10,.setEnt .internalNl),(11,.cb)],0,4⟩,⟨40,8192,[.crAlone],[(10,.setEnt .internalNl),(11,.cb)],0,4⟩,⟨41,4294967808,[],[(10,.setEnt .internalNl),(11,.cb)],0,4⟩,⟨42,2475880078570760549798248448,[],[(10,.setEnt .internalNl),(11,.cb),(12,.nestInc)],0,4⟩,⟨43,9903520314283042199192993792,[],[(10,.setEnt .internalNl),(11,.cb),(13,.nestDec)],0,4⟩,⟨44,115792089237316195423570985008687907853269984665628184639064730205159843416575,[],[(10,.setEnt .internalNl),(11,.cb),(14,.code)],0,4⟩,⟨45,9903520314283042199192993792,[.nestZero],[(10,.setEnt .internalNl),(11,.cb),(15,.code)],4,0⟩],[⟨36,8192,[],[(10,.setEnt .internalNl),(11,.cb)],0,4⟩,⟨38,1024,[],[(10,.setEnt .internalNl),(11,.cb)],0,4⟩,⟨39,4096,[],[(10,.setEnt .internalNl),(11,.cb)],0,4⟩,⟨40,8192,[.crAlone],[(10,.setEnt .internalNl),(11,.cb)],0,4⟩,⟨41,4294967808,[],[(10,.setEnt .internalNl),(11,.cb)],0,4⟩,⟨42,2475880078570760549798248448,[],[(10,.setEnt .internalNl),(11,.cb),(12,.nestInc)],0,4⟩,⟨43,9903520314283042199192993792,[],[(10,.setEnt .internalNl),(11,.cb),(13,.nestDec)],0,4⟩,⟨44,115792089237316195423570985008687907853269984665628184639064730205159843416575,[],[(10,.setEnt .internalNl),(11,.cb),(14,.code)],0,4⟩,⟨45,9903520314283042199192993792,[.nestZero],[(10,.setEnt .internalNl),(11,.cb),(15,.code)],4,0⟩],[⟨36,8192,[],[(10,.setEnt .internalNl),(11,.cb)],0,4⟩,⟨38,1024,[],[(10,.setEnt .internalNl),(11,.cb)],0,4⟩,⟨39,4096,[],[(10,.setEnt .internalNl),(11,.cb)],0,4⟩,⟨40,8192,[.crAlone],[(10,.setEnt .internalNl),(11,.cb)],0,4⟩,⟨41,4294967808,[],[(10,.setEnt .internalNl),(11,.cb)],0,4⟩,⟨42,2475880078570760549798248448,[],[(10,.setEnt .internalNl),(11,.cb),(12,.nestInc)],0,4⟩,⟨43,9903520314283042199192993792,[],[(10,.setEnt .internalNl),(11,.cb),(13,.nestDec)],0,4⟩,⟨44,115792089237316195423570985008687907853269984665628184639064730205159843416575,[],[(10,.setEnt .internalNl),(11,.cb),(14,.code)],0,4⟩,⟨45,9903520314283042199192993792,[.nestZero],[(10,.setEnt .internalNl),(11,.cb),(15,.code)],4,0⟩],[⟨36,8192,[],[],0,4⟩,⟨38,1024,[],[],0,4⟩,⟨39,4096,[],[],0,4⟩,⟨40,8192,[.crAlone],[],0,4⟩,⟨41,4294967808,[],[],0,4⟩,⟨42,2475880078570760549798248448,[],[(12,.nestInc)],0,4⟩,⟨43,9903520314283042199192993792,[],[(13,.nestDec)],0,4⟩,⟨44,115792089237316195423570985008687907853269984665628184639064730205159843416575,[],[(14,.code)],0,4⟩,⟨45,9903520314283042199192993792,[.nestZero],[(15,.code)],4,0⟩],[⟨36,8192,[],[],0,4⟩,⟨38,1024,[],[],0,4⟩,⟨39,4096,[],[],0,4⟩,⟨40,8192,[.crAlone],[],0,4⟩,⟨41,4294967808,[],[],0,4⟩,⟨42,2475880078570760549798248448,[],[(12,.nestInc)],0,4⟩,⟨43,9903520314283042199192993792,[],[(13,.nestDec)],0,4⟩,⟨44,115792089237316195423570985008687907853269984665628184639064730205159843416575,[],[(14,.code)],0,4⟩,⟨45,9903520314283042199192993792,[.nestZero],[(15,.code)],4,0⟩],[⟨36,8192,[],[],0,4⟩,⟨38,1024,[],[],0,4⟩,⟨39,4096,[],[],0,4⟩,⟨40,8192,[.crAlone],[],0,4⟩,⟨41,4294967808,[],[],0,4⟩,⟨42,2475880078570760549798248448,[],[(12,.nestInc)],0,4⟩,⟨43,9903520314283042199192993792,[],[(13,.nestDec)],0,4⟩,⟨44,115792089237316195423570985008687907853269984665628184639064730205159843416575,[],[(14,.code)],0,4⟩,⟨45,9903520314283042199192993792,[.nestZero],[(15,.code)],4,0⟩],[⟨36,8192,[],[],0,4⟩,⟨38,1024,[],[],0,4⟩,⟨39,4096,[],[],0,4⟩,⟨40,8192,[.crAlone],[],0,4⟩,⟨41,4294967808,[],[],0,4⟩,⟨42,2475880078570760549798248448,[],[(12,.nestInc)],0,4⟩,⟨43,9903520314283042199192993792,[],[(13,.nestDec)],0,4⟩,⟨44,115792089237316195423570985008687907853269984665628184639064730205159843416575,[],[(14,.code)],0,4⟩,⟨45,9903520314283042199192993792,[.nestZero],[(15,.code)],4,0⟩],[⟨46,140737488355328,[],[],0,0⟩,⟨48,2305843009213693952,[],[],0,0⟩,⟨50,283467841536,[],[],0,0⟩,⟨51,2305843009213693952,[],[],0,0⟩,⟨52,35184372088832,[],[],0,0⟩,⟨53,85070591730234615865843651857942052864,[],[],0,0⟩],[⟨47,140737488355328,[],[],0,0⟩],[⟨48,2305843009213693952,[],[],0,0⟩,⟨50,283467841536,[],[],0,0⟩,⟨51,2305843009213693952,[],[],0,0⟩,⟨52,35184372088832,[],[],0,0⟩,⟨53,85070591730234615865843651857942052864,[],[],0,0⟩],[⟨49,2305843009213693952,[],[],0,0⟩],[⟨54,4294967808,[],[(16,.code),(17,.setEnt .checkBlank),(18,.emb (.saw 1))],0,0⟩],[⟨51,2305843009213693952,[],[],0,0⟩],[⟨54,4294967808,[],[(16,.code),(17,.setEnt .checkBlank),(18,.emb (.saw 1))],0,0⟩],[⟨54,4294967808,[],[(16,.code),(17,.setEnt .checkBlank),(18,.emb (.saw 1))],0,0⟩],[⟨54,4294967808,[],[(16,.code),(17,.setEnt .checkBlank),(18,.emb (.saw 1))],0,0⟩],[],[⟨55,4294967808,[],[(19,.setEnt (.own 0))],0,0⟩],[⟨57,4294967296,[],[(21,.emb .indInc)],0,0⟩],[⟨58,4294967296,[],[],0,0⟩,⟨60,35184372088832,[],[(23,.emb .indSet)],0,0⟩,⟨62,140737488355328,[],[(23,.emb .indSet),(24,.comment)],0,0⟩],[⟨59,4294967296,[],[(22,.emb .indInc)],0,0⟩],[⟨58,4294967296,[],[],0,0⟩,⟨60,35184372088832,[],[(23,.emb .indSet)],0,0⟩,⟨62,140737488355328,[],[(23,.emb .indSet),(24,.comment)],0,0⟩],[⟨61,34359738368,[],[(24,.comment)],0,0⟩],[⟨63,8192,[],[(25,.emb .indRes)],0,0⟩,⟨65,1024,[],[(25,.emb .indRes)],0,0⟩,⟨66,4096,[],[(25,.emb .indRes)],0,0⟩,⟨67,8192,[.crAlone],[(25,.emb .indRes)],0,0⟩,⟨77,4294967808,[],[],0,0⟩,⟨78,115792089237316195423570985008687907853269984665640564039457584007908834658815,[],[(32,.comment)],0,0⟩],[⟨63,8192,[],[(25,.emb .indRes)],0,0⟩,⟨65,1024,[],[(25,.emb .indRes)],0,0⟩,⟨66,4096,[],[(25,.emb .indRes)],0,0⟩,⟨67,8192,[.crAlone],[(25,.emb .indRes)],0,0⟩,⟨77,4294967808,[],[],0,0⟩,⟨78,115792089237316195423570985008687907853269984665640564039457584007908834658815,[],[(32,.comment)],0,0⟩],[⟨64,1024,[],[],0,0⟩],[⟨68,8192,[],[(26,.setEnt .internalNl),(27,.cb)],0,0⟩,⟨70,1024,[],[(26,.setEnt .internalNl),(27,.cb)],0,0⟩,⟨71,4096,[],[(26,.setEnt .internalNl),(27,.cb)],0,0⟩,⟨72,8192,[.crAlone],[(26,.setEnt .internalNl),(27,.cb)],0,0⟩,⟨73,4294967296,[.indLt],[(26,.setEnt .internalNl),(27,.cb)],0,0⟩,⟨75,4294967296,[.indGe],[(26,.setEnt .internalNl),(27,.cb)],0,0⟩],[⟨68,8192,[],[(26,.setEnt .internalNl),(27,.cb)],0,0⟩,⟨70,1024,[],[(26,.setEnt .internalNl),(27,.cb)],0,0⟩,⟨71,4096,[],[(26,.setEnt .internalNl),(27,.cb)],0,0⟩,⟨72,8192,[.crAlone],[(26,.setEnt .internalNl),(27,.cb)],0,0⟩,⟨73,4294967296,[.indLt],[(26,.setEnt .internalNl),(27,.cb)],0,0⟩,⟨75,4294967296,[.indGe],[(26,.setEnt .internalNl),(27,.cb)],0,0⟩],[⟨68,8192,[],[(26,.setEnt .internalNl),(27,.cb)],0,0⟩,⟨70,1024,[],[(26,.setEnt .internalNl),(27,.cb)],0,0⟩,⟨71,4096,[],[(26,.setEnt .internalNl),(27,.cb)],0,0⟩,⟨72,8192,[.crAlone],[(26,.setEnt .internalNl),(27,.cb)],0,0⟩,⟨73,4294967296,[.indLt],[(26,.setEnt .internalNl),(27,.cb)],0,0⟩,⟨75,4294967296,[.indGe],[(26,.setEnt .internalNl),(27,.cb)],0,0⟩],[⟨68,8192,[],[(26,.setEnt .internalNl),(27,.cb)],0,0⟩,⟨70,1024,[],[(26,.setEnt .internalNl),(27,.cb)],0,0⟩,⟨71,4096,[],[(26,.setEnt .internalNl),(27,.cb)],0,0⟩,⟨72,8192,[.crAlone],[(26,.setEnt .internalNl),(27,.cb)],0,0⟩,⟨73,4294967296,[.indLt],[(26,.setEnt .internalNl),(27,.cb)],0,0⟩,⟨75,4294967296,[.indGe],[(26,.setEnt .internalNl),(27,.cb)],0,0⟩],[⟨69,1024,[],[],0,0⟩],[⟨68,8192,[],[(28,.setEnt .internalNl),(29,.cb)],0,0⟩,⟨70,1024,[],[(28,.setEnt .internalNl),(29,.cb)],0,0⟩,⟨71,4096,[],[(28,.setEnt .internalNl),(29,.cb)],0,0⟩,⟨72,8192,[.crAlone],[(28,.setEnt .internalNl),(29,.cb)],0,0⟩,⟨73,4294967296,[.indLt],[(28,.setEnt .internalNl),(29,.cb)],0,0⟩,⟨75,4294967296,[.indGe],[(28,.setEnt .internalNl),(29,.cb)],0,0⟩],[⟨68,8192,[],[(28,.setEnt .internalNl),(29,.cb)],0,0⟩,⟨70,1024,[],[(28,.setEnt .internalNl),(29,.cb)],0,0⟩,⟨71,4096,[],[(28,.setEnt .internalNl),(29,.cb)],0,0⟩,⟨72,8192,[.crAlone],[(28,.setEnt .internalNl),(29,.cb)],0,0⟩,⟨73,4294967296,[.indLt],[(28,.setEnt .internalNl),(29,.cb)],0,0⟩,⟨75,4294967296,[.indGe],[(28,.setEnt .internalNl),(29,.cb)],0,0⟩],[⟨68,8192,[],[(28,.setEnt .internalNl),(29,.cb)],0,0⟩,⟨70,1024,[],[(28,.setEnt .internalNl),(29,.cb)],0,0⟩,⟨71,4096,[],[(28,.setEnt .internalNl),(29,.cb)],0,0⟩,⟨72,8192,[.crAlone],[(28,.setEnt .internalNl),(29,.cb)],0,0⟩,⟨73,4294967296,[.indLt],[(28,.setEnt .internalNl),(29,.cb)],0,0⟩,⟨75,4294967296,[.indGe],[(28,.setEnt .internalNl),(29,.cb)],0,0⟩],[⟨68,8192,[],[(28,.setEnt .internalNl),(29,.cb)],0,0⟩,⟨70,1024,[],[(28,.setEnt .internalNl),(29,.cb)],0,0⟩,⟨71,4096,[],[(28,.setEnt .internalNl),(29,.cb)],0,0⟩,⟨72,8192,[.crAlone],[(28,.setEnt .internalNl),(29,.cb)],0,0⟩,⟨73,4294967296,[.indLt],[(28,.setEnt .internalNl),(29,.cb)],0,0⟩,⟨75,4294967296,[.indGe],[(28,.setEnt .internalNl),(29,.cb)],0,0⟩],[⟨74,4294967296,[.indLt],[(30,.emb .indInc)],0,0⟩],[⟨73,4294967296,[.indLt],[],0,0⟩,⟨75,4294967296,[.indGe],[],0,0⟩],[⟨76,4294967296,[.indGe],[(31,.emb .indInc)],0,0⟩],[⟨75,4294967296,[.indGe],[],0,0⟩,⟨63,8192,[],[(25,.emb .indRes)],0,0⟩,⟨65,1024,[],[(25,.emb .indRes)],0,0⟩,⟨66,4096,[],[(25,.emb .indRes)],0,0⟩,⟨67,8192,[.crAlone],[(25,.emb .indRes)],0,0⟩,⟨77,4294967808,[],[],0,0⟩,⟨78,115792089237316195423570985008687907853269984665640564039457584007908834658815,[],[(32,.comment)],0,0⟩],[⟨63,8192,[],[(25,.emb .indRes)],0,0⟩,⟨65,1024,[],[(25,.emb .indRes)],0,0⟩,⟨66,4096,[],[(25,.emb .indRes)],0,0⟩,⟨67,8192,[.crAlone],[(25,.emb .indRes)],0,0⟩,⟨77,4294967808,[],[],0,0⟩,⟨78,115792089237316195423570985008687907853269984665640564039457584007908834658815,[],[(32,.comment)],0,0⟩],[⟨63,8192,[],[(25,.emb .indRes)],0,0⟩,⟨65,1024,[],[(25,.emb .indRes)],0,0⟩,⟨66,4096,[],[(25,.emb .indRes)],0,0⟩,⟨67,8192,[.crAlone],[(25,.emb .indRes)],0,0⟩,⟨77,4294967808,[],[],0,0⟩,⟨78,115792089237316195423570985008687907853269984665640564039457584007908834658815,[],[(32,.comment)],0,0⟩],[⟨80,4294967296,[],[(33,.emb .indInc)],0,0⟩],[⟨79,4294967296,[],[],0,0⟩,⟨81,115792089237316195423570985008687907853184914073910329423589434266579275598847,[],[(34,.code)],0,0⟩],[⟨82,115792089237316195423570985008687907853269984665640564039457584007913129626623,[],[(35,.code)],0,0⟩,⟨83,21267647932558653966460912964485513216,[],[(36,.code)],0,0⟩],[⟨82,115792089237316195423570985008687907853269984665640564039457584007913129626623,[],[(35,.code)],0,0⟩,⟨83,21267647932558653966460912964485513216,[],[(36,.code)],0,0⟩],[⟨84,8192,[],[],0,0⟩,⟨86,1024,[],[],0,0⟩,⟨87,4096,[],[],0,0⟩,⟨88,8192,[.crAlone],[],0,0⟩],[⟨85,1024,[],[],0,0⟩],[⟨82,115792089237316195423570985008687907853269984665640564039457584007913129626623,[],[(37,.setEnt .internalNl),(35,.code)],0,0⟩,⟨83,21267647932558653966460912964485513216,[],[(37,.setEnt .internalNl),(36,.code)],0,0⟩],[⟨82,115792089237316195423570985008687907853269984665640564039457584007913129626623,[],[(37,.setEnt .internalNl),(35,.code)],0,0⟩,⟨83,21267647932558653966460912964485513216,[],[(37,.setEnt .internalNl),(36,.code)],0,0⟩],[⟨82,115792089237316195423570985008687907853269984665640564039457584007913129626623,[],[(37,.setEnt .internalNl),(35,.code)],0,0⟩,⟨83,21267647932558653966460912964485513216,[],[(37,.setEnt .internalNl),(36,.code)],0,0⟩],[⟨82,115792089237316195423570985008687907853269984665640564039457584007913129626623,[],[(37,.setEnt .internalNl),(35,.code)],0,0⟩,⟨83,21267647932558653966460912964485513216,[],[(37,.setEnt .internalNl),(36,.code)],0,0⟩],[⟨90,1024,[],[(38,.setEnt .newline)],0,0⟩],[],[],[],[],[]],[none,none,none,none,none,none,none,none,none,none,none,none,none,none,none,none,none,none,none,none,none,none,none,none,none,none,none,none,none,none,none,none,none,none,none,none,none,none,none,none,none,none,none,none,none,none,none,none,none,none,none,none,none,none,some (0,[]),some (1,[]),none,none,none,none,none,some (2,[]),some (2,[]),none,none,none,none,none,none,none,none,none,none,none,none,none,some (2,[]),some (2,[]),some (2,[]),none,none,some (3,[]),some (3,[]),none,none,some (3,[(37,.setEnt .internalNl)]),some (3,[(37,.setEnt .internalNl)]),some (3,[(37,.setEnt .internalNl)]),some (3,[(37,.setEnt .internalNl)]),none,some (4,[]),some (4,[]),some (4,[]),some (4,[]),some (5,[])],[19,20,33,38,39,40]⟩
def emb57_masks : List Nat := [4294967296,137438953472,2305843009213693952,283467841536,35184372088832,85070591730234615865843651857942052864,4294967808,140737488355328,115792089237316195423570985008687907853184914073910329423589434266579275598847,8192,1024,4096,115792089237316195423570985008687907853269984665640564039457584007908834656767,115792089237316195423570985008687907853174280249941574216527633260541797976575,8589934592,274877906944,115792089237316195423570985008687907853259350841671808832395782790876793653759,10633823966279326983230456482242756608,2475880078570760549798248448,115792089237316195423570985008687907853259350841671808832393476947867579959807,115792089237316195423570985008687907853216815545809167404541431725497620875775,42535295865117307932921825928971026432,9903520314283042199192993792,115792089237316195423570985008687907853269984665628184639064730205159843416575,34359738368,115792089237316195423570985008687907853269984665640564039457584007908834658815,115792089237316195423570985008687907853269984665640564039457584007913129626623,21267647932558653966460912964485513216]
def emb57_cs : List (Nat × Nat) := [(0,115792089237316195423570985008687907853110477306133994734313967268171117216255),(9,512),(10,1024),(11,2048),(12,4096),(13,8192),(32,4294967296),(33,8589934592),(35,34359738368),(37,137438953472),(38,274877906944),(45,35184372088832),(46,70368744177664),(47,140737488355328),(61,2305843009213693952),(91,2475880078570760549798248448),(93,9903520314283042199192993792),(123,10633823966279326983230456482242756608),(124,21267647932558653966460912964485513216),(125,42535295865117307932921825928971026432),(126,85070591730234615865843651857942052864)]
theorem emb57_masksIn : masksIn emb57_nfa emb57_masks = true := by decide +kernel
theorem emb57_repOk : repOk emb57_masks emb57_cs = true := by decide +kernel
def emb57_rows : List Row := [⟨[],none,[],[⟨256,.other,false,some ⟨1,[.code,.setEnt (.own 7)],some 3,false⟩⟩,⟨256,.ws,false,some ⟨2,[.setEnt (.own 0),.code],some 1,false⟩⟩,⟨256,.lf,false,some ⟨0,[.setEnt .newline],some 4,true⟩⟩,⟨256,.vt,false,some ⟨3,[.code],some 3,false⟩⟩,⟨256,.ff,false,some ⟨0,[.setEnt .newline],some 4,true⟩⟩,⟨256,.cr,false,some ⟨4,[.setEnt .newline],none,false⟩⟩,⟨256,.cr,true,some ⟨5,[.setEnt .newline],some 4,false⟩⟩,⟨256,.ws,false,some ⟨6,[.setEnt (.own 0),.emb .indRes],some 1,false⟩⟩,⟨256,.other,false,some ⟨7,[.code,.setEnt (.own 7)],some 3,false⟩⟩,⟨256,.other,false,some ⟨0,[.setEnt (.own 7)],some 5,true⟩⟩,⟨256,.other,false,some ⟨8,[.setEnt (.own 7)],some 5,false⟩⟩,⟨256,.other,false,some ⟨9,[.emb .indSet,.setEnt (.own 7)],some 5,false⟩⟩,⟨256,.other,false,some ⟨10,[.emb .indSet,.comment,.setEnt (.own 7)],some 2,false⟩⟩,⟨256,.other,false,some ⟨11,[.setEnt (.own 7)],some 5,false⟩⟩,⟨256,.other,false,some ⟨12,[.setEnt (.own 7)],some 5,false⟩⟩]⟩,⟨[81,94],some 3,[],[⟨256,.other,false,some ⟨13,[.code],some 3,false⟩⟩,⟨256,.ws,false,some ⟨13,[.code],some 3,false⟩⟩,⟨256,.lf,false,none⟩,⟨256,.vt,false,some ⟨13,[.code],some 3,false⟩⟩,⟨256,.ff,false,none⟩,⟨256,.cr,false,none⟩,⟨256,.cr,true,none⟩,⟨256,.other,false,some ⟨14,[.code],some 3,false⟩⟩]⟩,⟨[55,81],some 1,[],[⟨256,.other,false,some ⟨13,[.code],some 3,false⟩⟩,⟨256,.ws,false,some ⟨15,[.setEnt (.own 0),.code],some 1,false⟩⟩,⟨256,.lf,false,none⟩,⟨256,.vt,false,some ⟨13,[.code],some 3,false⟩⟩,⟨256,.ff,false,none⟩,⟨256,.cr,false,none⟩,⟨256,.cr,true,none⟩,⟨256,.other,false,some ⟨14,[.code],some 3,false⟩⟩]⟩,⟨[81],some 3,[],[⟨256,.other,false,some ⟨13,[.code],some 3,false⟩⟩,⟨256,.ws,false,some ⟨13,[.code],some 3,false⟩⟩,⟨256,.lf,false,none⟩,⟨256,.vt,false,some ⟨13,[.code],some 3,false⟩⟩,⟨256,.ff,false,none⟩,⟨256,.cr,false,none⟩,⟨256,.cr,true,none⟩,⟨256,.other,false,some ⟨14,[.code],some 3,false⟩⟩]⟩,⟨[89],none,[],[⟨256,.other,false,none⟩,⟨256,.ws,false,none⟩,⟨256,.lf,false,some ⟨0,[.setEnt .newline],some 4,true⟩⟩,⟨256,.vt,false,none⟩,⟨256,.ff,false,none⟩,⟨256,.cr,false,none⟩,⟨256,.cr,true,none⟩]⟩,⟨[89,93],some 4,[],[⟨256,.other,false,none⟩,⟨256,.ws,false,none⟩,⟨256,.lf,false,some ⟨0,[.setEnt .newline],some 4,true⟩⟩,⟨256,.vt,false,none⟩,⟨256,.ff,false,none⟩,⟨256,.cr,false,none⟩,⟨256,.cr,true,none⟩]⟩,⟨[0,55,56,58,79],some 1,[],[⟨256,.other,false,none⟩,⟨256,.ws,false,some ⟨16,[.setEnt (.own 0)],some 1,false⟩⟩,⟨256,.lf,false,none⟩,⟨256,.vt,false,none⟩,⟨256,.ff,false,none⟩,⟨256,.cr,false,none⟩,⟨256,.cr,true,none⟩,⟨256,.ws,false,some ⟨17,[.setEnt (.own 0),.emb .indInc],some 1,false⟩⟩]⟩,⟨[50,81,94],some 3,[],[⟨256,.other,false,some ⟨13,[.code],some 3,false⟩⟩,⟨256,.ws,false,some ⟨13,[.code],some 3,false⟩⟩,⟨256,.lf,false,none⟩,⟨256,.vt,false,some ⟨13,[.code],some 3,false⟩⟩,⟨256,.ff,false,none⟩,⟨256,.cr,false,none⟩,⟨256,.cr,true,none⟩,⟨256,.other,false,some ⟨18,[.code],some 3,false⟩⟩,⟨256,.other,false,some ⟨14,[.code],some 3,false⟩⟩]⟩,⟨[2,94],some 5,[],[⟨256,.other,false,some ⟨19,[],none,false⟩⟩,⟨256,.ws,false,none⟩,⟨256,.lf,false,none⟩,⟨256,.vt,false,some ⟨19,[],none,false⟩⟩,⟨256,.ff,false,none⟩,⟨256,.cr,false,none⟩,⟨256,.cr,true,none⟩,⟨256,.other,false,some ⟨20,[],none,false⟩⟩,⟨256,.other,false,some ⟨21,[],none,false⟩⟩,⟨256,.other,false,some ⟨22,[],none,false⟩⟩,⟨256,.other,false,some ⟨23,[],none,false⟩⟩,⟨256,.other,false,none⟩,⟨256,.other,false,some ⟨24,[],none,false⟩⟩]⟩,⟨[52,60,94],some 5,[],[⟨256,.other,false,none⟩,⟨256,.ws,false,some ⟨0,[.code,.setEnt .checkBlank,.emb (.saw 1)],some 0,true⟩⟩,⟨256,.lf,false,none⟩,⟨256,.vt,false,none⟩,⟨256,.ff,false,none⟩,⟨256,.cr,false,none⟩,⟨256,.cr,true,none⟩,⟨256,.other,false,some ⟨25,[.comment],some 2,false⟩⟩]⟩,⟨[62,94],some 2,[],[⟨256,.other,false,some ⟨26,[.comment],some 2,false⟩⟩,⟨256,.ws,false,some ⟨27,[],some 2,false⟩⟩,⟨256,.lf,false,some ⟨28,[.emb .indRes],none,false⟩⟩,⟨256,.vt,false,some ⟨26,[.comment],some 2,false⟩⟩,⟨256,.ff,false,some ⟨29,[.emb .indRes],none,false⟩⟩,⟨256,.cr,false,some ⟨30,[.emb .indRes],none,false⟩⟩,⟨256,.cr,true,some ⟨31,[.emb .indRes],none,false⟩⟩]⟩,⟨[48,51,94],some 5,[],[⟨256,.other,false,none⟩,⟨256,.ws,false,some ⟨0,[.code,.setEnt .checkBlank,.emb (.saw 1)],some 0,true⟩⟩,⟨256,.lf,false,none⟩,⟨256,.vt,false,none⟩,⟨256,.ff,false,none⟩,⟨256,.cr,false,none⟩,⟨256,.cr,true,none⟩,⟨256,.other,false,some ⟨32,[],none,false⟩⟩]⟩,⟨[53,94],some 5,[],[⟨256,.other,false,none⟩,⟨256,.ws,false,some ⟨0,[.code,.setEnt .checkBlank,.emb (.saw 1)],some 0,true⟩⟩,⟨256,.lf,false,none⟩,⟨256,.vt,false,none⟩,⟨256,.ff,false,none⟩,⟨256,.cr,false,none⟩,⟨256,.cr,true,none⟩]⟩,⟨[82],some 3,[],[⟨256,.other,false,some ⟨13,[.code],some 3,false⟩⟩,⟨256,.ws,false,some ⟨13,[.code],some 3,false⟩⟩,⟨256,.lf,false,none⟩,⟨256,.vt,false,some ⟨13,[.code],some 3,false⟩⟩,⟨256,.ff,false,none⟩,⟨256,.cr,false,none⟩,⟨256,.cr,true,none⟩,⟨256,.other,false,some ⟨14,[.code],some 3,false⟩⟩]⟩,⟨[82,83],some 3,[],[⟨256,.other,false,some ⟨13,[.code],some 3,false⟩⟩,⟨256,.ws,false,some ⟨13,[.code],some 3,false⟩⟩,⟨256,.lf,false,some ⟨33,[],some 3,false⟩⟩,⟨256,.vt,false,some ⟨13,[.code],some 3,false⟩⟩,⟨256,.ff,false,some ⟨34,[],some 3,false⟩⟩,⟨256,.cr,false,some ⟨35,[],none,false⟩⟩,⟨256,.cr,true,some ⟨36,[],some 3,false⟩⟩,⟨256,.other,false,some ⟨14,[.code],some 3,false⟩⟩]⟩,⟨[55,82],some 1,[],[⟨256,.other,false,some ⟨13,[.code],some 3,false⟩⟩,⟨256,.ws,false,some ⟨15,[.setEnt (.own 0),.code],some 1,false⟩⟩,⟨256,.lf,false,none⟩,⟨256,.vt,false,some ⟨13,[.code],some 3,false⟩⟩,⟨256,.ff,false,none⟩,⟨256,.cr,false,none⟩,⟨256,.cr,true,none⟩,⟨256,.other,false,some ⟨14,[.code],some 3,false⟩⟩]⟩,⟨[55],some 1,[],[⟨256,.other,false,none⟩,⟨256,.ws,false,some ⟨16,[.setEnt (.own 0)],some 1,false⟩⟩,⟨256,.lf,false,none⟩,⟨256,.vt,false,none⟩,⟨256,.ff,false,none⟩,⟨256,.cr,false,none⟩,⟨256,.cr,true,none⟩]⟩,⟨[1,55,57,59,80],some 1,[],[⟨256,.other,false,some ⟨3,[.code],some 3,false⟩⟩,⟨256,.ws,false,some ⟨2,[.setEnt (.own 0),.code],some 1,false⟩⟩,⟨256,.lf,false,none⟩,⟨256,.vt,false,some ⟨3,[.code],some 3,false⟩⟩,⟨256,.ff,false,none⟩,⟨256,.cr,false,none⟩,⟨256,.cr,true,none⟩,⟨256,.ws,false,some ⟨37,[.setEnt (.own 0)],some 1,false⟩⟩,⟨256,.other,false,some ⟨38,[.code],some 3,false⟩⟩,⟨256,.other,false,none⟩,⟨256,.other,false,some ⟨39,[],none,false⟩⟩,⟨256,.other,false,some ⟨40,[.emb .indSet],none,false⟩⟩,⟨256,.other,false,some ⟨41,[.emb .indSet,.comment],some 2,false⟩⟩,⟨256,.other,false,some ⟨42,[],none,false⟩⟩,⟨256,.other,false,some ⟨43,[],none,false⟩⟩]⟩,⟨[51,82],some 3,[],[⟨256,.other,false,some ⟨13,[.code],some 3,false⟩⟩,⟨256,.ws,false,some ⟨44,[.code,.setEnt .checkBlank,.emb (.saw 1)],some 0,false⟩⟩,⟨256,.lf,false,none⟩,⟨256,.vt,false,some ⟨13,[.code],some 3,false⟩⟩,⟨256,.ff,false,none⟩,⟨256,.cr,false,none⟩,⟨256,.cr,true,none⟩,⟨256,.other,false,some ⟨14,[.code],some 3,false⟩⟩]⟩,⟨[3],none,[],[⟨256,.other,false,some ⟨45,[],none,false⟩⟩,⟨256,.ws,false,none⟩,⟨256,.lf,false,none⟩,⟨256,.vt,false,some ⟨45,[],none,false⟩⟩,⟨256,.ff,false,none⟩,⟨256,.cr,false,none⟩,⟨256,.cr,true,none⟩,⟨256,.other,false,some ⟨46,[],none,false⟩⟩,⟨256,.other,false,some ⟨47,[],none,false⟩⟩,⟨256,.other,false,some ⟨48,[],none,false⟩⟩,⟨256,.other,false,some ⟨49,[],none,false⟩⟩,⟨256,.other,false,some ⟨50,[.nestRes,.code],none,false⟩⟩,⟨256,.other,false,some ⟨51,[.nestRes,.code],none,false⟩⟩,⟨256,.other,false,some ⟨52,[],none,false⟩⟩]⟩,⟨[5],none,[],[⟨256,.other,false,some ⟨53,[],none,false⟩⟩,⟨256,.ws,false,none⟩,⟨256,.lf,false,none⟩,⟨256,.vt,false,some ⟨53,[],none,false⟩⟩,⟨256,.ff,false,none⟩,⟨256,.cr,false,none⟩,⟨256,.cr,true,none⟩,⟨256,.other,false,some ⟨54,[],none,false⟩⟩,⟨256,.other,false,some ⟨55,[],none,false⟩⟩,⟨256,.other,false,some ⟨56,[],none,false⟩⟩,⟨256,.other,false,some ⟨57,[],none,false⟩⟩,⟨256,.other,false,some ⟨50,[.nestRes,.code],none,false⟩⟩,⟨256,.other,false,some ⟨51,[.nestRes,.code],none,false⟩⟩,⟨256,.other,false,some ⟨58,[],none,false⟩⟩]⟩,⟨[10],none,[],[⟨256,.other,false,some ⟨59,[],none,false⟩⟩,⟨256,.ws,false,none⟩,⟨256,.lf,false,none⟩,⟨256,.vt,false,some ⟨59,[],none,false⟩⟩,⟨256,.ff,false,none⟩,⟨256,.cr,false,none⟩,⟨256,.cr,true,none⟩,⟨256,.other,false,some ⟨60,[],none,false⟩⟩,⟨256,.other,false,some ⟨61,[],none,false⟩⟩,⟨256,.other,false,some ⟨62,[],none,false⟩⟩,⟨256,.other,false,some ⟨63,[],none,false⟩⟩,⟨256,.other,false,some ⟨50,[.nestRes,.code],none,false⟩⟩,⟨256,.other,false,some ⟨51,[.nestRes,.code],none,false⟩⟩,⟨256,.other,false,some ⟨64,[],none,false⟩⟩]⟩,⟨[15],none,[],[⟨256,.other,false,some ⟨65,[],none,false⟩⟩,⟨256,.ws,false,none⟩,⟨256,.lf,false,none⟩,⟨256,.vt,false,some ⟨65,[],none,false⟩⟩,⟨256,.ff,false,none⟩,⟨256,.cr,false,none⟩,⟨256,.cr,true,none⟩,⟨256,.other,false,none⟩]⟩,⟨[17],none,[],[⟨256,.other,false,some ⟨66,[],none,false⟩⟩,⟨256,.ws,false,none⟩,⟨256,.lf,false,none⟩,⟨256,.vt,false,some ⟨66,[],none,false⟩⟩,⟨256,.ff,false,none⟩,⟨256,.cr,false,none⟩,⟨256,.cr,true,none⟩,⟨256,.other,false,some ⟨67,[],none,false⟩⟩,⟨256,.other,false,none⟩]⟩,⟨[22],none,[],[⟨256,.other,false,some ⟨68,[],none,false⟩⟩,⟨256,.ws,false,none⟩,⟨256,.lf,false,none⟩,⟨256,.vt,false,some ⟨68,[],none,false⟩⟩,⟨256,.ff,false,none⟩,⟨256,.cr,false,none⟩,⟨256,.cr,true,none⟩,⟨256,.other,false,none⟩]⟩,⟨[61],some 2,[],[⟨256,.other,false,some ⟨26,[.comment],some 2,false⟩⟩,⟨256,.ws,false,some ⟨27,[],some 2,false⟩⟩,⟨256,.lf,false,some ⟨28,[.emb .indRes],none,false⟩⟩,⟨256,.vt,false,some ⟨26,[.comment],some 2,false⟩⟩,⟨256,.ff,false,some ⟨29,[.emb .indRes],none,false⟩⟩,⟨256,.cr,false,some ⟨30,[.emb .indRes],none,false⟩⟩,⟨256,.cr,true,some ⟨31,[.emb .indRes],none,false⟩⟩]⟩,⟨[78],some 2,[],[⟨256,.other,false,some ⟨26,[.comment],some 2,false⟩⟩,⟨256,.ws,false,some ⟨27,[],some 2,false⟩⟩,⟨256,.lf,false,some ⟨28,[.emb .indRes],none,false⟩⟩,⟨256,.vt,false,some ⟨26,[.comment],some 2,false⟩⟩,⟨256,.ff,false,some ⟨29,[.emb .indRes],none,false⟩⟩,⟨256,.cr,false,some ⟨30,[.emb .indRes],none,false⟩⟩,⟨256,.cr,true,some ⟨31,[.emb .indRes],none,false⟩⟩]⟩,⟨[77],some 2,[],[⟨256,.other,false,some ⟨26,[.comment],some 2,false⟩⟩,⟨256,.ws,false,some ⟨27,[],some 2,false⟩⟩,⟨256,.lf,false,some ⟨28,[.emb .indRes],none,false⟩⟩,⟨256,.vt,false,some ⟨26,[.comment],some 2,false⟩⟩,⟨256,.ff,false,some ⟨29,[.emb .indRes],none,false⟩⟩,⟨256,.cr,false,some ⟨30,[.emb .indRes],none,false⟩⟩,⟨256,.cr,true,some ⟨31,[.emb .indRes],none,false⟩⟩]⟩,⟨[65],none,[],[⟨256,.other,false,none⟩,⟨256,.ws,false,none⟩,⟨256,.lf,false,some ⟨69,[.setEnt .internalNl,.cb],none,false⟩⟩,⟨256,.vt,false,none⟩,⟨256,.ff,false,some ⟨70,[.setEnt .internalNl,.cb],none,false⟩⟩,⟨256,.cr,false,some ⟨71,[.setEnt .internalNl,.cb],none,false⟩⟩,⟨256,.cr,true,some ⟨72,[.setEnt .internalNl,.cb],none,false⟩⟩,⟨256,.ws,false,some ⟨73,[.setEnt .internalNl,.cb],none,false⟩⟩,⟨256,.ws,false,some ⟨74,[.setEnt .internalNl,.cb],none,false⟩⟩,⟨256,.ws,false,some ⟨75,[.setEnt .internalNl,.cb],none,false⟩⟩]⟩,⟨[66],none,[],[⟨256,.other,false,none⟩,⟨256,.ws,false,none⟩,⟨256,.lf,false,some ⟨69,[.setEnt .internalNl,.cb],none,false⟩⟩,⟨256,.vt,false,none⟩,⟨256,.ff,false,some ⟨70,[.setEnt .internalNl,.cb],none,false⟩⟩,⟨256,.cr,false,some ⟨71,[.setEnt .internalNl,.cb],none,false⟩⟩,⟨256,.cr,true,some ⟨72,[.setEnt .internalNl,.cb],none,false⟩⟩,⟨256,.ws,false,some ⟨73,[.setEnt .internalNl,.cb],none,false⟩⟩,⟨256,.ws,false,some ⟨74,[.setEnt .internalNl,.cb],none,false⟩⟩,⟨256,.ws,false,some ⟨75,[.setEnt .internalNl,.cb],none,false⟩⟩]⟩,⟨[63],none,[],[⟨256,.other,false,none⟩,⟨256,.ws,false,none⟩,⟨256,.lf,false,some ⟨76,[],none,false⟩⟩,⟨256,.vt,false,none⟩,⟨256,.ff,false,none⟩,⟨256,.cr,false,none⟩,⟨256,.cr,true,none⟩]⟩,⟨[63,67],none,[],[⟨256,.other,false,none⟩,⟨256,.ws,false,none⟩,⟨256,.lf,false,some ⟨77,[.setEnt .internalNl,.cb],none,false⟩⟩,⟨256,.vt,false,none⟩,⟨256,.ff,false,some ⟨70,[.setEnt .internalNl,.cb],none,false⟩⟩,⟨256,.cr,false,some ⟨71,[.setEnt .internalNl,.cb],none,false⟩⟩,⟨256,.cr,true,some ⟨72,[.setEnt .internalNl,.cb],none,false⟩⟩,⟨256,.ws,false,some ⟨73,[.setEnt .internalNl,.cb],none,false⟩⟩,⟨256,.ws,false,some ⟨74,[.setEnt .internalNl,.cb],none,false⟩⟩,⟨256,.ws,false,some ⟨75,[.setEnt .internalNl,.cb],none,false⟩⟩]⟩,⟨[49],none,[],[⟨256,.other,false,none⟩,⟨256,.ws,false,some ⟨0,[.code,.setEnt .checkBlank,.emb (.saw 1)],some 0,true⟩⟩,⟨256,.lf,false,none⟩,⟨256,.vt,false,none⟩,⟨256,.ff,false,none⟩,⟨256,.cr,false,none⟩,⟨256,.cr,true,none⟩]⟩,⟨[86],some 3,[.setEnt .internalNl],[⟨256,.other,false,some ⟨13,[.code,.setEnt .internalNl],some 3,false⟩⟩,⟨256,.ws,false,some ⟨13,[.code,.setEnt .internalNl],some 3,false⟩⟩,⟨256,.lf,false,none⟩,⟨256,.vt,false,some ⟨13,[.code,.setEnt .internalNl],some 3,false⟩⟩,⟨256,.ff,false,none⟩,⟨256,.cr,false,none⟩,⟨256,.cr,true,none⟩,⟨256,.other,false,some ⟨14,[.code,.setEnt .internalNl],some 3,false⟩⟩]⟩,⟨[87],some 3,[.setEnt .internalNl],[⟨256,.other,false,some ⟨13,[.code,.setEnt .internalNl],some 3,false⟩⟩,⟨256,.ws,false,some ⟨13,[.code,.setEnt .internalNl],some 3,false⟩⟩,⟨256,.lf,false,none⟩,⟨256,.vt,false,some ⟨13,[.code,.setEnt .internalNl],some 3,false⟩⟩,⟨256,.ff,false,none⟩,⟨256,.cr,false,none⟩,⟨256,.cr,true,none⟩,⟨256,.other,false,some ⟨14,[.code,.setEnt .internalNl],some 3,false⟩⟩]⟩,⟨[84],none,[],[⟨256,.other,false,none⟩,⟨256,.ws,false,none⟩,⟨256,.lf,false,some ⟨78,[],some 3,false⟩⟩,⟨256,.vt,false,none⟩,⟨256,.ff,false,none⟩,⟨256,.cr,false,none⟩,⟨256,.cr,true,none⟩]⟩,⟨[84,88],some 3,[.setEnt .internalNl],[⟨256,.other,false,some ⟨13,[.code,.setEnt .internalNl],some 3,false⟩⟩,⟨256,.ws,false,some ⟨13,[.code,.setEnt .internalNl],some 3,false⟩⟩,⟨256,.lf,false,some ⟨78,[],some 3,false⟩⟩,⟨256,.vt,false,some ⟨13,[.code,.setEnt .internalNl],some 3,false⟩⟩,⟨256,.ff,false,none⟩,⟨256,.cr,false,none⟩,⟨256,.cr,true,none⟩,⟨256,.other,false,some ⟨14,[.code,.setEnt .internalNl],some 3,false⟩⟩]⟩,⟨[0,55,58,79],some 1,[],[⟨256,.other,false,none⟩,⟨256,.ws,false,some ⟨16,[.setEnt (.own 0)],some 1,false⟩⟩,⟨256,.lf,false,none⟩,⟨256,.vt,false,none⟩,⟨256,.ff,false,none⟩,⟨256,.cr,false,none⟩,⟨256,.cr,true,none⟩,⟨256,.ws,false,some ⟨79,[.setEnt (.own 0),.emb .indInc],some 1,false⟩⟩]⟩,⟨[50,81],some 3,[],[⟨256,.other,false,some ⟨13,[.code],some 3,false⟩⟩,⟨256,.ws,false,some ⟨13,[.code],some 3,false⟩⟩,⟨256,.lf,false,none⟩,⟨256,.vt,false,some ⟨13,[.code],some 3,false⟩⟩,⟨256,.ff,false,none⟩,⟨256,.cr,false,none⟩,⟨256,.cr,true,none⟩,⟨256,.other,false,some ⟨18,[.code],some 3,false⟩⟩,⟨256,.other,false,some ⟨14,[.code],some 3,false⟩⟩]⟩,⟨[2],none,[],[⟨256,.other,false,some ⟨19,[],none,false⟩⟩,⟨256,.ws,false,none⟩,⟨256,.lf,false,none⟩,⟨256,.vt,false,some ⟨19,[],none,false⟩⟩,⟨256,.ff,false,none⟩,⟨256,.cr,false,none⟩,⟨256,.cr,true,none⟩,⟨256,.other,false,some ⟨20,[],none,false⟩⟩,⟨256,.other,false,some ⟨21,[],none,false⟩⟩,⟨256,.other,false,some ⟨22,[],none,false⟩⟩,⟨256,.other,false,some ⟨23,[],none,false⟩⟩,⟨256,.other,false,none⟩,⟨256,.other,false,some ⟨24,[],none,false⟩⟩]⟩,⟨[52,60],none,[],[⟨256,.other,false,none⟩,⟨256,.ws,false,some ⟨0,[.code,.setEnt .checkBlank,.emb (.saw 1)],some 0,true⟩⟩,⟨256,.lf,false,none⟩,⟨256,.vt,false,none⟩,⟨256,.ff,false,none⟩,⟨256,.cr,false,none⟩,⟨256,.cr,true,none⟩,⟨256,.other,false,some ⟨25,[.comment],some 2,false⟩⟩]⟩,⟨[62],some 2,[],[⟨256,.other,false,some ⟨26,[.comment],some 2,false⟩⟩,⟨256,.ws,false,some ⟨27,[],some 2,false⟩⟩,⟨256,.lf,false,some ⟨28,[.emb .indRes],none,false⟩⟩,⟨256,.vt,false,some ⟨26,[.comment],some 2,false⟩⟩,⟨256,.ff,false,some ⟨29,[.emb .indRes],none,false⟩⟩,⟨256,.cr,false,some ⟨30,[.emb .indRes],none,false⟩⟩,⟨256,.cr,true,some ⟨31,[.emb .indRes],none,false⟩⟩]⟩,⟨[48,51],none,[],[⟨256,.other,false,none⟩,⟨256,.ws,false,some ⟨0,[.code,.setEnt .checkBlank,.emb (.saw 1)],some 0,true⟩⟩,⟨256,.lf,false,none⟩,⟨256,.vt,false,none⟩,⟨256,.ff,false,none⟩,⟨256,.cr,false,none⟩,⟨256,.cr,true,none⟩,⟨256,.other,false,some ⟨32,[],none,false⟩⟩]⟩,⟨[53],none,[],[⟨256,.other,false,none⟩,⟨256,.ws,false,some ⟨0,[.code,.setEnt .checkBlank,.emb (.saw 1)],some 0,true⟩⟩,⟨256,.lf,false,none⟩,⟨256,.vt,false,none⟩,⟨256,.ff,false,none⟩,⟨256,.cr,false,none⟩,⟨256,.cr,true,none⟩]⟩,⟨[54,82],some 0,[],[⟨256,.other,false,some ⟨13,[.code],some 3,false⟩⟩,⟨256,.ws,false,some ⟨13,[.code],some 3,false⟩⟩,⟨256,.lf,false,none⟩,⟨256,.vt,false,some ⟨13,[.code],some 3,false⟩⟩,⟨256,.ff,false,none⟩,⟨256,.cr,false,none⟩,⟨256,.cr,true,none⟩,⟨256,.other,false,some ⟨14,[.code],some 3,false⟩⟩]⟩,⟨[4],none,[],[⟨256,.other,false,some ⟨45,[],none,false⟩⟩,⟨256,.ws,false,none⟩,⟨256,.lf,false,none⟩,⟨256,.vt,false,some ⟨45,[],none,false⟩⟩,⟨256,.ff,false,none⟩,⟨256,.cr,false,none⟩,⟨256,.cr,true,none⟩,⟨256,.other,false,some ⟨46,[],none,false⟩⟩,⟨256,.other,false,some ⟨47,[],none,false⟩⟩,⟨256,.other,false,some ⟨48,[],none,false⟩⟩,⟨256,.other,false,some ⟨49,[],none,false⟩⟩,⟨256,.other,false,some ⟨50,[.nestRes,.code],none,false⟩⟩,⟨256,.other,false,some ⟨51,[.nestRes,.code],none,false⟩⟩,⟨256,.other,false,some ⟨52,[],none,false⟩⟩]⟩,⟨[4,50],none,[],[⟨256,.other,false,some ⟨45,[],none,false⟩⟩,⟨256,.ws,false,none⟩,⟨256,.lf,false,none⟩,⟨256,.vt,false,some ⟨45,[],none,false⟩⟩,⟨256,.ff,false,none⟩,⟨256,.cr,false,none⟩,⟨256,.cr,true,none⟩,⟨256,.other,false,some ⟨46,[],none,false⟩⟩,⟨256,.other,false,some ⟨47,[],none,false⟩⟩,⟨256,.other,false,some ⟨48,[],none,false⟩⟩,⟨256,.other,false,some ⟨49,[],none,false⟩⟩,⟨256,.other,false,some ⟨50,[.nestRes,.code],none,false⟩⟩,⟨256,.other,false,some ⟨51,[.nestRes,.code],none,false⟩⟩,⟨256,.other,false,some ⟨52,[],none,false⟩⟩]⟩,⟨[4,52],none,[],[⟨256,.other,false,some ⟨45,[],none,false⟩⟩,⟨256,.ws,false,some ⟨0,[.code,.setEnt .checkBlank,.emb (.saw 1)],some 0,true⟩⟩,⟨256,.lf,false,none⟩,⟨256,.vt,false,some ⟨45,[],none,false⟩⟩,⟨256,.ff,false,none⟩,⟨256,.cr,false,none⟩,⟨256,.cr,true,none⟩,⟨256,.other,false,some ⟨46,[],none,false⟩⟩,⟨256,.other,false,some ⟨47,[],none,false⟩⟩,⟨256,.other,false,some ⟨48,[],none,false⟩⟩,⟨256,.other,false,some ⟨49,[],none,false⟩⟩,⟨256,.other,false,some ⟨50,[.nestRes,.code],none,false⟩⟩,⟨256,.other,false,some ⟨51,[.nestRes,.code],none,false⟩⟩,⟨256,.other,false,some ⟨52,[],none,false⟩⟩]⟩,⟨[4,46],none,[],[⟨256,.other,false,some ⟨45,[],none,false⟩⟩,⟨256,.ws,false,none⟩,⟨256,.lf,false,none⟩,⟨256,.vt,false,some ⟨45,[],none,false⟩⟩,⟨256,.ff,false,none⟩,⟨256,.cr,false,none⟩,⟨256,.cr,true,none⟩,⟨256,.other,false,some ⟨46,[],none,false⟩⟩,⟨256,.other,false,some ⟨47,[],none,false⟩⟩,⟨256,.other,false,some ⟨80,[],none,false⟩⟩,⟨256,.other,false,some ⟨49,[],none,false⟩⟩,⟨256,.other,false,some ⟨50,[.nestRes,.code],none,false⟩⟩,⟨256,.other,false,some ⟨51,[.nestRes,.code],none,false⟩⟩,⟨256,.other,false,some ⟨52,[],none,false⟩⟩]⟩,⟨[4,48,51],none,[],[⟨256,.other,false,some ⟨45,[],none,false⟩⟩,⟨256,.ws,false,some ⟨0,[.code,.setEnt .checkBlank,.emb (.saw 1)],some 0,true⟩⟩,⟨256,.lf,false,none⟩,⟨256,.vt,false,some ⟨45,[],none,false⟩⟩,⟨256,.ff,false,none⟩,⟨256,.cr,false,none⟩,⟨256,.cr,true,none⟩,⟨256,.other,false,some ⟨46,[],none,false⟩⟩,⟨256,.other,false,some ⟨47,[],none,false⟩⟩,⟨256,.other,false,some ⟨48,[],none,false⟩⟩,⟨256,.other,false,some ⟨81,[],none,false⟩⟩,⟨256,.other,false,some ⟨50,[.nestRes,.code],none,false⟩⟩,⟨256,.other,false,some ⟨51,[.nestRes,.code],none,false⟩⟩,⟨256,.other,false,some ⟨52,[],none,false⟩⟩]⟩,⟨[35],none,[],[⟨256,.other,false,some ⟨82,[.code],none,false⟩⟩,⟨256,.ws,false,some ⟨83,[],none,false⟩⟩,⟨256,.lf,false,some ⟨84,[],none,false⟩⟩,⟨256,.vt,false,some ⟨82,[.code],none,false⟩⟩,⟨256,.ff,false,some ⟨85,[],none,false⟩⟩,⟨256,.cr,false,some ⟨86,[],none,false⟩⟩,⟨256,.cr,true,some ⟨87,[],none,false⟩⟩,⟨256,.other,false,some ⟨88,[.nestInc],none,false⟩⟩,⟨256,.other,false,some ⟨89,[.nestDec],none,false⟩⟩,⟨256,.other,false,some ⟨90,[.code],none,false⟩⟩]⟩,⟨[24],none,[],[⟨256,.other,false,some ⟨91,[.code],none,false⟩⟩,⟨256,.ws,false,some ⟨92,[],none,false⟩⟩,⟨256,.lf,false,some ⟨93,[],none,false⟩⟩,⟨256,.vt,false,some ⟨91,[.code],none,false⟩⟩,⟨256,.ff,false,some ⟨94,[],none,false⟩⟩,⟨256,.cr,false,some ⟨95,[],none,false⟩⟩,⟨256,.cr,true,some ⟨96,[],none,false⟩⟩,⟨256,.other,false,some ⟨97,[.nestInc],none,false⟩⟩,⟨256,.other,false,some ⟨98,[.nestDec],none,false⟩⟩,⟨256,.other,false,some ⟨99,[.code],none,false⟩⟩]⟩,⟨[4,53],none,[],[⟨256,.other,false,some ⟨45,[],none,false⟩⟩,⟨256,.ws,false,some ⟨0,[.code,.setEnt .checkBlank,.emb (.saw 1)],some 0,true⟩⟩,⟨256,.lf,false,none⟩,⟨256,.vt,false,some ⟨45,[],none,false⟩⟩,⟨256,.ff,false,none⟩,⟨256,.cr,false,none⟩,⟨256,.cr,true,none⟩,⟨256,.other,false,some ⟨46,[],none,false⟩⟩,⟨256,.other,false,some ⟨47,[],none,false⟩⟩,⟨256,.other,false,some ⟨48,[],none,false⟩⟩,⟨256,.other,false,some ⟨49,[],none,false⟩⟩,⟨256,.other,false,some ⟨50,[.nestRes,.code],none,false⟩⟩,⟨256,.other,false,some ⟨51,[.nestRes,.code],none,false⟩⟩,⟨256,.other,false,some ⟨52,[],none,false⟩⟩]⟩,⟨[6],none,[],[⟨256,.other,false,some ⟨100,[],none,false⟩⟩,⟨256,.ws,false,none⟩,⟨256,.lf,false,none⟩,⟨256,.vt,false,some ⟨100,[],none,false⟩⟩,⟨256,.ff,false,none⟩,⟨256,.cr,false,none⟩,⟨256,.cr,true,none⟩,⟨256,.other,false,some ⟨101,[],none,false⟩⟩,⟨256,.other,false,some ⟨102,[],none,false⟩⟩,⟨256,.other,false,some ⟨103,[],none,false⟩⟩,⟨256,.other,false,some ⟨104,[],none,false⟩⟩,⟨256,.other,false,some ⟨50,[.nestRes,.code],none,false⟩⟩,⟨256,.other,false,some ⟨51,[.nestRes,.code],none,false⟩⟩,⟨256,.other,false,some ⟨105,[],none,false⟩⟩]⟩,⟨[6,50],none,[],[⟨256,.other,false,some ⟨100,[],none,false⟩⟩,⟨256,.ws,false,none⟩,⟨256,.lf,false,none⟩,⟨256,.vt,false,some ⟨100,[],none,false⟩⟩,⟨256,.ff,false,none⟩,⟨256,.cr,false,none⟩,⟨256,.cr,true,none⟩,⟨256,.other,false,some ⟨101,[],none,false⟩⟩,⟨256,.other,false,some ⟨102,[],none,false⟩⟩,⟨256,.other,false,some ⟨103,[],none,false⟩⟩,⟨256,.other,false,some ⟨104,[],none,false⟩⟩,⟨256,.other,false,some ⟨50,[.nestRes,.code],none,false⟩⟩,⟨256,.other,false,some ⟨51,[.nestRes,.code],none,false⟩⟩,⟨256,.other,false,some ⟨105,[],none,false⟩⟩]⟩,⟨[6,52],none,[],[⟨256,.other,false,some ⟨100,[],none,false⟩⟩,⟨256,.ws,false,some ⟨0,[.code,.setEnt .checkBlank,.emb (.saw 1)],some 0,true⟩⟩,⟨256,.lf,false,none⟩,⟨256,.vt,false,some ⟨100,[],none,false⟩⟩,⟨256,.ff,false,none⟩,⟨256,.cr,false,none⟩,⟨256,.cr,true,none⟩,⟨256,.other,false,some ⟨101,[],none,false⟩⟩,⟨256,.other,false,some ⟨102,[],none,false⟩⟩,⟨256,.other,false,some ⟨103,[],none,false⟩⟩,⟨256,.other,false,some ⟨104,[],none,false⟩⟩,⟨256,.other,false,some ⟨50,[.nestRes,.code],none,false⟩⟩,⟨256,.other,false,some ⟨51,[.nestRes,.code],none,false⟩⟩,⟨256,.other,false,some ⟨105,[],none,false⟩⟩]⟩,⟨[6,46],none,[],[⟨256,.other,false,some ⟨100,[],none,false⟩⟩,⟨256,.ws,false,none⟩,⟨256,.lf,false,none⟩,⟨256,.vt,false,some ⟨100,[],none,false⟩⟩,⟨256,.ff,false,none⟩,⟨256,.cr,false,none⟩,⟨256,.cr,true,none⟩,⟨256,.other,false,some ⟨101,[],none,false⟩⟩,⟨256,.other,false,some ⟨102,[],none,false⟩⟩,⟨256,.other,false,some ⟨106,[],none,false⟩⟩,⟨256,.other,false,some ⟨104,[],none,false⟩⟩,⟨256,.other,false,some ⟨50,[.nestRes,.code],none,false⟩⟩,⟨256,.other,false,some ⟨51,[.nestRes,.code],none,false⟩⟩,⟨256,.other,false,some ⟨105,[],none,false⟩⟩]⟩,⟨[8,48,51],none,[],[⟨256,.other,false,some ⟨107,[],none,false⟩⟩,⟨256,.ws,false,some ⟨0,[.code,.setEnt .checkBlank,.emb (.saw 1)],some 0,true⟩⟩,⟨256,.lf,false,none⟩,⟨256,.vt,false,some ⟨107,[],none,false⟩⟩,⟨256,.ff,false,none⟩,⟨256,.cr,false,none⟩,⟨256,.cr,true,none⟩,⟨256,.other,false,some ⟨108,[],none,false⟩⟩,⟨256,.other,false,none⟩]⟩,⟨[6,53],none,[],[⟨256,.other,false,some ⟨100,[],none,false⟩⟩,⟨256,.ws,false,some ⟨0,[.code,.setEnt .checkBlank,.emb (.saw 1)],some 0,true⟩⟩,⟨256,.lf,false,none⟩,⟨256,.vt,false,some ⟨100,[],none,false⟩⟩,⟨256,.ff,false,none⟩,⟨256,.cr,false,none⟩,⟨256,.cr,true,none⟩,⟨256,.other,false,some ⟨101,[],none,false⟩⟩,⟨256,.other,false,some ⟨102,[],none,false⟩⟩,⟨256,.other,false,some ⟨103,[],none,false⟩⟩,⟨256,.other,false,some ⟨104,[],none,false⟩⟩,⟨256,.other,false,some ⟨50,[.nestRes,.code],none,false⟩⟩,⟨256,.other,false,some ⟨51,[.nestRes,.code],none,false⟩⟩,⟨256,.other,false,some ⟨105,[],none,false⟩⟩]⟩,⟨[11],none,[],[⟨256,.other,false,some ⟨109,[],none,false⟩⟩,⟨256,.ws,false,none⟩,⟨256,.lf,false,none⟩,⟨256,.vt,false,some ⟨109,[],none,false⟩⟩,⟨256,.ff,false,none⟩,⟨256,.cr,false,none⟩,⟨256,.cr,true,none⟩,⟨256,.other,false,some ⟨110,[],none,false⟩⟩,⟨256,.other,false,some ⟨111,[],none,false⟩⟩,⟨256,.other,false,some ⟨112,[],none,false⟩⟩,⟨256,.other,false,some ⟨113,[],none,false⟩⟩,⟨256,.other,false,some ⟨50,[.nestRes,.code],none,false⟩⟩,⟨256,.other,false,some ⟨51,[.nestRes,.code],none,false⟩⟩,⟨256,.other,false,some ⟨114,[],none,false⟩⟩]⟩,⟨[11,50],none,[],[⟨256,.other,false,some ⟨109,[],none,false⟩⟩,⟨256,.ws,false,none⟩,⟨256,.lf,false,none⟩,⟨256,.vt,false,some ⟨109,[],none,false⟩⟩,⟨256,.ff,false,none⟩,⟨256,.cr,false,none⟩,⟨256,.cr,true,none⟩,⟨256,.other,false,some ⟨110,[],none,false⟩⟩,⟨256,.other,false,some ⟨111,[],none,false⟩⟩,⟨256,.other,false,some ⟨112,[],none,false⟩⟩,⟨256,.other,false,some ⟨113,[],none,false⟩⟩,⟨256,.other,false,some ⟨50,[.nestRes,.code],none,false⟩⟩,⟨256,.other,false,some ⟨51,[.nestRes,.code],none,false⟩⟩,⟨256,.other,false,some ⟨114,[],none,false⟩⟩]⟩,⟨[11,52],none,[],[⟨256,.other,false,some ⟨109,[],none,false⟩⟩,⟨256,.ws,false,some ⟨0,[.code,.setEnt .checkBlank,.emb (.saw 1)],some 0,true⟩⟩,⟨256,.lf,false,none⟩,⟨256,.vt,false,some ⟨109,[],none,false⟩⟩,⟨256,.ff,false,none⟩,⟨256,.cr,false,none⟩,⟨256,.cr,true,none⟩,⟨256,.other,false,some ⟨110,[],none,false⟩⟩,⟨256,.other,false,some ⟨111,[],none,false⟩⟩,⟨256,.other,false,some ⟨112,[],none,false⟩⟩,⟨256,.other,false,some ⟨113,[],none,false⟩⟩,⟨256,.other,false,some ⟨50,[.nestRes,.code],none,false⟩⟩,⟨256,.other,false,some ⟨51,[.nestRes,.code],none,false⟩⟩,⟨256,.other,false,some ⟨114,[],none,false⟩⟩]⟩,⟨[11,46],none,[],[⟨256,.other,false,some ⟨109,[],none,false⟩⟩,⟨256,.ws,false,none⟩,⟨256,.lf,false,none⟩,⟨256,.vt,false,some ⟨109,[],none,false⟩⟩,⟨256,.ff,false,none⟩,⟨256,.cr,false,none⟩,⟨256,.cr,true,none⟩,⟨256,.other,false,some ⟨110,[],none,false⟩⟩,⟨256,.other,false,some ⟨111,[],none,false⟩⟩,⟨256,.other,false,some ⟨115,[],none,false⟩⟩,⟨256,.other,false,some ⟨113,[],none,false⟩⟩,⟨256,.other,false,some ⟨50,[.nestRes,.code],none,false⟩⟩,⟨256,.other,false,some ⟨51,[.nestRes,.code],none,false⟩⟩,⟨256,.other,false,some ⟨114,[],none,false⟩⟩]⟩,⟨[13,48,51],none,[],[⟨256,.other,false,some ⟨116,[],none,false⟩⟩,⟨256,.ws,false,some ⟨0,[.code,.setEnt .checkBlank,.emb (.saw 1)],some 0,true⟩⟩,⟨256,.lf,false,none⟩,⟨256,.vt,false,some ⟨116,[],none,false⟩⟩,⟨256,.ff,false,none⟩,⟨256,.cr,false,none⟩,⟨256,.cr,true,none⟩,⟨256,.other,false,some ⟨117,[],none,false⟩⟩,⟨256,.other,false,none⟩]⟩,⟨[11,53],none,[],[⟨256,.other,false,some ⟨109,[],none,false⟩⟩,⟨256,.ws,false,some ⟨0,[.code,.setEnt .checkBlank,.emb (.saw 1)],some 0,true⟩⟩,⟨256,.lf,false,none⟩,⟨256,.vt,false,some ⟨109,[],none,false⟩⟩,⟨256,.ff,false,none⟩,⟨256,.cr,false,none⟩,⟨256,.cr,true,none⟩,⟨256,.other,false,some ⟨110,[],none,false⟩⟩,⟨256,.other,false,some ⟨111,[],none,false⟩⟩,⟨256,.other,false,some ⟨112,[],none,false⟩⟩,⟨256,.other,false,some ⟨113,[],none,false⟩⟩,⟨256,.other,false,some ⟨50,[.nestRes,.code],none,false⟩⟩,⟨256,.other,false,some ⟨51,[.nestRes,.code],none,false⟩⟩,⟨256,.other,false,some ⟨114,[],none,false⟩⟩]⟩,⟨[16],none,[],[⟨256,.other,false,some ⟨65,[],none,false⟩⟩,⟨256,.ws,false,none⟩,⟨256,.lf,false,none⟩,⟨256,.vt,false,some ⟨65,[],none,false⟩⟩,⟨256,.ff,false,none⟩,⟨256,.cr,false,none⟩,⟨256,.cr,true,none⟩,⟨256,.other,false,some ⟨118,[],none,false⟩⟩,⟨256,.other,false,some ⟨119,[],none,false⟩⟩,⟨256,.other,false,some ⟨120,[],none,false⟩⟩,⟨256,.other,false,some ⟨121,[],none,false⟩⟩,⟨256,.other,false,some ⟨50,[.nestRes,.code],none,false⟩⟩,⟨256,.other,false,some ⟨51,[.nestRes,.code],none,false⟩⟩,⟨256,.other,false,some ⟨122,[],none,false⟩⟩]⟩,⟨[18],none,[],[⟨256,.other,false,some ⟨123,[],none,false⟩⟩,⟨256,.ws,false,none⟩,⟨256,.lf,false,none⟩,⟨256,.vt,false,some ⟨123,[],none,false⟩⟩,⟨256,.ff,false,none⟩,⟨256,.cr,false,none⟩,⟨256,.cr,true,none⟩,⟨256,.other,false,some ⟨124,[],none,false⟩⟩,⟨256,.other,false,some ⟨125,[],none,false⟩⟩,⟨256,.other,false,some ⟨126,[],none,false⟩⟩,⟨256,.other,false,some ⟨127,[],none,false⟩⟩,⟨256,.other,false,some ⟨50,[.nestRes,.code],none,false⟩⟩,⟨256,.other,false,some ⟨51,[.nestRes,.code],none,false⟩⟩,⟨256,.other,false,some ⟨128,[],none,false⟩⟩]⟩,⟨[20],none,[],[⟨256,.other,false,some ⟨129,[],none,false⟩⟩,⟨256,.ws,false,none⟩,⟨256,.lf,false,none⟩,⟨256,.vt,false,some ⟨129,[],none,false⟩⟩,⟨256,.ff,false,none⟩,⟨256,.cr,false,none⟩,⟨256,.cr,true,none⟩,⟨256,.other,false,none⟩]⟩,⟨[23],none,[],[⟨256,.other,false,some ⟨68,[],none,false⟩⟩,⟨256,.ws,false,none⟩,⟨256,.lf,false,none⟩,⟨256,.vt,false,some ⟨68,[],none,false⟩⟩,⟨256,.ff,false,none⟩,⟨256,.cr,false,none⟩,⟨256,.cr,true,none⟩,⟨256,.other,false,some ⟨130,[],none,false⟩⟩,⟨256,.other,false,some ⟨131,[],none,false⟩⟩,⟨256,.other,false,some ⟨132,[],none,false⟩⟩,⟨256,.other,false,some ⟨133,[],none,false⟩⟩,⟨256,.other,false,some ⟨50,[.nestRes,.code],none,false⟩⟩,⟨256,.other,false,some ⟨51,[.nestRes,.code],none,false⟩⟩,⟨256,.other,false,some ⟨134,[],none,false⟩⟩]⟩,⟨[70],none,[],[⟨256,.other,false,none⟩,⟨256,.ws,false,none⟩,⟨256,.lf,false,some ⟨69,[.setEnt .internalNl,.cb],none,false⟩⟩,⟨256,.vt,false,none⟩,⟨256,.ff,false,some ⟨70,[.setEnt .internalNl,.cb],none,false⟩⟩,⟨256,.cr,false,some ⟨71,[.setEnt .internalNl,.cb],none,false⟩⟩,⟨256,.cr,true,some ⟨72,[.setEnt .internalNl,.cb],none,false⟩⟩,⟨256,.ws,false,some ⟨73,[.setEnt .internalNl,.cb],none,false⟩⟩,⟨256,.ws,false,some ⟨74,[.setEnt .internalNl,.cb],none,false⟩⟩,⟨256,.ws,false,some ⟨75,[.setEnt .internalNl,.cb],none,false⟩⟩]⟩,⟨[71],none,[],[⟨256,.other,false,none⟩,⟨256,.ws,false,none⟩,⟨256,.lf,false,some ⟨69,[.setEnt .internalNl,.cb],none,false⟩⟩,⟨256,.vt,false,none⟩,⟨256,.ff,false,some ⟨70,[.setEnt .internalNl,.cb],none,false⟩⟩,⟨256,.cr,false,some ⟨71,[.setEnt .internalNl,.cb],none,false⟩⟩,⟨256,.cr,true,some ⟨72,[.setEnt .internalNl,.cb],none,false⟩⟩,⟨256,.ws,false,some ⟨73,[.setEnt .internalNl,.cb],none,false⟩⟩,⟨256,.ws,false,some ⟨74,[.setEnt .internalNl,.cb],none,false⟩⟩,⟨256,.ws,false,some ⟨75,[.setEnt .internalNl,.cb],none,false⟩⟩]⟩,⟨[68],none,[],[⟨256,.other,false,none⟩,⟨256,.ws,false,none⟩,⟨256,.lf,false,some ⟨135,[],none,false⟩⟩,⟨256,.vt,false,none⟩,⟨256,.ff,false,none⟩,⟨256,.cr,false,none⟩,⟨256,.cr,true,none⟩]⟩,⟨[68,72],none,[],[⟨256,.other,false,none⟩,⟨256,.ws,false,none⟩,⟨256,.lf,false,some ⟨136,[.setEnt .internalNl,.cb],none,false⟩⟩,⟨256,.vt,false,none⟩,⟨256,.ff,false,some ⟨70,[.setEnt .internalNl,.cb],none,false⟩⟩,⟨256,.cr,false,some ⟨71,[.setEnt .internalNl,.cb],none,false⟩⟩,⟨256,.cr,true,some ⟨72,[.setEnt .internalNl,.cb],none,false⟩⟩,⟨256,.ws,false,some ⟨73,[.setEnt .internalNl,.cb],none,false⟩⟩,⟨256,.ws,false,some ⟨74,[.setEnt .internalNl,.cb],none,false⟩⟩,⟨256,.ws,false,some ⟨75,[.setEnt .internalNl,.cb],none,false⟩⟩]⟩,⟨[75],none,[],[⟨256,.other,false,none⟩,⟨256,.ws,false,none⟩,⟨256,.lf,false,none⟩,⟨256,.vt,false,none⟩,⟨256,.ff,false,none⟩,⟨256,.cr,false,none⟩,⟨256,.cr,true,none⟩,⟨256,.ws,false,some ⟨137,[.emb .indInc],some 2,false⟩⟩]⟩,⟨[73],none,[],[⟨256,.other,false,none⟩,⟨256,.ws,false,none⟩,⟨256,.lf,false,none⟩,⟨256,.vt,false,none⟩,⟨256,.ff,false,none⟩,⟨256,.cr,false,none⟩,⟨256,.cr,true,none⟩,⟨256,.ws,false,some ⟨138,[.emb .indInc],none,false⟩⟩]⟩,⟨[73,75],none,[],[⟨256,.other,false,none⟩,⟨256,.ws,false,none⟩,⟨256,.lf,false,none⟩,⟨256,.vt,false,none⟩,⟨256,.ff,false,none⟩,⟨256,.cr,false,none⟩,⟨256,.cr,true,none⟩,⟨256,.ws,false,some ⟨137,[.emb .indInc],some 2,false⟩⟩,⟨256,.ws,false,some ⟨138,[.emb .indInc],none,false⟩⟩,⟨256,.ws,false,some ⟨139,[.emb .indInc],some 2,false⟩⟩]⟩,⟨[64],none,[],[⟨256,.other,false,none⟩,⟨256,.ws,false,none⟩,⟨256,.lf,false,some ⟨69,[.setEnt .internalNl,.cb],none,false⟩⟩,⟨256,.vt,false,none⟩,⟨256,.ff,false,some ⟨70,[.setEnt .internalNl,.cb],none,false⟩⟩,⟨256,.cr,false,some ⟨71,[.setEnt .internalNl,.cb],none,false⟩⟩,⟨256,.cr,true,some ⟨72,[.setEnt .internalNl,.cb],none,false⟩⟩,⟨256,.ws,false,some ⟨73,[.setEnt .internalNl,.cb],none,false⟩⟩,⟨256,.ws,false,some ⟨74,[.setEnt .internalNl,.cb],none,false⟩⟩,⟨256,.ws,false,some ⟨75,[.setEnt .internalNl,.cb],none,false⟩⟩]⟩,⟨[64,70],none,[],[⟨256,.other,false,none⟩,⟨256,.ws,false,none⟩,⟨256,.lf,false,some ⟨69,[.setEnt .internalNl,.cb],none,false⟩⟩,⟨256,.vt,false,none⟩,⟨256,.ff,false,some ⟨70,[.setEnt .internalNl,.cb],none,false⟩⟩,⟨256,.cr,false,some ⟨71,[.setEnt .internalNl,.cb],none,false⟩⟩,⟨256,.cr,true,some ⟨72,[.setEnt .internalNl,.cb],none,false⟩⟩,⟨256,.ws,false,some ⟨73,[.setEnt .internalNl,.cb],none,false⟩⟩,⟨256,.ws,false,some ⟨74,[.setEnt .internalNl,.cb],none,false⟩⟩,⟨256,.ws,false,some ⟨75,[.setEnt .internalNl,.cb],none,false⟩⟩]⟩,⟨[85],some 3,[.setEnt .internalNl],[⟨256,.other,false,some ⟨13,[.code,.setEnt .internalNl],some 3,false⟩⟩,⟨256,.ws,false,some ⟨13,[.code,.setEnt .internalNl],some 3,false⟩⟩,⟨256,.lf,false,none⟩,⟨256,.vt,false,some ⟨13,[.code,.setEnt .internalNl],some 3,false⟩⟩,⟨256,.ff,false,none⟩,⟨256,.cr,false,none⟩,⟨256,.cr,true,none⟩,⟨256,.other,false,some ⟨14,[.code,.setEnt .internalNl],some 3,false⟩⟩]⟩,⟨[1,55,59,80],some 1,[],[⟨256,.other,false,some ⟨3,[.code],some 3,false⟩⟩,⟨256,.ws,false,some ⟨2,[.setEnt (.own 0),.code],some 1,false⟩⟩,⟨256,.lf,false,none⟩,⟨256,.vt,false,some ⟨3,[.code],some 3,false⟩⟩,⟨256,.ff,false,none⟩,⟨256,.cr,false,none⟩,⟨256,.cr,true,none⟩,⟨256,.ws,false,some ⟨37,[.setEnt (.own 0)],some 1,false⟩⟩,⟨256,.other,false,some ⟨38,[.code],some 3,false⟩⟩,⟨256,.other,false,none⟩,⟨256,.other,false,some ⟨39,[],none,false⟩⟩,⟨256,.other,false,some ⟨40,[.emb .indSet],none,false⟩⟩,⟨256,.other,false,some ⟨41,[.emb .indSet,.comment],some 2,false⟩⟩,⟨256,.other,false,some ⟨42,[],none,false⟩⟩,⟨256,.other,false,some ⟨43,[],none,false⟩⟩]⟩,⟨[4,46,47],none,[],[⟨256,.other,false,some ⟨45,[],none,false⟩⟩,⟨256,.ws,false,none⟩,⟨256,.lf,false,none⟩,⟨256,.vt,false,some ⟨45,[],none,false⟩⟩,⟨256,.ff,false,none⟩,⟨256,.cr,false,none⟩,⟨256,.cr,true,none⟩,⟨256,.other,false,some ⟨46,[],none,false⟩⟩,⟨256,.other,false,some ⟨47,[],none,false⟩⟩,⟨256,.other,false,some ⟨80,[],none,false⟩⟩,⟨256,.other,false,some ⟨49,[],none,false⟩⟩,⟨256,.other,false,some ⟨50,[.nestRes,.code],none,false⟩⟩,⟨256,.other,false,some ⟨51,[.nestRes,.code],none,false⟩⟩,⟨256,.other,false,some ⟨52,[],none,false⟩⟩]⟩,⟨[4,48,49,51],none,[],[⟨256,.other,false,some ⟨45,[],none,false⟩⟩,⟨256,.ws,false,some ⟨0,[.code,.setEnt .checkBlank,.emb (.saw 1)],some 0,true⟩⟩,⟨256,.lf,false,none⟩,⟨256,.vt,false,some ⟨45,[],none,false⟩⟩,⟨256,.ff,false,none⟩,⟨256,.cr,false,none⟩,⟨256,.cr,true,none⟩,⟨256,.other,false,some ⟨46,[],none,false⟩⟩,⟨256,.other,false,some ⟨47,[],none,false⟩⟩,⟨256,.other,false,some ⟨48,[],none,false⟩⟩,⟨256,.other,false,some ⟨81,[],none,false⟩⟩,⟨256,.other,false,some ⟨50,[.nestRes,.code],none,false⟩⟩,⟨256,.other,false,some ⟨51,[.nestRes,.code],none,false⟩⟩,⟨256,.other,false,some ⟨52,[],none,false⟩⟩]⟩,⟨[44],none,[],[⟨256,.other,false,some ⟨82,[.code],none,false⟩⟩,⟨256,.ws,false,some ⟨83,[],none,false⟩⟩,⟨256,.lf,false,some ⟨84,[],none,false⟩⟩,⟨256,.vt,false,some ⟨82,[.code],none,false⟩⟩,⟨256,.ff,false,some ⟨85,[],none,false⟩⟩,⟨256,.cr,false,some ⟨86,[],none,false⟩⟩,⟨256,.cr,true,some ⟨87,[],none,false⟩⟩,⟨256,.other,false,some ⟨88,[.nestInc],none,false⟩⟩,⟨256,.other,false,some ⟨89,[.nestDec],none,false⟩⟩,⟨256,.other,false,some ⟨90,[.code],none,false⟩⟩]⟩,⟨[41],none,[],[⟨256,.other,false,some ⟨82,[.code],none,false⟩⟩,⟨256,.ws,false,some ⟨83,[],none,false⟩⟩,⟨256,.lf,false,some ⟨84,[],none,false⟩⟩,⟨256,.vt,false,some ⟨82,[.code],none,false⟩⟩,⟨256,.ff,false,some ⟨85,[],none,false⟩⟩,⟨256,.cr,false,some ⟨86,[],none,false⟩⟩,⟨256,.cr,true,some ⟨87,[],none,false⟩⟩,⟨256,.other,false,some ⟨88,[.nestInc],none,false⟩⟩,⟨256,.other,false,some ⟨89,[.nestDec],none,false⟩⟩,⟨256,.other,false,some ⟨90,[.code],none,false⟩⟩]⟩,⟨[38],none,[],[⟨256,.other,false,some ⟨82,[.setEnt .internalNl,.cb,.code],none,false⟩⟩,⟨256,.ws,false,some ⟨83,[.setEnt .internalNl,.cb],none,false⟩⟩,⟨256,.lf,false,some ⟨84,[.setEnt .internalNl,.cb],none,false⟩⟩,⟨256,.vt,false,some ⟨82,[.setEnt .internalNl,.cb,.code],none,false⟩⟩,⟨256,.ff,false,some ⟨85,[.setEnt .internalNl,.cb],none,false⟩⟩,⟨256,.cr,false,some ⟨86,[.setEnt .internalNl,.cb],none,false⟩⟩,⟨256,.cr,true,some ⟨87,[.setEnt .internalNl,.cb],none,false⟩⟩,⟨256,.other,false,some ⟨88,[.setEnt .internalNl,.cb,.nestInc],none,false⟩⟩,⟨256,.other,false,some ⟨89,[.setEnt .internalNl,.cb,.nestDec],none,false⟩⟩,⟨256,.other,false,some ⟨90,[.setEnt .internalNl,.cb,.code],none,false⟩⟩]⟩,⟨[39],none,[],[⟨256,.other,false,some ⟨82,[.setEnt .internalNl,.cb,.code],none,false⟩⟩,⟨256,.ws,false,some ⟨83,[.setEnt .internalNl,.cb],none,false⟩⟩,⟨256,.lf,false,some ⟨84,[.setEnt .internalNl,.cb],none,false⟩⟩,⟨256,.vt,false,some ⟨82,[.setEnt .internalNl,.cb,.code],none,false⟩⟩,⟨256,.ff,false,some ⟨85,[.setEnt .internalNl,.cb],none,false⟩⟩,⟨256,.cr,false,some ⟨86,[.setEnt .internalNl,.cb],none,false⟩⟩,⟨256,.cr,true,some ⟨87,[.setEnt .internalNl,.cb],none,false⟩⟩,⟨256,.other,false,some ⟨88,[.setEnt .internalNl,.cb,.nestInc],none,false⟩⟩,⟨256,.other,false,some ⟨89,[.setEnt .internalNl,.cb,.nestDec],none,false⟩⟩,⟨256,.other,false,some ⟨90,[.setEnt .internalNl,.cb,.code],none,false⟩⟩]⟩,⟨[36],none,[],[⟨256,.other,false,none⟩,⟨256,.ws,false,none⟩,⟨256,.lf,false,some ⟨140,[],none,false⟩⟩,⟨256,.vt,false,none⟩,⟨256,.ff,false,none⟩,⟨256,.cr,false,none⟩,⟨256,.cr,true,none⟩]⟩,⟨[36,40],none,[],[⟨256,.other,false,some ⟨82,[.setEnt .internalNl,.cb,.code],none,false⟩⟩,⟨256,.ws,false,some ⟨83,[.setEnt .internalNl,.cb],none,false⟩⟩,⟨256,.lf,false,some ⟨141,[.setEnt .internalNl,.cb],none,false⟩⟩,⟨256,.vt,false,some ⟨82,[.setEnt .internalNl,.cb,.code],none,false⟩⟩,⟨256,.ff,false,some ⟨85,[.setEnt .internalNl,.cb],none,false⟩⟩,⟨256,.cr,false,some ⟨86,[.setEnt .internalNl,.cb],none,false⟩⟩,⟨256,.cr,true,some ⟨87,[.setEnt .internalNl,.cb],none,false⟩⟩,⟨256,.other,false,some ⟨88,[.setEnt .internalNl,.cb,.nestInc],none,false⟩⟩,⟨256,.other,false,some ⟨89,[.setEnt .internalNl,.cb,.nestDec],none,false⟩⟩,⟨256,.other,false,some ⟨90,[.setEnt .internalNl,.cb,.code],none,false⟩⟩]⟩,⟨[42],none,[],[⟨256,.other,false,some ⟨82,[.code],none,false⟩⟩,⟨256,.ws,false,some ⟨83,[],none,false⟩⟩,⟨256,.lf,false,some ⟨84,[],none,false⟩⟩,⟨256,.vt,false,some ⟨82,[.code],none,false⟩⟩,⟨256,.ff,false,some ⟨85,[],none,false⟩⟩,⟨256,.cr,false,some ⟨86,[],none,false⟩⟩,⟨256,.cr,true,some ⟨87,[],none,false⟩⟩,⟨256,.other,false,some ⟨88,[.nestInc],none,false⟩⟩,⟨256,.other,false,some ⟨89,[.nestDec],none,false⟩⟩,⟨256,.other,false,some ⟨90,[.code],none,false⟩⟩]⟩,⟨[43],none,[],[⟨256,.other,false,some ⟨82,[.code],none,false⟩⟩,⟨256,.ws,false,some ⟨83,[],none,false⟩⟩,⟨256,.lf,false,some ⟨84,[],none,false⟩⟩,⟨256,.vt,false,some ⟨82,[.code],none,false⟩⟩,⟨256,.ff,false,some ⟨85,[],none,false⟩⟩,⟨256,.cr,false,some ⟨86,[],none,false⟩⟩,⟨256,.cr,true,some ⟨87,[],none,false⟩⟩,⟨256,.other,false,some ⟨88,[.nestInc],none,false⟩⟩,⟨256,.other,false,some ⟨89,[.nestDec],none,false⟩⟩,⟨256,.other,false,some ⟨90,[.code],none,false⟩⟩]⟩,⟨[45],none,[],[⟨256,.other,false,none⟩,⟨256,.ws,false,none⟩,⟨256,.lf,false,none⟩,⟨256,.vt,false,none⟩,⟨256,.ff,false,none⟩,⟨256,.cr,false,none⟩,⟨256,.cr,true,none⟩,⟨256,.other,false,some ⟨142,[],none,false⟩⟩,⟨256,.other,false,some ⟨143,[],none,false⟩⟩,⟨256,.other,false,some ⟨144,[],none,false⟩⟩,⟨256,.other,false,some ⟨42,[],none,false⟩⟩,⟨256,.other,false,some ⟨43,[],none,false⟩⟩]⟩,⟨[31],none,[],[⟨256,.other,false,some ⟨91,[.code],none,false⟩⟩,⟨256,.ws,false,some ⟨92,[],none,false⟩⟩,⟨256,.lf,false,some ⟨93,[],none,false⟩⟩,⟨256,.vt,false,some ⟨91,[.code],none,false⟩⟩,⟨256,.ff,false,some ⟨94,[],none,false⟩⟩,⟨256,.cr,false,some ⟨95,[],none,false⟩⟩,⟨256,.cr,true,some ⟨96,[],none,false⟩⟩,⟨256,.other,false,some ⟨97,[.nestInc],none,false⟩⟩,⟨256,.other,false,some ⟨98,[.nestDec],none,false⟩⟩,⟨256,.other,false,some ⟨99,[.code],none,false⟩⟩]⟩,⟨[30],none,[],[⟨256,.other,false,some ⟨91,[.code],none,false⟩⟩,⟨256,.ws,false,some ⟨92,[],none,false⟩⟩,⟨256,.lf,false,some ⟨93,[],none,false⟩⟩,⟨256,.vt,false,some ⟨91,[.code],none,false⟩⟩,⟨256,.ff,false,some ⟨94,[],none,false⟩⟩,⟨256,.cr,false,some ⟨95,[],none,false⟩⟩,⟨256,.cr,true,some ⟨96,[],none,false⟩⟩,⟨256,.other,false,some ⟨97,[.nestInc],none,false⟩⟩,⟨256,.other,false,some ⟨98,[.nestDec],none,false⟩⟩,⟨256,.other,false,some ⟨99,[.code],none,false⟩⟩]⟩,⟨[27],none,[],[⟨256,.other,false,some ⟨91,[.setEnt .internalNl,.cb,.code],none,false⟩⟩,⟨256,.ws,false,some ⟨92,[.setEnt .internalNl,.cb],none,false⟩⟩,⟨256,.lf,false,some ⟨93,[.setEnt .internalNl,.cb],none,false⟩⟩,⟨256,.vt,false,some ⟨91,[.setEnt .internalNl,.cb,.code],none,false⟩⟩,⟨256,.ff,false,some ⟨94,[.setEnt .internalNl,.cb],none,false⟩⟩,⟨256,.cr,false,some ⟨95,[.setEnt .internalNl,.cb],none,false⟩⟩,⟨256,.cr,true,some ⟨96,[.setEnt .internalNl,.cb],none,false⟩⟩,⟨256,.other,false,some ⟨97,[.setEnt .internalNl,.cb,.nestInc],none,false⟩⟩,⟨256,.other,false,some ⟨98,[.setEnt .internalNl,.cb,.nestDec],none,false⟩⟩,⟨256,.other,false,some ⟨99,[.setEnt .internalNl,.cb,.code],none,false⟩⟩]⟩,⟨[28],none,[],[⟨256,.other,false,some ⟨91,[.setEnt .internalNl,.cb,.code],none,false⟩⟩,⟨256,.ws,false,some ⟨92,[.setEnt .internalNl,.cb],none,false⟩⟩,⟨256,.lf,false,some ⟨93,[.setEnt .internalNl,.cb],none,false⟩⟩,⟨256,.vt,false,some ⟨91,[.setEnt .internalNl,.cb,.code],none,false⟩⟩,⟨256,.ff,false,some ⟨94,[.setEnt .internalNl,.cb],none,false⟩⟩,⟨256,.cr,false,some ⟨95,[.setEnt .internalNl,.cb],none,false⟩⟩,⟨256,.cr,true,some ⟨96,[.setEnt .internalNl,.cb],none,false⟩⟩,⟨256,.other,false,some ⟨97,[.setEnt .internalNl,.cb,.nestInc],none,false⟩⟩,⟨256,.other,false,some ⟨98,[.setEnt .internalNl,.cb,.nestDec],none,false⟩⟩,⟨256,.other,false,some ⟨99,[.setEnt .internalNl,.cb,.code],none,false⟩⟩]⟩,⟨[25],none,[],[⟨256,.other,false,none⟩,⟨256,.ws,false,none⟩,⟨256,.lf,false,some ⟨145,[],none,false⟩⟩,⟨256,.vt,false,none⟩,⟨256,.ff,false,none⟩,⟨256,.cr,false,none⟩,⟨256,.cr,true,none⟩]⟩,⟨[25,29],none,[],[⟨256,.other,false,some ⟨91,[.setEnt .internalNl,.cb,.code],none,false⟩⟩,⟨256,.ws,false,some ⟨92,[.setEnt .internalNl,.cb],none,false⟩⟩,⟨256,.lf,false,some ⟨146,[.setEnt .internalNl,.cb],none,false⟩⟩,⟨256,.vt,false,some ⟨91,[.setEnt .internalNl,.cb,.code],none,false⟩⟩,⟨256,.ff,false,some ⟨94,[.setEnt .internalNl,.cb],none,false⟩⟩,⟨256,.cr,false,some ⟨95,[.setEnt .internalNl,.cb],none,false⟩⟩,⟨256,.cr,true,some ⟨96,[.setEnt .internalNl,.cb],none,false⟩⟩,⟨256,.other,false,some ⟨97,[.setEnt .internalNl,.cb,.nestInc],none,false⟩⟩,⟨256,.other,false,some ⟨98,[.setEnt .internalNl,.cb,.nestDec],none,false⟩⟩,⟨256,.other,false,some ⟨99,[.setEnt .internalNl,.cb,.code],none,false⟩⟩]⟩,⟨[32],none,[],[⟨256,.other,false,some ⟨91,[.code],none,false⟩⟩,⟨256,.ws,false,some ⟨92,[],none,false⟩⟩,⟨256,.lf,false,some ⟨93,[],none,false⟩⟩,⟨256,.vt,false,some ⟨91,[.code],none,false⟩⟩,⟨256,.ff,false,some ⟨94,[],none,false⟩⟩,⟨256,.cr,false,some ⟨95,[],none,false⟩⟩,⟨256,.cr,true,some ⟨96,[],none,false⟩⟩,⟨256,.other,false,some ⟨97,[.nestInc],none,false⟩⟩,⟨256,.other,false,some ⟨98,[.nestDec],none,false⟩⟩,⟨256,.other,false,some ⟨99,[.code],none,false⟩⟩]⟩,⟨[33],none,[],[⟨256,.other,false,some ⟨91,[.code],none,false⟩⟩,⟨256,.ws,false,some ⟨92,[],none,false⟩⟩,⟨256,.lf,false,some ⟨93,[],none,false⟩⟩,⟨256,.vt,false,some ⟨91,[.code],none,false⟩⟩,⟨256,.ff,false,some ⟨94,[],none,false⟩⟩,⟨256,.cr,false,some ⟨95,[],none,false⟩⟩,⟨256,.cr,true,some ⟨96,[],none,false⟩⟩,⟨256,.other,false,some ⟨97,[.nestInc],none,false⟩⟩,⟨256,.other,false,some ⟨98,[.nestDec],none,false⟩⟩,⟨256,.other,false,some ⟨99,[.code],none,false⟩⟩]⟩,⟨[34],none,[],[⟨256,.other,false,none⟩,⟨256,.ws,false,none⟩,⟨256,.lf,false,none⟩,⟨256,.vt,false,none⟩,⟨256,.ff,false,none⟩,⟨256,.cr,false,none⟩,⟨256,.cr,true,none⟩,⟨256,.other,false,some ⟨142,[],none,false⟩⟩,⟨256,.other,false,some ⟨143,[],none,false⟩⟩,⟨256,.other,false,some ⟨144,[],none,false⟩⟩,⟨256,.other,false,some ⟨42,[],none,false⟩⟩,⟨256,.other,false,some ⟨43,[],none,false⟩⟩]⟩,⟨[7],none,[],[⟨256,.other,false,some ⟨100,[],none,false⟩⟩,⟨256,.ws,false,none⟩,⟨256,.lf,false,none⟩,⟨256,.vt,false,some ⟨100,[],none,false⟩⟩,⟨256,.ff,false,none⟩,⟨256,.cr,false,none⟩,⟨256,.cr,true,none⟩,⟨256,.other,false,some ⟨101,[],none,false⟩⟩,⟨256,.other,false,some ⟨102,[],none,false⟩⟩,⟨256,.other,false,some ⟨103,[],none,false⟩⟩,⟨256,.other,false,some ⟨104,[],none,false⟩⟩,⟨256,.other,false,some ⟨50,[.nestRes,.code],none,false⟩⟩,⟨256,.other,false,some ⟨51,[.nestRes,.code],none,false⟩⟩,⟨256,.other,false,some ⟨105,[],none,false⟩⟩]⟩,⟨[7,50],none,[],[⟨256,.other,false,some ⟨100,[],none,false⟩⟩,⟨256,.ws,false,none⟩,⟨256,.lf,false,none⟩,⟨256,.vt,false,some ⟨100,[],none,false⟩⟩,⟨256,.ff,false,none⟩,⟨256,.cr,false,none⟩,⟨256,.cr,true,none⟩,⟨256,.other,false,some ⟨101,[],none,false⟩⟩,⟨256,.other,false,some ⟨102,[],none,false⟩⟩,⟨256,.other,false,some ⟨103,[],none,false⟩⟩,⟨256,.other,false,some ⟨104,[],none,false⟩⟩,⟨256,.other,false,some ⟨50,[.nestRes,.code],none,false⟩⟩,⟨256,.other,false,some ⟨51,[.nestRes,.code],none,false⟩⟩,⟨256,.other,false,some ⟨105,[],none,false⟩⟩]⟩,⟨[7,52],none,[],[⟨256,.other,false,some ⟨100,[],none,false⟩⟩,⟨256,.ws,false,some ⟨0,[.code,.setEnt .checkBlank,.emb (.saw 1)],some 0,true⟩⟩,⟨256,.lf,false,none⟩,⟨256,.vt,false,some ⟨100,[],none,false⟩⟩,⟨256,.ff,false,none⟩,⟨256,.cr,false,none⟩,⟨256,.cr,true,none⟩,⟨256,.other,false,some ⟨101,[],none,false⟩⟩,⟨256,.other,false,some ⟨102,[],none,false⟩⟩,⟨256,.other,false,some ⟨103,[],none,false⟩⟩,⟨256,.other,false,some ⟨104,[],none,false⟩⟩,⟨256,.other,false,some ⟨50,[.nestRes,.code],none,false⟩⟩,⟨256,.other,false,some ⟨51,[.nestRes,.code],none,false⟩⟩,⟨256,.other,false,some ⟨105,[],none,false⟩⟩]⟩,⟨[7,46],none,[],[⟨256,.other,false,some ⟨100,[],none,false⟩⟩,⟨256,.ws,false,none⟩,⟨256,.lf,false,none⟩,⟨256,.vt,false,some ⟨100,[],none,false⟩⟩,⟨256,.ff,false,none⟩,⟨256,.cr,false,none⟩,⟨256,.cr,true,none⟩,⟨256,.other,false,some ⟨101,[],none,false⟩⟩,⟨256,.other,false,some ⟨102,[],none,false⟩⟩,⟨256,.other,false,some ⟨106,[],none,false⟩⟩,⟨256,.other,false,some ⟨104,[],none,false⟩⟩,⟨256,.other,false,some ⟨50,[.nestRes,.code],none,false⟩⟩,⟨256,.other,false,some ⟨51,[.nestRes,.code],none,false⟩⟩,⟨256,.other,false,some ⟨105,[],none,false⟩⟩]⟩,⟨[7,48,51],none,[],[⟨256,.other,false,some ⟨100,[],none,false⟩⟩,⟨256,.ws,false,some ⟨0,[.code,.setEnt .checkBlank,.emb (.saw 1)],some 0,true⟩⟩,⟨256,.lf,false,none⟩,⟨256,.vt,false,some ⟨100,[],none,false⟩⟩,⟨256,.ff,false,none⟩,⟨256,.cr,false,none⟩,⟨256,.cr,true,none⟩,⟨256,.other,false,some ⟨101,[],none,false⟩⟩,⟨256,.other,false,some ⟨102,[],none,false⟩⟩,⟨256,.other,false,some ⟨103,[],none,false⟩⟩,⟨256,.other,false,some ⟨147,[],none,false⟩⟩,⟨256,.other,false,some ⟨50,[.nestRes,.code],none,false⟩⟩,⟨256,.other,false,some ⟨51,[.nestRes,.code],none,false⟩⟩,⟨256,.other,false,some ⟨105,[],none,false⟩⟩]⟩,⟨[7,53],none,[],[⟨256,.other,false,some ⟨100,[],none,false⟩⟩,⟨256,.ws,false,some ⟨0,[.code,.setEnt .checkBlank,.emb (.saw 1)],some 0,true⟩⟩,⟨256,.lf,false,none⟩,⟨256,.vt,false,some ⟨100,[],none,false⟩⟩,⟨256,.ff,false,none⟩,⟨256,.cr,false,none⟩,⟨256,.cr,true,none⟩,⟨256,.other,false,some ⟨101,[],none,false⟩⟩,⟨256,.other,false,some ⟨102,[],none,false⟩⟩,⟨256,.other,false,some ⟨103,[],none,false⟩⟩,⟨256,.other,false,some ⟨104,[],none,false⟩⟩,⟨256,.other,false,some ⟨50,[.nestRes,.code],none,false⟩⟩,⟨256,.other,false,some ⟨51,[.nestRes,.code],none,false⟩⟩,⟨256,.other,false,some ⟨105,[],none,false⟩⟩]⟩,⟨[7,46,47],none,[],[⟨256,.other,false,some ⟨100,[],none,false⟩⟩,⟨256,.ws,false,none⟩,⟨256,.lf,false,none⟩,⟨256,.vt,false,some ⟨100,[],none,false⟩⟩,⟨256,.ff,false,none⟩,⟨256,.cr,false,none⟩,⟨256,.cr,true,none⟩,⟨256,.other,false,some ⟨101,[],none,false⟩⟩,⟨256,.other,false,some ⟨102,[],none,false⟩⟩,⟨256,.other,false,some ⟨106,[],none,false⟩⟩,⟨256,.other,false,some ⟨104,[],none,false⟩⟩,⟨256,.other,false,some ⟨50,[.nestRes,.code],none,false⟩⟩,⟨256,.other,false,some ⟨51,[.nestRes,.code],none,false⟩⟩,⟨256,.other,false,some ⟨105,[],none,false⟩⟩]⟩,⟨[9],none,[],[⟨256,.other,false,some ⟨107,[],none,false⟩⟩,⟨256,.ws,false,none⟩,⟨256,.lf,false,none⟩,⟨256,.vt,false,some ⟨107,[],none,false⟩⟩,⟨256,.ff,false,none⟩,⟨256,.cr,false,none⟩,⟨256,.cr,true,none⟩,⟨256,.other,false,some ⟨148,[],none,false⟩⟩,⟨256,.other,false,some ⟨149,[],none,false⟩⟩,⟨256,.other,false,some ⟨150,[],none,false⟩⟩,⟨256,.other,false,some ⟨151,[],none,false⟩⟩,⟨256,.other,false,some ⟨50,[.nestRes,.code],none,false⟩⟩,⟨256,.other,false,some ⟨51,[.nestRes,.code],none,false⟩⟩,⟨256,.other,false,some ⟨152,[],none,false⟩⟩]⟩,⟨[9,49],none,[],[⟨256,.other,false,some ⟨107,[],none,false⟩⟩,⟨256,.ws,false,some ⟨0,[.code,.setEnt .checkBlank,.emb (.saw 1)],some 0,true⟩⟩,⟨256,.lf,false,none⟩,⟨256,.vt,false,some ⟨107,[],none,false⟩⟩,⟨256,.ff,false,none⟩,⟨256,.cr,false,none⟩,⟨256,.cr,true,none⟩,⟨256,.other,false,some ⟨148,[],none,false⟩⟩,⟨256,.other,false,some ⟨149,[],none,false⟩⟩,⟨256,.other,false,some ⟨150,[],none,false⟩⟩,⟨256,.other,false,some ⟨151,[],none,false⟩⟩,⟨256,.other,false,some ⟨50,[.nestRes,.code],none,false⟩⟩,⟨256,.other,false,some ⟨51,[.nestRes,.code],none,false⟩⟩,⟨256,.other,false,some ⟨152,[],none,false⟩⟩]⟩,⟨[12],none,[],[⟨256,.other,false,some ⟨109,[],none,false⟩⟩,⟨256,.ws,false,none⟩,⟨256,.lf,false,none⟩,⟨256,.vt,false,some ⟨109,[],none,false⟩⟩,⟨256,.ff,false,none⟩,⟨256,.cr,false,none⟩,⟨256,.cr,true,none⟩,⟨256,.other,false,some ⟨110,[],none,false⟩⟩,⟨256,.other,false,some ⟨111,[],none,false⟩⟩,⟨256,.other,false,some ⟨112,[],none,false⟩⟩,⟨256,.other,false,some ⟨113,[],none,false⟩⟩,⟨256,.other,false,some ⟨50,[.nestRes,.code],none,false⟩⟩,⟨256,.other,false,some ⟨51,[.nestRes,.code],none,false⟩⟩,⟨256,.other,false,some ⟨114,[],none,false⟩⟩]⟩,⟨[12,50],none,[],[⟨256,.other,false,some ⟨109,[],none,false⟩⟩,⟨256,.ws,false,none⟩,⟨256,.lf,false,none⟩,⟨256,.vt,false,some ⟨109,[],none,false⟩⟩,⟨256,.ff,false,none⟩,⟨256,.cr,false,none⟩,⟨256,.cr,true,none⟩,⟨256,.other,false,some ⟨110,[],none,false⟩⟩,⟨256,.other,false,some ⟨111,[],none,false⟩⟩,⟨256,.other,false,some ⟨112,[],none,false⟩⟩,⟨256,.other,false,some ⟨113,[],none,false⟩⟩,⟨256,.other,false,some ⟨50,[.nestRes,.code],none,false⟩⟩,⟨256,.other,false,some ⟨51,[.nestRes,.code],none,false⟩⟩,⟨256,.other,false,some ⟨114,[],none,false⟩⟩]⟩,⟨[12,52],none,[],[⟨256,.other,false,some ⟨109,[],none,false⟩⟩,⟨256,.ws,false,some ⟨0,[.code,.setEnt .checkBlank,.emb (.saw 1)],some 0,true⟩⟩,⟨256,.lf,false,none⟩,⟨256,.vt,false,some ⟨109,[],none,false⟩⟩,⟨256,.ff,false,none⟩,⟨256,.cr,false,none⟩,⟨256,.cr,true,none⟩,⟨256,.other,false,some ⟨110,[],none,false⟩⟩,⟨256,.other,false,some ⟨111,[],none,false⟩⟩,⟨256,.other,false,some ⟨112,[],none,false⟩⟩,⟨256,.other,false,some ⟨113,[],none,false⟩⟩,⟨256,.other,false,some ⟨50,[.nestRes,.code],none,false⟩⟩,⟨256,.other,false,some ⟨51,[.nestRes,.code],none,false⟩⟩,⟨256,.other,false,some ⟨114,[],none,false⟩⟩]⟩,⟨[12,46],none,[],[⟨256,.other,false,some ⟨109,[],none,false⟩⟩,⟨256,.ws,false,none⟩,⟨256,.lf,false,none⟩,⟨256,.vt,false,some ⟨109,[],none,false⟩⟩,⟨256,.ff,false,none⟩,⟨256,.cr,false,none⟩,⟨256,.cr,true,none⟩,⟨256,.other,false,some ⟨110,[],none,false⟩⟩,⟨256,.other,false,some ⟨111,[],none,false⟩⟩,⟨256,.other,false,some ⟨115,[],none,false⟩⟩,⟨256,.other,false,some ⟨113,[],none,false⟩⟩,⟨256,.other,false,some ⟨50,[.nestRes,.code],none,false⟩⟩,⟨256,.other,false,some ⟨51,[.nestRes,.code],none,false⟩⟩,⟨256,.other,false,some ⟨114,[],none,false⟩⟩]⟩,⟨[12,48,51],none,[],[⟨256,.other,false,some ⟨109,[],none,false⟩⟩,⟨256,.ws,false,some ⟨0,[.code,.setEnt .checkBlank,.emb (.saw 1)],some 0,true⟩⟩,⟨256,.lf,false,none⟩,⟨256,.vt,false,some ⟨109,[],none,false⟩⟩,⟨256,.ff,false,none⟩,⟨256,.cr,false,none⟩,⟨256,.cr,true,none⟩,⟨256,.other,false,some ⟨110,[],none,false⟩⟩,⟨256,.other,false,some ⟨111,[],none,false⟩⟩,⟨256,.other,false,some ⟨112,[],none,false⟩⟩,⟨256,.other,false,some ⟨153,[],none,false⟩⟩,⟨256,.other,false,some ⟨50,[.nestRes,.code],none,false⟩⟩,⟨256,.other,false,some ⟨51,[.nestRes,.code],none,false⟩⟩,⟨256,.other,false,some ⟨114,[],none,false⟩⟩]⟩,⟨[12,53],none,[],[⟨256,.other,false,some ⟨109,[],none,false⟩⟩,⟨256,.ws,false,some ⟨0,[.code,.setEnt .checkBlank,.emb (.saw 1)],some 0,true⟩⟩,⟨256,.lf,false,none⟩,⟨256,.vt,false,some ⟨109,[],none,false⟩⟩,⟨256,.ff,false,none⟩,⟨256,.cr,false,none⟩,⟨256,.cr,true,none⟩,⟨256,.other,false,some ⟨110,[],none,false⟩⟩,⟨256,.other,false,some ⟨111,[],none,false⟩⟩,⟨256,.other,false,some ⟨112,[],none,false⟩⟩,⟨256,.other,false,some ⟨113,[],none,false⟩⟩,⟨256,.other,false,some ⟨50,[.nestRes,.code],none,false⟩⟩,⟨256,.other,false,some ⟨51,[.nestRes,.code],none,false⟩⟩,⟨256,.other,false,some ⟨114,[],none,false⟩⟩]⟩,⟨[12,46,47],none,[],[⟨256,.other,false,some ⟨109,[],none,false⟩⟩,⟨256,.ws,false,none⟩,⟨256,.lf,false,none⟩,⟨256,.vt,false,some ⟨109,[],none,false⟩⟩,⟨256,.ff,false,none⟩,⟨256,.cr,false,none⟩,⟨256,.cr,true,none⟩,⟨256,.other,false,some ⟨110,[],none,false⟩⟩,⟨256,.other,false,some ⟨111,[],none,false⟩⟩,⟨256,.other,false,some ⟨115,[],none,false⟩⟩,⟨256,.other,false,some ⟨113,[],none,false⟩⟩,⟨256,.other,false,some ⟨50,[.nestRes,.code],none,false⟩⟩,⟨256,.other,false,some ⟨51,[.nestRes,.code],none,false⟩⟩,⟨256,.other,false,some ⟨114,[],none,false⟩⟩]⟩,⟨[14],none,[],[⟨256,.other,false,some ⟨116,[],none,false⟩⟩,⟨256,.ws,false,none⟩,⟨256,.lf,false,none⟩,⟨256,.vt,false,some ⟨116,[],none,false⟩⟩,⟨256,.ff,false,none⟩,⟨256,.cr,false,none⟩,⟨256,.cr,true,none⟩,⟨256,.other,false,some ⟨154,[],none,false⟩⟩,⟨256,.other,false,some ⟨155,[],none,false⟩⟩,⟨256,.other,false,some ⟨156,[],none,false⟩⟩,⟨256,.other,false,some ⟨157,[],none,false⟩⟩,⟨256,.other,false,some ⟨50,[.nestRes,.code],none,false⟩⟩,⟨256,.other,false,some ⟨51,[.nestRes,.code],none,false⟩⟩,⟨256,.other,false,some ⟨158,[],none,false⟩⟩]⟩,⟨[14,49],none,[],[⟨256,.other,false,some ⟨116,[],none,false⟩⟩,⟨256,.ws,false,some ⟨0,[.code,.setEnt .checkBlank,.emb (.saw 1)],some 0,true⟩⟩,⟨256,.lf,false,none⟩,⟨256,.vt,false,some ⟨116,[],none,false⟩⟩,⟨256,.ff,false,none⟩,⟨256,.cr,false,none⟩,⟨256,.cr,true,none⟩,⟨256,.other,false,some ⟨154,[],none,false⟩⟩,⟨256,.other,false,some ⟨155,[],none,false⟩⟩,⟨256,.other,false,some ⟨156,[],none,false⟩⟩,⟨256,.other,false,some ⟨157,[],none,false⟩⟩,⟨256,.other,false,some ⟨50,[.nestRes,.code],none,false⟩⟩,⟨256,.other,false,some ⟨51,[.nestRes,.code],none,false⟩⟩,⟨256,.other,false,some ⟨158,[],none,false⟩⟩]⟩,⟨[16,50],none,[],[⟨256,.other,false,some ⟨65,[],none,false⟩⟩,⟨256,.ws,false,none⟩,⟨256,.lf,false,none⟩,⟨256,.vt,false,some ⟨65,[],none,false⟩⟩,⟨256,.ff,false,none⟩,⟨256,.cr,false,none⟩,⟨256,.cr,true,none⟩,⟨256,.other,false,some ⟨118,[],none,false⟩⟩,⟨256,.other,false,some ⟨119,[],none,false⟩⟩,⟨256,.other,false,some ⟨120,[],none,false⟩⟩,⟨256,.other,false,some ⟨121,[],none,false⟩⟩,⟨256,.other,false,some ⟨50,[.nestRes,.code],none,false⟩⟩,⟨256,.other,false,some ⟨51,[.nestRes,.code],none,false⟩⟩,⟨256,.other,false,some ⟨122,[],none,false⟩⟩]⟩,⟨[16,52],none,[],[⟨256,.other,false,some ⟨65,[],none,false⟩⟩,⟨256,.ws,false,some ⟨0,[.code,.setEnt .checkBlank,.emb (.saw 1)],some 0,true⟩⟩,⟨256,.lf,false,none⟩,⟨256,.vt,false,some ⟨65,[],none,false⟩⟩,⟨256,.ff,false,none⟩,⟨256,.cr,false,none⟩,⟨256,.cr,true,none⟩,⟨256,.other,false,some ⟨118,[],none,false⟩⟩,⟨256,.other,false,some ⟨119,[],none,false⟩⟩,⟨256,.other,false,some ⟨120,[],none,false⟩⟩,⟨256,.other,false,some ⟨121,[],none,false⟩⟩,⟨256,.other,false,some ⟨50,[.nestRes,.code],none,false⟩⟩,⟨256,.other,false,some ⟨51,[.nestRes,.code],none,false⟩⟩,⟨256,.other,false,some ⟨122,[],none,false⟩⟩]⟩,⟨[16,46],none,[],[⟨256,.other,false,some ⟨65,[],none,false⟩⟩,⟨256,.ws,false,none⟩,⟨256,.lf,false,none⟩,⟨256,.vt,false,some ⟨65,[],none,false⟩⟩,⟨256,.ff,false,none⟩,⟨256,.cr,false,none⟩,⟨256,.cr,true,none⟩,⟨256,.other,false,some ⟨118,[],none,false⟩⟩,⟨256,.other,false,some ⟨119,[],none,false⟩⟩,⟨256,.other,false,some ⟨159,[],none,false⟩⟩,⟨256,.other,false,some ⟨121,[],none,false⟩⟩,⟨256,.other,false,some ⟨50,[.nestRes,.code],none,false⟩⟩,⟨256,.other,false,some ⟨51,[.nestRes,.code],none,false⟩⟩,⟨256,.other,false,some ⟨122,[],none,false⟩⟩]⟩,⟨[16,48,51],none,[],[⟨256,.other,false,some ⟨65,[],none,false⟩⟩,⟨256,.ws,false,some ⟨0,[.code,.setEnt .checkBlank,.emb (.saw 1)],some 0,true⟩⟩,⟨256,.lf,false,none⟩,⟨256,.vt,false,some ⟨65,[],none,false⟩⟩,⟨256,.ff,false,none⟩,⟨256,.cr,false,none⟩,⟨256,.cr,true,none⟩,⟨256,.other,false,some ⟨118,[],none,false⟩⟩,⟨256,.other,false,some ⟨119,[],none,false⟩⟩,⟨256,.other,false,some ⟨120,[],none,false⟩⟩,⟨256,.other,false,some ⟨160,[],none,false⟩⟩,⟨256,.other,false,some ⟨50,[.nestRes,.code],none,false⟩⟩,⟨256,.other,false,some ⟨51,[.nestRes,.code],none,false⟩⟩,⟨256,.other,false,some ⟨122,[],none,false⟩⟩]⟩,⟨[16,53],none,[],[⟨256,.other,false,some ⟨65,[],none,false⟩⟩,⟨256,.ws,false,some ⟨0,[.code,.setEnt .checkBlank,.emb (.saw 1)],some 0,true⟩⟩,⟨256,.lf,false,none⟩,⟨256,.vt,false,some ⟨65,[],none,false⟩⟩,⟨256,.ff,false,none⟩,⟨256,.cr,false,none⟩,⟨256,.cr,true,none⟩,⟨256,.other,false,some ⟨118,[],none,false⟩⟩,⟨256,.other,false,some ⟨119,[],none,false⟩⟩,⟨256,.other,false,some ⟨120,[],none,false⟩⟩,⟨256,.other,false,some ⟨121,[],none,false⟩⟩,⟨256,.other,false,some ⟨50,[.nestRes,.code],none,false⟩⟩,⟨256,.other,false,some ⟨51,[.nestRes,.code],none,false⟩⟩,⟨256,.other,false,some ⟨122,[],none,false⟩⟩]⟩,⟨[19],none,[],[⟨256,.other,false,some ⟨123,[],none,false⟩⟩,⟨256,.ws,false,none⟩,⟨256,.lf,false,none⟩,⟨256,.vt,false,some ⟨123,[],none,false⟩⟩,⟨256,.ff,false,none⟩,⟨256,.cr,false,none⟩,⟨256,.cr,true,none⟩,⟨256,.other,false,some ⟨124,[],none,false⟩⟩,⟨256,.other,false,some ⟨125,[],none,false⟩⟩,⟨256,.other,false,some ⟨126,[],none,false⟩⟩,⟨256,.other,false,some ⟨127,[],none,false⟩⟩,⟨256,.other,false,some ⟨50,[.nestRes,.code],none,false⟩⟩,⟨256,.other,false,some ⟨51,[.nestRes,.code],none,false⟩⟩,⟨256,.other,false,some ⟨128,[],none,false⟩⟩]⟩,⟨[19,50],none,[],[⟨256,.other,false,some ⟨123,[],none,false⟩⟩,⟨256,.ws,false,none⟩,⟨256,.lf,false,none⟩,⟨256,.vt,false,some ⟨123,[],none,false⟩⟩,⟨256,.ff,false,none⟩,⟨256,.cr,false,none⟩,⟨256,.cr,true,none⟩,⟨256,.other,false,some ⟨124,[],none,false⟩⟩,⟨256,.other,false,some ⟨125,[],none,false⟩⟩,⟨256,.other,false,some ⟨126,[],none,false⟩⟩,⟨256,.other,false,some ⟨127,[],none,false⟩⟩,⟨256,.other,false,some ⟨50,[.nestRes,.code],none,false⟩⟩,⟨256,.other,false,some ⟨51,[.nestRes,.code],none,false⟩⟩,⟨256,.other,false,some ⟨128,[],none,false⟩⟩]⟩,⟨[19,52],none,[],[⟨256,.other,false,some ⟨123,[],none,false⟩⟩,⟨256,.ws,false,some ⟨0,[.code,.setEnt .checkBlank,.emb (.saw 1)],some 0,true⟩⟩,⟨256,.lf,false,none⟩,⟨256,.vt,false,some ⟨123,[],none,false⟩⟩,⟨256,.ff,false,none⟩,⟨256,.cr,false,none⟩,⟨256,.cr,true,none⟩,⟨256,.other,false,some ⟨124,[],none,false⟩⟩,⟨256,.other,false,some ⟨125,[],none,false⟩⟩,⟨256,.other,false,some ⟨126,[],none,false⟩⟩,⟨256,.other,false,some ⟨127,[],none,false⟩⟩,⟨256,.other,false,some ⟨50,[.nestRes,.code],none,false⟩⟩,⟨256,.other,false,some ⟨51,[.nestRes,.code],none,false⟩⟩,⟨256,.other,false,some ⟨128,[],none,false⟩⟩]⟩,⟨[19,46],none,[],[⟨256,.other,false,some ⟨123,[],none,false⟩⟩,⟨256,.ws,false,none⟩,⟨256,.lf,false,none⟩,⟨256,.vt,false,some ⟨123,[],none,false⟩⟩,⟨256,.ff,false,none⟩,⟨256,.cr,false,none⟩,⟨256,.cr,true,none⟩,⟨256,.other,false,some ⟨124,[],none,false⟩⟩,⟨256,.other,false,some ⟨125,[],none,false⟩⟩,⟨256,.other,false,some ⟨161,[],none,false⟩⟩,⟨256,.other,false,some ⟨127,[],none,false⟩⟩,⟨256,.other,false,some ⟨50,[.nestRes,.code],none,false⟩⟩,⟨256,.other,false,some ⟨51,[.nestRes,.code],none,false⟩⟩,⟨256,.other,false,some ⟨128,[],none,false⟩⟩]⟩,⟨[19,48,51],none,[],[⟨256,.other,false,some ⟨123,[],none,false⟩⟩,⟨256,.ws,false,some ⟨0,[.code,.setEnt .checkBlank,.emb (.saw 1)],some 0,true⟩⟩,⟨256,.lf,false,none⟩,⟨256,.vt,false,some ⟨123,[],none,false⟩⟩,⟨256,.ff,false,none⟩,⟨256,.cr,false,none⟩,⟨256,.cr,true,none⟩,⟨256,.other,false,some ⟨124,[],none,false⟩⟩,⟨256,.other,false,some ⟨125,[],none,false⟩⟩,⟨256,.other,false,some ⟨126,[],none,false⟩⟩,⟨256,.other,false,some ⟨162,[],none,false⟩⟩,⟨256,.other,false,some ⟨50,[.nestRes,.code],none,false⟩⟩,⟨256,.other,false,some ⟨51,[.nestRes,.code],none,false⟩⟩,⟨256,.other,false,some ⟨128,[],none,false⟩⟩]⟩,⟨[19,53],none,[],[⟨256,.other,false,some ⟨123,[],none,false⟩⟩,⟨256,.ws,false,some ⟨0,[.code,.setEnt .checkBlank,.emb (.saw 1)],some 0,true⟩⟩,⟨256,.lf,false,none⟩,⟨256,.vt,false,some ⟨123,[],none,false⟩⟩,⟨256,.ff,false,none⟩,⟨256,.cr,false,none⟩,⟨256,.cr,true,none⟩,⟨256,.other,false,some ⟨124,[],none,false⟩⟩,⟨256,.other,false,some ⟨125,[],none,false⟩⟩,⟨256,.other,false,some ⟨126,[],none,false⟩⟩,⟨256,.other,false,some ⟨127,[],none,false⟩⟩,⟨256,.other,false,some ⟨50,[.nestRes,.code],none,false⟩⟩,⟨256,.other,false,some ⟨51,[.nestRes,.code],none,false⟩⟩,⟨256,.other,false,some ⟨128,[],none,false⟩⟩]⟩,⟨[21],none,[],[⟨256,.other,false,some ⟨129,[],none,false⟩⟩,⟨256,.ws,false,none⟩,⟨256,.lf,false,none⟩,⟨256,.vt,false,some ⟨129,[],none,false⟩⟩,⟨256,.ff,false,none⟩,⟨256,.cr,false,none⟩,⟨256,.cr,true,none⟩,⟨256,.other,false,some ⟨163,[],none,false⟩⟩,⟨256,.other,false,some ⟨164,[],none,false⟩⟩,⟨256,.other,false,some ⟨165,[],none,false⟩⟩,⟨256,.other,false,some ⟨166,[],none,false⟩⟩,⟨256,.other,false,some ⟨50,[.nestRes,.code],none,false⟩⟩,⟨256,.other,false,some ⟨51,[.nestRes,.code],none,false⟩⟩,⟨256,.other,false,some ⟨167,[],none,false⟩⟩]⟩,⟨[23,50],none,[],[⟨256,.other,false,some ⟨68,[],none,false⟩⟩,⟨256,.ws,false,none⟩,⟨256,.lf,false,none⟩,⟨256,.vt,false,some ⟨68,[],none,false⟩⟩,⟨256,.ff,false,none⟩,⟨256,.cr,false,none⟩,⟨256,.cr,true,none⟩,⟨256,.other,false,some ⟨130,[],none,false⟩⟩,⟨256,.other,false,some ⟨131,[],none,false⟩⟩,⟨256,.other,false,some ⟨132,[],none,false⟩⟩,⟨256,.other,false,some ⟨133,[],none,false⟩⟩,⟨256,.other,false,some ⟨50,[.nestRes,.code],none,false⟩⟩,⟨256,.other,false,some ⟨51,[.nestRes,.code],none,false⟩⟩,⟨256,.other,false,some ⟨134,[],none,false⟩⟩]⟩,⟨[23,52],none,[],[⟨256,.other,false,some ⟨68,[],none,false⟩⟩,⟨256,.ws,false,some ⟨0,[.code,.setEnt .checkBlank,.emb (.saw 1)],some 0,true⟩⟩,⟨256,.lf,false,none⟩,⟨256,.vt,false,some ⟨68,[],none,false⟩⟩,⟨256,.ff,false,none⟩,⟨256,.cr,false,none⟩,⟨256,.cr,true,none⟩,⟨256,.other,false,some ⟨130,[],none,false⟩⟩,⟨256,.other,false,some ⟨131,[],none,false⟩⟩,⟨256,.other,false,some ⟨132,[],none,false⟩⟩,⟨256,.other,false,some ⟨133,[],none,false⟩⟩,⟨256,.other,false,some ⟨50,[.nestRes,.code],none,false⟩⟩,⟨256,.other,false,some ⟨51,[.nestRes,.code],none,false⟩⟩,⟨256,.other,false,some ⟨134,[],none,false⟩⟩]⟩,⟨[23,46],none,[],[⟨256,.other,false,some ⟨68,[],none,false⟩⟩,⟨256,.ws,false,none⟩,⟨256,.lf,false,none⟩,⟨256,.vt,false,some ⟨68,[],none,false⟩⟩,⟨256,.ff,false,none⟩,⟨256,.cr,false,none⟩,⟨256,.cr,true,none⟩,⟨256,.other,false,some ⟨130,[],none,false⟩⟩,⟨256,.other,false,some ⟨131,[],none,false⟩⟩,⟨256,.other,false,some ⟨168,[],none,false⟩⟩,⟨256,.other,false,some ⟨133,[],none,false⟩⟩,⟨256,.other,false,some ⟨50,[.nestRes,.code],none,false⟩⟩,⟨256,.other,false,some ⟨51,[.nestRes,.code],none,false⟩⟩,⟨256,.other,false,some ⟨134,[],none,false⟩⟩]⟩,⟨[23,48,51],none,[],[⟨256,.other,false,some ⟨68,[],none,false⟩⟩,⟨256,.ws,false,some ⟨0,[.code,.setEnt .checkBlank,.emb (.saw 1)],some 0,true⟩⟩,⟨256,.lf,false,none⟩,⟨256,.vt,false,some ⟨68,[],none,false⟩⟩,⟨256,.ff,false,none⟩,⟨256,.cr,false,none⟩,⟨256,.cr,true,none⟩,⟨256,.other,false,some ⟨130,[],none,false⟩⟩,⟨256,.other,false,some ⟨131,[],none,false⟩⟩,⟨256,.other,false,some ⟨132,[],none,false⟩⟩,⟨256,.other,false,some ⟨169,[],none,false⟩⟩,⟨256,.other,false,some ⟨50,[.nestRes,.code],none,false⟩⟩,⟨256,.other,false,some ⟨51,[.nestRes,.code],none,false⟩⟩,⟨256,.other,false,some ⟨134,[],none,false⟩⟩]⟩,⟨[23,53],none,[],[⟨256,.other,false,some ⟨68,[],none,false⟩⟩,⟨256,.ws,false,some ⟨0,[.code,.setEnt .checkBlank,.emb (.saw 1)],some 0,true⟩⟩,⟨256,.lf,false,none⟩,⟨256,.vt,false,some ⟨68,[],none,false⟩⟩,⟨256,.ff,false,none⟩,⟨256,.cr,false,none⟩,⟨256,.cr,true,none⟩,⟨256,.other,false,some ⟨130,[],none,false⟩⟩,⟨256,.other,false,some ⟨131,[],none,false⟩⟩,⟨256,.other,false,some ⟨132,[],none,false⟩⟩,⟨256,.other,false,some ⟨133,[],none,false⟩⟩,⟨256,.other,false,some ⟨50,[.nestRes,.code],none,false⟩⟩,⟨256,.other,false,some ⟨51,[.nestRes,.code],none,false⟩⟩,⟨256,.other,false,some ⟨134,[],none,false⟩⟩]⟩,⟨[69],none,[],[⟨256,.other,false,none⟩,⟨256,.ws,false,none⟩,⟨256,.lf,false,some ⟨69,[.setEnt .internalNl,.cb],none,false⟩⟩,⟨256,.vt,false,none⟩,⟨256,.ff,false,some ⟨70,[.setEnt .internalNl,.cb],none,false⟩⟩,⟨256,.cr,false,some ⟨71,[.setEnt .internalNl,.cb],none,false⟩⟩,⟨256,.cr,true,some ⟨72,[.setEnt .internalNl,.cb],none,false⟩⟩,⟨256,.ws,false,some ⟨73,[.setEnt .internalNl,.cb],none,false⟩⟩,⟨256,.ws,false,some ⟨74,[.setEnt .internalNl,.cb],none,false⟩⟩,⟨256,.ws,false,some ⟨75,[.setEnt .internalNl,.cb],none,false⟩⟩]⟩,⟨[69,70],none,[],[⟨256,.other,false,none⟩,⟨256,.ws,false,none⟩,⟨256,.lf,false,some ⟨69,[.setEnt .internalNl,.cb],none,false⟩⟩,⟨256,.vt,false,none⟩,⟨256,.ff,false,some ⟨70,[.setEnt .internalNl,.cb],none,false⟩⟩,⟨256,.cr,false,some ⟨71,[.setEnt .internalNl,.cb],none,false⟩⟩,⟨256,.cr,true,some ⟨72,[.setEnt .internalNl,.cb],none,false⟩⟩,⟨256,.ws,false,some ⟨73,[.setEnt .internalNl,.cb],none,false⟩⟩,⟨256,.ws,false,some ⟨74,[.setEnt .internalNl,.cb],none,false⟩⟩,⟨256,.ws,false,some ⟨75,[.setEnt .internalNl,.cb],none,false⟩⟩]⟩,⟨[76],some 2,[],[⟨256,.other,false,some ⟨26,[.comment],some 2,false⟩⟩,⟨256,.ws,false,some ⟨27,[],some 2,false⟩⟩,⟨256,.lf,false,some ⟨28,[.emb .indRes],none,false⟩⟩,⟨256,.vt,false,some ⟨26,[.comment],some 2,false⟩⟩,⟨256,.ff,false,some ⟨29,[.emb .indRes],none,false⟩⟩,⟨256,.cr,false,some ⟨30,[.emb .indRes],none,false⟩⟩,⟨256,.cr,true,some ⟨31,[.emb .indRes],none,false⟩⟩,⟨256,.ws,false,some ⟨170,[],some 2,false⟩⟩]⟩,⟨[74],none,[],[⟨256,.other,false,none⟩,⟨256,.ws,false,none⟩,⟨256,.lf,false,none⟩,⟨256,.vt,false,none⟩,⟨256,.ff,false,none⟩,⟨256,.cr,false,none⟩,⟨256,.cr,true,none⟩,⟨256,.ws,false,some ⟨73,[],none,false⟩⟩,⟨256,.ws,false,some ⟨74,[],none,false⟩⟩,⟨256,.ws,false,some ⟨75,[],none,false⟩⟩]⟩,⟨[74,76],some 2,[],[⟨256,.other,false,some ⟨26,[.comment],some 2,false⟩⟩,⟨256,.ws,false,some ⟨27,[],some 2,false⟩⟩,⟨256,.lf,false,some ⟨28,[.emb .indRes],none,false⟩⟩,⟨256,.vt,false,some ⟨26,[.comment],some 2,false⟩⟩,⟨256,.ff,false,some ⟨29,[.emb .indRes],none,false⟩⟩,⟨256,.cr,false,some ⟨30,[.emb .indRes],none,false⟩⟩,⟨256,.cr,true,some ⟨31,[.emb .indRes],none,false⟩⟩,⟨256,.ws,false,some ⟨170,[],some 2,false⟩⟩,⟨256,.ws,false,some ⟨171,[],some 2,false⟩⟩,⟨256,.ws,false,some ⟨172,[],some 2,false⟩⟩]⟩,⟨[37],none,[],[⟨256,.other,false,some ⟨82,[.setEnt .internalNl,.cb,.code],none,false⟩⟩,⟨256,.ws,false,some ⟨83,[.setEnt .internalNl,.cb],none,false⟩⟩,⟨256,.lf,false,some ⟨84,[.setEnt .internalNl,.cb],none,false⟩⟩,⟨256,.vt,false,some ⟨82,[.setEnt .internalNl,.cb,.code],none,false⟩⟩,⟨256,.ff,false,some ⟨85,[.setEnt .internalNl,.cb],none,false⟩⟩,⟨256,.cr,false,some ⟨86,[.setEnt .internalNl,.cb],none,false⟩⟩,⟨256,.cr,true,some ⟨87,[.setEnt .internalNl,.cb],none,false⟩⟩,⟨256,.other,false,some ⟨88,[.setEnt .internalNl,.cb,.nestInc],none,false⟩⟩,⟨256,.other,false,some ⟨89,[.setEnt .internalNl,.cb,.nestDec],none,false⟩⟩,⟨256,.other,false,some ⟨90,[.setEnt .internalNl,.cb,.code],none,false⟩⟩]⟩,⟨[37,38],none,[],[⟨256,.other,false,some ⟨82,[.setEnt .internalNl,.cb,.code],none,false⟩⟩,⟨256,.ws,false,some ⟨83,[.setEnt .internalNl,.cb],none,false⟩⟩,⟨256,.lf,false,some ⟨84,[.setEnt .internalNl,.cb],none,false⟩⟩,⟨256,.vt,false,some ⟨82,[.setEnt .internalNl,.cb,.code],none,false⟩⟩,⟨256,.ff,false,some ⟨85,[.setEnt .internalNl,.cb],none,false⟩⟩,⟨256,.cr,false,some ⟨86,[.setEnt .internalNl,.cb],none,false⟩⟩,⟨256,.cr,true,some ⟨87,[.setEnt .internalNl,.cb],none,false⟩⟩,⟨256,.other,false,some ⟨88,[.setEnt .internalNl,.cb,.nestInc],none,false⟩⟩,⟨256,.other,false,some ⟨89,[.setEnt .internalNl,.cb,.nestDec],none,false⟩⟩,⟨256,.other,false,some ⟨90,[.setEnt .internalNl,.cb,.code],none,false⟩⟩]⟩,⟨[50],none,[],[⟨256,.other,false,none⟩,⟨256,.ws,false,none⟩,⟨256,.lf,false,none⟩,⟨256,.vt,false,none⟩,⟨256,.ff,false,none⟩,⟨256,.cr,false,none⟩,⟨256,.cr,true,none⟩,⟨256,.other,false,some ⟨173,[],none,false⟩⟩]⟩,⟨[52],none,[],[⟨256,.other,false,none⟩,⟨256,.ws,false,some ⟨0,[.code,.setEnt .checkBlank,.emb (.saw 1)],some 0,true⟩⟩,⟨256,.lf,false,none⟩,⟨256,.vt,false,none⟩,⟨256,.ff,false,none⟩,⟨256,.cr,false,none⟩,⟨256,.cr,true,none⟩]⟩,⟨[46],none,[],[⟨256,.other,false,none⟩,⟨256,.ws,false,none⟩,⟨256,.lf,false,none⟩,⟨256,.vt,false,none⟩,⟨256,.ff,false,none⟩,⟨256,.cr,false,none⟩,⟨256,.cr,true,none⟩,⟨256,.other,false,some ⟨174,[],none,false⟩⟩]⟩,⟨[26],none,[],[⟨256,.other,false,some ⟨91,[.setEnt .internalNl,.cb,.code],none,false⟩⟩,⟨256,.ws,false,some ⟨92,[.setEnt .internalNl,.cb],none,false⟩⟩,⟨256,.lf,false,some ⟨93,[.setEnt .internalNl,.cb],none,false⟩⟩,⟨256,.vt,false,some ⟨91,[.setEnt .internalNl,.cb,.code],none,false⟩⟩,⟨256,.ff,false,some ⟨94,[.setEnt .internalNl,.cb],none,false⟩⟩,⟨256,.cr,false,some ⟨95,[.setEnt .internalNl,.cb],none,false⟩⟩,⟨256,.cr,true,some ⟨96,[.setEnt .internalNl,.cb],none,false⟩⟩,⟨256,.other,false,some ⟨97,[.setEnt .internalNl,.cb,.nestInc],none,false⟩⟩,⟨256,.other,false,some ⟨98,[.setEnt .internalNl,.cb,.nestDec],none,false⟩⟩,⟨256,.other,false,some ⟨99,[.setEnt .internalNl,.cb,.code],none,false⟩⟩]⟩,⟨[26,27],none,[],[⟨256,.other,false,some ⟨91,[.setEnt .internalNl,.cb,.code],none,false⟩⟩,⟨256,.ws,false,some ⟨92,[.setEnt .internalNl,.cb],none,false⟩⟩,⟨256,.lf,false,some ⟨93,[.setEnt .internalNl,.cb],none,false⟩⟩,⟨256,.vt,false,some ⟨91,[.setEnt .internalNl,.cb,.code],none,false⟩⟩,⟨256,.ff,false,some ⟨94,[.setEnt .internalNl,.cb],none,false⟩⟩,⟨256,.cr,false,some ⟨95,[.setEnt .internalNl,.cb],none,false⟩⟩,⟨256,.cr,true,some ⟨96,[.setEnt .internalNl,.cb],none,false⟩⟩,⟨256,.other,false,some ⟨97,[.setEnt .internalNl,.cb,.nestInc],none,false⟩⟩,⟨256,.other,false,some ⟨98,[.setEnt .internalNl,.cb,.nestDec],none,false⟩⟩,⟨256,.other,false,some ⟨99,[.setEnt .internalNl,.cb,.code],none,false⟩⟩]⟩,⟨[7,48,49,51],none,[],[⟨256,.other,false,some ⟨100,[],none,false⟩⟩,⟨256,.ws,false,some ⟨0,[.code,.setEnt .checkBlank,.emb (.saw 1)],some 0,true⟩⟩,⟨256,.lf,false,none⟩,⟨256,.vt,false,some ⟨100,[],none,false⟩⟩,⟨256,.ff,false,none⟩,⟨256,.cr,false,none⟩,⟨256,.cr,true,none⟩,⟨256,.other,false,some ⟨101,[],none,false⟩⟩,⟨256,.other,false,some ⟨102,[],none,false⟩⟩,⟨256,.other,false,some ⟨103,[],none,false⟩⟩,⟨256,.other,false,some ⟨147,[],none,false⟩⟩,⟨256,.other,false,some ⟨50,[.nestRes,.code],none,false⟩⟩,⟨256,.other,false,some ⟨51,[.nestRes,.code],none,false⟩⟩,⟨256,.other,false,some ⟨105,[],none,false⟩⟩]⟩,⟨[9,50],none,[],[⟨256,.other,false,some ⟨107,[],none,false⟩⟩,⟨256,.ws,false,none⟩,⟨256,.lf,false,none⟩,⟨256,.vt,false,some ⟨107,[],none,false⟩⟩,⟨256,.ff,false,none⟩,⟨256,.cr,false,none⟩,⟨256,.cr,true,none⟩,⟨256,.other,false,some ⟨148,[],none,false⟩⟩,⟨256,.other,false,some ⟨149,[],none,false⟩⟩,⟨256,.other,false,some ⟨150,[],none,false⟩⟩,⟨256,.other,false,some ⟨151,[],none,false⟩⟩,⟨256,.other,false,some ⟨50,[.nestRes,.code],none,false⟩⟩,⟨256,.other,false,some ⟨51,[.nestRes,.code],none,false⟩⟩,⟨256,.other,false,some ⟨152,[],none,false⟩⟩]⟩,⟨[9,52],none,[],[⟨256,.other,false,some ⟨107,[],none,false⟩⟩,⟨256,.ws,false,some ⟨0,[.code,.setEnt .checkBlank,.emb (.saw 1)],some 0,true⟩⟩,⟨256,.lf,false,none⟩,⟨256,.vt,false,some ⟨107,[],none,false⟩⟩,⟨256,.ff,false,none⟩,⟨256,.cr,false,none⟩,⟨256,.cr,true,none⟩,⟨256,.other,false,some ⟨148,[],none,false⟩⟩,⟨256,.other,false,some ⟨149,[],none,false⟩⟩,⟨256,.other,false,some ⟨150,[],none,false⟩⟩,⟨256,.other,false,some ⟨151,[],none,false⟩⟩,⟨256,.other,false,some ⟨50,[.nestRes,.code],none,false⟩⟩,⟨256,.other,false,some ⟨51,[.nestRes,.code],none,false⟩⟩,⟨256,.other,false,some ⟨152,[],none,false⟩⟩]⟩,⟨[9,46],none,[],[⟨256,.other,false,some ⟨107,[],none,false⟩⟩,⟨256,.ws,false,none⟩,⟨256,.lf,false,none⟩,⟨256,.vt,false,some ⟨107,[],none,false⟩⟩,⟨256,.ff,false,none⟩,⟨256,.cr,false,none⟩,⟨256,.cr,true,none⟩,⟨256,.other,false,some ⟨148,[],none,false⟩⟩,⟨256,.other,false,some ⟨149,[],none,false⟩⟩,⟨256,.other,false,some ⟨175,[],none,false⟩⟩,⟨256,.other,false,some ⟨151,[],none,false⟩⟩,⟨256,.other,false,some ⟨50,[.nestRes,.code],none,false⟩⟩,⟨256,.other,false,some ⟨51,[.nestRes,.code],none,false⟩⟩,⟨256,.other,false,some ⟨152,[],none,false⟩⟩]⟩,⟨[9,48,51],none,[],[⟨256,.other,false,some ⟨107,[],none,false⟩⟩,⟨256,.ws,false,some ⟨0,[.code,.setEnt .checkBlank,.emb (.saw 1)],some 0,true⟩⟩,⟨256,.lf,false,none⟩,⟨256,.vt,false,some ⟨107,[],none,false⟩⟩,⟨256,.ff,false,none⟩,⟨256,.cr,false,none⟩,⟨256,.cr,true,none⟩,⟨256,.other,false,some ⟨148,[],none,false⟩⟩,⟨256,.other,false,some ⟨149,[],none,false⟩⟩,⟨256,.other,false,some ⟨150,[],none,false⟩⟩,⟨256,.other,false,some ⟨176,[],none,false⟩⟩,⟨256,.other,false,some ⟨50,[.nestRes,.code],none,false⟩⟩,⟨256,.other,false,some ⟨51,[.nestRes,.code],none,false⟩⟩,⟨256,.other,false,some ⟨152,[],none,false⟩⟩]⟩,⟨[9,53],none,[],[⟨256,.other,false,some ⟨107,[],none,false⟩⟩,⟨256,.ws,false,some ⟨0,[.code,.setEnt .checkBlank,.emb (.saw 1)],some 0,true⟩⟩,⟨256,.lf,false,none⟩,⟨256,.vt,false,some ⟨107,[],none,false⟩⟩,⟨256,.ff,false,none⟩,⟨256,.cr,false,none⟩,⟨256,.cr,true,none⟩,⟨256,.other,false,some ⟨148,[],none,false⟩⟩,⟨256,.other,false,some ⟨149,[],none,false⟩⟩,⟨256,.other,false,some ⟨150,[],none,false⟩⟩,⟨256,.other,false,some ⟨151,[],none,false⟩⟩,⟨256,.other,false,some ⟨50,[.nestRes,.code],none,false⟩⟩,⟨256,.other,false,some ⟨51,[.nestRes,.code],none,false⟩⟩,⟨256,.other,false,some ⟨152,[],none,false⟩⟩]⟩,⟨[12,48,49,51],none,[],[⟨256,.other,false,some ⟨109,[],none,false⟩⟩,⟨256,.ws,false,some ⟨0,[.code,.setEnt .checkBlank,.emb (.saw 1)],some 0,true⟩⟩,⟨256,.lf,false,none⟩,⟨256,.vt,false,some ⟨109,[],none,false⟩⟩,⟨256,.ff,false,none⟩,⟨256,.cr,false,none⟩,⟨256,.cr,true,none⟩,⟨256,.other,false,some ⟨110,[],none,false⟩⟩,⟨256,.other,false,some ⟨111,[],none,false⟩⟩,⟨256,.other,false,some ⟨112,[],none,false⟩⟩,⟨256,.other,false,some ⟨153,[],none,false⟩⟩,⟨256,.other,false,some ⟨50,[.nestRes,.code],none,false⟩⟩,⟨256,.other,false,some ⟨51,[.nestRes,.code],none,false⟩⟩,⟨256,.other,false,some ⟨114,[],none,false⟩⟩]⟩,⟨[14,50],none,[],[⟨256,.other,false,some ⟨116,[],none,false⟩⟩,⟨256,.ws,false,none⟩,⟨256,.lf,false,none⟩,⟨256,.vt,false,some ⟨116,[],none,false⟩⟩,⟨256,.ff,false,none⟩,⟨256,.cr,false,none⟩,⟨256,.cr,true,none⟩,⟨256,.other,false,some ⟨154,[],none,false⟩⟩,⟨256,.other,false,some ⟨155,[],none,false⟩⟩,⟨256,.other,false,some ⟨156,[],none,false⟩⟩,⟨256,.other,false,some ⟨157,[],none,false⟩⟩,⟨256,.other,false,some ⟨50,[.nestRes,.code],none,false⟩⟩,⟨256,.other,false,some ⟨51,[.nestRes,.code],none,false⟩⟩,⟨256,.other,false,some ⟨158,[],none,false⟩⟩]⟩,⟨[14,52],none,[],[⟨256,.other,false,some ⟨116,[],none,false⟩⟩,⟨256,.ws,false,some ⟨0,[.code,.setEnt .checkBlank,.emb (.saw 1)],some 0,true⟩⟩,⟨256,.lf,false,none⟩,⟨256,.vt,false,some ⟨116,[],none,false⟩⟩,⟨256,.ff,false,none⟩,⟨256,.cr,false,none⟩,⟨256,.cr,true,none⟩,⟨256,.other,false,some ⟨154,[],none,false⟩⟩,⟨256,.other,false,some ⟨155,[],none,false⟩⟩,⟨256,.other,false,some ⟨156,[],none,false⟩⟩,⟨256,.other,false,some ⟨157,[],none,false⟩⟩,⟨256,.other,false,some ⟨50,[.nestRes,.code],none,false⟩⟩,⟨256,.other,false,some ⟨51,[.nestRes,.code],none,false⟩⟩,⟨256,.other,false,some ⟨158,[],none,false⟩⟩]⟩,⟨[14,46],none,[],[⟨256,.other,false,some ⟨116,[],none,false⟩⟩,⟨256,.ws,false,none⟩,⟨256,.lf,false,none⟩,⟨256,.vt,false,some ⟨116,[],none,false⟩⟩,⟨256,.ff,false,none⟩,⟨256,.cr,false,none⟩,⟨256,.cr,true,none⟩,⟨256,.other,false,some ⟨154,[],none,false⟩⟩,⟨256,.other,false,some ⟨155,[],none,false⟩⟩,⟨256,.other,false,some ⟨177,[],none,false⟩⟩,⟨256,.other,false,some ⟨157,[],none,false⟩⟩,⟨256,.other,false,some ⟨50,[.nestRes,.code],none,false⟩⟩,⟨256,.other,false,some ⟨51,[.nestRes,.code],none,false⟩⟩,⟨256,.other,false,some ⟨158,[],none,false⟩⟩]⟩,⟨[14,48,51],none,[],[⟨256,.other,false,some ⟨116,[],none,false⟩⟩,⟨256,.ws,false,some ⟨0,[.code,.setEnt .checkBlank,.emb (.saw 1)],some 0,true⟩⟩,⟨256,.lf,false,none⟩,⟨256,.vt,false,some ⟨116,[],none,false⟩⟩,⟨256,.ff,false,none⟩,⟨256,.cr,false,none⟩,⟨256,.cr,true,none⟩,⟨256,.other,false,some ⟨154,[],none,false⟩⟩,⟨256,.other,false,some ⟨155,[],none,false⟩⟩,⟨256,.other,false,some ⟨156,[],none,false⟩⟩,⟨256,.other,false,some ⟨178,[],none,false⟩⟩,⟨256,.other,false,some ⟨50,[.nestRes,.code],none,false⟩⟩,⟨256,.other,false,some ⟨51,[.nestRes,.code],none,false⟩⟩,⟨256,.other,false,some ⟨158,[],none,false⟩⟩]⟩,⟨[14,53],none,[],[⟨256,.other,false,some ⟨116,[],none,false⟩⟩,⟨256,.ws,false,some ⟨0,[.code,.setEnt .checkBlank,.emb (.saw 1)],some 0,true⟩⟩,⟨256,.lf,false,none⟩,⟨256,.vt,false,some ⟨116,[],none,false⟩⟩,⟨256,.ff,false,none⟩,⟨256,.cr,false,none⟩,⟨256,.cr,true,none⟩,⟨256,.other,false,some ⟨154,[],none,false⟩⟩,⟨256,.other,false,some ⟨155,[],none,false⟩⟩,⟨256,.other,false,some ⟨156,[],none,false⟩⟩,⟨256,.other,false,some ⟨157,[],none,false⟩⟩,⟨256,.other,false,some ⟨50,[.nestRes,.code],none,false⟩⟩,⟨256,.other,false,some ⟨51,[.nestRes,.code],none,false⟩⟩,⟨256,.other,false,some ⟨158,[],none,false⟩⟩]⟩,⟨[16,46,47],none,[],[⟨256,.other,false,some ⟨65,[],none,false⟩⟩,⟨256,.ws,false,none⟩,⟨256,.lf,false,none⟩,⟨256,.vt,false,some ⟨65,[],none,false⟩⟩,⟨256,.ff,false,none⟩,⟨256,.cr,false,none⟩,⟨256,.cr,true,none⟩,⟨256,.other,false,some ⟨118,[],none,false⟩⟩,⟨256,.other,false,some ⟨119,[],none,false⟩⟩,⟨256,.other,false,some ⟨159,[],none,false⟩⟩,⟨256,.other,false,some ⟨121,[],none,false⟩⟩,⟨256,.other,false,some ⟨50,[.nestRes,.code],none,false⟩⟩,⟨256,.other,false,some ⟨51,[.nestRes,.code],none,false⟩⟩,⟨256,.other,false,some ⟨122,[],none,false⟩⟩]⟩,⟨[16,48,49,51],none,[],[⟨256,.other,false,some ⟨65,[],none,false⟩⟩,⟨256,.ws,false,some ⟨0,[.code,.setEnt .checkBlank,.emb (.saw 1)],some 0,true⟩⟩,⟨256,.lf,false,none⟩,⟨256,.vt,false,some ⟨65,[],none,false⟩⟩,⟨256,.ff,false,none⟩,⟨256,.cr,false,none⟩,⟨256,.cr,true,none⟩,⟨256,.other,false,some ⟨118,[],none,false⟩⟩,⟨256,.other,false,some ⟨119,[],none,false⟩⟩,⟨256,.other,false,some ⟨120,[],none,false⟩⟩,⟨256,.other,false,some ⟨160,[],none,false⟩⟩,⟨256,.other,false,some ⟨50,[.nestRes,.code],none,false⟩⟩,⟨256,.other,false,some ⟨51,[.nestRes,.code],none,false⟩⟩,⟨256,.other,false,some ⟨122,[],none,false⟩⟩]⟩,⟨[19,46,47],none,[],[⟨256,.other,false,some ⟨123,[],none,false⟩⟩,⟨256,.ws,false,none⟩,⟨256,.lf,false,none⟩,⟨256,.vt,false,some ⟨123,[],none,false⟩⟩,⟨256,.ff,false,none⟩,⟨256,.cr,false,none⟩,⟨256,.cr,true,none⟩,⟨256,.other,false,some ⟨124,[],none,false⟩⟩,⟨256,.other,false,some ⟨125,[],none,false⟩⟩,⟨256,.other,false,some ⟨161,[],none,false⟩⟩,⟨256,.other,false,some ⟨127,[],none,false⟩⟩,⟨256,.other,false,some ⟨50,[.nestRes,.code],none,false⟩⟩,⟨256,.other,false,some ⟨51,[.nestRes,.code],none,false⟩⟩,⟨256,.other,false,some ⟨128,[],none,false⟩⟩]⟩,⟨[19,48,49,51],none,[],[⟨256,.other,false,some ⟨123,[],none,false⟩⟩,⟨256,.ws,false,some ⟨0,[.code,.setEnt .checkBlank,.emb (.saw 1)],some 0,true⟩⟩,⟨256,.lf,false,none⟩,⟨256,.vt,false,some ⟨123,[],none,false⟩⟩,⟨256,.ff,false,none⟩,⟨256,.cr,false,none⟩,⟨256,.cr,true,none⟩,⟨256,.other,false,some ⟨124,[],none,false⟩⟩,⟨256,.other,false,some ⟨125,[],none,false⟩⟩,⟨256,.other,false,some ⟨126,[],none,false⟩⟩,⟨256,.other,false,some ⟨162,[],none,false⟩⟩,⟨256,.other,false,some ⟨50,[.nestRes,.code],none,false⟩⟩,⟨256,.other,false,some ⟨51,[.nestRes,.code],none,false⟩⟩,⟨256,.other,false,some ⟨128,[],none,false⟩⟩]⟩,⟨[21,50],none,[],[⟨256,.other,false,some ⟨129,[],none,false⟩⟩,⟨256,.ws,false,none⟩,⟨256,.lf,false,none⟩,⟨256,.vt,false,some ⟨129,[],none,false⟩⟩,⟨256,.ff,false,none⟩,⟨256,.cr,false,none⟩,⟨256,.cr,true,none⟩,⟨256,.other,false,some ⟨163,[],none,false⟩⟩,⟨256,.other,false,some ⟨164,[],none,false⟩⟩,⟨256,.other,false,some ⟨165,[],none,false⟩⟩,⟨256,.other,false,some ⟨166,[],none,false⟩⟩,⟨256,.other,false,some ⟨50,[.nestRes,.code],none,false⟩⟩,⟨256,.other,false,some ⟨51,[.nestRes,.code],none,false⟩⟩,⟨256,.other,false,some ⟨167,[],none,false⟩⟩]⟩,⟨[21,52],none,[],[⟨256,.other,false,some ⟨129,[],none,false⟩⟩,⟨256,.ws,false,some ⟨0,[.code,.setEnt .checkBlank,.emb (.saw 1)],some 0,true⟩⟩,⟨256,.lf,false,none⟩,⟨256,.vt,false,some ⟨129,[],none,false⟩⟩,⟨256,.ff,false,none⟩,⟨256,.cr,false,none⟩,⟨256,.cr,true,none⟩,⟨256,.other,false,some ⟨163,[],none,false⟩⟩,⟨256,.other,false,some ⟨164,[],none,false⟩⟩,⟨256,.other,false,some ⟨165,[],none,false⟩⟩,⟨256,.other,false,some ⟨166,[],none,false⟩⟩,⟨256,.other,false,some ⟨50,[.nestRes,.code],none,false⟩⟩,⟨256,.other,false,some ⟨51,[.nestRes,.code],none,false⟩⟩,⟨256,.other,false,some ⟨167,[],none,false⟩⟩]⟩,⟨[21,46],none,[],[⟨256,.other,false,some ⟨129,[],none,false⟩⟩,⟨256,.ws,false,none⟩,⟨256,.lf,false,none⟩,⟨256,.vt,false,some ⟨129,[],none,false⟩⟩,⟨256,.ff,false,none⟩,⟨256,.cr,false,none⟩,⟨256,.cr,true,none⟩,⟨256,.other,false,some ⟨163,[],none,false⟩⟩,⟨256,.other,false,some ⟨164,[],none,false⟩⟩,⟨256,.other,false,some ⟨179,[],none,false⟩⟩,⟨256,.other,false,some ⟨166,[],none,false⟩⟩,⟨256,.other,false,some ⟨50,[.nestRes,.code],none,false⟩⟩,⟨256,.other,false,some ⟨51,[.nestRes,.code],none,false⟩⟩,⟨256,.other,false,some ⟨167,[],none,false⟩⟩]⟩,⟨[21,48,51],none,[],[⟨256,.other,false,some ⟨129,[],none,false⟩⟩,⟨256,.ws,false,some ⟨0,[.code,.setEnt .checkBlank,.emb (.saw 1)],some 0,true⟩⟩,⟨256,.lf,false,none⟩,⟨256,.vt,false,some ⟨129,[],none,false⟩⟩,⟨256,.ff,false,none⟩,⟨256,.cr,false,none⟩,⟨256,.cr,true,none⟩,⟨256,.other,false,some ⟨163,[],none,false⟩⟩,⟨256,.other,false,some ⟨164,[],none,false⟩⟩,⟨256,.other,false,some ⟨165,[],none,false⟩⟩,⟨256,.other,false,some ⟨180,[],none,false⟩⟩,⟨256,.other,false,some ⟨50,[.nestRes,.code],none,false⟩⟩,⟨256,.other,false,some ⟨51,[.nestRes,.code],none,false⟩⟩,⟨256,.other,false,some ⟨167,[],none,false⟩⟩]⟩,⟨[21,53],none,[],[⟨256,.other,false,some ⟨129,[],none,false⟩⟩,⟨256,.ws,false,some ⟨0,[.code,.setEnt .checkBlank,.emb (.saw 1)],some 0,true⟩⟩,⟨256,.lf,false,none⟩,⟨256,.vt,false,some ⟨129,[],none,false⟩⟩,⟨256,.ff,false,none⟩,⟨256,.cr,false,none⟩,⟨256,.cr,true,none⟩,⟨256,.other,false,some ⟨163,[],none,false⟩⟩,⟨256,.other,false,some ⟨164,[],none,false⟩⟩,⟨256,.other,false,some ⟨165,[],none,false⟩⟩,⟨256,.other,false,some ⟨166,[],none,false⟩⟩,⟨256,.other,false,some ⟨50,[.nestRes,.code],none,false⟩⟩,⟨256,.other,false,some ⟨51,[.nestRes,.code],none,false⟩⟩,⟨256,.other,false,some ⟨167,[],none,false⟩⟩]⟩,⟨[23,46,47],none,[],[⟨256,.other,false,some ⟨68,[],none,false⟩⟩,⟨256,.ws,false,none⟩,⟨256,.lf,false,none⟩,⟨256,.vt,false,some ⟨68,[],none,false⟩⟩,⟨256,.ff,false,none⟩,⟨256,.cr,false,none⟩,⟨256,.cr,true,none⟩,⟨256,.other,false,some ⟨130,[],none,false⟩⟩,⟨256,.other,false,some ⟨131,[],none,false⟩⟩,⟨256,.other,false,some ⟨168,[],none,false⟩⟩,⟨256,.other,false,some ⟨133,[],none,false⟩⟩,⟨256,.other,false,some ⟨50,[.nestRes,.code],none,false⟩⟩,⟨256,.other,false,some ⟨51,[.nestRes,.code],none,false⟩⟩,⟨256,.other,false,some ⟨134,[],none,false⟩⟩]⟩,⟨[23,48,49,51],none,[],[⟨256,.other,false,some ⟨68,[],none,false⟩⟩,⟨256,.ws,false,some ⟨0,[.code,.setEnt .checkBlank,.emb (.saw 1)],some 0,true⟩⟩,⟨256,.lf,false,none⟩,⟨256,.vt,false,some ⟨68,[],none,false⟩⟩,⟨256,.ff,false,none⟩,⟨256,.cr,false,none⟩,⟨256,.cr,true,none⟩,⟨256,.other,false,some ⟨130,[],none,false⟩⟩,⟨256,.other,false,some ⟨131,[],none,false⟩⟩,⟨256,.other,false,some ⟨132,[],none,false⟩⟩,⟨256,.other,false,some ⟨169,[],none,false⟩⟩,⟨256,.other,false,some ⟨50,[.nestRes,.code],none,false⟩⟩,⟨256,.other,false,some ⟨51,[.nestRes,.code],none,false⟩⟩,⟨256,.other,false,some ⟨134,[],none,false⟩⟩]⟩,⟨[75,77],some 2,[],[⟨256,.other,false,some ⟨26,[.comment],some 2,false⟩⟩,⟨256,.ws,false,some ⟨27,[],some 2,false⟩⟩,⟨256,.lf,false,some ⟨28,[.emb .indRes],none,false⟩⟩,⟨256,.vt,false,some ⟨26,[.comment],some 2,false⟩⟩,⟨256,.ff,false,some ⟨29,[.emb .indRes],none,false⟩⟩,⟨256,.cr,false,some ⟨30,[.emb .indRes],none,false⟩⟩,⟨256,.cr,true,some ⟨31,[.emb .indRes],none,false⟩⟩,⟨256,.ws,false,some ⟨181,[.emb .indInc],some 2,false⟩⟩]⟩,⟨[73,77],some 2,[],[⟨256,.other,false,some ⟨26,[.comment],some 2,false⟩⟩,⟨256,.ws,false,some ⟨27,[],some 2,false⟩⟩,⟨256,.lf,false,some ⟨28,[.emb .indRes],none,false⟩⟩,⟨256,.vt,false,some ⟨26,[.comment],some 2,false⟩⟩,⟨256,.ff,false,some ⟨29,[.emb .indRes],none,false⟩⟩,⟨256,.cr,false,some ⟨30,[.emb .indRes],none,false⟩⟩,⟨256,.cr,true,some ⟨31,[.emb .indRes],none,false⟩⟩,⟨256,.ws,false,some ⟨182,[.emb .indInc],some 2,false⟩⟩]⟩,⟨[73,75,77],some 2,[],[⟨256,.other,false,some ⟨26,[.comment],some 2,false⟩⟩,⟨256,.ws,false,some ⟨27,[],some 2,false⟩⟩,⟨256,.lf,false,some ⟨28,[.emb .indRes],none,false⟩⟩,⟨256,.vt,false,some ⟨26,[.comment],some 2,false⟩⟩,⟨256,.ff,false,some ⟨29,[.emb .indRes],none,false⟩⟩,⟨256,.cr,false,some ⟨30,[.emb .indRes],none,false⟩⟩,⟨256,.cr,true,some ⟨31,[.emb .indRes],none,false⟩⟩,⟨256,.ws,false,some ⟨181,[.emb .indInc],some 2,false⟩⟩,⟨256,.ws,false,some ⟨182,[.emb .indInc],some 2,false⟩⟩,⟨256,.ws,false,some ⟨183,[.emb .indInc],some 2,false⟩⟩]⟩,⟨[51],none,[],[⟨256,.other,false,none⟩,⟨256,.ws,false,some ⟨0,[.code,.setEnt .checkBlank,.emb (.saw 1)],some 0,true⟩⟩,⟨256,.lf,false,none⟩,⟨256,.vt,false,none⟩,⟨256,.ff,false,none⟩,⟨256,.cr,false,none⟩,⟨256,.cr,true,none⟩]⟩,⟨[47],none,[],[⟨256,.other,false,none⟩,⟨256,.ws,false,none⟩,⟨256,.lf,false,none⟩,⟨256,.vt,false,none⟩,⟨256,.ff,false,none⟩,⟨256,.cr,false,none⟩,⟨256,.cr,true,none⟩,⟨256,.other,false,some ⟨142,[],none,false⟩⟩,⟨256,.other,false,some ⟨143,[],none,false⟩⟩,⟨256,.other,false,some ⟨42,[],none,false⟩⟩,⟨256,.other,false,some ⟨43,[],none,false⟩⟩]⟩,⟨[9,46,47],none,[],[⟨256,.other,false,some ⟨107,[],none,false⟩⟩,⟨256,.ws,false,none⟩,⟨256,.lf,false,none⟩,⟨256,.vt,false,some ⟨107,[],none,false⟩⟩,⟨256,.ff,false,none⟩,⟨256,.cr,false,none⟩,⟨256,.cr,true,none⟩,⟨256,.other,false,some ⟨148,[],none,false⟩⟩,⟨256,.other,false,some ⟨149,[],none,false⟩⟩,⟨256,.other,false,some ⟨175,[],none,false⟩⟩,⟨256,.other,false,some ⟨151,[],none,false⟩⟩,⟨256,.other,false,some ⟨50,[.nestRes,.code],none,false⟩⟩,⟨256,.other,false,some ⟨51,[.nestRes,.code],none,false⟩⟩,⟨256,.other,false,some ⟨152,[],none,false⟩⟩]⟩,⟨[9,48,49,51],none,[],[⟨256,.other,false,some ⟨107,[],none,false⟩⟩,⟨256,.ws,false,some ⟨0,[.code,.setEnt .checkBlank,.emb (.saw 1)],some 0,true⟩⟩,⟨256,.lf,false,none⟩,⟨256,.vt,false,some ⟨107,[],none,false⟩⟩,⟨256,.ff,false,none⟩,⟨256,.cr,false,none⟩,⟨256,.cr,true,none⟩,⟨256,.other,false,some ⟨148,[],none,false⟩⟩,⟨256,.other,false,some ⟨149,[],none,false⟩⟩,⟨256,.other,false,some ⟨150,[],none,false⟩⟩,⟨256,.other,false,some ⟨176,[],none,false⟩⟩,⟨256,.other,false,some ⟨50,[.nestRes,.code],none,false⟩⟩,⟨256,.other,false,some ⟨51,[.nestRes,.code],none,false⟩⟩,⟨256,.other,false,some ⟨152,[],none,false⟩⟩]⟩,⟨[14,46,47],none,[],[⟨256,.other,false,some ⟨116,[],none,false⟩⟩,⟨256,.ws,false,none⟩,⟨256,.lf,false,none⟩,⟨256,.vt,false,some ⟨116,[],none,false⟩⟩,⟨256,.ff,false,none⟩,⟨256,.cr,false,none⟩,⟨256,.cr,true,none⟩,⟨256,.other,false,some ⟨154,[],none,false⟩⟩,⟨256,.other,false,some ⟨155,[],none,false⟩⟩,⟨256,.other,false,some ⟨177,[],none,false⟩⟩,⟨256,.other,false,some ⟨157,[],none,false⟩⟩,⟨256,.other,false,some ⟨50,[.nestRes,.code],none,false⟩⟩,⟨256,.other,false,some ⟨51,[.nestRes,.code],none,false⟩⟩,⟨256,.other,false,some ⟨158,[],none,false⟩⟩]⟩,⟨[14,48,49,51],none,[],[⟨256,.other,false,some ⟨116,[],none,false⟩⟩,⟨256,.ws,false,some ⟨0,[.code,.setEnt .checkBlank,.emb (.saw 1)],some 0,true⟩⟩,⟨256,.lf,false,none⟩,⟨256,.vt,false,some ⟨116,[],none,false⟩⟩,⟨256,.ff,false,none⟩,⟨256,.cr,false,none⟩,⟨256,.cr,true,none⟩,⟨256,.other,false,some ⟨154,[],none,false⟩⟩,⟨256,.other,false,some ⟨155,[],none,false⟩⟩,⟨256,.other,false,some ⟨156,[],none,false⟩⟩,⟨256,.other,false,some ⟨178,[],none,false⟩⟩,⟨256,.other,false,some ⟨50,[.nestRes,.code],none,false⟩⟩,⟨256,.other,false,some ⟨51,[.nestRes,.code],none,false⟩⟩,⟨256,.other,false,some ⟨158,[],none,false⟩⟩]⟩,⟨[21,46,47],none,[],[⟨256,.other,false,some ⟨129,[],none,false⟩⟩,⟨256,.ws,false,none⟩,⟨256,.lf,false,none⟩,⟨256,.vt,false,some ⟨129,[],none,false⟩⟩,⟨256,.ff,false,none⟩,⟨256,.cr,false,none⟩,⟨256,.cr,true,none⟩,⟨256,.other,false,some ⟨163,[],none,false⟩⟩,⟨256,.other,false,some ⟨164,[],none,false⟩⟩,⟨256,.other,false,some ⟨179,[],none,false⟩⟩,⟨256,.other,false,some ⟨166,[],none,false⟩⟩,⟨256,.other,false,some ⟨50,[.nestRes,.code],none,false⟩⟩,⟨256,.other,false,some ⟨51,[.nestRes,.code],none,false⟩⟩,⟨256,.other,false,some ⟨167,[],none,false⟩⟩]⟩,⟨[21,48,49,51],none,[],[⟨256,.other,false,some ⟨129,[],none,false⟩⟩,⟨256,.ws,false,some ⟨0,[.code,.setEnt .checkBlank,.emb (.saw 1)],some 0,true⟩⟩,⟨256,.lf,false,none⟩,⟨256,.vt,false,some ⟨129,[],none,false⟩⟩,⟨256,.ff,false,none⟩,⟨256,.cr,false,none⟩,⟨256,.cr,true,none⟩,⟨256,.other,false,some ⟨163,[],none,false⟩⟩,⟨256,.other,false,some ⟨164,[],none,false⟩⟩,⟨256,.other,false,some ⟨165,[],none,false⟩⟩,⟨256,.other,false,some ⟨180,[],none,false⟩⟩,⟨256,.other,false,some ⟨50,[.nestRes,.code],none,false⟩⟩,⟨256,.other,false,some ⟨51,[.nestRes,.code],none,false⟩⟩,⟨256,.other,false,some ⟨167,[],none,false⟩⟩]⟩,⟨[76,77],some 2,[],[⟨256,.other,false,some ⟨26,[.comment],some 2,false⟩⟩,⟨256,.ws,false,some ⟨27,[],some 2,false⟩⟩,⟨256,.lf,false,some ⟨28,[.emb .indRes],none,false⟩⟩,⟨256,.vt,false,some ⟨26,[.comment],some 2,false⟩⟩,⟨256,.ff,false,some ⟨29,[.emb .indRes],none,false⟩⟩,⟨256,.cr,false,some ⟨30,[.emb .indRes],none,false⟩⟩,⟨256,.cr,true,some ⟨31,[.emb .indRes],none,false⟩⟩,⟨256,.ws,false,some ⟨170,[],some 2,false⟩⟩]⟩,⟨[74,77],some 2,[],[⟨256,.other,false,some ⟨26,[.comment],some 2,false⟩⟩,⟨256,.ws,false,some ⟨27,[],some 2,false⟩⟩,⟨256,.lf,false,some ⟨28,[.emb .indRes],none,false⟩⟩,⟨256,.vt,false,some ⟨26,[.comment],some 2,false⟩⟩,⟨256,.ff,false,some ⟨29,[.emb .indRes],none,false⟩⟩,⟨256,.cr,false,some ⟨30,[.emb .indRes],none,false⟩⟩,⟨256,.cr,true,some ⟨31,[.emb .indRes],none,false⟩⟩,⟨256,.ws,false,some ⟨170,[],some 2,false⟩⟩,⟨256,.ws,false,some ⟨171,[],some 2,false⟩⟩,⟨256,.ws,false,some ⟨172,[],some 2,false⟩⟩]⟩,⟨[74,76,77],some 2,[],[⟨256,.other,false,some ⟨26,[.comment],some 2,false⟩⟩,⟨256,.ws,false,some ⟨27,[],some 2,false⟩⟩,⟨256,.lf,false,some ⟨28,[.emb .indRes],none,false⟩⟩,⟨256,.vt,false,some ⟨26,[.comment],some 2,false⟩⟩,⟨256,.ff,false,some ⟨29,[.emb .indRes],none,false⟩⟩,⟨256,.cr,false,some ⟨30,[.emb .indRes],none,false⟩⟩,⟨256,.cr,true,some ⟨31,[.emb .indRes],none,false⟩⟩,⟨256,.ws,false,some ⟨170,[],some 2,false⟩⟩,⟨256,.ws,false,some ⟨171,[],some 2,false⟩⟩,⟨256,.ws,false,some ⟨172,[],some 2,false⟩⟩]⟩]
theorem emb57_rowsOk : rowsOk emb57_nfa [] (emb57_cs.map (·.1)) emb57_rows = true := by decide +kernel
def emb57_D : Dfa emb57_nfa := ⟨emb57_masks, [], emb57_cs, emb57_rows, emb57_masksIn, emb57_repOk, emb57_rowsOk⟩

/-- The automaton of `Emb.Haml.haml_entity`. -/
def emb58_nfa : Nfa := ⟨[⟨0,4294983168,[],[(0,.setEnt (.own 0))],0,0⟩,⟨1,137438953472,[],[(1,.setEnt (.own 3))],0,0⟩,⟨3,70368744177664,[],[(2,.setEnt (.own 4))],0,0⟩,⟨5,34359738368,[],[(3,.setEnt (.own 5))],0,0⟩,⟨7,2305843009213693952,[],[(4,.setEnt (.own 6))],0,0⟩,⟨9,283467841536,[],[(4,.setEnt (.own 6))],0,0⟩,⟨10,2305843009213693952,[],[(4,.setEnt (.own 6))],0,0⟩,⟨11,35184372088832,[],[(4,.setEnt (.own 6))],0,0⟩,⟨12,85070591730234615865843651857942052864,[],[(4,.setEnt (.own 6))],0,0⟩,⟨13,115792089237316195423570985008687907853184914073910329423589434266579275598847,[],[(5,.setEnt (.own 2))],0,0⟩,⟨21,115792089237316195423570985008687907853269984665640564039457584007908834656767,[],[(6,.setEnt (.own 7))],0,0⟩],[[⟨0,4294983168,[],[(0,.setEnt (.own 0))],0,0⟩],[⟨2,10633823810298881996667002598709002240,[],[(1,.setEnt (.own 3))],0,0⟩],[⟨2,10633823810298881996667002598709002240,[],[(1,.setEnt (.own 3))],0,0⟩],[⟨4,10633823810298881996667002598709002240,[],[(2,.setEnt (.own 4))],0,0⟩],[⟨4,10633823810298881996667002598709002240,[],[(2,.setEnt (.own 4))],0,0⟩],[⟨6,10633823810298881996667002598709002240,[],[(3,.setEnt (.own 5))],0,0⟩],[⟨6,10633823810298881996667002598709002240,[],[(3,.setEnt (.own 5))],0,0⟩],[⟨8,2305843009213693952,[],[(4,.setEnt (.own 6))],0,0⟩],[],[⟨10,2305843009213693952,[],[(4,.setEnt (.own 6))],0,0⟩],[],[],[],[⟨14,115792089237316195423570985008687907853269984665640564039457584007913129626623,[],[(5,.setEnt (.own 2))],0,0⟩,⟨15,21267647932558653966460912964485513216,[],[(5,.setEnt (.own 2))],0,0⟩],[⟨14,115792089237316195423570985008687907853269984665640564039457584007913129626623,[],[(5,.setEnt (.own 2))],0,0⟩,⟨15,21267647932558653966460912964485513216,[],[(5,.setEnt (.own 2))],0,0⟩],[⟨16,8192,[],[(5,.setEnt (.own 2))],0,0⟩,⟨18,1024,[],[(5,.setEnt (.own 2))],0,0⟩,⟨19,4096,[],[(5,.setEnt (.own 2))],0,0⟩,⟨20,8192,[.crAlone],[(5,.setEnt (.own 2))],0,0⟩],[⟨17,1024,[],[(5,.setEnt (.own 2))],0,0⟩],[⟨14,115792089237316195423570985008687907853269984665640564039457584007913129626623,[],[(5,.setEnt (.own 2))],0,0⟩,⟨15,21267647932558653966460912964485513216,[],[(5,.setEnt (.own 2))],0,0⟩],[⟨14,115792089237316195423570985008687907853269984665640564039457584007913129626623,[],[(5,.setEnt (.own 2))],0,0⟩,⟨15,21267647932558653966460912964485513216,[],[(5,.setEnt (.own 2))],0,0⟩],[⟨14,115792089237316195423570985008687907853269984665640564039457584007913129626623,[],[(5,.setEnt (.own 2))],0,0⟩,⟨15,21267647932558653966460912964485513216,[],[(5,.setEnt (.own 2))],0,0⟩],[⟨14,115792089237316195423570985008687907853269984665640564039457584007913129626623,[],[(5,.setEnt (.own 2))],0,0⟩,⟨15,21267647932558653966460912964485513216,[],[(5,.setEnt (.own 2))],0,0⟩],[]],[some (0,[]),none,some (1,[]),none,some (2,[]),none,some (3,[]),none,some (4,[]),none,some (4,[]),some (4,[]),some (4,[]),some (5,[]),some (5,[]),none,none,some (5,[]),some (5,[]),some (5,[]),some (5,[]),some (6,[])],[1,2,3,4,5,6,7]⟩
def emb58_masks : List Nat := [4294983168,137438953472,70368744177664,34359738368,2305843009213693952,283467841536,35184372088832,85070591730234615865843651857942052864,115792089237316195423570985008687907853184914073910329423589434266579275598847,115792089237316195423570985008687907853269984665640564039457584007908834656767,10633823810298881996667002598709002240,115792089237316195423570985008687907853269984665640564039457584007913129626623,21267647932558653966460912964485513216,8192,1024,4096]
def emb58_cs : List (Nat × Nat) := [(0,115792089237316195423570985008687907853153012602167471887626306350732613239295),(9,512),(10,1024),(11,2048),(12,4096),(13,8192),(32,4294967296),(33,283467841536),(35,34359738368),(37,137438953472),(45,35184372088832),(46,70368744177664),(47,140737488355328),(48,10633823810298881996667002598709002240),(61,2305843009213693952),(124,21267647932558653966460912964485513216),(126,85070591730234615865843651857942052864)]
theorem emb58_masksIn : masksIn emb58_nfa emb58_masks = true := by decide +kernel
theorem emb58_repOk : repOk emb58_masks emb58_cs = true := by decide +kernel
def emb58_rows : List Row := [⟨[],none,[],[⟨256,.other,false,some ⟨1,[.setEnt (.own 2),.setEnt (.own 7)],some 5,false⟩⟩,⟨256,.ws,false,some ⟨2,[.setEnt (.own 0),.setEnt (.own 2)],some 0,false⟩⟩,⟨256,.lf,false,some ⟨3,[.setEnt (.own 0)],some 0,false⟩⟩,⟨256,.vt,false,some ⟨2,[.setEnt (.own 0),.setEnt (.own 2)],some 0,false⟩⟩,⟨256,.ff,false,some ⟨3,[.setEnt (.own 0)],some 0,false⟩⟩,⟨256,.cr,false,some ⟨3,[.setEnt (.own 0)],some 0,false⟩⟩,⟨256,.cr,true,some ⟨3,[.setEnt (.own 0)],some 0,false⟩⟩,⟨256,.ws,false,some ⟨3,[.setEnt (.own 0)],some 0,false⟩⟩,⟨256,.other,false,some ⟨4,[.setEnt (.own 6),.setEnt (.own 2),.setEnt (.own 7)],some 5,false⟩⟩,⟨256,.other,false,some ⟨5,[.setEnt (.own 5),.setEnt (.own 7)],some 6,false⟩⟩,⟨256,.other,false,some ⟨6,[.setEnt (.own 3),.setEnt (.own 7)],some 6,false⟩⟩,⟨256,.other,false,some ⟨0,[.setEnt (.own 6)],some 4,true⟩⟩,⟨256,.other,false,some ⟨7,[.setEnt (.own 4),.setEnt (.own 7)],some 6,false⟩⟩,⟨256,.other,false,some ⟨0,[.setEnt (.own 7)],some 6,true⟩⟩,⟨256,.other,false,some ⟨8,[.setEnt (.own 6),.setEnt (.own 7)],some 4,false⟩⟩]⟩,⟨[13,21],some 5,[],[⟨256,.other,false,some ⟨9,[.setEnt (.own 2)],some 5,false⟩⟩,⟨256,.ws,false,some ⟨9,[.setEnt (.own 2)],some 5,false⟩⟩,⟨256,.lf,false,none⟩,⟨256,.vt,false,some ⟨9,[.setEnt (.own 2)],some 5,false⟩⟩,⟨256,.ff,false,none⟩,⟨256,.cr,false,none⟩,⟨256,.cr,true,none⟩,⟨256,.other,false,some ⟨10,[.setEnt (.own 2)],some 5,false⟩⟩]⟩,⟨[0,13],some 0,[],[⟨256,.other,false,some ⟨9,[.setEnt (.own 2)],some 5,false⟩⟩,⟨256,.ws,false,some ⟨11,[.setEnt (.own 0),.setEnt (.own 2)],some 0,false⟩⟩,⟨256,.lf,false,some ⟨3,[.setEnt (.own 0)],some 0,false⟩⟩,⟨256,.vt,false,some ⟨11,[.setEnt (.own 0),.setEnt (.own 2)],some 0,false⟩⟩,⟨256,.ff,false,some ⟨3,[.setEnt (.own 0)],some 0,false⟩⟩,⟨256,.cr,false,some ⟨3,[.setEnt (.own 0)],some 0,false⟩⟩,⟨256,.cr,true,some ⟨3,[.setEnt (.own 0)],some 0,false⟩⟩,⟨256,.other,false,some ⟨10,[.setEnt (.own 2)],some 5,false⟩⟩]⟩,⟨[0],some 0,[],[⟨256,.other,false,none⟩,⟨256,.ws,false,some ⟨3,[.setEnt (.own 0)],some 0,false⟩⟩,⟨256,.lf,false,some ⟨3,[.setEnt (.own 0)],some 0,false⟩⟩,⟨256,.vt,false,some ⟨3,[.setEnt (.own 0)],some 0,false⟩⟩,⟨256,.ff,false,some ⟨3,[.setEnt (.own 0)],some 0,false⟩⟩,⟨256,.cr,false,some ⟨3,[.setEnt (.own 0)],some 0,false⟩⟩,⟨256,.cr,true,some ⟨3,[.setEnt (.own 0)],some 0,false⟩⟩]⟩,⟨[9,13,21],some 5,[],[⟨256,.other,false,some ⟨9,[.setEnt (.own 2)],some 5,false⟩⟩,⟨256,.ws,false,some ⟨9,[.setEnt (.own 2)],some 5,false⟩⟩,⟨256,.lf,false,none⟩,⟨256,.vt,false,some ⟨9,[.setEnt (.own 2)],some 5,false⟩⟩,⟨256,.ff,false,none⟩,⟨256,.cr,false,none⟩,⟨256,.cr,true,none⟩,⟨256,.other,false,some ⟨12,[.setEnt (.own 6),.setEnt (.own 2)],some 4,false⟩⟩,⟨256,.other,false,some ⟨10,[.setEnt (.own 2)],some 5,false⟩⟩]⟩,⟨[5,21],some 6,[],[⟨256,.other,false,none⟩,⟨256,.ws,false,none⟩,⟨256,.lf,false,none⟩,⟨256,.vt,false,none⟩,⟨256,.ff,false,none⟩,⟨256,.cr,false,none⟩,⟨256,.cr,true,none⟩,⟨256,.other,false,some ⟨13,[.setEnt (.own 5)],some 3,false⟩⟩]⟩,⟨[1,21],some 6,[],[⟨256,.other,false,none⟩,⟨256,.ws,false,none⟩,⟨256,.lf,false,none⟩,⟨256,.vt,false,none⟩,⟨256,.ff,false,none⟩,⟨256,.cr,false,none⟩,⟨256,.cr,true,none⟩,⟨256,.other,false,some ⟨14,[.setEnt (.own 3)],some 1,false⟩⟩]⟩,⟨[3,21],some 6,[],[⟨256,.other,false,none⟩,⟨256,.ws,false,none⟩,⟨256,.lf,false,none⟩,⟨256,.vt,false,none⟩,⟨256,.ff,false,none⟩,⟨256,.cr,false,none⟩,⟨256,.cr,true,none⟩,⟨256,.other,false,some ⟨15,[.setEnt (.own 4)],some 2,false⟩⟩]⟩,⟨[7,10,21],some 4,[],[⟨256,.other,false,none⟩,⟨256,.ws,false,none⟩,⟨256,.lf,false,none⟩,⟨256,.vt,false,none⟩,⟨256,.ff,false,none⟩,⟨256,.cr,false,none⟩,⟨256,.cr,true,none⟩,⟨256,.other,false,some ⟨0,[.setEnt (.own 6)],some 4,true⟩⟩]⟩,⟨[14],some 5,[],[⟨256,.other,false,some ⟨9,[.setEnt (.own 2)],some 5,false⟩⟩,⟨256,.ws,false,some ⟨9,[.setEnt (.own 2)],some 5,false⟩⟩,⟨256,.lf,false,none⟩,⟨256,.vt,false,some ⟨9,[.setEnt (.own 2)],some 5,false⟩⟩,⟨256,.ff,false,none⟩,⟨256,.cr,false,none⟩,⟨256,.cr,true,none⟩,⟨256,.other,false,some ⟨10,[.setEnt (.own 2)],some 5,false⟩⟩]⟩,⟨[14,15],some 5,[],[⟨256,.other,false,some ⟨9,[.setEnt (.own 2)],some 5,false⟩⟩,⟨256,.ws,false,some ⟨9,[.setEnt (.own 2)],some 5,false⟩⟩,⟨256,.lf,false,some ⟨16,[.setEnt (.own 2)],some 5,false⟩⟩,⟨256,.vt,false,some ⟨9,[.setEnt (.own 2)],some 5,false⟩⟩,⟨256,.ff,false,some ⟨17,[.setEnt (.own 2)],some 5,false⟩⟩,⟨256,.cr,false,some ⟨18,[.setEnt (.own 2)],none,false⟩⟩,⟨256,.cr,true,some ⟨19,[.setEnt (.own 2)],some 5,false⟩⟩,⟨256,.other,false,some ⟨10,[.setEnt (.own 2)],some 5,false⟩⟩]⟩,⟨[0,14],some 0,[],[⟨256,.other,false,some ⟨9,[.setEnt (.own 2)],some 5,false⟩⟩,⟨256,.ws,false,some ⟨11,[.setEnt (.own 0),.setEnt (.own 2)],some 0,false⟩⟩,⟨256,.lf,false,some ⟨3,[.setEnt (.own 0)],some 0,false⟩⟩,⟨256,.vt,false,some ⟨11,[.setEnt (.own 0),.setEnt (.own 2)],some 0,false⟩⟩,⟨256,.ff,false,some ⟨3,[.setEnt (.own 0)],some 0,false⟩⟩,⟨256,.cr,false,some ⟨3,[.setEnt (.own 0)],some 0,false⟩⟩,⟨256,.cr,true,some ⟨3,[.setEnt (.own 0)],some 0,false⟩⟩,⟨256,.other,false,some ⟨10,[.setEnt (.own 2)],some 5,false⟩⟩]⟩,⟨[10,14],some 4,[],[⟨256,.other,false,some ⟨9,[.setEnt (.own 2)],some 5,false⟩⟩,⟨256,.ws,false,some ⟨9,[.setEnt (.own 2)],some 5,false⟩⟩,⟨256,.lf,false,none⟩,⟨256,.vt,false,some ⟨9,[.setEnt (.own 2)],some 5,false⟩⟩,⟨256,.ff,false,none⟩,⟨256,.cr,false,none⟩,⟨256,.cr,true,none⟩,⟨256,.other,false,some ⟨10,[.setEnt (.own 2)],some 5,false⟩⟩]⟩,⟨[6],some 3,[],[⟨256,.other,false,none⟩,⟨256,.ws,false,none⟩,⟨256,.lf,false,none⟩,⟨256,.vt,false,none⟩,⟨256,.ff,false,none⟩,⟨256,.cr,false,none⟩,⟨256,.cr,true,none⟩,⟨256,.other,false,some ⟨13,[.setEnt (.own 5)],some 3,false⟩⟩]⟩,⟨[2],some 1,[],[⟨256,.other,false,none⟩,⟨256,.ws,false,none⟩,⟨256,.lf,false,none⟩,⟨256,.vt,false,none⟩,⟨256,.ff,false,none⟩,⟨256,.cr,false,none⟩,⟨256,.cr,true,none⟩,⟨256,.other,false,some ⟨14,[.setEnt (.own 3)],some 1,false⟩⟩]⟩,⟨[4],some 2,[],[⟨256,.other,false,none⟩,⟨256,.ws,false,none⟩,⟨256,.lf,false,none⟩,⟨256,.vt,false,none⟩,⟨256,.ff,false,none⟩,⟨256,.cr,false,none⟩,⟨256,.cr,true,none⟩,⟨256,.other,false,some ⟨15,[.setEnt (.own 4)],some 2,false⟩⟩]⟩,⟨[18],some 5,[],[⟨256,.other,false,some ⟨9,[.setEnt (.own 2)],some 5,false⟩⟩,⟨256,.ws,false,some ⟨9,[.setEnt (.own 2)],some 5,false⟩⟩,⟨256,.lf,false,none⟩,⟨256,.vt,false,some ⟨9,[.setEnt (.own 2)],some 5,false⟩⟩,⟨256,.ff,false,none⟩,⟨256,.cr,false,none⟩,⟨256,.cr,true,none⟩,⟨256,.other,false,some ⟨10,[.setEnt (.own 2)],some 5,false⟩⟩]⟩,⟨[19],some 5,[],[⟨256,.other,false,some ⟨9,[.setEnt (.own 2)],some 5,false⟩⟩,⟨256,.ws,false,some ⟨9,[.setEnt (.own 2)],some 5,false⟩⟩,⟨256,.lf,false,none⟩,⟨256,.vt,false,some ⟨9,[.setEnt (.own 2)],some 5,false⟩⟩,⟨256,.ff,false,none⟩,⟨256,.cr,false,none⟩,⟨256,.cr,true,none⟩,⟨256,.other,false,some ⟨10,[.setEnt (.own 2)],some 5,false⟩⟩]⟩,⟨[16],none,[],[⟨256,.other,false,none⟩,⟨256,.ws,false,none⟩,⟨256,.lf,false,some ⟨20,[.setEnt (.own 2)],some 5,false⟩⟩,⟨256,.vt,false,none⟩,⟨256,.ff,false,none⟩,⟨256,.cr,false,none⟩,⟨256,.cr,true,none⟩]⟩,⟨[16,20],some 5,[],[⟨256,.other,false,some ⟨9,[.setEnt (.own 2)],some 5,false⟩⟩,⟨256,.ws,false,some ⟨9,[.setEnt (.own 2)],some 5,false⟩⟩,⟨256,.lf,false,some ⟨20,[.setEnt (.own 2)],some 5,false⟩⟩,⟨256,.vt,false,some ⟨9,[.setEnt (.own 2)],some 5,false⟩⟩,⟨256,.ff,false,none⟩,⟨256,.cr,false,none⟩,⟨256,.cr,true,none⟩,⟨256,.other,false,some ⟨10,[.setEnt (.own 2)],some 5,false⟩⟩]⟩,⟨[17],some 5,[],[⟨256,.other,false,some ⟨9,[.setEnt (.own 2)],some 5,false⟩⟩,⟨256,.ws,false,some ⟨9,[.setEnt (.own 2)],some 5,false⟩⟩,⟨256,.lf,false,none⟩,⟨256,.vt,false,some ⟨9,[.setEnt (.own 2)],some 5,false⟩⟩,⟨256,.ff,false,none⟩,⟨256,.cr,false,none⟩,⟨256,.cr,true,none⟩,⟨256,.other,false,some ⟨10,[.setEnt (.own 2)],some 5,false⟩⟩]⟩]
theorem emb58_rowsOk : rowsOk emb58_nfa [] (emb58_cs.map (·.1)) emb58_rows = true := by decide +kernel
def emb58_D : Dfa emb58_nfa := ⟨emb58_masks, [], emb58_cs, emb58_rows, emb58_masksIn, emb58_repOk, emb58_rowsOk⟩

end Ohcount.Cert
