import Verif.Gram.Emb
import Verif.RagelCheck

/-! Generated by tools/gen_embcerts.py. -/

namespace Ohcount.Cert
open Ohcount.Ragel Ohcount.Gram

set_option maxRecDepth 100000

/-- The automaton of `Emb.Html.html_js_entity`. -/
def emb4_nfa : Nfa := ⟨[⟨0,1152921504606846976,[],[],0,0⟩,⟨15,4294983168,[],[(3,.setEnt (.own 0))],0,0⟩,⟨16,140737488355328,[],[(4,.setEnt (.own 1))],0,0⟩,⟨19,140737488355328,[],[(4,.setEnt (.own 1))],0,2⟩,⟨24,115792089237316195423570985008687907853269984665640564039457584007908834656767,[],[],0,0⟩],[[⟨1,140737488355328,[],[],0,0⟩],[⟨2,41538374877950027585161004031410176,[],[],0,0⟩],[⟨3,633825300261688653338028015616,[],[],0,0⟩],[⟨4,20769187438975013792580502015705088,[],[],0,0⟩],[⟨5,40564819216748073813633792999424,[],[],0,0⟩],[⟨6,5192296859743753448145125503926272,[],[],0,0⟩],[⟨7,83076749755900055170322008062820352,[],[],0,0⟩],[⟨8,4294967808,[],[],0,0⟩,⟨9,8192,[],[],0,0⟩,⟨11,1024,[],[(0,.setEnt .internalNl)],0,0⟩,⟨12,4096,[],[(0,.setEnt .internalNl)],0,0⟩,⟨13,8192,[.crAlone],[(0,.setEnt .internalNl)],0,0⟩,⟨14,4611686018427387904,[],[(2,.emb .ret)],0,0⟩],[⟨8,4294967808,[],[],0,0⟩,⟨9,8192,[],[],0,0⟩,⟨11,1024,[],[(0,.setEnt .internalNl)],0,0⟩,⟨12,4096,[],[(0,.setEnt .internalNl)],0,0⟩,⟨13,8192,[.crAlone],[(0,.setEnt .internalNl)],0,0⟩,⟨14,4611686018427387904,[],[(2,.emb .ret)],0,0⟩],[⟨10,1024,[],[(0,.setEnt .internalNl)],0,0⟩],[⟨8,4294967808,[],[(1,.cb)],0,0⟩,⟨9,8192,[],[(1,.cb)],0,0⟩,⟨11,1024,[],[(1,.cb),(0,.setEnt .internalNl)],0,0⟩,⟨12,4096,[],[(1,.cb),(0,.setEnt .internalNl)],0,0⟩,⟨13,8192,[.crAlone],[(1,.cb),(0,.setEnt .internalNl)],0,0⟩,⟨14,4611686018427387904,[],[(1,.cb),(2,.emb .ret)],0,0⟩],[⟨8,4294967808,[],[(1,.cb)],0,0⟩,⟨9,8192,[],[(1,.cb)],0,0⟩,⟨11,1024,[],[(1,.cb),(0,.setEnt .internalNl)],0,0⟩,⟨12,4096,[],[(1,.cb),(0,.setEnt .internalNl)],0,0⟩,⟨13,8192,[.crAlone],[(1,.cb),(0,.setEnt .internalNl)],0,0⟩,⟨14,4611686018427387904,[],[(1,.cb),(2,.emb .ret)],0,0⟩],[⟨8,4294967808,[],[(1,.cb)],0,0⟩,⟨9,8192,[],[(1,.cb)],0,0⟩,⟨11,1024,[],[(1,.cb),(0,.setEnt .internalNl)],0,0⟩,⟨12,4096,[],[(1,.cb),(0,.setEnt .internalNl)],0,0⟩,⟨13,8192,[.crAlone],[(1,.cb),(0,.setEnt .internalNl)],0,0⟩,⟨14,4611686018427387904,[],[(1,.cb),(2,.emb .ret)],0,0⟩],[⟨8,4294967808,[],[(1,.cb)],0,0⟩,⟨9,8192,[],[(1,.cb)],0,0⟩,⟨11,1024,[],[(1,.cb),(0,.setEnt .internalNl)],0,0⟩,⟨12,4096,[],[(1,.cb),(0,.setEnt .internalNl)],0,0⟩,⟨13,8192,[.crAlone],[(1,.cb),(0,.setEnt .internalNl)],0,0⟩,⟨14,4611686018427387904,[],[(1,.cb),(2,.emb .ret)],0,0⟩],[],[⟨15,4294983168,[],[(3,.setEnt (.own 0))],0,0⟩],[⟨17,140737488355328,[],[(4,.setEnt (.own 1))],0,0⟩],[⟨18,115792089237316195423570985008687907853269984665640564039457584007913129626623,[],[(4,.setEnt (.own 1))],0,0⟩],[⟨18,115792089237316195423570985008687907853269984665640564039457584007913129626623,[],[(4,.setEnt (.own 1))],0,0⟩],[⟨20,4398046511104,[],[(4,.setEnt (.own 1))],0,2⟩],[⟨21,115792089237316195423570985008687907853269984665640564039457584007913129639935,[],[(4,.setEnt (.own 1))],0,2⟩,⟨22,4398046511104,[],[(4,.setEnt (.own 1))],0,2⟩],[⟨21,115792089237316195423570985008687907853269984665640564039457584007913129639935,[],[(4,.setEnt (.own 1))],0,2⟩,⟨22,4398046511104,[],[(4,.setEnt (.own 1))],0,2⟩],[⟨23,140737488355328,[],[(4,.setEnt (.own 1))],2,0⟩],[],[]],[none,none,none,none,none,none,none,none,none,none,none,none,none,none,some (0,[]),some (1,[]),none,some (2,[]),some (2,[]),none,none,none,none,some (2,[]),some (3,[])],[3,4,5,5]⟩
def emb4_masks : List Nat := [1152921504606846976,4294983168,140737488355328,115792089237316195423570985008687907853269984665640564039457584007908834656767,41538374877950027585161004031410176,633825300261688653338028015616,20769187438975013792580502015705088,40564819216748073813633792999424,5192296859743753448145125503926272,83076749755900055170322008062820352,4294967808,8192,1024,4096,4611686018427387904,115792089237316195423570985008687907853269984665640564039457584007913129626623,4398046511104,115792089237316195423570985008687907853269984665640564039457584007913129639935]
def emb4_cs : List (Nat × Nat) := [(0,115792089237316195423570985008687907853269834047832986953592060579638830678527),(9,4294967808),(10,1024),(11,2048),(12,4096),(13,8192),(42,4398046511104),(47,140737488355328),(60,1152921504606846976),(62,4611686018427387904),(67,633825300261688653338028015616),(73,40564819216748073813633792999424),(80,5192296859743753448145125503926272),(82,20769187438975013792580502015705088),(83,41538374877950027585161004031410176),(84,83076749755900055170322008062820352)]
theorem emb4_masksIn : masksIn emb4_nfa emb4_masks = true := by decide +kernel
theorem emb4_repOk : repOk emb4_masks emb4_cs = true := by decide +kernel
def emb4_rows : List Row := [⟨[],none,[],[⟨256,.other,false,some ⟨0,[],some 3,true⟩⟩,⟨256,.ws,false,some ⟨1,[.setEnt (.own 0)],some 1,false⟩⟩,⟨256,.lf,false,some ⟨1,[.setEnt (.own 0)],some 1,false⟩⟩,⟨256,.vt,false,some ⟨1,[.setEnt (.own 0)],some 1,false⟩⟩,⟨256,.ff,false,some ⟨1,[.setEnt (.own 0)],some 1,false⟩⟩,⟨256,.cr,false,some ⟨1,[.setEnt (.own 0)],some 1,false⟩⟩,⟨256,.cr,true,some ⟨1,[.setEnt (.own 0)],some 1,false⟩⟩,⟨256,.other,false,some ⟨2,[.setEnt (.own 1)],some 3,false⟩⟩,⟨256,.other,false,some ⟨3,[],some 3,false⟩⟩]⟩,⟨[15],some 1,[],[⟨256,.other,false,none⟩,⟨256,.ws,false,some ⟨1,[.setEnt (.own 0)],some 1,false⟩⟩,⟨256,.lf,false,some ⟨1,[.setEnt (.own 0)],some 1,false⟩⟩,⟨256,.vt,false,some ⟨1,[.setEnt (.own 0)],some 1,false⟩⟩,⟨256,.ff,false,some ⟨1,[.setEnt (.own 0)],some 1,false⟩⟩,⟨256,.cr,false,some ⟨1,[.setEnt (.own 0)],some 1,false⟩⟩,⟨256,.cr,true,some ⟨1,[.setEnt (.own 0)],some 1,false⟩⟩]⟩,⟨[16,19,24],some 3,[],[⟨256,.other,false,none⟩,⟨256,.ws,false,none⟩,⟨256,.lf,false,none⟩,⟨256,.vt,false,none⟩,⟨256,.ff,false,none⟩,⟨256,.cr,false,none⟩,⟨256,.cr,true,none⟩,⟨256,.other,false,some ⟨4,[.setEnt (.own 1)],none,false⟩⟩,⟨256,.other,false,some ⟨5,[.setEnt (.own 1)],some 2,false⟩⟩]⟩,⟨[0,24],some 3,[],[⟨256,.other,false,none⟩,⟨256,.ws,false,none⟩,⟨256,.lf,false,none⟩,⟨256,.vt,false,none⟩,⟨256,.ff,false,none⟩,⟨256,.cr,false,none⟩,⟨256,.cr,true,none⟩,⟨256,.other,false,some ⟨6,[],none,false⟩⟩]⟩,⟨[20],none,[],[⟨256,.other,false,some ⟨7,[.setEnt (.own 1)],none,false⟩⟩,⟨256,.ws,false,some ⟨7,[.setEnt (.own 1)],none,false⟩⟩,⟨256,.lf,false,some ⟨7,[.setEnt (.own 1)],none,false⟩⟩,⟨256,.vt,false,some ⟨7,[.setEnt (.own 1)],none,false⟩⟩,⟨256,.ff,false,some ⟨7,[.setEnt (.own 1)],none,false⟩⟩,⟨256,.cr,false,some ⟨7,[.setEnt (.own 1)],none,false⟩⟩,⟨256,.cr,true,some ⟨7,[.setEnt (.own 1)],none,false⟩⟩,⟨256,.other,false,some ⟨8,[.setEnt (.own 1)],none,false⟩⟩]⟩,⟨[17],some 2,[],[⟨256,.other,false,some ⟨9,[.setEnt (.own 1)],some 2,false⟩⟩,⟨256,.ws,false,some ⟨9,[.setEnt (.own 1)],some 2,false⟩⟩,⟨256,.lf,false,none⟩,⟨256,.vt,false,some ⟨9,[.setEnt (.own 1)],some 2,false⟩⟩,⟨256,.ff,false,none⟩,⟨256,.cr,false,none⟩,⟨256,.cr,true,none⟩]⟩,⟨[1],none,[],[⟨256,.other,false,none⟩,⟨256,.ws,false,none⟩,⟨256,.lf,false,none⟩,⟨256,.vt,false,none⟩,⟨256,.ff,false,none⟩,⟨256,.cr,false,none⟩,⟨256,.cr,true,none⟩,⟨256,.other,false,some ⟨10,[],none,false⟩⟩]⟩,⟨[21],none,[],[⟨256,.other,false,some ⟨7,[.setEnt (.own 1)],none,false⟩⟩,⟨256,.ws,false,some ⟨7,[.setEnt (.own 1)],none,false⟩⟩,⟨256,.lf,false,some ⟨7,[.setEnt (.own 1)],none,false⟩⟩,⟨256,.vt,false,some ⟨7,[.setEnt (.own 1)],none,false⟩⟩,⟨256,.ff,false,some ⟨7,[.setEnt (.own 1)],none,false⟩⟩,⟨256,.cr,false,some ⟨7,[.setEnt (.own 1)],none,false⟩⟩,⟨256,.cr,true,some ⟨7,[.setEnt (.own 1)],none,false⟩⟩,⟨256,.other,false,some ⟨8,[.setEnt (.own 1)],none,false⟩⟩]⟩,⟨[21,22],none,[],[⟨256,.other,false,some ⟨7,[.setEnt (.own 1)],none,false⟩⟩,⟨256,.ws,false,some ⟨7,[.setEnt (.own 1)],none,false⟩⟩,⟨256,.lf,false,some ⟨7,[.setEnt (.own 1)],none,false⟩⟩,⟨256,.vt,false,some ⟨7,[.setEnt (.own 1)],none,false⟩⟩,⟨256,.ff,false,some ⟨7,[.setEnt (.own 1)],none,false⟩⟩,⟨256,.cr,false,some ⟨7,[.setEnt (.own 1)],none,false⟩⟩,⟨256,.cr,true,some ⟨7,[.setEnt (.own 1)],none,false⟩⟩,⟨256,.other,false,some ⟨8,[.setEnt (.own 1)],none,false⟩⟩,⟨256,.other,false,some ⟨0,[.setEnt (.own 1)],some 2,true⟩⟩]⟩,⟨[18],some 2,[],[⟨256,.other,false,some ⟨9,[.setEnt (.own 1)],some 2,false⟩⟩,⟨256,.ws,false,some ⟨9,[.setEnt (.own 1)],some 2,false⟩⟩,⟨256,.lf,false,none⟩,⟨256,.vt,false,some ⟨9,[.setEnt (.own 1)],some 2,false⟩⟩,⟨256,.ff,false,none⟩,⟨256,.cr,false,none⟩,⟨256,.cr,true,none⟩]⟩,⟨[2],none,[],[⟨256,.other,false,none⟩,⟨256,.ws,false,none⟩,⟨256,.lf,false,none⟩,⟨256,.vt,false,none⟩,⟨256,.ff,false,none⟩,⟨256,.cr,false,none⟩,⟨256,.cr,true,none⟩,⟨256,.other,false,some ⟨11,[],none,false⟩⟩]⟩,⟨[3],none,[],[⟨256,.other,false,none⟩,⟨256,.ws,false,none⟩,⟨256,.lf,false,none⟩,⟨256,.vt,false,none⟩,⟨256,.ff,false,none⟩,⟨256,.cr,false,none⟩,⟨256,.cr,true,none⟩,⟨256,.other,false,some ⟨12,[],none,false⟩⟩]⟩,⟨[4],none,[],[⟨256,.other,false,none⟩,⟨256,.ws,false,none⟩,⟨256,.lf,false,none⟩,⟨256,.vt,false,none⟩,⟨256,.ff,false,none⟩,⟨256,.cr,false,none⟩,⟨256,.cr,true,none⟩,⟨256,.other,false,some ⟨13,[],none,false⟩⟩]⟩,⟨[5],none,[],[⟨256,.other,false,none⟩,⟨256,.ws,false,none⟩,⟨256,.lf,false,none⟩,⟨256,.vt,false,none⟩,⟨256,.ff,false,none⟩,⟨256,.cr,false,none⟩,⟨256,.cr,true,none⟩,⟨256,.other,false,some ⟨14,[],none,false⟩⟩]⟩,⟨[6],none,[],[⟨256,.other,false,none⟩,⟨256,.ws,false,none⟩,⟨256,.lf,false,none⟩,⟨256,.vt,false,none⟩,⟨256,.ff,false,none⟩,⟨256,.cr,false,none⟩,⟨256,.cr,true,none⟩,⟨256,.other,false,some ⟨15,[],none,false⟩⟩]⟩,⟨[7],none,[],[⟨256,.other,false,none⟩,⟨256,.ws,false,some ⟨16,[],none,false⟩⟩,⟨256,.lf,false,some ⟨17,[.setEnt .internalNl],none,false⟩⟩,⟨256,.vt,false,none⟩,⟨256,.ff,false,some ⟨18,[.setEnt .internalNl],none,false⟩⟩,⟨256,.cr,false,some ⟨19,[],none,false⟩⟩,⟨256,.cr,true,some ⟨20,[.setEnt .internalNl],none,false⟩⟩,⟨256,.other,false,some ⟨0,[.emb .ret],some 0,true⟩⟩]⟩,⟨[8],none,[],[⟨256,.other,false,none⟩,⟨256,.ws,false,some ⟨16,[],none,false⟩⟩,⟨256,.lf,false,some ⟨17,[.setEnt .internalNl],none,false⟩⟩,⟨256,.vt,false,none⟩,⟨256,.ff,false,some ⟨18,[.setEnt .internalNl],none,false⟩⟩,⟨256,.cr,false,some ⟨19,[],none,false⟩⟩,⟨256,.cr,true,some ⟨20,[.setEnt .internalNl],none,false⟩⟩,⟨256,.other,false,some ⟨0,[.emb .ret],some 0,true⟩⟩]⟩,⟨[11],none,[],[⟨256,.other,false,none⟩,⟨256,.ws,false,some ⟨16,[.cb],none,false⟩⟩,⟨256,.lf,false,some ⟨17,[.setEnt .internalNl,.cb],none,false⟩⟩,⟨256,.vt,false,none⟩,⟨256,.ff,false,some ⟨18,[.setEnt .internalNl,.cb],none,false⟩⟩,⟨256,.cr,false,some ⟨19,[.cb],none,false⟩⟩,⟨256,.cr,true,some ⟨20,[.setEnt .internalNl,.cb],none,false⟩⟩,⟨256,.other,false,some ⟨0,[.cb,.emb .ret],some 0,true⟩⟩]⟩,⟨[12],none,[],[⟨256,.other,false,none⟩,⟨256,.ws,false,some ⟨16,[.cb],none,false⟩⟩,⟨256,.lf,false,some ⟨17,[.setEnt .internalNl,.cb],none,false⟩⟩,⟨256,.vt,false,none⟩,⟨256,.ff,false,some ⟨18,[.setEnt .internalNl,.cb],none,false⟩⟩,⟨256,.cr,false,some ⟨19,[.cb],none,false⟩⟩,⟨256,.cr,true,some ⟨20,[.setEnt .internalNl,.cb],none,false⟩⟩,⟨256,.other,false,some ⟨0,[.cb,.emb .ret],some 0,true⟩⟩]⟩,⟨[9],none,[],[⟨256,.other,false,none⟩,⟨256,.ws,false,none⟩,⟨256,.lf,false,some ⟨21,[.setEnt .internalNl],none,false⟩⟩,⟨256,.vt,false,none⟩,⟨256,.ff,false,none⟩,⟨256,.cr,false,none⟩,⟨256,.cr,true,none⟩]⟩,⟨[9,13],none,[],[⟨256,.other,false,none⟩,⟨256,.ws,false,some ⟨16,[.cb],none,false⟩⟩,⟨256,.lf,false,some ⟨22,[.setEnt .internalNl,.cb],none,false⟩⟩,⟨256,.vt,false,none⟩,⟨256,.ff,false,some ⟨18,[.setEnt .internalNl,.cb],none,false⟩⟩,⟨256,.cr,false,some ⟨19,[.cb],none,false⟩⟩,⟨256,.cr,true,some ⟨20,[.setEnt .internalNl,.cb],none,false⟩⟩,⟨256,.other,false,some ⟨0,[.cb,.emb .ret],some 0,true⟩⟩]⟩,⟨[10],none,[],[⟨256,.other,false,none⟩,⟨256,.ws,false,some ⟨16,[.cb],none,false⟩⟩,⟨256,.lf,false,some ⟨17,[.setEnt .internalNl,.cb],none,false⟩⟩,⟨256,.vt,false,none⟩,⟨256,.ff,false,some ⟨18,[.setEnt .internalNl,.cb],none,false⟩⟩,⟨256,.cr,false,some ⟨19,[.cb],none,false⟩⟩,⟨256,.cr,true,some ⟨20,[.setEnt .internalNl,.cb],none,false⟩⟩,⟨256,.other,false,some ⟨0,[.cb,.emb .ret],some 0,true⟩⟩]⟩,⟨[10,11],none,[],[⟨256,.other,false,none⟩,⟨256,.ws,false,some ⟨16,[.cb],none,false⟩⟩,⟨256,.lf,false,some ⟨17,[.setEnt .internalNl,.cb],none,false⟩⟩,⟨256,.vt,false,none⟩,⟨256,.ff,false,some ⟨18,[.setEnt .internalNl,.cb],none,false⟩⟩,⟨256,.cr,false,some ⟨19,[.cb],none,false⟩⟩,⟨256,.cr,true,some ⟨20,[.setEnt .internalNl,.cb],none,false⟩⟩,⟨256,.other,false,some ⟨0,[.cb,.emb .ret],some 0,true⟩⟩]⟩]
theorem emb4_rowsOk : rowsOk emb4_nfa [] (emb4_cs.map (·.1)) emb4_rows = true := by decide +kernel
def emb4_D : Dfa emb4_nfa := ⟨emb4_masks, [], emb4_cs, emb4_rows, emb4_masksIn, emb4_repOk, emb4_rowsOk⟩
def emb4_maskst : List Nat := [1152921504606846976,4294983168,140737488355328,115792089237316195423570985008687907853269984665640564039457584007908834656767,41538374877950027585161004031410176,633825300261688653338028015616,20769187438975013792580502015705088,40564819216748073813633792999424,5192296859743753448145125503926272,83076749755900055170322008062820352,4294967808,8192,1024,4096,4611686018427387904,115792089237316195423570985008687907853269984665640564039457584007913129626623,4398046511104,115792089237316195423570985008687907853269984665640564039457584007913129639935]
def emb4_cst : List (Nat × Nat) := [(0,115792089237316195423570985008687907853269834047832986953592060579638830678527),(9,4294967808),(10,1024),(11,2048),(12,4096),(13,8192),(42,4398046511104),(47,140737488355328),(60,1152921504606846976),(62,4611686018427387904),(67,633825300261688653338028015616),(73,40564819216748073813633792999424),(80,5192296859743753448145125503926272),(82,20769187438975013792580502015705088),(83,41538374877950027585161004031410176),(84,83076749755900055170322008062820352)]
theorem emb4_masksInt : masksIn emb4_nfa emb4_maskst = true := by decide +kernel
theorem emb4_repOkt : repOk emb4_maskst emb4_cst = true := by decide +kernel
def emb4_rowst : List Row := [⟨[],none,[],[⟨256,.other,false,some ⟨0,[],some 3,true⟩⟩,⟨256,.ws,false,some ⟨1,[.setEnt (.own 0)],some 1,false⟩⟩,⟨256,.lf,false,some ⟨1,[.setEnt (.own 0)],some 1,false⟩⟩,⟨256,.vt,false,some ⟨1,[.setEnt (.own 0)],some 1,false⟩⟩,⟨256,.ff,false,some ⟨1,[.setEnt (.own 0)],some 1,false⟩⟩,⟨256,.cr,false,some ⟨1,[.setEnt (.own 0)],some 1,false⟩⟩,⟨256,.cr,true,some ⟨1,[.setEnt (.own 0)],some 1,false⟩⟩,⟨47,.other,false,some ⟨2,[.setEnt (.own 1)],some 3,false⟩⟩,⟨60,.other,false,some ⟨3,[],some 3,false⟩⟩,⟨62,.other,false,some ⟨0,[],some 3,true⟩⟩]⟩,⟨[15],some 1,[],[⟨256,.other,false,none⟩,⟨256,.ws,false,some ⟨1,[.setEnt (.own 0)],some 1,false⟩⟩,⟨256,.lf,false,some ⟨1,[.setEnt (.own 0)],some 1,false⟩⟩,⟨256,.vt,false,some ⟨1,[.setEnt (.own 0)],some 1,false⟩⟩,⟨256,.ff,false,some ⟨1,[.setEnt (.own 0)],some 1,false⟩⟩,⟨256,.cr,false,some ⟨1,[.setEnt (.own 0)],some 1,false⟩⟩,⟨256,.cr,true,some ⟨1,[.setEnt (.own 0)],some 1,false⟩⟩,⟨47,.other,false,none⟩,⟨60,.other,false,none⟩,⟨62,.other,false,none⟩]⟩,⟨[16,19,24],some 3,[],[⟨256,.other,false,none⟩,⟨256,.ws,false,none⟩,⟨256,.lf,false,none⟩,⟨256,.vt,false,none⟩,⟨256,.ff,false,none⟩,⟨256,.cr,false,none⟩,⟨256,.cr,true,none⟩,⟨256,.other,false,some ⟨4,[.setEnt (.own 1)],none,false⟩⟩,⟨47,.other,false,some ⟨5,[.setEnt (.own 1)],some 2,false⟩⟩,⟨60,.other,false,none⟩,⟨62,.other,false,none⟩]⟩,⟨[0,24],some 3,[],[⟨256,.other,false,none⟩,⟨256,.ws,false,none⟩,⟨256,.lf,false,none⟩,⟨256,.vt,false,none⟩,⟨256,.ff,false,none⟩,⟨256,.cr,false,none⟩,⟨256,.cr,true,none⟩,⟨47,.other,false,some ⟨6,[],none,false⟩⟩,⟨60,.other,false,none⟩,⟨62,.other,false,none⟩]⟩,⟨[20],none,[],[⟨256,.other,false,some ⟨7,[.setEnt (.own 1)],none,false⟩⟩,⟨256,.ws,false,some ⟨7,[.setEnt (.own 1)],none,false⟩⟩,⟨256,.lf,false,some ⟨7,[.setEnt (.own 1)],none,false⟩⟩,⟨256,.vt,false,some ⟨7,[.setEnt (.own 1)],none,false⟩⟩,⟨256,.ff,false,some ⟨7,[.setEnt (.own 1)],none,false⟩⟩,⟨256,.cr,false,some ⟨7,[.setEnt (.own 1)],none,false⟩⟩,⟨256,.cr,true,some ⟨7,[.setEnt (.own 1)],none,false⟩⟩,⟨256,.other,false,some ⟨8,[.setEnt (.own 1)],none,false⟩⟩,⟨47,.other,false,some ⟨7,[.setEnt (.own 1)],none,false⟩⟩,⟨60,.other,false,some ⟨7,[.setEnt (.own 1)],none,false⟩⟩,⟨62,.other,false,some ⟨7,[.setEnt (.own 1)],none,false⟩⟩]⟩,⟨[17],some 2,[],[⟨256,.other,false,some ⟨9,[.setEnt (.own 1)],some 2,false⟩⟩,⟨256,.ws,false,some ⟨9,[.setEnt (.own 1)],some 2,false⟩⟩,⟨256,.lf,false,none⟩,⟨256,.vt,false,some ⟨9,[.setEnt (.own 1)],some 2,false⟩⟩,⟨256,.ff,false,none⟩,⟨256,.cr,false,none⟩,⟨256,.cr,true,none⟩,⟨47,.other,false,some ⟨9,[.setEnt (.own 1)],some 2,false⟩⟩,⟨60,.other,false,some ⟨9,[.setEnt (.own 1)],some 2,false⟩⟩,⟨62,.other,false,some ⟨9,[.setEnt (.own 1)],some 2,false⟩⟩]⟩,⟨[1],none,[],[⟨256,.other,false,none⟩,⟨256,.ws,false,none⟩,⟨256,.lf,false,none⟩,⟨256,.vt,false,none⟩,⟨256,.ff,false,none⟩,⟨256,.cr,false,none⟩,⟨256,.cr,true,none⟩,⟨47,.other,false,none⟩,⟨60,.other,false,none⟩,⟨62,.other,false,none⟩,⟨256,.other,false,some ⟨10,[],none,false⟩⟩]⟩,⟨[21],none,[],[⟨256,.other,false,some ⟨7,[.setEnt (.own 1)],none,false⟩⟩,⟨256,.ws,false,some ⟨7,[.setEnt (.own 1)],none,false⟩⟩,⟨256,.lf,false,some ⟨7,[.setEnt (.own 1)],none,false⟩⟩,⟨256,.vt,false,some ⟨7,[.setEnt (.own 1)],none,false⟩⟩,⟨256,.ff,false,some ⟨7,[.setEnt (.own 1)],none,false⟩⟩,⟨256,.cr,false,some ⟨7,[.setEnt (.own 1)],none,false⟩⟩,⟨256,.cr,true,some ⟨7,[.setEnt (.own 1)],none,false⟩⟩,⟨256,.other,false,some ⟨8,[.setEnt (.own 1)],none,false⟩⟩,⟨47,.other,false,some ⟨7,[.setEnt (.own 1)],none,false⟩⟩,⟨60,.other,false,some ⟨7,[.setEnt (.own 1)],none,false⟩⟩,⟨62,.other,false,some ⟨7,[.setEnt (.own 1)],none,false⟩⟩]⟩,⟨[21,22],none,[],[⟨256,.other,false,some ⟨7,[.setEnt (.own 1)],none,false⟩⟩,⟨256,.ws,false,some ⟨7,[.setEnt (.own 1)],none,false⟩⟩,⟨256,.lf,false,some ⟨7,[.setEnt (.own 1)],none,false⟩⟩,⟨256,.vt,false,some ⟨7,[.setEnt (.own 1)],none,false⟩⟩,⟨256,.ff,false,some ⟨7,[.setEnt (.own 1)],none,false⟩⟩,⟨256,.cr,false,some ⟨7,[.setEnt (.own 1)],none,false⟩⟩,⟨256,.cr,true,some ⟨7,[.setEnt (.own 1)],none,false⟩⟩,⟨256,.other,false,some ⟨8,[.setEnt (.own 1)],none,false⟩⟩,⟨47,.other,false,some ⟨0,[.setEnt (.own 1)],some 2,true⟩⟩,⟨60,.other,false,some ⟨7,[.setEnt (.own 1)],none,false⟩⟩,⟨62,.other,false,some ⟨7,[.setEnt (.own 1)],none,false⟩⟩]⟩,⟨[18],some 2,[],[⟨256,.other,false,some ⟨9,[.setEnt (.own 1)],some 2,false⟩⟩,⟨256,.ws,false,some ⟨9,[.setEnt (.own 1)],some 2,false⟩⟩,⟨256,.lf,false,none⟩,⟨256,.vt,false,some ⟨9,[.setEnt (.own 1)],some 2,false⟩⟩,⟨256,.ff,false,none⟩,⟨256,.cr,false,none⟩,⟨256,.cr,true,none⟩,⟨47,.other,false,some ⟨9,[.setEnt (.own 1)],some 2,false⟩⟩,⟨60,.other,false,some ⟨9,[.setEnt (.own 1)],some 2,false⟩⟩,⟨62,.other,false,some ⟨9,[.setEnt (.own 1)],some 2,false⟩⟩]⟩,⟨[2],none,[],[⟨256,.other,false,none⟩,⟨256,.ws,false,none⟩,⟨256,.lf,false,none⟩,⟨256,.vt,false,none⟩,⟨256,.ff,false,none⟩,⟨256,.cr,false,none⟩,⟨256,.cr,true,none⟩,⟨47,.other,false,none⟩,⟨60,.other,false,none⟩,⟨62,.other,false,none⟩,⟨256,.other,false,some ⟨11,[],none,false⟩⟩]⟩,⟨[3],none,[],[⟨256,.other,false,none⟩,⟨256,.ws,false,none⟩,⟨256,.lf,false,none⟩,⟨256,.vt,false,none⟩,⟨256,.ff,false,none⟩,⟨256,.cr,false,none⟩,⟨256,.cr,true,none⟩,⟨47,.other,false,none⟩,⟨60,.other,false,none⟩,⟨62,.other,false,none⟩,⟨256,.other,false,some ⟨12,[],none,false⟩⟩]⟩,⟨[4],none,[],[⟨256,.other,false,none⟩,⟨256,.ws,false,none⟩,⟨256,.lf,false,none⟩,⟨256,.vt,false,none⟩,⟨256,.ff,false,none⟩,⟨256,.cr,false,none⟩,⟨256,.cr,true,none⟩,⟨47,.other,false,none⟩,⟨60,.other,false,none⟩,⟨62,.other,false,none⟩,⟨256,.other,false,some ⟨13,[],none,false⟩⟩]⟩,⟨[5],none,[],[⟨256,.other,false,none⟩,⟨256,.ws,false,none⟩,⟨256,.lf,false,none⟩,⟨256,.vt,false,none⟩,⟨256,.ff,false,none⟩,⟨256,.cr,false,none⟩,⟨256,.cr,true,none⟩,⟨47,.other,false,none⟩,⟨60,.other,false,none⟩,⟨62,.other,false,none⟩,⟨256,.other,false,some ⟨14,[],none,false⟩⟩]⟩,⟨[6],none,[],[⟨256,.other,false,none⟩,⟨256,.ws,false,none⟩,⟨256,.lf,false,none⟩,⟨256,.vt,false,none⟩,⟨256,.ff,false,none⟩,⟨256,.cr,false,none⟩,⟨256,.cr,true,none⟩,⟨47,.other,false,none⟩,⟨60,.other,false,none⟩,⟨62,.other,false,none⟩,⟨256,.other,false,some ⟨15,[],none,false⟩⟩]⟩,⟨[7],none,[],[⟨256,.other,false,none⟩,⟨256,.ws,false,some ⟨16,[],none,false⟩⟩,⟨256,.lf,false,some ⟨17,[.setEnt .internalNl],none,false⟩⟩,⟨256,.vt,false,none⟩,⟨256,.ff,false,some ⟨18,[.setEnt .internalNl],none,false⟩⟩,⟨256,.cr,false,some ⟨19,[],none,false⟩⟩,⟨256,.cr,true,some ⟨20,[.setEnt .internalNl],none,false⟩⟩,⟨47,.other,false,none⟩,⟨60,.other,false,none⟩,⟨62,.other,false,some ⟨0,[.emb .ret],some 0,true⟩⟩]⟩,⟨[8],none,[],[⟨256,.other,false,none⟩,⟨256,.ws,false,some ⟨16,[],none,false⟩⟩,⟨256,.lf,false,some ⟨17,[.setEnt .internalNl],none,false⟩⟩,⟨256,.vt,false,none⟩,⟨256,.ff,false,some ⟨18,[.setEnt .internalNl],none,false⟩⟩,⟨256,.cr,false,some ⟨19,[],none,false⟩⟩,⟨256,.cr,true,some ⟨20,[.setEnt .internalNl],none,false⟩⟩,⟨47,.other,false,none⟩,⟨60,.other,false,none⟩,⟨62,.other,false,some ⟨0,[.emb .ret],some 0,true⟩⟩]⟩,⟨[11],none,[],[⟨256,.other,false,none⟩,⟨256,.ws,false,some ⟨16,[.cb],none,false⟩⟩,⟨256,.lf,false,some ⟨17,[.setEnt .internalNl,.cb],none,false⟩⟩,⟨256,.vt,false,none⟩,⟨256,.ff,false,some ⟨18,[.setEnt .internalNl,.cb],none,false⟩⟩,⟨256,.cr,false,some ⟨19,[.cb],none,false⟩⟩,⟨256,.cr,true,some ⟨20,[.setEnt .internalNl,.cb],none,false⟩⟩,⟨47,.other,false,none⟩,⟨60,.other,false,none⟩,⟨62,.other,false,some ⟨0,[.cb,.emb .ret],some 0,true⟩⟩]⟩,⟨[12],none,[],[⟨256,.other,false,none⟩,⟨256,.ws,false,some ⟨16,[.cb],none,false⟩⟩,⟨256,.lf,false,some ⟨17,[.setEnt .internalNl,.cb],none,false⟩⟩,⟨256,.vt,false,none⟩,⟨256,.ff,false,some ⟨18,[.setEnt .internalNl,.cb],none,false⟩⟩,⟨256,.cr,false,some ⟨19,[.cb],none,false⟩⟩,⟨256,.cr,true,some ⟨20,[.setEnt .internalNl,.cb],none,false⟩⟩,⟨47,.other,false,none⟩,⟨60,.other,false,none⟩,⟨62,.other,false,some ⟨0,[.cb,.emb .ret],some 0,true⟩⟩]⟩,⟨[9],none,[],[⟨256,.other,false,none⟩,⟨256,.ws,false,none⟩,⟨256,.lf,false,some ⟨21,[.setEnt .internalNl],none,false⟩⟩,⟨256,.vt,false,none⟩,⟨256,.ff,false,none⟩,⟨256,.cr,false,none⟩,⟨256,.cr,true,none⟩,⟨47,.other,false,none⟩,⟨60,.other,false,none⟩,⟨62,.other,false,none⟩]⟩,⟨[9,13],none,[],[⟨256,.other,false,none⟩,⟨256,.ws,false,some ⟨16,[.cb],none,false⟩⟩,⟨256,.lf,false,some ⟨22,[.setEnt .internalNl,.cb],none,false⟩⟩,⟨256,.vt,false,none⟩,⟨256,.ff,false,some ⟨18,[.setEnt .internalNl,.cb],none,false⟩⟩,⟨256,.cr,false,some ⟨19,[.cb],none,false⟩⟩,⟨256,.cr,true,some ⟨20,[.setEnt .internalNl,.cb],none,false⟩⟩,⟨47,.other,false,none⟩,⟨60,.other,false,none⟩,⟨62,.other,false,some ⟨0,[.cb,.emb .ret],some 0,true⟩⟩]⟩,⟨[10],none,[],[⟨256,.other,false,none⟩,⟨256,.ws,false,some ⟨16,[.cb],none,false⟩⟩,⟨256,.lf,false,some ⟨17,[.setEnt .internalNl,.cb],none,false⟩⟩,⟨256,.vt,false,none⟩,⟨256,.ff,false,some ⟨18,[.setEnt .internalNl,.cb],none,false⟩⟩,⟨256,.cr,false,some ⟨19,[.cb],none,false⟩⟩,⟨256,.cr,true,some ⟨20,[.setEnt .internalNl,.cb],none,false⟩⟩,⟨47,.other,false,none⟩,⟨60,.other,false,none⟩,⟨62,.other,false,some ⟨0,[.cb,.emb .ret],some 0,true⟩⟩]⟩,⟨[10,11],none,[],[⟨256,.other,false,none⟩,⟨256,.ws,false,some ⟨16,[.cb],none,false⟩⟩,⟨256,.lf,false,some ⟨17,[.setEnt .internalNl,.cb],none,false⟩⟩,⟨256,.vt,false,none⟩,⟨256,.ff,false,some ⟨18,[.setEnt .internalNl,.cb],none,false⟩⟩,⟨256,.cr,false,some ⟨19,[.cb],none,false⟩⟩,⟨256,.cr,true,some ⟨20,[.setEnt .internalNl,.cb],none,false⟩⟩,⟨47,.other,false,none⟩,⟨60,.other,false,none⟩,⟨62,.other,false,some ⟨0,[.cb,.emb .ret],some 0,true⟩⟩]⟩]
theorem emb4_rowsOkt : rowsOk emb4_nfa [47, 60, 62] (emb4_cst.map (·.1)) emb4_rowst = true := by decide +kernel
def emb4_Dt : Dfa emb4_nfa := ⟨emb4_maskst, [47, 60, 62], emb4_cst, emb4_rowst, emb4_masksInt, emb4_repOkt, emb4_rowsOkt⟩

/-- The automaton of `Emb.Mxml.mxml_css_line`. -/
def emb6_nfa : Nfa := ⟨[⟨0,1152921504606846976,[],[],0,0⟩,⟨11,4294967808,[],[(3,.setEnt (.own 0))],0,0⟩,⟨12,140737488355328,[],[],0,2⟩,⟨23,549755813888,[],[(8,.code)],0,0⟩,⟨34,17179869184,[],[(13,.code)],0,0⟩,⟨45,8192,[],[(18,.setEnt .newline)],0,0⟩,⟨47,1024,[],[(18,.setEnt .newline)],0,0⟩,⟨48,4096,[],[(18,.setEnt .newline)],0,0⟩,⟨49,8192,[.crAlone],[(18,.setEnt .newline)],0,0⟩,⟨50,115792089237316195423570985008687907853269984665640564039457584007908834656767,[],[(19,.setEnt (.own 9))],0,0⟩],[[⟨1,140737488355328,[],[],0,0⟩],[⟨2,649037107316853453566312041152512,[],[],0,0⟩],[⟨3,1329227995784915872903807060280344576,[],[],0,0⟩],[⟨4,288230376151711744,[],[],0,0⟩],[⟨5,9671406556917033397649408,[],[],0,0⟩],[⟨6,83076749736557242056487941267521536,[],[],0,0⟩],[⟨7,2658455991569831745807614120560689152,[],[],0,0⟩],[⟨8,324518553658426726783156020576256,[],[],0,0⟩],[⟨9,2535301200456458802993406410752,[],[],0,0⟩],[⟨10,4611686018427387904,[],[(0,.emb .outry),(1,.code),(2,.emb .back)],0,0⟩],[],[⟨11,4294967808,[],[(3,.setEnt (.own 0))],0,0⟩],[⟨13,4398046511104,[],[(4,.comment)],0,2⟩],[⟨14,8192,[],[],0,2⟩,⟨16,1024,[],[],0,2⟩,⟨17,4096,[],[],0,2⟩,⟨18,8192,[.crAlone],[],0,2⟩,⟨19,4294967808,[],[],0,2⟩,⟨20,115792089237316195423570985008687907853269984665640564039457584007908834658815,[],[(7,.comment)],0,2⟩,⟨21,4398046511104,[],[],0,2⟩],[⟨15,1024,[],[],0,2⟩],[⟨14,8192,[],[(5,.setEnt .internalNl),(6,.emb (.cb 1))],0,2⟩,⟨16,1024,[],[(5,.setEnt .internalNl),(6,.emb (.cb 1))],0,2⟩,⟨17,4096,[],[(5,.setEnt .internalNl),(6,.emb (.cb 1))],0,2⟩,⟨18,8192,[.crAlone],[(5,.setEnt .internalNl),(6,.emb (.cb 1))],0,2⟩,⟨19,4294967808,[],[(5,.setEnt .internalNl),(6,.emb (.cb 1))],0,2⟩,⟨20,115792089237316195423570985008687907853269984665640564039457584007908834658815,[],[(5,.setEnt .internalNl),(6,.emb (.cb 1)),(7,.comment)],0,2⟩,⟨21,4398046511104,[],[(5,.setEnt .internalNl),(6,.emb (.cb 1))],0,2⟩],[⟨14,8192,[],[(5,.setEnt .internalNl),(6,.emb (.cb 1))],0,2⟩,⟨16,1024,[],[(5,.setEnt .internalNl),(6,.emb (.cb 1))],0,2⟩,⟨17,4096,[],[(5,.setEnt .internalNl),(6,.emb (.cb 1))],0,2⟩,⟨18,8192,[.crAlone],[(5,.setEnt .internalNl),(6,.emb (.cb 1))],0,2⟩,⟨19,4294967808,[],[(5,.setEnt .internalNl),(6,.emb (.cb 1))],0,2⟩,⟨20,115792089237316195423570985008687907853269984665640564039457584007908834658815,[],[(5,.setEnt .internalNl),(6,.emb (.cb 1)),(7,.comment)],0,2⟩,⟨21,4398046511104,[],[(5,.setEnt .internalNl),(6,.emb (.cb 1))],0,2⟩],[⟨14,8192,[],[(5,.setEnt .internalNl),(6,.emb (.cb 1))],0,2⟩,⟨16,1024,[],[(5,.setEnt .internalNl),(6,.emb (.cb 1))],0,2⟩,⟨17,4096,[],[(5,.setEnt .internalNl),(6,.emb (.cb 1))],0,2⟩,⟨18,8192,[.crAlone],[(5,.setEnt .internalNl),(6,.emb (.cb 1))],0,2⟩,⟨19,4294967808,[],[(5,.setEnt .internalNl),(6,.emb (.cb 1))],0,2⟩,⟨20,115792089237316195423570985008687907853269984665640564039457584007908834658815,[],[(5,.setEnt .internalNl),(6,.emb (.cb 1)),(7,.comment)],0,2⟩,⟨21,4398046511104,[],[(5,.setEnt .internalNl),(6,.emb (.cb 1))],0,2⟩],[⟨14,8192,[],[(5,.setEnt .internalNl),(6,.emb (.cb 1))],0,2⟩,⟨16,1024,[],[(5,.setEnt .internalNl),(6,.emb (.cb 1))],0,2⟩,⟨17,4096,[],[(5,.setEnt .internalNl),(6,.emb (.cb 1))],0,2⟩,⟨18,8192,[.crAlone],[(5,.setEnt .internalNl),(6,.emb (.cb 1))],0,2⟩,⟨19,4294967808,[],[(5,.setEnt .internalNl),(6,.emb (.cb 1))],0,2⟩,⟨20,115792089237316195423570985008687907853269984665640564039457584007908834658815,[],[(5,.setEnt .internalNl),(6,.emb (.cb 1)),(7,.comment)],0,2⟩,⟨21,4398046511104,[],[(5,.setEnt .internalNl),(6,.emb (.cb 1))],0,2⟩],[⟨14,8192,[],[],0,2⟩,⟨16,1024,[],[],0,2⟩,⟨17,4096,[],[],0,2⟩,⟨18,8192,[.crAlone],[],0,2⟩,⟨19,4294967808,[],[],0,2⟩,⟨20,115792089237316195423570985008687907853269984665640564039457584007908834658815,[],[(7,.comment)],0,2⟩,⟨21,4398046511104,[],[],0,2⟩],[⟨14,8192,[],[],0,2⟩,⟨16,1024,[],[],0,2⟩,⟨17,4096,[],[],0,2⟩,⟨18,8192,[.crAlone],[],0,2⟩,⟨19,4294967808,[],[],0,2⟩,⟨20,115792089237316195423570985008687907853269984665640564039457584007908834658815,[],[(7,.comment)],0,2⟩,⟨21,4398046511104,[],[],0,2⟩],[⟨22,140737488355328,[],[],2,0⟩],[],[⟨24,8192,[],[],0,0⟩,⟨26,1024,[],[],0,0⟩,⟨27,4096,[],[],0,0⟩,⟨28,8192,[.crAlone],[],0,0⟩,⟨29,4294967808,[],[],0,0⟩,⟨30,115792089237316195423570985008687907853269984665635612279300442486259482348031,[],[(11,.code)],0,0⟩,⟨31,4951760157141521099596496896,[],[],0,0⟩,⟨33,549755813888,[],[],0,0⟩],[⟨25,1024,[],[],0,0⟩],[⟨24,8192,[],[(9,.setEnt .internalNl),(10,.emb (.cb 1))],0,0⟩,⟨26,1024,[],[(9,.setEnt .internalNl),(10,.emb (.cb 1))],0,0⟩,⟨27,4096,[],[(9,.setEnt .internalNl),(10,.emb (.cb 1))],0,0⟩,⟨28,8192,[.crAlone],[(9,.setEnt .internalNl),(10,.emb (.cb 1))],0,0⟩,⟨29,4294967808,[],[(9,.setEnt .internalNl),(10,.emb (.cb 1))],0,0⟩,⟨30,115792089237316195423570985008687907853269984665635612279300442486259482348031,[],[(9,.setEnt .internalNl),(10,.emb (.cb 1)),(11,.code)],0,0⟩,⟨31,4951760157141521099596496896,[],[(9,.setEnt .internalNl),(10,.emb (.cb 1))],0,0⟩,⟨33,549755813888,[],[(9,.setEnt .internalNl),(10,.emb (.cb 1))],0,0⟩],[⟨24,8192,[],[(9,.setEnt .internalNl),(10,.emb (.cb 1))],0,0⟩,⟨26,1024,[],[(9,.setEnt .internalNl),(10,.emb (.cb 1))],0,0⟩,⟨27,4096,[],[(9,.setEnt .internalNl),(10,.emb (.cb 1))],0,0⟩,⟨28,8192,[.crAlone],[(9,.setEnt .internalNl),(10,.emb (.cb 1))],0,0⟩,⟨29,4294967808,[],[(9,.setEnt .internalNl),(10,.emb (.cb 1))],0,0⟩,⟨30,115792089237316195423570985008687907853269984665635612279300442486259482348031,[],[(9,.setEnt .internalNl),(10,.emb (.cb 1)),(11,.code)],0,0⟩,⟨31,4951760157141521099596496896,[],[(9,.setEnt .internalNl),(10,.emb (.cb 1))],0,0⟩,⟨33,549755813888,[],[(9,.setEnt .internalNl),(10,.emb (.cb 1))],0,0⟩],[⟨24,8192,[],[(9,.setEnt .internalNl),(10,.emb (.cb 1))],0,0⟩,⟨26,1024,[],[(9,.setEnt .internalNl),(10,.emb (.cb 1))],0,0⟩,⟨27,4096,[],[(9,.setEnt .internalNl),(10,.emb (.cb 1))],0,0⟩,⟨28,8192,[.crAlone],[(9,.setEnt .internalNl),(10,.emb (.cb 1))],0,0⟩,⟨29,4294967808,[],[(9,.setEnt .internalNl),(10,.emb (.cb 1))],0,0⟩,⟨30,115792089237316195423570985008687907853269984665635612279300442486259482348031,[],[(9,.setEnt .internalNl),(10,.emb (.cb 1)),(11,.code)],0,0⟩,⟨31,4951760157141521099596496896,[],[(9,.setEnt .internalNl),(10,.emb (.cb 1))],0,0⟩,⟨33,549755813888,[],[(9,.setEnt .internalNl),(10,.emb (.cb 1))],0,0⟩],[⟨24,8192,[],[(9,.setEnt .internalNl),(10,.emb (.cb 1))],0,0⟩,⟨26,1024,[],[(9,.setEnt .internalNl),(10,.emb (.cb 1))],0,0⟩,⟨27,4096,[],[(9,.setEnt .internalNl),(10,.emb (.cb 1))],0,0⟩,⟨28,8192,[.crAlone],[(9,.setEnt .internalNl),(10,.emb (.cb 1))],0,0⟩,⟨29,4294967808,[],[(9,.setEnt .internalNl),(10,.emb (.cb 1))],0,0⟩,⟨30,115792089237316195423570985008687907853269984665635612279300442486259482348031,[],[(9,.setEnt .internalNl),(10,.emb (.cb 1)),(11,.code)],0,0⟩,⟨31,4951760157141521099596496896,[],[(9,.setEnt .internalNl),(10,.emb (.cb 1))],0,0⟩,⟨33,549755813888,[],[(9,.setEnt .internalNl),(10,.emb (.cb 1))],0,0⟩],[⟨24,8192,[],[],0,0⟩,⟨26,1024,[],[],0,0⟩,⟨27,4096,[],[],0,0⟩,⟨28,8192,[.crAlone],[],0,0⟩,⟨29,4294967808,[],[],0,0⟩,⟨30,115792089237316195423570985008687907853269984665635612279300442486259482348031,[],[(11,.code)],0,0⟩,⟨31,4951760157141521099596496896,[],[],0,0⟩,⟨33,549755813888,[],[],0,0⟩],[⟨24,8192,[],[],0,0⟩,⟨26,1024,[],[],0,0⟩,⟨27,4096,[],[],0,0⟩,⟨28,8192,[.crAlone],[],0,0⟩,⟨29,4294967808,[],[],0,0⟩,⟨30,115792089237316195423570985008687907853269984665635612279300442486259482348031,[],[(11,.code)],0,0⟩,⟨31,4951760157141521099596496896,[],[],0,0⟩,⟨33,549755813888,[],[],0,0⟩],[⟨32,115792089237316195423570985008687907853269984665640564039457584007913129626623,[],[(12,.code)],0,0⟩],[⟨24,8192,[],[],0,0⟩,⟨26,1024,[],[],0,0⟩,⟨27,4096,[],[],0,0⟩,⟨28,8192,[.crAlone],[],0,0⟩,⟨29,4294967808,[],[],0,0⟩,⟨30,115792089237316195423570985008687907853269984665635612279300442486259482348031,[],[(11,.code)],0,0⟩,⟨31,4951760157141521099596496896,[],[],0,0⟩,⟨33,549755813888,[],[],0,0⟩],[],[⟨35,8192,[],[],0,0⟩,⟨37,1024,[],[],0,0⟩,⟨38,4096,[],[],0,0⟩,⟨39,8192,[.crAlone],[],0,0⟩,⟨40,4294967808,[],[],0,0⟩,⟨41,115792089237316195423570985008687907853269984665635612279300442486792058292735,[],[(16,.code)],0,0⟩,⟨42,4951760157141521099596496896,[],[],0,0⟩,⟨44,17179869184,[],[],0,0⟩],[⟨36,1024,[],[],0,0⟩],[⟨35,8192,[],[(14,.setEnt .internalNl),(15,.emb (.cb 1))],0,0⟩,⟨37,1024,[],[(14,.setEnt .internalNl),(15,.emb (.cb 1))],0,0⟩,⟨38,4096,[],[(14,.setEnt .internalNl),(15,.emb (.cb 1))],0,0⟩,⟨39,8192,[.crAlone],[(14,.setEnt .internalNl),(15,.emb (.cb 1))],0,0⟩,⟨40,4294967808,[],[(14,.setEnt .internalNl),(15,.emb (.cb 1))],0,0⟩,⟨41,115792089237316195423570985008687907853269984665635612279300442486792058292735,[],[(14,.setEnt .internalNl),(15,.emb (.cb 1)),(16,.code)],0,0⟩,⟨42,4951760157141521099596496896,[],[(14,.setEnt .internalNl),(15,.emb (.cb 1))],0,0⟩,⟨44,17179869184,[],[(14,.setEnt .internalNl),(15,.emb (.cb 1))],0,0⟩],[⟨35,8192,[],[(14,.setEnt .internalNl),(15,.emb (.cb 1))],0,0⟩,⟨37,1024,[],[(14,.setEnt .internalNl),(15,.emb (.cb 1))],0,0⟩,⟨38,4096,[],[(14,.setEnt .internalNl),(15,.emb (.cb 1))],0,0⟩,⟨39,8192,[.crAlone],[(14,.setEnt .internalNl),(15,.emb (.cb 1))],0,0⟩,⟨40,4294967808,[],[(14,.setEnt .internalNl),(15,.emb (.cb 1))],0,0⟩,⟨41,115792089237316195423570985008687907853269984665635612279300442486792058292735,[],[(14,.setEnt .internalNl),(15,.emb (.cb 1)),(16,.code)],0,0⟩,⟨42,4951760157141521099596496896,[],[(14,.setEnt .internalNl),(15,.emb (.cb 1))],0,0⟩,⟨44,17179869184,[],[(14,.setEnt .internalNl),(15,.emb (.cb 1))],0,0⟩],[⟨35,8192,[],[(14,.setEnt .internalNl),(15,.emb (.cb 1))],0,0⟩,⟨37,1024,[],[(14,.setEnt .internalNl),(15,.emb (.cb 1))],0,0⟩,⟨38,4096,[],[(14,.setEnt .internalNl),(15,.emb (.cb 1))],0,0⟩,⟨39,8192,[.crAlone],[(14,.setEnt .internalNl),(15,.emb (.cb 1))],0,0⟩,⟨40,4294967808,[],[(14,.setEnt .internalNl),(15,.emb (.cb 1))],0,0⟩,⟨41,115792089237316195423570985008687907853269984665635612279300442486792058292735,[],[(14,.setEnt .internalNl),(15,.emb (.cb 1)),(16,.code)],0,0⟩,⟨42,4951760157141521099596496896,[],[(14,.setEnt .internalNl),(15,.emb (.cb 1))],0,0⟩,⟨44,17179869184,[],[(14,.setEnt .internalNl),(15,.emb (.cb 1))],0,0⟩],[⟨35,8192,[],[(14,.setEnt .internalNl),(15,.emb (.cb 1))],0,0⟩,⟨37,1024,[],[(14,.setEnt .internalNl),(15,.emb (.cb 1))],0,0⟩,⟨38,4096,[],[(14,.setEnt .internalNl),(15,.emb (.cb 1))],0,0⟩,⟨39,8192,[.crAlone],[(14,.setEnt .internalNl),(15,.emb (.cb 1))],0,0⟩,⟨40,4294967808,[],[(14,.setEnt .internalNl),(15,.emb (.cb 1))],0,0⟩,⟨41,115792089237316195423570985008687907853269984665635612279300442486792058292735,[],[(14,.setEnt .internalNl),(15,.emb (.cb 1)),(16,.code)],0,0⟩,⟨42,4951760157141521099596496896,[],[(14,.setEnt .internalNl),(15,.emb (.cb 1))],0,0⟩,⟨44,17179869184,[],[(14,.setEnt .internalNl),(15,.emb (.cb 1))],0,0⟩],[⟨35,8192,[],[],0,0⟩,⟨37,1024,[],[],0,0⟩,⟨38,4096,[],[],0,0⟩,⟨39,8192,[.crAlone],[],0,0⟩,⟨40,4294967808,[],[],0,0⟩,⟨41,115792089237316195423570985008687907853269984665635612279300442486792058292735,[],[(16,.code)],0,0⟩,⟨42,4951760157141521099596496896,[],[],0,0⟩,⟨44,17179869184,[],[],0,0⟩],[⟨35,8192,[],[],0,0⟩,⟨37,1024,[],[],0,0⟩,⟨38,4096,[],[],0,0⟩,⟨39,8192,[.crAlone],[],0,0⟩,⟨40,4294967808,[],[],0,0⟩,⟨41,115792089237316195423570985008687907853269984665635612279300442486792058292735,[],[(16,.code)],0,0⟩,⟨42,4951760157141521099596496896,[],[],0,0⟩,⟨44,17179869184,[],[],0,0⟩],[⟨43,115792089237316195423570985008687907853269984665640564039457584007913129626623,[],[(17,.code)],0,0⟩],[⟨35,8192,[],[],0,0⟩,⟨37,1024,[],[],0,0⟩,⟨38,4096,[],[],0,0⟩,⟨39,8192,[.crAlone],[],0,0⟩,⟨40,4294967808,[],[],0,0⟩,⟨41,115792089237316195423570985008687907853269984665635612279300442486792058292735,[],[(16,.code)],0,0⟩,⟨42,4951760157141521099596496896,[],[],0,0⟩,⟨44,17179869184,[],[],0,0⟩],[],[⟨46,1024,[],[(18,.setEnt .newline)],0,0⟩],[],[],[],[],[]],[none,none,none,none,none,none,none,none,none,none,some (0,[]),some (1,[]),none,none,none,none,none,none,none,none,none,none,some (2,[]),none,none,none,none,none,none,none,none,none,none,some (3,[]),none,none,none,none,none,none,none,none,none,none,some (3,[]),none,some (4,[]),some (4,[]),some (4,[]),some (4,[]),some (5,[])],[3,4,8,18,19,20]⟩
def emb6_masks : List Nat := [1152921504606846976,4294967808,140737488355328,549755813888,17179869184,8192,1024,4096,115792089237316195423570985008687907853269984665640564039457584007908834656767,649037107316853453566312041152512,1329227995784915872903807060280344576,288230376151711744,9671406556917033397649408,83076749736557242056487941267521536,2658455991569831745807614120560689152,324518553658426726783156020576256,2535301200456458802993406410752,4611686018427387904,4398046511104,115792089237316195423570985008687907853269984665640564039457584007908834658815,115792089237316195423570985008687907853269984665635612279300442486259482348031,4951760157141521099596496896,115792089237316195423570985008687907853269984665640564039457584007913129626623,115792089237316195423570985008687907853269984665635612279300442486792058292735]
def emb6_cs : List (Nat × Nat) := [(0,115792089237316195423570985008687907853265912928807549127290425524590607319551),(9,4294967808),(10,1024),(11,2048),(12,4096),(13,8192),(34,17179869184),(39,549755813888),(42,4398046511104),(47,140737488355328),(58,288230376151711744),(60,1152921504606846976),(62,4611686018427387904),(83,9671406556917033397649408),(92,4951760157141521099596496896),(101,2535301200456458802993406410752),(108,324518553658426726783156020576256),(109,649037107316853453566312041152512),(116,83076749736557242056487941267521536),(120,1329227995784915872903807060280344576),(121,2658455991569831745807614120560689152)]
theorem emb6_masksIn : masksIn emb6_nfa emb6_masks = true := by decide +kernel
theorem emb6_repOk : repOk emb6_masks emb6_cs = true := by decide +kernel
def emb6_rows : List Row := [⟨[],none,[],[⟨256,.other,false,some ⟨0,[.setEnt (.own 9)],some 5,true⟩⟩,⟨256,.ws,false,some ⟨1,[.setEnt (.own 0)],some 1,false⟩⟩,⟨256,.lf,false,some ⟨0,[.setEnt .newline],some 4,true⟩⟩,⟨256,.vt,false,none⟩,⟨256,.ff,false,some ⟨0,[.setEnt .newline],some 4,true⟩⟩,⟨256,.cr,false,some ⟨2,[.setEnt .newline],none,false⟩⟩,⟨256,.cr,true,some ⟨3,[.setEnt .newline],some 4,false⟩⟩,⟨256,.other,false,some ⟨4,[.code,.setEnt (.own 9)],some 5,false⟩⟩,⟨256,.other,false,some ⟨5,[.code,.setEnt (.own 9)],some 5,false⟩⟩,⟨256,.other,false,some ⟨6,[.setEnt (.own 9)],some 5,false⟩⟩,⟨256,.other,false,some ⟨7,[.setEnt (.own 9)],some 5,false⟩⟩]⟩,⟨[11],some 1,[],[⟨256,.other,false,none⟩,⟨256,.ws,false,some ⟨1,[.setEnt (.own 0)],some 1,false⟩⟩,⟨256,.lf,false,none⟩,⟨256,.vt,false,none⟩,⟨256,.ff,false,none⟩,⟨256,.cr,false,none⟩,⟨256,.cr,true,none⟩]⟩,⟨[45],none,[],[⟨256,.other,false,none⟩,⟨256,.ws,false,none⟩,⟨256,.lf,false,some ⟨0,[.setEnt .newline],some 4,true⟩⟩,⟨256,.vt,false,none⟩,⟨256,.ff,false,none⟩,⟨256,.cr,false,none⟩,⟨256,.cr,true,none⟩]⟩,⟨[45,49],some 4,[],[⟨256,.other,false,none⟩,⟨256,.ws,false,none⟩,⟨256,.lf,false,some ⟨0,[.setEnt .newline],some 4,true⟩⟩,⟨256,.vt,false,none⟩,⟨256,.ff,false,none⟩,⟨256,.cr,false,none⟩,⟨256,.cr,true,none⟩]⟩,⟨[34,50],some 5,[],[⟨256,.other,false,some ⟨8,[.code],none,false⟩⟩,⟨256,.ws,false,some ⟨9,[],none,false⟩⟩,⟨256,.lf,false,some ⟨10,[],none,false⟩⟩,⟨256,.vt,false,some ⟨8,[.code],none,false⟩⟩,⟨256,.ff,false,some ⟨11,[],none,false⟩⟩,⟨256,.cr,false,some ⟨12,[],none,false⟩⟩,⟨256,.cr,true,some ⟨13,[],none,false⟩⟩,⟨256,.other,false,some ⟨0,[],some 3,true⟩⟩,⟨256,.other,false,some ⟨14,[],none,false⟩⟩]⟩,⟨[23,50],some 5,[],[⟨256,.other,false,some ⟨15,[.code],none,false⟩⟩,⟨256,.ws,false,some ⟨16,[],none,false⟩⟩,⟨256,.lf,false,some ⟨17,[],none,false⟩⟩,⟨256,.vt,false,some ⟨15,[.code],none,false⟩⟩,⟨256,.ff,false,some ⟨18,[],none,false⟩⟩,⟨256,.cr,false,some ⟨19,[],none,false⟩⟩,⟨256,.cr,true,some ⟨20,[],none,false⟩⟩,⟨256,.other,false,some ⟨0,[],some 3,true⟩⟩,⟨256,.other,false,some ⟨21,[],none,false⟩⟩]⟩,⟨[12,50],some 5,[],[⟨256,.other,false,none⟩,⟨256,.ws,false,none⟩,⟨256,.lf,false,none⟩,⟨256,.vt,false,none⟩,⟨256,.ff,false,none⟩,⟨256,.cr,false,none⟩,⟨256,.cr,true,none⟩,⟨256,.other,false,some ⟨22,[.comment],none,false⟩⟩]⟩,⟨[0,50],some 5,[],[⟨256,.other,false,none⟩,⟨256,.ws,false,none⟩,⟨256,.lf,false,none⟩,⟨256,.vt,false,none⟩,⟨256,.ff,false,none⟩,⟨256,.cr,false,none⟩,⟨256,.cr,true,none⟩,⟨256,.other,false,some ⟨23,[],none,false⟩⟩]⟩,⟨[41],none,[],[⟨256,.other,false,some ⟨8,[.code],none,false⟩⟩,⟨256,.ws,false,some ⟨9,[],none,false⟩⟩,⟨256,.lf,false,some ⟨10,[],none,false⟩⟩,⟨256,.vt,false,some ⟨8,[.code],none,false⟩⟩,⟨256,.ff,false,some ⟨11,[],none,false⟩⟩,⟨256,.cr,false,some ⟨12,[],none,false⟩⟩,⟨256,.cr,true,some ⟨13,[],none,false⟩⟩,⟨256,.other,false,some ⟨0,[],some 3,true⟩⟩,⟨256,.other,false,some ⟨14,[],none,false⟩⟩]⟩,⟨[40],none,[],[⟨256,.other,false,some ⟨8,[.code],none,false⟩⟩,⟨256,.ws,false,some ⟨9,[],none,false⟩⟩,⟨256,.lf,false,some ⟨10,[],none,false⟩⟩,⟨256,.vt,false,some ⟨8,[.code],none,false⟩⟩,⟨256,.ff,false,some ⟨11,[],none,false⟩⟩,⟨256,.cr,false,some ⟨12,[],none,false⟩⟩,⟨256,.cr,true,some ⟨13,[],none,false⟩⟩,⟨256,.other,false,some ⟨0,[],some 3,true⟩⟩,⟨256,.other,false,some ⟨14,[],none,false⟩⟩]⟩,⟨[37],none,[],[⟨256,.other,false,some ⟨8,[.setEnt .internalNl,.emb (.cb 1),.code],none,false⟩⟩,⟨256,.ws,false,some ⟨9,[.setEnt .internalNl,.emb (.cb 1)],none,false⟩⟩,⟨256,.lf,false,some ⟨10,[.setEnt .internalNl,.emb (.cb 1)],none,false⟩⟩,⟨256,.vt,false,some ⟨8,[.setEnt .internalNl,.emb (.cb 1),.code],none,false⟩⟩,⟨256,.ff,false,some ⟨11,[.setEnt .internalNl,.emb (.cb 1)],none,false⟩⟩,⟨256,.cr,false,some ⟨12,[.setEnt .internalNl,.emb (.cb 1)],none,false⟩⟩,⟨256,.cr,true,some ⟨13,[.setEnt .internalNl,.emb (.cb 1)],none,false⟩⟩,⟨256,.other,false,some ⟨0,[.setEnt .internalNl,.emb (.cb 1)],some 3,true⟩⟩,⟨256,.other,false,some ⟨14,[.setEnt .internalNl,.emb (.cb 1)],none,false⟩⟩]⟩,⟨[38],none,[],[⟨256,.other,false,some ⟨8,[.setEnt .internalNl,.emb (.cb 1),.code],none,false⟩⟩,⟨256,.ws,false,some ⟨9,[.setEnt .internalNl,.emb (.cb 1)],none,false⟩⟩,⟨256,.lf,false,some ⟨10,[.setEnt .internalNl,.emb (.cb 1)],none,false⟩⟩,⟨256,.vt,false,some ⟨8,[.setEnt .internalNl,.emb (.cb 1),.code],none,false⟩⟩,⟨256,.ff,false,some ⟨11,[.setEnt .internalNl,.emb (.cb 1)],none,false⟩⟩,⟨256,.cr,false,some ⟨12,[.setEnt .internalNl,.emb (.cb 1)],none,false⟩⟩,⟨256,.cr,true,some ⟨13,[.setEnt .internalNl,.emb (.cb 1)],none,false⟩⟩,⟨256,.other,false,some ⟨0,[.setEnt .internalNl,.emb (.cb 1)],some 3,true⟩⟩,⟨256,.other,false,some ⟨14,[.setEnt .internalNl,.emb (.cb 1)],none,false⟩⟩]⟩,⟨[35],none,[],[⟨256,.other,false,none⟩,⟨256,.ws,false,none⟩,⟨256,.lf,false,some ⟨24,[],none,false⟩⟩,⟨256,.vt,false,none⟩,⟨256,.ff,false,none⟩,⟨256,.cr,false,none⟩,⟨256,.cr,true,none⟩]⟩,⟨[35,39],none,[],[⟨256,.other,false,some ⟨8,[.setEnt .internalNl,.emb (.cb 1),.code],none,false⟩⟩,⟨256,.ws,false,some ⟨9,[.setEnt .internalNl,.emb (.cb 1)],none,false⟩⟩,⟨256,.lf,false,some ⟨25,[.setEnt .internalNl,.emb (.cb 1)],none,false⟩⟩,⟨256,.vt,false,some ⟨8,[.setEnt .internalNl,.emb (.cb 1),.code],none,false⟩⟩,⟨256,.ff,false,some ⟨11,[.setEnt .internalNl,.emb (.cb 1)],none,false⟩⟩,⟨256,.cr,false,some ⟨12,[.setEnt .internalNl,.emb (.cb 1)],none,false⟩⟩,⟨256,.cr,true,some ⟨13,[.setEnt .internalNl,.emb (.cb 1)],none,false⟩⟩,⟨256,.other,false,some ⟨0,[.setEnt .internalNl,.emb (.cb 1)],some 3,true⟩⟩,⟨256,.other,false,some ⟨14,[.setEnt .internalNl,.emb (.cb 1)],none,false⟩⟩]⟩,⟨[42],none,[],[⟨256,.other,false,some ⟨26,[.code],none,false⟩⟩,⟨256,.ws,false,some ⟨26,[.code],none,false⟩⟩,⟨256,.lf,false,none⟩,⟨256,.vt,false,some ⟨26,[.code],none,false⟩⟩,⟨256,.ff,false,none⟩,⟨256,.cr,false,none⟩,⟨256,.cr,true,none⟩]⟩,⟨[30],none,[],[⟨256,.other,false,some ⟨15,[.code],none,false⟩⟩,⟨256,.ws,false,some ⟨16,[],none,false⟩⟩,⟨256,.lf,false,some ⟨17,[],none,false⟩⟩,⟨256,.vt,false,some ⟨15,[.code],none,false⟩⟩,⟨256,.ff,false,some ⟨18,[],none,false⟩⟩,⟨256,.cr,false,some ⟨19,[],none,false⟩⟩,⟨256,.cr,true,some ⟨20,[],none,false⟩⟩,⟨256,.other,false,some ⟨0,[],some 3,true⟩⟩,⟨256,.other,false,some ⟨21,[],none,false⟩⟩]⟩,⟨[29],none,[],[⟨256,.other,false,some ⟨15,[.code],none,false⟩⟩,⟨256,.ws,false,some ⟨16,[],none,false⟩⟩,⟨256,.lf,false,some ⟨17,[],none,false⟩⟩,⟨256,.vt,false,some ⟨15,[.code],none,false⟩⟩,⟨256,.ff,false,some ⟨18,[],none,false⟩⟩,⟨256,.cr,false,some ⟨19,[],none,false⟩⟩,⟨256,.cr,true,some ⟨20,[],none,false⟩⟩,⟨256,.other,false,some ⟨0,[],some 3,true⟩⟩,⟨256,.other,false,some ⟨21,[],none,false⟩⟩]⟩,⟨[26],none,[],[⟨256,.other,false,some ⟨15,[.setEnt .internalNl,.emb (.cb 1),.code],none,false⟩⟩,⟨256,.ws,false,some ⟨16,[.setEnt .internalNl,.emb (.cb 1)],none,false⟩⟩,⟨256,.lf,false,some ⟨17,[.setEnt .internalNl,.emb (.cb 1)],none,false⟩⟩,⟨256,.vt,false,some ⟨15,[.setEnt .internalNl,.emb (.cb 1),.code],none,false⟩⟩,⟨256,.ff,false,some ⟨18,[.setEnt .internalNl,.emb (.cb 1)],none,false⟩⟩,⟨256,.cr,false,some ⟨19,[.setEnt .internalNl,.emb (.cb 1)],none,false⟩⟩,⟨256,.cr,true,some ⟨20,[.setEnt .internalNl,.emb (.cb 1)],none,false⟩⟩,⟨256,.other,false,some ⟨0,[.setEnt .internalNl,.emb (.cb 1)],some 3,true⟩⟩,⟨256,.other,false,some ⟨21,[.setEnt .internalNl,.emb (.cb 1)],none,false⟩⟩]⟩,⟨[27],none,[],[⟨256,.other,false,some ⟨15,[.setEnt .internalNl,.emb (.cb 1),.code],none,false⟩⟩,⟨256,.ws,false,some ⟨16,[.setEnt .internalNl,.emb (.cb 1)],none,false⟩⟩,⟨256,.lf,false,some ⟨17,[.setEnt .internalNl,.emb (.cb 1)],none,false⟩⟩,⟨256,.vt,false,some ⟨15,[.setEnt .internalNl,.emb (.cb 1),.code],none,false⟩⟩,⟨256,.ff,false,some ⟨18,[.setEnt .internalNl,.emb (.cb 1)],none,false⟩⟩,⟨256,.cr,false,some ⟨19,[.setEnt .internalNl,.emb (.cb 1)],none,false⟩⟩,⟨256,.cr,true,some ⟨20,[.setEnt .internalNl,.emb (.cb 1)],none,false⟩⟩,⟨256,.other,false,some ⟨0,[.setEnt .internalNl,.emb (.cb 1)],some 3,true⟩⟩,⟨256,.other,false,some ⟨21,[.setEnt .internalNl,.emb (.cb 1)],none,false⟩⟩]⟩,⟨[24],none,[],[⟨256,.other,false,none⟩,⟨256,.ws,false,none⟩,⟨256,.lf,false,some ⟨27,[],none,false⟩⟩,⟨256,.vt,false,none⟩,⟨256,.ff,false,none⟩,⟨256,.cr,false,none⟩,⟨256,.cr,true,none⟩]⟩,⟨[24,28],none,[],[⟨256,.other,false,some ⟨15,[.setEnt .internalNl,.emb (.cb 1),.code],none,false⟩⟩,⟨256,.ws,false,some ⟨16,[.setEnt .internalNl,.emb (.cb 1)],none,false⟩⟩,⟨256,.lf,false,some ⟨28,[.setEnt .internalNl,.emb (.cb 1)],none,false⟩⟩,⟨256,.vt,false,some ⟨15,[.setEnt .internalNl,.emb (.cb 1),.code],none,false⟩⟩,⟨256,.ff,false,some ⟨18,[.setEnt .internalNl,.emb (.cb 1)],none,false⟩⟩,⟨256,.cr,false,some ⟨19,[.setEnt .internalNl,.emb (.cb 1)],none,false⟩⟩,⟨256,.cr,true,some ⟨20,[.setEnt .internalNl,.emb (.cb 1)],none,false⟩⟩,⟨256,.other,false,some ⟨0,[.setEnt .internalNl,.emb (.cb 1)],some 3,true⟩⟩,⟨256,.other,false,some ⟨21,[.setEnt .internalNl,.emb (.cb 1)],none,false⟩⟩]⟩,⟨[31],none,[],[⟨256,.other,false,some ⟨29,[.code],none,false⟩⟩,⟨256,.ws,false,some ⟨29,[.code],none,false⟩⟩,⟨256,.lf,false,none⟩,⟨256,.vt,false,some ⟨29,[.code],none,false⟩⟩,⟨256,.ff,false,none⟩,⟨256,.cr,false,none⟩,⟨256,.cr,true,none⟩]⟩,⟨[13],none,[],[⟨256,.other,false,some ⟨30,[.comment],none,false⟩⟩,⟨256,.ws,false,some ⟨31,[],none,false⟩⟩,⟨256,.lf,false,some ⟨32,[],none,false⟩⟩,⟨256,.vt,false,some ⟨30,[.comment],none,false⟩⟩,⟨256,.ff,false,some ⟨33,[],none,false⟩⟩,⟨256,.cr,false,some ⟨34,[],none,false⟩⟩,⟨256,.cr,true,some ⟨35,[],none,false⟩⟩,⟨256,.other,false,some ⟨36,[.comment],none,false⟩⟩]⟩,⟨[1],none,[],[⟨256,.other,false,none⟩,⟨256,.ws,false,none⟩,⟨256,.lf,false,none⟩,⟨256,.vt,false,none⟩,⟨256,.ff,false,none⟩,⟨256,.cr,false,none⟩,⟨256,.cr,true,none⟩,⟨256,.other,false,some ⟨37,[],none,false⟩⟩]⟩,⟨[36],none,[],[⟨256,.other,false,some ⟨8,[.setEnt .internalNl,.emb (.cb 1),.code],none,false⟩⟩,⟨256,.ws,false,some ⟨9,[.setEnt .internalNl,.emb (.cb 1)],none,false⟩⟩,⟨256,.lf,false,some ⟨10,[.setEnt .internalNl,.emb (.cb 1)],none,false⟩⟩,⟨256,.vt,false,some ⟨8,[.setEnt .internalNl,.emb (.cb 1),.code],none,false⟩⟩,⟨256,.ff,false,some ⟨11,[.setEnt .internalNl,.emb (.cb 1)],none,false⟩⟩,⟨256,.cr,false,some ⟨12,[.setEnt .internalNl,.emb (.cb 1)],none,false⟩⟩,⟨256,.cr,true,some ⟨13,[.setEnt .internalNl,.emb (.cb 1)],none,false⟩⟩,⟨256,.other,false,some ⟨0,[.setEnt .internalNl,.emb (.cb 1)],some 3,true⟩⟩,⟨256,.other,false,some ⟨14,[.setEnt .internalNl,.emb (.cb 1)],none,false⟩⟩]⟩,⟨[36,37],none,[],[⟨256,.other,false,some ⟨8,[.setEnt .internalNl,.emb (.cb 1),.code],none,false⟩⟩,⟨256,.ws,false,some ⟨9,[.setEnt .internalNl,.emb (.cb 1)],none,false⟩⟩,⟨256,.lf,false,some ⟨10,[.setEnt .internalNl,.emb (.cb 1)],none,false⟩⟩,⟨256,.vt,false,some ⟨8,[.setEnt .internalNl,.emb (.cb 1),.code],none,false⟩⟩,⟨256,.ff,false,some ⟨11,[.setEnt .internalNl,.emb (.cb 1)],none,false⟩⟩,⟨256,.cr,false,some ⟨12,[.setEnt .internalNl,.emb (.cb 1)],none,false⟩⟩,⟨256,.cr,true,some ⟨13,[.setEnt .internalNl,.emb (.cb 1)],none,false⟩⟩,⟨256,.other,false,some ⟨0,[.setEnt .internalNl,.emb (.cb 1)],some 3,true⟩⟩,⟨256,.other,false,some ⟨14,[.setEnt .internalNl,.emb (.cb 1)],none,false⟩⟩]⟩,⟨[43],none,[],[⟨256,.other,false,some ⟨8,[.code],none,false⟩⟩,⟨256,.ws,false,some ⟨9,[],none,false⟩⟩,⟨256,.lf,false,some ⟨10,[],none,false⟩⟩,⟨256,.vt,false,some ⟨8,[.code],none,false⟩⟩,⟨256,.ff,false,some ⟨11,[],none,false⟩⟩,⟨256,.cr,false,some ⟨12,[],none,false⟩⟩,⟨256,.cr,true,some ⟨13,[],none,false⟩⟩,⟨256,.other,false,some ⟨0,[],some 3,true⟩⟩,⟨256,.other,false,some ⟨14,[],none,false⟩⟩]⟩,⟨[25],none,[],[⟨256,.other,false,some ⟨15,[.setEnt .internalNl,.emb (.cb 1),.code],none,false⟩⟩,⟨256,.ws,false,some ⟨16,[.setEnt .internalNl,.emb (.cb 1)],none,false⟩⟩,⟨256,.lf,false,some ⟨17,[.setEnt .internalNl,.emb (.cb 1)],none,false⟩⟩,⟨256,.vt,false,some ⟨15,[.setEnt .internalNl,.emb (.cb 1),.code],none,false⟩⟩,⟨256,.ff,false,some ⟨18,[.setEnt .internalNl,.emb (.cb 1)],none,false⟩⟩,⟨256,.cr,false,some ⟨19,[.setEnt .internalNl,.emb (.cb 1)],none,false⟩⟩,⟨256,.cr,true,some ⟨20,[.setEnt .internalNl,.emb (.cb 1)],none,false⟩⟩,⟨256,.other,false,some ⟨0,[.setEnt .internalNl,.emb (.cb 1)],some 3,true⟩⟩,⟨256,.other,false,some ⟨21,[.setEnt .internalNl,.emb (.cb 1)],none,false⟩⟩]⟩,⟨[25,26],none,[],[⟨256,.other,false,some ⟨15,[.setEnt .internalNl,.emb (.cb 1),.code],none,false⟩⟩,⟨256,.ws,false,some ⟨16,[.setEnt .internalNl,.emb (.cb 1)],none,false⟩⟩,⟨256,.lf,false,some ⟨17,[.setEnt .internalNl,.emb (.cb 1)],none,false⟩⟩,⟨256,.vt,false,some ⟨15,[.setEnt .internalNl,.emb (.cb 1),.code],none,false⟩⟩,⟨256,.ff,false,some ⟨18,[.setEnt .internalNl,.emb (.cb 1)],none,false⟩⟩,⟨256,.cr,false,some ⟨19,[.setEnt .internalNl,.emb (.cb 1)],none,false⟩⟩,⟨256,.cr,true,some ⟨20,[.setEnt .internalNl,.emb (.cb 1)],none,false⟩⟩,⟨256,.other,false,some ⟨0,[.setEnt .internalNl,.emb (.cb 1)],some 3,true⟩⟩,⟨256,.other,false,some ⟨21,[.setEnt .internalNl,.emb (.cb 1)],none,false⟩⟩]⟩,⟨[32],none,[],[⟨256,.other,false,some ⟨15,[.code],none,false⟩⟩,⟨256,.ws,false,some ⟨16,[],none,false⟩⟩,⟨256,.lf,false,some ⟨17,[],none,false⟩⟩,⟨256,.vt,false,some ⟨15,[.code],none,false⟩⟩,⟨256,.ff,false,some ⟨18,[],none,false⟩⟩,⟨256,.cr,false,some ⟨19,[],none,false⟩⟩,⟨256,.cr,true,some ⟨20,[],none,false⟩⟩,⟨256,.other,false,some ⟨0,[],some 3,true⟩⟩,⟨256,.other,false,some ⟨21,[],none,false⟩⟩]⟩,⟨[20],none,[],[⟨256,.other,false,some ⟨30,[.comment],none,false⟩⟩,⟨256,.ws,false,some ⟨31,[],none,false⟩⟩,⟨256,.lf,false,some ⟨32,[],none,false⟩⟩,⟨256,.vt,false,some ⟨30,[.comment],none,false⟩⟩,⟨256,.ff,false,some ⟨33,[],none,false⟩⟩,⟨256,.cr,false,some ⟨34,[],none,false⟩⟩,⟨256,.cr,true,some ⟨35,[],none,false⟩⟩,⟨256,.other,false,some ⟨36,[.comment],none,false⟩⟩]⟩,⟨[19],none,[],[⟨256,.other,false,some ⟨30,[.comment],none,false⟩⟩,⟨256,.ws,false,some ⟨31,[],none,false⟩⟩,⟨256,.lf,false,some ⟨32,[],none,false⟩⟩,⟨256,.vt,false,some ⟨30,[.comment],none,false⟩⟩,⟨256,.ff,false,some ⟨33,[],none,false⟩⟩,⟨256,.cr,false,some ⟨34,[],none,false⟩⟩,⟨256,.cr,true,some ⟨35,[],none,false⟩⟩,⟨256,.other,false,some ⟨36,[.comment],none,false⟩⟩]⟩,⟨[16],none,[],[⟨256,.other,false,some ⟨30,[.setEnt .internalNl,.emb (.cb 1),.comment],none,false⟩⟩,⟨256,.ws,false,some ⟨31,[.setEnt .internalNl,.emb (.cb 1)],none,false⟩⟩,⟨256,.lf,false,some ⟨32,[.setEnt .internalNl,.emb (.cb 1)],none,false⟩⟩,⟨256,.vt,false,some ⟨30,[.setEnt .internalNl,.emb (.cb 1),.comment],none,false⟩⟩,⟨256,.ff,false,some ⟨33,[.setEnt .internalNl,.emb (.cb 1)],none,false⟩⟩,⟨256,.cr,false,some ⟨34,[.setEnt .internalNl,.emb (.cb 1)],none,false⟩⟩,⟨256,.cr,true,some ⟨35,[.setEnt .internalNl,.emb (.cb 1)],none,false⟩⟩,⟨256,.other,false,some ⟨36,[.setEnt .internalNl,.emb (.cb 1),.comment],none,false⟩⟩]⟩,⟨[17],none,[],[⟨256,.other,false,some ⟨30,[.setEnt .internalNl,.emb (.cb 1),.comment],none,false⟩⟩,⟨256,.ws,false,some ⟨31,[.setEnt .internalNl,.emb (.cb 1)],none,false⟩⟩,⟨256,.lf,false,some ⟨32,[.setEnt .internalNl,.emb (.cb 1)],none,false⟩⟩,⟨256,.vt,false,some ⟨30,[.setEnt .internalNl,.emb (.cb 1),.comment],none,false⟩⟩,⟨256,.ff,false,some ⟨33,[.setEnt .internalNl,.emb (.cb 1)],none,false⟩⟩,⟨256,.cr,false,some ⟨34,[.setEnt .internalNl,.emb (.cb 1)],none,false⟩⟩,⟨256,.cr,true,some ⟨35,[.setEnt .internalNl,.emb (.cb 1)],none,false⟩⟩,⟨256,.other,false,some ⟨36,[.setEnt .internalNl,.emb (.cb 1),.comment],none,false⟩⟩]⟩,⟨[14],none,[],[⟨256,.other,false,none⟩,⟨256,.ws,false,none⟩,⟨256,.lf,false,some ⟨38,[],none,false⟩⟩,⟨256,.vt,false,none⟩,⟨256,.ff,false,none⟩,⟨256,.cr,false,none⟩,⟨256,.cr,true,none⟩]⟩,⟨[14,18],none,[],[⟨256,.other,false,some ⟨30,[.setEnt .internalNl,.emb (.cb 1),.comment],none,false⟩⟩,⟨256,.ws,false,some ⟨31,[.setEnt .internalNl,.emb (.cb 1)],none,false⟩⟩,⟨256,.lf,false,some ⟨39,[.setEnt .internalNl,.emb (.cb 1)],none,false⟩⟩,⟨256,.vt,false,some ⟨30,[.setEnt .internalNl,.emb (.cb 1),.comment],none,false⟩⟩,⟨256,.ff,false,some ⟨33,[.setEnt .internalNl,.emb (.cb 1)],none,false⟩⟩,⟨256,.cr,false,some ⟨34,[.setEnt .internalNl,.emb (.cb 1)],none,false⟩⟩,⟨256,.cr,true,some ⟨35,[.setEnt .internalNl,.emb (.cb 1)],none,false⟩⟩,⟨256,.other,false,some ⟨36,[.setEnt .internalNl,.emb (.cb 1),.comment],none,false⟩⟩]⟩,⟨[20,21],none,[],[⟨256,.other,false,some ⟨30,[.comment],none,false⟩⟩,⟨256,.ws,false,some ⟨31,[],none,false⟩⟩,⟨256,.lf,false,some ⟨32,[],none,false⟩⟩,⟨256,.vt,false,some ⟨30,[.comment],none,false⟩⟩,⟨256,.ff,false,some ⟨33,[],none,false⟩⟩,⟨256,.cr,false,some ⟨34,[],none,false⟩⟩,⟨256,.cr,true,some ⟨35,[],none,false⟩⟩,⟨256,.other,false,some ⟨36,[.comment],none,false⟩⟩,⟨256,.other,false,some ⟨0,[],some 2,true⟩⟩]⟩,⟨[2],none,[],[⟨256,.other,false,none⟩,⟨256,.ws,false,none⟩,⟨256,.lf,false,none⟩,⟨256,.vt,false,none⟩,⟨256,.ff,false,none⟩,⟨256,.cr,false,none⟩,⟨256,.cr,true,none⟩,⟨256,.other,false,some ⟨40,[],none,false⟩⟩]⟩,⟨[15],none,[],[⟨256,.other,false,some ⟨30,[.setEnt .internalNl,.emb (.cb 1),.comment],none,false⟩⟩,⟨256,.ws,false,some ⟨31,[.setEnt .internalNl,.emb (.cb 1)],none,false⟩⟩,⟨256,.lf,false,some ⟨32,[.setEnt .internalNl,.emb (.cb 1)],none,false⟩⟩,⟨256,.vt,false,some ⟨30,[.setEnt .internalNl,.emb (.cb 1),.comment],none,false⟩⟩,⟨256,.ff,false,some ⟨33,[.setEnt .internalNl,.emb (.cb 1)],none,false⟩⟩,⟨256,.cr,false,some ⟨34,[.setEnt .internalNl,.emb (.cb 1)],none,false⟩⟩,⟨256,.cr,true,some ⟨35,[.setEnt .internalNl,.emb (.cb 1)],none,false⟩⟩,⟨256,.other,false,some ⟨36,[.setEnt .internalNl,.emb (.cb 1),.comment],none,false⟩⟩]⟩,⟨[15,16],none,[],[⟨256,.other,false,some ⟨30,[.setEnt .internalNl,.emb (.cb 1),.comment],none,false⟩⟩,⟨256,.ws,false,some ⟨31,[.setEnt .internalNl,.emb (.cb 1)],none,false⟩⟩,⟨256,.lf,false,some ⟨32,[.setEnt .internalNl,.emb (.cb 1)],none,false⟩⟩,⟨256,.vt,false,some ⟨30,[.setEnt .internalNl,.emb (.cb 1),.comment],none,false⟩⟩,⟨256,.ff,false,some ⟨33,[.setEnt .internalNl,.emb (.cb 1)],none,false⟩⟩,⟨256,.cr,false,some ⟨34,[.setEnt .internalNl,.emb (.cb 1)],none,false⟩⟩,⟨256,.cr,true,some ⟨35,[.setEnt .internalNl,.emb (.cb 1)],none,false⟩⟩,⟨256,.other,false,some ⟨36,[.setEnt .internalNl,.emb (.cb 1),.comment],none,false⟩⟩]⟩,⟨[3],none,[],[⟨256,.other,false,none⟩,⟨256,.ws,false,none⟩,⟨256,.lf,false,none⟩,⟨256,.vt,false,none⟩,⟨256,.ff,false,none⟩,⟨256,.cr,false,none⟩,⟨256,.cr,true,none⟩,⟨256,.other,false,some ⟨41,[],none,false⟩⟩]⟩,⟨[4],none,[],[⟨256,.other,false,none⟩,⟨256,.ws,false,none⟩,⟨256,.lf,false,none⟩,⟨256,.vt,false,none⟩,⟨256,.ff,false,none⟩,⟨256,.cr,false,none⟩,⟨256,.cr,true,none⟩,⟨256,.other,false,some ⟨42,[],none,false⟩⟩]⟩,⟨[5],none,[],[⟨256,.other,false,none⟩,⟨256,.ws,false,none⟩,⟨256,.lf,false,none⟩,⟨256,.vt,false,none⟩,⟨256,.ff,false,none⟩,⟨256,.cr,false,none⟩,⟨256,.cr,true,none⟩,⟨256,.other,false,some ⟨43,[],none,false⟩⟩]⟩,⟨[6],none,[],[⟨256,.other,false,none⟩,⟨256,.ws,false,none⟩,⟨256,.lf,false,none⟩,⟨256,.vt,false,none⟩,⟨256,.ff,false,none⟩,⟨256,.cr,false,none⟩,⟨256,.cr,true,none⟩,⟨256,.other,false,some ⟨44,[],none,false⟩⟩]⟩,⟨[7],none,[],[⟨256,.other,false,none⟩,⟨256,.ws,false,none⟩,⟨256,.lf,false,none⟩,⟨256,.vt,false,none⟩,⟨256,.ff,false,none⟩,⟨256,.cr,false,none⟩,⟨256,.cr,true,none⟩,⟨256,.other,false,some ⟨45,[],none,false⟩⟩]⟩,⟨[8],none,[],[⟨256,.other,false,none⟩,⟨256,.ws,false,none⟩,⟨256,.lf,false,none⟩,⟨256,.vt,false,none⟩,⟨256,.ff,false,none⟩,⟨256,.cr,false,none⟩,⟨256,.cr,true,none⟩,⟨256,.other,false,some ⟨46,[],none,false⟩⟩]⟩,⟨[9],none,[],[⟨256,.other,false,none⟩,⟨256,.ws,false,none⟩,⟨256,.lf,false,none⟩,⟨256,.vt,false,none⟩,⟨256,.ff,false,none⟩,⟨256,.cr,false,none⟩,⟨256,.cr,true,none⟩,⟨256,.other,false,some ⟨0,[.emb .outry,.code,.emb .back],some 0,true⟩⟩]⟩]
theorem emb6_rowsOk : rowsOk emb6_nfa [] (emb6_cs.map (·.1)) emb6_rows = true := by decide +kernel
def emb6_D : Dfa emb6_nfa := ⟨emb6_masks, [], emb6_cs, emb6_rows, emb6_masksIn, emb6_repOk, emb6_rowsOk⟩

/-- The automaton of `Emb.Mxml.mxml_css_entity`. -/
def emb9_nfa : Nfa := ⟨[⟨0,1152921504606846976,[],[],0,0⟩,⟨11,4294983168,[],[(1,.setEnt (.own 0))],0,0⟩,⟨12,140737488355328,[],[(2,.setEnt (.own 1))],0,2⟩,⟨17,115792089237316195423570985008687907853269984665640564039457584007908834656767,[],[],0,0⟩],[[⟨1,140737488355328,[],[],0,0⟩],[⟨2,649037107316853453566312041152512,[],[],0,0⟩],[⟨3,1329227995784915872903807060280344576,[],[],0,0⟩],[⟨4,288230376151711744,[],[],0,0⟩],[⟨5,9671406556917033397649408,[],[],0,0⟩],[⟨6,83076749736557242056487941267521536,[],[],0,0⟩],[⟨7,2658455991569831745807614120560689152,[],[],0,0⟩],[⟨8,324518553658426726783156020576256,[],[],0,0⟩],[⟨9,2535301200456458802993406410752,[],[],0,0⟩],[⟨10,4611686018427387904,[],[(0,.emb .ret)],0,0⟩],[],[⟨11,4294983168,[],[(1,.setEnt (.own 0))],0,0⟩],[⟨13,4398046511104,[],[(2,.setEnt (.own 1))],0,2⟩],[⟨14,115792089237316195423570985008687907853269984665640564039457584007913129639935,[],[(2,.setEnt (.own 1))],0,2⟩,⟨15,4398046511104,[],[(2,.setEnt (.own 1))],0,2⟩],[⟨14,115792089237316195423570985008687907853269984665640564039457584007913129639935,[],[(2,.setEnt (.own 1))],0,2⟩,⟨15,4398046511104,[],[(2,.setEnt (.own 1))],0,2⟩],[⟨16,140737488355328,[],[(2,.setEnt (.own 1))],2,0⟩],[],[]],[none,none,none,none,none,none,none,none,none,none,some (0,[]),some (1,[]),none,none,none,none,some (2,[]),some (3,[])],[1,2,3,3]⟩
def emb9_masks : List Nat := [1152921504606846976,4294983168,140737488355328,115792089237316195423570985008687907853269984665640564039457584007908834656767,649037107316853453566312041152512,1329227995784915872903807060280344576,288230376151711744,9671406556917033397649408,83076749736557242056487941267521536,2658455991569831745807614120560689152,324518553658426726783156020576256,2535301200456458802993406410752,4611686018427387904,4398046511104,115792089237316195423570985008687907853269984665640564039457584007913129639935]
def emb9_cs : List (Nat × Nat) := [(0,115792089237316195423570985008687907853265912928812500887447567046257139499519),(9,4294967808),(10,1024),(11,2048),(12,4096),(13,8192),(42,4398046511104),(47,140737488355328),(58,288230376151711744),(60,1152921504606846976),(62,4611686018427387904),(83,9671406556917033397649408),(101,2535301200456458802993406410752),(108,324518553658426726783156020576256),(109,649037107316853453566312041152512),(116,83076749736557242056487941267521536),(120,1329227995784915872903807060280344576),(121,2658455991569831745807614120560689152)]
theorem emb9_masksIn : masksIn emb9_nfa emb9_masks = true := by decide +kernel
theorem emb9_repOk : repOk emb9_masks emb9_cs = true := by decide +kernel
def emb9_rows : List Row := [⟨[],none,[],[⟨256,.other,false,some ⟨0,[],some 3,true⟩⟩,⟨256,.ws,false,some ⟨1,[.setEnt (.own 0)],some 1,false⟩⟩,⟨256,.lf,false,some ⟨1,[.setEnt (.own 0)],some 1,false⟩⟩,⟨256,.vt,false,some ⟨1,[.setEnt (.own 0)],some 1,false⟩⟩,⟨256,.ff,false,some ⟨1,[.setEnt (.own 0)],some 1,false⟩⟩,⟨256,.cr,false,some ⟨1,[.setEnt (.own 0)],some 1,false⟩⟩,⟨256,.cr,true,some ⟨1,[.setEnt (.own 0)],some 1,false⟩⟩,⟨256,.other,false,some ⟨2,[.setEnt (.own 1)],some 3,false⟩⟩,⟨256,.other,false,some ⟨3,[],some 3,false⟩⟩]⟩,⟨[11],some 1,[],[⟨256,.other,false,none⟩,⟨256,.ws,false,some ⟨1,[.setEnt (.own 0)],some 1,false⟩⟩,⟨256,.lf,false,some ⟨1,[.setEnt (.own 0)],some 1,false⟩⟩,⟨256,.vt,false,some ⟨1,[.setEnt (.own 0)],some 1,false⟩⟩,⟨256,.ff,false,some ⟨1,[.setEnt (.own 0)],some 1,false⟩⟩,⟨256,.cr,false,some ⟨1,[.setEnt (.own 0)],some 1,false⟩⟩,⟨256,.cr,true,some ⟨1,[.setEnt (.own 0)],some 1,false⟩⟩]⟩,⟨[12,17],some 3,[],[⟨256,.other,false,none⟩,⟨256,.ws,false,none⟩,⟨256,.lf,false,none⟩,⟨256,.vt,false,none⟩,⟨256,.ff,false,none⟩,⟨256,.cr,false,none⟩,⟨256,.cr,true,none⟩,⟨256,.other,false,some ⟨4,[.setEnt (.own 1)],none,false⟩⟩]⟩,⟨[0,17],some 3,[],[⟨256,.other,false,none⟩,⟨256,.ws,false,none⟩,⟨256,.lf,false,none⟩,⟨256,.vt,false,none⟩,⟨256,.ff,false,none⟩,⟨256,.cr,false,none⟩,⟨256,.cr,true,none⟩,⟨256,.other,false,some ⟨5,[],none,false⟩⟩]⟩,⟨[13],none,[],[⟨256,.other,false,some ⟨6,[.setEnt (.own 1)],none,false⟩⟩,⟨256,.ws,false,some ⟨6,[.setEnt (.own 1)],none,false⟩⟩,⟨256,.lf,false,some ⟨6,[.setEnt (.own 1)],none,false⟩⟩,⟨256,.vt,false,some ⟨6,[.setEnt (.own 1)],none,false⟩⟩,⟨256,.ff,false,some ⟨6,[.setEnt (.own 1)],none,false⟩⟩,⟨256,.cr,false,some ⟨6,[.setEnt (.own 1)],none,false⟩⟩,⟨256,.cr,true,some ⟨6,[.setEnt (.own 1)],none,false⟩⟩,⟨256,.other,false,some ⟨7,[.setEnt (.own 1)],none,false⟩⟩]⟩,⟨[1],none,[],[⟨256,.other,false,none⟩,⟨256,.ws,false,none⟩,⟨256,.lf,false,none⟩,⟨256,.vt,false,none⟩,⟨256,.ff,false,none⟩,⟨256,.cr,false,none⟩,⟨256,.cr,true,none⟩,⟨256,.other,false,some ⟨8,[],none,false⟩⟩]⟩,⟨[14],none,[],[⟨256,.other,false,some ⟨6,[.setEnt (.own 1)],none,false⟩⟩,⟨256,.ws,false,some ⟨6,[.setEnt (.own 1)],none,false⟩⟩,⟨256,.lf,false,some ⟨6,[.setEnt (.own 1)],none,false⟩⟩,⟨256,.vt,false,some ⟨6,[.setEnt (.own 1)],none,false⟩⟩,⟨256,.ff,false,some ⟨6,[.setEnt (.own 1)],none,false⟩⟩,⟨256,.cr,false,some ⟨6,[.setEnt (.own 1)],none,false⟩⟩,⟨256,.cr,true,some ⟨6,[.setEnt (.own 1)],none,false⟩⟩,⟨256,.other,false,some ⟨7,[.setEnt (.own 1)],none,false⟩⟩]⟩,⟨[14,15],none,[],[⟨256,.other,false,some ⟨6,[.setEnt (.own 1)],none,false⟩⟩,⟨256,.ws,false,some ⟨6,[.setEnt (.own 1)],none,false⟩⟩,⟨256,.lf,false,some ⟨6,[.setEnt (.own 1)],none,false⟩⟩,⟨256,.vt,false,some ⟨6,[.setEnt (.own 1)],none,false⟩⟩,⟨256,.ff,false,some ⟨6,[.setEnt (.own 1)],none,false⟩⟩,⟨256,.cr,false,some ⟨6,[.setEnt (.own 1)],none,false⟩⟩,⟨256,.cr,true,some ⟨6,[.setEnt (.own 1)],none,false⟩⟩,⟨256,.other,false,some ⟨7,[.setEnt (.own 1)],none,false⟩⟩,⟨256,.other,false,some ⟨0,[.setEnt (.own 1)],some 2,true⟩⟩]⟩,⟨[2],none,[],[⟨256,.other,false,none⟩,⟨256,.ws,false,none⟩,⟨256,.lf,false,none⟩,⟨256,.vt,false,none⟩,⟨256,.ff,false,none⟩,⟨256,.cr,false,none⟩,⟨256,.cr,true,none⟩,⟨256,.other,false,some ⟨9,[],none,false⟩⟩]⟩,⟨[3],none,[],[⟨256,.other,false,none⟩,⟨256,.ws,false,none⟩,⟨256,.lf,false,none⟩,⟨256,.vt,false,none⟩,⟨256,.ff,false,none⟩,⟨256,.cr,false,none⟩,⟨256,.cr,true,none⟩,⟨256,.other,false,some ⟨10,[],none,false⟩⟩]⟩,⟨[4],none,[],[⟨256,.other,false,none⟩,⟨256,.ws,false,none⟩,⟨256,.lf,false,none⟩,⟨256,.vt,false,none⟩,⟨256,.ff,false,none⟩,⟨256,.cr,false,none⟩,⟨256,.cr,true,none⟩,⟨256,.other,false,some ⟨11,[],none,false⟩⟩]⟩,⟨[5],none,[],[⟨256,.other,false,none⟩,⟨256,.ws,false,none⟩,⟨256,.lf,false,none⟩,⟨256,.vt,false,none⟩,⟨256,.ff,false,none⟩,⟨256,.cr,false,none⟩,⟨256,.cr,true,none⟩,⟨256,.other,false,some ⟨12,[],none,false⟩⟩]⟩,⟨[6],none,[],[⟨256,.other,false,none⟩,⟨256,.ws,false,none⟩,⟨256,.lf,false,none⟩,⟨256,.vt,false,none⟩,⟨256,.ff,false,none⟩,⟨256,.cr,false,none⟩,⟨256,.cr,true,none⟩,⟨256,.other,false,some ⟨13,[],none,false⟩⟩]⟩,⟨[7],none,[],[⟨256,.other,false,none⟩,⟨256,.ws,false,none⟩,⟨256,.lf,false,none⟩,⟨256,.vt,false,none⟩,⟨256,.ff,false,none⟩,⟨256,.cr,false,none⟩,⟨256,.cr,true,none⟩,⟨256,.other,false,some ⟨14,[],none,false⟩⟩]⟩,⟨[8],none,[],[⟨256,.other,false,none⟩,⟨256,.ws,false,none⟩,⟨256,.lf,false,none⟩,⟨256,.vt,false,none⟩,⟨256,.ff,false,none⟩,⟨256,.cr,false,none⟩,⟨256,.cr,true,none⟩,⟨256,.other,false,some ⟨15,[],none,false⟩⟩]⟩,⟨[9],none,[],[⟨256,.other,false,none⟩,⟨256,.ws,false,none⟩,⟨256,.lf,false,none⟩,⟨256,.vt,false,none⟩,⟨256,.ff,false,none⟩,⟨256,.cr,false,none⟩,⟨256,.cr,true,none⟩,⟨256,.other,false,some ⟨0,[.emb .ret],some 0,true⟩⟩]⟩]
theorem emb9_rowsOk : rowsOk emb9_nfa [] (emb9_cs.map (·.1)) emb9_rows = true := by decide +kernel
def emb9_D : Dfa emb9_nfa := ⟨emb9_masks, [], emb9_cs, emb9_rows, emb9_masksIn, emb9_repOk, emb9_rowsOk⟩

/-- The automaton of `Emb.Mxml.mxml_entity`. -/
def emb11_nfa : Nfa := ⟨[⟨0,1152921504606846976,[],[],0,0⟩,⟨10,1152921504606846976,[],[],0,0⟩,⟨21,4294983168,[],[(0,.setEnt (.own 0))],0,0⟩,⟨22,1152921504606846976,[],[(1,.setEnt (.own 1))],0,2⟩,⟨30,115792089237316195423570985008687907853269984665640564039457584007908834656767,[],[],0,0⟩],[[⟨1,649037107316853453566312041152512,[],[],0,0⟩],[⟨2,1329227995784915872903807060280344576,[],[],0,0⟩],[⟨3,288230376151711744,[],[],0,0⟩],[⟨4,9671406556917033397649408,[],[],0,0⟩],[⟨5,83076749736557242056487941267521536,[],[],0,0⟩],[⟨6,2658455991569831745807614120560689152,[],[],0,0⟩],[⟨7,324518553658426726783156020576256,[],[],0,0⟩],[⟨8,2535301200456458802993406410752,[],[],0,0⟩],[⟨9,4611686018427387904,[],[],0,0⟩],[],[⟨11,649037107316853453566312041152512,[],[],0,0⟩],[⟨12,1329227995784915872903807060280344576,[],[],0,0⟩],[⟨13,288230376151711744,[],[],0,0⟩],[⟨14,9671406556917033397649408,[],[],0,0⟩],[⟨15,633825300114114700748351602688,[],[],0,0⟩],[⟨16,20769187434139310514121985316880384,[],[],0,0⟩],[⟨17,40564819207303340847894502572032,[],[],0,0⟩],[⟨18,5192296858534827628530496329220096,[],[],0,0⟩],[⟨19,83076749736557242056487941267521536,[],[],0,0⟩],[⟨20,4611686018427387904,[],[],0,0⟩],[],[⟨21,4294983168,[],[(0,.setEnt (.own 0))],0,0⟩],[⟨23,8589934592,[],[(1,.setEnt (.own 1))],0,2⟩],[⟨24,35184372088832,[],[(1,.setEnt (.own 1))],0,2⟩],[⟨25,35184372088832,[],[(1,.setEnt (.own 1))],0,2⟩],[⟨26,115792089237316195423570985008687907853269984665640564039457584007913129639935,[],[(1,.setEnt (.own 1))],0,2⟩,⟨27,35184372088832,[],[(1,.setEnt (.own 1))],0,2⟩],[⟨26,115792089237316195423570985008687907853269984665640564039457584007913129639935,[],[(1,.setEnt (.own 1))],0,2⟩,⟨27,35184372088832,[],[(1,.setEnt (.own 1))],0,2⟩],[⟨28,35184372088832,[],[(1,.setEnt (.own 1))],0,0⟩],[⟨29,4611686018427387904,[],[(1,.setEnt (.own 1))],2,0⟩],[],[]],[none,none,none,none,none,none,none,none,none,some (0,[]),none,none,none,none,none,none,none,none,none,none,some (1,[]),some (2,[]),none,none,none,none,none,none,none,some (3,[]),some (4,[])],[0,0,1,2,2]⟩
def emb11_masks : List Nat := [1152921504606846976,4294983168,115792089237316195423570985008687907853269984665640564039457584007908834656767,649037107316853453566312041152512,1329227995784915872903807060280344576,288230376151711744,9671406556917033397649408,83076749736557242056487941267521536,2658455991569831745807614120560689152,324518553658426726783156020576256,2535301200456458802993406410752,4611686018427387904,633825300114114700748351602688,20769187434139310514121985316880384,40564819207303340847894502572032,5192296858534827628530496329220096,8589934592,35184372088832,115792089237316195423570985008687907853269984665640564039457584007913129639935]
def emb11_cs : List (Nat × Nat) := [(0,115792089237316195423570985008687907853265886926129563705891968955075212067327),(9,4294967808),(10,1024),(11,2048),(12,4096),(13,8192),(33,8589934592),(45,35184372088832),(58,288230376151711744),(60,1152921504606846976),(62,4611686018427387904),(83,9671406556917033397649408),(99,633825300114114700748351602688),(101,2535301200456458802993406410752),(105,40564819207303340847894502572032),(108,324518553658426726783156020576256),(109,649037107316853453566312041152512),(112,5192296858534827628530496329220096),(114,20769187434139310514121985316880384),(116,83076749736557242056487941267521536),(120,1329227995784915872903807060280344576),(121,2658455991569831745807614120560689152)]
theorem emb11_masksIn : masksIn emb11_nfa emb11_masks = true := by decide +kernel
theorem emb11_repOk : repOk emb11_masks emb11_cs = true := by decide +kernel
def emb11_rows : List Row := [⟨[],none,[],[⟨256,.other,false,some ⟨0,[],some 4,true⟩⟩,⟨256,.ws,false,some ⟨1,[.setEnt (.own 0)],some 2,false⟩⟩,⟨256,.lf,false,some ⟨1,[.setEnt (.own 0)],some 2,false⟩⟩,⟨256,.vt,false,some ⟨1,[.setEnt (.own 0)],some 2,false⟩⟩,⟨256,.ff,false,some ⟨1,[.setEnt (.own 0)],some 2,false⟩⟩,⟨256,.cr,false,some ⟨1,[.setEnt (.own 0)],some 2,false⟩⟩,⟨256,.cr,true,some ⟨1,[.setEnt (.own 0)],some 2,false⟩⟩,⟨256,.other,false,some ⟨2,[.setEnt (.own 1)],some 4,false⟩⟩]⟩,⟨[21],some 2,[],[⟨256,.other,false,none⟩,⟨256,.ws,false,some ⟨1,[.setEnt (.own 0)],some 2,false⟩⟩,⟨256,.lf,false,some ⟨1,[.setEnt (.own 0)],some 2,false⟩⟩,⟨256,.vt,false,some ⟨1,[.setEnt (.own 0)],some 2,false⟩⟩,⟨256,.ff,false,some ⟨1,[.setEnt (.own 0)],some 2,false⟩⟩,⟨256,.cr,false,some ⟨1,[.setEnt (.own 0)],some 2,false⟩⟩,⟨256,.cr,true,some ⟨1,[.setEnt (.own 0)],some 2,false⟩⟩]⟩,⟨[0,10,22,30],some 4,[],[⟨256,.other,false,none⟩,⟨256,.ws,false,none⟩,⟨256,.lf,false,none⟩,⟨256,.vt,false,none⟩,⟨256,.ff,false,none⟩,⟨256,.cr,false,none⟩,⟨256,.cr,true,none⟩,⟨256,.other,false,some ⟨3,[.setEnt (.own 1)],none,false⟩⟩,⟨256,.other,false,some ⟨4,[],none,false⟩⟩]⟩,⟨[23],none,[],[⟨256,.other,false,none⟩,⟨256,.ws,false,none⟩,⟨256,.lf,false,none⟩,⟨256,.vt,false,none⟩,⟨256,.ff,false,none⟩,⟨256,.cr,false,none⟩,⟨256,.cr,true,none⟩,⟨256,.other,false,some ⟨5,[.setEnt (.own 1)],none,false⟩⟩]⟩,⟨[1,11],none,[],[⟨256,.other,false,none⟩,⟨256,.ws,false,none⟩,⟨256,.lf,false,none⟩,⟨256,.vt,false,none⟩,⟨256,.ff,false,none⟩,⟨256,.cr,false,none⟩,⟨256,.cr,true,none⟩,⟨256,.other,false,some ⟨6,[],none,false⟩⟩]⟩,⟨[24],none,[],[⟨256,.other,false,none⟩,⟨256,.ws,false,none⟩,⟨256,.lf,false,none⟩,⟨256,.vt,false,none⟩,⟨256,.ff,false,none⟩,⟨256,.cr,false,none⟩,⟨256,.cr,true,none⟩,⟨256,.other,false,some ⟨7,[.setEnt (.own 1)],none,false⟩⟩]⟩,⟨[2,12],none,[],[⟨256,.other,false,none⟩,⟨256,.ws,false,none⟩,⟨256,.lf,false,none⟩,⟨256,.vt,false,none⟩,⟨256,.ff,false,none⟩,⟨256,.cr,false,none⟩,⟨256,.cr,true,none⟩,⟨256,.other,false,some ⟨8,[],none,false⟩⟩]⟩,⟨[25],none,[],[⟨256,.other,false,some ⟨9,[.setEnt (.own 1)],none,false⟩⟩,⟨256,.ws,false,some ⟨9,[.setEnt (.own 1)],none,false⟩⟩,⟨256,.lf,false,some ⟨9,[.setEnt (.own 1)],none,false⟩⟩,⟨256,.vt,false,some ⟨9,[.setEnt (.own 1)],none,false⟩⟩,⟨256,.ff,false,some ⟨9,[.setEnt (.own 1)],none,false⟩⟩,⟨256,.cr,false,some ⟨9,[.setEnt (.own 1)],none,false⟩⟩,⟨256,.cr,true,some ⟨9,[.setEnt (.own 1)],none,false⟩⟩,⟨256,.other,false,some ⟨10,[.setEnt (.own 1)],none,false⟩⟩]⟩,⟨[3,13],none,[],[⟨256,.other,false,none⟩,⟨256,.ws,false,none⟩,⟨256,.lf,false,none⟩,⟨256,.vt,false,none⟩,⟨256,.ff,false,none⟩,⟨256,.cr,false,none⟩,⟨256,.cr,true,none⟩,⟨256,.other,false,some ⟨11,[],none,false⟩⟩]⟩,⟨[26],none,[],[⟨256,.other,false,some ⟨9,[.setEnt (.own 1)],none,false⟩⟩,⟨256,.ws,false,some ⟨9,[.setEnt (.own 1)],none,false⟩⟩,⟨256,.lf,false,some ⟨9,[.setEnt (.own 1)],none,false⟩⟩,⟨256,.vt,false,some ⟨9,[.setEnt (.own 1)],none,false⟩⟩,⟨256,.ff,false,some ⟨9,[.setEnt (.own 1)],none,false⟩⟩,⟨256,.cr,false,some ⟨9,[.setEnt (.own 1)],none,false⟩⟩,⟨256,.cr,true,some ⟨9,[.setEnt (.own 1)],none,false⟩⟩,⟨256,.other,false,some ⟨10,[.setEnt (.own 1)],none,false⟩⟩]⟩,⟨[26,27],none,[],[⟨256,.other,false,some ⟨9,[.setEnt (.own 1)],none,false⟩⟩,⟨256,.ws,false,some ⟨9,[.setEnt (.own 1)],none,false⟩⟩,⟨256,.lf,false,some ⟨9,[.setEnt (.own 1)],none,false⟩⟩,⟨256,.vt,false,some ⟨9,[.setEnt (.own 1)],none,false⟩⟩,⟨256,.ff,false,some ⟨9,[.setEnt (.own 1)],none,false⟩⟩,⟨256,.cr,false,some ⟨9,[.setEnt (.own 1)],none,false⟩⟩,⟨256,.cr,true,some ⟨9,[.setEnt (.own 1)],none,false⟩⟩,⟨256,.other,false,some ⟨12,[.setEnt (.own 1)],none,false⟩⟩]⟩,⟨[4,14],none,[],[⟨256,.other,false,none⟩,⟨256,.ws,false,none⟩,⟨256,.lf,false,none⟩,⟨256,.vt,false,none⟩,⟨256,.ff,false,none⟩,⟨256,.cr,false,none⟩,⟨256,.cr,true,none⟩,⟨256,.other,false,some ⟨13,[],none,false⟩⟩,⟨256,.other,false,some ⟨14,[],none,false⟩⟩]⟩,⟨[26,27,28],none,[],[⟨256,.other,false,some ⟨9,[.setEnt (.own 1)],none,false⟩⟩,⟨256,.ws,false,some ⟨9,[.setEnt (.own 1)],none,false⟩⟩,⟨256,.lf,false,some ⟨9,[.setEnt (.own 1)],none,false⟩⟩,⟨256,.vt,false,some ⟨9,[.setEnt (.own 1)],none,false⟩⟩,⟨256,.ff,false,some ⟨9,[.setEnt (.own 1)],none,false⟩⟩,⟨256,.cr,false,some ⟨9,[.setEnt (.own 1)],none,false⟩⟩,⟨256,.cr,true,some ⟨9,[.setEnt (.own 1)],none,false⟩⟩,⟨256,.other,false,some ⟨12,[.setEnt (.own 1)],none,false⟩⟩,⟨256,.other,false,some ⟨0,[.setEnt (.own 1)],some 3,true⟩⟩]⟩,⟨[15],none,[],[⟨256,.other,false,none⟩,⟨256,.ws,false,none⟩,⟨256,.lf,false,none⟩,⟨256,.vt,false,none⟩,⟨256,.ff,false,none⟩,⟨256,.cr,false,none⟩,⟨256,.cr,true,none⟩,⟨256,.other,false,some ⟨15,[],none,false⟩⟩]⟩,⟨[5],none,[],[⟨256,.other,false,none⟩,⟨256,.ws,false,none⟩,⟨256,.lf,false,none⟩,⟨256,.vt,false,none⟩,⟨256,.ff,false,none⟩,⟨256,.cr,false,none⟩,⟨256,.cr,true,none⟩,⟨256,.other,false,some ⟨16,[],none,false⟩⟩]⟩,⟨[16],none,[],[⟨256,.other,false,none⟩,⟨256,.ws,false,none⟩,⟨256,.lf,false,none⟩,⟨256,.vt,false,none⟩,⟨256,.ff,false,none⟩,⟨256,.cr,false,none⟩,⟨256,.cr,true,none⟩,⟨256,.other,false,some ⟨17,[],none,false⟩⟩]⟩,⟨[6],none,[],[⟨256,.other,false,none⟩,⟨256,.ws,false,none⟩,⟨256,.lf,false,none⟩,⟨256,.vt,false,none⟩,⟨256,.ff,false,none⟩,⟨256,.cr,false,none⟩,⟨256,.cr,true,none⟩,⟨256,.other,false,some ⟨18,[],none,false⟩⟩]⟩,⟨[17],none,[],[⟨256,.other,false,none⟩,⟨256,.ws,false,none⟩,⟨256,.lf,false,none⟩,⟨256,.vt,false,none⟩,⟨256,.ff,false,none⟩,⟨256,.cr,false,none⟩,⟨256,.cr,true,none⟩,⟨256,.other,false,some ⟨19,[],none,false⟩⟩]⟩,⟨[7],none,[],[⟨256,.other,false,none⟩,⟨256,.ws,false,none⟩,⟨256,.lf,false,none⟩,⟨256,.vt,false,none⟩,⟨256,.ff,false,none⟩,⟨256,.cr,false,none⟩,⟨256,.cr,true,none⟩,⟨256,.other,false,some ⟨20,[],none,false⟩⟩]⟩,⟨[18],none,[],[⟨256,.other,false,none⟩,⟨256,.ws,false,none⟩,⟨256,.lf,false,none⟩,⟨256,.vt,false,none⟩,⟨256,.ff,false,none⟩,⟨256,.cr,false,none⟩,⟨256,.cr,true,none⟩,⟨256,.other,false,some ⟨21,[],none,false⟩⟩]⟩,⟨[8],none,[],[⟨256,.other,false,none⟩,⟨256,.ws,false,none⟩,⟨256,.lf,false,none⟩,⟨256,.vt,false,none⟩,⟨256,.ff,false,none⟩,⟨256,.cr,false,none⟩,⟨256,.cr,true,none⟩,⟨256,.other,false,some ⟨0,[],some 0,true⟩⟩]⟩,⟨[19],none,[],[⟨256,.other,false,none⟩,⟨256,.ws,false,none⟩,⟨256,.lf,false,none⟩,⟨256,.vt,false,none⟩,⟨256,.ff,false,none⟩,⟨256,.cr,false,none⟩,⟨256,.cr,true,none⟩,⟨256,.other,false,some ⟨0,[],some 1,true⟩⟩]⟩]
theorem emb11_rowsOk : rowsOk emb11_nfa [] (emb11_cs.map (·.1)) emb11_rows = true := by decide +kernel
def emb11_D : Dfa emb11_nfa := ⟨emb11_masks, [], emb11_cs, emb11_rows, emb11_masksIn, emb11_repOk, emb11_rowsOk⟩

/-- The automaton of `Emb.Nix.nix_dq_shell_line`. -/
def emb12_nfa : Nfa := ⟨[⟨0,17179869184,[],[(0,.emb .outry),(1,.code),(2,.emb .back)],0,0⟩,⟨1,4294967808,[],[(3,.setEnt (.own 0))],0,0⟩,⟨2,34359738368,[],[(4,.comment)],0,0⟩,⟨4,549755813888,[],[(5,.enqueue),(6,.code)],0,0⟩,⟨21,17179869184,[],[(14,.enqueue),(15,.code)],0,0⟩,⟨38,8192,[],[(23,.setEnt .newline)],0,0⟩,⟨40,1024,[],[(23,.setEnt .newline)],0,0⟩,⟨41,4096,[],[(23,.setEnt .newline)],0,0⟩,⟨42,8192,[.crAlone],[(23,.setEnt .newline)],0,0⟩,⟨43,115792089237316195423570985008687907853269984665640564039457584007908834656767,[],[(24,.setEnt (.own 3))],0,0⟩],[[],[⟨1,4294967808,[],[(3,.setEnt (.own 0))],0,0⟩],[⟨3,115792089237316195423570985008687907853269984665640564039457584007913129626623,[],[],0,0⟩],[⟨3,115792089237316195423570985008687907853269984665640564039457584007913129626623,[],[],0,0⟩],[⟨5,8192,[],[],0,0⟩,⟨7,1024,[],[],0,0⟩,⟨8,4096,[],[],0,0⟩,⟨9,8192,[.crAlone],[],0,0⟩,⟨10,4951760157141521099596496896,[],[],0,0⟩,⟨16,4294967808,[],[],0,0⟩,⟨17,115792089237316195423570985008687907853269984665635612279300442486259482348031,[],[(11,.code)],0,0⟩,⟨18,4951760157141521099596496896,[],[],0,0⟩,⟨20,549755813888,[],[(13,.commit)],0,0⟩],[⟨6,1024,[],[],0,0⟩],[⟨5,8192,[],[(7,.setEnt .internalNl),(8,.emb (.cb 1))],0,0⟩,⟨7,1024,[],[(7,.setEnt .internalNl),(8,.emb (.cb 1))],0,0⟩,⟨8,4096,[],[(7,.setEnt .internalNl),(8,.emb (.cb 1))],0,0⟩,⟨9,8192,[.crAlone],[(7,.setEnt .internalNl),(8,.emb (.cb 1))],0,0⟩,⟨10,4951760157141521099596496896,[],[(7,.setEnt .internalNl),(8,.emb (.cb 1))],0,0⟩,⟨16,4294967808,[],[(7,.setEnt .internalNl),(8,.emb (.cb 1))],0,0⟩,⟨17,115792089237316195423570985008687907853269984665635612279300442486259482348031,[],[(7,.setEnt .internalNl),(8,.emb (.cb 1)),(11,.code)],0,0⟩,⟨18,4951760157141521099596496896,[],[(7,.setEnt .internalNl),(8,.emb (.cb 1))],0,0⟩,⟨20,549755813888,[],[(7,.setEnt .internalNl),(8,.emb (.cb 1)),(13,.commit)],0,0⟩],[⟨5,8192,[],[(7,.setEnt .internalNl),(8,.emb (.cb 1))],0,0⟩,⟨7,1024,[],[(7,.setEnt .internalNl),(8,.emb (.cb 1))],0,0⟩,⟨8,4096,[],[(7,.setEnt .internalNl),(8,.emb (.cb 1))],0,0⟩,⟨9,8192,[.crAlone],[(7,.setEnt .internalNl),(8,.emb (.cb 1))],0,0⟩,⟨10,4951760157141521099596496896,[],[(7,.setEnt .internalNl),(8,.emb (.cb 1))],0,0⟩,⟨16,4294967808,[],[(7,.setEnt .internalNl),(8,.emb (.cb 1))],0,0⟩,⟨17,115792089237316195423570985008687907853269984665635612279300442486259482348031,[],[(7,.setEnt .internalNl),(8,.emb (.cb 1)),(11,.code)],0,0⟩,⟨18,4951760157141521099596496896,[],[(7,.setEnt .internalNl),(8,.emb (.cb 1))],0,0⟩,⟨20,549755813888,[],[(7,.setEnt .internalNl),(8,.emb (.cb 1)),(13,.commit)],0,0⟩],[⟨5,8192,[],[(7,.setEnt .internalNl),(8,.emb (.cb 1))],0,0⟩,⟨7,1024,[],[(7,.setEnt .internalNl),(8,.emb (.cb 1))],0,0⟩,⟨8,4096,[],[(7,.setEnt .internalNl),(8,.emb (.cb 1))],0,0⟩,⟨9,8192,[.crAlone],[(7,.setEnt .internalNl),(8,.emb (.cb 1))],0,0⟩,⟨10,4951760157141521099596496896,[],[(7,.setEnt .internalNl),(8,.emb (.cb 1))],0,0⟩,⟨16,4294967808,[],[(7,.setEnt .internalNl),(8,.emb (.cb 1))],0,0⟩,⟨17,115792089237316195423570985008687907853269984665635612279300442486259482348031,[],[(7,.setEnt .internalNl),(8,.emb (.cb 1)),(11,.code)],0,0⟩,⟨18,4951760157141521099596496896,[],[(7,.setEnt .internalNl),(8,.emb (.cb 1))],0,0⟩,⟨20,549755813888,[],[(7,.setEnt .internalNl),(8,.emb (.cb 1)),(13,.commit)],0,0⟩],[⟨5,8192,[],[(7,.setEnt .internalNl),(8,.emb (.cb 1))],0,0⟩,⟨7,1024,[],[(7,.setEnt .internalNl),(8,.emb (.cb 1))],0,0⟩,⟨8,4096,[],[(7,.setEnt .internalNl),(8,.emb (.cb 1))],0,0⟩,⟨9,8192,[.crAlone],[(7,.setEnt .internalNl),(8,.emb (.cb 1))],0,0⟩,⟨10,4951760157141521099596496896,[],[(7,.setEnt .internalNl),(8,.emb (.cb 1))],0,0⟩,⟨16,4294967808,[],[(7,.setEnt .internalNl),(8,.emb (.cb 1))],0,0⟩,⟨17,115792089237316195423570985008687907853269984665635612279300442486259482348031,[],[(7,.setEnt .internalNl),(8,.emb (.cb 1)),(11,.code)],0,0⟩,⟨18,4951760157141521099596496896,[],[(7,.setEnt .internalNl),(8,.emb (.cb 1))],0,0⟩,⟨20,549755813888,[],[(7,.setEnt .internalNl),(8,.emb (.cb 1)),(13,.commit)],0,0⟩],[⟨11,8192,[],[],0,0⟩,⟨13,1024,[],[],0,0⟩,⟨14,4096,[],[],0,0⟩,⟨15,8192,[.crAlone],[],0,0⟩],[⟨12,1024,[],[],0,0⟩],[⟨5,8192,[],[(9,.setEnt .internalNl),(10,.emb (.cb 1))],0,0⟩,⟨7,1024,[],[(9,.setEnt .internalNl),(10,.emb (.cb 1))],0,0⟩,⟨8,4096,[],[(9,.setEnt .internalNl),(10,.emb (.cb 1))],0,0⟩,⟨9,8192,[.crAlone],[(9,.setEnt .internalNl),(10,.emb (.cb 1))],0,0⟩,⟨10,4951760157141521099596496896,[],[(9,.setEnt .internalNl),(10,.emb (.cb 1))],0,0⟩,⟨16,4294967808,[],[(9,.setEnt .internalNl),(10,.emb (.cb 1))],0,0⟩,⟨17,115792089237316195423570985008687907853269984665635612279300442486259482348031,[],[(9,.setEnt .internalNl),(10,.emb (.cb 1)),(11,.code)],0,0⟩,⟨18,4951760157141521099596496896,[],[(9,.setEnt .internalNl),(10,.emb (.cb 1))],0,0⟩,⟨20,549755813888,[],[(9,.setEnt .internalNl),(10,.emb (.cb 1)),(13,.commit)],0,0⟩],[⟨5,8192,[],[(9,.setEnt .internalNl),(10,.emb (.cb 1))],0,0⟩,⟨7,1024,[],[(9,.setEnt .internalNl),(10,.emb (.cb 1))],0,0⟩,⟨8,4096,[],[(9,.setEnt .internalNl),(10,.emb (.cb 1))],0,0⟩,⟨9,8192,[.crAlone],[(9,.setEnt .internalNl),(10,.emb (.cb 1))],0,0⟩,⟨10,4951760157141521099596496896,[],[(9,.setEnt .internalNl),(10,.emb (.cb 1))],0,0⟩,⟨16,4294967808,[],[(9,.setEnt .internalNl),(10,.emb (.cb 1))],0,0⟩,⟨17,115792089237316195423570985008687907853269984665635612279300442486259482348031,[],[(9,.setEnt .internalNl),(10,.emb (.cb 1)),(11,.code)],0,0⟩,⟨18,4951760157141521099596496896,[],[(9,.setEnt .internalNl),(10,.emb (.cb 1))],0,0⟩,⟨20,549755813888,[],[(9,.setEnt .internalNl),(10,.emb (.cb 1)),(13,.commit)],0,0⟩],[⟨5,8192,[],[(9,.setEnt .internalNl),(10,.emb (.cb 1))],0,0⟩,⟨7,1024,[],[(9,.setEnt .internalNl),(10,.emb (.cb 1))],0,0⟩,⟨8,4096,[],[(9,.setEnt .internalNl),(10,.emb (.cb 1))],0,0⟩,⟨9,8192,[.crAlone],[(9,.setEnt .internalNl),(10,.emb (.cb 1))],0,0⟩,⟨10,4951760157141521099596496896,[],[(9,.setEnt .internalNl),(10,.emb (.cb 1))],0,0⟩,⟨16,4294967808,[],[(9,.setEnt .internalNl),(10,.emb (.cb 1))],0,0⟩,⟨17,115792089237316195423570985008687907853269984665635612279300442486259482348031,[],[(9,.setEnt .internalNl),(10,.emb (.cb 1)),(11,.code)],0,0⟩,⟨18,4951760157141521099596496896,[],[(9,.setEnt .internalNl),(10,.emb (.cb 1))],0,0⟩,⟨20,549755813888,[],[(9,.setEnt .internalNl),(10,.emb (.cb 1)),(13,.commit)],0,0⟩],[⟨5,8192,[],[(9,.setEnt .internalNl),(10,.emb (.cb 1))],0,0⟩,⟨7,1024,[],[(9,.setEnt .internalNl),(10,.emb (.cb 1))],0,0⟩,⟨8,4096,[],[(9,.setEnt .internalNl),(10,.emb (.cb 1))],0,0⟩,⟨9,8192,[.crAlone],[(9,.setEnt .internalNl),(10,.emb (.cb 1))],0,0⟩,⟨10,4951760157141521099596496896,[],[(9,.setEnt .internalNl),(10,.emb (.cb 1))],0,0⟩,⟨16,4294967808,[],[(9,.setEnt .internalNl),(10,.emb (.cb 1))],0,0⟩,⟨17,115792089237316195423570985008687907853269984665635612279300442486259482348031,[],[(9,.setEnt .internalNl),(10,.emb (.cb 1)),(11,.code)],0,0⟩,⟨18,4951760157141521099596496896,[],[(9,.setEnt .internalNl),(10,.emb (.cb 1))],0,0⟩,⟨20,549755813888,[],[(9,.setEnt .internalNl),(10,.emb (.cb 1)),(13,.commit)],0,0⟩],[⟨5,8192,[],[],0,0⟩,⟨7,1024,[],[],0,0⟩,⟨8,4096,[],[],0,0⟩,⟨9,8192,[.crAlone],[],0,0⟩,⟨10,4951760157141521099596496896,[],[],0,0⟩,⟨16,4294967808,[],[],0,0⟩,⟨17,115792089237316195423570985008687907853269984665635612279300442486259482348031,[],[(11,.code)],0,0⟩,⟨18,4951760157141521099596496896,[],[],0,0⟩,⟨20,549755813888,[],[(13,.commit)],0,0⟩],[⟨5,8192,[],[],0,0⟩,⟨7,1024,[],[],0,0⟩,⟨8,4096,[],[],0,0⟩,⟨9,8192,[.crAlone],[],0,0⟩,⟨10,4951760157141521099596496896,[],[],0,0⟩,⟨16,4294967808,[],[],0,0⟩,⟨17,115792089237316195423570985008687907853269984665635612279300442486259482348031,[],[(11,.code)],0,0⟩,⟨18,4951760157141521099596496896,[],[],0,0⟩,⟨20,549755813888,[],[(13,.commit)],0,0⟩],[⟨19,115792089237316195423570985008687907853269984665640564039457584007913129626623,[],[(12,.code)],0,0⟩],[⟨5,8192,[],[],0,0⟩,⟨7,1024,[],[],0,0⟩,⟨8,4096,[],[],0,0⟩,⟨9,8192,[.crAlone],[],0,0⟩,⟨10,4951760157141521099596496896,[],[],0,0⟩,⟨16,4294967808,[],[],0,0⟩,⟨17,115792089237316195423570985008687907853269984665635612279300442486259482348031,[],[(11,.code)],0,0⟩,⟨18,4951760157141521099596496896,[],[],0,0⟩,⟨20,549755813888,[],[(13,.commit)],0,0⟩],[],[⟨22,8192,[],[],0,0⟩,⟨24,1024,[],[],0,0⟩,⟨25,4096,[],[],0,0⟩,⟨26,8192,[.crAlone],[],0,0⟩,⟨27,4951760157141521099596496896,[],[],0,0⟩,⟨33,4294967808,[],[],0,0⟩,⟨34,115792089237316195423570985008687907853269984665635612279300442486792058292735,[],[(20,.code)],0,0⟩,⟨35,4951760157141521099596496896,[],[],0,0⟩,⟨37,17179869184,[],[(22,.commit)],0,0⟩],[⟨23,1024,[],[],0,0⟩],[⟨22,8192,[],[(16,.setEnt .internalNl),(17,.emb (.cb 1))],0,0⟩,⟨24,1024,[],[(16,.setEnt .internalNl),(17,.emb (.cb 1))],0,0⟩,⟨25,4096,[],[(16,.setEnt .internalNl),(17,.emb (.cb 1))],0,0⟩,⟨26,8192,[.crAlone],[(16,.setEnt .internalNl),(17,.emb (.cb 1))],0,0⟩,⟨27,4951760157141521099596496896,[],[(16,.setEnt .internalNl),(17,.emb (.cb 1))],0,0⟩,⟨33,4294967808,[],[(16,.setEnt .internalNl),(17,.emb (.cb 1))],0,0⟩,⟨34,115792089237316195423570985008687907853269984665635612279300442486792058292735,[],[(16,.setEnt .internalNl),(17,.emb (.cb 1)),(20,.code)],0,0⟩,⟨35,4951760157141521099596496896,[],[(16,.setEnt .internalNl),(17,.emb (.cb 1))],0,0⟩,⟨37,17179869184,[],[(16,.setEnt .internalNl),(17,.emb (.cb 1)),(22,.commit)],0,0⟩],[⟨22,8192,[],[(16,.setEnt .internalNl),(17,.emb (.cb 1))],0,0⟩,⟨24,1024,[],[(16,.setEnt .internalNl),(17,.emb (.cb 1))],0,0⟩,⟨25,4096,[],[(16,.setEnt .internalNl),(17,.emb (.cb 1))],0,0⟩,⟨26,8192,[.crAlone],[(16,.setEnt .internalNl),(17,.emb (.cb 1))],0,0⟩,⟨27,4951760157141521099596496896,[],[(16,.setEnt .internalNl),(17,.emb (.cb 1))],0,0⟩,⟨33,4294967808,[],[(16,.setEnt .internalNl),(17,.emb (.cb 1))],0,0⟩,⟨34,115792089237316195423570985008687907853269984665635612279300442486792058292735,[],[(16,.setEnt .internalNl),(17,.emb (.cb 1)),(20,.code)],0,0⟩,⟨35,4951760157141521099596496896,[],[(16,.setEnt .internalNl),(17,.emb (.cb 1))],0,0⟩,⟨37,17179869184,[],[(16,.setEnt .internalNl),(17,.emb (.cb 1)),(22,.commit)],0,0⟩],[⟨22,8192,[],[(16,.setEnt .internalNl),(17,.emb (.cb 1))],0,0⟩,⟨24,1024,[],[(16,.setEnt .internalNl),(17,.emb (.cb 1))],0,0⟩,⟨25,4096,[],[(16,.setEnt .internalNl),(17,.emb (.cb 1))],0,0⟩,⟨26,8192,[.crAlone],[(16,.setEnt .internalNl),(17,.emb (.cb 1))],0,0⟩,⟨27,4951760157141521099596496896,[],[(16,.setEnt .internalNl),(17,.emb (.cb 1))],0,0⟩,⟨33,4294967808,[],[(16,.setEnt .internalNl),(17,.emb (.cb 1))],0,0⟩,⟨34,115792089237316195423570985008687907853269984665635612279300442486792058292735,[],[(16,.setEnt .internalNl),(17,.emb (.cb 1)),(20,.code)],0,0⟩,⟨35,4951760157141521099596496896,[],[(16,.setEnt .internalNl),(17,.emb (.cb 1))],0,0⟩,⟨37,17179869184,[],[(16,.setEnt .internalNl),(17,.emb (.cb 1)),(22,.commit)],0,0⟩],[⟨22,8192,[],[(16,.setEnt .internalNl),(17,.emb (.cb 1))],0,0⟩,⟨24,1024,[],[(16,.setEnt .internalNl),(17,.emb (.cb 1))],0,0⟩,⟨25,4096,[],[(16,.setEnt .internalNl),(17,.emb (.cb 1))],0,0⟩,⟨26,8192,[.crAlone],[(16,.setEnt .internalNl),(17,.emb (.cb 1))],0,0⟩,⟨27,4951760157141521099596496896,[],[(16,.setEnt .internalNl),(17,.emb (.cb 1))],0,0⟩,⟨33,4294967808,[],[(16,.setEnt .internalNl),(17,.emb (.cb 1))],0,0⟩,⟨34,115792089237316195423570985008687907853269984665635612279300442486792058292735,[],[(16,.setEnt .internalNl),(17,.emb (.cb 1)),(20,.code)],0,0⟩,⟨35,4951760157141521099596496896,[],[(16,.setEnt .internalNl),(17,.emb (.cb 1))],0,0⟩,⟨37,17179869184,[],[(16,.setEnt .internalNl),(17,.emb (.cb 1)),(22,.commit)],0,0⟩],[⟨28,8192,[],[],0,0⟩,⟨30,1024,[],[],0,0⟩,⟨31,4096,[],[],0,0⟩,⟨32,8192,[.crAlone],[],0,0⟩],[⟨29,1024,[],[],0,0⟩],[⟨22,8192,[],[(18,.setEnt .internalNl),(19,.emb (.cb 1))],0,0⟩,⟨24,1024,[],[(18,.setEnt .internalNl),(19,.emb (.cb 1))],0,0⟩,⟨25,4096,[],[(18,.setEnt .internalNl),(19,.emb (.cb 1))],0,0⟩,⟨26,8192,[.crAlone],[(18,.setEnt .internalNl),(19,.emb (.cb 1))],0,0⟩,⟨27,4951760157141521099596496896,[],[(18,.setEnt .internalNl),(19,.emb (.cb 1))],0,0⟩,⟨33,4294967808,[],[(18,.setEnt .internalNl),(19,.emb (.cb 1))],0,0⟩,⟨34,115792089237316195423570985008687907853269984665635612279300442486792058292735,[],[(18,.setEnt .internalNl),(19,.emb (.cb 1)),(20,.code)],0,0⟩,⟨35,4951760157141521099596496896,[],[(18,.setEnt .internalNl),(19,.emb (.cb 1))],0,0⟩,⟨37,17179869184,[],[(18,.setEnt .internalNl),(19,.emb (.cb 1)),(22,.commit)],0,0⟩],[⟨22,8192,[],[(18,.setEnt .internalNl),(19,.emb (.cb 1))],0,0⟩,⟨24,1024,[],[(18,.setEnt .internalNl),(19,.emb (.cb 1))],0,0⟩,⟨25,4096,[],[(18,.setEnt .internalNl),(19,.emb (.cb 1))],0,0⟩,⟨26,8192,[.crAlone],[(18,.setEnt .internalNl),(19,.emb (.cb 1))],0,0⟩,⟨27,4951760157141521099596496896,[],[(18,.setEnt .internalNl),(19,.emb (.cb 1))],0,0⟩,⟨33,4294967808,[],[(18,.setEnt .internalNl),(19,.emb (.cb 1))],0,0⟩,⟨34,115792089237316195423570985008687907853269984665635612279300442486792058292735,[],[(18,.setEnt .internalNl),(19,.emb (.cb 1)),(20,.code)],0,0⟩,⟨35,4951760157141521099596496896,[],[(18,.setEnt .internalNl),(19,.emb (.cb 1))],0,0⟩,⟨37,17179869184,[],[(18,.setEnt .internalNl),(19,.emb (.cb 1)),(22,.commit)],0,0⟩],[⟨22,8192,[],[(18,.setEnt .internalNl),(19,.emb (.cb 1))],0,0⟩,⟨24,1024,[],[(18,.setEnt .internalNl),(19,.emb (.cb 1))],0,0⟩,⟨25,4096,[],[(18,.setEnt .internalNl),(19,.emb (.cb 1))],0,0⟩,⟨26,8192,[.crAlone],[(18,.setEnt .internalNl),(19,.emb (.cb 1))],0,0⟩,⟨27,4951760157141521099596496896,[],[(18,.setEnt .internalNl),(19,.emb (.cb 1))],0,0⟩,⟨33,4294967808,[],[(18,.setEnt .internalNl),(19,.emb (.cb 1))],0,0⟩,⟨34,115792089237316195423570985008687907853269984665635612279300442486792058292735,[],[(18,.setEnt .internalNl),(19,.emb (.cb 1)),(20,.code)],0,0⟩,⟨35,4951760157141521099596496896,[],[(18,.setEnt .internalNl),(19,.emb (.cb 1))],0,0⟩,⟨37,17179869184,[],[(18,.setEnt .internalNl),(19,.emb (.cb 1)),(22,.commit)],0,0⟩],[⟨22,8192,[],[(18,.setEnt .internalNl),(19,.emb (.cb 1))],0,0⟩,⟨24,1024,[],[(18,.setEnt .internalNl),(19,.emb (.cb 1))],0,0⟩,⟨25,4096,[],[(18,.setEnt .internalNl),(19,.emb (.cb 1))],0,0⟩,⟨26,8192,[.crAlone],[(18,.setEnt .internalNl),(19,.emb (.cb 1))],0,0⟩,⟨27,4951760157141521099596496896,[],[(18,.setEnt .internalNl),(19,.emb (.cb 1))],0,0⟩,⟨33,4294967808,[],[(18,.setEnt .internalNl),(19,.emb (.cb 1))],0,0⟩,⟨34,115792089237316195423570985008687907853269984665635612279300442486792058292735,[],[(18,.setEnt .internalNl),(19,.emb (.cb 1)),(20,.code)],0,0⟩,⟨35,4951760157141521099596496896,[],[(18,.setEnt .internalNl),(19,.emb (.cb 1))],0,0⟩,⟨37,17179869184,[],[(18,.setEnt .internalNl),(19,.emb (.cb 1)),(22,.commit)],0,0⟩],[⟨22,8192,[],[],0,0⟩,⟨24,1024,[],[],0,0⟩,⟨25,4096,[],[],0,0⟩,⟨26,8192,[.crAlone],[],0,0⟩,⟨27,4951760157141521099596496896,[],[],0,0⟩,⟨33,4294967808,[],[],0,0⟩,⟨34,115792089237316195423570985008687907853269984665635612279300442486792058292735,[],[(20,.code)],0,0⟩,⟨35,4951760157141521099596496896,[],[],0,0⟩,⟨37,17179869184,[],[(22,.commit)],0,0⟩],[⟨22,8192,[],[],0,0⟩,⟨24,1024,[],[],0,0⟩,⟨25,4096,[],[],0,0⟩,⟨26,8192,[.crAlone],[],0,0⟩,⟨27,4951760157141521099596496896,[],[],0,0⟩,⟨33,4294967808,[],[],0,0⟩,⟨34,115792089237316195423570985008687907853269984665635612279300442486792058292735,[],[(20,.code)],0,0⟩,⟨35,4951760157141521099596496896,[],[],0,0⟩,⟨37,17179869184,[],[(22,.commit)],0,0⟩],[⟨36,115792089237316195423570985008687907853269984665640564039457584007913129626623,[],[(21,.code)],0,0⟩],[⟨22,8192,[],[],0,0⟩,⟨24,1024,[],[],0,0⟩,⟨25,4096,[],[],0,0⟩,⟨26,8192,[.crAlone],[],0,0⟩,⟨27,4951760157141521099596496896,[],[],0,0⟩,⟨33,4294967808,[],[],0,0⟩,⟨34,115792089237316195423570985008687907853269984665635612279300442486792058292735,[],[(20,.code)],0,0⟩,⟨35,4951760157141521099596496896,[],[],0,0⟩,⟨37,17179869184,[],[(22,.commit)],0,0⟩],[],[⟨39,1024,[],[(23,.setEnt .newline)],0,0⟩],[],[],[],[],[]],[some (0,[]),some (1,[]),some (2,[]),some (2,[]),none,none,none,none,none,none,none,none,none,none,none,none,none,none,none,none,some (3,[]),none,none,none,none,none,none,none,none,none,none,none,none,none,none,none,none,some (3,[]),none,some (4,[]),some (4,[]),some (4,[]),some (4,[]),some (5,[])],[3,4,5,23,24,25]⟩
def emb12_masks : List Nat := [17179869184,4294967808,34359738368,549755813888,8192,1024,4096,115792089237316195423570985008687907853269984665640564039457584007908834656767,115792089237316195423570985008687907853269984665640564039457584007913129626623,4951760157141521099596496896,115792089237316195423570985008687907853269984665635612279300442486259482348031,115792089237316195423570985008687907853269984665635612279300442486792058292735]
def emb12_cs : List (Nat × Nat) := [(0,115792089237316195423570985008687907853269984665635612279300442486207942738431),(9,4294967808),(10,1024),(11,2048),(12,4096),(13,8192),(34,17179869184),(35,34359738368),(39,549755813888),(92,4951760157141521099596496896)]
theorem emb12_masksIn : masksIn emb12_nfa emb12_masks = true := by decide +kernel
theorem emb12_repOk : repOk emb12_masks emb12_cs = true := by decide +kernel
def emb12_rows : List Row := [⟨[],none,[],[⟨256,.other,false,some ⟨0,[.setEnt (.own 3)],some 5,true⟩⟩,⟨256,.ws,false,some ⟨1,[.setEnt (.own 0)],some 1,false⟩⟩,⟨256,.lf,false,some ⟨0,[.setEnt .newline],some 4,true⟩⟩,⟨256,.vt,false,none⟩,⟨256,.ff,false,some ⟨0,[.setEnt .newline],some 4,true⟩⟩,⟨256,.cr,false,some ⟨2,[.setEnt .newline],none,false⟩⟩,⟨256,.cr,true,some ⟨3,[.setEnt .newline],some 4,false⟩⟩,⟨256,.other,false,some ⟨4,[.emb .outry,.code,.emb .back,.enqueue,.setEnt (.own 3)],some 0,false⟩⟩,⟨256,.other,false,some ⟨5,[.comment,.setEnt (.own 3)],some 2,false⟩⟩,⟨256,.other,false,some ⟨6,[.enqueue,.code,.setEnt (.own 3)],some 5,false⟩⟩]⟩,⟨[1],some 1,[],[⟨256,.other,false,none⟩,⟨256,.ws,false,some ⟨1,[.setEnt (.own 0)],some 1,false⟩⟩,⟨256,.lf,false,none⟩,⟨256,.vt,false,none⟩,⟨256,.ff,false,none⟩,⟨256,.cr,false,none⟩,⟨256,.cr,true,none⟩]⟩,⟨[38],none,[],[⟨256,.other,false,none⟩,⟨256,.ws,false,none⟩,⟨256,.lf,false,some ⟨0,[.setEnt .newline],some 4,true⟩⟩,⟨256,.vt,false,none⟩,⟨256,.ff,false,none⟩,⟨256,.cr,false,none⟩,⟨256,.cr,true,none⟩]⟩,⟨[38,42],some 4,[],[⟨256,.other,false,none⟩,⟨256,.ws,false,none⟩,⟨256,.lf,false,some ⟨0,[.setEnt .newline],some 4,true⟩⟩,⟨256,.vt,false,none⟩,⟨256,.ff,false,none⟩,⟨256,.cr,false,none⟩,⟨256,.cr,true,none⟩]⟩,⟨[0,21,43],some 0,[],[⟨256,.other,false,some ⟨7,[.code],none,false⟩⟩,⟨256,.ws,false,some ⟨8,[],none,false⟩⟩,⟨256,.lf,false,some ⟨9,[],none,false⟩⟩,⟨256,.vt,false,some ⟨7,[.code],none,false⟩⟩,⟨256,.ff,false,some ⟨10,[],none,false⟩⟩,⟨256,.cr,false,some ⟨11,[],none,false⟩⟩,⟨256,.cr,true,some ⟨12,[],none,false⟩⟩,⟨256,.other,false,some ⟨0,[.commit],some 3,true⟩⟩,⟨256,.other,false,some ⟨13,[],none,false⟩⟩]⟩,⟨[2,43],some 2,[],[⟨256,.other,false,some ⟨14,[],some 2,false⟩⟩,⟨256,.ws,false,some ⟨14,[],some 2,false⟩⟩,⟨256,.lf,false,none⟩,⟨256,.vt,false,some ⟨14,[],some 2,false⟩⟩,⟨256,.ff,false,none⟩,⟨256,.cr,false,none⟩,⟨256,.cr,true,none⟩]⟩,⟨[4,43],some 5,[],[⟨256,.other,false,some ⟨15,[.code],none,false⟩⟩,⟨256,.ws,false,some ⟨16,[],none,false⟩⟩,⟨256,.lf,false,some ⟨17,[],none,false⟩⟩,⟨256,.vt,false,some ⟨15,[.code],none,false⟩⟩,⟨256,.ff,false,some ⟨18,[],none,false⟩⟩,⟨256,.cr,false,some ⟨19,[],none,false⟩⟩,⟨256,.cr,true,some ⟨20,[],none,false⟩⟩,⟨256,.other,false,some ⟨0,[.commit],some 3,true⟩⟩,⟨256,.other,false,some ⟨21,[],none,false⟩⟩]⟩,⟨[34],none,[],[⟨256,.other,false,some ⟨7,[.code],none,false⟩⟩,⟨256,.ws,false,some ⟨8,[],none,false⟩⟩,⟨256,.lf,false,some ⟨9,[],none,false⟩⟩,⟨256,.vt,false,some ⟨7,[.code],none,false⟩⟩,⟨256,.ff,false,some ⟨10,[],none,false⟩⟩,⟨256,.cr,false,some ⟨11,[],none,false⟩⟩,⟨256,.cr,true,some ⟨12,[],none,false⟩⟩,⟨256,.other,false,some ⟨0,[.commit],some 3,true⟩⟩,⟨256,.other,false,some ⟨13,[],none,false⟩⟩]⟩,⟨[33],none,[],[⟨256,.other,false,some ⟨7,[.code],none,false⟩⟩,⟨256,.ws,false,some ⟨8,[],none,false⟩⟩,⟨256,.lf,false,some ⟨9,[],none,false⟩⟩,⟨256,.vt,false,some ⟨7,[.code],none,false⟩⟩,⟨256,.ff,false,some ⟨10,[],none,false⟩⟩,⟨256,.cr,false,some ⟨11,[],none,false⟩⟩,⟨256,.cr,true,some ⟨12,[],none,false⟩⟩,⟨256,.other,false,some ⟨0,[.commit],some 3,true⟩⟩,⟨256,.other,false,some ⟨13,[],none,false⟩⟩]⟩,⟨[24],none,[],[⟨256,.other,false,some ⟨7,[.setEnt .internalNl,.emb (.cb 1),.code],none,false⟩⟩,⟨256,.ws,false,some ⟨8,[.setEnt .internalNl,.emb (.cb 1)],none,false⟩⟩,⟨256,.lf,false,some ⟨9,[.setEnt .internalNl,.emb (.cb 1)],none,false⟩⟩,⟨256,.vt,false,some ⟨7,[.setEnt .internalNl,.emb (.cb 1),.code],none,false⟩⟩,⟨256,.ff,false,some ⟨10,[.setEnt .internalNl,.emb (.cb 1)],none,false⟩⟩,⟨256,.cr,false,some ⟨11,[.setEnt .internalNl,.emb (.cb 1)],none,false⟩⟩,⟨256,.cr,true,some ⟨12,[.setEnt .internalNl,.emb (.cb 1)],none,false⟩⟩,⟨256,.other,false,some ⟨0,[.setEnt .internalNl,.emb (.cb 1),.commit],some 3,true⟩⟩,⟨256,.other,false,some ⟨13,[.setEnt .internalNl,.emb (.cb 1)],none,false⟩⟩]⟩,⟨[25],none,[],[⟨256,.other,false,some ⟨7,[.setEnt .internalNl,.emb (.cb 1),.code],none,false⟩⟩,⟨256,.ws,false,some ⟨8,[.setEnt .internalNl,.emb (.cb 1)],none,false⟩⟩,⟨256,.lf,false,some ⟨9,[.setEnt .internalNl,.emb (.cb 1)],none,false⟩⟩,⟨256,.vt,false,some ⟨7,[.setEnt .internalNl,.emb (.cb 1),.code],none,false⟩⟩,⟨256,.ff,false,some ⟨10,[.setEnt .internalNl,.emb (.cb 1)],none,false⟩⟩,⟨256,.cr,false,some ⟨11,[.setEnt .internalNl,.emb (.cb 1)],none,false⟩⟩,⟨256,.cr,true,some ⟨12,[.setEnt .internalNl,.emb (.cb 1)],none,false⟩⟩,⟨256,.other,false,some ⟨0,[.setEnt .internalNl,.emb (.cb 1),.commit],some 3,true⟩⟩,⟨256,.other,false,some ⟨13,[.setEnt .internalNl,.emb (.cb 1)],none,false⟩⟩]⟩,⟨[22],none,[],[⟨256,.other,false,none⟩,⟨256,.ws,false,none⟩,⟨256,.lf,false,some ⟨22,[],none,false⟩⟩,⟨256,.vt,false,none⟩,⟨256,.ff,false,none⟩,⟨256,.cr,false,none⟩,⟨256,.cr,true,none⟩]⟩,⟨[22,26],none,[],[⟨256,.other,false,some ⟨7,[.setEnt .internalNl,.emb (.cb 1),.code],none,false⟩⟩,⟨256,.ws,false,some ⟨8,[.setEnt .internalNl,.emb (.cb 1)],none,false⟩⟩,⟨256,.lf,false,some ⟨23,[.setEnt .internalNl,.emb (.cb 1)],none,false⟩⟩,⟨256,.vt,false,some ⟨7,[.setEnt .internalNl,.emb (.cb 1),.code],none,false⟩⟩,⟨256,.ff,false,some ⟨10,[.setEnt .internalNl,.emb (.cb 1)],none,false⟩⟩,⟨256,.cr,false,some ⟨11,[.setEnt .internalNl,.emb (.cb 1)],none,false⟩⟩,⟨256,.cr,true,some ⟨12,[.setEnt .internalNl,.emb (.cb 1)],none,false⟩⟩,⟨256,.other,false,some ⟨0,[.setEnt .internalNl,.emb (.cb 1),.commit],some 3,true⟩⟩,⟨256,.other,false,some ⟨13,[.setEnt .internalNl,.emb (.cb 1)],none,false⟩⟩]⟩,⟨[27,35],none,[],[⟨256,.other,false,some ⟨24,[.code],none,false⟩⟩,⟨256,.ws,false,some ⟨24,[.code],none,false⟩⟩,⟨256,.lf,false,some ⟨25,[],none,false⟩⟩,⟨256,.vt,false,some ⟨24,[.code],none,false⟩⟩,⟨256,.ff,false,some ⟨26,[],none,false⟩⟩,⟨256,.cr,false,some ⟨27,[],none,false⟩⟩,⟨256,.cr,true,some ⟨28,[],none,false⟩⟩]⟩,⟨[3],some 2,[],[⟨256,.other,false,some ⟨14,[],some 2,false⟩⟩,⟨256,.ws,false,some ⟨14,[],some 2,false⟩⟩,⟨256,.lf,false,none⟩,⟨256,.vt,false,some ⟨14,[],some 2,false⟩⟩,⟨256,.ff,false,none⟩,⟨256,.cr,false,none⟩,⟨256,.cr,true,none⟩]⟩,⟨[17],none,[],[⟨256,.other,false,some ⟨15,[.code],none,false⟩⟩,⟨256,.ws,false,some ⟨16,[],none,false⟩⟩,⟨256,.lf,false,some ⟨17,[],none,false⟩⟩,⟨256,.vt,false,some ⟨15,[.code],none,false⟩⟩,⟨256,.ff,false,some ⟨18,[],none,false⟩⟩,⟨256,.cr,false,some ⟨19,[],none,false⟩⟩,⟨256,.cr,true,some ⟨20,[],none,false⟩⟩,⟨256,.other,false,some ⟨0,[.commit],some 3,true⟩⟩,⟨256,.other,false,some ⟨21,[],none,false⟩⟩]⟩,⟨[16],none,[],[⟨256,.other,false,some ⟨15,[.code],none,false⟩⟩,⟨256,.ws,false,some ⟨16,[],none,false⟩⟩,⟨256,.lf,false,some ⟨17,[],none,false⟩⟩,⟨256,.vt,false,some ⟨15,[.code],none,false⟩⟩,⟨256,.ff,false,some ⟨18,[],none,false⟩⟩,⟨256,.cr,false,some ⟨19,[],none,false⟩⟩,⟨256,.cr,true,some ⟨20,[],none,false⟩⟩,⟨256,.other,false,some ⟨0,[.commit],some 3,true⟩⟩,⟨256,.other,false,some ⟨21,[],none,false⟩⟩]⟩,⟨[7],none,[],[⟨256,.other,false,some ⟨15,[.setEnt .internalNl,.emb (.cb 1),.code],none,false⟩⟩,⟨256,.ws,false,some ⟨16,[.setEnt .internalNl,.emb (.cb 1)],none,false⟩⟩,⟨256,.lf,false,some ⟨17,[.setEnt .internalNl,.emb (.cb 1)],none,false⟩⟩,⟨256,.vt,false,some ⟨15,[.setEnt .internalNl,.emb (.cb 1),.code],none,false⟩⟩,⟨256,.ff,false,some ⟨18,[.setEnt .internalNl,.emb (.cb 1)],none,false⟩⟩,⟨256,.cr,false,some ⟨19,[.setEnt .internalNl,.emb (.cb 1)],none,false⟩⟩,⟨256,.cr,true,some ⟨20,[.setEnt .internalNl,.emb (.cb 1)],none,false⟩⟩,⟨256,.other,false,some ⟨0,[.setEnt .internalNl,.emb (.cb 1),.commit],some 3,true⟩⟩,⟨256,.other,false,some ⟨21,[.setEnt .internalNl,.emb (.cb 1)],none,false⟩⟩]⟩,⟨[8],none,[],[⟨256,.other,false,some ⟨15,[.setEnt .internalNl,.emb (.cb 1),.code],none,false⟩⟩,⟨256,.ws,false,some ⟨16,[.setEnt .internalNl,.emb (.cb 1)],none,false⟩⟩,⟨256,.lf,false,some ⟨17,[.setEnt .internalNl,.emb (.cb 1)],none,false⟩⟩,⟨256,.vt,false,some ⟨15,[.setEnt .internalNl,.emb (.cb 1),.code],none,false⟩⟩,⟨256,.ff,false,some ⟨18,[.setEnt .internalNl,.emb (.cb 1)],none,false⟩⟩,⟨256,.cr,false,some ⟨19,[.setEnt .internalNl,.emb (.cb 1)],none,false⟩⟩,⟨256,.cr,true,some ⟨20,[.setEnt .internalNl,.emb (.cb 1)],none,false⟩⟩,⟨256,.other,false,some ⟨0,[.setEnt .internalNl,.emb (.cb 1),.commit],some 3,true⟩⟩,⟨256,.other,false,some ⟨21,[.setEnt .internalNl,.emb (.cb 1)],none,false⟩⟩]⟩,⟨[5],none,[],[⟨256,.other,false,none⟩,⟨256,.ws,false,none⟩,⟨256,.lf,false,some ⟨29,[],none,false⟩⟩,⟨256,.vt,false,none⟩,⟨256,.ff,false,none⟩,⟨256,.cr,false,none⟩,⟨256,.cr,true,none⟩]⟩,⟨[5,9],none,[],[⟨256,.other,false,some ⟨15,[.setEnt .internalNl,.emb (.cb 1),.code],none,false⟩⟩,⟨256,.ws,false,some ⟨16,[.setEnt .internalNl,.emb (.cb 1)],none,false⟩⟩,⟨256,.lf,false,some ⟨30,[.setEnt .internalNl,.emb (.cb 1)],none,false⟩⟩,⟨256,.vt,false,some ⟨15,[.setEnt .internalNl,.emb (.cb 1),.code],none,false⟩⟩,⟨256,.ff,false,some ⟨18,[.setEnt .internalNl,.emb (.cb 1)],none,false⟩⟩,⟨256,.cr,false,some ⟨19,[.setEnt .internalNl,.emb (.cb 1)],none,false⟩⟩,⟨256,.cr,true,some ⟨20,[.setEnt .internalNl,.emb (.cb 1)],none,false⟩⟩,⟨256,.other,false,some ⟨0,[.setEnt .internalNl,.emb (.cb 1),.commit],some 3,true⟩⟩,⟨256,.other,false,some ⟨21,[.setEnt .internalNl,.emb (.cb 1)],none,false⟩⟩]⟩,⟨[10,18],none,[],[⟨256,.other,false,some ⟨31,[.code],none,false⟩⟩,⟨256,.ws,false,some ⟨31,[.code],none,false⟩⟩,⟨256,.lf,false,some ⟨32,[],none,false⟩⟩,⟨256,.vt,false,some ⟨31,[.code],none,false⟩⟩,⟨256,.ff,false,some ⟨33,[],none,false⟩⟩,⟨256,.cr,false,some ⟨34,[],none,false⟩⟩,⟨256,.cr,true,some ⟨35,[],none,false⟩⟩]⟩,⟨[23],none,[],[⟨256,.other,false,some ⟨7,[.setEnt .internalNl,.emb (.cb 1),.code],none,false⟩⟩,⟨256,.ws,false,some ⟨8,[.setEnt .internalNl,.emb (.cb 1)],none,false⟩⟩,⟨256,.lf,false,some ⟨9,[.setEnt .internalNl,.emb (.cb 1)],none,false⟩⟩,⟨256,.vt,false,some ⟨7,[.setEnt .internalNl,.emb (.cb 1),.code],none,false⟩⟩,⟨256,.ff,false,some ⟨10,[.setEnt .internalNl,.emb (.cb 1)],none,false⟩⟩,⟨256,.cr,false,some ⟨11,[.setEnt .internalNl,.emb (.cb 1)],none,false⟩⟩,⟨256,.cr,true,some ⟨12,[.setEnt .internalNl,.emb (.cb 1)],none,false⟩⟩,⟨256,.other,false,some ⟨0,[.setEnt .internalNl,.emb (.cb 1),.commit],some 3,true⟩⟩,⟨256,.other,false,some ⟨13,[.setEnt .internalNl,.emb (.cb 1)],none,false⟩⟩]⟩,⟨[23,24],none,[],[⟨256,.other,false,some ⟨7,[.setEnt .internalNl,.emb (.cb 1),.code],none,false⟩⟩,⟨256,.ws,false,some ⟨8,[.setEnt .internalNl,.emb (.cb 1)],none,false⟩⟩,⟨256,.lf,false,some ⟨9,[.setEnt .internalNl,.emb (.cb 1)],none,false⟩⟩,⟨256,.vt,false,some ⟨7,[.setEnt .internalNl,.emb (.cb 1),.code],none,false⟩⟩,⟨256,.ff,false,some ⟨10,[.setEnt .internalNl,.emb (.cb 1)],none,false⟩⟩,⟨256,.cr,false,some ⟨11,[.setEnt .internalNl,.emb (.cb 1)],none,false⟩⟩,⟨256,.cr,true,some ⟨12,[.setEnt .internalNl,.emb (.cb 1)],none,false⟩⟩,⟨256,.other,false,some ⟨0,[.setEnt .internalNl,.emb (.cb 1),.commit],some 3,true⟩⟩,⟨256,.other,false,some ⟨13,[.setEnt .internalNl,.emb (.cb 1)],none,false⟩⟩]⟩,⟨[36],none,[],[⟨256,.other,false,some ⟨7,[.code],none,false⟩⟩,⟨256,.ws,false,some ⟨8,[],none,false⟩⟩,⟨256,.lf,false,some ⟨9,[],none,false⟩⟩,⟨256,.vt,false,some ⟨7,[.code],none,false⟩⟩,⟨256,.ff,false,some ⟨10,[],none,false⟩⟩,⟨256,.cr,false,some ⟨11,[],none,false⟩⟩,⟨256,.cr,true,some ⟨12,[],none,false⟩⟩,⟨256,.other,false,some ⟨0,[.commit],some 3,true⟩⟩,⟨256,.other,false,some ⟨13,[],none,false⟩⟩]⟩,⟨[30],none,[],[⟨256,.other,false,some ⟨7,[.setEnt .internalNl,.emb (.cb 1),.code],none,false⟩⟩,⟨256,.ws,false,some ⟨8,[.setEnt .internalNl,.emb (.cb 1)],none,false⟩⟩,⟨256,.lf,false,some ⟨9,[.setEnt .internalNl,.emb (.cb 1)],none,false⟩⟩,⟨256,.vt,false,some ⟨7,[.setEnt .internalNl,.emb (.cb 1),.code],none,false⟩⟩,⟨256,.ff,false,some ⟨10,[.setEnt .internalNl,.emb (.cb 1)],none,false⟩⟩,⟨256,.cr,false,some ⟨11,[.setEnt .internalNl,.emb (.cb 1)],none,false⟩⟩,⟨256,.cr,true,some ⟨12,[.setEnt .internalNl,.emb (.cb 1)],none,false⟩⟩,⟨256,.other,false,some ⟨0,[.setEnt .internalNl,.emb (.cb 1),.commit],some 3,true⟩⟩,⟨256,.other,false,some ⟨13,[.setEnt .internalNl,.emb (.cb 1)],none,false⟩⟩]⟩,⟨[31],none,[],[⟨256,.other,false,some ⟨7,[.setEnt .internalNl,.emb (.cb 1),.code],none,false⟩⟩,⟨256,.ws,false,some ⟨8,[.setEnt .internalNl,.emb (.cb 1)],none,false⟩⟩,⟨256,.lf,false,some ⟨9,[.setEnt .internalNl,.emb (.cb 1)],none,false⟩⟩,⟨256,.vt,false,some ⟨7,[.setEnt .internalNl,.emb (.cb 1),.code],none,false⟩⟩,⟨256,.ff,false,some ⟨10,[.setEnt .internalNl,.emb (.cb 1)],none,false⟩⟩,⟨256,.cr,false,some ⟨11,[.setEnt .internalNl,.emb (.cb 1)],none,false⟩⟩,⟨256,.cr,true,some ⟨12,[.setEnt .internalNl,.emb (.cb 1)],none,false⟩⟩,⟨256,.other,false,some ⟨0,[.setEnt .internalNl,.emb (.cb 1),.commit],some 3,true⟩⟩,⟨256,.other,false,some ⟨13,[.setEnt .internalNl,.emb (.cb 1)],none,false⟩⟩]⟩,⟨[28],none,[],[⟨256,.other,false,none⟩,⟨256,.ws,false,none⟩,⟨256,.lf,false,some ⟨36,[],none,false⟩⟩,⟨256,.vt,false,none⟩,⟨256,.ff,false,none⟩,⟨256,.cr,false,none⟩,⟨256,.cr,true,none⟩]⟩,⟨[28,32],none,[],[⟨256,.other,false,some ⟨7,[.setEnt .internalNl,.emb (.cb 1),.code],none,false⟩⟩,⟨256,.ws,false,some ⟨8,[.setEnt .internalNl,.emb (.cb 1)],none,false⟩⟩,⟨256,.lf,false,some ⟨37,[.setEnt .internalNl,.emb (.cb 1)],none,false⟩⟩,⟨256,.vt,false,some ⟨7,[.setEnt .internalNl,.emb (.cb 1),.code],none,false⟩⟩,⟨256,.ff,false,some ⟨10,[.setEnt .internalNl,.emb (.cb 1)],none,false⟩⟩,⟨256,.cr,false,some ⟨11,[.setEnt .internalNl,.emb (.cb 1)],none,false⟩⟩,⟨256,.cr,true,some ⟨12,[.setEnt .internalNl,.emb (.cb 1)],none,false⟩⟩,⟨256,.other,false,some ⟨0,[.setEnt .internalNl,.emb (.cb 1),.commit],some 3,true⟩⟩,⟨256,.other,false,some ⟨13,[.setEnt .internalNl,.emb (.cb 1)],none,false⟩⟩]⟩,⟨[6],none,[],[⟨256,.other,false,some ⟨15,[.setEnt .internalNl,.emb (.cb 1),.code],none,false⟩⟩,⟨256,.ws,false,some ⟨16,[.setEnt .internalNl,.emb (.cb 1)],none,false⟩⟩,⟨256,.lf,false,some ⟨17,[.setEnt .internalNl,.emb (.cb 1)],none,false⟩⟩,⟨256,.vt,false,some ⟨15,[.setEnt .internalNl,.emb (.cb 1),.code],none,false⟩⟩,⟨256,.ff,false,some ⟨18,[.setEnt .internalNl,.emb (.cb 1)],none,false⟩⟩,⟨256,.cr,false,some ⟨19,[.setEnt .internalNl,.emb (.cb 1)],none,false⟩⟩,⟨256,.cr,true,some ⟨20,[.setEnt .internalNl,.emb (.cb 1)],none,false⟩⟩,⟨256,.other,false,some ⟨0,[.setEnt .internalNl,.emb (.cb 1),.commit],some 3,true⟩⟩,⟨256,.other,false,some ⟨21,[.setEnt .internalNl,.emb (.cb 1)],none,false⟩⟩]⟩,⟨[6,7],none,[],[⟨256,.other,false,some ⟨15,[.setEnt .internalNl,.emb (.cb 1),.code],none,false⟩⟩,⟨256,.ws,false,some ⟨16,[.setEnt .internalNl,.emb (.cb 1)],none,false⟩⟩,⟨256,.lf,false,some ⟨17,[.setEnt .internalNl,.emb (.cb 1)],none,false⟩⟩,⟨256,.vt,false,some ⟨15,[.setEnt .internalNl,.emb (.cb 1),.code],none,false⟩⟩,⟨256,.ff,false,some ⟨18,[.setEnt .internalNl,.emb (.cb 1)],none,false⟩⟩,⟨256,.cr,false,some ⟨19,[.setEnt .internalNl,.emb (.cb 1)],none,false⟩⟩,⟨256,.cr,true,some ⟨20,[.setEnt .internalNl,.emb (.cb 1)],none,false⟩⟩,⟨256,.other,false,some ⟨0,[.setEnt .internalNl,.emb (.cb 1),.commit],some 3,true⟩⟩,⟨256,.other,false,some ⟨21,[.setEnt .internalNl,.emb (.cb 1)],none,false⟩⟩]⟩,⟨[19],none,[],[⟨256,.other,false,some ⟨15,[.code],none,false⟩⟩,⟨256,.ws,false,some ⟨16,[],none,false⟩⟩,⟨256,.lf,false,some ⟨17,[],none,false⟩⟩,⟨256,.vt,false,some ⟨15,[.code],none,false⟩⟩,⟨256,.ff,false,some ⟨18,[],none,false⟩⟩,⟨256,.cr,false,some ⟨19,[],none,false⟩⟩,⟨256,.cr,true,some ⟨20,[],none,false⟩⟩,⟨256,.other,false,some ⟨0,[.commit],some 3,true⟩⟩,⟨256,.other,false,some ⟨21,[],none,false⟩⟩]⟩,⟨[13],none,[],[⟨256,.other,false,some ⟨15,[.setEnt .internalNl,.emb (.cb 1),.code],none,false⟩⟩,⟨256,.ws,false,some ⟨16,[.setEnt .internalNl,.emb (.cb 1)],none,false⟩⟩,⟨256,.lf,false,some ⟨17,[.setEnt .internalNl,.emb (.cb 1)],none,false⟩⟩,⟨256,.vt,false,some ⟨15,[.setEnt .internalNl,.emb (.cb 1),.code],none,false⟩⟩,⟨256,.ff,false,some ⟨18,[.setEnt .internalNl,.emb (.cb 1)],none,false⟩⟩,⟨256,.cr,false,some ⟨19,[.setEnt .internalNl,.emb (.cb 1)],none,false⟩⟩,⟨256,.cr,true,some ⟨20,[.setEnt .internalNl,.emb (.cb 1)],none,false⟩⟩,⟨256,.other,false,some ⟨0,[.setEnt .internalNl,.emb (.cb 1),.commit],some 3,true⟩⟩,⟨256,.other,false,some ⟨21,[.setEnt .internalNl,.emb (.cb 1)],none,false⟩⟩]⟩,⟨[14],none,[],[⟨256,.other,false,some ⟨15,[.setEnt .internalNl,.emb (.cb 1),.code],none,false⟩⟩,⟨256,.ws,false,some ⟨16,[.setEnt .internalNl,.emb (.cb 1)],none,false⟩⟩,⟨256,.lf,false,some ⟨17,[.setEnt .internalNl,.emb (.cb 1)],none,false⟩⟩,⟨256,.vt,false,some ⟨15,[.setEnt .internalNl,.emb (.cb 1),.code],none,false⟩⟩,⟨256,.ff,false,some ⟨18,[.setEnt .internalNl,.emb (.cb 1)],none,false⟩⟩,⟨256,.cr,false,some ⟨19,[.setEnt .internalNl,.emb (.cb 1)],none,false⟩⟩,⟨256,.cr,true,some ⟨20,[.setEnt .internalNl,.emb (.cb 1)],none,false⟩⟩,⟨256,.other,false,some ⟨0,[.setEnt .internalNl,.emb (.cb 1),.commit],some 3,true⟩⟩,⟨256,.other,false,some ⟨21,[.setEnt .internalNl,.emb (.cb 1)],none,false⟩⟩]⟩,⟨[11],none,[],[⟨256,.other,false,none⟩,⟨256,.ws,false,none⟩,⟨256,.lf,false,some ⟨38,[],none,false⟩⟩,⟨256,.vt,false,none⟩,⟨256,.ff,false,none⟩,⟨256,.cr,false,none⟩,⟨256,.cr,true,none⟩]⟩,⟨[11,15],none,[],[⟨256,.other,false,some ⟨15,[.setEnt .internalNl,.emb (.cb 1),.code],none,false⟩⟩,⟨256,.ws,false,some ⟨16,[.setEnt .internalNl,.emb (.cb 1)],none,false⟩⟩,⟨256,.lf,false,some ⟨39,[.setEnt .internalNl,.emb (.cb 1)],none,false⟩⟩,⟨256,.vt,false,some ⟨15,[.setEnt .internalNl,.emb (.cb 1),.code],none,false⟩⟩,⟨256,.ff,false,some ⟨18,[.setEnt .internalNl,.emb (.cb 1)],none,false⟩⟩,⟨256,.cr,false,some ⟨19,[.setEnt .internalNl,.emb (.cb 1)],none,false⟩⟩,⟨256,.cr,true,some ⟨20,[.setEnt .internalNl,.emb (.cb 1)],none,false⟩⟩,⟨256,.other,false,some ⟨0,[.setEnt .internalNl,.emb (.cb 1),.commit],some 3,true⟩⟩,⟨256,.other,false,some ⟨21,[.setEnt .internalNl,.emb (.cb 1)],none,false⟩⟩]⟩,⟨[29],none,[],[⟨256,.other,false,some ⟨7,[.setEnt .internalNl,.emb (.cb 1),.code],none,false⟩⟩,⟨256,.ws,false,some ⟨8,[.setEnt .internalNl,.emb (.cb 1)],none,false⟩⟩,⟨256,.lf,false,some ⟨9,[.setEnt .internalNl,.emb (.cb 1)],none,false⟩⟩,⟨256,.vt,false,some ⟨7,[.setEnt .internalNl,.emb (.cb 1),.code],none,false⟩⟩,⟨256,.ff,false,some ⟨10,[.setEnt .internalNl,.emb (.cb 1)],none,false⟩⟩,⟨256,.cr,false,some ⟨11,[.setEnt .internalNl,.emb (.cb 1)],none,false⟩⟩,⟨256,.cr,true,some ⟨12,[.setEnt .internalNl,.emb (.cb 1)],none,false⟩⟩,⟨256,.other,false,some ⟨0,[.setEnt .internalNl,.emb (.cb 1),.commit],some 3,true⟩⟩,⟨256,.other,false,some ⟨13,[.setEnt .internalNl,.emb (.cb 1)],none,false⟩⟩]⟩,⟨[24,29],none,[],[⟨256,.other,false,some ⟨7,[.setEnt .internalNl,.emb (.cb 1),.code],none,false⟩⟩,⟨256,.ws,false,some ⟨8,[.setEnt .internalNl,.emb (.cb 1)],none,false⟩⟩,⟨256,.lf,false,some ⟨9,[.setEnt .internalNl,.emb (.cb 1)],none,false⟩⟩,⟨256,.vt,false,some ⟨7,[.setEnt .internalNl,.emb (.cb 1),.code],none,false⟩⟩,⟨256,.ff,false,some ⟨10,[.setEnt .internalNl,.emb (.cb 1)],none,false⟩⟩,⟨256,.cr,false,some ⟨11,[.setEnt .internalNl,.emb (.cb 1)],none,false⟩⟩,⟨256,.cr,true,some ⟨12,[.setEnt .internalNl,.emb (.cb 1)],none,false⟩⟩,⟨256,.other,false,some ⟨0,[.setEnt .internalNl,.emb (.cb 1),.commit],some 3,true⟩⟩,⟨256,.other,false,some ⟨13,[.setEnt .internalNl,.emb (.cb 1)],none,false⟩⟩]⟩,⟨[12],none,[],[⟨256,.other,false,some ⟨15,[.setEnt .internalNl,.emb (.cb 1),.code],none,false⟩⟩,⟨256,.ws,false,some ⟨16,[.setEnt .internalNl,.emb (.cb 1)],none,false⟩⟩,⟨256,.lf,false,some ⟨17,[.setEnt .internalNl,.emb (.cb 1)],none,false⟩⟩,⟨256,.vt,false,some ⟨15,[.setEnt .internalNl,.emb (.cb 1),.code],none,false⟩⟩,⟨256,.ff,false,some ⟨18,[.setEnt .internalNl,.emb (.cb 1)],none,false⟩⟩,⟨256,.cr,false,some ⟨19,[.setEnt .internalNl,.emb (.cb 1)],none,false⟩⟩,⟨256,.cr,true,some ⟨20,[.setEnt .internalNl,.emb (.cb 1)],none,false⟩⟩,⟨256,.other,false,some ⟨0,[.setEnt .internalNl,.emb (.cb 1),.commit],some 3,true⟩⟩,⟨256,.other,false,some ⟨21,[.setEnt .internalNl,.emb (.cb 1)],none,false⟩⟩]⟩,⟨[7,12],none,[],[⟨256,.other,false,some ⟨15,[.setEnt .internalNl,.emb (.cb 1),.code],none,false⟩⟩,⟨256,.ws,false,some ⟨16,[.setEnt .internalNl,.emb (.cb 1)],none,false⟩⟩,⟨256,.lf,false,some ⟨17,[.setEnt .internalNl,.emb (.cb 1)],none,false⟩⟩,⟨256,.vt,false,some ⟨15,[.setEnt .internalNl,.emb (.cb 1),.code],none,false⟩⟩,⟨256,.ff,false,some ⟨18,[.setEnt .internalNl,.emb (.cb 1)],none,false⟩⟩,⟨256,.cr,false,some ⟨19,[.setEnt .internalNl,.emb (.cb 1)],none,false⟩⟩,⟨256,.cr,true,some ⟨20,[.setEnt .internalNl,.emb (.cb 1)],none,false⟩⟩,⟨256,.other,false,some ⟨0,[.setEnt .internalNl,.emb (.cb 1),.commit],some 3,true⟩⟩,⟨256,.other,false,some ⟨21,[.setEnt .internalNl,.emb (.cb 1)],none,false⟩⟩]⟩]
theorem emb12_rowsOk : rowsOk emb12_nfa [] (emb12_cs.map (·.1)) emb12_rows = true := by decide +kernel
def emb12_D : Dfa emb12_nfa := ⟨emb12_masks, [], emb12_cs, emb12_rows, emb12_masksIn, emb12_repOk, emb12_rowsOk⟩

/-- The automaton of `Emb.Nix.nix_dsq_shell_entity`. -/
def emb16_nfa : Nfa := ⟨[⟨0,549755813888,[],[],0,0⟩,⟨2,4294983168,[],[(1,.setEnt (.own 0))],0,0⟩,⟨3,34359738368,[],[(2,.setEnt (.own 1))],0,0⟩,⟨5,115792089237316195423570985008687907853269984665640564039457584007908834656767,[],[],0,0⟩],[[⟨1,549755813888,[],[(0,.emb .ret)],0,0⟩],[],[⟨2,4294983168,[],[(1,.setEnt (.own 0))],0,0⟩],[⟨4,115792089237316195423570985008687907853269984665640564039457584007913129626623,[],[(2,.setEnt (.own 1))],0,0⟩],[⟨4,115792089237316195423570985008687907853269984665640564039457584007913129626623,[],[(2,.setEnt (.own 1))],0,0⟩],[]],[none,some (0,[]),some (1,[]),some (2,[]),some (2,[]),some (3,[])],[1,2,3,3]⟩
def emb16_masks : List Nat := [549755813888,4294983168,34359738368,115792089237316195423570985008687907853269984665640564039457584007908834656767,115792089237316195423570985008687907853269984665640564039457584007913129626623]
def emb16_cs : List (Nat × Nat) := [(0,115792089237316195423570985008687907853269984665640564039457584007324719104511),(9,4294967808),(10,1024),(11,2048),(12,4096),(13,8192),(35,34359738368),(39,549755813888)]
theorem emb16_masksIn : masksIn emb16_nfa emb16_masks = true := by decide +kernel
theorem emb16_repOk : repOk emb16_masks emb16_cs = true := by decide +kernel
def emb16_rows : List Row := [⟨[],none,[],[⟨256,.other,false,some ⟨0,[],some 3,true⟩⟩,⟨256,.ws,false,some ⟨1,[.setEnt (.own 0)],some 1,false⟩⟩,⟨256,.lf,false,some ⟨1,[.setEnt (.own 0)],some 1,false⟩⟩,⟨256,.vt,false,some ⟨1,[.setEnt (.own 0)],some 1,false⟩⟩,⟨256,.ff,false,some ⟨1,[.setEnt (.own 0)],some 1,false⟩⟩,⟨256,.cr,false,some ⟨1,[.setEnt (.own 0)],some 1,false⟩⟩,⟨256,.cr,true,some ⟨1,[.setEnt (.own 0)],some 1,false⟩⟩,⟨256,.other,false,some ⟨2,[.setEnt (.own 1)],some 2,false⟩⟩,⟨256,.other,false,some ⟨3,[],some 3,false⟩⟩]⟩,⟨[2],some 1,[],[⟨256,.other,false,none⟩,⟨256,.ws,false,some ⟨1,[.setEnt (.own 0)],some 1,false⟩⟩,⟨256,.lf,false,some ⟨1,[.setEnt (.own 0)],some 1,false⟩⟩,⟨256,.vt,false,some ⟨1,[.setEnt (.own 0)],some 1,false⟩⟩,⟨256,.ff,false,some ⟨1,[.setEnt (.own 0)],some 1,false⟩⟩,⟨256,.cr,false,some ⟨1,[.setEnt (.own 0)],some 1,false⟩⟩,⟨256,.cr,true,some ⟨1,[.setEnt (.own 0)],some 1,false⟩⟩]⟩,⟨[3,5],some 2,[],[⟨256,.other,false,some ⟨4,[.setEnt (.own 1)],some 2,false⟩⟩,⟨256,.ws,false,some ⟨4,[.setEnt (.own 1)],some 2,false⟩⟩,⟨256,.lf,false,none⟩,⟨256,.vt,false,some ⟨4,[.setEnt (.own 1)],some 2,false⟩⟩,⟨256,.ff,false,none⟩,⟨256,.cr,false,none⟩,⟨256,.cr,true,none⟩]⟩,⟨[0,5],some 3,[],[⟨256,.other,false,none⟩,⟨256,.ws,false,none⟩,⟨256,.lf,false,none⟩,⟨256,.vt,false,none⟩,⟨256,.ff,false,none⟩,⟨256,.cr,false,none⟩,⟨256,.cr,true,none⟩,⟨256,.other,false,some ⟨0,[.emb .ret],some 0,true⟩⟩]⟩,⟨[4],some 2,[],[⟨256,.other,false,some ⟨4,[.setEnt (.own 1)],some 2,false⟩⟩,⟨256,.ws,false,some ⟨4,[.setEnt (.own 1)],some 2,false⟩⟩,⟨256,.lf,false,none⟩,⟨256,.vt,false,some ⟨4,[.setEnt (.own 1)],some 2,false⟩⟩,⟨256,.ff,false,none⟩,⟨256,.cr,false,none⟩,⟨256,.cr,true,none⟩]⟩]
theorem emb16_rowsOk : rowsOk emb16_nfa [] (emb16_cs.map (·.1)) emb16_rows = true := by decide +kernel
def emb16_D : Dfa emb16_nfa := ⟨emb16_masks, [], emb16_cs, emb16_rows, emb16_masksIn, emb16_repOk, emb16_rowsOk⟩

/-- The automaton of `Emb.Coffeescript.coffeescript_line`. -/
def emb19_nfa : Nfa := ⟨[⟨0,79228162514264337593543950336,[],[(0,.code),(1,.cb),(2,.emb (.saw 1))],0,0⟩,⟨1,4294967808,[],[(3,.setEnt (.own 0))],0,0⟩,⟨2,34359738368,[],[(4,.comment)],0,0⟩,⟨4,34359738368,[],[],0,2⟩,⟨17,549755813888,[],[(9,.enqueue),(10,.code)],0,0⟩,⟨28,17179869184,[],[(17,.enqueue),(18,.code)],0,0⟩,⟨39,549755813888,[],[],0,4⟩,⟨52,17179869184,[],[],0,8⟩,⟨65,8192,[],[(36,.setEnt .newline)],0,0⟩,⟨67,1024,[],[(36,.setEnt .newline)],0,0⟩,⟨68,4096,[],[(36,.setEnt .newline)],0,0⟩,⟨69,8192,[.crAlone],[(36,.setEnt .newline)],0,0⟩,⟨70,115792089237316195423570985008687907853269984665640564039457584007908834656767,[],[(37,.setEnt (.own 3))],0,0⟩],[[],[⟨1,4294967808,[],[(3,.setEnt (.own 0))],0,0⟩],[⟨3,115792089237316195423570985008687907853269984665640564039457584007913129626623,[],[],0,0⟩],[⟨3,115792089237316195423570985008687907853269984665640564039457584007913129626623,[],[],0,0⟩],[⟨5,34359738368,[],[],0,2⟩],[⟨6,34359738368,[],[(5,.comment)],0,2⟩],[⟨7,8192,[],[],0,2⟩,⟨9,1024,[],[],0,2⟩,⟨10,4096,[],[],0,2⟩,⟨11,8192,[.crAlone],[],0,2⟩,⟨12,4294967808,[],[],0,2⟩,⟨13,115792089237316195423570985008687907853269984665640564039457584007908834658815,[],[(8,.comment)],0,2⟩,⟨14,34359738368,[],[],0,2⟩],[⟨8,1024,[],[],0,2⟩],[⟨7,8192,[],[(6,.setEnt .internalNl),(7,.cb)],0,2⟩,⟨9,1024,[],[(6,.setEnt .internalNl),(7,.cb)],0,2⟩,⟨10,4096,[],[(6,.setEnt .internalNl),(7,.cb)],0,2⟩,⟨11,8192,[.crAlone],[(6,.setEnt .internalNl),(7,.cb)],0,2⟩,⟨12,4294967808,[],[(6,.setEnt .internalNl),(7,.cb)],0,2⟩,⟨13,115792089237316195423570985008687907853269984665640564039457584007908834658815,[],[(6,.setEnt .internalNl),(7,.cb),(8,.comment)],0,2⟩,⟨14,34359738368,[],[(6,.setEnt .internalNl),(7,.cb)],0,2⟩],[⟨7,8192,[],[(6,.setEnt .internalNl),(7,.cb)],0,2⟩,⟨9,1024,[],[(6,.setEnt .internalNl),(7,.cb)],0,2⟩,⟨10,4096,[],[(6,.setEnt .internalNl),(7,.cb)],0,2⟩,⟨11,8192,[.crAlone],[(6,.setEnt .internalNl),(7,.cb)],0,2⟩,⟨12,4294967808,[],[(6,.setEnt .internalNl),(7,.cb)],0,2⟩,⟨13,115792089237316195423570985008687907853269984665640564039457584007908834658815,[],[(6,.setEnt .internalNl),(7,.cb),(8,.comment)],0,2⟩,⟨14,34359738368,[],[(6,.setEnt .internalNl),(7,.cb)],0,2⟩],[⟨7,8192,[],[(6,.setEnt .internalNl),(7,.cb)],0,2⟩,⟨9,1024,[],[(6,.setEnt .internalNl),(7,.cb)],0,2⟩,⟨10,4096,[],[(6,.setEnt .internalNl),(7,.cb)],0,2⟩,⟨11,8192,[.crAlone],[(6,.setEnt .internalNl),(7,.cb)],0,2⟩,⟨12,4294967808,[],[(6,.setEnt .internalNl),(7,.cb)],0,2⟩,⟨13,115792089237316195423570985008687907853269984665640564039457584007908834658815,[],[(6,.setEnt .internalNl),(7,.cb),(8,.comment)],0,2⟩,⟨14,34359738368,[],[(6,.setEnt .internalNl),(7,.cb)],0,2⟩],[⟨7,8192,[],[(6,.setEnt .internalNl),(7,.cb)],0,2⟩,⟨9,1024,[],[(6,.setEnt .internalNl),(7,.cb)],0,2⟩,⟨10,4096,[],[(6,.setEnt .internalNl),(7,.cb)],0,2⟩,⟨11,8192,[.crAlone],[(6,.setEnt .internalNl),(7,.cb)],0,2⟩,⟨12,4294967808,[],[(6,.setEnt .internalNl),(7,.cb)],0,2⟩,⟨13,115792089237316195423570985008687907853269984665640564039457584007908834658815,[],[(6,.setEnt .internalNl),(7,.cb),(8,.comment)],0,2⟩,⟨14,34359738368,[],[(6,.setEnt .internalNl),(7,.cb)],0,2⟩],[⟨7,8192,[],[],0,2⟩,⟨9,1024,[],[],0,2⟩,⟨10,4096,[],[],0,2⟩,⟨11,8192,[.crAlone],[],0,2⟩,⟨12,4294967808,[],[],0,2⟩,⟨13,115792089237316195423570985008687907853269984665640564039457584007908834658815,[],[(8,.comment)],0,2⟩,⟨14,34359738368,[],[],0,2⟩],[⟨7,8192,[],[],0,2⟩,⟨9,1024,[],[],0,2⟩,⟨10,4096,[],[],0,2⟩,⟨11,8192,[.crAlone],[],0,2⟩,⟨12,4294967808,[],[],0,2⟩,⟨13,115792089237316195423570985008687907853269984665640564039457584007908834658815,[],[(8,.comment)],0,2⟩,⟨14,34359738368,[],[],0,2⟩],[⟨15,34359738368,[],[],0,0⟩],[⟨16,34359738368,[],[],2,0⟩],[],[⟨18,8192,[],[],0,0⟩,⟨20,1024,[],[],0,0⟩,⟨21,4096,[],[],0,0⟩,⟨22,8192,[.crAlone],[],0,0⟩,⟨23,4294967808,[],[],0,0⟩,⟨24,115792089237316195423570985008687907853269984665635612279300442486259482348031,[],[(13,.code)],0,0⟩,⟨25,4951760157141521099596496896,[],[],0,0⟩,⟨27,549755813888,[],[(15,.commit),(16,.code),(35,.code)],0,0⟩],[⟨19,1024,[],[],0,0⟩],[⟨18,8192,[],[(11,.setEnt .internalNl),(12,.cb)],0,0⟩,⟨20,1024,[],[(11,.setEnt .internalNl),(12,.cb)],0,0⟩,⟨21,4096,[],[(11,.setEnt .internalNl),(12,.cb)],0,0⟩,⟨22,8192,[.crAlone],[(11,.setEnt .internalNl),(12,.cb)],0,0⟩,⟨23,4294967808,[],[(11,.setEnt .internalNl),(12,.cb)],0,0⟩,⟨24,115792089237316195423570985008687907853269984665635612279300442486259482348031,[],[(11,.setEnt .internalNl),(12,.cb),(13,.code)],0,0⟩,⟨25,4951760157141521099596496896,[],[(11,.setEnt .internalNl),(12,.cb)],0,0⟩,⟨27,549755813888,[],[(11,.setEnt .internalNl),(12,.cb),(15,.commit),(16,.code),(35,.code)],0,0⟩],[⟨18,8192,[],[(11,.setEnt .internalNl),(12,.cb)],0,0⟩,⟨20,1024,[],[(11,.setEnt .internalNl),(12,.cb)],0,0⟩,⟨21,4096,[],[(11,.setEnt .internalNl),(12,.cb)],0,0⟩,⟨22,8192,[.crAlone],[(11,.setEnt .internalNl),(12,.cb)],0,0⟩,⟨23,4294967808,[],[(11,.setEnt .internalNl),(12,.cb)],0,0⟩,⟨24,115792089237316195423570985008687907853269984665635612279300442486259482348031,[],[(11,.setEnt .internalNl),(12,.cb),(13,.code)],0,0⟩,⟨25,4951760157141521099596496896,[],[(11,.setEnt .internalNl),(12,.cb)],0,0⟩,⟨27,549755813888,[],[(11,.setEnt .internalNl),(12,.cb),(15,.commit),(16,.code),(35,.code)],0,0⟩],[⟨18,8192,[],[(11,.setEnt .internalNl),(12,.cb)],0,0⟩,⟨20,1024,[],[(11,.setEnt .internalNl),(12,.cb)],0,0⟩,⟨21,4096,[],[(11,.setEnt .internalNl),(12,.cb)],0,0⟩,⟨22,8192,[.crAlone],[(11,.setEnt .internalNl),(12,.cb)],0,0⟩,⟨23,4294967808,[],[(11,.setEnt .internalNl),(12,.cb)],0,0⟩,⟨24,115792089237316195423570985008687907853269984665635612279300442486259482348031,[],[(11,.setEnt .internalNl),(12,.cb),(13,.code)],0,0⟩,⟨25,4951760157141521099596496896,[],[(11,.setEnt .internalNl),(12,.cb)],0,0⟩,⟨27,549755813888,[],[(11,.setEnt .internalNl),(12,.cb),(15,.commit),(16,.code),(35,.code)],0,0⟩],[⟨18,8192,[],[(11,.setEnt .internalNl),(12,.cb)],0,0⟩,⟨20,1024,[],[(11,.setEnt .internalNl),(12,.cb)],0,0⟩,⟨21,4096,[],[(11,.setEnt .internalNl),(12,.cb)],0,0⟩,⟨22,8192,[.crAlone],[(11,.setEnt .internalNl),(12,.cb)],0,0⟩,⟨23,4294967808,[],[(11,.setEnt .internalNl),(12,.cb)],0,0⟩,⟨24,115792089237316195423570985008687907853269984665635612279300442486259482348031,[],[(11,.setEnt .internalNl),(12,.cb),(13,.code)],0,0⟩,⟨25,4951760157141521099596496896,[],[(11,.setEnt .internalNl),(12,.cb)],0,0⟩,⟨27,549755813888,[],[(11,.setEnt .internalNl),(12,.cb),(15,.commit),(16,.code),(35,.code)],0,0⟩],[⟨18,8192,[],[],0,0⟩,⟨20,1024,[],[],0,0⟩,⟨21,4096,[],[],0,0⟩,⟨22,8192,[.crAlone],[],0,0⟩,⟨23,4294967808,[],[],0,0⟩,⟨24,115792089237316195423570985008687907853269984665635612279300442486259482348031,[],[(13,.code)],0,0⟩,⟨25,4951760157141521099596496896,[],[],0,0⟩,⟨27,549755813888,[],[(15,.commit),(16,.code),(35,.code)],0,0⟩],[⟨18,8192,[],[],0,0⟩,⟨20,1024,[],[],0,0⟩,⟨21,4096,[],[],0,0⟩,⟨22,8192,[.crAlone],[],0,0⟩,⟨23,4294967808,[],[],0,0⟩,⟨24,115792089237316195423570985008687907853269984665635612279300442486259482348031,[],[(13,.code)],0,0⟩,⟨25,4951760157141521099596496896,[],[],0,0⟩,⟨27,549755813888,[],[(15,.commit),(16,.code),(35,.code)],0,0⟩],[⟨26,115792089237316195423570985008687907853269984665640564039457584007913129626623,[],[(14,.code)],0,0⟩],[⟨18,8192,[],[],0,0⟩,⟨20,1024,[],[],0,0⟩,⟨21,4096,[],[],0,0⟩,⟨22,8192,[.crAlone],[],0,0⟩,⟨23,4294967808,[],[],0,0⟩,⟨24,115792089237316195423570985008687907853269984665635612279300442486259482348031,[],[(13,.code)],0,0⟩,⟨25,4951760157141521099596496896,[],[],0,0⟩,⟨27,549755813888,[],[(15,.commit),(16,.code),(35,.code)],0,0⟩],[],[⟨29,8192,[],[],0,0⟩,⟨31,1024,[],[],0,0⟩,⟨32,4096,[],[],0,0⟩,⟨33,8192,[.crAlone],[],0,0⟩,⟨34,4294967808,[],[],0,0⟩,⟨35,115792089237316195423570985008687907853269984665635612279300442486792058292735,[],[(21,.code)],0,0⟩,⟨36,4951760157141521099596496896,[],[],0,0⟩,⟨38,17179869184,[],[(23,.commit),(24,.code),(35,.code)],0,0⟩],[⟨30,1024,[],[],0,0⟩],[⟨29,8192,[],[(19,.setEnt .internalNl),(20,.cb)],0,0⟩,⟨31,1024,[],[(19,.setEnt .internalNl),(20,.cb)],0,0⟩,⟨32,4096,[],[(19,.setEnt .internalNl),(20,.cb)],0,0⟩,⟨33,8192,[.crAlone],[(19,.setEnt .internalNl),(20,.cb)],0,0⟩,⟨34,4294967808,[],[(19,.setEnt .internalNl),(20,.cb)],0,0⟩,⟨35,115792089237316195423570985008687907853269984665635612279300442486792058292735,[],[(19,.setEnt .internalNl),(20,.cb),(21,.code)],0,0⟩,⟨36,4951760157141521099596496896,[],[(19,.setEnt .internalNl),(20,.cb)],0,0⟩,⟨38,17179869184,[],[(19,.setEnt .internalNl),(20,.cb),(23,.commit),(24,.code),(35,.code)],0,0⟩],[⟨29,8192,[],[(19,.setEnt .internalNl),(20,.cb)],0,0⟩,⟨31,1024,[],[(19,.setEnt .internalNl),(20,.cb)],0,0⟩,⟨32,4096,[],[(19,.setEnt .internalNl),(20,.cb)],0,0⟩,⟨33,8192,[.crAlone],[(19,.setEnt .internalNl),(20,.cb)],0,0⟩,⟨34,4294967808,[],[(19,.setEnt .internalNl),(20,.cb)],0,0⟩,⟨35,115792089237316195423570985008687907853269984665635612279300442486792058292735,[],[(19,.setEnt .internalNl),(20,.cb),(21,.code)],0,0⟩,⟨36,4951760157141521099596496896,[],[(19,.setEnt .internalNl),(20,.cb)],0,0⟩,⟨38,17179869184,[],[(19,.setEnt .internalNl),(20,.cb),(23,.commit),(24,.code),(35,.code)],0,0⟩],[⟨29,8192,[],[(19,.setEnt .internalNl),(20,.cb)],0,0⟩,⟨31,1024,[],[(19,.setEnt .internalNl),(20,.cb)],0,0⟩,⟨32,4096,[],[(19,.setEnt .internalNl),(20,.cb)],0,0⟩,⟨33,8192,[.crAlone],[(19,.setEnt .internalNl),(20,.cb)],0,0⟩,⟨34,4294967808,[],[(19,.setEnt .internalNl),(20,.cb)],0,0⟩,⟨35,115792089237316195423570985008687907853269984665635612279300442486792058292735,[],[(19,.setEnt .internalNl),(20,.cb),(21,.code)],0,0⟩,⟨36,4951760157141521099596496896,[],[(19,.setEnt .internalNl),(20,.cb)],0,0⟩,⟨38,17179869184,[],[(19,.setEnt .internalNl),(20,.cb),(23,.commit),(24,.code),(35,.code)],0,0⟩],[⟨29,8192,[],[(19,.setEnt .internalNl),(20,.cb)],0,0⟩,⟨31,1024,[],[(19,.setEnt .internalNl),(20,.cb)],0,0⟩,⟨32,4096,[],[(19,.setEnt .internalNl),(20,.cb)],0,0⟩,⟨33,8192,[.crAlone],[(19,.setEnt .internalNl),(20,.cb)],0,0⟩,⟨34,4294967808,[],[(19,.setEnt .internalNl),(20,.cb)],0,0⟩,⟨35,115792089237316195423570985008687907853269984665635612279300442486792058292735,[],[(19,.setEnt .internalNl),(20,.cb),(21,.code)],0,0⟩,⟨36,4951760157141521099596496896,[],[(19,.setEnt .internalNl),(20,.cb)],0,0⟩,⟨38,17179869184,[],[(19,.setEnt .internalNl),(20,.cb),(23,.commit),(24,.code),(35,.code)],0,0⟩],[⟨29,8192,[],[],0,0⟩,⟨31,1024,[],[],0,0⟩,⟨32,4096,[],[],0,0⟩,⟨33,8192,[.crAlone],[],0,0⟩,⟨34,4294967808,[],[],0,0⟩,⟨35,115792089237316195423570985008687907853269984665635612279300442486792058292735,[],[(21,.code)],0,0⟩,⟨36,4951760157141521099596496896,[],[],0,0⟩,⟨38,17179869184,[],[(23,.commit),(24,.code),(35,.code)],0,0⟩],[⟨29,8192,[],[],0,0⟩,⟨31,1024,[],[],0,0⟩,⟨32,4096,[],[],0,0⟩,⟨33,8192,[.crAlone],[],0,0⟩,⟨34,4294967808,[],[],0,0⟩,⟨35,115792089237316195423570985008687907853269984665635612279300442486792058292735,[],[(21,.code)],0,0⟩,⟨36,4951760157141521099596496896,[],[],0,0⟩,⟨38,17179869184,[],[(23,.commit),(24,.code),(35,.code)],0,0⟩],[⟨37,115792089237316195423570985008687907853269984665640564039457584007913129626623,[],[(22,.code)],0,0⟩],[⟨29,8192,[],[],0,0⟩,⟨31,1024,[],[],0,0⟩,⟨32,4096,[],[],0,0⟩,⟨33,8192,[.crAlone],[],0,0⟩,⟨34,4294967808,[],[],0,0⟩,⟨35,115792089237316195423570985008687907853269984665635612279300442486792058292735,[],[(21,.code)],0,0⟩,⟨36,4951760157141521099596496896,[],[],0,0⟩,⟨38,17179869184,[],[(23,.commit),(24,.code),(35,.code)],0,0⟩],[],[⟨40,549755813888,[],[],0,4⟩],[⟨41,549755813888,[],[(25,.code)],0,4⟩],[⟨42,8192,[],[],0,4⟩,⟨44,1024,[],[],0,4⟩,⟨45,4096,[],[],0,4⟩,⟨46,8192,[.crAlone],[],0,4⟩,⟨47,4294967808,[],[],0,4⟩,⟨48,115792089237316195423570985008687907853269984665640564039457584007908834658815,[],[(28,.code)],0,4⟩,⟨49,549755813888,[],[],0,4⟩],[⟨43,1024,[],[],0,4⟩],[⟨42,8192,[],[(26,.setEnt .internalNl),(27,.cb)],0,4⟩,⟨44,1024,[],[(26,.setEnt .internalNl),(27,.cb)],0,4⟩,⟨45,4096,[],[(26,.setEnt .internalNl),(27,.cb)],0,4⟩,⟨46,8192,[.crAlone],[(26,.setEnt .internalNl),(27,.cb)],0,4⟩,⟨47,4294967808,[],[(26,.setEnt .internalNl),(27,.cb)],0,4⟩,⟨48,115792089237316195423570985008687907853269984665640564039457584007908834658815,[],[(26,.setEnt .internalNl),(27,.cb),(28,.code)],0,4⟩,⟨49,549755813888,[],[(26,.setEnt .internalNl),(27,.cb)],0,4⟩],[⟨42,8192,[],[(26,.setEnt .internalNl),(27,.cb)],0,4⟩,⟨44,1024,[],[(26,.setEnt .internalNl),(27,.cb)],0,4⟩,⟨45,4096,[],[(26,.setEnt .internalNl),(27,.cb)],0,4⟩,⟨46,8192,[.crAlone],[(26,.setEnt .internalNl),(27,.cb)],0,4⟩,⟨47,4294967808,[],[(26,.setEnt .internalNl),(27,.cb)],0,4⟩,⟨48,115792089237316195423570985008687907853269984665640564039457584007908834658815,[],[(26,.setEnt .internalNl),(27,.cb),(28,.code)],0,4⟩,⟨49,549755813888,[],[(26,.setEnt .internalNl),(27,.cb)],0,4⟩],[⟨42,8192,[],[(26,.setEnt .internalNl),(27,.cb)],0,4⟩,⟨44,1024,[],[(26,.setEnt .internalNl),(27,.cb)],0,4⟩,⟨45,4096,[],[(26,.setEnt .internalNl),(27,.cb)],0,4⟩,⟨46,8192,[.crAlone],[(26,.setEnt .internalNl),(27,.cb)],0,4⟩,⟨47,4294967808,[],[(26,.setEnt .internalNl),(27,.cb)],0,4⟩,⟨48,115792089237316195423570985008687907853269984665640564039457584007908834658815,[],[(26,.setEnt .internalNl),(27,.cb),(28,.code)],0,4⟩,⟨49,549755813888,[],[(26,.setEnt .internalNl),(27,.cb)],0,4⟩],[⟨42,8192,[],[(26,.setEnt .internalNl),(27,.cb)],0,4⟩,⟨44,1024,[],[(26,.setEnt .internalNl),(27,.cb)],0,4⟩,⟨45,4096,[],[(26,.setEnt .internalNl),(27,.cb)],0,4⟩,⟨46,8192,[.crAlone],[(26,.setEnt .internalNl),(27,.cb)],0,4⟩,⟨47,4294967808,[],[(26,.setEnt .internalNl),(27,.cb)],0,4⟩,⟨48,115792089237316195423570985008687907853269984665640564039457584007908834658815,[],[(26,.setEnt .internalNl),(27,.cb),(28,.code)],0,4⟩,⟨49,549755813888,[],[(26,.setEnt .internalNl),(27,.cb)],0,4⟩],[⟨42,8192,[],[],0,4⟩,⟨44,1024,[],[],0,4⟩,⟨45,4096,[],[],0,4⟩,⟨46,8192,[.crAlone],[],0,4⟩,⟨47,4294967808,[],[],0,4⟩,⟨48,115792089237316195423570985008687907853269984665640564039457584007908834658815,[],[(28,.code)],0,4⟩,⟨49,549755813888,[],[],0,4⟩],[⟨42,8192,[],[],0,4⟩,⟨44,1024,[],[],0,4⟩,⟨45,4096,[],[],0,4⟩,⟨46,8192,[.crAlone],[],0,4⟩,⟨47,4294967808,[],[],0,4⟩,⟨48,115792089237316195423570985008687907853269984665640564039457584007908834658815,[],[(28,.code)],0,4⟩,⟨49,549755813888,[],[],0,4⟩],[⟨50,549755813888,[],[],0,0⟩],[⟨51,549755813888,[],[(29,.code),(35,.code)],4,0⟩],[],[⟨53,17179869184,[],[],0,8⟩],[⟨54,17179869184,[],[(30,.code)],0,8⟩],[⟨55,8192,[],[],0,8⟩,⟨57,1024,[],[],0,8⟩,⟨58,4096,[],[],0,8⟩,⟨59,8192,[.crAlone],[],0,8⟩,⟨60,4294967808,[],[],0,8⟩,⟨61,115792089237316195423570985008687907853269984665640564039457584007908834658815,[],[(33,.code)],0,8⟩,⟨62,17179869184,[],[],0,8⟩],[⟨56,1024,[],[],0,8⟩],[⟨55,8192,[],[(31,.setEnt .internalNl),(32,.cb)],0,8⟩,⟨57,1024,[],[(31,.setEnt .internalNl),(32,.cb)],0,8⟩,⟨58,4096,[],[(31,.setEnt .internalNl),(32,.cb)],0,8⟩,⟨59,8192,[.crAlone],[(31,.setEnt .internalNl),(32,.cb)],0,8⟩,⟨60,4294967808,[],[(31,.setEnt .internalNl),(32,.cb)],0,8⟩,⟨61,115792089237316195423570985008687907853269984665640564039457584007908834658815,[],[(31,.setEnt .internalNl),(32,.cb),(33,.code)],0,8⟩,⟨62,17179869184,[],[(31,.setEnt .internalNl),(32,.cb)],0,8⟩],[⟨55,8192,[],[(31,.setEnt .internalNl),(32,.cb)],0,8⟩,⟨57,1024,[],[(31,.setEnt .internalNl),(32,.cb)],0,8⟩,⟨58,4096,[],[(31,.setEnt .internalNl),(32,.cb)],0,8⟩,⟨59,8192,[.crAlone],[(31,.setEnt .internalNl),(32,.cb)],0,8⟩,⟨60,4294967808,[],[(31,.setEnt .internalNl),(32,.cb)],0,8⟩,⟨61,115792089237316195423570985008687907853269984665640564039457584007908834658815,[],[(31,.setEnt .internalNl),(32,.cb),(33,.code)],0,8⟩,⟨62,17179869184,[],[(31,.setEnt .internalNl),(32,.cb)],0,8⟩],[⟨55,8192,[],[(31,.setEnt .internalNl),(32,.cb)],0,8⟩,⟨57,1024,[],[(31,.setEnt .internalNl),(32,.cb)],0,8⟩,⟨58,4096,[],[(31,.setEnt .internalNl),(32,.cb)],0,8⟩,⟨59,8192,[.crAlone],[(31,.setEnt .internalNl),(32,.cb)],0,8⟩,⟨60,4294967808,[],[(31,.setEnt .internalNl),(32,.cb)],0,8⟩,⟨61,115792089237316195423570985008687907853269984665640564039457584007908834658815,[],[(31,.setEnt .internalNl),(32,.cb),(33,.code)],0,8⟩,⟨62,17179869184,[],[(31,.setEnt .internalNl),(32,.cb)],0,8⟩],[⟨55,8192,[],[(31,.setEnt .internalNl),(32,.cb)],0,8⟩,⟨57,1024,[],[(31,.setEnt .internalNl),(32,.cb)],0,8⟩,⟨58,4096,[],[(31,.setEnt .internalNl),(32,.cb)],0,8⟩,⟨59,8192,[.crAlone],[(31,.setEnt .internalNl),(32,.cb)],0,8⟩,⟨60,4294967808,[],[(31,.setEnt .internalNl),(32,.cb)],0,8⟩,⟨61,115792089237316195423570985008687907853269984665640564039457584007908834658815,[],[(31,.setEnt .internalNl),(32,.cb),(33,.code)],0,8⟩,⟨62,17179869184,[],[(31,.setEnt .internalNl),(32,.cb)],0,8⟩],[⟨55,8192,[],[],0,8⟩,⟨57,1024,[],[],0,8⟩,⟨58,4096,[],[],0,8⟩,⟨59,8192,[.crAlone],[],0,8⟩,⟨60,4294967808,[],[],0,8⟩,⟨61,115792089237316195423570985008687907853269984665640564039457584007908834658815,[],[(33,.code)],0,8⟩,⟨62,17179869184,[],[],0,8⟩],[⟨55,8192,[],[],0,8⟩,⟨57,1024,[],[],0,8⟩,⟨58,4096,[],[],0,8⟩,⟨59,8192,[.crAlone],[],0,8⟩,⟨60,4294967808,[],[],0,8⟩,⟨61,115792089237316195423570985008687907853269984665640564039457584007908834658815,[],[(33,.code)],0,8⟩,⟨62,17179869184,[],[],0,8⟩],[⟨63,17179869184,[],[],0,0⟩],[⟨64,17179869184,[],[(34,.code),(35,.code)],8,0⟩],[],[⟨66,1024,[],[(36,.setEnt .newline)],0,0⟩],[],[],[],[],[]],[some (0,[]),some (1,[]),some (2,[]),some (2,[]),none,none,none,none,none,none,none,none,none,none,none,none,some (2,[]),none,none,none,none,none,none,none,none,none,none,some (3,[]),none,none,none,none,none,none,none,none,none,none,some (3,[]),none,none,none,none,none,none,none,none,none,none,none,none,some (3,[]),none,none,none,none,none,none,none,none,none,none,none,none,some (3,[]),none,some (4,[]),some (4,[]),some (4,[]),some (4,[]),some (5,[])],[3,4,9,36,37,38]⟩
def emb19_masks : List Nat := [79228162514264337593543950336,4294967808,34359738368,549755813888,17179869184,8192,1024,4096,115792089237316195423570985008687907853269984665640564039457584007908834656767,115792089237316195423570985008687907853269984665640564039457584007913129626623,115792089237316195423570985008687907853269984665640564039457584007908834658815,115792089237316195423570985008687907853269984665635612279300442486259482348031,4951760157141521099596496896,115792089237316195423570985008687907853269984665635612279300442486792058292735]
def emb19_cs : List (Nat × Nat) := [(0,115792089237316195423570985008687907853269984665556384116786178148614398788095),(9,4294967808),(10,1024),(11,2048),(12,4096),(13,8192),(34,17179869184),(35,34359738368),(39,549755813888),(92,4951760157141521099596496896),(96,79228162514264337593543950336)]
theorem emb19_masksIn : masksIn emb19_nfa emb19_masks = true := by decide +kernel
theorem emb19_repOk : repOk emb19_masks emb19_cs = true := by decide +kernel
def emb19_rows : List Row := [⟨[],none,[],[⟨256,.other,false,some ⟨0,[.setEnt (.own 3)],some 5,true⟩⟩,⟨256,.ws,false,some ⟨1,[.setEnt (.own 0)],some 1,false⟩⟩,⟨256,.lf,false,some ⟨0,[.setEnt .newline],some 4,true⟩⟩,⟨256,.vt,false,none⟩,⟨256,.ff,false,some ⟨0,[.setEnt .newline],some 4,true⟩⟩,⟨256,.cr,false,some ⟨2,[.setEnt .newline],none,false⟩⟩,⟨256,.cr,true,some ⟨3,[.setEnt .newline],some 4,false⟩⟩,⟨256,.other,false,some ⟨4,[.enqueue,.code,.setEnt (.own 3)],some 5,false⟩⟩,⟨256,.other,false,some ⟨5,[.comment,.setEnt (.own 3)],some 2,false⟩⟩,⟨256,.other,false,some ⟨6,[.enqueue,.code,.setEnt (.own 3)],some 5,false⟩⟩,⟨256,.other,false,some ⟨0,[.code,.cb,.emb (.saw 1)],some 0,true⟩⟩]⟩,⟨[1],some 1,[],[⟨256,.other,false,none⟩,⟨256,.ws,false,some ⟨1,[.setEnt (.own 0)],some 1,false⟩⟩,⟨256,.lf,false,none⟩,⟨256,.vt,false,none⟩,⟨256,.ff,false,none⟩,⟨256,.cr,false,none⟩,⟨256,.cr,true,none⟩]⟩,⟨[65],none,[],[⟨256,.other,false,none⟩,⟨256,.ws,false,none⟩,⟨256,.lf,false,some ⟨0,[.setEnt .newline],some 4,true⟩⟩,⟨256,.vt,false,none⟩,⟨256,.ff,false,none⟩,⟨256,.cr,false,none⟩,⟨256,.cr,true,none⟩]⟩,⟨[65,69],some 4,[],[⟨256,.other,false,none⟩,⟨256,.ws,false,none⟩,⟨256,.lf,false,some ⟨0,[.setEnt .newline],some 4,true⟩⟩,⟨256,.vt,false,none⟩,⟨256,.ff,false,none⟩,⟨256,.cr,false,none⟩,⟨256,.cr,true,none⟩]⟩,⟨[28,52,70],some 5,[],[⟨256,.other,false,some ⟨7,[.code],none,false⟩⟩,⟨256,.ws,false,some ⟨8,[],none,false⟩⟩,⟨256,.lf,false,some ⟨9,[],none,false⟩⟩,⟨256,.vt,false,some ⟨7,[.code],none,false⟩⟩,⟨256,.ff,false,some ⟨10,[],none,false⟩⟩,⟨256,.cr,false,some ⟨11,[],none,false⟩⟩,⟨256,.cr,true,some ⟨12,[],none,false⟩⟩,⟨256,.other,false,some ⟨13,[.commit,.code],some 3,false⟩⟩,⟨256,.other,false,some ⟨14,[],none,false⟩⟩]⟩,⟨[2,4,70],some 2,[],[⟨256,.other,false,some ⟨15,[],some 2,false⟩⟩,⟨256,.ws,false,some ⟨15,[],some 2,false⟩⟩,⟨256,.lf,false,none⟩,⟨256,.vt,false,some ⟨15,[],some 2,false⟩⟩,⟨256,.ff,false,none⟩,⟨256,.cr,false,none⟩,⟨256,.cr,true,none⟩,⟨256,.other,false,some ⟨16,[],some 2,false⟩⟩]⟩,⟨[17,39,70],some 5,[],[⟨256,.other,false,some ⟨17,[.code],none,false⟩⟩,⟨256,.ws,false,some ⟨18,[],none,false⟩⟩,⟨256,.lf,false,some ⟨19,[],none,false⟩⟩,⟨256,.vt,false,some ⟨17,[.code],none,false⟩⟩,⟨256,.ff,false,some ⟨20,[],none,false⟩⟩,⟨256,.cr,false,some ⟨21,[],none,false⟩⟩,⟨256,.cr,true,some ⟨22,[],none,false⟩⟩,⟨256,.other,false,some ⟨23,[.commit,.code],some 3,false⟩⟩,⟨256,.other,false,some ⟨24,[],none,false⟩⟩]⟩,⟨[35],none,[],[⟨256,.other,false,some ⟨7,[.code],none,false⟩⟩,⟨256,.ws,false,some ⟨8,[],none,false⟩⟩,⟨256,.lf,false,some ⟨9,[],none,false⟩⟩,⟨256,.vt,false,some ⟨7,[.code],none,false⟩⟩,⟨256,.ff,false,some ⟨10,[],none,false⟩⟩,⟨256,.cr,false,some ⟨11,[],none,false⟩⟩,⟨256,.cr,true,some ⟨12,[],none,false⟩⟩,⟨256,.other,false,some ⟨0,[.commit,.code],some 3,true⟩⟩,⟨256,.other,false,some ⟨14,[],none,false⟩⟩]⟩,⟨[34],none,[],[⟨256,.other,false,some ⟨7,[.code],none,false⟩⟩,⟨256,.ws,false,some ⟨8,[],none,false⟩⟩,⟨256,.lf,false,some ⟨9,[],none,false⟩⟩,⟨256,.vt,false,some ⟨7,[.code],none,false⟩⟩,⟨256,.ff,false,some ⟨10,[],none,false⟩⟩,⟨256,.cr,false,some ⟨11,[],none,false⟩⟩,⟨256,.cr,true,some ⟨12,[],none,false⟩⟩,⟨256,.other,false,some ⟨0,[.commit,.code],some 3,true⟩⟩,⟨256,.other,false,some ⟨14,[],none,false⟩⟩]⟩,⟨[31],none,[],[⟨256,.other,false,some ⟨7,[.setEnt .internalNl,.cb,.code],none,false⟩⟩,⟨256,.ws,false,some ⟨8,[.setEnt .internalNl,.cb],none,false⟩⟩,⟨256,.lf,false,some ⟨9,[.setEnt .internalNl,.cb],none,false⟩⟩,⟨256,.vt,false,some ⟨7,[.setEnt .internalNl,.cb,.code],none,false⟩⟩,⟨256,.ff,false,some ⟨10,[.setEnt .internalNl,.cb],none,false⟩⟩,⟨256,.cr,false,some ⟨11,[.setEnt .internalNl,.cb],none,false⟩⟩,⟨256,.cr,true,some ⟨12,[.setEnt .internalNl,.cb],none,false⟩⟩,⟨256,.other,false,some ⟨0,[.setEnt .internalNl,.cb,.commit,.code],some 3,true⟩⟩,⟨256,.other,false,some ⟨14,[.setEnt .internalNl,.cb],none,false⟩⟩]⟩,⟨[32],none,[],[⟨256,.other,false,some ⟨7,[.setEnt .internalNl,.cb,.code],none,false⟩⟩,⟨256,.ws,false,some ⟨8,[.setEnt .internalNl,.cb],none,false⟩⟩,⟨256,.lf,false,some ⟨9,[.setEnt .internalNl,.cb],none,false⟩⟩,⟨256,.vt,false,some ⟨7,[.setEnt .internalNl,.cb,.code],none,false⟩⟩,⟨256,.ff,false,some ⟨10,[.setEnt .internalNl,.cb],none,false⟩⟩,⟨256,.cr,false,some ⟨11,[.setEnt .internalNl,.cb],none,false⟩⟩,⟨256,.cr,true,some ⟨12,[.setEnt .internalNl,.cb],none,false⟩⟩,⟨256,.other,false,some ⟨0,[.setEnt .internalNl,.cb,.commit,.code],some 3,true⟩⟩,⟨256,.other,false,some ⟨14,[.setEnt .internalNl,.cb],none,false⟩⟩]⟩,⟨[29],none,[],[⟨256,.other,false,none⟩,⟨256,.ws,false,none⟩,⟨256,.lf,false,some ⟨25,[],none,false⟩⟩,⟨256,.vt,false,none⟩,⟨256,.ff,false,none⟩,⟨256,.cr,false,none⟩,⟨256,.cr,true,none⟩]⟩,⟨[29,33],none,[],[⟨256,.other,false,some ⟨7,[.setEnt .internalNl,.cb,.code],none,false⟩⟩,⟨256,.ws,false,some ⟨8,[.setEnt .internalNl,.cb],none,false⟩⟩,⟨256,.lf,false,some ⟨26,[.setEnt .internalNl,.cb],none,false⟩⟩,⟨256,.vt,false,some ⟨7,[.setEnt .internalNl,.cb,.code],none,false⟩⟩,⟨256,.ff,false,some ⟨10,[.setEnt .internalNl,.cb],none,false⟩⟩,⟨256,.cr,false,some ⟨11,[.setEnt .internalNl,.cb],none,false⟩⟩,⟨256,.cr,true,some ⟨12,[.setEnt .internalNl,.cb],none,false⟩⟩,⟨256,.other,false,some ⟨0,[.setEnt .internalNl,.cb,.commit,.code],some 3,true⟩⟩,⟨256,.other,false,some ⟨14,[.setEnt .internalNl,.cb],none,false⟩⟩]⟩,⟨[38,53],some 3,[],[⟨256,.other,false,none⟩,⟨256,.ws,false,none⟩,⟨256,.lf,false,none⟩,⟨256,.vt,false,none⟩,⟨256,.ff,false,none⟩,⟨256,.cr,false,none⟩,⟨256,.cr,true,none⟩,⟨256,.other,false,some ⟨27,[.code],none,false⟩⟩]⟩,⟨[36],none,[],[⟨256,.other,false,some ⟨28,[.code],none,false⟩⟩,⟨256,.ws,false,some ⟨28,[.code],none,false⟩⟩,⟨256,.lf,false,none⟩,⟨256,.vt,false,some ⟨28,[.code],none,false⟩⟩,⟨256,.ff,false,none⟩,⟨256,.cr,false,none⟩,⟨256,.cr,true,none⟩]⟩,⟨[3],some 2,[],[⟨256,.other,false,some ⟨15,[],some 2,false⟩⟩,⟨256,.ws,false,some ⟨15,[],some 2,false⟩⟩,⟨256,.lf,false,none⟩,⟨256,.vt,false,some ⟨15,[],some 2,false⟩⟩,⟨256,.ff,false,none⟩,⟨256,.cr,false,none⟩,⟨256,.cr,true,none⟩]⟩,⟨[3,5],some 2,[],[⟨256,.other,false,some ⟨15,[],some 2,false⟩⟩,⟨256,.ws,false,some ⟨15,[],some 2,false⟩⟩,⟨256,.lf,false,none⟩,⟨256,.vt,false,some ⟨15,[],some 2,false⟩⟩,⟨256,.ff,false,none⟩,⟨256,.cr,false,none⟩,⟨256,.cr,true,none⟩,⟨256,.other,false,some ⟨29,[.comment],some 2,false⟩⟩]⟩,⟨[24],none,[],[⟨256,.other,false,some ⟨17,[.code],none,false⟩⟩,⟨256,.ws,false,some ⟨18,[],none,false⟩⟩,⟨256,.lf,false,some ⟨19,[],none,false⟩⟩,⟨256,.vt,false,some ⟨17,[.code],none,false⟩⟩,⟨256,.ff,false,some ⟨20,[],none,false⟩⟩,⟨256,.cr,false,some ⟨21,[],none,false⟩⟩,⟨256,.cr,true,some ⟨22,[],none,false⟩⟩,⟨256,.other,false,some ⟨0,[.commit,.code],some 3,true⟩⟩,⟨256,.other,false,some ⟨24,[],none,false⟩⟩]⟩,⟨[23],none,[],[⟨256,.other,false,some ⟨17,[.code],none,false⟩⟩,⟨256,.ws,false,some ⟨18,[],none,false⟩⟩,⟨256,.lf,false,some ⟨19,[],none,false⟩⟩,⟨256,.vt,false,some ⟨17,[.code],none,false⟩⟩,⟨256,.ff,false,some ⟨20,[],none,false⟩⟩,⟨256,.cr,false,some ⟨21,[],none,false⟩⟩,⟨256,.cr,true,some ⟨22,[],none,false⟩⟩,⟨256,.other,false,some ⟨0,[.commit,.code],some 3,true⟩⟩,⟨256,.other,false,some ⟨24,[],none,false⟩⟩]⟩,⟨[20],none,[],[⟨256,.other,false,some ⟨17,[.setEnt .internalNl,.cb,.code],none,false⟩⟩,⟨256,.ws,false,some ⟨18,[.setEnt .internalNl,.cb],none,false⟩⟩,⟨256,.lf,false,some ⟨19,[.setEnt .internalNl,.cb],none,false⟩⟩,⟨256,.vt,false,some ⟨17,[.setEnt .internalNl,.cb,.code],none,false⟩⟩,⟨256,.ff,false,some ⟨20,[.setEnt .internalNl,.cb],none,false⟩⟩,⟨256,.cr,false,some ⟨21,[.setEnt .internalNl,.cb],none,false⟩⟩,⟨256,.cr,true,some ⟨22,[.setEnt .internalNl,.cb],none,false⟩⟩,⟨256,.other,false,some ⟨0,[.setEnt .internalNl,.cb,.commit,.code],some 3,true⟩⟩,⟨256,.other,false,some ⟨24,[.setEnt .internalNl,.cb],none,false⟩⟩]⟩,⟨[21],none,[],[⟨256,.other,false,some ⟨17,[.setEnt .internalNl,.cb,.code],none,false⟩⟩,⟨256,.ws,false,some ⟨18,[.setEnt .internalNl,.cb],none,false⟩⟩,⟨256,.lf,false,some ⟨19,[.setEnt .internalNl,.cb],none,false⟩⟩,⟨256,.vt,false,some ⟨17,[.setEnt .internalNl,.cb,.code],none,false⟩⟩,⟨256,.ff,false,some ⟨20,[.setEnt .internalNl,.cb],none,false⟩⟩,⟨256,.cr,false,some ⟨21,[.setEnt .internalNl,.cb],none,false⟩⟩,⟨256,.cr,true,some ⟨22,[.setEnt .internalNl,.cb],none,false⟩⟩,⟨256,.other,false,some ⟨0,[.setEnt .internalNl,.cb,.commit,.code],some 3,true⟩⟩,⟨256,.other,false,some ⟨24,[.setEnt .internalNl,.cb],none,false⟩⟩]⟩,⟨[18],none,[],[⟨256,.other,false,none⟩,⟨256,.ws,false,none⟩,⟨256,.lf,false,some ⟨30,[],none,false⟩⟩,⟨256,.vt,false,none⟩,⟨256,.ff,false,none⟩,⟨256,.cr,false,none⟩,⟨256,.cr,true,none⟩]⟩,⟨[18,22],none,[],[⟨256,.other,false,some ⟨17,[.setEnt .internalNl,.cb,.code],none,false⟩⟩,⟨256,.ws,false,some ⟨18,[.setEnt .internalNl,.cb],none,false⟩⟩,⟨256,.lf,false,some ⟨31,[.setEnt .internalNl,.cb],none,false⟩⟩,⟨256,.vt,false,some ⟨17,[.setEnt .internalNl,.cb,.code],none,false⟩⟩,⟨256,.ff,false,some ⟨20,[.setEnt .internalNl,.cb],none,false⟩⟩,⟨256,.cr,false,some ⟨21,[.setEnt .internalNl,.cb],none,false⟩⟩,⟨256,.cr,true,some ⟨22,[.setEnt .internalNl,.cb],none,false⟩⟩,⟨256,.other,false,some ⟨0,[.setEnt .internalNl,.cb,.commit,.code],some 3,true⟩⟩,⟨256,.other,false,some ⟨24,[.setEnt .internalNl,.cb],none,false⟩⟩]⟩,⟨[27,40],some 3,[],[⟨256,.other,false,none⟩,⟨256,.ws,false,none⟩,⟨256,.lf,false,none⟩,⟨256,.vt,false,none⟩,⟨256,.ff,false,none⟩,⟨256,.cr,false,none⟩,⟨256,.cr,true,none⟩,⟨256,.other,false,some ⟨32,[.code],none,false⟩⟩]⟩,⟨[25],none,[],[⟨256,.other,false,some ⟨33,[.code],none,false⟩⟩,⟨256,.ws,false,some ⟨33,[.code],none,false⟩⟩,⟨256,.lf,false,none⟩,⟨256,.vt,false,some ⟨33,[.code],none,false⟩⟩,⟨256,.ff,false,none⟩,⟨256,.cr,false,none⟩,⟨256,.cr,true,none⟩]⟩,⟨[30],none,[],[⟨256,.other,false,some ⟨7,[.setEnt .internalNl,.cb,.code],none,false⟩⟩,⟨256,.ws,false,some ⟨8,[.setEnt .internalNl,.cb],none,false⟩⟩,⟨256,.lf,false,some ⟨9,[.setEnt .internalNl,.cb],none,false⟩⟩,⟨256,.vt,false,some ⟨7,[.setEnt .internalNl,.cb,.code],none,false⟩⟩,⟨256,.ff,false,some ⟨10,[.setEnt .internalNl,.cb],none,false⟩⟩,⟨256,.cr,false,some ⟨11,[.setEnt .internalNl,.cb],none,false⟩⟩,⟨256,.cr,true,some ⟨12,[.setEnt .internalNl,.cb],none,false⟩⟩,⟨256,.other,false,some ⟨0,[.setEnt .internalNl,.cb,.commit,.code],some 3,true⟩⟩,⟨256,.other,false,some ⟨14,[.setEnt .internalNl,.cb],none,false⟩⟩]⟩,⟨[30,31],none,[],[⟨256,.other,false,some ⟨7,[.setEnt .internalNl,.cb,.code],none,false⟩⟩,⟨256,.ws,false,some ⟨8,[.setEnt .internalNl,.cb],none,false⟩⟩,⟨256,.lf,false,some ⟨9,[.setEnt .internalNl,.cb],none,false⟩⟩,⟨256,.vt,false,some ⟨7,[.setEnt .internalNl,.cb,.code],none,false⟩⟩,⟨256,.ff,false,some ⟨10,[.setEnt .internalNl,.cb],none,false⟩⟩,⟨256,.cr,false,some ⟨11,[.setEnt .internalNl,.cb],none,false⟩⟩,⟨256,.cr,true,some ⟨12,[.setEnt .internalNl,.cb],none,false⟩⟩,⟨256,.other,false,some ⟨0,[.setEnt .internalNl,.cb,.commit,.code],some 3,true⟩⟩,⟨256,.other,false,some ⟨14,[.setEnt .internalNl,.cb],none,false⟩⟩]⟩,⟨[54],none,[],[⟨256,.other,false,some ⟨34,[.code],none,false⟩⟩,⟨256,.ws,false,some ⟨35,[],none,false⟩⟩,⟨256,.lf,false,some ⟨36,[],none,false⟩⟩,⟨256,.vt,false,some ⟨34,[.code],none,false⟩⟩,⟨256,.ff,false,some ⟨37,[],none,false⟩⟩,⟨256,.cr,false,some ⟨38,[],none,false⟩⟩,⟨256,.cr,true,some ⟨39,[],none,false⟩⟩,⟨256,.other,false,some ⟨40,[.code],none,false⟩⟩]⟩,⟨[37],none,[],[⟨256,.other,false,some ⟨7,[.code],none,false⟩⟩,⟨256,.ws,false,some ⟨8,[],none,false⟩⟩,⟨256,.lf,false,some ⟨9,[],none,false⟩⟩,⟨256,.vt,false,some ⟨7,[.code],none,false⟩⟩,⟨256,.ff,false,some ⟨10,[],none,false⟩⟩,⟨256,.cr,false,some ⟨11,[],none,false⟩⟩,⟨256,.cr,true,some ⟨12,[],none,false⟩⟩,⟨256,.other,false,some ⟨0,[.commit,.code],some 3,true⟩⟩,⟨256,.other,false,some ⟨14,[],none,false⟩⟩]⟩,⟨[3,6],some 2,[],[⟨256,.other,false,some ⟨41,[.comment],some 2,false⟩⟩,⟨256,.ws,false,some ⟨42,[],some 2,false⟩⟩,⟨256,.lf,false,some ⟨43,[],none,false⟩⟩,⟨256,.vt,false,some ⟨41,[.comment],some 2,false⟩⟩,⟨256,.ff,false,some ⟨44,[],none,false⟩⟩,⟨256,.cr,false,some ⟨45,[],none,false⟩⟩,⟨256,.cr,true,some ⟨46,[],none,false⟩⟩,⟨256,.other,false,some ⟨47,[.comment],some 2,false⟩⟩]⟩,⟨[19],none,[],[⟨256,.other,false,some ⟨17,[.setEnt .internalNl,.cb,.code],none,false⟩⟩,⟨256,.ws,false,some ⟨18,[.setEnt .internalNl,.cb],none,false⟩⟩,⟨256,.lf,false,some ⟨19,[.setEnt .internalNl,.cb],none,false⟩⟩,⟨256,.vt,false,some ⟨17,[.setEnt .internalNl,.cb,.code],none,false⟩⟩,⟨256,.ff,false,some ⟨20,[.setEnt .internalNl,.cb],none,false⟩⟩,⟨256,.cr,false,some ⟨21,[.setEnt .internalNl,.cb],none,false⟩⟩,⟨256,.cr,true,some ⟨22,[.setEnt .internalNl,.cb],none,false⟩⟩,⟨256,.other,false,some ⟨0,[.setEnt .internalNl,.cb,.commit,.code],some 3,true⟩⟩,⟨256,.other,false,some ⟨24,[.setEnt .internalNl,.cb],none,false⟩⟩]⟩,⟨[19,20],none,[],[⟨256,.other,false,some ⟨17,[.setEnt .internalNl,.cb,.code],none,false⟩⟩,⟨256,.ws,false,some ⟨18,[.setEnt .internalNl,.cb],none,false⟩⟩,⟨256,.lf,false,some ⟨19,[.setEnt .internalNl,.cb],none,false⟩⟩,⟨256,.vt,false,some ⟨17,[.setEnt .internalNl,.cb,.code],none,false⟩⟩,⟨256,.ff,false,some ⟨20,[.setEnt .internalNl,.cb],none,false⟩⟩,⟨256,.cr,false,some ⟨21,[.setEnt .internalNl,.cb],none,false⟩⟩,⟨256,.cr,true,some ⟨22,[.setEnt .internalNl,.cb],none,false⟩⟩,⟨256,.other,false,some ⟨0,[.setEnt .internalNl,.cb,.commit,.code],some 3,true⟩⟩,⟨256,.other,false,some ⟨24,[.setEnt .internalNl,.cb],none,false⟩⟩]⟩,⟨[41],none,[],[⟨256,.other,false,some ⟨48,[.code],none,false⟩⟩,⟨256,.ws,false,some ⟨49,[],none,false⟩⟩,⟨256,.lf,false,some ⟨50,[],none,false⟩⟩,⟨256,.vt,false,some ⟨48,[.code],none,false⟩⟩,⟨256,.ff,false,some ⟨51,[],none,false⟩⟩,⟨256,.cr,false,some ⟨52,[],none,false⟩⟩,⟨256,.cr,true,some ⟨53,[],none,false⟩⟩,⟨256,.other,false,some ⟨54,[.code],none,false⟩⟩]⟩,⟨[26],none,[],[⟨256,.other,false,some ⟨17,[.code],none,false⟩⟩,⟨256,.ws,false,some ⟨18,[],none,false⟩⟩,⟨256,.lf,false,some ⟨19,[],none,false⟩⟩,⟨256,.vt,false,some ⟨17,[.code],none,false⟩⟩,⟨256,.ff,false,some ⟨20,[],none,false⟩⟩,⟨256,.cr,false,some ⟨21,[],none,false⟩⟩,⟨256,.cr,true,some ⟨22,[],none,false⟩⟩,⟨256,.other,false,some ⟨0,[.commit,.code],some 3,true⟩⟩,⟨256,.other,false,some ⟨24,[],none,false⟩⟩]⟩,⟨[61],none,[],[⟨256,.other,false,some ⟨34,[.code],none,false⟩⟩,⟨256,.ws,false,some ⟨35,[],none,false⟩⟩,⟨256,.lf,false,some ⟨36,[],none,false⟩⟩,⟨256,.vt,false,some ⟨34,[.code],none,false⟩⟩,⟨256,.ff,false,some ⟨37,[],none,false⟩⟩,⟨256,.cr,false,some ⟨38,[],none,false⟩⟩,⟨256,.cr,true,some ⟨39,[],none,false⟩⟩,⟨256,.other,false,some ⟨40,[.code],none,false⟩⟩]⟩,⟨[60],none,[],[⟨256,.other,false,some ⟨34,[.code],none,false⟩⟩,⟨256,.ws,false,some ⟨35,[],none,false⟩⟩,⟨256,.lf,false,some ⟨36,[],none,false⟩⟩,⟨256,.vt,false,some ⟨34,[.code],none,false⟩⟩,⟨256,.ff,false,some ⟨37,[],none,false⟩⟩,⟨256,.cr,false,some ⟨38,[],none,false⟩⟩,⟨256,.cr,true,some ⟨39,[],none,false⟩⟩,⟨256,.other,false,some ⟨40,[.code],none,false⟩⟩]⟩,⟨[57],none,[],[⟨256,.other,false,some ⟨34,[.setEnt .internalNl,.cb,.code],none,false⟩⟩,⟨256,.ws,false,some ⟨35,[.setEnt .internalNl,.cb],none,false⟩⟩,⟨256,.lf,false,some ⟨36,[.setEnt .internalNl,.cb],none,false⟩⟩,⟨256,.vt,false,some ⟨34,[.setEnt .internalNl,.cb,.code],none,false⟩⟩,⟨256,.ff,false,some ⟨37,[.setEnt .internalNl,.cb],none,false⟩⟩,⟨256,.cr,false,some ⟨38,[.setEnt .internalNl,.cb],none,false⟩⟩,⟨256,.cr,true,some ⟨39,[.setEnt .internalNl,.cb],none,false⟩⟩,⟨256,.other,false,some ⟨40,[.setEnt .internalNl,.cb,.code],none,false⟩⟩]⟩,⟨[58],none,[],[⟨256,.other,false,some ⟨34,[.setEnt .internalNl,.cb,.code],none,false⟩⟩,⟨256,.ws,false,some ⟨35,[.setEnt .internalNl,.cb],none,false⟩⟩,⟨256,.lf,false,some ⟨36,[.setEnt .internalNl,.cb],none,false⟩⟩,⟨256,.vt,false,some ⟨34,[.setEnt .internalNl,.cb,.code],none,false⟩⟩,⟨256,.ff,false,some ⟨37,[.setEnt .internalNl,.cb],none,false⟩⟩,⟨256,.cr,false,some ⟨38,[.setEnt .internalNl,.cb],none,false⟩⟩,⟨256,.cr,true,some ⟨39,[.setEnt .internalNl,.cb],none,false⟩⟩,⟨256,.other,false,some ⟨40,[.setEnt .internalNl,.cb,.code],none,false⟩⟩]⟩,⟨[55],none,[],[⟨256,.other,false,none⟩,⟨256,.ws,false,none⟩,⟨256,.lf,false,some ⟨55,[],none,false⟩⟩,⟨256,.vt,false,none⟩,⟨256,.ff,false,none⟩,⟨256,.cr,false,none⟩,⟨256,.cr,true,none⟩]⟩,⟨[55,59],none,[],[⟨256,.other,false,some ⟨34,[.setEnt .internalNl,.cb,.code],none,false⟩⟩,⟨256,.ws,false,some ⟨35,[.setEnt .internalNl,.cb],none,false⟩⟩,⟨256,.lf,false,some ⟨56,[.setEnt .internalNl,.cb],none,false⟩⟩,⟨256,.vt,false,some ⟨34,[.setEnt .internalNl,.cb,.code],none,false⟩⟩,⟨256,.ff,false,some ⟨37,[.setEnt .internalNl,.cb],none,false⟩⟩,⟨256,.cr,false,some ⟨38,[.setEnt .internalNl,.cb],none,false⟩⟩,⟨256,.cr,true,some ⟨39,[.setEnt .internalNl,.cb],none,false⟩⟩,⟨256,.other,false,some ⟨40,[.setEnt .internalNl,.cb,.code],none,false⟩⟩]⟩,⟨[61,62],none,[],[⟨256,.other,false,some ⟨34,[.code],none,false⟩⟩,⟨256,.ws,false,some ⟨35,[],none,false⟩⟩,⟨256,.lf,false,some ⟨36,[],none,false⟩⟩,⟨256,.vt,false,some ⟨34,[.code],none,false⟩⟩,⟨256,.ff,false,some ⟨37,[],none,false⟩⟩,⟨256,.cr,false,some ⟨38,[],none,false⟩⟩,⟨256,.cr,true,some ⟨39,[],none,false⟩⟩,⟨256,.other,false,some ⟨57,[.code],none,false⟩⟩]⟩,⟨[3,13],some 2,[],[⟨256,.other,false,some ⟨41,[.comment],some 2,false⟩⟩,⟨256,.ws,false,some ⟨42,[],some 2,false⟩⟩,⟨256,.lf,false,some ⟨43,[],none,false⟩⟩,⟨256,.vt,false,some ⟨41,[.comment],some 2,false⟩⟩,⟨256,.ff,false,some ⟨44,[],none,false⟩⟩,⟨256,.cr,false,some ⟨45,[],none,false⟩⟩,⟨256,.cr,true,some ⟨46,[],none,false⟩⟩,⟨256,.other,false,some ⟨47,[.comment],some 2,false⟩⟩]⟩,⟨[3,12],some 2,[],[⟨256,.other,false,some ⟨41,[.comment],some 2,false⟩⟩,⟨256,.ws,false,some ⟨42,[],some 2,false⟩⟩,⟨256,.lf,false,some ⟨43,[],none,false⟩⟩,⟨256,.vt,false,some ⟨41,[.comment],some 2,false⟩⟩,⟨256,.ff,false,some ⟨44,[],none,false⟩⟩,⟨256,.cr,false,some ⟨45,[],none,false⟩⟩,⟨256,.cr,true,some ⟨46,[],none,false⟩⟩,⟨256,.other,false,some ⟨47,[.comment],some 2,false⟩⟩]⟩,⟨[9],none,[],[⟨256,.other,false,some ⟨58,[.setEnt .internalNl,.cb,.comment],none,false⟩⟩,⟨256,.ws,false,some ⟨59,[.setEnt .internalNl,.cb],none,false⟩⟩,⟨256,.lf,false,some ⟨43,[.setEnt .internalNl,.cb],none,false⟩⟩,⟨256,.vt,false,some ⟨58,[.setEnt .internalNl,.cb,.comment],none,false⟩⟩,⟨256,.ff,false,some ⟨44,[.setEnt .internalNl,.cb],none,false⟩⟩,⟨256,.cr,false,some ⟨45,[.setEnt .internalNl,.cb],none,false⟩⟩,⟨256,.cr,true,some ⟨46,[.setEnt .internalNl,.cb],none,false⟩⟩,⟨256,.other,false,some ⟨60,[.setEnt .internalNl,.cb,.comment],none,false⟩⟩]⟩,⟨[10],none,[],[⟨256,.other,false,some ⟨58,[.setEnt .internalNl,.cb,.comment],none,false⟩⟩,⟨256,.ws,false,some ⟨59,[.setEnt .internalNl,.cb],none,false⟩⟩,⟨256,.lf,false,some ⟨43,[.setEnt .internalNl,.cb],none,false⟩⟩,⟨256,.vt,false,some ⟨58,[.setEnt .internalNl,.cb,.comment],none,false⟩⟩,⟨256,.ff,false,some ⟨44,[.setEnt .internalNl,.cb],none,false⟩⟩,⟨256,.cr,false,some ⟨45,[.setEnt .internalNl,.cb],none,false⟩⟩,⟨256,.cr,true,some ⟨46,[.setEnt .internalNl,.cb],none,false⟩⟩,⟨256,.other,false,some ⟨60,[.setEnt .internalNl,.cb,.comment],none,false⟩⟩]⟩,⟨[7],none,[],[⟨256,.other,false,none⟩,⟨256,.ws,false,none⟩,⟨256,.lf,false,some ⟨61,[],none,false⟩⟩,⟨256,.vt,false,none⟩,⟨256,.ff,false,none⟩,⟨256,.cr,false,none⟩,⟨256,.cr,true,none⟩]⟩,⟨[7,11],none,[],[⟨256,.other,false,some ⟨58,[.setEnt .internalNl,.cb,.comment],none,false⟩⟩,⟨256,.ws,false,some ⟨59,[.setEnt .internalNl,.cb],none,false⟩⟩,⟨256,.lf,false,some ⟨62,[.setEnt .internalNl,.cb],none,false⟩⟩,⟨256,.vt,false,some ⟨58,[.setEnt .internalNl,.cb,.comment],none,false⟩⟩,⟨256,.ff,false,some ⟨44,[.setEnt .internalNl,.cb],none,false⟩⟩,⟨256,.cr,false,some ⟨45,[.setEnt .internalNl,.cb],none,false⟩⟩,⟨256,.cr,true,some ⟨46,[.setEnt .internalNl,.cb],none,false⟩⟩,⟨256,.other,false,some ⟨60,[.setEnt .internalNl,.cb,.comment],none,false⟩⟩]⟩,⟨[3,13,14],some 2,[],[⟨256,.other,false,some ⟨41,[.comment],some 2,false⟩⟩,⟨256,.ws,false,some ⟨42,[],some 2,false⟩⟩,⟨256,.lf,false,some ⟨43,[],none,false⟩⟩,⟨256,.vt,false,some ⟨41,[.comment],some 2,false⟩⟩,⟨256,.ff,false,some ⟨44,[],none,false⟩⟩,⟨256,.cr,false,some ⟨45,[],none,false⟩⟩,⟨256,.cr,true,some ⟨46,[],none,false⟩⟩,⟨256,.other,false,some ⟨63,[.comment],some 2,false⟩⟩]⟩,⟨[48],none,[],[⟨256,.other,false,some ⟨48,[.code],none,false⟩⟩,⟨256,.ws,false,some ⟨49,[],none,false⟩⟩,⟨256,.lf,false,some ⟨50,[],none,false⟩⟩,⟨256,.vt,false,some ⟨48,[.code],none,false⟩⟩,⟨256,.ff,false,some ⟨51,[],none,false⟩⟩,⟨256,.cr,false,some ⟨52,[],none,false⟩⟩,⟨256,.cr,true,some ⟨53,[],none,false⟩⟩,⟨256,.other,false,some ⟨54,[.code],none,false⟩⟩]⟩,⟨[47],none,[],[⟨256,.other,false,some ⟨48,[.code],none,false⟩⟩,⟨256,.ws,false,some ⟨49,[],none,false⟩⟩,⟨256,.lf,false,some ⟨50,[],none,false⟩⟩,⟨256,.vt,false,some ⟨48,[.code],none,false⟩⟩,⟨256,.ff,false,some ⟨51,[],none,false⟩⟩,⟨256,.cr,false,some ⟨52,[],none,false⟩⟩,⟨256,.cr,true,some ⟨53,[],none,false⟩⟩,⟨256,.other,false,some ⟨54,[.code],none,false⟩⟩]⟩,⟨[44],none,[],[⟨256,.other,false,some ⟨48,[.setEnt .internalNl,.cb,.code],none,false⟩⟩,⟨256,.ws,false,some ⟨49,[.setEnt .internalNl,.cb],none,false⟩⟩,⟨256,.lf,false,some ⟨50,[.setEnt .internalNl,.cb],none,false⟩⟩,⟨256,.vt,false,some ⟨48,[.setEnt .internalNl,.cb,.code],none,false⟩⟩,⟨256,.ff,false,some ⟨51,[.setEnt .internalNl,.cb],none,false⟩⟩,⟨256,.cr,false,some ⟨52,[.setEnt .internalNl,.cb],none,false⟩⟩,⟨256,.cr,true,some ⟨53,[.setEnt .internalNl,.cb],none,false⟩⟩,⟨256,.other,false,some ⟨54,[.setEnt .internalNl,.cb,.code],none,false⟩⟩]⟩,⟨[45],none,[],[⟨256,.other,false,some ⟨48,[.setEnt .internalNl,.cb,.code],none,false⟩⟩,⟨256,.ws,false,some ⟨49,[.setEnt .internalNl,.cb],none,false⟩⟩,⟨256,.lf,false,some ⟨50,[.setEnt .internalNl,.cb],none,false⟩⟩,⟨256,.vt,false,some ⟨48,[.setEnt .internalNl,.cb,.code],none,false⟩⟩,⟨256,.ff,false,some ⟨51,[.setEnt .internalNl,.cb],none,false⟩⟩,⟨256,.cr,false,some ⟨52,[.setEnt .internalNl,.cb],none,false⟩⟩,⟨256,.cr,true,some ⟨53,[.setEnt .internalNl,.cb],none,false⟩⟩,⟨256,.other,false,some ⟨54,[.setEnt .internalNl,.cb,.code],none,false⟩⟩]⟩,⟨[42],none,[],[⟨256,.other,false,none⟩,⟨256,.ws,false,none⟩,⟨256,.lf,false,some ⟨64,[],none,false⟩⟩,⟨256,.vt,false,none⟩,⟨256,.ff,false,none⟩,⟨256,.cr,false,none⟩,⟨256,.cr,true,none⟩]⟩,⟨[42,46],none,[],[⟨256,.other,false,some ⟨48,[.setEnt .internalNl,.cb,.code],none,false⟩⟩,⟨256,.ws,false,some ⟨49,[.setEnt .internalNl,.cb],none,false⟩⟩,⟨256,.lf,false,some ⟨65,[.setEnt .internalNl,.cb],none,false⟩⟩,⟨256,.vt,false,some ⟨48,[.setEnt .internalNl,.cb,.code],none,false⟩⟩,⟨256,.ff,false,some ⟨51,[.setEnt .internalNl,.cb],none,false⟩⟩,⟨256,.cr,false,some ⟨52,[.setEnt .internalNl,.cb],none,false⟩⟩,⟨256,.cr,true,some ⟨53,[.setEnt .internalNl,.cb],none,false⟩⟩,⟨256,.other,false,some ⟨54,[.setEnt .internalNl,.cb,.code],none,false⟩⟩]⟩,⟨[48,49],none,[],[⟨256,.other,false,some ⟨48,[.code],none,false⟩⟩,⟨256,.ws,false,some ⟨49,[],none,false⟩⟩,⟨256,.lf,false,some ⟨50,[],none,false⟩⟩,⟨256,.vt,false,some ⟨48,[.code],none,false⟩⟩,⟨256,.ff,false,some ⟨51,[],none,false⟩⟩,⟨256,.cr,false,some ⟨52,[],none,false⟩⟩,⟨256,.cr,true,some ⟨53,[],none,false⟩⟩,⟨256,.other,false,some ⟨66,[.code],none,false⟩⟩]⟩,⟨[56],none,[],[⟨256,.other,false,some ⟨34,[.setEnt .internalNl,.cb,.code],none,false⟩⟩,⟨256,.ws,false,some ⟨35,[.setEnt .internalNl,.cb],none,false⟩⟩,⟨256,.lf,false,some ⟨36,[.setEnt .internalNl,.cb],none,false⟩⟩,⟨256,.vt,false,some ⟨34,[.setEnt .internalNl,.cb,.code],none,false⟩⟩,⟨256,.ff,false,some ⟨37,[.setEnt .internalNl,.cb],none,false⟩⟩,⟨256,.cr,false,some ⟨38,[.setEnt .internalNl,.cb],none,false⟩⟩,⟨256,.cr,true,some ⟨39,[.setEnt .internalNl,.cb],none,false⟩⟩,⟨256,.other,false,some ⟨40,[.setEnt .internalNl,.cb,.code],none,false⟩⟩]⟩,⟨[56,57],none,[],[⟨256,.other,false,some ⟨34,[.setEnt .internalNl,.cb,.code],none,false⟩⟩,⟨256,.ws,false,some ⟨35,[.setEnt .internalNl,.cb],none,false⟩⟩,⟨256,.lf,false,some ⟨36,[.setEnt .internalNl,.cb],none,false⟩⟩,⟨256,.vt,false,some ⟨34,[.setEnt .internalNl,.cb,.code],none,false⟩⟩,⟨256,.ff,false,some ⟨37,[.setEnt .internalNl,.cb],none,false⟩⟩,⟨256,.cr,false,some ⟨38,[.setEnt .internalNl,.cb],none,false⟩⟩,⟨256,.cr,true,some ⟨39,[.setEnt .internalNl,.cb],none,false⟩⟩,⟨256,.other,false,some ⟨40,[.setEnt .internalNl,.cb,.code],none,false⟩⟩]⟩,⟨[61,62,63],none,[],[⟨256,.other,false,some ⟨34,[.code],none,false⟩⟩,⟨256,.ws,false,some ⟨35,[],none,false⟩⟩,⟨256,.lf,false,some ⟨36,[],none,false⟩⟩,⟨256,.vt,false,some ⟨34,[.code],none,false⟩⟩,⟨256,.ff,false,some ⟨37,[],none,false⟩⟩,⟨256,.cr,false,some ⟨38,[],none,false⟩⟩,⟨256,.cr,true,some ⟨39,[],none,false⟩⟩,⟨256,.other,false,some ⟨67,[.code],some 3,false⟩⟩]⟩,⟨[13],none,[],[⟨256,.other,false,some ⟨58,[.comment],none,false⟩⟩,⟨256,.ws,false,some ⟨59,[],none,false⟩⟩,⟨256,.lf,false,some ⟨43,[],none,false⟩⟩,⟨256,.vt,false,some ⟨58,[.comment],none,false⟩⟩,⟨256,.ff,false,some ⟨44,[],none,false⟩⟩,⟨256,.cr,false,some ⟨45,[],none,false⟩⟩,⟨256,.cr,true,some ⟨46,[],none,false⟩⟩,⟨256,.other,false,some ⟨60,[.comment],none,false⟩⟩]⟩,⟨[12],none,[],[⟨256,.other,false,some ⟨58,[.comment],none,false⟩⟩,⟨256,.ws,false,some ⟨59,[],none,false⟩⟩,⟨256,.lf,false,some ⟨43,[],none,false⟩⟩,⟨256,.vt,false,some ⟨58,[.comment],none,false⟩⟩,⟨256,.ff,false,some ⟨44,[],none,false⟩⟩,⟨256,.cr,false,some ⟨45,[],none,false⟩⟩,⟨256,.cr,true,some ⟨46,[],none,false⟩⟩,⟨256,.other,false,some ⟨60,[.comment],none,false⟩⟩]⟩,⟨[13,14],none,[],[⟨256,.other,false,some ⟨58,[.comment],none,false⟩⟩,⟨256,.ws,false,some ⟨59,[],none,false⟩⟩,⟨256,.lf,false,some ⟨43,[],none,false⟩⟩,⟨256,.vt,false,some ⟨58,[.comment],none,false⟩⟩,⟨256,.ff,false,some ⟨44,[],none,false⟩⟩,⟨256,.cr,false,some ⟨45,[],none,false⟩⟩,⟨256,.cr,true,some ⟨46,[],none,false⟩⟩,⟨256,.other,false,some ⟨68,[.comment],none,false⟩⟩]⟩,⟨[8],none,[],[⟨256,.other,false,some ⟨58,[.setEnt .internalNl,.cb,.comment],none,false⟩⟩,⟨256,.ws,false,some ⟨59,[.setEnt .internalNl,.cb],none,false⟩⟩,⟨256,.lf,false,some ⟨43,[.setEnt .internalNl,.cb],none,false⟩⟩,⟨256,.vt,false,some ⟨58,[.setEnt .internalNl,.cb,.comment],none,false⟩⟩,⟨256,.ff,false,some ⟨44,[.setEnt .internalNl,.cb],none,false⟩⟩,⟨256,.cr,false,some ⟨45,[.setEnt .internalNl,.cb],none,false⟩⟩,⟨256,.cr,true,some ⟨46,[.setEnt .internalNl,.cb],none,false⟩⟩,⟨256,.other,false,some ⟨60,[.setEnt .internalNl,.cb,.comment],none,false⟩⟩]⟩,⟨[8,9],none,[],[⟨256,.other,false,some ⟨58,[.setEnt .internalNl,.cb,.comment],none,false⟩⟩,⟨256,.ws,false,some ⟨59,[.setEnt .internalNl,.cb],none,false⟩⟩,⟨256,.lf,false,some ⟨43,[.setEnt .internalNl,.cb],none,false⟩⟩,⟨256,.vt,false,some ⟨58,[.setEnt .internalNl,.cb,.comment],none,false⟩⟩,⟨256,.ff,false,some ⟨44,[.setEnt .internalNl,.cb],none,false⟩⟩,⟨256,.cr,false,some ⟨45,[.setEnt .internalNl,.cb],none,false⟩⟩,⟨256,.cr,true,some ⟨46,[.setEnt .internalNl,.cb],none,false⟩⟩,⟨256,.other,false,some ⟨60,[.setEnt .internalNl,.cb,.comment],none,false⟩⟩]⟩,⟨[3,13,14,15],some 2,[],[⟨256,.other,false,some ⟨41,[.comment],some 2,false⟩⟩,⟨256,.ws,false,some ⟨42,[],some 2,false⟩⟩,⟨256,.lf,false,some ⟨43,[],none,false⟩⟩,⟨256,.vt,false,some ⟨41,[.comment],some 2,false⟩⟩,⟨256,.ff,false,some ⟨44,[],none,false⟩⟩,⟨256,.cr,false,some ⟨45,[],none,false⟩⟩,⟨256,.cr,true,some ⟨46,[],none,false⟩⟩,⟨256,.other,false,some ⟨69,[],some 2,false⟩⟩]⟩,⟨[43],none,[],[⟨256,.other,false,some ⟨48,[.setEnt .internalNl,.cb,.code],none,false⟩⟩,⟨256,.ws,false,some ⟨49,[.setEnt .internalNl,.cb],none,false⟩⟩,⟨256,.lf,false,some ⟨50,[.setEnt .internalNl,.cb],none,false⟩⟩,⟨256,.vt,false,some ⟨48,[.setEnt .internalNl,.cb,.code],none,false⟩⟩,⟨256,.ff,false,some ⟨51,[.setEnt .internalNl,.cb],none,false⟩⟩,⟨256,.cr,false,some ⟨52,[.setEnt .internalNl,.cb],none,false⟩⟩,⟨256,.cr,true,some ⟨53,[.setEnt .internalNl,.cb],none,false⟩⟩,⟨256,.other,false,some ⟨54,[.setEnt .internalNl,.cb,.code],none,false⟩⟩]⟩,⟨[43,44],none,[],[⟨256,.other,false,some ⟨48,[.setEnt .internalNl,.cb,.code],none,false⟩⟩,⟨256,.ws,false,some ⟨49,[.setEnt .internalNl,.cb],none,false⟩⟩,⟨256,.lf,false,some ⟨50,[.setEnt .internalNl,.cb],none,false⟩⟩,⟨256,.vt,false,some ⟨48,[.setEnt .internalNl,.cb,.code],none,false⟩⟩,⟨256,.ff,false,some ⟨51,[.setEnt .internalNl,.cb],none,false⟩⟩,⟨256,.cr,false,some ⟨52,[.setEnt .internalNl,.cb],none,false⟩⟩,⟨256,.cr,true,some ⟨53,[.setEnt .internalNl,.cb],none,false⟩⟩,⟨256,.other,false,some ⟨54,[.setEnt .internalNl,.cb,.code],none,false⟩⟩]⟩,⟨[48,49,50],none,[],[⟨256,.other,false,some ⟨48,[.code],none,false⟩⟩,⟨256,.ws,false,some ⟨49,[],none,false⟩⟩,⟨256,.lf,false,some ⟨50,[],none,false⟩⟩,⟨256,.vt,false,some ⟨48,[.code],none,false⟩⟩,⟨256,.ff,false,some ⟨51,[],none,false⟩⟩,⟨256,.cr,false,some ⟨52,[],none,false⟩⟩,⟨256,.cr,true,some ⟨53,[],none,false⟩⟩,⟨256,.other,false,some ⟨70,[.code],some 3,false⟩⟩]⟩,⟨[63,64],some 3,[],[⟨256,.other,false,none⟩,⟨256,.ws,false,none⟩,⟨256,.lf,false,none⟩,⟨256,.vt,false,none⟩,⟨256,.ff,false,none⟩,⟨256,.cr,false,none⟩,⟨256,.cr,true,none⟩,⟨256,.other,false,some ⟨0,[.code],some 3,true⟩⟩]⟩,⟨[13,14,15],none,[],[⟨256,.other,false,some ⟨58,[.comment],none,false⟩⟩,⟨256,.ws,false,some ⟨59,[],none,false⟩⟩,⟨256,.lf,false,some ⟨43,[],none,false⟩⟩,⟨256,.vt,false,some ⟨58,[.comment],none,false⟩⟩,⟨256,.ff,false,some ⟨44,[],none,false⟩⟩,⟨256,.cr,false,some ⟨45,[],none,false⟩⟩,⟨256,.cr,true,some ⟨46,[],none,false⟩⟩,⟨256,.other,false,some ⟨71,[],some 2,false⟩⟩]⟩,⟨[3,15,16],some 2,[],[⟨256,.other,false,some ⟨15,[],some 2,false⟩⟩,⟨256,.ws,false,some ⟨15,[],some 2,false⟩⟩,⟨256,.lf,false,none⟩,⟨256,.vt,false,some ⟨15,[],some 2,false⟩⟩,⟨256,.ff,false,none⟩,⟨256,.cr,false,none⟩,⟨256,.cr,true,none⟩,⟨256,.other,false,some ⟨72,[],some 2,false⟩⟩]⟩,⟨[50,51],some 3,[],[⟨256,.other,false,none⟩,⟨256,.ws,false,none⟩,⟨256,.lf,false,none⟩,⟨256,.vt,false,none⟩,⟨256,.ff,false,none⟩,⟨256,.cr,false,none⟩,⟨256,.cr,true,none⟩,⟨256,.other,false,some ⟨0,[.code],some 3,true⟩⟩]⟩,⟨[15,16],some 2,[],[⟨256,.other,false,none⟩,⟨256,.ws,false,none⟩,⟨256,.lf,false,none⟩,⟨256,.vt,false,none⟩,⟨256,.ff,false,none⟩,⟨256,.cr,false,none⟩,⟨256,.cr,true,none⟩,⟨256,.other,false,some ⟨0,[],some 2,true⟩⟩]⟩,⟨[3,16],some 2,[],[⟨256,.other,false,some ⟨15,[],some 2,false⟩⟩,⟨256,.ws,false,some ⟨15,[],some 2,false⟩⟩,⟨256,.lf,false,none⟩,⟨256,.vt,false,some ⟨15,[],some 2,false⟩⟩,⟨256,.ff,false,none⟩,⟨256,.cr,false,none⟩,⟨256,.cr,true,none⟩]⟩]
theorem emb19_rowsOk : rowsOk emb19_nfa [] (emb19_cs.map (·.1)) emb19_rows = true := by decide +kernel
def emb19_D : Dfa emb19_nfa := ⟨emb19_masks, [], emb19_cs, emb19_rows, emb19_masksIn, emb19_repOk, emb19_rowsOk⟩

/-- The automaton of `Emb.Jsp.jsp_java_line`. -/
def emb28_nfa : Nfa := ⟨[⟨0,137438953472,[],[],0,0⟩,⟨2,4294967808,[],[(3,.setEnt (.own 0))],0,0⟩,⟨3,140737488355328,[],[],0,0⟩,⟨6,140737488355328,[],[],0,2⟩,⟨17,549755813888,[],[(9,.code)],0,0⟩,⟨22,17179869184,[],[(10,.code)],0,0⟩,⟨27,8192,[],[(11,.setEnt .newline)],0,0⟩,⟨29,1024,[],[(11,.setEnt .newline)],0,0⟩,⟨30,4096,[],[(11,.setEnt .newline)],0,0⟩,⟨31,8192,[.crAlone],[(11,.setEnt .newline)],0,0⟩,⟨32,115792089237316195423570985008687907853269984665640564039457584007908834656767,[],[(12,.setEnt (.own 7))],0,0⟩],[[⟨1,4611686018427387904,[],[(0,.emb .outry),(1,.code),(2,.emb .back)],0,0⟩],[],[⟨2,4294967808,[],[(3,.setEnt (.own 0))],0,0⟩],[⟨4,140737488355328,[],[(4,.comment)],0,0⟩],[⟨5,115792089237316195423570985008687907853269984665640564039457584007913129626623,[],[],0,0⟩],[⟨5,115792089237316195423570985008687907853269984665640564039457584007913129626623,[],[],0,0⟩],[⟨7,4398046511104,[],[(5,.comment)],0,2⟩],[⟨8,8192,[],[],0,2⟩,⟨10,1024,[],[],0,2⟩,⟨11,4096,[],[],0,2⟩,⟨12,8192,[.crAlone],[],0,2⟩,⟨13,4294967808,[],[],0,2⟩,⟨14,115792089237316195423570985008687907853269984665640564039457584007908834658815,[],[(8,.comment)],0,2⟩,⟨15,4398046511104,[],[],0,2⟩],[⟨9,1024,[],[],0,2⟩],[⟨8,8192,[],[(6,.setEnt .internalNl),(7,.emb (.cb 3))],0,2⟩,⟨10,1024,[],[(6,.setEnt .internalNl),(7,.emb (.cb 3))],0,2⟩,⟨11,4096,[],[(6,.setEnt .internalNl),(7,.emb (.cb 3))],0,2⟩,⟨12,8192,[.crAlone],[(6,.setEnt .internalNl),(7,.emb (.cb 3))],0,2⟩,⟨13,4294967808,[],[(6,.setEnt .internalNl),(7,.emb (.cb 3))],0,2⟩,⟨14,115792089237316195423570985008687907853269984665640564039457584007908834658815,[],[(6,.setEnt .internalNl),(7,.emb (.cb 3)),(8,.comment)],0,2⟩,⟨15,4398046511104,[],[(6,.setEnt .internalNl),(7,.emb (.cb 3))],0,2⟩],[⟨8,8192,[],[(6,.setEnt .internalNl),(7,.emb (.cb 3))],0,2⟩,⟨10,1024,[],[(6,.setEnt .internalNl),(7,.emb (.cb 3))],0,2⟩,⟨11,4096,[],[(6,.setEnt .internalNl),(7,.emb (.cb 3))],0,2⟩,⟨12,8192,[.crAlone],[(6,.setEnt .internalNl),(7,.emb (.cb 3))],0,2⟩,⟨13,4294967808,[],[(6,.setEnt .internalNl),(7,.emb (.cb 3))],0,2⟩,⟨14,115792089237316195423570985008687907853269984665640564039457584007908834658815,[],[(6,.setEnt .internalNl),(7,.emb (.cb 3)),(8,.comment)],0,2⟩,⟨15,4398046511104,[],[(6,.setEnt .internalNl),(7,.emb (.cb 3))],0,2⟩],[⟨8,8192,[],[(6,.setEnt .internalNl),(7,.emb (.cb 3))],0,2⟩,⟨10,1024,[],[(6,.setEnt .internalNl),(7,.emb (.cb 3))],0,2⟩,⟨11,4096,[],[(6,.setEnt .internalNl),(7,.emb (.cb 3))],0,2⟩,⟨12,8192,[.crAlone],[(6,.setEnt .internalNl),(7,.emb (.cb 3))],0,2⟩,⟨13,4294967808,[],[(6,.setEnt .internalNl),(7,.emb (.cb 3))],0,2⟩,⟨14,115792089237316195423570985008687907853269984665640564039457584007908834658815,[],[(6,.setEnt .internalNl),(7,.emb (.cb 3)),(8,.comment)],0,2⟩,⟨15,4398046511104,[],[(6,.setEnt .internalNl),(7,.emb (.cb 3))],0,2⟩],[⟨8,8192,[],[(6,.setEnt .internalNl),(7,.emb (.cb 3))],0,2⟩,⟨10,1024,[],[(6,.setEnt .internalNl),(7,.emb (.cb 3))],0,2⟩,⟨11,4096,[],[(6,.setEnt .internalNl),(7,.emb (.cb 3))],0,2⟩,⟨12,8192,[.crAlone],[(6,.setEnt .internalNl),(7,.emb (.cb 3))],0,2⟩,⟨13,4294967808,[],[(6,.setEnt .internalNl),(7,.emb (.cb 3))],0,2⟩,⟨14,115792089237316195423570985008687907853269984665640564039457584007908834658815,[],[(6,.setEnt .internalNl),(7,.emb (.cb 3)),(8,.comment)],0,2⟩,⟨15,4398046511104,[],[(6,.setEnt .internalNl),(7,.emb (.cb 3))],0,2⟩],[⟨8,8192,[],[],0,2⟩,⟨10,1024,[],[],0,2⟩,⟨11,4096,[],[],0,2⟩,⟨12,8192,[.crAlone],[],0,2⟩,⟨13,4294967808,[],[],0,2⟩,⟨14,115792089237316195423570985008687907853269984665640564039457584007908834658815,[],[(8,.comment)],0,2⟩,⟨15,4398046511104,[],[],0,2⟩],[⟨8,8192,[],[],0,2⟩,⟨10,1024,[],[],0,2⟩,⟨11,4096,[],[],0,2⟩,⟨12,8192,[.crAlone],[],0,2⟩,⟨13,4294967808,[],[],0,2⟩,⟨14,115792089237316195423570985008687907853269984665640564039457584007908834658815,[],[(8,.comment)],0,2⟩,⟨15,4398046511104,[],[],0,2⟩],[⟨16,140737488355328,[],[],2,0⟩],[],[⟨18,115792089237316195423570985008687907853269984665635612279300442486263777315839,[],[],0,0⟩,⟨19,4951760157141521099596496896,[],[],0,0⟩,⟨21,549755813888,[],[],0,0⟩],[⟨18,115792089237316195423570985008687907853269984665635612279300442486263777315839,[],[],0,0⟩,⟨19,4951760157141521099596496896,[],[],0,0⟩,⟨21,549755813888,[],[],0,0⟩],[⟨20,115792089237316195423570985008687907853269984665640564039457584007913129626623,[],[],0,0⟩],[⟨18,115792089237316195423570985008687907853269984665635612279300442486263777315839,[],[],0,0⟩,⟨19,4951760157141521099596496896,[],[],0,0⟩,⟨21,549755813888,[],[],0,0⟩],[],[⟨23,115792089237316195423570985008687907853269984665635612279300442486796353260543,[],[],0,0⟩,⟨24,4951760157141521099596496896,[],[],0,0⟩,⟨26,17179869184,[],[],0,0⟩],[⟨23,115792089237316195423570985008687907853269984665635612279300442486796353260543,[],[],0,0⟩,⟨24,4951760157141521099596496896,[],[],0,0⟩,⟨26,17179869184,[],[],0,0⟩],[⟨25,115792089237316195423570985008687907853269984665640564039457584007913129626623,[],[],0,0⟩],[⟨23,115792089237316195423570985008687907853269984665635612279300442486796353260543,[],[],0,0⟩,⟨24,4951760157141521099596496896,[],[],0,0⟩,⟨26,17179869184,[],[],0,0⟩],[],[⟨28,1024,[],[(11,.setEnt .newline)],0,0⟩],[],[],[],[],[]],[none,some (0,[]),some (1,[]),none,some (2,[]),some (2,[]),none,none,none,none,none,none,none,none,none,none,some (2,[]),none,none,none,none,some (3,[]),none,none,none,none,some (3,[]),none,some (4,[]),some (4,[]),some (4,[]),some (4,[]),some (5,[])],[3,4,9,11,12,13]⟩
def emb28_masks : List Nat := [137438953472,4294967808,140737488355328,549755813888,17179869184,8192,1024,4096,115792089237316195423570985008687907853269984665640564039457584007908834656767,4611686018427387904,115792089237316195423570985008687907853269984665640564039457584007913129626623,4398046511104,115792089237316195423570985008687907853269984665640564039457584007908834658815,115792089237316195423570985008687907853269984665635612279300442486263777315839,4951760157141521099596496896,115792089237316195423570985008687907853269984665635612279300442486796353260543]
def emb28_cs : List (Nat × Nat) := [(0,115792089237316195423570985008687907853269984665635612279295830654950901268991),(9,4294967808),(10,1024),(11,2048),(12,4096),(13,8192),(34,17179869184),(37,137438953472),(39,549755813888),(42,4398046511104),(47,140737488355328),(62,4611686018427387904),(92,4951760157141521099596496896)]
theorem emb28_masksIn : masksIn emb28_nfa emb28_masks = true := by decide +kernel
theorem emb28_repOk : repOk emb28_masks emb28_cs = true := by decide +kernel
def emb28_rows : List Row := [⟨[],none,[],[⟨256,.other,false,some ⟨0,[.setEnt (.own 7)],some 5,true⟩⟩,⟨256,.ws,false,some ⟨1,[.setEnt (.own 0)],some 1,false⟩⟩,⟨256,.lf,false,some ⟨0,[.setEnt .newline],some 4,true⟩⟩,⟨256,.vt,false,none⟩,⟨256,.ff,false,some ⟨0,[.setEnt .newline],some 4,true⟩⟩,⟨256,.cr,false,some ⟨2,[.setEnt .newline],none,false⟩⟩,⟨256,.cr,true,some ⟨3,[.setEnt .newline],some 4,false⟩⟩,⟨256,.other,false,some ⟨4,[.code,.setEnt (.own 7)],some 5,false⟩⟩,⟨256,.other,false,some ⟨5,[.setEnt (.own 7)],some 5,false⟩⟩,⟨256,.other,false,some ⟨6,[.code,.setEnt (.own 7)],some 5,false⟩⟩,⟨256,.other,false,some ⟨7,[.setEnt (.own 7)],some 5,false⟩⟩]⟩,⟨[2],some 1,[],[⟨256,.other,false,none⟩,⟨256,.ws,false,some ⟨1,[.setEnt (.own 0)],some 1,false⟩⟩,⟨256,.lf,false,none⟩,⟨256,.vt,false,none⟩,⟨256,.ff,false,none⟩,⟨256,.cr,false,none⟩,⟨256,.cr,true,none⟩]⟩,⟨[27],none,[],[⟨256,.other,false,none⟩,⟨256,.ws,false,none⟩,⟨256,.lf,false,some ⟨0,[.setEnt .newline],some 4,true⟩⟩,⟨256,.vt,false,none⟩,⟨256,.ff,false,none⟩,⟨256,.cr,false,none⟩,⟨256,.cr,true,none⟩]⟩,⟨[27,31],some 4,[],[⟨256,.other,false,none⟩,⟨256,.ws,false,none⟩,⟨256,.lf,false,some ⟨0,[.setEnt .newline],some 4,true⟩⟩,⟨256,.vt,false,none⟩,⟨256,.ff,false,none⟩,⟨256,.cr,false,none⟩,⟨256,.cr,true,none⟩]⟩,⟨[22,32],some 5,[],[⟨256,.other,false,some ⟨8,[],none,false⟩⟩,⟨256,.ws,false,some ⟨8,[],none,false⟩⟩,⟨256,.lf,false,none⟩,⟨256,.vt,false,some ⟨8,[],none,false⟩⟩,⟨256,.ff,false,none⟩,⟨256,.cr,false,none⟩,⟨256,.cr,true,none⟩,⟨256,.other,false,some ⟨0,[],some 3,true⟩⟩,⟨256,.other,false,some ⟨9,[],none,false⟩⟩]⟩,⟨[0,32],some 5,[],[⟨256,.other,false,none⟩,⟨256,.ws,false,none⟩,⟨256,.lf,false,none⟩,⟨256,.vt,false,none⟩,⟨256,.ff,false,none⟩,⟨256,.cr,false,none⟩,⟨256,.cr,true,none⟩,⟨256,.other,false,some ⟨0,[.emb .outry,.code,.emb .back],some 0,true⟩⟩]⟩,⟨[17,32],some 5,[],[⟨256,.other,false,some ⟨10,[],none,false⟩⟩,⟨256,.ws,false,some ⟨10,[],none,false⟩⟩,⟨256,.lf,false,none⟩,⟨256,.vt,false,some ⟨10,[],none,false⟩⟩,⟨256,.ff,false,none⟩,⟨256,.cr,false,none⟩,⟨256,.cr,true,none⟩,⟨256,.other,false,some ⟨0,[],some 3,true⟩⟩,⟨256,.other,false,some ⟨11,[],none,false⟩⟩]⟩,⟨[3,6,32],some 5,[],[⟨256,.other,false,none⟩,⟨256,.ws,false,none⟩,⟨256,.lf,false,none⟩,⟨256,.vt,false,none⟩,⟨256,.ff,false,none⟩,⟨256,.cr,false,none⟩,⟨256,.cr,true,none⟩,⟨256,.other,false,some ⟨12,[.comment],none,false⟩⟩,⟨256,.other,false,some ⟨13,[.comment],some 2,false⟩⟩]⟩,⟨[23],none,[],[⟨256,.other,false,some ⟨8,[],none,false⟩⟩,⟨256,.ws,false,some ⟨8,[],none,false⟩⟩,⟨256,.lf,false,none⟩,⟨256,.vt,false,some ⟨8,[],none,false⟩⟩,⟨256,.ff,false,none⟩,⟨256,.cr,false,none⟩,⟨256,.cr,true,none⟩,⟨256,.other,false,some ⟨0,[],some 3,true⟩⟩,⟨256,.other,false,some ⟨9,[],none,false⟩⟩]⟩,⟨[24],none,[],[⟨256,.other,false,some ⟨14,[],none,false⟩⟩,⟨256,.ws,false,some ⟨14,[],none,false⟩⟩,⟨256,.lf,false,none⟩,⟨256,.vt,false,some ⟨14,[],none,false⟩⟩,⟨256,.ff,false,none⟩,⟨256,.cr,false,none⟩,⟨256,.cr,true,none⟩]⟩,⟨[18],none,[],[⟨256,.other,false,some ⟨10,[],none,false⟩⟩,⟨256,.ws,false,some ⟨10,[],none,false⟩⟩,⟨256,.lf,false,none⟩,⟨256,.vt,false,some ⟨10,[],none,false⟩⟩,⟨256,.ff,false,none⟩,⟨256,.cr,false,none⟩,⟨256,.cr,true,none⟩,⟨256,.other,false,some ⟨0,[],some 3,true⟩⟩,⟨256,.other,false,some ⟨11,[],none,false⟩⟩]⟩,⟨[19],none,[],[⟨256,.other,false,some ⟨15,[],none,false⟩⟩,⟨256,.ws,false,some ⟨15,[],none,false⟩⟩,⟨256,.lf,false,none⟩,⟨256,.vt,false,some ⟨15,[],none,false⟩⟩,⟨256,.ff,false,none⟩,⟨256,.cr,false,none⟩,⟨256,.cr,true,none⟩]⟩,⟨[7],none,[],[⟨256,.other,false,some ⟨16,[.comment],none,false⟩⟩,⟨256,.ws,false,some ⟨17,[],none,false⟩⟩,⟨256,.lf,false,some ⟨18,[],none,false⟩⟩,⟨256,.vt,false,some ⟨16,[.comment],none,false⟩⟩,⟨256,.ff,false,some ⟨19,[],none,false⟩⟩,⟨256,.cr,false,some ⟨20,[],none,false⟩⟩,⟨256,.cr,true,some ⟨21,[],none,false⟩⟩,⟨256,.other,false,some ⟨22,[.comment],none,false⟩⟩]⟩,⟨[4],some 2,[],[⟨256,.other,false,some ⟨23,[],some 2,false⟩⟩,⟨256,.ws,false,some ⟨23,[],some 2,false⟩⟩,⟨256,.lf,false,none⟩,⟨256,.vt,false,some ⟨23,[],some 2,false⟩⟩,⟨256,.ff,false,none⟩,⟨256,.cr,false,none⟩,⟨256,.cr,true,none⟩]⟩,⟨[25],none,[],[⟨256,.other,false,some ⟨8,[],none,false⟩⟩,⟨256,.ws,false,some ⟨8,[],none,false⟩⟩,⟨256,.lf,false,none⟩,⟨256,.vt,false,some ⟨8,[],none,false⟩⟩,⟨256,.ff,false,none⟩,⟨256,.cr,false,none⟩,⟨256,.cr,true,none⟩,⟨256,.other,false,some ⟨0,[],some 3,true⟩⟩,⟨256,.other,false,some ⟨9,[],none,false⟩⟩]⟩,⟨[20],none,[],[⟨256,.other,false,some ⟨10,[],none,false⟩⟩,⟨256,.ws,false,some ⟨10,[],none,false⟩⟩,⟨256,.lf,false,none⟩,⟨256,.vt,false,some ⟨10,[],none,false⟩⟩,⟨256,.ff,false,none⟩,⟨256,.cr,false,none⟩,⟨256,.cr,true,none⟩,⟨256,.other,false,some ⟨0,[],some 3,true⟩⟩,⟨256,.other,false,some ⟨11,[],none,false⟩⟩]⟩,⟨[14],none,[],[⟨256,.other,false,some ⟨16,[.comment],none,false⟩⟩,⟨256,.ws,false,some ⟨17,[],none,false⟩⟩,⟨256,.lf,false,some ⟨18,[],none,false⟩⟩,⟨256,.vt,false,some ⟨16,[.comment],none,false⟩⟩,⟨256,.ff,false,some ⟨19,[],none,false⟩⟩,⟨256,.cr,false,some ⟨20,[],none,false⟩⟩,⟨256,.cr,true,some ⟨21,[],none,false⟩⟩,⟨256,.other,false,some ⟨22,[.comment],none,false⟩⟩]⟩,⟨[13],none,[],[⟨256,.other,false,some ⟨16,[.comment],none,false⟩⟩,⟨256,.ws,false,some ⟨17,[],none,false⟩⟩,⟨256,.lf,false,some ⟨18,[],none,false⟩⟩,⟨256,.vt,false,some ⟨16,[.comment],none,false⟩⟩,⟨256,.ff,false,some ⟨19,[],none,false⟩⟩,⟨256,.cr,false,some ⟨20,[],none,false⟩⟩,⟨256,.cr,true,some ⟨21,[],none,false⟩⟩,⟨256,.other,false,some ⟨22,[.comment],none,false⟩⟩]⟩,⟨[10],none,[],[⟨256,.other,false,some ⟨16,[.setEnt .internalNl,.emb (.cb 3),.comment],none,false⟩⟩,⟨256,.ws,false,some ⟨17,[.setEnt .internalNl,.emb (.cb 3)],none,false⟩⟩,⟨256,.lf,false,some ⟨18,[.setEnt .internalNl,.emb (.cb 3)],none,false⟩⟩,⟨256,.vt,false,some ⟨16,[.setEnt .internalNl,.emb (.cb 3),.comment],none,false⟩⟩,⟨256,.ff,false,some ⟨19,[.setEnt .internalNl,.emb (.cb 3)],none,false⟩⟩,⟨256,.cr,false,some ⟨20,[.setEnt .internalNl,.emb (.cb 3)],none,false⟩⟩,⟨256,.cr,true,some ⟨21,[.setEnt .internalNl,.emb (.cb 3)],none,false⟩⟩,⟨256,.other,false,some ⟨22,[.setEnt .internalNl,.emb (.cb 3),.comment],none,false⟩⟩]⟩,⟨[11],none,[],[⟨256,.other,false,some ⟨16,[.setEnt .internalNl,.emb (.cb 3),.comment],none,false⟩⟩,⟨256,.ws,false,some ⟨17,[.setEnt .internalNl,.emb (.cb 3)],none,false⟩⟩,⟨256,.lf,false,some ⟨18,[.setEnt .internalNl,.emb (.cb 3)],none,false⟩⟩,⟨256,.vt,false,some ⟨16,[.setEnt .internalNl,.emb (.cb 3),.comment],none,false⟩⟩,⟨256,.ff,false,some ⟨19,[.setEnt .internalNl,.emb (.cb 3)],none,false⟩⟩,⟨256,.cr,false,some ⟨20,[.setEnt .internalNl,.emb (.cb 3)],none,false⟩⟩,⟨256,.cr,true,some ⟨21,[.setEnt .internalNl,.emb (.cb 3)],none,false⟩⟩,⟨256,.other,false,some ⟨22,[.setEnt .internalNl,.emb (.cb 3),.comment],none,false⟩⟩]⟩,⟨[8],none,[],[⟨256,.other,false,none⟩,⟨256,.ws,false,none⟩,⟨256,.lf,false,some ⟨24,[],none,false⟩⟩,⟨256,.vt,false,none⟩,⟨256,.ff,false,none⟩,⟨256,.cr,false,none⟩,⟨256,.cr,true,none⟩]⟩,⟨[8,12],none,[],[⟨256,.other,false,some ⟨16,[.setEnt .internalNl,.emb (.cb 3),.comment],none,false⟩⟩,⟨256,.ws,false,some ⟨17,[.setEnt .internalNl,.emb (.cb 3)],none,false⟩⟩,⟨256,.lf,false,some ⟨25,[.setEnt .internalNl,.emb (.cb 3)],none,false⟩⟩,⟨256,.vt,false,some ⟨16,[.setEnt .internalNl,.emb (.cb 3),.comment],none,false⟩⟩,⟨256,.ff,false,some ⟨19,[.setEnt .internalNl,.emb (.cb 3)],none,false⟩⟩,⟨256,.cr,false,some ⟨20,[.setEnt .internalNl,.emb (.cb 3)],none,false⟩⟩,⟨256,.cr,true,some ⟨21,[.setEnt .internalNl,.emb (.cb 3)],none,false⟩⟩,⟨256,.other,false,some ⟨22,[.setEnt .internalNl,.emb (.cb 3),.comment],none,false⟩⟩]⟩,⟨[14,15],none,[],[⟨256,.other,false,some ⟨16,[.comment],none,false⟩⟩,⟨256,.ws,false,some ⟨17,[],none,false⟩⟩,⟨256,.lf,false,some ⟨18,[],none,false⟩⟩,⟨256,.vt,false,some ⟨16,[.comment],none,false⟩⟩,⟨256,.ff,false,some ⟨19,[],none,false⟩⟩,⟨256,.cr,false,some ⟨20,[],none,false⟩⟩,⟨256,.cr,true,some ⟨21,[],none,false⟩⟩,⟨256,.other,false,some ⟨22,[.comment],none,false⟩⟩,⟨256,.other,false,some ⟨0,[],some 2,true⟩⟩]⟩,⟨[5],some 2,[],[⟨256,.other,false,some ⟨23,[],some 2,false⟩⟩,⟨256,.ws,false,some ⟨23,[],some 2,false⟩⟩,⟨256,.lf,false,none⟩,⟨256,.vt,false,some ⟨23,[],some 2,false⟩⟩,⟨256,.ff,false,none⟩,⟨256,.cr,false,none⟩,⟨256,.cr,true,none⟩]⟩,⟨[9],none,[],[⟨256,.other,false,some ⟨16,[.setEnt .internalNl,.emb (.cb 3),.comment],none,false⟩⟩,⟨256,.ws,false,some ⟨17,[.setEnt .internalNl,.emb (.cb 3)],none,false⟩⟩,⟨256,.lf,false,some ⟨18,[.setEnt .internalNl,.emb (.cb 3)],none,false⟩⟩,⟨256,.vt,false,some ⟨16,[.setEnt .internalNl,.emb (.cb 3),.comment],none,false⟩⟩,⟨256,.ff,false,some ⟨19,[.setEnt .internalNl,.emb (.cb 3)],none,false⟩⟩,⟨256,.cr,false,some ⟨20,[.setEnt .internalNl,.emb (.cb 3)],none,false⟩⟩,⟨256,.cr,true,some ⟨21,[.setEnt .internalNl,.emb (.cb 3)],none,false⟩⟩,⟨256,.other,false,some ⟨22,[.setEnt .internalNl,.emb (.cb 3),.comment],none,false⟩⟩]⟩,⟨[9,10],none,[],[⟨256,.other,false,some ⟨16,[.setEnt .internalNl,.emb (.cb 3),.comment],none,false⟩⟩,⟨256,.ws,false,some ⟨17,[.setEnt .internalNl,.emb (.cb 3)],none,false⟩⟩,⟨256,.lf,false,some ⟨18,[.setEnt .internalNl,.emb (.cb 3)],none,false⟩⟩,⟨256,.vt,false,some ⟨16,[.setEnt .internalNl,.emb (.cb 3),.comment],none,false⟩⟩,⟨256,.ff,false,some ⟨19,[.setEnt .internalNl,.emb (.cb 3)],none,false⟩⟩,⟨256,.cr,false,some ⟨20,[.setEnt .internalNl,.emb (.cb 3)],none,false⟩⟩,⟨256,.cr,true,some ⟨21,[.setEnt .internalNl,.emb (.cb 3)],none,false⟩⟩,⟨256,.other,false,some ⟨22,[.setEnt .internalNl,.emb (.cb 3),.comment],none,false⟩⟩]⟩]
theorem emb28_rowsOk : rowsOk emb28_nfa [] (emb28_cs.map (·.1)) emb28_rows = true := by decide +kernel
def emb28_D : Dfa emb28_nfa := ⟨emb28_masks, [], emb28_cs, emb28_rows, emb28_masksIn, emb28_repOk, emb28_rowsOk⟩

/-- The automaton of `Emb.Jsp.jsp_java_entity`. -/
def emb30_nfa : Nfa := ⟨[⟨0,137438953472,[],[],0,0⟩,⟨2,4294983168,[],[(1,.setEnt (.own 0))],0,0⟩,⟨3,140737488355328,[],[(2,.setEnt (.own 1))],0,0⟩,⟨6,140737488355328,[],[(2,.setEnt (.own 1))],0,2⟩,⟨11,115792089237316195423570985008687907853269984665640564039457584007908834656767,[],[],0,0⟩],[[⟨1,4611686018427387904,[],[(0,.emb .ret)],0,0⟩],[],[⟨2,4294983168,[],[(1,.setEnt (.own 0))],0,0⟩],[⟨4,140737488355328,[],[(2,.setEnt (.own 1))],0,0⟩],[⟨5,115792089237316195423570985008687907853269984665640564039457584007913129626623,[],[(2,.setEnt (.own 1))],0,0⟩],[⟨5,115792089237316195423570985008687907853269984665640564039457584007913129626623,[],[(2,.setEnt (.own 1))],0,0⟩],[⟨7,4398046511104,[],[(2,.setEnt (.own 1))],0,2⟩],[⟨8,115792089237316195423570985008687907853269984665640564039457584007913129639935,[],[(2,.setEnt (.own 1))],0,2⟩,⟨9,4398046511104,[],[(2,.setEnt (.own 1))],0,2⟩],[⟨8,115792089237316195423570985008687907853269984665640564039457584007913129639935,[],[(2,.setEnt (.own 1))],0,2⟩,⟨9,4398046511104,[],[(2,.setEnt (.own 1))],0,2⟩],[⟨10,140737488355328,[],[(2,.setEnt (.own 1))],2,0⟩],[],[]],[none,some (0,[]),some (1,[]),none,some (2,[]),some (2,[]),none,none,none,none,some (2,[]),some (3,[])],[1,2,3,3]⟩
def emb30_masks : List Nat := [137438953472,4294983168,140737488355328,115792089237316195423570985008687907853269984665640564039457584007908834656767,4611686018427387904,115792089237316195423570985008687907853269984665640564039457584007913129626623,4398046511104,115792089237316195423570985008687907853269984665640564039457584007913129639935]
def emb30_cs : List (Nat × Nat) := [(0,115792089237316195423570985008687907853269984665640564039452972176617433448959),(9,4294967808),(10,1024),(11,2048),(12,4096),(13,8192),(37,137438953472),(42,4398046511104),(47,140737488355328),(62,4611686018427387904)]
theorem emb30_masksIn : masksIn emb30_nfa emb30_masks = true := by decide +kernel
theorem emb30_repOk : repOk emb30_masks emb30_cs = true := by decide +kernel
def emb30_rows : List Row := [⟨[],none,[],[⟨256,.other,false,some ⟨0,[],some 3,true⟩⟩,⟨256,.ws,false,some ⟨1,[.setEnt (.own 0)],some 1,false⟩⟩,⟨256,.lf,false,some ⟨1,[.setEnt (.own 0)],some 1,false⟩⟩,⟨256,.vt,false,some ⟨1,[.setEnt (.own 0)],some 1,false⟩⟩,⟨256,.ff,false,some ⟨1,[.setEnt (.own 0)],some 1,false⟩⟩,⟨256,.cr,false,some ⟨1,[.setEnt (.own 0)],some 1,false⟩⟩,⟨256,.cr,true,some ⟨1,[.setEnt (.own 0)],some 1,false⟩⟩,⟨256,.other,false,some ⟨2,[],some 3,false⟩⟩,⟨256,.other,false,some ⟨3,[.setEnt (.own 1)],some 3,false⟩⟩]⟩,⟨[2],some 1,[],[⟨256,.other,false,none⟩,⟨256,.ws,false,some ⟨1,[.setEnt (.own 0)],some 1,false⟩⟩,⟨256,.lf,false,some ⟨1,[.setEnt (.own 0)],some 1,false⟩⟩,⟨256,.vt,false,some ⟨1,[.setEnt (.own 0)],some 1,false⟩⟩,⟨256,.ff,false,some ⟨1,[.setEnt (.own 0)],some 1,false⟩⟩,⟨256,.cr,false,some ⟨1,[.setEnt (.own 0)],some 1,false⟩⟩,⟨256,.cr,true,some ⟨1,[.setEnt (.own 0)],some 1,false⟩⟩]⟩,⟨[0,11],some 3,[],[⟨256,.other,false,none⟩,⟨256,.ws,false,none⟩,⟨256,.lf,false,none⟩,⟨256,.vt,false,none⟩,⟨256,.ff,false,none⟩,⟨256,.cr,false,none⟩,⟨256,.cr,true,none⟩,⟨256,.other,false,some ⟨0,[.emb .ret],some 0,true⟩⟩]⟩,⟨[3,6,11],some 3,[],[⟨256,.other,false,none⟩,⟨256,.ws,false,none⟩,⟨256,.lf,false,none⟩,⟨256,.vt,false,none⟩,⟨256,.ff,false,none⟩,⟨256,.cr,false,none⟩,⟨256,.cr,true,none⟩,⟨256,.other,false,some ⟨4,[.setEnt (.own 1)],none,false⟩⟩,⟨256,.other,false,some ⟨5,[.setEnt (.own 1)],some 2,false⟩⟩]⟩,⟨[7],none,[],[⟨256,.other,false,some ⟨6,[.setEnt (.own 1)],none,false⟩⟩,⟨256,.ws,false,some ⟨6,[.setEnt (.own 1)],none,false⟩⟩,⟨256,.lf,false,some ⟨6,[.setEnt (.own 1)],none,false⟩⟩,⟨256,.vt,false,some ⟨6,[.setEnt (.own 1)],none,false⟩⟩,⟨256,.ff,false,some ⟨6,[.setEnt (.own 1)],none,false⟩⟩,⟨256,.cr,false,some ⟨6,[.setEnt (.own 1)],none,false⟩⟩,⟨256,.cr,true,some ⟨6,[.setEnt (.own 1)],none,false⟩⟩,⟨256,.other,false,some ⟨7,[.setEnt (.own 1)],none,false⟩⟩]⟩,⟨[4],some 2,[],[⟨256,.other,false,some ⟨8,[.setEnt (.own 1)],some 2,false⟩⟩,⟨256,.ws,false,some ⟨8,[.setEnt (.own 1)],some 2,false⟩⟩,⟨256,.lf,false,none⟩,⟨256,.vt,false,some ⟨8,[.setEnt (.own 1)],some 2,false⟩⟩,⟨256,.ff,false,none⟩,⟨256,.cr,false,none⟩,⟨256,.cr,true,none⟩]⟩,⟨[8],none,[],[⟨256,.other,false,some ⟨6,[.setEnt (.own 1)],none,false⟩⟩,⟨256,.ws,false,some ⟨6,[.setEnt (.own 1)],none,false⟩⟩,⟨256,.lf,false,some ⟨6,[.setEnt (.own 1)],none,false⟩⟩,⟨256,.vt,false,some ⟨6,[.setEnt (.own 1)],none,false⟩⟩,⟨256,.ff,false,some ⟨6,[.setEnt (.own 1)],none,false⟩⟩,⟨256,.cr,false,some ⟨6,[.setEnt (.own 1)],none,false⟩⟩,⟨256,.cr,true,some ⟨6,[.setEnt (.own 1)],none,false⟩⟩,⟨256,.other,false,some ⟨7,[.setEnt (.own 1)],none,false⟩⟩]⟩,⟨[8,9],none,[],[⟨256,.other,false,some ⟨6,[.setEnt (.own 1)],none,false⟩⟩,⟨256,.ws,false,some ⟨6,[.setEnt (.own 1)],none,false⟩⟩,⟨256,.lf,false,some ⟨6,[.setEnt (.own 1)],none,false⟩⟩,⟨256,.vt,false,some ⟨6,[.setEnt (.own 1)],none,false⟩⟩,⟨256,.ff,false,some ⟨6,[.setEnt (.own 1)],none,false⟩⟩,⟨256,.cr,false,some ⟨6,[.setEnt (.own 1)],none,false⟩⟩,⟨256,.cr,true,some ⟨6,[.setEnt (.own 1)],none,false⟩⟩,⟨256,.other,false,some ⟨7,[.setEnt (.own 1)],none,false⟩⟩,⟨256,.other,false,some ⟨0,[.setEnt (.own 1)],some 2,true⟩⟩]⟩,⟨[5],some 2,[],[⟨256,.other,false,some ⟨8,[.setEnt (.own 1)],some 2,false⟩⟩,⟨256,.ws,false,some ⟨8,[.setEnt (.own 1)],some 2,false⟩⟩,⟨256,.lf,false,none⟩,⟨256,.vt,false,some ⟨8,[.setEnt (.own 1)],some 2,false⟩⟩,⟨256,.ff,false,none⟩,⟨256,.cr,false,none⟩,⟨256,.cr,true,none⟩]⟩]
theorem emb30_rowsOk : rowsOk emb30_nfa [] (emb30_cs.map (·.1)) emb30_rows = true := by decide +kernel
def emb30_D : Dfa emb30_nfa := ⟨emb30_masks, [], emb30_cs, emb30_rows, emb30_masksIn, emb30_repOk, emb30_rowsOk⟩
def emb30_maskst : List Nat := [137438953472,4294983168,140737488355328,115792089237316195423570985008687907853269984665640564039457584007908834656767,4611686018427387904,115792089237316195423570985008687907853269984665640564039457584007913129626623,4398046511104,115792089237316195423570985008687907853269984665640564039457584007913129639935,1152921504606846976]
def emb30_cst : List (Nat × Nat) := [(0,115792089237316195423570985008687907853269984665640564039451819255112826601983),(9,4294967808),(10,1024),(11,2048),(12,4096),(13,8192),(37,137438953472),(42,4398046511104),(47,140737488355328),(60,1152921504606846976),(62,4611686018427387904)]
theorem emb30_masksInt : masksIn emb30_nfa emb30_maskst = true := by decide +kernel
theorem emb30_repOkt : repOk emb30_maskst emb30_cst = true := by decide +kernel
def emb30_rowst : List Row := [⟨[],none,[],[⟨256,.other,false,some ⟨0,[],some 3,true⟩⟩,⟨256,.ws,false,some ⟨1,[.setEnt (.own 0)],some 1,false⟩⟩,⟨256,.lf,false,some ⟨1,[.setEnt (.own 0)],some 1,false⟩⟩,⟨256,.vt,false,some ⟨1,[.setEnt (.own 0)],some 1,false⟩⟩,⟨256,.ff,false,some ⟨1,[.setEnt (.own 0)],some 1,false⟩⟩,⟨256,.cr,false,some ⟨1,[.setEnt (.own 0)],some 1,false⟩⟩,⟨256,.cr,true,some ⟨1,[.setEnt (.own 0)],some 1,false⟩⟩,⟨256,.other,false,some ⟨2,[],some 3,false⟩⟩,⟨47,.other,false,some ⟨3,[.setEnt (.own 1)],some 3,false⟩⟩,⟨60,.other,false,some ⟨0,[],some 3,true⟩⟩,⟨62,.other,false,some ⟨0,[],some 3,true⟩⟩]⟩,⟨[2],some 1,[],[⟨256,.other,false,none⟩,⟨256,.ws,false,some ⟨1,[.setEnt (.own 0)],some 1,false⟩⟩,⟨256,.lf,false,some ⟨1,[.setEnt (.own 0)],some 1,false⟩⟩,⟨256,.vt,false,some ⟨1,[.setEnt (.own 0)],some 1,false⟩⟩,⟨256,.ff,false,some ⟨1,[.setEnt (.own 0)],some 1,false⟩⟩,⟨256,.cr,false,some ⟨1,[.setEnt (.own 0)],some 1,false⟩⟩,⟨256,.cr,true,some ⟨1,[.setEnt (.own 0)],some 1,false⟩⟩,⟨47,.other,false,none⟩,⟨60,.other,false,none⟩,⟨62,.other,false,none⟩]⟩,⟨[0,11],some 3,[],[⟨256,.other,false,none⟩,⟨256,.ws,false,none⟩,⟨256,.lf,false,none⟩,⟨256,.vt,false,none⟩,⟨256,.ff,false,none⟩,⟨256,.cr,false,none⟩,⟨256,.cr,true,none⟩,⟨47,.other,false,none⟩,⟨60,.other,false,none⟩,⟨62,.other,false,some ⟨0,[.emb .ret],some 0,true⟩⟩]⟩,⟨[3,6,11],some 3,[],[⟨256,.other,false,none⟩,⟨256,.ws,false,none⟩,⟨256,.lf,false,none⟩,⟨256,.vt,false,none⟩,⟨256,.ff,false,none⟩,⟨256,.cr,false,none⟩,⟨256,.cr,true,none⟩,⟨256,.other,false,some ⟨4,[.setEnt (.own 1)],none,false⟩⟩,⟨47,.other,false,some ⟨5,[.setEnt (.own 1)],some 2,false⟩⟩,⟨60,.other,false,none⟩,⟨62,.other,false,none⟩]⟩,⟨[7],none,[],[⟨256,.other,false,some ⟨6,[.setEnt (.own 1)],none,false⟩⟩,⟨256,.ws,false,some ⟨6,[.setEnt (.own 1)],none,false⟩⟩,⟨256,.lf,false,some ⟨6,[.setEnt (.own 1)],none,false⟩⟩,⟨256,.vt,false,some ⟨6,[.setEnt (.own 1)],none,false⟩⟩,⟨256,.ff,false,some ⟨6,[.setEnt (.own 1)],none,false⟩⟩,⟨256,.cr,false,some ⟨6,[.setEnt (.own 1)],none,false⟩⟩,⟨256,.cr,true,some ⟨6,[.setEnt (.own 1)],none,false⟩⟩,⟨256,.other,false,some ⟨7,[.setEnt (.own 1)],none,false⟩⟩,⟨47,.other,false,some ⟨6,[.setEnt (.own 1)],none,false⟩⟩,⟨60,.other,false,some ⟨6,[.setEnt (.own 1)],none,false⟩⟩,⟨62,.other,false,some ⟨6,[.setEnt (.own 1)],none,false⟩⟩]⟩,⟨[4],some 2,[],[⟨256,.other,false,some ⟨8,[.setEnt (.own 1)],some 2,false⟩⟩,⟨256,.ws,false,some ⟨8,[.setEnt (.own 1)],some 2,false⟩⟩,⟨256,.lf,false,none⟩,⟨256,.vt,false,some ⟨8,[.setEnt (.own 1)],some 2,false⟩⟩,⟨256,.ff,false,none⟩,⟨256,.cr,false,none⟩,⟨256,.cr,true,none⟩,⟨47,.other,false,some ⟨8,[.setEnt (.own 1)],some 2,false⟩⟩,⟨60,.other,false,some ⟨8,[.setEnt (.own 1)],some 2,false⟩⟩,⟨62,.other,false,some ⟨8,[.setEnt (.own 1)],some 2,false⟩⟩]⟩,⟨[8],none,[],[⟨256,.other,false,some ⟨6,[.setEnt (.own 1)],none,false⟩⟩,⟨256,.ws,false,some ⟨6,[.setEnt (.own 1)],none,false⟩⟩,⟨256,.lf,false,some ⟨6,[.setEnt (.own 1)],none,false⟩⟩,⟨256,.vt,false,some ⟨6,[.setEnt (.own 1)],none,false⟩⟩,⟨256,.ff,false,some ⟨6,[.setEnt (.own 1)],none,false⟩⟩,⟨256,.cr,false,some ⟨6,[.setEnt (.own 1)],none,false⟩⟩,⟨256,.cr,true,some ⟨6,[.setEnt (.own 1)],none,false⟩⟩,⟨256,.other,false,some ⟨7,[.setEnt (.own 1)],none,false⟩⟩,⟨47,.other,false,some ⟨6,[.setEnt (.own 1)],none,false⟩⟩,⟨60,.other,false,some ⟨6,[.setEnt (.own 1)],none,false⟩⟩,⟨62,.other,false,some ⟨6,[.setEnt (.own 1)],none,false⟩⟩]⟩,⟨[8,9],none,[],[⟨256,.other,false,some ⟨6,[.setEnt (.own 1)],none,false⟩⟩,⟨256,.ws,false,some ⟨6,[.setEnt (.own 1)],none,false⟩⟩,⟨256,.lf,false,some ⟨6,[.setEnt (.own 1)],none,false⟩⟩,⟨256,.vt,false,some ⟨6,[.setEnt (.own 1)],none,false⟩⟩,⟨256,.ff,false,some ⟨6,[.setEnt (.own 1)],none,false⟩⟩,⟨256,.cr,false,some ⟨6,[.setEnt (.own 1)],none,false⟩⟩,⟨256,.cr,true,some ⟨6,[.setEnt (.own 1)],none,false⟩⟩,⟨256,.other,false,some ⟨7,[.setEnt (.own 1)],none,false⟩⟩,⟨47,.other,false,some ⟨0,[.setEnt (.own 1)],some 2,true⟩⟩,⟨60,.other,false,some ⟨6,[.setEnt (.own 1)],none,false⟩⟩,⟨62,.other,false,some ⟨6,[.setEnt (.own 1)],none,false⟩⟩]⟩,⟨[5],some 2,[],[⟨256,.other,false,some ⟨8,[.setEnt (.own 1)],some 2,false⟩⟩,⟨256,.ws,false,some ⟨8,[.setEnt (.own 1)],some 2,false⟩⟩,⟨256,.lf,false,none⟩,⟨256,.vt,false,some ⟨8,[.setEnt (.own 1)],some 2,false⟩⟩,⟨256,.ff,false,none⟩,⟨256,.cr,false,none⟩,⟨256,.cr,true,none⟩,⟨47,.other,false,some ⟨8,[.setEnt (.own 1)],some 2,false⟩⟩,⟨60,.other,false,some ⟨8,[.setEnt (.own 1)],some 2,false⟩⟩,⟨62,.other,false,some ⟨8,[.setEnt (.own 1)],some 2,false⟩⟩]⟩]
theorem emb30_rowsOkt : rowsOk emb30_nfa [47, 60, 62] (emb30_cst.map (·.1)) emb30_rowst = true := by decide +kernel
def emb30_Dt : Dfa emb30_nfa := ⟨emb30_maskst, [47, 60, 62], emb30_cst, emb30_rowst, emb30_masksInt, emb30_repOkt, emb30_rowsOkt⟩

/-- The automaton of `Emb.Phphtml.phtml_sq_str`. -/
def emb33_nfa : Nfa := ⟨[⟨0,1152921504606846976,[],[],0,0⟩,⟨5,8192,[],[],0,0⟩,⟨7,1024,[],[],0,0⟩,⟨8,4096,[],[],0,0⟩,⟨9,8192,[.crAlone],[],0,0⟩,⟨10,4294967808,[],[],0,0⟩,⟨11,115792089237316195423570985008687907853269984665635612279299289564754875501055,[],[(3,.code)],0,0⟩,⟨12,4951760157141521099596496896,[],[],0,0⟩,⟨14,1152921504606846976,[],[],0,0⟩,⟨28,549755813888,[],[(5,.emb (.goto 6))],0,0⟩],[[⟨1,9223372036854775808,[],[],0,0⟩],[⟨2,5192296858534827628530496329220096,[],[],0,0⟩],[⟨3,20282409603651670423947251286016,[],[],0,0⟩],[⟨4,5192296858534827628530496329220096,[],[(0,.emb (.sawCall 3 5))],0,0⟩],[⟨0,1152921504606846976,[],[],0,0⟩,⟨5,8192,[],[],0,0⟩,⟨7,1024,[],[],0,0⟩,⟨8,4096,[],[],0,0⟩,⟨9,8192,[.crAlone],[],0,0⟩,⟨10,4294967808,[],[],0,0⟩,⟨11,115792089237316195423570985008687907853269984665635612279299289564754875501055,[],[(3,.code)],0,0⟩,⟨12,4951760157141521099596496896,[],[],0,0⟩,⟨14,1152921504606846976,[],[],0,0⟩,⟨28,549755813888,[],[(5,.emb (.goto 6))],0,0⟩],[⟨6,1024,[],[],0,0⟩],[⟨0,1152921504606846976,[],[(1,.setEnt .internalNl),(2,.cb)],0,0⟩,⟨5,8192,[],[(1,.setEnt .internalNl),(2,.cb)],0,0⟩,⟨7,1024,[],[(1,.setEnt .internalNl),(2,.cb)],0,0⟩,⟨8,4096,[],[(1,.setEnt .internalNl),(2,.cb)],0,0⟩,⟨9,8192,[.crAlone],[(1,.setEnt .internalNl),(2,.cb)],0,0⟩,⟨10,4294967808,[],[(1,.setEnt .internalNl),(2,.cb)],0,0⟩,⟨11,115792089237316195423570985008687907853269984665635612279299289564754875501055,[],[(1,.setEnt .internalNl),(2,.cb),(3,.code)],0,0⟩,⟨12,4951760157141521099596496896,[],[(1,.setEnt .internalNl),(2,.cb)],0,0⟩,⟨14,1152921504606846976,[],[(1,.setEnt .internalNl),(2,.cb)],0,0⟩,⟨28,549755813888,[],[(1,.setEnt .internalNl),(2,.cb),(5,.emb (.goto 6))],0,0⟩],[⟨0,1152921504606846976,[],[(1,.setEnt .internalNl),(2,.cb)],0,0⟩,⟨5,8192,[],[(1,.setEnt .internalNl),(2,.cb)],0,0⟩,⟨7,1024,[],[(1,.setEnt .internalNl),(2,.cb)],0,0⟩,⟨8,4096,[],[(1,.setEnt .internalNl),(2,.cb)],0,0⟩,⟨9,8192,[.crAlone],[(1,.setEnt .internalNl),(2,.cb)],0,0⟩,⟨10,4294967808,[],[(1,.setEnt .internalNl),(2,.cb)],0,0⟩,⟨11,115792089237316195423570985008687907853269984665635612279299289564754875501055,[],[(1,.setEnt .internalNl),(2,.cb),(3,.code)],0,0⟩,⟨12,4951760157141521099596496896,[],[(1,.setEnt .internalNl),(2,.cb)],0,0⟩,⟨14,1152921504606846976,[],[(1,.setEnt .internalNl),(2,.cb)],0,0⟩,⟨28,549755813888,[],[(1,.setEnt .internalNl),(2,.cb),(5,.emb (.goto 6))],0,0⟩],[⟨0,1152921504606846976,[],[(1,.setEnt .internalNl),(2,.cb)],0,0⟩,⟨5,8192,[],[(1,.setEnt .internalNl),(2,.cb)],0,0⟩,⟨7,1024,[],[(1,.setEnt .internalNl),(2,.cb)],0,0⟩,⟨8,4096,[],[(1,.setEnt .internalNl),(2,.cb)],0,0⟩,⟨9,8192,[.crAlone],[(1,.setEnt .internalNl),(2,.cb)],0,0⟩,⟨10,4294967808,[],[(1,.setEnt .internalNl),(2,.cb)],0,0⟩,⟨11,115792089237316195423570985008687907853269984665635612279299289564754875501055,[],[(1,.setEnt .internalNl),(2,.cb),(3,.code)],0,0⟩,⟨12,4951760157141521099596496896,[],[(1,.setEnt .internalNl),(2,.cb)],0,0⟩,⟨14,1152921504606846976,[],[(1,.setEnt .internalNl),(2,.cb)],0,0⟩,⟨28,549755813888,[],[(1,.setEnt .internalNl),(2,.cb),(5,.emb (.goto 6))],0,0⟩],[⟨0,1152921504606846976,[],[(1,.setEnt .internalNl),(2,.cb)],0,0⟩,⟨5,8192,[],[(1,.setEnt .internalNl),(2,.cb)],0,0⟩,⟨7,1024,[],[(1,.setEnt .internalNl),(2,.cb)],0,0⟩,⟨8,4096,[],[(1,.setEnt .internalNl),(2,.cb)],0,0⟩,⟨9,8192,[.crAlone],[(1,.setEnt .internalNl),(2,.cb)],0,0⟩,⟨10,4294967808,[],[(1,.setEnt .internalNl),(2,.cb)],0,0⟩,⟨11,115792089237316195423570985008687907853269984665635612279299289564754875501055,[],[(1,.setEnt .internalNl),(2,.cb),(3,.code)],0,0⟩,⟨12,4951760157141521099596496896,[],[(1,.setEnt .internalNl),(2,.cb)],0,0⟩,⟨14,1152921504606846976,[],[(1,.setEnt .internalNl),(2,.cb)],0,0⟩,⟨28,549755813888,[],[(1,.setEnt .internalNl),(2,.cb),(5,.emb (.goto 6))],0,0⟩],[⟨0,1152921504606846976,[],[],0,0⟩,⟨5,8192,[],[],0,0⟩,⟨7,1024,[],[],0,0⟩,⟨8,4096,[],[],0,0⟩,⟨9,8192,[.crAlone],[],0,0⟩,⟨10,4294967808,[],[],0,0⟩,⟨11,115792089237316195423570985008687907853269984665635612279299289564754875501055,[],[(3,.code)],0,0⟩,⟨12,4951760157141521099596496896,[],[],0,0⟩,⟨14,1152921504606846976,[],[],0,0⟩,⟨28,549755813888,[],[(5,.emb (.goto 6))],0,0⟩],[⟨0,1152921504606846976,[],[],0,0⟩,⟨5,8192,[],[],0,0⟩,⟨7,1024,[],[],0,0⟩,⟨8,4096,[],[],0,0⟩,⟨9,8192,[.crAlone],[],0,0⟩,⟨10,4294967808,[],[],0,0⟩,⟨11,115792089237316195423570985008687907853269984665635612279299289564754875501055,[],[(3,.code)],0,0⟩,⟨12,4951760157141521099596496896,[],[],0,0⟩,⟨14,1152921504606846976,[],[],0,0⟩,⟨28,549755813888,[],[(5,.emb (.goto 6))],0,0⟩],[⟨13,115792089237316195423570985008687907853269984665640564039457584007913129626623,[],[(4,.code)],0,0⟩],[⟨0,1152921504606846976,[],[],0,0⟩,⟨5,8192,[],[],0,0⟩,⟨7,1024,[],[],0,0⟩,⟨8,4096,[],[],0,0⟩,⟨9,8192,[.crAlone],[],0,0⟩,⟨10,4294967808,[],[],0,0⟩,⟨11,115792089237316195423570985008687907853269984665635612279299289564754875501055,[],[(3,.code)],0,0⟩,⟨12,4951760157141521099596496896,[],[],0,0⟩,⟨14,1152921504606846976,[],[],0,0⟩,⟨28,549755813888,[],[(5,.emb (.goto 6))],0,0⟩],[⟨15,115792089237316195423570985008687907853269984665640564039448360635876274864127,[],[],0,0⟩,⟨16,9223372036854775808,[],[],0,0⟩,⟨25,9223372036854775808,[],[],0,0⟩,⟨0,1152921504606846976,[],[],0,0⟩,⟨5,8192,[],[],0,0⟩,⟨7,1024,[],[],0,0⟩,⟨8,4096,[],[],0,0⟩,⟨9,8192,[.crAlone],[],0,0⟩,⟨10,4294967808,[],[],0,0⟩,⟨11,115792089237316195423570985008687907853269984665635612279299289564754875501055,[],[(3,.code)],0,0⟩,⟨12,4951760157141521099596496896,[],[],0,0⟩,⟨14,1152921504606846976,[],[],0,0⟩,⟨28,549755813888,[],[(5,.emb (.goto 6))],0,0⟩],[⟨24,115792089237316195423570985008687907853269984665640564039457584007913129639935,[],[],0,0⟩,⟨0,1152921504606846976,[],[],0,0⟩,⟨5,8192,[],[],0,0⟩,⟨7,1024,[],[],0,0⟩,⟨8,4096,[],[],0,0⟩,⟨9,8192,[.crAlone],[],0,0⟩,⟨10,4294967808,[],[],0,0⟩,⟨11,115792089237316195423570985008687907853269984665635612279299289564754875501055,[],[(3,.code)],0,0⟩,⟨12,4951760157141521099596496896,[],[],0,0⟩,⟨14,1152921504606846976,[],[],0,0⟩,⟨28,549755813888,[],[(5,.emb (.goto 6))],0,0⟩],[⟨17,115792089237316195423570985008687907853269979473343705504629955477416800419839,[],[],0,0⟩,⟨18,5192296858534827628530496329220096,[],[],0,0⟩],[⟨24,115792089237316195423570985008687907853269984665640564039457584007913129639935,[],[],0,0⟩,⟨0,1152921504606846976,[],[],0,0⟩,⟨5,8192,[],[],0,0⟩,⟨7,1024,[],[],0,0⟩,⟨8,4096,[],[],0,0⟩,⟨9,8192,[.crAlone],[],0,0⟩,⟨10,4294967808,[],[],0,0⟩,⟨11,115792089237316195423570985008687907853269984665635612279299289564754875501055,[],[(3,.code)],0,0⟩,⟨12,4951760157141521099596496896,[],[],0,0⟩,⟨14,1152921504606846976,[],[],0,0⟩,⟨28,549755813888,[],[(5,.emb (.goto 6))],0,0⟩],[⟨19,115792089237316195423570985008687907853269984645358154435805913583965878353919,[],[],0,0⟩,⟨20,20282409603651670423947251286016,[],[],0,0⟩],[⟨24,115792089237316195423570985008687907853269984665640564039457584007913129639935,[],[],0,0⟩,⟨0,1152921504606846976,[],[],0,0⟩,⟨5,8192,[],[],0,0⟩,⟨7,1024,[],[],0,0⟩,⟨8,4096,[],[],0,0⟩,⟨9,8192,[.crAlone],[],0,0⟩,⟨10,4294967808,[],[],0,0⟩,⟨11,115792089237316195423570985008687907853269984665635612279299289564754875501055,[],[(3,.code)],0,0⟩,⟨12,4951760157141521099596496896,[],[],0,0⟩,⟨14,1152921504606846976,[],[],0,0⟩,⟨28,549755813888,[],[(5,.emb (.goto 6))],0,0⟩],[⟨21,115792089237316195423570985008687907853269979473343705504629955477416800419839,[],[],0,0⟩,⟨22,5192296858534827628530496329220096,[],[],0,0⟩],[⟨24,115792089237316195423570985008687907853269984665640564039457584007913129639935,[],[],0,0⟩,⟨0,1152921504606846976,[],[],0,0⟩,⟨5,8192,[],[],0,0⟩,⟨7,1024,[],[],0,0⟩,⟨8,4096,[],[],0,0⟩,⟨9,8192,[.crAlone],[],0,0⟩,⟨10,4294967808,[],[],0,0⟩,⟨11,115792089237316195423570985008687907853269984665635612279299289564754875501055,[],[(3,.code)],0,0⟩,⟨12,4951760157141521099596496896,[],[],0,0⟩,⟨14,1152921504606846976,[],[],0,0⟩,⟨28,549755813888,[],[(5,.emb (.goto 6))],0,0⟩],[⟨23,115792089237316195423570985008687907853269984665640564039457584007913129639935,[],[],0,0⟩],[⟨24,115792089237316195423570985008687907853269984665640564039457584007913129639935,[],[],0,0⟩,⟨0,1152921504606846976,[],[],0,0⟩,⟨5,8192,[],[],0,0⟩,⟨7,1024,[],[],0,0⟩,⟨8,4096,[],[],0,0⟩,⟨9,8192,[.crAlone],[],0,0⟩,⟨10,4294967808,[],[],0,0⟩,⟨11,115792089237316195423570985008687907853269984665635612279299289564754875501055,[],[(3,.code)],0,0⟩,⟨12,4951760157141521099596496896,[],[],0,0⟩,⟨14,1152921504606846976,[],[],0,0⟩,⟨28,549755813888,[],[(5,.emb (.goto 6))],0,0⟩],[⟨24,115792089237316195423570985008687907853269984665640564039457584007913129639935,[],[],0,0⟩,⟨0,1152921504606846976,[],[],0,0⟩,⟨5,8192,[],[],0,0⟩,⟨7,1024,[],[],0,0⟩,⟨8,4096,[],[],0,0⟩,⟨9,8192,[.crAlone],[],0,0⟩,⟨10,4294967808,[],[],0,0⟩,⟨11,115792089237316195423570985008687907853269984665635612279299289564754875501055,[],[(3,.code)],0,0⟩,⟨12,4951760157141521099596496896,[],[],0,0⟩,⟨14,1152921504606846976,[],[],0,0⟩,⟨28,549755813888,[],[(5,.emb (.goto 6))],0,0⟩],[⟨26,5192296858534827628530496329220096,[],[],0,0⟩,⟨0,1152921504606846976,[],[],0,0⟩,⟨5,8192,[],[],0,0⟩,⟨7,1024,[],[],0,0⟩,⟨8,4096,[],[],0,0⟩,⟨9,8192,[.crAlone],[],0,0⟩,⟨10,4294967808,[],[],0,0⟩,⟨11,115792089237316195423570985008687907853269984665635612279299289564754875501055,[],[(3,.code)],0,0⟩,⟨12,4951760157141521099596496896,[],[],0,0⟩,⟨14,1152921504606846976,[],[],0,0⟩,⟨28,549755813888,[],[(5,.emb (.goto 6))],0,0⟩],[⟨27,20282409603651670423947251286016,[],[],0,0⟩,⟨0,1152921504606846976,[],[],0,0⟩,⟨5,8192,[],[],0,0⟩,⟨7,1024,[],[],0,0⟩,⟨8,4096,[],[],0,0⟩,⟨9,8192,[.crAlone],[],0,0⟩,⟨10,4294967808,[],[],0,0⟩,⟨11,115792089237316195423570985008687907853269984665635612279299289564754875501055,[],[(3,.code)],0,0⟩,⟨12,4951760157141521099596496896,[],[],0,0⟩,⟨14,1152921504606846976,[],[],0,0⟩,⟨28,549755813888,[],[(5,.emb (.goto 6))],0,0⟩],[⟨0,1152921504606846976,[],[],0,0⟩,⟨5,8192,[],[],0,0⟩,⟨7,1024,[],[],0,0⟩,⟨8,4096,[],[],0,0⟩,⟨9,8192,[.crAlone],[],0,0⟩,⟨10,4294967808,[],[],0,0⟩,⟨11,115792089237316195423570985008687907853269984665635612279299289564754875501055,[],[(3,.code)],0,0⟩,⟨12,4951760157141521099596496896,[],[],0,0⟩,⟨14,1152921504606846976,[],[],0,0⟩,⟨28,549755813888,[],[(5,.emb (.goto 6))],0,0⟩],[]],[none,none,none,none,none,none,none,none,none,none,none,none,none,none,none,none,none,none,none,none,none,none,none,none,none,none,none,none,some (0,[])],[6]⟩
def emb33_masks : List Nat := [1152921504606846976,8192,1024,4096,4294967808,115792089237316195423570985008687907853269984665635612279299289564754875501055,4951760157141521099596496896,549755813888,9223372036854775808,5192296858534827628530496329220096,20282409603651670423947251286016,115792089237316195423570985008687907853269984665640564039457584007913129626623,115792089237316195423570985008687907853269984665640564039448360635876274864127,115792089237316195423570985008687907853269984665640564039457584007913129639935,115792089237316195423570985008687907853269979473343705504629955477416800419839,115792089237316195423570985008687907853269984645358154435805913583965878353919]
def emb33_cs : List (Nat × Nat) := [(0,115792089237316195423570985008687907853269979453056344140810767238274440217087),(9,4294967808),(10,1024),(11,2048),(12,4096),(13,8192),(39,549755813888),(60,1152921504606846976),(63,9223372036854775808),(92,4951760157141521099596496896),(104,20282409603651670423947251286016),(112,5192296858534827628530496329220096)]
theorem emb33_masksIn : masksIn emb33_nfa emb33_masks = true := by decide +kernel
theorem emb33_repOk : repOk emb33_masks emb33_cs = true := by decide +kernel
def emb33_rows : List Row := [⟨[],none,[],[⟨256,.other,false,some ⟨1,[.code],none,false⟩⟩,⟨256,.ws,false,some ⟨2,[],none,false⟩⟩,⟨256,.lf,false,some ⟨3,[],none,false⟩⟩,⟨256,.vt,false,some ⟨1,[.code],none,false⟩⟩,⟨256,.ff,false,some ⟨4,[],none,false⟩⟩,⟨256,.cr,false,some ⟨5,[],none,false⟩⟩,⟨256,.cr,true,some ⟨6,[],none,false⟩⟩,⟨256,.other,false,some ⟨0,[.emb (.goto 6)],some 0,true⟩⟩,⟨256,.other,false,some ⟨7,[],none,false⟩⟩,⟨256,.other,false,some ⟨8,[],none,false⟩⟩]⟩,⟨[11],none,[],[⟨256,.other,false,some ⟨1,[.code],none,false⟩⟩,⟨256,.ws,false,some ⟨2,[],none,false⟩⟩,⟨256,.lf,false,some ⟨3,[],none,false⟩⟩,⟨256,.vt,false,some ⟨1,[.code],none,false⟩⟩,⟨256,.ff,false,some ⟨4,[],none,false⟩⟩,⟨256,.cr,false,some ⟨5,[],none,false⟩⟩,⟨256,.cr,true,some ⟨6,[],none,false⟩⟩,⟨256,.other,false,some ⟨0,[.emb (.goto 6)],some 0,true⟩⟩,⟨256,.other,false,some ⟨7,[],none,false⟩⟩,⟨256,.other,false,some ⟨8,[],none,false⟩⟩]⟩,⟨[10],none,[],[⟨256,.other,false,some ⟨1,[.code],none,false⟩⟩,⟨256,.ws,false,some ⟨2,[],none,false⟩⟩,⟨256,.lf,false,some ⟨3,[],none,false⟩⟩,⟨256,.vt,false,some ⟨1,[.code],none,false⟩⟩,⟨256,.ff,false,some ⟨4,[],none,false⟩⟩,⟨256,.cr,false,some ⟨5,[],none,false⟩⟩,⟨256,.cr,true,some ⟨6,[],none,false⟩⟩,⟨256,.other,false,some ⟨0,[.emb (.goto 6)],some 0,true⟩⟩,⟨256,.other,false,some ⟨7,[],none,false⟩⟩,⟨256,.other,false,some ⟨8,[],none,false⟩⟩]⟩,⟨[7],none,[],[⟨256,.other,false,some ⟨1,[.setEnt .internalNl,.cb,.code],none,false⟩⟩,⟨256,.ws,false,some ⟨2,[.setEnt .internalNl,.cb],none,false⟩⟩,⟨256,.lf,false,some ⟨3,[.setEnt .internalNl,.cb],none,false⟩⟩,⟨256,.vt,false,some ⟨1,[.setEnt .internalNl,.cb,.code],none,false⟩⟩,⟨256,.ff,false,some ⟨4,[.setEnt .internalNl,.cb],none,false⟩⟩,⟨256,.cr,false,some ⟨5,[.setEnt .internalNl,.cb],none,false⟩⟩,⟨256,.cr,true,some ⟨6,[.setEnt .internalNl,.cb],none,false⟩⟩,⟨256,.other,false,some ⟨0,[.setEnt .internalNl,.cb,.emb (.goto 6)],some 0,true⟩⟩,⟨256,.other,false,some ⟨7,[.setEnt .internalNl,.cb],none,false⟩⟩,⟨256,.other,false,some ⟨8,[.setEnt .internalNl,.cb],none,false⟩⟩]⟩,⟨[8],none,[],[⟨256,.other,false,some ⟨1,[.setEnt .internalNl,.cb,.code],none,false⟩⟩,⟨256,.ws,false,some ⟨2,[.setEnt .internalNl,.cb],none,false⟩⟩,⟨256,.lf,false,some ⟨3,[.setEnt .internalNl,.cb],none,false⟩⟩,⟨256,.vt,false,some ⟨1,[.setEnt .internalNl,.cb,.code],none,false⟩⟩,⟨256,.ff,false,some ⟨4,[.setEnt .internalNl,.cb],none,false⟩⟩,⟨256,.cr,false,some ⟨5,[.setEnt .internalNl,.cb],none,false⟩⟩,⟨256,.cr,true,some ⟨6,[.setEnt .internalNl,.cb],none,false⟩⟩,⟨256,.other,false,some ⟨0,[.setEnt .internalNl,.cb,.emb (.goto 6)],some 0,true⟩⟩,⟨256,.other,false,some ⟨7,[.setEnt .internalNl,.cb],none,false⟩⟩,⟨256,.other,false,some ⟨8,[.setEnt .internalNl,.cb],none,false⟩⟩]⟩,⟨[5],none,[],[⟨256,.other,false,none⟩,⟨256,.ws,false,none⟩,⟨256,.lf,false,some ⟨9,[],none,false⟩⟩,⟨256,.vt,false,none⟩,⟨256,.ff,false,none⟩,⟨256,.cr,false,none⟩,⟨256,.cr,true,none⟩]⟩,⟨[5,9],none,[],[⟨256,.other,false,some ⟨1,[.setEnt .internalNl,.cb,.code],none,false⟩⟩,⟨256,.ws,false,some ⟨2,[.setEnt .internalNl,.cb],none,false⟩⟩,⟨256,.lf,false,some ⟨10,[.setEnt .internalNl,.cb],none,false⟩⟩,⟨256,.vt,false,some ⟨1,[.setEnt .internalNl,.cb,.code],none,false⟩⟩,⟨256,.ff,false,some ⟨4,[.setEnt .internalNl,.cb],none,false⟩⟩,⟨256,.cr,false,some ⟨5,[.setEnt .internalNl,.cb],none,false⟩⟩,⟨256,.cr,true,some ⟨6,[.setEnt .internalNl,.cb],none,false⟩⟩,⟨256,.other,false,some ⟨0,[.setEnt .internalNl,.cb,.emb (.goto 6)],some 0,true⟩⟩,⟨256,.other,false,some ⟨7,[.setEnt .internalNl,.cb],none,false⟩⟩,⟨256,.other,false,some ⟨8,[.setEnt .internalNl,.cb],none,false⟩⟩]⟩,⟨[0,14],none,[],[⟨256,.other,false,some ⟨11,[.code],none,false⟩⟩,⟨256,.ws,false,some ⟨12,[],none,false⟩⟩,⟨256,.lf,false,some ⟨13,[],none,false⟩⟩,⟨256,.vt,false,some ⟨11,[.code],none,false⟩⟩,⟨256,.ff,false,some ⟨14,[],none,false⟩⟩,⟨256,.cr,false,some ⟨15,[],none,false⟩⟩,⟨256,.cr,true,some ⟨16,[],none,false⟩⟩,⟨256,.other,false,some ⟨17,[.emb (.goto 6)],some 0,false⟩⟩,⟨256,.other,false,some ⟨18,[],none,false⟩⟩,⟨256,.other,false,some ⟨19,[.code],none,false⟩⟩,⟨256,.other,false,some ⟨20,[],none,false⟩⟩]⟩,⟨[12],none,[],[⟨256,.other,false,some ⟨21,[.code],none,false⟩⟩,⟨256,.ws,false,some ⟨21,[.code],none,false⟩⟩,⟨256,.lf,false,none⟩,⟨256,.vt,false,some ⟨21,[.code],none,false⟩⟩,⟨256,.ff,false,none⟩,⟨256,.cr,false,none⟩,⟨256,.cr,true,none⟩]⟩,⟨[6],none,[],[⟨256,.other,false,some ⟨1,[.setEnt .internalNl,.cb,.code],none,false⟩⟩,⟨256,.ws,false,some ⟨2,[.setEnt .internalNl,.cb],none,false⟩⟩,⟨256,.lf,false,some ⟨3,[.setEnt .internalNl,.cb],none,false⟩⟩,⟨256,.vt,false,some ⟨1,[.setEnt .internalNl,.cb,.code],none,false⟩⟩,⟨256,.ff,false,some ⟨4,[.setEnt .internalNl,.cb],none,false⟩⟩,⟨256,.cr,false,some ⟨5,[.setEnt .internalNl,.cb],none,false⟩⟩,⟨256,.cr,true,some ⟨6,[.setEnt .internalNl,.cb],none,false⟩⟩,⟨256,.other,false,some ⟨0,[.setEnt .internalNl,.cb,.emb (.goto 6)],some 0,true⟩⟩,⟨256,.other,false,some ⟨7,[.setEnt .internalNl,.cb],none,false⟩⟩,⟨256,.other,false,some ⟨8,[.setEnt .internalNl,.cb],none,false⟩⟩]⟩,⟨[6,7],none,[],[⟨256,.other,false,some ⟨1,[.setEnt .internalNl,.cb,.code],none,false⟩⟩,⟨256,.ws,false,some ⟨2,[.setEnt .internalNl,.cb],none,false⟩⟩,⟨256,.lf,false,some ⟨3,[.setEnt .internalNl,.cb],none,false⟩⟩,⟨256,.vt,false,some ⟨1,[.setEnt .internalNl,.cb,.code],none,false⟩⟩,⟨256,.ff,false,some ⟨4,[.setEnt .internalNl,.cb],none,false⟩⟩,⟨256,.cr,false,some ⟨5,[.setEnt .internalNl,.cb],none,false⟩⟩,⟨256,.cr,true,some ⟨6,[.setEnt .internalNl,.cb],none,false⟩⟩,⟨256,.other,false,some ⟨0,[.setEnt .internalNl,.cb,.emb (.goto 6)],some 0,true⟩⟩,⟨256,.other,false,some ⟨7,[.setEnt .internalNl,.cb],none,false⟩⟩,⟨256,.other,false,some ⟨8,[.setEnt .internalNl,.cb],none,false⟩⟩]⟩,⟨[11,15],none,[],[⟨256,.other,false,some ⟨22,[.code],none,false⟩⟩,⟨256,.ws,false,some ⟨23,[],none,false⟩⟩,⟨256,.lf,false,some ⟨24,[],none,false⟩⟩,⟨256,.vt,false,some ⟨22,[.code],none,false⟩⟩,⟨256,.ff,false,some ⟨25,[],none,false⟩⟩,⟨256,.cr,false,some ⟨26,[],none,false⟩⟩,⟨256,.cr,true,some ⟨27,[],none,false⟩⟩,⟨256,.other,false,some ⟨28,[.emb (.goto 6)],some 0,false⟩⟩,⟨256,.other,false,some ⟨29,[],none,false⟩⟩,⟨256,.other,false,some ⟨30,[],none,false⟩⟩]⟩,⟨[10,15],none,[],[⟨256,.other,false,some ⟨22,[.code],none,false⟩⟩,⟨256,.ws,false,some ⟨23,[],none,false⟩⟩,⟨256,.lf,false,some ⟨24,[],none,false⟩⟩,⟨256,.vt,false,some ⟨22,[.code],none,false⟩⟩,⟨256,.ff,false,some ⟨25,[],none,false⟩⟩,⟨256,.cr,false,some ⟨26,[],none,false⟩⟩,⟨256,.cr,true,some ⟨27,[],none,false⟩⟩,⟨256,.other,false,some ⟨28,[.emb (.goto 6)],some 0,false⟩⟩,⟨256,.other,false,some ⟨29,[],none,false⟩⟩,⟨256,.other,false,some ⟨30,[],none,false⟩⟩]⟩,⟨[7,15],none,[],[⟨256,.other,false,some ⟨22,[.setEnt .internalNl,.cb,.code],none,false⟩⟩,⟨256,.ws,false,some ⟨23,[.setEnt .internalNl,.cb],none,false⟩⟩,⟨256,.lf,false,some ⟨24,[.setEnt .internalNl,.cb],none,false⟩⟩,⟨256,.vt,false,some ⟨22,[.setEnt .internalNl,.cb,.code],none,false⟩⟩,⟨256,.ff,false,some ⟨25,[.setEnt .internalNl,.cb],none,false⟩⟩,⟨256,.cr,false,some ⟨26,[.setEnt .internalNl,.cb],none,false⟩⟩,⟨256,.cr,true,some ⟨27,[.setEnt .internalNl,.cb],none,false⟩⟩,⟨256,.other,false,some ⟨28,[.setEnt .internalNl,.cb,.emb (.goto 6)],some 0,false⟩⟩,⟨256,.other,false,some ⟨29,[.setEnt .internalNl,.cb],none,false⟩⟩,⟨256,.other,false,some ⟨30,[.setEnt .internalNl,.cb],none,false⟩⟩]⟩,⟨[8,15],none,[],[⟨256,.other,false,some ⟨22,[.setEnt .internalNl,.cb,.code],none,false⟩⟩,⟨256,.ws,false,some ⟨23,[.setEnt .internalNl,.cb],none,false⟩⟩,⟨256,.lf,false,some ⟨24,[.setEnt .internalNl,.cb],none,false⟩⟩,⟨256,.vt,false,some ⟨22,[.setEnt .internalNl,.cb,.code],none,false⟩⟩,⟨256,.ff,false,some ⟨25,[.setEnt .internalNl,.cb],none,false⟩⟩,⟨256,.cr,false,some ⟨26,[.setEnt .internalNl,.cb],none,false⟩⟩,⟨256,.cr,true,some ⟨27,[.setEnt .internalNl,.cb],none,false⟩⟩,⟨256,.other,false,some ⟨28,[.setEnt .internalNl,.cb,.emb (.goto 6)],some 0,false⟩⟩,⟨256,.other,false,some ⟨29,[.setEnt .internalNl,.cb],none,false⟩⟩,⟨256,.other,false,some ⟨30,[.setEnt .internalNl,.cb],none,false⟩⟩]⟩,⟨[5,15],none,[],[⟨256,.other,false,some ⟨22,[.code],none,false⟩⟩,⟨256,.ws,false,some ⟨23,[],none,false⟩⟩,⟨256,.lf,false,some ⟨31,[],none,false⟩⟩,⟨256,.vt,false,some ⟨22,[.code],none,false⟩⟩,⟨256,.ff,false,some ⟨25,[],none,false⟩⟩,⟨256,.cr,false,some ⟨26,[],none,false⟩⟩,⟨256,.cr,true,some ⟨27,[],none,false⟩⟩,⟨256,.other,false,some ⟨28,[.emb (.goto 6)],some 0,false⟩⟩,⟨256,.other,false,some ⟨29,[],none,false⟩⟩,⟨256,.other,false,some ⟨30,[],none,false⟩⟩]⟩,⟨[5,9,15],none,[],[⟨256,.other,false,some ⟨22,[.setEnt .internalNl,.cb,.code],none,false⟩⟩,⟨256,.ws,false,some ⟨23,[.setEnt .internalNl,.cb],none,false⟩⟩,⟨256,.lf,false,some ⟨31,[.setEnt .internalNl,.cb],none,false⟩⟩,⟨256,.vt,false,some ⟨22,[.setEnt .internalNl,.cb,.code],none,false⟩⟩,⟨256,.ff,false,some ⟨25,[.setEnt .internalNl,.cb],none,false⟩⟩,⟨256,.cr,false,some ⟨26,[.setEnt .internalNl,.cb],none,false⟩⟩,⟨256,.cr,true,some ⟨27,[.setEnt .internalNl,.cb],none,false⟩⟩,⟨256,.other,false,some ⟨28,[.setEnt .internalNl,.cb,.emb (.goto 6)],some 0,false⟩⟩,⟨256,.other,false,some ⟨29,[.setEnt .internalNl,.cb],none,false⟩⟩,⟨256,.other,false,some ⟨30,[.setEnt .internalNl,.cb],none,false⟩⟩]⟩,⟨[15,28],some 0,[],[⟨256,.other,false,some ⟨22,[.code],none,false⟩⟩,⟨256,.ws,false,some ⟨23,[],none,false⟩⟩,⟨256,.lf,false,some ⟨24,[],none,false⟩⟩,⟨256,.vt,false,some ⟨22,[.code],none,false⟩⟩,⟨256,.ff,false,some ⟨25,[],none,false⟩⟩,⟨256,.cr,false,some ⟨26,[],none,false⟩⟩,⟨256,.cr,true,some ⟨27,[],none,false⟩⟩,⟨256,.other,false,some ⟨28,[.emb (.goto 6)],some 0,false⟩⟩,⟨256,.other,false,some ⟨29,[],none,false⟩⟩,⟨256,.other,false,some ⟨30,[],none,false⟩⟩]⟩,⟨[0,14,15],none,[],[⟨256,.other,false,some ⟨32,[.code],none,false⟩⟩,⟨256,.ws,false,some ⟨33,[],none,false⟩⟩,⟨256,.lf,false,some ⟨34,[],none,false⟩⟩,⟨256,.vt,false,some ⟨32,[.code],none,false⟩⟩,⟨256,.ff,false,some ⟨35,[],none,false⟩⟩,⟨256,.cr,false,some ⟨36,[],none,false⟩⟩,⟨256,.cr,true,some ⟨37,[],none,false⟩⟩,⟨256,.other,false,some ⟨38,[.emb (.goto 6)],some 0,false⟩⟩,⟨256,.other,false,some ⟨39,[],none,false⟩⟩,⟨256,.other,false,some ⟨40,[.code],none,false⟩⟩,⟨256,.other,false,some ⟨41,[],none,false⟩⟩]⟩,⟨[1,11,16,25],none,[],[⟨256,.other,false,some ⟨42,[.code],none,false⟩⟩,⟨256,.ws,false,some ⟨43,[],none,false⟩⟩,⟨256,.lf,false,some ⟨44,[],none,false⟩⟩,⟨256,.vt,false,some ⟨42,[.code],none,false⟩⟩,⟨256,.ff,false,some ⟨45,[],none,false⟩⟩,⟨256,.cr,false,some ⟨46,[],none,false⟩⟩,⟨256,.cr,true,some ⟨47,[],none,false⟩⟩,⟨256,.other,false,some ⟨48,[.emb (.goto 6)],some 0,false⟩⟩,⟨256,.other,false,some ⟨49,[],none,false⟩⟩,⟨256,.other,false,some ⟨50,[],none,false⟩⟩,⟨256,.other,false,some ⟨51,[.code],none,false⟩⟩]⟩,⟨[12,15],none,[],[⟨256,.other,false,some ⟨52,[.code],none,false⟩⟩,⟨256,.ws,false,some ⟨53,[.code],none,false⟩⟩,⟨256,.lf,false,some ⟨24,[],none,false⟩⟩,⟨256,.vt,false,some ⟨52,[.code],none,false⟩⟩,⟨256,.ff,false,some ⟨25,[],none,false⟩⟩,⟨256,.cr,false,some ⟨26,[],none,false⟩⟩,⟨256,.cr,true,some ⟨27,[],none,false⟩⟩,⟨256,.other,false,some ⟨54,[.code,.emb (.goto 6)],some 0,false⟩⟩,⟨256,.other,false,some ⟨55,[.code],none,false⟩⟩,⟨256,.other,false,some ⟨56,[.code],none,false⟩⟩]⟩,⟨[13],none,[],[⟨256,.other,false,some ⟨1,[.code],none,false⟩⟩,⟨256,.ws,false,some ⟨2,[],none,false⟩⟩,⟨256,.lf,false,some ⟨3,[],none,false⟩⟩,⟨256,.vt,false,some ⟨1,[.code],none,false⟩⟩,⟨256,.ff,false,some ⟨4,[],none,false⟩⟩,⟨256,.cr,false,some ⟨5,[],none,false⟩⟩,⟨256,.cr,true,some ⟨6,[],none,false⟩⟩,⟨256,.other,false,some ⟨0,[.emb (.goto 6)],some 0,true⟩⟩,⟨256,.other,false,some ⟨7,[],none,false⟩⟩,⟨256,.other,false,some ⟨8,[],none,false⟩⟩]⟩,⟨[11,24],none,[],[⟨256,.other,false,some ⟨22,[.code],none,false⟩⟩,⟨256,.ws,false,some ⟨23,[],none,false⟩⟩,⟨256,.lf,false,some ⟨24,[],none,false⟩⟩,⟨256,.vt,false,some ⟨22,[.code],none,false⟩⟩,⟨256,.ff,false,some ⟨25,[],none,false⟩⟩,⟨256,.cr,false,some ⟨26,[],none,false⟩⟩,⟨256,.cr,true,some ⟨27,[],none,false⟩⟩,⟨256,.other,false,some ⟨28,[.emb (.goto 6)],some 0,false⟩⟩,⟨256,.other,false,some ⟨29,[],none,false⟩⟩,⟨256,.other,false,some ⟨30,[],none,false⟩⟩]⟩,⟨[10,24],none,[],[⟨256,.other,false,some ⟨22,[.code],none,false⟩⟩,⟨256,.ws,false,some ⟨23,[],none,false⟩⟩,⟨256,.lf,false,some ⟨24,[],none,false⟩⟩,⟨256,.vt,false,some ⟨22,[.code],none,false⟩⟩,⟨256,.ff,false,some ⟨25,[],none,false⟩⟩,⟨256,.cr,false,some ⟨26,[],none,false⟩⟩,⟨256,.cr,true,some ⟨27,[],none,false⟩⟩,⟨256,.other,false,some ⟨28,[.emb (.goto 6)],some 0,false⟩⟩,⟨256,.other,false,some ⟨29,[],none,false⟩⟩,⟨256,.other,false,some ⟨30,[],none,false⟩⟩]⟩,⟨[7,24],none,[],[⟨256,.other,false,some ⟨22,[.setEnt .internalNl,.cb,.code],none,false⟩⟩,⟨256,.ws,false,some ⟨23,[.setEnt .internalNl,.cb],none,false⟩⟩,⟨256,.lf,false,some ⟨24,[.setEnt .internalNl,.cb],none,false⟩⟩,⟨256,.vt,false,some ⟨22,[.setEnt .internalNl,.cb,.code],none,false⟩⟩,⟨256,.ff,false,some ⟨25,[.setEnt .internalNl,.cb],none,false⟩⟩,⟨256,.cr,false,some ⟨26,[.setEnt .internalNl,.cb],none,false⟩⟩,⟨256,.cr,true,some ⟨27,[.setEnt .internalNl,.cb],none,false⟩⟩,⟨256,.other,false,some ⟨28,[.setEnt .internalNl,.cb,.emb (.goto 6)],some 0,false⟩⟩,⟨256,.other,false,some ⟨29,[.setEnt .internalNl,.cb],none,false⟩⟩,⟨256,.other,false,some ⟨30,[.setEnt .internalNl,.cb],none,false⟩⟩]⟩,⟨[8,24],none,[],[⟨256,.other,false,some ⟨22,[.setEnt .internalNl,.cb,.code],none,false⟩⟩,⟨256,.ws,false,some ⟨23,[.setEnt .internalNl,.cb],none,false⟩⟩,⟨256,.lf,false,some ⟨24,[.setEnt .internalNl,.cb],none,false⟩⟩,⟨256,.vt,false,some ⟨22,[.setEnt .internalNl,.cb,.code],none,false⟩⟩,⟨256,.ff,false,some ⟨25,[.setEnt .internalNl,.cb],none,false⟩⟩,⟨256,.cr,false,some ⟨26,[.setEnt .internalNl,.cb],none,false⟩⟩,⟨256,.cr,true,some ⟨27,[.setEnt .internalNl,.cb],none,false⟩⟩,⟨256,.other,false,some ⟨28,[.setEnt .internalNl,.cb,.emb (.goto 6)],some 0,false⟩⟩,⟨256,.other,false,some ⟨29,[.setEnt .internalNl,.cb],none,false⟩⟩,⟨256,.other,false,some ⟨30,[.setEnt .internalNl,.cb],none,false⟩⟩]⟩,⟨[5,24],none,[],[⟨256,.other,false,some ⟨22,[.code],none,false⟩⟩,⟨256,.ws,false,some ⟨23,[],none,false⟩⟩,⟨256,.lf,false,some ⟨31,[],none,false⟩⟩,⟨256,.vt,false,some ⟨22,[.code],none,false⟩⟩,⟨256,.ff,false,some ⟨25,[],none,false⟩⟩,⟨256,.cr,false,some ⟨26,[],none,false⟩⟩,⟨256,.cr,true,some ⟨27,[],none,false⟩⟩,⟨256,.other,false,some ⟨28,[.emb (.goto 6)],some 0,false⟩⟩,⟨256,.other,false,some ⟨29,[],none,false⟩⟩,⟨256,.other,false,some ⟨30,[],none,false⟩⟩]⟩,⟨[5,9,24],none,[],[⟨256,.other,false,some ⟨22,[.setEnt .internalNl,.cb,.code],none,false⟩⟩,⟨256,.ws,false,some ⟨23,[.setEnt .internalNl,.cb],none,false⟩⟩,⟨256,.lf,false,some ⟨31,[.setEnt .internalNl,.cb],none,false⟩⟩,⟨256,.vt,false,some ⟨22,[.setEnt .internalNl,.cb,.code],none,false⟩⟩,⟨256,.ff,false,some ⟨25,[.setEnt .internalNl,.cb],none,false⟩⟩,⟨256,.cr,false,some ⟨26,[.setEnt .internalNl,.cb],none,false⟩⟩,⟨256,.cr,true,some ⟨27,[.setEnt .internalNl,.cb],none,false⟩⟩,⟨256,.other,false,some ⟨28,[.setEnt .internalNl,.cb,.emb (.goto 6)],some 0,false⟩⟩,⟨256,.other,false,some ⟨29,[.setEnt .internalNl,.cb],none,false⟩⟩,⟨256,.other,false,some ⟨30,[.setEnt .internalNl,.cb],none,false⟩⟩]⟩,⟨[24,28],some 0,[],[⟨256,.other,false,some ⟨22,[.code],none,false⟩⟩,⟨256,.ws,false,some ⟨23,[],none,false⟩⟩,⟨256,.lf,false,some ⟨24,[],none,false⟩⟩,⟨256,.vt,false,some ⟨22,[.code],none,false⟩⟩,⟨256,.ff,false,some ⟨25,[],none,false⟩⟩,⟨256,.cr,false,some ⟨26,[],none,false⟩⟩,⟨256,.cr,true,some ⟨27,[],none,false⟩⟩,⟨256,.other,false,some ⟨28,[.emb (.goto 6)],some 0,false⟩⟩,⟨256,.other,false,some ⟨29,[],none,false⟩⟩,⟨256,.other,false,some ⟨30,[],none,false⟩⟩]⟩,⟨[0,14,24],none,[],[⟨256,.other,false,some ⟨32,[.code],none,false⟩⟩,⟨256,.ws,false,some ⟨33,[],none,false⟩⟩,⟨256,.lf,false,some ⟨34,[],none,false⟩⟩,⟨256,.vt,false,some ⟨32,[.code],none,false⟩⟩,⟨256,.ff,false,some ⟨35,[],none,false⟩⟩,⟨256,.cr,false,some ⟨36,[],none,false⟩⟩,⟨256,.cr,true,some ⟨37,[],none,false⟩⟩,⟨256,.other,false,some ⟨38,[.emb (.goto 6)],some 0,false⟩⟩,⟨256,.other,false,some ⟨39,[],none,false⟩⟩,⟨256,.other,false,some ⟨40,[.code],none,false⟩⟩,⟨256,.other,false,some ⟨41,[],none,false⟩⟩]⟩,⟨[12,24],none,[],[⟨256,.other,false,some ⟨52,[.code],none,false⟩⟩,⟨256,.ws,false,some ⟨53,[.code],none,false⟩⟩,⟨256,.lf,false,some ⟨24,[],none,false⟩⟩,⟨256,.vt,false,some ⟨52,[.code],none,false⟩⟩,⟨256,.ff,false,some ⟨25,[],none,false⟩⟩,⟨256,.cr,false,some ⟨26,[],none,false⟩⟩,⟨256,.cr,true,some ⟨27,[],none,false⟩⟩,⟨256,.other,false,some ⟨54,[.code,.emb (.goto 6)],some 0,false⟩⟩,⟨256,.other,false,some ⟨55,[.code],none,false⟩⟩,⟨256,.other,false,some ⟨56,[.code],none,false⟩⟩]⟩,⟨[6,7,24],none,[],[⟨256,.other,false,some ⟨22,[.setEnt .internalNl,.cb,.code],none,false⟩⟩,⟨256,.ws,false,some ⟨23,[.setEnt .internalNl,.cb],none,false⟩⟩,⟨256,.lf,false,some ⟨24,[.setEnt .internalNl,.cb],none,false⟩⟩,⟨256,.vt,false,some ⟨22,[.setEnt .internalNl,.cb,.code],none,false⟩⟩,⟨256,.ff,false,some ⟨25,[.setEnt .internalNl,.cb],none,false⟩⟩,⟨256,.cr,false,some ⟨26,[.setEnt .internalNl,.cb],none,false⟩⟩,⟨256,.cr,true,some ⟨27,[.setEnt .internalNl,.cb],none,false⟩⟩,⟨256,.other,false,some ⟨28,[.setEnt .internalNl,.cb,.emb (.goto 6)],some 0,false⟩⟩,⟨256,.other,false,some ⟨29,[.setEnt .internalNl,.cb],none,false⟩⟩,⟨256,.other,false,some ⟨30,[.setEnt .internalNl,.cb],none,false⟩⟩]⟩,⟨[11,15,24],none,[],[⟨256,.other,false,some ⟨22,[.code],none,false⟩⟩,⟨256,.ws,false,some ⟨23,[],none,false⟩⟩,⟨256,.lf,false,some ⟨24,[],none,false⟩⟩,⟨256,.vt,false,some ⟨22,[.code],none,false⟩⟩,⟨256,.ff,false,some ⟨25,[],none,false⟩⟩,⟨256,.cr,false,some ⟨26,[],none,false⟩⟩,⟨256,.cr,true,some ⟨27,[],none,false⟩⟩,⟨256,.other,false,some ⟨28,[.emb (.goto 6)],some 0,false⟩⟩,⟨256,.other,false,some ⟨29,[],none,false⟩⟩,⟨256,.other,false,some ⟨30,[],none,false⟩⟩]⟩,⟨[10,15,24],none,[],[⟨256,.other,false,some ⟨22,[.code],none,false⟩⟩,⟨256,.ws,false,some ⟨23,[],none,false⟩⟩,⟨256,.lf,false,some ⟨24,[],none,false⟩⟩,⟨256,.vt,false,some ⟨22,[.code],none,false⟩⟩,⟨256,.ff,false,some ⟨25,[],none,false⟩⟩,⟨256,.cr,false,some ⟨26,[],none,false⟩⟩,⟨256,.cr,true,some ⟨27,[],none,false⟩⟩,⟨256,.other,false,some ⟨28,[.emb (.goto 6)],some 0,false⟩⟩,⟨256,.other,false,some ⟨29,[],none,false⟩⟩,⟨256,.other,false,some ⟨30,[],none,false⟩⟩]⟩,⟨[7,15,24],none,[],[⟨256,.other,false,some ⟨22,[.setEnt .internalNl,.cb,.code],none,false⟩⟩,⟨256,.ws,false,some ⟨23,[.setEnt .internalNl,.cb],none,false⟩⟩,⟨256,.lf,false,some ⟨24,[.setEnt .internalNl,.cb],none,false⟩⟩,⟨256,.vt,false,some ⟨22,[.setEnt .internalNl,.cb,.code],none,false⟩⟩,⟨256,.ff,false,some ⟨25,[.setEnt .internalNl,.cb],none,false⟩⟩,⟨256,.cr,false,some ⟨26,[.setEnt .internalNl,.cb],none,false⟩⟩,⟨256,.cr,true,some ⟨27,[.setEnt .internalNl,.cb],none,false⟩⟩,⟨256,.other,false,some ⟨28,[.setEnt .internalNl,.cb,.emb (.goto 6)],some 0,false⟩⟩,⟨256,.other,false,some ⟨29,[.setEnt .internalNl,.cb],none,false⟩⟩,⟨256,.other,false,some ⟨30,[.setEnt .internalNl,.cb],none,false⟩⟩]⟩,⟨[8,15,24],none,[],[⟨256,.other,false,some ⟨22,[.setEnt .internalNl,.cb,.code],none,false⟩⟩,⟨256,.ws,false,some ⟨23,[.setEnt .internalNl,.cb],none,false⟩⟩,⟨256,.lf,false,some ⟨24,[.setEnt .internalNl,.cb],none,false⟩⟩,⟨256,.vt,false,some ⟨22,[.setEnt .internalNl,.cb,.code],none,false⟩⟩,⟨256,.ff,false,some ⟨25,[.setEnt .internalNl,.cb],none,false⟩⟩,⟨256,.cr,false,some ⟨26,[.setEnt .internalNl,.cb],none,false⟩⟩,⟨256,.cr,true,some ⟨27,[.setEnt .internalNl,.cb],none,false⟩⟩,⟨256,.other,false,some ⟨28,[.setEnt .internalNl,.cb,.emb (.goto 6)],some 0,false⟩⟩,⟨256,.other,false,some ⟨29,[.setEnt .internalNl,.cb],none,false⟩⟩,⟨256,.other,false,some ⟨30,[.setEnt .internalNl,.cb],none,false⟩⟩]⟩,⟨[5,15,24],none,[],[⟨256,.other,false,some ⟨22,[.code],none,false⟩⟩,⟨256,.ws,false,some ⟨23,[],none,false⟩⟩,⟨256,.lf,false,some ⟨31,[],none,false⟩⟩,⟨256,.vt,false,some ⟨22,[.code],none,false⟩⟩,⟨256,.ff,false,some ⟨25,[],none,false⟩⟩,⟨256,.cr,false,some ⟨26,[],none,false⟩⟩,⟨256,.cr,true,some ⟨27,[],none,false⟩⟩,⟨256,.other,false,some ⟨28,[.emb (.goto 6)],some 0,false⟩⟩,⟨256,.other,false,some ⟨29,[],none,false⟩⟩,⟨256,.other,false,some ⟨30,[],none,false⟩⟩]⟩,⟨[5,9,15,24],none,[],[⟨256,.other,false,some ⟨22,[.setEnt .internalNl,.cb,.code],none,false⟩⟩,⟨256,.ws,false,some ⟨23,[.setEnt .internalNl,.cb],none,false⟩⟩,⟨256,.lf,false,some ⟨31,[.setEnt .internalNl,.cb],none,false⟩⟩,⟨256,.vt,false,some ⟨22,[.setEnt .internalNl,.cb,.code],none,false⟩⟩,⟨256,.ff,false,some ⟨25,[.setEnt .internalNl,.cb],none,false⟩⟩,⟨256,.cr,false,some ⟨26,[.setEnt .internalNl,.cb],none,false⟩⟩,⟨256,.cr,true,some ⟨27,[.setEnt .internalNl,.cb],none,false⟩⟩,⟨256,.other,false,some ⟨28,[.setEnt .internalNl,.cb,.emb (.goto 6)],some 0,false⟩⟩,⟨256,.other,false,some ⟨29,[.setEnt .internalNl,.cb],none,false⟩⟩,⟨256,.other,false,some ⟨30,[.setEnt .internalNl,.cb],none,false⟩⟩]⟩,⟨[15,24,28],some 0,[],[⟨256,.other,false,some ⟨22,[.code],none,false⟩⟩,⟨256,.ws,false,some ⟨23,[],none,false⟩⟩,⟨256,.lf,false,some ⟨24,[],none,false⟩⟩,⟨256,.vt,false,some ⟨22,[.code],none,false⟩⟩,⟨256,.ff,false,some ⟨25,[],none,false⟩⟩,⟨256,.cr,false,some ⟨26,[],none,false⟩⟩,⟨256,.cr,true,some ⟨27,[],none,false⟩⟩,⟨256,.other,false,some ⟨28,[.emb (.goto 6)],some 0,false⟩⟩,⟨256,.other,false,some ⟨29,[],none,false⟩⟩,⟨256,.other,false,some ⟨30,[],none,false⟩⟩]⟩,⟨[0,14,15,24],none,[],[⟨256,.other,false,some ⟨32,[.code],none,false⟩⟩,⟨256,.ws,false,some ⟨33,[],none,false⟩⟩,⟨256,.lf,false,some ⟨34,[],none,false⟩⟩,⟨256,.vt,false,some ⟨32,[.code],none,false⟩⟩,⟨256,.ff,false,some ⟨35,[],none,false⟩⟩,⟨256,.cr,false,some ⟨36,[],none,false⟩⟩,⟨256,.cr,true,some ⟨37,[],none,false⟩⟩,⟨256,.other,false,some ⟨38,[.emb (.goto 6)],some 0,false⟩⟩,⟨256,.other,false,some ⟨39,[],none,false⟩⟩,⟨256,.other,false,some ⟨40,[.code],none,false⟩⟩,⟨256,.other,false,some ⟨41,[],none,false⟩⟩]⟩,⟨[1,11,16,24,25],none,[],[⟨256,.other,false,some ⟨57,[.code],none,false⟩⟩,⟨256,.ws,false,some ⟨58,[],none,false⟩⟩,⟨256,.lf,false,some ⟨59,[],none,false⟩⟩,⟨256,.vt,false,some ⟨57,[.code],none,false⟩⟩,⟨256,.ff,false,some ⟨60,[],none,false⟩⟩,⟨256,.cr,false,some ⟨61,[],none,false⟩⟩,⟨256,.cr,true,some ⟨62,[],none,false⟩⟩,⟨256,.other,false,some ⟨63,[.emb (.goto 6)],some 0,false⟩⟩,⟨256,.other,false,some ⟨64,[],none,false⟩⟩,⟨256,.other,false,some ⟨65,[],none,false⟩⟩,⟨256,.other,false,some ⟨66,[.code],none,false⟩⟩]⟩,⟨[12,15,24],none,[],[⟨256,.other,false,some ⟨52,[.code],none,false⟩⟩,⟨256,.ws,false,some ⟨53,[.code],none,false⟩⟩,⟨256,.lf,false,some ⟨24,[],none,false⟩⟩,⟨256,.vt,false,some ⟨52,[.code],none,false⟩⟩,⟨256,.ff,false,some ⟨25,[],none,false⟩⟩,⟨256,.cr,false,some ⟨26,[],none,false⟩⟩,⟨256,.cr,true,some ⟨27,[],none,false⟩⟩,⟨256,.other,false,some ⟨54,[.code,.emb (.goto 6)],some 0,false⟩⟩,⟨256,.other,false,some ⟨55,[.code],none,false⟩⟩,⟨256,.other,false,some ⟨56,[.code],none,false⟩⟩]⟩,⟨[11,17],none,[],[⟨256,.other,false,some ⟨22,[.code],none,false⟩⟩,⟨256,.ws,false,some ⟨23,[],none,false⟩⟩,⟨256,.lf,false,some ⟨24,[],none,false⟩⟩,⟨256,.vt,false,some ⟨22,[.code],none,false⟩⟩,⟨256,.ff,false,some ⟨25,[],none,false⟩⟩,⟨256,.cr,false,some ⟨26,[],none,false⟩⟩,⟨256,.cr,true,some ⟨27,[],none,false⟩⟩,⟨256,.other,false,some ⟨28,[.emb (.goto 6)],some 0,false⟩⟩,⟨256,.other,false,some ⟨29,[],none,false⟩⟩,⟨256,.other,false,some ⟨30,[],none,false⟩⟩]⟩,⟨[10,17],none,[],[⟨256,.other,false,some ⟨22,[.code],none,false⟩⟩,⟨256,.ws,false,some ⟨23,[],none,false⟩⟩,⟨256,.lf,false,some ⟨24,[],none,false⟩⟩,⟨256,.vt,false,some ⟨22,[.code],none,false⟩⟩,⟨256,.ff,false,some ⟨25,[],none,false⟩⟩,⟨256,.cr,false,some ⟨26,[],none,false⟩⟩,⟨256,.cr,true,some ⟨27,[],none,false⟩⟩,⟨256,.other,false,some ⟨28,[.emb (.goto 6)],some 0,false⟩⟩,⟨256,.other,false,some ⟨29,[],none,false⟩⟩,⟨256,.other,false,some ⟨30,[],none,false⟩⟩]⟩,⟨[7,17],none,[],[⟨256,.other,false,some ⟨22,[.setEnt .internalNl,.cb,.code],none,false⟩⟩,⟨256,.ws,false,some ⟨23,[.setEnt .internalNl,.cb],none,false⟩⟩,⟨256,.lf,false,some ⟨24,[.setEnt .internalNl,.cb],none,false⟩⟩,⟨256,.vt,false,some ⟨22,[.setEnt .internalNl,.cb,.code],none,false⟩⟩,⟨256,.ff,false,some ⟨25,[.setEnt .internalNl,.cb],none,false⟩⟩,⟨256,.cr,false,some ⟨26,[.setEnt .internalNl,.cb],none,false⟩⟩,⟨256,.cr,true,some ⟨27,[.setEnt .internalNl,.cb],none,false⟩⟩,⟨256,.other,false,some ⟨28,[.setEnt .internalNl,.cb,.emb (.goto 6)],some 0,false⟩⟩,⟨256,.other,false,some ⟨29,[.setEnt .internalNl,.cb],none,false⟩⟩,⟨256,.other,false,some ⟨30,[.setEnt .internalNl,.cb],none,false⟩⟩]⟩,⟨[8,17],none,[],[⟨256,.other,false,some ⟨22,[.setEnt .internalNl,.cb,.code],none,false⟩⟩,⟨256,.ws,false,some ⟨23,[.setEnt .internalNl,.cb],none,false⟩⟩,⟨256,.lf,false,some ⟨24,[.setEnt .internalNl,.cb],none,false⟩⟩,⟨256,.vt,false,some ⟨22,[.setEnt .internalNl,.cb,.code],none,false⟩⟩,⟨256,.ff,false,some ⟨25,[.setEnt .internalNl,.cb],none,false⟩⟩,⟨256,.cr,false,some ⟨26,[.setEnt .internalNl,.cb],none,false⟩⟩,⟨256,.cr,true,some ⟨27,[.setEnt .internalNl,.cb],none,false⟩⟩,⟨256,.other,false,some ⟨28,[.setEnt .internalNl,.cb,.emb (.goto 6)],some 0,false⟩⟩,⟨256,.other,false,some ⟨29,[.setEnt .internalNl,.cb],none,false⟩⟩,⟨256,.other,false,some ⟨30,[.setEnt .internalNl,.cb],none,false⟩⟩]⟩,⟨[5,17],none,[],[⟨256,.other,false,some ⟨22,[.code],none,false⟩⟩,⟨256,.ws,false,some ⟨23,[],none,false⟩⟩,⟨256,.lf,false,some ⟨31,[],none,false⟩⟩,⟨256,.vt,false,some ⟨22,[.code],none,false⟩⟩,⟨256,.ff,false,some ⟨25,[],none,false⟩⟩,⟨256,.cr,false,some ⟨26,[],none,false⟩⟩,⟨256,.cr,true,some ⟨27,[],none,false⟩⟩,⟨256,.other,false,some ⟨28,[.emb (.goto 6)],some 0,false⟩⟩,⟨256,.other,false,some ⟨29,[],none,false⟩⟩,⟨256,.other,false,some ⟨30,[],none,false⟩⟩]⟩,⟨[5,9,17],none,[],[⟨256,.other,false,some ⟨22,[.setEnt .internalNl,.cb,.code],none,false⟩⟩,⟨256,.ws,false,some ⟨23,[.setEnt .internalNl,.cb],none,false⟩⟩,⟨256,.lf,false,some ⟨31,[.setEnt .internalNl,.cb],none,false⟩⟩,⟨256,.vt,false,some ⟨22,[.setEnt .internalNl,.cb,.code],none,false⟩⟩,⟨256,.ff,false,some ⟨25,[.setEnt .internalNl,.cb],none,false⟩⟩,⟨256,.cr,false,some ⟨26,[.setEnt .internalNl,.cb],none,false⟩⟩,⟨256,.cr,true,some ⟨27,[.setEnt .internalNl,.cb],none,false⟩⟩,⟨256,.other,false,some ⟨28,[.setEnt .internalNl,.cb,.emb (.goto 6)],some 0,false⟩⟩,⟨256,.other,false,some ⟨29,[.setEnt .internalNl,.cb],none,false⟩⟩,⟨256,.other,false,some ⟨30,[.setEnt .internalNl,.cb],none,false⟩⟩]⟩,⟨[17,28],some 0,[],[⟨256,.other,false,some ⟨22,[.code],none,false⟩⟩,⟨256,.ws,false,some ⟨23,[],none,false⟩⟩,⟨256,.lf,false,some ⟨24,[],none,false⟩⟩,⟨256,.vt,false,some ⟨22,[.code],none,false⟩⟩,⟨256,.ff,false,some ⟨25,[],none,false⟩⟩,⟨256,.cr,false,some ⟨26,[],none,false⟩⟩,⟨256,.cr,true,some ⟨27,[],none,false⟩⟩,⟨256,.other,false,some ⟨28,[.emb (.goto 6)],some 0,false⟩⟩,⟨256,.other,false,some ⟨29,[],none,false⟩⟩,⟨256,.other,false,some ⟨30,[],none,false⟩⟩]⟩,⟨[0,14,17],none,[],[⟨256,.other,false,some ⟨32,[.code],none,false⟩⟩,⟨256,.ws,false,some ⟨33,[],none,false⟩⟩,⟨256,.lf,false,some ⟨34,[],none,false⟩⟩,⟨256,.vt,false,some ⟨32,[.code],none,false⟩⟩,⟨256,.ff,false,some ⟨35,[],none,false⟩⟩,⟨256,.cr,false,some ⟨36,[],none,false⟩⟩,⟨256,.cr,true,some ⟨37,[],none,false⟩⟩,⟨256,.other,false,some ⟨38,[.emb (.goto 6)],some 0,false⟩⟩,⟨256,.other,false,some ⟨39,[],none,false⟩⟩,⟨256,.other,false,some ⟨40,[.code],none,false⟩⟩,⟨256,.other,false,some ⟨41,[],none,false⟩⟩]⟩,⟨[12,17],none,[],[⟨256,.other,false,some ⟨52,[.code],none,false⟩⟩,⟨256,.ws,false,some ⟨53,[.code],none,false⟩⟩,⟨256,.lf,false,some ⟨24,[],none,false⟩⟩,⟨256,.vt,false,some ⟨52,[.code],none,false⟩⟩,⟨256,.ff,false,some ⟨25,[],none,false⟩⟩,⟨256,.cr,false,some ⟨26,[],none,false⟩⟩,⟨256,.cr,true,some ⟨27,[],none,false⟩⟩,⟨256,.other,false,some ⟨54,[.code,.emb (.goto 6)],some 0,false⟩⟩,⟨256,.other,false,some ⟨55,[.code],none,false⟩⟩,⟨256,.other,false,some ⟨56,[.code],none,false⟩⟩]⟩,⟨[2,11,18,26],none,[],[⟨256,.other,false,some ⟨67,[.code],none,false⟩⟩,⟨256,.ws,false,some ⟨68,[],none,false⟩⟩,⟨256,.lf,false,some ⟨69,[],none,false⟩⟩,⟨256,.vt,false,some ⟨67,[.code],none,false⟩⟩,⟨256,.ff,false,some ⟨70,[],none,false⟩⟩,⟨256,.cr,false,some ⟨71,[],none,false⟩⟩,⟨256,.cr,true,some ⟨72,[],none,false⟩⟩,⟨256,.other,false,some ⟨73,[.emb (.goto 6)],some 0,false⟩⟩,⟨256,.other,false,some ⟨74,[],none,false⟩⟩,⟨256,.other,false,some ⟨75,[],none,false⟩⟩,⟨256,.other,false,some ⟨76,[.code],none,false⟩⟩]⟩,⟨[11,13,24],none,[],[⟨256,.other,false,some ⟨22,[.code],none,false⟩⟩,⟨256,.ws,false,some ⟨23,[],none,false⟩⟩,⟨256,.lf,false,some ⟨24,[],none,false⟩⟩,⟨256,.vt,false,some ⟨22,[.code],none,false⟩⟩,⟨256,.ff,false,some ⟨25,[],none,false⟩⟩,⟨256,.cr,false,some ⟨26,[],none,false⟩⟩,⟨256,.cr,true,some ⟨27,[],none,false⟩⟩,⟨256,.other,false,some ⟨28,[.emb (.goto 6)],some 0,false⟩⟩,⟨256,.other,false,some ⟨29,[],none,false⟩⟩,⟨256,.other,false,some ⟨30,[],none,false⟩⟩]⟩,⟨[10,13,24],none,[],[⟨256,.other,false,some ⟨22,[.code],none,false⟩⟩,⟨256,.ws,false,some ⟨23,[],none,false⟩⟩,⟨256,.lf,false,some ⟨24,[],none,false⟩⟩,⟨256,.vt,false,some ⟨22,[.code],none,false⟩⟩,⟨256,.ff,false,some ⟨25,[],none,false⟩⟩,⟨256,.cr,false,some ⟨26,[],none,false⟩⟩,⟨256,.cr,true,some ⟨27,[],none,false⟩⟩,⟨256,.other,false,some ⟨28,[.emb (.goto 6)],some 0,false⟩⟩,⟨256,.other,false,some ⟨29,[],none,false⟩⟩,⟨256,.other,false,some ⟨30,[],none,false⟩⟩]⟩,⟨[13,24,28],some 0,[],[⟨256,.other,false,some ⟨22,[.code],none,false⟩⟩,⟨256,.ws,false,some ⟨23,[],none,false⟩⟩,⟨256,.lf,false,some ⟨24,[],none,false⟩⟩,⟨256,.vt,false,some ⟨22,[.code],none,false⟩⟩,⟨256,.ff,false,some ⟨25,[],none,false⟩⟩,⟨256,.cr,false,some ⟨26,[],none,false⟩⟩,⟨256,.cr,true,some ⟨27,[],none,false⟩⟩,⟨256,.other,false,some ⟨28,[.emb (.goto 6)],some 0,false⟩⟩,⟨256,.other,false,some ⟨29,[],none,false⟩⟩,⟨256,.other,false,some ⟨30,[],none,false⟩⟩]⟩,⟨[0,13,14,24],none,[],[⟨256,.other,false,some ⟨32,[.code],none,false⟩⟩,⟨256,.ws,false,some ⟨33,[],none,false⟩⟩,⟨256,.lf,false,some ⟨34,[],none,false⟩⟩,⟨256,.vt,false,some ⟨32,[.code],none,false⟩⟩,⟨256,.ff,false,some ⟨35,[],none,false⟩⟩,⟨256,.cr,false,some ⟨36,[],none,false⟩⟩,⟨256,.cr,true,some ⟨37,[],none,false⟩⟩,⟨256,.other,false,some ⟨38,[.emb (.goto 6)],some 0,false⟩⟩,⟨256,.other,false,some ⟨39,[],none,false⟩⟩,⟨256,.other,false,some ⟨40,[.code],none,false⟩⟩,⟨256,.other,false,some ⟨41,[],none,false⟩⟩]⟩,⟨[12,13,24],none,[],[⟨256,.other,false,some ⟨52,[.code],none,false⟩⟩,⟨256,.ws,false,some ⟨53,[.code],none,false⟩⟩,⟨256,.lf,false,some ⟨24,[],none,false⟩⟩,⟨256,.vt,false,some ⟨52,[.code],none,false⟩⟩,⟨256,.ff,false,some ⟨25,[],none,false⟩⟩,⟨256,.cr,false,some ⟨26,[],none,false⟩⟩,⟨256,.cr,true,some ⟨27,[],none,false⟩⟩,⟨256,.other,false,some ⟨54,[.code,.emb (.goto 6)],some 0,false⟩⟩,⟨256,.other,false,some ⟨55,[.code],none,false⟩⟩,⟨256,.other,false,some ⟨56,[.code],none,false⟩⟩]⟩,⟨[11,17,24],none,[],[⟨256,.other,false,some ⟨22,[.code],none,false⟩⟩,⟨256,.ws,false,some ⟨23,[],none,false⟩⟩,⟨256,.lf,false,some ⟨24,[],none,false⟩⟩,⟨256,.vt,false,some ⟨22,[.code],none,false⟩⟩,⟨256,.ff,false,some ⟨25,[],none,false⟩⟩,⟨256,.cr,false,some ⟨26,[],none,false⟩⟩,⟨256,.cr,true,some ⟨27,[],none,false⟩⟩,⟨256,.other,false,some ⟨28,[.emb (.goto 6)],some 0,false⟩⟩,⟨256,.other,false,some ⟨29,[],none,false⟩⟩,⟨256,.other,false,some ⟨30,[],none,false⟩⟩]⟩,⟨[10,17,24],none,[],[⟨256,.other,false,some ⟨22,[.code],none,false⟩⟩,⟨256,.ws,false,some ⟨23,[],none,false⟩⟩,⟨256,.lf,false,some ⟨24,[],none,false⟩⟩,⟨256,.vt,false,some ⟨22,[.code],none,false⟩⟩,⟨256,.ff,false,some ⟨25,[],none,false⟩⟩,⟨256,.cr,false,some ⟨26,[],none,false⟩⟩,⟨256,.cr,true,some ⟨27,[],none,false⟩⟩,⟨256,.other,false,some ⟨28,[.emb (.goto 6)],some 0,false⟩⟩,⟨256,.other,false,some ⟨29,[],none,false⟩⟩,⟨256,.other,false,some ⟨30,[],none,false⟩⟩]⟩,⟨[7,17,24],none,[],[⟨256,.other,false,some ⟨22,[.setEnt .internalNl,.cb,.code],none,false⟩⟩,⟨256,.ws,false,some ⟨23,[.setEnt .internalNl,.cb],none,false⟩⟩,⟨256,.lf,false,some ⟨24,[.setEnt .internalNl,.cb],none,false⟩⟩,⟨256,.vt,false,some ⟨22,[.setEnt .internalNl,.cb,.code],none,false⟩⟩,⟨256,.ff,false,some ⟨25,[.setEnt .internalNl,.cb],none,false⟩⟩,⟨256,.cr,false,some ⟨26,[.setEnt .internalNl,.cb],none,false⟩⟩,⟨256,.cr,true,some ⟨27,[.setEnt .internalNl,.cb],none,false⟩⟩,⟨256,.other,false,some ⟨28,[.setEnt .internalNl,.cb,.emb (.goto 6)],some 0,false⟩⟩,⟨256,.other,false,some ⟨29,[.setEnt .internalNl,.cb],none,false⟩⟩,⟨256,.other,false,some ⟨30,[.setEnt .internalNl,.cb],none,false⟩⟩]⟩,⟨[8,17,24],none,[],[⟨256,.other,false,some ⟨22,[.setEnt .internalNl,.cb,.code],none,false⟩⟩,⟨256,.ws,false,some ⟨23,[.setEnt .internalNl,.cb],none,false⟩⟩,⟨256,.lf,false,some ⟨24,[.setEnt .internalNl,.cb],none,false⟩⟩,⟨256,.vt,false,some ⟨22,[.setEnt .internalNl,.cb,.code],none,false⟩⟩,⟨256,.ff,false,some ⟨25,[.setEnt .internalNl,.cb],none,false⟩⟩,⟨256,.cr,false,some ⟨26,[.setEnt .internalNl,.cb],none,false⟩⟩,⟨256,.cr,true,some ⟨27,[.setEnt .internalNl,.cb],none,false⟩⟩,⟨256,.other,false,some ⟨28,[.setEnt .internalNl,.cb,.emb (.goto 6)],some 0,false⟩⟩,⟨256,.other,false,some ⟨29,[.setEnt .internalNl,.cb],none,false⟩⟩,⟨256,.other,false,some ⟨30,[.setEnt .internalNl,.cb],none,false⟩⟩]⟩,⟨[5,17,24],none,[],[⟨256,.other,false,some ⟨22,[.code],none,false⟩⟩,⟨256,.ws,false,some ⟨23,[],none,false⟩⟩,⟨256,.lf,false,some ⟨31,[],none,false⟩⟩,⟨256,.vt,false,some ⟨22,[.code],none,false⟩⟩,⟨256,.ff,false,some ⟨25,[],none,false⟩⟩,⟨256,.cr,false,some ⟨26,[],none,false⟩⟩,⟨256,.cr,true,some ⟨27,[],none,false⟩⟩,⟨256,.other,false,some ⟨28,[.emb (.goto 6)],some 0,false⟩⟩,⟨256,.other,false,some ⟨29,[],none,false⟩⟩,⟨256,.other,false,some ⟨30,[],none,false⟩⟩]⟩,⟨[5,9,17,24],none,[],[⟨256,.other,false,some ⟨22,[.setEnt .internalNl,.cb,.code],none,false⟩⟩,⟨256,.ws,false,some ⟨23,[.setEnt .internalNl,.cb],none,false⟩⟩,⟨256,.lf,false,some ⟨31,[.setEnt .internalNl,.cb],none,false⟩⟩,⟨256,.vt,false,some ⟨22,[.setEnt .internalNl,.cb,.code],none,false⟩⟩,⟨256,.ff,false,some ⟨25,[.setEnt .internalNl,.cb],none,false⟩⟩,⟨256,.cr,false,some ⟨26,[.setEnt .internalNl,.cb],none,false⟩⟩,⟨256,.cr,true,some ⟨27,[.setEnt .internalNl,.cb],none,false⟩⟩,⟨256,.other,false,some ⟨28,[.setEnt .internalNl,.cb,.emb (.goto 6)],some 0,false⟩⟩,⟨256,.other,false,some ⟨29,[.setEnt .internalNl,.cb],none,false⟩⟩,⟨256,.other,false,some ⟨30,[.setEnt .internalNl,.cb],none,false⟩⟩]⟩,⟨[17,24,28],some 0,[],[⟨256,.other,false,some ⟨22,[.code],none,false⟩⟩,⟨256,.ws,false,some ⟨23,[],none,false⟩⟩,⟨256,.lf,false,some ⟨24,[],none,false⟩⟩,⟨256,.vt,false,some ⟨22,[.code],none,false⟩⟩,⟨256,.ff,false,some ⟨25,[],none,false⟩⟩,⟨256,.cr,false,some ⟨26,[],none,false⟩⟩,⟨256,.cr,true,some ⟨27,[],none,false⟩⟩,⟨256,.other,false,some ⟨28,[.emb (.goto 6)],some 0,false⟩⟩,⟨256,.other,false,some ⟨29,[],none,false⟩⟩,⟨256,.other,false,some ⟨30,[],none,false⟩⟩]⟩,⟨[0,14,17,24],none,[],[⟨256,.other,false,some ⟨32,[.code],none,false⟩⟩,⟨256,.ws,false,some ⟨33,[],none,false⟩⟩,⟨256,.lf,false,some ⟨34,[],none,false⟩⟩,⟨256,.vt,false,some ⟨32,[.code],none,false⟩⟩,⟨256,.ff,false,some ⟨35,[],none,false⟩⟩,⟨256,.cr,false,some ⟨36,[],none,false⟩⟩,⟨256,.cr,true,some ⟨37,[],none,false⟩⟩,⟨256,.other,false,some ⟨38,[.emb (.goto 6)],some 0,false⟩⟩,⟨256,.other,false,some ⟨39,[],none,false⟩⟩,⟨256,.other,false,some ⟨40,[.code],none,false⟩⟩,⟨256,.other,false,some ⟨41,[],none,false⟩⟩]⟩,⟨[12,17,24],none,[],[⟨256,.other,false,some ⟨52,[.code],none,false⟩⟩,⟨256,.ws,false,some ⟨53,[.code],none,false⟩⟩,⟨256,.lf,false,some ⟨24,[],none,false⟩⟩,⟨256,.vt,false,some ⟨52,[.code],none,false⟩⟩,⟨256,.ff,false,some ⟨25,[],none,false⟩⟩,⟨256,.cr,false,some ⟨26,[],none,false⟩⟩,⟨256,.cr,true,some ⟨27,[],none,false⟩⟩,⟨256,.other,false,some ⟨54,[.code,.emb (.goto 6)],some 0,false⟩⟩,⟨256,.other,false,some ⟨55,[.code],none,false⟩⟩,⟨256,.other,false,some ⟨56,[.code],none,false⟩⟩]⟩,⟨[2,11,18,24,26],none,[],[⟨256,.other,false,some ⟨77,[.code],none,false⟩⟩,⟨256,.ws,false,some ⟨78,[],none,false⟩⟩,⟨256,.lf,false,some ⟨79,[],none,false⟩⟩,⟨256,.vt,false,some ⟨77,[.code],none,false⟩⟩,⟨256,.ff,false,some ⟨80,[],none,false⟩⟩,⟨256,.cr,false,some ⟨81,[],none,false⟩⟩,⟨256,.cr,true,some ⟨82,[],none,false⟩⟩,⟨256,.other,false,some ⟨83,[.emb (.goto 6)],some 0,false⟩⟩,⟨256,.other,false,some ⟨84,[],none,false⟩⟩,⟨256,.other,false,some ⟨85,[],none,false⟩⟩,⟨256,.other,false,some ⟨86,[.code],none,false⟩⟩]⟩,⟨[11,19],none,[],[⟨256,.other,false,some ⟨22,[.code],none,false⟩⟩,⟨256,.ws,false,some ⟨23,[],none,false⟩⟩,⟨256,.lf,false,some ⟨24,[],none,false⟩⟩,⟨256,.vt,false,some ⟨22,[.code],none,false⟩⟩,⟨256,.ff,false,some ⟨25,[],none,false⟩⟩,⟨256,.cr,false,some ⟨26,[],none,false⟩⟩,⟨256,.cr,true,some ⟨27,[],none,false⟩⟩,⟨256,.other,false,some ⟨28,[.emb (.goto 6)],some 0,false⟩⟩,⟨256,.other,false,some ⟨29,[],none,false⟩⟩,⟨256,.other,false,some ⟨30,[],none,false⟩⟩]⟩,⟨[10,19],none,[],[⟨256,.other,false,some ⟨22,[.code],none,false⟩⟩,⟨256,.ws,false,some ⟨23,[],none,false⟩⟩,⟨256,.lf,false,some ⟨24,[],none,false⟩⟩,⟨256,.vt,false,some ⟨22,[.code],none,false⟩⟩,⟨256,.ff,false,some ⟨25,[],none,false⟩⟩,⟨256,.cr,false,some ⟨26,[],none,false⟩⟩,⟨256,.cr,true,some ⟨27,[],none,false⟩⟩,⟨256,.other,false,some ⟨28,[.emb (.goto 6)],some 0,false⟩⟩,⟨256,.other,false,some ⟨29,[],none,false⟩⟩,⟨256,.other,false,some ⟨30,[],none,false⟩⟩]⟩,⟨[7,19],none,[],[⟨256,.other,false,some ⟨22,[.setEnt .internalNl,.cb,.code],none,false⟩⟩,⟨256,.ws,false,some ⟨23,[.setEnt .internalNl,.cb],none,false⟩⟩,⟨256,.lf,false,some ⟨24,[.setEnt .internalNl,.cb],none,false⟩⟩,⟨256,.vt,false,some ⟨22,[.setEnt .internalNl,.cb,.code],none,false⟩⟩,⟨256,.ff,false,some ⟨25,[.setEnt .internalNl,.cb],none,false⟩⟩,⟨256,.cr,false,some ⟨26,[.setEnt .internalNl,.cb],none,false⟩⟩,⟨256,.cr,true,some ⟨27,[.setEnt .internalNl,.cb],none,false⟩⟩,⟨256,.other,false,some ⟨28,[.setEnt .internalNl,.cb,.emb (.goto 6)],some 0,false⟩⟩,⟨256,.other,false,some ⟨29,[.setEnt .internalNl,.cb],none,false⟩⟩,⟨256,.other,false,some ⟨30,[.setEnt .internalNl,.cb],none,false⟩⟩]⟩,⟨[8,19],none,[],[⟨256,.other,false,some ⟨22,[.setEnt .internalNl,.cb,.code],none,false⟩⟩,⟨256,.ws,false,some ⟨23,[.setEnt .internalNl,.cb],none,false⟩⟩,⟨256,.lf,false,some ⟨24,[.setEnt .internalNl,.cb],none,false⟩⟩,⟨256,.vt,false,some ⟨22,[.setEnt .internalNl,.cb,.code],none,false⟩⟩,⟨256,.ff,false,some ⟨25,[.setEnt .internalNl,.cb],none,false⟩⟩,⟨256,.cr,false,some ⟨26,[.setEnt .internalNl,.cb],none,false⟩⟩,⟨256,.cr,true,some ⟨27,[.setEnt .internalNl,.cb],none,false⟩⟩,⟨256,.other,false,some ⟨28,[.setEnt .internalNl,.cb,.emb (.goto 6)],some 0,false⟩⟩,⟨256,.other,false,some ⟨29,[.setEnt .internalNl,.cb],none,false⟩⟩,⟨256,.other,false,some ⟨30,[.setEnt .internalNl,.cb],none,false⟩⟩]⟩,⟨[5,19],none,[],[⟨256,.other,false,some ⟨22,[.code],none,false⟩⟩,⟨256,.ws,false,some ⟨23,[],none,false⟩⟩,⟨256,.lf,false,some ⟨31,[],none,false⟩⟩,⟨256,.vt,false,some ⟨22,[.code],none,false⟩⟩,⟨256,.ff,false,some ⟨25,[],none,false⟩⟩,⟨256,.cr,false,some ⟨26,[],none,false⟩⟩,⟨256,.cr,true,some ⟨27,[],none,false⟩⟩,⟨256,.other,false,some ⟨28,[.emb (.goto 6)],some 0,false⟩⟩,⟨256,.other,false,some ⟨29,[],none,false⟩⟩,⟨256,.other,false,some ⟨30,[],none,false⟩⟩]⟩,⟨[5,9,19],none,[],[⟨256,.other,false,some ⟨22,[.setEnt .internalNl,.cb,.code],none,false⟩⟩,⟨256,.ws,false,some ⟨23,[.setEnt .internalNl,.cb],none,false⟩⟩,⟨256,.lf,false,some ⟨31,[.setEnt .internalNl,.cb],none,false⟩⟩,⟨256,.vt,false,some ⟨22,[.setEnt .internalNl,.cb,.code],none,false⟩⟩,⟨256,.ff,false,some ⟨25,[.setEnt .internalNl,.cb],none,false⟩⟩,⟨256,.cr,false,some ⟨26,[.setEnt .internalNl,.cb],none,false⟩⟩,⟨256,.cr,true,some ⟨27,[.setEnt .internalNl,.cb],none,false⟩⟩,⟨256,.other,false,some ⟨28,[.setEnt .internalNl,.cb,.emb (.goto 6)],some 0,false⟩⟩,⟨256,.other,false,some ⟨29,[.setEnt .internalNl,.cb],none,false⟩⟩,⟨256,.other,false,some ⟨30,[.setEnt .internalNl,.cb],none,false⟩⟩]⟩,⟨[19,28],some 0,[],[⟨256,.other,false,some ⟨22,[.code],none,false⟩⟩,⟨256,.ws,false,some ⟨23,[],none,false⟩⟩,⟨256,.lf,false,some ⟨24,[],none,false⟩⟩,⟨256,.vt,false,some ⟨22,[.code],none,false⟩⟩,⟨256,.ff,false,some ⟨25,[],none,false⟩⟩,⟨256,.cr,false,some ⟨26,[],none,false⟩⟩,⟨256,.cr,true,some ⟨27,[],none,false⟩⟩,⟨256,.other,false,some ⟨28,[.emb (.goto 6)],some 0,false⟩⟩,⟨256,.other,false,some ⟨29,[],none,false⟩⟩,⟨256,.other,false,some ⟨30,[],none,false⟩⟩]⟩,⟨[0,14,19],none,[],[⟨256,.other,false,some ⟨32,[.code],none,false⟩⟩,⟨256,.ws,false,some ⟨33,[],none,false⟩⟩,⟨256,.lf,false,some ⟨34,[],none,false⟩⟩,⟨256,.vt,false,some ⟨32,[.code],none,false⟩⟩,⟨256,.ff,false,some ⟨35,[],none,false⟩⟩,⟨256,.cr,false,some ⟨36,[],none,false⟩⟩,⟨256,.cr,true,some ⟨37,[],none,false⟩⟩,⟨256,.other,false,some ⟨38,[.emb (.goto 6)],some 0,false⟩⟩,⟨256,.other,false,some ⟨39,[],none,false⟩⟩,⟨256,.other,false,some ⟨40,[.code],none,false⟩⟩,⟨256,.other,false,some ⟨41,[],none,false⟩⟩]⟩,⟨[12,19],none,[],[⟨256,.other,false,some ⟨52,[.code],none,false⟩⟩,⟨256,.ws,false,some ⟨53,[.code],none,false⟩⟩,⟨256,.lf,false,some ⟨24,[],none,false⟩⟩,⟨256,.vt,false,some ⟨52,[.code],none,false⟩⟩,⟨256,.ff,false,some ⟨25,[],none,false⟩⟩,⟨256,.cr,false,some ⟨26,[],none,false⟩⟩,⟨256,.cr,true,some ⟨27,[],none,false⟩⟩,⟨256,.other,false,some ⟨54,[.code,.emb (.goto 6)],some 0,false⟩⟩,⟨256,.other,false,some ⟨55,[.code],none,false⟩⟩,⟨256,.other,false,some ⟨56,[.code],none,false⟩⟩]⟩,⟨[3,11,20,27],none,[],[⟨256,.other,false,some ⟨87,[.code],none,false⟩⟩,⟨256,.ws,false,some ⟨88,[],none,false⟩⟩,⟨256,.lf,false,some ⟨89,[],none,false⟩⟩,⟨256,.vt,false,some ⟨87,[.code],none,false⟩⟩,⟨256,.ff,false,some ⟨90,[],none,false⟩⟩,⟨256,.cr,false,some ⟨91,[],none,false⟩⟩,⟨256,.cr,true,some ⟨92,[],none,false⟩⟩,⟨256,.other,false,some ⟨93,[.emb (.goto 6)],some 0,false⟩⟩,⟨256,.other,false,some ⟨94,[],none,false⟩⟩,⟨256,.other,false,some ⟨95,[],none,false⟩⟩,⟨256,.other,false,some ⟨96,[.emb (.sawCall 3 5),.code],none,false⟩⟩]⟩,⟨[11,19,24],none,[],[⟨256,.other,false,some ⟨22,[.code],none,false⟩⟩,⟨256,.ws,false,some ⟨23,[],none,false⟩⟩,⟨256,.lf,false,some ⟨24,[],none,false⟩⟩,⟨256,.vt,false,some ⟨22,[.code],none,false⟩⟩,⟨256,.ff,false,some ⟨25,[],none,false⟩⟩,⟨256,.cr,false,some ⟨26,[],none,false⟩⟩,⟨256,.cr,true,some ⟨27,[],none,false⟩⟩,⟨256,.other,false,some ⟨28,[.emb (.goto 6)],some 0,false⟩⟩,⟨256,.other,false,some ⟨29,[],none,false⟩⟩,⟨256,.other,false,some ⟨30,[],none,false⟩⟩]⟩,⟨[10,19,24],none,[],[⟨256,.other,false,some ⟨22,[.code],none,false⟩⟩,⟨256,.ws,false,some ⟨23,[],none,false⟩⟩,⟨256,.lf,false,some ⟨24,[],none,false⟩⟩,⟨256,.vt,false,some ⟨22,[.code],none,false⟩⟩,⟨256,.ff,false,some ⟨25,[],none,false⟩⟩,⟨256,.cr,false,some ⟨26,[],none,false⟩⟩,⟨256,.cr,true,some ⟨27,[],none,false⟩⟩,⟨256,.other,false,some ⟨28,[.emb (.goto 6)],some 0,false⟩⟩,⟨256,.other,false,some ⟨29,[],none,false⟩⟩,⟨256,.other,false,some ⟨30,[],none,false⟩⟩]⟩,⟨[7,19,24],none,[],[⟨256,.other,false,some ⟨22,[.setEnt .internalNl,.cb,.code],none,false⟩⟩,⟨256,.ws,false,some ⟨23,[.setEnt .internalNl,.cb],none,false⟩⟩,⟨256,.lf,false,some ⟨24,[.setEnt .internalNl,.cb],none,false⟩⟩,⟨256,.vt,false,some ⟨22,[.setEnt .internalNl,.cb,.code],none,false⟩⟩,⟨256,.ff,false,some ⟨25,[.setEnt .internalNl,.cb],none,false⟩⟩,⟨256,.cr,false,some ⟨26,[.setEnt .internalNl,.cb],none,false⟩⟩,⟨256,.cr,true,some ⟨27,[.setEnt .internalNl,.cb],none,false⟩⟩,⟨256,.other,false,some ⟨28,[.setEnt .internalNl,.cb,.emb (.goto 6)],some 0,false⟩⟩,⟨256,.other,false,some ⟨29,[.setEnt .internalNl,.cb],none,false⟩⟩,⟨256,.other,false,some ⟨30,[.setEnt .internalNl,.cb],none,false⟩⟩]⟩,⟨[8,19,24],none,[],[⟨256,.other,false,some ⟨22,[.setEnt .internalNl,.cb,.code],none,false⟩⟩,⟨256,.ws,false,some ⟨23,[.setEnt .internalNl,.cb],none,false⟩⟩,⟨256,.lf,false,some ⟨24,[.setEnt .internalNl,.cb],none,false⟩⟩,⟨256,.vt,false,some ⟨22,[.setEnt .internalNl,.cb,.code],none,false⟩⟩,⟨256,.ff,false,some ⟨25,[.setEnt .internalNl,.cb],none,false⟩⟩,⟨256,.cr,false,some ⟨26,[.setEnt .internalNl,.cb],none,false⟩⟩,⟨256,.cr,true,some ⟨27,[.setEnt .internalNl,.cb],none,false⟩⟩,⟨256,.other,false,some ⟨28,[.setEnt .internalNl,.cb,.emb (.goto 6)],some 0,false⟩⟩,⟨256,.other,false,some ⟨29,[.setEnt .internalNl,.cb],none,false⟩⟩,⟨256,.other,false,some ⟨30,[.setEnt .internalNl,.cb],none,false⟩⟩]⟩,⟨[5,19,24],none,[],[⟨256,.other,false,some ⟨22,[.code],none,false⟩⟩,⟨256,.ws,false,some ⟨23,[],none,false⟩⟩,⟨256,.lf,false,some ⟨31,[],none,false⟩⟩,⟨256,.vt,false,some ⟨22,[.code],none,false⟩⟩,⟨256,.ff,false,some ⟨25,[],none,false⟩⟩,⟨256,.cr,false,some ⟨26,[],none,false⟩⟩,⟨256,.cr,true,some ⟨27,[],none,false⟩⟩,⟨256,.other,false,some ⟨28,[.emb (.goto 6)],some 0,false⟩⟩,⟨256,.other,false,some ⟨29,[],none,false⟩⟩,⟨256,.other,false,some ⟨30,[],none,false⟩⟩]⟩,⟨[5,9,19,24],none,[],[⟨256,.other,false,some ⟨22,[.setEnt .internalNl,.cb,.code],none,false⟩⟩,⟨256,.ws,false,some ⟨23,[.setEnt .internalNl,.cb],none,false⟩⟩,⟨256,.lf,false,some ⟨31,[.setEnt .internalNl,.cb],none,false⟩⟩,⟨256,.vt,false,some ⟨22,[.setEnt .internalNl,.cb,.code],none,false⟩⟩,⟨256,.ff,false,some ⟨25,[.setEnt .internalNl,.cb],none,false⟩⟩,⟨256,.cr,false,some ⟨26,[.setEnt .internalNl,.cb],none,false⟩⟩,⟨256,.cr,true,some ⟨27,[.setEnt .internalNl,.cb],none,false⟩⟩,⟨256,.other,false,some ⟨28,[.setEnt .internalNl,.cb,.emb (.goto 6)],some 0,false⟩⟩,⟨256,.other,false,some ⟨29,[.setEnt .internalNl,.cb],none,false⟩⟩,⟨256,.other,false,some ⟨30,[.setEnt .internalNl,.cb],none,false⟩⟩]⟩,⟨[19,24,28],some 0,[],[⟨256,.other,false,some ⟨22,[.code],none,false⟩⟩,⟨256,.ws,false,some ⟨23,[],none,false⟩⟩,⟨256,.lf,false,some ⟨24,[],none,false⟩⟩,⟨256,.vt,false,some ⟨22,[.code],none,false⟩⟩,⟨256,.ff,false,some ⟨25,[],none,false⟩⟩,⟨256,.cr,false,some ⟨26,[],none,false⟩⟩,⟨256,.cr,true,some ⟨27,[],none,false⟩⟩,⟨256,.other,false,some ⟨28,[.emb (.goto 6)],some 0,false⟩⟩,⟨256,.other,false,some ⟨29,[],none,false⟩⟩,⟨256,.other,false,some ⟨30,[],none,false⟩⟩]⟩,⟨[0,14,19,24],none,[],[⟨256,.other,false,some ⟨32,[.code],none,false⟩⟩,⟨256,.ws,false,some ⟨33,[],none,false⟩⟩,⟨256,.lf,false,some ⟨34,[],none,false⟩⟩,⟨256,.vt,false,some ⟨32,[.code],none,false⟩⟩,⟨256,.ff,false,some ⟨35,[],none,false⟩⟩,⟨256,.cr,false,some ⟨36,[],none,false⟩⟩,⟨256,.cr,true,some ⟨37,[],none,false⟩⟩,⟨256,.other,false,some ⟨38,[.emb (.goto 6)],some 0,false⟩⟩,⟨256,.other,false,some ⟨39,[],none,false⟩⟩,⟨256,.other,false,some ⟨40,[.code],none,false⟩⟩,⟨256,.other,false,some ⟨41,[],none,false⟩⟩]⟩,⟨[12,19,24],none,[],[⟨256,.other,false,some ⟨52,[.code],none,false⟩⟩,⟨256,.ws,false,some ⟨53,[.code],none,false⟩⟩,⟨256,.lf,false,some ⟨24,[],none,false⟩⟩,⟨256,.vt,false,some ⟨52,[.code],none,false⟩⟩,⟨256,.ff,false,some ⟨25,[],none,false⟩⟩,⟨256,.cr,false,some ⟨26,[],none,false⟩⟩,⟨256,.cr,true,some ⟨27,[],none,false⟩⟩,⟨256,.other,false,some ⟨54,[.code,.emb (.goto 6)],some 0,false⟩⟩,⟨256,.other,false,some ⟨55,[.code],none,false⟩⟩,⟨256,.other,false,some ⟨56,[.code],none,false⟩⟩]⟩,⟨[3,11,20,24,27],none,[],[⟨256,.other,false,some ⟨97,[.code],none,false⟩⟩,⟨256,.ws,false,some ⟨98,[],none,false⟩⟩,⟨256,.lf,false,some ⟨99,[],none,false⟩⟩,⟨256,.vt,false,some ⟨97,[.code],none,false⟩⟩,⟨256,.ff,false,some ⟨100,[],none,false⟩⟩,⟨256,.cr,false,some ⟨101,[],none,false⟩⟩,⟨256,.cr,true,some ⟨102,[],none,false⟩⟩,⟨256,.other,false,some ⟨103,[.emb (.goto 6)],some 0,false⟩⟩,⟨256,.other,false,some ⟨104,[],none,false⟩⟩,⟨256,.other,false,some ⟨105,[],none,false⟩⟩,⟨256,.other,false,some ⟨106,[.emb (.sawCall 3 5),.code],none,false⟩⟩]⟩,⟨[11,21],none,[],[⟨256,.other,false,some ⟨22,[.code],none,false⟩⟩,⟨256,.ws,false,some ⟨23,[],none,false⟩⟩,⟨256,.lf,false,some ⟨24,[],none,false⟩⟩,⟨256,.vt,false,some ⟨22,[.code],none,false⟩⟩,⟨256,.ff,false,some ⟨25,[],none,false⟩⟩,⟨256,.cr,false,some ⟨26,[],none,false⟩⟩,⟨256,.cr,true,some ⟨27,[],none,false⟩⟩,⟨256,.other,false,some ⟨28,[.emb (.goto 6)],some 0,false⟩⟩,⟨256,.other,false,some ⟨29,[],none,false⟩⟩,⟨256,.other,false,some ⟨30,[],none,false⟩⟩]⟩,⟨[10,21],none,[],[⟨256,.other,false,some ⟨22,[.code],none,false⟩⟩,⟨256,.ws,false,some ⟨23,[],none,false⟩⟩,⟨256,.lf,false,some ⟨24,[],none,false⟩⟩,⟨256,.vt,false,some ⟨22,[.code],none,false⟩⟩,⟨256,.ff,false,some ⟨25,[],none,false⟩⟩,⟨256,.cr,false,some ⟨26,[],none,false⟩⟩,⟨256,.cr,true,some ⟨27,[],none,false⟩⟩,⟨256,.other,false,some ⟨28,[.emb (.goto 6)],some 0,false⟩⟩,⟨256,.other,false,some ⟨29,[],none,false⟩⟩,⟨256,.other,false,some ⟨30,[],none,false⟩⟩]⟩,⟨[7,21],none,[],[⟨256,.other,false,some ⟨22,[.setEnt .internalNl,.cb,.code],none,false⟩⟩,⟨256,.ws,false,some ⟨23,[.setEnt .internalNl,.cb],none,false⟩⟩,⟨256,.lf,false,some ⟨24,[.setEnt .internalNl,.cb],none,false⟩⟩,⟨256,.vt,false,some ⟨22,[.setEnt .internalNl,.cb,.code],none,false⟩⟩,⟨256,.ff,false,some ⟨25,[.setEnt .internalNl,.cb],none,false⟩⟩,⟨256,.cr,false,some ⟨26,[.setEnt .internalNl,.cb],none,false⟩⟩,⟨256,.cr,true,some ⟨27,[.setEnt .internalNl,.cb],none,false⟩⟩,⟨256,.other,false,some ⟨28,[.setEnt .internalNl,.cb,.emb (.goto 6)],some 0,false⟩⟩,⟨256,.other,false,some ⟨29,[.setEnt .internalNl,.cb],none,false⟩⟩,⟨256,.other,false,some ⟨30,[.setEnt .internalNl,.cb],none,false⟩⟩]⟩,⟨[8,21],none,[],[⟨256,.other,false,some ⟨22,[.setEnt .internalNl,.cb,.code],none,false⟩⟩,⟨256,.ws,false,some ⟨23,[.setEnt .internalNl,.cb],none,false⟩⟩,⟨256,.lf,false,some ⟨24,[.setEnt .internalNl,.cb],none,false⟩⟩,⟨256,.vt,false,some ⟨22,[.setEnt .internalNl,.cb,.code],none,false⟩⟩,⟨256,.ff,false,some ⟨25,[.setEnt .internalNl,.cb],none,false⟩⟩,⟨256,.cr,false,some ⟨26,[.setEnt .internalNl,.cb],none,false⟩⟩,⟨256,.cr,true,some ⟨27,[.setEnt .internalNl,.cb],none,false⟩⟩,⟨256,.other,false,some ⟨28,[.setEnt .internalNl,.cb,.emb (.goto 6)],some 0,false⟩⟩,⟨256,.other,false,some ⟨29,[.setEnt .internalNl,.cb],none,false⟩⟩,⟨256,.other,false,some ⟨30,[.setEnt .internalNl,.cb],none,false⟩⟩]⟩,⟨[5,21],none,[],[⟨256,.other,false,some ⟨22,[.code],none,false⟩⟩,⟨256,.ws,false,some ⟨23,[],none,false⟩⟩,⟨256,.lf,false,some ⟨31,[],none,false⟩⟩,⟨256,.vt,false,some ⟨22,[.code],none,false⟩⟩,⟨256,.ff,false,some ⟨25,[],none,false⟩⟩,⟨256,.cr,false,some ⟨26,[],none,false⟩⟩,⟨256,.cr,true,some ⟨27,[],none,false⟩⟩,⟨256,.other,false,some ⟨28,[.emb (.goto 6)],some 0,false⟩⟩,⟨256,.other,false,some ⟨29,[],none,false⟩⟩,⟨256,.other,false,some ⟨30,[],none,false⟩⟩]⟩,⟨[5,9,21],none,[],[⟨256,.other,false,some ⟨22,[.setEnt .internalNl,.cb,.code],none,false⟩⟩,⟨256,.ws,false,some ⟨23,[.setEnt .internalNl,.cb],none,false⟩⟩,⟨256,.lf,false,some ⟨31,[.setEnt .internalNl,.cb],none,false⟩⟩,⟨256,.vt,false,some ⟨22,[.setEnt .internalNl,.cb,.code],none,false⟩⟩,⟨256,.ff,false,some ⟨25,[.setEnt .internalNl,.cb],none,false⟩⟩,⟨256,.cr,false,some ⟨26,[.setEnt .internalNl,.cb],none,false⟩⟩,⟨256,.cr,true,some ⟨27,[.setEnt .internalNl,.cb],none,false⟩⟩,⟨256,.other,false,some ⟨28,[.setEnt .internalNl,.cb,.emb (.goto 6)],some 0,false⟩⟩,⟨256,.other,false,some ⟨29,[.setEnt .internalNl,.cb],none,false⟩⟩,⟨256,.other,false,some ⟨30,[.setEnt .internalNl,.cb],none,false⟩⟩]⟩,⟨[21,28],some 0,[],[⟨256,.other,false,some ⟨22,[.code],none,false⟩⟩,⟨256,.ws,false,some ⟨23,[],none,false⟩⟩,⟨256,.lf,false,some ⟨24,[],none,false⟩⟩,⟨256,.vt,false,some ⟨22,[.code],none,false⟩⟩,⟨256,.ff,false,some ⟨25,[],none,false⟩⟩,⟨256,.cr,false,some ⟨26,[],none,false⟩⟩,⟨256,.cr,true,some ⟨27,[],none,false⟩⟩,⟨256,.other,false,some ⟨28,[.emb (.goto 6)],some 0,false⟩⟩,⟨256,.other,false,some ⟨29,[],none,false⟩⟩,⟨256,.other,false,some ⟨30,[],none,false⟩⟩]⟩,⟨[0,14,21],none,[],[⟨256,.other,false,some ⟨32,[.code],none,false⟩⟩,⟨256,.ws,false,some ⟨33,[],none,false⟩⟩,⟨256,.lf,false,some ⟨34,[],none,false⟩⟩,⟨256,.vt,false,some ⟨32,[.code],none,false⟩⟩,⟨256,.ff,false,some ⟨35,[],none,false⟩⟩,⟨256,.cr,false,some ⟨36,[],none,false⟩⟩,⟨256,.cr,true,some ⟨37,[],none,false⟩⟩,⟨256,.other,false,some ⟨38,[.emb (.goto 6)],some 0,false⟩⟩,⟨256,.other,false,some ⟨39,[],none,false⟩⟩,⟨256,.other,false,some ⟨40,[.code],none,false⟩⟩,⟨256,.other,false,some ⟨41,[],none,false⟩⟩]⟩,⟨[12,21],none,[],[⟨256,.other,false,some ⟨52,[.code],none,false⟩⟩,⟨256,.ws,false,some ⟨53,[.code],none,false⟩⟩,⟨256,.lf,false,some ⟨24,[],none,false⟩⟩,⟨256,.vt,false,some ⟨52,[.code],none,false⟩⟩,⟨256,.ff,false,some ⟨25,[],none,false⟩⟩,⟨256,.cr,false,some ⟨26,[],none,false⟩⟩,⟨256,.cr,true,some ⟨27,[],none,false⟩⟩,⟨256,.other,false,some ⟨54,[.code,.emb (.goto 6)],some 0,false⟩⟩,⟨256,.other,false,some ⟨55,[.code],none,false⟩⟩,⟨256,.other,false,some ⟨56,[.code],none,false⟩⟩]⟩,⟨[4,11,22],none,[],[⟨256,.other,false,some ⟨107,[.code],none,false⟩⟩,⟨256,.ws,false,some ⟨108,[],none,false⟩⟩,⟨256,.lf,false,some ⟨109,[],none,false⟩⟩,⟨256,.vt,false,some ⟨107,[.code],none,false⟩⟩,⟨256,.ff,false,some ⟨110,[],none,false⟩⟩,⟨256,.cr,false,some ⟨111,[],none,false⟩⟩,⟨256,.cr,true,some ⟨112,[],none,false⟩⟩,⟨256,.other,false,some ⟨113,[.emb (.goto 6)],some 0,false⟩⟩,⟨256,.other,false,some ⟨114,[],none,false⟩⟩,⟨256,.other,false,some ⟨115,[],none,false⟩⟩]⟩,⟨[11,21,24],none,[],[⟨256,.other,false,some ⟨22,[.code],none,false⟩⟩,⟨256,.ws,false,some ⟨23,[],none,false⟩⟩,⟨256,.lf,false,some ⟨24,[],none,false⟩⟩,⟨256,.vt,false,some ⟨22,[.code],none,false⟩⟩,⟨256,.ff,false,some ⟨25,[],none,false⟩⟩,⟨256,.cr,false,some ⟨26,[],none,false⟩⟩,⟨256,.cr,true,some ⟨27,[],none,false⟩⟩,⟨256,.other,false,some ⟨28,[.emb (.goto 6)],some 0,false⟩⟩,⟨256,.other,false,some ⟨29,[],none,false⟩⟩,⟨256,.other,false,some ⟨30,[],none,false⟩⟩]⟩,⟨[10,21,24],none,[],[⟨256,.other,false,some ⟨22,[.code],none,false⟩⟩,⟨256,.ws,false,some ⟨23,[],none,false⟩⟩,⟨256,.lf,false,some ⟨24,[],none,false⟩⟩,⟨256,.vt,false,some ⟨22,[.code],none,false⟩⟩,⟨256,.ff,false,some ⟨25,[],none,false⟩⟩,⟨256,.cr,false,some ⟨26,[],none,false⟩⟩,⟨256,.cr,true,some ⟨27,[],none,false⟩⟩,⟨256,.other,false,some ⟨28,[.emb (.goto 6)],some 0,false⟩⟩,⟨256,.other,false,some ⟨29,[],none,false⟩⟩,⟨256,.other,false,some ⟨30,[],none,false⟩⟩]⟩,⟨[7,21,24],none,[],[⟨256,.other,false,some ⟨22,[.setEnt .internalNl,.cb,.code],none,false⟩⟩,⟨256,.ws,false,some ⟨23,[.setEnt .internalNl,.cb],none,false⟩⟩,⟨256,.lf,false,some ⟨24,[.setEnt .internalNl,.cb],none,false⟩⟩,⟨256,.vt,false,some ⟨22,[.setEnt .internalNl,.cb,.code],none,false⟩⟩,⟨256,.ff,false,some ⟨25,[.setEnt .internalNl,.cb],none,false⟩⟩,⟨256,.cr,false,some ⟨26,[.setEnt .internalNl,.cb],none,false⟩⟩,⟨256,.cr,true,some ⟨27,[.setEnt .internalNl,.cb],none,false⟩⟩,⟨256,.other,false,some ⟨28,[.setEnt .internalNl,.cb,.emb (.goto 6)],some 0,false⟩⟩,⟨256,.other,false,some ⟨29,[.setEnt .internalNl,.cb],none,false⟩⟩,⟨256,.other,false,some ⟨30,[.setEnt .internalNl,.cb],none,false⟩⟩]⟩,⟨[8,21,24],none,[],[⟨256,.other,false,some ⟨22,[.setEnt .internalNl,.cb,.code],none,false⟩⟩,⟨256,.ws,false,some ⟨23,[.setEnt .internalNl,.cb],none,false⟩⟩,⟨256,.lf,false,some ⟨24,[.setEnt .internalNl,.cb],none,false⟩⟩,⟨256,.vt,false,some ⟨22,[.setEnt .internalNl,.cb,.code],none,false⟩⟩,⟨256,.ff,false,some ⟨25,[.setEnt .internalNl,.cb],none,false⟩⟩,⟨256,.cr,false,some ⟨26,[.setEnt .internalNl,.cb],none,false⟩⟩,⟨256,.cr,true,some ⟨27,[.setEnt .internalNl,.cb],none,false⟩⟩,⟨256,.other,false,some ⟨28,[.setEnt .internalNl,.cb,.emb (.goto 6)],some 0,false⟩⟩,⟨256,.other,false,some ⟨29,[.setEnt .internalNl,.cb],none,false⟩⟩,⟨256,.other,false,some ⟨30,[.setEnt .internalNl,.cb],none,false⟩⟩]⟩,⟨[5,21,24],none,[],[⟨256,.other,false,some ⟨22,[.code],none,false⟩⟩,⟨256,.ws,false,some ⟨23,[],none,false⟩⟩,⟨256,.lf,false,some ⟨31,[],none,false⟩⟩,⟨256,.vt,false,some ⟨22,[.code],none,false⟩⟩,⟨256,.ff,false,some ⟨25,[],none,false⟩⟩,⟨256,.cr,false,some ⟨26,[],none,false⟩⟩,⟨256,.cr,true,some ⟨27,[],none,false⟩⟩,⟨256,.other,false,some ⟨28,[.emb (.goto 6)],some 0,false⟩⟩,⟨256,.other,false,some ⟨29,[],none,false⟩⟩,⟨256,.other,false,some ⟨30,[],none,false⟩⟩]⟩,⟨[5,9,21,24],none,[],[⟨256,.other,false,some ⟨22,[.setEnt .internalNl,.cb,.code],none,false⟩⟩,⟨256,.ws,false,some ⟨23,[.setEnt .internalNl,.cb],none,false⟩⟩,⟨256,.lf,false,some ⟨31,[.setEnt .internalNl,.cb],none,false⟩⟩,⟨256,.vt,false,some ⟨22,[.setEnt .internalNl,.cb,.code],none,false⟩⟩,⟨256,.ff,false,some ⟨25,[.setEnt .internalNl,.cb],none,false⟩⟩,⟨256,.cr,false,some ⟨26,[.setEnt .internalNl,.cb],none,false⟩⟩,⟨256,.cr,true,some ⟨27,[.setEnt .internalNl,.cb],none,false⟩⟩,⟨256,.other,false,some ⟨28,[.setEnt .internalNl,.cb,.emb (.goto 6)],some 0,false⟩⟩,⟨256,.other,false,some ⟨29,[.setEnt .internalNl,.cb],none,false⟩⟩,⟨256,.other,false,some ⟨30,[.setEnt .internalNl,.cb],none,false⟩⟩]⟩,⟨[21,24,28],some 0,[],[⟨256,.other,false,some ⟨22,[.code],none,false⟩⟩,⟨256,.ws,false,some ⟨23,[],none,false⟩⟩,⟨256,.lf,false,some ⟨24,[],none,false⟩⟩,⟨256,.vt,false,some ⟨22,[.code],none,false⟩⟩,⟨256,.ff,false,some ⟨25,[],none,false⟩⟩,⟨256,.cr,false,some ⟨26,[],none,false⟩⟩,⟨256,.cr,true,some ⟨27,[],none,false⟩⟩,⟨256,.other,false,some ⟨28,[.emb (.goto 6)],some 0,false⟩⟩,⟨256,.other,false,some ⟨29,[],none,false⟩⟩,⟨256,.other,false,some ⟨30,[],none,false⟩⟩]⟩,⟨[0,14,21,24],none,[],[⟨256,.other,false,some ⟨32,[.code],none,false⟩⟩,⟨256,.ws,false,some ⟨33,[],none,false⟩⟩,⟨256,.lf,false,some ⟨34,[],none,false⟩⟩,⟨256,.vt,false,some ⟨32,[.code],none,false⟩⟩,⟨256,.ff,false,some ⟨35,[],none,false⟩⟩,⟨256,.cr,false,some ⟨36,[],none,false⟩⟩,⟨256,.cr,true,some ⟨37,[],none,false⟩⟩,⟨256,.other,false,some ⟨38,[.emb (.goto 6)],some 0,false⟩⟩,⟨256,.other,false,some ⟨39,[],none,false⟩⟩,⟨256,.other,false,some ⟨40,[.code],none,false⟩⟩,⟨256,.other,false,some ⟨41,[],none,false⟩⟩]⟩,⟨[12,21,24],none,[],[⟨256,.other,false,some ⟨52,[.code],none,false⟩⟩,⟨256,.ws,false,some ⟨53,[.code],none,false⟩⟩,⟨256,.lf,false,some ⟨24,[],none,false⟩⟩,⟨256,.vt,false,some ⟨52,[.code],none,false⟩⟩,⟨256,.ff,false,some ⟨25,[],none,false⟩⟩,⟨256,.cr,false,some ⟨26,[],none,false⟩⟩,⟨256,.cr,true,some ⟨27,[],none,false⟩⟩,⟨256,.other,false,some ⟨54,[.code,.emb (.goto 6)],some 0,false⟩⟩,⟨256,.other,false,some ⟨55,[.code],none,false⟩⟩,⟨256,.other,false,some ⟨56,[.code],none,false⟩⟩]⟩,⟨[4,11,22,24],none,[],[⟨256,.other,false,some ⟨116,[.code],none,false⟩⟩,⟨256,.ws,false,some ⟨117,[],none,false⟩⟩,⟨256,.lf,false,some ⟨118,[],none,false⟩⟩,⟨256,.vt,false,some ⟨116,[.code],none,false⟩⟩,⟨256,.ff,false,some ⟨119,[],none,false⟩⟩,⟨256,.cr,false,some ⟨120,[],none,false⟩⟩,⟨256,.cr,true,some ⟨121,[],none,false⟩⟩,⟨256,.other,false,some ⟨122,[.emb (.goto 6)],some 0,false⟩⟩,⟨256,.other,false,some ⟨123,[],none,false⟩⟩,⟨256,.other,false,some ⟨124,[],none,false⟩⟩]⟩,⟨[11,23],none,[],[⟨256,.other,false,some ⟨22,[.code],none,false⟩⟩,⟨256,.ws,false,some ⟨23,[],none,false⟩⟩,⟨256,.lf,false,some ⟨24,[],none,false⟩⟩,⟨256,.vt,false,some ⟨22,[.code],none,false⟩⟩,⟨256,.ff,false,some ⟨25,[],none,false⟩⟩,⟨256,.cr,false,some ⟨26,[],none,false⟩⟩,⟨256,.cr,true,some ⟨27,[],none,false⟩⟩,⟨256,.other,false,some ⟨28,[.emb (.goto 6)],some 0,false⟩⟩,⟨256,.other,false,some ⟨29,[],none,false⟩⟩,⟨256,.other,false,some ⟨30,[],none,false⟩⟩]⟩,⟨[10,23],none,[],[⟨256,.other,false,some ⟨22,[.code],none,false⟩⟩,⟨256,.ws,false,some ⟨23,[],none,false⟩⟩,⟨256,.lf,false,some ⟨24,[],none,false⟩⟩,⟨256,.vt,false,some ⟨22,[.code],none,false⟩⟩,⟨256,.ff,false,some ⟨25,[],none,false⟩⟩,⟨256,.cr,false,some ⟨26,[],none,false⟩⟩,⟨256,.cr,true,some ⟨27,[],none,false⟩⟩,⟨256,.other,false,some ⟨28,[.emb (.goto 6)],some 0,false⟩⟩,⟨256,.other,false,some ⟨29,[],none,false⟩⟩,⟨256,.other,false,some ⟨30,[],none,false⟩⟩]⟩,⟨[7,23],none,[],[⟨256,.other,false,some ⟨22,[.setEnt .internalNl,.cb,.code],none,false⟩⟩,⟨256,.ws,false,some ⟨23,[.setEnt .internalNl,.cb],none,false⟩⟩,⟨256,.lf,false,some ⟨24,[.setEnt .internalNl,.cb],none,false⟩⟩,⟨256,.vt,false,some ⟨22,[.setEnt .internalNl,.cb,.code],none,false⟩⟩,⟨256,.ff,false,some ⟨25,[.setEnt .internalNl,.cb],none,false⟩⟩,⟨256,.cr,false,some ⟨26,[.setEnt .internalNl,.cb],none,false⟩⟩,⟨256,.cr,true,some ⟨27,[.setEnt .internalNl,.cb],none,false⟩⟩,⟨256,.other,false,some ⟨28,[.setEnt .internalNl,.cb,.emb (.goto 6)],some 0,false⟩⟩,⟨256,.other,false,some ⟨29,[.setEnt .internalNl,.cb],none,false⟩⟩,⟨256,.other,false,some ⟨30,[.setEnt .internalNl,.cb],none,false⟩⟩]⟩,⟨[8,23],none,[],[⟨256,.other,false,some ⟨22,[.setEnt .internalNl,.cb,.code],none,false⟩⟩,⟨256,.ws,false,some ⟨23,[.setEnt .internalNl,.cb],none,false⟩⟩,⟨256,.lf,false,some ⟨24,[.setEnt .internalNl,.cb],none,false⟩⟩,⟨256,.vt,false,some ⟨22,[.setEnt .internalNl,.cb,.code],none,false⟩⟩,⟨256,.ff,false,some ⟨25,[.setEnt .internalNl,.cb],none,false⟩⟩,⟨256,.cr,false,some ⟨26,[.setEnt .internalNl,.cb],none,false⟩⟩,⟨256,.cr,true,some ⟨27,[.setEnt .internalNl,.cb],none,false⟩⟩,⟨256,.other,false,some ⟨28,[.setEnt .internalNl,.cb,.emb (.goto 6)],some 0,false⟩⟩,⟨256,.other,false,some ⟨29,[.setEnt .internalNl,.cb],none,false⟩⟩,⟨256,.other,false,some ⟨30,[.setEnt .internalNl,.cb],none,false⟩⟩]⟩,⟨[5,23],none,[],[⟨256,.other,false,some ⟨22,[.code],none,false⟩⟩,⟨256,.ws,false,some ⟨23,[],none,false⟩⟩,⟨256,.lf,false,some ⟨31,[],none,false⟩⟩,⟨256,.vt,false,some ⟨22,[.code],none,false⟩⟩,⟨256,.ff,false,some ⟨25,[],none,false⟩⟩,⟨256,.cr,false,some ⟨26,[],none,false⟩⟩,⟨256,.cr,true,some ⟨27,[],none,false⟩⟩,⟨256,.other,false,some ⟨28,[.emb (.goto 6)],some 0,false⟩⟩,⟨256,.other,false,some ⟨29,[],none,false⟩⟩,⟨256,.other,false,some ⟨30,[],none,false⟩⟩]⟩,⟨[5,9,23],none,[],[⟨256,.other,false,some ⟨22,[.setEnt .internalNl,.cb,.code],none,false⟩⟩,⟨256,.ws,false,some ⟨23,[.setEnt .internalNl,.cb],none,false⟩⟩,⟨256,.lf,false,some ⟨31,[.setEnt .internalNl,.cb],none,false⟩⟩,⟨256,.vt,false,some ⟨22,[.setEnt .internalNl,.cb,.code],none,false⟩⟩,⟨256,.ff,false,some ⟨25,[.setEnt .internalNl,.cb],none,false⟩⟩,⟨256,.cr,false,some ⟨26,[.setEnt .internalNl,.cb],none,false⟩⟩,⟨256,.cr,true,some ⟨27,[.setEnt .internalNl,.cb],none,false⟩⟩,⟨256,.other,false,some ⟨28,[.setEnt .internalNl,.cb,.emb (.goto 6)],some 0,false⟩⟩,⟨256,.other,false,some ⟨29,[.setEnt .internalNl,.cb],none,false⟩⟩,⟨256,.other,false,some ⟨30,[.setEnt .internalNl,.cb],none,false⟩⟩]⟩,⟨[23,28],some 0,[],[⟨256,.other,false,some ⟨22,[.code],none,false⟩⟩,⟨256,.ws,false,some ⟨23,[],none,false⟩⟩,⟨256,.lf,false,some ⟨24,[],none,false⟩⟩,⟨256,.vt,false,some ⟨22,[.code],none,false⟩⟩,⟨256,.ff,false,some ⟨25,[],none,false⟩⟩,⟨256,.cr,false,some ⟨26,[],none,false⟩⟩,⟨256,.cr,true,some ⟨27,[],none,false⟩⟩,⟨256,.other,false,some ⟨28,[.emb (.goto 6)],some 0,false⟩⟩,⟨256,.other,false,some ⟨29,[],none,false⟩⟩,⟨256,.other,false,some ⟨30,[],none,false⟩⟩]⟩,⟨[0,14,23],none,[],[⟨256,.other,false,some ⟨32,[.code],none,false⟩⟩,⟨256,.ws,false,some ⟨33,[],none,false⟩⟩,⟨256,.lf,false,some ⟨34,[],none,false⟩⟩,⟨256,.vt,false,some ⟨32,[.code],none,false⟩⟩,⟨256,.ff,false,some ⟨35,[],none,false⟩⟩,⟨256,.cr,false,some ⟨36,[],none,false⟩⟩,⟨256,.cr,true,some ⟨37,[],none,false⟩⟩,⟨256,.other,false,some ⟨38,[.emb (.goto 6)],some 0,false⟩⟩,⟨256,.other,false,some ⟨39,[],none,false⟩⟩,⟨256,.other,false,some ⟨40,[.code],none,false⟩⟩,⟨256,.other,false,some ⟨41,[],none,false⟩⟩]⟩,⟨[12,23],none,[],[⟨256,.other,false,some ⟨52,[.code],none,false⟩⟩,⟨256,.ws,false,some ⟨53,[.code],none,false⟩⟩,⟨256,.lf,false,some ⟨24,[],none,false⟩⟩,⟨256,.vt,false,some ⟨52,[.code],none,false⟩⟩,⟨256,.ff,false,some ⟨25,[],none,false⟩⟩,⟨256,.cr,false,some ⟨26,[],none,false⟩⟩,⟨256,.cr,true,some ⟨27,[],none,false⟩⟩,⟨256,.other,false,some ⟨54,[.code,.emb (.goto 6)],some 0,false⟩⟩,⟨256,.other,false,some ⟨55,[.code],none,false⟩⟩,⟨256,.other,false,some ⟨56,[.code],none,false⟩⟩]⟩,⟨[11,23,24],none,[],[⟨256,.other,false,some ⟨22,[.code],none,false⟩⟩,⟨256,.ws,false,some ⟨23,[],none,false⟩⟩,⟨256,.lf,false,some ⟨24,[],none,false⟩⟩,⟨256,.vt,false,some ⟨22,[.code],none,false⟩⟩,⟨256,.ff,false,some ⟨25,[],none,false⟩⟩,⟨256,.cr,false,some ⟨26,[],none,false⟩⟩,⟨256,.cr,true,some ⟨27,[],none,false⟩⟩,⟨256,.other,false,some ⟨28,[.emb (.goto 6)],some 0,false⟩⟩,⟨256,.other,false,some ⟨29,[],none,false⟩⟩,⟨256,.other,false,some ⟨30,[],none,false⟩⟩]⟩,⟨[10,23,24],none,[],[⟨256,.other,false,some ⟨22,[.code],none,false⟩⟩,⟨256,.ws,false,some ⟨23,[],none,false⟩⟩,⟨256,.lf,false,some ⟨24,[],none,false⟩⟩,⟨256,.vt,false,some ⟨22,[.code],none,false⟩⟩,⟨256,.ff,false,some ⟨25,[],none,false⟩⟩,⟨256,.cr,false,some ⟨26,[],none,false⟩⟩,⟨256,.cr,true,some ⟨27,[],none,false⟩⟩,⟨256,.other,false,some ⟨28,[.emb (.goto 6)],some 0,false⟩⟩,⟨256,.other,false,some ⟨29,[],none,false⟩⟩,⟨256,.other,false,some ⟨30,[],none,false⟩⟩]⟩,⟨[7,23,24],none,[],[⟨256,.other,false,some ⟨22,[.setEnt .internalNl,.cb,.code],none,false⟩⟩,⟨256,.ws,false,some ⟨23,[.setEnt .internalNl,.cb],none,false⟩⟩,⟨256,.lf,false,some ⟨24,[.setEnt .internalNl,.cb],none,false⟩⟩,⟨256,.vt,false,some ⟨22,[.setEnt .internalNl,.cb,.code],none,false⟩⟩,⟨256,.ff,false,some ⟨25,[.setEnt .internalNl,.cb],none,false⟩⟩,⟨256,.cr,false,some ⟨26,[.setEnt .internalNl,.cb],none,false⟩⟩,⟨256,.cr,true,some ⟨27,[.setEnt .internalNl,.cb],none,false⟩⟩,⟨256,.other,false,some ⟨28,[.setEnt .internalNl,.cb,.emb (.goto 6)],some 0,false⟩⟩,⟨256,.other,false,some ⟨29,[.setEnt .internalNl,.cb],none,false⟩⟩,⟨256,.other,false,some ⟨30,[.setEnt .internalNl,.cb],none,false⟩⟩]⟩,⟨[8,23,24],none,[],[⟨256,.other,false,some ⟨22,[.setEnt .internalNl,.cb,.code],none,false⟩⟩,⟨256,.ws,false,some ⟨23,[.setEnt .internalNl,.cb],none,false⟩⟩,⟨256,.lf,false,some ⟨24,[.setEnt .internalNl,.cb],none,false⟩⟩,⟨256,.vt,false,some ⟨22,[.setEnt .internalNl,.cb,.code],none,false⟩⟩,⟨256,.ff,false,some ⟨25,[.setEnt .internalNl,.cb],none,false⟩⟩,⟨256,.cr,false,some ⟨26,[.setEnt .internalNl,.cb],none,false⟩⟩,⟨256,.cr,true,some ⟨27,[.setEnt .internalNl,.cb],none,false⟩⟩,⟨256,.other,false,some ⟨28,[.setEnt .internalNl,.cb,.emb (.goto 6)],some 0,false⟩⟩,⟨256,.other,false,some ⟨29,[.setEnt .internalNl,.cb],none,false⟩⟩,⟨256,.other,false,some ⟨30,[.setEnt .internalNl,.cb],none,false⟩⟩]⟩,⟨[5,23,24],none,[],[⟨256,.other,false,some ⟨22,[.code],none,false⟩⟩,⟨256,.ws,false,some ⟨23,[],none,false⟩⟩,⟨256,.lf,false,some ⟨31,[],none,false⟩⟩,⟨256,.vt,false,some ⟨22,[.code],none,false⟩⟩,⟨256,.ff,false,some ⟨25,[],none,false⟩⟩,⟨256,.cr,false,some ⟨26,[],none,false⟩⟩,⟨256,.cr,true,some ⟨27,[],none,false⟩⟩,⟨256,.other,false,some ⟨28,[.emb (.goto 6)],some 0,false⟩⟩,⟨256,.other,false,some ⟨29,[],none,false⟩⟩,⟨256,.other,false,some ⟨30,[],none,false⟩⟩]⟩,⟨[5,9,23,24],none,[],[⟨256,.other,false,some ⟨22,[.setEnt .internalNl,.cb,.code],none,false⟩⟩,⟨256,.ws,false,some ⟨23,[.setEnt .internalNl,.cb],none,false⟩⟩,⟨256,.lf,false,some ⟨31,[.setEnt .internalNl,.cb],none,false⟩⟩,⟨256,.vt,false,some ⟨22,[.setEnt .internalNl,.cb,.code],none,false⟩⟩,⟨256,.ff,false,some ⟨25,[.setEnt .internalNl,.cb],none,false⟩⟩,⟨256,.cr,false,some ⟨26,[.setEnt .internalNl,.cb],none,false⟩⟩,⟨256,.cr,true,some ⟨27,[.setEnt .internalNl,.cb],none,false⟩⟩,⟨256,.other,false,some ⟨28,[.setEnt .internalNl,.cb,.emb (.goto 6)],some 0,false⟩⟩,⟨256,.other,false,some ⟨29,[.setEnt .internalNl,.cb],none,false⟩⟩,⟨256,.other,false,some ⟨30,[.setEnt .internalNl,.cb],none,false⟩⟩]⟩,⟨[23,24,28],some 0,[],[⟨256,.other,false,some ⟨22,[.code],none,false⟩⟩,⟨256,.ws,false,some ⟨23,[],none,false⟩⟩,⟨256,.lf,false,some ⟨24,[],none,false⟩⟩,⟨256,.vt,false,some ⟨22,[.code],none,false⟩⟩,⟨256,.ff,false,some ⟨25,[],none,false⟩⟩,⟨256,.cr,false,some ⟨26,[],none,false⟩⟩,⟨256,.cr,true,some ⟨27,[],none,false⟩⟩,⟨256,.other,false,some ⟨28,[.emb (.goto 6)],some 0,false⟩⟩,⟨256,.other,false,some ⟨29,[],none,false⟩⟩,⟨256,.other,false,some ⟨30,[],none,false⟩⟩]⟩,⟨[0,14,23,24],none,[],[⟨256,.other,false,some ⟨32,[.code],none,false⟩⟩,⟨256,.ws,false,some ⟨33,[],none,false⟩⟩,⟨256,.lf,false,some ⟨34,[],none,false⟩⟩,⟨256,.vt,false,some ⟨32,[.code],none,false⟩⟩,⟨256,.ff,false,some ⟨35,[],none,false⟩⟩,⟨256,.cr,false,some ⟨36,[],none,false⟩⟩,⟨256,.cr,true,some ⟨37,[],none,false⟩⟩,⟨256,.other,false,some ⟨38,[.emb (.goto 6)],some 0,false⟩⟩,⟨256,.other,false,some ⟨39,[],none,false⟩⟩,⟨256,.other,false,some ⟨40,[.code],none,false⟩⟩,⟨256,.other,false,some ⟨41,[],none,false⟩⟩]⟩,⟨[12,23,24],none,[],[⟨256,.other,false,some ⟨52,[.code],none,false⟩⟩,⟨256,.ws,false,some ⟨53,[.code],none,false⟩⟩,⟨256,.lf,false,some ⟨24,[],none,false⟩⟩,⟨256,.vt,false,some ⟨52,[.code],none,false⟩⟩,⟨256,.ff,false,some ⟨25,[],none,false⟩⟩,⟨256,.cr,false,some ⟨26,[],none,false⟩⟩,⟨256,.cr,true,some ⟨27,[],none,false⟩⟩,⟨256,.other,false,some ⟨54,[.code,.emb (.goto 6)],some 0,false⟩⟩,⟨256,.other,false,some ⟨55,[.code],none,false⟩⟩,⟨256,.other,false,some ⟨56,[.code],none,false⟩⟩]⟩]
theorem emb33_rowsOk : rowsOk emb33_nfa [] (emb33_cs.map (·.1)) emb33_rows = true := by decide +kernel
def emb33_D : Dfa emb33_nfa := ⟨emb33_masks, [], emb33_cs, emb33_rows, emb33_masksIn, emb33_repOk, emb33_rowsOk⟩

/-- The automaton of `Emb.Clearsilverhtml.cshtml_sq_str`. -/
def emb40_nfa : Nfa := ⟨[⟨0,1152921504606846976,[],[],0,0⟩,⟨4,8192,[],[],0,0⟩,⟨6,1024,[],[],0,0⟩,⟨7,4096,[],[],0,0⟩,⟨8,8192,[.crAlone],[],0,0⟩,⟨9,4294967808,[],[],0,0⟩,⟨10,115792089237316195423570985008687907853269984665635612279299289564754875501055,[],[(3,.code)],0,0⟩,⟨11,4951760157141521099596496896,[],[],0,0⟩,⟨13,1152921504606846976,[],[],0,0⟩,⟨24,549755813888,[],[(5,.emb (.goto 6))],0,0⟩],[[⟨1,9223372036854775808,[],[],0,0⟩],[⟨2,633825300114114700748351602688,[],[],0,0⟩],[⟨3,41538374868278621028243970633760768,[],[(0,.emb (.sawCall 3 5))],0,0⟩],[⟨0,1152921504606846976,[],[],0,0⟩,⟨4,8192,[],[],0,0⟩,⟨6,1024,[],[],0,0⟩,⟨7,4096,[],[],0,0⟩,⟨8,8192,[.crAlone],[],0,0⟩,⟨9,4294967808,[],[],0,0⟩,⟨10,115792089237316195423570985008687907853269984665635612279299289564754875501055,[],[(3,.code)],0,0⟩,⟨11,4951760157141521099596496896,[],[],0,0⟩,⟨13,1152921504606846976,[],[],0,0⟩,⟨24,549755813888,[],[(5,.emb (.goto 6))],0,0⟩],[⟨5,1024,[],[],0,0⟩],[⟨0,1152921504606846976,[],[(1,.setEnt .internalNl),(2,.cb)],0,0⟩,⟨4,8192,[],[(1,.setEnt .internalNl),(2,.cb)],0,0⟩,⟨6,1024,[],[(1,.setEnt .internalNl),(2,.cb)],0,0⟩,⟨7,4096,[],[(1,.setEnt .internalNl),(2,.cb)],0,0⟩,⟨8,8192,[.crAlone],[(1,.setEnt .internalNl),(2,.cb)],0,0⟩,⟨9,4294967808,[],[(1,.setEnt .internalNl),(2,.cb)],0,0⟩,⟨10,115792089237316195423570985008687907853269984665635612279299289564754875501055,[],[(1,.setEnt .internalNl),(2,.cb),(3,.code)],0,0⟩,⟨11,4951760157141521099596496896,[],[(1,.setEnt .internalNl),(2,.cb)],0,0⟩,⟨13,1152921504606846976,[],[(1,.setEnt .internalNl),(2,.cb)],0,0⟩,⟨24,549755813888,[],[(1,.setEnt .internalNl),(2,.cb),(5,.emb (.goto 6))],0,0⟩],[⟨0,1152921504606846976,[],[(1,.setEnt .internalNl),(2,.cb)],0,0⟩,⟨4,8192,[],[(1,.setEnt .internalNl),(2,.cb)],0,0⟩,⟨6,1024,[],[(1,.setEnt .internalNl),(2,.cb)],0,0⟩,⟨7,4096,[],[(1,.setEnt .internalNl),(2,.cb)],0,0⟩,⟨8,8192,[.crAlone],[(1,.setEnt .internalNl),(2,.cb)],0,0⟩,⟨9,4294967808,[],[(1,.setEnt .internalNl),(2,.cb)],0,0⟩,⟨10,115792089237316195423570985008687907853269984665635612279299289564754875501055,[],[(1,.setEnt .internalNl),(2,.cb),(3,.code)],0,0⟩,⟨11,4951760157141521099596496896,[],[(1,.setEnt .internalNl),(2,.cb)],0,0⟩,⟨13,1152921504606846976,[],[(1,.setEnt .internalNl),(2,.cb)],0,0⟩,⟨24,549755813888,[],[(1,.setEnt .internalNl),(2,.cb),(5,.emb (.goto 6))],0,0⟩],[⟨0,1152921504606846976,[],[(1,.setEnt .internalNl),(2,.cb)],0,0⟩,⟨4,8192,[],[(1,.setEnt .internalNl),(2,.cb)],0,0⟩,⟨6,1024,[],[(1,.setEnt .internalNl),(2,.cb)],0,0⟩,⟨7,4096,[],[(1,.setEnt .internalNl),(2,.cb)],0,0⟩,⟨8,8192,[.crAlone],[(1,.setEnt .internalNl),(2,.cb)],0,0⟩,⟨9,4294967808,[],[(1,.setEnt .internalNl),(2,.cb)],0,0⟩,⟨10,115792089237316195423570985008687907853269984665635612279299289564754875501055,[],[(1,.setEnt .internalNl),(2,.cb),(3,.code)],0,0⟩,⟨11,4951760157141521099596496896,[],[(1,.setEnt .internalNl),(2,.cb)],0,0⟩,⟨13,1152921504606846976,[],[(1,.setEnt .internalNl),(2,.cb)],0,0⟩,⟨24,549755813888,[],[(1,.setEnt .internalNl),(2,.cb),(5,.emb (.goto 6))],0,0⟩],[⟨0,1152921504606846976,[],[(1,.setEnt .internalNl),(2,.cb)],0,0⟩,⟨4,8192,[],[(1,.setEnt .internalNl),(2,.cb)],0,0⟩,⟨6,1024,[],[(1,.setEnt .internalNl),(2,.cb)],0,0⟩,⟨7,4096,[],[(1,.setEnt .internalNl),(2,.cb)],0,0⟩,⟨8,8192,[.crAlone],[(1,.setEnt .internalNl),(2,.cb)],0,0⟩,⟨9,4294967808,[],[(1,.setEnt .internalNl),(2,.cb)],0,0⟩,⟨10,115792089237316195423570985008687907853269984665635612279299289564754875501055,[],[(1,.setEnt .internalNl),(2,.cb),(3,.code)],0,0⟩,⟨11,4951760157141521099596496896,[],[(1,.setEnt .internalNl),(2,.cb)],0,0⟩,⟨13,1152921504606846976,[],[(1,.setEnt .internalNl),(2,.cb)],0,0⟩,⟨24,549755813888,[],[(1,.setEnt .internalNl),(2,.cb),(5,.emb (.goto 6))],0,0⟩],[⟨0,1152921504606846976,[],[],0,0⟩,⟨4,8192,[],[],0,0⟩,⟨6,1024,[],[],0,0⟩,⟨7,4096,[],[],0,0⟩,⟨8,8192,[.crAlone],[],0,0⟩,⟨9,4294967808,[],[],0,0⟩,⟨10,115792089237316195423570985008687907853269984665635612279299289564754875501055,[],[(3,.code)],0,0⟩,⟨11,4951760157141521099596496896,[],[],0,0⟩,⟨13,1152921504606846976,[],[],0,0⟩,⟨24,549755813888,[],[(5,.emb (.goto 6))],0,0⟩],[⟨0,1152921504606846976,[],[],0,0⟩,⟨4,8192,[],[],0,0⟩,⟨6,1024,[],[],0,0⟩,⟨7,4096,[],[],0,0⟩,⟨8,8192,[.crAlone],[],0,0⟩,⟨9,4294967808,[],[],0,0⟩,⟨10,115792089237316195423570985008687907853269984665635612279299289564754875501055,[],[(3,.code)],0,0⟩,⟨11,4951760157141521099596496896,[],[],0,0⟩,⟨13,1152921504606846976,[],[],0,0⟩,⟨24,549755813888,[],[(5,.emb (.goto 6))],0,0⟩],[⟨12,115792089237316195423570985008687907853269984665640564039457584007913129626623,[],[(4,.code)],0,0⟩],[⟨0,1152921504606846976,[],[],0,0⟩,⟨4,8192,[],[],0,0⟩,⟨6,1024,[],[],0,0⟩,⟨7,4096,[],[],0,0⟩,⟨8,8192,[.crAlone],[],0,0⟩,⟨9,4294967808,[],[],0,0⟩,⟨10,115792089237316195423570985008687907853269984665635612279299289564754875501055,[],[(3,.code)],0,0⟩,⟨11,4951760157141521099596496896,[],[],0,0⟩,⟨13,1152921504606846976,[],[],0,0⟩,⟨24,549755813888,[],[(5,.emb (.goto 6))],0,0⟩],[⟨14,115792089237316195423570985008687907853269984665640564039448360635876274864127,[],[],0,0⟩,⟨15,9223372036854775808,[],[],0,0⟩,⟨22,9223372036854775808,[],[],0,0⟩,⟨0,1152921504606846976,[],[],0,0⟩,⟨4,8192,[],[],0,0⟩,⟨6,1024,[],[],0,0⟩,⟨7,4096,[],[],0,0⟩,⟨8,8192,[.crAlone],[],0,0⟩,⟨9,4294967808,[],[],0,0⟩,⟨10,115792089237316195423570985008687907853269984665635612279299289564754875501055,[],[(3,.code)],0,0⟩,⟨11,4951760157141521099596496896,[],[],0,0⟩,⟨13,1152921504606846976,[],[],0,0⟩,⟨24,549755813888,[],[(5,.emb (.goto 6))],0,0⟩],[⟨21,115792089237316195423570985008687907853269984665640564039457584007913129639935,[],[],0,0⟩,⟨0,1152921504606846976,[],[],0,0⟩,⟨4,8192,[],[],0,0⟩,⟨6,1024,[],[],0,0⟩,⟨7,4096,[],[],0,0⟩,⟨8,8192,[.crAlone],[],0,0⟩,⟨9,4294967808,[],[],0,0⟩,⟨10,115792089237316195423570985008687907853269984665635612279299289564754875501055,[],[(3,.code)],0,0⟩,⟨11,4951760157141521099596496896,[],[],0,0⟩,⟨13,1152921504606846976,[],[],0,0⟩,⟨24,549755813888,[],[(5,.emb (.goto 6))],0,0⟩],[⟨16,115792089237316195423570985008687907853269984665006738739343469307164778037247,[],[],0,0⟩,⟨17,633825300114114700748351602688,[],[],0,0⟩],[⟨21,115792089237316195423570985008687907853269984665640564039457584007913129639935,[],[],0,0⟩,⟨0,1152921504606846976,[],[],0,0⟩,⟨4,8192,[],[],0,0⟩,⟨6,1024,[],[],0,0⟩,⟨7,4096,[],[],0,0⟩,⟨8,8192,[.crAlone],[],0,0⟩,⟨9,4294967808,[],[],0,0⟩,⟨10,115792089237316195423570985008687907853269984665635612279299289564754875501055,[],[(3,.code)],0,0⟩,⟨11,4951760157141521099596496896,[],[],0,0⟩,⟨13,1152921504606846976,[],[],0,0⟩,⟨24,549755813888,[],[(5,.emb (.goto 6))],0,0⟩],[⟨18,115792089237316195423570985008687907853269943127265695760836555763942495879167,[],[],0,0⟩,⟨19,41538374868278621028243970633760768,[],[],0,0⟩],[⟨21,115792089237316195423570985008687907853269984665640564039457584007913129639935,[],[],0,0⟩,⟨0,1152921504606846976,[],[],0,0⟩,⟨4,8192,[],[],0,0⟩,⟨6,1024,[],[],0,0⟩,⟨7,4096,[],[],0,0⟩,⟨8,8192,[.crAlone],[],0,0⟩,⟨9,4294967808,[],[],0,0⟩,⟨10,115792089237316195423570985008687907853269984665635612279299289564754875501055,[],[(3,.code)],0,0⟩,⟨11,4951760157141521099596496896,[],[],0,0⟩,⟨13,1152921504606846976,[],[],0,0⟩,⟨24,549755813888,[],[(5,.emb (.goto 6))],0,0⟩],[⟨20,115792089237316195423570985008687907853269984665640564039457584007913129639935,[],[],0,0⟩],[⟨21,115792089237316195423570985008687907853269984665640564039457584007913129639935,[],[],0,0⟩,⟨0,1152921504606846976,[],[],0,0⟩,⟨4,8192,[],[],0,0⟩,⟨6,1024,[],[],0,0⟩,⟨7,4096,[],[],0,0⟩,⟨8,8192,[.crAlone],[],0,0⟩,⟨9,4294967808,[],[],0,0⟩,⟨10,115792089237316195423570985008687907853269984665635612279299289564754875501055,[],[(3,.code)],0,0⟩,⟨11,4951760157141521099596496896,[],[],0,0⟩,⟨13,1152921504606846976,[],[],0,0⟩,⟨24,549755813888,[],[(5,.emb (.goto 6))],0,0⟩],[⟨21,115792089237316195423570985008687907853269984665640564039457584007913129639935,[],[],0,0⟩,⟨0,1152921504606846976,[],[],0,0⟩,⟨4,8192,[],[],0,0⟩,⟨6,1024,[],[],0,0⟩,⟨7,4096,[],[],0,0⟩,⟨8,8192,[.crAlone],[],0,0⟩,⟨9,4294967808,[],[],0,0⟩,⟨10,115792089237316195423570985008687907853269984665635612279299289564754875501055,[],[(3,.code)],0,0⟩,⟨11,4951760157141521099596496896,[],[],0,0⟩,⟨13,1152921504606846976,[],[],0,0⟩,⟨24,549755813888,[],[(5,.emb (.goto 6))],0,0⟩],[⟨23,633825300114114700748351602688,[],[],0,0⟩,⟨0,1152921504606846976,[],[],0,0⟩,⟨4,8192,[],[],0,0⟩,⟨6,1024,[],[],0,0⟩,⟨7,4096,[],[],0,0⟩,⟨8,8192,[.crAlone],[],0,0⟩,⟨9,4294967808,[],[],0,0⟩,⟨10,115792089237316195423570985008687907853269984665635612279299289564754875501055,[],[(3,.code)],0,0⟩,⟨11,4951760157141521099596496896,[],[],0,0⟩,⟨13,1152921504606846976,[],[],0,0⟩,⟨24,549755813888,[],[(5,.emb (.goto 6))],0,0⟩],[⟨0,1152921504606846976,[],[],0,0⟩,⟨4,8192,[],[],0,0⟩,⟨6,1024,[],[],0,0⟩,⟨7,4096,[],[],0,0⟩,⟨8,8192,[.crAlone],[],0,0⟩,⟨9,4294967808,[],[],0,0⟩,⟨10,115792089237316195423570985008687907853269984665635612279299289564754875501055,[],[(3,.code)],0,0⟩,⟨11,4951760157141521099596496896,[],[],0,0⟩,⟨13,1152921504606846976,[],[],0,0⟩,⟨24,549755813888,[],[(5,.emb (.goto 6))],0,0⟩],[]],[none,none,none,none,none,none,none,none,none,none,none,none,none,none,none,none,none,none,none,none,none,none,none,none,some (0,[])],[6]⟩
def emb40_masks : List Nat := [1152921504606846976,8192,1024,4096,4294967808,115792089237316195423570985008687907853269984665635612279299289564754875501055,4951760157141521099596496896,549755813888,9223372036854775808,633825300114114700748351602688,41538374868278621028243970633760768,115792089237316195423570985008687907853269984665640564039457584007913129626623,115792089237316195423570985008687907853269984665640564039448360635876274864127,115792089237316195423570985008687907853269984665640564039457584007913129639935,115792089237316195423570985008687907853269984665006738739343469307164778037247,115792089237316195423570985008687907853269943127265695760836555763942495879167]
def emb40_cs : List (Nat × Nat) := [(0,115792089237316195423570985008687907853269943126626918700554923247999035359743),(9,4294967808),(10,1024),(11,2048),(12,4096),(13,8192),(39,549755813888),(60,1152921504606846976),(63,9223372036854775808),(92,4951760157141521099596496896),(99,633825300114114700748351602688),(115,41538374868278621028243970633760768)]
theorem emb40_masksIn : masksIn emb40_nfa emb40_masks = true := by decide +kernel
theorem emb40_repOk : repOk emb40_masks emb40_cs = true := by decide +kernel
def emb40_rows : List Row := [⟨[],none,[],[⟨256,.other,false,some ⟨1,[.code],none,false⟩⟩,⟨256,.ws,false,some ⟨2,[],none,false⟩⟩,⟨256,.lf,false,some ⟨3,[],none,false⟩⟩,⟨256,.vt,false,some ⟨1,[.code],none,false⟩⟩,⟨256,.ff,false,some ⟨4,[],none,false⟩⟩,⟨256,.cr,false,some ⟨5,[],none,false⟩⟩,⟨256,.cr,true,some ⟨6,[],none,false⟩⟩,⟨256,.other,false,some ⟨0,[.emb (.goto 6)],some 0,true⟩⟩,⟨256,.other,false,some ⟨7,[],none,false⟩⟩,⟨256,.other,false,some ⟨8,[],none,false⟩⟩]⟩,⟨[10],none,[],[⟨256,.other,false,some ⟨1,[.code],none,false⟩⟩,⟨256,.ws,false,some ⟨2,[],none,false⟩⟩,⟨256,.lf,false,some ⟨3,[],none,false⟩⟩,⟨256,.vt,false,some ⟨1,[.code],none,false⟩⟩,⟨256,.ff,false,some ⟨4,[],none,false⟩⟩,⟨256,.cr,false,some ⟨5,[],none,false⟩⟩,⟨256,.cr,true,some ⟨6,[],none,false⟩⟩,⟨256,.other,false,some ⟨0,[.emb (.goto 6)],some 0,true⟩⟩,⟨256,.other,false,some ⟨7,[],none,false⟩⟩,⟨256,.other,false,some ⟨8,[],none,false⟩⟩]⟩,⟨[9],none,[],[⟨256,.other,false,some ⟨1,[.code],none,false⟩⟩,⟨256,.ws,false,some ⟨2,[],none,false⟩⟩,⟨256,.lf,false,some ⟨3,[],none,false⟩⟩,⟨256,.vt,false,some ⟨1,[.code],none,false⟩⟩,⟨256,.ff,false,some ⟨4,[],none,false⟩⟩,⟨256,.cr,false,some ⟨5,[],none,false⟩⟩,⟨256,.cr,true,some ⟨6,[],none,false⟩⟩,⟨256,.other,false,some ⟨0,[.emb (.goto 6)],some 0,true⟩⟩,⟨256,.other,false,some ⟨7,[],none,false⟩⟩,⟨256,.other,false,some ⟨8,[],none,false⟩⟩]⟩,⟨[6],none,[],[⟨256,.other,false,some ⟨1,[.setEnt .internalNl,.cb,.code],none,false⟩⟩,⟨256,.ws,false,some ⟨2,[.setEnt .internalNl,.cb],none,false⟩⟩,⟨256,.lf,false,some ⟨3,[.setEnt .internalNl,.cb],none,false⟩⟩,⟨256,.vt,false,some ⟨1,[.setEnt .internalNl,.cb,.code],none,false⟩⟩,⟨256,.ff,false,some ⟨4,[.setEnt .internalNl,.cb],none,false⟩⟩,⟨256,.cr,false,some ⟨5,[.setEnt .internalNl,.cb],none,false⟩⟩,⟨256,.cr,true,some ⟨6,[.setEnt .internalNl,.cb],none,false⟩⟩,⟨256,.other,false,some ⟨0,[.setEnt .internalNl,.cb,.emb (.goto 6)],some 0,true⟩⟩,⟨256,.other,false,some ⟨7,[.setEnt .internalNl,.cb],none,false⟩⟩,⟨256,.other,false,some ⟨8,[.setEnt .internalNl,.cb],none,false⟩⟩]⟩,⟨[7],none,[],[⟨256,.other,false,some ⟨1,[.setEnt .internalNl,.cb,.code],none,false⟩⟩,⟨256,.ws,false,some ⟨2,[.setEnt .internalNl,.cb],none,false⟩⟩,⟨256,.lf,false,some ⟨3,[.setEnt .internalNl,.cb],none,false⟩⟩,⟨256,.vt,false,some ⟨1,[.setEnt .internalNl,.cb,.code],none,false⟩⟩,⟨256,.ff,false,some ⟨4,[.setEnt .internalNl,.cb],none,false⟩⟩,⟨256,.cr,false,some ⟨5,[.setEnt .internalNl,.cb],none,false⟩⟩,⟨256,.cr,true,some ⟨6,[.setEnt .internalNl,.cb],none,false⟩⟩,⟨256,.other,false,some ⟨0,[.setEnt .internalNl,.cb,.emb (.goto 6)],some 0,true⟩⟩,⟨256,.other,false,some ⟨7,[.setEnt .internalNl,.cb],none,false⟩⟩,⟨256,.other,false,some ⟨8,[.setEnt .internalNl,.cb],none,false⟩⟩]⟩,⟨[4],none,[],[⟨256,.other,false,none⟩,⟨256,.ws,false,none⟩,⟨256,.lf,false,some ⟨9,[],none,false⟩⟩,⟨256,.vt,false,none⟩,⟨256,.ff,false,none⟩,⟨256,.cr,false,none⟩,⟨256,.cr,true,none⟩]⟩,⟨[4,8],none,[],[⟨256,.other,false,some ⟨1,[.setEnt .internalNl,.cb,.code],none,false⟩⟩,⟨256,.ws,false,some ⟨2,[.setEnt .internalNl,.cb],none,false⟩⟩,⟨256,.lf,false,some ⟨10,[.setEnt .internalNl,.cb],none,false⟩⟩,⟨256,.vt,false,some ⟨1,[.setEnt .internalNl,.cb,.code],none,false⟩⟩,⟨256,.ff,false,some ⟨4,[.setEnt .internalNl,.cb],none,false⟩⟩,⟨256,.cr,false,some ⟨5,[.setEnt .internalNl,.cb],none,false⟩⟩,⟨256,.cr,true,some ⟨6,[.setEnt .internalNl,.cb],none,false⟩⟩,⟨256,.other,false,some ⟨0,[.setEnt .internalNl,.cb,.emb (.goto 6)],some 0,true⟩⟩,⟨256,.other,false,some ⟨7,[.setEnt .internalNl,.cb],none,false⟩⟩,⟨256,.other,false,some ⟨8,[.setEnt .internalNl,.cb],none,false⟩⟩]⟩,⟨[0,13],none,[],[⟨256,.other,false,some ⟨11,[.code],none,false⟩⟩,⟨256,.ws,false,some ⟨12,[],none,false⟩⟩,⟨256,.lf,false,some ⟨13,[],none,false⟩⟩,⟨256,.vt,false,some ⟨11,[.code],none,false⟩⟩,⟨256,.ff,false,some ⟨14,[],none,false⟩⟩,⟨256,.cr,false,some ⟨15,[],none,false⟩⟩,⟨256,.cr,true,some ⟨16,[],none,false⟩⟩,⟨256,.other,false,some ⟨17,[.emb (.goto 6)],some 0,false⟩⟩,⟨256,.other,false,some ⟨18,[],none,false⟩⟩,⟨256,.other,false,some ⟨19,[.code],none,false⟩⟩,⟨256,.other,false,some ⟨20,[],none,false⟩⟩]⟩,⟨[11],none,[],[⟨256,.other,false,some ⟨21,[.code],none,false⟩⟩,⟨256,.ws,false,some ⟨21,[.code],none,false⟩⟩,⟨256,.lf,false,none⟩,⟨256,.vt,false,some ⟨21,[.code],none,false⟩⟩,⟨256,.ff,false,none⟩,⟨256,.cr,false,none⟩,⟨256,.cr,true,none⟩]⟩,⟨[5],none,[],[⟨256,.other,false,some ⟨1,[.setEnt .internalNl,.cb,.code],none,false⟩⟩,⟨256,.ws,false,some ⟨2,[.setEnt .internalNl,.cb],none,false⟩⟩,⟨256,.lf,false,some ⟨3,[.setEnt .internalNl,.cb],none,false⟩⟩,⟨256,.vt,false,some ⟨1,[.setEnt .internalNl,.cb,.code],none,false⟩⟩,⟨256,.ff,false,some ⟨4,[.setEnt .internalNl,.cb],none,false⟩⟩,⟨256,.cr,false,some ⟨5,[.setEnt .internalNl,.cb],none,false⟩⟩,⟨256,.cr,true,some ⟨6,[.setEnt .internalNl,.cb],none,false⟩⟩,⟨256,.other,false,some ⟨0,[.setEnt .internalNl,.cb,.emb (.goto 6)],some 0,true⟩⟩,⟨256,.other,false,some ⟨7,[.setEnt .internalNl,.cb],none,false⟩⟩,⟨256,.other,false,some ⟨8,[.setEnt .internalNl,.cb],none,false⟩⟩]⟩,⟨[5,6],none,[],[⟨256,.other,false,some ⟨1,[.setEnt .internalNl,.cb,.code],none,false⟩⟩,⟨256,.ws,false,some ⟨2,[.setEnt .internalNl,.cb],none,false⟩⟩,⟨256,.lf,false,some ⟨3,[.setEnt .internalNl,.cb],none,false⟩⟩,⟨256,.vt,false,some ⟨1,[.setEnt .internalNl,.cb,.code],none,false⟩⟩,⟨256,.ff,false,some ⟨4,[.setEnt .internalNl,.cb],none,false⟩⟩,⟨256,.cr,false,some ⟨5,[.setEnt .internalNl,.cb],none,false⟩⟩,⟨256,.cr,true,some ⟨6,[.setEnt .internalNl,.cb],none,false⟩⟩,⟨256,.other,false,some ⟨0,[.setEnt .internalNl,.cb,.emb (.goto 6)],some 0,true⟩⟩,⟨256,.other,false,some ⟨7,[.setEnt .internalNl,.cb],none,false⟩⟩,⟨256,.other,false,some ⟨8,[.setEnt .internalNl,.cb],none,false⟩⟩]⟩,⟨[10,14],none,[],[⟨256,.other,false,some ⟨22,[.code],none,false⟩⟩,⟨256,.ws,false,some ⟨23,[],none,false⟩⟩,⟨256,.lf,false,some ⟨24,[],none,false⟩⟩,⟨256,.vt,false,some ⟨22,[.code],none,false⟩⟩,⟨256,.ff,false,some ⟨25,[],none,false⟩⟩,⟨256,.cr,false,some ⟨26,[],none,false⟩⟩,⟨256,.cr,true,some ⟨27,[],none,false⟩⟩,⟨256,.other,false,some ⟨28,[.emb (.goto 6)],some 0,false⟩⟩,⟨256,.other,false,some ⟨29,[],none,false⟩⟩,⟨256,.other,false,some ⟨30,[],none,false⟩⟩]⟩,⟨[9,14],none,[],[⟨256,.other,false,some ⟨22,[.code],none,false⟩⟩,⟨256,.ws,false,some ⟨23,[],none,false⟩⟩,⟨256,.lf,false,some ⟨24,[],none,false⟩⟩,⟨256,.vt,false,some ⟨22,[.code],none,false⟩⟩,⟨256,.ff,false,some ⟨25,[],none,false⟩⟩,⟨256,.cr,false,some ⟨26,[],none,false⟩⟩,⟨256,.cr,true,some ⟨27,[],none,false⟩⟩,⟨256,.other,false,some ⟨28,[.emb (.goto 6)],some 0,false⟩⟩,⟨256,.other,false,some ⟨29,[],none,false⟩⟩,⟨256,.other,false,some ⟨30,[],none,false⟩⟩]⟩,⟨[6,14],none,[],[⟨256,.other,false,some ⟨22,[.setEnt .internalNl,.cb,.code],none,false⟩⟩,⟨256,.ws,false,some ⟨23,[.setEnt .internalNl,.cb],none,false⟩⟩,⟨256,.lf,false,some ⟨24,[.setEnt .internalNl,.cb],none,false⟩⟩,⟨256,.vt,false,some ⟨22,[.setEnt .internalNl,.cb,.code],none,false⟩⟩,⟨256,.ff,false,some ⟨25,[.setEnt .internalNl,.cb],none,false⟩⟩,⟨256,.cr,false,some ⟨26,[.setEnt .internalNl,.cb],none,false⟩⟩,⟨256,.cr,true,some ⟨27,[.setEnt .internalNl,.cb],none,false⟩⟩,⟨256,.other,false,some ⟨28,[.setEnt .internalNl,.cb,.emb (.goto 6)],some 0,false⟩⟩,⟨256,.other,false,some ⟨29,[.setEnt .internalNl,.cb],none,false⟩⟩,⟨256,.other,false,some ⟨30,[.setEnt .internalNl,.cb],none,false⟩⟩]⟩,⟨[7,14],none,[],[⟨256,.other,false,some ⟨22,[.setEnt .internalNl,.cb,.code],none,false⟩⟩,⟨256,.ws,false,some ⟨23,[.setEnt .internalNl,.cb],none,false⟩⟩,⟨256,.lf,false,some ⟨24,[.setEnt .internalNl,.cb],none,false⟩⟩,⟨256,.vt,false,some ⟨22,[.setEnt .internalNl,.cb,.code],none,false⟩⟩,⟨256,.ff,false,some ⟨25,[.setEnt .internalNl,.cb],none,false⟩⟩,⟨256,.cr,false,some ⟨26,[.setEnt .internalNl,.cb],none,false⟩⟩,⟨256,.cr,true,some ⟨27,[.setEnt .internalNl,.cb],none,false⟩⟩,⟨256,.other,false,some ⟨28,[.setEnt .internalNl,.cb,.emb (.goto 6)],some 0,false⟩⟩,⟨256,.other,false,some ⟨29,[.setEnt .internalNl,.cb],none,false⟩⟩,⟨256,.other,false,some ⟨30,[.setEnt .internalNl,.cb],none,false⟩⟩]⟩,⟨[4,14],none,[],[⟨256,.other,false,some ⟨22,[.code],none,false⟩⟩,⟨256,.ws,false,some ⟨23,[],none,false⟩⟩,⟨256,.lf,false,some ⟨31,[],none,false⟩⟩,⟨256,.vt,false,some ⟨22,[.code],none,false⟩⟩,⟨256,.ff,false,some ⟨25,[],none,false⟩⟩,⟨256,.cr,false,some ⟨26,[],none,false⟩⟩,⟨256,.cr,true,some ⟨27,[],none,false⟩⟩,⟨256,.other,false,some ⟨28,[.emb (.goto 6)],some 0,false⟩⟩,⟨256,.other,false,some ⟨29,[],none,false⟩⟩,⟨256,.other,false,some ⟨30,[],none,false⟩⟩]⟩,⟨[4,8,14],none,[],[⟨256,.other,false,some ⟨22,[.setEnt .internalNl,.cb,.code],none,false⟩⟩,⟨256,.ws,false,some ⟨23,[.setEnt .internalNl,.cb],none,false⟩⟩,⟨256,.lf,false,some ⟨31,[.setEnt .internalNl,.cb],none,false⟩⟩,⟨256,.vt,false,some ⟨22,[.setEnt .internalNl,.cb,.code],none,false⟩⟩,⟨256,.ff,false,some ⟨25,[.setEnt .internalNl,.cb],none,false⟩⟩,⟨256,.cr,false,some ⟨26,[.setEnt .internalNl,.cb],none,false⟩⟩,⟨256,.cr,true,some ⟨27,[.setEnt .internalNl,.cb],none,false⟩⟩,⟨256,.other,false,some ⟨28,[.setEnt .internalNl,.cb,.emb (.goto 6)],some 0,false⟩⟩,⟨256,.other,false,some ⟨29,[.setEnt .internalNl,.cb],none,false⟩⟩,⟨256,.other,false,some ⟨30,[.setEnt .internalNl,.cb],none,false⟩⟩]⟩,⟨[14,24],some 0,[],[⟨256,.other,false,some ⟨22,[.code],none,false⟩⟩,⟨256,.ws,false,some ⟨23,[],none,false⟩⟩,⟨256,.lf,false,some ⟨24,[],none,false⟩⟩,⟨256,.vt,false,some ⟨22,[.code],none,false⟩⟩,⟨256,.ff,false,some ⟨25,[],none,false⟩⟩,⟨256,.cr,false,some ⟨26,[],none,false⟩⟩,⟨256,.cr,true,some ⟨27,[],none,false⟩⟩,⟨256,.other,false,some ⟨28,[.emb (.goto 6)],some 0,false⟩⟩,⟨256,.other,false,some ⟨29,[],none,false⟩⟩,⟨256,.other,false,some ⟨30,[],none,false⟩⟩]⟩,⟨[0,13,14],none,[],[⟨256,.other,false,some ⟨32,[.code],none,false⟩⟩,⟨256,.ws,false,some ⟨33,[],none,false⟩⟩,⟨256,.lf,false,some ⟨34,[],none,false⟩⟩,⟨256,.vt,false,some ⟨32,[.code],none,false⟩⟩,⟨256,.ff,false,some ⟨35,[],none,false⟩⟩,⟨256,.cr,false,some ⟨36,[],none,false⟩⟩,⟨256,.cr,true,some ⟨37,[],none,false⟩⟩,⟨256,.other,false,some ⟨38,[.emb (.goto 6)],some 0,false⟩⟩,⟨256,.other,false,some ⟨39,[],none,false⟩⟩,⟨256,.other,false,some ⟨40,[.code],none,false⟩⟩,⟨256,.other,false,some ⟨41,[],none,false⟩⟩]⟩,⟨[1,10,15,22],none,[],[⟨256,.other,false,some ⟨42,[.code],none,false⟩⟩,⟨256,.ws,false,some ⟨43,[],none,false⟩⟩,⟨256,.lf,false,some ⟨44,[],none,false⟩⟩,⟨256,.vt,false,some ⟨42,[.code],none,false⟩⟩,⟨256,.ff,false,some ⟨45,[],none,false⟩⟩,⟨256,.cr,false,some ⟨46,[],none,false⟩⟩,⟨256,.cr,true,some ⟨47,[],none,false⟩⟩,⟨256,.other,false,some ⟨48,[.emb (.goto 6)],some 0,false⟩⟩,⟨256,.other,false,some ⟨49,[],none,false⟩⟩,⟨256,.other,false,some ⟨50,[],none,false⟩⟩,⟨256,.other,false,some ⟨51,[.code],none,false⟩⟩]⟩,⟨[11,14],none,[],[⟨256,.other,false,some ⟨52,[.code],none,false⟩⟩,⟨256,.ws,false,some ⟨53,[.code],none,false⟩⟩,⟨256,.lf,false,some ⟨24,[],none,false⟩⟩,⟨256,.vt,false,some ⟨52,[.code],none,false⟩⟩,⟨256,.ff,false,some ⟨25,[],none,false⟩⟩,⟨256,.cr,false,some ⟨26,[],none,false⟩⟩,⟨256,.cr,true,some ⟨27,[],none,false⟩⟩,⟨256,.other,false,some ⟨54,[.code,.emb (.goto 6)],some 0,false⟩⟩,⟨256,.other,false,some ⟨55,[.code],none,false⟩⟩,⟨256,.other,false,some ⟨56,[.code],none,false⟩⟩]⟩,⟨[12],none,[],[⟨256,.other,false,some ⟨1,[.code],none,false⟩⟩,⟨256,.ws,false,some ⟨2,[],none,false⟩⟩,⟨256,.lf,false,some ⟨3,[],none,false⟩⟩,⟨256,.vt,false,some ⟨1,[.code],none,false⟩⟩,⟨256,.ff,false,some ⟨4,[],none,false⟩⟩,⟨256,.cr,false,some ⟨5,[],none,false⟩⟩,⟨256,.cr,true,some ⟨6,[],none,false⟩⟩,⟨256,.other,false,some ⟨0,[.emb (.goto 6)],some 0,true⟩⟩,⟨256,.other,false,some ⟨7,[],none,false⟩⟩,⟨256,.other,false,some ⟨8,[],none,false⟩⟩]⟩,⟨[10,21],none,[],[⟨256,.other,false,some ⟨22,[.code],none,false⟩⟩,⟨256,.ws,false,some ⟨23,[],none,false⟩⟩,⟨256,.lf,false,some ⟨24,[],none,false⟩⟩,⟨256,.vt,false,some ⟨22,[.code],none,false⟩⟩,⟨256,.ff,false,some ⟨25,[],none,false⟩⟩,⟨256,.cr,false,some ⟨26,[],none,false⟩⟩,⟨256,.cr,true,some ⟨27,[],none,false⟩⟩,⟨256,.other,false,some ⟨28,[.emb (.goto 6)],some 0,false⟩⟩,⟨256,.other,false,some ⟨29,[],none,false⟩⟩,⟨256,.other,false,some ⟨30,[],none,false⟩⟩]⟩,⟨[9,21],none,[],[⟨256,.other,false,some ⟨22,[.code],none,false⟩⟩,⟨256,.ws,false,some ⟨23,[],none,false⟩⟩,⟨256,.lf,false,some ⟨24,[],none,false⟩⟩,⟨256,.vt,false,some ⟨22,[.code],none,false⟩⟩,⟨256,.ff,false,some ⟨25,[],none,false⟩⟩,⟨256,.cr,false,some ⟨26,[],none,false⟩⟩,⟨256,.cr,true,some ⟨27,[],none,false⟩⟩,⟨256,.other,false,some ⟨28,[.emb (.goto 6)],some 0,false⟩⟩,⟨256,.other,false,some ⟨29,[],none,false⟩⟩,⟨256,.other,false,some ⟨30,[],none,false⟩⟩]⟩,⟨[6,21],none,[],[⟨256,.other,false,some ⟨22,[.setEnt .internalNl,.cb,.code],none,false⟩⟩,⟨256,.ws,false,some ⟨23,[.setEnt .internalNl,.cb],none,false⟩⟩,⟨256,.lf,false,some ⟨24,[.setEnt .internalNl,.cb],none,false⟩⟩,⟨256,.vt,false,some ⟨22,[.setEnt .internalNl,.cb,.code],none,false⟩⟩,⟨256,.ff,false,some ⟨25,[.setEnt .internalNl,.cb],none,false⟩⟩,⟨256,.cr,false,some ⟨26,[.setEnt .internalNl,.cb],none,false⟩⟩,⟨256,.cr,true,some ⟨27,[.setEnt .internalNl,.cb],none,false⟩⟩,⟨256,.other,false,some ⟨28,[.setEnt .internalNl,.cb,.emb (.goto 6)],some 0,false⟩⟩,⟨256,.other,false,some ⟨29,[.setEnt .internalNl,.cb],none,false⟩⟩,⟨256,.other,false,some ⟨30,[.setEnt .internalNl,.cb],none,false⟩⟩]⟩,⟨[7,21],none,[],[⟨256,.other,false,some ⟨22,[.setEnt .internalNl,.cb,.code],none,false⟩⟩,⟨256,.ws,false,some ⟨23,[.setEnt .internalNl,.cb],none,false⟩⟩,⟨256,.lf,false,some ⟨24,[.setEnt .internalNl,.cb],none,false⟩⟩,⟨256,.vt,false,some ⟨22,[.setEnt .internalNl,.cb,.code],none,false⟩⟩,⟨256,.ff,false,some ⟨25,[.setEnt .internalNl,.cb],none,false⟩⟩,⟨256,.cr,false,some ⟨26,[.setEnt .internalNl,.cb],none,false⟩⟩,⟨256,.cr,true,some ⟨27,[.setEnt .internalNl,.cb],none,false⟩⟩,⟨256,.other,false,some ⟨28,[.setEnt .internalNl,.cb,.emb (.goto 6)],some 0,false⟩⟩,⟨256,.other,false,some ⟨29,[.setEnt .internalNl,.cb],none,false⟩⟩,⟨256,.other,false,some ⟨30,[.setEnt .internalNl,.cb],none,false⟩⟩]⟩,⟨[4,21],none,[],[⟨256,.other,false,some ⟨22,[.code],none,false⟩⟩,⟨256,.ws,false,some ⟨23,[],none,false⟩⟩,⟨256,.lf,false,some ⟨31,[],none,false⟩⟩,⟨256,.vt,false,some ⟨22,[.code],none,false⟩⟩,⟨256,.ff,false,some ⟨25,[],none,false⟩⟩,⟨256,.cr,false,some ⟨26,[],none,false⟩⟩,⟨256,.cr,true,some ⟨27,[],none,false⟩⟩,⟨256,.other,false,some ⟨28,[.emb (.goto 6)],some 0,false⟩⟩,⟨256,.other,false,some ⟨29,[],none,false⟩⟩,⟨256,.other,false,some ⟨30,[],none,false⟩⟩]⟩,⟨[4,8,21],none,[],[⟨256,.other,false,some ⟨22,[.setEnt .internalNl,.cb,.code],none,false⟩⟩,⟨256,.ws,false,some ⟨23,[.setEnt .internalNl,.cb],none,false⟩⟩,⟨256,.lf,false,some ⟨31,[.setEnt .internalNl,.cb],none,false⟩⟩,⟨256,.vt,false,some ⟨22,[.setEnt .internalNl,.cb,.code],none,false⟩⟩,⟨256,.ff,false,some ⟨25,[.setEnt .internalNl,.cb],none,false⟩⟩,⟨256,.cr,false,some ⟨26,[.setEnt .internalNl,.cb],none,false⟩⟩,⟨256,.cr,true,some ⟨27,[.setEnt .internalNl,.cb],none,false⟩⟩,⟨256,.other,false,some ⟨28,[.setEnt .internalNl,.cb,.emb (.goto 6)],some 0,false⟩⟩,⟨256,.other,false,some ⟨29,[.setEnt .internalNl,.cb],none,false⟩⟩,⟨256,.other,false,some ⟨30,[.setEnt .internalNl,.cb],none,false⟩⟩]⟩,⟨[21,24],some 0,[],[⟨256,.other,false,some ⟨22,[.code],none,false⟩⟩,⟨256,.ws,false,some ⟨23,[],none,false⟩⟩,⟨256,.lf,false,some ⟨24,[],none,false⟩⟩,⟨256,.vt,false,some ⟨22,[.code],none,false⟩⟩,⟨256,.ff,false,some ⟨25,[],none,false⟩⟩,⟨256,.cr,false,some ⟨26,[],none,false⟩⟩,⟨256,.cr,true,some ⟨27,[],none,false⟩⟩,⟨256,.other,false,some ⟨28,[.emb (.goto 6)],some 0,false⟩⟩,⟨256,.other,false,some ⟨29,[],none,false⟩⟩,⟨256,.other,false,some ⟨30,[],none,false⟩⟩]⟩,⟨[0,13,21],none,[],[⟨256,.other,false,some ⟨32,[.code],none,false⟩⟩,⟨256,.ws,false,some ⟨33,[],none,false⟩⟩,⟨256,.lf,false,some ⟨34,[],none,false⟩⟩,⟨256,.vt,false,some ⟨32,[.code],none,false⟩⟩,⟨256,.ff,false,some ⟨35,[],none,false⟩⟩,⟨256,.cr,false,some ⟨36,[],none,false⟩⟩,⟨256,.cr,true,some ⟨37,[],none,false⟩⟩,⟨256,.other,false,some ⟨38,[.emb (.goto 6)],some 0,false⟩⟩,⟨256,.other,false,some ⟨39,[],none,false⟩⟩,⟨256,.other,false,some ⟨40,[.code],none,false⟩⟩,⟨256,.other,false,some ⟨41,[],none,false⟩⟩]⟩,⟨[11,21],none,[],[⟨256,.other,false,some ⟨52,[.code],none,false⟩⟩,⟨256,.ws,false,some ⟨53,[.code],none,false⟩⟩,⟨256,.lf,false,some ⟨24,[],none,false⟩⟩,⟨256,.vt,false,some ⟨52,[.code],none,false⟩⟩,⟨256,.ff,false,some ⟨25,[],none,false⟩⟩,⟨256,.cr,false,some ⟨26,[],none,false⟩⟩,⟨256,.cr,true,some ⟨27,[],none,false⟩⟩,⟨256,.other,false,some ⟨54,[.code,.emb (.goto 6)],some 0,false⟩⟩,⟨256,.other,false,some ⟨55,[.code],none,false⟩⟩,⟨256,.other,false,some ⟨56,[.code],none,false⟩⟩]⟩,⟨[5,6,21],none,[],[⟨256,.other,false,some ⟨22,[.setEnt .internalNl,.cb,.code],none,false⟩⟩,⟨256,.ws,false,some ⟨23,[.setEnt .internalNl,.cb],none,false⟩⟩,⟨256,.lf,false,some ⟨24,[.setEnt .internalNl,.cb],none,false⟩⟩,⟨256,.vt,false,some ⟨22,[.setEnt .internalNl,.cb,.code],none,false⟩⟩,⟨256,.ff,false,some ⟨25,[.setEnt .internalNl,.cb],none,false⟩⟩,⟨256,.cr,false,some ⟨26,[.setEnt .internalNl,.cb],none,false⟩⟩,⟨256,.cr,true,some ⟨27,[.setEnt .internalNl,.cb],none,false⟩⟩,⟨256,.other,false,some ⟨28,[.setEnt .internalNl,.cb,.emb (.goto 6)],some 0,false⟩⟩,⟨256,.other,false,some ⟨29,[.setEnt .internalNl,.cb],none,false⟩⟩,⟨256,.other,false,some ⟨30,[.setEnt .internalNl,.cb],none,false⟩⟩]⟩,⟨[10,14,21],none,[],[⟨256,.other,false,some ⟨22,[.code],none,false⟩⟩,⟨256,.ws,false,some ⟨23,[],none,false⟩⟩,⟨256,.lf,false,some ⟨24,[],none,false⟩⟩,⟨256,.vt,false,some ⟨22,[.code],none,false⟩⟩,⟨256,.ff,false,some ⟨25,[],none,false⟩⟩,⟨256,.cr,false,some ⟨26,[],none,false⟩⟩,⟨256,.cr,true,some ⟨27,[],none,false⟩⟩,⟨256,.other,false,some ⟨28,[.emb (.goto 6)],some 0,false⟩⟩,⟨256,.other,false,some ⟨29,[],none,false⟩⟩,⟨256,.other,false,some ⟨30,[],none,false⟩⟩]⟩,⟨[9,14,21],none,[],[⟨256,.other,false,some ⟨22,[.code],none,false⟩⟩,⟨256,.ws,false,some ⟨23,[],none,false⟩⟩,⟨256,.lf,false,some ⟨24,[],none,false⟩⟩,⟨256,.vt,false,some ⟨22,[.code],none,false⟩⟩,⟨256,.ff,false,some ⟨25,[],none,false⟩⟩,⟨256,.cr,false,some ⟨26,[],none,false⟩⟩,⟨256,.cr,true,some ⟨27,[],none,false⟩⟩,⟨256,.other,false,some ⟨28,[.emb (.goto 6)],some 0,false⟩⟩,⟨256,.other,false,some ⟨29,[],none,false⟩⟩,⟨256,.other,false,some ⟨30,[],none,false⟩⟩]⟩,⟨[6,14,21],none,[],[⟨256,.other,false,some ⟨22,[.setEnt .internalNl,.cb,.code],none,false⟩⟩,⟨256,.ws,false,some ⟨23,[.setEnt .internalNl,.cb],none,false⟩⟩,⟨256,.lf,false,some ⟨24,[.setEnt .internalNl,.cb],none,false⟩⟩,⟨256,.vt,false,some ⟨22,[.setEnt .internalNl,.cb,.code],none,false⟩⟩,⟨256,.ff,false,some ⟨25,[.setEnt .internalNl,.cb],none,false⟩⟩,⟨256,.cr,false,some ⟨26,[.setEnt .internalNl,.cb],none,false⟩⟩,⟨256,.cr,true,some ⟨27,[.setEnt .internalNl,.cb],none,false⟩⟩,⟨256,.other,false,some ⟨28,[.setEnt .internalNl,.cb,.emb (.goto 6)],some 0,false⟩⟩,⟨256,.other,false,some ⟨29,[.setEnt .internalNl,.cb],none,false⟩⟩,⟨256,.other,false,some ⟨30,[.setEnt .internalNl,.cb],none,false⟩⟩]⟩,⟨[7,14,21],none,[],[⟨256,.other,false,some ⟨22,[.setEnt .internalNl,.cb,.code],none,false⟩⟩,⟨256,.ws,false,some ⟨23,[.setEnt .internalNl,.cb],none,false⟩⟩,⟨256,.lf,false,some ⟨24,[.setEnt .internalNl,.cb],none,false⟩⟩,⟨256,.vt,false,some ⟨22,[.setEnt .internalNl,.cb,.code],none,false⟩⟩,⟨256,.ff,false,some ⟨25,[.setEnt .internalNl,.cb],none,false⟩⟩,⟨256,.cr,false,some ⟨26,[.setEnt .internalNl,.cb],none,false⟩⟩,⟨256,.cr,true,some ⟨27,[.setEnt .internalNl,.cb],none,false⟩⟩,⟨256,.other,false,some ⟨28,[.setEnt .internalNl,.cb,.emb (.goto 6)],some 0,false⟩⟩,⟨256,.other,false,some ⟨29,[.setEnt .internalNl,.cb],none,false⟩⟩,⟨256,.other,false,some ⟨30,[.setEnt .internalNl,.cb],none,false⟩⟩]⟩,⟨[4,14,21],none,[],[⟨256,.other,false,some ⟨22,[.code],none,false⟩⟩,⟨256,.ws,false,some ⟨23,[],none,false⟩⟩,⟨256,.lf,false,some ⟨31,[],none,false⟩⟩,⟨256,.vt,false,some ⟨22,[.code],none,false⟩⟩,⟨256,.ff,false,some ⟨25,[],none,false⟩⟩,⟨256,.cr,false,some ⟨26,[],none,false⟩⟩,⟨256,.cr,true,some ⟨27,[],none,false⟩⟩,⟨256,.other,false,some ⟨28,[.emb (.goto 6)],some 0,false⟩⟩,⟨256,.other,false,some ⟨29,[],none,false⟩⟩,⟨256,.other,false,some ⟨30,[],none,false⟩⟩]⟩,⟨[4,8,14,21],none,[],[⟨256,.other,false,some ⟨22,[.setEnt .internalNl,.cb,.code],none,false⟩⟩,⟨256,.ws,false,some ⟨23,[.setEnt .internalNl,.cb],none,false⟩⟩,⟨256,.lf,false,some ⟨31,[.setEnt .internalNl,.cb],none,false⟩⟩,⟨256,.vt,false,some ⟨22,[.setEnt .internalNl,.cb,.code],none,false⟩⟩,⟨256,.ff,false,some ⟨25,[.setEnt .internalNl,.cb],none,false⟩⟩,⟨256,.cr,false,some ⟨26,[.setEnt .internalNl,.cb],none,false⟩⟩,⟨256,.cr,true,some ⟨27,[.setEnt .internalNl,.cb],none,false⟩⟩,⟨256,.other,false,some ⟨28,[.setEnt .internalNl,.cb,.emb (.goto 6)],some 0,false⟩⟩,⟨256,.other,false,some ⟨29,[.setEnt .internalNl,.cb],none,false⟩⟩,⟨256,.other,false,some ⟨30,[.setEnt .internalNl,.cb],none,false⟩⟩]⟩,⟨[14,21,24],some 0,[],[⟨256,.other,false,some ⟨22,[.code],none,false⟩⟩,⟨256,.ws,false,some ⟨23,[],none,false⟩⟩,⟨256,.lf,false,some ⟨24,[],none,false⟩⟩,⟨256,.vt,false,some ⟨22,[.code],none,false⟩⟩,⟨256,.ff,false,some ⟨25,[],none,false⟩⟩,⟨256,.cr,false,some ⟨26,[],none,false⟩⟩,⟨256,.cr,true,some ⟨27,[],none,false⟩⟩,⟨256,.other,false,some ⟨28,[.emb (.goto 6)],some 0,false⟩⟩,⟨256,.other,false,some ⟨29,[],none,false⟩⟩,⟨256,.other,false,some ⟨30,[],none,false⟩⟩]⟩,⟨[0,13,14,21],none,[],[⟨256,.other,false,some ⟨32,[.code],none,false⟩⟩,⟨256,.ws,false,some ⟨33,[],none,false⟩⟩,⟨256,.lf,false,some ⟨34,[],none,false⟩⟩,⟨256,.vt,false,some ⟨32,[.code],none,false⟩⟩,⟨256,.ff,false,some ⟨35,[],none,false⟩⟩,⟨256,.cr,false,some ⟨36,[],none,false⟩⟩,⟨256,.cr,true,some ⟨37,[],none,false⟩⟩,⟨256,.other,false,some ⟨38,[.emb (.goto 6)],some 0,false⟩⟩,⟨256,.other,false,some ⟨39,[],none,false⟩⟩,⟨256,.other,false,some ⟨40,[.code],none,false⟩⟩,⟨256,.other,false,some ⟨41,[],none,false⟩⟩]⟩,⟨[1,10,15,21,22],none,[],[⟨256,.other,false,some ⟨57,[.code],none,false⟩⟩,⟨256,.ws,false,some ⟨58,[],none,false⟩⟩,⟨256,.lf,false,some ⟨59,[],none,false⟩⟩,⟨256,.vt,false,some ⟨57,[.code],none,false⟩⟩,⟨256,.ff,false,some ⟨60,[],none,false⟩⟩,⟨256,.cr,false,some ⟨61,[],none,false⟩⟩,⟨256,.cr,true,some ⟨62,[],none,false⟩⟩,⟨256,.other,false,some ⟨63,[.emb (.goto 6)],some 0,false⟩⟩,⟨256,.other,false,some ⟨64,[],none,false⟩⟩,⟨256,.other,false,some ⟨65,[],none,false⟩⟩,⟨256,.other,false,some ⟨66,[.code],none,false⟩⟩]⟩,⟨[11,14,21],none,[],[⟨256,.other,false,some ⟨52,[.code],none,false⟩⟩,⟨256,.ws,false,some ⟨53,[.code],none,false⟩⟩,⟨256,.lf,false,some ⟨24,[],none,false⟩⟩,⟨256,.vt,false,some ⟨52,[.code],none,false⟩⟩,⟨256,.ff,false,some ⟨25,[],none,false⟩⟩,⟨256,.cr,false,some ⟨26,[],none,false⟩⟩,⟨256,.cr,true,some ⟨27,[],none,false⟩⟩,⟨256,.other,false,some ⟨54,[.code,.emb (.goto 6)],some 0,false⟩⟩,⟨256,.other,false,some ⟨55,[.code],none,false⟩⟩,⟨256,.other,false,some ⟨56,[.code],none,false⟩⟩]⟩,⟨[10,16],none,[],[⟨256,.other,false,some ⟨22,[.code],none,false⟩⟩,⟨256,.ws,false,some ⟨23,[],none,false⟩⟩,⟨256,.lf,false,some ⟨24,[],none,false⟩⟩,⟨256,.vt,false,some ⟨22,[.code],none,false⟩⟩,⟨256,.ff,false,some ⟨25,[],none,false⟩⟩,⟨256,.cr,false,some ⟨26,[],none,false⟩⟩,⟨256,.cr,true,some ⟨27,[],none,false⟩⟩,⟨256,.other,false,some ⟨28,[.emb (.goto 6)],some 0,false⟩⟩,⟨256,.other,false,some ⟨29,[],none,false⟩⟩,⟨256,.other,false,some ⟨30,[],none,false⟩⟩]⟩,⟨[9,16],none,[],[⟨256,.other,false,some ⟨22,[.code],none,false⟩⟩,⟨256,.ws,false,some ⟨23,[],none,false⟩⟩,⟨256,.lf,false,some ⟨24,[],none,false⟩⟩,⟨256,.vt,false,some ⟨22,[.code],none,false⟩⟩,⟨256,.ff,false,some ⟨25,[],none,false⟩⟩,⟨256,.cr,false,some ⟨26,[],none,false⟩⟩,⟨256,.cr,true,some ⟨27,[],none,false⟩⟩,⟨256,.other,false,some ⟨28,[.emb (.goto 6)],some 0,false⟩⟩,⟨256,.other,false,some ⟨29,[],none,false⟩⟩,⟨256,.other,false,some ⟨30,[],none,false⟩⟩]⟩,⟨[6,16],none,[],[⟨256,.other,false,some ⟨22,[.setEnt .internalNl,.cb,.code],none,false⟩⟩,⟨256,.ws,false,some ⟨23,[.setEnt .internalNl,.cb],none,false⟩⟩,⟨256,.lf,false,some ⟨24,[.setEnt .internalNl,.cb],none,false⟩⟩,⟨256,.vt,false,some ⟨22,[.setEnt .internalNl,.cb,.code],none,false⟩⟩,⟨256,.ff,false,some ⟨25,[.setEnt .internalNl,.cb],none,false⟩⟩,⟨256,.cr,false,some ⟨26,[.setEnt .internalNl,.cb],none,false⟩⟩,⟨256,.cr,true,some ⟨27,[.setEnt .internalNl,.cb],none,false⟩⟩,⟨256,.other,false,some ⟨28,[.setEnt .internalNl,.cb,.emb (.goto 6)],some 0,false⟩⟩,⟨256,.other,false,some ⟨29,[.setEnt .internalNl,.cb],none,false⟩⟩,⟨256,.other,false,some ⟨30,[.setEnt .internalNl,.cb],none,false⟩⟩]⟩,⟨[7,16],none,[],[⟨256,.other,false,some ⟨22,[.setEnt .internalNl,.cb,.code],none,false⟩⟩,⟨256,.ws,false,some ⟨23,[.setEnt .internalNl,.cb],none,false⟩⟩,⟨256,.lf,false,some ⟨24,[.setEnt .internalNl,.cb],none,false⟩⟩,⟨256,.vt,false,some ⟨22,[.setEnt .internalNl,.cb,.code],none,false⟩⟩,⟨256,.ff,false,some ⟨25,[.setEnt .internalNl,.cb],none,false⟩⟩,⟨256,.cr,false,some ⟨26,[.setEnt .internalNl,.cb],none,false⟩⟩,⟨256,.cr,true,some ⟨27,[.setEnt .internalNl,.cb],none,false⟩⟩,⟨256,.other,false,some ⟨28,[.setEnt .internalNl,.cb,.emb (.goto 6)],some 0,false⟩⟩,⟨256,.other,false,some ⟨29,[.setEnt .internalNl,.cb],none,false⟩⟩,⟨256,.other,false,some ⟨30,[.setEnt .internalNl,.cb],none,false⟩⟩]⟩,⟨[4,16],none,[],[⟨256,.other,false,some ⟨22,[.code],none,false⟩⟩,⟨256,.ws,false,some ⟨23,[],none,false⟩⟩,⟨256,.lf,false,some ⟨31,[],none,false⟩⟩,⟨256,.vt,false,some ⟨22,[.code],none,false⟩⟩,⟨256,.ff,false,some ⟨25,[],none,false⟩⟩,⟨256,.cr,false,some ⟨26,[],none,false⟩⟩,⟨256,.cr,true,some ⟨27,[],none,false⟩⟩,⟨256,.other,false,some ⟨28,[.emb (.goto 6)],some 0,false⟩⟩,⟨256,.other,false,some ⟨29,[],none,false⟩⟩,⟨256,.other,false,some ⟨30,[],none,false⟩⟩]⟩,⟨[4,8,16],none,[],[⟨256,.other,false,some ⟨22,[.setEnt .internalNl,.cb,.code],none,false⟩⟩,⟨256,.ws,false,some ⟨23,[.setEnt .internalNl,.cb],none,false⟩⟩,⟨256,.lf,false,some ⟨31,[.setEnt .internalNl,.cb],none,false⟩⟩,⟨256,.vt,false,some ⟨22,[.setEnt .internalNl,.cb,.code],none,false⟩⟩,⟨256,.ff,false,some ⟨25,[.setEnt .internalNl,.cb],none,false⟩⟩,⟨256,.cr,false,some ⟨26,[.setEnt .internalNl,.cb],none,false⟩⟩,⟨256,.cr,true,some ⟨27,[.setEnt .internalNl,.cb],none,false⟩⟩,⟨256,.other,false,some ⟨28,[.setEnt .internalNl,.cb,.emb (.goto 6)],some 0,false⟩⟩,⟨256,.other,false,some ⟨29,[.setEnt .internalNl,.cb],none,false⟩⟩,⟨256,.other,false,some ⟨30,[.setEnt .internalNl,.cb],none,false⟩⟩]⟩,⟨[16,24],some 0,[],[⟨256,.other,false,some ⟨22,[.code],none,false⟩⟩,⟨256,.ws,false,some ⟨23,[],none,false⟩⟩,⟨256,.lf,false,some ⟨24,[],none,false⟩⟩,⟨256,.vt,false,some ⟨22,[.code],none,false⟩⟩,⟨256,.ff,false,some ⟨25,[],none,false⟩⟩,⟨256,.cr,false,some ⟨26,[],none,false⟩⟩,⟨256,.cr,true,some ⟨27,[],none,false⟩⟩,⟨256,.other,false,some ⟨28,[.emb (.goto 6)],some 0,false⟩⟩,⟨256,.other,false,some ⟨29,[],none,false⟩⟩,⟨256,.other,false,some ⟨30,[],none,false⟩⟩]⟩,⟨[0,13,16],none,[],[⟨256,.other,false,some ⟨32,[.code],none,false⟩⟩,⟨256,.ws,false,some ⟨33,[],none,false⟩⟩,⟨256,.lf,false,some ⟨34,[],none,false⟩⟩,⟨256,.vt,false,some ⟨32,[.code],none,false⟩⟩,⟨256,.ff,false,some ⟨35,[],none,false⟩⟩,⟨256,.cr,false,some ⟨36,[],none,false⟩⟩,⟨256,.cr,true,some ⟨37,[],none,false⟩⟩,⟨256,.other,false,some ⟨38,[.emb (.goto 6)],some 0,false⟩⟩,⟨256,.other,false,some ⟨39,[],none,false⟩⟩,⟨256,.other,false,some ⟨40,[.code],none,false⟩⟩,⟨256,.other,false,some ⟨41,[],none,false⟩⟩]⟩,⟨[11,16],none,[],[⟨256,.other,false,some ⟨52,[.code],none,false⟩⟩,⟨256,.ws,false,some ⟨53,[.code],none,false⟩⟩,⟨256,.lf,false,some ⟨24,[],none,false⟩⟩,⟨256,.vt,false,some ⟨52,[.code],none,false⟩⟩,⟨256,.ff,false,some ⟨25,[],none,false⟩⟩,⟨256,.cr,false,some ⟨26,[],none,false⟩⟩,⟨256,.cr,true,some ⟨27,[],none,false⟩⟩,⟨256,.other,false,some ⟨54,[.code,.emb (.goto 6)],some 0,false⟩⟩,⟨256,.other,false,some ⟨55,[.code],none,false⟩⟩,⟨256,.other,false,some ⟨56,[.code],none,false⟩⟩]⟩,⟨[2,10,17,23],none,[],[⟨256,.other,false,some ⟨67,[.code],none,false⟩⟩,⟨256,.ws,false,some ⟨68,[],none,false⟩⟩,⟨256,.lf,false,some ⟨69,[],none,false⟩⟩,⟨256,.vt,false,some ⟨67,[.code],none,false⟩⟩,⟨256,.ff,false,some ⟨70,[],none,false⟩⟩,⟨256,.cr,false,some ⟨71,[],none,false⟩⟩,⟨256,.cr,true,some ⟨72,[],none,false⟩⟩,⟨256,.other,false,some ⟨73,[.emb (.goto 6)],some 0,false⟩⟩,⟨256,.other,false,some ⟨74,[],none,false⟩⟩,⟨256,.other,false,some ⟨75,[],none,false⟩⟩,⟨256,.other,false,some ⟨76,[.emb (.sawCall 3 5),.code],none,false⟩⟩]⟩,⟨[10,12,21],none,[],[⟨256,.other,false,some ⟨22,[.code],none,false⟩⟩,⟨256,.ws,false,some ⟨23,[],none,false⟩⟩,⟨256,.lf,false,some ⟨24,[],none,false⟩⟩,⟨256,.vt,false,some ⟨22,[.code],none,false⟩⟩,⟨256,.ff,false,some ⟨25,[],none,false⟩⟩,⟨256,.cr,false,some ⟨26,[],none,false⟩⟩,⟨256,.cr,true,some ⟨27,[],none,false⟩⟩,⟨256,.other,false,some ⟨28,[.emb (.goto 6)],some 0,false⟩⟩,⟨256,.other,false,some ⟨29,[],none,false⟩⟩,⟨256,.other,false,some ⟨30,[],none,false⟩⟩]⟩,⟨[9,12,21],none,[],[⟨256,.other,false,some ⟨22,[.code],none,false⟩⟩,⟨256,.ws,false,some ⟨23,[],none,false⟩⟩,⟨256,.lf,false,some ⟨24,[],none,false⟩⟩,⟨256,.vt,false,some ⟨22,[.code],none,false⟩⟩,⟨256,.ff,false,some ⟨25,[],none,false⟩⟩,⟨256,.cr,false,some ⟨26,[],none,false⟩⟩,⟨256,.cr,true,some ⟨27,[],none,false⟩⟩,⟨256,.other,false,some ⟨28,[.emb (.goto 6)],some 0,false⟩⟩,⟨256,.other,false,some ⟨29,[],none,false⟩⟩,⟨256,.other,false,some ⟨30,[],none,false⟩⟩]⟩,⟨[12,21,24],some 0,[],[⟨256,.other,false,some ⟨22,[.code],none,false⟩⟩,⟨256,.ws,false,some ⟨23,[],none,false⟩⟩,⟨256,.lf,false,some ⟨24,[],none,false⟩⟩,⟨256,.vt,false,some ⟨22,[.code],none,false⟩⟩,⟨256,.ff,false,some ⟨25,[],none,false⟩⟩,⟨256,.cr,false,some ⟨26,[],none,false⟩⟩,⟨256,.cr,true,some ⟨27,[],none,false⟩⟩,⟨256,.other,false,some ⟨28,[.emb (.goto 6)],some 0,false⟩⟩,⟨256,.other,false,some ⟨29,[],none,false⟩⟩,⟨256,.other,false,some ⟨30,[],none,false⟩⟩]⟩,⟨[0,12,13,21],none,[],[⟨256,.other,false,some ⟨32,[.code],none,false⟩⟩,⟨256,.ws,false,some ⟨33,[],none,false⟩⟩,⟨256,.lf,false,some ⟨34,[],none,false⟩⟩,⟨256,.vt,false,some ⟨32,[.code],none,false⟩⟩,⟨256,.ff,false,some ⟨35,[],none,false⟩⟩,⟨256,.cr,false,some ⟨36,[],none,false⟩⟩,⟨256,.cr,true,some ⟨37,[],none,false⟩⟩,⟨256,.other,false,some ⟨38,[.emb (.goto 6)],some 0,false⟩⟩,⟨256,.other,false,some ⟨39,[],none,false⟩⟩,⟨256,.other,false,some ⟨40,[.code],none,false⟩⟩,⟨256,.other,false,some ⟨41,[],none,false⟩⟩]⟩,⟨[11,12,21],none,[],[⟨256,.other,false,some ⟨52,[.code],none,false⟩⟩,⟨256,.ws,false,some ⟨53,[.code],none,false⟩⟩,⟨256,.lf,false,some ⟨24,[],none,false⟩⟩,⟨256,.vt,false,some ⟨52,[.code],none,false⟩⟩,⟨256,.ff,false,some ⟨25,[],none,false⟩⟩,⟨256,.cr,false,some ⟨26,[],none,false⟩⟩,⟨256,.cr,true,some ⟨27,[],none,false⟩⟩,⟨256,.other,false,some ⟨54,[.code,.emb (.goto 6)],some 0,false⟩⟩,⟨256,.other,false,some ⟨55,[.code],none,false⟩⟩,⟨256,.other,false,some ⟨56,[.code],none,false⟩⟩]⟩,⟨[10,16,21],none,[],[⟨256,.other,false,some ⟨22,[.code],none,false⟩⟩,⟨256,.ws,false,some ⟨23,[],none,false⟩⟩,⟨256,.lf,false,some ⟨24,[],none,false⟩⟩,⟨256,.vt,false,some ⟨22,[.code],none,false⟩⟩,⟨256,.ff,false,some ⟨25,[],none,false⟩⟩,⟨256,.cr,false,some ⟨26,[],none,false⟩⟩,⟨256,.cr,true,some ⟨27,[],none,false⟩⟩,⟨256,.other,false,some ⟨28,[.emb (.goto 6)],some 0,false⟩⟩,⟨256,.other,false,some ⟨29,[],none,false⟩⟩,⟨256,.other,false,some ⟨30,[],none,false⟩⟩]⟩,⟨[9,16,21],none,[],[⟨256,.other,false,some ⟨22,[.code],none,false⟩⟩,⟨256,.ws,false,some ⟨23,[],none,false⟩⟩,⟨256,.lf,false,some ⟨24,[],none,false⟩⟩,⟨256,.vt,false,some ⟨22,[.code],none,false⟩⟩,⟨256,.ff,false,some ⟨25,[],none,false⟩⟩,⟨256,.cr,false,some ⟨26,[],none,false⟩⟩,⟨256,.cr,true,some ⟨27,[],none,false⟩⟩,⟨256,.other,false,some ⟨28,[.emb (.goto 6)],some 0,false⟩⟩,⟨256,.other,false,some ⟨29,[],none,false⟩⟩,⟨256,.other,false,some ⟨30,[],none,false⟩⟩]⟩,⟨[6,16,21],none,[],[⟨256,.other,false,some ⟨22,[.setEnt .internalNl,.cb,.code],none,false⟩⟩,⟨256,.ws,false,some ⟨23,[.setEnt .internalNl,.cb],none,false⟩⟩,⟨256,.lf,false,some ⟨24,[.setEnt .internalNl,.cb],none,false⟩⟩,⟨256,.vt,false,some ⟨22,[.setEnt .internalNl,.cb,.code],none,false⟩⟩,⟨256,.ff,false,some ⟨25,[.setEnt .internalNl,.cb],none,false⟩⟩,⟨256,.cr,false,some ⟨26,[.setEnt .internalNl,.cb],none,false⟩⟩,⟨256,.cr,true,some ⟨27,[.setEnt .internalNl,.cb],none,false⟩⟩,⟨256,.other,false,some ⟨28,[.setEnt .internalNl,.cb,.emb (.goto 6)],some 0,false⟩⟩,⟨256,.other,false,some ⟨29,[.setEnt .internalNl,.cb],none,false⟩⟩,⟨256,.other,false,some ⟨30,[.setEnt .internalNl,.cb],none,false⟩⟩]⟩,⟨[7,16,21],none,[],[⟨256,.other,false,some ⟨22,[.setEnt .internalNl,.cb,.code],none,false⟩⟩,⟨256,.ws,false,some ⟨23,[.setEnt .internalNl,.cb],none,false⟩⟩,⟨256,.lf,false,some ⟨24,[.setEnt .internalNl,.cb],none,false⟩⟩,⟨256,.vt,false,some ⟨22,[.setEnt .internalNl,.cb,.code],none,false⟩⟩,⟨256,.ff,false,some ⟨25,[.setEnt .internalNl,.cb],none,false⟩⟩,⟨256,.cr,false,some ⟨26,[.setEnt .internalNl,.cb],none,false⟩⟩,⟨256,.cr,true,some ⟨27,[.setEnt .internalNl,.cb],none,false⟩⟩,⟨256,.other,false,some ⟨28,[.setEnt .internalNl,.cb,.emb (.goto 6)],some 0,false⟩⟩,⟨256,.other,false,some ⟨29,[.setEnt .internalNl,.cb],none,false⟩⟩,⟨256,.other,false,some ⟨30,[.setEnt .internalNl,.cb],none,false⟩⟩]⟩,⟨[4,16,21],none,[],[⟨256,.other,false,some ⟨22,[.code],none,false⟩⟩,⟨256,.ws,false,some ⟨23,[],none,false⟩⟩,⟨256,.lf,false,some ⟨31,[],none,false⟩⟩,⟨256,.vt,false,some ⟨22,[.code],none,false⟩⟩,⟨256,.ff,false,some ⟨25,[],none,false⟩⟩,⟨256,.cr,false,some ⟨26,[],none,false⟩⟩,⟨256,.cr,true,some ⟨27,[],none,false⟩⟩,⟨256,.other,false,some ⟨28,[.emb (.goto 6)],some 0,false⟩⟩,⟨256,.other,false,some ⟨29,[],none,false⟩⟩,⟨256,.other,false,some ⟨30,[],none,false⟩⟩]⟩,⟨[4,8,16,21],none,[],[⟨256,.other,false,some ⟨22,[.setEnt .internalNl,.cb,.code],none,false⟩⟩,⟨256,.ws,false,some ⟨23,[.setEnt .internalNl,.cb],none,false⟩⟩,⟨256,.lf,false,some ⟨31,[.setEnt .internalNl,.cb],none,false⟩⟩,⟨256,.vt,false,some ⟨22,[.setEnt .internalNl,.cb,.code],none,false⟩⟩,⟨256,.ff,false,some ⟨25,[.setEnt .internalNl,.cb],none,false⟩⟩,⟨256,.cr,false,some ⟨26,[.setEnt .internalNl,.cb],none,false⟩⟩,⟨256,.cr,true,some ⟨27,[.setEnt .internalNl,.cb],none,false⟩⟩,⟨256,.other,false,some ⟨28,[.setEnt .internalNl,.cb,.emb (.goto 6)],some 0,false⟩⟩,⟨256,.other,false,some ⟨29,[.setEnt .internalNl,.cb],none,false⟩⟩,⟨256,.other,false,some ⟨30,[.setEnt .internalNl,.cb],none,false⟩⟩]⟩,⟨[16,21,24],some 0,[],[⟨256,.other,false,some ⟨22,[.code],none,false⟩⟩,⟨256,.ws,false,some ⟨23,[],none,false⟩⟩,⟨256,.lf,false,some ⟨24,[],none,false⟩⟩,⟨256,.vt,false,some ⟨22,[.code],none,false⟩⟩,⟨256,.ff,false,some ⟨25,[],none,false⟩⟩,⟨256,.cr,false,some ⟨26,[],none,false⟩⟩,⟨256,.cr,true,some ⟨27,[],none,false⟩⟩,⟨256,.other,false,some ⟨28,[.emb (.goto 6)],some 0,false⟩⟩,⟨256,.other,false,some ⟨29,[],none,false⟩⟩,⟨256,.other,false,some ⟨30,[],none,false⟩⟩]⟩,⟨[0,13,16,21],none,[],[⟨256,.other,false,some ⟨32,[.code],none,false⟩⟩,⟨256,.ws,false,some ⟨33,[],none,false⟩⟩,⟨256,.lf,false,some ⟨34,[],none,false⟩⟩,⟨256,.vt,false,some ⟨32,[.code],none,false⟩⟩,⟨256,.ff,false,some ⟨35,[],none,false⟩⟩,⟨256,.cr,false,some ⟨36,[],none,false⟩⟩,⟨256,.cr,true,some ⟨37,[],none,false⟩⟩,⟨256,.other,false,some ⟨38,[.emb (.goto 6)],some 0,false⟩⟩,⟨256,.other,false,some ⟨39,[],none,false⟩⟩,⟨256,.other,false,some ⟨40,[.code],none,false⟩⟩,⟨256,.other,false,some ⟨41,[],none,false⟩⟩]⟩,⟨[11,16,21],none,[],[⟨256,.other,false,some ⟨52,[.code],none,false⟩⟩,⟨256,.ws,false,some ⟨53,[.code],none,false⟩⟩,⟨256,.lf,false,some ⟨24,[],none,false⟩⟩,⟨256,.vt,false,some ⟨52,[.code],none,false⟩⟩,⟨256,.ff,false,some ⟨25,[],none,false⟩⟩,⟨256,.cr,false,some ⟨26,[],none,false⟩⟩,⟨256,.cr,true,some ⟨27,[],none,false⟩⟩,⟨256,.other,false,some ⟨54,[.code,.emb (.goto 6)],some 0,false⟩⟩,⟨256,.other,false,some ⟨55,[.code],none,false⟩⟩,⟨256,.other,false,some ⟨56,[.code],none,false⟩⟩]⟩,⟨[2,10,17,21,23],none,[],[⟨256,.other,false,some ⟨77,[.code],none,false⟩⟩,⟨256,.ws,false,some ⟨78,[],none,false⟩⟩,⟨256,.lf,false,some ⟨79,[],none,false⟩⟩,⟨256,.vt,false,some ⟨77,[.code],none,false⟩⟩,⟨256,.ff,false,some ⟨80,[],none,false⟩⟩,⟨256,.cr,false,some ⟨81,[],none,false⟩⟩,⟨256,.cr,true,some ⟨82,[],none,false⟩⟩,⟨256,.other,false,some ⟨83,[.emb (.goto 6)],some 0,false⟩⟩,⟨256,.other,false,some ⟨84,[],none,false⟩⟩,⟨256,.other,false,some ⟨85,[],none,false⟩⟩,⟨256,.other,false,some ⟨86,[.emb (.sawCall 3 5),.code],none,false⟩⟩]⟩,⟨[10,18],none,[],[⟨256,.other,false,some ⟨22,[.code],none,false⟩⟩,⟨256,.ws,false,some ⟨23,[],none,false⟩⟩,⟨256,.lf,false,some ⟨24,[],none,false⟩⟩,⟨256,.vt,false,some ⟨22,[.code],none,false⟩⟩,⟨256,.ff,false,some ⟨25,[],none,false⟩⟩,⟨256,.cr,false,some ⟨26,[],none,false⟩⟩,⟨256,.cr,true,some ⟨27,[],none,false⟩⟩,⟨256,.other,false,some ⟨28,[.emb (.goto 6)],some 0,false⟩⟩,⟨256,.other,false,some ⟨29,[],none,false⟩⟩,⟨256,.other,false,some ⟨30,[],none,false⟩⟩]⟩,⟨[9,18],none,[],[⟨256,.other,false,some ⟨22,[.code],none,false⟩⟩,⟨256,.ws,false,some ⟨23,[],none,false⟩⟩,⟨256,.lf,false,some ⟨24,[],none,false⟩⟩,⟨256,.vt,false,some ⟨22,[.code],none,false⟩⟩,⟨256,.ff,false,some ⟨25,[],none,false⟩⟩,⟨256,.cr,false,some ⟨26,[],none,false⟩⟩,⟨256,.cr,true,some ⟨27,[],none,false⟩⟩,⟨256,.other,false,some ⟨28,[.emb (.goto 6)],some 0,false⟩⟩,⟨256,.other,false,some ⟨29,[],none,false⟩⟩,⟨256,.other,false,some ⟨30,[],none,false⟩⟩]⟩,⟨[6,18],none,[],[⟨256,.other,false,some ⟨22,[.setEnt .internalNl,.cb,.code],none,false⟩⟩,⟨256,.ws,false,some ⟨23,[.setEnt .internalNl,.cb],none,false⟩⟩,⟨256,.lf,false,some ⟨24,[.setEnt .internalNl,.cb],none,false⟩⟩,⟨256,.vt,false,some ⟨22,[.setEnt .internalNl,.cb,.code],none,false⟩⟩,⟨256,.ff,false,some ⟨25,[.setEnt .internalNl,.cb],none,false⟩⟩,⟨256,.cr,false,some ⟨26,[.setEnt .internalNl,.cb],none,false⟩⟩,⟨256,.cr,true,some ⟨27,[.setEnt .internalNl,.cb],none,false⟩⟩,⟨256,.other,false,some ⟨28,[.setEnt .internalNl,.cb,.emb (.goto 6)],some 0,false⟩⟩,⟨256,.other,false,some ⟨29,[.setEnt .internalNl,.cb],none,false⟩⟩,⟨256,.other,false,some ⟨30,[.setEnt .internalNl,.cb],none,false⟩⟩]⟩,⟨[7,18],none,[],[⟨256,.other,false,some ⟨22,[.setEnt .internalNl,.cb,.code],none,false⟩⟩,⟨256,.ws,false,some ⟨23,[.setEnt .internalNl,.cb],none,false⟩⟩,⟨256,.lf,false,some ⟨24,[.setEnt .internalNl,.cb],none,false⟩⟩,⟨256,.vt,false,some ⟨22,[.setEnt .internalNl,.cb,.code],none,false⟩⟩,⟨256,.ff,false,some ⟨25,[.setEnt .internalNl,.cb],none,false⟩⟩,⟨256,.cr,false,some ⟨26,[.setEnt .internalNl,.cb],none,false⟩⟩,⟨256,.cr,true,some ⟨27,[.setEnt .internalNl,.cb],none,false⟩⟩,⟨256,.other,false,some ⟨28,[.setEnt .internalNl,.cb,.emb (.goto 6)],some 0,false⟩⟩,⟨256,.other,false,some ⟨29,[.setEnt .internalNl,.cb],none,false⟩⟩,⟨256,.other,false,some ⟨30,[.setEnt .internalNl,.cb],none,false⟩⟩]⟩,⟨[4,18],none,[],[⟨256,.other,false,some ⟨22,[.code],none,false⟩⟩,⟨256,.ws,false,some ⟨23,[],none,false⟩⟩,⟨256,.lf,false,some ⟨31,[],none,false⟩⟩,⟨256,.vt,false,some ⟨22,[.code],none,false⟩⟩,⟨256,.ff,false,some ⟨25,[],none,false⟩⟩,⟨256,.cr,false,some ⟨26,[],none,false⟩⟩,⟨256,.cr,true,some ⟨27,[],none,false⟩⟩,⟨256,.other,false,some ⟨28,[.emb (.goto 6)],some 0,false⟩⟩,⟨256,.other,false,some ⟨29,[],none,false⟩⟩,⟨256,.other,false,some ⟨30,[],none,false⟩⟩]⟩,⟨[4,8,18],none,[],[⟨256,.other,false,some ⟨22,[.setEnt .internalNl,.cb,.code],none,false⟩⟩,⟨256,.ws,false,some ⟨23,[.setEnt .internalNl,.cb],none,false⟩⟩,⟨256,.lf,false,some ⟨31,[.setEnt .internalNl,.cb],none,false⟩⟩,⟨256,.vt,false,some ⟨22,[.setEnt .internalNl,.cb,.code],none,false⟩⟩,⟨256,.ff,false,some ⟨25,[.setEnt .internalNl,.cb],none,false⟩⟩,⟨256,.cr,false,some ⟨26,[.setEnt .internalNl,.cb],none,false⟩⟩,⟨256,.cr,true,some ⟨27,[.setEnt .internalNl,.cb],none,false⟩⟩,⟨256,.other,false,some ⟨28,[.setEnt .internalNl,.cb,.emb (.goto 6)],some 0,false⟩⟩,⟨256,.other,false,some ⟨29,[.setEnt .internalNl,.cb],none,false⟩⟩,⟨256,.other,false,some ⟨30,[.setEnt .internalNl,.cb],none,false⟩⟩]⟩,⟨[18,24],some 0,[],[⟨256,.other,false,some ⟨22,[.code],none,false⟩⟩,⟨256,.ws,false,some ⟨23,[],none,false⟩⟩,⟨256,.lf,false,some ⟨24,[],none,false⟩⟩,⟨256,.vt,false,some ⟨22,[.code],none,false⟩⟩,⟨256,.ff,false,some ⟨25,[],none,false⟩⟩,⟨256,.cr,false,some ⟨26,[],none,false⟩⟩,⟨256,.cr,true,some ⟨27,[],none,false⟩⟩,⟨256,.other,false,some ⟨28,[.emb (.goto 6)],some 0,false⟩⟩,⟨256,.other,false,some ⟨29,[],none,false⟩⟩,⟨256,.other,false,some ⟨30,[],none,false⟩⟩]⟩,⟨[0,13,18],none,[],[⟨256,.other,false,some ⟨32,[.code],none,false⟩⟩,⟨256,.ws,false,some ⟨33,[],none,false⟩⟩,⟨256,.lf,false,some ⟨34,[],none,false⟩⟩,⟨256,.vt,false,some ⟨32,[.code],none,false⟩⟩,⟨256,.ff,false,some ⟨35,[],none,false⟩⟩,⟨256,.cr,false,some ⟨36,[],none,false⟩⟩,⟨256,.cr,true,some ⟨37,[],none,false⟩⟩,⟨256,.other,false,some ⟨38,[.emb (.goto 6)],some 0,false⟩⟩,⟨256,.other,false,some ⟨39,[],none,false⟩⟩,⟨256,.other,false,some ⟨40,[.code],none,false⟩⟩,⟨256,.other,false,some ⟨41,[],none,false⟩⟩]⟩,⟨[11,18],none,[],[⟨256,.other,false,some ⟨52,[.code],none,false⟩⟩,⟨256,.ws,false,some ⟨53,[.code],none,false⟩⟩,⟨256,.lf,false,some ⟨24,[],none,false⟩⟩,⟨256,.vt,false,some ⟨52,[.code],none,false⟩⟩,⟨256,.ff,false,some ⟨25,[],none,false⟩⟩,⟨256,.cr,false,some ⟨26,[],none,false⟩⟩,⟨256,.cr,true,some ⟨27,[],none,false⟩⟩,⟨256,.other,false,some ⟨54,[.code,.emb (.goto 6)],some 0,false⟩⟩,⟨256,.other,false,some ⟨55,[.code],none,false⟩⟩,⟨256,.other,false,some ⟨56,[.code],none,false⟩⟩]⟩,⟨[3,10,19],none,[],[⟨256,.other,false,some ⟨87,[.code],none,false⟩⟩,⟨256,.ws,false,some ⟨88,[],none,false⟩⟩,⟨256,.lf,false,some ⟨89,[],none,false⟩⟩,⟨256,.vt,false,some ⟨87,[.code],none,false⟩⟩,⟨256,.ff,false,some ⟨90,[],none,false⟩⟩,⟨256,.cr,false,some ⟨91,[],none,false⟩⟩,⟨256,.cr,true,some ⟨92,[],none,false⟩⟩,⟨256,.other,false,some ⟨93,[.emb (.goto 6)],some 0,false⟩⟩,⟨256,.other,false,some ⟨94,[],none,false⟩⟩,⟨256,.other,false,some ⟨95,[],none,false⟩⟩]⟩,⟨[10,18,21],none,[],[⟨256,.other,false,some ⟨22,[.code],none,false⟩⟩,⟨256,.ws,false,some ⟨23,[],none,false⟩⟩,⟨256,.lf,false,some ⟨24,[],none,false⟩⟩,⟨256,.vt,false,some ⟨22,[.code],none,false⟩⟩,⟨256,.ff,false,some ⟨25,[],none,false⟩⟩,⟨256,.cr,false,some ⟨26,[],none,false⟩⟩,⟨256,.cr,true,some ⟨27,[],none,false⟩⟩,⟨256,.other,false,some ⟨28,[.emb (.goto 6)],some 0,false⟩⟩,⟨256,.other,false,some ⟨29,[],none,false⟩⟩,⟨256,.other,false,some ⟨30,[],none,false⟩⟩]⟩,⟨[9,18,21],none,[],[⟨256,.other,false,some ⟨22,[.code],none,false⟩⟩,⟨256,.ws,false,some ⟨23,[],none,false⟩⟩,⟨256,.lf,false,some ⟨24,[],none,false⟩⟩,⟨256,.vt,false,some ⟨22,[.code],none,false⟩⟩,⟨256,.ff,false,some ⟨25,[],none,false⟩⟩,⟨256,.cr,false,some ⟨26,[],none,false⟩⟩,⟨256,.cr,true,some ⟨27,[],none,false⟩⟩,⟨256,.other,false,some ⟨28,[.emb (.goto 6)],some 0,false⟩⟩,⟨256,.other,false,some ⟨29,[],none,false⟩⟩,⟨256,.other,false,some ⟨30,[],none,false⟩⟩]⟩,⟨[6,18,21],none,[],[⟨256,.other,false,some ⟨22,[.setEnt .internalNl,.cb,.code],none,false⟩⟩,⟨256,.ws,false,some ⟨23,[.setEnt .internalNl,.cb],none,false⟩⟩,⟨256,.lf,false,some ⟨24,[.setEnt .internalNl,.cb],none,false⟩⟩,⟨256,.vt,false,some ⟨22,[.setEnt .internalNl,.cb,.code],none,false⟩⟩,⟨256,.ff,false,some ⟨25,[.setEnt .internalNl,.cb],none,false⟩⟩,⟨256,.cr,false,some ⟨26,[.setEnt .internalNl,.cb],none,false⟩⟩,⟨256,.cr,true,some ⟨27,[.setEnt .internalNl,.cb],none,false⟩⟩,⟨256,.other,false,some ⟨28,[.setEnt .internalNl,.cb,.emb (.goto 6)],some 0,false⟩⟩,⟨256,.other,false,some ⟨29,[.setEnt .internalNl,.cb],none,false⟩⟩,⟨256,.other,false,some ⟨30,[.setEnt .internalNl,.cb],none,false⟩⟩]⟩,⟨[7,18,21],none,[],[⟨256,.other,false,some ⟨22,[.setEnt .internalNl,.cb,.code],none,false⟩⟩,⟨256,.ws,false,some ⟨23,[.setEnt .internalNl,.cb],none,false⟩⟩,⟨256,.lf,false,some ⟨24,[.setEnt .internalNl,.cb],none,false⟩⟩,⟨256,.vt,false,some ⟨22,[.setEnt .internalNl,.cb,.code],none,false⟩⟩,⟨256,.ff,false,some ⟨25,[.setEnt .internalNl,.cb],none,false⟩⟩,⟨256,.cr,false,some ⟨26,[.setEnt .internalNl,.cb],none,false⟩⟩,⟨256,.cr,true,some ⟨27,[.setEnt .internalNl,.cb],none,false⟩⟩,⟨256,.other,false,some ⟨28,[.setEnt .internalNl,.cb,.emb (.goto 6)],some 0,false⟩⟩,⟨256,.other,false,some ⟨29,[.setEnt .internalNl,.cb],none,false⟩⟩,⟨256,.other,false,some ⟨30,[.setEnt .internalNl,.cb],none,false⟩⟩]⟩,⟨[4,18,21],none,[],[⟨256,.other,false,some ⟨22,[.code],none,false⟩⟩,⟨256,.ws,false,some ⟨23,[],none,false⟩⟩,⟨256,.lf,false,some ⟨31,[],none,false⟩⟩,⟨256,.vt,false,some ⟨22,[.code],none,false⟩⟩,⟨256,.ff,false,some ⟨25,[],none,false⟩⟩,⟨256,.cr,false,some ⟨26,[],none,false⟩⟩,⟨256,.cr,true,some ⟨27,[],none,false⟩⟩,⟨256,.other,false,some ⟨28,[.emb (.goto 6)],some 0,false⟩⟩,⟨256,.other,false,some ⟨29,[],none,false⟩⟩,⟨256,.other,false,some ⟨30,[],none,false⟩⟩]⟩,⟨[4,8,18,21],none,[],[⟨256,.other,false,some ⟨22,[.setEnt .internalNl,.cb,.code],none,false⟩⟩,⟨256,.ws,false,some ⟨23,[.setEnt .internalNl,.cb],none,false⟩⟩,⟨256,.lf,false,some ⟨31,[.setEnt .internalNl,.cb],none,false⟩⟩,⟨256,.vt,false,some ⟨22,[.setEnt .internalNl,.cb,.code],none,false⟩⟩,⟨256,.ff,false,some ⟨25,[.setEnt .internalNl,.cb],none,false⟩⟩,⟨256,.cr,false,some ⟨26,[.setEnt .internalNl,.cb],none,false⟩⟩,⟨256,.cr,true,some ⟨27,[.setEnt .internalNl,.cb],none,false⟩⟩,⟨256,.other,false,some ⟨28,[.setEnt .internalNl,.cb,.emb (.goto 6)],some 0,false⟩⟩,⟨256,.other,false,some ⟨29,[.setEnt .internalNl,.cb],none,false⟩⟩,⟨256,.other,false,some ⟨30,[.setEnt .internalNl,.cb],none,false⟩⟩]⟩,⟨[18,21,24],some 0,[],[⟨256,.other,false,some ⟨22,[.code],none,false⟩⟩,⟨256,.ws,false,some ⟨23,[],none,false⟩⟩,⟨256,.lf,false,some ⟨24,[],none,false⟩⟩,⟨256,.vt,false,some ⟨22,[.code],none,false⟩⟩,⟨256,.ff,false,some ⟨25,[],none,false⟩⟩,⟨256,.cr,false,some ⟨26,[],none,false⟩⟩,⟨256,.cr,true,some ⟨27,[],none,false⟩⟩,⟨256,.other,false,some ⟨28,[.emb (.goto 6)],some 0,false⟩⟩,⟨256,.other,false,some ⟨29,[],none,false⟩⟩,⟨256,.other,false,some ⟨30,[],none,false⟩⟩]⟩,⟨[0,13,18,21],none,[],[⟨256,.other,false,some ⟨32,[.code],none,false⟩⟩,⟨256,.ws,false,some ⟨33,[],none,false⟩⟩,⟨256,.lf,false,some ⟨34,[],none,false⟩⟩,⟨256,.vt,false,some ⟨32,[.code],none,false⟩⟩,⟨256,.ff,false,some ⟨35,[],none,false⟩⟩,⟨256,.cr,false,some ⟨36,[],none,false⟩⟩,⟨256,.cr,true,some ⟨37,[],none,false⟩⟩,⟨256,.other,false,some ⟨38,[.emb (.goto 6)],some 0,false⟩⟩,⟨256,.other,false,some ⟨39,[],none,false⟩⟩,⟨256,.other,false,some ⟨40,[.code],none,false⟩⟩,⟨256,.other,false,some ⟨41,[],none,false⟩⟩]⟩,⟨[11,18,21],none,[],[⟨256,.other,false,some ⟨52,[.code],none,false⟩⟩,⟨256,.ws,false,some ⟨53,[.code],none,false⟩⟩,⟨256,.lf,false,some ⟨24,[],none,false⟩⟩,⟨256,.vt,false,some ⟨52,[.code],none,false⟩⟩,⟨256,.ff,false,some ⟨25,[],none,false⟩⟩,⟨256,.cr,false,some ⟨26,[],none,false⟩⟩,⟨256,.cr,true,some ⟨27,[],none,false⟩⟩,⟨256,.other,false,some ⟨54,[.code,.emb (.goto 6)],some 0,false⟩⟩,⟨256,.other,false,some ⟨55,[.code],none,false⟩⟩,⟨256,.other,false,some ⟨56,[.code],none,false⟩⟩]⟩,⟨[3,10,19,21],none,[],[⟨256,.other,false,some ⟨96,[.code],none,false⟩⟩,⟨256,.ws,false,some ⟨97,[],none,false⟩⟩,⟨256,.lf,false,some ⟨98,[],none,false⟩⟩,⟨256,.vt,false,some ⟨96,[.code],none,false⟩⟩,⟨256,.ff,false,some ⟨99,[],none,false⟩⟩,⟨256,.cr,false,some ⟨100,[],none,false⟩⟩,⟨256,.cr,true,some ⟨101,[],none,false⟩⟩,⟨256,.other,false,some ⟨102,[.emb (.goto 6)],some 0,false⟩⟩,⟨256,.other,false,some ⟨103,[],none,false⟩⟩,⟨256,.other,false,some ⟨104,[],none,false⟩⟩]⟩,⟨[10,20],none,[],[⟨256,.other,false,some ⟨22,[.code],none,false⟩⟩,⟨256,.ws,false,some ⟨23,[],none,false⟩⟩,⟨256,.lf,false,some ⟨24,[],none,false⟩⟩,⟨256,.vt,false,some ⟨22,[.code],none,false⟩⟩,⟨256,.ff,false,some ⟨25,[],none,false⟩⟩,⟨256,.cr,false,some ⟨26,[],none,false⟩⟩,⟨256,.cr,true,some ⟨27,[],none,false⟩⟩,⟨256,.other,false,some ⟨28,[.emb (.goto 6)],some 0,false⟩⟩,⟨256,.other,false,some ⟨29,[],none,false⟩⟩,⟨256,.other,false,some ⟨30,[],none,false⟩⟩]⟩,⟨[9,20],none,[],[⟨256,.other,false,some ⟨22,[.code],none,false⟩⟩,⟨256,.ws,false,some ⟨23,[],none,false⟩⟩,⟨256,.lf,false,some ⟨24,[],none,false⟩⟩,⟨256,.vt,false,some ⟨22,[.code],none,false⟩⟩,⟨256,.ff,false,some ⟨25,[],none,false⟩⟩,⟨256,.cr,false,some ⟨26,[],none,false⟩⟩,⟨256,.cr,true,some ⟨27,[],none,false⟩⟩,⟨256,.other,false,some ⟨28,[.emb (.goto 6)],some 0,false⟩⟩,⟨256,.other,false,some ⟨29,[],none,false⟩⟩,⟨256,.other,false,some ⟨30,[],none,false⟩⟩]⟩,⟨[6,20],none,[],[⟨256,.other,false,some ⟨22,[.setEnt .internalNl,.cb,.code],none,false⟩⟩,⟨256,.ws,false,some ⟨23,[.setEnt .internalNl,.cb],none,false⟩⟩,⟨256,.lf,false,some ⟨24,[.setEnt .internalNl,.cb],none,false⟩⟩,⟨256,.vt,false,some ⟨22,[.setEnt .internalNl,.cb,.code],none,false⟩⟩,⟨256,.ff,false,some ⟨25,[.setEnt .internalNl,.cb],none,false⟩⟩,⟨256,.cr,false,some ⟨26,[.setEnt .internalNl,.cb],none,false⟩⟩,⟨256,.cr,true,some ⟨27,[.setEnt .internalNl,.cb],none,false⟩⟩,⟨256,.other,false,some ⟨28,[.setEnt .internalNl,.cb,.emb (.goto 6)],some 0,false⟩⟩,⟨256,.other,false,some ⟨29,[.setEnt .internalNl,.cb],none,false⟩⟩,⟨256,.other,false,some ⟨30,[.setEnt .internalNl,.cb],none,false⟩⟩]⟩,⟨[7,20],none,[],[⟨256,.other,false,some ⟨22,[.setEnt .internalNl,.cb,.code],none,false⟩⟩,⟨256,.ws,false,some ⟨23,[.setEnt .internalNl,.cb],none,false⟩⟩,⟨256,.lf,false,some ⟨24,[.setEnt .internalNl,.cb],none,false⟩⟩,⟨256,.vt,false,some ⟨22,[.setEnt .internalNl,.cb,.code],none,false⟩⟩,⟨256,.ff,false,some ⟨25,[.setEnt .internalNl,.cb],none,false⟩⟩,⟨256,.cr,false,some ⟨26,[.setEnt .internalNl,.cb],none,false⟩⟩,⟨256,.cr,true,some ⟨27,[.setEnt .internalNl,.cb],none,false⟩⟩,⟨256,.other,false,some ⟨28,[.setEnt .internalNl,.cb,.emb (.goto 6)],some 0,false⟩⟩,⟨256,.other,false,some ⟨29,[.setEnt .internalNl,.cb],none,false⟩⟩,⟨256,.other,false,some ⟨30,[.setEnt .internalNl,.cb],none,false⟩⟩]⟩,⟨[4,20],none,[],[⟨256,.other,false,some ⟨22,[.code],none,false⟩⟩,⟨256,.ws,false,some ⟨23,[],none,false⟩⟩,⟨256,.lf,false,some ⟨31,[],none,false⟩⟩,⟨256,.vt,false,some ⟨22,[.code],none,false⟩⟩,⟨256,.ff,false,some ⟨25,[],none,false⟩⟩,⟨256,.cr,false,some ⟨26,[],none,false⟩⟩,⟨256,.cr,true,some ⟨27,[],none,false⟩⟩,⟨256,.other,false,some ⟨28,[.emb (.goto 6)],some 0,false⟩⟩,⟨256,.other,false,some ⟨29,[],none,false⟩⟩,⟨256,.other,false,some ⟨30,[],none,false⟩⟩]⟩,⟨[4,8,20],none,[],[⟨256,.other,false,some ⟨22,[.setEnt .internalNl,.cb,.code],none,false⟩⟩,⟨256,.ws,false,some ⟨23,[.setEnt .internalNl,.cb],none,false⟩⟩,⟨256,.lf,false,some ⟨31,[.setEnt .internalNl,.cb],none,false⟩⟩,⟨256,.vt,false,some ⟨22,[.setEnt .internalNl,.cb,.code],none,false⟩⟩,⟨256,.ff,false,some ⟨25,[.setEnt .internalNl,.cb],none,false⟩⟩,⟨256,.cr,false,some ⟨26,[.setEnt .internalNl,.cb],none,false⟩⟩,⟨256,.cr,true,some ⟨27,[.setEnt .internalNl,.cb],none,false⟩⟩,⟨256,.other,false,some ⟨28,[.setEnt .internalNl,.cb,.emb (.goto 6)],some 0,false⟩⟩,⟨256,.other,false,some ⟨29,[.setEnt .internalNl,.cb],none,false⟩⟩,⟨256,.other,false,some ⟨30,[.setEnt .internalNl,.cb],none,false⟩⟩]⟩,⟨[20,24],some 0,[],[⟨256,.other,false,some ⟨22,[.code],none,false⟩⟩,⟨256,.ws,false,some ⟨23,[],none,false⟩⟩,⟨256,.lf,false,some ⟨24,[],none,false⟩⟩,⟨256,.vt,false,some ⟨22,[.code],none,false⟩⟩,⟨256,.ff,false,some ⟨25,[],none,false⟩⟩,⟨256,.cr,false,some ⟨26,[],none,false⟩⟩,⟨256,.cr,true,some ⟨27,[],none,false⟩⟩,⟨256,.other,false,some ⟨28,[.emb (.goto 6)],some 0,false⟩⟩,⟨256,.other,false,some ⟨29,[],none,false⟩⟩,⟨256,.other,false,some ⟨30,[],none,false⟩⟩]⟩,⟨[0,13,20],none,[],[⟨256,.other,false,some ⟨32,[.code],none,false⟩⟩,⟨256,.ws,false,some ⟨33,[],none,false⟩⟩,⟨256,.lf,false,some ⟨34,[],none,false⟩⟩,⟨256,.vt,false,some ⟨32,[.code],none,false⟩⟩,⟨256,.ff,false,some ⟨35,[],none,false⟩⟩,⟨256,.cr,false,some ⟨36,[],none,false⟩⟩,⟨256,.cr,true,some ⟨37,[],none,false⟩⟩,⟨256,.other,false,some ⟨38,[.emb (.goto 6)],some 0,false⟩⟩,⟨256,.other,false,some ⟨39,[],none,false⟩⟩,⟨256,.other,false,some ⟨40,[.code],none,false⟩⟩,⟨256,.other,false,some ⟨41,[],none,false⟩⟩]⟩,⟨[11,20],none,[],[⟨256,.other,false,some ⟨52,[.code],none,false⟩⟩,⟨256,.ws,false,some ⟨53,[.code],none,false⟩⟩,⟨256,.lf,false,some ⟨24,[],none,false⟩⟩,⟨256,.vt,false,some ⟨52,[.code],none,false⟩⟩,⟨256,.ff,false,some ⟨25,[],none,false⟩⟩,⟨256,.cr,false,some ⟨26,[],none,false⟩⟩,⟨256,.cr,true,some ⟨27,[],none,false⟩⟩,⟨256,.other,false,some ⟨54,[.code,.emb (.goto 6)],some 0,false⟩⟩,⟨256,.other,false,some ⟨55,[.code],none,false⟩⟩,⟨256,.other,false,some ⟨56,[.code],none,false⟩⟩]⟩,⟨[10,20,21],none,[],[⟨256,.other,false,some ⟨22,[.code],none,false⟩⟩,⟨256,.ws,false,some ⟨23,[],none,false⟩⟩,⟨256,.lf,false,some ⟨24,[],none,false⟩⟩,⟨256,.vt,false,some ⟨22,[.code],none,false⟩⟩,⟨256,.ff,false,some ⟨25,[],none,false⟩⟩,⟨256,.cr,false,some ⟨26,[],none,false⟩⟩,⟨256,.cr,true,some ⟨27,[],none,false⟩⟩,⟨256,.other,false,some ⟨28,[.emb (.goto 6)],some 0,false⟩⟩,⟨256,.other,false,some ⟨29,[],none,false⟩⟩,⟨256,.other,false,some ⟨30,[],none,false⟩⟩]⟩,⟨[9,20,21],none,[],[⟨256,.other,false,some ⟨22,[.code],none,false⟩⟩,⟨256,.ws,false,some ⟨23,[],none,false⟩⟩,⟨256,.lf,false,some ⟨24,[],none,false⟩⟩,⟨256,.vt,false,some ⟨22,[.code],none,false⟩⟩,⟨256,.ff,false,some ⟨25,[],none,false⟩⟩,⟨256,.cr,false,some ⟨26,[],none,false⟩⟩,⟨256,.cr,true,some ⟨27,[],none,false⟩⟩,⟨256,.other,false,some ⟨28,[.emb (.goto 6)],some 0,false⟩⟩,⟨256,.other,false,some ⟨29,[],none,false⟩⟩,⟨256,.other,false,some ⟨30,[],none,false⟩⟩]⟩,⟨[6,20,21],none,[],[⟨256,.other,false,some ⟨22,[.setEnt .internalNl,.cb,.code],none,false⟩⟩,⟨256,.ws,false,some ⟨23,[.setEnt .internalNl,.cb],none,false⟩⟩,⟨256,.lf,false,some ⟨24,[.setEnt .internalNl,.cb],none,false⟩⟩,⟨256,.vt,false,some ⟨22,[.setEnt .internalNl,.cb,.code],none,false⟩⟩,⟨256,.ff,false,some ⟨25,[.setEnt .internalNl,.cb],none,false⟩⟩,⟨256,.cr,false,some ⟨26,[.setEnt .internalNl,.cb],none,false⟩⟩,⟨256,.cr,true,some ⟨27,[.setEnt .internalNl,.cb],none,false⟩⟩,⟨256,.other,false,some ⟨28,[.setEnt .internalNl,.cb,.emb (.goto 6)],some 0,false⟩⟩,⟨256,.other,false,some ⟨29,[.setEnt .internalNl,.cb],none,false⟩⟩,⟨256,.other,false,some ⟨30,[.setEnt .internalNl,.cb],none,false⟩⟩]⟩,⟨[7,20,21],none,[],[⟨256,.other,false,some ⟨22,[.setEnt .internalNl,.cb,.code],none,false⟩⟩,⟨256,.ws,false,some ⟨23,[.setEnt .internalNl,.cb],none,false⟩⟩,⟨256,.lf,false,some ⟨24,[.setEnt .internalNl,.cb],none,false⟩⟩,⟨256,.vt,false,some ⟨22,[.setEnt .internalNl,.cb,.code],none,false⟩⟩,⟨256,.ff,false,some ⟨25,[.setEnt .internalNl,.cb],none,false⟩⟩,⟨256,.cr,false,some ⟨26,[.setEnt .internalNl,.cb],none,false⟩⟩,⟨256,.cr,true,some ⟨27,[.setEnt .internalNl,.cb],none,false⟩⟩,⟨256,.other,false,some ⟨28,[.setEnt .internalNl,.cb,.emb (.goto 6)],some 0,false⟩⟩,⟨256,.other,false,some ⟨29,[.setEnt .internalNl,.cb],none,false⟩⟩,⟨256,.other,false,some ⟨30,[.setEnt .internalNl,.cb],none,false⟩⟩]⟩,⟨[4,20,21],none,[],[⟨256,.other,false,some ⟨22,[.code],none,false⟩⟩,⟨256,.ws,false,some ⟨23,[],none,false⟩⟩,⟨256,.lf,false,some ⟨31,[],none,false⟩⟩,⟨256,.vt,false,some ⟨22,[.code],none,false⟩⟩,⟨256,.ff,false,some ⟨25,[],none,false⟩⟩,⟨256,.cr,false,some ⟨26,[],none,false⟩⟩,⟨256,.cr,true,some ⟨27,[],none,false⟩⟩,⟨256,.other,false,some ⟨28,[.emb (.goto 6)],some 0,false⟩⟩,⟨256,.other,false,some ⟨29,[],none,false⟩⟩,⟨256,.other,false,some ⟨30,[],none,false⟩⟩]⟩,⟨[4,8,20,21],none,[],[⟨256,.other,false,some ⟨22,[.setEnt .internalNl,.cb,.code],none,false⟩⟩,⟨256,.ws,false,some ⟨23,[.setEnt .internalNl,.cb],none,false⟩⟩,⟨256,.lf,false,some ⟨31,[.setEnt .internalNl,.cb],none,false⟩⟩,⟨256,.vt,false,some ⟨22,[.setEnt .internalNl,.cb,.code],none,false⟩⟩,⟨256,.ff,false,some ⟨25,[.setEnt .internalNl,.cb],none,false⟩⟩,⟨256,.cr,false,some ⟨26,[.setEnt .internalNl,.cb],none,false⟩⟩,⟨256,.cr,true,some ⟨27,[.setEnt .internalNl,.cb],none,false⟩⟩,⟨256,.other,false,some ⟨28,[.setEnt .internalNl,.cb,.emb (.goto 6)],some 0,false⟩⟩,⟨256,.other,false,some ⟨29,[.setEnt .internalNl,.cb],none,false⟩⟩,⟨256,.other,false,some ⟨30,[.setEnt .internalNl,.cb],none,false⟩⟩]⟩,⟨[20,21,24],some 0,[],[⟨256,.other,false,some ⟨22,[.code],none,false⟩⟩,⟨256,.ws,false,some ⟨23,[],none,false⟩⟩,⟨256,.lf,false,some ⟨24,[],none,false⟩⟩,⟨256,.vt,false,some ⟨22,[.code],none,false⟩⟩,⟨256,.ff,false,some ⟨25,[],none,false⟩⟩,⟨256,.cr,false,some ⟨26,[],none,false⟩⟩,⟨256,.cr,true,some ⟨27,[],none,false⟩⟩,⟨256,.other,false,some ⟨28,[.emb (.goto 6)],some 0,false⟩⟩,⟨256,.other,false,some ⟨29,[],none,false⟩⟩,⟨256,.other,false,some ⟨30,[],none,false⟩⟩]⟩,⟨[0,13,20,21],none,[],[⟨256,.other,false,some ⟨32,[.code],none,false⟩⟩,⟨256,.ws,false,some ⟨33,[],none,false⟩⟩,⟨256,.lf,false,some ⟨34,[],none,false⟩⟩,⟨256,.vt,false,some ⟨32,[.code],none,false⟩⟩,⟨256,.ff,false,some ⟨35,[],none,false⟩⟩,⟨256,.cr,false,some ⟨36,[],none,false⟩⟩,⟨256,.cr,true,some ⟨37,[],none,false⟩⟩,⟨256,.other,false,some ⟨38,[.emb (.goto 6)],some 0,false⟩⟩,⟨256,.other,false,some ⟨39,[],none,false⟩⟩,⟨256,.other,false,some ⟨40,[.code],none,false⟩⟩,⟨256,.other,false,some ⟨41,[],none,false⟩⟩]⟩,⟨[11,20,21],none,[],[⟨256,.other,false,some ⟨52,[.code],none,false⟩⟩,⟨256,.ws,false,some ⟨53,[.code],none,false⟩⟩,⟨256,.lf,false,some ⟨24,[],none,false⟩⟩,⟨256,.vt,false,some ⟨52,[.code],none,false⟩⟩,⟨256,.ff,false,some ⟨25,[],none,false⟩⟩,⟨256,.cr,false,some ⟨26,[],none,false⟩⟩,⟨256,.cr,true,some ⟨27,[],none,false⟩⟩,⟨256,.other,false,some ⟨54,[.code,.emb (.goto 6)],some 0,false⟩⟩,⟨256,.other,false,some ⟨55,[.code],none,false⟩⟩,⟨256,.other,false,some ⟨56,[.code],none,false⟩⟩]⟩]
theorem emb40_rowsOk : rowsOk emb40_nfa [] (emb40_cs.map (·.1)) emb40_rows = true := by decide +kernel
def emb40_D : Dfa emb40_nfa := ⟨emb40_masks, [], emb40_cs, emb40_rows, emb40_masksIn, emb40_repOk, emb40_rowsOk⟩

/-- The automaton of `Emb.Clearsilverhtml.cshtml_line`. -/
def emb43_nfa : Nfa := ⟨[⟨0,1152921504606846976,[],[],0,2⟩,⟨17,1152921504606846976,[],[],0,4⟩,⟨42,1152921504606846976,[],[],0,0⟩,⟨46,4294967808,[],[(12,.setEnt (.own 0))],0,0⟩,⟨47,1152921504606846976,[],[],0,0⟩,⟨51,549755813888,[],[(14,.code)],0,0⟩,⟨52,17179869184,[],[(15,.code)],0,0⟩,⟨53,8192,[],[(16,.setEnt .newline)],0,0⟩,⟨55,1024,[],[(16,.setEnt .newline)],0,0⟩,⟨56,4096,[],[(16,.setEnt .newline)],0,0⟩,⟨57,8192,[.crAlone],[(16,.setEnt .newline)],0,0⟩,⟨58,115792089237316195423570985008687907853269984665640564039457584007908834656767,[],[(17,.setEnt (.own 5))],0,0⟩],[[⟨1,41538374877950027585161004031410176,[],[],0,2⟩],[⟨2,83076749755900055170322008062820352,[],[],0,2⟩],[⟨3,2658455992188801765450304258010251264,[],[],0,2⟩],[⟨4,324518553733984590509070343995392,[],[],0,2⟩],[⟨5,2535301201046754613352112062464,[],[],0,2⟩],[⟨6,115792089237316195423570985008687907853269984665640564039452972321894702252031,[],[],0,2⟩],[⟨6,115792089237316195423570985008687907853269984665640564039452972321894702252031,[],[],0,2⟩,⟨7,83076749736557242056487941267521536,[],[],0,2⟩],[⟨8,2535301200456458802993406410752,[],[],0,0⟩],[⟨9,1329227995784915872903807060280344576,[],[],0,0⟩],[⟨10,83076749736557242056487941267521536,[],[],0,0⟩],[⟨11,140737488355328,[],[],0,0⟩],[⟨12,633825300114114700748351602688,[],[],0,0⟩],[⟨13,41538374868278621028243970633760768,[],[],0,0⟩],[⟨14,41538374868278621028243970633760768,[],[],2,0⟩],[⟨15,115792089237316195423570985008687907853269984665640564039452972321894702252031,[],[],0,0⟩],[⟨15,115792089237316195423570985008687907853269984665640564039452972321894702252031,[],[],0,0⟩,⟨16,4611686018427387904,[],[(0,.code),(1,.setEnt .checkBlank),(2,.cb),(3,.emb (.saw 1))],0,0⟩],[],[⟨18,41538374877950027585161004031410176,[],[],0,4⟩],[⟨19,633825300261688653338028015616,[],[],0,4⟩],[⟨20,20769187438975013792580502015705088,[],[],0,4⟩],[⟨21,40564819216748073813633792999424,[],[],0,4⟩],[⟨22,5192296859743753448145125503926272,[],[],0,4⟩],[⟨23,83076749755900055170322008062820352,[],[],0,4⟩],[⟨24,115792089237316195423570985008687907853269984665640564039452972321894702252031,[],[],0,4⟩],[⟨24,115792089237316195423570985008687907853269984665640564039452972321894702252031,[],[],0,4⟩,⟨25,83076749736557242056487941267521536,[],[],0,4⟩],[⟨26,2535301200456458802993406410752,[],[],0,0⟩],[⟨27,1329227995784915872903807060280344576,[],[],0,0⟩],[⟨28,83076749736557242056487941267521536,[],[],0,0⟩],[⟨29,140737488355328,[],[],0,0⟩],[⟨30,81129638414606681695789005144064,[],[],0,0⟩],[⟨31,158456325028528675187087900672,[],[],0,0⟩],[⟨32,332306998946228968225951765070086144,[],[],0,0⟩],[⟨33,158456325028528675187087900672,[],[],0,0⟩],[⟨34,41538374868278621028243970633760768,[],[],0,0⟩],[⟨35,633825300114114700748351602688,[],[],0,0⟩],[⟨36,20769187434139310514121985316880384,[],[],0,0⟩],[⟨37,40564819207303340847894502572032,[],[],0,0⟩],[⟨38,5192296858534827628530496329220096,[],[],0,0⟩],[⟨39,83076749736557242056487941267521536,[],[],4,0⟩],[⟨40,115792089237316195423570985008687907853269984665640564039452972321894702252031,[],[],0,0⟩],[⟨40,115792089237316195423570985008687907853269984665640564039452972321894702252031,[],[],0,0⟩,⟨41,4611686018427387904,[],[(4,.code),(5,.setEnt .checkBlank),(6,.cb),(7,.emb (.saw 2))],0,0⟩],[],[⟨43,9223372036854775808,[],[],0,0⟩],[⟨44,633825300114114700748351602688,[],[],0,0⟩],[⟨45,41538374868278621028243970633760768,[],[(8,.code),(9,.setEnt .checkBlank),(10,.cb),(11,.emb (.saw 3))],0,0⟩],[],[⟨46,4294967808,[],[(12,.setEnt (.own 0))],0,0⟩],[⟨48,8589934592,[],[],0,0⟩],[⟨49,35184372088832,[],[],0,0⟩],[⟨50,35184372088832,[],[(13,.comment)],0,0⟩],[],[],[],[⟨54,1024,[],[(16,.setEnt .newline)],0,0⟩],[],[],[],[],[]],[none,none,none,none,none,none,none,none,none,none,none,none,none,none,none,none,some (0,[]),none,none,none,none,none,none,none,none,none,none,none,none,none,none,none,none,none,none,none,none,none,none,none,none,some (1,[]),none,none,none,some (2,[]),some (3,[]),none,none,none,some (4,[]),some (5,[]),some (6,[]),none,some (7,[]),some (7,[]),some (7,[]),some (7,[]),some (8,[])],[4,8,12,13,14,15,16,17,18]⟩
def emb43_masks : List Nat := [1152921504606846976,4294967808,549755813888,17179869184,8192,1024,4096,115792089237316195423570985008687907853269984665640564039457584007908834656767,41538374877950027585161004031410176,83076749755900055170322008062820352,2658455992188801765450304258010251264,324518553733984590509070343995392,2535301201046754613352112062464,115792089237316195423570985008687907853269984665640564039452972321894702252031,83076749736557242056487941267521536,2535301200456458802993406410752,1329227995784915872903807060280344576,140737488355328,633825300114114700748351602688,41538374868278621028243970633760768,4611686018427387904,633825300261688653338028015616,20769187438975013792580502015705088,40564819216748073813633792999424,5192296859743753448145125503926272,81129638414606681695789005144064,158456325028528675187087900672,332306998946228968225951765070086144,20769187434139310514121985316880384,40564819207303340847894502572032,5192296858534827628530496329220096,9223372036854775808,8589934592,35184372088832]
def emb43_cs : List (Nat × Nat) := [(0,115792089237316195423570985008687907853265513648504117332309701619758214922751),(9,4294967808),(10,1024),(11,2048),(12,4096),(13,8192),(33,8589934592),(34,17179869184),(39,549755813888),(45,35184372088832),(47,140737488355328),(60,1152921504606846976),(62,4611686018427387904),(63,9223372036854775808),(67,147573952589676412928),(69,590295810358705651712),(73,9444732965739290427392),(76,324518553733984590509070343995392),(80,1208925819614629174706176),(82,4835703278458516698824704),(83,9671406556917033397649408),(84,19342813113834066795298816),(89,2658455992188801765450304258010251264),(97,158456325028528675187087900672),(99,633825300114114700748351602688),(101,2535301200456458802993406410752),(105,40564819207303340847894502572032),(106,81129638414606681695789005144064),(112,5192296858534827628530496329220096),(114,20769187434139310514121985316880384),(115,41538374868278621028243970633760768),(116,83076749736557242056487941267521536),(118,332306998946228968225951765070086144),(120,1329227995784915872903807060280344576)]
theorem emb43_masksIn : masksIn emb43_nfa emb43_masks = true := by decide +kernel
theorem emb43_repOk : repOk emb43_masks emb43_cs = true := by decide +kernel
def emb43_rows : List Row := [⟨[],none,[],[⟨256,.other,false,some ⟨0,[.setEnt (.own 5)],some 8,true⟩⟩,⟨256,.ws,false,some ⟨1,[.setEnt (.own 0)],some 3,false⟩⟩,⟨256,.lf,false,some ⟨0,[.setEnt .newline],some 7,true⟩⟩,⟨256,.vt,false,none⟩,⟨256,.ff,false,some ⟨0,[.setEnt .newline],some 7,true⟩⟩,⟨256,.cr,false,some ⟨2,[.setEnt .newline],none,false⟩⟩,⟨256,.cr,true,some ⟨3,[.setEnt .newline],some 7,false⟩⟩,⟨256,.other,false,some ⟨0,[.code],some 6,true⟩⟩,⟨256,.other,false,some ⟨0,[.code],some 5,true⟩⟩,⟨256,.other,false,some ⟨4,[.setEnt (.own 5)],some 8,false⟩⟩]⟩,⟨[46],some 3,[],[⟨256,.other,false,none⟩,⟨256,.ws,false,some ⟨1,[.setEnt (.own 0)],some 3,false⟩⟩,⟨256,.lf,false,none⟩,⟨256,.vt,false,none⟩,⟨256,.ff,false,none⟩,⟨256,.cr,false,none⟩,⟨256,.cr,true,none⟩]⟩,⟨[53],none,[],[⟨256,.other,false,none⟩,⟨256,.ws,false,none⟩,⟨256,.lf,false,some ⟨0,[.setEnt .newline],some 7,true⟩⟩,⟨256,.vt,false,none⟩,⟨256,.ff,false,none⟩,⟨256,.cr,false,none⟩,⟨256,.cr,true,none⟩]⟩,⟨[53,57],some 7,[],[⟨256,.other,false,none⟩,⟨256,.ws,false,none⟩,⟨256,.lf,false,some ⟨0,[.setEnt .newline],some 7,true⟩⟩,⟨256,.vt,false,none⟩,⟨256,.ff,false,none⟩,⟨256,.cr,false,none⟩,⟨256,.cr,true,none⟩]⟩,⟨[0,17,42,47,58],some 8,[],[⟨256,.other,false,none⟩,⟨256,.ws,false,none⟩,⟨256,.lf,false,none⟩,⟨256,.vt,false,none⟩,⟨256,.ff,false,none⟩,⟨256,.cr,false,none⟩,⟨256,.cr,true,none⟩,⟨256,.other,false,some ⟨5,[],none,false⟩⟩,⟨256,.other,false,some ⟨6,[],none,false⟩⟩,⟨256,.other,false,some ⟨7,[],none,false⟩⟩]⟩,⟨[48],none,[],[⟨256,.other,false,none⟩,⟨256,.ws,false,none⟩,⟨256,.lf,false,none⟩,⟨256,.vt,false,none⟩,⟨256,.ff,false,none⟩,⟨256,.cr,false,none⟩,⟨256,.cr,true,none⟩,⟨256,.other,false,some ⟨8,[],none,false⟩⟩]⟩,⟨[43],none,[],[⟨256,.other,false,none⟩,⟨256,.ws,false,none⟩,⟨256,.lf,false,none⟩,⟨256,.vt,false,none⟩,⟨256,.ff,false,none⟩,⟨256,.cr,false,none⟩,⟨256,.cr,true,none⟩,⟨256,.other,false,some ⟨9,[],none,false⟩⟩]⟩,⟨[1,18],none,[],[⟨256,.other,false,none⟩,⟨256,.ws,false,none⟩,⟨256,.lf,false,none⟩,⟨256,.vt,false,none⟩,⟨256,.ff,false,none⟩,⟨256,.cr,false,none⟩,⟨256,.cr,true,none⟩,⟨256,.other,false,some ⟨10,[],none,false⟩⟩,⟨256,.other,false,some ⟨11,[],none,false⟩⟩]⟩,⟨[49],none,[],[⟨256,.other,false,none⟩,⟨256,.ws,false,none⟩,⟨256,.lf,false,none⟩,⟨256,.vt,false,none⟩,⟨256,.ff,false,none⟩,⟨256,.cr,false,none⟩,⟨256,.cr,true,none⟩,⟨256,.other,false,some ⟨0,[.comment],some 4,true⟩⟩]⟩,⟨[44],none,[],[⟨256,.other,false,none⟩,⟨256,.ws,false,none⟩,⟨256,.lf,false,none⟩,⟨256,.vt,false,none⟩,⟨256,.ff,false,none⟩,⟨256,.cr,false,none⟩,⟨256,.cr,true,none⟩,⟨256,.other,false,some ⟨0,[.code,.setEnt .checkBlank,.cb,.emb (.saw 3)],some 2,true⟩⟩]⟩,⟨[19],none,[],[⟨256,.other,false,none⟩,⟨256,.ws,false,none⟩,⟨256,.lf,false,none⟩,⟨256,.vt,false,none⟩,⟨256,.ff,false,none⟩,⟨256,.cr,false,none⟩,⟨256,.cr,true,none⟩,⟨256,.other,false,some ⟨12,[],none,false⟩⟩]⟩,⟨[2],none,[],[⟨256,.other,false,none⟩,⟨256,.ws,false,none⟩,⟨256,.lf,false,none⟩,⟨256,.vt,false,none⟩,⟨256,.ff,false,none⟩,⟨256,.cr,false,none⟩,⟨256,.cr,true,none⟩,⟨256,.other,false,some ⟨13,[],none,false⟩⟩]⟩,⟨[20],none,[],[⟨256,.other,false,none⟩,⟨256,.ws,false,none⟩,⟨256,.lf,false,none⟩,⟨256,.vt,false,none⟩,⟨256,.ff,false,none⟩,⟨256,.cr,false,none⟩,⟨256,.cr,true,none⟩,⟨256,.other,false,some ⟨14,[],none,false⟩⟩]⟩,⟨[3],none,[],[⟨256,.other,false,none⟩,⟨256,.ws,false,none⟩,⟨256,.lf,false,none⟩,⟨256,.vt,false,none⟩,⟨256,.ff,false,none⟩,⟨256,.cr,false,none⟩,⟨256,.cr,true,none⟩,⟨256,.other,false,some ⟨15,[],none,false⟩⟩]⟩,⟨[21],none,[],[⟨256,.other,false,none⟩,⟨256,.ws,false,none⟩,⟨256,.lf,false,none⟩,⟨256,.vt,false,none⟩,⟨256,.ff,false,none⟩,⟨256,.cr,false,none⟩,⟨256,.cr,true,none⟩,⟨256,.other,false,some ⟨16,[],none,false⟩⟩]⟩,⟨[4],none,[],[⟨256,.other,false,none⟩,⟨256,.ws,false,none⟩,⟨256,.lf,false,none⟩,⟨256,.vt,false,none⟩,⟨256,.ff,false,none⟩,⟨256,.cr,false,none⟩,⟨256,.cr,true,none⟩,⟨256,.other,false,some ⟨17,[],none,false⟩⟩]⟩,⟨[22],none,[],[⟨256,.other,false,none⟩,⟨256,.ws,false,none⟩,⟨256,.lf,false,none⟩,⟨256,.vt,false,none⟩,⟨256,.ff,false,none⟩,⟨256,.cr,false,none⟩,⟨256,.cr,true,none⟩,⟨256,.other,false,some ⟨18,[],none,false⟩⟩]⟩,⟨[5],none,[],[⟨256,.other,false,some ⟨19,[],none,false⟩⟩,⟨256,.ws,false,some ⟨19,[],none,false⟩⟩,⟨256,.lf,false,some ⟨19,[],none,false⟩⟩,⟨256,.vt,false,some ⟨19,[],none,false⟩⟩,⟨256,.ff,false,some ⟨19,[],none,false⟩⟩,⟨256,.cr,false,some ⟨19,[],none,false⟩⟩,⟨256,.cr,true,some ⟨19,[],none,false⟩⟩,⟨256,.other,false,none⟩]⟩,⟨[23],none,[],[⟨256,.other,false,some ⟨20,[],none,false⟩⟩,⟨256,.ws,false,some ⟨20,[],none,false⟩⟩,⟨256,.lf,false,some ⟨20,[],none,false⟩⟩,⟨256,.vt,false,some ⟨20,[],none,false⟩⟩,⟨256,.ff,false,some ⟨20,[],none,false⟩⟩,⟨256,.cr,false,some ⟨20,[],none,false⟩⟩,⟨256,.cr,true,some ⟨20,[],none,false⟩⟩,⟨256,.other,false,none⟩]⟩,⟨[6],none,[],[⟨256,.other,false,some ⟨19,[],none,false⟩⟩,⟨256,.ws,false,some ⟨19,[],none,false⟩⟩,⟨256,.lf,false,some ⟨19,[],none,false⟩⟩,⟨256,.vt,false,some ⟨19,[],none,false⟩⟩,⟨256,.ff,false,some ⟨19,[],none,false⟩⟩,⟨256,.cr,false,some ⟨19,[],none,false⟩⟩,⟨256,.cr,true,some ⟨19,[],none,false⟩⟩,⟨256,.other,false,none⟩,⟨256,.other,false,some ⟨21,[],none,false⟩⟩]⟩,⟨[24],none,[],[⟨256,.other,false,some ⟨20,[],none,false⟩⟩,⟨256,.ws,false,some ⟨20,[],none,false⟩⟩,⟨256,.lf,false,some ⟨20,[],none,false⟩⟩,⟨256,.vt,false,some ⟨20,[],none,false⟩⟩,⟨256,.ff,false,some ⟨20,[],none,false⟩⟩,⟨256,.cr,false,some ⟨20,[],none,false⟩⟩,⟨256,.cr,true,some ⟨20,[],none,false⟩⟩,⟨256,.other,false,none⟩,⟨256,.other,false,some ⟨22,[],none,false⟩⟩]⟩,⟨[6,7],none,[],[⟨256,.other,false,some ⟨19,[],none,false⟩⟩,⟨256,.ws,false,some ⟨19,[],none,false⟩⟩,⟨256,.lf,false,some ⟨19,[],none,false⟩⟩,⟨256,.vt,false,some ⟨19,[],none,false⟩⟩,⟨256,.ff,false,some ⟨19,[],none,false⟩⟩,⟨256,.cr,false,some ⟨19,[],none,false⟩⟩,⟨256,.cr,true,some ⟨19,[],none,false⟩⟩,⟨256,.other,false,none⟩,⟨256,.other,false,some ⟨23,[],none,false⟩⟩,⟨256,.other,false,some ⟨21,[],none,false⟩⟩]⟩,⟨[24,25],none,[],[⟨256,.other,false,some ⟨20,[],none,false⟩⟩,⟨256,.ws,false,some ⟨20,[],none,false⟩⟩,⟨256,.lf,false,some ⟨20,[],none,false⟩⟩,⟨256,.vt,false,some ⟨20,[],none,false⟩⟩,⟨256,.ff,false,some ⟨20,[],none,false⟩⟩,⟨256,.cr,false,some ⟨20,[],none,false⟩⟩,⟨256,.cr,true,some ⟨20,[],none,false⟩⟩,⟨256,.other,false,none⟩,⟨256,.other,false,some ⟨24,[],none,false⟩⟩,⟨256,.other,false,some ⟨22,[],none,false⟩⟩]⟩,⟨[6,8],none,[],[⟨256,.other,false,some ⟨19,[],none,false⟩⟩,⟨256,.ws,false,some ⟨19,[],none,false⟩⟩,⟨256,.lf,false,some ⟨19,[],none,false⟩⟩,⟨256,.vt,false,some ⟨19,[],none,false⟩⟩,⟨256,.ff,false,some ⟨19,[],none,false⟩⟩,⟨256,.cr,false,some ⟨19,[],none,false⟩⟩,⟨256,.cr,true,some ⟨19,[],none,false⟩⟩,⟨256,.other,false,none⟩,⟨256,.other,false,some ⟨21,[],none,false⟩⟩,⟨256,.other,false,some ⟨25,[],none,false⟩⟩]⟩,⟨[24,26],none,[],[⟨256,.other,false,some ⟨20,[],none,false⟩⟩,⟨256,.ws,false,some ⟨20,[],none,false⟩⟩,⟨256,.lf,false,some ⟨20,[],none,false⟩⟩,⟨256,.vt,false,some ⟨20,[],none,false⟩⟩,⟨256,.ff,false,some ⟨20,[],none,false⟩⟩,⟨256,.cr,false,some ⟨20,[],none,false⟩⟩,⟨256,.cr,true,some ⟨20,[],none,false⟩⟩,⟨256,.other,false,none⟩,⟨256,.other,false,some ⟨22,[],none,false⟩⟩,⟨256,.other,false,some ⟨26,[],none,false⟩⟩]⟩,⟨[6,9],none,[],[⟨256,.other,false,some ⟨19,[],none,false⟩⟩,⟨256,.ws,false,some ⟨19,[],none,false⟩⟩,⟨256,.lf,false,some ⟨19,[],none,false⟩⟩,⟨256,.vt,false,some ⟨19,[],none,false⟩⟩,⟨256,.ff,false,some ⟨19,[],none,false⟩⟩,⟨256,.cr,false,some ⟨19,[],none,false⟩⟩,⟨256,.cr,true,some ⟨19,[],none,false⟩⟩,⟨256,.other,false,none⟩,⟨256,.other,false,some ⟨27,[],none,false⟩⟩]⟩,⟨[24,27],none,[],[⟨256,.other,false,some ⟨20,[],none,false⟩⟩,⟨256,.ws,false,some ⟨20,[],none,false⟩⟩,⟨256,.lf,false,some ⟨20,[],none,false⟩⟩,⟨256,.vt,false,some ⟨20,[],none,false⟩⟩,⟨256,.ff,false,some ⟨20,[],none,false⟩⟩,⟨256,.cr,false,some ⟨20,[],none,false⟩⟩,⟨256,.cr,true,some ⟨20,[],none,false⟩⟩,⟨256,.other,false,none⟩,⟨256,.other,false,some ⟨28,[],none,false⟩⟩]⟩,⟨[6,7,10],none,[],[⟨256,.other,false,some ⟨19,[],none,false⟩⟩,⟨256,.ws,false,some ⟨19,[],none,false⟩⟩,⟨256,.lf,false,some ⟨19,[],none,false⟩⟩,⟨256,.vt,false,some ⟨19,[],none,false⟩⟩,⟨256,.ff,false,some ⟨19,[],none,false⟩⟩,⟨256,.cr,false,some ⟨19,[],none,false⟩⟩,⟨256,.cr,true,some ⟨19,[],none,false⟩⟩,⟨256,.other,false,some ⟨29,[],none,false⟩⟩,⟨256,.other,false,none⟩,⟨256,.other,false,some ⟨23,[],none,false⟩⟩,⟨256,.other,false,some ⟨21,[],none,false⟩⟩]⟩,⟨[24,25,28],none,[],[⟨256,.other,false,some ⟨20,[],none,false⟩⟩,⟨256,.ws,false,some ⟨20,[],none,false⟩⟩,⟨256,.lf,false,some ⟨20,[],none,false⟩⟩,⟨256,.vt,false,some ⟨20,[],none,false⟩⟩,⟨256,.ff,false,some ⟨20,[],none,false⟩⟩,⟨256,.cr,false,some ⟨20,[],none,false⟩⟩,⟨256,.cr,true,some ⟨20,[],none,false⟩⟩,⟨256,.other,false,some ⟨30,[],none,false⟩⟩,⟨256,.other,false,none⟩,⟨256,.other,false,some ⟨24,[],none,false⟩⟩,⟨256,.other,false,some ⟨22,[],none,false⟩⟩]⟩,⟨[6,11],none,[],[⟨256,.other,false,some ⟨19,[],none,false⟩⟩,⟨256,.ws,false,some ⟨19,[],none,false⟩⟩,⟨256,.lf,false,some ⟨19,[],none,false⟩⟩,⟨256,.vt,false,some ⟨19,[],none,false⟩⟩,⟨256,.ff,false,some ⟨19,[],none,false⟩⟩,⟨256,.cr,false,some ⟨19,[],none,false⟩⟩,⟨256,.cr,true,some ⟨19,[],none,false⟩⟩,⟨256,.other,false,none⟩,⟨256,.other,false,some ⟨31,[],none,false⟩⟩,⟨256,.other,false,some ⟨21,[],none,false⟩⟩]⟩,⟨[24,29],none,[],[⟨256,.other,false,some ⟨20,[],none,false⟩⟩,⟨256,.ws,false,some ⟨20,[],none,false⟩⟩,⟨256,.lf,false,some ⟨20,[],none,false⟩⟩,⟨256,.vt,false,some ⟨20,[],none,false⟩⟩,⟨256,.ff,false,some ⟨20,[],none,false⟩⟩,⟨256,.cr,false,some ⟨20,[],none,false⟩⟩,⟨256,.cr,true,some ⟨20,[],none,false⟩⟩,⟨256,.other,false,none⟩,⟨256,.other,false,some ⟨32,[],none,false⟩⟩,⟨256,.other,false,some ⟨22,[],none,false⟩⟩]⟩,⟨[6,12],none,[],[⟨256,.other,false,some ⟨19,[],none,false⟩⟩,⟨256,.ws,false,some ⟨19,[],none,false⟩⟩,⟨256,.lf,false,some ⟨19,[],none,false⟩⟩,⟨256,.vt,false,some ⟨19,[],none,false⟩⟩,⟨256,.ff,false,some ⟨19,[],none,false⟩⟩,⟨256,.cr,false,some ⟨19,[],none,false⟩⟩,⟨256,.cr,true,some ⟨19,[],none,false⟩⟩,⟨256,.other,false,none⟩,⟨256,.other,false,some ⟨33,[],none,false⟩⟩,⟨256,.other,false,some ⟨21,[],none,false⟩⟩]⟩,⟨[24,30],none,[],[⟨256,.other,false,some ⟨20,[],none,false⟩⟩,⟨256,.ws,false,some ⟨20,[],none,false⟩⟩,⟨256,.lf,false,some ⟨20,[],none,false⟩⟩,⟨256,.vt,false,some ⟨20,[],none,false⟩⟩,⟨256,.ff,false,some ⟨20,[],none,false⟩⟩,⟨256,.cr,false,some ⟨20,[],none,false⟩⟩,⟨256,.cr,true,some ⟨20,[],none,false⟩⟩,⟨256,.other,false,none⟩,⟨256,.other,false,some ⟨34,[],none,false⟩⟩,⟨256,.other,false,some ⟨22,[],none,false⟩⟩]⟩,⟨[6,13],none,[],[⟨256,.other,false,some ⟨19,[],none,false⟩⟩,⟨256,.ws,false,some ⟨19,[],none,false⟩⟩,⟨256,.lf,false,some ⟨19,[],none,false⟩⟩,⟨256,.vt,false,some ⟨19,[],none,false⟩⟩,⟨256,.ff,false,some ⟨19,[],none,false⟩⟩,⟨256,.cr,false,some ⟨19,[],none,false⟩⟩,⟨256,.cr,true,some ⟨19,[],none,false⟩⟩,⟨256,.other,false,none⟩,⟨256,.other,false,some ⟨35,[],none,false⟩⟩,⟨256,.other,false,some ⟨21,[],none,false⟩⟩]⟩,⟨[24,31],none,[],[⟨256,.other,false,some ⟨20,[],none,false⟩⟩,⟨256,.ws,false,some ⟨20,[],none,false⟩⟩,⟨256,.lf,false,some ⟨20,[],none,false⟩⟩,⟨256,.vt,false,some ⟨20,[],none,false⟩⟩,⟨256,.ff,false,some ⟨20,[],none,false⟩⟩,⟨256,.cr,false,some ⟨20,[],none,false⟩⟩,⟨256,.cr,true,some ⟨20,[],none,false⟩⟩,⟨256,.other,false,none⟩,⟨256,.other,false,some ⟨22,[],none,false⟩⟩,⟨256,.other,false,some ⟨36,[],none,false⟩⟩]⟩,⟨[14],none,[],[⟨256,.other,false,some ⟨37,[],none,false⟩⟩,⟨256,.ws,false,some ⟨37,[],none,false⟩⟩,⟨256,.lf,false,some ⟨37,[],none,false⟩⟩,⟨256,.vt,false,some ⟨37,[],none,false⟩⟩,⟨256,.ff,false,some ⟨37,[],none,false⟩⟩,⟨256,.cr,false,some ⟨37,[],none,false⟩⟩,⟨256,.cr,true,some ⟨37,[],none,false⟩⟩,⟨256,.other,false,none⟩]⟩,⟨[24,32],none,[],[⟨256,.other,false,some ⟨20,[],none,false⟩⟩,⟨256,.ws,false,some ⟨20,[],none,false⟩⟩,⟨256,.lf,false,some ⟨20,[],none,false⟩⟩,⟨256,.vt,false,some ⟨20,[],none,false⟩⟩,⟨256,.ff,false,some ⟨20,[],none,false⟩⟩,⟨256,.cr,false,some ⟨20,[],none,false⟩⟩,⟨256,.cr,true,some ⟨20,[],none,false⟩⟩,⟨256,.other,false,none⟩,⟨256,.other,false,some ⟨38,[],none,false⟩⟩,⟨256,.other,false,some ⟨22,[],none,false⟩⟩]⟩,⟨[15],none,[],[⟨256,.other,false,some ⟨37,[],none,false⟩⟩,⟨256,.ws,false,some ⟨37,[],none,false⟩⟩,⟨256,.lf,false,some ⟨37,[],none,false⟩⟩,⟨256,.vt,false,some ⟨37,[],none,false⟩⟩,⟨256,.ff,false,some ⟨37,[],none,false⟩⟩,⟨256,.cr,false,some ⟨37,[],none,false⟩⟩,⟨256,.cr,true,some ⟨37,[],none,false⟩⟩,⟨256,.other,false,some ⟨0,[.code,.setEnt .checkBlank,.cb,.emb (.saw 1)],some 0,true⟩⟩]⟩,⟨[24,33],none,[],[⟨256,.other,false,some ⟨20,[],none,false⟩⟩,⟨256,.ws,false,some ⟨20,[],none,false⟩⟩,⟨256,.lf,false,some ⟨20,[],none,false⟩⟩,⟨256,.vt,false,some ⟨20,[],none,false⟩⟩,⟨256,.ff,false,some ⟨20,[],none,false⟩⟩,⟨256,.cr,false,some ⟨20,[],none,false⟩⟩,⟨256,.cr,true,some ⟨20,[],none,false⟩⟩,⟨256,.other,false,none⟩,⟨256,.other,false,some ⟨39,[],none,false⟩⟩,⟨256,.other,false,some ⟨22,[],none,false⟩⟩]⟩,⟨[24,34],none,[],[⟨256,.other,false,some ⟨20,[],none,false⟩⟩,⟨256,.ws,false,some ⟨20,[],none,false⟩⟩,⟨256,.lf,false,some ⟨20,[],none,false⟩⟩,⟨256,.vt,false,some ⟨20,[],none,false⟩⟩,⟨256,.ff,false,some ⟨20,[],none,false⟩⟩,⟨256,.cr,false,some ⟨20,[],none,false⟩⟩,⟨256,.cr,true,some ⟨20,[],none,false⟩⟩,⟨256,.other,false,none⟩,⟨256,.other,false,some ⟨40,[],none,false⟩⟩,⟨256,.other,false,some ⟨22,[],none,false⟩⟩]⟩,⟨[24,35],none,[],[⟨256,.other,false,some ⟨20,[],none,false⟩⟩,⟨256,.ws,false,some ⟨20,[],none,false⟩⟩,⟨256,.lf,false,some ⟨20,[],none,false⟩⟩,⟨256,.vt,false,some ⟨20,[],none,false⟩⟩,⟨256,.ff,false,some ⟨20,[],none,false⟩⟩,⟨256,.cr,false,some ⟨20,[],none,false⟩⟩,⟨256,.cr,true,some ⟨20,[],none,false⟩⟩,⟨256,.other,false,none⟩,⟨256,.other,false,some ⟨41,[],none,false⟩⟩,⟨256,.other,false,some ⟨22,[],none,false⟩⟩]⟩,⟨[24,36],none,[],[⟨256,.other,false,some ⟨20,[],none,false⟩⟩,⟨256,.ws,false,some ⟨20,[],none,false⟩⟩,⟨256,.lf,false,some ⟨20,[],none,false⟩⟩,⟨256,.vt,false,some ⟨20,[],none,false⟩⟩,⟨256,.ff,false,some ⟨20,[],none,false⟩⟩,⟨256,.cr,false,some ⟨20,[],none,false⟩⟩,⟨256,.cr,true,some ⟨20,[],none,false⟩⟩,⟨256,.other,false,none⟩,⟨256,.other,false,some ⟨42,[],none,false⟩⟩,⟨256,.other,false,some ⟨22,[],none,false⟩⟩]⟩,⟨[24,37],none,[],[⟨256,.other,false,some ⟨20,[],none,false⟩⟩,⟨256,.ws,false,some ⟨20,[],none,false⟩⟩,⟨256,.lf,false,some ⟨20,[],none,false⟩⟩,⟨256,.vt,false,some ⟨20,[],none,false⟩⟩,⟨256,.ff,false,some ⟨20,[],none,false⟩⟩,⟨256,.cr,false,some ⟨20,[],none,false⟩⟩,⟨256,.cr,true,some ⟨20,[],none,false⟩⟩,⟨256,.other,false,none⟩,⟨256,.other,false,some ⟨43,[],none,false⟩⟩,⟨256,.other,false,some ⟨22,[],none,false⟩⟩]⟩,⟨[24,38],none,[],[⟨256,.other,false,some ⟨20,[],none,false⟩⟩,⟨256,.ws,false,some ⟨20,[],none,false⟩⟩,⟨256,.lf,false,some ⟨20,[],none,false⟩⟩,⟨256,.vt,false,some ⟨20,[],none,false⟩⟩,⟨256,.ff,false,some ⟨20,[],none,false⟩⟩,⟨256,.cr,false,some ⟨20,[],none,false⟩⟩,⟨256,.cr,true,some ⟨20,[],none,false⟩⟩,⟨256,.other,false,none⟩,⟨256,.other,false,some ⟨44,[],none,false⟩⟩]⟩,⟨[39],none,[],[⟨256,.other,false,some ⟨45,[],none,false⟩⟩,⟨256,.ws,false,some ⟨45,[],none,false⟩⟩,⟨256,.lf,false,some ⟨45,[],none,false⟩⟩,⟨256,.vt,false,some ⟨45,[],none,false⟩⟩,⟨256,.ff,false,some ⟨45,[],none,false⟩⟩,⟨256,.cr,false,some ⟨45,[],none,false⟩⟩,⟨256,.cr,true,some ⟨45,[],none,false⟩⟩,⟨256,.other,false,none⟩]⟩,⟨[40],none,[],[⟨256,.other,false,some ⟨45,[],none,false⟩⟩,⟨256,.ws,false,some ⟨45,[],none,false⟩⟩,⟨256,.lf,false,some ⟨45,[],none,false⟩⟩,⟨256,.vt,false,some ⟨45,[],none,false⟩⟩,⟨256,.ff,false,some ⟨45,[],none,false⟩⟩,⟨256,.cr,false,some ⟨45,[],none,false⟩⟩,⟨256,.cr,true,some ⟨45,[],none,false⟩⟩,⟨256,.other,false,some ⟨0,[.code,.setEnt .checkBlank,.cb,.emb (.saw 2)],some 1,true⟩⟩]⟩]
theorem emb43_rowsOk : rowsOk emb43_nfa [] (emb43_cs.map (·.1)) emb43_rows = true := by decide +kernel
def emb43_D : Dfa emb43_nfa := ⟨emb43_masks, [], emb43_cs, emb43_rows, emb43_masksIn, emb43_repOk, emb43_rowsOk⟩

/-- The automaton of `Emb.Clearsilverhtml.cshtml_entity`. -/
def emb45_nfa : Nfa := ⟨[⟨0,1152921504606846976,[],[],0,2⟩,⟨17,1152921504606846976,[],[],0,4⟩,⟨42,1152921504606846976,[],[],0,0⟩,⟨46,4294983168,[],[(0,.setEnt (.own 0))],0,0⟩,⟨47,1152921504606846976,[],[(1,.setEnt (.own 1))],0,8⟩,⟨55,115792089237316195423570985008687907853269984665640564039457584007908834656767,[],[],0,0⟩],[[⟨1,41538374877950027585161004031410176,[],[],0,2⟩],[⟨2,83076749755900055170322008062820352,[],[],0,2⟩],[⟨3,2658455992188801765450304258010251264,[],[],0,2⟩],[⟨4,324518553733984590509070343995392,[],[],0,2⟩],[⟨5,2535301201046754613352112062464,[],[],0,2⟩],[⟨6,115792089237316195423570985008687907853269984665640564039452972321894702252031,[],[],0,2⟩],[⟨6,115792089237316195423570985008687907853269984665640564039452972321894702252031,[],[],0,2⟩,⟨7,83076749736557242056487941267521536,[],[],0,2⟩],[⟨8,2535301200456458802993406410752,[],[],0,0⟩],[⟨9,1329227995784915872903807060280344576,[],[],0,0⟩],[⟨10,83076749736557242056487941267521536,[],[],0,0⟩],[⟨11,140737488355328,[],[],0,0⟩],[⟨12,633825300114114700748351602688,[],[],0,0⟩],[⟨13,41538374868278621028243970633760768,[],[],0,0⟩],[⟨14,41538374868278621028243970633760768,[],[],2,0⟩],[⟨15,115792089237316195423570985008687907853269984665640564039452972321894702252031,[],[],0,0⟩],[⟨15,115792089237316195423570985008687907853269984665640564039452972321894702252031,[],[],0,0⟩,⟨16,4611686018427387904,[],[],0,0⟩],[],[⟨18,41538374877950027585161004031410176,[],[],0,4⟩],[⟨19,633825300261688653338028015616,[],[],0,4⟩],[⟨20,20769187438975013792580502015705088,[],[],0,4⟩],[⟨21,40564819216748073813633792999424,[],[],0,4⟩],[⟨22,5192296859743753448145125503926272,[],[],0,4⟩],[⟨23,83076749755900055170322008062820352,[],[],0,4⟩],[⟨24,115792089237316195423570985008687907853269984665640564039452972321894702252031,[],[],0,4⟩],[⟨24,115792089237316195423570985008687907853269984665640564039452972321894702252031,[],[],0,4⟩,⟨25,83076749736557242056487941267521536,[],[],0,4⟩],[⟨26,2535301200456458802993406410752,[],[],0,0⟩],[⟨27,1329227995784915872903807060280344576,[],[],0,0⟩],[⟨28,83076749736557242056487941267521536,[],[],0,0⟩],[⟨29,140737488355328,[],[],0,0⟩],[⟨30,81129638414606681695789005144064,[],[],0,0⟩],[⟨31,158456325028528675187087900672,[],[],0,0⟩],[⟨32,332306998946228968225951765070086144,[],[],0,0⟩],[⟨33,158456325028528675187087900672,[],[],0,0⟩],[⟨34,41538374868278621028243970633760768,[],[],0,0⟩],[⟨35,633825300114114700748351602688,[],[],0,0⟩],[⟨36,20769187434139310514121985316880384,[],[],0,0⟩],[⟨37,40564819207303340847894502572032,[],[],0,0⟩],[⟨38,5192296858534827628530496329220096,[],[],0,0⟩],[⟨39,83076749736557242056487941267521536,[],[],4,0⟩],[⟨40,115792089237316195423570985008687907853269984665640564039452972321894702252031,[],[],0,0⟩],[⟨40,115792089237316195423570985008687907853269984665640564039452972321894702252031,[],[],0,0⟩,⟨41,4611686018427387904,[],[],0,0⟩],[],[⟨43,9223372036854775808,[],[],0,0⟩],[⟨44,633825300114114700748351602688,[],[],0,0⟩],[⟨45,41538374868278621028243970633760768,[],[],0,0⟩],[],[⟨46,4294983168,[],[(0,.setEnt (.own 0))],0,0⟩],[⟨48,8589934592,[],[(1,.setEnt (.own 1))],0,8⟩],[⟨49,35184372088832,[],[(1,.setEnt (.own 1))],0,8⟩],[⟨50,35184372088832,[],[(1,.setEnt (.own 1))],0,8⟩],[⟨51,115792089237316195423570985008687907853269984665640564039457584007913129639935,[],[(1,.setEnt (.own 1))],0,8⟩,⟨52,35184372088832,[],[(1,.setEnt (.own 1))],0,8⟩],[⟨51,115792089237316195423570985008687907853269984665640564039457584007913129639935,[],[(1,.setEnt (.own 1))],0,8⟩,⟨52,35184372088832,[],[(1,.setEnt (.own 1))],0,8⟩],[⟨53,35184372088832,[],[(1,.setEnt (.own 1))],0,0⟩],[⟨54,4611686018427387904,[],[(1,.setEnt (.own 1))],8,0⟩],[],[]],[none,none,none,none,none,none,none,none,none,none,none,none,none,none,none,none,some (0,[]),none,none,none,none,none,none,none,none,none,none,none,none,none,none,none,none,none,none,none,none,none,none,none,none,some (1,[]),none,none,none,some (2,[]),some (3,[]),none,none,none,none,none,none,none,some (4,[]),some (5,[])],[0,0,0,1,2,2]⟩
def emb45_masks : List Nat := [1152921504606846976,4294983168,115792089237316195423570985008687907853269984665640564039457584007908834656767,41538374877950027585161004031410176,83076749755900055170322008062820352,2658455992188801765450304258010251264,324518553733984590509070343995392,2535301201046754613352112062464,115792089237316195423570985008687907853269984665640564039452972321894702252031,83076749736557242056487941267521536,2535301200456458802993406410752,1329227995784915872903807060280344576,140737488355328,633825300114114700748351602688,41538374868278621028243970633760768,4611686018427387904,633825300261688653338028015616,20769187438975013792580502015705088,40564819216748073813633792999424,5192296859743753448145125503926272,81129638414606681695789005144064,158456325028528675187087900672,332306998946228968225951765070086144,20769187434139310514121985316880384,40564819207303340847894502572032,5192296858534827628530496329220096,9223372036854775808,8589934592,35184372088832,115792089237316195423570985008687907853269984665640564039457584007913129639935]
def emb45_cs : List (Nat × Nat) := [(0,115792089237316195423570985008687907853265513648504117332309701620325150605823),(9,4294967808),(10,1024),(11,2048),(12,4096),(13,8192),(33,8589934592),(45,35184372088832),(47,140737488355328),(60,1152921504606846976),(62,4611686018427387904),(63,9223372036854775808),(67,147573952589676412928),(69,590295810358705651712),(73,9444732965739290427392),(76,324518553733984590509070343995392),(80,1208925819614629174706176),(82,4835703278458516698824704),(83,9671406556917033397649408),(84,19342813113834066795298816),(89,2658455992188801765450304258010251264),(97,158456325028528675187087900672),(99,633825300114114700748351602688),(101,2535301200456458802993406410752),(105,40564819207303340847894502572032),(106,81129638414606681695789005144064),(112,5192296858534827628530496329220096),(114,20769187434139310514121985316880384),(115,41538374868278621028243970633760768),(116,83076749736557242056487941267521536),(118,332306998946228968225951765070086144),(120,1329227995784915872903807060280344576)]
theorem emb45_masksIn : masksIn emb45_nfa emb45_masks = true := by decide +kernel
theorem emb45_repOk : repOk emb45_masks emb45_cs = true := by decide +kernel
def emb45_rows : List Row := [⟨[],none,[],[⟨256,.other,false,some ⟨0,[],some 5,true⟩⟩,⟨256,.ws,false,some ⟨1,[.setEnt (.own 0)],some 3,false⟩⟩,⟨256,.lf,false,some ⟨1,[.setEnt (.own 0)],some 3,false⟩⟩,⟨256,.vt,false,some ⟨1,[.setEnt (.own 0)],some 3,false⟩⟩,⟨256,.ff,false,some ⟨1,[.setEnt (.own 0)],some 3,false⟩⟩,⟨256,.cr,false,some ⟨1,[.setEnt (.own 0)],some 3,false⟩⟩,⟨256,.cr,true,some ⟨1,[.setEnt (.own 0)],some 3,false⟩⟩,⟨256,.other,false,some ⟨2,[.setEnt (.own 1)],some 5,false⟩⟩]⟩,⟨[46],some 3,[],[⟨256,.other,false,none⟩,⟨256,.ws,false,some ⟨1,[.setEnt (.own 0)],some 3,false⟩⟩,⟨256,.lf,false,some ⟨1,[.setEnt (.own 0)],some 3,false⟩⟩,⟨256,.vt,false,some ⟨1,[.setEnt (.own 0)],some 3,false⟩⟩,⟨256,.ff,false,some ⟨1,[.setEnt (.own 0)],some 3,false⟩⟩,⟨256,.cr,false,some ⟨1,[.setEnt (.own 0)],some 3,false⟩⟩,⟨256,.cr,true,some ⟨1,[.setEnt (.own 0)],some 3,false⟩⟩]⟩,⟨[0,17,42,47,55],some 5,[],[⟨256,.other,false,none⟩,⟨256,.ws,false,none⟩,⟨256,.lf,false,none⟩,⟨256,.vt,false,none⟩,⟨256,.ff,false,none⟩,⟨256,.cr,false,none⟩,⟨256,.cr,true,none⟩,⟨256,.other,false,some ⟨3,[.setEnt (.own 1)],none,false⟩⟩,⟨256,.other,false,some ⟨4,[],none,false⟩⟩,⟨256,.other,false,some ⟨5,[],none,false⟩⟩]⟩,⟨[48],none,[],[⟨256,.other,false,none⟩,⟨256,.ws,false,none⟩,⟨256,.lf,false,none⟩,⟨256,.vt,false,none⟩,⟨256,.ff,false,none⟩,⟨256,.cr,false,none⟩,⟨256,.cr,true,none⟩,⟨256,.other,false,some ⟨6,[.setEnt (.own 1)],none,false⟩⟩]⟩,⟨[43],none,[],[⟨256,.other,false,none⟩,⟨256,.ws,false,none⟩,⟨256,.lf,false,none⟩,⟨256,.vt,false,none⟩,⟨256,.ff,false,none⟩,⟨256,.cr,false,none⟩,⟨256,.cr,true,none⟩,⟨256,.other,false,some ⟨7,[],none,false⟩⟩]⟩,⟨[1,18],none,[],[⟨256,.other,false,none⟩,⟨256,.ws,false,none⟩,⟨256,.lf,false,none⟩,⟨256,.vt,false,none⟩,⟨256,.ff,false,none⟩,⟨256,.cr,false,none⟩,⟨256,.cr,true,none⟩,⟨256,.other,false,some ⟨8,[],none,false⟩⟩,⟨256,.other,false,some ⟨9,[],none,false⟩⟩]⟩,⟨[49],none,[],[⟨256,.other,false,none⟩,⟨256,.ws,false,none⟩,⟨256,.lf,false,none⟩,⟨256,.vt,false,none⟩,⟨256,.ff,false,none⟩,⟨256,.cr,false,none⟩,⟨256,.cr,true,none⟩,⟨256,.other,false,some ⟨10,[.setEnt (.own 1)],none,false⟩⟩]⟩,⟨[44],none,[],[⟨256,.other,false,none⟩,⟨256,.ws,false,none⟩,⟨256,.lf,false,none⟩,⟨256,.vt,false,none⟩,⟨256,.ff,false,none⟩,⟨256,.cr,false,none⟩,⟨256,.cr,true,none⟩,⟨256,.other,false,some ⟨0,[],some 2,true⟩⟩]⟩,⟨[19],none,[],[⟨256,.other,false,none⟩,⟨256,.ws,false,none⟩,⟨256,.lf,false,none⟩,⟨256,.vt,false,none⟩,⟨256,.ff,false,none⟩,⟨256,.cr,false,none⟩,⟨256,.cr,true,none⟩,⟨256,.other,false,some ⟨11,[],none,false⟩⟩]⟩,⟨[2],none,[],[⟨256,.other,false,none⟩,⟨256,.ws,false,none⟩,⟨256,.lf,false,none⟩,⟨256,.vt,false,none⟩,⟨256,.ff,false,none⟩,⟨256,.cr,false,none⟩,⟨256,.cr,true,none⟩,⟨256,.other,false,some ⟨12,[],none,false⟩⟩]⟩,⟨[50],none,[],[⟨256,.other,false,some ⟨13,[.setEnt (.own 1)],none,false⟩⟩,⟨256,.ws,false,some ⟨13,[.setEnt (.own 1)],none,false⟩⟩,⟨256,.lf,false,some ⟨13,[.setEnt (.own 1)],none,false⟩⟩,⟨256,.vt,false,some ⟨13,[.setEnt (.own 1)],none,false⟩⟩,⟨256,.ff,false,some ⟨13,[.setEnt (.own 1)],none,false⟩⟩,⟨256,.cr,false,some ⟨13,[.setEnt (.own 1)],none,false⟩⟩,⟨256,.cr,true,some ⟨13,[.setEnt (.own 1)],none,false⟩⟩,⟨256,.other,false,some ⟨14,[.setEnt (.own 1)],none,false⟩⟩]⟩,⟨[20],none,[],[⟨256,.other,false,none⟩,⟨256,.ws,false,none⟩,⟨256,.lf,false,none⟩,⟨256,.vt,false,none⟩,⟨256,.ff,false,none⟩,⟨256,.cr,false,none⟩,⟨256,.cr,true,none⟩,⟨256,.other,false,some ⟨15,[],none,false⟩⟩]⟩,⟨[3],none,[],[⟨256,.other,false,none⟩,⟨256,.ws,false,none⟩,⟨256,.lf,false,none⟩,⟨256,.vt,false,none⟩,⟨256,.ff,false,none⟩,⟨256,.cr,false,none⟩,⟨256,.cr,true,none⟩,⟨256,.other,false,some ⟨16,[],none,false⟩⟩]⟩,⟨[51],none,[],[⟨256,.other,false,some ⟨13,[.setEnt (.own 1)],none,false⟩⟩,⟨256,.ws,false,some ⟨13,[.setEnt (.own 1)],none,false⟩⟩,⟨256,.lf,false,some ⟨13,[.setEnt (.own 1)],none,false⟩⟩,⟨256,.vt,false,some ⟨13,[.setEnt (.own 1)],none,false⟩⟩,⟨256,.ff,false,some ⟨13,[.setEnt (.own 1)],none,false⟩⟩,⟨256,.cr,false,some ⟨13,[.setEnt (.own 1)],none,false⟩⟩,⟨256,.cr,true,some ⟨13,[.setEnt (.own 1)],none,false⟩⟩,⟨256,.other,false,some ⟨14,[.setEnt (.own 1)],none,false⟩⟩]⟩,⟨[51,52],none,[],[⟨256,.other,false,some ⟨13,[.setEnt (.own 1)],none,false⟩⟩,⟨256,.ws,false,some ⟨13,[.setEnt (.own 1)],none,false⟩⟩,⟨256,.lf,false,some ⟨13,[.setEnt (.own 1)],none,false⟩⟩,⟨256,.vt,false,some ⟨13,[.setEnt (.own 1)],none,false⟩⟩,⟨256,.ff,false,some ⟨13,[.setEnt (.own 1)],none,false⟩⟩,⟨256,.cr,false,some ⟨13,[.setEnt (.own 1)],none,false⟩⟩,⟨256,.cr,true,some ⟨13,[.setEnt (.own 1)],none,false⟩⟩,⟨256,.other,false,some ⟨17,[.setEnt (.own 1)],none,false⟩⟩]⟩,⟨[21],none,[],[⟨256,.other,false,none⟩,⟨256,.ws,false,none⟩,⟨256,.lf,false,none⟩,⟨256,.vt,false,none⟩,⟨256,.ff,false,none⟩,⟨256,.cr,false,none⟩,⟨256,.cr,true,none⟩,⟨256,.other,false,some ⟨18,[],none,false⟩⟩]⟩,⟨[4],none,[],[⟨256,.other,false,none⟩,⟨256,.ws,false,none⟩,⟨256,.lf,false,none⟩,⟨256,.vt,false,none⟩,⟨256,.ff,false,none⟩,⟨256,.cr,false,none⟩,⟨256,.cr,true,none⟩,⟨256,.other,false,some ⟨19,[],none,false⟩⟩]⟩,⟨[51,52,53],none,[],[⟨256,.other,false,some ⟨13,[.setEnt (.own 1)],none,false⟩⟩,⟨256,.ws,false,some ⟨13,[.setEnt (.own 1)],none,false⟩⟩,⟨256,.lf,false,some ⟨13,[.setEnt (.own 1)],none,false⟩⟩,⟨256,.vt,false,some ⟨13,[.setEnt (.own 1)],none,false⟩⟩,⟨256,.ff,false,some ⟨13,[.setEnt (.own 1)],none,false⟩⟩,⟨256,.cr,false,some ⟨13,[.setEnt (.own 1)],none,false⟩⟩,⟨256,.cr,true,some ⟨13,[.setEnt (.own 1)],none,false⟩⟩,⟨256,.other,false,some ⟨17,[.setEnt (.own 1)],none,false⟩⟩,⟨256,.other,false,some ⟨0,[.setEnt (.own 1)],some 4,true⟩⟩]⟩,⟨[22],none,[],[⟨256,.other,false,none⟩,⟨256,.ws,false,none⟩,⟨256,.lf,false,none⟩,⟨256,.vt,false,none⟩,⟨256,.ff,false,none⟩,⟨256,.cr,false,none⟩,⟨256,.cr,true,none⟩,⟨256,.other,false,some ⟨20,[],none,false⟩⟩]⟩,⟨[5],none,[],[⟨256,.other,false,some ⟨21,[],none,false⟩⟩,⟨256,.ws,false,some ⟨21,[],none,false⟩⟩,⟨256,.lf,false,some ⟨21,[],none,false⟩⟩,⟨256,.vt,false,some ⟨21,[],none,false⟩⟩,⟨256,.ff,false,some ⟨21,[],none,false⟩⟩,⟨256,.cr,false,some ⟨21,[],none,false⟩⟩,⟨256,.cr,true,some ⟨21,[],none,false⟩⟩,⟨256,.other,false,none⟩]⟩,⟨[23],none,[],[⟨256,.other,false,some ⟨22,[],none,false⟩⟩,⟨256,.ws,false,some ⟨22,[],none,false⟩⟩,⟨256,.lf,false,some ⟨22,[],none,false⟩⟩,⟨256,.vt,false,some ⟨22,[],none,false⟩⟩,⟨256,.ff,false,some ⟨22,[],none,false⟩⟩,⟨256,.cr,false,some ⟨22,[],none,false⟩⟩,⟨256,.cr,true,some ⟨22,[],none,false⟩⟩,⟨256,.other,false,none⟩]⟩,⟨[6],none,[],[⟨256,.other,false,some ⟨21,[],none,false⟩⟩,⟨256,.ws,false,some ⟨21,[],none,false⟩⟩,⟨256,.lf,false,some ⟨21,[],none,false⟩⟩,⟨256,.vt,false,some ⟨21,[],none,false⟩⟩,⟨256,.ff,false,some ⟨21,[],none,false⟩⟩,⟨256,.cr,false,some ⟨21,[],none,false⟩⟩,⟨256,.cr,true,some ⟨21,[],none,false⟩⟩,⟨256,.other,false,none⟩,⟨256,.other,false,some ⟨23,[],none,false⟩⟩]⟩,⟨[24],none,[],[⟨256,.other,false,some ⟨22,[],none,false⟩⟩,⟨256,.ws,false,some ⟨22,[],none,false⟩⟩,⟨256,.lf,false,some ⟨22,[],none,false⟩⟩,⟨256,.vt,false,some ⟨22,[],none,false⟩⟩,⟨256,.ff,false,some ⟨22,[],none,false⟩⟩,⟨256,.cr,false,some ⟨22,[],none,false⟩⟩,⟨256,.cr,true,some ⟨22,[],none,false⟩⟩,⟨256,.other,false,none⟩,⟨256,.other,false,some ⟨24,[],none,false⟩⟩]⟩,⟨[6,7],none,[],[⟨256,.other,false,some ⟨21,[],none,false⟩⟩,⟨256,.ws,false,some ⟨21,[],none,false⟩⟩,⟨256,.lf,false,some ⟨21,[],none,false⟩⟩,⟨256,.vt,false,some ⟨21,[],none,false⟩⟩,⟨256,.ff,false,some ⟨21,[],none,false⟩⟩,⟨256,.cr,false,some ⟨21,[],none,false⟩⟩,⟨256,.cr,true,some ⟨21,[],none,false⟩⟩,⟨256,.other,false,none⟩,⟨256,.other,false,some ⟨25,[],none,false⟩⟩,⟨256,.other,false,some ⟨23,[],none,false⟩⟩]⟩,⟨[24,25],none,[],[⟨256,.other,false,some ⟨22,[],none,false⟩⟩,⟨256,.ws,false,some ⟨22,[],none,false⟩⟩,⟨256,.lf,false,some ⟨22,[],none,false⟩⟩,⟨256,.vt,false,some ⟨22,[],none,false⟩⟩,⟨256,.ff,false,some ⟨22,[],none,false⟩⟩,⟨256,.cr,false,some ⟨22,[],none,false⟩⟩,⟨256,.cr,true,some ⟨22,[],none,false⟩⟩,⟨256,.other,false,none⟩,⟨256,.other,false,some ⟨26,[],none,false⟩⟩,⟨256,.other,false,some ⟨24,[],none,false⟩⟩]⟩,⟨[6,8],none,[],[⟨256,.other,false,some ⟨21,[],none,false⟩⟩,⟨256,.ws,false,some ⟨21,[],none,false⟩⟩,⟨256,.lf,false,some ⟨21,[],none,false⟩⟩,⟨256,.vt,false,some ⟨21,[],none,false⟩⟩,⟨256,.ff,false,some ⟨21,[],none,false⟩⟩,⟨256,.cr,false,some ⟨21,[],none,false⟩⟩,⟨256,.cr,true,some ⟨21,[],none,false⟩⟩,⟨256,.other,false,none⟩,⟨256,.other,false,some ⟨23,[],none,false⟩⟩,⟨256,.other,false,some ⟨27,[],none,false⟩⟩]⟩,⟨[24,26],none,[],[⟨256,.other,false,some ⟨22,[],none,false⟩⟩,⟨256,.ws,false,some ⟨22,[],none,false⟩⟩,⟨256,.lf,false,some ⟨22,[],none,false⟩⟩,⟨256,.vt,false,some ⟨22,[],none,false⟩⟩,⟨256,.ff,false,some ⟨22,[],none,false⟩⟩,⟨256,.cr,false,some ⟨22,[],none,false⟩⟩,⟨256,.cr,true,some ⟨22,[],none,false⟩⟩,⟨256,.other,false,none⟩,⟨256,.other,false,some ⟨24,[],none,false⟩⟩,⟨256,.other,false,some ⟨28,[],none,false⟩⟩]⟩,⟨[6,9],none,[],[⟨256,.other,false,some ⟨21,[],none,false⟩⟩,⟨256,.ws,false,some ⟨21,[],none,false⟩⟩,⟨256,.lf,false,some ⟨21,[],none,false⟩⟩,⟨256,.vt,false,some ⟨21,[],none,false⟩⟩,⟨256,.ff,false,some ⟨21,[],none,false⟩⟩,⟨256,.cr,false,some ⟨21,[],none,false⟩⟩,⟨256,.cr,true,some ⟨21,[],none,false⟩⟩,⟨256,.other,false,none⟩,⟨256,.other,false,some ⟨29,[],none,false⟩⟩]⟩,⟨[24,27],none,[],[⟨256,.other,false,some ⟨22,[],none,false⟩⟩,⟨256,.ws,false,some ⟨22,[],none,false⟩⟩,⟨256,.lf,false,some ⟨22,[],none,false⟩⟩,⟨256,.vt,false,some ⟨22,[],none,false⟩⟩,⟨256,.ff,false,some ⟨22,[],none,false⟩⟩,⟨256,.cr,false,some ⟨22,[],none,false⟩⟩,⟨256,.cr,true,some ⟨22,[],none,false⟩⟩,⟨256,.other,false,none⟩,⟨256,.other,false,some ⟨30,[],none,false⟩⟩]⟩,⟨[6,7,10],none,[],[⟨256,.other,false,some ⟨21,[],none,false⟩⟩,⟨256,.ws,false,some ⟨21,[],none,false⟩⟩,⟨256,.lf,false,some ⟨21,[],none,false⟩⟩,⟨256,.vt,false,some ⟨21,[],none,false⟩⟩,⟨256,.ff,false,some ⟨21,[],none,false⟩⟩,⟨256,.cr,false,some ⟨21,[],none,false⟩⟩,⟨256,.cr,true,some ⟨21,[],none,false⟩⟩,⟨256,.other,false,some ⟨31,[],none,false⟩⟩,⟨256,.other,false,none⟩,⟨256,.other,false,some ⟨25,[],none,false⟩⟩,⟨256,.other,false,some ⟨23,[],none,false⟩⟩]⟩,⟨[24,25,28],none,[],[⟨256,.other,false,some ⟨22,[],none,false⟩⟩,⟨256,.ws,false,some ⟨22,[],none,false⟩⟩,⟨256,.lf,false,some ⟨22,[],none,false⟩⟩,⟨256,.vt,false,some ⟨22,[],none,false⟩⟩,⟨256,.ff,false,some ⟨22,[],none,false⟩⟩,⟨256,.cr,false,some ⟨22,[],none,false⟩⟩,⟨256,.cr,true,some ⟨22,[],none,false⟩⟩,⟨256,.other,false,some ⟨32,[],none,false⟩⟩,⟨256,.other,false,none⟩,⟨256,.other,false,some ⟨26,[],none,false⟩⟩,⟨256,.other,false,some ⟨24,[],none,false⟩⟩]⟩,⟨[6,11],none,[],[⟨256,.other,false,some ⟨21,[],none,false⟩⟩,⟨256,.ws,false,some ⟨21,[],none,false⟩⟩,⟨256,.lf,false,some ⟨21,[],none,false⟩⟩,⟨256,.vt,false,some ⟨21,[],none,false⟩⟩,⟨256,.ff,false,some ⟨21,[],none,false⟩⟩,⟨256,.cr,false,some ⟨21,[],none,false⟩⟩,⟨256,.cr,true,some ⟨21,[],none,false⟩⟩,⟨256,.other,false,none⟩,⟨256,.other,false,some ⟨33,[],none,false⟩⟩,⟨256,.other,false,some ⟨23,[],none,false⟩⟩]⟩,⟨[24,29],none,[],[⟨256,.other,false,some ⟨22,[],none,false⟩⟩,⟨256,.ws,false,some ⟨22,[],none,false⟩⟩,⟨256,.lf,false,some ⟨22,[],none,false⟩⟩,⟨256,.vt,false,some ⟨22,[],none,false⟩⟩,⟨256,.ff,false,some ⟨22,[],none,false⟩⟩,⟨256,.cr,false,some ⟨22,[],none,false⟩⟩,⟨256,.cr,true,some ⟨22,[],none,false⟩⟩,⟨256,.other,false,none⟩,⟨256,.other,false,some ⟨34,[],none,false⟩⟩,⟨256,.other,false,some ⟨24,[],none,false⟩⟩]⟩,⟨[6,12],none,[],[⟨256,.other,false,some ⟨21,[],none,false⟩⟩,⟨256,.ws,false,some ⟨21,[],none,false⟩⟩,⟨256,.lf,false,some ⟨21,[],none,false⟩⟩,⟨256,.vt,false,some ⟨21,[],none,false⟩⟩,⟨256,.ff,false,some ⟨21,[],none,false⟩⟩,⟨256,.cr,false,some ⟨21,[],none,false⟩⟩,⟨256,.cr,true,some ⟨21,[],none,false⟩⟩,⟨256,.other,false,none⟩,⟨256,.other,false,some ⟨35,[],none,false⟩⟩,⟨256,.other,false,some ⟨23,[],none,false⟩⟩]⟩,⟨[24,30],none,[],[⟨256,.other,false,some ⟨22,[],none,false⟩⟩,⟨256,.ws,false,some ⟨22,[],none,false⟩⟩,⟨256,.lf,false,some ⟨22,[],none,false⟩⟩,⟨256,.vt,false,some ⟨22,[],none,false⟩⟩,⟨256,.ff,false,some ⟨22,[],none,false⟩⟩,⟨256,.cr,false,some ⟨22,[],none,false⟩⟩,⟨256,.cr,true,some ⟨22,[],none,false⟩⟩,⟨256,.other,false,none⟩,⟨256,.other,false,some ⟨36,[],none,false⟩⟩,⟨256,.other,false,some ⟨24,[],none,false⟩⟩]⟩,⟨[6,13],none,[],[⟨256,.other,false,some ⟨21,[],none,false⟩⟩,⟨256,.ws,false,some ⟨21,[],none,false⟩⟩,⟨256,.lf,false,some ⟨21,[],none,false⟩⟩,⟨256,.vt,false,some ⟨21,[],none,false⟩⟩,⟨256,.ff,false,some ⟨21,[],none,false⟩⟩,⟨256,.cr,false,some ⟨21,[],none,false⟩⟩,⟨256,.cr,true,some ⟨21,[],none,false⟩⟩,⟨256,.other,false,none⟩,⟨256,.other,false,some ⟨37,[],none,false⟩⟩,⟨256,.other,false,some ⟨23,[],none,false⟩⟩]⟩,⟨[24,31],none,[],[⟨256,.other,false,some ⟨22,[],none,false⟩⟩,⟨256,.ws,false,some ⟨22,[],none,false⟩⟩,⟨256,.lf,false,some ⟨22,[],none,false⟩⟩,⟨256,.vt,false,some ⟨22,[],none,false⟩⟩,⟨256,.ff,false,some ⟨22,[],none,false⟩⟩,⟨256,.cr,false,some ⟨22,[],none,false⟩⟩,⟨256,.cr,true,some ⟨22,[],none,false⟩⟩,⟨256,.other,false,none⟩,⟨256,.other,false,some ⟨24,[],none,false⟩⟩,⟨256,.other,false,some ⟨38,[],none,false⟩⟩]⟩,⟨[14],none,[],[⟨256,.other,false,some ⟨39,[],none,false⟩⟩,⟨256,.ws,false,some ⟨39,[],none,false⟩⟩,⟨256,.lf,false,some ⟨39,[],none,false⟩⟩,⟨256,.vt,false,some ⟨39,[],none,false⟩⟩,⟨256,.ff,false,some ⟨39,[],none,false⟩⟩,⟨256,.cr,false,some ⟨39,[],none,false⟩⟩,⟨256,.cr,true,some ⟨39,[],none,false⟩⟩,⟨256,.other,false,none⟩]⟩,⟨[24,32],none,[],[⟨256,.other,false,some ⟨22,[],none,false⟩⟩,⟨256,.ws,false,some ⟨22,[],none,false⟩⟩,⟨256,.lf,false,some ⟨22,[],none,false⟩⟩,⟨256,.vt,false,some ⟨22,[],none,false⟩⟩,⟨256,.ff,false,some ⟨22,[],none,false⟩⟩,⟨256,.cr,false,some ⟨22,[],none,false⟩⟩,⟨256,.cr,true,some ⟨22,[],none,false⟩⟩,⟨256,.other,false,none⟩,⟨256,.other,false,some ⟨40,[],none,false⟩⟩,⟨256,.other,false,some ⟨24,[],none,false⟩⟩]⟩,⟨[15],none,[],[⟨256,.other,false,some ⟨39,[],none,false⟩⟩,⟨256,.ws,false,some ⟨39,[],none,false⟩⟩,⟨256,.lf,false,some ⟨39,[],none,false⟩⟩,⟨256,.vt,false,some ⟨39,[],none,false⟩⟩,⟨256,.ff,false,some ⟨39,[],none,false⟩⟩,⟨256,.cr,false,some ⟨39,[],none,false⟩⟩,⟨256,.cr,true,some ⟨39,[],none,false⟩⟩,⟨256,.other,false,some ⟨0,[],some 0,true⟩⟩]⟩,⟨[24,33],none,[],[⟨256,.other,false,some ⟨22,[],none,false⟩⟩,⟨256,.ws,false,some ⟨22,[],none,false⟩⟩,⟨256,.lf,false,some ⟨22,[],none,false⟩⟩,⟨256,.vt,false,some ⟨22,[],none,false⟩⟩,⟨256,.ff,false,some ⟨22,[],none,false⟩⟩,⟨256,.cr,false,some ⟨22,[],none,false⟩⟩,⟨256,.cr,true,some ⟨22,[],none,false⟩⟩,⟨256,.other,false,none⟩,⟨256,.other,false,some ⟨41,[],none,false⟩⟩,⟨256,.other,false,some ⟨24,[],none,false⟩⟩]⟩,⟨[24,34],none,[],[⟨256,.other,false,some ⟨22,[],none,false⟩⟩,⟨256,.ws,false,some ⟨22,[],none,false⟩⟩,⟨256,.lf,false,some ⟨22,[],none,false⟩⟩,⟨256,.vt,false,some ⟨22,[],none,false⟩⟩,⟨256,.ff,false,some ⟨22,[],none,false⟩⟩,⟨256,.cr,false,some ⟨22,[],none,false⟩⟩,⟨256,.cr,true,some ⟨22,[],none,false⟩⟩,⟨256,.other,false,none⟩,⟨256,.other,false,some ⟨42,[],none,false⟩⟩,⟨256,.other,false,some ⟨24,[],none,false⟩⟩]⟩,⟨[24,35],none,[],[⟨256,.other,false,some ⟨22,[],none,false⟩⟩,⟨256,.ws,false,some ⟨22,[],none,false⟩⟩,⟨256,.lf,false,some ⟨22,[],none,false⟩⟩,⟨256,.vt,false,some ⟨22,[],none,false⟩⟩,⟨256,.ff,false,some ⟨22,[],none,false⟩⟩,⟨256,.cr,false,some ⟨22,[],none,false⟩⟩,⟨256,.cr,true,some ⟨22,[],none,false⟩⟩,⟨256,.other,false,none⟩,⟨256,.other,false,some ⟨43,[],none,false⟩⟩,⟨256,.other,false,some ⟨24,[],none,false⟩⟩]⟩,⟨[24,36],none,[],[⟨256,.other,false,some ⟨22,[],none,false⟩⟩,⟨256,.ws,false,some ⟨22,[],none,false⟩⟩,⟨256,.lf,false,some ⟨22,[],none,false⟩⟩,⟨256,.vt,false,some ⟨22,[],none,false⟩⟩,⟨256,.ff,false,some ⟨22,[],none,false⟩⟩,⟨256,.cr,false,some ⟨22,[],none,false⟩⟩,⟨256,.cr,true,some ⟨22,[],none,false⟩⟩,⟨256,.other,false,none⟩,⟨256,.other,false,some ⟨44,[],none,false⟩⟩,⟨256,.other,false,some ⟨24,[],none,false⟩⟩]⟩,⟨[24,37],none,[],[⟨256,.other,false,some ⟨22,[],none,false⟩⟩,⟨256,.ws,false,some ⟨22,[],none,false⟩⟩,⟨256,.lf,false,some ⟨22,[],none,false⟩⟩,⟨256,.vt,false,some ⟨22,[],none,false⟩⟩,⟨256,.ff,false,some ⟨22,[],none,false⟩⟩,⟨256,.cr,false,some ⟨22,[],none,false⟩⟩,⟨256,.cr,true,some ⟨22,[],none,false⟩⟩,⟨256,.other,false,none⟩,⟨256,.other,false,some ⟨45,[],none,false⟩⟩,⟨256,.other,false,some ⟨24,[],none,false⟩⟩]⟩,⟨[24,38],none,[],[⟨256,.other,false,some ⟨22,[],none,false⟩⟩,⟨256,.ws,false,some ⟨22,[],none,false⟩⟩,⟨256,.lf,false,some ⟨22,[],none,false⟩⟩,⟨256,.vt,false,some ⟨22,[],none,false⟩⟩,⟨256,.ff,false,some ⟨22,[],none,false⟩⟩,⟨256,.cr,false,some ⟨22,[],none,false⟩⟩,⟨256,.cr,true,some ⟨22,[],none,false⟩⟩,⟨256,.other,false,none⟩,⟨256,.other,false,some ⟨46,[],none,false⟩⟩]⟩,⟨[39],none,[],[⟨256,.other,false,some ⟨47,[],none,false⟩⟩,⟨256,.ws,false,some ⟨47,[],none,false⟩⟩,⟨256,.lf,false,some ⟨47,[],none,false⟩⟩,⟨256,.vt,false,some ⟨47,[],none,false⟩⟩,⟨256,.ff,false,some ⟨47,[],none,false⟩⟩,⟨256,.cr,false,some ⟨47,[],none,false⟩⟩,⟨256,.cr,true,some ⟨47,[],none,false⟩⟩,⟨256,.other,false,none⟩]⟩,⟨[40],none,[],[⟨256,.other,false,some ⟨47,[],none,false⟩⟩,⟨256,.ws,false,some ⟨47,[],none,false⟩⟩,⟨256,.lf,false,some ⟨47,[],none,false⟩⟩,⟨256,.vt,false,some ⟨47,[],none,false⟩⟩,⟨256,.ff,false,some ⟨47,[],none,false⟩⟩,⟨256,.cr,false,some ⟨47,[],none,false⟩⟩,⟨256,.cr,true,some ⟨47,[],none,false⟩⟩,⟨256,.other,false,some ⟨0,[],some 1,true⟩⟩]⟩]
theorem emb45_rowsOk : rowsOk emb45_nfa [] (emb45_cs.map (·.1)) emb45_rows = true := by decide +kernel
def emb45_D : Dfa emb45_nfa := ⟨emb45_masks, [], emb45_cs, emb45_rows, emb45_masksIn, emb45_repOk, emb45_rowsOk⟩
def emb45_maskst : List Nat := [1152921504606846976,4294983168,115792089237316195423570985008687907853269984665640564039457584007908834656767,41538374877950027585161004031410176,83076749755900055170322008062820352,2658455992188801765450304258010251264,324518553733984590509070343995392,2535301201046754613352112062464,115792089237316195423570985008687907853269984665640564039452972321894702252031,83076749736557242056487941267521536,2535301200456458802993406410752,1329227995784915872903807060280344576,140737488355328,633825300114114700748351602688,41538374868278621028243970633760768,4611686018427387904,633825300261688653338028015616,20769187438975013792580502015705088,40564819216748073813633792999424,5192296859743753448145125503926272,81129638414606681695789005144064,158456325028528675187087900672,332306998946228968225951765070086144,20769187434139310514121985316880384,40564819207303340847894502572032,5192296858534827628530496329220096,9223372036854775808,8589934592,35184372088832,115792089237316195423570985008687907853269984665640564039457584007913129639935]
def emb45_cst : List (Nat × Nat) := [(0,115792089237316195423570985008687907853265513648504117332309701620325150605823),(9,4294967808),(10,1024),(11,2048),(12,4096),(13,8192),(33,8589934592),(45,35184372088832),(47,140737488355328),(60,1152921504606846976),(62,4611686018427387904),(63,9223372036854775808),(67,147573952589676412928),(69,590295810358705651712),(73,9444732965739290427392),(76,324518553733984590509070343995392),(80,1208925819614629174706176),(82,4835703278458516698824704),(83,9671406556917033397649408),(84,19342813113834066795298816),(89,2658455992188801765450304258010251264),(97,158456325028528675187087900672),(99,633825300114114700748351602688),(101,2535301200456458802993406410752),(105,40564819207303340847894502572032),(106,81129638414606681695789005144064),(112,5192296858534827628530496329220096),(114,20769187434139310514121985316880384),(115,41538374868278621028243970633760768),(116,83076749736557242056487941267521536),(118,332306998946228968225951765070086144),(120,1329227995784915872903807060280344576)]
theorem emb45_masksInt : masksIn emb45_nfa emb45_maskst = true := by decide +kernel
theorem emb45_repOkt : repOk emb45_maskst emb45_cst = true := by decide +kernel
def emb45_rowst : List Row := [⟨[],none,[],[⟨256,.other,false,some ⟨0,[],some 5,true⟩⟩,⟨256,.ws,false,some ⟨1,[.setEnt (.own 0)],some 3,false⟩⟩,⟨256,.lf,false,some ⟨1,[.setEnt (.own 0)],some 3,false⟩⟩,⟨256,.vt,false,some ⟨1,[.setEnt (.own 0)],some 3,false⟩⟩,⟨256,.ff,false,some ⟨1,[.setEnt (.own 0)],some 3,false⟩⟩,⟨256,.cr,false,some ⟨1,[.setEnt (.own 0)],some 3,false⟩⟩,⟨256,.cr,true,some ⟨1,[.setEnt (.own 0)],some 3,false⟩⟩,⟨47,.other,false,some ⟨0,[],some 5,true⟩⟩,⟨60,.other,false,some ⟨2,[.setEnt (.own 1)],some 5,false⟩⟩,⟨62,.other,false,some ⟨0,[],some 5,true⟩⟩]⟩,⟨[46],some 3,[],[⟨256,.other,false,none⟩,⟨256,.ws,false,some ⟨1,[.setEnt (.own 0)],some 3,false⟩⟩,⟨256,.lf,false,some ⟨1,[.setEnt (.own 0)],some 3,false⟩⟩,⟨256,.vt,false,some ⟨1,[.setEnt (.own 0)],some 3,false⟩⟩,⟨256,.ff,false,some ⟨1,[.setEnt (.own 0)],some 3,false⟩⟩,⟨256,.cr,false,some ⟨1,[.setEnt (.own 0)],some 3,false⟩⟩,⟨256,.cr,true,some ⟨1,[.setEnt (.own 0)],some 3,false⟩⟩,⟨47,.other,false,none⟩,⟨60,.other,false,none⟩,⟨62,.other,false,none⟩]⟩,⟨[0,17,42,47,55],some 5,[],[⟨256,.other,false,none⟩,⟨256,.ws,false,none⟩,⟨256,.lf,false,none⟩,⟨256,.vt,false,none⟩,⟨256,.ff,false,none⟩,⟨256,.cr,false,none⟩,⟨256,.cr,true,none⟩,⟨256,.other,false,some ⟨3,[.setEnt (.own 1)],none,false⟩⟩,⟨47,.other,false,none⟩,⟨60,.other,false,none⟩,⟨62,.other,false,none⟩,⟨256,.other,false,some ⟨4,[],none,false⟩⟩,⟨256,.other,false,some ⟨5,[],none,false⟩⟩]⟩,⟨[48],none,[],[⟨256,.other,false,none⟩,⟨256,.ws,false,none⟩,⟨256,.lf,false,none⟩,⟨256,.vt,false,none⟩,⟨256,.ff,false,none⟩,⟨256,.cr,false,none⟩,⟨256,.cr,true,none⟩,⟨256,.other,false,some ⟨6,[.setEnt (.own 1)],none,false⟩⟩,⟨47,.other,false,none⟩,⟨60,.other,false,none⟩,⟨62,.other,false,none⟩]⟩,⟨[43],none,[],[⟨256,.other,false,none⟩,⟨256,.ws,false,none⟩,⟨256,.lf,false,none⟩,⟨256,.vt,false,none⟩,⟨256,.ff,false,none⟩,⟨256,.cr,false,none⟩,⟨256,.cr,true,none⟩,⟨47,.other,false,none⟩,⟨60,.other,false,none⟩,⟨62,.other,false,none⟩,⟨256,.other,false,some ⟨7,[],none,false⟩⟩]⟩,⟨[1,18],none,[],[⟨256,.other,false,none⟩,⟨256,.ws,false,none⟩,⟨256,.lf,false,none⟩,⟨256,.vt,false,none⟩,⟨256,.ff,false,none⟩,⟨256,.cr,false,none⟩,⟨256,.cr,true,none⟩,⟨47,.other,false,none⟩,⟨60,.other,false,none⟩,⟨62,.other,false,none⟩,⟨256,.other,false,some ⟨8,[],none,false⟩⟩,⟨256,.other,false,some ⟨9,[],none,false⟩⟩]⟩,⟨[49],none,[],[⟨256,.other,false,none⟩,⟨256,.ws,false,none⟩,⟨256,.lf,false,none⟩,⟨256,.vt,false,none⟩,⟨256,.ff,false,none⟩,⟨256,.cr,false,none⟩,⟨256,.cr,true,none⟩,⟨256,.other,false,some ⟨10,[.setEnt (.own 1)],none,false⟩⟩,⟨47,.other,false,none⟩,⟨60,.other,false,none⟩,⟨62,.other,false,none⟩]⟩,⟨[44],none,[],[⟨256,.other,false,none⟩,⟨256,.ws,false,none⟩,⟨256,.lf,false,none⟩,⟨256,.vt,false,none⟩,⟨256,.ff,false,none⟩,⟨256,.cr,false,none⟩,⟨256,.cr,true,none⟩,⟨47,.other,false,none⟩,⟨60,.other,false,none⟩,⟨62,.other,false,none⟩,⟨256,.other,false,some ⟨0,[],some 2,true⟩⟩]⟩,⟨[19],none,[],[⟨256,.other,false,none⟩,⟨256,.ws,false,none⟩,⟨256,.lf,false,none⟩,⟨256,.vt,false,none⟩,⟨256,.ff,false,none⟩,⟨256,.cr,false,none⟩,⟨256,.cr,true,none⟩,⟨47,.other,false,none⟩,⟨60,.other,false,none⟩,⟨62,.other,false,none⟩,⟨256,.other,false,some ⟨11,[],none,false⟩⟩]⟩,⟨[2],none,[],[⟨256,.other,false,none⟩,⟨256,.ws,false,none⟩,⟨256,.lf,false,none⟩,⟨256,.vt,false,none⟩,⟨256,.ff,false,none⟩,⟨256,.cr,false,none⟩,⟨256,.cr,true,none⟩,⟨47,.other,false,none⟩,⟨60,.other,false,none⟩,⟨62,.other,false,none⟩,⟨256,.other,false,some ⟨12,[],none,false⟩⟩]⟩,⟨[50],none,[],[⟨256,.other,false,some ⟨13,[.setEnt (.own 1)],none,false⟩⟩,⟨256,.ws,false,some ⟨13,[.setEnt (.own 1)],none,false⟩⟩,⟨256,.lf,false,some ⟨13,[.setEnt (.own 1)],none,false⟩⟩,⟨256,.vt,false,some ⟨13,[.setEnt (.own 1)],none,false⟩⟩,⟨256,.ff,false,some ⟨13,[.setEnt (.own 1)],none,false⟩⟩,⟨256,.cr,false,some ⟨13,[.setEnt (.own 1)],none,false⟩⟩,⟨256,.cr,true,some ⟨13,[.setEnt (.own 1)],none,false⟩⟩,⟨256,.other,false,some ⟨14,[.setEnt (.own 1)],none,false⟩⟩,⟨47,.other,false,some ⟨13,[.setEnt (.own 1)],none,false⟩⟩,⟨60,.other,false,some ⟨13,[.setEnt (.own 1)],none,false⟩⟩,⟨62,.other,false,some ⟨13,[.setEnt (.own 1)],none,false⟩⟩]⟩,⟨[20],none,[],[⟨256,.other,false,none⟩,⟨256,.ws,false,none⟩,⟨256,.lf,false,none⟩,⟨256,.vt,false,none⟩,⟨256,.ff,false,none⟩,⟨256,.cr,false,none⟩,⟨256,.cr,true,none⟩,⟨47,.other,false,none⟩,⟨60,.other,false,none⟩,⟨62,.other,false,none⟩,⟨256,.other,false,some ⟨15,[],none,false⟩⟩]⟩,⟨[3],none,[],[⟨256,.other,false,none⟩,⟨256,.ws,false,none⟩,⟨256,.lf,false,none⟩,⟨256,.vt,false,none⟩,⟨256,.ff,false,none⟩,⟨256,.cr,false,none⟩,⟨256,.cr,true,none⟩,⟨47,.other,false,none⟩,⟨60,.other,false,none⟩,⟨62,.other,false,none⟩,⟨256,.other,false,some ⟨16,[],none,false⟩⟩]⟩,⟨[51],none,[],[⟨256,.other,false,some ⟨13,[.setEnt (.own 1)],none,false⟩⟩,⟨256,.ws,false,some ⟨13,[.setEnt (.own 1)],none,false⟩⟩,⟨256,.lf,false,some ⟨13,[.setEnt (.own 1)],none,false⟩⟩,⟨256,.vt,false,some ⟨13,[.setEnt (.own 1)],none,false⟩⟩,⟨256,.ff,false,some ⟨13,[.setEnt (.own 1)],none,false⟩⟩,⟨256,.cr,false,some ⟨13,[.setEnt (.own 1)],none,false⟩⟩,⟨256,.cr,true,some ⟨13,[.setEnt (.own 1)],none,false⟩⟩,⟨256,.other,false,some ⟨14,[.setEnt (.own 1)],none,false⟩⟩,⟨47,.other,false,some ⟨13,[.setEnt (.own 1)],none,false⟩⟩,⟨60,.other,false,some ⟨13,[.setEnt (.own 1)],none,false⟩⟩,⟨62,.other,false,some ⟨13,[.setEnt (.own 1)],none,false⟩⟩]⟩,⟨[51,52],none,[],[⟨256,.other,false,some ⟨13,[.setEnt (.own 1)],none,false⟩⟩,⟨256,.ws,false,some ⟨13,[.setEnt (.own 1)],none,false⟩⟩,⟨256,.lf,false,some ⟨13,[.setEnt (.own 1)],none,false⟩⟩,⟨256,.vt,false,some ⟨13,[.setEnt (.own 1)],none,false⟩⟩,⟨256,.ff,false,some ⟨13,[.setEnt (.own 1)],none,false⟩⟩,⟨256,.cr,false,some ⟨13,[.setEnt (.own 1)],none,false⟩⟩,⟨256,.cr,true,some ⟨13,[.setEnt (.own 1)],none,false⟩⟩,⟨256,.other,false,some ⟨17,[.setEnt (.own 1)],none,false⟩⟩,⟨47,.other,false,some ⟨13,[.setEnt (.own 1)],none,false⟩⟩,⟨60,.other,false,some ⟨13,[.setEnt (.own 1)],none,false⟩⟩,⟨62,.other,false,some ⟨13,[.setEnt (.own 1)],none,false⟩⟩]⟩,⟨[21],none,[],[⟨256,.other,false,none⟩,⟨256,.ws,false,none⟩,⟨256,.lf,false,none⟩,⟨256,.vt,false,none⟩,⟨256,.ff,false,none⟩,⟨256,.cr,false,none⟩,⟨256,.cr,true,none⟩,⟨47,.other,false,none⟩,⟨60,.other,false,none⟩,⟨62,.other,false,none⟩,⟨256,.other,false,some ⟨18,[],none,false⟩⟩]⟩,⟨[4],none,[],[⟨256,.other,false,none⟩,⟨256,.ws,false,none⟩,⟨256,.lf,false,none⟩,⟨256,.vt,false,none⟩,⟨256,.ff,false,none⟩,⟨256,.cr,false,none⟩,⟨256,.cr,true,none⟩,⟨47,.other,false,none⟩,⟨60,.other,false,none⟩,⟨62,.other,false,none⟩,⟨256,.other,false,some ⟨19,[],none,false⟩⟩]⟩,⟨[51,52,53],none,[],[⟨256,.other,false,some ⟨13,[.setEnt (.own 1)],none,false⟩⟩,⟨256,.ws,false,some ⟨13,[.setEnt (.own 1)],none,false⟩⟩,⟨256,.lf,false,some ⟨13,[.setEnt (.own 1)],none,false⟩⟩,⟨256,.vt,false,some ⟨13,[.setEnt (.own 1)],none,false⟩⟩,⟨256,.ff,false,some ⟨13,[.setEnt (.own 1)],none,false⟩⟩,⟨256,.cr,false,some ⟨13,[.setEnt (.own 1)],none,false⟩⟩,⟨256,.cr,true,some ⟨13,[.setEnt (.own 1)],none,false⟩⟩,⟨256,.other,false,some ⟨17,[.setEnt (.own 1)],none,false⟩⟩,⟨47,.other,false,some ⟨13,[.setEnt (.own 1)],none,false⟩⟩,⟨60,.other,false,some ⟨13,[.setEnt (.own 1)],none,false⟩⟩,⟨62,.other,false,some ⟨0,[.setEnt (.own 1)],some 4,true⟩⟩]⟩,⟨[22],none,[],[⟨256,.other,false,none⟩,⟨256,.ws,false,none⟩,⟨256,.lf,false,none⟩,⟨256,.vt,false,none⟩,⟨256,.ff,false,none⟩,⟨256,.cr,false,none⟩,⟨256,.cr,true,none⟩,⟨47,.other,false,none⟩,⟨60,.other,false,none⟩,⟨62,.other,false,none⟩,⟨256,.other,false,some ⟨20,[],none,false⟩⟩]⟩,⟨[5],none,[],[⟨256,.other,false,some ⟨21,[],none,false⟩⟩,⟨256,.ws,false,some ⟨21,[],none,false⟩⟩,⟨256,.lf,false,some ⟨21,[],none,false⟩⟩,⟨256,.vt,false,some ⟨21,[],none,false⟩⟩,⟨256,.ff,false,some ⟨21,[],none,false⟩⟩,⟨256,.cr,false,some ⟨21,[],none,false⟩⟩,⟨256,.cr,true,some ⟨21,[],none,false⟩⟩,⟨47,.other,false,some ⟨21,[],none,false⟩⟩,⟨60,.other,false,some ⟨21,[],none,false⟩⟩,⟨62,.other,false,none⟩]⟩,⟨[23],none,[],[⟨256,.other,false,some ⟨22,[],none,false⟩⟩,⟨256,.ws,false,some ⟨22,[],none,false⟩⟩,⟨256,.lf,false,some ⟨22,[],none,false⟩⟩,⟨256,.vt,false,some ⟨22,[],none,false⟩⟩,⟨256,.ff,false,some ⟨22,[],none,false⟩⟩,⟨256,.cr,false,some ⟨22,[],none,false⟩⟩,⟨256,.cr,true,some ⟨22,[],none,false⟩⟩,⟨47,.other,false,some ⟨22,[],none,false⟩⟩,⟨60,.other,false,some ⟨22,[],none,false⟩⟩,⟨62,.other,false,none⟩]⟩,⟨[6],none,[],[⟨256,.other,false,some ⟨21,[],none,false⟩⟩,⟨256,.ws,false,some ⟨21,[],none,false⟩⟩,⟨256,.lf,false,some ⟨21,[],none,false⟩⟩,⟨256,.vt,false,some ⟨21,[],none,false⟩⟩,⟨256,.ff,false,some ⟨21,[],none,false⟩⟩,⟨256,.cr,false,some ⟨21,[],none,false⟩⟩,⟨256,.cr,true,some ⟨21,[],none,false⟩⟩,⟨47,.other,false,some ⟨21,[],none,false⟩⟩,⟨60,.other,false,some ⟨21,[],none,false⟩⟩,⟨62,.other,false,none⟩,⟨256,.other,false,some ⟨23,[],none,false⟩⟩]⟩,⟨[24],none,[],[⟨256,.other,false,some ⟨22,[],none,false⟩⟩,⟨256,.ws,false,some ⟨22,[],none,false⟩⟩,⟨256,.lf,false,some ⟨22,[],none,false⟩⟩,⟨256,.vt,false,some ⟨22,[],none,false⟩⟩,⟨256,.ff,false,some ⟨22,[],none,false⟩⟩,⟨256,.cr,false,some ⟨22,[],none,false⟩⟩,⟨256,.cr,true,some ⟨22,[],none,false⟩⟩,⟨47,.other,false,some ⟨22,[],none,false⟩⟩,⟨60,.other,false,some ⟨22,[],none,false⟩⟩,⟨62,.other,false,none⟩,⟨256,.other,false,some ⟨24,[],none,false⟩⟩]⟩,⟨[6,7],none,[],[⟨256,.other,false,some ⟨21,[],none,false⟩⟩,⟨256,.ws,false,some ⟨21,[],none,false⟩⟩,⟨256,.lf,false,some ⟨21,[],none,false⟩⟩,⟨256,.vt,false,some ⟨21,[],none,false⟩⟩,⟨256,.ff,false,some ⟨21,[],none,false⟩⟩,⟨256,.cr,false,some ⟨21,[],none,false⟩⟩,⟨256,.cr,true,some ⟨21,[],none,false⟩⟩,⟨47,.other,false,some ⟨21,[],none,false⟩⟩,⟨60,.other,false,some ⟨21,[],none,false⟩⟩,⟨62,.other,false,none⟩,⟨256,.other,false,some ⟨25,[],none,false⟩⟩,⟨256,.other,false,some ⟨23,[],none,false⟩⟩]⟩,⟨[24,25],none,[],[⟨256,.other,false,some ⟨22,[],none,false⟩⟩,⟨256,.ws,false,some ⟨22,[],none,false⟩⟩,⟨256,.lf,false,some ⟨22,[],none,false⟩⟩,⟨256,.vt,false,some ⟨22,[],none,false⟩⟩,⟨256,.ff,false,some ⟨22,[],none,false⟩⟩,⟨256,.cr,false,some ⟨22,[],none,false⟩⟩,⟨256,.cr,true,some ⟨22,[],none,false⟩⟩,⟨47,.other,false,some ⟨22,[],none,false⟩⟩,⟨60,.other,false,some ⟨22,[],none,false⟩⟩,⟨62,.other,false,none⟩,⟨256,.other,false,some ⟨26,[],none,false⟩⟩,⟨256,.other,false,some ⟨24,[],none,false⟩⟩]⟩,⟨[6,8],none,[],[⟨256,.other,false,some ⟨21,[],none,false⟩⟩,⟨256,.ws,false,some ⟨21,[],none,false⟩⟩,⟨256,.lf,false,some ⟨21,[],none,false⟩⟩,⟨256,.vt,false,some ⟨21,[],none,false⟩⟩,⟨256,.ff,false,some ⟨21,[],none,false⟩⟩,⟨256,.cr,false,some ⟨21,[],none,false⟩⟩,⟨256,.cr,true,some ⟨21,[],none,false⟩⟩,⟨47,.other,false,some ⟨21,[],none,false⟩⟩,⟨60,.other,false,some ⟨21,[],none,false⟩⟩,⟨62,.other,false,none⟩,⟨256,.other,false,some ⟨23,[],none,false⟩⟩,⟨256,.other,false,some ⟨27,[],none,false⟩⟩]⟩,⟨[24,26],none,[],[⟨256,.other,false,some ⟨22,[],none,false⟩⟩,⟨256,.ws,false,some ⟨22,[],none,false⟩⟩,⟨256,.lf,false,some ⟨22,[],none,false⟩⟩,⟨256,.vt,false,some ⟨22,[],none,false⟩⟩,⟨256,.ff,false,some ⟨22,[],none,false⟩⟩,⟨256,.cr,false,some ⟨22,[],none,false⟩⟩,⟨256,.cr,true,some ⟨22,[],none,false⟩⟩,⟨47,.other,false,some ⟨22,[],none,false⟩⟩,⟨60,.other,false,some ⟨22,[],none,false⟩⟩,⟨62,.other,false,none⟩,⟨256,.other,false,some ⟨24,[],none,false⟩⟩,⟨256,.other,false,some ⟨28,[],none,false⟩⟩]⟩,⟨[6,9],none,[],[⟨256,.other,false,some ⟨21,[],none,false⟩⟩,⟨256,.ws,false,some ⟨21,[],none,false⟩⟩,⟨256,.lf,false,some ⟨21,[],none,false⟩⟩,⟨256,.vt,false,some ⟨21,[],none,false⟩⟩,⟨256,.ff,false,some ⟨21,[],none,false⟩⟩,⟨256,.cr,false,some ⟨21,[],none,false⟩⟩,⟨256,.cr,true,some ⟨21,[],none,false⟩⟩,⟨47,.other,false,some ⟨21,[],none,false⟩⟩,⟨60,.other,false,some ⟨21,[],none,false⟩⟩,⟨62,.other,false,none⟩,⟨256,.other,false,some ⟨29,[],none,false⟩⟩]⟩,⟨[24,27],none,[],[⟨256,.other,false,some ⟨22,[],none,false⟩⟩,⟨256,.ws,false,some ⟨22,[],none,false⟩⟩,⟨256,.lf,false,some ⟨22,[],none,false⟩⟩,⟨256,.vt,false,some ⟨22,[],none,false⟩⟩,⟨256,.ff,false,some ⟨22,[],none,false⟩⟩,⟨256,.cr,false,some ⟨22,[],none,false⟩⟩,⟨256,.cr,true,some ⟨22,[],none,false⟩⟩,⟨47,.other,false,some ⟨22,[],none,false⟩⟩,⟨60,.other,false,some ⟨22,[],none,false⟩⟩,⟨62,.other,false,none⟩,⟨256,.other,false,some ⟨30,[],none,false⟩⟩]⟩,⟨[6,7,10],none,[],[⟨256,.other,false,some ⟨21,[],none,false⟩⟩,⟨256,.ws,false,some ⟨21,[],none,false⟩⟩,⟨256,.lf,false,some ⟨21,[],none,false⟩⟩,⟨256,.vt,false,some ⟨21,[],none,false⟩⟩,⟨256,.ff,false,some ⟨21,[],none,false⟩⟩,⟨256,.cr,false,some ⟨21,[],none,false⟩⟩,⟨256,.cr,true,some ⟨21,[],none,false⟩⟩,⟨47,.other,false,some ⟨31,[],none,false⟩⟩,⟨60,.other,false,some ⟨21,[],none,false⟩⟩,⟨62,.other,false,none⟩,⟨256,.other,false,some ⟨25,[],none,false⟩⟩,⟨256,.other,false,some ⟨23,[],none,false⟩⟩]⟩,⟨[24,25,28],none,[],[⟨256,.other,false,some ⟨22,[],none,false⟩⟩,⟨256,.ws,false,some ⟨22,[],none,false⟩⟩,⟨256,.lf,false,some ⟨22,[],none,false⟩⟩,⟨256,.vt,false,some ⟨22,[],none,false⟩⟩,⟨256,.ff,false,some ⟨22,[],none,false⟩⟩,⟨256,.cr,false,some ⟨22,[],none,false⟩⟩,⟨256,.cr,true,some ⟨22,[],none,false⟩⟩,⟨47,.other,false,some ⟨32,[],none,false⟩⟩,⟨60,.other,false,some ⟨22,[],none,false⟩⟩,⟨62,.other,false,none⟩,⟨256,.other,false,some ⟨26,[],none,false⟩⟩,⟨256,.other,false,some ⟨24,[],none,false⟩⟩]⟩,⟨[6,11],none,[],[⟨256,.other,false,some ⟨21,[],none,false⟩⟩,⟨256,.ws,false,some ⟨21,[],none,false⟩⟩,⟨256,.lf,false,some ⟨21,[],none,false⟩⟩,⟨256,.vt,false,some ⟨21,[],none,false⟩⟩,⟨256,.ff,false,some ⟨21,[],none,false⟩⟩,⟨256,.cr,false,some ⟨21,[],none,false⟩⟩,⟨256,.cr,true,some ⟨21,[],none,false⟩⟩,⟨47,.other,false,some ⟨21,[],none,false⟩⟩,⟨60,.other,false,some ⟨21,[],none,false⟩⟩,⟨62,.other,false,none⟩,⟨256,.other,false,some ⟨33,[],none,false⟩⟩,⟨256,.other,false,some ⟨23,[],none,false⟩⟩]⟩,⟨[24,29],none,[],[⟨256,.other,false,some ⟨22,[],none,false⟩⟩,⟨256,.ws,false,some ⟨22,[],none,false⟩⟩,⟨256,.lf,false,some ⟨22,[],none,false⟩⟩,⟨256,.vt,false,some ⟨22,[],none,false⟩⟩,⟨256,.ff,false,some ⟨22,[],none,false⟩⟩,⟨256,.cr,false,some ⟨22,[],none,false⟩⟩,⟨256,.cr,true,some ⟨22,[],none,false⟩⟩,⟨47,.other,false,some ⟨22,[],none,false⟩⟩,⟨60,.other,false,some ⟨22,[],none,false⟩⟩,⟨62,.other,false,none⟩,⟨256,.other,false,some ⟨34,[],none,false⟩⟩,⟨256,.other,false,some ⟨24,[],none,false⟩⟩]⟩,⟨[6,12],none,[],[⟨256,.other,false,some ⟨21,[],none,false⟩⟩,⟨256,.ws,false,some ⟨21,[],none,false⟩⟩,⟨256,.lf,false,some ⟨21,[],none,false⟩⟩,⟨256,.vt,false,some ⟨21,[],none,false⟩⟩,⟨256,.ff,false,some ⟨21,[],none,false⟩⟩,⟨256,.cr,false,some ⟨21,[],none,false⟩⟩,⟨256,.cr,true,some ⟨21,[],none,false⟩⟩,⟨47,.other,false,some ⟨21,[],none,false⟩⟩,⟨60,.other,false,some ⟨21,[],none,false⟩⟩,⟨62,.other,false,none⟩,⟨256,.other,false,some ⟨35,[],none,false⟩⟩,⟨256,.other,false,some ⟨23,[],none,false⟩⟩]⟩,⟨[24,30],none,[],[⟨256,.other,false,some ⟨22,[],none,false⟩⟩,⟨256,.ws,false,some ⟨22,[],none,false⟩⟩,⟨256,.lf,false,some ⟨22,[],none,false⟩⟩,⟨256,.vt,false,some ⟨22,[],none,false⟩⟩,⟨256,.ff,false,some ⟨22,[],none,false⟩⟩,⟨256,.cr,false,some ⟨22,[],none,false⟩⟩,⟨256,.cr,true,some ⟨22,[],none,false⟩⟩,⟨47,.other,false,some ⟨22,[],none,false⟩⟩,⟨60,.other,false,some ⟨22,[],none,false⟩⟩,⟨62,.other,false,none⟩,⟨256,.other,false,some ⟨36,[],none,false⟩⟩,⟨256,.other,false,some ⟨24,[],none,false⟩⟩]⟩,⟨[6,13],none,[],[⟨256,.other,false,some ⟨21,[],none,false⟩⟩,⟨256,.ws,false,some ⟨21,[],none,false⟩⟩,⟨256,.lf,false,some ⟨21,[],none,false⟩⟩,⟨256,.vt,false,some ⟨21,[],none,false⟩⟩,⟨256,.ff,false,some ⟨21,[],none,false⟩⟩,⟨256,.cr,false,some ⟨21,[],none,false⟩⟩,⟨256,.cr,true,some ⟨21,[],none,false⟩⟩,⟨47,.other,false,some ⟨21,[],none,false⟩⟩,⟨60,.other,false,some ⟨21,[],none,false⟩⟩,⟨62,.other,false,none⟩,⟨256,.other,false,some ⟨37,[],none,false⟩⟩,⟨256,.other,false,some ⟨23,[],none,false⟩⟩]⟩,⟨[24,31],none,[],[⟨256,.other,false,some ⟨22,[],none,false⟩⟩,⟨256,.ws,false,some ⟨22,[],none,false⟩⟩,⟨256,.lf,false,some ⟨22,[],none,false⟩⟩,⟨256,.vt,false,some ⟨22,[],none,false⟩⟩,⟨256,.ff,false,some ⟨22,[],none,false⟩⟩,⟨256,.cr,false,some ⟨22,[],none,false⟩⟩,⟨256,.cr,true,some ⟨22,[],none,false⟩⟩,⟨47,.other,false,some ⟨22,[],none,false⟩⟩,⟨60,.other,false,some ⟨22,[],none,false⟩⟩,⟨62,.other,false,none⟩,⟨256,.other,false,some ⟨24,[],none,false⟩⟩,⟨256,.other,false,some ⟨38,[],none,false⟩⟩]⟩,⟨[14],none,[],[⟨256,.other,false,some ⟨39,[],none,false⟩⟩,⟨256,.ws,false,some ⟨39,[],none,false⟩⟩,⟨256,.lf,false,some ⟨39,[],none,false⟩⟩,⟨256,.vt,false,some ⟨39,[],none,false⟩⟩,⟨256,.ff,false,some ⟨39,[],none,false⟩⟩,⟨256,.cr,false,some ⟨39,[],none,false⟩⟩,⟨256,.cr,true,some ⟨39,[],none,false⟩⟩,⟨47,.other,false,some ⟨39,[],none,false⟩⟩,⟨60,.other,false,some ⟨39,[],none,false⟩⟩,⟨62,.other,false,none⟩]⟩,⟨[24,32],none,[],[⟨256,.other,false,some ⟨22,[],none,false⟩⟩,⟨256,.ws,false,some ⟨22,[],none,false⟩⟩,⟨256,.lf,false,some ⟨22,[],none,false⟩⟩,⟨256,.vt,false,some ⟨22,[],none,false⟩⟩,⟨256,.ff,false,some ⟨22,[],none,false⟩⟩,⟨256,.cr,false,some ⟨22,[],none,false⟩⟩,⟨256,.cr,true,some ⟨22,[],none,false⟩⟩,⟨47,.other,false,some ⟨22,[],none,false⟩⟩,⟨60,.other,false,some ⟨22,[],none,false⟩⟩,⟨62,.other,false,none⟩,⟨256,.other,false,some ⟨40,[],none,false⟩⟩,⟨256,.other,false,some ⟨24,[],none,false⟩⟩]⟩,⟨[15],none,[],[⟨256,.other,false,some ⟨39,[],none,false⟩⟩,⟨256,.ws,false,some ⟨39,[],none,false⟩⟩,⟨256,.lf,false,some ⟨39,[],none,false⟩⟩,⟨256,.vt,false,some ⟨39,[],none,false⟩⟩,⟨256,.ff,false,some ⟨39,[],none,false⟩⟩,⟨256,.cr,false,some ⟨39,[],none,false⟩⟩,⟨256,.cr,true,some ⟨39,[],none,false⟩⟩,⟨47,.other,false,some ⟨39,[],none,false⟩⟩,⟨60,.other,false,some ⟨39,[],none,false⟩⟩,⟨62,.other,false,some ⟨0,[],some 0,true⟩⟩]⟩,⟨[24,33],none,[],[⟨256,.other,false,some ⟨22,[],none,false⟩⟩,⟨256,.ws,false,some ⟨22,[],none,false⟩⟩,⟨256,.lf,false,some ⟨22,[],none,false⟩⟩,⟨256,.vt,false,some ⟨22,[],none,false⟩⟩,⟨256,.ff,false,some ⟨22,[],none,false⟩⟩,⟨256,.cr,false,some ⟨22,[],none,false⟩⟩,⟨256,.cr,true,some ⟨22,[],none,false⟩⟩,⟨47,.other,false,some ⟨22,[],none,false⟩⟩,⟨60,.other,false,some ⟨22,[],none,false⟩⟩,⟨62,.other,false,none⟩,⟨256,.other,false,some ⟨41,[],none,false⟩⟩,⟨256,.other,false,some ⟨24,[],none,false⟩⟩]⟩,⟨[24,34],none,[],[⟨256,.other,false,some ⟨22,[],none,false⟩⟩,⟨256,.ws,false,some ⟨22,[],none,false⟩⟩,⟨256,.lf,false,some ⟨22,[],none,false⟩⟩,⟨256,.vt,false,some ⟨22,[],none,false⟩⟩,⟨256,.ff,false,some ⟨22,[],none,false⟩⟩,⟨256,.cr,false,some ⟨22,[],none,false⟩⟩,⟨256,.cr,true,some ⟨22,[],none,false⟩⟩,⟨47,.other,false,some ⟨22,[],none,false⟩⟩,⟨60,.other,false,some ⟨22,[],none,false⟩⟩,⟨62,.other,false,none⟩,⟨256,.other,false,some ⟨42,[],none,false⟩⟩,⟨256,.other,false,some ⟨24,[],none,false⟩⟩]⟩,⟨[24,35],none,[],[⟨256,.other,false,some ⟨22,[],none,false⟩⟩,⟨256,.ws,false,some ⟨22,[],none,false⟩⟩,⟨256,.lf,false,some ⟨22,[],none,false⟩⟩,⟨256,.vt,false,some ⟨22,[],none,false⟩⟩,⟨256,.ff,false,some ⟨22,[],none,false⟩⟩,⟨256,.cr,false,some ⟨22,[],none,false⟩⟩,⟨256,.cr,true,some ⟨22,[],none,false⟩⟩,⟨47,.other,false,some ⟨22,[],none,false⟩⟩,⟨60,.other,false,some ⟨22,[],none,false⟩⟩,⟨62,.other,false,none⟩,⟨256,.other,false,some ⟨43,[],none,false⟩⟩,⟨256,.other,false,some ⟨24,[],none,false⟩⟩]⟩,⟨[24,36],none,[],[⟨256,.other,false,some ⟨22,[],none,false⟩⟩,⟨256,.ws,false,some ⟨22,[],none,false⟩⟩,⟨256,.lf,false,some ⟨22,[],none,false⟩⟩,⟨256,.vt,false,some ⟨22,[],none,false⟩⟩,⟨256,.ff,false,some ⟨22,[],none,false⟩⟩,⟨256,.cr,false,some ⟨22,[],none,false⟩⟩,⟨256,.cr,true,some ⟨22,[],none,false⟩⟩,⟨47,.other,false,some ⟨22,[],none,false⟩⟩,⟨60,.other,false,some ⟨22,[],none,false⟩⟩,⟨62,.other,false,none⟩,⟨256,.other,false,some ⟨44,[],none,false⟩⟩,⟨256,.other,false,some ⟨24,[],none,false⟩⟩]⟩,⟨[24,37],none,[],[⟨256,.other,false,some ⟨22,[],none,false⟩⟩,⟨256,.ws,false,some ⟨22,[],none,false⟩⟩,⟨256,.lf,false,some ⟨22,[],none,false⟩⟩,⟨256,.vt,false,some ⟨22,[],none,false⟩⟩,⟨256,.ff,false,some ⟨22,[],none,false⟩⟩,⟨256,.cr,false,some ⟨22,[],none,false⟩⟩,⟨256,.cr,true,some ⟨22,[],none,false⟩⟩,⟨47,.other,false,some ⟨22,[],none,false⟩⟩,⟨60,.other,false,some ⟨22,[],none,false⟩⟩,⟨62,.other,false,none⟩,⟨256,.other,false,some ⟨45,[],none,false⟩⟩,⟨256,.other,false,some ⟨24,[],none,false⟩⟩]⟩,⟨[24,38],none,[],[⟨256,.other,false,some ⟨22,[],none,false⟩⟩,⟨256,.ws,false,some ⟨22,[],none,false⟩⟩,⟨256,.lf,false,some ⟨22,[],none,false⟩⟩,⟨256,.vt,false,some ⟨22,[],none,false⟩⟩,⟨256,.ff,false,some ⟨22,[],none,false⟩⟩,⟨256,.cr,false,some ⟨22,[],none,false⟩⟩,⟨256,.cr,true,some ⟨22,[],none,false⟩⟩,⟨47,.other,false,some ⟨22,[],none,false⟩⟩,⟨60,.other,false,some ⟨22,[],none,false⟩⟩,⟨62,.other,false,none⟩,⟨256,.other,false,some ⟨46,[],none,false⟩⟩]⟩,⟨[39],none,[],[⟨256,.other,false,some ⟨47,[],none,false⟩⟩,⟨256,.ws,false,some ⟨47,[],none,false⟩⟩,⟨256,.lf,false,some ⟨47,[],none,false⟩⟩,⟨256,.vt,false,some ⟨47,[],none,false⟩⟩,⟨256,.ff,false,some ⟨47,[],none,false⟩⟩,⟨256,.cr,false,some ⟨47,[],none,false⟩⟩,⟨256,.cr,true,some ⟨47,[],none,false⟩⟩,⟨47,.other,false,some ⟨47,[],none,false⟩⟩,⟨60,.other,false,some ⟨47,[],none,false⟩⟩,⟨62,.other,false,none⟩]⟩,⟨[40],none,[],[⟨256,.other,false,some ⟨47,[],none,false⟩⟩,⟨256,.ws,false,some ⟨47,[],none,false⟩⟩,⟨256,.lf,false,some ⟨47,[],none,false⟩⟩,⟨256,.vt,false,some ⟨47,[],none,false⟩⟩,⟨256,.ff,false,some ⟨47,[],none,false⟩⟩,⟨256,.cr,false,some ⟨47,[],none,false⟩⟩,⟨256,.cr,true,some ⟨47,[],none,false⟩⟩,⟨47,.other,false,some ⟨47,[],none,false⟩⟩,⟨60,.other,false,some ⟨47,[],none,false⟩⟩,⟨62,.other,false,some ⟨0,[],some 1,true⟩⟩]⟩]
theorem emb45_rowsOkt : rowsOk emb45_nfa [47, 60, 62] (emb45_cst.map (·.1)) emb45_rowst = true := by decide +kernel
def emb45_Dt : Dfa emb45_nfa := ⟨emb45_maskst, [47, 60, 62], emb45_cst, emb45_rowst, emb45_masksInt, emb45_repOkt, emb45_rowsOkt⟩

/-- The automaton of `Emb.CsAspx.cs_aspx_cs_line`. -/
def emb46_nfa : Nfa := ⟨[⟨0,137438953472,[],[],0,0⟩,⟨2,1152921504606846976,[],[],0,0⟩,⟨17,4294967808,[],[(5,.setEnt (.own 0))],0,0⟩,⟨18,140737488355328,[],[],0,0⟩,⟨28,140737488355328,[],[],0,2⟩,⟨39,549755813888,[],[(14,.code)],0,0⟩,⟨51,17179869184,[],[(19,.code)],0,0⟩,⟨63,8192,[],[(24,.setEnt .newline)],0,0⟩,⟨65,1024,[],[(24,.setEnt .newline)],0,0⟩,⟨66,4096,[],[(24,.setEnt .newline)],0,0⟩,⟨67,8192,[.crAlone],[(24,.setEnt .newline)],0,0⟩,⟨68,115792089237316195423570985008687907853269984665640564039457584007908834656767,[],[(25,.setEnt (.own 8))],0,0⟩],[[⟨1,4611686018427387904,[],[(3,.code),(4,.emb .back)],0,0⟩],[],[⟨3,140737488355328,[],[],0,0⟩],[⟨4,41538374877950027585161004031410176,[],[],0,0⟩],[⟨5,633825300261688653338028015616,[],[],0,0⟩],[⟨6,20769187438975013792580502015705088,[],[],0,0⟩],[⟨7,40564819216748073813633792999424,[],[],0,0⟩],[⟨8,5192296859743753448145125503926272,[],[],0,0⟩],[⟨9,83076749755900055170322008062820352,[],[],0,0⟩],[⟨10,4294967808,[],[],0,0⟩,⟨11,8192,[],[],0,0⟩,⟨13,1024,[],[(0,.setEnt .internalNl)],0,0⟩,⟨14,4096,[],[(0,.setEnt .internalNl)],0,0⟩,⟨15,8192,[.crAlone],[(0,.setEnt .internalNl)],0,0⟩,⟨16,4611686018427387904,[],[(2,.emb .outry),(3,.code),(4,.emb .back)],0,0⟩],[⟨10,4294967808,[],[],0,0⟩,⟨11,8192,[],[],0,0⟩,⟨13,1024,[],[(0,.setEnt .internalNl)],0,0⟩,⟨14,4096,[],[(0,.setEnt .internalNl)],0,0⟩,⟨15,8192,[.crAlone],[(0,.setEnt .internalNl)],0,0⟩,⟨16,4611686018427387904,[],[(2,.emb .outry),(3,.code),(4,.emb .back)],0,0⟩],[⟨12,1024,[],[(0,.setEnt .internalNl)],0,0⟩],[⟨10,4294967808,[],[(1,.cb)],0,0⟩,⟨11,8192,[],[(1,.cb)],0,0⟩,⟨13,1024,[],[(1,.cb),(0,.setEnt .internalNl)],0,0⟩,⟨14,4096,[],[(1,.cb),(0,.setEnt .internalNl)],0,0⟩,⟨15,8192,[.crAlone],[(1,.cb),(0,.setEnt .internalNl)],0,0⟩,⟨16,4611686018427387904,[],[(1,.cb),(2,.emb .outry),(3,.code),(4,.emb .back)],0,0⟩],[⟨10,4294967808,[],[(1,.cb)],0,0⟩,⟨11,8192,[],[(1,.cb)],0,0⟩,⟨13,1024,[],[(1,.cb),(0,.setEnt .internalNl)],0,0⟩,⟨14,4096,[],[(1,.cb),(0,.setEnt .internalNl)],0,0⟩,⟨15,8192,[.crAlone],[(1,.cb),(0,.setEnt .internalNl)],0,0⟩,⟨16,4611686018427387904,[],[(1,.cb),(2,.emb .outry),(3,.code),(4,.emb .back)],0,0⟩],[⟨10,4294967808,[],[(1,.cb)],0,0⟩,⟨11,8192,[],[(1,.cb)],0,0⟩,⟨13,1024,[],[(1,.cb),(0,.setEnt .internalNl)],0,0⟩,⟨14,4096,[],[(1,.cb),(0,.setEnt .internalNl)],0,0⟩,⟨15,8192,[.crAlone],[(1,.cb),(0,.setEnt .internalNl)],0,0⟩,⟨16,4611686018427387904,[],[(1,.cb),(2,.emb .outry),(3,.code),(4,.emb .back)],0,0⟩],[⟨10,4294967808,[],[(1,.cb)],0,0⟩,⟨11,8192,[],[(1,.cb)],0,0⟩,⟨13,1024,[],[(1,.cb),(0,.setEnt .internalNl)],0,0⟩,⟨14,4096,[],[(1,.cb),(0,.setEnt .internalNl)],0,0⟩,⟨15,8192,[.crAlone],[(1,.cb),(0,.setEnt .internalNl)],0,0⟩,⟨16,4611686018427387904,[],[(1,.cb),(2,.emb .outry),(3,.code),(4,.emb .back)],0,0⟩],[],[⟨17,4294967808,[],[(5,.setEnt (.own 0))],0,0⟩],[⟨19,140737488355328,[],[(6,.comment)],0,0⟩],[⟨20,4951760157141521099596496896,[],[],0,0⟩,⟨26,4294967808,[],[],0,0⟩,⟨27,115792089237316195423570985008687907853269984665640564039457584007908834658815,[],[(9,.comment)],0,0⟩],[⟨21,8192,[],[],0,0⟩,⟨23,1024,[],[],0,0⟩,⟨24,4096,[],[],0,0⟩,⟨25,8192,[.crAlone],[],0,0⟩],[⟨22,1024,[],[],0,0⟩],[⟨20,4951760157141521099596496896,[],[(7,.setEnt .internalNl),(8,.emb (.cb 3))],0,0⟩,⟨26,4294967808,[],[(7,.setEnt .internalNl),(8,.emb (.cb 3))],0,0⟩,⟨27,115792089237316195423570985008687907853269984665640564039457584007908834658815,[],[(7,.setEnt .internalNl),(8,.emb (.cb 3)),(9,.comment)],0,0⟩],[⟨20,4951760157141521099596496896,[],[(7,.setEnt .internalNl),(8,.emb (.cb 3))],0,0⟩,⟨26,4294967808,[],[(7,.setEnt .internalNl),(8,.emb (.cb 3))],0,0⟩,⟨27,115792089237316195423570985008687907853269984665640564039457584007908834658815,[],[(7,.setEnt .internalNl),(8,.emb (.cb 3)),(9,.comment)],0,0⟩],[⟨20,4951760157141521099596496896,[],[(7,.setEnt .internalNl),(8,.emb (.cb 3))],0,0⟩,⟨26,4294967808,[],[(7,.setEnt .internalNl),(8,.emb (.cb 3))],0,0⟩,⟨27,115792089237316195423570985008687907853269984665640564039457584007908834658815,[],[(7,.setEnt .internalNl),(8,.emb (.cb 3)),(9,.comment)],0,0⟩],[⟨20,4951760157141521099596496896,[],[(7,.setEnt .internalNl),(8,.emb (.cb 3))],0,0⟩,⟨26,4294967808,[],[(7,.setEnt .internalNl),(8,.emb (.cb 3))],0,0⟩,⟨27,115792089237316195423570985008687907853269984665640564039457584007908834658815,[],[(7,.setEnt .internalNl),(8,.emb (.cb 3)),(9,.comment)],0,0⟩],[⟨20,4951760157141521099596496896,[],[],0,0⟩,⟨26,4294967808,[],[],0,0⟩,⟨27,115792089237316195423570985008687907853269984665640564039457584007908834658815,[],[(9,.comment)],0,0⟩],[⟨20,4951760157141521099596496896,[],[],0,0⟩,⟨26,4294967808,[],[],0,0⟩,⟨27,115792089237316195423570985008687907853269984665640564039457584007908834658815,[],[(9,.comment)],0,0⟩],[⟨29,4398046511104,[],[(10,.comment)],0,2⟩],[⟨30,8192,[],[],0,2⟩,⟨32,1024,[],[],0,2⟩,⟨33,4096,[],[],0,2⟩,⟨34,8192,[.crAlone],[],0,2⟩,⟨35,4294967808,[],[],0,2⟩,⟨36,115792089237316195423570985008687907853269984665640564039457584007908834658815,[],[(13,.comment)],0,2⟩,⟨37,4398046511104,[],[],0,2⟩],[⟨31,1024,[],[],0,2⟩],[⟨30,8192,[],[(11,.setEnt .internalNl),(12,.emb (.cb 3))],0,2⟩,⟨32,1024,[],[(11,.setEnt .internalNl),(12,.emb (.cb 3))],0,2⟩,⟨33,4096,[],[(11,.setEnt .internalNl),(12,.emb (.cb 3))],0,2⟩,⟨34,8192,[.crAlone],[(11,.setEnt .internalNl),(12,.emb (.cb 3))],0,2⟩,⟨35,4294967808,[],[(11,.setEnt .internalNl),(12,.emb (.cb 3))],0,2⟩,⟨36,115792089237316195423570985008687907853269984665640564039457584007908834658815,[],[(11,.setEnt .internalNl),(12,.emb (.cb 3)),(13,.comment)],0,2⟩,⟨37,4398046511104,[],[(11,.setEnt .internalNl),(12,.emb (.cb 3))],0,2⟩],[⟨30,8192,[],[(11,.setEnt .internalNl),(12,.emb (.cb 3))],0,2⟩,⟨32,1024,[],[(11,.setEnt .internalNl),(12,.emb (.cb 3))],0,2⟩,⟨33,4096,[],[(11,.setEnt .internalNl),(12,.emb (.cb 3))],0,2⟩,⟨34,8192,[.crAlone],[(11,.setEnt .internalNl),(12,.emb (.cb 3))],0,2⟩,⟨35,4294967808,[],[(11,.setEnt .internalNl),(12,.emb (.cb 3))],0,2⟩,⟨36,115792089237316195423570985008687907853269984665640564039457584007908834658815,[],[(11,.setEnt .internalNl),(12,.emb (.cb 3)),(13,.comment)],0,2⟩,⟨37,4398046511104,[],[(11,.setEnt .internalNl),(12,.emb (.cb 3))],0,2⟩],[⟨30,8192,[],[(11,.setEnt .internalNl),(12,.emb (.cb 3))],0,2⟩,⟨32,1024,[],[(11,.setEnt .internalNl),(12,.emb (.cb 3))],0,2⟩,⟨33,4096,[],[(11,.setEnt .internalNl),(12,.emb (.cb 3))],0,2⟩,⟨34,8192,[.crAlone],[(11,.setEnt .internalNl),(12,.emb (.cb 3))],0,2⟩,⟨35,4294967808,[],[(11,.setEnt .internalNl),(12,.emb (.cb 3))],0,2⟩,⟨36,115792089237316195423570985008687907853269984665640564039457584007908834658815,[],[(11,.setEnt .internalNl),(12,.emb (.cb 3)),(13,.comment)],0,2⟩,⟨37,4398046511104,[],[(11,.setEnt .internalNl),(12,.emb (.cb 3))],0,2⟩],[⟨30,8192,[],[(11,.setEnt .internalNl),(12,.emb (.cb 3))],0,2⟩,⟨32,1024,[],[(11,.setEnt .internalNl),(12,.emb (.cb 3))],0,2⟩,⟨33,4096,[],[(11,.setEnt .internalNl),(12,.emb (.cb 3))],0,2⟩,⟨34,8192,[.crAlone],[(11,.setEnt .internalNl),(12,.emb (.cb 3))],0,2⟩,⟨35,4294967808,[],[(11,.setEnt .internalNl),(12,.emb (.cb 3))],0,2⟩,⟨36,115792089237316195423570985008687907853269984665640564039457584007908834658815,[],[(11,.setEnt .internalNl),(12,.emb (.cb 3)),(13,.comment)],0,2⟩,⟨37,4398046511104,[],[(11,.setEnt .internalNl),(12,.emb (.cb 3))],0,2⟩],[⟨30,8192,[],[],0,2⟩,⟨32,1024,[],[],0,2⟩,⟨33,4096,[],[],0,2⟩,⟨34,8192,[.crAlone],[],0,2⟩,⟨35,4294967808,[],[],0,2⟩,⟨36,115792089237316195423570985008687907853269984665640564039457584007908834658815,[],[(13,.comment)],0,2⟩,⟨37,4398046511104,[],[],0,2⟩],[⟨30,8192,[],[],0,2⟩,⟨32,1024,[],[],0,2⟩,⟨33,4096,[],[],0,2⟩,⟨34,8192,[.crAlone],[],0,2⟩,⟨35,4294967808,[],[],0,2⟩,⟨36,115792089237316195423570985008687907853269984665640564039457584007908834658815,[],[(13,.comment)],0,2⟩,⟨37,4398046511104,[],[],0,2⟩],[⟨38,140737488355328,[],[],2,0⟩],[],[⟨40,4951760157141521099596496896,[],[],0,0⟩,⟨46,4294967808,[],[],0,0⟩,⟨47,115792089237316195423570985008687907853269984665635612279300442486259482361343,[],[(17,.code)],0,0⟩,⟨48,4951760157141521099596496896,[],[],0,0⟩,⟨50,549755813888,[],[],0,0⟩],[⟨41,8192,[],[],0,0⟩,⟨43,1024,[],[],0,0⟩,⟨44,4096,[],[],0,0⟩,⟨45,8192,[.crAlone],[],0,0⟩],[⟨42,1024,[],[],0,0⟩],[⟨40,4951760157141521099596496896,[],[(15,.setEnt .internalNl),(16,.emb (.cb 3))],0,0⟩,⟨46,4294967808,[],[(15,.setEnt .internalNl),(16,.emb (.cb 3))],0,0⟩,⟨47,115792089237316195423570985008687907853269984665635612279300442486259482361343,[],[(15,.setEnt .internalNl),(16,.emb (.cb 3)),(17,.code)],0,0⟩,⟨48,4951760157141521099596496896,[],[(15,.setEnt .internalNl),(16,.emb (.cb 3))],0,0⟩,⟨50,549755813888,[],[(15,.setEnt .internalNl),(16,.emb (.cb 3))],0,0⟩],[⟨40,4951760157141521099596496896,[],[(15,.setEnt .internalNl),(16,.emb (.cb 3))],0,0⟩,⟨46,4294967808,[],[(15,.setEnt .internalNl),(16,.emb (.cb 3))],0,0⟩,⟨47,115792089237316195423570985008687907853269984665635612279300442486259482361343,[],[(15,.setEnt .internalNl),(16,.emb (.cb 3)),(17,.code)],0,0⟩,⟨48,4951760157141521099596496896,[],[(15,.setEnt .internalNl),(16,.emb (.cb 3))],0,0⟩,⟨50,549755813888,[],[(15,.setEnt .internalNl),(16,.emb (.cb 3))],0,0⟩],[⟨40,4951760157141521099596496896,[],[(15,.setEnt .internalNl),(16,.emb (.cb 3))],0,0⟩,⟨46,4294967808,[],[(15,.setEnt .internalNl),(16,.emb (.cb 3))],0,0⟩,⟨47,115792089237316195423570985008687907853269984665635612279300442486259482361343,[],[(15,.setEnt .internalNl),(16,.emb (.cb 3)),(17,.code)],0,0⟩,⟨48,4951760157141521099596496896,[],[(15,.setEnt .internalNl),(16,.emb (.cb 3))],0,0⟩,⟨50,549755813888,[],[(15,.setEnt .internalNl),(16,.emb (.cb 3))],0,0⟩],[⟨40,4951760157141521099596496896,[],[(15,.setEnt .internalNl),(16,.emb (.cb 3))],0,0⟩,⟨46,4294967808,[],[(15,.setEnt .internalNl),(16,.emb (.cb 3))],0,0⟩,⟨47,115792089237316195423570985008687907853269984665635612279300442486259482361343,[],[(15,.setEnt .internalNl),(16,.emb (.cb 3)),(17,.code)],0,0⟩,⟨48,4951760157141521099596496896,[],[(15,.setEnt .internalNl),(16,.emb (.cb 3))],0,0⟩,⟨50,549755813888,[],[(15,.setEnt .internalNl),(16,.emb (.cb 3))],0,0⟩],[⟨40,4951760157141521099596496896,[],[],0,0⟩,⟨46,4294967808,[],[],0,0⟩,⟨47,115792089237316195423570985008687907853269984665635612279300442486259482361343,[],[(17,.code)],0,0⟩,⟨48,4951760157141521099596496896,[],[],0,0⟩,⟨50,549755813888,[],[],0,0⟩],[⟨40,4951760157141521099596496896,[],[],0,0⟩,⟨46,4294967808,[],[],0,0⟩,⟨47,115792089237316195423570985008687907853269984665635612279300442486259482361343,[],[(17,.code)],0,0⟩,⟨48,4951760157141521099596496896,[],[],0,0⟩,⟨50,549755813888,[],[],0,0⟩],[⟨49,115792089237316195423570985008687907853269984665640564039457584007913129626623,[],[(18,.code)],0,0⟩],[⟨40,4951760157141521099596496896,[],[],0,0⟩,⟨46,4294967808,[],[],0,0⟩,⟨47,115792089237316195423570985008687907853269984665635612279300442486259482361343,[],[(17,.code)],0,0⟩,⟨48,4951760157141521099596496896,[],[],0,0⟩,⟨50,549755813888,[],[],0,0⟩],[],[⟨52,4951760157141521099596496896,[],[],0,0⟩,⟨58,4294967808,[],[],0,0⟩,⟨59,115792089237316195423570985008687907853269984665635612279300442486792058306047,[],[(22,.code)],0,0⟩,⟨60,4951760157141521099596496896,[],[],0,0⟩,⟨62,17179869184,[],[],0,0⟩],[⟨53,8192,[],[],0,0⟩,⟨55,1024,[],[],0,0⟩,⟨56,4096,[],[],0,0⟩,⟨57,8192,[.crAlone],[],0,0⟩],[⟨54,1024,[],[],0,0⟩],[⟨52,4951760157141521099596496896,[],[(20,.setEnt .internalNl),(21,.emb (.cb 3))],0,0⟩,⟨58,4294967808,[],[(20,.setEnt .internalNl),(21,.emb (.cb 3))],0,0⟩,⟨59,115792089237316195423570985008687907853269984665635612279300442486792058306047,[],[(20,.setEnt .internalNl),(21,.emb (.cb 3)),(22,.code)],0,0⟩,⟨60,4951760157141521099596496896,[],[(20,.setEnt .internalNl),(21,.emb (.cb 3))],0,0⟩,⟨62,17179869184,[],[(20,.setEnt .internalNl),(21,.emb (.cb 3))],0,0⟩],[⟨52,4951760157141521099596496896,[],[(20,.setEnt .internalNl),(21,.emb (.cb 3))],0,0⟩,⟨58,4294967808,[],[(20,.setEnt .internalNl),(21,.emb (.cb 3))],0,0⟩,⟨59,115792089237316195423570985008687907853269984665635612279300442486792058306047,[],[(20,.setEnt .internalNl),(21,.emb (.cb 3)),(22,.code)],0,0⟩,⟨60,4951760157141521099596496896,[],[(20,.setEnt .internalNl),(21,.emb (.cb 3))],0,0⟩,⟨62,17179869184,[],[(20,.setEnt .internalNl),(21,.emb (.cb 3))],0,0⟩],[⟨52,4951760157141521099596496896,[],[(20,.setEnt .internalNl),(21,.emb (.cb 3))],0,0⟩,⟨58,4294967808,[],[(20,.setEnt .internalNl),(21,.emb (.cb 3))],0,0⟩,⟨59,115792089237316195423570985008687907853269984665635612279300442486792058306047,[],[(20,.setEnt .internalNl),(21,.emb (.cb 3)),(22,.code)],0,0⟩,⟨60,4951760157141521099596496896,[],[(20,.setEnt .internalNl),(21,.emb (.cb 3))],0,0⟩,⟨62,17179869184,[],[(20,.setEnt .internalNl),(21,.emb (.cb 3))],0,0⟩],[⟨52,4951760157141521099596496896,[],[(20,.setEnt .internalNl),(21,.emb (.cb 3))],0,0⟩,⟨58,4294967808,[],[(20,.setEnt .internalNl),(21,.emb (.cb 3))],0,0⟩,⟨59,115792089237316195423570985008687907853269984665635612279300442486792058306047,[],[(20,.setEnt .internalNl),(21,.emb (.cb 3)),(22,.code)],0,0⟩,⟨60,4951760157141521099596496896,[],[(20,.setEnt .internalNl),(21,.emb (.cb 3))],0,0⟩,⟨62,17179869184,[],[(20,.setEnt .internalNl),(21,.emb (.cb 3))],0,0⟩],[⟨52,4951760157141521099596496896,[],[],0,0⟩,⟨58,4294967808,[],[],0,0⟩,⟨59,115792089237316195423570985008687907853269984665635612279300442486792058306047,[],[(22,.code)],0,0⟩,⟨60,4951760157141521099596496896,[],[],0,0⟩,⟨62,17179869184,[],[],0,0⟩],[⟨52,4951760157141521099596496896,[],[],0,0⟩,⟨58,4294967808,[],[],0,0⟩,⟨59,115792089237316195423570985008687907853269984665635612279300442486792058306047,[],[(22,.code)],0,0⟩,⟨60,4951760157141521099596496896,[],[],0,0⟩,⟨62,17179869184,[],[],0,0⟩],[⟨61,115792089237316195423570985008687907853269984665640564039457584007913129626623,[],[(23,.code)],0,0⟩],[⟨52,4951760157141521099596496896,[],[],0,0⟩,⟨58,4294967808,[],[],0,0⟩,⟨59,115792089237316195423570985008687907853269984665635612279300442486792058306047,[],[(22,.code)],0,0⟩,⟨60,4951760157141521099596496896,[],[],0,0⟩,⟨62,17179869184,[],[],0,0⟩],[],[⟨64,1024,[],[(24,.setEnt .newline)],0,0⟩],[],[],[],[],[]],[none,some (0,[]),none,none,none,none,none,none,none,none,none,none,none,none,none,none,some (0,[]),some (1,[]),none,some (2,[]),none,none,some (2,[(7,.setEnt .internalNl),(8,.emb (.cb 3))]),some (2,[(7,.setEnt .internalNl),(8,.emb (.cb 3))]),some (2,[(7,.setEnt .internalNl),(8,.emb (.cb 3))]),some (2,[(7,.setEnt .internalNl),(8,.emb (.cb 3))]),some (2,[]),some (2,[]),none,none,none,none,none,none,none,none,none,none,some (2,[]),none,none,none,none,none,none,none,none,none,none,none,some (3,[]),none,none,none,none,none,none,none,none,none,none,none,some (3,[]),none,some (4,[]),some (4,[]),some (4,[]),some (4,[]),some (5,[])],[5,6,14,24,25,26]⟩
def emb46_masks : List Nat := [137438953472,1152921504606846976,4294967808,140737488355328,549755813888,17179869184,8192,1024,4096,115792089237316195423570985008687907853269984665640564039457584007908834656767,4611686018427387904,41538374877950027585161004031410176,633825300261688653338028015616,20769187438975013792580502015705088,40564819216748073813633792999424,5192296859743753448145125503926272,83076749755900055170322008062820352,4951760157141521099596496896,115792089237316195423570985008687907853269984665640564039457584007908834658815,4398046511104,115792089237316195423570985008687907853269984665635612279300442486259482361343,115792089237316195423570985008687907853269984665640564039457584007913129626623,115792089237316195423570985008687907853269984665635612279300442486792058306047]
def emb46_cs : List (Nat × Nat) := [(0,115792089237316195423570985008687907853269834047828035193434919057834859545087),(9,4294967808),(10,1024),(11,2048),(12,4096),(13,8192),(34,17179869184),(37,137438953472),(39,549755813888),(42,4398046511104),(47,140737488355328),(60,1152921504606846976),(62,4611686018427387904),(67,633825300261688653338028015616),(73,40564819216748073813633792999424),(80,5192296859743753448145125503926272),(82,20769187438975013792580502015705088),(83,41538374877950027585161004031410176),(84,83076749755900055170322008062820352),(92,4951760157141521099596496896)]
theorem emb46_masksIn : masksIn emb46_nfa emb46_masks = true := by decide +kernel
theorem emb46_repOk : repOk emb46_masks emb46_cs = true := by decide +kernel
def emb46_rows : List Row := [⟨[],none,[],[⟨256,.other,false,some ⟨0,[.setEnt (.own 8)],some 5,true⟩⟩,⟨256,.ws,false,some ⟨1,[.setEnt (.own 0)],some 1,false⟩⟩,⟨256,.lf,false,some ⟨0,[.setEnt .newline],some 4,true⟩⟩,⟨256,.vt,false,none⟩,⟨256,.ff,false,some ⟨0,[.setEnt .newline],some 4,true⟩⟩,⟨256,.cr,false,some ⟨2,[.setEnt .newline],none,false⟩⟩,⟨256,.cr,true,some ⟨3,[.setEnt .newline],some 4,false⟩⟩,⟨256,.other,false,some ⟨4,[.code,.setEnt (.own 8)],some 5,false⟩⟩,⟨256,.other,false,some ⟨5,[.setEnt (.own 8)],some 5,false⟩⟩,⟨256,.other,false,some ⟨6,[.code,.setEnt (.own 8)],some 5,false⟩⟩,⟨256,.other,false,some ⟨7,[.setEnt (.own 8)],some 5,false⟩⟩,⟨256,.other,false,some ⟨8,[.setEnt (.own 8)],some 5,false⟩⟩]⟩,⟨[17],some 1,[],[⟨256,.other,false,none⟩,⟨256,.ws,false,some ⟨1,[.setEnt (.own 0)],some 1,false⟩⟩,⟨256,.lf,false,none⟩,⟨256,.vt,false,none⟩,⟨256,.ff,false,none⟩,⟨256,.cr,false,none⟩,⟨256,.cr,true,none⟩]⟩,⟨[63],none,[],[⟨256,.other,false,none⟩,⟨256,.ws,false,none⟩,⟨256,.lf,false,some ⟨0,[.setEnt .newline],some 4,true⟩⟩,⟨256,.vt,false,none⟩,⟨256,.ff,false,none⟩,⟨256,.cr,false,none⟩,⟨256,.cr,true,none⟩]⟩,⟨[63,67],some 4,[],[⟨256,.other,false,none⟩,⟨256,.ws,false,none⟩,⟨256,.lf,false,some ⟨0,[.setEnt .newline],some 4,true⟩⟩,⟨256,.vt,false,none⟩,⟨256,.ff,false,none⟩,⟨256,.cr,false,none⟩,⟨256,.cr,true,none⟩]⟩,⟨[51,68],some 5,[],[⟨256,.other,false,some ⟨9,[.code],none,false⟩⟩,⟨256,.ws,false,some ⟨10,[],none,false⟩⟩,⟨256,.lf,false,some ⟨9,[.code],none,false⟩⟩,⟨256,.vt,false,some ⟨9,[.code],none,false⟩⟩,⟨256,.ff,false,some ⟨9,[.code],none,false⟩⟩,⟨256,.cr,false,some ⟨9,[.code],none,false⟩⟩,⟨256,.cr,true,some ⟨9,[.code],none,false⟩⟩,⟨256,.other,false,some ⟨0,[],some 3,true⟩⟩,⟨256,.other,false,some ⟨11,[],none,false⟩⟩]⟩,⟨[0,68],some 5,[],[⟨256,.other,false,none⟩,⟨256,.ws,false,none⟩,⟨256,.lf,false,none⟩,⟨256,.vt,false,none⟩,⟨256,.ff,false,none⟩,⟨256,.cr,false,none⟩,⟨256,.cr,true,none⟩,⟨256,.other,false,some ⟨0,[.code,.emb .back],some 0,true⟩⟩]⟩,⟨[39,68],some 5,[],[⟨256,.other,false,some ⟨12,[.code],none,false⟩⟩,⟨256,.ws,false,some ⟨13,[],none,false⟩⟩,⟨256,.lf,false,some ⟨12,[.code],none,false⟩⟩,⟨256,.vt,false,some ⟨12,[.code],none,false⟩⟩,⟨256,.ff,false,some ⟨12,[.code],none,false⟩⟩,⟨256,.cr,false,some ⟨12,[.code],none,false⟩⟩,⟨256,.cr,true,some ⟨12,[.code],none,false⟩⟩,⟨256,.other,false,some ⟨0,[],some 3,true⟩⟩,⟨256,.other,false,some ⟨14,[],none,false⟩⟩]⟩,⟨[18,28,68],some 5,[],[⟨256,.other,false,none⟩,⟨256,.ws,false,none⟩,⟨256,.lf,false,none⟩,⟨256,.vt,false,none⟩,⟨256,.ff,false,none⟩,⟨256,.cr,false,none⟩,⟨256,.cr,true,none⟩,⟨256,.other,false,some ⟨15,[.comment],none,false⟩⟩,⟨256,.other,false,some ⟨16,[.comment],some 2,false⟩⟩]⟩,⟨[2,68],some 5,[],[⟨256,.other,false,none⟩,⟨256,.ws,false,none⟩,⟨256,.lf,false,none⟩,⟨256,.vt,false,none⟩,⟨256,.ff,false,none⟩,⟨256,.cr,false,none⟩,⟨256,.cr,true,none⟩,⟨256,.other,false,some ⟨17,[],none,false⟩⟩]⟩,⟨[59],none,[],[⟨256,.other,false,some ⟨9,[.code],none,false⟩⟩,⟨256,.ws,false,some ⟨10,[],none,false⟩⟩,⟨256,.lf,false,some ⟨9,[.code],none,false⟩⟩,⟨256,.vt,false,some ⟨9,[.code],none,false⟩⟩,⟨256,.ff,false,some ⟨9,[.code],none,false⟩⟩,⟨256,.cr,false,some ⟨9,[.code],none,false⟩⟩,⟨256,.cr,true,some ⟨9,[.code],none,false⟩⟩,⟨256,.other,false,some ⟨0,[],some 3,true⟩⟩,⟨256,.other,false,some ⟨11,[],none,false⟩⟩]⟩,⟨[58],none,[],[⟨256,.other,false,some ⟨9,[.code],none,false⟩⟩,⟨256,.ws,false,some ⟨10,[],none,false⟩⟩,⟨256,.lf,false,some ⟨9,[.code],none,false⟩⟩,⟨256,.vt,false,some ⟨9,[.code],none,false⟩⟩,⟨256,.ff,false,some ⟨9,[.code],none,false⟩⟩,⟨256,.cr,false,some ⟨9,[.code],none,false⟩⟩,⟨256,.cr,true,some ⟨9,[.code],none,false⟩⟩,⟨256,.other,false,some ⟨0,[],some 3,true⟩⟩,⟨256,.other,false,some ⟨11,[],none,false⟩⟩]⟩,⟨[52,60],none,[],[⟨256,.other,false,some ⟨18,[.code],none,false⟩⟩,⟨256,.ws,false,some ⟨18,[.code],none,false⟩⟩,⟨256,.lf,false,some ⟨19,[],none,false⟩⟩,⟨256,.vt,false,some ⟨18,[.code],none,false⟩⟩,⟨256,.ff,false,some ⟨20,[],none,false⟩⟩,⟨256,.cr,false,some ⟨21,[],none,false⟩⟩,⟨256,.cr,true,some ⟨22,[],none,false⟩⟩]⟩,⟨[47],none,[],[⟨256,.other,false,some ⟨12,[.code],none,false⟩⟩,⟨256,.ws,false,some ⟨13,[],none,false⟩⟩,⟨256,.lf,false,some ⟨12,[.code],none,false⟩⟩,⟨256,.vt,false,some ⟨12,[.code],none,false⟩⟩,⟨256,.ff,false,some ⟨12,[.code],none,false⟩⟩,⟨256,.cr,false,some ⟨12,[.code],none,false⟩⟩,⟨256,.cr,true,some ⟨12,[.code],none,false⟩⟩,⟨256,.other,false,some ⟨0,[],some 3,true⟩⟩,⟨256,.other,false,some ⟨14,[],none,false⟩⟩]⟩,⟨[46],none,[],[⟨256,.other,false,some ⟨12,[.code],none,false⟩⟩,⟨256,.ws,false,some ⟨13,[],none,false⟩⟩,⟨256,.lf,false,some ⟨12,[.code],none,false⟩⟩,⟨256,.vt,false,some ⟨12,[.code],none,false⟩⟩,⟨256,.ff,false,some ⟨12,[.code],none,false⟩⟩,⟨256,.cr,false,some ⟨12,[.code],none,false⟩⟩,⟨256,.cr,true,some ⟨12,[.code],none,false⟩⟩,⟨256,.other,false,some ⟨0,[],some 3,true⟩⟩,⟨256,.other,false,some ⟨14,[],none,false⟩⟩]⟩,⟨[40,48],none,[],[⟨256,.other,false,some ⟨23,[.code],none,false⟩⟩,⟨256,.ws,false,some ⟨23,[.code],none,false⟩⟩,⟨256,.lf,false,some ⟨24,[],none,false⟩⟩,⟨256,.vt,false,some ⟨23,[.code],none,false⟩⟩,⟨256,.ff,false,some ⟨25,[],none,false⟩⟩,⟨256,.cr,false,some ⟨26,[],none,false⟩⟩,⟨256,.cr,true,some ⟨27,[],none,false⟩⟩]⟩,⟨[29],none,[],[⟨256,.other,false,some ⟨28,[.comment],none,false⟩⟩,⟨256,.ws,false,some ⟨29,[],none,false⟩⟩,⟨256,.lf,false,some ⟨30,[],none,false⟩⟩,⟨256,.vt,false,some ⟨28,[.comment],none,false⟩⟩,⟨256,.ff,false,some ⟨31,[],none,false⟩⟩,⟨256,.cr,false,some ⟨32,[],none,false⟩⟩,⟨256,.cr,true,some ⟨33,[],none,false⟩⟩,⟨256,.other,false,some ⟨34,[.comment],none,false⟩⟩]⟩,⟨[19],some 2,[],[⟨256,.other,false,some ⟨35,[.comment],some 2,false⟩⟩,⟨256,.ws,false,some ⟨36,[],some 2,false⟩⟩,⟨256,.lf,false,none⟩,⟨256,.vt,false,some ⟨35,[.comment],some 2,false⟩⟩,⟨256,.ff,false,none⟩,⟨256,.cr,false,none⟩,⟨256,.cr,true,none⟩,⟨256,.other,false,some ⟨37,[.comment],some 2,false⟩⟩]⟩,⟨[3],none,[],[⟨256,.other,false,none⟩,⟨256,.ws,false,none⟩,⟨256,.lf,false,none⟩,⟨256,.vt,false,none⟩,⟨256,.ff,false,none⟩,⟨256,.cr,false,none⟩,⟨256,.cr,true,none⟩,⟨256,.other,false,some ⟨38,[],none,false⟩⟩]⟩,⟨[61],none,[],[⟨256,.other,false,some ⟨9,[.code],none,false⟩⟩,⟨256,.ws,false,some ⟨10,[],none,false⟩⟩,⟨256,.lf,false,some ⟨9,[.code],none,false⟩⟩,⟨256,.vt,false,some ⟨9,[.code],none,false⟩⟩,⟨256,.ff,false,some ⟨9,[.code],none,false⟩⟩,⟨256,.cr,false,some ⟨9,[.code],none,false⟩⟩,⟨256,.cr,true,some ⟨9,[.code],none,false⟩⟩,⟨256,.other,false,some ⟨0,[],some 3,true⟩⟩,⟨256,.other,false,some ⟨11,[],none,false⟩⟩]⟩,⟨[55],none,[],[⟨256,.other,false,some ⟨9,[.setEnt .internalNl,.emb (.cb 3),.code],none,false⟩⟩,⟨256,.ws,false,some ⟨10,[.setEnt .internalNl,.emb (.cb 3)],none,false⟩⟩,⟨256,.lf,false,some ⟨9,[.setEnt .internalNl,.emb (.cb 3),.code],none,false⟩⟩,⟨256,.vt,false,some ⟨9,[.setEnt .internalNl,.emb (.cb 3),.code],none,false⟩⟩,⟨256,.ff,false,some ⟨9,[.setEnt .internalNl,.emb (.cb 3),.code],none,false⟩⟩,⟨256,.cr,false,some ⟨9,[.setEnt .internalNl,.emb (.cb 3),.code],none,false⟩⟩,⟨256,.cr,true,some ⟨9,[.setEnt .internalNl,.emb (.cb 3),.code],none,false⟩⟩,⟨256,.other,false,some ⟨0,[.setEnt .internalNl,.emb (.cb 3)],some 3,true⟩⟩,⟨256,.other,false,some ⟨11,[.setEnt .internalNl,.emb (.cb 3)],none,false⟩⟩]⟩,⟨[56],none,[],[⟨256,.other,false,some ⟨9,[.setEnt .internalNl,.emb (.cb 3),.code],none,false⟩⟩,⟨256,.ws,false,some ⟨10,[.setEnt .internalNl,.emb (.cb 3)],none,false⟩⟩,⟨256,.lf,false,some ⟨9,[.setEnt .internalNl,.emb (.cb 3),.code],none,false⟩⟩,⟨256,.vt,false,some ⟨9,[.setEnt .internalNl,.emb (.cb 3),.code],none,false⟩⟩,⟨256,.ff,false,some ⟨9,[.setEnt .internalNl,.emb (.cb 3),.code],none,false⟩⟩,⟨256,.cr,false,some ⟨9,[.setEnt .internalNl,.emb (.cb 3),.code],none,false⟩⟩,⟨256,.cr,true,some ⟨9,[.setEnt .internalNl,.emb (.cb 3),.code],none,false⟩⟩,⟨256,.other,false,some ⟨0,[.setEnt .internalNl,.emb (.cb 3)],some 3,true⟩⟩,⟨256,.other,false,some ⟨11,[.setEnt .internalNl,.emb (.cb 3)],none,false⟩⟩]⟩,⟨[53],none,[],[⟨256,.other,false,none⟩,⟨256,.ws,false,none⟩,⟨256,.lf,false,some ⟨39,[],none,false⟩⟩,⟨256,.vt,false,none⟩,⟨256,.ff,false,none⟩,⟨256,.cr,false,none⟩,⟨256,.cr,true,none⟩]⟩,⟨[53,57],none,[],[⟨256,.other,false,some ⟨9,[.setEnt .internalNl,.emb (.cb 3),.code],none,false⟩⟩,⟨256,.ws,false,some ⟨10,[.setEnt .internalNl,.emb (.cb 3)],none,false⟩⟩,⟨256,.lf,false,some ⟨40,[.setEnt .internalNl,.emb (.cb 3),.code],none,false⟩⟩,⟨256,.vt,false,some ⟨9,[.setEnt .internalNl,.emb (.cb 3),.code],none,false⟩⟩,⟨256,.ff,false,some ⟨9,[.setEnt .internalNl,.emb (.cb 3),.code],none,false⟩⟩,⟨256,.cr,false,some ⟨9,[.setEnt .internalNl,.emb (.cb 3),.code],none,false⟩⟩,⟨256,.cr,true,some ⟨9,[.setEnt .internalNl,.emb (.cb 3),.code],none,false⟩⟩,⟨256,.other,false,some ⟨0,[.setEnt .internalNl,.emb (.cb 3)],some 3,true⟩⟩,⟨256,.other,false,some ⟨11,[.setEnt .internalNl,.emb (.cb 3)],none,false⟩⟩]⟩,⟨[49],none,[],[⟨256,.other,false,some ⟨12,[.code],none,false⟩⟩,⟨256,.ws,false,some ⟨13,[],none,false⟩⟩,⟨256,.lf,false,some ⟨12,[.code],none,false⟩⟩,⟨256,.vt,false,some ⟨12,[.code],none,false⟩⟩,⟨256,.ff,false,some ⟨12,[.code],none,false⟩⟩,⟨256,.cr,false,some ⟨12,[.code],none,false⟩⟩,⟨256,.cr,true,some ⟨12,[.code],none,false⟩⟩,⟨256,.other,false,some ⟨0,[],some 3,true⟩⟩,⟨256,.other,false,some ⟨14,[],none,false⟩⟩]⟩,⟨[43],none,[],[⟨256,.other,false,some ⟨12,[.setEnt .internalNl,.emb (.cb 3),.code],none,false⟩⟩,⟨256,.ws,false,some ⟨13,[.setEnt .internalNl,.emb (.cb 3)],none,false⟩⟩,⟨256,.lf,false,some ⟨12,[.setEnt .internalNl,.emb (.cb 3),.code],none,false⟩⟩,⟨256,.vt,false,some ⟨12,[.setEnt .internalNl,.emb (.cb 3),.code],none,false⟩⟩,⟨256,.ff,false,some ⟨12,[.setEnt .internalNl,.emb (.cb 3),.code],none,false⟩⟩,⟨256,.cr,false,some ⟨12,[.setEnt .internalNl,.emb (.cb 3),.code],none,false⟩⟩,⟨256,.cr,true,some ⟨12,[.setEnt .internalNl,.emb (.cb 3),.code],none,false⟩⟩,⟨256,.other,false,some ⟨0,[.setEnt .internalNl,.emb (.cb 3)],some 3,true⟩⟩,⟨256,.other,false,some ⟨14,[.setEnt .internalNl,.emb (.cb 3)],none,false⟩⟩]⟩,⟨[44],none,[],[⟨256,.other,false,some ⟨12,[.setEnt .internalNl,.emb (.cb 3),.code],none,false⟩⟩,⟨256,.ws,false,some ⟨13,[.setEnt .internalNl,.emb (.cb 3)],none,false⟩⟩,⟨256,.lf,false,some ⟨12,[.setEnt .internalNl,.emb (.cb 3),.code],none,false⟩⟩,⟨256,.vt,false,some ⟨12,[.setEnt .internalNl,.emb (.cb 3),.code],none,false⟩⟩,⟨256,.ff,false,some ⟨12,[.setEnt .internalNl,.emb (.cb 3),.code],none,false⟩⟩,⟨256,.cr,false,some ⟨12,[.setEnt .internalNl,.emb (.cb 3),.code],none,false⟩⟩,⟨256,.cr,true,some ⟨12,[.setEnt .internalNl,.emb (.cb 3),.code],none,false⟩⟩,⟨256,.other,false,some ⟨0,[.setEnt .internalNl,.emb (.cb 3)],some 3,true⟩⟩,⟨256,.other,false,some ⟨14,[.setEnt .internalNl,.emb (.cb 3)],none,false⟩⟩]⟩,⟨[41],none,[],[⟨256,.other,false,none⟩,⟨256,.ws,false,none⟩,⟨256,.lf,false,some ⟨41,[],none,false⟩⟩,⟨256,.vt,false,none⟩,⟨256,.ff,false,none⟩,⟨256,.cr,false,none⟩,⟨256,.cr,true,none⟩]⟩,⟨[41,45],none,[],[⟨256,.other,false,some ⟨12,[.setEnt .internalNl,.emb (.cb 3),.code],none,false⟩⟩,⟨256,.ws,false,some ⟨13,[.setEnt .internalNl,.emb (.cb 3)],none,false⟩⟩,⟨256,.lf,false,some ⟨42,[.setEnt .internalNl,.emb (.cb 3),.code],none,false⟩⟩,⟨256,.vt,false,some ⟨12,[.setEnt .internalNl,.emb (.cb 3),.code],none,false⟩⟩,⟨256,.ff,false,some ⟨12,[.setEnt .internalNl,.emb (.cb 3),.code],none,false⟩⟩,⟨256,.cr,false,some ⟨12,[.setEnt .internalNl,.emb (.cb 3),.code],none,false⟩⟩,⟨256,.cr,true,some ⟨12,[.setEnt .internalNl,.emb (.cb 3),.code],none,false⟩⟩,⟨256,.other,false,some ⟨0,[.setEnt .internalNl,.emb (.cb 3)],some 3,true⟩⟩,⟨256,.other,false,some ⟨14,[.setEnt .internalNl,.emb (.cb 3)],none,false⟩⟩]⟩,⟨[36],none,[],[⟨256,.other,false,some ⟨28,[.comment],none,false⟩⟩,⟨256,.ws,false,some ⟨29,[],none,false⟩⟩,⟨256,.lf,false,some ⟨30,[],none,false⟩⟩,⟨256,.vt,false,some ⟨28,[.comment],none,false⟩⟩,⟨256,.ff,false,some ⟨31,[],none,false⟩⟩,⟨256,.cr,false,some ⟨32,[],none,false⟩⟩,⟨256,.cr,true,some ⟨33,[],none,false⟩⟩,⟨256,.other,false,some ⟨34,[.comment],none,false⟩⟩]⟩,⟨[35],none,[],[⟨256,.other,false,some ⟨28,[.comment],none,false⟩⟩,⟨256,.ws,false,some ⟨29,[],none,false⟩⟩,⟨256,.lf,false,some ⟨30,[],none,false⟩⟩,⟨256,.vt,false,some ⟨28,[.comment],none,false⟩⟩,⟨256,.ff,false,some ⟨31,[],none,false⟩⟩,⟨256,.cr,false,some ⟨32,[],none,false⟩⟩,⟨256,.cr,true,some ⟨33,[],none,false⟩⟩,⟨256,.other,false,some ⟨34,[.comment],none,false⟩⟩]⟩,⟨[32],none,[],[⟨256,.other,false,some ⟨28,[.setEnt .internalNl,.emb (.cb 3),.comment],none,false⟩⟩,⟨256,.ws,false,some ⟨29,[.setEnt .internalNl,.emb (.cb 3)],none,false⟩⟩,⟨256,.lf,false,some ⟨30,[.setEnt .internalNl,.emb (.cb 3)],none,false⟩⟩,⟨256,.vt,false,some ⟨28,[.setEnt .internalNl,.emb (.cb 3),.comment],none,false⟩⟩,⟨256,.ff,false,some ⟨31,[.setEnt .internalNl,.emb (.cb 3)],none,false⟩⟩,⟨256,.cr,false,some ⟨32,[.setEnt .internalNl,.emb (.cb 3)],none,false⟩⟩,⟨256,.cr,true,some ⟨33,[.setEnt .internalNl,.emb (.cb 3)],none,false⟩⟩,⟨256,.other,false,some ⟨34,[.setEnt .internalNl,.emb (.cb 3),.comment],none,false⟩⟩]⟩,⟨[33],none,[],[⟨256,.other,false,some ⟨28,[.setEnt .internalNl,.emb (.cb 3),.comment],none,false⟩⟩,⟨256,.ws,false,some ⟨29,[.setEnt .internalNl,.emb (.cb 3)],none,false⟩⟩,⟨256,.lf,false,some ⟨30,[.setEnt .internalNl,.emb (.cb 3)],none,false⟩⟩,⟨256,.vt,false,some ⟨28,[.setEnt .internalNl,.emb (.cb 3),.comment],none,false⟩⟩,⟨256,.ff,false,some ⟨31,[.setEnt .internalNl,.emb (.cb 3)],none,false⟩⟩,⟨256,.cr,false,some ⟨32,[.setEnt .internalNl,.emb (.cb 3)],none,false⟩⟩,⟨256,.cr,true,some ⟨33,[.setEnt .internalNl,.emb (.cb 3)],none,false⟩⟩,⟨256,.other,false,some ⟨34,[.setEnt .internalNl,.emb (.cb 3),.comment],none,false⟩⟩]⟩,⟨[30],none,[],[⟨256,.other,false,none⟩,⟨256,.ws,false,none⟩,⟨256,.lf,false,some ⟨43,[],none,false⟩⟩,⟨256,.vt,false,none⟩,⟨256,.ff,false,none⟩,⟨256,.cr,false,none⟩,⟨256,.cr,true,none⟩]⟩,⟨[30,34],none,[],[⟨256,.other,false,some ⟨28,[.setEnt .internalNl,.emb (.cb 3),.comment],none,false⟩⟩,⟨256,.ws,false,some ⟨29,[.setEnt .internalNl,.emb (.cb 3)],none,false⟩⟩,⟨256,.lf,false,some ⟨44,[.setEnt .internalNl,.emb (.cb 3)],none,false⟩⟩,⟨256,.vt,false,some ⟨28,[.setEnt .internalNl,.emb (.cb 3),.comment],none,false⟩⟩,⟨256,.ff,false,some ⟨31,[.setEnt .internalNl,.emb (.cb 3)],none,false⟩⟩,⟨256,.cr,false,some ⟨32,[.setEnt .internalNl,.emb (.cb 3)],none,false⟩⟩,⟨256,.cr,true,some ⟨33,[.setEnt .internalNl,.emb (.cb 3)],none,false⟩⟩,⟨256,.other,false,some ⟨34,[.setEnt .internalNl,.emb (.cb 3),.comment],none,false⟩⟩]⟩,⟨[36,37],none,[],[⟨256,.other,false,some ⟨28,[.comment],none,false⟩⟩,⟨256,.ws,false,some ⟨29,[],none,false⟩⟩,⟨256,.lf,false,some ⟨30,[],none,false⟩⟩,⟨256,.vt,false,some ⟨28,[.comment],none,false⟩⟩,⟨256,.ff,false,some ⟨31,[],none,false⟩⟩,⟨256,.cr,false,some ⟨32,[],none,false⟩⟩,⟨256,.cr,true,some ⟨33,[],none,false⟩⟩,⟨256,.other,false,some ⟨34,[.comment],none,false⟩⟩,⟨256,.other,false,some ⟨0,[],some 2,true⟩⟩]⟩,⟨[27],some 2,[],[⟨256,.other,false,some ⟨35,[.comment],some 2,false⟩⟩,⟨256,.ws,false,some ⟨36,[],some 2,false⟩⟩,⟨256,.lf,false,none⟩,⟨256,.vt,false,some ⟨35,[.comment],some 2,false⟩⟩,⟨256,.ff,false,none⟩,⟨256,.cr,false,none⟩,⟨256,.cr,true,none⟩,⟨256,.other,false,some ⟨37,[.comment],some 2,false⟩⟩]⟩,⟨[26],some 2,[],[⟨256,.other,false,some ⟨35,[.comment],some 2,false⟩⟩,⟨256,.ws,false,some ⟨36,[],some 2,false⟩⟩,⟨256,.lf,false,none⟩,⟨256,.vt,false,some ⟨35,[.comment],some 2,false⟩⟩,⟨256,.ff,false,none⟩,⟨256,.cr,false,none⟩,⟨256,.cr,true,none⟩,⟨256,.other,false,some ⟨37,[.comment],some 2,false⟩⟩]⟩,⟨[20,27],some 2,[],[⟨256,.other,false,some ⟨35,[.comment],some 2,false⟩⟩,⟨256,.ws,false,some ⟨36,[],some 2,false⟩⟩,⟨256,.lf,false,some ⟨45,[],some 2,false⟩⟩,⟨256,.vt,false,some ⟨35,[.comment],some 2,false⟩⟩,⟨256,.ff,false,some ⟨46,[],some 2,false⟩⟩,⟨256,.cr,false,some ⟨47,[],none,false⟩⟩,⟨256,.cr,true,some ⟨48,[],some 2,false⟩⟩,⟨256,.other,false,some ⟨37,[.comment],some 2,false⟩⟩]⟩,⟨[4],none,[],[⟨256,.other,false,none⟩,⟨256,.ws,false,none⟩,⟨256,.lf,false,none⟩,⟨256,.vt,false,none⟩,⟨256,.ff,false,none⟩,⟨256,.cr,false,none⟩,⟨256,.cr,true,none⟩,⟨256,.other,false,some ⟨49,[],none,false⟩⟩]⟩,⟨[54],none,[],[⟨256,.other,false,some ⟨9,[.setEnt .internalNl,.emb (.cb 3),.code],none,false⟩⟩,⟨256,.ws,false,some ⟨10,[.setEnt .internalNl,.emb (.cb 3)],none,false⟩⟩,⟨256,.lf,false,some ⟨9,[.setEnt .internalNl,.emb (.cb 3),.code],none,false⟩⟩,⟨256,.vt,false,some ⟨9,[.setEnt .internalNl,.emb (.cb 3),.code],none,false⟩⟩,⟨256,.ff,false,some ⟨9,[.setEnt .internalNl,.emb (.cb 3),.code],none,false⟩⟩,⟨256,.cr,false,some ⟨9,[.setEnt .internalNl,.emb (.cb 3),.code],none,false⟩⟩,⟨256,.cr,true,some ⟨9,[.setEnt .internalNl,.emb (.cb 3),.code],none,false⟩⟩,⟨256,.other,false,some ⟨0,[.setEnt .internalNl,.emb (.cb 3)],some 3,true⟩⟩,⟨256,.other,false,some ⟨11,[.setEnt .internalNl,.emb (.cb 3)],none,false⟩⟩]⟩,⟨[54,59],none,[],[⟨256,.other,false,some ⟨9,[.setEnt .internalNl,.emb (.cb 3),.code],none,false⟩⟩,⟨256,.ws,false,some ⟨10,[.setEnt .internalNl,.emb (.cb 3)],none,false⟩⟩,⟨256,.lf,false,some ⟨9,[.setEnt .internalNl,.emb (.cb 3),.code],none,false⟩⟩,⟨256,.vt,false,some ⟨9,[.setEnt .internalNl,.emb (.cb 3),.code],none,false⟩⟩,⟨256,.ff,false,some ⟨9,[.setEnt .internalNl,.emb (.cb 3),.code],none,false⟩⟩,⟨256,.cr,false,some ⟨9,[.setEnt .internalNl,.emb (.cb 3),.code],none,false⟩⟩,⟨256,.cr,true,some ⟨9,[.setEnt .internalNl,.emb (.cb 3),.code],none,false⟩⟩,⟨256,.other,false,some ⟨0,[.setEnt .internalNl,.emb (.cb 3)],some 3,true⟩⟩,⟨256,.other,false,some ⟨11,[.setEnt .internalNl,.emb (.cb 3)],none,false⟩⟩]⟩,⟨[42],none,[],[⟨256,.other,false,some ⟨12,[.setEnt .internalNl,.emb (.cb 3),.code],none,false⟩⟩,⟨256,.ws,false,some ⟨13,[.setEnt .internalNl,.emb (.cb 3)],none,false⟩⟩,⟨256,.lf,false,some ⟨12,[.setEnt .internalNl,.emb (.cb 3),.code],none,false⟩⟩,⟨256,.vt,false,some ⟨12,[.setEnt .internalNl,.emb (.cb 3),.code],none,false⟩⟩,⟨256,.ff,false,some ⟨12,[.setEnt .internalNl,.emb (.cb 3),.code],none,false⟩⟩,⟨256,.cr,false,some ⟨12,[.setEnt .internalNl,.emb (.cb 3),.code],none,false⟩⟩,⟨256,.cr,true,some ⟨12,[.setEnt .internalNl,.emb (.cb 3),.code],none,false⟩⟩,⟨256,.other,false,some ⟨0,[.setEnt .internalNl,.emb (.cb 3)],some 3,true⟩⟩,⟨256,.other,false,some ⟨14,[.setEnt .internalNl,.emb (.cb 3)],none,false⟩⟩]⟩,⟨[42,47],none,[],[⟨256,.other,false,some ⟨12,[.setEnt .internalNl,.emb (.cb 3),.code],none,false⟩⟩,⟨256,.ws,false,some ⟨13,[.setEnt .internalNl,.emb (.cb 3)],none,false⟩⟩,⟨256,.lf,false,some ⟨12,[.setEnt .internalNl,.emb (.cb 3),.code],none,false⟩⟩,⟨256,.vt,false,some ⟨12,[.setEnt .internalNl,.emb (.cb 3),.code],none,false⟩⟩,⟨256,.ff,false,some ⟨12,[.setEnt .internalNl,.emb (.cb 3),.code],none,false⟩⟩,⟨256,.cr,false,some ⟨12,[.setEnt .internalNl,.emb (.cb 3),.code],none,false⟩⟩,⟨256,.cr,true,some ⟨12,[.setEnt .internalNl,.emb (.cb 3),.code],none,false⟩⟩,⟨256,.other,false,some ⟨0,[.setEnt .internalNl,.emb (.cb 3)],some 3,true⟩⟩,⟨256,.other,false,some ⟨14,[.setEnt .internalNl,.emb (.cb 3)],none,false⟩⟩]⟩,⟨[31],none,[],[⟨256,.other,false,some ⟨28,[.setEnt .internalNl,.emb (.cb 3),.comment],none,false⟩⟩,⟨256,.ws,false,some ⟨29,[.setEnt .internalNl,.emb (.cb 3)],none,false⟩⟩,⟨256,.lf,false,some ⟨30,[.setEnt .internalNl,.emb (.cb 3)],none,false⟩⟩,⟨256,.vt,false,some ⟨28,[.setEnt .internalNl,.emb (.cb 3),.comment],none,false⟩⟩,⟨256,.ff,false,some ⟨31,[.setEnt .internalNl,.emb (.cb 3)],none,false⟩⟩,⟨256,.cr,false,some ⟨32,[.setEnt .internalNl,.emb (.cb 3)],none,false⟩⟩,⟨256,.cr,true,some ⟨33,[.setEnt .internalNl,.emb (.cb 3)],none,false⟩⟩,⟨256,.other,false,some ⟨34,[.setEnt .internalNl,.emb (.cb 3),.comment],none,false⟩⟩]⟩,⟨[31,32],none,[],[⟨256,.other,false,some ⟨28,[.setEnt .internalNl,.emb (.cb 3),.comment],none,false⟩⟩,⟨256,.ws,false,some ⟨29,[.setEnt .internalNl,.emb (.cb 3)],none,false⟩⟩,⟨256,.lf,false,some ⟨30,[.setEnt .internalNl,.emb (.cb 3)],none,false⟩⟩,⟨256,.vt,false,some ⟨28,[.setEnt .internalNl,.emb (.cb 3),.comment],none,false⟩⟩,⟨256,.ff,false,some ⟨31,[.setEnt .internalNl,.emb (.cb 3)],none,false⟩⟩,⟨256,.cr,false,some ⟨32,[.setEnt .internalNl,.emb (.cb 3)],none,false⟩⟩,⟨256,.cr,true,some ⟨33,[.setEnt .internalNl,.emb (.cb 3)],none,false⟩⟩,⟨256,.other,false,some ⟨34,[.setEnt .internalNl,.emb (.cb 3),.comment],none,false⟩⟩]⟩,⟨[23],some 2,[.setEnt .internalNl,.emb (.cb 3)],[⟨256,.other,false,some ⟨35,[.setEnt .internalNl,.emb (.cb 3),.comment],some 2,false⟩⟩,⟨256,.ws,false,some ⟨36,[.setEnt .internalNl,.emb (.cb 3)],some 2,false⟩⟩,⟨256,.lf,false,none⟩,⟨256,.vt,false,some ⟨35,[.setEnt .internalNl,.emb (.cb 3),.comment],some 2,false⟩⟩,⟨256,.ff,false,none⟩,⟨256,.cr,false,none⟩,⟨256,.cr,true,none⟩,⟨256,.other,false,some ⟨37,[.setEnt .internalNl,.emb (.cb 3),.comment],some 2,false⟩⟩]⟩,⟨[24],some 2,[.setEnt .internalNl,.emb (.cb 3)],[⟨256,.other,false,some ⟨35,[.setEnt .internalNl,.emb (.cb 3),.comment],some 2,false⟩⟩,⟨256,.ws,false,some ⟨36,[.setEnt .internalNl,.emb (.cb 3)],some 2,false⟩⟩,⟨256,.lf,false,none⟩,⟨256,.vt,false,some ⟨35,[.setEnt .internalNl,.emb (.cb 3),.comment],some 2,false⟩⟩,⟨256,.ff,false,none⟩,⟨256,.cr,false,none⟩,⟨256,.cr,true,none⟩,⟨256,.other,false,some ⟨37,[.setEnt .internalNl,.emb (.cb 3),.comment],some 2,false⟩⟩]⟩,⟨[21],none,[],[⟨256,.other,false,none⟩,⟨256,.ws,false,none⟩,⟨256,.lf,false,some ⟨50,[],some 2,false⟩⟩,⟨256,.vt,false,none⟩,⟨256,.ff,false,none⟩,⟨256,.cr,false,none⟩,⟨256,.cr,true,none⟩]⟩,⟨[21,25],some 2,[.setEnt .internalNl,.emb (.cb 3)],[⟨256,.other,false,some ⟨35,[.setEnt .internalNl,.emb (.cb 3),.comment],some 2,false⟩⟩,⟨256,.ws,false,some ⟨36,[.setEnt .internalNl,.emb (.cb 3)],some 2,false⟩⟩,⟨256,.lf,false,some ⟨50,[],some 2,false⟩⟩,⟨256,.vt,false,some ⟨35,[.setEnt .internalNl,.emb (.cb 3),.comment],some 2,false⟩⟩,⟨256,.ff,false,none⟩,⟨256,.cr,false,none⟩,⟨256,.cr,true,none⟩,⟨256,.other,false,some ⟨37,[.setEnt .internalNl,.emb (.cb 3),.comment],some 2,false⟩⟩]⟩,⟨[5],none,[],[⟨256,.other,false,none⟩,⟨256,.ws,false,none⟩,⟨256,.lf,false,none⟩,⟨256,.vt,false,none⟩,⟨256,.ff,false,none⟩,⟨256,.cr,false,none⟩,⟨256,.cr,true,none⟩,⟨256,.other,false,some ⟨51,[],none,false⟩⟩]⟩,⟨[22],some 2,[.setEnt .internalNl,.emb (.cb 3)],[⟨256,.other,false,some ⟨35,[.setEnt .internalNl,.emb (.cb 3),.comment],some 2,false⟩⟩,⟨256,.ws,false,some ⟨36,[.setEnt .internalNl,.emb (.cb 3)],some 2,false⟩⟩,⟨256,.lf,false,none⟩,⟨256,.vt,false,some ⟨35,[.setEnt .internalNl,.emb (.cb 3),.comment],some 2,false⟩⟩,⟨256,.ff,false,none⟩,⟨256,.cr,false,none⟩,⟨256,.cr,true,none⟩,⟨256,.other,false,some ⟨37,[.setEnt .internalNl,.emb (.cb 3),.comment],some 2,false⟩⟩]⟩,⟨[6],none,[],[⟨256,.other,false,none⟩,⟨256,.ws,false,none⟩,⟨256,.lf,false,none⟩,⟨256,.vt,false,none⟩,⟨256,.ff,false,none⟩,⟨256,.cr,false,none⟩,⟨256,.cr,true,none⟩,⟨256,.other,false,some ⟨52,[],none,false⟩⟩]⟩,⟨[7],none,[],[⟨256,.other,false,none⟩,⟨256,.ws,false,none⟩,⟨256,.lf,false,none⟩,⟨256,.vt,false,none⟩,⟨256,.ff,false,none⟩,⟨256,.cr,false,none⟩,⟨256,.cr,true,none⟩,⟨256,.other,false,some ⟨53,[],none,false⟩⟩]⟩,⟨[8],none,[],[⟨256,.other,false,none⟩,⟨256,.ws,false,none⟩,⟨256,.lf,false,none⟩,⟨256,.vt,false,none⟩,⟨256,.ff,false,none⟩,⟨256,.cr,false,none⟩,⟨256,.cr,true,none⟩,⟨256,.other,false,some ⟨54,[],none,false⟩⟩]⟩,⟨[9],none,[],[⟨256,.other,false,none⟩,⟨256,.ws,false,some ⟨55,[],none,false⟩⟩,⟨256,.lf,false,some ⟨56,[.setEnt .internalNl],none,false⟩⟩,⟨256,.vt,false,none⟩,⟨256,.ff,false,some ⟨57,[.setEnt .internalNl],none,false⟩⟩,⟨256,.cr,false,some ⟨58,[],none,false⟩⟩,⟨256,.cr,true,some ⟨59,[.setEnt .internalNl],none,false⟩⟩,⟨256,.other,false,some ⟨0,[.emb .outry,.code,.emb .back],some 0,true⟩⟩]⟩,⟨[10],none,[],[⟨256,.other,false,none⟩,⟨256,.ws,false,some ⟨55,[],none,false⟩⟩,⟨256,.lf,false,some ⟨56,[.setEnt .internalNl],none,false⟩⟩,⟨256,.vt,false,none⟩,⟨256,.ff,false,some ⟨57,[.setEnt .internalNl],none,false⟩⟩,⟨256,.cr,false,some ⟨58,[],none,false⟩⟩,⟨256,.cr,true,some ⟨59,[.setEnt .internalNl],none,false⟩⟩,⟨256,.other,false,some ⟨0,[.emb .outry,.code,.emb .back],some 0,true⟩⟩]⟩,⟨[13],none,[],[⟨256,.other,false,none⟩,⟨256,.ws,false,some ⟨55,[.cb],none,false⟩⟩,⟨256,.lf,false,some ⟨56,[.setEnt .internalNl,.cb],none,false⟩⟩,⟨256,.vt,false,none⟩,⟨256,.ff,false,some ⟨57,[.setEnt .internalNl,.cb],none,false⟩⟩,⟨256,.cr,false,some ⟨58,[.cb],none,false⟩⟩,⟨256,.cr,true,some ⟨59,[.setEnt .internalNl,.cb],none,false⟩⟩,⟨256,.other,false,some ⟨0,[.cb,.emb .outry,.code,.emb .back],some 0,true⟩⟩]⟩,⟨[14],none,[],[⟨256,.other,false,none⟩,⟨256,.ws,false,some ⟨55,[.cb],none,false⟩⟩,⟨256,.lf,false,some ⟨56,[.setEnt .internalNl,.cb],none,false⟩⟩,⟨256,.vt,false,none⟩,⟨256,.ff,false,some ⟨57,[.setEnt .internalNl,.cb],none,false⟩⟩,⟨256,.cr,false,some ⟨58,[.cb],none,false⟩⟩,⟨256,.cr,true,some ⟨59,[.setEnt .internalNl,.cb],none,false⟩⟩,⟨256,.other,false,some ⟨0,[.cb,.emb .outry,.code,.emb .back],some 0,true⟩⟩]⟩,⟨[11],none,[],[⟨256,.other,false,none⟩,⟨256,.ws,false,none⟩,⟨256,.lf,false,some ⟨60,[.setEnt .internalNl],none,false⟩⟩,⟨256,.vt,false,none⟩,⟨256,.ff,false,none⟩,⟨256,.cr,false,none⟩,⟨256,.cr,true,none⟩]⟩,⟨[11,15],none,[],[⟨256,.other,false,none⟩,⟨256,.ws,false,some ⟨55,[.cb],none,false⟩⟩,⟨256,.lf,false,some ⟨61,[.setEnt .internalNl,.cb],none,false⟩⟩,⟨256,.vt,false,none⟩,⟨256,.ff,false,some ⟨57,[.setEnt .internalNl,.cb],none,false⟩⟩,⟨256,.cr,false,some ⟨58,[.cb],none,false⟩⟩,⟨256,.cr,true,some ⟨59,[.setEnt .internalNl,.cb],none,false⟩⟩,⟨256,.other,false,some ⟨0,[.cb,.emb .outry,.code,.emb .back],some 0,true⟩⟩]⟩,⟨[12],none,[],[⟨256,.other,false,none⟩,⟨256,.ws,false,some ⟨55,[.cb],none,false⟩⟩,⟨256,.lf,false,some ⟨56,[.setEnt .internalNl,.cb],none,false⟩⟩,⟨256,.vt,false,none⟩,⟨256,.ff,false,some ⟨57,[.setEnt .internalNl,.cb],none,false⟩⟩,⟨256,.cr,false,some ⟨58,[.cb],none,false⟩⟩,⟨256,.cr,true,some ⟨59,[.setEnt .internalNl,.cb],none,false⟩⟩,⟨256,.other,false,some ⟨0,[.cb,.emb .outry,.code,.emb .back],some 0,true⟩⟩]⟩,⟨[12,13],none,[],[⟨256,.other,false,none⟩,⟨256,.ws,false,some ⟨55,[.cb],none,false⟩⟩,⟨256,.lf,false,some ⟨56,[.setEnt .internalNl,.cb],none,false⟩⟩,⟨256,.vt,false,none⟩,⟨256,.ff,false,some ⟨57,[.setEnt .internalNl,.cb],none,false⟩⟩,⟨256,.cr,false,some ⟨58,[.cb],none,false⟩⟩,⟨256,.cr,true,some ⟨59,[.setEnt .internalNl,.cb],none,false⟩⟩,⟨256,.other,false,some ⟨0,[.cb,.emb .outry,.code,.emb .back],some 0,true⟩⟩]⟩]
theorem emb46_rowsOk : rowsOk emb46_nfa [] (emb46_cs.map (·.1)) emb46_rows = true := by decide +kernel
def emb46_D : Dfa emb46_nfa := ⟨emb46_masks, [], emb46_cs, emb46_rows, emb46_masksIn, emb46_repOk, emb46_rowsOk⟩

/-- The automaton of `Emb.Rhtml.rhtml_ruby_line`. -/
def emb50_nfa : Nfa := ⟨[⟨0,137438953472,[],[],0,0⟩,⟨2,4294967808,[],[(3,.setEnt (.own 0))],0,0⟩,⟨3,34359738368,[],[(4,.comment)],0,0⟩,⟨5,2305843009213693952,[],[],0,2⟩,⟨22,549755813888,[],[(11,.enqueue),(12,.code)],0,0⟩,⟨33,17179869184,[],[(19,.enqueue),(20,.code)],0,0⟩,⟨44,137438953472,[],[],0,0⟩,⟨57,79228162514264337593543950336,[],[(35,.enqueue),(36,.code)],0,0⟩,⟨68,140737488355328,[],[],0,0⟩,⟨73,137438953472,[],[],0,0⟩,⟨86,8192,[],[(52,.setEnt .newline)],0,0⟩,⟨88,1024,[],[(52,.setEnt .newline)],0,0⟩,⟨89,4096,[],[(52,.setEnt .newline)],0,0⟩,⟨90,8192,[.crAlone],[(52,.setEnt .newline)],0,0⟩,⟨91,115792089237316195423570985008687907853269984665640564039457584007908834656767,[],[(53,.setEnt (.own 3))],0,0⟩],[[⟨1,4611686018427387904,[],[(0,.emb .outry),(1,.code),(2,.emb .back)],0,0⟩],[],[⟨2,4294967808,[],[(3,.setEnt (.own 0))],0,0⟩],[⟨4,115792089237316195423570985008687907853269984665640564039457584007913129626623,[],[],0,0⟩],[⟨4,115792089237316195423570985008687907853269984665640564039457584007913129626623,[],[],0,0⟩],[⟨6,316912650057057350374175801344,[],[],0,2⟩],[⟨7,2535301200456458802993406410752,[],[],0,2⟩],[⟨8,10141204801825835211973625643008,[],[],0,2⟩],[⟨9,40564819207303340847894502572032,[],[],0,2⟩],[⟨10,1298074214633706907132624082305024,[],[(5,.enqueue),(6,.comment)],0,2⟩],[⟨11,8192,[],[],0,2⟩,⟨13,1024,[],[],0,2⟩,⟨14,4096,[],[],0,2⟩,⟨15,8192,[.crAlone],[],0,2⟩,⟨16,4294967808,[],[],0,2⟩,⟨17,115792089237316195423570985008687907853269984665640564039457584007908834658815,[],[(9,.comment)],0,2⟩,⟨18,2305843009213693952,[],[],0,2⟩],[⟨12,1024,[],[],0,2⟩],[⟨11,8192,[],[(7,.setEnt .internalNl),(8,.emb (.cb 3))],0,2⟩,⟨13,1024,[],[(7,.setEnt .internalNl),(8,.emb (.cb 3))],0,2⟩,⟨14,4096,[],[(7,.setEnt .internalNl),(8,.emb (.cb 3))],0,2⟩,⟨15,8192,[.crAlone],[(7,.setEnt .internalNl),(8,.emb (.cb 3))],0,2⟩,⟨16,4294967808,[],[(7,.setEnt .internalNl),(8,.emb (.cb 3))],0,2⟩,⟨17,115792089237316195423570985008687907853269984665640564039457584007908834658815,[],[(7,.setEnt .internalNl),(8,.emb (.cb 3)),(9,.comment)],0,2⟩,⟨18,2305843009213693952,[],[(7,.setEnt .internalNl),(8,.emb (.cb 3))],0,2⟩],[⟨11,8192,[],[(7,.setEnt .internalNl),(8,.emb (.cb 3))],0,2⟩,⟨13,1024,[],[(7,.setEnt .internalNl),(8,.emb (.cb 3))],0,2⟩,⟨14,4096,[],[(7,.setEnt .internalNl),(8,.emb (.cb 3))],0,2⟩,⟨15,8192,[.crAlone],[(7,.setEnt .internalNl),(8,.emb (.cb 3))],0,2⟩,⟨16,4294967808,[],[(7,.setEnt .internalNl),(8,.emb (.cb 3))],0,2⟩,⟨17,115792089237316195423570985008687907853269984665640564039457584007908834658815,[],[(7,.setEnt .internalNl),(8,.emb (.cb 3)),(9,.comment)],0,2⟩,⟨18,2305843009213693952,[],[(7,.setEnt .internalNl),(8,.emb (.cb 3))],0,2⟩],[⟨11,8192,[],[(7,.setEnt .internalNl),(8,.emb (.cb 3))],0,2⟩,⟨13,1024,[],[(7,.setEnt .internalNl),(8,.emb (.cb 3))],0,2⟩,⟨14,4096,[],[(7,.setEnt .internalNl),(8,.emb (.cb 3))],0,2⟩,⟨15,8192,[.crAlone],[(7,.setEnt .internalNl),(8,.emb (.cb 3))],0,2⟩,⟨16,4294967808,[],[(7,.setEnt .internalNl),(8,.emb (.cb 3))],0,2⟩,⟨17,115792089237316195423570985008687907853269984665640564039457584007908834658815,[],[(7,.setEnt .internalNl),(8,.emb (.cb 3)),(9,.comment)],0,2⟩,⟨18,2305843009213693952,[],[(7,.setEnt .internalNl),(8,.emb (.cb 3))],0,2⟩],[⟨11,8192,[],[(7,.setEnt .internalNl),(8,.emb (.cb 3))],0,2⟩,⟨13,1024,[],[(7,.setEnt .internalNl),(8,.emb (.cb 3))],0,2⟩,⟨14,4096,[],[(7,.setEnt .internalNl),(8,.emb (.cb 3))],0,2⟩,⟨15,8192,[.crAlone],[(7,.setEnt .internalNl),(8,.emb (.cb 3))],0,2⟩,⟨16,4294967808,[],[(7,.setEnt .internalNl),(8,.emb (.cb 3))],0,2⟩,⟨17,115792089237316195423570985008687907853269984665640564039457584007908834658815,[],[(7,.setEnt .internalNl),(8,.emb (.cb 3)),(9,.comment)],0,2⟩,⟨18,2305843009213693952,[],[(7,.setEnt .internalNl),(8,.emb (.cb 3))],0,2⟩],[⟨11,8192,[],[],0,2⟩,⟨13,1024,[],[],0,2⟩,⟨14,4096,[],[],0,2⟩,⟨15,8192,[.crAlone],[],0,2⟩,⟨16,4294967808,[],[],0,2⟩,⟨17,115792089237316195423570985008687907853269984665640564039457584007908834658815,[],[(9,.comment)],0,2⟩,⟨18,2305843009213693952,[],[],0,2⟩],[⟨11,8192,[],[],0,2⟩,⟨13,1024,[],[],0,2⟩,⟨14,4096,[],[],0,2⟩,⟨15,8192,[.crAlone],[],0,2⟩,⟨16,4294967808,[],[],0,2⟩,⟨17,115792089237316195423570985008687907853269984665640564039457584007908834658815,[],[(9,.comment)],0,2⟩,⟨18,2305843009213693952,[],[],0,2⟩],[⟨19,2535301200456458802993406410752,[],[],0,0⟩],[⟨20,1298074214633706907132624082305024,[],[],0,0⟩],[⟨21,1267650600228229401496703205376,[],[(10,.commit)],2,0⟩],[],[⟨23,8192,[],[],0,0⟩,⟨25,1024,[],[],0,0⟩,⟨26,4096,[],[],0,0⟩,⟨27,8192,[.crAlone],[],0,0⟩,⟨28,4294967808,[],[],0,0⟩,⟨29,115792089237316195423570985008687907853269984665635612279300442486259482348031,[],[(15,.code)],0,0⟩,⟨30,4951760157141521099596496896,[],[],0,0⟩,⟨32,549755813888,[],[(17,.commit),(18,.code)],0,0⟩],[⟨24,1024,[],[],0,0⟩],[⟨23,8192,[],[(13,.setEnt .internalNl),(14,.emb (.cb 3))],0,0⟩,⟨25,1024,[],[(13,.setEnt .internalNl),(14,.emb (.cb 3))],0,0⟩,⟨26,4096,[],[(13,.setEnt .internalNl),(14,.emb (.cb 3))],0,0⟩,⟨27,8192,[.crAlone],[(13,.setEnt .internalNl),(14,.emb (.cb 3))],0,0⟩,⟨28,4294967808,[],[(13,.setEnt .internalNl),(14,.emb (.cb 3))],0,0⟩,⟨29,115792089237316195423570985008687907853269984665635612279300442486259482348031,[],[(13,.setEnt .internalNl),(14,.emb (.cb 3)),(15,.code)],0,0⟩,⟨30,4951760157141521099596496896,[],[(13,.setEnt .internalNl),(14,.emb (.cb 3))],0,0⟩,⟨32,549755813888,[],[(13,.setEnt .internalNl),(14,.emb (.cb 3)),(17,.commit),(18,.code)],0,0⟩],[⟨23,8192,[],[(13,.setEnt .internalNl),(14,.emb (.cb 3))],0,0⟩,⟨25,1024,[],[(13,.setEnt .internalNl),(14,.emb (.cb 3))],0,0⟩,⟨26,4096,[],[(13,.setEnt .internalNl),(14,.emb (.cb 3))],0,0⟩,⟨27,8192,[.crAlone],[(13,.setEnt .internalNl),(14,.emb (.cb 3))],0,0⟩,⟨28,4294967808,[],[(13,.setEnt .internalNl),(14,.emb (.cb 3))],0,0⟩,⟨29,115792089237316195423570985008687907853269984665635612279300442486259482348031,[],[(13,.setEnt .internalNl),(14,.emb (.cb 3)),(15,.code)],0,0⟩,⟨30,4951760157141521099596496896,[],[(13,.setEnt .internalNl),(14,.emb (.cb 3))],0,0⟩,⟨32,549755813888,[],[(13,.setEnt .internalNl),(14,.emb (.cb 3)),(17,.commit),(18,.code)],0,0⟩],[⟨23,8192,[],[(13,.setEnt .internalNl),(14,.emb (.cb 3))],0,0⟩,⟨25,1024,[],[(13,.setEnt .internalNl),(14,.emb (.cb 3))],0,0⟩,⟨26,4096,[],[(13,.setEnt .internalNl),(14,.emb (.cb 3))],0,0⟩,⟨27,8192,[.crAlone],[(13,.setEnt .internalNl),(14,.emb (.cb 3))],0,0⟩,⟨28,4294967808,[],[(13,.setEnt .internalNl),(14,.emb (.cb 3))],0,0⟩,⟨29,115792089237316195423570985008687907853269984665635612279300442486259482348031,[],[(13,.setEnt .internalNl),(14,.emb (.cb 3)),(15,.code)],0,0⟩,⟨30,4951760157141521099596496896,[],[(13,.setEnt .internalNl),(14,.emb (.cb 3))],0,0⟩,⟨32,549755813888,[],[(13,.setEnt .internalNl),(14,.emb (.cb 3)),(17,.commit),(18,.code)],0,0⟩],[⟨23,8192,[],[(13,.setEnt .internalNl),(14,.emb (.cb 3))],0,0⟩,⟨25,1024,[],[(13,.setEnt .internalNl),(14,.emb (.cb 3))],0,0⟩,⟨26,4096,[],[(13,.setEnt .internalNl),(14,.emb (.cb 3))],0,0⟩,⟨27,8192,[.crAlone],[(13,.setEnt .internalNl),(14,.emb (.cb 3))],0,0⟩,⟨28,4294967808,[],[(13,.setEnt .internalNl),(14,.emb (.cb 3))],0,0⟩,⟨29,115792089237316195423570985008687907853269984665635612279300442486259482348031,[],[(13,.setEnt .internalNl),(14,.emb (.cb 3)),(15,.code)],0,0⟩,⟨30,4951760157141521099596496896,[],[(13,.setEnt .internalNl),(14,.emb (.cb 3))],0,0⟩,⟨32,549755813888,[],[(13,.setEnt .internalNl),(14,.emb (.cb 3)),(17,.commit),(18,.code)],0,0⟩],[⟨23,8192,[],[],0,0⟩,⟨25,1024,[],[],0,0⟩,⟨26,4096,[],[],0,0⟩,⟨27,8192,[.crAlone],[],0,0⟩,⟨28,4294967808,[],[],0,0⟩,⟨29,115792089237316195423570985008687907853269984665635612279300442486259482348031,[],[(15,.code)],0,0⟩,⟨30,4951760157141521099596496896,[],[],0,0⟩,⟨32,549755813888,[],[(17,.commit),(18,.code)],0,0⟩],[⟨23,8192,[],[],0,0⟩,⟨25,1024,[],[],0,0⟩,⟨26,4096,[],[],0,0⟩,⟨27,8192,[.crAlone],[],0,0⟩,⟨28,4294967808,[],[],0,0⟩,⟨29,115792089237316195423570985008687907853269984665635612279300442486259482348031,[],[(15,.code)],0,0⟩,⟨30,4951760157141521099596496896,[],[],0,0⟩,⟨32,549755813888,[],[(17,.commit),(18,.code)],0,0⟩],[⟨31,115792089237316195423570985008687907853269984665640564039457584007913129626623,[],[(16,.code)],0,0⟩],[⟨23,8192,[],[],0,0⟩,⟨25,1024,[],[],0,0⟩,⟨26,4096,[],[],0,0⟩,⟨27,8192,[.crAlone],[],0,0⟩,⟨28,4294967808,[],[],0,0⟩,⟨29,115792089237316195423570985008687907853269984665635612279300442486259482348031,[],[(15,.code)],0,0⟩,⟨30,4951760157141521099596496896,[],[],0,0⟩,⟨32,549755813888,[],[(17,.commit),(18,.code)],0,0⟩],[],[⟨34,8192,[],[],0,0⟩,⟨36,1024,[],[],0,0⟩,⟨37,4096,[],[],0,0⟩,⟨38,8192,[.crAlone],[],0,0⟩,⟨39,4294967808,[],[],0,0⟩,⟨40,115792089237316195423570985008687907853269984665635612279300442486792058292735,[],[(23,.code)],0,0⟩,⟨41,4951760157141521099596496896,[],[],0,0⟩,⟨43,17179869184,[],[(25,.commit),(26,.code)],0,0⟩],[⟨35,1024,[],[],0,0⟩],[⟨34,8192,[],[(21,.setEnt .internalNl),(22,.emb (.cb 3))],0,0⟩,⟨36,1024,[],[(21,.setEnt .internalNl),(22,.emb (.cb 3))],0,0⟩,⟨37,4096,[],[(21,.setEnt .internalNl),(22,.emb (.cb 3))],0,0⟩,⟨38,8192,[.crAlone],[(21,.setEnt .internalNl),(22,.emb (.cb 3))],0,0⟩,⟨39,4294967808,[],[(21,.setEnt .internalNl),(22,.emb (.cb 3))],0,0⟩,⟨40,115792089237316195423570985008687907853269984665635612279300442486792058292735,[],[(21,.setEnt .internalNl),(22,.emb (.cb 3)),(23,.code)],0,0⟩,⟨41,4951760157141521099596496896,[],[(21,.setEnt .internalNl),(22,.emb (.cb 3))],0,0⟩,⟨43,17179869184,[],[(21,.setEnt .internalNl),(22,.emb (.cb 3)),(25,.commit),(26,.code)],0,0⟩],[⟨34,8192,[],[(21,.setEnt .internalNl),(22,.emb (.cb 3))],0,0⟩,⟨36,1024,[],[(21,.setEnt .internalNl),(22,.emb (.cb 3))],0,0⟩,⟨37,4096,[],[(21,.setEnt .internalNl),(22,.emb (.cb 3))],0,0⟩,⟨38,8192,[.crAlone],[(21,.setEnt .internalNl),(22,.emb (.cb 3))],0,0⟩,⟨39,4294967808,[],[(21,.setEnt .internalNl),(22,.emb (.cb 3))],0,0⟩,⟨40,115792089237316195423570985008687907853269984665635612279300442486792058292735,[],[(21,.setEnt .internalNl),(22,.emb (.cb 3)),(23,.code)],0,0⟩,⟨41,4951760157141521099596496896,[],[(21,.setEnt .internalNl),(22,.emb (.cb 3))],0,0⟩,⟨43,17179869184,[],[(21,.setEnt .internalNl),(22,.emb (.cb 3)),(25,.commit),(26,.code)],0,0⟩],[⟨34,8192,[],[(21,.setEnt .internalNl),(22,.emb (.cb 3))],0,0⟩,⟨36,1024,[],[(21,.setEnt .internalNl),(22,.emb (.cb 3))],0,0⟩,⟨37,4096,[],[(21,.setEnt .internalNl),(22,.emb (.cb 3))],0,0⟩,⟨38,8192,[.crAlone],[(21,.setEnt .internalNl),(22,.emb (.cb 3))],0,0⟩,⟨39,4294967808,[],[(21,.setEnt .internalNl),(22,.emb (.cb 3))],0,0⟩,⟨40,115792089237316195423570985008687907853269984665635612279300442486792058292735,[],[(21,.setEnt .internalNl),(22,.emb (.cb 3)),(23,.code)],0,0⟩,⟨41,4951760157141521099596496896,[],[(21,.setEnt .internalNl),(22,.emb (.cb 3))],0,0⟩,⟨43,17179869184,[],[(21,.setEnt .internalNl),(22,.emb (.cb 3)),(25,.commit),(26,.code)],0,0⟩],[⟨34,8192,[],[(21,.setEnt .internalNl),(22,.emb (.cb 3))],0,0⟩,⟨36,1024,[],[(21,.setEnt .internalNl),(22,.emb (.cb 3))],0,0⟩,⟨37,4096,[],[(21,.setEnt .internalNl),(22,.emb (.cb 3))],0,0⟩,⟨38,8192,[.crAlone],[(21,.setEnt .internalNl),(22,.emb (.cb 3))],0,0⟩,⟨39,4294967808,[],[(21,.setEnt .internalNl),(22,.emb (.cb 3))],0,0⟩,⟨40,115792089237316195423570985008687907853269984665635612279300442486792058292735,[],[(21,.setEnt .internalNl),(22,.emb (.cb 3)),(23,.code)],0,0⟩,⟨41,4951760157141521099596496896,[],[(21,.setEnt .internalNl),(22,.emb (.cb 3))],0,0⟩,⟨43,17179869184,[],[(21,.setEnt .internalNl),(22,.emb (.cb 3)),(25,.commit),(26,.code)],0,0⟩],[⟨34,8192,[],[],0,0⟩,⟨36,1024,[],[],0,0⟩,⟨37,4096,[],[],0,0⟩,⟨38,8192,[.crAlone],[],0,0⟩,⟨39,4294967808,[],[],0,0⟩,⟨40,115792089237316195423570985008687907853269984665635612279300442486792058292735,[],[(23,.code)],0,0⟩,⟨41,4951760157141521099596496896,[],[],0,0⟩,⟨43,17179869184,[],[(25,.commit),(26,.code)],0,0⟩],[⟨34,8192,[],[],0,0⟩,⟨36,1024,[],[],0,0⟩,⟨37,4096,[],[],0,0⟩,⟨38,8192,[.crAlone],[],0,0⟩,⟨39,4294967808,[],[],0,0⟩,⟨40,115792089237316195423570985008687907853269984665635612279300442486792058292735,[],[(23,.code)],0,0⟩,⟨41,4951760157141521099596496896,[],[],0,0⟩,⟨43,17179869184,[],[(25,.commit),(26,.code)],0,0⟩],[⟨42,115792089237316195423570985008687907853269984665640564039457584007913129626623,[],[(24,.code)],0,0⟩],[⟨34,8192,[],[],0,0⟩,⟨36,1024,[],[],0,0⟩,⟨37,4096,[],[],0,0⟩,⟨38,8192,[.crAlone],[],0,0⟩,⟨39,4294967808,[],[],0,0⟩,⟨40,115792089237316195423570985008687907853269984665635612279300442486792058292735,[],[(23,.code)],0,0⟩,⟨41,4951760157141521099596496896,[],[],0,0⟩,⟨43,17179869184,[],[(25,.commit),(26,.code)],0,0⟩],[],[⟨45,10384593719487506896290251007852544,[],[],0,0⟩,⟨46,10633823968755207061801218131552632832,[],[(27,.enqueue),(28,.code)],0,0⟩],[⟨46,10633823968755207061801218131552632832,[],[(27,.enqueue),(28,.code)],0,0⟩],[⟨47,8192,[],[],0,0⟩,⟨49,1024,[],[],0,0⟩,⟨50,4096,[],[],0,0⟩,⟨51,8192,[.crAlone],[],0,0⟩,⟨52,4294967808,[],[],0,0⟩,⟨53,115792089237316195423570985008687907853227449369760591451053237616482050886143,[],[(31,.code)],0,0⟩,⟨54,4951760157141521099596496896,[],[],0,0⟩,⟨56,42535295875020828247204870327187275776,[],[(33,.commit),(34,.code)],0,0⟩],[⟨48,1024,[],[],0,0⟩],[⟨47,8192,[],[(29,.setEnt .internalNl),(30,.emb (.cb 3))],0,0⟩,⟨49,1024,[],[(29,.setEnt .internalNl),(30,.emb (.cb 3))],0,0⟩,⟨50,4096,[],[(29,.setEnt .internalNl),(30,.emb (.cb 3))],0,0⟩,⟨51,8192,[.crAlone],[(29,.setEnt .internalNl),(30,.emb (.cb 3))],0,0⟩,⟨52,4294967808,[],[(29,.setEnt .internalNl),(30,.emb (.cb 3))],0,0⟩,⟨53,115792089237316195423570985008687907853227449369760591451053237616482050886143,[],[(29,.setEnt .internalNl),(30,.emb (.cb 3)),(31,.code)],0,0⟩,⟨54,4951760157141521099596496896,[],[(29,.setEnt .internalNl),(30,.emb (.cb 3))],0,0⟩,⟨56,42535295875020828247204870327187275776,[],[(29,.setEnt .internalNl),(30,.emb (.cb 3)),(33,.commit),(34,.code)],0,0⟩],[⟨47,8192,[],[(29,.setEnt .internalNl),(30,.emb (.cb 3))],0,0⟩,⟨49,1024,[],[(29,.setEnt .internalNl),(30,.emb (.cb 3))],0,0⟩,⟨50,4096,[],[(29,.setEnt .internalNl),(30,.emb (.cb 3))],0,0⟩,⟨51,8192,[.crAlone],[(29,.setEnt .internalNl),(30,.emb (.cb 3))],0,0⟩,⟨52,4294967808,[],[(29,.setEnt .internalNl),(30,.emb (.cb 3))],0,0⟩,⟨53,115792089237316195423570985008687907853227449369760591451053237616482050886143,[],[(29,.setEnt .internalNl),(30,.emb (.cb 3)),(31,.code)],0,0⟩,⟨54,4951760157141521099596496896,[],[(29,.setEnt .internalNl),(30,.emb (.cb 3))],0,0⟩,⟨56,42535295875020828247204870327187275776,[],[(29,.setEnt .internalNl),(30,.emb (.cb 3)),(33,.commit),(34,.code)],0,0⟩],[⟨47,8192,[],[(29,.setEnt .internalNl),(30,.emb (.cb 3))],0,0⟩,⟨49,1024,[],[(29,.setEnt .internalNl),(30,.emb (.cb 3))],0,0⟩,⟨50,4096,[],[(29,.setEnt .internalNl),(30,.emb (.cb 3))],0,0⟩,⟨51,8192,[.crAlone],[(29,.setEnt .internalNl),(30,.emb (.cb 3))],0,0⟩,⟨52,4294967808,[],[(29,.setEnt .internalNl),(30,.emb (.cb 3))],0,0⟩,⟨53,115792089237316195423570985008687907853227449369760591451053237616482050886143,[],[(29,.setEnt .internalNl),(30,.emb (.cb 3)),(31,.code)],0,0⟩,⟨54,4951760157141521099596496896,[],[(29,.setEnt .internalNl),(30,.emb (.cb 3))],0,0⟩,⟨56,42535295875020828247204870327187275776,[],[(29,.setEnt .internalNl),(30,.emb (.cb 3)),(33,.commit),(34,.code)],0,0⟩],[⟨47,8192,[],[(29,.setEnt .internalNl),(30,.emb (.cb 3))],0,0⟩,⟨49,1024,[],[(29,.setEnt .internalNl),(30,.emb (.cb 3))],0,0⟩,⟨50,4096,[],[(29,.setEnt .internalNl),(30,.emb (.cb 3))],0,0⟩,⟨51,8192,[.crAlone],[(29,.setEnt .internalNl),(30,.emb (.cb 3))],0,0⟩,⟨52,4294967808,[],[(29,.setEnt .internalNl),(30,.emb (.cb 3))],0,0⟩,⟨53,115792089237316195423570985008687907853227449369760591451053237616482050886143,[],[(29,.setEnt .internalNl),(30,.emb (.cb 3)),(31,.code)],0,0⟩,⟨54,4951760157141521099596496896,[],[(29,.setEnt .internalNl),(30,.emb (.cb 3))],0,0⟩,⟨56,42535295875020828247204870327187275776,[],[(29,.setEnt .internalNl),(30,.emb (.cb 3)),(33,.commit),(34,.code)],0,0⟩],[⟨47,8192,[],[],0,0⟩,⟨49,1024,[],[],0,0⟩,⟨50,4096,[],[],0,0⟩,⟨51,8192,[.crAlone],[],0,0⟩,⟨52,4294967808,[],[],0,0⟩,⟨53,115792089237316195423570985008687907853227449369760591451053237616482050886143,[],[(31,.code)],0,0⟩,⟨54,4951760157141521099596496896,[],[],0,0⟩,⟨56,42535295875020828247204870327187275776,[],[(33,.commit),(34,.code)],0,0⟩],[⟨47,8192,[],[],0,0⟩,⟨49,1024,[],[],0,0⟩,⟨50,4096,[],[],0,0⟩,⟨51,8192,[.crAlone],[],0,0⟩,⟨52,4294967808,[],[],0,0⟩,⟨53,115792089237316195423570985008687907853227449369760591451053237616482050886143,[],[(31,.code)],0,0⟩,⟨54,4951760157141521099596496896,[],[],0,0⟩,⟨56,42535295875020828247204870327187275776,[],[(33,.commit),(34,.code)],0,0⟩],[⟨55,115792089237316195423570985008687907853269984665640564039457584007913129626623,[],[(32,.code)],0,0⟩],[⟨47,8192,[],[],0,0⟩,⟨49,1024,[],[],0,0⟩,⟨50,4096,[],[],0,0⟩,⟨51,8192,[.crAlone],[],0,0⟩,⟨52,4294967808,[],[],0,0⟩,⟨53,115792089237316195423570985008687907853227449369760591451053237616482050886143,[],[(31,.code)],0,0⟩,⟨54,4951760157141521099596496896,[],[],0,0⟩,⟨56,42535295875020828247204870327187275776,[],[(33,.commit),(34,.code)],0,0⟩],[],[⟨58,8192,[],[],0,0⟩,⟨60,1024,[],[],0,0⟩,⟨61,4096,[],[],0,0⟩,⟨62,8192,[.crAlone],[],0,0⟩,⟨63,4294967808,[],[],0,0⟩,⟨64,115792089237316195423570985008687907853269984665556384116786178149215694211583,[],[(39,.code)],0,0⟩,⟨65,4951760157141521099596496896,[],[],0,0⟩,⟨67,79228162514264337593543950336,[],[(41,.commit),(42,.code)],0,0⟩],[⟨59,1024,[],[],0,0⟩],[⟨58,8192,[],[(37,.setEnt .internalNl),(38,.emb (.cb 3))],0,0⟩,⟨60,1024,[],[(37,.setEnt .internalNl),(38,.emb (.cb 3))],0,0⟩,⟨61,4096,[],[(37,.setEnt .internalNl),(38,.emb (.cb 3))],0,0⟩,⟨62,8192,[.crAlone],[(37,.setEnt .internalNl),(38,.emb (.cb 3))],0,0⟩,⟨63,4294967808,[],[(37,.setEnt .internalNl),(38,.emb (.cb 3))],0,0⟩,⟨64,115792089237316195423570985008687907853269984665556384116786178149215694211583,[],[(37,.setEnt .internalNl),(38,.emb (.cb 3)),(39,.code)],0,0⟩,⟨65,4951760157141521099596496896,[],[(37,.setEnt .internalNl),(38,.emb (.cb 3))],0,0⟩,⟨67,79228162514264337593543950336,[],[(37,.setEnt .internalNl),(38,.emb (.cb 3)),(41,.commit),(42,.code)],0,0⟩],[⟨58,8192,[],[(37,.setEnt .internalNl),(38,.emb (.cb 3))],0,0⟩,⟨60,1024,[],[(37,.setEnt .internalNl),(38,.emb (.cb 3))],0,0⟩,⟨61,4096,[],[(37,.setEnt .internalNl),(38,.emb (.cb 3))],0,0⟩,⟨62,8192,[.crAlone],[(37,.setEnt .internalNl),(38,.emb (.cb 3))],0,0⟩,⟨63,4294967808,[],[(37,.setEnt .internalNl),(38,.emb (.cb 3))],0,0⟩,⟨64,115792089237316195423570985008687907853269984665556384116786178149215694211583,[],[(37,.setEnt .internalNl),(38,.emb (.cb 3)),(39,.code)],0,0⟩,⟨65,4951760157141521099596496896,[],[(37,.setEnt .internalNl),(38,.emb (.cb 3))],0,0⟩,⟨67,79228162514264337593543950336,[],[(37,.setEnt .internalNl),(38,.emb (.cb 3)),(41,.commit),(42,.code)],0,0⟩],[⟨58,8192,[],[(37,.setEnt .internalNl),(38,.emb (.cb 3))],0,0⟩,⟨60,1024,[],[(37,.setEnt .internalNl),(38,.emb (.cb 3))],0,0⟩,⟨61,4096,[],[(37,.setEnt .internalNl),(38,.emb (.cb 3))],0,0⟩,⟨62,8192,[.crAlone],[(37,.setEnt .internalNl),(38,.emb (.cb 3))],0,0⟩,⟨63,4294967808,[],[(37,.setEnt .internalNl),(38,.emb (.cb 3))],0,0⟩,⟨64,115792089237316195423570985008687907853269984665556384116786178149215694211583,[],[(37,.setEnt .internalNl),(38,.emb (.cb 3)),(39,.code)],0,0⟩,⟨65,4951760157141521099596496896,[],[(37,.setEnt .internalNl),(38,.emb (.cb 3))],0,0⟩,⟨67,79228162514264337593543950336,[],[(37,.setEnt .internalNl),(38,.emb (.cb 3)),(41,.commit),(42,.code)],0,0⟩],[⟨58,8192,[],[(37,.setEnt .internalNl),(38,.emb (.cb 3))],0,0⟩,⟨60,1024,[],[(37,.setEnt .internalNl),(38,.emb (.cb 3))],0,0⟩,⟨61,4096,[],[(37,.setEnt .internalNl),(38,.emb (.cb 3))],0,0⟩,⟨62,8192,[.crAlone],[(37,.setEnt .internalNl),(38,.emb (.cb 3))],0,0⟩,⟨63,4294967808,[],[(37,.setEnt .internalNl),(38,.emb (.cb 3))],0,0⟩,⟨64,115792089237316195423570985008687907853269984665556384116786178149215694211583,[],[(37,.setEnt .internalNl),(38,.emb (.cb 3)),(39,.code)],0,0⟩,⟨65,4951760157141521099596496896,[],[(37,.setEnt .internalNl),(38,.emb (.cb 3))],0,0⟩,⟨67,79228162514264337593543950336,[],[(37,.setEnt .internalNl),(38,.emb (.cb 3)),(41,.commit),(42,.code)],0,0⟩],[⟨58,8192,[],[],0,0⟩,⟨60,1024,[],[],0,0⟩,⟨61,4096,[],[],0,0⟩,⟨62,8192,[.crAlone],[],0,0⟩,⟨63,4294967808,[],[],0,0⟩,⟨64,115792089237316195423570985008687907853269984665556384116786178149215694211583,[],[(39,.code)],0,0⟩,⟨65,4951760157141521099596496896,[],[],0,0⟩,⟨67,79228162514264337593543950336,[],[(41,.commit),(42,.code)],0,0⟩],[⟨58,8192,[],[],0,0⟩,⟨60,1024,[],[],0,0⟩,⟨61,4096,[],[],0,0⟩,⟨62,8192,[.crAlone],[],0,0⟩,⟨63,4294967808,[],[],0,0⟩,⟨64,115792089237316195423570985008687907853269984665556384116786178149215694211583,[],[(39,.code)],0,0⟩,⟨65,4951760157141521099596496896,[],[],0,0⟩,⟨67,79228162514264337593543950336,[],[(41,.commit),(42,.code)],0,0⟩],[⟨66,115792089237316195423570985008687907853269984665640564039457584007913129626623,[],[(40,.code)],0,0⟩],[⟨58,8192,[],[],0,0⟩,⟨60,1024,[],[],0,0⟩,⟨61,4096,[],[],0,0⟩,⟨62,8192,[.crAlone],[],0,0⟩,⟨63,4294967808,[],[],0,0⟩,⟨64,115792089237316195423570985008687907853269984665556384116786178149215694211583,[],[(39,.code)],0,0⟩,⟨65,4951760157141521099596496896,[],[],0,0⟩,⟨67,79228162514264337593543950336,[],[(41,.commit),(42,.code)],0,0⟩],[],[⟨69,115792089237316195423570985008687907853269984665635612279300442346076044774399,[],[],0,0⟩,⟨70,4951760157141521099596496896,[],[],0,0⟩,⟨72,140737488355328,[],[(43,.code)],0,0⟩],[⟨69,115792089237316195423570985008687907853269984665635612279300442346076044774399,[],[],0,0⟩,⟨70,4951760157141521099596496896,[],[],0,0⟩,⟨72,140737488355328,[],[(43,.code)],0,0⟩],[⟨71,115792089237316195423570985008687907853269984665640564039457584007913129626623,[],[],0,0⟩],[⟨69,115792089237316195423570985008687907853269984665635612279300442346076044774399,[],[],0,0⟩,⟨70,4951760157141521099596496896,[],[],0,0⟩,⟨72,140737488355328,[],[(43,.code)],0,0⟩],[],[⟨74,2014611181111513119869832575737397248,[],[],0,0⟩],[⟨75,10633823968755207061801218131552632832,[],[(44,.enqueue),(45,.code)],0,0⟩],[⟨76,8192,[],[],0,0⟩,⟨78,1024,[],[],0,0⟩,⟨79,4096,[],[],0,0⟩,⟨80,8192,[.crAlone],[],0,0⟩,⟨81,4294967808,[],[],0,0⟩,⟨82,115792089237316195423570985008687907853227449369760591451053237616482050886143,[],[(48,.code)],0,0⟩,⟨83,4951760157141521099596496896,[],[],0,0⟩,⟨85,42535295875020828247204870327187275776,[],[(50,.commit),(51,.code)],0,0⟩],[⟨77,1024,[],[],0,0⟩],[⟨76,8192,[],[(46,.setEnt .internalNl),(47,.emb (.cb 3))],0,0⟩,⟨78,1024,[],[(46,.setEnt .internalNl),(47,.emb (.cb 3))],0,0⟩,⟨79,4096,[],[(46,.setEnt .internalNl),(47,.emb (.cb 3))],0,0⟩,⟨80,8192,[.crAlone],[(46,.setEnt .internalNl),(47,.emb (.cb 3))],0,0⟩,⟨81,4294967808,[],[(46,.setEnt .internalNl),(47,.emb (.cb 3))],0,0⟩,⟨82,115792089237316195423570985008687907853227449369760591451053237616482050886143,[],[(46,.setEnt .internalNl),(47,.emb (.cb 3)),(48,.code)],0,0⟩,⟨83,4951760157141521099596496896,[],[(46,.setEnt .internalNl),(47,.emb (.cb 3))],0,0⟩,⟨85,42535295875020828247204870327187275776,[],[(46,.setEnt .internalNl),(47,.emb (.cb 3)),(50,.commit),(51,.code)],0,0⟩],[⟨76,8192,[],[(46,.setEnt .internalNl),(47,.emb (.cb 3))],0,0⟩,⟨78,1024,[],[(46,.setEnt .internalNl),(47,.emb (.cb 3))],0,0⟩,⟨79,4096,[],[(46,.setEnt .internalNl),(47,.emb (.cb 3))],0,0⟩,⟨80,8192,[.crAlone],[(46,.setEnt .internalNl),(47,.emb (.cb 3))],0,0⟩,⟨81,4294967808,[],[(46,.setEnt .internalNl),(47,.emb (.cb 3))],0,0⟩,⟨82,115792089237316195423570985008687907853227449369760591451053237616482050886143,[],[(46,.setEnt .internalNl),(47,.emb (.cb 3)),(48,.code)],0,0⟩,⟨83,4951760157141521099596496896,[],[(46,.setEnt .internalNl),(47,.emb (.cb 3))],0,0⟩,⟨85,42535295875020828247204870327187275776,[],[(46,.setEnt .internalNl),(47,.emb (.cb 3)),(50,.commit),(51,.code)],0,0⟩],[⟨76,8192,[],[(46,.setEnt .internalNl),(47,.emb (.cb 3))],0,0⟩,⟨78,1024,[],[(46,.setEnt .internalNl),(47,.emb (.cb 3))],0,0⟩,⟨79,4096,[],[(46,.setEnt .internalNl),(47,.emb (.cb 3))],0,0⟩,⟨80,8192,[.crAlone],[(46,.setEnt .internalNl),(47,.emb (.cb 3))],0,0⟩,⟨81,4294967808,[],[(46,.setEnt .internalNl),(47,.emb (.cb 3))],0,0⟩,⟨82,115792089237316195423570985008687907853227449369760591451053237616482050886143,[],[(46,.setEnt .internalNl),(47,.emb (.cb 3)),(48,.code)],0,0⟩,⟨83,4951760157141521099596496896,[],[(46,.setEnt .internalNl),(47,.emb (.cb 3))],0,0⟩,⟨85,42535295875020828247204870327187275776,[],[(46,.setEnt .internalNl),(47,.emb (.cb 3)),(50,.commit),(51,.code)],0,0⟩],[⟨76,8192,[],[(46,.setEnt .internalNl),(47,.emb (.cb 3))],0,0⟩,⟨78,1024,[],[(46,.setEnt .internalNl),(47,.emb (.cb 3))],0,0⟩,⟨79,4096,[],[(46,.setEnt .internalNl),(47,.emb (.cb 3))],0,0⟩,⟨80,8192,[.crAlone],[(46,.setEnt .internalNl),(47,.emb (.cb 3))],0,0⟩,⟨81,4294967808,[],[(46,.setEnt .internalNl),(47,.emb (.cb 3))],0,0⟩,⟨82,115792089237316195423570985008687907853227449369760591451053237616482050886143,[],[(46,.setEnt .internalNl),(47,.emb (.cb 3)),(48,.code)],0,0⟩,⟨83,4951760157141521099596496896,[],[(46,.setEnt .internalNl),(47,.emb (.cb 3))],0,0⟩,⟨85,42535295875020828247204870327187275776,[],[(46,.setEnt .internalNl),(47,.emb (.cb 3)),(50,.commit),(51,.code)],0,0⟩],[⟨76,8192,[],[],0,0⟩,⟨78,1024,[],[],0,0⟩,⟨79,4096,[],[],0,0⟩,⟨80,8192,[.crAlone],[],0,0⟩,⟨81,4294967808,[],[],0,0⟩,⟨82,115792089237316195423570985008687907853227449369760591451053237616482050886143,[],[(48,.code)],0,0⟩,⟨83,4951760157141521099596496896,[],[],0,0⟩,⟨85,42535295875020828247204870327187275776,[],[(50,.commit),(51,.code)],0,0⟩],[⟨76,8192,[],[],0,0⟩,⟨78,1024,[],[],0,0⟩,⟨79,4096,[],[],0,0⟩,⟨80,8192,[.crAlone],[],0,0⟩,⟨81,4294967808,[],[],0,0⟩,⟨82,115792089237316195423570985008687907853227449369760591451053237616482050886143,[],[(48,.code)],0,0⟩,⟨83,4951760157141521099596496896,[],[],0,0⟩,⟨85,42535295875020828247204870327187275776,[],[(50,.commit),(51,.code)],0,0⟩],[⟨84,115792089237316195423570985008687907853269984665640564039457584007913129626623,[],[(49,.code)],0,0⟩],[⟨76,8192,[],[],0,0⟩,⟨78,1024,[],[],0,0⟩,⟨79,4096,[],[],0,0⟩,⟨80,8192,[.crAlone],[],0,0⟩,⟨81,4294967808,[],[],0,0⟩,⟨82,115792089237316195423570985008687907853227449369760591451053237616482050886143,[],[(48,.code)],0,0⟩,⟨83,4951760157141521099596496896,[],[],0,0⟩,⟨85,42535295875020828247204870327187275776,[],[(50,.commit),(51,.code)],0,0⟩],[],[⟨87,1024,[],[(52,.setEnt .newline)],0,0⟩],[],[],[],[],[]],[none,some (0,[]),some (1,[]),some (2,[]),some (2,[]),none,none,none,none,none,none,none,none,none,none,none,none,none,none,none,none,some (2,[]),none,none,none,none,none,none,none,none,none,none,some (3,[]),none,none,none,none,none,none,none,none,none,none,some (3,[]),none,none,none,none,none,none,none,none,none,none,none,none,some (3,[]),none,none,none,none,none,none,none,none,none,none,some (3,[]),none,none,none,none,some (3,[]),none,none,none,none,none,none,none,none,none,none,none,none,some (3,[]),none,some (4,[]),some (4,[]),some (4,[]),some (4,[]),some (5,[])],[3,4,11,52,53,54]⟩
def emb50_masks : List Nat := [137438953472,4294967808,34359738368,2305843009213693952,549755813888,17179869184,79228162514264337593543950336,140737488355328,8192,1024,4096,115792089237316195423570985008687907853269984665640564039457584007908834656767,4611686018427387904,115792089237316195423570985008687907853269984665640564039457584007913129626623,316912650057057350374175801344,2535301200456458802993406410752,10141204801825835211973625643008,40564819207303340847894502572032,1298074214633706907132624082305024,115792089237316195423570985008687907853269984665640564039457584007908834658815,1267650600228229401496703205376,115792089237316195423570985008687907853269984665635612279300442486259482348031,4951760157141521099596496896,115792089237316195423570985008687907853269984665635612279300442486792058292735,10384593719487506896290251007852544,10633823968755207061801218131552632832,115792089237316195423570985008687907853227449369760591451053237616482050886143,42535295875020828247204870327187275776,115792089237316195423570985008687907853269984665556384116786178149215694211583,115792089237316195423570985008687907853269984665635612279300442346076044774399,2014611181111513119869832575737397248]
def emb50_cs : List (Nat × Nat) := [(0,115792089237316195423570985008687907853214789197037673987265659520069849301503),(9,4294967808),(10,1024),(11,2048),(12,4096),(13,8192),(34,17179869184),(35,34359738368),(37,137438953472),(39,549755813888),(40,10633823968755207061801218131552632832),(41,42535295875020828247204870327187275776),(47,140737488355328),(61,2305843009213693952),(62,4611686018427387904),(81,10384593719487506896290251007852544),(92,4951760157141521099596496896),(96,79228162514264337593543950336),(98,316912650057057350374175801344),(100,1267650600228229401496703205376),(101,2535301200456458802993406410752),(103,10141204801825835211973625643008),(105,40564819207303340847894502572032),(110,1298074214633706907132624082305024),(114,2014611181111513119869832575737397248)]
theorem emb50_masksIn : masksIn emb50_nfa emb50_masks = true := by decide +kernel
theorem emb50_repOk : repOk emb50_masks emb50_cs = true := by decide +kernel
def emb50_rows : List Row := [⟨[],none,[],[⟨256,.other,false,some ⟨0,[.setEnt (.own 3)],some 5,true⟩⟩,⟨256,.ws,false,some ⟨1,[.setEnt (.own 0)],some 1,false⟩⟩,⟨256,.lf,false,some ⟨0,[.setEnt .newline],some 4,true⟩⟩,⟨256,.vt,false,none⟩,⟨256,.ff,false,some ⟨0,[.setEnt .newline],some 4,true⟩⟩,⟨256,.cr,false,some ⟨2,[.setEnt .newline],none,false⟩⟩,⟨256,.cr,true,some ⟨3,[.setEnt .newline],some 4,false⟩⟩,⟨256,.other,false,some ⟨4,[.enqueue,.code,.setEnt (.own 3)],some 5,false⟩⟩,⟨256,.other,false,some ⟨5,[.comment,.setEnt (.own 3)],some 2,false⟩⟩,⟨256,.other,false,some ⟨6,[.setEnt (.own 3)],some 5,false⟩⟩,⟨256,.other,false,some ⟨7,[.enqueue,.code,.setEnt (.own 3)],some 5,false⟩⟩,⟨256,.other,false,some ⟨8,[.setEnt (.own 3)],some 5,false⟩⟩,⟨256,.other,false,some ⟨9,[.setEnt (.own 3)],some 5,false⟩⟩,⟨256,.other,false,some ⟨10,[.enqueue,.code,.setEnt (.own 3)],some 5,false⟩⟩]⟩,⟨[2],some 1,[],[⟨256,.other,false,none⟩,⟨256,.ws,false,some ⟨1,[.setEnt (.own 0)],some 1,false⟩⟩,⟨256,.lf,false,none⟩,⟨256,.vt,false,none⟩,⟨256,.ff,false,none⟩,⟨256,.cr,false,none⟩,⟨256,.cr,true,none⟩]⟩,⟨[86],none,[],[⟨256,.other,false,none⟩,⟨256,.ws,false,none⟩,⟨256,.lf,false,some ⟨0,[.setEnt .newline],some 4,true⟩⟩,⟨256,.vt,false,none⟩,⟨256,.ff,false,none⟩,⟨256,.cr,false,none⟩,⟨256,.cr,true,none⟩]⟩,⟨[86,90],some 4,[],[⟨256,.other,false,none⟩,⟨256,.ws,false,none⟩,⟨256,.lf,false,some ⟨0,[.setEnt .newline],some 4,true⟩⟩,⟨256,.vt,false,none⟩,⟨256,.ff,false,none⟩,⟨256,.cr,false,none⟩,⟨256,.cr,true,none⟩]⟩,⟨[33,91],some 5,[],[⟨256,.other,false,some ⟨11,[.code],none,false⟩⟩,⟨256,.ws,false,some ⟨12,[],none,false⟩⟩,⟨256,.lf,false,some ⟨13,[],none,false⟩⟩,⟨256,.vt,false,some ⟨11,[.code],none,false⟩⟩,⟨256,.ff,false,some ⟨14,[],none,false⟩⟩,⟨256,.cr,false,some ⟨15,[],none,false⟩⟩,⟨256,.cr,true,some ⟨16,[],none,false⟩⟩,⟨256,.other,false,some ⟨0,[.commit,.code],some 3,true⟩⟩,⟨256,.other,false,some ⟨17,[],none,false⟩⟩]⟩,⟨[3,91],some 2,[],[⟨256,.other,false,some ⟨18,[],some 2,false⟩⟩,⟨256,.ws,false,some ⟨18,[],some 2,false⟩⟩,⟨256,.lf,false,none⟩,⟨256,.vt,false,some ⟨18,[],some 2,false⟩⟩,⟨256,.ff,false,none⟩,⟨256,.cr,false,none⟩,⟨256,.cr,true,none⟩]⟩,⟨[0,44,73,91],some 5,[],[⟨256,.other,false,none⟩,⟨256,.ws,false,none⟩,⟨256,.lf,false,none⟩,⟨256,.vt,false,none⟩,⟨256,.ff,false,none⟩,⟨256,.cr,false,none⟩,⟨256,.cr,true,none⟩,⟨256,.other,false,some ⟨19,[.enqueue,.code],none,false⟩⟩,⟨256,.other,false,some ⟨0,[.emb .outry,.code,.emb .back],some 0,true⟩⟩,⟨256,.other,false,some ⟨20,[],none,false⟩⟩,⟨256,.other,false,some ⟨21,[],none,false⟩⟩]⟩,⟨[22,91],some 5,[],[⟨256,.other,false,some ⟨22,[.code],none,false⟩⟩,⟨256,.ws,false,some ⟨23,[],none,false⟩⟩,⟨256,.lf,false,some ⟨24,[],none,false⟩⟩,⟨256,.vt,false,some ⟨22,[.code],none,false⟩⟩,⟨256,.ff,false,some ⟨25,[],none,false⟩⟩,⟨256,.cr,false,some ⟨26,[],none,false⟩⟩,⟨256,.cr,true,some ⟨27,[],none,false⟩⟩,⟨256,.other,false,some ⟨0,[.commit,.code],some 3,true⟩⟩,⟨256,.other,false,some ⟨28,[],none,false⟩⟩]⟩,⟨[68,91],some 5,[],[⟨256,.other,false,some ⟨29,[],none,false⟩⟩,⟨256,.ws,false,some ⟨29,[],none,false⟩⟩,⟨256,.lf,false,none⟩,⟨256,.vt,false,some ⟨29,[],none,false⟩⟩,⟨256,.ff,false,none⟩,⟨256,.cr,false,none⟩,⟨256,.cr,true,none⟩,⟨256,.other,false,some ⟨0,[.code],some 3,true⟩⟩,⟨256,.other,false,some ⟨30,[],none,false⟩⟩]⟩,⟨[5,91],some 5,[],[⟨256,.other,false,none⟩,⟨256,.ws,false,none⟩,⟨256,.lf,false,none⟩,⟨256,.vt,false,none⟩,⟨256,.ff,false,none⟩,⟨256,.cr,false,none⟩,⟨256,.cr,true,none⟩,⟨256,.other,false,some ⟨31,[],none,false⟩⟩]⟩,⟨[57,91],some 5,[],[⟨256,.other,false,some ⟨32,[.code],none,false⟩⟩,⟨256,.ws,false,some ⟨33,[],none,false⟩⟩,⟨256,.lf,false,some ⟨34,[],none,false⟩⟩,⟨256,.vt,false,some ⟨32,[.code],none,false⟩⟩,⟨256,.ff,false,some ⟨35,[],none,false⟩⟩,⟨256,.cr,false,some ⟨36,[],none,false⟩⟩,⟨256,.cr,true,some ⟨37,[],none,false⟩⟩,⟨256,.other,false,some ⟨38,[],none,false⟩⟩,⟨256,.other,false,some ⟨0,[.commit,.code],some 3,true⟩⟩]⟩,⟨[40],none,[],[⟨256,.other,false,some ⟨11,[.code],none,false⟩⟩,⟨256,.ws,false,some ⟨12,[],none,false⟩⟩,⟨256,.lf,false,some ⟨13,[],none,false⟩⟩,⟨256,.vt,false,some ⟨11,[.code],none,false⟩⟩,⟨256,.ff,false,some ⟨14,[],none,false⟩⟩,⟨256,.cr,false,some ⟨15,[],none,false⟩⟩,⟨256,.cr,true,some ⟨16,[],none,false⟩⟩,⟨256,.other,false,some ⟨0,[.commit,.code],some 3,true⟩⟩,⟨256,.other,false,some ⟨17,[],none,false⟩⟩]⟩,⟨[39],none,[],[⟨256,.other,false,some ⟨11,[.code],none,false⟩⟩,⟨256,.ws,false,some ⟨12,[],none,false⟩⟩,⟨256,.lf,false,some ⟨13,[],none,false⟩⟩,⟨256,.vt,false,some ⟨11,[.code],none,false⟩⟩,⟨256,.ff,false,some ⟨14,[],none,false⟩⟩,⟨256,.cr,false,some ⟨15,[],none,false⟩⟩,⟨256,.cr,true,some ⟨16,[],none,false⟩⟩,⟨256,.other,false,some ⟨0,[.commit,.code],some 3,true⟩⟩,⟨256,.other,false,some ⟨17,[],none,false⟩⟩]⟩,⟨[36],none,[],[⟨256,.other,false,some ⟨11,[.setEnt .internalNl,.emb (.cb 3),.code],none,false⟩⟩,⟨256,.ws,false,some ⟨12,[.setEnt .internalNl,.emb (.cb 3)],none,false⟩⟩,⟨256,.lf,false,some ⟨13,[.setEnt .internalNl,.emb (.cb 3)],none,false⟩⟩,⟨256,.vt,false,some ⟨11,[.setEnt .internalNl,.emb (.cb 3),.code],none,false⟩⟩,⟨256,.ff,false,some ⟨14,[.setEnt .internalNl,.emb (.cb 3)],none,false⟩⟩,⟨256,.cr,false,some ⟨15,[.setEnt .internalNl,.emb (.cb 3)],none,false⟩⟩,⟨256,.cr,true,some ⟨16,[.setEnt .internalNl,.emb (.cb 3)],none,false⟩⟩,⟨256,.other,false,some ⟨0,[.setEnt .internalNl,.emb (.cb 3),.commit,.code],some 3,true⟩⟩,⟨256,.other,false,some ⟨17,[.setEnt .internalNl,.emb (.cb 3)],none,false⟩⟩]⟩,⟨[37],none,[],[⟨256,.other,false,some ⟨11,[.setEnt .internalNl,.emb (.cb 3),.code],none,false⟩⟩,⟨256,.ws,false,some ⟨12,[.setEnt .internalNl,.emb (.cb 3)],none,false⟩⟩,⟨256,.lf,false,some ⟨13,[.setEnt .internalNl,.emb (.cb 3)],none,false⟩⟩,⟨256,.vt,false,some ⟨11,[.setEnt .internalNl,.emb (.cb 3),.code],none,false⟩⟩,⟨256,.ff,false,some ⟨14,[.setEnt .internalNl,.emb (.cb 3)],none,false⟩⟩,⟨256,.cr,false,some ⟨15,[.setEnt .internalNl,.emb (.cb 3)],none,false⟩⟩,⟨256,.cr,true,some ⟨16,[.setEnt .internalNl,.emb (.cb 3)],none,false⟩⟩,⟨256,.other,false,some ⟨0,[.setEnt .internalNl,.emb (.cb 3),.commit,.code],some 3,true⟩⟩,⟨256,.other,false,some ⟨17,[.setEnt .internalNl,.emb (.cb 3)],none,false⟩⟩]⟩,⟨[34],none,[],[⟨256,.other,false,none⟩,⟨256,.ws,false,none⟩,⟨256,.lf,false,some ⟨39,[],none,false⟩⟩,⟨256,.vt,false,none⟩,⟨256,.ff,false,none⟩,⟨256,.cr,false,none⟩,⟨256,.cr,true,none⟩]⟩,⟨[34,38],none,[],[⟨256,.other,false,some ⟨11,[.setEnt .internalNl,.emb (.cb 3),.code],none,false⟩⟩,⟨256,.ws,false,some ⟨12,[.setEnt .internalNl,.emb (.cb 3)],none,false⟩⟩,⟨256,.lf,false,some ⟨40,[.setEnt .internalNl,.emb (.cb 3)],none,false⟩⟩,⟨256,.vt,false,some ⟨11,[.setEnt .internalNl,.emb (.cb 3),.code],none,false⟩⟩,⟨256,.ff,false,some ⟨14,[.setEnt .internalNl,.emb (.cb 3)],none,false⟩⟩,⟨256,.cr,false,some ⟨15,[.setEnt .internalNl,.emb (.cb 3)],none,false⟩⟩,⟨256,.cr,true,some ⟨16,[.setEnt .internalNl,.emb (.cb 3)],none,false⟩⟩,⟨256,.other,false,some ⟨0,[.setEnt .internalNl,.emb (.cb 3),.commit,.code],some 3,true⟩⟩,⟨256,.other,false,some ⟨17,[.setEnt .internalNl,.emb (.cb 3)],none,false⟩⟩]⟩,⟨[41],none,[],[⟨256,.other,false,some ⟨41,[.code],none,false⟩⟩,⟨256,.ws,false,some ⟨41,[.code],none,false⟩⟩,⟨256,.lf,false,none⟩,⟨256,.vt,false,some ⟨41,[.code],none,false⟩⟩,⟨256,.ff,false,none⟩,⟨256,.cr,false,none⟩,⟨256,.cr,true,none⟩]⟩,⟨[4],some 2,[],[⟨256,.other,false,some ⟨18,[],some 2,false⟩⟩,⟨256,.ws,false,some ⟨18,[],some 2,false⟩⟩,⟨256,.lf,false,none⟩,⟨256,.vt,false,some ⟨18,[],some 2,false⟩⟩,⟨256,.ff,false,none⟩,⟨256,.cr,false,none⟩,⟨256,.cr,true,none⟩]⟩,⟨[46],none,[],[⟨256,.other,false,some ⟨42,[.code],none,false⟩⟩,⟨256,.ws,false,some ⟨43,[],none,false⟩⟩,⟨256,.lf,false,some ⟨44,[],none,false⟩⟩,⟨256,.vt,false,some ⟨42,[.code],none,false⟩⟩,⟨256,.ff,false,some ⟨45,[],none,false⟩⟩,⟨256,.cr,false,some ⟨46,[],none,false⟩⟩,⟨256,.cr,true,some ⟨47,[],none,false⟩⟩,⟨256,.other,false,some ⟨0,[.commit,.code],some 3,true⟩⟩,⟨256,.other,false,some ⟨48,[],none,false⟩⟩]⟩,⟨[45],none,[],[⟨256,.other,false,none⟩,⟨256,.ws,false,none⟩,⟨256,.lf,false,none⟩,⟨256,.vt,false,none⟩,⟨256,.ff,false,none⟩,⟨256,.cr,false,none⟩,⟨256,.cr,true,none⟩,⟨256,.other,false,some ⟨19,[.enqueue,.code],none,false⟩⟩]⟩,⟨[74],none,[],[⟨256,.other,false,none⟩,⟨256,.ws,false,none⟩,⟨256,.lf,false,none⟩,⟨256,.vt,false,none⟩,⟨256,.ff,false,none⟩,⟨256,.cr,false,none⟩,⟨256,.cr,true,none⟩,⟨256,.other,false,some ⟨49,[.enqueue,.code],none,false⟩⟩]⟩,⟨[29],none,[],[⟨256,.other,false,some ⟨22,[.code],none,false⟩⟩,⟨256,.ws,false,some ⟨23,[],none,false⟩⟩,⟨256,.lf,false,some ⟨24,[],none,false⟩⟩,⟨256,.vt,false,some ⟨22,[.code],none,false⟩⟩,⟨256,.ff,false,some ⟨25,[],none,false⟩⟩,⟨256,.cr,false,some ⟨26,[],none,false⟩⟩,⟨256,.cr,true,some ⟨27,[],none,false⟩⟩,⟨256,.other,false,some ⟨0,[.commit,.code],some 3,true⟩⟩,⟨256,.other,false,some ⟨28,[],none,false⟩⟩]⟩,⟨[28],none,[],[⟨256,.other,false,some ⟨22,[.code],none,false⟩⟩,⟨256,.ws,false,some ⟨23,[],none,false⟩⟩,⟨256,.lf,false,some ⟨24,[],none,false⟩⟩,⟨256,.vt,false,some ⟨22,[.code],none,false⟩⟩,⟨256,.ff,false,some ⟨25,[],none,false⟩⟩,⟨256,.cr,false,some ⟨26,[],none,false⟩⟩,⟨256,.cr,true,some ⟨27,[],none,false⟩⟩,⟨256,.other,false,some ⟨0,[.commit,.code],some 3,true⟩⟩,⟨256,.other,false,some ⟨28,[],none,false⟩⟩]⟩,⟨[25],none,[],[⟨256,.other,false,some ⟨22,[.setEnt .internalNl,.emb (.cb 3),.code],none,false⟩⟩,⟨256,.ws,false,some ⟨23,[.setEnt .internalNl,.emb (.cb 3)],none,false⟩⟩,⟨256,.lf,false,some ⟨24,[.setEnt .internalNl,.emb (.cb 3)],none,false⟩⟩,⟨256,.vt,false,some ⟨22,[.setEnt .internalNl,.emb (.cb 3),.code],none,false⟩⟩,⟨256,.ff,false,some ⟨25,[.setEnt .internalNl,.emb (.cb 3)],none,false⟩⟩,⟨256,.cr,false,some ⟨26,[.setEnt .internalNl,.emb (.cb 3)],none,false⟩⟩,⟨256,.cr,true,some ⟨27,[.setEnt .internalNl,.emb (.cb 3)],none,false⟩⟩,⟨256,.other,false,some ⟨0,[.setEnt .internalNl,.emb (.cb 3),.commit,.code],some 3,true⟩⟩,⟨256,.other,false,some ⟨28,[.setEnt .internalNl,.emb (.cb 3)],none,false⟩⟩]⟩,⟨[26],none,[],[⟨256,.other,false,some ⟨22,[.setEnt .internalNl,.emb (.cb 3),.code],none,false⟩⟩,⟨256,.ws,false,some ⟨23,[.setEnt .internalNl,.emb (.cb 3)],none,false⟩⟩,⟨256,.lf,false,some ⟨24,[.setEnt .internalNl,.emb (.cb 3)],none,false⟩⟩,⟨256,.vt,false,some ⟨22,[.setEnt .internalNl,.emb (.cb 3),.code],none,false⟩⟩,⟨256,.ff,false,some ⟨25,[.setEnt .internalNl,.emb (.cb 3)],none,false⟩⟩,⟨256,.cr,false,some ⟨26,[.setEnt .internalNl,.emb (.cb 3)],none,false⟩⟩,⟨256,.cr,true,some ⟨27,[.setEnt .internalNl,.emb (.cb 3)],none,false⟩⟩,⟨256,.other,false,some ⟨0,[.setEnt .internalNl,.emb (.cb 3),.commit,.code],some 3,true⟩⟩,⟨256,.other,false,some ⟨28,[.setEnt .internalNl,.emb (.cb 3)],none,false⟩⟩]⟩,⟨[23],none,[],[⟨256,.other,false,none⟩,⟨256,.ws,false,none⟩,⟨256,.lf,false,some ⟨50,[],none,false⟩⟩,⟨256,.vt,false,none⟩,⟨256,.ff,false,none⟩,⟨256,.cr,false,none⟩,⟨256,.cr,true,none⟩]⟩,⟨[23,27],none,[],[⟨256,.other,false,some ⟨22,[.setEnt .internalNl,.emb (.cb 3),.code],none,false⟩⟩,⟨256,.ws,false,some ⟨23,[.setEnt .internalNl,.emb (.cb 3)],none,false⟩⟩,⟨256,.lf,false,some ⟨51,[.setEnt .internalNl,.emb (.cb 3)],none,false⟩⟩,⟨256,.vt,false,some ⟨22,[.setEnt .internalNl,.emb (.cb 3),.code],none,false⟩⟩,⟨256,.ff,false,some ⟨25,[.setEnt .internalNl,.emb (.cb 3)],none,false⟩⟩,⟨256,.cr,false,some ⟨26,[.setEnt .internalNl,.emb (.cb 3)],none,false⟩⟩,⟨256,.cr,true,some ⟨27,[.setEnt .internalNl,.emb (.cb 3)],none,false⟩⟩,⟨256,.other,false,some ⟨0,[.setEnt .internalNl,.emb (.cb 3),.commit,.code],some 3,true⟩⟩,⟨256,.other,false,some ⟨28,[.setEnt .internalNl,.emb (.cb 3)],none,false⟩⟩]⟩,⟨[30],none,[],[⟨256,.other,false,some ⟨52,[.code],none,false⟩⟩,⟨256,.ws,false,some ⟨52,[.code],none,false⟩⟩,⟨256,.lf,false,none⟩,⟨256,.vt,false,some ⟨52,[.code],none,false⟩⟩,⟨256,.ff,false,none⟩,⟨256,.cr,false,none⟩,⟨256,.cr,true,none⟩]⟩,⟨[69],none,[],[⟨256,.other,false,some ⟨29,[],none,false⟩⟩,⟨256,.ws,false,some ⟨29,[],none,false⟩⟩,⟨256,.lf,false,none⟩,⟨256,.vt,false,some ⟨29,[],none,false⟩⟩,⟨256,.ff,false,none⟩,⟨256,.cr,false,none⟩,⟨256,.cr,true,none⟩,⟨256,.other,false,some ⟨0,[.code],some 3,true⟩⟩,⟨256,.other,false,some ⟨30,[],none,false⟩⟩]⟩,⟨[70],none,[],[⟨256,.other,false,some ⟨53,[],none,false⟩⟩,⟨256,.ws,false,some ⟨53,[],none,false⟩⟩,⟨256,.lf,false,none⟩,⟨256,.vt,false,some ⟨53,[],none,false⟩⟩,⟨256,.ff,false,none⟩,⟨256,.cr,false,none⟩,⟨256,.cr,true,none⟩]⟩,⟨[6],none,[],[⟨256,.other,false,none⟩,⟨256,.ws,false,none⟩,⟨256,.lf,false,none⟩,⟨256,.vt,false,none⟩,⟨256,.ff,false,none⟩,⟨256,.cr,false,none⟩,⟨256,.cr,true,none⟩,⟨256,.other,false,some ⟨54,[],none,false⟩⟩]⟩,⟨[64],none,[],[⟨256,.other,false,some ⟨32,[.code],none,false⟩⟩,⟨256,.ws,false,some ⟨33,[],none,false⟩⟩,⟨256,.lf,false,some ⟨34,[],none,false⟩⟩,⟨256,.vt,false,some ⟨32,[.code],none,false⟩⟩,⟨256,.ff,false,some ⟨35,[],none,false⟩⟩,⟨256,.cr,false,some ⟨36,[],none,false⟩⟩,⟨256,.cr,true,some ⟨37,[],none,false⟩⟩,⟨256,.other,false,some ⟨38,[],none,false⟩⟩,⟨256,.other,false,some ⟨0,[.commit,.code],some 3,true⟩⟩]⟩,⟨[63],none,[],[⟨256,.other,false,some ⟨32,[.code],none,false⟩⟩,⟨256,.ws,false,some ⟨33,[],none,false⟩⟩,⟨256,.lf,false,some ⟨34,[],none,false⟩⟩,⟨256,.vt,false,some ⟨32,[.code],none,false⟩⟩,⟨256,.ff,false,some ⟨35,[],none,false⟩⟩,⟨256,.cr,false,some ⟨36,[],none,false⟩⟩,⟨256,.cr,true,some ⟨37,[],none,false⟩⟩,⟨256,.other,false,some ⟨38,[],none,false⟩⟩,⟨256,.other,false,some ⟨0,[.commit,.code],some 3,true⟩⟩]⟩,⟨[60],none,[],[⟨256,.other,false,some ⟨32,[.setEnt .internalNl,.emb (.cb 3),.code],none,false⟩⟩,⟨256,.ws,false,some ⟨33,[.setEnt .internalNl,.emb (.cb 3)],none,false⟩⟩,⟨256,.lf,false,some ⟨34,[.setEnt .internalNl,.emb (.cb 3)],none,false⟩⟩,⟨256,.vt,false,some ⟨32,[.setEnt .internalNl,.emb (.cb 3),.code],none,false⟩⟩,⟨256,.ff,false,some ⟨35,[.setEnt .internalNl,.emb (.cb 3)],none,false⟩⟩,⟨256,.cr,false,some ⟨36,[.setEnt .internalNl,.emb (.cb 3)],none,false⟩⟩,⟨256,.cr,true,some ⟨37,[.setEnt .internalNl,.emb (.cb 3)],none,false⟩⟩,⟨256,.other,false,some ⟨38,[.setEnt .internalNl,.emb (.cb 3)],none,false⟩⟩,⟨256,.other,false,some ⟨0,[.setEnt .internalNl,.emb (.cb 3),.commit,.code],some 3,true⟩⟩]⟩,⟨[61],none,[],[⟨256,.other,false,some ⟨32,[.setEnt .internalNl,.emb (.cb 3),.code],none,false⟩⟩,⟨256,.ws,false,some ⟨33,[.setEnt .internalNl,.emb (.cb 3)],none,false⟩⟩,⟨256,.lf,false,some ⟨34,[.setEnt .internalNl,.emb (.cb 3)],none,false⟩⟩,⟨256,.vt,false,some ⟨32,[.setEnt .internalNl,.emb (.cb 3),.code],none,false⟩⟩,⟨256,.ff,false,some ⟨35,[.setEnt .internalNl,.emb (.cb 3)],none,false⟩⟩,⟨256,.cr,false,some ⟨36,[.setEnt .internalNl,.emb (.cb 3)],none,false⟩⟩,⟨256,.cr,true,some ⟨37,[.setEnt .internalNl,.emb (.cb 3)],none,false⟩⟩,⟨256,.other,false,some ⟨38,[.setEnt .internalNl,.emb (.cb 3)],none,false⟩⟩,⟨256,.other,false,some ⟨0,[.setEnt .internalNl,.emb (.cb 3),.commit,.code],some 3,true⟩⟩]⟩,⟨[58],none,[],[⟨256,.other,false,none⟩,⟨256,.ws,false,none⟩,⟨256,.lf,false,some ⟨55,[],none,false⟩⟩,⟨256,.vt,false,none⟩,⟨256,.ff,false,none⟩,⟨256,.cr,false,none⟩,⟨256,.cr,true,none⟩]⟩,⟨[58,62],none,[],[⟨256,.other,false,some ⟨32,[.setEnt .internalNl,.emb (.cb 3),.code],none,false⟩⟩,⟨256,.ws,false,some ⟨33,[.setEnt .internalNl,.emb (.cb 3)],none,false⟩⟩,⟨256,.lf,false,some ⟨56,[.setEnt .internalNl,.emb (.cb 3)],none,false⟩⟩,⟨256,.vt,false,some ⟨32,[.setEnt .internalNl,.emb (.cb 3),.code],none,false⟩⟩,⟨256,.ff,false,some ⟨35,[.setEnt .internalNl,.emb (.cb 3)],none,false⟩⟩,⟨256,.cr,false,some ⟨36,[.setEnt .internalNl,.emb (.cb 3)],none,false⟩⟩,⟨256,.cr,true,some ⟨37,[.setEnt .internalNl,.emb (.cb 3)],none,false⟩⟩,⟨256,.other,false,some ⟨38,[.setEnt .internalNl,.emb (.cb 3)],none,false⟩⟩,⟨256,.other,false,some ⟨0,[.setEnt .internalNl,.emb (.cb 3),.commit,.code],some 3,true⟩⟩]⟩,⟨[65],none,[],[⟨256,.other,false,some ⟨57,[.code],none,false⟩⟩,⟨256,.ws,false,some ⟨57,[.code],none,false⟩⟩,⟨256,.lf,false,none⟩,⟨256,.vt,false,some ⟨57,[.code],none,false⟩⟩,⟨256,.ff,false,none⟩,⟨256,.cr,false,none⟩,⟨256,.cr,true,none⟩]⟩,⟨[35],none,[],[⟨256,.other,false,some ⟨11,[.setEnt .internalNl,.emb (.cb 3),.code],none,false⟩⟩,⟨256,.ws,false,some ⟨12,[.setEnt .internalNl,.emb (.cb 3)],none,false⟩⟩,⟨256,.lf,false,some ⟨13,[.setEnt .internalNl,.emb (.cb 3)],none,false⟩⟩,⟨256,.vt,false,some ⟨11,[.setEnt .internalNl,.emb (.cb 3),.code],none,false⟩⟩,⟨256,.ff,false,some ⟨14,[.setEnt .internalNl,.emb (.cb 3)],none,false⟩⟩,⟨256,.cr,false,some ⟨15,[.setEnt .internalNl,.emb (.cb 3)],none,false⟩⟩,⟨256,.cr,true,some ⟨16,[.setEnt .internalNl,.emb (.cb 3)],none,false⟩⟩,⟨256,.other,false,some ⟨0,[.setEnt .internalNl,.emb (.cb 3),.commit,.code],some 3,true⟩⟩,⟨256,.other,false,some ⟨17,[.setEnt .internalNl,.emb (.cb 3)],none,false⟩⟩]⟩,⟨[35,36],none,[],[⟨256,.other,false,some ⟨11,[.setEnt .internalNl,.emb (.cb 3),.code],none,false⟩⟩,⟨256,.ws,false,some ⟨12,[.setEnt .internalNl,.emb (.cb 3)],none,false⟩⟩,⟨256,.lf,false,some ⟨13,[.setEnt .internalNl,.emb (.cb 3)],none,false⟩⟩,⟨256,.vt,false,some ⟨11,[.setEnt .internalNl,.emb (.cb 3),.code],none,false⟩⟩,⟨256,.ff,false,some ⟨14,[.setEnt .internalNl,.emb (.cb 3)],none,false⟩⟩,⟨256,.cr,false,some ⟨15,[.setEnt .internalNl,.emb (.cb 3)],none,false⟩⟩,⟨256,.cr,true,some ⟨16,[.setEnt .internalNl,.emb (.cb 3)],none,false⟩⟩,⟨256,.other,false,some ⟨0,[.setEnt .internalNl,.emb (.cb 3),.commit,.code],some 3,true⟩⟩,⟨256,.other,false,some ⟨17,[.setEnt .internalNl,.emb (.cb 3)],none,false⟩⟩]⟩,⟨[42],none,[],[⟨256,.other,false,some ⟨11,[.code],none,false⟩⟩,⟨256,.ws,false,some ⟨12,[],none,false⟩⟩,⟨256,.lf,false,some ⟨13,[],none,false⟩⟩,⟨256,.vt,false,some ⟨11,[.code],none,false⟩⟩,⟨256,.ff,false,some ⟨14,[],none,false⟩⟩,⟨256,.cr,false,some ⟨15,[],none,false⟩⟩,⟨256,.cr,true,some ⟨16,[],none,false⟩⟩,⟨256,.other,false,some ⟨0,[.commit,.code],some 3,true⟩⟩,⟨256,.other,false,some ⟨17,[],none,false⟩⟩]⟩,⟨[53],none,[],[⟨256,.other,false,some ⟨42,[.code],none,false⟩⟩,⟨256,.ws,false,some ⟨43,[],none,false⟩⟩,⟨256,.lf,false,some ⟨44,[],none,false⟩⟩,⟨256,.vt,false,some ⟨42,[.code],none,false⟩⟩,⟨256,.ff,false,some ⟨45,[],none,false⟩⟩,⟨256,.cr,false,some ⟨46,[],none,false⟩⟩,⟨256,.cr,true,some ⟨47,[],none,false⟩⟩,⟨256,.other,false,some ⟨0,[.commit,.code],some 3,true⟩⟩,⟨256,.other,false,some ⟨48,[],none,false⟩⟩]⟩,⟨[52],none,[],[⟨256,.other,false,some ⟨42,[.code],none,false⟩⟩,⟨256,.ws,false,some ⟨43,[],none,false⟩⟩,⟨256,.lf,false,some ⟨44,[],none,false⟩⟩,⟨256,.vt,false,some ⟨42,[.code],none,false⟩⟩,⟨256,.ff,false,some ⟨45,[],none,false⟩⟩,⟨256,.cr,false,some ⟨46,[],none,false⟩⟩,⟨256,.cr,true,some ⟨47,[],none,false⟩⟩,⟨256,.other,false,some ⟨0,[.commit,.code],some 3,true⟩⟩,⟨256,.other,false,some ⟨48,[],none,false⟩⟩]⟩,⟨[49],none,[],[⟨256,.other,false,some ⟨42,[.setEnt .internalNl,.emb (.cb 3),.code],none,false⟩⟩,⟨256,.ws,false,some ⟨43,[.setEnt .internalNl,.emb (.cb 3)],none,false⟩⟩,⟨256,.lf,false,some ⟨44,[.setEnt .internalNl,.emb (.cb 3)],none,false⟩⟩,⟨256,.vt,false,some ⟨42,[.setEnt .internalNl,.emb (.cb 3),.code],none,false⟩⟩,⟨256,.ff,false,some ⟨45,[.setEnt .internalNl,.emb (.cb 3)],none,false⟩⟩,⟨256,.cr,false,some ⟨46,[.setEnt .internalNl,.emb (.cb 3)],none,false⟩⟩,⟨256,.cr,true,some ⟨47,[.setEnt .internalNl,.emb (.cb 3)],none,false⟩⟩,⟨256,.other,false,some ⟨0,[.setEnt .internalNl,.emb (.cb 3),.commit,.code],some 3,true⟩⟩,⟨256,.other,false,some ⟨48,[.setEnt .internalNl,.emb (.cb 3)],none,false⟩⟩]⟩,⟨[50],none,[],[⟨256,.other,false,some ⟨42,[.setEnt .internalNl,.emb (.cb 3),.code],none,false⟩⟩,⟨256,.ws,false,some ⟨43,[.setEnt .internalNl,.emb (.cb 3)],none,false⟩⟩,⟨256,.lf,false,some ⟨44,[.setEnt .internalNl,.emb (.cb 3)],none,false⟩⟩,⟨256,.vt,false,some ⟨42,[.setEnt .internalNl,.emb (.cb 3),.code],none,false⟩⟩,⟨256,.ff,false,some ⟨45,[.setEnt .internalNl,.emb (.cb 3)],none,false⟩⟩,⟨256,.cr,false,some ⟨46,[.setEnt .internalNl,.emb (.cb 3)],none,false⟩⟩,⟨256,.cr,true,some ⟨47,[.setEnt .internalNl,.emb (.cb 3)],none,false⟩⟩,⟨256,.other,false,some ⟨0,[.setEnt .internalNl,.emb (.cb 3),.commit,.code],some 3,true⟩⟩,⟨256,.other,false,some ⟨48,[.setEnt .internalNl,.emb (.cb 3)],none,false⟩⟩]⟩,⟨[47],none,[],[⟨256,.other,false,none⟩,⟨256,.ws,false,none⟩,⟨256,.lf,false,some ⟨58,[],none,false⟩⟩,⟨256,.vt,false,none⟩,⟨256,.ff,false,none⟩,⟨256,.cr,false,none⟩,⟨256,.cr,true,none⟩]⟩,⟨[47,51],none,[],[⟨256,.other,false,some ⟨42,[.setEnt .internalNl,.emb (.cb 3),.code],none,false⟩⟩,⟨256,.ws,false,some ⟨43,[.setEnt .internalNl,.emb (.cb 3)],none,false⟩⟩,⟨256,.lf,false,some ⟨59,[.setEnt .internalNl,.emb (.cb 3)],none,false⟩⟩,⟨256,.vt,false,some ⟨42,[.setEnt .internalNl,.emb (.cb 3),.code],none,false⟩⟩,⟨256,.ff,false,some ⟨45,[.setEnt .internalNl,.emb (.cb 3)],none,false⟩⟩,⟨256,.cr,false,some ⟨46,[.setEnt .internalNl,.emb (.cb 3)],none,false⟩⟩,⟨256,.cr,true,some ⟨47,[.setEnt .internalNl,.emb (.cb 3)],none,false⟩⟩,⟨256,.other,false,some ⟨0,[.setEnt .internalNl,.emb (.cb 3),.commit,.code],some 3,true⟩⟩,⟨256,.other,false,some ⟨48,[.setEnt .internalNl,.emb (.cb 3)],none,false⟩⟩]⟩,⟨[54],none,[],[⟨256,.other,false,some ⟨60,[.code],none,false⟩⟩,⟨256,.ws,false,some ⟨60,[.code],none,false⟩⟩,⟨256,.lf,false,none⟩,⟨256,.vt,false,some ⟨60,[.code],none,false⟩⟩,⟨256,.ff,false,none⟩,⟨256,.cr,false,none⟩,⟨256,.cr,true,none⟩]⟩,⟨[75],none,[],[⟨256,.other,false,some ⟨61,[.code],none,false⟩⟩,⟨256,.ws,false,some ⟨62,[],none,false⟩⟩,⟨256,.lf,false,some ⟨63,[],none,false⟩⟩,⟨256,.vt,false,some ⟨61,[.code],none,false⟩⟩,⟨256,.ff,false,some ⟨64,[],none,false⟩⟩,⟨256,.cr,false,some ⟨65,[],none,false⟩⟩,⟨256,.cr,true,some ⟨66,[],none,false⟩⟩,⟨256,.other,false,some ⟨0,[.commit,.code],some 3,true⟩⟩,⟨256,.other,false,some ⟨67,[],none,false⟩⟩]⟩,⟨[24],none,[],[⟨256,.other,false,some ⟨22,[.setEnt .internalNl,.emb (.cb 3),.code],none,false⟩⟩,⟨256,.ws,false,some ⟨23,[.setEnt .internalNl,.emb (.cb 3)],none,false⟩⟩,⟨256,.lf,false,some ⟨24,[.setEnt .internalNl,.emb (.cb 3)],none,false⟩⟩,⟨256,.vt,false,some ⟨22,[.setEnt .internalNl,.emb (.cb 3),.code],none,false⟩⟩,⟨256,.ff,false,some ⟨25,[.setEnt .internalNl,.emb (.cb 3)],none,false⟩⟩,⟨256,.cr,false,some ⟨26,[.setEnt .internalNl,.emb (.cb 3)],none,false⟩⟩,⟨256,.cr,true,some ⟨27,[.setEnt .internalNl,.emb (.cb 3)],none,false⟩⟩,⟨256,.other,false,some ⟨0,[.setEnt .internalNl,.emb (.cb 3),.commit,.code],some 3,true⟩⟩,⟨256,.other,false,some ⟨28,[.setEnt .internalNl,.emb (.cb 3)],none,false⟩⟩]⟩,⟨[24,25],none,[],[⟨256,.other,false,some ⟨22,[.setEnt .internalNl,.emb (.cb 3),.code],none,false⟩⟩,⟨256,.ws,false,some ⟨23,[.setEnt .internalNl,.emb (.cb 3)],none,false⟩⟩,⟨256,.lf,false,some ⟨24,[.setEnt .internalNl,.emb (.cb 3)],none,false⟩⟩,⟨256,.vt,false,some ⟨22,[.setEnt .internalNl,.emb (.cb 3),.code],none,false⟩⟩,⟨256,.ff,false,some ⟨25,[.setEnt .internalNl,.emb (.cb 3)],none,false⟩⟩,⟨256,.cr,false,some ⟨26,[.setEnt .internalNl,.emb (.cb 3)],none,false⟩⟩,⟨256,.cr,true,some ⟨27,[.setEnt .internalNl,.emb (.cb 3)],none,false⟩⟩,⟨256,.other,false,some ⟨0,[.setEnt .internalNl,.emb (.cb 3),.commit,.code],some 3,true⟩⟩,⟨256,.other,false,some ⟨28,[.setEnt .internalNl,.emb (.cb 3)],none,false⟩⟩]⟩,⟨[31],none,[],[⟨256,.other,false,some ⟨22,[.code],none,false⟩⟩,⟨256,.ws,false,some ⟨23,[],none,false⟩⟩,⟨256,.lf,false,some ⟨24,[],none,false⟩⟩,⟨256,.vt,false,some ⟨22,[.code],none,false⟩⟩,⟨256,.ff,false,some ⟨25,[],none,false⟩⟩,⟨256,.cr,false,some ⟨26,[],none,false⟩⟩,⟨256,.cr,true,some ⟨27,[],none,false⟩⟩,⟨256,.other,false,some ⟨0,[.commit,.code],some 3,true⟩⟩,⟨256,.other,false,some ⟨28,[],none,false⟩⟩]⟩,⟨[71],none,[],[⟨256,.other,false,some ⟨29,[],none,false⟩⟩,⟨256,.ws,false,some ⟨29,[],none,false⟩⟩,⟨256,.lf,false,none⟩,⟨256,.vt,false,some ⟨29,[],none,false⟩⟩,⟨256,.ff,false,none⟩,⟨256,.cr,false,none⟩,⟨256,.cr,true,none⟩,⟨256,.other,false,some ⟨0,[.code],some 3,true⟩⟩,⟨256,.other,false,some ⟨30,[],none,false⟩⟩]⟩,⟨[7],none,[],[⟨256,.other,false,none⟩,⟨256,.ws,false,none⟩,⟨256,.lf,false,none⟩,⟨256,.vt,false,none⟩,⟨256,.ff,false,none⟩,⟨256,.cr,false,none⟩,⟨256,.cr,true,none⟩,⟨256,.other,false,some ⟨68,[],none,false⟩⟩]⟩,⟨[59],none,[],[⟨256,.other,false,some ⟨32,[.setEnt .internalNl,.emb (.cb 3),.code],none,false⟩⟩,⟨256,.ws,false,some ⟨33,[.setEnt .internalNl,.emb (.cb 3)],none,false⟩⟩,⟨256,.lf,false,some ⟨34,[.setEnt .internalNl,.emb (.cb 3)],none,false⟩⟩,⟨256,.vt,false,some ⟨32,[.setEnt .internalNl,.emb (.cb 3),.code],none,false⟩⟩,⟨256,.ff,false,some ⟨35,[.setEnt .internalNl,.emb (.cb 3)],none,false⟩⟩,⟨256,.cr,false,some ⟨36,[.setEnt .internalNl,.emb (.cb 3)],none,false⟩⟩,⟨256,.cr,true,some ⟨37,[.setEnt .internalNl,.emb (.cb 3)],none,false⟩⟩,⟨256,.other,false,some ⟨38,[.setEnt .internalNl,.emb (.cb 3)],none,false⟩⟩,⟨256,.other,false,some ⟨0,[.setEnt .internalNl,.emb (.cb 3),.commit,.code],some 3,true⟩⟩]⟩,⟨[59,60],none,[],[⟨256,.other,false,some ⟨32,[.setEnt .internalNl,.emb (.cb 3),.code],none,false⟩⟩,⟨256,.ws,false,some ⟨33,[.setEnt .internalNl,.emb (.cb 3)],none,false⟩⟩,⟨256,.lf,false,some ⟨34,[.setEnt .internalNl,.emb (.cb 3)],none,false⟩⟩,⟨256,.vt,false,some ⟨32,[.setEnt .internalNl,.emb (.cb 3),.code],none,false⟩⟩,⟨256,.ff,false,some ⟨35,[.setEnt .internalNl,.emb (.cb 3)],none,false⟩⟩,⟨256,.cr,false,some ⟨36,[.setEnt .internalNl,.emb (.cb 3)],none,false⟩⟩,⟨256,.cr,true,some ⟨37,[.setEnt .internalNl,.emb (.cb 3)],none,false⟩⟩,⟨256,.other,false,some ⟨38,[.setEnt .internalNl,.emb (.cb 3)],none,false⟩⟩,⟨256,.other,false,some ⟨0,[.setEnt .internalNl,.emb (.cb 3),.commit,.code],some 3,true⟩⟩]⟩,⟨[66],none,[],[⟨256,.other,false,some ⟨32,[.code],none,false⟩⟩,⟨256,.ws,false,some ⟨33,[],none,false⟩⟩,⟨256,.lf,false,some ⟨34,[],none,false⟩⟩,⟨256,.vt,false,some ⟨32,[.code],none,false⟩⟩,⟨256,.ff,false,some ⟨35,[],none,false⟩⟩,⟨256,.cr,false,some ⟨36,[],none,false⟩⟩,⟨256,.cr,true,some ⟨37,[],none,false⟩⟩,⟨256,.other,false,some ⟨38,[],none,false⟩⟩,⟨256,.other,false,some ⟨0,[.commit,.code],some 3,true⟩⟩]⟩,⟨[48],none,[],[⟨256,.other,false,some ⟨42,[.setEnt .internalNl,.emb (.cb 3),.code],none,false⟩⟩,⟨256,.ws,false,some ⟨43,[.setEnt .internalNl,.emb (.cb 3)],none,false⟩⟩,⟨256,.lf,false,some ⟨44,[.setEnt .internalNl,.emb (.cb 3)],none,false⟩⟩,⟨256,.vt,false,some ⟨42,[.setEnt .internalNl,.emb (.cb 3),.code],none,false⟩⟩,⟨256,.ff,false,some ⟨45,[.setEnt .internalNl,.emb (.cb 3)],none,false⟩⟩,⟨256,.cr,false,some ⟨46,[.setEnt .internalNl,.emb (.cb 3)],none,false⟩⟩,⟨256,.cr,true,some ⟨47,[.setEnt .internalNl,.emb (.cb 3)],none,false⟩⟩,⟨256,.other,false,some ⟨0,[.setEnt .internalNl,.emb (.cb 3),.commit,.code],some 3,true⟩⟩,⟨256,.other,false,some ⟨48,[.setEnt .internalNl,.emb (.cb 3)],none,false⟩⟩]⟩,⟨[48,49],none,[],[⟨256,.other,false,some ⟨42,[.setEnt .internalNl,.emb (.cb 3),.code],none,false⟩⟩,⟨256,.ws,false,some ⟨43,[.setEnt .internalNl,.emb (.cb 3)],none,false⟩⟩,⟨256,.lf,false,some ⟨44,[.setEnt .internalNl,.emb (.cb 3)],none,false⟩⟩,⟨256,.vt,false,some ⟨42,[.setEnt .internalNl,.emb (.cb 3),.code],none,false⟩⟩,⟨256,.ff,false,some ⟨45,[.setEnt .internalNl,.emb (.cb 3)],none,false⟩⟩,⟨256,.cr,false,some ⟨46,[.setEnt .internalNl,.emb (.cb 3)],none,false⟩⟩,⟨256,.cr,true,some ⟨47,[.setEnt .internalNl,.emb (.cb 3)],none,false⟩⟩,⟨256,.other,false,some ⟨0,[.setEnt .internalNl,.emb (.cb 3),.commit,.code],some 3,true⟩⟩,⟨256,.other,false,some ⟨48,[.setEnt .internalNl,.emb (.cb 3)],none,false⟩⟩]⟩,⟨[55],none,[],[⟨256,.other,false,some ⟨42,[.code],none,false⟩⟩,⟨256,.ws,false,some ⟨43,[],none,false⟩⟩,⟨256,.lf,false,some ⟨44,[],none,false⟩⟩,⟨256,.vt,false,some ⟨42,[.code],none,false⟩⟩,⟨256,.ff,false,some ⟨45,[],none,false⟩⟩,⟨256,.cr,false,some ⟨46,[],none,false⟩⟩,⟨256,.cr,true,some ⟨47,[],none,false⟩⟩,⟨256,.other,false,some ⟨0,[.commit,.code],some 3,true⟩⟩,⟨256,.other,false,some ⟨48,[],none,false⟩⟩]⟩,⟨[82],none,[],[⟨256,.other,false,some ⟨61,[.code],none,false⟩⟩,⟨256,.ws,false,some ⟨62,[],none,false⟩⟩,⟨256,.lf,false,some ⟨63,[],none,false⟩⟩,⟨256,.vt,false,some ⟨61,[.code],none,false⟩⟩,⟨256,.ff,false,some ⟨64,[],none,false⟩⟩,⟨256,.cr,false,some ⟨65,[],none,false⟩⟩,⟨256,.cr,true,some ⟨66,[],none,false⟩⟩,⟨256,.other,false,some ⟨0,[.commit,.code],some 3,true⟩⟩,⟨256,.other,false,some ⟨67,[],none,false⟩⟩]⟩,⟨[81],none,[],[⟨256,.other,false,some ⟨61,[.code],none,false⟩⟩,⟨256,.ws,false,some ⟨62,[],none,false⟩⟩,⟨256,.lf,false,some ⟨63,[],none,false⟩⟩,⟨256,.vt,false,some ⟨61,[.code],none,false⟩⟩,⟨256,.ff,false,some ⟨64,[],none,false⟩⟩,⟨256,.cr,false,some ⟨65,[],none,false⟩⟩,⟨256,.cr,true,some ⟨66,[],none,false⟩⟩,⟨256,.other,false,some ⟨0,[.commit,.code],some 3,true⟩⟩,⟨256,.other,false,some ⟨67,[],none,false⟩⟩]⟩,⟨[78],none,[],[⟨256,.other,false,some ⟨61,[.setEnt .internalNl,.emb (.cb 3),.code],none,false⟩⟩,⟨256,.ws,false,some ⟨62,[.setEnt .internalNl,.emb (.cb 3)],none,false⟩⟩,⟨256,.lf,false,some ⟨63,[.setEnt .internalNl,.emb (.cb 3)],none,false⟩⟩,⟨256,.vt,false,some ⟨61,[.setEnt .internalNl,.emb (.cb 3),.code],none,false⟩⟩,⟨256,.ff,false,some ⟨64,[.setEnt .internalNl,.emb (.cb 3)],none,false⟩⟩,⟨256,.cr,false,some ⟨65,[.setEnt .internalNl,.emb (.cb 3)],none,false⟩⟩,⟨256,.cr,true,some ⟨66,[.setEnt .internalNl,.emb (.cb 3)],none,false⟩⟩,⟨256,.other,false,some ⟨0,[.setEnt .internalNl,.emb (.cb 3),.commit,.code],some 3,true⟩⟩,⟨256,.other,false,some ⟨67,[.setEnt .internalNl,.emb (.cb 3)],none,false⟩⟩]⟩,⟨[79],none,[],[⟨256,.other,false,some ⟨61,[.setEnt .internalNl,.emb (.cb 3),.code],none,false⟩⟩,⟨256,.ws,false,some ⟨62,[.setEnt .internalNl,.emb (.cb 3)],none,false⟩⟩,⟨256,.lf,false,some ⟨63,[.setEnt .internalNl,.emb (.cb 3)],none,false⟩⟩,⟨256,.vt,false,some ⟨61,[.setEnt .internalNl,.emb (.cb 3),.code],none,false⟩⟩,⟨256,.ff,false,some ⟨64,[.setEnt .internalNl,.emb (.cb 3)],none,false⟩⟩,⟨256,.cr,false,some ⟨65,[.setEnt .internalNl,.emb (.cb 3)],none,false⟩⟩,⟨256,.cr,true,some ⟨66,[.setEnt .internalNl,.emb (.cb 3)],none,false⟩⟩,⟨256,.other,false,some ⟨0,[.setEnt .internalNl,.emb (.cb 3),.commit,.code],some 3,true⟩⟩,⟨256,.other,false,some ⟨67,[.setEnt .internalNl,.emb (.cb 3)],none,false⟩⟩]⟩,⟨[76],none,[],[⟨256,.other,false,none⟩,⟨256,.ws,false,none⟩,⟨256,.lf,false,some ⟨69,[],none,false⟩⟩,⟨256,.vt,false,none⟩,⟨256,.ff,false,none⟩,⟨256,.cr,false,none⟩,⟨256,.cr,true,none⟩]⟩,⟨[76,80],none,[],[⟨256,.other,false,some ⟨61,[.setEnt .internalNl,.emb (.cb 3),.code],none,false⟩⟩,⟨256,.ws,false,some ⟨62,[.setEnt .internalNl,.emb (.cb 3)],none,false⟩⟩,⟨256,.lf,false,some ⟨70,[.setEnt .internalNl,.emb (.cb 3)],none,false⟩⟩,⟨256,.vt,false,some ⟨61,[.setEnt .internalNl,.emb (.cb 3),.code],none,false⟩⟩,⟨256,.ff,false,some ⟨64,[.setEnt .internalNl,.emb (.cb 3)],none,false⟩⟩,⟨256,.cr,false,some ⟨65,[.setEnt .internalNl,.emb (.cb 3)],none,false⟩⟩,⟨256,.cr,true,some ⟨66,[.setEnt .internalNl,.emb (.cb 3)],none,false⟩⟩,⟨256,.other,false,some ⟨0,[.setEnt .internalNl,.emb (.cb 3),.commit,.code],some 3,true⟩⟩,⟨256,.other,false,some ⟨67,[.setEnt .internalNl,.emb (.cb 3)],none,false⟩⟩]⟩,⟨[83],none,[],[⟨256,.other,false,some ⟨71,[.code],none,false⟩⟩,⟨256,.ws,false,some ⟨71,[.code],none,false⟩⟩,⟨256,.lf,false,none⟩,⟨256,.vt,false,some ⟨71,[.code],none,false⟩⟩,⟨256,.ff,false,none⟩,⟨256,.cr,false,none⟩,⟨256,.cr,true,none⟩]⟩,⟨[8],none,[],[⟨256,.other,false,none⟩,⟨256,.ws,false,none⟩,⟨256,.lf,false,none⟩,⟨256,.vt,false,none⟩,⟨256,.ff,false,none⟩,⟨256,.cr,false,none⟩,⟨256,.cr,true,none⟩,⟨256,.other,false,some ⟨72,[],none,false⟩⟩]⟩,⟨[77],none,[],[⟨256,.other,false,some ⟨61,[.setEnt .internalNl,.emb (.cb 3),.code],none,false⟩⟩,⟨256,.ws,false,some ⟨62,[.setEnt .internalNl,.emb (.cb 3)],none,false⟩⟩,⟨256,.lf,false,some ⟨63,[.setEnt .internalNl,.emb (.cb 3)],none,false⟩⟩,⟨256,.vt,false,some ⟨61,[.setEnt .internalNl,.emb (.cb 3),.code],none,false⟩⟩,⟨256,.ff,false,some ⟨64,[.setEnt .internalNl,.emb (.cb 3)],none,false⟩⟩,⟨256,.cr,false,some ⟨65,[.setEnt .internalNl,.emb (.cb 3)],none,false⟩⟩,⟨256,.cr,true,some ⟨66,[.setEnt .internalNl,.emb (.cb 3)],none,false⟩⟩,⟨256,.other,false,some ⟨0,[.setEnt .internalNl,.emb (.cb 3),.commit,.code],some 3,true⟩⟩,⟨256,.other,false,some ⟨67,[.setEnt .internalNl,.emb (.cb 3)],none,false⟩⟩]⟩,⟨[77,78],none,[],[⟨256,.other,false,some ⟨61,[.setEnt .internalNl,.emb (.cb 3),.code],none,false⟩⟩,⟨256,.ws,false,some ⟨62,[.setEnt .internalNl,.emb (.cb 3)],none,false⟩⟩,⟨256,.lf,false,some ⟨63,[.setEnt .internalNl,.emb (.cb 3)],none,false⟩⟩,⟨256,.vt,false,some ⟨61,[.setEnt .internalNl,.emb (.cb 3),.code],none,false⟩⟩,⟨256,.ff,false,some ⟨64,[.setEnt .internalNl,.emb (.cb 3)],none,false⟩⟩,⟨256,.cr,false,some ⟨65,[.setEnt .internalNl,.emb (.cb 3)],none,false⟩⟩,⟨256,.cr,true,some ⟨66,[.setEnt .internalNl,.emb (.cb 3)],none,false⟩⟩,⟨256,.other,false,some ⟨0,[.setEnt .internalNl,.emb (.cb 3),.commit,.code],some 3,true⟩⟩,⟨256,.other,false,some ⟨67,[.setEnt .internalNl,.emb (.cb 3)],none,false⟩⟩]⟩,⟨[84],none,[],[⟨256,.other,false,some ⟨61,[.code],none,false⟩⟩,⟨256,.ws,false,some ⟨62,[],none,false⟩⟩,⟨256,.lf,false,some ⟨63,[],none,false⟩⟩,⟨256,.vt,false,some ⟨61,[.code],none,false⟩⟩,⟨256,.ff,false,some ⟨64,[],none,false⟩⟩,⟨256,.cr,false,some ⟨65,[],none,false⟩⟩,⟨256,.cr,true,some ⟨66,[],none,false⟩⟩,⟨256,.other,false,some ⟨0,[.commit,.code],some 3,true⟩⟩,⟨256,.other,false,some ⟨67,[],none,false⟩⟩]⟩,⟨[9],none,[],[⟨256,.other,false,none⟩,⟨256,.ws,false,none⟩,⟨256,.lf,false,none⟩,⟨256,.vt,false,none⟩,⟨256,.ff,false,none⟩,⟨256,.cr,false,none⟩,⟨256,.cr,true,none⟩,⟨256,.other,false,some ⟨73,[.enqueue,.comment],none,false⟩⟩]⟩,⟨[10],none,[],[⟨256,.other,false,some ⟨74,[.comment],none,false⟩⟩,⟨256,.ws,false,some ⟨75,[],none,false⟩⟩,⟨256,.lf,false,some ⟨76,[],none,false⟩⟩,⟨256,.vt,false,some ⟨74,[.comment],none,false⟩⟩,⟨256,.ff,false,some ⟨77,[],none,false⟩⟩,⟨256,.cr,false,some ⟨78,[],none,false⟩⟩,⟨256,.cr,true,some ⟨79,[],none,false⟩⟩,⟨256,.other,false,some ⟨80,[.comment],none,false⟩⟩]⟩,⟨[17],none,[],[⟨256,.other,false,some ⟨74,[.comment],none,false⟩⟩,⟨256,.ws,false,some ⟨75,[],none,false⟩⟩,⟨256,.lf,false,some ⟨76,[],none,false⟩⟩,⟨256,.vt,false,some ⟨74,[.comment],none,false⟩⟩,⟨256,.ff,false,some ⟨77,[],none,false⟩⟩,⟨256,.cr,false,some ⟨78,[],none,false⟩⟩,⟨256,.cr,true,some ⟨79,[],none,false⟩⟩,⟨256,.other,false,some ⟨80,[.comment],none,false⟩⟩]⟩,⟨[16],none,[],[⟨256,.other,false,some ⟨74,[.comment],none,false⟩⟩,⟨256,.ws,false,some ⟨75,[],none,false⟩⟩,⟨256,.lf,false,some ⟨76,[],none,false⟩⟩,⟨256,.vt,false,some ⟨74,[.comment],none,false⟩⟩,⟨256,.ff,false,some ⟨77,[],none,false⟩⟩,⟨256,.cr,false,some ⟨78,[],none,false⟩⟩,⟨256,.cr,true,some ⟨79,[],none,false⟩⟩,⟨256,.other,false,some ⟨80,[.comment],none,false⟩⟩]⟩,⟨[13],none,[],[⟨256,.other,false,some ⟨74,[.setEnt .internalNl,.emb (.cb 3),.comment],none,false⟩⟩,⟨256,.ws,false,some ⟨75,[.setEnt .internalNl,.emb (.cb 3)],none,false⟩⟩,⟨256,.lf,false,some ⟨76,[.setEnt .internalNl,.emb (.cb 3)],none,false⟩⟩,⟨256,.vt,false,some ⟨74,[.setEnt .internalNl,.emb (.cb 3),.comment],none,false⟩⟩,⟨256,.ff,false,some ⟨77,[.setEnt .internalNl,.emb (.cb 3)],none,false⟩⟩,⟨256,.cr,false,some ⟨78,[.setEnt .internalNl,.emb (.cb 3)],none,false⟩⟩,⟨256,.cr,true,some ⟨79,[.setEnt .internalNl,.emb (.cb 3)],none,false⟩⟩,⟨256,.other,false,some ⟨80,[.setEnt .internalNl,.emb (.cb 3),.comment],none,false⟩⟩]⟩,⟨[14],none,[],[⟨256,.other,false,some ⟨74,[.setEnt .internalNl,.emb (.cb 3),.comment],none,false⟩⟩,⟨256,.ws,false,some ⟨75,[.setEnt .internalNl,.emb (.cb 3)],none,false⟩⟩,⟨256,.lf,false,some ⟨76,[.setEnt .internalNl,.emb (.cb 3)],none,false⟩⟩,⟨256,.vt,false,some ⟨74,[.setEnt .internalNl,.emb (.cb 3),.comment],none,false⟩⟩,⟨256,.ff,false,some ⟨77,[.setEnt .internalNl,.emb (.cb 3)],none,false⟩⟩,⟨256,.cr,false,some ⟨78,[.setEnt .internalNl,.emb (.cb 3)],none,false⟩⟩,⟨256,.cr,true,some ⟨79,[.setEnt .internalNl,.emb (.cb 3)],none,false⟩⟩,⟨256,.other,false,some ⟨80,[.setEnt .internalNl,.emb (.cb 3),.comment],none,false⟩⟩]⟩,⟨[11],none,[],[⟨256,.other,false,none⟩,⟨256,.ws,false,none⟩,⟨256,.lf,false,some ⟨81,[],none,false⟩⟩,⟨256,.vt,false,none⟩,⟨256,.ff,false,none⟩,⟨256,.cr,false,none⟩,⟨256,.cr,true,none⟩]⟩,⟨[11,15],none,[],[⟨256,.other,false,some ⟨74,[.setEnt .internalNl,.emb (.cb 3),.comment],none,false⟩⟩,⟨256,.ws,false,some ⟨75,[.setEnt .internalNl,.emb (.cb 3)],none,false⟩⟩,⟨256,.lf,false,some ⟨82,[.setEnt .internalNl,.emb (.cb 3)],none,false⟩⟩,⟨256,.vt,false,some ⟨74,[.setEnt .internalNl,.emb (.cb 3),.comment],none,false⟩⟩,⟨256,.ff,false,some ⟨77,[.setEnt .internalNl,.emb (.cb 3)],none,false⟩⟩,⟨256,.cr,false,some ⟨78,[.setEnt .internalNl,.emb (.cb 3)],none,false⟩⟩,⟨256,.cr,true,some ⟨79,[.setEnt .internalNl,.emb (.cb 3)],none,false⟩⟩,⟨256,.other,false,some ⟨80,[.setEnt .internalNl,.emb (.cb 3),.comment],none,false⟩⟩]⟩,⟨[17,18],none,[],[⟨256,.other,false,some ⟨74,[.comment],none,false⟩⟩,⟨256,.ws,false,some ⟨75,[],none,false⟩⟩,⟨256,.lf,false,some ⟨76,[],none,false⟩⟩,⟨256,.vt,false,some ⟨74,[.comment],none,false⟩⟩,⟨256,.ff,false,some ⟨77,[],none,false⟩⟩,⟨256,.cr,false,some ⟨78,[],none,false⟩⟩,⟨256,.cr,true,some ⟨79,[],none,false⟩⟩,⟨256,.other,false,some ⟨80,[.comment],none,false⟩⟩,⟨256,.other,false,some ⟨83,[.comment],none,false⟩⟩]⟩,⟨[12],none,[],[⟨256,.other,false,some ⟨74,[.setEnt .internalNl,.emb (.cb 3),.comment],none,false⟩⟩,⟨256,.ws,false,some ⟨75,[.setEnt .internalNl,.emb (.cb 3)],none,false⟩⟩,⟨256,.lf,false,some ⟨76,[.setEnt .internalNl,.emb (.cb 3)],none,false⟩⟩,⟨256,.vt,false,some ⟨74,[.setEnt .internalNl,.emb (.cb 3),.comment],none,false⟩⟩,⟨256,.ff,false,some ⟨77,[.setEnt .internalNl,.emb (.cb 3)],none,false⟩⟩,⟨256,.cr,false,some ⟨78,[.setEnt .internalNl,.emb (.cb 3)],none,false⟩⟩,⟨256,.cr,true,some ⟨79,[.setEnt .internalNl,.emb (.cb 3)],none,false⟩⟩,⟨256,.other,false,some ⟨80,[.setEnt .internalNl,.emb (.cb 3),.comment],none,false⟩⟩]⟩,⟨[12,13],none,[],[⟨256,.other,false,some ⟨74,[.setEnt .internalNl,.emb (.cb 3),.comment],none,false⟩⟩,⟨256,.ws,false,some ⟨75,[.setEnt .internalNl,.emb (.cb 3)],none,false⟩⟩,⟨256,.lf,false,some ⟨76,[.setEnt .internalNl,.emb (.cb 3)],none,false⟩⟩,⟨256,.vt,false,some ⟨74,[.setEnt .internalNl,.emb (.cb 3),.comment],none,false⟩⟩,⟨256,.ff,false,some ⟨77,[.setEnt .internalNl,.emb (.cb 3)],none,false⟩⟩,⟨256,.cr,false,some ⟨78,[.setEnt .internalNl,.emb (.cb 3)],none,false⟩⟩,⟨256,.cr,true,some ⟨79,[.setEnt .internalNl,.emb (.cb 3)],none,false⟩⟩,⟨256,.other,false,some ⟨80,[.setEnt .internalNl,.emb (.cb 3),.comment],none,false⟩⟩]⟩,⟨[17,19],none,[],[⟨256,.other,false,some ⟨74,[.comment],none,false⟩⟩,⟨256,.ws,false,some ⟨75,[],none,false⟩⟩,⟨256,.lf,false,some ⟨76,[],none,false⟩⟩,⟨256,.vt,false,some ⟨74,[.comment],none,false⟩⟩,⟨256,.ff,false,some ⟨77,[],none,false⟩⟩,⟨256,.cr,false,some ⟨78,[],none,false⟩⟩,⟨256,.cr,true,some ⟨79,[],none,false⟩⟩,⟨256,.other,false,some ⟨80,[.comment],none,false⟩⟩,⟨256,.other,false,some ⟨84,[.comment],none,false⟩⟩]⟩,⟨[17,20],none,[],[⟨256,.other,false,some ⟨74,[.comment],none,false⟩⟩,⟨256,.ws,false,some ⟨75,[],none,false⟩⟩,⟨256,.lf,false,some ⟨76,[],none,false⟩⟩,⟨256,.vt,false,some ⟨74,[.comment],none,false⟩⟩,⟨256,.ff,false,some ⟨77,[],none,false⟩⟩,⟨256,.cr,false,some ⟨78,[],none,false⟩⟩,⟨256,.cr,true,some ⟨79,[],none,false⟩⟩,⟨256,.other,false,some ⟨80,[.comment],none,false⟩⟩,⟨256,.other,false,some ⟨0,[.commit],some 2,true⟩⟩]⟩]
theorem emb50_rowsOk : rowsOk emb50_nfa [] (emb50_cs.map (·.1)) emb50_rows = true := by decide +kernel
def emb50_D : Dfa emb50_nfa := ⟨emb50_masks, [], emb50_cs, emb50_rows, emb50_masksIn, emb50_repOk, emb50_rowsOk⟩

end Ohcount.Cert
