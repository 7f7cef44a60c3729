import Verif.Gram.All
import Verif.RagelCheck

/-! Generated by tools/gen_certs.py. -/

namespace Ohcount.Cert
open Ohcount.Ragel Ohcount.Gram

set_option maxRecDepth 100000

def erlang_line_nfa : Nfa := ⟨[⟨0,4294967808,[],[(0,.setEnt (.own 0))],0,0⟩,⟨1,137438953472,[],[],0,0⟩,⟨4,549755813888,[],[(2,.code)],0,0⟩,⟨9,17179869184,[],[(3,.code)],0,0⟩,⟨14,8192,[],[(4,.setEnt .newline)],0,0⟩,⟨16,1024,[],[(4,.setEnt .newline)],0,0⟩,⟨17,4096,[],[(4,.setEnt .newline)],0,0⟩,⟨18,8192,[.crAlone],[(4,.setEnt .newline)],0,0⟩,⟨19,115792089237316195423570985008687907853269984665640564039457584007908834656767,[],[(5,.setEnt (.own 3))],0,0⟩],[[⟨0,4294967808,[],[(0,.setEnt (.own 0))],0,0⟩],[⟨2,137438953472,[],[(1,.comment)],0,0⟩],[⟨3,115792089237316195423570985008687907853269984665640564039457584007913129626623,[],[],0,0⟩],[⟨3,115792089237316195423570985008687907853269984665640564039457584007913129626623,[],[],0,0⟩],[⟨5,115792089237316195423570985008687907853269984665635612279300442486263777315839,[],[],0,0⟩,⟨6,4951760157141521099596496896,[],[],0,0⟩,⟨8,549755813888,[],[],0,0⟩],[⟨5,115792089237316195423570985008687907853269984665635612279300442486263777315839,[],[],0,0⟩,⟨6,4951760157141521099596496896,[],[],0,0⟩,⟨8,549755813888,[],[],0,0⟩],[⟨7,115792089237316195423570985008687907853269984665640564039457584007913129626623,[],[],0,0⟩],[⟨5,115792089237316195423570985008687907853269984665635612279300442486263777315839,[],[],0,0⟩,⟨6,4951760157141521099596496896,[],[],0,0⟩,⟨8,549755813888,[],[],0,0⟩],[],[⟨10,115792089237316195423570985008687907853269984665635612279300442486796353260543,[],[],0,0⟩,⟨11,4951760157141521099596496896,[],[],0,0⟩,⟨13,17179869184,[],[],0,0⟩],[⟨10,115792089237316195423570985008687907853269984665635612279300442486796353260543,[],[],0,0⟩,⟨11,4951760157141521099596496896,[],[],0,0⟩,⟨13,17179869184,[],[],0,0⟩],[⟨12,115792089237316195423570985008687907853269984665640564039457584007913129626623,[],[],0,0⟩],[⟨10,115792089237316195423570985008687907853269984665635612279300442486796353260543,[],[],0,0⟩,⟨11,4951760157141521099596496896,[],[],0,0⟩,⟨13,17179869184,[],[],0,0⟩],[],[⟨15,1024,[],[(4,.setEnt .newline)],0,0⟩],[],[],[],[],[]],[some (0,[]),none,some (1,[]),some (1,[]),none,none,none,none,some (2,[]),none,none,none,none,some (2,[]),none,some (3,[]),some (3,[]),some (3,[]),some (3,[]),some (4,[])],[1,2,4,5,6]⟩
theorem erlang_line_nfa_eq : Erlang.erlang_line.nfa = erlang_line_nfa := by decide +kernel
/-- The machine of `Erlang.erlang_line`, with its automaton as a literal. -/
def erlang_line_M : Machine := ⟨erlang_line_nfa, Erlang.erlang_line.ends, Erlang.erlang_line.sw⟩
theorem erlang_line_M_eq : Erlang.erlang_line.machine = erlang_line_M := by
  unfold Scanner.machine erlang_line_M; rw [erlang_line_nfa_eq]
def erlang_line_masks : List Nat := [4294967808,137438953472,549755813888,17179869184,8192,1024,4096,115792089237316195423570985008687907853269984665640564039457584007908834656767,115792089237316195423570985008687907853269984665640564039457584007913129626623,115792089237316195423570985008687907853269984665635612279300442486263777315839,4951760157141521099596496896,115792089237316195423570985008687907853269984665635612279300442486796353260543]
def erlang_line_cs : List (Nat × Nat) := [(0,115792089237316195423570985008687907853269984665635612279300442486104863523327),(9,4294967808),(10,1024),(11,2048),(12,4096),(13,8192),(34,17179869184),(37,137438953472),(39,549755813888),(92,4951760157141521099596496896)]
theorem erlang_line_masksIn : masksIn erlang_line_nfa erlang_line_masks = true := by decide +kernel
theorem erlang_line_repOk : repOk erlang_line_masks erlang_line_cs = true := by decide +kernel
def erlang_line_rows : List Row := [⟨[],none,[],[⟨256,.other,false,some ⟨0,[.setEnt (.own 3)],some 4,true⟩⟩,⟨256,.ws,false,some ⟨1,[.setEnt (.own 0)],some 0,false⟩⟩,⟨256,.lf,false,some ⟨0,[.setEnt .newline],some 3,true⟩⟩,⟨256,.vt,false,none⟩,⟨256,.ff,false,some ⟨0,[.setEnt .newline],some 3,true⟩⟩,⟨256,.cr,false,some ⟨2,[.setEnt .newline],none,false⟩⟩,⟨256,.cr,true,some ⟨3,[.setEnt .newline],some 3,false⟩⟩,⟨256,.other,false,some ⟨4,[.code,.setEnt (.own 3)],some 4,false⟩⟩,⟨256,.other,false,some ⟨5,[.setEnt (.own 3)],some 4,false⟩⟩,⟨256,.other,false,some ⟨6,[.code,.setEnt (.own 3)],some 4,false⟩⟩]⟩,⟨[0],some 0,[],[⟨256,.other,false,none⟩,⟨256,.ws,false,some ⟨1,[.setEnt (.own 0)],some 0,false⟩⟩,⟨256,.lf,false,none⟩,⟨256,.vt,false,none⟩,⟨256,.ff,false,none⟩,⟨256,.cr,false,none⟩,⟨256,.cr,true,none⟩]⟩,⟨[14],none,[],[⟨256,.other,false,none⟩,⟨256,.ws,false,none⟩,⟨256,.lf,false,some ⟨0,[.setEnt .newline],some 3,true⟩⟩,⟨256,.vt,false,none⟩,⟨256,.ff,false,none⟩,⟨256,.cr,false,none⟩,⟨256,.cr,true,none⟩]⟩,⟨[14,18],some 3,[],[⟨256,.other,false,none⟩,⟨256,.ws,false,none⟩,⟨256,.lf,false,some ⟨0,[.setEnt .newline],some 3,true⟩⟩,⟨256,.vt,false,none⟩,⟨256,.ff,false,none⟩,⟨256,.cr,false,none⟩,⟨256,.cr,true,none⟩]⟩,⟨[9,19],some 4,[],[⟨256,.other,false,some ⟨7,[],none,false⟩⟩,⟨256,.ws,false,some ⟨7,[],none,false⟩⟩,⟨256,.lf,false,none⟩,⟨256,.vt,false,some ⟨7,[],none,false⟩⟩,⟨256,.ff,false,none⟩,⟨256,.cr,false,none⟩,⟨256,.cr,true,none⟩,⟨256,.other,false,some ⟨0,[],some 2,true⟩⟩,⟨256,.other,false,some ⟨8,[],none,false⟩⟩]⟩,⟨[1,19],some 4,[],[⟨256,.other,false,none⟩,⟨256,.ws,false,none⟩,⟨256,.lf,false,none⟩,⟨256,.vt,false,none⟩,⟨256,.ff,false,none⟩,⟨256,.cr,false,none⟩,⟨256,.cr,true,none⟩,⟨256,.other,false,some ⟨9,[.comment],some 1,false⟩⟩]⟩,⟨[4,19],some 4,[],[⟨256,.other,false,some ⟨10,[],none,false⟩⟩,⟨256,.ws,false,some ⟨10,[],none,false⟩⟩,⟨256,.lf,false,none⟩,⟨256,.vt,false,some ⟨10,[],none,false⟩⟩,⟨256,.ff,false,none⟩,⟨256,.cr,false,none⟩,⟨256,.cr,true,none⟩,⟨256,.other,false,some ⟨0,[],some 2,true⟩⟩,⟨256,.other,false,some ⟨11,[],none,false⟩⟩]⟩,⟨[10],none,[],[⟨256,.other,false,some ⟨7,[],none,false⟩⟩,⟨256,.ws,false,some ⟨7,[],none,false⟩⟩,⟨256,.lf,false,none⟩,⟨256,.vt,false,some ⟨7,[],none,false⟩⟩,⟨256,.ff,false,none⟩,⟨256,.cr,false,none⟩,⟨256,.cr,true,none⟩,⟨256,.other,false,some ⟨0,[],some 2,true⟩⟩,⟨256,.other,false,some ⟨8,[],none,false⟩⟩]⟩,⟨[11],none,[],[⟨256,.other,false,some ⟨12,[],none,false⟩⟩,⟨256,.ws,false,some ⟨12,[],none,false⟩⟩,⟨256,.lf,false,none⟩,⟨256,.vt,false,some ⟨12,[],none,false⟩⟩,⟨256,.ff,false,none⟩,⟨256,.cr,false,none⟩,⟨256,.cr,true,none⟩]⟩,⟨[2],some 1,[],[⟨256,.other,false,some ⟨13,[],some 1,false⟩⟩,⟨256,.ws,false,some ⟨13,[],some 1,false⟩⟩,⟨256,.lf,false,none⟩,⟨256,.vt,false,some ⟨13,[],some 1,false⟩⟩,⟨256,.ff,false,none⟩,⟨256,.cr,false,none⟩,⟨256,.cr,true,none⟩]⟩,⟨[5],none,[],[⟨256,.other,false,some ⟨10,[],none,false⟩⟩,⟨256,.ws,false,some ⟨10,[],none,false⟩⟩,⟨256,.lf,false,none⟩,⟨256,.vt,false,some ⟨10,[],none,false⟩⟩,⟨256,.ff,false,none⟩,⟨256,.cr,false,none⟩,⟨256,.cr,true,none⟩,⟨256,.other,false,some ⟨0,[],some 2,true⟩⟩,⟨256,.other,false,some ⟨11,[],none,false⟩⟩]⟩,⟨[6],none,[],[⟨256,.other,false,some ⟨14,[],none,false⟩⟩,⟨256,.ws,false,some ⟨14,[],none,false⟩⟩,⟨256,.lf,false,none⟩,⟨256,.vt,false,some ⟨14,[],none,false⟩⟩,⟨256,.ff,false,none⟩,⟨256,.cr,false,none⟩,⟨256,.cr,true,none⟩]⟩,⟨[12],none,[],[⟨256,.other,false,some ⟨7,[],none,false⟩⟩,⟨256,.ws,false,some ⟨7,[],none,false⟩⟩,⟨256,.lf,false,none⟩,⟨256,.vt,false,some ⟨7,[],none,false⟩⟩,⟨256,.ff,false,none⟩,⟨256,.cr,false,none⟩,⟨256,.cr,true,none⟩,⟨256,.other,false,some ⟨0,[],some 2,true⟩⟩,⟨256,.other,false,some ⟨8,[],none,false⟩⟩]⟩,⟨[3],some 1,[],[⟨256,.other,false,some ⟨13,[],some 1,false⟩⟩,⟨256,.ws,false,some ⟨13,[],some 1,false⟩⟩,⟨256,.lf,false,none⟩,⟨256,.vt,false,some ⟨13,[],some 1,false⟩⟩,⟨256,.ff,false,none⟩,⟨256,.cr,false,none⟩,⟨256,.cr,true,none⟩]⟩,⟨[7],none,[],[⟨256,.other,false,some ⟨10,[],none,false⟩⟩,⟨256,.ws,false,some ⟨10,[],none,false⟩⟩,⟨256,.lf,false,none⟩,⟨256,.vt,false,some ⟨10,[],none,false⟩⟩,⟨256,.ff,false,none⟩,⟨256,.cr,false,none⟩,⟨256,.cr,true,none⟩,⟨256,.other,false,some ⟨0,[],some 2,true⟩⟩,⟨256,.other,false,some ⟨11,[],none,false⟩⟩]⟩]
theorem erlang_line_rowsOk : rowsOk erlang_line_nfa [] (erlang_line_cs.map (·.1)) erlang_line_rows = true := by decide +kernel
def erlang_line_D : Dfa erlang_line_M.nfa := ⟨erlang_line_masks, [], erlang_line_cs, erlang_line_rows, erlang_line_masksIn, erlang_line_repOk, erlang_line_rowsOk⟩

def golang_line_nfa : Nfa := ⟨[⟨0,4294967808,[],[(0,.setEnt (.own 0))],0,0⟩,⟨1,140737488355328,[],[],0,0⟩,⟨11,140737488355328,[],[],0,2⟩,⟨22,549755813888,[],[(9,.code)],0,0⟩,⟨34,17179869184,[],[(14,.code)],0,0⟩,⟨46,8192,[],[(19,.setEnt .newline)],0,0⟩,⟨48,1024,[],[(19,.setEnt .newline)],0,0⟩,⟨49,4096,[],[(19,.setEnt .newline)],0,0⟩,⟨50,8192,[.crAlone],[(19,.setEnt .newline)],0,0⟩,⟨51,115792089237316195423570985008687907853269984665640564039457584007908834656767,[],[(20,.setEnt (.own 8))],0,0⟩],[[⟨0,4294967808,[],[(0,.setEnt (.own 0))],0,0⟩],[⟨2,140737488355328,[],[(1,.comment)],0,0⟩],[⟨3,4951760157141521099596496896,[],[],0,0⟩,⟨9,4294967808,[],[],0,0⟩,⟨10,115792089237316195423570985008687907853269984665640564039457584007908834658815,[],[(4,.comment)],0,0⟩],[⟨4,8192,[],[],0,0⟩,⟨6,1024,[],[],0,0⟩,⟨7,4096,[],[],0,0⟩,⟨8,8192,[.crAlone],[],0,0⟩],[⟨5,1024,[],[],0,0⟩],[⟨3,4951760157141521099596496896,[],[(2,.setEnt .internalNl),(3,.cb)],0,0⟩,⟨9,4294967808,[],[(2,.setEnt .internalNl),(3,.cb)],0,0⟩,⟨10,115792089237316195423570985008687907853269984665640564039457584007908834658815,[],[(2,.setEnt .internalNl),(3,.cb),(4,.comment)],0,0⟩],[⟨3,4951760157141521099596496896,[],[(2,.setEnt .internalNl),(3,.cb)],0,0⟩,⟨9,4294967808,[],[(2,.setEnt .internalNl),(3,.cb)],0,0⟩,⟨10,115792089237316195423570985008687907853269984665640564039457584007908834658815,[],[(2,.setEnt .internalNl),(3,.cb),(4,.comment)],0,0⟩],[⟨3,4951760157141521099596496896,[],[(2,.setEnt .internalNl),(3,.cb)],0,0⟩,⟨9,4294967808,[],[(2,.setEnt .internalNl),(3,.cb)],0,0⟩,⟨10,115792089237316195423570985008687907853269984665640564039457584007908834658815,[],[(2,.setEnt .internalNl),(3,.cb),(4,.comment)],0,0⟩],[⟨3,4951760157141521099596496896,[],[(2,.setEnt .internalNl),(3,.cb)],0,0⟩,⟨9,4294967808,[],[(2,.setEnt .internalNl),(3,.cb)],0,0⟩,⟨10,115792089237316195423570985008687907853269984665640564039457584007908834658815,[],[(2,.setEnt .internalNl),(3,.cb),(4,.comment)],0,0⟩],[⟨3,4951760157141521099596496896,[],[],0,0⟩,⟨9,4294967808,[],[],0,0⟩,⟨10,115792089237316195423570985008687907853269984665640564039457584007908834658815,[],[(4,.comment)],0,0⟩],[⟨3,4951760157141521099596496896,[],[],0,0⟩,⟨9,4294967808,[],[],0,0⟩,⟨10,115792089237316195423570985008687907853269984665640564039457584007908834658815,[],[(4,.comment)],0,0⟩],[⟨12,4398046511104,[],[(5,.comment)],0,2⟩],[⟨13,8192,[],[],0,2⟩,⟨15,1024,[],[],0,2⟩,⟨16,4096,[],[],0,2⟩,⟨17,8192,[.crAlone],[],0,2⟩,⟨18,4294967808,[],[],0,2⟩,⟨19,115792089237316195423570985008687907853269984665640564039457584007908834658815,[],[(8,.comment)],0,2⟩,⟨20,4398046511104,[],[],0,2⟩],[⟨14,1024,[],[],0,2⟩],[⟨13,8192,[],[(6,.setEnt .internalNl),(7,.cb)],0,2⟩,⟨15,1024,[],[(6,.setEnt .internalNl),(7,.cb)],0,2⟩,⟨16,4096,[],[(6,.setEnt .internalNl),(7,.cb)],0,2⟩,⟨17,8192,[.crAlone],[(6,.setEnt .internalNl),(7,.cb)],0,2⟩,⟨18,4294967808,[],[(6,.setEnt .internalNl),(7,.cb)],0,2⟩,⟨19,115792089237316195423570985008687907853269984665640564039457584007908834658815,[],[(6,.setEnt .internalNl),(7,.cb),(8,.comment)],0,2⟩,⟨20,4398046511104,[],[(6,.setEnt .internalNl),(7,.cb)],0,2⟩],[⟨13,8192,[],[(6,.setEnt .internalNl),(7,.cb)],0,2⟩,⟨15,1024,[],[(6,.setEnt .internalNl),(7,.cb)],0,2⟩,⟨16,4096,[],[(6,.setEnt .internalNl),(7,.cb)],0,2⟩,⟨17,8192,[.crAlone],[(6,.setEnt .internalNl),(7,.cb)],0,2⟩,⟨18,4294967808,[],[(6,.setEnt .internalNl),(7,.cb)],0,2⟩,⟨19,115792089237316195423570985008687907853269984665640564039457584007908834658815,[],[(6,.setEnt .internalNl),(7,.cb),(8,.comment)],0,2⟩,⟨20,4398046511104,[],[(6,.setEnt .internalNl),(7,.cb)],0,2⟩],[⟨13,8192,[],[(6,.setEnt .internalNl),(7,.cb)],0,2⟩,⟨15,1024,[],[(6,.setEnt .internalNl),(7,.cb)],0,2⟩,⟨16,4096,[],[(6,.setEnt .internalNl),(7,.cb)],0,2⟩,⟨17,8192,[.crAlone],[(6,.setEnt .internalNl),(7,.cb)],0,2⟩,⟨18,4294967808,[],[(6,.setEnt .internalNl),(7,.cb)],0,2⟩,⟨19,115792089237316195423570985008687907853269984665640564039457584007908834658815,[],[(6,.setEnt .internalNl),(7,.cb),(8,.comment)],0,2⟩,⟨20,4398046511104,[],[(6,.setEnt .internalNl),(7,.cb)],0,2⟩],[⟨13,8192,[],[(6,.setEnt .internalNl),(7,.cb)],0,2⟩,⟨15,1024,[],[(6,.setEnt .internalNl),(7,.cb)],0,2⟩,⟨16,4096,[],[(6,.setEnt .internalNl),(7,.cb)],0,2⟩,⟨17,8192,[.crAlone],[(6,.setEnt .internalNl),(7,.cb)],0,2⟩,⟨18,4294967808,[],[(6,.setEnt .internalNl),(7,.cb)],0,2⟩,⟨19,115792089237316195423570985008687907853269984665640564039457584007908834658815,[],[(6,.setEnt .internalNl),(7,.cb),(8,.comment)],0,2⟩,⟨20,4398046511104,[],[(6,.setEnt .internalNl),(7,.cb)],0,2⟩],[⟨13,8192,[],[],0,2⟩,⟨15,1024,[],[],0,2⟩,⟨16,4096,[],[],0,2⟩,⟨17,8192,[.crAlone],[],0,2⟩,⟨18,4294967808,[],[],0,2⟩,⟨19,115792089237316195423570985008687907853269984665640564039457584007908834658815,[],[(8,.comment)],0,2⟩,⟨20,4398046511104,[],[],0,2⟩],[⟨13,8192,[],[],0,2⟩,⟨15,1024,[],[],0,2⟩,⟨16,4096,[],[],0,2⟩,⟨17,8192,[.crAlone],[],0,2⟩,⟨18,4294967808,[],[],0,2⟩,⟨19,115792089237316195423570985008687907853269984665640564039457584007908834658815,[],[(8,.comment)],0,2⟩,⟨20,4398046511104,[],[],0,2⟩],[⟨21,140737488355328,[],[],2,0⟩],[],[⟨23,4951760157141521099596496896,[],[],0,0⟩,⟨29,4294967808,[],[],0,0⟩,⟨30,115792089237316195423570985008687907853269984665635612279300442486259482361343,[],[(12,.code)],0,0⟩,⟨31,4951760157141521099596496896,[],[],0,0⟩,⟨33,549755813888,[],[],0,0⟩],[⟨24,8192,[],[],0,0⟩,⟨26,1024,[],[],0,0⟩,⟨27,4096,[],[],0,0⟩,⟨28,8192,[.crAlone],[],0,0⟩],[⟨25,1024,[],[],0,0⟩],[⟨23,4951760157141521099596496896,[],[(10,.setEnt .internalNl),(11,.cb)],0,0⟩,⟨29,4294967808,[],[(10,.setEnt .internalNl),(11,.cb)],0,0⟩,⟨30,115792089237316195423570985008687907853269984665635612279300442486259482361343,[],[(10,.setEnt .internalNl),(11,.cb),(12,.code)],0,0⟩,⟨31,4951760157141521099596496896,[],[(10,.setEnt .internalNl),(11,.cb)],0,0⟩,⟨33,549755813888,[],[(10,.setEnt .internalNl),(11,.cb)],0,0⟩],[⟨23,4951760157141521099596496896,[],[(10,.setEnt .internalNl),(11,.cb)],0,0⟩,⟨29,4294967808,[],[(10,.setEnt .internalNl),(11,.cb)],0,0⟩,⟨30,115792089237316195423570985008687907853269984665635612279300442486259482361343,[],[(10,.setEnt .internalNl),(11,.cb),(12,.code)],0,0⟩,⟨31,4951760157141521099596496896,[],[(10,.setEnt .internalNl),(11,.cb)],0,0⟩,⟨33,549755813888,[],[(10,.setEnt .internalNl),(11,.cb)],0,0⟩],[⟨23,4951760157141521099596496896,[],[(10,.setEnt .internalNl),(11,.cb)],0,0⟩,⟨29,4294967808,[],[(10,.setEnt .internalNl),(11,.cb)],0,0⟩,⟨30,115792089237316195423570985008687907853269984665635612279300442486259482361343,[],[(10,.setEnt .internalNl),(11,.cb),(12,.code)],0,0⟩,⟨31,4951760157141521099596496896,[],[(10,.setEnt .internalNl),(11,.cb)],0,0⟩,⟨33,549755813888,[],[(10,.setEnt .internalNl),(11,.cb)],0,0⟩],[⟨23,4951760157141521099596496896,[],[(10,.setEnt .internalNl),(11,.cb)],0,0⟩,⟨29,4294967808,[],[(10,.setEnt .internalNl),(11,.cb)],0,0⟩,⟨30,115792089237316195423570985008687907853269984665635612279300442486259482361343,[],[(10,.setEnt .internalNl),(11,.cb),(12,.code)],0,0⟩,⟨31,4951760157141521099596496896,[],[(10,.setEnt .internalNl),(11,.cb)],0,0⟩,⟨33,549755813888,[],[(10,.setEnt .internalNl),(11,.cb)],0,0⟩],[⟨23,4951760157141521099596496896,[],[],0,0⟩,⟨29,4294967808,[],[],0,0⟩,⟨30,115792089237316195423570985008687907853269984665635612279300442486259482361343,[],[(12,.code)],0,0⟩,⟨31,4951760157141521099596496896,[],[],0,0⟩,⟨33,549755813888,[],[],0,0⟩],[⟨23,4951760157141521099596496896,[],[],0,0⟩,⟨29,4294967808,[],[],0,0⟩,⟨30,115792089237316195423570985008687907853269984665635612279300442486259482361343,[],[(12,.code)],0,0⟩,⟨31,4951760157141521099596496896,[],[],0,0⟩,⟨33,549755813888,[],[],0,0⟩],[⟨32,115792089237316195423570985008687907853269984665640564039457584007913129626623,[],[(13,.code)],0,0⟩],[⟨23,4951760157141521099596496896,[],[],0,0⟩,⟨29,4294967808,[],[],0,0⟩,⟨30,115792089237316195423570985008687907853269984665635612279300442486259482361343,[],[(12,.code)],0,0⟩,⟨31,4951760157141521099596496896,[],[],0,0⟩,⟨33,549755813888,[],[],0,0⟩],[],[⟨35,4951760157141521099596496896,[],[],0,0⟩,⟨41,4294967808,[],[],0,0⟩,⟨42,115792089237316195423570985008687907853269984665635612279300442486792058306047,[],[(17,.code)],0,0⟩,⟨43,4951760157141521099596496896,[],[],0,0⟩,⟨45,17179869184,[],[],0,0⟩],[⟨36,8192,[],[],0,0⟩,⟨38,1024,[],[],0,0⟩,⟨39,4096,[],[],0,0⟩,⟨40,8192,[.crAlone],[],0,0⟩],[⟨37,1024,[],[],0,0⟩],[⟨35,4951760157141521099596496896,[],[(15,.setEnt .internalNl),(16,.cb)],0,0⟩,⟨41,4294967808,[],[(15,.setEnt .internalNl),(16,.cb)],0,0⟩,⟨42,115792089237316195423570985008687907853269984665635612279300442486792058306047,[],[(15,.setEnt .internalNl),(16,.cb),(17,.code)],0,0⟩,⟨43,4951760157141521099596496896,[],[(15,.setEnt .internalNl),(16,.cb)],0,0⟩,⟨45,17179869184,[],[(15,.setEnt .internalNl),(16,.cb)],0,0⟩],[⟨35,4951760157141521099596496896,[],[(15,.setEnt .internalNl),(16,.cb)],0,0⟩,⟨41,4294967808,[],[(15,.setEnt .internalNl),(16,.cb)],0,0⟩,⟨42,115792089237316195423570985008687907853269984665635612279300442486792058306047,[],[(15,.setEnt .internalNl),(16,.cb),(17,.code)],0,0⟩,⟨43,4951760157141521099596496896,[],[(15,.setEnt .internalNl),(16,.cb)],0,0⟩,⟨45,17179869184,[],[(15,.setEnt .internalNl),(16,.cb)],0,0⟩],[⟨35,4951760157141521099596496896,[],[(15,.setEnt .internalNl),(16,.cb)],0,0⟩,⟨41,4294967808,[],[(15,.setEnt .internalNl),(16,.cb)],0,0⟩,⟨42,115792089237316195423570985008687907853269984665635612279300442486792058306047,[],[(15,.setEnt .internalNl),(16,.cb),(17,.code)],0,0⟩,⟨43,4951760157141521099596496896,[],[(15,.setEnt .internalNl),(16,.cb)],0,0⟩,⟨45,17179869184,[],[(15,.setEnt .internalNl),(16,.cb)],0,0⟩],[⟨35,4951760157141521099596496896,[],[(15,.setEnt .internalNl),(16,.cb)],0,0⟩,⟨41,4294967808,[],[(15,.setEnt .internalNl),(16,.cb)],0,0⟩,⟨42,115792089237316195423570985008687907853269984665635612279300442486792058306047,[],[(15,.setEnt .internalNl),(16,.cb),(17,.code)],0,0⟩,⟨43,4951760157141521099596496896,[],[(15,.setEnt .internalNl),(16,.cb)],0,0⟩,⟨45,17179869184,[],[(15,.setEnt .internalNl),(16,.cb)],0,0⟩],[⟨35,4951760157141521099596496896,[],[],0,0⟩,⟨41,4294967808,[],[],0,0⟩,⟨42,115792089237316195423570985008687907853269984665635612279300442486792058306047,[],[(17,.code)],0,0⟩,⟨43,4951760157141521099596496896,[],[],0,0⟩,⟨45,17179869184,[],[],0,0⟩],[⟨35,4951760157141521099596496896,[],[],0,0⟩,⟨41,4294967808,[],[],0,0⟩,⟨42,115792089237316195423570985008687907853269984665635612279300442486792058306047,[],[(17,.code)],0,0⟩,⟨43,4951760157141521099596496896,[],[],0,0⟩,⟨45,17179869184,[],[],0,0⟩],[⟨44,115792089237316195423570985008687907853269984665640564039457584007913129626623,[],[(18,.code)],0,0⟩],[⟨35,4951760157141521099596496896,[],[],0,0⟩,⟨41,4294967808,[],[],0,0⟩,⟨42,115792089237316195423570985008687907853269984665635612279300442486792058306047,[],[(17,.code)],0,0⟩,⟨43,4951760157141521099596496896,[],[],0,0⟩,⟨45,17179869184,[],[],0,0⟩],[],[⟨47,1024,[],[(19,.setEnt .newline)],0,0⟩],[],[],[],[],[]],[some (0,[]),none,some (1,[]),none,none,some (1,[(2,.setEnt .internalNl),(3,.cb)]),some (1,[(2,.setEnt .internalNl),(3,.cb)]),some (1,[(2,.setEnt .internalNl),(3,.cb)]),some (1,[(2,.setEnt .internalNl),(3,.cb)]),some (1,[]),some (1,[]),none,none,none,none,none,none,none,none,none,none,some (1,[]),none,none,none,none,none,none,none,none,none,none,none,some (2,[]),none,none,none,none,none,none,none,none,none,none,none,some (2,[]),none,some (3,[]),some (3,[]),some (3,[]),some (3,[]),some (4,[])],[1,9,19,20,21]⟩
theorem golang_line_nfa_eq : Golang.golang_line.nfa = golang_line_nfa := by decide +kernel
/-- The machine of `Golang.golang_line`, with its automaton as a literal. -/
def golang_line_M : Machine := ⟨golang_line_nfa, Golang.golang_line.ends, Golang.golang_line.sw⟩
theorem golang_line_M_eq : Golang.golang_line.machine = golang_line_M := by
  unfold Scanner.machine golang_line_M; rw [golang_line_nfa_eq]
def golang_line_masks : List Nat := [4294967808,140737488355328,549755813888,17179869184,8192,1024,4096,115792089237316195423570985008687907853269984665640564039457584007908834656767,4951760157141521099596496896,115792089237316195423570985008687907853269984665640564039457584007908834658815,4398046511104,115792089237316195423570985008687907853269984665635612279300442486259482361343,115792089237316195423570985008687907853269984665640564039457584007913129626623,115792089237316195423570985008687907853269984665635612279300442486792058306047]
def golang_line_cs : List (Nat × Nat) := [(0,115792089237316195423570985008687907853269984665635612279300442341106767610367),(9,4294967808),(10,1024),(11,2048),(12,4096),(13,8192),(34,17179869184),(39,549755813888),(42,4398046511104),(47,140737488355328),(92,4951760157141521099596496896)]
theorem golang_line_masksIn : masksIn golang_line_nfa golang_line_masks = true := by decide +kernel
theorem golang_line_repOk : repOk golang_line_masks golang_line_cs = true := by decide +kernel
def golang_line_rows : List Row := [⟨[],none,[],[⟨256,.other,false,some ⟨0,[.setEnt (.own 8)],some 4,true⟩⟩,⟨256,.ws,false,some ⟨1,[.setEnt (.own 0)],some 0,false⟩⟩,⟨256,.lf,false,some ⟨0,[.setEnt .newline],some 3,true⟩⟩,⟨256,.vt,false,none⟩,⟨256,.ff,false,some ⟨0,[.setEnt .newline],some 3,true⟩⟩,⟨256,.cr,false,some ⟨2,[.setEnt .newline],none,false⟩⟩,⟨256,.cr,true,some ⟨3,[.setEnt .newline],some 3,false⟩⟩,⟨256,.other,false,some ⟨4,[.code,.setEnt (.own 8)],some 4,false⟩⟩,⟨256,.other,false,some ⟨5,[.code,.setEnt (.own 8)],some 4,false⟩⟩,⟨256,.other,false,some ⟨6,[.setEnt (.own 8)],some 4,false⟩⟩]⟩,⟨[0],some 0,[],[⟨256,.other,false,none⟩,⟨256,.ws,false,some ⟨1,[.setEnt (.own 0)],some 0,false⟩⟩,⟨256,.lf,false,none⟩,⟨256,.vt,false,none⟩,⟨256,.ff,false,none⟩,⟨256,.cr,false,none⟩,⟨256,.cr,true,none⟩]⟩,⟨[46],none,[],[⟨256,.other,false,none⟩,⟨256,.ws,false,none⟩,⟨256,.lf,false,some ⟨0,[.setEnt .newline],some 3,true⟩⟩,⟨256,.vt,false,none⟩,⟨256,.ff,false,none⟩,⟨256,.cr,false,none⟩,⟨256,.cr,true,none⟩]⟩,⟨[46,50],some 3,[],[⟨256,.other,false,none⟩,⟨256,.ws,false,none⟩,⟨256,.lf,false,some ⟨0,[.setEnt .newline],some 3,true⟩⟩,⟨256,.vt,false,none⟩,⟨256,.ff,false,none⟩,⟨256,.cr,false,none⟩,⟨256,.cr,true,none⟩]⟩,⟨[34,51],some 4,[],[⟨256,.other,false,some ⟨7,[.code],none,false⟩⟩,⟨256,.ws,false,some ⟨8,[],none,false⟩⟩,⟨256,.lf,false,some ⟨7,[.code],none,false⟩⟩,⟨256,.vt,false,some ⟨7,[.code],none,false⟩⟩,⟨256,.ff,false,some ⟨7,[.code],none,false⟩⟩,⟨256,.cr,false,some ⟨7,[.code],none,false⟩⟩,⟨256,.cr,true,some ⟨7,[.code],none,false⟩⟩,⟨256,.other,false,some ⟨0,[],some 2,true⟩⟩,⟨256,.other,false,some ⟨9,[],none,false⟩⟩]⟩,⟨[22,51],some 4,[],[⟨256,.other,false,some ⟨10,[.code],none,false⟩⟩,⟨256,.ws,false,some ⟨11,[],none,false⟩⟩,⟨256,.lf,false,some ⟨10,[.code],none,false⟩⟩,⟨256,.vt,false,some ⟨10,[.code],none,false⟩⟩,⟨256,.ff,false,some ⟨10,[.code],none,false⟩⟩,⟨256,.cr,false,some ⟨10,[.code],none,false⟩⟩,⟨256,.cr,true,some ⟨10,[.code],none,false⟩⟩,⟨256,.other,false,some ⟨0,[],some 2,true⟩⟩,⟨256,.other,false,some ⟨12,[],none,false⟩⟩]⟩,⟨[1,11,51],some 4,[],[⟨256,.other,false,none⟩,⟨256,.ws,false,none⟩,⟨256,.lf,false,none⟩,⟨256,.vt,false,none⟩,⟨256,.ff,false,none⟩,⟨256,.cr,false,none⟩,⟨256,.cr,true,none⟩,⟨256,.other,false,some ⟨13,[.comment],none,false⟩⟩,⟨256,.other,false,some ⟨14,[.comment],some 1,false⟩⟩]⟩,⟨[42],none,[],[⟨256,.other,false,some ⟨7,[.code],none,false⟩⟩,⟨256,.ws,false,some ⟨8,[],none,false⟩⟩,⟨256,.lf,false,some ⟨7,[.code],none,false⟩⟩,⟨256,.vt,false,some ⟨7,[.code],none,false⟩⟩,⟨256,.ff,false,some ⟨7,[.code],none,false⟩⟩,⟨256,.cr,false,some ⟨7,[.code],none,false⟩⟩,⟨256,.cr,true,some ⟨7,[.code],none,false⟩⟩,⟨256,.other,false,some ⟨0,[],some 2,true⟩⟩,⟨256,.other,false,some ⟨9,[],none,false⟩⟩]⟩,⟨[41],none,[],[⟨256,.other,false,some ⟨7,[.code],none,false⟩⟩,⟨256,.ws,false,some ⟨8,[],none,false⟩⟩,⟨256,.lf,false,some ⟨7,[.code],none,false⟩⟩,⟨256,.vt,false,some ⟨7,[.code],none,false⟩⟩,⟨256,.ff,false,some ⟨7,[.code],none,false⟩⟩,⟨256,.cr,false,some ⟨7,[.code],none,false⟩⟩,⟨256,.cr,true,some ⟨7,[.code],none,false⟩⟩,⟨256,.other,false,some ⟨0,[],some 2,true⟩⟩,⟨256,.other,false,some ⟨9,[],none,false⟩⟩]⟩,⟨[35,43],none,[],[⟨256,.other,false,some ⟨15,[.code],none,false⟩⟩,⟨256,.ws,false,some ⟨15,[.code],none,false⟩⟩,⟨256,.lf,false,some ⟨16,[],none,false⟩⟩,⟨256,.vt,false,some ⟨15,[.code],none,false⟩⟩,⟨256,.ff,false,some ⟨17,[],none,false⟩⟩,⟨256,.cr,false,some ⟨18,[],none,false⟩⟩,⟨256,.cr,true,some ⟨19,[],none,false⟩⟩]⟩,⟨[30],none,[],[⟨256,.other,false,some ⟨10,[.code],none,false⟩⟩,⟨256,.ws,false,some ⟨11,[],none,false⟩⟩,⟨256,.lf,false,some ⟨10,[.code],none,false⟩⟩,⟨256,.vt,false,some ⟨10,[.code],none,false⟩⟩,⟨256,.ff,false,some ⟨10,[.code],none,false⟩⟩,⟨256,.cr,false,some ⟨10,[.code],none,false⟩⟩,⟨256,.cr,true,some ⟨10,[.code],none,false⟩⟩,⟨256,.other,false,some ⟨0,[],some 2,true⟩⟩,⟨256,.other,false,some ⟨12,[],none,false⟩⟩]⟩,⟨[29],none,[],[⟨256,.other,false,some ⟨10,[.code],none,false⟩⟩,⟨256,.ws,false,some ⟨11,[],none,false⟩⟩,⟨256,.lf,false,some ⟨10,[.code],none,false⟩⟩,⟨256,.vt,false,some ⟨10,[.code],none,false⟩⟩,⟨256,.ff,false,some ⟨10,[.code],none,false⟩⟩,⟨256,.cr,false,some ⟨10,[.code],none,false⟩⟩,⟨256,.cr,true,some ⟨10,[.code],none,false⟩⟩,⟨256,.other,false,some ⟨0,[],some 2,true⟩⟩,⟨256,.other,false,some ⟨12,[],none,false⟩⟩]⟩,⟨[23,31],none,[],[⟨256,.other,false,some ⟨20,[.code],none,false⟩⟩,⟨256,.ws,false,some ⟨20,[.code],none,false⟩⟩,⟨256,.lf,false,some ⟨21,[],none,false⟩⟩,⟨256,.vt,false,some ⟨20,[.code],none,false⟩⟩,⟨256,.ff,false,some ⟨22,[],none,false⟩⟩,⟨256,.cr,false,some ⟨23,[],none,false⟩⟩,⟨256,.cr,true,some ⟨24,[],none,false⟩⟩]⟩,⟨[12],none,[],[⟨256,.other,false,some ⟨25,[.comment],none,false⟩⟩,⟨256,.ws,false,some ⟨26,[],none,false⟩⟩,⟨256,.lf,false,some ⟨27,[],none,false⟩⟩,⟨256,.vt,false,some ⟨25,[.comment],none,false⟩⟩,⟨256,.ff,false,some ⟨28,[],none,false⟩⟩,⟨256,.cr,false,some ⟨29,[],none,false⟩⟩,⟨256,.cr,true,some ⟨30,[],none,false⟩⟩,⟨256,.other,false,some ⟨31,[.comment],none,false⟩⟩]⟩,⟨[2],some 1,[],[⟨256,.other,false,some ⟨32,[.comment],some 1,false⟩⟩,⟨256,.ws,false,some ⟨33,[],some 1,false⟩⟩,⟨256,.lf,false,none⟩,⟨256,.vt,false,some ⟨32,[.comment],some 1,false⟩⟩,⟨256,.ff,false,none⟩,⟨256,.cr,false,none⟩,⟨256,.cr,true,none⟩,⟨256,.other,false,some ⟨34,[.comment],some 1,false⟩⟩]⟩,⟨[44],none,[],[⟨256,.other,false,some ⟨7,[.code],none,false⟩⟩,⟨256,.ws,false,some ⟨8,[],none,false⟩⟩,⟨256,.lf,false,some ⟨7,[.code],none,false⟩⟩,⟨256,.vt,false,some ⟨7,[.code],none,false⟩⟩,⟨256,.ff,false,some ⟨7,[.code],none,false⟩⟩,⟨256,.cr,false,some ⟨7,[.code],none,false⟩⟩,⟨256,.cr,true,some ⟨7,[.code],none,false⟩⟩,⟨256,.other,false,some ⟨0,[],some 2,true⟩⟩,⟨256,.other,false,some ⟨9,[],none,false⟩⟩]⟩,⟨[38],none,[],[⟨256,.other,false,some ⟨7,[.setEnt .internalNl,.cb,.code],none,false⟩⟩,⟨256,.ws,false,some ⟨8,[.setEnt .internalNl,.cb],none,false⟩⟩,⟨256,.lf,false,some ⟨7,[.setEnt .internalNl,.cb,.code],none,false⟩⟩,⟨256,.vt,false,some ⟨7,[.setEnt .internalNl,.cb,.code],none,false⟩⟩,⟨256,.ff,false,some ⟨7,[.setEnt .internalNl,.cb,.code],none,false⟩⟩,⟨256,.cr,false,some ⟨7,[.setEnt .internalNl,.cb,.code],none,false⟩⟩,⟨256,.cr,true,some ⟨7,[.setEnt .internalNl,.cb,.code],none,false⟩⟩,⟨256,.other,false,some ⟨0,[.setEnt .internalNl,.cb],some 2,true⟩⟩,⟨256,.other,false,some ⟨9,[.setEnt .internalNl,.cb],none,false⟩⟩]⟩,⟨[39],none,[],[⟨256,.other,false,some ⟨7,[.setEnt .internalNl,.cb,.code],none,false⟩⟩,⟨256,.ws,false,some ⟨8,[.setEnt .internalNl,.cb],none,false⟩⟩,⟨256,.lf,false,some ⟨7,[.setEnt .internalNl,.cb,.code],none,false⟩⟩,⟨256,.vt,false,some ⟨7,[.setEnt .internalNl,.cb,.code],none,false⟩⟩,⟨256,.ff,false,some ⟨7,[.setEnt .internalNl,.cb,.code],none,false⟩⟩,⟨256,.cr,false,some ⟨7,[.setEnt .internalNl,.cb,.code],none,false⟩⟩,⟨256,.cr,true,some ⟨7,[.setEnt .internalNl,.cb,.code],none,false⟩⟩,⟨256,.other,false,some ⟨0,[.setEnt .internalNl,.cb],some 2,true⟩⟩,⟨256,.other,false,some ⟨9,[.setEnt .internalNl,.cb],none,false⟩⟩]⟩,⟨[36],none,[],[⟨256,.other,false,none⟩,⟨256,.ws,false,none⟩,⟨256,.lf,false,some ⟨35,[],none,false⟩⟩,⟨256,.vt,false,none⟩,⟨256,.ff,false,none⟩,⟨256,.cr,false,none⟩,⟨256,.cr,true,none⟩]⟩,⟨[36,40],none,[],[⟨256,.other,false,some ⟨7,[.setEnt .internalNl,.cb,.code],none,false⟩⟩,⟨256,.ws,false,some ⟨8,[.setEnt .internalNl,.cb],none,false⟩⟩,⟨256,.lf,false,some ⟨36,[.setEnt .internalNl,.cb,.code],none,false⟩⟩,⟨256,.vt,false,some ⟨7,[.setEnt .internalNl,.cb,.code],none,false⟩⟩,⟨256,.ff,false,some ⟨7,[.setEnt .internalNl,.cb,.code],none,false⟩⟩,⟨256,.cr,false,some ⟨7,[.setEnt .internalNl,.cb,.code],none,false⟩⟩,⟨256,.cr,true,some ⟨7,[.setEnt .internalNl,.cb,.code],none,false⟩⟩,⟨256,.other,false,some ⟨0,[.setEnt .internalNl,.cb],some 2,true⟩⟩,⟨256,.other,false,some ⟨9,[.setEnt .internalNl,.cb],none,false⟩⟩]⟩,⟨[32],none,[],[⟨256,.other,false,some ⟨10,[.code],none,false⟩⟩,⟨256,.ws,false,some ⟨11,[],none,false⟩⟩,⟨256,.lf,false,some ⟨10,[.code],none,false⟩⟩,⟨256,.vt,false,some ⟨10,[.code],none,false⟩⟩,⟨256,.ff,false,some ⟨10,[.code],none,false⟩⟩,⟨256,.cr,false,some ⟨10,[.code],none,false⟩⟩,⟨256,.cr,true,some ⟨10,[.code],none,false⟩⟩,⟨256,.other,false,some ⟨0,[],some 2,true⟩⟩,⟨256,.other,false,some ⟨12,[],none,false⟩⟩]⟩,⟨[26],none,[],[⟨256,.other,false,some ⟨10,[.setEnt .internalNl,.cb,.code],none,false⟩⟩,⟨256,.ws,false,some ⟨11,[.setEnt .internalNl,.cb],none,false⟩⟩,⟨256,.lf,false,some ⟨10,[.setEnt .internalNl,.cb,.code],none,false⟩⟩,⟨256,.vt,false,some ⟨10,[.setEnt .internalNl,.cb,.code],none,false⟩⟩,⟨256,.ff,false,some ⟨10,[.setEnt .internalNl,.cb,.code],none,false⟩⟩,⟨256,.cr,false,some ⟨10,[.setEnt .internalNl,.cb,.code],none,false⟩⟩,⟨256,.cr,true,some ⟨10,[.setEnt .internalNl,.cb,.code],none,false⟩⟩,⟨256,.other,false,some ⟨0,[.setEnt .internalNl,.cb],some 2,true⟩⟩,⟨256,.other,false,some ⟨12,[.setEnt .internalNl,.cb],none,false⟩⟩]⟩,⟨[27],none,[],[⟨256,.other,false,some ⟨10,[.setEnt .internalNl,.cb,.code],none,false⟩⟩,⟨256,.ws,false,some ⟨11,[.setEnt .internalNl,.cb],none,false⟩⟩,⟨256,.lf,false,some ⟨10,[.setEnt .internalNl,.cb,.code],none,false⟩⟩,⟨256,.vt,false,some ⟨10,[.setEnt .internalNl,.cb,.code],none,false⟩⟩,⟨256,.ff,false,some ⟨10,[.setEnt .internalNl,.cb,.code],none,false⟩⟩,⟨256,.cr,false,some ⟨10,[.setEnt .internalNl,.cb,.code],none,false⟩⟩,⟨256,.cr,true,some ⟨10,[.setEnt .internalNl,.cb,.code],none,false⟩⟩,⟨256,.other,false,some ⟨0,[.setEnt .internalNl,.cb],some 2,true⟩⟩,⟨256,.other,false,some ⟨12,[.setEnt .internalNl,.cb],none,false⟩⟩]⟩,⟨[24],none,[],[⟨256,.other,false,none⟩,⟨256,.ws,false,none⟩,⟨256,.lf,false,some ⟨37,[],none,false⟩⟩,⟨256,.vt,false,none⟩,⟨256,.ff,false,none⟩,⟨256,.cr,false,none⟩,⟨256,.cr,true,none⟩]⟩,⟨[24,28],none,[],[⟨256,.other,false,some ⟨10,[.setEnt .internalNl,.cb,.code],none,false⟩⟩,⟨256,.ws,false,some ⟨11,[.setEnt .internalNl,.cb],none,false⟩⟩,⟨256,.lf,false,some ⟨38,[.setEnt .internalNl,.cb,.code],none,false⟩⟩,⟨256,.vt,false,some ⟨10,[.setEnt .internalNl,.cb,.code],none,false⟩⟩,⟨256,.ff,false,some ⟨10,[.setEnt .internalNl,.cb,.code],none,false⟩⟩,⟨256,.cr,false,some ⟨10,[.setEnt .internalNl,.cb,.code],none,false⟩⟩,⟨256,.cr,true,some ⟨10,[.setEnt .internalNl,.cb,.code],none,false⟩⟩,⟨256,.other,false,some ⟨0,[.setEnt .internalNl,.cb],some 2,true⟩⟩,⟨256,.other,false,some ⟨12,[.setEnt .internalNl,.cb],none,false⟩⟩]⟩,⟨[19],none,[],[⟨256,.other,false,some ⟨25,[.comment],none,false⟩⟩,⟨256,.ws,false,some ⟨26,[],none,false⟩⟩,⟨256,.lf,false,some ⟨27,[],none,false⟩⟩,⟨256,.vt,false,some ⟨25,[.comment],none,false⟩⟩,⟨256,.ff,false,some ⟨28,[],none,false⟩⟩,⟨256,.cr,false,some ⟨29,[],none,false⟩⟩,⟨256,.cr,true,some ⟨30,[],none,false⟩⟩,⟨256,.other,false,some ⟨31,[.comment],none,false⟩⟩]⟩,⟨[18],none,[],[⟨256,.other,false,some ⟨25,[.comment],none,false⟩⟩,⟨256,.ws,false,some ⟨26,[],none,false⟩⟩,⟨256,.lf,false,some ⟨27,[],none,false⟩⟩,⟨256,.vt,false,some ⟨25,[.comment],none,false⟩⟩,⟨256,.ff,false,some ⟨28,[],none,false⟩⟩,⟨256,.cr,false,some ⟨29,[],none,false⟩⟩,⟨256,.cr,true,some ⟨30,[],none,false⟩⟩,⟨256,.other,false,some ⟨31,[.comment],none,false⟩⟩]⟩,⟨[15],none,[],[⟨256,.other,false,some ⟨25,[.setEnt .internalNl,.cb,.comment],none,false⟩⟩,⟨256,.ws,false,some ⟨26,[.setEnt .internalNl,.cb],none,false⟩⟩,⟨256,.lf,false,some ⟨27,[.setEnt .internalNl,.cb],none,false⟩⟩,⟨256,.vt,false,some ⟨25,[.setEnt .internalNl,.cb,.comment],none,false⟩⟩,⟨256,.ff,false,some ⟨28,[.setEnt .internalNl,.cb],none,false⟩⟩,⟨256,.cr,false,some ⟨29,[.setEnt .internalNl,.cb],none,false⟩⟩,⟨256,.cr,true,some ⟨30,[.setEnt .internalNl,.cb],none,false⟩⟩,⟨256,.other,false,some ⟨31,[.setEnt .internalNl,.cb,.comment],none,false⟩⟩]⟩,⟨[16],none,[],[⟨256,.other,false,some ⟨25,[.setEnt .internalNl,.cb,.comment],none,false⟩⟩,⟨256,.ws,false,some ⟨26,[.setEnt .internalNl,.cb],none,false⟩⟩,⟨256,.lf,false,some ⟨27,[.setEnt .internalNl,.cb],none,false⟩⟩,⟨256,.vt,false,some ⟨25,[.setEnt .internalNl,.cb,.comment],none,false⟩⟩,⟨256,.ff,false,some ⟨28,[.setEnt .internalNl,.cb],none,false⟩⟩,⟨256,.cr,false,some ⟨29,[.setEnt .internalNl,.cb],none,false⟩⟩,⟨256,.cr,true,some ⟨30,[.setEnt .internalNl,.cb],none,false⟩⟩,⟨256,.other,false,some ⟨31,[.setEnt .internalNl,.cb,.comment],none,false⟩⟩]⟩,⟨[13],none,[],[⟨256,.other,false,none⟩,⟨256,.ws,false,none⟩,⟨256,.lf,false,some ⟨39,[],none,false⟩⟩,⟨256,.vt,false,none⟩,⟨256,.ff,false,none⟩,⟨256,.cr,false,none⟩,⟨256,.cr,true,none⟩]⟩,⟨[13,17],none,[],[⟨256,.other,false,some ⟨25,[.setEnt .internalNl,.cb,.comment],none,false⟩⟩,⟨256,.ws,false,some ⟨26,[.setEnt .internalNl,.cb],none,false⟩⟩,⟨256,.lf,false,some ⟨40,[.setEnt .internalNl,.cb],none,false⟩⟩,⟨256,.vt,false,some ⟨25,[.setEnt .internalNl,.cb,.comment],none,false⟩⟩,⟨256,.ff,false,some ⟨28,[.setEnt .internalNl,.cb],none,false⟩⟩,⟨256,.cr,false,some ⟨29,[.setEnt .internalNl,.cb],none,false⟩⟩,⟨256,.cr,true,some ⟨30,[.setEnt .internalNl,.cb],none,false⟩⟩,⟨256,.other,false,some ⟨31,[.setEnt .internalNl,.cb,.comment],none,false⟩⟩]⟩,⟨[19,20],none,[],[⟨256,.other,false,some ⟨25,[.comment],none,false⟩⟩,⟨256,.ws,false,some ⟨26,[],none,false⟩⟩,⟨256,.lf,false,some ⟨27,[],none,false⟩⟩,⟨256,.vt,false,some ⟨25,[.comment],none,false⟩⟩,⟨256,.ff,false,some ⟨28,[],none,false⟩⟩,⟨256,.cr,false,some ⟨29,[],none,false⟩⟩,⟨256,.cr,true,some ⟨30,[],none,false⟩⟩,⟨256,.other,false,some ⟨31,[.comment],none,false⟩⟩,⟨256,.other,false,some ⟨0,[],some 1,true⟩⟩]⟩,⟨[10],some 1,[],[⟨256,.other,false,some ⟨32,[.comment],some 1,false⟩⟩,⟨256,.ws,false,some ⟨33,[],some 1,false⟩⟩,⟨256,.lf,false,none⟩,⟨256,.vt,false,some ⟨32,[.comment],some 1,false⟩⟩,⟨256,.ff,false,none⟩,⟨256,.cr,false,none⟩,⟨256,.cr,true,none⟩,⟨256,.other,false,some ⟨34,[.comment],some 1,false⟩⟩]⟩,⟨[9],some 1,[],[⟨256,.other,false,some ⟨32,[.comment],some 1,false⟩⟩,⟨256,.ws,false,some ⟨33,[],some 1,false⟩⟩,⟨256,.lf,false,none⟩,⟨256,.vt,false,some ⟨32,[.comment],some 1,false⟩⟩,⟨256,.ff,false,none⟩,⟨256,.cr,false,none⟩,⟨256,.cr,true,none⟩,⟨256,.other,false,some ⟨34,[.comment],some 1,false⟩⟩]⟩,⟨[3,10],some 1,[],[⟨256,.other,false,some ⟨32,[.comment],some 1,false⟩⟩,⟨256,.ws,false,some ⟨33,[],some 1,false⟩⟩,⟨256,.lf,false,some ⟨41,[],some 1,false⟩⟩,⟨256,.vt,false,some ⟨32,[.comment],some 1,false⟩⟩,⟨256,.ff,false,some ⟨42,[],some 1,false⟩⟩,⟨256,.cr,false,some ⟨43,[],none,false⟩⟩,⟨256,.cr,true,some ⟨44,[],some 1,false⟩⟩,⟨256,.other,false,some ⟨34,[.comment],some 1,false⟩⟩]⟩,⟨[37],none,[],[⟨256,.other,false,some ⟨7,[.setEnt .internalNl,.cb,.code],none,false⟩⟩,⟨256,.ws,false,some ⟨8,[.setEnt .internalNl,.cb],none,false⟩⟩,⟨256,.lf,false,some ⟨7,[.setEnt .internalNl,.cb,.code],none,false⟩⟩,⟨256,.vt,false,some ⟨7,[.setEnt .internalNl,.cb,.code],none,false⟩⟩,⟨256,.ff,false,some ⟨7,[.setEnt .internalNl,.cb,.code],none,false⟩⟩,⟨256,.cr,false,some ⟨7,[.setEnt .internalNl,.cb,.code],none,false⟩⟩,⟨256,.cr,true,some ⟨7,[.setEnt .internalNl,.cb,.code],none,false⟩⟩,⟨256,.other,false,some ⟨0,[.setEnt .internalNl,.cb],some 2,true⟩⟩,⟨256,.other,false,some ⟨9,[.setEnt .internalNl,.cb],none,false⟩⟩]⟩,⟨[37,42],none,[],[⟨256,.other,false,some ⟨7,[.setEnt .internalNl,.cb,.code],none,false⟩⟩,⟨256,.ws,false,some ⟨8,[.setEnt .internalNl,.cb],none,false⟩⟩,⟨256,.lf,false,some ⟨7,[.setEnt .internalNl,.cb,.code],none,false⟩⟩,⟨256,.vt,false,some ⟨7,[.setEnt .internalNl,.cb,.code],none,false⟩⟩,⟨256,.ff,false,some ⟨7,[.setEnt .internalNl,.cb,.code],none,false⟩⟩,⟨256,.cr,false,some ⟨7,[.setEnt .internalNl,.cb,.code],none,false⟩⟩,⟨256,.cr,true,some ⟨7,[.setEnt .internalNl,.cb,.code],none,false⟩⟩,⟨256,.other,false,some ⟨0,[.setEnt .internalNl,.cb],some 2,true⟩⟩,⟨256,.other,false,some ⟨9,[.setEnt .internalNl,.cb],none,false⟩⟩]⟩,⟨[25],none,[],[⟨256,.other,false,some ⟨10,[.setEnt .internalNl,.cb,.code],none,false⟩⟩,⟨256,.ws,false,some ⟨11,[.setEnt .internalNl,.cb],none,false⟩⟩,⟨256,.lf,false,some ⟨10,[.setEnt .internalNl,.cb,.code],none,false⟩⟩,⟨256,.vt,false,some ⟨10,[.setEnt .internalNl,.cb,.code],none,false⟩⟩,⟨256,.ff,false,some ⟨10,[.setEnt .internalNl,.cb,.code],none,false⟩⟩,⟨256,.cr,false,some ⟨10,[.setEnt .internalNl,.cb,.code],none,false⟩⟩,⟨256,.cr,true,some ⟨10,[.setEnt .internalNl,.cb,.code],none,false⟩⟩,⟨256,.other,false,some ⟨0,[.setEnt .internalNl,.cb],some 2,true⟩⟩,⟨256,.other,false,some ⟨12,[.setEnt .internalNl,.cb],none,false⟩⟩]⟩,⟨[25,30],none,[],[⟨256,.other,false,some ⟨10,[.setEnt .internalNl,.cb,.code],none,false⟩⟩,⟨256,.ws,false,some ⟨11,[.setEnt .internalNl,.cb],none,false⟩⟩,⟨256,.lf,false,some ⟨10,[.setEnt .internalNl,.cb,.code],none,false⟩⟩,⟨256,.vt,false,some ⟨10,[.setEnt .internalNl,.cb,.code],none,false⟩⟩,⟨256,.ff,false,some ⟨10,[.setEnt .internalNl,.cb,.code],none,false⟩⟩,⟨256,.cr,false,some ⟨10,[.setEnt .internalNl,.cb,.code],none,false⟩⟩,⟨256,.cr,true,some ⟨10,[.setEnt .internalNl,.cb,.code],none,false⟩⟩,⟨256,.other,false,some ⟨0,[.setEnt .internalNl,.cb],some 2,true⟩⟩,⟨256,.other,false,some ⟨12,[.setEnt .internalNl,.cb],none,false⟩⟩]⟩,⟨[14],none,[],[⟨256,.other,false,some ⟨25,[.setEnt .internalNl,.cb,.comment],none,false⟩⟩,⟨256,.ws,false,some ⟨26,[.setEnt .internalNl,.cb],none,false⟩⟩,⟨256,.lf,false,some ⟨27,[.setEnt .internalNl,.cb],none,false⟩⟩,⟨256,.vt,false,some ⟨25,[.setEnt .internalNl,.cb,.comment],none,false⟩⟩,⟨256,.ff,false,some ⟨28,[.setEnt .internalNl,.cb],none,false⟩⟩,⟨256,.cr,false,some ⟨29,[.setEnt .internalNl,.cb],none,false⟩⟩,⟨256,.cr,true,some ⟨30,[.setEnt .internalNl,.cb],none,false⟩⟩,⟨256,.other,false,some ⟨31,[.setEnt .internalNl,.cb,.comment],none,false⟩⟩]⟩,⟨[14,15],none,[],[⟨256,.other,false,some ⟨25,[.setEnt .internalNl,.cb,.comment],none,false⟩⟩,⟨256,.ws,false,some ⟨26,[.setEnt .internalNl,.cb],none,false⟩⟩,⟨256,.lf,false,some ⟨27,[.setEnt .internalNl,.cb],none,false⟩⟩,⟨256,.vt,false,some ⟨25,[.setEnt .internalNl,.cb,.comment],none,false⟩⟩,⟨256,.ff,false,some ⟨28,[.setEnt .internalNl,.cb],none,false⟩⟩,⟨256,.cr,false,some ⟨29,[.setEnt .internalNl,.cb],none,false⟩⟩,⟨256,.cr,true,some ⟨30,[.setEnt .internalNl,.cb],none,false⟩⟩,⟨256,.other,false,some ⟨31,[.setEnt .internalNl,.cb,.comment],none,false⟩⟩]⟩,⟨[6],some 1,[.setEnt .internalNl,.cb],[⟨256,.other,false,some ⟨32,[.setEnt .internalNl,.cb,.comment],some 1,false⟩⟩,⟨256,.ws,false,some ⟨33,[.setEnt .internalNl,.cb],some 1,false⟩⟩,⟨256,.lf,false,none⟩,⟨256,.vt,false,some ⟨32,[.setEnt .internalNl,.cb,.comment],some 1,false⟩⟩,⟨256,.ff,false,none⟩,⟨256,.cr,false,none⟩,⟨256,.cr,true,none⟩,⟨256,.other,false,some ⟨34,[.setEnt .internalNl,.cb,.comment],some 1,false⟩⟩]⟩,⟨[7],some 1,[.setEnt .internalNl,.cb],[⟨256,.other,false,some ⟨32,[.setEnt .internalNl,.cb,.comment],some 1,false⟩⟩,⟨256,.ws,false,some ⟨33,[.setEnt .internalNl,.cb],some 1,false⟩⟩,⟨256,.lf,false,none⟩,⟨256,.vt,false,some ⟨32,[.setEnt .internalNl,.cb,.comment],some 1,false⟩⟩,⟨256,.ff,false,none⟩,⟨256,.cr,false,none⟩,⟨256,.cr,true,none⟩,⟨256,.other,false,some ⟨34,[.setEnt .internalNl,.cb,.comment],some 1,false⟩⟩]⟩,⟨[4],none,[],[⟨256,.other,false,none⟩,⟨256,.ws,false,none⟩,⟨256,.lf,false,some ⟨45,[],some 1,false⟩⟩,⟨256,.vt,false,none⟩,⟨256,.ff,false,none⟩,⟨256,.cr,false,none⟩,⟨256,.cr,true,none⟩]⟩,⟨[4,8],some 1,[.setEnt .internalNl,.cb],[⟨256,.other,false,some ⟨32,[.setEnt .internalNl,.cb,.comment],some 1,false⟩⟩,⟨256,.ws,false,some ⟨33,[.setEnt .internalNl,.cb],some 1,false⟩⟩,⟨256,.lf,false,some ⟨45,[],some 1,false⟩⟩,⟨256,.vt,false,some ⟨32,[.setEnt .internalNl,.cb,.comment],some 1,false⟩⟩,⟨256,.ff,false,none⟩,⟨256,.cr,false,none⟩,⟨256,.cr,true,none⟩,⟨256,.other,false,some ⟨34,[.setEnt .internalNl,.cb,.comment],some 1,false⟩⟩]⟩,⟨[5],some 1,[.setEnt .internalNl,.cb],[⟨256,.other,false,some ⟨32,[.setEnt .internalNl,.cb,.comment],some 1,false⟩⟩,⟨256,.ws,false,some ⟨33,[.setEnt .internalNl,.cb],some 1,false⟩⟩,⟨256,.lf,false,none⟩,⟨256,.vt,false,some ⟨32,[.setEnt .internalNl,.cb,.comment],some 1,false⟩⟩,⟨256,.ff,false,none⟩,⟨256,.cr,false,none⟩,⟨256,.cr,true,none⟩,⟨256,.other,false,some ⟨34,[.setEnt .internalNl,.cb,.comment],some 1,false⟩⟩]⟩]
theorem golang_line_rowsOk : rowsOk golang_line_nfa [] (golang_line_cs.map (·.1)) golang_line_rows = true := by decide +kernel
def golang_line_D : Dfa golang_line_M.nfa := ⟨golang_line_masks, [], golang_line_cs, golang_line_rows, golang_line_masksIn, golang_line_repOk, golang_line_rowsOk⟩

def haskell_line_nfa : Nfa := ⟨[⟨0,4294967808,[],[(0,.setEnt (.own 0))],0,0⟩,⟨1,35184372088832,[],[],0,0⟩,⟨5,10633823966279326983230456482242756608,[],[(3,.nestRes)],0,2⟩,⟨20,549755813888,[],[(13,.code)],0,0⟩,⟨25,17179869184,[],[(14,.code)],0,0⟩,⟨37,8192,[],[(19,.setEnt .newline)],0,0⟩,⟨39,1024,[],[(19,.setEnt .newline)],0,0⟩,⟨40,4096,[],[(19,.setEnt .newline)],0,0⟩,⟨41,8192,[.crAlone],[(19,.setEnt .newline)],0,0⟩,⟨42,115792089237316195423570985008687907853269984665640564039457584007908834656767,[],[(20,.setEnt (.own 3))],0,0⟩],[[⟨0,4294967808,[],[(0,.setEnt (.own 0))],0,0⟩],[⟨2,35184372088832,[],[],0,0⟩],[⟨3,115792089237316195423570985008687907853269984665640564039452972321894702252031,[],[(1,.fhold 0),(2,.comment)],0,0⟩],[⟨4,115792089237316195423570985008687907853269984665640564039457584007913129626623,[],[],0,0⟩],[⟨4,115792089237316195423570985008687907853269984665640564039457584007913129626623,[],[],0,0⟩],[⟨6,35184372088832,[],[(4,.comment)],0,2⟩],[⟨7,8192,[],[],0,2⟩,⟨9,1024,[],[],0,2⟩,⟨10,4096,[],[],0,2⟩,⟨11,8192,[.crAlone],[],0,2⟩,⟨12,4294967808,[],[],0,2⟩,⟨13,10633823966279326983230456482242756608,[],[],0,2⟩,⟨15,35184372088832,[],[],0,2⟩,⟨17,115792089237316195423570985008687907853269984665640564039457584007908834658815,[],[(11,.comment)],0,2⟩,⟨18,35184372088832,[.nestZero],[],0,2⟩],[⟨8,1024,[],[],0,2⟩],[⟨7,8192,[],[(5,.setEnt .internalNl),(6,.cb)],0,2⟩,⟨9,1024,[],[(5,.setEnt .internalNl),(6,.cb)],0,2⟩,⟨10,4096,[],[(5,.setEnt .internalNl),(6,.cb)],0,2⟩,⟨11,8192,[.crAlone],[(5,.setEnt .internalNl),(6,.cb)],0,2⟩,⟨12,4294967808,[],[(5,.setEnt .internalNl),(6,.cb)],0,2⟩,⟨13,10633823966279326983230456482242756608,[],[(5,.setEnt .internalNl),(6,.cb)],0,2⟩,⟨15,35184372088832,[],[(5,.setEnt .internalNl),(6,.cb)],0,2⟩,⟨17,115792089237316195423570985008687907853269984665640564039457584007908834658815,[],[(5,.setEnt .internalNl),(6,.cb),(11,.comment)],0,2⟩,⟨18,35184372088832,[.nestZero],[(5,.setEnt .internalNl),(6,.cb)],0,2⟩],[⟨7,8192,[],[(5,.setEnt .internalNl),(6,.cb)],0,2⟩,⟨9,1024,[],[(5,.setEnt .internalNl),(6,.cb)],0,2⟩,⟨10,4096,[],[(5,.setEnt .internalNl),(6,.cb)],0,2⟩,⟨11,8192,[.crAlone],[(5,.setEnt .internalNl),(6,.cb)],0,2⟩,⟨12,4294967808,[],[(5,.setEnt .internalNl),(6,.cb)],0,2⟩,⟨13,10633823966279326983230456482242756608,[],[(5,.setEnt .internalNl),(6,.cb)],0,2⟩,⟨15,35184372088832,[],[(5,.setEnt .internalNl),(6,.cb)],0,2⟩,⟨17,115792089237316195423570985008687907853269984665640564039457584007908834658815,[],[(5,.setEnt .internalNl),(6,.cb),(11,.comment)],0,2⟩,⟨18,35184372088832,[.nestZero],[(5,.setEnt .internalNl),(6,.cb)],0,2⟩],[⟨7,8192,[],[(5,.setEnt .internalNl),(6,.cb)],0,2⟩,⟨9,1024,[],[(5,.setEnt .internalNl),(6,.cb)],0,2⟩,⟨10,4096,[],[(5,.setEnt .internalNl),(6,.cb)],0,2⟩,⟨11,8192,[.crAlone],[(5,.setEnt .internalNl),(6,.cb)],0,2⟩,⟨12,4294967808,[],[(5,.setEnt .internalNl),(6,.cb)],0,2⟩,⟨13,10633823966279326983230456482242756608,[],[(5,.setEnt .internalNl),(6,.cb)],0,2⟩,⟨15,35184372088832,[],[(5,.setEnt .internalNl),(6,.cb)],0,2⟩,⟨17,115792089237316195423570985008687907853269984665640564039457584007908834658815,[],[(5,.setEnt .internalNl),(6,.cb),(11,.comment)],0,2⟩,⟨18,35184372088832,[.nestZero],[(5,.setEnt .internalNl),(6,.cb)],0,2⟩],[⟨7,8192,[],[(5,.setEnt .internalNl),(6,.cb)],0,2⟩,⟨9,1024,[],[(5,.setEnt .internalNl),(6,.cb)],0,2⟩,⟨10,4096,[],[(5,.setEnt .internalNl),(6,.cb)],0,2⟩,⟨11,8192,[.crAlone],[(5,.setEnt .internalNl),(6,.cb)],0,2⟩,⟨12,4294967808,[],[(5,.setEnt .internalNl),(6,.cb)],0,2⟩,⟨13,10633823966279326983230456482242756608,[],[(5,.setEnt .internalNl),(6,.cb)],0,2⟩,⟨15,35184372088832,[],[(5,.setEnt .internalNl),(6,.cb)],0,2⟩,⟨17,115792089237316195423570985008687907853269984665640564039457584007908834658815,[],[(5,.setEnt .internalNl),(6,.cb),(11,.comment)],0,2⟩,⟨18,35184372088832,[.nestZero],[(5,.setEnt .internalNl),(6,.cb)],0,2⟩],[⟨7,8192,[],[],0,2⟩,⟨9,1024,[],[],0,2⟩,⟨10,4096,[],[],0,2⟩,⟨11,8192,[.crAlone],[],0,2⟩,⟨12,4294967808,[],[],0,2⟩,⟨13,10633823966279326983230456482242756608,[],[],0,2⟩,⟨15,35184372088832,[],[],0,2⟩,⟨17,115792089237316195423570985008687907853269984665640564039457584007908834658815,[],[(11,.comment)],0,2⟩,⟨18,35184372088832,[.nestZero],[],0,2⟩],[⟨14,35184372088832,[],[(7,.nestInc),(8,.comment)],0,2⟩],[⟨7,8192,[],[],0,2⟩,⟨9,1024,[],[],0,2⟩,⟨10,4096,[],[],0,2⟩,⟨11,8192,[.crAlone],[],0,2⟩,⟨12,4294967808,[],[],0,2⟩,⟨13,10633823966279326983230456482242756608,[],[],0,2⟩,⟨15,35184372088832,[],[],0,2⟩,⟨17,115792089237316195423570985008687907853269984665640564039457584007908834658815,[],[(11,.comment)],0,2⟩,⟨18,35184372088832,[.nestZero],[],0,2⟩],[⟨16,42535295865117307932921825928971026432,[],[(9,.nestDec),(10,.comment)],0,2⟩],[⟨7,8192,[],[],0,2⟩,⟨9,1024,[],[],0,2⟩,⟨10,4096,[],[],0,2⟩,⟨11,8192,[.crAlone],[],0,2⟩,⟨12,4294967808,[],[],0,2⟩,⟨13,10633823966279326983230456482242756608,[],[],0,2⟩,⟨15,35184372088832,[],[],0,2⟩,⟨17,115792089237316195423570985008687907853269984665640564039457584007908834658815,[],[(11,.comment)],0,2⟩,⟨18,35184372088832,[.nestZero],[],0,2⟩],[⟨7,8192,[],[],0,2⟩,⟨9,1024,[],[],0,2⟩,⟨10,4096,[],[],0,2⟩,⟨11,8192,[.crAlone],[],0,2⟩,⟨12,4294967808,[],[],0,2⟩,⟨13,10633823966279326983230456482242756608,[],[],0,2⟩,⟨15,35184372088832,[],[],0,2⟩,⟨17,115792089237316195423570985008687907853269984665640564039457584007908834658815,[],[(11,.comment)],0,2⟩,⟨18,35184372088832,[.nestZero],[],0,2⟩],[⟨19,42535295865117307932921825928971026432,[.nestZero],[(12,.comment)],2,0⟩],[],[⟨21,115792089237316195423570985008687907853269984665635612279300442486263777315839,[],[],0,0⟩,⟨22,4951760157141521099596496896,[],[],0,0⟩],[⟨24,549755813888,[],[],0,0⟩],[⟨23,115792089237316195423570985008687907853269984665640564039457584007913129626623,[],[],0,0⟩],[⟨24,549755813888,[],[],0,0⟩],[],[⟨26,4951760157141521099596496896,[],[],0,0⟩,⟨32,4294967808,[],[],0,0⟩,⟨33,115792089237316195423570985008687907853269984665635612279300442486792058306047,[],[(17,.code)],0,0⟩,⟨34,4951760157141521099596496896,[],[],0,0⟩,⟨36,17179869184,[],[],0,0⟩],[⟨27,8192,[],[],0,0⟩,⟨29,1024,[],[],0,0⟩,⟨30,4096,[],[],0,0⟩,⟨31,8192,[.crAlone],[],0,0⟩],[⟨28,1024,[],[],0,0⟩],[⟨26,4951760157141521099596496896,[],[(15,.setEnt .internalNl),(16,.cb)],0,0⟩,⟨32,4294967808,[],[(15,.setEnt .internalNl),(16,.cb)],0,0⟩,⟨33,115792089237316195423570985008687907853269984665635612279300442486792058306047,[],[(15,.setEnt .internalNl),(16,.cb),(17,.code)],0,0⟩,⟨34,4951760157141521099596496896,[],[(15,.setEnt .internalNl),(16,.cb)],0,0⟩,⟨36,17179869184,[],[(15,.setEnt .internalNl),(16,.cb)],0,0⟩],[⟨26,4951760157141521099596496896,[],[(15,.setEnt .internalNl),(16,.cb)],0,0⟩,⟨32,4294967808,[],[(15,.setEnt .internalNl),(16,.cb)],0,0⟩,⟨33,115792089237316195423570985008687907853269984665635612279300442486792058306047,[],[(15,.setEnt .internalNl),(16,.cb),(17,.code)],0,0⟩,⟨34,4951760157141521099596496896,[],[(15,.setEnt .internalNl),(16,.cb)],0,0⟩,⟨36,17179869184,[],[(15,.setEnt .internalNl),(16,.cb)],0,0⟩],[⟨26,4951760157141521099596496896,[],[(15,.setEnt .internalNl),(16,.cb)],0,0⟩,⟨32,4294967808,[],[(15,.setEnt .internalNl),(16,.cb)],0,0⟩,⟨33,115792089237316195423570985008687907853269984665635612279300442486792058306047,[],[(15,.setEnt .internalNl),(16,.cb),(17,.code)],0,0⟩,⟨34,4951760157141521099596496896,[],[(15,.setEnt .internalNl),(16,.cb)],0,0⟩,⟨36,17179869184,[],[(15,.setEnt .internalNl),(16,.cb)],0,0⟩],[⟨26,4951760157141521099596496896,[],[(15,.setEnt .internalNl),(16,.cb)],0,0⟩,⟨32,4294967808,[],[(15,.setEnt .internalNl),(16,.cb)],0,0⟩,⟨33,115792089237316195423570985008687907853269984665635612279300442486792058306047,[],[(15,.setEnt .internalNl),(16,.cb),(17,.code)],0,0⟩,⟨34,4951760157141521099596496896,[],[(15,.setEnt .internalNl),(16,.cb)],0,0⟩,⟨36,17179869184,[],[(15,.setEnt .internalNl),(16,.cb)],0,0⟩],[⟨26,4951760157141521099596496896,[],[],0,0⟩,⟨32,4294967808,[],[],0,0⟩,⟨33,115792089237316195423570985008687907853269984665635612279300442486792058306047,[],[(17,.code)],0,0⟩,⟨34,4951760157141521099596496896,[],[],0,0⟩,⟨36,17179869184,[],[],0,0⟩],[⟨26,4951760157141521099596496896,[],[],0,0⟩,⟨32,4294967808,[],[],0,0⟩,⟨33,115792089237316195423570985008687907853269984665635612279300442486792058306047,[],[(17,.code)],0,0⟩,⟨34,4951760157141521099596496896,[],[],0,0⟩,⟨36,17179869184,[],[],0,0⟩],[⟨35,115792089237316195423570985008687907853269984665640564039457584007913129626623,[],[(18,.code)],0,0⟩],[⟨26,4951760157141521099596496896,[],[],0,0⟩,⟨32,4294967808,[],[],0,0⟩,⟨33,115792089237316195423570985008687907853269984665635612279300442486792058306047,[],[(17,.code)],0,0⟩,⟨34,4951760157141521099596496896,[],[],0,0⟩,⟨36,17179869184,[],[],0,0⟩],[],[⟨38,1024,[],[(19,.setEnt .newline)],0,0⟩],[],[],[],[],[]],[some (0,[]),none,none,some (1,[]),some (1,[]),none,none,none,none,none,none,none,none,none,none,none,none,none,none,some (1,[]),none,none,none,none,some (2,[]),none,none,none,none,none,none,none,none,none,none,none,some (2,[]),none,some (3,[]),some (3,[]),some (3,[]),some (3,[]),some (4,[])],[1,13,19,20,21]⟩
theorem haskell_line_nfa_eq : Haskell.haskell_line.nfa = haskell_line_nfa := by decide +kernel
/-- The machine of `Haskell.haskell_line`, with its automaton as a literal. -/
def haskell_line_M : Machine := ⟨haskell_line_nfa, Haskell.haskell_line.ends, Haskell.haskell_line.sw⟩
theorem haskell_line_M_eq : Haskell.haskell_line.machine = haskell_line_M := by
  unfold Scanner.machine haskell_line_M; rw [haskell_line_nfa_eq]
def haskell_line_masks : List Nat := [4294967808,35184372088832,10633823966279326983230456482242756608,549755813888,17179869184,8192,1024,4096,115792089237316195423570985008687907853269984665640564039457584007908834656767,115792089237316195423570985008687907853269984665640564039452972321894702252031,115792089237316195423570985008687907853269984665640564039457584007913129626623,115792089237316195423570985008687907853269984665640564039457584007908834658815,42535295865117307932921825928971026432,115792089237316195423570985008687907853269984665635612279300442486263777315839,4951760157141521099596496896,115792089237316195423570985008687907853269984665635612279300442486792058306047]
def haskell_line_cs : List (Nat × Nat) := [(0,115792089237316195423570985008687907853216815545804215644379678482628289217023),(9,4294967808),(10,1024),(11,2048),(12,4096),(13,8192),(34,17179869184),(39,549755813888),(45,35184372088832),(62,4611686018427387904),(92,4951760157141521099596496896),(123,10633823966279326983230456482242756608),(125,42535295865117307932921825928971026432)]
theorem haskell_line_masksIn : masksIn haskell_line_nfa haskell_line_masks = true := by decide +kernel
theorem haskell_line_repOk : repOk haskell_line_masks haskell_line_cs = true := by decide +kernel
def haskell_line_rows : List Row := [⟨[],none,[],[⟨0,.other,false,some ⟨0,[.setEnt (.own 3)],some 4,true⟩⟩,⟨9,.ws,false,some ⟨1,[.setEnt (.own 0)],some 0,false⟩⟩,⟨10,.lf,false,some ⟨0,[.setEnt .newline],some 3,true⟩⟩,⟨11,.vt,false,none⟩,⟨12,.ff,false,some ⟨0,[.setEnt .newline],some 3,true⟩⟩,⟨13,.cr,false,some ⟨2,[.setEnt .newline],none,false⟩⟩,⟨13,.cr,true,some ⟨3,[.setEnt .newline],some 3,false⟩⟩,⟨34,.other,false,some ⟨4,[.code,.setEnt (.own 3)],some 4,false⟩⟩,⟨39,.other,false,some ⟨5,[.code,.setEnt (.own 3)],some 4,false⟩⟩,⟨45,.other,false,some ⟨6,[.setEnt (.own 3)],some 4,false⟩⟩,⟨62,.other,false,some ⟨0,[.setEnt (.own 3)],some 4,true⟩⟩,⟨92,.other,false,some ⟨0,[.setEnt (.own 3)],some 4,true⟩⟩,⟨123,.other,false,some ⟨7,[.nestRes,.setEnt (.own 3)],some 4,false⟩⟩,⟨125,.other,false,some ⟨0,[.setEnt (.own 3)],some 4,true⟩⟩]⟩,⟨[0],some 0,[],[⟨0,.other,false,none⟩,⟨9,.ws,false,some ⟨1,[.setEnt (.own 0)],some 0,false⟩⟩,⟨10,.lf,false,none⟩,⟨11,.vt,false,none⟩,⟨12,.ff,false,none⟩,⟨13,.cr,false,none⟩,⟨13,.cr,true,none⟩,⟨34,.other,false,none⟩,⟨39,.other,false,none⟩,⟨45,.other,false,none⟩,⟨62,.other,false,none⟩,⟨92,.other,false,none⟩,⟨123,.other,false,none⟩,⟨125,.other,false,none⟩]⟩,⟨[37],none,[],[⟨0,.other,false,none⟩,⟨9,.ws,false,none⟩,⟨10,.lf,false,some ⟨0,[.setEnt .newline],some 3,true⟩⟩,⟨11,.vt,false,none⟩,⟨12,.ff,false,none⟩,⟨13,.cr,false,none⟩,⟨13,.cr,true,none⟩,⟨34,.other,false,none⟩,⟨39,.other,false,none⟩,⟨45,.other,false,none⟩,⟨62,.other,false,none⟩,⟨92,.other,false,none⟩,⟨123,.other,false,none⟩,⟨125,.other,false,none⟩]⟩,⟨[37,41],some 3,[],[⟨0,.other,false,none⟩,⟨9,.ws,false,none⟩,⟨10,.lf,false,some ⟨0,[.setEnt .newline],some 3,true⟩⟩,⟨11,.vt,false,none⟩,⟨12,.ff,false,none⟩,⟨13,.cr,false,none⟩,⟨13,.cr,true,none⟩,⟨34,.other,false,none⟩,⟨39,.other,false,none⟩,⟨45,.other,false,none⟩,⟨62,.other,false,none⟩,⟨92,.other,false,none⟩,⟨123,.other,false,none⟩,⟨125,.other,false,none⟩]⟩,⟨[25,42],some 4,[],[⟨0,.other,false,some ⟨8,[.code],none,false⟩⟩,⟨9,.ws,false,some ⟨9,[],none,false⟩⟩,⟨10,.lf,false,some ⟨8,[.code],none,false⟩⟩,⟨11,.vt,false,some ⟨8,[.code],none,false⟩⟩,⟨12,.ff,false,some ⟨8,[.code],none,false⟩⟩,⟨13,.cr,false,some ⟨8,[.code],none,false⟩⟩,⟨13,.cr,true,some ⟨8,[.code],none,false⟩⟩,⟨34,.other,false,some ⟨0,[],some 2,true⟩⟩,⟨39,.other,false,some ⟨8,[.code],none,false⟩⟩,⟨45,.other,false,some ⟨8,[.code],none,false⟩⟩,⟨62,.other,false,some ⟨8,[.code],none,false⟩⟩,⟨92,.other,false,some ⟨10,[],none,false⟩⟩,⟨123,.other,false,some ⟨8,[.code],none,false⟩⟩,⟨125,.other,false,some ⟨8,[.code],none,false⟩⟩]⟩,⟨[20,42],some 4,[],[⟨0,.other,false,some ⟨11,[],none,false⟩⟩,⟨9,.ws,false,some ⟨11,[],none,false⟩⟩,⟨10,.lf,false,none⟩,⟨11,.vt,false,some ⟨11,[],none,false⟩⟩,⟨12,.ff,false,none⟩,⟨13,.cr,false,none⟩,⟨13,.cr,true,none⟩,⟨34,.other,false,some ⟨11,[],none,false⟩⟩,⟨39,.other,false,none⟩,⟨45,.other,false,some ⟨11,[],none,false⟩⟩,⟨62,.other,false,some ⟨11,[],none,false⟩⟩,⟨92,.other,false,some ⟨12,[],none,false⟩⟩,⟨123,.other,false,some ⟨11,[],none,false⟩⟩,⟨125,.other,false,some ⟨11,[],none,false⟩⟩]⟩,⟨[1,42],some 4,[],[⟨0,.other,false,none⟩,⟨9,.ws,false,none⟩,⟨10,.lf,false,none⟩,⟨11,.vt,false,none⟩,⟨12,.ff,false,none⟩,⟨13,.cr,false,none⟩,⟨13,.cr,true,none⟩,⟨34,.other,false,none⟩,⟨39,.other,false,none⟩,⟨45,.other,false,some ⟨13,[],none,false⟩⟩,⟨62,.other,false,none⟩,⟨92,.other,false,none⟩,⟨123,.other,false,none⟩,⟨125,.other,false,none⟩]⟩,⟨[5,42],some 4,[],[⟨0,.other,false,none⟩,⟨9,.ws,false,none⟩,⟨10,.lf,false,none⟩,⟨11,.vt,false,none⟩,⟨12,.ff,false,none⟩,⟨13,.cr,false,none⟩,⟨13,.cr,true,none⟩,⟨34,.other,false,none⟩,⟨39,.other,false,none⟩,⟨45,.other,false,some ⟨14,[.comment],none,false⟩⟩,⟨62,.other,false,none⟩,⟨92,.other,false,none⟩,⟨123,.other,false,none⟩,⟨125,.other,false,none⟩]⟩,⟨[33],none,[],[⟨0,.other,false,some ⟨8,[.code],none,false⟩⟩,⟨9,.ws,false,some ⟨9,[],none,false⟩⟩,⟨10,.lf,false,some ⟨8,[.code],none,false⟩⟩,⟨11,.vt,false,some ⟨8,[.code],none,false⟩⟩,⟨12,.ff,false,some ⟨8,[.code],none,false⟩⟩,⟨13,.cr,false,some ⟨8,[.code],none,false⟩⟩,⟨13,.cr,true,some ⟨8,[.code],none,false⟩⟩,⟨34,.other,false,some ⟨0,[],some 2,true⟩⟩,⟨39,.other,false,some ⟨8,[.code],none,false⟩⟩,⟨45,.other,false,some ⟨8,[.code],none,false⟩⟩,⟨62,.other,false,some ⟨8,[.code],none,false⟩⟩,⟨92,.other,false,some ⟨10,[],none,false⟩⟩,⟨123,.other,false,some ⟨8,[.code],none,false⟩⟩,⟨125,.other,false,some ⟨8,[.code],none,false⟩⟩]⟩,⟨[32],none,[],[⟨0,.other,false,some ⟨8,[.code],none,false⟩⟩,⟨9,.ws,false,some ⟨9,[],none,false⟩⟩,⟨10,.lf,false,some ⟨8,[.code],none,false⟩⟩,⟨11,.vt,false,some ⟨8,[.code],none,false⟩⟩,⟨12,.ff,false,some ⟨8,[.code],none,false⟩⟩,⟨13,.cr,false,some ⟨8,[.code],none,false⟩⟩,⟨13,.cr,true,some ⟨8,[.code],none,false⟩⟩,⟨34,.other,false,some ⟨0,[],some 2,true⟩⟩,⟨39,.other,false,some ⟨8,[.code],none,false⟩⟩,⟨45,.other,false,some ⟨8,[.code],none,false⟩⟩,⟨62,.other,false,some ⟨8,[.code],none,false⟩⟩,⟨92,.other,false,some ⟨10,[],none,false⟩⟩,⟨123,.other,false,some ⟨8,[.code],none,false⟩⟩,⟨125,.other,false,some ⟨8,[.code],none,false⟩⟩]⟩,⟨[26,34],none,[],[⟨0,.other,false,some ⟨15,[.code],none,false⟩⟩,⟨9,.ws,false,some ⟨15,[.code],none,false⟩⟩,⟨10,.lf,false,some ⟨16,[],none,false⟩⟩,⟨11,.vt,false,some ⟨15,[.code],none,false⟩⟩,⟨12,.ff,false,some ⟨17,[],none,false⟩⟩,⟨13,.cr,false,some ⟨18,[],none,false⟩⟩,⟨13,.cr,true,some ⟨19,[],none,false⟩⟩,⟨34,.other,false,some ⟨15,[.code],none,false⟩⟩,⟨39,.other,false,some ⟨15,[.code],none,false⟩⟩,⟨45,.other,false,some ⟨15,[.code],none,false⟩⟩,⟨62,.other,false,some ⟨15,[.code],none,false⟩⟩,⟨92,.other,false,some ⟨15,[.code],none,false⟩⟩,⟨123,.other,false,some ⟨15,[.code],none,false⟩⟩,⟨125,.other,false,some ⟨15,[.code],none,false⟩⟩]⟩,⟨[21],none,[],[⟨0,.other,false,none⟩,⟨9,.ws,false,none⟩,⟨10,.lf,false,none⟩,⟨11,.vt,false,none⟩,⟨12,.ff,false,none⟩,⟨13,.cr,false,none⟩,⟨13,.cr,true,none⟩,⟨34,.other,false,none⟩,⟨39,.other,false,some ⟨0,[],some 2,true⟩⟩,⟨45,.other,false,none⟩,⟨62,.other,false,none⟩,⟨92,.other,false,none⟩,⟨123,.other,false,none⟩,⟨125,.other,false,none⟩]⟩,⟨[22],none,[],[⟨0,.other,false,some ⟨20,[],none,false⟩⟩,⟨9,.ws,false,some ⟨20,[],none,false⟩⟩,⟨10,.lf,false,none⟩,⟨11,.vt,false,some ⟨20,[],none,false⟩⟩,⟨12,.ff,false,none⟩,⟨13,.cr,false,none⟩,⟨13,.cr,true,none⟩,⟨34,.other,false,some ⟨20,[],none,false⟩⟩,⟨39,.other,false,some ⟨20,[],none,false⟩⟩,⟨45,.other,false,some ⟨20,[],none,false⟩⟩,⟨62,.other,false,some ⟨20,[],none,false⟩⟩,⟨92,.other,false,some ⟨20,[],none,false⟩⟩,⟨123,.other,false,some ⟨20,[],none,false⟩⟩,⟨125,.other,false,some ⟨20,[],none,false⟩⟩]⟩,⟨[2],none,[],[⟨0,.other,false,some ⟨21,[.fhold 0,.comment],some 1,false⟩⟩,⟨9,.ws,false,some ⟨21,[.fhold 0,.comment],some 1,false⟩⟩,⟨10,.lf,false,some ⟨21,[.fhold 0,.comment],some 1,false⟩⟩,⟨11,.vt,false,some ⟨21,[.fhold 0,.comment],some 1,false⟩⟩,⟨12,.ff,false,some ⟨21,[.fhold 0,.comment],some 1,false⟩⟩,⟨13,.cr,false,some ⟨21,[.fhold 0,.comment],some 1,false⟩⟩,⟨13,.cr,true,some ⟨21,[.fhold 0,.comment],some 1,false⟩⟩,⟨34,.other,false,some ⟨21,[.fhold 0,.comment],some 1,false⟩⟩,⟨39,.other,false,some ⟨21,[.fhold 0,.comment],some 1,false⟩⟩,⟨45,.other,false,some ⟨21,[.fhold 0,.comment],some 1,false⟩⟩,⟨62,.other,false,none⟩,⟨92,.other,false,some ⟨21,[.fhold 0,.comment],some 1,false⟩⟩,⟨123,.other,false,some ⟨21,[.fhold 0,.comment],some 1,false⟩⟩,⟨125,.other,false,some ⟨21,[.fhold 0,.comment],some 1,false⟩⟩]⟩,⟨[6],none,[],[⟨0,.other,false,some ⟨22,[.comment],none,false⟩⟩,⟨9,.ws,false,some ⟨23,[],none,false⟩⟩,⟨10,.lf,false,some ⟨24,[],none,false⟩⟩,⟨11,.vt,false,some ⟨22,[.comment],none,false⟩⟩,⟨12,.ff,false,some ⟨25,[],none,false⟩⟩,⟨13,.cr,false,some ⟨26,[],none,false⟩⟩,⟨13,.cr,true,some ⟨27,[],none,false⟩⟩,⟨34,.other,false,some ⟨22,[.comment],none,false⟩⟩,⟨39,.other,false,some ⟨22,[.comment],none,false⟩⟩,⟨45,.other,false,some ⟨28,[.comment],none,false⟩⟩,⟨45,.other,false,some ⟨29,[.comment],none,false⟩⟩,⟨62,.other,false,some ⟨22,[.comment],none,false⟩⟩,⟨92,.other,false,some ⟨22,[.comment],none,false⟩⟩,⟨123,.other,false,some ⟨30,[.comment],none,false⟩⟩,⟨125,.other,false,some ⟨22,[.comment],none,false⟩⟩]⟩,⟨[35],none,[],[⟨0,.other,false,some ⟨8,[.code],none,false⟩⟩,⟨9,.ws,false,some ⟨9,[],none,false⟩⟩,⟨10,.lf,false,some ⟨8,[.code],none,false⟩⟩,⟨11,.vt,false,some ⟨8,[.code],none,false⟩⟩,⟨12,.ff,false,some ⟨8,[.code],none,false⟩⟩,⟨13,.cr,false,some ⟨8,[.code],none,false⟩⟩,⟨13,.cr,true,some ⟨8,[.code],none,false⟩⟩,⟨34,.other,false,some ⟨0,[],some 2,true⟩⟩,⟨39,.other,false,some ⟨8,[.code],none,false⟩⟩,⟨45,.other,false,some ⟨8,[.code],none,false⟩⟩,⟨62,.other,false,some ⟨8,[.code],none,false⟩⟩,⟨92,.other,false,some ⟨10,[],none,false⟩⟩,⟨123,.other,false,some ⟨8,[.code],none,false⟩⟩,⟨125,.other,false,some ⟨8,[.code],none,false⟩⟩]⟩,⟨[29],none,[],[⟨0,.other,false,some ⟨8,[.setEnt .internalNl,.cb,.code],none,false⟩⟩,⟨9,.ws,false,some ⟨9,[.setEnt .internalNl,.cb],none,false⟩⟩,⟨10,.lf,false,some ⟨8,[.setEnt .internalNl,.cb,.code],none,false⟩⟩,⟨11,.vt,false,some ⟨8,[.setEnt .internalNl,.cb,.code],none,false⟩⟩,⟨12,.ff,false,some ⟨8,[.setEnt .internalNl,.cb,.code],none,false⟩⟩,⟨13,.cr,false,some ⟨8,[.setEnt .internalNl,.cb,.code],none,false⟩⟩,⟨13,.cr,true,some ⟨8,[.setEnt .internalNl,.cb,.code],none,false⟩⟩,⟨34,.other,false,some ⟨0,[.setEnt .internalNl,.cb],some 2,true⟩⟩,⟨39,.other,false,some ⟨8,[.setEnt .internalNl,.cb,.code],none,false⟩⟩,⟨45,.other,false,some ⟨8,[.setEnt .internalNl,.cb,.code],none,false⟩⟩,⟨62,.other,false,some ⟨8,[.setEnt .internalNl,.cb,.code],none,false⟩⟩,⟨92,.other,false,some ⟨10,[.setEnt .internalNl,.cb],none,false⟩⟩,⟨123,.other,false,some ⟨8,[.setEnt .internalNl,.cb,.code],none,false⟩⟩,⟨125,.other,false,some ⟨8,[.setEnt .internalNl,.cb,.code],none,false⟩⟩]⟩,⟨[30],none,[],[⟨0,.other,false,some ⟨8,[.setEnt .internalNl,.cb,.code],none,false⟩⟩,⟨9,.ws,false,some ⟨9,[.setEnt .internalNl,.cb],none,false⟩⟩,⟨10,.lf,false,some ⟨8,[.setEnt .internalNl,.cb,.code],none,false⟩⟩,⟨11,.vt,false,some ⟨8,[.setEnt .internalNl,.cb,.code],none,false⟩⟩,⟨12,.ff,false,some ⟨8,[.setEnt .internalNl,.cb,.code],none,false⟩⟩,⟨13,.cr,false,some ⟨8,[.setEnt .internalNl,.cb,.code],none,false⟩⟩,⟨13,.cr,true,some ⟨8,[.setEnt .internalNl,.cb,.code],none,false⟩⟩,⟨34,.other,false,some ⟨0,[.setEnt .internalNl,.cb],some 2,true⟩⟩,⟨39,.other,false,some ⟨8,[.setEnt .internalNl,.cb,.code],none,false⟩⟩,⟨45,.other,false,some ⟨8,[.setEnt .internalNl,.cb,.code],none,false⟩⟩,⟨62,.other,false,some ⟨8,[.setEnt .internalNl,.cb,.code],none,false⟩⟩,⟨92,.other,false,some ⟨10,[.setEnt .internalNl,.cb],none,false⟩⟩,⟨123,.other,false,some ⟨8,[.setEnt .internalNl,.cb,.code],none,false⟩⟩,⟨125,.other,false,some ⟨8,[.setEnt .internalNl,.cb,.code],none,false⟩⟩]⟩,⟨[27],none,[],[⟨0,.other,false,none⟩,⟨9,.ws,false,none⟩,⟨10,.lf,false,some ⟨31,[],none,false⟩⟩,⟨11,.vt,false,none⟩,⟨12,.ff,false,none⟩,⟨13,.cr,false,none⟩,⟨13,.cr,true,none⟩,⟨34,.other,false,none⟩,⟨39,.other,false,none⟩,⟨45,.other,false,none⟩,⟨62,.other,false,none⟩,⟨92,.other,false,none⟩,⟨123,.other,false,none⟩,⟨125,.other,false,none⟩]⟩,⟨[27,31],none,[],[⟨0,.other,false,some ⟨8,[.setEnt .internalNl,.cb,.code],none,false⟩⟩,⟨9,.ws,false,some ⟨9,[.setEnt .internalNl,.cb],none,false⟩⟩,⟨10,.lf,false,some ⟨32,[.setEnt .internalNl,.cb,.code],none,false⟩⟩,⟨11,.vt,false,some ⟨8,[.setEnt .internalNl,.cb,.code],none,false⟩⟩,⟨12,.ff,false,some ⟨8,[.setEnt .internalNl,.cb,.code],none,false⟩⟩,⟨13,.cr,false,some ⟨8,[.setEnt .internalNl,.cb,.code],none,false⟩⟩,⟨13,.cr,true,some ⟨8,[.setEnt .internalNl,.cb,.code],none,false⟩⟩,⟨34,.other,false,some ⟨0,[.setEnt .internalNl,.cb],some 2,true⟩⟩,⟨39,.other,false,some ⟨8,[.setEnt .internalNl,.cb,.code],none,false⟩⟩,⟨45,.other,false,some ⟨8,[.setEnt .internalNl,.cb,.code],none,false⟩⟩,⟨62,.other,false,some ⟨8,[.setEnt .internalNl,.cb,.code],none,false⟩⟩,⟨92,.other,false,some ⟨10,[.setEnt .internalNl,.cb],none,false⟩⟩,⟨123,.other,false,some ⟨8,[.setEnt .internalNl,.cb,.code],none,false⟩⟩,⟨125,.other,false,some ⟨8,[.setEnt .internalNl,.cb,.code],none,false⟩⟩]⟩,⟨[23],none,[],[⟨0,.other,false,none⟩,⟨9,.ws,false,none⟩,⟨10,.lf,false,none⟩,⟨11,.vt,false,none⟩,⟨12,.ff,false,none⟩,⟨13,.cr,false,none⟩,⟨13,.cr,true,none⟩,⟨34,.other,false,none⟩,⟨39,.other,false,some ⟨0,[],some 2,true⟩⟩,⟨45,.other,false,none⟩,⟨62,.other,false,none⟩,⟨92,.other,false,none⟩,⟨123,.other,false,none⟩,⟨125,.other,false,none⟩]⟩,⟨[3],some 1,[],[⟨0,.other,false,some ⟨33,[],some 1,false⟩⟩,⟨9,.ws,false,some ⟨33,[],some 1,false⟩⟩,⟨10,.lf,false,none⟩,⟨11,.vt,false,some ⟨33,[],some 1,false⟩⟩,⟨12,.ff,false,none⟩,⟨13,.cr,false,none⟩,⟨13,.cr,true,none⟩,⟨34,.other,false,some ⟨33,[],some 1,false⟩⟩,⟨39,.other,false,some ⟨33,[],some 1,false⟩⟩,⟨45,.other,false,some ⟨33,[],some 1,false⟩⟩,⟨62,.other,false,some ⟨33,[],some 1,false⟩⟩,⟨92,.other,false,some ⟨33,[],some 1,false⟩⟩,⟨123,.other,false,some ⟨33,[],some 1,false⟩⟩,⟨125,.other,false,some ⟨33,[],some 1,false⟩⟩]⟩,⟨[17],none,[],[⟨0,.other,false,some ⟨22,[.comment],none,false⟩⟩,⟨9,.ws,false,some ⟨23,[],none,false⟩⟩,⟨10,.lf,false,some ⟨24,[],none,false⟩⟩,⟨11,.vt,false,some ⟨22,[.comment],none,false⟩⟩,⟨12,.ff,false,some ⟨25,[],none,false⟩⟩,⟨13,.cr,false,some ⟨26,[],none,false⟩⟩,⟨13,.cr,true,some ⟨27,[],none,false⟩⟩,⟨34,.other,false,some ⟨22,[.comment],none,false⟩⟩,⟨39,.other,false,some ⟨22,[.comment],none,false⟩⟩,⟨45,.other,false,some ⟨28,[.comment],none,false⟩⟩,⟨45,.other,false,some ⟨29,[.comment],none,false⟩⟩,⟨62,.other,false,some ⟨22,[.comment],none,false⟩⟩,⟨92,.other,false,some ⟨22,[.comment],none,false⟩⟩,⟨123,.other,false,some ⟨30,[.comment],none,false⟩⟩,⟨125,.other,false,some ⟨22,[.comment],none,false⟩⟩]⟩,⟨[12],none,[],[⟨0,.other,false,some ⟨22,[.comment],none,false⟩⟩,⟨9,.ws,false,some ⟨23,[],none,false⟩⟩,⟨10,.lf,false,some ⟨24,[],none,false⟩⟩,⟨11,.vt,false,some ⟨22,[.comment],none,false⟩⟩,⟨12,.ff,false,some ⟨25,[],none,false⟩⟩,⟨13,.cr,false,some ⟨26,[],none,false⟩⟩,⟨13,.cr,true,some ⟨27,[],none,false⟩⟩,⟨34,.other,false,some ⟨22,[.comment],none,false⟩⟩,⟨39,.other,false,some ⟨22,[.comment],none,false⟩⟩,⟨45,.other,false,some ⟨28,[.comment],none,false⟩⟩,⟨45,.other,false,some ⟨29,[.comment],none,false⟩⟩,⟨62,.other,false,some ⟨22,[.comment],none,false⟩⟩,⟨92,.other,false,some ⟨22,[.comment],none,false⟩⟩,⟨123,.other,false,some ⟨30,[.comment],none,false⟩⟩,⟨125,.other,false,some ⟨22,[.comment],none,false⟩⟩]⟩,⟨[9],none,[],[⟨0,.other,false,some ⟨22,[.setEnt .internalNl,.cb,.comment],none,false⟩⟩,⟨9,.ws,false,some ⟨23,[.setEnt .internalNl,.cb],none,false⟩⟩,⟨10,.lf,false,some ⟨24,[.setEnt .internalNl,.cb],none,false⟩⟩,⟨11,.vt,false,some ⟨22,[.setEnt .internalNl,.cb,.comment],none,false⟩⟩,⟨12,.ff,false,some ⟨25,[.setEnt .internalNl,.cb],none,false⟩⟩,⟨13,.cr,false,some ⟨26,[.setEnt .internalNl,.cb],none,false⟩⟩,⟨13,.cr,true,some ⟨27,[.setEnt .internalNl,.cb],none,false⟩⟩,⟨34,.other,false,some ⟨22,[.setEnt .internalNl,.cb,.comment],none,false⟩⟩,⟨39,.other,false,some ⟨22,[.setEnt .internalNl,.cb,.comment],none,false⟩⟩,⟨45,.other,false,some ⟨28,[.setEnt .internalNl,.cb,.comment],none,false⟩⟩,⟨45,.other,false,some ⟨29,[.setEnt .internalNl,.cb,.comment],none,false⟩⟩,⟨62,.other,false,some ⟨22,[.setEnt .internalNl,.cb,.comment],none,false⟩⟩,⟨92,.other,false,some ⟨22,[.setEnt .internalNl,.cb,.comment],none,false⟩⟩,⟨123,.other,false,some ⟨30,[.setEnt .internalNl,.cb,.comment],none,false⟩⟩,⟨125,.other,false,some ⟨22,[.setEnt .internalNl,.cb,.comment],none,false⟩⟩]⟩,⟨[10],none,[],[⟨0,.other,false,some ⟨22,[.setEnt .internalNl,.cb,.comment],none,false⟩⟩,⟨9,.ws,false,some ⟨23,[.setEnt .internalNl,.cb],none,false⟩⟩,⟨10,.lf,false,some ⟨24,[.setEnt .internalNl,.cb],none,false⟩⟩,⟨11,.vt,false,some ⟨22,[.setEnt .internalNl,.cb,.comment],none,false⟩⟩,⟨12,.ff,false,some ⟨25,[.setEnt .internalNl,.cb],none,false⟩⟩,⟨13,.cr,false,some ⟨26,[.setEnt .internalNl,.cb],none,false⟩⟩,⟨13,.cr,true,some ⟨27,[.setEnt .internalNl,.cb],none,false⟩⟩,⟨34,.other,false,some ⟨22,[.setEnt .internalNl,.cb,.comment],none,false⟩⟩,⟨39,.other,false,some ⟨22,[.setEnt .internalNl,.cb,.comment],none,false⟩⟩,⟨45,.other,false,some ⟨28,[.setEnt .internalNl,.cb,.comment],none,false⟩⟩,⟨45,.other,false,some ⟨29,[.setEnt .internalNl,.cb,.comment],none,false⟩⟩,⟨62,.other,false,some ⟨22,[.setEnt .internalNl,.cb,.comment],none,false⟩⟩,⟨92,.other,false,some ⟨22,[.setEnt .internalNl,.cb,.comment],none,false⟩⟩,⟨123,.other,false,some ⟨30,[.setEnt .internalNl,.cb,.comment],none,false⟩⟩,⟨125,.other,false,some ⟨22,[.setEnt .internalNl,.cb,.comment],none,false⟩⟩]⟩,⟨[7],none,[],[⟨0,.other,false,none⟩,⟨9,.ws,false,none⟩,⟨10,.lf,false,some ⟨34,[],none,false⟩⟩,⟨11,.vt,false,none⟩,⟨12,.ff,false,none⟩,⟨13,.cr,false,none⟩,⟨13,.cr,true,none⟩,⟨34,.other,false,none⟩,⟨39,.other,false,none⟩,⟨45,.other,false,none⟩,⟨62,.other,false,none⟩,⟨92,.other,false,none⟩,⟨123,.other,false,none⟩,⟨125,.other,false,none⟩]⟩,⟨[7,11],none,[],[⟨0,.other,false,some ⟨22,[.setEnt .internalNl,.cb,.comment],none,false⟩⟩,⟨9,.ws,false,some ⟨23,[.setEnt .internalNl,.cb],none,false⟩⟩,⟨10,.lf,false,some ⟨35,[.setEnt .internalNl,.cb],none,false⟩⟩,⟨11,.vt,false,some ⟨22,[.setEnt .internalNl,.cb,.comment],none,false⟩⟩,⟨12,.ff,false,some ⟨25,[.setEnt .internalNl,.cb],none,false⟩⟩,⟨13,.cr,false,some ⟨26,[.setEnt .internalNl,.cb],none,false⟩⟩,⟨13,.cr,true,some ⟨27,[.setEnt .internalNl,.cb],none,false⟩⟩,⟨34,.other,false,some ⟨22,[.setEnt .internalNl,.cb,.comment],none,false⟩⟩,⟨39,.other,false,some ⟨22,[.setEnt .internalNl,.cb,.comment],none,false⟩⟩,⟨45,.other,false,some ⟨28,[.setEnt .internalNl,.cb,.comment],none,false⟩⟩,⟨45,.other,false,some ⟨29,[.setEnt .internalNl,.cb,.comment],none,false⟩⟩,⟨62,.other,false,some ⟨22,[.setEnt .internalNl,.cb,.comment],none,false⟩⟩,⟨92,.other,false,some ⟨22,[.setEnt .internalNl,.cb,.comment],none,false⟩⟩,⟨123,.other,false,some ⟨30,[.setEnt .internalNl,.cb,.comment],none,false⟩⟩,⟨125,.other,false,some ⟨22,[.setEnt .internalNl,.cb,.comment],none,false⟩⟩]⟩,⟨[15,17],none,[],[⟨0,.other,false,some ⟨22,[.comment],none,false⟩⟩,⟨9,.ws,false,some ⟨23,[],none,false⟩⟩,⟨10,.lf,false,some ⟨24,[],none,false⟩⟩,⟨11,.vt,false,some ⟨22,[.comment],none,false⟩⟩,⟨12,.ff,false,some ⟨25,[],none,false⟩⟩,⟨13,.cr,false,some ⟨26,[],none,false⟩⟩,⟨13,.cr,true,some ⟨27,[],none,false⟩⟩,⟨34,.other,false,some ⟨22,[.comment],none,false⟩⟩,⟨39,.other,false,some ⟨22,[.comment],none,false⟩⟩,⟨45,.other,false,some ⟨28,[.comment],none,false⟩⟩,⟨45,.other,false,some ⟨29,[.comment],none,false⟩⟩,⟨62,.other,false,some ⟨22,[.comment],none,false⟩⟩,⟨92,.other,false,some ⟨22,[.comment],none,false⟩⟩,⟨123,.other,false,some ⟨30,[.comment],none,false⟩⟩,⟨125,.other,false,some ⟨36,[.nestDec,.comment],none,false⟩⟩]⟩,⟨[15,17,18],none,[],[⟨0,.other,false,some ⟨22,[.comment],none,false⟩⟩,⟨9,.ws,false,some ⟨23,[],none,false⟩⟩,⟨10,.lf,false,some ⟨24,[],none,false⟩⟩,⟨11,.vt,false,some ⟨22,[.comment],none,false⟩⟩,⟨12,.ff,false,some ⟨25,[],none,false⟩⟩,⟨13,.cr,false,some ⟨26,[],none,false⟩⟩,⟨13,.cr,true,some ⟨27,[],none,false⟩⟩,⟨34,.other,false,some ⟨22,[.comment],none,false⟩⟩,⟨39,.other,false,some ⟨22,[.comment],none,false⟩⟩,⟨45,.other,false,some ⟨28,[.comment],none,false⟩⟩,⟨45,.other,false,some ⟨29,[.comment],none,false⟩⟩,⟨62,.other,false,some ⟨22,[.comment],none,false⟩⟩,⟨92,.other,false,some ⟨22,[.comment],none,false⟩⟩,⟨123,.other,false,some ⟨30,[.comment],none,false⟩⟩,⟨125,.other,false,some ⟨36,[.nestDec,.comment],none,false⟩⟩,⟨125,.other,false,some ⟨0,[.comment],some 1,true⟩⟩]⟩,⟨[13,17],none,[],[⟨0,.other,false,some ⟨22,[.comment],none,false⟩⟩,⟨9,.ws,false,some ⟨23,[],none,false⟩⟩,⟨10,.lf,false,some ⟨24,[],none,false⟩⟩,⟨11,.vt,false,some ⟨22,[.comment],none,false⟩⟩,⟨12,.ff,false,some ⟨25,[],none,false⟩⟩,⟨13,.cr,false,some ⟨26,[],none,false⟩⟩,⟨13,.cr,true,some ⟨27,[],none,false⟩⟩,⟨34,.other,false,some ⟨22,[.comment],none,false⟩⟩,⟨39,.other,false,some ⟨22,[.comment],none,false⟩⟩,⟨45,.other,false,some ⟨37,[.nestInc,.comment],none,false⟩⟩,⟨45,.other,false,some ⟨38,[.nestInc,.comment],none,false⟩⟩,⟨62,.other,false,some ⟨22,[.comment],none,false⟩⟩,⟨92,.other,false,some ⟨22,[.comment],none,false⟩⟩,⟨123,.other,false,some ⟨30,[.comment],none,false⟩⟩,⟨125,.other,false,some ⟨22,[.comment],none,false⟩⟩]⟩,⟨[28],none,[],[⟨0,.other,false,some ⟨8,[.setEnt .internalNl,.cb,.code],none,false⟩⟩,⟨9,.ws,false,some ⟨9,[.setEnt .internalNl,.cb],none,false⟩⟩,⟨10,.lf,false,some ⟨8,[.setEnt .internalNl,.cb,.code],none,false⟩⟩,⟨11,.vt,false,some ⟨8,[.setEnt .internalNl,.cb,.code],none,false⟩⟩,⟨12,.ff,false,some ⟨8,[.setEnt .internalNl,.cb,.code],none,false⟩⟩,⟨13,.cr,false,some ⟨8,[.setEnt .internalNl,.cb,.code],none,false⟩⟩,⟨13,.cr,true,some ⟨8,[.setEnt .internalNl,.cb,.code],none,false⟩⟩,⟨34,.other,false,some ⟨0,[.setEnt .internalNl,.cb],some 2,true⟩⟩,⟨39,.other,false,some ⟨8,[.setEnt .internalNl,.cb,.code],none,false⟩⟩,⟨45,.other,false,some ⟨8,[.setEnt .internalNl,.cb,.code],none,false⟩⟩,⟨62,.other,false,some ⟨8,[.setEnt .internalNl,.cb,.code],none,false⟩⟩,⟨92,.other,false,some ⟨10,[.setEnt .internalNl,.cb],none,false⟩⟩,⟨123,.other,false,some ⟨8,[.setEnt .internalNl,.cb,.code],none,false⟩⟩,⟨125,.other,false,some ⟨8,[.setEnt .internalNl,.cb,.code],none,false⟩⟩]⟩,⟨[28,33],none,[],[⟨0,.other,false,some ⟨8,[.setEnt .internalNl,.cb,.code],none,false⟩⟩,⟨9,.ws,false,some ⟨9,[.setEnt .internalNl,.cb],none,false⟩⟩,⟨10,.lf,false,some ⟨8,[.setEnt .internalNl,.cb,.code],none,false⟩⟩,⟨11,.vt,false,some ⟨8,[.setEnt .internalNl,.cb,.code],none,false⟩⟩,⟨12,.ff,false,some ⟨8,[.setEnt .internalNl,.cb,.code],none,false⟩⟩,⟨13,.cr,false,some ⟨8,[.setEnt .internalNl,.cb,.code],none,false⟩⟩,⟨13,.cr,true,some ⟨8,[.setEnt .internalNl,.cb,.code],none,false⟩⟩,⟨34,.other,false,some ⟨0,[.setEnt .internalNl,.cb],some 2,true⟩⟩,⟨39,.other,false,some ⟨8,[.setEnt .internalNl,.cb,.code],none,false⟩⟩,⟨45,.other,false,some ⟨8,[.setEnt .internalNl,.cb,.code],none,false⟩⟩,⟨62,.other,false,some ⟨8,[.setEnt .internalNl,.cb,.code],none,false⟩⟩,⟨92,.other,false,some ⟨10,[.setEnt .internalNl,.cb],none,false⟩⟩,⟨123,.other,false,some ⟨8,[.setEnt .internalNl,.cb,.code],none,false⟩⟩,⟨125,.other,false,some ⟨8,[.setEnt .internalNl,.cb,.code],none,false⟩⟩]⟩,⟨[4],some 1,[],[⟨0,.other,false,some ⟨33,[],some 1,false⟩⟩,⟨9,.ws,false,some ⟨33,[],some 1,false⟩⟩,⟨10,.lf,false,none⟩,⟨11,.vt,false,some ⟨33,[],some 1,false⟩⟩,⟨12,.ff,false,none⟩,⟨13,.cr,false,none⟩,⟨13,.cr,true,none⟩,⟨34,.other,false,some ⟨33,[],some 1,false⟩⟩,⟨39,.other,false,some ⟨33,[],some 1,false⟩⟩,⟨45,.other,false,some ⟨33,[],some 1,false⟩⟩,⟨62,.other,false,some ⟨33,[],some 1,false⟩⟩,⟨92,.other,false,some ⟨33,[],some 1,false⟩⟩,⟨123,.other,false,some ⟨33,[],some 1,false⟩⟩,⟨125,.other,false,some ⟨33,[],some 1,false⟩⟩]⟩,⟨[8],none,[],[⟨0,.other,false,some ⟨22,[.setEnt .internalNl,.cb,.comment],none,false⟩⟩,⟨9,.ws,false,some ⟨23,[.setEnt .internalNl,.cb],none,false⟩⟩,⟨10,.lf,false,some ⟨24,[.setEnt .internalNl,.cb],none,false⟩⟩,⟨11,.vt,false,some ⟨22,[.setEnt .internalNl,.cb,.comment],none,false⟩⟩,⟨12,.ff,false,some ⟨25,[.setEnt .internalNl,.cb],none,false⟩⟩,⟨13,.cr,false,some ⟨26,[.setEnt .internalNl,.cb],none,false⟩⟩,⟨13,.cr,true,some ⟨27,[.setEnt .internalNl,.cb],none,false⟩⟩,⟨34,.other,false,some ⟨22,[.setEnt .internalNl,.cb,.comment],none,false⟩⟩,⟨39,.other,false,some ⟨22,[.setEnt .internalNl,.cb,.comment],none,false⟩⟩,⟨45,.other,false,some ⟨28,[.setEnt .internalNl,.cb,.comment],none,false⟩⟩,⟨45,.other,false,some ⟨29,[.setEnt .internalNl,.cb,.comment],none,false⟩⟩,⟨62,.other,false,some ⟨22,[.setEnt .internalNl,.cb,.comment],none,false⟩⟩,⟨92,.other,false,some ⟨22,[.setEnt .internalNl,.cb,.comment],none,false⟩⟩,⟨123,.other,false,some ⟨30,[.setEnt .internalNl,.cb,.comment],none,false⟩⟩,⟨125,.other,false,some ⟨22,[.setEnt .internalNl,.cb,.comment],none,false⟩⟩]⟩,⟨[8,9],none,[],[⟨0,.other,false,some ⟨22,[.setEnt .internalNl,.cb,.comment],none,false⟩⟩,⟨9,.ws,false,some ⟨23,[.setEnt .internalNl,.cb],none,false⟩⟩,⟨10,.lf,false,some ⟨24,[.setEnt .internalNl,.cb],none,false⟩⟩,⟨11,.vt,false,some ⟨22,[.setEnt .internalNl,.cb,.comment],none,false⟩⟩,⟨12,.ff,false,some ⟨25,[.setEnt .internalNl,.cb],none,false⟩⟩,⟨13,.cr,false,some ⟨26,[.setEnt .internalNl,.cb],none,false⟩⟩,⟨13,.cr,true,some ⟨27,[.setEnt .internalNl,.cb],none,false⟩⟩,⟨34,.other,false,some ⟨22,[.setEnt .internalNl,.cb,.comment],none,false⟩⟩,⟨39,.other,false,some ⟨22,[.setEnt .internalNl,.cb,.comment],none,false⟩⟩,⟨45,.other,false,some ⟨28,[.setEnt .internalNl,.cb,.comment],none,false⟩⟩,⟨45,.other,false,some ⟨29,[.setEnt .internalNl,.cb,.comment],none,false⟩⟩,⟨62,.other,false,some ⟨22,[.setEnt .internalNl,.cb,.comment],none,false⟩⟩,⟨92,.other,false,some ⟨22,[.setEnt .internalNl,.cb,.comment],none,false⟩⟩,⟨123,.other,false,some ⟨30,[.setEnt .internalNl,.cb,.comment],none,false⟩⟩,⟨125,.other,false,some ⟨22,[.setEnt .internalNl,.cb,.comment],none,false⟩⟩]⟩,⟨[16,17],none,[],[⟨0,.other,false,some ⟨22,[.comment],none,false⟩⟩,⟨9,.ws,false,some ⟨23,[],none,false⟩⟩,⟨10,.lf,false,some ⟨24,[],none,false⟩⟩,⟨11,.vt,false,some ⟨22,[.comment],none,false⟩⟩,⟨12,.ff,false,some ⟨25,[],none,false⟩⟩,⟨13,.cr,false,some ⟨26,[],none,false⟩⟩,⟨13,.cr,true,some ⟨27,[],none,false⟩⟩,⟨34,.other,false,some ⟨22,[.comment],none,false⟩⟩,⟨39,.other,false,some ⟨22,[.comment],none,false⟩⟩,⟨45,.other,false,some ⟨28,[.comment],none,false⟩⟩,⟨45,.other,false,some ⟨29,[.comment],none,false⟩⟩,⟨62,.other,false,some ⟨22,[.comment],none,false⟩⟩,⟨92,.other,false,some ⟨22,[.comment],none,false⟩⟩,⟨123,.other,false,some ⟨30,[.comment],none,false⟩⟩,⟨125,.other,false,some ⟨22,[.comment],none,false⟩⟩]⟩,⟨[14,15,17],none,[],[⟨0,.other,false,some ⟨22,[.comment],none,false⟩⟩,⟨9,.ws,false,some ⟨23,[],none,false⟩⟩,⟨10,.lf,false,some ⟨24,[],none,false⟩⟩,⟨11,.vt,false,some ⟨22,[.comment],none,false⟩⟩,⟨12,.ff,false,some ⟨25,[],none,false⟩⟩,⟨13,.cr,false,some ⟨26,[],none,false⟩⟩,⟨13,.cr,true,some ⟨27,[],none,false⟩⟩,⟨34,.other,false,some ⟨22,[.comment],none,false⟩⟩,⟨39,.other,false,some ⟨22,[.comment],none,false⟩⟩,⟨45,.other,false,some ⟨28,[.comment],none,false⟩⟩,⟨45,.other,false,some ⟨29,[.comment],none,false⟩⟩,⟨62,.other,false,some ⟨22,[.comment],none,false⟩⟩,⟨92,.other,false,some ⟨22,[.comment],none,false⟩⟩,⟨123,.other,false,some ⟨30,[.comment],none,false⟩⟩,⟨125,.other,false,some ⟨36,[.nestDec,.comment],none,false⟩⟩]⟩,⟨[14,15,17,18],none,[],[⟨0,.other,false,some ⟨22,[.comment],none,false⟩⟩,⟨9,.ws,false,some ⟨23,[],none,false⟩⟩,⟨10,.lf,false,some ⟨24,[],none,false⟩⟩,⟨11,.vt,false,some ⟨22,[.comment],none,false⟩⟩,⟨12,.ff,false,some ⟨25,[],none,false⟩⟩,⟨13,.cr,false,some ⟨26,[],none,false⟩⟩,⟨13,.cr,true,some ⟨27,[],none,false⟩⟩,⟨34,.other,false,some ⟨22,[.comment],none,false⟩⟩,⟨39,.other,false,some ⟨22,[.comment],none,false⟩⟩,⟨45,.other,false,some ⟨28,[.comment],none,false⟩⟩,⟨45,.other,false,some ⟨29,[.comment],none,false⟩⟩,⟨62,.other,false,some ⟨22,[.comment],none,false⟩⟩,⟨92,.other,false,some ⟨22,[.comment],none,false⟩⟩,⟨123,.other,false,some ⟨30,[.comment],none,false⟩⟩,⟨125,.other,false,some ⟨36,[.nestDec,.comment],none,false⟩⟩,⟨125,.other,false,some ⟨0,[.comment],some 1,true⟩⟩]⟩]
theorem haskell_line_rowsOk : rowsOk haskell_line_nfa [] (haskell_line_cs.map (·.1)) haskell_line_rows = true := by decide +kernel
def haskell_line_D : Dfa haskell_line_M.nfa := ⟨haskell_line_masks, [], haskell_line_cs, haskell_line_rows, haskell_line_masksIn, haskell_line_repOk, haskell_line_rowsOk⟩

def idl_pvwave_line_nfa : Nfa := ⟨[⟨0,4294967808,[],[(0,.setEnt (.own 0))],0,0⟩,⟨1,576460752303423488,[],[(1,.comment)],0,0⟩,⟨3,8192,[],[(2,.setEnt .newline)],0,0⟩,⟨5,1024,[],[(2,.setEnt .newline)],0,0⟩,⟨6,4096,[],[(2,.setEnt .newline)],0,0⟩,⟨7,8192,[.crAlone],[(2,.setEnt .newline)],0,0⟩,⟨8,115792089237316195423570985008687907853269984665640564039457584007908834656767,[],[(3,.setEnt (.own 3))],0,0⟩],[[⟨0,4294967808,[],[(0,.setEnt (.own 0))],0,0⟩],[⟨2,115792089237316195423570985008687907853269984665640564039457584007913129626623,[],[],0,0⟩],[⟨2,115792089237316195423570985008687907853269984665640564039457584007913129626623,[],[],0,0⟩],[⟨4,1024,[],[(2,.setEnt .newline)],0,0⟩],[],[],[],[],[]],[some (0,[]),some (1,[]),some (1,[]),none,some (2,[]),some (2,[]),some (2,[]),some (2,[]),some (3,[])],[1,2,3,4]⟩
theorem idl_pvwave_line_nfa_eq : IdlPvwave.idl_pvwave_line.nfa = idl_pvwave_line_nfa := by decide +kernel
/-- The machine of `IdlPvwave.idl_pvwave_line`, with its automaton as a literal. -/
def idl_pvwave_line_M : Machine := ⟨idl_pvwave_line_nfa, IdlPvwave.idl_pvwave_line.ends, IdlPvwave.idl_pvwave_line.sw⟩
theorem idl_pvwave_line_M_eq : IdlPvwave.idl_pvwave_line.machine = idl_pvwave_line_M := by
  unfold Scanner.machine idl_pvwave_line_M; rw [idl_pvwave_line_nfa_eq]
def idl_pvwave_line_masks : List Nat := [4294967808,576460752303423488,8192,1024,4096,115792089237316195423570985008687907853269984665640564039457584007908834656767,115792089237316195423570985008687907853269984665640564039457584007913129626623]
def idl_pvwave_line_cs : List (Nat × Nat) := [(0,115792089237316195423570985008687907853269984665640564039457007547156531233279),(9,4294967808),(10,1024),(11,2048),(12,4096),(13,8192),(59,576460752303423488)]
theorem idl_pvwave_line_masksIn : masksIn idl_pvwave_line_nfa idl_pvwave_line_masks = true := by decide +kernel
theorem idl_pvwave_line_repOk : repOk idl_pvwave_line_masks idl_pvwave_line_cs = true := by decide +kernel
def idl_pvwave_line_rows : List Row := [⟨[],none,[],[⟨256,.other,false,some ⟨0,[.setEnt (.own 3)],some 3,true⟩⟩,⟨256,.ws,false,some ⟨1,[.setEnt (.own 0)],some 0,false⟩⟩,⟨256,.lf,false,some ⟨0,[.setEnt .newline],some 2,true⟩⟩,⟨256,.vt,false,none⟩,⟨256,.ff,false,some ⟨0,[.setEnt .newline],some 2,true⟩⟩,⟨256,.cr,false,some ⟨2,[.setEnt .newline],none,false⟩⟩,⟨256,.cr,true,some ⟨3,[.setEnt .newline],some 2,false⟩⟩,⟨256,.other,false,some ⟨4,[.comment,.setEnt (.own 3)],some 1,false⟩⟩]⟩,⟨[0],some 0,[],[⟨256,.other,false,none⟩,⟨256,.ws,false,some ⟨1,[.setEnt (.own 0)],some 0,false⟩⟩,⟨256,.lf,false,none⟩,⟨256,.vt,false,none⟩,⟨256,.ff,false,none⟩,⟨256,.cr,false,none⟩,⟨256,.cr,true,none⟩]⟩,⟨[3],none,[],[⟨256,.other,false,none⟩,⟨256,.ws,false,none⟩,⟨256,.lf,false,some ⟨0,[.setEnt .newline],some 2,true⟩⟩,⟨256,.vt,false,none⟩,⟨256,.ff,false,none⟩,⟨256,.cr,false,none⟩,⟨256,.cr,true,none⟩]⟩,⟨[3,7],some 2,[],[⟨256,.other,false,none⟩,⟨256,.ws,false,none⟩,⟨256,.lf,false,some ⟨0,[.setEnt .newline],some 2,true⟩⟩,⟨256,.vt,false,none⟩,⟨256,.ff,false,none⟩,⟨256,.cr,false,none⟩,⟨256,.cr,true,none⟩]⟩,⟨[1,8],some 1,[],[⟨256,.other,false,some ⟨5,[],some 1,false⟩⟩,⟨256,.ws,false,some ⟨5,[],some 1,false⟩⟩,⟨256,.lf,false,none⟩,⟨256,.vt,false,some ⟨5,[],some 1,false⟩⟩,⟨256,.ff,false,none⟩,⟨256,.cr,false,none⟩,⟨256,.cr,true,none⟩]⟩,⟨[2],some 1,[],[⟨256,.other,false,some ⟨5,[],some 1,false⟩⟩,⟨256,.ws,false,some ⟨5,[],some 1,false⟩⟩,⟨256,.lf,false,none⟩,⟨256,.vt,false,some ⟨5,[],some 1,false⟩⟩,⟨256,.ff,false,none⟩,⟨256,.cr,false,none⟩,⟨256,.cr,true,none⟩]⟩]
theorem idl_pvwave_line_rowsOk : rowsOk idl_pvwave_line_nfa [] (idl_pvwave_line_cs.map (·.1)) idl_pvwave_line_rows = true := by decide +kernel
def idl_pvwave_line_D : Dfa idl_pvwave_line_M.nfa := ⟨idl_pvwave_line_masks, [], idl_pvwave_line_cs, idl_pvwave_line_rows, idl_pvwave_line_masksIn, idl_pvwave_line_repOk, idl_pvwave_line_rowsOk⟩

def modula2_line_nfa : Nfa := ⟨[⟨0,4294967808,[],[(0,.setEnt (.own 0))],0,0⟩,⟨1,1099511627776,[],[(1,.nestRes)],0,2⟩,⟨16,549755813888,[],[(11,.code)],0,0⟩,⟨19,17179869184,[],[(12,.code)],0,0⟩,⟨22,8192,[],[(13,.setEnt .newline)],0,0⟩,⟨24,1024,[],[(13,.setEnt .newline)],0,0⟩,⟨25,4096,[],[(13,.setEnt .newline)],0,0⟩,⟨26,8192,[.crAlone],[(13,.setEnt .newline)],0,0⟩,⟨27,115792089237316195423570985008687907853269984665640564039457584007908834656767,[],[(14,.setEnt (.own 3))],0,0⟩],[[⟨0,4294967808,[],[(0,.setEnt (.own 0))],0,0⟩],[⟨2,4398046511104,[],[(2,.comment)],0,2⟩],[⟨3,8192,[],[],0,2⟩,⟨5,1024,[],[],0,2⟩,⟨6,4096,[],[],0,2⟩,⟨7,8192,[.crAlone],[],0,2⟩,⟨8,4294967808,[],[],0,2⟩,⟨9,1099511627776,[],[],0,2⟩,⟨11,4398046511104,[],[],0,2⟩,⟨13,115792089237316195423570985008687907853269984665640564039457584007908834656767,[],[(9,.comment)],0,2⟩,⟨14,4398046511104,[.nestZero],[],0,2⟩],[⟨4,1024,[],[],0,2⟩],[⟨3,8192,[],[(3,.setEnt .internalNl),(4,.cb)],0,2⟩,⟨5,1024,[],[(3,.setEnt .internalNl),(4,.cb)],0,2⟩,⟨6,4096,[],[(3,.setEnt .internalNl),(4,.cb)],0,2⟩,⟨7,8192,[.crAlone],[(3,.setEnt .internalNl),(4,.cb)],0,2⟩,⟨8,4294967808,[],[(3,.setEnt .internalNl),(4,.cb)],0,2⟩,⟨9,1099511627776,[],[(3,.setEnt .internalNl),(4,.cb)],0,2⟩,⟨11,4398046511104,[],[(3,.setEnt .internalNl),(4,.cb)],0,2⟩,⟨13,115792089237316195423570985008687907853269984665640564039457584007908834656767,[],[(3,.setEnt .internalNl),(4,.cb),(9,.comment)],0,2⟩,⟨14,4398046511104,[.nestZero],[(3,.setEnt .internalNl),(4,.cb)],0,2⟩],[⟨3,8192,[],[(3,.setEnt .internalNl),(4,.cb)],0,2⟩,⟨5,1024,[],[(3,.setEnt .internalNl),(4,.cb)],0,2⟩,⟨6,4096,[],[(3,.setEnt .internalNl),(4,.cb)],0,2⟩,⟨7,8192,[.crAlone],[(3,.setEnt .internalNl),(4,.cb)],0,2⟩,⟨8,4294967808,[],[(3,.setEnt .internalNl),(4,.cb)],0,2⟩,⟨9,1099511627776,[],[(3,.setEnt .internalNl),(4,.cb)],0,2⟩,⟨11,4398046511104,[],[(3,.setEnt .internalNl),(4,.cb)],0,2⟩,⟨13,115792089237316195423570985008687907853269984665640564039457584007908834656767,[],[(3,.setEnt .internalNl),(4,.cb),(9,.comment)],0,2⟩,⟨14,4398046511104,[.nestZero],[(3,.setEnt .internalNl),(4,.cb)],0,2⟩],[⟨3,8192,[],[(3,.setEnt .internalNl),(4,.cb)],0,2⟩,⟨5,1024,[],[(3,.setEnt .internalNl),(4,.cb)],0,2⟩,⟨6,4096,[],[(3,.setEnt .internalNl),(4,.cb)],0,2⟩,⟨7,8192,[.crAlone],[(3,.setEnt .internalNl),(4,.cb)],0,2⟩,⟨8,4294967808,[],[(3,.setEnt .internalNl),(4,.cb)],0,2⟩,⟨9,1099511627776,[],[(3,.setEnt .internalNl),(4,.cb)],0,2⟩,⟨11,4398046511104,[],[(3,.setEnt .internalNl),(4,.cb)],0,2⟩,⟨13,115792089237316195423570985008687907853269984665640564039457584007908834656767,[],[(3,.setEnt .internalNl),(4,.cb),(9,.comment)],0,2⟩,⟨14,4398046511104,[.nestZero],[(3,.setEnt .internalNl),(4,.cb)],0,2⟩],[⟨3,8192,[],[(3,.setEnt .internalNl),(4,.cb)],0,2⟩,⟨5,1024,[],[(3,.setEnt .internalNl),(4,.cb)],0,2⟩,⟨6,4096,[],[(3,.setEnt .internalNl),(4,.cb)],0,2⟩,⟨7,8192,[.crAlone],[(3,.setEnt .internalNl),(4,.cb)],0,2⟩,⟨8,4294967808,[],[(3,.setEnt .internalNl),(4,.cb)],0,2⟩,⟨9,1099511627776,[],[(3,.setEnt .internalNl),(4,.cb)],0,2⟩,⟨11,4398046511104,[],[(3,.setEnt .internalNl),(4,.cb)],0,2⟩,⟨13,115792089237316195423570985008687907853269984665640564039457584007908834656767,[],[(3,.setEnt .internalNl),(4,.cb),(9,.comment)],0,2⟩,⟨14,4398046511104,[.nestZero],[(3,.setEnt .internalNl),(4,.cb)],0,2⟩],[⟨3,8192,[],[],0,2⟩,⟨5,1024,[],[],0,2⟩,⟨6,4096,[],[],0,2⟩,⟨7,8192,[.crAlone],[],0,2⟩,⟨8,4294967808,[],[],0,2⟩,⟨9,1099511627776,[],[],0,2⟩,⟨11,4398046511104,[],[],0,2⟩,⟨13,115792089237316195423570985008687907853269984665640564039457584007908834656767,[],[(9,.comment)],0,2⟩,⟨14,4398046511104,[.nestZero],[],0,2⟩],[⟨10,4398046511104,[],[(5,.nestInc),(6,.comment)],0,2⟩],[⟨3,8192,[],[],0,2⟩,⟨5,1024,[],[],0,2⟩,⟨6,4096,[],[],0,2⟩,⟨7,8192,[.crAlone],[],0,2⟩,⟨8,4294967808,[],[],0,2⟩,⟨9,1099511627776,[],[],0,2⟩,⟨11,4398046511104,[],[],0,2⟩,⟨13,115792089237316195423570985008687907853269984665640564039457584007908834656767,[],[(9,.comment)],0,2⟩,⟨14,4398046511104,[.nestZero],[],0,2⟩],[⟨12,2199023255552,[],[(7,.nestDec),(8,.comment)],0,2⟩],[⟨3,8192,[],[],0,2⟩,⟨5,1024,[],[],0,2⟩,⟨6,4096,[],[],0,2⟩,⟨7,8192,[.crAlone],[],0,2⟩,⟨8,4294967808,[],[],0,2⟩,⟨9,1099511627776,[],[],0,2⟩,⟨11,4398046511104,[],[],0,2⟩,⟨13,115792089237316195423570985008687907853269984665640564039457584007908834656767,[],[(9,.comment)],0,2⟩,⟨14,4398046511104,[.nestZero],[],0,2⟩],[⟨3,8192,[],[],0,2⟩,⟨5,1024,[],[],0,2⟩,⟨6,4096,[],[],0,2⟩,⟨7,8192,[.crAlone],[],0,2⟩,⟨8,4294967808,[],[],0,2⟩,⟨9,1099511627776,[],[],0,2⟩,⟨11,4398046511104,[],[],0,2⟩,⟨13,115792089237316195423570985008687907853269984665640564039457584007908834656767,[],[(9,.comment)],0,2⟩,⟨14,4398046511104,[.nestZero],[],0,2⟩],[⟨15,2199023255552,[.nestZero],[(10,.comment)],2,0⟩],[],[⟨17,115792089237316195423570985008687907853269984665640564039457584007895949757439,[],[],0,0⟩,⟨18,549755813888,[],[],0,0⟩],[⟨17,115792089237316195423570985008687907853269984665640564039457584007895949757439,[],[],0,0⟩,⟨18,549755813888,[],[],0,0⟩],[],[⟨20,115792089237316195423570985008687907853269984665640564039457584007895949757439,[],[],0,0⟩,⟨21,17179869184,[],[],0,0⟩],[⟨20,115792089237316195423570985008687907853269984665640564039457584007895949757439,[],[],0,0⟩,⟨21,17179869184,[],[],0,0⟩],[],[⟨23,1024,[],[(13,.setEnt .newline)],0,0⟩],[],[],[],[],[]],[some (0,[]),none,none,none,none,none,none,none,none,none,none,none,none,none,none,some (1,[]),none,none,some (2,[]),none,none,some (2,[]),none,some (3,[]),some (3,[]),some (3,[]),some (3,[]),some (4,[])],[1,11,13,14,15]⟩
theorem modula2_line_nfa_eq : Modula2.modula2_line.nfa = modula2_line_nfa := by decide +kernel
/-- The machine of `Modula2.modula2_line`, with its automaton as a literal. -/
def modula2_line_M : Machine := ⟨modula2_line_nfa, Modula2.modula2_line.ends, Modula2.modula2_line.sw⟩
theorem modula2_line_M_eq : Modula2.modula2_line.machine = modula2_line_M := by
  unfold Scanner.machine modula2_line_M; rw [modula2_line_nfa_eq]
def modula2_line_masks : List Nat := [4294967808,1099511627776,549755813888,17179869184,8192,1024,4096,115792089237316195423570985008687907853269984665640564039457584007908834656767,4398046511104,2199023255552,115792089237316195423570985008687907853269984665640564039457584007895949757439]
def modula2_line_cs : List (Nat × Nat) := [(0,115792089237316195423570985008687907853269984665640564039457583999645317579263),(9,4294967808),(10,1024),(11,2048),(12,4096),(13,8192),(34,17179869184),(39,549755813888),(40,1099511627776),(41,2199023255552),(42,4398046511104)]
theorem modula2_line_masksIn : masksIn modula2_line_nfa modula2_line_masks = true := by decide +kernel
theorem modula2_line_repOk : repOk modula2_line_masks modula2_line_cs = true := by decide +kernel
def modula2_line_rows : List Row := [⟨[],none,[],[⟨256,.other,false,some ⟨0,[.setEnt (.own 3)],some 4,true⟩⟩,⟨256,.ws,false,some ⟨1,[.setEnt (.own 0)],some 0,false⟩⟩,⟨256,.lf,false,some ⟨0,[.setEnt .newline],some 3,true⟩⟩,⟨256,.vt,false,none⟩,⟨256,.ff,false,some ⟨0,[.setEnt .newline],some 3,true⟩⟩,⟨256,.cr,false,some ⟨2,[.setEnt .newline],none,false⟩⟩,⟨256,.cr,true,some ⟨3,[.setEnt .newline],some 3,false⟩⟩,⟨256,.other,false,some ⟨4,[.code,.setEnt (.own 3)],some 4,false⟩⟩,⟨256,.other,false,some ⟨5,[.code,.setEnt (.own 3)],some 4,false⟩⟩,⟨256,.other,false,some ⟨6,[.nestRes,.setEnt (.own 3)],some 4,false⟩⟩]⟩,⟨[0],some 0,[],[⟨256,.other,false,none⟩,⟨256,.ws,false,some ⟨1,[.setEnt (.own 0)],some 0,false⟩⟩,⟨256,.lf,false,none⟩,⟨256,.vt,false,none⟩,⟨256,.ff,false,none⟩,⟨256,.cr,false,none⟩,⟨256,.cr,true,none⟩]⟩,⟨[22],none,[],[⟨256,.other,false,none⟩,⟨256,.ws,false,none⟩,⟨256,.lf,false,some ⟨0,[.setEnt .newline],some 3,true⟩⟩,⟨256,.vt,false,none⟩,⟨256,.ff,false,none⟩,⟨256,.cr,false,none⟩,⟨256,.cr,true,none⟩]⟩,⟨[22,26],some 3,[],[⟨256,.other,false,none⟩,⟨256,.ws,false,none⟩,⟨256,.lf,false,some ⟨0,[.setEnt .newline],some 3,true⟩⟩,⟨256,.vt,false,none⟩,⟨256,.ff,false,none⟩,⟨256,.cr,false,none⟩,⟨256,.cr,true,none⟩]⟩,⟨[19,27],some 4,[],[⟨256,.other,false,some ⟨7,[],none,false⟩⟩,⟨256,.ws,false,some ⟨7,[],none,false⟩⟩,⟨256,.lf,false,none⟩,⟨256,.vt,false,some ⟨7,[],none,false⟩⟩,⟨256,.ff,false,none⟩,⟨256,.cr,false,none⟩,⟨256,.cr,true,none⟩,⟨256,.other,false,some ⟨0,[],some 2,true⟩⟩]⟩,⟨[16,27],some 4,[],[⟨256,.other,false,some ⟨8,[],none,false⟩⟩,⟨256,.ws,false,some ⟨8,[],none,false⟩⟩,⟨256,.lf,false,none⟩,⟨256,.vt,false,some ⟨8,[],none,false⟩⟩,⟨256,.ff,false,none⟩,⟨256,.cr,false,none⟩,⟨256,.cr,true,none⟩,⟨256,.other,false,none⟩,⟨256,.other,false,some ⟨9,[],some 2,false⟩⟩]⟩,⟨[1,27],some 4,[],[⟨256,.other,false,none⟩,⟨256,.ws,false,none⟩,⟨256,.lf,false,none⟩,⟨256,.vt,false,none⟩,⟨256,.ff,false,none⟩,⟨256,.cr,false,none⟩,⟨256,.cr,true,none⟩,⟨256,.other,false,some ⟨10,[.comment],none,false⟩⟩]⟩,⟨[20],none,[],[⟨256,.other,false,some ⟨7,[],none,false⟩⟩,⟨256,.ws,false,some ⟨7,[],none,false⟩⟩,⟨256,.lf,false,none⟩,⟨256,.vt,false,some ⟨7,[],none,false⟩⟩,⟨256,.ff,false,none⟩,⟨256,.cr,false,none⟩,⟨256,.cr,true,none⟩,⟨256,.other,false,some ⟨0,[],some 2,true⟩⟩]⟩,⟨[17],none,[],[⟨256,.other,false,some ⟨8,[],none,false⟩⟩,⟨256,.ws,false,some ⟨8,[],none,false⟩⟩,⟨256,.lf,false,none⟩,⟨256,.vt,false,some ⟨8,[],none,false⟩⟩,⟨256,.ff,false,none⟩,⟨256,.cr,false,none⟩,⟨256,.cr,true,none⟩,⟨256,.other,false,none⟩,⟨256,.other,false,some ⟨9,[],some 2,false⟩⟩]⟩,⟨[17,18],some 2,[],[⟨256,.other,false,some ⟨8,[],none,false⟩⟩,⟨256,.ws,false,some ⟨8,[],none,false⟩⟩,⟨256,.lf,false,none⟩,⟨256,.vt,false,some ⟨8,[],none,false⟩⟩,⟨256,.ff,false,none⟩,⟨256,.cr,false,none⟩,⟨256,.cr,true,none⟩,⟨256,.other,false,none⟩,⟨256,.other,false,some ⟨9,[],some 2,false⟩⟩]⟩,⟨[2],none,[],[⟨256,.other,false,some ⟨11,[.comment],none,false⟩⟩,⟨256,.ws,false,some ⟨12,[],none,false⟩⟩,⟨256,.lf,false,some ⟨13,[],none,false⟩⟩,⟨256,.vt,false,none⟩,⟨256,.ff,false,some ⟨14,[],none,false⟩⟩,⟨256,.cr,false,some ⟨15,[],none,false⟩⟩,⟨256,.cr,true,some ⟨16,[],none,false⟩⟩,⟨256,.other,false,some ⟨17,[.comment],none,false⟩⟩,⟨256,.other,false,some ⟨18,[.comment],none,false⟩⟩,⟨256,.other,false,some ⟨19,[.comment],none,false⟩⟩]⟩,⟨[13],none,[],[⟨256,.other,false,some ⟨11,[.comment],none,false⟩⟩,⟨256,.ws,false,some ⟨12,[],none,false⟩⟩,⟨256,.lf,false,some ⟨13,[],none,false⟩⟩,⟨256,.vt,false,none⟩,⟨256,.ff,false,some ⟨14,[],none,false⟩⟩,⟨256,.cr,false,some ⟨15,[],none,false⟩⟩,⟨256,.cr,true,some ⟨16,[],none,false⟩⟩,⟨256,.other,false,some ⟨17,[.comment],none,false⟩⟩,⟨256,.other,false,some ⟨18,[.comment],none,false⟩⟩,⟨256,.other,false,some ⟨19,[.comment],none,false⟩⟩]⟩,⟨[8],none,[],[⟨256,.other,false,some ⟨11,[.comment],none,false⟩⟩,⟨256,.ws,false,some ⟨12,[],none,false⟩⟩,⟨256,.lf,false,some ⟨13,[],none,false⟩⟩,⟨256,.vt,false,none⟩,⟨256,.ff,false,some ⟨14,[],none,false⟩⟩,⟨256,.cr,false,some ⟨15,[],none,false⟩⟩,⟨256,.cr,true,some ⟨16,[],none,false⟩⟩,⟨256,.other,false,some ⟨17,[.comment],none,false⟩⟩,⟨256,.other,false,some ⟨18,[.comment],none,false⟩⟩,⟨256,.other,false,some ⟨19,[.comment],none,false⟩⟩]⟩,⟨[5],none,[],[⟨256,.other,false,some ⟨11,[.setEnt .internalNl,.cb,.comment],none,false⟩⟩,⟨256,.ws,false,some ⟨12,[.setEnt .internalNl,.cb],none,false⟩⟩,⟨256,.lf,false,some ⟨13,[.setEnt .internalNl,.cb],none,false⟩⟩,⟨256,.vt,false,none⟩,⟨256,.ff,false,some ⟨14,[.setEnt .internalNl,.cb],none,false⟩⟩,⟨256,.cr,false,some ⟨15,[.setEnt .internalNl,.cb],none,false⟩⟩,⟨256,.cr,true,some ⟨16,[.setEnt .internalNl,.cb],none,false⟩⟩,⟨256,.other,false,some ⟨17,[.setEnt .internalNl,.cb,.comment],none,false⟩⟩,⟨256,.other,false,some ⟨18,[.setEnt .internalNl,.cb,.comment],none,false⟩⟩,⟨256,.other,false,some ⟨19,[.setEnt .internalNl,.cb,.comment],none,false⟩⟩]⟩,⟨[6],none,[],[⟨256,.other,false,some ⟨11,[.setEnt .internalNl,.cb,.comment],none,false⟩⟩,⟨256,.ws,false,some ⟨12,[.setEnt .internalNl,.cb],none,false⟩⟩,⟨256,.lf,false,some ⟨13,[.setEnt .internalNl,.cb],none,false⟩⟩,⟨256,.vt,false,none⟩,⟨256,.ff,false,some ⟨14,[.setEnt .internalNl,.cb],none,false⟩⟩,⟨256,.cr,false,some ⟨15,[.setEnt .internalNl,.cb],none,false⟩⟩,⟨256,.cr,true,some ⟨16,[.setEnt .internalNl,.cb],none,false⟩⟩,⟨256,.other,false,some ⟨17,[.setEnt .internalNl,.cb,.comment],none,false⟩⟩,⟨256,.other,false,some ⟨18,[.setEnt .internalNl,.cb,.comment],none,false⟩⟩,⟨256,.other,false,some ⟨19,[.setEnt .internalNl,.cb,.comment],none,false⟩⟩]⟩,⟨[3],none,[],[⟨256,.other,false,none⟩,⟨256,.ws,false,none⟩,⟨256,.lf,false,some ⟨20,[],none,false⟩⟩,⟨256,.vt,false,none⟩,⟨256,.ff,false,none⟩,⟨256,.cr,false,none⟩,⟨256,.cr,true,none⟩]⟩,⟨[3,7],none,[],[⟨256,.other,false,some ⟨11,[.setEnt .internalNl,.cb,.comment],none,false⟩⟩,⟨256,.ws,false,some ⟨12,[.setEnt .internalNl,.cb],none,false⟩⟩,⟨256,.lf,false,some ⟨21,[.setEnt .internalNl,.cb],none,false⟩⟩,⟨256,.vt,false,none⟩,⟨256,.ff,false,some ⟨14,[.setEnt .internalNl,.cb],none,false⟩⟩,⟨256,.cr,false,some ⟨15,[.setEnt .internalNl,.cb],none,false⟩⟩,⟨256,.cr,true,some ⟨16,[.setEnt .internalNl,.cb],none,false⟩⟩,⟨256,.other,false,some ⟨17,[.setEnt .internalNl,.cb,.comment],none,false⟩⟩,⟨256,.other,false,some ⟨18,[.setEnt .internalNl,.cb,.comment],none,false⟩⟩,⟨256,.other,false,some ⟨19,[.setEnt .internalNl,.cb,.comment],none,false⟩⟩]⟩,⟨[9,13],none,[],[⟨256,.other,false,some ⟨11,[.comment],none,false⟩⟩,⟨256,.ws,false,some ⟨12,[],none,false⟩⟩,⟨256,.lf,false,some ⟨13,[],none,false⟩⟩,⟨256,.vt,false,none⟩,⟨256,.ff,false,some ⟨14,[],none,false⟩⟩,⟨256,.cr,false,some ⟨15,[],none,false⟩⟩,⟨256,.cr,true,some ⟨16,[],none,false⟩⟩,⟨256,.other,false,some ⟨17,[.comment],none,false⟩⟩,⟨256,.other,false,some ⟨22,[.nestInc,.comment],none,false⟩⟩,⟨256,.other,false,some ⟨23,[.nestInc,.comment],none,false⟩⟩]⟩,⟨[11,13],none,[],[⟨256,.other,false,some ⟨11,[.comment],none,false⟩⟩,⟨256,.ws,false,some ⟨12,[],none,false⟩⟩,⟨256,.lf,false,some ⟨13,[],none,false⟩⟩,⟨256,.vt,false,none⟩,⟨256,.ff,false,some ⟨14,[],none,false⟩⟩,⟨256,.cr,false,some ⟨15,[],none,false⟩⟩,⟨256,.cr,true,some ⟨16,[],none,false⟩⟩,⟨256,.other,false,some ⟨17,[.comment],none,false⟩⟩,⟨256,.other,false,some ⟨24,[.nestDec,.comment],none,false⟩⟩,⟨256,.other,false,some ⟨18,[.comment],none,false⟩⟩,⟨256,.other,false,some ⟨19,[.comment],none,false⟩⟩]⟩,⟨[11,13,14],none,[],[⟨256,.other,false,some ⟨11,[.comment],none,false⟩⟩,⟨256,.ws,false,some ⟨12,[],none,false⟩⟩,⟨256,.lf,false,some ⟨13,[],none,false⟩⟩,⟨256,.vt,false,none⟩,⟨256,.ff,false,some ⟨14,[],none,false⟩⟩,⟨256,.cr,false,some ⟨15,[],none,false⟩⟩,⟨256,.cr,true,some ⟨16,[],none,false⟩⟩,⟨256,.other,false,some ⟨17,[.comment],none,false⟩⟩,⟨256,.other,false,some ⟨24,[.nestDec,.comment],none,false⟩⟩,⟨256,.other,false,some ⟨0,[.comment],some 1,true⟩⟩,⟨256,.other,false,some ⟨18,[.comment],none,false⟩⟩,⟨256,.other,false,some ⟨19,[.comment],none,false⟩⟩]⟩,⟨[4],none,[],[⟨256,.other,false,some ⟨11,[.setEnt .internalNl,.cb,.comment],none,false⟩⟩,⟨256,.ws,false,some ⟨12,[.setEnt .internalNl,.cb],none,false⟩⟩,⟨256,.lf,false,some ⟨13,[.setEnt .internalNl,.cb],none,false⟩⟩,⟨256,.vt,false,none⟩,⟨256,.ff,false,some ⟨14,[.setEnt .internalNl,.cb],none,false⟩⟩,⟨256,.cr,false,some ⟨15,[.setEnt .internalNl,.cb],none,false⟩⟩,⟨256,.cr,true,some ⟨16,[.setEnt .internalNl,.cb],none,false⟩⟩,⟨256,.other,false,some ⟨17,[.setEnt .internalNl,.cb,.comment],none,false⟩⟩,⟨256,.other,false,some ⟨18,[.setEnt .internalNl,.cb,.comment],none,false⟩⟩,⟨256,.other,false,some ⟨19,[.setEnt .internalNl,.cb,.comment],none,false⟩⟩]⟩,⟨[4,5],none,[],[⟨256,.other,false,some ⟨11,[.setEnt .internalNl,.cb,.comment],none,false⟩⟩,⟨256,.ws,false,some ⟨12,[.setEnt .internalNl,.cb],none,false⟩⟩,⟨256,.lf,false,some ⟨13,[.setEnt .internalNl,.cb],none,false⟩⟩,⟨256,.vt,false,none⟩,⟨256,.ff,false,some ⟨14,[.setEnt .internalNl,.cb],none,false⟩⟩,⟨256,.cr,false,some ⟨15,[.setEnt .internalNl,.cb],none,false⟩⟩,⟨256,.cr,true,some ⟨16,[.setEnt .internalNl,.cb],none,false⟩⟩,⟨256,.other,false,some ⟨17,[.setEnt .internalNl,.cb,.comment],none,false⟩⟩,⟨256,.other,false,some ⟨18,[.setEnt .internalNl,.cb,.comment],none,false⟩⟩,⟨256,.other,false,some ⟨19,[.setEnt .internalNl,.cb,.comment],none,false⟩⟩]⟩,⟨[10,11,13],none,[],[⟨256,.other,false,some ⟨11,[.comment],none,false⟩⟩,⟨256,.ws,false,some ⟨12,[],none,false⟩⟩,⟨256,.lf,false,some ⟨13,[],none,false⟩⟩,⟨256,.vt,false,none⟩,⟨256,.ff,false,some ⟨14,[],none,false⟩⟩,⟨256,.cr,false,some ⟨15,[],none,false⟩⟩,⟨256,.cr,true,some ⟨16,[],none,false⟩⟩,⟨256,.other,false,some ⟨17,[.comment],none,false⟩⟩,⟨256,.other,false,some ⟨24,[.nestDec,.comment],none,false⟩⟩,⟨256,.other,false,some ⟨18,[.comment],none,false⟩⟩,⟨256,.other,false,some ⟨19,[.comment],none,false⟩⟩]⟩,⟨[10,11,13,14],none,[],[⟨256,.other,false,some ⟨11,[.comment],none,false⟩⟩,⟨256,.ws,false,some ⟨12,[],none,false⟩⟩,⟨256,.lf,false,some ⟨13,[],none,false⟩⟩,⟨256,.vt,false,none⟩,⟨256,.ff,false,some ⟨14,[],none,false⟩⟩,⟨256,.cr,false,some ⟨15,[],none,false⟩⟩,⟨256,.cr,true,some ⟨16,[],none,false⟩⟩,⟨256,.other,false,some ⟨17,[.comment],none,false⟩⟩,⟨256,.other,false,some ⟨24,[.nestDec,.comment],none,false⟩⟩,⟨256,.other,false,some ⟨0,[.comment],some 1,true⟩⟩,⟨256,.other,false,some ⟨18,[.comment],none,false⟩⟩,⟨256,.other,false,some ⟨19,[.comment],none,false⟩⟩]⟩,⟨[12,13],none,[],[⟨256,.other,false,some ⟨11,[.comment],none,false⟩⟩,⟨256,.ws,false,some ⟨12,[],none,false⟩⟩,⟨256,.lf,false,some ⟨13,[],none,false⟩⟩,⟨256,.vt,false,none⟩,⟨256,.ff,false,some ⟨14,[],none,false⟩⟩,⟨256,.cr,false,some ⟨15,[],none,false⟩⟩,⟨256,.cr,true,some ⟨16,[],none,false⟩⟩,⟨256,.other,false,some ⟨17,[.comment],none,false⟩⟩,⟨256,.other,false,some ⟨18,[.comment],none,false⟩⟩,⟨256,.other,false,some ⟨19,[.comment],none,false⟩⟩]⟩]
theorem modula2_line_rowsOk : rowsOk modula2_line_nfa [] (modula2_line_cs.map (·.1)) modula2_line_rows = true := by decide +kernel
def modula2_line_D : Dfa modula2_line_M.nfa := ⟨modula2_line_masks, [], modula2_line_cs, modula2_line_rows, modula2_line_masksIn, modula2_line_repOk, modula2_line_rowsOk⟩

def modula3_line_nfa : Nfa := ⟨[⟨0,4294967808,[],[(0,.setEnt (.own 0))],0,0⟩,⟨1,1099511627776,[],[(1,.nestRes)],0,2⟩,⟨16,549755813888,[],[(11,.code)],0,0⟩,⟨28,17179869184,[],[(16,.code)],0,0⟩,⟨40,8192,[],[(21,.setEnt .newline)],0,0⟩,⟨42,1024,[],[(21,.setEnt .newline)],0,0⟩,⟨43,4096,[],[(21,.setEnt .newline)],0,0⟩,⟨44,8192,[.crAlone],[(21,.setEnt .newline)],0,0⟩,⟨45,115792089237316195423570985008687907853269984665640564039457584007908834656767,[],[(22,.setEnt (.own 3))],0,0⟩],[[⟨0,4294967808,[],[(0,.setEnt (.own 0))],0,0⟩],[⟨2,4398046511104,[],[(2,.comment)],0,2⟩],[⟨3,8192,[],[],0,2⟩,⟨5,1024,[],[],0,2⟩,⟨6,4096,[],[],0,2⟩,⟨7,8192,[.crAlone],[],0,2⟩,⟨8,4294967808,[],[],0,2⟩,⟨9,1099511627776,[],[],0,2⟩,⟨11,4398046511104,[],[],0,2⟩,⟨13,115792089237316195423570985008687907853269984665640564039457584007908834656767,[],[(9,.comment)],0,2⟩,⟨14,4398046511104,[.nestZero],[],0,2⟩],[⟨4,1024,[],[],0,2⟩],[⟨3,8192,[],[(3,.setEnt .internalNl),(4,.cb)],0,2⟩,⟨5,1024,[],[(3,.setEnt .internalNl),(4,.cb)],0,2⟩,⟨6,4096,[],[(3,.setEnt .internalNl),(4,.cb)],0,2⟩,⟨7,8192,[.crAlone],[(3,.setEnt .internalNl),(4,.cb)],0,2⟩,⟨8,4294967808,[],[(3,.setEnt .internalNl),(4,.cb)],0,2⟩,⟨9,1099511627776,[],[(3,.setEnt .internalNl),(4,.cb)],0,2⟩,⟨11,4398046511104,[],[(3,.setEnt .internalNl),(4,.cb)],0,2⟩,⟨13,115792089237316195423570985008687907853269984665640564039457584007908834656767,[],[(3,.setEnt .internalNl),(4,.cb),(9,.comment)],0,2⟩,⟨14,4398046511104,[.nestZero],[(3,.setEnt .internalNl),(4,.cb)],0,2⟩],[⟨3,8192,[],[(3,.setEnt .internalNl),(4,.cb)],0,2⟩,⟨5,1024,[],[(3,.setEnt .internalNl),(4,.cb)],0,2⟩,⟨6,4096,[],[(3,.setEnt .internalNl),(4,.cb)],0,2⟩,⟨7,8192,[.crAlone],[(3,.setEnt .internalNl),(4,.cb)],0,2⟩,⟨8,4294967808,[],[(3,.setEnt .internalNl),(4,.cb)],0,2⟩,⟨9,1099511627776,[],[(3,.setEnt .internalNl),(4,.cb)],0,2⟩,⟨11,4398046511104,[],[(3,.setEnt .internalNl),(4,.cb)],0,2⟩,⟨13,115792089237316195423570985008687907853269984665640564039457584007908834656767,[],[(3,.setEnt .internalNl),(4,.cb),(9,.comment)],0,2⟩,⟨14,4398046511104,[.nestZero],[(3,.setEnt .internalNl),(4,.cb)],0,2⟩],[⟨3,8192,[],[(3,.setEnt .internalNl),(4,.cb)],0,2⟩,⟨5,1024,[],[(3,.setEnt .internalNl),(4,.cb)],0,2⟩,⟨6,4096,[],[(3,.setEnt .internalNl),(4,.cb)],0,2⟩,⟨7,8192,[.crAlone],[(3,.setEnt .internalNl),(4,.cb)],0,2⟩,⟨8,4294967808,[],[(3,.setEnt .internalNl),(4,.cb)],0,2⟩,⟨9,1099511627776,[],[(3,.setEnt .internalNl),(4,.cb)],0,2⟩,⟨11,4398046511104,[],[(3,.setEnt .internalNl),(4,.cb)],0,2⟩,⟨13,115792089237316195423570985008687907853269984665640564039457584007908834656767,[],[(3,.setEnt .internalNl),(4,.cb),(9,.comment)],0,2⟩,⟨14,4398046511104,[.nestZero],[(3,.setEnt .internalNl),(4,.cb)],0,2⟩],[⟨3,8192,[],[(3,.setEnt .internalNl),(4,.cb)],0,2⟩,⟨5,1024,[],[(3,.setEnt .internalNl),(4,.cb)],0,2⟩,⟨6,4096,[],[(3,.setEnt .internalNl),(4,.cb)],0,2⟩,⟨7,8192,[.crAlone],[(3,.setEnt .internalNl),(4,.cb)],0,2⟩,⟨8,4294967808,[],[(3,.setEnt .internalNl),(4,.cb)],0,2⟩,⟨9,1099511627776,[],[(3,.setEnt .internalNl),(4,.cb)],0,2⟩,⟨11,4398046511104,[],[(3,.setEnt .internalNl),(4,.cb)],0,2⟩,⟨13,115792089237316195423570985008687907853269984665640564039457584007908834656767,[],[(3,.setEnt .internalNl),(4,.cb),(9,.comment)],0,2⟩,⟨14,4398046511104,[.nestZero],[(3,.setEnt .internalNl),(4,.cb)],0,2⟩],[⟨3,8192,[],[],0,2⟩,⟨5,1024,[],[],0,2⟩,⟨6,4096,[],[],0,2⟩,⟨7,8192,[.crAlone],[],0,2⟩,⟨8,4294967808,[],[],0,2⟩,⟨9,1099511627776,[],[],0,2⟩,⟨11,4398046511104,[],[],0,2⟩,⟨13,115792089237316195423570985008687907853269984665640564039457584007908834656767,[],[(9,.comment)],0,2⟩,⟨14,4398046511104,[.nestZero],[],0,2⟩],[⟨10,4398046511104,[],[(5,.nestInc),(6,.comment)],0,2⟩],[⟨3,8192,[],[],0,2⟩,⟨5,1024,[],[],0,2⟩,⟨6,4096,[],[],0,2⟩,⟨7,8192,[.crAlone],[],0,2⟩,⟨8,4294967808,[],[],0,2⟩,⟨9,1099511627776,[],[],0,2⟩,⟨11,4398046511104,[],[],0,2⟩,⟨13,115792089237316195423570985008687907853269984665640564039457584007908834656767,[],[(9,.comment)],0,2⟩,⟨14,4398046511104,[.nestZero],[],0,2⟩],[⟨12,2199023255552,[],[(7,.nestDec),(8,.comment)],0,2⟩],[⟨3,8192,[],[],0,2⟩,⟨5,1024,[],[],0,2⟩,⟨6,4096,[],[],0,2⟩,⟨7,8192,[.crAlone],[],0,2⟩,⟨8,4294967808,[],[],0,2⟩,⟨9,1099511627776,[],[],0,2⟩,⟨11,4398046511104,[],[],0,2⟩,⟨13,115792089237316195423570985008687907853269984665640564039457584007908834656767,[],[(9,.comment)],0,2⟩,⟨14,4398046511104,[.nestZero],[],0,2⟩],[⟨3,8192,[],[],0,2⟩,⟨5,1024,[],[],0,2⟩,⟨6,4096,[],[],0,2⟩,⟨7,8192,[.crAlone],[],0,2⟩,⟨8,4294967808,[],[],0,2⟩,⟨9,1099511627776,[],[],0,2⟩,⟨11,4398046511104,[],[],0,2⟩,⟨13,115792089237316195423570985008687907853269984665640564039457584007908834656767,[],[(9,.comment)],0,2⟩,⟨14,4398046511104,[.nestZero],[],0,2⟩],[⟨15,2199023255552,[.nestZero],[(10,.comment)],2,0⟩],[],[⟨17,4951760157141521099596496896,[],[],0,0⟩,⟨23,4294967808,[],[],0,0⟩,⟨24,115792089237316195423570985008687907853269984665635612279300442486259482361343,[],[(14,.code)],0,0⟩,⟨25,4951760157141521099596496896,[],[],0,0⟩,⟨27,549755813888,[],[],0,0⟩],[⟨18,8192,[],[],0,0⟩,⟨20,1024,[],[],0,0⟩,⟨21,4096,[],[],0,0⟩,⟨22,8192,[.crAlone],[],0,0⟩],[⟨19,1024,[],[],0,0⟩],[⟨17,4951760157141521099596496896,[],[(12,.setEnt .internalNl),(13,.cb)],0,0⟩,⟨23,4294967808,[],[(12,.setEnt .internalNl),(13,.cb)],0,0⟩,⟨24,115792089237316195423570985008687907853269984665635612279300442486259482361343,[],[(12,.setEnt .internalNl),(13,.cb),(14,.code)],0,0⟩,⟨25,4951760157141521099596496896,[],[(12,.setEnt .internalNl),(13,.cb)],0,0⟩,⟨27,549755813888,[],[(12,.setEnt .internalNl),(13,.cb)],0,0⟩],[⟨17,4951760157141521099596496896,[],[(12,.setEnt .internalNl),(13,.cb)],0,0⟩,⟨23,4294967808,[],[(12,.setEnt .internalNl),(13,.cb)],0,0⟩,⟨24,115792089237316195423570985008687907853269984665635612279300442486259482361343,[],[(12,.setEnt .internalNl),(13,.cb),(14,.code)],0,0⟩,⟨25,4951760157141521099596496896,[],[(12,.setEnt .internalNl),(13,.cb)],0,0⟩,⟨27,549755813888,[],[(12,.setEnt .internalNl),(13,.cb)],0,0⟩],[⟨17,4951760157141521099596496896,[],[(12,.setEnt .internalNl),(13,.cb)],0,0⟩,⟨23,4294967808,[],[(12,.setEnt .internalNl),(13,.cb)],0,0⟩,⟨24,115792089237316195423570985008687907853269984665635612279300442486259482361343,[],[(12,.setEnt .internalNl),(13,.cb),(14,.code)],0,0⟩,⟨25,4951760157141521099596496896,[],[(12,.setEnt .internalNl),(13,.cb)],0,0⟩,⟨27,549755813888,[],[(12,.setEnt .internalNl),(13,.cb)],0,0⟩],[⟨17,4951760157141521099596496896,[],[(12,.setEnt .internalNl),(13,.cb)],0,0⟩,⟨23,4294967808,[],[(12,.setEnt .internalNl),(13,.cb)],0,0⟩,⟨24,115792089237316195423570985008687907853269984665635612279300442486259482361343,[],[(12,.setEnt .internalNl),(13,.cb),(14,.code)],0,0⟩,⟨25,4951760157141521099596496896,[],[(12,.setEnt .internalNl),(13,.cb)],0,0⟩,⟨27,549755813888,[],[(12,.setEnt .internalNl),(13,.cb)],0,0⟩],[⟨17,4951760157141521099596496896,[],[],0,0⟩,⟨23,4294967808,[],[],0,0⟩,⟨24,115792089237316195423570985008687907853269984665635612279300442486259482361343,[],[(14,.code)],0,0⟩,⟨25,4951760157141521099596496896,[],[],0,0⟩,⟨27,549755813888,[],[],0,0⟩],[⟨17,4951760157141521099596496896,[],[],0,0⟩,⟨23,4294967808,[],[],0,0⟩,⟨24,115792089237316195423570985008687907853269984665635612279300442486259482361343,[],[(14,.code)],0,0⟩,⟨25,4951760157141521099596496896,[],[],0,0⟩,⟨27,549755813888,[],[],0,0⟩],[⟨26,115792089237316195423570985008687907853269984665640564039457584007913129626623,[],[(15,.code)],0,0⟩],[⟨17,4951760157141521099596496896,[],[],0,0⟩,⟨23,4294967808,[],[],0,0⟩,⟨24,115792089237316195423570985008687907853269984665635612279300442486259482361343,[],[(14,.code)],0,0⟩,⟨25,4951760157141521099596496896,[],[],0,0⟩,⟨27,549755813888,[],[],0,0⟩],[],[⟨29,4951760157141521099596496896,[],[],0,0⟩,⟨35,4294967808,[],[],0,0⟩,⟨36,115792089237316195423570985008687907853269984665635612279300442486792058306047,[],[(19,.code)],0,0⟩,⟨37,4951760157141521099596496896,[],[],0,0⟩,⟨39,17179869184,[],[],0,0⟩],[⟨30,8192,[],[],0,0⟩,⟨32,1024,[],[],0,0⟩,⟨33,4096,[],[],0,0⟩,⟨34,8192,[.crAlone],[],0,0⟩],[⟨31,1024,[],[],0,0⟩],[⟨29,4951760157141521099596496896,[],[(17,.setEnt .internalNl),(18,.cb)],0,0⟩,⟨35,4294967808,[],[(17,.setEnt .internalNl),(18,.cb)],0,0⟩,⟨36,115792089237316195423570985008687907853269984665635612279300442486792058306047,[],[(17,.setEnt .internalNl),(18,.cb),(19,.code)],0,0⟩,⟨37,4951760157141521099596496896,[],[(17,.setEnt .internalNl),(18,.cb)],0,0⟩,⟨39,17179869184,[],[(17,.setEnt .internalNl),(18,.cb)],0,0⟩],[⟨29,4951760157141521099596496896,[],[(17,.setEnt .internalNl),(18,.cb)],0,0⟩,⟨35,4294967808,[],[(17,.setEnt .internalNl),(18,.cb)],0,0⟩,⟨36,115792089237316195423570985008687907853269984665635612279300442486792058306047,[],[(17,.setEnt .internalNl),(18,.cb),(19,.code)],0,0⟩,⟨37,4951760157141521099596496896,[],[(17,.setEnt .internalNl),(18,.cb)],0,0⟩,⟨39,17179869184,[],[(17,.setEnt .internalNl),(18,.cb)],0,0⟩],[⟨29,4951760157141521099596496896,[],[(17,.setEnt .internalNl),(18,.cb)],0,0⟩,⟨35,4294967808,[],[(17,.setEnt .internalNl),(18,.cb)],0,0⟩,⟨36,115792089237316195423570985008687907853269984665635612279300442486792058306047,[],[(17,.setEnt .internalNl),(18,.cb),(19,.code)],0,0⟩,⟨37,4951760157141521099596496896,[],[(17,.setEnt .internalNl),(18,.cb)],0,0⟩,⟨39,17179869184,[],[(17,.setEnt .internalNl),(18,.cb)],0,0⟩],[⟨29,4951760157141521099596496896,[],[(17,.setEnt .internalNl),(18,.cb)],0,0⟩,⟨35,4294967808,[],[(17,.setEnt .internalNl),(18,.cb)],0,0⟩,⟨36,115792089237316195423570985008687907853269984665635612279300442486792058306047,[],[(17,.setEnt .internalNl),(18,.cb),(19,.code)],0,0⟩,⟨37,4951760157141521099596496896,[],[(17,.setEnt .internalNl),(18,.cb)],0,0⟩,⟨39,17179869184,[],[(17,.setEnt .internalNl),(18,.cb)],0,0⟩],[⟨29,4951760157141521099596496896,[],[],0,0⟩,⟨35,4294967808,[],[],0,0⟩,⟨36,115792089237316195423570985008687907853269984665635612279300442486792058306047,[],[(19,.code)],0,0⟩,⟨37,4951760157141521099596496896,[],[],0,0⟩,⟨39,17179869184,[],[],0,0⟩],[⟨29,4951760157141521099596496896,[],[],0,0⟩,⟨35,4294967808,[],[],0,0⟩,⟨36,115792089237316195423570985008687907853269984665635612279300442486792058306047,[],[(19,.code)],0,0⟩,⟨37,4951760157141521099596496896,[],[],0,0⟩,⟨39,17179869184,[],[],0,0⟩],[⟨38,115792089237316195423570985008687907853269984665640564039457584007913129626623,[],[(20,.code)],0,0⟩],[⟨29,4951760157141521099596496896,[],[],0,0⟩,⟨35,4294967808,[],[],0,0⟩,⟨36,115792089237316195423570985008687907853269984665635612279300442486792058306047,[],[(19,.code)],0,0⟩,⟨37,4951760157141521099596496896,[],[],0,0⟩,⟨39,17179869184,[],[],0,0⟩],[],[⟨41,1024,[],[(21,.setEnt .newline)],0,0⟩],[],[],[],[],[]],[some (0,[]),none,none,none,none,none,none,none,none,none,none,none,none,none,none,some (1,[]),none,none,none,none,none,none,none,none,none,none,none,some (2,[]),none,none,none,none,none,none,none,none,none,none,none,some (2,[]),none,some (3,[]),some (3,[]),some (3,[]),some (3,[]),some (4,[])],[1,11,21,22,23]⟩
theorem modula3_line_nfa_eq : Modula3.modula3_line.nfa = modula3_line_nfa := by decide +kernel
/-- The machine of `Modula3.modula3_line`, with its automaton as a literal. -/
def modula3_line_M : Machine := ⟨modula3_line_nfa, Modula3.modula3_line.ends, Modula3.modula3_line.sw⟩
theorem modula3_line_M_eq : Modula3.modula3_line.machine = modula3_line_M := by
  unfold Scanner.machine modula3_line_M; rw [modula3_line_nfa_eq]
def modula3_line_masks : List Nat := [4294967808,1099511627776,549755813888,17179869184,8192,1024,4096,115792089237316195423570985008687907853269984665640564039457584007908834656767,4398046511104,2199023255552,4951760157141521099596496896,115792089237316195423570985008687907853269984665635612279300442486259482361343,115792089237316195423570985008687907853269984665640564039457584007913129626623,115792089237316195423570985008687907853269984665635612279300442486792058306047]
def modula3_line_cs : List (Nat × Nat) := [(0,115792089237316195423570985008687907853269984665635612279300442478545721082367),(9,4294967808),(10,1024),(11,2048),(12,4096),(13,8192),(34,17179869184),(39,549755813888),(40,1099511627776),(41,2199023255552),(42,4398046511104),(92,4951760157141521099596496896)]
theorem modula3_line_masksIn : masksIn modula3_line_nfa modula3_line_masks = true := by decide +kernel
theorem modula3_line_repOk : repOk modula3_line_masks modula3_line_cs = true := by decide +kernel
def modula3_line_rows : List Row := [⟨[],none,[],[⟨256,.other,false,some ⟨0,[.setEnt (.own 3)],some 4,true⟩⟩,⟨256,.ws,false,some ⟨1,[.setEnt (.own 0)],some 0,false⟩⟩,⟨256,.lf,false,some ⟨0,[.setEnt .newline],some 3,true⟩⟩,⟨256,.vt,false,none⟩,⟨256,.ff,false,some ⟨0,[.setEnt .newline],some 3,true⟩⟩,⟨256,.cr,false,some ⟨2,[.setEnt .newline],none,false⟩⟩,⟨256,.cr,true,some ⟨3,[.setEnt .newline],some 3,false⟩⟩,⟨256,.other,false,some ⟨4,[.code,.setEnt (.own 3)],some 4,false⟩⟩,⟨256,.other,false,some ⟨5,[.code,.setEnt (.own 3)],some 4,false⟩⟩,⟨256,.other,false,some ⟨6,[.nestRes,.setEnt (.own 3)],some 4,false⟩⟩]⟩,⟨[0],some 0,[],[⟨256,.other,false,none⟩,⟨256,.ws,false,some ⟨1,[.setEnt (.own 0)],some 0,false⟩⟩,⟨256,.lf,false,none⟩,⟨256,.vt,false,none⟩,⟨256,.ff,false,none⟩,⟨256,.cr,false,none⟩,⟨256,.cr,true,none⟩]⟩,⟨[40],none,[],[⟨256,.other,false,none⟩,⟨256,.ws,false,none⟩,⟨256,.lf,false,some ⟨0,[.setEnt .newline],some 3,true⟩⟩,⟨256,.vt,false,none⟩,⟨256,.ff,false,none⟩,⟨256,.cr,false,none⟩,⟨256,.cr,true,none⟩]⟩,⟨[40,44],some 3,[],[⟨256,.other,false,none⟩,⟨256,.ws,false,none⟩,⟨256,.lf,false,some ⟨0,[.setEnt .newline],some 3,true⟩⟩,⟨256,.vt,false,none⟩,⟨256,.ff,false,none⟩,⟨256,.cr,false,none⟩,⟨256,.cr,true,none⟩]⟩,⟨[28,45],some 4,[],[⟨256,.other,false,some ⟨7,[.code],none,false⟩⟩,⟨256,.ws,false,some ⟨8,[],none,false⟩⟩,⟨256,.lf,false,some ⟨7,[.code],none,false⟩⟩,⟨256,.vt,false,some ⟨7,[.code],none,false⟩⟩,⟨256,.ff,false,some ⟨7,[.code],none,false⟩⟩,⟨256,.cr,false,some ⟨7,[.code],none,false⟩⟩,⟨256,.cr,true,some ⟨7,[.code],none,false⟩⟩,⟨256,.other,false,some ⟨0,[],some 2,true⟩⟩,⟨256,.other,false,some ⟨9,[],none,false⟩⟩]⟩,⟨[16,45],some 4,[],[⟨256,.other,false,some ⟨10,[.code],none,false⟩⟩,⟨256,.ws,false,some ⟨11,[],none,false⟩⟩,⟨256,.lf,false,some ⟨10,[.code],none,false⟩⟩,⟨256,.vt,false,some ⟨10,[.code],none,false⟩⟩,⟨256,.ff,false,some ⟨10,[.code],none,false⟩⟩,⟨256,.cr,false,some ⟨10,[.code],none,false⟩⟩,⟨256,.cr,true,some ⟨10,[.code],none,false⟩⟩,⟨256,.other,false,some ⟨0,[],some 2,true⟩⟩,⟨256,.other,false,some ⟨12,[],none,false⟩⟩]⟩,⟨[1,45],some 4,[],[⟨256,.other,false,none⟩,⟨256,.ws,false,none⟩,⟨256,.lf,false,none⟩,⟨256,.vt,false,none⟩,⟨256,.ff,false,none⟩,⟨256,.cr,false,none⟩,⟨256,.cr,true,none⟩,⟨256,.other,false,some ⟨13,[.comment],none,false⟩⟩]⟩,⟨[36],none,[],[⟨256,.other,false,some ⟨7,[.code],none,false⟩⟩,⟨256,.ws,false,some ⟨8,[],none,false⟩⟩,⟨256,.lf,false,some ⟨7,[.code],none,false⟩⟩,⟨256,.vt,false,some ⟨7,[.code],none,false⟩⟩,⟨256,.ff,false,some ⟨7,[.code],none,false⟩⟩,⟨256,.cr,false,some ⟨7,[.code],none,false⟩⟩,⟨256,.cr,true,some ⟨7,[.code],none,false⟩⟩,⟨256,.other,false,some ⟨0,[],some 2,true⟩⟩,⟨256,.other,false,some ⟨9,[],none,false⟩⟩]⟩,⟨[35],none,[],[⟨256,.other,false,some ⟨7,[.code],none,false⟩⟩,⟨256,.ws,false,some ⟨8,[],none,false⟩⟩,⟨256,.lf,false,some ⟨7,[.code],none,false⟩⟩,⟨256,.vt,false,some ⟨7,[.code],none,false⟩⟩,⟨256,.ff,false,some ⟨7,[.code],none,false⟩⟩,⟨256,.cr,false,some ⟨7,[.code],none,false⟩⟩,⟨256,.cr,true,some ⟨7,[.code],none,false⟩⟩,⟨256,.other,false,some ⟨0,[],some 2,true⟩⟩,⟨256,.other,false,some ⟨9,[],none,false⟩⟩]⟩,⟨[29,37],none,[],[⟨256,.other,false,some ⟨14,[.code],none,false⟩⟩,⟨256,.ws,false,some ⟨14,[.code],none,false⟩⟩,⟨256,.lf,false,some ⟨15,[],none,false⟩⟩,⟨256,.vt,false,some ⟨14,[.code],none,false⟩⟩,⟨256,.ff,false,some ⟨16,[],none,false⟩⟩,⟨256,.cr,false,some ⟨17,[],none,false⟩⟩,⟨256,.cr,true,some ⟨18,[],none,false⟩⟩]⟩,⟨[24],none,[],[⟨256,.other,false,some ⟨10,[.code],none,false⟩⟩,⟨256,.ws,false,some ⟨11,[],none,false⟩⟩,⟨256,.lf,false,some ⟨10,[.code],none,false⟩⟩,⟨256,.vt,false,some ⟨10,[.code],none,false⟩⟩,⟨256,.ff,false,some ⟨10,[.code],none,false⟩⟩,⟨256,.cr,false,some ⟨10,[.code],none,false⟩⟩,⟨256,.cr,true,some ⟨10,[.code],none,false⟩⟩,⟨256,.other,false,some ⟨0,[],some 2,true⟩⟩,⟨256,.other,false,some ⟨12,[],none,false⟩⟩]⟩,⟨[23],none,[],[⟨256,.other,false,some ⟨10,[.code],none,false⟩⟩,⟨256,.ws,false,some ⟨11,[],none,false⟩⟩,⟨256,.lf,false,some ⟨10,[.code],none,false⟩⟩,⟨256,.vt,false,some ⟨10,[.code],none,false⟩⟩,⟨256,.ff,false,some ⟨10,[.code],none,false⟩⟩,⟨256,.cr,false,some ⟨10,[.code],none,false⟩⟩,⟨256,.cr,true,some ⟨10,[.code],none,false⟩⟩,⟨256,.other,false,some ⟨0,[],some 2,true⟩⟩,⟨256,.other,false,some ⟨12,[],none,false⟩⟩]⟩,⟨[17,25],none,[],[⟨256,.other,false,some ⟨19,[.code],none,false⟩⟩,⟨256,.ws,false,some ⟨19,[.code],none,false⟩⟩,⟨256,.lf,false,some ⟨20,[],none,false⟩⟩,⟨256,.vt,false,some ⟨19,[.code],none,false⟩⟩,⟨256,.ff,false,some ⟨21,[],none,false⟩⟩,⟨256,.cr,false,some ⟨22,[],none,false⟩⟩,⟨256,.cr,true,some ⟨23,[],none,false⟩⟩]⟩,⟨[2],none,[],[⟨256,.other,false,some ⟨24,[.comment],none,false⟩⟩,⟨256,.ws,false,some ⟨25,[],none,false⟩⟩,⟨256,.lf,false,some ⟨26,[],none,false⟩⟩,⟨256,.vt,false,none⟩,⟨256,.ff,false,some ⟨27,[],none,false⟩⟩,⟨256,.cr,false,some ⟨28,[],none,false⟩⟩,⟨256,.cr,true,some ⟨29,[],none,false⟩⟩,⟨256,.other,false,some ⟨30,[.comment],none,false⟩⟩,⟨256,.other,false,some ⟨31,[.comment],none,false⟩⟩,⟨256,.other,false,some ⟨32,[.comment],none,false⟩⟩]⟩,⟨[38],none,[],[⟨256,.other,false,some ⟨7,[.code],none,false⟩⟩,⟨256,.ws,false,some ⟨8,[],none,false⟩⟩,⟨256,.lf,false,some ⟨7,[.code],none,false⟩⟩,⟨256,.vt,false,some ⟨7,[.code],none,false⟩⟩,⟨256,.ff,false,some ⟨7,[.code],none,false⟩⟩,⟨256,.cr,false,some ⟨7,[.code],none,false⟩⟩,⟨256,.cr,true,some ⟨7,[.code],none,false⟩⟩,⟨256,.other,false,some ⟨0,[],some 2,true⟩⟩,⟨256,.other,false,some ⟨9,[],none,false⟩⟩]⟩,⟨[32],none,[],[⟨256,.other,false,some ⟨7,[.setEnt .internalNl,.cb,.code],none,false⟩⟩,⟨256,.ws,false,some ⟨8,[.setEnt .internalNl,.cb],none,false⟩⟩,⟨256,.lf,false,some ⟨7,[.setEnt .internalNl,.cb,.code],none,false⟩⟩,⟨256,.vt,false,some ⟨7,[.setEnt .internalNl,.cb,.code],none,false⟩⟩,⟨256,.ff,false,some ⟨7,[.setEnt .internalNl,.cb,.code],none,false⟩⟩,⟨256,.cr,false,some ⟨7,[.setEnt .internalNl,.cb,.code],none,false⟩⟩,⟨256,.cr,true,some ⟨7,[.setEnt .internalNl,.cb,.code],none,false⟩⟩,⟨256,.other,false,some ⟨0,[.setEnt .internalNl,.cb],some 2,true⟩⟩,⟨256,.other,false,some ⟨9,[.setEnt .internalNl,.cb],none,false⟩⟩]⟩,⟨[33],none,[],[⟨256,.other,false,some ⟨7,[.setEnt .internalNl,.cb,.code],none,false⟩⟩,⟨256,.ws,false,some ⟨8,[.setEnt .internalNl,.cb],none,false⟩⟩,⟨256,.lf,false,some ⟨7,[.setEnt .internalNl,.cb,.code],none,false⟩⟩,⟨256,.vt,false,some ⟨7,[.setEnt .internalNl,.cb,.code],none,false⟩⟩,⟨256,.ff,false,some ⟨7,[.setEnt .internalNl,.cb,.code],none,false⟩⟩,⟨256,.cr,false,some ⟨7,[.setEnt .internalNl,.cb,.code],none,false⟩⟩,⟨256,.cr,true,some ⟨7,[.setEnt .internalNl,.cb,.code],none,false⟩⟩,⟨256,.other,false,some ⟨0,[.setEnt .internalNl,.cb],some 2,true⟩⟩,⟨256,.other,false,some ⟨9,[.setEnt .internalNl,.cb],none,false⟩⟩]⟩,⟨[30],none,[],[⟨256,.other,false,none⟩,⟨256,.ws,false,none⟩,⟨256,.lf,false,some ⟨33,[],none,false⟩⟩,⟨256,.vt,false,none⟩,⟨256,.ff,false,none⟩,⟨256,.cr,false,none⟩,⟨256,.cr,true,none⟩]⟩,⟨[30,34],none,[],[⟨256,.other,false,some ⟨7,[.setEnt .internalNl,.cb,.code],none,false⟩⟩,⟨256,.ws,false,some ⟨8,[.setEnt .internalNl,.cb],none,false⟩⟩,⟨256,.lf,false,some ⟨34,[.setEnt .internalNl,.cb,.code],none,false⟩⟩,⟨256,.vt,false,some ⟨7,[.setEnt .internalNl,.cb,.code],none,false⟩⟩,⟨256,.ff,false,some ⟨7,[.setEnt .internalNl,.cb,.code],none,false⟩⟩,⟨256,.cr,false,some ⟨7,[.setEnt .internalNl,.cb,.code],none,false⟩⟩,⟨256,.cr,true,some ⟨7,[.setEnt .internalNl,.cb,.code],none,false⟩⟩,⟨256,.other,false,some ⟨0,[.setEnt .internalNl,.cb],some 2,true⟩⟩,⟨256,.other,false,some ⟨9,[.setEnt .internalNl,.cb],none,false⟩⟩]⟩,⟨[26],none,[],[⟨256,.other,false,some ⟨10,[.code],none,false⟩⟩,⟨256,.ws,false,some ⟨11,[],none,false⟩⟩,⟨256,.lf,false,some ⟨10,[.code],none,false⟩⟩,⟨256,.vt,false,some ⟨10,[.code],none,false⟩⟩,⟨256,.ff,false,some ⟨10,[.code],none,false⟩⟩,⟨256,.cr,false,some ⟨10,[.code],none,false⟩⟩,⟨256,.cr,true,some ⟨10,[.code],none,false⟩⟩,⟨256,.other,false,some ⟨0,[],some 2,true⟩⟩,⟨256,.other,false,some ⟨12,[],none,false⟩⟩]⟩,⟨[20],none,[],[⟨256,.other,false,some ⟨10,[.setEnt .internalNl,.cb,.code],none,false⟩⟩,⟨256,.ws,false,some ⟨11,[.setEnt .internalNl,.cb],none,false⟩⟩,⟨256,.lf,false,some ⟨10,[.setEnt .internalNl,.cb,.code],none,false⟩⟩,⟨256,.vt,false,some ⟨10,[.setEnt .internalNl,.cb,.code],none,false⟩⟩,⟨256,.ff,false,some ⟨10,[.setEnt .internalNl,.cb,.code],none,false⟩⟩,⟨256,.cr,false,some ⟨10,[.setEnt .internalNl,.cb,.code],none,false⟩⟩,⟨256,.cr,true,some ⟨10,[.setEnt .internalNl,.cb,.code],none,false⟩⟩,⟨256,.other,false,some ⟨0,[.setEnt .internalNl,.cb],some 2,true⟩⟩,⟨256,.other,false,some ⟨12,[.setEnt .internalNl,.cb],none,false⟩⟩]⟩,⟨[21],none,[],[⟨256,.other,false,some ⟨10,[.setEnt .internalNl,.cb,.code],none,false⟩⟩,⟨256,.ws,false,some ⟨11,[.setEnt .internalNl,.cb],none,false⟩⟩,⟨256,.lf,false,some ⟨10,[.setEnt .internalNl,.cb,.code],none,false⟩⟩,⟨256,.vt,false,some ⟨10,[.setEnt .internalNl,.cb,.code],none,false⟩⟩,⟨256,.ff,false,some ⟨10,[.setEnt .internalNl,.cb,.code],none,false⟩⟩,⟨256,.cr,false,some ⟨10,[.setEnt .internalNl,.cb,.code],none,false⟩⟩,⟨256,.cr,true,some ⟨10,[.setEnt .internalNl,.cb,.code],none,false⟩⟩,⟨256,.other,false,some ⟨0,[.setEnt .internalNl,.cb],some 2,true⟩⟩,⟨256,.other,false,some ⟨12,[.setEnt .internalNl,.cb],none,false⟩⟩]⟩,⟨[18],none,[],[⟨256,.other,false,none⟩,⟨256,.ws,false,none⟩,⟨256,.lf,false,some ⟨35,[],none,false⟩⟩,⟨256,.vt,false,none⟩,⟨256,.ff,false,none⟩,⟨256,.cr,false,none⟩,⟨256,.cr,true,none⟩]⟩,⟨[18,22],none,[],[⟨256,.other,false,some ⟨10,[.setEnt .internalNl,.cb,.code],none,false⟩⟩,⟨256,.ws,false,some ⟨11,[.setEnt .internalNl,.cb],none,false⟩⟩,⟨256,.lf,false,some ⟨36,[.setEnt .internalNl,.cb,.code],none,false⟩⟩,⟨256,.vt,false,some ⟨10,[.setEnt .internalNl,.cb,.code],none,false⟩⟩,⟨256,.ff,false,some ⟨10,[.setEnt .internalNl,.cb,.code],none,false⟩⟩,⟨256,.cr,false,some ⟨10,[.setEnt .internalNl,.cb,.code],none,false⟩⟩,⟨256,.cr,true,some ⟨10,[.setEnt .internalNl,.cb,.code],none,false⟩⟩,⟨256,.other,false,some ⟨0,[.setEnt .internalNl,.cb],some 2,true⟩⟩,⟨256,.other,false,some ⟨12,[.setEnt .internalNl,.cb],none,false⟩⟩]⟩,⟨[13],none,[],[⟨256,.other,false,some ⟨24,[.comment],none,false⟩⟩,⟨256,.ws,false,some ⟨25,[],none,false⟩⟩,⟨256,.lf,false,some ⟨26,[],none,false⟩⟩,⟨256,.vt,false,none⟩,⟨256,.ff,false,some ⟨27,[],none,false⟩⟩,⟨256,.cr,false,some ⟨28,[],none,false⟩⟩,⟨256,.cr,true,some ⟨29,[],none,false⟩⟩,⟨256,.other,false,some ⟨30,[.comment],none,false⟩⟩,⟨256,.other,false,some ⟨31,[.comment],none,false⟩⟩,⟨256,.other,false,some ⟨32,[.comment],none,false⟩⟩]⟩,⟨[8],none,[],[⟨256,.other,false,some ⟨24,[.comment],none,false⟩⟩,⟨256,.ws,false,some ⟨25,[],none,false⟩⟩,⟨256,.lf,false,some ⟨26,[],none,false⟩⟩,⟨256,.vt,false,none⟩,⟨256,.ff,false,some ⟨27,[],none,false⟩⟩,⟨256,.cr,false,some ⟨28,[],none,false⟩⟩,⟨256,.cr,true,some ⟨29,[],none,false⟩⟩,⟨256,.other,false,some ⟨30,[.comment],none,false⟩⟩,⟨256,.other,false,some ⟨31,[.comment],none,false⟩⟩,⟨256,.other,false,some ⟨32,[.comment],none,false⟩⟩]⟩,⟨[5],none,[],[⟨256,.other,false,some ⟨24,[.setEnt .internalNl,.cb,.comment],none,false⟩⟩,⟨256,.ws,false,some ⟨25,[.setEnt .internalNl,.cb],none,false⟩⟩,⟨256,.lf,false,some ⟨26,[.setEnt .internalNl,.cb],none,false⟩⟩,⟨256,.vt,false,none⟩,⟨256,.ff,false,some ⟨27,[.setEnt .internalNl,.cb],none,false⟩⟩,⟨256,.cr,false,some ⟨28,[.setEnt .internalNl,.cb],none,false⟩⟩,⟨256,.cr,true,some ⟨29,[.setEnt .internalNl,.cb],none,false⟩⟩,⟨256,.other,false,some ⟨30,[.setEnt .internalNl,.cb,.comment],none,false⟩⟩,⟨256,.other,false,some ⟨31,[.setEnt .internalNl,.cb,.comment],none,false⟩⟩,⟨256,.other,false,some ⟨32,[.setEnt .internalNl,.cb,.comment],none,false⟩⟩]⟩,⟨[6],none,[],[⟨256,.other,false,some ⟨24,[.setEnt .internalNl,.cb,.comment],none,false⟩⟩,⟨256,.ws,false,some ⟨25,[.setEnt .internalNl,.cb],none,false⟩⟩,⟨256,.lf,false,some ⟨26,[.setEnt .internalNl,.cb],none,false⟩⟩,⟨256,.vt,false,none⟩,⟨256,.ff,false,some ⟨27,[.setEnt .internalNl,.cb],none,false⟩⟩,⟨256,.cr,false,some ⟨28,[.setEnt .internalNl,.cb],none,false⟩⟩,⟨256,.cr,true,some ⟨29,[.setEnt .internalNl,.cb],none,false⟩⟩,⟨256,.other,false,some ⟨30,[.setEnt .internalNl,.cb,.comment],none,false⟩⟩,⟨256,.other,false,some ⟨31,[.setEnt .internalNl,.cb,.comment],none,false⟩⟩,⟨256,.other,false,some ⟨32,[.setEnt .internalNl,.cb,.comment],none,false⟩⟩]⟩,⟨[3],none,[],[⟨256,.other,false,none⟩,⟨256,.ws,false,none⟩,⟨256,.lf,false,some ⟨37,[],none,false⟩⟩,⟨256,.vt,false,none⟩,⟨256,.ff,false,none⟩,⟨256,.cr,false,none⟩,⟨256,.cr,true,none⟩]⟩,⟨[3,7],none,[],[⟨256,.other,false,some ⟨24,[.setEnt .internalNl,.cb,.comment],none,false⟩⟩,⟨256,.ws,false,some ⟨25,[.setEnt .internalNl,.cb],none,false⟩⟩,⟨256,.lf,false,some ⟨38,[.setEnt .internalNl,.cb],none,false⟩⟩,⟨256,.vt,false,none⟩,⟨256,.ff,false,some ⟨27,[.setEnt .internalNl,.cb],none,false⟩⟩,⟨256,.cr,false,some ⟨28,[.setEnt .internalNl,.cb],none,false⟩⟩,⟨256,.cr,true,some ⟨29,[.setEnt .internalNl,.cb],none,false⟩⟩,⟨256,.other,false,some ⟨30,[.setEnt .internalNl,.cb,.comment],none,false⟩⟩,⟨256,.other,false,some ⟨31,[.setEnt .internalNl,.cb,.comment],none,false⟩⟩,⟨256,.other,false,some ⟨32,[.setEnt .internalNl,.cb,.comment],none,false⟩⟩]⟩,⟨[9,13],none,[],[⟨256,.other,false,some ⟨24,[.comment],none,false⟩⟩,⟨256,.ws,false,some ⟨25,[],none,false⟩⟩,⟨256,.lf,false,some ⟨26,[],none,false⟩⟩,⟨256,.vt,false,none⟩,⟨256,.ff,false,some ⟨27,[],none,false⟩⟩,⟨256,.cr,false,some ⟨28,[],none,false⟩⟩,⟨256,.cr,true,some ⟨29,[],none,false⟩⟩,⟨256,.other,false,some ⟨30,[.comment],none,false⟩⟩,⟨256,.other,false,some ⟨39,[.nestInc,.comment],none,false⟩⟩,⟨256,.other,false,some ⟨40,[.nestInc,.comment],none,false⟩⟩]⟩,⟨[11,13],none,[],[⟨256,.other,false,some ⟨24,[.comment],none,false⟩⟩,⟨256,.ws,false,some ⟨25,[],none,false⟩⟩,⟨256,.lf,false,some ⟨26,[],none,false⟩⟩,⟨256,.vt,false,none⟩,⟨256,.ff,false,some ⟨27,[],none,false⟩⟩,⟨256,.cr,false,some ⟨28,[],none,false⟩⟩,⟨256,.cr,true,some ⟨29,[],none,false⟩⟩,⟨256,.other,false,some ⟨30,[.comment],none,false⟩⟩,⟨256,.other,false,some ⟨41,[.nestDec,.comment],none,false⟩⟩,⟨256,.other,false,some ⟨31,[.comment],none,false⟩⟩,⟨256,.other,false,some ⟨32,[.comment],none,false⟩⟩]⟩,⟨[11,13,14],none,[],[⟨256,.other,false,some ⟨24,[.comment],none,false⟩⟩,⟨256,.ws,false,some ⟨25,[],none,false⟩⟩,⟨256,.lf,false,some ⟨26,[],none,false⟩⟩,⟨256,.vt,false,none⟩,⟨256,.ff,false,some ⟨27,[],none,false⟩⟩,⟨256,.cr,false,some ⟨28,[],none,false⟩⟩,⟨256,.cr,true,some ⟨29,[],none,false⟩⟩,⟨256,.other,false,some ⟨30,[.comment],none,false⟩⟩,⟨256,.other,false,some ⟨41,[.nestDec,.comment],none,false⟩⟩,⟨256,.other,false,some ⟨0,[.comment],some 1,true⟩⟩,⟨256,.other,false,some ⟨31,[.comment],none,false⟩⟩,⟨256,.other,false,some ⟨32,[.comment],none,false⟩⟩]⟩,⟨[31],none,[],[⟨256,.other,false,some ⟨7,[.setEnt .internalNl,.cb,.code],none,false⟩⟩,⟨256,.ws,false,some ⟨8,[.setEnt .internalNl,.cb],none,false⟩⟩,⟨256,.lf,false,some ⟨7,[.setEnt .internalNl,.cb,.code],none,false⟩⟩,⟨256,.vt,false,some ⟨7,[.setEnt .internalNl,.cb,.code],none,false⟩⟩,⟨256,.ff,false,some ⟨7,[.setEnt .internalNl,.cb,.code],none,false⟩⟩,⟨256,.cr,false,some ⟨7,[.setEnt .internalNl,.cb,.code],none,false⟩⟩,⟨256,.cr,true,some ⟨7,[.setEnt .internalNl,.cb,.code],none,false⟩⟩,⟨256,.other,false,some ⟨0,[.setEnt .internalNl,.cb],some 2,true⟩⟩,⟨256,.other,false,some ⟨9,[.setEnt .internalNl,.cb],none,false⟩⟩]⟩,⟨[31,36],none,[],[⟨256,.other,false,some ⟨7,[.setEnt .internalNl,.cb,.code],none,false⟩⟩,⟨256,.ws,false,some ⟨8,[.setEnt .internalNl,.cb],none,false⟩⟩,⟨256,.lf,false,some ⟨7,[.setEnt .internalNl,.cb,.code],none,false⟩⟩,⟨256,.vt,false,some ⟨7,[.setEnt .internalNl,.cb,.code],none,false⟩⟩,⟨256,.ff,false,some ⟨7,[.setEnt .internalNl,.cb,.code],none,false⟩⟩,⟨256,.cr,false,some ⟨7,[.setEnt .internalNl,.cb,.code],none,false⟩⟩,⟨256,.cr,true,some ⟨7,[.setEnt .internalNl,.cb,.code],none,false⟩⟩,⟨256,.other,false,some ⟨0,[.setEnt .internalNl,.cb],some 2,true⟩⟩,⟨256,.other,false,some ⟨9,[.setEnt .internalNl,.cb],none,false⟩⟩]⟩,⟨[19],none,[],[⟨256,.other,false,some ⟨10,[.setEnt .internalNl,.cb,.code],none,false⟩⟩,⟨256,.ws,false,some ⟨11,[.setEnt .internalNl,.cb],none,false⟩⟩,⟨256,.lf,false,some ⟨10,[.setEnt .internalNl,.cb,.code],none,false⟩⟩,⟨256,.vt,false,some ⟨10,[.setEnt .internalNl,.cb,.code],none,false⟩⟩,⟨256,.ff,false,some ⟨10,[.setEnt .internalNl,.cb,.code],none,false⟩⟩,⟨256,.cr,false,some ⟨10,[.setEnt .internalNl,.cb,.code],none,false⟩⟩,⟨256,.cr,true,some ⟨10,[.setEnt .internalNl,.cb,.code],none,false⟩⟩,⟨256,.other,false,some ⟨0,[.setEnt .internalNl,.cb],some 2,true⟩⟩,⟨256,.other,false,some ⟨12,[.setEnt .internalNl,.cb],none,false⟩⟩]⟩,⟨[19,24],none,[],[⟨256,.other,false,some ⟨10,[.setEnt .internalNl,.cb,.code],none,false⟩⟩,⟨256,.ws,false,some ⟨11,[.setEnt .internalNl,.cb],none,false⟩⟩,⟨256,.lf,false,some ⟨10,[.setEnt .internalNl,.cb,.code],none,false⟩⟩,⟨256,.vt,false,some ⟨10,[.setEnt .internalNl,.cb,.code],none,false⟩⟩,⟨256,.ff,false,some ⟨10,[.setEnt .internalNl,.cb,.code],none,false⟩⟩,⟨256,.cr,false,some ⟨10,[.setEnt .internalNl,.cb,.code],none,false⟩⟩,⟨256,.cr,true,some ⟨10,[.setEnt .internalNl,.cb,.code],none,false⟩⟩,⟨256,.other,false,some ⟨0,[.setEnt .internalNl,.cb],some 2,true⟩⟩,⟨256,.other,false,some ⟨12,[.setEnt .internalNl,.cb],none,false⟩⟩]⟩,⟨[4],none,[],[⟨256,.other,false,some ⟨24,[.setEnt .internalNl,.cb,.comment],none,false⟩⟩,⟨256,.ws,false,some ⟨25,[.setEnt .internalNl,.cb],none,false⟩⟩,⟨256,.lf,false,some ⟨26,[.setEnt .internalNl,.cb],none,false⟩⟩,⟨256,.vt,false,none⟩,⟨256,.ff,false,some ⟨27,[.setEnt .internalNl,.cb],none,false⟩⟩,⟨256,.cr,false,some ⟨28,[.setEnt .internalNl,.cb],none,false⟩⟩,⟨256,.cr,true,some ⟨29,[.setEnt .internalNl,.cb],none,false⟩⟩,⟨256,.other,false,some ⟨30,[.setEnt .internalNl,.cb,.comment],none,false⟩⟩,⟨256,.other,false,some ⟨31,[.setEnt .internalNl,.cb,.comment],none,false⟩⟩,⟨256,.other,false,some ⟨32,[.setEnt .internalNl,.cb,.comment],none,false⟩⟩]⟩,⟨[4,5],none,[],[⟨256,.other,false,some ⟨24,[.setEnt .internalNl,.cb,.comment],none,false⟩⟩,⟨256,.ws,false,some ⟨25,[.setEnt .internalNl,.cb],none,false⟩⟩,⟨256,.lf,false,some ⟨26,[.setEnt .internalNl,.cb],none,false⟩⟩,⟨256,.vt,false,none⟩,⟨256,.ff,false,some ⟨27,[.setEnt .internalNl,.cb],none,false⟩⟩,⟨256,.cr,false,some ⟨28,[.setEnt .internalNl,.cb],none,false⟩⟩,⟨256,.cr,true,some ⟨29,[.setEnt .internalNl,.cb],none,false⟩⟩,⟨256,.other,false,some ⟨30,[.setEnt .internalNl,.cb,.comment],none,false⟩⟩,⟨256,.other,false,some ⟨31,[.setEnt .internalNl,.cb,.comment],none,false⟩⟩,⟨256,.other,false,some ⟨32,[.setEnt .internalNl,.cb,.comment],none,false⟩⟩]⟩,⟨[10,11,13],none,[],[⟨256,.other,false,some ⟨24,[.comment],none,false⟩⟩,⟨256,.ws,false,some ⟨25,[],none,false⟩⟩,⟨256,.lf,false,some ⟨26,[],none,false⟩⟩,⟨256,.vt,false,none⟩,⟨256,.ff,false,some ⟨27,[],none,false⟩⟩,⟨256,.cr,false,some ⟨28,[],none,false⟩⟩,⟨256,.cr,true,some ⟨29,[],none,false⟩⟩,⟨256,.other,false,some ⟨30,[.comment],none,false⟩⟩,⟨256,.other,false,some ⟨41,[.nestDec,.comment],none,false⟩⟩,⟨256,.other,false,some ⟨31,[.comment],none,false⟩⟩,⟨256,.other,false,some ⟨32,[.comment],none,false⟩⟩]⟩,⟨[10,11,13,14],none,[],[⟨256,.other,false,some ⟨24,[.comment],none,false⟩⟩,⟨256,.ws,false,some ⟨25,[],none,false⟩⟩,⟨256,.lf,false,some ⟨26,[],none,false⟩⟩,⟨256,.vt,false,none⟩,⟨256,.ff,false,some ⟨27,[],none,false⟩⟩,⟨256,.cr,false,some ⟨28,[],none,false⟩⟩,⟨256,.cr,true,some ⟨29,[],none,false⟩⟩,⟨256,.other,false,some ⟨30,[.comment],none,false⟩⟩,⟨256,.other,false,some ⟨41,[.nestDec,.comment],none,false⟩⟩,⟨256,.other,false,some ⟨0,[.comment],some 1,true⟩⟩,⟨256,.other,false,some ⟨31,[.comment],none,false⟩⟩,⟨256,.other,false,some ⟨32,[.comment],none,false⟩⟩]⟩,⟨[12,13],none,[],[⟨256,.other,false,some ⟨24,[.comment],none,false⟩⟩,⟨256,.ws,false,some ⟨25,[],none,false⟩⟩,⟨256,.lf,false,some ⟨26,[],none,false⟩⟩,⟨256,.vt,false,none⟩,⟨256,.ff,false,some ⟨27,[],none,false⟩⟩,⟨256,.cr,false,some ⟨28,[],none,false⟩⟩,⟨256,.cr,true,some ⟨29,[],none,false⟩⟩,⟨256,.other,false,some ⟨30,[.comment],none,false⟩⟩,⟨256,.other,false,some ⟨31,[.comment],none,false⟩⟩,⟨256,.other,false,some ⟨32,[.comment],none,false⟩⟩]⟩]
theorem modula3_line_rowsOk : rowsOk modula3_line_nfa [] (modula3_line_cs.map (·.1)) modula3_line_rows = true := by decide +kernel
def modula3_line_D : Dfa modula3_line_M.nfa := ⟨modula3_line_masks, [], modula3_line_cs, modula3_line_rows, modula3_line_masksIn, modula3_line_repOk, modula3_line_rowsOk⟩

def objj_line_nfa : Nfa := ⟨[⟨0,4294967808,[],[(0,.setEnt (.own 0))],0,0⟩,⟨1,140737488355328,[],[],0,0⟩,⟨11,140737488355328,[],[],0,2⟩,⟨22,549755813888,[],[(9,.code)],0,0⟩,⟨27,17179869184,[],[(10,.code)],0,0⟩,⟨32,8192,[],[(11,.setEnt .newline)],0,0⟩,⟨34,1024,[],[(11,.setEnt .newline)],0,0⟩,⟨35,4096,[],[(11,.setEnt .newline)],0,0⟩,⟨36,8192,[.crAlone],[(11,.setEnt .newline)],0,0⟩,⟨37,115792089237316195423570985008687907853269984665640564039457584007908834656767,[],[(12,.setEnt (.own 3))],0,0⟩],[[⟨0,4294967808,[],[(0,.setEnt (.own 0))],0,0⟩],[⟨2,140737488355328,[],[(1,.comment)],0,0⟩],[⟨3,4951760157141521099596496896,[],[],0,0⟩,⟨9,4294967808,[],[],0,0⟩,⟨10,115792089237316195423570985008687907853269984665640564039457584007908834658815,[],[(4,.comment)],0,0⟩],[⟨4,8192,[],[],0,0⟩,⟨6,1024,[],[],0,0⟩,⟨7,4096,[],[],0,0⟩,⟨8,8192,[.crAlone],[],0,0⟩],[⟨5,1024,[],[],0,0⟩],[⟨3,4951760157141521099596496896,[],[(2,.setEnt .internalNl),(3,.cb)],0,0⟩,⟨9,4294967808,[],[(2,.setEnt .internalNl),(3,.cb)],0,0⟩,⟨10,115792089237316195423570985008687907853269984665640564039457584007908834658815,[],[(2,.setEnt .internalNl),(3,.cb),(4,.comment)],0,0⟩],[⟨3,4951760157141521099596496896,[],[(2,.setEnt .internalNl),(3,.cb)],0,0⟩,⟨9,4294967808,[],[(2,.setEnt .internalNl),(3,.cb)],0,0⟩,⟨10,115792089237316195423570985008687907853269984665640564039457584007908834658815,[],[(2,.setEnt .internalNl),(3,.cb),(4,.comment)],0,0⟩],[⟨3,4951760157141521099596496896,[],[(2,.setEnt .internalNl),(3,.cb)],0,0⟩,⟨9,4294967808,[],[(2,.setEnt .internalNl),(3,.cb)],0,0⟩,⟨10,115792089237316195423570985008687907853269984665640564039457584007908834658815,[],[(2,.setEnt .internalNl),(3,.cb),(4,.comment)],0,0⟩],[⟨3,4951760157141521099596496896,[],[(2,.setEnt .internalNl),(3,.cb)],0,0⟩,⟨9,4294967808,[],[(2,.setEnt .internalNl),(3,.cb)],0,0⟩,⟨10,115792089237316195423570985008687907853269984665640564039457584007908834658815,[],[(2,.setEnt .internalNl),(3,.cb),(4,.comment)],0,0⟩],[⟨3,4951760157141521099596496896,[],[],0,0⟩,⟨9,4294967808,[],[],0,0⟩,⟨10,115792089237316195423570985008687907853269984665640564039457584007908834658815,[],[(4,.comment)],0,0⟩],[⟨3,4951760157141521099596496896,[],[],0,0⟩,⟨9,4294967808,[],[],0,0⟩,⟨10,115792089237316195423570985008687907853269984665640564039457584007908834658815,[],[(4,.comment)],0,0⟩],[⟨12,4398046511104,[],[(5,.comment)],0,2⟩],[⟨13,8192,[],[],0,2⟩,⟨15,1024,[],[],0,2⟩,⟨16,4096,[],[],0,2⟩,⟨17,8192,[.crAlone],[],0,2⟩,⟨18,4294967808,[],[],0,2⟩,⟨19,115792089237316195423570985008687907853269984665640564039457584007908834658815,[],[(8,.comment)],0,2⟩,⟨20,4398046511104,[],[],0,2⟩],[⟨14,1024,[],[],0,2⟩],[⟨13,8192,[],[(6,.setEnt .internalNl),(7,.cb)],0,2⟩,⟨15,1024,[],[(6,.setEnt .internalNl),(7,.cb)],0,2⟩,⟨16,4096,[],[(6,.setEnt .internalNl),(7,.cb)],0,2⟩,⟨17,8192,[.crAlone],[(6,.setEnt .internalNl),(7,.cb)],0,2⟩,⟨18,4294967808,[],[(6,.setEnt .internalNl),(7,.cb)],0,2⟩,⟨19,115792089237316195423570985008687907853269984665640564039457584007908834658815,[],[(6,.setEnt .internalNl),(7,.cb),(8,.comment)],0,2⟩,⟨20,4398046511104,[],[(6,.setEnt .internalNl),(7,.cb)],0,2⟩],[⟨13,8192,[],[(6,.setEnt .internalNl),(7,.cb)],0,2⟩,⟨15,1024,[],[(6,.setEnt .internalNl),(7,.cb)],0,2⟩,⟨16,4096,[],[(6,.setEnt .internalNl),(7,.cb)],0,2⟩,⟨17,8192,[.crAlone],[(6,.setEnt .internalNl),(7,.cb)],0,2⟩,⟨18,4294967808,[],[(6,.setEnt .internalNl),(7,.cb)],0,2⟩,⟨19,115792089237316195423570985008687907853269984665640564039457584007908834658815,[],[(6,.setEnt .internalNl),(7,.cb),(8,.comment)],0,2⟩,⟨20,4398046511104,[],[(6,.setEnt .internalNl),(7,.cb)],0,2⟩],[⟨13,8192,[],[(6,.setEnt .internalNl),(7,.cb)],0,2⟩,⟨15,1024,[],[(6,.setEnt .internalNl),(7,.cb)],0,2⟩,⟨16,4096,[],[(6,.setEnt .internalNl),(7,.cb)],0,2⟩,⟨17,8192,[.crAlone],[(6,.setEnt .internalNl),(7,.cb)],0,2⟩,⟨18,4294967808,[],[(6,.setEnt .internalNl),(7,.cb)],0,2⟩,⟨19,115792089237316195423570985008687907853269984665640564039457584007908834658815,[],[(6,.setEnt .internalNl),(7,.cb),(8,.comment)],0,2⟩,⟨20,4398046511104,[],[(6,.setEnt .internalNl),(7,.cb)],0,2⟩],[⟨13,8192,[],[(6,.setEnt .internalNl),(7,.cb)],0,2⟩,⟨15,1024,[],[(6,.setEnt .internalNl),(7,.cb)],0,2⟩,⟨16,4096,[],[(6,.setEnt .internalNl),(7,.cb)],0,2⟩,⟨17,8192,[.crAlone],[(6,.setEnt .internalNl),(7,.cb)],0,2⟩,⟨18,4294967808,[],[(6,.setEnt .internalNl),(7,.cb)],0,2⟩,⟨19,115792089237316195423570985008687907853269984665640564039457584007908834658815,[],[(6,.setEnt .internalNl),(7,.cb),(8,.comment)],0,2⟩,⟨20,4398046511104,[],[(6,.setEnt .internalNl),(7,.cb)],0,2⟩],[⟨13,8192,[],[],0,2⟩,⟨15,1024,[],[],0,2⟩,⟨16,4096,[],[],0,2⟩,⟨17,8192,[.crAlone],[],0,2⟩,⟨18,4294967808,[],[],0,2⟩,⟨19,115792089237316195423570985008687907853269984665640564039457584007908834658815,[],[(8,.comment)],0,2⟩,⟨20,4398046511104,[],[],0,2⟩],[⟨13,8192,[],[],0,2⟩,⟨15,1024,[],[],0,2⟩,⟨16,4096,[],[],0,2⟩,⟨17,8192,[.crAlone],[],0,2⟩,⟨18,4294967808,[],[],0,2⟩,⟨19,115792089237316195423570985008687907853269984665640564039457584007908834658815,[],[(8,.comment)],0,2⟩,⟨20,4398046511104,[],[],0,2⟩],[⟨21,140737488355328,[],[],2,0⟩],[],[⟨23,115792089237316195423570985008687907853269984665635612279300442486263777315839,[],[],0,0⟩,⟨24,4951760157141521099596496896,[],[],0,0⟩,⟨26,549755813888,[],[],0,0⟩],[⟨23,115792089237316195423570985008687907853269984665635612279300442486263777315839,[],[],0,0⟩,⟨24,4951760157141521099596496896,[],[],0,0⟩,⟨26,549755813888,[],[],0,0⟩],[⟨25,115792089237316195423570985008687907853269984665640564039457584007913129626623,[],[],0,0⟩],[⟨23,115792089237316195423570985008687907853269984665635612279300442486263777315839,[],[],0,0⟩,⟨24,4951760157141521099596496896,[],[],0,0⟩,⟨26,549755813888,[],[],0,0⟩],[],[⟨28,115792089237316195423570985008687907853269984665635612279300442486796353260543,[],[],0,0⟩,⟨29,4951760157141521099596496896,[],[],0,0⟩,⟨31,17179869184,[],[],0,0⟩],[⟨28,115792089237316195423570985008687907853269984665635612279300442486796353260543,[],[],0,0⟩,⟨29,4951760157141521099596496896,[],[],0,0⟩,⟨31,17179869184,[],[],0,0⟩],[⟨30,115792089237316195423570985008687907853269984665640564039457584007913129626623,[],[],0,0⟩],[⟨28,115792089237316195423570985008687907853269984665635612279300442486796353260543,[],[],0,0⟩,⟨29,4951760157141521099596496896,[],[],0,0⟩,⟨31,17179869184,[],[],0,0⟩],[],[⟨33,1024,[],[(11,.setEnt .newline)],0,0⟩],[],[],[],[],[]],[some (0,[]),none,some (1,[]),none,none,some (1,[(2,.setEnt .internalNl),(3,.cb)]),some (1,[(2,.setEnt .internalNl),(3,.cb)]),some (1,[(2,.setEnt .internalNl),(3,.cb)]),some (1,[(2,.setEnt .internalNl),(3,.cb)]),some (1,[]),some (1,[]),none,none,none,none,none,none,none,none,none,none,some (1,[]),none,none,none,none,some (2,[]),none,none,none,none,some (2,[]),none,some (3,[]),some (3,[]),some (3,[]),some (3,[]),some (4,[])],[1,9,11,12,13]⟩
theorem objj_line_nfa_eq : ObjectiveJ.objj_line.nfa = objj_line_nfa := by decide +kernel
/-- The machine of `ObjectiveJ.objj_line`, with its automaton as a literal. -/
def objj_line_M : Machine := ⟨objj_line_nfa, ObjectiveJ.objj_line.ends, ObjectiveJ.objj_line.sw⟩
theorem objj_line_M_eq : ObjectiveJ.objj_line.machine = objj_line_M := by
  unfold Scanner.machine objj_line_M; rw [objj_line_nfa_eq]
def objj_line_masks : List Nat := [4294967808,140737488355328,549755813888,17179869184,8192,1024,4096,115792089237316195423570985008687907853269984665640564039457584007908834656767,4951760157141521099596496896,115792089237316195423570985008687907853269984665640564039457584007908834658815,4398046511104,115792089237316195423570985008687907853269984665635612279300442486263777315839,115792089237316195423570985008687907853269984665640564039457584007913129626623,115792089237316195423570985008687907853269984665635612279300442486796353260543]
def objj_line_cs : List (Nat × Nat) := [(0,115792089237316195423570985008687907853269984665635612279300442341106767610367),(9,4294967808),(10,1024),(11,2048),(12,4096),(13,8192),(34,17179869184),(39,549755813888),(42,4398046511104),(47,140737488355328),(92,4951760157141521099596496896)]
theorem objj_line_masksIn : masksIn objj_line_nfa objj_line_masks = true := by decide +kernel
theorem objj_line_repOk : repOk objj_line_masks objj_line_cs = true := by decide +kernel
def objj_line_rows : List Row := [⟨[],none,[],[⟨256,.other,false,some ⟨0,[.setEnt (.own 3)],some 4,true⟩⟩,⟨256,.ws,false,some ⟨1,[.setEnt (.own 0)],some 0,false⟩⟩,⟨256,.lf,false,some ⟨0,[.setEnt .newline],some 3,true⟩⟩,⟨256,.vt,false,none⟩,⟨256,.ff,false,some ⟨0,[.setEnt .newline],some 3,true⟩⟩,⟨256,.cr,false,some ⟨2,[.setEnt .newline],none,false⟩⟩,⟨256,.cr,true,some ⟨3,[.setEnt .newline],some 3,false⟩⟩,⟨256,.other,false,some ⟨4,[.code,.setEnt (.own 3)],some 4,false⟩⟩,⟨256,.other,false,some ⟨5,[.code,.setEnt (.own 3)],some 4,false⟩⟩,⟨256,.other,false,some ⟨6,[.setEnt (.own 3)],some 4,false⟩⟩]⟩,⟨[0],some 0,[],[⟨256,.other,false,none⟩,⟨256,.ws,false,some ⟨1,[.setEnt (.own 0)],some 0,false⟩⟩,⟨256,.lf,false,none⟩,⟨256,.vt,false,none⟩,⟨256,.ff,false,none⟩,⟨256,.cr,false,none⟩,⟨256,.cr,true,none⟩]⟩,⟨[32],none,[],[⟨256,.other,false,none⟩,⟨256,.ws,false,none⟩,⟨256,.lf,false,some ⟨0,[.setEnt .newline],some 3,true⟩⟩,⟨256,.vt,false,none⟩,⟨256,.ff,false,none⟩,⟨256,.cr,false,none⟩,⟨256,.cr,true,none⟩]⟩,⟨[32,36],some 3,[],[⟨256,.other,false,none⟩,⟨256,.ws,false,none⟩,⟨256,.lf,false,some ⟨0,[.setEnt .newline],some 3,true⟩⟩,⟨256,.vt,false,none⟩,⟨256,.ff,false,none⟩,⟨256,.cr,false,none⟩,⟨256,.cr,true,none⟩]⟩,⟨[27,37],some 4,[],[⟨256,.other,false,some ⟨7,[],none,false⟩⟩,⟨256,.ws,false,some ⟨7,[],none,false⟩⟩,⟨256,.lf,false,none⟩,⟨256,.vt,false,some ⟨7,[],none,false⟩⟩,⟨256,.ff,false,none⟩,⟨256,.cr,false,none⟩,⟨256,.cr,true,none⟩,⟨256,.other,false,some ⟨0,[],some 2,true⟩⟩,⟨256,.other,false,some ⟨8,[],none,false⟩⟩]⟩,⟨[22,37],some 4,[],[⟨256,.other,false,some ⟨9,[],none,false⟩⟩,⟨256,.ws,false,some ⟨9,[],none,false⟩⟩,⟨256,.lf,false,none⟩,⟨256,.vt,false,some ⟨9,[],none,false⟩⟩,⟨256,.ff,false,none⟩,⟨256,.cr,false,none⟩,⟨256,.cr,true,none⟩,⟨256,.other,false,some ⟨0,[],some 2,true⟩⟩,⟨256,.other,false,some ⟨10,[],none,false⟩⟩]⟩,⟨[1,11,37],some 4,[],[⟨256,.other,false,none⟩,⟨256,.ws,false,none⟩,⟨256,.lf,false,none⟩,⟨256,.vt,false,none⟩,⟨256,.ff,false,none⟩,⟨256,.cr,false,none⟩,⟨256,.cr,true,none⟩,⟨256,.other,false,some ⟨11,[.comment],none,false⟩⟩,⟨256,.other,false,some ⟨12,[.comment],some 1,false⟩⟩]⟩,⟨[28],none,[],[⟨256,.other,false,some ⟨7,[],none,false⟩⟩,⟨256,.ws,false,some ⟨7,[],none,false⟩⟩,⟨256,.lf,false,none⟩,⟨256,.vt,false,some ⟨7,[],none,false⟩⟩,⟨256,.ff,false,none⟩,⟨256,.cr,false,none⟩,⟨256,.cr,true,none⟩,⟨256,.other,false,some ⟨0,[],some 2,true⟩⟩,⟨256,.other,false,some ⟨8,[],none,false⟩⟩]⟩,⟨[29],none,[],[⟨256,.other,false,some ⟨13,[],none,false⟩⟩,⟨256,.ws,false,some ⟨13,[],none,false⟩⟩,⟨256,.lf,false,none⟩,⟨256,.vt,false,some ⟨13,[],none,false⟩⟩,⟨256,.ff,false,none⟩,⟨256,.cr,false,none⟩,⟨256,.cr,true,none⟩]⟩,⟨[23],none,[],[⟨256,.other,false,some ⟨9,[],none,false⟩⟩,⟨256,.ws,false,some ⟨9,[],none,false⟩⟩,⟨256,.lf,false,none⟩,⟨256,.vt,false,some ⟨9,[],none,false⟩⟩,⟨256,.ff,false,none⟩,⟨256,.cr,false,none⟩,⟨256,.cr,true,none⟩,⟨256,.other,false,some ⟨0,[],some 2,true⟩⟩,⟨256,.other,false,some ⟨10,[],none,false⟩⟩]⟩,⟨[24],none,[],[⟨256,.other,false,some ⟨14,[],none,false⟩⟩,⟨256,.ws,false,some ⟨14,[],none,false⟩⟩,⟨256,.lf,false,none⟩,⟨256,.vt,false,some ⟨14,[],none,false⟩⟩,⟨256,.ff,false,none⟩,⟨256,.cr,false,none⟩,⟨256,.cr,true,none⟩]⟩,⟨[12],none,[],[⟨256,.other,false,some ⟨15,[.comment],none,false⟩⟩,⟨256,.ws,false,some ⟨16,[],none,false⟩⟩,⟨256,.lf,false,some ⟨17,[],none,false⟩⟩,⟨256,.vt,false,some ⟨15,[.comment],none,false⟩⟩,⟨256,.ff,false,some ⟨18,[],none,false⟩⟩,⟨256,.cr,false,some ⟨19,[],none,false⟩⟩,⟨256,.cr,true,some ⟨20,[],none,false⟩⟩,⟨256,.other,false,some ⟨21,[.comment],none,false⟩⟩]⟩,⟨[2],some 1,[],[⟨256,.other,false,some ⟨22,[.comment],some 1,false⟩⟩,⟨256,.ws,false,some ⟨23,[],some 1,false⟩⟩,⟨256,.lf,false,none⟩,⟨256,.vt,false,some ⟨22,[.comment],some 1,false⟩⟩,⟨256,.ff,false,none⟩,⟨256,.cr,false,none⟩,⟨256,.cr,true,none⟩,⟨256,.other,false,some ⟨24,[.comment],some 1,false⟩⟩]⟩,⟨[30],none,[],[⟨256,.other,false,some ⟨7,[],none,false⟩⟩,⟨256,.ws,false,some ⟨7,[],none,false⟩⟩,⟨256,.lf,false,none⟩,⟨256,.vt,false,some ⟨7,[],none,false⟩⟩,⟨256,.ff,false,none⟩,⟨256,.cr,false,none⟩,⟨256,.cr,true,none⟩,⟨256,.other,false,some ⟨0,[],some 2,true⟩⟩,⟨256,.other,false,some ⟨8,[],none,false⟩⟩]⟩,⟨[25],none,[],[⟨256,.other,false,some ⟨9,[],none,false⟩⟩,⟨256,.ws,false,some ⟨9,[],none,false⟩⟩,⟨256,.lf,false,none⟩,⟨256,.vt,false,some ⟨9,[],none,false⟩⟩,⟨256,.ff,false,none⟩,⟨256,.cr,false,none⟩,⟨256,.cr,true,none⟩,⟨256,.other,false,some ⟨0,[],some 2,true⟩⟩,⟨256,.other,false,some ⟨10,[],none,false⟩⟩]⟩,⟨[19],none,[],[⟨256,.other,false,some ⟨15,[.comment],none,false⟩⟩,⟨256,.ws,false,some ⟨16,[],none,false⟩⟩,⟨256,.lf,false,some ⟨17,[],none,false⟩⟩,⟨256,.vt,false,some ⟨15,[.comment],none,false⟩⟩,⟨256,.ff,false,some ⟨18,[],none,false⟩⟩,⟨256,.cr,false,some ⟨19,[],none,false⟩⟩,⟨256,.cr,true,some ⟨20,[],none,false⟩⟩,⟨256,.other,false,some ⟨21,[.comment],none,false⟩⟩]⟩,⟨[18],none,[],[⟨256,.other,false,some ⟨15,[.comment],none,false⟩⟩,⟨256,.ws,false,some ⟨16,[],none,false⟩⟩,⟨256,.lf,false,some ⟨17,[],none,false⟩⟩,⟨256,.vt,false,some ⟨15,[.comment],none,false⟩⟩,⟨256,.ff,false,some ⟨18,[],none,false⟩⟩,⟨256,.cr,false,some ⟨19,[],none,false⟩⟩,⟨256,.cr,true,some ⟨20,[],none,false⟩⟩,⟨256,.other,false,some ⟨21,[.comment],none,false⟩⟩]⟩,⟨[15],none,[],[⟨256,.other,false,some ⟨15,[.setEnt .internalNl,.cb,.comment],none,false⟩⟩,⟨256,.ws,false,some ⟨16,[.setEnt .internalNl,.cb],none,false⟩⟩,⟨256,.lf,false,some ⟨17,[.setEnt .internalNl,.cb],none,false⟩⟩,⟨256,.vt,false,some ⟨15,[.setEnt .internalNl,.cb,.comment],none,false⟩⟩,⟨256,.ff,false,some ⟨18,[.setEnt .internalNl,.cb],none,false⟩⟩,⟨256,.cr,false,some ⟨19,[.setEnt .internalNl,.cb],none,false⟩⟩,⟨256,.cr,true,some ⟨20,[.setEnt .internalNl,.cb],none,false⟩⟩,⟨256,.other,false,some ⟨21,[.setEnt .internalNl,.cb,.comment],none,false⟩⟩]⟩,⟨[16],none,[],[⟨256,.other,false,some ⟨15,[.setEnt .internalNl,.cb,.comment],none,false⟩⟩,⟨256,.ws,false,some ⟨16,[.setEnt .internalNl,.cb],none,false⟩⟩,⟨256,.lf,false,some ⟨17,[.setEnt .internalNl,.cb],none,false⟩⟩,⟨256,.vt,false,some ⟨15,[.setEnt .internalNl,.cb,.comment],none,false⟩⟩,⟨256,.ff,false,some ⟨18,[.setEnt .internalNl,.cb],none,false⟩⟩,⟨256,.cr,false,some ⟨19,[.setEnt .internalNl,.cb],none,false⟩⟩,⟨256,.cr,true,some ⟨20,[.setEnt .internalNl,.cb],none,false⟩⟩,⟨256,.other,false,some ⟨21,[.setEnt .internalNl,.cb,.comment],none,false⟩⟩]⟩,⟨[13],none,[],[⟨256,.other,false,none⟩,⟨256,.ws,false,none⟩,⟨256,.lf,false,some ⟨25,[],none,false⟩⟩,⟨256,.vt,false,none⟩,⟨256,.ff,false,none⟩,⟨256,.cr,false,none⟩,⟨256,.cr,true,none⟩]⟩,⟨[13,17],none,[],[⟨256,.other,false,some ⟨15,[.setEnt .internalNl,.cb,.comment],none,false⟩⟩,⟨256,.ws,false,some ⟨16,[.setEnt .internalNl,.cb],none,false⟩⟩,⟨256,.lf,false,some ⟨26,[.setEnt .internalNl,.cb],none,false⟩⟩,⟨256,.vt,false,some ⟨15,[.setEnt .internalNl,.cb,.comment],none,false⟩⟩,⟨256,.ff,false,some ⟨18,[.setEnt .internalNl,.cb],none,false⟩⟩,⟨256,.cr,false,some ⟨19,[.setEnt .internalNl,.cb],none,false⟩⟩,⟨256,.cr,true,some ⟨20,[.setEnt .internalNl,.cb],none,false⟩⟩,⟨256,.other,false,some ⟨21,[.setEnt .internalNl,.cb,.comment],none,false⟩⟩]⟩,⟨[19,20],none,[],[⟨256,.other,false,some ⟨15,[.comment],none,false⟩⟩,⟨256,.ws,false,some ⟨16,[],none,false⟩⟩,⟨256,.lf,false,some ⟨17,[],none,false⟩⟩,⟨256,.vt,false,some ⟨15,[.comment],none,false⟩⟩,⟨256,.ff,false,some ⟨18,[],none,false⟩⟩,⟨256,.cr,false,some ⟨19,[],none,false⟩⟩,⟨256,.cr,true,some ⟨20,[],none,false⟩⟩,⟨256,.other,false,some ⟨21,[.comment],none,false⟩⟩,⟨256,.other,false,some ⟨0,[],some 1,true⟩⟩]⟩,⟨[10],some 1,[],[⟨256,.other,false,some ⟨22,[.comment],some 1,false⟩⟩,⟨256,.ws,false,some ⟨23,[],some 1,false⟩⟩,⟨256,.lf,false,none⟩,⟨256,.vt,false,some ⟨22,[.comment],some 1,false⟩⟩,⟨256,.ff,false,none⟩,⟨256,.cr,false,none⟩,⟨256,.cr,true,none⟩,⟨256,.other,false,some ⟨24,[.comment],some 1,false⟩⟩]⟩,⟨[9],some 1,[],[⟨256,.other,false,some ⟨22,[.comment],some 1,false⟩⟩,⟨256,.ws,false,some ⟨23,[],some 1,false⟩⟩,⟨256,.lf,false,none⟩,⟨256,.vt,false,some ⟨22,[.comment],some 1,false⟩⟩,⟨256,.ff,false,none⟩,⟨256,.cr,false,none⟩,⟨256,.cr,true,none⟩,⟨256,.other,false,some ⟨24,[.comment],some 1,false⟩⟩]⟩,⟨[3,10],some 1,[],[⟨256,.other,false,some ⟨22,[.comment],some 1,false⟩⟩,⟨256,.ws,false,some ⟨23,[],some 1,false⟩⟩,⟨256,.lf,false,some ⟨27,[],some 1,false⟩⟩,⟨256,.vt,false,some ⟨22,[.comment],some 1,false⟩⟩,⟨256,.ff,false,some ⟨28,[],some 1,false⟩⟩,⟨256,.cr,false,some ⟨29,[],none,false⟩⟩,⟨256,.cr,true,some ⟨30,[],some 1,false⟩⟩,⟨256,.other,false,some ⟨24,[.comment],some 1,false⟩⟩]⟩,⟨[14],none,[],[⟨256,.other,false,some ⟨15,[.setEnt .internalNl,.cb,.comment],none,false⟩⟩,⟨256,.ws,false,some ⟨16,[.setEnt .internalNl,.cb],none,false⟩⟩,⟨256,.lf,false,some ⟨17,[.setEnt .internalNl,.cb],none,false⟩⟩,⟨256,.vt,false,some ⟨15,[.setEnt .internalNl,.cb,.comment],none,false⟩⟩,⟨256,.ff,false,some ⟨18,[.setEnt .internalNl,.cb],none,false⟩⟩,⟨256,.cr,false,some ⟨19,[.setEnt .internalNl,.cb],none,false⟩⟩,⟨256,.cr,true,some ⟨20,[.setEnt .internalNl,.cb],none,false⟩⟩,⟨256,.other,false,some ⟨21,[.setEnt .internalNl,.cb,.comment],none,false⟩⟩]⟩,⟨[14,15],none,[],[⟨256,.other,false,some ⟨15,[.setEnt .internalNl,.cb,.comment],none,false⟩⟩,⟨256,.ws,false,some ⟨16,[.setEnt .internalNl,.cb],none,false⟩⟩,⟨256,.lf,false,some ⟨17,[.setEnt .internalNl,.cb],none,false⟩⟩,⟨256,.vt,false,some ⟨15,[.setEnt .internalNl,.cb,.comment],none,false⟩⟩,⟨256,.ff,false,some ⟨18,[.setEnt .internalNl,.cb],none,false⟩⟩,⟨256,.cr,false,some ⟨19,[.setEnt .internalNl,.cb],none,false⟩⟩,⟨256,.cr,true,some ⟨20,[.setEnt .internalNl,.cb],none,false⟩⟩,⟨256,.other,false,some ⟨21,[.setEnt .internalNl,.cb,.comment],none,false⟩⟩]⟩,⟨[6],some 1,[.setEnt .internalNl,.cb],[⟨256,.other,false,some ⟨22,[.setEnt .internalNl,.cb,.comment],some 1,false⟩⟩,⟨256,.ws,false,some ⟨23,[.setEnt .internalNl,.cb],some 1,false⟩⟩,⟨256,.lf,false,none⟩,⟨256,.vt,false,some ⟨22,[.setEnt .internalNl,.cb,.comment],some 1,false⟩⟩,⟨256,.ff,false,none⟩,⟨256,.cr,false,none⟩,⟨256,.cr,true,none⟩,⟨256,.other,false,some ⟨24,[.setEnt .internalNl,.cb,.comment],some 1,false⟩⟩]⟩,⟨[7],some 1,[.setEnt .internalNl,.cb],[⟨256,.other,false,some ⟨22,[.setEnt .internalNl,.cb,.comment],some 1,false⟩⟩,⟨256,.ws,false,some ⟨23,[.setEnt .internalNl,.cb],some 1,false⟩⟩,⟨256,.lf,false,none⟩,⟨256,.vt,false,some ⟨22,[.setEnt .internalNl,.cb,.comment],some 1,false⟩⟩,⟨256,.ff,false,none⟩,⟨256,.cr,false,none⟩,⟨256,.cr,true,none⟩,⟨256,.other,false,some ⟨24,[.setEnt .internalNl,.cb,.comment],some 1,false⟩⟩]⟩,⟨[4],none,[],[⟨256,.other,false,none⟩,⟨256,.ws,false,none⟩,⟨256,.lf,false,some ⟨31,[],some 1,false⟩⟩,⟨256,.vt,false,none⟩,⟨256,.ff,false,none⟩,⟨256,.cr,false,none⟩,⟨256,.cr,true,none⟩]⟩,⟨[4,8],some 1,[.setEnt .internalNl,.cb],[⟨256,.other,false,some ⟨22,[.setEnt .internalNl,.cb,.comment],some 1,false⟩⟩,⟨256,.ws,false,some ⟨23,[.setEnt .internalNl,.cb],some 1,false⟩⟩,⟨256,.lf,false,some ⟨31,[],some 1,false⟩⟩,⟨256,.vt,false,some ⟨22,[.setEnt .internalNl,.cb,.comment],some 1,false⟩⟩,⟨256,.ff,false,none⟩,⟨256,.cr,false,none⟩,⟨256,.cr,true,none⟩,⟨256,.other,false,some ⟨24,[.setEnt .internalNl,.cb,.comment],some 1,false⟩⟩]⟩,⟨[5],some 1,[.setEnt .internalNl,.cb],[⟨256,.other,false,some ⟨22,[.setEnt .internalNl,.cb,.comment],some 1,false⟩⟩,⟨256,.ws,false,some ⟨23,[.setEnt .internalNl,.cb],some 1,false⟩⟩,⟨256,.lf,false,none⟩,⟨256,.vt,false,some ⟨22,[.setEnt .internalNl,.cb,.comment],some 1,false⟩⟩,⟨256,.ff,false,none⟩,⟨256,.cr,false,none⟩,⟨256,.cr,true,none⟩,⟨256,.other,false,some ⟨24,[.setEnt .internalNl,.cb,.comment],some 1,false⟩⟩]⟩]
theorem objj_line_rowsOk : rowsOk objj_line_nfa [] (objj_line_cs.map (·.1)) objj_line_rows = true := by decide +kernel
def objj_line_D : Dfa objj_line_M.nfa := ⟨objj_line_masks, [], objj_line_cs, objj_line_rows, objj_line_masksIn, objj_line_repOk, objj_line_rowsOk⟩

def prolog_line_nfa : Nfa := ⟨[⟨0,4294967808,[],[(0,.setEnt (.own 0))],0,0⟩,⟨1,137438953472,[],[(1,.comment)],0,0⟩,⟨3,140737488355328,[],[],0,2⟩,⟨14,549755813888,[],[(6,.code)],0,0⟩,⟨19,17179869184,[],[(7,.code)],0,0⟩,⟨24,8192,[],[(8,.setEnt .newline)],0,0⟩,⟨26,1024,[],[(8,.setEnt .newline)],0,0⟩,⟨27,4096,[],[(8,.setEnt .newline)],0,0⟩,⟨28,8192,[.crAlone],[(8,.setEnt .newline)],0,0⟩,⟨29,115792089237316195423570985008687907853269984665640564039457584007908834656767,[],[(9,.setEnt (.own 3))],0,0⟩],[[⟨0,4294967808,[],[(0,.setEnt (.own 0))],0,0⟩],[⟨2,115792089237316195423570985008687907853269984665640564039457584007913129626623,[],[],0,0⟩],[⟨2,115792089237316195423570985008687907853269984665640564039457584007913129626623,[],[],0,0⟩],[⟨4,4398046511104,[],[(2,.comment)],0,2⟩],[⟨5,8192,[],[],0,2⟩,⟨7,1024,[],[],0,2⟩,⟨8,4096,[],[],0,2⟩,⟨9,8192,[.crAlone],[],0,2⟩,⟨10,4294967808,[],[],0,2⟩,⟨11,115792089237316195423570985008687907853269984665640564039457584007908834658815,[],[(5,.comment)],0,2⟩,⟨12,4398046511104,[],[],0,2⟩],[⟨6,1024,[],[],0,2⟩],[⟨5,8192,[],[(3,.setEnt .internalNl),(4,.cb)],0,2⟩,⟨7,1024,[],[(3,.setEnt .internalNl),(4,.cb)],0,2⟩,⟨8,4096,[],[(3,.setEnt .internalNl),(4,.cb)],0,2⟩,⟨9,8192,[.crAlone],[(3,.setEnt .internalNl),(4,.cb)],0,2⟩,⟨10,4294967808,[],[(3,.setEnt .internalNl),(4,.cb)],0,2⟩,⟨11,115792089237316195423570985008687907853269984665640564039457584007908834658815,[],[(3,.setEnt .internalNl),(4,.cb),(5,.comment)],0,2⟩,⟨12,4398046511104,[],[(3,.setEnt .internalNl),(4,.cb)],0,2⟩],[⟨5,8192,[],[(3,.setEnt .internalNl),(4,.cb)],0,2⟩,⟨7,1024,[],[(3,.setEnt .internalNl),(4,.cb)],0,2⟩,⟨8,4096,[],[(3,.setEnt .internalNl),(4,.cb)],0,2⟩,⟨9,8192,[.crAlone],[(3,.setEnt .internalNl),(4,.cb)],0,2⟩,⟨10,4294967808,[],[(3,.setEnt .internalNl),(4,.cb)],0,2⟩,⟨11,115792089237316195423570985008687907853269984665640564039457584007908834658815,[],[(3,.setEnt .internalNl),(4,.cb),(5,.comment)],0,2⟩,⟨12,4398046511104,[],[(3,.setEnt .internalNl),(4,.cb)],0,2⟩],[⟨5,8192,[],[(3,.setEnt .internalNl),(4,.cb)],0,2⟩,⟨7,1024,[],[(3,.setEnt .internalNl),(4,.cb)],0,2⟩,⟨8,4096,[],[(3,.setEnt .internalNl),(4,.cb)],0,2⟩,⟨9,8192,[.crAlone],[(3,.setEnt .internalNl),(4,.cb)],0,2⟩,⟨10,4294967808,[],[(3,.setEnt .internalNl),(4,.cb)],0,2⟩,⟨11,115792089237316195423570985008687907853269984665640564039457584007908834658815,[],[(3,.setEnt .internalNl),(4,.cb),(5,.comment)],0,2⟩,⟨12,4398046511104,[],[(3,.setEnt .internalNl),(4,.cb)],0,2⟩],[⟨5,8192,[],[(3,.setEnt .internalNl),(4,.cb)],0,2⟩,⟨7,1024,[],[(3,.setEnt .internalNl),(4,.cb)],0,2⟩,⟨8,4096,[],[(3,.setEnt .internalNl),(4,.cb)],0,2⟩,⟨9,8192,[.crAlone],[(3,.setEnt .internalNl),(4,.cb)],0,2⟩,⟨10,4294967808,[],[(3,.setEnt .internalNl),(4,.cb)],0,2⟩,⟨11,115792089237316195423570985008687907853269984665640564039457584007908834658815,[],[(3,.setEnt .internalNl),(4,.cb),(5,.comment)],0,2⟩,⟨12,4398046511104,[],[(3,.setEnt .internalNl),(4,.cb)],0,2⟩],[⟨5,8192,[],[],0,2⟩,⟨7,1024,[],[],0,2⟩,⟨8,4096,[],[],0,2⟩,⟨9,8192,[.crAlone],[],0,2⟩,⟨10,4294967808,[],[],0,2⟩,⟨11,115792089237316195423570985008687907853269984665640564039457584007908834658815,[],[(5,.comment)],0,2⟩,⟨12,4398046511104,[],[],0,2⟩],[⟨5,8192,[],[],0,2⟩,⟨7,1024,[],[],0,2⟩,⟨8,4096,[],[],0,2⟩,⟨9,8192,[.crAlone],[],0,2⟩,⟨10,4294967808,[],[],0,2⟩,⟨11,115792089237316195423570985008687907853269984665640564039457584007908834658815,[],[(5,.comment)],0,2⟩,⟨12,4398046511104,[],[],0,2⟩],[⟨13,140737488355328,[],[],2,0⟩],[],[⟨15,115792089237316195423570985008687907853269984665635612279300442486263777315839,[],[],0,0⟩,⟨16,4951760157141521099596496896,[],[],0,0⟩,⟨18,549755813888,[],[],0,0⟩],[⟨15,115792089237316195423570985008687907853269984665635612279300442486263777315839,[],[],0,0⟩,⟨16,4951760157141521099596496896,[],[],0,0⟩,⟨18,549755813888,[],[],0,0⟩],[⟨17,115792089237316195423570985008687907853269984665640564039457584007913129626623,[],[],0,0⟩],[⟨15,115792089237316195423570985008687907853269984665635612279300442486263777315839,[],[],0,0⟩,⟨16,4951760157141521099596496896,[],[],0,0⟩,⟨18,549755813888,[],[],0,0⟩],[],[⟨20,115792089237316195423570985008687907853269984665635612279300442486796353260543,[],[],0,0⟩,⟨21,4951760157141521099596496896,[],[],0,0⟩,⟨23,17179869184,[],[],0,0⟩],[⟨20,115792089237316195423570985008687907853269984665635612279300442486796353260543,[],[],0,0⟩,⟨21,4951760157141521099596496896,[],[],0,0⟩,⟨23,17179869184,[],[],0,0⟩],[⟨22,115792089237316195423570985008687907853269984665640564039457584007913129626623,[],[],0,0⟩],[⟨20,115792089237316195423570985008687907853269984665635612279300442486796353260543,[],[],0,0⟩,⟨21,4951760157141521099596496896,[],[],0,0⟩,⟨23,17179869184,[],[],0,0⟩],[],[⟨25,1024,[],[(8,.setEnt .newline)],0,0⟩],[],[],[],[],[]],[some (0,[]),some (1,[]),some (1,[]),none,none,none,none,none,none,none,none,none,none,some (1,[]),none,none,none,none,some (2,[]),none,none,none,none,some (2,[]),none,some (3,[]),some (3,[]),some (3,[]),some (3,[]),some (4,[])],[1,6,8,9,10]⟩
theorem prolog_line_nfa_eq : Prolog.prolog_line.nfa = prolog_line_nfa := by decide +kernel
/-- The machine of `Prolog.prolog_line`, with its automaton as a literal. -/
def prolog_line_M : Machine := ⟨prolog_line_nfa, Prolog.prolog_line.ends, Prolog.prolog_line.sw⟩
theorem prolog_line_M_eq : Prolog.prolog_line.machine = prolog_line_M := by
  unfold Scanner.machine prolog_line_M; rw [prolog_line_nfa_eq]
def prolog_line_masks : List Nat := [4294967808,137438953472,140737488355328,549755813888,17179869184,8192,1024,4096,115792089237316195423570985008687907853269984665640564039457584007908834656767,115792089237316195423570985008687907853269984665640564039457584007913129626623,4398046511104,115792089237316195423570985008687907853269984665640564039457584007908834658815,115792089237316195423570985008687907853269984665635612279300442486263777315839,4951760157141521099596496896,115792089237316195423570985008687907853269984665635612279300442486796353260543]
def prolog_line_cs : List (Nat × Nat) := [(0,115792089237316195423570985008687907853269984665635612279300442340969328656895),(9,4294967808),(10,1024),(11,2048),(12,4096),(13,8192),(34,17179869184),(37,137438953472),(39,549755813888),(42,4398046511104),(47,140737488355328),(92,4951760157141521099596496896)]
theorem prolog_line_masksIn : masksIn prolog_line_nfa prolog_line_masks = true := by decide +kernel
theorem prolog_line_repOk : repOk prolog_line_masks prolog_line_cs = true := by decide +kernel
def prolog_line_rows : List Row := [⟨[],none,[],[⟨256,.other,false,some ⟨0,[.setEnt (.own 3)],some 4,true⟩⟩,⟨256,.ws,false,some ⟨1,[.setEnt (.own 0)],some 0,false⟩⟩,⟨256,.lf,false,some ⟨0,[.setEnt .newline],some 3,true⟩⟩,⟨256,.vt,false,none⟩,⟨256,.ff,false,some ⟨0,[.setEnt .newline],some 3,true⟩⟩,⟨256,.cr,false,some ⟨2,[.setEnt .newline],none,false⟩⟩,⟨256,.cr,true,some ⟨3,[.setEnt .newline],some 3,false⟩⟩,⟨256,.other,false,some ⟨4,[.code,.setEnt (.own 3)],some 4,false⟩⟩,⟨256,.other,false,some ⟨5,[.comment,.setEnt (.own 3)],some 1,false⟩⟩,⟨256,.other,false,some ⟨6,[.code,.setEnt (.own 3)],some 4,false⟩⟩,⟨256,.other,false,some ⟨7,[.setEnt (.own 3)],some 4,false⟩⟩]⟩,⟨[0],some 0,[],[⟨256,.other,false,none⟩,⟨256,.ws,false,some ⟨1,[.setEnt (.own 0)],some 0,false⟩⟩,⟨256,.lf,false,none⟩,⟨256,.vt,false,none⟩,⟨256,.ff,false,none⟩,⟨256,.cr,false,none⟩,⟨256,.cr,true,none⟩]⟩,⟨[24],none,[],[⟨256,.other,false,none⟩,⟨256,.ws,false,none⟩,⟨256,.lf,false,some ⟨0,[.setEnt .newline],some 3,true⟩⟩,⟨256,.vt,false,none⟩,⟨256,.ff,false,none⟩,⟨256,.cr,false,none⟩,⟨256,.cr,true,none⟩]⟩,⟨[24,28],some 3,[],[⟨256,.other,false,none⟩,⟨256,.ws,false,none⟩,⟨256,.lf,false,some ⟨0,[.setEnt .newline],some 3,true⟩⟩,⟨256,.vt,false,none⟩,⟨256,.ff,false,none⟩,⟨256,.cr,false,none⟩,⟨256,.cr,true,none⟩]⟩,⟨[19,29],some 4,[],[⟨256,.other,false,some ⟨8,[],none,false⟩⟩,⟨256,.ws,false,some ⟨8,[],none,false⟩⟩,⟨256,.lf,false,none⟩,⟨256,.vt,false,some ⟨8,[],none,false⟩⟩,⟨256,.ff,false,none⟩,⟨256,.cr,false,none⟩,⟨256,.cr,true,none⟩,⟨256,.other,false,some ⟨0,[],some 2,true⟩⟩,⟨256,.other,false,some ⟨9,[],none,false⟩⟩]⟩,⟨[1,29],some 1,[],[⟨256,.other,false,some ⟨10,[],some 1,false⟩⟩,⟨256,.ws,false,some ⟨10,[],some 1,false⟩⟩,⟨256,.lf,false,none⟩,⟨256,.vt,false,some ⟨10,[],some 1,false⟩⟩,⟨256,.ff,false,none⟩,⟨256,.cr,false,none⟩,⟨256,.cr,true,none⟩]⟩,⟨[14,29],some 4,[],[⟨256,.other,false,some ⟨11,[],none,false⟩⟩,⟨256,.ws,false,some ⟨11,[],none,false⟩⟩,⟨256,.lf,false,none⟩,⟨256,.vt,false,some ⟨11,[],none,false⟩⟩,⟨256,.ff,false,none⟩,⟨256,.cr,false,none⟩,⟨256,.cr,true,none⟩,⟨256,.other,false,some ⟨0,[],some 2,true⟩⟩,⟨256,.other,false,some ⟨12,[],none,false⟩⟩]⟩,⟨[3,29],some 4,[],[⟨256,.other,false,none⟩,⟨256,.ws,false,none⟩,⟨256,.lf,false,none⟩,⟨256,.vt,false,none⟩,⟨256,.ff,false,none⟩,⟨256,.cr,false,none⟩,⟨256,.cr,true,none⟩,⟨256,.other,false,some ⟨13,[.comment],none,false⟩⟩]⟩,⟨[20],none,[],[⟨256,.other,false,some ⟨8,[],none,false⟩⟩,⟨256,.ws,false,some ⟨8,[],none,false⟩⟩,⟨256,.lf,false,none⟩,⟨256,.vt,false,some ⟨8,[],none,false⟩⟩,⟨256,.ff,false,none⟩,⟨256,.cr,false,none⟩,⟨256,.cr,true,none⟩,⟨256,.other,false,some ⟨0,[],some 2,true⟩⟩,⟨256,.other,false,some ⟨9,[],none,false⟩⟩]⟩,⟨[21],none,[],[⟨256,.other,false,some ⟨14,[],none,false⟩⟩,⟨256,.ws,false,some ⟨14,[],none,false⟩⟩,⟨256,.lf,false,none⟩,⟨256,.vt,false,some ⟨14,[],none,false⟩⟩,⟨256,.ff,false,none⟩,⟨256,.cr,false,none⟩,⟨256,.cr,true,none⟩]⟩,⟨[2],some 1,[],[⟨256,.other,false,some ⟨10,[],some 1,false⟩⟩,⟨256,.ws,false,some ⟨10,[],some 1,false⟩⟩,⟨256,.lf,false,none⟩,⟨256,.vt,false,some ⟨10,[],some 1,false⟩⟩,⟨256,.ff,false,none⟩,⟨256,.cr,false,none⟩,⟨256,.cr,true,none⟩]⟩,⟨[15],none,[],[⟨256,.other,false,some ⟨11,[],none,false⟩⟩,⟨256,.ws,false,some ⟨11,[],none,false⟩⟩,⟨256,.lf,false,none⟩,⟨256,.vt,false,some ⟨11,[],none,false⟩⟩,⟨256,.ff,false,none⟩,⟨256,.cr,false,none⟩,⟨256,.cr,true,none⟩,⟨256,.other,false,some ⟨0,[],some 2,true⟩⟩,⟨256,.other,false,some ⟨12,[],none,false⟩⟩]⟩,⟨[16],none,[],[⟨256,.other,false,some ⟨15,[],none,false⟩⟩,⟨256,.ws,false,some ⟨15,[],none,false⟩⟩,⟨256,.lf,false,none⟩,⟨256,.vt,false,some ⟨15,[],none,false⟩⟩,⟨256,.ff,false,none⟩,⟨256,.cr,false,none⟩,⟨256,.cr,true,none⟩]⟩,⟨[4],none,[],[⟨256,.other,false,some ⟨16,[.comment],none,false⟩⟩,⟨256,.ws,false,some ⟨17,[],none,false⟩⟩,⟨256,.lf,false,some ⟨18,[],none,false⟩⟩,⟨256,.vt,false,some ⟨16,[.comment],none,false⟩⟩,⟨256,.ff,false,some ⟨19,[],none,false⟩⟩,⟨256,.cr,false,some ⟨20,[],none,false⟩⟩,⟨256,.cr,true,some ⟨21,[],none,false⟩⟩,⟨256,.other,false,some ⟨22,[.comment],none,false⟩⟩]⟩,⟨[22],none,[],[⟨256,.other,false,some ⟨8,[],none,false⟩⟩,⟨256,.ws,false,some ⟨8,[],none,false⟩⟩,⟨256,.lf,false,none⟩,⟨256,.vt,false,some ⟨8,[],none,false⟩⟩,⟨256,.ff,false,none⟩,⟨256,.cr,false,none⟩,⟨256,.cr,true,none⟩,⟨256,.other,false,some ⟨0,[],some 2,true⟩⟩,⟨256,.other,false,some ⟨9,[],none,false⟩⟩]⟩,⟨[17],none,[],[⟨256,.other,false,some ⟨11,[],none,false⟩⟩,⟨256,.ws,false,some ⟨11,[],none,false⟩⟩,⟨256,.lf,false,none⟩,⟨256,.vt,false,some ⟨11,[],none,false⟩⟩,⟨256,.ff,false,none⟩,⟨256,.cr,false,none⟩,⟨256,.cr,true,none⟩,⟨256,.other,false,some ⟨0,[],some 2,true⟩⟩,⟨256,.other,false,some ⟨12,[],none,false⟩⟩]⟩,⟨[11],none,[],[⟨256,.other,false,some ⟨16,[.comment],none,false⟩⟩,⟨256,.ws,false,some ⟨17,[],none,false⟩⟩,⟨256,.lf,false,some ⟨18,[],none,false⟩⟩,⟨256,.vt,false,some ⟨16,[.comment],none,false⟩⟩,⟨256,.ff,false,some ⟨19,[],none,false⟩⟩,⟨256,.cr,false,some ⟨20,[],none,false⟩⟩,⟨256,.cr,true,some ⟨21,[],none,false⟩⟩,⟨256,.other,false,some ⟨22,[.comment],none,false⟩⟩]⟩,⟨[10],none,[],[⟨256,.other,false,some ⟨16,[.comment],none,false⟩⟩,⟨256,.ws,false,some ⟨17,[],none,false⟩⟩,⟨256,.lf,false,some ⟨18,[],none,false⟩⟩,⟨256,.vt,false,some ⟨16,[.comment],none,false⟩⟩,⟨256,.ff,false,some ⟨19,[],none,false⟩⟩,⟨256,.cr,false,some ⟨20,[],none,false⟩⟩,⟨256,.cr,true,some ⟨21,[],none,false⟩⟩,⟨256,.other,false,some ⟨22,[.comment],none,false⟩⟩]⟩,⟨[7],none,[],[⟨256,.other,false,some ⟨16,[.setEnt .internalNl,.cb,.comment],none,false⟩⟩,⟨256,.ws,false,some ⟨17,[.setEnt .internalNl,.cb],none,false⟩⟩,⟨256,.lf,false,some ⟨18,[.setEnt .internalNl,.cb],none,false⟩⟩,⟨256,.vt,false,some ⟨16,[.setEnt .internalNl,.cb,.comment],none,false⟩⟩,⟨256,.ff,false,some ⟨19,[.setEnt .internalNl,.cb],none,false⟩⟩,⟨256,.cr,false,some ⟨20,[.setEnt .internalNl,.cb],none,false⟩⟩,⟨256,.cr,true,some ⟨21,[.setEnt .internalNl,.cb],none,false⟩⟩,⟨256,.other,false,some ⟨22,[.setEnt .internalNl,.cb,.comment],none,false⟩⟩]⟩,⟨[8],none,[],[⟨256,.other,false,some ⟨16,[.setEnt .internalNl,.cb,.comment],none,false⟩⟩,⟨256,.ws,false,some ⟨17,[.setEnt .internalNl,.cb],none,false⟩⟩,⟨256,.lf,false,some ⟨18,[.setEnt .internalNl,.cb],none,false⟩⟩,⟨256,.vt,false,some ⟨16,[.setEnt .internalNl,.cb,.comment],none,false⟩⟩,⟨256,.ff,false,some ⟨19,[.setEnt .internalNl,.cb],none,false⟩⟩,⟨256,.cr,false,some ⟨20,[.setEnt .internalNl,.cb],none,false⟩⟩,⟨256,.cr,true,some ⟨21,[.setEnt .internalNl,.cb],none,false⟩⟩,⟨256,.other,false,some ⟨22,[.setEnt .internalNl,.cb,.comment],none,false⟩⟩]⟩,⟨[5],none,[],[⟨256,.other,false,none⟩,⟨256,.ws,false,none⟩,⟨256,.lf,false,some ⟨23,[],none,false⟩⟩,⟨256,.vt,false,none⟩,⟨256,.ff,false,none⟩,⟨256,.cr,false,none⟩,⟨256,.cr,true,none⟩]⟩,⟨[5,9],none,[],[⟨256,.other,false,some ⟨16,[.setEnt .internalNl,.cb,.comment],none,false⟩⟩,⟨256,.ws,false,some ⟨17,[.setEnt .internalNl,.cb],none,false⟩⟩,⟨256,.lf,false,some ⟨24,[.setEnt .internalNl,.cb],none,false⟩⟩,⟨256,.vt,false,some ⟨16,[.setEnt .internalNl,.cb,.comment],none,false⟩⟩,⟨256,.ff,false,some ⟨19,[.setEnt .internalNl,.cb],none,false⟩⟩,⟨256,.cr,false,some ⟨20,[.setEnt .internalNl,.cb],none,false⟩⟩,⟨256,.cr,true,some ⟨21,[.setEnt .internalNl,.cb],none,false⟩⟩,⟨256,.other,false,some ⟨22,[.setEnt .internalNl,.cb,.comment],none,false⟩⟩]⟩,⟨[11,12],none,[],[⟨256,.other,false,some ⟨16,[.comment],none,false⟩⟩,⟨256,.ws,false,some ⟨17,[],none,false⟩⟩,⟨256,.lf,false,some ⟨18,[],none,false⟩⟩,⟨256,.vt,false,some ⟨16,[.comment],none,false⟩⟩,⟨256,.ff,false,some ⟨19,[],none,false⟩⟩,⟨256,.cr,false,some ⟨20,[],none,false⟩⟩,⟨256,.cr,true,some ⟨21,[],none,false⟩⟩,⟨256,.other,false,some ⟨22,[.comment],none,false⟩⟩,⟨256,.other,false,some ⟨0,[],some 1,true⟩⟩]⟩,⟨[6],none,[],[⟨256,.other,false,some ⟨16,[.setEnt .internalNl,.cb,.comment],none,false⟩⟩,⟨256,.ws,false,some ⟨17,[.setEnt .internalNl,.cb],none,false⟩⟩,⟨256,.lf,false,some ⟨18,[.setEnt .internalNl,.cb],none,false⟩⟩,⟨256,.vt,false,some ⟨16,[.setEnt .internalNl,.cb,.comment],none,false⟩⟩,⟨256,.ff,false,some ⟨19,[.setEnt .internalNl,.cb],none,false⟩⟩,⟨256,.cr,false,some ⟨20,[.setEnt .internalNl,.cb],none,false⟩⟩,⟨256,.cr,true,some ⟨21,[.setEnt .internalNl,.cb],none,false⟩⟩,⟨256,.other,false,some ⟨22,[.setEnt .internalNl,.cb,.comment],none,false⟩⟩]⟩,⟨[6,7],none,[],[⟨256,.other,false,some ⟨16,[.setEnt .internalNl,.cb,.comment],none,false⟩⟩,⟨256,.ws,false,some ⟨17,[.setEnt .internalNl,.cb],none,false⟩⟩,⟨256,.lf,false,some ⟨18,[.setEnt .internalNl,.cb],none,false⟩⟩,⟨256,.vt,false,some ⟨16,[.setEnt .internalNl,.cb,.comment],none,false⟩⟩,⟨256,.ff,false,some ⟨19,[.setEnt .internalNl,.cb],none,false⟩⟩,⟨256,.cr,false,some ⟨20,[.setEnt .internalNl,.cb],none,false⟩⟩,⟨256,.cr,true,some ⟨21,[.setEnt .internalNl,.cb],none,false⟩⟩,⟨256,.other,false,some ⟨22,[.setEnt .internalNl,.cb,.comment],none,false⟩⟩]⟩]
theorem prolog_line_rowsOk : rowsOk prolog_line_nfa [] (prolog_line_cs.map (·.1)) prolog_line_rows = true := by decide +kernel
def prolog_line_D : Dfa prolog_line_M.nfa := ⟨prolog_line_masks, [], prolog_line_cs, prolog_line_rows, prolog_line_masksIn, prolog_line_repOk, prolog_line_rowsOk⟩

def vb_line_nfa : Nfa := ⟨[⟨0,4294967808,[],[(0,.setEnt (.own 0))],0,0⟩,⟨1,549755813888,[],[(1,.comment)],0,0⟩,⟨2,20769187438975013792580502015705088,[],[],0,0⟩,⟨6,17179869184,[],[(2,.code)],0,0⟩,⟨11,8192,[],[(3,.setEnt .newline)],0,0⟩,⟨13,1024,[],[(3,.setEnt .newline)],0,0⟩,⟨14,4096,[],[(3,.setEnt .newline)],0,0⟩,⟨15,8192,[.crAlone],[(3,.setEnt .newline)],0,0⟩,⟨16,115792089237316195423570985008687907853269984665640564039457584007908834656767,[],[(4,.setEnt (.own 3))],0,0⟩],[[⟨0,4294967808,[],[(0,.setEnt (.own 0))],0,0⟩],[⟨5,115792089237316195423570985008687907853269984665640564039457584007913129626623,[],[],0,0⟩],[⟨3,2535301201046754613352112062464,[],[],0,0⟩],[⟨4,649037107467969181018140687990784,[],[(1,.comment)],0,0⟩],[⟨5,115792089237316195423570985008687907853269984665640564039457584007913129626623,[],[],0,0⟩],[⟨5,115792089237316195423570985008687907853269984665640564039457584007913129626623,[],[],0,0⟩],[⟨7,115792089237316195423570985008687907853269984665635612279300442486796353260543,[],[],0,0⟩,⟨8,4951760157141521099596496896,[],[],0,0⟩,⟨10,17179869184,[],[],0,0⟩],[⟨7,115792089237316195423570985008687907853269984665635612279300442486796353260543,[],[],0,0⟩,⟨8,4951760157141521099596496896,[],[],0,0⟩,⟨10,17179869184,[],[],0,0⟩],[⟨9,115792089237316195423570985008687907853269984665640564039457584007913129626623,[],[],0,0⟩],[⟨7,115792089237316195423570985008687907853269984665635612279300442486796353260543,[],[],0,0⟩,⟨8,4951760157141521099596496896,[],[],0,0⟩,⟨10,17179869184,[],[],0,0⟩],[],[⟨12,1024,[],[(3,.setEnt .newline)],0,0⟩],[],[],[],[],[]],[some (0,[]),some (1,[]),none,none,some (1,[]),some (1,[]),none,none,none,none,some (2,[]),none,some (3,[]),some (3,[]),some (3,[]),some (3,[]),some (4,[])],[1,2,3,4,5]⟩
theorem vb_line_nfa_eq : VisualBasic.vb_line.nfa = vb_line_nfa := by decide +kernel
/-- The machine of `VisualBasic.vb_line`, with its automaton as a literal. -/
def vb_line_M : Machine := ⟨vb_line_nfa, VisualBasic.vb_line.ends, VisualBasic.vb_line.sw⟩
theorem vb_line_M_eq : VisualBasic.vb_line.machine = vb_line_M := by
  unfold Scanner.machine vb_line_M; rw [vb_line_nfa_eq]
def vb_line_masks : List Nat := [4294967808,549755813888,20769187438975013792580502015705088,17179869184,8192,1024,4096,115792089237316195423570985008687907853269984665640564039457584007908834656767,115792089237316195423570985008687907853269984665640564039457584007913129626623,2535301201046754613352112062464,649037107467969181018140687990784,115792089237316195423570985008687907853269984665635612279300442486796353260543,4951760157141521099596496896]
def vb_line_cs : List (Nat × Nat) := [(0,115792089237316195423570985008687907853269963244875764635270714274247486718463),(9,4294967808),(10,1024),(11,2048),(12,4096),(13,8192),(34,17179869184),(39,549755813888),(69,2535301201046754613352112062464),(77,649037107467969181018140687990784),(82,20769187438975013792580502015705088),(92,4951760157141521099596496896)]
theorem vb_line_masksIn : masksIn vb_line_nfa vb_line_masks = true := by decide +kernel
theorem vb_line_repOk : repOk vb_line_masks vb_line_cs = true := by decide +kernel
def vb_line_rows : List Row := [⟨[],none,[],[⟨256,.other,false,some ⟨0,[.setEnt (.own 3)],some 4,true⟩⟩,⟨256,.ws,false,some ⟨1,[.setEnt (.own 0)],some 0,false⟩⟩,⟨256,.lf,false,some ⟨0,[.setEnt .newline],some 3,true⟩⟩,⟨256,.vt,false,none⟩,⟨256,.ff,false,some ⟨0,[.setEnt .newline],some 3,true⟩⟩,⟨256,.cr,false,some ⟨2,[.setEnt .newline],none,false⟩⟩,⟨256,.cr,true,some ⟨3,[.setEnt .newline],some 3,false⟩⟩,⟨256,.other,false,some ⟨4,[.code,.setEnt (.own 3)],some 4,false⟩⟩,⟨256,.other,false,some ⟨5,[.comment,.setEnt (.own 3)],some 1,false⟩⟩,⟨256,.other,false,some ⟨6,[.setEnt (.own 3)],some 4,false⟩⟩]⟩,⟨[0],some 0,[],[⟨256,.other,false,none⟩,⟨256,.ws,false,some ⟨1,[.setEnt (.own 0)],some 0,false⟩⟩,⟨256,.lf,false,none⟩,⟨256,.vt,false,none⟩,⟨256,.ff,false,none⟩,⟨256,.cr,false,none⟩,⟨256,.cr,true,none⟩]⟩,⟨[11],none,[],[⟨256,.other,false,none⟩,⟨256,.ws,false,none⟩,⟨256,.lf,false,some ⟨0,[.setEnt .newline],some 3,true⟩⟩,⟨256,.vt,false,none⟩,⟨256,.ff,false,none⟩,⟨256,.cr,false,none⟩,⟨256,.cr,true,none⟩]⟩,⟨[11,15],some 3,[],[⟨256,.other,false,none⟩,⟨256,.ws,false,none⟩,⟨256,.lf,false,some ⟨0,[.setEnt .newline],some 3,true⟩⟩,⟨256,.vt,false,none⟩,⟨256,.ff,false,none⟩,⟨256,.cr,false,none⟩,⟨256,.cr,true,none⟩]⟩,⟨[6,16],some 4,[],[⟨256,.other,false,some ⟨7,[],none,false⟩⟩,⟨256,.ws,false,some ⟨7,[],none,false⟩⟩,⟨256,.lf,false,none⟩,⟨256,.vt,false,some ⟨7,[],none,false⟩⟩,⟨256,.ff,false,none⟩,⟨256,.cr,false,none⟩,⟨256,.cr,true,none⟩,⟨256,.other,false,some ⟨0,[],some 2,true⟩⟩,⟨256,.other,false,some ⟨8,[],none,false⟩⟩]⟩,⟨[1,16],some 1,[],[⟨256,.other,false,some ⟨9,[],some 1,false⟩⟩,⟨256,.ws,false,some ⟨9,[],some 1,false⟩⟩,⟨256,.lf,false,none⟩,⟨256,.vt,false,some ⟨9,[],some 1,false⟩⟩,⟨256,.ff,false,none⟩,⟨256,.cr,false,none⟩,⟨256,.cr,true,none⟩]⟩,⟨[2,16],some 4,[],[⟨256,.other,false,none⟩,⟨256,.ws,false,none⟩,⟨256,.lf,false,none⟩,⟨256,.vt,false,none⟩,⟨256,.ff,false,none⟩,⟨256,.cr,false,none⟩,⟨256,.cr,true,none⟩,⟨256,.other,false,some ⟨10,[],none,false⟩⟩]⟩,⟨[7],none,[],[⟨256,.other,false,some ⟨7,[],none,false⟩⟩,⟨256,.ws,false,some ⟨7,[],none,false⟩⟩,⟨256,.lf,false,none⟩,⟨256,.vt,false,some ⟨7,[],none,false⟩⟩,⟨256,.ff,false,none⟩,⟨256,.cr,false,none⟩,⟨256,.cr,true,none⟩,⟨256,.other,false,some ⟨0,[],some 2,true⟩⟩,⟨256,.other,false,some ⟨8,[],none,false⟩⟩]⟩,⟨[8],none,[],[⟨256,.other,false,some ⟨11,[],none,false⟩⟩,⟨256,.ws,false,some ⟨11,[],none,false⟩⟩,⟨256,.lf,false,none⟩,⟨256,.vt,false,some ⟨11,[],none,false⟩⟩,⟨256,.ff,false,none⟩,⟨256,.cr,false,none⟩,⟨256,.cr,true,none⟩]⟩,⟨[5],some 1,[],[⟨256,.other,false,some ⟨9,[],some 1,false⟩⟩,⟨256,.ws,false,some ⟨9,[],some 1,false⟩⟩,⟨256,.lf,false,none⟩,⟨256,.vt,false,some ⟨9,[],some 1,false⟩⟩,⟨256,.ff,false,none⟩,⟨256,.cr,false,none⟩,⟨256,.cr,true,none⟩]⟩,⟨[3],none,[],[⟨256,.other,false,none⟩,⟨256,.ws,false,none⟩,⟨256,.lf,false,none⟩,⟨256,.vt,false,none⟩,⟨256,.ff,false,none⟩,⟨256,.cr,false,none⟩,⟨256,.cr,true,none⟩,⟨256,.other,false,some ⟨12,[.comment],some 1,false⟩⟩]⟩,⟨[9],none,[],[⟨256,.other,false,some ⟨7,[],none,false⟩⟩,⟨256,.ws,false,some ⟨7,[],none,false⟩⟩,⟨256,.lf,false,none⟩,⟨256,.vt,false,some ⟨7,[],none,false⟩⟩,⟨256,.ff,false,none⟩,⟨256,.cr,false,none⟩,⟨256,.cr,true,none⟩,⟨256,.other,false,some ⟨0,[],some 2,true⟩⟩,⟨256,.other,false,some ⟨8,[],none,false⟩⟩]⟩,⟨[4],some 1,[],[⟨256,.other,false,some ⟨9,[],some 1,false⟩⟩,⟨256,.ws,false,some ⟨9,[],some 1,false⟩⟩,⟨256,.lf,false,none⟩,⟨256,.vt,false,some ⟨9,[],some 1,false⟩⟩,⟨256,.ff,false,none⟩,⟨256,.cr,false,none⟩,⟨256,.cr,true,none⟩]⟩]
theorem vb_line_rowsOk : rowsOk vb_line_nfa [] (vb_line_cs.map (·.1)) vb_line_rows = true := by decide +kernel
def vb_line_D : Dfa vb_line_M.nfa := ⟨vb_line_masks, [], vb_line_cs, vb_line_rows, vb_line_masksIn, vb_line_repOk, vb_line_rowsOk⟩

end Ohcount.Cert
