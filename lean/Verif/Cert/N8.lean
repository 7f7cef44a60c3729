import Verif.Gram.All
import Verif.RagelCheck

/-! Generated by tools/gen_certs.py. -/

namespace Ohcount.Cert
open Ohcount.Ragel Ohcount.Gram

set_option maxRecDepth 100000

def css_line_nfa : Nfa := ⟨[⟨0,4294967808,[],[(0,.setEnt (.own 0))],0,0⟩,⟨1,140737488355328,[],[],0,2⟩,⟨12,549755813888,[],[(5,.code)],0,0⟩,⟨23,17179869184,[],[(10,.code)],0,0⟩,⟨34,8192,[],[(15,.setEnt .newline)],0,0⟩,⟨36,1024,[],[(15,.setEnt .newline)],0,0⟩,⟨37,4096,[],[(15,.setEnt .newline)],0,0⟩,⟨38,8192,[.crAlone],[(15,.setEnt .newline)],0,0⟩,⟨39,115792089237316195423570985008687907853269984665640564039457584007908834656767,[],[(16,.setEnt (.own 9))],0,0⟩],[[⟨0,4294967808,[],[(0,.setEnt (.own 0))],0,0⟩],[⟨2,4398046511104,[],[(1,.comment)],0,2⟩],[⟨3,8192,[],[],0,2⟩,⟨5,1024,[],[],0,2⟩,⟨6,4096,[],[],0,2⟩,⟨7,8192,[.crAlone],[],0,2⟩,⟨8,4294967808,[],[],0,2⟩,⟨9,115792089237316195423570985008687907853269984665640564039457584007908834658815,[],[(4,.comment)],0,2⟩,⟨10,4398046511104,[],[],0,2⟩],[⟨4,1024,[],[],0,2⟩],[⟨3,8192,[],[(2,.setEnt .internalNl),(3,.cb)],0,2⟩,⟨5,1024,[],[(2,.setEnt .internalNl),(3,.cb)],0,2⟩,⟨6,4096,[],[(2,.setEnt .internalNl),(3,.cb)],0,2⟩,⟨7,8192,[.crAlone],[(2,.setEnt .internalNl),(3,.cb)],0,2⟩,⟨8,4294967808,[],[(2,.setEnt .internalNl),(3,.cb)],0,2⟩,⟨9,115792089237316195423570985008687907853269984665640564039457584007908834658815,[],[(2,.setEnt .internalNl),(3,.cb),(4,.comment)],0,2⟩,⟨10,4398046511104,[],[(2,.setEnt .internalNl),(3,.cb)],0,2⟩],[⟨3,8192,[],[(2,.setEnt .internalNl),(3,.cb)],0,2⟩,⟨5,1024,[],[(2,.setEnt .internalNl),(3,.cb)],0,2⟩,⟨6,4096,[],[(2,.setEnt .internalNl),(3,.cb)],0,2⟩,⟨7,8192,[.crAlone],[(2,.setEnt .internalNl),(3,.cb)],0,2⟩,⟨8,4294967808,[],[(2,.setEnt .internalNl),(3,.cb)],0,2⟩,⟨9,115792089237316195423570985008687907853269984665640564039457584007908834658815,[],[(2,.setEnt .internalNl),(3,.cb),(4,.comment)],0,2⟩,⟨10,4398046511104,[],[(2,.setEnt .internalNl),(3,.cb)],0,2⟩],[⟨3,8192,[],[(2,.setEnt .internalNl),(3,.cb)],0,2⟩,⟨5,1024,[],[(2,.setEnt .internalNl),(3,.cb)],0,2⟩,⟨6,4096,[],[(2,.setEnt .internalNl),(3,.cb)],0,2⟩,⟨7,8192,[.crAlone],[(2,.setEnt .internalNl),(3,.cb)],0,2⟩,⟨8,4294967808,[],[(2,.setEnt .internalNl),(3,.cb)],0,2⟩,⟨9,115792089237316195423570985008687907853269984665640564039457584007908834658815,[],[(2,.setEnt .internalNl),(3,.cb),(4,.comment)],0,2⟩,⟨10,4398046511104,[],[(2,.setEnt .internalNl),(3,.cb)],0,2⟩],[⟨3,8192,[],[(2,.setEnt .internalNl),(3,.cb)],0,2⟩,⟨5,1024,[],[(2,.setEnt .internalNl),(3,.cb)],0,2⟩,⟨6,4096,[],[(2,.setEnt .internalNl),(3,.cb)],0,2⟩,⟨7,8192,[.crAlone],[(2,.setEnt .internalNl),(3,.cb)],0,2⟩,⟨8,4294967808,[],[(2,.setEnt .internalNl),(3,.cb)],0,2⟩,⟨9,115792089237316195423570985008687907853269984665640564039457584007908834658815,[],[(2,.setEnt .internalNl),(3,.cb),(4,.comment)],0,2⟩,⟨10,4398046511104,[],[(2,.setEnt .internalNl),(3,.cb)],0,2⟩],[⟨3,8192,[],[],0,2⟩,⟨5,1024,[],[],0,2⟩,⟨6,4096,[],[],0,2⟩,⟨7,8192,[.crAlone],[],0,2⟩,⟨8,4294967808,[],[],0,2⟩,⟨9,115792089237316195423570985008687907853269984665640564039457584007908834658815,[],[(4,.comment)],0,2⟩,⟨10,4398046511104,[],[],0,2⟩],[⟨3,8192,[],[],0,2⟩,⟨5,1024,[],[],0,2⟩,⟨6,4096,[],[],0,2⟩,⟨7,8192,[.crAlone],[],0,2⟩,⟨8,4294967808,[],[],0,2⟩,⟨9,115792089237316195423570985008687907853269984665640564039457584007908834658815,[],[(4,.comment)],0,2⟩,⟨10,4398046511104,[],[],0,2⟩],[⟨11,140737488355328,[],[],2,0⟩],[],[⟨13,8192,[],[],0,0⟩,⟨15,1024,[],[],0,0⟩,⟨16,4096,[],[],0,0⟩,⟨17,8192,[.crAlone],[],0,0⟩,⟨18,4294967808,[],[],0,0⟩,⟨19,115792089237316195423570985008687907853269984665635612279300442486259482348031,[],[(8,.code)],0,0⟩,⟨20,4951760157141521099596496896,[],[],0,0⟩,⟨22,549755813888,[],[],0,0⟩],[⟨14,1024,[],[],0,0⟩],[⟨13,8192,[],[(6,.setEnt .internalNl),(7,.cb)],0,0⟩,⟨15,1024,[],[(6,.setEnt .internalNl),(7,.cb)],0,0⟩,⟨16,4096,[],[(6,.setEnt .internalNl),(7,.cb)],0,0⟩,⟨17,8192,[.crAlone],[(6,.setEnt .internalNl),(7,.cb)],0,0⟩,⟨18,4294967808,[],[(6,.setEnt .internalNl),(7,.cb)],0,0⟩,⟨19,115792089237316195423570985008687907853269984665635612279300442486259482348031,[],[(6,.setEnt .internalNl),(7,.cb),(8,.code)],0,0⟩,⟨20,4951760157141521099596496896,[],[(6,.setEnt .internalNl),(7,.cb)],0,0⟩,⟨22,549755813888,[],[(6,.setEnt .internalNl),(7,.cb)],0,0⟩],[⟨13,8192,[],[(6,.setEnt .internalNl),(7,.cb)],0,0⟩,⟨15,1024,[],[(6,.setEnt .internalNl),(7,.cb)],0,0⟩,⟨16,4096,[],[(6,.setEnt .internalNl),(7,.cb)],0,0⟩,⟨17,8192,[.crAlone],[(6,.setEnt .internalNl),(7,.cb)],0,0⟩,⟨18,4294967808,[],[(6,.setEnt .internalNl),(7,.cb)],0,0⟩,⟨19,115792089237316195423570985008687907853269984665635612279300442486259482348031,[],[(6,.setEnt .internalNl),(7,.cb),(8,.code)],0,0⟩,⟨20,4951760157141521099596496896,[],[(6,.setEnt .internalNl),(7,.cb)],0,0⟩,⟨22,549755813888,[],[(6,.setEnt .internalNl),(7,.cb)],0,0⟩],[⟨13,8192,[],[(6,.setEnt .internalNl),(7,.cb)],0,0⟩,⟨15,1024,[],[(6,.setEnt .internalNl),(7,.cb)],0,0⟩,⟨16,4096,[],[(6,.setEnt .internalNl),(7,.cb)],0,0⟩,⟨17,8192,[.crAlone],[(6,.setEnt .internalNl),(7,.cb)],0,0⟩,⟨18,4294967808,[],[(6,.setEnt .internalNl),(7,.cb)],0,0⟩,⟨19,115792089237316195423570985008687907853269984665635612279300442486259482348031,[],[(6,.setEnt .internalNl),(7,.cb),(8,.code)],0,0⟩,⟨20,4951760157141521099596496896,[],[(6,.setEnt .internalNl),(7,.cb)],0,0⟩,⟨22,549755813888,[],[(6,.setEnt .internalNl),(7,.cb)],0,0⟩],[⟨13,8192,[],[(6,.setEnt .internalNl),(7,.cb)],0,0⟩,⟨15,1024,[],[(6,.setEnt .internalNl),(7,.cb)],0,0⟩,⟨16,4096,[],[(6,.setEnt .internalNl),(7,.cb)],0,0⟩,⟨17,8192,[.crAlone],[(6,.setEnt .internalNl),(7,.cb)],0,0⟩,⟨18,4294967808,[],[(6,.setEnt .internalNl),(7,.cb)],0,0⟩,⟨19,115792089237316195423570985008687907853269984665635612279300442486259482348031,[],[(6,.setEnt .internalNl),(7,.cb),(8,.code)],0,0⟩,⟨20,4951760157141521099596496896,[],[(6,.setEnt .internalNl),(7,.cb)],0,0⟩,⟨22,549755813888,[],[(6,.setEnt .internalNl),(7,.cb)],0,0⟩],[⟨13,8192,[],[],0,0⟩,⟨15,1024,[],[],0,0⟩,⟨16,4096,[],[],0,0⟩,⟨17,8192,[.crAlone],[],0,0⟩,⟨18,4294967808,[],[],0,0⟩,⟨19,115792089237316195423570985008687907853269984665635612279300442486259482348031,[],[(8,.code)],0,0⟩,⟨20,4951760157141521099596496896,[],[],0,0⟩,⟨22,549755813888,[],[],0,0⟩],[⟨13,8192,[],[],0,0⟩,⟨15,1024,[],[],0,0⟩,⟨16,4096,[],[],0,0⟩,⟨17,8192,[.crAlone],[],0,0⟩,⟨18,4294967808,[],[],0,0⟩,⟨19,115792089237316195423570985008687907853269984665635612279300442486259482348031,[],[(8,.code)],0,0⟩,⟨20,4951760157141521099596496896,[],[],0,0⟩,⟨22,549755813888,[],[],0,0⟩],[⟨21,115792089237316195423570985008687907853269984665640564039457584007913129626623,[],[(9,.code)],0,0⟩],[⟨13,8192,[],[],0,0⟩,⟨15,1024,[],[],0,0⟩,⟨16,4096,[],[],0,0⟩,⟨17,8192,[.crAlone],[],0,0⟩,⟨18,4294967808,[],[],0,0⟩,⟨19,115792089237316195423570985008687907853269984665635612279300442486259482348031,[],[(8,.code)],0,0⟩,⟨20,4951760157141521099596496896,[],[],0,0⟩,⟨22,549755813888,[],[],0,0⟩],[],[⟨24,8192,[],[],0,0⟩,⟨26,1024,[],[],0,0⟩,⟨27,4096,[],[],0,0⟩,⟨28,8192,[.crAlone],[],0,0⟩,⟨29,4294967808,[],[],0,0⟩,⟨30,115792089237316195423570985008687907853269984665635612279300442486792058292735,[],[(13,.code)],0,0⟩,⟨31,4951760157141521099596496896,[],[],0,0⟩,⟨33,17179869184,[],[],0,0⟩],[⟨25,1024,[],[],0,0⟩],[⟨24,8192,[],[(11,.setEnt .internalNl),(12,.cb)],0,0⟩,⟨26,1024,[],[(11,.setEnt .internalNl),(12,.cb)],0,0⟩,⟨27,4096,[],[(11,.setEnt .internalNl),(12,.cb)],0,0⟩,⟨28,8192,[.crAlone],[(11,.setEnt .internalNl),(12,.cb)],0,0⟩,⟨29,4294967808,[],[(11,.setEnt .internalNl),(12,.cb)],0,0⟩,⟨30,115792089237316195423570985008687907853269984665635612279300442486792058292735,[],[(11,.setEnt .internalNl),(12,.cb),(13,.code)],0,0⟩,⟨31,4951760157141521099596496896,[],[(11,.setEnt .internalNl),(12,.cb)],0,0⟩,⟨33,17179869184,[],[(11,.setEnt .internalNl),(12,.cb)],0,0⟩],[⟨24,8192,[],[(11,.setEnt .internalNl),(12,.cb)],0,0⟩,⟨26,1024,[],[(11,.setEnt .internalNl),(12,.cb)],0,0⟩,⟨27,4096,[],[(11,.setEnt .internalNl),(12,.cb)],0,0⟩,⟨28,8192,[.crAlone],[(11,.setEnt .internalNl),(12,.cb)],0,0⟩,⟨29,4294967808,[],[(11,.setEnt .internalNl),(12,.cb)],0,0⟩,⟨30,115792089237316195423570985008687907853269984665635612279300442486792058292735,[],[(11,.setEnt .internalNl),(12,.cb),(13,.code)],0,0⟩,⟨31,4951760157141521099596496896,[],[(11,.setEnt .internalNl),(12,.cb)],0,0⟩,⟨33,17179869184,[],[(11,.setEnt .internalNl),(12,.cb)],0,0⟩],[⟨24,8192,[],[(11,.setEnt .internalNl),(12,.cb)],0,0⟩,⟨26,1024,[],[(11,.setEnt .internalNl),(12,.cb)],0,0⟩,⟨27,4096,[],[(11,.setEnt .internalNl),(12,.cb)],0,0⟩,⟨28,8192,[.crAlone],[(11,.setEnt .internalNl),(12,.cb)],0,0⟩,⟨29,4294967808,[],[(11,.setEnt .internalNl),(12,.cb)],0,0⟩,⟨30,115792089237316195423570985008687907853269984665635612279300442486792058292735,[],[(11,.setEnt .internalNl),(12,.cb),(13,.code)],0,0⟩,⟨31,4951760157141521099596496896,[],[(11,.setEnt .internalNl),(12,.cb)],0,0⟩,⟨33,17179869184,[],[(11,.setEnt .internalNl),(12,.cb)],0,0⟩],[⟨24,8192,[],[(11,.setEnt .internalNl),(12,.cb)],0,0⟩,⟨26,1024,[],[(11,.setEnt .internalNl),(12,.cb)],0,0⟩,⟨27,4096,[],[(11,.setEnt .internalNl),(12,.cb)],0,0⟩,⟨28,8192,[.crAlone],[(11,.setEnt .internalNl),(12,.cb)],0,0⟩,⟨29,4294967808,[],[(11,.setEnt .internalNl),(12,.cb)],0,0⟩,⟨30,115792089237316195423570985008687907853269984665635612279300442486792058292735,[],[(11,.setEnt .internalNl),(12,.cb),(13,.code)],0,0⟩,⟨31,4951760157141521099596496896,[],[(11,.setEnt .internalNl),(12,.cb)],0,0⟩,⟨33,17179869184,[],[(11,.setEnt .internalNl),(12,.cb)],0,0⟩],[⟨24,8192,[],[],0,0⟩,⟨26,1024,[],[],0,0⟩,⟨27,4096,[],[],0,0⟩,⟨28,8192,[.crAlone],[],0,0⟩,⟨29,4294967808,[],[],0,0⟩,⟨30,115792089237316195423570985008687907853269984665635612279300442486792058292735,[],[(13,.code)],0,0⟩,⟨31,4951760157141521099596496896,[],[],0,0⟩,⟨33,17179869184,[],[],0,0⟩],[⟨24,8192,[],[],0,0⟩,⟨26,1024,[],[],0,0⟩,⟨27,4096,[],[],0,0⟩,⟨28,8192,[.crAlone],[],0,0⟩,⟨29,4294967808,[],[],0,0⟩,⟨30,115792089237316195423570985008687907853269984665635612279300442486792058292735,[],[(13,.code)],0,0⟩,⟨31,4951760157141521099596496896,[],[],0,0⟩,⟨33,17179869184,[],[],0,0⟩],[⟨32,115792089237316195423570985008687907853269984665640564039457584007913129626623,[],[(14,.code)],0,0⟩],[⟨24,8192,[],[],0,0⟩,⟨26,1024,[],[],0,0⟩,⟨27,4096,[],[],0,0⟩,⟨28,8192,[.crAlone],[],0,0⟩,⟨29,4294967808,[],[],0,0⟩,⟨30,115792089237316195423570985008687907853269984665635612279300442486792058292735,[],[(13,.code)],0,0⟩,⟨31,4951760157141521099596496896,[],[],0,0⟩,⟨33,17179869184,[],[],0,0⟩],[],[⟨35,1024,[],[(15,.setEnt .newline)],0,0⟩],[],[],[],[],[]],[some (0,[]),none,none,none,none,none,none,none,none,none,none,some (1,[]),none,none,none,none,none,none,none,none,none,none,some (2,[]),none,none,none,none,none,none,none,none,none,none,some (2,[]),none,some (3,[]),some (3,[]),some (3,[]),some (3,[]),some (4,[])],[1,5,15,16,17]⟩
theorem css_line_nfa_eq : Css.css_line.nfa = css_line_nfa := by decide +kernel
/-- The machine of `Css.css_line`, with its automaton as a literal. -/
def css_line_M : Machine := ⟨css_line_nfa, Css.css_line.ends, Css.css_line.sw⟩
theorem css_line_M_eq : Css.css_line.machine = css_line_M := by
  unfold Scanner.machine css_line_M; rw [css_line_nfa_eq]
def css_line_masks : List Nat := [4294967808,140737488355328,549755813888,17179869184,8192,1024,4096,115792089237316195423570985008687907853269984665640564039457584007908834656767,4398046511104,115792089237316195423570985008687907853269984665640564039457584007908834658815,115792089237316195423570985008687907853269984665635612279300442486259482348031,4951760157141521099596496896,115792089237316195423570985008687907853269984665640564039457584007913129626623,115792089237316195423570985008687907853269984665635612279300442486792058292735]
def css_line_cs : List (Nat × Nat) := [(0,115792089237316195423570985008687907853269984665635612279300442341106767610367),(9,4294967808),(10,1024),(11,2048),(12,4096),(13,8192),(34,17179869184),(39,549755813888),(42,4398046511104),(47,140737488355328),(92,4951760157141521099596496896)]
theorem css_line_masksIn : masksIn css_line_nfa css_line_masks = true := by decide +kernel
theorem css_line_repOk : repOk css_line_masks css_line_cs = true := by decide +kernel
def css_line_rows : List Row := [⟨[],none,[],[⟨256,.other,false,some ⟨0,[.setEnt (.own 9)],some 4,true⟩⟩,⟨256,.ws,false,some ⟨1,[.setEnt (.own 0)],some 0,false⟩⟩,⟨256,.lf,false,some ⟨0,[.setEnt .newline],some 3,true⟩⟩,⟨256,.vt,false,none⟩,⟨256,.ff,false,some ⟨0,[.setEnt .newline],some 3,true⟩⟩,⟨256,.cr,false,some ⟨2,[.setEnt .newline],none,false⟩⟩,⟨256,.cr,true,some ⟨3,[.setEnt .newline],some 3,false⟩⟩,⟨256,.other,false,some ⟨4,[.code,.setEnt (.own 9)],some 4,false⟩⟩,⟨256,.other,false,some ⟨5,[.code,.setEnt (.own 9)],some 4,false⟩⟩,⟨256,.other,false,some ⟨6,[.setEnt (.own 9)],some 4,false⟩⟩]⟩,⟨[0],some 0,[],[⟨256,.other,false,none⟩,⟨256,.ws,false,some ⟨1,[.setEnt (.own 0)],some 0,false⟩⟩,⟨256,.lf,false,none⟩,⟨256,.vt,false,none⟩,⟨256,.ff,false,none⟩,⟨256,.cr,false,none⟩,⟨256,.cr,true,none⟩]⟩,⟨[34],none,[],[⟨256,.other,false,none⟩,⟨256,.ws,false,none⟩,⟨256,.lf,false,some ⟨0,[.setEnt .newline],some 3,true⟩⟩,⟨256,.vt,false,none⟩,⟨256,.ff,false,none⟩,⟨256,.cr,false,none⟩,⟨256,.cr,true,none⟩]⟩,⟨[34,38],some 3,[],[⟨256,.other,false,none⟩,⟨256,.ws,false,none⟩,⟨256,.lf,false,some ⟨0,[.setEnt .newline],some 3,true⟩⟩,⟨256,.vt,false,none⟩,⟨256,.ff,false,none⟩,⟨256,.cr,false,none⟩,⟨256,.cr,true,none⟩]⟩,⟨[23,39],some 4,[],[⟨256,.other,false,some ⟨7,[.code],none,false⟩⟩,⟨256,.ws,false,some ⟨8,[],none,false⟩⟩,⟨256,.lf,false,some ⟨9,[],none,false⟩⟩,⟨256,.vt,false,some ⟨7,[.code],none,false⟩⟩,⟨256,.ff,false,some ⟨10,[],none,false⟩⟩,⟨256,.cr,false,some ⟨11,[],none,false⟩⟩,⟨256,.cr,true,some ⟨12,[],none,false⟩⟩,⟨256,.other,false,some ⟨0,[],some 2,true⟩⟩,⟨256,.other,false,some ⟨13,[],none,false⟩⟩]⟩,⟨[12,39],some 4,[],[⟨256,.other,false,some ⟨14,[.code],none,false⟩⟩,⟨256,.ws,false,some ⟨15,[],none,false⟩⟩,⟨256,.lf,false,some ⟨16,[],none,false⟩⟩,⟨256,.vt,false,some ⟨14,[.code],none,false⟩⟩,⟨256,.ff,false,some ⟨17,[],none,false⟩⟩,⟨256,.cr,false,some ⟨18,[],none,false⟩⟩,⟨256,.cr,true,some ⟨19,[],none,false⟩⟩,⟨256,.other,false,some ⟨0,[],some 2,true⟩⟩,⟨256,.other,false,some ⟨20,[],none,false⟩⟩]⟩,⟨[1,39],some 4,[],[⟨256,.other,false,none⟩,⟨256,.ws,false,none⟩,⟨256,.lf,false,none⟩,⟨256,.vt,false,none⟩,⟨256,.ff,false,none⟩,⟨256,.cr,false,none⟩,⟨256,.cr,true,none⟩,⟨256,.other,false,some ⟨21,[.comment],none,false⟩⟩]⟩,⟨[30],none,[],[⟨256,.other,false,some ⟨7,[.code],none,false⟩⟩,⟨256,.ws,false,some ⟨8,[],none,false⟩⟩,⟨256,.lf,false,some ⟨9,[],none,false⟩⟩,⟨256,.vt,false,some ⟨7,[.code],none,false⟩⟩,⟨256,.ff,false,some ⟨10,[],none,false⟩⟩,⟨256,.cr,false,some ⟨11,[],none,false⟩⟩,⟨256,.cr,true,some ⟨12,[],none,false⟩⟩,⟨256,.other,false,some ⟨0,[],some 2,true⟩⟩,⟨256,.other,false,some ⟨13,[],none,false⟩⟩]⟩,⟨[29],none,[],[⟨256,.other,false,some ⟨7,[.code],none,false⟩⟩,⟨256,.ws,false,some ⟨8,[],none,false⟩⟩,⟨256,.lf,false,some ⟨9,[],none,false⟩⟩,⟨256,.vt,false,some ⟨7,[.code],none,false⟩⟩,⟨256,.ff,false,some ⟨10,[],none,false⟩⟩,⟨256,.cr,false,some ⟨11,[],none,false⟩⟩,⟨256,.cr,true,some ⟨12,[],none,false⟩⟩,⟨256,.other,false,some ⟨0,[],some 2,true⟩⟩,⟨256,.other,false,some ⟨13,[],none,false⟩⟩]⟩,⟨[26],none,[],[⟨256,.other,false,some ⟨7,[.setEnt .internalNl,.cb,.code],none,false⟩⟩,⟨256,.ws,false,some ⟨8,[.setEnt .internalNl,.cb],none,false⟩⟩,⟨256,.lf,false,some ⟨9,[.setEnt .internalNl,.cb],none,false⟩⟩,⟨256,.vt,false,some ⟨7,[.setEnt .internalNl,.cb,.code],none,false⟩⟩,⟨256,.ff,false,some ⟨10,[.setEnt .internalNl,.cb],none,false⟩⟩,⟨256,.cr,false,some ⟨11,[.setEnt .internalNl,.cb],none,false⟩⟩,⟨256,.cr,true,some ⟨12,[.setEnt .internalNl,.cb],none,false⟩⟩,⟨256,.other,false,some ⟨0,[.setEnt .internalNl,.cb],some 2,true⟩⟩,⟨256,.other,false,some ⟨13,[.setEnt .internalNl,.cb],none,false⟩⟩]⟩,⟨[27],none,[],[⟨256,.other,false,some ⟨7,[.setEnt .internalNl,.cb,.code],none,false⟩⟩,⟨256,.ws,false,some ⟨8,[.setEnt .internalNl,.cb],none,false⟩⟩,⟨256,.lf,false,some ⟨9,[.setEnt .internalNl,.cb],none,false⟩⟩,⟨256,.vt,false,some ⟨7,[.setEnt .internalNl,.cb,.code],none,false⟩⟩,⟨256,.ff,false,some ⟨10,[.setEnt .internalNl,.cb],none,false⟩⟩,⟨256,.cr,false,some ⟨11,[.setEnt .internalNl,.cb],none,false⟩⟩,⟨256,.cr,true,some ⟨12,[.setEnt .internalNl,.cb],none,false⟩⟩,⟨256,.other,false,some ⟨0,[.setEnt .internalNl,.cb],some 2,true⟩⟩,⟨256,.other,false,some ⟨13,[.setEnt .internalNl,.cb],none,false⟩⟩]⟩,⟨[24],none,[],[⟨256,.other,false,none⟩,⟨256,.ws,false,none⟩,⟨256,.lf,false,some ⟨22,[],none,false⟩⟩,⟨256,.vt,false,none⟩,⟨256,.ff,false,none⟩,⟨256,.cr,false,none⟩,⟨256,.cr,true,none⟩]⟩,⟨[24,28],none,[],[⟨256,.other,false,some ⟨7,[.setEnt .internalNl,.cb,.code],none,false⟩⟩,⟨256,.ws,false,some ⟨8,[.setEnt .internalNl,.cb],none,false⟩⟩,⟨256,.lf,false,some ⟨23,[.setEnt .internalNl,.cb],none,false⟩⟩,⟨256,.vt,false,some ⟨7,[.setEnt .internalNl,.cb,.code],none,false⟩⟩,⟨256,.ff,false,some ⟨10,[.setEnt .internalNl,.cb],none,false⟩⟩,⟨256,.cr,false,some ⟨11,[.setEnt .internalNl,.cb],none,false⟩⟩,⟨256,.cr,true,some ⟨12,[.setEnt .internalNl,.cb],none,false⟩⟩,⟨256,.other,false,some ⟨0,[.setEnt .internalNl,.cb],some 2,true⟩⟩,⟨256,.other,false,some ⟨13,[.setEnt .internalNl,.cb],none,false⟩⟩]⟩,⟨[31],none,[],[⟨256,.other,false,some ⟨24,[.code],none,false⟩⟩,⟨256,.ws,false,some ⟨24,[.code],none,false⟩⟩,⟨256,.lf,false,none⟩,⟨256,.vt,false,some ⟨24,[.code],none,false⟩⟩,⟨256,.ff,false,none⟩,⟨256,.cr,false,none⟩,⟨256,.cr,true,none⟩]⟩,⟨[19],none,[],[⟨256,.other,false,some ⟨14,[.code],none,false⟩⟩,⟨256,.ws,false,some ⟨15,[],none,false⟩⟩,⟨256,.lf,false,some ⟨16,[],none,false⟩⟩,⟨256,.vt,false,some ⟨14,[.code],none,false⟩⟩,⟨256,.ff,false,some ⟨17,[],none,false⟩⟩,⟨256,.cr,false,some ⟨18,[],none,false⟩⟩,⟨256,.cr,true,some ⟨19,[],none,false⟩⟩,⟨256,.other,false,some ⟨0,[],some 2,true⟩⟩,⟨256,.other,false,some ⟨20,[],none,false⟩⟩]⟩,⟨[18],none,[],[⟨256,.other,false,some ⟨14,[.code],none,false⟩⟩,⟨256,.ws,false,some ⟨15,[],none,false⟩⟩,⟨256,.lf,false,some ⟨16,[],none,false⟩⟩,⟨256,.vt,false,some ⟨14,[.code],none,false⟩⟩,⟨256,.ff,false,some ⟨17,[],none,false⟩⟩,⟨256,.cr,false,some ⟨18,[],none,false⟩⟩,⟨256,.cr,true,some ⟨19,[],none,false⟩⟩,⟨256,.other,false,some ⟨0,[],some 2,true⟩⟩,⟨256,.other,false,some ⟨20,[],none,false⟩⟩]⟩,⟨[15],none,[],[⟨256,.other,false,some ⟨14,[.setEnt .internalNl,.cb,.code],none,false⟩⟩,⟨256,.ws,false,some ⟨15,[.setEnt .internalNl,.cb],none,false⟩⟩,⟨256,.lf,false,some ⟨16,[.setEnt .internalNl,.cb],none,false⟩⟩,⟨256,.vt,false,some ⟨14,[.setEnt .internalNl,.cb,.code],none,false⟩⟩,⟨256,.ff,false,some ⟨17,[.setEnt .internalNl,.cb],none,false⟩⟩,⟨256,.cr,false,some ⟨18,[.setEnt .internalNl,.cb],none,false⟩⟩,⟨256,.cr,true,some ⟨19,[.setEnt .internalNl,.cb],none,false⟩⟩,⟨256,.other,false,some ⟨0,[.setEnt .internalNl,.cb],some 2,true⟩⟩,⟨256,.other,false,some ⟨20,[.setEnt .internalNl,.cb],none,false⟩⟩]⟩,⟨[16],none,[],[⟨256,.other,false,some ⟨14,[.setEnt .internalNl,.cb,.code],none,false⟩⟩,⟨256,.ws,false,some ⟨15,[.setEnt .internalNl,.cb],none,false⟩⟩,⟨256,.lf,false,some ⟨16,[.setEnt .internalNl,.cb],none,false⟩⟩,⟨256,.vt,false,some ⟨14,[.setEnt .internalNl,.cb,.code],none,false⟩⟩,⟨256,.ff,false,some ⟨17,[.setEnt .internalNl,.cb],none,false⟩⟩,⟨256,.cr,false,some ⟨18,[.setEnt .internalNl,.cb],none,false⟩⟩,⟨256,.cr,true,some ⟨19,[.setEnt .internalNl,.cb],none,false⟩⟩,⟨256,.other,false,some ⟨0,[.setEnt .internalNl,.cb],some 2,true⟩⟩,⟨256,.other,false,some ⟨20,[.setEnt .internalNl,.cb],none,false⟩⟩]⟩,⟨[13],none,[],[⟨256,.other,false,none⟩,⟨256,.ws,false,none⟩,⟨256,.lf,false,some ⟨25,[],none,false⟩⟩,⟨256,.vt,false,none⟩,⟨256,.ff,false,none⟩,⟨256,.cr,false,none⟩,⟨256,.cr,true,none⟩]⟩,⟨[13,17],none,[],[⟨256,.other,false,some ⟨14,[.setEnt .internalNl,.cb,.code],none,false⟩⟩,⟨256,.ws,false,some ⟨15,[.setEnt .internalNl,.cb],none,false⟩⟩,⟨256,.lf,false,some ⟨26,[.setEnt .internalNl,.cb],none,false⟩⟩,⟨256,.vt,false,some ⟨14,[.setEnt .internalNl,.cb,.code],none,false⟩⟩,⟨256,.ff,false,some ⟨17,[.setEnt .internalNl,.cb],none,false⟩⟩,⟨256,.cr,false,some ⟨18,[.setEnt .internalNl,.cb],none,false⟩⟩,⟨256,.cr,true,some ⟨19,[.setEnt .internalNl,.cb],none,false⟩⟩,⟨256,.other,false,some ⟨0,[.setEnt .internalNl,.cb],some 2,true⟩⟩,⟨256,.other,false,some ⟨20,[.setEnt .internalNl,.cb],none,false⟩⟩]⟩,⟨[20],none,[],[⟨256,.other,false,some ⟨27,[.code],none,false⟩⟩,⟨256,.ws,false,some ⟨27,[.code],none,false⟩⟩,⟨256,.lf,false,none⟩,⟨256,.vt,false,some ⟨27,[.code],none,false⟩⟩,⟨256,.ff,false,none⟩,⟨256,.cr,false,none⟩,⟨256,.cr,true,none⟩]⟩,⟨[2],none,[],[⟨256,.other,false,some ⟨28,[.comment],none,false⟩⟩,⟨256,.ws,false,some ⟨29,[],none,false⟩⟩,⟨256,.lf,false,some ⟨30,[],none,false⟩⟩,⟨256,.vt,false,some ⟨28,[.comment],none,false⟩⟩,⟨256,.ff,false,some ⟨31,[],none,false⟩⟩,⟨256,.cr,false,some ⟨32,[],none,false⟩⟩,⟨256,.cr,true,some ⟨33,[],none,false⟩⟩,⟨256,.other,false,some ⟨34,[.comment],none,false⟩⟩]⟩,⟨[25],none,[],[⟨256,.other,false,some ⟨7,[.setEnt .internalNl,.cb,.code],none,false⟩⟩,⟨256,.ws,false,some ⟨8,[.setEnt .internalNl,.cb],none,false⟩⟩,⟨256,.lf,false,some ⟨9,[.setEnt .internalNl,.cb],none,false⟩⟩,⟨256,.vt,false,some ⟨7,[.setEnt .internalNl,.cb,.code],none,false⟩⟩,⟨256,.ff,false,some ⟨10,[.setEnt .internalNl,.cb],none,false⟩⟩,⟨256,.cr,false,some ⟨11,[.setEnt .internalNl,.cb],none,false⟩⟩,⟨256,.cr,true,some ⟨12,[.setEnt .internalNl,.cb],none,false⟩⟩,⟨256,.other,false,some ⟨0,[.setEnt .internalNl,.cb],some 2,true⟩⟩,⟨256,.other,false,some ⟨13,[.setEnt .internalNl,.cb],none,false⟩⟩]⟩,⟨[25,26],none,[],[⟨256,.other,false,some ⟨7,[.setEnt .internalNl,.cb,.code],none,false⟩⟩,⟨256,.ws,false,some ⟨8,[.setEnt .internalNl,.cb],none,false⟩⟩,⟨256,.lf,false,some ⟨9,[.setEnt .internalNl,.cb],none,false⟩⟩,⟨256,.vt,false,some ⟨7,[.setEnt .internalNl,.cb,.code],none,false⟩⟩,⟨256,.ff,false,some ⟨10,[.setEnt .internalNl,.cb],none,false⟩⟩,⟨256,.cr,false,some ⟨11,[.setEnt .internalNl,.cb],none,false⟩⟩,⟨256,.cr,true,some ⟨12,[.setEnt .internalNl,.cb],none,false⟩⟩,⟨256,.other,false,some ⟨0,[.setEnt .internalNl,.cb],some 2,true⟩⟩,⟨256,.other,false,some ⟨13,[.setEnt .internalNl,.cb],none,false⟩⟩]⟩,⟨[32],none,[],[⟨256,.other,false,some ⟨7,[.code],none,false⟩⟩,⟨256,.ws,false,some ⟨8,[],none,false⟩⟩,⟨256,.lf,false,some ⟨9,[],none,false⟩⟩,⟨256,.vt,false,some ⟨7,[.code],none,false⟩⟩,⟨256,.ff,false,some ⟨10,[],none,false⟩⟩,⟨256,.cr,false,some ⟨11,[],none,false⟩⟩,⟨256,.cr,true,some ⟨12,[],none,false⟩⟩,⟨256,.other,false,some ⟨0,[],some 2,true⟩⟩,⟨256,.other,false,some ⟨13,[],none,false⟩⟩]⟩,⟨[14],none,[],[⟨256,.other,false,some ⟨14,[.setEnt .internalNl,.cb,.code],none,false⟩⟩,⟨256,.ws,false,some ⟨15,[.setEnt .internalNl,.cb],none,false⟩⟩,⟨256,.lf,false,some ⟨16,[.setEnt .internalNl,.cb],none,false⟩⟩,⟨256,.vt,false,some ⟨14,[.setEnt .internalNl,.cb,.code],none,false⟩⟩,⟨256,.ff,false,some ⟨17,[.setEnt .internalNl,.cb],none,false⟩⟩,⟨256,.cr,false,some ⟨18,[.setEnt .internalNl,.cb],none,false⟩⟩,⟨256,.cr,true,some ⟨19,[.setEnt .internalNl,.cb],none,false⟩⟩,⟨256,.other,false,some ⟨0,[.setEnt .internalNl,.cb],some 2,true⟩⟩,⟨256,.other,false,some ⟨20,[.setEnt .internalNl,.cb],none,false⟩⟩]⟩,⟨[14,15],none,[],[⟨256,.other,false,some ⟨14,[.setEnt .internalNl,.cb,.code],none,false⟩⟩,⟨256,.ws,false,some ⟨15,[.setEnt .internalNl,.cb],none,false⟩⟩,⟨256,.lf,false,some ⟨16,[.setEnt .internalNl,.cb],none,false⟩⟩,⟨256,.vt,false,some ⟨14,[.setEnt .internalNl,.cb,.code],none,false⟩⟩,⟨256,.ff,false,some ⟨17,[.setEnt .internalNl,.cb],none,false⟩⟩,⟨256,.cr,false,some ⟨18,[.setEnt .internalNl,.cb],none,false⟩⟩,⟨256,.cr,true,some ⟨19,[.setEnt .internalNl,.cb],none,false⟩⟩,⟨256,.other,false,some ⟨0,[.setEnt .internalNl,.cb],some 2,true⟩⟩,⟨256,.other,false,some ⟨20,[.setEnt .internalNl,.cb],none,false⟩⟩]⟩,⟨[21],none,[],[⟨256,.other,false,some ⟨14,[.code],none,false⟩⟩,⟨256,.ws,false,some ⟨15,[],none,false⟩⟩,⟨256,.lf,false,some ⟨16,[],none,false⟩⟩,⟨256,.vt,false,some ⟨14,[.code],none,false⟩⟩,⟨256,.ff,false,some ⟨17,[],none,false⟩⟩,⟨256,.cr,false,some ⟨18,[],none,false⟩⟩,⟨256,.cr,true,some ⟨19,[],none,false⟩⟩,⟨256,.other,false,some ⟨0,[],some 2,true⟩⟩,⟨256,.other,false,some ⟨20,[],none,false⟩⟩]⟩,⟨[9],none,[],[⟨256,.other,false,some ⟨28,[.comment],none,false⟩⟩,⟨256,.ws,false,some ⟨29,[],none,false⟩⟩,⟨256,.lf,false,some ⟨30,[],none,false⟩⟩,⟨256,.vt,false,some ⟨28,[.comment],none,false⟩⟩,⟨256,.ff,false,some ⟨31,[],none,false⟩⟩,⟨256,.cr,false,some ⟨32,[],none,false⟩⟩,⟨256,.cr,true,some ⟨33,[],none,false⟩⟩,⟨256,.other,false,some ⟨34,[.comment],none,false⟩⟩]⟩,⟨[8],none,[],[⟨256,.other,false,some ⟨28,[.comment],none,false⟩⟩,⟨256,.ws,false,some ⟨29,[],none,false⟩⟩,⟨256,.lf,false,some ⟨30,[],none,false⟩⟩,⟨256,.vt,false,some ⟨28,[.comment],none,false⟩⟩,⟨256,.ff,false,some ⟨31,[],none,false⟩⟩,⟨256,.cr,false,some ⟨32,[],none,false⟩⟩,⟨256,.cr,true,some ⟨33,[],none,false⟩⟩,⟨256,.other,false,some ⟨34,[.comment],none,false⟩⟩]⟩,⟨[5],none,[],[⟨256,.other,false,some ⟨28,[.setEnt .internalNl,.cb,.comment],none,false⟩⟩,⟨256,.ws,false,some ⟨29,[.setEnt .internalNl,.cb],none,false⟩⟩,⟨256,.lf,false,some ⟨30,[.setEnt .internalNl,.cb],none,false⟩⟩,⟨256,.vt,false,some ⟨28,[.setEnt .internalNl,.cb,.comment],none,false⟩⟩,⟨256,.ff,false,some ⟨31,[.setEnt .internalNl,.cb],none,false⟩⟩,⟨256,.cr,false,some ⟨32,[.setEnt .internalNl,.cb],none,false⟩⟩,⟨256,.cr,true,some ⟨33,[.setEnt .internalNl,.cb],none,false⟩⟩,⟨256,.other,false,some ⟨34,[.setEnt .internalNl,.cb,.comment],none,false⟩⟩]⟩,⟨[6],none,[],[⟨256,.other,false,some ⟨28,[.setEnt .internalNl,.cb,.comment],none,false⟩⟩,⟨256,.ws,false,some ⟨29,[.setEnt .internalNl,.cb],none,false⟩⟩,⟨256,.lf,false,some ⟨30,[.setEnt .internalNl,.cb],none,false⟩⟩,⟨256,.vt,false,some ⟨28,[.setEnt .internalNl,.cb,.comment],none,false⟩⟩,⟨256,.ff,false,some ⟨31,[.setEnt .internalNl,.cb],none,false⟩⟩,⟨256,.cr,false,some ⟨32,[.setEnt .internalNl,.cb],none,false⟩⟩,⟨256,.cr,true,some ⟨33,[.setEnt .internalNl,.cb],none,false⟩⟩,⟨256,.other,false,some ⟨34,[.setEnt .internalNl,.cb,.comment],none,false⟩⟩]⟩,⟨[3],none,[],[⟨256,.other,false,none⟩,⟨256,.ws,false,none⟩,⟨256,.lf,false,some ⟨35,[],none,false⟩⟩,⟨256,.vt,false,none⟩,⟨256,.ff,false,none⟩,⟨256,.cr,false,none⟩,⟨256,.cr,true,none⟩]⟩,⟨[3,7],none,[],[⟨256,.other,false,some ⟨28,[.setEnt .internalNl,.cb,.comment],none,false⟩⟩,⟨256,.ws,false,some ⟨29,[.setEnt .internalNl,.cb],none,false⟩⟩,⟨256,.lf,false,some ⟨36,[.setEnt .internalNl,.cb],none,false⟩⟩,⟨256,.vt,false,some ⟨28,[.setEnt .internalNl,.cb,.comment],none,false⟩⟩,⟨256,.ff,false,some ⟨31,[.setEnt .internalNl,.cb],none,false⟩⟩,⟨256,.cr,false,some ⟨32,[.setEnt .internalNl,.cb],none,false⟩⟩,⟨256,.cr,true,some ⟨33,[.setEnt .internalNl,.cb],none,false⟩⟩,⟨256,.other,false,some ⟨34,[.setEnt .internalNl,.cb,.comment],none,false⟩⟩]⟩,⟨[9,10],none,[],[⟨256,.other,false,some ⟨28,[.comment],none,false⟩⟩,⟨256,.ws,false,some ⟨29,[],none,false⟩⟩,⟨256,.lf,false,some ⟨30,[],none,false⟩⟩,⟨256,.vt,false,some ⟨28,[.comment],none,false⟩⟩,⟨256,.ff,false,some ⟨31,[],none,false⟩⟩,⟨256,.cr,false,some ⟨32,[],none,false⟩⟩,⟨256,.cr,true,some ⟨33,[],none,false⟩⟩,⟨256,.other,false,some ⟨34,[.comment],none,false⟩⟩,⟨256,.other,false,some ⟨0,[],some 1,true⟩⟩]⟩,⟨[4],none,[],[⟨256,.other,false,some ⟨28,[.setEnt .internalNl,.cb,.comment],none,false⟩⟩,⟨256,.ws,false,some ⟨29,[.setEnt .internalNl,.cb],none,false⟩⟩,⟨256,.lf,false,some ⟨30,[.setEnt .internalNl,.cb],none,false⟩⟩,⟨256,.vt,false,some ⟨28,[.setEnt .internalNl,.cb,.comment],none,false⟩⟩,⟨256,.ff,false,some ⟨31,[.setEnt .internalNl,.cb],none,false⟩⟩,⟨256,.cr,false,some ⟨32,[.setEnt .internalNl,.cb],none,false⟩⟩,⟨256,.cr,true,some ⟨33,[.setEnt .internalNl,.cb],none,false⟩⟩,⟨256,.other,false,some ⟨34,[.setEnt .internalNl,.cb,.comment],none,false⟩⟩]⟩,⟨[4,5],none,[],[⟨256,.other,false,some ⟨28,[.setEnt .internalNl,.cb,.comment],none,false⟩⟩,⟨256,.ws,false,some ⟨29,[.setEnt .internalNl,.cb],none,false⟩⟩,⟨256,.lf,false,some ⟨30,[.setEnt .internalNl,.cb],none,false⟩⟩,⟨256,.vt,false,some ⟨28,[.setEnt .internalNl,.cb,.comment],none,false⟩⟩,⟨256,.ff,false,some ⟨31,[.setEnt .internalNl,.cb],none,false⟩⟩,⟨256,.cr,false,some ⟨32,[.setEnt .internalNl,.cb],none,false⟩⟩,⟨256,.cr,true,some ⟨33,[.setEnt .internalNl,.cb],none,false⟩⟩,⟨256,.other,false,some ⟨34,[.setEnt .internalNl,.cb,.comment],none,false⟩⟩]⟩]
theorem css_line_rowsOk : rowsOk css_line_nfa [] (css_line_cs.map (·.1)) css_line_rows = true := by decide +kernel
def css_line_D : Dfa css_line_M.nfa := ⟨css_line_masks, [], css_line_cs, css_line_rows, css_line_masksIn, css_line_repOk, css_line_rowsOk⟩

def dylan_line_nfa : Nfa := ⟨[⟨0,4294967808,[],[(0,.setEnt (.own 0))],0,0⟩,⟨1,140737488355328,[],[],0,0⟩,⟨4,140737488355328,[],[],0,2⟩,⟨15,549755813888,[],[(6,.code)],0,0⟩,⟨20,17179869184,[],[(7,.code)],0,0⟩,⟨25,8192,[],[(8,.setEnt .newline)],0,0⟩,⟨27,1024,[],[(8,.setEnt .newline)],0,0⟩,⟨28,4096,[],[(8,.setEnt .newline)],0,0⟩,⟨29,8192,[.crAlone],[(8,.setEnt .newline)],0,0⟩,⟨30,115792089237316195423570985008687907853269984665640564039457584007908834656767,[],[(9,.setEnt (.own 3))],0,0⟩],[[⟨0,4294967808,[],[(0,.setEnt (.own 0))],0,0⟩],[⟨2,140737488355328,[],[(1,.comment)],0,0⟩],[⟨3,115792089237316195423570985008687907853269984665640564039457584007913129626623,[],[],0,0⟩],[⟨3,115792089237316195423570985008687907853269984665640564039457584007913129626623,[],[],0,0⟩],[⟨5,4398046511104,[],[(2,.comment)],0,2⟩],[⟨6,8192,[],[],0,2⟩,⟨8,1024,[],[],0,2⟩,⟨9,4096,[],[],0,2⟩,⟨10,8192,[.crAlone],[],0,2⟩,⟨11,4294967808,[],[],0,2⟩,⟨12,115792089237316195423570985008687907853269984665640564039457584007908834658815,[],[(5,.comment)],0,2⟩,⟨13,4398046511104,[],[],0,2⟩],[⟨7,1024,[],[],0,2⟩],[⟨6,8192,[],[(3,.setEnt .internalNl),(4,.cb)],0,2⟩,⟨8,1024,[],[(3,.setEnt .internalNl),(4,.cb)],0,2⟩,⟨9,4096,[],[(3,.setEnt .internalNl),(4,.cb)],0,2⟩,⟨10,8192,[.crAlone],[(3,.setEnt .internalNl),(4,.cb)],0,2⟩,⟨11,4294967808,[],[(3,.setEnt .internalNl),(4,.cb)],0,2⟩,⟨12,115792089237316195423570985008687907853269984665640564039457584007908834658815,[],[(3,.setEnt .internalNl),(4,.cb),(5,.comment)],0,2⟩,⟨13,4398046511104,[],[(3,.setEnt .internalNl),(4,.cb)],0,2⟩],[⟨6,8192,[],[(3,.setEnt .internalNl),(4,.cb)],0,2⟩,⟨8,1024,[],[(3,.setEnt .internalNl),(4,.cb)],0,2⟩,⟨9,4096,[],[(3,.setEnt .internalNl),(4,.cb)],0,2⟩,⟨10,8192,[.crAlone],[(3,.setEnt .internalNl),(4,.cb)],0,2⟩,⟨11,4294967808,[],[(3,.setEnt .internalNl),(4,.cb)],0,2⟩,⟨12,115792089237316195423570985008687907853269984665640564039457584007908834658815,[],[(3,.setEnt .internalNl),(4,.cb),(5,.comment)],0,2⟩,⟨13,4398046511104,[],[(3,.setEnt .internalNl),(4,.cb)],0,2⟩],[⟨6,8192,[],[(3,.setEnt .internalNl),(4,.cb)],0,2⟩,⟨8,1024,[],[(3,.setEnt .internalNl),(4,.cb)],0,2⟩,⟨9,4096,[],[(3,.setEnt .internalNl),(4,.cb)],0,2⟩,⟨10,8192,[.crAlone],[(3,.setEnt .internalNl),(4,.cb)],0,2⟩,⟨11,4294967808,[],[(3,.setEnt .internalNl),(4,.cb)],0,2⟩,⟨12,115792089237316195423570985008687907853269984665640564039457584007908834658815,[],[(3,.setEnt .internalNl),(4,.cb),(5,.comment)],0,2⟩,⟨13,4398046511104,[],[(3,.setEnt .internalNl),(4,.cb)],0,2⟩],[⟨6,8192,[],[(3,.setEnt .internalNl),(4,.cb)],0,2⟩,⟨8,1024,[],[(3,.setEnt .internalNl),(4,.cb)],0,2⟩,⟨9,4096,[],[(3,.setEnt .internalNl),(4,.cb)],0,2⟩,⟨10,8192,[.crAlone],[(3,.setEnt .internalNl),(4,.cb)],0,2⟩,⟨11,4294967808,[],[(3,.setEnt .internalNl),(4,.cb)],0,2⟩,⟨12,115792089237316195423570985008687907853269984665640564039457584007908834658815,[],[(3,.setEnt .internalNl),(4,.cb),(5,.comment)],0,2⟩,⟨13,4398046511104,[],[(3,.setEnt .internalNl),(4,.cb)],0,2⟩],[⟨6,8192,[],[],0,2⟩,⟨8,1024,[],[],0,2⟩,⟨9,4096,[],[],0,2⟩,⟨10,8192,[.crAlone],[],0,2⟩,⟨11,4294967808,[],[],0,2⟩,⟨12,115792089237316195423570985008687907853269984665640564039457584007908834658815,[],[(5,.comment)],0,2⟩,⟨13,4398046511104,[],[],0,2⟩],[⟨6,8192,[],[],0,2⟩,⟨8,1024,[],[],0,2⟩,⟨9,4096,[],[],0,2⟩,⟨10,8192,[.crAlone],[],0,2⟩,⟨11,4294967808,[],[],0,2⟩,⟨12,115792089237316195423570985008687907853269984665640564039457584007908834658815,[],[(5,.comment)],0,2⟩,⟨13,4398046511104,[],[],0,2⟩],[⟨14,140737488355328,[],[],2,0⟩],[],[⟨16,115792089237316195423570985008687907853269984665635612279300442486263777315839,[],[],0,0⟩,⟨17,4951760157141521099596496896,[],[],0,0⟩],[⟨19,549755813888,[],[],0,0⟩],[⟨18,115792089237316195423570985008687907853269984665640564039457584007913129626623,[],[],0,0⟩],[⟨19,549755813888,[],[],0,0⟩],[],[⟨21,115792089237316195423570985008687907853269984665635612279300442486796353260543,[],[],0,0⟩,⟨22,4951760157141521099596496896,[],[],0,0⟩,⟨24,17179869184,[],[],0,0⟩],[⟨21,115792089237316195423570985008687907853269984665635612279300442486796353260543,[],[],0,0⟩,⟨22,4951760157141521099596496896,[],[],0,0⟩,⟨24,17179869184,[],[],0,0⟩],[⟨23,115792089237316195423570985008687907853269984665640564039457584007913129626623,[],[],0,0⟩],[⟨21,115792089237316195423570985008687907853269984665635612279300442486796353260543,[],[],0,0⟩,⟨22,4951760157141521099596496896,[],[],0,0⟩,⟨24,17179869184,[],[],0,0⟩],[],[⟨26,1024,[],[(8,.setEnt .newline)],0,0⟩],[],[],[],[],[]],[some (0,[]),none,some (1,[]),some (1,[]),none,none,none,none,none,none,none,none,none,none,some (1,[]),none,none,none,none,some (2,[]),none,none,none,none,some (2,[]),none,some (3,[]),some (3,[]),some (3,[]),some (3,[]),some (4,[])],[1,6,8,9,10]⟩
theorem dylan_line_nfa_eq : Dylan.dylan_line.nfa = dylan_line_nfa := by decide +kernel
/-- The machine of `Dylan.dylan_line`, with its automaton as a literal. -/
def dylan_line_M : Machine := ⟨dylan_line_nfa, Dylan.dylan_line.ends, Dylan.dylan_line.sw⟩
theorem dylan_line_M_eq : Dylan.dylan_line.machine = dylan_line_M := by
  unfold Scanner.machine dylan_line_M; rw [dylan_line_nfa_eq]
def dylan_line_masks : List Nat := [4294967808,140737488355328,549755813888,17179869184,8192,1024,4096,115792089237316195423570985008687907853269984665640564039457584007908834656767,115792089237316195423570985008687907853269984665640564039457584007913129626623,4398046511104,115792089237316195423570985008687907853269984665640564039457584007908834658815,115792089237316195423570985008687907853269984665635612279300442486263777315839,4951760157141521099596496896,115792089237316195423570985008687907853269984665635612279300442486796353260543]
def dylan_line_cs : List (Nat × Nat) := [(0,115792089237316195423570985008687907853269984665635612279300442341106767610367),(9,4294967808),(10,1024),(11,2048),(12,4096),(13,8192),(34,17179869184),(39,549755813888),(42,4398046511104),(47,140737488355328),(92,4951760157141521099596496896)]
theorem dylan_line_masksIn : masksIn dylan_line_nfa dylan_line_masks = true := by decide +kernel
theorem dylan_line_repOk : repOk dylan_line_masks dylan_line_cs = true := by decide +kernel
def dylan_line_rows : List Row := [⟨[],none,[],[⟨256,.other,false,some ⟨0,[.setEnt (.own 3)],some 4,true⟩⟩,⟨256,.ws,false,some ⟨1,[.setEnt (.own 0)],some 0,false⟩⟩,⟨256,.lf,false,some ⟨0,[.setEnt .newline],some 3,true⟩⟩,⟨256,.vt,false,none⟩,⟨256,.ff,false,some ⟨0,[.setEnt .newline],some 3,true⟩⟩,⟨256,.cr,false,some ⟨2,[.setEnt .newline],none,false⟩⟩,⟨256,.cr,true,some ⟨3,[.setEnt .newline],some 3,false⟩⟩,⟨256,.other,false,some ⟨4,[.code,.setEnt (.own 3)],some 4,false⟩⟩,⟨256,.other,false,some ⟨5,[.code,.setEnt (.own 3)],some 4,false⟩⟩,⟨256,.other,false,some ⟨6,[.setEnt (.own 3)],some 4,false⟩⟩]⟩,⟨[0],some 0,[],[⟨256,.other,false,none⟩,⟨256,.ws,false,some ⟨1,[.setEnt (.own 0)],some 0,false⟩⟩,⟨256,.lf,false,none⟩,⟨256,.vt,false,none⟩,⟨256,.ff,false,none⟩,⟨256,.cr,false,none⟩,⟨256,.cr,true,none⟩]⟩,⟨[25],none,[],[⟨256,.other,false,none⟩,⟨256,.ws,false,none⟩,⟨256,.lf,false,some ⟨0,[.setEnt .newline],some 3,true⟩⟩,⟨256,.vt,false,none⟩,⟨256,.ff,false,none⟩,⟨256,.cr,false,none⟩,⟨256,.cr,true,none⟩]⟩,⟨[25,29],some 3,[],[⟨256,.other,false,none⟩,⟨256,.ws,false,none⟩,⟨256,.lf,false,some ⟨0,[.setEnt .newline],some 3,true⟩⟩,⟨256,.vt,false,none⟩,⟨256,.ff,false,none⟩,⟨256,.cr,false,none⟩,⟨256,.cr,true,none⟩]⟩,⟨[20,30],some 4,[],[⟨256,.other,false,some ⟨7,[],none,false⟩⟩,⟨256,.ws,false,some ⟨7,[],none,false⟩⟩,⟨256,.lf,false,none⟩,⟨256,.vt,false,some ⟨7,[],none,false⟩⟩,⟨256,.ff,false,none⟩,⟨256,.cr,false,none⟩,⟨256,.cr,true,none⟩,⟨256,.other,false,some ⟨0,[],some 2,true⟩⟩,⟨256,.other,false,some ⟨8,[],none,false⟩⟩]⟩,⟨[15,30],some 4,[],[⟨256,.other,false,some ⟨9,[],none,false⟩⟩,⟨256,.ws,false,some ⟨9,[],none,false⟩⟩,⟨256,.lf,false,none⟩,⟨256,.vt,false,some ⟨9,[],none,false⟩⟩,⟨256,.ff,false,none⟩,⟨256,.cr,false,none⟩,⟨256,.cr,true,none⟩,⟨256,.other,false,none⟩,⟨256,.other,false,some ⟨10,[],none,false⟩⟩]⟩,⟨[1,4,30],some 4,[],[⟨256,.other,false,none⟩,⟨256,.ws,false,none⟩,⟨256,.lf,false,none⟩,⟨256,.vt,false,none⟩,⟨256,.ff,false,none⟩,⟨256,.cr,false,none⟩,⟨256,.cr,true,none⟩,⟨256,.other,false,some ⟨11,[.comment],none,false⟩⟩,⟨256,.other,false,some ⟨12,[.comment],some 1,false⟩⟩]⟩,⟨[21],none,[],[⟨256,.other,false,some ⟨7,[],none,false⟩⟩,⟨256,.ws,false,some ⟨7,[],none,false⟩⟩,⟨256,.lf,false,none⟩,⟨256,.vt,false,some ⟨7,[],none,false⟩⟩,⟨256,.ff,false,none⟩,⟨256,.cr,false,none⟩,⟨256,.cr,true,none⟩,⟨256,.other,false,some ⟨0,[],some 2,true⟩⟩,⟨256,.other,false,some ⟨8,[],none,false⟩⟩]⟩,⟨[22],none,[],[⟨256,.other,false,some ⟨13,[],none,false⟩⟩,⟨256,.ws,false,some ⟨13,[],none,false⟩⟩,⟨256,.lf,false,none⟩,⟨256,.vt,false,some ⟨13,[],none,false⟩⟩,⟨256,.ff,false,none⟩,⟨256,.cr,false,none⟩,⟨256,.cr,true,none⟩]⟩,⟨[16],none,[],[⟨256,.other,false,none⟩,⟨256,.ws,false,none⟩,⟨256,.lf,false,none⟩,⟨256,.vt,false,none⟩,⟨256,.ff,false,none⟩,⟨256,.cr,false,none⟩,⟨256,.cr,true,none⟩,⟨256,.other,false,some ⟨0,[],some 2,true⟩⟩]⟩,⟨[17],none,[],[⟨256,.other,false,some ⟨14,[],none,false⟩⟩,⟨256,.ws,false,some ⟨14,[],none,false⟩⟩,⟨256,.lf,false,none⟩,⟨256,.vt,false,some ⟨14,[],none,false⟩⟩,⟨256,.ff,false,none⟩,⟨256,.cr,false,none⟩,⟨256,.cr,true,none⟩]⟩,⟨[5],none,[],[⟨256,.other,false,some ⟨15,[.comment],none,false⟩⟩,⟨256,.ws,false,some ⟨16,[],none,false⟩⟩,⟨256,.lf,false,some ⟨17,[],none,false⟩⟩,⟨256,.vt,false,some ⟨15,[.comment],none,false⟩⟩,⟨256,.ff,false,some ⟨18,[],none,false⟩⟩,⟨256,.cr,false,some ⟨19,[],none,false⟩⟩,⟨256,.cr,true,some ⟨20,[],none,false⟩⟩,⟨256,.other,false,some ⟨21,[.comment],none,false⟩⟩]⟩,⟨[2],some 1,[],[⟨256,.other,false,some ⟨22,[],some 1,false⟩⟩,⟨256,.ws,false,some ⟨22,[],some 1,false⟩⟩,⟨256,.lf,false,none⟩,⟨256,.vt,false,some ⟨22,[],some 1,false⟩⟩,⟨256,.ff,false,none⟩,⟨256,.cr,false,none⟩,⟨256,.cr,true,none⟩]⟩,⟨[23],none,[],[⟨256,.other,false,some ⟨7,[],none,false⟩⟩,⟨256,.ws,false,some ⟨7,[],none,false⟩⟩,⟨256,.lf,false,none⟩,⟨256,.vt,false,some ⟨7,[],none,false⟩⟩,⟨256,.ff,false,none⟩,⟨256,.cr,false,none⟩,⟨256,.cr,true,none⟩,⟨256,.other,false,some ⟨0,[],some 2,true⟩⟩,⟨256,.other,false,some ⟨8,[],none,false⟩⟩]⟩,⟨[18],none,[],[⟨256,.other,false,none⟩,⟨256,.ws,false,none⟩,⟨256,.lf,false,none⟩,⟨256,.vt,false,none⟩,⟨256,.ff,false,none⟩,⟨256,.cr,false,none⟩,⟨256,.cr,true,none⟩,⟨256,.other,false,some ⟨0,[],some 2,true⟩⟩]⟩,⟨[12],none,[],[⟨256,.other,false,some ⟨15,[.comment],none,false⟩⟩,⟨256,.ws,false,some ⟨16,[],none,false⟩⟩,⟨256,.lf,false,some ⟨17,[],none,false⟩⟩,⟨256,.vt,false,some ⟨15,[.comment],none,false⟩⟩,⟨256,.ff,false,some ⟨18,[],none,false⟩⟩,⟨256,.cr,false,some ⟨19,[],none,false⟩⟩,⟨256,.cr,true,some ⟨20,[],none,false⟩⟩,⟨256,.other,false,some ⟨21,[.comment],none,false⟩⟩]⟩,⟨[11],none,[],[⟨256,.other,false,some ⟨15,[.comment],none,false⟩⟩,⟨256,.ws,false,some ⟨16,[],none,false⟩⟩,⟨256,.lf,false,some ⟨17,[],none,false⟩⟩,⟨256,.vt,false,some ⟨15,[.comment],none,false⟩⟩,⟨256,.ff,false,some ⟨18,[],none,false⟩⟩,⟨256,.cr,false,some ⟨19,[],none,false⟩⟩,⟨256,.cr,true,some ⟨20,[],none,false⟩⟩,⟨256,.other,false,some ⟨21,[.comment],none,false⟩⟩]⟩,⟨[8],none,[],[⟨256,.other,false,some ⟨15,[.setEnt .internalNl,.cb,.comment],none,false⟩⟩,⟨256,.ws,false,some ⟨16,[.setEnt .internalNl,.cb],none,false⟩⟩,⟨256,.lf,false,some ⟨17,[.setEnt .internalNl,.cb],none,false⟩⟩,⟨256,.vt,false,some ⟨15,[.setEnt .internalNl,.cb,.comment],none,false⟩⟩,⟨256,.ff,false,some ⟨18,[.setEnt .internalNl,.cb],none,false⟩⟩,⟨256,.cr,false,some ⟨19,[.setEnt .internalNl,.cb],none,false⟩⟩,⟨256,.cr,true,some ⟨20,[.setEnt .internalNl,.cb],none,false⟩⟩,⟨256,.other,false,some ⟨21,[.setEnt .internalNl,.cb,.comment],none,false⟩⟩]⟩,⟨[9],none,[],[⟨256,.other,false,some ⟨15,[.setEnt .internalNl,.cb,.comment],none,false⟩⟩,⟨256,.ws,false,some ⟨16,[.setEnt .internalNl,.cb],none,false⟩⟩,⟨256,.lf,false,some ⟨17,[.setEnt .internalNl,.cb],none,false⟩⟩,⟨256,.vt,false,some ⟨15,[.setEnt .internalNl,.cb,.comment],none,false⟩⟩,⟨256,.ff,false,some ⟨18,[.setEnt .internalNl,.cb],none,false⟩⟩,⟨256,.cr,false,some ⟨19,[.setEnt .internalNl,.cb],none,false⟩⟩,⟨256,.cr,true,some ⟨20,[.setEnt .internalNl,.cb],none,false⟩⟩,⟨256,.other,false,some ⟨21,[.setEnt .internalNl,.cb,.comment],none,false⟩⟩]⟩,⟨[6],none,[],[⟨256,.other,false,none⟩,⟨256,.ws,false,none⟩,⟨256,.lf,false,some ⟨23,[],none,false⟩⟩,⟨256,.vt,false,none⟩,⟨256,.ff,false,none⟩,⟨256,.cr,false,none⟩,⟨256,.cr,true,none⟩]⟩,⟨[6,10],none,[],[⟨256,.other,false,some ⟨15,[.setEnt .internalNl,.cb,.comment],none,false⟩⟩,⟨256,.ws,false,some ⟨16,[.setEnt .internalNl,.cb],none,false⟩⟩,⟨256,.lf,false,some ⟨24,[.setEnt .internalNl,.cb],none,false⟩⟩,⟨256,.vt,false,some ⟨15,[.setEnt .internalNl,.cb,.comment],none,false⟩⟩,⟨256,.ff,false,some ⟨18,[.setEnt .internalNl,.cb],none,false⟩⟩,⟨256,.cr,false,some ⟨19,[.setEnt .internalNl,.cb],none,false⟩⟩,⟨256,.cr,true,some ⟨20,[.setEnt .internalNl,.cb],none,false⟩⟩,⟨256,.other,false,some ⟨21,[.setEnt .internalNl,.cb,.comment],none,false⟩⟩]⟩,⟨[12,13],none,[],[⟨256,.other,false,some ⟨15,[.comment],none,false⟩⟩,⟨256,.ws,false,some ⟨16,[],none,false⟩⟩,⟨256,.lf,false,some ⟨17,[],none,false⟩⟩,⟨256,.vt,false,some ⟨15,[.comment],none,false⟩⟩,⟨256,.ff,false,some ⟨18,[],none,false⟩⟩,⟨256,.cr,false,some ⟨19,[],none,false⟩⟩,⟨256,.cr,true,some ⟨20,[],none,false⟩⟩,⟨256,.other,false,some ⟨21,[.comment],none,false⟩⟩,⟨256,.other,false,some ⟨0,[],some 1,true⟩⟩]⟩,⟨[3],some 1,[],[⟨256,.other,false,some ⟨22,[],some 1,false⟩⟩,⟨256,.ws,false,some ⟨22,[],some 1,false⟩⟩,⟨256,.lf,false,none⟩,⟨256,.vt,false,some ⟨22,[],some 1,false⟩⟩,⟨256,.ff,false,none⟩,⟨256,.cr,false,none⟩,⟨256,.cr,true,none⟩]⟩,⟨[7],none,[],[⟨256,.other,false,some ⟨15,[.setEnt .internalNl,.cb,.comment],none,false⟩⟩,⟨256,.ws,false,some ⟨16,[.setEnt .internalNl,.cb],none,false⟩⟩,⟨256,.lf,false,some ⟨17,[.setEnt .internalNl,.cb],none,false⟩⟩,⟨256,.vt,false,some ⟨15,[.setEnt .internalNl,.cb,.comment],none,false⟩⟩,⟨256,.ff,false,some ⟨18,[.setEnt .internalNl,.cb],none,false⟩⟩,⟨256,.cr,false,some ⟨19,[.setEnt .internalNl,.cb],none,false⟩⟩,⟨256,.cr,true,some ⟨20,[.setEnt .internalNl,.cb],none,false⟩⟩,⟨256,.other,false,some ⟨21,[.setEnt .internalNl,.cb,.comment],none,false⟩⟩]⟩,⟨[7,8],none,[],[⟨256,.other,false,some ⟨15,[.setEnt .internalNl,.cb,.comment],none,false⟩⟩,⟨256,.ws,false,some ⟨16,[.setEnt .internalNl,.cb],none,false⟩⟩,⟨256,.lf,false,some ⟨17,[.setEnt .internalNl,.cb],none,false⟩⟩,⟨256,.vt,false,some ⟨15,[.setEnt .internalNl,.cb,.comment],none,false⟩⟩,⟨256,.ff,false,some ⟨18,[.setEnt .internalNl,.cb],none,false⟩⟩,⟨256,.cr,false,some ⟨19,[.setEnt .internalNl,.cb],none,false⟩⟩,⟨256,.cr,true,some ⟨20,[.setEnt .internalNl,.cb],none,false⟩⟩,⟨256,.other,false,some ⟨21,[.setEnt .internalNl,.cb,.comment],none,false⟩⟩]⟩]
theorem dylan_line_rowsOk : rowsOk dylan_line_nfa [] (dylan_line_cs.map (·.1)) dylan_line_rows = true := by decide +kernel
def dylan_line_D : Dfa dylan_line_M.nfa := ⟨dylan_line_masks, [], dylan_line_cs, dylan_line_rows, dylan_line_masksIn, dylan_line_repOk, dylan_line_rowsOk⟩

def julia_line_nfa : Nfa := ⟨[⟨0,4294967808,[],[(0,.setEnt (.own 0))],0,0⟩,⟨1,34359738368,[],[(1,.comment)],0,0⟩,⟨3,34359738368,[],[],0,2⟩,⟨14,549755813888,[],[],0,4⟩,⟨27,17179869184,[],[],0,8⟩,⟨40,549755813888,[],[],0,0⟩,⟨48,17179869184,[],[],0,0⟩,⟨56,8192,[],[(21,.setEnt .newline)],0,0⟩,⟨58,1024,[],[(21,.setEnt .newline)],0,0⟩,⟨59,4096,[],[(21,.setEnt .newline)],0,0⟩,⟨60,8192,[.crAlone],[(21,.setEnt .newline)],0,0⟩,⟨61,115792089237316195423570985008687907853269984665640564039457584007908834656767,[],[(22,.setEnt (.own 3))],0,0⟩],[[⟨0,4294967808,[],[(0,.setEnt (.own 0))],0,0⟩],[⟨2,115792089237316195423570985008687907853269984665640564039457584007913129626623,[],[],0,0⟩],[⟨2,115792089237316195423570985008687907853269984665640564039457584007913129626623,[],[],0,0⟩],[⟨4,2305843009213693952,[],[(2,.comment)],0,2⟩],[⟨5,8192,[],[],0,2⟩,⟨7,1024,[],[],0,2⟩,⟨8,4096,[],[],0,2⟩,⟨9,8192,[.crAlone],[],0,2⟩,⟨10,4294967808,[],[],0,2⟩,⟨11,115792089237316195423570985008687907853269984665640564039457584007908834658815,[],[(5,.comment)],0,2⟩,⟨12,2305843009213693952,[],[],0,2⟩],[⟨6,1024,[],[],0,2⟩],[⟨5,8192,[],[(3,.setEnt .internalNl),(4,.cb)],0,2⟩,⟨7,1024,[],[(3,.setEnt .internalNl),(4,.cb)],0,2⟩,⟨8,4096,[],[(3,.setEnt .internalNl),(4,.cb)],0,2⟩,⟨9,8192,[.crAlone],[(3,.setEnt .internalNl),(4,.cb)],0,2⟩,⟨10,4294967808,[],[(3,.setEnt .internalNl),(4,.cb)],0,2⟩,⟨11,115792089237316195423570985008687907853269984665640564039457584007908834658815,[],[(3,.setEnt .internalNl),(4,.cb),(5,.comment)],0,2⟩,⟨12,2305843009213693952,[],[(3,.setEnt .internalNl),(4,.cb)],0,2⟩],[⟨5,8192,[],[(3,.setEnt .internalNl),(4,.cb)],0,2⟩,⟨7,1024,[],[(3,.setEnt .internalNl),(4,.cb)],0,2⟩,⟨8,4096,[],[(3,.setEnt .internalNl),(4,.cb)],0,2⟩,⟨9,8192,[.crAlone],[(3,.setEnt .internalNl),(4,.cb)],0,2⟩,⟨10,4294967808,[],[(3,.setEnt .internalNl),(4,.cb)],0,2⟩,⟨11,115792089237316195423570985008687907853269984665640564039457584007908834658815,[],[(3,.setEnt .internalNl),(4,.cb),(5,.comment)],0,2⟩,⟨12,2305843009213693952,[],[(3,.setEnt .internalNl),(4,.cb)],0,2⟩],[⟨5,8192,[],[(3,.setEnt .internalNl),(4,.cb)],0,2⟩,⟨7,1024,[],[(3,.setEnt .internalNl),(4,.cb)],0,2⟩,⟨8,4096,[],[(3,.setEnt .internalNl),(4,.cb)],0,2⟩,⟨9,8192,[.crAlone],[(3,.setEnt .internalNl),(4,.cb)],0,2⟩,⟨10,4294967808,[],[(3,.setEnt .internalNl),(4,.cb)],0,2⟩,⟨11,115792089237316195423570985008687907853269984665640564039457584007908834658815,[],[(3,.setEnt .internalNl),(4,.cb),(5,.comment)],0,2⟩,⟨12,2305843009213693952,[],[(3,.setEnt .internalNl),(4,.cb)],0,2⟩],[⟨5,8192,[],[(3,.setEnt .internalNl),(4,.cb)],0,2⟩,⟨7,1024,[],[(3,.setEnt .internalNl),(4,.cb)],0,2⟩,⟨8,4096,[],[(3,.setEnt .internalNl),(4,.cb)],0,2⟩,⟨9,8192,[.crAlone],[(3,.setEnt .internalNl),(4,.cb)],0,2⟩,⟨10,4294967808,[],[(3,.setEnt .internalNl),(4,.cb)],0,2⟩,⟨11,115792089237316195423570985008687907853269984665640564039457584007908834658815,[],[(3,.setEnt .internalNl),(4,.cb),(5,.comment)],0,2⟩,⟨12,2305843009213693952,[],[(3,.setEnt .internalNl),(4,.cb)],0,2⟩],[⟨5,8192,[],[],0,2⟩,⟨7,1024,[],[],0,2⟩,⟨8,4096,[],[],0,2⟩,⟨9,8192,[.crAlone],[],0,2⟩,⟨10,4294967808,[],[],0,2⟩,⟨11,115792089237316195423570985008687907853269984665640564039457584007908834658815,[],[(5,.comment)],0,2⟩,⟨12,2305843009213693952,[],[],0,2⟩],[⟨5,8192,[],[],0,2⟩,⟨7,1024,[],[],0,2⟩,⟨8,4096,[],[],0,2⟩,⟨9,8192,[.crAlone],[],0,2⟩,⟨10,4294967808,[],[],0,2⟩,⟨11,115792089237316195423570985008687907853269984665640564039457584007908834658815,[],[(5,.comment)],0,2⟩,⟨12,2305843009213693952,[],[],0,2⟩],[⟨13,34359738368,[],[],2,0⟩],[],[⟨15,549755813888,[],[],0,4⟩],[⟨16,549755813888,[],[(6,.comment)],0,4⟩],[⟨17,8192,[],[],0,4⟩,⟨19,1024,[],[],0,4⟩,⟨20,4096,[],[],0,4⟩,⟨21,8192,[.crAlone],[],0,4⟩,⟨22,4294967808,[],[],0,4⟩,⟨23,115792089237316195423570985008687907853269984665640564039457584007908834658815,[],[(9,.comment)],0,4⟩,⟨24,549755813888,[],[],0,4⟩],[⟨18,1024,[],[],0,4⟩],[⟨17,8192,[],[(7,.setEnt .internalNl),(8,.cb)],0,4⟩,⟨19,1024,[],[(7,.setEnt .internalNl),(8,.cb)],0,4⟩,⟨20,4096,[],[(7,.setEnt .internalNl),(8,.cb)],0,4⟩,⟨21,8192,[.crAlone],[(7,.setEnt .internalNl),(8,.cb)],0,4⟩,⟨22,4294967808,[],[(7,.setEnt .internalNl),(8,.cb)],0,4⟩,⟨23,115792089237316195423570985008687907853269984665640564039457584007908834658815,[],[(7,.setEnt .internalNl),(8,.cb),(9,.comment)],0,4⟩,⟨24,549755813888,[],[(7,.setEnt .internalNl),(8,.cb)],0,4⟩],[⟨17,8192,[],[(7,.setEnt .internalNl),(8,.cb)],0,4⟩,⟨19,1024,[],[(7,.setEnt .internalNl),(8,.cb)],0,4⟩,⟨20,4096,[],[(7,.setEnt .internalNl),(8,.cb)],0,4⟩,⟨21,8192,[.crAlone],[(7,.setEnt .internalNl),(8,.cb)],0,4⟩,⟨22,4294967808,[],[(7,.setEnt .internalNl),(8,.cb)],0,4⟩,⟨23,115792089237316195423570985008687907853269984665640564039457584007908834658815,[],[(7,.setEnt .internalNl),(8,.cb),(9,.comment)],0,4⟩,⟨24,549755813888,[],[(7,.setEnt .internalNl),(8,.cb)],0,4⟩],[⟨17,8192,[],[(7,.setEnt .internalNl),(8,.cb)],0,4⟩,⟨19,1024,[],[(7,.setEnt .internalNl),(8,.cb)],0,4⟩,⟨20,4096,[],[(7,.setEnt .internalNl),(8,.cb)],0,4⟩,⟨21,8192,[.crAlone],[(7,.setEnt .internalNl),(8,.cb)],0,4⟩,⟨22,4294967808,[],[(7,.setEnt .internalNl),(8,.cb)],0,4⟩,⟨23,115792089237316195423570985008687907853269984665640564039457584007908834658815,[],[(7,.setEnt .internalNl),(8,.cb),(9,.comment)],0,4⟩,⟨24,549755813888,[],[(7,.setEnt .internalNl),(8,.cb)],0,4⟩],[⟨17,8192,[],[(7,.setEnt .internalNl),(8,.cb)],0,4⟩,⟨19,1024,[],[(7,.setEnt .internalNl),(8,.cb)],0,4⟩,⟨20,4096,[],[(7,.setEnt .internalNl),(8,.cb)],0,4⟩,⟨21,8192,[.crAlone],[(7,.setEnt .internalNl),(8,.cb)],0,4⟩,⟨22,4294967808,[],[(7,.setEnt .internalNl),(8,.cb)],0,4⟩,⟨23,115792089237316195423570985008687907853269984665640564039457584007908834658815,[],[(7,.setEnt .internalNl),(8,.cb),(9,.comment)],0,4⟩,⟨24,549755813888,[],[(7,.setEnt .internalNl),(8,.cb)],0,4⟩],[⟨17,8192,[],[],0,4⟩,⟨19,1024,[],[],0,4⟩,⟨20,4096,[],[],0,4⟩,⟨21,8192,[.crAlone],[],0,4⟩,⟨22,4294967808,[],[],0,4⟩,⟨23,115792089237316195423570985008687907853269984665640564039457584007908834658815,[],[(9,.comment)],0,4⟩,⟨24,549755813888,[],[],0,4⟩],[⟨17,8192,[],[],0,4⟩,⟨19,1024,[],[],0,4⟩,⟨20,4096,[],[],0,4⟩,⟨21,8192,[.crAlone],[],0,4⟩,⟨22,4294967808,[],[],0,4⟩,⟨23,115792089237316195423570985008687907853269984665640564039457584007908834658815,[],[(9,.comment)],0,4⟩,⟨24,549755813888,[],[],0,4⟩],[⟨25,549755813888,[],[],0,0⟩],[⟨26,549755813888,[],[(10,.comment)],4,0⟩],[],[⟨28,17179869184,[],[],0,8⟩],[⟨29,17179869184,[],[(11,.comment)],0,8⟩],[⟨30,8192,[],[],0,8⟩,⟨32,1024,[],[],0,8⟩,⟨33,4096,[],[],0,8⟩,⟨34,8192,[.crAlone],[],0,8⟩,⟨35,4294967808,[],[],0,8⟩,⟨36,115792089237316195423570985008687907853269984665640564039457584007908834658815,[],[(14,.comment)],0,8⟩,⟨37,17179869184,[],[],0,8⟩],[⟨31,1024,[],[],0,8⟩],[⟨30,8192,[],[(12,.setEnt .internalNl),(13,.cb)],0,8⟩,⟨32,1024,[],[(12,.setEnt .internalNl),(13,.cb)],0,8⟩,⟨33,4096,[],[(12,.setEnt .internalNl),(13,.cb)],0,8⟩,⟨34,8192,[.crAlone],[(12,.setEnt .internalNl),(13,.cb)],0,8⟩,⟨35,4294967808,[],[(12,.setEnt .internalNl),(13,.cb)],0,8⟩,⟨36,115792089237316195423570985008687907853269984665640564039457584007908834658815,[],[(12,.setEnt .internalNl),(13,.cb),(14,.comment)],0,8⟩,⟨37,17179869184,[],[(12,.setEnt .internalNl),(13,.cb)],0,8⟩],[⟨30,8192,[],[(12,.setEnt .internalNl),(13,.cb)],0,8⟩,⟨32,1024,[],[(12,.setEnt .internalNl),(13,.cb)],0,8⟩,⟨33,4096,[],[(12,.setEnt .internalNl),(13,.cb)],0,8⟩,⟨34,8192,[.crAlone],[(12,.setEnt .internalNl),(13,.cb)],0,8⟩,⟨35,4294967808,[],[(12,.setEnt .internalNl),(13,.cb)],0,8⟩,⟨36,115792089237316195423570985008687907853269984665640564039457584007908834658815,[],[(12,.setEnt .internalNl),(13,.cb),(14,.comment)],0,8⟩,⟨37,17179869184,[],[(12,.setEnt .internalNl),(13,.cb)],0,8⟩],[⟨30,8192,[],[(12,.setEnt .internalNl),(13,.cb)],0,8⟩,⟨32,1024,[],[(12,.setEnt .internalNl),(13,.cb)],0,8⟩,⟨33,4096,[],[(12,.setEnt .internalNl),(13,.cb)],0,8⟩,⟨34,8192,[.crAlone],[(12,.setEnt .internalNl),(13,.cb)],0,8⟩,⟨35,4294967808,[],[(12,.setEnt .internalNl),(13,.cb)],0,8⟩,⟨36,115792089237316195423570985008687907853269984665640564039457584007908834658815,[],[(12,.setEnt .internalNl),(13,.cb),(14,.comment)],0,8⟩,⟨37,17179869184,[],[(12,.setEnt .internalNl),(13,.cb)],0,8⟩],[⟨30,8192,[],[(12,.setEnt .internalNl),(13,.cb)],0,8⟩,⟨32,1024,[],[(12,.setEnt .internalNl),(13,.cb)],0,8⟩,⟨33,4096,[],[(12,.setEnt .internalNl),(13,.cb)],0,8⟩,⟨34,8192,[.crAlone],[(12,.setEnt .internalNl),(13,.cb)],0,8⟩,⟨35,4294967808,[],[(12,.setEnt .internalNl),(13,.cb)],0,8⟩,⟨36,115792089237316195423570985008687907853269984665640564039457584007908834658815,[],[(12,.setEnt .internalNl),(13,.cb),(14,.comment)],0,8⟩,⟨37,17179869184,[],[(12,.setEnt .internalNl),(13,.cb)],0,8⟩],[⟨30,8192,[],[],0,8⟩,⟨32,1024,[],[],0,8⟩,⟨33,4096,[],[],0,8⟩,⟨34,8192,[.crAlone],[],0,8⟩,⟨35,4294967808,[],[],0,8⟩,⟨36,115792089237316195423570985008687907853269984665640564039457584007908834658815,[],[(14,.comment)],0,8⟩,⟨37,17179869184,[],[],0,8⟩],[⟨30,8192,[],[],0,8⟩,⟨32,1024,[],[],0,8⟩,⟨33,4096,[],[],0,8⟩,⟨34,8192,[.crAlone],[],0,8⟩,⟨35,4294967808,[],[],0,8⟩,⟨36,115792089237316195423570985008687907853269984665640564039457584007908834658815,[],[(14,.comment)],0,8⟩,⟨37,17179869184,[],[],0,8⟩],[⟨38,17179869184,[],[],0,0⟩],[⟨39,17179869184,[],[(15,.comment)],8,0⟩],[],[⟨41,115792089237316195423570985008687907853269984665640564039457584007363373826047,[],[(17,.fhold 1)],0,0⟩,⟨42,549755813888,[],[],0,0⟩],[⟨44,115792089237316195423570985008687907853269984665635612279300442486263777315839,[],[],0,0⟩,⟨45,4951760157141521099596496896,[],[],0,0⟩,⟨47,549755813888,[],[(20,.code)],0,0⟩],[⟨43,115792089237316195423570985008687907853269984665640564039457584007363373826047,[],[(16,.fhold 0),(17,.fhold 1)],0,0⟩],[⟨44,115792089237316195423570985008687907853269984665635612279300442486263777315839,[],[],0,0⟩,⟨45,4951760157141521099596496896,[],[],0,0⟩,⟨47,549755813888,[],[(20,.code)],0,0⟩],[⟨44,115792089237316195423570985008687907853269984665635612279300442486263777315839,[],[],0,0⟩,⟨45,4951760157141521099596496896,[],[],0,0⟩,⟨47,549755813888,[],[(20,.code)],0,0⟩],[⟨46,115792089237316195423570985008687907853269984665640564039457584007913129626623,[],[],0,0⟩],[⟨44,115792089237316195423570985008687907853269984665635612279300442486263777315839,[],[],0,0⟩,⟨45,4951760157141521099596496896,[],[],0,0⟩,⟨47,549755813888,[],[(20,.code)],0,0⟩],[],[⟨49,115792089237316195423570985008687907853269984665640564039457584007895949770751,[],[(19,.fhold 3)],0,0⟩,⟨50,17179869184,[],[],0,0⟩],[⟨52,115792089237316195423570985008687907853269984665635612279300442486796353260543,[],[],0,0⟩,⟨53,4951760157141521099596496896,[],[],0,0⟩,⟨55,17179869184,[],[(20,.code)],0,0⟩],[⟨51,115792089237316195423570985008687907853269984665640564039457584007895949770751,[],[(18,.fhold 2),(19,.fhold 3)],0,0⟩],[⟨52,115792089237316195423570985008687907853269984665635612279300442486796353260543,[],[],0,0⟩,⟨53,4951760157141521099596496896,[],[],0,0⟩,⟨55,17179869184,[],[(20,.code)],0,0⟩],[⟨52,115792089237316195423570985008687907853269984665635612279300442486796353260543,[],[],0,0⟩,⟨53,4951760157141521099596496896,[],[],0,0⟩,⟨55,17179869184,[],[(20,.code)],0,0⟩],[⟨54,115792089237316195423570985008687907853269984665640564039457584007913129626623,[],[],0,0⟩],[⟨52,115792089237316195423570985008687907853269984665635612279300442486796353260543,[],[],0,0⟩,⟨53,4951760157141521099596496896,[],[],0,0⟩,⟨55,17179869184,[],[(20,.code)],0,0⟩],[],[⟨57,1024,[],[(21,.setEnt .newline)],0,0⟩],[],[],[],[],[]],[some (0,[]),some (1,[]),some (1,[]),none,none,none,none,none,none,none,none,none,none,some (1,[]),none,none,none,none,none,none,none,none,none,none,none,none,some (1,[]),none,none,none,none,none,none,none,none,none,none,none,none,some (1,[]),none,none,none,none,none,none,none,some (2,[]),none,none,none,none,none,none,none,some (2,[]),none,some (3,[]),some (3,[]),some (3,[]),some (3,[]),some (4,[])],[1,16,21,22,23]⟩
theorem julia_line_nfa_eq : Julia.julia_line.nfa = julia_line_nfa := by decide +kernel
/-- The machine of `Julia.julia_line`, with its automaton as a literal. -/
def julia_line_M : Machine := ⟨julia_line_nfa, Julia.julia_line.ends, Julia.julia_line.sw⟩
theorem julia_line_M_eq : Julia.julia_line.machine = julia_line_M := by
  unfold Scanner.machine julia_line_M; rw [julia_line_nfa_eq]
def julia_line_masks : List Nat := [4294967808,34359738368,549755813888,17179869184,8192,1024,4096,115792089237316195423570985008687907853269984665640564039457584007908834656767,115792089237316195423570985008687907853269984665640564039457584007913129626623,2305843009213693952,115792089237316195423570985008687907853269984665640564039457584007908834658815,115792089237316195423570985008687907853269984665640564039457584007363373826047,115792089237316195423570985008687907853269984665635612279300442486263777315839,4951760157141521099596496896,115792089237316195423570985008687907853269984665640564039457584007895949770751,115792089237316195423570985008687907853269984665635612279300442486796353260543]
def julia_line_cs : List (Nat × Nat) := [(0,115792089237316195423570985008687907853269984665635612279298136643198729044479),(9,4294967808),(10,1024),(11,2048),(12,4096),(13,8192),(34,17179869184),(35,34359738368),(39,549755813888),(61,2305843009213693952),(92,4951760157141521099596496896)]
theorem julia_line_masksIn : masksIn julia_line_nfa julia_line_masks = true := by decide +kernel
theorem julia_line_repOk : repOk julia_line_masks julia_line_cs = true := by decide +kernel
def julia_line_rows : List Row := [⟨[],none,[],[⟨0,.other,false,some ⟨0,[.setEnt (.own 3)],some 4,true⟩⟩,⟨9,.ws,false,some ⟨1,[.setEnt (.own 0)],some 0,false⟩⟩,⟨10,.lf,false,some ⟨0,[.setEnt .newline],some 3,true⟩⟩,⟨11,.vt,false,none⟩,⟨12,.ff,false,some ⟨0,[.setEnt .newline],some 3,true⟩⟩,⟨13,.cr,false,some ⟨2,[.setEnt .newline],none,false⟩⟩,⟨13,.cr,true,some ⟨3,[.setEnt .newline],some 3,false⟩⟩,⟨34,.other,false,some ⟨4,[.setEnt (.own 3)],some 4,false⟩⟩,⟨35,.other,false,some ⟨5,[.comment,.setEnt (.own 3)],some 1,false⟩⟩,⟨39,.other,false,some ⟨6,[.setEnt (.own 3)],some 4,false⟩⟩,⟨61,.other,false,some ⟨0,[.setEnt (.own 3)],some 4,true⟩⟩,⟨92,.other,false,some ⟨0,[.setEnt (.own 3)],some 4,true⟩⟩]⟩,⟨[0],some 0,[],[⟨0,.other,false,none⟩,⟨9,.ws,false,some ⟨1,[.setEnt (.own 0)],some 0,false⟩⟩,⟨10,.lf,false,none⟩,⟨11,.vt,false,none⟩,⟨12,.ff,false,none⟩,⟨13,.cr,false,none⟩,⟨13,.cr,true,none⟩,⟨34,.other,false,none⟩,⟨35,.other,false,none⟩,⟨39,.other,false,none⟩,⟨61,.other,false,none⟩,⟨92,.other,false,none⟩]⟩,⟨[56],none,[],[⟨0,.other,false,none⟩,⟨9,.ws,false,none⟩,⟨10,.lf,false,some ⟨0,[.setEnt .newline],some 3,true⟩⟩,⟨11,.vt,false,none⟩,⟨12,.ff,false,none⟩,⟨13,.cr,false,none⟩,⟨13,.cr,true,none⟩,⟨34,.other,false,none⟩,⟨35,.other,false,none⟩,⟨39,.other,false,none⟩,⟨61,.other,false,none⟩,⟨92,.other,false,none⟩]⟩,⟨[56,60],some 3,[],[⟨0,.other,false,none⟩,⟨9,.ws,false,none⟩,⟨10,.lf,false,some ⟨0,[.setEnt .newline],some 3,true⟩⟩,⟨11,.vt,false,none⟩,⟨12,.ff,false,none⟩,⟨13,.cr,false,none⟩,⟨13,.cr,true,none⟩,⟨34,.other,false,none⟩,⟨35,.other,false,none⟩,⟨39,.other,false,none⟩,⟨61,.other,false,none⟩,⟨92,.other,false,none⟩]⟩,⟨[27,48,61],some 4,[],[⟨0,.other,false,some ⟨7,[.fhold 3],none,false⟩⟩,⟨9,.ws,false,some ⟨7,[.fhold 3],none,false⟩⟩,⟨10,.lf,false,some ⟨7,[.fhold 3],none,false⟩⟩,⟨11,.vt,false,some ⟨7,[.fhold 3],none,false⟩⟩,⟨12,.ff,false,some ⟨7,[.fhold 3],none,false⟩⟩,⟨13,.cr,false,some ⟨7,[.fhold 3],none,false⟩⟩,⟨13,.cr,true,some ⟨7,[.fhold 3],none,false⟩⟩,⟨34,.other,false,some ⟨8,[],none,false⟩⟩,⟨35,.other,false,some ⟨7,[.fhold 3],none,false⟩⟩,⟨39,.other,false,some ⟨7,[.fhold 3],none,false⟩⟩,⟨61,.other,false,some ⟨7,[.fhold 3],none,false⟩⟩,⟨92,.other,false,some ⟨7,[.fhold 3],none,false⟩⟩]⟩,⟨[1,3,61],some 1,[],[⟨0,.other,false,some ⟨9,[],some 1,false⟩⟩,⟨9,.ws,false,some ⟨9,[],some 1,false⟩⟩,⟨10,.lf,false,none⟩,⟨11,.vt,false,some ⟨9,[],some 1,false⟩⟩,⟨12,.ff,false,none⟩,⟨13,.cr,false,none⟩,⟨13,.cr,true,none⟩,⟨34,.other,false,some ⟨9,[],some 1,false⟩⟩,⟨35,.other,false,some ⟨9,[],some 1,false⟩⟩,⟨39,.other,false,some ⟨9,[],some 1,false⟩⟩,⟨61,.other,false,some ⟨10,[.comment],some 1,false⟩⟩,⟨92,.other,false,some ⟨9,[],some 1,false⟩⟩]⟩,⟨[14,40,61],some 4,[],[⟨0,.other,false,some ⟨11,[.fhold 1],none,false⟩⟩,⟨9,.ws,false,some ⟨11,[.fhold 1],none,false⟩⟩,⟨10,.lf,false,some ⟨11,[.fhold 1],none,false⟩⟩,⟨11,.vt,false,some ⟨11,[.fhold 1],none,false⟩⟩,⟨12,.ff,false,some ⟨11,[.fhold 1],none,false⟩⟩,⟨13,.cr,false,some ⟨11,[.fhold 1],none,false⟩⟩,⟨13,.cr,true,some ⟨11,[.fhold 1],none,false⟩⟩,⟨34,.other,false,some ⟨11,[.fhold 1],none,false⟩⟩,⟨35,.other,false,some ⟨11,[.fhold 1],none,false⟩⟩,⟨39,.other,false,some ⟨12,[],none,false⟩⟩,⟨61,.other,false,some ⟨11,[.fhold 1],none,false⟩⟩,⟨92,.other,false,some ⟨11,[.fhold 1],none,false⟩⟩]⟩,⟨[49],none,[],[⟨0,.other,false,some ⟨13,[],none,false⟩⟩,⟨9,.ws,false,some ⟨13,[],none,false⟩⟩,⟨10,.lf,false,none⟩,⟨11,.vt,false,some ⟨13,[],none,false⟩⟩,⟨12,.ff,false,none⟩,⟨13,.cr,false,none⟩,⟨13,.cr,true,none⟩,⟨34,.other,false,some ⟨0,[.code],some 2,true⟩⟩,⟨35,.other,false,some ⟨13,[],none,false⟩⟩,⟨39,.other,false,some ⟨13,[],none,false⟩⟩,⟨61,.other,false,some ⟨13,[],none,false⟩⟩,⟨92,.other,false,some ⟨14,[],none,false⟩⟩]⟩,⟨[28,50],none,[],[⟨0,.other,false,some ⟨15,[.fhold 2,.fhold 3],none,false⟩⟩,⟨9,.ws,false,some ⟨15,[.fhold 2,.fhold 3],none,false⟩⟩,⟨10,.lf,false,some ⟨15,[.fhold 2,.fhold 3],none,false⟩⟩,⟨11,.vt,false,some ⟨15,[.fhold 2,.fhold 3],none,false⟩⟩,⟨12,.ff,false,some ⟨15,[.fhold 2,.fhold 3],none,false⟩⟩,⟨13,.cr,false,some ⟨15,[.fhold 2,.fhold 3],none,false⟩⟩,⟨13,.cr,true,some ⟨15,[.fhold 2,.fhold 3],none,false⟩⟩,⟨34,.other,false,some ⟨16,[.comment],none,false⟩⟩,⟨35,.other,false,some ⟨15,[.fhold 2,.fhold 3],none,false⟩⟩,⟨39,.other,false,some ⟨15,[.fhold 2,.fhold 3],none,false⟩⟩,⟨61,.other,false,some ⟨15,[.fhold 2,.fhold 3],none,false⟩⟩,⟨92,.other,false,some ⟨15,[.fhold 2,.fhold 3],none,false⟩⟩]⟩,⟨[2],some 1,[],[⟨0,.other,false,some ⟨9,[],some 1,false⟩⟩,⟨9,.ws,false,some ⟨9,[],some 1,false⟩⟩,⟨10,.lf,false,none⟩,⟨11,.vt,false,some ⟨9,[],some 1,false⟩⟩,⟨12,.ff,false,none⟩,⟨13,.cr,false,none⟩,⟨13,.cr,true,none⟩,⟨34,.other,false,some ⟨9,[],some 1,false⟩⟩,⟨35,.other,false,some ⟨9,[],some 1,false⟩⟩,⟨39,.other,false,some ⟨9,[],some 1,false⟩⟩,⟨61,.other,false,some ⟨9,[],some 1,false⟩⟩,⟨92,.other,false,some ⟨9,[],some 1,false⟩⟩]⟩,⟨[2,4],some 1,[],[⟨0,.other,false,some ⟨17,[.comment],some 1,false⟩⟩,⟨9,.ws,false,some ⟨18,[],some 1,false⟩⟩,⟨10,.lf,false,some ⟨19,[],none,false⟩⟩,⟨11,.vt,false,some ⟨17,[.comment],some 1,false⟩⟩,⟨12,.ff,false,some ⟨20,[],none,false⟩⟩,⟨13,.cr,false,some ⟨21,[],none,false⟩⟩,⟨13,.cr,true,some ⟨22,[],none,false⟩⟩,⟨34,.other,false,some ⟨17,[.comment],some 1,false⟩⟩,⟨35,.other,false,some ⟨17,[.comment],some 1,false⟩⟩,⟨39,.other,false,some ⟨17,[.comment],some 1,false⟩⟩,⟨61,.other,false,some ⟨23,[.comment],some 1,false⟩⟩,⟨92,.other,false,some ⟨17,[.comment],some 1,false⟩⟩]⟩,⟨[41],none,[],[⟨0,.other,false,some ⟨24,[],none,false⟩⟩,⟨9,.ws,false,some ⟨24,[],none,false⟩⟩,⟨10,.lf,false,none⟩,⟨11,.vt,false,some ⟨24,[],none,false⟩⟩,⟨12,.ff,false,none⟩,⟨13,.cr,false,none⟩,⟨13,.cr,true,none⟩,⟨34,.other,false,some ⟨24,[],none,false⟩⟩,⟨35,.other,false,some ⟨24,[],none,false⟩⟩,⟨39,.other,false,some ⟨0,[.code],some 2,true⟩⟩,⟨61,.other,false,some ⟨24,[],none,false⟩⟩,⟨92,.other,false,some ⟨25,[],none,false⟩⟩]⟩,⟨[15,42],none,[],[⟨0,.other,false,some ⟨26,[.fhold 0,.fhold 1],none,false⟩⟩,⟨9,.ws,false,some ⟨26,[.fhold 0,.fhold 1],none,false⟩⟩,⟨10,.lf,false,some ⟨26,[.fhold 0,.fhold 1],none,false⟩⟩,⟨11,.vt,false,some ⟨26,[.fhold 0,.fhold 1],none,false⟩⟩,⟨12,.ff,false,some ⟨26,[.fhold 0,.fhold 1],none,false⟩⟩,⟨13,.cr,false,some ⟨26,[.fhold 0,.fhold 1],none,false⟩⟩,⟨13,.cr,true,some ⟨26,[.fhold 0,.fhold 1],none,false⟩⟩,⟨34,.other,false,some ⟨26,[.fhold 0,.fhold 1],none,false⟩⟩,⟨35,.other,false,some ⟨26,[.fhold 0,.fhold 1],none,false⟩⟩,⟨39,.other,false,some ⟨27,[.comment],none,false⟩⟩,⟨61,.other,false,some ⟨26,[.fhold 0,.fhold 1],none,false⟩⟩,⟨92,.other,false,some ⟨26,[.fhold 0,.fhold 1],none,false⟩⟩]⟩,⟨[52],none,[],[⟨0,.other,false,some ⟨13,[],none,false⟩⟩,⟨9,.ws,false,some ⟨13,[],none,false⟩⟩,⟨10,.lf,false,none⟩,⟨11,.vt,false,some ⟨13,[],none,false⟩⟩,⟨12,.ff,false,none⟩,⟨13,.cr,false,none⟩,⟨13,.cr,true,none⟩,⟨34,.other,false,some ⟨0,[.code],some 2,true⟩⟩,⟨35,.other,false,some ⟨13,[],none,false⟩⟩,⟨39,.other,false,some ⟨13,[],none,false⟩⟩,⟨61,.other,false,some ⟨13,[],none,false⟩⟩,⟨92,.other,false,some ⟨14,[],none,false⟩⟩]⟩,⟨[53],none,[],[⟨0,.other,false,some ⟨28,[],none,false⟩⟩,⟨9,.ws,false,some ⟨28,[],none,false⟩⟩,⟨10,.lf,false,none⟩,⟨11,.vt,false,some ⟨28,[],none,false⟩⟩,⟨12,.ff,false,none⟩,⟨13,.cr,false,none⟩,⟨13,.cr,true,none⟩,⟨34,.other,false,some ⟨28,[],none,false⟩⟩,⟨35,.other,false,some ⟨28,[],none,false⟩⟩,⟨39,.other,false,some ⟨28,[],none,false⟩⟩,⟨61,.other,false,some ⟨28,[],none,false⟩⟩,⟨92,.other,false,some ⟨28,[],none,false⟩⟩]⟩,⟨[51],none,[],[⟨0,.other,false,some ⟨13,[],none,false⟩⟩,⟨9,.ws,false,some ⟨13,[],none,false⟩⟩,⟨10,.lf,false,none⟩,⟨11,.vt,false,some ⟨13,[],none,false⟩⟩,⟨12,.ff,false,none⟩,⟨13,.cr,false,none⟩,⟨13,.cr,true,none⟩,⟨34,.other,false,some ⟨0,[.code],some 2,true⟩⟩,⟨35,.other,false,some ⟨13,[],none,false⟩⟩,⟨39,.other,false,some ⟨13,[],none,false⟩⟩,⟨61,.other,false,some ⟨13,[],none,false⟩⟩,⟨92,.other,false,some ⟨14,[],none,false⟩⟩]⟩,⟨[29],none,[],[⟨0,.other,false,some ⟨29,[.comment],none,false⟩⟩,⟨9,.ws,false,some ⟨30,[],none,false⟩⟩,⟨10,.lf,false,some ⟨31,[],none,false⟩⟩,⟨11,.vt,false,some ⟨29,[.comment],none,false⟩⟩,⟨12,.ff,false,some ⟨32,[],none,false⟩⟩,⟨13,.cr,false,some ⟨33,[],none,false⟩⟩,⟨13,.cr,true,some ⟨34,[],none,false⟩⟩,⟨34,.other,false,some ⟨35,[.comment],none,false⟩⟩,⟨35,.other,false,some ⟨29,[.comment],none,false⟩⟩,⟨39,.other,false,some ⟨29,[.comment],none,false⟩⟩,⟨61,.other,false,some ⟨29,[.comment],none,false⟩⟩,⟨92,.other,false,some ⟨29,[.comment],none,false⟩⟩]⟩,⟨[2,11],some 1,[],[⟨0,.other,false,some ⟨17,[.comment],some 1,false⟩⟩,⟨9,.ws,false,some ⟨18,[],some 1,false⟩⟩,⟨10,.lf,false,some ⟨19,[],none,false⟩⟩,⟨11,.vt,false,some ⟨17,[.comment],some 1,false⟩⟩,⟨12,.ff,false,some ⟨20,[],none,false⟩⟩,⟨13,.cr,false,some ⟨21,[],none,false⟩⟩,⟨13,.cr,true,some ⟨22,[],none,false⟩⟩,⟨34,.other,false,some ⟨17,[.comment],some 1,false⟩⟩,⟨35,.other,false,some ⟨17,[.comment],some 1,false⟩⟩,⟨39,.other,false,some ⟨17,[.comment],some 1,false⟩⟩,⟨61,.other,false,some ⟨23,[.comment],some 1,false⟩⟩,⟨92,.other,false,some ⟨17,[.comment],some 1,false⟩⟩]⟩,⟨[2,10],some 1,[],[⟨0,.other,false,some ⟨17,[.comment],some 1,false⟩⟩,⟨9,.ws,false,some ⟨18,[],some 1,false⟩⟩,⟨10,.lf,false,some ⟨19,[],none,false⟩⟩,⟨11,.vt,false,some ⟨17,[.comment],some 1,false⟩⟩,⟨12,.ff,false,some ⟨20,[],none,false⟩⟩,⟨13,.cr,false,some ⟨21,[],none,false⟩⟩,⟨13,.cr,true,some ⟨22,[],none,false⟩⟩,⟨34,.other,false,some ⟨17,[.comment],some 1,false⟩⟩,⟨35,.other,false,some ⟨17,[.comment],some 1,false⟩⟩,⟨39,.other,false,some ⟨17,[.comment],some 1,false⟩⟩,⟨61,.other,false,some ⟨23,[.comment],some 1,false⟩⟩,⟨92,.other,false,some ⟨17,[.comment],some 1,false⟩⟩]⟩,⟨[7],none,[],[⟨0,.other,false,some ⟨36,[.setEnt .internalNl,.cb,.comment],none,false⟩⟩,⟨9,.ws,false,some ⟨37,[.setEnt .internalNl,.cb],none,false⟩⟩,⟨10,.lf,false,some ⟨19,[.setEnt .internalNl,.cb],none,false⟩⟩,⟨11,.vt,false,some ⟨36,[.setEnt .internalNl,.cb,.comment],none,false⟩⟩,⟨12,.ff,false,some ⟨20,[.setEnt .internalNl,.cb],none,false⟩⟩,⟨13,.cr,false,some ⟨21,[.setEnt .internalNl,.cb],none,false⟩⟩,⟨13,.cr,true,some ⟨22,[.setEnt .internalNl,.cb],none,false⟩⟩,⟨34,.other,false,some ⟨36,[.setEnt .internalNl,.cb,.comment],none,false⟩⟩,⟨35,.other,false,some ⟨36,[.setEnt .internalNl,.cb,.comment],none,false⟩⟩,⟨39,.other,false,some ⟨36,[.setEnt .internalNl,.cb,.comment],none,false⟩⟩,⟨61,.other,false,some ⟨38,[.setEnt .internalNl,.cb,.comment],none,false⟩⟩,⟨92,.other,false,some ⟨36,[.setEnt .internalNl,.cb,.comment],none,false⟩⟩]⟩,⟨[8],none,[],[⟨0,.other,false,some ⟨36,[.setEnt .internalNl,.cb,.comment],none,false⟩⟩,⟨9,.ws,false,some ⟨37,[.setEnt .internalNl,.cb],none,false⟩⟩,⟨10,.lf,false,some ⟨19,[.setEnt .internalNl,.cb],none,false⟩⟩,⟨11,.vt,false,some ⟨36,[.setEnt .internalNl,.cb,.comment],none,false⟩⟩,⟨12,.ff,false,some ⟨20,[.setEnt .internalNl,.cb],none,false⟩⟩,⟨13,.cr,false,some ⟨21,[.setEnt .internalNl,.cb],none,false⟩⟩,⟨13,.cr,true,some ⟨22,[.setEnt .internalNl,.cb],none,false⟩⟩,⟨34,.other,false,some ⟨36,[.setEnt .internalNl,.cb,.comment],none,false⟩⟩,⟨35,.other,false,some ⟨36,[.setEnt .internalNl,.cb,.comment],none,false⟩⟩,⟨39,.other,false,some ⟨36,[.setEnt .internalNl,.cb,.comment],none,false⟩⟩,⟨61,.other,false,some ⟨38,[.setEnt .internalNl,.cb,.comment],none,false⟩⟩,⟨92,.other,false,some ⟨36,[.setEnt .internalNl,.cb,.comment],none,false⟩⟩]⟩,⟨[5],none,[],[⟨0,.other,false,none⟩,⟨9,.ws,false,none⟩,⟨10,.lf,false,some ⟨39,[],none,false⟩⟩,⟨11,.vt,false,none⟩,⟨12,.ff,false,none⟩,⟨13,.cr,false,none⟩,⟨13,.cr,true,none⟩,⟨34,.other,false,none⟩,⟨35,.other,false,none⟩,⟨39,.other,false,none⟩,⟨61,.other,false,none⟩,⟨92,.other,false,none⟩]⟩,⟨[5,9],none,[],[⟨0,.other,false,some ⟨36,[.setEnt .internalNl,.cb,.comment],none,false⟩⟩,⟨9,.ws,false,some ⟨37,[.setEnt .internalNl,.cb],none,false⟩⟩,⟨10,.lf,false,some ⟨40,[.setEnt .internalNl,.cb],none,false⟩⟩,⟨11,.vt,false,some ⟨36,[.setEnt .internalNl,.cb,.comment],none,false⟩⟩,⟨12,.ff,false,some ⟨20,[.setEnt .internalNl,.cb],none,false⟩⟩,⟨13,.cr,false,some ⟨21,[.setEnt .internalNl,.cb],none,false⟩⟩,⟨13,.cr,true,some ⟨22,[.setEnt .internalNl,.cb],none,false⟩⟩,⟨34,.other,false,some ⟨36,[.setEnt .internalNl,.cb,.comment],none,false⟩⟩,⟨35,.other,false,some ⟨36,[.setEnt .internalNl,.cb,.comment],none,false⟩⟩,⟨39,.other,false,some ⟨36,[.setEnt .internalNl,.cb,.comment],none,false⟩⟩,⟨61,.other,false,some ⟨38,[.setEnt .internalNl,.cb,.comment],none,false⟩⟩,⟨92,.other,false,some ⟨36,[.setEnt .internalNl,.cb,.comment],none,false⟩⟩]⟩,⟨[2,11,12],some 1,[],[⟨0,.other,false,some ⟨17,[.comment],some 1,false⟩⟩,⟨9,.ws,false,some ⟨18,[],some 1,false⟩⟩,⟨10,.lf,false,some ⟨19,[],none,false⟩⟩,⟨11,.vt,false,some ⟨17,[.comment],some 1,false⟩⟩,⟨12,.ff,false,some ⟨20,[],none,false⟩⟩,⟨13,.cr,false,some ⟨21,[],none,false⟩⟩,⟨13,.cr,true,some ⟨22,[],none,false⟩⟩,⟨34,.other,false,some ⟨17,[.comment],some 1,false⟩⟩,⟨35,.other,false,some ⟨41,[],some 1,false⟩⟩,⟨39,.other,false,some ⟨17,[.comment],some 1,false⟩⟩,⟨61,.other,false,some ⟨23,[.comment],some 1,false⟩⟩,⟨92,.other,false,some ⟨17,[.comment],some 1,false⟩⟩]⟩,⟨[44],none,[],[⟨0,.other,false,some ⟨24,[],none,false⟩⟩,⟨9,.ws,false,some ⟨24,[],none,false⟩⟩,⟨10,.lf,false,none⟩,⟨11,.vt,false,some ⟨24,[],none,false⟩⟩,⟨12,.ff,false,none⟩,⟨13,.cr,false,none⟩,⟨13,.cr,true,none⟩,⟨34,.other,false,some ⟨24,[],none,false⟩⟩,⟨35,.other,false,some ⟨24,[],none,false⟩⟩,⟨39,.other,false,some ⟨0,[.code],some 2,true⟩⟩,⟨61,.other,false,some ⟨24,[],none,false⟩⟩,⟨92,.other,false,some ⟨25,[],none,false⟩⟩]⟩,⟨[45],none,[],[⟨0,.other,false,some ⟨42,[],none,false⟩⟩,⟨9,.ws,false,some ⟨42,[],none,false⟩⟩,⟨10,.lf,false,none⟩,⟨11,.vt,false,some ⟨42,[],none,false⟩⟩,⟨12,.ff,false,none⟩,⟨13,.cr,false,none⟩,⟨13,.cr,true,none⟩,⟨34,.other,false,some ⟨42,[],none,false⟩⟩,⟨35,.other,false,some ⟨42,[],none,false⟩⟩,⟨39,.other,false,some ⟨42,[],none,false⟩⟩,⟨61,.other,false,some ⟨42,[],none,false⟩⟩,⟨92,.other,false,some ⟨42,[],none,false⟩⟩]⟩,⟨[43],none,[],[⟨0,.other,false,some ⟨24,[],none,false⟩⟩,⟨9,.ws,false,some ⟨24,[],none,false⟩⟩,⟨10,.lf,false,none⟩,⟨11,.vt,false,some ⟨24,[],none,false⟩⟩,⟨12,.ff,false,none⟩,⟨13,.cr,false,none⟩,⟨13,.cr,true,none⟩,⟨34,.other,false,some ⟨24,[],none,false⟩⟩,⟨35,.other,false,some ⟨24,[],none,false⟩⟩,⟨39,.other,false,some ⟨0,[.code],some 2,true⟩⟩,⟨61,.other,false,some ⟨24,[],none,false⟩⟩,⟨92,.other,false,some ⟨25,[],none,false⟩⟩]⟩,⟨[16],none,[],[⟨0,.other,false,some ⟨43,[.comment],none,false⟩⟩,⟨9,.ws,false,some ⟨44,[],none,false⟩⟩,⟨10,.lf,false,some ⟨45,[],none,false⟩⟩,⟨11,.vt,false,some ⟨43,[.comment],none,false⟩⟩,⟨12,.ff,false,some ⟨46,[],none,false⟩⟩,⟨13,.cr,false,some ⟨47,[],none,false⟩⟩,⟨13,.cr,true,some ⟨48,[],none,false⟩⟩,⟨34,.other,false,some ⟨43,[.comment],none,false⟩⟩,⟨35,.other,false,some ⟨43,[.comment],none,false⟩⟩,⟨39,.other,false,some ⟨49,[.comment],none,false⟩⟩,⟨61,.other,false,some ⟨43,[.comment],none,false⟩⟩,⟨92,.other,false,some ⟨43,[.comment],none,false⟩⟩]⟩,⟨[54],none,[],[⟨0,.other,false,some ⟨13,[],none,false⟩⟩,⟨9,.ws,false,some ⟨13,[],none,false⟩⟩,⟨10,.lf,false,none⟩,⟨11,.vt,false,some ⟨13,[],none,false⟩⟩,⟨12,.ff,false,none⟩,⟨13,.cr,false,none⟩,⟨13,.cr,true,none⟩,⟨34,.other,false,some ⟨0,[.code],some 2,true⟩⟩,⟨35,.other,false,some ⟨13,[],none,false⟩⟩,⟨39,.other,false,some ⟨13,[],none,false⟩⟩,⟨61,.other,false,some ⟨13,[],none,false⟩⟩,⟨92,.other,false,some ⟨14,[],none,false⟩⟩]⟩,⟨[36],none,[],[⟨0,.other,false,some ⟨29,[.comment],none,false⟩⟩,⟨9,.ws,false,some ⟨30,[],none,false⟩⟩,⟨10,.lf,false,some ⟨31,[],none,false⟩⟩,⟨11,.vt,false,some ⟨29,[.comment],none,false⟩⟩,⟨12,.ff,false,some ⟨32,[],none,false⟩⟩,⟨13,.cr,false,some ⟨33,[],none,false⟩⟩,⟨13,.cr,true,some ⟨34,[],none,false⟩⟩,⟨34,.other,false,some ⟨35,[.comment],none,false⟩⟩,⟨35,.other,false,some ⟨29,[.comment],none,false⟩⟩,⟨39,.other,false,some ⟨29,[.comment],none,false⟩⟩,⟨61,.other,false,some ⟨29,[.comment],none,false⟩⟩,⟨92,.other,false,some ⟨29,[.comment],none,false⟩⟩]⟩,⟨[35],none,[],[⟨0,.other,false,some ⟨29,[.comment],none,false⟩⟩,⟨9,.ws,false,some ⟨30,[],none,false⟩⟩,⟨10,.lf,false,some ⟨31,[],none,false⟩⟩,⟨11,.vt,false,some ⟨29,[.comment],none,false⟩⟩,⟨12,.ff,false,some ⟨32,[],none,false⟩⟩,⟨13,.cr,false,some ⟨33,[],none,false⟩⟩,⟨13,.cr,true,some ⟨34,[],none,false⟩⟩,⟨34,.other,false,some ⟨35,[.comment],none,false⟩⟩,⟨35,.other,false,some ⟨29,[.comment],none,false⟩⟩,⟨39,.other,false,some ⟨29,[.comment],none,false⟩⟩,⟨61,.other,false,some ⟨29,[.comment],none,false⟩⟩,⟨92,.other,false,some ⟨29,[.comment],none,false⟩⟩]⟩,⟨[32],none,[],[⟨0,.other,false,some ⟨29,[.setEnt .internalNl,.cb,.comment],none,false⟩⟩,⟨9,.ws,false,some ⟨30,[.setEnt .internalNl,.cb],none,false⟩⟩,⟨10,.lf,false,some ⟨31,[.setEnt .internalNl,.cb],none,false⟩⟩,⟨11,.vt,false,some ⟨29,[.setEnt .internalNl,.cb,.comment],none,false⟩⟩,⟨12,.ff,false,some ⟨32,[.setEnt .internalNl,.cb],none,false⟩⟩,⟨13,.cr,false,some ⟨33,[.setEnt .internalNl,.cb],none,false⟩⟩,⟨13,.cr,true,some ⟨34,[.setEnt .internalNl,.cb],none,false⟩⟩,⟨34,.other,false,some ⟨35,[.setEnt .internalNl,.cb,.comment],none,false⟩⟩,⟨35,.other,false,some ⟨29,[.setEnt .internalNl,.cb,.comment],none,false⟩⟩,⟨39,.other,false,some ⟨29,[.setEnt .internalNl,.cb,.comment],none,false⟩⟩,⟨61,.other,false,some ⟨29,[.setEnt .internalNl,.cb,.comment],none,false⟩⟩,⟨92,.other,false,some ⟨29,[.setEnt .internalNl,.cb,.comment],none,false⟩⟩]⟩,⟨[33],none,[],[⟨0,.other,false,some ⟨29,[.setEnt .internalNl,.cb,.comment],none,false⟩⟩,⟨9,.ws,false,some ⟨30,[.setEnt .internalNl,.cb],none,false⟩⟩,⟨10,.lf,false,some ⟨31,[.setEnt .internalNl,.cb],none,false⟩⟩,⟨11,.vt,false,some ⟨29,[.setEnt .internalNl,.cb,.comment],none,false⟩⟩,⟨12,.ff,false,some ⟨32,[.setEnt .internalNl,.cb],none,false⟩⟩,⟨13,.cr,false,some ⟨33,[.setEnt .internalNl,.cb],none,false⟩⟩,⟨13,.cr,true,some ⟨34,[.setEnt .internalNl,.cb],none,false⟩⟩,⟨34,.other,false,some ⟨35,[.setEnt .internalNl,.cb,.comment],none,false⟩⟩,⟨35,.other,false,some ⟨29,[.setEnt .internalNl,.cb,.comment],none,false⟩⟩,⟨39,.other,false,some ⟨29,[.setEnt .internalNl,.cb,.comment],none,false⟩⟩,⟨61,.other,false,some ⟨29,[.setEnt .internalNl,.cb,.comment],none,false⟩⟩,⟨92,.other,false,some ⟨29,[.setEnt .internalNl,.cb,.comment],none,false⟩⟩]⟩,⟨[30],none,[],[⟨0,.other,false,none⟩,⟨9,.ws,false,none⟩,⟨10,.lf,false,some ⟨50,[],none,false⟩⟩,⟨11,.vt,false,none⟩,⟨12,.ff,false,none⟩,⟨13,.cr,false,none⟩,⟨13,.cr,true,none⟩,⟨34,.other,false,none⟩,⟨35,.other,false,none⟩,⟨39,.other,false,none⟩,⟨61,.other,false,none⟩,⟨92,.other,false,none⟩]⟩,⟨[30,34],none,[],[⟨0,.other,false,some ⟨29,[.setEnt .internalNl,.cb,.comment],none,false⟩⟩,⟨9,.ws,false,some ⟨30,[.setEnt .internalNl,.cb],none,false⟩⟩,⟨10,.lf,false,some ⟨51,[.setEnt .internalNl,.cb],none,false⟩⟩,⟨11,.vt,false,some ⟨29,[.setEnt .internalNl,.cb,.comment],none,false⟩⟩,⟨12,.ff,false,some ⟨32,[.setEnt .internalNl,.cb],none,false⟩⟩,⟨13,.cr,false,some ⟨33,[.setEnt .internalNl,.cb],none,false⟩⟩,⟨13,.cr,true,some ⟨34,[.setEnt .internalNl,.cb],none,false⟩⟩,⟨34,.other,false,some ⟨35,[.setEnt .internalNl,.cb,.comment],none,false⟩⟩,⟨35,.other,false,some ⟨29,[.setEnt .internalNl,.cb,.comment],none,false⟩⟩,⟨39,.other,false,some ⟨29,[.setEnt .internalNl,.cb,.comment],none,false⟩⟩,⟨61,.other,false,some ⟨29,[.setEnt .internalNl,.cb,.comment],none,false⟩⟩,⟨92,.other,false,some ⟨29,[.setEnt .internalNl,.cb,.comment],none,false⟩⟩]⟩,⟨[36,37],none,[],[⟨0,.other,false,some ⟨29,[.comment],none,false⟩⟩,⟨9,.ws,false,some ⟨30,[],none,false⟩⟩,⟨10,.lf,false,some ⟨31,[],none,false⟩⟩,⟨11,.vt,false,some ⟨29,[.comment],none,false⟩⟩,⟨12,.ff,false,some ⟨32,[],none,false⟩⟩,⟨13,.cr,false,some ⟨33,[],none,false⟩⟩,⟨13,.cr,true,some ⟨34,[],none,false⟩⟩,⟨34,.other,false,some ⟨52,[.comment],none,false⟩⟩,⟨35,.other,false,some ⟨29,[.comment],none,false⟩⟩,⟨39,.other,false,some ⟨29,[.comment],none,false⟩⟩,⟨61,.other,false,some ⟨29,[.comment],none,false⟩⟩,⟨92,.other,false,some ⟨29,[.comment],none,false⟩⟩]⟩,⟨[11],none,[],[⟨0,.other,false,some ⟨36,[.comment],none,false⟩⟩,⟨9,.ws,false,some ⟨37,[],none,false⟩⟩,⟨10,.lf,false,some ⟨19,[],none,false⟩⟩,⟨11,.vt,false,some ⟨36,[.comment],none,false⟩⟩,⟨12,.ff,false,some ⟨20,[],none,false⟩⟩,⟨13,.cr,false,some ⟨21,[],none,false⟩⟩,⟨13,.cr,true,some ⟨22,[],none,false⟩⟩,⟨34,.other,false,some ⟨36,[.comment],none,false⟩⟩,⟨35,.other,false,some ⟨36,[.comment],none,false⟩⟩,⟨39,.other,false,some ⟨36,[.comment],none,false⟩⟩,⟨61,.other,false,some ⟨38,[.comment],none,false⟩⟩,⟨92,.other,false,some ⟨36,[.comment],none,false⟩⟩]⟩,⟨[10],none,[],[⟨0,.other,false,some ⟨36,[.comment],none,false⟩⟩,⟨9,.ws,false,some ⟨37,[],none,false⟩⟩,⟨10,.lf,false,some ⟨19,[],none,false⟩⟩,⟨11,.vt,false,some ⟨36,[.comment],none,false⟩⟩,⟨12,.ff,false,some ⟨20,[],none,false⟩⟩,⟨13,.cr,false,some ⟨21,[],none,false⟩⟩,⟨13,.cr,true,some ⟨22,[],none,false⟩⟩,⟨34,.other,false,some ⟨36,[.comment],none,false⟩⟩,⟨35,.other,false,some ⟨36,[.comment],none,false⟩⟩,⟨39,.other,false,some ⟨36,[.comment],none,false⟩⟩,⟨61,.other,false,some ⟨38,[.comment],none,false⟩⟩,⟨92,.other,false,some ⟨36,[.comment],none,false⟩⟩]⟩,⟨[11,12],none,[],[⟨0,.other,false,some ⟨36,[.comment],none,false⟩⟩,⟨9,.ws,false,some ⟨37,[],none,false⟩⟩,⟨10,.lf,false,some ⟨19,[],none,false⟩⟩,⟨11,.vt,false,some ⟨36,[.comment],none,false⟩⟩,⟨12,.ff,false,some ⟨20,[],none,false⟩⟩,⟨13,.cr,false,some ⟨21,[],none,false⟩⟩,⟨13,.cr,true,some ⟨22,[],none,false⟩⟩,⟨34,.other,false,some ⟨36,[.comment],none,false⟩⟩,⟨35,.other,false,some ⟨0,[],some 1,true⟩⟩,⟨39,.other,false,some ⟨36,[.comment],none,false⟩⟩,⟨61,.other,false,some ⟨38,[.comment],none,false⟩⟩,⟨92,.other,false,some ⟨36,[.comment],none,false⟩⟩]⟩,⟨[6],none,[],[⟨0,.other,false,some ⟨36,[.setEnt .internalNl,.cb,.comment],none,false⟩⟩,⟨9,.ws,false,some ⟨37,[.setEnt .internalNl,.cb],none,false⟩⟩,⟨10,.lf,false,some ⟨19,[.setEnt .internalNl,.cb],none,false⟩⟩,⟨11,.vt,false,some ⟨36,[.setEnt .internalNl,.cb,.comment],none,false⟩⟩,⟨12,.ff,false,some ⟨20,[.setEnt .internalNl,.cb],none,false⟩⟩,⟨13,.cr,false,some ⟨21,[.setEnt .internalNl,.cb],none,false⟩⟩,⟨13,.cr,true,some ⟨22,[.setEnt .internalNl,.cb],none,false⟩⟩,⟨34,.other,false,some ⟨36,[.setEnt .internalNl,.cb,.comment],none,false⟩⟩,⟨35,.other,false,some ⟨36,[.setEnt .internalNl,.cb,.comment],none,false⟩⟩,⟨39,.other,false,some ⟨36,[.setEnt .internalNl,.cb,.comment],none,false⟩⟩,⟨61,.other,false,some ⟨38,[.setEnt .internalNl,.cb,.comment],none,false⟩⟩,⟨92,.other,false,some ⟨36,[.setEnt .internalNl,.cb,.comment],none,false⟩⟩]⟩,⟨[6,7],none,[],[⟨0,.other,false,some ⟨36,[.setEnt .internalNl,.cb,.comment],none,false⟩⟩,⟨9,.ws,false,some ⟨37,[.setEnt .internalNl,.cb],none,false⟩⟩,⟨10,.lf,false,some ⟨19,[.setEnt .internalNl,.cb],none,false⟩⟩,⟨11,.vt,false,some ⟨36,[.setEnt .internalNl,.cb,.comment],none,false⟩⟩,⟨12,.ff,false,some ⟨20,[.setEnt .internalNl,.cb],none,false⟩⟩,⟨13,.cr,false,some ⟨21,[.setEnt .internalNl,.cb],none,false⟩⟩,⟨13,.cr,true,some ⟨22,[.setEnt .internalNl,.cb],none,false⟩⟩,⟨34,.other,false,some ⟨36,[.setEnt .internalNl,.cb,.comment],none,false⟩⟩,⟨35,.other,false,some ⟨36,[.setEnt .internalNl,.cb,.comment],none,false⟩⟩,⟨39,.other,false,some ⟨36,[.setEnt .internalNl,.cb,.comment],none,false⟩⟩,⟨61,.other,false,some ⟨38,[.setEnt .internalNl,.cb,.comment],none,false⟩⟩,⟨92,.other,false,some ⟨36,[.setEnt .internalNl,.cb,.comment],none,false⟩⟩]⟩,⟨[2,13],some 1,[],[⟨0,.other,false,some ⟨9,[],some 1,false⟩⟩,⟨9,.ws,false,some ⟨9,[],some 1,false⟩⟩,⟨10,.lf,false,none⟩,⟨11,.vt,false,some ⟨9,[],some 1,false⟩⟩,⟨12,.ff,false,none⟩,⟨13,.cr,false,none⟩,⟨13,.cr,true,none⟩,⟨34,.other,false,some ⟨9,[],some 1,false⟩⟩,⟨35,.other,false,some ⟨9,[],some 1,false⟩⟩,⟨39,.other,false,some ⟨9,[],some 1,false⟩⟩,⟨61,.other,false,some ⟨9,[],some 1,false⟩⟩,⟨92,.other,false,some ⟨9,[],some 1,false⟩⟩]⟩,⟨[46],none,[],[⟨0,.other,false,some ⟨24,[],none,false⟩⟩,⟨9,.ws,false,some ⟨24,[],none,false⟩⟩,⟨10,.lf,false,none⟩,⟨11,.vt,false,some ⟨24,[],none,false⟩⟩,⟨12,.ff,false,none⟩,⟨13,.cr,false,none⟩,⟨13,.cr,true,none⟩,⟨34,.other,false,some ⟨24,[],none,false⟩⟩,⟨35,.other,false,some ⟨24,[],none,false⟩⟩,⟨39,.other,false,some ⟨0,[.code],some 2,true⟩⟩,⟨61,.other,false,some ⟨24,[],none,false⟩⟩,⟨92,.other,false,some ⟨25,[],none,false⟩⟩]⟩,⟨[23],none,[],[⟨0,.other,false,some ⟨43,[.comment],none,false⟩⟩,⟨9,.ws,false,some ⟨44,[],none,false⟩⟩,⟨10,.lf,false,some ⟨45,[],none,false⟩⟩,⟨11,.vt,false,some ⟨43,[.comment],none,false⟩⟩,⟨12,.ff,false,some ⟨46,[],none,false⟩⟩,⟨13,.cr,false,some ⟨47,[],none,false⟩⟩,⟨13,.cr,true,some ⟨48,[],none,false⟩⟩,⟨34,.other,false,some ⟨43,[.comment],none,false⟩⟩,⟨35,.other,false,some ⟨43,[.comment],none,false⟩⟩,⟨39,.other,false,some ⟨49,[.comment],none,false⟩⟩,⟨61,.other,false,some ⟨43,[.comment],none,false⟩⟩,⟨92,.other,false,some ⟨43,[.comment],none,false⟩⟩]⟩,⟨[22],none,[],[⟨0,.other,false,some ⟨43,[.comment],none,false⟩⟩,⟨9,.ws,false,some ⟨44,[],none,false⟩⟩,⟨10,.lf,false,some ⟨45,[],none,false⟩⟩,⟨11,.vt,false,some ⟨43,[.comment],none,false⟩⟩,⟨12,.ff,false,some ⟨46,[],none,false⟩⟩,⟨13,.cr,false,some ⟨47,[],none,false⟩⟩,⟨13,.cr,true,some ⟨48,[],none,false⟩⟩,⟨34,.other,false,some ⟨43,[.comment],none,false⟩⟩,⟨35,.other,false,some ⟨43,[.comment],none,false⟩⟩,⟨39,.other,false,some ⟨49,[.comment],none,false⟩⟩,⟨61,.other,false,some ⟨43,[.comment],none,false⟩⟩,⟨92,.other,false,some ⟨43,[.comment],none,false⟩⟩]⟩,⟨[19],none,[],[⟨0,.other,false,some ⟨43,[.setEnt .internalNl,.cb,.comment],none,false⟩⟩,⟨9,.ws,false,some ⟨44,[.setEnt .internalNl,.cb],none,false⟩⟩,⟨10,.lf,false,some ⟨45,[.setEnt .internalNl,.cb],none,false⟩⟩,⟨11,.vt,false,some ⟨43,[.setEnt .internalNl,.cb,.comment],none,false⟩⟩,⟨12,.ff,false,some ⟨46,[.setEnt .internalNl,.cb],none,false⟩⟩,⟨13,.cr,false,some ⟨47,[.setEnt .internalNl,.cb],none,false⟩⟩,⟨13,.cr,true,some ⟨48,[.setEnt .internalNl,.cb],none,false⟩⟩,⟨34,.other,false,some ⟨43,[.setEnt .internalNl,.cb,.comment],none,false⟩⟩,⟨35,.other,false,some ⟨43,[.setEnt .internalNl,.cb,.comment],none,false⟩⟩,⟨39,.other,false,some ⟨49,[.setEnt .internalNl,.cb,.comment],none,false⟩⟩,⟨61,.other,false,some ⟨43,[.setEnt .internalNl,.cb,.comment],none,false⟩⟩,⟨92,.other,false,some ⟨43,[.setEnt .internalNl,.cb,.comment],none,false⟩⟩]⟩,⟨[20],none,[],[⟨0,.other,false,some ⟨43,[.setEnt .internalNl,.cb,.comment],none,false⟩⟩,⟨9,.ws,false,some ⟨44,[.setEnt .internalNl,.cb],none,false⟩⟩,⟨10,.lf,false,some ⟨45,[.setEnt .internalNl,.cb],none,false⟩⟩,⟨11,.vt,false,some ⟨43,[.setEnt .internalNl,.cb,.comment],none,false⟩⟩,⟨12,.ff,false,some ⟨46,[.setEnt .internalNl,.cb],none,false⟩⟩,⟨13,.cr,false,some ⟨47,[.setEnt .internalNl,.cb],none,false⟩⟩,⟨13,.cr,true,some ⟨48,[.setEnt .internalNl,.cb],none,false⟩⟩,⟨34,.other,false,some ⟨43,[.setEnt .internalNl,.cb,.comment],none,false⟩⟩,⟨35,.other,false,some ⟨43,[.setEnt .internalNl,.cb,.comment],none,false⟩⟩,⟨39,.other,false,some ⟨49,[.setEnt .internalNl,.cb,.comment],none,false⟩⟩,⟨61,.other,false,some ⟨43,[.setEnt .internalNl,.cb,.comment],none,false⟩⟩,⟨92,.other,false,some ⟨43,[.setEnt .internalNl,.cb,.comment],none,false⟩⟩]⟩,⟨[17],none,[],[⟨0,.other,false,none⟩,⟨9,.ws,false,none⟩,⟨10,.lf,false,some ⟨53,[],none,false⟩⟩,⟨11,.vt,false,none⟩,⟨12,.ff,false,none⟩,⟨13,.cr,false,none⟩,⟨13,.cr,true,none⟩,⟨34,.other,false,none⟩,⟨35,.other,false,none⟩,⟨39,.other,false,none⟩,⟨61,.other,false,none⟩,⟨92,.other,false,none⟩]⟩,⟨[17,21],none,[],[⟨0,.other,false,some ⟨43,[.setEnt .internalNl,.cb,.comment],none,false⟩⟩,⟨9,.ws,false,some ⟨44,[.setEnt .internalNl,.cb],none,false⟩⟩,⟨10,.lf,false,some ⟨54,[.setEnt .internalNl,.cb],none,false⟩⟩,⟨11,.vt,false,some ⟨43,[.setEnt .internalNl,.cb,.comment],none,false⟩⟩,⟨12,.ff,false,some ⟨46,[.setEnt .internalNl,.cb],none,false⟩⟩,⟨13,.cr,false,some ⟨47,[.setEnt .internalNl,.cb],none,false⟩⟩,⟨13,.cr,true,some ⟨48,[.setEnt .internalNl,.cb],none,false⟩⟩,⟨34,.other,false,some ⟨43,[.setEnt .internalNl,.cb,.comment],none,false⟩⟩,⟨35,.other,false,some ⟨43,[.setEnt .internalNl,.cb,.comment],none,false⟩⟩,⟨39,.other,false,some ⟨49,[.setEnt .internalNl,.cb,.comment],none,false⟩⟩,⟨61,.other,false,some ⟨43,[.setEnt .internalNl,.cb,.comment],none,false⟩⟩,⟨92,.other,false,some ⟨43,[.setEnt .internalNl,.cb,.comment],none,false⟩⟩]⟩,⟨[23,24],none,[],[⟨0,.other,false,some ⟨43,[.comment],none,false⟩⟩,⟨9,.ws,false,some ⟨44,[],none,false⟩⟩,⟨10,.lf,false,some ⟨45,[],none,false⟩⟩,⟨11,.vt,false,some ⟨43,[.comment],none,false⟩⟩,⟨12,.ff,false,some ⟨46,[],none,false⟩⟩,⟨13,.cr,false,some ⟨47,[],none,false⟩⟩,⟨13,.cr,true,some ⟨48,[],none,false⟩⟩,⟨34,.other,false,some ⟨43,[.comment],none,false⟩⟩,⟨35,.other,false,some ⟨43,[.comment],none,false⟩⟩,⟨39,.other,false,some ⟨55,[.comment],none,false⟩⟩,⟨61,.other,false,some ⟨43,[.comment],none,false⟩⟩,⟨92,.other,false,some ⟨43,[.comment],none,false⟩⟩]⟩,⟨[31],none,[],[⟨0,.other,false,some ⟨29,[.setEnt .internalNl,.cb,.comment],none,false⟩⟩,⟨9,.ws,false,some ⟨30,[.setEnt .internalNl,.cb],none,false⟩⟩,⟨10,.lf,false,some ⟨31,[.setEnt .internalNl,.cb],none,false⟩⟩,⟨11,.vt,false,some ⟨29,[.setEnt .internalNl,.cb,.comment],none,false⟩⟩,⟨12,.ff,false,some ⟨32,[.setEnt .internalNl,.cb],none,false⟩⟩,⟨13,.cr,false,some ⟨33,[.setEnt .internalNl,.cb],none,false⟩⟩,⟨13,.cr,true,some ⟨34,[.setEnt .internalNl,.cb],none,false⟩⟩,⟨34,.other,false,some ⟨35,[.setEnt .internalNl,.cb,.comment],none,false⟩⟩,⟨35,.other,false,some ⟨29,[.setEnt .internalNl,.cb,.comment],none,false⟩⟩,⟨39,.other,false,some ⟨29,[.setEnt .internalNl,.cb,.comment],none,false⟩⟩,⟨61,.other,false,some ⟨29,[.setEnt .internalNl,.cb,.comment],none,false⟩⟩,⟨92,.other,false,some ⟨29,[.setEnt .internalNl,.cb,.comment],none,false⟩⟩]⟩,⟨[31,32],none,[],[⟨0,.other,false,some ⟨29,[.setEnt .internalNl,.cb,.comment],none,false⟩⟩,⟨9,.ws,false,some ⟨30,[.setEnt .internalNl,.cb],none,false⟩⟩,⟨10,.lf,false,some ⟨31,[.setEnt .internalNl,.cb],none,false⟩⟩,⟨11,.vt,false,some ⟨29,[.setEnt .internalNl,.cb,.comment],none,false⟩⟩,⟨12,.ff,false,some ⟨32,[.setEnt .internalNl,.cb],none,false⟩⟩,⟨13,.cr,false,some ⟨33,[.setEnt .internalNl,.cb],none,false⟩⟩,⟨13,.cr,true,some ⟨34,[.setEnt .internalNl,.cb],none,false⟩⟩,⟨34,.other,false,some ⟨35,[.setEnt .internalNl,.cb,.comment],none,false⟩⟩,⟨35,.other,false,some ⟨29,[.setEnt .internalNl,.cb,.comment],none,false⟩⟩,⟨39,.other,false,some ⟨29,[.setEnt .internalNl,.cb,.comment],none,false⟩⟩,⟨61,.other,false,some ⟨29,[.setEnt .internalNl,.cb,.comment],none,false⟩⟩,⟨92,.other,false,some ⟨29,[.setEnt .internalNl,.cb,.comment],none,false⟩⟩]⟩,⟨[36,37,38],none,[],[⟨0,.other,false,some ⟨29,[.comment],none,false⟩⟩,⟨9,.ws,false,some ⟨30,[],none,false⟩⟩,⟨10,.lf,false,some ⟨31,[],none,false⟩⟩,⟨11,.vt,false,some ⟨29,[.comment],none,false⟩⟩,⟨12,.ff,false,some ⟨32,[],none,false⟩⟩,⟨13,.cr,false,some ⟨33,[],none,false⟩⟩,⟨13,.cr,true,some ⟨34,[],none,false⟩⟩,⟨34,.other,false,some ⟨56,[.comment],some 1,false⟩⟩,⟨35,.other,false,some ⟨29,[.comment],none,false⟩⟩,⟨39,.other,false,some ⟨29,[.comment],none,false⟩⟩,⟨61,.other,false,some ⟨29,[.comment],none,false⟩⟩,⟨92,.other,false,some ⟨29,[.comment],none,false⟩⟩]⟩,⟨[18],none,[],[⟨0,.other,false,some ⟨43,[.setEnt .internalNl,.cb,.comment],none,false⟩⟩,⟨9,.ws,false,some ⟨44,[.setEnt .internalNl,.cb],none,false⟩⟩,⟨10,.lf,false,some ⟨45,[.setEnt .internalNl,.cb],none,false⟩⟩,⟨11,.vt,false,some ⟨43,[.setEnt .internalNl,.cb,.comment],none,false⟩⟩,⟨12,.ff,false,some ⟨46,[.setEnt .internalNl,.cb],none,false⟩⟩,⟨13,.cr,false,some ⟨47,[.setEnt .internalNl,.cb],none,false⟩⟩,⟨13,.cr,true,some ⟨48,[.setEnt .internalNl,.cb],none,false⟩⟩,⟨34,.other,false,some ⟨43,[.setEnt .internalNl,.cb,.comment],none,false⟩⟩,⟨35,.other,false,some ⟨43,[.setEnt .internalNl,.cb,.comment],none,false⟩⟩,⟨39,.other,false,some ⟨49,[.setEnt .internalNl,.cb,.comment],none,false⟩⟩,⟨61,.other,false,some ⟨43,[.setEnt .internalNl,.cb,.comment],none,false⟩⟩,⟨92,.other,false,some ⟨43,[.setEnt .internalNl,.cb,.comment],none,false⟩⟩]⟩,⟨[18,19],none,[],[⟨0,.other,false,some ⟨43,[.setEnt .internalNl,.cb,.comment],none,false⟩⟩,⟨9,.ws,false,some ⟨44,[.setEnt .internalNl,.cb],none,false⟩⟩,⟨10,.lf,false,some ⟨45,[.setEnt .internalNl,.cb],none,false⟩⟩,⟨11,.vt,false,some ⟨43,[.setEnt .internalNl,.cb,.comment],none,false⟩⟩,⟨12,.ff,false,some ⟨46,[.setEnt .internalNl,.cb],none,false⟩⟩,⟨13,.cr,false,some ⟨47,[.setEnt .internalNl,.cb],none,false⟩⟩,⟨13,.cr,true,some ⟨48,[.setEnt .internalNl,.cb],none,false⟩⟩,⟨34,.other,false,some ⟨43,[.setEnt .internalNl,.cb,.comment],none,false⟩⟩,⟨35,.other,false,some ⟨43,[.setEnt .internalNl,.cb,.comment],none,false⟩⟩,⟨39,.other,false,some ⟨49,[.setEnt .internalNl,.cb,.comment],none,false⟩⟩,⟨61,.other,false,some ⟨43,[.setEnt .internalNl,.cb,.comment],none,false⟩⟩,⟨92,.other,false,some ⟨43,[.setEnt .internalNl,.cb,.comment],none,false⟩⟩]⟩,⟨[23,24,25],none,[],[⟨0,.other,false,some ⟨43,[.comment],none,false⟩⟩,⟨9,.ws,false,some ⟨44,[],none,false⟩⟩,⟨10,.lf,false,some ⟨45,[],none,false⟩⟩,⟨11,.vt,false,some ⟨43,[.comment],none,false⟩⟩,⟨12,.ff,false,some ⟨46,[],none,false⟩⟩,⟨13,.cr,false,some ⟨47,[],none,false⟩⟩,⟨13,.cr,true,some ⟨48,[],none,false⟩⟩,⟨34,.other,false,some ⟨43,[.comment],none,false⟩⟩,⟨35,.other,false,some ⟨43,[.comment],none,false⟩⟩,⟨39,.other,false,some ⟨57,[.comment],some 1,false⟩⟩,⟨61,.other,false,some ⟨43,[.comment],none,false⟩⟩,⟨92,.other,false,some ⟨43,[.comment],none,false⟩⟩]⟩,⟨[38,39],some 1,[],[⟨0,.other,false,none⟩,⟨9,.ws,false,none⟩,⟨10,.lf,false,none⟩,⟨11,.vt,false,none⟩,⟨12,.ff,false,none⟩,⟨13,.cr,false,none⟩,⟨13,.cr,true,none⟩,⟨34,.other,false,some ⟨0,[.comment],some 1,true⟩⟩,⟨35,.other,false,none⟩,⟨39,.other,false,none⟩,⟨61,.other,false,none⟩,⟨92,.other,false,none⟩]⟩,⟨[25,26],some 1,[],[⟨0,.other,false,none⟩,⟨9,.ws,false,none⟩,⟨10,.lf,false,none⟩,⟨11,.vt,false,none⟩,⟨12,.ff,false,none⟩,⟨13,.cr,false,none⟩,⟨13,.cr,true,none⟩,⟨34,.other,false,none⟩,⟨35,.other,false,none⟩,⟨39,.other,false,some ⟨0,[.comment],some 1,true⟩⟩,⟨61,.other,false,none⟩,⟨92,.other,false,none⟩]⟩]
theorem julia_line_rowsOk : rowsOk julia_line_nfa [] (julia_line_cs.map (·.1)) julia_line_rows = true := by decide +kernel
def julia_line_D : Dfa julia_line_M.nfa := ⟨julia_line_masks, [], julia_line_cs, julia_line_rows, julia_line_masksIn, julia_line_repOk, julia_line_rowsOk⟩

def oberon_line_nfa : Nfa := ⟨[⟨0,4294967808,[],[(0,.setEnt (.own 0))],0,0⟩,⟨1,1099511627776,[],[(1,.nestRes)],0,2⟩,⟨16,549755813888,[],[(11,.code)],0,0⟩,⟨19,17179869184,[],[(12,.code)],0,0⟩,⟨22,8192,[],[(13,.setEnt .newline)],0,0⟩,⟨24,1024,[],[(13,.setEnt .newline)],0,0⟩,⟨25,4096,[],[(13,.setEnt .newline)],0,0⟩,⟨26,8192,[.crAlone],[(13,.setEnt .newline)],0,0⟩,⟨27,115792089237316195423570985008687907853269984665640564039457584007908834656767,[],[(14,.setEnt (.own 3))],0,0⟩],[[⟨0,4294967808,[],[(0,.setEnt (.own 0))],0,0⟩],[⟨2,4398046511104,[],[(2,.comment)],0,2⟩],[⟨3,8192,[],[],0,2⟩,⟨5,1024,[],[],0,2⟩,⟨6,4096,[],[],0,2⟩,⟨7,8192,[.crAlone],[],0,2⟩,⟨8,4294967808,[],[],0,2⟩,⟨9,1099511627776,[],[],0,2⟩,⟨11,4398046511104,[],[],0,2⟩,⟨13,115792089237316195423570985008687907853269984665640564039457584007908834656767,[],[(9,.comment)],0,2⟩,⟨14,4398046511104,[.nestZero],[],0,2⟩],[⟨4,1024,[],[],0,2⟩],[⟨3,8192,[],[(3,.setEnt .internalNl),(4,.cb)],0,2⟩,⟨5,1024,[],[(3,.setEnt .internalNl),(4,.cb)],0,2⟩,⟨6,4096,[],[(3,.setEnt .internalNl),(4,.cb)],0,2⟩,⟨7,8192,[.crAlone],[(3,.setEnt .internalNl),(4,.cb)],0,2⟩,⟨8,4294967808,[],[(3,.setEnt .internalNl),(4,.cb)],0,2⟩,⟨9,1099511627776,[],[(3,.setEnt .internalNl),(4,.cb)],0,2⟩,⟨11,4398046511104,[],[(3,.setEnt .internalNl),(4,.cb)],0,2⟩,⟨13,115792089237316195423570985008687907853269984665640564039457584007908834656767,[],[(3,.setEnt .internalNl),(4,.cb),(9,.comment)],0,2⟩,⟨14,4398046511104,[.nestZero],[(3,.setEnt .internalNl),(4,.cb)],0,2⟩],[⟨3,8192,[],[(3,.setEnt .internalNl),(4,.cb)],0,2⟩,⟨5,1024,[],[(3,.setEnt .internalNl),(4,.cb)],0,2⟩,⟨6,4096,[],[(3,.setEnt .internalNl),(4,.cb)],0,2⟩,⟨7,8192,[.crAlone],[(3,.setEnt .internalNl),(4,.cb)],0,2⟩,⟨8,4294967808,[],[(3,.setEnt .internalNl),(4,.cb)],0,2⟩,⟨9,1099511627776,[],[(3,.setEnt .internalNl),(4,.cb)],0,2⟩,⟨11,4398046511104,[],[(3,.setEnt .internalNl),(4,.cb)],0,2⟩,⟨13,115792089237316195423570985008687907853269984665640564039457584007908834656767,[],[(3,.setEnt .internalNl),(4,.cb),(9,.comment)],0,2⟩,⟨14,4398046511104,[.nestZero],[(3,.setEnt .internalNl),(4,.cb)],0,2⟩],[⟨3,8192,[],[(3,.setEnt .internalNl),(4,.cb)],0,2⟩,⟨5,1024,[],[(3,.setEnt .internalNl),(4,.cb)],0,2⟩,⟨6,4096,[],[(3,.setEnt .internalNl),(4,.cb)],0,2⟩,⟨7,8192,[.crAlone],[(3,.setEnt .internalNl),(4,.cb)],0,2⟩,⟨8,4294967808,[],[(3,.setEnt .internalNl),(4,.cb)],0,2⟩,⟨9,1099511627776,[],[(3,.setEnt .internalNl),(4,.cb)],0,2⟩,⟨11,4398046511104,[],[(3,.setEnt .internalNl),(4,.cb)],0,2⟩,⟨13,115792089237316195423570985008687907853269984665640564039457584007908834656767,[],[(3,.setEnt .internalNl),(4,.cb),(9,.comment)],0,2⟩,⟨14,4398046511104,[.nestZero],[(3,.setEnt .internalNl),(4,.cb)],0,2⟩],[⟨3,8192,[],[(3,.setEnt .internalNl),(4,.cb)],0,2⟩,⟨5,1024,[],[(3,.setEnt .internalNl),(4,.cb)],0,2⟩,⟨6,4096,[],[(3,.setEnt .internalNl),(4,.cb)],0,2⟩,⟨7,8192,[.crAlone],[(3,.setEnt .internalNl),(4,.cb)],0,2⟩,⟨8,4294967808,[],[(3,.setEnt .internalNl),(4,.cb)],0,2⟩,⟨9,1099511627776,[],[(3,.setEnt .internalNl),(4,.cb)],0,2⟩,⟨11,4398046511104,[],[(3,.setEnt .internalNl),(4,.cb)],0,2⟩,⟨13,115792089237316195423570985008687907853269984665640564039457584007908834656767,[],[(3,.setEnt .internalNl),(4,.cb),(9,.comment)],0,2⟩,⟨14,4398046511104,[.nestZero],[(3,.setEnt .internalNl),(4,.cb)],0,2⟩],[⟨3,8192,[],[],0,2⟩,⟨5,1024,[],[],0,2⟩,⟨6,4096,[],[],0,2⟩,⟨7,8192,[.crAlone],[],0,2⟩,⟨8,4294967808,[],[],0,2⟩,⟨9,1099511627776,[],[],0,2⟩,⟨11,4398046511104,[],[],0,2⟩,⟨13,115792089237316195423570985008687907853269984665640564039457584007908834656767,[],[(9,.comment)],0,2⟩,⟨14,4398046511104,[.nestZero],[],0,2⟩],[⟨10,4398046511104,[],[(5,.nestInc),(6,.comment)],0,2⟩],[⟨3,8192,[],[],0,2⟩,⟨5,1024,[],[],0,2⟩,⟨6,4096,[],[],0,2⟩,⟨7,8192,[.crAlone],[],0,2⟩,⟨8,4294967808,[],[],0,2⟩,⟨9,1099511627776,[],[],0,2⟩,⟨11,4398046511104,[],[],0,2⟩,⟨13,115792089237316195423570985008687907853269984665640564039457584007908834656767,[],[(9,.comment)],0,2⟩,⟨14,4398046511104,[.nestZero],[],0,2⟩],[⟨12,2199023255552,[],[(7,.nestDec),(8,.comment)],0,2⟩],[⟨3,8192,[],[],0,2⟩,⟨5,1024,[],[],0,2⟩,⟨6,4096,[],[],0,2⟩,⟨7,8192,[.crAlone],[],0,2⟩,⟨8,4294967808,[],[],0,2⟩,⟨9,1099511627776,[],[],0,2⟩,⟨11,4398046511104,[],[],0,2⟩,⟨13,115792089237316195423570985008687907853269984665640564039457584007908834656767,[],[(9,.comment)],0,2⟩,⟨14,4398046511104,[.nestZero],[],0,2⟩],[⟨3,8192,[],[],0,2⟩,⟨5,1024,[],[],0,2⟩,⟨6,4096,[],[],0,2⟩,⟨7,8192,[.crAlone],[],0,2⟩,⟨8,4294967808,[],[],0,2⟩,⟨9,1099511627776,[],[],0,2⟩,⟨11,4398046511104,[],[],0,2⟩,⟨13,115792089237316195423570985008687907853269984665640564039457584007908834656767,[],[(9,.comment)],0,2⟩,⟨14,4398046511104,[.nestZero],[],0,2⟩],[⟨15,2199023255552,[.nestZero],[(10,.comment)],2,0⟩],[],[⟨17,115792089237316195423570985008687907853269984665640564039457584007895949757439,[],[],0,0⟩,⟨18,549755813888,[],[],0,0⟩],[⟨17,115792089237316195423570985008687907853269984665640564039457584007895949757439,[],[],0,0⟩,⟨18,549755813888,[],[],0,0⟩],[],[⟨20,115792089237316195423570985008687907853269984665640564039457584007895949757439,[],[],0,0⟩,⟨21,17179869184,[],[],0,0⟩],[⟨20,115792089237316195423570985008687907853269984665640564039457584007895949757439,[],[],0,0⟩,⟨21,17179869184,[],[],0,0⟩],[],[⟨23,1024,[],[(13,.setEnt .newline)],0,0⟩],[],[],[],[],[]],[some (0,[]),none,none,none,none,none,none,none,none,none,none,none,none,none,none,some (1,[]),none,none,some (2,[]),none,none,some (2,[]),none,some (3,[]),some (3,[]),some (3,[]),some (3,[]),some (4,[])],[1,11,13,14,15]⟩
theorem oberon_line_nfa_eq : Oberon.oberon_line.nfa = oberon_line_nfa := by decide +kernel
/-- The machine of `Oberon.oberon_line`, with its automaton as a literal. -/
def oberon_line_M : Machine := ⟨oberon_line_nfa, Oberon.oberon_line.ends, Oberon.oberon_line.sw⟩
theorem oberon_line_M_eq : Oberon.oberon_line.machine = oberon_line_M := by
  unfold Scanner.machine oberon_line_M; rw [oberon_line_nfa_eq]
def oberon_line_masks : List Nat := [4294967808,1099511627776,549755813888,17179869184,8192,1024,4096,115792089237316195423570985008687907853269984665640564039457584007908834656767,4398046511104,2199023255552,115792089237316195423570985008687907853269984665640564039457584007895949757439]
def oberon_line_cs : List (Nat × Nat) := [(0,115792089237316195423570985008687907853269984665640564039457583999645317579263),(9,4294967808),(10,1024),(11,2048),(12,4096),(13,8192),(34,17179869184),(39,549755813888),(40,1099511627776),(41,2199023255552),(42,4398046511104)]
theorem oberon_line_masksIn : masksIn oberon_line_nfa oberon_line_masks = true := by decide +kernel
theorem oberon_line_repOk : repOk oberon_line_masks oberon_line_cs = true := by decide +kernel
def oberon_line_rows : List Row := [⟨[],none,[],[⟨256,.other,false,some ⟨0,[.setEnt (.own 3)],some 4,true⟩⟩,⟨256,.ws,false,some ⟨1,[.setEnt (.own 0)],some 0,false⟩⟩,⟨256,.lf,false,some ⟨0,[.setEnt .newline],some 3,true⟩⟩,⟨256,.vt,false,none⟩,⟨256,.ff,false,some ⟨0,[.setEnt .newline],some 3,true⟩⟩,⟨256,.cr,false,some ⟨2,[.setEnt .newline],none,false⟩⟩,⟨256,.cr,true,some ⟨3,[.setEnt .newline],some 3,false⟩⟩,⟨256,.other,false,some ⟨4,[.code,.setEnt (.own 3)],some 4,false⟩⟩,⟨256,.other,false,some ⟨5,[.code,.setEnt (.own 3)],some 4,false⟩⟩,⟨256,.other,false,some ⟨6,[.nestRes,.setEnt (.own 3)],some 4,false⟩⟩]⟩,⟨[0],some 0,[],[⟨256,.other,false,none⟩,⟨256,.ws,false,some ⟨1,[.setEnt (.own 0)],some 0,false⟩⟩,⟨256,.lf,false,none⟩,⟨256,.vt,false,none⟩,⟨256,.ff,false,none⟩,⟨256,.cr,false,none⟩,⟨256,.cr,true,none⟩]⟩,⟨[22],none,[],[⟨256,.other,false,none⟩,⟨256,.ws,false,none⟩,⟨256,.lf,false,some ⟨0,[.setEnt .newline],some 3,true⟩⟩,⟨256,.vt,false,none⟩,⟨256,.ff,false,none⟩,⟨256,.cr,false,none⟩,⟨256,.cr,true,none⟩]⟩,⟨[22,26],some 3,[],[⟨256,.other,false,none⟩,⟨256,.ws,false,none⟩,⟨256,.lf,false,some ⟨0,[.setEnt .newline],some 3,true⟩⟩,⟨256,.vt,false,none⟩,⟨256,.ff,false,none⟩,⟨256,.cr,false,none⟩,⟨256,.cr,true,none⟩]⟩,⟨[19,27],some 4,[],[⟨256,.other,false,some ⟨7,[],none,false⟩⟩,⟨256,.ws,false,some ⟨7,[],none,false⟩⟩,⟨256,.lf,false,none⟩,⟨256,.vt,false,some ⟨7,[],none,false⟩⟩,⟨256,.ff,false,none⟩,⟨256,.cr,false,none⟩,⟨256,.cr,true,none⟩,⟨256,.other,false,some ⟨0,[],some 2,true⟩⟩]⟩,⟨[16,27],some 4,[],[⟨256,.other,false,some ⟨8,[],none,false⟩⟩,⟨256,.ws,false,some ⟨8,[],none,false⟩⟩,⟨256,.lf,false,none⟩,⟨256,.vt,false,some ⟨8,[],none,false⟩⟩,⟨256,.ff,false,none⟩,⟨256,.cr,false,none⟩,⟨256,.cr,true,none⟩,⟨256,.other,false,none⟩,⟨256,.other,false,some ⟨9,[],some 2,false⟩⟩]⟩,⟨[1,27],some 4,[],[⟨256,.other,false,none⟩,⟨256,.ws,false,none⟩,⟨256,.lf,false,none⟩,⟨256,.vt,false,none⟩,⟨256,.ff,false,none⟩,⟨256,.cr,false,none⟩,⟨256,.cr,true,none⟩,⟨256,.other,false,some ⟨10,[.comment],none,false⟩⟩]⟩,⟨[20],none,[],[⟨256,.other,false,some ⟨7,[],none,false⟩⟩,⟨256,.ws,false,some ⟨7,[],none,false⟩⟩,⟨256,.lf,false,none⟩,⟨256,.vt,false,some ⟨7,[],none,false⟩⟩,⟨256,.ff,false,none⟩,⟨256,.cr,false,none⟩,⟨256,.cr,true,none⟩,⟨256,.other,false,some ⟨0,[],some 2,true⟩⟩]⟩,⟨[17],none,[],[⟨256,.other,false,some ⟨8,[],none,false⟩⟩,⟨256,.ws,false,some ⟨8,[],none,false⟩⟩,⟨256,.lf,false,none⟩,⟨256,.vt,false,some ⟨8,[],none,false⟩⟩,⟨256,.ff,false,none⟩,⟨256,.cr,false,none⟩,⟨256,.cr,true,none⟩,⟨256,.other,false,none⟩,⟨256,.other,false,some ⟨9,[],some 2,false⟩⟩]⟩,⟨[17,18],some 2,[],[⟨256,.other,false,some ⟨8,[],none,false⟩⟩,⟨256,.ws,false,some ⟨8,[],none,false⟩⟩,⟨256,.lf,false,none⟩,⟨256,.vt,false,some ⟨8,[],none,false⟩⟩,⟨256,.ff,false,none⟩,⟨256,.cr,false,none⟩,⟨256,.cr,true,none⟩,⟨256,.other,false,none⟩,⟨256,.other,false,some ⟨9,[],some 2,false⟩⟩]⟩,⟨[2],none,[],[⟨256,.other,false,some ⟨11,[.comment],none,false⟩⟩,⟨256,.ws,false,some ⟨12,[],none,false⟩⟩,⟨256,.lf,false,some ⟨13,[],none,false⟩⟩,⟨256,.vt,false,none⟩,⟨256,.ff,false,some ⟨14,[],none,false⟩⟩,⟨256,.cr,false,some ⟨15,[],none,false⟩⟩,⟨256,.cr,true,some ⟨16,[],none,false⟩⟩,⟨256,.other,false,some ⟨17,[.comment],none,false⟩⟩,⟨256,.other,false,some ⟨18,[.comment],none,false⟩⟩,⟨256,.other,false,some ⟨19,[.comment],none,false⟩⟩]⟩,⟨[13],none,[],[⟨256,.other,false,some ⟨11,[.comment],none,false⟩⟩,⟨256,.ws,false,some ⟨12,[],none,false⟩⟩,⟨256,.lf,false,some ⟨13,[],none,false⟩⟩,⟨256,.vt,false,none⟩,⟨256,.ff,false,some ⟨14,[],none,false⟩⟩,⟨256,.cr,false,some ⟨15,[],none,false⟩⟩,⟨256,.cr,true,some ⟨16,[],none,false⟩⟩,⟨256,.other,false,some ⟨17,[.comment],none,false⟩⟩,⟨256,.other,false,some ⟨18,[.comment],none,false⟩⟩,⟨256,.other,false,some ⟨19,[.comment],none,false⟩⟩]⟩,⟨[8],none,[],[⟨256,.other,false,some ⟨11,[.comment],none,false⟩⟩,⟨256,.ws,false,some ⟨12,[],none,false⟩⟩,⟨256,.lf,false,some ⟨13,[],none,false⟩⟩,⟨256,.vt,false,none⟩,⟨256,.ff,false,some ⟨14,[],none,false⟩⟩,⟨256,.cr,false,some ⟨15,[],none,false⟩⟩,⟨256,.cr,true,some ⟨16,[],none,false⟩⟩,⟨256,.other,false,some ⟨17,[.comment],none,false⟩⟩,⟨256,.other,false,some ⟨18,[.comment],none,false⟩⟩,⟨256,.other,false,some ⟨19,[.comment],none,false⟩⟩]⟩,⟨[5],none,[],[⟨256,.other,false,some ⟨11,[.setEnt .internalNl,.cb,.comment],none,false⟩⟩,⟨256,.ws,false,some ⟨12,[.setEnt .internalNl,.cb],none,false⟩⟩,⟨256,.lf,false,some ⟨13,[.setEnt .internalNl,.cb],none,false⟩⟩,⟨256,.vt,false,none⟩,⟨256,.ff,false,some ⟨14,[.setEnt .internalNl,.cb],none,false⟩⟩,⟨256,.cr,false,some ⟨15,[.setEnt .internalNl,.cb],none,false⟩⟩,⟨256,.cr,true,some ⟨16,[.setEnt .internalNl,.cb],none,false⟩⟩,⟨256,.other,false,some ⟨17,[.setEnt .internalNl,.cb,.comment],none,false⟩⟩,⟨256,.other,false,some ⟨18,[.setEnt .internalNl,.cb,.comment],none,false⟩⟩,⟨256,.other,false,some ⟨19,[.setEnt .internalNl,.cb,.comment],none,false⟩⟩]⟩,⟨[6],none,[],[⟨256,.other,false,some ⟨11,[.setEnt .internalNl,.cb,.comment],none,false⟩⟩,⟨256,.ws,false,some ⟨12,[.setEnt .internalNl,.cb],none,false⟩⟩,⟨256,.lf,false,some ⟨13,[.setEnt .internalNl,.cb],none,false⟩⟩,⟨256,.vt,false,none⟩,⟨256,.ff,false,some ⟨14,[.setEnt .internalNl,.cb],none,false⟩⟩,⟨256,.cr,false,some ⟨15,[.setEnt .internalNl,.cb],none,false⟩⟩,⟨256,.cr,true,some ⟨16,[.setEnt .internalNl,.cb],none,false⟩⟩,⟨256,.other,false,some ⟨17,[.setEnt .internalNl,.cb,.comment],none,false⟩⟩,⟨256,.other,false,some ⟨18,[.setEnt .internalNl,.cb,.comment],none,false⟩⟩,⟨256,.other,false,some ⟨19,[.setEnt .internalNl,.cb,.comment],none,false⟩⟩]⟩,⟨[3],none,[],[⟨256,.other,false,none⟩,⟨256,.ws,false,none⟩,⟨256,.lf,false,some ⟨20,[],none,false⟩⟩,⟨256,.vt,false,none⟩,⟨256,.ff,false,none⟩,⟨256,.cr,false,none⟩,⟨256,.cr,true,none⟩]⟩,⟨[3,7],none,[],[⟨256,.other,false,some ⟨11,[.setEnt .internalNl,.cb,.comment],none,false⟩⟩,⟨256,.ws,false,some ⟨12,[.setEnt .internalNl,.cb],none,false⟩⟩,⟨256,.lf,false,some ⟨21,[.setEnt .internalNl,.cb],none,false⟩⟩,⟨256,.vt,false,none⟩,⟨256,.ff,false,some ⟨14,[.setEnt .internalNl,.cb],none,false⟩⟩,⟨256,.cr,false,some ⟨15,[.setEnt .internalNl,.cb],none,false⟩⟩,⟨256,.cr,true,some ⟨16,[.setEnt .internalNl,.cb],none,false⟩⟩,⟨256,.other,false,some ⟨17,[.setEnt .internalNl,.cb,.comment],none,false⟩⟩,⟨256,.other,false,some ⟨18,[.setEnt .internalNl,.cb,.comment],none,false⟩⟩,⟨256,.other,false,some ⟨19,[.setEnt .internalNl,.cb,.comment],none,false⟩⟩]⟩,⟨[9,13],none,[],[⟨256,.other,false,some ⟨11,[.comment],none,false⟩⟩,⟨256,.ws,false,some ⟨12,[],none,false⟩⟩,⟨256,.lf,false,some ⟨13,[],none,false⟩⟩,⟨256,.vt,false,none⟩,⟨256,.ff,false,some ⟨14,[],none,false⟩⟩,⟨256,.cr,false,some ⟨15,[],none,false⟩⟩,⟨256,.cr,true,some ⟨16,[],none,false⟩⟩,⟨256,.other,false,some ⟨17,[.comment],none,false⟩⟩,⟨256,.other,false,some ⟨22,[.nestInc,.comment],none,false⟩⟩,⟨256,.other,false,some ⟨23,[.nestInc,.comment],none,false⟩⟩]⟩,⟨[11,13],none,[],[⟨256,.other,false,some ⟨11,[.comment],none,false⟩⟩,⟨256,.ws,false,some ⟨12,[],none,false⟩⟩,⟨256,.lf,false,some ⟨13,[],none,false⟩⟩,⟨256,.vt,false,none⟩,⟨256,.ff,false,some ⟨14,[],none,false⟩⟩,⟨256,.cr,false,some ⟨15,[],none,false⟩⟩,⟨256,.cr,true,some ⟨16,[],none,false⟩⟩,⟨256,.other,false,some ⟨17,[.comment],none,false⟩⟩,⟨256,.other,false,some ⟨24,[.nestDec,.comment],none,false⟩⟩,⟨256,.other,false,some ⟨18,[.comment],none,false⟩⟩,⟨256,.other,false,some ⟨19,[.comment],none,false⟩⟩]⟩,⟨[11,13,14],none,[],[⟨256,.other,false,some ⟨11,[.comment],none,false⟩⟩,⟨256,.ws,false,some ⟨12,[],none,false⟩⟩,⟨256,.lf,false,some ⟨13,[],none,false⟩⟩,⟨256,.vt,false,none⟩,⟨256,.ff,false,some ⟨14,[],none,false⟩⟩,⟨256,.cr,false,some ⟨15,[],none,false⟩⟩,⟨256,.cr,true,some ⟨16,[],none,false⟩⟩,⟨256,.other,false,some ⟨17,[.comment],none,false⟩⟩,⟨256,.other,false,some ⟨24,[.nestDec,.comment],none,false⟩⟩,⟨256,.other,false,some ⟨0,[.comment],some 1,true⟩⟩,⟨256,.other,false,some ⟨18,[.comment],none,false⟩⟩,⟨256,.other,false,some ⟨19,[.comment],none,false⟩⟩]⟩,⟨[4],none,[],[⟨256,.other,false,some ⟨11,[.setEnt .internalNl,.cb,.comment],none,false⟩⟩,⟨256,.ws,false,some ⟨12,[.setEnt .internalNl,.cb],none,false⟩⟩,⟨256,.lf,false,some ⟨13,[.setEnt .internalNl,.cb],none,false⟩⟩,⟨256,.vt,false,none⟩,⟨256,.ff,false,some ⟨14,[.setEnt .internalNl,.cb],none,false⟩⟩,⟨256,.cr,false,some ⟨15,[.setEnt .internalNl,.cb],none,false⟩⟩,⟨256,.cr,true,some ⟨16,[.setEnt .internalNl,.cb],none,false⟩⟩,⟨256,.other,false,some ⟨17,[.setEnt .internalNl,.cb,.comment],none,false⟩⟩,⟨256,.other,false,some ⟨18,[.setEnt .internalNl,.cb,.comment],none,false⟩⟩,⟨256,.other,false,some ⟨19,[.setEnt .internalNl,.cb,.comment],none,false⟩⟩]⟩,⟨[4,5],none,[],[⟨256,.other,false,some ⟨11,[.setEnt .internalNl,.cb,.comment],none,false⟩⟩,⟨256,.ws,false,some ⟨12,[.setEnt .internalNl,.cb],none,false⟩⟩,⟨256,.lf,false,some ⟨13,[.setEnt .internalNl,.cb],none,false⟩⟩,⟨256,.vt,false,none⟩,⟨256,.ff,false,some ⟨14,[.setEnt .internalNl,.cb],none,false⟩⟩,⟨256,.cr,false,some ⟨15,[.setEnt .internalNl,.cb],none,false⟩⟩,⟨256,.cr,true,some ⟨16,[.setEnt .internalNl,.cb],none,false⟩⟩,⟨256,.other,false,some ⟨17,[.setEnt .internalNl,.cb,.comment],none,false⟩⟩,⟨256,.other,false,some ⟨18,[.setEnt .internalNl,.cb,.comment],none,false⟩⟩,⟨256,.other,false,some ⟨19,[.setEnt .internalNl,.cb,.comment],none,false⟩⟩]⟩,⟨[10,11,13],none,[],[⟨256,.other,false,some ⟨11,[.comment],none,false⟩⟩,⟨256,.ws,false,some ⟨12,[],none,false⟩⟩,⟨256,.lf,false,some ⟨13,[],none,false⟩⟩,⟨256,.vt,false,none⟩,⟨256,.ff,false,some ⟨14,[],none,false⟩⟩,⟨256,.cr,false,some ⟨15,[],none,false⟩⟩,⟨256,.cr,true,some ⟨16,[],none,false⟩⟩,⟨256,.other,false,some ⟨17,[.comment],none,false⟩⟩,⟨256,.other,false,some ⟨24,[.nestDec,.comment],none,false⟩⟩,⟨256,.other,false,some ⟨18,[.comment],none,false⟩⟩,⟨256,.other,false,some ⟨19,[.comment],none,false⟩⟩]⟩,⟨[10,11,13,14],none,[],[⟨256,.other,false,some ⟨11,[.comment],none,false⟩⟩,⟨256,.ws,false,some ⟨12,[],none,false⟩⟩,⟨256,.lf,false,some ⟨13,[],none,false⟩⟩,⟨256,.vt,false,none⟩,⟨256,.ff,false,some ⟨14,[],none,false⟩⟩,⟨256,.cr,false,some ⟨15,[],none,false⟩⟩,⟨256,.cr,true,some ⟨16,[],none,false⟩⟩,⟨256,.other,false,some ⟨17,[.comment],none,false⟩⟩,⟨256,.other,false,some ⟨24,[.nestDec,.comment],none,false⟩⟩,⟨256,.other,false,some ⟨0,[.comment],some 1,true⟩⟩,⟨256,.other,false,some ⟨18,[.comment],none,false⟩⟩,⟨256,.other,false,some ⟨19,[.comment],none,false⟩⟩]⟩,⟨[12,13],none,[],[⟨256,.other,false,some ⟨11,[.comment],none,false⟩⟩,⟨256,.ws,false,some ⟨12,[],none,false⟩⟩,⟨256,.lf,false,some ⟨13,[],none,false⟩⟩,⟨256,.vt,false,none⟩,⟨256,.ff,false,some ⟨14,[],none,false⟩⟩,⟨256,.cr,false,some ⟨15,[],none,false⟩⟩,⟨256,.cr,true,some ⟨16,[],none,false⟩⟩,⟨256,.other,false,some ⟨17,[.comment],none,false⟩⟩,⟨256,.other,false,some ⟨18,[.comment],none,false⟩⟩,⟨256,.other,false,some ⟨19,[.comment],none,false⟩⟩]⟩]
theorem oberon_line_rowsOk : rowsOk oberon_line_nfa [] (oberon_line_cs.map (·.1)) oberon_line_rows = true := by decide +kernel
def oberon_line_D : Dfa oberon_line_M.nfa := ⟨oberon_line_masks, [], oberon_line_cs, oberon_line_rows, oberon_line_masksIn, oberon_line_repOk, oberon_line_rowsOk⟩

def rust_line_nfa : Nfa := ⟨[⟨0,4294967808,[],[(0,.setEnt (.own 0))],0,0⟩,⟨1,140737488355328,[],[],0,0⟩,⟨11,140737488355328,[],[],0,2⟩,⟨22,17179869184,[],[(9,.code)],0,0⟩,⟨34,8192,[],[(14,.setEnt .newline)],0,0⟩,⟨36,1024,[],[(14,.setEnt .newline)],0,0⟩,⟨37,4096,[],[(14,.setEnt .newline)],0,0⟩,⟨38,8192,[.crAlone],[(14,.setEnt .newline)],0,0⟩,⟨39,115792089237316195423570985008687907853269984665640564039457584007908834656767,[],[(15,.setEnt (.own 7))],0,0⟩],[[⟨0,4294967808,[],[(0,.setEnt (.own 0))],0,0⟩],[⟨2,140737488355328,[],[(1,.comment)],0,0⟩],[⟨3,4951760157141521099596496896,[],[],0,0⟩,⟨9,4294967808,[],[],0,0⟩,⟨10,115792089237316195423570985008687907853269984665640564039457584007908834658815,[],[(4,.comment)],0,0⟩],[⟨4,8192,[],[],0,0⟩,⟨6,1024,[],[],0,0⟩,⟨7,4096,[],[],0,0⟩,⟨8,8192,[.crAlone],[],0,0⟩],[⟨5,1024,[],[],0,0⟩],[⟨3,4951760157141521099596496896,[],[(2,.setEnt .internalNl),(3,.cb)],0,0⟩,⟨9,4294967808,[],[(2,.setEnt .internalNl),(3,.cb)],0,0⟩,⟨10,115792089237316195423570985008687907853269984665640564039457584007908834658815,[],[(2,.setEnt .internalNl),(3,.cb),(4,.comment)],0,0⟩],[⟨3,4951760157141521099596496896,[],[(2,.setEnt .internalNl),(3,.cb)],0,0⟩,⟨9,4294967808,[],[(2,.setEnt .internalNl),(3,.cb)],0,0⟩,⟨10,115792089237316195423570985008687907853269984665640564039457584007908834658815,[],[(2,.setEnt .internalNl),(3,.cb),(4,.comment)],0,0⟩],[⟨3,4951760157141521099596496896,[],[(2,.setEnt .internalNl),(3,.cb)],0,0⟩,⟨9,4294967808,[],[(2,.setEnt .internalNl),(3,.cb)],0,0⟩,⟨10,115792089237316195423570985008687907853269984665640564039457584007908834658815,[],[(2,.setEnt .internalNl),(3,.cb),(4,.comment)],0,0⟩],[⟨3,4951760157141521099596496896,[],[(2,.setEnt .internalNl),(3,.cb)],0,0⟩,⟨9,4294967808,[],[(2,.setEnt .internalNl),(3,.cb)],0,0⟩,⟨10,115792089237316195423570985008687907853269984665640564039457584007908834658815,[],[(2,.setEnt .internalNl),(3,.cb),(4,.comment)],0,0⟩],[⟨3,4951760157141521099596496896,[],[],0,0⟩,⟨9,4294967808,[],[],0,0⟩,⟨10,115792089237316195423570985008687907853269984665640564039457584007908834658815,[],[(4,.comment)],0,0⟩],[⟨3,4951760157141521099596496896,[],[],0,0⟩,⟨9,4294967808,[],[],0,0⟩,⟨10,115792089237316195423570985008687907853269984665640564039457584007908834658815,[],[(4,.comment)],0,0⟩],[⟨12,4398046511104,[],[(5,.comment)],0,2⟩],[⟨13,8192,[],[],0,2⟩,⟨15,1024,[],[],0,2⟩,⟨16,4096,[],[],0,2⟩,⟨17,8192,[.crAlone],[],0,2⟩,⟨18,4294967808,[],[],0,2⟩,⟨19,115792089237316195423570985008687907853269984665640564039457584007908834658815,[],[(8,.comment)],0,2⟩,⟨20,4398046511104,[],[],0,2⟩],[⟨14,1024,[],[],0,2⟩],[⟨13,8192,[],[(6,.setEnt .internalNl),(7,.cb)],0,2⟩,⟨15,1024,[],[(6,.setEnt .internalNl),(7,.cb)],0,2⟩,⟨16,4096,[],[(6,.setEnt .internalNl),(7,.cb)],0,2⟩,⟨17,8192,[.crAlone],[(6,.setEnt .internalNl),(7,.cb)],0,2⟩,⟨18,4294967808,[],[(6,.setEnt .internalNl),(7,.cb)],0,2⟩,⟨19,115792089237316195423570985008687907853269984665640564039457584007908834658815,[],[(6,.setEnt .internalNl),(7,.cb),(8,.comment)],0,2⟩,⟨20,4398046511104,[],[(6,.setEnt .internalNl),(7,.cb)],0,2⟩],[⟨13,8192,[],[(6,.setEnt .internalNl),(7,.cb)],0,2⟩,⟨15,1024,[],[(6,.setEnt .internalNl),(7,.cb)],0,2⟩,⟨16,4096,[],[(6,.setEnt .internalNl),(7,.cb)],0,2⟩,⟨17,8192,[.crAlone],[(6,.setEnt .internalNl),(7,.cb)],0,2⟩,⟨18,4294967808,[],[(6,.setEnt .internalNl),(7,.cb)],0,2⟩,⟨19,115792089237316195423570985008687907853269984665640564039457584007908834658815,[],[(6,.setEnt .internalNl),(7,.cb),(8,.comment)],0,2⟩,⟨20,4398046511104,[],[(6,.setEnt .internalNl),(7,.cb)],0,2⟩],[⟨13,8192,[],[(6,.setEnt .internalNl),(7,.cb)],0,2⟩,⟨15,1024,[],[(6,.setEnt .internalNl),(7,.cb)],0,2⟩,⟨16,4096,[],[(6,.setEnt .internalNl),(7,.cb)],0,2⟩,⟨17,8192,[.crAlone],[(6,.setEnt .internalNl),(7,.cb)],0,2⟩,⟨18,4294967808,[],[(6,.setEnt .internalNl),(7,.cb)],0,2⟩,⟨19,115792089237316195423570985008687907853269984665640564039457584007908834658815,[],[(6,.setEnt .internalNl),(7,.cb),(8,.comment)],0,2⟩,⟨20,4398046511104,[],[(6,.setEnt .internalNl),(7,.cb)],0,2⟩],[⟨13,8192,[],[(6,.setEnt .internalNl),(7,.cb)],0,2⟩,⟨15,1024,[],[(6,.setEnt .internalNl),(7,.cb)],0,2⟩,⟨16,4096,[],[(6,.setEnt .internalNl),(7,.cb)],0,2⟩,⟨17,8192,[.crAlone],[(6,.setEnt .internalNl),(7,.cb)],0,2⟩,⟨18,4294967808,[],[(6,.setEnt .internalNl),(7,.cb)],0,2⟩,⟨19,115792089237316195423570985008687907853269984665640564039457584007908834658815,[],[(6,.setEnt .internalNl),(7,.cb),(8,.comment)],0,2⟩,⟨20,4398046511104,[],[(6,.setEnt .internalNl),(7,.cb)],0,2⟩],[⟨13,8192,[],[],0,2⟩,⟨15,1024,[],[],0,2⟩,⟨16,4096,[],[],0,2⟩,⟨17,8192,[.crAlone],[],0,2⟩,⟨18,4294967808,[],[],0,2⟩,⟨19,115792089237316195423570985008687907853269984665640564039457584007908834658815,[],[(8,.comment)],0,2⟩,⟨20,4398046511104,[],[],0,2⟩],[⟨13,8192,[],[],0,2⟩,⟨15,1024,[],[],0,2⟩,⟨16,4096,[],[],0,2⟩,⟨17,8192,[.crAlone],[],0,2⟩,⟨18,4294967808,[],[],0,2⟩,⟨19,115792089237316195423570985008687907853269984665640564039457584007908834658815,[],[(8,.comment)],0,2⟩,⟨20,4398046511104,[],[],0,2⟩],[⟨21,140737488355328,[],[],2,0⟩],[],[⟨23,4951760157141521099596496896,[],[],0,0⟩,⟨29,4294967808,[],[],0,0⟩,⟨30,115792089237316195423570985008687907853269984665635612279300442486792058306047,[],[(12,.code)],0,0⟩,⟨31,4951760157141521099596496896,[],[],0,0⟩,⟨33,17179869184,[],[],0,0⟩],[⟨24,8192,[],[],0,0⟩,⟨26,1024,[],[],0,0⟩,⟨27,4096,[],[],0,0⟩,⟨28,8192,[.crAlone],[],0,0⟩],[⟨25,1024,[],[],0,0⟩],[⟨23,4951760157141521099596496896,[],[(10,.setEnt .internalNl),(11,.cb)],0,0⟩,⟨29,4294967808,[],[(10,.setEnt .internalNl),(11,.cb)],0,0⟩,⟨30,115792089237316195423570985008687907853269984665635612279300442486792058306047,[],[(10,.setEnt .internalNl),(11,.cb),(12,.code)],0,0⟩,⟨31,4951760157141521099596496896,[],[(10,.setEnt .internalNl),(11,.cb)],0,0⟩,⟨33,17179869184,[],[(10,.setEnt .internalNl),(11,.cb)],0,0⟩],[⟨23,4951760157141521099596496896,[],[(10,.setEnt .internalNl),(11,.cb)],0,0⟩,⟨29,4294967808,[],[(10,.setEnt .internalNl),(11,.cb)],0,0⟩,⟨30,115792089237316195423570985008687907853269984665635612279300442486792058306047,[],[(10,.setEnt .internalNl),(11,.cb),(12,.code)],0,0⟩,⟨31,4951760157141521099596496896,[],[(10,.setEnt .internalNl),(11,.cb)],0,0⟩,⟨33,17179869184,[],[(10,.setEnt .internalNl),(11,.cb)],0,0⟩],[⟨23,4951760157141521099596496896,[],[(10,.setEnt .internalNl),(11,.cb)],0,0⟩,⟨29,4294967808,[],[(10,.setEnt .internalNl),(11,.cb)],0,0⟩,⟨30,115792089237316195423570985008687907853269984665635612279300442486792058306047,[],[(10,.setEnt .internalNl),(11,.cb),(12,.code)],0,0⟩,⟨31,4951760157141521099596496896,[],[(10,.setEnt .internalNl),(11,.cb)],0,0⟩,⟨33,17179869184,[],[(10,.setEnt .internalNl),(11,.cb)],0,0⟩],[⟨23,4951760157141521099596496896,[],[(10,.setEnt .internalNl),(11,.cb)],0,0⟩,⟨29,4294967808,[],[(10,.setEnt .internalNl),(11,.cb)],0,0⟩,⟨30,115792089237316195423570985008687907853269984665635612279300442486792058306047,[],[(10,.setEnt .internalNl),(11,.cb),(12,.code)],0,0⟩,⟨31,4951760157141521099596496896,[],[(10,.setEnt .internalNl),(11,.cb)],0,0⟩,⟨33,17179869184,[],[(10,.setEnt .internalNl),(11,.cb)],0,0⟩],[⟨23,4951760157141521099596496896,[],[],0,0⟩,⟨29,4294967808,[],[],0,0⟩,⟨30,115792089237316195423570985008687907853269984665635612279300442486792058306047,[],[(12,.code)],0,0⟩,⟨31,4951760157141521099596496896,[],[],0,0⟩,⟨33,17179869184,[],[],0,0⟩],[⟨23,4951760157141521099596496896,[],[],0,0⟩,⟨29,4294967808,[],[],0,0⟩,⟨30,115792089237316195423570985008687907853269984665635612279300442486792058306047,[],[(12,.code)],0,0⟩,⟨31,4951760157141521099596496896,[],[],0,0⟩,⟨33,17179869184,[],[],0,0⟩],[⟨32,115792089237316195423570985008687907853269984665640564039457584007913129626623,[],[(13,.code)],0,0⟩],[⟨23,4951760157141521099596496896,[],[],0,0⟩,⟨29,4294967808,[],[],0,0⟩,⟨30,115792089237316195423570985008687907853269984665635612279300442486792058306047,[],[(12,.code)],0,0⟩,⟨31,4951760157141521099596496896,[],[],0,0⟩,⟨33,17179869184,[],[],0,0⟩],[],[⟨35,1024,[],[(14,.setEnt .newline)],0,0⟩],[],[],[],[],[]],[some (0,[]),none,some (1,[]),none,none,some (1,[(2,.setEnt .internalNl),(3,.cb)]),some (1,[(2,.setEnt .internalNl),(3,.cb)]),some (1,[(2,.setEnt .internalNl),(3,.cb)]),some (1,[(2,.setEnt .internalNl),(3,.cb)]),some (1,[]),some (1,[]),none,none,none,none,none,none,none,none,none,none,some (1,[]),none,none,none,none,none,none,none,none,none,none,none,some (2,[]),none,some (3,[]),some (3,[]),some (3,[]),some (3,[]),some (4,[])],[1,9,14,15,16]⟩
theorem rust_line_nfa_eq : Rust.rust_line.nfa = rust_line_nfa := by decide +kernel
/-- The machine of `Rust.rust_line`, with its automaton as a literal. -/
def rust_line_M : Machine := ⟨rust_line_nfa, Rust.rust_line.ends, Rust.rust_line.sw⟩
theorem rust_line_M_eq : Rust.rust_line.machine = rust_line_M := by
  unfold Scanner.machine rust_line_M; rw [rust_line_nfa_eq]
def rust_line_masks : List Nat := [4294967808,140737488355328,17179869184,8192,1024,4096,115792089237316195423570985008687907853269984665640564039457584007908834656767,4951760157141521099596496896,115792089237316195423570985008687907853269984665640564039457584007908834658815,4398046511104,115792089237316195423570985008687907853269984665635612279300442486792058306047,115792089237316195423570985008687907853269984665640564039457584007913129626623]
def rust_line_cs : List (Nat × Nat) := [(0,115792089237316195423570985008687907853269984665635612279300442341656523424255),(9,4294967808),(10,1024),(11,2048),(12,4096),(13,8192),(34,17179869184),(42,4398046511104),(47,140737488355328),(92,4951760157141521099596496896)]
theorem rust_line_masksIn : masksIn rust_line_nfa rust_line_masks = true := by decide +kernel
theorem rust_line_repOk : repOk rust_line_masks rust_line_cs = true := by decide +kernel
def rust_line_rows : List Row := [⟨[],none,[],[⟨256,.other,false,some ⟨0,[.setEnt (.own 7)],some 4,true⟩⟩,⟨256,.ws,false,some ⟨1,[.setEnt (.own 0)],some 0,false⟩⟩,⟨256,.lf,false,some ⟨0,[.setEnt .newline],some 3,true⟩⟩,⟨256,.vt,false,none⟩,⟨256,.ff,false,some ⟨0,[.setEnt .newline],some 3,true⟩⟩,⟨256,.cr,false,some ⟨2,[.setEnt .newline],none,false⟩⟩,⟨256,.cr,true,some ⟨3,[.setEnt .newline],some 3,false⟩⟩,⟨256,.other,false,some ⟨4,[.code,.setEnt (.own 7)],some 4,false⟩⟩,⟨256,.other,false,some ⟨5,[.setEnt (.own 7)],some 4,false⟩⟩]⟩,⟨[0],some 0,[],[⟨256,.other,false,none⟩,⟨256,.ws,false,some ⟨1,[.setEnt (.own 0)],some 0,false⟩⟩,⟨256,.lf,false,none⟩,⟨256,.vt,false,none⟩,⟨256,.ff,false,none⟩,⟨256,.cr,false,none⟩,⟨256,.cr,true,none⟩]⟩,⟨[34],none,[],[⟨256,.other,false,none⟩,⟨256,.ws,false,none⟩,⟨256,.lf,false,some ⟨0,[.setEnt .newline],some 3,true⟩⟩,⟨256,.vt,false,none⟩,⟨256,.ff,false,none⟩,⟨256,.cr,false,none⟩,⟨256,.cr,true,none⟩]⟩,⟨[34,38],some 3,[],[⟨256,.other,false,none⟩,⟨256,.ws,false,none⟩,⟨256,.lf,false,some ⟨0,[.setEnt .newline],some 3,true⟩⟩,⟨256,.vt,false,none⟩,⟨256,.ff,false,none⟩,⟨256,.cr,false,none⟩,⟨256,.cr,true,none⟩]⟩,⟨[22,39],some 4,[],[⟨256,.other,false,some ⟨6,[.code],none,false⟩⟩,⟨256,.ws,false,some ⟨7,[],none,false⟩⟩,⟨256,.lf,false,some ⟨6,[.code],none,false⟩⟩,⟨256,.vt,false,some ⟨6,[.code],none,false⟩⟩,⟨256,.ff,false,some ⟨6,[.code],none,false⟩⟩,⟨256,.cr,false,some ⟨6,[.code],none,false⟩⟩,⟨256,.cr,true,some ⟨6,[.code],none,false⟩⟩,⟨256,.other,false,some ⟨0,[],some 2,true⟩⟩,⟨256,.other,false,some ⟨8,[],none,false⟩⟩]⟩,⟨[1,11,39],some 4,[],[⟨256,.other,false,none⟩,⟨256,.ws,false,none⟩,⟨256,.lf,false,none⟩,⟨256,.vt,false,none⟩,⟨256,.ff,false,none⟩,⟨256,.cr,false,none⟩,⟨256,.cr,true,none⟩,⟨256,.other,false,some ⟨9,[.comment],none,false⟩⟩,⟨256,.other,false,some ⟨10,[.comment],some 1,false⟩⟩]⟩,⟨[30],none,[],[⟨256,.other,false,some ⟨6,[.code],none,false⟩⟩,⟨256,.ws,false,some ⟨7,[],none,false⟩⟩,⟨256,.lf,false,some ⟨6,[.code],none,false⟩⟩,⟨256,.vt,false,some ⟨6,[.code],none,false⟩⟩,⟨256,.ff,false,some ⟨6,[.code],none,false⟩⟩,⟨256,.cr,false,some ⟨6,[.code],none,false⟩⟩,⟨256,.cr,true,some ⟨6,[.code],none,false⟩⟩,⟨256,.other,false,some ⟨0,[],some 2,true⟩⟩,⟨256,.other,false,some ⟨8,[],none,false⟩⟩]⟩,⟨[29],none,[],[⟨256,.other,false,some ⟨6,[.code],none,false⟩⟩,⟨256,.ws,false,some ⟨7,[],none,false⟩⟩,⟨256,.lf,false,some ⟨6,[.code],none,false⟩⟩,⟨256,.vt,false,some ⟨6,[.code],none,false⟩⟩,⟨256,.ff,false,some ⟨6,[.code],none,false⟩⟩,⟨256,.cr,false,some ⟨6,[.code],none,false⟩⟩,⟨256,.cr,true,some ⟨6,[.code],none,false⟩⟩,⟨256,.other,false,some ⟨0,[],some 2,true⟩⟩,⟨256,.other,false,some ⟨8,[],none,false⟩⟩]⟩,⟨[23,31],none,[],[⟨256,.other,false,some ⟨11,[.code],none,false⟩⟩,⟨256,.ws,false,some ⟨11,[.code],none,false⟩⟩,⟨256,.lf,false,some ⟨12,[],none,false⟩⟩,⟨256,.vt,false,some ⟨11,[.code],none,false⟩⟩,⟨256,.ff,false,some ⟨13,[],none,false⟩⟩,⟨256,.cr,false,some ⟨14,[],none,false⟩⟩,⟨256,.cr,true,some ⟨15,[],none,false⟩⟩]⟩,⟨[12],none,[],[⟨256,.other,false,some ⟨16,[.comment],none,false⟩⟩,⟨256,.ws,false,some ⟨17,[],none,false⟩⟩,⟨256,.lf,false,some ⟨18,[],none,false⟩⟩,⟨256,.vt,false,some ⟨16,[.comment],none,false⟩⟩,⟨256,.ff,false,some ⟨19,[],none,false⟩⟩,⟨256,.cr,false,some ⟨20,[],none,false⟩⟩,⟨256,.cr,true,some ⟨21,[],none,false⟩⟩,⟨256,.other,false,some ⟨22,[.comment],none,false⟩⟩]⟩,⟨[2],some 1,[],[⟨256,.other,false,some ⟨23,[.comment],some 1,false⟩⟩,⟨256,.ws,false,some ⟨24,[],some 1,false⟩⟩,⟨256,.lf,false,none⟩,⟨256,.vt,false,some ⟨23,[.comment],some 1,false⟩⟩,⟨256,.ff,false,none⟩,⟨256,.cr,false,none⟩,⟨256,.cr,true,none⟩,⟨256,.other,false,some ⟨25,[.comment],some 1,false⟩⟩]⟩,⟨[32],none,[],[⟨256,.other,false,some ⟨6,[.code],none,false⟩⟩,⟨256,.ws,false,some ⟨7,[],none,false⟩⟩,⟨256,.lf,false,some ⟨6,[.code],none,false⟩⟩,⟨256,.vt,false,some ⟨6,[.code],none,false⟩⟩,⟨256,.ff,false,some ⟨6,[.code],none,false⟩⟩,⟨256,.cr,false,some ⟨6,[.code],none,false⟩⟩,⟨256,.cr,true,some ⟨6,[.code],none,false⟩⟩,⟨256,.other,false,some ⟨0,[],some 2,true⟩⟩,⟨256,.other,false,some ⟨8,[],none,false⟩⟩]⟩,⟨[26],none,[],[⟨256,.other,false,some ⟨6,[.setEnt .internalNl,.cb,.code],none,false⟩⟩,⟨256,.ws,false,some ⟨7,[.setEnt .internalNl,.cb],none,false⟩⟩,⟨256,.lf,false,some ⟨6,[.setEnt .internalNl,.cb,.code],none,false⟩⟩,⟨256,.vt,false,some ⟨6,[.setEnt .internalNl,.cb,.code],none,false⟩⟩,⟨256,.ff,false,some ⟨6,[.setEnt .internalNl,.cb,.code],none,false⟩⟩,⟨256,.cr,false,some ⟨6,[.setEnt .internalNl,.cb,.code],none,false⟩⟩,⟨256,.cr,true,some ⟨6,[.setEnt .internalNl,.cb,.code],none,false⟩⟩,⟨256,.other,false,some ⟨0,[.setEnt .internalNl,.cb],some 2,true⟩⟩,⟨256,.other,false,some ⟨8,[.setEnt .internalNl,.cb],none,false⟩⟩]⟩,⟨[27],none,[],[⟨256,.other,false,some ⟨6,[.setEnt .internalNl,.cb,.code],none,false⟩⟩,⟨256,.ws,false,some ⟨7,[.setEnt .internalNl,.cb],none,false⟩⟩,⟨256,.lf,false,some ⟨6,[.setEnt .internalNl,.cb,.code],none,false⟩⟩,⟨256,.vt,false,some ⟨6,[.setEnt .internalNl,.cb,.code],none,false⟩⟩,⟨256,.ff,false,some ⟨6,[.setEnt .internalNl,.cb,.code],none,false⟩⟩,⟨256,.cr,false,some ⟨6,[.setEnt .internalNl,.cb,.code],none,false⟩⟩,⟨256,.cr,true,some ⟨6,[.setEnt .internalNl,.cb,.code],none,false⟩⟩,⟨256,.other,false,some ⟨0,[.setEnt .internalNl,.cb],some 2,true⟩⟩,⟨256,.other,false,some ⟨8,[.setEnt .internalNl,.cb],none,false⟩⟩]⟩,⟨[24],none,[],[⟨256,.other,false,none⟩,⟨256,.ws,false,none⟩,⟨256,.lf,false,some ⟨26,[],none,false⟩⟩,⟨256,.vt,false,none⟩,⟨256,.ff,false,none⟩,⟨256,.cr,false,none⟩,⟨256,.cr,true,none⟩]⟩,⟨[24,28],none,[],[⟨256,.other,false,some ⟨6,[.setEnt .internalNl,.cb,.code],none,false⟩⟩,⟨256,.ws,false,some ⟨7,[.setEnt .internalNl,.cb],none,false⟩⟩,⟨256,.lf,false,some ⟨27,[.setEnt .internalNl,.cb,.code],none,false⟩⟩,⟨256,.vt,false,some ⟨6,[.setEnt .internalNl,.cb,.code],none,false⟩⟩,⟨256,.ff,false,some ⟨6,[.setEnt .internalNl,.cb,.code],none,false⟩⟩,⟨256,.cr,false,some ⟨6,[.setEnt .internalNl,.cb,.code],none,false⟩⟩,⟨256,.cr,true,some ⟨6,[.setEnt .internalNl,.cb,.code],none,false⟩⟩,⟨256,.other,false,some ⟨0,[.setEnt .internalNl,.cb],some 2,true⟩⟩,⟨256,.other,false,some ⟨8,[.setEnt .internalNl,.cb],none,false⟩⟩]⟩,⟨[19],none,[],[⟨256,.other,false,some ⟨16,[.comment],none,false⟩⟩,⟨256,.ws,false,some ⟨17,[],none,false⟩⟩,⟨256,.lf,false,some ⟨18,[],none,false⟩⟩,⟨256,.vt,false,some ⟨16,[.comment],none,false⟩⟩,⟨256,.ff,false,some ⟨19,[],none,false⟩⟩,⟨256,.cr,false,some ⟨20,[],none,false⟩⟩,⟨256,.cr,true,some ⟨21,[],none,false⟩⟩,⟨256,.other,false,some ⟨22,[.comment],none,false⟩⟩]⟩,⟨[18],none,[],[⟨256,.other,false,some ⟨16,[.comment],none,false⟩⟩,⟨256,.ws,false,some ⟨17,[],none,false⟩⟩,⟨256,.lf,false,some ⟨18,[],none,false⟩⟩,⟨256,.vt,false,some ⟨16,[.comment],none,false⟩⟩,⟨256,.ff,false,some ⟨19,[],none,false⟩⟩,⟨256,.cr,false,some ⟨20,[],none,false⟩⟩,⟨256,.cr,true,some ⟨21,[],none,false⟩⟩,⟨256,.other,false,some ⟨22,[.comment],none,false⟩⟩]⟩,⟨[15],none,[],[⟨256,.other,false,some ⟨16,[.setEnt .internalNl,.cb,.comment],none,false⟩⟩,⟨256,.ws,false,some ⟨17,[.setEnt .internalNl,.cb],none,false⟩⟩,⟨256,.lf,false,some ⟨18,[.setEnt .internalNl,.cb],none,false⟩⟩,⟨256,.vt,false,some ⟨16,[.setEnt .internalNl,.cb,.comment],none,false⟩⟩,⟨256,.ff,false,some ⟨19,[.setEnt .internalNl,.cb],none,false⟩⟩,⟨256,.cr,false,some ⟨20,[.setEnt .internalNl,.cb],none,false⟩⟩,⟨256,.cr,true,some ⟨21,[.setEnt .internalNl,.cb],none,false⟩⟩,⟨256,.other,false,some ⟨22,[.setEnt .internalNl,.cb,.comment],none,false⟩⟩]⟩,⟨[16],none,[],[⟨256,.other,false,some ⟨16,[.setEnt .internalNl,.cb,.comment],none,false⟩⟩,⟨256,.ws,false,some ⟨17,[.setEnt .internalNl,.cb],none,false⟩⟩,⟨256,.lf,false,some ⟨18,[.setEnt .internalNl,.cb],none,false⟩⟩,⟨256,.vt,false,some ⟨16,[.setEnt .internalNl,.cb,.comment],none,false⟩⟩,⟨256,.ff,false,some ⟨19,[.setEnt .internalNl,.cb],none,false⟩⟩,⟨256,.cr,false,some ⟨20,[.setEnt .internalNl,.cb],none,false⟩⟩,⟨256,.cr,true,some ⟨21,[.setEnt .internalNl,.cb],none,false⟩⟩,⟨256,.other,false,some ⟨22,[.setEnt .internalNl,.cb,.comment],none,false⟩⟩]⟩,⟨[13],none,[],[⟨256,.other,false,none⟩,⟨256,.ws,false,none⟩,⟨256,.lf,false,some ⟨28,[],none,false⟩⟩,⟨256,.vt,false,none⟩,⟨256,.ff,false,none⟩,⟨256,.cr,false,none⟩,⟨256,.cr,true,none⟩]⟩,⟨[13,17],none,[],[⟨256,.other,false,some ⟨16,[.setEnt .internalNl,.cb,.comment],none,false⟩⟩,⟨256,.ws,false,some ⟨17,[.setEnt .internalNl,.cb],none,false⟩⟩,⟨256,.lf,false,some ⟨29,[.setEnt .internalNl,.cb],none,false⟩⟩,⟨256,.vt,false,some ⟨16,[.setEnt .internalNl,.cb,.comment],none,false⟩⟩,⟨256,.ff,false,some ⟨19,[.setEnt .internalNl,.cb],none,false⟩⟩,⟨256,.cr,false,some ⟨20,[.setEnt .internalNl,.cb],none,false⟩⟩,⟨256,.cr,true,some ⟨21,[.setEnt .internalNl,.cb],none,false⟩⟩,⟨256,.other,false,some ⟨22,[.setEnt .internalNl,.cb,.comment],none,false⟩⟩]⟩,⟨[19,20],none,[],[⟨256,.other,false,some ⟨16,[.comment],none,false⟩⟩,⟨256,.ws,false,some ⟨17,[],none,false⟩⟩,⟨256,.lf,false,some ⟨18,[],none,false⟩⟩,⟨256,.vt,false,some ⟨16,[.comment],none,false⟩⟩,⟨256,.ff,false,some ⟨19,[],none,false⟩⟩,⟨256,.cr,false,some ⟨20,[],none,false⟩⟩,⟨256,.cr,true,some ⟨21,[],none,false⟩⟩,⟨256,.other,false,some ⟨22,[.comment],none,false⟩⟩,⟨256,.other,false,some ⟨0,[],some 1,true⟩⟩]⟩,⟨[10],some 1,[],[⟨256,.other,false,some ⟨23,[.comment],some 1,false⟩⟩,⟨256,.ws,false,some ⟨24,[],some 1,false⟩⟩,⟨256,.lf,false,none⟩,⟨256,.vt,false,some ⟨23,[.comment],some 1,false⟩⟩,⟨256,.ff,false,none⟩,⟨256,.cr,false,none⟩,⟨256,.cr,true,none⟩,⟨256,.other,false,some ⟨25,[.comment],some 1,false⟩⟩]⟩,⟨[9],some 1,[],[⟨256,.other,false,some ⟨23,[.comment],some 1,false⟩⟩,⟨256,.ws,false,some ⟨24,[],some 1,false⟩⟩,⟨256,.lf,false,none⟩,⟨256,.vt,false,some ⟨23,[.comment],some 1,false⟩⟩,⟨256,.ff,false,none⟩,⟨256,.cr,false,none⟩,⟨256,.cr,true,none⟩,⟨256,.other,false,some ⟨25,[.comment],some 1,false⟩⟩]⟩,⟨[3,10],some 1,[],[⟨256,.other,false,some ⟨23,[.comment],some 1,false⟩⟩,⟨256,.ws,false,some ⟨24,[],some 1,false⟩⟩,⟨256,.lf,false,some ⟨30,[],some 1,false⟩⟩,⟨256,.vt,false,some ⟨23,[.comment],some 1,false⟩⟩,⟨256,.ff,false,some ⟨31,[],some 1,false⟩⟩,⟨256,.cr,false,some ⟨32,[],none,false⟩⟩,⟨256,.cr,true,some ⟨33,[],some 1,false⟩⟩,⟨256,.other,false,some ⟨25,[.comment],some 1,false⟩⟩]⟩,⟨[25],none,[],[⟨256,.other,false,some ⟨6,[.setEnt .internalNl,.cb,.code],none,false⟩⟩,⟨256,.ws,false,some ⟨7,[.setEnt .internalNl,.cb],none,false⟩⟩,⟨256,.lf,false,some ⟨6,[.setEnt .internalNl,.cb,.code],none,false⟩⟩,⟨256,.vt,false,some ⟨6,[.setEnt .internalNl,.cb,.code],none,false⟩⟩,⟨256,.ff,false,some ⟨6,[.setEnt .internalNl,.cb,.code],none,false⟩⟩,⟨256,.cr,false,some ⟨6,[.setEnt .internalNl,.cb,.code],none,false⟩⟩,⟨256,.cr,true,some ⟨6,[.setEnt .internalNl,.cb,.code],none,false⟩⟩,⟨256,.other,false,some ⟨0,[.setEnt .internalNl,.cb],some 2,true⟩⟩,⟨256,.other,false,some ⟨8,[.setEnt .internalNl,.cb],none,false⟩⟩]⟩,⟨[25,30],none,[],[⟨256,.other,false,some ⟨6,[.setEnt .internalNl,.cb,.code],none,false⟩⟩,⟨256,.ws,false,some ⟨7,[.setEnt .internalNl,.cb],none,false⟩⟩,⟨256,.lf,false,some ⟨6,[.setEnt .internalNl,.cb,.code],none,false⟩⟩,⟨256,.vt,false,some ⟨6,[.setEnt .internalNl,.cb,.code],none,false⟩⟩,⟨256,.ff,false,some ⟨6,[.setEnt .internalNl,.cb,.code],none,false⟩⟩,⟨256,.cr,false,some ⟨6,[.setEnt .internalNl,.cb,.code],none,false⟩⟩,⟨256,.cr,true,some ⟨6,[.setEnt .internalNl,.cb,.code],none,false⟩⟩,⟨256,.other,false,some ⟨0,[.setEnt .internalNl,.cb],some 2,true⟩⟩,⟨256,.other,false,some ⟨8,[.setEnt .internalNl,.cb],none,false⟩⟩]⟩,⟨[14],none,[],[⟨256,.other,false,some ⟨16,[.setEnt .internalNl,.cb,.comment],none,false⟩⟩,⟨256,.ws,false,some ⟨17,[.setEnt .internalNl,.cb],none,false⟩⟩,⟨256,.lf,false,some ⟨18,[.setEnt .internalNl,.cb],none,false⟩⟩,⟨256,.vt,false,some ⟨16,[.setEnt .internalNl,.cb,.comment],none,false⟩⟩,⟨256,.ff,false,some ⟨19,[.setEnt .internalNl,.cb],none,false⟩⟩,⟨256,.cr,false,some ⟨20,[.setEnt .internalNl,.cb],none,false⟩⟩,⟨256,.cr,true,some ⟨21,[.setEnt .internalNl,.cb],none,false⟩⟩,⟨256,.other,false,some ⟨22,[.setEnt .internalNl,.cb,.comment],none,false⟩⟩]⟩,⟨[14,15],none,[],[⟨256,.other,false,some ⟨16,[.setEnt .internalNl,.cb,.comment],none,false⟩⟩,⟨256,.ws,false,some ⟨17,[.setEnt .internalNl,.cb],none,false⟩⟩,⟨256,.lf,false,some ⟨18,[.setEnt .internalNl,.cb],none,false⟩⟩,⟨256,.vt,false,some ⟨16,[.setEnt .internalNl,.cb,.comment],none,false⟩⟩,⟨256,.ff,false,some ⟨19,[.setEnt .internalNl,.cb],none,false⟩⟩,⟨256,.cr,false,some ⟨20,[.setEnt .internalNl,.cb],none,false⟩⟩,⟨256,.cr,true,some ⟨21,[.setEnt .internalNl,.cb],none,false⟩⟩,⟨256,.other,false,some ⟨22,[.setEnt .internalNl,.cb,.comment],none,false⟩⟩]⟩,⟨[6],some 1,[.setEnt .internalNl,.cb],[⟨256,.other,false,some ⟨23,[.setEnt .internalNl,.cb,.comment],some 1,false⟩⟩,⟨256,.ws,false,some ⟨24,[.setEnt .internalNl,.cb],some 1,false⟩⟩,⟨256,.lf,false,none⟩,⟨256,.vt,false,some ⟨23,[.setEnt .internalNl,.cb,.comment],some 1,false⟩⟩,⟨256,.ff,false,none⟩,⟨256,.cr,false,none⟩,⟨256,.cr,true,none⟩,⟨256,.other,false,some ⟨25,[.setEnt .internalNl,.cb,.comment],some 1,false⟩⟩]⟩,⟨[7],some 1,[.setEnt .internalNl,.cb],[⟨256,.other,false,some ⟨23,[.setEnt .internalNl,.cb,.comment],some 1,false⟩⟩,⟨256,.ws,false,some ⟨24,[.setEnt .internalNl,.cb],some 1,false⟩⟩,⟨256,.lf,false,none⟩,⟨256,.vt,false,some ⟨23,[.setEnt .internalNl,.cb,.comment],some 1,false⟩⟩,⟨256,.ff,false,none⟩,⟨256,.cr,false,none⟩,⟨256,.cr,true,none⟩,⟨256,.other,false,some ⟨25,[.setEnt .internalNl,.cb,.comment],some 1,false⟩⟩]⟩,⟨[4],none,[],[⟨256,.other,false,none⟩,⟨256,.ws,false,none⟩,⟨256,.lf,false,some ⟨34,[],some 1,false⟩⟩,⟨256,.vt,false,none⟩,⟨256,.ff,false,none⟩,⟨256,.cr,false,none⟩,⟨256,.cr,true,none⟩]⟩,⟨[4,8],some 1,[.setEnt .internalNl,.cb],[⟨256,.other,false,some ⟨23,[.setEnt .internalNl,.cb,.comment],some 1,false⟩⟩,⟨256,.ws,false,some ⟨24,[.setEnt .internalNl,.cb],some 1,false⟩⟩,⟨256,.lf,false,some ⟨34,[],some 1,false⟩⟩,⟨256,.vt,false,some ⟨23,[.setEnt .internalNl,.cb,.comment],some 1,false⟩⟩,⟨256,.ff,false,none⟩,⟨256,.cr,false,none⟩,⟨256,.cr,true,none⟩,⟨256,.other,false,some ⟨25,[.setEnt .internalNl,.cb,.comment],some 1,false⟩⟩]⟩,⟨[5],some 1,[.setEnt .internalNl,.cb],[⟨256,.other,false,some ⟨23,[.setEnt .internalNl,.cb,.comment],some 1,false⟩⟩,⟨256,.ws,false,some ⟨24,[.setEnt .internalNl,.cb],some 1,false⟩⟩,⟨256,.lf,false,none⟩,⟨256,.vt,false,some ⟨23,[.setEnt .internalNl,.cb,.comment],some 1,false⟩⟩,⟨256,.ff,false,none⟩,⟨256,.cr,false,none⟩,⟨256,.cr,true,none⟩,⟨256,.other,false,some ⟨25,[.setEnt .internalNl,.cb,.comment],some 1,false⟩⟩]⟩]
theorem rust_line_rowsOk : rowsOk rust_line_nfa [] (rust_line_cs.map (·.1)) rust_line_rows = true := by decide +kernel
def rust_line_D : Dfa rust_line_M.nfa := ⟨rust_line_masks, [], rust_line_cs, rust_line_rows, rust_line_masksIn, rust_line_repOk, rust_line_rowsOk⟩

def scilab_line_nfa : Nfa := ⟨[⟨0,4294967808,[],[(0,.setEnt (.own 0))],0,0⟩,⟨1,140737488355328,[],[],0,0⟩,⟨4,549755813888,[],[(2,.code)],0,0⟩,⟨9,17179869184,[],[(3,.code)],0,0⟩,⟨14,8192,[],[(4,.setEnt .newline)],0,0⟩,⟨16,1024,[],[(4,.setEnt .newline)],0,0⟩,⟨17,4096,[],[(4,.setEnt .newline)],0,0⟩,⟨18,8192,[.crAlone],[(4,.setEnt .newline)],0,0⟩,⟨19,115792089237316195423570985008687907853269984665640564039457584007908834656767,[],[(5,.setEnt (.own 3))],0,0⟩],[[⟨0,4294967808,[],[(0,.setEnt (.own 0))],0,0⟩],[⟨2,140737488355328,[],[(1,.comment)],0,0⟩],[⟨3,115792089237316195423570985008687907853269984665640564039457584007913129626623,[],[],0,0⟩],[⟨3,115792089237316195423570985008687907853269984665640564039457584007913129626623,[],[],0,0⟩],[⟨5,115792089237316195423570985008687907853269984665635612279300442486263777315839,[],[],0,0⟩,⟨6,4951760157141521099596496896,[],[],0,0⟩,⟨8,549755813888,[],[],0,0⟩],[⟨5,115792089237316195423570985008687907853269984665635612279300442486263777315839,[],[],0,0⟩,⟨6,4951760157141521099596496896,[],[],0,0⟩,⟨8,549755813888,[],[],0,0⟩],[⟨7,115792089237316195423570985008687907853269984665640564039457584007913129626623,[],[],0,0⟩],[⟨5,115792089237316195423570985008687907853269984665635612279300442486263777315839,[],[],0,0⟩,⟨6,4951760157141521099596496896,[],[],0,0⟩,⟨8,549755813888,[],[],0,0⟩],[],[⟨10,115792089237316195423570985008687907853269984665635612279300442486796353260543,[],[],0,0⟩,⟨11,4951760157141521099596496896,[],[],0,0⟩,⟨13,17179869184,[],[],0,0⟩],[⟨10,115792089237316195423570985008687907853269984665635612279300442486796353260543,[],[],0,0⟩,⟨11,4951760157141521099596496896,[],[],0,0⟩,⟨13,17179869184,[],[],0,0⟩],[⟨12,115792089237316195423570985008687907853269984665640564039457584007913129626623,[],[],0,0⟩],[⟨10,115792089237316195423570985008687907853269984665635612279300442486796353260543,[],[],0,0⟩,⟨11,4951760157141521099596496896,[],[],0,0⟩,⟨13,17179869184,[],[],0,0⟩],[],[⟨15,1024,[],[(4,.setEnt .newline)],0,0⟩],[],[],[],[],[]],[some (0,[]),none,some (1,[]),some (1,[]),none,none,none,none,some (2,[]),none,none,none,none,some (2,[]),none,some (3,[]),some (3,[]),some (3,[]),some (3,[]),some (4,[])],[1,2,4,5,6]⟩
theorem scilab_line_nfa_eq : Scilab.scilab_line.nfa = scilab_line_nfa := by decide +kernel
/-- The machine of `Scilab.scilab_line`, with its automaton as a literal. -/
def scilab_line_M : Machine := ⟨scilab_line_nfa, Scilab.scilab_line.ends, Scilab.scilab_line.sw⟩
theorem scilab_line_M_eq : Scilab.scilab_line.machine = scilab_line_M := by
  unfold Scanner.machine scilab_line_M; rw [scilab_line_nfa_eq]
def scilab_line_masks : List Nat := [4294967808,140737488355328,549755813888,17179869184,8192,1024,4096,115792089237316195423570985008687907853269984665640564039457584007908834656767,115792089237316195423570985008687907853269984665640564039457584007913129626623,115792089237316195423570985008687907853269984665635612279300442486263777315839,4951760157141521099596496896,115792089237316195423570985008687907853269984665635612279300442486796353260543]
def scilab_line_cs : List (Nat × Nat) := [(0,115792089237316195423570985008687907853269984665635612279300442345504814121471),(9,4294967808),(10,1024),(11,2048),(12,4096),(13,8192),(34,17179869184),(39,549755813888),(47,140737488355328),(92,4951760157141521099596496896)]
theorem scilab_line_masksIn : masksIn scilab_line_nfa scilab_line_masks = true := by decide +kernel
theorem scilab_line_repOk : repOk scilab_line_masks scilab_line_cs = true := by decide +kernel
def scilab_line_rows : List Row := [⟨[],none,[],[⟨256,.other,false,some ⟨0,[.setEnt (.own 3)],some 4,true⟩⟩,⟨256,.ws,false,some ⟨1,[.setEnt (.own 0)],some 0,false⟩⟩,⟨256,.lf,false,some ⟨0,[.setEnt .newline],some 3,true⟩⟩,⟨256,.vt,false,none⟩,⟨256,.ff,false,some ⟨0,[.setEnt .newline],some 3,true⟩⟩,⟨256,.cr,false,some ⟨2,[.setEnt .newline],none,false⟩⟩,⟨256,.cr,true,some ⟨3,[.setEnt .newline],some 3,false⟩⟩,⟨256,.other,false,some ⟨4,[.code,.setEnt (.own 3)],some 4,false⟩⟩,⟨256,.other,false,some ⟨5,[.code,.setEnt (.own 3)],some 4,false⟩⟩,⟨256,.other,false,some ⟨6,[.setEnt (.own 3)],some 4,false⟩⟩]⟩,⟨[0],some 0,[],[⟨256,.other,false,none⟩,⟨256,.ws,false,some ⟨1,[.setEnt (.own 0)],some 0,false⟩⟩,⟨256,.lf,false,none⟩,⟨256,.vt,false,none⟩,⟨256,.ff,false,none⟩,⟨256,.cr,false,none⟩,⟨256,.cr,true,none⟩]⟩,⟨[14],none,[],[⟨256,.other,false,none⟩,⟨256,.ws,false,none⟩,⟨256,.lf,false,some ⟨0,[.setEnt .newline],some 3,true⟩⟩,⟨256,.vt,false,none⟩,⟨256,.ff,false,none⟩,⟨256,.cr,false,none⟩,⟨256,.cr,true,none⟩]⟩,⟨[14,18],some 3,[],[⟨256,.other,false,none⟩,⟨256,.ws,false,none⟩,⟨256,.lf,false,some ⟨0,[.setEnt .newline],some 3,true⟩⟩,⟨256,.vt,false,none⟩,⟨256,.ff,false,none⟩,⟨256,.cr,false,none⟩,⟨256,.cr,true,none⟩]⟩,⟨[9,19],some 4,[],[⟨256,.other,false,some ⟨7,[],none,false⟩⟩,⟨256,.ws,false,some ⟨7,[],none,false⟩⟩,⟨256,.lf,false,none⟩,⟨256,.vt,false,some ⟨7,[],none,false⟩⟩,⟨256,.ff,false,none⟩,⟨256,.cr,false,none⟩,⟨256,.cr,true,none⟩,⟨256,.other,false,some ⟨0,[],some 2,true⟩⟩,⟨256,.other,false,some ⟨8,[],none,false⟩⟩]⟩,⟨[4,19],some 4,[],[⟨256,.other,false,some ⟨9,[],none,false⟩⟩,⟨256,.ws,false,some ⟨9,[],none,false⟩⟩,⟨256,.lf,false,none⟩,⟨256,.vt,false,some ⟨9,[],none,false⟩⟩,⟨256,.ff,false,none⟩,⟨256,.cr,false,none⟩,⟨256,.cr,true,none⟩,⟨256,.other,false,some ⟨0,[],some 2,true⟩⟩,⟨256,.other,false,some ⟨10,[],none,false⟩⟩]⟩,⟨[1,19],some 4,[],[⟨256,.other,false,none⟩,⟨256,.ws,false,none⟩,⟨256,.lf,false,none⟩,⟨256,.vt,false,none⟩,⟨256,.ff,false,none⟩,⟨256,.cr,false,none⟩,⟨256,.cr,true,none⟩,⟨256,.other,false,some ⟨11,[.comment],some 1,false⟩⟩]⟩,⟨[10],none,[],[⟨256,.other,false,some ⟨7,[],none,false⟩⟩,⟨256,.ws,false,some ⟨7,[],none,false⟩⟩,⟨256,.lf,false,none⟩,⟨256,.vt,false,some ⟨7,[],none,false⟩⟩,⟨256,.ff,false,none⟩,⟨256,.cr,false,none⟩,⟨256,.cr,true,none⟩,⟨256,.other,false,some ⟨0,[],some 2,true⟩⟩,⟨256,.other,false,some ⟨8,[],none,false⟩⟩]⟩,⟨[11],none,[],[⟨256,.other,false,some ⟨12,[],none,false⟩⟩,⟨256,.ws,false,some ⟨12,[],none,false⟩⟩,⟨256,.lf,false,none⟩,⟨256,.vt,false,some ⟨12,[],none,false⟩⟩,⟨256,.ff,false,none⟩,⟨256,.cr,false,none⟩,⟨256,.cr,true,none⟩]⟩,⟨[5],none,[],[⟨256,.other,false,some ⟨9,[],none,false⟩⟩,⟨256,.ws,false,some ⟨9,[],none,false⟩⟩,⟨256,.lf,false,none⟩,⟨256,.vt,false,some ⟨9,[],none,false⟩⟩,⟨256,.ff,false,none⟩,⟨256,.cr,false,none⟩,⟨256,.cr,true,none⟩,⟨256,.other,false,some ⟨0,[],some 2,true⟩⟩,⟨256,.other,false,some ⟨10,[],none,false⟩⟩]⟩,⟨[6],none,[],[⟨256,.other,false,some ⟨13,[],none,false⟩⟩,⟨256,.ws,false,some ⟨13,[],none,false⟩⟩,⟨256,.lf,false,none⟩,⟨256,.vt,false,some ⟨13,[],none,false⟩⟩,⟨256,.ff,false,none⟩,⟨256,.cr,false,none⟩,⟨256,.cr,true,none⟩]⟩,⟨[2],some 1,[],[⟨256,.other,false,some ⟨14,[],some 1,false⟩⟩,⟨256,.ws,false,some ⟨14,[],some 1,false⟩⟩,⟨256,.lf,false,none⟩,⟨256,.vt,false,some ⟨14,[],some 1,false⟩⟩,⟨256,.ff,false,none⟩,⟨256,.cr,false,none⟩,⟨256,.cr,true,none⟩]⟩,⟨[12],none,[],[⟨256,.other,false,some ⟨7,[],none,false⟩⟩,⟨256,.ws,false,some ⟨7,[],none,false⟩⟩,⟨256,.lf,false,none⟩,⟨256,.vt,false,some ⟨7,[],none,false⟩⟩,⟨256,.ff,false,none⟩,⟨256,.cr,false,none⟩,⟨256,.cr,true,none⟩,⟨256,.other,false,some ⟨0,[],some 2,true⟩⟩,⟨256,.other,false,some ⟨8,[],none,false⟩⟩]⟩,⟨[7],none,[],[⟨256,.other,false,some ⟨9,[],none,false⟩⟩,⟨256,.ws,false,some ⟨9,[],none,false⟩⟩,⟨256,.lf,false,none⟩,⟨256,.vt,false,some ⟨9,[],none,false⟩⟩,⟨256,.ff,false,none⟩,⟨256,.cr,false,none⟩,⟨256,.cr,true,none⟩,⟨256,.other,false,some ⟨0,[],some 2,true⟩⟩,⟨256,.other,false,some ⟨10,[],none,false⟩⟩]⟩,⟨[3],some 1,[],[⟨256,.other,false,some ⟨14,[],some 1,false⟩⟩,⟨256,.ws,false,some ⟨14,[],some 1,false⟩⟩,⟨256,.lf,false,none⟩,⟨256,.vt,false,some ⟨14,[],some 1,false⟩⟩,⟨256,.ff,false,none⟩,⟨256,.cr,false,none⟩,⟨256,.cr,true,none⟩]⟩]
theorem scilab_line_rowsOk : rowsOk scilab_line_nfa [] (scilab_line_cs.map (·.1)) scilab_line_rows = true := by decide +kernel
def scilab_line_D : Dfa scilab_line_M.nfa := ⟨scilab_line_masks, [], scilab_line_cs, scilab_line_rows, scilab_line_masksIn, scilab_line_repOk, scilab_line_rowsOk⟩

def sb_line_nfa : Nfa := ⟨[⟨0,4294967808,[],[(0,.setEnt (.own 0))],0,0⟩,⟨1,549755813888,[],[(1,.comment)],0,0⟩,⟨2,20769187438975013792580502015705088,[],[],0,0⟩,⟨6,17179869184,[],[(2,.code)],0,0⟩,⟨11,8192,[],[(3,.setEnt .newline)],0,0⟩,⟨13,1024,[],[(3,.setEnt .newline)],0,0⟩,⟨14,4096,[],[(3,.setEnt .newline)],0,0⟩,⟨15,8192,[.crAlone],[(3,.setEnt .newline)],0,0⟩,⟨16,115792089237316195423570985008687907853269984665640564039457584007908834656767,[],[(4,.setEnt (.own 3))],0,0⟩],[[⟨0,4294967808,[],[(0,.setEnt (.own 0))],0,0⟩],[⟨5,115792089237316195423570985008687907853269984665640564039457584007913129626623,[],[],0,0⟩],[⟨3,2535301201046754613352112062464,[],[],0,0⟩],[⟨4,649037107467969181018140687990784,[],[(1,.comment)],0,0⟩],[⟨5,115792089237316195423570985008687907853269984665640564039457584007913129626623,[],[],0,0⟩],[⟨5,115792089237316195423570985008687907853269984665640564039457584007913129626623,[],[],0,0⟩],[⟨7,115792089237316195423570985008687907853269984665635612279300442486796353260543,[],[],0,0⟩,⟨8,4951760157141521099596496896,[],[],0,0⟩,⟨10,17179869184,[],[],0,0⟩],[⟨7,115792089237316195423570985008687907853269984665635612279300442486796353260543,[],[],0,0⟩,⟨8,4951760157141521099596496896,[],[],0,0⟩,⟨10,17179869184,[],[],0,0⟩],[⟨9,115792089237316195423570985008687907853269984665640564039457584007913129626623,[],[],0,0⟩],[⟨7,115792089237316195423570985008687907853269984665635612279300442486796353260543,[],[],0,0⟩,⟨8,4951760157141521099596496896,[],[],0,0⟩,⟨10,17179869184,[],[],0,0⟩],[],[⟨12,1024,[],[(3,.setEnt .newline)],0,0⟩],[],[],[],[],[]],[some (0,[]),some (1,[]),none,none,some (1,[]),some (1,[]),none,none,none,none,some (2,[]),none,some (3,[]),some (3,[]),some (3,[]),some (3,[]),some (4,[])],[1,2,3,4,5]⟩
theorem sb_line_nfa_eq : StructuredBasic.sb_line.nfa = sb_line_nfa := by decide +kernel
/-- The machine of `StructuredBasic.sb_line`, with its automaton as a literal. -/
def sb_line_M : Machine := ⟨sb_line_nfa, StructuredBasic.sb_line.ends, StructuredBasic.sb_line.sw⟩
theorem sb_line_M_eq : StructuredBasic.sb_line.machine = sb_line_M := by
  unfold Scanner.machine sb_line_M; rw [sb_line_nfa_eq]
def sb_line_masks : List Nat := [4294967808,549755813888,20769187438975013792580502015705088,17179869184,8192,1024,4096,115792089237316195423570985008687907853269984665640564039457584007908834656767,115792089237316195423570985008687907853269984665640564039457584007913129626623,2535301201046754613352112062464,649037107467969181018140687990784,115792089237316195423570985008687907853269984665635612279300442486796353260543,4951760157141521099596496896]
def sb_line_cs : List (Nat × Nat) := [(0,115792089237316195423570985008687907853269963244875764635270714274247486718463),(9,4294967808),(10,1024),(11,2048),(12,4096),(13,8192),(34,17179869184),(39,549755813888),(69,2535301201046754613352112062464),(77,649037107467969181018140687990784),(82,20769187438975013792580502015705088),(92,4951760157141521099596496896)]
theorem sb_line_masksIn : masksIn sb_line_nfa sb_line_masks = true := by decide +kernel
theorem sb_line_repOk : repOk sb_line_masks sb_line_cs = true := by decide +kernel
def sb_line_rows : List Row := [⟨[],none,[],[⟨256,.other,false,some ⟨0,[.setEnt (.own 3)],some 4,true⟩⟩,⟨256,.ws,false,some ⟨1,[.setEnt (.own 0)],some 0,false⟩⟩,⟨256,.lf,false,some ⟨0,[.setEnt .newline],some 3,true⟩⟩,⟨256,.vt,false,none⟩,⟨256,.ff,false,some ⟨0,[.setEnt .newline],some 3,true⟩⟩,⟨256,.cr,false,some ⟨2,[.setEnt .newline],none,false⟩⟩,⟨256,.cr,true,some ⟨3,[.setEnt .newline],some 3,false⟩⟩,⟨256,.other,false,some ⟨4,[.code,.setEnt (.own 3)],some 4,false⟩⟩,⟨256,.other,false,some ⟨5,[.comment,.setEnt (.own 3)],some 1,false⟩⟩,⟨256,.other,false,some ⟨6,[.setEnt (.own 3)],some 4,false⟩⟩]⟩,⟨[0],some 0,[],[⟨256,.other,false,none⟩,⟨256,.ws,false,some ⟨1,[.setEnt (.own 0)],some 0,false⟩⟩,⟨256,.lf,false,none⟩,⟨256,.vt,false,none⟩,⟨256,.ff,false,none⟩,⟨256,.cr,false,none⟩,⟨256,.cr,true,none⟩]⟩,⟨[11],none,[],[⟨256,.other,false,none⟩,⟨256,.ws,false,none⟩,⟨256,.lf,false,some ⟨0,[.setEnt .newline],some 3,true⟩⟩,⟨256,.vt,false,none⟩,⟨256,.ff,false,none⟩,⟨256,.cr,false,none⟩,⟨256,.cr,true,none⟩]⟩,⟨[11,15],some 3,[],[⟨256,.other,false,none⟩,⟨256,.ws,false,none⟩,⟨256,.lf,false,some ⟨0,[.setEnt .newline],some 3,true⟩⟩,⟨256,.vt,false,none⟩,⟨256,.ff,false,none⟩,⟨256,.cr,false,none⟩,⟨256,.cr,true,none⟩]⟩,⟨[6,16],some 4,[],[⟨256,.other,false,some ⟨7,[],none,false⟩⟩,⟨256,.ws,false,some ⟨7,[],none,false⟩⟩,⟨256,.lf,false,none⟩,⟨256,.vt,false,some ⟨7,[],none,false⟩⟩,⟨256,.ff,false,none⟩,⟨256,.cr,false,none⟩,⟨256,.cr,true,none⟩,⟨256,.other,false,some ⟨0,[],some 2,true⟩⟩,⟨256,.other,false,some ⟨8,[],none,false⟩⟩]⟩,⟨[1,16],some 1,[],[⟨256,.other,false,some ⟨9,[],some 1,false⟩⟩,⟨256,.ws,false,some ⟨9,[],some 1,false⟩⟩,⟨256,.lf,false,none⟩,⟨256,.vt,false,some ⟨9,[],some 1,false⟩⟩,⟨256,.ff,false,none⟩,⟨256,.cr,false,none⟩,⟨256,.cr,true,none⟩]⟩,⟨[2,16],some 4,[],[⟨256,.other,false,none⟩,⟨256,.ws,false,none⟩,⟨256,.lf,false,none⟩,⟨256,.vt,false,none⟩,⟨256,.ff,false,none⟩,⟨256,.cr,false,none⟩,⟨256,.cr,true,none⟩,⟨256,.other,false,some ⟨10,[],none,false⟩⟩]⟩,⟨[7],none,[],[⟨256,.other,false,some ⟨7,[],none,false⟩⟩,⟨256,.ws,false,some ⟨7,[],none,false⟩⟩,⟨256,.lf,false,none⟩,⟨256,.vt,false,some ⟨7,[],none,false⟩⟩,⟨256,.ff,false,none⟩,⟨256,.cr,false,none⟩,⟨256,.cr,true,none⟩,⟨256,.other,false,some ⟨0,[],some 2,true⟩⟩,⟨256,.other,false,some ⟨8,[],none,false⟩⟩]⟩,⟨[8],none,[],[⟨256,.other,false,some ⟨11,[],none,false⟩⟩,⟨256,.ws,false,some ⟨11,[],none,false⟩⟩,⟨256,.lf,false,none⟩,⟨256,.vt,false,some ⟨11,[],none,false⟩⟩,⟨256,.ff,false,none⟩,⟨256,.cr,false,none⟩,⟨256,.cr,true,none⟩]⟩,⟨[5],some 1,[],[⟨256,.other,false,some ⟨9,[],some 1,false⟩⟩,⟨256,.ws,false,some ⟨9,[],some 1,false⟩⟩,⟨256,.lf,false,none⟩,⟨256,.vt,false,some ⟨9,[],some 1,false⟩⟩,⟨256,.ff,false,none⟩,⟨256,.cr,false,none⟩,⟨256,.cr,true,none⟩]⟩,⟨[3],none,[],[⟨256,.other,false,none⟩,⟨256,.ws,false,none⟩,⟨256,.lf,false,none⟩,⟨256,.vt,false,none⟩,⟨256,.ff,false,none⟩,⟨256,.cr,false,none⟩,⟨256,.cr,true,none⟩,⟨256,.other,false,some ⟨12,[.comment],some 1,false⟩⟩]⟩,⟨[9],none,[],[⟨256,.other,false,some ⟨7,[],none,false⟩⟩,⟨256,.ws,false,some ⟨7,[],none,false⟩⟩,⟨256,.lf,false,none⟩,⟨256,.vt,false,some ⟨7,[],none,false⟩⟩,⟨256,.ff,false,none⟩,⟨256,.cr,false,none⟩,⟨256,.cr,true,none⟩,⟨256,.other,false,some ⟨0,[],some 2,true⟩⟩,⟨256,.other,false,some ⟨8,[],none,false⟩⟩]⟩,⟨[4],some 1,[],[⟨256,.other,false,some ⟨9,[],some 1,false⟩⟩,⟨256,.ws,false,some ⟨9,[],some 1,false⟩⟩,⟨256,.lf,false,none⟩,⟨256,.vt,false,some ⟨9,[],some 1,false⟩⟩,⟨256,.ff,false,none⟩,⟨256,.cr,false,none⟩,⟨256,.cr,true,none⟩]⟩]
theorem sb_line_rowsOk : rowsOk sb_line_nfa [] (sb_line_cs.map (·.1)) sb_line_rows = true := by decide +kernel
def sb_line_D : Dfa sb_line_M.nfa := ⟨sb_line_masks, [], sb_line_cs, sb_line_rows, sb_line_masksIn, sb_line_repOk, sb_line_rowsOk⟩

def tex_dtx_line_nfa : Nfa := ⟨[⟨0,4294967808,[],[(0,.setEnt (.own 0))],0,0⟩,⟨1,137438953472,[],[],0,0⟩,⟨4,8192,[],[(2,.setEnt .newline)],0,0⟩,⟨6,1024,[],[(2,.setEnt .newline)],0,0⟩,⟨7,4096,[],[(2,.setEnt .newline)],0,0⟩,⟨8,8192,[.crAlone],[(2,.setEnt .newline)],0,0⟩,⟨9,115792089237316195423570985008687907853269984665640564039457584007908834656767,[],[(3,.setEnt (.own 3))],0,0⟩],[[⟨0,4294967808,[],[(0,.setEnt (.own 0))],0,0⟩],[⟨2,137438953472,[],[(1,.comment)],0,0⟩],[⟨3,115792089237316195423570985008687907853269984665640564039457584007913129626623,[],[],0,0⟩],[⟨3,115792089237316195423570985008687907853269984665640564039457584007913129626623,[],[],0,0⟩],[⟨5,1024,[],[(2,.setEnt .newline)],0,0⟩],[],[],[],[],[]],[some (0,[]),none,some (1,[]),some (1,[]),none,some (2,[]),some (2,[]),some (2,[]),some (2,[]),some (3,[])],[1,2,3,4]⟩
theorem tex_dtx_line_nfa_eq : TexDtx.tex_dtx_line.nfa = tex_dtx_line_nfa := by decide +kernel
/-- The machine of `TexDtx.tex_dtx_line`, with its automaton as a literal. -/
def tex_dtx_line_M : Machine := ⟨tex_dtx_line_nfa, TexDtx.tex_dtx_line.ends, TexDtx.tex_dtx_line.sw⟩
theorem tex_dtx_line_M_eq : TexDtx.tex_dtx_line.machine = tex_dtx_line_M := by
  unfold Scanner.machine tex_dtx_line_M; rw [tex_dtx_line_nfa_eq]
def tex_dtx_line_masks : List Nat := [4294967808,137438953472,8192,1024,4096,115792089237316195423570985008687907853269984665640564039457584007908834656767,115792089237316195423570985008687907853269984665640564039457584007913129626623]
def tex_dtx_line_cs : List (Nat × Nat) := [(0,115792089237316195423570985008687907853269984665640564039457584007771395703295),(9,4294967808),(10,1024),(11,2048),(12,4096),(13,8192),(37,137438953472)]
theorem tex_dtx_line_masksIn : masksIn tex_dtx_line_nfa tex_dtx_line_masks = true := by decide +kernel
theorem tex_dtx_line_repOk : repOk tex_dtx_line_masks tex_dtx_line_cs = true := by decide +kernel
def tex_dtx_line_rows : List Row := [⟨[],none,[],[⟨256,.other,false,some ⟨0,[.setEnt (.own 3)],some 3,true⟩⟩,⟨256,.ws,false,some ⟨1,[.setEnt (.own 0)],some 0,false⟩⟩,⟨256,.lf,false,some ⟨0,[.setEnt .newline],some 2,true⟩⟩,⟨256,.vt,false,none⟩,⟨256,.ff,false,some ⟨0,[.setEnt .newline],some 2,true⟩⟩,⟨256,.cr,false,some ⟨2,[.setEnt .newline],none,false⟩⟩,⟨256,.cr,true,some ⟨3,[.setEnt .newline],some 2,false⟩⟩,⟨256,.other,false,some ⟨4,[.setEnt (.own 3)],some 3,false⟩⟩]⟩,⟨[0],some 0,[],[⟨256,.other,false,none⟩,⟨256,.ws,false,some ⟨1,[.setEnt (.own 0)],some 0,false⟩⟩,⟨256,.lf,false,none⟩,⟨256,.vt,false,none⟩,⟨256,.ff,false,none⟩,⟨256,.cr,false,none⟩,⟨256,.cr,true,none⟩]⟩,⟨[4],none,[],[⟨256,.other,false,none⟩,⟨256,.ws,false,none⟩,⟨256,.lf,false,some ⟨0,[.setEnt .newline],some 2,true⟩⟩,⟨256,.vt,false,none⟩,⟨256,.ff,false,none⟩,⟨256,.cr,false,none⟩,⟨256,.cr,true,none⟩]⟩,⟨[4,8],some 2,[],[⟨256,.other,false,none⟩,⟨256,.ws,false,none⟩,⟨256,.lf,false,some ⟨0,[.setEnt .newline],some 2,true⟩⟩,⟨256,.vt,false,none⟩,⟨256,.ff,false,none⟩,⟨256,.cr,false,none⟩,⟨256,.cr,true,none⟩]⟩,⟨[1,9],some 3,[],[⟨256,.other,false,none⟩,⟨256,.ws,false,none⟩,⟨256,.lf,false,none⟩,⟨256,.vt,false,none⟩,⟨256,.ff,false,none⟩,⟨256,.cr,false,none⟩,⟨256,.cr,true,none⟩,⟨256,.other,false,some ⟨5,[.comment],some 1,false⟩⟩]⟩,⟨[2],some 1,[],[⟨256,.other,false,some ⟨6,[],some 1,false⟩⟩,⟨256,.ws,false,some ⟨6,[],some 1,false⟩⟩,⟨256,.lf,false,none⟩,⟨256,.vt,false,some ⟨6,[],some 1,false⟩⟩,⟨256,.ff,false,none⟩,⟨256,.cr,false,none⟩,⟨256,.cr,true,none⟩]⟩,⟨[3],some 1,[],[⟨256,.other,false,some ⟨6,[],some 1,false⟩⟩,⟨256,.ws,false,some ⟨6,[],some 1,false⟩⟩,⟨256,.lf,false,none⟩,⟨256,.vt,false,some ⟨6,[],some 1,false⟩⟩,⟨256,.ff,false,none⟩,⟨256,.cr,false,none⟩,⟨256,.cr,true,none⟩]⟩]
theorem tex_dtx_line_rowsOk : rowsOk tex_dtx_line_nfa [] (tex_dtx_line_cs.map (·.1)) tex_dtx_line_rows = true := by decide +kernel
def tex_dtx_line_D : Dfa tex_dtx_line_M.nfa := ⟨tex_dtx_line_masks, [], tex_dtx_line_cs, tex_dtx_line_rows, tex_dtx_line_masksIn, tex_dtx_line_repOk, tex_dtx_line_rowsOk⟩

def xaml_line_nfa : Nfa := ⟨[⟨0,4294967808,[],[(0,.setEnt (.own 0))],0,0⟩,⟨1,1152921504606846976,[],[],0,2⟩,⟨15,549755813888,[],[],0,0⟩,⟨18,17179869184,[],[],0,0⟩,⟨21,1152921504606846976,[],[],0,4⟩,⟨40,8192,[],[(11,.setEnt .newline)],0,0⟩,⟨42,1024,[],[(11,.setEnt .newline)],0,0⟩,⟨43,4096,[],[(11,.setEnt .newline)],0,0⟩,⟨44,8192,[.crAlone],[(11,.setEnt .newline)],0,0⟩,⟨45,115792089237316195423570985008687907853269984665640564039457584007908834656767,[],[(12,.setEnt (.own 5))],0,0⟩],[[⟨0,4294967808,[],[(0,.setEnt (.own 0))],0,0⟩],[⟨2,8589934592,[],[],0,2⟩],[⟨3,35184372088832,[],[],0,2⟩],[⟨4,35184372088832,[],[(1,.comment)],0,2⟩],[⟨5,8192,[],[],0,2⟩,⟨7,1024,[],[],0,2⟩,⟨8,4096,[],[],0,2⟩,⟨9,8192,[.crAlone],[],0,2⟩,⟨10,4294967808,[],[],0,2⟩,⟨11,115792089237316195423570985008687907853269984665640564039457584007908834658815,[],[(4,.comment)],0,2⟩,⟨12,35184372088832,[],[],0,2⟩],[⟨6,1024,[],[],0,2⟩],[⟨5,8192,[],[(2,.setEnt .internalNl),(3,.cb)],0,2⟩,⟨7,1024,[],[(2,.setEnt .internalNl),(3,.cb)],0,2⟩,⟨8,4096,[],[(2,.setEnt .internalNl),(3,.cb)],0,2⟩,⟨9,8192,[.crAlone],[(2,.setEnt .internalNl),(3,.cb)],0,2⟩,⟨10,4294967808,[],[(2,.setEnt .internalNl),(3,.cb)],0,2⟩,⟨11,115792089237316195423570985008687907853269984665640564039457584007908834658815,[],[(2,.setEnt .internalNl),(3,.cb),(4,.comment)],0,2⟩,⟨12,35184372088832,[],[(2,.setEnt .internalNl),(3,.cb)],0,2⟩],[⟨5,8192,[],[(2,.setEnt .internalNl),(3,.cb)],0,2⟩,⟨7,1024,[],[(2,.setEnt .internalNl),(3,.cb)],0,2⟩,⟨8,4096,[],[(2,.setEnt .internalNl),(3,.cb)],0,2⟩,⟨9,8192,[.crAlone],[(2,.setEnt .internalNl),(3,.cb)],0,2⟩,⟨10,4294967808,[],[(2,.setEnt .internalNl),(3,.cb)],0,2⟩,⟨11,115792089237316195423570985008687907853269984665640564039457584007908834658815,[],[(2,.setEnt .internalNl),(3,.cb),(4,.comment)],0,2⟩,⟨12,35184372088832,[],[(2,.setEnt .internalNl),(3,.cb)],0,2⟩],[⟨5,8192,[],[(2,.setEnt .internalNl),(3,.cb)],0,2⟩,⟨7,1024,[],[(2,.setEnt .internalNl),(3,.cb)],0,2⟩,⟨8,4096,[],[(2,.setEnt .internalNl),(3,.cb)],0,2⟩,⟨9,8192,[.crAlone],[(2,.setEnt .internalNl),(3,.cb)],0,2⟩,⟨10,4294967808,[],[(2,.setEnt .internalNl),(3,.cb)],0,2⟩,⟨11,115792089237316195423570985008687907853269984665640564039457584007908834658815,[],[(2,.setEnt .internalNl),(3,.cb),(4,.comment)],0,2⟩,⟨12,35184372088832,[],[(2,.setEnt .internalNl),(3,.cb)],0,2⟩],[⟨5,8192,[],[(2,.setEnt .internalNl),(3,.cb)],0,2⟩,⟨7,1024,[],[(2,.setEnt .internalNl),(3,.cb)],0,2⟩,⟨8,4096,[],[(2,.setEnt .internalNl),(3,.cb)],0,2⟩,⟨9,8192,[.crAlone],[(2,.setEnt .internalNl),(3,.cb)],0,2⟩,⟨10,4294967808,[],[(2,.setEnt .internalNl),(3,.cb)],0,2⟩,⟨11,115792089237316195423570985008687907853269984665640564039457584007908834658815,[],[(2,.setEnt .internalNl),(3,.cb),(4,.comment)],0,2⟩,⟨12,35184372088832,[],[(2,.setEnt .internalNl),(3,.cb)],0,2⟩],[⟨5,8192,[],[],0,2⟩,⟨7,1024,[],[],0,2⟩,⟨8,4096,[],[],0,2⟩,⟨9,8192,[.crAlone],[],0,2⟩,⟨10,4294967808,[],[],0,2⟩,⟨11,115792089237316195423570985008687907853269984665640564039457584007908834658815,[],[(4,.comment)],0,2⟩,⟨12,35184372088832,[],[],0,2⟩],[⟨5,8192,[],[],0,2⟩,⟨7,1024,[],[],0,2⟩,⟨8,4096,[],[],0,2⟩,⟨9,8192,[.crAlone],[],0,2⟩,⟨10,4294967808,[],[],0,2⟩,⟨11,115792089237316195423570985008687907853269984665640564039457584007908834658815,[],[(4,.comment)],0,2⟩,⟨12,35184372088832,[],[],0,2⟩],[⟨13,35184372088832,[],[],0,0⟩],[⟨14,4611686018427387904,[],[],2,0⟩],[],[⟨16,115792089237316195423570985008687907853269984665640564039457584007363373812735,[],[],0,0⟩,⟨17,549755813888,[],[(5,.code)],0,0⟩],[⟨16,115792089237316195423570985008687907853269984665640564039457584007363373812735,[],[],0,0⟩,⟨17,549755813888,[],[(5,.code)],0,0⟩],[],[⟨19,115792089237316195423570985008687907853269984665640564039457584007895949757439,[],[],0,0⟩,⟨20,17179869184,[],[(6,.code)],0,0⟩],[⟨19,115792089237316195423570985008687907853269984665640564039457584007895949757439,[],[],0,0⟩,⟨20,17179869184,[],[(6,.code)],0,0⟩],[],[⟨22,8589934592,[],[],0,4⟩],[⟨23,2475880078570760549798248448,[],[],0,4⟩],[⟨24,147573952589676412928,[],[],0,4⟩],[⟨25,295147905179352825856,[],[],0,4⟩],[⟨26,36893488147419103232,[],[],0,4⟩],[⟨27,19342813113834066795298816,[],[],0,4⟩],[⟨28,36893488147419103232,[],[],0,4⟩],[⟨29,2475880078570760549798248448,[],[(7,.code)],0,4⟩],[⟨30,8192,[],[],0,4⟩,⟨32,1024,[],[],0,4⟩,⟨33,4096,[],[],0,4⟩,⟨34,8192,[.crAlone],[],0,4⟩,⟨35,4294967808,[],[],0,4⟩,⟨36,115792089237316195423570985008687907853269984665640564039457584007908834658815,[],[(10,.code)],0,4⟩,⟨37,9903520314283042199192993792,[],[],0,4⟩],[⟨31,1024,[],[],0,4⟩],[⟨30,8192,[],[(8,.setEnt .internalNl),(9,.cb)],0,4⟩,⟨32,1024,[],[(8,.setEnt .internalNl),(9,.cb)],0,4⟩,⟨33,4096,[],[(8,.setEnt .internalNl),(9,.cb)],0,4⟩,⟨34,8192,[.crAlone],[(8,.setEnt .internalNl),(9,.cb)],0,4⟩,⟨35,4294967808,[],[(8,.setEnt .internalNl),(9,.cb)],0,4⟩,⟨36,115792089237316195423570985008687907853269984665640564039457584007908834658815,[],[(8,.setEnt .internalNl),(9,.cb),(10,.code)],0,4⟩,⟨37,9903520314283042199192993792,[],[(8,.setEnt .internalNl),(9,.cb)],0,4⟩],[⟨30,8192,[],[(8,.setEnt .internalNl),(9,.cb)],0,4⟩,⟨32,1024,[],[(8,.setEnt .internalNl),(9,.cb)],0,4⟩,⟨33,4096,[],[(8,.setEnt .internalNl),(9,.cb)],0,4⟩,⟨34,8192,[.crAlone],[(8,.setEnt .internalNl),(9,.cb)],0,4⟩,⟨35,4294967808,[],[(8,.setEnt .internalNl),(9,.cb)],0,4⟩,⟨36,115792089237316195423570985008687907853269984665640564039457584007908834658815,[],[(8,.setEnt .internalNl),(9,.cb),(10,.code)],0,4⟩,⟨37,9903520314283042199192993792,[],[(8,.setEnt .internalNl),(9,.cb)],0,4⟩],[⟨30,8192,[],[(8,.setEnt .internalNl),(9,.cb)],0,4⟩,⟨32,1024,[],[(8,.setEnt .internalNl),(9,.cb)],0,4⟩,⟨33,4096,[],[(8,.setEnt .internalNl),(9,.cb)],0,4⟩,⟨34,8192,[.crAlone],[(8,.setEnt .internalNl),(9,.cb)],0,4⟩,⟨35,4294967808,[],[(8,.setEnt .internalNl),(9,.cb)],0,4⟩,⟨36,115792089237316195423570985008687907853269984665640564039457584007908834658815,[],[(8,.setEnt .internalNl),(9,.cb),(10,.code)],0,4⟩,⟨37,9903520314283042199192993792,[],[(8,.setEnt .internalNl),(9,.cb)],0,4⟩],[⟨30,8192,[],[(8,.setEnt .internalNl),(9,.cb)],0,4⟩,⟨32,1024,[],[(8,.setEnt .internalNl),(9,.cb)],0,4⟩,⟨33,4096,[],[(8,.setEnt .internalNl),(9,.cb)],0,4⟩,⟨34,8192,[.crAlone],[(8,.setEnt .internalNl),(9,.cb)],0,4⟩,⟨35,4294967808,[],[(8,.setEnt .internalNl),(9,.cb)],0,4⟩,⟨36,115792089237316195423570985008687907853269984665640564039457584007908834658815,[],[(8,.setEnt .internalNl),(9,.cb),(10,.code)],0,4⟩,⟨37,9903520314283042199192993792,[],[(8,.setEnt .internalNl),(9,.cb)],0,4⟩],[⟨30,8192,[],[],0,4⟩,⟨32,1024,[],[],0,4⟩,⟨33,4096,[],[],0,4⟩,⟨34,8192,[.crAlone],[],0,4⟩,⟨35,4294967808,[],[],0,4⟩,⟨36,115792089237316195423570985008687907853269984665640564039457584007908834658815,[],[(10,.code)],0,4⟩,⟨37,9903520314283042199192993792,[],[],0,4⟩],[⟨30,8192,[],[],0,4⟩,⟨32,1024,[],[],0,4⟩,⟨33,4096,[],[],0,4⟩,⟨34,8192,[.crAlone],[],0,4⟩,⟨35,4294967808,[],[],0,4⟩,⟨36,115792089237316195423570985008687907853269984665640564039457584007908834658815,[],[(10,.code)],0,4⟩,⟨37,9903520314283042199192993792,[],[],0,4⟩],[⟨38,9903520314283042199192993792,[],[],0,0⟩],[⟨39,4611686018427387904,[],[],4,0⟩],[],[⟨41,1024,[],[(11,.setEnt .newline)],0,0⟩],[],[],[],[],[]],[some (0,[]),none,none,none,none,none,none,none,none,none,none,none,none,none,some (1,[]),none,none,some (2,[]),none,none,some (2,[]),none,none,none,none,none,none,none,none,none,none,none,none,none,none,none,none,none,none,some (2,[]),none,some (3,[]),some (3,[]),some (3,[]),some (3,[]),some (4,[])],[1,5,11,12,13]⟩
theorem xaml_line_nfa_eq : Xaml.xaml_line.nfa = xaml_line_nfa := by decide +kernel
/-- The machine of `Xaml.xaml_line`, with its automaton as a literal. -/
def xaml_line_M : Machine := ⟨xaml_line_nfa, Xaml.xaml_line.ends, Xaml.xaml_line.sw⟩
theorem xaml_line_M_eq : Xaml.xaml_line.machine = xaml_line_M := by
  unfold Scanner.machine xaml_line_M; rw [xaml_line_nfa_eq]
def xaml_line_masks : List Nat := [4294967808,1152921504606846976,549755813888,17179869184,8192,1024,4096,115792089237316195423570985008687907853269984665640564039457584007908834656767,8589934592,35184372088832,115792089237316195423570985008687907853269984665640564039457584007908834658815,4611686018427387904,115792089237316195423570985008687907853269984665640564039457584007363373812735,115792089237316195423570985008687907853269984665640564039457584007895949757439,2475880078570760549798248448,147573952589676412928,295147905179352825856,36893488147419103232,19342813113834066795298816,9903520314283042199192993792]
def xaml_line_cs : List (Nat × Nat) := [(0,115792089237316195423570985008687907853269984665628165295766236381893667832319),(9,4294967808),(10,1024),(11,2048),(12,4096),(13,8192),(33,8589934592),(34,17179869184),(39,549755813888),(45,35184372088832),(60,1152921504606846976),(62,4611686018427387904),(65,36893488147419103232),(67,147573952589676412928),(68,295147905179352825856),(84,19342813113834066795298816),(91,2475880078570760549798248448),(93,9903520314283042199192993792)]
theorem xaml_line_masksIn : masksIn xaml_line_nfa xaml_line_masks = true := by decide +kernel
theorem xaml_line_repOk : repOk xaml_line_masks xaml_line_cs = true := by decide +kernel
def xaml_line_rows : List Row := [⟨[],none,[],[⟨256,.other,false,some ⟨0,[.setEnt (.own 5)],some 4,true⟩⟩,⟨256,.ws,false,some ⟨1,[.setEnt (.own 0)],some 0,false⟩⟩,⟨256,.lf,false,some ⟨0,[.setEnt .newline],some 3,true⟩⟩,⟨256,.vt,false,none⟩,⟨256,.ff,false,some ⟨0,[.setEnt .newline],some 3,true⟩⟩,⟨256,.cr,false,some ⟨2,[.setEnt .newline],none,false⟩⟩,⟨256,.cr,true,some ⟨3,[.setEnt .newline],some 3,false⟩⟩,⟨256,.other,false,some ⟨4,[.setEnt (.own 5)],some 4,false⟩⟩,⟨256,.other,false,some ⟨5,[.setEnt (.own 5)],some 4,false⟩⟩,⟨256,.other,false,some ⟨6,[.setEnt (.own 5)],some 4,false⟩⟩]⟩,⟨[0],some 0,[],[⟨256,.other,false,none⟩,⟨256,.ws,false,some ⟨1,[.setEnt (.own 0)],some 0,false⟩⟩,⟨256,.lf,false,none⟩,⟨256,.vt,false,none⟩,⟨256,.ff,false,none⟩,⟨256,.cr,false,none⟩,⟨256,.cr,true,none⟩]⟩,⟨[40],none,[],[⟨256,.other,false,none⟩,⟨256,.ws,false,none⟩,⟨256,.lf,false,some ⟨0,[.setEnt .newline],some 3,true⟩⟩,⟨256,.vt,false,none⟩,⟨256,.ff,false,none⟩,⟨256,.cr,false,none⟩,⟨256,.cr,true,none⟩]⟩,⟨[40,44],some 3,[],[⟨256,.other,false,none⟩,⟨256,.ws,false,none⟩,⟨256,.lf,false,some ⟨0,[.setEnt .newline],some 3,true⟩⟩,⟨256,.vt,false,none⟩,⟨256,.ff,false,none⟩,⟨256,.cr,false,none⟩,⟨256,.cr,true,none⟩]⟩,⟨[18,45],some 4,[],[⟨256,.other,false,some ⟨7,[],none,false⟩⟩,⟨256,.ws,false,some ⟨7,[],none,false⟩⟩,⟨256,.lf,false,none⟩,⟨256,.vt,false,some ⟨7,[],none,false⟩⟩,⟨256,.ff,false,none⟩,⟨256,.cr,false,none⟩,⟨256,.cr,true,none⟩,⟨256,.other,false,some ⟨0,[.code],some 2,true⟩⟩]⟩,⟨[15,45],some 4,[],[⟨256,.other,false,some ⟨8,[],none,false⟩⟩,⟨256,.ws,false,some ⟨8,[],none,false⟩⟩,⟨256,.lf,false,none⟩,⟨256,.vt,false,some ⟨8,[],none,false⟩⟩,⟨256,.ff,false,none⟩,⟨256,.cr,false,none⟩,⟨256,.cr,true,none⟩,⟨256,.other,false,some ⟨0,[.code],some 2,true⟩⟩]⟩,⟨[1,21,45],some 4,[],[⟨256,.other,false,none⟩,⟨256,.ws,false,none⟩,⟨256,.lf,false,none⟩,⟨256,.vt,false,none⟩,⟨256,.ff,false,none⟩,⟨256,.cr,false,none⟩,⟨256,.cr,true,none⟩,⟨256,.other,false,some ⟨9,[],none,false⟩⟩]⟩,⟨[19],none,[],[⟨256,.other,false,some ⟨7,[],none,false⟩⟩,⟨256,.ws,false,some ⟨7,[],none,false⟩⟩,⟨256,.lf,false,none⟩,⟨256,.vt,false,some ⟨7,[],none,false⟩⟩,⟨256,.ff,false,none⟩,⟨256,.cr,false,none⟩,⟨256,.cr,true,none⟩,⟨256,.other,false,some ⟨0,[.code],some 2,true⟩⟩]⟩,⟨[16],none,[],[⟨256,.other,false,some ⟨8,[],none,false⟩⟩,⟨256,.ws,false,some ⟨8,[],none,false⟩⟩,⟨256,.lf,false,none⟩,⟨256,.vt,false,some ⟨8,[],none,false⟩⟩,⟨256,.ff,false,none⟩,⟨256,.cr,false,none⟩,⟨256,.cr,true,none⟩,⟨256,.other,false,some ⟨0,[.code],some 2,true⟩⟩]⟩,⟨[2,22],none,[],[⟨256,.other,false,none⟩,⟨256,.ws,false,none⟩,⟨256,.lf,false,none⟩,⟨256,.vt,false,none⟩,⟨256,.ff,false,none⟩,⟨256,.cr,false,none⟩,⟨256,.cr,true,none⟩,⟨256,.other,false,some ⟨10,[],none,false⟩⟩,⟨256,.other,false,some ⟨11,[],none,false⟩⟩]⟩,⟨[3],none,[],[⟨256,.other,false,none⟩,⟨256,.ws,false,none⟩,⟨256,.lf,false,none⟩,⟨256,.vt,false,none⟩,⟨256,.ff,false,none⟩,⟨256,.cr,false,none⟩,⟨256,.cr,true,none⟩,⟨256,.other,false,some ⟨12,[.comment],none,false⟩⟩]⟩,⟨[23],none,[],[⟨256,.other,false,none⟩,⟨256,.ws,false,none⟩,⟨256,.lf,false,none⟩,⟨256,.vt,false,none⟩,⟨256,.ff,false,none⟩,⟨256,.cr,false,none⟩,⟨256,.cr,true,none⟩,⟨256,.other,false,some ⟨13,[],none,false⟩⟩]⟩,⟨[4],none,[],[⟨256,.other,false,some ⟨14,[.comment],none,false⟩⟩,⟨256,.ws,false,some ⟨15,[],none,false⟩⟩,⟨256,.lf,false,some ⟨16,[],none,false⟩⟩,⟨256,.vt,false,some ⟨14,[.comment],none,false⟩⟩,⟨256,.ff,false,some ⟨17,[],none,false⟩⟩,⟨256,.cr,false,some ⟨18,[],none,false⟩⟩,⟨256,.cr,true,some ⟨19,[],none,false⟩⟩,⟨256,.other,false,some ⟨20,[.comment],none,false⟩⟩]⟩,⟨[24],none,[],[⟨256,.other,false,none⟩,⟨256,.ws,false,none⟩,⟨256,.lf,false,none⟩,⟨256,.vt,false,none⟩,⟨256,.ff,false,none⟩,⟨256,.cr,false,none⟩,⟨256,.cr,true,none⟩,⟨256,.other,false,some ⟨21,[],none,false⟩⟩]⟩,⟨[11],none,[],[⟨256,.other,false,some ⟨14,[.comment],none,false⟩⟩,⟨256,.ws,false,some ⟨15,[],none,false⟩⟩,⟨256,.lf,false,some ⟨16,[],none,false⟩⟩,⟨256,.vt,false,some ⟨14,[.comment],none,false⟩⟩,⟨256,.ff,false,some ⟨17,[],none,false⟩⟩,⟨256,.cr,false,some ⟨18,[],none,false⟩⟩,⟨256,.cr,true,some ⟨19,[],none,false⟩⟩,⟨256,.other,false,some ⟨20,[.comment],none,false⟩⟩]⟩,⟨[10],none,[],[⟨256,.other,false,some ⟨14,[.comment],none,false⟩⟩,⟨256,.ws,false,some ⟨15,[],none,false⟩⟩,⟨256,.lf,false,some ⟨16,[],none,false⟩⟩,⟨256,.vt,false,some ⟨14,[.comment],none,false⟩⟩,⟨256,.ff,false,some ⟨17,[],none,false⟩⟩,⟨256,.cr,false,some ⟨18,[],none,false⟩⟩,⟨256,.cr,true,some ⟨19,[],none,false⟩⟩,⟨256,.other,false,some ⟨20,[.comment],none,false⟩⟩]⟩,⟨[7],none,[],[⟨256,.other,false,some ⟨14,[.setEnt .internalNl,.cb,.comment],none,false⟩⟩,⟨256,.ws,false,some ⟨15,[.setEnt .internalNl,.cb],none,false⟩⟩,⟨256,.lf,false,some ⟨16,[.setEnt .internalNl,.cb],none,false⟩⟩,⟨256,.vt,false,some ⟨14,[.setEnt .internalNl,.cb,.comment],none,false⟩⟩,⟨256,.ff,false,some ⟨17,[.setEnt .internalNl,.cb],none,false⟩⟩,⟨256,.cr,false,some ⟨18,[.setEnt .internalNl,.cb],none,false⟩⟩,⟨256,.cr,true,some ⟨19,[.setEnt .internalNl,.cb],none,false⟩⟩,⟨256,.other,false,some ⟨20,[.setEnt .internalNl,.cb,.comment],none,false⟩⟩]⟩,⟨[8],none,[],[⟨256,.other,false,some ⟨14,[.setEnt .internalNl,.cb,.comment],none,false⟩⟩,⟨256,.ws,false,some ⟨15,[.setEnt .internalNl,.cb],none,false⟩⟩,⟨256,.lf,false,some ⟨16,[.setEnt .internalNl,.cb],none,false⟩⟩,⟨256,.vt,false,some ⟨14,[.setEnt .internalNl,.cb,.comment],none,false⟩⟩,⟨256,.ff,false,some ⟨17,[.setEnt .internalNl,.cb],none,false⟩⟩,⟨256,.cr,false,some ⟨18,[.setEnt .internalNl,.cb],none,false⟩⟩,⟨256,.cr,true,some ⟨19,[.setEnt .internalNl,.cb],none,false⟩⟩,⟨256,.other,false,some ⟨20,[.setEnt .internalNl,.cb,.comment],none,false⟩⟩]⟩,⟨[5],none,[],[⟨256,.other,false,none⟩,⟨256,.ws,false,none⟩,⟨256,.lf,false,some ⟨22,[],none,false⟩⟩,⟨256,.vt,false,none⟩,⟨256,.ff,false,none⟩,⟨256,.cr,false,none⟩,⟨256,.cr,true,none⟩]⟩,⟨[5,9],none,[],[⟨256,.other,false,some ⟨14,[.setEnt .internalNl,.cb,.comment],none,false⟩⟩,⟨256,.ws,false,some ⟨15,[.setEnt .internalNl,.cb],none,false⟩⟩,⟨256,.lf,false,some ⟨23,[.setEnt .internalNl,.cb],none,false⟩⟩,⟨256,.vt,false,some ⟨14,[.setEnt .internalNl,.cb,.comment],none,false⟩⟩,⟨256,.ff,false,some ⟨17,[.setEnt .internalNl,.cb],none,false⟩⟩,⟨256,.cr,false,some ⟨18,[.setEnt .internalNl,.cb],none,false⟩⟩,⟨256,.cr,true,some ⟨19,[.setEnt .internalNl,.cb],none,false⟩⟩,⟨256,.other,false,some ⟨20,[.setEnt .internalNl,.cb,.comment],none,false⟩⟩]⟩,⟨[11,12],none,[],[⟨256,.other,false,some ⟨14,[.comment],none,false⟩⟩,⟨256,.ws,false,some ⟨15,[],none,false⟩⟩,⟨256,.lf,false,some ⟨16,[],none,false⟩⟩,⟨256,.vt,false,some ⟨14,[.comment],none,false⟩⟩,⟨256,.ff,false,some ⟨17,[],none,false⟩⟩,⟨256,.cr,false,some ⟨18,[],none,false⟩⟩,⟨256,.cr,true,some ⟨19,[],none,false⟩⟩,⟨256,.other,false,some ⟨24,[.comment],none,false⟩⟩]⟩,⟨[25],none,[],[⟨256,.other,false,none⟩,⟨256,.ws,false,none⟩,⟨256,.lf,false,none⟩,⟨256,.vt,false,none⟩,⟨256,.ff,false,none⟩,⟨256,.cr,false,none⟩,⟨256,.cr,true,none⟩,⟨256,.other,false,some ⟨25,[],none,false⟩⟩]⟩,⟨[6],none,[],[⟨256,.other,false,some ⟨14,[.setEnt .internalNl,.cb,.comment],none,false⟩⟩,⟨256,.ws,false,some ⟨15,[.setEnt .internalNl,.cb],none,false⟩⟩,⟨256,.lf,false,some ⟨16,[.setEnt .internalNl,.cb],none,false⟩⟩,⟨256,.vt,false,some ⟨14,[.setEnt .internalNl,.cb,.comment],none,false⟩⟩,⟨256,.ff,false,some ⟨17,[.setEnt .internalNl,.cb],none,false⟩⟩,⟨256,.cr,false,some ⟨18,[.setEnt .internalNl,.cb],none,false⟩⟩,⟨256,.cr,true,some ⟨19,[.setEnt .internalNl,.cb],none,false⟩⟩,⟨256,.other,false,some ⟨20,[.setEnt .internalNl,.cb,.comment],none,false⟩⟩]⟩,⟨[6,7],none,[],[⟨256,.other,false,some ⟨14,[.setEnt .internalNl,.cb,.comment],none,false⟩⟩,⟨256,.ws,false,some ⟨15,[.setEnt .internalNl,.cb],none,false⟩⟩,⟨256,.lf,false,some ⟨16,[.setEnt .internalNl,.cb],none,false⟩⟩,⟨256,.vt,false,some ⟨14,[.setEnt .internalNl,.cb,.comment],none,false⟩⟩,⟨256,.ff,false,some ⟨17,[.setEnt .internalNl,.cb],none,false⟩⟩,⟨256,.cr,false,some ⟨18,[.setEnt .internalNl,.cb],none,false⟩⟩,⟨256,.cr,true,some ⟨19,[.setEnt .internalNl,.cb],none,false⟩⟩,⟨256,.other,false,some ⟨20,[.setEnt .internalNl,.cb,.comment],none,false⟩⟩]⟩,⟨[11,12,13],none,[],[⟨256,.other,false,some ⟨14,[.comment],none,false⟩⟩,⟨256,.ws,false,some ⟨15,[],none,false⟩⟩,⟨256,.lf,false,some ⟨16,[],none,false⟩⟩,⟨256,.vt,false,some ⟨14,[.comment],none,false⟩⟩,⟨256,.ff,false,some ⟨17,[],none,false⟩⟩,⟨256,.cr,false,some ⟨18,[],none,false⟩⟩,⟨256,.cr,true,some ⟨19,[],none,false⟩⟩,⟨256,.other,false,some ⟨24,[.comment],none,false⟩⟩,⟨256,.other,false,some ⟨0,[],some 1,true⟩⟩]⟩,⟨[26],none,[],[⟨256,.other,false,none⟩,⟨256,.ws,false,none⟩,⟨256,.lf,false,none⟩,⟨256,.vt,false,none⟩,⟨256,.ff,false,none⟩,⟨256,.cr,false,none⟩,⟨256,.cr,true,none⟩,⟨256,.other,false,some ⟨26,[],none,false⟩⟩]⟩,⟨[27],none,[],[⟨256,.other,false,none⟩,⟨256,.ws,false,none⟩,⟨256,.lf,false,none⟩,⟨256,.vt,false,none⟩,⟨256,.ff,false,none⟩,⟨256,.cr,false,none⟩,⟨256,.cr,true,none⟩,⟨256,.other,false,some ⟨27,[],none,false⟩⟩]⟩,⟨[28],none,[],[⟨256,.other,false,none⟩,⟨256,.ws,false,none⟩,⟨256,.lf,false,none⟩,⟨256,.vt,false,none⟩,⟨256,.ff,false,none⟩,⟨256,.cr,false,none⟩,⟨256,.cr,true,none⟩,⟨256,.other,false,some ⟨28,[.code],none,false⟩⟩]⟩,⟨[29],none,[],[⟨256,.other,false,some ⟨29,[.code],none,false⟩⟩,⟨256,.ws,false,some ⟨30,[],none,false⟩⟩,⟨256,.lf,false,some ⟨31,[],none,false⟩⟩,⟨256,.vt,false,some ⟨29,[.code],none,false⟩⟩,⟨256,.ff,false,some ⟨32,[],none,false⟩⟩,⟨256,.cr,false,some ⟨33,[],none,false⟩⟩,⟨256,.cr,true,some ⟨34,[],none,false⟩⟩,⟨256,.other,false,some ⟨35,[.code],none,false⟩⟩]⟩,⟨[36],none,[],[⟨256,.other,false,some ⟨29,[.code],none,false⟩⟩,⟨256,.ws,false,some ⟨30,[],none,false⟩⟩,⟨256,.lf,false,some ⟨31,[],none,false⟩⟩,⟨256,.vt,false,some ⟨29,[.code],none,false⟩⟩,⟨256,.ff,false,some ⟨32,[],none,false⟩⟩,⟨256,.cr,false,some ⟨33,[],none,false⟩⟩,⟨256,.cr,true,some ⟨34,[],none,false⟩⟩,⟨256,.other,false,some ⟨35,[.code],none,false⟩⟩]⟩,⟨[35],none,[],[⟨256,.other,false,some ⟨29,[.code],none,false⟩⟩,⟨256,.ws,false,some ⟨30,[],none,false⟩⟩,⟨256,.lf,false,some ⟨31,[],none,false⟩⟩,⟨256,.vt,false,some ⟨29,[.code],none,false⟩⟩,⟨256,.ff,false,some ⟨32,[],none,false⟩⟩,⟨256,.cr,false,some ⟨33,[],none,false⟩⟩,⟨256,.cr,true,some ⟨34,[],none,false⟩⟩,⟨256,.other,false,some ⟨35,[.code],none,false⟩⟩]⟩,⟨[32],none,[],[⟨256,.other,false,some ⟨29,[.setEnt .internalNl,.cb,.code],none,false⟩⟩,⟨256,.ws,false,some ⟨30,[.setEnt .internalNl,.cb],none,false⟩⟩,⟨256,.lf,false,some ⟨31,[.setEnt .internalNl,.cb],none,false⟩⟩,⟨256,.vt,false,some ⟨29,[.setEnt .internalNl,.cb,.code],none,false⟩⟩,⟨256,.ff,false,some ⟨32,[.setEnt .internalNl,.cb],none,false⟩⟩,⟨256,.cr,false,some ⟨33,[.setEnt .internalNl,.cb],none,false⟩⟩,⟨256,.cr,true,some ⟨34,[.setEnt .internalNl,.cb],none,false⟩⟩,⟨256,.other,false,some ⟨35,[.setEnt .internalNl,.cb,.code],none,false⟩⟩]⟩,⟨[33],none,[],[⟨256,.other,false,some ⟨29,[.setEnt .internalNl,.cb,.code],none,false⟩⟩,⟨256,.ws,false,some ⟨30,[.setEnt .internalNl,.cb],none,false⟩⟩,⟨256,.lf,false,some ⟨31,[.setEnt .internalNl,.cb],none,false⟩⟩,⟨256,.vt,false,some ⟨29,[.setEnt .internalNl,.cb,.code],none,false⟩⟩,⟨256,.ff,false,some ⟨32,[.setEnt .internalNl,.cb],none,false⟩⟩,⟨256,.cr,false,some ⟨33,[.setEnt .internalNl,.cb],none,false⟩⟩,⟨256,.cr,true,some ⟨34,[.setEnt .internalNl,.cb],none,false⟩⟩,⟨256,.other,false,some ⟨35,[.setEnt .internalNl,.cb,.code],none,false⟩⟩]⟩,⟨[30],none,[],[⟨256,.other,false,none⟩,⟨256,.ws,false,none⟩,⟨256,.lf,false,some ⟨36,[],none,false⟩⟩,⟨256,.vt,false,none⟩,⟨256,.ff,false,none⟩,⟨256,.cr,false,none⟩,⟨256,.cr,true,none⟩]⟩,⟨[30,34],none,[],[⟨256,.other,false,some ⟨29,[.setEnt .internalNl,.cb,.code],none,false⟩⟩,⟨256,.ws,false,some ⟨30,[.setEnt .internalNl,.cb],none,false⟩⟩,⟨256,.lf,false,some ⟨37,[.setEnt .internalNl,.cb],none,false⟩⟩,⟨256,.vt,false,some ⟨29,[.setEnt .internalNl,.cb,.code],none,false⟩⟩,⟨256,.ff,false,some ⟨32,[.setEnt .internalNl,.cb],none,false⟩⟩,⟨256,.cr,false,some ⟨33,[.setEnt .internalNl,.cb],none,false⟩⟩,⟨256,.cr,true,some ⟨34,[.setEnt .internalNl,.cb],none,false⟩⟩,⟨256,.other,false,some ⟨35,[.setEnt .internalNl,.cb,.code],none,false⟩⟩]⟩,⟨[36,37],none,[],[⟨256,.other,false,some ⟨29,[.code],none,false⟩⟩,⟨256,.ws,false,some ⟨30,[],none,false⟩⟩,⟨256,.lf,false,some ⟨31,[],none,false⟩⟩,⟨256,.vt,false,some ⟨29,[.code],none,false⟩⟩,⟨256,.ff,false,some ⟨32,[],none,false⟩⟩,⟨256,.cr,false,some ⟨33,[],none,false⟩⟩,⟨256,.cr,true,some ⟨34,[],none,false⟩⟩,⟨256,.other,false,some ⟨38,[.code],none,false⟩⟩]⟩,⟨[31],none,[],[⟨256,.other,false,some ⟨29,[.setEnt .internalNl,.cb,.code],none,false⟩⟩,⟨256,.ws,false,some ⟨30,[.setEnt .internalNl,.cb],none,false⟩⟩,⟨256,.lf,false,some ⟨31,[.setEnt .internalNl,.cb],none,false⟩⟩,⟨256,.vt,false,some ⟨29,[.setEnt .internalNl,.cb,.code],none,false⟩⟩,⟨256,.ff,false,some ⟨32,[.setEnt .internalNl,.cb],none,false⟩⟩,⟨256,.cr,false,some ⟨33,[.setEnt .internalNl,.cb],none,false⟩⟩,⟨256,.cr,true,some ⟨34,[.setEnt .internalNl,.cb],none,false⟩⟩,⟨256,.other,false,some ⟨35,[.setEnt .internalNl,.cb,.code],none,false⟩⟩]⟩,⟨[31,32],none,[],[⟨256,.other,false,some ⟨29,[.setEnt .internalNl,.cb,.code],none,false⟩⟩,⟨256,.ws,false,some ⟨30,[.setEnt .internalNl,.cb],none,false⟩⟩,⟨256,.lf,false,some ⟨31,[.setEnt .internalNl,.cb],none,false⟩⟩,⟨256,.vt,false,some ⟨29,[.setEnt .internalNl,.cb,.code],none,false⟩⟩,⟨256,.ff,false,some ⟨32,[.setEnt .internalNl,.cb],none,false⟩⟩,⟨256,.cr,false,some ⟨33,[.setEnt .internalNl,.cb],none,false⟩⟩,⟨256,.cr,true,some ⟨34,[.setEnt .internalNl,.cb],none,false⟩⟩,⟨256,.other,false,some ⟨35,[.setEnt .internalNl,.cb,.code],none,false⟩⟩]⟩,⟨[36,37,38],none,[],[⟨256,.other,false,some ⟨29,[.code],none,false⟩⟩,⟨256,.ws,false,some ⟨30,[],none,false⟩⟩,⟨256,.lf,false,some ⟨31,[],none,false⟩⟩,⟨256,.vt,false,some ⟨29,[.code],none,false⟩⟩,⟨256,.ff,false,some ⟨32,[],none,false⟩⟩,⟨256,.cr,false,some ⟨33,[],none,false⟩⟩,⟨256,.cr,true,some ⟨34,[],none,false⟩⟩,⟨256,.other,false,some ⟨0,[],some 2,true⟩⟩,⟨256,.other,false,some ⟨38,[.code],none,false⟩⟩]⟩]
theorem xaml_line_rowsOk : rowsOk xaml_line_nfa [] (xaml_line_cs.map (·.1)) xaml_line_rows = true := by decide +kernel
def xaml_line_D : Dfa xaml_line_M.nfa := ⟨xaml_line_masks, [], xaml_line_cs, xaml_line_rows, xaml_line_masksIn, xaml_line_repOk, xaml_line_rowsOk⟩

end Ohcount.Cert
