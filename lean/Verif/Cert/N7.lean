import Verif.Gram.All
import Verif.RagelCheck

/-! Generated by tools/gen_certs.py. -/

namespace Ohcount.Cert
open Ohcount.Ragel Ohcount.Gram

set_option maxRecDepth 100000

def brainfuck_line_nfa : Nfa := ⟨[⟨0,4294967808,[],[(0,.setEnt (.own 0))],0,0⟩,⟨1,8192,[],[(1,.setEnt .newline)],0,0⟩,⟨3,1024,[],[(1,.setEnt .newline)],0,0⟩,⟨4,4096,[],[(1,.setEnt .newline)],0,0⟩,⟨5,8192,[.crAlone],[(1,.setEnt .newline)],0,0⟩,⟨6,12379400398618542213420810240,[],[(2,.code),(3,.setEnt (.own 2))],0,0⟩,⟨7,115792089237316195423570985008687907853269984665640564039457584007908834656767,[],[(4,.setEnt (.own 1))],0,0⟩],[[⟨0,4294967808,[],[(0,.setEnt (.own 0))],0,0⟩],[⟨2,1024,[],[(1,.setEnt .newline)],0,0⟩],[],[],[],[],[],[]],[some (0,[]),none,some (1,[]),some (1,[]),some (1,[]),some (1,[]),some (2,[]),some (3,[])],[1,2,4,5]⟩
theorem brainfuck_line_nfa_eq : Brainfuck.brainfuck_line.nfa = brainfuck_line_nfa := by decide +kernel
/-- The machine of `Brainfuck.brainfuck_line`, with its automaton as a literal. -/
def brainfuck_line_M : Machine := ⟨brainfuck_line_nfa, Brainfuck.brainfuck_line.ends, Brainfuck.brainfuck_line.sw⟩
theorem brainfuck_line_M_eq : Brainfuck.brainfuck_line.machine = brainfuck_line_M := by
  unfold Scanner.machine brainfuck_line_M; rw [brainfuck_line_nfa_eq]
def brainfuck_line_masks : List Nat := [4294967808,8192,1024,4096,12379400398618542213420810240,115792089237316195423570985008687907853269984665640564039457584007908834656767]
def brainfuck_line_cs : List (Nat × Nat) := [(0,115792089237316195423570985008687907853269984665628184639058965465695413846527),(9,4294967808),(10,1024),(11,2048),(12,4096),(13,8192),(43,12379400398618542213420810240)]
theorem brainfuck_line_masksIn : masksIn brainfuck_line_nfa brainfuck_line_masks = true := by decide +kernel
theorem brainfuck_line_repOk : repOk brainfuck_line_masks brainfuck_line_cs = true := by decide +kernel
def brainfuck_line_rows : List Row := [⟨[],none,[],[⟨256,.other,false,some ⟨0,[.setEnt (.own 1)],some 3,true⟩⟩,⟨256,.ws,false,some ⟨1,[.setEnt (.own 0)],some 0,false⟩⟩,⟨256,.lf,false,some ⟨0,[.setEnt .newline],some 1,true⟩⟩,⟨256,.vt,false,none⟩,⟨256,.ff,false,some ⟨0,[.setEnt .newline],some 1,true⟩⟩,⟨256,.cr,false,some ⟨2,[.setEnt .newline],none,false⟩⟩,⟨256,.cr,true,some ⟨3,[.setEnt .newline],some 1,false⟩⟩,⟨256,.other,false,some ⟨0,[.code,.setEnt (.own 2)],some 2,true⟩⟩]⟩,⟨[0],some 0,[],[⟨256,.other,false,none⟩,⟨256,.ws,false,some ⟨1,[.setEnt (.own 0)],some 0,false⟩⟩,⟨256,.lf,false,none⟩,⟨256,.vt,false,none⟩,⟨256,.ff,false,none⟩,⟨256,.cr,false,none⟩,⟨256,.cr,true,none⟩]⟩,⟨[1],none,[],[⟨256,.other,false,none⟩,⟨256,.ws,false,none⟩,⟨256,.lf,false,some ⟨0,[.setEnt .newline],some 1,true⟩⟩,⟨256,.vt,false,none⟩,⟨256,.ff,false,none⟩,⟨256,.cr,false,none⟩,⟨256,.cr,true,none⟩]⟩,⟨[1,5],some 1,[],[⟨256,.other,false,none⟩,⟨256,.ws,false,none⟩,⟨256,.lf,false,some ⟨0,[.setEnt .newline],some 1,true⟩⟩,⟨256,.vt,false,none⟩,⟨256,.ff,false,none⟩,⟨256,.cr,false,none⟩,⟨256,.cr,true,none⟩]⟩]
theorem brainfuck_line_rowsOk : rowsOk brainfuck_line_nfa [] (brainfuck_line_cs.map (·.1)) brainfuck_line_rows = true := by decide +kernel
def brainfuck_line_D : Dfa brainfuck_line_M.nfa := ⟨brainfuck_line_masks, [], brainfuck_line_cs, brainfuck_line_rows, brainfuck_line_masksIn, brainfuck_line_repOk, brainfuck_line_rowsOk⟩

def chai_line_nfa : Nfa := ⟨[⟨0,4294967808,[],[(0,.setEnt (.own 0))],0,0⟩,⟨1,140737488355328,[],[],0,0⟩,⟨4,140737488355328,[],[],0,2⟩,⟨15,549755813888,[],[(6,.code)],0,0⟩,⟨27,17179869184,[],[(11,.code)],0,0⟩,⟨39,140737488355328,[],[],0,0⟩,⟨45,8192,[],[(17,.setEnt .newline)],0,0⟩,⟨47,1024,[],[(17,.setEnt .newline)],0,0⟩,⟨48,4096,[],[(17,.setEnt .newline)],0,0⟩,⟨49,8192,[.crAlone],[(17,.setEnt .newline)],0,0⟩,⟨50,115792089237316195423570985008687907853269984665640564039457584007908834656767,[],[(18,.setEnt (.own 7))],0,0⟩],[[⟨0,4294967808,[],[(0,.setEnt (.own 0))],0,0⟩],[⟨2,140737488355328,[],[(1,.comment)],0,0⟩],[⟨3,115792089237316195423570985008687907853269984665640564039457584007913129626623,[],[],0,0⟩],[⟨3,115792089237316195423570985008687907853269984665640564039457584007913129626623,[],[],0,0⟩],[⟨5,4398046511104,[],[(2,.comment)],0,2⟩],[⟨6,8192,[],[],0,2⟩,⟨8,1024,[],[],0,2⟩,⟨9,4096,[],[],0,2⟩,⟨10,8192,[.crAlone],[],0,2⟩,⟨11,4294967808,[],[],0,2⟩,⟨12,115792089237316195423570985008687907853269984665640564039457584007908834658815,[],[(5,.comment)],0,2⟩,⟨13,4398046511104,[],[],0,2⟩],[⟨7,1024,[],[],0,2⟩],[⟨6,8192,[],[(3,.setEnt .internalNl),(4,.cb)],0,2⟩,⟨8,1024,[],[(3,.setEnt .internalNl),(4,.cb)],0,2⟩,⟨9,4096,[],[(3,.setEnt .internalNl),(4,.cb)],0,2⟩,⟨10,8192,[.crAlone],[(3,.setEnt .internalNl),(4,.cb)],0,2⟩,⟨11,4294967808,[],[(3,.setEnt .internalNl),(4,.cb)],0,2⟩,⟨12,115792089237316195423570985008687907853269984665640564039457584007908834658815,[],[(3,.setEnt .internalNl),(4,.cb),(5,.comment)],0,2⟩,⟨13,4398046511104,[],[(3,.setEnt .internalNl),(4,.cb)],0,2⟩],[⟨6,8192,[],[(3,.setEnt .internalNl),(4,.cb)],0,2⟩,⟨8,1024,[],[(3,.setEnt .internalNl),(4,.cb)],0,2⟩,⟨9,4096,[],[(3,.setEnt .internalNl),(4,.cb)],0,2⟩,⟨10,8192,[.crAlone],[(3,.setEnt .internalNl),(4,.cb)],0,2⟩,⟨11,4294967808,[],[(3,.setEnt .internalNl),(4,.cb)],0,2⟩,⟨12,115792089237316195423570985008687907853269984665640564039457584007908834658815,[],[(3,.setEnt .internalNl),(4,.cb),(5,.comment)],0,2⟩,⟨13,4398046511104,[],[(3,.setEnt .internalNl),(4,.cb)],0,2⟩],[⟨6,8192,[],[(3,.setEnt .internalNl),(4,.cb)],0,2⟩,⟨8,1024,[],[(3,.setEnt .internalNl),(4,.cb)],0,2⟩,⟨9,4096,[],[(3,.setEnt .internalNl),(4,.cb)],0,2⟩,⟨10,8192,[.crAlone],[(3,.setEnt .internalNl),(4,.cb)],0,2⟩,⟨11,4294967808,[],[(3,.setEnt .internalNl),(4,.cb)],0,2⟩,⟨12,115792089237316195423570985008687907853269984665640564039457584007908834658815,[],[(3,.setEnt .internalNl),(4,.cb),(5,.comment)],0,2⟩,⟨13,4398046511104,[],[(3,.setEnt .internalNl),(4,.cb)],0,2⟩],[⟨6,8192,[],[(3,.setEnt .internalNl),(4,.cb)],0,2⟩,⟨8,1024,[],[(3,.setEnt .internalNl),(4,.cb)],0,2⟩,⟨9,4096,[],[(3,.setEnt .internalNl),(4,.cb)],0,2⟩,⟨10,8192,[.crAlone],[(3,.setEnt .internalNl),(4,.cb)],0,2⟩,⟨11,4294967808,[],[(3,.setEnt .internalNl),(4,.cb)],0,2⟩,⟨12,115792089237316195423570985008687907853269984665640564039457584007908834658815,[],[(3,.setEnt .internalNl),(4,.cb),(5,.comment)],0,2⟩,⟨13,4398046511104,[],[(3,.setEnt .internalNl),(4,.cb)],0,2⟩],[⟨6,8192,[],[],0,2⟩,⟨8,1024,[],[],0,2⟩,⟨9,4096,[],[],0,2⟩,⟨10,8192,[.crAlone],[],0,2⟩,⟨11,4294967808,[],[],0,2⟩,⟨12,115792089237316195423570985008687907853269984665640564039457584007908834658815,[],[(5,.comment)],0,2⟩,⟨13,4398046511104,[],[],0,2⟩],[⟨6,8192,[],[],0,2⟩,⟨8,1024,[],[],0,2⟩,⟨9,4096,[],[],0,2⟩,⟨10,8192,[.crAlone],[],0,2⟩,⟨11,4294967808,[],[],0,2⟩,⟨12,115792089237316195423570985008687907853269984665640564039457584007908834658815,[],[(5,.comment)],0,2⟩,⟨13,4398046511104,[],[],0,2⟩],[⟨14,140737488355328,[],[],2,0⟩],[],[⟨16,4951760157141521099596496896,[],[],0,0⟩,⟨22,4294967808,[],[],0,0⟩,⟨23,115792089237316195423570985008687907853269984665635612279300442486259482361343,[],[(9,.code)],0,0⟩,⟨24,4951760157141521099596496896,[],[],0,0⟩,⟨26,549755813888,[],[],0,0⟩],[⟨17,8192,[],[],0,0⟩,⟨19,1024,[],[],0,0⟩,⟨20,4096,[],[],0,0⟩,⟨21,8192,[.crAlone],[],0,0⟩],[⟨18,1024,[],[],0,0⟩],[⟨16,4951760157141521099596496896,[],[(7,.setEnt .internalNl),(8,.cb)],0,0⟩,⟨22,4294967808,[],[(7,.setEnt .internalNl),(8,.cb)],0,0⟩,⟨23,115792089237316195423570985008687907853269984665635612279300442486259482361343,[],[(7,.setEnt .internalNl),(8,.cb),(9,.code)],0,0⟩,⟨24,4951760157141521099596496896,[],[(7,.setEnt .internalNl),(8,.cb)],0,0⟩,⟨26,549755813888,[],[(7,.setEnt .internalNl),(8,.cb)],0,0⟩],[⟨16,4951760157141521099596496896,[],[(7,.setEnt .internalNl),(8,.cb)],0,0⟩,⟨22,4294967808,[],[(7,.setEnt .internalNl),(8,.cb)],0,0⟩,⟨23,115792089237316195423570985008687907853269984665635612279300442486259482361343,[],[(7,.setEnt .internalNl),(8,.cb),(9,.code)],0,0⟩,⟨24,4951760157141521099596496896,[],[(7,.setEnt .internalNl),(8,.cb)],0,0⟩,⟨26,549755813888,[],[(7,.setEnt .internalNl),(8,.cb)],0,0⟩],[⟨16,4951760157141521099596496896,[],[(7,.setEnt .internalNl),(8,.cb)],0,0⟩,⟨22,4294967808,[],[(7,.setEnt .internalNl),(8,.cb)],0,0⟩,⟨23,115792089237316195423570985008687907853269984665635612279300442486259482361343,[],[(7,.setEnt .internalNl),(8,.cb),(9,.code)],0,0⟩,⟨24,4951760157141521099596496896,[],[(7,.setEnt .internalNl),(8,.cb)],0,0⟩,⟨26,549755813888,[],[(7,.setEnt .internalNl),(8,.cb)],0,0⟩],[⟨16,4951760157141521099596496896,[],[(7,.setEnt .internalNl),(8,.cb)],0,0⟩,⟨22,4294967808,[],[(7,.setEnt .internalNl),(8,.cb)],0,0⟩,⟨23,115792089237316195423570985008687907853269984665635612279300442486259482361343,[],[(7,.setEnt .internalNl),(8,.cb),(9,.code)],0,0⟩,⟨24,4951760157141521099596496896,[],[(7,.setEnt .internalNl),(8,.cb)],0,0⟩,⟨26,549755813888,[],[(7,.setEnt .internalNl),(8,.cb)],0,0⟩],[⟨16,4951760157141521099596496896,[],[],0,0⟩,⟨22,4294967808,[],[],0,0⟩,⟨23,115792089237316195423570985008687907853269984665635612279300442486259482361343,[],[(9,.code)],0,0⟩,⟨24,4951760157141521099596496896,[],[],0,0⟩,⟨26,549755813888,[],[],0,0⟩],[⟨16,4951760157141521099596496896,[],[],0,0⟩,⟨22,4294967808,[],[],0,0⟩,⟨23,115792089237316195423570985008687907853269984665635612279300442486259482361343,[],[(9,.code)],0,0⟩,⟨24,4951760157141521099596496896,[],[],0,0⟩,⟨26,549755813888,[],[],0,0⟩],[⟨25,115792089237316195423570985008687907853269984665640564039457584007913129626623,[],[(10,.code)],0,0⟩],[⟨16,4951760157141521099596496896,[],[],0,0⟩,⟨22,4294967808,[],[],0,0⟩,⟨23,115792089237316195423570985008687907853269984665635612279300442486259482361343,[],[(9,.code)],0,0⟩,⟨24,4951760157141521099596496896,[],[],0,0⟩,⟨26,549755813888,[],[],0,0⟩],[],[⟨28,4951760157141521099596496896,[],[],0,0⟩,⟨34,4294967808,[],[],0,0⟩,⟨35,115792089237316195423570985008687907853269984665635612279300442486792058306047,[],[(14,.code)],0,0⟩,⟨36,4951760157141521099596496896,[],[],0,0⟩,⟨38,17179869184,[],[],0,0⟩],[⟨29,8192,[],[],0,0⟩,⟨31,1024,[],[],0,0⟩,⟨32,4096,[],[],0,0⟩,⟨33,8192,[.crAlone],[],0,0⟩],[⟨30,1024,[],[],0,0⟩],[⟨28,4951760157141521099596496896,[],[(12,.setEnt .internalNl),(13,.cb)],0,0⟩,⟨34,4294967808,[],[(12,.setEnt .internalNl),(13,.cb)],0,0⟩,⟨35,115792089237316195423570985008687907853269984665635612279300442486792058306047,[],[(12,.setEnt .internalNl),(13,.cb),(14,.code)],0,0⟩,⟨36,4951760157141521099596496896,[],[(12,.setEnt .internalNl),(13,.cb)],0,0⟩,⟨38,17179869184,[],[(12,.setEnt .internalNl),(13,.cb)],0,0⟩],[⟨28,4951760157141521099596496896,[],[(12,.setEnt .internalNl),(13,.cb)],0,0⟩,⟨34,4294967808,[],[(12,.setEnt .internalNl),(13,.cb)],0,0⟩,⟨35,115792089237316195423570985008687907853269984665635612279300442486792058306047,[],[(12,.setEnt .internalNl),(13,.cb),(14,.code)],0,0⟩,⟨36,4951760157141521099596496896,[],[(12,.setEnt .internalNl),(13,.cb)],0,0⟩,⟨38,17179869184,[],[(12,.setEnt .internalNl),(13,.cb)],0,0⟩],[⟨28,4951760157141521099596496896,[],[(12,.setEnt .internalNl),(13,.cb)],0,0⟩,⟨34,4294967808,[],[(12,.setEnt .internalNl),(13,.cb)],0,0⟩,⟨35,115792089237316195423570985008687907853269984665635612279300442486792058306047,[],[(12,.setEnt .internalNl),(13,.cb),(14,.code)],0,0⟩,⟨36,4951760157141521099596496896,[],[(12,.setEnt .internalNl),(13,.cb)],0,0⟩,⟨38,17179869184,[],[(12,.setEnt .internalNl),(13,.cb)],0,0⟩],[⟨28,4951760157141521099596496896,[],[(12,.setEnt .internalNl),(13,.cb)],0,0⟩,⟨34,4294967808,[],[(12,.setEnt .internalNl),(13,.cb)],0,0⟩,⟨35,115792089237316195423570985008687907853269984665635612279300442486792058306047,[],[(12,.setEnt .internalNl),(13,.cb),(14,.code)],0,0⟩,⟨36,4951760157141521099596496896,[],[(12,.setEnt .internalNl),(13,.cb)],0,0⟩,⟨38,17179869184,[],[(12,.setEnt .internalNl),(13,.cb)],0,0⟩],[⟨28,4951760157141521099596496896,[],[],0,0⟩,⟨34,4294967808,[],[],0,0⟩,⟨35,115792089237316195423570985008687907853269984665635612279300442486792058306047,[],[(14,.code)],0,0⟩,⟨36,4951760157141521099596496896,[],[],0,0⟩,⟨38,17179869184,[],[],0,0⟩],[⟨28,4951760157141521099596496896,[],[],0,0⟩,⟨34,4294967808,[],[],0,0⟩,⟨35,115792089237316195423570985008687907853269984665635612279300442486792058306047,[],[(14,.code)],0,0⟩,⟨36,4951760157141521099596496896,[],[],0,0⟩,⟨38,17179869184,[],[],0,0⟩],[⟨37,115792089237316195423570985008687907853269984665640564039457584007913129626623,[],[(15,.code)],0,0⟩],[⟨28,4951760157141521099596496896,[],[],0,0⟩,⟨34,4294967808,[],[],0,0⟩,⟨35,115792089237316195423570985008687907853269984665635612279300442486792058306047,[],[(14,.code)],0,0⟩,⟨36,4951760157141521099596496896,[],[],0,0⟩,⟨38,17179869184,[],[],0,0⟩],[],[⟨40,115792089237316195423570985008687907853269984665640564039457583862777594773503,[],[],0,0⟩],[⟨41,115792089237316195423570985008687907853269984665635612279300442346076044774399,[],[],0,0⟩,⟨42,4951760157141521099596496896,[],[],0,0⟩,⟨44,140737488355328,[],[(16,.code)],0,0⟩],[⟨41,115792089237316195423570985008687907853269984665635612279300442346076044774399,[],[],0,0⟩,⟨42,4951760157141521099596496896,[],[],0,0⟩,⟨44,140737488355328,[],[(16,.code)],0,0⟩],[⟨43,115792089237316195423570985008687907853269984665640564039457584007913129626623,[],[],0,0⟩],[⟨41,115792089237316195423570985008687907853269984665635612279300442346076044774399,[],[],0,0⟩,⟨42,4951760157141521099596496896,[],[],0,0⟩,⟨44,140737488355328,[],[(16,.code)],0,0⟩],[],[⟨46,1024,[],[(17,.setEnt .newline)],0,0⟩],[],[],[],[],[]],[some (0,[]),none,some (1,[]),some (1,[]),none,none,none,none,none,none,none,none,none,none,some (1,[]),none,none,none,none,none,none,none,none,none,none,none,some (2,[]),none,none,none,none,none,none,none,none,none,none,none,some (2,[]),none,none,none,none,none,some (2,[]),none,some (3,[]),some (3,[]),some (3,[]),some (3,[]),some (4,[])],[1,6,17,18,19]⟩
theorem chai_line_nfa_eq : Chaiscript.chai_line.nfa = chai_line_nfa := by decide +kernel
/-- The machine of `Chaiscript.chai_line`, with its automaton as a literal. -/
def chai_line_M : Machine := ⟨chai_line_nfa, Chaiscript.chai_line.ends, Chaiscript.chai_line.sw⟩
theorem chai_line_M_eq : Chaiscript.chai_line.machine = chai_line_M := by
  unfold Scanner.machine chai_line_M; rw [chai_line_nfa_eq]
def chai_line_masks : List Nat := [4294967808,140737488355328,549755813888,17179869184,8192,1024,4096,115792089237316195423570985008687907853269984665640564039457584007908834656767,115792089237316195423570985008687907853269984665640564039457584007913129626623,4398046511104,115792089237316195423570985008687907853269984665640564039457584007908834658815,4951760157141521099596496896,115792089237316195423570985008687907853269984665635612279300442486259482361343,115792089237316195423570985008687907853269984665635612279300442486792058306047,115792089237316195423570985008687907853269984665640564039457583862777594773503,115792089237316195423570985008687907853269984665635612279300442346076044774399]
def chai_line_cs : List (Nat × Nat) := [(0,115792089237316195423570985008687907853269984665635612279300442341106767610367),(9,4294967808),(10,1024),(11,2048),(12,4096),(13,8192),(34,17179869184),(39,549755813888),(42,4398046511104),(47,140737488355328),(92,4951760157141521099596496896)]
theorem chai_line_masksIn : masksIn chai_line_nfa chai_line_masks = true := by decide +kernel
theorem chai_line_repOk : repOk chai_line_masks chai_line_cs = true := by decide +kernel
def chai_line_rows : List Row := [⟨[],none,[],[⟨256,.other,false,some ⟨0,[.setEnt (.own 7)],some 4,true⟩⟩,⟨256,.ws,false,some ⟨1,[.setEnt (.own 0)],some 0,false⟩⟩,⟨256,.lf,false,some ⟨0,[.setEnt .newline],some 3,true⟩⟩,⟨256,.vt,false,none⟩,⟨256,.ff,false,some ⟨0,[.setEnt .newline],some 3,true⟩⟩,⟨256,.cr,false,some ⟨2,[.setEnt .newline],none,false⟩⟩,⟨256,.cr,true,some ⟨3,[.setEnt .newline],some 3,false⟩⟩,⟨256,.other,false,some ⟨4,[.code,.setEnt (.own 7)],some 4,false⟩⟩,⟨256,.other,false,some ⟨5,[.code,.setEnt (.own 7)],some 4,false⟩⟩,⟨256,.other,false,some ⟨6,[.setEnt (.own 7)],some 4,false⟩⟩]⟩,⟨[0],some 0,[],[⟨256,.other,false,none⟩,⟨256,.ws,false,some ⟨1,[.setEnt (.own 0)],some 0,false⟩⟩,⟨256,.lf,false,none⟩,⟨256,.vt,false,none⟩,⟨256,.ff,false,none⟩,⟨256,.cr,false,none⟩,⟨256,.cr,true,none⟩]⟩,⟨[45],none,[],[⟨256,.other,false,none⟩,⟨256,.ws,false,none⟩,⟨256,.lf,false,some ⟨0,[.setEnt .newline],some 3,true⟩⟩,⟨256,.vt,false,none⟩,⟨256,.ff,false,none⟩,⟨256,.cr,false,none⟩,⟨256,.cr,true,none⟩]⟩,⟨[45,49],some 3,[],[⟨256,.other,false,none⟩,⟨256,.ws,false,none⟩,⟨256,.lf,false,some ⟨0,[.setEnt .newline],some 3,true⟩⟩,⟨256,.vt,false,none⟩,⟨256,.ff,false,none⟩,⟨256,.cr,false,none⟩,⟨256,.cr,true,none⟩]⟩,⟨[27,50],some 4,[],[⟨256,.other,false,some ⟨7,[.code],none,false⟩⟩,⟨256,.ws,false,some ⟨8,[],none,false⟩⟩,⟨256,.lf,false,some ⟨7,[.code],none,false⟩⟩,⟨256,.vt,false,some ⟨7,[.code],none,false⟩⟩,⟨256,.ff,false,some ⟨7,[.code],none,false⟩⟩,⟨256,.cr,false,some ⟨7,[.code],none,false⟩⟩,⟨256,.cr,true,some ⟨7,[.code],none,false⟩⟩,⟨256,.other,false,some ⟨0,[],some 2,true⟩⟩,⟨256,.other,false,some ⟨9,[],none,false⟩⟩]⟩,⟨[15,50],some 4,[],[⟨256,.other,false,some ⟨10,[.code],none,false⟩⟩,⟨256,.ws,false,some ⟨11,[],none,false⟩⟩,⟨256,.lf,false,some ⟨10,[.code],none,false⟩⟩,⟨256,.vt,false,some ⟨10,[.code],none,false⟩⟩,⟨256,.ff,false,some ⟨10,[.code],none,false⟩⟩,⟨256,.cr,false,some ⟨10,[.code],none,false⟩⟩,⟨256,.cr,true,some ⟨10,[.code],none,false⟩⟩,⟨256,.other,false,some ⟨0,[],some 2,true⟩⟩,⟨256,.other,false,some ⟨12,[],none,false⟩⟩]⟩,⟨[1,4,39,50],some 4,[],[⟨256,.other,false,some ⟨13,[],none,false⟩⟩,⟨256,.ws,false,some ⟨13,[],none,false⟩⟩,⟨256,.lf,false,some ⟨13,[],none,false⟩⟩,⟨256,.vt,false,some ⟨13,[],none,false⟩⟩,⟨256,.ff,false,some ⟨13,[],none,false⟩⟩,⟨256,.cr,false,some ⟨13,[],none,false⟩⟩,⟨256,.cr,true,some ⟨13,[],none,false⟩⟩,⟨256,.other,false,some ⟨14,[.comment],none,false⟩⟩,⟨256,.other,false,some ⟨15,[.comment],some 1,false⟩⟩]⟩,⟨[35],none,[],[⟨256,.other,false,some ⟨7,[.code],none,false⟩⟩,⟨256,.ws,false,some ⟨8,[],none,false⟩⟩,⟨256,.lf,false,some ⟨7,[.code],none,false⟩⟩,⟨256,.vt,false,some ⟨7,[.code],none,false⟩⟩,⟨256,.ff,false,some ⟨7,[.code],none,false⟩⟩,⟨256,.cr,false,some ⟨7,[.code],none,false⟩⟩,⟨256,.cr,true,some ⟨7,[.code],none,false⟩⟩,⟨256,.other,false,some ⟨0,[],some 2,true⟩⟩,⟨256,.other,false,some ⟨9,[],none,false⟩⟩]⟩,⟨[34],none,[],[⟨256,.other,false,some ⟨7,[.code],none,false⟩⟩,⟨256,.ws,false,some ⟨8,[],none,false⟩⟩,⟨256,.lf,false,some ⟨7,[.code],none,false⟩⟩,⟨256,.vt,false,some ⟨7,[.code],none,false⟩⟩,⟨256,.ff,false,some ⟨7,[.code],none,false⟩⟩,⟨256,.cr,false,some ⟨7,[.code],none,false⟩⟩,⟨256,.cr,true,some ⟨7,[.code],none,false⟩⟩,⟨256,.other,false,some ⟨0,[],some 2,true⟩⟩,⟨256,.other,false,some ⟨9,[],none,false⟩⟩]⟩,⟨[28,36],none,[],[⟨256,.other,false,some ⟨16,[.code],none,false⟩⟩,⟨256,.ws,false,some ⟨16,[.code],none,false⟩⟩,⟨256,.lf,false,some ⟨17,[],none,false⟩⟩,⟨256,.vt,false,some ⟨16,[.code],none,false⟩⟩,⟨256,.ff,false,some ⟨18,[],none,false⟩⟩,⟨256,.cr,false,some ⟨19,[],none,false⟩⟩,⟨256,.cr,true,some ⟨20,[],none,false⟩⟩]⟩,⟨[23],none,[],[⟨256,.other,false,some ⟨10,[.code],none,false⟩⟩,⟨256,.ws,false,some ⟨11,[],none,false⟩⟩,⟨256,.lf,false,some ⟨10,[.code],none,false⟩⟩,⟨256,.vt,false,some ⟨10,[.code],none,false⟩⟩,⟨256,.ff,false,some ⟨10,[.code],none,false⟩⟩,⟨256,.cr,false,some ⟨10,[.code],none,false⟩⟩,⟨256,.cr,true,some ⟨10,[.code],none,false⟩⟩,⟨256,.other,false,some ⟨0,[],some 2,true⟩⟩,⟨256,.other,false,some ⟨12,[],none,false⟩⟩]⟩,⟨[22],none,[],[⟨256,.other,false,some ⟨10,[.code],none,false⟩⟩,⟨256,.ws,false,some ⟨11,[],none,false⟩⟩,⟨256,.lf,false,some ⟨10,[.code],none,false⟩⟩,⟨256,.vt,false,some ⟨10,[.code],none,false⟩⟩,⟨256,.ff,false,some ⟨10,[.code],none,false⟩⟩,⟨256,.cr,false,some ⟨10,[.code],none,false⟩⟩,⟨256,.cr,true,some ⟨10,[.code],none,false⟩⟩,⟨256,.other,false,some ⟨0,[],some 2,true⟩⟩,⟨256,.other,false,some ⟨12,[],none,false⟩⟩]⟩,⟨[16,24],none,[],[⟨256,.other,false,some ⟨21,[.code],none,false⟩⟩,⟨256,.ws,false,some ⟨21,[.code],none,false⟩⟩,⟨256,.lf,false,some ⟨22,[],none,false⟩⟩,⟨256,.vt,false,some ⟨21,[.code],none,false⟩⟩,⟨256,.ff,false,some ⟨23,[],none,false⟩⟩,⟨256,.cr,false,some ⟨24,[],none,false⟩⟩,⟨256,.cr,true,some ⟨25,[],none,false⟩⟩]⟩,⟨[40],none,[],[⟨256,.other,false,some ⟨26,[],none,false⟩⟩,⟨256,.ws,false,some ⟨26,[],none,false⟩⟩,⟨256,.lf,false,none⟩,⟨256,.vt,false,some ⟨26,[],none,false⟩⟩,⟨256,.ff,false,none⟩,⟨256,.cr,false,none⟩,⟨256,.cr,true,none⟩,⟨256,.other,false,some ⟨0,[.code],some 2,true⟩⟩,⟨256,.other,false,some ⟨27,[],none,false⟩⟩]⟩,⟨[5],none,[],[⟨256,.other,false,some ⟨28,[.comment],none,false⟩⟩,⟨256,.ws,false,some ⟨29,[],none,false⟩⟩,⟨256,.lf,false,some ⟨30,[],none,false⟩⟩,⟨256,.vt,false,some ⟨28,[.comment],none,false⟩⟩,⟨256,.ff,false,some ⟨31,[],none,false⟩⟩,⟨256,.cr,false,some ⟨32,[],none,false⟩⟩,⟨256,.cr,true,some ⟨33,[],none,false⟩⟩,⟨256,.other,false,some ⟨34,[.comment],none,false⟩⟩]⟩,⟨[2],some 1,[],[⟨256,.other,false,some ⟨35,[],some 1,false⟩⟩,⟨256,.ws,false,some ⟨35,[],some 1,false⟩⟩,⟨256,.lf,false,none⟩,⟨256,.vt,false,some ⟨35,[],some 1,false⟩⟩,⟨256,.ff,false,none⟩,⟨256,.cr,false,none⟩,⟨256,.cr,true,none⟩]⟩,⟨[37],none,[],[⟨256,.other,false,some ⟨7,[.code],none,false⟩⟩,⟨256,.ws,false,some ⟨8,[],none,false⟩⟩,⟨256,.lf,false,some ⟨7,[.code],none,false⟩⟩,⟨256,.vt,false,some ⟨7,[.code],none,false⟩⟩,⟨256,.ff,false,some ⟨7,[.code],none,false⟩⟩,⟨256,.cr,false,some ⟨7,[.code],none,false⟩⟩,⟨256,.cr,true,some ⟨7,[.code],none,false⟩⟩,⟨256,.other,false,some ⟨0,[],some 2,true⟩⟩,⟨256,.other,false,some ⟨9,[],none,false⟩⟩]⟩,⟨[31],none,[],[⟨256,.other,false,some ⟨7,[.setEnt .internalNl,.cb,.code],none,false⟩⟩,⟨256,.ws,false,some ⟨8,[.setEnt .internalNl,.cb],none,false⟩⟩,⟨256,.lf,false,some ⟨7,[.setEnt .internalNl,.cb,.code],none,false⟩⟩,⟨256,.vt,false,some ⟨7,[.setEnt .internalNl,.cb,.code],none,false⟩⟩,⟨256,.ff,false,some ⟨7,[.setEnt .internalNl,.cb,.code],none,false⟩⟩,⟨256,.cr,false,some ⟨7,[.setEnt .internalNl,.cb,.code],none,false⟩⟩,⟨256,.cr,true,some ⟨7,[.setEnt .internalNl,.cb,.code],none,false⟩⟩,⟨256,.other,false,some ⟨0,[.setEnt .internalNl,.cb],some 2,true⟩⟩,⟨256,.other,false,some ⟨9,[.setEnt .internalNl,.cb],none,false⟩⟩]⟩,⟨[32],none,[],[⟨256,.other,false,some ⟨7,[.setEnt .internalNl,.cb,.code],none,false⟩⟩,⟨256,.ws,false,some ⟨8,[.setEnt .internalNl,.cb],none,false⟩⟩,⟨256,.lf,false,some ⟨7,[.setEnt .internalNl,.cb,.code],none,false⟩⟩,⟨256,.vt,false,some ⟨7,[.setEnt .internalNl,.cb,.code],none,false⟩⟩,⟨256,.ff,false,some ⟨7,[.setEnt .internalNl,.cb,.code],none,false⟩⟩,⟨256,.cr,false,some ⟨7,[.setEnt .internalNl,.cb,.code],none,false⟩⟩,⟨256,.cr,true,some ⟨7,[.setEnt .internalNl,.cb,.code],none,false⟩⟩,⟨256,.other,false,some ⟨0,[.setEnt .internalNl,.cb],some 2,true⟩⟩,⟨256,.other,false,some ⟨9,[.setEnt .internalNl,.cb],none,false⟩⟩]⟩,⟨[29],none,[],[⟨256,.other,false,none⟩,⟨256,.ws,false,none⟩,⟨256,.lf,false,some ⟨36,[],none,false⟩⟩,⟨256,.vt,false,none⟩,⟨256,.ff,false,none⟩,⟨256,.cr,false,none⟩,⟨256,.cr,true,none⟩]⟩,⟨[29,33],none,[],[⟨256,.other,false,some ⟨7,[.setEnt .internalNl,.cb,.code],none,false⟩⟩,⟨256,.ws,false,some ⟨8,[.setEnt .internalNl,.cb],none,false⟩⟩,⟨256,.lf,false,some ⟨37,[.setEnt .internalNl,.cb,.code],none,false⟩⟩,⟨256,.vt,false,some ⟨7,[.setEnt .internalNl,.cb,.code],none,false⟩⟩,⟨256,.ff,false,some ⟨7,[.setEnt .internalNl,.cb,.code],none,false⟩⟩,⟨256,.cr,false,some ⟨7,[.setEnt .internalNl,.cb,.code],none,false⟩⟩,⟨256,.cr,true,some ⟨7,[.setEnt .internalNl,.cb,.code],none,false⟩⟩,⟨256,.other,false,some ⟨0,[.setEnt .internalNl,.cb],some 2,true⟩⟩,⟨256,.other,false,some ⟨9,[.setEnt .internalNl,.cb],none,false⟩⟩]⟩,⟨[25],none,[],[⟨256,.other,false,some ⟨10,[.code],none,false⟩⟩,⟨256,.ws,false,some ⟨11,[],none,false⟩⟩,⟨256,.lf,false,some ⟨10,[.code],none,false⟩⟩,⟨256,.vt,false,some ⟨10,[.code],none,false⟩⟩,⟨256,.ff,false,some ⟨10,[.code],none,false⟩⟩,⟨256,.cr,false,some ⟨10,[.code],none,false⟩⟩,⟨256,.cr,true,some ⟨10,[.code],none,false⟩⟩,⟨256,.other,false,some ⟨0,[],some 2,true⟩⟩,⟨256,.other,false,some ⟨12,[],none,false⟩⟩]⟩,⟨[19],none,[],[⟨256,.other,false,some ⟨10,[.setEnt .internalNl,.cb,.code],none,false⟩⟩,⟨256,.ws,false,some ⟨11,[.setEnt .internalNl,.cb],none,false⟩⟩,⟨256,.lf,false,some ⟨10,[.setEnt .internalNl,.cb,.code],none,false⟩⟩,⟨256,.vt,false,some ⟨10,[.setEnt .internalNl,.cb,.code],none,false⟩⟩,⟨256,.ff,false,some ⟨10,[.setEnt .internalNl,.cb,.code],none,false⟩⟩,⟨256,.cr,false,some ⟨10,[.setEnt .internalNl,.cb,.code],none,false⟩⟩,⟨256,.cr,true,some ⟨10,[.setEnt .internalNl,.cb,.code],none,false⟩⟩,⟨256,.other,false,some ⟨0,[.setEnt .internalNl,.cb],some 2,true⟩⟩,⟨256,.other,false,some ⟨12,[.setEnt .internalNl,.cb],none,false⟩⟩]⟩,⟨[20],none,[],[⟨256,.other,false,some ⟨10,[.setEnt .internalNl,.cb,.code],none,false⟩⟩,⟨256,.ws,false,some ⟨11,[.setEnt .internalNl,.cb],none,false⟩⟩,⟨256,.lf,false,some ⟨10,[.setEnt .internalNl,.cb,.code],none,false⟩⟩,⟨256,.vt,false,some ⟨10,[.setEnt .internalNl,.cb,.code],none,false⟩⟩,⟨256,.ff,false,some ⟨10,[.setEnt .internalNl,.cb,.code],none,false⟩⟩,⟨256,.cr,false,some ⟨10,[.setEnt .internalNl,.cb,.code],none,false⟩⟩,⟨256,.cr,true,some ⟨10,[.setEnt .internalNl,.cb,.code],none,false⟩⟩,⟨256,.other,false,some ⟨0,[.setEnt .internalNl,.cb],some 2,true⟩⟩,⟨256,.other,false,some ⟨12,[.setEnt .internalNl,.cb],none,false⟩⟩]⟩,⟨[17],none,[],[⟨256,.other,false,none⟩,⟨256,.ws,false,none⟩,⟨256,.lf,false,some ⟨38,[],none,false⟩⟩,⟨256,.vt,false,none⟩,⟨256,.ff,false,none⟩,⟨256,.cr,false,none⟩,⟨256,.cr,true,none⟩]⟩,⟨[17,21],none,[],[⟨256,.other,false,some ⟨10,[.setEnt .internalNl,.cb,.code],none,false⟩⟩,⟨256,.ws,false,some ⟨11,[.setEnt .internalNl,.cb],none,false⟩⟩,⟨256,.lf,false,some ⟨39,[.setEnt .internalNl,.cb,.code],none,false⟩⟩,⟨256,.vt,false,some ⟨10,[.setEnt .internalNl,.cb,.code],none,false⟩⟩,⟨256,.ff,false,some ⟨10,[.setEnt .internalNl,.cb,.code],none,false⟩⟩,⟨256,.cr,false,some ⟨10,[.setEnt .internalNl,.cb,.code],none,false⟩⟩,⟨256,.cr,true,some ⟨10,[.setEnt .internalNl,.cb,.code],none,false⟩⟩,⟨256,.other,false,some ⟨0,[.setEnt .internalNl,.cb],some 2,true⟩⟩,⟨256,.other,false,some ⟨12,[.setEnt .internalNl,.cb],none,false⟩⟩]⟩,⟨[41],none,[],[⟨256,.other,false,some ⟨26,[],none,false⟩⟩,⟨256,.ws,false,some ⟨26,[],none,false⟩⟩,⟨256,.lf,false,none⟩,⟨256,.vt,false,some ⟨26,[],none,false⟩⟩,⟨256,.ff,false,none⟩,⟨256,.cr,false,none⟩,⟨256,.cr,true,none⟩,⟨256,.other,false,some ⟨0,[.code],some 2,true⟩⟩,⟨256,.other,false,some ⟨27,[],none,false⟩⟩]⟩,⟨[42],none,[],[⟨256,.other,false,some ⟨40,[],none,false⟩⟩,⟨256,.ws,false,some ⟨40,[],none,false⟩⟩,⟨256,.lf,false,none⟩,⟨256,.vt,false,some ⟨40,[],none,false⟩⟩,⟨256,.ff,false,none⟩,⟨256,.cr,false,none⟩,⟨256,.cr,true,none⟩]⟩,⟨[12],none,[],[⟨256,.other,false,some ⟨28,[.comment],none,false⟩⟩,⟨256,.ws,false,some ⟨29,[],none,false⟩⟩,⟨256,.lf,false,some ⟨30,[],none,false⟩⟩,⟨256,.vt,false,some ⟨28,[.comment],none,false⟩⟩,⟨256,.ff,false,some ⟨31,[],none,false⟩⟩,⟨256,.cr,false,some ⟨32,[],none,false⟩⟩,⟨256,.cr,true,some ⟨33,[],none,false⟩⟩,⟨256,.other,false,some ⟨34,[.comment],none,false⟩⟩]⟩,⟨[11],none,[],[⟨256,.other,false,some ⟨28,[.comment],none,false⟩⟩,⟨256,.ws,false,some ⟨29,[],none,false⟩⟩,⟨256,.lf,false,some ⟨30,[],none,false⟩⟩,⟨256,.vt,false,some ⟨28,[.comment],none,false⟩⟩,⟨256,.ff,false,some ⟨31,[],none,false⟩⟩,⟨256,.cr,false,some ⟨32,[],none,false⟩⟩,⟨256,.cr,true,some ⟨33,[],none,false⟩⟩,⟨256,.other,false,some ⟨34,[.comment],none,false⟩⟩]⟩,⟨[8],none,[],[⟨256,.other,false,some ⟨28,[.setEnt .internalNl,.cb,.comment],none,false⟩⟩,⟨256,.ws,false,some ⟨29,[.setEnt .internalNl,.cb],none,false⟩⟩,⟨256,.lf,false,some ⟨30,[.setEnt .internalNl,.cb],none,false⟩⟩,⟨256,.vt,false,some ⟨28,[.setEnt .internalNl,.cb,.comment],none,false⟩⟩,⟨256,.ff,false,some ⟨31,[.setEnt .internalNl,.cb],none,false⟩⟩,⟨256,.cr,false,some ⟨32,[.setEnt .internalNl,.cb],none,false⟩⟩,⟨256,.cr,true,some ⟨33,[.setEnt .internalNl,.cb],none,false⟩⟩,⟨256,.other,false,some ⟨34,[.setEnt .internalNl,.cb,.comment],none,false⟩⟩]⟩,⟨[9],none,[],[⟨256,.other,false,some ⟨28,[.setEnt .internalNl,.cb,.comment],none,false⟩⟩,⟨256,.ws,false,some ⟨29,[.setEnt .internalNl,.cb],none,false⟩⟩,⟨256,.lf,false,some ⟨30,[.setEnt .internalNl,.cb],none,false⟩⟩,⟨256,.vt,false,some ⟨28,[.setEnt .internalNl,.cb,.comment],none,false⟩⟩,⟨256,.ff,false,some ⟨31,[.setEnt .internalNl,.cb],none,false⟩⟩,⟨256,.cr,false,some ⟨32,[.setEnt .internalNl,.cb],none,false⟩⟩,⟨256,.cr,true,some ⟨33,[.setEnt .internalNl,.cb],none,false⟩⟩,⟨256,.other,false,some ⟨34,[.setEnt .internalNl,.cb,.comment],none,false⟩⟩]⟩,⟨[6],none,[],[⟨256,.other,false,none⟩,⟨256,.ws,false,none⟩,⟨256,.lf,false,some ⟨41,[],none,false⟩⟩,⟨256,.vt,false,none⟩,⟨256,.ff,false,none⟩,⟨256,.cr,false,none⟩,⟨256,.cr,true,none⟩]⟩,⟨[6,10],none,[],[⟨256,.other,false,some ⟨28,[.setEnt .internalNl,.cb,.comment],none,false⟩⟩,⟨256,.ws,false,some ⟨29,[.setEnt .internalNl,.cb],none,false⟩⟩,⟨256,.lf,false,some ⟨42,[.setEnt .internalNl,.cb],none,false⟩⟩,⟨256,.vt,false,some ⟨28,[.setEnt .internalNl,.cb,.comment],none,false⟩⟩,⟨256,.ff,false,some ⟨31,[.setEnt .internalNl,.cb],none,false⟩⟩,⟨256,.cr,false,some ⟨32,[.setEnt .internalNl,.cb],none,false⟩⟩,⟨256,.cr,true,some ⟨33,[.setEnt .internalNl,.cb],none,false⟩⟩,⟨256,.other,false,some ⟨34,[.setEnt .internalNl,.cb,.comment],none,false⟩⟩]⟩,⟨[12,13],none,[],[⟨256,.other,false,some ⟨28,[.comment],none,false⟩⟩,⟨256,.ws,false,some ⟨29,[],none,false⟩⟩,⟨256,.lf,false,some ⟨30,[],none,false⟩⟩,⟨256,.vt,false,some ⟨28,[.comment],none,false⟩⟩,⟨256,.ff,false,some ⟨31,[],none,false⟩⟩,⟨256,.cr,false,some ⟨32,[],none,false⟩⟩,⟨256,.cr,true,some ⟨33,[],none,false⟩⟩,⟨256,.other,false,some ⟨34,[.comment],none,false⟩⟩,⟨256,.other,false,some ⟨0,[],some 1,true⟩⟩]⟩,⟨[3],some 1,[],[⟨256,.other,false,some ⟨35,[],some 1,false⟩⟩,⟨256,.ws,false,some ⟨35,[],some 1,false⟩⟩,⟨256,.lf,false,none⟩,⟨256,.vt,false,some ⟨35,[],some 1,false⟩⟩,⟨256,.ff,false,none⟩,⟨256,.cr,false,none⟩,⟨256,.cr,true,none⟩]⟩,⟨[30],none,[],[⟨256,.other,false,some ⟨7,[.setEnt .internalNl,.cb,.code],none,false⟩⟩,⟨256,.ws,false,some ⟨8,[.setEnt .internalNl,.cb],none,false⟩⟩,⟨256,.lf,false,some ⟨7,[.setEnt .internalNl,.cb,.code],none,false⟩⟩,⟨256,.vt,false,some ⟨7,[.setEnt .internalNl,.cb,.code],none,false⟩⟩,⟨256,.ff,false,some ⟨7,[.setEnt .internalNl,.cb,.code],none,false⟩⟩,⟨256,.cr,false,some ⟨7,[.setEnt .internalNl,.cb,.code],none,false⟩⟩,⟨256,.cr,true,some ⟨7,[.setEnt .internalNl,.cb,.code],none,false⟩⟩,⟨256,.other,false,some ⟨0,[.setEnt .internalNl,.cb],some 2,true⟩⟩,⟨256,.other,false,some ⟨9,[.setEnt .internalNl,.cb],none,false⟩⟩]⟩,⟨[30,35],none,[],[⟨256,.other,false,some ⟨7,[.setEnt .internalNl,.cb,.code],none,false⟩⟩,⟨256,.ws,false,some ⟨8,[.setEnt .internalNl,.cb],none,false⟩⟩,⟨256,.lf,false,some ⟨7,[.setEnt .internalNl,.cb,.code],none,false⟩⟩,⟨256,.vt,false,some ⟨7,[.setEnt .internalNl,.cb,.code],none,false⟩⟩,⟨256,.ff,false,some ⟨7,[.setEnt .internalNl,.cb,.code],none,false⟩⟩,⟨256,.cr,false,some ⟨7,[.setEnt .internalNl,.cb,.code],none,false⟩⟩,⟨256,.cr,true,some ⟨7,[.setEnt .internalNl,.cb,.code],none,false⟩⟩,⟨256,.other,false,some ⟨0,[.setEnt .internalNl,.cb],some 2,true⟩⟩,⟨256,.other,false,some ⟨9,[.setEnt .internalNl,.cb],none,false⟩⟩]⟩,⟨[18],none,[],[⟨256,.other,false,some ⟨10,[.setEnt .internalNl,.cb,.code],none,false⟩⟩,⟨256,.ws,false,some ⟨11,[.setEnt .internalNl,.cb],none,false⟩⟩,⟨256,.lf,false,some ⟨10,[.setEnt .internalNl,.cb,.code],none,false⟩⟩,⟨256,.vt,false,some ⟨10,[.setEnt .internalNl,.cb,.code],none,false⟩⟩,⟨256,.ff,false,some ⟨10,[.setEnt .internalNl,.cb,.code],none,false⟩⟩,⟨256,.cr,false,some ⟨10,[.setEnt .internalNl,.cb,.code],none,false⟩⟩,⟨256,.cr,true,some ⟨10,[.setEnt .internalNl,.cb,.code],none,false⟩⟩,⟨256,.other,false,some ⟨0,[.setEnt .internalNl,.cb],some 2,true⟩⟩,⟨256,.other,false,some ⟨12,[.setEnt .internalNl,.cb],none,false⟩⟩]⟩,⟨[18,23],none,[],[⟨256,.other,false,some ⟨10,[.setEnt .internalNl,.cb,.code],none,false⟩⟩,⟨256,.ws,false,some ⟨11,[.setEnt .internalNl,.cb],none,false⟩⟩,⟨256,.lf,false,some ⟨10,[.setEnt .internalNl,.cb,.code],none,false⟩⟩,⟨256,.vt,false,some ⟨10,[.setEnt .internalNl,.cb,.code],none,false⟩⟩,⟨256,.ff,false,some ⟨10,[.setEnt .internalNl,.cb,.code],none,false⟩⟩,⟨256,.cr,false,some ⟨10,[.setEnt .internalNl,.cb,.code],none,false⟩⟩,⟨256,.cr,true,some ⟨10,[.setEnt .internalNl,.cb,.code],none,false⟩⟩,⟨256,.other,false,some ⟨0,[.setEnt .internalNl,.cb],some 2,true⟩⟩,⟨256,.other,false,some ⟨12,[.setEnt .internalNl,.cb],none,false⟩⟩]⟩,⟨[43],none,[],[⟨256,.other,false,some ⟨26,[],none,false⟩⟩,⟨256,.ws,false,some ⟨26,[],none,false⟩⟩,⟨256,.lf,false,none⟩,⟨256,.vt,false,some ⟨26,[],none,false⟩⟩,⟨256,.ff,false,none⟩,⟨256,.cr,false,none⟩,⟨256,.cr,true,none⟩,⟨256,.other,false,some ⟨0,[.code],some 2,true⟩⟩,⟨256,.other,false,some ⟨27,[],none,false⟩⟩]⟩,⟨[7],none,[],[⟨256,.other,false,some ⟨28,[.setEnt .internalNl,.cb,.comment],none,false⟩⟩,⟨256,.ws,false,some ⟨29,[.setEnt .internalNl,.cb],none,false⟩⟩,⟨256,.lf,false,some ⟨30,[.setEnt .internalNl,.cb],none,false⟩⟩,⟨256,.vt,false,some ⟨28,[.setEnt .internalNl,.cb,.comment],none,false⟩⟩,⟨256,.ff,false,some ⟨31,[.setEnt .internalNl,.cb],none,false⟩⟩,⟨256,.cr,false,some ⟨32,[.setEnt .internalNl,.cb],none,false⟩⟩,⟨256,.cr,true,some ⟨33,[.setEnt .internalNl,.cb],none,false⟩⟩,⟨256,.other,false,some ⟨34,[.setEnt .internalNl,.cb,.comment],none,false⟩⟩]⟩,⟨[7,8],none,[],[⟨256,.other,false,some ⟨28,[.setEnt .internalNl,.cb,.comment],none,false⟩⟩,⟨256,.ws,false,some ⟨29,[.setEnt .internalNl,.cb],none,false⟩⟩,⟨256,.lf,false,some ⟨30,[.setEnt .internalNl,.cb],none,false⟩⟩,⟨256,.vt,false,some ⟨28,[.setEnt .internalNl,.cb,.comment],none,false⟩⟩,⟨256,.ff,false,some ⟨31,[.setEnt .internalNl,.cb],none,false⟩⟩,⟨256,.cr,false,some ⟨32,[.setEnt .internalNl,.cb],none,false⟩⟩,⟨256,.cr,true,some ⟨33,[.setEnt .internalNl,.cb],none,false⟩⟩,⟨256,.other,false,some ⟨34,[.setEnt .internalNl,.cb,.comment],none,false⟩⟩]⟩]
theorem chai_line_rowsOk : rowsOk chai_line_nfa [] (chai_line_cs.map (·.1)) chai_line_rows = true := by decide +kernel
def chai_line_D : Dfa chai_line_M.nfa := ⟨chai_line_masks, [], chai_line_cs, chai_line_rows, chai_line_masksIn, chai_line_repOk, chai_line_rowsOk⟩

def cb_line_nfa : Nfa := ⟨[⟨0,4294967808,[],[(0,.setEnt (.own 0))],0,0⟩,⟨1,287948901175001088,[],[],0,0⟩,⟨8,17179869184,[],[(2,.code)],0,0⟩,⟨13,8192,[],[(3,.setEnt .newline)],0,0⟩,⟨15,1024,[],[(3,.setEnt .newline)],0,0⟩,⟨16,4096,[],[(3,.setEnt .newline)],0,0⟩,⟨17,8192,[.crAlone],[(3,.setEnt .newline)],0,0⟩,⟨18,115792089237316195423570985008687907853269984665640564039457584007908834656767,[],[(4,.setEnt (.own 3))],0,0⟩],[[⟨0,4294967808,[],[(0,.setEnt (.own 0))],0,0⟩],[⟨1,287948901175001088,[],[],0,0⟩,⟨2,4294967808,[],[],0,0⟩],[⟨2,4294967808,[],[],0,0⟩,⟨3,549755813888,[],[(1,.comment)],0,0⟩,⟨4,20769187438975013792580502015705088,[],[],0,0⟩],[⟨7,115792089237316195423570985008687907853269984665640564039457584007913129626623,[],[],0,0⟩],[⟨5,2535301201046754613352112062464,[],[],0,0⟩],[⟨6,649037107467969181018140687990784,[],[(1,.comment)],0,0⟩],[⟨7,115792089237316195423570985008687907853269984665640564039457584007913129626623,[],[],0,0⟩],[⟨7,115792089237316195423570985008687907853269984665640564039457584007913129626623,[],[],0,0⟩],[⟨9,115792089237316195423570985008687907853269984665635612279300442486796353260543,[],[],0,0⟩,⟨10,4951760157141521099596496896,[],[],0,0⟩,⟨12,17179869184,[],[],0,0⟩],[⟨9,115792089237316195423570985008687907853269984665635612279300442486796353260543,[],[],0,0⟩,⟨10,4951760157141521099596496896,[],[],0,0⟩,⟨12,17179869184,[],[],0,0⟩],[⟨11,115792089237316195423570985008687907853269984665640564039457584007913129626623,[],[],0,0⟩],[⟨9,115792089237316195423570985008687907853269984665635612279300442486796353260543,[],[],0,0⟩,⟨10,4951760157141521099596496896,[],[],0,0⟩,⟨12,17179869184,[],[],0,0⟩],[],[⟨14,1024,[],[(3,.setEnt .newline)],0,0⟩],[],[],[],[],[]],[some (0,[]),none,none,some (1,[]),none,none,some (1,[]),some (1,[]),none,none,none,none,some (2,[]),none,some (3,[]),some (3,[]),some (3,[]),some (3,[]),some (4,[])],[1,2,3,4,5]⟩
theorem cb_line_nfa_eq : ClassicBasic.cb_line.nfa = cb_line_nfa := by decide +kernel
/-- The machine of `ClassicBasic.cb_line`, with its automaton as a literal. -/
def cb_line_M : Machine := ⟨cb_line_nfa, ClassicBasic.cb_line.ends, ClassicBasic.cb_line.sw⟩
theorem cb_line_M_eq : ClassicBasic.cb_line.machine = cb_line_M := by
  unfold Scanner.machine cb_line_M; rw [cb_line_nfa_eq]
def cb_line_masks : List Nat := [4294967808,287948901175001088,17179869184,8192,1024,4096,115792089237316195423570985008687907853269984665640564039457584007908834656767,549755813888,20769187438975013792580502015705088,115792089237316195423570985008687907853269984665640564039457584007913129626623,2535301201046754613352112062464,649037107467969181018140687990784,115792089237316195423570985008687907853269984665635612279300442486796353260543,4951760157141521099596496896]
def cb_line_cs : List (Nat × Nat) := [(0,115792089237316195423570985008687907853269963244875764635270426325346311717375),(9,4294967808),(10,1024),(11,2048),(12,4096),(13,8192),(34,17179869184),(39,549755813888),(48,287948901175001088),(69,2535301201046754613352112062464),(77,649037107467969181018140687990784),(82,20769187438975013792580502015705088),(92,4951760157141521099596496896)]
theorem cb_line_masksIn : masksIn cb_line_nfa cb_line_masks = true := by decide +kernel
theorem cb_line_repOk : repOk cb_line_masks cb_line_cs = true := by decide +kernel
def cb_line_rows : List Row := [⟨[],none,[],[⟨256,.other,false,some ⟨0,[.setEnt (.own 3)],some 4,true⟩⟩,⟨256,.ws,false,some ⟨1,[.setEnt (.own 0)],some 0,false⟩⟩,⟨256,.lf,false,some ⟨0,[.setEnt .newline],some 3,true⟩⟩,⟨256,.vt,false,none⟩,⟨256,.ff,false,some ⟨0,[.setEnt .newline],some 3,true⟩⟩,⟨256,.cr,false,some ⟨2,[.setEnt .newline],none,false⟩⟩,⟨256,.cr,true,some ⟨3,[.setEnt .newline],some 3,false⟩⟩,⟨256,.other,false,some ⟨4,[.code,.setEnt (.own 3)],some 4,false⟩⟩,⟨256,.other,false,some ⟨5,[.setEnt (.own 3)],some 4,false⟩⟩]⟩,⟨[0],some 0,[],[⟨256,.other,false,none⟩,⟨256,.ws,false,some ⟨1,[.setEnt (.own 0)],some 0,false⟩⟩,⟨256,.lf,false,none⟩,⟨256,.vt,false,none⟩,⟨256,.ff,false,none⟩,⟨256,.cr,false,none⟩,⟨256,.cr,true,none⟩]⟩,⟨[13],none,[],[⟨256,.other,false,none⟩,⟨256,.ws,false,none⟩,⟨256,.lf,false,some ⟨0,[.setEnt .newline],some 3,true⟩⟩,⟨256,.vt,false,none⟩,⟨256,.ff,false,none⟩,⟨256,.cr,false,none⟩,⟨256,.cr,true,none⟩]⟩,⟨[13,17],some 3,[],[⟨256,.other,false,none⟩,⟨256,.ws,false,none⟩,⟨256,.lf,false,some ⟨0,[.setEnt .newline],some 3,true⟩⟩,⟨256,.vt,false,none⟩,⟨256,.ff,false,none⟩,⟨256,.cr,false,none⟩,⟨256,.cr,true,none⟩]⟩,⟨[8,18],some 4,[],[⟨256,.other,false,some ⟨6,[],none,false⟩⟩,⟨256,.ws,false,some ⟨6,[],none,false⟩⟩,⟨256,.lf,false,none⟩,⟨256,.vt,false,some ⟨6,[],none,false⟩⟩,⟨256,.ff,false,none⟩,⟨256,.cr,false,none⟩,⟨256,.cr,true,none⟩,⟨256,.other,false,some ⟨0,[],some 2,true⟩⟩,⟨256,.other,false,some ⟨7,[],none,false⟩⟩]⟩,⟨[1,18],some 4,[],[⟨256,.other,false,none⟩,⟨256,.ws,false,some ⟨8,[],none,false⟩⟩,⟨256,.lf,false,none⟩,⟨256,.vt,false,none⟩,⟨256,.ff,false,none⟩,⟨256,.cr,false,none⟩,⟨256,.cr,true,none⟩,⟨256,.other,false,some ⟨9,[],none,false⟩⟩]⟩,⟨[9],none,[],[⟨256,.other,false,some ⟨6,[],none,false⟩⟩,⟨256,.ws,false,some ⟨6,[],none,false⟩⟩,⟨256,.lf,false,none⟩,⟨256,.vt,false,some ⟨6,[],none,false⟩⟩,⟨256,.ff,false,none⟩,⟨256,.cr,false,none⟩,⟨256,.cr,true,none⟩,⟨256,.other,false,some ⟨0,[],some 2,true⟩⟩,⟨256,.other,false,some ⟨7,[],none,false⟩⟩]⟩,⟨[10],none,[],[⟨256,.other,false,some ⟨10,[],none,false⟩⟩,⟨256,.ws,false,some ⟨10,[],none,false⟩⟩,⟨256,.lf,false,none⟩,⟨256,.vt,false,some ⟨10,[],none,false⟩⟩,⟨256,.ff,false,none⟩,⟨256,.cr,false,none⟩,⟨256,.cr,true,none⟩]⟩,⟨[2],none,[],[⟨256,.other,false,none⟩,⟨256,.ws,false,some ⟨8,[],none,false⟩⟩,⟨256,.lf,false,none⟩,⟨256,.vt,false,none⟩,⟨256,.ff,false,none⟩,⟨256,.cr,false,none⟩,⟨256,.cr,true,none⟩,⟨256,.other,false,some ⟨11,[.comment],some 1,false⟩⟩,⟨256,.other,false,some ⟨12,[],none,false⟩⟩]⟩,⟨[1],none,[],[⟨256,.other,false,none⟩,⟨256,.ws,false,some ⟨8,[],none,false⟩⟩,⟨256,.lf,false,none⟩,⟨256,.vt,false,none⟩,⟨256,.ff,false,none⟩,⟨256,.cr,false,none⟩,⟨256,.cr,true,none⟩,⟨256,.other,false,some ⟨9,[],none,false⟩⟩]⟩,⟨[11],none,[],[⟨256,.other,false,some ⟨6,[],none,false⟩⟩,⟨256,.ws,false,some ⟨6,[],none,false⟩⟩,⟨256,.lf,false,none⟩,⟨256,.vt,false,some ⟨6,[],none,false⟩⟩,⟨256,.ff,false,none⟩,⟨256,.cr,false,none⟩,⟨256,.cr,true,none⟩,⟨256,.other,false,some ⟨0,[],some 2,true⟩⟩,⟨256,.other,false,some ⟨7,[],none,false⟩⟩]⟩,⟨[3],some 1,[],[⟨256,.other,false,some ⟨13,[],some 1,false⟩⟩,⟨256,.ws,false,some ⟨13,[],some 1,false⟩⟩,⟨256,.lf,false,none⟩,⟨256,.vt,false,some ⟨13,[],some 1,false⟩⟩,⟨256,.ff,false,none⟩,⟨256,.cr,false,none⟩,⟨256,.cr,true,none⟩]⟩,⟨[4],none,[],[⟨256,.other,false,none⟩,⟨256,.ws,false,none⟩,⟨256,.lf,false,none⟩,⟨256,.vt,false,none⟩,⟨256,.ff,false,none⟩,⟨256,.cr,false,none⟩,⟨256,.cr,true,none⟩,⟨256,.other,false,some ⟨14,[],none,false⟩⟩]⟩,⟨[7],some 1,[],[⟨256,.other,false,some ⟨13,[],some 1,false⟩⟩,⟨256,.ws,false,some ⟨13,[],some 1,false⟩⟩,⟨256,.lf,false,none⟩,⟨256,.vt,false,some ⟨13,[],some 1,false⟩⟩,⟨256,.ff,false,none⟩,⟨256,.cr,false,none⟩,⟨256,.cr,true,none⟩]⟩,⟨[5],none,[],[⟨256,.other,false,none⟩,⟨256,.ws,false,none⟩,⟨256,.lf,false,none⟩,⟨256,.vt,false,none⟩,⟨256,.ff,false,none⟩,⟨256,.cr,false,none⟩,⟨256,.cr,true,none⟩,⟨256,.other,false,some ⟨15,[.comment],some 1,false⟩⟩]⟩,⟨[6],some 1,[],[⟨256,.other,false,some ⟨13,[],some 1,false⟩⟩,⟨256,.ws,false,some ⟨13,[],some 1,false⟩⟩,⟨256,.lf,false,none⟩,⟨256,.vt,false,some ⟨13,[],some 1,false⟩⟩,⟨256,.ff,false,none⟩,⟨256,.cr,false,none⟩,⟨256,.cr,true,none⟩]⟩]
theorem cb_line_rowsOk : rowsOk cb_line_nfa [] (cb_line_cs.map (·.1)) cb_line_rows = true := by decide +kernel
def cb_line_D : Dfa cb_line_M.nfa := ⟨cb_line_masks, [], cb_line_cs, cb_line_rows, cb_line_masksIn, cb_line_repOk, cb_line_rowsOk⟩

def livecode_line_nfa : Nfa := ⟨[⟨0,4294967808,[],[(0,.setEnt (.own 0))],0,0⟩,⟨1,35184372088832,[],[],0,0⟩,⟨3,34359738368,[],[(1,.comment)],0,0⟩,⟨4,140737488355328,[],[],0,0⟩,⟨7,140737488355328,[],[],0,2⟩,⟨18,17179869184,[],[(6,.code)],0,0⟩,⟨23,8192,[],[(7,.setEnt .newline)],0,0⟩,⟨25,1024,[],[(7,.setEnt .newline)],0,0⟩,⟨26,4096,[],[(7,.setEnt .newline)],0,0⟩,⟨27,8192,[.crAlone],[(7,.setEnt .newline)],0,0⟩,⟨28,115792089237316195423570985008687907853269984665640564039457584007908834656767,[],[(8,.setEnt (.own 3))],0,0⟩],[[⟨0,4294967808,[],[(0,.setEnt (.own 0))],0,0⟩],[⟨2,35184372088832,[],[(1,.comment)],0,0⟩],[⟨6,115792089237316195423570985008687907853269984665640564039457584007913129626623,[],[],0,0⟩],[⟨6,115792089237316195423570985008687907853269984665640564039457584007913129626623,[],[],0,0⟩],[⟨5,140737488355328,[],[(1,.comment)],0,0⟩],[⟨6,115792089237316195423570985008687907853269984665640564039457584007913129626623,[],[],0,0⟩],[⟨6,115792089237316195423570985008687907853269984665640564039457584007913129626623,[],[],0,0⟩],[⟨8,4398046511104,[],[(2,.comment)],0,2⟩],[⟨9,8192,[],[],0,2⟩,⟨11,1024,[],[],0,2⟩,⟨12,4096,[],[],0,2⟩,⟨13,8192,[.crAlone],[],0,2⟩,⟨14,4294967808,[],[],0,2⟩,⟨15,115792089237316195423570985008687907853269984665640564039457584007908834658815,[],[(5,.comment)],0,2⟩,⟨16,4398046511104,[],[],0,2⟩],[⟨10,1024,[],[],0,2⟩],[⟨9,8192,[],[(3,.setEnt .internalNl),(4,.cb)],0,2⟩,⟨11,1024,[],[(3,.setEnt .internalNl),(4,.cb)],0,2⟩,⟨12,4096,[],[(3,.setEnt .internalNl),(4,.cb)],0,2⟩,⟨13,8192,[.crAlone],[(3,.setEnt .internalNl),(4,.cb)],0,2⟩,⟨14,4294967808,[],[(3,.setEnt .internalNl),(4,.cb)],0,2⟩,⟨15,115792089237316195423570985008687907853269984665640564039457584007908834658815,[],[(3,.setEnt .internalNl),(4,.cb),(5,.comment)],0,2⟩,⟨16,4398046511104,[],[(3,.setEnt .internalNl),(4,.cb)],0,2⟩],[⟨9,8192,[],[(3,.setEnt .internalNl),(4,.cb)],0,2⟩,⟨11,1024,[],[(3,.setEnt .internalNl),(4,.cb)],0,2⟩,⟨12,4096,[],[(3,.setEnt .internalNl),(4,.cb)],0,2⟩,⟨13,8192,[.crAlone],[(3,.setEnt .internalNl),(4,.cb)],0,2⟩,⟨14,4294967808,[],[(3,.setEnt .internalNl),(4,.cb)],0,2⟩,⟨15,115792089237316195423570985008687907853269984665640564039457584007908834658815,[],[(3,.setEnt .internalNl),(4,.cb),(5,.comment)],0,2⟩,⟨16,4398046511104,[],[(3,.setEnt .internalNl),(4,.cb)],0,2⟩],[⟨9,8192,[],[(3,.setEnt .internalNl),(4,.cb)],0,2⟩,⟨11,1024,[],[(3,.setEnt .internalNl),(4,.cb)],0,2⟩,⟨12,4096,[],[(3,.setEnt .internalNl),(4,.cb)],0,2⟩,⟨13,8192,[.crAlone],[(3,.setEnt .internalNl),(4,.cb)],0,2⟩,⟨14,4294967808,[],[(3,.setEnt .internalNl),(4,.cb)],0,2⟩,⟨15,115792089237316195423570985008687907853269984665640564039457584007908834658815,[],[(3,.setEnt .internalNl),(4,.cb),(5,.comment)],0,2⟩,⟨16,4398046511104,[],[(3,.setEnt .internalNl),(4,.cb)],0,2⟩],[⟨9,8192,[],[(3,.setEnt .internalNl),(4,.cb)],0,2⟩,⟨11,1024,[],[(3,.setEnt .internalNl),(4,.cb)],0,2⟩,⟨12,4096,[],[(3,.setEnt .internalNl),(4,.cb)],0,2⟩,⟨13,8192,[.crAlone],[(3,.setEnt .internalNl),(4,.cb)],0,2⟩,⟨14,4294967808,[],[(3,.setEnt .internalNl),(4,.cb)],0,2⟩,⟨15,115792089237316195423570985008687907853269984665640564039457584007908834658815,[],[(3,.setEnt .internalNl),(4,.cb),(5,.comment)],0,2⟩,⟨16,4398046511104,[],[(3,.setEnt .internalNl),(4,.cb)],0,2⟩],[⟨9,8192,[],[],0,2⟩,⟨11,1024,[],[],0,2⟩,⟨12,4096,[],[],0,2⟩,⟨13,8192,[.crAlone],[],0,2⟩,⟨14,4294967808,[],[],0,2⟩,⟨15,115792089237316195423570985008687907853269984665640564039457584007908834658815,[],[(5,.comment)],0,2⟩,⟨16,4398046511104,[],[],0,2⟩],[⟨9,8192,[],[],0,2⟩,⟨11,1024,[],[],0,2⟩,⟨12,4096,[],[],0,2⟩,⟨13,8192,[.crAlone],[],0,2⟩,⟨14,4294967808,[],[],0,2⟩,⟨15,115792089237316195423570985008687907853269984665640564039457584007908834658815,[],[(5,.comment)],0,2⟩,⟨16,4398046511104,[],[],0,2⟩],[⟨17,140737488355328,[],[],2,0⟩],[],[⟨19,115792089237316195423570985008687907853269984665635612279300442486796353260543,[],[],0,0⟩,⟨20,4951760157141521099596496896,[],[],0,0⟩,⟨22,17179869184,[],[],0,0⟩],[⟨19,115792089237316195423570985008687907853269984665635612279300442486796353260543,[],[],0,0⟩,⟨20,4951760157141521099596496896,[],[],0,0⟩,⟨22,17179869184,[],[],0,0⟩],[⟨21,115792089237316195423570985008687907853269984665640564039457584007913129626623,[],[],0,0⟩],[⟨19,115792089237316195423570985008687907853269984665635612279300442486796353260543,[],[],0,0⟩,⟨20,4951760157141521099596496896,[],[],0,0⟩,⟨22,17179869184,[],[],0,0⟩],[],[⟨24,1024,[],[(7,.setEnt .newline)],0,0⟩],[],[],[],[],[]],[some (0,[]),none,some (1,[]),some (1,[]),none,some (1,[]),some (1,[]),none,none,none,none,none,none,none,none,none,none,some (1,[]),none,none,none,none,some (2,[]),none,some (3,[]),some (3,[]),some (3,[]),some (3,[]),some (4,[])],[1,6,7,8,9]⟩
theorem livecode_line_nfa_eq : Livecode.livecode_line.nfa = livecode_line_nfa := by decide +kernel
/-- The machine of `Livecode.livecode_line`, with its automaton as a literal. -/
def livecode_line_M : Machine := ⟨livecode_line_nfa, Livecode.livecode_line.ends, Livecode.livecode_line.sw⟩
theorem livecode_line_M_eq : Livecode.livecode_line.machine = livecode_line_M := by
  unfold Scanner.machine livecode_line_M; rw [livecode_line_nfa_eq]
def livecode_line_masks : List Nat := [4294967808,35184372088832,34359738368,140737488355328,17179869184,8192,1024,4096,115792089237316195423570985008687907853269984665640564039457584007908834656767,115792089237316195423570985008687907853269984665640564039457584007913129626623,4398046511104,115792089237316195423570985008687907853269984665640564039457584007908834658815,115792089237316195423570985008687907853269984665635612279300442486796353260543,4951760157141521099596496896]
def livecode_line_cs : List (Nat × Nat) := [(0,115792089237316195423570985008687907853269984665635612279300442306437791597055),(9,4294967808),(10,1024),(11,2048),(12,4096),(13,8192),(34,17179869184),(35,34359738368),(42,4398046511104),(45,35184372088832),(47,140737488355328),(92,4951760157141521099596496896)]
theorem livecode_line_masksIn : masksIn livecode_line_nfa livecode_line_masks = true := by decide +kernel
theorem livecode_line_repOk : repOk livecode_line_masks livecode_line_cs = true := by decide +kernel
def livecode_line_rows : List Row := [⟨[],none,[],[⟨256,.other,false,some ⟨0,[.setEnt (.own 3)],some 4,true⟩⟩,⟨256,.ws,false,some ⟨1,[.setEnt (.own 0)],some 0,false⟩⟩,⟨256,.lf,false,some ⟨0,[.setEnt .newline],some 3,true⟩⟩,⟨256,.vt,false,none⟩,⟨256,.ff,false,some ⟨0,[.setEnt .newline],some 3,true⟩⟩,⟨256,.cr,false,some ⟨2,[.setEnt .newline],none,false⟩⟩,⟨256,.cr,true,some ⟨3,[.setEnt .newline],some 3,false⟩⟩,⟨256,.other,false,some ⟨4,[.code,.setEnt (.own 3)],some 4,false⟩⟩,⟨256,.other,false,some ⟨5,[.comment,.setEnt (.own 3)],some 1,false⟩⟩,⟨256,.other,false,some ⟨6,[.setEnt (.own 3)],some 4,false⟩⟩,⟨256,.other,false,some ⟨7,[.setEnt (.own 3)],some 4,false⟩⟩]⟩,⟨[0],some 0,[],[⟨256,.other,false,none⟩,⟨256,.ws,false,some ⟨1,[.setEnt (.own 0)],some 0,false⟩⟩,⟨256,.lf,false,none⟩,⟨256,.vt,false,none⟩,⟨256,.ff,false,none⟩,⟨256,.cr,false,none⟩,⟨256,.cr,true,none⟩]⟩,⟨[23],none,[],[⟨256,.other,false,none⟩,⟨256,.ws,false,none⟩,⟨256,.lf,false,some ⟨0,[.setEnt .newline],some 3,true⟩⟩,⟨256,.vt,false,none⟩,⟨256,.ff,false,none⟩,⟨256,.cr,false,none⟩,⟨256,.cr,true,none⟩]⟩,⟨[23,27],some 3,[],[⟨256,.other,false,none⟩,⟨256,.ws,false,none⟩,⟨256,.lf,false,some ⟨0,[.setEnt .newline],some 3,true⟩⟩,⟨256,.vt,false,none⟩,⟨256,.ff,false,none⟩,⟨256,.cr,false,none⟩,⟨256,.cr,true,none⟩]⟩,⟨[18,28],some 4,[],[⟨256,.other,false,some ⟨8,[],none,false⟩⟩,⟨256,.ws,false,some ⟨8,[],none,false⟩⟩,⟨256,.lf,false,none⟩,⟨256,.vt,false,some ⟨8,[],none,false⟩⟩,⟨256,.ff,false,none⟩,⟨256,.cr,false,none⟩,⟨256,.cr,true,none⟩,⟨256,.other,false,some ⟨0,[],some 2,true⟩⟩,⟨256,.other,false,some ⟨9,[],none,false⟩⟩]⟩,⟨[3,28],some 1,[],[⟨256,.other,false,some ⟨10,[],some 1,false⟩⟩,⟨256,.ws,false,some ⟨10,[],some 1,false⟩⟩,⟨256,.lf,false,none⟩,⟨256,.vt,false,some ⟨10,[],some 1,false⟩⟩,⟨256,.ff,false,none⟩,⟨256,.cr,false,none⟩,⟨256,.cr,true,none⟩]⟩,⟨[1,28],some 4,[],[⟨256,.other,false,none⟩,⟨256,.ws,false,none⟩,⟨256,.lf,false,none⟩,⟨256,.vt,false,none⟩,⟨256,.ff,false,none⟩,⟨256,.cr,false,none⟩,⟨256,.cr,true,none⟩,⟨256,.other,false,some ⟨11,[.comment],some 1,false⟩⟩]⟩,⟨[4,7,28],some 4,[],[⟨256,.other,false,none⟩,⟨256,.ws,false,none⟩,⟨256,.lf,false,none⟩,⟨256,.vt,false,none⟩,⟨256,.ff,false,none⟩,⟨256,.cr,false,none⟩,⟨256,.cr,true,none⟩,⟨256,.other,false,some ⟨12,[.comment],none,false⟩⟩,⟨256,.other,false,some ⟨13,[.comment],some 1,false⟩⟩]⟩,⟨[19],none,[],[⟨256,.other,false,some ⟨8,[],none,false⟩⟩,⟨256,.ws,false,some ⟨8,[],none,false⟩⟩,⟨256,.lf,false,none⟩,⟨256,.vt,false,some ⟨8,[],none,false⟩⟩,⟨256,.ff,false,none⟩,⟨256,.cr,false,none⟩,⟨256,.cr,true,none⟩,⟨256,.other,false,some ⟨0,[],some 2,true⟩⟩,⟨256,.other,false,some ⟨9,[],none,false⟩⟩]⟩,⟨[20],none,[],[⟨256,.other,false,some ⟨14,[],none,false⟩⟩,⟨256,.ws,false,some ⟨14,[],none,false⟩⟩,⟨256,.lf,false,none⟩,⟨256,.vt,false,some ⟨14,[],none,false⟩⟩,⟨256,.ff,false,none⟩,⟨256,.cr,false,none⟩,⟨256,.cr,true,none⟩]⟩,⟨[6],some 1,[],[⟨256,.other,false,some ⟨10,[],some 1,false⟩⟩,⟨256,.ws,false,some ⟨10,[],some 1,false⟩⟩,⟨256,.lf,false,none⟩,⟨256,.vt,false,some ⟨10,[],some 1,false⟩⟩,⟨256,.ff,false,none⟩,⟨256,.cr,false,none⟩,⟨256,.cr,true,none⟩]⟩,⟨[2],some 1,[],[⟨256,.other,false,some ⟨10,[],some 1,false⟩⟩,⟨256,.ws,false,some ⟨10,[],some 1,false⟩⟩,⟨256,.lf,false,none⟩,⟨256,.vt,false,some ⟨10,[],some 1,false⟩⟩,⟨256,.ff,false,none⟩,⟨256,.cr,false,none⟩,⟨256,.cr,true,none⟩]⟩,⟨[8],none,[],[⟨256,.other,false,some ⟨15,[.comment],none,false⟩⟩,⟨256,.ws,false,some ⟨16,[],none,false⟩⟩,⟨256,.lf,false,some ⟨17,[],none,false⟩⟩,⟨256,.vt,false,some ⟨15,[.comment],none,false⟩⟩,⟨256,.ff,false,some ⟨18,[],none,false⟩⟩,⟨256,.cr,false,some ⟨19,[],none,false⟩⟩,⟨256,.cr,true,some ⟨20,[],none,false⟩⟩,⟨256,.other,false,some ⟨21,[.comment],none,false⟩⟩]⟩,⟨[5],some 1,[],[⟨256,.other,false,some ⟨10,[],some 1,false⟩⟩,⟨256,.ws,false,some ⟨10,[],some 1,false⟩⟩,⟨256,.lf,false,none⟩,⟨256,.vt,false,some ⟨10,[],some 1,false⟩⟩,⟨256,.ff,false,none⟩,⟨256,.cr,false,none⟩,⟨256,.cr,true,none⟩]⟩,⟨[21],none,[],[⟨256,.other,false,some ⟨8,[],none,false⟩⟩,⟨256,.ws,false,some ⟨8,[],none,false⟩⟩,⟨256,.lf,false,none⟩,⟨256,.vt,false,some ⟨8,[],none,false⟩⟩,⟨256,.ff,false,none⟩,⟨256,.cr,false,none⟩,⟨256,.cr,true,none⟩,⟨256,.other,false,some ⟨0,[],some 2,true⟩⟩,⟨256,.other,false,some ⟨9,[],none,false⟩⟩]⟩,⟨[15],none,[],[⟨256,.other,false,some ⟨15,[.comment],none,false⟩⟩,⟨256,.ws,false,some ⟨16,[],none,false⟩⟩,⟨256,.lf,false,some ⟨17,[],none,false⟩⟩,⟨256,.vt,false,some ⟨15,[.comment],none,false⟩⟩,⟨256,.ff,false,some ⟨18,[],none,false⟩⟩,⟨256,.cr,false,some ⟨19,[],none,false⟩⟩,⟨256,.cr,true,some ⟨20,[],none,false⟩⟩,⟨256,.other,false,some ⟨21,[.comment],none,false⟩⟩]⟩,⟨[14],none,[],[⟨256,.other,false,some ⟨15,[.comment],none,false⟩⟩,⟨256,.ws,false,some ⟨16,[],none,false⟩⟩,⟨256,.lf,false,some ⟨17,[],none,false⟩⟩,⟨256,.vt,false,some ⟨15,[.comment],none,false⟩⟩,⟨256,.ff,false,some ⟨18,[],none,false⟩⟩,⟨256,.cr,false,some ⟨19,[],none,false⟩⟩,⟨256,.cr,true,some ⟨20,[],none,false⟩⟩,⟨256,.other,false,some ⟨21,[.comment],none,false⟩⟩]⟩,⟨[11],none,[],[⟨256,.other,false,some ⟨15,[.setEnt .internalNl,.cb,.comment],none,false⟩⟩,⟨256,.ws,false,some ⟨16,[.setEnt .internalNl,.cb],none,false⟩⟩,⟨256,.lf,false,some ⟨17,[.setEnt .internalNl,.cb],none,false⟩⟩,⟨256,.vt,false,some ⟨15,[.setEnt .internalNl,.cb,.comment],none,false⟩⟩,⟨256,.ff,false,some ⟨18,[.setEnt .internalNl,.cb],none,false⟩⟩,⟨256,.cr,false,some ⟨19,[.setEnt .internalNl,.cb],none,false⟩⟩,⟨256,.cr,true,some ⟨20,[.setEnt .internalNl,.cb],none,false⟩⟩,⟨256,.other,false,some ⟨21,[.setEnt .internalNl,.cb,.comment],none,false⟩⟩]⟩,⟨[12],none,[],[⟨256,.other,false,some ⟨15,[.setEnt .internalNl,.cb,.comment],none,false⟩⟩,⟨256,.ws,false,some ⟨16,[.setEnt .internalNl,.cb],none,false⟩⟩,⟨256,.lf,false,some ⟨17,[.setEnt .internalNl,.cb],none,false⟩⟩,⟨256,.vt,false,some ⟨15,[.setEnt .internalNl,.cb,.comment],none,false⟩⟩,⟨256,.ff,false,some ⟨18,[.setEnt .internalNl,.cb],none,false⟩⟩,⟨256,.cr,false,some ⟨19,[.setEnt .internalNl,.cb],none,false⟩⟩,⟨256,.cr,true,some ⟨20,[.setEnt .internalNl,.cb],none,false⟩⟩,⟨256,.other,false,some ⟨21,[.setEnt .internalNl,.cb,.comment],none,false⟩⟩]⟩,⟨[9],none,[],[⟨256,.other,false,none⟩,⟨256,.ws,false,none⟩,⟨256,.lf,false,some ⟨22,[],none,false⟩⟩,⟨256,.vt,false,none⟩,⟨256,.ff,false,none⟩,⟨256,.cr,false,none⟩,⟨256,.cr,true,none⟩]⟩,⟨[9,13],none,[],[⟨256,.other,false,some ⟨15,[.setEnt .internalNl,.cb,.comment],none,false⟩⟩,⟨256,.ws,false,some ⟨16,[.setEnt .internalNl,.cb],none,false⟩⟩,⟨256,.lf,false,some ⟨23,[.setEnt .internalNl,.cb],none,false⟩⟩,⟨256,.vt,false,some ⟨15,[.setEnt .internalNl,.cb,.comment],none,false⟩⟩,⟨256,.ff,false,some ⟨18,[.setEnt .internalNl,.cb],none,false⟩⟩,⟨256,.cr,false,some ⟨19,[.setEnt .internalNl,.cb],none,false⟩⟩,⟨256,.cr,true,some ⟨20,[.setEnt .internalNl,.cb],none,false⟩⟩,⟨256,.other,false,some ⟨21,[.setEnt .internalNl,.cb,.comment],none,false⟩⟩]⟩,⟨[15,16],none,[],[⟨256,.other,false,some ⟨15,[.comment],none,false⟩⟩,⟨256,.ws,false,some ⟨16,[],none,false⟩⟩,⟨256,.lf,false,some ⟨17,[],none,false⟩⟩,⟨256,.vt,false,some ⟨15,[.comment],none,false⟩⟩,⟨256,.ff,false,some ⟨18,[],none,false⟩⟩,⟨256,.cr,false,some ⟨19,[],none,false⟩⟩,⟨256,.cr,true,some ⟨20,[],none,false⟩⟩,⟨256,.other,false,some ⟨21,[.comment],none,false⟩⟩,⟨256,.other,false,some ⟨0,[],some 1,true⟩⟩]⟩,⟨[10],none,[],[⟨256,.other,false,some ⟨15,[.setEnt .internalNl,.cb,.comment],none,false⟩⟩,⟨256,.ws,false,some ⟨16,[.setEnt .internalNl,.cb],none,false⟩⟩,⟨256,.lf,false,some ⟨17,[.setEnt .internalNl,.cb],none,false⟩⟩,⟨256,.vt,false,some ⟨15,[.setEnt .internalNl,.cb,.comment],none,false⟩⟩,⟨256,.ff,false,some ⟨18,[.setEnt .internalNl,.cb],none,false⟩⟩,⟨256,.cr,false,some ⟨19,[.setEnt .internalNl,.cb],none,false⟩⟩,⟨256,.cr,true,some ⟨20,[.setEnt .internalNl,.cb],none,false⟩⟩,⟨256,.other,false,some ⟨21,[.setEnt .internalNl,.cb,.comment],none,false⟩⟩]⟩,⟨[10,11],none,[],[⟨256,.other,false,some ⟨15,[.setEnt .internalNl,.cb,.comment],none,false⟩⟩,⟨256,.ws,false,some ⟨16,[.setEnt .internalNl,.cb],none,false⟩⟩,⟨256,.lf,false,some ⟨17,[.setEnt .internalNl,.cb],none,false⟩⟩,⟨256,.vt,false,some ⟨15,[.setEnt .internalNl,.cb,.comment],none,false⟩⟩,⟨256,.ff,false,some ⟨18,[.setEnt .internalNl,.cb],none,false⟩⟩,⟨256,.cr,false,some ⟨19,[.setEnt .internalNl,.cb],none,false⟩⟩,⟨256,.cr,true,some ⟨20,[.setEnt .internalNl,.cb],none,false⟩⟩,⟨256,.other,false,some ⟨21,[.setEnt .internalNl,.cb,.comment],none,false⟩⟩]⟩]
theorem livecode_line_rowsOk : rowsOk livecode_line_nfa [] (livecode_line_cs.map (·.1)) livecode_line_rows = true := by decide +kernel
def livecode_line_D : Dfa livecode_line_M.nfa := ⟨livecode_line_masks, [], livecode_line_cs, livecode_line_rows, livecode_line_masksIn, livecode_line_repOk, livecode_line_rowsOk⟩

def puppet_line_nfa : Nfa := ⟨[⟨0,4294967808,[],[(0,.setEnt (.own 0))],0,0⟩,⟨1,34359738368,[],[(1,.comment)],0,0⟩,⟨3,140737488355328,[],[],0,2⟩,⟨14,549755813888,[],[(6,.code)],0,0⟩,⟨25,8192,[],[(11,.setEnt .newline)],0,0⟩,⟨27,1024,[],[(11,.setEnt .newline)],0,0⟩,⟨28,4096,[],[(11,.setEnt .newline)],0,0⟩,⟨29,8192,[.crAlone],[(11,.setEnt .newline)],0,0⟩,⟨30,115792089237316195423570985008687907853269984665640564039457584007908834656767,[],[(12,.setEnt (.own 3))],0,0⟩],[[⟨0,4294967808,[],[(0,.setEnt (.own 0))],0,0⟩],[⟨2,115792089237316195423570985008687907853269984665640564039457584007913129626623,[],[],0,0⟩],[⟨2,115792089237316195423570985008687907853269984665640564039457584007913129626623,[],[],0,0⟩],[⟨4,4398046511104,[],[(2,.comment)],0,2⟩],[⟨5,8192,[],[],0,2⟩,⟨7,1024,[],[],0,2⟩,⟨8,4096,[],[],0,2⟩,⟨9,8192,[.crAlone],[],0,2⟩,⟨10,4294967808,[],[],0,2⟩,⟨11,115792089237316195423570985008687907853269984665640564039457584007908834658815,[],[(5,.code)],0,2⟩,⟨12,4398046511104,[],[],0,2⟩],[⟨6,1024,[],[],0,2⟩],[⟨5,8192,[],[(3,.setEnt .internalNl),(4,.cb)],0,2⟩,⟨7,1024,[],[(3,.setEnt .internalNl),(4,.cb)],0,2⟩,⟨8,4096,[],[(3,.setEnt .internalNl),(4,.cb)],0,2⟩,⟨9,8192,[.crAlone],[(3,.setEnt .internalNl),(4,.cb)],0,2⟩,⟨10,4294967808,[],[(3,.setEnt .internalNl),(4,.cb)],0,2⟩,⟨11,115792089237316195423570985008687907853269984665640564039457584007908834658815,[],[(3,.setEnt .internalNl),(4,.cb),(5,.code)],0,2⟩,⟨12,4398046511104,[],[(3,.setEnt .internalNl),(4,.cb)],0,2⟩],[⟨5,8192,[],[(3,.setEnt .internalNl),(4,.cb)],0,2⟩,⟨7,1024,[],[(3,.setEnt .internalNl),(4,.cb)],0,2⟩,⟨8,4096,[],[(3,.setEnt .internalNl),(4,.cb)],0,2⟩,⟨9,8192,[.crAlone],[(3,.setEnt .internalNl),(4,.cb)],0,2⟩,⟨10,4294967808,[],[(3,.setEnt .internalNl),(4,.cb)],0,2⟩,⟨11,115792089237316195423570985008687907853269984665640564039457584007908834658815,[],[(3,.setEnt .internalNl),(4,.cb),(5,.code)],0,2⟩,⟨12,4398046511104,[],[(3,.setEnt .internalNl),(4,.cb)],0,2⟩],[⟨5,8192,[],[(3,.setEnt .internalNl),(4,.cb)],0,2⟩,⟨7,1024,[],[(3,.setEnt .internalNl),(4,.cb)],0,2⟩,⟨8,4096,[],[(3,.setEnt .internalNl),(4,.cb)],0,2⟩,⟨9,8192,[.crAlone],[(3,.setEnt .internalNl),(4,.cb)],0,2⟩,⟨10,4294967808,[],[(3,.setEnt .internalNl),(4,.cb)],0,2⟩,⟨11,115792089237316195423570985008687907853269984665640564039457584007908834658815,[],[(3,.setEnt .internalNl),(4,.cb),(5,.code)],0,2⟩,⟨12,4398046511104,[],[(3,.setEnt .internalNl),(4,.cb)],0,2⟩],[⟨5,8192,[],[(3,.setEnt .internalNl),(4,.cb)],0,2⟩,⟨7,1024,[],[(3,.setEnt .internalNl),(4,.cb)],0,2⟩,⟨8,4096,[],[(3,.setEnt .internalNl),(4,.cb)],0,2⟩,⟨9,8192,[.crAlone],[(3,.setEnt .internalNl),(4,.cb)],0,2⟩,⟨10,4294967808,[],[(3,.setEnt .internalNl),(4,.cb)],0,2⟩,⟨11,115792089237316195423570985008687907853269984665640564039457584007908834658815,[],[(3,.setEnt .internalNl),(4,.cb),(5,.code)],0,2⟩,⟨12,4398046511104,[],[(3,.setEnt .internalNl),(4,.cb)],0,2⟩],[⟨5,8192,[],[],0,2⟩,⟨7,1024,[],[],0,2⟩,⟨8,4096,[],[],0,2⟩,⟨9,8192,[.crAlone],[],0,2⟩,⟨10,4294967808,[],[],0,2⟩,⟨11,115792089237316195423570985008687907853269984665640564039457584007908834658815,[],[(5,.code)],0,2⟩,⟨12,4398046511104,[],[],0,2⟩],[⟨5,8192,[],[],0,2⟩,⟨7,1024,[],[],0,2⟩,⟨8,4096,[],[],0,2⟩,⟨9,8192,[.crAlone],[],0,2⟩,⟨10,4294967808,[],[],0,2⟩,⟨11,115792089237316195423570985008687907853269984665640564039457584007908834658815,[],[(5,.code)],0,2⟩,⟨12,4398046511104,[],[],0,2⟩],[⟨13,140737488355328,[],[],2,0⟩],[],[⟨15,8192,[],[],0,0⟩,⟨17,1024,[],[],0,0⟩,⟨18,4096,[],[],0,0⟩,⟨19,8192,[.crAlone],[],0,0⟩,⟨20,4294967808,[],[],0,0⟩,⟨21,115792089237316195423570985008687907853269984665635612279300442486259482348031,[],[(9,.code)],0,0⟩,⟨22,4951760157141521099596496896,[],[],0,0⟩,⟨24,549755813888,[],[],0,0⟩],[⟨16,1024,[],[],0,0⟩],[⟨15,8192,[],[(7,.setEnt .internalNl),(8,.cb)],0,0⟩,⟨17,1024,[],[(7,.setEnt .internalNl),(8,.cb)],0,0⟩,⟨18,4096,[],[(7,.setEnt .internalNl),(8,.cb)],0,0⟩,⟨19,8192,[.crAlone],[(7,.setEnt .internalNl),(8,.cb)],0,0⟩,⟨20,4294967808,[],[(7,.setEnt .internalNl),(8,.cb)],0,0⟩,⟨21,115792089237316195423570985008687907853269984665635612279300442486259482348031,[],[(7,.setEnt .internalNl),(8,.cb),(9,.code)],0,0⟩,⟨22,4951760157141521099596496896,[],[(7,.setEnt .internalNl),(8,.cb)],0,0⟩,⟨24,549755813888,[],[(7,.setEnt .internalNl),(8,.cb)],0,0⟩],[⟨15,8192,[],[(7,.setEnt .internalNl),(8,.cb)],0,0⟩,⟨17,1024,[],[(7,.setEnt .internalNl),(8,.cb)],0,0⟩,⟨18,4096,[],[(7,.setEnt .internalNl),(8,.cb)],0,0⟩,⟨19,8192,[.crAlone],[(7,.setEnt .internalNl),(8,.cb)],0,0⟩,⟨20,4294967808,[],[(7,.setEnt .internalNl),(8,.cb)],0,0⟩,⟨21,115792089237316195423570985008687907853269984665635612279300442486259482348031,[],[(7,.setEnt .internalNl),(8,.cb),(9,.code)],0,0⟩,⟨22,4951760157141521099596496896,[],[(7,.setEnt .internalNl),(8,.cb)],0,0⟩,⟨24,549755813888,[],[(7,.setEnt .internalNl),(8,.cb)],0,0⟩],[⟨15,8192,[],[(7,.setEnt .internalNl),(8,.cb)],0,0⟩,⟨17,1024,[],[(7,.setEnt .internalNl),(8,.cb)],0,0⟩,⟨18,4096,[],[(7,.setEnt .internalNl),(8,.cb)],0,0⟩,⟨19,8192,[.crAlone],[(7,.setEnt .internalNl),(8,.cb)],0,0⟩,⟨20,4294967808,[],[(7,.setEnt .internalNl),(8,.cb)],0,0⟩,⟨21,115792089237316195423570985008687907853269984665635612279300442486259482348031,[],[(7,.setEnt .internalNl),(8,.cb),(9,.code)],0,0⟩,⟨22,4951760157141521099596496896,[],[(7,.setEnt .internalNl),(8,.cb)],0,0⟩,⟨24,549755813888,[],[(7,.setEnt .internalNl),(8,.cb)],0,0⟩],[⟨15,8192,[],[(7,.setEnt .internalNl),(8,.cb)],0,0⟩,⟨17,1024,[],[(7,.setEnt .internalNl),(8,.cb)],0,0⟩,⟨18,4096,[],[(7,.setEnt .internalNl),(8,.cb)],0,0⟩,⟨19,8192,[.crAlone],[(7,.setEnt .internalNl),(8,.cb)],0,0⟩,⟨20,4294967808,[],[(7,.setEnt .internalNl),(8,.cb)],0,0⟩,⟨21,115792089237316195423570985008687907853269984665635612279300442486259482348031,[],[(7,.setEnt .internalNl),(8,.cb),(9,.code)],0,0⟩,⟨22,4951760157141521099596496896,[],[(7,.setEnt .internalNl),(8,.cb)],0,0⟩,⟨24,549755813888,[],[(7,.setEnt .internalNl),(8,.cb)],0,0⟩],[⟨15,8192,[],[],0,0⟩,⟨17,1024,[],[],0,0⟩,⟨18,4096,[],[],0,0⟩,⟨19,8192,[.crAlone],[],0,0⟩,⟨20,4294967808,[],[],0,0⟩,⟨21,115792089237316195423570985008687907853269984665635612279300442486259482348031,[],[(9,.code)],0,0⟩,⟨22,4951760157141521099596496896,[],[],0,0⟩,⟨24,549755813888,[],[],0,0⟩],[⟨15,8192,[],[],0,0⟩,⟨17,1024,[],[],0,0⟩,⟨18,4096,[],[],0,0⟩,⟨19,8192,[.crAlone],[],0,0⟩,⟨20,4294967808,[],[],0,0⟩,⟨21,115792089237316195423570985008687907853269984665635612279300442486259482348031,[],[(9,.code)],0,0⟩,⟨22,4951760157141521099596496896,[],[],0,0⟩,⟨24,549755813888,[],[],0,0⟩],[⟨23,115792089237316195423570985008687907853269984665640564039457584007913129626623,[],[(10,.code)],0,0⟩],[⟨15,8192,[],[],0,0⟩,⟨17,1024,[],[],0,0⟩,⟨18,4096,[],[],0,0⟩,⟨19,8192,[.crAlone],[],0,0⟩,⟨20,4294967808,[],[],0,0⟩,⟨21,115792089237316195423570985008687907853269984665635612279300442486259482348031,[],[(9,.code)],0,0⟩,⟨22,4951760157141521099596496896,[],[],0,0⟩,⟨24,549755813888,[],[],0,0⟩],[],[⟨26,1024,[],[(11,.setEnt .newline)],0,0⟩],[],[],[],[],[]],[some (0,[]),some (1,[]),some (1,[]),none,none,none,none,none,none,none,none,none,none,some (1,[]),none,none,none,none,none,none,none,none,none,none,some (2,[]),none,some (3,[]),some (3,[]),some (3,[]),some (3,[]),some (4,[])],[1,6,11,12,13]⟩
theorem puppet_line_nfa_eq : Puppet.puppet_line.nfa = puppet_line_nfa := by decide +kernel
/-- The machine of `Puppet.puppet_line`, with its automaton as a literal. -/
def puppet_line_M : Machine := ⟨puppet_line_nfa, Puppet.puppet_line.ends, Puppet.puppet_line.sw⟩
theorem puppet_line_M_eq : Puppet.puppet_line.machine = puppet_line_M := by
  unfold Scanner.machine puppet_line_M; rw [puppet_line_nfa_eq]
def puppet_line_masks : List Nat := [4294967808,34359738368,140737488355328,549755813888,8192,1024,4096,115792089237316195423570985008687907853269984665640564039457584007908834656767,115792089237316195423570985008687907853269984665640564039457584007913129626623,4398046511104,115792089237316195423570985008687907853269984665640564039457584007908834658815,115792089237316195423570985008687907853269984665635612279300442486259482348031,4951760157141521099596496896]
def puppet_line_cs : List (Nat × Nat) := [(0,115792089237316195423570985008687907853269984665635612279300442341089587741183),(9,4294967808),(10,1024),(11,2048),(12,4096),(13,8192),(35,34359738368),(39,549755813888),(42,4398046511104),(47,140737488355328),(92,4951760157141521099596496896)]
theorem puppet_line_masksIn : masksIn puppet_line_nfa puppet_line_masks = true := by decide +kernel
theorem puppet_line_repOk : repOk puppet_line_masks puppet_line_cs = true := by decide +kernel
def puppet_line_rows : List Row := [⟨[],none,[],[⟨256,.other,false,some ⟨0,[.setEnt (.own 3)],some 4,true⟩⟩,⟨256,.ws,false,some ⟨1,[.setEnt (.own 0)],some 0,false⟩⟩,⟨256,.lf,false,some ⟨0,[.setEnt .newline],some 3,true⟩⟩,⟨256,.vt,false,none⟩,⟨256,.ff,false,some ⟨0,[.setEnt .newline],some 3,true⟩⟩,⟨256,.cr,false,some ⟨2,[.setEnt .newline],none,false⟩⟩,⟨256,.cr,true,some ⟨3,[.setEnt .newline],some 3,false⟩⟩,⟨256,.other,false,some ⟨4,[.comment,.setEnt (.own 3)],some 1,false⟩⟩,⟨256,.other,false,some ⟨5,[.code,.setEnt (.own 3)],some 4,false⟩⟩,⟨256,.other,false,some ⟨6,[.setEnt (.own 3)],some 4,false⟩⟩]⟩,⟨[0],some 0,[],[⟨256,.other,false,none⟩,⟨256,.ws,false,some ⟨1,[.setEnt (.own 0)],some 0,false⟩⟩,⟨256,.lf,false,none⟩,⟨256,.vt,false,none⟩,⟨256,.ff,false,none⟩,⟨256,.cr,false,none⟩,⟨256,.cr,true,none⟩]⟩,⟨[25],none,[],[⟨256,.other,false,none⟩,⟨256,.ws,false,none⟩,⟨256,.lf,false,some ⟨0,[.setEnt .newline],some 3,true⟩⟩,⟨256,.vt,false,none⟩,⟨256,.ff,false,none⟩,⟨256,.cr,false,none⟩,⟨256,.cr,true,none⟩]⟩,⟨[25,29],some 3,[],[⟨256,.other,false,none⟩,⟨256,.ws,false,none⟩,⟨256,.lf,false,some ⟨0,[.setEnt .newline],some 3,true⟩⟩,⟨256,.vt,false,none⟩,⟨256,.ff,false,none⟩,⟨256,.cr,false,none⟩,⟨256,.cr,true,none⟩]⟩,⟨[1,30],some 1,[],[⟨256,.other,false,some ⟨7,[],some 1,false⟩⟩,⟨256,.ws,false,some ⟨7,[],some 1,false⟩⟩,⟨256,.lf,false,none⟩,⟨256,.vt,false,some ⟨7,[],some 1,false⟩⟩,⟨256,.ff,false,none⟩,⟨256,.cr,false,none⟩,⟨256,.cr,true,none⟩]⟩,⟨[14,30],some 4,[],[⟨256,.other,false,some ⟨8,[.code],none,false⟩⟩,⟨256,.ws,false,some ⟨9,[],none,false⟩⟩,⟨256,.lf,false,some ⟨10,[],none,false⟩⟩,⟨256,.vt,false,some ⟨8,[.code],none,false⟩⟩,⟨256,.ff,false,some ⟨11,[],none,false⟩⟩,⟨256,.cr,false,some ⟨12,[],none,false⟩⟩,⟨256,.cr,true,some ⟨13,[],none,false⟩⟩,⟨256,.other,false,some ⟨0,[],some 2,true⟩⟩,⟨256,.other,false,some ⟨14,[],none,false⟩⟩]⟩,⟨[3,30],some 4,[],[⟨256,.other,false,none⟩,⟨256,.ws,false,none⟩,⟨256,.lf,false,none⟩,⟨256,.vt,false,none⟩,⟨256,.ff,false,none⟩,⟨256,.cr,false,none⟩,⟨256,.cr,true,none⟩,⟨256,.other,false,some ⟨15,[.comment],none,false⟩⟩]⟩,⟨[2],some 1,[],[⟨256,.other,false,some ⟨7,[],some 1,false⟩⟩,⟨256,.ws,false,some ⟨7,[],some 1,false⟩⟩,⟨256,.lf,false,none⟩,⟨256,.vt,false,some ⟨7,[],some 1,false⟩⟩,⟨256,.ff,false,none⟩,⟨256,.cr,false,none⟩,⟨256,.cr,true,none⟩]⟩,⟨[21],none,[],[⟨256,.other,false,some ⟨8,[.code],none,false⟩⟩,⟨256,.ws,false,some ⟨9,[],none,false⟩⟩,⟨256,.lf,false,some ⟨10,[],none,false⟩⟩,⟨256,.vt,false,some ⟨8,[.code],none,false⟩⟩,⟨256,.ff,false,some ⟨11,[],none,false⟩⟩,⟨256,.cr,false,some ⟨12,[],none,false⟩⟩,⟨256,.cr,true,some ⟨13,[],none,false⟩⟩,⟨256,.other,false,some ⟨0,[],some 2,true⟩⟩,⟨256,.other,false,some ⟨14,[],none,false⟩⟩]⟩,⟨[20],none,[],[⟨256,.other,false,some ⟨8,[.code],none,false⟩⟩,⟨256,.ws,false,some ⟨9,[],none,false⟩⟩,⟨256,.lf,false,some ⟨10,[],none,false⟩⟩,⟨256,.vt,false,some ⟨8,[.code],none,false⟩⟩,⟨256,.ff,false,some ⟨11,[],none,false⟩⟩,⟨256,.cr,false,some ⟨12,[],none,false⟩⟩,⟨256,.cr,true,some ⟨13,[],none,false⟩⟩,⟨256,.other,false,some ⟨0,[],some 2,true⟩⟩,⟨256,.other,false,some ⟨14,[],none,false⟩⟩]⟩,⟨[17],none,[],[⟨256,.other,false,some ⟨8,[.setEnt .internalNl,.cb,.code],none,false⟩⟩,⟨256,.ws,false,some ⟨9,[.setEnt .internalNl,.cb],none,false⟩⟩,⟨256,.lf,false,some ⟨10,[.setEnt .internalNl,.cb],none,false⟩⟩,⟨256,.vt,false,some ⟨8,[.setEnt .internalNl,.cb,.code],none,false⟩⟩,⟨256,.ff,false,some ⟨11,[.setEnt .internalNl,.cb],none,false⟩⟩,⟨256,.cr,false,some ⟨12,[.setEnt .internalNl,.cb],none,false⟩⟩,⟨256,.cr,true,some ⟨13,[.setEnt .internalNl,.cb],none,false⟩⟩,⟨256,.other,false,some ⟨0,[.setEnt .internalNl,.cb],some 2,true⟩⟩,⟨256,.other,false,some ⟨14,[.setEnt .internalNl,.cb],none,false⟩⟩]⟩,⟨[18],none,[],[⟨256,.other,false,some ⟨8,[.setEnt .internalNl,.cb,.code],none,false⟩⟩,⟨256,.ws,false,some ⟨9,[.setEnt .internalNl,.cb],none,false⟩⟩,⟨256,.lf,false,some ⟨10,[.setEnt .internalNl,.cb],none,false⟩⟩,⟨256,.vt,false,some ⟨8,[.setEnt .internalNl,.cb,.code],none,false⟩⟩,⟨256,.ff,false,some ⟨11,[.setEnt .internalNl,.cb],none,false⟩⟩,⟨256,.cr,false,some ⟨12,[.setEnt .internalNl,.cb],none,false⟩⟩,⟨256,.cr,true,some ⟨13,[.setEnt .internalNl,.cb],none,false⟩⟩,⟨256,.other,false,some ⟨0,[.setEnt .internalNl,.cb],some 2,true⟩⟩,⟨256,.other,false,some ⟨14,[.setEnt .internalNl,.cb],none,false⟩⟩]⟩,⟨[15],none,[],[⟨256,.other,false,none⟩,⟨256,.ws,false,none⟩,⟨256,.lf,false,some ⟨16,[],none,false⟩⟩,⟨256,.vt,false,none⟩,⟨256,.ff,false,none⟩,⟨256,.cr,false,none⟩,⟨256,.cr,true,none⟩]⟩,⟨[15,19],none,[],[⟨256,.other,false,some ⟨8,[.setEnt .internalNl,.cb,.code],none,false⟩⟩,⟨256,.ws,false,some ⟨9,[.setEnt .internalNl,.cb],none,false⟩⟩,⟨256,.lf,false,some ⟨17,[.setEnt .internalNl,.cb],none,false⟩⟩,⟨256,.vt,false,some ⟨8,[.setEnt .internalNl,.cb,.code],none,false⟩⟩,⟨256,.ff,false,some ⟨11,[.setEnt .internalNl,.cb],none,false⟩⟩,⟨256,.cr,false,some ⟨12,[.setEnt .internalNl,.cb],none,false⟩⟩,⟨256,.cr,true,some ⟨13,[.setEnt .internalNl,.cb],none,false⟩⟩,⟨256,.other,false,some ⟨0,[.setEnt .internalNl,.cb],some 2,true⟩⟩,⟨256,.other,false,some ⟨14,[.setEnt .internalNl,.cb],none,false⟩⟩]⟩,⟨[22],none,[],[⟨256,.other,false,some ⟨18,[.code],none,false⟩⟩,⟨256,.ws,false,some ⟨18,[.code],none,false⟩⟩,⟨256,.lf,false,none⟩,⟨256,.vt,false,some ⟨18,[.code],none,false⟩⟩,⟨256,.ff,false,none⟩,⟨256,.cr,false,none⟩,⟨256,.cr,true,none⟩]⟩,⟨[4],none,[],[⟨256,.other,false,some ⟨19,[.code],none,false⟩⟩,⟨256,.ws,false,some ⟨20,[],none,false⟩⟩,⟨256,.lf,false,some ⟨21,[],none,false⟩⟩,⟨256,.vt,false,some ⟨19,[.code],none,false⟩⟩,⟨256,.ff,false,some ⟨22,[],none,false⟩⟩,⟨256,.cr,false,some ⟨23,[],none,false⟩⟩,⟨256,.cr,true,some ⟨24,[],none,false⟩⟩,⟨256,.other,false,some ⟨25,[.code],none,false⟩⟩]⟩,⟨[16],none,[],[⟨256,.other,false,some ⟨8,[.setEnt .internalNl,.cb,.code],none,false⟩⟩,⟨256,.ws,false,some ⟨9,[.setEnt .internalNl,.cb],none,false⟩⟩,⟨256,.lf,false,some ⟨10,[.setEnt .internalNl,.cb],none,false⟩⟩,⟨256,.vt,false,some ⟨8,[.setEnt .internalNl,.cb,.code],none,false⟩⟩,⟨256,.ff,false,some ⟨11,[.setEnt .internalNl,.cb],none,false⟩⟩,⟨256,.cr,false,some ⟨12,[.setEnt .internalNl,.cb],none,false⟩⟩,⟨256,.cr,true,some ⟨13,[.setEnt .internalNl,.cb],none,false⟩⟩,⟨256,.other,false,some ⟨0,[.setEnt .internalNl,.cb],some 2,true⟩⟩,⟨256,.other,false,some ⟨14,[.setEnt .internalNl,.cb],none,false⟩⟩]⟩,⟨[16,17],none,[],[⟨256,.other,false,some ⟨8,[.setEnt .internalNl,.cb,.code],none,false⟩⟩,⟨256,.ws,false,some ⟨9,[.setEnt .internalNl,.cb],none,false⟩⟩,⟨256,.lf,false,some ⟨10,[.setEnt .internalNl,.cb],none,false⟩⟩,⟨256,.vt,false,some ⟨8,[.setEnt .internalNl,.cb,.code],none,false⟩⟩,⟨256,.ff,false,some ⟨11,[.setEnt .internalNl,.cb],none,false⟩⟩,⟨256,.cr,false,some ⟨12,[.setEnt .internalNl,.cb],none,false⟩⟩,⟨256,.cr,true,some ⟨13,[.setEnt .internalNl,.cb],none,false⟩⟩,⟨256,.other,false,some ⟨0,[.setEnt .internalNl,.cb],some 2,true⟩⟩,⟨256,.other,false,some ⟨14,[.setEnt .internalNl,.cb],none,false⟩⟩]⟩,⟨[23],none,[],[⟨256,.other,false,some ⟨8,[.code],none,false⟩⟩,⟨256,.ws,false,some ⟨9,[],none,false⟩⟩,⟨256,.lf,false,some ⟨10,[],none,false⟩⟩,⟨256,.vt,false,some ⟨8,[.code],none,false⟩⟩,⟨256,.ff,false,some ⟨11,[],none,false⟩⟩,⟨256,.cr,false,some ⟨12,[],none,false⟩⟩,⟨256,.cr,true,some ⟨13,[],none,false⟩⟩,⟨256,.other,false,some ⟨0,[],some 2,true⟩⟩,⟨256,.other,false,some ⟨14,[],none,false⟩⟩]⟩,⟨[11],none,[],[⟨256,.other,false,some ⟨19,[.code],none,false⟩⟩,⟨256,.ws,false,some ⟨20,[],none,false⟩⟩,⟨256,.lf,false,some ⟨21,[],none,false⟩⟩,⟨256,.vt,false,some ⟨19,[.code],none,false⟩⟩,⟨256,.ff,false,some ⟨22,[],none,false⟩⟩,⟨256,.cr,false,some ⟨23,[],none,false⟩⟩,⟨256,.cr,true,some ⟨24,[],none,false⟩⟩,⟨256,.other,false,some ⟨25,[.code],none,false⟩⟩]⟩,⟨[10],none,[],[⟨256,.other,false,some ⟨19,[.code],none,false⟩⟩,⟨256,.ws,false,some ⟨20,[],none,false⟩⟩,⟨256,.lf,false,some ⟨21,[],none,false⟩⟩,⟨256,.vt,false,some ⟨19,[.code],none,false⟩⟩,⟨256,.ff,false,some ⟨22,[],none,false⟩⟩,⟨256,.cr,false,some ⟨23,[],none,false⟩⟩,⟨256,.cr,true,some ⟨24,[],none,false⟩⟩,⟨256,.other,false,some ⟨25,[.code],none,false⟩⟩]⟩,⟨[7],none,[],[⟨256,.other,false,some ⟨19,[.setEnt .internalNl,.cb,.code],none,false⟩⟩,⟨256,.ws,false,some ⟨20,[.setEnt .internalNl,.cb],none,false⟩⟩,⟨256,.lf,false,some ⟨21,[.setEnt .internalNl,.cb],none,false⟩⟩,⟨256,.vt,false,some ⟨19,[.setEnt .internalNl,.cb,.code],none,false⟩⟩,⟨256,.ff,false,some ⟨22,[.setEnt .internalNl,.cb],none,false⟩⟩,⟨256,.cr,false,some ⟨23,[.setEnt .internalNl,.cb],none,false⟩⟩,⟨256,.cr,true,some ⟨24,[.setEnt .internalNl,.cb],none,false⟩⟩,⟨256,.other,false,some ⟨25,[.setEnt .internalNl,.cb,.code],none,false⟩⟩]⟩,⟨[8],none,[],[⟨256,.other,false,some ⟨19,[.setEnt .internalNl,.cb,.code],none,false⟩⟩,⟨256,.ws,false,some ⟨20,[.setEnt .internalNl,.cb],none,false⟩⟩,⟨256,.lf,false,some ⟨21,[.setEnt .internalNl,.cb],none,false⟩⟩,⟨256,.vt,false,some ⟨19,[.setEnt .internalNl,.cb,.code],none,false⟩⟩,⟨256,.ff,false,some ⟨22,[.setEnt .internalNl,.cb],none,false⟩⟩,⟨256,.cr,false,some ⟨23,[.setEnt .internalNl,.cb],none,false⟩⟩,⟨256,.cr,true,some ⟨24,[.setEnt .internalNl,.cb],none,false⟩⟩,⟨256,.other,false,some ⟨25,[.setEnt .internalNl,.cb,.code],none,false⟩⟩]⟩,⟨[5],none,[],[⟨256,.other,false,none⟩,⟨256,.ws,false,none⟩,⟨256,.lf,false,some ⟨26,[],none,false⟩⟩,⟨256,.vt,false,none⟩,⟨256,.ff,false,none⟩,⟨256,.cr,false,none⟩,⟨256,.cr,true,none⟩]⟩,⟨[5,9],none,[],[⟨256,.other,false,some ⟨19,[.setEnt .internalNl,.cb,.code],none,false⟩⟩,⟨256,.ws,false,some ⟨20,[.setEnt .internalNl,.cb],none,false⟩⟩,⟨256,.lf,false,some ⟨27,[.setEnt .internalNl,.cb],none,false⟩⟩,⟨256,.vt,false,some ⟨19,[.setEnt .internalNl,.cb,.code],none,false⟩⟩,⟨256,.ff,false,some ⟨22,[.setEnt .internalNl,.cb],none,false⟩⟩,⟨256,.cr,false,some ⟨23,[.setEnt .internalNl,.cb],none,false⟩⟩,⟨256,.cr,true,some ⟨24,[.setEnt .internalNl,.cb],none,false⟩⟩,⟨256,.other,false,some ⟨25,[.setEnt .internalNl,.cb,.code],none,false⟩⟩]⟩,⟨[11,12],none,[],[⟨256,.other,false,some ⟨19,[.code],none,false⟩⟩,⟨256,.ws,false,some ⟨20,[],none,false⟩⟩,⟨256,.lf,false,some ⟨21,[],none,false⟩⟩,⟨256,.vt,false,some ⟨19,[.code],none,false⟩⟩,⟨256,.ff,false,some ⟨22,[],none,false⟩⟩,⟨256,.cr,false,some ⟨23,[],none,false⟩⟩,⟨256,.cr,true,some ⟨24,[],none,false⟩⟩,⟨256,.other,false,some ⟨25,[.code],none,false⟩⟩,⟨256,.other,false,some ⟨0,[],some 1,true⟩⟩]⟩,⟨[6],none,[],[⟨256,.other,false,some ⟨19,[.setEnt .internalNl,.cb,.code],none,false⟩⟩,⟨256,.ws,false,some ⟨20,[.setEnt .internalNl,.cb],none,false⟩⟩,⟨256,.lf,false,some ⟨21,[.setEnt .internalNl,.cb],none,false⟩⟩,⟨256,.vt,false,some ⟨19,[.setEnt .internalNl,.cb,.code],none,false⟩⟩,⟨256,.ff,false,some ⟨22,[.setEnt .internalNl,.cb],none,false⟩⟩,⟨256,.cr,false,some ⟨23,[.setEnt .internalNl,.cb],none,false⟩⟩,⟨256,.cr,true,some ⟨24,[.setEnt .internalNl,.cb],none,false⟩⟩,⟨256,.other,false,some ⟨25,[.setEnt .internalNl,.cb,.code],none,false⟩⟩]⟩,⟨[6,7],none,[],[⟨256,.other,false,some ⟨19,[.setEnt .internalNl,.cb,.code],none,false⟩⟩,⟨256,.ws,false,some ⟨20,[.setEnt .internalNl,.cb],none,false⟩⟩,⟨256,.lf,false,some ⟨21,[.setEnt .internalNl,.cb],none,false⟩⟩,⟨256,.vt,false,some ⟨19,[.setEnt .internalNl,.cb,.code],none,false⟩⟩,⟨256,.ff,false,some ⟨22,[.setEnt .internalNl,.cb],none,false⟩⟩,⟨256,.cr,false,some ⟨23,[.setEnt .internalNl,.cb],none,false⟩⟩,⟨256,.cr,true,some ⟨24,[.setEnt .internalNl,.cb],none,false⟩⟩,⟨256,.other,false,some ⟨25,[.setEnt .internalNl,.cb,.code],none,false⟩⟩]⟩]
theorem puppet_line_rowsOk : rowsOk puppet_line_nfa [] (puppet_line_cs.map (·.1)) puppet_line_rows = true := by decide +kernel
def puppet_line_D : Dfa puppet_line_M.nfa := ⟨puppet_line_masks, [], puppet_line_cs, puppet_line_rows, puppet_line_masksIn, puppet_line_repOk, puppet_line_rowsOk⟩

def python_line_nfa : Nfa := ⟨[⟨0,4294967808,[],[(0,.setEnt (.own 0))],0,0⟩,⟨1,34359738368,[],[(1,.comment)],0,0⟩,⟨2,140737488355328,[],[],0,0⟩,⟨5,140737488355328,[],[],0,2⟩,⟨16,549755813888,[],[],0,4⟩,⟨29,17179869184,[],[],0,8⟩,⟨42,549755813888,[],[],0,0⟩,⟨50,17179869184,[],[],0,0⟩,⟨58,8192,[],[(21,.setEnt .newline)],0,0⟩,⟨60,1024,[],[(21,.setEnt .newline)],0,0⟩,⟨61,4096,[],[(21,.setEnt .newline)],0,0⟩,⟨62,8192,[.crAlone],[(21,.setEnt .newline)],0,0⟩,⟨63,115792089237316195423570985008687907853269984665640564039457584007908834656767,[],[(22,.setEnt (.own 3))],0,0⟩],[[⟨0,4294967808,[],[(0,.setEnt (.own 0))],0,0⟩],[⟨4,115792089237316195423570985008687907853269984665640564039457584007913129626623,[],[],0,0⟩],[⟨3,140737488355328,[],[(1,.comment)],0,0⟩],[⟨4,115792089237316195423570985008687907853269984665640564039457584007913129626623,[],[],0,0⟩],[⟨4,115792089237316195423570985008687907853269984665640564039457584007913129626623,[],[],0,0⟩],[⟨6,4398046511104,[],[(2,.comment)],0,2⟩],[⟨7,8192,[],[],0,2⟩,⟨9,1024,[],[],0,2⟩,⟨10,4096,[],[],0,2⟩,⟨11,8192,[.crAlone],[],0,2⟩,⟨12,4294967808,[],[],0,2⟩,⟨13,115792089237316195423570985008687907853269984665640564039457584007908834658815,[],[(5,.comment)],0,2⟩,⟨14,4398046511104,[],[],0,2⟩],[⟨8,1024,[],[],0,2⟩],[⟨7,8192,[],[(3,.setEnt .internalNl),(4,.cb)],0,2⟩,⟨9,1024,[],[(3,.setEnt .internalNl),(4,.cb)],0,2⟩,⟨10,4096,[],[(3,.setEnt .internalNl),(4,.cb)],0,2⟩,⟨11,8192,[.crAlone],[(3,.setEnt .internalNl),(4,.cb)],0,2⟩,⟨12,4294967808,[],[(3,.setEnt .internalNl),(4,.cb)],0,2⟩,⟨13,115792089237316195423570985008687907853269984665640564039457584007908834658815,[],[(3,.setEnt .internalNl),(4,.cb),(5,.comment)],0,2⟩,⟨14,4398046511104,[],[(3,.setEnt .internalNl),(4,.cb)],0,2⟩],[⟨7,8192,[],[(3,.setEnt .internalNl),(4,.cb)],0,2⟩,⟨9,1024,[],[(3,.setEnt .internalNl),(4,.cb)],0,2⟩,⟨10,4096,[],[(3,.setEnt .internalNl),(4,.cb)],0,2⟩,⟨11,8192,[.crAlone],[(3,.setEnt .internalNl),(4,.cb)],0,2⟩,⟨12,4294967808,[],[(3,.setEnt .internalNl),(4,.cb)],0,2⟩,⟨13,115792089237316195423570985008687907853269984665640564039457584007908834658815,[],[(3,.setEnt .internalNl),(4,.cb),(5,.comment)],0,2⟩,⟨14,4398046511104,[],[(3,.setEnt .internalNl),(4,.cb)],0,2⟩],[⟨7,8192,[],[(3,.setEnt .internalNl),(4,.cb)],0,2⟩,⟨9,1024,[],[(3,.setEnt .internalNl),(4,.cb)],0,2⟩,⟨10,4096,[],[(3,.setEnt .internalNl),(4,.cb)],0,2⟩,⟨11,8192,[.crAlone],[(3,.setEnt .internalNl),(4,.cb)],0,2⟩,⟨12,4294967808,[],[(3,.setEnt .internalNl),(4,.cb)],0,2⟩,⟨13,115792089237316195423570985008687907853269984665640564039457584007908834658815,[],[(3,.setEnt .internalNl),(4,.cb),(5,.comment)],0,2⟩,⟨14,4398046511104,[],[(3,.setEnt .internalNl),(4,.cb)],0,2⟩],[⟨7,8192,[],[(3,.setEnt .internalNl),(4,.cb)],0,2⟩,⟨9,1024,[],[(3,.setEnt .internalNl),(4,.cb)],0,2⟩,⟨10,4096,[],[(3,.setEnt .internalNl),(4,.cb)],0,2⟩,⟨11,8192,[.crAlone],[(3,.setEnt .internalNl),(4,.cb)],0,2⟩,⟨12,4294967808,[],[(3,.setEnt .internalNl),(4,.cb)],0,2⟩,⟨13,115792089237316195423570985008687907853269984665640564039457584007908834658815,[],[(3,.setEnt .internalNl),(4,.cb),(5,.comment)],0,2⟩,⟨14,4398046511104,[],[(3,.setEnt .internalNl),(4,.cb)],0,2⟩],[⟨7,8192,[],[],0,2⟩,⟨9,1024,[],[],0,2⟩,⟨10,4096,[],[],0,2⟩,⟨11,8192,[.crAlone],[],0,2⟩,⟨12,4294967808,[],[],0,2⟩,⟨13,115792089237316195423570985008687907853269984665640564039457584007908834658815,[],[(5,.comment)],0,2⟩,⟨14,4398046511104,[],[],0,2⟩],[⟨7,8192,[],[],0,2⟩,⟨9,1024,[],[],0,2⟩,⟨10,4096,[],[],0,2⟩,⟨11,8192,[.crAlone],[],0,2⟩,⟨12,4294967808,[],[],0,2⟩,⟨13,115792089237316195423570985008687907853269984665640564039457584007908834658815,[],[(5,.comment)],0,2⟩,⟨14,4398046511104,[],[],0,2⟩],[⟨15,140737488355328,[],[],2,0⟩],[],[⟨17,549755813888,[],[],0,4⟩],[⟨18,549755813888,[],[(6,.comment)],0,4⟩],[⟨19,8192,[],[],0,4⟩,⟨21,1024,[],[],0,4⟩,⟨22,4096,[],[],0,4⟩,⟨23,8192,[.crAlone],[],0,4⟩,⟨24,4294967808,[],[],0,4⟩,⟨25,115792089237316195423570985008687907853269984665640564039457584007908834658815,[],[(9,.comment)],0,4⟩,⟨26,549755813888,[],[],0,4⟩],[⟨20,1024,[],[],0,4⟩],[⟨19,8192,[],[(7,.setEnt .internalNl),(8,.cb)],0,4⟩,⟨21,1024,[],[(7,.setEnt .internalNl),(8,.cb)],0,4⟩,⟨22,4096,[],[(7,.setEnt .internalNl),(8,.cb)],0,4⟩,⟨23,8192,[.crAlone],[(7,.setEnt .internalNl),(8,.cb)],0,4⟩,⟨24,4294967808,[],[(7,.setEnt .internalNl),(8,.cb)],0,4⟩,⟨25,115792089237316195423570985008687907853269984665640564039457584007908834658815,[],[(7,.setEnt .internalNl),(8,.cb),(9,.comment)],0,4⟩,⟨26,549755813888,[],[(7,.setEnt .internalNl),(8,.cb)],0,4⟩],[⟨19,8192,[],[(7,.setEnt .internalNl),(8,.cb)],0,4⟩,⟨21,1024,[],[(7,.setEnt .internalNl),(8,.cb)],0,4⟩,⟨22,4096,[],[(7,.setEnt .internalNl),(8,.cb)],0,4⟩,⟨23,8192,[.crAlone],[(7,.setEnt .internalNl),(8,.cb)],0,4⟩,⟨24,4294967808,[],[(7,.setEnt .internalNl),(8,.cb)],0,4⟩,⟨25,115792089237316195423570985008687907853269984665640564039457584007908834658815,[],[(7,.setEnt .internalNl),(8,.cb),(9,.comment)],0,4⟩,⟨26,549755813888,[],[(7,.setEnt .internalNl),(8,.cb)],0,4⟩],[⟨19,8192,[],[(7,.setEnt .internalNl),(8,.cb)],0,4⟩,⟨21,1024,[],[(7,.setEnt .internalNl),(8,.cb)],0,4⟩,⟨22,4096,[],[(7,.setEnt .internalNl),(8,.cb)],0,4⟩,⟨23,8192,[.crAlone],[(7,.setEnt .internalNl),(8,.cb)],0,4⟩,⟨24,4294967808,[],[(7,.setEnt .internalNl),(8,.cb)],0,4⟩,⟨25,115792089237316195423570985008687907853269984665640564039457584007908834658815,[],[(7,.setEnt .internalNl),(8,.cb),(9,.comment)],0,4⟩,⟨26,549755813888,[],[(7,.setEnt .internalNl),(8,.cb)],0,4⟩],[⟨19,8192,[],[(7,.setEnt .internalNl),(8,.cb)],0,4⟩,⟨21,1024,[],[(7,.setEnt .internalNl),(8,.cb)],0,4⟩,⟨22,4096,[],[(7,.setEnt .internalNl),(8,.cb)],0,4⟩,⟨23,8192,[.crAlone],[(7,.setEnt .internalNl),(8,.cb)],0,4⟩,⟨24,4294967808,[],[(7,.setEnt .internalNl),(8,.cb)],0,4⟩,⟨25,115792089237316195423570985008687907853269984665640564039457584007908834658815,[],[(7,.setEnt .internalNl),(8,.cb),(9,.comment)],0,4⟩,⟨26,549755813888,[],[(7,.setEnt .internalNl),(8,.cb)],0,4⟩],[⟨19,8192,[],[],0,4⟩,⟨21,1024,[],[],0,4⟩,⟨22,4096,[],[],0,4⟩,⟨23,8192,[.crAlone],[],0,4⟩,⟨24,4294967808,[],[],0,4⟩,⟨25,115792089237316195423570985008687907853269984665640564039457584007908834658815,[],[(9,.comment)],0,4⟩,⟨26,549755813888,[],[],0,4⟩],[⟨19,8192,[],[],0,4⟩,⟨21,1024,[],[],0,4⟩,⟨22,4096,[],[],0,4⟩,⟨23,8192,[.crAlone],[],0,4⟩,⟨24,4294967808,[],[],0,4⟩,⟨25,115792089237316195423570985008687907853269984665640564039457584007908834658815,[],[(9,.comment)],0,4⟩,⟨26,549755813888,[],[],0,4⟩],[⟨27,549755813888,[],[],0,0⟩],[⟨28,549755813888,[],[(10,.comment)],4,0⟩],[],[⟨30,17179869184,[],[],0,8⟩],[⟨31,17179869184,[],[(11,.comment)],0,8⟩],[⟨32,8192,[],[],0,8⟩,⟨34,1024,[],[],0,8⟩,⟨35,4096,[],[],0,8⟩,⟨36,8192,[.crAlone],[],0,8⟩,⟨37,4294967808,[],[],0,8⟩,⟨38,115792089237316195423570985008687907853269984665640564039457584007908834658815,[],[(14,.comment)],0,8⟩,⟨39,17179869184,[],[],0,8⟩],[⟨33,1024,[],[],0,8⟩],[⟨32,8192,[],[(12,.setEnt .internalNl),(13,.cb)],0,8⟩,⟨34,1024,[],[(12,.setEnt .internalNl),(13,.cb)],0,8⟩,⟨35,4096,[],[(12,.setEnt .internalNl),(13,.cb)],0,8⟩,⟨36,8192,[.crAlone],[(12,.setEnt .internalNl),(13,.cb)],0,8⟩,⟨37,4294967808,[],[(12,.setEnt .internalNl),(13,.cb)],0,8⟩,⟨38,115792089237316195423570985008687907853269984665640564039457584007908834658815,[],[(12,.setEnt .internalNl),(13,.cb),(14,.comment)],0,8⟩,⟨39,17179869184,[],[(12,.setEnt .internalNl),(13,.cb)],0,8⟩],[⟨32,8192,[],[(12,.setEnt .internalNl),(13,.cb)],0,8⟩,⟨34,1024,[],[(12,.setEnt .internalNl),(13,.cb)],0,8⟩,⟨35,4096,[],[(12,.setEnt .internalNl),(13,.cb)],0,8⟩,⟨36,8192,[.crAlone],[(12,.setEnt .internalNl),(13,.cb)],0,8⟩,⟨37,4294967808,[],[(12,.setEnt .internalNl),(13,.cb)],0,8⟩,⟨38,115792089237316195423570985008687907853269984665640564039457584007908834658815,[],[(12,.setEnt .internalNl),(13,.cb),(14,.comment)],0,8⟩,⟨39,17179869184,[],[(12,.setEnt .internalNl),(13,.cb)],0,8⟩],[⟨32,8192,[],[(12,.setEnt .internalNl),(13,.cb)],0,8⟩,⟨34,1024,[],[(12,.setEnt .internalNl),(13,.cb)],0,8⟩,⟨35,4096,[],[(12,.setEnt .internalNl),(13,.cb)],0,8⟩,⟨36,8192,[.crAlone],[(12,.setEnt .internalNl),(13,.cb)],0,8⟩,⟨37,4294967808,[],[(12,.setEnt .internalNl),(13,.cb)],0,8⟩,⟨38,115792089237316195423570985008687907853269984665640564039457584007908834658815,[],[(12,.setEnt .internalNl),(13,.cb),(14,.comment)],0,8⟩,⟨39,17179869184,[],[(12,.setEnt .internalNl),(13,.cb)],0,8⟩],[⟨32,8192,[],[(12,.setEnt .internalNl),(13,.cb)],0,8⟩,⟨34,1024,[],[(12,.setEnt .internalNl),(13,.cb)],0,8⟩,⟨35,4096,[],[(12,.setEnt .internalNl),(13,.cb)],0,8⟩,⟨36,8192,[.crAlone],[(12,.setEnt .internalNl),(13,.cb)],0,8⟩,⟨37,4294967808,[],[(12,.setEnt .internalNl),(13,.cb)],0,8⟩,⟨38,115792089237316195423570985008687907853269984665640564039457584007908834658815,[],[(12,.setEnt .internalNl),(13,.cb),(14,.comment)],0,8⟩,⟨39,17179869184,[],[(12,.setEnt .internalNl),(13,.cb)],0,8⟩],[⟨32,8192,[],[],0,8⟩,⟨34,1024,[],[],0,8⟩,⟨35,4096,[],[],0,8⟩,⟨36,8192,[.crAlone],[],0,8⟩,⟨37,4294967808,[],[],0,8⟩,⟨38,115792089237316195423570985008687907853269984665640564039457584007908834658815,[],[(14,.comment)],0,8⟩,⟨39,17179869184,[],[],0,8⟩],[⟨32,8192,[],[],0,8⟩,⟨34,1024,[],[],0,8⟩,⟨35,4096,[],[],0,8⟩,⟨36,8192,[.crAlone],[],0,8⟩,⟨37,4294967808,[],[],0,8⟩,⟨38,115792089237316195423570985008687907853269984665640564039457584007908834658815,[],[(14,.comment)],0,8⟩,⟨39,17179869184,[],[],0,8⟩],[⟨40,17179869184,[],[],0,0⟩],[⟨41,17179869184,[],[(15,.comment)],8,0⟩],[],[⟨43,115792089237316195423570985008687907853269984665640564039457584007363373826047,[],[(17,.fhold 1)],0,0⟩,⟨44,549755813888,[],[],0,0⟩],[⟨46,115792089237316195423570985008687907853269984665635612279300442486263777315839,[],[],0,0⟩,⟨47,4951760157141521099596496896,[],[],0,0⟩,⟨49,549755813888,[],[(20,.code)],0,0⟩],[⟨45,115792089237316195423570985008687907853269984665640564039457584007363373826047,[],[(16,.fhold 0),(17,.fhold 1)],0,0⟩],[⟨46,115792089237316195423570985008687907853269984665635612279300442486263777315839,[],[],0,0⟩,⟨47,4951760157141521099596496896,[],[],0,0⟩,⟨49,549755813888,[],[(20,.code)],0,0⟩],[⟨46,115792089237316195423570985008687907853269984665635612279300442486263777315839,[],[],0,0⟩,⟨47,4951760157141521099596496896,[],[],0,0⟩,⟨49,549755813888,[],[(20,.code)],0,0⟩],[⟨48,115792089237316195423570985008687907853269984665640564039457584007913129626623,[],[],0,0⟩],[⟨46,115792089237316195423570985008687907853269984665635612279300442486263777315839,[],[],0,0⟩,⟨47,4951760157141521099596496896,[],[],0,0⟩,⟨49,549755813888,[],[(20,.code)],0,0⟩],[],[⟨51,115792089237316195423570985008687907853269984665640564039457584007895949770751,[],[(19,.fhold 3)],0,0⟩,⟨52,17179869184,[],[],0,0⟩],[⟨54,115792089237316195423570985008687907853269984665635612279300442486796353260543,[],[],0,0⟩,⟨55,4951760157141521099596496896,[],[],0,0⟩,⟨57,17179869184,[],[(20,.code)],0,0⟩],[⟨53,115792089237316195423570985008687907853269984665640564039457584007895949770751,[],[(18,.fhold 2),(19,.fhold 3)],0,0⟩],[⟨54,115792089237316195423570985008687907853269984665635612279300442486796353260543,[],[],0,0⟩,⟨55,4951760157141521099596496896,[],[],0,0⟩,⟨57,17179869184,[],[(20,.code)],0,0⟩],[⟨54,115792089237316195423570985008687907853269984665635612279300442486796353260543,[],[],0,0⟩,⟨55,4951760157141521099596496896,[],[],0,0⟩,⟨57,17179869184,[],[(20,.code)],0,0⟩],[⟨56,115792089237316195423570985008687907853269984665640564039457584007913129626623,[],[],0,0⟩],[⟨54,115792089237316195423570985008687907853269984665635612279300442486796353260543,[],[],0,0⟩,⟨55,4951760157141521099596496896,[],[],0,0⟩,⟨57,17179869184,[],[(20,.code)],0,0⟩],[],[⟨59,1024,[],[(21,.setEnt .newline)],0,0⟩],[],[],[],[],[]],[some (0,[]),some (1,[]),none,some (1,[]),some (1,[]),none,none,none,none,none,none,none,none,none,none,some (1,[]),none,none,none,none,none,none,none,none,none,none,none,none,some (1,[]),none,none,none,none,none,none,none,none,none,none,none,none,some (1,[]),none,none,none,none,none,none,none,some (2,[]),none,none,none,none,none,none,none,some (2,[]),none,some (3,[]),some (3,[]),some (3,[]),some (3,[]),some (4,[])],[1,16,21,22,23]⟩
theorem python_line_nfa_eq : Python.python_line.nfa = python_line_nfa := by decide +kernel
/-- The machine of `Python.python_line`, with its automaton as a literal. -/
def python_line_M : Machine := ⟨python_line_nfa, Python.python_line.ends, Python.python_line.sw⟩
theorem python_line_M_eq : Python.python_line.machine = python_line_M := by
  unfold Scanner.machine python_line_M; rw [python_line_nfa_eq]
def python_line_masks : List Nat := [4294967808,34359738368,140737488355328,549755813888,17179869184,8192,1024,4096,115792089237316195423570985008687907853269984665640564039457584007908834656767,115792089237316195423570985008687907853269984665640564039457584007913129626623,4398046511104,115792089237316195423570985008687907853269984665640564039457584007908834658815,115792089237316195423570985008687907853269984665640564039457584007363373826047,115792089237316195423570985008687907853269984665635612279300442486263777315839,4951760157141521099596496896,115792089237316195423570985008687907853269984665640564039457584007895949770751,115792089237316195423570985008687907853269984665635612279300442486796353260543]
def python_line_cs : List (Nat × Nat) := [(0,115792089237316195423570985008687907853269984665635612279300442341072407871999),(9,4294967808),(10,1024),(11,2048),(12,4096),(13,8192),(34,17179869184),(35,34359738368),(39,549755813888),(42,4398046511104),(47,140737488355328),(92,4951760157141521099596496896)]
theorem python_line_masksIn : masksIn python_line_nfa python_line_masks = true := by decide +kernel
theorem python_line_repOk : repOk python_line_masks python_line_cs = true := by decide +kernel
def python_line_rows : List Row := [⟨[],none,[],[⟨0,.other,false,some ⟨0,[.setEnt (.own 3)],some 4,true⟩⟩,⟨9,.ws,false,some ⟨1,[.setEnt (.own 0)],some 0,false⟩⟩,⟨10,.lf,false,some ⟨0,[.setEnt .newline],some 3,true⟩⟩,⟨11,.vt,false,none⟩,⟨12,.ff,false,some ⟨0,[.setEnt .newline],some 3,true⟩⟩,⟨13,.cr,false,some ⟨2,[.setEnt .newline],none,false⟩⟩,⟨13,.cr,true,some ⟨3,[.setEnt .newline],some 3,false⟩⟩,⟨34,.other,false,some ⟨4,[.setEnt (.own 3)],some 4,false⟩⟩,⟨35,.other,false,some ⟨5,[.comment,.setEnt (.own 3)],some 1,false⟩⟩,⟨39,.other,false,some ⟨6,[.setEnt (.own 3)],some 4,false⟩⟩,⟨42,.other,false,some ⟨0,[.setEnt (.own 3)],some 4,true⟩⟩,⟨47,.other,false,some ⟨7,[.setEnt (.own 3)],some 4,false⟩⟩,⟨92,.other,false,some ⟨0,[.setEnt (.own 3)],some 4,true⟩⟩]⟩,⟨[0],some 0,[],[⟨0,.other,false,none⟩,⟨9,.ws,false,some ⟨1,[.setEnt (.own 0)],some 0,false⟩⟩,⟨10,.lf,false,none⟩,⟨11,.vt,false,none⟩,⟨12,.ff,false,none⟩,⟨13,.cr,false,none⟩,⟨13,.cr,true,none⟩,⟨34,.other,false,none⟩,⟨35,.other,false,none⟩,⟨39,.other,false,none⟩,⟨42,.other,false,none⟩,⟨47,.other,false,none⟩,⟨92,.other,false,none⟩]⟩,⟨[58],none,[],[⟨0,.other,false,none⟩,⟨9,.ws,false,none⟩,⟨10,.lf,false,some ⟨0,[.setEnt .newline],some 3,true⟩⟩,⟨11,.vt,false,none⟩,⟨12,.ff,false,none⟩,⟨13,.cr,false,none⟩,⟨13,.cr,true,none⟩,⟨34,.other,false,none⟩,⟨35,.other,false,none⟩,⟨39,.other,false,none⟩,⟨42,.other,false,none⟩,⟨47,.other,false,none⟩,⟨92,.other,false,none⟩]⟩,⟨[58,62],some 3,[],[⟨0,.other,false,none⟩,⟨9,.ws,false,none⟩,⟨10,.lf,false,some ⟨0,[.setEnt .newline],some 3,true⟩⟩,⟨11,.vt,false,none⟩,⟨12,.ff,false,none⟩,⟨13,.cr,false,none⟩,⟨13,.cr,true,none⟩,⟨34,.other,false,none⟩,⟨35,.other,false,none⟩,⟨39,.other,false,none⟩,⟨42,.other,false,none⟩,⟨47,.other,false,none⟩,⟨92,.other,false,none⟩]⟩,⟨[29,50,63],some 4,[],[⟨0,.other,false,some ⟨8,[.fhold 3],none,false⟩⟩,⟨9,.ws,false,some ⟨8,[.fhold 3],none,false⟩⟩,⟨10,.lf,false,some ⟨8,[.fhold 3],none,false⟩⟩,⟨11,.vt,false,some ⟨8,[.fhold 3],none,false⟩⟩,⟨12,.ff,false,some ⟨8,[.fhold 3],none,false⟩⟩,⟨13,.cr,false,some ⟨8,[.fhold 3],none,false⟩⟩,⟨13,.cr,true,some ⟨8,[.fhold 3],none,false⟩⟩,⟨34,.other,false,some ⟨9,[],none,false⟩⟩,⟨35,.other,false,some ⟨8,[.fhold 3],none,false⟩⟩,⟨39,.other,false,some ⟨8,[.fhold 3],none,false⟩⟩,⟨42,.other,false,some ⟨8,[.fhold 3],none,false⟩⟩,⟨47,.other,false,some ⟨8,[.fhold 3],none,false⟩⟩,⟨92,.other,false,some ⟨8,[.fhold 3],none,false⟩⟩]⟩,⟨[1,63],some 1,[],[⟨0,.other,false,some ⟨10,[],some 1,false⟩⟩,⟨9,.ws,false,some ⟨10,[],some 1,false⟩⟩,⟨10,.lf,false,none⟩,⟨11,.vt,false,some ⟨10,[],some 1,false⟩⟩,⟨12,.ff,false,none⟩,⟨13,.cr,false,none⟩,⟨13,.cr,true,none⟩,⟨34,.other,false,some ⟨10,[],some 1,false⟩⟩,⟨35,.other,false,some ⟨10,[],some 1,false⟩⟩,⟨39,.other,false,some ⟨10,[],some 1,false⟩⟩,⟨42,.other,false,some ⟨10,[],some 1,false⟩⟩,⟨47,.other,false,some ⟨10,[],some 1,false⟩⟩,⟨92,.other,false,some ⟨10,[],some 1,false⟩⟩]⟩,⟨[16,42,63],some 4,[],[⟨0,.other,false,some ⟨11,[.fhold 1],none,false⟩⟩,⟨9,.ws,false,some ⟨11,[.fhold 1],none,false⟩⟩,⟨10,.lf,false,some ⟨11,[.fhold 1],none,false⟩⟩,⟨11,.vt,false,some ⟨11,[.fhold 1],none,false⟩⟩,⟨12,.ff,false,some ⟨11,[.fhold 1],none,false⟩⟩,⟨13,.cr,false,some ⟨11,[.fhold 1],none,false⟩⟩,⟨13,.cr,true,some ⟨11,[.fhold 1],none,false⟩⟩,⟨34,.other,false,some ⟨11,[.fhold 1],none,false⟩⟩,⟨35,.other,false,some ⟨11,[.fhold 1],none,false⟩⟩,⟨39,.other,false,some ⟨12,[],none,false⟩⟩,⟨42,.other,false,some ⟨11,[.fhold 1],none,false⟩⟩,⟨47,.other,false,some ⟨11,[.fhold 1],none,false⟩⟩,⟨92,.other,false,some ⟨11,[.fhold 1],none,false⟩⟩]⟩,⟨[2,5,63],some 4,[],[⟨0,.other,false,none⟩,⟨9,.ws,false,none⟩,⟨10,.lf,false,none⟩,⟨11,.vt,false,none⟩,⟨12,.ff,false,none⟩,⟨13,.cr,false,none⟩,⟨13,.cr,true,none⟩,⟨34,.other,false,none⟩,⟨35,.other,false,none⟩,⟨39,.other,false,none⟩,⟨42,.other,false,some ⟨13,[.comment],none,false⟩⟩,⟨47,.other,false,some ⟨14,[.comment],some 1,false⟩⟩,⟨92,.other,false,none⟩]⟩,⟨[51],none,[],[⟨0,.other,false,some ⟨15,[],none,false⟩⟩,⟨9,.ws,false,some ⟨15,[],none,false⟩⟩,⟨10,.lf,false,none⟩,⟨11,.vt,false,some ⟨15,[],none,false⟩⟩,⟨12,.ff,false,none⟩,⟨13,.cr,false,none⟩,⟨13,.cr,true,none⟩,⟨34,.other,false,some ⟨0,[.code],some 2,true⟩⟩,⟨35,.other,false,some ⟨15,[],none,false⟩⟩,⟨39,.other,false,some ⟨15,[],none,false⟩⟩,⟨42,.other,false,some ⟨15,[],none,false⟩⟩,⟨47,.other,false,some ⟨15,[],none,false⟩⟩,⟨92,.other,false,some ⟨16,[],none,false⟩⟩]⟩,⟨[30,52],none,[],[⟨0,.other,false,some ⟨17,[.fhold 2,.fhold 3],none,false⟩⟩,⟨9,.ws,false,some ⟨17,[.fhold 2,.fhold 3],none,false⟩⟩,⟨10,.lf,false,some ⟨17,[.fhold 2,.fhold 3],none,false⟩⟩,⟨11,.vt,false,some ⟨17,[.fhold 2,.fhold 3],none,false⟩⟩,⟨12,.ff,false,some ⟨17,[.fhold 2,.fhold 3],none,false⟩⟩,⟨13,.cr,false,some ⟨17,[.fhold 2,.fhold 3],none,false⟩⟩,⟨13,.cr,true,some ⟨17,[.fhold 2,.fhold 3],none,false⟩⟩,⟨34,.other,false,some ⟨18,[.comment],none,false⟩⟩,⟨35,.other,false,some ⟨17,[.fhold 2,.fhold 3],none,false⟩⟩,⟨39,.other,false,some ⟨17,[.fhold 2,.fhold 3],none,false⟩⟩,⟨42,.other,false,some ⟨17,[.fhold 2,.fhold 3],none,false⟩⟩,⟨47,.other,false,some ⟨17,[.fhold 2,.fhold 3],none,false⟩⟩,⟨92,.other,false,some ⟨17,[.fhold 2,.fhold 3],none,false⟩⟩]⟩,⟨[4],some 1,[],[⟨0,.other,false,some ⟨10,[],some 1,false⟩⟩,⟨9,.ws,false,some ⟨10,[],some 1,false⟩⟩,⟨10,.lf,false,none⟩,⟨11,.vt,false,some ⟨10,[],some 1,false⟩⟩,⟨12,.ff,false,none⟩,⟨13,.cr,false,none⟩,⟨13,.cr,true,none⟩,⟨34,.other,false,some ⟨10,[],some 1,false⟩⟩,⟨35,.other,false,some ⟨10,[],some 1,false⟩⟩,⟨39,.other,false,some ⟨10,[],some 1,false⟩⟩,⟨42,.other,false,some ⟨10,[],some 1,false⟩⟩,⟨47,.other,false,some ⟨10,[],some 1,false⟩⟩,⟨92,.other,false,some ⟨10,[],some 1,false⟩⟩]⟩,⟨[43],none,[],[⟨0,.other,false,some ⟨19,[],none,false⟩⟩,⟨9,.ws,false,some ⟨19,[],none,false⟩⟩,⟨10,.lf,false,none⟩,⟨11,.vt,false,some ⟨19,[],none,false⟩⟩,⟨12,.ff,false,none⟩,⟨13,.cr,false,none⟩,⟨13,.cr,true,none⟩,⟨34,.other,false,some ⟨19,[],none,false⟩⟩,⟨35,.other,false,some ⟨19,[],none,false⟩⟩,⟨39,.other,false,some ⟨0,[.code],some 2,true⟩⟩,⟨42,.other,false,some ⟨19,[],none,false⟩⟩,⟨47,.other,false,some ⟨19,[],none,false⟩⟩,⟨92,.other,false,some ⟨20,[],none,false⟩⟩]⟩,⟨[17,44],none,[],[⟨0,.other,false,some ⟨21,[.fhold 0,.fhold 1],none,false⟩⟩,⟨9,.ws,false,some ⟨21,[.fhold 0,.fhold 1],none,false⟩⟩,⟨10,.lf,false,some ⟨21,[.fhold 0,.fhold 1],none,false⟩⟩,⟨11,.vt,false,some ⟨21,[.fhold 0,.fhold 1],none,false⟩⟩,⟨12,.ff,false,some ⟨21,[.fhold 0,.fhold 1],none,false⟩⟩,⟨13,.cr,false,some ⟨21,[.fhold 0,.fhold 1],none,false⟩⟩,⟨13,.cr,true,some ⟨21,[.fhold 0,.fhold 1],none,false⟩⟩,⟨34,.other,false,some ⟨21,[.fhold 0,.fhold 1],none,false⟩⟩,⟨35,.other,false,some ⟨21,[.fhold 0,.fhold 1],none,false⟩⟩,⟨39,.other,false,some ⟨22,[.comment],none,false⟩⟩,⟨42,.other,false,some ⟨21,[.fhold 0,.fhold 1],none,false⟩⟩,⟨47,.other,false,some ⟨21,[.fhold 0,.fhold 1],none,false⟩⟩,⟨92,.other,false,some ⟨21,[.fhold 0,.fhold 1],none,false⟩⟩]⟩,⟨[6],none,[],[⟨0,.other,false,some ⟨23,[.comment],none,false⟩⟩,⟨9,.ws,false,some ⟨24,[],none,false⟩⟩,⟨10,.lf,false,some ⟨25,[],none,false⟩⟩,⟨11,.vt,false,some ⟨23,[.comment],none,false⟩⟩,⟨12,.ff,false,some ⟨26,[],none,false⟩⟩,⟨13,.cr,false,some ⟨27,[],none,false⟩⟩,⟨13,.cr,true,some ⟨28,[],none,false⟩⟩,⟨34,.other,false,some ⟨23,[.comment],none,false⟩⟩,⟨35,.other,false,some ⟨23,[.comment],none,false⟩⟩,⟨39,.other,false,some ⟨23,[.comment],none,false⟩⟩,⟨42,.other,false,some ⟨29,[.comment],none,false⟩⟩,⟨47,.other,false,some ⟨23,[.comment],none,false⟩⟩,⟨92,.other,false,some ⟨23,[.comment],none,false⟩⟩]⟩,⟨[3],some 1,[],[⟨0,.other,false,some ⟨10,[],some 1,false⟩⟩,⟨9,.ws,false,some ⟨10,[],some 1,false⟩⟩,⟨10,.lf,false,none⟩,⟨11,.vt,false,some ⟨10,[],some 1,false⟩⟩,⟨12,.ff,false,none⟩,⟨13,.cr,false,none⟩,⟨13,.cr,true,none⟩,⟨34,.other,false,some ⟨10,[],some 1,false⟩⟩,⟨35,.other,false,some ⟨10,[],some 1,false⟩⟩,⟨39,.other,false,some ⟨10,[],some 1,false⟩⟩,⟨42,.other,false,some ⟨10,[],some 1,false⟩⟩,⟨47,.other,false,some ⟨10,[],some 1,false⟩⟩,⟨92,.other,false,some ⟨10,[],some 1,false⟩⟩]⟩,⟨[54],none,[],[⟨0,.other,false,some ⟨15,[],none,false⟩⟩,⟨9,.ws,false,some ⟨15,[],none,false⟩⟩,⟨10,.lf,false,none⟩,⟨11,.vt,false,some ⟨15,[],none,false⟩⟩,⟨12,.ff,false,none⟩,⟨13,.cr,false,none⟩,⟨13,.cr,true,none⟩,⟨34,.other,false,some ⟨0,[.code],some 2,true⟩⟩,⟨35,.other,false,some ⟨15,[],none,false⟩⟩,⟨39,.other,false,some ⟨15,[],none,false⟩⟩,⟨42,.other,false,some ⟨15,[],none,false⟩⟩,⟨47,.other,false,some ⟨15,[],none,false⟩⟩,⟨92,.other,false,some ⟨16,[],none,false⟩⟩]⟩,⟨[55],none,[],[⟨0,.other,false,some ⟨30,[],none,false⟩⟩,⟨9,.ws,false,some ⟨30,[],none,false⟩⟩,⟨10,.lf,false,none⟩,⟨11,.vt,false,some ⟨30,[],none,false⟩⟩,⟨12,.ff,false,none⟩,⟨13,.cr,false,none⟩,⟨13,.cr,true,none⟩,⟨34,.other,false,some ⟨30,[],none,false⟩⟩,⟨35,.other,false,some ⟨30,[],none,false⟩⟩,⟨39,.other,false,some ⟨30,[],none,false⟩⟩,⟨42,.other,false,some ⟨30,[],none,false⟩⟩,⟨47,.other,false,some ⟨30,[],none,false⟩⟩,⟨92,.other,false,some ⟨30,[],none,false⟩⟩]⟩,⟨[53],none,[],[⟨0,.other,false,some ⟨15,[],none,false⟩⟩,⟨9,.ws,false,some ⟨15,[],none,false⟩⟩,⟨10,.lf,false,none⟩,⟨11,.vt,false,some ⟨15,[],none,false⟩⟩,⟨12,.ff,false,none⟩,⟨13,.cr,false,none⟩,⟨13,.cr,true,none⟩,⟨34,.other,false,some ⟨0,[.code],some 2,true⟩⟩,⟨35,.other,false,some ⟨15,[],none,false⟩⟩,⟨39,.other,false,some ⟨15,[],none,false⟩⟩,⟨42,.other,false,some ⟨15,[],none,false⟩⟩,⟨47,.other,false,some ⟨15,[],none,false⟩⟩,⟨92,.other,false,some ⟨16,[],none,false⟩⟩]⟩,⟨[31],none,[],[⟨0,.other,false,some ⟨31,[.comment],none,false⟩⟩,⟨9,.ws,false,some ⟨32,[],none,false⟩⟩,⟨10,.lf,false,some ⟨33,[],none,false⟩⟩,⟨11,.vt,false,some ⟨31,[.comment],none,false⟩⟩,⟨12,.ff,false,some ⟨34,[],none,false⟩⟩,⟨13,.cr,false,some ⟨35,[],none,false⟩⟩,⟨13,.cr,true,some ⟨36,[],none,false⟩⟩,⟨34,.other,false,some ⟨37,[.comment],none,false⟩⟩,⟨35,.other,false,some ⟨31,[.comment],none,false⟩⟩,⟨39,.other,false,some ⟨31,[.comment],none,false⟩⟩,⟨42,.other,false,some ⟨31,[.comment],none,false⟩⟩,⟨47,.other,false,some ⟨31,[.comment],none,false⟩⟩,⟨92,.other,false,some ⟨31,[.comment],none,false⟩⟩]⟩,⟨[46],none,[],[⟨0,.other,false,some ⟨19,[],none,false⟩⟩,⟨9,.ws,false,some ⟨19,[],none,false⟩⟩,⟨10,.lf,false,none⟩,⟨11,.vt,false,some ⟨19,[],none,false⟩⟩,⟨12,.ff,false,none⟩,⟨13,.cr,false,none⟩,⟨13,.cr,true,none⟩,⟨34,.other,false,some ⟨19,[],none,false⟩⟩,⟨35,.other,false,some ⟨19,[],none,false⟩⟩,⟨39,.other,false,some ⟨0,[.code],some 2,true⟩⟩,⟨42,.other,false,some ⟨19,[],none,false⟩⟩,⟨47,.other,false,some ⟨19,[],none,false⟩⟩,⟨92,.other,false,some ⟨20,[],none,false⟩⟩]⟩,⟨[47],none,[],[⟨0,.other,false,some ⟨38,[],none,false⟩⟩,⟨9,.ws,false,some ⟨38,[],none,false⟩⟩,⟨10,.lf,false,none⟩,⟨11,.vt,false,some ⟨38,[],none,false⟩⟩,⟨12,.ff,false,none⟩,⟨13,.cr,false,none⟩,⟨13,.cr,true,none⟩,⟨34,.other,false,some ⟨38,[],none,false⟩⟩,⟨35,.other,false,some ⟨38,[],none,false⟩⟩,⟨39,.other,false,some ⟨38,[],none,false⟩⟩,⟨42,.other,false,some ⟨38,[],none,false⟩⟩,⟨47,.other,false,some ⟨38,[],none,false⟩⟩,⟨92,.other,false,some ⟨38,[],none,false⟩⟩]⟩,⟨[45],none,[],[⟨0,.other,false,some ⟨19,[],none,false⟩⟩,⟨9,.ws,false,some ⟨19,[],none,false⟩⟩,⟨10,.lf,false,none⟩,⟨11,.vt,false,some ⟨19,[],none,false⟩⟩,⟨12,.ff,false,none⟩,⟨13,.cr,false,none⟩,⟨13,.cr,true,none⟩,⟨34,.other,false,some ⟨19,[],none,false⟩⟩,⟨35,.other,false,some ⟨19,[],none,false⟩⟩,⟨39,.other,false,some ⟨0,[.code],some 2,true⟩⟩,⟨42,.other,false,some ⟨19,[],none,false⟩⟩,⟨47,.other,false,some ⟨19,[],none,false⟩⟩,⟨92,.other,false,some ⟨20,[],none,false⟩⟩]⟩,⟨[18],none,[],[⟨0,.other,false,some ⟨39,[.comment],none,false⟩⟩,⟨9,.ws,false,some ⟨40,[],none,false⟩⟩,⟨10,.lf,false,some ⟨41,[],none,false⟩⟩,⟨11,.vt,false,some ⟨39,[.comment],none,false⟩⟩,⟨12,.ff,false,some ⟨42,[],none,false⟩⟩,⟨13,.cr,false,some ⟨43,[],none,false⟩⟩,⟨13,.cr,true,some ⟨44,[],none,false⟩⟩,⟨34,.other,false,some ⟨39,[.comment],none,false⟩⟩,⟨35,.other,false,some ⟨39,[.comment],none,false⟩⟩,⟨39,.other,false,some ⟨45,[.comment],none,false⟩⟩,⟨42,.other,false,some ⟨39,[.comment],none,false⟩⟩,⟨47,.other,false,some ⟨39,[.comment],none,false⟩⟩,⟨92,.other,false,some ⟨39,[.comment],none,false⟩⟩]⟩,⟨[13],none,[],[⟨0,.other,false,some ⟨23,[.comment],none,false⟩⟩,⟨9,.ws,false,some ⟨24,[],none,false⟩⟩,⟨10,.lf,false,some ⟨25,[],none,false⟩⟩,⟨11,.vt,false,some ⟨23,[.comment],none,false⟩⟩,⟨12,.ff,false,some ⟨26,[],none,false⟩⟩,⟨13,.cr,false,some ⟨27,[],none,false⟩⟩,⟨13,.cr,true,some ⟨28,[],none,false⟩⟩,⟨34,.other,false,some ⟨23,[.comment],none,false⟩⟩,⟨35,.other,false,some ⟨23,[.comment],none,false⟩⟩,⟨39,.other,false,some ⟨23,[.comment],none,false⟩⟩,⟨42,.other,false,some ⟨29,[.comment],none,false⟩⟩,⟨47,.other,false,some ⟨23,[.comment],none,false⟩⟩,⟨92,.other,false,some ⟨23,[.comment],none,false⟩⟩]⟩,⟨[12],none,[],[⟨0,.other,false,some ⟨23,[.comment],none,false⟩⟩,⟨9,.ws,false,some ⟨24,[],none,false⟩⟩,⟨10,.lf,false,some ⟨25,[],none,false⟩⟩,⟨11,.vt,false,some ⟨23,[.comment],none,false⟩⟩,⟨12,.ff,false,some ⟨26,[],none,false⟩⟩,⟨13,.cr,false,some ⟨27,[],none,false⟩⟩,⟨13,.cr,true,some ⟨28,[],none,false⟩⟩,⟨34,.other,false,some ⟨23,[.comment],none,false⟩⟩,⟨35,.other,false,some ⟨23,[.comment],none,false⟩⟩,⟨39,.other,false,some ⟨23,[.comment],none,false⟩⟩,⟨42,.other,false,some ⟨29,[.comment],none,false⟩⟩,⟨47,.other,false,some ⟨23,[.comment],none,false⟩⟩,⟨92,.other,false,some ⟨23,[.comment],none,false⟩⟩]⟩,⟨[9],none,[],[⟨0,.other,false,some ⟨23,[.setEnt .internalNl,.cb,.comment],none,false⟩⟩,⟨9,.ws,false,some ⟨24,[.setEnt .internalNl,.cb],none,false⟩⟩,⟨10,.lf,false,some ⟨25,[.setEnt .internalNl,.cb],none,false⟩⟩,⟨11,.vt,false,some ⟨23,[.setEnt .internalNl,.cb,.comment],none,false⟩⟩,⟨12,.ff,false,some ⟨26,[.setEnt .internalNl,.cb],none,false⟩⟩,⟨13,.cr,false,some ⟨27,[.setEnt .internalNl,.cb],none,false⟩⟩,⟨13,.cr,true,some ⟨28,[.setEnt .internalNl,.cb],none,false⟩⟩,⟨34,.other,false,some ⟨23,[.setEnt .internalNl,.cb,.comment],none,false⟩⟩,⟨35,.other,false,some ⟨23,[.setEnt .internalNl,.cb,.comment],none,false⟩⟩,⟨39,.other,false,some ⟨23,[.setEnt .internalNl,.cb,.comment],none,false⟩⟩,⟨42,.other,false,some ⟨29,[.setEnt .internalNl,.cb,.comment],none,false⟩⟩,⟨47,.other,false,some ⟨23,[.setEnt .internalNl,.cb,.comment],none,false⟩⟩,⟨92,.other,false,some ⟨23,[.setEnt .internalNl,.cb,.comment],none,false⟩⟩]⟩,⟨[10],none,[],[⟨0,.other,false,some ⟨23,[.setEnt .internalNl,.cb,.comment],none,false⟩⟩,⟨9,.ws,false,some ⟨24,[.setEnt .internalNl,.cb],none,false⟩⟩,⟨10,.lf,false,some ⟨25,[.setEnt .internalNl,.cb],none,false⟩⟩,⟨11,.vt,false,some ⟨23,[.setEnt .internalNl,.cb,.comment],none,false⟩⟩,⟨12,.ff,false,some ⟨26,[.setEnt .internalNl,.cb],none,false⟩⟩,⟨13,.cr,false,some ⟨27,[.setEnt .internalNl,.cb],none,false⟩⟩,⟨13,.cr,true,some ⟨28,[.setEnt .internalNl,.cb],none,false⟩⟩,⟨34,.other,false,some ⟨23,[.setEnt .internalNl,.cb,.comment],none,false⟩⟩,⟨35,.other,false,some ⟨23,[.setEnt .internalNl,.cb,.comment],none,false⟩⟩,⟨39,.other,false,some ⟨23,[.setEnt .internalNl,.cb,.comment],none,false⟩⟩,⟨42,.other,false,some ⟨29,[.setEnt .internalNl,.cb,.comment],none,false⟩⟩,⟨47,.other,false,some ⟨23,[.setEnt .internalNl,.cb,.comment],none,false⟩⟩,⟨92,.other,false,some ⟨23,[.setEnt .internalNl,.cb,.comment],none,false⟩⟩]⟩,⟨[7],none,[],[⟨0,.other,false,none⟩,⟨9,.ws,false,none⟩,⟨10,.lf,false,some ⟨46,[],none,false⟩⟩,⟨11,.vt,false,none⟩,⟨12,.ff,false,none⟩,⟨13,.cr,false,none⟩,⟨13,.cr,true,none⟩,⟨34,.other,false,none⟩,⟨35,.other,false,none⟩,⟨39,.other,false,none⟩,⟨42,.other,false,none⟩,⟨47,.other,false,none⟩,⟨92,.other,false,none⟩]⟩,⟨[7,11],none,[],[⟨0,.other,false,some ⟨23,[.setEnt .internalNl,.cb,.comment],none,false⟩⟩,⟨9,.ws,false,some ⟨24,[.setEnt .internalNl,.cb],none,false⟩⟩,⟨10,.lf,false,some ⟨47,[.setEnt .internalNl,.cb],none,false⟩⟩,⟨11,.vt,false,some ⟨23,[.setEnt .internalNl,.cb,.comment],none,false⟩⟩,⟨12,.ff,false,some ⟨26,[.setEnt .internalNl,.cb],none,false⟩⟩,⟨13,.cr,false,some ⟨27,[.setEnt .internalNl,.cb],none,false⟩⟩,⟨13,.cr,true,some ⟨28,[.setEnt .internalNl,.cb],none,false⟩⟩,⟨34,.other,false,some ⟨23,[.setEnt .internalNl,.cb,.comment],none,false⟩⟩,⟨35,.other,false,some ⟨23,[.setEnt .internalNl,.cb,.comment],none,false⟩⟩,⟨39,.other,false,some ⟨23,[.setEnt .internalNl,.cb,.comment],none,false⟩⟩,⟨42,.other,false,some ⟨29,[.setEnt .internalNl,.cb,.comment],none,false⟩⟩,⟨47,.other,false,some ⟨23,[.setEnt .internalNl,.cb,.comment],none,false⟩⟩,⟨92,.other,false,some ⟨23,[.setEnt .internalNl,.cb,.comment],none,false⟩⟩]⟩,⟨[13,14],none,[],[⟨0,.other,false,some ⟨23,[.comment],none,false⟩⟩,⟨9,.ws,false,some ⟨24,[],none,false⟩⟩,⟨10,.lf,false,some ⟨25,[],none,false⟩⟩,⟨11,.vt,false,some ⟨23,[.comment],none,false⟩⟩,⟨12,.ff,false,some ⟨26,[],none,false⟩⟩,⟨13,.cr,false,some ⟨27,[],none,false⟩⟩,⟨13,.cr,true,some ⟨28,[],none,false⟩⟩,⟨34,.other,false,some ⟨23,[.comment],none,false⟩⟩,⟨35,.other,false,some ⟨23,[.comment],none,false⟩⟩,⟨39,.other,false,some ⟨23,[.comment],none,false⟩⟩,⟨42,.other,false,some ⟨29,[.comment],none,false⟩⟩,⟨47,.other,false,some ⟨0,[],some 1,true⟩⟩,⟨92,.other,false,some ⟨23,[.comment],none,false⟩⟩]⟩,⟨[56],none,[],[⟨0,.other,false,some ⟨15,[],none,false⟩⟩,⟨9,.ws,false,some ⟨15,[],none,false⟩⟩,⟨10,.lf,false,none⟩,⟨11,.vt,false,some ⟨15,[],none,false⟩⟩,⟨12,.ff,false,none⟩,⟨13,.cr,false,none⟩,⟨13,.cr,true,none⟩,⟨34,.other,false,some ⟨0,[.code],some 2,true⟩⟩,⟨35,.other,false,some ⟨15,[],none,false⟩⟩,⟨39,.other,false,some ⟨15,[],none,false⟩⟩,⟨42,.other,false,some ⟨15,[],none,false⟩⟩,⟨47,.other,false,some ⟨15,[],none,false⟩⟩,⟨92,.other,false,some ⟨16,[],none,false⟩⟩]⟩,⟨[38],none,[],[⟨0,.other,false,some ⟨31,[.comment],none,false⟩⟩,⟨9,.ws,false,some ⟨32,[],none,false⟩⟩,⟨10,.lf,false,some ⟨33,[],none,false⟩⟩,⟨11,.vt,false,some ⟨31,[.comment],none,false⟩⟩,⟨12,.ff,false,some ⟨34,[],none,false⟩⟩,⟨13,.cr,false,some ⟨35,[],none,false⟩⟩,⟨13,.cr,true,some ⟨36,[],none,false⟩⟩,⟨34,.other,false,some ⟨37,[.comment],none,false⟩⟩,⟨35,.other,false,some ⟨31,[.comment],none,false⟩⟩,⟨39,.other,false,some ⟨31,[.comment],none,false⟩⟩,⟨42,.other,false,some ⟨31,[.comment],none,false⟩⟩,⟨47,.other,false,some ⟨31,[.comment],none,false⟩⟩,⟨92,.other,false,some ⟨31,[.comment],none,false⟩⟩]⟩,⟨[37],none,[],[⟨0,.other,false,some ⟨31,[.comment],none,false⟩⟩,⟨9,.ws,false,some ⟨32,[],none,false⟩⟩,⟨10,.lf,false,some ⟨33,[],none,false⟩⟩,⟨11,.vt,false,some ⟨31,[.comment],none,false⟩⟩,⟨12,.ff,false,some ⟨34,[],none,false⟩⟩,⟨13,.cr,false,some ⟨35,[],none,false⟩⟩,⟨13,.cr,true,some ⟨36,[],none,false⟩⟩,⟨34,.other,false,some ⟨37,[.comment],none,false⟩⟩,⟨35,.other,false,some ⟨31,[.comment],none,false⟩⟩,⟨39,.other,false,some ⟨31,[.comment],none,false⟩⟩,⟨42,.other,false,some ⟨31,[.comment],none,false⟩⟩,⟨47,.other,false,some ⟨31,[.comment],none,false⟩⟩,⟨92,.other,false,some ⟨31,[.comment],none,false⟩⟩]⟩,⟨[34],none,[],[⟨0,.other,false,some ⟨31,[.setEnt .internalNl,.cb,.comment],none,false⟩⟩,⟨9,.ws,false,some ⟨32,[.setEnt .internalNl,.cb],none,false⟩⟩,⟨10,.lf,false,some ⟨33,[.setEnt .internalNl,.cb],none,false⟩⟩,⟨11,.vt,false,some ⟨31,[.setEnt .internalNl,.cb,.comment],none,false⟩⟩,⟨12,.ff,false,some ⟨34,[.setEnt .internalNl,.cb],none,false⟩⟩,⟨13,.cr,false,some ⟨35,[.setEnt .internalNl,.cb],none,false⟩⟩,⟨13,.cr,true,some ⟨36,[.setEnt .internalNl,.cb],none,false⟩⟩,⟨34,.other,false,some ⟨37,[.setEnt .internalNl,.cb,.comment],none,false⟩⟩,⟨35,.other,false,some ⟨31,[.setEnt .internalNl,.cb,.comment],none,false⟩⟩,⟨39,.other,false,some ⟨31,[.setEnt .internalNl,.cb,.comment],none,false⟩⟩,⟨42,.other,false,some ⟨31,[.setEnt .internalNl,.cb,.comment],none,false⟩⟩,⟨47,.other,false,some ⟨31,[.setEnt .internalNl,.cb,.comment],none,false⟩⟩,⟨92,.other,false,some ⟨31,[.setEnt .internalNl,.cb,.comment],none,false⟩⟩]⟩,⟨[35],none,[],[⟨0,.other,false,some ⟨31,[.setEnt .internalNl,.cb,.comment],none,false⟩⟩,⟨9,.ws,false,some ⟨32,[.setEnt .internalNl,.cb],none,false⟩⟩,⟨10,.lf,false,some ⟨33,[.setEnt .internalNl,.cb],none,false⟩⟩,⟨11,.vt,false,some ⟨31,[.setEnt .internalNl,.cb,.comment],none,false⟩⟩,⟨12,.ff,false,some ⟨34,[.setEnt .internalNl,.cb],none,false⟩⟩,⟨13,.cr,false,some ⟨35,[.setEnt .internalNl,.cb],none,false⟩⟩,⟨13,.cr,true,some ⟨36,[.setEnt .internalNl,.cb],none,false⟩⟩,⟨34,.other,false,some ⟨37,[.setEnt .internalNl,.cb,.comment],none,false⟩⟩,⟨35,.other,false,some ⟨31,[.setEnt .internalNl,.cb,.comment],none,false⟩⟩,⟨39,.other,false,some ⟨31,[.setEnt .internalNl,.cb,.comment],none,false⟩⟩,⟨42,.other,false,some ⟨31,[.setEnt .internalNl,.cb,.comment],none,false⟩⟩,⟨47,.other,false,some ⟨31,[.setEnt .internalNl,.cb,.comment],none,false⟩⟩,⟨92,.other,false,some ⟨31,[.setEnt .internalNl,.cb,.comment],none,false⟩⟩]⟩,⟨[32],none,[],[⟨0,.other,false,none⟩,⟨9,.ws,false,none⟩,⟨10,.lf,false,some ⟨48,[],none,false⟩⟩,⟨11,.vt,false,none⟩,⟨12,.ff,false,none⟩,⟨13,.cr,false,none⟩,⟨13,.cr,true,none⟩,⟨34,.other,false,none⟩,⟨35,.other,false,none⟩,⟨39,.other,false,none⟩,⟨42,.other,false,none⟩,⟨47,.other,false,none⟩,⟨92,.other,false,none⟩]⟩,⟨[32,36],none,[],[⟨0,.other,false,some ⟨31,[.setEnt .internalNl,.cb,.comment],none,false⟩⟩,⟨9,.ws,false,some ⟨32,[.setEnt .internalNl,.cb],none,false⟩⟩,⟨10,.lf,false,some ⟨49,[.setEnt .internalNl,.cb],none,false⟩⟩,⟨11,.vt,false,some ⟨31,[.setEnt .internalNl,.cb,.comment],none,false⟩⟩,⟨12,.ff,false,some ⟨34,[.setEnt .internalNl,.cb],none,false⟩⟩,⟨13,.cr,false,some ⟨35,[.setEnt .internalNl,.cb],none,false⟩⟩,⟨13,.cr,true,some ⟨36,[.setEnt .internalNl,.cb],none,false⟩⟩,⟨34,.other,false,some ⟨37,[.setEnt .internalNl,.cb,.comment],none,false⟩⟩,⟨35,.other,false,some ⟨31,[.setEnt .internalNl,.cb,.comment],none,false⟩⟩,⟨39,.other,false,some ⟨31,[.setEnt .internalNl,.cb,.comment],none,false⟩⟩,⟨42,.other,false,some ⟨31,[.setEnt .internalNl,.cb,.comment],none,false⟩⟩,⟨47,.other,false,some ⟨31,[.setEnt .internalNl,.cb,.comment],none,false⟩⟩,⟨92,.other,false,some ⟨31,[.setEnt .internalNl,.cb,.comment],none,false⟩⟩]⟩,⟨[38,39],none,[],[⟨0,.other,false,some ⟨31,[.comment],none,false⟩⟩,⟨9,.ws,false,some ⟨32,[],none,false⟩⟩,⟨10,.lf,false,some ⟨33,[],none,false⟩⟩,⟨11,.vt,false,some ⟨31,[.comment],none,false⟩⟩,⟨12,.ff,false,some ⟨34,[],none,false⟩⟩,⟨13,.cr,false,some ⟨35,[],none,false⟩⟩,⟨13,.cr,true,some ⟨36,[],none,false⟩⟩,⟨34,.other,false,some ⟨50,[.comment],none,false⟩⟩,⟨35,.other,false,some ⟨31,[.comment],none,false⟩⟩,⟨39,.other,false,some ⟨31,[.comment],none,false⟩⟩,⟨42,.other,false,some ⟨31,[.comment],none,false⟩⟩,⟨47,.other,false,some ⟨31,[.comment],none,false⟩⟩,⟨92,.other,false,some ⟨31,[.comment],none,false⟩⟩]⟩,⟨[48],none,[],[⟨0,.other,false,some ⟨19,[],none,false⟩⟩,⟨9,.ws,false,some ⟨19,[],none,false⟩⟩,⟨10,.lf,false,none⟩,⟨11,.vt,false,some ⟨19,[],none,false⟩⟩,⟨12,.ff,false,none⟩,⟨13,.cr,false,none⟩,⟨13,.cr,true,none⟩,⟨34,.other,false,some ⟨19,[],none,false⟩⟩,⟨35,.other,false,some ⟨19,[],none,false⟩⟩,⟨39,.other,false,some ⟨0,[.code],some 2,true⟩⟩,⟨42,.other,false,some ⟨19,[],none,false⟩⟩,⟨47,.other,false,some ⟨19,[],none,false⟩⟩,⟨92,.other,false,some ⟨20,[],none,false⟩⟩]⟩,⟨[25],none,[],[⟨0,.other,false,some ⟨39,[.comment],none,false⟩⟩,⟨9,.ws,false,some ⟨40,[],none,false⟩⟩,⟨10,.lf,false,some ⟨41,[],none,false⟩⟩,⟨11,.vt,false,some ⟨39,[.comment],none,false⟩⟩,⟨12,.ff,false,some ⟨42,[],none,false⟩⟩,⟨13,.cr,false,some ⟨43,[],none,false⟩⟩,⟨13,.cr,true,some ⟨44,[],none,false⟩⟩,⟨34,.other,false,some ⟨39,[.comment],none,false⟩⟩,⟨35,.other,false,some ⟨39,[.comment],none,false⟩⟩,⟨39,.other,false,some ⟨45,[.comment],none,false⟩⟩,⟨42,.other,false,some ⟨39,[.comment],none,false⟩⟩,⟨47,.other,false,some ⟨39,[.comment],none,false⟩⟩,⟨92,.other,false,some ⟨39,[.comment],none,false⟩⟩]⟩,⟨[24],none,[],[⟨0,.other,false,some ⟨39,[.comment],none,false⟩⟩,⟨9,.ws,false,some ⟨40,[],none,false⟩⟩,⟨10,.lf,false,some ⟨41,[],none,false⟩⟩,⟨11,.vt,false,some ⟨39,[.comment],none,false⟩⟩,⟨12,.ff,false,some ⟨42,[],none,false⟩⟩,⟨13,.cr,false,some ⟨43,[],none,false⟩⟩,⟨13,.cr,true,some ⟨44,[],none,false⟩⟩,⟨34,.other,false,some ⟨39,[.comment],none,false⟩⟩,⟨35,.other,false,some ⟨39,[.comment],none,false⟩⟩,⟨39,.other,false,some ⟨45,[.comment],none,false⟩⟩,⟨42,.other,false,some ⟨39,[.comment],none,false⟩⟩,⟨47,.other,false,some ⟨39,[.comment],none,false⟩⟩,⟨92,.other,false,some ⟨39,[.comment],none,false⟩⟩]⟩,⟨[21],none,[],[⟨0,.other,false,some ⟨39,[.setEnt .internalNl,.cb,.comment],none,false⟩⟩,⟨9,.ws,false,some ⟨40,[.setEnt .internalNl,.cb],none,false⟩⟩,⟨10,.lf,false,some ⟨41,[.setEnt .internalNl,.cb],none,false⟩⟩,⟨11,.vt,false,some ⟨39,[.setEnt .internalNl,.cb,.comment],none,false⟩⟩,⟨12,.ff,false,some ⟨42,[.setEnt .internalNl,.cb],none,false⟩⟩,⟨13,.cr,false,some ⟨43,[.setEnt .internalNl,.cb],none,false⟩⟩,⟨13,.cr,true,some ⟨44,[.setEnt .internalNl,.cb],none,false⟩⟩,⟨34,.other,false,some ⟨39,[.setEnt .internalNl,.cb,.comment],none,false⟩⟩,⟨35,.other,false,some ⟨39,[.setEnt .internalNl,.cb,.comment],none,false⟩⟩,⟨39,.other,false,some ⟨45,[.setEnt .internalNl,.cb,.comment],none,false⟩⟩,⟨42,.other,false,some ⟨39,[.setEnt .internalNl,.cb,.comment],none,false⟩⟩,⟨47,.other,false,some ⟨39,[.setEnt .internalNl,.cb,.comment],none,false⟩⟩,⟨92,.other,false,some ⟨39,[.setEnt .internalNl,.cb,.comment],none,false⟩⟩]⟩,⟨[22],none,[],[⟨0,.other,false,some ⟨39,[.setEnt .internalNl,.cb,.comment],none,false⟩⟩,⟨9,.ws,false,some ⟨40,[.setEnt .internalNl,.cb],none,false⟩⟩,⟨10,.lf,false,some ⟨41,[.setEnt .internalNl,.cb],none,false⟩⟩,⟨11,.vt,false,some ⟨39,[.setEnt .internalNl,.cb,.comment],none,false⟩⟩,⟨12,.ff,false,some ⟨42,[.setEnt .internalNl,.cb],none,false⟩⟩,⟨13,.cr,false,some ⟨43,[.setEnt .internalNl,.cb],none,false⟩⟩,⟨13,.cr,true,some ⟨44,[.setEnt .internalNl,.cb],none,false⟩⟩,⟨34,.other,false,some ⟨39,[.setEnt .internalNl,.cb,.comment],none,false⟩⟩,⟨35,.other,false,some ⟨39,[.setEnt .internalNl,.cb,.comment],none,false⟩⟩,⟨39,.other,false,some ⟨45,[.setEnt .internalNl,.cb,.comment],none,false⟩⟩,⟨42,.other,false,some ⟨39,[.setEnt .internalNl,.cb,.comment],none,false⟩⟩,⟨47,.other,false,some ⟨39,[.setEnt .internalNl,.cb,.comment],none,false⟩⟩,⟨92,.other,false,some ⟨39,[.setEnt .internalNl,.cb,.comment],none,false⟩⟩]⟩,⟨[19],none,[],[⟨0,.other,false,none⟩,⟨9,.ws,false,none⟩,⟨10,.lf,false,some ⟨51,[],none,false⟩⟩,⟨11,.vt,false,none⟩,⟨12,.ff,false,none⟩,⟨13,.cr,false,none⟩,⟨13,.cr,true,none⟩,⟨34,.other,false,none⟩,⟨35,.other,false,none⟩,⟨39,.other,false,none⟩,⟨42,.other,false,none⟩,⟨47,.other,false,none⟩,⟨92,.other,false,none⟩]⟩,⟨[19,23],none,[],[⟨0,.other,false,some ⟨39,[.setEnt .internalNl,.cb,.comment],none,false⟩⟩,⟨9,.ws,false,some ⟨40,[.setEnt .internalNl,.cb],none,false⟩⟩,⟨10,.lf,false,some ⟨52,[.setEnt .internalNl,.cb],none,false⟩⟩,⟨11,.vt,false,some ⟨39,[.setEnt .internalNl,.cb,.comment],none,false⟩⟩,⟨12,.ff,false,some ⟨42,[.setEnt .internalNl,.cb],none,false⟩⟩,⟨13,.cr,false,some ⟨43,[.setEnt .internalNl,.cb],none,false⟩⟩,⟨13,.cr,true,some ⟨44,[.setEnt .internalNl,.cb],none,false⟩⟩,⟨34,.other,false,some ⟨39,[.setEnt .internalNl,.cb,.comment],none,false⟩⟩,⟨35,.other,false,some ⟨39,[.setEnt .internalNl,.cb,.comment],none,false⟩⟩,⟨39,.other,false,some ⟨45,[.setEnt .internalNl,.cb,.comment],none,false⟩⟩,⟨42,.other,false,some ⟨39,[.setEnt .internalNl,.cb,.comment],none,false⟩⟩,⟨47,.other,false,some ⟨39,[.setEnt .internalNl,.cb,.comment],none,false⟩⟩,⟨92,.other,false,some ⟨39,[.setEnt .internalNl,.cb,.comment],none,false⟩⟩]⟩,⟨[25,26],none,[],[⟨0,.other,false,some ⟨39,[.comment],none,false⟩⟩,⟨9,.ws,false,some ⟨40,[],none,false⟩⟩,⟨10,.lf,false,some ⟨41,[],none,false⟩⟩,⟨11,.vt,false,some ⟨39,[.comment],none,false⟩⟩,⟨12,.ff,false,some ⟨42,[],none,false⟩⟩,⟨13,.cr,false,some ⟨43,[],none,false⟩⟩,⟨13,.cr,true,some ⟨44,[],none,false⟩⟩,⟨34,.other,false,some ⟨39,[.comment],none,false⟩⟩,⟨35,.other,false,some ⟨39,[.comment],none,false⟩⟩,⟨39,.other,false,some ⟨53,[.comment],none,false⟩⟩,⟨42,.other,false,some ⟨39,[.comment],none,false⟩⟩,⟨47,.other,false,some ⟨39,[.comment],none,false⟩⟩,⟨92,.other,false,some ⟨39,[.comment],none,false⟩⟩]⟩,⟨[8],none,[],[⟨0,.other,false,some ⟨23,[.setEnt .internalNl,.cb,.comment],none,false⟩⟩,⟨9,.ws,false,some ⟨24,[.setEnt .internalNl,.cb],none,false⟩⟩,⟨10,.lf,false,some ⟨25,[.setEnt .internalNl,.cb],none,false⟩⟩,⟨11,.vt,false,some ⟨23,[.setEnt .internalNl,.cb,.comment],none,false⟩⟩,⟨12,.ff,false,some ⟨26,[.setEnt .internalNl,.cb],none,false⟩⟩,⟨13,.cr,false,some ⟨27,[.setEnt .internalNl,.cb],none,false⟩⟩,⟨13,.cr,true,some ⟨28,[.setEnt .internalNl,.cb],none,false⟩⟩,⟨34,.other,false,some ⟨23,[.setEnt .internalNl,.cb,.comment],none,false⟩⟩,⟨35,.other,false,some ⟨23,[.setEnt .internalNl,.cb,.comment],none,false⟩⟩,⟨39,.other,false,some ⟨23,[.setEnt .internalNl,.cb,.comment],none,false⟩⟩,⟨42,.other,false,some ⟨29,[.setEnt .internalNl,.cb,.comment],none,false⟩⟩,⟨47,.other,false,some ⟨23,[.setEnt .internalNl,.cb,.comment],none,false⟩⟩,⟨92,.other,false,some ⟨23,[.setEnt .internalNl,.cb,.comment],none,false⟩⟩]⟩,⟨[8,9],none,[],[⟨0,.other,false,some ⟨23,[.setEnt .internalNl,.cb,.comment],none,false⟩⟩,⟨9,.ws,false,some ⟨24,[.setEnt .internalNl,.cb],none,false⟩⟩,⟨10,.lf,false,some ⟨25,[.setEnt .internalNl,.cb],none,false⟩⟩,⟨11,.vt,false,some ⟨23,[.setEnt .internalNl,.cb,.comment],none,false⟩⟩,⟨12,.ff,false,some ⟨26,[.setEnt .internalNl,.cb],none,false⟩⟩,⟨13,.cr,false,some ⟨27,[.setEnt .internalNl,.cb],none,false⟩⟩,⟨13,.cr,true,some ⟨28,[.setEnt .internalNl,.cb],none,false⟩⟩,⟨34,.other,false,some ⟨23,[.setEnt .internalNl,.cb,.comment],none,false⟩⟩,⟨35,.other,false,some ⟨23,[.setEnt .internalNl,.cb,.comment],none,false⟩⟩,⟨39,.other,false,some ⟨23,[.setEnt .internalNl,.cb,.comment],none,false⟩⟩,⟨42,.other,false,some ⟨29,[.setEnt .internalNl,.cb,.comment],none,false⟩⟩,⟨47,.other,false,some ⟨23,[.setEnt .internalNl,.cb,.comment],none,false⟩⟩,⟨92,.other,false,some ⟨23,[.setEnt .internalNl,.cb,.comment],none,false⟩⟩]⟩,⟨[33],none,[],[⟨0,.other,false,some ⟨31,[.setEnt .internalNl,.cb,.comment],none,false⟩⟩,⟨9,.ws,false,some ⟨32,[.setEnt .internalNl,.cb],none,false⟩⟩,⟨10,.lf,false,some ⟨33,[.setEnt .internalNl,.cb],none,false⟩⟩,⟨11,.vt,false,some ⟨31,[.setEnt .internalNl,.cb,.comment],none,false⟩⟩,⟨12,.ff,false,some ⟨34,[.setEnt .internalNl,.cb],none,false⟩⟩,⟨13,.cr,false,some ⟨35,[.setEnt .internalNl,.cb],none,false⟩⟩,⟨13,.cr,true,some ⟨36,[.setEnt .internalNl,.cb],none,false⟩⟩,⟨34,.other,false,some ⟨37,[.setEnt .internalNl,.cb,.comment],none,false⟩⟩,⟨35,.other,false,some ⟨31,[.setEnt .internalNl,.cb,.comment],none,false⟩⟩,⟨39,.other,false,some ⟨31,[.setEnt .internalNl,.cb,.comment],none,false⟩⟩,⟨42,.other,false,some ⟨31,[.setEnt .internalNl,.cb,.comment],none,false⟩⟩,⟨47,.other,false,some ⟨31,[.setEnt .internalNl,.cb,.comment],none,false⟩⟩,⟨92,.other,false,some ⟨31,[.setEnt .internalNl,.cb,.comment],none,false⟩⟩]⟩,⟨[33,34],none,[],[⟨0,.other,false,some ⟨31,[.setEnt .internalNl,.cb,.comment],none,false⟩⟩,⟨9,.ws,false,some ⟨32,[.setEnt .internalNl,.cb],none,false⟩⟩,⟨10,.lf,false,some ⟨33,[.setEnt .internalNl,.cb],none,false⟩⟩,⟨11,.vt,false,some ⟨31,[.setEnt .internalNl,.cb,.comment],none,false⟩⟩,⟨12,.ff,false,some ⟨34,[.setEnt .internalNl,.cb],none,false⟩⟩,⟨13,.cr,false,some ⟨35,[.setEnt .internalNl,.cb],none,false⟩⟩,⟨13,.cr,true,some ⟨36,[.setEnt .internalNl,.cb],none,false⟩⟩,⟨34,.other,false,some ⟨37,[.setEnt .internalNl,.cb,.comment],none,false⟩⟩,⟨35,.other,false,some ⟨31,[.setEnt .internalNl,.cb,.comment],none,false⟩⟩,⟨39,.other,false,some ⟨31,[.setEnt .internalNl,.cb,.comment],none,false⟩⟩,⟨42,.other,false,some ⟨31,[.setEnt .internalNl,.cb,.comment],none,false⟩⟩,⟨47,.other,false,some ⟨31,[.setEnt .internalNl,.cb,.comment],none,false⟩⟩,⟨92,.other,false,some ⟨31,[.setEnt .internalNl,.cb,.comment],none,false⟩⟩]⟩,⟨[38,39,40],none,[],[⟨0,.other,false,some ⟨31,[.comment],none,false⟩⟩,⟨9,.ws,false,some ⟨32,[],none,false⟩⟩,⟨10,.lf,false,some ⟨33,[],none,false⟩⟩,⟨11,.vt,false,some ⟨31,[.comment],none,false⟩⟩,⟨12,.ff,false,some ⟨34,[],none,false⟩⟩,⟨13,.cr,false,some ⟨35,[],none,false⟩⟩,⟨13,.cr,true,some ⟨36,[],none,false⟩⟩,⟨34,.other,false,some ⟨54,[.comment],some 1,false⟩⟩,⟨35,.other,false,some ⟨31,[.comment],none,false⟩⟩,⟨39,.other,false,some ⟨31,[.comment],none,false⟩⟩,⟨42,.other,false,some ⟨31,[.comment],none,false⟩⟩,⟨47,.other,false,some ⟨31,[.comment],none,false⟩⟩,⟨92,.other,false,some ⟨31,[.comment],none,false⟩⟩]⟩,⟨[20],none,[],[⟨0,.other,false,some ⟨39,[.setEnt .internalNl,.cb,.comment],none,false⟩⟩,⟨9,.ws,false,some ⟨40,[.setEnt .internalNl,.cb],none,false⟩⟩,⟨10,.lf,false,some ⟨41,[.setEnt .internalNl,.cb],none,false⟩⟩,⟨11,.vt,false,some ⟨39,[.setEnt .internalNl,.cb,.comment],none,false⟩⟩,⟨12,.ff,false,some ⟨42,[.setEnt .internalNl,.cb],none,false⟩⟩,⟨13,.cr,false,some ⟨43,[.setEnt .internalNl,.cb],none,false⟩⟩,⟨13,.cr,true,some ⟨44,[.setEnt .internalNl,.cb],none,false⟩⟩,⟨34,.other,false,some ⟨39,[.setEnt .internalNl,.cb,.comment],none,false⟩⟩,⟨35,.other,false,some ⟨39,[.setEnt .internalNl,.cb,.comment],none,false⟩⟩,⟨39,.other,false,some ⟨45,[.setEnt .internalNl,.cb,.comment],none,false⟩⟩,⟨42,.other,false,some ⟨39,[.setEnt .internalNl,.cb,.comment],none,false⟩⟩,⟨47,.other,false,some ⟨39,[.setEnt .internalNl,.cb,.comment],none,false⟩⟩,⟨92,.other,false,some ⟨39,[.setEnt .internalNl,.cb,.comment],none,false⟩⟩]⟩,⟨[20,21],none,[],[⟨0,.other,false,some ⟨39,[.setEnt .internalNl,.cb,.comment],none,false⟩⟩,⟨9,.ws,false,some ⟨40,[.setEnt .internalNl,.cb],none,false⟩⟩,⟨10,.lf,false,some ⟨41,[.setEnt .internalNl,.cb],none,false⟩⟩,⟨11,.vt,false,some ⟨39,[.setEnt .internalNl,.cb,.comment],none,false⟩⟩,⟨12,.ff,false,some ⟨42,[.setEnt .internalNl,.cb],none,false⟩⟩,⟨13,.cr,false,some ⟨43,[.setEnt .internalNl,.cb],none,false⟩⟩,⟨13,.cr,true,some ⟨44,[.setEnt .internalNl,.cb],none,false⟩⟩,⟨34,.other,false,some ⟨39,[.setEnt .internalNl,.cb,.comment],none,false⟩⟩,⟨35,.other,false,some ⟨39,[.setEnt .internalNl,.cb,.comment],none,false⟩⟩,⟨39,.other,false,some ⟨45,[.setEnt .internalNl,.cb,.comment],none,false⟩⟩,⟨42,.other,false,some ⟨39,[.setEnt .internalNl,.cb,.comment],none,false⟩⟩,⟨47,.other,false,some ⟨39,[.setEnt .internalNl,.cb,.comment],none,false⟩⟩,⟨92,.other,false,some ⟨39,[.setEnt .internalNl,.cb,.comment],none,false⟩⟩]⟩,⟨[25,26,27],none,[],[⟨0,.other,false,some ⟨39,[.comment],none,false⟩⟩,⟨9,.ws,false,some ⟨40,[],none,false⟩⟩,⟨10,.lf,false,some ⟨41,[],none,false⟩⟩,⟨11,.vt,false,some ⟨39,[.comment],none,false⟩⟩,⟨12,.ff,false,some ⟨42,[],none,false⟩⟩,⟨13,.cr,false,some ⟨43,[],none,false⟩⟩,⟨13,.cr,true,some ⟨44,[],none,false⟩⟩,⟨34,.other,false,some ⟨39,[.comment],none,false⟩⟩,⟨35,.other,false,some ⟨39,[.comment],none,false⟩⟩,⟨39,.other,false,some ⟨55,[.comment],some 1,false⟩⟩,⟨42,.other,false,some ⟨39,[.comment],none,false⟩⟩,⟨47,.other,false,some ⟨39,[.comment],none,false⟩⟩,⟨92,.other,false,some ⟨39,[.comment],none,false⟩⟩]⟩,⟨[40,41],some 1,[],[⟨0,.other,false,none⟩,⟨9,.ws,false,none⟩,⟨10,.lf,false,none⟩,⟨11,.vt,false,none⟩,⟨12,.ff,false,none⟩,⟨13,.cr,false,none⟩,⟨13,.cr,true,none⟩,⟨34,.other,false,some ⟨0,[.comment],some 1,true⟩⟩,⟨35,.other,false,none⟩,⟨39,.other,false,none⟩,⟨42,.other,false,none⟩,⟨47,.other,false,none⟩,⟨92,.other,false,none⟩]⟩,⟨[27,28],some 1,[],[⟨0,.other,false,none⟩,⟨9,.ws,false,none⟩,⟨10,.lf,false,none⟩,⟨11,.vt,false,none⟩,⟨12,.ff,false,none⟩,⟨13,.cr,false,none⟩,⟨13,.cr,true,none⟩,⟨34,.other,false,none⟩,⟨35,.other,false,none⟩,⟨39,.other,false,some ⟨0,[.comment],some 1,true⟩⟩,⟨42,.other,false,none⟩,⟨47,.other,false,none⟩,⟨92,.other,false,none⟩]⟩]
theorem python_line_rowsOk : rowsOk python_line_nfa [] (python_line_cs.map (·.1)) python_line_rows = true := by decide +kernel
def python_line_D : Dfa python_line_M.nfa := ⟨python_line_masks, [], python_line_cs, python_line_rows, python_line_masksIn, python_line_repOk, python_line_rowsOk⟩

def stratego_line_nfa : Nfa := ⟨[⟨0,4294967808,[],[(0,.setEnt (.own 0))],0,0⟩,⟨1,140737488355328,[],[],0,0⟩,⟨11,140737488355328,[],[],0,2⟩,⟨22,17179869184,[],[(9,.code)],0,0⟩,⟨34,549755813888,[],[],0,0⟩,⟨40,8192,[],[(16,.setEnt .newline)],0,0⟩,⟨42,1024,[],[(16,.setEnt .newline)],0,0⟩,⟨43,4096,[],[(16,.setEnt .newline)],0,0⟩,⟨44,8192,[.crAlone],[(16,.setEnt .newline)],0,0⟩,⟨45,115792089237316195423570985008687907853269984665640564039457584007908834656767,[],[(17,.setEnt (.own 3))],0,0⟩],[[⟨0,4294967808,[],[(0,.setEnt (.own 0))],0,0⟩],[⟨2,140737488355328,[],[(1,.comment)],0,0⟩],[⟨3,4951760157141521099596496896,[],[],0,0⟩,⟨9,4294967808,[],[],0,0⟩,⟨10,115792089237316195423570985008687907853269984665640564039457584007908834658815,[],[(4,.comment)],0,0⟩],[⟨4,8192,[],[],0,0⟩,⟨6,1024,[],[],0,0⟩,⟨7,4096,[],[],0,0⟩,⟨8,8192,[.crAlone],[],0,0⟩],[⟨5,1024,[],[],0,0⟩],[⟨3,4951760157141521099596496896,[],[(2,.setEnt .internalNl),(3,.cb)],0,0⟩,⟨9,4294967808,[],[(2,.setEnt .internalNl),(3,.cb)],0,0⟩,⟨10,115792089237316195423570985008687907853269984665640564039457584007908834658815,[],[(2,.setEnt .internalNl),(3,.cb),(4,.comment)],0,0⟩],[⟨3,4951760157141521099596496896,[],[(2,.setEnt .internalNl),(3,.cb)],0,0⟩,⟨9,4294967808,[],[(2,.setEnt .internalNl),(3,.cb)],0,0⟩,⟨10,115792089237316195423570985008687907853269984665640564039457584007908834658815,[],[(2,.setEnt .internalNl),(3,.cb),(4,.comment)],0,0⟩],[⟨3,4951760157141521099596496896,[],[(2,.setEnt .internalNl),(3,.cb)],0,0⟩,⟨9,4294967808,[],[(2,.setEnt .internalNl),(3,.cb)],0,0⟩,⟨10,115792089237316195423570985008687907853269984665640564039457584007908834658815,[],[(2,.setEnt .internalNl),(3,.cb),(4,.comment)],0,0⟩],[⟨3,4951760157141521099596496896,[],[(2,.setEnt .internalNl),(3,.cb)],0,0⟩,⟨9,4294967808,[],[(2,.setEnt .internalNl),(3,.cb)],0,0⟩,⟨10,115792089237316195423570985008687907853269984665640564039457584007908834658815,[],[(2,.setEnt .internalNl),(3,.cb),(4,.comment)],0,0⟩],[⟨3,4951760157141521099596496896,[],[],0,0⟩,⟨9,4294967808,[],[],0,0⟩,⟨10,115792089237316195423570985008687907853269984665640564039457584007908834658815,[],[(4,.comment)],0,0⟩],[⟨3,4951760157141521099596496896,[],[],0,0⟩,⟨9,4294967808,[],[],0,0⟩,⟨10,115792089237316195423570985008687907853269984665640564039457584007908834658815,[],[(4,.comment)],0,0⟩],[⟨12,4398046511104,[],[(5,.comment)],0,2⟩],[⟨13,8192,[],[],0,2⟩,⟨15,1024,[],[],0,2⟩,⟨16,4096,[],[],0,2⟩,⟨17,8192,[.crAlone],[],0,2⟩,⟨18,4294967808,[],[],0,2⟩,⟨19,115792089237316195423570985008687907853269984665640564039457584007908834658815,[],[(8,.comment)],0,2⟩,⟨20,4398046511104,[],[],0,2⟩],[⟨14,1024,[],[],0,2⟩],[⟨13,8192,[],[(6,.setEnt .internalNl),(7,.cb)],0,2⟩,⟨15,1024,[],[(6,.setEnt .internalNl),(7,.cb)],0,2⟩,⟨16,4096,[],[(6,.setEnt .internalNl),(7,.cb)],0,2⟩,⟨17,8192,[.crAlone],[(6,.setEnt .internalNl),(7,.cb)],0,2⟩,⟨18,4294967808,[],[(6,.setEnt .internalNl),(7,.cb)],0,2⟩,⟨19,115792089237316195423570985008687907853269984665640564039457584007908834658815,[],[(6,.setEnt .internalNl),(7,.cb),(8,.comment)],0,2⟩,⟨20,4398046511104,[],[(6,.setEnt .internalNl),(7,.cb)],0,2⟩],[⟨13,8192,[],[(6,.setEnt .internalNl),(7,.cb)],0,2⟩,⟨15,1024,[],[(6,.setEnt .internalNl),(7,.cb)],0,2⟩,⟨16,4096,[],[(6,.setEnt .internalNl),(7,.cb)],0,2⟩,⟨17,8192,[.crAlone],[(6,.setEnt .internalNl),(7,.cb)],0,2⟩,⟨18,4294967808,[],[(6,.setEnt .internalNl),(7,.cb)],0,2⟩,⟨19,115792089237316195423570985008687907853269984665640564039457584007908834658815,[],[(6,.setEnt .internalNl),(7,.cb),(8,.comment)],0,2⟩,⟨20,4398046511104,[],[(6,.setEnt .internalNl),(7,.cb)],0,2⟩],[⟨13,8192,[],[(6,.setEnt .internalNl),(7,.cb)],0,2⟩,⟨15,1024,[],[(6,.setEnt .internalNl),(7,.cb)],0,2⟩,⟨16,4096,[],[(6,.setEnt .internalNl),(7,.cb)],0,2⟩,⟨17,8192,[.crAlone],[(6,.setEnt .internalNl),(7,.cb)],0,2⟩,⟨18,4294967808,[],[(6,.setEnt .internalNl),(7,.cb)],0,2⟩,⟨19,115792089237316195423570985008687907853269984665640564039457584007908834658815,[],[(6,.setEnt .internalNl),(7,.cb),(8,.comment)],0,2⟩,⟨20,4398046511104,[],[(6,.setEnt .internalNl),(7,.cb)],0,2⟩],[⟨13,8192,[],[(6,.setEnt .internalNl),(7,.cb)],0,2⟩,⟨15,1024,[],[(6,.setEnt .internalNl),(7,.cb)],0,2⟩,⟨16,4096,[],[(6,.setEnt .internalNl),(7,.cb)],0,2⟩,⟨17,8192,[.crAlone],[(6,.setEnt .internalNl),(7,.cb)],0,2⟩,⟨18,4294967808,[],[(6,.setEnt .internalNl),(7,.cb)],0,2⟩,⟨19,115792089237316195423570985008687907853269984665640564039457584007908834658815,[],[(6,.setEnt .internalNl),(7,.cb),(8,.comment)],0,2⟩,⟨20,4398046511104,[],[(6,.setEnt .internalNl),(7,.cb)],0,2⟩],[⟨13,8192,[],[],0,2⟩,⟨15,1024,[],[],0,2⟩,⟨16,4096,[],[],0,2⟩,⟨17,8192,[.crAlone],[],0,2⟩,⟨18,4294967808,[],[],0,2⟩,⟨19,115792089237316195423570985008687907853269984665640564039457584007908834658815,[],[(8,.comment)],0,2⟩,⟨20,4398046511104,[],[],0,2⟩],[⟨13,8192,[],[],0,2⟩,⟨15,1024,[],[],0,2⟩,⟨16,4096,[],[],0,2⟩,⟨17,8192,[.crAlone],[],0,2⟩,⟨18,4294967808,[],[],0,2⟩,⟨19,115792089237316195423570985008687907853269984665640564039457584007908834658815,[],[(8,.comment)],0,2⟩,⟨20,4398046511104,[],[],0,2⟩],[⟨21,140737488355328,[],[],2,0⟩],[],[⟨23,4951760157141521099596496896,[],[],0,0⟩,⟨29,4294967808,[],[],0,0⟩,⟨30,115792089237316195423570985008687907853269984665635612279300442486792058306047,[],[(12,.code)],0,0⟩,⟨31,4951760157141521099596496896,[],[],0,0⟩,⟨33,17179869184,[],[],0,0⟩],[⟨24,8192,[],[],0,0⟩,⟨26,1024,[],[],0,0⟩,⟨27,4096,[],[],0,0⟩,⟨28,8192,[.crAlone],[],0,0⟩],[⟨25,1024,[],[],0,0⟩],[⟨23,4951760157141521099596496896,[],[(10,.setEnt .internalNl),(11,.cb)],0,0⟩,⟨29,4294967808,[],[(10,.setEnt .internalNl),(11,.cb)],0,0⟩,⟨30,115792089237316195423570985008687907853269984665635612279300442486792058306047,[],[(10,.setEnt .internalNl),(11,.cb),(12,.code)],0,0⟩,⟨31,4951760157141521099596496896,[],[(10,.setEnt .internalNl),(11,.cb)],0,0⟩,⟨33,17179869184,[],[(10,.setEnt .internalNl),(11,.cb)],0,0⟩],[⟨23,4951760157141521099596496896,[],[(10,.setEnt .internalNl),(11,.cb)],0,0⟩,⟨29,4294967808,[],[(10,.setEnt .internalNl),(11,.cb)],0,0⟩,⟨30,115792089237316195423570985008687907853269984665635612279300442486792058306047,[],[(10,.setEnt .internalNl),(11,.cb),(12,.code)],0,0⟩,⟨31,4951760157141521099596496896,[],[(10,.setEnt .internalNl),(11,.cb)],0,0⟩,⟨33,17179869184,[],[(10,.setEnt .internalNl),(11,.cb)],0,0⟩],[⟨23,4951760157141521099596496896,[],[(10,.setEnt .internalNl),(11,.cb)],0,0⟩,⟨29,4294967808,[],[(10,.setEnt .internalNl),(11,.cb)],0,0⟩,⟨30,115792089237316195423570985008687907853269984665635612279300442486792058306047,[],[(10,.setEnt .internalNl),(11,.cb),(12,.code)],0,0⟩,⟨31,4951760157141521099596496896,[],[(10,.setEnt .internalNl),(11,.cb)],0,0⟩,⟨33,17179869184,[],[(10,.setEnt .internalNl),(11,.cb)],0,0⟩],[⟨23,4951760157141521099596496896,[],[(10,.setEnt .internalNl),(11,.cb)],0,0⟩,⟨29,4294967808,[],[(10,.setEnt .internalNl),(11,.cb)],0,0⟩,⟨30,115792089237316195423570985008687907853269984665635612279300442486792058306047,[],[(10,.setEnt .internalNl),(11,.cb),(12,.code)],0,0⟩,⟨31,4951760157141521099596496896,[],[(10,.setEnt .internalNl),(11,.cb)],0,0⟩,⟨33,17179869184,[],[(10,.setEnt .internalNl),(11,.cb)],0,0⟩],[⟨23,4951760157141521099596496896,[],[],0,0⟩,⟨29,4294967808,[],[],0,0⟩,⟨30,115792089237316195423570985008687907853269984665635612279300442486792058306047,[],[(12,.code)],0,0⟩,⟨31,4951760157141521099596496896,[],[],0,0⟩,⟨33,17179869184,[],[],0,0⟩],[⟨23,4951760157141521099596496896,[],[],0,0⟩,⟨29,4294967808,[],[],0,0⟩,⟨30,115792089237316195423570985008687907853269984665635612279300442486792058306047,[],[(12,.code)],0,0⟩,⟨31,4951760157141521099596496896,[],[],0,0⟩,⟨33,17179869184,[],[],0,0⟩],[⟨32,115792089237316195423570985008687907853269984665640564039457584007913129626623,[],[(13,.code)],0,0⟩],[⟨23,4951760157141521099596496896,[],[],0,0⟩,⟨29,4294967808,[],[],0,0⟩,⟨30,115792089237316195423570985008687907853269984665635612279300442486792058306047,[],[(12,.code)],0,0⟩,⟨31,4951760157141521099596496896,[],[],0,0⟩,⟨33,17179869184,[],[],0,0⟩],[],[⟨35,4951760157141521099596496896,[],[],0,0⟩,⟨38,115792089237316195423570985008687907853269984665635612279300442486263777329151,[],[],0,0⟩],[⟨36,70368744177664,[],[],0,0⟩],[⟨37,549755813888,[],[(14,.code)],0,0⟩],[],[⟨39,549755813888,[],[(15,.code)],0,0⟩],[],[⟨41,1024,[],[(16,.setEnt .newline)],0,0⟩],[],[],[],[],[]],[some (0,[]),none,some (1,[]),none,none,some (1,[(2,.setEnt .internalNl),(3,.cb)]),some (1,[(2,.setEnt .internalNl),(3,.cb)]),some (1,[(2,.setEnt .internalNl),(3,.cb)]),some (1,[(2,.setEnt .internalNl),(3,.cb)]),some (1,[]),some (1,[]),none,none,none,none,none,none,none,none,none,none,some (1,[]),none,none,none,none,none,none,none,none,none,none,none,some (2,[]),none,none,none,some (2,[]),none,some (2,[]),none,some (3,[]),some (3,[]),some (3,[]),some (3,[]),some (4,[])],[1,9,16,17,18]⟩
theorem stratego_line_nfa_eq : Stratego.stratego_line.nfa = stratego_line_nfa := by decide +kernel
/-- The machine of `Stratego.stratego_line`, with its automaton as a literal. -/
def stratego_line_M : Machine := ⟨stratego_line_nfa, Stratego.stratego_line.ends, Stratego.stratego_line.sw⟩
theorem stratego_line_M_eq : Stratego.stratego_line.machine = stratego_line_M := by
  unfold Scanner.machine stratego_line_M; rw [stratego_line_nfa_eq]
def stratego_line_masks : List Nat := [4294967808,140737488355328,17179869184,549755813888,8192,1024,4096,115792089237316195423570985008687907853269984665640564039457584007908834656767,4951760157141521099596496896,115792089237316195423570985008687907853269984665640564039457584007908834658815,4398046511104,115792089237316195423570985008687907853269984665635612279300442486792058306047,115792089237316195423570985008687907853269984665640564039457584007913129626623,115792089237316195423570985008687907853269984665635612279300442486263777329151,70368744177664]
def stratego_line_cs : List (Nat × Nat) := [(0,115792089237316195423570985008687907853269984665635612279300442270738023432703),(9,4294967808),(10,1024),(11,2048),(12,4096),(13,8192),(34,17179869184),(39,549755813888),(42,4398046511104),(46,70368744177664),(47,140737488355328),(92,4951760157141521099596496896)]
theorem stratego_line_masksIn : masksIn stratego_line_nfa stratego_line_masks = true := by decide +kernel
theorem stratego_line_repOk : repOk stratego_line_masks stratego_line_cs = true := by decide +kernel
def stratego_line_rows : List Row := [⟨[],none,[],[⟨256,.other,false,some ⟨0,[.setEnt (.own 3)],some 4,true⟩⟩,⟨256,.ws,false,some ⟨1,[.setEnt (.own 0)],some 0,false⟩⟩,⟨256,.lf,false,some ⟨0,[.setEnt .newline],some 3,true⟩⟩,⟨256,.vt,false,none⟩,⟨256,.ff,false,some ⟨0,[.setEnt .newline],some 3,true⟩⟩,⟨256,.cr,false,some ⟨2,[.setEnt .newline],none,false⟩⟩,⟨256,.cr,true,some ⟨3,[.setEnt .newline],some 3,false⟩⟩,⟨256,.other,false,some ⟨4,[.code,.setEnt (.own 3)],some 4,false⟩⟩,⟨256,.other,false,some ⟨5,[.setEnt (.own 3)],some 4,false⟩⟩,⟨256,.other,false,some ⟨6,[.setEnt (.own 3)],some 4,false⟩⟩]⟩,⟨[0],some 0,[],[⟨256,.other,false,none⟩,⟨256,.ws,false,some ⟨1,[.setEnt (.own 0)],some 0,false⟩⟩,⟨256,.lf,false,none⟩,⟨256,.vt,false,none⟩,⟨256,.ff,false,none⟩,⟨256,.cr,false,none⟩,⟨256,.cr,true,none⟩]⟩,⟨[40],none,[],[⟨256,.other,false,none⟩,⟨256,.ws,false,none⟩,⟨256,.lf,false,some ⟨0,[.setEnt .newline],some 3,true⟩⟩,⟨256,.vt,false,none⟩,⟨256,.ff,false,none⟩,⟨256,.cr,false,none⟩,⟨256,.cr,true,none⟩]⟩,⟨[40,44],some 3,[],[⟨256,.other,false,none⟩,⟨256,.ws,false,none⟩,⟨256,.lf,false,some ⟨0,[.setEnt .newline],some 3,true⟩⟩,⟨256,.vt,false,none⟩,⟨256,.ff,false,none⟩,⟨256,.cr,false,none⟩,⟨256,.cr,true,none⟩]⟩,⟨[22,45],some 4,[],[⟨256,.other,false,some ⟨7,[.code],none,false⟩⟩,⟨256,.ws,false,some ⟨8,[],none,false⟩⟩,⟨256,.lf,false,some ⟨7,[.code],none,false⟩⟩,⟨256,.vt,false,some ⟨7,[.code],none,false⟩⟩,⟨256,.ff,false,some ⟨7,[.code],none,false⟩⟩,⟨256,.cr,false,some ⟨7,[.code],none,false⟩⟩,⟨256,.cr,true,some ⟨7,[.code],none,false⟩⟩,⟨256,.other,false,some ⟨0,[],some 2,true⟩⟩,⟨256,.other,false,some ⟨9,[],none,false⟩⟩]⟩,⟨[34,45],some 4,[],[⟨256,.other,false,some ⟨10,[],none,false⟩⟩,⟨256,.ws,false,some ⟨10,[],none,false⟩⟩,⟨256,.lf,false,some ⟨10,[],none,false⟩⟩,⟨256,.vt,false,some ⟨10,[],none,false⟩⟩,⟨256,.ff,false,some ⟨10,[],none,false⟩⟩,⟨256,.cr,false,some ⟨10,[],none,false⟩⟩,⟨256,.cr,true,some ⟨10,[],none,false⟩⟩,⟨256,.other,false,none⟩,⟨256,.other,false,some ⟨11,[],none,false⟩⟩]⟩,⟨[1,11,45],some 4,[],[⟨256,.other,false,none⟩,⟨256,.ws,false,none⟩,⟨256,.lf,false,none⟩,⟨256,.vt,false,none⟩,⟨256,.ff,false,none⟩,⟨256,.cr,false,none⟩,⟨256,.cr,true,none⟩,⟨256,.other,false,some ⟨12,[.comment],none,false⟩⟩,⟨256,.other,false,some ⟨13,[.comment],some 1,false⟩⟩]⟩,⟨[30],none,[],[⟨256,.other,false,some ⟨7,[.code],none,false⟩⟩,⟨256,.ws,false,some ⟨8,[],none,false⟩⟩,⟨256,.lf,false,some ⟨7,[.code],none,false⟩⟩,⟨256,.vt,false,some ⟨7,[.code],none,false⟩⟩,⟨256,.ff,false,some ⟨7,[.code],none,false⟩⟩,⟨256,.cr,false,some ⟨7,[.code],none,false⟩⟩,⟨256,.cr,true,some ⟨7,[.code],none,false⟩⟩,⟨256,.other,false,some ⟨0,[],some 2,true⟩⟩,⟨256,.other,false,some ⟨9,[],none,false⟩⟩]⟩,⟨[29],none,[],[⟨256,.other,false,some ⟨7,[.code],none,false⟩⟩,⟨256,.ws,false,some ⟨8,[],none,false⟩⟩,⟨256,.lf,false,some ⟨7,[.code],none,false⟩⟩,⟨256,.vt,false,some ⟨7,[.code],none,false⟩⟩,⟨256,.ff,false,some ⟨7,[.code],none,false⟩⟩,⟨256,.cr,false,some ⟨7,[.code],none,false⟩⟩,⟨256,.cr,true,some ⟨7,[.code],none,false⟩⟩,⟨256,.other,false,some ⟨0,[],some 2,true⟩⟩,⟨256,.other,false,some ⟨9,[],none,false⟩⟩]⟩,⟨[23,31],none,[],[⟨256,.other,false,some ⟨14,[.code],none,false⟩⟩,⟨256,.ws,false,some ⟨14,[.code],none,false⟩⟩,⟨256,.lf,false,some ⟨15,[],none,false⟩⟩,⟨256,.vt,false,some ⟨14,[.code],none,false⟩⟩,⟨256,.ff,false,some ⟨16,[],none,false⟩⟩,⟨256,.cr,false,some ⟨17,[],none,false⟩⟩,⟨256,.cr,true,some ⟨18,[],none,false⟩⟩]⟩,⟨[38],none,[],[⟨256,.other,false,none⟩,⟨256,.ws,false,none⟩,⟨256,.lf,false,none⟩,⟨256,.vt,false,none⟩,⟨256,.ff,false,none⟩,⟨256,.cr,false,none⟩,⟨256,.cr,true,none⟩,⟨256,.other,false,some ⟨0,[.code],some 2,true⟩⟩]⟩,⟨[35],none,[],[⟨256,.other,false,none⟩,⟨256,.ws,false,none⟩,⟨256,.lf,false,none⟩,⟨256,.vt,false,none⟩,⟨256,.ff,false,none⟩,⟨256,.cr,false,none⟩,⟨256,.cr,true,none⟩,⟨256,.other,false,some ⟨19,[],none,false⟩⟩]⟩,⟨[12],none,[],[⟨256,.other,false,some ⟨20,[.comment],none,false⟩⟩,⟨256,.ws,false,some ⟨21,[],none,false⟩⟩,⟨256,.lf,false,some ⟨22,[],none,false⟩⟩,⟨256,.vt,false,some ⟨20,[.comment],none,false⟩⟩,⟨256,.ff,false,some ⟨23,[],none,false⟩⟩,⟨256,.cr,false,some ⟨24,[],none,false⟩⟩,⟨256,.cr,true,some ⟨25,[],none,false⟩⟩,⟨256,.other,false,some ⟨26,[.comment],none,false⟩⟩]⟩,⟨[2],some 1,[],[⟨256,.other,false,some ⟨27,[.comment],some 1,false⟩⟩,⟨256,.ws,false,some ⟨28,[],some 1,false⟩⟩,⟨256,.lf,false,none⟩,⟨256,.vt,false,some ⟨27,[.comment],some 1,false⟩⟩,⟨256,.ff,false,none⟩,⟨256,.cr,false,none⟩,⟨256,.cr,true,none⟩,⟨256,.other,false,some ⟨29,[.comment],some 1,false⟩⟩]⟩,⟨[32],none,[],[⟨256,.other,false,some ⟨7,[.code],none,false⟩⟩,⟨256,.ws,false,some ⟨8,[],none,false⟩⟩,⟨256,.lf,false,some ⟨7,[.code],none,false⟩⟩,⟨256,.vt,false,some ⟨7,[.code],none,false⟩⟩,⟨256,.ff,false,some ⟨7,[.code],none,false⟩⟩,⟨256,.cr,false,some ⟨7,[.code],none,false⟩⟩,⟨256,.cr,true,some ⟨7,[.code],none,false⟩⟩,⟨256,.other,false,some ⟨0,[],some 2,true⟩⟩,⟨256,.other,false,some ⟨9,[],none,false⟩⟩]⟩,⟨[26],none,[],[⟨256,.other,false,some ⟨7,[.setEnt .internalNl,.cb,.code],none,false⟩⟩,⟨256,.ws,false,some ⟨8,[.setEnt .internalNl,.cb],none,false⟩⟩,⟨256,.lf,false,some ⟨7,[.setEnt .internalNl,.cb,.code],none,false⟩⟩,⟨256,.vt,false,some ⟨7,[.setEnt .internalNl,.cb,.code],none,false⟩⟩,⟨256,.ff,false,some ⟨7,[.setEnt .internalNl,.cb,.code],none,false⟩⟩,⟨256,.cr,false,some ⟨7,[.setEnt .internalNl,.cb,.code],none,false⟩⟩,⟨256,.cr,true,some ⟨7,[.setEnt .internalNl,.cb,.code],none,false⟩⟩,⟨256,.other,false,some ⟨0,[.setEnt .internalNl,.cb],some 2,true⟩⟩,⟨256,.other,false,some ⟨9,[.setEnt .internalNl,.cb],none,false⟩⟩]⟩,⟨[27],none,[],[⟨256,.other,false,some ⟨7,[.setEnt .internalNl,.cb,.code],none,false⟩⟩,⟨256,.ws,false,some ⟨8,[.setEnt .internalNl,.cb],none,false⟩⟩,⟨256,.lf,false,some ⟨7,[.setEnt .internalNl,.cb,.code],none,false⟩⟩,⟨256,.vt,false,some ⟨7,[.setEnt .internalNl,.cb,.code],none,false⟩⟩,⟨256,.ff,false,some ⟨7,[.setEnt .internalNl,.cb,.code],none,false⟩⟩,⟨256,.cr,false,some ⟨7,[.setEnt .internalNl,.cb,.code],none,false⟩⟩,⟨256,.cr,true,some ⟨7,[.setEnt .internalNl,.cb,.code],none,false⟩⟩,⟨256,.other,false,some ⟨0,[.setEnt .internalNl,.cb],some 2,true⟩⟩,⟨256,.other,false,some ⟨9,[.setEnt .internalNl,.cb],none,false⟩⟩]⟩,⟨[24],none,[],[⟨256,.other,false,none⟩,⟨256,.ws,false,none⟩,⟨256,.lf,false,some ⟨30,[],none,false⟩⟩,⟨256,.vt,false,none⟩,⟨256,.ff,false,none⟩,⟨256,.cr,false,none⟩,⟨256,.cr,true,none⟩]⟩,⟨[24,28],none,[],[⟨256,.other,false,some ⟨7,[.setEnt .internalNl,.cb,.code],none,false⟩⟩,⟨256,.ws,false,some ⟨8,[.setEnt .internalNl,.cb],none,false⟩⟩,⟨256,.lf,false,some ⟨31,[.setEnt .internalNl,.cb,.code],none,false⟩⟩,⟨256,.vt,false,some ⟨7,[.setEnt .internalNl,.cb,.code],none,false⟩⟩,⟨256,.ff,false,some ⟨7,[.setEnt .internalNl,.cb,.code],none,false⟩⟩,⟨256,.cr,false,some ⟨7,[.setEnt .internalNl,.cb,.code],none,false⟩⟩,⟨256,.cr,true,some ⟨7,[.setEnt .internalNl,.cb,.code],none,false⟩⟩,⟨256,.other,false,some ⟨0,[.setEnt .internalNl,.cb],some 2,true⟩⟩,⟨256,.other,false,some ⟨9,[.setEnt .internalNl,.cb],none,false⟩⟩]⟩,⟨[36],none,[],[⟨256,.other,false,none⟩,⟨256,.ws,false,none⟩,⟨256,.lf,false,none⟩,⟨256,.vt,false,none⟩,⟨256,.ff,false,none⟩,⟨256,.cr,false,none⟩,⟨256,.cr,true,none⟩,⟨256,.other,false,some ⟨0,[.code],some 2,true⟩⟩]⟩,⟨[19],none,[],[⟨256,.other,false,some ⟨20,[.comment],none,false⟩⟩,⟨256,.ws,false,some ⟨21,[],none,false⟩⟩,⟨256,.lf,false,some ⟨22,[],none,false⟩⟩,⟨256,.vt,false,some ⟨20,[.comment],none,false⟩⟩,⟨256,.ff,false,some ⟨23,[],none,false⟩⟩,⟨256,.cr,false,some ⟨24,[],none,false⟩⟩,⟨256,.cr,true,some ⟨25,[],none,false⟩⟩,⟨256,.other,false,some ⟨26,[.comment],none,false⟩⟩]⟩,⟨[18],none,[],[⟨256,.other,false,some ⟨20,[.comment],none,false⟩⟩,⟨256,.ws,false,some ⟨21,[],none,false⟩⟩,⟨256,.lf,false,some ⟨22,[],none,false⟩⟩,⟨256,.vt,false,some ⟨20,[.comment],none,false⟩⟩,⟨256,.ff,false,some ⟨23,[],none,false⟩⟩,⟨256,.cr,false,some ⟨24,[],none,false⟩⟩,⟨256,.cr,true,some ⟨25,[],none,false⟩⟩,⟨256,.other,false,some ⟨26,[.comment],none,false⟩⟩]⟩,⟨[15],none,[],[⟨256,.other,false,some ⟨20,[.setEnt .internalNl,.cb,.comment],none,false⟩⟩,⟨256,.ws,false,some ⟨21,[.setEnt .internalNl,.cb],none,false⟩⟩,⟨256,.lf,false,some ⟨22,[.setEnt .internalNl,.cb],none,false⟩⟩,⟨256,.vt,false,some ⟨20,[.setEnt .internalNl,.cb,.comment],none,false⟩⟩,⟨256,.ff,false,some ⟨23,[.setEnt .internalNl,.cb],none,false⟩⟩,⟨256,.cr,false,some ⟨24,[.setEnt .internalNl,.cb],none,false⟩⟩,⟨256,.cr,true,some ⟨25,[.setEnt .internalNl,.cb],none,false⟩⟩,⟨256,.other,false,some ⟨26,[.setEnt .internalNl,.cb,.comment],none,false⟩⟩]⟩,⟨[16],none,[],[⟨256,.other,false,some ⟨20,[.setEnt .internalNl,.cb,.comment],none,false⟩⟩,⟨256,.ws,false,some ⟨21,[.setEnt .internalNl,.cb],none,false⟩⟩,⟨256,.lf,false,some ⟨22,[.setEnt .internalNl,.cb],none,false⟩⟩,⟨256,.vt,false,some ⟨20,[.setEnt .internalNl,.cb,.comment],none,false⟩⟩,⟨256,.ff,false,some ⟨23,[.setEnt .internalNl,.cb],none,false⟩⟩,⟨256,.cr,false,some ⟨24,[.setEnt .internalNl,.cb],none,false⟩⟩,⟨256,.cr,true,some ⟨25,[.setEnt .internalNl,.cb],none,false⟩⟩,⟨256,.other,false,some ⟨26,[.setEnt .internalNl,.cb,.comment],none,false⟩⟩]⟩,⟨[13],none,[],[⟨256,.other,false,none⟩,⟨256,.ws,false,none⟩,⟨256,.lf,false,some ⟨32,[],none,false⟩⟩,⟨256,.vt,false,none⟩,⟨256,.ff,false,none⟩,⟨256,.cr,false,none⟩,⟨256,.cr,true,none⟩]⟩,⟨[13,17],none,[],[⟨256,.other,false,some ⟨20,[.setEnt .internalNl,.cb,.comment],none,false⟩⟩,⟨256,.ws,false,some ⟨21,[.setEnt .internalNl,.cb],none,false⟩⟩,⟨256,.lf,false,some ⟨33,[.setEnt .internalNl,.cb],none,false⟩⟩,⟨256,.vt,false,some ⟨20,[.setEnt .internalNl,.cb,.comment],none,false⟩⟩,⟨256,.ff,false,some ⟨23,[.setEnt .internalNl,.cb],none,false⟩⟩,⟨256,.cr,false,some ⟨24,[.setEnt .internalNl,.cb],none,false⟩⟩,⟨256,.cr,true,some ⟨25,[.setEnt .internalNl,.cb],none,false⟩⟩,⟨256,.other,false,some ⟨26,[.setEnt .internalNl,.cb,.comment],none,false⟩⟩]⟩,⟨[19,20],none,[],[⟨256,.other,false,some ⟨20,[.comment],none,false⟩⟩,⟨256,.ws,false,some ⟨21,[],none,false⟩⟩,⟨256,.lf,false,some ⟨22,[],none,false⟩⟩,⟨256,.vt,false,some ⟨20,[.comment],none,false⟩⟩,⟨256,.ff,false,some ⟨23,[],none,false⟩⟩,⟨256,.cr,false,some ⟨24,[],none,false⟩⟩,⟨256,.cr,true,some ⟨25,[],none,false⟩⟩,⟨256,.other,false,some ⟨26,[.comment],none,false⟩⟩,⟨256,.other,false,some ⟨0,[],some 1,true⟩⟩]⟩,⟨[10],some 1,[],[⟨256,.other,false,some ⟨27,[.comment],some 1,false⟩⟩,⟨256,.ws,false,some ⟨28,[],some 1,false⟩⟩,⟨256,.lf,false,none⟩,⟨256,.vt,false,some ⟨27,[.comment],some 1,false⟩⟩,⟨256,.ff,false,none⟩,⟨256,.cr,false,none⟩,⟨256,.cr,true,none⟩,⟨256,.other,false,some ⟨29,[.comment],some 1,false⟩⟩]⟩,⟨[9],some 1,[],[⟨256,.other,false,some ⟨27,[.comment],some 1,false⟩⟩,⟨256,.ws,false,some ⟨28,[],some 1,false⟩⟩,⟨256,.lf,false,none⟩,⟨256,.vt,false,some ⟨27,[.comment],some 1,false⟩⟩,⟨256,.ff,false,none⟩,⟨256,.cr,false,none⟩,⟨256,.cr,true,none⟩,⟨256,.other,false,some ⟨29,[.comment],some 1,false⟩⟩]⟩,⟨[3,10],some 1,[],[⟨256,.other,false,some ⟨27,[.comment],some 1,false⟩⟩,⟨256,.ws,false,some ⟨28,[],some 1,false⟩⟩,⟨256,.lf,false,some ⟨34,[],some 1,false⟩⟩,⟨256,.vt,false,some ⟨27,[.comment],some 1,false⟩⟩,⟨256,.ff,false,some ⟨35,[],some 1,false⟩⟩,⟨256,.cr,false,some ⟨36,[],none,false⟩⟩,⟨256,.cr,true,some ⟨37,[],some 1,false⟩⟩,⟨256,.other,false,some ⟨29,[.comment],some 1,false⟩⟩]⟩,⟨[25],none,[],[⟨256,.other,false,some ⟨7,[.setEnt .internalNl,.cb,.code],none,false⟩⟩,⟨256,.ws,false,some ⟨8,[.setEnt .internalNl,.cb],none,false⟩⟩,⟨256,.lf,false,some ⟨7,[.setEnt .internalNl,.cb,.code],none,false⟩⟩,⟨256,.vt,false,some ⟨7,[.setEnt .internalNl,.cb,.code],none,false⟩⟩,⟨256,.ff,false,some ⟨7,[.setEnt .internalNl,.cb,.code],none,false⟩⟩,⟨256,.cr,false,some ⟨7,[.setEnt .internalNl,.cb,.code],none,false⟩⟩,⟨256,.cr,true,some ⟨7,[.setEnt .internalNl,.cb,.code],none,false⟩⟩,⟨256,.other,false,some ⟨0,[.setEnt .internalNl,.cb],some 2,true⟩⟩,⟨256,.other,false,some ⟨9,[.setEnt .internalNl,.cb],none,false⟩⟩]⟩,⟨[25,30],none,[],[⟨256,.other,false,some ⟨7,[.setEnt .internalNl,.cb,.code],none,false⟩⟩,⟨256,.ws,false,some ⟨8,[.setEnt .internalNl,.cb],none,false⟩⟩,⟨256,.lf,false,some ⟨7,[.setEnt .internalNl,.cb,.code],none,false⟩⟩,⟨256,.vt,false,some ⟨7,[.setEnt .internalNl,.cb,.code],none,false⟩⟩,⟨256,.ff,false,some ⟨7,[.setEnt .internalNl,.cb,.code],none,false⟩⟩,⟨256,.cr,false,some ⟨7,[.setEnt .internalNl,.cb,.code],none,false⟩⟩,⟨256,.cr,true,some ⟨7,[.setEnt .internalNl,.cb,.code],none,false⟩⟩,⟨256,.other,false,some ⟨0,[.setEnt .internalNl,.cb],some 2,true⟩⟩,⟨256,.other,false,some ⟨9,[.setEnt .internalNl,.cb],none,false⟩⟩]⟩,⟨[14],none,[],[⟨256,.other,false,some ⟨20,[.setEnt .internalNl,.cb,.comment],none,false⟩⟩,⟨256,.ws,false,some ⟨21,[.setEnt .internalNl,.cb],none,false⟩⟩,⟨256,.lf,false,some ⟨22,[.setEnt .internalNl,.cb],none,false⟩⟩,⟨256,.vt,false,some ⟨20,[.setEnt .internalNl,.cb,.comment],none,false⟩⟩,⟨256,.ff,false,some ⟨23,[.setEnt .internalNl,.cb],none,false⟩⟩,⟨256,.cr,false,some ⟨24,[.setEnt .internalNl,.cb],none,false⟩⟩,⟨256,.cr,true,some ⟨25,[.setEnt .internalNl,.cb],none,false⟩⟩,⟨256,.other,false,some ⟨26,[.setEnt .internalNl,.cb,.comment],none,false⟩⟩]⟩,⟨[14,15],none,[],[⟨256,.other,false,some ⟨20,[.setEnt .internalNl,.cb,.comment],none,false⟩⟩,⟨256,.ws,false,some ⟨21,[.setEnt .internalNl,.cb],none,false⟩⟩,⟨256,.lf,false,some ⟨22,[.setEnt .internalNl,.cb],none,false⟩⟩,⟨256,.vt,false,some ⟨20,[.setEnt .internalNl,.cb,.comment],none,false⟩⟩,⟨256,.ff,false,some ⟨23,[.setEnt .internalNl,.cb],none,false⟩⟩,⟨256,.cr,false,some ⟨24,[.setEnt .internalNl,.cb],none,false⟩⟩,⟨256,.cr,true,some ⟨25,[.setEnt .internalNl,.cb],none,false⟩⟩,⟨256,.other,false,some ⟨26,[.setEnt .internalNl,.cb,.comment],none,false⟩⟩]⟩,⟨[6],some 1,[.setEnt .internalNl,.cb],[⟨256,.other,false,some ⟨27,[.setEnt .internalNl,.cb,.comment],some 1,false⟩⟩,⟨256,.ws,false,some ⟨28,[.setEnt .internalNl,.cb],some 1,false⟩⟩,⟨256,.lf,false,none⟩,⟨256,.vt,false,some ⟨27,[.setEnt .internalNl,.cb,.comment],some 1,false⟩⟩,⟨256,.ff,false,none⟩,⟨256,.cr,false,none⟩,⟨256,.cr,true,none⟩,⟨256,.other,false,some ⟨29,[.setEnt .internalNl,.cb,.comment],some 1,false⟩⟩]⟩,⟨[7],some 1,[.setEnt .internalNl,.cb],[⟨256,.other,false,some ⟨27,[.setEnt .internalNl,.cb,.comment],some 1,false⟩⟩,⟨256,.ws,false,some ⟨28,[.setEnt .internalNl,.cb],some 1,false⟩⟩,⟨256,.lf,false,none⟩,⟨256,.vt,false,some ⟨27,[.setEnt .internalNl,.cb,.comment],some 1,false⟩⟩,⟨256,.ff,false,none⟩,⟨256,.cr,false,none⟩,⟨256,.cr,true,none⟩,⟨256,.other,false,some ⟨29,[.setEnt .internalNl,.cb,.comment],some 1,false⟩⟩]⟩,⟨[4],none,[],[⟨256,.other,false,none⟩,⟨256,.ws,false,none⟩,⟨256,.lf,false,some ⟨38,[],some 1,false⟩⟩,⟨256,.vt,false,none⟩,⟨256,.ff,false,none⟩,⟨256,.cr,false,none⟩,⟨256,.cr,true,none⟩]⟩,⟨[4,8],some 1,[.setEnt .internalNl,.cb],[⟨256,.other,false,some ⟨27,[.setEnt .internalNl,.cb,.comment],some 1,false⟩⟩,⟨256,.ws,false,some ⟨28,[.setEnt .internalNl,.cb],some 1,false⟩⟩,⟨256,.lf,false,some ⟨38,[],some 1,false⟩⟩,⟨256,.vt,false,some ⟨27,[.setEnt .internalNl,.cb,.comment],some 1,false⟩⟩,⟨256,.ff,false,none⟩,⟨256,.cr,false,none⟩,⟨256,.cr,true,none⟩,⟨256,.other,false,some ⟨29,[.setEnt .internalNl,.cb,.comment],some 1,false⟩⟩]⟩,⟨[5],some 1,[.setEnt .internalNl,.cb],[⟨256,.other,false,some ⟨27,[.setEnt .internalNl,.cb,.comment],some 1,false⟩⟩,⟨256,.ws,false,some ⟨28,[.setEnt .internalNl,.cb],some 1,false⟩⟩,⟨256,.lf,false,none⟩,⟨256,.vt,false,some ⟨27,[.setEnt .internalNl,.cb,.comment],some 1,false⟩⟩,⟨256,.ff,false,none⟩,⟨256,.cr,false,none⟩,⟨256,.cr,true,none⟩,⟨256,.other,false,some ⟨29,[.setEnt .internalNl,.cb,.comment],some 1,false⟩⟩]⟩]
theorem stratego_line_rowsOk : rowsOk stratego_line_nfa [] (stratego_line_cs.map (·.1)) stratego_line_rows = true := by decide +kernel
def stratego_line_D : Dfa stratego_line_M.nfa := ⟨stratego_line_masks, [], stratego_line_cs, stratego_line_rows, stratego_line_masksIn, stratego_line_repOk, stratego_line_rowsOk⟩

def tcl_line_nfa : Nfa := ⟨[⟨0,4294967808,[],[(0,.setEnt (.own 0))],0,0⟩,⟨1,34359738368,[],[(1,.comment)],0,0⟩,⟨10,17179869184,[],[(5,.code)],0,0⟩,⟨22,8192,[],[(10,.setEnt .newline)],0,0⟩,⟨24,1024,[],[(10,.setEnt .newline)],0,0⟩,⟨25,4096,[],[(10,.setEnt .newline)],0,0⟩,⟨26,8192,[.crAlone],[(10,.setEnt .newline)],0,0⟩,⟨27,115792089237316195423570985008687907853269984665640564039457584007908834656767,[],[(11,.setEnt (.own 3))],0,0⟩],[[⟨0,4294967808,[],[(0,.setEnt (.own 0))],0,0⟩],[⟨2,4951760157141521099596496896,[],[],0,0⟩,⟨8,4294967808,[],[],0,0⟩,⟨9,115792089237316195423570985008687907853269984665640564039457584007908834658815,[],[(4,.comment)],0,0⟩],[⟨3,8192,[],[],0,0⟩,⟨5,1024,[],[],0,0⟩,⟨6,4096,[],[],0,0⟩,⟨7,8192,[.crAlone],[],0,0⟩],[⟨4,1024,[],[],0,0⟩],[⟨2,4951760157141521099596496896,[],[(2,.setEnt .internalNl),(3,.cb)],0,0⟩,⟨8,4294967808,[],[(2,.setEnt .internalNl),(3,.cb)],0,0⟩,⟨9,115792089237316195423570985008687907853269984665640564039457584007908834658815,[],[(2,.setEnt .internalNl),(3,.cb),(4,.comment)],0,0⟩],[⟨2,4951760157141521099596496896,[],[(2,.setEnt .internalNl),(3,.cb)],0,0⟩,⟨8,4294967808,[],[(2,.setEnt .internalNl),(3,.cb)],0,0⟩,⟨9,115792089237316195423570985008687907853269984665640564039457584007908834658815,[],[(2,.setEnt .internalNl),(3,.cb),(4,.comment)],0,0⟩],[⟨2,4951760157141521099596496896,[],[(2,.setEnt .internalNl),(3,.cb)],0,0⟩,⟨8,4294967808,[],[(2,.setEnt .internalNl),(3,.cb)],0,0⟩,⟨9,115792089237316195423570985008687907853269984665640564039457584007908834658815,[],[(2,.setEnt .internalNl),(3,.cb),(4,.comment)],0,0⟩],[⟨2,4951760157141521099596496896,[],[(2,.setEnt .internalNl),(3,.cb)],0,0⟩,⟨8,4294967808,[],[(2,.setEnt .internalNl),(3,.cb)],0,0⟩,⟨9,115792089237316195423570985008687907853269984665640564039457584007908834658815,[],[(2,.setEnt .internalNl),(3,.cb),(4,.comment)],0,0⟩],[⟨2,4951760157141521099596496896,[],[],0,0⟩,⟨8,4294967808,[],[],0,0⟩,⟨9,115792089237316195423570985008687907853269984665640564039457584007908834658815,[],[(4,.comment)],0,0⟩],[⟨2,4951760157141521099596496896,[],[],0,0⟩,⟨8,4294967808,[],[],0,0⟩,⟨9,115792089237316195423570985008687907853269984665640564039457584007908834658815,[],[(4,.comment)],0,0⟩],[⟨11,4951760157141521099596496896,[],[],0,0⟩,⟨17,4294967808,[],[],0,0⟩,⟨18,115792089237316195423570985008687907853269984665635612279300442486792058292735,[],[(8,.code)],0,0⟩,⟨19,4951760157141521099596496896,[],[],0,0⟩,⟨21,17179869184,[],[],0,0⟩],[⟨12,8192,[],[],0,0⟩,⟨14,1024,[],[],0,0⟩,⟨15,4096,[],[],0,0⟩,⟨16,8192,[.crAlone],[],0,0⟩],[⟨13,1024,[],[],0,0⟩],[⟨11,4951760157141521099596496896,[],[(6,.setEnt .internalNl),(7,.cb)],0,0⟩,⟨17,4294967808,[],[(6,.setEnt .internalNl),(7,.cb)],0,0⟩,⟨18,115792089237316195423570985008687907853269984665635612279300442486792058292735,[],[(6,.setEnt .internalNl),(7,.cb),(8,.code)],0,0⟩,⟨19,4951760157141521099596496896,[],[(6,.setEnt .internalNl),(7,.cb)],0,0⟩,⟨21,17179869184,[],[(6,.setEnt .internalNl),(7,.cb)],0,0⟩],[⟨11,4951760157141521099596496896,[],[(6,.setEnt .internalNl),(7,.cb)],0,0⟩,⟨17,4294967808,[],[(6,.setEnt .internalNl),(7,.cb)],0,0⟩,⟨18,115792089237316195423570985008687907853269984665635612279300442486792058292735,[],[(6,.setEnt .internalNl),(7,.cb),(8,.code)],0,0⟩,⟨19,4951760157141521099596496896,[],[(6,.setEnt .internalNl),(7,.cb)],0,0⟩,⟨21,17179869184,[],[(6,.setEnt .internalNl),(7,.cb)],0,0⟩],[⟨11,4951760157141521099596496896,[],[(6,.setEnt .internalNl),(7,.cb)],0,0⟩,⟨17,4294967808,[],[(6,.setEnt .internalNl),(7,.cb)],0,0⟩,⟨18,115792089237316195423570985008687907853269984665635612279300442486792058292735,[],[(6,.setEnt .internalNl),(7,.cb),(8,.code)],0,0⟩,⟨19,4951760157141521099596496896,[],[(6,.setEnt .internalNl),(7,.cb)],0,0⟩,⟨21,17179869184,[],[(6,.setEnt .internalNl),(7,.cb)],0,0⟩],[⟨11,4951760157141521099596496896,[],[(6,.setEnt .internalNl),(7,.cb)],0,0⟩,⟨17,4294967808,[],[(6,.setEnt .internalNl),(7,.cb)],0,0⟩,⟨18,115792089237316195423570985008687907853269984665635612279300442486792058292735,[],[(6,.setEnt .internalNl),(7,.cb),(8,.code)],0,0⟩,⟨19,4951760157141521099596496896,[],[(6,.setEnt .internalNl),(7,.cb)],0,0⟩,⟨21,17179869184,[],[(6,.setEnt .internalNl),(7,.cb)],0,0⟩],[⟨11,4951760157141521099596496896,[],[],0,0⟩,⟨17,4294967808,[],[],0,0⟩,⟨18,115792089237316195423570985008687907853269984665635612279300442486792058292735,[],[(8,.code)],0,0⟩,⟨19,4951760157141521099596496896,[],[],0,0⟩,⟨21,17179869184,[],[],0,0⟩],[⟨11,4951760157141521099596496896,[],[],0,0⟩,⟨17,4294967808,[],[],0,0⟩,⟨18,115792089237316195423570985008687907853269984665635612279300442486792058292735,[],[(8,.code)],0,0⟩,⟨19,4951760157141521099596496896,[],[],0,0⟩,⟨21,17179869184,[],[],0,0⟩],[⟨20,115792089237316195423570985008687907853269984665640564039457584007913129626623,[],[(9,.code)],0,0⟩],[⟨11,4951760157141521099596496896,[],[],0,0⟩,⟨17,4294967808,[],[],0,0⟩,⟨18,115792089237316195423570985008687907853269984665635612279300442486792058292735,[],[(8,.code)],0,0⟩,⟨19,4951760157141521099596496896,[],[],0,0⟩,⟨21,17179869184,[],[],0,0⟩],[],[⟨23,1024,[],[(10,.setEnt .newline)],0,0⟩],[],[],[],[],[]],[some (0,[]),some (1,[]),none,none,some (1,[(2,.setEnt .internalNl),(3,.cb)]),some (1,[(2,.setEnt .internalNl),(3,.cb)]),some (1,[(2,.setEnt .internalNl),(3,.cb)]),some (1,[(2,.setEnt .internalNl),(3,.cb)]),some (1,[]),some (1,[]),none,none,none,none,none,none,none,none,none,none,none,some (2,[]),none,some (3,[]),some (3,[]),some (3,[]),some (3,[]),some (4,[])],[1,5,10,11,12]⟩
theorem tcl_line_nfa_eq : Tcl.tcl_line.nfa = tcl_line_nfa := by decide +kernel
/-- The machine of `Tcl.tcl_line`, with its automaton as a literal. -/
def tcl_line_M : Machine := ⟨tcl_line_nfa, Tcl.tcl_line.ends, Tcl.tcl_line.sw⟩
theorem tcl_line_M_eq : Tcl.tcl_line.machine = tcl_line_M := by
  unfold Scanner.machine tcl_line_M; rw [tcl_line_nfa_eq]
def tcl_line_masks : List Nat := [4294967808,34359738368,17179869184,8192,1024,4096,115792089237316195423570985008687907853269984665640564039457584007908834656767,4951760157141521099596496896,115792089237316195423570985008687907853269984665640564039457584007908834658815,115792089237316195423570985008687907853269984665635612279300442486792058292735,115792089237316195423570985008687907853269984665640564039457584007913129626623]
def tcl_line_cs : List (Nat × Nat) := [(0,115792089237316195423570985008687907853269984665635612279300442486757698552319),(9,4294967808),(10,1024),(11,2048),(12,4096),(13,8192),(34,17179869184),(35,34359738368),(92,4951760157141521099596496896)]
theorem tcl_line_masksIn : masksIn tcl_line_nfa tcl_line_masks = true := by decide +kernel
theorem tcl_line_repOk : repOk tcl_line_masks tcl_line_cs = true := by decide +kernel
def tcl_line_rows : List Row := [⟨[],none,[],[⟨256,.other,false,some ⟨0,[.setEnt (.own 3)],some 4,true⟩⟩,⟨256,.ws,false,some ⟨1,[.setEnt (.own 0)],some 0,false⟩⟩,⟨256,.lf,false,some ⟨0,[.setEnt .newline],some 3,true⟩⟩,⟨256,.vt,false,none⟩,⟨256,.ff,false,some ⟨0,[.setEnt .newline],some 3,true⟩⟩,⟨256,.cr,false,some ⟨2,[.setEnt .newline],none,false⟩⟩,⟨256,.cr,true,some ⟨3,[.setEnt .newline],some 3,false⟩⟩,⟨256,.other,false,some ⟨4,[.code,.setEnt (.own 3)],some 4,false⟩⟩,⟨256,.other,false,some ⟨5,[.comment,.setEnt (.own 3)],some 1,false⟩⟩]⟩,⟨[0],some 0,[],[⟨256,.other,false,none⟩,⟨256,.ws,false,some ⟨1,[.setEnt (.own 0)],some 0,false⟩⟩,⟨256,.lf,false,none⟩,⟨256,.vt,false,none⟩,⟨256,.ff,false,none⟩,⟨256,.cr,false,none⟩,⟨256,.cr,true,none⟩]⟩,⟨[22],none,[],[⟨256,.other,false,none⟩,⟨256,.ws,false,none⟩,⟨256,.lf,false,some ⟨0,[.setEnt .newline],some 3,true⟩⟩,⟨256,.vt,false,none⟩,⟨256,.ff,false,none⟩,⟨256,.cr,false,none⟩,⟨256,.cr,true,none⟩]⟩,⟨[22,26],some 3,[],[⟨256,.other,false,none⟩,⟨256,.ws,false,none⟩,⟨256,.lf,false,some ⟨0,[.setEnt .newline],some 3,true⟩⟩,⟨256,.vt,false,none⟩,⟨256,.ff,false,none⟩,⟨256,.cr,false,none⟩,⟨256,.cr,true,none⟩]⟩,⟨[10,27],some 4,[],[⟨256,.other,false,some ⟨6,[.code],none,false⟩⟩,⟨256,.ws,false,some ⟨7,[],none,false⟩⟩,⟨256,.lf,false,none⟩,⟨256,.vt,false,some ⟨6,[.code],none,false⟩⟩,⟨256,.ff,false,none⟩,⟨256,.cr,false,none⟩,⟨256,.cr,true,none⟩,⟨256,.other,false,some ⟨0,[],some 2,true⟩⟩,⟨256,.other,false,some ⟨8,[],none,false⟩⟩]⟩,⟨[1,27],some 1,[],[⟨256,.other,false,some ⟨9,[.comment],some 1,false⟩⟩,⟨256,.ws,false,some ⟨10,[],some 1,false⟩⟩,⟨256,.lf,false,none⟩,⟨256,.vt,false,some ⟨9,[.comment],some 1,false⟩⟩,⟨256,.ff,false,none⟩,⟨256,.cr,false,none⟩,⟨256,.cr,true,none⟩,⟨256,.other,false,some ⟨11,[.comment],some 1,false⟩⟩]⟩,⟨[18],none,[],[⟨256,.other,false,some ⟨6,[.code],none,false⟩⟩,⟨256,.ws,false,some ⟨7,[],none,false⟩⟩,⟨256,.lf,false,none⟩,⟨256,.vt,false,some ⟨6,[.code],none,false⟩⟩,⟨256,.ff,false,none⟩,⟨256,.cr,false,none⟩,⟨256,.cr,true,none⟩,⟨256,.other,false,some ⟨0,[],some 2,true⟩⟩,⟨256,.other,false,some ⟨8,[],none,false⟩⟩]⟩,⟨[17],none,[],[⟨256,.other,false,some ⟨6,[.code],none,false⟩⟩,⟨256,.ws,false,some ⟨7,[],none,false⟩⟩,⟨256,.lf,false,none⟩,⟨256,.vt,false,some ⟨6,[.code],none,false⟩⟩,⟨256,.ff,false,none⟩,⟨256,.cr,false,none⟩,⟨256,.cr,true,none⟩,⟨256,.other,false,some ⟨0,[],some 2,true⟩⟩,⟨256,.other,false,some ⟨8,[],none,false⟩⟩]⟩,⟨[11,19],none,[],[⟨256,.other,false,some ⟨12,[.code],none,false⟩⟩,⟨256,.ws,false,some ⟨12,[.code],none,false⟩⟩,⟨256,.lf,false,some ⟨13,[],none,false⟩⟩,⟨256,.vt,false,some ⟨12,[.code],none,false⟩⟩,⟨256,.ff,false,some ⟨14,[],none,false⟩⟩,⟨256,.cr,false,some ⟨15,[],none,false⟩⟩,⟨256,.cr,true,some ⟨16,[],none,false⟩⟩]⟩,⟨[9],some 1,[],[⟨256,.other,false,some ⟨9,[.comment],some 1,false⟩⟩,⟨256,.ws,false,some ⟨10,[],some 1,false⟩⟩,⟨256,.lf,false,none⟩,⟨256,.vt,false,some ⟨9,[.comment],some 1,false⟩⟩,⟨256,.ff,false,none⟩,⟨256,.cr,false,none⟩,⟨256,.cr,true,none⟩,⟨256,.other,false,some ⟨11,[.comment],some 1,false⟩⟩]⟩,⟨[8],some 1,[],[⟨256,.other,false,some ⟨9,[.comment],some 1,false⟩⟩,⟨256,.ws,false,some ⟨10,[],some 1,false⟩⟩,⟨256,.lf,false,none⟩,⟨256,.vt,false,some ⟨9,[.comment],some 1,false⟩⟩,⟨256,.ff,false,none⟩,⟨256,.cr,false,none⟩,⟨256,.cr,true,none⟩,⟨256,.other,false,some ⟨11,[.comment],some 1,false⟩⟩]⟩,⟨[2,9],some 1,[],[⟨256,.other,false,some ⟨9,[.comment],some 1,false⟩⟩,⟨256,.ws,false,some ⟨10,[],some 1,false⟩⟩,⟨256,.lf,false,some ⟨17,[],some 1,false⟩⟩,⟨256,.vt,false,some ⟨9,[.comment],some 1,false⟩⟩,⟨256,.ff,false,some ⟨18,[],some 1,false⟩⟩,⟨256,.cr,false,some ⟨19,[],none,false⟩⟩,⟨256,.cr,true,some ⟨20,[],some 1,false⟩⟩,⟨256,.other,false,some ⟨11,[.comment],some 1,false⟩⟩]⟩,⟨[20],none,[],[⟨256,.other,false,some ⟨6,[.code],none,false⟩⟩,⟨256,.ws,false,some ⟨7,[],none,false⟩⟩,⟨256,.lf,false,none⟩,⟨256,.vt,false,some ⟨6,[.code],none,false⟩⟩,⟨256,.ff,false,none⟩,⟨256,.cr,false,none⟩,⟨256,.cr,true,none⟩,⟨256,.other,false,some ⟨0,[],some 2,true⟩⟩,⟨256,.other,false,some ⟨8,[],none,false⟩⟩]⟩,⟨[14],none,[],[⟨256,.other,false,some ⟨6,[.setEnt .internalNl,.cb,.code],none,false⟩⟩,⟨256,.ws,false,some ⟨7,[.setEnt .internalNl,.cb],none,false⟩⟩,⟨256,.lf,false,none⟩,⟨256,.vt,false,some ⟨6,[.setEnt .internalNl,.cb,.code],none,false⟩⟩,⟨256,.ff,false,none⟩,⟨256,.cr,false,none⟩,⟨256,.cr,true,none⟩,⟨256,.other,false,some ⟨0,[.setEnt .internalNl,.cb],some 2,true⟩⟩,⟨256,.other,false,some ⟨8,[.setEnt .internalNl,.cb],none,false⟩⟩]⟩,⟨[15],none,[],[⟨256,.other,false,some ⟨6,[.setEnt .internalNl,.cb,.code],none,false⟩⟩,⟨256,.ws,false,some ⟨7,[.setEnt .internalNl,.cb],none,false⟩⟩,⟨256,.lf,false,none⟩,⟨256,.vt,false,some ⟨6,[.setEnt .internalNl,.cb,.code],none,false⟩⟩,⟨256,.ff,false,none⟩,⟨256,.cr,false,none⟩,⟨256,.cr,true,none⟩,⟨256,.other,false,some ⟨0,[.setEnt .internalNl,.cb],some 2,true⟩⟩,⟨256,.other,false,some ⟨8,[.setEnt .internalNl,.cb],none,false⟩⟩]⟩,⟨[12],none,[],[⟨256,.other,false,none⟩,⟨256,.ws,false,none⟩,⟨256,.lf,false,some ⟨21,[],none,false⟩⟩,⟨256,.vt,false,none⟩,⟨256,.ff,false,none⟩,⟨256,.cr,false,none⟩,⟨256,.cr,true,none⟩]⟩,⟨[12,16],none,[],[⟨256,.other,false,some ⟨6,[.setEnt .internalNl,.cb,.code],none,false⟩⟩,⟨256,.ws,false,some ⟨7,[.setEnt .internalNl,.cb],none,false⟩⟩,⟨256,.lf,false,some ⟨21,[],none,false⟩⟩,⟨256,.vt,false,some ⟨6,[.setEnt .internalNl,.cb,.code],none,false⟩⟩,⟨256,.ff,false,none⟩,⟨256,.cr,false,none⟩,⟨256,.cr,true,none⟩,⟨256,.other,false,some ⟨0,[.setEnt .internalNl,.cb],some 2,true⟩⟩,⟨256,.other,false,some ⟨8,[.setEnt .internalNl,.cb],none,false⟩⟩]⟩,⟨[5],some 1,[.setEnt .internalNl,.cb],[⟨256,.other,false,some ⟨9,[.setEnt .internalNl,.cb,.comment],some 1,false⟩⟩,⟨256,.ws,false,some ⟨10,[.setEnt .internalNl,.cb],some 1,false⟩⟩,⟨256,.lf,false,none⟩,⟨256,.vt,false,some ⟨9,[.setEnt .internalNl,.cb,.comment],some 1,false⟩⟩,⟨256,.ff,false,none⟩,⟨256,.cr,false,none⟩,⟨256,.cr,true,none⟩,⟨256,.other,false,some ⟨11,[.setEnt .internalNl,.cb,.comment],some 1,false⟩⟩]⟩,⟨[6],some 1,[.setEnt .internalNl,.cb],[⟨256,.other,false,some ⟨9,[.setEnt .internalNl,.cb,.comment],some 1,false⟩⟩,⟨256,.ws,false,some ⟨10,[.setEnt .internalNl,.cb],some 1,false⟩⟩,⟨256,.lf,false,none⟩,⟨256,.vt,false,some ⟨9,[.setEnt .internalNl,.cb,.comment],some 1,false⟩⟩,⟨256,.ff,false,none⟩,⟨256,.cr,false,none⟩,⟨256,.cr,true,none⟩,⟨256,.other,false,some ⟨11,[.setEnt .internalNl,.cb,.comment],some 1,false⟩⟩]⟩,⟨[3],none,[],[⟨256,.other,false,none⟩,⟨256,.ws,false,none⟩,⟨256,.lf,false,some ⟨22,[],some 1,false⟩⟩,⟨256,.vt,false,none⟩,⟨256,.ff,false,none⟩,⟨256,.cr,false,none⟩,⟨256,.cr,true,none⟩]⟩,⟨[3,7],some 1,[.setEnt .internalNl,.cb],[⟨256,.other,false,some ⟨9,[.setEnt .internalNl,.cb,.comment],some 1,false⟩⟩,⟨256,.ws,false,some ⟨10,[.setEnt .internalNl,.cb],some 1,false⟩⟩,⟨256,.lf,false,some ⟨22,[],some 1,false⟩⟩,⟨256,.vt,false,some ⟨9,[.setEnt .internalNl,.cb,.comment],some 1,false⟩⟩,⟨256,.ff,false,none⟩,⟨256,.cr,false,none⟩,⟨256,.cr,true,none⟩,⟨256,.other,false,some ⟨11,[.setEnt .internalNl,.cb,.comment],some 1,false⟩⟩]⟩,⟨[13],none,[],[⟨256,.other,false,some ⟨6,[.setEnt .internalNl,.cb,.code],none,false⟩⟩,⟨256,.ws,false,some ⟨7,[.setEnt .internalNl,.cb],none,false⟩⟩,⟨256,.lf,false,none⟩,⟨256,.vt,false,some ⟨6,[.setEnt .internalNl,.cb,.code],none,false⟩⟩,⟨256,.ff,false,none⟩,⟨256,.cr,false,none⟩,⟨256,.cr,true,none⟩,⟨256,.other,false,some ⟨0,[.setEnt .internalNl,.cb],some 2,true⟩⟩,⟨256,.other,false,some ⟨8,[.setEnt .internalNl,.cb],none,false⟩⟩]⟩,⟨[4],some 1,[.setEnt .internalNl,.cb],[⟨256,.other,false,some ⟨9,[.setEnt .internalNl,.cb,.comment],some 1,false⟩⟩,⟨256,.ws,false,some ⟨10,[.setEnt .internalNl,.cb],some 1,false⟩⟩,⟨256,.lf,false,none⟩,⟨256,.vt,false,some ⟨9,[.setEnt .internalNl,.cb,.comment],some 1,false⟩⟩,⟨256,.ff,false,none⟩,⟨256,.cr,false,none⟩,⟨256,.cr,true,none⟩,⟨256,.other,false,some ⟨11,[.setEnt .internalNl,.cb,.comment],some 1,false⟩⟩]⟩]
theorem tcl_line_rowsOk : rowsOk tcl_line_nfa [] (tcl_line_cs.map (·.1)) tcl_line_rows = true := by decide +kernel
def tcl_line_D : Dfa tcl_line_M.nfa := ⟨tcl_line_masks, [], tcl_line_cs, tcl_line_rows, tcl_line_masksIn, tcl_line_repOk, tcl_line_rowsOk⟩

def vim_line_nfa : Nfa := ⟨[⟨0,4294967808,[],[(0,.setEnt (.own 0))],0,0⟩,⟨1,17179869184,[.noCode],[(1,.comment)],0,0⟩,⟨3,549755813888,[],[(2,.code)],0,0⟩,⟨8,17179869184,[.someCode],[(3,.code)],0,0⟩,⟨13,8192,[],[(4,.setEnt .newline)],0,0⟩,⟨15,1024,[],[(4,.setEnt .newline)],0,0⟩,⟨16,4096,[],[(4,.setEnt .newline)],0,0⟩,⟨17,8192,[.crAlone],[(4,.setEnt .newline)],0,0⟩,⟨18,115792089237316195423570985008687907853269984665640564039457584007891654787583,[],[(5,.setEnt (.own 3))],0,0⟩],[[⟨0,4294967808,[],[(0,.setEnt (.own 0))],0,0⟩],[⟨2,115792089237316195423570985008687907853269984665640564039457584007913129626623,[],[],0,0⟩],[⟨2,115792089237316195423570985008687907853269984665640564039457584007913129626623,[],[],0,0⟩],[⟨4,115792089237316195423570985008687907853269984665635612279300442486263777315839,[],[],0,0⟩,⟨5,4951760157141521099596496896,[],[],0,0⟩,⟨7,549755813888,[],[],0,0⟩],[⟨4,115792089237316195423570985008687907853269984665635612279300442486263777315839,[],[],0,0⟩,⟨5,4951760157141521099596496896,[],[],0,0⟩,⟨7,549755813888,[],[],0,0⟩],[⟨6,115792089237316195423570985008687907853269984665640564039457584007913129639935,[],[],0,0⟩],[⟨4,115792089237316195423570985008687907853269984665635612279300442486263777315839,[],[],0,0⟩,⟨5,4951760157141521099596496896,[],[],0,0⟩,⟨7,549755813888,[],[],0,0⟩],[],[⟨9,115792089237316195423570985008687907853269984665635612279300442486796353260543,[],[],0,0⟩,⟨10,4951760157141521099596496896,[],[],0,0⟩,⟨12,17179869184,[],[],0,0⟩],[⟨9,115792089237316195423570985008687907853269984665635612279300442486796353260543,[],[],0,0⟩,⟨10,4951760157141521099596496896,[],[],0,0⟩,⟨12,17179869184,[],[],0,0⟩],[⟨11,115792089237316195423570985008687907853269984665640564039457584007913129639935,[],[],0,0⟩],[⟨9,115792089237316195423570985008687907853269984665635612279300442486796353260543,[],[],0,0⟩,⟨10,4951760157141521099596496896,[],[],0,0⟩,⟨12,17179869184,[],[],0,0⟩],[],[⟨14,1024,[],[(4,.setEnt .newline)],0,0⟩],[],[],[],[],[]],[some (0,[]),some (1,[]),some (1,[]),none,none,none,none,some (2,[]),none,none,none,none,some (2,[]),none,some (3,[]),some (3,[]),some (3,[]),some (3,[]),some (4,[])],[1,2,4,5,6]⟩
theorem vim_line_nfa_eq : Vim.vim_line.nfa = vim_line_nfa := by decide +kernel
/-- The machine of `Vim.vim_line`, with its automaton as a literal. -/
def vim_line_M : Machine := ⟨vim_line_nfa, Vim.vim_line.ends, Vim.vim_line.sw⟩
theorem vim_line_M_eq : Vim.vim_line.machine = vim_line_M := by
  unfold Scanner.machine vim_line_M; rw [vim_line_nfa_eq]
def vim_line_masks : List Nat := [4294967808,17179869184,549755813888,8192,1024,4096,115792089237316195423570985008687907853269984665640564039457584007891654787583,115792089237316195423570985008687907853269984665640564039457584007913129626623,115792089237316195423570985008687907853269984665635612279300442486263777315839,4951760157141521099596496896,115792089237316195423570985008687907853269984665640564039457584007913129639935,115792089237316195423570985008687907853269984665635612279300442486796353260543]
def vim_line_cs : List (Nat × Nat) := [(0,115792089237316195423570985008687907853269984665635612279300442486242302476799),(9,4294967808),(10,1024),(11,2048),(12,4096),(13,8192),(34,17179869184),(39,549755813888),(92,4951760157141521099596496896)]
theorem vim_line_masksIn : masksIn vim_line_nfa vim_line_masks = true := by decide +kernel
theorem vim_line_repOk : repOk vim_line_masks vim_line_cs = true := by decide +kernel
def vim_line_rows : List Row := [⟨[],none,[],[⟨256,.other,false,some ⟨0,[.setEnt (.own 3)],some 4,true⟩⟩,⟨256,.ws,false,some ⟨1,[.setEnt (.own 0)],some 0,false⟩⟩,⟨256,.lf,false,some ⟨0,[.setEnt .newline],some 3,true⟩⟩,⟨256,.vt,false,none⟩,⟨256,.ff,false,some ⟨0,[.setEnt .newline],some 3,true⟩⟩,⟨256,.cr,false,some ⟨2,[.setEnt .newline],none,false⟩⟩,⟨256,.cr,true,some ⟨3,[.setEnt .newline],some 3,false⟩⟩,⟨256,.other,false,none⟩,⟨256,.other,false,some ⟨4,[.code],none,false⟩⟩,⟨256,.other,false,some ⟨5,[.comment],some 1,false⟩⟩,⟨256,.other,false,some ⟨6,[.comment,.code],some 1,false⟩⟩,⟨256,.other,false,some ⟨7,[.code,.setEnt (.own 3)],some 4,false⟩⟩]⟩,⟨[0],some 0,[],[⟨256,.other,false,none⟩,⟨256,.ws,false,some ⟨1,[.setEnt (.own 0)],some 0,false⟩⟩,⟨256,.lf,false,none⟩,⟨256,.vt,false,none⟩,⟨256,.ff,false,none⟩,⟨256,.cr,false,none⟩,⟨256,.cr,true,none⟩]⟩,⟨[13],none,[],[⟨256,.other,false,none⟩,⟨256,.ws,false,none⟩,⟨256,.lf,false,some ⟨0,[.setEnt .newline],some 3,true⟩⟩,⟨256,.vt,false,none⟩,⟨256,.ff,false,none⟩,⟨256,.cr,false,none⟩,⟨256,.cr,true,none⟩]⟩,⟨[13,17],some 3,[],[⟨256,.other,false,none⟩,⟨256,.ws,false,none⟩,⟨256,.lf,false,some ⟨0,[.setEnt .newline],some 3,true⟩⟩,⟨256,.vt,false,none⟩,⟨256,.ff,false,none⟩,⟨256,.cr,false,none⟩,⟨256,.cr,true,none⟩]⟩,⟨[8],none,[],[⟨256,.other,false,some ⟨8,[],none,false⟩⟩,⟨256,.ws,false,some ⟨8,[],none,false⟩⟩,⟨256,.lf,false,none⟩,⟨256,.vt,false,some ⟨8,[],none,false⟩⟩,⟨256,.ff,false,none⟩,⟨256,.cr,false,none⟩,⟨256,.cr,true,none⟩,⟨256,.other,false,some ⟨0,[],some 2,true⟩⟩,⟨256,.other,false,some ⟨9,[],none,false⟩⟩]⟩,⟨[1],some 1,[],[⟨256,.other,false,some ⟨10,[],some 1,false⟩⟩,⟨256,.ws,false,some ⟨10,[],some 1,false⟩⟩,⟨256,.lf,false,none⟩,⟨256,.vt,false,some ⟨10,[],some 1,false⟩⟩,⟨256,.ff,false,none⟩,⟨256,.cr,false,none⟩,⟨256,.cr,true,none⟩]⟩,⟨[1,8],some 1,[],[⟨256,.other,false,some ⟨11,[],some 1,false⟩⟩,⟨256,.ws,false,some ⟨11,[],some 1,false⟩⟩,⟨256,.lf,false,none⟩,⟨256,.vt,false,some ⟨11,[],some 1,false⟩⟩,⟨256,.ff,false,none⟩,⟨256,.cr,false,none⟩,⟨256,.cr,true,none⟩,⟨256,.other,false,some ⟨12,[],some 1,false⟩⟩,⟨256,.other,false,some ⟨13,[],some 1,false⟩⟩]⟩,⟨[3,18],some 4,[],[⟨256,.other,false,some ⟨14,[],none,false⟩⟩,⟨256,.ws,false,some ⟨14,[],none,false⟩⟩,⟨256,.lf,false,none⟩,⟨256,.vt,false,some ⟨14,[],none,false⟩⟩,⟨256,.ff,false,none⟩,⟨256,.cr,false,none⟩,⟨256,.cr,true,none⟩,⟨256,.other,false,some ⟨0,[],some 2,true⟩⟩,⟨256,.other,false,some ⟨15,[],none,false⟩⟩]⟩,⟨[9],none,[],[⟨256,.other,false,some ⟨8,[],none,false⟩⟩,⟨256,.ws,false,some ⟨8,[],none,false⟩⟩,⟨256,.lf,false,none⟩,⟨256,.vt,false,some ⟨8,[],none,false⟩⟩,⟨256,.ff,false,none⟩,⟨256,.cr,false,none⟩,⟨256,.cr,true,none⟩,⟨256,.other,false,some ⟨0,[],some 2,true⟩⟩,⟨256,.other,false,some ⟨9,[],none,false⟩⟩]⟩,⟨[10],none,[],[⟨256,.other,false,some ⟨16,[],none,false⟩⟩,⟨256,.ws,false,some ⟨16,[],none,false⟩⟩,⟨256,.lf,false,some ⟨16,[],none,false⟩⟩,⟨256,.vt,false,some ⟨16,[],none,false⟩⟩,⟨256,.ff,false,some ⟨16,[],none,false⟩⟩,⟨256,.cr,false,some ⟨16,[],none,false⟩⟩,⟨256,.cr,true,some ⟨16,[],none,false⟩⟩]⟩,⟨[2],some 1,[],[⟨256,.other,false,some ⟨10,[],some 1,false⟩⟩,⟨256,.ws,false,some ⟨10,[],some 1,false⟩⟩,⟨256,.lf,false,none⟩,⟨256,.vt,false,some ⟨10,[],some 1,false⟩⟩,⟨256,.ff,false,none⟩,⟨256,.cr,false,none⟩,⟨256,.cr,true,none⟩]⟩,⟨[2,9],some 1,[],[⟨256,.other,false,some ⟨11,[],some 1,false⟩⟩,⟨256,.ws,false,some ⟨11,[],some 1,false⟩⟩,⟨256,.lf,false,none⟩,⟨256,.vt,false,some ⟨11,[],some 1,false⟩⟩,⟨256,.ff,false,none⟩,⟨256,.cr,false,none⟩,⟨256,.cr,true,none⟩,⟨256,.other,false,some ⟨12,[],some 1,false⟩⟩,⟨256,.other,false,some ⟨13,[],some 1,false⟩⟩]⟩,⟨[2,12],some 1,[],[⟨256,.other,false,some ⟨10,[],some 1,false⟩⟩,⟨256,.ws,false,some ⟨10,[],some 1,false⟩⟩,⟨256,.lf,false,none⟩,⟨256,.vt,false,some ⟨10,[],some 1,false⟩⟩,⟨256,.ff,false,none⟩,⟨256,.cr,false,none⟩,⟨256,.cr,true,none⟩]⟩,⟨[2,10],some 1,[],[⟨256,.other,false,some ⟨17,[],some 1,false⟩⟩,⟨256,.ws,false,some ⟨17,[],some 1,false⟩⟩,⟨256,.lf,false,some ⟨16,[],none,false⟩⟩,⟨256,.vt,false,some ⟨17,[],some 1,false⟩⟩,⟨256,.ff,false,some ⟨16,[],none,false⟩⟩,⟨256,.cr,false,some ⟨16,[],none,false⟩⟩,⟨256,.cr,true,some ⟨16,[],none,false⟩⟩]⟩,⟨[4],none,[],[⟨256,.other,false,some ⟨14,[],none,false⟩⟩,⟨256,.ws,false,some ⟨14,[],none,false⟩⟩,⟨256,.lf,false,none⟩,⟨256,.vt,false,some ⟨14,[],none,false⟩⟩,⟨256,.ff,false,none⟩,⟨256,.cr,false,none⟩,⟨256,.cr,true,none⟩,⟨256,.other,false,some ⟨0,[],some 2,true⟩⟩,⟨256,.other,false,some ⟨15,[],none,false⟩⟩]⟩,⟨[5],none,[],[⟨256,.other,false,some ⟨18,[],none,false⟩⟩,⟨256,.ws,false,some ⟨18,[],none,false⟩⟩,⟨256,.lf,false,some ⟨18,[],none,false⟩⟩,⟨256,.vt,false,some ⟨18,[],none,false⟩⟩,⟨256,.ff,false,some ⟨18,[],none,false⟩⟩,⟨256,.cr,false,some ⟨18,[],none,false⟩⟩,⟨256,.cr,true,some ⟨18,[],none,false⟩⟩]⟩,⟨[11],none,[],[⟨256,.other,false,some ⟨8,[],none,false⟩⟩,⟨256,.ws,false,some ⟨8,[],none,false⟩⟩,⟨256,.lf,false,none⟩,⟨256,.vt,false,some ⟨8,[],none,false⟩⟩,⟨256,.ff,false,none⟩,⟨256,.cr,false,none⟩,⟨256,.cr,true,none⟩,⟨256,.other,false,some ⟨0,[],some 2,true⟩⟩,⟨256,.other,false,some ⟨9,[],none,false⟩⟩]⟩,⟨[2,11],some 1,[],[⟨256,.other,false,some ⟨11,[],some 1,false⟩⟩,⟨256,.ws,false,some ⟨11,[],some 1,false⟩⟩,⟨256,.lf,false,none⟩,⟨256,.vt,false,some ⟨11,[],some 1,false⟩⟩,⟨256,.ff,false,none⟩,⟨256,.cr,false,none⟩,⟨256,.cr,true,none⟩,⟨256,.other,false,some ⟨12,[],some 1,false⟩⟩,⟨256,.other,false,some ⟨13,[],some 1,false⟩⟩]⟩,⟨[6],none,[],[⟨256,.other,false,some ⟨14,[],none,false⟩⟩,⟨256,.ws,false,some ⟨14,[],none,false⟩⟩,⟨256,.lf,false,none⟩,⟨256,.vt,false,some ⟨14,[],none,false⟩⟩,⟨256,.ff,false,none⟩,⟨256,.cr,false,none⟩,⟨256,.cr,true,none⟩,⟨256,.other,false,some ⟨0,[],some 2,true⟩⟩,⟨256,.other,false,some ⟨15,[],none,false⟩⟩]⟩]
theorem vim_line_rowsOk : rowsOk vim_line_nfa [] (vim_line_cs.map (·.1)) vim_line_rows = true := by decide +kernel
def vim_line_D : Dfa vim_line_M.nfa := ⟨vim_line_masks, [], vim_line_cs, vim_line_rows, vim_line_masksIn, vim_line_repOk, vim_line_rowsOk⟩

end Ohcount.Cert
