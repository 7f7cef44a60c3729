import Verif.Gram.All
import Verif.RagelCheck

/-! Generated by tools/gen_certs.py. -/

namespace Ohcount.Cert
open Ohcount.Ragel Ohcount.Gram

set_option maxRecDepth 100000

def asm_line_nfa : Nfa := ⟨[⟨0,4294967808,[],[(0,.setEnt (.own 0))],0,0⟩,⟨1,140737488355328,[],[],0,0⟩,⟨3,576460752303423488,[],[(1,.comment)],0,0⟩,⟨4,8589934592,[],[(1,.comment)],0,0⟩,⟨6,140737488355328,[],[],0,2⟩,⟨17,17179869184,[],[(6,.code)],0,0⟩,⟨22,8192,[],[(7,.setEnt .newline)],0,0⟩,⟨24,1024,[],[(7,.setEnt .newline)],0,0⟩,⟨25,4096,[],[(7,.setEnt .newline)],0,0⟩,⟨26,8192,[.crAlone],[(7,.setEnt .newline)],0,0⟩,⟨27,115792089237316195423570985008687907853269984665640564039457584007908834656767,[],[(8,.setEnt (.own 7))],0,0⟩],[[⟨0,4294967808,[],[(0,.setEnt (.own 0))],0,0⟩],[⟨2,140737488355328,[],[(1,.comment)],0,0⟩],[⟨5,115792089237316195423570985008687907853269984665640564039457584007913129626623,[],[],0,0⟩],[⟨5,115792089237316195423570985008687907853269984665640564039457584007913129626623,[],[],0,0⟩],[⟨5,115792089237316195423570985008687907853269984665640564039457584007913129626623,[],[],0,0⟩],[⟨5,115792089237316195423570985008687907853269984665640564039457584007913129626623,[],[],0,0⟩],[⟨7,4398046511104,[],[(2,.comment)],0,2⟩],[⟨8,8192,[],[],0,2⟩,⟨10,1024,[],[],0,2⟩,⟨11,4096,[],[],0,2⟩,⟨12,8192,[.crAlone],[],0,2⟩,⟨13,4294967808,[],[],0,2⟩,⟨14,115792089237316195423570985008687907853269984665640564039457584007908834658815,[],[(5,.comment)],0,2⟩,⟨15,4398046511104,[],[],0,2⟩],[⟨9,1024,[],[],0,2⟩],[⟨8,8192,[],[(3,.setEnt .internalNl),(4,.cb)],0,2⟩,⟨10,1024,[],[(3,.setEnt .internalNl),(4,.cb)],0,2⟩,⟨11,4096,[],[(3,.setEnt .internalNl),(4,.cb)],0,2⟩,⟨12,8192,[.crAlone],[(3,.setEnt .internalNl),(4,.cb)],0,2⟩,⟨13,4294967808,[],[(3,.setEnt .internalNl),(4,.cb)],0,2⟩,⟨14,115792089237316195423570985008687907853269984665640564039457584007908834658815,[],[(3,.setEnt .internalNl),(4,.cb),(5,.comment)],0,2⟩,⟨15,4398046511104,[],[(3,.setEnt .internalNl),(4,.cb)],0,2⟩],[⟨8,8192,[],[(3,.setEnt .internalNl),(4,.cb)],0,2⟩,⟨10,1024,[],[(3,.setEnt .internalNl),(4,.cb)],0,2⟩,⟨11,4096,[],[(3,.setEnt .internalNl),(4,.cb)],0,2⟩,⟨12,8192,[.crAlone],[(3,.setEnt .internalNl),(4,.cb)],0,2⟩,⟨13,4294967808,[],[(3,.setEnt .internalNl),(4,.cb)],0,2⟩,⟨14,115792089237316195423570985008687907853269984665640564039457584007908834658815,[],[(3,.setEnt .internalNl),(4,.cb),(5,.comment)],0,2⟩,⟨15,4398046511104,[],[(3,.setEnt .internalNl),(4,.cb)],0,2⟩],[⟨8,8192,[],[(3,.setEnt .internalNl),(4,.cb)],0,2⟩,⟨10,1024,[],[(3,.setEnt .internalNl),(4,.cb)],0,2⟩,⟨11,4096,[],[(3,.setEnt .internalNl),(4,.cb)],0,2⟩,⟨12,8192,[.crAlone],[(3,.setEnt .internalNl),(4,.cb)],0,2⟩,⟨13,4294967808,[],[(3,.setEnt .internalNl),(4,.cb)],0,2⟩,⟨14,115792089237316195423570985008687907853269984665640564039457584007908834658815,[],[(3,.setEnt .internalNl),(4,.cb),(5,.comment)],0,2⟩,⟨15,4398046511104,[],[(3,.setEnt .internalNl),(4,.cb)],0,2⟩],[⟨8,8192,[],[(3,.setEnt .internalNl),(4,.cb)],0,2⟩,⟨10,1024,[],[(3,.setEnt .internalNl),(4,.cb)],0,2⟩,⟨11,4096,[],[(3,.setEnt .internalNl),(4,.cb)],0,2⟩,⟨12,8192,[.crAlone],[(3,.setEnt .internalNl),(4,.cb)],0,2⟩,⟨13,4294967808,[],[(3,.setEnt .internalNl),(4,.cb)],0,2⟩,⟨14,115792089237316195423570985008687907853269984665640564039457584007908834658815,[],[(3,.setEnt .internalNl),(4,.cb),(5,.comment)],0,2⟩,⟨15,4398046511104,[],[(3,.setEnt .internalNl),(4,.cb)],0,2⟩],[⟨8,8192,[],[],0,2⟩,⟨10,1024,[],[],0,2⟩,⟨11,4096,[],[],0,2⟩,⟨12,8192,[.crAlone],[],0,2⟩,⟨13,4294967808,[],[],0,2⟩,⟨14,115792089237316195423570985008687907853269984665640564039457584007908834658815,[],[(5,.comment)],0,2⟩,⟨15,4398046511104,[],[],0,2⟩],[⟨8,8192,[],[],0,2⟩,⟨10,1024,[],[],0,2⟩,⟨11,4096,[],[],0,2⟩,⟨12,8192,[.crAlone],[],0,2⟩,⟨13,4294967808,[],[],0,2⟩,⟨14,115792089237316195423570985008687907853269984665640564039457584007908834658815,[],[(5,.comment)],0,2⟩,⟨15,4398046511104,[],[],0,2⟩],[⟨16,140737488355328,[],[],2,0⟩],[],[⟨18,115792089237316195423570985008687907853269984665635612279300442486796353260543,[],[],0,0⟩,⟨19,4951760157141521099596496896,[],[],0,0⟩,⟨21,17179869184,[],[],0,0⟩],[⟨18,115792089237316195423570985008687907853269984665635612279300442486796353260543,[],[],0,0⟩,⟨19,4951760157141521099596496896,[],[],0,0⟩,⟨21,17179869184,[],[],0,0⟩],[⟨20,115792089237316195423570985008687907853269984665640564039457584007913129626623,[],[],0,0⟩],[⟨18,115792089237316195423570985008687907853269984665635612279300442486796353260543,[],[],0,0⟩,⟨19,4951760157141521099596496896,[],[],0,0⟩,⟨21,17179869184,[],[],0,0⟩],[],[⟨23,1024,[],[(7,.setEnt .newline)],0,0⟩],[],[],[],[],[]],[some (0,[]),none,some (1,[]),some (1,[]),some (1,[]),some (1,[]),none,none,none,none,none,none,none,none,none,none,some (1,[]),none,none,none,none,some (2,[]),none,some (3,[]),some (3,[]),some (3,[]),some (3,[]),some (4,[])],[1,6,7,8,9]⟩
theorem asm_line_nfa_eq : Assembler.asm_line.nfa = asm_line_nfa := by decide +kernel
/-- The machine of `Assembler.asm_line`, with its automaton as a literal. -/
def asm_line_M : Machine := ⟨asm_line_nfa, Assembler.asm_line.ends, Assembler.asm_line.sw⟩
theorem asm_line_M_eq : Assembler.asm_line.machine = asm_line_M := by
  unfold Scanner.machine asm_line_M; rw [asm_line_nfa_eq]
def asm_line_masks : List Nat := [4294967808,140737488355328,576460752303423488,8589934592,17179869184,8192,1024,4096,115792089237316195423570985008687907853269984665640564039457584007908834656767,115792089237316195423570985008687907853269984665640564039457584007913129626623,4398046511104,115792089237316195423570985008687907853269984665640564039457584007908834658815,115792089237316195423570985008687907853269984665635612279300442486796353260543,4951760157141521099596496896]
def asm_line_cs : List (Nat × Nat) := [(0,115792089237316195423570985008687907853269984665635612279299865880895630066175),(9,4294967808),(10,1024),(11,2048),(12,4096),(13,8192),(33,8589934592),(34,17179869184),(42,4398046511104),(47,140737488355328),(59,576460752303423488),(92,4951760157141521099596496896)]
theorem asm_line_masksIn : masksIn asm_line_nfa asm_line_masks = true := by decide +kernel
theorem asm_line_repOk : repOk asm_line_masks asm_line_cs = true := by decide +kernel
def asm_line_rows : List Row := [⟨[],none,[],[⟨256,.other,false,some ⟨0,[.setEnt (.own 7)],some 4,true⟩⟩,⟨256,.ws,false,some ⟨1,[.setEnt (.own 0)],some 0,false⟩⟩,⟨256,.lf,false,some ⟨0,[.setEnt .newline],some 3,true⟩⟩,⟨256,.vt,false,none⟩,⟨256,.ff,false,some ⟨0,[.setEnt .newline],some 3,true⟩⟩,⟨256,.cr,false,some ⟨2,[.setEnt .newline],none,false⟩⟩,⟨256,.cr,true,some ⟨3,[.setEnt .newline],some 3,false⟩⟩,⟨256,.other,false,some ⟨4,[.comment,.setEnt (.own 7)],some 1,false⟩⟩,⟨256,.other,false,some ⟨5,[.code,.setEnt (.own 7)],some 4,false⟩⟩,⟨256,.other,false,some ⟨6,[.setEnt (.own 7)],some 4,false⟩⟩,⟨256,.other,false,some ⟨7,[.comment,.setEnt (.own 7)],some 1,false⟩⟩]⟩,⟨[0],some 0,[],[⟨256,.other,false,none⟩,⟨256,.ws,false,some ⟨1,[.setEnt (.own 0)],some 0,false⟩⟩,⟨256,.lf,false,none⟩,⟨256,.vt,false,none⟩,⟨256,.ff,false,none⟩,⟨256,.cr,false,none⟩,⟨256,.cr,true,none⟩]⟩,⟨[22],none,[],[⟨256,.other,false,none⟩,⟨256,.ws,false,none⟩,⟨256,.lf,false,some ⟨0,[.setEnt .newline],some 3,true⟩⟩,⟨256,.vt,false,none⟩,⟨256,.ff,false,none⟩,⟨256,.cr,false,none⟩,⟨256,.cr,true,none⟩]⟩,⟨[22,26],some 3,[],[⟨256,.other,false,none⟩,⟨256,.ws,false,none⟩,⟨256,.lf,false,some ⟨0,[.setEnt .newline],some 3,true⟩⟩,⟨256,.vt,false,none⟩,⟨256,.ff,false,none⟩,⟨256,.cr,false,none⟩,⟨256,.cr,true,none⟩]⟩,⟨[4,27],some 1,[],[⟨256,.other,false,some ⟨8,[],some 1,false⟩⟩,⟨256,.ws,false,some ⟨8,[],some 1,false⟩⟩,⟨256,.lf,false,none⟩,⟨256,.vt,false,some ⟨8,[],some 1,false⟩⟩,⟨256,.ff,false,none⟩,⟨256,.cr,false,none⟩,⟨256,.cr,true,none⟩]⟩,⟨[17,27],some 4,[],[⟨256,.other,false,some ⟨9,[],none,false⟩⟩,⟨256,.ws,false,some ⟨9,[],none,false⟩⟩,⟨256,.lf,false,none⟩,⟨256,.vt,false,some ⟨9,[],none,false⟩⟩,⟨256,.ff,false,none⟩,⟨256,.cr,false,none⟩,⟨256,.cr,true,none⟩,⟨256,.other,false,some ⟨0,[],some 2,true⟩⟩,⟨256,.other,false,some ⟨10,[],none,false⟩⟩]⟩,⟨[1,6,27],some 4,[],[⟨256,.other,false,none⟩,⟨256,.ws,false,none⟩,⟨256,.lf,false,none⟩,⟨256,.vt,false,none⟩,⟨256,.ff,false,none⟩,⟨256,.cr,false,none⟩,⟨256,.cr,true,none⟩,⟨256,.other,false,some ⟨11,[.comment],none,false⟩⟩,⟨256,.other,false,some ⟨12,[.comment],some 1,false⟩⟩]⟩,⟨[3,27],some 1,[],[⟨256,.other,false,some ⟨8,[],some 1,false⟩⟩,⟨256,.ws,false,some ⟨8,[],some 1,false⟩⟩,⟨256,.lf,false,none⟩,⟨256,.vt,false,some ⟨8,[],some 1,false⟩⟩,⟨256,.ff,false,none⟩,⟨256,.cr,false,none⟩,⟨256,.cr,true,none⟩]⟩,⟨[5],some 1,[],[⟨256,.other,false,some ⟨8,[],some 1,false⟩⟩,⟨256,.ws,false,some ⟨8,[],some 1,false⟩⟩,⟨256,.lf,false,none⟩,⟨256,.vt,false,some ⟨8,[],some 1,false⟩⟩,⟨256,.ff,false,none⟩,⟨256,.cr,false,none⟩,⟨256,.cr,true,none⟩]⟩,⟨[18],none,[],[⟨256,.other,false,some ⟨9,[],none,false⟩⟩,⟨256,.ws,false,some ⟨9,[],none,false⟩⟩,⟨256,.lf,false,none⟩,⟨256,.vt,false,some ⟨9,[],none,false⟩⟩,⟨256,.ff,false,none⟩,⟨256,.cr,false,none⟩,⟨256,.cr,true,none⟩,⟨256,.other,false,some ⟨0,[],some 2,true⟩⟩,⟨256,.other,false,some ⟨10,[],none,false⟩⟩]⟩,⟨[19],none,[],[⟨256,.other,false,some ⟨13,[],none,false⟩⟩,⟨256,.ws,false,some ⟨13,[],none,false⟩⟩,⟨256,.lf,false,none⟩,⟨256,.vt,false,some ⟨13,[],none,false⟩⟩,⟨256,.ff,false,none⟩,⟨256,.cr,false,none⟩,⟨256,.cr,true,none⟩]⟩,⟨[7],none,[],[⟨256,.other,false,some ⟨14,[.comment],none,false⟩⟩,⟨256,.ws,false,some ⟨15,[],none,false⟩⟩,⟨256,.lf,false,some ⟨16,[],none,false⟩⟩,⟨256,.vt,false,some ⟨14,[.comment],none,false⟩⟩,⟨256,.ff,false,some ⟨17,[],none,false⟩⟩,⟨256,.cr,false,some ⟨18,[],none,false⟩⟩,⟨256,.cr,true,some ⟨19,[],none,false⟩⟩,⟨256,.other,false,some ⟨20,[.comment],none,false⟩⟩]⟩,⟨[2],some 1,[],[⟨256,.other,false,some ⟨8,[],some 1,false⟩⟩,⟨256,.ws,false,some ⟨8,[],some 1,false⟩⟩,⟨256,.lf,false,none⟩,⟨256,.vt,false,some ⟨8,[],some 1,false⟩⟩,⟨256,.ff,false,none⟩,⟨256,.cr,false,none⟩,⟨256,.cr,true,none⟩]⟩,⟨[20],none,[],[⟨256,.other,false,some ⟨9,[],none,false⟩⟩,⟨256,.ws,false,some ⟨9,[],none,false⟩⟩,⟨256,.lf,false,none⟩,⟨256,.vt,false,some ⟨9,[],none,false⟩⟩,⟨256,.ff,false,none⟩,⟨256,.cr,false,none⟩,⟨256,.cr,true,none⟩,⟨256,.other,false,some ⟨0,[],some 2,true⟩⟩,⟨256,.other,false,some ⟨10,[],none,false⟩⟩]⟩,⟨[14],none,[],[⟨256,.other,false,some ⟨14,[.comment],none,false⟩⟩,⟨256,.ws,false,some ⟨15,[],none,false⟩⟩,⟨256,.lf,false,some ⟨16,[],none,false⟩⟩,⟨256,.vt,false,some ⟨14,[.comment],none,false⟩⟩,⟨256,.ff,false,some ⟨17,[],none,false⟩⟩,⟨256,.cr,false,some ⟨18,[],none,false⟩⟩,⟨256,.cr,true,some ⟨19,[],none,false⟩⟩,⟨256,.other,false,some ⟨20,[.comment],none,false⟩⟩]⟩,⟨[13],none,[],[⟨256,.other,false,some ⟨14,[.comment],none,false⟩⟩,⟨256,.ws,false,some ⟨15,[],none,false⟩⟩,⟨256,.lf,false,some ⟨16,[],none,false⟩⟩,⟨256,.vt,false,some ⟨14,[.comment],none,false⟩⟩,⟨256,.ff,false,some ⟨17,[],none,false⟩⟩,⟨256,.cr,false,some ⟨18,[],none,false⟩⟩,⟨256,.cr,true,some ⟨19,[],none,false⟩⟩,⟨256,.other,false,some ⟨20,[.comment],none,false⟩⟩]⟩,⟨[10],none,[],[⟨256,.other,false,some ⟨14,[.setEnt .internalNl,.cb,.comment],none,false⟩⟩,⟨256,.ws,false,some ⟨15,[.setEnt .internalNl,.cb],none,false⟩⟩,⟨256,.lf,false,some ⟨16,[.setEnt .internalNl,.cb],none,false⟩⟩,⟨256,.vt,false,some ⟨14,[.setEnt .internalNl,.cb,.comment],none,false⟩⟩,⟨256,.ff,false,some ⟨17,[.setEnt .internalNl,.cb],none,false⟩⟩,⟨256,.cr,false,some ⟨18,[.setEnt .internalNl,.cb],none,false⟩⟩,⟨256,.cr,true,some ⟨19,[.setEnt .internalNl,.cb],none,false⟩⟩,⟨256,.other,false,some ⟨20,[.setEnt .internalNl,.cb,.comment],none,false⟩⟩]⟩,⟨[11],none,[],[⟨256,.other,false,some ⟨14,[.setEnt .internalNl,.cb,.comment],none,false⟩⟩,⟨256,.ws,false,some ⟨15,[.setEnt .internalNl,.cb],none,false⟩⟩,⟨256,.lf,false,some ⟨16,[.setEnt .internalNl,.cb],none,false⟩⟩,⟨256,.vt,false,some ⟨14,[.setEnt .internalNl,.cb,.comment],none,false⟩⟩,⟨256,.ff,false,some ⟨17,[.setEnt .internalNl,.cb],none,false⟩⟩,⟨256,.cr,false,some ⟨18,[.setEnt .internalNl,.cb],none,false⟩⟩,⟨256,.cr,true,some ⟨19,[.setEnt .internalNl,.cb],none,false⟩⟩,⟨256,.other,false,some ⟨20,[.setEnt .internalNl,.cb,.comment],none,false⟩⟩]⟩,⟨[8],none,[],[⟨256,.other,false,none⟩,⟨256,.ws,false,none⟩,⟨256,.lf,false,some ⟨21,[],none,false⟩⟩,⟨256,.vt,false,none⟩,⟨256,.ff,false,none⟩,⟨256,.cr,false,none⟩,⟨256,.cr,true,none⟩]⟩,⟨[8,12],none,[],[⟨256,.other,false,some ⟨14,[.setEnt .internalNl,.cb,.comment],none,false⟩⟩,⟨256,.ws,false,some ⟨15,[.setEnt .internalNl,.cb],none,false⟩⟩,⟨256,.lf,false,some ⟨22,[.setEnt .internalNl,.cb],none,false⟩⟩,⟨256,.vt,false,some ⟨14,[.setEnt .internalNl,.cb,.comment],none,false⟩⟩,⟨256,.ff,false,some ⟨17,[.setEnt .internalNl,.cb],none,false⟩⟩,⟨256,.cr,false,some ⟨18,[.setEnt .internalNl,.cb],none,false⟩⟩,⟨256,.cr,true,some ⟨19,[.setEnt .internalNl,.cb],none,false⟩⟩,⟨256,.other,false,some ⟨20,[.setEnt .internalNl,.cb,.comment],none,false⟩⟩]⟩,⟨[14,15],none,[],[⟨256,.other,false,some ⟨14,[.comment],none,false⟩⟩,⟨256,.ws,false,some ⟨15,[],none,false⟩⟩,⟨256,.lf,false,some ⟨16,[],none,false⟩⟩,⟨256,.vt,false,some ⟨14,[.comment],none,false⟩⟩,⟨256,.ff,false,some ⟨17,[],none,false⟩⟩,⟨256,.cr,false,some ⟨18,[],none,false⟩⟩,⟨256,.cr,true,some ⟨19,[],none,false⟩⟩,⟨256,.other,false,some ⟨20,[.comment],none,false⟩⟩,⟨256,.other,false,some ⟨0,[],some 1,true⟩⟩]⟩,⟨[9],none,[],[⟨256,.other,false,some ⟨14,[.setEnt .internalNl,.cb,.comment],none,false⟩⟩,⟨256,.ws,false,some ⟨15,[.setEnt .internalNl,.cb],none,false⟩⟩,⟨256,.lf,false,some ⟨16,[.setEnt .internalNl,.cb],none,false⟩⟩,⟨256,.vt,false,some ⟨14,[.setEnt .internalNl,.cb,.comment],none,false⟩⟩,⟨256,.ff,false,some ⟨17,[.setEnt .internalNl,.cb],none,false⟩⟩,⟨256,.cr,false,some ⟨18,[.setEnt .internalNl,.cb],none,false⟩⟩,⟨256,.cr,true,some ⟨19,[.setEnt .internalNl,.cb],none,false⟩⟩,⟨256,.other,false,some ⟨20,[.setEnt .internalNl,.cb,.comment],none,false⟩⟩]⟩,⟨[9,10],none,[],[⟨256,.other,false,some ⟨14,[.setEnt .internalNl,.cb,.comment],none,false⟩⟩,⟨256,.ws,false,some ⟨15,[.setEnt .internalNl,.cb],none,false⟩⟩,⟨256,.lf,false,some ⟨16,[.setEnt .internalNl,.cb],none,false⟩⟩,⟨256,.vt,false,some ⟨14,[.setEnt .internalNl,.cb,.comment],none,false⟩⟩,⟨256,.ff,false,some ⟨17,[.setEnt .internalNl,.cb],none,false⟩⟩,⟨256,.cr,false,some ⟨18,[.setEnt .internalNl,.cb],none,false⟩⟩,⟨256,.cr,true,some ⟨19,[.setEnt .internalNl,.cb],none,false⟩⟩,⟨256,.other,false,some ⟨20,[.setEnt .internalNl,.cb,.comment],none,false⟩⟩]⟩]
theorem asm_line_rowsOk : rowsOk asm_line_nfa [] (asm_line_cs.map (·.1)) asm_line_rows = true := by decide +kernel
def asm_line_D : Dfa asm_line_M.nfa := ⟨asm_line_masks, [], asm_line_cs, asm_line_rows, asm_line_masksIn, asm_line_repOk, asm_line_rowsOk⟩

def awk_line_nfa : Nfa := ⟨[⟨0,4294967808,[],[(0,.setEnt (.own 0))],0,0⟩,⟨1,34359738368,[],[(1,.comment)],0,0⟩,⟨3,17179869184,[],[(2,.code)],0,0⟩,⟨8,140737488355328,[],[(3,.code)],0,0⟩,⟨13,8192,[],[(4,.setEnt .newline)],0,0⟩,⟨15,1024,[],[(4,.setEnt .newline)],0,0⟩,⟨16,4096,[],[(4,.setEnt .newline)],0,0⟩,⟨17,8192,[.crAlone],[(4,.setEnt .newline)],0,0⟩,⟨18,115792089237316195423570985008687907853269984665640564039457584007908834656767,[],[(5,.setEnt (.own 3))],0,0⟩],[[⟨0,4294967808,[],[(0,.setEnt (.own 0))],0,0⟩],[⟨2,115792089237316195423570985008687907853269984665640564039457584007913129626623,[],[],0,0⟩],[⟨2,115792089237316195423570985008687907853269984665640564039457584007913129626623,[],[],0,0⟩],[⟨4,115792089237316195423570985008687907853269984665635612279300442486796353260543,[],[],0,0⟩,⟨5,4951760157141521099596496896,[],[],0,0⟩,⟨7,17179869184,[],[],0,0⟩],[⟨4,115792089237316195423570985008687907853269984665635612279300442486796353260543,[],[],0,0⟩,⟨5,4951760157141521099596496896,[],[],0,0⟩,⟨7,17179869184,[],[],0,0⟩],[⟨6,115792089237316195423570985008687907853269984665640564039457584007913129626623,[],[],0,0⟩],[⟨4,115792089237316195423570985008687907853269984665635612279300442486796353260543,[],[],0,0⟩,⟨5,4951760157141521099596496896,[],[],0,0⟩,⟨7,17179869184,[],[],0,0⟩],[],[⟨9,115792089237316195423570985008687907853269984665635612279300442346076044774399,[],[],0,0⟩,⟨10,4951760157141521099596496896,[],[],0,0⟩,⟨12,140737488355328,[],[],0,0⟩],[⟨9,115792089237316195423570985008687907853269984665635612279300442346076044774399,[],[],0,0⟩,⟨10,4951760157141521099596496896,[],[],0,0⟩,⟨12,140737488355328,[],[],0,0⟩],[⟨11,115792089237316195423570985008687907853269984665640564039457584007913129626623,[],[],0,0⟩],[⟨9,115792089237316195423570985008687907853269984665635612279300442346076044774399,[],[],0,0⟩,⟨10,4951760157141521099596496896,[],[],0,0⟩,⟨12,140737488355328,[],[],0,0⟩],[],[⟨14,1024,[],[(4,.setEnt .newline)],0,0⟩],[],[],[],[],[]],[some (0,[]),some (1,[]),some (1,[]),none,none,none,none,some (2,[]),none,none,none,none,some (2,[]),none,some (3,[]),some (3,[]),some (3,[]),some (3,[]),some (4,[])],[1,2,4,5,6]⟩
theorem awk_line_nfa_eq : Awk.awk_line.nfa = awk_line_nfa := by decide +kernel
/-- The machine of `Awk.awk_line`, with its automaton as a literal. -/
def awk_line_M : Machine := ⟨awk_line_nfa, Awk.awk_line.ends, Awk.awk_line.sw⟩
theorem awk_line_M_eq : Awk.awk_line.machine = awk_line_M := by
  unfold Scanner.machine awk_line_M; rw [awk_line_nfa_eq]
def awk_line_masks : List Nat := [4294967808,34359738368,17179869184,140737488355328,8192,1024,4096,115792089237316195423570985008687907853269984665640564039457584007908834656767,115792089237316195423570985008687907853269984665640564039457584007913129626623,115792089237316195423570985008687907853269984665635612279300442486796353260543,4951760157141521099596496896,115792089237316195423570985008687907853269984665635612279300442346076044774399]
def awk_line_cs : List (Nat × Nat) := [(0,115792089237316195423570985008687907853269984665635612279300442346020210196991),(9,4294967808),(10,1024),(11,2048),(12,4096),(13,8192),(34,17179869184),(35,34359738368),(47,140737488355328),(92,4951760157141521099596496896)]
theorem awk_line_masksIn : masksIn awk_line_nfa awk_line_masks = true := by decide +kernel
theorem awk_line_repOk : repOk awk_line_masks awk_line_cs = true := by decide +kernel
def awk_line_rows : List Row := [⟨[],none,[],[⟨256,.other,false,some ⟨0,[.setEnt (.own 3)],some 4,true⟩⟩,⟨256,.ws,false,some ⟨1,[.setEnt (.own 0)],some 0,false⟩⟩,⟨256,.lf,false,some ⟨0,[.setEnt .newline],some 3,true⟩⟩,⟨256,.vt,false,none⟩,⟨256,.ff,false,some ⟨0,[.setEnt .newline],some 3,true⟩⟩,⟨256,.cr,false,some ⟨2,[.setEnt .newline],none,false⟩⟩,⟨256,.cr,true,some ⟨3,[.setEnt .newline],some 3,false⟩⟩,⟨256,.other,false,some ⟨4,[.code,.setEnt (.own 3)],some 4,false⟩⟩,⟨256,.other,false,some ⟨5,[.comment,.setEnt (.own 3)],some 1,false⟩⟩,⟨256,.other,false,some ⟨6,[.code,.setEnt (.own 3)],some 4,false⟩⟩]⟩,⟨[0],some 0,[],[⟨256,.other,false,none⟩,⟨256,.ws,false,some ⟨1,[.setEnt (.own 0)],some 0,false⟩⟩,⟨256,.lf,false,none⟩,⟨256,.vt,false,none⟩,⟨256,.ff,false,none⟩,⟨256,.cr,false,none⟩,⟨256,.cr,true,none⟩]⟩,⟨[13],none,[],[⟨256,.other,false,none⟩,⟨256,.ws,false,none⟩,⟨256,.lf,false,some ⟨0,[.setEnt .newline],some 3,true⟩⟩,⟨256,.vt,false,none⟩,⟨256,.ff,false,none⟩,⟨256,.cr,false,none⟩,⟨256,.cr,true,none⟩]⟩,⟨[13,17],some 3,[],[⟨256,.other,false,none⟩,⟨256,.ws,false,none⟩,⟨256,.lf,false,some ⟨0,[.setEnt .newline],some 3,true⟩⟩,⟨256,.vt,false,none⟩,⟨256,.ff,false,none⟩,⟨256,.cr,false,none⟩,⟨256,.cr,true,none⟩]⟩,⟨[3,18],some 4,[],[⟨256,.other,false,some ⟨7,[],none,false⟩⟩,⟨256,.ws,false,some ⟨7,[],none,false⟩⟩,⟨256,.lf,false,none⟩,⟨256,.vt,false,some ⟨7,[],none,false⟩⟩,⟨256,.ff,false,none⟩,⟨256,.cr,false,none⟩,⟨256,.cr,true,none⟩,⟨256,.other,false,some ⟨0,[],some 2,true⟩⟩,⟨256,.other,false,some ⟨8,[],none,false⟩⟩]⟩,⟨[1,18],some 1,[],[⟨256,.other,false,some ⟨9,[],some 1,false⟩⟩,⟨256,.ws,false,some ⟨9,[],some 1,false⟩⟩,⟨256,.lf,false,none⟩,⟨256,.vt,false,some ⟨9,[],some 1,false⟩⟩,⟨256,.ff,false,none⟩,⟨256,.cr,false,none⟩,⟨256,.cr,true,none⟩]⟩,⟨[8,18],some 4,[],[⟨256,.other,false,some ⟨10,[],none,false⟩⟩,⟨256,.ws,false,some ⟨10,[],none,false⟩⟩,⟨256,.lf,false,none⟩,⟨256,.vt,false,some ⟨10,[],none,false⟩⟩,⟨256,.ff,false,none⟩,⟨256,.cr,false,none⟩,⟨256,.cr,true,none⟩,⟨256,.other,false,some ⟨0,[],some 2,true⟩⟩,⟨256,.other,false,some ⟨11,[],none,false⟩⟩]⟩,⟨[4],none,[],[⟨256,.other,false,some ⟨7,[],none,false⟩⟩,⟨256,.ws,false,some ⟨7,[],none,false⟩⟩,⟨256,.lf,false,none⟩,⟨256,.vt,false,some ⟨7,[],none,false⟩⟩,⟨256,.ff,false,none⟩,⟨256,.cr,false,none⟩,⟨256,.cr,true,none⟩,⟨256,.other,false,some ⟨0,[],some 2,true⟩⟩,⟨256,.other,false,some ⟨8,[],none,false⟩⟩]⟩,⟨[5],none,[],[⟨256,.other,false,some ⟨12,[],none,false⟩⟩,⟨256,.ws,false,some ⟨12,[],none,false⟩⟩,⟨256,.lf,false,none⟩,⟨256,.vt,false,some ⟨12,[],none,false⟩⟩,⟨256,.ff,false,none⟩,⟨256,.cr,false,none⟩,⟨256,.cr,true,none⟩]⟩,⟨[2],some 1,[],[⟨256,.other,false,some ⟨9,[],some 1,false⟩⟩,⟨256,.ws,false,some ⟨9,[],some 1,false⟩⟩,⟨256,.lf,false,none⟩,⟨256,.vt,false,some ⟨9,[],some 1,false⟩⟩,⟨256,.ff,false,none⟩,⟨256,.cr,false,none⟩,⟨256,.cr,true,none⟩]⟩,⟨[9],none,[],[⟨256,.other,false,some ⟨10,[],none,false⟩⟩,⟨256,.ws,false,some ⟨10,[],none,false⟩⟩,⟨256,.lf,false,none⟩,⟨256,.vt,false,some ⟨10,[],none,false⟩⟩,⟨256,.ff,false,none⟩,⟨256,.cr,false,none⟩,⟨256,.cr,true,none⟩,⟨256,.other,false,some ⟨0,[],some 2,true⟩⟩,⟨256,.other,false,some ⟨11,[],none,false⟩⟩]⟩,⟨[10],none,[],[⟨256,.other,false,some ⟨13,[],none,false⟩⟩,⟨256,.ws,false,some ⟨13,[],none,false⟩⟩,⟨256,.lf,false,none⟩,⟨256,.vt,false,some ⟨13,[],none,false⟩⟩,⟨256,.ff,false,none⟩,⟨256,.cr,false,none⟩,⟨256,.cr,true,none⟩]⟩,⟨[6],none,[],[⟨256,.other,false,some ⟨7,[],none,false⟩⟩,⟨256,.ws,false,some ⟨7,[],none,false⟩⟩,⟨256,.lf,false,none⟩,⟨256,.vt,false,some ⟨7,[],none,false⟩⟩,⟨256,.ff,false,none⟩,⟨256,.cr,false,none⟩,⟨256,.cr,true,none⟩,⟨256,.other,false,some ⟨0,[],some 2,true⟩⟩,⟨256,.other,false,some ⟨8,[],none,false⟩⟩]⟩,⟨[11],none,[],[⟨256,.other,false,some ⟨10,[],none,false⟩⟩,⟨256,.ws,false,some ⟨10,[],none,false⟩⟩,⟨256,.lf,false,none⟩,⟨256,.vt,false,some ⟨10,[],none,false⟩⟩,⟨256,.ff,false,none⟩,⟨256,.cr,false,none⟩,⟨256,.cr,true,none⟩,⟨256,.other,false,some ⟨0,[],some 2,true⟩⟩,⟨256,.other,false,some ⟨11,[],none,false⟩⟩]⟩]
theorem awk_line_rowsOk : rowsOk awk_line_nfa [] (awk_line_cs.map (·.1)) awk_line_rows = true := by decide +kernel
def awk_line_D : Dfa awk_line_M.nfa := ⟨awk_line_masks, [], awk_line_cs, awk_line_rows, awk_line_masksIn, awk_line_repOk, awk_line_rowsOk⟩

def c_line_nfa : Nfa := ⟨[⟨0,4294967808,[],[(0,.setEnt (.own 0))],0,0⟩,⟨1,140737488355328,[],[],0,0⟩,⟨11,140737488355328,[],[],0,2⟩,⟨22,549755813888,[],[(9,.code)],0,0⟩,⟨34,17179869184,[],[(14,.code)],0,0⟩,⟨46,8192,[],[(19,.setEnt .newline)],0,0⟩,⟨48,1024,[],[(19,.setEnt .newline)],0,0⟩,⟨49,4096,[],[(19,.setEnt .newline)],0,0⟩,⟨50,8192,[.crAlone],[(19,.setEnt .newline)],0,0⟩,⟨51,115792089237316195423570985008687907853269984665640564039457584007908834656767,[],[(20,.setEnt (.own 8))],0,0⟩],[[⟨0,4294967808,[],[(0,.setEnt (.own 0))],0,0⟩],[⟨2,140737488355328,[],[(1,.comment)],0,0⟩],[⟨3,4951760157141521099596496896,[],[],0,0⟩,⟨9,4294967808,[],[],0,0⟩,⟨10,115792089237316195423570985008687907853269984665640564039457584007908834658815,[],[(4,.comment)],0,0⟩],[⟨4,8192,[],[],0,0⟩,⟨6,1024,[],[],0,0⟩,⟨7,4096,[],[],0,0⟩,⟨8,8192,[.crAlone],[],0,0⟩],[⟨5,1024,[],[],0,0⟩],[⟨3,4951760157141521099596496896,[],[(2,.setEnt .internalNl),(3,.cb)],0,0⟩,⟨9,4294967808,[],[(2,.setEnt .internalNl),(3,.cb)],0,0⟩,⟨10,115792089237316195423570985008687907853269984665640564039457584007908834658815,[],[(2,.setEnt .internalNl),(3,.cb),(4,.comment)],0,0⟩],[⟨3,4951760157141521099596496896,[],[(2,.setEnt .internalNl),(3,.cb)],0,0⟩,⟨9,4294967808,[],[(2,.setEnt .internalNl),(3,.cb)],0,0⟩,⟨10,115792089237316195423570985008687907853269984665640564039457584007908834658815,[],[(2,.setEnt .internalNl),(3,.cb),(4,.comment)],0,0⟩],[⟨3,4951760157141521099596496896,[],[(2,.setEnt .internalNl),(3,.cb)],0,0⟩,⟨9,4294967808,[],[(2,.setEnt .internalNl),(3,.cb)],0,0⟩,⟨10,115792089237316195423570985008687907853269984665640564039457584007908834658815,[],[(2,.setEnt .internalNl),(3,.cb),(4,.comment)],0,0⟩],[⟨3,4951760157141521099596496896,[],[(2,.setEnt .internalNl),(3,.cb)],0,0⟩,⟨9,4294967808,[],[(2,.setEnt .internalNl),(3,.cb)],0,0⟩,⟨10,115792089237316195423570985008687907853269984665640564039457584007908834658815,[],[(2,.setEnt .internalNl),(3,.cb),(4,.comment)],0,0⟩],[⟨3,4951760157141521099596496896,[],[],0,0⟩,⟨9,4294967808,[],[],0,0⟩,⟨10,115792089237316195423570985008687907853269984665640564039457584007908834658815,[],[(4,.comment)],0,0⟩],[⟨3,4951760157141521099596496896,[],[],0,0⟩,⟨9,4294967808,[],[],0,0⟩,⟨10,115792089237316195423570985008687907853269984665640564039457584007908834658815,[],[(4,.comment)],0,0⟩],[⟨12,4398046511104,[],[(5,.comment)],0,2⟩],[⟨13,8192,[],[],0,2⟩,⟨15,1024,[],[],0,2⟩,⟨16,4096,[],[],0,2⟩,⟨17,8192,[.crAlone],[],0,2⟩,⟨18,4294967808,[],[],0,2⟩,⟨19,115792089237316195423570985008687907853269984665640564039457584007908834658815,[],[(8,.comment)],0,2⟩,⟨20,4398046511104,[],[],0,2⟩],[⟨14,1024,[],[],0,2⟩],[⟨13,8192,[],[(6,.setEnt .internalNl),(7,.cb)],0,2⟩,⟨15,1024,[],[(6,.setEnt .internalNl),(7,.cb)],0,2⟩,⟨16,4096,[],[(6,.setEnt .internalNl),(7,.cb)],0,2⟩,⟨17,8192,[.crAlone],[(6,.setEnt .internalNl),(7,.cb)],0,2⟩,⟨18,4294967808,[],[(6,.setEnt .internalNl),(7,.cb)],0,2⟩,⟨19,115792089237316195423570985008687907853269984665640564039457584007908834658815,[],[(6,.setEnt .internalNl),(7,.cb),(8,.comment)],0,2⟩,⟨20,4398046511104,[],[(6,.setEnt .internalNl),(7,.cb)],0,2⟩],[⟨13,8192,[],[(6,.setEnt .internalNl),(7,.cb)],0,2⟩,⟨15,1024,[],[(6,.setEnt .internalNl),(7,.cb)],0,2⟩,⟨16,4096,[],[(6,.setEnt .internalNl),(7,.cb)],0,2⟩,⟨17,8192,[.crAlone],[(6,.setEnt .internalNl),(7,.cb)],0,2⟩,⟨18,4294967808,[],[(6,.setEnt .internalNl),(7,.cb)],0,2⟩,⟨19,115792089237316195423570985008687907853269984665640564039457584007908834658815,[],[(6,.setEnt .internalNl),(7,.cb),(8,.comment)],0,2⟩,⟨20,4398046511104,[],[(6,.setEnt .internalNl),(7,.cb)],0,2⟩],[⟨13,8192,[],[(6,.setEnt .internalNl),(7,.cb)],0,2⟩,⟨15,1024,[],[(6,.setEnt .internalNl),(7,.cb)],0,2⟩,⟨16,4096,[],[(6,.setEnt .internalNl),(7,.cb)],0,2⟩,⟨17,8192,[.crAlone],[(6,.setEnt .internalNl),(7,.cb)],0,2⟩,⟨18,4294967808,[],[(6,.setEnt .internalNl),(7,.cb)],0,2⟩,⟨19,115792089237316195423570985008687907853269984665640564039457584007908834658815,[],[(6,.setEnt .internalNl),(7,.cb),(8,.comment)],0,2⟩,⟨20,4398046511104,[],[(6,.setEnt .internalNl),(7,.cb)],0,2⟩],[⟨13,8192,[],[(6,.setEnt .internalNl),(7,.cb)],0,2⟩,⟨15,1024,[],[(6,.setEnt .internalNl),(7,.cb)],0,2⟩,⟨16,4096,[],[(6,.setEnt .internalNl),(7,.cb)],0,2⟩,⟨17,8192,[.crAlone],[(6,.setEnt .internalNl),(7,.cb)],0,2⟩,⟨18,4294967808,[],[(6,.setEnt .internalNl),(7,.cb)],0,2⟩,⟨19,115792089237316195423570985008687907853269984665640564039457584007908834658815,[],[(6,.setEnt .internalNl),(7,.cb),(8,.comment)],0,2⟩,⟨20,4398046511104,[],[(6,.setEnt .internalNl),(7,.cb)],0,2⟩],[⟨13,8192,[],[],0,2⟩,⟨15,1024,[],[],0,2⟩,⟨16,4096,[],[],0,2⟩,⟨17,8192,[.crAlone],[],0,2⟩,⟨18,4294967808,[],[],0,2⟩,⟨19,115792089237316195423570985008687907853269984665640564039457584007908834658815,[],[(8,.comment)],0,2⟩,⟨20,4398046511104,[],[],0,2⟩],[⟨13,8192,[],[],0,2⟩,⟨15,1024,[],[],0,2⟩,⟨16,4096,[],[],0,2⟩,⟨17,8192,[.crAlone],[],0,2⟩,⟨18,4294967808,[],[],0,2⟩,⟨19,115792089237316195423570985008687907853269984665640564039457584007908834658815,[],[(8,.comment)],0,2⟩,⟨20,4398046511104,[],[],0,2⟩],[⟨21,140737488355328,[],[],2,0⟩],[],[⟨23,4951760157141521099596496896,[],[],0,0⟩,⟨29,4294967808,[],[],0,0⟩,⟨30,115792089237316195423570985008687907853269984665635612279300442486259482361343,[],[(12,.code)],0,0⟩,⟨31,4951760157141521099596496896,[],[],0,0⟩,⟨33,549755813888,[],[],0,0⟩],[⟨24,8192,[],[],0,0⟩,⟨26,1024,[],[],0,0⟩,⟨27,4096,[],[],0,0⟩,⟨28,8192,[.crAlone],[],0,0⟩],[⟨25,1024,[],[],0,0⟩],[⟨23,4951760157141521099596496896,[],[(10,.setEnt .internalNl),(11,.cb)],0,0⟩,⟨29,4294967808,[],[(10,.setEnt .internalNl),(11,.cb)],0,0⟩,⟨30,115792089237316195423570985008687907853269984665635612279300442486259482361343,[],[(10,.setEnt .internalNl),(11,.cb),(12,.code)],0,0⟩,⟨31,4951760157141521099596496896,[],[(10,.setEnt .internalNl),(11,.cb)],0,0⟩,⟨33,549755813888,[],[(10,.setEnt .internalNl),(11,.cb)],0,0⟩],[⟨23,4951760157141521099596496896,[],[(10,.setEnt .internalNl),(11,.cb)],0,0⟩,⟨29,4294967808,[],[(10,.setEnt .internalNl),(11,.cb)],0,0⟩,⟨30,115792089237316195423570985008687907853269984665635612279300442486259482361343,[],[(10,.setEnt .internalNl),(11,.cb),(12,.code)],0,0⟩,⟨31,4951760157141521099596496896,[],[(10,.setEnt .internalNl),(11,.cb)],0,0⟩,⟨33,549755813888,[],[(10,.setEnt .internalNl),(11,.cb)],0,0⟩],[⟨23,4951760157141521099596496896,[],[(10,.setEnt .internalNl),(11,.cb)],0,0⟩,⟨29,4294967808,[],[(10,.setEnt .internalNl),(11,.cb)],0,0⟩,⟨30,115792089237316195423570985008687907853269984665635612279300442486259482361343,[],[(10,.setEnt .internalNl),(11,.cb),(12,.code)],0,0⟩,⟨31,4951760157141521099596496896,[],[(10,.setEnt .internalNl),(11,.cb)],0,0⟩,⟨33,549755813888,[],[(10,.setEnt .internalNl),(11,.cb)],0,0⟩],[⟨23,4951760157141521099596496896,[],[(10,.setEnt .internalNl),(11,.cb)],0,0⟩,⟨29,4294967808,[],[(10,.setEnt .internalNl),(11,.cb)],0,0⟩,⟨30,115792089237316195423570985008687907853269984665635612279300442486259482361343,[],[(10,.setEnt .internalNl),(11,.cb),(12,.code)],0,0⟩,⟨31,4951760157141521099596496896,[],[(10,.setEnt .internalNl),(11,.cb)],0,0⟩,⟨33,549755813888,[],[(10,.setEnt .internalNl),(11,.cb)],0,0⟩],[⟨23,4951760157141521099596496896,[],[],0,0⟩,⟨29,4294967808,[],[],0,0⟩,⟨30,115792089237316195423570985008687907853269984665635612279300442486259482361343,[],[(12,.code)],0,0⟩,⟨31,4951760157141521099596496896,[],[],0,0⟩,⟨33,549755813888,[],[],0,0⟩],[⟨23,4951760157141521099596496896,[],[],0,0⟩,⟨29,4294967808,[],[],0,0⟩,⟨30,115792089237316195423570985008687907853269984665635612279300442486259482361343,[],[(12,.code)],0,0⟩,⟨31,4951760157141521099596496896,[],[],0,0⟩,⟨33,549755813888,[],[],0,0⟩],[⟨32,115792089237316195423570985008687907853269984665640564039457584007913129626623,[],[(13,.code)],0,0⟩],[⟨23,4951760157141521099596496896,[],[],0,0⟩,⟨29,4294967808,[],[],0,0⟩,⟨30,115792089237316195423570985008687907853269984665635612279300442486259482361343,[],[(12,.code)],0,0⟩,⟨31,4951760157141521099596496896,[],[],0,0⟩,⟨33,549755813888,[],[],0,0⟩],[],[⟨35,4951760157141521099596496896,[],[],0,0⟩,⟨41,4294967808,[],[],0,0⟩,⟨42,115792089237316195423570985008687907853269984665635612279300442486792058306047,[],[(17,.code)],0,0⟩,⟨43,4951760157141521099596496896,[],[],0,0⟩,⟨45,17179869184,[],[],0,0⟩],[⟨36,8192,[],[],0,0⟩,⟨38,1024,[],[],0,0⟩,⟨39,4096,[],[],0,0⟩,⟨40,8192,[.crAlone],[],0,0⟩],[⟨37,1024,[],[],0,0⟩],[⟨35,4951760157141521099596496896,[],[(15,.setEnt .internalNl),(16,.cb)],0,0⟩,⟨41,4294967808,[],[(15,.setEnt .internalNl),(16,.cb)],0,0⟩,⟨42,115792089237316195423570985008687907853269984665635612279300442486792058306047,[],[(15,.setEnt .internalNl),(16,.cb),(17,.code)],0,0⟩,⟨43,4951760157141521099596496896,[],[(15,.setEnt .internalNl),(16,.cb)],0,0⟩,⟨45,17179869184,[],[(15,.setEnt .internalNl),(16,.cb)],0,0⟩],[⟨35,4951760157141521099596496896,[],[(15,.setEnt .internalNl),(16,.cb)],0,0⟩,⟨41,4294967808,[],[(15,.setEnt .internalNl),(16,.cb)],0,0⟩,⟨42,115792089237316195423570985008687907853269984665635612279300442486792058306047,[],[(15,.setEnt .internalNl),(16,.cb),(17,.code)],0,0⟩,⟨43,4951760157141521099596496896,[],[(15,.setEnt .internalNl),(16,.cb)],0,0⟩,⟨45,17179869184,[],[(15,.setEnt .internalNl),(16,.cb)],0,0⟩],[⟨35,4951760157141521099596496896,[],[(15,.setEnt .internalNl),(16,.cb)],0,0⟩,⟨41,4294967808,[],[(15,.setEnt .internalNl),(16,.cb)],0,0⟩,⟨42,115792089237316195423570985008687907853269984665635612279300442486792058306047,[],[(15,.setEnt .internalNl),(16,.cb),(17,.code)],0,0⟩,⟨43,4951760157141521099596496896,[],[(15,.setEnt .internalNl),(16,.cb)],0,0⟩,⟨45,17179869184,[],[(15,.setEnt .internalNl),(16,.cb)],0,0⟩],[⟨35,4951760157141521099596496896,[],[(15,.setEnt .internalNl),(16,.cb)],0,0⟩,⟨41,4294967808,[],[(15,.setEnt .internalNl),(16,.cb)],0,0⟩,⟨42,115792089237316195423570985008687907853269984665635612279300442486792058306047,[],[(15,.setEnt .internalNl),(16,.cb),(17,.code)],0,0⟩,⟨43,4951760157141521099596496896,[],[(15,.setEnt .internalNl),(16,.cb)],0,0⟩,⟨45,17179869184,[],[(15,.setEnt .internalNl),(16,.cb)],0,0⟩],[⟨35,4951760157141521099596496896,[],[],0,0⟩,⟨41,4294967808,[],[],0,0⟩,⟨42,115792089237316195423570985008687907853269984665635612279300442486792058306047,[],[(17,.code)],0,0⟩,⟨43,4951760157141521099596496896,[],[],0,0⟩,⟨45,17179869184,[],[],0,0⟩],[⟨35,4951760157141521099596496896,[],[],0,0⟩,⟨41,4294967808,[],[],0,0⟩,⟨42,115792089237316195423570985008687907853269984665635612279300442486792058306047,[],[(17,.code)],0,0⟩,⟨43,4951760157141521099596496896,[],[],0,0⟩,⟨45,17179869184,[],[],0,0⟩],[⟨44,115792089237316195423570985008687907853269984665640564039457584007913129626623,[],[(18,.code)],0,0⟩],[⟨35,4951760157141521099596496896,[],[],0,0⟩,⟨41,4294967808,[],[],0,0⟩,⟨42,115792089237316195423570985008687907853269984665635612279300442486792058306047,[],[(17,.code)],0,0⟩,⟨43,4951760157141521099596496896,[],[],0,0⟩,⟨45,17179869184,[],[],0,0⟩],[],[⟨47,1024,[],[(19,.setEnt .newline)],0,0⟩],[],[],[],[],[]],[some (0,[]),none,some (1,[]),none,none,some (1,[(2,.setEnt .internalNl),(3,.cb)]),some (1,[(2,.setEnt .internalNl),(3,.cb)]),some (1,[(2,.setEnt .internalNl),(3,.cb)]),some (1,[(2,.setEnt .internalNl),(3,.cb)]),some (1,[]),some (1,[]),none,none,none,none,none,none,none,none,none,none,some (1,[]),none,none,none,none,none,none,none,none,none,none,none,some (2,[]),none,none,none,none,none,none,none,none,none,none,none,some (2,[]),none,some (3,[]),some (3,[]),some (3,[]),some (3,[]),some (4,[])],[1,9,19,20,21]⟩
theorem c_line_nfa_eq : C.c_line.nfa = c_line_nfa := by decide +kernel
/-- The machine of `C.c_line`, with its automaton as a literal. -/
def c_line_M : Machine := ⟨c_line_nfa, C.c_line.ends, C.c_line.sw⟩
theorem c_line_M_eq : C.c_line.machine = c_line_M := by
  unfold Scanner.machine c_line_M; rw [c_line_nfa_eq]
def c_line_masks : List Nat := [4294967808,140737488355328,549755813888,17179869184,8192,1024,4096,115792089237316195423570985008687907853269984665640564039457584007908834656767,4951760157141521099596496896,115792089237316195423570985008687907853269984665640564039457584007908834658815,4398046511104,115792089237316195423570985008687907853269984665635612279300442486259482361343,115792089237316195423570985008687907853269984665640564039457584007913129626623,115792089237316195423570985008687907853269984665635612279300442486792058306047]
def c_line_cs : List (Nat × Nat) := [(0,115792089237316195423570985008687907853269984665635612279300442341106767610367),(9,4294967808),(10,1024),(11,2048),(12,4096),(13,8192),(34,17179869184),(39,549755813888),(42,4398046511104),(47,140737488355328),(92,4951760157141521099596496896)]
theorem c_line_masksIn : masksIn c_line_nfa c_line_masks = true := by decide +kernel
theorem c_line_repOk : repOk c_line_masks c_line_cs = true := by decide +kernel
def c_line_rows : List Row := [⟨[],none,[],[⟨256,.other,false,some ⟨0,[.setEnt (.own 8)],some 4,true⟩⟩,⟨256,.ws,false,some ⟨1,[.setEnt (.own 0)],some 0,false⟩⟩,⟨256,.lf,false,some ⟨0,[.setEnt .newline],some 3,true⟩⟩,⟨256,.vt,false,none⟩,⟨256,.ff,false,some ⟨0,[.setEnt .newline],some 3,true⟩⟩,⟨256,.cr,false,some ⟨2,[.setEnt .newline],none,false⟩⟩,⟨256,.cr,true,some ⟨3,[.setEnt .newline],some 3,false⟩⟩,⟨256,.other,false,some ⟨4,[.code,.setEnt (.own 8)],some 4,false⟩⟩,⟨256,.other,false,some ⟨5,[.code,.setEnt (.own 8)],some 4,false⟩⟩,⟨256,.other,false,some ⟨6,[.setEnt (.own 8)],some 4,false⟩⟩]⟩,⟨[0],some 0,[],[⟨256,.other,false,none⟩,⟨256,.ws,false,some ⟨1,[.setEnt (.own 0)],some 0,false⟩⟩,⟨256,.lf,false,none⟩,⟨256,.vt,false,none⟩,⟨256,.ff,false,none⟩,⟨256,.cr,false,none⟩,⟨256,.cr,true,none⟩]⟩,⟨[46],none,[],[⟨256,.other,false,none⟩,⟨256,.ws,false,none⟩,⟨256,.lf,false,some ⟨0,[.setEnt .newline],some 3,true⟩⟩,⟨256,.vt,false,none⟩,⟨256,.ff,false,none⟩,⟨256,.cr,false,none⟩,⟨256,.cr,true,none⟩]⟩,⟨[46,50],some 3,[],[⟨256,.other,false,none⟩,⟨256,.ws,false,none⟩,⟨256,.lf,false,some ⟨0,[.setEnt .newline],some 3,true⟩⟩,⟨256,.vt,false,none⟩,⟨256,.ff,false,none⟩,⟨256,.cr,false,none⟩,⟨256,.cr,true,none⟩]⟩,⟨[34,51],some 4,[],[⟨256,.other,false,some ⟨7,[.code],none,false⟩⟩,⟨256,.ws,false,some ⟨8,[],none,false⟩⟩,⟨256,.lf,false,some ⟨7,[.code],none,false⟩⟩,⟨256,.vt,false,some ⟨7,[.code],none,false⟩⟩,⟨256,.ff,false,some ⟨7,[.code],none,false⟩⟩,⟨256,.cr,false,some ⟨7,[.code],none,false⟩⟩,⟨256,.cr,true,some ⟨7,[.code],none,false⟩⟩,⟨256,.other,false,some ⟨0,[],some 2,true⟩⟩,⟨256,.other,false,some ⟨9,[],none,false⟩⟩]⟩,⟨[22,51],some 4,[],[⟨256,.other,false,some ⟨10,[.code],none,false⟩⟩,⟨256,.ws,false,some ⟨11,[],none,false⟩⟩,⟨256,.lf,false,some ⟨10,[.code],none,false⟩⟩,⟨256,.vt,false,some ⟨10,[.code],none,false⟩⟩,⟨256,.ff,false,some ⟨10,[.code],none,false⟩⟩,⟨256,.cr,false,some ⟨10,[.code],none,false⟩⟩,⟨256,.cr,true,some ⟨10,[.code],none,false⟩⟩,⟨256,.other,false,some ⟨0,[],some 2,true⟩⟩,⟨256,.other,false,some ⟨12,[],none,false⟩⟩]⟩,⟨[1,11,51],some 4,[],[⟨256,.other,false,none⟩,⟨256,.ws,false,none⟩,⟨256,.lf,false,none⟩,⟨256,.vt,false,none⟩,⟨256,.ff,false,none⟩,⟨256,.cr,false,none⟩,⟨256,.cr,true,none⟩,⟨256,.other,false,some ⟨13,[.comment],none,false⟩⟩,⟨256,.other,false,some ⟨14,[.comment],some 1,false⟩⟩]⟩,⟨[42],none,[],[⟨256,.other,false,some ⟨7,[.code],none,false⟩⟩,⟨256,.ws,false,some ⟨8,[],none,false⟩⟩,⟨256,.lf,false,some ⟨7,[.code],none,false⟩⟩,⟨256,.vt,false,some ⟨7,[.code],none,false⟩⟩,⟨256,.ff,false,some ⟨7,[.code],none,false⟩⟩,⟨256,.cr,false,some ⟨7,[.code],none,false⟩⟩,⟨256,.cr,true,some ⟨7,[.code],none,false⟩⟩,⟨256,.other,false,some ⟨0,[],some 2,true⟩⟩,⟨256,.other,false,some ⟨9,[],none,false⟩⟩]⟩,⟨[41],none,[],[⟨256,.other,false,some ⟨7,[.code],none,false⟩⟩,⟨256,.ws,false,some ⟨8,[],none,false⟩⟩,⟨256,.lf,false,some ⟨7,[.code],none,false⟩⟩,⟨256,.vt,false,some ⟨7,[.code],none,false⟩⟩,⟨256,.ff,false,some ⟨7,[.code],none,false⟩⟩,⟨256,.cr,false,some ⟨7,[.code],none,false⟩⟩,⟨256,.cr,true,some ⟨7,[.code],none,false⟩⟩,⟨256,.other,false,some ⟨0,[],some 2,true⟩⟩,⟨256,.other,false,some ⟨9,[],none,false⟩⟩]⟩,⟨[35,43],none,[],[⟨256,.other,false,some ⟨15,[.code],none,false⟩⟩,⟨256,.ws,false,some ⟨15,[.code],none,false⟩⟩,⟨256,.lf,false,some ⟨16,[],none,false⟩⟩,⟨256,.vt,false,some ⟨15,[.code],none,false⟩⟩,⟨256,.ff,false,some ⟨17,[],none,false⟩⟩,⟨256,.cr,false,some ⟨18,[],none,false⟩⟩,⟨256,.cr,true,some ⟨19,[],none,false⟩⟩]⟩,⟨[30],none,[],[⟨256,.other,false,some ⟨10,[.code],none,false⟩⟩,⟨256,.ws,false,some ⟨11,[],none,false⟩⟩,⟨256,.lf,false,some ⟨10,[.code],none,false⟩⟩,⟨256,.vt,false,some ⟨10,[.code],none,false⟩⟩,⟨256,.ff,false,some ⟨10,[.code],none,false⟩⟩,⟨256,.cr,false,some ⟨10,[.code],none,false⟩⟩,⟨256,.cr,true,some ⟨10,[.code],none,false⟩⟩,⟨256,.other,false,some ⟨0,[],some 2,true⟩⟩,⟨256,.other,false,some ⟨12,[],none,false⟩⟩]⟩,⟨[29],none,[],[⟨256,.other,false,some ⟨10,[.code],none,false⟩⟩,⟨256,.ws,false,some ⟨11,[],none,false⟩⟩,⟨256,.lf,false,some ⟨10,[.code],none,false⟩⟩,⟨256,.vt,false,some ⟨10,[.code],none,false⟩⟩,⟨256,.ff,false,some ⟨10,[.code],none,false⟩⟩,⟨256,.cr,false,some ⟨10,[.code],none,false⟩⟩,⟨256,.cr,true,some ⟨10,[.code],none,false⟩⟩,⟨256,.other,false,some ⟨0,[],some 2,true⟩⟩,⟨256,.other,false,some ⟨12,[],none,false⟩⟩]⟩,⟨[23,31],none,[],[⟨256,.other,false,some ⟨20,[.code],none,false⟩⟩,⟨256,.ws,false,some ⟨20,[.code],none,false⟩⟩,⟨256,.lf,false,some ⟨21,[],none,false⟩⟩,⟨256,.vt,false,some ⟨20,[.code],none,false⟩⟩,⟨256,.ff,false,some ⟨22,[],none,false⟩⟩,⟨256,.cr,false,some ⟨23,[],none,false⟩⟩,⟨256,.cr,true,some ⟨24,[],none,false⟩⟩]⟩,⟨[12],none,[],[⟨256,.other,false,some ⟨25,[.comment],none,false⟩⟩,⟨256,.ws,false,some ⟨26,[],none,false⟩⟩,⟨256,.lf,false,some ⟨27,[],none,false⟩⟩,⟨256,.vt,false,some ⟨25,[.comment],none,false⟩⟩,⟨256,.ff,false,some ⟨28,[],none,false⟩⟩,⟨256,.cr,false,some ⟨29,[],none,false⟩⟩,⟨256,.cr,true,some ⟨30,[],none,false⟩⟩,⟨256,.other,false,some ⟨31,[.comment],none,false⟩⟩]⟩,⟨[2],some 1,[],[⟨256,.other,false,some ⟨32,[.comment],some 1,false⟩⟩,⟨256,.ws,false,some ⟨33,[],some 1,false⟩⟩,⟨256,.lf,false,none⟩,⟨256,.vt,false,some ⟨32,[.comment],some 1,false⟩⟩,⟨256,.ff,false,none⟩,⟨256,.cr,false,none⟩,⟨256,.cr,true,none⟩,⟨256,.other,false,some ⟨34,[.comment],some 1,false⟩⟩]⟩,⟨[44],none,[],[⟨256,.other,false,some ⟨7,[.code],none,false⟩⟩,⟨256,.ws,false,some ⟨8,[],none,false⟩⟩,⟨256,.lf,false,some ⟨7,[.code],none,false⟩⟩,⟨256,.vt,false,some ⟨7,[.code],none,false⟩⟩,⟨256,.ff,false,some ⟨7,[.code],none,false⟩⟩,⟨256,.cr,false,some ⟨7,[.code],none,false⟩⟩,⟨256,.cr,true,some ⟨7,[.code],none,false⟩⟩,⟨256,.other,false,some ⟨0,[],some 2,true⟩⟩,⟨256,.other,false,some ⟨9,[],none,false⟩⟩]⟩,⟨[38],none,[],[⟨256,.other,false,some ⟨7,[.setEnt .internalNl,.cb,.code],none,false⟩⟩,⟨256,.ws,false,some ⟨8,[.setEnt .internalNl,.cb],none,false⟩⟩,⟨256,.lf,false,some ⟨7,[.setEnt .internalNl,.cb,.code],none,false⟩⟩,⟨256,.vt,false,some ⟨7,[.setEnt .internalNl,.cb,.code],none,false⟩⟩,⟨256,.ff,false,some ⟨7,[.setEnt .internalNl,.cb,.code],none,false⟩⟩,⟨256,.cr,false,some ⟨7,[.setEnt .internalNl,.cb,.code],none,false⟩⟩,⟨256,.cr,true,some ⟨7,[.setEnt .internalNl,.cb,.code],none,false⟩⟩,⟨256,.other,false,some ⟨0,[.setEnt .internalNl,.cb],some 2,true⟩⟩,⟨256,.other,false,some ⟨9,[.setEnt .internalNl,.cb],none,false⟩⟩]⟩,⟨[39],none,[],[⟨256,.other,false,some ⟨7,[.setEnt .internalNl,.cb,.code],none,false⟩⟩,⟨256,.ws,false,some ⟨8,[.setEnt .internalNl,.cb],none,false⟩⟩,⟨256,.lf,false,some ⟨7,[.setEnt .internalNl,.cb,.code],none,false⟩⟩,⟨256,.vt,false,some ⟨7,[.setEnt .internalNl,.cb,.code],none,false⟩⟩,⟨256,.ff,false,some ⟨7,[.setEnt .internalNl,.cb,.code],none,false⟩⟩,⟨256,.cr,false,some ⟨7,[.setEnt .internalNl,.cb,.code],none,false⟩⟩,⟨256,.cr,true,some ⟨7,[.setEnt .internalNl,.cb,.code],none,false⟩⟩,⟨256,.other,false,some ⟨0,[.setEnt .internalNl,.cb],some 2,true⟩⟩,⟨256,.other,false,some ⟨9,[.setEnt .internalNl,.cb],none,false⟩⟩]⟩,⟨[36],none,[],[⟨256,.other,false,none⟩,⟨256,.ws,false,none⟩,⟨256,.lf,false,some ⟨35,[],none,false⟩⟩,⟨256,.vt,false,none⟩,⟨256,.ff,false,none⟩,⟨256,.cr,false,none⟩,⟨256,.cr,true,none⟩]⟩,⟨[36,40],none,[],[⟨256,.other,false,some ⟨7,[.setEnt .internalNl,.cb,.code],none,false⟩⟩,⟨256,.ws,false,some ⟨8,[.setEnt .internalNl,.cb],none,false⟩⟩,⟨256,.lf,false,some ⟨36,[.setEnt .internalNl,.cb,.code],none,false⟩⟩,⟨256,.vt,false,some ⟨7,[.setEnt .internalNl,.cb,.code],none,false⟩⟩,⟨256,.ff,false,some ⟨7,[.setEnt .internalNl,.cb,.code],none,false⟩⟩,⟨256,.cr,false,some ⟨7,[.setEnt .internalNl,.cb,.code],none,false⟩⟩,⟨256,.cr,true,some ⟨7,[.setEnt .internalNl,.cb,.code],none,false⟩⟩,⟨256,.other,false,some ⟨0,[.setEnt .internalNl,.cb],some 2,true⟩⟩,⟨256,.other,false,some ⟨9,[.setEnt .internalNl,.cb],none,false⟩⟩]⟩,⟨[32],none,[],[⟨256,.other,false,some ⟨10,[.code],none,false⟩⟩,⟨256,.ws,false,some ⟨11,[],none,false⟩⟩,⟨256,.lf,false,some ⟨10,[.code],none,false⟩⟩,⟨256,.vt,false,some ⟨10,[.code],none,false⟩⟩,⟨256,.ff,false,some ⟨10,[.code],none,false⟩⟩,⟨256,.cr,false,some ⟨10,[.code],none,false⟩⟩,⟨256,.cr,true,some ⟨10,[.code],none,false⟩⟩,⟨256,.other,false,some ⟨0,[],some 2,true⟩⟩,⟨256,.other,false,some ⟨12,[],none,false⟩⟩]⟩,⟨[26],none,[],[⟨256,.other,false,some ⟨10,[.setEnt .internalNl,.cb,.code],none,false⟩⟩,⟨256,.ws,false,some ⟨11,[.setEnt .internalNl,.cb],none,false⟩⟩,⟨256,.lf,false,some ⟨10,[.setEnt .internalNl,.cb,.code],none,false⟩⟩,⟨256,.vt,false,some ⟨10,[.setEnt .internalNl,.cb,.code],none,false⟩⟩,⟨256,.ff,false,some ⟨10,[.setEnt .internalNl,.cb,.code],none,false⟩⟩,⟨256,.cr,false,some ⟨10,[.setEnt .internalNl,.cb,.code],none,false⟩⟩,⟨256,.cr,true,some ⟨10,[.setEnt .internalNl,.cb,.code],none,false⟩⟩,⟨256,.other,false,some ⟨0,[.setEnt .internalNl,.cb],some 2,true⟩⟩,⟨256,.other,false,some ⟨12,[.setEnt .internalNl,.cb],none,false⟩⟩]⟩,⟨[27],none,[],[⟨256,.other,false,some ⟨10,[.setEnt .internalNl,.cb,.code],none,false⟩⟩,⟨256,.ws,false,some ⟨11,[.setEnt .internalNl,.cb],none,false⟩⟩,⟨256,.lf,false,some ⟨10,[.setEnt .internalNl,.cb,.code],none,false⟩⟩,⟨256,.vt,false,some ⟨10,[.setEnt .internalNl,.cb,.code],none,false⟩⟩,⟨256,.ff,false,some ⟨10,[.setEnt .internalNl,.cb,.code],none,false⟩⟩,⟨256,.cr,false,some ⟨10,[.setEnt .internalNl,.cb,.code],none,false⟩⟩,⟨256,.cr,true,some ⟨10,[.setEnt .internalNl,.cb,.code],none,false⟩⟩,⟨256,.other,false,some ⟨0,[.setEnt .internalNl,.cb],some 2,true⟩⟩,⟨256,.other,false,some ⟨12,[.setEnt .internalNl,.cb],none,false⟩⟩]⟩,⟨[24],none,[],[⟨256,.other,false,none⟩,⟨256,.ws,false,none⟩,⟨256,.lf,false,some ⟨37,[],none,false⟩⟩,⟨256,.vt,false,none⟩,⟨256,.ff,false,none⟩,⟨256,.cr,false,none⟩,⟨256,.cr,true,none⟩]⟩,⟨[24,28],none,[],[⟨256,.other,false,some ⟨10,[.setEnt .internalNl,.cb,.code],none,false⟩⟩,⟨256,.ws,false,some ⟨11,[.setEnt .internalNl,.cb],none,false⟩⟩,⟨256,.lf,false,some ⟨38,[.setEnt .internalNl,.cb,.code],none,false⟩⟩,⟨256,.vt,false,some ⟨10,[.setEnt .internalNl,.cb,.code],none,false⟩⟩,⟨256,.ff,false,some ⟨10,[.setEnt .internalNl,.cb,.code],none,false⟩⟩,⟨256,.cr,false,some ⟨10,[.setEnt .internalNl,.cb,.code],none,false⟩⟩,⟨256,.cr,true,some ⟨10,[.setEnt .internalNl,.cb,.code],none,false⟩⟩,⟨256,.other,false,some ⟨0,[.setEnt .internalNl,.cb],some 2,true⟩⟩,⟨256,.other,false,some ⟨12,[.setEnt .internalNl,.cb],none,false⟩⟩]⟩,⟨[19],none,[],[⟨256,.other,false,some ⟨25,[.comment],none,false⟩⟩,⟨256,.ws,false,some ⟨26,[],none,false⟩⟩,⟨256,.lf,false,some ⟨27,[],none,false⟩⟩,⟨256,.vt,false,some ⟨25,[.comment],none,false⟩⟩,⟨256,.ff,false,some ⟨28,[],none,false⟩⟩,⟨256,.cr,false,some ⟨29,[],none,false⟩⟩,⟨256,.cr,true,some ⟨30,[],none,false⟩⟩,⟨256,.other,false,some ⟨31,[.comment],none,false⟩⟩]⟩,⟨[18],none,[],[⟨256,.other,false,some ⟨25,[.comment],none,false⟩⟩,⟨256,.ws,false,some ⟨26,[],none,false⟩⟩,⟨256,.lf,false,some ⟨27,[],none,false⟩⟩,⟨256,.vt,false,some ⟨25,[.comment],none,false⟩⟩,⟨256,.ff,false,some ⟨28,[],none,false⟩⟩,⟨256,.cr,false,some ⟨29,[],none,false⟩⟩,⟨256,.cr,true,some ⟨30,[],none,false⟩⟩,⟨256,.other,false,some ⟨31,[.comment],none,false⟩⟩]⟩,⟨[15],none,[],[⟨256,.other,false,some ⟨25,[.setEnt .internalNl,.cb,.comment],none,false⟩⟩,⟨256,.ws,false,some ⟨26,[.setEnt .internalNl,.cb],none,false⟩⟩,⟨256,.lf,false,some ⟨27,[.setEnt .internalNl,.cb],none,false⟩⟩,⟨256,.vt,false,some ⟨25,[.setEnt .internalNl,.cb,.comment],none,false⟩⟩,⟨256,.ff,false,some ⟨28,[.setEnt .internalNl,.cb],none,false⟩⟩,⟨256,.cr,false,some ⟨29,[.setEnt .internalNl,.cb],none,false⟩⟩,⟨256,.cr,true,some ⟨30,[.setEnt .internalNl,.cb],none,false⟩⟩,⟨256,.other,false,some ⟨31,[.setEnt .internalNl,.cb,.comment],none,false⟩⟩]⟩,⟨[16],none,[],[⟨256,.other,false,some ⟨25,[.setEnt .internalNl,.cb,.comment],none,false⟩⟩,⟨256,.ws,false,some ⟨26,[.setEnt .internalNl,.cb],none,false⟩⟩,⟨256,.lf,false,some ⟨27,[.setEnt .internalNl,.cb],none,false⟩⟩,⟨256,.vt,false,some ⟨25,[.setEnt .internalNl,.cb,.comment],none,false⟩⟩,⟨256,.ff,false,some ⟨28,[.setEnt .internalNl,.cb],none,false⟩⟩,⟨256,.cr,false,some ⟨29,[.setEnt .internalNl,.cb],none,false⟩⟩,⟨256,.cr,true,some ⟨30,[.setEnt .internalNl,.cb],none,false⟩⟩,⟨256,.other,false,some ⟨31,[.setEnt .internalNl,.cb,.comment],none,false⟩⟩]⟩,⟨[13],none,[],[⟨256,.other,false,none⟩,⟨256,.ws,false,none⟩,⟨256,.lf,false,some ⟨39,[],none,false⟩⟩,⟨256,.vt,false,none⟩,⟨256,.ff,false,none⟩,⟨256,.cr,false,none⟩,⟨256,.cr,true,none⟩]⟩,⟨[13,17],none,[],[⟨256,.other,false,some ⟨25,[.setEnt .internalNl,.cb,.comment],none,false⟩⟩,⟨256,.ws,false,some ⟨26,[.setEnt .internalNl,.cb],none,false⟩⟩,⟨256,.lf,false,some ⟨40,[.setEnt .internalNl,.cb],none,false⟩⟩,⟨256,.vt,false,some ⟨25,[.setEnt .internalNl,.cb,.comment],none,false⟩⟩,⟨256,.ff,false,some ⟨28,[.setEnt .internalNl,.cb],none,false⟩⟩,⟨256,.cr,false,some ⟨29,[.setEnt .internalNl,.cb],none,false⟩⟩,⟨256,.cr,true,some ⟨30,[.setEnt .internalNl,.cb],none,false⟩⟩,⟨256,.other,false,some ⟨31,[.setEnt .internalNl,.cb,.comment],none,false⟩⟩]⟩,⟨[19,20],none,[],[⟨256,.other,false,some ⟨25,[.comment],none,false⟩⟩,⟨256,.ws,false,some ⟨26,[],none,false⟩⟩,⟨256,.lf,false,some ⟨27,[],none,false⟩⟩,⟨256,.vt,false,some ⟨25,[.comment],none,false⟩⟩,⟨256,.ff,false,some ⟨28,[],none,false⟩⟩,⟨256,.cr,false,some ⟨29,[],none,false⟩⟩,⟨256,.cr,true,some ⟨30,[],none,false⟩⟩,⟨256,.other,false,some ⟨31,[.comment],none,false⟩⟩,⟨256,.other,false,some ⟨0,[],some 1,true⟩⟩]⟩,⟨[10],some 1,[],[⟨256,.other,false,some ⟨32,[.comment],some 1,false⟩⟩,⟨256,.ws,false,some ⟨33,[],some 1,false⟩⟩,⟨256,.lf,false,none⟩,⟨256,.vt,false,some ⟨32,[.comment],some 1,false⟩⟩,⟨256,.ff,false,none⟩,⟨256,.cr,false,none⟩,⟨256,.cr,true,none⟩,⟨256,.other,false,some ⟨34,[.comment],some 1,false⟩⟩]⟩,⟨[9],some 1,[],[⟨256,.other,false,some ⟨32,[.comment],some 1,false⟩⟩,⟨256,.ws,false,some ⟨33,[],some 1,false⟩⟩,⟨256,.lf,false,none⟩,⟨256,.vt,false,some ⟨32,[.comment],some 1,false⟩⟩,⟨256,.ff,false,none⟩,⟨256,.cr,false,none⟩,⟨256,.cr,true,none⟩,⟨256,.other,false,some ⟨34,[.comment],some 1,false⟩⟩]⟩,⟨[3,10],some 1,[],[⟨256,.other,false,some ⟨32,[.comment],some 1,false⟩⟩,⟨256,.ws,false,some ⟨33,[],some 1,false⟩⟩,⟨256,.lf,false,some ⟨41,[],some 1,false⟩⟩,⟨256,.vt,false,some ⟨32,[.comment],some 1,false⟩⟩,⟨256,.ff,false,some ⟨42,[],some 1,false⟩⟩,⟨256,.cr,false,some ⟨43,[],none,false⟩⟩,⟨256,.cr,true,some ⟨44,[],some 1,false⟩⟩,⟨256,.other,false,some ⟨34,[.comment],some 1,false⟩⟩]⟩,⟨[37],none,[],[⟨256,.other,false,some ⟨7,[.setEnt .internalNl,.cb,.code],none,false⟩⟩,⟨256,.ws,false,some ⟨8,[.setEnt .internalNl,.cb],none,false⟩⟩,⟨256,.lf,false,some ⟨7,[.setEnt .internalNl,.cb,.code],none,false⟩⟩,⟨256,.vt,false,some ⟨7,[.setEnt .internalNl,.cb,.code],none,false⟩⟩,⟨256,.ff,false,some ⟨7,[.setEnt .internalNl,.cb,.code],none,false⟩⟩,⟨256,.cr,false,some ⟨7,[.setEnt .internalNl,.cb,.code],none,false⟩⟩,⟨256,.cr,true,some ⟨7,[.setEnt .internalNl,.cb,.code],none,false⟩⟩,⟨256,.other,false,some ⟨0,[.setEnt .internalNl,.cb],some 2,true⟩⟩,⟨256,.other,false,some ⟨9,[.setEnt .internalNl,.cb],none,false⟩⟩]⟩,⟨[37,42],none,[],[⟨256,.other,false,some ⟨7,[.setEnt .internalNl,.cb,.code],none,false⟩⟩,⟨256,.ws,false,some ⟨8,[.setEnt .internalNl,.cb],none,false⟩⟩,⟨256,.lf,false,some ⟨7,[.setEnt .internalNl,.cb,.code],none,false⟩⟩,⟨256,.vt,false,some ⟨7,[.setEnt .internalNl,.cb,.code],none,false⟩⟩,⟨256,.ff,false,some ⟨7,[.setEnt .internalNl,.cb,.code],none,false⟩⟩,⟨256,.cr,false,some ⟨7,[.setEnt .internalNl,.cb,.code],none,false⟩⟩,⟨256,.cr,true,some ⟨7,[.setEnt .internalNl,.cb,.code],none,false⟩⟩,⟨256,.other,false,some ⟨0,[.setEnt .internalNl,.cb],some 2,true⟩⟩,⟨256,.other,false,some ⟨9,[.setEnt .internalNl,.cb],none,false⟩⟩]⟩,⟨[25],none,[],[⟨256,.other,false,some ⟨10,[.setEnt .internalNl,.cb,.code],none,false⟩⟩,⟨256,.ws,false,some ⟨11,[.setEnt .internalNl,.cb],none,false⟩⟩,⟨256,.lf,false,some ⟨10,[.setEnt .internalNl,.cb,.code],none,false⟩⟩,⟨256,.vt,false,some ⟨10,[.setEnt .internalNl,.cb,.code],none,false⟩⟩,⟨256,.ff,false,some ⟨10,[.setEnt .internalNl,.cb,.code],none,false⟩⟩,⟨256,.cr,false,some ⟨10,[.setEnt .internalNl,.cb,.code],none,false⟩⟩,⟨256,.cr,true,some ⟨10,[.setEnt .internalNl,.cb,.code],none,false⟩⟩,⟨256,.other,false,some ⟨0,[.setEnt .internalNl,.cb],some 2,true⟩⟩,⟨256,.other,false,some ⟨12,[.setEnt .internalNl,.cb],none,false⟩⟩]⟩,⟨[25,30],none,[],[⟨256,.other,false,some ⟨10,[.setEnt .internalNl,.cb,.code],none,false⟩⟩,⟨256,.ws,false,some ⟨11,[.setEnt .internalNl,.cb],none,false⟩⟩,⟨256,.lf,false,some ⟨10,[.setEnt .internalNl,.cb,.code],none,false⟩⟩,⟨256,.vt,false,some ⟨10,[.setEnt .internalNl,.cb,.code],none,false⟩⟩,⟨256,.ff,false,some ⟨10,[.setEnt .internalNl,.cb,.code],none,false⟩⟩,⟨256,.cr,false,some ⟨10,[.setEnt .internalNl,.cb,.code],none,false⟩⟩,⟨256,.cr,true,some ⟨10,[.setEnt .internalNl,.cb,.code],none,false⟩⟩,⟨256,.other,false,some ⟨0,[.setEnt .internalNl,.cb],some 2,true⟩⟩,⟨256,.other,false,some ⟨12,[.setEnt .internalNl,.cb],none,false⟩⟩]⟩,⟨[14],none,[],[⟨256,.other,false,some ⟨25,[.setEnt .internalNl,.cb,.comment],none,false⟩⟩,⟨256,.ws,false,some ⟨26,[.setEnt .internalNl,.cb],none,false⟩⟩,⟨256,.lf,false,some ⟨27,[.setEnt .internalNl,.cb],none,false⟩⟩,⟨256,.vt,false,some ⟨25,[.setEnt .internalNl,.cb,.comment],none,false⟩⟩,⟨256,.ff,false,some ⟨28,[.setEnt .internalNl,.cb],none,false⟩⟩,⟨256,.cr,false,some ⟨29,[.setEnt .internalNl,.cb],none,false⟩⟩,⟨256,.cr,true,some ⟨30,[.setEnt .internalNl,.cb],none,false⟩⟩,⟨256,.other,false,some ⟨31,[.setEnt .internalNl,.cb,.comment],none,false⟩⟩]⟩,⟨[14,15],none,[],[⟨256,.other,false,some ⟨25,[.setEnt .internalNl,.cb,.comment],none,false⟩⟩,⟨256,.ws,false,some ⟨26,[.setEnt .internalNl,.cb],none,false⟩⟩,⟨256,.lf,false,some ⟨27,[.setEnt .internalNl,.cb],none,false⟩⟩,⟨256,.vt,false,some ⟨25,[.setEnt .internalNl,.cb,.comment],none,false⟩⟩,⟨256,.ff,false,some ⟨28,[.setEnt .internalNl,.cb],none,false⟩⟩,⟨256,.cr,false,some ⟨29,[.setEnt .internalNl,.cb],none,false⟩⟩,⟨256,.cr,true,some ⟨30,[.setEnt .internalNl,.cb],none,false⟩⟩,⟨256,.other,false,some ⟨31,[.setEnt .internalNl,.cb,.comment],none,false⟩⟩]⟩,⟨[6],some 1,[.setEnt .internalNl,.cb],[⟨256,.other,false,some ⟨32,[.setEnt .internalNl,.cb,.comment],some 1,false⟩⟩,⟨256,.ws,false,some ⟨33,[.setEnt .internalNl,.cb],some 1,false⟩⟩,⟨256,.lf,false,none⟩,⟨256,.vt,false,some ⟨32,[.setEnt .internalNl,.cb,.comment],some 1,false⟩⟩,⟨256,.ff,false,none⟩,⟨256,.cr,false,none⟩,⟨256,.cr,true,none⟩,⟨256,.other,false,some ⟨34,[.setEnt .internalNl,.cb,.comment],some 1,false⟩⟩]⟩,⟨[7],some 1,[.setEnt .internalNl,.cb],[⟨256,.other,false,some ⟨32,[.setEnt .internalNl,.cb,.comment],some 1,false⟩⟩,⟨256,.ws,false,some ⟨33,[.setEnt .internalNl,.cb],some 1,false⟩⟩,⟨256,.lf,false,none⟩,⟨256,.vt,false,some ⟨32,[.setEnt .internalNl,.cb,.comment],some 1,false⟩⟩,⟨256,.ff,false,none⟩,⟨256,.cr,false,none⟩,⟨256,.cr,true,none⟩,⟨256,.other,false,some ⟨34,[.setEnt .internalNl,.cb,.comment],some 1,false⟩⟩]⟩,⟨[4],none,[],[⟨256,.other,false,none⟩,⟨256,.ws,false,none⟩,⟨256,.lf,false,some ⟨45,[],some 1,false⟩⟩,⟨256,.vt,false,none⟩,⟨256,.ff,false,none⟩,⟨256,.cr,false,none⟩,⟨256,.cr,true,none⟩]⟩,⟨[4,8],some 1,[.setEnt .internalNl,.cb],[⟨256,.other,false,some ⟨32,[.setEnt .internalNl,.cb,.comment],some 1,false⟩⟩,⟨256,.ws,false,some ⟨33,[.setEnt .internalNl,.cb],some 1,false⟩⟩,⟨256,.lf,false,some ⟨45,[],some 1,false⟩⟩,⟨256,.vt,false,some ⟨32,[.setEnt .internalNl,.cb,.comment],some 1,false⟩⟩,⟨256,.ff,false,none⟩,⟨256,.cr,false,none⟩,⟨256,.cr,true,none⟩,⟨256,.other,false,some ⟨34,[.setEnt .internalNl,.cb,.comment],some 1,false⟩⟩]⟩,⟨[5],some 1,[.setEnt .internalNl,.cb],[⟨256,.other,false,some ⟨32,[.setEnt .internalNl,.cb,.comment],some 1,false⟩⟩,⟨256,.ws,false,some ⟨33,[.setEnt .internalNl,.cb],some 1,false⟩⟩,⟨256,.lf,false,none⟩,⟨256,.vt,false,some ⟨32,[.setEnt .internalNl,.cb,.comment],some 1,false⟩⟩,⟨256,.ff,false,none⟩,⟨256,.cr,false,none⟩,⟨256,.cr,true,none⟩,⟨256,.other,false,some ⟨34,[.setEnt .internalNl,.cb,.comment],some 1,false⟩⟩]⟩]
theorem c_line_rowsOk : rowsOk c_line_nfa [] (c_line_cs.map (·.1)) c_line_rows = true := by decide +kernel
def c_line_D : Dfa c_line_M.nfa := ⟨c_line_masks, [], c_line_cs, c_line_rows, c_line_masksIn, c_line_repOk, c_line_rowsOk⟩

def dart_line_nfa : Nfa := ⟨[⟨0,4294967808,[],[(0,.setEnt (.own 0))],0,0⟩,⟨1,140737488355328,[],[],0,0⟩,⟨11,140737488355328,[],[],0,2⟩,⟨22,8192,[],[(9,.setEnt .newline)],0,0⟩,⟨24,1024,[],[(9,.setEnt .newline)],0,0⟩,⟨25,4096,[],[(9,.setEnt .newline)],0,0⟩,⟨26,8192,[.crAlone],[(9,.setEnt .newline)],0,0⟩,⟨27,115792089237316195423570985008687907853269984665640564039457584007908834656767,[],[(10,.setEnt (.own 2))],0,0⟩],[[⟨0,4294967808,[],[(0,.setEnt (.own 0))],0,0⟩],[⟨2,140737488355328,[],[(1,.comment)],0,0⟩],[⟨3,4951760157141521099596496896,[],[],0,0⟩,⟨9,4294967808,[],[],0,0⟩,⟨10,115792089237316195423570985008687907853269984665640564039457584007908834658815,[],[(4,.comment)],0,0⟩],[⟨4,8192,[],[],0,0⟩,⟨6,1024,[],[],0,0⟩,⟨7,4096,[],[],0,0⟩,⟨8,8192,[.crAlone],[],0,0⟩],[⟨5,1024,[],[],0,0⟩],[⟨3,4951760157141521099596496896,[],[(2,.setEnt .internalNl),(3,.cb)],0,0⟩,⟨9,4294967808,[],[(2,.setEnt .internalNl),(3,.cb)],0,0⟩,⟨10,115792089237316195423570985008687907853269984665640564039457584007908834658815,[],[(2,.setEnt .internalNl),(3,.cb),(4,.comment)],0,0⟩],[⟨3,4951760157141521099596496896,[],[(2,.setEnt .internalNl),(3,.cb)],0,0⟩,⟨9,4294967808,[],[(2,.setEnt .internalNl),(3,.cb)],0,0⟩,⟨10,115792089237316195423570985008687907853269984665640564039457584007908834658815,[],[(2,.setEnt .internalNl),(3,.cb),(4,.comment)],0,0⟩],[⟨3,4951760157141521099596496896,[],[(2,.setEnt .internalNl),(3,.cb)],0,0⟩,⟨9,4294967808,[],[(2,.setEnt .internalNl),(3,.cb)],0,0⟩,⟨10,115792089237316195423570985008687907853269984665640564039457584007908834658815,[],[(2,.setEnt .internalNl),(3,.cb),(4,.comment)],0,0⟩],[⟨3,4951760157141521099596496896,[],[(2,.setEnt .internalNl),(3,.cb)],0,0⟩,⟨9,4294967808,[],[(2,.setEnt .internalNl),(3,.cb)],0,0⟩,⟨10,115792089237316195423570985008687907853269984665640564039457584007908834658815,[],[(2,.setEnt .internalNl),(3,.cb),(4,.comment)],0,0⟩],[⟨3,4951760157141521099596496896,[],[],0,0⟩,⟨9,4294967808,[],[],0,0⟩,⟨10,115792089237316195423570985008687907853269984665640564039457584007908834658815,[],[(4,.comment)],0,0⟩],[⟨3,4951760157141521099596496896,[],[],0,0⟩,⟨9,4294967808,[],[],0,0⟩,⟨10,115792089237316195423570985008687907853269984665640564039457584007908834658815,[],[(4,.comment)],0,0⟩],[⟨12,4398046511104,[],[(5,.comment)],0,2⟩],[⟨13,8192,[],[],0,2⟩,⟨15,1024,[],[],0,2⟩,⟨16,4096,[],[],0,2⟩,⟨17,8192,[.crAlone],[],0,2⟩,⟨18,4294967808,[],[],0,2⟩,⟨19,115792089237316195423570985008687907853269984665640564039457584007908834658815,[],[(8,.comment)],0,2⟩,⟨20,4398046511104,[],[],0,2⟩],[⟨14,1024,[],[],0,2⟩],[⟨13,8192,[],[(6,.setEnt .internalNl),(7,.cb)],0,2⟩,⟨15,1024,[],[(6,.setEnt .internalNl),(7,.cb)],0,2⟩,⟨16,4096,[],[(6,.setEnt .internalNl),(7,.cb)],0,2⟩,⟨17,8192,[.crAlone],[(6,.setEnt .internalNl),(7,.cb)],0,2⟩,⟨18,4294967808,[],[(6,.setEnt .internalNl),(7,.cb)],0,2⟩,⟨19,115792089237316195423570985008687907853269984665640564039457584007908834658815,[],[(6,.setEnt .internalNl),(7,.cb),(8,.comment)],0,2⟩,⟨20,4398046511104,[],[(6,.setEnt .internalNl),(7,.cb)],0,2⟩],[⟨13,8192,[],[(6,.setEnt .internalNl),(7,.cb)],0,2⟩,⟨15,1024,[],[(6,.setEnt .internalNl),(7,.cb)],0,2⟩,⟨16,4096,[],[(6,.setEnt .internalNl),(7,.cb)],0,2⟩,⟨17,8192,[.crAlone],[(6,.setEnt .internalNl),(7,.cb)],0,2⟩,⟨18,4294967808,[],[(6,.setEnt .internalNl),(7,.cb)],0,2⟩,⟨19,115792089237316195423570985008687907853269984665640564039457584007908834658815,[],[(6,.setEnt .internalNl),(7,.cb),(8,.comment)],0,2⟩,⟨20,4398046511104,[],[(6,.setEnt .internalNl),(7,.cb)],0,2⟩],[⟨13,8192,[],[(6,.setEnt .internalNl),(7,.cb)],0,2⟩,⟨15,1024,[],[(6,.setEnt .internalNl),(7,.cb)],0,2⟩,⟨16,4096,[],[(6,.setEnt .internalNl),(7,.cb)],0,2⟩,⟨17,8192,[.crAlone],[(6,.setEnt .internalNl),(7,.cb)],0,2⟩,⟨18,4294967808,[],[(6,.setEnt .internalNl),(7,.cb)],0,2⟩,⟨19,115792089237316195423570985008687907853269984665640564039457584007908834658815,[],[(6,.setEnt .internalNl),(7,.cb),(8,.comment)],0,2⟩,⟨20,4398046511104,[],[(6,.setEnt .internalNl),(7,.cb)],0,2⟩],[⟨13,8192,[],[(6,.setEnt .internalNl),(7,.cb)],0,2⟩,⟨15,1024,[],[(6,.setEnt .internalNl),(7,.cb)],0,2⟩,⟨16,4096,[],[(6,.setEnt .internalNl),(7,.cb)],0,2⟩,⟨17,8192,[.crAlone],[(6,.setEnt .internalNl),(7,.cb)],0,2⟩,⟨18,4294967808,[],[(6,.setEnt .internalNl),(7,.cb)],0,2⟩,⟨19,115792089237316195423570985008687907853269984665640564039457584007908834658815,[],[(6,.setEnt .internalNl),(7,.cb),(8,.comment)],0,2⟩,⟨20,4398046511104,[],[(6,.setEnt .internalNl),(7,.cb)],0,2⟩],[⟨13,8192,[],[],0,2⟩,⟨15,1024,[],[],0,2⟩,⟨16,4096,[],[],0,2⟩,⟨17,8192,[.crAlone],[],0,2⟩,⟨18,4294967808,[],[],0,2⟩,⟨19,115792089237316195423570985008687907853269984665640564039457584007908834658815,[],[(8,.comment)],0,2⟩,⟨20,4398046511104,[],[],0,2⟩],[⟨13,8192,[],[],0,2⟩,⟨15,1024,[],[],0,2⟩,⟨16,4096,[],[],0,2⟩,⟨17,8192,[.crAlone],[],0,2⟩,⟨18,4294967808,[],[],0,2⟩,⟨19,115792089237316195423570985008687907853269984665640564039457584007908834658815,[],[(8,.comment)],0,2⟩,⟨20,4398046511104,[],[],0,2⟩],[⟨21,140737488355328,[],[],2,0⟩],[],[⟨23,1024,[],[(9,.setEnt .newline)],0,0⟩],[],[],[],[],[]],[some (0,[]),none,some (1,[]),none,none,some (1,[(2,.setEnt .internalNl),(3,.cb)]),some (1,[(2,.setEnt .internalNl),(3,.cb)]),some (1,[(2,.setEnt .internalNl),(3,.cb)]),some (1,[(2,.setEnt .internalNl),(3,.cb)]),some (1,[]),some (1,[]),none,none,none,none,none,none,none,none,none,none,some (1,[]),none,some (2,[]),some (2,[]),some (2,[]),some (2,[]),some (3,[])],[1,9,10,11]⟩
theorem dart_line_nfa_eq : Dart.dart_line.nfa = dart_line_nfa := by decide +kernel
/-- The machine of `Dart.dart_line`, with its automaton as a literal. -/
def dart_line_M : Machine := ⟨dart_line_nfa, Dart.dart_line.ends, Dart.dart_line.sw⟩
theorem dart_line_M_eq : Dart.dart_line.machine = dart_line_M := by
  unfold Scanner.machine dart_line_M; rw [dart_line_nfa_eq]
def dart_line_masks : List Nat := [4294967808,140737488355328,8192,1024,4096,115792089237316195423570985008687907853269984665640564039457584007908834656767,4951760157141521099596496896,115792089237316195423570985008687907853269984665640564039457584007908834658815,4398046511104]
def dart_line_cs : List (Nat × Nat) := [(0,115792089237316195423570985008687907853269984665635612279300442341673703293439),(9,4294967808),(10,1024),(11,2048),(12,4096),(13,8192),(42,4398046511104),(47,140737488355328),(92,4951760157141521099596496896)]
theorem dart_line_masksIn : masksIn dart_line_nfa dart_line_masks = true := by decide +kernel
theorem dart_line_repOk : repOk dart_line_masks dart_line_cs = true := by decide +kernel
def dart_line_rows : List Row := [⟨[],none,[],[⟨256,.other,false,some ⟨0,[.setEnt (.own 2)],some 3,true⟩⟩,⟨256,.ws,false,some ⟨1,[.setEnt (.own 0)],some 0,false⟩⟩,⟨256,.lf,false,some ⟨0,[.setEnt .newline],some 2,true⟩⟩,⟨256,.vt,false,none⟩,⟨256,.ff,false,some ⟨0,[.setEnt .newline],some 2,true⟩⟩,⟨256,.cr,false,some ⟨2,[.setEnt .newline],none,false⟩⟩,⟨256,.cr,true,some ⟨3,[.setEnt .newline],some 2,false⟩⟩,⟨256,.other,false,some ⟨4,[.setEnt (.own 2)],some 3,false⟩⟩]⟩,⟨[0],some 0,[],[⟨256,.other,false,none⟩,⟨256,.ws,false,some ⟨1,[.setEnt (.own 0)],some 0,false⟩⟩,⟨256,.lf,false,none⟩,⟨256,.vt,false,none⟩,⟨256,.ff,false,none⟩,⟨256,.cr,false,none⟩,⟨256,.cr,true,none⟩]⟩,⟨[22],none,[],[⟨256,.other,false,none⟩,⟨256,.ws,false,none⟩,⟨256,.lf,false,some ⟨0,[.setEnt .newline],some 2,true⟩⟩,⟨256,.vt,false,none⟩,⟨256,.ff,false,none⟩,⟨256,.cr,false,none⟩,⟨256,.cr,true,none⟩]⟩,⟨[22,26],some 2,[],[⟨256,.other,false,none⟩,⟨256,.ws,false,none⟩,⟨256,.lf,false,some ⟨0,[.setEnt .newline],some 2,true⟩⟩,⟨256,.vt,false,none⟩,⟨256,.ff,false,none⟩,⟨256,.cr,false,none⟩,⟨256,.cr,true,none⟩]⟩,⟨[1,11,27],some 3,[],[⟨256,.other,false,none⟩,⟨256,.ws,false,none⟩,⟨256,.lf,false,none⟩,⟨256,.vt,false,none⟩,⟨256,.ff,false,none⟩,⟨256,.cr,false,none⟩,⟨256,.cr,true,none⟩,⟨256,.other,false,some ⟨5,[.comment],none,false⟩⟩,⟨256,.other,false,some ⟨6,[.comment],some 1,false⟩⟩]⟩,⟨[12],none,[],[⟨256,.other,false,some ⟨7,[.comment],none,false⟩⟩,⟨256,.ws,false,some ⟨8,[],none,false⟩⟩,⟨256,.lf,false,some ⟨9,[],none,false⟩⟩,⟨256,.vt,false,some ⟨7,[.comment],none,false⟩⟩,⟨256,.ff,false,some ⟨10,[],none,false⟩⟩,⟨256,.cr,false,some ⟨11,[],none,false⟩⟩,⟨256,.cr,true,some ⟨12,[],none,false⟩⟩,⟨256,.other,false,some ⟨13,[.comment],none,false⟩⟩]⟩,⟨[2],some 1,[],[⟨256,.other,false,some ⟨14,[.comment],some 1,false⟩⟩,⟨256,.ws,false,some ⟨15,[],some 1,false⟩⟩,⟨256,.lf,false,none⟩,⟨256,.vt,false,some ⟨14,[.comment],some 1,false⟩⟩,⟨256,.ff,false,none⟩,⟨256,.cr,false,none⟩,⟨256,.cr,true,none⟩,⟨256,.other,false,some ⟨16,[.comment],some 1,false⟩⟩]⟩,⟨[19],none,[],[⟨256,.other,false,some ⟨7,[.comment],none,false⟩⟩,⟨256,.ws,false,some ⟨8,[],none,false⟩⟩,⟨256,.lf,false,some ⟨9,[],none,false⟩⟩,⟨256,.vt,false,some ⟨7,[.comment],none,false⟩⟩,⟨256,.ff,false,some ⟨10,[],none,false⟩⟩,⟨256,.cr,false,some ⟨11,[],none,false⟩⟩,⟨256,.cr,true,some ⟨12,[],none,false⟩⟩,⟨256,.other,false,some ⟨13,[.comment],none,false⟩⟩]⟩,⟨[18],none,[],[⟨256,.other,false,some ⟨7,[.comment],none,false⟩⟩,⟨256,.ws,false,some ⟨8,[],none,false⟩⟩,⟨256,.lf,false,some ⟨9,[],none,false⟩⟩,⟨256,.vt,false,some ⟨7,[.comment],none,false⟩⟩,⟨256,.ff,false,some ⟨10,[],none,false⟩⟩,⟨256,.cr,false,some ⟨11,[],none,false⟩⟩,⟨256,.cr,true,some ⟨12,[],none,false⟩⟩,⟨256,.other,false,some ⟨13,[.comment],none,false⟩⟩]⟩,⟨[15],none,[],[⟨256,.other,false,some ⟨7,[.setEnt .internalNl,.cb,.comment],none,false⟩⟩,⟨256,.ws,false,some ⟨8,[.setEnt .internalNl,.cb],none,false⟩⟩,⟨256,.lf,false,some ⟨9,[.setEnt .internalNl,.cb],none,false⟩⟩,⟨256,.vt,false,some ⟨7,[.setEnt .internalNl,.cb,.comment],none,false⟩⟩,⟨256,.ff,false,some ⟨10,[.setEnt .internalNl,.cb],none,false⟩⟩,⟨256,.cr,false,some ⟨11,[.setEnt .internalNl,.cb],none,false⟩⟩,⟨256,.cr,true,some ⟨12,[.setEnt .internalNl,.cb],none,false⟩⟩,⟨256,.other,false,some ⟨13,[.setEnt .internalNl,.cb,.comment],none,false⟩⟩]⟩,⟨[16],none,[],[⟨256,.other,false,some ⟨7,[.setEnt .internalNl,.cb,.comment],none,false⟩⟩,⟨256,.ws,false,some ⟨8,[.setEnt .internalNl,.cb],none,false⟩⟩,⟨256,.lf,false,some ⟨9,[.setEnt .internalNl,.cb],none,false⟩⟩,⟨256,.vt,false,some ⟨7,[.setEnt .internalNl,.cb,.comment],none,false⟩⟩,⟨256,.ff,false,some ⟨10,[.setEnt .internalNl,.cb],none,false⟩⟩,⟨256,.cr,false,some ⟨11,[.setEnt .internalNl,.cb],none,false⟩⟩,⟨256,.cr,true,some ⟨12,[.setEnt .internalNl,.cb],none,false⟩⟩,⟨256,.other,false,some ⟨13,[.setEnt .internalNl,.cb,.comment],none,false⟩⟩]⟩,⟨[13],none,[],[⟨256,.other,false,none⟩,⟨256,.ws,false,none⟩,⟨256,.lf,false,some ⟨17,[],none,false⟩⟩,⟨256,.vt,false,none⟩,⟨256,.ff,false,none⟩,⟨256,.cr,false,none⟩,⟨256,.cr,true,none⟩]⟩,⟨[13,17],none,[],[⟨256,.other,false,some ⟨7,[.setEnt .internalNl,.cb,.comment],none,false⟩⟩,⟨256,.ws,false,some ⟨8,[.setEnt .internalNl,.cb],none,false⟩⟩,⟨256,.lf,false,some ⟨18,[.setEnt .internalNl,.cb],none,false⟩⟩,⟨256,.vt,false,some ⟨7,[.setEnt .internalNl,.cb,.comment],none,false⟩⟩,⟨256,.ff,false,some ⟨10,[.setEnt .internalNl,.cb],none,false⟩⟩,⟨256,.cr,false,some ⟨11,[.setEnt .internalNl,.cb],none,false⟩⟩,⟨256,.cr,true,some ⟨12,[.setEnt .internalNl,.cb],none,false⟩⟩,⟨256,.other,false,some ⟨13,[.setEnt .internalNl,.cb,.comment],none,false⟩⟩]⟩,⟨[19,20],none,[],[⟨256,.other,false,some ⟨7,[.comment],none,false⟩⟩,⟨256,.ws,false,some ⟨8,[],none,false⟩⟩,⟨256,.lf,false,some ⟨9,[],none,false⟩⟩,⟨256,.vt,false,some ⟨7,[.comment],none,false⟩⟩,⟨256,.ff,false,some ⟨10,[],none,false⟩⟩,⟨256,.cr,false,some ⟨11,[],none,false⟩⟩,⟨256,.cr,true,some ⟨12,[],none,false⟩⟩,⟨256,.other,false,some ⟨13,[.comment],none,false⟩⟩,⟨256,.other,false,some ⟨0,[],some 1,true⟩⟩]⟩,⟨[10],some 1,[],[⟨256,.other,false,some ⟨14,[.comment],some 1,false⟩⟩,⟨256,.ws,false,some ⟨15,[],some 1,false⟩⟩,⟨256,.lf,false,none⟩,⟨256,.vt,false,some ⟨14,[.comment],some 1,false⟩⟩,⟨256,.ff,false,none⟩,⟨256,.cr,false,none⟩,⟨256,.cr,true,none⟩,⟨256,.other,false,some ⟨16,[.comment],some 1,false⟩⟩]⟩,⟨[9],some 1,[],[⟨256,.other,false,some ⟨14,[.comment],some 1,false⟩⟩,⟨256,.ws,false,some ⟨15,[],some 1,false⟩⟩,⟨256,.lf,false,none⟩,⟨256,.vt,false,some ⟨14,[.comment],some 1,false⟩⟩,⟨256,.ff,false,none⟩,⟨256,.cr,false,none⟩,⟨256,.cr,true,none⟩,⟨256,.other,false,some ⟨16,[.comment],some 1,false⟩⟩]⟩,⟨[3,10],some 1,[],[⟨256,.other,false,some ⟨14,[.comment],some 1,false⟩⟩,⟨256,.ws,false,some ⟨15,[],some 1,false⟩⟩,⟨256,.lf,false,some ⟨19,[],some 1,false⟩⟩,⟨256,.vt,false,some ⟨14,[.comment],some 1,false⟩⟩,⟨256,.ff,false,some ⟨20,[],some 1,false⟩⟩,⟨256,.cr,false,some ⟨21,[],none,false⟩⟩,⟨256,.cr,true,some ⟨22,[],some 1,false⟩⟩,⟨256,.other,false,some ⟨16,[.comment],some 1,false⟩⟩]⟩,⟨[14],none,[],[⟨256,.other,false,some ⟨7,[.setEnt .internalNl,.cb,.comment],none,false⟩⟩,⟨256,.ws,false,some ⟨8,[.setEnt .internalNl,.cb],none,false⟩⟩,⟨256,.lf,false,some ⟨9,[.setEnt .internalNl,.cb],none,false⟩⟩,⟨256,.vt,false,some ⟨7,[.setEnt .internalNl,.cb,.comment],none,false⟩⟩,⟨256,.ff,false,some ⟨10,[.setEnt .internalNl,.cb],none,false⟩⟩,⟨256,.cr,false,some ⟨11,[.setEnt .internalNl,.cb],none,false⟩⟩,⟨256,.cr,true,some ⟨12,[.setEnt .internalNl,.cb],none,false⟩⟩,⟨256,.other,false,some ⟨13,[.setEnt .internalNl,.cb,.comment],none,false⟩⟩]⟩,⟨[14,15],none,[],[⟨256,.other,false,some ⟨7,[.setEnt .internalNl,.cb,.comment],none,false⟩⟩,⟨256,.ws,false,some ⟨8,[.setEnt .internalNl,.cb],none,false⟩⟩,⟨256,.lf,false,some ⟨9,[.setEnt .internalNl,.cb],none,false⟩⟩,⟨256,.vt,false,some ⟨7,[.setEnt .internalNl,.cb,.comment],none,false⟩⟩,⟨256,.ff,false,some ⟨10,[.setEnt .internalNl,.cb],none,false⟩⟩,⟨256,.cr,false,some ⟨11,[.setEnt .internalNl,.cb],none,false⟩⟩,⟨256,.cr,true,some ⟨12,[.setEnt .internalNl,.cb],none,false⟩⟩,⟨256,.other,false,some ⟨13,[.setEnt .internalNl,.cb,.comment],none,false⟩⟩]⟩,⟨[6],some 1,[.setEnt .internalNl,.cb],[⟨256,.other,false,some ⟨14,[.setEnt .internalNl,.cb,.comment],some 1,false⟩⟩,⟨256,.ws,false,some ⟨15,[.setEnt .internalNl,.cb],some 1,false⟩⟩,⟨256,.lf,false,none⟩,⟨256,.vt,false,some ⟨14,[.setEnt .internalNl,.cb,.comment],some 1,false⟩⟩,⟨256,.ff,false,none⟩,⟨256,.cr,false,none⟩,⟨256,.cr,true,none⟩,⟨256,.other,false,some ⟨16,[.setEnt .internalNl,.cb,.comment],some 1,false⟩⟩]⟩,⟨[7],some 1,[.setEnt .internalNl,.cb],[⟨256,.other,false,some ⟨14,[.setEnt .internalNl,.cb,.comment],some 1,false⟩⟩,⟨256,.ws,false,some ⟨15,[.setEnt .internalNl,.cb],some 1,false⟩⟩,⟨256,.lf,false,none⟩,⟨256,.vt,false,some ⟨14,[.setEnt .internalNl,.cb,.comment],some 1,false⟩⟩,⟨256,.ff,false,none⟩,⟨256,.cr,false,none⟩,⟨256,.cr,true,none⟩,⟨256,.other,false,some ⟨16,[.setEnt .internalNl,.cb,.comment],some 1,false⟩⟩]⟩,⟨[4],none,[],[⟨256,.other,false,none⟩,⟨256,.ws,false,none⟩,⟨256,.lf,false,some ⟨23,[],some 1,false⟩⟩,⟨256,.vt,false,none⟩,⟨256,.ff,false,none⟩,⟨256,.cr,false,none⟩,⟨256,.cr,true,none⟩]⟩,⟨[4,8],some 1,[.setEnt .internalNl,.cb],[⟨256,.other,false,some ⟨14,[.setEnt .internalNl,.cb,.comment],some 1,false⟩⟩,⟨256,.ws,false,some ⟨15,[.setEnt .internalNl,.cb],some 1,false⟩⟩,⟨256,.lf,false,some ⟨23,[],some 1,false⟩⟩,⟨256,.vt,false,some ⟨14,[.setEnt .internalNl,.cb,.comment],some 1,false⟩⟩,⟨256,.ff,false,none⟩,⟨256,.cr,false,none⟩,⟨256,.cr,true,none⟩,⟨256,.other,false,some ⟨16,[.setEnt .internalNl,.cb,.comment],some 1,false⟩⟩]⟩,⟨[5],some 1,[.setEnt .internalNl,.cb],[⟨256,.other,false,some ⟨14,[.setEnt .internalNl,.cb,.comment],some 1,false⟩⟩,⟨256,.ws,false,some ⟨15,[.setEnt .internalNl,.cb],some 1,false⟩⟩,⟨256,.lf,false,none⟩,⟨256,.vt,false,some ⟨14,[.setEnt .internalNl,.cb,.comment],some 1,false⟩⟩,⟨256,.ff,false,none⟩,⟨256,.cr,false,none⟩,⟨256,.cr,true,none⟩,⟨256,.other,false,some ⟨16,[.setEnt .internalNl,.cb,.comment],some 1,false⟩⟩]⟩]
theorem dart_line_rowsOk : rowsOk dart_line_nfa [] (dart_line_cs.map (·.1)) dart_line_rows = true := by decide +kernel
def dart_line_D : Dfa dart_line_M.nfa := ⟨dart_line_masks, [], dart_line_cs, dart_line_rows, dart_line_masksIn, dart_line_repOk, dart_line_rowsOk⟩

def eiffel_line_nfa : Nfa := ⟨[⟨0,4294967808,[],[(0,.setEnt (.own 0))],0,0⟩,⟨1,35184372088832,[],[],0,0⟩,⟨4,17179869184,[],[(2,.code)],0,0⟩,⟨7,8192,[],[(3,.setEnt .newline)],0,0⟩,⟨9,1024,[],[(3,.setEnt .newline)],0,0⟩,⟨10,4096,[],[(3,.setEnt .newline)],0,0⟩,⟨11,8192,[.crAlone],[(3,.setEnt .newline)],0,0⟩,⟨12,115792089237316195423570985008687907853269984665640564039457584007908834656767,[],[(4,.setEnt (.own 3))],0,0⟩],[[⟨0,4294967808,[],[(0,.setEnt (.own 0))],0,0⟩],[⟨2,35184372088832,[],[(1,.comment)],0,0⟩],[⟨3,115792089237316195423570985008687907853269984665640564039457584007913129626623,[],[],0,0⟩],[⟨3,115792089237316195423570985008687907853269984665640564039457584007913129626623,[],[],0,0⟩],[⟨5,115792089237316195423570985008687907853269984665640564039457584007895949757439,[],[],0,0⟩,⟨6,17179869184,[],[],0,0⟩],[⟨5,115792089237316195423570985008687907853269984665640564039457584007895949757439,[],[],0,0⟩,⟨6,17179869184,[],[],0,0⟩],[],[⟨8,1024,[],[(3,.setEnt .newline)],0,0⟩],[],[],[],[],[]],[some (0,[]),none,some (1,[]),some (1,[]),none,none,some (2,[]),none,some (3,[]),some (3,[]),some (3,[]),some (3,[]),some (4,[])],[1,2,3,4,5]⟩
theorem eiffel_line_nfa_eq : Eiffel.eiffel_line.nfa = eiffel_line_nfa := by decide +kernel
/-- The machine of `Eiffel.eiffel_line`, with its automaton as a literal. -/
def eiffel_line_M : Machine := ⟨eiffel_line_nfa, Eiffel.eiffel_line.ends, Eiffel.eiffel_line.sw⟩
theorem eiffel_line_M_eq : Eiffel.eiffel_line.machine = eiffel_line_M := by
  unfold Scanner.machine eiffel_line_M; rw [eiffel_line_nfa_eq]
def eiffel_line_masks : List Nat := [4294967808,35184372088832,17179869184,8192,1024,4096,115792089237316195423570985008687907853269984665640564039457584007908834656767,115792089237316195423570985008687907853269984665640564039457584007913129626623,115792089237316195423570985008687907853269984665640564039457584007895949757439]
def eiffel_line_cs : List (Nat × Nat) := [(0,115792089237316195423570985008687907853269984665640564039457583972707282698751),(9,4294967808),(10,1024),(11,2048),(12,4096),(13,8192),(34,17179869184),(45,35184372088832)]
theorem eiffel_line_masksIn : masksIn eiffel_line_nfa eiffel_line_masks = true := by decide +kernel
theorem eiffel_line_repOk : repOk eiffel_line_masks eiffel_line_cs = true := by decide +kernel
def eiffel_line_rows : List Row := [⟨[],none,[],[⟨256,.other,false,some ⟨0,[.setEnt (.own 3)],some 4,true⟩⟩,⟨256,.ws,false,some ⟨1,[.setEnt (.own 0)],some 0,false⟩⟩,⟨256,.lf,false,some ⟨0,[.setEnt .newline],some 3,true⟩⟩,⟨256,.vt,false,none⟩,⟨256,.ff,false,some ⟨0,[.setEnt .newline],some 3,true⟩⟩,⟨256,.cr,false,some ⟨2,[.setEnt .newline],none,false⟩⟩,⟨256,.cr,true,some ⟨3,[.setEnt .newline],some 3,false⟩⟩,⟨256,.other,false,some ⟨4,[.code,.setEnt (.own 3)],some 4,false⟩⟩,⟨256,.other,false,some ⟨5,[.setEnt (.own 3)],some 4,false⟩⟩]⟩,⟨[0],some 0,[],[⟨256,.other,false,none⟩,⟨256,.ws,false,some ⟨1,[.setEnt (.own 0)],some 0,false⟩⟩,⟨256,.lf,false,none⟩,⟨256,.vt,false,none⟩,⟨256,.ff,false,none⟩,⟨256,.cr,false,none⟩,⟨256,.cr,true,none⟩]⟩,⟨[7],none,[],[⟨256,.other,false,none⟩,⟨256,.ws,false,none⟩,⟨256,.lf,false,some ⟨0,[.setEnt .newline],some 3,true⟩⟩,⟨256,.vt,false,none⟩,⟨256,.ff,false,none⟩,⟨256,.cr,false,none⟩,⟨256,.cr,true,none⟩]⟩,⟨[7,11],some 3,[],[⟨256,.other,false,none⟩,⟨256,.ws,false,none⟩,⟨256,.lf,false,some ⟨0,[.setEnt .newline],some 3,true⟩⟩,⟨256,.vt,false,none⟩,⟨256,.ff,false,none⟩,⟨256,.cr,false,none⟩,⟨256,.cr,true,none⟩]⟩,⟨[4,12],some 4,[],[⟨256,.other,false,some ⟨6,[],none,false⟩⟩,⟨256,.ws,false,some ⟨6,[],none,false⟩⟩,⟨256,.lf,false,none⟩,⟨256,.vt,false,some ⟨6,[],none,false⟩⟩,⟨256,.ff,false,none⟩,⟨256,.cr,false,none⟩,⟨256,.cr,true,none⟩,⟨256,.other,false,some ⟨0,[],some 2,true⟩⟩]⟩,⟨[1,12],some 4,[],[⟨256,.other,false,none⟩,⟨256,.ws,false,none⟩,⟨256,.lf,false,none⟩,⟨256,.vt,false,none⟩,⟨256,.ff,false,none⟩,⟨256,.cr,false,none⟩,⟨256,.cr,true,none⟩,⟨256,.other,false,some ⟨7,[.comment],some 1,false⟩⟩]⟩,⟨[5],none,[],[⟨256,.other,false,some ⟨6,[],none,false⟩⟩,⟨256,.ws,false,some ⟨6,[],none,false⟩⟩,⟨256,.lf,false,none⟩,⟨256,.vt,false,some ⟨6,[],none,false⟩⟩,⟨256,.ff,false,none⟩,⟨256,.cr,false,none⟩,⟨256,.cr,true,none⟩,⟨256,.other,false,some ⟨0,[],some 2,true⟩⟩]⟩,⟨[2],some 1,[],[⟨256,.other,false,some ⟨8,[],some 1,false⟩⟩,⟨256,.ws,false,some ⟨8,[],some 1,false⟩⟩,⟨256,.lf,false,none⟩,⟨256,.vt,false,some ⟨8,[],some 1,false⟩⟩,⟨256,.ff,false,none⟩,⟨256,.cr,false,none⟩,⟨256,.cr,true,none⟩]⟩,⟨[3],some 1,[],[⟨256,.other,false,some ⟨8,[],some 1,false⟩⟩,⟨256,.ws,false,some ⟨8,[],some 1,false⟩⟩,⟨256,.lf,false,none⟩,⟨256,.vt,false,some ⟨8,[],some 1,false⟩⟩,⟨256,.ff,false,none⟩,⟨256,.cr,false,none⟩,⟨256,.cr,true,none⟩]⟩]
theorem eiffel_line_rowsOk : rowsOk eiffel_line_nfa [] (eiffel_line_cs.map (·.1)) eiffel_line_rows = true := by decide +kernel
def eiffel_line_D : Dfa eiffel_line_M.nfa := ⟨eiffel_line_masks, [], eiffel_line_cs, eiffel_line_rows, eiffel_line_masksIn, eiffel_line_repOk, eiffel_line_rowsOk⟩

def groovy_line_nfa : Nfa := ⟨[⟨0,4294967808,[],[(0,.setEnt (.own 0))],0,0⟩,⟨1,140737488355328,[],[],0,0⟩,⟨11,140737488355328,[],[],0,2⟩,⟨22,549755813888,[],[(9,.code)],0,0⟩,⟨34,17179869184,[],[(14,.code)],0,0⟩,⟨46,8192,[],[(19,.setEnt .newline)],0,0⟩,⟨48,1024,[],[(19,.setEnt .newline)],0,0⟩,⟨49,4096,[],[(19,.setEnt .newline)],0,0⟩,⟨50,8192,[.crAlone],[(19,.setEnt .newline)],0,0⟩,⟨51,115792089237316195423570985008687907853269984665640564039457584007908834656767,[],[(20,.setEnt (.own 3))],0,0⟩],[[⟨0,4294967808,[],[(0,.setEnt (.own 0))],0,0⟩],[⟨2,140737488355328,[],[(1,.comment)],0,0⟩],[⟨3,4951760157141521099596496896,[],[],0,0⟩,⟨9,4294967808,[],[],0,0⟩,⟨10,115792089237316195423570985008687907853269984665640564039457584007908834658815,[],[(4,.comment)],0,0⟩],[⟨4,8192,[],[],0,0⟩,⟨6,1024,[],[],0,0⟩,⟨7,4096,[],[],0,0⟩,⟨8,8192,[.crAlone],[],0,0⟩],[⟨5,1024,[],[],0,0⟩],[⟨3,4951760157141521099596496896,[],[(2,.setEnt .internalNl),(3,.cb)],0,0⟩,⟨9,4294967808,[],[(2,.setEnt .internalNl),(3,.cb)],0,0⟩,⟨10,115792089237316195423570985008687907853269984665640564039457584007908834658815,[],[(2,.setEnt .internalNl),(3,.cb),(4,.comment)],0,0⟩],[⟨3,4951760157141521099596496896,[],[(2,.setEnt .internalNl),(3,.cb)],0,0⟩,⟨9,4294967808,[],[(2,.setEnt .internalNl),(3,.cb)],0,0⟩,⟨10,115792089237316195423570985008687907853269984665640564039457584007908834658815,[],[(2,.setEnt .internalNl),(3,.cb),(4,.comment)],0,0⟩],[⟨3,4951760157141521099596496896,[],[(2,.setEnt .internalNl),(3,.cb)],0,0⟩,⟨9,4294967808,[],[(2,.setEnt .internalNl),(3,.cb)],0,0⟩,⟨10,115792089237316195423570985008687907853269984665640564039457584007908834658815,[],[(2,.setEnt .internalNl),(3,.cb),(4,.comment)],0,0⟩],[⟨3,4951760157141521099596496896,[],[(2,.setEnt .internalNl),(3,.cb)],0,0⟩,⟨9,4294967808,[],[(2,.setEnt .internalNl),(3,.cb)],0,0⟩,⟨10,115792089237316195423570985008687907853269984665640564039457584007908834658815,[],[(2,.setEnt .internalNl),(3,.cb),(4,.comment)],0,0⟩],[⟨3,4951760157141521099596496896,[],[],0,0⟩,⟨9,4294967808,[],[],0,0⟩,⟨10,115792089237316195423570985008687907853269984665640564039457584007908834658815,[],[(4,.comment)],0,0⟩],[⟨3,4951760157141521099596496896,[],[],0,0⟩,⟨9,4294967808,[],[],0,0⟩,⟨10,115792089237316195423570985008687907853269984665640564039457584007908834658815,[],[(4,.comment)],0,0⟩],[⟨12,4398046511104,[],[(5,.comment)],0,2⟩],[⟨13,8192,[],[],0,2⟩,⟨15,1024,[],[],0,2⟩,⟨16,4096,[],[],0,2⟩,⟨17,8192,[.crAlone],[],0,2⟩,⟨18,4294967808,[],[],0,2⟩,⟨19,115792089237316195423570985008687907853269984665640564039457584007908834658815,[],[(8,.comment)],0,2⟩,⟨20,4398046511104,[],[],0,2⟩],[⟨14,1024,[],[],0,2⟩],[⟨13,8192,[],[(6,.setEnt .internalNl),(7,.cb)],0,2⟩,⟨15,1024,[],[(6,.setEnt .internalNl),(7,.cb)],0,2⟩,⟨16,4096,[],[(6,.setEnt .internalNl),(7,.cb)],0,2⟩,⟨17,8192,[.crAlone],[(6,.setEnt .internalNl),(7,.cb)],0,2⟩,⟨18,4294967808,[],[(6,.setEnt .internalNl),(7,.cb)],0,2⟩,⟨19,115792089237316195423570985008687907853269984665640564039457584007908834658815,[],[(6,.setEnt .internalNl),(7,.cb),(8,.comment)],0,2⟩,⟨20,4398046511104,[],[(6,.setEnt .internalNl),(7,.cb)],0,2⟩],[⟨13,8192,[],[(6,.setEnt .internalNl),(7,.cb)],0,2⟩,⟨15,1024,[],[(6,.setEnt .internalNl),(7,.cb)],0,2⟩,⟨16,4096,[],[(6,.setEnt .internalNl),(7,.cb)],0,2⟩,⟨17,8192,[.crAlone],[(6,.setEnt .internalNl),(7,.cb)],0,2⟩,⟨18,4294967808,[],[(6,.setEnt .internalNl),(7,.cb)],0,2⟩,⟨19,115792089237316195423570985008687907853269984665640564039457584007908834658815,[],[(6,.setEnt .internalNl),(7,.cb),(8,.comment)],0,2⟩,⟨20,4398046511104,[],[(6,.setEnt .internalNl),(7,.cb)],0,2⟩],[⟨13,8192,[],[(6,.setEnt .internalNl),(7,.cb)],0,2⟩,⟨15,1024,[],[(6,.setEnt .internalNl),(7,.cb)],0,2⟩,⟨16,4096,[],[(6,.setEnt .internalNl),(7,.cb)],0,2⟩,⟨17,8192,[.crAlone],[(6,.setEnt .internalNl),(7,.cb)],0,2⟩,⟨18,4294967808,[],[(6,.setEnt .internalNl),(7,.cb)],0,2⟩,⟨19,115792089237316195423570985008687907853269984665640564039457584007908834658815,[],[(6,.setEnt .internalNl),(7,.cb),(8,.comment)],0,2⟩,⟨20,4398046511104,[],[(6,.setEnt .internalNl),(7,.cb)],0,2⟩],[⟨13,8192,[],[(6,.setEnt .internalNl),(7,.cb)],0,2⟩,⟨15,1024,[],[(6,.setEnt .internalNl),(7,.cb)],0,2⟩,⟨16,4096,[],[(6,.setEnt .internalNl),(7,.cb)],0,2⟩,⟨17,8192,[.crAlone],[(6,.setEnt .internalNl),(7,.cb)],0,2⟩,⟨18,4294967808,[],[(6,.setEnt .internalNl),(7,.cb)],0,2⟩,⟨19,115792089237316195423570985008687907853269984665640564039457584007908834658815,[],[(6,.setEnt .internalNl),(7,.cb),(8,.comment)],0,2⟩,⟨20,4398046511104,[],[(6,.setEnt .internalNl),(7,.cb)],0,2⟩],[⟨13,8192,[],[],0,2⟩,⟨15,1024,[],[],0,2⟩,⟨16,4096,[],[],0,2⟩,⟨17,8192,[.crAlone],[],0,2⟩,⟨18,4294967808,[],[],0,2⟩,⟨19,115792089237316195423570985008687907853269984665640564039457584007908834658815,[],[(8,.comment)],0,2⟩,⟨20,4398046511104,[],[],0,2⟩],[⟨13,8192,[],[],0,2⟩,⟨15,1024,[],[],0,2⟩,⟨16,4096,[],[],0,2⟩,⟨17,8192,[.crAlone],[],0,2⟩,⟨18,4294967808,[],[],0,2⟩,⟨19,115792089237316195423570985008687907853269984665640564039457584007908834658815,[],[(8,.comment)],0,2⟩,⟨20,4398046511104,[],[],0,2⟩],[⟨21,140737488355328,[],[],2,0⟩],[],[⟨23,4951760157141521099596496896,[],[],0,0⟩,⟨29,4294967808,[],[],0,0⟩,⟨30,115792089237316195423570985008687907853269984665635612279300442486259482361343,[],[(12,.code)],0,0⟩,⟨31,4951760157141521099596496896,[],[],0,0⟩,⟨33,549755813888,[],[],0,0⟩],[⟨24,8192,[],[],0,0⟩,⟨26,1024,[],[],0,0⟩,⟨27,4096,[],[],0,0⟩,⟨28,8192,[.crAlone],[],0,0⟩],[⟨25,1024,[],[],0,0⟩],[⟨23,4951760157141521099596496896,[],[(10,.setEnt .internalNl),(11,.cb)],0,0⟩,⟨29,4294967808,[],[(10,.setEnt .internalNl),(11,.cb)],0,0⟩,⟨30,115792089237316195423570985008687907853269984665635612279300442486259482361343,[],[(10,.setEnt .internalNl),(11,.cb),(12,.code)],0,0⟩,⟨31,4951760157141521099596496896,[],[(10,.setEnt .internalNl),(11,.cb)],0,0⟩,⟨33,549755813888,[],[(10,.setEnt .internalNl),(11,.cb)],0,0⟩],[⟨23,4951760157141521099596496896,[],[(10,.setEnt .internalNl),(11,.cb)],0,0⟩,⟨29,4294967808,[],[(10,.setEnt .internalNl),(11,.cb)],0,0⟩,⟨30,115792089237316195423570985008687907853269984665635612279300442486259482361343,[],[(10,.setEnt .internalNl),(11,.cb),(12,.code)],0,0⟩,⟨31,4951760157141521099596496896,[],[(10,.setEnt .internalNl),(11,.cb)],0,0⟩,⟨33,549755813888,[],[(10,.setEnt .internalNl),(11,.cb)],0,0⟩],[⟨23,4951760157141521099596496896,[],[(10,.setEnt .internalNl),(11,.cb)],0,0⟩,⟨29,4294967808,[],[(10,.setEnt .internalNl),(11,.cb)],0,0⟩,⟨30,115792089237316195423570985008687907853269984665635612279300442486259482361343,[],[(10,.setEnt .internalNl),(11,.cb),(12,.code)],0,0⟩,⟨31,4951760157141521099596496896,[],[(10,.setEnt .internalNl),(11,.cb)],0,0⟩,⟨33,549755813888,[],[(10,.setEnt .internalNl),(11,.cb)],0,0⟩],[⟨23,4951760157141521099596496896,[],[(10,.setEnt .internalNl),(11,.cb)],0,0⟩,⟨29,4294967808,[],[(10,.setEnt .internalNl),(11,.cb)],0,0⟩,⟨30,115792089237316195423570985008687907853269984665635612279300442486259482361343,[],[(10,.setEnt .internalNl),(11,.cb),(12,.code)],0,0⟩,⟨31,4951760157141521099596496896,[],[(10,.setEnt .internalNl),(11,.cb)],0,0⟩,⟨33,549755813888,[],[(10,.setEnt .internalNl),(11,.cb)],0,0⟩],[⟨23,4951760157141521099596496896,[],[],0,0⟩,⟨29,4294967808,[],[],0,0⟩,⟨30,115792089237316195423570985008687907853269984665635612279300442486259482361343,[],[(12,.code)],0,0⟩,⟨31,4951760157141521099596496896,[],[],0,0⟩,⟨33,549755813888,[],[],0,0⟩],[⟨23,4951760157141521099596496896,[],[],0,0⟩,⟨29,4294967808,[],[],0,0⟩,⟨30,115792089237316195423570985008687907853269984665635612279300442486259482361343,[],[(12,.code)],0,0⟩,⟨31,4951760157141521099596496896,[],[],0,0⟩,⟨33,549755813888,[],[],0,0⟩],[⟨32,115792089237316195423570985008687907853269984665640564039457584007913129626623,[],[(13,.code)],0,0⟩],[⟨23,4951760157141521099596496896,[],[],0,0⟩,⟨29,4294967808,[],[],0,0⟩,⟨30,115792089237316195423570985008687907853269984665635612279300442486259482361343,[],[(12,.code)],0,0⟩,⟨31,4951760157141521099596496896,[],[],0,0⟩,⟨33,549755813888,[],[],0,0⟩],[],[⟨35,4951760157141521099596496896,[],[],0,0⟩,⟨41,4294967808,[],[],0,0⟩,⟨42,115792089237316195423570985008687907853269984665635612279300442486792058306047,[],[(17,.code)],0,0⟩,⟨43,4951760157141521099596496896,[],[],0,0⟩,⟨45,17179869184,[],[],0,0⟩],[⟨36,8192,[],[],0,0⟩,⟨38,1024,[],[],0,0⟩,⟨39,4096,[],[],0,0⟩,⟨40,8192,[.crAlone],[],0,0⟩],[⟨37,1024,[],[],0,0⟩],[⟨35,4951760157141521099596496896,[],[(15,.setEnt .internalNl),(16,.cb)],0,0⟩,⟨41,4294967808,[],[(15,.setEnt .internalNl),(16,.cb)],0,0⟩,⟨42,115792089237316195423570985008687907853269984665635612279300442486792058306047,[],[(15,.setEnt .internalNl),(16,.cb),(17,.code)],0,0⟩,⟨43,4951760157141521099596496896,[],[(15,.setEnt .internalNl),(16,.cb)],0,0⟩,⟨45,17179869184,[],[(15,.setEnt .internalNl),(16,.cb)],0,0⟩],[⟨35,4951760157141521099596496896,[],[(15,.setEnt .internalNl),(16,.cb)],0,0⟩,⟨41,4294967808,[],[(15,.setEnt .internalNl),(16,.cb)],0,0⟩,⟨42,115792089237316195423570985008687907853269984665635612279300442486792058306047,[],[(15,.setEnt .internalNl),(16,.cb),(17,.code)],0,0⟩,⟨43,4951760157141521099596496896,[],[(15,.setEnt .internalNl),(16,.cb)],0,0⟩,⟨45,17179869184,[],[(15,.setEnt .internalNl),(16,.cb)],0,0⟩],[⟨35,4951760157141521099596496896,[],[(15,.setEnt .internalNl),(16,.cb)],0,0⟩,⟨41,4294967808,[],[(15,.setEnt .internalNl),(16,.cb)],0,0⟩,⟨42,115792089237316195423570985008687907853269984665635612279300442486792058306047,[],[(15,.setEnt .internalNl),(16,.cb),(17,.code)],0,0⟩,⟨43,4951760157141521099596496896,[],[(15,.setEnt .internalNl),(16,.cb)],0,0⟩,⟨45,17179869184,[],[(15,.setEnt .internalNl),(16,.cb)],0,0⟩],[⟨35,4951760157141521099596496896,[],[(15,.setEnt .internalNl),(16,.cb)],0,0⟩,⟨41,4294967808,[],[(15,.setEnt .internalNl),(16,.cb)],0,0⟩,⟨42,115792089237316195423570985008687907853269984665635612279300442486792058306047,[],[(15,.setEnt .internalNl),(16,.cb),(17,.code)],0,0⟩,⟨43,4951760157141521099596496896,[],[(15,.setEnt .internalNl),(16,.cb)],0,0⟩,⟨45,17179869184,[],[(15,.setEnt .internalNl),(16,.cb)],0,0⟩],[⟨35,4951760157141521099596496896,[],[],0,0⟩,⟨41,4294967808,[],[],0,0⟩,⟨42,115792089237316195423570985008687907853269984665635612279300442486792058306047,[],[(17,.code)],0,0⟩,⟨43,4951760157141521099596496896,[],[],0,0⟩,⟨45,17179869184,[],[],0,0⟩],[⟨35,4951760157141521099596496896,[],[],0,0⟩,⟨41,4294967808,[],[],0,0⟩,⟨42,115792089237316195423570985008687907853269984665635612279300442486792058306047,[],[(17,.code)],0,0⟩,⟨43,4951760157141521099596496896,[],[],0,0⟩,⟨45,17179869184,[],[],0,0⟩],[⟨44,115792089237316195423570985008687907853269984665640564039457584007913129626623,[],[(18,.code)],0,0⟩],[⟨35,4951760157141521099596496896,[],[],0,0⟩,⟨41,4294967808,[],[],0,0⟩,⟨42,115792089237316195423570985008687907853269984665635612279300442486792058306047,[],[(17,.code)],0,0⟩,⟨43,4951760157141521099596496896,[],[],0,0⟩,⟨45,17179869184,[],[],0,0⟩],[],[⟨47,1024,[],[(19,.setEnt .newline)],0,0⟩],[],[],[],[],[]],[some (0,[]),none,some (1,[]),none,none,some (1,[(2,.setEnt .internalNl),(3,.cb)]),some (1,[(2,.setEnt .internalNl),(3,.cb)]),some (1,[(2,.setEnt .internalNl),(3,.cb)]),some (1,[(2,.setEnt .internalNl),(3,.cb)]),some (1,[]),some (1,[]),none,none,none,none,none,none,none,none,none,none,some (1,[]),none,none,none,none,none,none,none,none,none,none,none,some (2,[]),none,none,none,none,none,none,none,none,none,none,none,some (2,[]),none,some (3,[]),some (3,[]),some (3,[]),some (3,[]),some (4,[])],[1,9,19,20,21]⟩
theorem groovy_line_nfa_eq : Groovy.groovy_line.nfa = groovy_line_nfa := by decide +kernel
/-- The machine of `Groovy.groovy_line`, with its automaton as a literal. -/
def groovy_line_M : Machine := ⟨groovy_line_nfa, Groovy.groovy_line.ends, Groovy.groovy_line.sw⟩
theorem groovy_line_M_eq : Groovy.groovy_line.machine = groovy_line_M := by
  unfold Scanner.machine groovy_line_M; rw [groovy_line_nfa_eq]
def groovy_line_masks : List Nat := [4294967808,140737488355328,549755813888,17179869184,8192,1024,4096,115792089237316195423570985008687907853269984665640564039457584007908834656767,4951760157141521099596496896,115792089237316195423570985008687907853269984665640564039457584007908834658815,4398046511104,115792089237316195423570985008687907853269984665635612279300442486259482361343,115792089237316195423570985008687907853269984665640564039457584007913129626623,115792089237316195423570985008687907853269984665635612279300442486792058306047]
def groovy_line_cs : List (Nat × Nat) := [(0,115792089237316195423570985008687907853269984665635612279300442341106767610367),(9,4294967808),(10,1024),(11,2048),(12,4096),(13,8192),(34,17179869184),(39,549755813888),(42,4398046511104),(47,140737488355328),(92,4951760157141521099596496896)]
theorem groovy_line_masksIn : masksIn groovy_line_nfa groovy_line_masks = true := by decide +kernel
theorem groovy_line_repOk : repOk groovy_line_masks groovy_line_cs = true := by decide +kernel
def groovy_line_rows : List Row := [⟨[],none,[],[⟨256,.other,false,some ⟨0,[.setEnt (.own 3)],some 4,true⟩⟩,⟨256,.ws,false,some ⟨1,[.setEnt (.own 0)],some 0,false⟩⟩,⟨256,.lf,false,some ⟨0,[.setEnt .newline],some 3,true⟩⟩,⟨256,.vt,false,none⟩,⟨256,.ff,false,some ⟨0,[.setEnt .newline],some 3,true⟩⟩,⟨256,.cr,false,some ⟨2,[.setEnt .newline],none,false⟩⟩,⟨256,.cr,true,some ⟨3,[.setEnt .newline],some 3,false⟩⟩,⟨256,.other,false,some ⟨4,[.code,.setEnt (.own 3)],some 4,false⟩⟩,⟨256,.other,false,some ⟨5,[.code,.setEnt (.own 3)],some 4,false⟩⟩,⟨256,.other,false,some ⟨6,[.setEnt (.own 3)],some 4,false⟩⟩]⟩,⟨[0],some 0,[],[⟨256,.other,false,none⟩,⟨256,.ws,false,some ⟨1,[.setEnt (.own 0)],some 0,false⟩⟩,⟨256,.lf,false,none⟩,⟨256,.vt,false,none⟩,⟨256,.ff,false,none⟩,⟨256,.cr,false,none⟩,⟨256,.cr,true,none⟩]⟩,⟨[46],none,[],[⟨256,.other,false,none⟩,⟨256,.ws,false,none⟩,⟨256,.lf,false,some ⟨0,[.setEnt .newline],some 3,true⟩⟩,⟨256,.vt,false,none⟩,⟨256,.ff,false,none⟩,⟨256,.cr,false,none⟩,⟨256,.cr,true,none⟩]⟩,⟨[46,50],some 3,[],[⟨256,.other,false,none⟩,⟨256,.ws,false,none⟩,⟨256,.lf,false,some ⟨0,[.setEnt .newline],some 3,true⟩⟩,⟨256,.vt,false,none⟩,⟨256,.ff,false,none⟩,⟨256,.cr,false,none⟩,⟨256,.cr,true,none⟩]⟩,⟨[34,51],some 4,[],[⟨256,.other,false,some ⟨7,[.code],none,false⟩⟩,⟨256,.ws,false,some ⟨8,[],none,false⟩⟩,⟨256,.lf,false,some ⟨7,[.code],none,false⟩⟩,⟨256,.vt,false,some ⟨7,[.code],none,false⟩⟩,⟨256,.ff,false,some ⟨7,[.code],none,false⟩⟩,⟨256,.cr,false,some ⟨7,[.code],none,false⟩⟩,⟨256,.cr,true,some ⟨7,[.code],none,false⟩⟩,⟨256,.other,false,some ⟨0,[],some 2,true⟩⟩,⟨256,.other,false,some ⟨9,[],none,false⟩⟩]⟩,⟨[22,51],some 4,[],[⟨256,.other,false,some ⟨10,[.code],none,false⟩⟩,⟨256,.ws,false,some ⟨11,[],none,false⟩⟩,⟨256,.lf,false,some ⟨10,[.code],none,false⟩⟩,⟨256,.vt,false,some ⟨10,[.code],none,false⟩⟩,⟨256,.ff,false,some ⟨10,[.code],none,false⟩⟩,⟨256,.cr,false,some ⟨10,[.code],none,false⟩⟩,⟨256,.cr,true,some ⟨10,[.code],none,false⟩⟩,⟨256,.other,false,some ⟨0,[],some 2,true⟩⟩,⟨256,.other,false,some ⟨12,[],none,false⟩⟩]⟩,⟨[1,11,51],some 4,[],[⟨256,.other,false,none⟩,⟨256,.ws,false,none⟩,⟨256,.lf,false,none⟩,⟨256,.vt,false,none⟩,⟨256,.ff,false,none⟩,⟨256,.cr,false,none⟩,⟨256,.cr,true,none⟩,⟨256,.other,false,some ⟨13,[.comment],none,false⟩⟩,⟨256,.other,false,some ⟨14,[.comment],some 1,false⟩⟩]⟩,⟨[42],none,[],[⟨256,.other,false,some ⟨7,[.code],none,false⟩⟩,⟨256,.ws,false,some ⟨8,[],none,false⟩⟩,⟨256,.lf,false,some ⟨7,[.code],none,false⟩⟩,⟨256,.vt,false,some ⟨7,[.code],none,false⟩⟩,⟨256,.ff,false,some ⟨7,[.code],none,false⟩⟩,⟨256,.cr,false,some ⟨7,[.code],none,false⟩⟩,⟨256,.cr,true,some ⟨7,[.code],none,false⟩⟩,⟨256,.other,false,some ⟨0,[],some 2,true⟩⟩,⟨256,.other,false,some ⟨9,[],none,false⟩⟩]⟩,⟨[41],none,[],[⟨256,.other,false,some ⟨7,[.code],none,false⟩⟩,⟨256,.ws,false,some ⟨8,[],none,false⟩⟩,⟨256,.lf,false,some ⟨7,[.code],none,false⟩⟩,⟨256,.vt,false,some ⟨7,[.code],none,false⟩⟩,⟨256,.ff,false,some ⟨7,[.code],none,false⟩⟩,⟨256,.cr,false,some ⟨7,[.code],none,false⟩⟩,⟨256,.cr,true,some ⟨7,[.code],none,false⟩⟩,⟨256,.other,false,some ⟨0,[],some 2,true⟩⟩,⟨256,.other,false,some ⟨9,[],none,false⟩⟩]⟩,⟨[35,43],none,[],[⟨256,.other,false,some ⟨15,[.code],none,false⟩⟩,⟨256,.ws,false,some ⟨15,[.code],none,false⟩⟩,⟨256,.lf,false,some ⟨16,[],none,false⟩⟩,⟨256,.vt,false,some ⟨15,[.code],none,false⟩⟩,⟨256,.ff,false,some ⟨17,[],none,false⟩⟩,⟨256,.cr,false,some ⟨18,[],none,false⟩⟩,⟨256,.cr,true,some ⟨19,[],none,false⟩⟩]⟩,⟨[30],none,[],[⟨256,.other,false,some ⟨10,[.code],none,false⟩⟩,⟨256,.ws,false,some ⟨11,[],none,false⟩⟩,⟨256,.lf,false,some ⟨10,[.code],none,false⟩⟩,⟨256,.vt,false,some ⟨10,[.code],none,false⟩⟩,⟨256,.ff,false,some ⟨10,[.code],none,false⟩⟩,⟨256,.cr,false,some ⟨10,[.code],none,false⟩⟩,⟨256,.cr,true,some ⟨10,[.code],none,false⟩⟩,⟨256,.other,false,some ⟨0,[],some 2,true⟩⟩,⟨256,.other,false,some ⟨12,[],none,false⟩⟩]⟩,⟨[29],none,[],[⟨256,.other,false,some ⟨10,[.code],none,false⟩⟩,⟨256,.ws,false,some ⟨11,[],none,false⟩⟩,⟨256,.lf,false,some ⟨10,[.code],none,false⟩⟩,⟨256,.vt,false,some ⟨10,[.code],none,false⟩⟩,⟨256,.ff,false,some ⟨10,[.code],none,false⟩⟩,⟨256,.cr,false,some ⟨10,[.code],none,false⟩⟩,⟨256,.cr,true,some ⟨10,[.code],none,false⟩⟩,⟨256,.other,false,some ⟨0,[],some 2,true⟩⟩,⟨256,.other,false,some ⟨12,[],none,false⟩⟩]⟩,⟨[23,31],none,[],[⟨256,.other,false,some ⟨20,[.code],none,false⟩⟩,⟨256,.ws,false,some ⟨20,[.code],none,false⟩⟩,⟨256,.lf,false,some ⟨21,[],none,false⟩⟩,⟨256,.vt,false,some ⟨20,[.code],none,false⟩⟩,⟨256,.ff,false,some ⟨22,[],none,false⟩⟩,⟨256,.cr,false,some ⟨23,[],none,false⟩⟩,⟨256,.cr,true,some ⟨24,[],none,false⟩⟩]⟩,⟨[12],none,[],[⟨256,.other,false,some ⟨25,[.comment],none,false⟩⟩,⟨256,.ws,false,some ⟨26,[],none,false⟩⟩,⟨256,.lf,false,some ⟨27,[],none,false⟩⟩,⟨256,.vt,false,some ⟨25,[.comment],none,false⟩⟩,⟨256,.ff,false,some ⟨28,[],none,false⟩⟩,⟨256,.cr,false,some ⟨29,[],none,false⟩⟩,⟨256,.cr,true,some ⟨30,[],none,false⟩⟩,⟨256,.other,false,some ⟨31,[.comment],none,false⟩⟩]⟩,⟨[2],some 1,[],[⟨256,.other,false,some ⟨32,[.comment],some 1,false⟩⟩,⟨256,.ws,false,some ⟨33,[],some 1,false⟩⟩,⟨256,.lf,false,none⟩,⟨256,.vt,false,some ⟨32,[.comment],some 1,false⟩⟩,⟨256,.ff,false,none⟩,⟨256,.cr,false,none⟩,⟨256,.cr,true,none⟩,⟨256,.other,false,some ⟨34,[.comment],some 1,false⟩⟩]⟩,⟨[44],none,[],[⟨256,.other,false,some ⟨7,[.code],none,false⟩⟩,⟨256,.ws,false,some ⟨8,[],none,false⟩⟩,⟨256,.lf,false,some ⟨7,[.code],none,false⟩⟩,⟨256,.vt,false,some ⟨7,[.code],none,false⟩⟩,⟨256,.ff,false,some ⟨7,[.code],none,false⟩⟩,⟨256,.cr,false,some ⟨7,[.code],none,false⟩⟩,⟨256,.cr,true,some ⟨7,[.code],none,false⟩⟩,⟨256,.other,false,some ⟨0,[],some 2,true⟩⟩,⟨256,.other,false,some ⟨9,[],none,false⟩⟩]⟩,⟨[38],none,[],[⟨256,.other,false,some ⟨7,[.setEnt .internalNl,.cb,.code],none,false⟩⟩,⟨256,.ws,false,some ⟨8,[.setEnt .internalNl,.cb],none,false⟩⟩,⟨256,.lf,false,some ⟨7,[.setEnt .internalNl,.cb,.code],none,false⟩⟩,⟨256,.vt,false,some ⟨7,[.setEnt .internalNl,.cb,.code],none,false⟩⟩,⟨256,.ff,false,some ⟨7,[.setEnt .internalNl,.cb,.code],none,false⟩⟩,⟨256,.cr,false,some ⟨7,[.setEnt .internalNl,.cb,.code],none,false⟩⟩,⟨256,.cr,true,some ⟨7,[.setEnt .internalNl,.cb,.code],none,false⟩⟩,⟨256,.other,false,some ⟨0,[.setEnt .internalNl,.cb],some 2,true⟩⟩,⟨256,.other,false,some ⟨9,[.setEnt .internalNl,.cb],none,false⟩⟩]⟩,⟨[39],none,[],[⟨256,.other,false,some ⟨7,[.setEnt .internalNl,.cb,.code],none,false⟩⟩,⟨256,.ws,false,some ⟨8,[.setEnt .internalNl,.cb],none,false⟩⟩,⟨256,.lf,false,some ⟨7,[.setEnt .internalNl,.cb,.code],none,false⟩⟩,⟨256,.vt,false,some ⟨7,[.setEnt .internalNl,.cb,.code],none,false⟩⟩,⟨256,.ff,false,some ⟨7,[.setEnt .internalNl,.cb,.code],none,false⟩⟩,⟨256,.cr,false,some ⟨7,[.setEnt .internalNl,.cb,.code],none,false⟩⟩,⟨256,.cr,true,some ⟨7,[.setEnt .internalNl,.cb,.code],none,false⟩⟩,⟨256,.other,false,some ⟨0,[.setEnt .internalNl,.cb],some 2,true⟩⟩,⟨256,.other,false,some ⟨9,[.setEnt .internalNl,.cb],none,false⟩⟩]⟩,⟨[36],none,[],[⟨256,.other,false,none⟩,⟨256,.ws,false,none⟩,⟨256,.lf,false,some ⟨35,[],none,false⟩⟩,⟨256,.vt,false,none⟩,⟨256,.ff,false,none⟩,⟨256,.cr,false,none⟩,⟨256,.cr,true,none⟩]⟩,⟨[36,40],none,[],[⟨256,.other,false,some ⟨7,[.setEnt .internalNl,.cb,.code],none,false⟩⟩,⟨256,.ws,false,some ⟨8,[.setEnt .internalNl,.cb],none,false⟩⟩,⟨256,.lf,false,some ⟨36,[.setEnt .internalNl,.cb,.code],none,false⟩⟩,⟨256,.vt,false,some ⟨7,[.setEnt .internalNl,.cb,.code],none,false⟩⟩,⟨256,.ff,false,some ⟨7,[.setEnt .internalNl,.cb,.code],none,false⟩⟩,⟨256,.cr,false,some ⟨7,[.setEnt .internalNl,.cb,.code],none,false⟩⟩,⟨256,.cr,true,some ⟨7,[.setEnt .internalNl,.cb,.code],none,false⟩⟩,⟨256,.other,false,some ⟨0,[.setEnt .internalNl,.cb],some 2,true⟩⟩,⟨256,.other,false,some ⟨9,[.setEnt .internalNl,.cb],none,false⟩⟩]⟩,⟨[32],none,[],[⟨256,.other,false,some ⟨10,[.code],none,false⟩⟩,⟨256,.ws,false,some ⟨11,[],none,false⟩⟩,⟨256,.lf,false,some ⟨10,[.code],none,false⟩⟩,⟨256,.vt,false,some ⟨10,[.code],none,false⟩⟩,⟨256,.ff,false,some ⟨10,[.code],none,false⟩⟩,⟨256,.cr,false,some ⟨10,[.code],none,false⟩⟩,⟨256,.cr,true,some ⟨10,[.code],none,false⟩⟩,⟨256,.other,false,some ⟨0,[],some 2,true⟩⟩,⟨256,.other,false,some ⟨12,[],none,false⟩⟩]⟩,⟨[26],none,[],[⟨256,.other,false,some ⟨10,[.setEnt .internalNl,.cb,.code],none,false⟩⟩,⟨256,.ws,false,some ⟨11,[.setEnt .internalNl,.cb],none,false⟩⟩,⟨256,.lf,false,some ⟨10,[.setEnt .internalNl,.cb,.code],none,false⟩⟩,⟨256,.vt,false,some ⟨10,[.setEnt .internalNl,.cb,.code],none,false⟩⟩,⟨256,.ff,false,some ⟨10,[.setEnt .internalNl,.cb,.code],none,false⟩⟩,⟨256,.cr,false,some ⟨10,[.setEnt .internalNl,.cb,.code],none,false⟩⟩,⟨256,.cr,true,some ⟨10,[.setEnt .internalNl,.cb,.code],none,false⟩⟩,⟨256,.other,false,some ⟨0,[.setEnt .internalNl,.cb],some 2,true⟩⟩,⟨256,.other,false,some ⟨12,[.setEnt .internalNl,.cb],none,false⟩⟩]⟩,⟨[27],none,[],[⟨256,.other,false,some ⟨10,[.setEnt .internalNl,.cb,.code],none,false⟩⟩,⟨256,.ws,false,some ⟨11,[.setEnt .internalNl,.cb],none,false⟩⟩,⟨256,.lf,false,some ⟨10,[.setEnt .internalNl,.cb,.code],none,false⟩⟩,⟨256,.vt,false,some ⟨10,[.setEnt .internalNl,.cb,.code],none,false⟩⟩,⟨256,.ff,false,some ⟨10,[.setEnt .internalNl,.cb,.code],none,false⟩⟩,⟨256,.cr,false,some ⟨10,[.setEnt .internalNl,.cb,.code],none,false⟩⟩,⟨256,.cr,true,some ⟨10,[.setEnt .internalNl,.cb,.code],none,false⟩⟩,⟨256,.other,false,some ⟨0,[.setEnt .internalNl,.cb],some 2,true⟩⟩,⟨256,.other,false,some ⟨12,[.setEnt .internalNl,.cb],none,false⟩⟩]⟩,⟨[24],none,[],[⟨256,.other,false,none⟩,⟨256,.ws,false,none⟩,⟨256,.lf,false,some ⟨37,[],none,false⟩⟩,⟨256,.vt,false,none⟩,⟨256,.ff,false,none⟩,⟨256,.cr,false,none⟩,⟨256,.cr,true,none⟩]⟩,⟨[24,28],none,[],[⟨256,.other,false,some ⟨10,[.setEnt .internalNl,.cb,.code],none,false⟩⟩,⟨256,.ws,false,some ⟨11,[.setEnt .internalNl,.cb],none,false⟩⟩,⟨256,.lf,false,some ⟨38,[.setEnt .internalNl,.cb,.code],none,false⟩⟩,⟨256,.vt,false,some ⟨10,[.setEnt .internalNl,.cb,.code],none,false⟩⟩,⟨256,.ff,false,some ⟨10,[.setEnt .internalNl,.cb,.code],none,false⟩⟩,⟨256,.cr,false,some ⟨10,[.setEnt .internalNl,.cb,.code],none,false⟩⟩,⟨256,.cr,true,some ⟨10,[.setEnt .internalNl,.cb,.code],none,false⟩⟩,⟨256,.other,false,some ⟨0,[.setEnt .internalNl,.cb],some 2,true⟩⟩,⟨256,.other,false,some ⟨12,[.setEnt .internalNl,.cb],none,false⟩⟩]⟩,⟨[19],none,[],[⟨256,.other,false,some ⟨25,[.comment],none,false⟩⟩,⟨256,.ws,false,some ⟨26,[],none,false⟩⟩,⟨256,.lf,false,some ⟨27,[],none,false⟩⟩,⟨256,.vt,false,some ⟨25,[.comment],none,false⟩⟩,⟨256,.ff,false,some ⟨28,[],none,false⟩⟩,⟨256,.cr,false,some ⟨29,[],none,false⟩⟩,⟨256,.cr,true,some ⟨30,[],none,false⟩⟩,⟨256,.other,false,some ⟨31,[.comment],none,false⟩⟩]⟩,⟨[18],none,[],[⟨256,.other,false,some ⟨25,[.comment],none,false⟩⟩,⟨256,.ws,false,some ⟨26,[],none,false⟩⟩,⟨256,.lf,false,some ⟨27,[],none,false⟩⟩,⟨256,.vt,false,some ⟨25,[.comment],none,false⟩⟩,⟨256,.ff,false,some ⟨28,[],none,false⟩⟩,⟨256,.cr,false,some ⟨29,[],none,false⟩⟩,⟨256,.cr,true,some ⟨30,[],none,false⟩⟩,⟨256,.other,false,some ⟨31,[.comment],none,false⟩⟩]⟩,⟨[15],none,[],[⟨256,.other,false,some ⟨25,[.setEnt .internalNl,.cb,.comment],none,false⟩⟩,⟨256,.ws,false,some ⟨26,[.setEnt .internalNl,.cb],none,false⟩⟩,⟨256,.lf,false,some ⟨27,[.setEnt .internalNl,.cb],none,false⟩⟩,⟨256,.vt,false,some ⟨25,[.setEnt .internalNl,.cb,.comment],none,false⟩⟩,⟨256,.ff,false,some ⟨28,[.setEnt .internalNl,.cb],none,false⟩⟩,⟨256,.cr,false,some ⟨29,[.setEnt .internalNl,.cb],none,false⟩⟩,⟨256,.cr,true,some ⟨30,[.setEnt .internalNl,.cb],none,false⟩⟩,⟨256,.other,false,some ⟨31,[.setEnt .internalNl,.cb,.comment],none,false⟩⟩]⟩,⟨[16],none,[],[⟨256,.other,false,some ⟨25,[.setEnt .internalNl,.cb,.comment],none,false⟩⟩,⟨256,.ws,false,some ⟨26,[.setEnt .internalNl,.cb],none,false⟩⟩,⟨256,.lf,false,some ⟨27,[.setEnt .internalNl,.cb],none,false⟩⟩,⟨256,.vt,false,some ⟨25,[.setEnt .internalNl,.cb,.comment],none,false⟩⟩,⟨256,.ff,false,some ⟨28,[.setEnt .internalNl,.cb],none,false⟩⟩,⟨256,.cr,false,some ⟨29,[.setEnt .internalNl,.cb],none,false⟩⟩,⟨256,.cr,true,some ⟨30,[.setEnt .internalNl,.cb],none,false⟩⟩,⟨256,.other,false,some ⟨31,[.setEnt .internalNl,.cb,.comment],none,false⟩⟩]⟩,⟨[13],none,[],[⟨256,.other,false,none⟩,⟨256,.ws,false,none⟩,⟨256,.lf,false,some ⟨39,[],none,false⟩⟩,⟨256,.vt,false,none⟩,⟨256,.ff,false,none⟩,⟨256,.cr,false,none⟩,⟨256,.cr,true,none⟩]⟩,⟨[13,17],none,[],[⟨256,.other,false,some ⟨25,[.setEnt .internalNl,.cb,.comment],none,false⟩⟩,⟨256,.ws,false,some ⟨26,[.setEnt .internalNl,.cb],none,false⟩⟩,⟨256,.lf,false,some ⟨40,[.setEnt .internalNl,.cb],none,false⟩⟩,⟨256,.vt,false,some ⟨25,[.setEnt .internalNl,.cb,.comment],none,false⟩⟩,⟨256,.ff,false,some ⟨28,[.setEnt .internalNl,.cb],none,false⟩⟩,⟨256,.cr,false,some ⟨29,[.setEnt .internalNl,.cb],none,false⟩⟩,⟨256,.cr,true,some ⟨30,[.setEnt .internalNl,.cb],none,false⟩⟩,⟨256,.other,false,some ⟨31,[.setEnt .internalNl,.cb,.comment],none,false⟩⟩]⟩,⟨[19,20],none,[],[⟨256,.other,false,some ⟨25,[.comment],none,false⟩⟩,⟨256,.ws,false,some ⟨26,[],none,false⟩⟩,⟨256,.lf,false,some ⟨27,[],none,false⟩⟩,⟨256,.vt,false,some ⟨25,[.comment],none,false⟩⟩,⟨256,.ff,false,some ⟨28,[],none,false⟩⟩,⟨256,.cr,false,some ⟨29,[],none,false⟩⟩,⟨256,.cr,true,some ⟨30,[],none,false⟩⟩,⟨256,.other,false,some ⟨31,[.comment],none,false⟩⟩,⟨256,.other,false,some ⟨0,[],some 1,true⟩⟩]⟩,⟨[10],some 1,[],[⟨256,.other,false,some ⟨32,[.comment],some 1,false⟩⟩,⟨256,.ws,false,some ⟨33,[],some 1,false⟩⟩,⟨256,.lf,false,none⟩,⟨256,.vt,false,some ⟨32,[.comment],some 1,false⟩⟩,⟨256,.ff,false,none⟩,⟨256,.cr,false,none⟩,⟨256,.cr,true,none⟩,⟨256,.other,false,some ⟨34,[.comment],some 1,false⟩⟩]⟩,⟨[9],some 1,[],[⟨256,.other,false,some ⟨32,[.comment],some 1,false⟩⟩,⟨256,.ws,false,some ⟨33,[],some 1,false⟩⟩,⟨256,.lf,false,none⟩,⟨256,.vt,false,some ⟨32,[.comment],some 1,false⟩⟩,⟨256,.ff,false,none⟩,⟨256,.cr,false,none⟩,⟨256,.cr,true,none⟩,⟨256,.other,false,some ⟨34,[.comment],some 1,false⟩⟩]⟩,⟨[3,10],some 1,[],[⟨256,.other,false,some ⟨32,[.comment],some 1,false⟩⟩,⟨256,.ws,false,some ⟨33,[],some 1,false⟩⟩,⟨256,.lf,false,some ⟨41,[],some 1,false⟩⟩,⟨256,.vt,false,some ⟨32,[.comment],some 1,false⟩⟩,⟨256,.ff,false,some ⟨42,[],some 1,false⟩⟩,⟨256,.cr,false,some ⟨43,[],none,false⟩⟩,⟨256,.cr,true,some ⟨44,[],some 1,false⟩⟩,⟨256,.other,false,some ⟨34,[.comment],some 1,false⟩⟩]⟩,⟨[37],none,[],[⟨256,.other,false,some ⟨7,[.setEnt .internalNl,.cb,.code],none,false⟩⟩,⟨256,.ws,false,some ⟨8,[.setEnt .internalNl,.cb],none,false⟩⟩,⟨256,.lf,false,some ⟨7,[.setEnt .internalNl,.cb,.code],none,false⟩⟩,⟨256,.vt,false,some ⟨7,[.setEnt .internalNl,.cb,.code],none,false⟩⟩,⟨256,.ff,false,some ⟨7,[.setEnt .internalNl,.cb,.code],none,false⟩⟩,⟨256,.cr,false,some ⟨7,[.setEnt .internalNl,.cb,.code],none,false⟩⟩,⟨256,.cr,true,some ⟨7,[.setEnt .internalNl,.cb,.code],none,false⟩⟩,⟨256,.other,false,some ⟨0,[.setEnt .internalNl,.cb],some 2,true⟩⟩,⟨256,.other,false,some ⟨9,[.setEnt .internalNl,.cb],none,false⟩⟩]⟩,⟨[37,42],none,[],[⟨256,.other,false,some ⟨7,[.setEnt .internalNl,.cb,.code],none,false⟩⟩,⟨256,.ws,false,some ⟨8,[.setEnt .internalNl,.cb],none,false⟩⟩,⟨256,.lf,false,some ⟨7,[.setEnt .internalNl,.cb,.code],none,false⟩⟩,⟨256,.vt,false,some ⟨7,[.setEnt .internalNl,.cb,.code],none,false⟩⟩,⟨256,.ff,false,some ⟨7,[.setEnt .internalNl,.cb,.code],none,false⟩⟩,⟨256,.cr,false,some ⟨7,[.setEnt .internalNl,.cb,.code],none,false⟩⟩,⟨256,.cr,true,some ⟨7,[.setEnt .internalNl,.cb,.code],none,false⟩⟩,⟨256,.other,false,some ⟨0,[.setEnt .internalNl,.cb],some 2,true⟩⟩,⟨256,.other,false,some ⟨9,[.setEnt .internalNl,.cb],none,false⟩⟩]⟩,⟨[25],none,[],[⟨256,.other,false,some ⟨10,[.setEnt .internalNl,.cb,.code],none,false⟩⟩,⟨256,.ws,false,some ⟨11,[.setEnt .internalNl,.cb],none,false⟩⟩,⟨256,.lf,false,some ⟨10,[.setEnt .internalNl,.cb,.code],none,false⟩⟩,⟨256,.vt,false,some ⟨10,[.setEnt .internalNl,.cb,.code],none,false⟩⟩,⟨256,.ff,false,some ⟨10,[.setEnt .internalNl,.cb,.code],none,false⟩⟩,⟨256,.cr,false,some ⟨10,[.setEnt .internalNl,.cb,.code],none,false⟩⟩,⟨256,.cr,true,some ⟨10,[.setEnt .internalNl,.cb,.code],none,false⟩⟩,⟨256,.other,false,some ⟨0,[.setEnt .internalNl,.cb],some 2,true⟩⟩,⟨256,.other,false,some ⟨12,[.setEnt .internalNl,.cb],none,false⟩⟩]⟩,⟨[25,30],none,[],[⟨256,.other,false,some ⟨10,[.setEnt .internalNl,.cb,.code],none,false⟩⟩,⟨256,.ws,false,some ⟨11,[.setEnt .internalNl,.cb],none,false⟩⟩,⟨256,.lf,false,some ⟨10,[.setEnt .internalNl,.cb,.code],none,false⟩⟩,⟨256,.vt,false,some ⟨10,[.setEnt .internalNl,.cb,.code],none,false⟩⟩,⟨256,.ff,false,some ⟨10,[.setEnt .internalNl,.cb,.code],none,false⟩⟩,⟨256,.cr,false,some ⟨10,[.setEnt .internalNl,.cb,.code],none,false⟩⟩,⟨256,.cr,true,some ⟨10,[.setEnt .internalNl,.cb,.code],none,false⟩⟩,⟨256,.other,false,some ⟨0,[.setEnt .internalNl,.cb],some 2,true⟩⟩,⟨256,.other,false,some ⟨12,[.setEnt .internalNl,.cb],none,false⟩⟩]⟩,⟨[14],none,[],[⟨256,.other,false,some ⟨25,[.setEnt .internalNl,.cb,.comment],none,false⟩⟩,⟨256,.ws,false,some ⟨26,[.setEnt .internalNl,.cb],none,false⟩⟩,⟨256,.lf,false,some ⟨27,[.setEnt .internalNl,.cb],none,false⟩⟩,⟨256,.vt,false,some ⟨25,[.setEnt .internalNl,.cb,.comment],none,false⟩⟩,⟨256,.ff,false,some ⟨28,[.setEnt .internalNl,.cb],none,false⟩⟩,⟨256,.cr,false,some ⟨29,[.setEnt .internalNl,.cb],none,false⟩⟩,⟨256,.cr,true,some ⟨30,[.setEnt .internalNl,.cb],none,false⟩⟩,⟨256,.other,false,some ⟨31,[.setEnt .internalNl,.cb,.comment],none,false⟩⟩]⟩,⟨[14,15],none,[],[⟨256,.other,false,some ⟨25,[.setEnt .internalNl,.cb,.comment],none,false⟩⟩,⟨256,.ws,false,some ⟨26,[.setEnt .internalNl,.cb],none,false⟩⟩,⟨256,.lf,false,some ⟨27,[.setEnt .internalNl,.cb],none,false⟩⟩,⟨256,.vt,false,some ⟨25,[.setEnt .internalNl,.cb,.comment],none,false⟩⟩,⟨256,.ff,false,some ⟨28,[.setEnt .internalNl,.cb],none,false⟩⟩,⟨256,.cr,false,some ⟨29,[.setEnt .internalNl,.cb],none,false⟩⟩,⟨256,.cr,true,some ⟨30,[.setEnt .internalNl,.cb],none,false⟩⟩,⟨256,.other,false,some ⟨31,[.setEnt .internalNl,.cb,.comment],none,false⟩⟩]⟩,⟨[6],some 1,[.setEnt .internalNl,.cb],[⟨256,.other,false,some ⟨32,[.setEnt .internalNl,.cb,.comment],some 1,false⟩⟩,⟨256,.ws,false,some ⟨33,[.setEnt .internalNl,.cb],some 1,false⟩⟩,⟨256,.lf,false,none⟩,⟨256,.vt,false,some ⟨32,[.setEnt .internalNl,.cb,.comment],some 1,false⟩⟩,⟨256,.ff,false,none⟩,⟨256,.cr,false,none⟩,⟨256,.cr,true,none⟩,⟨256,.other,false,some ⟨34,[.setEnt .internalNl,.cb,.comment],some 1,false⟩⟩]⟩,⟨[7],some 1,[.setEnt .internalNl,.cb],[⟨256,.other,false,some ⟨32,[.setEnt .internalNl,.cb,.comment],some 1,false⟩⟩,⟨256,.ws,false,some ⟨33,[.setEnt .internalNl,.cb],some 1,false⟩⟩,⟨256,.lf,false,none⟩,⟨256,.vt,false,some ⟨32,[.setEnt .internalNl,.cb,.comment],some 1,false⟩⟩,⟨256,.ff,false,none⟩,⟨256,.cr,false,none⟩,⟨256,.cr,true,none⟩,⟨256,.other,false,some ⟨34,[.setEnt .internalNl,.cb,.comment],some 1,false⟩⟩]⟩,⟨[4],none,[],[⟨256,.other,false,none⟩,⟨256,.ws,false,none⟩,⟨256,.lf,false,some ⟨45,[],some 1,false⟩⟩,⟨256,.vt,false,none⟩,⟨256,.ff,false,none⟩,⟨256,.cr,false,none⟩,⟨256,.cr,true,none⟩]⟩,⟨[4,8],some 1,[.setEnt .internalNl,.cb],[⟨256,.other,false,some ⟨32,[.setEnt .internalNl,.cb,.comment],some 1,false⟩⟩,⟨256,.ws,false,some ⟨33,[.setEnt .internalNl,.cb],some 1,false⟩⟩,⟨256,.lf,false,some ⟨45,[],some 1,false⟩⟩,⟨256,.vt,false,some ⟨32,[.setEnt .internalNl,.cb,.comment],some 1,false⟩⟩,⟨256,.ff,false,none⟩,⟨256,.cr,false,none⟩,⟨256,.cr,true,none⟩,⟨256,.other,false,some ⟨34,[.setEnt .internalNl,.cb,.comment],some 1,false⟩⟩]⟩,⟨[5],some 1,[.setEnt .internalNl,.cb],[⟨256,.other,false,some ⟨32,[.setEnt .internalNl,.cb,.comment],some 1,false⟩⟩,⟨256,.ws,false,some ⟨33,[.setEnt .internalNl,.cb],some 1,false⟩⟩,⟨256,.lf,false,none⟩,⟨256,.vt,false,some ⟨32,[.setEnt .internalNl,.cb,.comment],some 1,false⟩⟩,⟨256,.ff,false,none⟩,⟨256,.cr,false,none⟩,⟨256,.cr,true,none⟩,⟨256,.other,false,some ⟨34,[.setEnt .internalNl,.cb,.comment],some 1,false⟩⟩]⟩]
theorem groovy_line_rowsOk : rowsOk groovy_line_nfa [] (groovy_line_cs.map (·.1)) groovy_line_rows = true := by decide +kernel
def groovy_line_D : Dfa groovy_line_M.nfa := ⟨groovy_line_masks, [], groovy_line_cs, groovy_line_rows, groovy_line_masksIn, groovy_line_repOk, groovy_line_rowsOk⟩

def metafont_line_nfa : Nfa := ⟨[⟨0,4294967808,[],[(0,.setEnt (.own 0))],0,0⟩,⟨1,137438953472,[],[(1,.fhold 0),(2,.comment)],0,0⟩,⟨3,17179869184,[],[(3,.code)],0,0⟩,⟨8,8192,[],[(4,.setEnt .newline)],0,0⟩,⟨10,1024,[],[(4,.setEnt .newline)],0,0⟩,⟨11,4096,[],[(4,.setEnt .newline)],0,0⟩,⟨12,8192,[.crAlone],[(4,.setEnt .newline)],0,0⟩,⟨13,115792089237316195423570985008687907853269984665640564039457584007908834656767,[],[(5,.setEnt (.own 3))],0,0⟩],[[⟨0,4294967808,[],[(0,.setEnt (.own 0))],0,0⟩],[⟨2,115792089237316195423570985008687907853269984665640564039457584007913129626623,[],[],0,0⟩],[⟨2,115792089237316195423570985008687907853269984665640564039457584007913129626623,[],[],0,0⟩],[⟨4,115792089237316195423570985008687907853269984665635612279300442486796353260543,[],[],0,0⟩,⟨5,4951760157141521099596496896,[],[],0,0⟩,⟨7,17179869184,[],[],0,0⟩],[⟨4,115792089237316195423570985008687907853269984665635612279300442486796353260543,[],[],0,0⟩,⟨5,4951760157141521099596496896,[],[],0,0⟩,⟨7,17179869184,[],[],0,0⟩],[⟨6,115792089237316195423570985008687907853269984665640564039457584007913129626623,[],[],0,0⟩],[⟨4,115792089237316195423570985008687907853269984665635612279300442486796353260543,[],[],0,0⟩,⟨5,4951760157141521099596496896,[],[],0,0⟩,⟨7,17179869184,[],[],0,0⟩],[],[⟨9,1024,[],[(4,.setEnt .newline)],0,0⟩],[],[],[],[],[]],[some (0,[]),some (1,[]),some (1,[]),none,none,none,none,some (2,[]),none,some (3,[]),some (3,[]),some (3,[]),some (3,[]),some (4,[])],[1,3,4,5,6]⟩
theorem metafont_line_nfa_eq : Metafont.metafont_line.nfa = metafont_line_nfa := by decide +kernel
/-- The machine of `Metafont.metafont_line`, with its automaton as a literal. -/
def metafont_line_M : Machine := ⟨metafont_line_nfa, Metafont.metafont_line.ends, Metafont.metafont_line.sw⟩
theorem metafont_line_M_eq : Metafont.metafont_line.machine = metafont_line_M := by
  unfold Scanner.machine metafont_line_M; rw [metafont_line_nfa_eq]
def metafont_line_masks : List Nat := [4294967808,137438953472,17179869184,8192,1024,4096,115792089237316195423570985008687907853269984665640564039457584007908834656767,115792089237316195423570985008687907853269984665640564039457584007913129626623,115792089237316195423570985008687907853269984665635612279300442486796353260543,4951760157141521099596496896]
def metafont_line_cs : List (Nat × Nat) := [(0,115792089237316195423570985008687907853269984665635612279300442486654619337215),(9,4294967808),(10,1024),(11,2048),(12,4096),(13,8192),(34,17179869184),(37,137438953472),(92,4951760157141521099596496896)]
theorem metafont_line_masksIn : masksIn metafont_line_nfa metafont_line_masks = true := by decide +kernel
theorem metafont_line_repOk : repOk metafont_line_masks metafont_line_cs = true := by decide +kernel
def metafont_line_rows : List Row := [⟨[],none,[],[⟨0,.other,false,some ⟨0,[.setEnt (.own 3)],some 4,true⟩⟩,⟨9,.ws,false,some ⟨1,[.setEnt (.own 0)],some 0,false⟩⟩,⟨10,.lf,false,some ⟨0,[.setEnt .newline],some 3,true⟩⟩,⟨11,.vt,false,none⟩,⟨12,.ff,false,some ⟨0,[.setEnt .newline],some 3,true⟩⟩,⟨13,.cr,false,some ⟨2,[.setEnt .newline],none,false⟩⟩,⟨13,.cr,true,some ⟨3,[.setEnt .newline],some 3,false⟩⟩,⟨34,.other,false,some ⟨4,[.code,.setEnt (.own 3)],some 4,false⟩⟩,⟨37,.other,false,some ⟨5,[.fhold 0,.comment,.setEnt (.own 3)],some 1,false⟩⟩,⟨92,.other,false,some ⟨0,[.setEnt (.own 3)],some 4,true⟩⟩]⟩,⟨[0],some 0,[],[⟨0,.other,false,none⟩,⟨9,.ws,false,some ⟨1,[.setEnt (.own 0)],some 0,false⟩⟩,⟨10,.lf,false,none⟩,⟨11,.vt,false,none⟩,⟨12,.ff,false,none⟩,⟨13,.cr,false,none⟩,⟨13,.cr,true,none⟩,⟨34,.other,false,none⟩,⟨37,.other,false,none⟩,⟨92,.other,false,none⟩]⟩,⟨[8],none,[],[⟨0,.other,false,none⟩,⟨9,.ws,false,none⟩,⟨10,.lf,false,some ⟨0,[.setEnt .newline],some 3,true⟩⟩,⟨11,.vt,false,none⟩,⟨12,.ff,false,none⟩,⟨13,.cr,false,none⟩,⟨13,.cr,true,none⟩,⟨34,.other,false,none⟩,⟨37,.other,false,none⟩,⟨92,.other,false,none⟩]⟩,⟨[8,12],some 3,[],[⟨0,.other,false,none⟩,⟨9,.ws,false,none⟩,⟨10,.lf,false,some ⟨0,[.setEnt .newline],some 3,true⟩⟩,⟨11,.vt,false,none⟩,⟨12,.ff,false,none⟩,⟨13,.cr,false,none⟩,⟨13,.cr,true,none⟩,⟨34,.other,false,none⟩,⟨37,.other,false,none⟩,⟨92,.other,false,none⟩]⟩,⟨[3,13],some 4,[],[⟨0,.other,false,some ⟨6,[],none,false⟩⟩,⟨9,.ws,false,some ⟨6,[],none,false⟩⟩,⟨10,.lf,false,none⟩,⟨11,.vt,false,some ⟨6,[],none,false⟩⟩,⟨12,.ff,false,none⟩,⟨13,.cr,false,none⟩,⟨13,.cr,true,none⟩,⟨34,.other,false,some ⟨0,[],some 2,true⟩⟩,⟨37,.other,false,some ⟨6,[],none,false⟩⟩,⟨92,.other,false,some ⟨7,[],none,false⟩⟩]⟩,⟨[1,13],some 1,[],[⟨0,.other,false,some ⟨8,[],some 1,false⟩⟩,⟨9,.ws,false,some ⟨8,[],some 1,false⟩⟩,⟨10,.lf,false,none⟩,⟨11,.vt,false,some ⟨8,[],some 1,false⟩⟩,⟨12,.ff,false,none⟩,⟨13,.cr,false,none⟩,⟨13,.cr,true,none⟩,⟨34,.other,false,some ⟨8,[],some 1,false⟩⟩,⟨37,.other,false,some ⟨8,[],some 1,false⟩⟩,⟨92,.other,false,some ⟨8,[],some 1,false⟩⟩]⟩,⟨[4],none,[],[⟨0,.other,false,some ⟨6,[],none,false⟩⟩,⟨9,.ws,false,some ⟨6,[],none,false⟩⟩,⟨10,.lf,false,none⟩,⟨11,.vt,false,some ⟨6,[],none,false⟩⟩,⟨12,.ff,false,none⟩,⟨13,.cr,false,none⟩,⟨13,.cr,true,none⟩,⟨34,.other,false,some ⟨0,[],some 2,true⟩⟩,⟨37,.other,false,some ⟨6,[],none,false⟩⟩,⟨92,.other,false,some ⟨7,[],none,false⟩⟩]⟩,⟨[5],none,[],[⟨0,.other,false,some ⟨9,[],none,false⟩⟩,⟨9,.ws,false,some ⟨9,[],none,false⟩⟩,⟨10,.lf,false,none⟩,⟨11,.vt,false,some ⟨9,[],none,false⟩⟩,⟨12,.ff,false,none⟩,⟨13,.cr,false,none⟩,⟨13,.cr,true,none⟩,⟨34,.other,false,some ⟨9,[],none,false⟩⟩,⟨37,.other,false,some ⟨9,[],none,false⟩⟩,⟨92,.other,false,some ⟨9,[],none,false⟩⟩]⟩,⟨[2],some 1,[],[⟨0,.other,false,some ⟨8,[],some 1,false⟩⟩,⟨9,.ws,false,some ⟨8,[],some 1,false⟩⟩,⟨10,.lf,false,none⟩,⟨11,.vt,false,some ⟨8,[],some 1,false⟩⟩,⟨12,.ff,false,none⟩,⟨13,.cr,false,none⟩,⟨13,.cr,true,none⟩,⟨34,.other,false,some ⟨8,[],some 1,false⟩⟩,⟨37,.other,false,some ⟨8,[],some 1,false⟩⟩,⟨92,.other,false,some ⟨8,[],some 1,false⟩⟩]⟩,⟨[6],none,[],[⟨0,.other,false,some ⟨6,[],none,false⟩⟩,⟨9,.ws,false,some ⟨6,[],none,false⟩⟩,⟨10,.lf,false,none⟩,⟨11,.vt,false,some ⟨6,[],none,false⟩⟩,⟨12,.ff,false,none⟩,⟨13,.cr,false,none⟩,⟨13,.cr,true,none⟩,⟨34,.other,false,some ⟨0,[],some 2,true⟩⟩,⟨37,.other,false,some ⟨6,[],none,false⟩⟩,⟨92,.other,false,some ⟨7,[],none,false⟩⟩]⟩]
theorem metafont_line_rowsOk : rowsOk metafont_line_nfa [] (metafont_line_cs.map (·.1)) metafont_line_rows = true := by decide +kernel
def metafont_line_D : Dfa metafont_line_M.nfa := ⟨metafont_line_masks, [], metafont_line_cs, metafont_line_rows, metafont_line_masksIn, metafont_line_repOk, metafont_line_rowsOk⟩

def rebol_line_nfa : Nfa := ⟨[⟨0,4294967808,[],[(0,.setEnt (.own 0))],0,0⟩,⟨1,576460752303423488,[],[(1,.comment)],0,0⟩,⟨3,17179869184,[],[(2,.code)],0,0⟩,⟨8,10633823966279326983230456482242756608,[],[(3,.code)],0,0⟩,⟨22,8192,[],[(10,.setEnt .newline)],0,0⟩,⟨24,1024,[],[(10,.setEnt .newline)],0,0⟩,⟨25,4096,[],[(10,.setEnt .newline)],0,0⟩,⟨26,8192,[.crAlone],[(10,.setEnt .newline)],0,0⟩,⟨27,115792089237316195423570985008687907853269984665640564039457584007908834656767,[],[(11,.setEnt (.own 3))],0,0⟩],[[⟨0,4294967808,[],[(0,.setEnt (.own 0))],0,0⟩],[⟨2,115792089237316195423570985008687907853269984665640564039457584007913129626623,[],[],0,0⟩],[⟨2,115792089237316195423570985008687907853269984665640564039457584007913129626623,[],[],0,0⟩],[⟨4,115792089237316195423570985008687907853269984665640564039457584007895949757439,[],[],0,0⟩,⟨5,19807040628566084398385987584,[],[],0,0⟩,⟨7,17179882496,[],[],0,0⟩],[⟨4,115792089237316195423570985008687907853269984665640564039457584007895949757439,[],[],0,0⟩,⟨5,19807040628566084398385987584,[],[],0,0⟩,⟨7,17179882496,[],[],0,0⟩],[⟨6,17179869184,[],[],0,0⟩],[⟨4,115792089237316195423570985008687907853269984665640564039457584007895949757439,[],[],0,0⟩,⟨5,19807040628566084398385987584,[],[],0,0⟩,⟨7,17179882496,[],[],0,0⟩],[],[⟨9,115792089237316195423570985008687907853216815545809167404541431725501915856895,[],[(8,.code)],0,0⟩,⟨10,19807040628566084398385987584,[],[],0,0⟩,⟨12,19807040628566084398385987584,[],[],0,0⟩,⟨14,8192,[],[],0,0⟩,⟨16,1024,[],[(8,.code)],0,0⟩,⟨17,4096,[],[(8,.code)],0,0⟩,⟨18,8192,[.crAlone],[(8,.code)],0,0⟩,⟨19,10633823966279326983230456482242756608,[],[(8,.code)],0,0⟩,⟨20,42535295865117307932921825928971026432,[.nested],[(8,.code)],0,0⟩,⟨21,42535295865117307932921825928971026432,[],[(9,.code)],0,0⟩],[⟨9,115792089237316195423570985008687907853216815545809167404541431725501915856895,[],[(8,.code)],0,0⟩,⟨10,19807040628566084398385987584,[],[],0,0⟩,⟨12,19807040628566084398385987584,[],[],0,0⟩,⟨14,8192,[],[],0,0⟩,⟨16,1024,[],[(8,.code)],0,0⟩,⟨17,4096,[],[(8,.code)],0,0⟩,⟨18,8192,[.crAlone],[(8,.code)],0,0⟩,⟨19,10633823966279326983230456482242756608,[],[(8,.code)],0,0⟩,⟨20,42535295865117307932921825928971026432,[.nested],[(8,.code)],0,0⟩,⟨21,42535295865117307932921825928971026432,[],[(9,.code)],0,0⟩],[⟨11,10633823966279326983230456482242756608,[],[(8,.code)],0,0⟩],[⟨9,115792089237316195423570985008687907853216815545809167404541431725501915856895,[],[(8,.code)],0,0⟩,⟨10,19807040628566084398385987584,[],[],0,0⟩,⟨12,19807040628566084398385987584,[],[],0,0⟩,⟨14,8192,[],[],0,0⟩,⟨16,1024,[],[(8,.code)],0,0⟩,⟨17,4096,[],[(8,.code)],0,0⟩,⟨18,8192,[.crAlone],[(8,.code)],0,0⟩,⟨19,10633823966279326983230456482242756608,[],[(8,.code)],0,0⟩,⟨20,42535295865117307932921825928971026432,[.nested],[(8,.code)],0,0⟩,⟨21,42535295865117307932921825928971026432,[],[(9,.code)],0,0⟩],[⟨13,42535295865117307932921825928971026432,[],[(8,.code)],0,0⟩],[⟨9,115792089237316195423570985008687907853216815545809167404541431725501915856895,[],[(8,.code)],0,0⟩,⟨10,19807040628566084398385987584,[],[],0,0⟩,⟨12,19807040628566084398385987584,[],[],0,0⟩,⟨14,8192,[],[],0,0⟩,⟨16,1024,[],[(8,.code)],0,0⟩,⟨17,4096,[],[(8,.code)],0,0⟩,⟨18,8192,[.crAlone],[(8,.code)],0,0⟩,⟨19,10633823966279326983230456482242756608,[],[(8,.code)],0,0⟩,⟨20,42535295865117307932921825928971026432,[.nested],[(8,.code)],0,0⟩,⟨21,42535295865117307932921825928971026432,[],[(9,.code)],0,0⟩],[⟨15,1024,[],[(8,.code)],0,0⟩],[⟨9,115792089237316195423570985008687907853216815545809167404541431725501915856895,[],[(4,.setEnt .internalNl),(5,.cb),(8,.code)],0,0⟩,⟨10,19807040628566084398385987584,[],[(4,.setEnt .internalNl),(5,.cb)],0,0⟩,⟨12,19807040628566084398385987584,[],[(4,.setEnt .internalNl),(5,.cb)],0,0⟩,⟨14,8192,[],[(4,.setEnt .internalNl),(5,.cb)],0,0⟩,⟨16,1024,[],[(4,.setEnt .internalNl),(5,.cb),(8,.code)],0,0⟩,⟨17,4096,[],[(4,.setEnt .internalNl),(5,.cb),(8,.code)],0,0⟩,⟨18,8192,[.crAlone],[(4,.setEnt .internalNl),(5,.cb),(8,.code)],0,0⟩,⟨19,10633823966279326983230456482242756608,[],[(4,.setEnt .internalNl),(5,.cb),(8,.code)],0,0⟩,⟨20,42535295865117307932921825928971026432,[.nested],[(4,.setEnt .internalNl),(5,.cb),(8,.code)],0,0⟩,⟨21,42535295865117307932921825928971026432,[],[(4,.setEnt .internalNl),(5,.cb),(9,.code)],0,0⟩],[⟨9,115792089237316195423570985008687907853216815545809167404541431725501915856895,[],[(4,.setEnt .internalNl),(5,.cb),(8,.code)],0,0⟩,⟨10,19807040628566084398385987584,[],[(4,.setEnt .internalNl),(5,.cb)],0,0⟩,⟨12,19807040628566084398385987584,[],[(4,.setEnt .internalNl),(5,.cb)],0,0⟩,⟨14,8192,[],[(4,.setEnt .internalNl),(5,.cb)],0,0⟩,⟨16,1024,[],[(4,.setEnt .internalNl),(5,.cb),(8,.code)],0,0⟩,⟨17,4096,[],[(4,.setEnt .internalNl),(5,.cb),(8,.code)],0,0⟩,⟨18,8192,[.crAlone],[(4,.setEnt .internalNl),(5,.cb),(8,.code)],0,0⟩,⟨19,10633823966279326983230456482242756608,[],[(4,.setEnt .internalNl),(5,.cb),(8,.code)],0,0⟩,⟨20,42535295865117307932921825928971026432,[.nested],[(4,.setEnt .internalNl),(5,.cb),(8,.code)],0,0⟩,⟨21,42535295865117307932921825928971026432,[],[(4,.setEnt .internalNl),(5,.cb),(9,.code)],0,0⟩],[⟨9,115792089237316195423570985008687907853216815545809167404541431725501915856895,[],[(4,.setEnt .internalNl),(5,.cb),(8,.code)],0,0⟩,⟨10,19807040628566084398385987584,[],[(4,.setEnt .internalNl),(5,.cb)],0,0⟩,⟨12,19807040628566084398385987584,[],[(4,.setEnt .internalNl),(5,.cb)],0,0⟩,⟨14,8192,[],[(4,.setEnt .internalNl),(5,.cb)],0,0⟩,⟨16,1024,[],[(4,.setEnt .internalNl),(5,.cb),(8,.code)],0,0⟩,⟨17,4096,[],[(4,.setEnt .internalNl),(5,.cb),(8,.code)],0,0⟩,⟨18,8192,[.crAlone],[(4,.setEnt .internalNl),(5,.cb),(8,.code)],0,0⟩,⟨19,10633823966279326983230456482242756608,[],[(4,.setEnt .internalNl),(5,.cb),(8,.code)],0,0⟩,⟨20,42535295865117307932921825928971026432,[.nested],[(4,.setEnt .internalNl),(5,.cb),(8,.code)],0,0⟩,⟨21,42535295865117307932921825928971026432,[],[(4,.setEnt .internalNl),(5,.cb),(9,.code)],0,0⟩],[⟨9,115792089237316195423570985008687907853216815545809167404541431725501915856895,[],[(4,.setEnt .internalNl),(5,.cb),(8,.code)],0,0⟩,⟨10,19807040628566084398385987584,[],[(4,.setEnt .internalNl),(5,.cb)],0,0⟩,⟨12,19807040628566084398385987584,[],[(4,.setEnt .internalNl),(5,.cb)],0,0⟩,⟨14,8192,[],[(4,.setEnt .internalNl),(5,.cb)],0,0⟩,⟨16,1024,[],[(4,.setEnt .internalNl),(5,.cb),(8,.code)],0,0⟩,⟨17,4096,[],[(4,.setEnt .internalNl),(5,.cb),(8,.code)],0,0⟩,⟨18,8192,[.crAlone],[(4,.setEnt .internalNl),(5,.cb),(8,.code)],0,0⟩,⟨19,10633823966279326983230456482242756608,[],[(4,.setEnt .internalNl),(5,.cb),(8,.code)],0,0⟩,⟨20,42535295865117307932921825928971026432,[.nested],[(4,.setEnt .internalNl),(5,.cb),(8,.code)],0,0⟩,⟨21,42535295865117307932921825928971026432,[],[(4,.setEnt .internalNl),(5,.cb),(9,.code)],0,0⟩],[⟨9,115792089237316195423570985008687907853216815545809167404541431725501915856895,[],[(6,.nestInc),(8,.code)],0,0⟩,⟨10,19807040628566084398385987584,[],[(6,.nestInc)],0,0⟩,⟨12,19807040628566084398385987584,[],[(6,.nestInc)],0,0⟩,⟨14,8192,[],[(6,.nestInc)],0,0⟩,⟨16,1024,[],[(6,.nestInc),(8,.code)],0,0⟩,⟨17,4096,[],[(6,.nestInc),(8,.code)],0,0⟩,⟨18,8192,[.crAlone],[(6,.nestInc),(8,.code)],0,0⟩,⟨19,10633823966279326983230456482242756608,[],[(6,.nestInc),(8,.code)],0,0⟩,⟨20,42535295865117307932921825928971026432,[.nested],[(6,.nestInc),(8,.code)],0,0⟩,⟨21,42535295865117307932921825928971026432,[],[(6,.nestInc),(9,.code)],0,0⟩],[⟨9,115792089237316195423570985008687907853216815545809167404541431725501915856895,[],[(7,.nestDec),(8,.code)],0,0⟩,⟨10,19807040628566084398385987584,[],[(7,.nestDec)],0,0⟩,⟨12,19807040628566084398385987584,[],[(7,.nestDec)],0,0⟩,⟨14,8192,[],[(7,.nestDec)],0,0⟩,⟨16,1024,[],[(7,.nestDec),(8,.code)],0,0⟩,⟨17,4096,[],[(7,.nestDec),(8,.code)],0,0⟩,⟨18,8192,[.crAlone],[(7,.nestDec),(8,.code)],0,0⟩,⟨19,10633823966279326983230456482242756608,[],[(7,.nestDec),(8,.code)],0,0⟩,⟨20,42535295865117307932921825928971026432,[.nested],[(7,.nestDec),(8,.code)],0,0⟩,⟨21,42535295865117307932921825928971026432,[],[(7,.nestDec),(9,.code)],0,0⟩],[],[⟨23,1024,[],[(10,.setEnt .newline)],0,0⟩],[],[],[],[],[]],[some (0,[]),some (1,[]),some (1,[]),none,none,none,none,some (2,[]),none,none,none,none,none,none,none,none,none,none,none,none,none,some (2,[]),none,some (3,[]),some (3,[]),some (3,[]),some (3,[]),some (4,[])],[1,2,10,11,12]⟩
theorem rebol_line_nfa_eq : Rebol.rebol_line.nfa = rebol_line_nfa := by decide +kernel
/-- The machine of `Rebol.rebol_line`, with its automaton as a literal. -/
def rebol_line_M : Machine := ⟨rebol_line_nfa, Rebol.rebol_line.ends, Rebol.rebol_line.sw⟩
theorem rebol_line_M_eq : Rebol.rebol_line.machine = rebol_line_M := by
  unfold Scanner.machine rebol_line_M; rw [rebol_line_nfa_eq]
def rebol_line_masks : List Nat := [4294967808,576460752303423488,17179869184,10633823966279326983230456482242756608,8192,1024,4096,115792089237316195423570985008687907853269984665640564039457584007908834656767,115792089237316195423570985008687907853269984665640564039457584007913129626623,115792089237316195423570985008687907853269984665640564039457584007895949757439,19807040628566084398385987584,17179882496,115792089237316195423570985008687907853216815545809167404541431725501915856895,42535295865117307932921825928971026432]
def rebol_line_cs : List (Nat × Nat) := [(0,115792089237316195423570985008687907853216815545789360363912289180329751593471),(9,4294967808),(10,1024),(11,2048),(12,4096),(13,8192),(34,17179869184),(59,576460752303423488),(94,19807040628566084398385987584),(123,10633823966279326983230456482242756608),(125,42535295865117307932921825928971026432)]
theorem rebol_line_masksIn : masksIn rebol_line_nfa rebol_line_masks = true := by decide +kernel
theorem rebol_line_repOk : repOk rebol_line_masks rebol_line_cs = true := by decide +kernel
def rebol_line_rows : List Row := [⟨[],none,[],[⟨256,.other,false,some ⟨0,[.setEnt (.own 3)],some 4,true⟩⟩,⟨256,.ws,false,some ⟨1,[.setEnt (.own 0)],some 0,false⟩⟩,⟨256,.lf,false,some ⟨0,[.setEnt .newline],some 3,true⟩⟩,⟨256,.vt,false,none⟩,⟨256,.ff,false,some ⟨0,[.setEnt .newline],some 3,true⟩⟩,⟨256,.cr,false,some ⟨2,[.setEnt .newline],none,false⟩⟩,⟨256,.cr,true,some ⟨3,[.setEnt .newline],some 3,false⟩⟩,⟨256,.other,false,some ⟨4,[.code,.setEnt (.own 3)],some 4,false⟩⟩,⟨256,.other,false,some ⟨5,[.comment,.setEnt (.own 3)],some 1,false⟩⟩,⟨256,.other,false,some ⟨6,[.code,.setEnt (.own 3)],some 4,false⟩⟩]⟩,⟨[0],some 0,[],[⟨256,.other,false,none⟩,⟨256,.ws,false,some ⟨1,[.setEnt (.own 0)],some 0,false⟩⟩,⟨256,.lf,false,none⟩,⟨256,.vt,false,none⟩,⟨256,.ff,false,none⟩,⟨256,.cr,false,none⟩,⟨256,.cr,true,none⟩]⟩,⟨[22],none,[],[⟨256,.other,false,none⟩,⟨256,.ws,false,none⟩,⟨256,.lf,false,some ⟨0,[.setEnt .newline],some 3,true⟩⟩,⟨256,.vt,false,none⟩,⟨256,.ff,false,none⟩,⟨256,.cr,false,none⟩,⟨256,.cr,true,none⟩]⟩,⟨[22,26],some 3,[],[⟨256,.other,false,none⟩,⟨256,.ws,false,none⟩,⟨256,.lf,false,some ⟨0,[.setEnt .newline],some 3,true⟩⟩,⟨256,.vt,false,none⟩,⟨256,.ff,false,none⟩,⟨256,.cr,false,none⟩,⟨256,.cr,true,none⟩]⟩,⟨[3,27],some 4,[],[⟨256,.other,false,some ⟨7,[],none,false⟩⟩,⟨256,.ws,false,some ⟨7,[],none,false⟩⟩,⟨256,.lf,false,some ⟨0,[],some 2,true⟩⟩,⟨256,.vt,false,some ⟨7,[],none,false⟩⟩,⟨256,.ff,false,some ⟨0,[],some 2,true⟩⟩,⟨256,.cr,false,some ⟨0,[],some 2,true⟩⟩,⟨256,.cr,true,some ⟨0,[],some 2,true⟩⟩,⟨256,.other,false,some ⟨0,[],some 2,true⟩⟩,⟨256,.other,false,some ⟨8,[],none,false⟩⟩]⟩,⟨[1,27],some 1,[],[⟨256,.other,false,some ⟨9,[],some 1,false⟩⟩,⟨256,.ws,false,some ⟨9,[],some 1,false⟩⟩,⟨256,.lf,false,none⟩,⟨256,.vt,false,some ⟨9,[],some 1,false⟩⟩,⟨256,.ff,false,none⟩,⟨256,.cr,false,none⟩,⟨256,.cr,true,none⟩]⟩,⟨[8,27],some 4,[],[⟨256,.other,false,some ⟨10,[.code],none,false⟩⟩,⟨256,.ws,false,some ⟨10,[.code],none,false⟩⟩,⟨256,.lf,false,some ⟨11,[.code],none,false⟩⟩,⟨256,.vt,false,some ⟨10,[.code],none,false⟩⟩,⟨256,.ff,false,some ⟨12,[.code],none,false⟩⟩,⟨256,.cr,false,some ⟨13,[.code],none,false⟩⟩,⟨256,.cr,true,some ⟨14,[.code],none,false⟩⟩,⟨256,.other,false,some ⟨15,[.code],none,false⟩⟩,⟨256,.other,false,some ⟨16,[.code],none,false⟩⟩,⟨256,.other,false,some ⟨0,[.code],some 2,true⟩⟩,⟨256,.other,false,some ⟨17,[.code],some 2,false⟩⟩]⟩,⟨[4],none,[],[⟨256,.other,false,some ⟨7,[],none,false⟩⟩,⟨256,.ws,false,some ⟨7,[],none,false⟩⟩,⟨256,.lf,false,some ⟨0,[],some 2,true⟩⟩,⟨256,.vt,false,some ⟨7,[],none,false⟩⟩,⟨256,.ff,false,some ⟨0,[],some 2,true⟩⟩,⟨256,.cr,false,some ⟨0,[],some 2,true⟩⟩,⟨256,.cr,true,some ⟨0,[],some 2,true⟩⟩,⟨256,.other,false,some ⟨0,[],some 2,true⟩⟩,⟨256,.other,false,some ⟨8,[],none,false⟩⟩]⟩,⟨[4,5],none,[],[⟨256,.other,false,some ⟨7,[],none,false⟩⟩,⟨256,.ws,false,some ⟨7,[],none,false⟩⟩,⟨256,.lf,false,some ⟨0,[],some 2,true⟩⟩,⟨256,.vt,false,some ⟨7,[],none,false⟩⟩,⟨256,.ff,false,some ⟨0,[],some 2,true⟩⟩,⟨256,.cr,false,some ⟨0,[],some 2,true⟩⟩,⟨256,.cr,true,some ⟨0,[],some 2,true⟩⟩,⟨256,.other,false,some ⟨18,[],some 2,false⟩⟩,⟨256,.other,false,some ⟨8,[],none,false⟩⟩]⟩,⟨[2],some 1,[],[⟨256,.other,false,some ⟨9,[],some 1,false⟩⟩,⟨256,.ws,false,some ⟨9,[],some 1,false⟩⟩,⟨256,.lf,false,none⟩,⟨256,.vt,false,some ⟨9,[],some 1,false⟩⟩,⟨256,.ff,false,none⟩,⟨256,.cr,false,none⟩,⟨256,.cr,true,none⟩]⟩,⟨[9],none,[],[⟨256,.other,false,some ⟨10,[.code],none,false⟩⟩,⟨256,.ws,false,some ⟨10,[.code],none,false⟩⟩,⟨256,.lf,false,some ⟨11,[.code],none,false⟩⟩,⟨256,.vt,false,some ⟨10,[.code],none,false⟩⟩,⟨256,.ff,false,some ⟨12,[.code],none,false⟩⟩,⟨256,.cr,false,some ⟨13,[.code],none,false⟩⟩,⟨256,.cr,true,some ⟨14,[.code],none,false⟩⟩,⟨256,.other,false,some ⟨15,[.code],none,false⟩⟩,⟨256,.other,false,some ⟨16,[.code],none,false⟩⟩,⟨256,.other,false,some ⟨0,[.code],some 2,true⟩⟩,⟨256,.other,false,some ⟨17,[.code],some 2,false⟩⟩]⟩,⟨[9,16],none,[],[⟨256,.other,false,some ⟨10,[.setEnt .internalNl,.cb,.code],none,false⟩⟩,⟨256,.ws,false,some ⟨10,[.setEnt .internalNl,.cb,.code],none,false⟩⟩,⟨256,.lf,false,some ⟨11,[.setEnt .internalNl,.cb,.code],none,false⟩⟩,⟨256,.vt,false,some ⟨10,[.setEnt .internalNl,.cb,.code],none,false⟩⟩,⟨256,.ff,false,some ⟨12,[.setEnt .internalNl,.cb,.code],none,false⟩⟩,⟨256,.cr,false,some ⟨13,[.setEnt .internalNl,.cb,.code],none,false⟩⟩,⟨256,.cr,true,some ⟨14,[.setEnt .internalNl,.cb,.code],none,false⟩⟩,⟨256,.other,false,some ⟨15,[.setEnt .internalNl,.cb,.code],none,false⟩⟩,⟨256,.other,false,some ⟨16,[.setEnt .internalNl,.cb,.code],none,false⟩⟩,⟨256,.other,false,some ⟨0,[.setEnt .internalNl,.cb,.code],some 2,true⟩⟩,⟨256,.other,false,some ⟨17,[.setEnt .internalNl,.cb,.code],some 2,false⟩⟩]⟩,⟨[9,17],none,[],[⟨256,.other,false,some ⟨10,[.setEnt .internalNl,.cb,.code],none,false⟩⟩,⟨256,.ws,false,some ⟨10,[.setEnt .internalNl,.cb,.code],none,false⟩⟩,⟨256,.lf,false,some ⟨11,[.setEnt .internalNl,.cb,.code],none,false⟩⟩,⟨256,.vt,false,some ⟨10,[.setEnt .internalNl,.cb,.code],none,false⟩⟩,⟨256,.ff,false,some ⟨12,[.setEnt .internalNl,.cb,.code],none,false⟩⟩,⟨256,.cr,false,some ⟨13,[.setEnt .internalNl,.cb,.code],none,false⟩⟩,⟨256,.cr,true,some ⟨14,[.setEnt .internalNl,.cb,.code],none,false⟩⟩,⟨256,.other,false,some ⟨15,[.setEnt .internalNl,.cb,.code],none,false⟩⟩,⟨256,.other,false,some ⟨16,[.setEnt .internalNl,.cb,.code],none,false⟩⟩,⟨256,.other,false,some ⟨0,[.setEnt .internalNl,.cb,.code],some 2,true⟩⟩,⟨256,.other,false,some ⟨17,[.setEnt .internalNl,.cb,.code],some 2,false⟩⟩]⟩,⟨[9,14],none,[],[⟨256,.other,false,some ⟨10,[.code],none,false⟩⟩,⟨256,.ws,false,some ⟨10,[.code],none,false⟩⟩,⟨256,.lf,false,some ⟨19,[.code],none,false⟩⟩,⟨256,.vt,false,some ⟨10,[.code],none,false⟩⟩,⟨256,.ff,false,some ⟨12,[.code],none,false⟩⟩,⟨256,.cr,false,some ⟨13,[.code],none,false⟩⟩,⟨256,.cr,true,some ⟨14,[.code],none,false⟩⟩,⟨256,.other,false,some ⟨15,[.code],none,false⟩⟩,⟨256,.other,false,some ⟨16,[.code],none,false⟩⟩,⟨256,.other,false,some ⟨0,[.code],some 2,true⟩⟩,⟨256,.other,false,some ⟨17,[.code],some 2,false⟩⟩]⟩,⟨[9,14,18],none,[],[⟨256,.other,false,some ⟨10,[.setEnt .internalNl,.cb,.code],none,false⟩⟩,⟨256,.ws,false,some ⟨10,[.setEnt .internalNl,.cb,.code],none,false⟩⟩,⟨256,.lf,false,some ⟨19,[.setEnt .internalNl,.cb,.code],none,false⟩⟩,⟨256,.vt,false,some ⟨10,[.setEnt .internalNl,.cb,.code],none,false⟩⟩,⟨256,.ff,false,some ⟨12,[.setEnt .internalNl,.cb,.code],none,false⟩⟩,⟨256,.cr,false,some ⟨13,[.setEnt .internalNl,.cb,.code],none,false⟩⟩,⟨256,.cr,true,some ⟨14,[.setEnt .internalNl,.cb,.code],none,false⟩⟩,⟨256,.other,false,some ⟨15,[.setEnt .internalNl,.cb,.code],none,false⟩⟩,⟨256,.other,false,some ⟨16,[.setEnt .internalNl,.cb,.code],none,false⟩⟩,⟨256,.other,false,some ⟨0,[.setEnt .internalNl,.cb,.code],some 2,true⟩⟩,⟨256,.other,false,some ⟨17,[.setEnt .internalNl,.cb,.code],some 2,false⟩⟩]⟩,⟨[9,10,12],none,[],[⟨256,.other,false,some ⟨10,[.code],none,false⟩⟩,⟨256,.ws,false,some ⟨10,[.code],none,false⟩⟩,⟨256,.lf,false,some ⟨11,[.code],none,false⟩⟩,⟨256,.vt,false,some ⟨10,[.code],none,false⟩⟩,⟨256,.ff,false,some ⟨12,[.code],none,false⟩⟩,⟨256,.cr,false,some ⟨13,[.code],none,false⟩⟩,⟨256,.cr,true,some ⟨14,[.code],none,false⟩⟩,⟨256,.other,false,some ⟨15,[.code],none,false⟩⟩,⟨256,.other,false,some ⟨20,[.code],none,false⟩⟩,⟨256,.other,false,some ⟨21,[.code],some 2,false⟩⟩,⟨256,.other,false,some ⟨22,[.code],some 2,false⟩⟩]⟩,⟨[19],none,[],[⟨256,.other,false,some ⟨10,[.nestInc,.code],none,false⟩⟩,⟨256,.ws,false,some ⟨10,[.nestInc,.code],none,false⟩⟩,⟨256,.lf,false,some ⟨11,[.nestInc,.code],none,false⟩⟩,⟨256,.vt,false,some ⟨10,[.nestInc,.code],none,false⟩⟩,⟨256,.ff,false,some ⟨12,[.nestInc,.code],none,false⟩⟩,⟨256,.cr,false,some ⟨13,[.nestInc,.code],none,false⟩⟩,⟨256,.cr,true,some ⟨14,[.nestInc,.code],none,false⟩⟩,⟨256,.other,false,some ⟨15,[.nestInc,.code],none,false⟩⟩,⟨256,.other,false,some ⟨16,[.nestInc,.code],none,false⟩⟩,⟨256,.other,false,some ⟨0,[.nestInc,.code],some 2,true⟩⟩,⟨256,.other,false,some ⟨17,[.nestInc,.code],some 2,false⟩⟩]⟩,⟨[20,21],some 2,[],[⟨256,.other,false,some ⟨10,[.nestDec,.code],none,false⟩⟩,⟨256,.ws,false,some ⟨10,[.nestDec,.code],none,false⟩⟩,⟨256,.lf,false,some ⟨11,[.nestDec,.code],none,false⟩⟩,⟨256,.vt,false,some ⟨10,[.nestDec,.code],none,false⟩⟩,⟨256,.ff,false,some ⟨12,[.nestDec,.code],none,false⟩⟩,⟨256,.cr,false,some ⟨13,[.nestDec,.code],none,false⟩⟩,⟨256,.cr,true,some ⟨14,[.nestDec,.code],none,false⟩⟩,⟨256,.other,false,some ⟨15,[.nestDec,.code],none,false⟩⟩,⟨256,.other,false,some ⟨16,[.nestDec,.code],none,false⟩⟩,⟨256,.other,false,some ⟨0,[.nestDec,.code],some 2,true⟩⟩,⟨256,.other,false,some ⟨17,[.nestDec,.code],some 2,false⟩⟩]⟩,⟨[6,7],some 2,[],[⟨256,.other,false,some ⟨7,[],none,false⟩⟩,⟨256,.ws,false,some ⟨7,[],none,false⟩⟩,⟨256,.lf,false,some ⟨0,[],some 2,true⟩⟩,⟨256,.vt,false,some ⟨7,[],none,false⟩⟩,⟨256,.ff,false,some ⟨0,[],some 2,true⟩⟩,⟨256,.cr,false,some ⟨0,[],some 2,true⟩⟩,⟨256,.cr,true,some ⟨0,[],some 2,true⟩⟩,⟨256,.other,false,some ⟨0,[],some 2,true⟩⟩,⟨256,.other,false,some ⟨8,[],none,false⟩⟩]⟩,⟨[9,15,16],none,[],[⟨256,.other,false,some ⟨10,[.setEnt .internalNl,.cb,.code],none,false⟩⟩,⟨256,.ws,false,some ⟨10,[.setEnt .internalNl,.cb,.code],none,false⟩⟩,⟨256,.lf,false,some ⟨11,[.setEnt .internalNl,.cb,.code],none,false⟩⟩,⟨256,.vt,false,some ⟨10,[.setEnt .internalNl,.cb,.code],none,false⟩⟩,⟨256,.ff,false,some ⟨12,[.setEnt .internalNl,.cb,.code],none,false⟩⟩,⟨256,.cr,false,some ⟨13,[.setEnt .internalNl,.cb,.code],none,false⟩⟩,⟨256,.cr,true,some ⟨14,[.setEnt .internalNl,.cb,.code],none,false⟩⟩,⟨256,.other,false,some ⟨15,[.setEnt .internalNl,.cb,.code],none,false⟩⟩,⟨256,.other,false,some ⟨16,[.setEnt .internalNl,.cb,.code],none,false⟩⟩,⟨256,.other,false,some ⟨0,[.setEnt .internalNl,.cb,.code],some 2,true⟩⟩,⟨256,.other,false,some ⟨17,[.setEnt .internalNl,.cb,.code],some 2,false⟩⟩]⟩,⟨[11,19],none,[],[⟨256,.other,false,some ⟨10,[.nestInc,.code],none,false⟩⟩,⟨256,.ws,false,some ⟨10,[.nestInc,.code],none,false⟩⟩,⟨256,.lf,false,some ⟨11,[.nestInc,.code],none,false⟩⟩,⟨256,.vt,false,some ⟨10,[.nestInc,.code],none,false⟩⟩,⟨256,.ff,false,some ⟨12,[.nestInc,.code],none,false⟩⟩,⟨256,.cr,false,some ⟨13,[.nestInc,.code],none,false⟩⟩,⟨256,.cr,true,some ⟨14,[.nestInc,.code],none,false⟩⟩,⟨256,.other,false,some ⟨15,[.nestInc,.code],none,false⟩⟩,⟨256,.other,false,some ⟨16,[.nestInc,.code],none,false⟩⟩,⟨256,.other,false,some ⟨0,[.nestInc,.code],some 2,true⟩⟩,⟨256,.other,false,some ⟨17,[.nestInc,.code],some 2,false⟩⟩]⟩,⟨[13,21],some 2,[],[⟨256,.other,false,some ⟨10,[.code],none,false⟩⟩,⟨256,.ws,false,some ⟨10,[.code],none,false⟩⟩,⟨256,.lf,false,some ⟨11,[.code],none,false⟩⟩,⟨256,.vt,false,some ⟨10,[.code],none,false⟩⟩,⟨256,.ff,false,some ⟨12,[.code],none,false⟩⟩,⟨256,.cr,false,some ⟨13,[.code],none,false⟩⟩,⟨256,.cr,true,some ⟨14,[.code],none,false⟩⟩,⟨256,.other,false,some ⟨15,[.code],none,false⟩⟩,⟨256,.other,false,some ⟨16,[.code],none,false⟩⟩,⟨256,.other,false,some ⟨0,[.code],some 2,true⟩⟩,⟨256,.other,false,some ⟨17,[.code],some 2,false⟩⟩]⟩,⟨[13,20,21],some 2,[],[⟨256,.other,false,some ⟨10,[.nestDec,.code],none,false⟩⟩,⟨256,.ws,false,some ⟨10,[.nestDec,.code],none,false⟩⟩,⟨256,.lf,false,some ⟨11,[.nestDec,.code],none,false⟩⟩,⟨256,.vt,false,some ⟨10,[.nestDec,.code],none,false⟩⟩,⟨256,.ff,false,some ⟨12,[.nestDec,.code],none,false⟩⟩,⟨256,.cr,false,some ⟨13,[.nestDec,.code],none,false⟩⟩,⟨256,.cr,true,some ⟨14,[.nestDec,.code],none,false⟩⟩,⟨256,.other,false,some ⟨15,[.nestDec,.code],none,false⟩⟩,⟨256,.other,false,some ⟨16,[.nestDec,.code],none,false⟩⟩,⟨256,.other,false,some ⟨0,[.nestDec,.code],some 2,true⟩⟩,⟨256,.other,false,some ⟨17,[.nestDec,.code],some 2,false⟩⟩]⟩]
theorem rebol_line_rowsOk : rowsOk rebol_line_nfa [] (rebol_line_cs.map (·.1)) rebol_line_rows = true := by decide +kernel
def rebol_line_D : Dfa rebol_line_M.nfa := ⟨rebol_line_masks, [], rebol_line_cs, rebol_line_rows, rebol_line_masksIn, rebol_line_repOk, rebol_line_rowsOk⟩

def xml_line_nfa : Nfa := ⟨[⟨0,4294967808,[],[(0,.setEnt (.own 0))],0,0⟩,⟨1,1152921504606846976,[],[],0,2⟩,⟨15,549755813888,[],[],0,0⟩,⟨18,17179869184,[],[],0,0⟩,⟨21,1152921504606846976,[],[],0,4⟩,⟨40,8192,[],[(11,.setEnt .newline)],0,0⟩,⟨42,1024,[],[(11,.setEnt .newline)],0,0⟩,⟨43,4096,[],[(11,.setEnt .newline)],0,0⟩,⟨44,8192,[.crAlone],[(11,.setEnt .newline)],0,0⟩,⟨45,115792089237316195423570985008687907853269984665640564039457584007908834656767,[],[(12,.setEnt (.own 5))],0,0⟩],[[⟨0,4294967808,[],[(0,.setEnt (.own 0))],0,0⟩],[⟨2,8589934592,[],[],0,2⟩],[⟨3,35184372088832,[],[],0,2⟩],[⟨4,35184372088832,[],[(1,.comment)],0,2⟩],[⟨5,8192,[],[],0,2⟩,⟨7,1024,[],[],0,2⟩,⟨8,4096,[],[],0,2⟩,⟨9,8192,[.crAlone],[],0,2⟩,⟨10,4294967808,[],[],0,2⟩,⟨11,115792089237316195423570985008687907853269984665640564039457584007908834658815,[],[(4,.comment)],0,2⟩,⟨12,35184372088832,[],[],0,2⟩],[⟨6,1024,[],[],0,2⟩],[⟨5,8192,[],[(2,.setEnt .internalNl),(3,.cb)],0,2⟩,⟨7,1024,[],[(2,.setEnt .internalNl),(3,.cb)],0,2⟩,⟨8,4096,[],[(2,.setEnt .internalNl),(3,.cb)],0,2⟩,⟨9,8192,[.crAlone],[(2,.setEnt .internalNl),(3,.cb)],0,2⟩,⟨10,4294967808,[],[(2,.setEnt .internalNl),(3,.cb)],0,2⟩,⟨11,115792089237316195423570985008687907853269984665640564039457584007908834658815,[],[(2,.setEnt .internalNl),(3,.cb),(4,.comment)],0,2⟩,⟨12,35184372088832,[],[(2,.setEnt .internalNl),(3,.cb)],0,2⟩],[⟨5,8192,[],[(2,.setEnt .internalNl),(3,.cb)],0,2⟩,⟨7,1024,[],[(2,.setEnt .internalNl),(3,.cb)],0,2⟩,⟨8,4096,[],[(2,.setEnt .internalNl),(3,.cb)],0,2⟩,⟨9,8192,[.crAlone],[(2,.setEnt .internalNl),(3,.cb)],0,2⟩,⟨10,4294967808,[],[(2,.setEnt .internalNl),(3,.cb)],0,2⟩,⟨11,115792089237316195423570985008687907853269984665640564039457584007908834658815,[],[(2,.setEnt .internalNl),(3,.cb),(4,.comment)],0,2⟩,⟨12,35184372088832,[],[(2,.setEnt .internalNl),(3,.cb)],0,2⟩],[⟨5,8192,[],[(2,.setEnt .internalNl),(3,.cb)],0,2⟩,⟨7,1024,[],[(2,.setEnt .internalNl),(3,.cb)],0,2⟩,⟨8,4096,[],[(2,.setEnt .internalNl),(3,.cb)],0,2⟩,⟨9,8192,[.crAlone],[(2,.setEnt .internalNl),(3,.cb)],0,2⟩,⟨10,4294967808,[],[(2,.setEnt .internalNl),(3,.cb)],0,2⟩,⟨11,115792089237316195423570985008687907853269984665640564039457584007908834658815,[],[(2,.setEnt .internalNl),(3,.cb),(4,.comment)],0,2⟩,⟨12,35184372088832,[],[(2,.setEnt .internalNl),(3,.cb)],0,2⟩],[⟨5,8192,[],[(2,.setEnt .internalNl),(3,.cb)],0,2⟩,⟨7,1024,[],[(2,.setEnt .internalNl),(3,.cb)],0,2⟩,⟨8,4096,[],[(2,.setEnt .internalNl),(3,.cb)],0,2⟩,⟨9,8192,[.crAlone],[(2,.setEnt .internalNl),(3,.cb)],0,2⟩,⟨10,4294967808,[],[(2,.setEnt .internalNl),(3,.cb)],0,2⟩,⟨11,115792089237316195423570985008687907853269984665640564039457584007908834658815,[],[(2,.setEnt .internalNl),(3,.cb),(4,.comment)],0,2⟩,⟨12,35184372088832,[],[(2,.setEnt .internalNl),(3,.cb)],0,2⟩],[⟨5,8192,[],[],0,2⟩,⟨7,1024,[],[],0,2⟩,⟨8,4096,[],[],0,2⟩,⟨9,8192,[.crAlone],[],0,2⟩,⟨10,4294967808,[],[],0,2⟩,⟨11,115792089237316195423570985008687907853269984665640564039457584007908834658815,[],[(4,.comment)],0,2⟩,⟨12,35184372088832,[],[],0,2⟩],[⟨5,8192,[],[],0,2⟩,⟨7,1024,[],[],0,2⟩,⟨8,4096,[],[],0,2⟩,⟨9,8192,[.crAlone],[],0,2⟩,⟨10,4294967808,[],[],0,2⟩,⟨11,115792089237316195423570985008687907853269984665640564039457584007908834658815,[],[(4,.comment)],0,2⟩,⟨12,35184372088832,[],[],0,2⟩],[⟨13,35184372088832,[],[],0,0⟩],[⟨14,4611686018427387904,[],[],2,0⟩],[],[⟨16,115792089237316195423570985008687907853269984665640564039457584007363373812735,[],[],0,0⟩,⟨17,549755813888,[],[(5,.code)],0,0⟩],[⟨16,115792089237316195423570985008687907853269984665640564039457584007363373812735,[],[],0,0⟩,⟨17,549755813888,[],[(5,.code)],0,0⟩],[],[⟨19,115792089237316195423570985008687907853269984665640564039457584007895949757439,[],[],0,0⟩,⟨20,17179869184,[],[(6,.code)],0,0⟩],[⟨19,115792089237316195423570985008687907853269984665640564039457584007895949757439,[],[],0,0⟩,⟨20,17179869184,[],[(6,.code)],0,0⟩],[],[⟨22,8589934592,[],[],0,4⟩],[⟨23,2475880078570760549798248448,[],[],0,4⟩],[⟨24,147573952589676412928,[],[],0,4⟩],[⟨25,295147905179352825856,[],[],0,4⟩],[⟨26,36893488147419103232,[],[],0,4⟩],[⟨27,19342813113834066795298816,[],[],0,4⟩],[⟨28,36893488147419103232,[],[],0,4⟩],[⟨29,2475880078570760549798248448,[],[(7,.code)],0,4⟩],[⟨30,8192,[],[],0,4⟩,⟨32,1024,[],[],0,4⟩,⟨33,4096,[],[],0,4⟩,⟨34,8192,[.crAlone],[],0,4⟩,⟨35,4294967808,[],[],0,4⟩,⟨36,115792089237316195423570985008687907853269984665640564039457584007908834658815,[],[(10,.code)],0,4⟩,⟨37,9903520314283042199192993792,[],[],0,4⟩],[⟨31,1024,[],[],0,4⟩],[⟨30,8192,[],[(8,.setEnt .internalNl),(9,.cb)],0,4⟩,⟨32,1024,[],[(8,.setEnt .internalNl),(9,.cb)],0,4⟩,⟨33,4096,[],[(8,.setEnt .internalNl),(9,.cb)],0,4⟩,⟨34,8192,[.crAlone],[(8,.setEnt .internalNl),(9,.cb)],0,4⟩,⟨35,4294967808,[],[(8,.setEnt .internalNl),(9,.cb)],0,4⟩,⟨36,115792089237316195423570985008687907853269984665640564039457584007908834658815,[],[(8,.setEnt .internalNl),(9,.cb),(10,.code)],0,4⟩,⟨37,9903520314283042199192993792,[],[(8,.setEnt .internalNl),(9,.cb)],0,4⟩],[⟨30,8192,[],[(8,.setEnt .internalNl),(9,.cb)],0,4⟩,⟨32,1024,[],[(8,.setEnt .internalNl),(9,.cb)],0,4⟩,⟨33,4096,[],[(8,.setEnt .internalNl),(9,.cb)],0,4⟩,⟨34,8192,[.crAlone],[(8,.setEnt .internalNl),(9,.cb)],0,4⟩,⟨35,4294967808,[],[(8,.setEnt .internalNl),(9,.cb)],0,4⟩,⟨36,115792089237316195423570985008687907853269984665640564039457584007908834658815,[],[(8,.setEnt .internalNl),(9,.cb),(10,.code)],0,4⟩,⟨37,9903520314283042199192993792,[],[(8,.setEnt .internalNl),(9,.cb)],0,4⟩],[⟨30,8192,[],[(8,.setEnt .internalNl),(9,.cb)],0,4⟩,⟨32,1024,[],[(8,.setEnt .internalNl),(9,.cb)],0,4⟩,⟨33,4096,[],[(8,.setEnt .internalNl),(9,.cb)],0,4⟩,⟨34,8192,[.crAlone],[(8,.setEnt .internalNl),(9,.cb)],0,4⟩,⟨35,4294967808,[],[(8,.setEnt .internalNl),(9,.cb)],0,4⟩,⟨36,115792089237316195423570985008687907853269984665640564039457584007908834658815,[],[(8,.setEnt .internalNl),(9,.cb),(10,.code)],0,4⟩,⟨37,9903520314283042199192993792,[],[(8,.setEnt .internalNl),(9,.cb)],0,4⟩],[⟨30,8192,[],[(8,.setEnt .internalNl),(9,.cb)],0,4⟩,⟨32,1024,[],[(8,.setEnt .internalNl),(9,.cb)],0,4⟩,⟨33,4096,[],[(8,.setEnt .internalNl),(9,.cb)],0,4⟩,⟨34,8192,[.crAlone],[(8,.setEnt .internalNl),(9,.cb)],0,4⟩,⟨35,4294967808,[],[(8,.setEnt .internalNl),(9,.cb)],0,4⟩,⟨36,115792089237316195423570985008687907853269984665640564039457584007908834658815,[],[(8,.setEnt .internalNl),(9,.cb),(10,.code)],0,4⟩,⟨37,9903520314283042199192993792,[],[(8,.setEnt .internalNl),(9,.cb)],0,4⟩],[⟨30,8192,[],[],0,4⟩,⟨32,1024,[],[],0,4⟩,⟨33,4096,[],[],0,4⟩,⟨34,8192,[.crAlone],[],0,4⟩,⟨35,4294967808,[],[],0,4⟩,⟨36,115792089237316195423570985008687907853269984665640564039457584007908834658815,[],[(10,.code)],0,4⟩,⟨37,9903520314283042199192993792,[],[],0,4⟩],[⟨30,8192,[],[],0,4⟩,⟨32,1024,[],[],0,4⟩,⟨33,4096,[],[],0,4⟩,⟨34,8192,[.crAlone],[],0,4⟩,⟨35,4294967808,[],[],0,4⟩,⟨36,115792089237316195423570985008687907853269984665640564039457584007908834658815,[],[(10,.code)],0,4⟩,⟨37,9903520314283042199192993792,[],[],0,4⟩],[⟨38,9903520314283042199192993792,[],[],0,0⟩],[⟨39,4611686018427387904,[],[],4,0⟩],[],[⟨41,1024,[],[(11,.setEnt .newline)],0,0⟩],[],[],[],[],[]],[some (0,[]),none,none,none,none,none,none,none,none,none,none,none,none,none,some (1,[]),none,none,some (2,[]),none,none,some (2,[]),none,none,none,none,none,none,none,none,none,none,none,none,none,none,none,none,none,none,some (2,[]),none,some (3,[]),some (3,[]),some (3,[]),some (3,[]),some (4,[])],[1,5,11,12,13]⟩
theorem xml_line_nfa_eq : Xml.xml_line.nfa = xml_line_nfa := by decide +kernel
/-- The machine of `Xml.xml_line`, with its automaton as a literal. -/
def xml_line_M : Machine := ⟨xml_line_nfa, Xml.xml_line.ends, Xml.xml_line.sw⟩
theorem xml_line_M_eq : Xml.xml_line.machine = xml_line_M := by
  unfold Scanner.machine xml_line_M; rw [xml_line_nfa_eq]
def xml_line_masks : List Nat := [4294967808,1152921504606846976,549755813888,17179869184,8192,1024,4096,115792089237316195423570985008687907853269984665640564039457584007908834656767,8589934592,35184372088832,115792089237316195423570985008687907853269984665640564039457584007908834658815,4611686018427387904,115792089237316195423570985008687907853269984665640564039457584007363373812735,115792089237316195423570985008687907853269984665640564039457584007895949757439,2475880078570760549798248448,147573952589676412928,295147905179352825856,36893488147419103232,19342813113834066795298816,9903520314283042199192993792]
def xml_line_cs : List (Nat × Nat) := [(0,115792089237316195423570985008687907853269984665628165295766236381893667832319),(9,4294967808),(10,1024),(11,2048),(12,4096),(13,8192),(33,8589934592),(34,17179869184),(39,549755813888),(45,35184372088832),(60,1152921504606846976),(62,4611686018427387904),(65,36893488147419103232),(67,147573952589676412928),(68,295147905179352825856),(84,19342813113834066795298816),(91,2475880078570760549798248448),(93,9903520314283042199192993792)]
theorem xml_line_masksIn : masksIn xml_line_nfa xml_line_masks = true := by decide +kernel
theorem xml_line_repOk : repOk xml_line_masks xml_line_cs = true := by decide +kernel
def xml_line_rows : List Row := [⟨[],none,[],[⟨256,.other,false,some ⟨0,[.setEnt (.own 5)],some 4,true⟩⟩,⟨256,.ws,false,some ⟨1,[.setEnt (.own 0)],some 0,false⟩⟩,⟨256,.lf,false,some ⟨0,[.setEnt .newline],some 3,true⟩⟩,⟨256,.vt,false,none⟩,⟨256,.ff,false,some ⟨0,[.setEnt .newline],some 3,true⟩⟩,⟨256,.cr,false,some ⟨2,[.setEnt .newline],none,false⟩⟩,⟨256,.cr,true,some ⟨3,[.setEnt .newline],some 3,false⟩⟩,⟨256,.other,false,some ⟨4,[.setEnt (.own 5)],some 4,false⟩⟩,⟨256,.other,false,some ⟨5,[.setEnt (.own 5)],some 4,false⟩⟩,⟨256,.other,false,some ⟨6,[.setEnt (.own 5)],some 4,false⟩⟩]⟩,⟨[0],some 0,[],[⟨256,.other,false,none⟩,⟨256,.ws,false,some ⟨1,[.setEnt (.own 0)],some 0,false⟩⟩,⟨256,.lf,false,none⟩,⟨256,.vt,false,none⟩,⟨256,.ff,false,none⟩,⟨256,.cr,false,none⟩,⟨256,.cr,true,none⟩]⟩,⟨[40],none,[],[⟨256,.other,false,none⟩,⟨256,.ws,false,none⟩,⟨256,.lf,false,some ⟨0,[.setEnt .newline],some 3,true⟩⟩,⟨256,.vt,false,none⟩,⟨256,.ff,false,none⟩,⟨256,.cr,false,none⟩,⟨256,.cr,true,none⟩]⟩,⟨[40,44],some 3,[],[⟨256,.other,false,none⟩,⟨256,.ws,false,none⟩,⟨256,.lf,false,some ⟨0,[.setEnt .newline],some 3,true⟩⟩,⟨256,.vt,false,none⟩,⟨256,.ff,false,none⟩,⟨256,.cr,false,none⟩,⟨256,.cr,true,none⟩]⟩,⟨[18,45],some 4,[],[⟨256,.other,false,some ⟨7,[],none,false⟩⟩,⟨256,.ws,false,some ⟨7,[],none,false⟩⟩,⟨256,.lf,false,none⟩,⟨256,.vt,false,some ⟨7,[],none,false⟩⟩,⟨256,.ff,false,none⟩,⟨256,.cr,false,none⟩,⟨256,.cr,true,none⟩,⟨256,.other,false,some ⟨0,[.code],some 2,true⟩⟩]⟩,⟨[15,45],some 4,[],[⟨256,.other,false,some ⟨8,[],none,false⟩⟩,⟨256,.ws,false,some ⟨8,[],none,false⟩⟩,⟨256,.lf,false,none⟩,⟨256,.vt,false,some ⟨8,[],none,false⟩⟩,⟨256,.ff,false,none⟩,⟨256,.cr,false,none⟩,⟨256,.cr,true,none⟩,⟨256,.other,false,some ⟨0,[.code],some 2,true⟩⟩]⟩,⟨[1,21,45],some 4,[],[⟨256,.other,false,none⟩,⟨256,.ws,false,none⟩,⟨256,.lf,false,none⟩,⟨256,.vt,false,none⟩,⟨256,.ff,false,none⟩,⟨256,.cr,false,none⟩,⟨256,.cr,true,none⟩,⟨256,.other,false,some ⟨9,[],none,false⟩⟩]⟩,⟨[19],none,[],[⟨256,.other,false,some ⟨7,[],none,false⟩⟩,⟨256,.ws,false,some ⟨7,[],none,false⟩⟩,⟨256,.lf,false,none⟩,⟨256,.vt,false,some ⟨7,[],none,false⟩⟩,⟨256,.ff,false,none⟩,⟨256,.cr,false,none⟩,⟨256,.cr,true,none⟩,⟨256,.other,false,some ⟨0,[.code],some 2,true⟩⟩]⟩,⟨[16],none,[],[⟨256,.other,false,some ⟨8,[],none,false⟩⟩,⟨256,.ws,false,some ⟨8,[],none,false⟩⟩,⟨256,.lf,false,none⟩,⟨256,.vt,false,some ⟨8,[],none,false⟩⟩,⟨256,.ff,false,none⟩,⟨256,.cr,false,none⟩,⟨256,.cr,true,none⟩,⟨256,.other,false,some ⟨0,[.code],some 2,true⟩⟩]⟩,⟨[2,22],none,[],[⟨256,.other,false,none⟩,⟨256,.ws,false,none⟩,⟨256,.lf,false,none⟩,⟨256,.vt,false,none⟩,⟨256,.ff,false,none⟩,⟨256,.cr,false,none⟩,⟨256,.cr,true,none⟩,⟨256,.other,false,some ⟨10,[],none,false⟩⟩,⟨256,.other,false,some ⟨11,[],none,false⟩⟩]⟩,⟨[3],none,[],[⟨256,.other,false,none⟩,⟨256,.ws,false,none⟩,⟨256,.lf,false,none⟩,⟨256,.vt,false,none⟩,⟨256,.ff,false,none⟩,⟨256,.cr,false,none⟩,⟨256,.cr,true,none⟩,⟨256,.other,false,some ⟨12,[.comment],none,false⟩⟩]⟩,⟨[23],none,[],[⟨256,.other,false,none⟩,⟨256,.ws,false,none⟩,⟨256,.lf,false,none⟩,⟨256,.vt,false,none⟩,⟨256,.ff,false,none⟩,⟨256,.cr,false,none⟩,⟨256,.cr,true,none⟩,⟨256,.other,false,some ⟨13,[],none,false⟩⟩]⟩,⟨[4],none,[],[⟨256,.other,false,some ⟨14,[.comment],none,false⟩⟩,⟨256,.ws,false,some ⟨15,[],none,false⟩⟩,⟨256,.lf,false,some ⟨16,[],none,false⟩⟩,⟨256,.vt,false,some ⟨14,[.comment],none,false⟩⟩,⟨256,.ff,false,some ⟨17,[],none,false⟩⟩,⟨256,.cr,false,some ⟨18,[],none,false⟩⟩,⟨256,.cr,true,some ⟨19,[],none,false⟩⟩,⟨256,.other,false,some ⟨20,[.comment],none,false⟩⟩]⟩,⟨[24],none,[],[⟨256,.other,false,none⟩,⟨256,.ws,false,none⟩,⟨256,.lf,false,none⟩,⟨256,.vt,false,none⟩,⟨256,.ff,false,none⟩,⟨256,.cr,false,none⟩,⟨256,.cr,true,none⟩,⟨256,.other,false,some ⟨21,[],none,false⟩⟩]⟩,⟨[11],none,[],[⟨256,.other,false,some ⟨14,[.comment],none,false⟩⟩,⟨256,.ws,false,some ⟨15,[],none,false⟩⟩,⟨256,.lf,false,some ⟨16,[],none,false⟩⟩,⟨256,.vt,false,some ⟨14,[.comment],none,false⟩⟩,⟨256,.ff,false,some ⟨17,[],none,false⟩⟩,⟨256,.cr,false,some ⟨18,[],none,false⟩⟩,⟨256,.cr,true,some ⟨19,[],none,false⟩⟩,⟨256,.other,false,some ⟨20,[.comment],none,false⟩⟩]⟩,⟨[10],none,[],[⟨256,.other,false,some ⟨14,[.comment],none,false⟩⟩,⟨256,.ws,false,some ⟨15,[],none,false⟩⟩,⟨256,.lf,false,some ⟨16,[],none,false⟩⟩,⟨256,.vt,false,some ⟨14,[.comment],none,false⟩⟩,⟨256,.ff,false,some ⟨17,[],none,false⟩⟩,⟨256,.cr,false,some ⟨18,[],none,false⟩⟩,⟨256,.cr,true,some ⟨19,[],none,false⟩⟩,⟨256,.other,false,some ⟨20,[.comment],none,false⟩⟩]⟩,⟨[7],none,[],[⟨256,.other,false,some ⟨14,[.setEnt .internalNl,.cb,.comment],none,false⟩⟩,⟨256,.ws,false,some ⟨15,[.setEnt .internalNl,.cb],none,false⟩⟩,⟨256,.lf,false,some ⟨16,[.setEnt .internalNl,.cb],none,false⟩⟩,⟨256,.vt,false,some ⟨14,[.setEnt .internalNl,.cb,.comment],none,false⟩⟩,⟨256,.ff,false,some ⟨17,[.setEnt .internalNl,.cb],none,false⟩⟩,⟨256,.cr,false,some ⟨18,[.setEnt .internalNl,.cb],none,false⟩⟩,⟨256,.cr,true,some ⟨19,[.setEnt .internalNl,.cb],none,false⟩⟩,⟨256,.other,false,some ⟨20,[.setEnt .internalNl,.cb,.comment],none,false⟩⟩]⟩,⟨[8],none,[],[⟨256,.other,false,some ⟨14,[.setEnt .internalNl,.cb,.comment],none,false⟩⟩,⟨256,.ws,false,some ⟨15,[.setEnt .internalNl,.cb],none,false⟩⟩,⟨256,.lf,false,some ⟨16,[.setEnt .internalNl,.cb],none,false⟩⟩,⟨256,.vt,false,some ⟨14,[.setEnt .internalNl,.cb,.comment],none,false⟩⟩,⟨256,.ff,false,some ⟨17,[.setEnt .internalNl,.cb],none,false⟩⟩,⟨256,.cr,false,some ⟨18,[.setEnt .internalNl,.cb],none,false⟩⟩,⟨256,.cr,true,some ⟨19,[.setEnt .internalNl,.cb],none,false⟩⟩,⟨256,.other,false,some ⟨20,[.setEnt .internalNl,.cb,.comment],none,false⟩⟩]⟩,⟨[5],none,[],[⟨256,.other,false,none⟩,⟨256,.ws,false,none⟩,⟨256,.lf,false,some ⟨22,[],none,false⟩⟩,⟨256,.vt,false,none⟩,⟨256,.ff,false,none⟩,⟨256,.cr,false,none⟩,⟨256,.cr,true,none⟩]⟩,⟨[5,9],none,[],[⟨256,.other,false,some ⟨14,[.setEnt .internalNl,.cb,.comment],none,false⟩⟩,⟨256,.ws,false,some ⟨15,[.setEnt .internalNl,.cb],none,false⟩⟩,⟨256,.lf,false,some ⟨23,[.setEnt .internalNl,.cb],none,false⟩⟩,⟨256,.vt,false,some ⟨14,[.setEnt .internalNl,.cb,.comment],none,false⟩⟩,⟨256,.ff,false,some ⟨17,[.setEnt .internalNl,.cb],none,false⟩⟩,⟨256,.cr,false,some ⟨18,[.setEnt .internalNl,.cb],none,false⟩⟩,⟨256,.cr,true,some ⟨19,[.setEnt .internalNl,.cb],none,false⟩⟩,⟨256,.other,false,some ⟨20,[.setEnt .internalNl,.cb,.comment],none,false⟩⟩]⟩,⟨[11,12],none,[],[⟨256,.other,false,some ⟨14,[.comment],none,false⟩⟩,⟨256,.ws,false,some ⟨15,[],none,false⟩⟩,⟨256,.lf,false,some ⟨16,[],none,false⟩⟩,⟨256,.vt,false,some ⟨14,[.comment],none,false⟩⟩,⟨256,.ff,false,some ⟨17,[],none,false⟩⟩,⟨256,.cr,false,some ⟨18,[],none,false⟩⟩,⟨256,.cr,true,some ⟨19,[],none,false⟩⟩,⟨256,.other,false,some ⟨24,[.comment],none,false⟩⟩]⟩,⟨[25],none,[],[⟨256,.other,false,none⟩,⟨256,.ws,false,none⟩,⟨256,.lf,false,none⟩,⟨256,.vt,false,none⟩,⟨256,.ff,false,none⟩,⟨256,.cr,false,none⟩,⟨256,.cr,true,none⟩,⟨256,.other,false,some ⟨25,[],none,false⟩⟩]⟩,⟨[6],none,[],[⟨256,.other,false,some ⟨14,[.setEnt .internalNl,.cb,.comment],none,false⟩⟩,⟨256,.ws,false,some ⟨15,[.setEnt .internalNl,.cb],none,false⟩⟩,⟨256,.lf,false,some ⟨16,[.setEnt .internalNl,.cb],none,false⟩⟩,⟨256,.vt,false,some ⟨14,[.setEnt .internalNl,.cb,.comment],none,false⟩⟩,⟨256,.ff,false,some ⟨17,[.setEnt .internalNl,.cb],none,false⟩⟩,⟨256,.cr,false,some ⟨18,[.setEnt .internalNl,.cb],none,false⟩⟩,⟨256,.cr,true,some ⟨19,[.setEnt .internalNl,.cb],none,false⟩⟩,⟨256,.other,false,some ⟨20,[.setEnt .internalNl,.cb,.comment],none,false⟩⟩]⟩,⟨[6,7],none,[],[⟨256,.other,false,some ⟨14,[.setEnt .internalNl,.cb,.comment],none,false⟩⟩,⟨256,.ws,false,some ⟨15,[.setEnt .internalNl,.cb],none,false⟩⟩,⟨256,.lf,false,some ⟨16,[.setEnt .internalNl,.cb],none,false⟩⟩,⟨256,.vt,false,some ⟨14,[.setEnt .internalNl,.cb,.comment],none,false⟩⟩,⟨256,.ff,false,some ⟨17,[.setEnt .internalNl,.cb],none,false⟩⟩,⟨256,.cr,false,some ⟨18,[.setEnt .internalNl,.cb],none,false⟩⟩,⟨256,.cr,true,some ⟨19,[.setEnt .internalNl,.cb],none,false⟩⟩,⟨256,.other,false,some ⟨20,[.setEnt .internalNl,.cb,.comment],none,false⟩⟩]⟩,⟨[11,12,13],none,[],[⟨256,.other,false,some ⟨14,[.comment],none,false⟩⟩,⟨256,.ws,false,some ⟨15,[],none,false⟩⟩,⟨256,.lf,false,some ⟨16,[],none,false⟩⟩,⟨256,.vt,false,some ⟨14,[.comment],none,false⟩⟩,⟨256,.ff,false,some ⟨17,[],none,false⟩⟩,⟨256,.cr,false,some ⟨18,[],none,false⟩⟩,⟨256,.cr,true,some ⟨19,[],none,false⟩⟩,⟨256,.other,false,some ⟨24,[.comment],none,false⟩⟩,⟨256,.other,false,some ⟨0,[],some 1,true⟩⟩]⟩,⟨[26],none,[],[⟨256,.other,false,none⟩,⟨256,.ws,false,none⟩,⟨256,.lf,false,none⟩,⟨256,.vt,false,none⟩,⟨256,.ff,false,none⟩,⟨256,.cr,false,none⟩,⟨256,.cr,true,none⟩,⟨256,.other,false,some ⟨26,[],none,false⟩⟩]⟩,⟨[27],none,[],[⟨256,.other,false,none⟩,⟨256,.ws,false,none⟩,⟨256,.lf,false,none⟩,⟨256,.vt,false,none⟩,⟨256,.ff,false,none⟩,⟨256,.cr,false,none⟩,⟨256,.cr,true,none⟩,⟨256,.other,false,some ⟨27,[],none,false⟩⟩]⟩,⟨[28],none,[],[⟨256,.other,false,none⟩,⟨256,.ws,false,none⟩,⟨256,.lf,false,none⟩,⟨256,.vt,false,none⟩,⟨256,.ff,false,none⟩,⟨256,.cr,false,none⟩,⟨256,.cr,true,none⟩,⟨256,.other,false,some ⟨28,[.code],none,false⟩⟩]⟩,⟨[29],none,[],[⟨256,.other,false,some ⟨29,[.code],none,false⟩⟩,⟨256,.ws,false,some ⟨30,[],none,false⟩⟩,⟨256,.lf,false,some ⟨31,[],none,false⟩⟩,⟨256,.vt,false,some ⟨29,[.code],none,false⟩⟩,⟨256,.ff,false,some ⟨32,[],none,false⟩⟩,⟨256,.cr,false,some ⟨33,[],none,false⟩⟩,⟨256,.cr,true,some ⟨34,[],none,false⟩⟩,⟨256,.other,false,some ⟨35,[.code],none,false⟩⟩]⟩,⟨[36],none,[],[⟨256,.other,false,some ⟨29,[.code],none,false⟩⟩,⟨256,.ws,false,some ⟨30,[],none,false⟩⟩,⟨256,.lf,false,some ⟨31,[],none,false⟩⟩,⟨256,.vt,false,some ⟨29,[.code],none,false⟩⟩,⟨256,.ff,false,some ⟨32,[],none,false⟩⟩,⟨256,.cr,false,some ⟨33,[],none,false⟩⟩,⟨256,.cr,true,some ⟨34,[],none,false⟩⟩,⟨256,.other,false,some ⟨35,[.code],none,false⟩⟩]⟩,⟨[35],none,[],[⟨256,.other,false,some ⟨29,[.code],none,false⟩⟩,⟨256,.ws,false,some ⟨30,[],none,false⟩⟩,⟨256,.lf,false,some ⟨31,[],none,false⟩⟩,⟨256,.vt,false,some ⟨29,[.code],none,false⟩⟩,⟨256,.ff,false,some ⟨32,[],none,false⟩⟩,⟨256,.cr,false,some ⟨33,[],none,false⟩⟩,⟨256,.cr,true,some ⟨34,[],none,false⟩⟩,⟨256,.other,false,some ⟨35,[.code],none,false⟩⟩]⟩,⟨[32],none,[],[⟨256,.other,false,some ⟨29,[.setEnt .internalNl,.cb,.code],none,false⟩⟩,⟨256,.ws,false,some ⟨30,[.setEnt .internalNl,.cb],none,false⟩⟩,⟨256,.lf,false,some ⟨31,[.setEnt .internalNl,.cb],none,false⟩⟩,⟨256,.vt,false,some ⟨29,[.setEnt .internalNl,.cb,.code],none,false⟩⟩,⟨256,.ff,false,some ⟨32,[.setEnt .internalNl,.cb],none,false⟩⟩,⟨256,.cr,false,some ⟨33,[.setEnt .internalNl,.cb],none,false⟩⟩,⟨256,.cr,true,some ⟨34,[.setEnt .internalNl,.cb],none,false⟩⟩,⟨256,.other,false,some ⟨35,[.setEnt .internalNl,.cb,.code],none,false⟩⟩]⟩,⟨[33],none,[],[⟨256,.other,false,some ⟨29,[.setEnt .internalNl,.cb,.code],none,false⟩⟩,⟨256,.ws,false,some ⟨30,[.setEnt .internalNl,.cb],none,false⟩⟩,⟨256,.lf,false,some ⟨31,[.setEnt .internalNl,.cb],none,false⟩⟩,⟨256,.vt,false,some ⟨29,[.setEnt .internalNl,.cb,.code],none,false⟩⟩,⟨256,.ff,false,some ⟨32,[.setEnt .internalNl,.cb],none,false⟩⟩,⟨256,.cr,false,some ⟨33,[.setEnt .internalNl,.cb],none,false⟩⟩,⟨256,.cr,true,some ⟨34,[.setEnt .internalNl,.cb],none,false⟩⟩,⟨256,.other,false,some ⟨35,[.setEnt .internalNl,.cb,.code],none,false⟩⟩]⟩,⟨[30],none,[],[⟨256,.other,false,none⟩,⟨256,.ws,false,none⟩,⟨256,.lf,false,some ⟨36,[],none,false⟩⟩,⟨256,.vt,false,none⟩,⟨256,.ff,false,none⟩,⟨256,.cr,false,none⟩,⟨256,.cr,true,none⟩]⟩,⟨[30,34],none,[],[⟨256,.other,false,some ⟨29,[.setEnt .internalNl,.cb,.code],none,false⟩⟩,⟨256,.ws,false,some ⟨30,[.setEnt .internalNl,.cb],none,false⟩⟩,⟨256,.lf,false,some ⟨37,[.setEnt .internalNl,.cb],none,false⟩⟩,⟨256,.vt,false,some ⟨29,[.setEnt .internalNl,.cb,.code],none,false⟩⟩,⟨256,.ff,false,some ⟨32,[.setEnt .internalNl,.cb],none,false⟩⟩,⟨256,.cr,false,some ⟨33,[.setEnt .internalNl,.cb],none,false⟩⟩,⟨256,.cr,true,some ⟨34,[.setEnt .internalNl,.cb],none,false⟩⟩,⟨256,.other,false,some ⟨35,[.setEnt .internalNl,.cb,.code],none,false⟩⟩]⟩,⟨[36,37],none,[],[⟨256,.other,false,some ⟨29,[.code],none,false⟩⟩,⟨256,.ws,false,some ⟨30,[],none,false⟩⟩,⟨256,.lf,false,some ⟨31,[],none,false⟩⟩,⟨256,.vt,false,some ⟨29,[.code],none,false⟩⟩,⟨256,.ff,false,some ⟨32,[],none,false⟩⟩,⟨256,.cr,false,some ⟨33,[],none,false⟩⟩,⟨256,.cr,true,some ⟨34,[],none,false⟩⟩,⟨256,.other,false,some ⟨38,[.code],none,false⟩⟩]⟩,⟨[31],none,[],[⟨256,.other,false,some ⟨29,[.setEnt .internalNl,.cb,.code],none,false⟩⟩,⟨256,.ws,false,some ⟨30,[.setEnt .internalNl,.cb],none,false⟩⟩,⟨256,.lf,false,some ⟨31,[.setEnt .internalNl,.cb],none,false⟩⟩,⟨256,.vt,false,some ⟨29,[.setEnt .internalNl,.cb,.code],none,false⟩⟩,⟨256,.ff,false,some ⟨32,[.setEnt .internalNl,.cb],none,false⟩⟩,⟨256,.cr,false,some ⟨33,[.setEnt .internalNl,.cb],none,false⟩⟩,⟨256,.cr,true,some ⟨34,[.setEnt .internalNl,.cb],none,false⟩⟩,⟨256,.other,false,some ⟨35,[.setEnt .internalNl,.cb,.code],none,false⟩⟩]⟩,⟨[31,32],none,[],[⟨256,.other,false,some ⟨29,[.setEnt .internalNl,.cb,.code],none,false⟩⟩,⟨256,.ws,false,some ⟨30,[.setEnt .internalNl,.cb],none,false⟩⟩,⟨256,.lf,false,some ⟨31,[.setEnt .internalNl,.cb],none,false⟩⟩,⟨256,.vt,false,some ⟨29,[.setEnt .internalNl,.cb,.code],none,false⟩⟩,⟨256,.ff,false,some ⟨32,[.setEnt .internalNl,.cb],none,false⟩⟩,⟨256,.cr,false,some ⟨33,[.setEnt .internalNl,.cb],none,false⟩⟩,⟨256,.cr,true,some ⟨34,[.setEnt .internalNl,.cb],none,false⟩⟩,⟨256,.other,false,some ⟨35,[.setEnt .internalNl,.cb,.code],none,false⟩⟩]⟩,⟨[36,37,38],none,[],[⟨256,.other,false,some ⟨29,[.code],none,false⟩⟩,⟨256,.ws,false,some ⟨30,[],none,false⟩⟩,⟨256,.lf,false,some ⟨31,[],none,false⟩⟩,⟨256,.vt,false,some ⟨29,[.code],none,false⟩⟩,⟨256,.ff,false,some ⟨32,[],none,false⟩⟩,⟨256,.cr,false,some ⟨33,[],none,false⟩⟩,⟨256,.cr,true,some ⟨34,[],none,false⟩⟩,⟨256,.other,false,some ⟨0,[],some 2,true⟩⟩,⟨256,.other,false,some ⟨38,[.code],none,false⟩⟩]⟩]
theorem xml_line_rowsOk : rowsOk xml_line_nfa [] (xml_line_cs.map (·.1)) xml_line_rows = true := by decide +kernel
def xml_line_D : Dfa xml_line_M.nfa := ⟨xml_line_masks, [], xml_line_cs, xml_line_rows, xml_line_masksIn, xml_line_repOk, xml_line_rowsOk⟩

end Ohcount.Cert
