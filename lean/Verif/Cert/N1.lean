import Verif.Gram.All
import Verif.RagelCheck

/-! Generated by tools/gen_certs.py. -/

namespace Ohcount.Cert
open Ohcount.Ragel Ohcount.Gram

set_option maxRecDepth 100000

def cs_line_nfa : Nfa := ⟨[⟨0,4294967808,[],[(0,.setEnt (.own 0))],0,0⟩,⟨1,34359738368,[],[(1,.comment)],0,0⟩,⟨3,17179869184,[],[(2,.code)],0,0⟩,⟨8,8192,[],[(3,.setEnt .newline)],0,0⟩,⟨10,1024,[],[(3,.setEnt .newline)],0,0⟩,⟨11,4096,[],[(3,.setEnt .newline)],0,0⟩,⟨12,8192,[.crAlone],[(3,.setEnt .newline)],0,0⟩,⟨13,115792089237316195423570985008687907853269984665640564039457584007908834656767,[],[(4,.setEnt (.own 3))],0,0⟩],[[⟨0,4294967808,[],[(0,.setEnt (.own 0))],0,0⟩],[⟨2,115792089237316195423570985008687907853269984665640564039457584007913129626623,[],[],0,0⟩],[⟨2,115792089237316195423570985008687907853269984665640564039457584007913129626623,[],[],0,0⟩],[⟨4,115792089237316195423570985008687907853269984665635612279300442486796353260543,[],[],0,0⟩,⟨5,4951760157141521099596496896,[],[],0,0⟩,⟨7,17179869184,[],[],0,0⟩],[⟨4,115792089237316195423570985008687907853269984665635612279300442486796353260543,[],[],0,0⟩,⟨5,4951760157141521099596496896,[],[],0,0⟩,⟨7,17179869184,[],[],0,0⟩],[⟨6,115792089237316195423570985008687907853269984665640564039457584007913129626623,[],[],0,0⟩],[⟨4,115792089237316195423570985008687907853269984665635612279300442486796353260543,[],[],0,0⟩,⟨5,4951760157141521099596496896,[],[],0,0⟩,⟨7,17179869184,[],[],0,0⟩],[],[⟨9,1024,[],[(3,.setEnt .newline)],0,0⟩],[],[],[],[],[]],[some (0,[]),some (1,[]),some (1,[]),none,none,none,none,some (2,[]),none,some (3,[]),some (3,[]),some (3,[]),some (3,[]),some (4,[])],[1,2,3,4,5]⟩
theorem cs_line_nfa_eq : Clearsilver.cs_line.nfa = cs_line_nfa := by decide +kernel
/-- The machine of `Clearsilver.cs_line`, with its automaton as a literal. -/
def cs_line_M : Machine := ⟨cs_line_nfa, Clearsilver.cs_line.ends, Clearsilver.cs_line.sw⟩
theorem cs_line_M_eq : Clearsilver.cs_line.machine = cs_line_M := by
  unfold Scanner.machine cs_line_M; rw [cs_line_nfa_eq]
def cs_line_masks : List Nat := [4294967808,34359738368,17179869184,8192,1024,4096,115792089237316195423570985008687907853269984665640564039457584007908834656767,115792089237316195423570985008687907853269984665640564039457584007913129626623,115792089237316195423570985008687907853269984665635612279300442486796353260543,4951760157141521099596496896]
def cs_line_cs : List (Nat × Nat) := [(0,115792089237316195423570985008687907853269984665635612279300442486757698552319),(9,4294967808),(10,1024),(11,2048),(12,4096),(13,8192),(34,17179869184),(35,34359738368),(92,4951760157141521099596496896)]
theorem cs_line_masksIn : masksIn cs_line_nfa cs_line_masks = true := by decide +kernel
theorem cs_line_repOk : repOk cs_line_masks cs_line_cs = true := by decide +kernel
def cs_line_rows : List Row := [⟨[],none,[],[⟨256,.other,false,some ⟨0,[.setEnt (.own 3)],some 4,true⟩⟩,⟨256,.ws,false,some ⟨1,[.setEnt (.own 0)],some 0,false⟩⟩,⟨256,.lf,false,some ⟨0,[.setEnt .newline],some 3,true⟩⟩,⟨256,.vt,false,none⟩,⟨256,.ff,false,some ⟨0,[.setEnt .newline],some 3,true⟩⟩,⟨256,.cr,false,some ⟨2,[.setEnt .newline],none,false⟩⟩,⟨256,.cr,true,some ⟨3,[.setEnt .newline],some 3,false⟩⟩,⟨256,.other,false,some ⟨4,[.code,.setEnt (.own 3)],some 4,false⟩⟩,⟨256,.other,false,some ⟨5,[.comment,.setEnt (.own 3)],some 1,false⟩⟩]⟩,⟨[0],some 0,[],[⟨256,.other,false,none⟩,⟨256,.ws,false,some ⟨1,[.setEnt (.own 0)],some 0,false⟩⟩,⟨256,.lf,false,none⟩,⟨256,.vt,false,none⟩,⟨256,.ff,false,none⟩,⟨256,.cr,false,none⟩,⟨256,.cr,true,none⟩]⟩,⟨[8],none,[],[⟨256,.other,false,none⟩,⟨256,.ws,false,none⟩,⟨256,.lf,false,some ⟨0,[.setEnt .newline],some 3,true⟩⟩,⟨256,.vt,false,none⟩,⟨256,.ff,false,none⟩,⟨256,.cr,false,none⟩,⟨256,.cr,true,none⟩]⟩,⟨[8,12],some 3,[],[⟨256,.other,false,none⟩,⟨256,.ws,false,none⟩,⟨256,.lf,false,some ⟨0,[.setEnt .newline],some 3,true⟩⟩,⟨256,.vt,false,none⟩,⟨256,.ff,false,none⟩,⟨256,.cr,false,none⟩,⟨256,.cr,true,none⟩]⟩,⟨[3,13],some 4,[],[⟨256,.other,false,some ⟨6,[],none,false⟩⟩,⟨256,.ws,false,some ⟨6,[],none,false⟩⟩,⟨256,.lf,false,none⟩,⟨256,.vt,false,some ⟨6,[],none,false⟩⟩,⟨256,.ff,false,none⟩,⟨256,.cr,false,none⟩,⟨256,.cr,true,none⟩,⟨256,.other,false,some ⟨0,[],some 2,true⟩⟩,⟨256,.other,false,some ⟨7,[],none,false⟩⟩]⟩,⟨[1,13],some 1,[],[⟨256,.other,false,some ⟨8,[],some 1,false⟩⟩,⟨256,.ws,false,some ⟨8,[],some 1,false⟩⟩,⟨256,.lf,false,none⟩,⟨256,.vt,false,some ⟨8,[],some 1,false⟩⟩,⟨256,.ff,false,none⟩,⟨256,.cr,false,none⟩,⟨256,.cr,true,none⟩]⟩,⟨[4],none,[],[⟨256,.other,false,some ⟨6,[],none,false⟩⟩,⟨256,.ws,false,some ⟨6,[],none,false⟩⟩,⟨256,.lf,false,none⟩,⟨256,.vt,false,some ⟨6,[],none,false⟩⟩,⟨256,.ff,false,none⟩,⟨256,.cr,false,none⟩,⟨256,.cr,true,none⟩,⟨256,.other,false,some ⟨0,[],some 2,true⟩⟩,⟨256,.other,false,some ⟨7,[],none,false⟩⟩]⟩,⟨[5],none,[],[⟨256,.other,false,some ⟨9,[],none,false⟩⟩,⟨256,.ws,false,some ⟨9,[],none,false⟩⟩,⟨256,.lf,false,none⟩,⟨256,.vt,false,some ⟨9,[],none,false⟩⟩,⟨256,.ff,false,none⟩,⟨256,.cr,false,none⟩,⟨256,.cr,true,none⟩]⟩,⟨[2],some 1,[],[⟨256,.other,false,some ⟨8,[],some 1,false⟩⟩,⟨256,.ws,false,some ⟨8,[],some 1,false⟩⟩,⟨256,.lf,false,none⟩,⟨256,.vt,false,some ⟨8,[],some 1,false⟩⟩,⟨256,.ff,false,none⟩,⟨256,.cr,false,none⟩,⟨256,.cr,true,none⟩]⟩,⟨[6],none,[],[⟨256,.other,false,some ⟨6,[],none,false⟩⟩,⟨256,.ws,false,some ⟨6,[],none,false⟩⟩,⟨256,.lf,false,none⟩,⟨256,.vt,false,some ⟨6,[],none,false⟩⟩,⟨256,.ff,false,none⟩,⟨256,.cr,false,none⟩,⟨256,.cr,true,none⟩,⟨256,.other,false,some ⟨0,[],some 2,true⟩⟩,⟨256,.other,false,some ⟨7,[],none,false⟩⟩]⟩]
theorem cs_line_rowsOk : rowsOk cs_line_nfa [] (cs_line_cs.map (·.1)) cs_line_rows = true := by decide +kernel
def cs_line_D : Dfa cs_line_M.nfa := ⟨cs_line_masks, [], cs_line_cs, cs_line_rows, cs_line_masksIn, cs_line_repOk, cs_line_rowsOk⟩

def cmake_line_nfa : Nfa := ⟨[⟨0,4294967808,[],[(0,.setEnt (.own 0))],0,0⟩,⟨1,34359738368,[],[(1,.comment)],0,0⟩,⟨3,17179869184,[],[(2,.enqueue),(3,.code)],0,0⟩,⟨14,8192,[],[(10,.setEnt .newline)],0,0⟩,⟨16,1024,[],[(10,.setEnt .newline)],0,0⟩,⟨17,4096,[],[(10,.setEnt .newline)],0,0⟩,⟨18,8192,[.crAlone],[(10,.setEnt .newline)],0,0⟩,⟨19,115792089237316195423570985008687907853269984665640564039457584007908834656767,[],[(11,.setEnt (.own 3))],0,0⟩],[[⟨0,4294967808,[],[(0,.setEnt (.own 0))],0,0⟩],[⟨2,115792089237316195423570985008687907853269984665640564039457584007913129626623,[],[],0,0⟩],[⟨2,115792089237316195423570985008687907853269984665640564039457584007913129626623,[],[],0,0⟩],[⟨4,8192,[],[],0,0⟩,⟨6,1024,[],[],0,0⟩,⟨7,4096,[],[],0,0⟩,⟨8,8192,[.crAlone],[],0,0⟩,⟨9,4294967808,[],[],0,0⟩,⟨10,115792089237316195423570985008687907853269984665635612279300442486792058292735,[],[(6,.code)],0,0⟩,⟨11,4951760157141521099596496896,[],[],0,0⟩,⟨13,17179869184,[],[(8,.code),(9,.commit)],0,0⟩],[⟨5,1024,[],[],0,0⟩],[⟨4,8192,[],[(4,.setEnt .internalNl),(5,.cb)],0,0⟩,⟨6,1024,[],[(4,.setEnt .internalNl),(5,.cb)],0,0⟩,⟨7,4096,[],[(4,.setEnt .internalNl),(5,.cb)],0,0⟩,⟨8,8192,[.crAlone],[(4,.setEnt .internalNl),(5,.cb)],0,0⟩,⟨9,4294967808,[],[(4,.setEnt .internalNl),(5,.cb)],0,0⟩,⟨10,115792089237316195423570985008687907853269984665635612279300442486792058292735,[],[(4,.setEnt .internalNl),(5,.cb),(6,.code)],0,0⟩,⟨11,4951760157141521099596496896,[],[(4,.setEnt .internalNl),(5,.cb)],0,0⟩,⟨13,17179869184,[],[(4,.setEnt .internalNl),(5,.cb),(8,.code),(9,.commit)],0,0⟩],[⟨4,8192,[],[(4,.setEnt .internalNl),(5,.cb)],0,0⟩,⟨6,1024,[],[(4,.setEnt .internalNl),(5,.cb)],0,0⟩,⟨7,4096,[],[(4,.setEnt .internalNl),(5,.cb)],0,0⟩,⟨8,8192,[.crAlone],[(4,.setEnt .internalNl),(5,.cb)],0,0⟩,⟨9,4294967808,[],[(4,.setEnt .internalNl),(5,.cb)],0,0⟩,⟨10,115792089237316195423570985008687907853269984665635612279300442486792058292735,[],[(4,.setEnt .internalNl),(5,.cb),(6,.code)],0,0⟩,⟨11,4951760157141521099596496896,[],[(4,.setEnt .internalNl),(5,.cb)],0,0⟩,⟨13,17179869184,[],[(4,.setEnt .internalNl),(5,.cb),(8,.code),(9,.commit)],0,0⟩],[⟨4,8192,[],[(4,.setEnt .internalNl),(5,.cb)],0,0⟩,⟨6,1024,[],[(4,.setEnt .internalNl),(5,.cb)],0,0⟩,⟨7,4096,[],[(4,.setEnt .internalNl),(5,.cb)],0,0⟩,⟨8,8192,[.crAlone],[(4,.setEnt .internalNl),(5,.cb)],0,0⟩,⟨9,4294967808,[],[(4,.setEnt .internalNl),(5,.cb)],0,0⟩,⟨10,115792089237316195423570985008687907853269984665635612279300442486792058292735,[],[(4,.setEnt .internalNl),(5,.cb),(6,.code)],0,0⟩,⟨11,4951760157141521099596496896,[],[(4,.setEnt .internalNl),(5,.cb)],0,0⟩,⟨13,17179869184,[],[(4,.setEnt .internalNl),(5,.cb),(8,.code),(9,.commit)],0,0⟩],[⟨4,8192,[],[(4,.setEnt .internalNl),(5,.cb)],0,0⟩,⟨6,1024,[],[(4,.setEnt .internalNl),(5,.cb)],0,0⟩,⟨7,4096,[],[(4,.setEnt .internalNl),(5,.cb)],0,0⟩,⟨8,8192,[.crAlone],[(4,.setEnt .internalNl),(5,.cb)],0,0⟩,⟨9,4294967808,[],[(4,.setEnt .internalNl),(5,.cb)],0,0⟩,⟨10,115792089237316195423570985008687907853269984665635612279300442486792058292735,[],[(4,.setEnt .internalNl),(5,.cb),(6,.code)],0,0⟩,⟨11,4951760157141521099596496896,[],[(4,.setEnt .internalNl),(5,.cb)],0,0⟩,⟨13,17179869184,[],[(4,.setEnt .internalNl),(5,.cb),(8,.code),(9,.commit)],0,0⟩],[⟨4,8192,[],[],0,0⟩,⟨6,1024,[],[],0,0⟩,⟨7,4096,[],[],0,0⟩,⟨8,8192,[.crAlone],[],0,0⟩,⟨9,4294967808,[],[],0,0⟩,⟨10,115792089237316195423570985008687907853269984665635612279300442486792058292735,[],[(6,.code)],0,0⟩,⟨11,4951760157141521099596496896,[],[],0,0⟩,⟨13,17179869184,[],[(8,.code),(9,.commit)],0,0⟩],[⟨4,8192,[],[],0,0⟩,⟨6,1024,[],[],0,0⟩,⟨7,4096,[],[],0,0⟩,⟨8,8192,[.crAlone],[],0,0⟩,⟨9,4294967808,[],[],0,0⟩,⟨10,115792089237316195423570985008687907853269984665635612279300442486792058292735,[],[(6,.code)],0,0⟩,⟨11,4951760157141521099596496896,[],[],0,0⟩,⟨13,17179869184,[],[(8,.code),(9,.commit)],0,0⟩],[⟨12,115792089237316195423570985008687907853269984665640564039457584007913129626623,[],[(7,.code)],0,0⟩],[⟨4,8192,[],[],0,0⟩,⟨6,1024,[],[],0,0⟩,⟨7,4096,[],[],0,0⟩,⟨8,8192,[.crAlone],[],0,0⟩,⟨9,4294967808,[],[],0,0⟩,⟨10,115792089237316195423570985008687907853269984665635612279300442486792058292735,[],[(6,.code)],0,0⟩,⟨11,4951760157141521099596496896,[],[],0,0⟩,⟨13,17179869184,[],[(8,.code),(9,.commit)],0,0⟩],[],[⟨15,1024,[],[(10,.setEnt .newline)],0,0⟩],[],[],[],[],[]],[some (0,[]),some (1,[]),some (1,[]),none,none,none,none,none,none,none,none,none,none,some (2,[]),none,some (3,[]),some (3,[]),some (3,[]),some (3,[]),some (4,[])],[1,2,10,11,12]⟩
theorem cmake_line_nfa_eq : Cmake.cmake_line.nfa = cmake_line_nfa := by decide +kernel
/-- The machine of `Cmake.cmake_line`, with its automaton as a literal. -/
def cmake_line_M : Machine := ⟨cmake_line_nfa, Cmake.cmake_line.ends, Cmake.cmake_line.sw⟩
theorem cmake_line_M_eq : Cmake.cmake_line.machine = cmake_line_M := by
  unfold Scanner.machine cmake_line_M; rw [cmake_line_nfa_eq]
def cmake_line_masks : List Nat := [4294967808,34359738368,17179869184,8192,1024,4096,115792089237316195423570985008687907853269984665640564039457584007908834656767,115792089237316195423570985008687907853269984665640564039457584007913129626623,115792089237316195423570985008687907853269984665635612279300442486792058292735,4951760157141521099596496896]
def cmake_line_cs : List (Nat × Nat) := [(0,115792089237316195423570985008687907853269984665635612279300442486757698552319),(9,4294967808),(10,1024),(11,2048),(12,4096),(13,8192),(34,17179869184),(35,34359738368),(92,4951760157141521099596496896)]
theorem cmake_line_masksIn : masksIn cmake_line_nfa cmake_line_masks = true := by decide +kernel
theorem cmake_line_repOk : repOk cmake_line_masks cmake_line_cs = true := by decide +kernel
def cmake_line_rows : List Row := [⟨[],none,[],[⟨256,.other,false,some ⟨0,[.setEnt (.own 3)],some 4,true⟩⟩,⟨256,.ws,false,some ⟨1,[.setEnt (.own 0)],some 0,false⟩⟩,⟨256,.lf,false,some ⟨0,[.setEnt .newline],some 3,true⟩⟩,⟨256,.vt,false,none⟩,⟨256,.ff,false,some ⟨0,[.setEnt .newline],some 3,true⟩⟩,⟨256,.cr,false,some ⟨2,[.setEnt .newline],none,false⟩⟩,⟨256,.cr,true,some ⟨3,[.setEnt .newline],some 3,false⟩⟩,⟨256,.other,false,some ⟨4,[.enqueue,.code,.setEnt (.own 3)],some 4,false⟩⟩,⟨256,.other,false,some ⟨5,[.comment,.setEnt (.own 3)],some 1,false⟩⟩]⟩,⟨[0],some 0,[],[⟨256,.other,false,none⟩,⟨256,.ws,false,some ⟨1,[.setEnt (.own 0)],some 0,false⟩⟩,⟨256,.lf,false,none⟩,⟨256,.vt,false,none⟩,⟨256,.ff,false,none⟩,⟨256,.cr,false,none⟩,⟨256,.cr,true,none⟩]⟩,⟨[14],none,[],[⟨256,.other,false,none⟩,⟨256,.ws,false,none⟩,⟨256,.lf,false,some ⟨0,[.setEnt .newline],some 3,true⟩⟩,⟨256,.vt,false,none⟩,⟨256,.ff,false,none⟩,⟨256,.cr,false,none⟩,⟨256,.cr,true,none⟩]⟩,⟨[14,18],some 3,[],[⟨256,.other,false,none⟩,⟨256,.ws,false,none⟩,⟨256,.lf,false,some ⟨0,[.setEnt .newline],some 3,true⟩⟩,⟨256,.vt,false,none⟩,⟨256,.ff,false,none⟩,⟨256,.cr,false,none⟩,⟨256,.cr,true,none⟩]⟩,⟨[3,19],some 4,[],[⟨256,.other,false,some ⟨6,[.code],none,false⟩⟩,⟨256,.ws,false,some ⟨7,[],none,false⟩⟩,⟨256,.lf,false,some ⟨8,[],none,false⟩⟩,⟨256,.vt,false,some ⟨6,[.code],none,false⟩⟩,⟨256,.ff,false,some ⟨9,[],none,false⟩⟩,⟨256,.cr,false,some ⟨10,[],none,false⟩⟩,⟨256,.cr,true,some ⟨11,[],none,false⟩⟩,⟨256,.other,false,some ⟨0,[.code,.commit],some 2,true⟩⟩,⟨256,.other,false,some ⟨12,[],none,false⟩⟩]⟩,⟨[1,19],some 1,[],[⟨256,.other,false,some ⟨13,[],some 1,false⟩⟩,⟨256,.ws,false,some ⟨13,[],some 1,false⟩⟩,⟨256,.lf,false,none⟩,⟨256,.vt,false,some ⟨13,[],some 1,false⟩⟩,⟨256,.ff,false,none⟩,⟨256,.cr,false,none⟩,⟨256,.cr,true,none⟩]⟩,⟨[10],none,[],[⟨256,.other,false,some ⟨6,[.code],none,false⟩⟩,⟨256,.ws,false,some ⟨7,[],none,false⟩⟩,⟨256,.lf,false,some ⟨8,[],none,false⟩⟩,⟨256,.vt,false,some ⟨6,[.code],none,false⟩⟩,⟨256,.ff,false,some ⟨9,[],none,false⟩⟩,⟨256,.cr,false,some ⟨10,[],none,false⟩⟩,⟨256,.cr,true,some ⟨11,[],none,false⟩⟩,⟨256,.other,false,some ⟨0,[.code,.commit],some 2,true⟩⟩,⟨256,.other,false,some ⟨12,[],none,false⟩⟩]⟩,⟨[9],none,[],[⟨256,.other,false,some ⟨6,[.code],none,false⟩⟩,⟨256,.ws,false,some ⟨7,[],none,false⟩⟩,⟨256,.lf,false,some ⟨8,[],none,false⟩⟩,⟨256,.vt,false,some ⟨6,[.code],none,false⟩⟩,⟨256,.ff,false,some ⟨9,[],none,false⟩⟩,⟨256,.cr,false,some ⟨10,[],none,false⟩⟩,⟨256,.cr,true,some ⟨11,[],none,false⟩⟩,⟨256,.other,false,some ⟨0,[.code,.commit],some 2,true⟩⟩,⟨256,.other,false,some ⟨12,[],none,false⟩⟩]⟩,⟨[6],none,[],[⟨256,.other,false,some ⟨6,[.setEnt .internalNl,.cb,.code],none,false⟩⟩,⟨256,.ws,false,some ⟨7,[.setEnt .internalNl,.cb],none,false⟩⟩,⟨256,.lf,false,some ⟨8,[.setEnt .internalNl,.cb],none,false⟩⟩,⟨256,.vt,false,some ⟨6,[.setEnt .internalNl,.cb,.code],none,false⟩⟩,⟨256,.ff,false,some ⟨9,[.setEnt .internalNl,.cb],none,false⟩⟩,⟨256,.cr,false,some ⟨10,[.setEnt .internalNl,.cb],none,false⟩⟩,⟨256,.cr,true,some ⟨11,[.setEnt .internalNl,.cb],none,false⟩⟩,⟨256,.other,false,some ⟨0,[.setEnt .internalNl,.cb,.code,.commit],some 2,true⟩⟩,⟨256,.other,false,some ⟨12,[.setEnt .internalNl,.cb],none,false⟩⟩]⟩,⟨[7],none,[],[⟨256,.other,false,some ⟨6,[.setEnt .internalNl,.cb,.code],none,false⟩⟩,⟨256,.ws,false,some ⟨7,[.setEnt .internalNl,.cb],none,false⟩⟩,⟨256,.lf,false,some ⟨8,[.setEnt .internalNl,.cb],none,false⟩⟩,⟨256,.vt,false,some ⟨6,[.setEnt .internalNl,.cb,.code],none,false⟩⟩,⟨256,.ff,false,some ⟨9,[.setEnt .internalNl,.cb],none,false⟩⟩,⟨256,.cr,false,some ⟨10,[.setEnt .internalNl,.cb],none,false⟩⟩,⟨256,.cr,true,some ⟨11,[.setEnt .internalNl,.cb],none,false⟩⟩,⟨256,.other,false,some ⟨0,[.setEnt .internalNl,.cb,.code,.commit],some 2,true⟩⟩,⟨256,.other,false,some ⟨12,[.setEnt .internalNl,.cb],none,false⟩⟩]⟩,⟨[4],none,[],[⟨256,.other,false,none⟩,⟨256,.ws,false,none⟩,⟨256,.lf,false,some ⟨14,[],none,false⟩⟩,⟨256,.vt,false,none⟩,⟨256,.ff,false,none⟩,⟨256,.cr,false,none⟩,⟨256,.cr,true,none⟩]⟩,⟨[4,8],none,[],[⟨256,.other,false,some ⟨6,[.setEnt .internalNl,.cb,.code],none,false⟩⟩,⟨256,.ws,false,some ⟨7,[.setEnt .internalNl,.cb],none,false⟩⟩,⟨256,.lf,false,some ⟨15,[.setEnt .internalNl,.cb],none,false⟩⟩,⟨256,.vt,false,some ⟨6,[.setEnt .internalNl,.cb,.code],none,false⟩⟩,⟨256,.ff,false,some ⟨9,[.setEnt .internalNl,.cb],none,false⟩⟩,⟨256,.cr,false,some ⟨10,[.setEnt .internalNl,.cb],none,false⟩⟩,⟨256,.cr,true,some ⟨11,[.setEnt .internalNl,.cb],none,false⟩⟩,⟨256,.other,false,some ⟨0,[.setEnt .internalNl,.cb,.code,.commit],some 2,true⟩⟩,⟨256,.other,false,some ⟨12,[.setEnt .internalNl,.cb],none,false⟩⟩]⟩,⟨[11],none,[],[⟨256,.other,false,some ⟨16,[.code],none,false⟩⟩,⟨256,.ws,false,some ⟨16,[.code],none,false⟩⟩,⟨256,.lf,false,none⟩,⟨256,.vt,false,some ⟨16,[.code],none,false⟩⟩,⟨256,.ff,false,none⟩,⟨256,.cr,false,none⟩,⟨256,.cr,true,none⟩]⟩,⟨[2],some 1,[],[⟨256,.other,false,some ⟨13,[],some 1,false⟩⟩,⟨256,.ws,false,some ⟨13,[],some 1,false⟩⟩,⟨256,.lf,false,none⟩,⟨256,.vt,false,some ⟨13,[],some 1,false⟩⟩,⟨256,.ff,false,none⟩,⟨256,.cr,false,none⟩,⟨256,.cr,true,none⟩]⟩,⟨[5],none,[],[⟨256,.other,false,some ⟨6,[.setEnt .internalNl,.cb,.code],none,false⟩⟩,⟨256,.ws,false,some ⟨7,[.setEnt .internalNl,.cb],none,false⟩⟩,⟨256,.lf,false,some ⟨8,[.setEnt .internalNl,.cb],none,false⟩⟩,⟨256,.vt,false,some ⟨6,[.setEnt .internalNl,.cb,.code],none,false⟩⟩,⟨256,.ff,false,some ⟨9,[.setEnt .internalNl,.cb],none,false⟩⟩,⟨256,.cr,false,some ⟨10,[.setEnt .internalNl,.cb],none,false⟩⟩,⟨256,.cr,true,some ⟨11,[.setEnt .internalNl,.cb],none,false⟩⟩,⟨256,.other,false,some ⟨0,[.setEnt .internalNl,.cb,.code,.commit],some 2,true⟩⟩,⟨256,.other,false,some ⟨12,[.setEnt .internalNl,.cb],none,false⟩⟩]⟩,⟨[5,6],none,[],[⟨256,.other,false,some ⟨6,[.setEnt .internalNl,.cb,.code],none,false⟩⟩,⟨256,.ws,false,some ⟨7,[.setEnt .internalNl,.cb],none,false⟩⟩,⟨256,.lf,false,some ⟨8,[.setEnt .internalNl,.cb],none,false⟩⟩,⟨256,.vt,false,some ⟨6,[.setEnt .internalNl,.cb,.code],none,false⟩⟩,⟨256,.ff,false,some ⟨9,[.setEnt .internalNl,.cb],none,false⟩⟩,⟨256,.cr,false,some ⟨10,[.setEnt .internalNl,.cb],none,false⟩⟩,⟨256,.cr,true,some ⟨11,[.setEnt .internalNl,.cb],none,false⟩⟩,⟨256,.other,false,some ⟨0,[.setEnt .internalNl,.cb,.code,.commit],some 2,true⟩⟩,⟨256,.other,false,some ⟨12,[.setEnt .internalNl,.cb],none,false⟩⟩]⟩,⟨[12],none,[],[⟨256,.other,false,some ⟨6,[.code],none,false⟩⟩,⟨256,.ws,false,some ⟨7,[],none,false⟩⟩,⟨256,.lf,false,some ⟨8,[],none,false⟩⟩,⟨256,.vt,false,some ⟨6,[.code],none,false⟩⟩,⟨256,.ff,false,some ⟨9,[],none,false⟩⟩,⟨256,.cr,false,some ⟨10,[],none,false⟩⟩,⟨256,.cr,true,some ⟨11,[],none,false⟩⟩,⟨256,.other,false,some ⟨0,[.code,.commit],some 2,true⟩⟩,⟨256,.other,false,some ⟨12,[],none,false⟩⟩]⟩]
theorem cmake_line_rowsOk : rowsOk cmake_line_nfa [] (cmake_line_cs.map (·.1)) cmake_line_rows = true := by decide +kernel
def cmake_line_D : Dfa cmake_line_M.nfa := ⟨cmake_line_masks, [], cmake_line_cs, cmake_line_rows, cmake_line_masksIn, cmake_line_repOk, cmake_line_rowsOk⟩

def ebuild_line_nfa : Nfa := ⟨[⟨0,4294967808,[],[(0,.setEnt (.own 0))],0,0⟩,⟨1,34359738368,[],[(1,.comment)],0,0⟩,⟨3,549755813888,[],[(2,.code)],0,0⟩,⟨8,17179869184,[],[(3,.code)],0,0⟩,⟨13,8192,[],[(4,.setEnt .newline)],0,0⟩,⟨15,1024,[],[(4,.setEnt .newline)],0,0⟩,⟨16,4096,[],[(4,.setEnt .newline)],0,0⟩,⟨17,8192,[.crAlone],[(4,.setEnt .newline)],0,0⟩,⟨18,115792089237316195423570985008687907853269984665640564039457584007908834656767,[],[(5,.setEnt (.own 3))],0,0⟩],[[⟨0,4294967808,[],[(0,.setEnt (.own 0))],0,0⟩],[⟨2,115792089237316195423570985008687907853269984665640564039457584007913129626623,[],[],0,0⟩],[⟨2,115792089237316195423570985008687907853269984665640564039457584007913129626623,[],[],0,0⟩],[⟨4,115792089237316195423570985008687907853269984665635612279300442486263777315839,[],[],0,0⟩,⟨5,4951760157141521099596496896,[],[],0,0⟩,⟨7,549755813888,[],[],0,0⟩],[⟨4,115792089237316195423570985008687907853269984665635612279300442486263777315839,[],[],0,0⟩,⟨5,4951760157141521099596496896,[],[],0,0⟩,⟨7,549755813888,[],[],0,0⟩],[⟨6,115792089237316195423570985008687907853269984665640564039457584007913129626623,[],[],0,0⟩],[⟨4,115792089237316195423570985008687907853269984665635612279300442486263777315839,[],[],0,0⟩,⟨5,4951760157141521099596496896,[],[],0,0⟩,⟨7,549755813888,[],[],0,0⟩],[],[⟨9,115792089237316195423570985008687907853269984665635612279300442486796353260543,[],[],0,0⟩,⟨10,4951760157141521099596496896,[],[],0,0⟩,⟨12,17179869184,[],[],0,0⟩],[⟨9,115792089237316195423570985008687907853269984665635612279300442486796353260543,[],[],0,0⟩,⟨10,4951760157141521099596496896,[],[],0,0⟩,⟨12,17179869184,[],[],0,0⟩],[⟨11,115792089237316195423570985008687907853269984665640564039457584007913129626623,[],[],0,0⟩],[⟨9,115792089237316195423570985008687907853269984665635612279300442486796353260543,[],[],0,0⟩,⟨10,4951760157141521099596496896,[],[],0,0⟩,⟨12,17179869184,[],[],0,0⟩],[],[⟨14,1024,[],[(4,.setEnt .newline)],0,0⟩],[],[],[],[],[]],[some (0,[]),some (1,[]),some (1,[]),none,none,none,none,some (2,[]),none,none,none,none,some (2,[]),none,some (3,[]),some (3,[]),some (3,[]),some (3,[]),some (4,[])],[1,2,4,5,6]⟩
theorem ebuild_line_nfa_eq : Ebuild.ebuild_line.nfa = ebuild_line_nfa := by decide +kernel
/-- The machine of `Ebuild.ebuild_line`, with its automaton as a literal. -/
def ebuild_line_M : Machine := ⟨ebuild_line_nfa, Ebuild.ebuild_line.ends, Ebuild.ebuild_line.sw⟩
theorem ebuild_line_M_eq : Ebuild.ebuild_line.machine = ebuild_line_M := by
  unfold Scanner.machine ebuild_line_M; rw [ebuild_line_nfa_eq]
def ebuild_line_masks : List Nat := [4294967808,34359738368,549755813888,17179869184,8192,1024,4096,115792089237316195423570985008687907853269984665640564039457584007908834656767,115792089237316195423570985008687907853269984665640564039457584007913129626623,115792089237316195423570985008687907853269984665635612279300442486263777315839,4951760157141521099596496896,115792089237316195423570985008687907853269984665635612279300442486796353260543]
def ebuild_line_cs : List (Nat × Nat) := [(0,115792089237316195423570985008687907853269984665635612279300442486207942738431),(9,4294967808),(10,1024),(11,2048),(12,4096),(13,8192),(34,17179869184),(35,34359738368),(39,549755813888),(92,4951760157141521099596496896)]
theorem ebuild_line_masksIn : masksIn ebuild_line_nfa ebuild_line_masks = true := by decide +kernel
theorem ebuild_line_repOk : repOk ebuild_line_masks ebuild_line_cs = true := by decide +kernel
def ebuild_line_rows : List Row := [⟨[],none,[],[⟨256,.other,false,some ⟨0,[.setEnt (.own 3)],some 4,true⟩⟩,⟨256,.ws,false,some ⟨1,[.setEnt (.own 0)],some 0,false⟩⟩,⟨256,.lf,false,some ⟨0,[.setEnt .newline],some 3,true⟩⟩,⟨256,.vt,false,none⟩,⟨256,.ff,false,some ⟨0,[.setEnt .newline],some 3,true⟩⟩,⟨256,.cr,false,some ⟨2,[.setEnt .newline],none,false⟩⟩,⟨256,.cr,true,some ⟨3,[.setEnt .newline],some 3,false⟩⟩,⟨256,.other,false,some ⟨4,[.code,.setEnt (.own 3)],some 4,false⟩⟩,⟨256,.other,false,some ⟨5,[.comment,.setEnt (.own 3)],some 1,false⟩⟩,⟨256,.other,false,some ⟨6,[.code,.setEnt (.own 3)],some 4,false⟩⟩]⟩,⟨[0],some 0,[],[⟨256,.other,false,none⟩,⟨256,.ws,false,some ⟨1,[.setEnt (.own 0)],some 0,false⟩⟩,⟨256,.lf,false,none⟩,⟨256,.vt,false,none⟩,⟨256,.ff,false,none⟩,⟨256,.cr,false,none⟩,⟨256,.cr,true,none⟩]⟩,⟨[13],none,[],[⟨256,.other,false,none⟩,⟨256,.ws,false,none⟩,⟨256,.lf,false,some ⟨0,[.setEnt .newline],some 3,true⟩⟩,⟨256,.vt,false,none⟩,⟨256,.ff,false,none⟩,⟨256,.cr,false,none⟩,⟨256,.cr,true,none⟩]⟩,⟨[13,17],some 3,[],[⟨256,.other,false,none⟩,⟨256,.ws,false,none⟩,⟨256,.lf,false,some ⟨0,[.setEnt .newline],some 3,true⟩⟩,⟨256,.vt,false,none⟩,⟨256,.ff,false,none⟩,⟨256,.cr,false,none⟩,⟨256,.cr,true,none⟩]⟩,⟨[8,18],some 4,[],[⟨256,.other,false,some ⟨7,[],none,false⟩⟩,⟨256,.ws,false,some ⟨7,[],none,false⟩⟩,⟨256,.lf,false,none⟩,⟨256,.vt,false,some ⟨7,[],none,false⟩⟩,⟨256,.ff,false,none⟩,⟨256,.cr,false,none⟩,⟨256,.cr,true,none⟩,⟨256,.other,false,some ⟨0,[],some 2,true⟩⟩,⟨256,.other,false,some ⟨8,[],none,false⟩⟩]⟩,⟨[1,18],some 1,[],[⟨256,.other,false,some ⟨9,[],some 1,false⟩⟩,⟨256,.ws,false,some ⟨9,[],some 1,false⟩⟩,⟨256,.lf,false,none⟩,⟨256,.vt,false,some ⟨9,[],some 1,false⟩⟩,⟨256,.ff,false,none⟩,⟨256,.cr,false,none⟩,⟨256,.cr,true,none⟩]⟩,⟨[3,18],some 4,[],[⟨256,.other,false,some ⟨10,[],none,false⟩⟩,⟨256,.ws,false,some ⟨10,[],none,false⟩⟩,⟨256,.lf,false,none⟩,⟨256,.vt,false,some ⟨10,[],none,false⟩⟩,⟨256,.ff,false,none⟩,⟨256,.cr,false,none⟩,⟨256,.cr,true,none⟩,⟨256,.other,false,some ⟨0,[],some 2,true⟩⟩,⟨256,.other,false,some ⟨11,[],none,false⟩⟩]⟩,⟨[9],none,[],[⟨256,.other,false,some ⟨7,[],none,false⟩⟩,⟨256,.ws,false,some ⟨7,[],none,false⟩⟩,⟨256,.lf,false,none⟩,⟨256,.vt,false,some ⟨7,[],none,false⟩⟩,⟨256,.ff,false,none⟩,⟨256,.cr,false,none⟩,⟨256,.cr,true,none⟩,⟨256,.other,false,some ⟨0,[],some 2,true⟩⟩,⟨256,.other,false,some ⟨8,[],none,false⟩⟩]⟩,⟨[10],none,[],[⟨256,.other,false,some ⟨12,[],none,false⟩⟩,⟨256,.ws,false,some ⟨12,[],none,false⟩⟩,⟨256,.lf,false,none⟩,⟨256,.vt,false,some ⟨12,[],none,false⟩⟩,⟨256,.ff,false,none⟩,⟨256,.cr,false,none⟩,⟨256,.cr,true,none⟩]⟩,⟨[2],some 1,[],[⟨256,.other,false,some ⟨9,[],some 1,false⟩⟩,⟨256,.ws,false,some ⟨9,[],some 1,false⟩⟩,⟨256,.lf,false,none⟩,⟨256,.vt,false,some ⟨9,[],some 1,false⟩⟩,⟨256,.ff,false,none⟩,⟨256,.cr,false,none⟩,⟨256,.cr,true,none⟩]⟩,⟨[4],none,[],[⟨256,.other,false,some ⟨10,[],none,false⟩⟩,⟨256,.ws,false,some ⟨10,[],none,false⟩⟩,⟨256,.lf,false,none⟩,⟨256,.vt,false,some ⟨10,[],none,false⟩⟩,⟨256,.ff,false,none⟩,⟨256,.cr,false,none⟩,⟨256,.cr,true,none⟩,⟨256,.other,false,some ⟨0,[],some 2,true⟩⟩,⟨256,.other,false,some ⟨11,[],none,false⟩⟩]⟩,⟨[5],none,[],[⟨256,.other,false,some ⟨13,[],none,false⟩⟩,⟨256,.ws,false,some ⟨13,[],none,false⟩⟩,⟨256,.lf,false,none⟩,⟨256,.vt,false,some ⟨13,[],none,false⟩⟩,⟨256,.ff,false,none⟩,⟨256,.cr,false,none⟩,⟨256,.cr,true,none⟩]⟩,⟨[11],none,[],[⟨256,.other,false,some ⟨7,[],none,false⟩⟩,⟨256,.ws,false,some ⟨7,[],none,false⟩⟩,⟨256,.lf,false,none⟩,⟨256,.vt,false,some ⟨7,[],none,false⟩⟩,⟨256,.ff,false,none⟩,⟨256,.cr,false,none⟩,⟨256,.cr,true,none⟩,⟨256,.other,false,some ⟨0,[],some 2,true⟩⟩,⟨256,.other,false,some ⟨8,[],none,false⟩⟩]⟩,⟨[6],none,[],[⟨256,.other,false,some ⟨10,[],none,false⟩⟩,⟨256,.ws,false,some ⟨10,[],none,false⟩⟩,⟨256,.lf,false,none⟩,⟨256,.vt,false,some ⟨10,[],none,false⟩⟩,⟨256,.ff,false,none⟩,⟨256,.cr,false,none⟩,⟨256,.cr,true,none⟩,⟨256,.other,false,some ⟨0,[],some 2,true⟩⟩,⟨256,.other,false,some ⟨11,[],none,false⟩⟩]⟩]
theorem ebuild_line_rowsOk : rowsOk ebuild_line_nfa [] (ebuild_line_cs.map (·.1)) ebuild_line_rows = true := by decide +kernel
def ebuild_line_D : Dfa ebuild_line_M.nfa := ⟨ebuild_line_masks, [], ebuild_line_cs, ebuild_line_rows, ebuild_line_masksIn, ebuild_line_repOk, ebuild_line_rowsOk⟩

def ffree_line_nfa : Nfa := ⟨[⟨0,4294967808,[],[(0,.setEnt (.own 0))],0,0⟩,⟨1,8589934592,[],[(1,.comment)],0,0⟩,⟨3,549755813888,[],[(2,.code)],0,0⟩,⟨12,17179869184,[],[(6,.code)],0,0⟩,⟨21,8192,[],[(10,.setEnt .newline)],0,0⟩,⟨23,1024,[],[(10,.setEnt .newline)],0,0⟩,⟨24,4096,[],[(10,.setEnt .newline)],0,0⟩,⟨25,8192,[.crAlone],[(10,.setEnt .newline)],0,0⟩,⟨26,115792089237316195423570985008687907853269984665640564039457584007908834656767,[],[(11,.setEnt (.own 3))],0,0⟩],[[⟨0,4294967808,[],[(0,.setEnt (.own 0))],0,0⟩],[⟨2,115792089237316195423570985008687907853269984665640564039457584007913129626623,[],[],0,0⟩],[⟨2,115792089237316195423570985008687907853269984665640564039457584007913129626623,[],[],0,0⟩],[⟨4,8192,[],[],0,0⟩,⟨6,1024,[],[],0,0⟩,⟨7,4096,[],[],0,0⟩,⟨8,8192,[.crAlone],[],0,0⟩,⟨9,4294967808,[],[],0,0⟩,⟨10,115792089237316195423570985008687907853269984665640564039457584007359078844927,[],[(5,.code)],0,0⟩,⟨11,549755813888,[],[],0,0⟩],[⟨5,1024,[],[],0,0⟩],[⟨4,8192,[],[(3,.setEnt .internalNl),(4,.cb)],0,0⟩,⟨6,1024,[],[(3,.setEnt .internalNl),(4,.cb)],0,0⟩,⟨7,4096,[],[(3,.setEnt .internalNl),(4,.cb)],0,0⟩,⟨8,8192,[.crAlone],[(3,.setEnt .internalNl),(4,.cb)],0,0⟩,⟨9,4294967808,[],[(3,.setEnt .internalNl),(4,.cb)],0,0⟩,⟨10,115792089237316195423570985008687907853269984665640564039457584007359078844927,[],[(3,.setEnt .internalNl),(4,.cb),(5,.code)],0,0⟩,⟨11,549755813888,[],[(3,.setEnt .internalNl),(4,.cb)],0,0⟩],[⟨4,8192,[],[(3,.setEnt .internalNl),(4,.cb)],0,0⟩,⟨6,1024,[],[(3,.setEnt .internalNl),(4,.cb)],0,0⟩,⟨7,4096,[],[(3,.setEnt .internalNl),(4,.cb)],0,0⟩,⟨8,8192,[.crAlone],[(3,.setEnt .internalNl),(4,.cb)],0,0⟩,⟨9,4294967808,[],[(3,.setEnt .internalNl),(4,.cb)],0,0⟩,⟨10,115792089237316195423570985008687907853269984665640564039457584007359078844927,[],[(3,.setEnt .internalNl),(4,.cb),(5,.code)],0,0⟩,⟨11,549755813888,[],[(3,.setEnt .internalNl),(4,.cb)],0,0⟩],[⟨4,8192,[],[(3,.setEnt .internalNl),(4,.cb)],0,0⟩,⟨6,1024,[],[(3,.setEnt .internalNl),(4,.cb)],0,0⟩,⟨7,4096,[],[(3,.setEnt .internalNl),(4,.cb)],0,0⟩,⟨8,8192,[.crAlone],[(3,.setEnt .internalNl),(4,.cb)],0,0⟩,⟨9,4294967808,[],[(3,.setEnt .internalNl),(4,.cb)],0,0⟩,⟨10,115792089237316195423570985008687907853269984665640564039457584007359078844927,[],[(3,.setEnt .internalNl),(4,.cb),(5,.code)],0,0⟩,⟨11,549755813888,[],[(3,.setEnt .internalNl),(4,.cb)],0,0⟩],[⟨4,8192,[],[(3,.setEnt .internalNl),(4,.cb)],0,0⟩,⟨6,1024,[],[(3,.setEnt .internalNl),(4,.cb)],0,0⟩,⟨7,4096,[],[(3,.setEnt .internalNl),(4,.cb)],0,0⟩,⟨8,8192,[.crAlone],[(3,.setEnt .internalNl),(4,.cb)],0,0⟩,⟨9,4294967808,[],[(3,.setEnt .internalNl),(4,.cb)],0,0⟩,⟨10,115792089237316195423570985008687907853269984665640564039457584007359078844927,[],[(3,.setEnt .internalNl),(4,.cb),(5,.code)],0,0⟩,⟨11,549755813888,[],[(3,.setEnt .internalNl),(4,.cb)],0,0⟩],[⟨4,8192,[],[],0,0⟩,⟨6,1024,[],[],0,0⟩,⟨7,4096,[],[],0,0⟩,⟨8,8192,[.crAlone],[],0,0⟩,⟨9,4294967808,[],[],0,0⟩,⟨10,115792089237316195423570985008687907853269984665640564039457584007359078844927,[],[(5,.code)],0,0⟩,⟨11,549755813888,[],[],0,0⟩],[⟨4,8192,[],[],0,0⟩,⟨6,1024,[],[],0,0⟩,⟨7,4096,[],[],0,0⟩,⟨8,8192,[.crAlone],[],0,0⟩,⟨9,4294967808,[],[],0,0⟩,⟨10,115792089237316195423570985008687907853269984665640564039457584007359078844927,[],[(5,.code)],0,0⟩,⟨11,549755813888,[],[],0,0⟩],[],[⟨13,8192,[],[],0,0⟩,⟨15,1024,[],[],0,0⟩,⟨16,4096,[],[],0,0⟩,⟨17,8192,[.crAlone],[],0,0⟩,⟨18,4294967808,[],[],0,0⟩,⟨19,115792089237316195423570985008687907853269984665640564039457584007891654789631,[],[(9,.code)],0,0⟩,⟨20,17179869184,[],[],0,0⟩],[⟨14,1024,[],[],0,0⟩],[⟨13,8192,[],[(7,.setEnt .internalNl),(8,.cb)],0,0⟩,⟨15,1024,[],[(7,.setEnt .internalNl),(8,.cb)],0,0⟩,⟨16,4096,[],[(7,.setEnt .internalNl),(8,.cb)],0,0⟩,⟨17,8192,[.crAlone],[(7,.setEnt .internalNl),(8,.cb)],0,0⟩,⟨18,4294967808,[],[(7,.setEnt .internalNl),(8,.cb)],0,0⟩,⟨19,115792089237316195423570985008687907853269984665640564039457584007891654789631,[],[(7,.setEnt .internalNl),(8,.cb),(9,.code)],0,0⟩,⟨20,17179869184,[],[(7,.setEnt .internalNl),(8,.cb)],0,0⟩],[⟨13,8192,[],[(7,.setEnt .internalNl),(8,.cb)],0,0⟩,⟨15,1024,[],[(7,.setEnt .internalNl),(8,.cb)],0,0⟩,⟨16,4096,[],[(7,.setEnt .internalNl),(8,.cb)],0,0⟩,⟨17,8192,[.crAlone],[(7,.setEnt .internalNl),(8,.cb)],0,0⟩,⟨18,4294967808,[],[(7,.setEnt .internalNl),(8,.cb)],0,0⟩,⟨19,115792089237316195423570985008687907853269984665640564039457584007891654789631,[],[(7,.setEnt .internalNl),(8,.cb),(9,.code)],0,0⟩,⟨20,17179869184,[],[(7,.setEnt .internalNl),(8,.cb)],0,0⟩],[⟨13,8192,[],[(7,.setEnt .internalNl),(8,.cb)],0,0⟩,⟨15,1024,[],[(7,.setEnt .internalNl),(8,.cb)],0,0⟩,⟨16,4096,[],[(7,.setEnt .internalNl),(8,.cb)],0,0⟩,⟨17,8192,[.crAlone],[(7,.setEnt .internalNl),(8,.cb)],0,0⟩,⟨18,4294967808,[],[(7,.setEnt .internalNl),(8,.cb)],0,0⟩,⟨19,115792089237316195423570985008687907853269984665640564039457584007891654789631,[],[(7,.setEnt .internalNl),(8,.cb),(9,.code)],0,0⟩,⟨20,17179869184,[],[(7,.setEnt .internalNl),(8,.cb)],0,0⟩],[⟨13,8192,[],[(7,.setEnt .internalNl),(8,.cb)],0,0⟩,⟨15,1024,[],[(7,.setEnt .internalNl),(8,.cb)],0,0⟩,⟨16,4096,[],[(7,.setEnt .internalNl),(8,.cb)],0,0⟩,⟨17,8192,[.crAlone],[(7,.setEnt .internalNl),(8,.cb)],0,0⟩,⟨18,4294967808,[],[(7,.setEnt .internalNl),(8,.cb)],0,0⟩,⟨19,115792089237316195423570985008687907853269984665640564039457584007891654789631,[],[(7,.setEnt .internalNl),(8,.cb),(9,.code)],0,0⟩,⟨20,17179869184,[],[(7,.setEnt .internalNl),(8,.cb)],0,0⟩],[⟨13,8192,[],[],0,0⟩,⟨15,1024,[],[],0,0⟩,⟨16,4096,[],[],0,0⟩,⟨17,8192,[.crAlone],[],0,0⟩,⟨18,4294967808,[],[],0,0⟩,⟨19,115792089237316195423570985008687907853269984665640564039457584007891654789631,[],[(9,.code)],0,0⟩,⟨20,17179869184,[],[],0,0⟩],[⟨13,8192,[],[],0,0⟩,⟨15,1024,[],[],0,0⟩,⟨16,4096,[],[],0,0⟩,⟨17,8192,[.crAlone],[],0,0⟩,⟨18,4294967808,[],[],0,0⟩,⟨19,115792089237316195423570985008687907853269984665640564039457584007891654789631,[],[(9,.code)],0,0⟩,⟨20,17179869184,[],[],0,0⟩],[],[⟨22,1024,[],[(10,.setEnt .newline)],0,0⟩],[],[],[],[],[]],[some (0,[]),some (1,[]),some (1,[]),none,none,none,none,none,none,none,none,some (2,[]),none,none,none,none,none,none,none,none,some (2,[]),none,some (3,[]),some (3,[]),some (3,[]),some (3,[]),some (4,[])],[1,2,10,11,12]⟩
theorem ffree_line_nfa_eq : Fortranfree.ffree_line.nfa = ffree_line_nfa := by decide +kernel
/-- The machine of `Fortranfree.ffree_line`, with its automaton as a literal. -/
def ffree_line_M : Machine := ⟨ffree_line_nfa, Fortranfree.ffree_line.ends, Fortranfree.ffree_line.sw⟩
theorem ffree_line_M_eq : Fortranfree.ffree_line.machine = ffree_line_M := by
  unfold Scanner.machine ffree_line_M; rw [ffree_line_nfa_eq]
def ffree_line_masks : List Nat := [4294967808,8589934592,549755813888,17179869184,8192,1024,4096,115792089237316195423570985008687907853269984665640564039457584007908834656767,115792089237316195423570985008687907853269984665640564039457584007913129626623,115792089237316195423570985008687907853269984665640564039457584007359078844927,115792089237316195423570985008687907853269984665640564039457584007891654789631]
def ffree_line_cs : List (Nat × Nat) := [(0,115792089237316195423570985008687907853269984665640564039457584007333309039103),(9,4294967808),(10,1024),(11,2048),(12,4096),(13,8192),(33,8589934592),(34,17179869184),(39,549755813888)]
theorem ffree_line_masksIn : masksIn ffree_line_nfa ffree_line_masks = true := by decide +kernel
theorem ffree_line_repOk : repOk ffree_line_masks ffree_line_cs = true := by decide +kernel
def ffree_line_rows : List Row := [⟨[],none,[],[⟨256,.other,false,some ⟨0,[.setEnt (.own 3)],some 4,true⟩⟩,⟨256,.ws,false,some ⟨1,[.setEnt (.own 0)],some 0,false⟩⟩,⟨256,.lf,false,some ⟨0,[.setEnt .newline],some 3,true⟩⟩,⟨256,.vt,false,none⟩,⟨256,.ff,false,some ⟨0,[.setEnt .newline],some 3,true⟩⟩,⟨256,.cr,false,some ⟨2,[.setEnt .newline],none,false⟩⟩,⟨256,.cr,true,some ⟨3,[.setEnt .newline],some 3,false⟩⟩,⟨256,.other,false,some ⟨4,[.comment,.setEnt (.own 3)],some 1,false⟩⟩,⟨256,.other,false,some ⟨5,[.code,.setEnt (.own 3)],some 4,false⟩⟩,⟨256,.other,false,some ⟨6,[.code,.setEnt (.own 3)],some 4,false⟩⟩]⟩,⟨[0],some 0,[],[⟨256,.other,false,none⟩,⟨256,.ws,false,some ⟨1,[.setEnt (.own 0)],some 0,false⟩⟩,⟨256,.lf,false,none⟩,⟨256,.vt,false,none⟩,⟨256,.ff,false,none⟩,⟨256,.cr,false,none⟩,⟨256,.cr,true,none⟩]⟩,⟨[21],none,[],[⟨256,.other,false,none⟩,⟨256,.ws,false,none⟩,⟨256,.lf,false,some ⟨0,[.setEnt .newline],some 3,true⟩⟩,⟨256,.vt,false,none⟩,⟨256,.ff,false,none⟩,⟨256,.cr,false,none⟩,⟨256,.cr,true,none⟩]⟩,⟨[21,25],some 3,[],[⟨256,.other,false,none⟩,⟨256,.ws,false,none⟩,⟨256,.lf,false,some ⟨0,[.setEnt .newline],some 3,true⟩⟩,⟨256,.vt,false,none⟩,⟨256,.ff,false,none⟩,⟨256,.cr,false,none⟩,⟨256,.cr,true,none⟩]⟩,⟨[1,26],some 1,[],[⟨256,.other,false,some ⟨7,[],some 1,false⟩⟩,⟨256,.ws,false,some ⟨7,[],some 1,false⟩⟩,⟨256,.lf,false,none⟩,⟨256,.vt,false,some ⟨7,[],some 1,false⟩⟩,⟨256,.ff,false,none⟩,⟨256,.cr,false,none⟩,⟨256,.cr,true,none⟩]⟩,⟨[12,26],some 4,[],[⟨256,.other,false,some ⟨8,[.code],none,false⟩⟩,⟨256,.ws,false,some ⟨9,[],none,false⟩⟩,⟨256,.lf,false,some ⟨10,[],none,false⟩⟩,⟨256,.vt,false,some ⟨8,[.code],none,false⟩⟩,⟨256,.ff,false,some ⟨11,[],none,false⟩⟩,⟨256,.cr,false,some ⟨12,[],none,false⟩⟩,⟨256,.cr,true,some ⟨13,[],none,false⟩⟩,⟨256,.other,false,some ⟨0,[],some 2,true⟩⟩]⟩,⟨[3,26],some 4,[],[⟨256,.other,false,some ⟨14,[.code],none,false⟩⟩,⟨256,.ws,false,some ⟨15,[],none,false⟩⟩,⟨256,.lf,false,some ⟨16,[],none,false⟩⟩,⟨256,.vt,false,some ⟨14,[.code],none,false⟩⟩,⟨256,.ff,false,some ⟨17,[],none,false⟩⟩,⟨256,.cr,false,some ⟨18,[],none,false⟩⟩,⟨256,.cr,true,some ⟨19,[],none,false⟩⟩,⟨256,.other,false,some ⟨0,[],some 2,true⟩⟩]⟩,⟨[2],some 1,[],[⟨256,.other,false,some ⟨7,[],some 1,false⟩⟩,⟨256,.ws,false,some ⟨7,[],some 1,false⟩⟩,⟨256,.lf,false,none⟩,⟨256,.vt,false,some ⟨7,[],some 1,false⟩⟩,⟨256,.ff,false,none⟩,⟨256,.cr,false,none⟩,⟨256,.cr,true,none⟩]⟩,⟨[19],none,[],[⟨256,.other,false,some ⟨8,[.code],none,false⟩⟩,⟨256,.ws,false,some ⟨9,[],none,false⟩⟩,⟨256,.lf,false,some ⟨10,[],none,false⟩⟩,⟨256,.vt,false,some ⟨8,[.code],none,false⟩⟩,⟨256,.ff,false,some ⟨11,[],none,false⟩⟩,⟨256,.cr,false,some ⟨12,[],none,false⟩⟩,⟨256,.cr,true,some ⟨13,[],none,false⟩⟩,⟨256,.other,false,some ⟨0,[],some 2,true⟩⟩]⟩,⟨[18],none,[],[⟨256,.other,false,some ⟨8,[.code],none,false⟩⟩,⟨256,.ws,false,some ⟨9,[],none,false⟩⟩,⟨256,.lf,false,some ⟨10,[],none,false⟩⟩,⟨256,.vt,false,some ⟨8,[.code],none,false⟩⟩,⟨256,.ff,false,some ⟨11,[],none,false⟩⟩,⟨256,.cr,false,some ⟨12,[],none,false⟩⟩,⟨256,.cr,true,some ⟨13,[],none,false⟩⟩,⟨256,.other,false,some ⟨0,[],some 2,true⟩⟩]⟩,⟨[15],none,[],[⟨256,.other,false,some ⟨8,[.setEnt .internalNl,.cb,.code],none,false⟩⟩,⟨256,.ws,false,some ⟨9,[.setEnt .internalNl,.cb],none,false⟩⟩,⟨256,.lf,false,some ⟨10,[.setEnt .internalNl,.cb],none,false⟩⟩,⟨256,.vt,false,some ⟨8,[.setEnt .internalNl,.cb,.code],none,false⟩⟩,⟨256,.ff,false,some ⟨11,[.setEnt .internalNl,.cb],none,false⟩⟩,⟨256,.cr,false,some ⟨12,[.setEnt .internalNl,.cb],none,false⟩⟩,⟨256,.cr,true,some ⟨13,[.setEnt .internalNl,.cb],none,false⟩⟩,⟨256,.other,false,some ⟨0,[.setEnt .internalNl,.cb],some 2,true⟩⟩]⟩,⟨[16],none,[],[⟨256,.other,false,some ⟨8,[.setEnt .internalNl,.cb,.code],none,false⟩⟩,⟨256,.ws,false,some ⟨9,[.setEnt .internalNl,.cb],none,false⟩⟩,⟨256,.lf,false,some ⟨10,[.setEnt .internalNl,.cb],none,false⟩⟩,⟨256,.vt,false,some ⟨8,[.setEnt .internalNl,.cb,.code],none,false⟩⟩,⟨256,.ff,false,some ⟨11,[.setEnt .internalNl,.cb],none,false⟩⟩,⟨256,.cr,false,some ⟨12,[.setEnt .internalNl,.cb],none,false⟩⟩,⟨256,.cr,true,some ⟨13,[.setEnt .internalNl,.cb],none,false⟩⟩,⟨256,.other,false,some ⟨0,[.setEnt .internalNl,.cb],some 2,true⟩⟩]⟩,⟨[13],none,[],[⟨256,.other,false,none⟩,⟨256,.ws,false,none⟩,⟨256,.lf,false,some ⟨20,[],none,false⟩⟩,⟨256,.vt,false,none⟩,⟨256,.ff,false,none⟩,⟨256,.cr,false,none⟩,⟨256,.cr,true,none⟩]⟩,⟨[13,17],none,[],[⟨256,.other,false,some ⟨8,[.setEnt .internalNl,.cb,.code],none,false⟩⟩,⟨256,.ws,false,some ⟨9,[.setEnt .internalNl,.cb],none,false⟩⟩,⟨256,.lf,false,some ⟨21,[.setEnt .internalNl,.cb],none,false⟩⟩,⟨256,.vt,false,some ⟨8,[.setEnt .internalNl,.cb,.code],none,false⟩⟩,⟨256,.ff,false,some ⟨11,[.setEnt .internalNl,.cb],none,false⟩⟩,⟨256,.cr,false,some ⟨12,[.setEnt .internalNl,.cb],none,false⟩⟩,⟨256,.cr,true,some ⟨13,[.setEnt .internalNl,.cb],none,false⟩⟩,⟨256,.other,false,some ⟨0,[.setEnt .internalNl,.cb],some 2,true⟩⟩]⟩,⟨[10],none,[],[⟨256,.other,false,some ⟨14,[.code],none,false⟩⟩,⟨256,.ws,false,some ⟨15,[],none,false⟩⟩,⟨256,.lf,false,some ⟨16,[],none,false⟩⟩,⟨256,.vt,false,some ⟨14,[.code],none,false⟩⟩,⟨256,.ff,false,some ⟨17,[],none,false⟩⟩,⟨256,.cr,false,some ⟨18,[],none,false⟩⟩,⟨256,.cr,true,some ⟨19,[],none,false⟩⟩,⟨256,.other,false,some ⟨0,[],some 2,true⟩⟩]⟩,⟨[9],none,[],[⟨256,.other,false,some ⟨14,[.code],none,false⟩⟩,⟨256,.ws,false,some ⟨15,[],none,false⟩⟩,⟨256,.lf,false,some ⟨16,[],none,false⟩⟩,⟨256,.vt,false,some ⟨14,[.code],none,false⟩⟩,⟨256,.ff,false,some ⟨17,[],none,false⟩⟩,⟨256,.cr,false,some ⟨18,[],none,false⟩⟩,⟨256,.cr,true,some ⟨19,[],none,false⟩⟩,⟨256,.other,false,some ⟨0,[],some 2,true⟩⟩]⟩,⟨[6],none,[],[⟨256,.other,false,some ⟨14,[.setEnt .internalNl,.cb,.code],none,false⟩⟩,⟨256,.ws,false,some ⟨15,[.setEnt .internalNl,.cb],none,false⟩⟩,⟨256,.lf,false,some ⟨16,[.setEnt .internalNl,.cb],none,false⟩⟩,⟨256,.vt,false,some ⟨14,[.setEnt .internalNl,.cb,.code],none,false⟩⟩,⟨256,.ff,false,some ⟨17,[.setEnt .internalNl,.cb],none,false⟩⟩,⟨256,.cr,false,some ⟨18,[.setEnt .internalNl,.cb],none,false⟩⟩,⟨256,.cr,true,some ⟨19,[.setEnt .internalNl,.cb],none,false⟩⟩,⟨256,.other,false,some ⟨0,[.setEnt .internalNl,.cb],some 2,true⟩⟩]⟩,⟨[7],none,[],[⟨256,.other,false,some ⟨14,[.setEnt .internalNl,.cb,.code],none,false⟩⟩,⟨256,.ws,false,some ⟨15,[.setEnt .internalNl,.cb],none,false⟩⟩,⟨256,.lf,false,some ⟨16,[.setEnt .internalNl,.cb],none,false⟩⟩,⟨256,.vt,false,some ⟨14,[.setEnt .internalNl,.cb,.code],none,false⟩⟩,⟨256,.ff,false,some ⟨17,[.setEnt .internalNl,.cb],none,false⟩⟩,⟨256,.cr,false,some ⟨18,[.setEnt .internalNl,.cb],none,false⟩⟩,⟨256,.cr,true,some ⟨19,[.setEnt .internalNl,.cb],none,false⟩⟩,⟨256,.other,false,some ⟨0,[.setEnt .internalNl,.cb],some 2,true⟩⟩]⟩,⟨[4],none,[],[⟨256,.other,false,none⟩,⟨256,.ws,false,none⟩,⟨256,.lf,false,some ⟨22,[],none,false⟩⟩,⟨256,.vt,false,none⟩,⟨256,.ff,false,none⟩,⟨256,.cr,false,none⟩,⟨256,.cr,true,none⟩]⟩,⟨[4,8],none,[],[⟨256,.other,false,some ⟨14,[.setEnt .internalNl,.cb,.code],none,false⟩⟩,⟨256,.ws,false,some ⟨15,[.setEnt .internalNl,.cb],none,false⟩⟩,⟨256,.lf,false,some ⟨23,[.setEnt .internalNl,.cb],none,false⟩⟩,⟨256,.vt,false,some ⟨14,[.setEnt .internalNl,.cb,.code],none,false⟩⟩,⟨256,.ff,false,some ⟨17,[.setEnt .internalNl,.cb],none,false⟩⟩,⟨256,.cr,false,some ⟨18,[.setEnt .internalNl,.cb],none,false⟩⟩,⟨256,.cr,true,some ⟨19,[.setEnt .internalNl,.cb],none,false⟩⟩,⟨256,.other,false,some ⟨0,[.setEnt .internalNl,.cb],some 2,true⟩⟩]⟩,⟨[14],none,[],[⟨256,.other,false,some ⟨8,[.setEnt .internalNl,.cb,.code],none,false⟩⟩,⟨256,.ws,false,some ⟨9,[.setEnt .internalNl,.cb],none,false⟩⟩,⟨256,.lf,false,some ⟨10,[.setEnt .internalNl,.cb],none,false⟩⟩,⟨256,.vt,false,some ⟨8,[.setEnt .internalNl,.cb,.code],none,false⟩⟩,⟨256,.ff,false,some ⟨11,[.setEnt .internalNl,.cb],none,false⟩⟩,⟨256,.cr,false,some ⟨12,[.setEnt .internalNl,.cb],none,false⟩⟩,⟨256,.cr,true,some ⟨13,[.setEnt .internalNl,.cb],none,false⟩⟩,⟨256,.other,false,some ⟨0,[.setEnt .internalNl,.cb],some 2,true⟩⟩]⟩,⟨[14,15],none,[],[⟨256,.other,false,some ⟨8,[.setEnt .internalNl,.cb,.code],none,false⟩⟩,⟨256,.ws,false,some ⟨9,[.setEnt .internalNl,.cb],none,false⟩⟩,⟨256,.lf,false,some ⟨10,[.setEnt .internalNl,.cb],none,false⟩⟩,⟨256,.vt,false,some ⟨8,[.setEnt .internalNl,.cb,.code],none,false⟩⟩,⟨256,.ff,false,some ⟨11,[.setEnt .internalNl,.cb],none,false⟩⟩,⟨256,.cr,false,some ⟨12,[.setEnt .internalNl,.cb],none,false⟩⟩,⟨256,.cr,true,some ⟨13,[.setEnt .internalNl,.cb],none,false⟩⟩,⟨256,.other,false,some ⟨0,[.setEnt .internalNl,.cb],some 2,true⟩⟩]⟩,⟨[5],none,[],[⟨256,.other,false,some ⟨14,[.setEnt .internalNl,.cb,.code],none,false⟩⟩,⟨256,.ws,false,some ⟨15,[.setEnt .internalNl,.cb],none,false⟩⟩,⟨256,.lf,false,some ⟨16,[.setEnt .internalNl,.cb],none,false⟩⟩,⟨256,.vt,false,some ⟨14,[.setEnt .internalNl,.cb,.code],none,false⟩⟩,⟨256,.ff,false,some ⟨17,[.setEnt .internalNl,.cb],none,false⟩⟩,⟨256,.cr,false,some ⟨18,[.setEnt .internalNl,.cb],none,false⟩⟩,⟨256,.cr,true,some ⟨19,[.setEnt .internalNl,.cb],none,false⟩⟩,⟨256,.other,false,some ⟨0,[.setEnt .internalNl,.cb],some 2,true⟩⟩]⟩,⟨[5,6],none,[],[⟨256,.other,false,some ⟨14,[.setEnt .internalNl,.cb,.code],none,false⟩⟩,⟨256,.ws,false,some ⟨15,[.setEnt .internalNl,.cb],none,false⟩⟩,⟨256,.lf,false,some ⟨16,[.setEnt .internalNl,.cb],none,false⟩⟩,⟨256,.vt,false,some ⟨14,[.setEnt .internalNl,.cb,.code],none,false⟩⟩,⟨256,.ff,false,some ⟨17,[.setEnt .internalNl,.cb],none,false⟩⟩,⟨256,.cr,false,some ⟨18,[.setEnt .internalNl,.cb],none,false⟩⟩,⟨256,.cr,true,some ⟨19,[.setEnt .internalNl,.cb],none,false⟩⟩,⟨256,.other,false,some ⟨0,[.setEnt .internalNl,.cb],some 2,true⟩⟩]⟩]
theorem ffree_line_rowsOk : rowsOk ffree_line_nfa [] (ffree_line_cs.map (·.1)) ffree_line_rows = true := by decide +kernel
def ffree_line_D : Dfa ffree_line_M.nfa := ⟨ffree_line_masks, [], ffree_line_cs, ffree_line_rows, ffree_line_masksIn, ffree_line_repOk, ffree_line_rowsOk⟩

def mathematica_line_nfa : Nfa := ⟨[⟨0,4294967808,[],[(0,.setEnt (.own 0))],0,0⟩,⟨1,1099511627776,[],[(1,.nestRes)],0,2⟩,⟨16,17179869184,[],[(11,.code)],0,0⟩,⟨19,8192,[],[(12,.setEnt .newline)],0,0⟩,⟨21,1024,[],[(12,.setEnt .newline)],0,0⟩,⟨22,4096,[],[(12,.setEnt .newline)],0,0⟩,⟨23,8192,[.crAlone],[(12,.setEnt .newline)],0,0⟩,⟨24,115792089237316195423570985008687907853269984665640564039457584007908834656767,[],[(13,.setEnt (.own 3))],0,0⟩],[[⟨0,4294967808,[],[(0,.setEnt (.own 0))],0,0⟩],[⟨2,4398046511104,[],[(2,.comment)],0,2⟩],[⟨3,8192,[],[],0,2⟩,⟨5,1024,[],[],0,2⟩,⟨6,4096,[],[],0,2⟩,⟨7,8192,[.crAlone],[],0,2⟩,⟨8,4294967808,[],[],0,2⟩,⟨9,1099511627776,[],[],0,2⟩,⟨11,4398046511104,[],[],0,2⟩,⟨13,115792089237316195423570985008687907853269984665640564039457584007908834658815,[],[(9,.comment)],0,2⟩,⟨14,4398046511104,[.nestZero],[],0,2⟩],[⟨4,1024,[],[],0,2⟩],[⟨3,8192,[],[(3,.setEnt .internalNl),(4,.cb)],0,2⟩,⟨5,1024,[],[(3,.setEnt .internalNl),(4,.cb)],0,2⟩,⟨6,4096,[],[(3,.setEnt .internalNl),(4,.cb)],0,2⟩,⟨7,8192,[.crAlone],[(3,.setEnt .internalNl),(4,.cb)],0,2⟩,⟨8,4294967808,[],[(3,.setEnt .internalNl),(4,.cb)],0,2⟩,⟨9,1099511627776,[],[(3,.setEnt .internalNl),(4,.cb)],0,2⟩,⟨11,4398046511104,[],[(3,.setEnt .internalNl),(4,.cb)],0,2⟩,⟨13,115792089237316195423570985008687907853269984665640564039457584007908834658815,[],[(3,.setEnt .internalNl),(4,.cb),(9,.comment)],0,2⟩,⟨14,4398046511104,[.nestZero],[(3,.setEnt .internalNl),(4,.cb)],0,2⟩],[⟨3,8192,[],[(3,.setEnt .internalNl),(4,.cb)],0,2⟩,⟨5,1024,[],[(3,.setEnt .internalNl),(4,.cb)],0,2⟩,⟨6,4096,[],[(3,.setEnt .internalNl),(4,.cb)],0,2⟩,⟨7,8192,[.crAlone],[(3,.setEnt .internalNl),(4,.cb)],0,2⟩,⟨8,4294967808,[],[(3,.setEnt .internalNl),(4,.cb)],0,2⟩,⟨9,1099511627776,[],[(3,.setEnt .internalNl),(4,.cb)],0,2⟩,⟨11,4398046511104,[],[(3,.setEnt .internalNl),(4,.cb)],0,2⟩,⟨13,115792089237316195423570985008687907853269984665640564039457584007908834658815,[],[(3,.setEnt .internalNl),(4,.cb),(9,.comment)],0,2⟩,⟨14,4398046511104,[.nestZero],[(3,.setEnt .internalNl),(4,.cb)],0,2⟩],[⟨3,8192,[],[(3,.setEnt .internalNl),(4,.cb)],0,2⟩,⟨5,1024,[],[(3,.setEnt .internalNl),(4,.cb)],0,2⟩,⟨6,4096,[],[(3,.setEnt .internalNl),(4,.cb)],0,2⟩,⟨7,8192,[.crAlone],[(3,.setEnt .internalNl),(4,.cb)],0,2⟩,⟨8,4294967808,[],[(3,.setEnt .internalNl),(4,.cb)],0,2⟩,⟨9,1099511627776,[],[(3,.setEnt .internalNl),(4,.cb)],0,2⟩,⟨11,4398046511104,[],[(3,.setEnt .internalNl),(4,.cb)],0,2⟩,⟨13,115792089237316195423570985008687907853269984665640564039457584007908834658815,[],[(3,.setEnt .internalNl),(4,.cb),(9,.comment)],0,2⟩,⟨14,4398046511104,[.nestZero],[(3,.setEnt .internalNl),(4,.cb)],0,2⟩],[⟨3,8192,[],[(3,.setEnt .internalNl),(4,.cb)],0,2⟩,⟨5,1024,[],[(3,.setEnt .internalNl),(4,.cb)],0,2⟩,⟨6,4096,[],[(3,.setEnt .internalNl),(4,.cb)],0,2⟩,⟨7,8192,[.crAlone],[(3,.setEnt .internalNl),(4,.cb)],0,2⟩,⟨8,4294967808,[],[(3,.setEnt .internalNl),(4,.cb)],0,2⟩,⟨9,1099511627776,[],[(3,.setEnt .internalNl),(4,.cb)],0,2⟩,⟨11,4398046511104,[],[(3,.setEnt .internalNl),(4,.cb)],0,2⟩,⟨13,115792089237316195423570985008687907853269984665640564039457584007908834658815,[],[(3,.setEnt .internalNl),(4,.cb),(9,.comment)],0,2⟩,⟨14,4398046511104,[.nestZero],[(3,.setEnt .internalNl),(4,.cb)],0,2⟩],[⟨3,8192,[],[],0,2⟩,⟨5,1024,[],[],0,2⟩,⟨6,4096,[],[],0,2⟩,⟨7,8192,[.crAlone],[],0,2⟩,⟨8,4294967808,[],[],0,2⟩,⟨9,1099511627776,[],[],0,2⟩,⟨11,4398046511104,[],[],0,2⟩,⟨13,115792089237316195423570985008687907853269984665640564039457584007908834658815,[],[(9,.comment)],0,2⟩,⟨14,4398046511104,[.nestZero],[],0,2⟩],[⟨10,4398046511104,[],[(5,.nestInc),(6,.comment)],0,2⟩],[⟨3,8192,[],[],0,2⟩,⟨5,1024,[],[],0,2⟩,⟨6,4096,[],[],0,2⟩,⟨7,8192,[.crAlone],[],0,2⟩,⟨8,4294967808,[],[],0,2⟩,⟨9,1099511627776,[],[],0,2⟩,⟨11,4398046511104,[],[],0,2⟩,⟨13,115792089237316195423570985008687907853269984665640564039457584007908834658815,[],[(9,.comment)],0,2⟩,⟨14,4398046511104,[.nestZero],[],0,2⟩],[⟨12,2199023255552,[],[(7,.nestDec),(8,.comment)],0,2⟩],[⟨3,8192,[],[],0,2⟩,⟨5,1024,[],[],0,2⟩,⟨6,4096,[],[],0,2⟩,⟨7,8192,[.crAlone],[],0,2⟩,⟨8,4294967808,[],[],0,2⟩,⟨9,1099511627776,[],[],0,2⟩,⟨11,4398046511104,[],[],0,2⟩,⟨13,115792089237316195423570985008687907853269984665640564039457584007908834658815,[],[(9,.comment)],0,2⟩,⟨14,4398046511104,[.nestZero],[],0,2⟩],[⟨3,8192,[],[],0,2⟩,⟨5,1024,[],[],0,2⟩,⟨6,4096,[],[],0,2⟩,⟨7,8192,[.crAlone],[],0,2⟩,⟨8,4294967808,[],[],0,2⟩,⟨9,1099511627776,[],[],0,2⟩,⟨11,4398046511104,[],[],0,2⟩,⟨13,115792089237316195423570985008687907853269984665640564039457584007908834658815,[],[(9,.comment)],0,2⟩,⟨14,4398046511104,[.nestZero],[],0,2⟩],[⟨15,2199023255552,[.nestZero],[(10,.comment)],2,0⟩],[],[⟨17,115792089237316195423570985008687907853269984665640564039457584007895949770751,[],[],0,0⟩],[⟨18,17179869184,[],[],0,0⟩],[],[⟨20,1024,[],[(12,.setEnt .newline)],0,0⟩],[],[],[],[],[]],[some (0,[]),none,none,none,none,none,none,none,none,none,none,none,none,none,none,some (1,[]),none,none,some (2,[]),none,some (3,[]),some (3,[]),some (3,[]),some (3,[]),some (4,[])],[1,11,12,13,14]⟩
theorem mathematica_line_nfa_eq : Mathematica.mathematica_line.nfa = mathematica_line_nfa := by decide +kernel
/-- The machine of `Mathematica.mathematica_line`, with its automaton as a literal. -/
def mathematica_line_M : Machine := ⟨mathematica_line_nfa, Mathematica.mathematica_line.ends, Mathematica.mathematica_line.sw⟩
theorem mathematica_line_M_eq : Mathematica.mathematica_line.machine = mathematica_line_M := by
  unfold Scanner.machine mathematica_line_M; rw [mathematica_line_nfa_eq]
def mathematica_line_masks : List Nat := [4294967808,1099511627776,17179869184,8192,1024,4096,115792089237316195423570985008687907853269984665640564039457584007908834656767,4398046511104,115792089237316195423570985008687907853269984665640564039457584007908834658815,2199023255552,115792089237316195423570985008687907853269984665640564039457584007895949770751]
def mathematica_line_cs : List (Nat × Nat) := [(0,115792089237316195423570985008687907853269984665640564039457584000195073393151),(9,4294967808),(10,1024),(11,2048),(12,4096),(13,8192),(34,17179869184),(40,1099511627776),(41,2199023255552),(42,4398046511104)]
theorem mathematica_line_masksIn : masksIn mathematica_line_nfa mathematica_line_masks = true := by decide +kernel
theorem mathematica_line_repOk : repOk mathematica_line_masks mathematica_line_cs = true := by decide +kernel
def mathematica_line_rows : List Row := [⟨[],none,[],[⟨256,.other,false,some ⟨0,[.setEnt (.own 3)],some 4,true⟩⟩,⟨256,.ws,false,some ⟨1,[.setEnt (.own 0)],some 0,false⟩⟩,⟨256,.lf,false,some ⟨0,[.setEnt .newline],some 3,true⟩⟩,⟨256,.vt,false,none⟩,⟨256,.ff,false,some ⟨0,[.setEnt .newline],some 3,true⟩⟩,⟨256,.cr,false,some ⟨2,[.setEnt .newline],none,false⟩⟩,⟨256,.cr,true,some ⟨3,[.setEnt .newline],some 3,false⟩⟩,⟨256,.other,false,some ⟨4,[.code,.setEnt (.own 3)],some 4,false⟩⟩,⟨256,.other,false,some ⟨5,[.nestRes,.setEnt (.own 3)],some 4,false⟩⟩]⟩,⟨[0],some 0,[],[⟨256,.other,false,none⟩,⟨256,.ws,false,some ⟨1,[.setEnt (.own 0)],some 0,false⟩⟩,⟨256,.lf,false,none⟩,⟨256,.vt,false,none⟩,⟨256,.ff,false,none⟩,⟨256,.cr,false,none⟩,⟨256,.cr,true,none⟩]⟩,⟨[19],none,[],[⟨256,.other,false,none⟩,⟨256,.ws,false,none⟩,⟨256,.lf,false,some ⟨0,[.setEnt .newline],some 3,true⟩⟩,⟨256,.vt,false,none⟩,⟨256,.ff,false,none⟩,⟨256,.cr,false,none⟩,⟨256,.cr,true,none⟩]⟩,⟨[19,23],some 3,[],[⟨256,.other,false,none⟩,⟨256,.ws,false,none⟩,⟨256,.lf,false,some ⟨0,[.setEnt .newline],some 3,true⟩⟩,⟨256,.vt,false,none⟩,⟨256,.ff,false,none⟩,⟨256,.cr,false,none⟩,⟨256,.cr,true,none⟩]⟩,⟨[16,24],some 4,[],[⟨256,.other,false,some ⟨6,[],none,false⟩⟩,⟨256,.ws,false,some ⟨6,[],none,false⟩⟩,⟨256,.lf,false,some ⟨6,[],none,false⟩⟩,⟨256,.vt,false,some ⟨6,[],none,false⟩⟩,⟨256,.ff,false,some ⟨6,[],none,false⟩⟩,⟨256,.cr,false,some ⟨6,[],none,false⟩⟩,⟨256,.cr,true,some ⟨6,[],none,false⟩⟩,⟨256,.other,false,none⟩]⟩,⟨[1,24],some 4,[],[⟨256,.other,false,none⟩,⟨256,.ws,false,none⟩,⟨256,.lf,false,none⟩,⟨256,.vt,false,none⟩,⟨256,.ff,false,none⟩,⟨256,.cr,false,none⟩,⟨256,.cr,true,none⟩,⟨256,.other,false,some ⟨7,[.comment],none,false⟩⟩]⟩,⟨[17],none,[],[⟨256,.other,false,none⟩,⟨256,.ws,false,none⟩,⟨256,.lf,false,none⟩,⟨256,.vt,false,none⟩,⟨256,.ff,false,none⟩,⟨256,.cr,false,none⟩,⟨256,.cr,true,none⟩,⟨256,.other,false,some ⟨0,[],some 2,true⟩⟩]⟩,⟨[2],none,[],[⟨256,.other,false,some ⟨8,[.comment],none,false⟩⟩,⟨256,.ws,false,some ⟨9,[],none,false⟩⟩,⟨256,.lf,false,some ⟨10,[],none,false⟩⟩,⟨256,.vt,false,some ⟨8,[.comment],none,false⟩⟩,⟨256,.ff,false,some ⟨11,[],none,false⟩⟩,⟨256,.cr,false,some ⟨12,[],none,false⟩⟩,⟨256,.cr,true,some ⟨13,[],none,false⟩⟩,⟨256,.other,false,some ⟨14,[.comment],none,false⟩⟩,⟨256,.other,false,some ⟨15,[.comment],none,false⟩⟩,⟨256,.other,false,some ⟨16,[.comment],none,false⟩⟩]⟩,⟨[13],none,[],[⟨256,.other,false,some ⟨8,[.comment],none,false⟩⟩,⟨256,.ws,false,some ⟨9,[],none,false⟩⟩,⟨256,.lf,false,some ⟨10,[],none,false⟩⟩,⟨256,.vt,false,some ⟨8,[.comment],none,false⟩⟩,⟨256,.ff,false,some ⟨11,[],none,false⟩⟩,⟨256,.cr,false,some ⟨12,[],none,false⟩⟩,⟨256,.cr,true,some ⟨13,[],none,false⟩⟩,⟨256,.other,false,some ⟨14,[.comment],none,false⟩⟩,⟨256,.other,false,some ⟨15,[.comment],none,false⟩⟩,⟨256,.other,false,some ⟨16,[.comment],none,false⟩⟩]⟩,⟨[8],none,[],[⟨256,.other,false,some ⟨8,[.comment],none,false⟩⟩,⟨256,.ws,false,some ⟨9,[],none,false⟩⟩,⟨256,.lf,false,some ⟨10,[],none,false⟩⟩,⟨256,.vt,false,some ⟨8,[.comment],none,false⟩⟩,⟨256,.ff,false,some ⟨11,[],none,false⟩⟩,⟨256,.cr,false,some ⟨12,[],none,false⟩⟩,⟨256,.cr,true,some ⟨13,[],none,false⟩⟩,⟨256,.other,false,some ⟨14,[.comment],none,false⟩⟩,⟨256,.other,false,some ⟨15,[.comment],none,false⟩⟩,⟨256,.other,false,some ⟨16,[.comment],none,false⟩⟩]⟩,⟨[5],none,[],[⟨256,.other,false,some ⟨8,[.setEnt .internalNl,.cb,.comment],none,false⟩⟩,⟨256,.ws,false,some ⟨9,[.setEnt .internalNl,.cb],none,false⟩⟩,⟨256,.lf,false,some ⟨10,[.setEnt .internalNl,.cb],none,false⟩⟩,⟨256,.vt,false,some ⟨8,[.setEnt .internalNl,.cb,.comment],none,false⟩⟩,⟨256,.ff,false,some ⟨11,[.setEnt .internalNl,.cb],none,false⟩⟩,⟨256,.cr,false,some ⟨12,[.setEnt .internalNl,.cb],none,false⟩⟩,⟨256,.cr,true,some ⟨13,[.setEnt .internalNl,.cb],none,false⟩⟩,⟨256,.other,false,some ⟨14,[.setEnt .internalNl,.cb,.comment],none,false⟩⟩,⟨256,.other,false,some ⟨15,[.setEnt .internalNl,.cb,.comment],none,false⟩⟩,⟨256,.other,false,some ⟨16,[.setEnt .internalNl,.cb,.comment],none,false⟩⟩]⟩,⟨[6],none,[],[⟨256,.other,false,some ⟨8,[.setEnt .internalNl,.cb,.comment],none,false⟩⟩,⟨256,.ws,false,some ⟨9,[.setEnt .internalNl,.cb],none,false⟩⟩,⟨256,.lf,false,some ⟨10,[.setEnt .internalNl,.cb],none,false⟩⟩,⟨256,.vt,false,some ⟨8,[.setEnt .internalNl,.cb,.comment],none,false⟩⟩,⟨256,.ff,false,some ⟨11,[.setEnt .internalNl,.cb],none,false⟩⟩,⟨256,.cr,false,some ⟨12,[.setEnt .internalNl,.cb],none,false⟩⟩,⟨256,.cr,true,some ⟨13,[.setEnt .internalNl,.cb],none,false⟩⟩,⟨256,.other,false,some ⟨14,[.setEnt .internalNl,.cb,.comment],none,false⟩⟩,⟨256,.other,false,some ⟨15,[.setEnt .internalNl,.cb,.comment],none,false⟩⟩,⟨256,.other,false,some ⟨16,[.setEnt .internalNl,.cb,.comment],none,false⟩⟩]⟩,⟨[3],none,[],[⟨256,.other,false,none⟩,⟨256,.ws,false,none⟩,⟨256,.lf,false,some ⟨17,[],none,false⟩⟩,⟨256,.vt,false,none⟩,⟨256,.ff,false,none⟩,⟨256,.cr,false,none⟩,⟨256,.cr,true,none⟩]⟩,⟨[3,7],none,[],[⟨256,.other,false,some ⟨8,[.setEnt .internalNl,.cb,.comment],none,false⟩⟩,⟨256,.ws,false,some ⟨9,[.setEnt .internalNl,.cb],none,false⟩⟩,⟨256,.lf,false,some ⟨18,[.setEnt .internalNl,.cb],none,false⟩⟩,⟨256,.vt,false,some ⟨8,[.setEnt .internalNl,.cb,.comment],none,false⟩⟩,⟨256,.ff,false,some ⟨11,[.setEnt .internalNl,.cb],none,false⟩⟩,⟨256,.cr,false,some ⟨12,[.setEnt .internalNl,.cb],none,false⟩⟩,⟨256,.cr,true,some ⟨13,[.setEnt .internalNl,.cb],none,false⟩⟩,⟨256,.other,false,some ⟨14,[.setEnt .internalNl,.cb,.comment],none,false⟩⟩,⟨256,.other,false,some ⟨15,[.setEnt .internalNl,.cb,.comment],none,false⟩⟩,⟨256,.other,false,some ⟨16,[.setEnt .internalNl,.cb,.comment],none,false⟩⟩]⟩,⟨[9,13],none,[],[⟨256,.other,false,some ⟨8,[.comment],none,false⟩⟩,⟨256,.ws,false,some ⟨9,[],none,false⟩⟩,⟨256,.lf,false,some ⟨10,[],none,false⟩⟩,⟨256,.vt,false,some ⟨8,[.comment],none,false⟩⟩,⟨256,.ff,false,some ⟨11,[],none,false⟩⟩,⟨256,.cr,false,some ⟨12,[],none,false⟩⟩,⟨256,.cr,true,some ⟨13,[],none,false⟩⟩,⟨256,.other,false,some ⟨14,[.comment],none,false⟩⟩,⟨256,.other,false,some ⟨19,[.nestInc,.comment],none,false⟩⟩,⟨256,.other,false,some ⟨20,[.nestInc,.comment],none,false⟩⟩]⟩,⟨[11,13],none,[],[⟨256,.other,false,some ⟨8,[.comment],none,false⟩⟩,⟨256,.ws,false,some ⟨9,[],none,false⟩⟩,⟨256,.lf,false,some ⟨10,[],none,false⟩⟩,⟨256,.vt,false,some ⟨8,[.comment],none,false⟩⟩,⟨256,.ff,false,some ⟨11,[],none,false⟩⟩,⟨256,.cr,false,some ⟨12,[],none,false⟩⟩,⟨256,.cr,true,some ⟨13,[],none,false⟩⟩,⟨256,.other,false,some ⟨14,[.comment],none,false⟩⟩,⟨256,.other,false,some ⟨21,[.nestDec,.comment],none,false⟩⟩,⟨256,.other,false,some ⟨15,[.comment],none,false⟩⟩,⟨256,.other,false,some ⟨16,[.comment],none,false⟩⟩]⟩,⟨[11,13,14],none,[],[⟨256,.other,false,some ⟨8,[.comment],none,false⟩⟩,⟨256,.ws,false,some ⟨9,[],none,false⟩⟩,⟨256,.lf,false,some ⟨10,[],none,false⟩⟩,⟨256,.vt,false,some ⟨8,[.comment],none,false⟩⟩,⟨256,.ff,false,some ⟨11,[],none,false⟩⟩,⟨256,.cr,false,some ⟨12,[],none,false⟩⟩,⟨256,.cr,true,some ⟨13,[],none,false⟩⟩,⟨256,.other,false,some ⟨14,[.comment],none,false⟩⟩,⟨256,.other,false,some ⟨21,[.nestDec,.comment],none,false⟩⟩,⟨256,.other,false,some ⟨0,[.comment],some 1,true⟩⟩,⟨256,.other,false,some ⟨15,[.comment],none,false⟩⟩,⟨256,.other,false,some ⟨16,[.comment],none,false⟩⟩]⟩,⟨[4],none,[],[⟨256,.other,false,some ⟨8,[.setEnt .internalNl,.cb,.comment],none,false⟩⟩,⟨256,.ws,false,some ⟨9,[.setEnt .internalNl,.cb],none,false⟩⟩,⟨256,.lf,false,some ⟨10,[.setEnt .internalNl,.cb],none,false⟩⟩,⟨256,.vt,false,some ⟨8,[.setEnt .internalNl,.cb,.comment],none,false⟩⟩,⟨256,.ff,false,some ⟨11,[.setEnt .internalNl,.cb],none,false⟩⟩,⟨256,.cr,false,some ⟨12,[.setEnt .internalNl,.cb],none,false⟩⟩,⟨256,.cr,true,some ⟨13,[.setEnt .internalNl,.cb],none,false⟩⟩,⟨256,.other,false,some ⟨14,[.setEnt .internalNl,.cb,.comment],none,false⟩⟩,⟨256,.other,false,some ⟨15,[.setEnt .internalNl,.cb,.comment],none,false⟩⟩,⟨256,.other,false,some ⟨16,[.setEnt .internalNl,.cb,.comment],none,false⟩⟩]⟩,⟨[4,5],none,[],[⟨256,.other,false,some ⟨8,[.setEnt .internalNl,.cb,.comment],none,false⟩⟩,⟨256,.ws,false,some ⟨9,[.setEnt .internalNl,.cb],none,false⟩⟩,⟨256,.lf,false,some ⟨10,[.setEnt .internalNl,.cb],none,false⟩⟩,⟨256,.vt,false,some ⟨8,[.setEnt .internalNl,.cb,.comment],none,false⟩⟩,⟨256,.ff,false,some ⟨11,[.setEnt .internalNl,.cb],none,false⟩⟩,⟨256,.cr,false,some ⟨12,[.setEnt .internalNl,.cb],none,false⟩⟩,⟨256,.cr,true,some ⟨13,[.setEnt .internalNl,.cb],none,false⟩⟩,⟨256,.other,false,some ⟨14,[.setEnt .internalNl,.cb,.comment],none,false⟩⟩,⟨256,.other,false,some ⟨15,[.setEnt .internalNl,.cb,.comment],none,false⟩⟩,⟨256,.other,false,some ⟨16,[.setEnt .internalNl,.cb,.comment],none,false⟩⟩]⟩,⟨[10,11,13],none,[],[⟨256,.other,false,some ⟨8,[.comment],none,false⟩⟩,⟨256,.ws,false,some ⟨9,[],none,false⟩⟩,⟨256,.lf,false,some ⟨10,[],none,false⟩⟩,⟨256,.vt,false,some ⟨8,[.comment],none,false⟩⟩,⟨256,.ff,false,some ⟨11,[],none,false⟩⟩,⟨256,.cr,false,some ⟨12,[],none,false⟩⟩,⟨256,.cr,true,some ⟨13,[],none,false⟩⟩,⟨256,.other,false,some ⟨14,[.comment],none,false⟩⟩,⟨256,.other,false,some ⟨21,[.nestDec,.comment],none,false⟩⟩,⟨256,.other,false,some ⟨15,[.comment],none,false⟩⟩,⟨256,.other,false,some ⟨16,[.comment],none,false⟩⟩]⟩,⟨[10,11,13,14],none,[],[⟨256,.other,false,some ⟨8,[.comment],none,false⟩⟩,⟨256,.ws,false,some ⟨9,[],none,false⟩⟩,⟨256,.lf,false,some ⟨10,[],none,false⟩⟩,⟨256,.vt,false,some ⟨8,[.comment],none,false⟩⟩,⟨256,.ff,false,some ⟨11,[],none,false⟩⟩,⟨256,.cr,false,some ⟨12,[],none,false⟩⟩,⟨256,.cr,true,some ⟨13,[],none,false⟩⟩,⟨256,.other,false,some ⟨14,[.comment],none,false⟩⟩,⟨256,.other,false,some ⟨21,[.nestDec,.comment],none,false⟩⟩,⟨256,.other,false,some ⟨0,[.comment],some 1,true⟩⟩,⟨256,.other,false,some ⟨15,[.comment],none,false⟩⟩,⟨256,.other,false,some ⟨16,[.comment],none,false⟩⟩]⟩,⟨[12,13],none,[],[⟨256,.other,false,some ⟨8,[.comment],none,false⟩⟩,⟨256,.ws,false,some ⟨9,[],none,false⟩⟩,⟨256,.lf,false,some ⟨10,[],none,false⟩⟩,⟨256,.vt,false,some ⟨8,[.comment],none,false⟩⟩,⟨256,.ff,false,some ⟨11,[],none,false⟩⟩,⟨256,.cr,false,some ⟨12,[],none,false⟩⟩,⟨256,.cr,true,some ⟨13,[],none,false⟩⟩,⟨256,.other,false,some ⟨14,[.comment],none,false⟩⟩,⟨256,.other,false,some ⟨15,[.comment],none,false⟩⟩,⟨256,.other,false,some ⟨16,[.comment],none,false⟩⟩]⟩]
theorem mathematica_line_rowsOk : rowsOk mathematica_line_nfa [] (mathematica_line_cs.map (·.1)) mathematica_line_rows = true := by decide +kernel
def mathematica_line_D : Dfa mathematica_line_M.nfa := ⟨mathematica_line_masks, [], mathematica_line_cs, mathematica_line_rows, mathematica_line_masksIn, mathematica_line_repOk, mathematica_line_rowsOk⟩

def ruby_line_nfa : Nfa := ⟨[⟨0,4294967808,[],[(0,.setEnt (.own 0))],0,0⟩,⟨1,34359738368,[],[(1,.comment)],0,0⟩,⟨3,2305843009213693952,[],[],0,2⟩,⟨20,549755813888,[],[(8,.enqueue),(9,.code)],0,0⟩,⟨31,17179869184,[],[(16,.enqueue),(17,.code)],0,0⟩,⟨42,137438953472,[],[],0,0⟩,⟨55,79228162514264337593543950336,[],[(32,.enqueue),(33,.code)],0,0⟩,⟨66,140737488355328,[],[],0,0⟩,⟨71,137438953472,[],[],0,0⟩,⟨84,8192,[],[(49,.setEnt .newline)],0,0⟩,⟨86,1024,[],[(49,.setEnt .newline)],0,0⟩,⟨87,4096,[],[(49,.setEnt .newline)],0,0⟩,⟨88,8192,[.crAlone],[(49,.setEnt .newline)],0,0⟩,⟨89,115792089237316195423570985008687907853269984665640564039457584007908834656767,[],[(50,.setEnt (.own 3))],0,0⟩],[[⟨0,4294967808,[],[(0,.setEnt (.own 0))],0,0⟩],[⟨2,115792089237316195423570985008687907853269984665640564039457584007913129626623,[],[],0,0⟩],[⟨2,115792089237316195423570985008687907853269984665640564039457584007913129626623,[],[],0,0⟩],[⟨4,316912650057057350374175801344,[],[],0,2⟩],[⟨5,2535301200456458802993406410752,[],[],0,2⟩],[⟨6,10141204801825835211973625643008,[],[],0,2⟩],[⟨7,40564819207303340847894502572032,[],[],0,2⟩],[⟨8,1298074214633706907132624082305024,[],[(2,.enqueue),(3,.comment)],0,2⟩],[⟨9,8192,[],[],0,2⟩,⟨11,1024,[],[],0,2⟩,⟨12,4096,[],[],0,2⟩,⟨13,8192,[.crAlone],[],0,2⟩,⟨14,4294967808,[],[],0,2⟩,⟨15,115792089237316195423570985008687907853269984665640564039457584007908834658815,[],[(6,.comment)],0,2⟩,⟨16,2305843009213693952,[],[],0,2⟩],[⟨10,1024,[],[],0,2⟩],[⟨9,8192,[],[(4,.setEnt .internalNl),(5,.cb)],0,2⟩,⟨11,1024,[],[(4,.setEnt .internalNl),(5,.cb)],0,2⟩,⟨12,4096,[],[(4,.setEnt .internalNl),(5,.cb)],0,2⟩,⟨13,8192,[.crAlone],[(4,.setEnt .internalNl),(5,.cb)],0,2⟩,⟨14,4294967808,[],[(4,.setEnt .internalNl),(5,.cb)],0,2⟩,⟨15,115792089237316195423570985008687907853269984665640564039457584007908834658815,[],[(4,.setEnt .internalNl),(5,.cb),(6,.comment)],0,2⟩,⟨16,2305843009213693952,[],[(4,.setEnt .internalNl),(5,.cb)],0,2⟩],[⟨9,8192,[],[(4,.setEnt .internalNl),(5,.cb)],0,2⟩,⟨11,1024,[],[(4,.setEnt .internalNl),(5,.cb)],0,2⟩,⟨12,4096,[],[(4,.setEnt .internalNl),(5,.cb)],0,2⟩,⟨13,8192,[.crAlone],[(4,.setEnt .internalNl),(5,.cb)],0,2⟩,⟨14,4294967808,[],[(4,.setEnt .internalNl),(5,.cb)],0,2⟩,⟨15,115792089237316195423570985008687907853269984665640564039457584007908834658815,[],[(4,.setEnt .internalNl),(5,.cb),(6,.comment)],0,2⟩,⟨16,2305843009213693952,[],[(4,.setEnt .internalNl),(5,.cb)],0,2⟩],[⟨9,8192,[],[(4,.setEnt .internalNl),(5,.cb)],0,2⟩,⟨11,1024,[],[(4,.setEnt .internalNl),(5,.cb)],0,2⟩,⟨12,4096,[],[(4,.setEnt .internalNl),(5,.cb)],0,2⟩,⟨13,8192,[.crAlone],[(4,.setEnt .internalNl),(5,.cb)],0,2⟩,⟨14,4294967808,[],[(4,.setEnt .internalNl),(5,.cb)],0,2⟩,⟨15,115792089237316195423570985008687907853269984665640564039457584007908834658815,[],[(4,.setEnt .internalNl),(5,.cb),(6,.comment)],0,2⟩,⟨16,2305843009213693952,[],[(4,.setEnt .internalNl),(5,.cb)],0,2⟩],[⟨9,8192,[],[(4,.setEnt .internalNl),(5,.cb)],0,2⟩,⟨11,1024,[],[(4,.setEnt .internalNl),(5,.cb)],0,2⟩,⟨12,4096,[],[(4,.setEnt .internalNl),(5,.cb)],0,2⟩,⟨13,8192,[.crAlone],[(4,.setEnt .internalNl),(5,.cb)],0,2⟩,⟨14,4294967808,[],[(4,.setEnt .internalNl),(5,.cb)],0,2⟩,⟨15,115792089237316195423570985008687907853269984665640564039457584007908834658815,[],[(4,.setEnt .internalNl),(5,.cb),(6,.comment)],0,2⟩,⟨16,2305843009213693952,[],[(4,.setEnt .internalNl),(5,.cb)],0,2⟩],[⟨9,8192,[],[],0,2⟩,⟨11,1024,[],[],0,2⟩,⟨12,4096,[],[],0,2⟩,⟨13,8192,[.crAlone],[],0,2⟩,⟨14,4294967808,[],[],0,2⟩,⟨15,115792089237316195423570985008687907853269984665640564039457584007908834658815,[],[(6,.comment)],0,2⟩,⟨16,2305843009213693952,[],[],0,2⟩],[⟨9,8192,[],[],0,2⟩,⟨11,1024,[],[],0,2⟩,⟨12,4096,[],[],0,2⟩,⟨13,8192,[.crAlone],[],0,2⟩,⟨14,4294967808,[],[],0,2⟩,⟨15,115792089237316195423570985008687907853269984665640564039457584007908834658815,[],[(6,.comment)],0,2⟩,⟨16,2305843009213693952,[],[],0,2⟩],[⟨17,2535301200456458802993406410752,[],[],0,0⟩],[⟨18,1298074214633706907132624082305024,[],[],0,0⟩],[⟨19,1267650600228229401496703205376,[],[(7,.commit)],2,0⟩],[],[⟨21,8192,[],[],0,0⟩,⟨23,1024,[],[],0,0⟩,⟨24,4096,[],[],0,0⟩,⟨25,8192,[.crAlone],[],0,0⟩,⟨26,4294967808,[],[],0,0⟩,⟨27,115792089237316195423570985008687907853269984665635612279300442486259482348031,[],[(12,.code)],0,0⟩,⟨28,4951760157141521099596496896,[],[],0,0⟩,⟨30,549755813888,[],[(14,.commit),(15,.code)],0,0⟩],[⟨22,1024,[],[],0,0⟩],[⟨21,8192,[],[(10,.setEnt .internalNl),(11,.cb)],0,0⟩,⟨23,1024,[],[(10,.setEnt .internalNl),(11,.cb)],0,0⟩,⟨24,4096,[],[(10,.setEnt .internalNl),(11,.cb)],0,0⟩,⟨25,8192,[.crAlone],[(10,.setEnt .internalNl),(11,.cb)],0,0⟩,⟨26,4294967808,[],[(10,.setEnt .internalNl),(11,.cb)],0,0⟩,⟨27,115792089237316195423570985008687907853269984665635612279300442486259482348031,[],[(10,.setEnt .internalNl),(11,.cb),(12,.code)],0,0⟩,⟨28,4951760157141521099596496896,[],[(10,.setEnt .internalNl),(11,.cb)],0,0⟩,⟨30,549755813888,[],[(10,.setEnt .internalNl),(11,.cb),(14,.commit),(15,.code)],0,0⟩],[⟨21,8192,[],[(10,.setEnt .internalNl),(11,.cb)],0,0⟩,⟨23,1024,[],[(10,.setEnt .internalNl),(11,.cb)],0,0⟩,⟨24,4096,[],[(10,.setEnt .internalNl),(11,.cb)],0,0⟩,⟨25,8192,[.crAlone],[(10,.setEnt .internalNl),(11,.cb)],0,0⟩,⟨26,4294967808,[],[(10,.setEnt .internalNl),(11,.cb)],0,0⟩,⟨27,115792089237316195423570985008687907853269984665635612279300442486259482348031,[],[(10,.setEnt .internalNl),(11,.cb),(12,.code)],0,0⟩,⟨28,4951760157141521099596496896,[],[(10,.setEnt .internalNl),(11,.cb)],0,0⟩,⟨30,549755813888,[],[(10,.setEnt .internalNl),(11,.cb),(14,.commit),(15,.code)],0,0⟩],[⟨21,8192,[],[(10,.setEnt .internalNl),(11,.cb)],0,0⟩,⟨23,1024,[],[(10,.setEnt .internalNl),(11,.cb)],0,0⟩,⟨24,4096,[],[(10,.setEnt .internalNl),(11,.cb)],0,0⟩,⟨25,8192,[.crAlone],[(10,.setEnt .internalNl),(11,.cb)],0,0⟩,⟨26,4294967808,[],[(10,.setEnt .internalNl),(11,.cb)],0,0⟩,⟨27,115792089237316195423570985008687907853269984665635612279300442486259482348031,[],[(10,.setEnt .internalNl),(11,.cb),(12,.code)],0,0⟩,⟨28,4951760157141521099596496896,[],[(10,.setEnt .internalNl),(11,.cb)],0,0⟩,⟨30,549755813888,[],[(10,.setEnt .internalNl),(11,.cb),(14,.commit),(15,.code)],0,0⟩],[⟨21,8192,[],[(10,.setEnt .internalNl),(11,.cb)],0,0⟩,⟨23,1024,[],[(10,.setEnt .internalNl),(11,.cb)],0,0⟩,⟨24,4096,[],[(10,.setEnt .internalNl),(11,.cb)],0,0⟩,⟨25,8192,[.crAlone],[(10,.setEnt .internalNl),(11,.cb)],0,0⟩,⟨26,4294967808,[],[(10,.setEnt .internalNl),(11,.cb)],0,0⟩,⟨27,115792089237316195423570985008687907853269984665635612279300442486259482348031,[],[(10,.setEnt .internalNl),(11,.cb),(12,.code)],0,0⟩,⟨28,4951760157141521099596496896,[],[(10,.setEnt .internalNl),(11,.cb)],0,0⟩,⟨30,549755813888,[],[(10,.setEnt .internalNl),(11,.cb),(14,.commit),(15,.code)],0,0⟩],[⟨21,8192,[],[],0,0⟩,⟨23,1024,[],[],0,0⟩,⟨24,4096,[],[],0,0⟩,⟨25,8192,[.crAlone],[],0,0⟩,⟨26,4294967808,[],[],0,0⟩,⟨27,115792089237316195423570985008687907853269984665635612279300442486259482348031,[],[(12,.code)],0,0⟩,⟨28,4951760157141521099596496896,[],[],0,0⟩,⟨30,549755813888,[],[(14,.commit),(15,.code)],0,0⟩],[⟨21,8192,[],[],0,0⟩,⟨23,1024,[],[],0,0⟩,⟨24,4096,[],[],0,0⟩,⟨25,8192,[.crAlone],[],0,0⟩,⟨26,4294967808,[],[],0,0⟩,⟨27,115792089237316195423570985008687907853269984665635612279300442486259482348031,[],[(12,.code)],0,0⟩,⟨28,4951760157141521099596496896,[],[],0,0⟩,⟨30,549755813888,[],[(14,.commit),(15,.code)],0,0⟩],[⟨29,115792089237316195423570985008687907853269984665640564039457584007913129626623,[],[(13,.code)],0,0⟩],[⟨21,8192,[],[],0,0⟩,⟨23,1024,[],[],0,0⟩,⟨24,4096,[],[],0,0⟩,⟨25,8192,[.crAlone],[],0,0⟩,⟨26,4294967808,[],[],0,0⟩,⟨27,115792089237316195423570985008687907853269984665635612279300442486259482348031,[],[(12,.code)],0,0⟩,⟨28,4951760157141521099596496896,[],[],0,0⟩,⟨30,549755813888,[],[(14,.commit),(15,.code)],0,0⟩],[],[⟨32,8192,[],[],0,0⟩,⟨34,1024,[],[],0,0⟩,⟨35,4096,[],[],0,0⟩,⟨36,8192,[.crAlone],[],0,0⟩,⟨37,4294967808,[],[],0,0⟩,⟨38,115792089237316195423570985008687907853269984665635612279300442486792058292735,[],[(20,.code)],0,0⟩,⟨39,4951760157141521099596496896,[],[],0,0⟩,⟨41,17179869184,[],[(22,.commit),(23,.code)],0,0⟩],[⟨33,1024,[],[],0,0⟩],[⟨32,8192,[],[(18,.setEnt .internalNl),(19,.cb)],0,0⟩,⟨34,1024,[],[(18,.setEnt .internalNl),(19,.cb)],0,0⟩,⟨35,4096,[],[(18,.setEnt .internalNl),(19,.cb)],0,0⟩,⟨36,8192,[.crAlone],[(18,.setEnt .internalNl),(19,.cb)],0,0⟩,⟨37,4294967808,[],[(18,.setEnt .internalNl),(19,.cb)],0,0⟩,⟨38,115792089237316195423570985008687907853269984665635612279300442486792058292735,[],[(18,.setEnt .internalNl),(19,.cb),(20,.code)],0,0⟩,⟨39,4951760157141521099596496896,[],[(18,.setEnt .internalNl),(19,.cb)],0,0⟩,⟨41,17179869184,[],[(18,.setEnt .internalNl),(19,.cb),(22,.commit),(23,.code)],0,0⟩],[⟨32,8192,[],[(18,.setEnt .internalNl),(19,.cb)],0,0⟩,⟨34,1024,[],[(18,.setEnt .internalNl),(19,.cb)],0,0⟩,⟨35,4096,[],[(18,.setEnt .internalNl),(19,.cb)],0,0⟩,⟨36,8192,[.crAlone],[(18,.setEnt .internalNl),(19,.cb)],0,0⟩,⟨37,4294967808,[],[(18,.setEnt .internalNl),(19,.cb)],0,0⟩,⟨38,115792089237316195423570985008687907853269984665635612279300442486792058292735,[],[(18,.setEnt .internalNl),(19,.cb),(20,.code)],0,0⟩,⟨39,4951760157141521099596496896,[],[(18,.setEnt .internalNl),(19,.cb)],0,0⟩,⟨41,17179869184,[],[(18,.setEnt .internalNl),(19,.cb),(22,.commit),(23,.code)],0,0⟩],[⟨32,8192,[],[(18,.setEnt .internalNl),(19,.cb)],0,0⟩,⟨34,1024,[],[(18,.setEnt .internalNl),(19,.cb)],0,0⟩,⟨35,4096,[],[(18,.setEnt .internalNl),(19,.cb)],0,0⟩,⟨36,8192,[.crAlone],[(18,.setEnt .internalNl),(19,.cb)],0,0⟩,⟨37,4294967808,[],[(18,.setEnt .internalNl),(19,.cb)],0,0⟩,⟨38,115792089237316195423570985008687907853269984665635612279300442486792058292735,[],[(18,.setEnt .internalNl),(19,.cb),(20,.code)],0,0⟩,⟨39,4951760157141521099596496896,[],[(18,.setEnt .internalNl),(19,.cb)],0,0⟩,⟨41,17179869184,[],[(18,.setEnt .internalNl),(19,.cb),(22,.commit),(23,.code)],0,0⟩],[⟨32,8192,[],[(18,.setEnt .internalNl),(19,.cb)],0,0⟩,⟨34,1024,[],[(18,.setEnt .internalNl),(19,.cb)],0,0⟩,⟨35,4096,[],[(18,.setEnt .internalNl),(19,.cb)],0,0⟩,⟨36,8192,[.crAlone],[(18,.setEnt .internalNl),(19,.cb)],0,0⟩,⟨37,4294967808,[],[(18,.setEnt .internalNl),(19,.cb)],0,0⟩,⟨38,115792089237316195423570985008687907853269984665635612279300442486792058292735,[],[(18,.setEnt .internalNl),(19,.cb),(20,.code)],0,0⟩,⟨39,4951760157141521099596496896,[],[(18,.setEnt .internalNl),(19,.cb)],0,0⟩,⟨41,17179869184,[],[(18,.setEnt .internalNl),(19,.cb),(22,.commit),(23,.code)],0,0⟩],[⟨32,8192,[],[],0,0⟩,⟨34,1024,[],[],0,0⟩,⟨35,4096,[],[],0,0⟩,⟨36,8192,[.crAlone],[],0,0⟩,⟨37,4294967808,[],[],0,0⟩,⟨38,115792089237316195423570985008687907853269984665635612279300442486792058292735,[],[(20,.code)],0,0⟩,⟨39,4951760157141521099596496896,[],[],0,0⟩,⟨41,17179869184,[],[(22,.commit),(23,.code)],0,0⟩],[⟨32,8192,[],[],0,0⟩,⟨34,1024,[],[],0,0⟩,⟨35,4096,[],[],0,0⟩,⟨36,8192,[.crAlone],[],0,0⟩,⟨37,4294967808,[],[],0,0⟩,⟨38,115792089237316195423570985008687907853269984665635612279300442486792058292735,[],[(20,.code)],0,0⟩,⟨39,4951760157141521099596496896,[],[],0,0⟩,⟨41,17179869184,[],[(22,.commit),(23,.code)],0,0⟩],[⟨40,115792089237316195423570985008687907853269984665640564039457584007913129626623,[],[(21,.code)],0,0⟩],[⟨32,8192,[],[],0,0⟩,⟨34,1024,[],[],0,0⟩,⟨35,4096,[],[],0,0⟩,⟨36,8192,[.crAlone],[],0,0⟩,⟨37,4294967808,[],[],0,0⟩,⟨38,115792089237316195423570985008687907853269984665635612279300442486792058292735,[],[(20,.code)],0,0⟩,⟨39,4951760157141521099596496896,[],[],0,0⟩,⟨41,17179869184,[],[(22,.commit),(23,.code)],0,0⟩],[],[⟨43,10384593719487506896290251007852544,[],[],0,0⟩,⟨44,10633823968755207061801218131552632832,[],[(24,.enqueue),(25,.code)],0,0⟩],[⟨44,10633823968755207061801218131552632832,[],[(24,.enqueue),(25,.code)],0,0⟩],[⟨45,8192,[],[],0,0⟩,⟨47,1024,[],[],0,0⟩,⟨48,4096,[],[],0,0⟩,⟨49,8192,[.crAlone],[],0,0⟩,⟨50,4294967808,[],[],0,0⟩,⟨51,115792089237316195423570985008687907853227449369760591451053237616482050886143,[],[(28,.code)],0,0⟩,⟨52,4951760157141521099596496896,[],[],0,0⟩,⟨54,42535295875020828247204870327187275776,[],[(30,.commit),(31,.code)],0,0⟩],[⟨46,1024,[],[],0,0⟩],[⟨45,8192,[],[(26,.setEnt .internalNl),(27,.cb)],0,0⟩,⟨47,1024,[],[(26,.setEnt .internalNl),(27,.cb)],0,0⟩,⟨48,4096,[],[(26,.setEnt .internalNl),(27,.cb)],0,0⟩,⟨49,8192,[.crAlone],[(26,.setEnt .internalNl),(27,.cb)],0,0⟩,⟨50,4294967808,[],[(26,.setEnt .internalNl),(27,.cb)],0,0⟩,⟨51,115792089237316195423570985008687907853227449369760591451053237616482050886143,[],[(26,.setEnt .internalNl),(27,.cb),(28,.code)],0,0⟩,⟨52,4951760157141521099596496896,[],[(26,.setEnt .internalNl),(27,.cb)],0,0⟩,⟨54,42535295875020828247204870327187275776,[],[(26,.setEnt .internalNl),(27,.cb),(30,.commit),(31,.code)],0,0⟩],[⟨45,8192,[],[(26,.setEnt .internalNl),(27,.cb)],0,0⟩,⟨47,1024,[],[(26,.setEnt .internalNl),(27,.cb)],0,0⟩,⟨48,4096,[],[(26,.setEnt .internalNl),(27,.cb)],0,0⟩,⟨49,8192,[.crAlone],[(26,.setEnt .internalNl),(27,.cb)],0,0⟩,⟨50,4294967808,[],[(26,.setEnt .internalNl),(27,.cb)],0,0⟩,⟨51,115792089237316195423570985008687907853227449369760591451053237616482050886143,[],[(26,.setEnt .internalNl),(27,.cb),(28,.code)],0,0⟩,⟨52,4951760157141521099596496896,[],[(26,.setEnt .internalNl),(27,.cb)],0,0⟩,⟨54,42535295875020828247204870327187275776,[],[(26,.setEnt .internalNl),(27,.cb),(30,.commit),(31,.code)],0,0⟩],[⟨45,8192,[],[(26,.setEnt .internalNl),(27,.cb)],0,0⟩,⟨47,1024,[],[(26,.setEnt .internalNl),(27,.cb)],0,0⟩,⟨48,4096,[],[(26,.setEnt .internalNl),(27,.cb)],0,0⟩,⟨49,8192,[.crAlone],[(26,.setEnt .internalNl),(27,.cb)],0,0⟩,⟨50,4294967808,[],[(26,.setEnt .internalNl),(27,.cb)],0,0⟩,⟨51,115792089237316195423570985008687907853227449369760591451053237616482050886143,[],[(26,.setEnt .internalNl),(27,.cb),(28,.code)],0,0⟩,⟨52,4951760157141521099596496896,[],[(26,.setEnt .internalNl),(27,.cb)],0,0⟩,⟨54,42535295875020828247204870327187275776,[],[(26,.setEnt .internalNl),(27,.cb),(30,.commit),(31,.code)],0,0⟩],[⟨45,8192,[],[(26,.setEnt .internalNl),(27,.cb)],0,0⟩,⟨47,1024,[],[(26,.setEnt .internalNl),(27,.cb)],0,0⟩,⟨48,4096,[],[(26,.setEnt .internalNl),(27,.cb)],0,0⟩,⟨49,8192,[.crAlone],[(26,.setEnt .internalNl),(27,.cb)],0,0⟩,⟨50,4294967808,[],[(26,.setEnt .internalNl),(27,.cb)],0,0⟩,⟨51,115792089237316195423570985008687907853227449369760591451053237616482050886143,[],[(26,.setEnt .internalNl),(27,.cb),(28,.code)],0,0⟩,⟨52,4951760157141521099596496896,[],[(26,.setEnt .internalNl),(27,.cb)],0,0⟩,⟨54,42535295875020828247204870327187275776,[],[(26,.setEnt .internalNl),(27,.cb),(30,.commit),(31,.code)],0,0⟩],[⟨45,8192,[],[],0,0⟩,⟨47,1024,[],[],0,0⟩,⟨48,4096,[],[],0,0⟩,⟨49,8192,[.crAlone],[],0,0⟩,⟨50,4294967808,[],[],0,0⟩,⟨51,115792089237316195423570985008687907853227449369760591451053237616482050886143,[],[(28,.code)],0,0⟩,⟨52,4951760157141521099596496896,[],[],0,0⟩,⟨54,42535295875020828247204870327187275776,[],[(30,.commit),(31,.code)],0,0⟩],[⟨45,8192,[],[],0,0⟩,⟨47,1024,[],[],0,0⟩,⟨48,4096,[],[],0,0⟩,⟨49,8192,[.crAlone],[],0,0⟩,⟨50,4294967808,[],[],0,0⟩,⟨51,115792089237316195423570985008687907853227449369760591451053237616482050886143,[],[(28,.code)],0,0⟩,⟨52,4951760157141521099596496896,[],[],0,0⟩,⟨54,42535295875020828247204870327187275776,[],[(30,.commit),(31,.code)],0,0⟩],[⟨53,115792089237316195423570985008687907853269984665640564039457584007913129626623,[],[(29,.code)],0,0⟩],[⟨45,8192,[],[],0,0⟩,⟨47,1024,[],[],0,0⟩,⟨48,4096,[],[],0,0⟩,⟨49,8192,[.crAlone],[],0,0⟩,⟨50,4294967808,[],[],0,0⟩,⟨51,115792089237316195423570985008687907853227449369760591451053237616482050886143,[],[(28,.code)],0,0⟩,⟨52,4951760157141521099596496896,[],[],0,0⟩,⟨54,42535295875020828247204870327187275776,[],[(30,.commit),(31,.code)],0,0⟩],[],[⟨56,8192,[],[],0,0⟩,⟨58,1024,[],[],0,0⟩,⟨59,4096,[],[],0,0⟩,⟨60,8192,[.crAlone],[],0,0⟩,⟨61,4294967808,[],[],0,0⟩,⟨62,115792089237316195423570985008687907853269984665556384116786178149215694211583,[],[(36,.code)],0,0⟩,⟨63,4951760157141521099596496896,[],[],0,0⟩,⟨65,79228162514264337593543950336,[],[(38,.commit),(39,.code)],0,0⟩],[⟨57,1024,[],[],0,0⟩],[⟨56,8192,[],[(34,.setEnt .internalNl),(35,.cb)],0,0⟩,⟨58,1024,[],[(34,.setEnt .internalNl),(35,.cb)],0,0⟩,⟨59,4096,[],[(34,.setEnt .internalNl),(35,.cb)],0,0⟩,⟨60,8192,[.crAlone],[(34,.setEnt .internalNl),(35,.cb)],0,0⟩,⟨61,4294967808,[],[(34,.setEnt .internalNl),(35,.cb)],0,0⟩,⟨62,115792089237316195423570985008687907853269984665556384116786178149215694211583,[],[(34,.setEnt .internalNl),(35,.cb),(36,.code)],0,0⟩,⟨63,4951760157141521099596496896,[],[(34,.setEnt .internalNl),(35,.cb)],0,0⟩,⟨65,79228162514264337593543950336,[],[(34,.setEnt .internalNl),(35,.cb),(38,.commit),(39,.code)],0,0⟩],[⟨56,8192,[],[(34,.setEnt .internalNl),(35,.cb)],0,0⟩,⟨58,1024,[],[(34,.setEnt .internalNl),(35,.cb)],0,0⟩,⟨59,4096,[],[(34,.setEnt .internalNl),(35,.cb)],0,0⟩,⟨60,8192,[.crAlone],[(34,.setEnt .internalNl),(35,.cb)],0,0⟩,⟨61,4294967808,[],[(34,.setEnt .internalNl),(35,.cb)],0,0⟩,⟨62,115792089237316195423570985008687907853269984665556384116786178149215694211583,[],[(34,.setEnt .internalNl),(35,.cb),(36,.code)],0,0⟩,⟨63,4951760157141521099596496896,[],[(34,.setEnt .internalNl),(35,.cb)],0,0⟩,⟨65,79228162514264337593543950336,[],[(34,.setEnt .internalNl),(35,.cb),(38,.commit),(39,.code)],0,0⟩],[⟨56,8192,[],[(34,.setEnt .internalNl),(35,.cb)],0,0⟩,⟨58,1024,[],[(34,.setEnt .internalNl),(35,.cb)],0,0⟩,⟨59,4096,[],[(34,.setEnt .internalNl),(35,.cb)],0,0⟩,⟨60,8192,[.crAlone],[(34,.setEnt .internalNl),(35,.cb)],0,0⟩,⟨61,4294967808,[],[(34,.setEnt .internalNl),(35,.cb)],0,0⟩,⟨62,115792089237316195423570985008687907853269984665556384116786178149215694211583,[],[(34,.setEnt .internalNl),(35,.cb),(36,.code)],0,0⟩,⟨63,4951760157141521099596496896,[],[(34,.setEnt .internalNl),(35,.cb)],0,0⟩,⟨65,79228162514264337593543950336,[],[(34,.setEnt .internalNl),(35,.cb),(38,.commit),(39,.code)],0,0⟩],[⟨56,8192,[],[(34,.setEnt .internalNl),(35,.cb)],0,0⟩,⟨58,1024,[],[(34,.setEnt .internalNl),(35,.cb)],0,0⟩,⟨59,4096,[],[(34,.setEnt .internalNl),(35,.cb)],0,0⟩,⟨60,8192,[.crAlone],[(34,.setEnt .internalNl),(35,.cb)],0,0⟩,⟨61,4294967808,[],[(34,.setEnt .internalNl),(35,.cb)],0,0⟩,⟨62,115792089237316195423570985008687907853269984665556384116786178149215694211583,[],[(34,.setEnt .internalNl),(35,.cb),(36,.code)],0,0⟩,⟨63,4951760157141521099596496896,[],[(34,.setEnt .internalNl),(35,.cb)],0,0⟩,⟨65,79228162514264337593543950336,[],[(34,.setEnt .internalNl),(35,.cb),(38,.commit),(39,.code)],0,0⟩],[⟨56,8192,[],[],0,0⟩,⟨58,1024,[],[],0,0⟩,⟨59,4096,[],[],0,0⟩,⟨60,8192,[.crAlone],[],0,0⟩,⟨61,4294967808,[],[],0,0⟩,⟨62,115792089237316195423570985008687907853269984665556384116786178149215694211583,[],[(36,.code)],0,0⟩,⟨63,4951760157141521099596496896,[],[],0,0⟩,⟨65,79228162514264337593543950336,[],[(38,.commit),(39,.code)],0,0⟩],[⟨56,8192,[],[],0,0⟩,⟨58,1024,[],[],0,0⟩,⟨59,4096,[],[],0,0⟩,⟨60,8192,[.crAlone],[],0,0⟩,⟨61,4294967808,[],[],0,0⟩,⟨62,115792089237316195423570985008687907853269984665556384116786178149215694211583,[],[(36,.code)],0,0⟩,⟨63,4951760157141521099596496896,[],[],0,0⟩,⟨65,79228162514264337593543950336,[],[(38,.commit),(39,.code)],0,0⟩],[⟨64,115792089237316195423570985008687907853269984665640564039457584007913129626623,[],[(37,.code)],0,0⟩],[⟨56,8192,[],[],0,0⟩,⟨58,1024,[],[],0,0⟩,⟨59,4096,[],[],0,0⟩,⟨60,8192,[.crAlone],[],0,0⟩,⟨61,4294967808,[],[],0,0⟩,⟨62,115792089237316195423570985008687907853269984665556384116786178149215694211583,[],[(36,.code)],0,0⟩,⟨63,4951760157141521099596496896,[],[],0,0⟩,⟨65,79228162514264337593543950336,[],[(38,.commit),(39,.code)],0,0⟩],[],[⟨67,115792089237316195423570985008687907853269984665635612279300442346076044774399,[],[],0,0⟩,⟨68,4951760157141521099596496896,[],[],0,0⟩,⟨70,140737488355328,[],[(40,.code)],0,0⟩],[⟨67,115792089237316195423570985008687907853269984665635612279300442346076044774399,[],[],0,0⟩,⟨68,4951760157141521099596496896,[],[],0,0⟩,⟨70,140737488355328,[],[(40,.code)],0,0⟩],[⟨69,115792089237316195423570985008687907853269984665640564039457584007913129626623,[],[],0,0⟩],[⟨67,115792089237316195423570985008687907853269984665635612279300442346076044774399,[],[],0,0⟩,⟨68,4951760157141521099596496896,[],[],0,0⟩,⟨70,140737488355328,[],[(40,.code)],0,0⟩],[],[⟨72,2014611181111513119869832575737397248,[],[],0,0⟩],[⟨73,10633823968755207061801218131552632832,[],[(41,.enqueue),(42,.code)],0,0⟩],[⟨74,8192,[],[],0,0⟩,⟨76,1024,[],[],0,0⟩,⟨77,4096,[],[],0,0⟩,⟨78,8192,[.crAlone],[],0,0⟩,⟨79,4294967808,[],[],0,0⟩,⟨80,115792089237316195423570985008687907853227449369760591451053237616482050886143,[],[(45,.code)],0,0⟩,⟨81,4951760157141521099596496896,[],[],0,0⟩,⟨83,42535295875020828247204870327187275776,[],[(47,.commit),(48,.code)],0,0⟩],[⟨75,1024,[],[],0,0⟩],[⟨74,8192,[],[(43,.setEnt .internalNl),(44,.cb)],0,0⟩,⟨76,1024,[],[(43,.setEnt .internalNl),(44,.cb)],0,0⟩,⟨77,4096,[],[(43,.setEnt .internalNl),(44,.cb)],0,0⟩,⟨78,8192,[.crAlone],[(43,.setEnt .internalNl),(44,.cb)],0,0⟩,⟨79,4294967808,[],[(43,.setEnt .internalNl),(44,.cb)],0,0⟩,⟨80,115792089237316195423570985008687907853227449369760591451053237616482050886143,[],[(43,.setEnt .internalNl),(44,.cb),(45,.code)],0,0⟩,⟨81,4951760157141521099596496896,[],[(43,.setEnt .internalNl),(44,.cb)],0,0⟩,⟨83,42535295875020828247204870327187275776,[],[(43,.setEnt .internalNl),(44,.cb),(47,.commit),(48,.code)],0,0⟩],[⟨74,8192,[],[(43,.setEnt .internalNl),(44,.cb)],0,0⟩,⟨76,1024,[],[(43,.setEnt .internalNl),(44,.cb)],0,0⟩,⟨77,4096,[],[(43,.setEnt .internalNl),(44,.cb)],0,0⟩,⟨78,8192,[.crAlone],[(43,.setEnt .internalNl),(44,.cb)],0,0⟩,⟨79,4294967808,[],[(43,.setEnt .internalNl),(44,.cb)],0,0⟩,⟨80,115792089237316195423570985008687907853227449369760591451053237616482050886143,[],[(43,.setEnt .internalNl),(44,.cb),(45,.code)],0,0⟩,⟨81,4951760157141521099596496896,[],[(43,.setEnt .internalNl),(44,.cb)],0,0⟩,⟨83,42535295875020828247204870327187275776,[],[(43,.setEnt .internalNl),(44,.cb),(47,.commit),(48,.code)],0,0⟩],[⟨74,8192,[],[(43,.setEnt .internalNl),(44,.cb)],0,0⟩,⟨76,1024,[],[(43,.setEnt .internalNl),(44,.cb)],0,0⟩,⟨77,4096,[],[(43,.setEnt .internalNl),(44,.cb)],0,0⟩,⟨78,8192,[.crAlone],[(43,.setEnt .internalNl),(44,.cb)],0,0⟩,⟨79,4294967808,[],[(43,.setEnt .internalNl),(44,.cb)],0,0⟩,⟨80,115792089237316195423570985008687907853227449369760591451053237616482050886143,[],[(43,.setEnt .internalNl),(44,.cb),(45,.code)],0,0⟩,⟨81,4951760157141521099596496896,[],[(43,.setEnt .internalNl),(44,.cb)],0,0⟩,⟨83,42535295875020828247204870327187275776,[],[(43,.setEnt .internalNl),(44,.cb),(47,.commit),(48,.code)],0,0⟩],[⟨74,8192,[],[(43,.setEnt .internalNl),(44,.cb)],0,0⟩,⟨76,1024,[],[(43,.setEnt .internalNl),(44,.cb)],0,0⟩,⟨77,4096,[],[(43,.setEnt .internalNl),(44,.cb)],0,0⟩,⟨78,8192,[.crAlone],[(43,.setEnt .internalNl),(44,.cb)],0,0⟩,⟨79,4294967808,[],[(43,.setEnt .internalNl),(44,.cb)],0,0⟩,⟨80,115792089237316195423570985008687907853227449369760591451053237616482050886143,[],[(43,.setEnt .internalNl),(44,.cb),(45,.code)],0,0⟩,⟨81,4951760157141521099596496896,[],[(43,.setEnt .internalNl),(44,.cb)],0,0⟩,⟨83,42535295875020828247204870327187275776,[],[(43,.setEnt .internalNl),(44,.cb),(47,.commit),(48,.code)],0,0⟩],[⟨74,8192,[],[],0,0⟩,⟨76,1024,[],[],0,0⟩,⟨77,4096,[],[],0,0⟩,⟨78,8192,[.crAlone],[],0,0⟩,⟨79,4294967808,[],[],0,0⟩,⟨80,115792089237316195423570985008687907853227449369760591451053237616482050886143,[],[(45,.code)],0,0⟩,⟨81,4951760157141521099596496896,[],[],0,0⟩,⟨83,42535295875020828247204870327187275776,[],[(47,.commit),(48,.code)],0,0⟩],[⟨74,8192,[],[],0,0⟩,⟨76,1024,[],[],0,0⟩,⟨77,4096,[],[],0,0⟩,⟨78,8192,[.crAlone],[],0,0⟩,⟨79,4294967808,[],[],0,0⟩,⟨80,115792089237316195423570985008687907853227449369760591451053237616482050886143,[],[(45,.code)],0,0⟩,⟨81,4951760157141521099596496896,[],[],0,0⟩,⟨83,42535295875020828247204870327187275776,[],[(47,.commit),(48,.code)],0,0⟩],[⟨82,115792089237316195423570985008687907853269984665640564039457584007913129626623,[],[(46,.code)],0,0⟩],[⟨74,8192,[],[],0,0⟩,⟨76,1024,[],[],0,0⟩,⟨77,4096,[],[],0,0⟩,⟨78,8192,[.crAlone],[],0,0⟩,⟨79,4294967808,[],[],0,0⟩,⟨80,115792089237316195423570985008687907853227449369760591451053237616482050886143,[],[(45,.code)],0,0⟩,⟨81,4951760157141521099596496896,[],[],0,0⟩,⟨83,42535295875020828247204870327187275776,[],[(47,.commit),(48,.code)],0,0⟩],[],[⟨85,1024,[],[(49,.setEnt .newline)],0,0⟩],[],[],[],[],[]],[some (0,[]),some (1,[]),some (1,[]),none,none,none,none,none,none,none,none,none,none,none,none,none,none,none,none,some (1,[]),none,none,none,none,none,none,none,none,none,none,some (2,[]),none,none,none,none,none,none,none,none,none,none,some (2,[]),none,none,none,none,none,none,none,none,none,none,none,none,some (2,[]),none,none,none,none,none,none,none,none,none,none,some (2,[]),none,none,none,none,some (2,[]),none,none,none,none,none,none,none,none,none,none,none,none,some (2,[]),none,some (3,[]),some (3,[]),some (3,[]),some (3,[]),some (4,[])],[1,8,49,50,51]⟩
theorem ruby_line_nfa_eq : Ruby.ruby_line.nfa = ruby_line_nfa := by decide +kernel
/-- The machine of `Ruby.ruby_line`, with its automaton as a literal. -/
def ruby_line_M : Machine := ⟨ruby_line_nfa, Ruby.ruby_line.ends, Ruby.ruby_line.sw⟩
theorem ruby_line_M_eq : Ruby.ruby_line.machine = ruby_line_M := by
  unfold Scanner.machine ruby_line_M; rw [ruby_line_nfa_eq]
def ruby_line_masks : List Nat := [4294967808,34359738368,2305843009213693952,549755813888,17179869184,137438953472,79228162514264337593543950336,140737488355328,8192,1024,4096,115792089237316195423570985008687907853269984665640564039457584007908834656767,115792089237316195423570985008687907853269984665640564039457584007913129626623,316912650057057350374175801344,2535301200456458802993406410752,10141204801825835211973625643008,40564819207303340847894502572032,1298074214633706907132624082305024,115792089237316195423570985008687907853269984665640564039457584007908834658815,1267650600228229401496703205376,115792089237316195423570985008687907853269984665635612279300442486259482348031,4951760157141521099596496896,115792089237316195423570985008687907853269984665635612279300442486792058292735,10384593719487506896290251007852544,10633823968755207061801218131552632832,115792089237316195423570985008687907853227449369760591451053237616482050886143,42535295875020828247204870327187275776,115792089237316195423570985008687907853269984665556384116786178149215694211583,115792089237316195423570985008687907853269984665635612279300442346076044774399,2014611181111513119869832575737397248]
def ruby_line_cs : List (Nat × Nat) := [(0,115792089237316195423570985008687907853214789197037673987270271206088276689407),(9,4294967808),(10,1024),(11,2048),(12,4096),(13,8192),(34,17179869184),(35,34359738368),(37,137438953472),(39,549755813888),(40,10633823968755207061801218131552632832),(41,42535295875020828247204870327187275776),(47,140737488355328),(61,2305843009213693952),(81,10384593719487506896290251007852544),(92,4951760157141521099596496896),(96,79228162514264337593543950336),(98,316912650057057350374175801344),(100,1267650600228229401496703205376),(101,2535301200456458802993406410752),(103,10141204801825835211973625643008),(105,40564819207303340847894502572032),(110,1298074214633706907132624082305024),(114,2014611181111513119869832575737397248)]
theorem ruby_line_masksIn : masksIn ruby_line_nfa ruby_line_masks = true := by decide +kernel
theorem ruby_line_repOk : repOk ruby_line_masks ruby_line_cs = true := by decide +kernel
def ruby_line_rows : List Row := [⟨[],none,[],[⟨256,.other,false,some ⟨0,[.setEnt (.own 3)],some 4,true⟩⟩,⟨256,.ws,false,some ⟨1,[.setEnt (.own 0)],some 0,false⟩⟩,⟨256,.lf,false,some ⟨0,[.setEnt .newline],some 3,true⟩⟩,⟨256,.vt,false,none⟩,⟨256,.ff,false,some ⟨0,[.setEnt .newline],some 3,true⟩⟩,⟨256,.cr,false,some ⟨2,[.setEnt .newline],none,false⟩⟩,⟨256,.cr,true,some ⟨3,[.setEnt .newline],some 3,false⟩⟩,⟨256,.other,false,some ⟨4,[.enqueue,.code,.setEnt (.own 3)],some 4,false⟩⟩,⟨256,.other,false,some ⟨5,[.comment,.setEnt (.own 3)],some 1,false⟩⟩,⟨256,.other,false,some ⟨6,[.setEnt (.own 3)],some 4,false⟩⟩,⟨256,.other,false,some ⟨7,[.enqueue,.code,.setEnt (.own 3)],some 4,false⟩⟩,⟨256,.other,false,some ⟨8,[.setEnt (.own 3)],some 4,false⟩⟩,⟨256,.other,false,some ⟨9,[.setEnt (.own 3)],some 4,false⟩⟩,⟨256,.other,false,some ⟨10,[.enqueue,.code,.setEnt (.own 3)],some 4,false⟩⟩]⟩,⟨[0],some 0,[],[⟨256,.other,false,none⟩,⟨256,.ws,false,some ⟨1,[.setEnt (.own 0)],some 0,false⟩⟩,⟨256,.lf,false,none⟩,⟨256,.vt,false,none⟩,⟨256,.ff,false,none⟩,⟨256,.cr,false,none⟩,⟨256,.cr,true,none⟩]⟩,⟨[84],none,[],[⟨256,.other,false,none⟩,⟨256,.ws,false,none⟩,⟨256,.lf,false,some ⟨0,[.setEnt .newline],some 3,true⟩⟩,⟨256,.vt,false,none⟩,⟨256,.ff,false,none⟩,⟨256,.cr,false,none⟩,⟨256,.cr,true,none⟩]⟩,⟨[84,88],some 3,[],[⟨256,.other,false,none⟩,⟨256,.ws,false,none⟩,⟨256,.lf,false,some ⟨0,[.setEnt .newline],some 3,true⟩⟩,⟨256,.vt,false,none⟩,⟨256,.ff,false,none⟩,⟨256,.cr,false,none⟩,⟨256,.cr,true,none⟩]⟩,⟨[31,89],some 4,[],[⟨256,.other,false,some ⟨11,[.code],none,false⟩⟩,⟨256,.ws,false,some ⟨12,[],none,false⟩⟩,⟨256,.lf,false,some ⟨13,[],none,false⟩⟩,⟨256,.vt,false,some ⟨11,[.code],none,false⟩⟩,⟨256,.ff,false,some ⟨14,[],none,false⟩⟩,⟨256,.cr,false,some ⟨15,[],none,false⟩⟩,⟨256,.cr,true,some ⟨16,[],none,false⟩⟩,⟨256,.other,false,some ⟨0,[.commit,.code],some 2,true⟩⟩,⟨256,.other,false,some ⟨17,[],none,false⟩⟩]⟩,⟨[1,89],some 1,[],[⟨256,.other,false,some ⟨18,[],some 1,false⟩⟩,⟨256,.ws,false,some ⟨18,[],some 1,false⟩⟩,⟨256,.lf,false,none⟩,⟨256,.vt,false,some ⟨18,[],some 1,false⟩⟩,⟨256,.ff,false,none⟩,⟨256,.cr,false,none⟩,⟨256,.cr,true,none⟩]⟩,⟨[42,71,89],some 4,[],[⟨256,.other,false,none⟩,⟨256,.ws,false,none⟩,⟨256,.lf,false,none⟩,⟨256,.vt,false,none⟩,⟨256,.ff,false,none⟩,⟨256,.cr,false,none⟩,⟨256,.cr,true,none⟩,⟨256,.other,false,some ⟨19,[.enqueue,.code],none,false⟩⟩,⟨256,.other,false,some ⟨20,[],none,false⟩⟩,⟨256,.other,false,some ⟨21,[],none,false⟩⟩]⟩,⟨[20,89],some 4,[],[⟨256,.other,false,some ⟨22,[.code],none,false⟩⟩,⟨256,.ws,false,some ⟨23,[],none,false⟩⟩,⟨256,.lf,false,some ⟨24,[],none,false⟩⟩,⟨256,.vt,false,some ⟨22,[.code],none,false⟩⟩,⟨256,.ff,false,some ⟨25,[],none,false⟩⟩,⟨256,.cr,false,some ⟨26,[],none,false⟩⟩,⟨256,.cr,true,some ⟨27,[],none,false⟩⟩,⟨256,.other,false,some ⟨0,[.commit,.code],some 2,true⟩⟩,⟨256,.other,false,some ⟨28,[],none,false⟩⟩]⟩,⟨[66,89],some 4,[],[⟨256,.other,false,some ⟨29,[],none,false⟩⟩,⟨256,.ws,false,some ⟨29,[],none,false⟩⟩,⟨256,.lf,false,none⟩,⟨256,.vt,false,some ⟨29,[],none,false⟩⟩,⟨256,.ff,false,none⟩,⟨256,.cr,false,none⟩,⟨256,.cr,true,none⟩,⟨256,.other,false,some ⟨0,[.code],some 2,true⟩⟩,⟨256,.other,false,some ⟨30,[],none,false⟩⟩]⟩,⟨[3,89],some 4,[],[⟨256,.other,false,none⟩,⟨256,.ws,false,none⟩,⟨256,.lf,false,none⟩,⟨256,.vt,false,none⟩,⟨256,.ff,false,none⟩,⟨256,.cr,false,none⟩,⟨256,.cr,true,none⟩,⟨256,.other,false,some ⟨31,[],none,false⟩⟩]⟩,⟨[55,89],some 4,[],[⟨256,.other,false,some ⟨32,[.code],none,false⟩⟩,⟨256,.ws,false,some ⟨33,[],none,false⟩⟩,⟨256,.lf,false,some ⟨34,[],none,false⟩⟩,⟨256,.vt,false,some ⟨32,[.code],none,false⟩⟩,⟨256,.ff,false,some ⟨35,[],none,false⟩⟩,⟨256,.cr,false,some ⟨36,[],none,false⟩⟩,⟨256,.cr,true,some ⟨37,[],none,false⟩⟩,⟨256,.other,false,some ⟨38,[],none,false⟩⟩,⟨256,.other,false,some ⟨0,[.commit,.code],some 2,true⟩⟩]⟩,⟨[38],none,[],[⟨256,.other,false,some ⟨11,[.code],none,false⟩⟩,⟨256,.ws,false,some ⟨12,[],none,false⟩⟩,⟨256,.lf,false,some ⟨13,[],none,false⟩⟩,⟨256,.vt,false,some ⟨11,[.code],none,false⟩⟩,⟨256,.ff,false,some ⟨14,[],none,false⟩⟩,⟨256,.cr,false,some ⟨15,[],none,false⟩⟩,⟨256,.cr,true,some ⟨16,[],none,false⟩⟩,⟨256,.other,false,some ⟨0,[.commit,.code],some 2,true⟩⟩,⟨256,.other,false,some ⟨17,[],none,false⟩⟩]⟩,⟨[37],none,[],[⟨256,.other,false,some ⟨11,[.code],none,false⟩⟩,⟨256,.ws,false,some ⟨12,[],none,false⟩⟩,⟨256,.lf,false,some ⟨13,[],none,false⟩⟩,⟨256,.vt,false,some ⟨11,[.code],none,false⟩⟩,⟨256,.ff,false,some ⟨14,[],none,false⟩⟩,⟨256,.cr,false,some ⟨15,[],none,false⟩⟩,⟨256,.cr,true,some ⟨16,[],none,false⟩⟩,⟨256,.other,false,some ⟨0,[.commit,.code],some 2,true⟩⟩,⟨256,.other,false,some ⟨17,[],none,false⟩⟩]⟩,⟨[34],none,[],[⟨256,.other,false,some ⟨11,[.setEnt .internalNl,.cb,.code],none,false⟩⟩,⟨256,.ws,false,some ⟨12,[.setEnt .internalNl,.cb],none,false⟩⟩,⟨256,.lf,false,some ⟨13,[.setEnt .internalNl,.cb],none,false⟩⟩,⟨256,.vt,false,some ⟨11,[.setEnt .internalNl,.cb,.code],none,false⟩⟩,⟨256,.ff,false,some ⟨14,[.setEnt .internalNl,.cb],none,false⟩⟩,⟨256,.cr,false,some ⟨15,[.setEnt .internalNl,.cb],none,false⟩⟩,⟨256,.cr,true,some ⟨16,[.setEnt .internalNl,.cb],none,false⟩⟩,⟨256,.other,false,some ⟨0,[.setEnt .internalNl,.cb,.commit,.code],some 2,true⟩⟩,⟨256,.other,false,some ⟨17,[.setEnt .internalNl,.cb],none,false⟩⟩]⟩,⟨[35],none,[],[⟨256,.other,false,some ⟨11,[.setEnt .internalNl,.cb,.code],none,false⟩⟩,⟨256,.ws,false,some ⟨12,[.setEnt .internalNl,.cb],none,false⟩⟩,⟨256,.lf,false,some ⟨13,[.setEnt .internalNl,.cb],none,false⟩⟩,⟨256,.vt,false,some ⟨11,[.setEnt .internalNl,.cb,.code],none,false⟩⟩,⟨256,.ff,false,some ⟨14,[.setEnt .internalNl,.cb],none,false⟩⟩,⟨256,.cr,false,some ⟨15,[.setEnt .internalNl,.cb],none,false⟩⟩,⟨256,.cr,true,some ⟨16,[.setEnt .internalNl,.cb],none,false⟩⟩,⟨256,.other,false,some ⟨0,[.setEnt .internalNl,.cb,.commit,.code],some 2,true⟩⟩,⟨256,.other,false,some ⟨17,[.setEnt .internalNl,.cb],none,false⟩⟩]⟩,⟨[32],none,[],[⟨256,.other,false,none⟩,⟨256,.ws,false,none⟩,⟨256,.lf,false,some ⟨39,[],none,false⟩⟩,⟨256,.vt,false,none⟩,⟨256,.ff,false,none⟩,⟨256,.cr,false,none⟩,⟨256,.cr,true,none⟩]⟩,⟨[32,36],none,[],[⟨256,.other,false,some ⟨11,[.setEnt .internalNl,.cb,.code],none,false⟩⟩,⟨256,.ws,false,some ⟨12,[.setEnt .internalNl,.cb],none,false⟩⟩,⟨256,.lf,false,some ⟨40,[.setEnt .internalNl,.cb],none,false⟩⟩,⟨256,.vt,false,some ⟨11,[.setEnt .internalNl,.cb,.code],none,false⟩⟩,⟨256,.ff,false,some ⟨14,[.setEnt .internalNl,.cb],none,false⟩⟩,⟨256,.cr,false,some ⟨15,[.setEnt .internalNl,.cb],none,false⟩⟩,⟨256,.cr,true,some ⟨16,[.setEnt .internalNl,.cb],none,false⟩⟩,⟨256,.other,false,some ⟨0,[.setEnt .internalNl,.cb,.commit,.code],some 2,true⟩⟩,⟨256,.other,false,some ⟨17,[.setEnt .internalNl,.cb],none,false⟩⟩]⟩,⟨[39],none,[],[⟨256,.other,false,some ⟨41,[.code],none,false⟩⟩,⟨256,.ws,false,some ⟨41,[.code],none,false⟩⟩,⟨256,.lf,false,none⟩,⟨256,.vt,false,some ⟨41,[.code],none,false⟩⟩,⟨256,.ff,false,none⟩,⟨256,.cr,false,none⟩,⟨256,.cr,true,none⟩]⟩,⟨[2],some 1,[],[⟨256,.other,false,some ⟨18,[],some 1,false⟩⟩,⟨256,.ws,false,some ⟨18,[],some 1,false⟩⟩,⟨256,.lf,false,none⟩,⟨256,.vt,false,some ⟨18,[],some 1,false⟩⟩,⟨256,.ff,false,none⟩,⟨256,.cr,false,none⟩,⟨256,.cr,true,none⟩]⟩,⟨[44],none,[],[⟨256,.other,false,some ⟨42,[.code],none,false⟩⟩,⟨256,.ws,false,some ⟨43,[],none,false⟩⟩,⟨256,.lf,false,some ⟨44,[],none,false⟩⟩,⟨256,.vt,false,some ⟨42,[.code],none,false⟩⟩,⟨256,.ff,false,some ⟨45,[],none,false⟩⟩,⟨256,.cr,false,some ⟨46,[],none,false⟩⟩,⟨256,.cr,true,some ⟨47,[],none,false⟩⟩,⟨256,.other,false,some ⟨0,[.commit,.code],some 2,true⟩⟩,⟨256,.other,false,some ⟨48,[],none,false⟩⟩]⟩,⟨[43],none,[],[⟨256,.other,false,none⟩,⟨256,.ws,false,none⟩,⟨256,.lf,false,none⟩,⟨256,.vt,false,none⟩,⟨256,.ff,false,none⟩,⟨256,.cr,false,none⟩,⟨256,.cr,true,none⟩,⟨256,.other,false,some ⟨19,[.enqueue,.code],none,false⟩⟩]⟩,⟨[72],none,[],[⟨256,.other,false,none⟩,⟨256,.ws,false,none⟩,⟨256,.lf,false,none⟩,⟨256,.vt,false,none⟩,⟨256,.ff,false,none⟩,⟨256,.cr,false,none⟩,⟨256,.cr,true,none⟩,⟨256,.other,false,some ⟨49,[.enqueue,.code],none,false⟩⟩]⟩,⟨[27],none,[],[⟨256,.other,false,some ⟨22,[.code],none,false⟩⟩,⟨256,.ws,false,some ⟨23,[],none,false⟩⟩,⟨256,.lf,false,some ⟨24,[],none,false⟩⟩,⟨256,.vt,false,some ⟨22,[.code],none,false⟩⟩,⟨256,.ff,false,some ⟨25,[],none,false⟩⟩,⟨256,.cr,false,some ⟨26,[],none,false⟩⟩,⟨256,.cr,true,some ⟨27,[],none,false⟩⟩,⟨256,.other,false,some ⟨0,[.commit,.code],some 2,true⟩⟩,⟨256,.other,false,some ⟨28,[],none,false⟩⟩]⟩,⟨[26],none,[],[⟨256,.other,false,some ⟨22,[.code],none,false⟩⟩,⟨256,.ws,false,some ⟨23,[],none,false⟩⟩,⟨256,.lf,false,some ⟨24,[],none,false⟩⟩,⟨256,.vt,false,some ⟨22,[.code],none,false⟩⟩,⟨256,.ff,false,some ⟨25,[],none,false⟩⟩,⟨256,.cr,false,some ⟨26,[],none,false⟩⟩,⟨256,.cr,true,some ⟨27,[],none,false⟩⟩,⟨256,.other,false,some ⟨0,[.commit,.code],some 2,true⟩⟩,⟨256,.other,false,some ⟨28,[],none,false⟩⟩]⟩,⟨[23],none,[],[⟨256,.other,false,some ⟨22,[.setEnt .internalNl,.cb,.code],none,false⟩⟩,⟨256,.ws,false,some ⟨23,[.setEnt .internalNl,.cb],none,false⟩⟩,⟨256,.lf,false,some ⟨24,[.setEnt .internalNl,.cb],none,false⟩⟩,⟨256,.vt,false,some ⟨22,[.setEnt .internalNl,.cb,.code],none,false⟩⟩,⟨256,.ff,false,some ⟨25,[.setEnt .internalNl,.cb],none,false⟩⟩,⟨256,.cr,false,some ⟨26,[.setEnt .internalNl,.cb],none,false⟩⟩,⟨256,.cr,true,some ⟨27,[.setEnt .internalNl,.cb],none,false⟩⟩,⟨256,.other,false,some ⟨0,[.setEnt .internalNl,.cb,.commit,.code],some 2,true⟩⟩,⟨256,.other,false,some ⟨28,[.setEnt .internalNl,.cb],none,false⟩⟩]⟩,⟨[24],none,[],[⟨256,.other,false,some ⟨22,[.setEnt .internalNl,.cb,.code],none,false⟩⟩,⟨256,.ws,false,some ⟨23,[.setEnt .internalNl,.cb],none,false⟩⟩,⟨256,.lf,false,some ⟨24,[.setEnt .internalNl,.cb],none,false⟩⟩,⟨256,.vt,false,some ⟨22,[.setEnt .internalNl,.cb,.code],none,false⟩⟩,⟨256,.ff,false,some ⟨25,[.setEnt .internalNl,.cb],none,false⟩⟩,⟨256,.cr,false,some ⟨26,[.setEnt .internalNl,.cb],none,false⟩⟩,⟨256,.cr,true,some ⟨27,[.setEnt .internalNl,.cb],none,false⟩⟩,⟨256,.other,false,some ⟨0,[.setEnt .internalNl,.cb,.commit,.code],some 2,true⟩⟩,⟨256,.other,false,some ⟨28,[.setEnt .internalNl,.cb],none,false⟩⟩]⟩,⟨[21],none,[],[⟨256,.other,false,none⟩,⟨256,.ws,false,none⟩,⟨256,.lf,false,some ⟨50,[],none,false⟩⟩,⟨256,.vt,false,none⟩,⟨256,.ff,false,none⟩,⟨256,.cr,false,none⟩,⟨256,.cr,true,none⟩]⟩,⟨[21,25],none,[],[⟨256,.other,false,some ⟨22,[.setEnt .internalNl,.cb,.code],none,false⟩⟩,⟨256,.ws,false,some ⟨23,[.setEnt .internalNl,.cb],none,false⟩⟩,⟨256,.lf,false,some ⟨51,[.setEnt .internalNl,.cb],none,false⟩⟩,⟨256,.vt,false,some ⟨22,[.setEnt .internalNl,.cb,.code],none,false⟩⟩,⟨256,.ff,false,some ⟨25,[.setEnt .internalNl,.cb],none,false⟩⟩,⟨256,.cr,false,some ⟨26,[.setEnt .internalNl,.cb],none,false⟩⟩,⟨256,.cr,true,some ⟨27,[.setEnt .internalNl,.cb],none,false⟩⟩,⟨256,.other,false,some ⟨0,[.setEnt .internalNl,.cb,.commit,.code],some 2,true⟩⟩,⟨256,.other,false,some ⟨28,[.setEnt .internalNl,.cb],none,false⟩⟩]⟩,⟨[28],none,[],[⟨256,.other,false,some ⟨52,[.code],none,false⟩⟩,⟨256,.ws,false,some ⟨52,[.code],none,false⟩⟩,⟨256,.lf,false,none⟩,⟨256,.vt,false,some ⟨52,[.code],none,false⟩⟩,⟨256,.ff,false,none⟩,⟨256,.cr,false,none⟩,⟨256,.cr,true,none⟩]⟩,⟨[67],none,[],[⟨256,.other,false,some ⟨29,[],none,false⟩⟩,⟨256,.ws,false,some ⟨29,[],none,false⟩⟩,⟨256,.lf,false,none⟩,⟨256,.vt,false,some ⟨29,[],none,false⟩⟩,⟨256,.ff,false,none⟩,⟨256,.cr,false,none⟩,⟨256,.cr,true,none⟩,⟨256,.other,false,some ⟨0,[.code],some 2,true⟩⟩,⟨256,.other,false,some ⟨30,[],none,false⟩⟩]⟩,⟨[68],none,[],[⟨256,.other,false,some ⟨53,[],none,false⟩⟩,⟨256,.ws,false,some ⟨53,[],none,false⟩⟩,⟨256,.lf,false,none⟩,⟨256,.vt,false,some ⟨53,[],none,false⟩⟩,⟨256,.ff,false,none⟩,⟨256,.cr,false,none⟩,⟨256,.cr,true,none⟩]⟩,⟨[4],none,[],[⟨256,.other,false,none⟩,⟨256,.ws,false,none⟩,⟨256,.lf,false,none⟩,⟨256,.vt,false,none⟩,⟨256,.ff,false,none⟩,⟨256,.cr,false,none⟩,⟨256,.cr,true,none⟩,⟨256,.other,false,some ⟨54,[],none,false⟩⟩]⟩,⟨[62],none,[],[⟨256,.other,false,some ⟨32,[.code],none,false⟩⟩,⟨256,.ws,false,some ⟨33,[],none,false⟩⟩,⟨256,.lf,false,some ⟨34,[],none,false⟩⟩,⟨256,.vt,false,some ⟨32,[.code],none,false⟩⟩,⟨256,.ff,false,some ⟨35,[],none,false⟩⟩,⟨256,.cr,false,some ⟨36,[],none,false⟩⟩,⟨256,.cr,true,some ⟨37,[],none,false⟩⟩,⟨256,.other,false,some ⟨38,[],none,false⟩⟩,⟨256,.other,false,some ⟨0,[.commit,.code],some 2,true⟩⟩]⟩,⟨[61],none,[],[⟨256,.other,false,some ⟨32,[.code],none,false⟩⟩,⟨256,.ws,false,some ⟨33,[],none,false⟩⟩,⟨256,.lf,false,some ⟨34,[],none,false⟩⟩,⟨256,.vt,false,some ⟨32,[.code],none,false⟩⟩,⟨256,.ff,false,some ⟨35,[],none,false⟩⟩,⟨256,.cr,false,some ⟨36,[],none,false⟩⟩,⟨256,.cr,true,some ⟨37,[],none,false⟩⟩,⟨256,.other,false,some ⟨38,[],none,false⟩⟩,⟨256,.other,false,some ⟨0,[.commit,.code],some 2,true⟩⟩]⟩,⟨[58],none,[],[⟨256,.other,false,some ⟨32,[.setEnt .internalNl,.cb,.code],none,false⟩⟩,⟨256,.ws,false,some ⟨33,[.setEnt .internalNl,.cb],none,false⟩⟩,⟨256,.lf,false,some ⟨34,[.setEnt .internalNl,.cb],none,false⟩⟩,⟨256,.vt,false,some ⟨32,[.setEnt .internalNl,.cb,.code],none,false⟩⟩,⟨256,.ff,false,some ⟨35,[.setEnt .internalNl,.cb],none,false⟩⟩,⟨256,.cr,false,some ⟨36,[.setEnt .internalNl,.cb],none,false⟩⟩,⟨256,.cr,true,some ⟨37,[.setEnt .internalNl,.cb],none,false⟩⟩,⟨256,.other,false,some ⟨38,[.setEnt .internalNl,.cb],none,false⟩⟩,⟨256,.other,false,some ⟨0,[.setEnt .internalNl,.cb,.commit,.code],some 2,true⟩⟩]⟩,⟨[59],none,[],[⟨256,.other,false,some ⟨32,[.setEnt .internalNl,.cb,.code],none,false⟩⟩,⟨256,.ws,false,some ⟨33,[.setEnt .internalNl,.cb],none,false⟩⟩,⟨256,.lf,false,some ⟨34,[.setEnt .internalNl,.cb],none,false⟩⟩,⟨256,.vt,false,some ⟨32,[.setEnt .internalNl,.cb,.code],none,false⟩⟩,⟨256,.ff,false,some ⟨35,[.setEnt .internalNl,.cb],none,false⟩⟩,⟨256,.cr,false,some ⟨36,[.setEnt .internalNl,.cb],none,false⟩⟩,⟨256,.cr,true,some ⟨37,[.setEnt .internalNl,.cb],none,false⟩⟩,⟨256,.other,false,some ⟨38,[.setEnt .internalNl,.cb],none,false⟩⟩,⟨256,.other,false,some ⟨0,[.setEnt .internalNl,.cb,.commit,.code],some 2,true⟩⟩]⟩,⟨[56],none,[],[⟨256,.other,false,none⟩,⟨256,.ws,false,none⟩,⟨256,.lf,false,some ⟨55,[],none,false⟩⟩,⟨256,.vt,false,none⟩,⟨256,.ff,false,none⟩,⟨256,.cr,false,none⟩,⟨256,.cr,true,none⟩]⟩,⟨[56,60],none,[],[⟨256,.other,false,some ⟨32,[.setEnt .internalNl,.cb,.code],none,false⟩⟩,⟨256,.ws,false,some ⟨33,[.setEnt .internalNl,.cb],none,false⟩⟩,⟨256,.lf,false,some ⟨56,[.setEnt .internalNl,.cb],none,false⟩⟩,⟨256,.vt,false,some ⟨32,[.setEnt .internalNl,.cb,.code],none,false⟩⟩,⟨256,.ff,false,some ⟨35,[.setEnt .internalNl,.cb],none,false⟩⟩,⟨256,.cr,false,some ⟨36,[.setEnt .internalNl,.cb],none,false⟩⟩,⟨256,.cr,true,some ⟨37,[.setEnt .internalNl,.cb],none,false⟩⟩,⟨256,.other,false,some ⟨38,[.setEnt .internalNl,.cb],none,false⟩⟩,⟨256,.other,false,some ⟨0,[.setEnt .internalNl,.cb,.commit,.code],some 2,true⟩⟩]⟩,⟨[63],none,[],[⟨256,.other,false,some ⟨57,[.code],none,false⟩⟩,⟨256,.ws,false,some ⟨57,[.code],none,false⟩⟩,⟨256,.lf,false,none⟩,⟨256,.vt,false,some ⟨57,[.code],none,false⟩⟩,⟨256,.ff,false,none⟩,⟨256,.cr,false,none⟩,⟨256,.cr,true,none⟩]⟩,⟨[33],none,[],[⟨256,.other,false,some ⟨11,[.setEnt .internalNl,.cb,.code],none,false⟩⟩,⟨256,.ws,false,some ⟨12,[.setEnt .internalNl,.cb],none,false⟩⟩,⟨256,.lf,false,some ⟨13,[.setEnt .internalNl,.cb],none,false⟩⟩,⟨256,.vt,false,some ⟨11,[.setEnt .internalNl,.cb,.code],none,false⟩⟩,⟨256,.ff,false,some ⟨14,[.setEnt .internalNl,.cb],none,false⟩⟩,⟨256,.cr,false,some ⟨15,[.setEnt .internalNl,.cb],none,false⟩⟩,⟨256,.cr,true,some ⟨16,[.setEnt .internalNl,.cb],none,false⟩⟩,⟨256,.other,false,some ⟨0,[.setEnt .internalNl,.cb,.commit,.code],some 2,true⟩⟩,⟨256,.other,false,some ⟨17,[.setEnt .internalNl,.cb],none,false⟩⟩]⟩,⟨[33,34],none,[],[⟨256,.other,false,some ⟨11,[.setEnt .internalNl,.cb,.code],none,false⟩⟩,⟨256,.ws,false,some ⟨12,[.setEnt .internalNl,.cb],none,false⟩⟩,⟨256,.lf,false,some ⟨13,[.setEnt .internalNl,.cb],none,false⟩⟩,⟨256,.vt,false,some ⟨11,[.setEnt .internalNl,.cb,.code],none,false⟩⟩,⟨256,.ff,false,some ⟨14,[.setEnt .internalNl,.cb],none,false⟩⟩,⟨256,.cr,false,some ⟨15,[.setEnt .internalNl,.cb],none,false⟩⟩,⟨256,.cr,true,some ⟨16,[.setEnt .internalNl,.cb],none,false⟩⟩,⟨256,.other,false,some ⟨0,[.setEnt .internalNl,.cb,.commit,.code],some 2,true⟩⟩,⟨256,.other,false,some ⟨17,[.setEnt .internalNl,.cb],none,false⟩⟩]⟩,⟨[40],none,[],[⟨256,.other,false,some ⟨11,[.code],none,false⟩⟩,⟨256,.ws,false,some ⟨12,[],none,false⟩⟩,⟨256,.lf,false,some ⟨13,[],none,false⟩⟩,⟨256,.vt,false,some ⟨11,[.code],none,false⟩⟩,⟨256,.ff,false,some ⟨14,[],none,false⟩⟩,⟨256,.cr,false,some ⟨15,[],none,false⟩⟩,⟨256,.cr,true,some ⟨16,[],none,false⟩⟩,⟨256,.other,false,some ⟨0,[.commit,.code],some 2,true⟩⟩,⟨256,.other,false,some ⟨17,[],none,false⟩⟩]⟩,⟨[51],none,[],[⟨256,.other,false,some ⟨42,[.code],none,false⟩⟩,⟨256,.ws,false,some ⟨43,[],none,false⟩⟩,⟨256,.lf,false,some ⟨44,[],none,false⟩⟩,⟨256,.vt,false,some ⟨42,[.code],none,false⟩⟩,⟨256,.ff,false,some ⟨45,[],none,false⟩⟩,⟨256,.cr,false,some ⟨46,[],none,false⟩⟩,⟨256,.cr,true,some ⟨47,[],none,false⟩⟩,⟨256,.other,false,some ⟨0,[.commit,.code],some 2,true⟩⟩,⟨256,.other,false,some ⟨48,[],none,false⟩⟩]⟩,⟨[50],none,[],[⟨256,.other,false,some ⟨42,[.code],none,false⟩⟩,⟨256,.ws,false,some ⟨43,[],none,false⟩⟩,⟨256,.lf,false,some ⟨44,[],none,false⟩⟩,⟨256,.vt,false,some ⟨42,[.code],none,false⟩⟩,⟨256,.ff,false,some ⟨45,[],none,false⟩⟩,⟨256,.cr,false,some ⟨46,[],none,false⟩⟩,⟨256,.cr,true,some ⟨47,[],none,false⟩⟩,⟨256,.other,false,some ⟨0,[.commit,.code],some 2,true⟩⟩,⟨256,.other,false,some ⟨48,[],none,false⟩⟩]⟩,⟨[47],none,[],[⟨256,.other,false,some ⟨42,[.setEnt .internalNl,.cb,.code],none,false⟩⟩,⟨256,.ws,false,some ⟨43,[.setEnt .internalNl,.cb],none,false⟩⟩,⟨256,.lf,false,some ⟨44,[.setEnt .internalNl,.cb],none,false⟩⟩,⟨256,.vt,false,some ⟨42,[.setEnt .internalNl,.cb,.code],none,false⟩⟩,⟨256,.ff,false,some ⟨45,[.setEnt .internalNl,.cb],none,false⟩⟩,⟨256,.cr,false,some ⟨46,[.setEnt .internalNl,.cb],none,false⟩⟩,⟨256,.cr,true,some ⟨47,[.setEnt .internalNl,.cb],none,false⟩⟩,⟨256,.other,false,some ⟨0,[.setEnt .internalNl,.cb,.commit,.code],some 2,true⟩⟩,⟨256,.other,false,some ⟨48,[.setEnt .internalNl,.cb],none,false⟩⟩]⟩,⟨[48],none,[],[⟨256,.other,false,some ⟨42,[.setEnt .internalNl,.cb,.code],none,false⟩⟩,⟨256,.ws,false,some ⟨43,[.setEnt .internalNl,.cb],none,false⟩⟩,⟨256,.lf,false,some ⟨44,[.setEnt .internalNl,.cb],none,false⟩⟩,⟨256,.vt,false,some ⟨42,[.setEnt .internalNl,.cb,.code],none,false⟩⟩,⟨256,.ff,false,some ⟨45,[.setEnt .internalNl,.cb],none,false⟩⟩,⟨256,.cr,false,some ⟨46,[.setEnt .internalNl,.cb],none,false⟩⟩,⟨256,.cr,true,some ⟨47,[.setEnt .internalNl,.cb],none,false⟩⟩,⟨256,.other,false,some ⟨0,[.setEnt .internalNl,.cb,.commit,.code],some 2,true⟩⟩,⟨256,.other,false,some ⟨48,[.setEnt .internalNl,.cb],none,false⟩⟩]⟩,⟨[45],none,[],[⟨256,.other,false,none⟩,⟨256,.ws,false,none⟩,⟨256,.lf,false,some ⟨58,[],none,false⟩⟩,⟨256,.vt,false,none⟩,⟨256,.ff,false,none⟩,⟨256,.cr,false,none⟩,⟨256,.cr,true,none⟩]⟩,⟨[45,49],none,[],[⟨256,.other,false,some ⟨42,[.setEnt .internalNl,.cb,.code],none,false⟩⟩,⟨256,.ws,false,some ⟨43,[.setEnt .internalNl,.cb],none,false⟩⟩,⟨256,.lf,false,some ⟨59,[.setEnt .internalNl,.cb],none,false⟩⟩,⟨256,.vt,false,some ⟨42,[.setEnt .internalNl,.cb,.code],none,false⟩⟩,⟨256,.ff,false,some ⟨45,[.setEnt .internalNl,.cb],none,false⟩⟩,⟨256,.cr,false,some ⟨46,[.setEnt .internalNl,.cb],none,false⟩⟩,⟨256,.cr,true,some ⟨47,[.setEnt .internalNl,.cb],none,false⟩⟩,⟨256,.other,false,some ⟨0,[.setEnt .internalNl,.cb,.commit,.code],some 2,true⟩⟩,⟨256,.other,false,some ⟨48,[.setEnt .internalNl,.cb],none,false⟩⟩]⟩,⟨[52],none,[],[⟨256,.other,false,some ⟨60,[.code],none,false⟩⟩,⟨256,.ws,false,some ⟨60,[.code],none,false⟩⟩,⟨256,.lf,false,none⟩,⟨256,.vt,false,some ⟨60,[.code],none,false⟩⟩,⟨256,.ff,false,none⟩,⟨256,.cr,false,none⟩,⟨256,.cr,true,none⟩]⟩,⟨[73],none,[],[⟨256,.other,false,some ⟨61,[.code],none,false⟩⟩,⟨256,.ws,false,some ⟨62,[],none,false⟩⟩,⟨256,.lf,false,some ⟨63,[],none,false⟩⟩,⟨256,.vt,false,some ⟨61,[.code],none,false⟩⟩,⟨256,.ff,false,some ⟨64,[],none,false⟩⟩,⟨256,.cr,false,some ⟨65,[],none,false⟩⟩,⟨256,.cr,true,some ⟨66,[],none,false⟩⟩,⟨256,.other,false,some ⟨0,[.commit,.code],some 2,true⟩⟩,⟨256,.other,false,some ⟨67,[],none,false⟩⟩]⟩,⟨[22],none,[],[⟨256,.other,false,some ⟨22,[.setEnt .internalNl,.cb,.code],none,false⟩⟩,⟨256,.ws,false,some ⟨23,[.setEnt .internalNl,.cb],none,false⟩⟩,⟨256,.lf,false,some ⟨24,[.setEnt .internalNl,.cb],none,false⟩⟩,⟨256,.vt,false,some ⟨22,[.setEnt .internalNl,.cb,.code],none,false⟩⟩,⟨256,.ff,false,some ⟨25,[.setEnt .internalNl,.cb],none,false⟩⟩,⟨256,.cr,false,some ⟨26,[.setEnt .internalNl,.cb],none,false⟩⟩,⟨256,.cr,true,some ⟨27,[.setEnt .internalNl,.cb],none,false⟩⟩,⟨256,.other,false,some ⟨0,[.setEnt .internalNl,.cb,.commit,.code],some 2,true⟩⟩,⟨256,.other,false,some ⟨28,[.setEnt .internalNl,.cb],none,false⟩⟩]⟩,⟨[22,23],none,[],[⟨256,.other,false,some ⟨22,[.setEnt .internalNl,.cb,.code],none,false⟩⟩,⟨256,.ws,false,some ⟨23,[.setEnt .internalNl,.cb],none,false⟩⟩,⟨256,.lf,false,some ⟨24,[.setEnt .internalNl,.cb],none,false⟩⟩,⟨256,.vt,false,some ⟨22,[.setEnt .internalNl,.cb,.code],none,false⟩⟩,⟨256,.ff,false,some ⟨25,[.setEnt .internalNl,.cb],none,false⟩⟩,⟨256,.cr,false,some ⟨26,[.setEnt .internalNl,.cb],none,false⟩⟩,⟨256,.cr,true,some ⟨27,[.setEnt .internalNl,.cb],none,false⟩⟩,⟨256,.other,false,some ⟨0,[.setEnt .internalNl,.cb,.commit,.code],some 2,true⟩⟩,⟨256,.other,false,some ⟨28,[.setEnt .internalNl,.cb],none,false⟩⟩]⟩,⟨[29],none,[],[⟨256,.other,false,some ⟨22,[.code],none,false⟩⟩,⟨256,.ws,false,some ⟨23,[],none,false⟩⟩,⟨256,.lf,false,some ⟨24,[],none,false⟩⟩,⟨256,.vt,false,some ⟨22,[.code],none,false⟩⟩,⟨256,.ff,false,some ⟨25,[],none,false⟩⟩,⟨256,.cr,false,some ⟨26,[],none,false⟩⟩,⟨256,.cr,true,some ⟨27,[],none,false⟩⟩,⟨256,.other,false,some ⟨0,[.commit,.code],some 2,true⟩⟩,⟨256,.other,false,some ⟨28,[],none,false⟩⟩]⟩,⟨[69],none,[],[⟨256,.other,false,some ⟨29,[],none,false⟩⟩,⟨256,.ws,false,some ⟨29,[],none,false⟩⟩,⟨256,.lf,false,none⟩,⟨256,.vt,false,some ⟨29,[],none,false⟩⟩,⟨256,.ff,false,none⟩,⟨256,.cr,false,none⟩,⟨256,.cr,true,none⟩,⟨256,.other,false,some ⟨0,[.code],some 2,true⟩⟩,⟨256,.other,false,some ⟨30,[],none,false⟩⟩]⟩,⟨[5],none,[],[⟨256,.other,false,none⟩,⟨256,.ws,false,none⟩,⟨256,.lf,false,none⟩,⟨256,.vt,false,none⟩,⟨256,.ff,false,none⟩,⟨256,.cr,false,none⟩,⟨256,.cr,true,none⟩,⟨256,.other,false,some ⟨68,[],none,false⟩⟩]⟩,⟨[57],none,[],[⟨256,.other,false,some ⟨32,[.setEnt .internalNl,.cb,.code],none,false⟩⟩,⟨256,.ws,false,some ⟨33,[.setEnt .internalNl,.cb],none,false⟩⟩,⟨256,.lf,false,some ⟨34,[.setEnt .internalNl,.cb],none,false⟩⟩,⟨256,.vt,false,some ⟨32,[.setEnt .internalNl,.cb,.code],none,false⟩⟩,⟨256,.ff,false,some ⟨35,[.setEnt .internalNl,.cb],none,false⟩⟩,⟨256,.cr,false,some ⟨36,[.setEnt .internalNl,.cb],none,false⟩⟩,⟨256,.cr,true,some ⟨37,[.setEnt .internalNl,.cb],none,false⟩⟩,⟨256,.other,false,some ⟨38,[.setEnt .internalNl,.cb],none,false⟩⟩,⟨256,.other,false,some ⟨0,[.setEnt .internalNl,.cb,.commit,.code],some 2,true⟩⟩]⟩,⟨[57,58],none,[],[⟨256,.other,false,some ⟨32,[.setEnt .internalNl,.cb,.code],none,false⟩⟩,⟨256,.ws,false,some ⟨33,[.setEnt .internalNl,.cb],none,false⟩⟩,⟨256,.lf,false,some ⟨34,[.setEnt .internalNl,.cb],none,false⟩⟩,⟨256,.vt,false,some ⟨32,[.setEnt .internalNl,.cb,.code],none,false⟩⟩,⟨256,.ff,false,some ⟨35,[.setEnt .internalNl,.cb],none,false⟩⟩,⟨256,.cr,false,some ⟨36,[.setEnt .internalNl,.cb],none,false⟩⟩,⟨256,.cr,true,some ⟨37,[.setEnt .internalNl,.cb],none,false⟩⟩,⟨256,.other,false,some ⟨38,[.setEnt .internalNl,.cb],none,false⟩⟩,⟨256,.other,false,some ⟨0,[.setEnt .internalNl,.cb,.commit,.code],some 2,true⟩⟩]⟩,⟨[64],none,[],[⟨256,.other,false,some ⟨32,[.code],none,false⟩⟩,⟨256,.ws,false,some ⟨33,[],none,false⟩⟩,⟨256,.lf,false,some ⟨34,[],none,false⟩⟩,⟨256,.vt,false,some ⟨32,[.code],none,false⟩⟩,⟨256,.ff,false,some ⟨35,[],none,false⟩⟩,⟨256,.cr,false,some ⟨36,[],none,false⟩⟩,⟨256,.cr,true,some ⟨37,[],none,false⟩⟩,⟨256,.other,false,some ⟨38,[],none,false⟩⟩,⟨256,.other,false,some ⟨0,[.commit,.code],some 2,true⟩⟩]⟩,⟨[46],none,[],[⟨256,.other,false,some ⟨42,[.setEnt .internalNl,.cb,.code],none,false⟩⟩,⟨256,.ws,false,some ⟨43,[.setEnt .internalNl,.cb],none,false⟩⟩,⟨256,.lf,false,some ⟨44,[.setEnt .internalNl,.cb],none,false⟩⟩,⟨256,.vt,false,some ⟨42,[.setEnt .internalNl,.cb,.code],none,false⟩⟩,⟨256,.ff,false,some ⟨45,[.setEnt .internalNl,.cb],none,false⟩⟩,⟨256,.cr,false,some ⟨46,[.setEnt .internalNl,.cb],none,false⟩⟩,⟨256,.cr,true,some ⟨47,[.setEnt .internalNl,.cb],none,false⟩⟩,⟨256,.other,false,some ⟨0,[.setEnt .internalNl,.cb,.commit,.code],some 2,true⟩⟩,⟨256,.other,false,some ⟨48,[.setEnt .internalNl,.cb],none,false⟩⟩]⟩,⟨[46,47],none,[],[⟨256,.other,false,some ⟨42,[.setEnt .internalNl,.cb,.code],none,false⟩⟩,⟨256,.ws,false,some ⟨43,[.setEnt .internalNl,.cb],none,false⟩⟩,⟨256,.lf,false,some ⟨44,[.setEnt .internalNl,.cb],none,false⟩⟩,⟨256,.vt,false,some ⟨42,[.setEnt .internalNl,.cb,.code],none,false⟩⟩,⟨256,.ff,false,some ⟨45,[.setEnt .internalNl,.cb],none,false⟩⟩,⟨256,.cr,false,some ⟨46,[.setEnt .internalNl,.cb],none,false⟩⟩,⟨256,.cr,true,some ⟨47,[.setEnt .internalNl,.cb],none,false⟩⟩,⟨256,.other,false,some ⟨0,[.setEnt .internalNl,.cb,.commit,.code],some 2,true⟩⟩,⟨256,.other,false,some ⟨48,[.setEnt .internalNl,.cb],none,false⟩⟩]⟩,⟨[53],none,[],[⟨256,.other,false,some ⟨42,[.code],none,false⟩⟩,⟨256,.ws,false,some ⟨43,[],none,false⟩⟩,⟨256,.lf,false,some ⟨44,[],none,false⟩⟩,⟨256,.vt,false,some ⟨42,[.code],none,false⟩⟩,⟨256,.ff,false,some ⟨45,[],none,false⟩⟩,⟨256,.cr,false,some ⟨46,[],none,false⟩⟩,⟨256,.cr,true,some ⟨47,[],none,false⟩⟩,⟨256,.other,false,some ⟨0,[.commit,.code],some 2,true⟩⟩,⟨256,.other,false,some ⟨48,[],none,false⟩⟩]⟩,⟨[80],none,[],[⟨256,.other,false,some ⟨61,[.code],none,false⟩⟩,⟨256,.ws,false,some ⟨62,[],none,false⟩⟩,⟨256,.lf,false,some ⟨63,[],none,false⟩⟩,⟨256,.vt,false,some ⟨61,[.code],none,false⟩⟩,⟨256,.ff,false,some ⟨64,[],none,false⟩⟩,⟨256,.cr,false,some ⟨65,[],none,false⟩⟩,⟨256,.cr,true,some ⟨66,[],none,false⟩⟩,⟨256,.other,false,some ⟨0,[.commit,.code],some 2,true⟩⟩,⟨256,.other,false,some ⟨67,[],none,false⟩⟩]⟩,⟨[79],none,[],[⟨256,.other,false,some ⟨61,[.code],none,false⟩⟩,⟨256,.ws,false,some ⟨62,[],none,false⟩⟩,⟨256,.lf,false,some ⟨63,[],none,false⟩⟩,⟨256,.vt,false,some ⟨61,[.code],none,false⟩⟩,⟨256,.ff,false,some ⟨64,[],none,false⟩⟩,⟨256,.cr,false,some ⟨65,[],none,false⟩⟩,⟨256,.cr,true,some ⟨66,[],none,false⟩⟩,⟨256,.other,false,some ⟨0,[.commit,.code],some 2,true⟩⟩,⟨256,.other,false,some ⟨67,[],none,false⟩⟩]⟩,⟨[76],none,[],[⟨256,.other,false,some ⟨61,[.setEnt .internalNl,.cb,.code],none,false⟩⟩,⟨256,.ws,false,some ⟨62,[.setEnt .internalNl,.cb],none,false⟩⟩,⟨256,.lf,false,some ⟨63,[.setEnt .internalNl,.cb],none,false⟩⟩,⟨256,.vt,false,some ⟨61,[.setEnt .internalNl,.cb,.code],none,false⟩⟩,⟨256,.ff,false,some ⟨64,[.setEnt .internalNl,.cb],none,false⟩⟩,⟨256,.cr,false,some ⟨65,[.setEnt .internalNl,.cb],none,false⟩⟩,⟨256,.cr,true,some ⟨66,[.setEnt .internalNl,.cb],none,false⟩⟩,⟨256,.other,false,some ⟨0,[.setEnt .internalNl,.cb,.commit,.code],some 2,true⟩⟩,⟨256,.other,false,some ⟨67,[.setEnt .internalNl,.cb],none,false⟩⟩]⟩,⟨[77],none,[],[⟨256,.other,false,some ⟨61,[.setEnt .internalNl,.cb,.code],none,false⟩⟩,⟨256,.ws,false,some ⟨62,[.setEnt .internalNl,.cb],none,false⟩⟩,⟨256,.lf,false,some ⟨63,[.setEnt .internalNl,.cb],none,false⟩⟩,⟨256,.vt,false,some ⟨61,[.setEnt .internalNl,.cb,.code],none,false⟩⟩,⟨256,.ff,false,some ⟨64,[.setEnt .internalNl,.cb],none,false⟩⟩,⟨256,.cr,false,some ⟨65,[.setEnt .internalNl,.cb],none,false⟩⟩,⟨256,.cr,true,some ⟨66,[.setEnt .internalNl,.cb],none,false⟩⟩,⟨256,.other,false,some ⟨0,[.setEnt .internalNl,.cb,.commit,.code],some 2,true⟩⟩,⟨256,.other,false,some ⟨67,[.setEnt .internalNl,.cb],none,false⟩⟩]⟩,⟨[74],none,[],[⟨256,.other,false,none⟩,⟨256,.ws,false,none⟩,⟨256,.lf,false,some ⟨69,[],none,false⟩⟩,⟨256,.vt,false,none⟩,⟨256,.ff,false,none⟩,⟨256,.cr,false,none⟩,⟨256,.cr,true,none⟩]⟩,⟨[74,78],none,[],[⟨256,.other,false,some ⟨61,[.setEnt .internalNl,.cb,.code],none,false⟩⟩,⟨256,.ws,false,some ⟨62,[.setEnt .internalNl,.cb],none,false⟩⟩,⟨256,.lf,false,some ⟨70,[.setEnt .internalNl,.cb],none,false⟩⟩,⟨256,.vt,false,some ⟨61,[.setEnt .internalNl,.cb,.code],none,false⟩⟩,⟨256,.ff,false,some ⟨64,[.setEnt .internalNl,.cb],none,false⟩⟩,⟨256,.cr,false,some ⟨65,[.setEnt .internalNl,.cb],none,false⟩⟩,⟨256,.cr,true,some ⟨66,[.setEnt .internalNl,.cb],none,false⟩⟩,⟨256,.other,false,some ⟨0,[.setEnt .internalNl,.cb,.commit,.code],some 2,true⟩⟩,⟨256,.other,false,some ⟨67,[.setEnt .internalNl,.cb],none,false⟩⟩]⟩,⟨[81],none,[],[⟨256,.other,false,some ⟨71,[.code],none,false⟩⟩,⟨256,.ws,false,some ⟨71,[.code],none,false⟩⟩,⟨256,.lf,false,none⟩,⟨256,.vt,false,some ⟨71,[.code],none,false⟩⟩,⟨256,.ff,false,none⟩,⟨256,.cr,false,none⟩,⟨256,.cr,true,none⟩]⟩,⟨[6],none,[],[⟨256,.other,false,none⟩,⟨256,.ws,false,none⟩,⟨256,.lf,false,none⟩,⟨256,.vt,false,none⟩,⟨256,.ff,false,none⟩,⟨256,.cr,false,none⟩,⟨256,.cr,true,none⟩,⟨256,.other,false,some ⟨72,[],none,false⟩⟩]⟩,⟨[75],none,[],[⟨256,.other,false,some ⟨61,[.setEnt .internalNl,.cb,.code],none,false⟩⟩,⟨256,.ws,false,some ⟨62,[.setEnt .internalNl,.cb],none,false⟩⟩,⟨256,.lf,false,some ⟨63,[.setEnt .internalNl,.cb],none,false⟩⟩,⟨256,.vt,false,some ⟨61,[.setEnt .internalNl,.cb,.code],none,false⟩⟩,⟨256,.ff,false,some ⟨64,[.setEnt .internalNl,.cb],none,false⟩⟩,⟨256,.cr,false,some ⟨65,[.setEnt .internalNl,.cb],none,false⟩⟩,⟨256,.cr,true,some ⟨66,[.setEnt .internalNl,.cb],none,false⟩⟩,⟨256,.other,false,some ⟨0,[.setEnt .internalNl,.cb,.commit,.code],some 2,true⟩⟩,⟨256,.other,false,some ⟨67,[.setEnt .internalNl,.cb],none,false⟩⟩]⟩,⟨[75,76],none,[],[⟨256,.other,false,some ⟨61,[.setEnt .internalNl,.cb,.code],none,false⟩⟩,⟨256,.ws,false,some ⟨62,[.setEnt .internalNl,.cb],none,false⟩⟩,⟨256,.lf,false,some ⟨63,[.setEnt .internalNl,.cb],none,false⟩⟩,⟨256,.vt,false,some ⟨61,[.setEnt .internalNl,.cb,.code],none,false⟩⟩,⟨256,.ff,false,some ⟨64,[.setEnt .internalNl,.cb],none,false⟩⟩,⟨256,.cr,false,some ⟨65,[.setEnt .internalNl,.cb],none,false⟩⟩,⟨256,.cr,true,some ⟨66,[.setEnt .internalNl,.cb],none,false⟩⟩,⟨256,.other,false,some ⟨0,[.setEnt .internalNl,.cb,.commit,.code],some 2,true⟩⟩,⟨256,.other,false,some ⟨67,[.setEnt .internalNl,.cb],none,false⟩⟩]⟩,⟨[82],none,[],[⟨256,.other,false,some ⟨61,[.code],none,false⟩⟩,⟨256,.ws,false,some ⟨62,[],none,false⟩⟩,⟨256,.lf,false,some ⟨63,[],none,false⟩⟩,⟨256,.vt,false,some ⟨61,[.code],none,false⟩⟩,⟨256,.ff,false,some ⟨64,[],none,false⟩⟩,⟨256,.cr,false,some ⟨65,[],none,false⟩⟩,⟨256,.cr,true,some ⟨66,[],none,false⟩⟩,⟨256,.other,false,some ⟨0,[.commit,.code],some 2,true⟩⟩,⟨256,.other,false,some ⟨67,[],none,false⟩⟩]⟩,⟨[7],none,[],[⟨256,.other,false,none⟩,⟨256,.ws,false,none⟩,⟨256,.lf,false,none⟩,⟨256,.vt,false,none⟩,⟨256,.ff,false,none⟩,⟨256,.cr,false,none⟩,⟨256,.cr,true,none⟩,⟨256,.other,false,some ⟨73,[.enqueue,.comment],none,false⟩⟩]⟩,⟨[8],none,[],[⟨256,.other,false,some ⟨74,[.comment],none,false⟩⟩,⟨256,.ws,false,some ⟨75,[],none,false⟩⟩,⟨256,.lf,false,some ⟨76,[],none,false⟩⟩,⟨256,.vt,false,some ⟨74,[.comment],none,false⟩⟩,⟨256,.ff,false,some ⟨77,[],none,false⟩⟩,⟨256,.cr,false,some ⟨78,[],none,false⟩⟩,⟨256,.cr,true,some ⟨79,[],none,false⟩⟩,⟨256,.other,false,some ⟨80,[.comment],none,false⟩⟩]⟩,⟨[15],none,[],[⟨256,.other,false,some ⟨74,[.comment],none,false⟩⟩,⟨256,.ws,false,some ⟨75,[],none,false⟩⟩,⟨256,.lf,false,some ⟨76,[],none,false⟩⟩,⟨256,.vt,false,some ⟨74,[.comment],none,false⟩⟩,⟨256,.ff,false,some ⟨77,[],none,false⟩⟩,⟨256,.cr,false,some ⟨78,[],none,false⟩⟩,⟨256,.cr,true,some ⟨79,[],none,false⟩⟩,⟨256,.other,false,some ⟨80,[.comment],none,false⟩⟩]⟩,⟨[14],none,[],[⟨256,.other,false,some ⟨74,[.comment],none,false⟩⟩,⟨256,.ws,false,some ⟨75,[],none,false⟩⟩,⟨256,.lf,false,some ⟨76,[],none,false⟩⟩,⟨256,.vt,false,some ⟨74,[.comment],none,false⟩⟩,⟨256,.ff,false,some ⟨77,[],none,false⟩⟩,⟨256,.cr,false,some ⟨78,[],none,false⟩⟩,⟨256,.cr,true,some ⟨79,[],none,false⟩⟩,⟨256,.other,false,some ⟨80,[.comment],none,false⟩⟩]⟩,⟨[11],none,[],[⟨256,.other,false,some ⟨74,[.setEnt .internalNl,.cb,.comment],none,false⟩⟩,⟨256,.ws,false,some ⟨75,[.setEnt .internalNl,.cb],none,false⟩⟩,⟨256,.lf,false,some ⟨76,[.setEnt .internalNl,.cb],none,false⟩⟩,⟨256,.vt,false,some ⟨74,[.setEnt .internalNl,.cb,.comment],none,false⟩⟩,⟨256,.ff,false,some ⟨77,[.setEnt .internalNl,.cb],none,false⟩⟩,⟨256,.cr,false,some ⟨78,[.setEnt .internalNl,.cb],none,false⟩⟩,⟨256,.cr,true,some ⟨79,[.setEnt .internalNl,.cb],none,false⟩⟩,⟨256,.other,false,some ⟨80,[.setEnt .internalNl,.cb,.comment],none,false⟩⟩]⟩,⟨[12],none,[],[⟨256,.other,false,some ⟨74,[.setEnt .internalNl,.cb,.comment],none,false⟩⟩,⟨256,.ws,false,some ⟨75,[.setEnt .internalNl,.cb],none,false⟩⟩,⟨256,.lf,false,some ⟨76,[.setEnt .internalNl,.cb],none,false⟩⟩,⟨256,.vt,false,some ⟨74,[.setEnt .internalNl,.cb,.comment],none,false⟩⟩,⟨256,.ff,false,some ⟨77,[.setEnt .internalNl,.cb],none,false⟩⟩,⟨256,.cr,false,some ⟨78,[.setEnt .internalNl,.cb],none,false⟩⟩,⟨256,.cr,true,some ⟨79,[.setEnt .internalNl,.cb],none,false⟩⟩,⟨256,.other,false,some ⟨80,[.setEnt .internalNl,.cb,.comment],none,false⟩⟩]⟩,⟨[9],none,[],[⟨256,.other,false,none⟩,⟨256,.ws,false,none⟩,⟨256,.lf,false,some ⟨81,[],none,false⟩⟩,⟨256,.vt,false,none⟩,⟨256,.ff,false,none⟩,⟨256,.cr,false,none⟩,⟨256,.cr,true,none⟩]⟩,⟨[9,13],none,[],[⟨256,.other,false,some ⟨74,[.setEnt .internalNl,.cb,.comment],none,false⟩⟩,⟨256,.ws,false,some ⟨75,[.setEnt .internalNl,.cb],none,false⟩⟩,⟨256,.lf,false,some ⟨82,[.setEnt .internalNl,.cb],none,false⟩⟩,⟨256,.vt,false,some ⟨74,[.setEnt .internalNl,.cb,.comment],none,false⟩⟩,⟨256,.ff,false,some ⟨77,[.setEnt .internalNl,.cb],none,false⟩⟩,⟨256,.cr,false,some ⟨78,[.setEnt .internalNl,.cb],none,false⟩⟩,⟨256,.cr,true,some ⟨79,[.setEnt .internalNl,.cb],none,false⟩⟩,⟨256,.other,false,some ⟨80,[.setEnt .internalNl,.cb,.comment],none,false⟩⟩]⟩,⟨[15,16],none,[],[⟨256,.other,false,some ⟨74,[.comment],none,false⟩⟩,⟨256,.ws,false,some ⟨75,[],none,false⟩⟩,⟨256,.lf,false,some ⟨76,[],none,false⟩⟩,⟨256,.vt,false,some ⟨74,[.comment],none,false⟩⟩,⟨256,.ff,false,some ⟨77,[],none,false⟩⟩,⟨256,.cr,false,some ⟨78,[],none,false⟩⟩,⟨256,.cr,true,some ⟨79,[],none,false⟩⟩,⟨256,.other,false,some ⟨80,[.comment],none,false⟩⟩,⟨256,.other,false,some ⟨83,[.comment],none,false⟩⟩]⟩,⟨[10],none,[],[⟨256,.other,false,some ⟨74,[.setEnt .internalNl,.cb,.comment],none,false⟩⟩,⟨256,.ws,false,some ⟨75,[.setEnt .internalNl,.cb],none,false⟩⟩,⟨256,.lf,false,some ⟨76,[.setEnt .internalNl,.cb],none,false⟩⟩,⟨256,.vt,false,some ⟨74,[.setEnt .internalNl,.cb,.comment],none,false⟩⟩,⟨256,.ff,false,some ⟨77,[.setEnt .internalNl,.cb],none,false⟩⟩,⟨256,.cr,false,some ⟨78,[.setEnt .internalNl,.cb],none,false⟩⟩,⟨256,.cr,true,some ⟨79,[.setEnt .internalNl,.cb],none,false⟩⟩,⟨256,.other,false,some ⟨80,[.setEnt .internalNl,.cb,.comment],none,false⟩⟩]⟩,⟨[10,11],none,[],[⟨256,.other,false,some ⟨74,[.setEnt .internalNl,.cb,.comment],none,false⟩⟩,⟨256,.ws,false,some ⟨75,[.setEnt .internalNl,.cb],none,false⟩⟩,⟨256,.lf,false,some ⟨76,[.setEnt .internalNl,.cb],none,false⟩⟩,⟨256,.vt,false,some ⟨74,[.setEnt .internalNl,.cb,.comment],none,false⟩⟩,⟨256,.ff,false,some ⟨77,[.setEnt .internalNl,.cb],none,false⟩⟩,⟨256,.cr,false,some ⟨78,[.setEnt .internalNl,.cb],none,false⟩⟩,⟨256,.cr,true,some ⟨79,[.setEnt .internalNl,.cb],none,false⟩⟩,⟨256,.other,false,some ⟨80,[.setEnt .internalNl,.cb,.comment],none,false⟩⟩]⟩,⟨[15,17],none,[],[⟨256,.other,false,some ⟨74,[.comment],none,false⟩⟩,⟨256,.ws,false,some ⟨75,[],none,false⟩⟩,⟨256,.lf,false,some ⟨76,[],none,false⟩⟩,⟨256,.vt,false,some ⟨74,[.comment],none,false⟩⟩,⟨256,.ff,false,some ⟨77,[],none,false⟩⟩,⟨256,.cr,false,some ⟨78,[],none,false⟩⟩,⟨256,.cr,true,some ⟨79,[],none,false⟩⟩,⟨256,.other,false,some ⟨80,[.comment],none,false⟩⟩,⟨256,.other,false,some ⟨84,[.comment],none,false⟩⟩]⟩,⟨[15,18],none,[],[⟨256,.other,false,some ⟨74,[.comment],none,false⟩⟩,⟨256,.ws,false,some ⟨75,[],none,false⟩⟩,⟨256,.lf,false,some ⟨76,[],none,false⟩⟩,⟨256,.vt,false,some ⟨74,[.comment],none,false⟩⟩,⟨256,.ff,false,some ⟨77,[],none,false⟩⟩,⟨256,.cr,false,some ⟨78,[],none,false⟩⟩,⟨256,.cr,true,some ⟨79,[],none,false⟩⟩,⟨256,.other,false,some ⟨80,[.comment],none,false⟩⟩,⟨256,.other,false,some ⟨0,[.commit],some 1,true⟩⟩]⟩]
theorem ruby_line_rowsOk : rowsOk ruby_line_nfa [] (ruby_line_cs.map (·.1)) ruby_line_rows = true := by decide +kernel
def ruby_line_D : Dfa ruby_line_M.nfa := ⟨ruby_line_masks, [], ruby_line_cs, ruby_line_rows, ruby_line_masksIn, ruby_line_repOk, ruby_line_rowsOk⟩

def sql_line_nfa : Nfa := ⟨[⟨0,4294967808,[],[(0,.setEnt (.own 0))],0,0⟩,⟨1,35184372088832,[],[],0,0⟩,⟨3,34359738368,[],[(1,.comment)],0,0⟩,⟨4,140737488355328,[],[],0,0⟩,⟨7,140737488355328,[],[],0,2⟩,⟨18,10633823966279326983230456482242756608,[],[(6,.comment)],0,4⟩,⟨27,549755813888,[],[(10,.code)],0,0⟩,⟨32,17179869184,[],[(11,.code)],0,0⟩,⟨37,8192,[],[(12,.setEnt .newline)],0,0⟩,⟨39,1024,[],[(12,.setEnt .newline)],0,0⟩,⟨40,4096,[],[(12,.setEnt .newline)],0,0⟩,⟨41,8192,[.crAlone],[(12,.setEnt .newline)],0,0⟩,⟨42,115792089237316195423570985008687907853269984665640564039457584007908834656767,[],[(13,.setEnt (.own 3))],0,0⟩],[[⟨0,4294967808,[],[(0,.setEnt (.own 0))],0,0⟩],[⟨2,35184372088832,[],[(1,.comment)],0,0⟩],[⟨6,115792089237316195423570985008687907853269984665640564039457584007913129626623,[],[],0,0⟩],[⟨6,115792089237316195423570985008687907853269984665640564039457584007913129626623,[],[],0,0⟩],[⟨5,140737488355328,[],[(1,.comment)],0,0⟩],[⟨6,115792089237316195423570985008687907853269984665640564039457584007913129626623,[],[],0,0⟩],[⟨6,115792089237316195423570985008687907853269984665640564039457584007913129626623,[],[],0,0⟩],[⟨8,4398046511104,[],[(2,.comment)],0,2⟩],[⟨9,8192,[],[],0,2⟩,⟨11,1024,[],[],0,2⟩,⟨12,4096,[],[],0,2⟩,⟨13,8192,[.crAlone],[],0,2⟩,⟨14,4294967808,[],[],0,2⟩,⟨15,115792089237316195423570985008687907853269984665640564039457584007908834658815,[],[(5,.comment)],0,2⟩,⟨16,4398046511104,[],[],0,2⟩],[⟨10,1024,[],[],0,2⟩],[⟨9,8192,[],[(3,.setEnt .internalNl),(4,.cb)],0,2⟩,⟨11,1024,[],[(3,.setEnt .internalNl),(4,.cb)],0,2⟩,⟨12,4096,[],[(3,.setEnt .internalNl),(4,.cb)],0,2⟩,⟨13,8192,[.crAlone],[(3,.setEnt .internalNl),(4,.cb)],0,2⟩,⟨14,4294967808,[],[(3,.setEnt .internalNl),(4,.cb)],0,2⟩,⟨15,115792089237316195423570985008687907853269984665640564039457584007908834658815,[],[(3,.setEnt .internalNl),(4,.cb),(5,.comment)],0,2⟩,⟨16,4398046511104,[],[(3,.setEnt .internalNl),(4,.cb)],0,2⟩],[⟨9,8192,[],[(3,.setEnt .internalNl),(4,.cb)],0,2⟩,⟨11,1024,[],[(3,.setEnt .internalNl),(4,.cb)],0,2⟩,⟨12,4096,[],[(3,.setEnt .internalNl),(4,.cb)],0,2⟩,⟨13,8192,[.crAlone],[(3,.setEnt .internalNl),(4,.cb)],0,2⟩,⟨14,4294967808,[],[(3,.setEnt .internalNl),(4,.cb)],0,2⟩,⟨15,115792089237316195423570985008687907853269984665640564039457584007908834658815,[],[(3,.setEnt .internalNl),(4,.cb),(5,.comment)],0,2⟩,⟨16,4398046511104,[],[(3,.setEnt .internalNl),(4,.cb)],0,2⟩],[⟨9,8192,[],[(3,.setEnt .internalNl),(4,.cb)],0,2⟩,⟨11,1024,[],[(3,.setEnt .internalNl),(4,.cb)],0,2⟩,⟨12,4096,[],[(3,.setEnt .internalNl),(4,.cb)],0,2⟩,⟨13,8192,[.crAlone],[(3,.setEnt .internalNl),(4,.cb)],0,2⟩,⟨14,4294967808,[],[(3,.setEnt .internalNl),(4,.cb)],0,2⟩,⟨15,115792089237316195423570985008687907853269984665640564039457584007908834658815,[],[(3,.setEnt .internalNl),(4,.cb),(5,.comment)],0,2⟩,⟨16,4398046511104,[],[(3,.setEnt .internalNl),(4,.cb)],0,2⟩],[⟨9,8192,[],[(3,.setEnt .internalNl),(4,.cb)],0,2⟩,⟨11,1024,[],[(3,.setEnt .internalNl),(4,.cb)],0,2⟩,⟨12,4096,[],[(3,.setEnt .internalNl),(4,.cb)],0,2⟩,⟨13,8192,[.crAlone],[(3,.setEnt .internalNl),(4,.cb)],0,2⟩,⟨14,4294967808,[],[(3,.setEnt .internalNl),(4,.cb)],0,2⟩,⟨15,115792089237316195423570985008687907853269984665640564039457584007908834658815,[],[(3,.setEnt .internalNl),(4,.cb),(5,.comment)],0,2⟩,⟨16,4398046511104,[],[(3,.setEnt .internalNl),(4,.cb)],0,2⟩],[⟨9,8192,[],[],0,2⟩,⟨11,1024,[],[],0,2⟩,⟨12,4096,[],[],0,2⟩,⟨13,8192,[.crAlone],[],0,2⟩,⟨14,4294967808,[],[],0,2⟩,⟨15,115792089237316195423570985008687907853269984665640564039457584007908834658815,[],[(5,.comment)],0,2⟩,⟨16,4398046511104,[],[],0,2⟩],[⟨9,8192,[],[],0,2⟩,⟨11,1024,[],[],0,2⟩,⟨12,4096,[],[],0,2⟩,⟨13,8192,[.crAlone],[],0,2⟩,⟨14,4294967808,[],[],0,2⟩,⟨15,115792089237316195423570985008687907853269984665640564039457584007908834658815,[],[(5,.comment)],0,2⟩,⟨16,4398046511104,[],[],0,2⟩],[⟨17,140737488355328,[],[],2,0⟩],[],[⟨19,8192,[],[],0,4⟩,⟨21,1024,[],[],0,4⟩,⟨22,4096,[],[],0,4⟩,⟨23,8192,[.crAlone],[],0,4⟩,⟨24,4294967808,[],[],0,4⟩,⟨25,115792089237316195423570985008687907853269984665640564039457584007908834658815,[],[(9,.comment)],0,4⟩,⟨26,42535295865117307932921825928971026432,[],[],4,0⟩],[⟨20,1024,[],[],0,4⟩],[⟨19,8192,[],[(7,.setEnt .internalNl),(8,.cb)],0,4⟩,⟨21,1024,[],[(7,.setEnt .internalNl),(8,.cb)],0,4⟩,⟨22,4096,[],[(7,.setEnt .internalNl),(8,.cb)],0,4⟩,⟨23,8192,[.crAlone],[(7,.setEnt .internalNl),(8,.cb)],0,4⟩,⟨24,4294967808,[],[(7,.setEnt .internalNl),(8,.cb)],0,4⟩,⟨25,115792089237316195423570985008687907853269984665640564039457584007908834658815,[],[(7,.setEnt .internalNl),(8,.cb),(9,.comment)],0,4⟩,⟨26,42535295865117307932921825928971026432,[],[(7,.setEnt .internalNl),(8,.cb)],4,0⟩],[⟨19,8192,[],[(7,.setEnt .internalNl),(8,.cb)],0,4⟩,⟨21,1024,[],[(7,.setEnt .internalNl),(8,.cb)],0,4⟩,⟨22,4096,[],[(7,.setEnt .internalNl),(8,.cb)],0,4⟩,⟨23,8192,[.crAlone],[(7,.setEnt .internalNl),(8,.cb)],0,4⟩,⟨24,4294967808,[],[(7,.setEnt .internalNl),(8,.cb)],0,4⟩,⟨25,115792089237316195423570985008687907853269984665640564039457584007908834658815,[],[(7,.setEnt .internalNl),(8,.cb),(9,.comment)],0,4⟩,⟨26,42535295865117307932921825928971026432,[],[(7,.setEnt .internalNl),(8,.cb)],4,0⟩],[⟨19,8192,[],[(7,.setEnt .internalNl),(8,.cb)],0,4⟩,⟨21,1024,[],[(7,.setEnt .internalNl),(8,.cb)],0,4⟩,⟨22,4096,[],[(7,.setEnt .internalNl),(8,.cb)],0,4⟩,⟨23,8192,[.crAlone],[(7,.setEnt .internalNl),(8,.cb)],0,4⟩,⟨24,4294967808,[],[(7,.setEnt .internalNl),(8,.cb)],0,4⟩,⟨25,115792089237316195423570985008687907853269984665640564039457584007908834658815,[],[(7,.setEnt .internalNl),(8,.cb),(9,.comment)],0,4⟩,⟨26,42535295865117307932921825928971026432,[],[(7,.setEnt .internalNl),(8,.cb)],4,0⟩],[⟨19,8192,[],[(7,.setEnt .internalNl),(8,.cb)],0,4⟩,⟨21,1024,[],[(7,.setEnt .internalNl),(8,.cb)],0,4⟩,⟨22,4096,[],[(7,.setEnt .internalNl),(8,.cb)],0,4⟩,⟨23,8192,[.crAlone],[(7,.setEnt .internalNl),(8,.cb)],0,4⟩,⟨24,4294967808,[],[(7,.setEnt .internalNl),(8,.cb)],0,4⟩,⟨25,115792089237316195423570985008687907853269984665640564039457584007908834658815,[],[(7,.setEnt .internalNl),(8,.cb),(9,.comment)],0,4⟩,⟨26,42535295865117307932921825928971026432,[],[(7,.setEnt .internalNl),(8,.cb)],4,0⟩],[⟨19,8192,[],[],0,4⟩,⟨21,1024,[],[],0,4⟩,⟨22,4096,[],[],0,4⟩,⟨23,8192,[.crAlone],[],0,4⟩,⟨24,4294967808,[],[],0,4⟩,⟨25,115792089237316195423570985008687907853269984665640564039457584007908834658815,[],[(9,.comment)],0,4⟩,⟨26,42535295865117307932921825928971026432,[],[],4,0⟩],[⟨19,8192,[],[],0,4⟩,⟨21,1024,[],[],0,4⟩,⟨22,4096,[],[],0,4⟩,⟨23,8192,[.crAlone],[],0,4⟩,⟨24,4294967808,[],[],0,4⟩,⟨25,115792089237316195423570985008687907853269984665640564039457584007908834658815,[],[(9,.comment)],0,4⟩,⟨26,42535295865117307932921825928971026432,[],[],4,0⟩],[],[⟨28,115792089237316195423570985008687907853269984665635612279300442486263777315839,[],[],0,0⟩,⟨29,4951760157141521099596496896,[],[],0,0⟩,⟨31,549755813888,[],[],0,0⟩],[⟨28,115792089237316195423570985008687907853269984665635612279300442486263777315839,[],[],0,0⟩,⟨29,4951760157141521099596496896,[],[],0,0⟩,⟨31,549755813888,[],[],0,0⟩],[⟨30,115792089237316195423570985008687907853269984665640564039457584007913129626623,[],[],0,0⟩],[⟨28,115792089237316195423570985008687907853269984665635612279300442486263777315839,[],[],0,0⟩,⟨29,4951760157141521099596496896,[],[],0,0⟩,⟨31,549755813888,[],[],0,0⟩],[],[⟨33,115792089237316195423570985008687907853269984665635612279300442486796353260543,[],[],0,0⟩,⟨34,4951760157141521099596496896,[],[],0,0⟩,⟨36,17179869184,[],[],0,0⟩],[⟨33,115792089237316195423570985008687907853269984665635612279300442486796353260543,[],[],0,0⟩,⟨34,4951760157141521099596496896,[],[],0,0⟩,⟨36,17179869184,[],[],0,0⟩],[⟨35,115792089237316195423570985008687907853269984665640564039457584007913129626623,[],[],0,0⟩],[⟨33,115792089237316195423570985008687907853269984665635612279300442486796353260543,[],[],0,0⟩,⟨34,4951760157141521099596496896,[],[],0,0⟩,⟨36,17179869184,[],[],0,0⟩],[],[⟨38,1024,[],[(12,.setEnt .newline)],0,0⟩],[],[],[],[],[]],[some (0,[]),none,some (1,[]),some (1,[]),none,some (1,[]),some (1,[]),none,none,none,none,none,none,none,none,none,none,some (1,[]),none,none,none,none,none,none,none,none,some (1,[]),none,none,none,none,some (2,[]),none,none,none,none,some (2,[]),none,some (3,[]),some (3,[]),some (3,[]),some (3,[]),some (4,[])],[1,10,12,13,14]⟩
theorem sql_line_nfa_eq : Sql.sql_line.nfa = sql_line_nfa := by decide +kernel
/-- The machine of `Sql.sql_line`, with its automaton as a literal. -/
def sql_line_M : Machine := ⟨sql_line_nfa, Sql.sql_line.ends, Sql.sql_line.sw⟩
theorem sql_line_M_eq : Sql.sql_line.machine = sql_line_M := by
  unfold Scanner.machine sql_line_M; rw [sql_line_nfa_eq]
def sql_line_masks : List Nat := [4294967808,35184372088832,34359738368,140737488355328,10633823966279326983230456482242756608,549755813888,17179869184,8192,1024,4096,115792089237316195423570985008687907853269984665640564039457584007908834656767,115792089237316195423570985008687907853269984665640564039457584007913129626623,4398046511104,115792089237316195423570985008687907853269984665640564039457584007908834658815,42535295865117307932921825928971026432,115792089237316195423570985008687907853269984665635612279300442486263777315839,4951760157141521099596496896,115792089237316195423570985008687907853269984665635612279300442486796353260543]
def sql_line_cs : List (Nat × Nat) := [(0,115792089237316195423570985008687907853216815545804215644384290023476822000127),(9,4294967808),(10,1024),(11,2048),(12,4096),(13,8192),(34,17179869184),(35,34359738368),(39,549755813888),(42,4398046511104),(45,35184372088832),(47,140737488355328),(92,4951760157141521099596496896),(123,10633823966279326983230456482242756608),(125,42535295865117307932921825928971026432)]
theorem sql_line_masksIn : masksIn sql_line_nfa sql_line_masks = true := by decide +kernel
theorem sql_line_repOk : repOk sql_line_masks sql_line_cs = true := by decide +kernel
def sql_line_rows : List Row := [⟨[],none,[],[⟨256,.other,false,some ⟨0,[.setEnt (.own 3)],some 4,true⟩⟩,⟨256,.ws,false,some ⟨1,[.setEnt (.own 0)],some 0,false⟩⟩,⟨256,.lf,false,some ⟨0,[.setEnt .newline],some 3,true⟩⟩,⟨256,.vt,false,none⟩,⟨256,.ff,false,some ⟨0,[.setEnt .newline],some 3,true⟩⟩,⟨256,.cr,false,some ⟨2,[.setEnt .newline],none,false⟩⟩,⟨256,.cr,true,some ⟨3,[.setEnt .newline],some 3,false⟩⟩,⟨256,.other,false,some ⟨4,[.code,.setEnt (.own 3)],some 4,false⟩⟩,⟨256,.other,false,some ⟨5,[.comment,.setEnt (.own 3)],some 1,false⟩⟩,⟨256,.other,false,some ⟨6,[.code,.setEnt (.own 3)],some 4,false⟩⟩,⟨256,.other,false,some ⟨7,[.setEnt (.own 3)],some 4,false⟩⟩,⟨256,.other,false,some ⟨8,[.setEnt (.own 3)],some 4,false⟩⟩,⟨256,.other,false,some ⟨9,[.comment,.setEnt (.own 3)],some 4,false⟩⟩]⟩,⟨[0],some 0,[],[⟨256,.other,false,none⟩,⟨256,.ws,false,some ⟨1,[.setEnt (.own 0)],some 0,false⟩⟩,⟨256,.lf,false,none⟩,⟨256,.vt,false,none⟩,⟨256,.ff,false,none⟩,⟨256,.cr,false,none⟩,⟨256,.cr,true,none⟩]⟩,⟨[37],none,[],[⟨256,.other,false,none⟩,⟨256,.ws,false,none⟩,⟨256,.lf,false,some ⟨0,[.setEnt .newline],some 3,true⟩⟩,⟨256,.vt,false,none⟩,⟨256,.ff,false,none⟩,⟨256,.cr,false,none⟩,⟨256,.cr,true,none⟩]⟩,⟨[37,41],some 3,[],[⟨256,.other,false,none⟩,⟨256,.ws,false,none⟩,⟨256,.lf,false,some ⟨0,[.setEnt .newline],some 3,true⟩⟩,⟨256,.vt,false,none⟩,⟨256,.ff,false,none⟩,⟨256,.cr,false,none⟩,⟨256,.cr,true,none⟩]⟩,⟨[32,42],some 4,[],[⟨256,.other,false,some ⟨10,[],none,false⟩⟩,⟨256,.ws,false,some ⟨10,[],none,false⟩⟩,⟨256,.lf,false,none⟩,⟨256,.vt,false,some ⟨10,[],none,false⟩⟩,⟨256,.ff,false,none⟩,⟨256,.cr,false,none⟩,⟨256,.cr,true,none⟩,⟨256,.other,false,some ⟨0,[],some 2,true⟩⟩,⟨256,.other,false,some ⟨11,[],none,false⟩⟩]⟩,⟨[3,42],some 1,[],[⟨256,.other,false,some ⟨12,[],some 1,false⟩⟩,⟨256,.ws,false,some ⟨12,[],some 1,false⟩⟩,⟨256,.lf,false,none⟩,⟨256,.vt,false,some ⟨12,[],some 1,false⟩⟩,⟨256,.ff,false,none⟩,⟨256,.cr,false,none⟩,⟨256,.cr,true,none⟩]⟩,⟨[27,42],some 4,[],[⟨256,.other,false,some ⟨13,[],none,false⟩⟩,⟨256,.ws,false,some ⟨13,[],none,false⟩⟩,⟨256,.lf,false,none⟩,⟨256,.vt,false,some ⟨13,[],none,false⟩⟩,⟨256,.ff,false,none⟩,⟨256,.cr,false,none⟩,⟨256,.cr,true,none⟩,⟨256,.other,false,some ⟨0,[],some 2,true⟩⟩,⟨256,.other,false,some ⟨14,[],none,false⟩⟩]⟩,⟨[1,42],some 4,[],[⟨256,.other,false,none⟩,⟨256,.ws,false,none⟩,⟨256,.lf,false,none⟩,⟨256,.vt,false,none⟩,⟨256,.ff,false,none⟩,⟨256,.cr,false,none⟩,⟨256,.cr,true,none⟩,⟨256,.other,false,some ⟨15,[.comment],some 1,false⟩⟩]⟩,⟨[4,7,42],some 4,[],[⟨256,.other,false,none⟩,⟨256,.ws,false,none⟩,⟨256,.lf,false,none⟩,⟨256,.vt,false,none⟩,⟨256,.ff,false,none⟩,⟨256,.cr,false,none⟩,⟨256,.cr,true,none⟩,⟨256,.other,false,some ⟨16,[.comment],none,false⟩⟩,⟨256,.other,false,some ⟨17,[.comment],some 1,false⟩⟩]⟩,⟨[18,42],some 4,[],[⟨256,.other,false,some ⟨18,[.comment],none,false⟩⟩,⟨256,.ws,false,some ⟨19,[],none,false⟩⟩,⟨256,.lf,false,some ⟨20,[],none,false⟩⟩,⟨256,.vt,false,some ⟨18,[.comment],none,false⟩⟩,⟨256,.ff,false,some ⟨21,[],none,false⟩⟩,⟨256,.cr,false,some ⟨22,[],none,false⟩⟩,⟨256,.cr,true,some ⟨23,[],none,false⟩⟩,⟨256,.other,false,some ⟨0,[],some 1,true⟩⟩]⟩,⟨[33],none,[],[⟨256,.other,false,some ⟨10,[],none,false⟩⟩,⟨256,.ws,false,some ⟨10,[],none,false⟩⟩,⟨256,.lf,false,none⟩,⟨256,.vt,false,some ⟨10,[],none,false⟩⟩,⟨256,.ff,false,none⟩,⟨256,.cr,false,none⟩,⟨256,.cr,true,none⟩,⟨256,.other,false,some ⟨0,[],some 2,true⟩⟩,⟨256,.other,false,some ⟨11,[],none,false⟩⟩]⟩,⟨[34],none,[],[⟨256,.other,false,some ⟨24,[],none,false⟩⟩,⟨256,.ws,false,some ⟨24,[],none,false⟩⟩,⟨256,.lf,false,none⟩,⟨256,.vt,false,some ⟨24,[],none,false⟩⟩,⟨256,.ff,false,none⟩,⟨256,.cr,false,none⟩,⟨256,.cr,true,none⟩]⟩,⟨[6],some 1,[],[⟨256,.other,false,some ⟨12,[],some 1,false⟩⟩,⟨256,.ws,false,some ⟨12,[],some 1,false⟩⟩,⟨256,.lf,false,none⟩,⟨256,.vt,false,some ⟨12,[],some 1,false⟩⟩,⟨256,.ff,false,none⟩,⟨256,.cr,false,none⟩,⟨256,.cr,true,none⟩]⟩,⟨[28],none,[],[⟨256,.other,false,some ⟨13,[],none,false⟩⟩,⟨256,.ws,false,some ⟨13,[],none,false⟩⟩,⟨256,.lf,false,none⟩,⟨256,.vt,false,some ⟨13,[],none,false⟩⟩,⟨256,.ff,false,none⟩,⟨256,.cr,false,none⟩,⟨256,.cr,true,none⟩,⟨256,.other,false,some ⟨0,[],some 2,true⟩⟩,⟨256,.other,false,some ⟨14,[],none,false⟩⟩]⟩,⟨[29],none,[],[⟨256,.other,false,some ⟨25,[],none,false⟩⟩,⟨256,.ws,false,some ⟨25,[],none,false⟩⟩,⟨256,.lf,false,none⟩,⟨256,.vt,false,some ⟨25,[],none,false⟩⟩,⟨256,.ff,false,none⟩,⟨256,.cr,false,none⟩,⟨256,.cr,true,none⟩]⟩,⟨[2],some 1,[],[⟨256,.other,false,some ⟨12,[],some 1,false⟩⟩,⟨256,.ws,false,some ⟨12,[],some 1,false⟩⟩,⟨256,.lf,false,none⟩,⟨256,.vt,false,some ⟨12,[],some 1,false⟩⟩,⟨256,.ff,false,none⟩,⟨256,.cr,false,none⟩,⟨256,.cr,true,none⟩]⟩,⟨[8],none,[],[⟨256,.other,false,some ⟨26,[.comment],none,false⟩⟩,⟨256,.ws,false,some ⟨27,[],none,false⟩⟩,⟨256,.lf,false,some ⟨28,[],none,false⟩⟩,⟨256,.vt,false,some ⟨26,[.comment],none,false⟩⟩,⟨256,.ff,false,some ⟨29,[],none,false⟩⟩,⟨256,.cr,false,some ⟨30,[],none,false⟩⟩,⟨256,.cr,true,some ⟨31,[],none,false⟩⟩,⟨256,.other,false,some ⟨32,[.comment],none,false⟩⟩]⟩,⟨[5],some 1,[],[⟨256,.other,false,some ⟨12,[],some 1,false⟩⟩,⟨256,.ws,false,some ⟨12,[],some 1,false⟩⟩,⟨256,.lf,false,none⟩,⟨256,.vt,false,some ⟨12,[],some 1,false⟩⟩,⟨256,.ff,false,none⟩,⟨256,.cr,false,none⟩,⟨256,.cr,true,none⟩]⟩,⟨[25],none,[],[⟨256,.other,false,some ⟨18,[.comment],none,false⟩⟩,⟨256,.ws,false,some ⟨19,[],none,false⟩⟩,⟨256,.lf,false,some ⟨20,[],none,false⟩⟩,⟨256,.vt,false,some ⟨18,[.comment],none,false⟩⟩,⟨256,.ff,false,some ⟨21,[],none,false⟩⟩,⟨256,.cr,false,some ⟨22,[],none,false⟩⟩,⟨256,.cr,true,some ⟨23,[],none,false⟩⟩,⟨256,.other,false,some ⟨0,[],some 1,true⟩⟩]⟩,⟨[24],none,[],[⟨256,.other,false,some ⟨18,[.comment],none,false⟩⟩,⟨256,.ws,false,some ⟨19,[],none,false⟩⟩,⟨256,.lf,false,some ⟨20,[],none,false⟩⟩,⟨256,.vt,false,some ⟨18,[.comment],none,false⟩⟩,⟨256,.ff,false,some ⟨21,[],none,false⟩⟩,⟨256,.cr,false,some ⟨22,[],none,false⟩⟩,⟨256,.cr,true,some ⟨23,[],none,false⟩⟩,⟨256,.other,false,some ⟨0,[],some 1,true⟩⟩]⟩,⟨[21],none,[],[⟨256,.other,false,some ⟨18,[.setEnt .internalNl,.cb,.comment],none,false⟩⟩,⟨256,.ws,false,some ⟨19,[.setEnt .internalNl,.cb],none,false⟩⟩,⟨256,.lf,false,some ⟨20,[.setEnt .internalNl,.cb],none,false⟩⟩,⟨256,.vt,false,some ⟨18,[.setEnt .internalNl,.cb,.comment],none,false⟩⟩,⟨256,.ff,false,some ⟨21,[.setEnt .internalNl,.cb],none,false⟩⟩,⟨256,.cr,false,some ⟨22,[.setEnt .internalNl,.cb],none,false⟩⟩,⟨256,.cr,true,some ⟨23,[.setEnt .internalNl,.cb],none,false⟩⟩,⟨256,.other,false,some ⟨0,[.setEnt .internalNl,.cb],some 1,true⟩⟩]⟩,⟨[22],none,[],[⟨256,.other,false,some ⟨18,[.setEnt .internalNl,.cb,.comment],none,false⟩⟩,⟨256,.ws,false,some ⟨19,[.setEnt .internalNl,.cb],none,false⟩⟩,⟨256,.lf,false,some ⟨20,[.setEnt .internalNl,.cb],none,false⟩⟩,⟨256,.vt,false,some ⟨18,[.setEnt .internalNl,.cb,.comment],none,false⟩⟩,⟨256,.ff,false,some ⟨21,[.setEnt .internalNl,.cb],none,false⟩⟩,⟨256,.cr,false,some ⟨22,[.setEnt .internalNl,.cb],none,false⟩⟩,⟨256,.cr,true,some ⟨23,[.setEnt .internalNl,.cb],none,false⟩⟩,⟨256,.other,false,some ⟨0,[.setEnt .internalNl,.cb],some 1,true⟩⟩]⟩,⟨[19],none,[],[⟨256,.other,false,none⟩,⟨256,.ws,false,none⟩,⟨256,.lf,false,some ⟨33,[],none,false⟩⟩,⟨256,.vt,false,none⟩,⟨256,.ff,false,none⟩,⟨256,.cr,false,none⟩,⟨256,.cr,true,none⟩]⟩,⟨[19,23],none,[],[⟨256,.other,false,some ⟨18,[.setEnt .internalNl,.cb,.comment],none,false⟩⟩,⟨256,.ws,false,some ⟨19,[.setEnt .internalNl,.cb],none,false⟩⟩,⟨256,.lf,false,some ⟨34,[.setEnt .internalNl,.cb],none,false⟩⟩,⟨256,.vt,false,some ⟨18,[.setEnt .internalNl,.cb,.comment],none,false⟩⟩,⟨256,.ff,false,some ⟨21,[.setEnt .internalNl,.cb],none,false⟩⟩,⟨256,.cr,false,some ⟨22,[.setEnt .internalNl,.cb],none,false⟩⟩,⟨256,.cr,true,some ⟨23,[.setEnt .internalNl,.cb],none,false⟩⟩,⟨256,.other,false,some ⟨0,[.setEnt .internalNl,.cb],some 1,true⟩⟩]⟩,⟨[35],none,[],[⟨256,.other,false,some ⟨10,[],none,false⟩⟩,⟨256,.ws,false,some ⟨10,[],none,false⟩⟩,⟨256,.lf,false,none⟩,⟨256,.vt,false,some ⟨10,[],none,false⟩⟩,⟨256,.ff,false,none⟩,⟨256,.cr,false,none⟩,⟨256,.cr,true,none⟩,⟨256,.other,false,some ⟨0,[],some 2,true⟩⟩,⟨256,.other,false,some ⟨11,[],none,false⟩⟩]⟩,⟨[30],none,[],[⟨256,.other,false,some ⟨13,[],none,false⟩⟩,⟨256,.ws,false,some ⟨13,[],none,false⟩⟩,⟨256,.lf,false,none⟩,⟨256,.vt,false,some ⟨13,[],none,false⟩⟩,⟨256,.ff,false,none⟩,⟨256,.cr,false,none⟩,⟨256,.cr,true,none⟩,⟨256,.other,false,some ⟨0,[],some 2,true⟩⟩,⟨256,.other,false,some ⟨14,[],none,false⟩⟩]⟩,⟨[15],none,[],[⟨256,.other,false,some ⟨26,[.comment],none,false⟩⟩,⟨256,.ws,false,some ⟨27,[],none,false⟩⟩,⟨256,.lf,false,some ⟨28,[],none,false⟩⟩,⟨256,.vt,false,some ⟨26,[.comment],none,false⟩⟩,⟨256,.ff,false,some ⟨29,[],none,false⟩⟩,⟨256,.cr,false,some ⟨30,[],none,false⟩⟩,⟨256,.cr,true,some ⟨31,[],none,false⟩⟩,⟨256,.other,false,some ⟨32,[.comment],none,false⟩⟩]⟩,⟨[14],none,[],[⟨256,.other,false,some ⟨26,[.comment],none,false⟩⟩,⟨256,.ws,false,some ⟨27,[],none,false⟩⟩,⟨256,.lf,false,some ⟨28,[],none,false⟩⟩,⟨256,.vt,false,some ⟨26,[.comment],none,false⟩⟩,⟨256,.ff,false,some ⟨29,[],none,false⟩⟩,⟨256,.cr,false,some ⟨30,[],none,false⟩⟩,⟨256,.cr,true,some ⟨31,[],none,false⟩⟩,⟨256,.other,false,some ⟨32,[.comment],none,false⟩⟩]⟩,⟨[11],none,[],[⟨256,.other,false,some ⟨26,[.setEnt .internalNl,.cb,.comment],none,false⟩⟩,⟨256,.ws,false,some ⟨27,[.setEnt .internalNl,.cb],none,false⟩⟩,⟨256,.lf,false,some ⟨28,[.setEnt .internalNl,.cb],none,false⟩⟩,⟨256,.vt,false,some ⟨26,[.setEnt .internalNl,.cb,.comment],none,false⟩⟩,⟨256,.ff,false,some ⟨29,[.setEnt .internalNl,.cb],none,false⟩⟩,⟨256,.cr,false,some ⟨30,[.setEnt .internalNl,.cb],none,false⟩⟩,⟨256,.cr,true,some ⟨31,[.setEnt .internalNl,.cb],none,false⟩⟩,⟨256,.other,false,some ⟨32,[.setEnt .internalNl,.cb,.comment],none,false⟩⟩]⟩,⟨[12],none,[],[⟨256,.other,false,some ⟨26,[.setEnt .internalNl,.cb,.comment],none,false⟩⟩,⟨256,.ws,false,some ⟨27,[.setEnt .internalNl,.cb],none,false⟩⟩,⟨256,.lf,false,some ⟨28,[.setEnt .internalNl,.cb],none,false⟩⟩,⟨256,.vt,false,some ⟨26,[.setEnt .internalNl,.cb,.comment],none,false⟩⟩,⟨256,.ff,false,some ⟨29,[.setEnt .internalNl,.cb],none,false⟩⟩,⟨256,.cr,false,some ⟨30,[.setEnt .internalNl,.cb],none,false⟩⟩,⟨256,.cr,true,some ⟨31,[.setEnt .internalNl,.cb],none,false⟩⟩,⟨256,.other,false,some ⟨32,[.setEnt .internalNl,.cb,.comment],none,false⟩⟩]⟩,⟨[9],none,[],[⟨256,.other,false,none⟩,⟨256,.ws,false,none⟩,⟨256,.lf,false,some ⟨35,[],none,false⟩⟩,⟨256,.vt,false,none⟩,⟨256,.ff,false,none⟩,⟨256,.cr,false,none⟩,⟨256,.cr,true,none⟩]⟩,⟨[9,13],none,[],[⟨256,.other,false,some ⟨26,[.setEnt .internalNl,.cb,.comment],none,false⟩⟩,⟨256,.ws,false,some ⟨27,[.setEnt .internalNl,.cb],none,false⟩⟩,⟨256,.lf,false,some ⟨36,[.setEnt .internalNl,.cb],none,false⟩⟩,⟨256,.vt,false,some ⟨26,[.setEnt .internalNl,.cb,.comment],none,false⟩⟩,⟨256,.ff,false,some ⟨29,[.setEnt .internalNl,.cb],none,false⟩⟩,⟨256,.cr,false,some ⟨30,[.setEnt .internalNl,.cb],none,false⟩⟩,⟨256,.cr,true,some ⟨31,[.setEnt .internalNl,.cb],none,false⟩⟩,⟨256,.other,false,some ⟨32,[.setEnt .internalNl,.cb,.comment],none,false⟩⟩]⟩,⟨[15,16],none,[],[⟨256,.other,false,some ⟨26,[.comment],none,false⟩⟩,⟨256,.ws,false,some ⟨27,[],none,false⟩⟩,⟨256,.lf,false,some ⟨28,[],none,false⟩⟩,⟨256,.vt,false,some ⟨26,[.comment],none,false⟩⟩,⟨256,.ff,false,some ⟨29,[],none,false⟩⟩,⟨256,.cr,false,some ⟨30,[],none,false⟩⟩,⟨256,.cr,true,some ⟨31,[],none,false⟩⟩,⟨256,.other,false,some ⟨32,[.comment],none,false⟩⟩,⟨256,.other,false,some ⟨0,[],some 1,true⟩⟩]⟩,⟨[20],none,[],[⟨256,.other,false,some ⟨18,[.setEnt .internalNl,.cb,.comment],none,false⟩⟩,⟨256,.ws,false,some ⟨19,[.setEnt .internalNl,.cb],none,false⟩⟩,⟨256,.lf,false,some ⟨20,[.setEnt .internalNl,.cb],none,false⟩⟩,⟨256,.vt,false,some ⟨18,[.setEnt .internalNl,.cb,.comment],none,false⟩⟩,⟨256,.ff,false,some ⟨21,[.setEnt .internalNl,.cb],none,false⟩⟩,⟨256,.cr,false,some ⟨22,[.setEnt .internalNl,.cb],none,false⟩⟩,⟨256,.cr,true,some ⟨23,[.setEnt .internalNl,.cb],none,false⟩⟩,⟨256,.other,false,some ⟨0,[.setEnt .internalNl,.cb],some 1,true⟩⟩]⟩,⟨[20,21],none,[],[⟨256,.other,false,some ⟨18,[.setEnt .internalNl,.cb,.comment],none,false⟩⟩,⟨256,.ws,false,some ⟨19,[.setEnt .internalNl,.cb],none,false⟩⟩,⟨256,.lf,false,some ⟨20,[.setEnt .internalNl,.cb],none,false⟩⟩,⟨256,.vt,false,some ⟨18,[.setEnt .internalNl,.cb,.comment],none,false⟩⟩,⟨256,.ff,false,some ⟨21,[.setEnt .internalNl,.cb],none,false⟩⟩,⟨256,.cr,false,some ⟨22,[.setEnt .internalNl,.cb],none,false⟩⟩,⟨256,.cr,true,some ⟨23,[.setEnt .internalNl,.cb],none,false⟩⟩,⟨256,.other,false,some ⟨0,[.setEnt .internalNl,.cb],some 1,true⟩⟩]⟩,⟨[10],none,[],[⟨256,.other,false,some ⟨26,[.setEnt .internalNl,.cb,.comment],none,false⟩⟩,⟨256,.ws,false,some ⟨27,[.setEnt .internalNl,.cb],none,false⟩⟩,⟨256,.lf,false,some ⟨28,[.setEnt .internalNl,.cb],none,false⟩⟩,⟨256,.vt,false,some ⟨26,[.setEnt .internalNl,.cb,.comment],none,false⟩⟩,⟨256,.ff,false,some ⟨29,[.setEnt .internalNl,.cb],none,false⟩⟩,⟨256,.cr,false,some ⟨30,[.setEnt .internalNl,.cb],none,false⟩⟩,⟨256,.cr,true,some ⟨31,[.setEnt .internalNl,.cb],none,false⟩⟩,⟨256,.other,false,some ⟨32,[.setEnt .internalNl,.cb,.comment],none,false⟩⟩]⟩,⟨[10,11],none,[],[⟨256,.other,false,some ⟨26,[.setEnt .internalNl,.cb,.comment],none,false⟩⟩,⟨256,.ws,false,some ⟨27,[.setEnt .internalNl,.cb],none,false⟩⟩,⟨256,.lf,false,some ⟨28,[.setEnt .internalNl,.cb],none,false⟩⟩,⟨256,.vt,false,some ⟨26,[.setEnt .internalNl,.cb,.comment],none,false⟩⟩,⟨256,.ff,false,some ⟨29,[.setEnt .internalNl,.cb],none,false⟩⟩,⟨256,.cr,false,some ⟨30,[.setEnt .internalNl,.cb],none,false⟩⟩,⟨256,.cr,true,some ⟨31,[.setEnt .internalNl,.cb],none,false⟩⟩,⟨256,.other,false,some ⟨32,[.setEnt .internalNl,.cb,.comment],none,false⟩⟩]⟩]
theorem sql_line_rowsOk : rowsOk sql_line_nfa [] (sql_line_cs.map (·.1)) sql_line_rows = true := by decide +kernel
def sql_line_D : Dfa sql_line_M.nfa := ⟨sql_line_masks, [], sql_line_cs, sql_line_rows, sql_line_masksIn, sql_line_repOk, sql_line_rowsOk⟩

end Ohcount.Cert
