import Verif.Gram.All
import Verif.RagelCheck

/-! Generated by tools/gen_certs.py. -/

namespace Ohcount.Cert
open Ohcount.Ragel Ohcount.Gram

set_option maxRecDepth 100000

def ada_line_nfa : Nfa := ⟨[⟨0,4294967808,[],[(0,.setEnt (.own 0))],0,0⟩,⟨1,35184372088832,[],[],0,0⟩,⟨4,17179869184,[],[(2,.code)],0,0⟩,⟨7,8192,[],[(3,.setEnt .newline)],0,0⟩,⟨9,1024,[],[(3,.setEnt .newline)],0,0⟩,⟨10,4096,[],[(3,.setEnt .newline)],0,0⟩,⟨11,8192,[.crAlone],[(3,.setEnt .newline)],0,0⟩,⟨12,115792089237316195423570985008687907853269984665640564039457584007908834656767,[],[(4,.setEnt (.own 3))],0,0⟩],[[⟨0,4294967808,[],[(0,.setEnt (.own 0))],0,0⟩],[⟨2,35184372088832,[],[(1,.comment)],0,0⟩],[⟨3,115792089237316195423570985008687907853269984665640564039457584007913129626623,[],[],0,0⟩],[⟨3,115792089237316195423570985008687907853269984665640564039457584007913129626623,[],[],0,0⟩],[⟨5,115792089237316195423570985008687907853269984665640564039457584007895949757439,[],[],0,0⟩,⟨6,17179869184,[],[],0,0⟩],[⟨5,115792089237316195423570985008687907853269984665640564039457584007895949757439,[],[],0,0⟩,⟨6,17179869184,[],[],0,0⟩],[],[⟨8,1024,[],[(3,.setEnt .newline)],0,0⟩],[],[],[],[],[]],[some (0,[]),none,some (1,[]),some (1,[]),none,none,some (2,[]),none,some (3,[]),some (3,[]),some (3,[]),some (3,[]),some (4,[])],[1,2,3,4,5]⟩
theorem ada_line_nfa_eq : Ada.ada_line.nfa = ada_line_nfa := by decide +kernel
/-- The machine of `Ada.ada_line`, with its automaton as a literal. -/
def ada_line_M : Machine := ⟨ada_line_nfa, Ada.ada_line.ends, Ada.ada_line.sw⟩
theorem ada_line_M_eq : Ada.ada_line.machine = ada_line_M := by
  unfold Scanner.machine ada_line_M; rw [ada_line_nfa_eq]
def ada_line_masks : List Nat := [4294967808,35184372088832,17179869184,8192,1024,4096,115792089237316195423570985008687907853269984665640564039457584007908834656767,115792089237316195423570985008687907853269984665640564039457584007913129626623,115792089237316195423570985008687907853269984665640564039457584007895949757439]
def ada_line_cs : List (Nat × Nat) := [(0,115792089237316195423570985008687907853269984665640564039457583972707282698751),(9,4294967808),(10,1024),(11,2048),(12,4096),(13,8192),(34,17179869184),(45,35184372088832)]
theorem ada_line_masksIn : masksIn ada_line_nfa ada_line_masks = true := by decide +kernel
theorem ada_line_repOk : repOk ada_line_masks ada_line_cs = true := by decide +kernel
def ada_line_rows : List Row := [⟨[],none,[],[⟨256,.other,false,some ⟨0,[.setEnt (.own 3)],some 4,true⟩⟩,⟨256,.ws,false,some ⟨1,[.setEnt (.own 0)],some 0,false⟩⟩,⟨256,.lf,false,some ⟨0,[.setEnt .newline],some 3,true⟩⟩,⟨256,.vt,false,none⟩,⟨256,.ff,false,some ⟨0,[.setEnt .newline],some 3,true⟩⟩,⟨256,.cr,false,some ⟨2,[.setEnt .newline],none,false⟩⟩,⟨256,.cr,true,some ⟨3,[.setEnt .newline],some 3,false⟩⟩,⟨256,.other,false,some ⟨4,[.code,.setEnt (.own 3)],some 4,false⟩⟩,⟨256,.other,false,some ⟨5,[.setEnt (.own 3)],some 4,false⟩⟩]⟩,⟨[0],some 0,[],[⟨256,.other,false,none⟩,⟨256,.ws,false,some ⟨1,[.setEnt (.own 0)],some 0,false⟩⟩,⟨256,.lf,false,none⟩,⟨256,.vt,false,none⟩,⟨256,.ff,false,none⟩,⟨256,.cr,false,none⟩,⟨256,.cr,true,none⟩]⟩,⟨[7],none,[],[⟨256,.other,false,none⟩,⟨256,.ws,false,none⟩,⟨256,.lf,false,some ⟨0,[.setEnt .newline],some 3,true⟩⟩,⟨256,.vt,false,none⟩,⟨256,.ff,false,none⟩,⟨256,.cr,false,none⟩,⟨256,.cr,true,none⟩]⟩,⟨[7,11],some 3,[],[⟨256,.other,false,none⟩,⟨256,.ws,false,none⟩,⟨256,.lf,false,some ⟨0,[.setEnt .newline],some 3,true⟩⟩,⟨256,.vt,false,none⟩,⟨256,.ff,false,none⟩,⟨256,.cr,false,none⟩,⟨256,.cr,true,none⟩]⟩,⟨[4,12],some 4,[],[⟨256,.other,false,some ⟨6,[],none,false⟩⟩,⟨256,.ws,false,some ⟨6,[],none,false⟩⟩,⟨256,.lf,false,none⟩,⟨256,.vt,false,some ⟨6,[],none,false⟩⟩,⟨256,.ff,false,none⟩,⟨256,.cr,false,none⟩,⟨256,.cr,true,none⟩,⟨256,.other,false,some ⟨0,[],some 2,true⟩⟩]⟩,⟨[1,12],some 4,[],[⟨256,.other,false,none⟩,⟨256,.ws,false,none⟩,⟨256,.lf,false,none⟩,⟨256,.vt,false,none⟩,⟨256,.ff,false,none⟩,⟨256,.cr,false,none⟩,⟨256,.cr,true,none⟩,⟨256,.other,false,some ⟨7,[.comment],some 1,false⟩⟩]⟩,⟨[5],none,[],[⟨256,.other,false,some ⟨6,[],none,false⟩⟩,⟨256,.ws,false,some ⟨6,[],none,false⟩⟩,⟨256,.lf,false,none⟩,⟨256,.vt,false,some ⟨6,[],none,false⟩⟩,⟨256,.ff,false,none⟩,⟨256,.cr,false,none⟩,⟨256,.cr,true,none⟩,⟨256,.other,false,some ⟨0,[],some 2,true⟩⟩]⟩,⟨[2],some 1,[],[⟨256,.other,false,some ⟨8,[],some 1,false⟩⟩,⟨256,.ws,false,some ⟨8,[],some 1,false⟩⟩,⟨256,.lf,false,none⟩,⟨256,.vt,false,some ⟨8,[],some 1,false⟩⟩,⟨256,.ff,false,none⟩,⟨256,.cr,false,none⟩,⟨256,.cr,true,none⟩]⟩,⟨[3],some 1,[],[⟨256,.other,false,some ⟨8,[],some 1,false⟩⟩,⟨256,.ws,false,some ⟨8,[],some 1,false⟩⟩,⟨256,.lf,false,none⟩,⟨256,.vt,false,some ⟨8,[],some 1,false⟩⟩,⟨256,.ff,false,none⟩,⟨256,.cr,false,none⟩,⟨256,.cr,true,none⟩]⟩]
theorem ada_line_rowsOk : rowsOk ada_line_nfa [] (ada_line_cs.map (·.1)) ada_line_rows = true := by decide +kernel
def ada_line_D : Dfa ada_line_M.nfa := ⟨ada_line_masks, [], ada_line_cs, ada_line_rows, ada_line_masksIn, ada_line_repOk, ada_line_rowsOk⟩

def forth_line_nfa : Nfa := ⟨[⟨0,4294967808,[],[(0,.setEnt (.own 0))],0,0⟩,⟨1,4951760157141521099596496896,[],[(1,.comment)],0,0⟩,⟨3,1099511627776,[],[(2,.comment)],0,2⟩,⟨12,17179869184,[],[(6,.code)],0,0⟩,⟨15,8192,[],[(7,.setEnt .newline)],0,0⟩,⟨17,1024,[],[(7,.setEnt .newline)],0,0⟩,⟨18,4096,[],[(7,.setEnt .newline)],0,0⟩,⟨19,8192,[.crAlone],[(7,.setEnt .newline)],0,0⟩,⟨20,115792089237316195423570985008687907853269984665640564039457584007908834656767,[],[(8,.setEnt (.own 3))],0,0⟩],[[⟨0,4294967808,[],[(0,.setEnt (.own 0))],0,0⟩],[⟨2,115792089237316195423570985008687907853269984665640564039457584007913129626623,[],[],0,0⟩],[⟨2,115792089237316195423570985008687907853269984665640564039457584007913129626623,[],[],0,0⟩],[⟨4,8192,[],[],0,2⟩,⟨6,1024,[],[],0,2⟩,⟨7,4096,[],[],0,2⟩,⟨8,8192,[.crAlone],[],0,2⟩,⟨9,4294967808,[],[],0,2⟩,⟨10,115792089237316195423570985008687907853269984665640564039457584007908834658815,[],[(5,.comment)],0,2⟩,⟨11,2199023255552,[],[],2,0⟩],[⟨5,1024,[],[],0,2⟩],[⟨4,8192,[],[(3,.setEnt .internalNl),(4,.cb)],0,2⟩,⟨6,1024,[],[(3,.setEnt .internalNl),(4,.cb)],0,2⟩,⟨7,4096,[],[(3,.setEnt .internalNl),(4,.cb)],0,2⟩,⟨8,8192,[.crAlone],[(3,.setEnt .internalNl),(4,.cb)],0,2⟩,⟨9,4294967808,[],[(3,.setEnt .internalNl),(4,.cb)],0,2⟩,⟨10,115792089237316195423570985008687907853269984665640564039457584007908834658815,[],[(3,.setEnt .internalNl),(4,.cb),(5,.comment)],0,2⟩,⟨11,2199023255552,[],[(3,.setEnt .internalNl),(4,.cb)],2,0⟩],[⟨4,8192,[],[(3,.setEnt .internalNl),(4,.cb)],0,2⟩,⟨6,1024,[],[(3,.setEnt .internalNl),(4,.cb)],0,2⟩,⟨7,4096,[],[(3,.setEnt .internalNl),(4,.cb)],0,2⟩,⟨8,8192,[.crAlone],[(3,.setEnt .internalNl),(4,.cb)],0,2⟩,⟨9,4294967808,[],[(3,.setEnt .internalNl),(4,.cb)],0,2⟩,⟨10,115792089237316195423570985008687907853269984665640564039457584007908834658815,[],[(3,.setEnt .internalNl),(4,.cb),(5,.comment)],0,2⟩,⟨11,2199023255552,[],[(3,.setEnt .internalNl),(4,.cb)],2,0⟩],[⟨4,8192,[],[(3,.setEnt .internalNl),(4,.cb)],0,2⟩,⟨6,1024,[],[(3,.setEnt .internalNl),(4,.cb)],0,2⟩,⟨7,4096,[],[(3,.setEnt .internalNl),(4,.cb)],0,2⟩,⟨8,8192,[.crAlone],[(3,.setEnt .internalNl),(4,.cb)],0,2⟩,⟨9,4294967808,[],[(3,.setEnt .internalNl),(4,.cb)],0,2⟩,⟨10,115792089237316195423570985008687907853269984665640564039457584007908834658815,[],[(3,.setEnt .internalNl),(4,.cb),(5,.comment)],0,2⟩,⟨11,2199023255552,[],[(3,.setEnt .internalNl),(4,.cb)],2,0⟩],[⟨4,8192,[],[(3,.setEnt .internalNl),(4,.cb)],0,2⟩,⟨6,1024,[],[(3,.setEnt .internalNl),(4,.cb)],0,2⟩,⟨7,4096,[],[(3,.setEnt .internalNl),(4,.cb)],0,2⟩,⟨8,8192,[.crAlone],[(3,.setEnt .internalNl),(4,.cb)],0,2⟩,⟨9,4294967808,[],[(3,.setEnt .internalNl),(4,.cb)],0,2⟩,⟨10,115792089237316195423570985008687907853269984665640564039457584007908834658815,[],[(3,.setEnt .internalNl),(4,.cb),(5,.comment)],0,2⟩,⟨11,2199023255552,[],[(3,.setEnt .internalNl),(4,.cb)],2,0⟩],[⟨4,8192,[],[],0,2⟩,⟨6,1024,[],[],0,2⟩,⟨7,4096,[],[],0,2⟩,⟨8,8192,[.crAlone],[],0,2⟩,⟨9,4294967808,[],[],0,2⟩,⟨10,115792089237316195423570985008687907853269984665640564039457584007908834658815,[],[(5,.comment)],0,2⟩,⟨11,2199023255552,[],[],2,0⟩],[⟨4,8192,[],[],0,2⟩,⟨6,1024,[],[],0,2⟩,⟨7,4096,[],[],0,2⟩,⟨8,8192,[.crAlone],[],0,2⟩,⟨9,4294967808,[],[],0,2⟩,⟨10,115792089237316195423570985008687907853269984665640564039457584007908834658815,[],[(5,.comment)],0,2⟩,⟨11,2199023255552,[],[],2,0⟩],[],[⟨13,115792089237316195423570985008687907853269984665640564039457584007895949757439,[],[],0,0⟩,⟨14,17179869184,[],[],0,0⟩],[⟨13,115792089237316195423570985008687907853269984665640564039457584007895949757439,[],[],0,0⟩,⟨14,17179869184,[],[],0,0⟩],[],[⟨16,1024,[],[(7,.setEnt .newline)],0,0⟩],[],[],[],[],[]],[some (0,[]),some (1,[]),some (1,[]),none,none,none,none,none,none,none,none,some (1,[]),none,none,some (2,[]),none,some (3,[]),some (3,[]),some (3,[]),some (3,[]),some (4,[])],[1,6,7,8,9]⟩
theorem forth_line_nfa_eq : Forth.forth_line.nfa = forth_line_nfa := by decide +kernel
/-- The machine of `Forth.forth_line`, with its automaton as a literal. -/
def forth_line_M : Machine := ⟨forth_line_nfa, Forth.forth_line.ends, Forth.forth_line.sw⟩
theorem forth_line_M_eq : Forth.forth_line.machine = forth_line_M := by
  unfold Scanner.machine forth_line_M; rw [forth_line_nfa_eq]
def forth_line_masks : List Nat := [4294967808,4951760157141521099596496896,1099511627776,17179869184,8192,1024,4096,115792089237316195423570985008687907853269984665640564039457584007908834656767,115792089237316195423570985008687907853269984665640564039457584007913129626623,115792089237316195423570985008687907853269984665640564039457584007908834658815,2199023255552,115792089237316195423570985008687907853269984665640564039457584007895949757439]
def forth_line_cs : List (Nat × Nat) := [(0,115792089237316195423570985008687907853269984665635612279300442483493523407359),(9,4294967808),(10,1024),(11,2048),(12,4096),(13,8192),(34,17179869184),(40,1099511627776),(41,2199023255552),(92,4951760157141521099596496896)]
theorem forth_line_masksIn : masksIn forth_line_nfa forth_line_masks = true := by decide +kernel
theorem forth_line_repOk : repOk forth_line_masks forth_line_cs = true := by decide +kernel
def forth_line_rows : List Row := [⟨[],none,[],[⟨256,.other,false,some ⟨0,[.setEnt (.own 3)],some 4,true⟩⟩,⟨256,.ws,false,some ⟨1,[.setEnt (.own 0)],some 0,false⟩⟩,⟨256,.lf,false,some ⟨0,[.setEnt .newline],some 3,true⟩⟩,⟨256,.vt,false,none⟩,⟨256,.ff,false,some ⟨0,[.setEnt .newline],some 3,true⟩⟩,⟨256,.cr,false,some ⟨2,[.setEnt .newline],none,false⟩⟩,⟨256,.cr,true,some ⟨3,[.setEnt .newline],some 3,false⟩⟩,⟨256,.other,false,some ⟨4,[.code,.setEnt (.own 3)],some 4,false⟩⟩,⟨256,.other,false,some ⟨5,[.comment,.setEnt (.own 3)],some 4,false⟩⟩,⟨256,.other,false,some ⟨6,[.comment,.setEnt (.own 3)],some 1,false⟩⟩]⟩,⟨[0],some 0,[],[⟨256,.other,false,none⟩,⟨256,.ws,false,some ⟨1,[.setEnt (.own 0)],some 0,false⟩⟩,⟨256,.lf,false,none⟩,⟨256,.vt,false,none⟩,⟨256,.ff,false,none⟩,⟨256,.cr,false,none⟩,⟨256,.cr,true,none⟩]⟩,⟨[15],none,[],[⟨256,.other,false,none⟩,⟨256,.ws,false,none⟩,⟨256,.lf,false,some ⟨0,[.setEnt .newline],some 3,true⟩⟩,⟨256,.vt,false,none⟩,⟨256,.ff,false,none⟩,⟨256,.cr,false,none⟩,⟨256,.cr,true,none⟩]⟩,⟨[15,19],some 3,[],[⟨256,.other,false,none⟩,⟨256,.ws,false,none⟩,⟨256,.lf,false,some ⟨0,[.setEnt .newline],some 3,true⟩⟩,⟨256,.vt,false,none⟩,⟨256,.ff,false,none⟩,⟨256,.cr,false,none⟩,⟨256,.cr,true,none⟩]⟩,⟨[12,20],some 4,[],[⟨256,.other,false,some ⟨7,[],none,false⟩⟩,⟨256,.ws,false,some ⟨7,[],none,false⟩⟩,⟨256,.lf,false,none⟩,⟨256,.vt,false,some ⟨7,[],none,false⟩⟩,⟨256,.ff,false,none⟩,⟨256,.cr,false,none⟩,⟨256,.cr,true,none⟩,⟨256,.other,false,some ⟨0,[],some 2,true⟩⟩]⟩,⟨[3,20],some 4,[],[⟨256,.other,false,some ⟨8,[.comment],none,false⟩⟩,⟨256,.ws,false,some ⟨9,[],none,false⟩⟩,⟨256,.lf,false,some ⟨10,[],none,false⟩⟩,⟨256,.vt,false,some ⟨8,[.comment],none,false⟩⟩,⟨256,.ff,false,some ⟨11,[],none,false⟩⟩,⟨256,.cr,false,some ⟨12,[],none,false⟩⟩,⟨256,.cr,true,some ⟨13,[],none,false⟩⟩,⟨256,.other,false,some ⟨0,[],some 1,true⟩⟩]⟩,⟨[1,20],some 1,[],[⟨256,.other,false,some ⟨14,[],some 1,false⟩⟩,⟨256,.ws,false,some ⟨14,[],some 1,false⟩⟩,⟨256,.lf,false,none⟩,⟨256,.vt,false,some ⟨14,[],some 1,false⟩⟩,⟨256,.ff,false,none⟩,⟨256,.cr,false,none⟩,⟨256,.cr,true,none⟩]⟩,⟨[13],none,[],[⟨256,.other,false,some ⟨7,[],none,false⟩⟩,⟨256,.ws,false,some ⟨7,[],none,false⟩⟩,⟨256,.lf,false,none⟩,⟨256,.vt,false,some ⟨7,[],none,false⟩⟩,⟨256,.ff,false,none⟩,⟨256,.cr,false,none⟩,⟨256,.cr,true,none⟩,⟨256,.other,false,some ⟨0,[],some 2,true⟩⟩]⟩,⟨[10],none,[],[⟨256,.other,false,some ⟨8,[.comment],none,false⟩⟩,⟨256,.ws,false,some ⟨9,[],none,false⟩⟩,⟨256,.lf,false,some ⟨10,[],none,false⟩⟩,⟨256,.vt,false,some ⟨8,[.comment],none,false⟩⟩,⟨256,.ff,false,some ⟨11,[],none,false⟩⟩,⟨256,.cr,false,some ⟨12,[],none,false⟩⟩,⟨256,.cr,true,some ⟨13,[],none,false⟩⟩,⟨256,.other,false,some ⟨0,[],some 1,true⟩⟩]⟩,⟨[9],none,[],[⟨256,.other,false,some ⟨8,[.comment],none,false⟩⟩,⟨256,.ws,false,some ⟨9,[],none,false⟩⟩,⟨256,.lf,false,some ⟨10,[],none,false⟩⟩,⟨256,.vt,false,some ⟨8,[.comment],none,false⟩⟩,⟨256,.ff,false,some ⟨11,[],none,false⟩⟩,⟨256,.cr,false,some ⟨12,[],none,false⟩⟩,⟨256,.cr,true,some ⟨13,[],none,false⟩⟩,⟨256,.other,false,some ⟨0,[],some 1,true⟩⟩]⟩,⟨[6],none,[],[⟨256,.other,false,some ⟨8,[.setEnt .internalNl,.cb,.comment],none,false⟩⟩,⟨256,.ws,false,some ⟨9,[.setEnt .internalNl,.cb],none,false⟩⟩,⟨256,.lf,false,some ⟨10,[.setEnt .internalNl,.cb],none,false⟩⟩,⟨256,.vt,false,some ⟨8,[.setEnt .internalNl,.cb,.comment],none,false⟩⟩,⟨256,.ff,false,some ⟨11,[.setEnt .internalNl,.cb],none,false⟩⟩,⟨256,.cr,false,some ⟨12,[.setEnt .internalNl,.cb],none,false⟩⟩,⟨256,.cr,true,some ⟨13,[.setEnt .internalNl,.cb],none,false⟩⟩,⟨256,.other,false,some ⟨0,[.setEnt .internalNl,.cb],some 1,true⟩⟩]⟩,⟨[7],none,[],[⟨256,.other,false,some ⟨8,[.setEnt .internalNl,.cb,.comment],none,false⟩⟩,⟨256,.ws,false,some ⟨9,[.setEnt .internalNl,.cb],none,false⟩⟩,⟨256,.lf,false,some ⟨10,[.setEnt .internalNl,.cb],none,false⟩⟩,⟨256,.vt,false,some ⟨8,[.setEnt .internalNl,.cb,.comment],none,false⟩⟩,⟨256,.ff,false,some ⟨11,[.setEnt .internalNl,.cb],none,false⟩⟩,⟨256,.cr,false,some ⟨12,[.setEnt .internalNl,.cb],none,false⟩⟩,⟨256,.cr,true,some ⟨13,[.setEnt .internalNl,.cb],none,false⟩⟩,⟨256,.other,false,some ⟨0,[.setEnt .internalNl,.cb],some 1,true⟩⟩]⟩,⟨[4],none,[],[⟨256,.other,false,none⟩,⟨256,.ws,false,none⟩,⟨256,.lf,false,some ⟨15,[],none,false⟩⟩,⟨256,.vt,false,none⟩,⟨256,.ff,false,none⟩,⟨256,.cr,false,none⟩,⟨256,.cr,true,none⟩]⟩,⟨[4,8],none,[],[⟨256,.other,false,some ⟨8,[.setEnt .internalNl,.cb,.comment],none,false⟩⟩,⟨256,.ws,false,some ⟨9,[.setEnt .internalNl,.cb],none,false⟩⟩,⟨256,.lf,false,some ⟨16,[.setEnt .internalNl,.cb],none,false⟩⟩,⟨256,.vt,false,some ⟨8,[.setEnt .internalNl,.cb,.comment],none,false⟩⟩,⟨256,.ff,false,some ⟨11,[.setEnt .internalNl,.cb],none,false⟩⟩,⟨256,.cr,false,some ⟨12,[.setEnt .internalNl,.cb],none,false⟩⟩,⟨256,.cr,true,some ⟨13,[.setEnt .internalNl,.cb],none,false⟩⟩,⟨256,.other,false,some ⟨0,[.setEnt .internalNl,.cb],some 1,true⟩⟩]⟩,⟨[2],some 1,[],[⟨256,.other,false,some ⟨14,[],some 1,false⟩⟩,⟨256,.ws,false,some ⟨14,[],some 1,false⟩⟩,⟨256,.lf,false,none⟩,⟨256,.vt,false,some ⟨14,[],some 1,false⟩⟩,⟨256,.ff,false,none⟩,⟨256,.cr,false,none⟩,⟨256,.cr,true,none⟩]⟩,⟨[5],none,[],[⟨256,.other,false,some ⟨8,[.setEnt .internalNl,.cb,.comment],none,false⟩⟩,⟨256,.ws,false,some ⟨9,[.setEnt .internalNl,.cb],none,false⟩⟩,⟨256,.lf,false,some ⟨10,[.setEnt .internalNl,.cb],none,false⟩⟩,⟨256,.vt,false,some ⟨8,[.setEnt .internalNl,.cb,.comment],none,false⟩⟩,⟨256,.ff,false,some ⟨11,[.setEnt .internalNl,.cb],none,false⟩⟩,⟨256,.cr,false,some ⟨12,[.setEnt .internalNl,.cb],none,false⟩⟩,⟨256,.cr,true,some ⟨13,[.setEnt .internalNl,.cb],none,false⟩⟩,⟨256,.other,false,some ⟨0,[.setEnt .internalNl,.cb],some 1,true⟩⟩]⟩,⟨[5,6],none,[],[⟨256,.other,false,some ⟨8,[.setEnt .internalNl,.cb,.comment],none,false⟩⟩,⟨256,.ws,false,some ⟨9,[.setEnt .internalNl,.cb],none,false⟩⟩,⟨256,.lf,false,some ⟨10,[.setEnt .internalNl,.cb],none,false⟩⟩,⟨256,.vt,false,some ⟨8,[.setEnt .internalNl,.cb,.comment],none,false⟩⟩,⟨256,.ff,false,some ⟨11,[.setEnt .internalNl,.cb],none,false⟩⟩,⟨256,.cr,false,some ⟨12,[.setEnt .internalNl,.cb],none,false⟩⟩,⟨256,.cr,true,some ⟨13,[.setEnt .internalNl,.cb],none,false⟩⟩,⟨256,.other,false,some ⟨0,[.setEnt .internalNl,.cb],some 1,true⟩⟩]⟩]
theorem forth_line_rowsOk : rowsOk forth_line_nfa [] (forth_line_cs.map (·.1)) forth_line_rows = true := by decide +kernel
def forth_line_D : Dfa forth_line_M.nfa := ⟨forth_line_masks, [], forth_line_cs, forth_line_rows, forth_line_masksIn, forth_line_repOk, forth_line_rowsOk⟩

def java_line_nfa : Nfa := ⟨[⟨0,4294967808,[],[(0,.setEnt (.own 0))],0,0⟩,⟨1,140737488355328,[],[],0,0⟩,⟨4,140737488355328,[],[],0,2⟩,⟨15,549755813888,[],[(6,.code)],0,0⟩,⟨20,17179869184,[],[(7,.code)],0,0⟩,⟨25,8192,[],[(8,.setEnt .newline)],0,0⟩,⟨27,1024,[],[(8,.setEnt .newline)],0,0⟩,⟨28,4096,[],[(8,.setEnt .newline)],0,0⟩,⟨29,8192,[.crAlone],[(8,.setEnt .newline)],0,0⟩,⟨30,115792089237316195423570985008687907853269984665640564039457584007908834656767,[],[(9,.setEnt (.own 7))],0,0⟩],[[⟨0,4294967808,[],[(0,.setEnt (.own 0))],0,0⟩],[⟨2,140737488355328,[],[(1,.comment)],0,0⟩],[⟨3,115792089237316195423570985008687907853269984665640564039457584007913129626623,[],[],0,0⟩],[⟨3,115792089237316195423570985008687907853269984665640564039457584007913129626623,[],[],0,0⟩],[⟨5,4398046511104,[],[(2,.comment)],0,2⟩],[⟨6,8192,[],[],0,2⟩,⟨8,1024,[],[],0,2⟩,⟨9,4096,[],[],0,2⟩,⟨10,8192,[.crAlone],[],0,2⟩,⟨11,4294967808,[],[],0,2⟩,⟨12,115792089237316195423570985008687907853269984665640564039457584007908834658815,[],[(5,.comment)],0,2⟩,⟨13,4398046511104,[],[],0,2⟩],[⟨7,1024,[],[],0,2⟩],[⟨6,8192,[],[(3,.setEnt .internalNl),(4,.cb)],0,2⟩,⟨8,1024,[],[(3,.setEnt .internalNl),(4,.cb)],0,2⟩,⟨9,4096,[],[(3,.setEnt .internalNl),(4,.cb)],0,2⟩,⟨10,8192,[.crAlone],[(3,.setEnt .internalNl),(4,.cb)],0,2⟩,⟨11,4294967808,[],[(3,.setEnt .internalNl),(4,.cb)],0,2⟩,⟨12,115792089237316195423570985008687907853269984665640564039457584007908834658815,[],[(3,.setEnt .internalNl),(4,.cb),(5,.comment)],0,2⟩,⟨13,4398046511104,[],[(3,.setEnt .internalNl),(4,.cb)],0,2⟩],[⟨6,8192,[],[(3,.setEnt .internalNl),(4,.cb)],0,2⟩,⟨8,1024,[],[(3,.setEnt .internalNl),(4,.cb)],0,2⟩,⟨9,4096,[],[(3,.setEnt .internalNl),(4,.cb)],0,2⟩,⟨10,8192,[.crAlone],[(3,.setEnt .internalNl),(4,.cb)],0,2⟩,⟨11,4294967808,[],[(3,.setEnt .internalNl),(4,.cb)],0,2⟩,⟨12,115792089237316195423570985008687907853269984665640564039457584007908834658815,[],[(3,.setEnt .internalNl),(4,.cb),(5,.comment)],0,2⟩,⟨13,4398046511104,[],[(3,.setEnt .internalNl),(4,.cb)],0,2⟩],[⟨6,8192,[],[(3,.setEnt .internalNl),(4,.cb)],0,2⟩,⟨8,1024,[],[(3,.setEnt .internalNl),(4,.cb)],0,2⟩,⟨9,4096,[],[(3,.setEnt .internalNl),(4,.cb)],0,2⟩,⟨10,8192,[.crAlone],[(3,.setEnt .internalNl),(4,.cb)],0,2⟩,⟨11,4294967808,[],[(3,.setEnt .internalNl),(4,.cb)],0,2⟩,⟨12,115792089237316195423570985008687907853269984665640564039457584007908834658815,[],[(3,.setEnt .internalNl),(4,.cb),(5,.comment)],0,2⟩,⟨13,4398046511104,[],[(3,.setEnt .internalNl),(4,.cb)],0,2⟩],[⟨6,8192,[],[(3,.setEnt .internalNl),(4,.cb)],0,2⟩,⟨8,1024,[],[(3,.setEnt .internalNl),(4,.cb)],0,2⟩,⟨9,4096,[],[(3,.setEnt .internalNl),(4,.cb)],0,2⟩,⟨10,8192,[.crAlone],[(3,.setEnt .internalNl),(4,.cb)],0,2⟩,⟨11,4294967808,[],[(3,.setEnt .internalNl),(4,.cb)],0,2⟩,⟨12,115792089237316195423570985008687907853269984665640564039457584007908834658815,[],[(3,.setEnt .internalNl),(4,.cb),(5,.comment)],0,2⟩,⟨13,4398046511104,[],[(3,.setEnt .internalNl),(4,.cb)],0,2⟩],[⟨6,8192,[],[],0,2⟩,⟨8,1024,[],[],0,2⟩,⟨9,4096,[],[],0,2⟩,⟨10,8192,[.crAlone],[],0,2⟩,⟨11,4294967808,[],[],0,2⟩,⟨12,115792089237316195423570985008687907853269984665640564039457584007908834658815,[],[(5,.comment)],0,2⟩,⟨13,4398046511104,[],[],0,2⟩],[⟨6,8192,[],[],0,2⟩,⟨8,1024,[],[],0,2⟩,⟨9,4096,[],[],0,2⟩,⟨10,8192,[.crAlone],[],0,2⟩,⟨11,4294967808,[],[],0,2⟩,⟨12,115792089237316195423570985008687907853269984665640564039457584007908834658815,[],[(5,.comment)],0,2⟩,⟨13,4398046511104,[],[],0,2⟩],[⟨14,140737488355328,[],[],2,0⟩],[],[⟨16,115792089237316195423570985008687907853269984665635612279300442486263777315839,[],[],0,0⟩,⟨17,4951760157141521099596496896,[],[],0,0⟩,⟨19,549755813888,[],[],0,0⟩],[⟨16,115792089237316195423570985008687907853269984665635612279300442486263777315839,[],[],0,0⟩,⟨17,4951760157141521099596496896,[],[],0,0⟩,⟨19,549755813888,[],[],0,0⟩],[⟨18,115792089237316195423570985008687907853269984665640564039457584007913129626623,[],[],0,0⟩],[⟨16,115792089237316195423570985008687907853269984665635612279300442486263777315839,[],[],0,0⟩,⟨17,4951760157141521099596496896,[],[],0,0⟩,⟨19,549755813888,[],[],0,0⟩],[],[⟨21,115792089237316195423570985008687907853269984665635612279300442486796353260543,[],[],0,0⟩,⟨22,4951760157141521099596496896,[],[],0,0⟩,⟨24,17179869184,[],[],0,0⟩],[⟨21,115792089237316195423570985008687907853269984665635612279300442486796353260543,[],[],0,0⟩,⟨22,4951760157141521099596496896,[],[],0,0⟩,⟨24,17179869184,[],[],0,0⟩],[⟨23,115792089237316195423570985008687907853269984665640564039457584007913129626623,[],[],0,0⟩],[⟨21,115792089237316195423570985008687907853269984665635612279300442486796353260543,[],[],0,0⟩,⟨22,4951760157141521099596496896,[],[],0,0⟩,⟨24,17179869184,[],[],0,0⟩],[],[⟨26,1024,[],[(8,.setEnt .newline)],0,0⟩],[],[],[],[],[]],[some (0,[]),none,some (1,[]),some (1,[]),none,none,none,none,none,none,none,none,none,none,some (1,[]),none,none,none,none,some (2,[]),none,none,none,none,some (2,[]),none,some (3,[]),some (3,[]),some (3,[]),some (3,[]),some (4,[])],[1,6,8,9,10]⟩
theorem java_line_nfa_eq : Java.java_line.nfa = java_line_nfa := by decide +kernel
/-- The machine of `Java.java_line`, with its automaton as a literal. -/
def java_line_M : Machine := ⟨java_line_nfa, Java.java_line.ends, Java.java_line.sw⟩
theorem java_line_M_eq : Java.java_line.machine = java_line_M := by
  unfold Scanner.machine java_line_M; rw [java_line_nfa_eq]
def java_line_masks : List Nat := [4294967808,140737488355328,549755813888,17179869184,8192,1024,4096,115792089237316195423570985008687907853269984665640564039457584007908834656767,115792089237316195423570985008687907853269984665640564039457584007913129626623,4398046511104,115792089237316195423570985008687907853269984665640564039457584007908834658815,115792089237316195423570985008687907853269984665635612279300442486263777315839,4951760157141521099596496896,115792089237316195423570985008687907853269984665635612279300442486796353260543]
def java_line_cs : List (Nat × Nat) := [(0,115792089237316195423570985008687907853269984665635612279300442341106767610367),(9,4294967808),(10,1024),(11,2048),(12,4096),(13,8192),(34,17179869184),(39,549755813888),(42,4398046511104),(47,140737488355328),(92,4951760157141521099596496896)]
theorem java_line_masksIn : masksIn java_line_nfa java_line_masks = true := by decide +kernel
theorem java_line_repOk : repOk java_line_masks java_line_cs = true := by decide +kernel
def java_line_rows : List Row := [⟨[],none,[],[⟨256,.other,false,some ⟨0,[.setEnt (.own 7)],some 4,true⟩⟩,⟨256,.ws,false,some ⟨1,[.setEnt (.own 0)],some 0,false⟩⟩,⟨256,.lf,false,some ⟨0,[.setEnt .newline],some 3,true⟩⟩,⟨256,.vt,false,none⟩,⟨256,.ff,false,some ⟨0,[.setEnt .newline],some 3,true⟩⟩,⟨256,.cr,false,some ⟨2,[.setEnt .newline],none,false⟩⟩,⟨256,.cr,true,some ⟨3,[.setEnt .newline],some 3,false⟩⟩,⟨256,.other,false,some ⟨4,[.code,.setEnt (.own 7)],some 4,false⟩⟩,⟨256,.other,false,some ⟨5,[.code,.setEnt (.own 7)],some 4,false⟩⟩,⟨256,.other,false,some ⟨6,[.setEnt (.own 7)],some 4,false⟩⟩]⟩,⟨[0],some 0,[],[⟨256,.other,false,none⟩,⟨256,.ws,false,some ⟨1,[.setEnt (.own 0)],some 0,false⟩⟩,⟨256,.lf,false,none⟩,⟨256,.vt,false,none⟩,⟨256,.ff,false,none⟩,⟨256,.cr,false,none⟩,⟨256,.cr,true,none⟩]⟩,⟨[25],none,[],[⟨256,.other,false,none⟩,⟨256,.ws,false,none⟩,⟨256,.lf,false,some ⟨0,[.setEnt .newline],some 3,true⟩⟩,⟨256,.vt,false,none⟩,⟨256,.ff,false,none⟩,⟨256,.cr,false,none⟩,⟨256,.cr,true,none⟩]⟩,⟨[25,29],some 3,[],[⟨256,.other,false,none⟩,⟨256,.ws,false,none⟩,⟨256,.lf,false,some ⟨0,[.setEnt .newline],some 3,true⟩⟩,⟨256,.vt,false,none⟩,⟨256,.ff,false,none⟩,⟨256,.cr,false,none⟩,⟨256,.cr,true,none⟩]⟩,⟨[20,30],some 4,[],[⟨256,.other,false,some ⟨7,[],none,false⟩⟩,⟨256,.ws,false,some ⟨7,[],none,false⟩⟩,⟨256,.lf,false,none⟩,⟨256,.vt,false,some ⟨7,[],none,false⟩⟩,⟨256,.ff,false,none⟩,⟨256,.cr,false,none⟩,⟨256,.cr,true,none⟩,⟨256,.other,false,some ⟨0,[],some 2,true⟩⟩,⟨256,.other,false,some ⟨8,[],none,false⟩⟩]⟩,⟨[15,30],some 4,[],[⟨256,.other,false,some ⟨9,[],none,false⟩⟩,⟨256,.ws,false,some ⟨9,[],none,false⟩⟩,⟨256,.lf,false,none⟩,⟨256,.vt,false,some ⟨9,[],none,false⟩⟩,⟨256,.ff,false,none⟩,⟨256,.cr,false,none⟩,⟨256,.cr,true,none⟩,⟨256,.other,false,some ⟨0,[],some 2,true⟩⟩,⟨256,.other,false,some ⟨10,[],none,false⟩⟩]⟩,⟨[1,4,30],some 4,[],[⟨256,.other,false,none⟩,⟨256,.ws,false,none⟩,⟨256,.lf,false,none⟩,⟨256,.vt,false,none⟩,⟨256,.ff,false,none⟩,⟨256,.cr,false,none⟩,⟨256,.cr,true,none⟩,⟨256,.other,false,some ⟨11,[.comment],none,false⟩⟩,⟨256,.other,false,some ⟨12,[.comment],some 1,false⟩⟩]⟩,⟨[21],none,[],[⟨256,.other,false,some ⟨7,[],none,false⟩⟩,⟨256,.ws,false,some ⟨7,[],none,false⟩⟩,⟨256,.lf,false,none⟩,⟨256,.vt,false,some ⟨7,[],none,false⟩⟩,⟨256,.ff,false,none⟩,⟨256,.cr,false,none⟩,⟨256,.cr,true,none⟩,⟨256,.other,false,some ⟨0,[],some 2,true⟩⟩,⟨256,.other,false,some ⟨8,[],none,false⟩⟩]⟩,⟨[22],none,[],[⟨256,.other,false,some ⟨13,[],none,false⟩⟩,⟨256,.ws,false,some ⟨13,[],none,false⟩⟩,⟨256,.lf,false,none⟩,⟨256,.vt,false,some ⟨13,[],none,false⟩⟩,⟨256,.ff,false,none⟩,⟨256,.cr,false,none⟩,⟨256,.cr,true,none⟩]⟩,⟨[16],none,[],[⟨256,.other,false,some ⟨9,[],none,false⟩⟩,⟨256,.ws,false,some ⟨9,[],none,false⟩⟩,⟨256,.lf,false,none⟩,⟨256,.vt,false,some ⟨9,[],none,false⟩⟩,⟨256,.ff,false,none⟩,⟨256,.cr,false,none⟩,⟨256,.cr,true,none⟩,⟨256,.other,false,some ⟨0,[],some 2,true⟩⟩,⟨256,.other,false,some ⟨10,[],none,false⟩⟩]⟩,⟨[17],none,[],[⟨256,.other,false,some ⟨14,[],none,false⟩⟩,⟨256,.ws,false,some ⟨14,[],none,false⟩⟩,⟨256,.lf,false,none⟩,⟨256,.vt,false,some ⟨14,[],none,false⟩⟩,⟨256,.ff,false,none⟩,⟨256,.cr,false,none⟩,⟨256,.cr,true,none⟩]⟩,⟨[5],none,[],[⟨256,.other,false,some ⟨15,[.comment],none,false⟩⟩,⟨256,.ws,false,some ⟨16,[],none,false⟩⟩,⟨256,.lf,false,some ⟨17,[],none,false⟩⟩,⟨256,.vt,false,some ⟨15,[.comment],none,false⟩⟩,⟨256,.ff,false,some ⟨18,[],none,false⟩⟩,⟨256,.cr,false,some ⟨19,[],none,false⟩⟩,⟨256,.cr,true,some ⟨20,[],none,false⟩⟩,⟨256,.other,false,some ⟨21,[.comment],none,false⟩⟩]⟩,⟨[2],some 1,[],[⟨256,.other,false,some ⟨22,[],some 1,false⟩⟩,⟨256,.ws,false,some ⟨22,[],some 1,false⟩⟩,⟨256,.lf,false,none⟩,⟨256,.vt,false,some ⟨22,[],some 1,false⟩⟩,⟨256,.ff,false,none⟩,⟨256,.cr,false,none⟩,⟨256,.cr,true,none⟩]⟩,⟨[23],none,[],[⟨256,.other,false,some ⟨7,[],none,false⟩⟩,⟨256,.ws,false,some ⟨7,[],none,false⟩⟩,⟨256,.lf,false,none⟩,⟨256,.vt,false,some ⟨7,[],none,false⟩⟩,⟨256,.ff,false,none⟩,⟨256,.cr,false,none⟩,⟨256,.cr,true,none⟩,⟨256,.other,false,some ⟨0,[],some 2,true⟩⟩,⟨256,.other,false,some ⟨8,[],none,false⟩⟩]⟩,⟨[18],none,[],[⟨256,.other,false,some ⟨9,[],none,false⟩⟩,⟨256,.ws,false,some ⟨9,[],none,false⟩⟩,⟨256,.lf,false,none⟩,⟨256,.vt,false,some ⟨9,[],none,false⟩⟩,⟨256,.ff,false,none⟩,⟨256,.cr,false,none⟩,⟨256,.cr,true,none⟩,⟨256,.other,false,some ⟨0,[],some 2,true⟩⟩,⟨256,.other,false,some ⟨10,[],none,false⟩⟩]⟩,⟨[12],none,[],[⟨256,.other,false,some ⟨15,[.comment],none,false⟩⟩,⟨256,.ws,false,some ⟨16,[],none,false⟩⟩,⟨256,.lf,false,some ⟨17,[],none,false⟩⟩,⟨256,.vt,false,some ⟨15,[.comment],none,false⟩⟩,⟨256,.ff,false,some ⟨18,[],none,false⟩⟩,⟨256,.cr,false,some ⟨19,[],none,false⟩⟩,⟨256,.cr,true,some ⟨20,[],none,false⟩⟩,⟨256,.other,false,some ⟨21,[.comment],none,false⟩⟩]⟩,⟨[11],none,[],[⟨256,.other,false,some ⟨15,[.comment],none,false⟩⟩,⟨256,.ws,false,some ⟨16,[],none,false⟩⟩,⟨256,.lf,false,some ⟨17,[],none,false⟩⟩,⟨256,.vt,false,some ⟨15,[.comment],none,false⟩⟩,⟨256,.ff,false,some ⟨18,[],none,false⟩⟩,⟨256,.cr,false,some ⟨19,[],none,false⟩⟩,⟨256,.cr,true,some ⟨20,[],none,false⟩⟩,⟨256,.other,false,some ⟨21,[.comment],none,false⟩⟩]⟩,⟨[8],none,[],[⟨256,.other,false,some ⟨15,[.setEnt .internalNl,.cb,.comment],none,false⟩⟩,⟨256,.ws,false,some ⟨16,[.setEnt .internalNl,.cb],none,false⟩⟩,⟨256,.lf,false,some ⟨17,[.setEnt .internalNl,.cb],none,false⟩⟩,⟨256,.vt,false,some ⟨15,[.setEnt .internalNl,.cb,.comment],none,false⟩⟩,⟨256,.ff,false,some ⟨18,[.setEnt .internalNl,.cb],none,false⟩⟩,⟨256,.cr,false,some ⟨19,[.setEnt .internalNl,.cb],none,false⟩⟩,⟨256,.cr,true,some ⟨20,[.setEnt .internalNl,.cb],none,false⟩⟩,⟨256,.other,false,some ⟨21,[.setEnt .internalNl,.cb,.comment],none,false⟩⟩]⟩,⟨[9],none,[],[⟨256,.other,false,some ⟨15,[.setEnt .internalNl,.cb,.comment],none,false⟩⟩,⟨256,.ws,false,some ⟨16,[.setEnt .internalNl,.cb],none,false⟩⟩,⟨256,.lf,false,some ⟨17,[.setEnt .internalNl,.cb],none,false⟩⟩,⟨256,.vt,false,some ⟨15,[.setEnt .internalNl,.cb,.comment],none,false⟩⟩,⟨256,.ff,false,some ⟨18,[.setEnt .internalNl,.cb],none,false⟩⟩,⟨256,.cr,false,some ⟨19,[.setEnt .internalNl,.cb],none,false⟩⟩,⟨256,.cr,true,some ⟨20,[.setEnt .internalNl,.cb],none,false⟩⟩,⟨256,.other,false,some ⟨21,[.setEnt .internalNl,.cb,.comment],none,false⟩⟩]⟩,⟨[6],none,[],[⟨256,.other,false,none⟩,⟨256,.ws,false,none⟩,⟨256,.lf,false,some ⟨23,[],none,false⟩⟩,⟨256,.vt,false,none⟩,⟨256,.ff,false,none⟩,⟨256,.cr,false,none⟩,⟨256,.cr,true,none⟩]⟩,⟨[6,10],none,[],[⟨256,.other,false,some ⟨15,[.setEnt .internalNl,.cb,.comment],none,false⟩⟩,⟨256,.ws,false,some ⟨16,[.setEnt .internalNl,.cb],none,false⟩⟩,⟨256,.lf,false,some ⟨24,[.setEnt .internalNl,.cb],none,false⟩⟩,⟨256,.vt,false,some ⟨15,[.setEnt .internalNl,.cb,.comment],none,false⟩⟩,⟨256,.ff,false,some ⟨18,[.setEnt .internalNl,.cb],none,false⟩⟩,⟨256,.cr,false,some ⟨19,[.setEnt .internalNl,.cb],none,false⟩⟩,⟨256,.cr,true,some ⟨20,[.setEnt .internalNl,.cb],none,false⟩⟩,⟨256,.other,false,some ⟨21,[.setEnt .internalNl,.cb,.comment],none,false⟩⟩]⟩,⟨[12,13],none,[],[⟨256,.other,false,some ⟨15,[.comment],none,false⟩⟩,⟨256,.ws,false,some ⟨16,[],none,false⟩⟩,⟨256,.lf,false,some ⟨17,[],none,false⟩⟩,⟨256,.vt,false,some ⟨15,[.comment],none,false⟩⟩,⟨256,.ff,false,some ⟨18,[],none,false⟩⟩,⟨256,.cr,false,some ⟨19,[],none,false⟩⟩,⟨256,.cr,true,some ⟨20,[],none,false⟩⟩,⟨256,.other,false,some ⟨21,[.comment],none,false⟩⟩,⟨256,.other,false,some ⟨0,[],some 1,true⟩⟩]⟩,⟨[3],some 1,[],[⟨256,.other,false,some ⟨22,[],some 1,false⟩⟩,⟨256,.ws,false,some ⟨22,[],some 1,false⟩⟩,⟨256,.lf,false,none⟩,⟨256,.vt,false,some ⟨22,[],some 1,false⟩⟩,⟨256,.ff,false,none⟩,⟨256,.cr,false,none⟩,⟨256,.cr,true,none⟩]⟩,⟨[7],none,[],[⟨256,.other,false,some ⟨15,[.setEnt .internalNl,.cb,.comment],none,false⟩⟩,⟨256,.ws,false,some ⟨16,[.setEnt .internalNl,.cb],none,false⟩⟩,⟨256,.lf,false,some ⟨17,[.setEnt .internalNl,.cb],none,false⟩⟩,⟨256,.vt,false,some ⟨15,[.setEnt .internalNl,.cb,.comment],none,false⟩⟩,⟨256,.ff,false,some ⟨18,[.setEnt .internalNl,.cb],none,false⟩⟩,⟨256,.cr,false,some ⟨19,[.setEnt .internalNl,.cb],none,false⟩⟩,⟨256,.cr,true,some ⟨20,[.setEnt .internalNl,.cb],none,false⟩⟩,⟨256,.other,false,some ⟨21,[.setEnt .internalNl,.cb,.comment],none,false⟩⟩]⟩,⟨[7,8],none,[],[⟨256,.other,false,some ⟨15,[.setEnt .internalNl,.cb,.comment],none,false⟩⟩,⟨256,.ws,false,some ⟨16,[.setEnt .internalNl,.cb],none,false⟩⟩,⟨256,.lf,false,some ⟨17,[.setEnt .internalNl,.cb],none,false⟩⟩,⟨256,.vt,false,some ⟨15,[.setEnt .internalNl,.cb,.comment],none,false⟩⟩,⟨256,.ff,false,some ⟨18,[.setEnt .internalNl,.cb],none,false⟩⟩,⟨256,.cr,false,some ⟨19,[.setEnt .internalNl,.cb],none,false⟩⟩,⟨256,.cr,true,some ⟨20,[.setEnt .internalNl,.cb],none,false⟩⟩,⟨256,.other,false,some ⟨21,[.setEnt .internalNl,.cb,.comment],none,false⟩⟩]⟩]
theorem java_line_rowsOk : rowsOk java_line_nfa [] (java_line_cs.map (·.1)) java_line_rows = true := by decide +kernel
def java_line_D : Dfa java_line_M.nfa := ⟨java_line_masks, [], java_line_cs, java_line_rows, java_line_masksIn, java_line_repOk, java_line_rowsOk⟩

def make_line_nfa : Nfa := ⟨[⟨0,4294967808,[],[(0,.setEnt (.own 0))],0,0⟩,⟨1,34359738368,[],[(1,.comment)],0,0⟩,⟨3,549755813888,[],[(2,.code)],0,0⟩,⟨8,17179869184,[],[(3,.code)],0,0⟩,⟨13,8192,[],[(4,.setEnt .newline)],0,0⟩,⟨15,1024,[],[(4,.setEnt .newline)],0,0⟩,⟨16,4096,[],[(4,.setEnt .newline)],0,0⟩,⟨17,8192,[.crAlone],[(4,.setEnt .newline)],0,0⟩,⟨18,115792089237316195423570985008687907853269984665640564039457584007908834656767,[],[(5,.setEnt (.own 3))],0,0⟩],[[⟨0,4294967808,[],[(0,.setEnt (.own 0))],0,0⟩],[⟨2,115792089237316195423570985008687907853269984665640564039457584007913129626623,[],[],0,0⟩],[⟨2,115792089237316195423570985008687907853269984665640564039457584007913129626623,[],[],0,0⟩],[⟨4,115792089237316195423570985008687907853269984665635612279300442486263777315839,[],[],0,0⟩,⟨5,4951760157141521099596496896,[],[],0,0⟩,⟨7,549755813888,[],[],0,0⟩],[⟨4,115792089237316195423570985008687907853269984665635612279300442486263777315839,[],[],0,0⟩,⟨5,4951760157141521099596496896,[],[],0,0⟩,⟨7,549755813888,[],[],0,0⟩],[⟨6,115792089237316195423570985008687907853269984665640564039457584007913129626623,[],[],0,0⟩],[⟨4,115792089237316195423570985008687907853269984665635612279300442486263777315839,[],[],0,0⟩,⟨5,4951760157141521099596496896,[],[],0,0⟩,⟨7,549755813888,[],[],0,0⟩],[],[⟨9,115792089237316195423570985008687907853269984665635612279300442486796353260543,[],[],0,0⟩,⟨10,4951760157141521099596496896,[],[],0,0⟩,⟨12,17179869184,[],[],0,0⟩],[⟨9,115792089237316195423570985008687907853269984665635612279300442486796353260543,[],[],0,0⟩,⟨10,4951760157141521099596496896,[],[],0,0⟩,⟨12,17179869184,[],[],0,0⟩],[⟨11,115792089237316195423570985008687907853269984665640564039457584007913129626623,[],[],0,0⟩],[⟨9,115792089237316195423570985008687907853269984665635612279300442486796353260543,[],[],0,0⟩,⟨10,4951760157141521099596496896,[],[],0,0⟩,⟨12,17179869184,[],[],0,0⟩],[],[⟨14,1024,[],[(4,.setEnt .newline)],0,0⟩],[],[],[],[],[]],[some (0,[]),some (1,[]),some (1,[]),none,none,none,none,some (2,[]),none,none,none,none,some (2,[]),none,some (3,[]),some (3,[]),some (3,[]),some (3,[]),some (4,[])],[1,2,4,5,6]⟩
theorem make_line_nfa_eq : Makefile.make_line.nfa = make_line_nfa := by decide +kernel
/-- The machine of `Makefile.make_line`, with its automaton as a literal. -/
def make_line_M : Machine := ⟨make_line_nfa, Makefile.make_line.ends, Makefile.make_line.sw⟩
theorem make_line_M_eq : Makefile.make_line.machine = make_line_M := by
  unfold Scanner.machine make_line_M; rw [make_line_nfa_eq]
def make_line_masks : List Nat := [4294967808,34359738368,549755813888,17179869184,8192,1024,4096,115792089237316195423570985008687907853269984665640564039457584007908834656767,115792089237316195423570985008687907853269984665640564039457584007913129626623,115792089237316195423570985008687907853269984665635612279300442486263777315839,4951760157141521099596496896,115792089237316195423570985008687907853269984665635612279300442486796353260543]
def make_line_cs : List (Nat × Nat) := [(0,115792089237316195423570985008687907853269984665635612279300442486207942738431),(9,4294967808),(10,1024),(11,2048),(12,4096),(13,8192),(34,17179869184),(35,34359738368),(39,549755813888),(92,4951760157141521099596496896)]
theorem make_line_masksIn : masksIn make_line_nfa make_line_masks = true := by decide +kernel
theorem make_line_repOk : repOk make_line_masks make_line_cs = true := by decide +kernel
def make_line_rows : List Row := [⟨[],none,[],[⟨256,.other,false,some ⟨0,[.setEnt (.own 3)],some 4,true⟩⟩,⟨256,.ws,false,some ⟨1,[.setEnt (.own 0)],some 0,false⟩⟩,⟨256,.lf,false,some ⟨0,[.setEnt .newline],some 3,true⟩⟩,⟨256,.vt,false,none⟩,⟨256,.ff,false,some ⟨0,[.setEnt .newline],some 3,true⟩⟩,⟨256,.cr,false,some ⟨2,[.setEnt .newline],none,false⟩⟩,⟨256,.cr,true,some ⟨3,[.setEnt .newline],some 3,false⟩⟩,⟨256,.other,false,some ⟨4,[.code,.setEnt (.own 3)],some 4,false⟩⟩,⟨256,.other,false,some ⟨5,[.comment,.setEnt (.own 3)],some 1,false⟩⟩,⟨256,.other,false,some ⟨6,[.code,.setEnt (.own 3)],some 4,false⟩⟩]⟩,⟨[0],some 0,[],[⟨256,.other,false,none⟩,⟨256,.ws,false,some ⟨1,[.setEnt (.own 0)],some 0,false⟩⟩,⟨256,.lf,false,none⟩,⟨256,.vt,false,none⟩,⟨256,.ff,false,none⟩,⟨256,.cr,false,none⟩,⟨256,.cr,true,none⟩]⟩,⟨[13],none,[],[⟨256,.other,false,none⟩,⟨256,.ws,false,none⟩,⟨256,.lf,false,some ⟨0,[.setEnt .newline],some 3,true⟩⟩,⟨256,.vt,false,none⟩,⟨256,.ff,false,none⟩,⟨256,.cr,false,none⟩,⟨256,.cr,true,none⟩]⟩,⟨[13,17],some 3,[],[⟨256,.other,false,none⟩,⟨256,.ws,false,none⟩,⟨256,.lf,false,some ⟨0,[.setEnt .newline],some 3,true⟩⟩,⟨256,.vt,false,none⟩,⟨256,.ff,false,none⟩,⟨256,.cr,false,none⟩,⟨256,.cr,true,none⟩]⟩,⟨[8,18],some 4,[],[⟨256,.other,false,some ⟨7,[],none,false⟩⟩,⟨256,.ws,false,some ⟨7,[],none,false⟩⟩,⟨256,.lf,false,none⟩,⟨256,.vt,false,some ⟨7,[],none,false⟩⟩,⟨256,.ff,false,none⟩,⟨256,.cr,false,none⟩,⟨256,.cr,true,none⟩,⟨256,.other,false,some ⟨0,[],some 2,true⟩⟩,⟨256,.other,false,some ⟨8,[],none,false⟩⟩]⟩,⟨[1,18],some 1,[],[⟨256,.other,false,some ⟨9,[],some 1,false⟩⟩,⟨256,.ws,false,some ⟨9,[],some 1,false⟩⟩,⟨256,.lf,false,none⟩,⟨256,.vt,false,some ⟨9,[],some 1,false⟩⟩,⟨256,.ff,false,none⟩,⟨256,.cr,false,none⟩,⟨256,.cr,true,none⟩]⟩,⟨[3,18],some 4,[],[⟨256,.other,false,some ⟨10,[],none,false⟩⟩,⟨256,.ws,false,some ⟨10,[],none,false⟩⟩,⟨256,.lf,false,none⟩,⟨256,.vt,false,some ⟨10,[],none,false⟩⟩,⟨256,.ff,false,none⟩,⟨256,.cr,false,none⟩,⟨256,.cr,true,none⟩,⟨256,.other,false,some ⟨0,[],some 2,true⟩⟩,⟨256,.other,false,some ⟨11,[],none,false⟩⟩]⟩,⟨[9],none,[],[⟨256,.other,false,some ⟨7,[],none,false⟩⟩,⟨256,.ws,false,some ⟨7,[],none,false⟩⟩,⟨256,.lf,false,none⟩,⟨256,.vt,false,some ⟨7,[],none,false⟩⟩,⟨256,.ff,false,none⟩,⟨256,.cr,false,none⟩,⟨256,.cr,true,none⟩,⟨256,.other,false,some ⟨0,[],some 2,true⟩⟩,⟨256,.other,false,some ⟨8,[],none,false⟩⟩]⟩,⟨[10],none,[],[⟨256,.other,false,some ⟨12,[],none,false⟩⟩,⟨256,.ws,false,some ⟨12,[],none,false⟩⟩,⟨256,.lf,false,none⟩,⟨256,.vt,false,some ⟨12,[],none,false⟩⟩,⟨256,.ff,false,none⟩,⟨256,.cr,false,none⟩,⟨256,.cr,true,none⟩]⟩,⟨[2],some 1,[],[⟨256,.other,false,some ⟨9,[],some 1,false⟩⟩,⟨256,.ws,false,some ⟨9,[],some 1,false⟩⟩,⟨256,.lf,false,none⟩,⟨256,.vt,false,some ⟨9,[],some 1,false⟩⟩,⟨256,.ff,false,none⟩,⟨256,.cr,false,none⟩,⟨256,.cr,true,none⟩]⟩,⟨[4],none,[],[⟨256,.other,false,some ⟨10,[],none,false⟩⟩,⟨256,.ws,false,some ⟨10,[],none,false⟩⟩,⟨256,.lf,false,none⟩,⟨256,.vt,false,some ⟨10,[],none,false⟩⟩,⟨256,.ff,false,none⟩,⟨256,.cr,false,none⟩,⟨256,.cr,true,none⟩,⟨256,.other,false,some ⟨0,[],some 2,true⟩⟩,⟨256,.other,false,some ⟨11,[],none,false⟩⟩]⟩,⟨[5],none,[],[⟨256,.other,false,some ⟨13,[],none,false⟩⟩,⟨256,.ws,false,some ⟨13,[],none,false⟩⟩,⟨256,.lf,false,none⟩,⟨256,.vt,false,some ⟨13,[],none,false⟩⟩,⟨256,.ff,false,none⟩,⟨256,.cr,false,none⟩,⟨256,.cr,true,none⟩]⟩,⟨[11],none,[],[⟨256,.other,false,some ⟨7,[],none,false⟩⟩,⟨256,.ws,false,some ⟨7,[],none,false⟩⟩,⟨256,.lf,false,none⟩,⟨256,.vt,false,some ⟨7,[],none,false⟩⟩,⟨256,.ff,false,none⟩,⟨256,.cr,false,none⟩,⟨256,.cr,true,none⟩,⟨256,.other,false,some ⟨0,[],some 2,true⟩⟩,⟨256,.other,false,some ⟨8,[],none,false⟩⟩]⟩,⟨[6],none,[],[⟨256,.other,false,some ⟨10,[],none,false⟩⟩,⟨256,.ws,false,some ⟨10,[],none,false⟩⟩,⟨256,.lf,false,none⟩,⟨256,.vt,false,some ⟨10,[],none,false⟩⟩,⟨256,.ff,false,none⟩,⟨256,.cr,false,none⟩,⟨256,.cr,true,none⟩,⟨256,.other,false,some ⟨0,[],some 2,true⟩⟩,⟨256,.other,false,some ⟨11,[],none,false⟩⟩]⟩]
theorem make_line_rowsOk : rowsOk make_line_nfa [] (make_line_cs.map (·.1)) make_line_rows = true := by decide +kernel
def make_line_D : Dfa make_line_M.nfa := ⟨make_line_masks, [], make_line_cs, make_line_rows, make_line_masksIn, make_line_repOk, make_line_rowsOk⟩

def nsis_line_nfa : Nfa := ⟨[⟨0,4294967808,[],[(0,.setEnt (.own 0))],0,0⟩,⟨1,576460786663161856,[],[(1,.comment)],0,0⟩,⟨3,140737488355328,[],[],0,2⟩,⟨14,79228162514264337593543950336,[],[(6,.code)],0,0⟩,⟨19,549755813888,[],[(7,.code)],0,0⟩,⟨24,17179869184,[],[(8,.code)],0,0⟩,⟨29,8192,[],[(9,.setEnt .newline)],0,0⟩,⟨31,1024,[],[(9,.setEnt .newline)],0,0⟩,⟨32,4096,[],[(9,.setEnt .newline)],0,0⟩,⟨33,8192,[.crAlone],[(9,.setEnt .newline)],0,0⟩,⟨34,115792089237316195423570985008687907853269984665640564039457584007908834656767,[],[(10,.setEnt (.own 3))],0,0⟩],[[⟨0,4294967808,[],[(0,.setEnt (.own 0))],0,0⟩],[⟨2,115792089237316195423570985008687907853269984665640564039457584007913129626623,[],[],0,0⟩],[⟨2,115792089237316195423570985008687907853269984665640564039457584007913129626623,[],[],0,0⟩],[⟨4,4398046511104,[],[(2,.comment)],0,2⟩],[⟨5,8192,[],[],0,2⟩,⟨7,1024,[],[],0,2⟩,⟨8,4096,[],[],0,2⟩,⟨9,8192,[.crAlone],[],0,2⟩,⟨10,4294967808,[],[],0,2⟩,⟨11,115792089237316195423570985008687907853269984665640564039457584007908834658815,[],[(5,.comment)],0,2⟩,⟨12,4398046511104,[],[],0,2⟩],[⟨6,1024,[],[],0,2⟩],[⟨5,8192,[],[(3,.setEnt .internalNl),(4,.cb)],0,2⟩,⟨7,1024,[],[(3,.setEnt .internalNl),(4,.cb)],0,2⟩,⟨8,4096,[],[(3,.setEnt .internalNl),(4,.cb)],0,2⟩,⟨9,8192,[.crAlone],[(3,.setEnt .internalNl),(4,.cb)],0,2⟩,⟨10,4294967808,[],[(3,.setEnt .internalNl),(4,.cb)],0,2⟩,⟨11,115792089237316195423570985008687907853269984665640564039457584007908834658815,[],[(3,.setEnt .internalNl),(4,.cb),(5,.comment)],0,2⟩,⟨12,4398046511104,[],[(3,.setEnt .internalNl),(4,.cb)],0,2⟩],[⟨5,8192,[],[(3,.setEnt .internalNl),(4,.cb)],0,2⟩,⟨7,1024,[],[(3,.setEnt .internalNl),(4,.cb)],0,2⟩,⟨8,4096,[],[(3,.setEnt .internalNl),(4,.cb)],0,2⟩,⟨9,8192,[.crAlone],[(3,.setEnt .internalNl),(4,.cb)],0,2⟩,⟨10,4294967808,[],[(3,.setEnt .internalNl),(4,.cb)],0,2⟩,⟨11,115792089237316195423570985008687907853269984665640564039457584007908834658815,[],[(3,.setEnt .internalNl),(4,.cb),(5,.comment)],0,2⟩,⟨12,4398046511104,[],[(3,.setEnt .internalNl),(4,.cb)],0,2⟩],[⟨5,8192,[],[(3,.setEnt .internalNl),(4,.cb)],0,2⟩,⟨7,1024,[],[(3,.setEnt .internalNl),(4,.cb)],0,2⟩,⟨8,4096,[],[(3,.setEnt .internalNl),(4,.cb)],0,2⟩,⟨9,8192,[.crAlone],[(3,.setEnt .internalNl),(4,.cb)],0,2⟩,⟨10,4294967808,[],[(3,.setEnt .internalNl),(4,.cb)],0,2⟩,⟨11,115792089237316195423570985008687907853269984665640564039457584007908834658815,[],[(3,.setEnt .internalNl),(4,.cb),(5,.comment)],0,2⟩,⟨12,4398046511104,[],[(3,.setEnt .internalNl),(4,.cb)],0,2⟩],[⟨5,8192,[],[(3,.setEnt .internalNl),(4,.cb)],0,2⟩,⟨7,1024,[],[(3,.setEnt .internalNl),(4,.cb)],0,2⟩,⟨8,4096,[],[(3,.setEnt .internalNl),(4,.cb)],0,2⟩,⟨9,8192,[.crAlone],[(3,.setEnt .internalNl),(4,.cb)],0,2⟩,⟨10,4294967808,[],[(3,.setEnt .internalNl),(4,.cb)],0,2⟩,⟨11,115792089237316195423570985008687907853269984665640564039457584007908834658815,[],[(3,.setEnt .internalNl),(4,.cb),(5,.comment)],0,2⟩,⟨12,4398046511104,[],[(3,.setEnt .internalNl),(4,.cb)],0,2⟩],[⟨5,8192,[],[],0,2⟩,⟨7,1024,[],[],0,2⟩,⟨8,4096,[],[],0,2⟩,⟨9,8192,[.crAlone],[],0,2⟩,⟨10,4294967808,[],[],0,2⟩,⟨11,115792089237316195423570985008687907853269984665640564039457584007908834658815,[],[(5,.comment)],0,2⟩,⟨12,4398046511104,[],[],0,2⟩],[⟨5,8192,[],[],0,2⟩,⟨7,1024,[],[],0,2⟩,⟨8,4096,[],[],0,2⟩,⟨9,8192,[.crAlone],[],0,2⟩,⟨10,4294967808,[],[],0,2⟩,⟨11,115792089237316195423570985008687907853269984665640564039457584007908834658815,[],[(5,.comment)],0,2⟩,⟨12,4398046511104,[],[],0,2⟩],[⟨13,140737488355328,[],[],2,0⟩],[],[⟨15,115792089237316195423570985008687907853269984665556384116786178149219989179391,[],[],0,0⟩,⟨16,4951760157141521099596496896,[],[],0,0⟩,⟨18,79228162514264337593543950336,[],[],0,0⟩],[⟨15,115792089237316195423570985008687907853269984665556384116786178149219989179391,[],[],0,0⟩,⟨16,4951760157141521099596496896,[],[],0,0⟩,⟨18,79228162514264337593543950336,[],[],0,0⟩],[⟨17,115792089237316195423570985008687907853269984665640564039457584007913129626623,[],[],0,0⟩],[⟨15,115792089237316195423570985008687907853269984665556384116786178149219989179391,[],[],0,0⟩,⟨16,4951760157141521099596496896,[],[],0,0⟩,⟨18,79228162514264337593543950336,[],[],0,0⟩],[],[⟨20,115792089237316195423570985008687907853269984665635612279300442486263777315839,[],[],0,0⟩,⟨21,4951760157141521099596496896,[],[],0,0⟩,⟨23,549755813888,[],[],0,0⟩],[⟨20,115792089237316195423570985008687907853269984665635612279300442486263777315839,[],[],0,0⟩,⟨21,4951760157141521099596496896,[],[],0,0⟩,⟨23,549755813888,[],[],0,0⟩],[⟨22,115792089237316195423570985008687907853269984665640564039457584007913129626623,[],[],0,0⟩],[⟨20,115792089237316195423570985008687907853269984665635612279300442486263777315839,[],[],0,0⟩,⟨21,4951760157141521099596496896,[],[],0,0⟩,⟨23,549755813888,[],[],0,0⟩],[],[⟨25,115792089237316195423570985008687907853269984665635612279300442486796353260543,[],[],0,0⟩,⟨26,4951760157141521099596496896,[],[],0,0⟩,⟨28,17179869184,[],[],0,0⟩],[⟨25,115792089237316195423570985008687907853269984665635612279300442486796353260543,[],[],0,0⟩,⟨26,4951760157141521099596496896,[],[],0,0⟩,⟨28,17179869184,[],[],0,0⟩],[⟨27,115792089237316195423570985008687907853269984665640564039457584007913129626623,[],[],0,0⟩],[⟨25,115792089237316195423570985008687907853269984665635612279300442486796353260543,[],[],0,0⟩,⟨26,4951760157141521099596496896,[],[],0,0⟩,⟨28,17179869184,[],[],0,0⟩],[],[⟨30,1024,[],[(9,.setEnt .newline)],0,0⟩],[],[],[],[],[]],[some (0,[]),some (1,[]),some (1,[]),none,none,none,none,none,none,none,none,none,none,some (1,[]),none,none,none,none,some (2,[]),none,none,none,none,some (2,[]),none,none,none,none,some (2,[]),none,some (3,[]),some (3,[]),some (3,[]),some (3,[]),some (4,[])],[1,6,9,10,11]⟩
theorem nsis_line_nfa_eq : Nsis.nsis_line.nfa = nsis_line_nfa := by decide +kernel
/-- The machine of `Nsis.nsis_line`, with its automaton as a literal. -/
def nsis_line_M : Machine := ⟨nsis_line_nfa, Nsis.nsis_line.ends, Nsis.nsis_line.sw⟩
theorem nsis_line_M_eq : Nsis.nsis_line.machine = nsis_line_M := by
  unfold Scanner.machine nsis_line_M; rw [nsis_line_nfa_eq]
def nsis_line_masks : List Nat := [4294967808,576460786663161856,140737488355328,79228162514264337593543950336,549755813888,17179869184,8192,1024,4096,115792089237316195423570985008687907853269984665640564039457584007908834656767,115792089237316195423570985008687907853269984665640564039457584007913129626623,4398046511104,115792089237316195423570985008687907853269984665640564039457584007908834658815,115792089237316195423570985008687907853269984665556384116786178149219989179391,4951760157141521099596496896,115792089237316195423570985008687907853269984665635612279300442486263777315839,115792089237316195423570985008687907853269984665635612279300442486796353260543]
def nsis_line_cs : List (Nat × Nat) := [(0,115792089237316195423570985008687907853269984665556384116785601542726560498175),(9,4294967808),(10,1024),(11,2048),(12,4096),(13,8192),(34,17179869184),(35,576460786663161856),(39,549755813888),(42,4398046511104),(47,140737488355328),(92,4951760157141521099596496896),(96,79228162514264337593543950336)]
theorem nsis_line_masksIn : masksIn nsis_line_nfa nsis_line_masks = true := by decide +kernel
theorem nsis_line_repOk : repOk nsis_line_masks nsis_line_cs = true := by decide +kernel
def nsis_line_rows : List Row := [⟨[],none,[],[⟨256,.other,false,some ⟨0,[.setEnt (.own 3)],some 4,true⟩⟩,⟨256,.ws,false,some ⟨1,[.setEnt (.own 0)],some 0,false⟩⟩,⟨256,.lf,false,some ⟨0,[.setEnt .newline],some 3,true⟩⟩,⟨256,.vt,false,none⟩,⟨256,.ff,false,some ⟨0,[.setEnt .newline],some 3,true⟩⟩,⟨256,.cr,false,some ⟨2,[.setEnt .newline],none,false⟩⟩,⟨256,.cr,true,some ⟨3,[.setEnt .newline],some 3,false⟩⟩,⟨256,.other,false,some ⟨4,[.code,.setEnt (.own 3)],some 4,false⟩⟩,⟨256,.other,false,some ⟨5,[.comment,.setEnt (.own 3)],some 1,false⟩⟩,⟨256,.other,false,some ⟨6,[.code,.setEnt (.own 3)],some 4,false⟩⟩,⟨256,.other,false,some ⟨7,[.setEnt (.own 3)],some 4,false⟩⟩,⟨256,.other,false,some ⟨8,[.code,.setEnt (.own 3)],some 4,false⟩⟩]⟩,⟨[0],some 0,[],[⟨256,.other,false,none⟩,⟨256,.ws,false,some ⟨1,[.setEnt (.own 0)],some 0,false⟩⟩,⟨256,.lf,false,none⟩,⟨256,.vt,false,none⟩,⟨256,.ff,false,none⟩,⟨256,.cr,false,none⟩,⟨256,.cr,true,none⟩]⟩,⟨[29],none,[],[⟨256,.other,false,none⟩,⟨256,.ws,false,none⟩,⟨256,.lf,false,some ⟨0,[.setEnt .newline],some 3,true⟩⟩,⟨256,.vt,false,none⟩,⟨256,.ff,false,none⟩,⟨256,.cr,false,none⟩,⟨256,.cr,true,none⟩]⟩,⟨[29,33],some 3,[],[⟨256,.other,false,none⟩,⟨256,.ws,false,none⟩,⟨256,.lf,false,some ⟨0,[.setEnt .newline],some 3,true⟩⟩,⟨256,.vt,false,none⟩,⟨256,.ff,false,none⟩,⟨256,.cr,false,none⟩,⟨256,.cr,true,none⟩]⟩,⟨[24,34],some 4,[],[⟨256,.other,false,some ⟨9,[],none,false⟩⟩,⟨256,.ws,false,some ⟨9,[],none,false⟩⟩,⟨256,.lf,false,none⟩,⟨256,.vt,false,some ⟨9,[],none,false⟩⟩,⟨256,.ff,false,none⟩,⟨256,.cr,false,none⟩,⟨256,.cr,true,none⟩,⟨256,.other,false,some ⟨0,[],some 2,true⟩⟩,⟨256,.other,false,some ⟨10,[],none,false⟩⟩]⟩,⟨[1,34],some 1,[],[⟨256,.other,false,some ⟨11,[],some 1,false⟩⟩,⟨256,.ws,false,some ⟨11,[],some 1,false⟩⟩,⟨256,.lf,false,none⟩,⟨256,.vt,false,some ⟨11,[],some 1,false⟩⟩,⟨256,.ff,false,none⟩,⟨256,.cr,false,none⟩,⟨256,.cr,true,none⟩]⟩,⟨[19,34],some 4,[],[⟨256,.other,false,some ⟨12,[],none,false⟩⟩,⟨256,.ws,false,some ⟨12,[],none,false⟩⟩,⟨256,.lf,false,none⟩,⟨256,.vt,false,some ⟨12,[],none,false⟩⟩,⟨256,.ff,false,none⟩,⟨256,.cr,false,none⟩,⟨256,.cr,true,none⟩,⟨256,.other,false,some ⟨0,[],some 2,true⟩⟩,⟨256,.other,false,some ⟨13,[],none,false⟩⟩]⟩,⟨[3,34],some 4,[],[⟨256,.other,false,none⟩,⟨256,.ws,false,none⟩,⟨256,.lf,false,none⟩,⟨256,.vt,false,none⟩,⟨256,.ff,false,none⟩,⟨256,.cr,false,none⟩,⟨256,.cr,true,none⟩,⟨256,.other,false,some ⟨14,[.comment],none,false⟩⟩]⟩,⟨[14,34],some 4,[],[⟨256,.other,false,some ⟨15,[],none,false⟩⟩,⟨256,.ws,false,some ⟨15,[],none,false⟩⟩,⟨256,.lf,false,none⟩,⟨256,.vt,false,some ⟨15,[],none,false⟩⟩,⟨256,.ff,false,none⟩,⟨256,.cr,false,none⟩,⟨256,.cr,true,none⟩,⟨256,.other,false,some ⟨16,[],none,false⟩⟩,⟨256,.other,false,some ⟨0,[],some 2,true⟩⟩]⟩,⟨[25],none,[],[⟨256,.other,false,some ⟨9,[],none,false⟩⟩,⟨256,.ws,false,some ⟨9,[],none,false⟩⟩,⟨256,.lf,false,none⟩,⟨256,.vt,false,some ⟨9,[],none,false⟩⟩,⟨256,.ff,false,none⟩,⟨256,.cr,false,none⟩,⟨256,.cr,true,none⟩,⟨256,.other,false,some ⟨0,[],some 2,true⟩⟩,⟨256,.other,false,some ⟨10,[],none,false⟩⟩]⟩,⟨[26],none,[],[⟨256,.other,false,some ⟨17,[],none,false⟩⟩,⟨256,.ws,false,some ⟨17,[],none,false⟩⟩,⟨256,.lf,false,none⟩,⟨256,.vt,false,some ⟨17,[],none,false⟩⟩,⟨256,.ff,false,none⟩,⟨256,.cr,false,none⟩,⟨256,.cr,true,none⟩]⟩,⟨[2],some 1,[],[⟨256,.other,false,some ⟨11,[],some 1,false⟩⟩,⟨256,.ws,false,some ⟨11,[],some 1,false⟩⟩,⟨256,.lf,false,none⟩,⟨256,.vt,false,some ⟨11,[],some 1,false⟩⟩,⟨256,.ff,false,none⟩,⟨256,.cr,false,none⟩,⟨256,.cr,true,none⟩]⟩,⟨[20],none,[],[⟨256,.other,false,some ⟨12,[],none,false⟩⟩,⟨256,.ws,false,some ⟨12,[],none,false⟩⟩,⟨256,.lf,false,none⟩,⟨256,.vt,false,some ⟨12,[],none,false⟩⟩,⟨256,.ff,false,none⟩,⟨256,.cr,false,none⟩,⟨256,.cr,true,none⟩,⟨256,.other,false,some ⟨0,[],some 2,true⟩⟩,⟨256,.other,false,some ⟨13,[],none,false⟩⟩]⟩,⟨[21],none,[],[⟨256,.other,false,some ⟨18,[],none,false⟩⟩,⟨256,.ws,false,some ⟨18,[],none,false⟩⟩,⟨256,.lf,false,none⟩,⟨256,.vt,false,some ⟨18,[],none,false⟩⟩,⟨256,.ff,false,none⟩,⟨256,.cr,false,none⟩,⟨256,.cr,true,none⟩]⟩,⟨[4],none,[],[⟨256,.other,false,some ⟨19,[.comment],none,false⟩⟩,⟨256,.ws,false,some ⟨20,[],none,false⟩⟩,⟨256,.lf,false,some ⟨21,[],none,false⟩⟩,⟨256,.vt,false,some ⟨19,[.comment],none,false⟩⟩,⟨256,.ff,false,some ⟨22,[],none,false⟩⟩,⟨256,.cr,false,some ⟨23,[],none,false⟩⟩,⟨256,.cr,true,some ⟨24,[],none,false⟩⟩,⟨256,.other,false,some ⟨25,[.comment],none,false⟩⟩]⟩,⟨[15],none,[],[⟨256,.other,false,some ⟨15,[],none,false⟩⟩,⟨256,.ws,false,some ⟨15,[],none,false⟩⟩,⟨256,.lf,false,none⟩,⟨256,.vt,false,some ⟨15,[],none,false⟩⟩,⟨256,.ff,false,none⟩,⟨256,.cr,false,none⟩,⟨256,.cr,true,none⟩,⟨256,.other,false,some ⟨16,[],none,false⟩⟩,⟨256,.other,false,some ⟨0,[],some 2,true⟩⟩]⟩,⟨[16],none,[],[⟨256,.other,false,some ⟨26,[],none,false⟩⟩,⟨256,.ws,false,some ⟨26,[],none,false⟩⟩,⟨256,.lf,false,none⟩,⟨256,.vt,false,some ⟨26,[],none,false⟩⟩,⟨256,.ff,false,none⟩,⟨256,.cr,false,none⟩,⟨256,.cr,true,none⟩]⟩,⟨[27],none,[],[⟨256,.other,false,some ⟨9,[],none,false⟩⟩,⟨256,.ws,false,some ⟨9,[],none,false⟩⟩,⟨256,.lf,false,none⟩,⟨256,.vt,false,some ⟨9,[],none,false⟩⟩,⟨256,.ff,false,none⟩,⟨256,.cr,false,none⟩,⟨256,.cr,true,none⟩,⟨256,.other,false,some ⟨0,[],some 2,true⟩⟩,⟨256,.other,false,some ⟨10,[],none,false⟩⟩]⟩,⟨[22],none,[],[⟨256,.other,false,some ⟨12,[],none,false⟩⟩,⟨256,.ws,false,some ⟨12,[],none,false⟩⟩,⟨256,.lf,false,none⟩,⟨256,.vt,false,some ⟨12,[],none,false⟩⟩,⟨256,.ff,false,none⟩,⟨256,.cr,false,none⟩,⟨256,.cr,true,none⟩,⟨256,.other,false,some ⟨0,[],some 2,true⟩⟩,⟨256,.other,false,some ⟨13,[],none,false⟩⟩]⟩,⟨[11],none,[],[⟨256,.other,false,some ⟨19,[.comment],none,false⟩⟩,⟨256,.ws,false,some ⟨20,[],none,false⟩⟩,⟨256,.lf,false,some ⟨21,[],none,false⟩⟩,⟨256,.vt,false,some ⟨19,[.comment],none,false⟩⟩,⟨256,.ff,false,some ⟨22,[],none,false⟩⟩,⟨256,.cr,false,some ⟨23,[],none,false⟩⟩,⟨256,.cr,true,some ⟨24,[],none,false⟩⟩,⟨256,.other,false,some ⟨25,[.comment],none,false⟩⟩]⟩,⟨[10],none,[],[⟨256,.other,false,some ⟨19,[.comment],none,false⟩⟩,⟨256,.ws,false,some ⟨20,[],none,false⟩⟩,⟨256,.lf,false,some ⟨21,[],none,false⟩⟩,⟨256,.vt,false,some ⟨19,[.comment],none,false⟩⟩,⟨256,.ff,false,some ⟨22,[],none,false⟩⟩,⟨256,.cr,false,some ⟨23,[],none,false⟩⟩,⟨256,.cr,true,some ⟨24,[],none,false⟩⟩,⟨256,.other,false,some ⟨25,[.comment],none,false⟩⟩]⟩,⟨[7],none,[],[⟨256,.other,false,some ⟨19,[.setEnt .internalNl,.cb,.comment],none,false⟩⟩,⟨256,.ws,false,some ⟨20,[.setEnt .internalNl,.cb],none,false⟩⟩,⟨256,.lf,false,some ⟨21,[.setEnt .internalNl,.cb],none,false⟩⟩,⟨256,.vt,false,some ⟨19,[.setEnt .internalNl,.cb,.comment],none,false⟩⟩,⟨256,.ff,false,some ⟨22,[.setEnt .internalNl,.cb],none,false⟩⟩,⟨256,.cr,false,some ⟨23,[.setEnt .internalNl,.cb],none,false⟩⟩,⟨256,.cr,true,some ⟨24,[.setEnt .internalNl,.cb],none,false⟩⟩,⟨256,.other,false,some ⟨25,[.setEnt .internalNl,.cb,.comment],none,false⟩⟩]⟩,⟨[8],none,[],[⟨256,.other,false,some ⟨19,[.setEnt .internalNl,.cb,.comment],none,false⟩⟩,⟨256,.ws,false,some ⟨20,[.setEnt .internalNl,.cb],none,false⟩⟩,⟨256,.lf,false,some ⟨21,[.setEnt .internalNl,.cb],none,false⟩⟩,⟨256,.vt,false,some ⟨19,[.setEnt .internalNl,.cb,.comment],none,false⟩⟩,⟨256,.ff,false,some ⟨22,[.setEnt .internalNl,.cb],none,false⟩⟩,⟨256,.cr,false,some ⟨23,[.setEnt .internalNl,.cb],none,false⟩⟩,⟨256,.cr,true,some ⟨24,[.setEnt .internalNl,.cb],none,false⟩⟩,⟨256,.other,false,some ⟨25,[.setEnt .internalNl,.cb,.comment],none,false⟩⟩]⟩,⟨[5],none,[],[⟨256,.other,false,none⟩,⟨256,.ws,false,none⟩,⟨256,.lf,false,some ⟨27,[],none,false⟩⟩,⟨256,.vt,false,none⟩,⟨256,.ff,false,none⟩,⟨256,.cr,false,none⟩,⟨256,.cr,true,none⟩]⟩,⟨[5,9],none,[],[⟨256,.other,false,some ⟨19,[.setEnt .internalNl,.cb,.comment],none,false⟩⟩,⟨256,.ws,false,some ⟨20,[.setEnt .internalNl,.cb],none,false⟩⟩,⟨256,.lf,false,some ⟨28,[.setEnt .internalNl,.cb],none,false⟩⟩,⟨256,.vt,false,some ⟨19,[.setEnt .internalNl,.cb,.comment],none,false⟩⟩,⟨256,.ff,false,some ⟨22,[.setEnt .internalNl,.cb],none,false⟩⟩,⟨256,.cr,false,some ⟨23,[.setEnt .internalNl,.cb],none,false⟩⟩,⟨256,.cr,true,some ⟨24,[.setEnt .internalNl,.cb],none,false⟩⟩,⟨256,.other,false,some ⟨25,[.setEnt .internalNl,.cb,.comment],none,false⟩⟩]⟩,⟨[11,12],none,[],[⟨256,.other,false,some ⟨19,[.comment],none,false⟩⟩,⟨256,.ws,false,some ⟨20,[],none,false⟩⟩,⟨256,.lf,false,some ⟨21,[],none,false⟩⟩,⟨256,.vt,false,some ⟨19,[.comment],none,false⟩⟩,⟨256,.ff,false,some ⟨22,[],none,false⟩⟩,⟨256,.cr,false,some ⟨23,[],none,false⟩⟩,⟨256,.cr,true,some ⟨24,[],none,false⟩⟩,⟨256,.other,false,some ⟨25,[.comment],none,false⟩⟩,⟨256,.other,false,some ⟨0,[],some 1,true⟩⟩]⟩,⟨[17],none,[],[⟨256,.other,false,some ⟨15,[],none,false⟩⟩,⟨256,.ws,false,some ⟨15,[],none,false⟩⟩,⟨256,.lf,false,none⟩,⟨256,.vt,false,some ⟨15,[],none,false⟩⟩,⟨256,.ff,false,none⟩,⟨256,.cr,false,none⟩,⟨256,.cr,true,none⟩,⟨256,.other,false,some ⟨16,[],none,false⟩⟩,⟨256,.other,false,some ⟨0,[],some 2,true⟩⟩]⟩,⟨[6],none,[],[⟨256,.other,false,some ⟨19,[.setEnt .internalNl,.cb,.comment],none,false⟩⟩,⟨256,.ws,false,some ⟨20,[.setEnt .internalNl,.cb],none,false⟩⟩,⟨256,.lf,false,some ⟨21,[.setEnt .internalNl,.cb],none,false⟩⟩,⟨256,.vt,false,some ⟨19,[.setEnt .internalNl,.cb,.comment],none,false⟩⟩,⟨256,.ff,false,some ⟨22,[.setEnt .internalNl,.cb],none,false⟩⟩,⟨256,.cr,false,some ⟨23,[.setEnt .internalNl,.cb],none,false⟩⟩,⟨256,.cr,true,some ⟨24,[.setEnt .internalNl,.cb],none,false⟩⟩,⟨256,.other,false,some ⟨25,[.setEnt .internalNl,.cb,.comment],none,false⟩⟩]⟩,⟨[6,7],none,[],[⟨256,.other,false,some ⟨19,[.setEnt .internalNl,.cb,.comment],none,false⟩⟩,⟨256,.ws,false,some ⟨20,[.setEnt .internalNl,.cb],none,false⟩⟩,⟨256,.lf,false,some ⟨21,[.setEnt .internalNl,.cb],none,false⟩⟩,⟨256,.vt,false,some ⟨19,[.setEnt .internalNl,.cb,.comment],none,false⟩⟩,⟨256,.ff,false,some ⟨22,[.setEnt .internalNl,.cb],none,false⟩⟩,⟨256,.cr,false,some ⟨23,[.setEnt .internalNl,.cb],none,false⟩⟩,⟨256,.cr,true,some ⟨24,[.setEnt .internalNl,.cb],none,false⟩⟩,⟨256,.other,false,some ⟨25,[.setEnt .internalNl,.cb,.comment],none,false⟩⟩]⟩]
theorem nsis_line_rowsOk : rowsOk nsis_line_nfa [] (nsis_line_cs.map (·.1)) nsis_line_rows = true := by decide +kernel
def nsis_line_D : Dfa nsis_line_M.nfa := ⟨nsis_line_masks, [], nsis_line_cs, nsis_line_rows, nsis_line_masksIn, nsis_line_repOk, nsis_line_rowsOk⟩

def powershell_line_nfa : Nfa := ⟨[⟨0,4294967808,[],[(0,.setEnt (.own 0))],0,0⟩,⟨1,34359738368,[],[(1,.comment)],0,0⟩,⟨3,1152921504606846976,[],[],0,2⟩,⟨14,549755813888,[],[(6,.enqueue),(7,.code)],0,0⟩,⟨31,17179869184,[],[(15,.enqueue),(16,.code)],0,0⟩,⟨48,8192,[],[(24,.setEnt .newline)],0,0⟩,⟨50,1024,[],[(24,.setEnt .newline)],0,0⟩,⟨51,4096,[],[(24,.setEnt .newline)],0,0⟩,⟨52,8192,[.crAlone],[(24,.setEnt .newline)],0,0⟩,⟨53,115792089237316195423570985008687907853269984665640564039457584007908834656767,[],[(25,.setEnt (.own 3))],0,0⟩],[[⟨0,4294967808,[],[(0,.setEnt (.own 0))],0,0⟩],[⟨2,115792089237316195423570985008687907853269984665640564039457584007913129626623,[],[],0,0⟩],[⟨2,115792089237316195423570985008687907853269984665640564039457584007913129626623,[],[],0,0⟩],[⟨4,34359738368,[],[(2,.comment)],0,2⟩],[⟨5,8192,[],[],0,2⟩,⟨7,1024,[],[],0,2⟩,⟨8,4096,[],[],0,2⟩,⟨9,8192,[.crAlone],[],0,2⟩,⟨10,4294967808,[],[],0,2⟩,⟨11,115792089237316195423570985008687907853269984665640564039457584007908834658815,[],[(5,.comment)],0,2⟩,⟨12,34359738368,[],[],0,2⟩],[⟨6,1024,[],[],0,2⟩],[⟨5,8192,[],[(3,.setEnt .internalNl),(4,.cb)],0,2⟩,⟨7,1024,[],[(3,.setEnt .internalNl),(4,.cb)],0,2⟩,⟨8,4096,[],[(3,.setEnt .internalNl),(4,.cb)],0,2⟩,⟨9,8192,[.crAlone],[(3,.setEnt .internalNl),(4,.cb)],0,2⟩,⟨10,4294967808,[],[(3,.setEnt .internalNl),(4,.cb)],0,2⟩,⟨11,115792089237316195423570985008687907853269984665640564039457584007908834658815,[],[(3,.setEnt .internalNl),(4,.cb),(5,.comment)],0,2⟩,⟨12,34359738368,[],[(3,.setEnt .internalNl),(4,.cb)],0,2⟩],[⟨5,8192,[],[(3,.setEnt .internalNl),(4,.cb)],0,2⟩,⟨7,1024,[],[(3,.setEnt .internalNl),(4,.cb)],0,2⟩,⟨8,4096,[],[(3,.setEnt .internalNl),(4,.cb)],0,2⟩,⟨9,8192,[.crAlone],[(3,.setEnt .internalNl),(4,.cb)],0,2⟩,⟨10,4294967808,[],[(3,.setEnt .internalNl),(4,.cb)],0,2⟩,⟨11,115792089237316195423570985008687907853269984665640564039457584007908834658815,[],[(3,.setEnt .internalNl),(4,.cb),(5,.comment)],0,2⟩,⟨12,34359738368,[],[(3,.setEnt .internalNl),(4,.cb)],0,2⟩],[⟨5,8192,[],[(3,.setEnt .internalNl),(4,.cb)],0,2⟩,⟨7,1024,[],[(3,.setEnt .internalNl),(4,.cb)],0,2⟩,⟨8,4096,[],[(3,.setEnt .internalNl),(4,.cb)],0,2⟩,⟨9,8192,[.crAlone],[(3,.setEnt .internalNl),(4,.cb)],0,2⟩,⟨10,4294967808,[],[(3,.setEnt .internalNl),(4,.cb)],0,2⟩,⟨11,115792089237316195423570985008687907853269984665640564039457584007908834658815,[],[(3,.setEnt .internalNl),(4,.cb),(5,.comment)],0,2⟩,⟨12,34359738368,[],[(3,.setEnt .internalNl),(4,.cb)],0,2⟩],[⟨5,8192,[],[(3,.setEnt .internalNl),(4,.cb)],0,2⟩,⟨7,1024,[],[(3,.setEnt .internalNl),(4,.cb)],0,2⟩,⟨8,4096,[],[(3,.setEnt .internalNl),(4,.cb)],0,2⟩,⟨9,8192,[.crAlone],[(3,.setEnt .internalNl),(4,.cb)],0,2⟩,⟨10,4294967808,[],[(3,.setEnt .internalNl),(4,.cb)],0,2⟩,⟨11,115792089237316195423570985008687907853269984665640564039457584007908834658815,[],[(3,.setEnt .internalNl),(4,.cb),(5,.comment)],0,2⟩,⟨12,34359738368,[],[(3,.setEnt .internalNl),(4,.cb)],0,2⟩],[⟨5,8192,[],[],0,2⟩,⟨7,1024,[],[],0,2⟩,⟨8,4096,[],[],0,2⟩,⟨9,8192,[.crAlone],[],0,2⟩,⟨10,4294967808,[],[],0,2⟩,⟨11,115792089237316195423570985008687907853269984665640564039457584007908834658815,[],[(5,.comment)],0,2⟩,⟨12,34359738368,[],[],0,2⟩],[⟨5,8192,[],[],0,2⟩,⟨7,1024,[],[],0,2⟩,⟨8,4096,[],[],0,2⟩,⟨9,8192,[.crAlone],[],0,2⟩,⟨10,4294967808,[],[],0,2⟩,⟨11,115792089237316195423570985008687907853269984665640564039457584007908834658815,[],[(5,.comment)],0,2⟩,⟨12,34359738368,[],[],0,2⟩],[⟨13,4611686018427387904,[],[],2,0⟩],[],[⟨15,8192,[],[],0,0⟩,⟨17,1024,[],[],0,0⟩,⟨18,4096,[],[],0,0⟩,⟨19,8192,[.crAlone],[],0,0⟩,⟨20,4951760157141521099596496896,[],[],0,0⟩,⟨26,4294967808,[],[],0,0⟩,⟨27,115792089237316195423570985008687907853269984665635612279300442486259482348031,[],[(12,.code)],0,0⟩,⟨28,4951760157141521099596496896,[],[],0,0⟩,⟨30,549755813888,[],[(14,.commit)],0,0⟩],[⟨16,1024,[],[],0,0⟩],[⟨15,8192,[],[(8,.setEnt .internalNl),(9,.cb)],0,0⟩,⟨17,1024,[],[(8,.setEnt .internalNl),(9,.cb)],0,0⟩,⟨18,4096,[],[(8,.setEnt .internalNl),(9,.cb)],0,0⟩,⟨19,8192,[.crAlone],[(8,.setEnt .internalNl),(9,.cb)],0,0⟩,⟨20,4951760157141521099596496896,[],[(8,.setEnt .internalNl),(9,.cb)],0,0⟩,⟨26,4294967808,[],[(8,.setEnt .internalNl),(9,.cb)],0,0⟩,⟨27,115792089237316195423570985008687907853269984665635612279300442486259482348031,[],[(8,.setEnt .internalNl),(9,.cb),(12,.code)],0,0⟩,⟨28,4951760157141521099596496896,[],[(8,.setEnt .internalNl),(9,.cb)],0,0⟩,⟨30,549755813888,[],[(8,.setEnt .internalNl),(9,.cb),(14,.commit)],0,0⟩],[⟨15,8192,[],[(8,.setEnt .internalNl),(9,.cb)],0,0⟩,⟨17,1024,[],[(8,.setEnt .internalNl),(9,.cb)],0,0⟩,⟨18,4096,[],[(8,.setEnt .internalNl),(9,.cb)],0,0⟩,⟨19,8192,[.crAlone],[(8,.setEnt .internalNl),(9,.cb)],0,0⟩,⟨20,4951760157141521099596496896,[],[(8,.setEnt .internalNl),(9,.cb)],0,0⟩,⟨26,4294967808,[],[(8,.setEnt .internalNl),(9,.cb)],0,0⟩,⟨27,115792089237316195423570985008687907853269984665635612279300442486259482348031,[],[(8,.setEnt .internalNl),(9,.cb),(12,.code)],0,0⟩,⟨28,4951760157141521099596496896,[],[(8,.setEnt .internalNl),(9,.cb)],0,0⟩,⟨30,549755813888,[],[(8,.setEnt .internalNl),(9,.cb),(14,.commit)],0,0⟩],[⟨15,8192,[],[(8,.setEnt .internalNl),(9,.cb)],0,0⟩,⟨17,1024,[],[(8,.setEnt .internalNl),(9,.cb)],0,0⟩,⟨18,4096,[],[(8,.setEnt .internalNl),(9,.cb)],0,0⟩,⟨19,8192,[.crAlone],[(8,.setEnt .internalNl),(9,.cb)],0,0⟩,⟨20,4951760157141521099596496896,[],[(8,.setEnt .internalNl),(9,.cb)],0,0⟩,⟨26,4294967808,[],[(8,.setEnt .internalNl),(9,.cb)],0,0⟩,⟨27,115792089237316195423570985008687907853269984665635612279300442486259482348031,[],[(8,.setEnt .internalNl),(9,.cb),(12,.code)],0,0⟩,⟨28,4951760157141521099596496896,[],[(8,.setEnt .internalNl),(9,.cb)],0,0⟩,⟨30,549755813888,[],[(8,.setEnt .internalNl),(9,.cb),(14,.commit)],0,0⟩],[⟨15,8192,[],[(8,.setEnt .internalNl),(9,.cb)],0,0⟩,⟨17,1024,[],[(8,.setEnt .internalNl),(9,.cb)],0,0⟩,⟨18,4096,[],[(8,.setEnt .internalNl),(9,.cb)],0,0⟩,⟨19,8192,[.crAlone],[(8,.setEnt .internalNl),(9,.cb)],0,0⟩,⟨20,4951760157141521099596496896,[],[(8,.setEnt .internalNl),(9,.cb)],0,0⟩,⟨26,4294967808,[],[(8,.setEnt .internalNl),(9,.cb)],0,0⟩,⟨27,115792089237316195423570985008687907853269984665635612279300442486259482348031,[],[(8,.setEnt .internalNl),(9,.cb),(12,.code)],0,0⟩,⟨28,4951760157141521099596496896,[],[(8,.setEnt .internalNl),(9,.cb)],0,0⟩,⟨30,549755813888,[],[(8,.setEnt .internalNl),(9,.cb),(14,.commit)],0,0⟩],[⟨21,8192,[],[],0,0⟩,⟨23,1024,[],[],0,0⟩,⟨24,4096,[],[],0,0⟩,⟨25,8192,[.crAlone],[],0,0⟩],[⟨22,1024,[],[],0,0⟩],[⟨15,8192,[],[(10,.setEnt .internalNl),(11,.cb)],0,0⟩,⟨17,1024,[],[(10,.setEnt .internalNl),(11,.cb)],0,0⟩,⟨18,4096,[],[(10,.setEnt .internalNl),(11,.cb)],0,0⟩,⟨19,8192,[.crAlone],[(10,.setEnt .internalNl),(11,.cb)],0,0⟩,⟨20,4951760157141521099596496896,[],[(10,.setEnt .internalNl),(11,.cb)],0,0⟩,⟨26,4294967808,[],[(10,.setEnt .internalNl),(11,.cb)],0,0⟩,⟨27,115792089237316195423570985008687907853269984665635612279300442486259482348031,[],[(10,.setEnt .internalNl),(11,.cb),(12,.code)],0,0⟩,⟨28,4951760157141521099596496896,[],[(10,.setEnt .internalNl),(11,.cb)],0,0⟩,⟨30,549755813888,[],[(10,.setEnt .internalNl),(11,.cb),(14,.commit)],0,0⟩],[⟨15,8192,[],[(10,.setEnt .internalNl),(11,.cb)],0,0⟩,⟨17,1024,[],[(10,.setEnt .internalNl),(11,.cb)],0,0⟩,⟨18,4096,[],[(10,.setEnt .internalNl),(11,.cb)],0,0⟩,⟨19,8192,[.crAlone],[(10,.setEnt .internalNl),(11,.cb)],0,0⟩,⟨20,4951760157141521099596496896,[],[(10,.setEnt .internalNl),(11,.cb)],0,0⟩,⟨26,4294967808,[],[(10,.setEnt .internalNl),(11,.cb)],0,0⟩,⟨27,115792089237316195423570985008687907853269984665635612279300442486259482348031,[],[(10,.setEnt .internalNl),(11,.cb),(12,.code)],0,0⟩,⟨28,4951760157141521099596496896,[],[(10,.setEnt .internalNl),(11,.cb)],0,0⟩,⟨30,549755813888,[],[(10,.setEnt .internalNl),(11,.cb),(14,.commit)],0,0⟩],[⟨15,8192,[],[(10,.setEnt .internalNl),(11,.cb)],0,0⟩,⟨17,1024,[],[(10,.setEnt .internalNl),(11,.cb)],0,0⟩,⟨18,4096,[],[(10,.setEnt .internalNl),(11,.cb)],0,0⟩,⟨19,8192,[.crAlone],[(10,.setEnt .internalNl),(11,.cb)],0,0⟩,⟨20,4951760157141521099596496896,[],[(10,.setEnt .internalNl),(11,.cb)],0,0⟩,⟨26,4294967808,[],[(10,.setEnt .internalNl),(11,.cb)],0,0⟩,⟨27,115792089237316195423570985008687907853269984665635612279300442486259482348031,[],[(10,.setEnt .internalNl),(11,.cb),(12,.code)],0,0⟩,⟨28,4951760157141521099596496896,[],[(10,.setEnt .internalNl),(11,.cb)],0,0⟩,⟨30,549755813888,[],[(10,.setEnt .internalNl),(11,.cb),(14,.commit)],0,0⟩],[⟨15,8192,[],[(10,.setEnt .internalNl),(11,.cb)],0,0⟩,⟨17,1024,[],[(10,.setEnt .internalNl),(11,.cb)],0,0⟩,⟨18,4096,[],[(10,.setEnt .internalNl),(11,.cb)],0,0⟩,⟨19,8192,[.crAlone],[(10,.setEnt .internalNl),(11,.cb)],0,0⟩,⟨20,4951760157141521099596496896,[],[(10,.setEnt .internalNl),(11,.cb)],0,0⟩,⟨26,4294967808,[],[(10,.setEnt .internalNl),(11,.cb)],0,0⟩,⟨27,115792089237316195423570985008687907853269984665635612279300442486259482348031,[],[(10,.setEnt .internalNl),(11,.cb),(12,.code)],0,0⟩,⟨28,4951760157141521099596496896,[],[(10,.setEnt .internalNl),(11,.cb)],0,0⟩,⟨30,549755813888,[],[(10,.setEnt .internalNl),(11,.cb),(14,.commit)],0,0⟩],[⟨15,8192,[],[],0,0⟩,⟨17,1024,[],[],0,0⟩,⟨18,4096,[],[],0,0⟩,⟨19,8192,[.crAlone],[],0,0⟩,⟨20,4951760157141521099596496896,[],[],0,0⟩,⟨26,4294967808,[],[],0,0⟩,⟨27,115792089237316195423570985008687907853269984665635612279300442486259482348031,[],[(12,.code)],0,0⟩,⟨28,4951760157141521099596496896,[],[],0,0⟩,⟨30,549755813888,[],[(14,.commit)],0,0⟩],[⟨15,8192,[],[],0,0⟩,⟨17,1024,[],[],0,0⟩,⟨18,4096,[],[],0,0⟩,⟨19,8192,[.crAlone],[],0,0⟩,⟨20,4951760157141521099596496896,[],[],0,0⟩,⟨26,4294967808,[],[],0,0⟩,⟨27,115792089237316195423570985008687907853269984665635612279300442486259482348031,[],[(12,.code)],0,0⟩,⟨28,4951760157141521099596496896,[],[],0,0⟩,⟨30,549755813888,[],[(14,.commit)],0,0⟩],[⟨29,115792089237316195423570985008687907853269984665640564039457584007913129626623,[],[(13,.code)],0,0⟩],[⟨15,8192,[],[],0,0⟩,⟨17,1024,[],[],0,0⟩,⟨18,4096,[],[],0,0⟩,⟨19,8192,[.crAlone],[],0,0⟩,⟨20,4951760157141521099596496896,[],[],0,0⟩,⟨26,4294967808,[],[],0,0⟩,⟨27,115792089237316195423570985008687907853269984665635612279300442486259482348031,[],[(12,.code)],0,0⟩,⟨28,4951760157141521099596496896,[],[],0,0⟩,⟨30,549755813888,[],[(14,.commit)],0,0⟩],[],[⟨32,8192,[],[],0,0⟩,⟨34,1024,[],[],0,0⟩,⟨35,4096,[],[],0,0⟩,⟨36,8192,[.crAlone],[],0,0⟩,⟨37,4951760157141521099596496896,[],[],0,0⟩,⟨43,4294967808,[],[],0,0⟩,⟨44,115792089237316195423570985008687907853269984665635612279300442486792058292735,[],[(21,.code)],0,0⟩,⟨45,4951760157141521099596496896,[],[],0,0⟩,⟨47,17179869184,[],[(23,.commit)],0,0⟩],[⟨33,1024,[],[],0,0⟩],[⟨32,8192,[],[(17,.setEnt .internalNl),(18,.cb)],0,0⟩,⟨34,1024,[],[(17,.setEnt .internalNl),(18,.cb)],0,0⟩,⟨35,4096,[],[(17,.setEnt .internalNl),(18,.cb)],0,0⟩,⟨36,8192,[.crAlone],[(17,.setEnt .internalNl),(18,.cb)],0,0⟩,⟨37,4951760157141521099596496896,[],[(17,.setEnt .internalNl),(18,.cb)],0,0⟩,⟨43,4294967808,[],[(17,.setEnt .internalNl),(18,.cb)],0,0⟩,⟨44,115792089237316195423570985008687907853269984665635612279300442486792058292735,[],[(17,.setEnt .internalNl),(18,.cb),(21,.code)],0,0⟩,⟨45,4951760157141521099596496896,[],[(17,.setEnt .internalNl),(18,.cb)],0,0⟩,⟨47,17179869184,[],[(17,.setEnt .internalNl),(18,.cb),(23,.commit)],0,0⟩],[⟨32,8192,[],[(17,.setEnt .internalNl),(18,.cb)],0,0⟩,⟨34,1024,[],[(17,.setEnt .internalNl),(18,.cb)],0,0⟩,⟨35,4096,[],[(17,.setEnt .internalNl),(18,.cb)],0,0⟩,⟨36,8192,[.crAlone],[(17,.setEnt .internalNl),(18,.cb)],0,0⟩,⟨37,4951760157141521099596496896,[],[(17,.setEnt .internalNl),(18,.cb)],0,0⟩,⟨43,4294967808,[],[(17,.setEnt .internalNl),(18,.cb)],0,0⟩,⟨44,115792089237316195423570985008687907853269984665635612279300442486792058292735,[],[(17,.setEnt .internalNl),(18,.cb),(21,.code)],0,0⟩,⟨45,4951760157141521099596496896,[],[(17,.setEnt .internalNl),(18,.cb)],0,0⟩,⟨47,17179869184,[],[(17,.setEnt .internalNl),(18,.cb),(23,.commit)],0,0⟩],[⟨32,8192,[],[(17,.setEnt .internalNl),(18,.cb)],0,0⟩,⟨34,1024,[],[(17,.setEnt .internalNl),(18,.cb)],0,0⟩,⟨35,4096,[],[(17,.setEnt .internalNl),(18,.cb)],0,0⟩,⟨36,8192,[.crAlone],[(17,.setEnt .internalNl),(18,.cb)],0,0⟩,⟨37,4951760157141521099596496896,[],[(17,.setEnt .internalNl),(18,.cb)],0,0⟩,⟨43,4294967808,[],[(17,.setEnt .internalNl),(18,.cb)],0,0⟩,⟨44,115792089237316195423570985008687907853269984665635612279300442486792058292735,[],[(17,.setEnt .internalNl),(18,.cb),(21,.code)],0,0⟩,⟨45,4951760157141521099596496896,[],[(17,.setEnt .internalNl),(18,.cb)],0,0⟩,⟨47,17179869184,[],[(17,.setEnt .internalNl),(18,.cb),(23,.commit)],0,0⟩],[⟨32,8192,[],[(17,.setEnt .internalNl),(18,.cb)],0,0⟩,⟨34,1024,[],[(17,.setEnt .internalNl),(18,.cb)],0,0⟩,⟨35,4096,[],[(17,.setEnt .internalNl),(18,.cb)],0,0⟩,⟨36,8192,[.crAlone],[(17,.setEnt .internalNl),(18,.cb)],0,0⟩,⟨37,4951760157141521099596496896,[],[(17,.setEnt .internalNl),(18,.cb)],0,0⟩,⟨43,4294967808,[],[(17,.setEnt .internalNl),(18,.cb)],0,0⟩,⟨44,115792089237316195423570985008687907853269984665635612279300442486792058292735,[],[(17,.setEnt .internalNl),(18,.cb),(21,.code)],0,0⟩,⟨45,4951760157141521099596496896,[],[(17,.setEnt .internalNl),(18,.cb)],0,0⟩,⟨47,17179869184,[],[(17,.setEnt .internalNl),(18,.cb),(23,.commit)],0,0⟩],[⟨38,8192,[],[],0,0⟩,⟨40,1024,[],[],0,0⟩,⟨41,4096,[],[],0,0⟩,⟨42,8192,[.crAlone],[],0,0⟩],[⟨39,1024,[],[],0,0⟩],[⟨32,8192,[],[(19,.setEnt .internalNl),(20,.cb)],0,0⟩,⟨34,1024,[],[(19,.setEnt .internalNl),(20,.cb)],0,0⟩,⟨35,4096,[],[(19,.setEnt .internalNl),(20,.cb)],0,0⟩,⟨36,8192,[.crAlone],[(19,.setEnt .internalNl),(20,.cb)],0,0⟩,⟨37,4951760157141521099596496896,[],[(19,.setEnt .internalNl),(20,.cb)],0,0⟩,⟨43,4294967808,[],[(19,.setEnt .internalNl),(20,.cb)],0,0⟩,⟨44,115792089237316195423570985008687907853269984665635612279300442486792058292735,[],[(19,.setEnt .internalNl),(20,.cb),(21,.code)],0,0⟩,⟨45,4951760157141521099596496896,[],[(19,.setEnt .internalNl),(20,.cb)],0,0⟩,⟨47,17179869184,[],[(19,.setEnt .internalNl),(20,.cb),(23,.commit)],0,0⟩],[⟨32,8192,[],[(19,.setEnt .internalNl),(20,.cb)],0,0⟩,⟨34,1024,[],[(19,.setEnt .internalNl),(20,.cb)],0,0⟩,⟨35,4096,[],[(19,.setEnt .internalNl),(20,.cb)],0,0⟩,⟨36,8192,[.crAlone],[(19,.setEnt .internalNl),(20,.cb)],0,0⟩,⟨37,4951760157141521099596496896,[],[(19,.setEnt .internalNl),(20,.cb)],0,0⟩,⟨43,4294967808,[],[(19,.setEnt .internalNl),(20,.cb)],0,0⟩,⟨44,115792089237316195423570985008687907853269984665635612279300442486792058292735,[],[(19,.setEnt .internalNl),(20,.cb),(21,.code)],0,0⟩,⟨45,4951760157141521099596496896,[],[(19,.setEnt .internalNl),(20,.cb)],0,0⟩,⟨47,17179869184,[],[(19,.setEnt .internalNl),(20,.cb),(23,.commit)],0,0⟩],[⟨32,8192,[],[(19,.setEnt .internalNl),(20,.cb)],0,0⟩,⟨34,1024,[],[(19,.setEnt .internalNl),(20,.cb)],0,0⟩,⟨35,4096,[],[(19,.setEnt .internalNl),(20,.cb)],0,0⟩,⟨36,8192,[.crAlone],[(19,.setEnt .internalNl),(20,.cb)],0,0⟩,⟨37,4951760157141521099596496896,[],[(19,.setEnt .internalNl),(20,.cb)],0,0⟩,⟨43,4294967808,[],[(19,.setEnt .internalNl),(20,.cb)],0,0⟩,⟨44,115792089237316195423570985008687907853269984665635612279300442486792058292735,[],[(19,.setEnt .internalNl),(20,.cb),(21,.code)],0,0⟩,⟨45,4951760157141521099596496896,[],[(19,.setEnt .internalNl),(20,.cb)],0,0⟩,⟨47,17179869184,[],[(19,.setEnt .internalNl),(20,.cb),(23,.commit)],0,0⟩],[⟨32,8192,[],[(19,.setEnt .internalNl),(20,.cb)],0,0⟩,⟨34,1024,[],[(19,.setEnt .internalNl),(20,.cb)],0,0⟩,⟨35,4096,[],[(19,.setEnt .internalNl),(20,.cb)],0,0⟩,⟨36,8192,[.crAlone],[(19,.setEnt .internalNl),(20,.cb)],0,0⟩,⟨37,4951760157141521099596496896,[],[(19,.setEnt .internalNl),(20,.cb)],0,0⟩,⟨43,4294967808,[],[(19,.setEnt .internalNl),(20,.cb)],0,0⟩,⟨44,115792089237316195423570985008687907853269984665635612279300442486792058292735,[],[(19,.setEnt .internalNl),(20,.cb),(21,.code)],0,0⟩,⟨45,4951760157141521099596496896,[],[(19,.setEnt .internalNl),(20,.cb)],0,0⟩,⟨47,17179869184,[],[(19,.setEnt .internalNl),(20,.cb),(23,.commit)],0,0⟩],[⟨32,8192,[],[],0,0⟩,⟨34,1024,[],[],0,0⟩,⟨35,4096,[],[],0,0⟩,⟨36,8192,[.crAlone],[],0,0⟩,⟨37,4951760157141521099596496896,[],[],0,0⟩,⟨43,4294967808,[],[],0,0⟩,⟨44,115792089237316195423570985008687907853269984665635612279300442486792058292735,[],[(21,.code)],0,0⟩,⟨45,4951760157141521099596496896,[],[],0,0⟩,⟨47,17179869184,[],[(23,.commit)],0,0⟩],[⟨32,8192,[],[],0,0⟩,⟨34,1024,[],[],0,0⟩,⟨35,4096,[],[],0,0⟩,⟨36,8192,[.crAlone],[],0,0⟩,⟨37,4951760157141521099596496896,[],[],0,0⟩,⟨43,4294967808,[],[],0,0⟩,⟨44,115792089237316195423570985008687907853269984665635612279300442486792058292735,[],[(21,.code)],0,0⟩,⟨45,4951760157141521099596496896,[],[],0,0⟩,⟨47,17179869184,[],[(23,.commit)],0,0⟩],[⟨46,115792089237316195423570985008687907853269984665640564039457584007913129626623,[],[(22,.code)],0,0⟩],[⟨32,8192,[],[],0,0⟩,⟨34,1024,[],[],0,0⟩,⟨35,4096,[],[],0,0⟩,⟨36,8192,[.crAlone],[],0,0⟩,⟨37,4951760157141521099596496896,[],[],0,0⟩,⟨43,4294967808,[],[],0,0⟩,⟨44,115792089237316195423570985008687907853269984665635612279300442486792058292735,[],[(21,.code)],0,0⟩,⟨45,4951760157141521099596496896,[],[],0,0⟩,⟨47,17179869184,[],[(23,.commit)],0,0⟩],[],[⟨49,1024,[],[(24,.setEnt .newline)],0,0⟩],[],[],[],[],[]],[some (0,[]),some (1,[]),some (1,[]),none,none,none,none,none,none,none,none,none,none,some (1,[]),none,none,none,none,none,none,none,none,none,none,none,none,none,none,none,none,some (2,[]),none,none,none,none,none,none,none,none,none,none,none,none,none,none,none,none,some (2,[]),none,some (3,[]),some (3,[]),some (3,[]),some (3,[]),some (4,[])],[1,6,24,25,26]⟩
theorem powershell_line_nfa_eq : Powershell.powershell_line.nfa = powershell_line_nfa := by decide +kernel
/-- The machine of `Powershell.powershell_line`, with its automaton as a literal. -/
def powershell_line_M : Machine := ⟨powershell_line_nfa, Powershell.powershell_line.ends, Powershell.powershell_line.sw⟩
theorem powershell_line_M_eq : Powershell.powershell_line.machine = powershell_line_M := by
  unfold Scanner.machine powershell_line_M; rw [powershell_line_nfa_eq]
def powershell_line_masks : List Nat := [4294967808,34359738368,1152921504606846976,549755813888,17179869184,8192,1024,4096,115792089237316195423570985008687907853269984665640564039457584007908834656767,115792089237316195423570985008687907853269984665640564039457584007913129626623,115792089237316195423570985008687907853269984665640564039457584007908834658815,4611686018427387904,4951760157141521099596496896,115792089237316195423570985008687907853269984665635612279300442486259482348031,115792089237316195423570985008687907853269984665635612279300442486792058292735]
def powershell_line_cs : List (Nat × Nat) := [(0,115792089237316195423570985008687907853269984665635612279294677878684908503551),(9,4294967808),(10,1024),(11,2048),(12,4096),(13,8192),(34,17179869184),(35,34359738368),(39,549755813888),(60,1152921504606846976),(62,4611686018427387904),(92,4951760157141521099596496896)]
theorem powershell_line_masksIn : masksIn powershell_line_nfa powershell_line_masks = true := by decide +kernel
theorem powershell_line_repOk : repOk powershell_line_masks powershell_line_cs = true := by decide +kernel
def powershell_line_rows : List Row := [⟨[],none,[],[⟨256,.other,false,some ⟨0,[.setEnt (.own 3)],some 4,true⟩⟩,⟨256,.ws,false,some ⟨1,[.setEnt (.own 0)],some 0,false⟩⟩,⟨256,.lf,false,some ⟨0,[.setEnt .newline],some 3,true⟩⟩,⟨256,.vt,false,none⟩,⟨256,.ff,false,some ⟨0,[.setEnt .newline],some 3,true⟩⟩,⟨256,.cr,false,some ⟨2,[.setEnt .newline],none,false⟩⟩,⟨256,.cr,true,some ⟨3,[.setEnt .newline],some 3,false⟩⟩,⟨256,.other,false,some ⟨4,[.enqueue,.code,.setEnt (.own 3)],some 4,false⟩⟩,⟨256,.other,false,some ⟨5,[.comment,.setEnt (.own 3)],some 1,false⟩⟩,⟨256,.other,false,some ⟨6,[.enqueue,.code,.setEnt (.own 3)],some 4,false⟩⟩,⟨256,.other,false,some ⟨7,[.setEnt (.own 3)],some 4,false⟩⟩]⟩,⟨[0],some 0,[],[⟨256,.other,false,none⟩,⟨256,.ws,false,some ⟨1,[.setEnt (.own 0)],some 0,false⟩⟩,⟨256,.lf,false,none⟩,⟨256,.vt,false,none⟩,⟨256,.ff,false,none⟩,⟨256,.cr,false,none⟩,⟨256,.cr,true,none⟩]⟩,⟨[48],none,[],[⟨256,.other,false,none⟩,⟨256,.ws,false,none⟩,⟨256,.lf,false,some ⟨0,[.setEnt .newline],some 3,true⟩⟩,⟨256,.vt,false,none⟩,⟨256,.ff,false,none⟩,⟨256,.cr,false,none⟩,⟨256,.cr,true,none⟩]⟩,⟨[48,52],some 3,[],[⟨256,.other,false,none⟩,⟨256,.ws,false,none⟩,⟨256,.lf,false,some ⟨0,[.setEnt .newline],some 3,true⟩⟩,⟨256,.vt,false,none⟩,⟨256,.ff,false,none⟩,⟨256,.cr,false,none⟩,⟨256,.cr,true,none⟩]⟩,⟨[31,53],some 4,[],[⟨256,.other,false,some ⟨8,[.code],none,false⟩⟩,⟨256,.ws,false,some ⟨9,[],none,false⟩⟩,⟨256,.lf,false,some ⟨10,[],none,false⟩⟩,⟨256,.vt,false,some ⟨8,[.code],none,false⟩⟩,⟨256,.ff,false,some ⟨11,[],none,false⟩⟩,⟨256,.cr,false,some ⟨12,[],none,false⟩⟩,⟨256,.cr,true,some ⟨13,[],none,false⟩⟩,⟨256,.other,false,some ⟨0,[.commit],some 2,true⟩⟩,⟨256,.other,false,some ⟨14,[],none,false⟩⟩]⟩,⟨[1,53],some 1,[],[⟨256,.other,false,some ⟨15,[],some 1,false⟩⟩,⟨256,.ws,false,some ⟨15,[],some 1,false⟩⟩,⟨256,.lf,false,none⟩,⟨256,.vt,false,some ⟨15,[],some 1,false⟩⟩,⟨256,.ff,false,none⟩,⟨256,.cr,false,none⟩,⟨256,.cr,true,none⟩]⟩,⟨[14,53],some 4,[],[⟨256,.other,false,some ⟨16,[.code],none,false⟩⟩,⟨256,.ws,false,some ⟨17,[],none,false⟩⟩,⟨256,.lf,false,some ⟨18,[],none,false⟩⟩,⟨256,.vt,false,some ⟨16,[.code],none,false⟩⟩,⟨256,.ff,false,some ⟨19,[],none,false⟩⟩,⟨256,.cr,false,some ⟨20,[],none,false⟩⟩,⟨256,.cr,true,some ⟨21,[],none,false⟩⟩,⟨256,.other,false,some ⟨0,[.commit],some 2,true⟩⟩,⟨256,.other,false,some ⟨22,[],none,false⟩⟩]⟩,⟨[3,53],some 4,[],[⟨256,.other,false,none⟩,⟨256,.ws,false,none⟩,⟨256,.lf,false,none⟩,⟨256,.vt,false,none⟩,⟨256,.ff,false,none⟩,⟨256,.cr,false,none⟩,⟨256,.cr,true,none⟩,⟨256,.other,false,some ⟨23,[.comment],none,false⟩⟩]⟩,⟨[44],none,[],[⟨256,.other,false,some ⟨8,[.code],none,false⟩⟩,⟨256,.ws,false,some ⟨9,[],none,false⟩⟩,⟨256,.lf,false,some ⟨10,[],none,false⟩⟩,⟨256,.vt,false,some ⟨8,[.code],none,false⟩⟩,⟨256,.ff,false,some ⟨11,[],none,false⟩⟩,⟨256,.cr,false,some ⟨12,[],none,false⟩⟩,⟨256,.cr,true,some ⟨13,[],none,false⟩⟩,⟨256,.other,false,some ⟨0,[.commit],some 2,true⟩⟩,⟨256,.other,false,some ⟨14,[],none,false⟩⟩]⟩,⟨[43],none,[],[⟨256,.other,false,some ⟨8,[.code],none,false⟩⟩,⟨256,.ws,false,some ⟨9,[],none,false⟩⟩,⟨256,.lf,false,some ⟨10,[],none,false⟩⟩,⟨256,.vt,false,some ⟨8,[.code],none,false⟩⟩,⟨256,.ff,false,some ⟨11,[],none,false⟩⟩,⟨256,.cr,false,some ⟨12,[],none,false⟩⟩,⟨256,.cr,true,some ⟨13,[],none,false⟩⟩,⟨256,.other,false,some ⟨0,[.commit],some 2,true⟩⟩,⟨256,.other,false,some ⟨14,[],none,false⟩⟩]⟩,⟨[34],none,[],[⟨256,.other,false,some ⟨8,[.setEnt .internalNl,.cb,.code],none,false⟩⟩,⟨256,.ws,false,some ⟨9,[.setEnt .internalNl,.cb],none,false⟩⟩,⟨256,.lf,false,some ⟨10,[.setEnt .internalNl,.cb],none,false⟩⟩,⟨256,.vt,false,some ⟨8,[.setEnt .internalNl,.cb,.code],none,false⟩⟩,⟨256,.ff,false,some ⟨11,[.setEnt .internalNl,.cb],none,false⟩⟩,⟨256,.cr,false,some ⟨12,[.setEnt .internalNl,.cb],none,false⟩⟩,⟨256,.cr,true,some ⟨13,[.setEnt .internalNl,.cb],none,false⟩⟩,⟨256,.other,false,some ⟨0,[.setEnt .internalNl,.cb,.commit],some 2,true⟩⟩,⟨256,.other,false,some ⟨14,[.setEnt .internalNl,.cb],none,false⟩⟩]⟩,⟨[35],none,[],[⟨256,.other,false,some ⟨8,[.setEnt .internalNl,.cb,.code],none,false⟩⟩,⟨256,.ws,false,some ⟨9,[.setEnt .internalNl,.cb],none,false⟩⟩,⟨256,.lf,false,some ⟨10,[.setEnt .internalNl,.cb],none,false⟩⟩,⟨256,.vt,false,some ⟨8,[.setEnt .internalNl,.cb,.code],none,false⟩⟩,⟨256,.ff,false,some ⟨11,[.setEnt .internalNl,.cb],none,false⟩⟩,⟨256,.cr,false,some ⟨12,[.setEnt .internalNl,.cb],none,false⟩⟩,⟨256,.cr,true,some ⟨13,[.setEnt .internalNl,.cb],none,false⟩⟩,⟨256,.other,false,some ⟨0,[.setEnt .internalNl,.cb,.commit],some 2,true⟩⟩,⟨256,.other,false,some ⟨14,[.setEnt .internalNl,.cb],none,false⟩⟩]⟩,⟨[32],none,[],[⟨256,.other,false,none⟩,⟨256,.ws,false,none⟩,⟨256,.lf,false,some ⟨24,[],none,false⟩⟩,⟨256,.vt,false,none⟩,⟨256,.ff,false,none⟩,⟨256,.cr,false,none⟩,⟨256,.cr,true,none⟩]⟩,⟨[32,36],none,[],[⟨256,.other,false,some ⟨8,[.setEnt .internalNl,.cb,.code],none,false⟩⟩,⟨256,.ws,false,some ⟨9,[.setEnt .internalNl,.cb],none,false⟩⟩,⟨256,.lf,false,some ⟨25,[.setEnt .internalNl,.cb],none,false⟩⟩,⟨256,.vt,false,some ⟨8,[.setEnt .internalNl,.cb,.code],none,false⟩⟩,⟨256,.ff,false,some ⟨11,[.setEnt .internalNl,.cb],none,false⟩⟩,⟨256,.cr,false,some ⟨12,[.setEnt .internalNl,.cb],none,false⟩⟩,⟨256,.cr,true,some ⟨13,[.setEnt .internalNl,.cb],none,false⟩⟩,⟨256,.other,false,some ⟨0,[.setEnt .internalNl,.cb,.commit],some 2,true⟩⟩,⟨256,.other,false,some ⟨14,[.setEnt .internalNl,.cb],none,false⟩⟩]⟩,⟨[37,45],none,[],[⟨256,.other,false,some ⟨26,[.code],none,false⟩⟩,⟨256,.ws,false,some ⟨26,[.code],none,false⟩⟩,⟨256,.lf,false,some ⟨27,[],none,false⟩⟩,⟨256,.vt,false,some ⟨26,[.code],none,false⟩⟩,⟨256,.ff,false,some ⟨28,[],none,false⟩⟩,⟨256,.cr,false,some ⟨29,[],none,false⟩⟩,⟨256,.cr,true,some ⟨30,[],none,false⟩⟩]⟩,⟨[2],some 1,[],[⟨256,.other,false,some ⟨15,[],some 1,false⟩⟩,⟨256,.ws,false,some ⟨15,[],some 1,false⟩⟩,⟨256,.lf,false,none⟩,⟨256,.vt,false,some ⟨15,[],some 1,false⟩⟩,⟨256,.ff,false,none⟩,⟨256,.cr,false,none⟩,⟨256,.cr,true,none⟩]⟩,⟨[27],none,[],[⟨256,.other,false,some ⟨16,[.code],none,false⟩⟩,⟨256,.ws,false,some ⟨17,[],none,false⟩⟩,⟨256,.lf,false,some ⟨18,[],none,false⟩⟩,⟨256,.vt,false,some ⟨16,[.code],none,false⟩⟩,⟨256,.ff,false,some ⟨19,[],none,false⟩⟩,⟨256,.cr,false,some ⟨20,[],none,false⟩⟩,⟨256,.cr,true,some ⟨21,[],none,false⟩⟩,⟨256,.other,false,some ⟨0,[.commit],some 2,true⟩⟩,⟨256,.other,false,some ⟨22,[],none,false⟩⟩]⟩,⟨[26],none,[],[⟨256,.other,false,some ⟨16,[.code],none,false⟩⟩,⟨256,.ws,false,some ⟨17,[],none,false⟩⟩,⟨256,.lf,false,some ⟨18,[],none,false⟩⟩,⟨256,.vt,false,some ⟨16,[.code],none,false⟩⟩,⟨256,.ff,false,some ⟨19,[],none,false⟩⟩,⟨256,.cr,false,some ⟨20,[],none,false⟩⟩,⟨256,.cr,true,some ⟨21,[],none,false⟩⟩,⟨256,.other,false,some ⟨0,[.commit],some 2,true⟩⟩,⟨256,.other,false,some ⟨22,[],none,false⟩⟩]⟩,⟨[17],none,[],[⟨256,.other,false,some ⟨16,[.setEnt .internalNl,.cb,.code],none,false⟩⟩,⟨256,.ws,false,some ⟨17,[.setEnt .internalNl,.cb],none,false⟩⟩,⟨256,.lf,false,some ⟨18,[.setEnt .internalNl,.cb],none,false⟩⟩,⟨256,.vt,false,some ⟨16,[.setEnt .internalNl,.cb,.code],none,false⟩⟩,⟨256,.ff,false,some ⟨19,[.setEnt .internalNl,.cb],none,false⟩⟩,⟨256,.cr,false,some ⟨20,[.setEnt .internalNl,.cb],none,false⟩⟩,⟨256,.cr,true,some ⟨21,[.setEnt .internalNl,.cb],none,false⟩⟩,⟨256,.other,false,some ⟨0,[.setEnt .internalNl,.cb,.commit],some 2,true⟩⟩,⟨256,.other,false,some ⟨22,[.setEnt .internalNl,.cb],none,false⟩⟩]⟩,⟨[18],none,[],[⟨256,.other,false,some ⟨16,[.setEnt .internalNl,.cb,.code],none,false⟩⟩,⟨256,.ws,false,some ⟨17,[.setEnt .internalNl,.cb],none,false⟩⟩,⟨256,.lf,false,some ⟨18,[.setEnt .internalNl,.cb],none,false⟩⟩,⟨256,.vt,false,some ⟨16,[.setEnt .internalNl,.cb,.code],none,false⟩⟩,⟨256,.ff,false,some ⟨19,[.setEnt .internalNl,.cb],none,false⟩⟩,⟨256,.cr,false,some ⟨20,[.setEnt .internalNl,.cb],none,false⟩⟩,⟨256,.cr,true,some ⟨21,[.setEnt .internalNl,.cb],none,false⟩⟩,⟨256,.other,false,some ⟨0,[.setEnt .internalNl,.cb,.commit],some 2,true⟩⟩,⟨256,.other,false,some ⟨22,[.setEnt .internalNl,.cb],none,false⟩⟩]⟩,⟨[15],none,[],[⟨256,.other,false,none⟩,⟨256,.ws,false,none⟩,⟨256,.lf,false,some ⟨31,[],none,false⟩⟩,⟨256,.vt,false,none⟩,⟨256,.ff,false,none⟩,⟨256,.cr,false,none⟩,⟨256,.cr,true,none⟩]⟩,⟨[15,19],none,[],[⟨256,.other,false,some ⟨16,[.setEnt .internalNl,.cb,.code],none,false⟩⟩,⟨256,.ws,false,some ⟨17,[.setEnt .internalNl,.cb],none,false⟩⟩,⟨256,.lf,false,some ⟨32,[.setEnt .internalNl,.cb],none,false⟩⟩,⟨256,.vt,false,some ⟨16,[.setEnt .internalNl,.cb,.code],none,false⟩⟩,⟨256,.ff,false,some ⟨19,[.setEnt .internalNl,.cb],none,false⟩⟩,⟨256,.cr,false,some ⟨20,[.setEnt .internalNl,.cb],none,false⟩⟩,⟨256,.cr,true,some ⟨21,[.setEnt .internalNl,.cb],none,false⟩⟩,⟨256,.other,false,some ⟨0,[.setEnt .internalNl,.cb,.commit],some 2,true⟩⟩,⟨256,.other,false,some ⟨22,[.setEnt .internalNl,.cb],none,false⟩⟩]⟩,⟨[20,28],none,[],[⟨256,.other,false,some ⟨33,[.code],none,false⟩⟩,⟨256,.ws,false,some ⟨33,[.code],none,false⟩⟩,⟨256,.lf,false,some ⟨34,[],none,false⟩⟩,⟨256,.vt,false,some ⟨33,[.code],none,false⟩⟩,⟨256,.ff,false,some ⟨35,[],none,false⟩⟩,⟨256,.cr,false,some ⟨36,[],none,false⟩⟩,⟨256,.cr,true,some ⟨37,[],none,false⟩⟩]⟩,⟨[4],none,[],[⟨256,.other,false,some ⟨38,[.comment],none,false⟩⟩,⟨256,.ws,false,some ⟨39,[],none,false⟩⟩,⟨256,.lf,false,some ⟨40,[],none,false⟩⟩,⟨256,.vt,false,some ⟨38,[.comment],none,false⟩⟩,⟨256,.ff,false,some ⟨41,[],none,false⟩⟩,⟨256,.cr,false,some ⟨42,[],none,false⟩⟩,⟨256,.cr,true,some ⟨43,[],none,false⟩⟩,⟨256,.other,false,some ⟨44,[.comment],none,false⟩⟩]⟩,⟨[33],none,[],[⟨256,.other,false,some ⟨8,[.setEnt .internalNl,.cb,.code],none,false⟩⟩,⟨256,.ws,false,some ⟨9,[.setEnt .internalNl,.cb],none,false⟩⟩,⟨256,.lf,false,some ⟨10,[.setEnt .internalNl,.cb],none,false⟩⟩,⟨256,.vt,false,some ⟨8,[.setEnt .internalNl,.cb,.code],none,false⟩⟩,⟨256,.ff,false,some ⟨11,[.setEnt .internalNl,.cb],none,false⟩⟩,⟨256,.cr,false,some ⟨12,[.setEnt .internalNl,.cb],none,false⟩⟩,⟨256,.cr,true,some ⟨13,[.setEnt .internalNl,.cb],none,false⟩⟩,⟨256,.other,false,some ⟨0,[.setEnt .internalNl,.cb,.commit],some 2,true⟩⟩,⟨256,.other,false,some ⟨14,[.setEnt .internalNl,.cb],none,false⟩⟩]⟩,⟨[33,34],none,[],[⟨256,.other,false,some ⟨8,[.setEnt .internalNl,.cb,.code],none,false⟩⟩,⟨256,.ws,false,some ⟨9,[.setEnt .internalNl,.cb],none,false⟩⟩,⟨256,.lf,false,some ⟨10,[.setEnt .internalNl,.cb],none,false⟩⟩,⟨256,.vt,false,some ⟨8,[.setEnt .internalNl,.cb,.code],none,false⟩⟩,⟨256,.ff,false,some ⟨11,[.setEnt .internalNl,.cb],none,false⟩⟩,⟨256,.cr,false,some ⟨12,[.setEnt .internalNl,.cb],none,false⟩⟩,⟨256,.cr,true,some ⟨13,[.setEnt .internalNl,.cb],none,false⟩⟩,⟨256,.other,false,some ⟨0,[.setEnt .internalNl,.cb,.commit],some 2,true⟩⟩,⟨256,.other,false,some ⟨14,[.setEnt .internalNl,.cb],none,false⟩⟩]⟩,⟨[46],none,[],[⟨256,.other,false,some ⟨8,[.code],none,false⟩⟩,⟨256,.ws,false,some ⟨9,[],none,false⟩⟩,⟨256,.lf,false,some ⟨10,[],none,false⟩⟩,⟨256,.vt,false,some ⟨8,[.code],none,false⟩⟩,⟨256,.ff,false,some ⟨11,[],none,false⟩⟩,⟨256,.cr,false,some ⟨12,[],none,false⟩⟩,⟨256,.cr,true,some ⟨13,[],none,false⟩⟩,⟨256,.other,false,some ⟨0,[.commit],some 2,true⟩⟩,⟨256,.other,false,some ⟨14,[],none,false⟩⟩]⟩,⟨[40],none,[],[⟨256,.other,false,some ⟨8,[.setEnt .internalNl,.cb,.code],none,false⟩⟩,⟨256,.ws,false,some ⟨9,[.setEnt .internalNl,.cb],none,false⟩⟩,⟨256,.lf,false,some ⟨10,[.setEnt .internalNl,.cb],none,false⟩⟩,⟨256,.vt,false,some ⟨8,[.setEnt .internalNl,.cb,.code],none,false⟩⟩,⟨256,.ff,false,some ⟨11,[.setEnt .internalNl,.cb],none,false⟩⟩,⟨256,.cr,false,some ⟨12,[.setEnt .internalNl,.cb],none,false⟩⟩,⟨256,.cr,true,some ⟨13,[.setEnt .internalNl,.cb],none,false⟩⟩,⟨256,.other,false,some ⟨0,[.setEnt .internalNl,.cb,.commit],some 2,true⟩⟩,⟨256,.other,false,some ⟨14,[.setEnt .internalNl,.cb],none,false⟩⟩]⟩,⟨[41],none,[],[⟨256,.other,false,some ⟨8,[.setEnt .internalNl,.cb,.code],none,false⟩⟩,⟨256,.ws,false,some ⟨9,[.setEnt .internalNl,.cb],none,false⟩⟩,⟨256,.lf,false,some ⟨10,[.setEnt .internalNl,.cb],none,false⟩⟩,⟨256,.vt,false,some ⟨8,[.setEnt .internalNl,.cb,.code],none,false⟩⟩,⟨256,.ff,false,some ⟨11,[.setEnt .internalNl,.cb],none,false⟩⟩,⟨256,.cr,false,some ⟨12,[.setEnt .internalNl,.cb],none,false⟩⟩,⟨256,.cr,true,some ⟨13,[.setEnt .internalNl,.cb],none,false⟩⟩,⟨256,.other,false,some ⟨0,[.setEnt .internalNl,.cb,.commit],some 2,true⟩⟩,⟨256,.other,false,some ⟨14,[.setEnt .internalNl,.cb],none,false⟩⟩]⟩,⟨[38],none,[],[⟨256,.other,false,none⟩,⟨256,.ws,false,none⟩,⟨256,.lf,false,some ⟨45,[],none,false⟩⟩,⟨256,.vt,false,none⟩,⟨256,.ff,false,none⟩,⟨256,.cr,false,none⟩,⟨256,.cr,true,none⟩]⟩,⟨[38,42],none,[],[⟨256,.other,false,some ⟨8,[.setEnt .internalNl,.cb,.code],none,false⟩⟩,⟨256,.ws,false,some ⟨9,[.setEnt .internalNl,.cb],none,false⟩⟩,⟨256,.lf,false,some ⟨46,[.setEnt .internalNl,.cb],none,false⟩⟩,⟨256,.vt,false,some ⟨8,[.setEnt .internalNl,.cb,.code],none,false⟩⟩,⟨256,.ff,false,some ⟨11,[.setEnt .internalNl,.cb],none,false⟩⟩,⟨256,.cr,false,some ⟨12,[.setEnt .internalNl,.cb],none,false⟩⟩,⟨256,.cr,true,some ⟨13,[.setEnt .internalNl,.cb],none,false⟩⟩,⟨256,.other,false,some ⟨0,[.setEnt .internalNl,.cb,.commit],some 2,true⟩⟩,⟨256,.other,false,some ⟨14,[.setEnt .internalNl,.cb],none,false⟩⟩]⟩,⟨[16],none,[],[⟨256,.other,false,some ⟨16,[.setEnt .internalNl,.cb,.code],none,false⟩⟩,⟨256,.ws,false,some ⟨17,[.setEnt .internalNl,.cb],none,false⟩⟩,⟨256,.lf,false,some ⟨18,[.setEnt .internalNl,.cb],none,false⟩⟩,⟨256,.vt,false,some ⟨16,[.setEnt .internalNl,.cb,.code],none,false⟩⟩,⟨256,.ff,false,some ⟨19,[.setEnt .internalNl,.cb],none,false⟩⟩,⟨256,.cr,false,some ⟨20,[.setEnt .internalNl,.cb],none,false⟩⟩,⟨256,.cr,true,some ⟨21,[.setEnt .internalNl,.cb],none,false⟩⟩,⟨256,.other,false,some ⟨0,[.setEnt .internalNl,.cb,.commit],some 2,true⟩⟩,⟨256,.other,false,some ⟨22,[.setEnt .internalNl,.cb],none,false⟩⟩]⟩,⟨[16,17],none,[],[⟨256,.other,false,some ⟨16,[.setEnt .internalNl,.cb,.code],none,false⟩⟩,⟨256,.ws,false,some ⟨17,[.setEnt .internalNl,.cb],none,false⟩⟩,⟨256,.lf,false,some ⟨18,[.setEnt .internalNl,.cb],none,false⟩⟩,⟨256,.vt,false,some ⟨16,[.setEnt .internalNl,.cb,.code],none,false⟩⟩,⟨256,.ff,false,some ⟨19,[.setEnt .internalNl,.cb],none,false⟩⟩,⟨256,.cr,false,some ⟨20,[.setEnt .internalNl,.cb],none,false⟩⟩,⟨256,.cr,true,some ⟨21,[.setEnt .internalNl,.cb],none,false⟩⟩,⟨256,.other,false,some ⟨0,[.setEnt .internalNl,.cb,.commit],some 2,true⟩⟩,⟨256,.other,false,some ⟨22,[.setEnt .internalNl,.cb],none,false⟩⟩]⟩,⟨[29],none,[],[⟨256,.other,false,some ⟨16,[.code],none,false⟩⟩,⟨256,.ws,false,some ⟨17,[],none,false⟩⟩,⟨256,.lf,false,some ⟨18,[],none,false⟩⟩,⟨256,.vt,false,some ⟨16,[.code],none,false⟩⟩,⟨256,.ff,false,some ⟨19,[],none,false⟩⟩,⟨256,.cr,false,some ⟨20,[],none,false⟩⟩,⟨256,.cr,true,some ⟨21,[],none,false⟩⟩,⟨256,.other,false,some ⟨0,[.commit],some 2,true⟩⟩,⟨256,.other,false,some ⟨22,[],none,false⟩⟩]⟩,⟨[23],none,[],[⟨256,.other,false,some ⟨16,[.setEnt .internalNl,.cb,.code],none,false⟩⟩,⟨256,.ws,false,some ⟨17,[.setEnt .internalNl,.cb],none,false⟩⟩,⟨256,.lf,false,some ⟨18,[.setEnt .internalNl,.cb],none,false⟩⟩,⟨256,.vt,false,some ⟨16,[.setEnt .internalNl,.cb,.code],none,false⟩⟩,⟨256,.ff,false,some ⟨19,[.setEnt .internalNl,.cb],none,false⟩⟩,⟨256,.cr,false,some ⟨20,[.setEnt .internalNl,.cb],none,false⟩⟩,⟨256,.cr,true,some ⟨21,[.setEnt .internalNl,.cb],none,false⟩⟩,⟨256,.other,false,some ⟨0,[.setEnt .internalNl,.cb,.commit],some 2,true⟩⟩,⟨256,.other,false,some ⟨22,[.setEnt .internalNl,.cb],none,false⟩⟩]⟩,⟨[24],none,[],[⟨256,.other,false,some ⟨16,[.setEnt .internalNl,.cb,.code],none,false⟩⟩,⟨256,.ws,false,some ⟨17,[.setEnt .internalNl,.cb],none,false⟩⟩,⟨256,.lf,false,some ⟨18,[.setEnt .internalNl,.cb],none,false⟩⟩,⟨256,.vt,false,some ⟨16,[.setEnt .internalNl,.cb,.code],none,false⟩⟩,⟨256,.ff,false,some ⟨19,[.setEnt .internalNl,.cb],none,false⟩⟩,⟨256,.cr,false,some ⟨20,[.setEnt .internalNl,.cb],none,false⟩⟩,⟨256,.cr,true,some ⟨21,[.setEnt .internalNl,.cb],none,false⟩⟩,⟨256,.other,false,some ⟨0,[.setEnt .internalNl,.cb,.commit],some 2,true⟩⟩,⟨256,.other,false,some ⟨22,[.setEnt .internalNl,.cb],none,false⟩⟩]⟩,⟨[21],none,[],[⟨256,.other,false,none⟩,⟨256,.ws,false,none⟩,⟨256,.lf,false,some ⟨47,[],none,false⟩⟩,⟨256,.vt,false,none⟩,⟨256,.ff,false,none⟩,⟨256,.cr,false,none⟩,⟨256,.cr,true,none⟩]⟩,⟨[21,25],none,[],[⟨256,.other,false,some ⟨16,[.setEnt .internalNl,.cb,.code],none,false⟩⟩,⟨256,.ws,false,some ⟨17,[.setEnt .internalNl,.cb],none,false⟩⟩,⟨256,.lf,false,some ⟨48,[.setEnt .internalNl,.cb],none,false⟩⟩,⟨256,.vt,false,some ⟨16,[.setEnt .internalNl,.cb,.code],none,false⟩⟩,⟨256,.ff,false,some ⟨19,[.setEnt .internalNl,.cb],none,false⟩⟩,⟨256,.cr,false,some ⟨20,[.setEnt .internalNl,.cb],none,false⟩⟩,⟨256,.cr,true,some ⟨21,[.setEnt .internalNl,.cb],none,false⟩⟩,⟨256,.other,false,some ⟨0,[.setEnt .internalNl,.cb,.commit],some 2,true⟩⟩,⟨256,.other,false,some ⟨22,[.setEnt .internalNl,.cb],none,false⟩⟩]⟩,⟨[11],none,[],[⟨256,.other,false,some ⟨38,[.comment],none,false⟩⟩,⟨256,.ws,false,some ⟨39,[],none,false⟩⟩,⟨256,.lf,false,some ⟨40,[],none,false⟩⟩,⟨256,.vt,false,some ⟨38,[.comment],none,false⟩⟩,⟨256,.ff,false,some ⟨41,[],none,false⟩⟩,⟨256,.cr,false,some ⟨42,[],none,false⟩⟩,⟨256,.cr,true,some ⟨43,[],none,false⟩⟩,⟨256,.other,false,some ⟨44,[.comment],none,false⟩⟩]⟩,⟨[10],none,[],[⟨256,.other,false,some ⟨38,[.comment],none,false⟩⟩,⟨256,.ws,false,some ⟨39,[],none,false⟩⟩,⟨256,.lf,false,some ⟨40,[],none,false⟩⟩,⟨256,.vt,false,some ⟨38,[.comment],none,false⟩⟩,⟨256,.ff,false,some ⟨41,[],none,false⟩⟩,⟨256,.cr,false,some ⟨42,[],none,false⟩⟩,⟨256,.cr,true,some ⟨43,[],none,false⟩⟩,⟨256,.other,false,some ⟨44,[.comment],none,false⟩⟩]⟩,⟨[7],none,[],[⟨256,.other,false,some ⟨38,[.setEnt .internalNl,.cb,.comment],none,false⟩⟩,⟨256,.ws,false,some ⟨39,[.setEnt .internalNl,.cb],none,false⟩⟩,⟨256,.lf,false,some ⟨40,[.setEnt .internalNl,.cb],none,false⟩⟩,⟨256,.vt,false,some ⟨38,[.setEnt .internalNl,.cb,.comment],none,false⟩⟩,⟨256,.ff,false,some ⟨41,[.setEnt .internalNl,.cb],none,false⟩⟩,⟨256,.cr,false,some ⟨42,[.setEnt .internalNl,.cb],none,false⟩⟩,⟨256,.cr,true,some ⟨43,[.setEnt .internalNl,.cb],none,false⟩⟩,⟨256,.other,false,some ⟨44,[.setEnt .internalNl,.cb,.comment],none,false⟩⟩]⟩,⟨[8],none,[],[⟨256,.other,false,some ⟨38,[.setEnt .internalNl,.cb,.comment],none,false⟩⟩,⟨256,.ws,false,some ⟨39,[.setEnt .internalNl,.cb],none,false⟩⟩,⟨256,.lf,false,some ⟨40,[.setEnt .internalNl,.cb],none,false⟩⟩,⟨256,.vt,false,some ⟨38,[.setEnt .internalNl,.cb,.comment],none,false⟩⟩,⟨256,.ff,false,some ⟨41,[.setEnt .internalNl,.cb],none,false⟩⟩,⟨256,.cr,false,some ⟨42,[.setEnt .internalNl,.cb],none,false⟩⟩,⟨256,.cr,true,some ⟨43,[.setEnt .internalNl,.cb],none,false⟩⟩,⟨256,.other,false,some ⟨44,[.setEnt .internalNl,.cb,.comment],none,false⟩⟩]⟩,⟨[5],none,[],[⟨256,.other,false,none⟩,⟨256,.ws,false,none⟩,⟨256,.lf,false,some ⟨49,[],none,false⟩⟩,⟨256,.vt,false,none⟩,⟨256,.ff,false,none⟩,⟨256,.cr,false,none⟩,⟨256,.cr,true,none⟩]⟩,⟨[5,9],none,[],[⟨256,.other,false,some ⟨38,[.setEnt .internalNl,.cb,.comment],none,false⟩⟩,⟨256,.ws,false,some ⟨39,[.setEnt .internalNl,.cb],none,false⟩⟩,⟨256,.lf,false,some ⟨50,[.setEnt .internalNl,.cb],none,false⟩⟩,⟨256,.vt,false,some ⟨38,[.setEnt .internalNl,.cb,.comment],none,false⟩⟩,⟨256,.ff,false,some ⟨41,[.setEnt .internalNl,.cb],none,false⟩⟩,⟨256,.cr,false,some ⟨42,[.setEnt .internalNl,.cb],none,false⟩⟩,⟨256,.cr,true,some ⟨43,[.setEnt .internalNl,.cb],none,false⟩⟩,⟨256,.other,false,some ⟨44,[.setEnt .internalNl,.cb,.comment],none,false⟩⟩]⟩,⟨[11,12],none,[],[⟨256,.other,false,some ⟨38,[.comment],none,false⟩⟩,⟨256,.ws,false,some ⟨39,[],none,false⟩⟩,⟨256,.lf,false,some ⟨40,[],none,false⟩⟩,⟨256,.vt,false,some ⟨38,[.comment],none,false⟩⟩,⟨256,.ff,false,some ⟨41,[],none,false⟩⟩,⟨256,.cr,false,some ⟨42,[],none,false⟩⟩,⟨256,.cr,true,some ⟨43,[],none,false⟩⟩,⟨256,.other,false,some ⟨44,[.comment],none,false⟩⟩,⟨256,.other,false,some ⟨0,[],some 1,true⟩⟩]⟩,⟨[39],none,[],[⟨256,.other,false,some ⟨8,[.setEnt .internalNl,.cb,.code],none,false⟩⟩,⟨256,.ws,false,some ⟨9,[.setEnt .internalNl,.cb],none,false⟩⟩,⟨256,.lf,false,some ⟨10,[.setEnt .internalNl,.cb],none,false⟩⟩,⟨256,.vt,false,some ⟨8,[.setEnt .internalNl,.cb,.code],none,false⟩⟩,⟨256,.ff,false,some ⟨11,[.setEnt .internalNl,.cb],none,false⟩⟩,⟨256,.cr,false,some ⟨12,[.setEnt .internalNl,.cb],none,false⟩⟩,⟨256,.cr,true,some ⟨13,[.setEnt .internalNl,.cb],none,false⟩⟩,⟨256,.other,false,some ⟨0,[.setEnt .internalNl,.cb,.commit],some 2,true⟩⟩,⟨256,.other,false,some ⟨14,[.setEnt .internalNl,.cb],none,false⟩⟩]⟩,⟨[34,39],none,[],[⟨256,.other,false,some ⟨8,[.setEnt .internalNl,.cb,.code],none,false⟩⟩,⟨256,.ws,false,some ⟨9,[.setEnt .internalNl,.cb],none,false⟩⟩,⟨256,.lf,false,some ⟨10,[.setEnt .internalNl,.cb],none,false⟩⟩,⟨256,.vt,false,some ⟨8,[.setEnt .internalNl,.cb,.code],none,false⟩⟩,⟨256,.ff,false,some ⟨11,[.setEnt .internalNl,.cb],none,false⟩⟩,⟨256,.cr,false,some ⟨12,[.setEnt .internalNl,.cb],none,false⟩⟩,⟨256,.cr,true,some ⟨13,[.setEnt .internalNl,.cb],none,false⟩⟩,⟨256,.other,false,some ⟨0,[.setEnt .internalNl,.cb,.commit],some 2,true⟩⟩,⟨256,.other,false,some ⟨14,[.setEnt .internalNl,.cb],none,false⟩⟩]⟩,⟨[22],none,[],[⟨256,.other,false,some ⟨16,[.setEnt .internalNl,.cb,.code],none,false⟩⟩,⟨256,.ws,false,some ⟨17,[.setEnt .internalNl,.cb],none,false⟩⟩,⟨256,.lf,false,some ⟨18,[.setEnt .internalNl,.cb],none,false⟩⟩,⟨256,.vt,false,some ⟨16,[.setEnt .internalNl,.cb,.code],none,false⟩⟩,⟨256,.ff,false,some ⟨19,[.setEnt .internalNl,.cb],none,false⟩⟩,⟨256,.cr,false,some ⟨20,[.setEnt .internalNl,.cb],none,false⟩⟩,⟨256,.cr,true,some ⟨21,[.setEnt .internalNl,.cb],none,false⟩⟩,⟨256,.other,false,some ⟨0,[.setEnt .internalNl,.cb,.commit],some 2,true⟩⟩,⟨256,.other,false,some ⟨22,[.setEnt .internalNl,.cb],none,false⟩⟩]⟩,⟨[17,22],none,[],[⟨256,.other,false,some ⟨16,[.setEnt .internalNl,.cb,.code],none,false⟩⟩,⟨256,.ws,false,some ⟨17,[.setEnt .internalNl,.cb],none,false⟩⟩,⟨256,.lf,false,some ⟨18,[.setEnt .internalNl,.cb],none,false⟩⟩,⟨256,.vt,false,some ⟨16,[.setEnt .internalNl,.cb,.code],none,false⟩⟩,⟨256,.ff,false,some ⟨19,[.setEnt .internalNl,.cb],none,false⟩⟩,⟨256,.cr,false,some ⟨20,[.setEnt .internalNl,.cb],none,false⟩⟩,⟨256,.cr,true,some ⟨21,[.setEnt .internalNl,.cb],none,false⟩⟩,⟨256,.other,false,some ⟨0,[.setEnt .internalNl,.cb,.commit],some 2,true⟩⟩,⟨256,.other,false,some ⟨22,[.setEnt .internalNl,.cb],none,false⟩⟩]⟩,⟨[6],none,[],[⟨256,.other,false,some ⟨38,[.setEnt .internalNl,.cb,.comment],none,false⟩⟩,⟨256,.ws,false,some ⟨39,[.setEnt .internalNl,.cb],none,false⟩⟩,⟨256,.lf,false,some ⟨40,[.setEnt .internalNl,.cb],none,false⟩⟩,⟨256,.vt,false,some ⟨38,[.setEnt .internalNl,.cb,.comment],none,false⟩⟩,⟨256,.ff,false,some ⟨41,[.setEnt .internalNl,.cb],none,false⟩⟩,⟨256,.cr,false,some ⟨42,[.setEnt .internalNl,.cb],none,false⟩⟩,⟨256,.cr,true,some ⟨43,[.setEnt .internalNl,.cb],none,false⟩⟩,⟨256,.other,false,some ⟨44,[.setEnt .internalNl,.cb,.comment],none,false⟩⟩]⟩,⟨[6,7],none,[],[⟨256,.other,false,some ⟨38,[.setEnt .internalNl,.cb,.comment],none,false⟩⟩,⟨256,.ws,false,some ⟨39,[.setEnt .internalNl,.cb],none,false⟩⟩,⟨256,.lf,false,some ⟨40,[.setEnt .internalNl,.cb],none,false⟩⟩,⟨256,.vt,false,some ⟨38,[.setEnt .internalNl,.cb,.comment],none,false⟩⟩,⟨256,.ff,false,some ⟨41,[.setEnt .internalNl,.cb],none,false⟩⟩,⟨256,.cr,false,some ⟨42,[.setEnt .internalNl,.cb],none,false⟩⟩,⟨256,.cr,true,some ⟨43,[.setEnt .internalNl,.cb],none,false⟩⟩,⟨256,.other,false,some ⟨44,[.setEnt .internalNl,.cb,.comment],none,false⟩⟩]⟩]
theorem powershell_line_rowsOk : rowsOk powershell_line_nfa [] (powershell_line_cs.map (·.1)) powershell_line_rows = true := by decide +kernel
def powershell_line_D : Dfa powershell_line_M.nfa := ⟨powershell_line_masks, [], powershell_line_cs, powershell_line_rows, powershell_line_masksIn, powershell_line_repOk, powershell_line_rowsOk⟩

def unrealscript_line_nfa : Nfa := ⟨[⟨0,4294967808,[],[(0,.setEnt (.own 0))],0,0⟩,⟨1,140737488355328,[],[],0,0⟩,⟨4,140737488355328,[],[],0,2⟩,⟨15,549755813888,[],[(6,.code)],0,0⟩,⟨27,17179869184,[],[(11,.code)],0,0⟩,⟨39,8192,[],[(16,.setEnt .newline)],0,0⟩,⟨41,1024,[],[(16,.setEnt .newline)],0,0⟩,⟨42,4096,[],[(16,.setEnt .newline)],0,0⟩,⟨43,8192,[.crAlone],[(16,.setEnt .newline)],0,0⟩,⟨44,115792089237316195423570985008687907853269984665640564039457584007908834656767,[],[(17,.setEnt (.own 3))],0,0⟩],[[⟨0,4294967808,[],[(0,.setEnt (.own 0))],0,0⟩],[⟨2,140737488355328,[],[(1,.comment)],0,0⟩],[⟨3,115792089237316195423570985008687907853269984665640564039457584007913129626623,[],[],0,0⟩],[⟨3,115792089237316195423570985008687907853269984665640564039457584007913129626623,[],[],0,0⟩],[⟨5,4398046511104,[],[(2,.comment)],0,2⟩],[⟨6,8192,[],[],0,2⟩,⟨8,1024,[],[],0,2⟩,⟨9,4096,[],[],0,2⟩,⟨10,8192,[.crAlone],[],0,2⟩,⟨11,4294967808,[],[],0,2⟩,⟨12,115792089237316195423570985008687907853269984665640564039457584007908834658815,[],[(5,.comment)],0,2⟩,⟨13,4398046511104,[],[],0,2⟩],[⟨7,1024,[],[],0,2⟩],[⟨6,8192,[],[(3,.setEnt .internalNl),(4,.cb)],0,2⟩,⟨8,1024,[],[(3,.setEnt .internalNl),(4,.cb)],0,2⟩,⟨9,4096,[],[(3,.setEnt .internalNl),(4,.cb)],0,2⟩,⟨10,8192,[.crAlone],[(3,.setEnt .internalNl),(4,.cb)],0,2⟩,⟨11,4294967808,[],[(3,.setEnt .internalNl),(4,.cb)],0,2⟩,⟨12,115792089237316195423570985008687907853269984665640564039457584007908834658815,[],[(3,.setEnt .internalNl),(4,.cb),(5,.comment)],0,2⟩,⟨13,4398046511104,[],[(3,.setEnt .internalNl),(4,.cb)],0,2⟩],[⟨6,8192,[],[(3,.setEnt .internalNl),(4,.cb)],0,2⟩,⟨8,1024,[],[(3,.setEnt .internalNl),(4,.cb)],0,2⟩,⟨9,4096,[],[(3,.setEnt .internalNl),(4,.cb)],0,2⟩,⟨10,8192,[.crAlone],[(3,.setEnt .internalNl),(4,.cb)],0,2⟩,⟨11,4294967808,[],[(3,.setEnt .internalNl),(4,.cb)],0,2⟩,⟨12,115792089237316195423570985008687907853269984665640564039457584007908834658815,[],[(3,.setEnt .internalNl),(4,.cb),(5,.comment)],0,2⟩,⟨13,4398046511104,[],[(3,.setEnt .internalNl),(4,.cb)],0,2⟩],[⟨6,8192,[],[(3,.setEnt .internalNl),(4,.cb)],0,2⟩,⟨8,1024,[],[(3,.setEnt .internalNl),(4,.cb)],0,2⟩,⟨9,4096,[],[(3,.setEnt .internalNl),(4,.cb)],0,2⟩,⟨10,8192,[.crAlone],[(3,.setEnt .internalNl),(4,.cb)],0,2⟩,⟨11,4294967808,[],[(3,.setEnt .internalNl),(4,.cb)],0,2⟩,⟨12,115792089237316195423570985008687907853269984665640564039457584007908834658815,[],[(3,.setEnt .internalNl),(4,.cb),(5,.comment)],0,2⟩,⟨13,4398046511104,[],[(3,.setEnt .internalNl),(4,.cb)],0,2⟩],[⟨6,8192,[],[(3,.setEnt .internalNl),(4,.cb)],0,2⟩,⟨8,1024,[],[(3,.setEnt .internalNl),(4,.cb)],0,2⟩,⟨9,4096,[],[(3,.setEnt .internalNl),(4,.cb)],0,2⟩,⟨10,8192,[.crAlone],[(3,.setEnt .internalNl),(4,.cb)],0,2⟩,⟨11,4294967808,[],[(3,.setEnt .internalNl),(4,.cb)],0,2⟩,⟨12,115792089237316195423570985008687907853269984665640564039457584007908834658815,[],[(3,.setEnt .internalNl),(4,.cb),(5,.comment)],0,2⟩,⟨13,4398046511104,[],[(3,.setEnt .internalNl),(4,.cb)],0,2⟩],[⟨6,8192,[],[],0,2⟩,⟨8,1024,[],[],0,2⟩,⟨9,4096,[],[],0,2⟩,⟨10,8192,[.crAlone],[],0,2⟩,⟨11,4294967808,[],[],0,2⟩,⟨12,115792089237316195423570985008687907853269984665640564039457584007908834658815,[],[(5,.comment)],0,2⟩,⟨13,4398046511104,[],[],0,2⟩],[⟨6,8192,[],[],0,2⟩,⟨8,1024,[],[],0,2⟩,⟨9,4096,[],[],0,2⟩,⟨10,8192,[.crAlone],[],0,2⟩,⟨11,4294967808,[],[],0,2⟩,⟨12,115792089237316195423570985008687907853269984665640564039457584007908834658815,[],[(5,.comment)],0,2⟩,⟨13,4398046511104,[],[],0,2⟩],[⟨14,140737488355328,[],[],2,0⟩],[],[⟨16,4951760157141521099596496896,[],[],0,0⟩,⟨22,4294967808,[],[],0,0⟩,⟨23,115792089237316195423570985008687907853269984665635612279300442486259482361343,[],[(9,.code)],0,0⟩,⟨24,4951760157141521099596496896,[],[],0,0⟩,⟨26,549755813888,[],[],0,0⟩],[⟨17,8192,[],[],0,0⟩,⟨19,1024,[],[],0,0⟩,⟨20,4096,[],[],0,0⟩,⟨21,8192,[.crAlone],[],0,0⟩],[⟨18,1024,[],[],0,0⟩],[⟨16,4951760157141521099596496896,[],[(7,.setEnt .internalNl),(8,.cb)],0,0⟩,⟨22,4294967808,[],[(7,.setEnt .internalNl),(8,.cb)],0,0⟩,⟨23,115792089237316195423570985008687907853269984665635612279300442486259482361343,[],[(7,.setEnt .internalNl),(8,.cb),(9,.code)],0,0⟩,⟨24,4951760157141521099596496896,[],[(7,.setEnt .internalNl),(8,.cb)],0,0⟩,⟨26,549755813888,[],[(7,.setEnt .internalNl),(8,.cb)],0,0⟩],[⟨16,4951760157141521099596496896,[],[(7,.setEnt .internalNl),(8,.cb)],0,0⟩,⟨22,4294967808,[],[(7,.setEnt .internalNl),(8,.cb)],0,0⟩,⟨23,115792089237316195423570985008687907853269984665635612279300442486259482361343,[],[(7,.setEnt .internalNl),(8,.cb),(9,.code)],0,0⟩,⟨24,4951760157141521099596496896,[],[(7,.setEnt .internalNl),(8,.cb)],0,0⟩,⟨26,549755813888,[],[(7,.setEnt .internalNl),(8,.cb)],0,0⟩],[⟨16,4951760157141521099596496896,[],[(7,.setEnt .internalNl),(8,.cb)],0,0⟩,⟨22,4294967808,[],[(7,.setEnt .internalNl),(8,.cb)],0,0⟩,⟨23,115792089237316195423570985008687907853269984665635612279300442486259482361343,[],[(7,.setEnt .internalNl),(8,.cb),(9,.code)],0,0⟩,⟨24,4951760157141521099596496896,[],[(7,.setEnt .internalNl),(8,.cb)],0,0⟩,⟨26,549755813888,[],[(7,.setEnt .internalNl),(8,.cb)],0,0⟩],[⟨16,4951760157141521099596496896,[],[(7,.setEnt .internalNl),(8,.cb)],0,0⟩,⟨22,4294967808,[],[(7,.setEnt .internalNl),(8,.cb)],0,0⟩,⟨23,115792089237316195423570985008687907853269984665635612279300442486259482361343,[],[(7,.setEnt .internalNl),(8,.cb),(9,.code)],0,0⟩,⟨24,4951760157141521099596496896,[],[(7,.setEnt .internalNl),(8,.cb)],0,0⟩,⟨26,549755813888,[],[(7,.setEnt .internalNl),(8,.cb)],0,0⟩],[⟨16,4951760157141521099596496896,[],[],0,0⟩,⟨22,4294967808,[],[],0,0⟩,⟨23,115792089237316195423570985008687907853269984665635612279300442486259482361343,[],[(9,.code)],0,0⟩,⟨24,4951760157141521099596496896,[],[],0,0⟩,⟨26,549755813888,[],[],0,0⟩],[⟨16,4951760157141521099596496896,[],[],0,0⟩,⟨22,4294967808,[],[],0,0⟩,⟨23,115792089237316195423570985008687907853269984665635612279300442486259482361343,[],[(9,.code)],0,0⟩,⟨24,4951760157141521099596496896,[],[],0,0⟩,⟨26,549755813888,[],[],0,0⟩],[⟨25,115792089237316195423570985008687907853269984665640564039457584007913129626623,[],[(10,.code)],0,0⟩],[⟨16,4951760157141521099596496896,[],[],0,0⟩,⟨22,4294967808,[],[],0,0⟩,⟨23,115792089237316195423570985008687907853269984665635612279300442486259482361343,[],[(9,.code)],0,0⟩,⟨24,4951760157141521099596496896,[],[],0,0⟩,⟨26,549755813888,[],[],0,0⟩],[],[⟨28,4951760157141521099596496896,[],[],0,0⟩,⟨34,4294967808,[],[],0,0⟩,⟨35,115792089237316195423570985008687907853269984665635612279300442486792058306047,[],[(14,.code)],0,0⟩,⟨36,4951760157141521099596496896,[],[],0,0⟩,⟨38,17179869184,[],[],0,0⟩],[⟨29,8192,[],[],0,0⟩,⟨31,1024,[],[],0,0⟩,⟨32,4096,[],[],0,0⟩,⟨33,8192,[.crAlone],[],0,0⟩],[⟨30,1024,[],[],0,0⟩],[⟨28,4951760157141521099596496896,[],[(12,.setEnt .internalNl),(13,.cb)],0,0⟩,⟨34,4294967808,[],[(12,.setEnt .internalNl),(13,.cb)],0,0⟩,⟨35,115792089237316195423570985008687907853269984665635612279300442486792058306047,[],[(12,.setEnt .internalNl),(13,.cb),(14,.code)],0,0⟩,⟨36,4951760157141521099596496896,[],[(12,.setEnt .internalNl),(13,.cb)],0,0⟩,⟨38,17179869184,[],[(12,.setEnt .internalNl),(13,.cb)],0,0⟩],[⟨28,4951760157141521099596496896,[],[(12,.setEnt .internalNl),(13,.cb)],0,0⟩,⟨34,4294967808,[],[(12,.setEnt .internalNl),(13,.cb)],0,0⟩,⟨35,115792089237316195423570985008687907853269984665635612279300442486792058306047,[],[(12,.setEnt .internalNl),(13,.cb),(14,.code)],0,0⟩,⟨36,4951760157141521099596496896,[],[(12,.setEnt .internalNl),(13,.cb)],0,0⟩,⟨38,17179869184,[],[(12,.setEnt .internalNl),(13,.cb)],0,0⟩],[⟨28,4951760157141521099596496896,[],[(12,.setEnt .internalNl),(13,.cb)],0,0⟩,⟨34,4294967808,[],[(12,.setEnt .internalNl),(13,.cb)],0,0⟩,⟨35,115792089237316195423570985008687907853269984665635612279300442486792058306047,[],[(12,.setEnt .internalNl),(13,.cb),(14,.code)],0,0⟩,⟨36,4951760157141521099596496896,[],[(12,.setEnt .internalNl),(13,.cb)],0,0⟩,⟨38,17179869184,[],[(12,.setEnt .internalNl),(13,.cb)],0,0⟩],[⟨28,4951760157141521099596496896,[],[(12,.setEnt .internalNl),(13,.cb)],0,0⟩,⟨34,4294967808,[],[(12,.setEnt .internalNl),(13,.cb)],0,0⟩,⟨35,115792089237316195423570985008687907853269984665635612279300442486792058306047,[],[(12,.setEnt .internalNl),(13,.cb),(14,.code)],0,0⟩,⟨36,4951760157141521099596496896,[],[(12,.setEnt .internalNl),(13,.cb)],0,0⟩,⟨38,17179869184,[],[(12,.setEnt .internalNl),(13,.cb)],0,0⟩],[⟨28,4951760157141521099596496896,[],[],0,0⟩,⟨34,4294967808,[],[],0,0⟩,⟨35,115792089237316195423570985008687907853269984665635612279300442486792058306047,[],[(14,.code)],0,0⟩,⟨36,4951760157141521099596496896,[],[],0,0⟩,⟨38,17179869184,[],[],0,0⟩],[⟨28,4951760157141521099596496896,[],[],0,0⟩,⟨34,4294967808,[],[],0,0⟩,⟨35,115792089237316195423570985008687907853269984665635612279300442486792058306047,[],[(14,.code)],0,0⟩,⟨36,4951760157141521099596496896,[],[],0,0⟩,⟨38,17179869184,[],[],0,0⟩],[⟨37,115792089237316195423570985008687907853269984665640564039457584007913129626623,[],[(15,.code)],0,0⟩],[⟨28,4951760157141521099596496896,[],[],0,0⟩,⟨34,4294967808,[],[],0,0⟩,⟨35,115792089237316195423570985008687907853269984665635612279300442486792058306047,[],[(14,.code)],0,0⟩,⟨36,4951760157141521099596496896,[],[],0,0⟩,⟨38,17179869184,[],[],0,0⟩],[],[⟨40,1024,[],[(16,.setEnt .newline)],0,0⟩],[],[],[],[],[]],[some (0,[]),none,some (1,[]),some (1,[]),none,none,none,none,none,none,none,none,none,none,some (1,[]),none,none,none,none,none,none,none,none,none,none,none,some (2,[]),none,none,none,none,none,none,none,none,none,none,none,some (2,[]),none,some (3,[]),some (3,[]),some (3,[]),some (3,[]),some (4,[])],[1,6,16,17,18]⟩
theorem unrealscript_line_nfa_eq : Unrealscript.unrealscript_line.nfa = unrealscript_line_nfa := by decide +kernel
/-- The machine of `Unrealscript.unrealscript_line`, with its automaton as a literal. -/
def unrealscript_line_M : Machine := ⟨unrealscript_line_nfa, Unrealscript.unrealscript_line.ends, Unrealscript.unrealscript_line.sw⟩
theorem unrealscript_line_M_eq : Unrealscript.unrealscript_line.machine = unrealscript_line_M := by
  unfold Scanner.machine unrealscript_line_M; rw [unrealscript_line_nfa_eq]
def unrealscript_line_masks : List Nat := [4294967808,140737488355328,549755813888,17179869184,8192,1024,4096,115792089237316195423570985008687907853269984665640564039457584007908834656767,115792089237316195423570985008687907853269984665640564039457584007913129626623,4398046511104,115792089237316195423570985008687907853269984665640564039457584007908834658815,4951760157141521099596496896,115792089237316195423570985008687907853269984665635612279300442486259482361343,115792089237316195423570985008687907853269984665635612279300442486792058306047]
def unrealscript_line_cs : List (Nat × Nat) := [(0,115792089237316195423570985008687907853269984665635612279300442341106767610367),(9,4294967808),(10,1024),(11,2048),(12,4096),(13,8192),(34,17179869184),(39,549755813888),(42,4398046511104),(47,140737488355328),(92,4951760157141521099596496896)]
theorem unrealscript_line_masksIn : masksIn unrealscript_line_nfa unrealscript_line_masks = true := by decide +kernel
theorem unrealscript_line_repOk : repOk unrealscript_line_masks unrealscript_line_cs = true := by decide +kernel
def unrealscript_line_rows : List Row := [⟨[],none,[],[⟨256,.other,false,some ⟨0,[.setEnt (.own 3)],some 4,true⟩⟩,⟨256,.ws,false,some ⟨1,[.setEnt (.own 0)],some 0,false⟩⟩,⟨256,.lf,false,some ⟨0,[.setEnt .newline],some 3,true⟩⟩,⟨256,.vt,false,none⟩,⟨256,.ff,false,some ⟨0,[.setEnt .newline],some 3,true⟩⟩,⟨256,.cr,false,some ⟨2,[.setEnt .newline],none,false⟩⟩,⟨256,.cr,true,some ⟨3,[.setEnt .newline],some 3,false⟩⟩,⟨256,.other,false,some ⟨4,[.code,.setEnt (.own 3)],some 4,false⟩⟩,⟨256,.other,false,some ⟨5,[.code,.setEnt (.own 3)],some 4,false⟩⟩,⟨256,.other,false,some ⟨6,[.setEnt (.own 3)],some 4,false⟩⟩]⟩,⟨[0],some 0,[],[⟨256,.other,false,none⟩,⟨256,.ws,false,some ⟨1,[.setEnt (.own 0)],some 0,false⟩⟩,⟨256,.lf,false,none⟩,⟨256,.vt,false,none⟩,⟨256,.ff,false,none⟩,⟨256,.cr,false,none⟩,⟨256,.cr,true,none⟩]⟩,⟨[39],none,[],[⟨256,.other,false,none⟩,⟨256,.ws,false,none⟩,⟨256,.lf,false,some ⟨0,[.setEnt .newline],some 3,true⟩⟩,⟨256,.vt,false,none⟩,⟨256,.ff,false,none⟩,⟨256,.cr,false,none⟩,⟨256,.cr,true,none⟩]⟩,⟨[39,43],some 3,[],[⟨256,.other,false,none⟩,⟨256,.ws,false,none⟩,⟨256,.lf,false,some ⟨0,[.setEnt .newline],some 3,true⟩⟩,⟨256,.vt,false,none⟩,⟨256,.ff,false,none⟩,⟨256,.cr,false,none⟩,⟨256,.cr,true,none⟩]⟩,⟨[27,44],some 4,[],[⟨256,.other,false,some ⟨7,[.code],none,false⟩⟩,⟨256,.ws,false,some ⟨8,[],none,false⟩⟩,⟨256,.lf,false,some ⟨7,[.code],none,false⟩⟩,⟨256,.vt,false,some ⟨7,[.code],none,false⟩⟩,⟨256,.ff,false,some ⟨7,[.code],none,false⟩⟩,⟨256,.cr,false,some ⟨7,[.code],none,false⟩⟩,⟨256,.cr,true,some ⟨7,[.code],none,false⟩⟩,⟨256,.other,false,some ⟨0,[],some 2,true⟩⟩,⟨256,.other,false,some ⟨9,[],none,false⟩⟩]⟩,⟨[15,44],some 4,[],[⟨256,.other,false,some ⟨10,[.code],none,false⟩⟩,⟨256,.ws,false,some ⟨11,[],none,false⟩⟩,⟨256,.lf,false,some ⟨10,[.code],none,false⟩⟩,⟨256,.vt,false,some ⟨10,[.code],none,false⟩⟩,⟨256,.ff,false,some ⟨10,[.code],none,false⟩⟩,⟨256,.cr,false,some ⟨10,[.code],none,false⟩⟩,⟨256,.cr,true,some ⟨10,[.code],none,false⟩⟩,⟨256,.other,false,some ⟨0,[],some 2,true⟩⟩,⟨256,.other,false,some ⟨12,[],none,false⟩⟩]⟩,⟨[1,4,44],some 4,[],[⟨256,.other,false,none⟩,⟨256,.ws,false,none⟩,⟨256,.lf,false,none⟩,⟨256,.vt,false,none⟩,⟨256,.ff,false,none⟩,⟨256,.cr,false,none⟩,⟨256,.cr,true,none⟩,⟨256,.other,false,some ⟨13,[.comment],none,false⟩⟩,⟨256,.other,false,some ⟨14,[.comment],some 1,false⟩⟩]⟩,⟨[35],none,[],[⟨256,.other,false,some ⟨7,[.code],none,false⟩⟩,⟨256,.ws,false,some ⟨8,[],none,false⟩⟩,⟨256,.lf,false,some ⟨7,[.code],none,false⟩⟩,⟨256,.vt,false,some ⟨7,[.code],none,false⟩⟩,⟨256,.ff,false,some ⟨7,[.code],none,false⟩⟩,⟨256,.cr,false,some ⟨7,[.code],none,false⟩⟩,⟨256,.cr,true,some ⟨7,[.code],none,false⟩⟩,⟨256,.other,false,some ⟨0,[],some 2,true⟩⟩,⟨256,.other,false,some ⟨9,[],none,false⟩⟩]⟩,⟨[34],none,[],[⟨256,.other,false,some ⟨7,[.code],none,false⟩⟩,⟨256,.ws,false,some ⟨8,[],none,false⟩⟩,⟨256,.lf,false,some ⟨7,[.code],none,false⟩⟩,⟨256,.vt,false,some ⟨7,[.code],none,false⟩⟩,⟨256,.ff,false,some ⟨7,[.code],none,false⟩⟩,⟨256,.cr,false,some ⟨7,[.code],none,false⟩⟩,⟨256,.cr,true,some ⟨7,[.code],none,false⟩⟩,⟨256,.other,false,some ⟨0,[],some 2,true⟩⟩,⟨256,.other,false,some ⟨9,[],none,false⟩⟩]⟩,⟨[28,36],none,[],[⟨256,.other,false,some ⟨15,[.code],none,false⟩⟩,⟨256,.ws,false,some ⟨15,[.code],none,false⟩⟩,⟨256,.lf,false,some ⟨16,[],none,false⟩⟩,⟨256,.vt,false,some ⟨15,[.code],none,false⟩⟩,⟨256,.ff,false,some ⟨17,[],none,false⟩⟩,⟨256,.cr,false,some ⟨18,[],none,false⟩⟩,⟨256,.cr,true,some ⟨19,[],none,false⟩⟩]⟩,⟨[23],none,[],[⟨256,.other,false,some ⟨10,[.code],none,false⟩⟩,⟨256,.ws,false,some ⟨11,[],none,false⟩⟩,⟨256,.lf,false,some ⟨10,[.code],none,false⟩⟩,⟨256,.vt,false,some ⟨10,[.code],none,false⟩⟩,⟨256,.ff,false,some ⟨10,[.code],none,false⟩⟩,⟨256,.cr,false,some ⟨10,[.code],none,false⟩⟩,⟨256,.cr,true,some ⟨10,[.code],none,false⟩⟩,⟨256,.other,false,some ⟨0,[],some 2,true⟩⟩,⟨256,.other,false,some ⟨12,[],none,false⟩⟩]⟩,⟨[22],none,[],[⟨256,.other,false,some ⟨10,[.code],none,false⟩⟩,⟨256,.ws,false,some ⟨11,[],none,false⟩⟩,⟨256,.lf,false,some ⟨10,[.code],none,false⟩⟩,⟨256,.vt,false,some ⟨10,[.code],none,false⟩⟩,⟨256,.ff,false,some ⟨10,[.code],none,false⟩⟩,⟨256,.cr,false,some ⟨10,[.code],none,false⟩⟩,⟨256,.cr,true,some ⟨10,[.code],none,false⟩⟩,⟨256,.other,false,some ⟨0,[],some 2,true⟩⟩,⟨256,.other,false,some ⟨12,[],none,false⟩⟩]⟩,⟨[16,24],none,[],[⟨256,.other,false,some ⟨20,[.code],none,false⟩⟩,⟨256,.ws,false,some ⟨20,[.code],none,false⟩⟩,⟨256,.lf,false,some ⟨21,[],none,false⟩⟩,⟨256,.vt,false,some ⟨20,[.code],none,false⟩⟩,⟨256,.ff,false,some ⟨22,[],none,false⟩⟩,⟨256,.cr,false,some ⟨23,[],none,false⟩⟩,⟨256,.cr,true,some ⟨24,[],none,false⟩⟩]⟩,⟨[5],none,[],[⟨256,.other,false,some ⟨25,[.comment],none,false⟩⟩,⟨256,.ws,false,some ⟨26,[],none,false⟩⟩,⟨256,.lf,false,some ⟨27,[],none,false⟩⟩,⟨256,.vt,false,some ⟨25,[.comment],none,false⟩⟩,⟨256,.ff,false,some ⟨28,[],none,false⟩⟩,⟨256,.cr,false,some ⟨29,[],none,false⟩⟩,⟨256,.cr,true,some ⟨30,[],none,false⟩⟩,⟨256,.other,false,some ⟨31,[.comment],none,false⟩⟩]⟩,⟨[2],some 1,[],[⟨256,.other,false,some ⟨32,[],some 1,false⟩⟩,⟨256,.ws,false,some ⟨32,[],some 1,false⟩⟩,⟨256,.lf,false,none⟩,⟨256,.vt,false,some ⟨32,[],some 1,false⟩⟩,⟨256,.ff,false,none⟩,⟨256,.cr,false,none⟩,⟨256,.cr,true,none⟩]⟩,⟨[37],none,[],[⟨256,.other,false,some ⟨7,[.code],none,false⟩⟩,⟨256,.ws,false,some ⟨8,[],none,false⟩⟩,⟨256,.lf,false,some ⟨7,[.code],none,false⟩⟩,⟨256,.vt,false,some ⟨7,[.code],none,false⟩⟩,⟨256,.ff,false,some ⟨7,[.code],none,false⟩⟩,⟨256,.cr,false,some ⟨7,[.code],none,false⟩⟩,⟨256,.cr,true,some ⟨7,[.code],none,false⟩⟩,⟨256,.other,false,some ⟨0,[],some 2,true⟩⟩,⟨256,.other,false,some ⟨9,[],none,false⟩⟩]⟩,⟨[31],none,[],[⟨256,.other,false,some ⟨7,[.setEnt .internalNl,.cb,.code],none,false⟩⟩,⟨256,.ws,false,some ⟨8,[.setEnt .internalNl,.cb],none,false⟩⟩,⟨256,.lf,false,some ⟨7,[.setEnt .internalNl,.cb,.code],none,false⟩⟩,⟨256,.vt,false,some ⟨7,[.setEnt .internalNl,.cb,.code],none,false⟩⟩,⟨256,.ff,false,some ⟨7,[.setEnt .internalNl,.cb,.code],none,false⟩⟩,⟨256,.cr,false,some ⟨7,[.setEnt .internalNl,.cb,.code],none,false⟩⟩,⟨256,.cr,true,some ⟨7,[.setEnt .internalNl,.cb,.code],none,false⟩⟩,⟨256,.other,false,some ⟨0,[.setEnt .internalNl,.cb],some 2,true⟩⟩,⟨256,.other,false,some ⟨9,[.setEnt .internalNl,.cb],none,false⟩⟩]⟩,⟨[32],none,[],[⟨256,.other,false,some ⟨7,[.setEnt .internalNl,.cb,.code],none,false⟩⟩,⟨256,.ws,false,some ⟨8,[.setEnt .internalNl,.cb],none,false⟩⟩,⟨256,.lf,false,some ⟨7,[.setEnt .internalNl,.cb,.code],none,false⟩⟩,⟨256,.vt,false,some ⟨7,[.setEnt .internalNl,.cb,.code],none,false⟩⟩,⟨256,.ff,false,some ⟨7,[.setEnt .internalNl,.cb,.code],none,false⟩⟩,⟨256,.cr,false,some ⟨7,[.setEnt .internalNl,.cb,.code],none,false⟩⟩,⟨256,.cr,true,some ⟨7,[.setEnt .internalNl,.cb,.code],none,false⟩⟩,⟨256,.other,false,some ⟨0,[.setEnt .internalNl,.cb],some 2,true⟩⟩,⟨256,.other,false,some ⟨9,[.setEnt .internalNl,.cb],none,false⟩⟩]⟩,⟨[29],none,[],[⟨256,.other,false,none⟩,⟨256,.ws,false,none⟩,⟨256,.lf,false,some ⟨33,[],none,false⟩⟩,⟨256,.vt,false,none⟩,⟨256,.ff,false,none⟩,⟨256,.cr,false,none⟩,⟨256,.cr,true,none⟩]⟩,⟨[29,33],none,[],[⟨256,.other,false,some ⟨7,[.setEnt .internalNl,.cb,.code],none,false⟩⟩,⟨256,.ws,false,some ⟨8,[.setEnt .internalNl,.cb],none,false⟩⟩,⟨256,.lf,false,some ⟨34,[.setEnt .internalNl,.cb,.code],none,false⟩⟩,⟨256,.vt,false,some ⟨7,[.setEnt .internalNl,.cb,.code],none,false⟩⟩,⟨256,.ff,false,some ⟨7,[.setEnt .internalNl,.cb,.code],none,false⟩⟩,⟨256,.cr,false,some ⟨7,[.setEnt .internalNl,.cb,.code],none,false⟩⟩,⟨256,.cr,true,some ⟨7,[.setEnt .internalNl,.cb,.code],none,false⟩⟩,⟨256,.other,false,some ⟨0,[.setEnt .internalNl,.cb],some 2,true⟩⟩,⟨256,.other,false,some ⟨9,[.setEnt .internalNl,.cb],none,false⟩⟩]⟩,⟨[25],none,[],[⟨256,.other,false,some ⟨10,[.code],none,false⟩⟩,⟨256,.ws,false,some ⟨11,[],none,false⟩⟩,⟨256,.lf,false,some ⟨10,[.code],none,false⟩⟩,⟨256,.vt,false,some ⟨10,[.code],none,false⟩⟩,⟨256,.ff,false,some ⟨10,[.code],none,false⟩⟩,⟨256,.cr,false,some ⟨10,[.code],none,false⟩⟩,⟨256,.cr,true,some ⟨10,[.code],none,false⟩⟩,⟨256,.other,false,some ⟨0,[],some 2,true⟩⟩,⟨256,.other,false,some ⟨12,[],none,false⟩⟩]⟩,⟨[19],none,[],[⟨256,.other,false,some ⟨10,[.setEnt .internalNl,.cb,.code],none,false⟩⟩,⟨256,.ws,false,some ⟨11,[.setEnt .internalNl,.cb],none,false⟩⟩,⟨256,.lf,false,some ⟨10,[.setEnt .internalNl,.cb,.code],none,false⟩⟩,⟨256,.vt,false,some ⟨10,[.setEnt .internalNl,.cb,.code],none,false⟩⟩,⟨256,.ff,false,some ⟨10,[.setEnt .internalNl,.cb,.code],none,false⟩⟩,⟨256,.cr,false,some ⟨10,[.setEnt .internalNl,.cb,.code],none,false⟩⟩,⟨256,.cr,true,some ⟨10,[.setEnt .internalNl,.cb,.code],none,false⟩⟩,⟨256,.other,false,some ⟨0,[.setEnt .internalNl,.cb],some 2,true⟩⟩,⟨256,.other,false,some ⟨12,[.setEnt .internalNl,.cb],none,false⟩⟩]⟩,⟨[20],none,[],[⟨256,.other,false,some ⟨10,[.setEnt .internalNl,.cb,.code],none,false⟩⟩,⟨256,.ws,false,some ⟨11,[.setEnt .internalNl,.cb],none,false⟩⟩,⟨256,.lf,false,some ⟨10,[.setEnt .internalNl,.cb,.code],none,false⟩⟩,⟨256,.vt,false,some ⟨10,[.setEnt .internalNl,.cb,.code],none,false⟩⟩,⟨256,.ff,false,some ⟨10,[.setEnt .internalNl,.cb,.code],none,false⟩⟩,⟨256,.cr,false,some ⟨10,[.setEnt .internalNl,.cb,.code],none,false⟩⟩,⟨256,.cr,true,some ⟨10,[.setEnt .internalNl,.cb,.code],none,false⟩⟩,⟨256,.other,false,some ⟨0,[.setEnt .internalNl,.cb],some 2,true⟩⟩,⟨256,.other,false,some ⟨12,[.setEnt .internalNl,.cb],none,false⟩⟩]⟩,⟨[17],none,[],[⟨256,.other,false,none⟩,⟨256,.ws,false,none⟩,⟨256,.lf,false,some ⟨35,[],none,false⟩⟩,⟨256,.vt,false,none⟩,⟨256,.ff,false,none⟩,⟨256,.cr,false,none⟩,⟨256,.cr,true,none⟩]⟩,⟨[17,21],none,[],[⟨256,.other,false,some ⟨10,[.setEnt .internalNl,.cb,.code],none,false⟩⟩,⟨256,.ws,false,some ⟨11,[.setEnt .internalNl,.cb],none,false⟩⟩,⟨256,.lf,false,some ⟨36,[.setEnt .internalNl,.cb,.code],none,false⟩⟩,⟨256,.vt,false,some ⟨10,[.setEnt .internalNl,.cb,.code],none,false⟩⟩,⟨256,.ff,false,some ⟨10,[.setEnt .internalNl,.cb,.code],none,false⟩⟩,⟨256,.cr,false,some ⟨10,[.setEnt .internalNl,.cb,.code],none,false⟩⟩,⟨256,.cr,true,some ⟨10,[.setEnt .internalNl,.cb,.code],none,false⟩⟩,⟨256,.other,false,some ⟨0,[.setEnt .internalNl,.cb],some 2,true⟩⟩,⟨256,.other,false,some ⟨12,[.setEnt .internalNl,.cb],none,false⟩⟩]⟩,⟨[12],none,[],[⟨256,.other,false,some ⟨25,[.comment],none,false⟩⟩,⟨256,.ws,false,some ⟨26,[],none,false⟩⟩,⟨256,.lf,false,some ⟨27,[],none,false⟩⟩,⟨256,.vt,false,some ⟨25,[.comment],none,false⟩⟩,⟨256,.ff,false,some ⟨28,[],none,false⟩⟩,⟨256,.cr,false,some ⟨29,[],none,false⟩⟩,⟨256,.cr,true,some ⟨30,[],none,false⟩⟩,⟨256,.other,false,some ⟨31,[.comment],none,false⟩⟩]⟩,⟨[11],none,[],[⟨256,.other,false,some ⟨25,[.comment],none,false⟩⟩,⟨256,.ws,false,some ⟨26,[],none,false⟩⟩,⟨256,.lf,false,some ⟨27,[],none,false⟩⟩,⟨256,.vt,false,some ⟨25,[.comment],none,false⟩⟩,⟨256,.ff,false,some ⟨28,[],none,false⟩⟩,⟨256,.cr,false,some ⟨29,[],none,false⟩⟩,⟨256,.cr,true,some ⟨30,[],none,false⟩⟩,⟨256,.other,false,some ⟨31,[.comment],none,false⟩⟩]⟩,⟨[8],none,[],[⟨256,.other,false,some ⟨25,[.setEnt .internalNl,.cb,.comment],none,false⟩⟩,⟨256,.ws,false,some ⟨26,[.setEnt .internalNl,.cb],none,false⟩⟩,⟨256,.lf,false,some ⟨27,[.setEnt .internalNl,.cb],none,false⟩⟩,⟨256,.vt,false,some ⟨25,[.setEnt .internalNl,.cb,.comment],none,false⟩⟩,⟨256,.ff,false,some ⟨28,[.setEnt .internalNl,.cb],none,false⟩⟩,⟨256,.cr,false,some ⟨29,[.setEnt .internalNl,.cb],none,false⟩⟩,⟨256,.cr,true,some ⟨30,[.setEnt .internalNl,.cb],none,false⟩⟩,⟨256,.other,false,some ⟨31,[.setEnt .internalNl,.cb,.comment],none,false⟩⟩]⟩,⟨[9],none,[],[⟨256,.other,false,some ⟨25,[.setEnt .internalNl,.cb,.comment],none,false⟩⟩,⟨256,.ws,false,some ⟨26,[.setEnt .internalNl,.cb],none,false⟩⟩,⟨256,.lf,false,some ⟨27,[.setEnt .internalNl,.cb],none,false⟩⟩,⟨256,.vt,false,some ⟨25,[.setEnt .internalNl,.cb,.comment],none,false⟩⟩,⟨256,.ff,false,some ⟨28,[.setEnt .internalNl,.cb],none,false⟩⟩,⟨256,.cr,false,some ⟨29,[.setEnt .internalNl,.cb],none,false⟩⟩,⟨256,.cr,true,some ⟨30,[.setEnt .internalNl,.cb],none,false⟩⟩,⟨256,.other,false,some ⟨31,[.setEnt .internalNl,.cb,.comment],none,false⟩⟩]⟩,⟨[6],none,[],[⟨256,.other,false,none⟩,⟨256,.ws,false,none⟩,⟨256,.lf,false,some ⟨37,[],none,false⟩⟩,⟨256,.vt,false,none⟩,⟨256,.ff,false,none⟩,⟨256,.cr,false,none⟩,⟨256,.cr,true,none⟩]⟩,⟨[6,10],none,[],[⟨256,.other,false,some ⟨25,[.setEnt .internalNl,.cb,.comment],none,false⟩⟩,⟨256,.ws,false,some ⟨26,[.setEnt .internalNl,.cb],none,false⟩⟩,⟨256,.lf,false,some ⟨38,[.setEnt .internalNl,.cb],none,false⟩⟩,⟨256,.vt,false,some ⟨25,[.setEnt .internalNl,.cb,.comment],none,false⟩⟩,⟨256,.ff,false,some ⟨28,[.setEnt .internalNl,.cb],none,false⟩⟩,⟨256,.cr,false,some ⟨29,[.setEnt .internalNl,.cb],none,false⟩⟩,⟨256,.cr,true,some ⟨30,[.setEnt .internalNl,.cb],none,false⟩⟩,⟨256,.other,false,some ⟨31,[.setEnt .internalNl,.cb,.comment],none,false⟩⟩]⟩,⟨[12,13],none,[],[⟨256,.other,false,some ⟨25,[.comment],none,false⟩⟩,⟨256,.ws,false,some ⟨26,[],none,false⟩⟩,⟨256,.lf,false,some ⟨27,[],none,false⟩⟩,⟨256,.vt,false,some ⟨25,[.comment],none,false⟩⟩,⟨256,.ff,false,some ⟨28,[],none,false⟩⟩,⟨256,.cr,false,some ⟨29,[],none,false⟩⟩,⟨256,.cr,true,some ⟨30,[],none,false⟩⟩,⟨256,.other,false,some ⟨31,[.comment],none,false⟩⟩,⟨256,.other,false,some ⟨0,[],some 1,true⟩⟩]⟩,⟨[3],some 1,[],[⟨256,.other,false,some ⟨32,[],some 1,false⟩⟩,⟨256,.ws,false,some ⟨32,[],some 1,false⟩⟩,⟨256,.lf,false,none⟩,⟨256,.vt,false,some ⟨32,[],some 1,false⟩⟩,⟨256,.ff,false,none⟩,⟨256,.cr,false,none⟩,⟨256,.cr,true,none⟩]⟩,⟨[30],none,[],[⟨256,.other,false,some ⟨7,[.setEnt .internalNl,.cb,.code],none,false⟩⟩,⟨256,.ws,false,some ⟨8,[.setEnt .internalNl,.cb],none,false⟩⟩,⟨256,.lf,false,some ⟨7,[.setEnt .internalNl,.cb,.code],none,false⟩⟩,⟨256,.vt,false,some ⟨7,[.setEnt .internalNl,.cb,.code],none,false⟩⟩,⟨256,.ff,false,some ⟨7,[.setEnt .internalNl,.cb,.code],none,false⟩⟩,⟨256,.cr,false,some ⟨7,[.setEnt .internalNl,.cb,.code],none,false⟩⟩,⟨256,.cr,true,some ⟨7,[.setEnt .internalNl,.cb,.code],none,false⟩⟩,⟨256,.other,false,some ⟨0,[.setEnt .internalNl,.cb],some 2,true⟩⟩,⟨256,.other,false,some ⟨9,[.setEnt .internalNl,.cb],none,false⟩⟩]⟩,⟨[30,35],none,[],[⟨256,.other,false,some ⟨7,[.setEnt .internalNl,.cb,.code],none,false⟩⟩,⟨256,.ws,false,some ⟨8,[.setEnt .internalNl,.cb],none,false⟩⟩,⟨256,.lf,false,some ⟨7,[.setEnt .internalNl,.cb,.code],none,false⟩⟩,⟨256,.vt,false,some ⟨7,[.setEnt .internalNl,.cb,.code],none,false⟩⟩,⟨256,.ff,false,some ⟨7,[.setEnt .internalNl,.cb,.code],none,false⟩⟩,⟨256,.cr,false,some ⟨7,[.setEnt .internalNl,.cb,.code],none,false⟩⟩,⟨256,.cr,true,some ⟨7,[.setEnt .internalNl,.cb,.code],none,false⟩⟩,⟨256,.other,false,some ⟨0,[.setEnt .internalNl,.cb],some 2,true⟩⟩,⟨256,.other,false,some ⟨9,[.setEnt .internalNl,.cb],none,false⟩⟩]⟩,⟨[18],none,[],[⟨256,.other,false,some ⟨10,[.setEnt .internalNl,.cb,.code],none,false⟩⟩,⟨256,.ws,false,some ⟨11,[.setEnt .internalNl,.cb],none,false⟩⟩,⟨256,.lf,false,some ⟨10,[.setEnt .internalNl,.cb,.code],none,false⟩⟩,⟨256,.vt,false,some ⟨10,[.setEnt .internalNl,.cb,.code],none,false⟩⟩,⟨256,.ff,false,some ⟨10,[.setEnt .internalNl,.cb,.code],none,false⟩⟩,⟨256,.cr,false,some ⟨10,[.setEnt .internalNl,.cb,.code],none,false⟩⟩,⟨256,.cr,true,some ⟨10,[.setEnt .internalNl,.cb,.code],none,false⟩⟩,⟨256,.other,false,some ⟨0,[.setEnt .internalNl,.cb],some 2,true⟩⟩,⟨256,.other,false,some ⟨12,[.setEnt .internalNl,.cb],none,false⟩⟩]⟩,⟨[18,23],none,[],[⟨256,.other,false,some ⟨10,[.setEnt .internalNl,.cb,.code],none,false⟩⟩,⟨256,.ws,false,some ⟨11,[.setEnt .internalNl,.cb],none,false⟩⟩,⟨256,.lf,false,some ⟨10,[.setEnt .internalNl,.cb,.code],none,false⟩⟩,⟨256,.vt,false,some ⟨10,[.setEnt .internalNl,.cb,.code],none,false⟩⟩,⟨256,.ff,false,some ⟨10,[.setEnt .internalNl,.cb,.code],none,false⟩⟩,⟨256,.cr,false,some ⟨10,[.setEnt .internalNl,.cb,.code],none,false⟩⟩,⟨256,.cr,true,some ⟨10,[.setEnt .internalNl,.cb,.code],none,false⟩⟩,⟨256,.other,false,some ⟨0,[.setEnt .internalNl,.cb],some 2,true⟩⟩,⟨256,.other,false,some ⟨12,[.setEnt .internalNl,.cb],none,false⟩⟩]⟩,⟨[7],none,[],[⟨256,.other,false,some ⟨25,[.setEnt .internalNl,.cb,.comment],none,false⟩⟩,⟨256,.ws,false,some ⟨26,[.setEnt .internalNl,.cb],none,false⟩⟩,⟨256,.lf,false,some ⟨27,[.setEnt .internalNl,.cb],none,false⟩⟩,⟨256,.vt,false,some ⟨25,[.setEnt .internalNl,.cb,.comment],none,false⟩⟩,⟨256,.ff,false,some ⟨28,[.setEnt .internalNl,.cb],none,false⟩⟩,⟨256,.cr,false,some ⟨29,[.setEnt .internalNl,.cb],none,false⟩⟩,⟨256,.cr,true,some ⟨30,[.setEnt .internalNl,.cb],none,false⟩⟩,⟨256,.other,false,some ⟨31,[.setEnt .internalNl,.cb,.comment],none,false⟩⟩]⟩,⟨[7,8],none,[],[⟨256,.other,false,some ⟨25,[.setEnt .internalNl,.cb,.comment],none,false⟩⟩,⟨256,.ws,false,some ⟨26,[.setEnt .internalNl,.cb],none,false⟩⟩,⟨256,.lf,false,some ⟨27,[.setEnt .internalNl,.cb],none,false⟩⟩,⟨256,.vt,false,some ⟨25,[.setEnt .internalNl,.cb,.comment],none,false⟩⟩,⟨256,.ff,false,some ⟨28,[.setEnt .internalNl,.cb],none,false⟩⟩,⟨256,.cr,false,some ⟨29,[.setEnt .internalNl,.cb],none,false⟩⟩,⟨256,.cr,true,some ⟨30,[.setEnt .internalNl,.cb],none,false⟩⟩,⟨256,.other,false,some ⟨31,[.setEnt .internalNl,.cb,.comment],none,false⟩⟩]⟩]
theorem unrealscript_line_rowsOk : rowsOk unrealscript_line_nfa [] (unrealscript_line_cs.map (·.1)) unrealscript_line_rows = true := by decide +kernel
def unrealscript_line_D : Dfa unrealscript_line_M.nfa := ⟨unrealscript_line_masks, [], unrealscript_line_cs, unrealscript_line_rows, unrealscript_line_masksIn, unrealscript_line_repOk, unrealscript_line_rowsOk⟩

def xslt_line_nfa : Nfa := ⟨[⟨0,4294967808,[],[(0,.setEnt (.own 0))],0,0⟩,⟨1,1152921504606846976,[],[],0,2⟩,⟨15,549755813888,[],[],0,0⟩,⟨20,17179869184,[],[],0,0⟩,⟨25,1152921504606846976,[],[],0,4⟩,⟨44,8192,[],[(11,.setEnt .newline)],0,0⟩,⟨46,1024,[],[(11,.setEnt .newline)],0,0⟩,⟨47,4096,[],[(11,.setEnt .newline)],0,0⟩,⟨48,8192,[.crAlone],[(11,.setEnt .newline)],0,0⟩,⟨49,115792089237316195423570985008687907853269984665640564039457584007908834656767,[],[(12,.setEnt (.own 5))],0,0⟩],[[⟨0,4294967808,[],[(0,.setEnt (.own 0))],0,0⟩],[⟨2,8589934592,[],[],0,2⟩],[⟨3,35184372088832,[],[],0,2⟩],[⟨4,35184372088832,[],[(1,.comment)],0,2⟩],[⟨5,8192,[],[],0,2⟩,⟨7,1024,[],[],0,2⟩,⟨8,4096,[],[],0,2⟩,⟨9,8192,[.crAlone],[],0,2⟩,⟨10,4294967808,[],[],0,2⟩,⟨11,115792089237316195423570985008687907853269984665640564039457584007908834658815,[],[(4,.comment)],0,2⟩,⟨12,35184372088832,[],[],0,2⟩],[⟨6,1024,[],[],0,2⟩],[⟨5,8192,[],[(2,.setEnt .internalNl),(3,.cb)],0,2⟩,⟨7,1024,[],[(2,.setEnt .internalNl),(3,.cb)],0,2⟩,⟨8,4096,[],[(2,.setEnt .internalNl),(3,.cb)],0,2⟩,⟨9,8192,[.crAlone],[(2,.setEnt .internalNl),(3,.cb)],0,2⟩,⟨10,4294967808,[],[(2,.setEnt .internalNl),(3,.cb)],0,2⟩,⟨11,115792089237316195423570985008687907853269984665640564039457584007908834658815,[],[(2,.setEnt .internalNl),(3,.cb),(4,.comment)],0,2⟩,⟨12,35184372088832,[],[(2,.setEnt .internalNl),(3,.cb)],0,2⟩],[⟨5,8192,[],[(2,.setEnt .internalNl),(3,.cb)],0,2⟩,⟨7,1024,[],[(2,.setEnt .internalNl),(3,.cb)],0,2⟩,⟨8,4096,[],[(2,.setEnt .internalNl),(3,.cb)],0,2⟩,⟨9,8192,[.crAlone],[(2,.setEnt .internalNl),(3,.cb)],0,2⟩,⟨10,4294967808,[],[(2,.setEnt .internalNl),(3,.cb)],0,2⟩,⟨11,115792089237316195423570985008687907853269984665640564039457584007908834658815,[],[(2,.setEnt .internalNl),(3,.cb),(4,.comment)],0,2⟩,⟨12,35184372088832,[],[(2,.setEnt .internalNl),(3,.cb)],0,2⟩],[⟨5,8192,[],[(2,.setEnt .internalNl),(3,.cb)],0,2⟩,⟨7,1024,[],[(2,.setEnt .internalNl),(3,.cb)],0,2⟩,⟨8,4096,[],[(2,.setEnt .internalNl),(3,.cb)],0,2⟩,⟨9,8192,[.crAlone],[(2,.setEnt .internalNl),(3,.cb)],0,2⟩,⟨10,4294967808,[],[(2,.setEnt .internalNl),(3,.cb)],0,2⟩,⟨11,115792089237316195423570985008687907853269984665640564039457584007908834658815,[],[(2,.setEnt .internalNl),(3,.cb),(4,.comment)],0,2⟩,⟨12,35184372088832,[],[(2,.setEnt .internalNl),(3,.cb)],0,2⟩],[⟨5,8192,[],[(2,.setEnt .internalNl),(3,.cb)],0,2⟩,⟨7,1024,[],[(2,.setEnt .internalNl),(3,.cb)],0,2⟩,⟨8,4096,[],[(2,.setEnt .internalNl),(3,.cb)],0,2⟩,⟨9,8192,[.crAlone],[(2,.setEnt .internalNl),(3,.cb)],0,2⟩,⟨10,4294967808,[],[(2,.setEnt .internalNl),(3,.cb)],0,2⟩,⟨11,115792089237316195423570985008687907853269984665640564039457584007908834658815,[],[(2,.setEnt .internalNl),(3,.cb),(4,.comment)],0,2⟩,⟨12,35184372088832,[],[(2,.setEnt .internalNl),(3,.cb)],0,2⟩],[⟨5,8192,[],[],0,2⟩,⟨7,1024,[],[],0,2⟩,⟨8,4096,[],[],0,2⟩,⟨9,8192,[.crAlone],[],0,2⟩,⟨10,4294967808,[],[],0,2⟩,⟨11,115792089237316195423570985008687907853269984665640564039457584007908834658815,[],[(4,.comment)],0,2⟩,⟨12,35184372088832,[],[],0,2⟩],[⟨5,8192,[],[],0,2⟩,⟨7,1024,[],[],0,2⟩,⟨8,4096,[],[],0,2⟩,⟨9,8192,[.crAlone],[],0,2⟩,⟨10,4294967808,[],[],0,2⟩,⟨11,115792089237316195423570985008687907853269984665640564039457584007908834658815,[],[(4,.comment)],0,2⟩,⟨12,35184372088832,[],[],0,2⟩],[⟨13,35184372088832,[],[],0,0⟩],[⟨14,4611686018427387904,[],[],2,0⟩],[],[⟨16,115792089237316195423570985008687907853269984665635612279300442486263777315839,[],[],0,0⟩,⟨17,4951760157141521099596496896,[],[],0,0⟩,⟨19,549755813888,[],[(5,.code)],0,0⟩],[⟨16,115792089237316195423570985008687907853269984665635612279300442486263777315839,[],[],0,0⟩,⟨17,4951760157141521099596496896,[],[],0,0⟩,⟨19,549755813888,[],[(5,.code)],0,0⟩],[⟨18,115792089237316195423570985008687907853269984665640564039457584007913129626623,[],[],0,0⟩],[⟨16,115792089237316195423570985008687907853269984665635612279300442486263777315839,[],[],0,0⟩,⟨17,4951760157141521099596496896,[],[],0,0⟩,⟨19,549755813888,[],[(5,.code)],0,0⟩],[],[⟨21,115792089237316195423570985008687907853269984665635612279300442486796353260543,[],[],0,0⟩,⟨22,4951760157141521099596496896,[],[],0,0⟩,⟨24,17179869184,[],[(6,.code)],0,0⟩],[⟨21,115792089237316195423570985008687907853269984665635612279300442486796353260543,[],[],0,0⟩,⟨22,4951760157141521099596496896,[],[],0,0⟩,⟨24,17179869184,[],[(6,.code)],0,0⟩],[⟨23,115792089237316195423570985008687907853269984665640564039457584007913129626623,[],[],0,0⟩],[⟨21,115792089237316195423570985008687907853269984665635612279300442486796353260543,[],[],0,0⟩,⟨22,4951760157141521099596496896,[],[],0,0⟩,⟨24,17179869184,[],[(6,.code)],0,0⟩],[],[⟨26,8589934592,[],[],0,4⟩],[⟨27,2475880078570760549798248448,[],[],0,4⟩],[⟨28,147573952589676412928,[],[],0,4⟩],[⟨29,295147905179352825856,[],[],0,4⟩],[⟨30,36893488147419103232,[],[],0,4⟩],[⟨31,19342813113834066795298816,[],[],0,4⟩],[⟨32,36893488147419103232,[],[],0,4⟩],[⟨33,2475880078570760549798248448,[],[(7,.code)],0,4⟩],[⟨34,8192,[],[],0,4⟩,⟨36,1024,[],[],0,4⟩,⟨37,4096,[],[],0,4⟩,⟨38,8192,[.crAlone],[],0,4⟩,⟨39,4294967808,[],[],0,4⟩,⟨40,115792089237316195423570985008687907853269984665640564039457584007908834658815,[],[(10,.code)],0,4⟩,⟨41,9903520314283042199192993792,[],[],0,4⟩],[⟨35,1024,[],[],0,4⟩],[⟨34,8192,[],[(8,.setEnt .internalNl),(9,.cb)],0,4⟩,⟨36,1024,[],[(8,.setEnt .internalNl),(9,.cb)],0,4⟩,⟨37,4096,[],[(8,.setEnt .internalNl),(9,.cb)],0,4⟩,⟨38,8192,[.crAlone],[(8,.setEnt .internalNl),(9,.cb)],0,4⟩,⟨39,4294967808,[],[(8,.setEnt .internalNl),(9,.cb)],0,4⟩,⟨40,115792089237316195423570985008687907853269984665640564039457584007908834658815,[],[(8,.setEnt .internalNl),(9,.cb),(10,.code)],0,4⟩,⟨41,9903520314283042199192993792,[],[(8,.setEnt .internalNl),(9,.cb)],0,4⟩],[⟨34,8192,[],[(8,.setEnt .internalNl),(9,.cb)],0,4⟩,⟨36,1024,[],[(8,.setEnt .internalNl),(9,.cb)],0,4⟩,⟨37,4096,[],[(8,.setEnt .internalNl),(9,.cb)],0,4⟩,⟨38,8192,[.crAlone],[(8,.setEnt .internalNl),(9,.cb)],0,4⟩,⟨39,4294967808,[],[(8,.setEnt .internalNl),(9,.cb)],0,4⟩,⟨40,115792089237316195423570985008687907853269984665640564039457584007908834658815,[],[(8,.setEnt .internalNl),(9,.cb),(10,.code)],0,4⟩,⟨41,9903520314283042199192993792,[],[(8,.setEnt .internalNl),(9,.cb)],0,4⟩],[⟨34,8192,[],[(8,.setEnt .internalNl),(9,.cb)],0,4⟩,⟨36,1024,[],[(8,.setEnt .internalNl),(9,.cb)],0,4⟩,⟨37,4096,[],[(8,.setEnt .internalNl),(9,.cb)],0,4⟩,⟨38,8192,[.crAlone],[(8,.setEnt .internalNl),(9,.cb)],0,4⟩,⟨39,4294967808,[],[(8,.setEnt .internalNl),(9,.cb)],0,4⟩,⟨40,115792089237316195423570985008687907853269984665640564039457584007908834658815,[],[(8,.setEnt .internalNl),(9,.cb),(10,.code)],0,4⟩,⟨41,9903520314283042199192993792,[],[(8,.setEnt .internalNl),(9,.cb)],0,4⟩],[⟨34,8192,[],[(8,.setEnt .internalNl),(9,.cb)],0,4⟩,⟨36,1024,[],[(8,.setEnt .internalNl),(9,.cb)],0,4⟩,⟨37,4096,[],[(8,.setEnt .internalNl),(9,.cb)],0,4⟩,⟨38,8192,[.crAlone],[(8,.setEnt .internalNl),(9,.cb)],0,4⟩,⟨39,4294967808,[],[(8,.setEnt .internalNl),(9,.cb)],0,4⟩,⟨40,115792089237316195423570985008687907853269984665640564039457584007908834658815,[],[(8,.setEnt .internalNl),(9,.cb),(10,.code)],0,4⟩,⟨41,9903520314283042199192993792,[],[(8,.setEnt .internalNl),(9,.cb)],0,4⟩],[⟨34,8192,[],[],0,4⟩,⟨36,1024,[],[],0,4⟩,⟨37,4096,[],[],0,4⟩,⟨38,8192,[.crAlone],[],0,4⟩,⟨39,4294967808,[],[],0,4⟩,⟨40,115792089237316195423570985008687907853269984665640564039457584007908834658815,[],[(10,.code)],0,4⟩,⟨41,9903520314283042199192993792,[],[],0,4⟩],[⟨34,8192,[],[],0,4⟩,⟨36,1024,[],[],0,4⟩,⟨37,4096,[],[],0,4⟩,⟨38,8192,[.crAlone],[],0,4⟩,⟨39,4294967808,[],[],0,4⟩,⟨40,115792089237316195423570985008687907853269984665640564039457584007908834658815,[],[(10,.code)],0,4⟩,⟨41,9903520314283042199192993792,[],[],0,4⟩],[⟨42,9903520314283042199192993792,[],[],0,0⟩],[⟨43,4611686018427387904,[],[],4,0⟩],[],[⟨45,1024,[],[(11,.setEnt .newline)],0,0⟩],[],[],[],[],[]],[some (0,[]),none,none,none,none,none,none,none,none,none,none,none,none,none,some (1,[]),none,none,none,none,some (2,[]),none,none,none,none,some (2,[]),none,none,none,none,none,none,none,none,none,none,none,none,none,none,none,none,none,none,some (2,[]),none,some (3,[]),some (3,[]),some (3,[]),some (3,[]),some (4,[])],[1,5,11,12,13]⟩
theorem xslt_line_nfa_eq : Xslt.xslt_line.nfa = xslt_line_nfa := by decide +kernel
/-- The machine of `Xslt.xslt_line`, with its automaton as a literal. -/
def xslt_line_M : Machine := ⟨xslt_line_nfa, Xslt.xslt_line.ends, Xslt.xslt_line.sw⟩
theorem xslt_line_M_eq : Xslt.xslt_line.machine = xslt_line_M := by
  unfold Scanner.machine xslt_line_M; rw [xslt_line_nfa_eq]
def xslt_line_masks : List Nat := [4294967808,1152921504606846976,549755813888,17179869184,8192,1024,4096,115792089237316195423570985008687907853269984665640564039457584007908834656767,8589934592,35184372088832,115792089237316195423570985008687907853269984665640564039457584007908834658815,4611686018427387904,115792089237316195423570985008687907853269984665635612279300442486263777315839,4951760157141521099596496896,115792089237316195423570985008687907853269984665640564039457584007913129626623,115792089237316195423570985008687907853269984665635612279300442486796353260543,2475880078570760549798248448,147573952589676412928,295147905179352825856,36893488147419103232,19342813113834066795298816,9903520314283042199192993792]
def xslt_line_cs : List (Nat × Nat) := [(0,115792089237316195423570985008687907853269984665623213535609094860794071335423),(9,4294967808),(10,1024),(11,2048),(12,4096),(13,8192),(33,8589934592),(34,17179869184),(39,549755813888),(45,35184372088832),(60,1152921504606846976),(62,4611686018427387904),(65,36893488147419103232),(67,147573952589676412928),(68,295147905179352825856),(84,19342813113834066795298816),(91,2475880078570760549798248448),(92,4951760157141521099596496896),(93,9903520314283042199192993792)]
theorem xslt_line_masksIn : masksIn xslt_line_nfa xslt_line_masks = true := by decide +kernel
theorem xslt_line_repOk : repOk xslt_line_masks xslt_line_cs = true := by decide +kernel
def xslt_line_rows : List Row := [⟨[],none,[],[⟨256,.other,false,some ⟨0,[.setEnt (.own 5)],some 4,true⟩⟩,⟨256,.ws,false,some ⟨1,[.setEnt (.own 0)],some 0,false⟩⟩,⟨256,.lf,false,some ⟨0,[.setEnt .newline],some 3,true⟩⟩,⟨256,.vt,false,none⟩,⟨256,.ff,false,some ⟨0,[.setEnt .newline],some 3,true⟩⟩,⟨256,.cr,false,some ⟨2,[.setEnt .newline],none,false⟩⟩,⟨256,.cr,true,some ⟨3,[.setEnt .newline],some 3,false⟩⟩,⟨256,.other,false,some ⟨4,[.setEnt (.own 5)],some 4,false⟩⟩,⟨256,.other,false,some ⟨5,[.setEnt (.own 5)],some 4,false⟩⟩,⟨256,.other,false,some ⟨6,[.setEnt (.own 5)],some 4,false⟩⟩]⟩,⟨[0],some 0,[],[⟨256,.other,false,none⟩,⟨256,.ws,false,some ⟨1,[.setEnt (.own 0)],some 0,false⟩⟩,⟨256,.lf,false,none⟩,⟨256,.vt,false,none⟩,⟨256,.ff,false,none⟩,⟨256,.cr,false,none⟩,⟨256,.cr,true,none⟩]⟩,⟨[44],none,[],[⟨256,.other,false,none⟩,⟨256,.ws,false,none⟩,⟨256,.lf,false,some ⟨0,[.setEnt .newline],some 3,true⟩⟩,⟨256,.vt,false,none⟩,⟨256,.ff,false,none⟩,⟨256,.cr,false,none⟩,⟨256,.cr,true,none⟩]⟩,⟨[44,48],some 3,[],[⟨256,.other,false,none⟩,⟨256,.ws,false,none⟩,⟨256,.lf,false,some ⟨0,[.setEnt .newline],some 3,true⟩⟩,⟨256,.vt,false,none⟩,⟨256,.ff,false,none⟩,⟨256,.cr,false,none⟩,⟨256,.cr,true,none⟩]⟩,⟨[20,49],some 4,[],[⟨256,.other,false,some ⟨7,[],none,false⟩⟩,⟨256,.ws,false,some ⟨7,[],none,false⟩⟩,⟨256,.lf,false,none⟩,⟨256,.vt,false,some ⟨7,[],none,false⟩⟩,⟨256,.ff,false,none⟩,⟨256,.cr,false,none⟩,⟨256,.cr,true,none⟩,⟨256,.other,false,some ⟨0,[.code],some 2,true⟩⟩,⟨256,.other,false,some ⟨8,[],none,false⟩⟩]⟩,⟨[15,49],some 4,[],[⟨256,.other,false,some ⟨9,[],none,false⟩⟩,⟨256,.ws,false,some ⟨9,[],none,false⟩⟩,⟨256,.lf,false,none⟩,⟨256,.vt,false,some ⟨9,[],none,false⟩⟩,⟨256,.ff,false,none⟩,⟨256,.cr,false,none⟩,⟨256,.cr,true,none⟩,⟨256,.other,false,some ⟨0,[.code],some 2,true⟩⟩,⟨256,.other,false,some ⟨10,[],none,false⟩⟩]⟩,⟨[1,25,49],some 4,[],[⟨256,.other,false,none⟩,⟨256,.ws,false,none⟩,⟨256,.lf,false,none⟩,⟨256,.vt,false,none⟩,⟨256,.ff,false,none⟩,⟨256,.cr,false,none⟩,⟨256,.cr,true,none⟩,⟨256,.other,false,some ⟨11,[],none,false⟩⟩]⟩,⟨[21],none,[],[⟨256,.other,false,some ⟨7,[],none,false⟩⟩,⟨256,.ws,false,some ⟨7,[],none,false⟩⟩,⟨256,.lf,false,none⟩,⟨256,.vt,false,some ⟨7,[],none,false⟩⟩,⟨256,.ff,false,none⟩,⟨256,.cr,false,none⟩,⟨256,.cr,true,none⟩,⟨256,.other,false,some ⟨0,[.code],some 2,true⟩⟩,⟨256,.other,false,some ⟨8,[],none,false⟩⟩]⟩,⟨[22],none,[],[⟨256,.other,false,some ⟨12,[],none,false⟩⟩,⟨256,.ws,false,some ⟨12,[],none,false⟩⟩,⟨256,.lf,false,none⟩,⟨256,.vt,false,some ⟨12,[],none,false⟩⟩,⟨256,.ff,false,none⟩,⟨256,.cr,false,none⟩,⟨256,.cr,true,none⟩]⟩,⟨[16],none,[],[⟨256,.other,false,some ⟨9,[],none,false⟩⟩,⟨256,.ws,false,some ⟨9,[],none,false⟩⟩,⟨256,.lf,false,none⟩,⟨256,.vt,false,some ⟨9,[],none,false⟩⟩,⟨256,.ff,false,none⟩,⟨256,.cr,false,none⟩,⟨256,.cr,true,none⟩,⟨256,.other,false,some ⟨0,[.code],some 2,true⟩⟩,⟨256,.other,false,some ⟨10,[],none,false⟩⟩]⟩,⟨[17],none,[],[⟨256,.other,false,some ⟨13,[],none,false⟩⟩,⟨256,.ws,false,some ⟨13,[],none,false⟩⟩,⟨256,.lf,false,none⟩,⟨256,.vt,false,some ⟨13,[],none,false⟩⟩,⟨256,.ff,false,none⟩,⟨256,.cr,false,none⟩,⟨256,.cr,true,none⟩]⟩,⟨[2,26],none,[],[⟨256,.other,false,none⟩,⟨256,.ws,false,none⟩,⟨256,.lf,false,none⟩,⟨256,.vt,false,none⟩,⟨256,.ff,false,none⟩,⟨256,.cr,false,none⟩,⟨256,.cr,true,none⟩,⟨256,.other,false,some ⟨14,[],none,false⟩⟩,⟨256,.other,false,some ⟨15,[],none,false⟩⟩]⟩,⟨[23],none,[],[⟨256,.other,false,some ⟨7,[],none,false⟩⟩,⟨256,.ws,false,some ⟨7,[],none,false⟩⟩,⟨256,.lf,false,none⟩,⟨256,.vt,false,some ⟨7,[],none,false⟩⟩,⟨256,.ff,false,none⟩,⟨256,.cr,false,none⟩,⟨256,.cr,true,none⟩,⟨256,.other,false,some ⟨0,[.code],some 2,true⟩⟩,⟨256,.other,false,some ⟨8,[],none,false⟩⟩]⟩,⟨[18],none,[],[⟨256,.other,false,some ⟨9,[],none,false⟩⟩,⟨256,.ws,false,some ⟨9,[],none,false⟩⟩,⟨256,.lf,false,none⟩,⟨256,.vt,false,some ⟨9,[],none,false⟩⟩,⟨256,.ff,false,none⟩,⟨256,.cr,false,none⟩,⟨256,.cr,true,none⟩,⟨256,.other,false,some ⟨0,[.code],some 2,true⟩⟩,⟨256,.other,false,some ⟨10,[],none,false⟩⟩]⟩,⟨[3],none,[],[⟨256,.other,false,none⟩,⟨256,.ws,false,none⟩,⟨256,.lf,false,none⟩,⟨256,.vt,false,none⟩,⟨256,.ff,false,none⟩,⟨256,.cr,false,none⟩,⟨256,.cr,true,none⟩,⟨256,.other,false,some ⟨16,[.comment],none,false⟩⟩]⟩,⟨[27],none,[],[⟨256,.other,false,none⟩,⟨256,.ws,false,none⟩,⟨256,.lf,false,none⟩,⟨256,.vt,false,none⟩,⟨256,.ff,false,none⟩,⟨256,.cr,false,none⟩,⟨256,.cr,true,none⟩,⟨256,.other,false,some ⟨17,[],none,false⟩⟩]⟩,⟨[4],none,[],[⟨256,.other,false,some ⟨18,[.comment],none,false⟩⟩,⟨256,.ws,false,some ⟨19,[],none,false⟩⟩,⟨256,.lf,false,some ⟨20,[],none,false⟩⟩,⟨256,.vt,false,some ⟨18,[.comment],none,false⟩⟩,⟨256,.ff,false,some ⟨21,[],none,false⟩⟩,⟨256,.cr,false,some ⟨22,[],none,false⟩⟩,⟨256,.cr,true,some ⟨23,[],none,false⟩⟩,⟨256,.other,false,some ⟨24,[.comment],none,false⟩⟩]⟩,⟨[28],none,[],[⟨256,.other,false,none⟩,⟨256,.ws,false,none⟩,⟨256,.lf,false,none⟩,⟨256,.vt,false,none⟩,⟨256,.ff,false,none⟩,⟨256,.cr,false,none⟩,⟨256,.cr,true,none⟩,⟨256,.other,false,some ⟨25,[],none,false⟩⟩]⟩,⟨[11],none,[],[⟨256,.other,false,some ⟨18,[.comment],none,false⟩⟩,⟨256,.ws,false,some ⟨19,[],none,false⟩⟩,⟨256,.lf,false,some ⟨20,[],none,false⟩⟩,⟨256,.vt,false,some ⟨18,[.comment],none,false⟩⟩,⟨256,.ff,false,some ⟨21,[],none,false⟩⟩,⟨256,.cr,false,some ⟨22,[],none,false⟩⟩,⟨256,.cr,true,some ⟨23,[],none,false⟩⟩,⟨256,.other,false,some ⟨24,[.comment],none,false⟩⟩]⟩,⟨[10],none,[],[⟨256,.other,false,some ⟨18,[.comment],none,false⟩⟩,⟨256,.ws,false,some ⟨19,[],none,false⟩⟩,⟨256,.lf,false,some ⟨20,[],none,false⟩⟩,⟨256,.vt,false,some ⟨18,[.comment],none,false⟩⟩,⟨256,.ff,false,some ⟨21,[],none,false⟩⟩,⟨256,.cr,false,some ⟨22,[],none,false⟩⟩,⟨256,.cr,true,some ⟨23,[],none,false⟩⟩,⟨256,.other,false,some ⟨24,[.comment],none,false⟩⟩]⟩,⟨[7],none,[],[⟨256,.other,false,some ⟨18,[.setEnt .internalNl,.cb,.comment],none,false⟩⟩,⟨256,.ws,false,some ⟨19,[.setEnt .internalNl,.cb],none,false⟩⟩,⟨256,.lf,false,some ⟨20,[.setEnt .internalNl,.cb],none,false⟩⟩,⟨256,.vt,false,some ⟨18,[.setEnt .internalNl,.cb,.comment],none,false⟩⟩,⟨256,.ff,false,some ⟨21,[.setEnt .internalNl,.cb],none,false⟩⟩,⟨256,.cr,false,some ⟨22,[.setEnt .internalNl,.cb],none,false⟩⟩,⟨256,.cr,true,some ⟨23,[.setEnt .internalNl,.cb],none,false⟩⟩,⟨256,.other,false,some ⟨24,[.setEnt .internalNl,.cb,.comment],none,false⟩⟩]⟩,⟨[8],none,[],[⟨256,.other,false,some ⟨18,[.setEnt .internalNl,.cb,.comment],none,false⟩⟩,⟨256,.ws,false,some ⟨19,[.setEnt .internalNl,.cb],none,false⟩⟩,⟨256,.lf,false,some ⟨20,[.setEnt .internalNl,.cb],none,false⟩⟩,⟨256,.vt,false,some ⟨18,[.setEnt .internalNl,.cb,.comment],none,false⟩⟩,⟨256,.ff,false,some ⟨21,[.setEnt .internalNl,.cb],none,false⟩⟩,⟨256,.cr,false,some ⟨22,[.setEnt .internalNl,.cb],none,false⟩⟩,⟨256,.cr,true,some ⟨23,[.setEnt .internalNl,.cb],none,false⟩⟩,⟨256,.other,false,some ⟨24,[.setEnt .internalNl,.cb,.comment],none,false⟩⟩]⟩,⟨[5],none,[],[⟨256,.other,false,none⟩,⟨256,.ws,false,none⟩,⟨256,.lf,false,some ⟨26,[],none,false⟩⟩,⟨256,.vt,false,none⟩,⟨256,.ff,false,none⟩,⟨256,.cr,false,none⟩,⟨256,.cr,true,none⟩]⟩,⟨[5,9],none,[],[⟨256,.other,false,some ⟨18,[.setEnt .internalNl,.cb,.comment],none,false⟩⟩,⟨256,.ws,false,some ⟨19,[.setEnt .internalNl,.cb],none,false⟩⟩,⟨256,.lf,false,some ⟨27,[.setEnt .internalNl,.cb],none,false⟩⟩,⟨256,.vt,false,some ⟨18,[.setEnt .internalNl,.cb,.comment],none,false⟩⟩,⟨256,.ff,false,some ⟨21,[.setEnt .internalNl,.cb],none,false⟩⟩,⟨256,.cr,false,some ⟨22,[.setEnt .internalNl,.cb],none,false⟩⟩,⟨256,.cr,true,some ⟨23,[.setEnt .internalNl,.cb],none,false⟩⟩,⟨256,.other,false,some ⟨24,[.setEnt .internalNl,.cb,.comment],none,false⟩⟩]⟩,⟨[11,12],none,[],[⟨256,.other,false,some ⟨18,[.comment],none,false⟩⟩,⟨256,.ws,false,some ⟨19,[],none,false⟩⟩,⟨256,.lf,false,some ⟨20,[],none,false⟩⟩,⟨256,.vt,false,some ⟨18,[.comment],none,false⟩⟩,⟨256,.ff,false,some ⟨21,[],none,false⟩⟩,⟨256,.cr,false,some ⟨22,[],none,false⟩⟩,⟨256,.cr,true,some ⟨23,[],none,false⟩⟩,⟨256,.other,false,some ⟨28,[.comment],none,false⟩⟩]⟩,⟨[29],none,[],[⟨256,.other,false,none⟩,⟨256,.ws,false,none⟩,⟨256,.lf,false,none⟩,⟨256,.vt,false,none⟩,⟨256,.ff,false,none⟩,⟨256,.cr,false,none⟩,⟨256,.cr,true,none⟩,⟨256,.other,false,some ⟨29,[],none,false⟩⟩]⟩,⟨[6],none,[],[⟨256,.other,false,some ⟨18,[.setEnt .internalNl,.cb,.comment],none,false⟩⟩,⟨256,.ws,false,some ⟨19,[.setEnt .internalNl,.cb],none,false⟩⟩,⟨256,.lf,false,some ⟨20,[.setEnt .internalNl,.cb],none,false⟩⟩,⟨256,.vt,false,some ⟨18,[.setEnt .internalNl,.cb,.comment],none,false⟩⟩,⟨256,.ff,false,some ⟨21,[.setEnt .internalNl,.cb],none,false⟩⟩,⟨256,.cr,false,some ⟨22,[.setEnt .internalNl,.cb],none,false⟩⟩,⟨256,.cr,true,some ⟨23,[.setEnt .internalNl,.cb],none,false⟩⟩,⟨256,.other,false,some ⟨24,[.setEnt .internalNl,.cb,.comment],none,false⟩⟩]⟩,⟨[6,7],none,[],[⟨256,.other,false,some ⟨18,[.setEnt .internalNl,.cb,.comment],none,false⟩⟩,⟨256,.ws,false,some ⟨19,[.setEnt .internalNl,.cb],none,false⟩⟩,⟨256,.lf,false,some ⟨20,[.setEnt .internalNl,.cb],none,false⟩⟩,⟨256,.vt,false,some ⟨18,[.setEnt .internalNl,.cb,.comment],none,false⟩⟩,⟨256,.ff,false,some ⟨21,[.setEnt .internalNl,.cb],none,false⟩⟩,⟨256,.cr,false,some ⟨22,[.setEnt .internalNl,.cb],none,false⟩⟩,⟨256,.cr,true,some ⟨23,[.setEnt .internalNl,.cb],none,false⟩⟩,⟨256,.other,false,some ⟨24,[.setEnt .internalNl,.cb,.comment],none,false⟩⟩]⟩,⟨[11,12,13],none,[],[⟨256,.other,false,some ⟨18,[.comment],none,false⟩⟩,⟨256,.ws,false,some ⟨19,[],none,false⟩⟩,⟨256,.lf,false,some ⟨20,[],none,false⟩⟩,⟨256,.vt,false,some ⟨18,[.comment],none,false⟩⟩,⟨256,.ff,false,some ⟨21,[],none,false⟩⟩,⟨256,.cr,false,some ⟨22,[],none,false⟩⟩,⟨256,.cr,true,some ⟨23,[],none,false⟩⟩,⟨256,.other,false,some ⟨28,[.comment],none,false⟩⟩,⟨256,.other,false,some ⟨0,[],some 1,true⟩⟩]⟩,⟨[30],none,[],[⟨256,.other,false,none⟩,⟨256,.ws,false,none⟩,⟨256,.lf,false,none⟩,⟨256,.vt,false,none⟩,⟨256,.ff,false,none⟩,⟨256,.cr,false,none⟩,⟨256,.cr,true,none⟩,⟨256,.other,false,some ⟨30,[],none,false⟩⟩]⟩,⟨[31],none,[],[⟨256,.other,false,none⟩,⟨256,.ws,false,none⟩,⟨256,.lf,false,none⟩,⟨256,.vt,false,none⟩,⟨256,.ff,false,none⟩,⟨256,.cr,false,none⟩,⟨256,.cr,true,none⟩,⟨256,.other,false,some ⟨31,[],none,false⟩⟩]⟩,⟨[32],none,[],[⟨256,.other,false,none⟩,⟨256,.ws,false,none⟩,⟨256,.lf,false,none⟩,⟨256,.vt,false,none⟩,⟨256,.ff,false,none⟩,⟨256,.cr,false,none⟩,⟨256,.cr,true,none⟩,⟨256,.other,false,some ⟨32,[.code],none,false⟩⟩]⟩,⟨[33],none,[],[⟨256,.other,false,some ⟨33,[.code],none,false⟩⟩,⟨256,.ws,false,some ⟨34,[],none,false⟩⟩,⟨256,.lf,false,some ⟨35,[],none,false⟩⟩,⟨256,.vt,false,some ⟨33,[.code],none,false⟩⟩,⟨256,.ff,false,some ⟨36,[],none,false⟩⟩,⟨256,.cr,false,some ⟨37,[],none,false⟩⟩,⟨256,.cr,true,some ⟨38,[],none,false⟩⟩,⟨256,.other,false,some ⟨39,[.code],none,false⟩⟩]⟩,⟨[40],none,[],[⟨256,.other,false,some ⟨33,[.code],none,false⟩⟩,⟨256,.ws,false,some ⟨34,[],none,false⟩⟩,⟨256,.lf,false,some ⟨35,[],none,false⟩⟩,⟨256,.vt,false,some ⟨33,[.code],none,false⟩⟩,⟨256,.ff,false,some ⟨36,[],none,false⟩⟩,⟨256,.cr,false,some ⟨37,[],none,false⟩⟩,⟨256,.cr,true,some ⟨38,[],none,false⟩⟩,⟨256,.other,false,some ⟨39,[.code],none,false⟩⟩]⟩,⟨[39],none,[],[⟨256,.other,false,some ⟨33,[.code],none,false⟩⟩,⟨256,.ws,false,some ⟨34,[],none,false⟩⟩,⟨256,.lf,false,some ⟨35,[],none,false⟩⟩,⟨256,.vt,false,some ⟨33,[.code],none,false⟩⟩,⟨256,.ff,false,some ⟨36,[],none,false⟩⟩,⟨256,.cr,false,some ⟨37,[],none,false⟩⟩,⟨256,.cr,true,some ⟨38,[],none,false⟩⟩,⟨256,.other,false,some ⟨39,[.code],none,false⟩⟩]⟩,⟨[36],none,[],[⟨256,.other,false,some ⟨33,[.setEnt .internalNl,.cb,.code],none,false⟩⟩,⟨256,.ws,false,some ⟨34,[.setEnt .internalNl,.cb],none,false⟩⟩,⟨256,.lf,false,some ⟨35,[.setEnt .internalNl,.cb],none,false⟩⟩,⟨256,.vt,false,some ⟨33,[.setEnt .internalNl,.cb,.code],none,false⟩⟩,⟨256,.ff,false,some ⟨36,[.setEnt .internalNl,.cb],none,false⟩⟩,⟨256,.cr,false,some ⟨37,[.setEnt .internalNl,.cb],none,false⟩⟩,⟨256,.cr,true,some ⟨38,[.setEnt .internalNl,.cb],none,false⟩⟩,⟨256,.other,false,some ⟨39,[.setEnt .internalNl,.cb,.code],none,false⟩⟩]⟩,⟨[37],none,[],[⟨256,.other,false,some ⟨33,[.setEnt .internalNl,.cb,.code],none,false⟩⟩,⟨256,.ws,false,some ⟨34,[.setEnt .internalNl,.cb],none,false⟩⟩,⟨256,.lf,false,some ⟨35,[.setEnt .internalNl,.cb],none,false⟩⟩,⟨256,.vt,false,some ⟨33,[.setEnt .internalNl,.cb,.code],none,false⟩⟩,⟨256,.ff,false,some ⟨36,[.setEnt .internalNl,.cb],none,false⟩⟩,⟨256,.cr,false,some ⟨37,[.setEnt .internalNl,.cb],none,false⟩⟩,⟨256,.cr,true,some ⟨38,[.setEnt .internalNl,.cb],none,false⟩⟩,⟨256,.other,false,some ⟨39,[.setEnt .internalNl,.cb,.code],none,false⟩⟩]⟩,⟨[34],none,[],[⟨256,.other,false,none⟩,⟨256,.ws,false,none⟩,⟨256,.lf,false,some ⟨40,[],none,false⟩⟩,⟨256,.vt,false,none⟩,⟨256,.ff,false,none⟩,⟨256,.cr,false,none⟩,⟨256,.cr,true,none⟩]⟩,⟨[34,38],none,[],[⟨256,.other,false,some ⟨33,[.setEnt .internalNl,.cb,.code],none,false⟩⟩,⟨256,.ws,false,some ⟨34,[.setEnt .internalNl,.cb],none,false⟩⟩,⟨256,.lf,false,some ⟨41,[.setEnt .internalNl,.cb],none,false⟩⟩,⟨256,.vt,false,some ⟨33,[.setEnt .internalNl,.cb,.code],none,false⟩⟩,⟨256,.ff,false,some ⟨36,[.setEnt .internalNl,.cb],none,false⟩⟩,⟨256,.cr,false,some ⟨37,[.setEnt .internalNl,.cb],none,false⟩⟩,⟨256,.cr,true,some ⟨38,[.setEnt .internalNl,.cb],none,false⟩⟩,⟨256,.other,false,some ⟨39,[.setEnt .internalNl,.cb,.code],none,false⟩⟩]⟩,⟨[40,41],none,[],[⟨256,.other,false,some ⟨33,[.code],none,false⟩⟩,⟨256,.ws,false,some ⟨34,[],none,false⟩⟩,⟨256,.lf,false,some ⟨35,[],none,false⟩⟩,⟨256,.vt,false,some ⟨33,[.code],none,false⟩⟩,⟨256,.ff,false,some ⟨36,[],none,false⟩⟩,⟨256,.cr,false,some ⟨37,[],none,false⟩⟩,⟨256,.cr,true,some ⟨38,[],none,false⟩⟩,⟨256,.other,false,some ⟨42,[.code],none,false⟩⟩]⟩,⟨[35],none,[],[⟨256,.other,false,some ⟨33,[.setEnt .internalNl,.cb,.code],none,false⟩⟩,⟨256,.ws,false,some ⟨34,[.setEnt .internalNl,.cb],none,false⟩⟩,⟨256,.lf,false,some ⟨35,[.setEnt .internalNl,.cb],none,false⟩⟩,⟨256,.vt,false,some ⟨33,[.setEnt .internalNl,.cb,.code],none,false⟩⟩,⟨256,.ff,false,some ⟨36,[.setEnt .internalNl,.cb],none,false⟩⟩,⟨256,.cr,false,some ⟨37,[.setEnt .internalNl,.cb],none,false⟩⟩,⟨256,.cr,true,some ⟨38,[.setEnt .internalNl,.cb],none,false⟩⟩,⟨256,.other,false,some ⟨39,[.setEnt .internalNl,.cb,.code],none,false⟩⟩]⟩,⟨[35,36],none,[],[⟨256,.other,false,some ⟨33,[.setEnt .internalNl,.cb,.code],none,false⟩⟩,⟨256,.ws,false,some ⟨34,[.setEnt .internalNl,.cb],none,false⟩⟩,⟨256,.lf,false,some ⟨35,[.setEnt .internalNl,.cb],none,false⟩⟩,⟨256,.vt,false,some ⟨33,[.setEnt .internalNl,.cb,.code],none,false⟩⟩,⟨256,.ff,false,some ⟨36,[.setEnt .internalNl,.cb],none,false⟩⟩,⟨256,.cr,false,some ⟨37,[.setEnt .internalNl,.cb],none,false⟩⟩,⟨256,.cr,true,some ⟨38,[.setEnt .internalNl,.cb],none,false⟩⟩,⟨256,.other,false,some ⟨39,[.setEnt .internalNl,.cb,.code],none,false⟩⟩]⟩,⟨[40,41,42],none,[],[⟨256,.other,false,some ⟨33,[.code],none,false⟩⟩,⟨256,.ws,false,some ⟨34,[],none,false⟩⟩,⟨256,.lf,false,some ⟨35,[],none,false⟩⟩,⟨256,.vt,false,some ⟨33,[.code],none,false⟩⟩,⟨256,.ff,false,some ⟨36,[],none,false⟩⟩,⟨256,.cr,false,some ⟨37,[],none,false⟩⟩,⟨256,.cr,true,some ⟨38,[],none,false⟩⟩,⟨256,.other,false,some ⟨0,[],some 2,true⟩⟩,⟨256,.other,false,some ⟨42,[.code],none,false⟩⟩]⟩]
theorem xslt_line_rowsOk : rowsOk xslt_line_nfa [] (xslt_line_cs.map (·.1)) xslt_line_rows = true := by decide +kernel
def xslt_line_D : Dfa xslt_line_M.nfa := ⟨xslt_line_masks, [], xslt_line_cs, xslt_line_rows, xslt_line_masksIn, xslt_line_repOk, xslt_line_rowsOk⟩

end Ohcount.Cert
