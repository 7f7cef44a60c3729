import Verif.Gram.All
import Verif.RagelCheck

/-! Generated by tools/gen_certs.py. -/

namespace Ohcount.Cert
open Ohcount.Ragel Ohcount.Gram

set_option maxRecDepth 100000

def ampl_line_nfa : Nfa := ⟨[⟨0,4294967808,[],[(0,.setEnt (.own 0))],0,0⟩,⟨1,34359738368,[],[(1,.comment)],0,0⟩,⟨3,140737488355328,[],[],0,2⟩,⟨14,8192,[],[(6,.setEnt .newline)],0,0⟩,⟨16,1024,[],[(6,.setEnt .newline)],0,0⟩,⟨17,4096,[],[(6,.setEnt .newline)],0,0⟩,⟨18,8192,[.crAlone],[(6,.setEnt .newline)],0,0⟩,⟨19,115792089237316195423570985008687907853269984665640564039457584007908834656767,[],[(7,.setEnt (.own 2))],0,0⟩],[[⟨0,4294967808,[],[(0,.setEnt (.own 0))],0,0⟩],[⟨2,115792089237316195423570985008687907853269984665640564039457584007913129626623,[],[],0,0⟩],[⟨2,115792089237316195423570985008687907853269984665640564039457584007913129626623,[],[],0,0⟩],[⟨4,4398046511104,[],[(2,.comment)],0,2⟩],[⟨5,8192,[],[],0,2⟩,⟨7,1024,[],[],0,2⟩,⟨8,4096,[],[],0,2⟩,⟨9,8192,[.crAlone],[],0,2⟩,⟨10,4294967808,[],[],0,2⟩,⟨11,115792089237316195423570985008687907853269984665640564039457584007908834658815,[],[(5,.comment)],0,2⟩,⟨12,4398046511104,[],[],0,2⟩],[⟨6,1024,[],[],0,2⟩],[⟨5,8192,[],[(3,.setEnt .internalNl),(4,.cb)],0,2⟩,⟨7,1024,[],[(3,.setEnt .internalNl),(4,.cb)],0,2⟩,⟨8,4096,[],[(3,.setEnt .internalNl),(4,.cb)],0,2⟩,⟨9,8192,[.crAlone],[(3,.setEnt .internalNl),(4,.cb)],0,2⟩,⟨10,4294967808,[],[(3,.setEnt .internalNl),(4,.cb)],0,2⟩,⟨11,115792089237316195423570985008687907853269984665640564039457584007908834658815,[],[(3,.setEnt .internalNl),(4,.cb),(5,.comment)],0,2⟩,⟨12,4398046511104,[],[(3,.setEnt .internalNl),(4,.cb)],0,2⟩],[⟨5,8192,[],[(3,.setEnt .internalNl),(4,.cb)],0,2⟩,⟨7,1024,[],[(3,.setEnt .internalNl),(4,.cb)],0,2⟩,⟨8,4096,[],[(3,.setEnt .internalNl),(4,.cb)],0,2⟩,⟨9,8192,[.crAlone],[(3,.setEnt .internalNl),(4,.cb)],0,2⟩,⟨10,4294967808,[],[(3,.setEnt .internalNl),(4,.cb)],0,2⟩,⟨11,115792089237316195423570985008687907853269984665640564039457584007908834658815,[],[(3,.setEnt .internalNl),(4,.cb),(5,.comment)],0,2⟩,⟨12,4398046511104,[],[(3,.setEnt .internalNl),(4,.cb)],0,2⟩],[⟨5,8192,[],[(3,.setEnt .internalNl),(4,.cb)],0,2⟩,⟨7,1024,[],[(3,.setEnt .internalNl),(4,.cb)],0,2⟩,⟨8,4096,[],[(3,.setEnt .internalNl),(4,.cb)],0,2⟩,⟨9,8192,[.crAlone],[(3,.setEnt .internalNl),(4,.cb)],0,2⟩,⟨10,4294967808,[],[(3,.setEnt .internalNl),(4,.cb)],0,2⟩,⟨11,115792089237316195423570985008687907853269984665640564039457584007908834658815,[],[(3,.setEnt .internalNl),(4,.cb),(5,.comment)],0,2⟩,⟨12,4398046511104,[],[(3,.setEnt .internalNl),(4,.cb)],0,2⟩],[⟨5,8192,[],[(3,.setEnt .internalNl),(4,.cb)],0,2⟩,⟨7,1024,[],[(3,.setEnt .internalNl),(4,.cb)],0,2⟩,⟨8,4096,[],[(3,.setEnt .internalNl),(4,.cb)],0,2⟩,⟨9,8192,[.crAlone],[(3,.setEnt .internalNl),(4,.cb)],0,2⟩,⟨10,4294967808,[],[(3,.setEnt .internalNl),(4,.cb)],0,2⟩,⟨11,115792089237316195423570985008687907853269984665640564039457584007908834658815,[],[(3,.setEnt .internalNl),(4,.cb),(5,.comment)],0,2⟩,⟨12,4398046511104,[],[(3,.setEnt .internalNl),(4,.cb)],0,2⟩],[⟨5,8192,[],[],0,2⟩,⟨7,1024,[],[],0,2⟩,⟨8,4096,[],[],0,2⟩,⟨9,8192,[.crAlone],[],0,2⟩,⟨10,4294967808,[],[],0,2⟩,⟨11,115792089237316195423570985008687907853269984665640564039457584007908834658815,[],[(5,.comment)],0,2⟩,⟨12,4398046511104,[],[],0,2⟩],[⟨5,8192,[],[],0,2⟩,⟨7,1024,[],[],0,2⟩,⟨8,4096,[],[],0,2⟩,⟨9,8192,[.crAlone],[],0,2⟩,⟨10,4294967808,[],[],0,2⟩,⟨11,115792089237316195423570985008687907853269984665640564039457584007908834658815,[],[(5,.comment)],0,2⟩,⟨12,4398046511104,[],[],0,2⟩],[⟨13,140737488355328,[],[],2,0⟩],[],[⟨15,1024,[],[(6,.setEnt .newline)],0,0⟩],[],[],[],[],[]],[some (0,[]),some (1,[]),some (1,[]),none,none,none,none,none,none,none,none,none,none,some (1,[]),none,some (2,[]),some (2,[]),some (2,[]),some (2,[]),some (3,[])],[1,6,7,8]⟩
theorem ampl_line_nfa_eq : Ampl.ampl_line.nfa = ampl_line_nfa := by decide +kernel
/-- The machine of `Ampl.ampl_line`, with its automaton as a literal. -/
def ampl_line_M : Machine := ⟨ampl_line_nfa, Ampl.ampl_line.ends, Ampl.ampl_line.sw⟩
theorem ampl_line_M_eq : Ampl.ampl_line.machine = ampl_line_M := by
  unfold Scanner.machine ampl_line_M; rw [ampl_line_nfa_eq]
def ampl_line_masks : List Nat := [4294967808,34359738368,140737488355328,8192,1024,4096,115792089237316195423570985008687907853269984665640564039457584007908834656767,115792089237316195423570985008687907853269984665640564039457584007913129626623,4398046511104,115792089237316195423570985008687907853269984665640564039457584007908834658815]
def ampl_line_cs : List (Nat × Nat) := [(0,115792089237316195423570985008687907853269984665640564039457583862738940051967),(9,4294967808),(10,1024),(11,2048),(12,4096),(13,8192),(35,34359738368),(42,4398046511104),(47,140737488355328)]
theorem ampl_line_masksIn : masksIn ampl_line_nfa ampl_line_masks = true := by decide +kernel
theorem ampl_line_repOk : repOk ampl_line_masks ampl_line_cs = true := by decide +kernel
def ampl_line_rows : List Row := [⟨[],none,[],[⟨256,.other,false,some ⟨0,[.setEnt (.own 2)],some 3,true⟩⟩,⟨256,.ws,false,some ⟨1,[.setEnt (.own 0)],some 0,false⟩⟩,⟨256,.lf,false,some ⟨0,[.setEnt .newline],some 2,true⟩⟩,⟨256,.vt,false,none⟩,⟨256,.ff,false,some ⟨0,[.setEnt .newline],some 2,true⟩⟩,⟨256,.cr,false,some ⟨2,[.setEnt .newline],none,false⟩⟩,⟨256,.cr,true,some ⟨3,[.setEnt .newline],some 2,false⟩⟩,⟨256,.other,false,some ⟨4,[.comment,.setEnt (.own 2)],some 1,false⟩⟩,⟨256,.other,false,some ⟨5,[.setEnt (.own 2)],some 3,false⟩⟩]⟩,⟨[0],some 0,[],[⟨256,.other,false,none⟩,⟨256,.ws,false,some ⟨1,[.setEnt (.own 0)],some 0,false⟩⟩,⟨256,.lf,false,none⟩,⟨256,.vt,false,none⟩,⟨256,.ff,false,none⟩,⟨256,.cr,false,none⟩,⟨256,.cr,true,none⟩]⟩,⟨[14],none,[],[⟨256,.other,false,none⟩,⟨256,.ws,false,none⟩,⟨256,.lf,false,some ⟨0,[.setEnt .newline],some 2,true⟩⟩,⟨256,.vt,false,none⟩,⟨256,.ff,false,none⟩,⟨256,.cr,false,none⟩,⟨256,.cr,true,none⟩]⟩,⟨[14,18],some 2,[],[⟨256,.other,false,none⟩,⟨256,.ws,false,none⟩,⟨256,.lf,false,some ⟨0,[.setEnt .newline],some 2,true⟩⟩,⟨256,.vt,false,none⟩,⟨256,.ff,false,none⟩,⟨256,.cr,false,none⟩,⟨256,.cr,true,none⟩]⟩,⟨[1,19],some 1,[],[⟨256,.other,false,some ⟨6,[],some 1,false⟩⟩,⟨256,.ws,false,some ⟨6,[],some 1,false⟩⟩,⟨256,.lf,false,none⟩,⟨256,.vt,false,some ⟨6,[],some 1,false⟩⟩,⟨256,.ff,false,none⟩,⟨256,.cr,false,none⟩,⟨256,.cr,true,none⟩]⟩,⟨[3,19],some 3,[],[⟨256,.other,false,none⟩,⟨256,.ws,false,none⟩,⟨256,.lf,false,none⟩,⟨256,.vt,false,none⟩,⟨256,.ff,false,none⟩,⟨256,.cr,false,none⟩,⟨256,.cr,true,none⟩,⟨256,.other,false,some ⟨7,[.comment],none,false⟩⟩]⟩,⟨[2],some 1,[],[⟨256,.other,false,some ⟨6,[],some 1,false⟩⟩,⟨256,.ws,false,some ⟨6,[],some 1,false⟩⟩,⟨256,.lf,false,none⟩,⟨256,.vt,false,some ⟨6,[],some 1,false⟩⟩,⟨256,.ff,false,none⟩,⟨256,.cr,false,none⟩,⟨256,.cr,true,none⟩]⟩,⟨[4],none,[],[⟨256,.other,false,some ⟨8,[.comment],none,false⟩⟩,⟨256,.ws,false,some ⟨9,[],none,false⟩⟩,⟨256,.lf,false,some ⟨10,[],none,false⟩⟩,⟨256,.vt,false,some ⟨8,[.comment],none,false⟩⟩,⟨256,.ff,false,some ⟨11,[],none,false⟩⟩,⟨256,.cr,false,some ⟨12,[],none,false⟩⟩,⟨256,.cr,true,some ⟨13,[],none,false⟩⟩,⟨256,.other,false,some ⟨14,[.comment],none,false⟩⟩]⟩,⟨[11],none,[],[⟨256,.other,false,some ⟨8,[.comment],none,false⟩⟩,⟨256,.ws,false,some ⟨9,[],none,false⟩⟩,⟨256,.lf,false,some ⟨10,[],none,false⟩⟩,⟨256,.vt,false,some ⟨8,[.comment],none,false⟩⟩,⟨256,.ff,false,some ⟨11,[],none,false⟩⟩,⟨256,.cr,false,some ⟨12,[],none,false⟩⟩,⟨256,.cr,true,some ⟨13,[],none,false⟩⟩,⟨256,.other,false,some ⟨14,[.comment],none,false⟩⟩]⟩,⟨[10],none,[],[⟨256,.other,false,some ⟨8,[.comment],none,false⟩⟩,⟨256,.ws,false,some ⟨9,[],none,false⟩⟩,⟨256,.lf,false,some ⟨10,[],none,false⟩⟩,⟨256,.vt,false,some ⟨8,[.comment],none,false⟩⟩,⟨256,.ff,false,some ⟨11,[],none,false⟩⟩,⟨256,.cr,false,some ⟨12,[],none,false⟩⟩,⟨256,.cr,true,some ⟨13,[],none,false⟩⟩,⟨256,.other,false,some ⟨14,[.comment],none,false⟩⟩]⟩,⟨[7],none,[],[⟨256,.other,false,some ⟨8,[.setEnt .internalNl,.cb,.comment],none,false⟩⟩,⟨256,.ws,false,some ⟨9,[.setEnt .internalNl,.cb],none,false⟩⟩,⟨256,.lf,false,some ⟨10,[.setEnt .internalNl,.cb],none,false⟩⟩,⟨256,.vt,false,some ⟨8,[.setEnt .internalNl,.cb,.comment],none,false⟩⟩,⟨256,.ff,false,some ⟨11,[.setEnt .internalNl,.cb],none,false⟩⟩,⟨256,.cr,false,some ⟨12,[.setEnt .internalNl,.cb],none,false⟩⟩,⟨256,.cr,true,some ⟨13,[.setEnt .internalNl,.cb],none,false⟩⟩,⟨256,.other,false,some ⟨14,[.setEnt .internalNl,.cb,.comment],none,false⟩⟩]⟩,⟨[8],none,[],[⟨256,.other,false,some ⟨8,[.setEnt .internalNl,.cb,.comment],none,false⟩⟩,⟨256,.ws,false,some ⟨9,[.setEnt .internalNl,.cb],none,false⟩⟩,⟨256,.lf,false,some ⟨10,[.setEnt .internalNl,.cb],none,false⟩⟩,⟨256,.vt,false,some ⟨8,[.setEnt .internalNl,.cb,.comment],none,false⟩⟩,⟨256,.ff,false,some ⟨11,[.setEnt .internalNl,.cb],none,false⟩⟩,⟨256,.cr,false,some ⟨12,[.setEnt .internalNl,.cb],none,false⟩⟩,⟨256,.cr,true,some ⟨13,[.setEnt .internalNl,.cb],none,false⟩⟩,⟨256,.other,false,some ⟨14,[.setEnt .internalNl,.cb,.comment],none,false⟩⟩]⟩,⟨[5],none,[],[⟨256,.other,false,none⟩,⟨256,.ws,false,none⟩,⟨256,.lf,false,some ⟨15,[],none,false⟩⟩,⟨256,.vt,false,none⟩,⟨256,.ff,false,none⟩,⟨256,.cr,false,none⟩,⟨256,.cr,true,none⟩]⟩,⟨[5,9],none,[],[⟨256,.other,false,some ⟨8,[.setEnt .internalNl,.cb,.comment],none,false⟩⟩,⟨256,.ws,false,some ⟨9,[.setEnt .internalNl,.cb],none,false⟩⟩,⟨256,.lf,false,some ⟨16,[.setEnt .internalNl,.cb],none,false⟩⟩,⟨256,.vt,false,some ⟨8,[.setEnt .internalNl,.cb,.comment],none,false⟩⟩,⟨256,.ff,false,some ⟨11,[.setEnt .internalNl,.cb],none,false⟩⟩,⟨256,.cr,false,some ⟨12,[.setEnt .internalNl,.cb],none,false⟩⟩,⟨256,.cr,true,some ⟨13,[.setEnt .internalNl,.cb],none,false⟩⟩,⟨256,.other,false,some ⟨14,[.setEnt .internalNl,.cb,.comment],none,false⟩⟩]⟩,⟨[11,12],none,[],[⟨256,.other,false,some ⟨8,[.comment],none,false⟩⟩,⟨256,.ws,false,some ⟨9,[],none,false⟩⟩,⟨256,.lf,false,some ⟨10,[],none,false⟩⟩,⟨256,.vt,false,some ⟨8,[.comment],none,false⟩⟩,⟨256,.ff,false,some ⟨11,[],none,false⟩⟩,⟨256,.cr,false,some ⟨12,[],none,false⟩⟩,⟨256,.cr,true,some ⟨13,[],none,false⟩⟩,⟨256,.other,false,some ⟨14,[.comment],none,false⟩⟩,⟨256,.other,false,some ⟨0,[],some 1,true⟩⟩]⟩,⟨[6],none,[],[⟨256,.other,false,some ⟨8,[.setEnt .internalNl,.cb,.comment],none,false⟩⟩,⟨256,.ws,false,some ⟨9,[.setEnt .internalNl,.cb],none,false⟩⟩,⟨256,.lf,false,some ⟨10,[.setEnt .internalNl,.cb],none,false⟩⟩,⟨256,.vt,false,some ⟨8,[.setEnt .internalNl,.cb,.comment],none,false⟩⟩,⟨256,.ff,false,some ⟨11,[.setEnt .internalNl,.cb],none,false⟩⟩,⟨256,.cr,false,some ⟨12,[.setEnt .internalNl,.cb],none,false⟩⟩,⟨256,.cr,true,some ⟨13,[.setEnt .internalNl,.cb],none,false⟩⟩,⟨256,.other,false,some ⟨14,[.setEnt .internalNl,.cb,.comment],none,false⟩⟩]⟩,⟨[6,7],none,[],[⟨256,.other,false,some ⟨8,[.setEnt .internalNl,.cb,.comment],none,false⟩⟩,⟨256,.ws,false,some ⟨9,[.setEnt .internalNl,.cb],none,false⟩⟩,⟨256,.lf,false,some ⟨10,[.setEnt .internalNl,.cb],none,false⟩⟩,⟨256,.vt,false,some ⟨8,[.setEnt .internalNl,.cb,.comment],none,false⟩⟩,⟨256,.ff,false,some ⟨11,[.setEnt .internalNl,.cb],none,false⟩⟩,⟨256,.cr,false,some ⟨12,[.setEnt .internalNl,.cb],none,false⟩⟩,⟨256,.cr,true,some ⟨13,[.setEnt .internalNl,.cb],none,false⟩⟩,⟨256,.other,false,some ⟨14,[.setEnt .internalNl,.cb,.comment],none,false⟩⟩]⟩]
theorem ampl_line_rowsOk : rowsOk ampl_line_nfa [] (ampl_line_cs.map (·.1)) ampl_line_rows = true := by decide +kernel
def ampl_line_D : Dfa ampl_line_M.nfa := ⟨ampl_line_masks, [], ampl_line_cs, ampl_line_rows, ampl_line_masksIn, ampl_line_repOk, ampl_line_rowsOk⟩

def blitzmax_line_nfa : Nfa := ⟨[⟨0,4294967808,[],[(0,.setEnt (.own 0))],0,0⟩,⟨1,549755813888,[],[(1,.comment)],0,0⟩,⟨3,20769187438975013792580502015705088,[],[],0,2⟩,⟨26,17179869184,[],[(6,.code)],0,0⟩,⟨31,8192,[],[(7,.setEnt .newline)],0,0⟩,⟨33,1024,[],[(7,.setEnt .newline)],0,0⟩,⟨34,4096,[],[(7,.setEnt .newline)],0,0⟩,⟨35,8192,[.crAlone],[(7,.setEnt .newline)],0,0⟩,⟨36,115792089237316195423570985008687907853269984665640564039457584007908834656767,[],[(8,.setEnt (.own 3))],0,0⟩],[[⟨0,4294967808,[],[(0,.setEnt (.own 0))],0,0⟩],[⟨2,115792089237316195423570985008687907853269984665640564039457584007913129626623,[],[],0,0⟩],[⟨2,115792089237316195423570985008687907853269984665640564039457584007913129626623,[],[],0,0⟩],[⟨4,2535301201046754613352112062464,[],[],0,2⟩],[⟨5,649037107467969181018140687990784,[],[(2,.comment)],0,2⟩],[⟨6,8192,[],[],0,2⟩,⟨8,1024,[],[],0,2⟩,⟨9,4096,[],[],0,2⟩,⟨10,8192,[.crAlone],[],0,2⟩,⟨11,4294967808,[],[],0,2⟩,⟨12,115792089237316195423570985008687907853269984665640564039457584007908834658815,[],[(5,.comment)],0,2⟩,⟨13,2535301201046754613352112062464,[],[],0,2⟩,⟨20,2535301201046754613352112062464,[],[],0,2⟩],[⟨7,1024,[],[],0,2⟩],[⟨6,8192,[],[(3,.setEnt .internalNl),(4,.cb)],0,2⟩,⟨8,1024,[],[(3,.setEnt .internalNl),(4,.cb)],0,2⟩,⟨9,4096,[],[(3,.setEnt .internalNl),(4,.cb)],0,2⟩,⟨10,8192,[.crAlone],[(3,.setEnt .internalNl),(4,.cb)],0,2⟩,⟨11,4294967808,[],[(3,.setEnt .internalNl),(4,.cb)],0,2⟩,⟨12,115792089237316195423570985008687907853269984665640564039457584007908834658815,[],[(3,.setEnt .internalNl),(4,.cb),(5,.comment)],0,2⟩,⟨13,2535301201046754613352112062464,[],[(3,.setEnt .internalNl),(4,.cb)],0,2⟩,⟨20,2535301201046754613352112062464,[],[(3,.setEnt .internalNl),(4,.cb)],0,2⟩],[⟨6,8192,[],[(3,.setEnt .internalNl),(4,.cb)],0,2⟩,⟨8,1024,[],[(3,.setEnt .internalNl),(4,.cb)],0,2⟩,⟨9,4096,[],[(3,.setEnt .internalNl),(4,.cb)],0,2⟩,⟨10,8192,[.crAlone],[(3,.setEnt .internalNl),(4,.cb)],0,2⟩,⟨11,4294967808,[],[(3,.setEnt .internalNl),(4,.cb)],0,2⟩,⟨12,115792089237316195423570985008687907853269984665640564039457584007908834658815,[],[(3,.setEnt .internalNl),(4,.cb),(5,.comment)],0,2⟩,⟨13,2535301201046754613352112062464,[],[(3,.setEnt .internalNl),(4,.cb)],0,2⟩,⟨20,2535301201046754613352112062464,[],[(3,.setEnt .internalNl),(4,.cb)],0,2⟩],[⟨6,8192,[],[(3,.setEnt .internalNl),(4,.cb)],0,2⟩,⟨8,1024,[],[(3,.setEnt .internalNl),(4,.cb)],0,2⟩,⟨9,4096,[],[(3,.setEnt .internalNl),(4,.cb)],0,2⟩,⟨10,8192,[.crAlone],[(3,.setEnt .internalNl),(4,.cb)],0,2⟩,⟨11,4294967808,[],[(3,.setEnt .internalNl),(4,.cb)],0,2⟩,⟨12,115792089237316195423570985008687907853269984665640564039457584007908834658815,[],[(3,.setEnt .internalNl),(4,.cb),(5,.comment)],0,2⟩,⟨13,2535301201046754613352112062464,[],[(3,.setEnt .internalNl),(4,.cb)],0,2⟩,⟨20,2535301201046754613352112062464,[],[(3,.setEnt .internalNl),(4,.cb)],0,2⟩],[⟨6,8192,[],[(3,.setEnt .internalNl),(4,.cb)],0,2⟩,⟨8,1024,[],[(3,.setEnt .internalNl),(4,.cb)],0,2⟩,⟨9,4096,[],[(3,.setEnt .internalNl),(4,.cb)],0,2⟩,⟨10,8192,[.crAlone],[(3,.setEnt .internalNl),(4,.cb)],0,2⟩,⟨11,4294967808,[],[(3,.setEnt .internalNl),(4,.cb)],0,2⟩,⟨12,115792089237316195423570985008687907853269984665640564039457584007908834658815,[],[(3,.setEnt .internalNl),(4,.cb),(5,.comment)],0,2⟩,⟨13,2535301201046754613352112062464,[],[(3,.setEnt .internalNl),(4,.cb)],0,2⟩,⟨20,2535301201046754613352112062464,[],[(3,.setEnt .internalNl),(4,.cb)],0,2⟩],[⟨6,8192,[],[],0,2⟩,⟨8,1024,[],[],0,2⟩,⟨9,4096,[],[],0,2⟩,⟨10,8192,[.crAlone],[],0,2⟩,⟨11,4294967808,[],[],0,2⟩,⟨12,115792089237316195423570985008687907853269984665640564039457584007908834658815,[],[(5,.comment)],0,2⟩,⟨13,2535301201046754613352112062464,[],[],0,2⟩,⟨20,2535301201046754613352112062464,[],[],0,2⟩],[⟨6,8192,[],[],0,2⟩,⟨8,1024,[],[],0,2⟩,⟨9,4096,[],[],0,2⟩,⟨10,8192,[.crAlone],[],0,2⟩,⟨11,4294967808,[],[],0,2⟩,⟨12,115792089237316195423570985008687907853269984665640564039457584007908834658815,[],[(5,.comment)],0,2⟩,⟨13,2535301201046754613352112062464,[],[],0,2⟩,⟨20,2535301201046754613352112062464,[],[],0,2⟩],[⟨14,1298074214935938362036281375981568,[],[],0,0⟩],[⟨15,1267650600523377306676056031232,[],[],0,0⟩],[⟨16,4294967296,[],[],0,0⟩],[⟨17,20769187438975013792580502015705088,[],[],0,0⟩],[⟨18,2535301201046754613352112062464,[],[],0,0⟩],[⟨19,649037107467969181018140687990784,[],[],2,0⟩],[],[⟨21,1298074214935938362036281375981568,[],[],0,0⟩],[⟨22,1267650600523377306676056031232,[],[],0,0⟩],[⟨23,20769187438975013792580502015705088,[],[],0,0⟩],[⟨24,2535301201046754613352112062464,[],[],0,0⟩],[⟨25,649037107467969181018140687990784,[],[],2,0⟩],[],[⟨27,115792089237316195423570985008687907853269984665635612279300442486796353260543,[],[],0,0⟩,⟨28,4951760157141521099596496896,[],[],0,0⟩,⟨30,17179869184,[],[],0,0⟩],[⟨27,115792089237316195423570985008687907853269984665635612279300442486796353260543,[],[],0,0⟩,⟨28,4951760157141521099596496896,[],[],0,0⟩,⟨30,17179869184,[],[],0,0⟩],[⟨29,115792089237316195423570985008687907853269984665640564039457584007913129626623,[],[],0,0⟩],[⟨27,115792089237316195423570985008687907853269984665635612279300442486796353260543,[],[],0,0⟩,⟨28,4951760157141521099596496896,[],[],0,0⟩,⟨30,17179869184,[],[],0,0⟩],[],[⟨32,1024,[],[(7,.setEnt .newline)],0,0⟩],[],[],[],[],[]],[some (0,[]),some (1,[]),some (1,[]),none,none,none,none,none,none,none,none,none,none,none,none,none,none,none,none,some (1,[]),none,none,none,none,none,some (1,[]),none,none,none,none,some (2,[]),none,some (3,[]),some (3,[]),some (3,[]),some (3,[]),some (4,[])],[1,6,7,8,9]⟩
theorem blitzmax_line_nfa_eq : Blitzmax.blitzmax_line.nfa = blitzmax_line_nfa := by decide +kernel
/-- The machine of `Blitzmax.blitzmax_line`, with its automaton as a literal. -/
def blitzmax_line_M : Machine := ⟨blitzmax_line_nfa, Blitzmax.blitzmax_line.ends, Blitzmax.blitzmax_line.sw⟩
theorem blitzmax_line_M_eq : Blitzmax.blitzmax_line.machine = blitzmax_line_M := by
  unfold Scanner.machine blitzmax_line_M; rw [blitzmax_line_nfa_eq]
def blitzmax_line_masks : List Nat := [4294967808,549755813888,20769187438975013792580502015705088,17179869184,8192,1024,4096,115792089237316195423570985008687907853269984665640564039457584007908834656767,115792089237316195423570985008687907853269984665640564039457584007913129626623,2535301201046754613352112062464,649037107467969181018140687990784,115792089237316195423570985008687907853269984665640564039457584007908834658815,1298074214935938362036281375981568,1267650600523377306676056031232,4294967296,115792089237316195423570985008687907853269984665635612279300442486796353260543,4951760157141521099596496896]
def blitzmax_line_cs : List (Nat × Nat) := [(0,115792089237316195423570985008687907853269961945533899098808974931290054705663),(9,512),(10,1024),(11,2048),(12,4096),(13,8192),(32,4294967296),(34,17179869184),(39,549755813888),(68,1267650600523377306676056031232),(69,2535301201046754613352112062464),(77,649037107467969181018140687990784),(78,1298074214935938362036281375981568),(82,20769187438975013792580502015705088),(92,4951760157141521099596496896)]
theorem blitzmax_line_masksIn : masksIn blitzmax_line_nfa blitzmax_line_masks = true := by decide +kernel
theorem blitzmax_line_repOk : repOk blitzmax_line_masks blitzmax_line_cs = true := by decide +kernel
def blitzmax_line_rows : List Row := [⟨[],none,[],[⟨256,.other,false,some ⟨0,[.setEnt (.own 3)],some 4,true⟩⟩,⟨256,.ws,false,some ⟨1,[.setEnt (.own 0)],some 0,false⟩⟩,⟨256,.lf,false,some ⟨0,[.setEnt .newline],some 3,true⟩⟩,⟨256,.vt,false,none⟩,⟨256,.ff,false,some ⟨0,[.setEnt .newline],some 3,true⟩⟩,⟨256,.cr,false,some ⟨2,[.setEnt .newline],none,false⟩⟩,⟨256,.cr,true,some ⟨3,[.setEnt .newline],some 3,false⟩⟩,⟨256,.other,false,some ⟨4,[.code,.setEnt (.own 3)],some 4,false⟩⟩,⟨256,.other,false,some ⟨5,[.comment,.setEnt (.own 3)],some 1,false⟩⟩,⟨256,.other,false,some ⟨6,[.setEnt (.own 3)],some 4,false⟩⟩]⟩,⟨[0],some 0,[],[⟨256,.other,false,none⟩,⟨256,.ws,false,some ⟨1,[.setEnt (.own 0)],some 0,false⟩⟩,⟨256,.lf,false,none⟩,⟨256,.vt,false,none⟩,⟨256,.ff,false,none⟩,⟨256,.cr,false,none⟩,⟨256,.cr,true,none⟩]⟩,⟨[31],none,[],[⟨256,.other,false,none⟩,⟨256,.ws,false,none⟩,⟨256,.lf,false,some ⟨0,[.setEnt .newline],some 3,true⟩⟩,⟨256,.vt,false,none⟩,⟨256,.ff,false,none⟩,⟨256,.cr,false,none⟩,⟨256,.cr,true,none⟩]⟩,⟨[31,35],some 3,[],[⟨256,.other,false,none⟩,⟨256,.ws,false,none⟩,⟨256,.lf,false,some ⟨0,[.setEnt .newline],some 3,true⟩⟩,⟨256,.vt,false,none⟩,⟨256,.ff,false,none⟩,⟨256,.cr,false,none⟩,⟨256,.cr,true,none⟩]⟩,⟨[26,36],some 4,[],[⟨256,.other,false,some ⟨7,[],none,false⟩⟩,⟨256,.ws,false,some ⟨7,[],none,false⟩⟩,⟨256,.lf,false,none⟩,⟨256,.vt,false,some ⟨7,[],none,false⟩⟩,⟨256,.ff,false,none⟩,⟨256,.cr,false,none⟩,⟨256,.cr,true,none⟩,⟨256,.other,false,some ⟨0,[],some 2,true⟩⟩,⟨256,.other,false,some ⟨8,[],none,false⟩⟩]⟩,⟨[1,36],some 1,[],[⟨256,.other,false,some ⟨9,[],some 1,false⟩⟩,⟨256,.ws,false,some ⟨9,[],some 1,false⟩⟩,⟨256,.lf,false,none⟩,⟨256,.vt,false,some ⟨9,[],some 1,false⟩⟩,⟨256,.ff,false,none⟩,⟨256,.cr,false,none⟩,⟨256,.cr,true,none⟩]⟩,⟨[3,36],some 4,[],[⟨256,.other,false,none⟩,⟨256,.ws,false,none⟩,⟨256,.lf,false,none⟩,⟨256,.vt,false,none⟩,⟨256,.ff,false,none⟩,⟨256,.cr,false,none⟩,⟨256,.cr,true,none⟩,⟨256,.other,false,some ⟨10,[],none,false⟩⟩]⟩,⟨[27],none,[],[⟨256,.other,false,some ⟨7,[],none,false⟩⟩,⟨256,.ws,false,some ⟨7,[],none,false⟩⟩,⟨256,.lf,false,none⟩,⟨256,.vt,false,some ⟨7,[],none,false⟩⟩,⟨256,.ff,false,none⟩,⟨256,.cr,false,none⟩,⟨256,.cr,true,none⟩,⟨256,.other,false,some ⟨0,[],some 2,true⟩⟩,⟨256,.other,false,some ⟨8,[],none,false⟩⟩]⟩,⟨[28],none,[],[⟨256,.other,false,some ⟨11,[],none,false⟩⟩,⟨256,.ws,false,some ⟨11,[],none,false⟩⟩,⟨256,.lf,false,none⟩,⟨256,.vt,false,some ⟨11,[],none,false⟩⟩,⟨256,.ff,false,none⟩,⟨256,.cr,false,none⟩,⟨256,.cr,true,none⟩]⟩,⟨[2],some 1,[],[⟨256,.other,false,some ⟨9,[],some 1,false⟩⟩,⟨256,.ws,false,some ⟨9,[],some 1,false⟩⟩,⟨256,.lf,false,none⟩,⟨256,.vt,false,some ⟨9,[],some 1,false⟩⟩,⟨256,.ff,false,none⟩,⟨256,.cr,false,none⟩,⟨256,.cr,true,none⟩]⟩,⟨[4],none,[],[⟨256,.other,false,none⟩,⟨256,.ws,false,none⟩,⟨256,.lf,false,none⟩,⟨256,.vt,false,none⟩,⟨256,.ff,false,none⟩,⟨256,.cr,false,none⟩,⟨256,.cr,true,none⟩,⟨256,.other,false,some ⟨12,[.comment],none,false⟩⟩]⟩,⟨[29],none,[],[⟨256,.other,false,some ⟨7,[],none,false⟩⟩,⟨256,.ws,false,some ⟨7,[],none,false⟩⟩,⟨256,.lf,false,none⟩,⟨256,.vt,false,some ⟨7,[],none,false⟩⟩,⟨256,.ff,false,none⟩,⟨256,.cr,false,none⟩,⟨256,.cr,true,none⟩,⟨256,.other,false,some ⟨0,[],some 2,true⟩⟩,⟨256,.other,false,some ⟨8,[],none,false⟩⟩]⟩,⟨[5],none,[],[⟨256,.other,false,some ⟨13,[.comment],none,false⟩⟩,⟨256,.ws,false,some ⟨14,[],none,false⟩⟩,⟨256,.lf,false,some ⟨15,[],none,false⟩⟩,⟨256,.vt,false,some ⟨13,[.comment],none,false⟩⟩,⟨256,.ff,false,some ⟨16,[],none,false⟩⟩,⟨256,.cr,false,some ⟨17,[],none,false⟩⟩,⟨256,.cr,true,some ⟨18,[],none,false⟩⟩,⟨256,.other,false,some ⟨19,[.comment],none,false⟩⟩]⟩,⟨[12],none,[],[⟨256,.other,false,some ⟨13,[.comment],none,false⟩⟩,⟨256,.ws,false,some ⟨14,[],none,false⟩⟩,⟨256,.lf,false,some ⟨15,[],none,false⟩⟩,⟨256,.vt,false,some ⟨13,[.comment],none,false⟩⟩,⟨256,.ff,false,some ⟨16,[],none,false⟩⟩,⟨256,.cr,false,some ⟨17,[],none,false⟩⟩,⟨256,.cr,true,some ⟨18,[],none,false⟩⟩,⟨256,.other,false,some ⟨19,[.comment],none,false⟩⟩]⟩,⟨[11],none,[],[⟨256,.other,false,some ⟨13,[.comment],none,false⟩⟩,⟨256,.ws,false,some ⟨14,[],none,false⟩⟩,⟨256,.lf,false,some ⟨15,[],none,false⟩⟩,⟨256,.vt,false,some ⟨13,[.comment],none,false⟩⟩,⟨256,.ff,false,some ⟨16,[],none,false⟩⟩,⟨256,.cr,false,some ⟨17,[],none,false⟩⟩,⟨256,.cr,true,some ⟨18,[],none,false⟩⟩,⟨256,.other,false,some ⟨19,[.comment],none,false⟩⟩]⟩,⟨[8],none,[],[⟨256,.other,false,some ⟨13,[.setEnt .internalNl,.cb,.comment],none,false⟩⟩,⟨256,.ws,false,some ⟨14,[.setEnt .internalNl,.cb],none,false⟩⟩,⟨256,.lf,false,some ⟨15,[.setEnt .internalNl,.cb],none,false⟩⟩,⟨256,.vt,false,some ⟨13,[.setEnt .internalNl,.cb,.comment],none,false⟩⟩,⟨256,.ff,false,some ⟨16,[.setEnt .internalNl,.cb],none,false⟩⟩,⟨256,.cr,false,some ⟨17,[.setEnt .internalNl,.cb],none,false⟩⟩,⟨256,.cr,true,some ⟨18,[.setEnt .internalNl,.cb],none,false⟩⟩,⟨256,.other,false,some ⟨19,[.setEnt .internalNl,.cb,.comment],none,false⟩⟩]⟩,⟨[9],none,[],[⟨256,.other,false,some ⟨13,[.setEnt .internalNl,.cb,.comment],none,false⟩⟩,⟨256,.ws,false,some ⟨14,[.setEnt .internalNl,.cb],none,false⟩⟩,⟨256,.lf,false,some ⟨15,[.setEnt .internalNl,.cb],none,false⟩⟩,⟨256,.vt,false,some ⟨13,[.setEnt .internalNl,.cb,.comment],none,false⟩⟩,⟨256,.ff,false,some ⟨16,[.setEnt .internalNl,.cb],none,false⟩⟩,⟨256,.cr,false,some ⟨17,[.setEnt .internalNl,.cb],none,false⟩⟩,⟨256,.cr,true,some ⟨18,[.setEnt .internalNl,.cb],none,false⟩⟩,⟨256,.other,false,some ⟨19,[.setEnt .internalNl,.cb,.comment],none,false⟩⟩]⟩,⟨[6],none,[],[⟨256,.other,false,none⟩,⟨256,.ws,false,none⟩,⟨256,.lf,false,some ⟨20,[],none,false⟩⟩,⟨256,.vt,false,none⟩,⟨256,.ff,false,none⟩,⟨256,.cr,false,none⟩,⟨256,.cr,true,none⟩]⟩,⟨[6,10],none,[],[⟨256,.other,false,some ⟨13,[.setEnt .internalNl,.cb,.comment],none,false⟩⟩,⟨256,.ws,false,some ⟨14,[.setEnt .internalNl,.cb],none,false⟩⟩,⟨256,.lf,false,some ⟨21,[.setEnt .internalNl,.cb],none,false⟩⟩,⟨256,.vt,false,some ⟨13,[.setEnt .internalNl,.cb,.comment],none,false⟩⟩,⟨256,.ff,false,some ⟨16,[.setEnt .internalNl,.cb],none,false⟩⟩,⟨256,.cr,false,some ⟨17,[.setEnt .internalNl,.cb],none,false⟩⟩,⟨256,.cr,true,some ⟨18,[.setEnt .internalNl,.cb],none,false⟩⟩,⟨256,.other,false,some ⟨19,[.setEnt .internalNl,.cb,.comment],none,false⟩⟩]⟩,⟨[12,13,20],none,[],[⟨256,.other,false,some ⟨13,[.comment],none,false⟩⟩,⟨256,.ws,false,some ⟨14,[],none,false⟩⟩,⟨256,.lf,false,some ⟨15,[],none,false⟩⟩,⟨256,.vt,false,some ⟨13,[.comment],none,false⟩⟩,⟨256,.ff,false,some ⟨16,[],none,false⟩⟩,⟨256,.cr,false,some ⟨17,[],none,false⟩⟩,⟨256,.cr,true,some ⟨18,[],none,false⟩⟩,⟨256,.other,false,some ⟨19,[.comment],none,false⟩⟩,⟨256,.other,false,some ⟨22,[.comment],none,false⟩⟩]⟩,⟨[7],none,[],[⟨256,.other,false,some ⟨13,[.setEnt .internalNl,.cb,.comment],none,false⟩⟩,⟨256,.ws,false,some ⟨14,[.setEnt .internalNl,.cb],none,false⟩⟩,⟨256,.lf,false,some ⟨15,[.setEnt .internalNl,.cb],none,false⟩⟩,⟨256,.vt,false,some ⟨13,[.setEnt .internalNl,.cb,.comment],none,false⟩⟩,⟨256,.ff,false,some ⟨16,[.setEnt .internalNl,.cb],none,false⟩⟩,⟨256,.cr,false,some ⟨17,[.setEnt .internalNl,.cb],none,false⟩⟩,⟨256,.cr,true,some ⟨18,[.setEnt .internalNl,.cb],none,false⟩⟩,⟨256,.other,false,some ⟨19,[.setEnt .internalNl,.cb,.comment],none,false⟩⟩]⟩,⟨[7,8],none,[],[⟨256,.other,false,some ⟨13,[.setEnt .internalNl,.cb,.comment],none,false⟩⟩,⟨256,.ws,false,some ⟨14,[.setEnt .internalNl,.cb],none,false⟩⟩,⟨256,.lf,false,some ⟨15,[.setEnt .internalNl,.cb],none,false⟩⟩,⟨256,.vt,false,some ⟨13,[.setEnt .internalNl,.cb,.comment],none,false⟩⟩,⟨256,.ff,false,some ⟨16,[.setEnt .internalNl,.cb],none,false⟩⟩,⟨256,.cr,false,some ⟨17,[.setEnt .internalNl,.cb],none,false⟩⟩,⟨256,.cr,true,some ⟨18,[.setEnt .internalNl,.cb],none,false⟩⟩,⟨256,.other,false,some ⟨19,[.setEnt .internalNl,.cb,.comment],none,false⟩⟩]⟩,⟨[12,14,21],none,[],[⟨256,.other,false,some ⟨13,[.comment],none,false⟩⟩,⟨256,.ws,false,some ⟨14,[],none,false⟩⟩,⟨256,.lf,false,some ⟨15,[],none,false⟩⟩,⟨256,.vt,false,some ⟨13,[.comment],none,false⟩⟩,⟨256,.ff,false,some ⟨16,[],none,false⟩⟩,⟨256,.cr,false,some ⟨17,[],none,false⟩⟩,⟨256,.cr,true,some ⟨18,[],none,false⟩⟩,⟨256,.other,false,some ⟨23,[.comment],none,false⟩⟩,⟨256,.other,false,some ⟨19,[.comment],none,false⟩⟩]⟩,⟨[12,15,22],none,[],[⟨256,.other,false,some ⟨13,[.comment],none,false⟩⟩,⟨256,.ws,false,some ⟨14,[],none,false⟩⟩,⟨256,.lf,false,some ⟨15,[],none,false⟩⟩,⟨256,.vt,false,some ⟨13,[.comment],none,false⟩⟩,⟨256,.ff,false,some ⟨16,[],none,false⟩⟩,⟨256,.cr,false,some ⟨17,[],none,false⟩⟩,⟨256,.cr,true,some ⟨18,[],none,false⟩⟩,⟨256,.ws,false,some ⟨24,[],none,false⟩⟩,⟨256,.other,false,some ⟨19,[.comment],none,false⟩⟩,⟨256,.other,false,some ⟨25,[.comment],none,false⟩⟩]⟩,⟨[11,16],none,[],[⟨256,.other,false,some ⟨13,[.comment],none,false⟩⟩,⟨256,.ws,false,some ⟨14,[],none,false⟩⟩,⟨256,.lf,false,some ⟨15,[],none,false⟩⟩,⟨256,.vt,false,some ⟨13,[.comment],none,false⟩⟩,⟨256,.ff,false,some ⟨16,[],none,false⟩⟩,⟨256,.cr,false,some ⟨17,[],none,false⟩⟩,⟨256,.cr,true,some ⟨18,[],none,false⟩⟩,⟨256,.other,false,some ⟨19,[.comment],none,false⟩⟩,⟨256,.other,false,some ⟨26,[.comment],none,false⟩⟩]⟩,⟨[12,23],none,[],[⟨256,.other,false,some ⟨13,[.comment],none,false⟩⟩,⟨256,.ws,false,some ⟨14,[],none,false⟩⟩,⟨256,.lf,false,some ⟨15,[],none,false⟩⟩,⟨256,.vt,false,some ⟨13,[.comment],none,false⟩⟩,⟨256,.ff,false,some ⟨16,[],none,false⟩⟩,⟨256,.cr,false,some ⟨17,[],none,false⟩⟩,⟨256,.cr,true,some ⟨18,[],none,false⟩⟩,⟨256,.other,false,some ⟨27,[.comment],none,false⟩⟩]⟩,⟨[12,17],none,[],[⟨256,.other,false,some ⟨13,[.comment],none,false⟩⟩,⟨256,.ws,false,some ⟨14,[],none,false⟩⟩,⟨256,.lf,false,some ⟨15,[],none,false⟩⟩,⟨256,.vt,false,some ⟨13,[.comment],none,false⟩⟩,⟨256,.ff,false,some ⟨16,[],none,false⟩⟩,⟨256,.cr,false,some ⟨17,[],none,false⟩⟩,⟨256,.cr,true,some ⟨18,[],none,false⟩⟩,⟨256,.other,false,some ⟨28,[.comment],none,false⟩⟩]⟩,⟨[12,13,20,24],none,[],[⟨256,.other,false,some ⟨13,[.comment],none,false⟩⟩,⟨256,.ws,false,some ⟨14,[],none,false⟩⟩,⟨256,.lf,false,some ⟨15,[],none,false⟩⟩,⟨256,.vt,false,some ⟨13,[.comment],none,false⟩⟩,⟨256,.ff,false,some ⟨16,[],none,false⟩⟩,⟨256,.cr,false,some ⟨17,[],none,false⟩⟩,⟨256,.cr,true,some ⟨18,[],none,false⟩⟩,⟨256,.other,false,some ⟨19,[.comment],none,false⟩⟩,⟨256,.other,false,some ⟨0,[],some 1,true⟩⟩,⟨256,.other,false,some ⟨22,[.comment],none,false⟩⟩]⟩,⟨[12,13,18,20],none,[],[⟨256,.other,false,some ⟨13,[.comment],none,false⟩⟩,⟨256,.ws,false,some ⟨14,[],none,false⟩⟩,⟨256,.lf,false,some ⟨15,[],none,false⟩⟩,⟨256,.vt,false,some ⟨13,[.comment],none,false⟩⟩,⟨256,.ff,false,some ⟨16,[],none,false⟩⟩,⟨256,.cr,false,some ⟨17,[],none,false⟩⟩,⟨256,.cr,true,some ⟨18,[],none,false⟩⟩,⟨256,.other,false,some ⟨19,[.comment],none,false⟩⟩,⟨256,.other,false,some ⟨0,[],some 1,true⟩⟩,⟨256,.other,false,some ⟨22,[.comment],none,false⟩⟩]⟩]
theorem blitzmax_line_rowsOk : rowsOk blitzmax_line_nfa [] (blitzmax_line_cs.map (·.1)) blitzmax_line_rows = true := by decide +kernel
def blitzmax_line_D : Dfa blitzmax_line_M.nfa := ⟨blitzmax_line_masks, [], blitzmax_line_cs, blitzmax_line_rows, blitzmax_line_masksIn, blitzmax_line_repOk, blitzmax_line_rowsOk⟩

def coq_line_nfa : Nfa := ⟨[⟨0,4294967808,[],[(0,.setEnt (.own 0))],0,0⟩,⟨1,1099511627776,[],[(1,.nestRes)],0,2⟩,⟨16,17179869184,[],[(11,.code)],0,0⟩,⟨25,8192,[],[(15,.setEnt .newline)],0,0⟩,⟨27,1024,[],[(15,.setEnt .newline)],0,0⟩,⟨28,4096,[],[(15,.setEnt .newline)],0,0⟩,⟨29,8192,[.crAlone],[(15,.setEnt .newline)],0,0⟩,⟨30,115792089237316195423570985008687907853269984665640564039457584007908834656767,[],[(16,.setEnt (.own 3))],0,0⟩],[[⟨0,4294967808,[],[(0,.setEnt (.own 0))],0,0⟩],[⟨2,4398046511104,[],[(2,.comment)],0,2⟩],[⟨3,8192,[],[],0,2⟩,⟨5,1024,[],[],0,2⟩,⟨6,4096,[],[],0,2⟩,⟨7,8192,[.crAlone],[],0,2⟩,⟨8,4294967808,[],[],0,2⟩,⟨9,1099511627776,[],[],0,2⟩,⟨11,4398046511104,[],[],0,2⟩,⟨13,115792089237316195423570985008687907853269984665640564039457584007908834658815,[],[(9,.comment)],0,2⟩,⟨14,4398046511104,[.nestZero],[],0,2⟩],[⟨4,1024,[],[],0,2⟩],[⟨3,8192,[],[(3,.setEnt .internalNl),(4,.cb)],0,2⟩,⟨5,1024,[],[(3,.setEnt .internalNl),(4,.cb)],0,2⟩,⟨6,4096,[],[(3,.setEnt .internalNl),(4,.cb)],0,2⟩,⟨7,8192,[.crAlone],[(3,.setEnt .internalNl),(4,.cb)],0,2⟩,⟨8,4294967808,[],[(3,.setEnt .internalNl),(4,.cb)],0,2⟩,⟨9,1099511627776,[],[(3,.setEnt .internalNl),(4,.cb)],0,2⟩,⟨11,4398046511104,[],[(3,.setEnt .internalNl),(4,.cb)],0,2⟩,⟨13,115792089237316195423570985008687907853269984665640564039457584007908834658815,[],[(3,.setEnt .internalNl),(4,.cb),(9,.comment)],0,2⟩,⟨14,4398046511104,[.nestZero],[(3,.setEnt .internalNl),(4,.cb)],0,2⟩],[⟨3,8192,[],[(3,.setEnt .internalNl),(4,.cb)],0,2⟩,⟨5,1024,[],[(3,.setEnt .internalNl),(4,.cb)],0,2⟩,⟨6,4096,[],[(3,.setEnt .internalNl),(4,.cb)],0,2⟩,⟨7,8192,[.crAlone],[(3,.setEnt .internalNl),(4,.cb)],0,2⟩,⟨8,4294967808,[],[(3,.setEnt .internalNl),(4,.cb)],0,2⟩,⟨9,1099511627776,[],[(3,.setEnt .internalNl),(4,.cb)],0,2⟩,⟨11,4398046511104,[],[(3,.setEnt .internalNl),(4,.cb)],0,2⟩,⟨13,115792089237316195423570985008687907853269984665640564039457584007908834658815,[],[(3,.setEnt .internalNl),(4,.cb),(9,.comment)],0,2⟩,⟨14,4398046511104,[.nestZero],[(3,.setEnt .internalNl),(4,.cb)],0,2⟩],[⟨3,8192,[],[(3,.setEnt .internalNl),(4,.cb)],0,2⟩,⟨5,1024,[],[(3,.setEnt .internalNl),(4,.cb)],0,2⟩,⟨6,4096,[],[(3,.setEnt .internalNl),(4,.cb)],0,2⟩,⟨7,8192,[.crAlone],[(3,.setEnt .internalNl),(4,.cb)],0,2⟩,⟨8,4294967808,[],[(3,.setEnt .internalNl),(4,.cb)],0,2⟩,⟨9,1099511627776,[],[(3,.setEnt .internalNl),(4,.cb)],0,2⟩,⟨11,4398046511104,[],[(3,.setEnt .internalNl),(4,.cb)],0,2⟩,⟨13,115792089237316195423570985008687907853269984665640564039457584007908834658815,[],[(3,.setEnt .internalNl),(4,.cb),(9,.comment)],0,2⟩,⟨14,4398046511104,[.nestZero],[(3,.setEnt .internalNl),(4,.cb)],0,2⟩],[⟨3,8192,[],[(3,.setEnt .internalNl),(4,.cb)],0,2⟩,⟨5,1024,[],[(3,.setEnt .internalNl),(4,.cb)],0,2⟩,⟨6,4096,[],[(3,.setEnt .internalNl),(4,.cb)],0,2⟩,⟨7,8192,[.crAlone],[(3,.setEnt .internalNl),(4,.cb)],0,2⟩,⟨8,4294967808,[],[(3,.setEnt .internalNl),(4,.cb)],0,2⟩,⟨9,1099511627776,[],[(3,.setEnt .internalNl),(4,.cb)],0,2⟩,⟨11,4398046511104,[],[(3,.setEnt .internalNl),(4,.cb)],0,2⟩,⟨13,115792089237316195423570985008687907853269984665640564039457584007908834658815,[],[(3,.setEnt .internalNl),(4,.cb),(9,.comment)],0,2⟩,⟨14,4398046511104,[.nestZero],[(3,.setEnt .internalNl),(4,.cb)],0,2⟩],[⟨3,8192,[],[],0,2⟩,⟨5,1024,[],[],0,2⟩,⟨6,4096,[],[],0,2⟩,⟨7,8192,[.crAlone],[],0,2⟩,⟨8,4294967808,[],[],0,2⟩,⟨9,1099511627776,[],[],0,2⟩,⟨11,4398046511104,[],[],0,2⟩,⟨13,115792089237316195423570985008687907853269984665640564039457584007908834658815,[],[(9,.comment)],0,2⟩,⟨14,4398046511104,[.nestZero],[],0,2⟩],[⟨10,4398046511104,[],[(5,.nestInc),(6,.comment)],0,2⟩],[⟨3,8192,[],[],0,2⟩,⟨5,1024,[],[],0,2⟩,⟨6,4096,[],[],0,2⟩,⟨7,8192,[.crAlone],[],0,2⟩,⟨8,4294967808,[],[],0,2⟩,⟨9,1099511627776,[],[],0,2⟩,⟨11,4398046511104,[],[],0,2⟩,⟨13,115792089237316195423570985008687907853269984665640564039457584007908834658815,[],[(9,.comment)],0,2⟩,⟨14,4398046511104,[.nestZero],[],0,2⟩],[⟨12,2199023255552,[],[(7,.nestDec),(8,.comment)],0,2⟩],[⟨3,8192,[],[],0,2⟩,⟨5,1024,[],[],0,2⟩,⟨6,4096,[],[],0,2⟩,⟨7,8192,[.crAlone],[],0,2⟩,⟨8,4294967808,[],[],0,2⟩,⟨9,1099511627776,[],[],0,2⟩,⟨11,4398046511104,[],[],0,2⟩,⟨13,115792089237316195423570985008687907853269984665640564039457584007908834658815,[],[(9,.comment)],0,2⟩,⟨14,4398046511104,[.nestZero],[],0,2⟩],[⟨3,8192,[],[],0,2⟩,⟨5,1024,[],[],0,2⟩,⟨6,4096,[],[],0,2⟩,⟨7,8192,[.crAlone],[],0,2⟩,⟨8,4294967808,[],[],0,2⟩,⟨9,1099511627776,[],[],0,2⟩,⟨11,4398046511104,[],[],0,2⟩,⟨13,115792089237316195423570985008687907853269984665640564039457584007908834658815,[],[(9,.comment)],0,2⟩,⟨14,4398046511104,[.nestZero],[],0,2⟩],[⟨15,2199023255552,[.nestZero],[(10,.comment)],2,0⟩],[],[⟨17,8192,[],[],0,0⟩,⟨19,1024,[],[],0,0⟩,⟨20,4096,[],[],0,0⟩,⟨21,8192,[.crAlone],[],0,0⟩,⟨22,4294967808,[],[],0,0⟩,⟨23,115792089237316195423570985008687907853269984665640564039457584007895949770751,[],[(14,.code)],0,0⟩,⟨24,17179869184,[],[],0,0⟩],[⟨18,1024,[],[],0,0⟩],[⟨17,8192,[],[(12,.setEnt .internalNl),(13,.cb)],0,0⟩,⟨19,1024,[],[(12,.setEnt .internalNl),(13,.cb)],0,0⟩,⟨20,4096,[],[(12,.setEnt .internalNl),(13,.cb)],0,0⟩,⟨21,8192,[.crAlone],[(12,.setEnt .internalNl),(13,.cb)],0,0⟩,⟨22,4294967808,[],[(12,.setEnt .internalNl),(13,.cb)],0,0⟩,⟨23,115792089237316195423570985008687907853269984665640564039457584007895949770751,[],[(12,.setEnt .internalNl),(13,.cb),(14,.code)],0,0⟩,⟨24,17179869184,[],[(12,.setEnt .internalNl),(13,.cb)],0,0⟩],[⟨17,8192,[],[(12,.setEnt .internalNl),(13,.cb)],0,0⟩,⟨19,1024,[],[(12,.setEnt .internalNl),(13,.cb)],0,0⟩,⟨20,4096,[],[(12,.setEnt .internalNl),(13,.cb)],0,0⟩,⟨21,8192,[.crAlone],[(12,.setEnt .internalNl),(13,.cb)],0,0⟩,⟨22,4294967808,[],[(12,.setEnt .internalNl),(13,.cb)],0,0⟩,⟨23,115792089237316195423570985008687907853269984665640564039457584007895949770751,[],[(12,.setEnt .internalNl),(13,.cb),(14,.code)],0,0⟩,⟨24,17179869184,[],[(12,.setEnt .internalNl),(13,.cb)],0,0⟩],[⟨17,8192,[],[(12,.setEnt .internalNl),(13,.cb)],0,0⟩,⟨19,1024,[],[(12,.setEnt .internalNl),(13,.cb)],0,0⟩,⟨20,4096,[],[(12,.setEnt .internalNl),(13,.cb)],0,0⟩,⟨21,8192,[.crAlone],[(12,.setEnt .internalNl),(13,.cb)],0,0⟩,⟨22,4294967808,[],[(12,.setEnt .internalNl),(13,.cb)],0,0⟩,⟨23,115792089237316195423570985008687907853269984665640564039457584007895949770751,[],[(12,.setEnt .internalNl),(13,.cb),(14,.code)],0,0⟩,⟨24,17179869184,[],[(12,.setEnt .internalNl),(13,.cb)],0,0⟩],[⟨17,8192,[],[(12,.setEnt .internalNl),(13,.cb)],0,0⟩,⟨19,1024,[],[(12,.setEnt .internalNl),(13,.cb)],0,0⟩,⟨20,4096,[],[(12,.setEnt .internalNl),(13,.cb)],0,0⟩,⟨21,8192,[.crAlone],[(12,.setEnt .internalNl),(13,.cb)],0,0⟩,⟨22,4294967808,[],[(12,.setEnt .internalNl),(13,.cb)],0,0⟩,⟨23,115792089237316195423570985008687907853269984665640564039457584007895949770751,[],[(12,.setEnt .internalNl),(13,.cb),(14,.code)],0,0⟩,⟨24,17179869184,[],[(12,.setEnt .internalNl),(13,.cb)],0,0⟩],[⟨17,8192,[],[],0,0⟩,⟨19,1024,[],[],0,0⟩,⟨20,4096,[],[],0,0⟩,⟨21,8192,[.crAlone],[],0,0⟩,⟨22,4294967808,[],[],0,0⟩,⟨23,115792089237316195423570985008687907853269984665640564039457584007895949770751,[],[(14,.code)],0,0⟩,⟨24,17179869184,[],[],0,0⟩],[⟨17,8192,[],[],0,0⟩,⟨19,1024,[],[],0,0⟩,⟨20,4096,[],[],0,0⟩,⟨21,8192,[.crAlone],[],0,0⟩,⟨22,4294967808,[],[],0,0⟩,⟨23,115792089237316195423570985008687907853269984665640564039457584007895949770751,[],[(14,.code)],0,0⟩,⟨24,17179869184,[],[],0,0⟩],[],[⟨26,1024,[],[(15,.setEnt .newline)],0,0⟩],[],[],[],[],[]],[some (0,[]),none,none,none,none,none,none,none,none,none,none,none,none,none,none,some (1,[]),none,none,none,none,none,none,none,none,some (2,[]),none,some (3,[]),some (3,[]),some (3,[]),some (3,[]),some (4,[])],[1,11,15,16,17]⟩
theorem coq_line_nfa_eq : Coq.coq_line.nfa = coq_line_nfa := by decide +kernel
/-- The machine of `Coq.coq_line`, with its automaton as a literal. -/
def coq_line_M : Machine := ⟨coq_line_nfa, Coq.coq_line.ends, Coq.coq_line.sw⟩
theorem coq_line_M_eq : Coq.coq_line.machine = coq_line_M := by
  unfold Scanner.machine coq_line_M; rw [coq_line_nfa_eq]
def coq_line_masks : List Nat := [4294967808,1099511627776,17179869184,8192,1024,4096,115792089237316195423570985008687907853269984665640564039457584007908834656767,4398046511104,115792089237316195423570985008687907853269984665640564039457584007908834658815,2199023255552,115792089237316195423570985008687907853269984665640564039457584007895949770751]
def coq_line_cs : List (Nat × Nat) := [(0,115792089237316195423570985008687907853269984665640564039457584000195073393151),(9,4294967808),(10,1024),(11,2048),(12,4096),(13,8192),(34,17179869184),(40,1099511627776),(41,2199023255552),(42,4398046511104)]
theorem coq_line_masksIn : masksIn coq_line_nfa coq_line_masks = true := by decide +kernel
theorem coq_line_repOk : repOk coq_line_masks coq_line_cs = true := by decide +kernel
def coq_line_rows : List Row := [⟨[],none,[],[⟨256,.other,false,some ⟨0,[.setEnt (.own 3)],some 4,true⟩⟩,⟨256,.ws,false,some ⟨1,[.setEnt (.own 0)],some 0,false⟩⟩,⟨256,.lf,false,some ⟨0,[.setEnt .newline],some 3,true⟩⟩,⟨256,.vt,false,none⟩,⟨256,.ff,false,some ⟨0,[.setEnt .newline],some 3,true⟩⟩,⟨256,.cr,false,some ⟨2,[.setEnt .newline],none,false⟩⟩,⟨256,.cr,true,some ⟨3,[.setEnt .newline],some 3,false⟩⟩,⟨256,.other,false,some ⟨4,[.code,.setEnt (.own 3)],some 4,false⟩⟩,⟨256,.other,false,some ⟨5,[.nestRes,.setEnt (.own 3)],some 4,false⟩⟩]⟩,⟨[0],some 0,[],[⟨256,.other,false,none⟩,⟨256,.ws,false,some ⟨1,[.setEnt (.own 0)],some 0,false⟩⟩,⟨256,.lf,false,none⟩,⟨256,.vt,false,none⟩,⟨256,.ff,false,none⟩,⟨256,.cr,false,none⟩,⟨256,.cr,true,none⟩]⟩,⟨[25],none,[],[⟨256,.other,false,none⟩,⟨256,.ws,false,none⟩,⟨256,.lf,false,some ⟨0,[.setEnt .newline],some 3,true⟩⟩,⟨256,.vt,false,none⟩,⟨256,.ff,false,none⟩,⟨256,.cr,false,none⟩,⟨256,.cr,true,none⟩]⟩,⟨[25,29],some 3,[],[⟨256,.other,false,none⟩,⟨256,.ws,false,none⟩,⟨256,.lf,false,some ⟨0,[.setEnt .newline],some 3,true⟩⟩,⟨256,.vt,false,none⟩,⟨256,.ff,false,none⟩,⟨256,.cr,false,none⟩,⟨256,.cr,true,none⟩]⟩,⟨[16,30],some 4,[],[⟨256,.other,false,some ⟨6,[.code],none,false⟩⟩,⟨256,.ws,false,some ⟨7,[.code],none,false⟩⟩,⟨256,.lf,false,some ⟨8,[.code],none,false⟩⟩,⟨256,.vt,false,some ⟨6,[.code],none,false⟩⟩,⟨256,.ff,false,some ⟨9,[.code],none,false⟩⟩,⟨256,.cr,false,some ⟨10,[.code],none,false⟩⟩,⟨256,.cr,true,some ⟨11,[.code],none,false⟩⟩,⟨256,.other,false,some ⟨0,[],some 2,true⟩⟩]⟩,⟨[1,30],some 4,[],[⟨256,.other,false,none⟩,⟨256,.ws,false,none⟩,⟨256,.lf,false,none⟩,⟨256,.vt,false,none⟩,⟨256,.ff,false,none⟩,⟨256,.cr,false,none⟩,⟨256,.cr,true,none⟩,⟨256,.other,false,some ⟨12,[.comment],none,false⟩⟩]⟩,⟨[23],none,[],[⟨256,.other,false,some ⟨6,[.code],none,false⟩⟩,⟨256,.ws,false,some ⟨7,[.code],none,false⟩⟩,⟨256,.lf,false,some ⟨8,[.code],none,false⟩⟩,⟨256,.vt,false,some ⟨6,[.code],none,false⟩⟩,⟨256,.ff,false,some ⟨9,[.code],none,false⟩⟩,⟨256,.cr,false,some ⟨10,[.code],none,false⟩⟩,⟨256,.cr,true,some ⟨11,[.code],none,false⟩⟩,⟨256,.other,false,some ⟨0,[],some 2,true⟩⟩]⟩,⟨[22,23],none,[],[⟨256,.other,false,some ⟨6,[.code],none,false⟩⟩,⟨256,.ws,false,some ⟨7,[.code],none,false⟩⟩,⟨256,.lf,false,some ⟨8,[.code],none,false⟩⟩,⟨256,.vt,false,some ⟨6,[.code],none,false⟩⟩,⟨256,.ff,false,some ⟨9,[.code],none,false⟩⟩,⟨256,.cr,false,some ⟨10,[.code],none,false⟩⟩,⟨256,.cr,true,some ⟨11,[.code],none,false⟩⟩,⟨256,.other,false,some ⟨0,[],some 2,true⟩⟩]⟩,⟨[19,23],none,[],[⟨256,.other,false,some ⟨6,[.setEnt .internalNl,.cb,.code],none,false⟩⟩,⟨256,.ws,false,some ⟨7,[.setEnt .internalNl,.cb,.code],none,false⟩⟩,⟨256,.lf,false,some ⟨8,[.setEnt .internalNl,.cb,.code],none,false⟩⟩,⟨256,.vt,false,some ⟨6,[.setEnt .internalNl,.cb,.code],none,false⟩⟩,⟨256,.ff,false,some ⟨9,[.setEnt .internalNl,.cb,.code],none,false⟩⟩,⟨256,.cr,false,some ⟨10,[.setEnt .internalNl,.cb,.code],none,false⟩⟩,⟨256,.cr,true,some ⟨11,[.setEnt .internalNl,.cb,.code],none,false⟩⟩,⟨256,.other,false,some ⟨0,[.setEnt .internalNl,.cb],some 2,true⟩⟩]⟩,⟨[20,23],none,[],[⟨256,.other,false,some ⟨6,[.setEnt .internalNl,.cb,.code],none,false⟩⟩,⟨256,.ws,false,some ⟨7,[.setEnt .internalNl,.cb,.code],none,false⟩⟩,⟨256,.lf,false,some ⟨8,[.setEnt .internalNl,.cb,.code],none,false⟩⟩,⟨256,.vt,false,some ⟨6,[.setEnt .internalNl,.cb,.code],none,false⟩⟩,⟨256,.ff,false,some ⟨9,[.setEnt .internalNl,.cb,.code],none,false⟩⟩,⟨256,.cr,false,some ⟨10,[.setEnt .internalNl,.cb,.code],none,false⟩⟩,⟨256,.cr,true,some ⟨11,[.setEnt .internalNl,.cb,.code],none,false⟩⟩,⟨256,.other,false,some ⟨0,[.setEnt .internalNl,.cb],some 2,true⟩⟩]⟩,⟨[17,23],none,[],[⟨256,.other,false,some ⟨6,[.code],none,false⟩⟩,⟨256,.ws,false,some ⟨7,[.code],none,false⟩⟩,⟨256,.lf,false,some ⟨13,[.code],none,false⟩⟩,⟨256,.vt,false,some ⟨6,[.code],none,false⟩⟩,⟨256,.ff,false,some ⟨9,[.code],none,false⟩⟩,⟨256,.cr,false,some ⟨10,[.code],none,false⟩⟩,⟨256,.cr,true,some ⟨11,[.code],none,false⟩⟩,⟨256,.other,false,some ⟨0,[],some 2,true⟩⟩]⟩,⟨[17,21,23],none,[],[⟨256,.other,false,some ⟨6,[.setEnt .internalNl,.cb,.code],none,false⟩⟩,⟨256,.ws,false,some ⟨7,[.setEnt .internalNl,.cb,.code],none,false⟩⟩,⟨256,.lf,false,some ⟨13,[.setEnt .internalNl,.cb,.code],none,false⟩⟩,⟨256,.vt,false,some ⟨6,[.setEnt .internalNl,.cb,.code],none,false⟩⟩,⟨256,.ff,false,some ⟨9,[.setEnt .internalNl,.cb,.code],none,false⟩⟩,⟨256,.cr,false,some ⟨10,[.setEnt .internalNl,.cb,.code],none,false⟩⟩,⟨256,.cr,true,some ⟨11,[.setEnt .internalNl,.cb,.code],none,false⟩⟩,⟨256,.other,false,some ⟨0,[.setEnt .internalNl,.cb],some 2,true⟩⟩]⟩,⟨[2],none,[],[⟨256,.other,false,some ⟨14,[.comment],none,false⟩⟩,⟨256,.ws,false,some ⟨15,[],none,false⟩⟩,⟨256,.lf,false,some ⟨16,[],none,false⟩⟩,⟨256,.vt,false,some ⟨14,[.comment],none,false⟩⟩,⟨256,.ff,false,some ⟨17,[],none,false⟩⟩,⟨256,.cr,false,some ⟨18,[],none,false⟩⟩,⟨256,.cr,true,some ⟨19,[],none,false⟩⟩,⟨256,.other,false,some ⟨20,[.comment],none,false⟩⟩,⟨256,.other,false,some ⟨21,[.comment],none,false⟩⟩,⟨256,.other,false,some ⟨22,[.comment],none,false⟩⟩]⟩,⟨[18,19,23],none,[],[⟨256,.other,false,some ⟨6,[.setEnt .internalNl,.cb,.code],none,false⟩⟩,⟨256,.ws,false,some ⟨7,[.setEnt .internalNl,.cb,.code],none,false⟩⟩,⟨256,.lf,false,some ⟨8,[.setEnt .internalNl,.cb,.code],none,false⟩⟩,⟨256,.vt,false,some ⟨6,[.setEnt .internalNl,.cb,.code],none,false⟩⟩,⟨256,.ff,false,some ⟨9,[.setEnt .internalNl,.cb,.code],none,false⟩⟩,⟨256,.cr,false,some ⟨10,[.setEnt .internalNl,.cb,.code],none,false⟩⟩,⟨256,.cr,true,some ⟨11,[.setEnt .internalNl,.cb,.code],none,false⟩⟩,⟨256,.other,false,some ⟨0,[.setEnt .internalNl,.cb],some 2,true⟩⟩]⟩,⟨[13],none,[],[⟨256,.other,false,some ⟨14,[.comment],none,false⟩⟩,⟨256,.ws,false,some ⟨15,[],none,false⟩⟩,⟨256,.lf,false,some ⟨16,[],none,false⟩⟩,⟨256,.vt,false,some ⟨14,[.comment],none,false⟩⟩,⟨256,.ff,false,some ⟨17,[],none,false⟩⟩,⟨256,.cr,false,some ⟨18,[],none,false⟩⟩,⟨256,.cr,true,some ⟨19,[],none,false⟩⟩,⟨256,.other,false,some ⟨20,[.comment],none,false⟩⟩,⟨256,.other,false,some ⟨21,[.comment],none,false⟩⟩,⟨256,.other,false,some ⟨22,[.comment],none,false⟩⟩]⟩,⟨[8],none,[],[⟨256,.other,false,some ⟨14,[.comment],none,false⟩⟩,⟨256,.ws,false,some ⟨15,[],none,false⟩⟩,⟨256,.lf,false,some ⟨16,[],none,false⟩⟩,⟨256,.vt,false,some ⟨14,[.comment],none,false⟩⟩,⟨256,.ff,false,some ⟨17,[],none,false⟩⟩,⟨256,.cr,false,some ⟨18,[],none,false⟩⟩,⟨256,.cr,true,some ⟨19,[],none,false⟩⟩,⟨256,.other,false,some ⟨20,[.comment],none,false⟩⟩,⟨256,.other,false,some ⟨21,[.comment],none,false⟩⟩,⟨256,.other,false,some ⟨22,[.comment],none,false⟩⟩]⟩,⟨[5],none,[],[⟨256,.other,false,some ⟨14,[.setEnt .internalNl,.cb,.comment],none,false⟩⟩,⟨256,.ws,false,some ⟨15,[.setEnt .internalNl,.cb],none,false⟩⟩,⟨256,.lf,false,some ⟨16,[.setEnt .internalNl,.cb],none,false⟩⟩,⟨256,.vt,false,some ⟨14,[.setEnt .internalNl,.cb,.comment],none,false⟩⟩,⟨256,.ff,false,some ⟨17,[.setEnt .internalNl,.cb],none,false⟩⟩,⟨256,.cr,false,some ⟨18,[.setEnt .internalNl,.cb],none,false⟩⟩,⟨256,.cr,true,some ⟨19,[.setEnt .internalNl,.cb],none,false⟩⟩,⟨256,.other,false,some ⟨20,[.setEnt .internalNl,.cb,.comment],none,false⟩⟩,⟨256,.other,false,some ⟨21,[.setEnt .internalNl,.cb,.comment],none,false⟩⟩,⟨256,.other,false,some ⟨22,[.setEnt .internalNl,.cb,.comment],none,false⟩⟩]⟩,⟨[6],none,[],[⟨256,.other,false,some ⟨14,[.setEnt .internalNl,.cb,.comment],none,false⟩⟩,⟨256,.ws,false,some ⟨15,[.setEnt .internalNl,.cb],none,false⟩⟩,⟨256,.lf,false,some ⟨16,[.setEnt .internalNl,.cb],none,false⟩⟩,⟨256,.vt,false,some ⟨14,[.setEnt .internalNl,.cb,.comment],none,false⟩⟩,⟨256,.ff,false,some ⟨17,[.setEnt .internalNl,.cb],none,false⟩⟩,⟨256,.cr,false,some ⟨18,[.setEnt .internalNl,.cb],none,false⟩⟩,⟨256,.cr,true,some ⟨19,[.setEnt .internalNl,.cb],none,false⟩⟩,⟨256,.other,false,some ⟨20,[.setEnt .internalNl,.cb,.comment],none,false⟩⟩,⟨256,.other,false,some ⟨21,[.setEnt .internalNl,.cb,.comment],none,false⟩⟩,⟨256,.other,false,some ⟨22,[.setEnt .internalNl,.cb,.comment],none,false⟩⟩]⟩,⟨[3],none,[],[⟨256,.other,false,none⟩,⟨256,.ws,false,none⟩,⟨256,.lf,false,some ⟨23,[],none,false⟩⟩,⟨256,.vt,false,none⟩,⟨256,.ff,false,none⟩,⟨256,.cr,false,none⟩,⟨256,.cr,true,none⟩]⟩,⟨[3,7],none,[],[⟨256,.other,false,some ⟨14,[.setEnt .internalNl,.cb,.comment],none,false⟩⟩,⟨256,.ws,false,some ⟨15,[.setEnt .internalNl,.cb],none,false⟩⟩,⟨256,.lf,false,some ⟨24,[.setEnt .internalNl,.cb],none,false⟩⟩,⟨256,.vt,false,some ⟨14,[.setEnt .internalNl,.cb,.comment],none,false⟩⟩,⟨256,.ff,false,some ⟨17,[.setEnt .internalNl,.cb],none,false⟩⟩,⟨256,.cr,false,some ⟨18,[.setEnt .internalNl,.cb],none,false⟩⟩,⟨256,.cr,true,some ⟨19,[.setEnt .internalNl,.cb],none,false⟩⟩,⟨256,.other,false,some ⟨20,[.setEnt .internalNl,.cb,.comment],none,false⟩⟩,⟨256,.other,false,some ⟨21,[.setEnt .internalNl,.cb,.comment],none,false⟩⟩,⟨256,.other,false,some ⟨22,[.setEnt .internalNl,.cb,.comment],none,false⟩⟩]⟩,⟨[9,13],none,[],[⟨256,.other,false,some ⟨14,[.comment],none,false⟩⟩,⟨256,.ws,false,some ⟨15,[],none,false⟩⟩,⟨256,.lf,false,some ⟨16,[],none,false⟩⟩,⟨256,.vt,false,some ⟨14,[.comment],none,false⟩⟩,⟨256,.ff,false,some ⟨17,[],none,false⟩⟩,⟨256,.cr,false,some ⟨18,[],none,false⟩⟩,⟨256,.cr,true,some ⟨19,[],none,false⟩⟩,⟨256,.other,false,some ⟨20,[.comment],none,false⟩⟩,⟨256,.other,false,some ⟨25,[.nestInc,.comment],none,false⟩⟩,⟨256,.other,false,some ⟨26,[.nestInc,.comment],none,false⟩⟩]⟩,⟨[11,13],none,[],[⟨256,.other,false,some ⟨14,[.comment],none,false⟩⟩,⟨256,.ws,false,some ⟨15,[],none,false⟩⟩,⟨256,.lf,false,some ⟨16,[],none,false⟩⟩,⟨256,.vt,false,some ⟨14,[.comment],none,false⟩⟩,⟨256,.ff,false,some ⟨17,[],none,false⟩⟩,⟨256,.cr,false,some ⟨18,[],none,false⟩⟩,⟨256,.cr,true,some ⟨19,[],none,false⟩⟩,⟨256,.other,false,some ⟨20,[.comment],none,false⟩⟩,⟨256,.other,false,some ⟨27,[.nestDec,.comment],none,false⟩⟩,⟨256,.other,false,some ⟨21,[.comment],none,false⟩⟩,⟨256,.other,false,some ⟨22,[.comment],none,false⟩⟩]⟩,⟨[11,13,14],none,[],[⟨256,.other,false,some ⟨14,[.comment],none,false⟩⟩,⟨256,.ws,false,some ⟨15,[],none,false⟩⟩,⟨256,.lf,false,some ⟨16,[],none,false⟩⟩,⟨256,.vt,false,some ⟨14,[.comment],none,false⟩⟩,⟨256,.ff,false,some ⟨17,[],none,false⟩⟩,⟨256,.cr,false,some ⟨18,[],none,false⟩⟩,⟨256,.cr,true,some ⟨19,[],none,false⟩⟩,⟨256,.other,false,some ⟨20,[.comment],none,false⟩⟩,⟨256,.other,false,some ⟨27,[.nestDec,.comment],none,false⟩⟩,⟨256,.other,false,some ⟨0,[.comment],some 1,true⟩⟩,⟨256,.other,false,some ⟨21,[.comment],none,false⟩⟩,⟨256,.other,false,some ⟨22,[.comment],none,false⟩⟩]⟩,⟨[4],none,[],[⟨256,.other,false,some ⟨14,[.setEnt .internalNl,.cb,.comment],none,false⟩⟩,⟨256,.ws,false,some ⟨15,[.setEnt .internalNl,.cb],none,false⟩⟩,⟨256,.lf,false,some ⟨16,[.setEnt .internalNl,.cb],none,false⟩⟩,⟨256,.vt,false,some ⟨14,[.setEnt .internalNl,.cb,.comment],none,false⟩⟩,⟨256,.ff,false,some ⟨17,[.setEnt .internalNl,.cb],none,false⟩⟩,⟨256,.cr,false,some ⟨18,[.setEnt .internalNl,.cb],none,false⟩⟩,⟨256,.cr,true,some ⟨19,[.setEnt .internalNl,.cb],none,false⟩⟩,⟨256,.other,false,some ⟨20,[.setEnt .internalNl,.cb,.comment],none,false⟩⟩,⟨256,.other,false,some ⟨21,[.setEnt .internalNl,.cb,.comment],none,false⟩⟩,⟨256,.other,false,some ⟨22,[.setEnt .internalNl,.cb,.comment],none,false⟩⟩]⟩,⟨[4,5],none,[],[⟨256,.other,false,some ⟨14,[.setEnt .internalNl,.cb,.comment],none,false⟩⟩,⟨256,.ws,false,some ⟨15,[.setEnt .internalNl,.cb],none,false⟩⟩,⟨256,.lf,false,some ⟨16,[.setEnt .internalNl,.cb],none,false⟩⟩,⟨256,.vt,false,some ⟨14,[.setEnt .internalNl,.cb,.comment],none,false⟩⟩,⟨256,.ff,false,some ⟨17,[.setEnt .internalNl,.cb],none,false⟩⟩,⟨256,.cr,false,some ⟨18,[.setEnt .internalNl,.cb],none,false⟩⟩,⟨256,.cr,true,some ⟨19,[.setEnt .internalNl,.cb],none,false⟩⟩,⟨256,.other,false,some ⟨20,[.setEnt .internalNl,.cb,.comment],none,false⟩⟩,⟨256,.other,false,some ⟨21,[.setEnt .internalNl,.cb,.comment],none,false⟩⟩,⟨256,.other,false,some ⟨22,[.setEnt .internalNl,.cb,.comment],none,false⟩⟩]⟩,⟨[10,11,13],none,[],[⟨256,.other,false,some ⟨14,[.comment],none,false⟩⟩,⟨256,.ws,false,some ⟨15,[],none,false⟩⟩,⟨256,.lf,false,some ⟨16,[],none,false⟩⟩,⟨256,.vt,false,some ⟨14,[.comment],none,false⟩⟩,⟨256,.ff,false,some ⟨17,[],none,false⟩⟩,⟨256,.cr,false,some ⟨18,[],none,false⟩⟩,⟨256,.cr,true,some ⟨19,[],none,false⟩⟩,⟨256,.other,false,some ⟨20,[.comment],none,false⟩⟩,⟨256,.other,false,some ⟨27,[.nestDec,.comment],none,false⟩⟩,⟨256,.other,false,some ⟨21,[.comment],none,false⟩⟩,⟨256,.other,false,some ⟨22,[.comment],none,false⟩⟩]⟩,⟨[10,11,13,14],none,[],[⟨256,.other,false,some ⟨14,[.comment],none,false⟩⟩,⟨256,.ws,false,some ⟨15,[],none,false⟩⟩,⟨256,.lf,false,some ⟨16,[],none,false⟩⟩,⟨256,.vt,false,some ⟨14,[.comment],none,false⟩⟩,⟨256,.ff,false,some ⟨17,[],none,false⟩⟩,⟨256,.cr,false,some ⟨18,[],none,false⟩⟩,⟨256,.cr,true,some ⟨19,[],none,false⟩⟩,⟨256,.other,false,some ⟨20,[.comment],none,false⟩⟩,⟨256,.other,false,some ⟨27,[.nestDec,.comment],none,false⟩⟩,⟨256,.other,false,some ⟨0,[.comment],some 1,true⟩⟩,⟨256,.other,false,some ⟨21,[.comment],none,false⟩⟩,⟨256,.other,false,some ⟨22,[.comment],none,false⟩⟩]⟩,⟨[12,13],none,[],[⟨256,.other,false,some ⟨14,[.comment],none,false⟩⟩,⟨256,.ws,false,some ⟨15,[],none,false⟩⟩,⟨256,.lf,false,some ⟨16,[],none,false⟩⟩,⟨256,.vt,false,some ⟨14,[.comment],none,false⟩⟩,⟨256,.ff,false,some ⟨17,[],none,false⟩⟩,⟨256,.cr,false,some ⟨18,[],none,false⟩⟩,⟨256,.cr,true,some ⟨19,[],none,false⟩⟩,⟨256,.other,false,some ⟨20,[.comment],none,false⟩⟩,⟨256,.other,false,some ⟨21,[.comment],none,false⟩⟩,⟨256,.other,false,some ⟨22,[.comment],none,false⟩⟩]⟩]
theorem coq_line_rowsOk : rowsOk coq_line_nfa [] (coq_line_cs.map (·.1)) coq_line_rows = true := by decide +kernel
def coq_line_D : Dfa coq_line_M.nfa := ⟨coq_line_masks, [], coq_line_cs, coq_line_rows, coq_line_masksIn, coq_line_repOk, coq_line_rowsOk⟩

def crystal_line_nfa : Nfa := ⟨[⟨0,4294967808,[],[(0,.setEnt (.own 0))],0,0⟩,⟨1,34359738368,[],[(1,.comment)],0,0⟩,⟨3,2305843009213693952,[],[],0,2⟩,⟨20,17179869184,[],[(8,.enqueue),(9,.code)],0,0⟩,⟨31,137438953472,[],[],0,0⟩,⟨44,79228162514264337593543950336,[],[(24,.enqueue),(25,.code)],0,0⟩,⟨55,140737488355328,[],[],0,0⟩,⟨60,137438953472,[],[],0,0⟩,⟨73,8192,[],[(41,.setEnt .newline)],0,0⟩,⟨75,1024,[],[(41,.setEnt .newline)],0,0⟩,⟨76,4096,[],[(41,.setEnt .newline)],0,0⟩,⟨77,8192,[.crAlone],[(41,.setEnt .newline)],0,0⟩,⟨78,115792089237316195423570985008687907853269984665640564039457584007908834656767,[],[(42,.setEnt (.own 3))],0,0⟩],[[⟨0,4294967808,[],[(0,.setEnt (.own 0))],0,0⟩],[⟨2,115792089237316195423570985008687907853269984665640564039457584007913129626623,[],[],0,0⟩],[⟨2,115792089237316195423570985008687907853269984665640564039457584007913129626623,[],[],0,0⟩],[⟨4,316912650057057350374175801344,[],[],0,2⟩],[⟨5,2535301200456458802993406410752,[],[],0,2⟩],[⟨6,10141204801825835211973625643008,[],[],0,2⟩],[⟨7,40564819207303340847894502572032,[],[],0,2⟩],[⟨8,1298074214633706907132624082305024,[],[(2,.enqueue),(3,.comment)],0,2⟩],[⟨9,8192,[],[],0,2⟩,⟨11,1024,[],[],0,2⟩,⟨12,4096,[],[],0,2⟩,⟨13,8192,[.crAlone],[],0,2⟩,⟨14,4294967808,[],[],0,2⟩,⟨15,115792089237316195423570985008687907853269984665640564039457584007908834658815,[],[(6,.comment)],0,2⟩,⟨16,2305843009213693952,[],[],0,2⟩],[⟨10,1024,[],[],0,2⟩],[⟨9,8192,[],[(4,.setEnt .internalNl),(5,.cb)],0,2⟩,⟨11,1024,[],[(4,.setEnt .internalNl),(5,.cb)],0,2⟩,⟨12,4096,[],[(4,.setEnt .internalNl),(5,.cb)],0,2⟩,⟨13,8192,[.crAlone],[(4,.setEnt .internalNl),(5,.cb)],0,2⟩,⟨14,4294967808,[],[(4,.setEnt .internalNl),(5,.cb)],0,2⟩,⟨15,115792089237316195423570985008687907853269984665640564039457584007908834658815,[],[(4,.setEnt .internalNl),(5,.cb),(6,.comment)],0,2⟩,⟨16,2305843009213693952,[],[(4,.setEnt .internalNl),(5,.cb)],0,2⟩],[⟨9,8192,[],[(4,.setEnt .internalNl),(5,.cb)],0,2⟩,⟨11,1024,[],[(4,.setEnt .internalNl),(5,.cb)],0,2⟩,⟨12,4096,[],[(4,.setEnt .internalNl),(5,.cb)],0,2⟩,⟨13,8192,[.crAlone],[(4,.setEnt .internalNl),(5,.cb)],0,2⟩,⟨14,4294967808,[],[(4,.setEnt .internalNl),(5,.cb)],0,2⟩,⟨15,115792089237316195423570985008687907853269984665640564039457584007908834658815,[],[(4,.setEnt .internalNl),(5,.cb),(6,.comment)],0,2⟩,⟨16,2305843009213693952,[],[(4,.setEnt .internalNl),(5,.cb)],0,2⟩],[⟨9,8192,[],[(4,.setEnt .internalNl),(5,.cb)],0,2⟩,⟨11,1024,[],[(4,.setEnt .internalNl),(5,.cb)],0,2⟩,⟨12,4096,[],[(4,.setEnt .internalNl),(5,.cb)],0,2⟩,⟨13,8192,[.crAlone],[(4,.setEnt .internalNl),(5,.cb)],0,2⟩,⟨14,4294967808,[],[(4,.setEnt .internalNl),(5,.cb)],0,2⟩,⟨15,115792089237316195423570985008687907853269984665640564039457584007908834658815,[],[(4,.setEnt .internalNl),(5,.cb),(6,.comment)],0,2⟩,⟨16,2305843009213693952,[],[(4,.setEnt .internalNl),(5,.cb)],0,2⟩],[⟨9,8192,[],[(4,.setEnt .internalNl),(5,.cb)],0,2⟩,⟨11,1024,[],[(4,.setEnt .internalNl),(5,.cb)],0,2⟩,⟨12,4096,[],[(4,.setEnt .internalNl),(5,.cb)],0,2⟩,⟨13,8192,[.crAlone],[(4,.setEnt .internalNl),(5,.cb)],0,2⟩,⟨14,4294967808,[],[(4,.setEnt .internalNl),(5,.cb)],0,2⟩,⟨15,115792089237316195423570985008687907853269984665640564039457584007908834658815,[],[(4,.setEnt .internalNl),(5,.cb),(6,.comment)],0,2⟩,⟨16,2305843009213693952,[],[(4,.setEnt .internalNl),(5,.cb)],0,2⟩],[⟨9,8192,[],[],0,2⟩,⟨11,1024,[],[],0,2⟩,⟨12,4096,[],[],0,2⟩,⟨13,8192,[.crAlone],[],0,2⟩,⟨14,4294967808,[],[],0,2⟩,⟨15,115792089237316195423570985008687907853269984665640564039457584007908834658815,[],[(6,.comment)],0,2⟩,⟨16,2305843009213693952,[],[],0,2⟩],[⟨9,8192,[],[],0,2⟩,⟨11,1024,[],[],0,2⟩,⟨12,4096,[],[],0,2⟩,⟨13,8192,[.crAlone],[],0,2⟩,⟨14,4294967808,[],[],0,2⟩,⟨15,115792089237316195423570985008687907853269984665640564039457584007908834658815,[],[(6,.comment)],0,2⟩,⟨16,2305843009213693952,[],[],0,2⟩],[⟨17,2535301200456458802993406410752,[],[],0,0⟩],[⟨18,1298074214633706907132624082305024,[],[],0,0⟩],[⟨19,1267650600228229401496703205376,[],[(7,.commit)],2,0⟩],[],[⟨21,8192,[],[],0,0⟩,⟨23,1024,[],[],0,0⟩,⟨24,4096,[],[],0,0⟩,⟨25,8192,[.crAlone],[],0,0⟩,⟨26,4294967808,[],[],0,0⟩,⟨27,115792089237316195423570985008687907853269984665635612279300442486792058292735,[],[(12,.code)],0,0⟩,⟨28,4951760157141521099596496896,[],[],0,0⟩,⟨30,17179869184,[],[(14,.commit),(15,.code)],0,0⟩],[⟨22,1024,[],[],0,0⟩],[⟨21,8192,[],[(10,.setEnt .internalNl),(11,.cb)],0,0⟩,⟨23,1024,[],[(10,.setEnt .internalNl),(11,.cb)],0,0⟩,⟨24,4096,[],[(10,.setEnt .internalNl),(11,.cb)],0,0⟩,⟨25,8192,[.crAlone],[(10,.setEnt .internalNl),(11,.cb)],0,0⟩,⟨26,4294967808,[],[(10,.setEnt .internalNl),(11,.cb)],0,0⟩,⟨27,115792089237316195423570985008687907853269984665635612279300442486792058292735,[],[(10,.setEnt .internalNl),(11,.cb),(12,.code)],0,0⟩,⟨28,4951760157141521099596496896,[],[(10,.setEnt .internalNl),(11,.cb)],0,0⟩,⟨30,17179869184,[],[(10,.setEnt .internalNl),(11,.cb),(14,.commit),(15,.code)],0,0⟩],[⟨21,8192,[],[(10,.setEnt .internalNl),(11,.cb)],0,0⟩,⟨23,1024,[],[(10,.setEnt .internalNl),(11,.cb)],0,0⟩,⟨24,4096,[],[(10,.setEnt .internalNl),(11,.cb)],0,0⟩,⟨25,8192,[.crAlone],[(10,.setEnt .internalNl),(11,.cb)],0,0⟩,⟨26,4294967808,[],[(10,.setEnt .internalNl),(11,.cb)],0,0⟩,⟨27,115792089237316195423570985008687907853269984665635612279300442486792058292735,[],[(10,.setEnt .internalNl),(11,.cb),(12,.code)],0,0⟩,⟨28,4951760157141521099596496896,[],[(10,.setEnt .internalNl),(11,.cb)],0,0⟩,⟨30,17179869184,[],[(10,.setEnt .internalNl),(11,.cb),(14,.commit),(15,.code)],0,0⟩],[⟨21,8192,[],[(10,.setEnt .internalNl),(11,.cb)],0,0⟩,⟨23,1024,[],[(10,.setEnt .internalNl),(11,.cb)],0,0⟩,⟨24,4096,[],[(10,.setEnt .internalNl),(11,.cb)],0,0⟩,⟨25,8192,[.crAlone],[(10,.setEnt .internalNl),(11,.cb)],0,0⟩,⟨26,4294967808,[],[(10,.setEnt .internalNl),(11,.cb)],0,0⟩,⟨27,115792089237316195423570985008687907853269984665635612279300442486792058292735,[],[(10,.setEnt .internalNl),(11,.cb),(12,.code)],0,0⟩,⟨28,4951760157141521099596496896,[],[(10,.setEnt .internalNl),(11,.cb)],0,0⟩,⟨30,17179869184,[],[(10,.setEnt .internalNl),(11,.cb),(14,.commit),(15,.code)],0,0⟩],[⟨21,8192,[],[(10,.setEnt .internalNl),(11,.cb)],0,0⟩,⟨23,1024,[],[(10,.setEnt .internalNl),(11,.cb)],0,0⟩,⟨24,4096,[],[(10,.setEnt .internalNl),(11,.cb)],0,0⟩,⟨25,8192,[.crAlone],[(10,.setEnt .internalNl),(11,.cb)],0,0⟩,⟨26,4294967808,[],[(10,.setEnt .internalNl),(11,.cb)],0,0⟩,⟨27,115792089237316195423570985008687907853269984665635612279300442486792058292735,[],[(10,.setEnt .internalNl),(11,.cb),(12,.code)],0,0⟩,⟨28,4951760157141521099596496896,[],[(10,.setEnt .internalNl),(11,.cb)],0,0⟩,⟨30,17179869184,[],[(10,.setEnt .internalNl),(11,.cb),(14,.commit),(15,.code)],0,0⟩],[⟨21,8192,[],[],0,0⟩,⟨23,1024,[],[],0,0⟩,⟨24,4096,[],[],0,0⟩,⟨25,8192,[.crAlone],[],0,0⟩,⟨26,4294967808,[],[],0,0⟩,⟨27,115792089237316195423570985008687907853269984665635612279300442486792058292735,[],[(12,.code)],0,0⟩,⟨28,4951760157141521099596496896,[],[],0,0⟩,⟨30,17179869184,[],[(14,.commit),(15,.code)],0,0⟩],[⟨21,8192,[],[],0,0⟩,⟨23,1024,[],[],0,0⟩,⟨24,4096,[],[],0,0⟩,⟨25,8192,[.crAlone],[],0,0⟩,⟨26,4294967808,[],[],0,0⟩,⟨27,115792089237316195423570985008687907853269984665635612279300442486792058292735,[],[(12,.code)],0,0⟩,⟨28,4951760157141521099596496896,[],[],0,0⟩,⟨30,17179869184,[],[(14,.commit),(15,.code)],0,0⟩],[⟨29,115792089237316195423570985008687907853269984665640564039457584007913129626623,[],[(13,.code)],0,0⟩],[⟨21,8192,[],[],0,0⟩,⟨23,1024,[],[],0,0⟩,⟨24,4096,[],[],0,0⟩,⟨25,8192,[.crAlone],[],0,0⟩,⟨26,4294967808,[],[],0,0⟩,⟨27,115792089237316195423570985008687907853269984665635612279300442486792058292735,[],[(12,.code)],0,0⟩,⟨28,4951760157141521099596496896,[],[],0,0⟩,⟨30,17179869184,[],[(14,.commit),(15,.code)],0,0⟩],[],[⟨32,10384593719487506896290251007852544,[],[],0,0⟩,⟨33,10633823968755207061801218131552632832,[],[(16,.enqueue),(17,.code)],0,0⟩],[⟨33,10633823968755207061801218131552632832,[],[(16,.enqueue),(17,.code)],0,0⟩],[⟨34,8192,[],[],0,0⟩,⟨36,1024,[],[],0,0⟩,⟨37,4096,[],[],0,0⟩,⟨38,8192,[.crAlone],[],0,0⟩,⟨39,4294967808,[],[],0,0⟩,⟨40,115792089237316195423570985008687907853227449369760591451053237616482050886143,[],[(20,.code)],0,0⟩,⟨41,4951760157141521099596496896,[],[],0,0⟩,⟨43,42535295875020828247204870327187275776,[],[(22,.commit),(23,.code)],0,0⟩],[⟨35,1024,[],[],0,0⟩],[⟨34,8192,[],[(18,.setEnt .internalNl),(19,.cb)],0,0⟩,⟨36,1024,[],[(18,.setEnt .internalNl),(19,.cb)],0,0⟩,⟨37,4096,[],[(18,.setEnt .internalNl),(19,.cb)],0,0⟩,⟨38,8192,[.crAlone],[(18,.setEnt .internalNl),(19,.cb)],0,0⟩,⟨39,4294967808,[],[(18,.setEnt .internalNl),(19,.cb)],0,0⟩,⟨40,115792089237316195423570985008687907853227449369760591451053237616482050886143,[],[(18,.setEnt .internalNl),(19,.cb),(20,.code)],0,0⟩,⟨41,4951760157141521099596496896,[],[(18,.setEnt .internalNl),(19,.cb)],0,0⟩,⟨43,42535295875020828247204870327187275776,[],[(18,.setEnt .internalNl),(19,.cb),(22,.commit),(23,.code)],0,0⟩],[⟨34,8192,[],[(18,.setEnt .internalNl),(19,.cb)],0,0⟩,⟨36,1024,[],[(18,.setEnt .internalNl),(19,.cb)],0,0⟩,⟨37,4096,[],[(18,.setEnt .internalNl),(19,.cb)],0,0⟩,⟨38,8192,[.crAlone],[(18,.setEnt .internalNl),(19,.cb)],0,0⟩,⟨39,4294967808,[],[(18,.setEnt .internalNl),(19,.cb)],0,0⟩,⟨40,115792089237316195423570985008687907853227449369760591451053237616482050886143,[],[(18,.setEnt .internalNl),(19,.cb),(20,.code)],0,0⟩,⟨41,4951760157141521099596496896,[],[(18,.setEnt .internalNl),(19,.cb)],0,0⟩,⟨43,42535295875020828247204870327187275776,[],[(18,.setEnt .internalNl),(19,.cb),(22,.commit),(23,.code)],0,0⟩],[⟨34,8192,[],[(18,.setEnt .internalNl),(19,.cb)],0,0⟩,⟨36,1024,[],[(18,.setEnt .internalNl),(19,.cb)],0,0⟩,⟨37,4096,[],[(18,.setEnt .internalNl),(19,.cb)],0,0⟩,⟨38,8192,[.crAlone],[(18,.setEnt .internalNl),(19,.cb)],0,0⟩,⟨39,4294967808,[],[(18,.setEnt .internalNl),(19,.cb)],0,0⟩,⟨40,115792089237316195423570985008687907853227449369760591451053237616482050886143,[],[(18,.setEnt .internalNl),(19,.cb),(20,.code)],0,0⟩,⟨41,4951760157141521099596496896,[],[(18,.setEnt .internalNl),(19,.cb)],0,0⟩,⟨43,42535295875020828247204870327187275776,[],[(18,.setEnt .internalNl),(19,.cb),(22,.commit),(23,.code)],0,0⟩],[⟨34,8192,[],[(18,.setEnt .internalNl),(19,.cb)],0,0⟩,⟨36,1024,[],[(18,.setEnt .internalNl),(19,.cb)],0,0⟩,⟨37,4096,[],[(18,.setEnt .internalNl),(19,.cb)],0,0⟩,⟨38,8192,[.crAlone],[(18,.setEnt .internalNl),(19,.cb)],0,0⟩,⟨39,4294967808,[],[(18,.setEnt .internalNl),(19,.cb)],0,0⟩,⟨40,115792089237316195423570985008687907853227449369760591451053237616482050886143,[],[(18,.setEnt .internalNl),(19,.cb),(20,.code)],0,0⟩,⟨41,4951760157141521099596496896,[],[(18,.setEnt .internalNl),(19,.cb)],0,0⟩,⟨43,42535295875020828247204870327187275776,[],[(18,.setEnt .internalNl),(19,.cb),(22,.commit),(23,.code)],0,0⟩],[⟨34,8192,[],[],0,0⟩,⟨36,1024,[],[],0,0⟩,⟨37,4096,[],[],0,0⟩,⟨38,8192,[.crAlone],[],0,0⟩,⟨39,4294967808,[],[],0,0⟩,⟨40,115792089237316195423570985008687907853227449369760591451053237616482050886143,[],[(20,.code)],0,0⟩,⟨41,4951760157141521099596496896,[],[],0,0⟩,⟨43,42535295875020828247204870327187275776,[],[(22,.commit),(23,.code)],0,0⟩],[⟨34,8192,[],[],0,0⟩,⟨36,1024,[],[],0,0⟩,⟨37,4096,[],[],0,0⟩,⟨38,8192,[.crAlone],[],0,0⟩,⟨39,4294967808,[],[],0,0⟩,⟨40,115792089237316195423570985008687907853227449369760591451053237616482050886143,[],[(20,.code)],0,0⟩,⟨41,4951760157141521099596496896,[],[],0,0⟩,⟨43,42535295875020828247204870327187275776,[],[(22,.commit),(23,.code)],0,0⟩],[⟨42,115792089237316195423570985008687907853269984665640564039457584007913129626623,[],[(21,.code)],0,0⟩],[⟨34,8192,[],[],0,0⟩,⟨36,1024,[],[],0,0⟩,⟨37,4096,[],[],0,0⟩,⟨38,8192,[.crAlone],[],0,0⟩,⟨39,4294967808,[],[],0,0⟩,⟨40,115792089237316195423570985008687907853227449369760591451053237616482050886143,[],[(20,.code)],0,0⟩,⟨41,4951760157141521099596496896,[],[],0,0⟩,⟨43,42535295875020828247204870327187275776,[],[(22,.commit),(23,.code)],0,0⟩],[],[⟨45,8192,[],[],0,0⟩,⟨47,1024,[],[],0,0⟩,⟨48,4096,[],[],0,0⟩,⟨49,8192,[.crAlone],[],0,0⟩,⟨50,4294967808,[],[],0,0⟩,⟨51,115792089237316195423570985008687907853269984665556384116786178149215694211583,[],[(28,.code)],0,0⟩,⟨52,4951760157141521099596496896,[],[],0,0⟩,⟨54,79228162514264337593543950336,[],[(30,.commit),(31,.code)],0,0⟩],[⟨46,1024,[],[],0,0⟩],[⟨45,8192,[],[(26,.setEnt .internalNl),(27,.cb)],0,0⟩,⟨47,1024,[],[(26,.setEnt .internalNl),(27,.cb)],0,0⟩,⟨48,4096,[],[(26,.setEnt .internalNl),(27,.cb)],0,0⟩,⟨49,8192,[.crAlone],[(26,.setEnt .internalNl),(27,.cb)],0,0⟩,⟨50,4294967808,[],[(26,.setEnt .internalNl),(27,.cb)],0,0⟩,⟨51,115792089237316195423570985008687907853269984665556384116786178149215694211583,[],[(26,.setEnt .internalNl),(27,.cb),(28,.code)],0,0⟩,⟨52,4951760157141521099596496896,[],[(26,.setEnt .internalNl),(27,.cb)],0,0⟩,⟨54,79228162514264337593543950336,[],[(26,.setEnt .internalNl),(27,.cb),(30,.commit),(31,.code)],0,0⟩],[⟨45,8192,[],[(26,.setEnt .internalNl),(27,.cb)],0,0⟩,⟨47,1024,[],[(26,.setEnt .internalNl),(27,.cb)],0,0⟩,⟨48,4096,[],[(26,.setEnt .internalNl),(27,.cb)],0,0⟩,⟨49,8192,[.crAlone],[(26,.setEnt .internalNl),(27,.cb)],0,0⟩,⟨50,4294967808,[],[(26,.setEnt .internalNl),(27,.cb)],0,0⟩,⟨51,115792089237316195423570985008687907853269984665556384116786178149215694211583,[],[(26,.setEnt .internalNl),(27,.cb),(28,.code)],0,0⟩,⟨52,4951760157141521099596496896,[],[(26,.setEnt .internalNl),(27,.cb)],0,0⟩,⟨54,79228162514264337593543950336,[],[(26,.setEnt .internalNl),(27,.cb),(30,.commit),(31,.code)],0,0⟩],[⟨45,8192,[],[(26,.setEnt .internalNl),(27,.cb)],0,0⟩,⟨47,1024,[],[(26,.setEnt .internalNl),(27,.cb)],0,0⟩,⟨48,4096,[],[(26,.setEnt .internalNl),(27,.cb)],0,0⟩,⟨49,8192,[.crAlone],[(26,.setEnt .internalNl),(27,.cb)],0,0⟩,⟨50,4294967808,[],[(26,.setEnt .internalNl),(27,.cb)],0,0⟩,⟨51,115792089237316195423570985008687907853269984665556384116786178149215694211583,[],[(26,.setEnt .internalNl),(27,.cb),(28,.code)],0,0⟩,⟨52,4951760157141521099596496896,[],[(26,.setEnt .internalNl),(27,.cb)],0,0⟩,⟨54,79228162514264337593543950336,[],[(26,.setEnt .internalNl),(27,.cb),(30,.commit),(31,.code)],0,0⟩],[⟨45,8192,[],[(26,.setEnt .internalNl),(27,.cb)],0,0⟩,⟨47,1024,[],[(26,.setEnt .internalNl),(27,.cb)],0,0⟩,⟨48,4096,[],[(26,.setEnt .internalNl),(27,.cb)],0,0⟩,⟨49,8192,[.crAlone],[(26,.setEnt .internalNl),(27,.cb)],0,0⟩,⟨50,4294967808,[],[(26,.setEnt .internalNl),(27,.cb)],0,0⟩,⟨51,115792089237316195423570985008687907853269984665556384116786178149215694211583,[],[(26,.setEnt .internalNl),(27,.cb),(28,.code)],0,0⟩,⟨52,4951760157141521099596496896,[],[(26,.setEnt .internalNl),(27,.cb)],0,0⟩,⟨54,79228162514264337593543950336,[],[(26,.setEnt .internalNl),(27,.cb),(30,.commit),(31,.code)],0,0⟩],[⟨45,8192,[],[],0,0⟩,⟨47,1024,[],[],0,0⟩,⟨48,4096,[],[],0,0⟩,⟨49,8192,[.crAlone],[],0,0⟩,⟨50,4294967808,[],[],0,0⟩,⟨51,115792089237316195423570985008687907853269984665556384116786178149215694211583,[],[(28,.code)],0,0⟩,⟨52,4951760157141521099596496896,[],[],0,0⟩,⟨54,79228162514264337593543950336,[],[(30,.commit),(31,.code)],0,0⟩],[⟨45,8192,[],[],0,0⟩,⟨47,1024,[],[],0,0⟩,⟨48,4096,[],[],0,0⟩,⟨49,8192,[.crAlone],[],0,0⟩,⟨50,4294967808,[],[],0,0⟩,⟨51,115792089237316195423570985008687907853269984665556384116786178149215694211583,[],[(28,.code)],0,0⟩,⟨52,4951760157141521099596496896,[],[],0,0⟩,⟨54,79228162514264337593543950336,[],[(30,.commit),(31,.code)],0,0⟩],[⟨53,115792089237316195423570985008687907853269984665640564039457584007913129626623,[],[(29,.code)],0,0⟩],[⟨45,8192,[],[],0,0⟩,⟨47,1024,[],[],0,0⟩,⟨48,4096,[],[],0,0⟩,⟨49,8192,[.crAlone],[],0,0⟩,⟨50,4294967808,[],[],0,0⟩,⟨51,115792089237316195423570985008687907853269984665556384116786178149215694211583,[],[(28,.code)],0,0⟩,⟨52,4951760157141521099596496896,[],[],0,0⟩,⟨54,79228162514264337593543950336,[],[(30,.commit),(31,.code)],0,0⟩],[],[⟨56,115792089237316195423570985008687907853269984665635612279300442346076044774399,[],[],0,0⟩,⟨57,4951760157141521099596496896,[],[],0,0⟩,⟨59,140737488355328,[],[(32,.code)],0,0⟩],[⟨56,115792089237316195423570985008687907853269984665635612279300442346076044774399,[],[],0,0⟩,⟨57,4951760157141521099596496896,[],[],0,0⟩,⟨59,140737488355328,[],[(32,.code)],0,0⟩],[⟨58,115792089237316195423570985008687907853269984665640564039457584007913129626623,[],[],0,0⟩],[⟨56,115792089237316195423570985008687907853269984665635612279300442346076044774399,[],[],0,0⟩,⟨57,4951760157141521099596496896,[],[],0,0⟩,⟨59,140737488355328,[],[(32,.code)],0,0⟩],[],[⟨61,2014611181111513119869832575737397248,[],[],0,0⟩],[⟨62,10633823968755207061801218131552632832,[],[(33,.enqueue),(34,.code)],0,0⟩],[⟨63,8192,[],[],0,0⟩,⟨65,1024,[],[],0,0⟩,⟨66,4096,[],[],0,0⟩,⟨67,8192,[.crAlone],[],0,0⟩,⟨68,4294967808,[],[],0,0⟩,⟨69,115792089237316195423570985008687907853227449369760591451053237616482050886143,[],[(37,.code)],0,0⟩,⟨70,4951760157141521099596496896,[],[],0,0⟩,⟨72,42535295875020828247204870327187275776,[],[(39,.commit),(40,.code)],0,0⟩],[⟨64,1024,[],[],0,0⟩],[⟨63,8192,[],[(35,.setEnt .internalNl),(36,.cb)],0,0⟩,⟨65,1024,[],[(35,.setEnt .internalNl),(36,.cb)],0,0⟩,⟨66,4096,[],[(35,.setEnt .internalNl),(36,.cb)],0,0⟩,⟨67,8192,[.crAlone],[(35,.setEnt .internalNl),(36,.cb)],0,0⟩,⟨68,4294967808,[],[(35,.setEnt .internalNl),(36,.cb)],0,0⟩,⟨69,115792089237316195423570985008687907853227449369760591451053237616482050886143,[],[(35,.setEnt .internalNl),(36,.cb),(37,.code)],0,0⟩,⟨70,4951760157141521099596496896,[],[(35,.setEnt .internalNl),(36,.cb)],0,0⟩,⟨72,42535295875020828247204870327187275776,[],[(35,.setEnt .internalNl),(36,.cb),(39,.commit),(40,.code)],0,0⟩],[⟨63,8192,[],[(35,.setEnt .internalNl),(36,.cb)],0,0⟩,⟨65,1024,[],[(35,.setEnt .internalNl),(36,.cb)],0,0⟩,⟨66,4096,[],[(35,.setEnt .internalNl),(36,.cb)],0,0⟩,⟨67,8192,[.crAlone],[(35,.setEnt .internalNl),(36,.cb)],0,0⟩,⟨68,4294967808,[],[(35,.setEnt .internalNl),(36,.cb)],0,0⟩,⟨69,115792089237316195423570985008687907853227449369760591451053237616482050886143,[],[(35,.setEnt .internalNl),(36,.cb),(37,.code)],0,0⟩,⟨70,4951760157141521099596496896,[],[(35,.setEnt .internalNl),(36,.cb)],0,0⟩,⟨72,42535295875020828247204870327187275776,[],[(35,.setEnt .internalNl),(36,.cb),(39,.commit),(40,.code)],0,0⟩],[⟨63,8192,[],[(35,.setEnt .internalNl),(36,.cb)],0,0⟩,⟨65,1024,[],[(35,.setEnt .internalNl),(36,.cb)],0,0⟩,⟨66,4096,[],[(35,.setEnt .internalNl),(36,.cb)],0,0⟩,⟨67,8192,[.crAlone],[(35,.setEnt .internalNl),(36,.cb)],0,0⟩,⟨68,4294967808,[],[(35,.setEnt .internalNl),(36,.cb)],0,0⟩,⟨69,115792089237316195423570985008687907853227449369760591451053237616482050886143,[],[(35,.setEnt .internalNl),(36,.cb),(37,.code)],0,0⟩,⟨70,4951760157141521099596496896,[],[(35,.setEnt .internalNl),(36,.cb)],0,0⟩,⟨72,42535295875020828247204870327187275776,[],[(35,.setEnt .internalNl),(36,.cb),(39,.commit),(40,.code)],0,0⟩],[⟨63,8192,[],[(35,.setEnt .internalNl),(36,.cb)],0,0⟩,⟨65,1024,[],[(35,.setEnt .internalNl),(36,.cb)],0,0⟩,⟨66,4096,[],[(35,.setEnt .internalNl),(36,.cb)],0,0⟩,⟨67,8192,[.crAlone],[(35,.setEnt .internalNl),(36,.cb)],0,0⟩,⟨68,4294967808,[],[(35,.setEnt .internalNl),(36,.cb)],0,0⟩,⟨69,115792089237316195423570985008687907853227449369760591451053237616482050886143,[],[(35,.setEnt .internalNl),(36,.cb),(37,.code)],0,0⟩,⟨70,4951760157141521099596496896,[],[(35,.setEnt .internalNl),(36,.cb)],0,0⟩,⟨72,42535295875020828247204870327187275776,[],[(35,.setEnt .internalNl),(36,.cb),(39,.commit),(40,.code)],0,0⟩],[⟨63,8192,[],[],0,0⟩,⟨65,1024,[],[],0,0⟩,⟨66,4096,[],[],0,0⟩,⟨67,8192,[.crAlone],[],0,0⟩,⟨68,4294967808,[],[],0,0⟩,⟨69,115792089237316195423570985008687907853227449369760591451053237616482050886143,[],[(37,.code)],0,0⟩,⟨70,4951760157141521099596496896,[],[],0,0⟩,⟨72,42535295875020828247204870327187275776,[],[(39,.commit),(40,.code)],0,0⟩],[⟨63,8192,[],[],0,0⟩,⟨65,1024,[],[],0,0⟩,⟨66,4096,[],[],0,0⟩,⟨67,8192,[.crAlone],[],0,0⟩,⟨68,4294967808,[],[],0,0⟩,⟨69,115792089237316195423570985008687907853227449369760591451053237616482050886143,[],[(37,.code)],0,0⟩,⟨70,4951760157141521099596496896,[],[],0,0⟩,⟨72,42535295875020828247204870327187275776,[],[(39,.commit),(40,.code)],0,0⟩],[⟨71,115792089237316195423570985008687907853269984665640564039457584007913129626623,[],[(38,.code)],0,0⟩],[⟨63,8192,[],[],0,0⟩,⟨65,1024,[],[],0,0⟩,⟨66,4096,[],[],0,0⟩,⟨67,8192,[.crAlone],[],0,0⟩,⟨68,4294967808,[],[],0,0⟩,⟨69,115792089237316195423570985008687907853227449369760591451053237616482050886143,[],[(37,.code)],0,0⟩,⟨70,4951760157141521099596496896,[],[],0,0⟩,⟨72,42535295875020828247204870327187275776,[],[(39,.commit),(40,.code)],0,0⟩],[],[⟨74,1024,[],[(41,.setEnt .newline)],0,0⟩],[],[],[],[],[]],[some (0,[]),some (1,[]),some (1,[]),none,none,none,none,none,none,none,none,none,none,none,none,none,none,none,none,some (1,[]),none,none,none,none,none,none,none,none,none,none,some (2,[]),none,none,none,none,none,none,none,none,none,none,none,none,some (2,[]),none,none,none,none,none,none,none,none,none,none,some (2,[]),none,none,none,none,some (2,[]),none,none,none,none,none,none,none,none,none,none,none,none,some (2,[]),none,some (3,[]),some (3,[]),some (3,[]),some (3,[]),some (4,[])],[1,8,41,42,43]⟩
theorem crystal_line_nfa_eq : Crystal.crystal_line.nfa = crystal_line_nfa := by decide +kernel
/-- The machine of `Crystal.crystal_line`, with its automaton as a literal. -/
def crystal_line_M : Machine := ⟨crystal_line_nfa, Crystal.crystal_line.ends, Crystal.crystal_line.sw⟩
theorem crystal_line_M_eq : Crystal.crystal_line.machine = crystal_line_M := by
  unfold Scanner.machine crystal_line_M; rw [crystal_line_nfa_eq]
def crystal_line_masks : List Nat := [4294967808,34359738368,2305843009213693952,17179869184,137438953472,79228162514264337593543950336,140737488355328,8192,1024,4096,115792089237316195423570985008687907853269984665640564039457584007908834656767,115792089237316195423570985008687907853269984665640564039457584007913129626623,316912650057057350374175801344,2535301200456458802993406410752,10141204801825835211973625643008,40564819207303340847894502572032,1298074214633706907132624082305024,115792089237316195423570985008687907853269984665640564039457584007908834658815,1267650600228229401496703205376,115792089237316195423570985008687907853269984665635612279300442486792058292735,4951760157141521099596496896,10384593719487506896290251007852544,10633823968755207061801218131552632832,115792089237316195423570985008687907853227449369760591451053237616482050886143,42535295875020828247204870327187275776,115792089237316195423570985008687907853269984665556384116786178149215694211583,115792089237316195423570985008687907853269984665635612279300442346076044774399,2014611181111513119869832575737397248]
def crystal_line_cs : List (Nat × Nat) := [(0,115792089237316195423570985008687907853214789197037673987270271206638032503295),(9,4294967808),(10,1024),(11,2048),(12,4096),(13,8192),(34,17179869184),(35,34359738368),(37,137438953472),(40,10633823968755207061801218131552632832),(41,42535295875020828247204870327187275776),(47,140737488355328),(61,2305843009213693952),(81,10384593719487506896290251007852544),(92,4951760157141521099596496896),(96,79228162514264337593543950336),(98,316912650057057350374175801344),(100,1267650600228229401496703205376),(101,2535301200456458802993406410752),(103,10141204801825835211973625643008),(105,40564819207303340847894502572032),(110,1298074214633706907132624082305024),(114,2014611181111513119869832575737397248)]
theorem crystal_line_masksIn : masksIn crystal_line_nfa crystal_line_masks = true := by decide +kernel
theorem crystal_line_repOk : repOk crystal_line_masks crystal_line_cs = true := by decide +kernel
def crystal_line_rows : List Row := [⟨[],none,[],[⟨256,.other,false,some ⟨0,[.setEnt (.own 3)],some 4,true⟩⟩,⟨256,.ws,false,some ⟨1,[.setEnt (.own 0)],some 0,false⟩⟩,⟨256,.lf,false,some ⟨0,[.setEnt .newline],some 3,true⟩⟩,⟨256,.vt,false,none⟩,⟨256,.ff,false,some ⟨0,[.setEnt .newline],some 3,true⟩⟩,⟨256,.cr,false,some ⟨2,[.setEnt .newline],none,false⟩⟩,⟨256,.cr,true,some ⟨3,[.setEnt .newline],some 3,false⟩⟩,⟨256,.other,false,some ⟨4,[.enqueue,.code,.setEnt (.own 3)],some 4,false⟩⟩,⟨256,.other,false,some ⟨5,[.comment,.setEnt (.own 3)],some 1,false⟩⟩,⟨256,.other,false,some ⟨6,[.setEnt (.own 3)],some 4,false⟩⟩,⟨256,.other,false,some ⟨7,[.setEnt (.own 3)],some 4,false⟩⟩,⟨256,.other,false,some ⟨8,[.setEnt (.own 3)],some 4,false⟩⟩,⟨256,.other,false,some ⟨9,[.enqueue,.code,.setEnt (.own 3)],some 4,false⟩⟩]⟩,⟨[0],some 0,[],[⟨256,.other,false,none⟩,⟨256,.ws,false,some ⟨1,[.setEnt (.own 0)],some 0,false⟩⟩,⟨256,.lf,false,none⟩,⟨256,.vt,false,none⟩,⟨256,.ff,false,none⟩,⟨256,.cr,false,none⟩,⟨256,.cr,true,none⟩]⟩,⟨[73],none,[],[⟨256,.other,false,none⟩,⟨256,.ws,false,none⟩,⟨256,.lf,false,some ⟨0,[.setEnt .newline],some 3,true⟩⟩,⟨256,.vt,false,none⟩,⟨256,.ff,false,none⟩,⟨256,.cr,false,none⟩,⟨256,.cr,true,none⟩]⟩,⟨[73,77],some 3,[],[⟨256,.other,false,none⟩,⟨256,.ws,false,none⟩,⟨256,.lf,false,some ⟨0,[.setEnt .newline],some 3,true⟩⟩,⟨256,.vt,false,none⟩,⟨256,.ff,false,none⟩,⟨256,.cr,false,none⟩,⟨256,.cr,true,none⟩]⟩,⟨[20,78],some 4,[],[⟨256,.other,false,some ⟨10,[.code],none,false⟩⟩,⟨256,.ws,false,some ⟨11,[],none,false⟩⟩,⟨256,.lf,false,some ⟨12,[],none,false⟩⟩,⟨256,.vt,false,some ⟨10,[.code],none,false⟩⟩,⟨256,.ff,false,some ⟨13,[],none,false⟩⟩,⟨256,.cr,false,some ⟨14,[],none,false⟩⟩,⟨256,.cr,true,some ⟨15,[],none,false⟩⟩,⟨256,.other,false,some ⟨0,[.commit,.code],some 2,true⟩⟩,⟨256,.other,false,some ⟨16,[],none,false⟩⟩]⟩,⟨[1,78],some 1,[],[⟨256,.other,false,some ⟨17,[],some 1,false⟩⟩,⟨256,.ws,false,some ⟨17,[],some 1,false⟩⟩,⟨256,.lf,false,none⟩,⟨256,.vt,false,some ⟨17,[],some 1,false⟩⟩,⟨256,.ff,false,none⟩,⟨256,.cr,false,none⟩,⟨256,.cr,true,none⟩]⟩,⟨[31,60,78],some 4,[],[⟨256,.other,false,none⟩,⟨256,.ws,false,none⟩,⟨256,.lf,false,none⟩,⟨256,.vt,false,none⟩,⟨256,.ff,false,none⟩,⟨256,.cr,false,none⟩,⟨256,.cr,true,none⟩,⟨256,.other,false,some ⟨18,[.enqueue,.code],none,false⟩⟩,⟨256,.other,false,some ⟨19,[],none,false⟩⟩,⟨256,.other,false,some ⟨20,[],none,false⟩⟩]⟩,⟨[55,78],some 4,[],[⟨256,.other,false,some ⟨21,[],none,false⟩⟩,⟨256,.ws,false,some ⟨21,[],none,false⟩⟩,⟨256,.lf,false,none⟩,⟨256,.vt,false,some ⟨21,[],none,false⟩⟩,⟨256,.ff,false,none⟩,⟨256,.cr,false,none⟩,⟨256,.cr,true,none⟩,⟨256,.other,false,some ⟨0,[.code],some 2,true⟩⟩,⟨256,.other,false,some ⟨22,[],none,false⟩⟩]⟩,⟨[3,78],some 4,[],[⟨256,.other,false,none⟩,⟨256,.ws,false,none⟩,⟨256,.lf,false,none⟩,⟨256,.vt,false,none⟩,⟨256,.ff,false,none⟩,⟨256,.cr,false,none⟩,⟨256,.cr,true,none⟩,⟨256,.other,false,some ⟨23,[],none,false⟩⟩]⟩,⟨[44,78],some 4,[],[⟨256,.other,false,some ⟨24,[.code],none,false⟩⟩,⟨256,.ws,false,some ⟨25,[],none,false⟩⟩,⟨256,.lf,false,some ⟨26,[],none,false⟩⟩,⟨256,.vt,false,some ⟨24,[.code],none,false⟩⟩,⟨256,.ff,false,some ⟨27,[],none,false⟩⟩,⟨256,.cr,false,some ⟨28,[],none,false⟩⟩,⟨256,.cr,true,some ⟨29,[],none,false⟩⟩,⟨256,.other,false,some ⟨30,[],none,false⟩⟩,⟨256,.other,false,some ⟨0,[.commit,.code],some 2,true⟩⟩]⟩,⟨[27],none,[],[⟨256,.other,false,some ⟨10,[.code],none,false⟩⟩,⟨256,.ws,false,some ⟨11,[],none,false⟩⟩,⟨256,.lf,false,some ⟨12,[],none,false⟩⟩,⟨256,.vt,false,some ⟨10,[.code],none,false⟩⟩,⟨256,.ff,false,some ⟨13,[],none,false⟩⟩,⟨256,.cr,false,some ⟨14,[],none,false⟩⟩,⟨256,.cr,true,some ⟨15,[],none,false⟩⟩,⟨256,.other,false,some ⟨0,[.commit,.code],some 2,true⟩⟩,⟨256,.other,false,some ⟨16,[],none,false⟩⟩]⟩,⟨[26],none,[],[⟨256,.other,false,some ⟨10,[.code],none,false⟩⟩,⟨256,.ws,false,some ⟨11,[],none,false⟩⟩,⟨256,.lf,false,some ⟨12,[],none,false⟩⟩,⟨256,.vt,false,some ⟨10,[.code],none,false⟩⟩,⟨256,.ff,false,some ⟨13,[],none,false⟩⟩,⟨256,.cr,false,some ⟨14,[],none,false⟩⟩,⟨256,.cr,true,some ⟨15,[],none,false⟩⟩,⟨256,.other,false,some ⟨0,[.commit,.code],some 2,true⟩⟩,⟨256,.other,false,some ⟨16,[],none,false⟩⟩]⟩,⟨[23],none,[],[⟨256,.other,false,some ⟨10,[.setEnt .internalNl,.cb,.code],none,false⟩⟩,⟨256,.ws,false,some ⟨11,[.setEnt .internalNl,.cb],none,false⟩⟩,⟨256,.lf,false,some ⟨12,[.setEnt .internalNl,.cb],none,false⟩⟩,⟨256,.vt,false,some ⟨10,[.setEnt .internalNl,.cb,.code],none,false⟩⟩,⟨256,.ff,false,some ⟨13,[.setEnt .internalNl,.cb],none,false⟩⟩,⟨256,.cr,false,some ⟨14,[.setEnt .internalNl,.cb],none,false⟩⟩,⟨256,.cr,true,some ⟨15,[.setEnt .internalNl,.cb],none,false⟩⟩,⟨256,.other,false,some ⟨0,[.setEnt .internalNl,.cb,.commit,.code],some 2,true⟩⟩,⟨256,.other,false,some ⟨16,[.setEnt .internalNl,.cb],none,false⟩⟩]⟩,⟨[24],none,[],[⟨256,.other,false,some ⟨10,[.setEnt .internalNl,.cb,.code],none,false⟩⟩,⟨256,.ws,false,some ⟨11,[.setEnt .internalNl,.cb],none,false⟩⟩,⟨256,.lf,false,some ⟨12,[.setEnt .internalNl,.cb],none,false⟩⟩,⟨256,.vt,false,some ⟨10,[.setEnt .internalNl,.cb,.code],none,false⟩⟩,⟨256,.ff,false,some ⟨13,[.setEnt .internalNl,.cb],none,false⟩⟩,⟨256,.cr,false,some ⟨14,[.setEnt .internalNl,.cb],none,false⟩⟩,⟨256,.cr,true,some ⟨15,[.setEnt .internalNl,.cb],none,false⟩⟩,⟨256,.other,false,some ⟨0,[.setEnt .internalNl,.cb,.commit,.code],some 2,true⟩⟩,⟨256,.other,false,some ⟨16,[.setEnt .internalNl,.cb],none,false⟩⟩]⟩,⟨[21],none,[],[⟨256,.other,false,none⟩,⟨256,.ws,false,none⟩,⟨256,.lf,false,some ⟨31,[],none,false⟩⟩,⟨256,.vt,false,none⟩,⟨256,.ff,false,none⟩,⟨256,.cr,false,none⟩,⟨256,.cr,true,none⟩]⟩,⟨[21,25],none,[],[⟨256,.other,false,some ⟨10,[.setEnt .internalNl,.cb,.code],none,false⟩⟩,⟨256,.ws,false,some ⟨11,[.setEnt .internalNl,.cb],none,false⟩⟩,⟨256,.lf,false,some ⟨32,[.setEnt .internalNl,.cb],none,false⟩⟩,⟨256,.vt,false,some ⟨10,[.setEnt .internalNl,.cb,.code],none,false⟩⟩,⟨256,.ff,false,some ⟨13,[.setEnt .internalNl,.cb],none,false⟩⟩,⟨256,.cr,false,some ⟨14,[.setEnt .internalNl,.cb],none,false⟩⟩,⟨256,.cr,true,some ⟨15,[.setEnt .internalNl,.cb],none,false⟩⟩,⟨256,.other,false,some ⟨0,[.setEnt .internalNl,.cb,.commit,.code],some 2,true⟩⟩,⟨256,.other,false,some ⟨16,[.setEnt .internalNl,.cb],none,false⟩⟩]⟩,⟨[28],none,[],[⟨256,.other,false,some ⟨33,[.code],none,false⟩⟩,⟨256,.ws,false,some ⟨33,[.code],none,false⟩⟩,⟨256,.lf,false,none⟩,⟨256,.vt,false,some ⟨33,[.code],none,false⟩⟩,⟨256,.ff,false,none⟩,⟨256,.cr,false,none⟩,⟨256,.cr,true,none⟩]⟩,⟨[2],some 1,[],[⟨256,.other,false,some ⟨17,[],some 1,false⟩⟩,⟨256,.ws,false,some ⟨17,[],some 1,false⟩⟩,⟨256,.lf,false,none⟩,⟨256,.vt,false,some ⟨17,[],some 1,false⟩⟩,⟨256,.ff,false,none⟩,⟨256,.cr,false,none⟩,⟨256,.cr,true,none⟩]⟩,⟨[33],none,[],[⟨256,.other,false,some ⟨34,[.code],none,false⟩⟩,⟨256,.ws,false,some ⟨35,[],none,false⟩⟩,⟨256,.lf,false,some ⟨36,[],none,false⟩⟩,⟨256,.vt,false,some ⟨34,[.code],none,false⟩⟩,⟨256,.ff,false,some ⟨37,[],none,false⟩⟩,⟨256,.cr,false,some ⟨38,[],none,false⟩⟩,⟨256,.cr,true,some ⟨39,[],none,false⟩⟩,⟨256,.other,false,some ⟨0,[.commit,.code],some 2,true⟩⟩,⟨256,.other,false,some ⟨40,[],none,false⟩⟩]⟩,⟨[32],none,[],[⟨256,.other,false,none⟩,⟨256,.ws,false,none⟩,⟨256,.lf,false,none⟩,⟨256,.vt,false,none⟩,⟨256,.ff,false,none⟩,⟨256,.cr,false,none⟩,⟨256,.cr,true,none⟩,⟨256,.other,false,some ⟨18,[.enqueue,.code],none,false⟩⟩]⟩,⟨[61],none,[],[⟨256,.other,false,none⟩,⟨256,.ws,false,none⟩,⟨256,.lf,false,none⟩,⟨256,.vt,false,none⟩,⟨256,.ff,false,none⟩,⟨256,.cr,false,none⟩,⟨256,.cr,true,none⟩,⟨256,.other,false,some ⟨41,[.enqueue,.code],none,false⟩⟩]⟩,⟨[56],none,[],[⟨256,.other,false,some ⟨21,[],none,false⟩⟩,⟨256,.ws,false,some ⟨21,[],none,false⟩⟩,⟨256,.lf,false,none⟩,⟨256,.vt,false,some ⟨21,[],none,false⟩⟩,⟨256,.ff,false,none⟩,⟨256,.cr,false,none⟩,⟨256,.cr,true,none⟩,⟨256,.other,false,some ⟨0,[.code],some 2,true⟩⟩,⟨256,.other,false,some ⟨22,[],none,false⟩⟩]⟩,⟨[57],none,[],[⟨256,.other,false,some ⟨42,[],none,false⟩⟩,⟨256,.ws,false,some ⟨42,[],none,false⟩⟩,⟨256,.lf,false,none⟩,⟨256,.vt,false,some ⟨42,[],none,false⟩⟩,⟨256,.ff,false,none⟩,⟨256,.cr,false,none⟩,⟨256,.cr,true,none⟩]⟩,⟨[4],none,[],[⟨256,.other,false,none⟩,⟨256,.ws,false,none⟩,⟨256,.lf,false,none⟩,⟨256,.vt,false,none⟩,⟨256,.ff,false,none⟩,⟨256,.cr,false,none⟩,⟨256,.cr,true,none⟩,⟨256,.other,false,some ⟨43,[],none,false⟩⟩]⟩,⟨[51],none,[],[⟨256,.other,false,some ⟨24,[.code],none,false⟩⟩,⟨256,.ws,false,some ⟨25,[],none,false⟩⟩,⟨256,.lf,false,some ⟨26,[],none,false⟩⟩,⟨256,.vt,false,some ⟨24,[.code],none,false⟩⟩,⟨256,.ff,false,some ⟨27,[],none,false⟩⟩,⟨256,.cr,false,some ⟨28,[],none,false⟩⟩,⟨256,.cr,true,some ⟨29,[],none,false⟩⟩,⟨256,.other,false,some ⟨30,[],none,false⟩⟩,⟨256,.other,false,some ⟨0,[.commit,.code],some 2,true⟩⟩]⟩,⟨[50],none,[],[⟨256,.other,false,some ⟨24,[.code],none,false⟩⟩,⟨256,.ws,false,some ⟨25,[],none,false⟩⟩,⟨256,.lf,false,some ⟨26,[],none,false⟩⟩,⟨256,.vt,false,some ⟨24,[.code],none,false⟩⟩,⟨256,.ff,false,some ⟨27,[],none,false⟩⟩,⟨256,.cr,false,some ⟨28,[],none,false⟩⟩,⟨256,.cr,true,some ⟨29,[],none,false⟩⟩,⟨256,.other,false,some ⟨30,[],none,false⟩⟩,⟨256,.other,false,some ⟨0,[.commit,.code],some 2,true⟩⟩]⟩,⟨[47],none,[],[⟨256,.other,false,some ⟨24,[.setEnt .internalNl,.cb,.code],none,false⟩⟩,⟨256,.ws,false,some ⟨25,[.setEnt .internalNl,.cb],none,false⟩⟩,⟨256,.lf,false,some ⟨26,[.setEnt .internalNl,.cb],none,false⟩⟩,⟨256,.vt,false,some ⟨24,[.setEnt .internalNl,.cb,.code],none,false⟩⟩,⟨256,.ff,false,some ⟨27,[.setEnt .internalNl,.cb],none,false⟩⟩,⟨256,.cr,false,some ⟨28,[.setEnt .internalNl,.cb],none,false⟩⟩,⟨256,.cr,true,some ⟨29,[.setEnt .internalNl,.cb],none,false⟩⟩,⟨256,.other,false,some ⟨30,[.setEnt .internalNl,.cb],none,false⟩⟩,⟨256,.other,false,some ⟨0,[.setEnt .internalNl,.cb,.commit,.code],some 2,true⟩⟩]⟩,⟨[48],none,[],[⟨256,.other,false,some ⟨24,[.setEnt .internalNl,.cb,.code],none,false⟩⟩,⟨256,.ws,false,some ⟨25,[.setEnt .internalNl,.cb],none,false⟩⟩,⟨256,.lf,false,some ⟨26,[.setEnt .internalNl,.cb],none,false⟩⟩,⟨256,.vt,false,some ⟨24,[.setEnt .internalNl,.cb,.code],none,false⟩⟩,⟨256,.ff,false,some ⟨27,[.setEnt .internalNl,.cb],none,false⟩⟩,⟨256,.cr,false,some ⟨28,[.setEnt .internalNl,.cb],none,false⟩⟩,⟨256,.cr,true,some ⟨29,[.setEnt .internalNl,.cb],none,false⟩⟩,⟨256,.other,false,some ⟨30,[.setEnt .internalNl,.cb],none,false⟩⟩,⟨256,.other,false,some ⟨0,[.setEnt .internalNl,.cb,.commit,.code],some 2,true⟩⟩]⟩,⟨[45],none,[],[⟨256,.other,false,none⟩,⟨256,.ws,false,none⟩,⟨256,.lf,false,some ⟨44,[],none,false⟩⟩,⟨256,.vt,false,none⟩,⟨256,.ff,false,none⟩,⟨256,.cr,false,none⟩,⟨256,.cr,true,none⟩]⟩,⟨[45,49],none,[],[⟨256,.other,false,some ⟨24,[.setEnt .internalNl,.cb,.code],none,false⟩⟩,⟨256,.ws,false,some ⟨25,[.setEnt .internalNl,.cb],none,false⟩⟩,⟨256,.lf,false,some ⟨45,[.setEnt .internalNl,.cb],none,false⟩⟩,⟨256,.vt,false,some ⟨24,[.setEnt .internalNl,.cb,.code],none,false⟩⟩,⟨256,.ff,false,some ⟨27,[.setEnt .internalNl,.cb],none,false⟩⟩,⟨256,.cr,false,some ⟨28,[.setEnt .internalNl,.cb],none,false⟩⟩,⟨256,.cr,true,some ⟨29,[.setEnt .internalNl,.cb],none,false⟩⟩,⟨256,.other,false,some ⟨30,[.setEnt .internalNl,.cb],none,false⟩⟩,⟨256,.other,false,some ⟨0,[.setEnt .internalNl,.cb,.commit,.code],some 2,true⟩⟩]⟩,⟨[52],none,[],[⟨256,.other,false,some ⟨46,[.code],none,false⟩⟩,⟨256,.ws,false,some ⟨46,[.code],none,false⟩⟩,⟨256,.lf,false,none⟩,⟨256,.vt,false,some ⟨46,[.code],none,false⟩⟩,⟨256,.ff,false,none⟩,⟨256,.cr,false,none⟩,⟨256,.cr,true,none⟩]⟩,⟨[22],none,[],[⟨256,.other,false,some ⟨10,[.setEnt .internalNl,.cb,.code],none,false⟩⟩,⟨256,.ws,false,some ⟨11,[.setEnt .internalNl,.cb],none,false⟩⟩,⟨256,.lf,false,some ⟨12,[.setEnt .internalNl,.cb],none,false⟩⟩,⟨256,.vt,false,some ⟨10,[.setEnt .internalNl,.cb,.code],none,false⟩⟩,⟨256,.ff,false,some ⟨13,[.setEnt .internalNl,.cb],none,false⟩⟩,⟨256,.cr,false,some ⟨14,[.setEnt .internalNl,.cb],none,false⟩⟩,⟨256,.cr,true,some ⟨15,[.setEnt .internalNl,.cb],none,false⟩⟩,⟨256,.other,false,some ⟨0,[.setEnt .internalNl,.cb,.commit,.code],some 2,true⟩⟩,⟨256,.other,false,some ⟨16,[.setEnt .internalNl,.cb],none,false⟩⟩]⟩,⟨[22,23],none,[],[⟨256,.other,false,some ⟨10,[.setEnt .internalNl,.cb,.code],none,false⟩⟩,⟨256,.ws,false,some ⟨11,[.setEnt .internalNl,.cb],none,false⟩⟩,⟨256,.lf,false,some ⟨12,[.setEnt .internalNl,.cb],none,false⟩⟩,⟨256,.vt,false,some ⟨10,[.setEnt .internalNl,.cb,.code],none,false⟩⟩,⟨256,.ff,false,some ⟨13,[.setEnt .internalNl,.cb],none,false⟩⟩,⟨256,.cr,false,some ⟨14,[.setEnt .internalNl,.cb],none,false⟩⟩,⟨256,.cr,true,some ⟨15,[.setEnt .internalNl,.cb],none,false⟩⟩,⟨256,.other,false,some ⟨0,[.setEnt .internalNl,.cb,.commit,.code],some 2,true⟩⟩,⟨256,.other,false,some ⟨16,[.setEnt .internalNl,.cb],none,false⟩⟩]⟩,⟨[29],none,[],[⟨256,.other,false,some ⟨10,[.code],none,false⟩⟩,⟨256,.ws,false,some ⟨11,[],none,false⟩⟩,⟨256,.lf,false,some ⟨12,[],none,false⟩⟩,⟨256,.vt,false,some ⟨10,[.code],none,false⟩⟩,⟨256,.ff,false,some ⟨13,[],none,false⟩⟩,⟨256,.cr,false,some ⟨14,[],none,false⟩⟩,⟨256,.cr,true,some ⟨15,[],none,false⟩⟩,⟨256,.other,false,some ⟨0,[.commit,.code],some 2,true⟩⟩,⟨256,.other,false,some ⟨16,[],none,false⟩⟩]⟩,⟨[40],none,[],[⟨256,.other,false,some ⟨34,[.code],none,false⟩⟩,⟨256,.ws,false,some ⟨35,[],none,false⟩⟩,⟨256,.lf,false,some ⟨36,[],none,false⟩⟩,⟨256,.vt,false,some ⟨34,[.code],none,false⟩⟩,⟨256,.ff,false,some ⟨37,[],none,false⟩⟩,⟨256,.cr,false,some ⟨38,[],none,false⟩⟩,⟨256,.cr,true,some ⟨39,[],none,false⟩⟩,⟨256,.other,false,some ⟨0,[.commit,.code],some 2,true⟩⟩,⟨256,.other,false,some ⟨40,[],none,false⟩⟩]⟩,⟨[39],none,[],[⟨256,.other,false,some ⟨34,[.code],none,false⟩⟩,⟨256,.ws,false,some ⟨35,[],none,false⟩⟩,⟨256,.lf,false,some ⟨36,[],none,false⟩⟩,⟨256,.vt,false,some ⟨34,[.code],none,false⟩⟩,⟨256,.ff,false,some ⟨37,[],none,false⟩⟩,⟨256,.cr,false,some ⟨38,[],none,false⟩⟩,⟨256,.cr,true,some ⟨39,[],none,false⟩⟩,⟨256,.other,false,some ⟨0,[.commit,.code],some 2,true⟩⟩,⟨256,.other,false,some ⟨40,[],none,false⟩⟩]⟩,⟨[36],none,[],[⟨256,.other,false,some ⟨34,[.setEnt .internalNl,.cb,.code],none,false⟩⟩,⟨256,.ws,false,some ⟨35,[.setEnt .internalNl,.cb],none,false⟩⟩,⟨256,.lf,false,some ⟨36,[.setEnt .internalNl,.cb],none,false⟩⟩,⟨256,.vt,false,some ⟨34,[.setEnt .internalNl,.cb,.code],none,false⟩⟩,⟨256,.ff,false,some ⟨37,[.setEnt .internalNl,.cb],none,false⟩⟩,⟨256,.cr,false,some ⟨38,[.setEnt .internalNl,.cb],none,false⟩⟩,⟨256,.cr,true,some ⟨39,[.setEnt .internalNl,.cb],none,false⟩⟩,⟨256,.other,false,some ⟨0,[.setEnt .internalNl,.cb,.commit,.code],some 2,true⟩⟩,⟨256,.other,false,some ⟨40,[.setEnt .internalNl,.cb],none,false⟩⟩]⟩,⟨[37],none,[],[⟨256,.other,false,some ⟨34,[.setEnt .internalNl,.cb,.code],none,false⟩⟩,⟨256,.ws,false,some ⟨35,[.setEnt .internalNl,.cb],none,false⟩⟩,⟨256,.lf,false,some ⟨36,[.setEnt .internalNl,.cb],none,false⟩⟩,⟨256,.vt,false,some ⟨34,[.setEnt .internalNl,.cb,.code],none,false⟩⟩,⟨256,.ff,false,some ⟨37,[.setEnt .internalNl,.cb],none,false⟩⟩,⟨256,.cr,false,some ⟨38,[.setEnt .internalNl,.cb],none,false⟩⟩,⟨256,.cr,true,some ⟨39,[.setEnt .internalNl,.cb],none,false⟩⟩,⟨256,.other,false,some ⟨0,[.setEnt .internalNl,.cb,.commit,.code],some 2,true⟩⟩,⟨256,.other,false,some ⟨40,[.setEnt .internalNl,.cb],none,false⟩⟩]⟩,⟨[34],none,[],[⟨256,.other,false,none⟩,⟨256,.ws,false,none⟩,⟨256,.lf,false,some ⟨47,[],none,false⟩⟩,⟨256,.vt,false,none⟩,⟨256,.ff,false,none⟩,⟨256,.cr,false,none⟩,⟨256,.cr,true,none⟩]⟩,⟨[34,38],none,[],[⟨256,.other,false,some ⟨34,[.setEnt .internalNl,.cb,.code],none,false⟩⟩,⟨256,.ws,false,some ⟨35,[.setEnt .internalNl,.cb],none,false⟩⟩,⟨256,.lf,false,some ⟨48,[.setEnt .internalNl,.cb],none,false⟩⟩,⟨256,.vt,false,some ⟨34,[.setEnt .internalNl,.cb,.code],none,false⟩⟩,⟨256,.ff,false,some ⟨37,[.setEnt .internalNl,.cb],none,false⟩⟩,⟨256,.cr,false,some ⟨38,[.setEnt .internalNl,.cb],none,false⟩⟩,⟨256,.cr,true,some ⟨39,[.setEnt .internalNl,.cb],none,false⟩⟩,⟨256,.other,false,some ⟨0,[.setEnt .internalNl,.cb,.commit,.code],some 2,true⟩⟩,⟨256,.other,false,some ⟨40,[.setEnt .internalNl,.cb],none,false⟩⟩]⟩,⟨[41],none,[],[⟨256,.other,false,some ⟨49,[.code],none,false⟩⟩,⟨256,.ws,false,some ⟨49,[.code],none,false⟩⟩,⟨256,.lf,false,none⟩,⟨256,.vt,false,some ⟨49,[.code],none,false⟩⟩,⟨256,.ff,false,none⟩,⟨256,.cr,false,none⟩,⟨256,.cr,true,none⟩]⟩,⟨[62],none,[],[⟨256,.other,false,some ⟨50,[.code],none,false⟩⟩,⟨256,.ws,false,some ⟨51,[],none,false⟩⟩,⟨256,.lf,false,some ⟨52,[],none,false⟩⟩,⟨256,.vt,false,some ⟨50,[.code],none,false⟩⟩,⟨256,.ff,false,some ⟨53,[],none,false⟩⟩,⟨256,.cr,false,some ⟨54,[],none,false⟩⟩,⟨256,.cr,true,some ⟨55,[],none,false⟩⟩,⟨256,.other,false,some ⟨0,[.commit,.code],some 2,true⟩⟩,⟨256,.other,false,some ⟨56,[],none,false⟩⟩]⟩,⟨[58],none,[],[⟨256,.other,false,some ⟨21,[],none,false⟩⟩,⟨256,.ws,false,some ⟨21,[],none,false⟩⟩,⟨256,.lf,false,none⟩,⟨256,.vt,false,some ⟨21,[],none,false⟩⟩,⟨256,.ff,false,none⟩,⟨256,.cr,false,none⟩,⟨256,.cr,true,none⟩,⟨256,.other,false,some ⟨0,[.code],some 2,true⟩⟩,⟨256,.other,false,some ⟨22,[],none,false⟩⟩]⟩,⟨[5],none,[],[⟨256,.other,false,none⟩,⟨256,.ws,false,none⟩,⟨256,.lf,false,none⟩,⟨256,.vt,false,none⟩,⟨256,.ff,false,none⟩,⟨256,.cr,false,none⟩,⟨256,.cr,true,none⟩,⟨256,.other,false,some ⟨57,[],none,false⟩⟩]⟩,⟨[46],none,[],[⟨256,.other,false,some ⟨24,[.setEnt .internalNl,.cb,.code],none,false⟩⟩,⟨256,.ws,false,some ⟨25,[.setEnt .internalNl,.cb],none,false⟩⟩,⟨256,.lf,false,some ⟨26,[.setEnt .internalNl,.cb],none,false⟩⟩,⟨256,.vt,false,some ⟨24,[.setEnt .internalNl,.cb,.code],none,false⟩⟩,⟨256,.ff,false,some ⟨27,[.setEnt .internalNl,.cb],none,false⟩⟩,⟨256,.cr,false,some ⟨28,[.setEnt .internalNl,.cb],none,false⟩⟩,⟨256,.cr,true,some ⟨29,[.setEnt .internalNl,.cb],none,false⟩⟩,⟨256,.other,false,some ⟨30,[.setEnt .internalNl,.cb],none,false⟩⟩,⟨256,.other,false,some ⟨0,[.setEnt .internalNl,.cb,.commit,.code],some 2,true⟩⟩]⟩,⟨[46,47],none,[],[⟨256,.other,false,some ⟨24,[.setEnt .internalNl,.cb,.code],none,false⟩⟩,⟨256,.ws,false,some ⟨25,[.setEnt .internalNl,.cb],none,false⟩⟩,⟨256,.lf,false,some ⟨26,[.setEnt .internalNl,.cb],none,false⟩⟩,⟨256,.vt,false,some ⟨24,[.setEnt .internalNl,.cb,.code],none,false⟩⟩,⟨256,.ff,false,some ⟨27,[.setEnt .internalNl,.cb],none,false⟩⟩,⟨256,.cr,false,some ⟨28,[.setEnt .internalNl,.cb],none,false⟩⟩,⟨256,.cr,true,some ⟨29,[.setEnt .internalNl,.cb],none,false⟩⟩,⟨256,.other,false,some ⟨30,[.setEnt .internalNl,.cb],none,false⟩⟩,⟨256,.other,false,some ⟨0,[.setEnt .internalNl,.cb,.commit,.code],some 2,true⟩⟩]⟩,⟨[53],none,[],[⟨256,.other,false,some ⟨24,[.code],none,false⟩⟩,⟨256,.ws,false,some ⟨25,[],none,false⟩⟩,⟨256,.lf,false,some ⟨26,[],none,false⟩⟩,⟨256,.vt,false,some ⟨24,[.code],none,false⟩⟩,⟨256,.ff,false,some ⟨27,[],none,false⟩⟩,⟨256,.cr,false,some ⟨28,[],none,false⟩⟩,⟨256,.cr,true,some ⟨29,[],none,false⟩⟩,⟨256,.other,false,some ⟨30,[],none,false⟩⟩,⟨256,.other,false,some ⟨0,[.commit,.code],some 2,true⟩⟩]⟩,⟨[35],none,[],[⟨256,.other,false,some ⟨34,[.setEnt .internalNl,.cb,.code],none,false⟩⟩,⟨256,.ws,false,some ⟨35,[.setEnt .internalNl,.cb],none,false⟩⟩,⟨256,.lf,false,some ⟨36,[.setEnt .internalNl,.cb],none,false⟩⟩,⟨256,.vt,false,some ⟨34,[.setEnt .internalNl,.cb,.code],none,false⟩⟩,⟨256,.ff,false,some ⟨37,[.setEnt .internalNl,.cb],none,false⟩⟩,⟨256,.cr,false,some ⟨38,[.setEnt .internalNl,.cb],none,false⟩⟩,⟨256,.cr,true,some ⟨39,[.setEnt .internalNl,.cb],none,false⟩⟩,⟨256,.other,false,some ⟨0,[.setEnt .internalNl,.cb,.commit,.code],some 2,true⟩⟩,⟨256,.other,false,some ⟨40,[.setEnt .internalNl,.cb],none,false⟩⟩]⟩,⟨[35,36],none,[],[⟨256,.other,false,some ⟨34,[.setEnt .internalNl,.cb,.code],none,false⟩⟩,⟨256,.ws,false,some ⟨35,[.setEnt .internalNl,.cb],none,false⟩⟩,⟨256,.lf,false,some ⟨36,[.setEnt .internalNl,.cb],none,false⟩⟩,⟨256,.vt,false,some ⟨34,[.setEnt .internalNl,.cb,.code],none,false⟩⟩,⟨256,.ff,false,some ⟨37,[.setEnt .internalNl,.cb],none,false⟩⟩,⟨256,.cr,false,some ⟨38,[.setEnt .internalNl,.cb],none,false⟩⟩,⟨256,.cr,true,some ⟨39,[.setEnt .internalNl,.cb],none,false⟩⟩,⟨256,.other,false,some ⟨0,[.setEnt .internalNl,.cb,.commit,.code],some 2,true⟩⟩,⟨256,.other,false,some ⟨40,[.setEnt .internalNl,.cb],none,false⟩⟩]⟩,⟨[42],none,[],[⟨256,.other,false,some ⟨34,[.code],none,false⟩⟩,⟨256,.ws,false,some ⟨35,[],none,false⟩⟩,⟨256,.lf,false,some ⟨36,[],none,false⟩⟩,⟨256,.vt,false,some ⟨34,[.code],none,false⟩⟩,⟨256,.ff,false,some ⟨37,[],none,false⟩⟩,⟨256,.cr,false,some ⟨38,[],none,false⟩⟩,⟨256,.cr,true,some ⟨39,[],none,false⟩⟩,⟨256,.other,false,some ⟨0,[.commit,.code],some 2,true⟩⟩,⟨256,.other,false,some ⟨40,[],none,false⟩⟩]⟩,⟨[69],none,[],[⟨256,.other,false,some ⟨50,[.code],none,false⟩⟩,⟨256,.ws,false,some ⟨51,[],none,false⟩⟩,⟨256,.lf,false,some ⟨52,[],none,false⟩⟩,⟨256,.vt,false,some ⟨50,[.code],none,false⟩⟩,⟨256,.ff,false,some ⟨53,[],none,false⟩⟩,⟨256,.cr,false,some ⟨54,[],none,false⟩⟩,⟨256,.cr,true,some ⟨55,[],none,false⟩⟩,⟨256,.other,false,some ⟨0,[.commit,.code],some 2,true⟩⟩,⟨256,.other,false,some ⟨56,[],none,false⟩⟩]⟩,⟨[68],none,[],[⟨256,.other,false,some ⟨50,[.code],none,false⟩⟩,⟨256,.ws,false,some ⟨51,[],none,false⟩⟩,⟨256,.lf,false,some ⟨52,[],none,false⟩⟩,⟨256,.vt,false,some ⟨50,[.code],none,false⟩⟩,⟨256,.ff,false,some ⟨53,[],none,false⟩⟩,⟨256,.cr,false,some ⟨54,[],none,false⟩⟩,⟨256,.cr,true,some ⟨55,[],none,false⟩⟩,⟨256,.other,false,some ⟨0,[.commit,.code],some 2,true⟩⟩,⟨256,.other,false,some ⟨56,[],none,false⟩⟩]⟩,⟨[65],none,[],[⟨256,.other,false,some ⟨50,[.setEnt .internalNl,.cb,.code],none,false⟩⟩,⟨256,.ws,false,some ⟨51,[.setEnt .internalNl,.cb],none,false⟩⟩,⟨256,.lf,false,some ⟨52,[.setEnt .internalNl,.cb],none,false⟩⟩,⟨256,.vt,false,some ⟨50,[.setEnt .internalNl,.cb,.code],none,false⟩⟩,⟨256,.ff,false,some ⟨53,[.setEnt .internalNl,.cb],none,false⟩⟩,⟨256,.cr,false,some ⟨54,[.setEnt .internalNl,.cb],none,false⟩⟩,⟨256,.cr,true,some ⟨55,[.setEnt .internalNl,.cb],none,false⟩⟩,⟨256,.other,false,some ⟨0,[.setEnt .internalNl,.cb,.commit,.code],some 2,true⟩⟩,⟨256,.other,false,some ⟨56,[.setEnt .internalNl,.cb],none,false⟩⟩]⟩,⟨[66],none,[],[⟨256,.other,false,some ⟨50,[.setEnt .internalNl,.cb,.code],none,false⟩⟩,⟨256,.ws,false,some ⟨51,[.setEnt .internalNl,.cb],none,false⟩⟩,⟨256,.lf,false,some ⟨52,[.setEnt .internalNl,.cb],none,false⟩⟩,⟨256,.vt,false,some ⟨50,[.setEnt .internalNl,.cb,.code],none,false⟩⟩,⟨256,.ff,false,some ⟨53,[.setEnt .internalNl,.cb],none,false⟩⟩,⟨256,.cr,false,some ⟨54,[.setEnt .internalNl,.cb],none,false⟩⟩,⟨256,.cr,true,some ⟨55,[.setEnt .internalNl,.cb],none,false⟩⟩,⟨256,.other,false,some ⟨0,[.setEnt .internalNl,.cb,.commit,.code],some 2,true⟩⟩,⟨256,.other,false,some ⟨56,[.setEnt .internalNl,.cb],none,false⟩⟩]⟩,⟨[63],none,[],[⟨256,.other,false,none⟩,⟨256,.ws,false,none⟩,⟨256,.lf,false,some ⟨58,[],none,false⟩⟩,⟨256,.vt,false,none⟩,⟨256,.ff,false,none⟩,⟨256,.cr,false,none⟩,⟨256,.cr,true,none⟩]⟩,⟨[63,67],none,[],[⟨256,.other,false,some ⟨50,[.setEnt .internalNl,.cb,.code],none,false⟩⟩,⟨256,.ws,false,some ⟨51,[.setEnt .internalNl,.cb],none,false⟩⟩,⟨256,.lf,false,some ⟨59,[.setEnt .internalNl,.cb],none,false⟩⟩,⟨256,.vt,false,some ⟨50,[.setEnt .internalNl,.cb,.code],none,false⟩⟩,⟨256,.ff,false,some ⟨53,[.setEnt .internalNl,.cb],none,false⟩⟩,⟨256,.cr,false,some ⟨54,[.setEnt .internalNl,.cb],none,false⟩⟩,⟨256,.cr,true,some ⟨55,[.setEnt .internalNl,.cb],none,false⟩⟩,⟨256,.other,false,some ⟨0,[.setEnt .internalNl,.cb,.commit,.code],some 2,true⟩⟩,⟨256,.other,false,some ⟨56,[.setEnt .internalNl,.cb],none,false⟩⟩]⟩,⟨[70],none,[],[⟨256,.other,false,some ⟨60,[.code],none,false⟩⟩,⟨256,.ws,false,some ⟨60,[.code],none,false⟩⟩,⟨256,.lf,false,none⟩,⟨256,.vt,false,some ⟨60,[.code],none,false⟩⟩,⟨256,.ff,false,none⟩,⟨256,.cr,false,none⟩,⟨256,.cr,true,none⟩]⟩,⟨[6],none,[],[⟨256,.other,false,none⟩,⟨256,.ws,false,none⟩,⟨256,.lf,false,none⟩,⟨256,.vt,false,none⟩,⟨256,.ff,false,none⟩,⟨256,.cr,false,none⟩,⟨256,.cr,true,none⟩,⟨256,.other,false,some ⟨61,[],none,false⟩⟩]⟩,⟨[64],none,[],[⟨256,.other,false,some ⟨50,[.setEnt .internalNl,.cb,.code],none,false⟩⟩,⟨256,.ws,false,some ⟨51,[.setEnt .internalNl,.cb],none,false⟩⟩,⟨256,.lf,false,some ⟨52,[.setEnt .internalNl,.cb],none,false⟩⟩,⟨256,.vt,false,some ⟨50,[.setEnt .internalNl,.cb,.code],none,false⟩⟩,⟨256,.ff,false,some ⟨53,[.setEnt .internalNl,.cb],none,false⟩⟩,⟨256,.cr,false,some ⟨54,[.setEnt .internalNl,.cb],none,false⟩⟩,⟨256,.cr,true,some ⟨55,[.setEnt .internalNl,.cb],none,false⟩⟩,⟨256,.other,false,some ⟨0,[.setEnt .internalNl,.cb,.commit,.code],some 2,true⟩⟩,⟨256,.other,false,some ⟨56,[.setEnt .internalNl,.cb],none,false⟩⟩]⟩,⟨[64,65],none,[],[⟨256,.other,false,some ⟨50,[.setEnt .internalNl,.cb,.code],none,false⟩⟩,⟨256,.ws,false,some ⟨51,[.setEnt .internalNl,.cb],none,false⟩⟩,⟨256,.lf,false,some ⟨52,[.setEnt .internalNl,.cb],none,false⟩⟩,⟨256,.vt,false,some ⟨50,[.setEnt .internalNl,.cb,.code],none,false⟩⟩,⟨256,.ff,false,some ⟨53,[.setEnt .internalNl,.cb],none,false⟩⟩,⟨256,.cr,false,some ⟨54,[.setEnt .internalNl,.cb],none,false⟩⟩,⟨256,.cr,true,some ⟨55,[.setEnt .internalNl,.cb],none,false⟩⟩,⟨256,.other,false,some ⟨0,[.setEnt .internalNl,.cb,.commit,.code],some 2,true⟩⟩,⟨256,.other,false,some ⟨56,[.setEnt .internalNl,.cb],none,false⟩⟩]⟩,⟨[71],none,[],[⟨256,.other,false,some ⟨50,[.code],none,false⟩⟩,⟨256,.ws,false,some ⟨51,[],none,false⟩⟩,⟨256,.lf,false,some ⟨52,[],none,false⟩⟩,⟨256,.vt,false,some ⟨50,[.code],none,false⟩⟩,⟨256,.ff,false,some ⟨53,[],none,false⟩⟩,⟨256,.cr,false,some ⟨54,[],none,false⟩⟩,⟨256,.cr,true,some ⟨55,[],none,false⟩⟩,⟨256,.other,false,some ⟨0,[.commit,.code],some 2,true⟩⟩,⟨256,.other,false,some ⟨56,[],none,false⟩⟩]⟩,⟨[7],none,[],[⟨256,.other,false,none⟩,⟨256,.ws,false,none⟩,⟨256,.lf,false,none⟩,⟨256,.vt,false,none⟩,⟨256,.ff,false,none⟩,⟨256,.cr,false,none⟩,⟨256,.cr,true,none⟩,⟨256,.other,false,some ⟨62,[.enqueue,.comment],none,false⟩⟩]⟩,⟨[8],none,[],[⟨256,.other,false,some ⟨63,[.comment],none,false⟩⟩,⟨256,.ws,false,some ⟨64,[],none,false⟩⟩,⟨256,.lf,false,some ⟨65,[],none,false⟩⟩,⟨256,.vt,false,some ⟨63,[.comment],none,false⟩⟩,⟨256,.ff,false,some ⟨66,[],none,false⟩⟩,⟨256,.cr,false,some ⟨67,[],none,false⟩⟩,⟨256,.cr,true,some ⟨68,[],none,false⟩⟩,⟨256,.other,false,some ⟨69,[.comment],none,false⟩⟩]⟩,⟨[15],none,[],[⟨256,.other,false,some ⟨63,[.comment],none,false⟩⟩,⟨256,.ws,false,some ⟨64,[],none,false⟩⟩,⟨256,.lf,false,some ⟨65,[],none,false⟩⟩,⟨256,.vt,false,some ⟨63,[.comment],none,false⟩⟩,⟨256,.ff,false,some ⟨66,[],none,false⟩⟩,⟨256,.cr,false,some ⟨67,[],none,false⟩⟩,⟨256,.cr,true,some ⟨68,[],none,false⟩⟩,⟨256,.other,false,some ⟨69,[.comment],none,false⟩⟩]⟩,⟨[14],none,[],[⟨256,.other,false,some ⟨63,[.comment],none,false⟩⟩,⟨256,.ws,false,some ⟨64,[],none,false⟩⟩,⟨256,.lf,false,some ⟨65,[],none,false⟩⟩,⟨256,.vt,false,some ⟨63,[.comment],none,false⟩⟩,⟨256,.ff,false,some ⟨66,[],none,false⟩⟩,⟨256,.cr,false,some ⟨67,[],none,false⟩⟩,⟨256,.cr,true,some ⟨68,[],none,false⟩⟩,⟨256,.other,false,some ⟨69,[.comment],none,false⟩⟩]⟩,⟨[11],none,[],[⟨256,.other,false,some ⟨63,[.setEnt .internalNl,.cb,.comment],none,false⟩⟩,⟨256,.ws,false,some ⟨64,[.setEnt .internalNl,.cb],none,false⟩⟩,⟨256,.lf,false,some ⟨65,[.setEnt .internalNl,.cb],none,false⟩⟩,⟨256,.vt,false,some ⟨63,[.setEnt .internalNl,.cb,.comment],none,false⟩⟩,⟨256,.ff,false,some ⟨66,[.setEnt .internalNl,.cb],none,false⟩⟩,⟨256,.cr,false,some ⟨67,[.setEnt .internalNl,.cb],none,false⟩⟩,⟨256,.cr,true,some ⟨68,[.setEnt .internalNl,.cb],none,false⟩⟩,⟨256,.other,false,some ⟨69,[.setEnt .internalNl,.cb,.comment],none,false⟩⟩]⟩,⟨[12],none,[],[⟨256,.other,false,some ⟨63,[.setEnt .internalNl,.cb,.comment],none,false⟩⟩,⟨256,.ws,false,some ⟨64,[.setEnt .internalNl,.cb],none,false⟩⟩,⟨256,.lf,false,some ⟨65,[.setEnt .internalNl,.cb],none,false⟩⟩,⟨256,.vt,false,some ⟨63,[.setEnt .internalNl,.cb,.comment],none,false⟩⟩,⟨256,.ff,false,some ⟨66,[.setEnt .internalNl,.cb],none,false⟩⟩,⟨256,.cr,false,some ⟨67,[.setEnt .internalNl,.cb],none,false⟩⟩,⟨256,.cr,true,some ⟨68,[.setEnt .internalNl,.cb],none,false⟩⟩,⟨256,.other,false,some ⟨69,[.setEnt .internalNl,.cb,.comment],none,false⟩⟩]⟩,⟨[9],none,[],[⟨256,.other,false,none⟩,⟨256,.ws,false,none⟩,⟨256,.lf,false,some ⟨70,[],none,false⟩⟩,⟨256,.vt,false,none⟩,⟨256,.ff,false,none⟩,⟨256,.cr,false,none⟩,⟨256,.cr,true,none⟩]⟩,⟨[9,13],none,[],[⟨256,.other,false,some ⟨63,[.setEnt .internalNl,.cb,.comment],none,false⟩⟩,⟨256,.ws,false,some ⟨64,[.setEnt .internalNl,.cb],none,false⟩⟩,⟨256,.lf,false,some ⟨71,[.setEnt .internalNl,.cb],none,false⟩⟩,⟨256,.vt,false,some ⟨63,[.setEnt .internalNl,.cb,.comment],none,false⟩⟩,⟨256,.ff,false,some ⟨66,[.setEnt .internalNl,.cb],none,false⟩⟩,⟨256,.cr,false,some ⟨67,[.setEnt .internalNl,.cb],none,false⟩⟩,⟨256,.cr,true,some ⟨68,[.setEnt .internalNl,.cb],none,false⟩⟩,⟨256,.other,false,some ⟨69,[.setEnt .internalNl,.cb,.comment],none,false⟩⟩]⟩,⟨[15,16],none,[],[⟨256,.other,false,some ⟨63,[.comment],none,false⟩⟩,⟨256,.ws,false,some ⟨64,[],none,false⟩⟩,⟨256,.lf,false,some ⟨65,[],none,false⟩⟩,⟨256,.vt,false,some ⟨63,[.comment],none,false⟩⟩,⟨256,.ff,false,some ⟨66,[],none,false⟩⟩,⟨256,.cr,false,some ⟨67,[],none,false⟩⟩,⟨256,.cr,true,some ⟨68,[],none,false⟩⟩,⟨256,.other,false,some ⟨69,[.comment],none,false⟩⟩,⟨256,.other,false,some ⟨72,[.comment],none,false⟩⟩]⟩,⟨[10],none,[],[⟨256,.other,false,some ⟨63,[.setEnt .internalNl,.cb,.comment],none,false⟩⟩,⟨256,.ws,false,some ⟨64,[.setEnt .internalNl,.cb],none,false⟩⟩,⟨256,.lf,false,some ⟨65,[.setEnt .internalNl,.cb],none,false⟩⟩,⟨256,.vt,false,some ⟨63,[.setEnt .internalNl,.cb,.comment],none,false⟩⟩,⟨256,.ff,false,some ⟨66,[.setEnt .internalNl,.cb],none,false⟩⟩,⟨256,.cr,false,some ⟨67,[.setEnt .internalNl,.cb],none,false⟩⟩,⟨256,.cr,true,some ⟨68,[.setEnt .internalNl,.cb],none,false⟩⟩,⟨256,.other,false,some ⟨69,[.setEnt .internalNl,.cb,.comment],none,false⟩⟩]⟩,⟨[10,11],none,[],[⟨256,.other,false,some ⟨63,[.setEnt .internalNl,.cb,.comment],none,false⟩⟩,⟨256,.ws,false,some ⟨64,[.setEnt .internalNl,.cb],none,false⟩⟩,⟨256,.lf,false,some ⟨65,[.setEnt .internalNl,.cb],none,false⟩⟩,⟨256,.vt,false,some ⟨63,[.setEnt .internalNl,.cb,.comment],none,false⟩⟩,⟨256,.ff,false,some ⟨66,[.setEnt .internalNl,.cb],none,false⟩⟩,⟨256,.cr,false,some ⟨67,[.setEnt .internalNl,.cb],none,false⟩⟩,⟨256,.cr,true,some ⟨68,[.setEnt .internalNl,.cb],none,false⟩⟩,⟨256,.other,false,some ⟨69,[.setEnt .internalNl,.cb,.comment],none,false⟩⟩]⟩,⟨[15,17],none,[],[⟨256,.other,false,some ⟨63,[.comment],none,false⟩⟩,⟨256,.ws,false,some ⟨64,[],none,false⟩⟩,⟨256,.lf,false,some ⟨65,[],none,false⟩⟩,⟨256,.vt,false,some ⟨63,[.comment],none,false⟩⟩,⟨256,.ff,false,some ⟨66,[],none,false⟩⟩,⟨256,.cr,false,some ⟨67,[],none,false⟩⟩,⟨256,.cr,true,some ⟨68,[],none,false⟩⟩,⟨256,.other,false,some ⟨69,[.comment],none,false⟩⟩,⟨256,.other,false,some ⟨73,[.comment],none,false⟩⟩]⟩,⟨[15,18],none,[],[⟨256,.other,false,some ⟨63,[.comment],none,false⟩⟩,⟨256,.ws,false,some ⟨64,[],none,false⟩⟩,⟨256,.lf,false,some ⟨65,[],none,false⟩⟩,⟨256,.vt,false,some ⟨63,[.comment],none,false⟩⟩,⟨256,.ff,false,some ⟨66,[],none,false⟩⟩,⟨256,.cr,false,some ⟨67,[],none,false⟩⟩,⟨256,.cr,true,some ⟨68,[],none,false⟩⟩,⟨256,.other,false,some ⟨69,[.comment],none,false⟩⟩,⟨256,.other,false,some ⟨0,[.commit],some 1,true⟩⟩]⟩]
theorem crystal_line_rowsOk : rowsOk crystal_line_nfa [] (crystal_line_cs.map (·.1)) crystal_line_rows = true := by decide +kernel
def crystal_line_D : Dfa crystal_line_M.nfa := ⟨crystal_line_masks, [], crystal_line_cs, crystal_line_rows, crystal_line_masksIn, crystal_line_repOk, crystal_line_rowsOk⟩

def ffixed_line_nfa : Nfa := ⟨[⟨0,4294967808,[],[(0,.setEnt (.own 0))],0,0⟩,⟨1,147573952589676412928,[],[(1,.comment)],0,0⟩,⟨3,549755813888,[],[(2,.code)],0,0⟩,⟨6,17179869184,[],[(3,.code)],0,0⟩,⟨9,8192,[],[(4,.setEnt .newline)],0,0⟩,⟨11,1024,[],[(4,.setEnt .newline)],0,0⟩,⟨12,4096,[],[(4,.setEnt .newline)],0,0⟩,⟨13,8192,[.crAlone],[(4,.setEnt .newline)],0,0⟩,⟨14,115792089237316195423570985008687907853269984665640564039457584007908834656767,[],[(5,.setEnt (.own 3))],0,0⟩],[[⟨0,4294967808,[],[(0,.setEnt (.own 0))],0,0⟩],[⟨2,115792089237316195423570985008687907853269984665640564039457584007913129626623,[],[],0,0⟩],[⟨2,115792089237316195423570985008687907853269984665640564039457584007913129626623,[],[],0,0⟩],[⟨4,115792089237316195423570985008687907853269984665640564039457584007913129626623,[],[],0,0⟩,⟨5,549755813888,[],[],0,0⟩],[⟨4,115792089237316195423570985008687907853269984665640564039457584007913129626623,[],[],0,0⟩,⟨5,549755813888,[],[],0,0⟩],[],[⟨7,115792089237316195423570985008687907853269984665640564039457584007913129626623,[],[],0,0⟩,⟨8,17179869184,[],[],0,0⟩],[⟨7,115792089237316195423570985008687907853269984665640564039457584007913129626623,[],[],0,0⟩,⟨8,17179869184,[],[],0,0⟩],[],[⟨10,1024,[],[(4,.setEnt .newline)],0,0⟩],[],[],[],[],[]],[some (0,[]),some (1,[]),some (1,[]),none,none,some (2,[]),none,none,some (2,[]),none,some (3,[]),some (3,[]),some (3,[]),some (3,[]),some (4,[])],[1,2,4,5,6]⟩
theorem ffixed_line_nfa_eq : Fortranfixed.ffixed_line.nfa = ffixed_line_nfa := by decide +kernel
/-- The machine of `Fortranfixed.ffixed_line`, with its automaton as a literal. -/
def ffixed_line_M : Machine := ⟨ffixed_line_nfa, Fortranfixed.ffixed_line.ends, Fortranfixed.ffixed_line.sw⟩
theorem ffixed_line_M_eq : Fortranfixed.ffixed_line.machine = ffixed_line_M := by
  unfold Scanner.machine ffixed_line_M; rw [ffixed_line_nfa_eq]
def ffixed_line_masks : List Nat := [4294967808,147573952589676412928,549755813888,17179869184,8192,1024,4096,115792089237316195423570985008687907853269984665640564039457584007908834656767,115792089237316195423570985008687907853269984665640564039457584007913129626623]
def ffixed_line_cs : List (Nat × Nat) := [(0,115792089237316195423570985008687907853269984665640564039310010054752222560767),(9,4294967808),(10,1024),(11,2048),(12,4096),(13,8192),(34,17179869184),(39,549755813888),(67,147573952589676412928)]
theorem ffixed_line_masksIn : masksIn ffixed_line_nfa ffixed_line_masks = true := by decide +kernel
theorem ffixed_line_repOk : repOk ffixed_line_masks ffixed_line_cs = true := by decide +kernel
def ffixed_line_rows : List Row := [⟨[],none,[],[⟨256,.other,false,some ⟨0,[.setEnt (.own 3)],some 4,true⟩⟩,⟨256,.ws,false,some ⟨1,[.setEnt (.own 0)],some 0,false⟩⟩,⟨256,.lf,false,some ⟨0,[.setEnt .newline],some 3,true⟩⟩,⟨256,.vt,false,none⟩,⟨256,.ff,false,some ⟨0,[.setEnt .newline],some 3,true⟩⟩,⟨256,.cr,false,some ⟨2,[.setEnt .newline],none,false⟩⟩,⟨256,.cr,true,some ⟨3,[.setEnt .newline],some 3,false⟩⟩,⟨256,.other,false,some ⟨4,[.code,.setEnt (.own 3)],some 4,false⟩⟩,⟨256,.other,false,some ⟨5,[.code,.setEnt (.own 3)],some 4,false⟩⟩,⟨256,.other,false,some ⟨6,[.comment,.setEnt (.own 3)],some 1,false⟩⟩]⟩,⟨[0],some 0,[],[⟨256,.other,false,none⟩,⟨256,.ws,false,some ⟨1,[.setEnt (.own 0)],some 0,false⟩⟩,⟨256,.lf,false,none⟩,⟨256,.vt,false,none⟩,⟨256,.ff,false,none⟩,⟨256,.cr,false,none⟩,⟨256,.cr,true,none⟩]⟩,⟨[9],none,[],[⟨256,.other,false,none⟩,⟨256,.ws,false,none⟩,⟨256,.lf,false,some ⟨0,[.setEnt .newline],some 3,true⟩⟩,⟨256,.vt,false,none⟩,⟨256,.ff,false,none⟩,⟨256,.cr,false,none⟩,⟨256,.cr,true,none⟩]⟩,⟨[9,13],some 3,[],[⟨256,.other,false,none⟩,⟨256,.ws,false,none⟩,⟨256,.lf,false,some ⟨0,[.setEnt .newline],some 3,true⟩⟩,⟨256,.vt,false,none⟩,⟨256,.ff,false,none⟩,⟨256,.cr,false,none⟩,⟨256,.cr,true,none⟩]⟩,⟨[6,14],some 4,[],[⟨256,.other,false,some ⟨7,[],none,false⟩⟩,⟨256,.ws,false,some ⟨7,[],none,false⟩⟩,⟨256,.lf,false,none⟩,⟨256,.vt,false,some ⟨7,[],none,false⟩⟩,⟨256,.ff,false,none⟩,⟨256,.cr,false,none⟩,⟨256,.cr,true,none⟩,⟨256,.other,false,some ⟨8,[],some 2,false⟩⟩]⟩,⟨[3,14],some 4,[],[⟨256,.other,false,some ⟨9,[],none,false⟩⟩,⟨256,.ws,false,some ⟨9,[],none,false⟩⟩,⟨256,.lf,false,none⟩,⟨256,.vt,false,some ⟨9,[],none,false⟩⟩,⟨256,.ff,false,none⟩,⟨256,.cr,false,none⟩,⟨256,.cr,true,none⟩,⟨256,.other,false,some ⟨10,[],some 2,false⟩⟩]⟩,⟨[1,14],some 1,[],[⟨256,.other,false,some ⟨11,[],some 1,false⟩⟩,⟨256,.ws,false,some ⟨11,[],some 1,false⟩⟩,⟨256,.lf,false,none⟩,⟨256,.vt,false,some ⟨11,[],some 1,false⟩⟩,⟨256,.ff,false,none⟩,⟨256,.cr,false,none⟩,⟨256,.cr,true,none⟩]⟩,⟨[7],none,[],[⟨256,.other,false,some ⟨7,[],none,false⟩⟩,⟨256,.ws,false,some ⟨7,[],none,false⟩⟩,⟨256,.lf,false,none⟩,⟨256,.vt,false,some ⟨7,[],none,false⟩⟩,⟨256,.ff,false,none⟩,⟨256,.cr,false,none⟩,⟨256,.cr,true,none⟩,⟨256,.other,false,some ⟨8,[],some 2,false⟩⟩]⟩,⟨[7,8],some 2,[],[⟨256,.other,false,some ⟨7,[],none,false⟩⟩,⟨256,.ws,false,some ⟨7,[],none,false⟩⟩,⟨256,.lf,false,none⟩,⟨256,.vt,false,some ⟨7,[],none,false⟩⟩,⟨256,.ff,false,none⟩,⟨256,.cr,false,none⟩,⟨256,.cr,true,none⟩,⟨256,.other,false,some ⟨8,[],some 2,false⟩⟩]⟩,⟨[4],none,[],[⟨256,.other,false,some ⟨9,[],none,false⟩⟩,⟨256,.ws,false,some ⟨9,[],none,false⟩⟩,⟨256,.lf,false,none⟩,⟨256,.vt,false,some ⟨9,[],none,false⟩⟩,⟨256,.ff,false,none⟩,⟨256,.cr,false,none⟩,⟨256,.cr,true,none⟩,⟨256,.other,false,some ⟨10,[],some 2,false⟩⟩]⟩,⟨[4,5],some 2,[],[⟨256,.other,false,some ⟨9,[],none,false⟩⟩,⟨256,.ws,false,some ⟨9,[],none,false⟩⟩,⟨256,.lf,false,none⟩,⟨256,.vt,false,some ⟨9,[],none,false⟩⟩,⟨256,.ff,false,none⟩,⟨256,.cr,false,none⟩,⟨256,.cr,true,none⟩,⟨256,.other,false,some ⟨10,[],some 2,false⟩⟩]⟩,⟨[2],some 1,[],[⟨256,.other,false,some ⟨11,[],some 1,false⟩⟩,⟨256,.ws,false,some ⟨11,[],some 1,false⟩⟩,⟨256,.lf,false,none⟩,⟨256,.vt,false,some ⟨11,[],some 1,false⟩⟩,⟨256,.ff,false,none⟩,⟨256,.cr,false,none⟩,⟨256,.cr,true,none⟩]⟩]
theorem ffixed_line_rowsOk : rowsOk ffixed_line_nfa [] (ffixed_line_cs.map (·.1)) ffixed_line_rows = true := by decide +kernel
def ffixed_line_D : Dfa ffixed_line_M.nfa := ⟨ffixed_line_masks, [], ffixed_line_cs, ffixed_line_rows, ffixed_line_masksIn, ffixed_line_repOk, ffixed_line_rowsOk⟩

def modelica_line_nfa : Nfa := ⟨[⟨0,4294967808,[],[(0,.setEnt (.own 0))],0,0⟩,⟨1,140737488355328,[],[],0,0⟩,⟨4,140737488355328,[],[],0,2⟩,⟨15,8192,[],[(6,.setEnt .newline)],0,0⟩,⟨17,1024,[],[(6,.setEnt .newline)],0,0⟩,⟨18,4096,[],[(6,.setEnt .newline)],0,0⟩,⟨19,8192,[.crAlone],[(6,.setEnt .newline)],0,0⟩,⟨20,10633823849912963253511222494305976320,[],[(7,.setEnt (.own 3))],0,0⟩,⟨22,17179869184,[],[(8,.code),(14,.setEnt (.own 3))],0,0⟩,⟨33,115792089237316195423570985008687907853269984665640564039457584007908834656767,[],[(15,.setEnt (.own 3))],0,0⟩],[[⟨0,4294967808,[],[(0,.setEnt (.own 0))],0,0⟩],[⟨2,140737488355328,[],[(1,.comment)],0,0⟩],[⟨3,115792089237316195423570985008687907853269984665640564039457584007913129626623,[],[],0,0⟩],[⟨3,115792089237316195423570985008687907853269984665640564039457584007913129626623,[],[],0,0⟩],[⟨5,4398046511104,[],[(2,.comment)],0,2⟩],[⟨6,8192,[],[],0,2⟩,⟨8,1024,[],[],0,2⟩,⟨9,4096,[],[],0,2⟩,⟨10,8192,[.crAlone],[],0,2⟩,⟨11,4294967808,[],[],0,2⟩,⟨12,115792089237316195423570985008687907853269984665640564039457584007908834658815,[],[(5,.comment)],0,2⟩,⟨13,4398046511104,[],[],0,2⟩],[⟨7,1024,[],[],0,2⟩],[⟨6,8192,[],[(3,.setEnt .internalNl),(4,.cb)],0,2⟩,⟨8,1024,[],[(3,.setEnt .internalNl),(4,.cb)],0,2⟩,⟨9,4096,[],[(3,.setEnt .internalNl),(4,.cb)],0,2⟩,⟨10,8192,[.crAlone],[(3,.setEnt .internalNl),(4,.cb)],0,2⟩,⟨11,4294967808,[],[(3,.setEnt .internalNl),(4,.cb)],0,2⟩,⟨12,115792089237316195423570985008687907853269984665640564039457584007908834658815,[],[(3,.setEnt .internalNl),(4,.cb),(5,.comment)],0,2⟩,⟨13,4398046511104,[],[(3,.setEnt .internalNl),(4,.cb)],0,2⟩],[⟨6,8192,[],[(3,.setEnt .internalNl),(4,.cb)],0,2⟩,⟨8,1024,[],[(3,.setEnt .internalNl),(4,.cb)],0,2⟩,⟨9,4096,[],[(3,.setEnt .internalNl),(4,.cb)],0,2⟩,⟨10,8192,[.crAlone],[(3,.setEnt .internalNl),(4,.cb)],0,2⟩,⟨11,4294967808,[],[(3,.setEnt .internalNl),(4,.cb)],0,2⟩,⟨12,115792089237316195423570985008687907853269984665640564039457584007908834658815,[],[(3,.setEnt .internalNl),(4,.cb),(5,.comment)],0,2⟩,⟨13,4398046511104,[],[(3,.setEnt .internalNl),(4,.cb)],0,2⟩],[⟨6,8192,[],[(3,.setEnt .internalNl),(4,.cb)],0,2⟩,⟨8,1024,[],[(3,.setEnt .internalNl),(4,.cb)],0,2⟩,⟨9,4096,[],[(3,.setEnt .internalNl),(4,.cb)],0,2⟩,⟨10,8192,[.crAlone],[(3,.setEnt .internalNl),(4,.cb)],0,2⟩,⟨11,4294967808,[],[(3,.setEnt .internalNl),(4,.cb)],0,2⟩,⟨12,115792089237316195423570985008687907853269984665640564039457584007908834658815,[],[(3,.setEnt .internalNl),(4,.cb),(5,.comment)],0,2⟩,⟨13,4398046511104,[],[(3,.setEnt .internalNl),(4,.cb)],0,2⟩],[⟨6,8192,[],[(3,.setEnt .internalNl),(4,.cb)],0,2⟩,⟨8,1024,[],[(3,.setEnt .internalNl),(4,.cb)],0,2⟩,⟨9,4096,[],[(3,.setEnt .internalNl),(4,.cb)],0,2⟩,⟨10,8192,[.crAlone],[(3,.setEnt .internalNl),(4,.cb)],0,2⟩,⟨11,4294967808,[],[(3,.setEnt .internalNl),(4,.cb)],0,2⟩,⟨12,115792089237316195423570985008687907853269984665640564039457584007908834658815,[],[(3,.setEnt .internalNl),(4,.cb),(5,.comment)],0,2⟩,⟨13,4398046511104,[],[(3,.setEnt .internalNl),(4,.cb)],0,2⟩],[⟨6,8192,[],[],0,2⟩,⟨8,1024,[],[],0,2⟩,⟨9,4096,[],[],0,2⟩,⟨10,8192,[.crAlone],[],0,2⟩,⟨11,4294967808,[],[],0,2⟩,⟨12,115792089237316195423570985008687907853269984665640564039457584007908834658815,[],[(5,.comment)],0,2⟩,⟨13,4398046511104,[],[],0,2⟩],[⟨6,8192,[],[],0,2⟩,⟨8,1024,[],[],0,2⟩,⟨9,4096,[],[],0,2⟩,⟨10,8192,[.crAlone],[],0,2⟩,⟨11,4294967808,[],[],0,2⟩,⟨12,115792089237316195423570985008687907853269984665640564039457584007908834658815,[],[(5,.comment)],0,2⟩,⟨13,4398046511104,[],[],0,2⟩],[⟨14,140737488355328,[],[],2,0⟩],[],[⟨16,1024,[],[(6,.setEnt .newline)],0,0⟩],[],[],[],[],[⟨21,10633823849912963253799171395480977408,[],[(7,.setEnt (.own 3))],0,0⟩],[⟨21,10633823849912963253799171395480977408,[],[(7,.setEnt (.own 3))],0,0⟩],[⟨23,8192,[],[(14,.setEnt (.own 3))],0,0⟩,⟨25,1024,[],[(14,.setEnt (.own 3))],0,0⟩,⟨26,4096,[],[(14,.setEnt (.own 3))],0,0⟩,⟨27,8192,[.crAlone],[(14,.setEnt (.own 3))],0,0⟩,⟨28,4294967808,[],[(14,.setEnt (.own 3))],0,0⟩,⟨29,115792089237316195423570985008687907853269984665635612279300442486792058305023,[],[(11,.code),(14,.setEnt (.own 3))],0,0⟩,⟨30,4951760157141521099596496896,[],[(14,.setEnt (.own 3))],0,0⟩,⟨32,17179869184,[],[(13,.code),(14,.setEnt (.own 3))],0,0⟩],[⟨24,1024,[],[(14,.setEnt (.own 3))],0,0⟩],[⟨23,8192,[],[(9,.setEnt .internalNl),(10,.cb),(14,.setEnt (.own 3))],0,0⟩,⟨25,1024,[],[(9,.setEnt .internalNl),(10,.cb),(14,.setEnt (.own 3))],0,0⟩,⟨26,4096,[],[(9,.setEnt .internalNl),(10,.cb),(14,.setEnt (.own 3))],0,0⟩,⟨27,8192,[.crAlone],[(9,.setEnt .internalNl),(10,.cb),(14,.setEnt (.own 3))],0,0⟩,⟨28,4294967808,[],[(9,.setEnt .internalNl),(10,.cb),(14,.setEnt (.own 3))],0,0⟩,⟨29,115792089237316195423570985008687907853269984665635612279300442486792058305023,[],[(9,.setEnt .internalNl),(10,.cb),(11,.code),(14,.setEnt (.own 3))],0,0⟩,⟨30,4951760157141521099596496896,[],[(9,.setEnt .internalNl),(10,.cb),(14,.setEnt (.own 3))],0,0⟩,⟨32,17179869184,[],[(9,.setEnt .internalNl),(10,.cb),(13,.code),(14,.setEnt (.own 3))],0,0⟩],[⟨23,8192,[],[(9,.setEnt .internalNl),(10,.cb),(14,.setEnt (.own 3))],0,0⟩,⟨25,1024,[],[(9,.setEnt .internalNl),(10,.cb),(14,.setEnt (.own 3))],0,0⟩,⟨26,4096,[],[(9,.setEnt .internalNl),(10,.cb),(14,.setEnt (.own 3))],0,0⟩,⟨27,8192,[.crAlone],[(9,.setEnt .internalNl),(10,.cb),(14,.setEnt (.own 3))],0,0⟩,⟨28,4294967808,[],[(9,.setEnt .internalNl),(10,.cb),(14,.setEnt (.own 3))],0,0⟩,⟨29,115792089237316195423570985008687907853269984665635612279300442486792058305023,[],[(9,.setEnt .internalNl),(10,.cb),(11,.code),(14,.setEnt (.own 3))],0,0⟩,⟨30,4951760157141521099596496896,[],[(9,.setEnt .internalNl),(10,.cb),(14,.setEnt (.own 3))],0,0⟩,⟨32,17179869184,[],[(9,.setEnt .internalNl),(10,.cb),(13,.code),(14,.setEnt (.own 3))],0,0⟩],[⟨23,8192,[],[(9,.setEnt .internalNl),(10,.cb),(14,.setEnt (.own 3))],0,0⟩,⟨25,1024,[],[(9,.setEnt .internalNl),(10,.cb),(14,.setEnt (.own 3))],0,0⟩,⟨26,4096,[],[(9,.setEnt .internalNl),(10,.cb),(14,.setEnt (.own 3))],0,0⟩,⟨27,8192,[.crAlone],[(9,.setEnt .internalNl),(10,.cb),(14,.setEnt (.own 3))],0,0⟩,⟨28,4294967808,[],[(9,.setEnt .internalNl),(10,.cb),(14,.setEnt (.own 3))],0,0⟩,⟨29,115792089237316195423570985008687907853269984665635612279300442486792058305023,[],[(9,.setEnt .internalNl),(10,.cb),(11,.code),(14,.setEnt (.own 3))],0,0⟩,⟨30,4951760157141521099596496896,[],[(9,.setEnt .internalNl),(10,.cb),(14,.setEnt (.own 3))],0,0⟩,⟨32,17179869184,[],[(9,.setEnt .internalNl),(10,.cb),(13,.code),(14,.setEnt (.own 3))],0,0⟩],[⟨23,8192,[],[(9,.setEnt .internalNl),(10,.cb),(14,.setEnt (.own 3))],0,0⟩,⟨25,1024,[],[(9,.setEnt .internalNl),(10,.cb),(14,.setEnt (.own 3))],0,0⟩,⟨26,4096,[],[(9,.setEnt .internalNl),(10,.cb),(14,.setEnt (.own 3))],0,0⟩,⟨27,8192,[.crAlone],[(9,.setEnt .internalNl),(10,.cb),(14,.setEnt (.own 3))],0,0⟩,⟨28,4294967808,[],[(9,.setEnt .internalNl),(10,.cb),(14,.setEnt (.own 3))],0,0⟩,⟨29,115792089237316195423570985008687907853269984665635612279300442486792058305023,[],[(9,.setEnt .internalNl),(10,.cb),(11,.code),(14,.setEnt (.own 3))],0,0⟩,⟨30,4951760157141521099596496896,[],[(9,.setEnt .internalNl),(10,.cb),(14,.setEnt (.own 3))],0,0⟩,⟨32,17179869184,[],[(9,.setEnt .internalNl),(10,.cb),(13,.code),(14,.setEnt (.own 3))],0,0⟩],[⟨23,8192,[],[(14,.setEnt (.own 3))],0,0⟩,⟨25,1024,[],[(14,.setEnt (.own 3))],0,0⟩,⟨26,4096,[],[(14,.setEnt (.own 3))],0,0⟩,⟨27,8192,[.crAlone],[(14,.setEnt (.own 3))],0,0⟩,⟨28,4294967808,[],[(14,.setEnt (.own 3))],0,0⟩,⟨29,115792089237316195423570985008687907853269984665635612279300442486792058305023,[],[(11,.code),(14,.setEnt (.own 3))],0,0⟩,⟨30,4951760157141521099596496896,[],[(14,.setEnt (.own 3))],0,0⟩,⟨32,17179869184,[],[(13,.code),(14,.setEnt (.own 3))],0,0⟩],[⟨23,8192,[],[(14,.setEnt (.own 3))],0,0⟩,⟨25,1024,[],[(14,.setEnt (.own 3))],0,0⟩,⟨26,4096,[],[(14,.setEnt (.own 3))],0,0⟩,⟨27,8192,[.crAlone],[(14,.setEnt (.own 3))],0,0⟩,⟨28,4294967808,[],[(14,.setEnt (.own 3))],0,0⟩,⟨29,115792089237316195423570985008687907853269984665635612279300442486792058305023,[],[(11,.code),(14,.setEnt (.own 3))],0,0⟩,⟨30,4951760157141521099596496896,[],[(14,.setEnt (.own 3))],0,0⟩,⟨32,17179869184,[],[(13,.code),(14,.setEnt (.own 3))],0,0⟩],[⟨31,17179869184,[],[(12,.code),(14,.setEnt (.own 3))],0,0⟩],[⟨23,8192,[],[(14,.setEnt (.own 3))],0,0⟩,⟨25,1024,[],[(14,.setEnt (.own 3))],0,0⟩,⟨26,4096,[],[(14,.setEnt (.own 3))],0,0⟩,⟨27,8192,[.crAlone],[(14,.setEnt (.own 3))],0,0⟩,⟨28,4294967808,[],[(14,.setEnt (.own 3))],0,0⟩,⟨29,115792089237316195423570985008687907853269984665635612279300442486792058305023,[],[(11,.code),(14,.setEnt (.own 3))],0,0⟩,⟨30,4951760157141521099596496896,[],[(14,.setEnt (.own 3))],0,0⟩,⟨32,17179869184,[],[(13,.code),(14,.setEnt (.own 3))],0,0⟩],[],[]],[some (0,[]),none,some (1,[]),some (1,[]),none,none,none,none,none,none,none,none,none,none,some (1,[]),none,some (2,[]),some (2,[]),some (2,[]),some (2,[]),some (3,[]),some (3,[]),none,none,none,none,none,none,none,none,none,none,some (4,[]),some (5,[])],[1,6,7,8,15,16]⟩
theorem modelica_line_nfa_eq : Modelica.modelica_line.nfa = modelica_line_nfa := by decide +kernel
/-- The machine of `Modelica.modelica_line`, with its automaton as a literal. -/
def modelica_line_M : Machine := ⟨modelica_line_nfa, Modelica.modelica_line.ends, Modelica.modelica_line.sw⟩
theorem modelica_line_M_eq : Modelica.modelica_line.machine = modelica_line_M := by
  unfold Scanner.machine modelica_line_M; rw [modelica_line_nfa_eq]
def modelica_line_masks : List Nat := [4294967808,140737488355328,8192,1024,4096,10633823849912963253511222494305976320,17179869184,115792089237316195423570985008687907853269984665640564039457584007908834656767,115792089237316195423570985008687907853269984665640564039457584007913129626623,4398046511104,115792089237316195423570985008687907853269984665640564039457584007908834658815,10633823849912963253799171395480977408,115792089237316195423570985008687907853269984665635612279300442486792058305023,4951760157141521099596496896]
def modelica_line_cs : List (Nat × Nat) := [(0,115792089237316195423570985008687907853259350841785699316046643170261042446847),(9,4294967808),(10,1024),(11,2048),(12,4096),(13,8192),(34,17179869184),(42,4398046511104),(47,140737488355328),(48,287948901175001088),(65,10633823849912963253511222494305976320),(92,4951760157141521099596496896)]
theorem modelica_line_masksIn : masksIn modelica_line_nfa modelica_line_masks = true := by decide +kernel
theorem modelica_line_repOk : repOk modelica_line_masks modelica_line_cs = true := by decide +kernel
def modelica_line_rows : List Row := [⟨[],none,[],[⟨256,.other,false,some ⟨0,[.setEnt (.own 3)],some 5,true⟩⟩,⟨256,.ws,false,some ⟨1,[.setEnt (.own 0)],some 0,false⟩⟩,⟨256,.lf,false,some ⟨0,[.setEnt .newline],some 2,true⟩⟩,⟨256,.vt,false,none⟩,⟨256,.ff,false,some ⟨0,[.setEnt .newline],some 2,true⟩⟩,⟨256,.cr,false,some ⟨2,[.setEnt .newline],none,false⟩⟩,⟨256,.cr,true,some ⟨3,[.setEnt .newline],some 2,false⟩⟩,⟨256,.other,false,some ⟨4,[.code,.setEnt (.own 3)],some 5,false⟩⟩,⟨256,.other,false,some ⟨5,[.setEnt (.own 3)],some 5,false⟩⟩,⟨256,.other,false,some ⟨6,[.setEnt (.own 3)],some 3,false⟩⟩]⟩,⟨[0],some 0,[],[⟨256,.other,false,none⟩,⟨256,.ws,false,some ⟨1,[.setEnt (.own 0)],some 0,false⟩⟩,⟨256,.lf,false,none⟩,⟨256,.vt,false,none⟩,⟨256,.ff,false,none⟩,⟨256,.cr,false,none⟩,⟨256,.cr,true,none⟩]⟩,⟨[15],none,[],[⟨256,.other,false,none⟩,⟨256,.ws,false,none⟩,⟨256,.lf,false,some ⟨0,[.setEnt .newline],some 2,true⟩⟩,⟨256,.vt,false,none⟩,⟨256,.ff,false,none⟩,⟨256,.cr,false,none⟩,⟨256,.cr,true,none⟩]⟩,⟨[15,19],some 2,[],[⟨256,.other,false,none⟩,⟨256,.ws,false,none⟩,⟨256,.lf,false,some ⟨0,[.setEnt .newline],some 2,true⟩⟩,⟨256,.vt,false,none⟩,⟨256,.ff,false,none⟩,⟨256,.cr,false,none⟩,⟨256,.cr,true,none⟩]⟩,⟨[22,33],some 5,[],[⟨256,.other,false,some ⟨7,[.code,.setEnt (.own 3)],none,false⟩⟩,⟨256,.ws,false,some ⟨8,[.setEnt (.own 3)],none,false⟩⟩,⟨256,.lf,false,some ⟨9,[.setEnt (.own 3)],none,false⟩⟩,⟨256,.vt,false,some ⟨7,[.code,.setEnt (.own 3)],none,false⟩⟩,⟨256,.ff,false,some ⟨10,[.code,.setEnt (.own 3)],none,false⟩⟩,⟨256,.cr,false,some ⟨11,[.code,.setEnt (.own 3)],none,false⟩⟩,⟨256,.cr,true,some ⟨12,[.code,.setEnt (.own 3)],none,false⟩⟩,⟨256,.other,false,some ⟨0,[.code,.setEnt (.own 3)],some 4,true⟩⟩,⟨256,.other,false,some ⟨13,[.setEnt (.own 3)],none,false⟩⟩]⟩,⟨[1,4,33],some 5,[],[⟨256,.other,false,none⟩,⟨256,.ws,false,none⟩,⟨256,.lf,false,none⟩,⟨256,.vt,false,none⟩,⟨256,.ff,false,none⟩,⟨256,.cr,false,none⟩,⟨256,.cr,true,none⟩,⟨256,.other,false,some ⟨14,[.comment],none,false⟩⟩,⟨256,.other,false,some ⟨15,[.comment],some 1,false⟩⟩]⟩,⟨[20,33],some 3,[],[⟨256,.other,false,none⟩,⟨256,.ws,false,none⟩,⟨256,.lf,false,none⟩,⟨256,.vt,false,none⟩,⟨256,.ff,false,none⟩,⟨256,.cr,false,none⟩,⟨256,.cr,true,none⟩,⟨256,.other,false,some ⟨16,[.setEnt (.own 3)],some 3,false⟩⟩]⟩,⟨[29],none,[],[⟨256,.other,false,some ⟨7,[.code,.setEnt (.own 3)],none,false⟩⟩,⟨256,.ws,false,some ⟨8,[.setEnt (.own 3)],none,false⟩⟩,⟨256,.lf,false,some ⟨9,[.setEnt (.own 3)],none,false⟩⟩,⟨256,.vt,false,some ⟨7,[.code,.setEnt (.own 3)],none,false⟩⟩,⟨256,.ff,false,some ⟨10,[.code,.setEnt (.own 3)],none,false⟩⟩,⟨256,.cr,false,some ⟨11,[.code,.setEnt (.own 3)],none,false⟩⟩,⟨256,.cr,true,some ⟨12,[.code,.setEnt (.own 3)],none,false⟩⟩,⟨256,.other,false,some ⟨0,[.code,.setEnt (.own 3)],some 4,true⟩⟩,⟨256,.other,false,some ⟨13,[.setEnt (.own 3)],none,false⟩⟩]⟩,⟨[28],none,[],[⟨256,.other,false,some ⟨7,[.code,.setEnt (.own 3)],none,false⟩⟩,⟨256,.ws,false,some ⟨8,[.setEnt (.own 3)],none,false⟩⟩,⟨256,.lf,false,some ⟨9,[.setEnt (.own 3)],none,false⟩⟩,⟨256,.vt,false,some ⟨7,[.code,.setEnt (.own 3)],none,false⟩⟩,⟨256,.ff,false,some ⟨10,[.code,.setEnt (.own 3)],none,false⟩⟩,⟨256,.cr,false,some ⟨11,[.code,.setEnt (.own 3)],none,false⟩⟩,⟨256,.cr,true,some ⟨12,[.code,.setEnt (.own 3)],none,false⟩⟩,⟨256,.other,false,some ⟨0,[.code,.setEnt (.own 3)],some 4,true⟩⟩,⟨256,.other,false,some ⟨13,[.setEnt (.own 3)],none,false⟩⟩]⟩,⟨[25],none,[],[⟨256,.other,false,some ⟨7,[.setEnt .internalNl,.cb,.code,.setEnt (.own 3)],none,false⟩⟩,⟨256,.ws,false,some ⟨8,[.setEnt .internalNl,.cb,.setEnt (.own 3)],none,false⟩⟩,⟨256,.lf,false,some ⟨9,[.setEnt .internalNl,.cb,.setEnt (.own 3)],none,false⟩⟩,⟨256,.vt,false,some ⟨7,[.setEnt .internalNl,.cb,.code,.setEnt (.own 3)],none,false⟩⟩,⟨256,.ff,false,some ⟨10,[.setEnt .internalNl,.cb,.code,.setEnt (.own 3)],none,false⟩⟩,⟨256,.cr,false,some ⟨11,[.setEnt .internalNl,.cb,.code,.setEnt (.own 3)],none,false⟩⟩,⟨256,.cr,true,some ⟨12,[.setEnt .internalNl,.cb,.code,.setEnt (.own 3)],none,false⟩⟩,⟨256,.other,false,some ⟨0,[.setEnt .internalNl,.cb,.code,.setEnt (.own 3)],some 4,true⟩⟩,⟨256,.other,false,some ⟨13,[.setEnt .internalNl,.cb,.setEnt (.own 3)],none,false⟩⟩]⟩,⟨[26,29],none,[],[⟨256,.other,false,some ⟨7,[.setEnt .internalNl,.cb,.code,.setEnt (.own 3)],none,false⟩⟩,⟨256,.ws,false,some ⟨8,[.setEnt .internalNl,.cb,.setEnt (.own 3)],none,false⟩⟩,⟨256,.lf,false,some ⟨9,[.setEnt .internalNl,.cb,.setEnt (.own 3)],none,false⟩⟩,⟨256,.vt,false,some ⟨7,[.setEnt .internalNl,.cb,.code,.setEnt (.own 3)],none,false⟩⟩,⟨256,.ff,false,some ⟨10,[.setEnt .internalNl,.cb,.code,.setEnt (.own 3)],none,false⟩⟩,⟨256,.cr,false,some ⟨11,[.setEnt .internalNl,.cb,.code,.setEnt (.own 3)],none,false⟩⟩,⟨256,.cr,true,some ⟨12,[.setEnt .internalNl,.cb,.code,.setEnt (.own 3)],none,false⟩⟩,⟨256,.other,false,some ⟨0,[.setEnt .internalNl,.cb,.code,.setEnt (.own 3)],some 4,true⟩⟩,⟨256,.other,false,some ⟨13,[.setEnt .internalNl,.cb,.setEnt (.own 3)],none,false⟩⟩]⟩,⟨[23,29],none,[],[⟨256,.other,false,some ⟨7,[.code,.setEnt (.own 3)],none,false⟩⟩,⟨256,.ws,false,some ⟨8,[.setEnt (.own 3)],none,false⟩⟩,⟨256,.lf,false,some ⟨17,[.setEnt (.own 3)],none,false⟩⟩,⟨256,.vt,false,some ⟨7,[.code,.setEnt (.own 3)],none,false⟩⟩,⟨256,.ff,false,some ⟨10,[.code,.setEnt (.own 3)],none,false⟩⟩,⟨256,.cr,false,some ⟨11,[.code,.setEnt (.own 3)],none,false⟩⟩,⟨256,.cr,true,some ⟨12,[.code,.setEnt (.own 3)],none,false⟩⟩,⟨256,.other,false,some ⟨0,[.code,.setEnt (.own 3)],some 4,true⟩⟩,⟨256,.other,false,some ⟨13,[.setEnt (.own 3)],none,false⟩⟩]⟩,⟨[23,27,29],none,[],[⟨256,.other,false,some ⟨7,[.setEnt .internalNl,.cb,.code,.setEnt (.own 3)],none,false⟩⟩,⟨256,.ws,false,some ⟨8,[.setEnt .internalNl,.cb,.setEnt (.own 3)],none,false⟩⟩,⟨256,.lf,false,some ⟨17,[.setEnt .internalNl,.cb,.setEnt (.own 3)],none,false⟩⟩,⟨256,.vt,false,some ⟨7,[.setEnt .internalNl,.cb,.code,.setEnt (.own 3)],none,false⟩⟩,⟨256,.ff,false,some ⟨10,[.setEnt .internalNl,.cb,.code,.setEnt (.own 3)],none,false⟩⟩,⟨256,.cr,false,some ⟨11,[.setEnt .internalNl,.cb,.code,.setEnt (.own 3)],none,false⟩⟩,⟨256,.cr,true,some ⟨12,[.setEnt .internalNl,.cb,.code,.setEnt (.own 3)],none,false⟩⟩,⟨256,.other,false,some ⟨0,[.setEnt .internalNl,.cb,.code,.setEnt (.own 3)],some 4,true⟩⟩,⟨256,.other,false,some ⟨13,[.setEnt .internalNl,.cb,.setEnt (.own 3)],none,false⟩⟩]⟩,⟨[30],none,[],[⟨256,.other,false,none⟩,⟨256,.ws,false,none⟩,⟨256,.lf,false,none⟩,⟨256,.vt,false,none⟩,⟨256,.ff,false,none⟩,⟨256,.cr,false,none⟩,⟨256,.cr,true,none⟩,⟨256,.other,false,some ⟨18,[.code,.setEnt (.own 3)],none,false⟩⟩]⟩,⟨[5],none,[],[⟨256,.other,false,some ⟨19,[.comment],none,false⟩⟩,⟨256,.ws,false,some ⟨20,[],none,false⟩⟩,⟨256,.lf,false,some ⟨21,[],none,false⟩⟩,⟨256,.vt,false,some ⟨19,[.comment],none,false⟩⟩,⟨256,.ff,false,some ⟨22,[],none,false⟩⟩,⟨256,.cr,false,some ⟨23,[],none,false⟩⟩,⟨256,.cr,true,some ⟨24,[],none,false⟩⟩,⟨256,.other,false,some ⟨25,[.comment],none,false⟩⟩]⟩,⟨[2],some 1,[],[⟨256,.other,false,some ⟨26,[],some 1,false⟩⟩,⟨256,.ws,false,some ⟨26,[],some 1,false⟩⟩,⟨256,.lf,false,none⟩,⟨256,.vt,false,some ⟨26,[],some 1,false⟩⟩,⟨256,.ff,false,none⟩,⟨256,.cr,false,none⟩,⟨256,.cr,true,none⟩]⟩,⟨[21],some 3,[],[⟨256,.other,false,none⟩,⟨256,.ws,false,none⟩,⟨256,.lf,false,none⟩,⟨256,.vt,false,none⟩,⟨256,.ff,false,none⟩,⟨256,.cr,false,none⟩,⟨256,.cr,true,none⟩,⟨256,.other,false,some ⟨16,[.setEnt (.own 3)],some 3,false⟩⟩]⟩,⟨[24,25],none,[],[⟨256,.other,false,some ⟨7,[.setEnt .internalNl,.cb,.code,.setEnt (.own 3)],none,false⟩⟩,⟨256,.ws,false,some ⟨8,[.setEnt .internalNl,.cb,.setEnt (.own 3)],none,false⟩⟩,⟨256,.lf,false,some ⟨9,[.setEnt .internalNl,.cb,.setEnt (.own 3)],none,false⟩⟩,⟨256,.vt,false,some ⟨7,[.setEnt .internalNl,.cb,.code,.setEnt (.own 3)],none,false⟩⟩,⟨256,.ff,false,some ⟨10,[.setEnt .internalNl,.cb,.code,.setEnt (.own 3)],none,false⟩⟩,⟨256,.cr,false,some ⟨11,[.setEnt .internalNl,.cb,.code,.setEnt (.own 3)],none,false⟩⟩,⟨256,.cr,true,some ⟨12,[.setEnt .internalNl,.cb,.code,.setEnt (.own 3)],none,false⟩⟩,⟨256,.other,false,some ⟨0,[.setEnt .internalNl,.cb,.code,.setEnt (.own 3)],some 4,true⟩⟩,⟨256,.other,false,some ⟨13,[.setEnt .internalNl,.cb,.setEnt (.own 3)],none,false⟩⟩]⟩,⟨[31],none,[],[⟨256,.other,false,some ⟨7,[.code,.setEnt (.own 3)],none,false⟩⟩,⟨256,.ws,false,some ⟨8,[.setEnt (.own 3)],none,false⟩⟩,⟨256,.lf,false,some ⟨9,[.setEnt (.own 3)],none,false⟩⟩,⟨256,.vt,false,some ⟨7,[.code,.setEnt (.own 3)],none,false⟩⟩,⟨256,.ff,false,some ⟨10,[.code,.setEnt (.own 3)],none,false⟩⟩,⟨256,.cr,false,some ⟨11,[.code,.setEnt (.own 3)],none,false⟩⟩,⟨256,.cr,true,some ⟨12,[.code,.setEnt (.own 3)],none,false⟩⟩,⟨256,.other,false,some ⟨0,[.code,.setEnt (.own 3)],some 4,true⟩⟩,⟨256,.other,false,some ⟨13,[.setEnt (.own 3)],none,false⟩⟩]⟩,⟨[12],none,[],[⟨256,.other,false,some ⟨19,[.comment],none,false⟩⟩,⟨256,.ws,false,some ⟨20,[],none,false⟩⟩,⟨256,.lf,false,some ⟨21,[],none,false⟩⟩,⟨256,.vt,false,some ⟨19,[.comment],none,false⟩⟩,⟨256,.ff,false,some ⟨22,[],none,false⟩⟩,⟨256,.cr,false,some ⟨23,[],none,false⟩⟩,⟨256,.cr,true,some ⟨24,[],none,false⟩⟩,⟨256,.other,false,some ⟨25,[.comment],none,false⟩⟩]⟩,⟨[11],none,[],[⟨256,.other,false,some ⟨19,[.comment],none,false⟩⟩,⟨256,.ws,false,some ⟨20,[],none,false⟩⟩,⟨256,.lf,false,some ⟨21,[],none,false⟩⟩,⟨256,.vt,false,some ⟨19,[.comment],none,false⟩⟩,⟨256,.ff,false,some ⟨22,[],none,false⟩⟩,⟨256,.cr,false,some ⟨23,[],none,false⟩⟩,⟨256,.cr,true,some ⟨24,[],none,false⟩⟩,⟨256,.other,false,some ⟨25,[.comment],none,false⟩⟩]⟩,⟨[8],none,[],[⟨256,.other,false,some ⟨19,[.setEnt .internalNl,.cb,.comment],none,false⟩⟩,⟨256,.ws,false,some ⟨20,[.setEnt .internalNl,.cb],none,false⟩⟩,⟨256,.lf,false,some ⟨21,[.setEnt .internalNl,.cb],none,false⟩⟩,⟨256,.vt,false,some ⟨19,[.setEnt .internalNl,.cb,.comment],none,false⟩⟩,⟨256,.ff,false,some ⟨22,[.setEnt .internalNl,.cb],none,false⟩⟩,⟨256,.cr,false,some ⟨23,[.setEnt .internalNl,.cb],none,false⟩⟩,⟨256,.cr,true,some ⟨24,[.setEnt .internalNl,.cb],none,false⟩⟩,⟨256,.other,false,some ⟨25,[.setEnt .internalNl,.cb,.comment],none,false⟩⟩]⟩,⟨[9],none,[],[⟨256,.other,false,some ⟨19,[.setEnt .internalNl,.cb,.comment],none,false⟩⟩,⟨256,.ws,false,some ⟨20,[.setEnt .internalNl,.cb],none,false⟩⟩,⟨256,.lf,false,some ⟨21,[.setEnt .internalNl,.cb],none,false⟩⟩,⟨256,.vt,false,some ⟨19,[.setEnt .internalNl,.cb,.comment],none,false⟩⟩,⟨256,.ff,false,some ⟨22,[.setEnt .internalNl,.cb],none,false⟩⟩,⟨256,.cr,false,some ⟨23,[.setEnt .internalNl,.cb],none,false⟩⟩,⟨256,.cr,true,some ⟨24,[.setEnt .internalNl,.cb],none,false⟩⟩,⟨256,.other,false,some ⟨25,[.setEnt .internalNl,.cb,.comment],none,false⟩⟩]⟩,⟨[6],none,[],[⟨256,.other,false,none⟩,⟨256,.ws,false,none⟩,⟨256,.lf,false,some ⟨27,[],none,false⟩⟩,⟨256,.vt,false,none⟩,⟨256,.ff,false,none⟩,⟨256,.cr,false,none⟩,⟨256,.cr,true,none⟩]⟩,⟨[6,10],none,[],[⟨256,.other,false,some ⟨19,[.setEnt .internalNl,.cb,.comment],none,false⟩⟩,⟨256,.ws,false,some ⟨20,[.setEnt .internalNl,.cb],none,false⟩⟩,⟨256,.lf,false,some ⟨28,[.setEnt .internalNl,.cb],none,false⟩⟩,⟨256,.vt,false,some ⟨19,[.setEnt .internalNl,.cb,.comment],none,false⟩⟩,⟨256,.ff,false,some ⟨22,[.setEnt .internalNl,.cb],none,false⟩⟩,⟨256,.cr,false,some ⟨23,[.setEnt .internalNl,.cb],none,false⟩⟩,⟨256,.cr,true,some ⟨24,[.setEnt .internalNl,.cb],none,false⟩⟩,⟨256,.other,false,some ⟨25,[.setEnt .internalNl,.cb,.comment],none,false⟩⟩]⟩,⟨[12,13],none,[],[⟨256,.other,false,some ⟨19,[.comment],none,false⟩⟩,⟨256,.ws,false,some ⟨20,[],none,false⟩⟩,⟨256,.lf,false,some ⟨21,[],none,false⟩⟩,⟨256,.vt,false,some ⟨19,[.comment],none,false⟩⟩,⟨256,.ff,false,some ⟨22,[],none,false⟩⟩,⟨256,.cr,false,some ⟨23,[],none,false⟩⟩,⟨256,.cr,true,some ⟨24,[],none,false⟩⟩,⟨256,.other,false,some ⟨25,[.comment],none,false⟩⟩,⟨256,.other,false,some ⟨0,[],some 1,true⟩⟩]⟩,⟨[3],some 1,[],[⟨256,.other,false,some ⟨26,[],some 1,false⟩⟩,⟨256,.ws,false,some ⟨26,[],some 1,false⟩⟩,⟨256,.lf,false,none⟩,⟨256,.vt,false,some ⟨26,[],some 1,false⟩⟩,⟨256,.ff,false,none⟩,⟨256,.cr,false,none⟩,⟨256,.cr,true,none⟩]⟩,⟨[7],none,[],[⟨256,.other,false,some ⟨19,[.setEnt .internalNl,.cb,.comment],none,false⟩⟩,⟨256,.ws,false,some ⟨20,[.setEnt .internalNl,.cb],none,false⟩⟩,⟨256,.lf,false,some ⟨21,[.setEnt .internalNl,.cb],none,false⟩⟩,⟨256,.vt,false,some ⟨19,[.setEnt .internalNl,.cb,.comment],none,false⟩⟩,⟨256,.ff,false,some ⟨22,[.setEnt .internalNl,.cb],none,false⟩⟩,⟨256,.cr,false,some ⟨23,[.setEnt .internalNl,.cb],none,false⟩⟩,⟨256,.cr,true,some ⟨24,[.setEnt .internalNl,.cb],none,false⟩⟩,⟨256,.other,false,some ⟨25,[.setEnt .internalNl,.cb,.comment],none,false⟩⟩]⟩,⟨[7,8],none,[],[⟨256,.other,false,some ⟨19,[.setEnt .internalNl,.cb,.comment],none,false⟩⟩,⟨256,.ws,false,some ⟨20,[.setEnt .internalNl,.cb],none,false⟩⟩,⟨256,.lf,false,some ⟨21,[.setEnt .internalNl,.cb],none,false⟩⟩,⟨256,.vt,false,some ⟨19,[.setEnt .internalNl,.cb,.comment],none,false⟩⟩,⟨256,.ff,false,some ⟨22,[.setEnt .internalNl,.cb],none,false⟩⟩,⟨256,.cr,false,some ⟨23,[.setEnt .internalNl,.cb],none,false⟩⟩,⟨256,.cr,true,some ⟨24,[.setEnt .internalNl,.cb],none,false⟩⟩,⟨256,.other,false,some ⟨25,[.setEnt .internalNl,.cb,.comment],none,false⟩⟩]⟩]
theorem modelica_line_rowsOk : rowsOk modelica_line_nfa [] (modelica_line_cs.map (·.1)) modelica_line_rows = true := by decide +kernel
def modelica_line_D : Dfa modelica_line_M.nfa := ⟨modelica_line_masks, [], modelica_line_cs, modelica_line_rows, modelica_line_masksIn, modelica_line_repOk, modelica_line_rowsOk⟩

def scala_line_nfa : Nfa := ⟨[⟨0,4294967808,[],[(0,.setEnt (.own 0))],0,0⟩,⟨1,140737488355328,[],[],0,0⟩,⟨4,140737488355328,[],[],0,2⟩,⟨15,549755813888,[],[(6,.code)],0,0⟩,⟨20,17179869184,[],[(7,.code)],0,0⟩,⟨25,8192,[],[(8,.setEnt .newline)],0,0⟩,⟨27,1024,[],[(8,.setEnt .newline)],0,0⟩,⟨28,4096,[],[(8,.setEnt .newline)],0,0⟩,⟨29,8192,[.crAlone],[(8,.setEnt .newline)],0,0⟩,⟨30,115792089237316195423570985008687907853269984665640564039457584007908834656767,[],[(9,.setEnt (.own 3))],0,0⟩],[[⟨0,4294967808,[],[(0,.setEnt (.own 0))],0,0⟩],[⟨2,140737488355328,[],[(1,.comment)],0,0⟩],[⟨3,115792089237316195423570985008687907853269984665640564039457584007913129626623,[],[],0,0⟩],[⟨3,115792089237316195423570985008687907853269984665640564039457584007913129626623,[],[],0,0⟩],[⟨5,4398046511104,[],[(2,.comment)],0,2⟩],[⟨6,8192,[],[],0,2⟩,⟨8,1024,[],[],0,2⟩,⟨9,4096,[],[],0,2⟩,⟨10,8192,[.crAlone],[],0,2⟩,⟨11,4294967808,[],[],0,2⟩,⟨12,115792089237316195423570985008687907853269984665640564039457584007908834658815,[],[(5,.comment)],0,2⟩,⟨13,4398046511104,[],[],0,2⟩],[⟨7,1024,[],[],0,2⟩],[⟨6,8192,[],[(3,.setEnt .internalNl),(4,.cb)],0,2⟩,⟨8,1024,[],[(3,.setEnt .internalNl),(4,.cb)],0,2⟩,⟨9,4096,[],[(3,.setEnt .internalNl),(4,.cb)],0,2⟩,⟨10,8192,[.crAlone],[(3,.setEnt .internalNl),(4,.cb)],0,2⟩,⟨11,4294967808,[],[(3,.setEnt .internalNl),(4,.cb)],0,2⟩,⟨12,115792089237316195423570985008687907853269984665640564039457584007908834658815,[],[(3,.setEnt .internalNl),(4,.cb),(5,.comment)],0,2⟩,⟨13,4398046511104,[],[(3,.setEnt .internalNl),(4,.cb)],0,2⟩],[⟨6,8192,[],[(3,.setEnt .internalNl),(4,.cb)],0,2⟩,⟨8,1024,[],[(3,.setEnt .internalNl),(4,.cb)],0,2⟩,⟨9,4096,[],[(3,.setEnt .internalNl),(4,.cb)],0,2⟩,⟨10,8192,[.crAlone],[(3,.setEnt .internalNl),(4,.cb)],0,2⟩,⟨11,4294967808,[],[(3,.setEnt .internalNl),(4,.cb)],0,2⟩,⟨12,115792089237316195423570985008687907853269984665640564039457584007908834658815,[],[(3,.setEnt .internalNl),(4,.cb),(5,.comment)],0,2⟩,⟨13,4398046511104,[],[(3,.setEnt .internalNl),(4,.cb)],0,2⟩],[⟨6,8192,[],[(3,.setEnt .internalNl),(4,.cb)],0,2⟩,⟨8,1024,[],[(3,.setEnt .internalNl),(4,.cb)],0,2⟩,⟨9,4096,[],[(3,.setEnt .internalNl),(4,.cb)],0,2⟩,⟨10,8192,[.crAlone],[(3,.setEnt .internalNl),(4,.cb)],0,2⟩,⟨11,4294967808,[],[(3,.setEnt .internalNl),(4,.cb)],0,2⟩,⟨12,115792089237316195423570985008687907853269984665640564039457584007908834658815,[],[(3,.setEnt .internalNl),(4,.cb),(5,.comment)],0,2⟩,⟨13,4398046511104,[],[(3,.setEnt .internalNl),(4,.cb)],0,2⟩],[⟨6,8192,[],[(3,.setEnt .internalNl),(4,.cb)],0,2⟩,⟨8,1024,[],[(3,.setEnt .internalNl),(4,.cb)],0,2⟩,⟨9,4096,[],[(3,.setEnt .internalNl),(4,.cb)],0,2⟩,⟨10,8192,[.crAlone],[(3,.setEnt .internalNl),(4,.cb)],0,2⟩,⟨11,4294967808,[],[(3,.setEnt .internalNl),(4,.cb)],0,2⟩,⟨12,115792089237316195423570985008687907853269984665640564039457584007908834658815,[],[(3,.setEnt .internalNl),(4,.cb),(5,.comment)],0,2⟩,⟨13,4398046511104,[],[(3,.setEnt .internalNl),(4,.cb)],0,2⟩],[⟨6,8192,[],[],0,2⟩,⟨8,1024,[],[],0,2⟩,⟨9,4096,[],[],0,2⟩,⟨10,8192,[.crAlone],[],0,2⟩,⟨11,4294967808,[],[],0,2⟩,⟨12,115792089237316195423570985008687907853269984665640564039457584007908834658815,[],[(5,.comment)],0,2⟩,⟨13,4398046511104,[],[],0,2⟩],[⟨6,8192,[],[],0,2⟩,⟨8,1024,[],[],0,2⟩,⟨9,4096,[],[],0,2⟩,⟨10,8192,[.crAlone],[],0,2⟩,⟨11,4294967808,[],[],0,2⟩,⟨12,115792089237316195423570985008687907853269984665640564039457584007908834658815,[],[(5,.comment)],0,2⟩,⟨13,4398046511104,[],[],0,2⟩],[⟨14,140737488355328,[],[],2,0⟩],[],[⟨16,115792089237316195423570985008687907853269984665635612279300442486263777315839,[],[],0,0⟩,⟨17,4951760157141521099596496896,[],[],0,0⟩,⟨19,549755813888,[],[],0,0⟩],[⟨16,115792089237316195423570985008687907853269984665635612279300442486263777315839,[],[],0,0⟩,⟨17,4951760157141521099596496896,[],[],0,0⟩,⟨19,549755813888,[],[],0,0⟩],[⟨18,115792089237316195423570985008687907853269984665640564039457584007913129626623,[],[],0,0⟩],[⟨16,115792089237316195423570985008687907853269984665635612279300442486263777315839,[],[],0,0⟩,⟨17,4951760157141521099596496896,[],[],0,0⟩,⟨19,549755813888,[],[],0,0⟩],[],[⟨21,115792089237316195423570985008687907853269984665635612279300442486796353260543,[],[],0,0⟩,⟨22,4951760157141521099596496896,[],[],0,0⟩,⟨24,17179869184,[],[],0,0⟩],[⟨21,115792089237316195423570985008687907853269984665635612279300442486796353260543,[],[],0,0⟩,⟨22,4951760157141521099596496896,[],[],0,0⟩,⟨24,17179869184,[],[],0,0⟩],[⟨23,115792089237316195423570985008687907853269984665640564039457584007913129626623,[],[],0,0⟩],[⟨21,115792089237316195423570985008687907853269984665635612279300442486796353260543,[],[],0,0⟩,⟨22,4951760157141521099596496896,[],[],0,0⟩,⟨24,17179869184,[],[],0,0⟩],[],[⟨26,1024,[],[(8,.setEnt .newline)],0,0⟩],[],[],[],[],[]],[some (0,[]),none,some (1,[]),some (1,[]),none,none,none,none,none,none,none,none,none,none,some (1,[]),none,none,none,none,some (2,[]),none,none,none,none,some (2,[]),none,some (3,[]),some (3,[]),some (3,[]),some (3,[]),some (4,[])],[1,6,8,9,10]⟩
theorem scala_line_nfa_eq : Scala.scala_line.nfa = scala_line_nfa := by decide +kernel
/-- The machine of `Scala.scala_line`, with its automaton as a literal. -/
def scala_line_M : Machine := ⟨scala_line_nfa, Scala.scala_line.ends, Scala.scala_line.sw⟩
theorem scala_line_M_eq : Scala.scala_line.machine = scala_line_M := by
  unfold Scanner.machine scala_line_M; rw [scala_line_nfa_eq]
def scala_line_masks : List Nat := [4294967808,140737488355328,549755813888,17179869184,8192,1024,4096,115792089237316195423570985008687907853269984665640564039457584007908834656767,115792089237316195423570985008687907853269984665640564039457584007913129626623,4398046511104,115792089237316195423570985008687907853269984665640564039457584007908834658815,115792089237316195423570985008687907853269984665635612279300442486263777315839,4951760157141521099596496896,115792089237316195423570985008687907853269984665635612279300442486796353260543]
def scala_line_cs : List (Nat × Nat) := [(0,115792089237316195423570985008687907853269984665635612279300442341106767610367),(9,4294967808),(10,1024),(11,2048),(12,4096),(13,8192),(34,17179869184),(39,549755813888),(42,4398046511104),(47,140737488355328),(92,4951760157141521099596496896)]
theorem scala_line_masksIn : masksIn scala_line_nfa scala_line_masks = true := by decide +kernel
theorem scala_line_repOk : repOk scala_line_masks scala_line_cs = true := by decide +kernel
def scala_line_rows : List Row := [⟨[],none,[],[⟨256,.other,false,some ⟨0,[.setEnt (.own 3)],some 4,true⟩⟩,⟨256,.ws,false,some ⟨1,[.setEnt (.own 0)],some 0,false⟩⟩,⟨256,.lf,false,some ⟨0,[.setEnt .newline],some 3,true⟩⟩,⟨256,.vt,false,none⟩,⟨256,.ff,false,some ⟨0,[.setEnt .newline],some 3,true⟩⟩,⟨256,.cr,false,some ⟨2,[.setEnt .newline],none,false⟩⟩,⟨256,.cr,true,some ⟨3,[.setEnt .newline],some 3,false⟩⟩,⟨256,.other,false,some ⟨4,[.code,.setEnt (.own 3)],some 4,false⟩⟩,⟨256,.other,false,some ⟨5,[.code,.setEnt (.own 3)],some 4,false⟩⟩,⟨256,.other,false,some ⟨6,[.setEnt (.own 3)],some 4,false⟩⟩]⟩,⟨[0],some 0,[],[⟨256,.other,false,none⟩,⟨256,.ws,false,some ⟨1,[.setEnt (.own 0)],some 0,false⟩⟩,⟨256,.lf,false,none⟩,⟨256,.vt,false,none⟩,⟨256,.ff,false,none⟩,⟨256,.cr,false,none⟩,⟨256,.cr,true,none⟩]⟩,⟨[25],none,[],[⟨256,.other,false,none⟩,⟨256,.ws,false,none⟩,⟨256,.lf,false,some ⟨0,[.setEnt .newline],some 3,true⟩⟩,⟨256,.vt,false,none⟩,⟨256,.ff,false,none⟩,⟨256,.cr,false,none⟩,⟨256,.cr,true,none⟩]⟩,⟨[25,29],some 3,[],[⟨256,.other,false,none⟩,⟨256,.ws,false,none⟩,⟨256,.lf,false,some ⟨0,[.setEnt .newline],some 3,true⟩⟩,⟨256,.vt,false,none⟩,⟨256,.ff,false,none⟩,⟨256,.cr,false,none⟩,⟨256,.cr,true,none⟩]⟩,⟨[20,30],some 4,[],[⟨256,.other,false,some ⟨7,[],none,false⟩⟩,⟨256,.ws,false,some ⟨7,[],none,false⟩⟩,⟨256,.lf,false,none⟩,⟨256,.vt,false,some ⟨7,[],none,false⟩⟩,⟨256,.ff,false,none⟩,⟨256,.cr,false,none⟩,⟨256,.cr,true,none⟩,⟨256,.other,false,some ⟨0,[],some 2,true⟩⟩,⟨256,.other,false,some ⟨8,[],none,false⟩⟩]⟩,⟨[15,30],some 4,[],[⟨256,.other,false,some ⟨9,[],none,false⟩⟩,⟨256,.ws,false,some ⟨9,[],none,false⟩⟩,⟨256,.lf,false,none⟩,⟨256,.vt,false,some ⟨9,[],none,false⟩⟩,⟨256,.ff,false,none⟩,⟨256,.cr,false,none⟩,⟨256,.cr,true,none⟩,⟨256,.other,false,some ⟨0,[],some 2,true⟩⟩,⟨256,.other,false,some ⟨10,[],none,false⟩⟩]⟩,⟨[1,4,30],some 4,[],[⟨256,.other,false,none⟩,⟨256,.ws,false,none⟩,⟨256,.lf,false,none⟩,⟨256,.vt,false,none⟩,⟨256,.ff,false,none⟩,⟨256,.cr,false,none⟩,⟨256,.cr,true,none⟩,⟨256,.other,false,some ⟨11,[.comment],none,false⟩⟩,⟨256,.other,false,some ⟨12,[.comment],some 1,false⟩⟩]⟩,⟨[21],none,[],[⟨256,.other,false,some ⟨7,[],none,false⟩⟩,⟨256,.ws,false,some ⟨7,[],none,false⟩⟩,⟨256,.lf,false,none⟩,⟨256,.vt,false,some ⟨7,[],none,false⟩⟩,⟨256,.ff,false,none⟩,⟨256,.cr,false,none⟩,⟨256,.cr,true,none⟩,⟨256,.other,false,some ⟨0,[],some 2,true⟩⟩,⟨256,.other,false,some ⟨8,[],none,false⟩⟩]⟩,⟨[22],none,[],[⟨256,.other,false,some ⟨13,[],none,false⟩⟩,⟨256,.ws,false,some ⟨13,[],none,false⟩⟩,⟨256,.lf,false,none⟩,⟨256,.vt,false,some ⟨13,[],none,false⟩⟩,⟨256,.ff,false,none⟩,⟨256,.cr,false,none⟩,⟨256,.cr,true,none⟩]⟩,⟨[16],none,[],[⟨256,.other,false,some ⟨9,[],none,false⟩⟩,⟨256,.ws,false,some ⟨9,[],none,false⟩⟩,⟨256,.lf,false,none⟩,⟨256,.vt,false,some ⟨9,[],none,false⟩⟩,⟨256,.ff,false,none⟩,⟨256,.cr,false,none⟩,⟨256,.cr,true,none⟩,⟨256,.other,false,some ⟨0,[],some 2,true⟩⟩,⟨256,.other,false,some ⟨10,[],none,false⟩⟩]⟩,⟨[17],none,[],[⟨256,.other,false,some ⟨14,[],none,false⟩⟩,⟨256,.ws,false,some ⟨14,[],none,false⟩⟩,⟨256,.lf,false,none⟩,⟨256,.vt,false,some ⟨14,[],none,false⟩⟩,⟨256,.ff,false,none⟩,⟨256,.cr,false,none⟩,⟨256,.cr,true,none⟩]⟩,⟨[5],none,[],[⟨256,.other,false,some ⟨15,[.comment],none,false⟩⟩,⟨256,.ws,false,some ⟨16,[],none,false⟩⟩,⟨256,.lf,false,some ⟨17,[],none,false⟩⟩,⟨256,.vt,false,some ⟨15,[.comment],none,false⟩⟩,⟨256,.ff,false,some ⟨18,[],none,false⟩⟩,⟨256,.cr,false,some ⟨19,[],none,false⟩⟩,⟨256,.cr,true,some ⟨20,[],none,false⟩⟩,⟨256,.other,false,some ⟨21,[.comment],none,false⟩⟩]⟩,⟨[2],some 1,[],[⟨256,.other,false,some ⟨22,[],some 1,false⟩⟩,⟨256,.ws,false,some ⟨22,[],some 1,false⟩⟩,⟨256,.lf,false,none⟩,⟨256,.vt,false,some ⟨22,[],some 1,false⟩⟩,⟨256,.ff,false,none⟩,⟨256,.cr,false,none⟩,⟨256,.cr,true,none⟩]⟩,⟨[23],none,[],[⟨256,.other,false,some ⟨7,[],none,false⟩⟩,⟨256,.ws,false,some ⟨7,[],none,false⟩⟩,⟨256,.lf,false,none⟩,⟨256,.vt,false,some ⟨7,[],none,false⟩⟩,⟨256,.ff,false,none⟩,⟨256,.cr,false,none⟩,⟨256,.cr,true,none⟩,⟨256,.other,false,some ⟨0,[],some 2,true⟩⟩,⟨256,.other,false,some ⟨8,[],none,false⟩⟩]⟩,⟨[18],none,[],[⟨256,.other,false,some ⟨9,[],none,false⟩⟩,⟨256,.ws,false,some ⟨9,[],none,false⟩⟩,⟨256,.lf,false,none⟩,⟨256,.vt,false,some ⟨9,[],none,false⟩⟩,⟨256,.ff,false,none⟩,⟨256,.cr,false,none⟩,⟨256,.cr,true,none⟩,⟨256,.other,false,some ⟨0,[],some 2,true⟩⟩,⟨256,.other,false,some ⟨10,[],none,false⟩⟩]⟩,⟨[12],none,[],[⟨256,.other,false,some ⟨15,[.comment],none,false⟩⟩,⟨256,.ws,false,some ⟨16,[],none,false⟩⟩,⟨256,.lf,false,some ⟨17,[],none,false⟩⟩,⟨256,.vt,false,some ⟨15,[.comment],none,false⟩⟩,⟨256,.ff,false,some ⟨18,[],none,false⟩⟩,⟨256,.cr,false,some ⟨19,[],none,false⟩⟩,⟨256,.cr,true,some ⟨20,[],none,false⟩⟩,⟨256,.other,false,some ⟨21,[.comment],none,false⟩⟩]⟩,⟨[11],none,[],[⟨256,.other,false,some ⟨15,[.comment],none,false⟩⟩,⟨256,.ws,false,some ⟨16,[],none,false⟩⟩,⟨256,.lf,false,some ⟨17,[],none,false⟩⟩,⟨256,.vt,false,some ⟨15,[.comment],none,false⟩⟩,⟨256,.ff,false,some ⟨18,[],none,false⟩⟩,⟨256,.cr,false,some ⟨19,[],none,false⟩⟩,⟨256,.cr,true,some ⟨20,[],none,false⟩⟩,⟨256,.other,false,some ⟨21,[.comment],none,false⟩⟩]⟩,⟨[8],none,[],[⟨256,.other,false,some ⟨15,[.setEnt .internalNl,.cb,.comment],none,false⟩⟩,⟨256,.ws,false,some ⟨16,[.setEnt .internalNl,.cb],none,false⟩⟩,⟨256,.lf,false,some ⟨17,[.setEnt .internalNl,.cb],none,false⟩⟩,⟨256,.vt,false,some ⟨15,[.setEnt .internalNl,.cb,.comment],none,false⟩⟩,⟨256,.ff,false,some ⟨18,[.setEnt .internalNl,.cb],none,false⟩⟩,⟨256,.cr,false,some ⟨19,[.setEnt .internalNl,.cb],none,false⟩⟩,⟨256,.cr,true,some ⟨20,[.setEnt .internalNl,.cb],none,false⟩⟩,⟨256,.other,false,some ⟨21,[.setEnt .internalNl,.cb,.comment],none,false⟩⟩]⟩,⟨[9],none,[],[⟨256,.other,false,some ⟨15,[.setEnt .internalNl,.cb,.comment],none,false⟩⟩,⟨256,.ws,false,some ⟨16,[.setEnt .internalNl,.cb],none,false⟩⟩,⟨256,.lf,false,some ⟨17,[.setEnt .internalNl,.cb],none,false⟩⟩,⟨256,.vt,false,some ⟨15,[.setEnt .internalNl,.cb,.comment],none,false⟩⟩,⟨256,.ff,false,some ⟨18,[.setEnt .internalNl,.cb],none,false⟩⟩,⟨256,.cr,false,some ⟨19,[.setEnt .internalNl,.cb],none,false⟩⟩,⟨256,.cr,true,some ⟨20,[.setEnt .internalNl,.cb],none,false⟩⟩,⟨256,.other,false,some ⟨21,[.setEnt .internalNl,.cb,.comment],none,false⟩⟩]⟩,⟨[6],none,[],[⟨256,.other,false,none⟩,⟨256,.ws,false,none⟩,⟨256,.lf,false,some ⟨23,[],none,false⟩⟩,⟨256,.vt,false,none⟩,⟨256,.ff,false,none⟩,⟨256,.cr,false,none⟩,⟨256,.cr,true,none⟩]⟩,⟨[6,10],none,[],[⟨256,.other,false,some ⟨15,[.setEnt .internalNl,.cb,.comment],none,false⟩⟩,⟨256,.ws,false,some ⟨16,[.setEnt .internalNl,.cb],none,false⟩⟩,⟨256,.lf,false,some ⟨24,[.setEnt .internalNl,.cb],none,false⟩⟩,⟨256,.vt,false,some ⟨15,[.setEnt .internalNl,.cb,.comment],none,false⟩⟩,⟨256,.ff,false,some ⟨18,[.setEnt .internalNl,.cb],none,false⟩⟩,⟨256,.cr,false,some ⟨19,[.setEnt .internalNl,.cb],none,false⟩⟩,⟨256,.cr,true,some ⟨20,[.setEnt .internalNl,.cb],none,false⟩⟩,⟨256,.other,false,some ⟨21,[.setEnt .internalNl,.cb,.comment],none,false⟩⟩]⟩,⟨[12,13],none,[],[⟨256,.other,false,some ⟨15,[.comment],none,false⟩⟩,⟨256,.ws,false,some ⟨16,[],none,false⟩⟩,⟨256,.lf,false,some ⟨17,[],none,false⟩⟩,⟨256,.vt,false,some ⟨15,[.comment],none,false⟩⟩,⟨256,.ff,false,some ⟨18,[],none,false⟩⟩,⟨256,.cr,false,some ⟨19,[],none,false⟩⟩,⟨256,.cr,true,some ⟨20,[],none,false⟩⟩,⟨256,.other,false,some ⟨21,[.comment],none,false⟩⟩,⟨256,.other,false,some ⟨0,[],some 1,true⟩⟩]⟩,⟨[3],some 1,[],[⟨256,.other,false,some ⟨22,[],some 1,false⟩⟩,⟨256,.ws,false,some ⟨22,[],some 1,false⟩⟩,⟨256,.lf,false,none⟩,⟨256,.vt,false,some ⟨22,[],some 1,false⟩⟩,⟨256,.ff,false,none⟩,⟨256,.cr,false,none⟩,⟨256,.cr,true,none⟩]⟩,⟨[7],none,[],[⟨256,.other,false,some ⟨15,[.setEnt .internalNl,.cb,.comment],none,false⟩⟩,⟨256,.ws,false,some ⟨16,[.setEnt .internalNl,.cb],none,false⟩⟩,⟨256,.lf,false,some ⟨17,[.setEnt .internalNl,.cb],none,false⟩⟩,⟨256,.vt,false,some ⟨15,[.setEnt .internalNl,.cb,.comment],none,false⟩⟩,⟨256,.ff,false,some ⟨18,[.setEnt .internalNl,.cb],none,false⟩⟩,⟨256,.cr,false,some ⟨19,[.setEnt .internalNl,.cb],none,false⟩⟩,⟨256,.cr,true,some ⟨20,[.setEnt .internalNl,.cb],none,false⟩⟩,⟨256,.other,false,some ⟨21,[.setEnt .internalNl,.cb,.comment],none,false⟩⟩]⟩,⟨[7,8],none,[],[⟨256,.other,false,some ⟨15,[.setEnt .internalNl,.cb,.comment],none,false⟩⟩,⟨256,.ws,false,some ⟨16,[.setEnt .internalNl,.cb],none,false⟩⟩,⟨256,.lf,false,some ⟨17,[.setEnt .internalNl,.cb],none,false⟩⟩,⟨256,.vt,false,some ⟨15,[.setEnt .internalNl,.cb,.comment],none,false⟩⟩,⟨256,.ff,false,some ⟨18,[.setEnt .internalNl,.cb],none,false⟩⟩,⟨256,.cr,false,some ⟨19,[.setEnt .internalNl,.cb],none,false⟩⟩,⟨256,.cr,true,some ⟨20,[.setEnt .internalNl,.cb],none,false⟩⟩,⟨256,.other,false,some ⟨21,[.setEnt .internalNl,.cb,.comment],none,false⟩⟩]⟩]
theorem scala_line_rowsOk : rowsOk scala_line_nfa [] (scala_line_cs.map (·.1)) scala_line_rows = true := by decide +kernel
def scala_line_D : Dfa scala_line_M.nfa := ⟨scala_line_masks, [], scala_line_cs, scala_line_rows, scala_line_masksIn, scala_line_repOk, scala_line_rowsOk⟩

end Ohcount.Cert
