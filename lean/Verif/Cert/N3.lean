import Verif.Gram.All
import Verif.RagelCheck

/-! Generated by tools/gen_certs.py. -/

namespace Ohcount.Cert
open Ohcount.Ragel Ohcount.Gram

set_option maxRecDepth 100000

def augeas_line_nfa : Nfa := ⟨[⟨0,4294967808,[],[(0,.setEnt (.own 0))],0,0⟩,⟨1,1099511627776,[],[(1,.nestRes)],0,2⟩,⟨16,17179869184,[],[(11,.code)],0,0⟩,⟨21,8192,[],[(12,.setEnt .newline)],0,0⟩,⟨23,1024,[],[(12,.setEnt .newline)],0,0⟩,⟨24,4096,[],[(12,.setEnt .newline)],0,0⟩,⟨25,8192,[.crAlone],[(12,.setEnt .newline)],0,0⟩,⟨26,115792089237316195423570985008687907853269984665640564039457584007908834656767,[],[(13,.setEnt (.own 3))],0,0⟩],[[⟨0,4294967808,[],[(0,.setEnt (.own 0))],0,0⟩],[⟨2,4398046511104,[],[(2,.comment)],0,2⟩],[⟨3,8192,[],[],0,2⟩,⟨5,1024,[],[],0,2⟩,⟨6,4096,[],[],0,2⟩,⟨7,8192,[.crAlone],[],0,2⟩,⟨8,4294967808,[],[],0,2⟩,⟨9,1099511627776,[],[],0,2⟩,⟨11,4398046511104,[],[],0,2⟩,⟨13,115792089237316195423570985008687907853269984665640564039457584007908834658815,[],[(9,.comment)],0,2⟩,⟨14,4398046511104,[.nestZero],[],0,2⟩],[⟨4,1024,[],[],0,2⟩],[⟨3,8192,[],[(3,.setEnt .internalNl),(4,.cb)],0,2⟩,⟨5,1024,[],[(3,.setEnt .internalNl),(4,.cb)],0,2⟩,⟨6,4096,[],[(3,.setEnt .internalNl),(4,.cb)],0,2⟩,⟨7,8192,[.crAlone],[(3,.setEnt .internalNl),(4,.cb)],0,2⟩,⟨8,4294967808,[],[(3,.setEnt .internalNl),(4,.cb)],0,2⟩,⟨9,1099511627776,[],[(3,.setEnt .internalNl),(4,.cb)],0,2⟩,⟨11,4398046511104,[],[(3,.setEnt .internalNl),(4,.cb)],0,2⟩,⟨13,115792089237316195423570985008687907853269984665640564039457584007908834658815,[],[(3,.setEnt .internalNl),(4,.cb),(9,.comment)],0,2⟩,⟨14,4398046511104,[.nestZero],[(3,.setEnt .internalNl),(4,.cb)],0,2⟩],[⟨3,8192,[],[(3,.setEnt .internalNl),(4,.cb)],0,2⟩,⟨5,1024,[],[(3,.setEnt .internalNl),(4,.cb)],0,2⟩,⟨6,4096,[],[(3,.setEnt .internalNl),(4,.cb)],0,2⟩,⟨7,8192,[.crAlone],[(3,.setEnt .internalNl),(4,.cb)],0,2⟩,⟨8,4294967808,[],[(3,.setEnt .internalNl),(4,.cb)],0,2⟩,⟨9,1099511627776,[],[(3,.setEnt .internalNl),(4,.cb)],0,2⟩,⟨11,4398046511104,[],[(3,.setEnt .internalNl),(4,.cb)],0,2⟩,⟨13,115792089237316195423570985008687907853269984665640564039457584007908834658815,[],[(3,.setEnt .internalNl),(4,.cb),(9,.comment)],0,2⟩,⟨14,4398046511104,[.nestZero],[(3,.setEnt .internalNl),(4,.cb)],0,2⟩],[⟨3,8192,[],[(3,.setEnt .internalNl),(4,.cb)],0,2⟩,⟨5,1024,[],[(3,.setEnt .internalNl),(4,.cb)],0,2⟩,⟨6,4096,[],[(3,.setEnt .internalNl),(4,.cb)],0,2⟩,⟨7,8192,[.crAlone],[(3,.setEnt .internalNl),(4,.cb)],0,2⟩,⟨8,4294967808,[],[(3,.setEnt .internalNl),(4,.cb)],0,2⟩,⟨9,1099511627776,[],[(3,.setEnt .internalNl),(4,.cb)],0,2⟩,⟨11,4398046511104,[],[(3,.setEnt .internalNl),(4,.cb)],0,2⟩,⟨13,115792089237316195423570985008687907853269984665640564039457584007908834658815,[],[(3,.setEnt .internalNl),(4,.cb),(9,.comment)],0,2⟩,⟨14,4398046511104,[.nestZero],[(3,.setEnt .internalNl),(4,.cb)],0,2⟩],[⟨3,8192,[],[(3,.setEnt .internalNl),(4,.cb)],0,2⟩,⟨5,1024,[],[(3,.setEnt .internalNl),(4,.cb)],0,2⟩,⟨6,4096,[],[(3,.setEnt .internalNl),(4,.cb)],0,2⟩,⟨7,8192,[.crAlone],[(3,.setEnt .internalNl),(4,.cb)],0,2⟩,⟨8,4294967808,[],[(3,.setEnt .internalNl),(4,.cb)],0,2⟩,⟨9,1099511627776,[],[(3,.setEnt .internalNl),(4,.cb)],0,2⟩,⟨11,4398046511104,[],[(3,.setEnt .internalNl),(4,.cb)],0,2⟩,⟨13,115792089237316195423570985008687907853269984665640564039457584007908834658815,[],[(3,.setEnt .internalNl),(4,.cb),(9,.comment)],0,2⟩,⟨14,4398046511104,[.nestZero],[(3,.setEnt .internalNl),(4,.cb)],0,2⟩],[⟨3,8192,[],[],0,2⟩,⟨5,1024,[],[],0,2⟩,⟨6,4096,[],[],0,2⟩,⟨7,8192,[.crAlone],[],0,2⟩,⟨8,4294967808,[],[],0,2⟩,⟨9,1099511627776,[],[],0,2⟩,⟨11,4398046511104,[],[],0,2⟩,⟨13,115792089237316195423570985008687907853269984665640564039457584007908834658815,[],[(9,.comment)],0,2⟩,⟨14,4398046511104,[.nestZero],[],0,2⟩],[⟨10,4398046511104,[],[(5,.nestInc),(6,.comment)],0,2⟩],[⟨3,8192,[],[],0,2⟩,⟨5,1024,[],[],0,2⟩,⟨6,4096,[],[],0,2⟩,⟨7,8192,[.crAlone],[],0,2⟩,⟨8,4294967808,[],[],0,2⟩,⟨9,1099511627776,[],[],0,2⟩,⟨11,4398046511104,[],[],0,2⟩,⟨13,115792089237316195423570985008687907853269984665640564039457584007908834658815,[],[(9,.comment)],0,2⟩,⟨14,4398046511104,[.nestZero],[],0,2⟩],[⟨12,2199023255552,[],[(7,.nestDec),(8,.comment)],0,2⟩],[⟨3,8192,[],[],0,2⟩,⟨5,1024,[],[],0,2⟩,⟨6,4096,[],[],0,2⟩,⟨7,8192,[.crAlone],[],0,2⟩,⟨8,4294967808,[],[],0,2⟩,⟨9,1099511627776,[],[],0,2⟩,⟨11,4398046511104,[],[],0,2⟩,⟨13,115792089237316195423570985008687907853269984665640564039457584007908834658815,[],[(9,.comment)],0,2⟩,⟨14,4398046511104,[.nestZero],[],0,2⟩],[⟨3,8192,[],[],0,2⟩,⟨5,1024,[],[],0,2⟩,⟨6,4096,[],[],0,2⟩,⟨7,8192,[.crAlone],[],0,2⟩,⟨8,4294967808,[],[],0,2⟩,⟨9,1099511627776,[],[],0,2⟩,⟨11,4398046511104,[],[],0,2⟩,⟨13,115792089237316195423570985008687907853269984665640564039457584007908834658815,[],[(9,.comment)],0,2⟩,⟨14,4398046511104,[.nestZero],[],0,2⟩],[⟨15,2199023255552,[.nestZero],[(10,.comment)],2,0⟩],[],[⟨17,115792089237316195423570985008687907853269984665635612279300442486796353260543,[],[],0,0⟩,⟨18,4951760157141521099596496896,[],[],0,0⟩,⟨20,17179869184,[],[],0,0⟩],[⟨17,115792089237316195423570985008687907853269984665635612279300442486796353260543,[],[],0,0⟩,⟨18,4951760157141521099596496896,[],[],0,0⟩,⟨20,17179869184,[],[],0,0⟩],[⟨19,115792089237316195423570985008687907853269984665640564039457584007913129626623,[],[],0,0⟩],[⟨17,115792089237316195423570985008687907853269984665635612279300442486796353260543,[],[],0,0⟩,⟨18,4951760157141521099596496896,[],[],0,0⟩,⟨20,17179869184,[],[],0,0⟩],[],[⟨22,1024,[],[(12,.setEnt .newline)],0,0⟩],[],[],[],[],[]],[some (0,[]),none,none,none,none,none,none,none,none,none,none,none,none,none,none,some (1,[]),none,none,none,none,some (2,[]),none,some (3,[]),some (3,[]),some (3,[]),some (3,[]),some (4,[])],[1,11,12,13,14]⟩
theorem augeas_line_nfa_eq : Augeas.augeas_line.nfa = augeas_line_nfa := by decide +kernel
/-- The machine of `Augeas.augeas_line`, with its automaton as a literal. -/
def augeas_line_M : Machine := ⟨augeas_line_nfa, Augeas.augeas_line.ends, Augeas.augeas_line.sw⟩
theorem augeas_line_M_eq : Augeas.augeas_line.machine = augeas_line_M := by
  unfold Scanner.machine augeas_line_M; rw [augeas_line_nfa_eq]
def augeas_line_masks : List Nat := [4294967808,1099511627776,17179869184,8192,1024,4096,115792089237316195423570985008687907853269984665640564039457584007908834656767,4398046511104,115792089237316195423570985008687907853269984665640564039457584007908834658815,2199023255552,115792089237316195423570985008687907853269984665635612279300442486796353260543,4951760157141521099596496896,115792089237316195423570985008687907853269984665640564039457584007913129626623]
def augeas_line_cs : List (Nat × Nat) := [(0,115792089237316195423570985008687907853269984665635612279300442479095476896255),(9,4294967808),(10,1024),(11,2048),(12,4096),(13,8192),(34,17179869184),(40,1099511627776),(41,2199023255552),(42,4398046511104),(92,4951760157141521099596496896)]
theorem augeas_line_masksIn : masksIn augeas_line_nfa augeas_line_masks = true := by decide +kernel
theorem augeas_line_repOk : repOk augeas_line_masks augeas_line_cs = true := by decide +kernel
def augeas_line_rows : List Row := [⟨[],none,[],[⟨256,.other,false,some ⟨0,[.setEnt (.own 3)],some 4,true⟩⟩,⟨256,.ws,false,some ⟨1,[.setEnt (.own 0)],some 0,false⟩⟩,⟨256,.lf,false,some ⟨0,[.setEnt .newline],some 3,true⟩⟩,⟨256,.vt,false,none⟩,⟨256,.ff,false,some ⟨0,[.setEnt .newline],some 3,true⟩⟩,⟨256,.cr,false,some ⟨2,[.setEnt .newline],none,false⟩⟩,⟨256,.cr,true,some ⟨3,[.setEnt .newline],some 3,false⟩⟩,⟨256,.other,false,some ⟨4,[.code,.setEnt (.own 3)],some 4,false⟩⟩,⟨256,.other,false,some ⟨5,[.nestRes,.setEnt (.own 3)],some 4,false⟩⟩]⟩,⟨[0],some 0,[],[⟨256,.other,false,none⟩,⟨256,.ws,false,some ⟨1,[.setEnt (.own 0)],some 0,false⟩⟩,⟨256,.lf,false,none⟩,⟨256,.vt,false,none⟩,⟨256,.ff,false,none⟩,⟨256,.cr,false,none⟩,⟨256,.cr,true,none⟩]⟩,⟨[21],none,[],[⟨256,.other,false,none⟩,⟨256,.ws,false,none⟩,⟨256,.lf,false,some ⟨0,[.setEnt .newline],some 3,true⟩⟩,⟨256,.vt,false,none⟩,⟨256,.ff,false,none⟩,⟨256,.cr,false,none⟩,⟨256,.cr,true,none⟩]⟩,⟨[21,25],some 3,[],[⟨256,.other,false,none⟩,⟨256,.ws,false,none⟩,⟨256,.lf,false,some ⟨0,[.setEnt .newline],some 3,true⟩⟩,⟨256,.vt,false,none⟩,⟨256,.ff,false,none⟩,⟨256,.cr,false,none⟩,⟨256,.cr,true,none⟩]⟩,⟨[16,26],some 4,[],[⟨256,.other,false,some ⟨6,[],none,false⟩⟩,⟨256,.ws,false,some ⟨6,[],none,false⟩⟩,⟨256,.lf,false,none⟩,⟨256,.vt,false,some ⟨6,[],none,false⟩⟩,⟨256,.ff,false,none⟩,⟨256,.cr,false,none⟩,⟨256,.cr,true,none⟩,⟨256,.other,false,some ⟨0,[],some 2,true⟩⟩,⟨256,.other,false,some ⟨7,[],none,false⟩⟩]⟩,⟨[1,26],some 4,[],[⟨256,.other,false,none⟩,⟨256,.ws,false,none⟩,⟨256,.lf,false,none⟩,⟨256,.vt,false,none⟩,⟨256,.ff,false,none⟩,⟨256,.cr,false,none⟩,⟨256,.cr,true,none⟩,⟨256,.other,false,some ⟨8,[.comment],none,false⟩⟩]⟩,⟨[17],none,[],[⟨256,.other,false,some ⟨6,[],none,false⟩⟩,⟨256,.ws,false,some ⟨6,[],none,false⟩⟩,⟨256,.lf,false,none⟩,⟨256,.vt,false,some ⟨6,[],none,false⟩⟩,⟨256,.ff,false,none⟩,⟨256,.cr,false,none⟩,⟨256,.cr,true,none⟩,⟨256,.other,false,some ⟨0,[],some 2,true⟩⟩,⟨256,.other,false,some ⟨7,[],none,false⟩⟩]⟩,⟨[18],none,[],[⟨256,.other,false,some ⟨9,[],none,false⟩⟩,⟨256,.ws,false,some ⟨9,[],none,false⟩⟩,⟨256,.lf,false,none⟩,⟨256,.vt,false,some ⟨9,[],none,false⟩⟩,⟨256,.ff,false,none⟩,⟨256,.cr,false,none⟩,⟨256,.cr,true,none⟩]⟩,⟨[2],none,[],[⟨256,.other,false,some ⟨10,[.comment],none,false⟩⟩,⟨256,.ws,false,some ⟨11,[],none,false⟩⟩,⟨256,.lf,false,some ⟨12,[],none,false⟩⟩,⟨256,.vt,false,some ⟨10,[.comment],none,false⟩⟩,⟨256,.ff,false,some ⟨13,[],none,false⟩⟩,⟨256,.cr,false,some ⟨14,[],none,false⟩⟩,⟨256,.cr,true,some ⟨15,[],none,false⟩⟩,⟨256,.other,false,some ⟨16,[.comment],none,false⟩⟩,⟨256,.other,false,some ⟨17,[.comment],none,false⟩⟩,⟨256,.other,false,some ⟨18,[.comment],none,false⟩⟩]⟩,⟨[19],none,[],[⟨256,.other,false,some ⟨6,[],none,false⟩⟩,⟨256,.ws,false,some ⟨6,[],none,false⟩⟩,⟨256,.lf,false,none⟩,⟨256,.vt,false,some ⟨6,[],none,false⟩⟩,⟨256,.ff,false,none⟩,⟨256,.cr,false,none⟩,⟨256,.cr,true,none⟩,⟨256,.other,false,some ⟨0,[],some 2,true⟩⟩,⟨256,.other,false,some ⟨7,[],none,false⟩⟩]⟩,⟨[13],none,[],[⟨256,.other,false,some ⟨10,[.comment],none,false⟩⟩,⟨256,.ws,false,some ⟨11,[],none,false⟩⟩,⟨256,.lf,false,some ⟨12,[],none,false⟩⟩,⟨256,.vt,false,some ⟨10,[.comment],none,false⟩⟩,⟨256,.ff,false,some ⟨13,[],none,false⟩⟩,⟨256,.cr,false,some ⟨14,[],none,false⟩⟩,⟨256,.cr,true,some ⟨15,[],none,false⟩⟩,⟨256,.other,false,some ⟨16,[.comment],none,false⟩⟩,⟨256,.other,false,some ⟨17,[.comment],none,false⟩⟩,⟨256,.other,false,some ⟨18,[.comment],none,false⟩⟩]⟩,⟨[8],none,[],[⟨256,.other,false,some ⟨10,[.comment],none,false⟩⟩,⟨256,.ws,false,some ⟨11,[],none,false⟩⟩,⟨256,.lf,false,some ⟨12,[],none,false⟩⟩,⟨256,.vt,false,some ⟨10,[.comment],none,false⟩⟩,⟨256,.ff,false,some ⟨13,[],none,false⟩⟩,⟨256,.cr,false,some ⟨14,[],none,false⟩⟩,⟨256,.cr,true,some ⟨15,[],none,false⟩⟩,⟨256,.other,false,some ⟨16,[.comment],none,false⟩⟩,⟨256,.other,false,some ⟨17,[.comment],none,false⟩⟩,⟨256,.other,false,some ⟨18,[.comment],none,false⟩⟩]⟩,⟨[5],none,[],[⟨256,.other,false,some ⟨10,[.setEnt .internalNl,.cb,.comment],none,false⟩⟩,⟨256,.ws,false,some ⟨11,[.setEnt .internalNl,.cb],none,false⟩⟩,⟨256,.lf,false,some ⟨12,[.setEnt .internalNl,.cb],none,false⟩⟩,⟨256,.vt,false,some ⟨10,[.setEnt .internalNl,.cb,.comment],none,false⟩⟩,⟨256,.ff,false,some ⟨13,[.setEnt .internalNl,.cb],none,false⟩⟩,⟨256,.cr,false,some ⟨14,[.setEnt .internalNl,.cb],none,false⟩⟩,⟨256,.cr,true,some ⟨15,[.setEnt .internalNl,.cb],none,false⟩⟩,⟨256,.other,false,some ⟨16,[.setEnt .internalNl,.cb,.comment],none,false⟩⟩,⟨256,.other,false,some ⟨17,[.setEnt .internalNl,.cb,.comment],none,false⟩⟩,⟨256,.other,false,some ⟨18,[.setEnt .internalNl,.cb,.comment],none,false⟩⟩]⟩,⟨[6],none,[],[⟨256,.other,false,some ⟨10,[.setEnt .internalNl,.cb,.comment],none,false⟩⟩,⟨256,.ws,false,some ⟨11,[.setEnt .internalNl,.cb],none,false⟩⟩,⟨256,.lf,false,some ⟨12,[.setEnt .internalNl,.cb],none,false⟩⟩,⟨256,.vt,false,some ⟨10,[.setEnt .internalNl,.cb,.comment],none,false⟩⟩,⟨256,.ff,false,some ⟨13,[.setEnt .internalNl,.cb],none,false⟩⟩,⟨256,.cr,false,some ⟨14,[.setEnt .internalNl,.cb],none,false⟩⟩,⟨256,.cr,true,some ⟨15,[.setEnt .internalNl,.cb],none,false⟩⟩,⟨256,.other,false,some ⟨16,[.setEnt .internalNl,.cb,.comment],none,false⟩⟩,⟨256,.other,false,some ⟨17,[.setEnt .internalNl,.cb,.comment],none,false⟩⟩,⟨256,.other,false,some ⟨18,[.setEnt .internalNl,.cb,.comment],none,false⟩⟩]⟩,⟨[3],none,[],[⟨256,.other,false,none⟩,⟨256,.ws,false,none⟩,⟨256,.lf,false,some ⟨19,[],none,false⟩⟩,⟨256,.vt,false,none⟩,⟨256,.ff,false,none⟩,⟨256,.cr,false,none⟩,⟨256,.cr,true,none⟩]⟩,⟨[3,7],none,[],[⟨256,.other,false,some ⟨10,[.setEnt .internalNl,.cb,.comment],none,false⟩⟩,⟨256,.ws,false,some ⟨11,[.setEnt .internalNl,.cb],none,false⟩⟩,⟨256,.lf,false,some ⟨20,[.setEnt .internalNl,.cb],none,false⟩⟩,⟨256,.vt,false,some ⟨10,[.setEnt .internalNl,.cb,.comment],none,false⟩⟩,⟨256,.ff,false,some ⟨13,[.setEnt .internalNl,.cb],none,false⟩⟩,⟨256,.cr,false,some ⟨14,[.setEnt .internalNl,.cb],none,false⟩⟩,⟨256,.cr,true,some ⟨15,[.setEnt .internalNl,.cb],none,false⟩⟩,⟨256,.other,false,some ⟨16,[.setEnt .internalNl,.cb,.comment],none,false⟩⟩,⟨256,.other,false,some ⟨17,[.setEnt .internalNl,.cb,.comment],none,false⟩⟩,⟨256,.other,false,some ⟨18,[.setEnt .internalNl,.cb,.comment],none,false⟩⟩]⟩,⟨[9,13],none,[],[⟨256,.other,false,some ⟨10,[.comment],none,false⟩⟩,⟨256,.ws,false,some ⟨11,[],none,false⟩⟩,⟨256,.lf,false,some ⟨12,[],none,false⟩⟩,⟨256,.vt,false,some ⟨10,[.comment],none,false⟩⟩,⟨256,.ff,false,some ⟨13,[],none,false⟩⟩,⟨256,.cr,false,some ⟨14,[],none,false⟩⟩,⟨256,.cr,true,some ⟨15,[],none,false⟩⟩,⟨256,.other,false,some ⟨16,[.comment],none,false⟩⟩,⟨256,.other,false,some ⟨21,[.nestInc,.comment],none,false⟩⟩,⟨256,.other,false,some ⟨22,[.nestInc,.comment],none,false⟩⟩]⟩,⟨[11,13],none,[],[⟨256,.other,false,some ⟨10,[.comment],none,false⟩⟩,⟨256,.ws,false,some ⟨11,[],none,false⟩⟩,⟨256,.lf,false,some ⟨12,[],none,false⟩⟩,⟨256,.vt,false,some ⟨10,[.comment],none,false⟩⟩,⟨256,.ff,false,some ⟨13,[],none,false⟩⟩,⟨256,.cr,false,some ⟨14,[],none,false⟩⟩,⟨256,.cr,true,some ⟨15,[],none,false⟩⟩,⟨256,.other,false,some ⟨16,[.comment],none,false⟩⟩,⟨256,.other,false,some ⟨23,[.nestDec,.comment],none,false⟩⟩,⟨256,.other,false,some ⟨17,[.comment],none,false⟩⟩,⟨256,.other,false,some ⟨18,[.comment],none,false⟩⟩]⟩,⟨[11,13,14],none,[],[⟨256,.other,false,some ⟨10,[.comment],none,false⟩⟩,⟨256,.ws,false,some ⟨11,[],none,false⟩⟩,⟨256,.lf,false,some ⟨12,[],none,false⟩⟩,⟨256,.vt,false,some ⟨10,[.comment],none,false⟩⟩,⟨256,.ff,false,some ⟨13,[],none,false⟩⟩,⟨256,.cr,false,some ⟨14,[],none,false⟩⟩,⟨256,.cr,true,some ⟨15,[],none,false⟩⟩,⟨256,.other,false,some ⟨16,[.comment],none,false⟩⟩,⟨256,.other,false,some ⟨23,[.nestDec,.comment],none,false⟩⟩,⟨256,.other,false,some ⟨0,[.comment],some 1,true⟩⟩,⟨256,.other,false,some ⟨17,[.comment],none,false⟩⟩,⟨256,.other,false,some ⟨18,[.comment],none,false⟩⟩]⟩,⟨[4],none,[],[⟨256,.other,false,some ⟨10,[.setEnt .internalNl,.cb,.comment],none,false⟩⟩,⟨256,.ws,false,some ⟨11,[.setEnt .internalNl,.cb],none,false⟩⟩,⟨256,.lf,false,some ⟨12,[.setEnt .internalNl,.cb],none,false⟩⟩,⟨256,.vt,false,some ⟨10,[.setEnt .internalNl,.cb,.comment],none,false⟩⟩,⟨256,.ff,false,some ⟨13,[.setEnt .internalNl,.cb],none,false⟩⟩,⟨256,.cr,false,some ⟨14,[.setEnt .internalNl,.cb],none,false⟩⟩,⟨256,.cr,true,some ⟨15,[.setEnt .internalNl,.cb],none,false⟩⟩,⟨256,.other,false,some ⟨16,[.setEnt .internalNl,.cb,.comment],none,false⟩⟩,⟨256,.other,false,some ⟨17,[.setEnt .internalNl,.cb,.comment],none,false⟩⟩,⟨256,.other,false,some ⟨18,[.setEnt .internalNl,.cb,.comment],none,false⟩⟩]⟩,⟨[4,5],none,[],[⟨256,.other,false,some ⟨10,[.setEnt .internalNl,.cb,.comment],none,false⟩⟩,⟨256,.ws,false,some ⟨11,[.setEnt .internalNl,.cb],none,false⟩⟩,⟨256,.lf,false,some ⟨12,[.setEnt .internalNl,.cb],none,false⟩⟩,⟨256,.vt,false,some ⟨10,[.setEnt .internalNl,.cb,.comment],none,false⟩⟩,⟨256,.ff,false,some ⟨13,[.setEnt .internalNl,.cb],none,false⟩⟩,⟨256,.cr,false,some ⟨14,[.setEnt .internalNl,.cb],none,false⟩⟩,⟨256,.cr,true,some ⟨15,[.setEnt .internalNl,.cb],none,false⟩⟩,⟨256,.other,false,some ⟨16,[.setEnt .internalNl,.cb,.comment],none,false⟩⟩,⟨256,.other,false,some ⟨17,[.setEnt .internalNl,.cb,.comment],none,false⟩⟩,⟨256,.other,false,some ⟨18,[.setEnt .internalNl,.cb,.comment],none,false⟩⟩]⟩,⟨[10,11,13],none,[],[⟨256,.other,false,some ⟨10,[.comment],none,false⟩⟩,⟨256,.ws,false,some ⟨11,[],none,false⟩⟩,⟨256,.lf,false,some ⟨12,[],none,false⟩⟩,⟨256,.vt,false,some ⟨10,[.comment],none,false⟩⟩,⟨256,.ff,false,some ⟨13,[],none,false⟩⟩,⟨256,.cr,false,some ⟨14,[],none,false⟩⟩,⟨256,.cr,true,some ⟨15,[],none,false⟩⟩,⟨256,.other,false,some ⟨16,[.comment],none,false⟩⟩,⟨256,.other,false,some ⟨23,[.nestDec,.comment],none,false⟩⟩,⟨256,.other,false,some ⟨17,[.comment],none,false⟩⟩,⟨256,.other,false,some ⟨18,[.comment],none,false⟩⟩]⟩,⟨[10,11,13,14],none,[],[⟨256,.other,false,some ⟨10,[.comment],none,false⟩⟩,⟨256,.ws,false,some ⟨11,[],none,false⟩⟩,⟨256,.lf,false,some ⟨12,[],none,false⟩⟩,⟨256,.vt,false,some ⟨10,[.comment],none,false⟩⟩,⟨256,.ff,false,some ⟨13,[],none,false⟩⟩,⟨256,.cr,false,some ⟨14,[],none,false⟩⟩,⟨256,.cr,true,some ⟨15,[],none,false⟩⟩,⟨256,.other,false,some ⟨16,[.comment],none,false⟩⟩,⟨256,.other,false,some ⟨23,[.nestDec,.comment],none,false⟩⟩,⟨256,.other,false,some ⟨0,[.comment],some 1,true⟩⟩,⟨256,.other,false,some ⟨17,[.comment],none,false⟩⟩,⟨256,.other,false,some ⟨18,[.comment],none,false⟩⟩]⟩,⟨[12,13],none,[],[⟨256,.other,false,some ⟨10,[.comment],none,false⟩⟩,⟨256,.ws,false,some ⟨11,[],none,false⟩⟩,⟨256,.lf,false,some ⟨12,[],none,false⟩⟩,⟨256,.vt,false,some ⟨10,[.comment],none,false⟩⟩,⟨256,.ff,false,some ⟨13,[],none,false⟩⟩,⟨256,.cr,false,some ⟨14,[],none,false⟩⟩,⟨256,.cr,true,some ⟨15,[],none,false⟩⟩,⟨256,.other,false,some ⟨16,[.comment],none,false⟩⟩,⟨256,.other,false,some ⟨17,[.comment],none,false⟩⟩,⟨256,.other,false,some ⟨18,[.comment],none,false⟩⟩]⟩]
theorem augeas_line_rowsOk : rowsOk augeas_line_nfa [] (augeas_line_cs.map (·.1)) augeas_line_rows = true := by decide +kernel
def augeas_line_D : Dfa augeas_line_M.nfa := ⟨augeas_line_masks, [], augeas_line_cs, augeas_line_rows, augeas_line_masksIn, augeas_line_repOk, augeas_line_rowsOk⟩

def d_line_nfa : Nfa := ⟨[⟨0,4294967808,[],[(0,.setEnt (.own 0))],0,0⟩,⟨1,140737488355328,[],[],0,0⟩,⟨11,140737488355328,[],[],0,2⟩,⟨22,140737488355328,[],[(9,.nestRes)],0,4⟩,⟨37,549755813888,[],[(19,.code)],0,0⟩,⟨49,17179869184,[],[(24,.code)],0,0⟩,⟨61,79228162514264337593543950336,[],[(29,.code)],0,0⟩,⟨73,8192,[],[(34,.setEnt .newline)],0,0⟩,⟨75,1024,[],[(34,.setEnt .newline)],0,0⟩,⟨76,4096,[],[(34,.setEnt .newline)],0,0⟩,⟨77,8192,[.crAlone],[(34,.setEnt .newline)],0,0⟩,⟨78,115792089237316195423570985008687907853269984665640564039457584007908834656767,[],[(35,.setEnt (.own 3))],0,0⟩],[[⟨0,4294967808,[],[(0,.setEnt (.own 0))],0,0⟩],[⟨2,140737488355328,[],[(1,.comment)],0,0⟩],[⟨3,4951760157141521099596496896,[],[],0,0⟩,⟨9,4294967808,[],[],0,0⟩,⟨10,115792089237316195423570985008687907853269984665640564039457584007908834658815,[],[(4,.comment)],0,0⟩],[⟨4,8192,[],[],0,0⟩,⟨6,1024,[],[],0,0⟩,⟨7,4096,[],[],0,0⟩,⟨8,8192,[.crAlone],[],0,0⟩],[⟨5,1024,[],[],0,0⟩],[⟨3,4951760157141521099596496896,[],[(2,.setEnt .internalNl),(3,.cb)],0,0⟩,⟨9,4294967808,[],[(2,.setEnt .internalNl),(3,.cb)],0,0⟩,⟨10,115792089237316195423570985008687907853269984665640564039457584007908834658815,[],[(2,.setEnt .internalNl),(3,.cb),(4,.comment)],0,0⟩],[⟨3,4951760157141521099596496896,[],[(2,.setEnt .internalNl),(3,.cb)],0,0⟩,⟨9,4294967808,[],[(2,.setEnt .internalNl),(3,.cb)],0,0⟩,⟨10,115792089237316195423570985008687907853269984665640564039457584007908834658815,[],[(2,.setEnt .internalNl),(3,.cb),(4,.comment)],0,0⟩],[⟨3,4951760157141521099596496896,[],[(2,.setEnt .internalNl),(3,.cb)],0,0⟩,⟨9,4294967808,[],[(2,.setEnt .internalNl),(3,.cb)],0,0⟩,⟨10,115792089237316195423570985008687907853269984665640564039457584007908834658815,[],[(2,.setEnt .internalNl),(3,.cb),(4,.comment)],0,0⟩],[⟨3,4951760157141521099596496896,[],[(2,.setEnt .internalNl),(3,.cb)],0,0⟩,⟨9,4294967808,[],[(2,.setEnt .internalNl),(3,.cb)],0,0⟩,⟨10,115792089237316195423570985008687907853269984665640564039457584007908834658815,[],[(2,.setEnt .internalNl),(3,.cb),(4,.comment)],0,0⟩],[⟨3,4951760157141521099596496896,[],[],0,0⟩,⟨9,4294967808,[],[],0,0⟩,⟨10,115792089237316195423570985008687907853269984665640564039457584007908834658815,[],[(4,.comment)],0,0⟩],[⟨3,4951760157141521099596496896,[],[],0,0⟩,⟨9,4294967808,[],[],0,0⟩,⟨10,115792089237316195423570985008687907853269984665640564039457584007908834658815,[],[(4,.comment)],0,0⟩],[⟨12,4398046511104,[],[(5,.comment)],0,2⟩],[⟨13,8192,[],[],0,2⟩,⟨15,1024,[],[],0,2⟩,⟨16,4096,[],[],0,2⟩,⟨17,8192,[.crAlone],[],0,2⟩,⟨18,4294967808,[],[],0,2⟩,⟨19,115792089237316195423570985008687907853269984665640564039457584007908834658815,[],[(8,.comment)],0,2⟩,⟨20,4398046511104,[],[],0,2⟩],[⟨14,1024,[],[],0,2⟩],[⟨13,8192,[],[(6,.setEnt .internalNl),(7,.cb)],0,2⟩,⟨15,1024,[],[(6,.setEnt .internalNl),(7,.cb)],0,2⟩,⟨16,4096,[],[(6,.setEnt .internalNl),(7,.cb)],0,2⟩,⟨17,8192,[.crAlone],[(6,.setEnt .internalNl),(7,.cb)],0,2⟩,⟨18,4294967808,[],[(6,.setEnt .internalNl),(7,.cb)],0,2⟩,⟨19,115792089237316195423570985008687907853269984665640564039457584007908834658815,[],[(6,.setEnt .internalNl),(7,.cb),(8,.comment)],0,2⟩,⟨20,4398046511104,[],[(6,.setEnt .internalNl),(7,.cb)],0,2⟩],[⟨13,8192,[],[(6,.setEnt .internalNl),(7,.cb)],0,2⟩,⟨15,1024,[],[(6,.setEnt .internalNl),(7,.cb)],0,2⟩,⟨16,4096,[],[(6,.setEnt .internalNl),(7,.cb)],0,2⟩,⟨17,8192,[.crAlone],[(6,.setEnt .internalNl),(7,.cb)],0,2⟩,⟨18,4294967808,[],[(6,.setEnt .internalNl),(7,.cb)],0,2⟩,⟨19,115792089237316195423570985008687907853269984665640564039457584007908834658815,[],[(6,.setEnt .internalNl),(7,.cb),(8,.comment)],0,2⟩,⟨20,4398046511104,[],[(6,.setEnt .internalNl),(7,.cb)],0,2⟩],[⟨13,8192,[],[(6,.setEnt .internalNl),(7,.cb)],0,2⟩,⟨15,1024,[],[(6,.setEnt .internalNl),(7,.cb)],0,2⟩,⟨16,4096,[],[(6,.setEnt .internalNl),(7,.cb)],0,2⟩,⟨17,8192,[.crAlone],[(6,.setEnt .internalNl),(7,.cb)],0,2⟩,⟨18,4294967808,[],[(6,.setEnt .internalNl),(7,.cb)],0,2⟩,⟨19,115792089237316195423570985008687907853269984665640564039457584007908834658815,[],[(6,.setEnt .internalNl),(7,.cb),(8,.comment)],0,2⟩,⟨20,4398046511104,[],[(6,.setEnt .internalNl),(7,.cb)],0,2⟩],[⟨13,8192,[],[(6,.setEnt .internalNl),(7,.cb)],0,2⟩,⟨15,1024,[],[(6,.setEnt .internalNl),(7,.cb)],0,2⟩,⟨16,4096,[],[(6,.setEnt .internalNl),(7,.cb)],0,2⟩,⟨17,8192,[.crAlone],[(6,.setEnt .internalNl),(7,.cb)],0,2⟩,⟨18,4294967808,[],[(6,.setEnt .internalNl),(7,.cb)],0,2⟩,⟨19,115792089237316195423570985008687907853269984665640564039457584007908834658815,[],[(6,.setEnt .internalNl),(7,.cb),(8,.comment)],0,2⟩,⟨20,4398046511104,[],[(6,.setEnt .internalNl),(7,.cb)],0,2⟩],[⟨13,8192,[],[],0,2⟩,⟨15,1024,[],[],0,2⟩,⟨16,4096,[],[],0,2⟩,⟨17,8192,[.crAlone],[],0,2⟩,⟨18,4294967808,[],[],0,2⟩,⟨19,115792089237316195423570985008687907853269984665640564039457584007908834658815,[],[(8,.comment)],0,2⟩,⟨20,4398046511104,[],[],0,2⟩],[⟨13,8192,[],[],0,2⟩,⟨15,1024,[],[],0,2⟩,⟨16,4096,[],[],0,2⟩,⟨17,8192,[.crAlone],[],0,2⟩,⟨18,4294967808,[],[],0,2⟩,⟨19,115792089237316195423570985008687907853269984665640564039457584007908834658815,[],[(8,.comment)],0,2⟩,⟨20,4398046511104,[],[],0,2⟩],[⟨21,140737488355328,[],[],2,0⟩],[],[⟨23,8796093022208,[],[(10,.comment)],0,4⟩],[⟨24,8192,[],[],0,4⟩,⟨26,1024,[],[],0,4⟩,⟨27,4096,[],[],0,4⟩,⟨28,8192,[.crAlone],[],0,4⟩,⟨29,4294967808,[],[],0,4⟩,⟨30,140737488355328,[],[],0,4⟩,⟨32,8796093022208,[],[],0,4⟩,⟨34,115792089237316195423570985008687907853269984665640564039457584007908834656767,[],[(17,.comment)],0,4⟩,⟨35,8796093022208,[.nestZero],[],0,4⟩],[⟨25,1024,[],[],0,4⟩],[⟨24,8192,[],[(11,.setEnt .internalNl),(12,.cb)],0,4⟩,⟨26,1024,[],[(11,.setEnt .internalNl),(12,.cb)],0,4⟩,⟨27,4096,[],[(11,.setEnt .internalNl),(12,.cb)],0,4⟩,⟨28,8192,[.crAlone],[(11,.setEnt .internalNl),(12,.cb)],0,4⟩,⟨29,4294967808,[],[(11,.setEnt .internalNl),(12,.cb)],0,4⟩,⟨30,140737488355328,[],[(11,.setEnt .internalNl),(12,.cb)],0,4⟩,⟨32,8796093022208,[],[(11,.setEnt .internalNl),(12,.cb)],0,4⟩,⟨34,115792089237316195423570985008687907853269984665640564039457584007908834656767,[],[(11,.setEnt .internalNl),(12,.cb),(17,.comment)],0,4⟩,⟨35,8796093022208,[.nestZero],[(11,.setEnt .internalNl),(12,.cb)],0,4⟩],[⟨24,8192,[],[(11,.setEnt .internalNl),(12,.cb)],0,4⟩,⟨26,1024,[],[(11,.setEnt .internalNl),(12,.cb)],0,4⟩,⟨27,4096,[],[(11,.setEnt .internalNl),(12,.cb)],0,4⟩,⟨28,8192,[.crAlone],[(11,.setEnt .internalNl),(12,.cb)],0,4⟩,⟨29,4294967808,[],[(11,.setEnt .internalNl),(12,.cb)],0,4⟩,⟨30,140737488355328,[],[(11,.setEnt .internalNl),(12,.cb)],0,4⟩,⟨32,8796093022208,[],[(11,.setEnt .internalNl),(12,.cb)],0,4⟩,⟨34,115792089237316195423570985008687907853269984665640564039457584007908834656767,[],[(11,.setEnt .internalNl),(12,.cb),(17,.comment)],0,4⟩,⟨35,8796093022208,[.nestZero],[(11,.setEnt .internalNl),(12,.cb)],0,4⟩],[⟨24,8192,[],[(11,.setEnt .internalNl),(12,.cb)],0,4⟩,⟨26,1024,[],[(11,.setEnt .internalNl),(12,.cb)],0,4⟩,⟨27,4096,[],[(11,.setEnt .internalNl),(12,.cb)],0,4⟩,⟨28,8192,[.crAlone],[(11,.setEnt .internalNl),(12,.cb)],0,4⟩,⟨29,4294967808,[],[(11,.setEnt .internalNl),(12,.cb)],0,4⟩,⟨30,140737488355328,[],[(11,.setEnt .internalNl),(12,.cb)],0,4⟩,⟨32,8796093022208,[],[(11,.setEnt .internalNl),(12,.cb)],0,4⟩,⟨34,115792089237316195423570985008687907853269984665640564039457584007908834656767,[],[(11,.setEnt .internalNl),(12,.cb),(17,.comment)],0,4⟩,⟨35,8796093022208,[.nestZero],[(11,.setEnt .internalNl),(12,.cb)],0,4⟩],[⟨24,8192,[],[(11,.setEnt .internalNl),(12,.cb)],0,4⟩,⟨26,1024,[],[(11,.setEnt .internalNl),(12,.cb)],0,4⟩,⟨27,4096,[],[(11,.setEnt .internalNl),(12,.cb)],0,4⟩,⟨28,8192,[.crAlone],[(11,.setEnt .internalNl),(12,.cb)],0,4⟩,⟨29,4294967808,[],[(11,.setEnt .internalNl),(12,.cb)],0,4⟩,⟨30,140737488355328,[],[(11,.setEnt .internalNl),(12,.cb)],0,4⟩,⟨32,8796093022208,[],[(11,.setEnt .internalNl),(12,.cb)],0,4⟩,⟨34,115792089237316195423570985008687907853269984665640564039457584007908834656767,[],[(11,.setEnt .internalNl),(12,.cb),(17,.comment)],0,4⟩,⟨35,8796093022208,[.nestZero],[(11,.setEnt .internalNl),(12,.cb)],0,4⟩],[⟨24,8192,[],[],0,4⟩,⟨26,1024,[],[],0,4⟩,⟨27,4096,[],[],0,4⟩,⟨28,8192,[.crAlone],[],0,4⟩,⟨29,4294967808,[],[],0,4⟩,⟨30,140737488355328,[],[],0,4⟩,⟨32,8796093022208,[],[],0,4⟩,⟨34,115792089237316195423570985008687907853269984665640564039457584007908834656767,[],[(17,.comment)],0,4⟩,⟨35,8796093022208,[.nestZero],[],0,4⟩],[⟨31,8796093022208,[],[(13,.nestInc),(14,.comment)],0,4⟩],[⟨24,8192,[],[],0,4⟩,⟨26,1024,[],[],0,4⟩,⟨27,4096,[],[],0,4⟩,⟨28,8192,[.crAlone],[],0,4⟩,⟨29,4294967808,[],[],0,4⟩,⟨30,140737488355328,[],[],0,4⟩,⟨32,8796093022208,[],[],0,4⟩,⟨34,115792089237316195423570985008687907853269984665640564039457584007908834656767,[],[(17,.comment)],0,4⟩,⟨35,8796093022208,[.nestZero],[],0,4⟩],[⟨33,140737488355328,[],[(15,.nestDec),(16,.comment)],0,4⟩],[⟨24,8192,[],[],0,4⟩,⟨26,1024,[],[],0,4⟩,⟨27,4096,[],[],0,4⟩,⟨28,8192,[.crAlone],[],0,4⟩,⟨29,4294967808,[],[],0,4⟩,⟨30,140737488355328,[],[],0,4⟩,⟨32,8796093022208,[],[],0,4⟩,⟨34,115792089237316195423570985008687907853269984665640564039457584007908834656767,[],[(17,.comment)],0,4⟩,⟨35,8796093022208,[.nestZero],[],0,4⟩],[⟨24,8192,[],[],0,4⟩,⟨26,1024,[],[],0,4⟩,⟨27,4096,[],[],0,4⟩,⟨28,8192,[.crAlone],[],0,4⟩,⟨29,4294967808,[],[],0,4⟩,⟨30,140737488355328,[],[],0,4⟩,⟨32,8796093022208,[],[],0,4⟩,⟨34,115792089237316195423570985008687907853269984665640564039457584007908834656767,[],[(17,.comment)],0,4⟩,⟨35,8796093022208,[.nestZero],[],0,4⟩],[⟨36,140737488355328,[.nestZero],[(18,.comment)],4,0⟩],[],[⟨38,4951760157141521099596496896,[],[],0,0⟩,⟨44,4294967808,[],[],0,0⟩,⟨45,115792089237316195423570985008687907853269984665635612279300442486259482361343,[],[(22,.code)],0,0⟩,⟨46,4951760157141521099596496896,[],[],0,0⟩,⟨48,549755813888,[],[],0,0⟩],[⟨39,8192,[],[],0,0⟩,⟨41,1024,[],[],0,0⟩,⟨42,4096,[],[],0,0⟩,⟨43,8192,[.crAlone],[],0,0⟩],[⟨40,1024,[],[],0,0⟩],[⟨38,4951760157141521099596496896,[],[(20,.setEnt .internalNl),(21,.cb)],0,0⟩,⟨44,4294967808,[],[(20,.setEnt .internalNl),(21,.cb)],0,0⟩,⟨45,115792089237316195423570985008687907853269984665635612279300442486259482361343,[],[(20,.setEnt .internalNl),(21,.cb),(22,.code)],0,0⟩,⟨46,4951760157141521099596496896,[],[(20,.setEnt .internalNl),(21,.cb)],0,0⟩,⟨48,549755813888,[],[(20,.setEnt .internalNl),(21,.cb)],0,0⟩],[⟨38,4951760157141521099596496896,[],[(20,.setEnt .internalNl),(21,.cb)],0,0⟩,⟨44,4294967808,[],[(20,.setEnt .internalNl),(21,.cb)],0,0⟩,⟨45,115792089237316195423570985008687907853269984665635612279300442486259482361343,[],[(20,.setEnt .internalNl),(21,.cb),(22,.code)],0,0⟩,⟨46,4951760157141521099596496896,[],[(20,.setEnt .internalNl),(21,.cb)],0,0⟩,⟨48,549755813888,[],[(20,.setEnt .internalNl),(21,.cb)],0,0⟩],[⟨38,4951760157141521099596496896,[],[(20,.setEnt .internalNl),(21,.cb)],0,0⟩,⟨44,4294967808,[],[(20,.setEnt .internalNl),(21,.cb)],0,0⟩,⟨45,115792089237316195423570985008687907853269984665635612279300442486259482361343,[],[(20,.setEnt .internalNl),(21,.cb),(22,.code)],0,0⟩,⟨46,4951760157141521099596496896,[],[(20,.setEnt .internalNl),(21,.cb)],0,0⟩,⟨48,549755813888,[],[(20,.setEnt .internalNl),(21,.cb)],0,0⟩],[⟨38,4951760157141521099596496896,[],[(20,.setEnt .internalNl),(21,.cb)],0,0⟩,⟨44,4294967808,[],[(20,.setEnt .internalNl),(21,.cb)],0,0⟩,⟨45,115792089237316195423570985008687907853269984665635612279300442486259482361343,[],[(20,.setEnt .internalNl),(21,.cb),(22,.code)],0,0⟩,⟨46,4951760157141521099596496896,[],[(20,.setEnt .internalNl),(21,.cb)],0,0⟩,⟨48,549755813888,[],[(20,.setEnt .internalNl),(21,.cb)],0,0⟩],[⟨38,4951760157141521099596496896,[],[],0,0⟩,⟨44,4294967808,[],[],0,0⟩,⟨45,115792089237316195423570985008687907853269984665635612279300442486259482361343,[],[(22,.code)],0,0⟩,⟨46,4951760157141521099596496896,[],[],0,0⟩,⟨48,549755813888,[],[],0,0⟩],[⟨38,4951760157141521099596496896,[],[],0,0⟩,⟨44,4294967808,[],[],0,0⟩,⟨45,115792089237316195423570985008687907853269984665635612279300442486259482361343,[],[(22,.code)],0,0⟩,⟨46,4951760157141521099596496896,[],[],0,0⟩,⟨48,549755813888,[],[],0,0⟩],[⟨47,115792089237316195423570985008687907853269984665640564039457584007913129626623,[],[(23,.code)],0,0⟩],[⟨38,4951760157141521099596496896,[],[],0,0⟩,⟨44,4294967808,[],[],0,0⟩,⟨45,115792089237316195423570985008687907853269984665635612279300442486259482361343,[],[(22,.code)],0,0⟩,⟨46,4951760157141521099596496896,[],[],0,0⟩,⟨48,549755813888,[],[],0,0⟩],[],[⟨50,4951760157141521099596496896,[],[],0,0⟩,⟨56,4294967808,[],[],0,0⟩,⟨57,115792089237316195423570985008687907853269984665635612279300442486792058306047,[],[(27,.code)],0,0⟩,⟨58,4951760157141521099596496896,[],[],0,0⟩,⟨60,17179869184,[],[],0,0⟩],[⟨51,8192,[],[],0,0⟩,⟨53,1024,[],[],0,0⟩,⟨54,4096,[],[],0,0⟩,⟨55,8192,[.crAlone],[],0,0⟩],[⟨52,1024,[],[],0,0⟩],[⟨50,4951760157141521099596496896,[],[(25,.setEnt .internalNl),(26,.cb)],0,0⟩,⟨56,4294967808,[],[(25,.setEnt .internalNl),(26,.cb)],0,0⟩,⟨57,115792089237316195423570985008687907853269984665635612279300442486792058306047,[],[(25,.setEnt .internalNl),(26,.cb),(27,.code)],0,0⟩,⟨58,4951760157141521099596496896,[],[(25,.setEnt .internalNl),(26,.cb)],0,0⟩,⟨60,17179869184,[],[(25,.setEnt .internalNl),(26,.cb)],0,0⟩],[⟨50,4951760157141521099596496896,[],[(25,.setEnt .internalNl),(26,.cb)],0,0⟩,⟨56,4294967808,[],[(25,.setEnt .internalNl),(26,.cb)],0,0⟩,⟨57,115792089237316195423570985008687907853269984665635612279300442486792058306047,[],[(25,.setEnt .internalNl),(26,.cb),(27,.code)],0,0⟩,⟨58,4951760157141521099596496896,[],[(25,.setEnt .internalNl),(26,.cb)],0,0⟩,⟨60,17179869184,[],[(25,.setEnt .internalNl),(26,.cb)],0,0⟩],[⟨50,4951760157141521099596496896,[],[(25,.setEnt .internalNl),(26,.cb)],0,0⟩,⟨56,4294967808,[],[(25,.setEnt .internalNl),(26,.cb)],0,0⟩,⟨57,115792089237316195423570985008687907853269984665635612279300442486792058306047,[],[(25,.setEnt .internalNl),(26,.cb),(27,.code)],0,0⟩,⟨58,4951760157141521099596496896,[],[(25,.setEnt .internalNl),(26,.cb)],0,0⟩,⟨60,17179869184,[],[(25,.setEnt .internalNl),(26,.cb)],0,0⟩],[⟨50,4951760157141521099596496896,[],[(25,.setEnt .internalNl),(26,.cb)],0,0⟩,⟨56,4294967808,[],[(25,.setEnt .internalNl),(26,.cb)],0,0⟩,⟨57,115792089237316195423570985008687907853269984665635612279300442486792058306047,[],[(25,.setEnt .internalNl),(26,.cb),(27,.code)],0,0⟩,⟨58,4951760157141521099596496896,[],[(25,.setEnt .internalNl),(26,.cb)],0,0⟩,⟨60,17179869184,[],[(25,.setEnt .internalNl),(26,.cb)],0,0⟩],[⟨50,4951760157141521099596496896,[],[],0,0⟩,⟨56,4294967808,[],[],0,0⟩,⟨57,115792089237316195423570985008687907853269984665635612279300442486792058306047,[],[(27,.code)],0,0⟩,⟨58,4951760157141521099596496896,[],[],0,0⟩,⟨60,17179869184,[],[],0,0⟩],[⟨50,4951760157141521099596496896,[],[],0,0⟩,⟨56,4294967808,[],[],0,0⟩,⟨57,115792089237316195423570985008687907853269984665635612279300442486792058306047,[],[(27,.code)],0,0⟩,⟨58,4951760157141521099596496896,[],[],0,0⟩,⟨60,17179869184,[],[],0,0⟩],[⟨59,115792089237316195423570985008687907853269984665640564039457584007913129626623,[],[(28,.code)],0,0⟩],[⟨50,4951760157141521099596496896,[],[],0,0⟩,⟨56,4294967808,[],[],0,0⟩,⟨57,115792089237316195423570985008687907853269984665635612279300442486792058306047,[],[(27,.code)],0,0⟩,⟨58,4951760157141521099596496896,[],[],0,0⟩,⟨60,17179869184,[],[],0,0⟩],[],[⟨62,4951760157141521099596496896,[],[],0,0⟩,⟨68,4294967808,[],[],0,0⟩,⟨69,115792089237316195423570985008687907853269984665556384116786178149215694224895,[],[(32,.code)],0,0⟩,⟨70,4951760157141521099596496896,[],[],0,0⟩,⟨72,79228162514264337593543950336,[],[],0,0⟩],[⟨63,8192,[],[],0,0⟩,⟨65,1024,[],[],0,0⟩,⟨66,4096,[],[],0,0⟩,⟨67,8192,[.crAlone],[],0,0⟩],[⟨64,1024,[],[],0,0⟩],[⟨62,4951760157141521099596496896,[],[(30,.setEnt .internalNl),(31,.cb)],0,0⟩,⟨68,4294967808,[],[(30,.setEnt .internalNl),(31,.cb)],0,0⟩,⟨69,115792089237316195423570985008687907853269984665556384116786178149215694224895,[],[(30,.setEnt .internalNl),(31,.cb),(32,.code)],0,0⟩,⟨70,4951760157141521099596496896,[],[(30,.setEnt .internalNl),(31,.cb)],0,0⟩,⟨72,79228162514264337593543950336,[],[(30,.setEnt .internalNl),(31,.cb)],0,0⟩],[⟨62,4951760157141521099596496896,[],[(30,.setEnt .internalNl),(31,.cb)],0,0⟩,⟨68,4294967808,[],[(30,.setEnt .internalNl),(31,.cb)],0,0⟩,⟨69,115792089237316195423570985008687907853269984665556384116786178149215694224895,[],[(30,.setEnt .internalNl),(31,.cb),(32,.code)],0,0⟩,⟨70,4951760157141521099596496896,[],[(30,.setEnt .internalNl),(31,.cb)],0,0⟩,⟨72,79228162514264337593543950336,[],[(30,.setEnt .internalNl),(31,.cb)],0,0⟩],[⟨62,4951760157141521099596496896,[],[(30,.setEnt .internalNl),(31,.cb)],0,0⟩,⟨68,4294967808,[],[(30,.setEnt .internalNl),(31,.cb)],0,0⟩,⟨69,115792089237316195423570985008687907853269984665556384116786178149215694224895,[],[(30,.setEnt .internalNl),(31,.cb),(32,.code)],0,0⟩,⟨70,4951760157141521099596496896,[],[(30,.setEnt .internalNl),(31,.cb)],0,0⟩,⟨72,79228162514264337593543950336,[],[(30,.setEnt .internalNl),(31,.cb)],0,0⟩],[⟨62,4951760157141521099596496896,[],[(30,.setEnt .internalNl),(31,.cb)],0,0⟩,⟨68,4294967808,[],[(30,.setEnt .internalNl),(31,.cb)],0,0⟩,⟨69,115792089237316195423570985008687907853269984665556384116786178149215694224895,[],[(30,.setEnt .internalNl),(31,.cb),(32,.code)],0,0⟩,⟨70,4951760157141521099596496896,[],[(30,.setEnt .internalNl),(31,.cb)],0,0⟩,⟨72,79228162514264337593543950336,[],[(30,.setEnt .internalNl),(31,.cb)],0,0⟩],[⟨62,4951760157141521099596496896,[],[],0,0⟩,⟨68,4294967808,[],[],0,0⟩,⟨69,115792089237316195423570985008687907853269984665556384116786178149215694224895,[],[(32,.code)],0,0⟩,⟨70,4951760157141521099596496896,[],[],0,0⟩,⟨72,79228162514264337593543950336,[],[],0,0⟩],[⟨62,4951760157141521099596496896,[],[],0,0⟩,⟨68,4294967808,[],[],0,0⟩,⟨69,115792089237316195423570985008687907853269984665556384116786178149215694224895,[],[(32,.code)],0,0⟩,⟨70,4951760157141521099596496896,[],[],0,0⟩,⟨72,79228162514264337593543950336,[],[],0,0⟩],[⟨71,115792089237316195423570985008687907853269984665640564039457584007913129626623,[],[(33,.code)],0,0⟩],[⟨62,4951760157141521099596496896,[],[],0,0⟩,⟨68,4294967808,[],[],0,0⟩,⟨69,115792089237316195423570985008687907853269984665556384116786178149215694224895,[],[(32,.code)],0,0⟩,⟨70,4951760157141521099596496896,[],[],0,0⟩,⟨72,79228162514264337593543950336,[],[],0,0⟩],[],[⟨74,1024,[],[(34,.setEnt .newline)],0,0⟩],[],[],[],[],[]],[some (0,[]),none,some (1,[]),none,none,some (1,[(2,.setEnt .internalNl),(3,.cb)]),some (1,[(2,.setEnt .internalNl),(3,.cb)]),some (1,[(2,.setEnt .internalNl),(3,.cb)]),some (1,[(2,.setEnt .internalNl),(3,.cb)]),some (1,[]),some (1,[]),none,none,none,none,none,none,none,none,none,none,some (1,[]),none,none,none,none,none,none,none,none,none,none,none,none,none,none,some (1,[]),none,none,none,none,none,none,none,none,none,none,none,some (2,[]),none,none,none,none,none,none,none,none,none,none,none,some (2,[]),none,none,none,none,none,none,none,none,none,none,none,some (2,[]),none,some (3,[]),some (3,[]),some (3,[]),some (3,[]),some (4,[])],[1,19,34,35,36]⟩
theorem d_line_nfa_eq : D.d_line.nfa = d_line_nfa := by decide +kernel
/-- The machine of `D.d_line`, with its automaton as a literal. -/
def d_line_M : Machine := ⟨d_line_nfa, D.d_line.ends, D.d_line.sw⟩
theorem d_line_M_eq : D.d_line.machine = d_line_M := by
  unfold Scanner.machine d_line_M; rw [d_line_nfa_eq]
def d_line_masks : List Nat := [4294967808,140737488355328,549755813888,17179869184,79228162514264337593543950336,8192,1024,4096,115792089237316195423570985008687907853269984665640564039457584007908834656767,4951760157141521099596496896,115792089237316195423570985008687907853269984665640564039457584007908834658815,4398046511104,8796093022208,115792089237316195423570985008687907853269984665635612279300442486259482361343,115792089237316195423570985008687907853269984665640564039457584007913129626623,115792089237316195423570985008687907853269984665635612279300442486792058306047,115792089237316195423570985008687907853269984665556384116786178149215694224895]
def d_line_cs : List (Nat × Nat) := [(0,115792089237316195423570985008687907853269984665556384116786177994717130637823),(9,4294967808),(10,1024),(11,2048),(12,4096),(13,8192),(34,17179869184),(39,549755813888),(42,4398046511104),(43,8796093022208),(47,140737488355328),(92,4951760157141521099596496896),(96,79228162514264337593543950336)]
theorem d_line_masksIn : masksIn d_line_nfa d_line_masks = true := by decide +kernel
theorem d_line_repOk : repOk d_line_masks d_line_cs = true := by decide +kernel
def d_line_rows : List Row := [⟨[],none,[],[⟨256,.other,false,some ⟨0,[.setEnt (.own 3)],some 4,true⟩⟩,⟨256,.ws,false,some ⟨1,[.setEnt (.own 0)],some 0,false⟩⟩,⟨256,.lf,false,some ⟨0,[.setEnt .newline],some 3,true⟩⟩,⟨256,.vt,false,none⟩,⟨256,.ff,false,some ⟨0,[.setEnt .newline],some 3,true⟩⟩,⟨256,.cr,false,some ⟨2,[.setEnt .newline],none,false⟩⟩,⟨256,.cr,true,some ⟨3,[.setEnt .newline],some 3,false⟩⟩,⟨256,.other,false,some ⟨4,[.code,.setEnt (.own 3)],some 4,false⟩⟩,⟨256,.other,false,some ⟨5,[.code,.setEnt (.own 3)],some 4,false⟩⟩,⟨256,.other,false,some ⟨6,[.nestRes,.setEnt (.own 3)],some 4,false⟩⟩,⟨256,.other,false,some ⟨7,[.code,.setEnt (.own 3)],some 4,false⟩⟩]⟩,⟨[0],some 0,[],[⟨256,.other,false,none⟩,⟨256,.ws,false,some ⟨1,[.setEnt (.own 0)],some 0,false⟩⟩,⟨256,.lf,false,none⟩,⟨256,.vt,false,none⟩,⟨256,.ff,false,none⟩,⟨256,.cr,false,none⟩,⟨256,.cr,true,none⟩]⟩,⟨[73],none,[],[⟨256,.other,false,none⟩,⟨256,.ws,false,none⟩,⟨256,.lf,false,some ⟨0,[.setEnt .newline],some 3,true⟩⟩,⟨256,.vt,false,none⟩,⟨256,.ff,false,none⟩,⟨256,.cr,false,none⟩,⟨256,.cr,true,none⟩]⟩,⟨[73,77],some 3,[],[⟨256,.other,false,none⟩,⟨256,.ws,false,none⟩,⟨256,.lf,false,some ⟨0,[.setEnt .newline],some 3,true⟩⟩,⟨256,.vt,false,none⟩,⟨256,.ff,false,none⟩,⟨256,.cr,false,none⟩,⟨256,.cr,true,none⟩]⟩,⟨[49,78],some 4,[],[⟨256,.other,false,some ⟨8,[.code],none,false⟩⟩,⟨256,.ws,false,some ⟨9,[],none,false⟩⟩,⟨256,.lf,false,some ⟨8,[.code],none,false⟩⟩,⟨256,.vt,false,some ⟨8,[.code],none,false⟩⟩,⟨256,.ff,false,some ⟨8,[.code],none,false⟩⟩,⟨256,.cr,false,some ⟨8,[.code],none,false⟩⟩,⟨256,.cr,true,some ⟨8,[.code],none,false⟩⟩,⟨256,.other,false,some ⟨0,[],some 2,true⟩⟩,⟨256,.other,false,some ⟨10,[],none,false⟩⟩]⟩,⟨[37,78],some 4,[],[⟨256,.other,false,some ⟨11,[.code],none,false⟩⟩,⟨256,.ws,false,some ⟨12,[],none,false⟩⟩,⟨256,.lf,false,some ⟨11,[.code],none,false⟩⟩,⟨256,.vt,false,some ⟨11,[.code],none,false⟩⟩,⟨256,.ff,false,some ⟨11,[.code],none,false⟩⟩,⟨256,.cr,false,some ⟨11,[.code],none,false⟩⟩,⟨256,.cr,true,some ⟨11,[.code],none,false⟩⟩,⟨256,.other,false,some ⟨0,[],some 2,true⟩⟩,⟨256,.other,false,some ⟨13,[],none,false⟩⟩]⟩,⟨[1,11,22,78],some 4,[],[⟨256,.other,false,none⟩,⟨256,.ws,false,none⟩,⟨256,.lf,false,none⟩,⟨256,.vt,false,none⟩,⟨256,.ff,false,none⟩,⟨256,.cr,false,none⟩,⟨256,.cr,true,none⟩,⟨256,.other,false,some ⟨14,[.comment],none,false⟩⟩,⟨256,.other,false,some ⟨15,[.comment],none,false⟩⟩,⟨256,.other,false,some ⟨16,[.comment],some 1,false⟩⟩]⟩,⟨[61,78],some 4,[],[⟨256,.other,false,some ⟨17,[.code],none,false⟩⟩,⟨256,.ws,false,some ⟨18,[],none,false⟩⟩,⟨256,.lf,false,some ⟨17,[.code],none,false⟩⟩,⟨256,.vt,false,some ⟨17,[.code],none,false⟩⟩,⟨256,.ff,false,some ⟨17,[.code],none,false⟩⟩,⟨256,.cr,false,some ⟨17,[.code],none,false⟩⟩,⟨256,.cr,true,some ⟨17,[.code],none,false⟩⟩,⟨256,.other,false,some ⟨19,[],none,false⟩⟩,⟨256,.other,false,some ⟨0,[],some 2,true⟩⟩]⟩,⟨[57],none,[],[⟨256,.other,false,some ⟨8,[.code],none,false⟩⟩,⟨256,.ws,false,some ⟨9,[],none,false⟩⟩,⟨256,.lf,false,some ⟨8,[.code],none,false⟩⟩,⟨256,.vt,false,some ⟨8,[.code],none,false⟩⟩,⟨256,.ff,false,some ⟨8,[.code],none,false⟩⟩,⟨256,.cr,false,some ⟨8,[.code],none,false⟩⟩,⟨256,.cr,true,some ⟨8,[.code],none,false⟩⟩,⟨256,.other,false,some ⟨0,[],some 2,true⟩⟩,⟨256,.other,false,some ⟨10,[],none,false⟩⟩]⟩,⟨[56],none,[],[⟨256,.other,false,some ⟨8,[.code],none,false⟩⟩,⟨256,.ws,false,some ⟨9,[],none,false⟩⟩,⟨256,.lf,false,some ⟨8,[.code],none,false⟩⟩,⟨256,.vt,false,some ⟨8,[.code],none,false⟩⟩,⟨256,.ff,false,some ⟨8,[.code],none,false⟩⟩,⟨256,.cr,false,some ⟨8,[.code],none,false⟩⟩,⟨256,.cr,true,some ⟨8,[.code],none,false⟩⟩,⟨256,.other,false,some ⟨0,[],some 2,true⟩⟩,⟨256,.other,false,some ⟨10,[],none,false⟩⟩]⟩,⟨[50,58],none,[],[⟨256,.other,false,some ⟨20,[.code],none,false⟩⟩,⟨256,.ws,false,some ⟨20,[.code],none,false⟩⟩,⟨256,.lf,false,some ⟨21,[],none,false⟩⟩,⟨256,.vt,false,some ⟨20,[.code],none,false⟩⟩,⟨256,.ff,false,some ⟨22,[],none,false⟩⟩,⟨256,.cr,false,some ⟨23,[],none,false⟩⟩,⟨256,.cr,true,some ⟨24,[],none,false⟩⟩]⟩,⟨[45],none,[],[⟨256,.other,false,some ⟨11,[.code],none,false⟩⟩,⟨256,.ws,false,some ⟨12,[],none,false⟩⟩,⟨256,.lf,false,some ⟨11,[.code],none,false⟩⟩,⟨256,.vt,false,some ⟨11,[.code],none,false⟩⟩,⟨256,.ff,false,some ⟨11,[.code],none,false⟩⟩,⟨256,.cr,false,some ⟨11,[.code],none,false⟩⟩,⟨256,.cr,true,some ⟨11,[.code],none,false⟩⟩,⟨256,.other,false,some ⟨0,[],some 2,true⟩⟩,⟨256,.other,false,some ⟨13,[],none,false⟩⟩]⟩,⟨[44],none,[],[⟨256,.other,false,some ⟨11,[.code],none,false⟩⟩,⟨256,.ws,false,some ⟨12,[],none,false⟩⟩,⟨256,.lf,false,some ⟨11,[.code],none,false⟩⟩,⟨256,.vt,false,some ⟨11,[.code],none,false⟩⟩,⟨256,.ff,false,some ⟨11,[.code],none,false⟩⟩,⟨256,.cr,false,some ⟨11,[.code],none,false⟩⟩,⟨256,.cr,true,some ⟨11,[.code],none,false⟩⟩,⟨256,.other,false,some ⟨0,[],some 2,true⟩⟩,⟨256,.other,false,some ⟨13,[],none,false⟩⟩]⟩,⟨[38,46],none,[],[⟨256,.other,false,some ⟨25,[.code],none,false⟩⟩,⟨256,.ws,false,some ⟨25,[.code],none,false⟩⟩,⟨256,.lf,false,some ⟨26,[],none,false⟩⟩,⟨256,.vt,false,some ⟨25,[.code],none,false⟩⟩,⟨256,.ff,false,some ⟨27,[],none,false⟩⟩,⟨256,.cr,false,some ⟨28,[],none,false⟩⟩,⟨256,.cr,true,some ⟨29,[],none,false⟩⟩]⟩,⟨[12],none,[],[⟨256,.other,false,some ⟨30,[.comment],none,false⟩⟩,⟨256,.ws,false,some ⟨31,[],none,false⟩⟩,⟨256,.lf,false,some ⟨32,[],none,false⟩⟩,⟨256,.vt,false,some ⟨30,[.comment],none,false⟩⟩,⟨256,.ff,false,some ⟨33,[],none,false⟩⟩,⟨256,.cr,false,some ⟨34,[],none,false⟩⟩,⟨256,.cr,true,some ⟨35,[],none,false⟩⟩,⟨256,.other,false,some ⟨36,[.comment],none,false⟩⟩]⟩,⟨[23],none,[],[⟨256,.other,false,some ⟨37,[.comment],none,false⟩⟩,⟨256,.ws,false,some ⟨38,[],none,false⟩⟩,⟨256,.lf,false,some ⟨39,[],none,false⟩⟩,⟨256,.vt,false,none⟩,⟨256,.ff,false,some ⟨40,[],none,false⟩⟩,⟨256,.cr,false,some ⟨41,[],none,false⟩⟩,⟨256,.cr,true,some ⟨42,[],none,false⟩⟩,⟨256,.other,false,some ⟨43,[.comment],none,false⟩⟩,⟨256,.other,false,some ⟨44,[.comment],none,false⟩⟩,⟨256,.other,false,some ⟨45,[.comment],none,false⟩⟩]⟩,⟨[2],some 1,[],[⟨256,.other,false,some ⟨46,[.comment],some 1,false⟩⟩,⟨256,.ws,false,some ⟨47,[],some 1,false⟩⟩,⟨256,.lf,false,none⟩,⟨256,.vt,false,some ⟨46,[.comment],some 1,false⟩⟩,⟨256,.ff,false,none⟩,⟨256,.cr,false,none⟩,⟨256,.cr,true,none⟩,⟨256,.other,false,some ⟨48,[.comment],some 1,false⟩⟩]⟩,⟨[69],none,[],[⟨256,.other,false,some ⟨17,[.code],none,false⟩⟩,⟨256,.ws,false,some ⟨18,[],none,false⟩⟩,⟨256,.lf,false,some ⟨17,[.code],none,false⟩⟩,⟨256,.vt,false,some ⟨17,[.code],none,false⟩⟩,⟨256,.ff,false,some ⟨17,[.code],none,false⟩⟩,⟨256,.cr,false,some ⟨17,[.code],none,false⟩⟩,⟨256,.cr,true,some ⟨17,[.code],none,false⟩⟩,⟨256,.other,false,some ⟨19,[],none,false⟩⟩,⟨256,.other,false,some ⟨0,[],some 2,true⟩⟩]⟩,⟨[68],none,[],[⟨256,.other,false,some ⟨17,[.code],none,false⟩⟩,⟨256,.ws,false,some ⟨18,[],none,false⟩⟩,⟨256,.lf,false,some ⟨17,[.code],none,false⟩⟩,⟨256,.vt,false,some ⟨17,[.code],none,false⟩⟩,⟨256,.ff,false,some ⟨17,[.code],none,false⟩⟩,⟨256,.cr,false,some ⟨17,[.code],none,false⟩⟩,⟨256,.cr,true,some ⟨17,[.code],none,false⟩⟩,⟨256,.other,false,some ⟨19,[],none,false⟩⟩,⟨256,.other,false,some ⟨0,[],some 2,true⟩⟩]⟩,⟨[62,70],none,[],[⟨256,.other,false,some ⟨49,[.code],none,false⟩⟩,⟨256,.ws,false,some ⟨49,[.code],none,false⟩⟩,⟨256,.lf,false,some ⟨50,[],none,false⟩⟩,⟨256,.vt,false,some ⟨49,[.code],none,false⟩⟩,⟨256,.ff,false,some ⟨51,[],none,false⟩⟩,⟨256,.cr,false,some ⟨52,[],none,false⟩⟩,⟨256,.cr,true,some ⟨53,[],none,false⟩⟩]⟩,⟨[59],none,[],[⟨256,.other,false,some ⟨8,[.code],none,false⟩⟩,⟨256,.ws,false,some ⟨9,[],none,false⟩⟩,⟨256,.lf,false,some ⟨8,[.code],none,false⟩⟩,⟨256,.vt,false,some ⟨8,[.code],none,false⟩⟩,⟨256,.ff,false,some ⟨8,[.code],none,false⟩⟩,⟨256,.cr,false,some ⟨8,[.code],none,false⟩⟩,⟨256,.cr,true,some ⟨8,[.code],none,false⟩⟩,⟨256,.other,false,some ⟨0,[],some 2,true⟩⟩,⟨256,.other,false,some ⟨10,[],none,false⟩⟩]⟩,⟨[53],none,[],[⟨256,.other,false,some ⟨8,[.setEnt .internalNl,.cb,.code],none,false⟩⟩,⟨256,.ws,false,some ⟨9,[.setEnt .internalNl,.cb],none,false⟩⟩,⟨256,.lf,false,some ⟨8,[.setEnt .internalNl,.cb,.code],none,false⟩⟩,⟨256,.vt,false,some ⟨8,[.setEnt .internalNl,.cb,.code],none,false⟩⟩,⟨256,.ff,false,some ⟨8,[.setEnt .internalNl,.cb,.code],none,false⟩⟩,⟨256,.cr,false,some ⟨8,[.setEnt .internalNl,.cb,.code],none,false⟩⟩,⟨256,.cr,true,some ⟨8,[.setEnt .internalNl,.cb,.code],none,false⟩⟩,⟨256,.other,false,some ⟨0,[.setEnt .internalNl,.cb],some 2,true⟩⟩,⟨256,.other,false,some ⟨10,[.setEnt .internalNl,.cb],none,false⟩⟩]⟩,⟨[54],none,[],[⟨256,.other,false,some ⟨8,[.setEnt .internalNl,.cb,.code],none,false⟩⟩,⟨256,.ws,false,some ⟨9,[.setEnt .internalNl,.cb],none,false⟩⟩,⟨256,.lf,false,some ⟨8,[.setEnt .internalNl,.cb,.code],none,false⟩⟩,⟨256,.vt,false,some ⟨8,[.setEnt .internalNl,.cb,.code],none,false⟩⟩,⟨256,.ff,false,some ⟨8,[.setEnt .internalNl,.cb,.code],none,false⟩⟩,⟨256,.cr,false,some ⟨8,[.setEnt .internalNl,.cb,.code],none,false⟩⟩,⟨256,.cr,true,some ⟨8,[.setEnt .internalNl,.cb,.code],none,false⟩⟩,⟨256,.other,false,some ⟨0,[.setEnt .internalNl,.cb],some 2,true⟩⟩,⟨256,.other,false,some ⟨10,[.setEnt .internalNl,.cb],none,false⟩⟩]⟩,⟨[51],none,[],[⟨256,.other,false,none⟩,⟨256,.ws,false,none⟩,⟨256,.lf,false,some ⟨54,[],none,false⟩⟩,⟨256,.vt,false,none⟩,⟨256,.ff,false,none⟩,⟨256,.cr,false,none⟩,⟨256,.cr,true,none⟩]⟩,⟨[51,55],none,[],[⟨256,.other,false,some ⟨8,[.setEnt .internalNl,.cb,.code],none,false⟩⟩,⟨256,.ws,false,some ⟨9,[.setEnt .internalNl,.cb],none,false⟩⟩,⟨256,.lf,false,some ⟨55,[.setEnt .internalNl,.cb,.code],none,false⟩⟩,⟨256,.vt,false,some ⟨8,[.setEnt .internalNl,.cb,.code],none,false⟩⟩,⟨256,.ff,false,some ⟨8,[.setEnt .internalNl,.cb,.code],none,false⟩⟩,⟨256,.cr,false,some ⟨8,[.setEnt .internalNl,.cb,.code],none,false⟩⟩,⟨256,.cr,true,some ⟨8,[.setEnt .internalNl,.cb,.code],none,false⟩⟩,⟨256,.other,false,some ⟨0,[.setEnt .internalNl,.cb],some 2,true⟩⟩,⟨256,.other,false,some ⟨10,[.setEnt .internalNl,.cb],none,false⟩⟩]⟩,⟨[47],none,[],[⟨256,.other,false,some ⟨11,[.code],none,false⟩⟩,⟨256,.ws,false,some ⟨12,[],none,false⟩⟩,⟨256,.lf,false,some ⟨11,[.code],none,false⟩⟩,⟨256,.vt,false,some ⟨11,[.code],none,false⟩⟩,⟨256,.ff,false,some ⟨11,[.code],none,false⟩⟩,⟨256,.cr,false,some ⟨11,[.code],none,false⟩⟩,⟨256,.cr,true,some ⟨11,[.code],none,false⟩⟩,⟨256,.other,false,some ⟨0,[],some 2,true⟩⟩,⟨256,.other,false,some ⟨13,[],none,false⟩⟩]⟩,⟨[41],none,[],[⟨256,.other,false,some ⟨11,[.setEnt .internalNl,.cb,.code],none,false⟩⟩,⟨256,.ws,false,some ⟨12,[.setEnt .internalNl,.cb],none,false⟩⟩,⟨256,.lf,false,some ⟨11,[.setEnt .internalNl,.cb,.code],none,false⟩⟩,⟨256,.vt,false,some ⟨11,[.setEnt .internalNl,.cb,.code],none,false⟩⟩,⟨256,.ff,false,some ⟨11,[.setEnt .internalNl,.cb,.code],none,false⟩⟩,⟨256,.cr,false,some ⟨11,[.setEnt .internalNl,.cb,.code],none,false⟩⟩,⟨256,.cr,true,some ⟨11,[.setEnt .internalNl,.cb,.code],none,false⟩⟩,⟨256,.other,false,some ⟨0,[.setEnt .internalNl,.cb],some 2,true⟩⟩,⟨256,.other,false,some ⟨13,[.setEnt .internalNl,.cb],none,false⟩⟩]⟩,⟨[42],none,[],[⟨256,.other,false,some ⟨11,[.setEnt .internalNl,.cb,.code],none,false⟩⟩,⟨256,.ws,false,some ⟨12,[.setEnt .internalNl,.cb],none,false⟩⟩,⟨256,.lf,false,some ⟨11,[.setEnt .internalNl,.cb,.code],none,false⟩⟩,⟨256,.vt,false,some ⟨11,[.setEnt .internalNl,.cb,.code],none,false⟩⟩,⟨256,.ff,false,some ⟨11,[.setEnt .internalNl,.cb,.code],none,false⟩⟩,⟨256,.cr,false,some ⟨11,[.setEnt .internalNl,.cb,.code],none,false⟩⟩,⟨256,.cr,true,some ⟨11,[.setEnt .internalNl,.cb,.code],none,false⟩⟩,⟨256,.other,false,some ⟨0,[.setEnt .internalNl,.cb],some 2,true⟩⟩,⟨256,.other,false,some ⟨13,[.setEnt .internalNl,.cb],none,false⟩⟩]⟩,⟨[39],none,[],[⟨256,.other,false,none⟩,⟨256,.ws,false,none⟩,⟨256,.lf,false,some ⟨56,[],none,false⟩⟩,⟨256,.vt,false,none⟩,⟨256,.ff,false,none⟩,⟨256,.cr,false,none⟩,⟨256,.cr,true,none⟩]⟩,⟨[39,43],none,[],[⟨256,.other,false,some ⟨11,[.setEnt .internalNl,.cb,.code],none,false⟩⟩,⟨256,.ws,false,some ⟨12,[.setEnt .internalNl,.cb],none,false⟩⟩,⟨256,.lf,false,some ⟨57,[.setEnt .internalNl,.cb,.code],none,false⟩⟩,⟨256,.vt,false,some ⟨11,[.setEnt .internalNl,.cb,.code],none,false⟩⟩,⟨256,.ff,false,some ⟨11,[.setEnt .internalNl,.cb,.code],none,false⟩⟩,⟨256,.cr,false,some ⟨11,[.setEnt .internalNl,.cb,.code],none,false⟩⟩,⟨256,.cr,true,some ⟨11,[.setEnt .internalNl,.cb,.code],none,false⟩⟩,⟨256,.other,false,some ⟨0,[.setEnt .internalNl,.cb],some 2,true⟩⟩,⟨256,.other,false,some ⟨13,[.setEnt .internalNl,.cb],none,false⟩⟩]⟩,⟨[19],none,[],[⟨256,.other,false,some ⟨30,[.comment],none,false⟩⟩,⟨256,.ws,false,some ⟨31,[],none,false⟩⟩,⟨256,.lf,false,some ⟨32,[],none,false⟩⟩,⟨256,.vt,false,some ⟨30,[.comment],none,false⟩⟩,⟨256,.ff,false,some ⟨33,[],none,false⟩⟩,⟨256,.cr,false,some ⟨34,[],none,false⟩⟩,⟨256,.cr,true,some ⟨35,[],none,false⟩⟩,⟨256,.other,false,some ⟨36,[.comment],none,false⟩⟩]⟩,⟨[18],none,[],[⟨256,.other,false,some ⟨30,[.comment],none,false⟩⟩,⟨256,.ws,false,some ⟨31,[],none,false⟩⟩,⟨256,.lf,false,some ⟨32,[],none,false⟩⟩,⟨256,.vt,false,some ⟨30,[.comment],none,false⟩⟩,⟨256,.ff,false,some ⟨33,[],none,false⟩⟩,⟨256,.cr,false,some ⟨34,[],none,false⟩⟩,⟨256,.cr,true,some ⟨35,[],none,false⟩⟩,⟨256,.other,false,some ⟨36,[.comment],none,false⟩⟩]⟩,⟨[15],none,[],[⟨256,.other,false,some ⟨30,[.setEnt .internalNl,.cb,.comment],none,false⟩⟩,⟨256,.ws,false,some ⟨31,[.setEnt .internalNl,.cb],none,false⟩⟩,⟨256,.lf,false,some ⟨32,[.setEnt .internalNl,.cb],none,false⟩⟩,⟨256,.vt,false,some ⟨30,[.setEnt .internalNl,.cb,.comment],none,false⟩⟩,⟨256,.ff,false,some ⟨33,[.setEnt .internalNl,.cb],none,false⟩⟩,⟨256,.cr,false,some ⟨34,[.setEnt .internalNl,.cb],none,false⟩⟩,⟨256,.cr,true,some ⟨35,[.setEnt .internalNl,.cb],none,false⟩⟩,⟨256,.other,false,some ⟨36,[.setEnt .internalNl,.cb,.comment],none,false⟩⟩]⟩,⟨[16],none,[],[⟨256,.other,false,some ⟨30,[.setEnt .internalNl,.cb,.comment],none,false⟩⟩,⟨256,.ws,false,some ⟨31,[.setEnt .internalNl,.cb],none,false⟩⟩,⟨256,.lf,false,some ⟨32,[.setEnt .internalNl,.cb],none,false⟩⟩,⟨256,.vt,false,some ⟨30,[.setEnt .internalNl,.cb,.comment],none,false⟩⟩,⟨256,.ff,false,some ⟨33,[.setEnt .internalNl,.cb],none,false⟩⟩,⟨256,.cr,false,some ⟨34,[.setEnt .internalNl,.cb],none,false⟩⟩,⟨256,.cr,true,some ⟨35,[.setEnt .internalNl,.cb],none,false⟩⟩,⟨256,.other,false,some ⟨36,[.setEnt .internalNl,.cb,.comment],none,false⟩⟩]⟩,⟨[13],none,[],[⟨256,.other,false,none⟩,⟨256,.ws,false,none⟩,⟨256,.lf,false,some ⟨58,[],none,false⟩⟩,⟨256,.vt,false,none⟩,⟨256,.ff,false,none⟩,⟨256,.cr,false,none⟩,⟨256,.cr,true,none⟩]⟩,⟨[13,17],none,[],[⟨256,.other,false,some ⟨30,[.setEnt .internalNl,.cb,.comment],none,false⟩⟩,⟨256,.ws,false,some ⟨31,[.setEnt .internalNl,.cb],none,false⟩⟩,⟨256,.lf,false,some ⟨59,[.setEnt .internalNl,.cb],none,false⟩⟩,⟨256,.vt,false,some ⟨30,[.setEnt .internalNl,.cb,.comment],none,false⟩⟩,⟨256,.ff,false,some ⟨33,[.setEnt .internalNl,.cb],none,false⟩⟩,⟨256,.cr,false,some ⟨34,[.setEnt .internalNl,.cb],none,false⟩⟩,⟨256,.cr,true,some ⟨35,[.setEnt .internalNl,.cb],none,false⟩⟩,⟨256,.other,false,some ⟨36,[.setEnt .internalNl,.cb,.comment],none,false⟩⟩]⟩,⟨[19,20],none,[],[⟨256,.other,false,some ⟨30,[.comment],none,false⟩⟩,⟨256,.ws,false,some ⟨31,[],none,false⟩⟩,⟨256,.lf,false,some ⟨32,[],none,false⟩⟩,⟨256,.vt,false,some ⟨30,[.comment],none,false⟩⟩,⟨256,.ff,false,some ⟨33,[],none,false⟩⟩,⟨256,.cr,false,some ⟨34,[],none,false⟩⟩,⟨256,.cr,true,some ⟨35,[],none,false⟩⟩,⟨256,.other,false,some ⟨36,[.comment],none,false⟩⟩,⟨256,.other,false,some ⟨0,[],some 1,true⟩⟩]⟩,⟨[34],none,[],[⟨256,.other,false,some ⟨37,[.comment],none,false⟩⟩,⟨256,.ws,false,some ⟨38,[],none,false⟩⟩,⟨256,.lf,false,some ⟨39,[],none,false⟩⟩,⟨256,.vt,false,none⟩,⟨256,.ff,false,some ⟨40,[],none,false⟩⟩,⟨256,.cr,false,some ⟨41,[],none,false⟩⟩,⟨256,.cr,true,some ⟨42,[],none,false⟩⟩,⟨256,.other,false,some ⟨43,[.comment],none,false⟩⟩,⟨256,.other,false,some ⟨44,[.comment],none,false⟩⟩,⟨256,.other,false,some ⟨45,[.comment],none,false⟩⟩]⟩,⟨[29],none,[],[⟨256,.other,false,some ⟨37,[.comment],none,false⟩⟩,⟨256,.ws,false,some ⟨38,[],none,false⟩⟩,⟨256,.lf,false,some ⟨39,[],none,false⟩⟩,⟨256,.vt,false,none⟩,⟨256,.ff,false,some ⟨40,[],none,false⟩⟩,⟨256,.cr,false,some ⟨41,[],none,false⟩⟩,⟨256,.cr,true,some ⟨42,[],none,false⟩⟩,⟨256,.other,false,some ⟨43,[.comment],none,false⟩⟩,⟨256,.other,false,some ⟨44,[.comment],none,false⟩⟩,⟨256,.other,false,some ⟨45,[.comment],none,false⟩⟩]⟩,⟨[26],none,[],[⟨256,.other,false,some ⟨37,[.setEnt .internalNl,.cb,.comment],none,false⟩⟩,⟨256,.ws,false,some ⟨38,[.setEnt .internalNl,.cb],none,false⟩⟩,⟨256,.lf,false,some ⟨39,[.setEnt .internalNl,.cb],none,false⟩⟩,⟨256,.vt,false,none⟩,⟨256,.ff,false,some ⟨40,[.setEnt .internalNl,.cb],none,false⟩⟩,⟨256,.cr,false,some ⟨41,[.setEnt .internalNl,.cb],none,false⟩⟩,⟨256,.cr,true,some ⟨42,[.setEnt .internalNl,.cb],none,false⟩⟩,⟨256,.other,false,some ⟨43,[.setEnt .internalNl,.cb,.comment],none,false⟩⟩,⟨256,.other,false,some ⟨44,[.setEnt .internalNl,.cb,.comment],none,false⟩⟩,⟨256,.other,false,some ⟨45,[.setEnt .internalNl,.cb,.comment],none,false⟩⟩]⟩,⟨[27],none,[],[⟨256,.other,false,some ⟨37,[.setEnt .internalNl,.cb,.comment],none,false⟩⟩,⟨256,.ws,false,some ⟨38,[.setEnt .internalNl,.cb],none,false⟩⟩,⟨256,.lf,false,some ⟨39,[.setEnt .internalNl,.cb],none,false⟩⟩,⟨256,.vt,false,none⟩,⟨256,.ff,false,some ⟨40,[.setEnt .internalNl,.cb],none,false⟩⟩,⟨256,.cr,false,some ⟨41,[.setEnt .internalNl,.cb],none,false⟩⟩,⟨256,.cr,true,some ⟨42,[.setEnt .internalNl,.cb],none,false⟩⟩,⟨256,.other,false,some ⟨43,[.setEnt .internalNl,.cb,.comment],none,false⟩⟩,⟨256,.other,false,some ⟨44,[.setEnt .internalNl,.cb,.comment],none,false⟩⟩,⟨256,.other,false,some ⟨45,[.setEnt .internalNl,.cb,.comment],none,false⟩⟩]⟩,⟨[24],none,[],[⟨256,.other,false,none⟩,⟨256,.ws,false,none⟩,⟨256,.lf,false,some ⟨60,[],none,false⟩⟩,⟨256,.vt,false,none⟩,⟨256,.ff,false,none⟩,⟨256,.cr,false,none⟩,⟨256,.cr,true,none⟩]⟩,⟨[24,28],none,[],[⟨256,.other,false,some ⟨37,[.setEnt .internalNl,.cb,.comment],none,false⟩⟩,⟨256,.ws,false,some ⟨38,[.setEnt .internalNl,.cb],none,false⟩⟩,⟨256,.lf,false,some ⟨61,[.setEnt .internalNl,.cb],none,false⟩⟩,⟨256,.vt,false,none⟩,⟨256,.ff,false,some ⟨40,[.setEnt .internalNl,.cb],none,false⟩⟩,⟨256,.cr,false,some ⟨41,[.setEnt .internalNl,.cb],none,false⟩⟩,⟨256,.cr,true,some ⟨42,[.setEnt .internalNl,.cb],none,false⟩⟩,⟨256,.other,false,some ⟨43,[.setEnt .internalNl,.cb,.comment],none,false⟩⟩,⟨256,.other,false,some ⟨44,[.setEnt .internalNl,.cb,.comment],none,false⟩⟩,⟨256,.other,false,some ⟨45,[.setEnt .internalNl,.cb,.comment],none,false⟩⟩]⟩,⟨[32,34],none,[],[⟨256,.other,false,some ⟨37,[.comment],none,false⟩⟩,⟨256,.ws,false,some ⟨38,[],none,false⟩⟩,⟨256,.lf,false,some ⟨39,[],none,false⟩⟩,⟨256,.vt,false,none⟩,⟨256,.ff,false,some ⟨40,[],none,false⟩⟩,⟨256,.cr,false,some ⟨41,[],none,false⟩⟩,⟨256,.cr,true,some ⟨42,[],none,false⟩⟩,⟨256,.other,false,some ⟨43,[.comment],none,false⟩⟩,⟨256,.other,false,some ⟨44,[.comment],none,false⟩⟩,⟨256,.other,false,some ⟨62,[.nestDec,.comment],none,false⟩⟩]⟩,⟨[32,34,35],none,[],[⟨256,.other,false,some ⟨37,[.comment],none,false⟩⟩,⟨256,.ws,false,some ⟨38,[],none,false⟩⟩,⟨256,.lf,false,some ⟨39,[],none,false⟩⟩,⟨256,.vt,false,none⟩,⟨256,.ff,false,some ⟨40,[],none,false⟩⟩,⟨256,.cr,false,some ⟨41,[],none,false⟩⟩,⟨256,.cr,true,some ⟨42,[],none,false⟩⟩,⟨256,.other,false,some ⟨43,[.comment],none,false⟩⟩,⟨256,.other,false,some ⟨44,[.comment],none,false⟩⟩,⟨256,.other,false,some ⟨62,[.nestDec,.comment],none,false⟩⟩,⟨256,.other,false,some ⟨0,[.comment],some 1,true⟩⟩]⟩,⟨[30,34],none,[],[⟨256,.other,false,some ⟨37,[.comment],none,false⟩⟩,⟨256,.ws,false,some ⟨38,[],none,false⟩⟩,⟨256,.lf,false,some ⟨39,[],none,false⟩⟩,⟨256,.vt,false,none⟩,⟨256,.ff,false,some ⟨40,[],none,false⟩⟩,⟨256,.cr,false,some ⟨41,[],none,false⟩⟩,⟨256,.cr,true,some ⟨42,[],none,false⟩⟩,⟨256,.other,false,some ⟨63,[.nestInc,.comment],none,false⟩⟩,⟨256,.other,false,some ⟨64,[.nestInc,.comment],none,false⟩⟩,⟨256,.other,false,some ⟨45,[.comment],none,false⟩⟩]⟩,⟨[10],some 1,[],[⟨256,.other,false,some ⟨46,[.comment],some 1,false⟩⟩,⟨256,.ws,false,some ⟨47,[],some 1,false⟩⟩,⟨256,.lf,false,none⟩,⟨256,.vt,false,some ⟨46,[.comment],some 1,false⟩⟩,⟨256,.ff,false,none⟩,⟨256,.cr,false,none⟩,⟨256,.cr,true,none⟩,⟨256,.other,false,some ⟨48,[.comment],some 1,false⟩⟩]⟩,⟨[9],some 1,[],[⟨256,.other,false,some ⟨46,[.comment],some 1,false⟩⟩,⟨256,.ws,false,some ⟨47,[],some 1,false⟩⟩,⟨256,.lf,false,none⟩,⟨256,.vt,false,some ⟨46,[.comment],some 1,false⟩⟩,⟨256,.ff,false,none⟩,⟨256,.cr,false,none⟩,⟨256,.cr,true,none⟩,⟨256,.other,false,some ⟨48,[.comment],some 1,false⟩⟩]⟩,⟨[3,10],some 1,[],[⟨256,.other,false,some ⟨46,[.comment],some 1,false⟩⟩,⟨256,.ws,false,some ⟨47,[],some 1,false⟩⟩,⟨256,.lf,false,some ⟨65,[],some 1,false⟩⟩,⟨256,.vt,false,some ⟨46,[.comment],some 1,false⟩⟩,⟨256,.ff,false,some ⟨66,[],some 1,false⟩⟩,⟨256,.cr,false,some ⟨67,[],none,false⟩⟩,⟨256,.cr,true,some ⟨68,[],some 1,false⟩⟩,⟨256,.other,false,some ⟨48,[.comment],some 1,false⟩⟩]⟩,⟨[71],none,[],[⟨256,.other,false,some ⟨17,[.code],none,false⟩⟩,⟨256,.ws,false,some ⟨18,[],none,false⟩⟩,⟨256,.lf,false,some ⟨17,[.code],none,false⟩⟩,⟨256,.vt,false,some ⟨17,[.code],none,false⟩⟩,⟨256,.ff,false,some ⟨17,[.code],none,false⟩⟩,⟨256,.cr,false,some ⟨17,[.code],none,false⟩⟩,⟨256,.cr,true,some ⟨17,[.code],none,false⟩⟩,⟨256,.other,false,some ⟨19,[],none,false⟩⟩,⟨256,.other,false,some ⟨0,[],some 2,true⟩⟩]⟩,⟨[65],none,[],[⟨256,.other,false,some ⟨17,[.setEnt .internalNl,.cb,.code],none,false⟩⟩,⟨256,.ws,false,some ⟨18,[.setEnt .internalNl,.cb],none,false⟩⟩,⟨256,.lf,false,some ⟨17,[.setEnt .internalNl,.cb,.code],none,false⟩⟩,⟨256,.vt,false,some ⟨17,[.setEnt .internalNl,.cb,.code],none,false⟩⟩,⟨256,.ff,false,some ⟨17,[.setEnt .internalNl,.cb,.code],none,false⟩⟩,⟨256,.cr,false,some ⟨17,[.setEnt .internalNl,.cb,.code],none,false⟩⟩,⟨256,.cr,true,some ⟨17,[.setEnt .internalNl,.cb,.code],none,false⟩⟩,⟨256,.other,false,some ⟨19,[.setEnt .internalNl,.cb],none,false⟩⟩,⟨256,.other,false,some ⟨0,[.setEnt .internalNl,.cb],some 2,true⟩⟩]⟩,⟨[66],none,[],[⟨256,.other,false,some ⟨17,[.setEnt .internalNl,.cb,.code],none,false⟩⟩,⟨256,.ws,false,some ⟨18,[.setEnt .internalNl,.cb],none,false⟩⟩,⟨256,.lf,false,some ⟨17,[.setEnt .internalNl,.cb,.code],none,false⟩⟩,⟨256,.vt,false,some ⟨17,[.setEnt .internalNl,.cb,.code],none,false⟩⟩,⟨256,.ff,false,some ⟨17,[.setEnt .internalNl,.cb,.code],none,false⟩⟩,⟨256,.cr,false,some ⟨17,[.setEnt .internalNl,.cb,.code],none,false⟩⟩,⟨256,.cr,true,some ⟨17,[.setEnt .internalNl,.cb,.code],none,false⟩⟩,⟨256,.other,false,some ⟨19,[.setEnt .internalNl,.cb],none,false⟩⟩,⟨256,.other,false,some ⟨0,[.setEnt .internalNl,.cb],some 2,true⟩⟩]⟩,⟨[63],none,[],[⟨256,.other,false,none⟩,⟨256,.ws,false,none⟩,⟨256,.lf,false,some ⟨69,[],none,false⟩⟩,⟨256,.vt,false,none⟩,⟨256,.ff,false,none⟩,⟨256,.cr,false,none⟩,⟨256,.cr,true,none⟩]⟩,⟨[63,67],none,[],[⟨256,.other,false,some ⟨17,[.setEnt .internalNl,.cb,.code],none,false⟩⟩,⟨256,.ws,false,some ⟨18,[.setEnt .internalNl,.cb],none,false⟩⟩,⟨256,.lf,false,some ⟨70,[.setEnt .internalNl,.cb,.code],none,false⟩⟩,⟨256,.vt,false,some ⟨17,[.setEnt .internalNl,.cb,.code],none,false⟩⟩,⟨256,.ff,false,some ⟨17,[.setEnt .internalNl,.cb,.code],none,false⟩⟩,⟨256,.cr,false,some ⟨17,[.setEnt .internalNl,.cb,.code],none,false⟩⟩,⟨256,.cr,true,some ⟨17,[.setEnt .internalNl,.cb,.code],none,false⟩⟩,⟨256,.other,false,some ⟨19,[.setEnt .internalNl,.cb],none,false⟩⟩,⟨256,.other,false,some ⟨0,[.setEnt .internalNl,.cb],some 2,true⟩⟩]⟩,⟨[52],none,[],[⟨256,.other,false,some ⟨8,[.setEnt .internalNl,.cb,.code],none,false⟩⟩,⟨256,.ws,false,some ⟨9,[.setEnt .internalNl,.cb],none,false⟩⟩,⟨256,.lf,false,some ⟨8,[.setEnt .internalNl,.cb,.code],none,false⟩⟩,⟨256,.vt,false,some ⟨8,[.setEnt .internalNl,.cb,.code],none,false⟩⟩,⟨256,.ff,false,some ⟨8,[.setEnt .internalNl,.cb,.code],none,false⟩⟩,⟨256,.cr,false,some ⟨8,[.setEnt .internalNl,.cb,.code],none,false⟩⟩,⟨256,.cr,true,some ⟨8,[.setEnt .internalNl,.cb,.code],none,false⟩⟩,⟨256,.other,false,some ⟨0,[.setEnt .internalNl,.cb],some 2,true⟩⟩,⟨256,.other,false,some ⟨10,[.setEnt .internalNl,.cb],none,false⟩⟩]⟩,⟨[52,57],none,[],[⟨256,.other,false,some ⟨8,[.setEnt .internalNl,.cb,.code],none,false⟩⟩,⟨256,.ws,false,some ⟨9,[.setEnt .internalNl,.cb],none,false⟩⟩,⟨256,.lf,false,some ⟨8,[.setEnt .internalNl,.cb,.code],none,false⟩⟩,⟨256,.vt,false,some ⟨8,[.setEnt .internalNl,.cb,.code],none,false⟩⟩,⟨256,.ff,false,some ⟨8,[.setEnt .internalNl,.cb,.code],none,false⟩⟩,⟨256,.cr,false,some ⟨8,[.setEnt .internalNl,.cb,.code],none,false⟩⟩,⟨256,.cr,true,some ⟨8,[.setEnt .internalNl,.cb,.code],none,false⟩⟩,⟨256,.other,false,some ⟨0,[.setEnt .internalNl,.cb],some 2,true⟩⟩,⟨256,.other,false,some ⟨10,[.setEnt .internalNl,.cb],none,false⟩⟩]⟩,⟨[40],none,[],[⟨256,.other,false,some ⟨11,[.setEnt .internalNl,.cb,.code],none,false⟩⟩,⟨256,.ws,false,some ⟨12,[.setEnt .internalNl,.cb],none,false⟩⟩,⟨256,.lf,false,some ⟨11,[.setEnt .internalNl,.cb,.code],none,false⟩⟩,⟨256,.vt,false,some ⟨11,[.setEnt .internalNl,.cb,.code],none,false⟩⟩,⟨256,.ff,false,some ⟨11,[.setEnt .internalNl,.cb,.code],none,false⟩⟩,⟨256,.cr,false,some ⟨11,[.setEnt .internalNl,.cb,.code],none,false⟩⟩,⟨256,.cr,true,some ⟨11,[.setEnt .internalNl,.cb,.code],none,false⟩⟩,⟨256,.other,false,some ⟨0,[.setEnt .internalNl,.cb],some 2,true⟩⟩,⟨256,.other,false,some ⟨13,[.setEnt .internalNl,.cb],none,false⟩⟩]⟩,⟨[40,45],none,[],[⟨256,.other,false,some ⟨11,[.setEnt .internalNl,.cb,.code],none,false⟩⟩,⟨256,.ws,false,some ⟨12,[.setEnt .internalNl,.cb],none,false⟩⟩,⟨256,.lf,false,some ⟨11,[.setEnt .internalNl,.cb,.code],none,false⟩⟩,⟨256,.vt,false,some ⟨11,[.setEnt .internalNl,.cb,.code],none,false⟩⟩,⟨256,.ff,false,some ⟨11,[.setEnt .internalNl,.cb,.code],none,false⟩⟩,⟨256,.cr,false,some ⟨11,[.setEnt .internalNl,.cb,.code],none,false⟩⟩,⟨256,.cr,true,some ⟨11,[.setEnt .internalNl,.cb,.code],none,false⟩⟩,⟨256,.other,false,some ⟨0,[.setEnt .internalNl,.cb],some 2,true⟩⟩,⟨256,.other,false,some ⟨13,[.setEnt .internalNl,.cb],none,false⟩⟩]⟩,⟨[14],none,[],[⟨256,.other,false,some ⟨30,[.setEnt .internalNl,.cb,.comment],none,false⟩⟩,⟨256,.ws,false,some ⟨31,[.setEnt .internalNl,.cb],none,false⟩⟩,⟨256,.lf,false,some ⟨32,[.setEnt .internalNl,.cb],none,false⟩⟩,⟨256,.vt,false,some ⟨30,[.setEnt .internalNl,.cb,.comment],none,false⟩⟩,⟨256,.ff,false,some ⟨33,[.setEnt .internalNl,.cb],none,false⟩⟩,⟨256,.cr,false,some ⟨34,[.setEnt .internalNl,.cb],none,false⟩⟩,⟨256,.cr,true,some ⟨35,[.setEnt .internalNl,.cb],none,false⟩⟩,⟨256,.other,false,some ⟨36,[.setEnt .internalNl,.cb,.comment],none,false⟩⟩]⟩,⟨[14,15],none,[],[⟨256,.other,false,some ⟨30,[.setEnt .internalNl,.cb,.comment],none,false⟩⟩,⟨256,.ws,false,some ⟨31,[.setEnt .internalNl,.cb],none,false⟩⟩,⟨256,.lf,false,some ⟨32,[.setEnt .internalNl,.cb],none,false⟩⟩,⟨256,.vt,false,some ⟨30,[.setEnt .internalNl,.cb,.comment],none,false⟩⟩,⟨256,.ff,false,some ⟨33,[.setEnt .internalNl,.cb],none,false⟩⟩,⟨256,.cr,false,some ⟨34,[.setEnt .internalNl,.cb],none,false⟩⟩,⟨256,.cr,true,some ⟨35,[.setEnt .internalNl,.cb],none,false⟩⟩,⟨256,.other,false,some ⟨36,[.setEnt .internalNl,.cb,.comment],none,false⟩⟩]⟩,⟨[25],none,[],[⟨256,.other,false,some ⟨37,[.setEnt .internalNl,.cb,.comment],none,false⟩⟩,⟨256,.ws,false,some ⟨38,[.setEnt .internalNl,.cb],none,false⟩⟩,⟨256,.lf,false,some ⟨39,[.setEnt .internalNl,.cb],none,false⟩⟩,⟨256,.vt,false,none⟩,⟨256,.ff,false,some ⟨40,[.setEnt .internalNl,.cb],none,false⟩⟩,⟨256,.cr,false,some ⟨41,[.setEnt .internalNl,.cb],none,false⟩⟩,⟨256,.cr,true,some ⟨42,[.setEnt .internalNl,.cb],none,false⟩⟩,⟨256,.other,false,some ⟨43,[.setEnt .internalNl,.cb,.comment],none,false⟩⟩,⟨256,.other,false,some ⟨44,[.setEnt .internalNl,.cb,.comment],none,false⟩⟩,⟨256,.other,false,some ⟨45,[.setEnt .internalNl,.cb,.comment],none,false⟩⟩]⟩,⟨[25,26],none,[],[⟨256,.other,false,some ⟨37,[.setEnt .internalNl,.cb,.comment],none,false⟩⟩,⟨256,.ws,false,some ⟨38,[.setEnt .internalNl,.cb],none,false⟩⟩,⟨256,.lf,false,some ⟨39,[.setEnt .internalNl,.cb],none,false⟩⟩,⟨256,.vt,false,none⟩,⟨256,.ff,false,some ⟨40,[.setEnt .internalNl,.cb],none,false⟩⟩,⟨256,.cr,false,some ⟨41,[.setEnt .internalNl,.cb],none,false⟩⟩,⟨256,.cr,true,some ⟨42,[.setEnt .internalNl,.cb],none,false⟩⟩,⟨256,.other,false,some ⟨43,[.setEnt .internalNl,.cb,.comment],none,false⟩⟩,⟨256,.other,false,some ⟨44,[.setEnt .internalNl,.cb,.comment],none,false⟩⟩,⟨256,.other,false,some ⟨45,[.setEnt .internalNl,.cb,.comment],none,false⟩⟩]⟩,⟨[30,33,34],none,[],[⟨256,.other,false,some ⟨37,[.comment],none,false⟩⟩,⟨256,.ws,false,some ⟨38,[],none,false⟩⟩,⟨256,.lf,false,some ⟨39,[],none,false⟩⟩,⟨256,.vt,false,none⟩,⟨256,.ff,false,some ⟨40,[],none,false⟩⟩,⟨256,.cr,false,some ⟨41,[],none,false⟩⟩,⟨256,.cr,true,some ⟨42,[],none,false⟩⟩,⟨256,.other,false,some ⟨63,[.nestInc,.comment],none,false⟩⟩,⟨256,.other,false,some ⟨64,[.nestInc,.comment],none,false⟩⟩,⟨256,.other,false,some ⟨45,[.comment],none,false⟩⟩]⟩,⟨[31,32,34],none,[],[⟨256,.other,false,some ⟨37,[.comment],none,false⟩⟩,⟨256,.ws,false,some ⟨38,[],none,false⟩⟩,⟨256,.lf,false,some ⟨39,[],none,false⟩⟩,⟨256,.vt,false,none⟩,⟨256,.ff,false,some ⟨40,[],none,false⟩⟩,⟨256,.cr,false,some ⟨41,[],none,false⟩⟩,⟨256,.cr,true,some ⟨42,[],none,false⟩⟩,⟨256,.other,false,some ⟨43,[.comment],none,false⟩⟩,⟨256,.other,false,some ⟨44,[.comment],none,false⟩⟩,⟨256,.other,false,some ⟨62,[.nestDec,.comment],none,false⟩⟩]⟩,⟨[31,32,34,35],none,[],[⟨256,.other,false,some ⟨37,[.comment],none,false⟩⟩,⟨256,.ws,false,some ⟨38,[],none,false⟩⟩,⟨256,.lf,false,some ⟨39,[],none,false⟩⟩,⟨256,.vt,false,none⟩,⟨256,.ff,false,some ⟨40,[],none,false⟩⟩,⟨256,.cr,false,some ⟨41,[],none,false⟩⟩,⟨256,.cr,true,some ⟨42,[],none,false⟩⟩,⟨256,.other,false,some ⟨43,[.comment],none,false⟩⟩,⟨256,.other,false,some ⟨44,[.comment],none,false⟩⟩,⟨256,.other,false,some ⟨62,[.nestDec,.comment],none,false⟩⟩,⟨256,.other,false,some ⟨0,[.comment],some 1,true⟩⟩]⟩,⟨[6],some 1,[.setEnt .internalNl,.cb],[⟨256,.other,false,some ⟨46,[.setEnt .internalNl,.cb,.comment],some 1,false⟩⟩,⟨256,.ws,false,some ⟨47,[.setEnt .internalNl,.cb],some 1,false⟩⟩,⟨256,.lf,false,none⟩,⟨256,.vt,false,some ⟨46,[.setEnt .internalNl,.cb,.comment],some 1,false⟩⟩,⟨256,.ff,false,none⟩,⟨256,.cr,false,none⟩,⟨256,.cr,true,none⟩,⟨256,.other,false,some ⟨48,[.setEnt .internalNl,.cb,.comment],some 1,false⟩⟩]⟩,⟨[7],some 1,[.setEnt .internalNl,.cb],[⟨256,.other,false,some ⟨46,[.setEnt .internalNl,.cb,.comment],some 1,false⟩⟩,⟨256,.ws,false,some ⟨47,[.setEnt .internalNl,.cb],some 1,false⟩⟩,⟨256,.lf,false,none⟩,⟨256,.vt,false,some ⟨46,[.setEnt .internalNl,.cb,.comment],some 1,false⟩⟩,⟨256,.ff,false,none⟩,⟨256,.cr,false,none⟩,⟨256,.cr,true,none⟩,⟨256,.other,false,some ⟨48,[.setEnt .internalNl,.cb,.comment],some 1,false⟩⟩]⟩,⟨[4],none,[],[⟨256,.other,false,none⟩,⟨256,.ws,false,none⟩,⟨256,.lf,false,some ⟨71,[],some 1,false⟩⟩,⟨256,.vt,false,none⟩,⟨256,.ff,false,none⟩,⟨256,.cr,false,none⟩,⟨256,.cr,true,none⟩]⟩,⟨[4,8],some 1,[.setEnt .internalNl,.cb],[⟨256,.other,false,some ⟨46,[.setEnt .internalNl,.cb,.comment],some 1,false⟩⟩,⟨256,.ws,false,some ⟨47,[.setEnt .internalNl,.cb],some 1,false⟩⟩,⟨256,.lf,false,some ⟨71,[],some 1,false⟩⟩,⟨256,.vt,false,some ⟨46,[.setEnt .internalNl,.cb,.comment],some 1,false⟩⟩,⟨256,.ff,false,none⟩,⟨256,.cr,false,none⟩,⟨256,.cr,true,none⟩,⟨256,.other,false,some ⟨48,[.setEnt .internalNl,.cb,.comment],some 1,false⟩⟩]⟩,⟨[64],none,[],[⟨256,.other,false,some ⟨17,[.setEnt .internalNl,.cb,.code],none,false⟩⟩,⟨256,.ws,false,some ⟨18,[.setEnt .internalNl,.cb],none,false⟩⟩,⟨256,.lf,false,some ⟨17,[.setEnt .internalNl,.cb,.code],none,false⟩⟩,⟨256,.vt,false,some ⟨17,[.setEnt .internalNl,.cb,.code],none,false⟩⟩,⟨256,.ff,false,some ⟨17,[.setEnt .internalNl,.cb,.code],none,false⟩⟩,⟨256,.cr,false,some ⟨17,[.setEnt .internalNl,.cb,.code],none,false⟩⟩,⟨256,.cr,true,some ⟨17,[.setEnt .internalNl,.cb,.code],none,false⟩⟩,⟨256,.other,false,some ⟨19,[.setEnt .internalNl,.cb],none,false⟩⟩,⟨256,.other,false,some ⟨0,[.setEnt .internalNl,.cb],some 2,true⟩⟩]⟩,⟨[64,69],none,[],[⟨256,.other,false,some ⟨17,[.setEnt .internalNl,.cb,.code],none,false⟩⟩,⟨256,.ws,false,some ⟨18,[.setEnt .internalNl,.cb],none,false⟩⟩,⟨256,.lf,false,some ⟨17,[.setEnt .internalNl,.cb,.code],none,false⟩⟩,⟨256,.vt,false,some ⟨17,[.setEnt .internalNl,.cb,.code],none,false⟩⟩,⟨256,.ff,false,some ⟨17,[.setEnt .internalNl,.cb,.code],none,false⟩⟩,⟨256,.cr,false,some ⟨17,[.setEnt .internalNl,.cb,.code],none,false⟩⟩,⟨256,.cr,true,some ⟨17,[.setEnt .internalNl,.cb,.code],none,false⟩⟩,⟨256,.other,false,some ⟨19,[.setEnt .internalNl,.cb],none,false⟩⟩,⟨256,.other,false,some ⟨0,[.setEnt .internalNl,.cb],some 2,true⟩⟩]⟩,⟨[5],some 1,[.setEnt .internalNl,.cb],[⟨256,.other,false,some ⟨46,[.setEnt .internalNl,.cb,.comment],some 1,false⟩⟩,⟨256,.ws,false,some ⟨47,[.setEnt .internalNl,.cb],some 1,false⟩⟩,⟨256,.lf,false,none⟩,⟨256,.vt,false,some ⟨46,[.setEnt .internalNl,.cb,.comment],some 1,false⟩⟩,⟨256,.ff,false,none⟩,⟨256,.cr,false,none⟩,⟨256,.cr,true,none⟩,⟨256,.other,false,some ⟨48,[.setEnt .internalNl,.cb,.comment],some 1,false⟩⟩]⟩]
theorem d_line_rowsOk : rowsOk d_line_nfa [] (d_line_cs.map (·.1)) d_line_rows = true := by decide +kernel
def d_line_D : Dfa d_line_M.nfa := ⟨d_line_masks, [], d_line_cs, d_line_rows, d_line_masksIn, d_line_repOk, d_line_rowsOk⟩

def grace_line_nfa : Nfa := ⟨[⟨0,4294967808,[],[(0,.setEnt (.own 0))],0,0⟩,⟨1,140737488355328,[],[],0,0⟩,⟨4,17179869184,[],[(2,.enqueue),(3,.code)],0,0⟩,⟨13,8192,[],[(8,.setEnt .newline)],0,0⟩,⟨15,1024,[],[(8,.setEnt .newline)],0,0⟩,⟨16,4096,[],[(8,.setEnt .newline)],0,0⟩,⟨17,8192,[.crAlone],[(8,.setEnt .newline)],0,0⟩,⟨18,115792089237316195423570985008687907853269984665640564039457584007908834656767,[],[(9,.setEnt (.own 3))],0,0⟩],[[⟨0,4294967808,[],[(0,.setEnt (.own 0))],0,0⟩],[⟨2,140737488355328,[],[(1,.comment)],0,0⟩],[⟨3,115792089237316195423570985008687907853269984665640564039457584007913129626623,[],[],0,0⟩],[⟨3,115792089237316195423570985008687907853269984665640564039457584007913129626623,[],[],0,0⟩],[⟨5,8192,[],[],0,0⟩,⟨7,1024,[],[],0,0⟩,⟨8,4096,[],[],0,0⟩,⟨9,8192,[.crAlone],[],0,0⟩,⟨10,4294967808,[],[],0,0⟩,⟨11,115792089237316195423570985008687907853269984665635612279300442486792058292735,[],[(6,.code)],0,0⟩,⟨12,17179869184,[],[(7,.commit)],0,0⟩],[⟨6,1024,[],[],0,0⟩],[⟨5,8192,[],[(4,.setEnt .internalNl),(5,.cb)],0,0⟩,⟨7,1024,[],[(4,.setEnt .internalNl),(5,.cb)],0,0⟩,⟨8,4096,[],[(4,.setEnt .internalNl),(5,.cb)],0,0⟩,⟨9,8192,[.crAlone],[(4,.setEnt .internalNl),(5,.cb)],0,0⟩,⟨10,4294967808,[],[(4,.setEnt .internalNl),(5,.cb)],0,0⟩,⟨11,115792089237316195423570985008687907853269984665635612279300442486792058292735,[],[(4,.setEnt .internalNl),(5,.cb),(6,.code)],0,0⟩,⟨12,17179869184,[],[(4,.setEnt .internalNl),(5,.cb),(7,.commit)],0,0⟩],[⟨5,8192,[],[(4,.setEnt .internalNl),(5,.cb)],0,0⟩,⟨7,1024,[],[(4,.setEnt .internalNl),(5,.cb)],0,0⟩,⟨8,4096,[],[(4,.setEnt .internalNl),(5,.cb)],0,0⟩,⟨9,8192,[.crAlone],[(4,.setEnt .internalNl),(5,.cb)],0,0⟩,⟨10,4294967808,[],[(4,.setEnt .internalNl),(5,.cb)],0,0⟩,⟨11,115792089237316195423570985008687907853269984665635612279300442486792058292735,[],[(4,.setEnt .internalNl),(5,.cb),(6,.code)],0,0⟩,⟨12,17179869184,[],[(4,.setEnt .internalNl),(5,.cb),(7,.commit)],0,0⟩],[⟨5,8192,[],[(4,.setEnt .internalNl),(5,.cb)],0,0⟩,⟨7,1024,[],[(4,.setEnt .internalNl),(5,.cb)],0,0⟩,⟨8,4096,[],[(4,.setEnt .internalNl),(5,.cb)],0,0⟩,⟨9,8192,[.crAlone],[(4,.setEnt .internalNl),(5,.cb)],0,0⟩,⟨10,4294967808,[],[(4,.setEnt .internalNl),(5,.cb)],0,0⟩,⟨11,115792089237316195423570985008687907853269984665635612279300442486792058292735,[],[(4,.setEnt .internalNl),(5,.cb),(6,.code)],0,0⟩,⟨12,17179869184,[],[(4,.setEnt .internalNl),(5,.cb),(7,.commit)],0,0⟩],[⟨5,8192,[],[(4,.setEnt .internalNl),(5,.cb)],0,0⟩,⟨7,1024,[],[(4,.setEnt .internalNl),(5,.cb)],0,0⟩,⟨8,4096,[],[(4,.setEnt .internalNl),(5,.cb)],0,0⟩,⟨9,8192,[.crAlone],[(4,.setEnt .internalNl),(5,.cb)],0,0⟩,⟨10,4294967808,[],[(4,.setEnt .internalNl),(5,.cb)],0,0⟩,⟨11,115792089237316195423570985008687907853269984665635612279300442486792058292735,[],[(4,.setEnt .internalNl),(5,.cb),(6,.code)],0,0⟩,⟨12,17179869184,[],[(4,.setEnt .internalNl),(5,.cb),(7,.commit)],0,0⟩],[⟨5,8192,[],[],0,0⟩,⟨7,1024,[],[],0,0⟩,⟨8,4096,[],[],0,0⟩,⟨9,8192,[.crAlone],[],0,0⟩,⟨10,4294967808,[],[],0,0⟩,⟨11,115792089237316195423570985008687907853269984665635612279300442486792058292735,[],[(6,.code)],0,0⟩,⟨12,17179869184,[],[(7,.commit)],0,0⟩],[⟨5,8192,[],[],0,0⟩,⟨7,1024,[],[],0,0⟩,⟨8,4096,[],[],0,0⟩,⟨9,8192,[.crAlone],[],0,0⟩,⟨10,4294967808,[],[],0,0⟩,⟨11,115792089237316195423570985008687907853269984665635612279300442486792058292735,[],[(6,.code)],0,0⟩,⟨12,17179869184,[],[(7,.commit)],0,0⟩],[],[⟨14,1024,[],[(8,.setEnt .newline)],0,0⟩],[],[],[],[],[]],[some (0,[]),none,some (1,[]),some (1,[]),none,none,none,none,none,none,none,none,some (2,[]),none,some (3,[]),some (3,[]),some (3,[]),some (3,[]),some (4,[])],[1,2,8,9,10]⟩
theorem grace_line_nfa_eq : Grace.grace_line.nfa = grace_line_nfa := by decide +kernel
/-- The machine of `Grace.grace_line`, with its automaton as a literal. -/
def grace_line_M : Machine := ⟨grace_line_nfa, Grace.grace_line.ends, Grace.grace_line.sw⟩
theorem grace_line_M_eq : Grace.grace_line.machine = grace_line_M := by
  unfold Scanner.machine grace_line_M; rw [grace_line_nfa_eq]
def grace_line_masks : List Nat := [4294967808,140737488355328,17179869184,8192,1024,4096,115792089237316195423570985008687907853269984665640564039457584007908834656767,115792089237316195423570985008687907853269984665640564039457584007913129626623,115792089237316195423570985008687907853269984665635612279300442486792058292735]
def grace_line_cs : List (Nat × Nat) := [(0,115792089237316195423570985008687907853269984665635612279300442346054569935359),(9,4294967808),(10,1024),(11,2048),(12,4096),(13,8192),(34,17179869184),(47,140737488355328),(92,4951760157141521099596496896)]
theorem grace_line_masksIn : masksIn grace_line_nfa grace_line_masks = true := by decide +kernel
theorem grace_line_repOk : repOk grace_line_masks grace_line_cs = true := by decide +kernel
def grace_line_rows : List Row := [⟨[],none,[],[⟨256,.other,false,some ⟨0,[.setEnt (.own 3)],some 4,true⟩⟩,⟨256,.ws,false,some ⟨1,[.setEnt (.own 0)],some 0,false⟩⟩,⟨256,.lf,false,some ⟨0,[.setEnt .newline],some 3,true⟩⟩,⟨256,.vt,false,none⟩,⟨256,.ff,false,some ⟨0,[.setEnt .newline],some 3,true⟩⟩,⟨256,.cr,false,some ⟨2,[.setEnt .newline],none,false⟩⟩,⟨256,.cr,true,some ⟨3,[.setEnt .newline],some 3,false⟩⟩,⟨256,.other,false,some ⟨4,[.enqueue,.code,.setEnt (.own 3)],some 4,false⟩⟩,⟨256,.other,false,some ⟨5,[.setEnt (.own 3)],some 4,false⟩⟩]⟩,⟨[0],some 0,[],[⟨256,.other,false,none⟩,⟨256,.ws,false,some ⟨1,[.setEnt (.own 0)],some 0,false⟩⟩,⟨256,.lf,false,none⟩,⟨256,.vt,false,none⟩,⟨256,.ff,false,none⟩,⟨256,.cr,false,none⟩,⟨256,.cr,true,none⟩]⟩,⟨[13],none,[],[⟨256,.other,false,none⟩,⟨256,.ws,false,none⟩,⟨256,.lf,false,some ⟨0,[.setEnt .newline],some 3,true⟩⟩,⟨256,.vt,false,none⟩,⟨256,.ff,false,none⟩,⟨256,.cr,false,none⟩,⟨256,.cr,true,none⟩]⟩,⟨[13,17],some 3,[],[⟨256,.other,false,none⟩,⟨256,.ws,false,none⟩,⟨256,.lf,false,some ⟨0,[.setEnt .newline],some 3,true⟩⟩,⟨256,.vt,false,none⟩,⟨256,.ff,false,none⟩,⟨256,.cr,false,none⟩,⟨256,.cr,true,none⟩]⟩,⟨[4,18],some 4,[],[⟨256,.other,false,some ⟨6,[.code],none,false⟩⟩,⟨256,.ws,false,some ⟨7,[],none,false⟩⟩,⟨256,.lf,false,some ⟨8,[],none,false⟩⟩,⟨256,.vt,false,some ⟨6,[.code],none,false⟩⟩,⟨256,.ff,false,some ⟨9,[],none,false⟩⟩,⟨256,.cr,false,some ⟨10,[],none,false⟩⟩,⟨256,.cr,true,some ⟨11,[],none,false⟩⟩,⟨256,.other,false,some ⟨0,[.commit],some 2,true⟩⟩,⟨256,.other,false,none⟩]⟩,⟨[1,18],some 4,[],[⟨256,.other,false,none⟩,⟨256,.ws,false,none⟩,⟨256,.lf,false,none⟩,⟨256,.vt,false,none⟩,⟨256,.ff,false,none⟩,⟨256,.cr,false,none⟩,⟨256,.cr,true,none⟩,⟨256,.other,false,some ⟨12,[.comment],some 1,false⟩⟩]⟩,⟨[11],none,[],[⟨256,.other,false,some ⟨6,[.code],none,false⟩⟩,⟨256,.ws,false,some ⟨7,[],none,false⟩⟩,⟨256,.lf,false,some ⟨8,[],none,false⟩⟩,⟨256,.vt,false,some ⟨6,[.code],none,false⟩⟩,⟨256,.ff,false,some ⟨9,[],none,false⟩⟩,⟨256,.cr,false,some ⟨10,[],none,false⟩⟩,⟨256,.cr,true,some ⟨11,[],none,false⟩⟩,⟨256,.other,false,some ⟨0,[.commit],some 2,true⟩⟩,⟨256,.other,false,none⟩]⟩,⟨[10],none,[],[⟨256,.other,false,some ⟨6,[.code],none,false⟩⟩,⟨256,.ws,false,some ⟨7,[],none,false⟩⟩,⟨256,.lf,false,some ⟨8,[],none,false⟩⟩,⟨256,.vt,false,some ⟨6,[.code],none,false⟩⟩,⟨256,.ff,false,some ⟨9,[],none,false⟩⟩,⟨256,.cr,false,some ⟨10,[],none,false⟩⟩,⟨256,.cr,true,some ⟨11,[],none,false⟩⟩,⟨256,.other,false,some ⟨0,[.commit],some 2,true⟩⟩,⟨256,.other,false,none⟩]⟩,⟨[7],none,[],[⟨256,.other,false,some ⟨6,[.setEnt .internalNl,.cb,.code],none,false⟩⟩,⟨256,.ws,false,some ⟨7,[.setEnt .internalNl,.cb],none,false⟩⟩,⟨256,.lf,false,some ⟨8,[.setEnt .internalNl,.cb],none,false⟩⟩,⟨256,.vt,false,some ⟨6,[.setEnt .internalNl,.cb,.code],none,false⟩⟩,⟨256,.ff,false,some ⟨9,[.setEnt .internalNl,.cb],none,false⟩⟩,⟨256,.cr,false,some ⟨10,[.setEnt .internalNl,.cb],none,false⟩⟩,⟨256,.cr,true,some ⟨11,[.setEnt .internalNl,.cb],none,false⟩⟩,⟨256,.other,false,some ⟨0,[.setEnt .internalNl,.cb,.commit],some 2,true⟩⟩,⟨256,.other,false,none⟩]⟩,⟨[8],none,[],[⟨256,.other,false,some ⟨6,[.setEnt .internalNl,.cb,.code],none,false⟩⟩,⟨256,.ws,false,some ⟨7,[.setEnt .internalNl,.cb],none,false⟩⟩,⟨256,.lf,false,some ⟨8,[.setEnt .internalNl,.cb],none,false⟩⟩,⟨256,.vt,false,some ⟨6,[.setEnt .internalNl,.cb,.code],none,false⟩⟩,⟨256,.ff,false,some ⟨9,[.setEnt .internalNl,.cb],none,false⟩⟩,⟨256,.cr,false,some ⟨10,[.setEnt .internalNl,.cb],none,false⟩⟩,⟨256,.cr,true,some ⟨11,[.setEnt .internalNl,.cb],none,false⟩⟩,⟨256,.other,false,some ⟨0,[.setEnt .internalNl,.cb,.commit],some 2,true⟩⟩,⟨256,.other,false,none⟩]⟩,⟨[5],none,[],[⟨256,.other,false,none⟩,⟨256,.ws,false,none⟩,⟨256,.lf,false,some ⟨13,[],none,false⟩⟩,⟨256,.vt,false,none⟩,⟨256,.ff,false,none⟩,⟨256,.cr,false,none⟩,⟨256,.cr,true,none⟩]⟩,⟨[5,9],none,[],[⟨256,.other,false,some ⟨6,[.setEnt .internalNl,.cb,.code],none,false⟩⟩,⟨256,.ws,false,some ⟨7,[.setEnt .internalNl,.cb],none,false⟩⟩,⟨256,.lf,false,some ⟨14,[.setEnt .internalNl,.cb],none,false⟩⟩,⟨256,.vt,false,some ⟨6,[.setEnt .internalNl,.cb,.code],none,false⟩⟩,⟨256,.ff,false,some ⟨9,[.setEnt .internalNl,.cb],none,false⟩⟩,⟨256,.cr,false,some ⟨10,[.setEnt .internalNl,.cb],none,false⟩⟩,⟨256,.cr,true,some ⟨11,[.setEnt .internalNl,.cb],none,false⟩⟩,⟨256,.other,false,some ⟨0,[.setEnt .internalNl,.cb,.commit],some 2,true⟩⟩,⟨256,.other,false,none⟩]⟩,⟨[2],some 1,[],[⟨256,.other,false,some ⟨15,[],some 1,false⟩⟩,⟨256,.ws,false,some ⟨15,[],some 1,false⟩⟩,⟨256,.lf,false,none⟩,⟨256,.vt,false,some ⟨15,[],some 1,false⟩⟩,⟨256,.ff,false,none⟩,⟨256,.cr,false,none⟩,⟨256,.cr,true,none⟩]⟩,⟨[6],none,[],[⟨256,.other,false,some ⟨6,[.setEnt .internalNl,.cb,.code],none,false⟩⟩,⟨256,.ws,false,some ⟨7,[.setEnt .internalNl,.cb],none,false⟩⟩,⟨256,.lf,false,some ⟨8,[.setEnt .internalNl,.cb],none,false⟩⟩,⟨256,.vt,false,some ⟨6,[.setEnt .internalNl,.cb,.code],none,false⟩⟩,⟨256,.ff,false,some ⟨9,[.setEnt .internalNl,.cb],none,false⟩⟩,⟨256,.cr,false,some ⟨10,[.setEnt .internalNl,.cb],none,false⟩⟩,⟨256,.cr,true,some ⟨11,[.setEnt .internalNl,.cb],none,false⟩⟩,⟨256,.other,false,some ⟨0,[.setEnt .internalNl,.cb,.commit],some 2,true⟩⟩,⟨256,.other,false,none⟩]⟩,⟨[6,7],none,[],[⟨256,.other,false,some ⟨6,[.setEnt .internalNl,.cb,.code],none,false⟩⟩,⟨256,.ws,false,some ⟨7,[.setEnt .internalNl,.cb],none,false⟩⟩,⟨256,.lf,false,some ⟨8,[.setEnt .internalNl,.cb],none,false⟩⟩,⟨256,.vt,false,some ⟨6,[.setEnt .internalNl,.cb,.code],none,false⟩⟩,⟨256,.ff,false,some ⟨9,[.setEnt .internalNl,.cb],none,false⟩⟩,⟨256,.cr,false,some ⟨10,[.setEnt .internalNl,.cb],none,false⟩⟩,⟨256,.cr,true,some ⟨11,[.setEnt .internalNl,.cb],none,false⟩⟩,⟨256,.other,false,some ⟨0,[.setEnt .internalNl,.cb,.commit],some 2,true⟩⟩,⟨256,.other,false,none⟩]⟩,⟨[3],some 1,[],[⟨256,.other,false,some ⟨15,[],some 1,false⟩⟩,⟨256,.ws,false,some ⟨15,[],some 1,false⟩⟩,⟨256,.lf,false,none⟩,⟨256,.vt,false,some ⟨15,[],some 1,false⟩⟩,⟨256,.ff,false,none⟩,⟨256,.cr,false,none⟩,⟨256,.cr,true,none⟩]⟩]
theorem grace_line_rowsOk : rowsOk grace_line_nfa [] (grace_line_cs.map (·.1)) grace_line_rows = true := by decide +kernel
def grace_line_D : Dfa grace_line_M.nfa := ⟨grace_line_masks, [], grace_line_cs, grace_line_rows, grace_line_masksIn, grace_line_repOk, grace_line_rowsOk⟩

def kotlin_line_nfa : Nfa := ⟨[⟨0,4294967808,[],[(0,.setEnt (.own 0))],0,0⟩,⟨1,140737488355328,[],[],0,0⟩,⟨4,140737488355328,[],[(2,.nestRes)],0,2⟩,⟨19,17179869184,[],[(12,.code)],0,0⟩,⟨27,17179869184,[],[],0,0⟩,⟨40,8192,[],[(19,.setEnt .newline)],0,0⟩,⟨42,1024,[],[(19,.setEnt .newline)],0,0⟩,⟨43,4096,[],[(19,.setEnt .newline)],0,0⟩,⟨44,8192,[.crAlone],[(19,.setEnt .newline)],0,0⟩,⟨45,115792089237316195423570985008687907853269984665640564039457584007908834656767,[],[(20,.setEnt (.own 7))],0,0⟩],[[⟨0,4294967808,[],[(0,.setEnt (.own 0))],0,0⟩],[⟨2,140737488355328,[],[(1,.comment)],0,0⟩],[⟨3,115792089237316195423570985008687907853269984665640564039457584007913129626623,[],[],0,0⟩],[⟨3,115792089237316195423570985008687907853269984665640564039457584007913129626623,[],[],0,0⟩],[⟨5,4398046511104,[],[(3,.comment)],0,2⟩],[⟨6,8192,[],[],0,2⟩,⟨8,1024,[],[],0,2⟩,⟨9,4096,[],[],0,2⟩,⟨10,8192,[.crAlone],[],0,2⟩,⟨11,4294967808,[],[],0,2⟩,⟨12,140737488355328,[],[],0,2⟩,⟨14,4398046511104,[],[],0,2⟩,⟨16,115792089237316195423570985008687907853269984665640564039457584007908834658815,[],[(10,.comment)],0,2⟩,⟨17,4398046511104,[.nestZero],[],0,2⟩],[⟨7,1024,[],[],0,2⟩],[⟨6,8192,[],[(4,.setEnt .internalNl),(5,.cb)],0,2⟩,⟨8,1024,[],[(4,.setEnt .internalNl),(5,.cb)],0,2⟩,⟨9,4096,[],[(4,.setEnt .internalNl),(5,.cb)],0,2⟩,⟨10,8192,[.crAlone],[(4,.setEnt .internalNl),(5,.cb)],0,2⟩,⟨11,4294967808,[],[(4,.setEnt .internalNl),(5,.cb)],0,2⟩,⟨12,140737488355328,[],[(4,.setEnt .internalNl),(5,.cb)],0,2⟩,⟨14,4398046511104,[],[(4,.setEnt .internalNl),(5,.cb)],0,2⟩,⟨16,115792089237316195423570985008687907853269984665640564039457584007908834658815,[],[(4,.setEnt .internalNl),(5,.cb),(10,.comment)],0,2⟩,⟨17,4398046511104,[.nestZero],[(4,.setEnt .internalNl),(5,.cb)],0,2⟩],[⟨6,8192,[],[(4,.setEnt .internalNl),(5,.cb)],0,2⟩,⟨8,1024,[],[(4,.setEnt .internalNl),(5,.cb)],0,2⟩,⟨9,4096,[],[(4,.setEnt .internalNl),(5,.cb)],0,2⟩,⟨10,8192,[.crAlone],[(4,.setEnt .internalNl),(5,.cb)],0,2⟩,⟨11,4294967808,[],[(4,.setEnt .internalNl),(5,.cb)],0,2⟩,⟨12,140737488355328,[],[(4,.setEnt .internalNl),(5,.cb)],0,2⟩,⟨14,4398046511104,[],[(4,.setEnt .internalNl),(5,.cb)],0,2⟩,⟨16,115792089237316195423570985008687907853269984665640564039457584007908834658815,[],[(4,.setEnt .internalNl),(5,.cb),(10,.comment)],0,2⟩,⟨17,4398046511104,[.nestZero],[(4,.setEnt .internalNl),(5,.cb)],0,2⟩],[⟨6,8192,[],[(4,.setEnt .internalNl),(5,.cb)],0,2⟩,⟨8,1024,[],[(4,.setEnt .internalNl),(5,.cb)],0,2⟩,⟨9,4096,[],[(4,.setEnt .internalNl),(5,.cb)],0,2⟩,⟨10,8192,[.crAlone],[(4,.setEnt .internalNl),(5,.cb)],0,2⟩,⟨11,4294967808,[],[(4,.setEnt .internalNl),(5,.cb)],0,2⟩,⟨12,140737488355328,[],[(4,.setEnt .internalNl),(5,.cb)],0,2⟩,⟨14,4398046511104,[],[(4,.setEnt .internalNl),(5,.cb)],0,2⟩,⟨16,115792089237316195423570985008687907853269984665640564039457584007908834658815,[],[(4,.setEnt .internalNl),(5,.cb),(10,.comment)],0,2⟩,⟨17,4398046511104,[.nestZero],[(4,.setEnt .internalNl),(5,.cb)],0,2⟩],[⟨6,8192,[],[(4,.setEnt .internalNl),(5,.cb)],0,2⟩,⟨8,1024,[],[(4,.setEnt .internalNl),(5,.cb)],0,2⟩,⟨9,4096,[],[(4,.setEnt .internalNl),(5,.cb)],0,2⟩,⟨10,8192,[.crAlone],[(4,.setEnt .internalNl),(5,.cb)],0,2⟩,⟨11,4294967808,[],[(4,.setEnt .internalNl),(5,.cb)],0,2⟩,⟨12,140737488355328,[],[(4,.setEnt .internalNl),(5,.cb)],0,2⟩,⟨14,4398046511104,[],[(4,.setEnt .internalNl),(5,.cb)],0,2⟩,⟨16,115792089237316195423570985008687907853269984665640564039457584007908834658815,[],[(4,.setEnt .internalNl),(5,.cb),(10,.comment)],0,2⟩,⟨17,4398046511104,[.nestZero],[(4,.setEnt .internalNl),(5,.cb)],0,2⟩],[⟨6,8192,[],[],0,2⟩,⟨8,1024,[],[],0,2⟩,⟨9,4096,[],[],0,2⟩,⟨10,8192,[.crAlone],[],0,2⟩,⟨11,4294967808,[],[],0,2⟩,⟨12,140737488355328,[],[],0,2⟩,⟨14,4398046511104,[],[],0,2⟩,⟨16,115792089237316195423570985008687907853269984665640564039457584007908834658815,[],[(10,.comment)],0,2⟩,⟨17,4398046511104,[.nestZero],[],0,2⟩],[⟨13,4398046511104,[],[(6,.nestInc),(7,.comment)],0,2⟩],[⟨6,8192,[],[],0,2⟩,⟨8,1024,[],[],0,2⟩,⟨9,4096,[],[],0,2⟩,⟨10,8192,[.crAlone],[],0,2⟩,⟨11,4294967808,[],[],0,2⟩,⟨12,140737488355328,[],[],0,2⟩,⟨14,4398046511104,[],[],0,2⟩,⟨16,115792089237316195423570985008687907853269984665640564039457584007908834658815,[],[(10,.comment)],0,2⟩,⟨17,4398046511104,[.nestZero],[],0,2⟩],[⟨15,140737488355328,[],[(8,.nestDec),(9,.comment)],0,2⟩],[⟨6,8192,[],[],0,2⟩,⟨8,1024,[],[],0,2⟩,⟨9,4096,[],[],0,2⟩,⟨10,8192,[.crAlone],[],0,2⟩,⟨11,4294967808,[],[],0,2⟩,⟨12,140737488355328,[],[],0,2⟩,⟨14,4398046511104,[],[],0,2⟩,⟨16,115792089237316195423570985008687907853269984665640564039457584007908834658815,[],[(10,.comment)],0,2⟩,⟨17,4398046511104,[.nestZero],[],0,2⟩],[⟨6,8192,[],[],0,2⟩,⟨8,1024,[],[],0,2⟩,⟨9,4096,[],[],0,2⟩,⟨10,8192,[.crAlone],[],0,2⟩,⟨11,4294967808,[],[],0,2⟩,⟨12,140737488355328,[],[],0,2⟩,⟨14,4398046511104,[],[],0,2⟩,⟨16,115792089237316195423570985008687907853269984665640564039457584007908834658815,[],[(10,.comment)],0,2⟩,⟨17,4398046511104,[.nestZero],[],0,2⟩],[⟨18,140737488355328,[.nestZero],[(11,.comment)],2,0⟩],[],[⟨20,115792089237316195423570985008687907853269984665640564039457584007895949770751,[],[(14,.fhold 1)],0,0⟩,⟨21,17179869184,[],[],0,0⟩],[⟨23,115792089237316195423570985008687907853269984665635612279300442486796353260543,[],[],0,0⟩,⟨24,4951760157141521099596496896,[],[],0,0⟩,⟨26,17179869184,[],[],0,0⟩],[⟨22,115792089237316195423570985008687907853269984665640564039457584007895949770751,[],[(13,.fhold 0),(14,.fhold 1)],0,0⟩],[⟨23,115792089237316195423570985008687907853269984665635612279300442486796353260543,[],[],0,0⟩,⟨24,4951760157141521099596496896,[],[],0,0⟩,⟨26,17179869184,[],[],0,0⟩],[⟨23,115792089237316195423570985008687907853269984665635612279300442486796353260543,[],[],0,0⟩,⟨24,4951760157141521099596496896,[],[],0,0⟩,⟨26,17179869184,[],[],0,0⟩],[⟨25,115792089237316195423570985008687907853269984665640564039457584007913129626623,[],[],0,0⟩],[⟨23,115792089237316195423570985008687907853269984665635612279300442486796353260543,[],[],0,0⟩,⟨24,4951760157141521099596496896,[],[],0,0⟩,⟨26,17179869184,[],[],0,0⟩],[],[⟨28,17179869184,[],[],0,0⟩],[⟨29,17179869184,[],[(15,.code)],0,0⟩],[⟨30,8192,[],[],0,0⟩,⟨32,1024,[],[],0,0⟩,⟨33,4096,[],[],0,0⟩,⟨34,8192,[.crAlone],[],0,0⟩,⟨35,4294967808,[],[],0,0⟩,⟨36,115792089237316195423570985008687907853269984665640564039457584007908834672127,[],[(18,.code)],0,0⟩,⟨37,17179869184,[],[],0,0⟩],[⟨31,1024,[],[],0,0⟩],[⟨30,8192,[],[(16,.setEnt .internalNl),(17,.cb)],0,0⟩,⟨32,1024,[],[(16,.setEnt .internalNl),(17,.cb)],0,0⟩,⟨33,4096,[],[(16,.setEnt .internalNl),(17,.cb)],0,0⟩,⟨34,8192,[.crAlone],[(16,.setEnt .internalNl),(17,.cb)],0,0⟩,⟨35,4294967808,[],[(16,.setEnt .internalNl),(17,.cb)],0,0⟩,⟨36,115792089237316195423570985008687907853269984665640564039457584007908834672127,[],[(16,.setEnt .internalNl),(17,.cb),(18,.code)],0,0⟩,⟨37,17179869184,[],[(16,.setEnt .internalNl),(17,.cb)],0,0⟩],[⟨30,8192,[],[(16,.setEnt .internalNl),(17,.cb)],0,0⟩,⟨32,1024,[],[(16,.setEnt .internalNl),(17,.cb)],0,0⟩,⟨33,4096,[],[(16,.setEnt .internalNl),(17,.cb)],0,0⟩,⟨34,8192,[.crAlone],[(16,.setEnt .internalNl),(17,.cb)],0,0⟩,⟨35,4294967808,[],[(16,.setEnt .internalNl),(17,.cb)],0,0⟩,⟨36,115792089237316195423570985008687907853269984665640564039457584007908834672127,[],[(16,.setEnt .internalNl),(17,.cb),(18,.code)],0,0⟩,⟨37,17179869184,[],[(16,.setEnt .internalNl),(17,.cb)],0,0⟩],[⟨30,8192,[],[(16,.setEnt .internalNl),(17,.cb)],0,0⟩,⟨32,1024,[],[(16,.setEnt .internalNl),(17,.cb)],0,0⟩,⟨33,4096,[],[(16,.setEnt .internalNl),(17,.cb)],0,0⟩,⟨34,8192,[.crAlone],[(16,.setEnt .internalNl),(17,.cb)],0,0⟩,⟨35,4294967808,[],[(16,.setEnt .internalNl),(17,.cb)],0,0⟩,⟨36,115792089237316195423570985008687907853269984665640564039457584007908834672127,[],[(16,.setEnt .internalNl),(17,.cb),(18,.code)],0,0⟩,⟨37,17179869184,[],[(16,.setEnt .internalNl),(17,.cb)],0,0⟩],[⟨30,8192,[],[(16,.setEnt .internalNl),(17,.cb)],0,0⟩,⟨32,1024,[],[(16,.setEnt .internalNl),(17,.cb)],0,0⟩,⟨33,4096,[],[(16,.setEnt .internalNl),(17,.cb)],0,0⟩,⟨34,8192,[.crAlone],[(16,.setEnt .internalNl),(17,.cb)],0,0⟩,⟨35,4294967808,[],[(16,.setEnt .internalNl),(17,.cb)],0,0⟩,⟨36,115792089237316195423570985008687907853269984665640564039457584007908834672127,[],[(16,.setEnt .internalNl),(17,.cb),(18,.code)],0,0⟩,⟨37,17179869184,[],[(16,.setEnt .internalNl),(17,.cb)],0,0⟩],[⟨30,8192,[],[],0,0⟩,⟨32,1024,[],[],0,0⟩,⟨33,4096,[],[],0,0⟩,⟨34,8192,[.crAlone],[],0,0⟩,⟨35,4294967808,[],[],0,0⟩,⟨36,115792089237316195423570985008687907853269984665640564039457584007908834672127,[],[(18,.code)],0,0⟩,⟨37,17179869184,[],[],0,0⟩],[⟨30,8192,[],[],0,0⟩,⟨32,1024,[],[],0,0⟩,⟨33,4096,[],[],0,0⟩,⟨34,8192,[.crAlone],[],0,0⟩,⟨35,4294967808,[],[],0,0⟩,⟨36,115792089237316195423570985008687907853269984665640564039457584007908834672127,[],[(18,.code)],0,0⟩,⟨37,17179869184,[],[],0,0⟩],[⟨38,17179869184,[],[],0,0⟩],[⟨39,17179869184,[],[],0,0⟩],[],[⟨41,1024,[],[(19,.setEnt .newline)],0,0⟩],[],[],[],[],[]],[some (0,[]),none,some (1,[]),some (1,[]),none,none,none,none,none,none,none,none,none,none,none,none,none,none,some (1,[]),none,none,none,none,none,none,none,some (2,[]),none,none,none,none,none,none,none,none,none,none,none,none,some (2,[]),none,some (3,[]),some (3,[]),some (3,[]),some (3,[]),some (4,[])],[1,12,19,20,21]⟩
theorem kotlin_line_nfa_eq : Kotlin.kotlin_line.nfa = kotlin_line_nfa := by decide +kernel
/-- The machine of `Kotlin.kotlin_line`, with its automaton as a literal. -/
def kotlin_line_M : Machine := ⟨kotlin_line_nfa, Kotlin.kotlin_line.ends, Kotlin.kotlin_line.sw⟩
theorem kotlin_line_M_eq : Kotlin.kotlin_line.machine = kotlin_line_M := by
  unfold Scanner.machine kotlin_line_M; rw [kotlin_line_nfa_eq]
def kotlin_line_masks : List Nat := [4294967808,140737488355328,17179869184,8192,1024,4096,115792089237316195423570985008687907853269984665640564039457584007908834656767,115792089237316195423570985008687907853269984665640564039457584007913129626623,4398046511104,115792089237316195423570985008687907853269984665640564039457584007908834658815,115792089237316195423570985008687907853269984665640564039457584007895949770751,115792089237316195423570985008687907853269984665635612279300442486796353260543,4951760157141521099596496896,115792089237316195423570985008687907853269984665640564039457584007908834672127]
def kotlin_line_cs : List (Nat × Nat) := [(0,115792089237316195423570985008687907853269984665635612279300442341656523424255),(9,4294967808),(10,1024),(11,2048),(12,4096),(13,8192),(34,17179869184),(42,4398046511104),(47,140737488355328),(92,4951760157141521099596496896)]
theorem kotlin_line_masksIn : masksIn kotlin_line_nfa kotlin_line_masks = true := by decide +kernel
theorem kotlin_line_repOk : repOk kotlin_line_masks kotlin_line_cs = true := by decide +kernel
def kotlin_line_rows : List Row := [⟨[],none,[],[⟨0,.other,false,some ⟨0,[.setEnt (.own 7)],some 4,true⟩⟩,⟨9,.ws,false,some ⟨1,[.setEnt (.own 0)],some 0,false⟩⟩,⟨10,.lf,false,some ⟨0,[.setEnt .newline],some 3,true⟩⟩,⟨11,.vt,false,none⟩,⟨12,.ff,false,some ⟨0,[.setEnt .newline],some 3,true⟩⟩,⟨13,.cr,false,some ⟨2,[.setEnt .newline],none,false⟩⟩,⟨13,.cr,true,some ⟨3,[.setEnt .newline],some 3,false⟩⟩,⟨34,.other,false,some ⟨4,[.code,.setEnt (.own 7)],some 4,false⟩⟩,⟨42,.other,false,some ⟨0,[.setEnt (.own 7)],some 4,true⟩⟩,⟨47,.other,false,some ⟨5,[.nestRes,.setEnt (.own 7)],some 4,false⟩⟩,⟨92,.other,false,some ⟨0,[.setEnt (.own 7)],some 4,true⟩⟩]⟩,⟨[0],some 0,[],[⟨0,.other,false,none⟩,⟨9,.ws,false,some ⟨1,[.setEnt (.own 0)],some 0,false⟩⟩,⟨10,.lf,false,none⟩,⟨11,.vt,false,none⟩,⟨12,.ff,false,none⟩,⟨13,.cr,false,none⟩,⟨13,.cr,true,none⟩,⟨34,.other,false,none⟩,⟨42,.other,false,none⟩,⟨47,.other,false,none⟩,⟨92,.other,false,none⟩]⟩,⟨[40],none,[],[⟨0,.other,false,none⟩,⟨9,.ws,false,none⟩,⟨10,.lf,false,some ⟨0,[.setEnt .newline],some 3,true⟩⟩,⟨11,.vt,false,none⟩,⟨12,.ff,false,none⟩,⟨13,.cr,false,none⟩,⟨13,.cr,true,none⟩,⟨34,.other,false,none⟩,⟨42,.other,false,none⟩,⟨47,.other,false,none⟩,⟨92,.other,false,none⟩]⟩,⟨[40,44],some 3,[],[⟨0,.other,false,none⟩,⟨9,.ws,false,none⟩,⟨10,.lf,false,some ⟨0,[.setEnt .newline],some 3,true⟩⟩,⟨11,.vt,false,none⟩,⟨12,.ff,false,none⟩,⟨13,.cr,false,none⟩,⟨13,.cr,true,none⟩,⟨34,.other,false,none⟩,⟨42,.other,false,none⟩,⟨47,.other,false,none⟩,⟨92,.other,false,none⟩]⟩,⟨[19,27,45],some 4,[],[⟨0,.other,false,some ⟨6,[.fhold 1],none,false⟩⟩,⟨9,.ws,false,some ⟨6,[.fhold 1],none,false⟩⟩,⟨10,.lf,false,some ⟨6,[.fhold 1],none,false⟩⟩,⟨11,.vt,false,some ⟨6,[.fhold 1],none,false⟩⟩,⟨12,.ff,false,some ⟨6,[.fhold 1],none,false⟩⟩,⟨13,.cr,false,some ⟨6,[.fhold 1],none,false⟩⟩,⟨13,.cr,true,some ⟨6,[.fhold 1],none,false⟩⟩,⟨34,.other,false,some ⟨7,[],none,false⟩⟩,⟨42,.other,false,some ⟨6,[.fhold 1],none,false⟩⟩,⟨47,.other,false,some ⟨6,[.fhold 1],none,false⟩⟩,⟨92,.other,false,some ⟨6,[.fhold 1],none,false⟩⟩]⟩,⟨[1,4,45],some 4,[],[⟨0,.other,false,none⟩,⟨9,.ws,false,none⟩,⟨10,.lf,false,none⟩,⟨11,.vt,false,none⟩,⟨12,.ff,false,none⟩,⟨13,.cr,false,none⟩,⟨13,.cr,true,none⟩,⟨34,.other,false,none⟩,⟨42,.other,false,some ⟨8,[.comment],none,false⟩⟩,⟨47,.other,false,some ⟨9,[.comment],some 1,false⟩⟩,⟨92,.other,false,none⟩]⟩,⟨[20],none,[],[⟨0,.other,false,some ⟨10,[],none,false⟩⟩,⟨9,.ws,false,some ⟨10,[],none,false⟩⟩,⟨10,.lf,false,none⟩,⟨11,.vt,false,some ⟨10,[],none,false⟩⟩,⟨12,.ff,false,none⟩,⟨13,.cr,false,none⟩,⟨13,.cr,true,none⟩,⟨34,.other,false,some ⟨0,[],some 2,true⟩⟩,⟨42,.other,false,some ⟨10,[],none,false⟩⟩,⟨47,.other,false,some ⟨10,[],none,false⟩⟩,⟨92,.other,false,some ⟨11,[],none,false⟩⟩]⟩,⟨[21,28],none,[],[⟨0,.other,false,some ⟨12,[.fhold 0,.fhold 1],none,false⟩⟩,⟨9,.ws,false,some ⟨12,[.fhold 0,.fhold 1],none,false⟩⟩,⟨10,.lf,false,some ⟨12,[.fhold 0,.fhold 1],none,false⟩⟩,⟨11,.vt,false,some ⟨12,[.fhold 0,.fhold 1],none,false⟩⟩,⟨12,.ff,false,some ⟨12,[.fhold 0,.fhold 1],none,false⟩⟩,⟨13,.cr,false,some ⟨12,[.fhold 0,.fhold 1],none,false⟩⟩,⟨13,.cr,true,some ⟨12,[.fhold 0,.fhold 1],none,false⟩⟩,⟨34,.other,false,some ⟨13,[.code],none,false⟩⟩,⟨42,.other,false,some ⟨12,[.fhold 0,.fhold 1],none,false⟩⟩,⟨47,.other,false,some ⟨12,[.fhold 0,.fhold 1],none,false⟩⟩,⟨92,.other,false,some ⟨12,[.fhold 0,.fhold 1],none,false⟩⟩]⟩,⟨[5],none,[],[⟨0,.other,false,some ⟨14,[.comment],none,false⟩⟩,⟨9,.ws,false,some ⟨15,[],none,false⟩⟩,⟨10,.lf,false,some ⟨16,[],none,false⟩⟩,⟨11,.vt,false,some ⟨14,[.comment],none,false⟩⟩,⟨12,.ff,false,some ⟨17,[],none,false⟩⟩,⟨13,.cr,false,some ⟨18,[],none,false⟩⟩,⟨13,.cr,true,some ⟨19,[],none,false⟩⟩,⟨34,.other,false,some ⟨14,[.comment],none,false⟩⟩,⟨42,.other,false,some ⟨20,[.comment],none,false⟩⟩,⟨42,.other,false,some ⟨21,[.comment],none,false⟩⟩,⟨47,.other,false,some ⟨22,[.comment],none,false⟩⟩,⟨92,.other,false,some ⟨14,[.comment],none,false⟩⟩]⟩,⟨[2],some 1,[],[⟨0,.other,false,some ⟨23,[],some 1,false⟩⟩,⟨9,.ws,false,some ⟨23,[],some 1,false⟩⟩,⟨10,.lf,false,none⟩,⟨11,.vt,false,some ⟨23,[],some 1,false⟩⟩,⟨12,.ff,false,none⟩,⟨13,.cr,false,none⟩,⟨13,.cr,true,none⟩,⟨34,.other,false,some ⟨23,[],some 1,false⟩⟩,⟨42,.other,false,some ⟨23,[],some 1,false⟩⟩,⟨47,.other,false,some ⟨23,[],some 1,false⟩⟩,⟨92,.other,false,some ⟨23,[],some 1,false⟩⟩]⟩,⟨[23],none,[],[⟨0,.other,false,some ⟨10,[],none,false⟩⟩,⟨9,.ws,false,some ⟨10,[],none,false⟩⟩,⟨10,.lf,false,none⟩,⟨11,.vt,false,some ⟨10,[],none,false⟩⟩,⟨12,.ff,false,none⟩,⟨13,.cr,false,none⟩,⟨13,.cr,true,none⟩,⟨34,.other,false,some ⟨0,[],some 2,true⟩⟩,⟨42,.other,false,some ⟨10,[],none,false⟩⟩,⟨47,.other,false,some ⟨10,[],none,false⟩⟩,⟨92,.other,false,some ⟨11,[],none,false⟩⟩]⟩,⟨[24],none,[],[⟨0,.other,false,some ⟨24,[],none,false⟩⟩,⟨9,.ws,false,some ⟨24,[],none,false⟩⟩,⟨10,.lf,false,none⟩,⟨11,.vt,false,some ⟨24,[],none,false⟩⟩,⟨12,.ff,false,none⟩,⟨13,.cr,false,none⟩,⟨13,.cr,true,none⟩,⟨34,.other,false,some ⟨24,[],none,false⟩⟩,⟨42,.other,false,some ⟨24,[],none,false⟩⟩,⟨47,.other,false,some ⟨24,[],none,false⟩⟩,⟨92,.other,false,some ⟨24,[],none,false⟩⟩]⟩,⟨[22],none,[],[⟨0,.other,false,some ⟨10,[],none,false⟩⟩,⟨9,.ws,false,some ⟨10,[],none,false⟩⟩,⟨10,.lf,false,none⟩,⟨11,.vt,false,some ⟨10,[],none,false⟩⟩,⟨12,.ff,false,none⟩,⟨13,.cr,false,none⟩,⟨13,.cr,true,none⟩,⟨34,.other,false,some ⟨0,[],some 2,true⟩⟩,⟨42,.other,false,some ⟨10,[],none,false⟩⟩,⟨47,.other,false,some ⟨10,[],none,false⟩⟩,⟨92,.other,false,some ⟨11,[],none,false⟩⟩]⟩,⟨[29],none,[],[⟨0,.other,false,some ⟨25,[.code],none,false⟩⟩,⟨9,.ws,false,some ⟨26,[],none,false⟩⟩,⟨10,.lf,false,some ⟨27,[.code],none,false⟩⟩,⟨11,.vt,false,some ⟨25,[.code],none,false⟩⟩,⟨12,.ff,false,some ⟨28,[.code],none,false⟩⟩,⟨13,.cr,false,some ⟨29,[.code],none,false⟩⟩,⟨13,.cr,true,some ⟨30,[.code],none,false⟩⟩,⟨34,.other,false,some ⟨31,[.code],none,false⟩⟩,⟨42,.other,false,some ⟨25,[.code],none,false⟩⟩,⟨47,.other,false,some ⟨25,[.code],none,false⟩⟩,⟨92,.other,false,some ⟨25,[.code],none,false⟩⟩]⟩,⟨[16],none,[],[⟨0,.other,false,some ⟨14,[.comment],none,false⟩⟩,⟨9,.ws,false,some ⟨15,[],none,false⟩⟩,⟨10,.lf,false,some ⟨16,[],none,false⟩⟩,⟨11,.vt,false,some ⟨14,[.comment],none,false⟩⟩,⟨12,.ff,false,some ⟨17,[],none,false⟩⟩,⟨13,.cr,false,some ⟨18,[],none,false⟩⟩,⟨13,.cr,true,some ⟨19,[],none,false⟩⟩,⟨34,.other,false,some ⟨14,[.comment],none,false⟩⟩,⟨42,.other,false,some ⟨20,[.comment],none,false⟩⟩,⟨42,.other,false,some ⟨21,[.comment],none,false⟩⟩,⟨47,.other,false,some ⟨22,[.comment],none,false⟩⟩,⟨92,.other,false,some ⟨14,[.comment],none,false⟩⟩]⟩,⟨[11],none,[],[⟨0,.other,false,some ⟨14,[.comment],none,false⟩⟩,⟨9,.ws,false,some ⟨15,[],none,false⟩⟩,⟨10,.lf,false,some ⟨16,[],none,false⟩⟩,⟨11,.vt,false,some ⟨14,[.comment],none,false⟩⟩,⟨12,.ff,false,some ⟨17,[],none,false⟩⟩,⟨13,.cr,false,some ⟨18,[],none,false⟩⟩,⟨13,.cr,true,some ⟨19,[],none,false⟩⟩,⟨34,.other,false,some ⟨14,[.comment],none,false⟩⟩,⟨42,.other,false,some ⟨20,[.comment],none,false⟩⟩,⟨42,.other,false,some ⟨21,[.comment],none,false⟩⟩,⟨47,.other,false,some ⟨22,[.comment],none,false⟩⟩,⟨92,.other,false,some ⟨14,[.comment],none,false⟩⟩]⟩,⟨[8],none,[],[⟨0,.other,false,some ⟨14,[.setEnt .internalNl,.cb,.comment],none,false⟩⟩,⟨9,.ws,false,some ⟨15,[.setEnt .internalNl,.cb],none,false⟩⟩,⟨10,.lf,false,some ⟨16,[.setEnt .internalNl,.cb],none,false⟩⟩,⟨11,.vt,false,some ⟨14,[.setEnt .internalNl,.cb,.comment],none,false⟩⟩,⟨12,.ff,false,some ⟨17,[.setEnt .internalNl,.cb],none,false⟩⟩,⟨13,.cr,false,some ⟨18,[.setEnt .internalNl,.cb],none,false⟩⟩,⟨13,.cr,true,some ⟨19,[.setEnt .internalNl,.cb],none,false⟩⟩,⟨34,.other,false,some ⟨14,[.setEnt .internalNl,.cb,.comment],none,false⟩⟩,⟨42,.other,false,some ⟨20,[.setEnt .internalNl,.cb,.comment],none,false⟩⟩,⟨42,.other,false,some ⟨21,[.setEnt .internalNl,.cb,.comment],none,false⟩⟩,⟨47,.other,false,some ⟨22,[.setEnt .internalNl,.cb,.comment],none,false⟩⟩,⟨92,.other,false,some ⟨14,[.setEnt .internalNl,.cb,.comment],none,false⟩⟩]⟩,⟨[9],none,[],[⟨0,.other,false,some ⟨14,[.setEnt .internalNl,.cb,.comment],none,false⟩⟩,⟨9,.ws,false,some ⟨15,[.setEnt .internalNl,.cb],none,false⟩⟩,⟨10,.lf,false,some ⟨16,[.setEnt .internalNl,.cb],none,false⟩⟩,⟨11,.vt,false,some ⟨14,[.setEnt .internalNl,.cb,.comment],none,false⟩⟩,⟨12,.ff,false,some ⟨17,[.setEnt .internalNl,.cb],none,false⟩⟩,⟨13,.cr,false,some ⟨18,[.setEnt .internalNl,.cb],none,false⟩⟩,⟨13,.cr,true,some ⟨19,[.setEnt .internalNl,.cb],none,false⟩⟩,⟨34,.other,false,some ⟨14,[.setEnt .internalNl,.cb,.comment],none,false⟩⟩,⟨42,.other,false,some ⟨20,[.setEnt .internalNl,.cb,.comment],none,false⟩⟩,⟨42,.other,false,some ⟨21,[.setEnt .internalNl,.cb,.comment],none,false⟩⟩,⟨47,.other,false,some ⟨22,[.setEnt .internalNl,.cb,.comment],none,false⟩⟩,⟨92,.other,false,some ⟨14,[.setEnt .internalNl,.cb,.comment],none,false⟩⟩]⟩,⟨[6],none,[],[⟨0,.other,false,none⟩,⟨9,.ws,false,none⟩,⟨10,.lf,false,some ⟨32,[],none,false⟩⟩,⟨11,.vt,false,none⟩,⟨12,.ff,false,none⟩,⟨13,.cr,false,none⟩,⟨13,.cr,true,none⟩,⟨34,.other,false,none⟩,⟨42,.other,false,none⟩,⟨47,.other,false,none⟩,⟨92,.other,false,none⟩]⟩,⟨[6,10],none,[],[⟨0,.other,false,some ⟨14,[.setEnt .internalNl,.cb,.comment],none,false⟩⟩,⟨9,.ws,false,some ⟨15,[.setEnt .internalNl,.cb],none,false⟩⟩,⟨10,.lf,false,some ⟨33,[.setEnt .internalNl,.cb],none,false⟩⟩,⟨11,.vt,false,some ⟨14,[.setEnt .internalNl,.cb,.comment],none,false⟩⟩,⟨12,.ff,false,some ⟨17,[.setEnt .internalNl,.cb],none,false⟩⟩,⟨13,.cr,false,some ⟨18,[.setEnt .internalNl,.cb],none,false⟩⟩,⟨13,.cr,true,some ⟨19,[.setEnt .internalNl,.cb],none,false⟩⟩,⟨34,.other,false,some ⟨14,[.setEnt .internalNl,.cb,.comment],none,false⟩⟩,⟨42,.other,false,some ⟨20,[.setEnt .internalNl,.cb,.comment],none,false⟩⟩,⟨42,.other,false,some ⟨21,[.setEnt .internalNl,.cb,.comment],none,false⟩⟩,⟨47,.other,false,some ⟨22,[.setEnt .internalNl,.cb,.comment],none,false⟩⟩,⟨92,.other,false,some ⟨14,[.setEnt .internalNl,.cb,.comment],none,false⟩⟩]⟩,⟨[14,16],none,[],[⟨0,.other,false,some ⟨14,[.comment],none,false⟩⟩,⟨9,.ws,false,some ⟨15,[],none,false⟩⟩,⟨10,.lf,false,some ⟨16,[],none,false⟩⟩,⟨11,.vt,false,some ⟨14,[.comment],none,false⟩⟩,⟨12,.ff,false,some ⟨17,[],none,false⟩⟩,⟨13,.cr,false,some ⟨18,[],none,false⟩⟩,⟨13,.cr,true,some ⟨19,[],none,false⟩⟩,⟨34,.other,false,some ⟨14,[.comment],none,false⟩⟩,⟨42,.other,false,some ⟨20,[.comment],none,false⟩⟩,⟨42,.other,false,some ⟨21,[.comment],none,false⟩⟩,⟨47,.other,false,some ⟨34,[.nestDec,.comment],none,false⟩⟩,⟨92,.other,false,some ⟨14,[.comment],none,false⟩⟩]⟩,⟨[14,16,17],none,[],[⟨0,.other,false,some ⟨14,[.comment],none,false⟩⟩,⟨9,.ws,false,some ⟨15,[],none,false⟩⟩,⟨10,.lf,false,some ⟨16,[],none,false⟩⟩,⟨11,.vt,false,some ⟨14,[.comment],none,false⟩⟩,⟨12,.ff,false,some ⟨17,[],none,false⟩⟩,⟨13,.cr,false,some ⟨18,[],none,false⟩⟩,⟨13,.cr,true,some ⟨19,[],none,false⟩⟩,⟨34,.other,false,some ⟨14,[.comment],none,false⟩⟩,⟨42,.other,false,some ⟨20,[.comment],none,false⟩⟩,⟨42,.other,false,some ⟨21,[.comment],none,false⟩⟩,⟨47,.other,false,some ⟨34,[.nestDec,.comment],none,false⟩⟩,⟨47,.other,false,some ⟨0,[.comment],some 1,true⟩⟩,⟨92,.other,false,some ⟨14,[.comment],none,false⟩⟩]⟩,⟨[12,16],none,[],[⟨0,.other,false,some ⟨14,[.comment],none,false⟩⟩,⟨9,.ws,false,some ⟨15,[],none,false⟩⟩,⟨10,.lf,false,some ⟨16,[],none,false⟩⟩,⟨11,.vt,false,some ⟨14,[.comment],none,false⟩⟩,⟨12,.ff,false,some ⟨17,[],none,false⟩⟩,⟨13,.cr,false,some ⟨18,[],none,false⟩⟩,⟨13,.cr,true,some ⟨19,[],none,false⟩⟩,⟨34,.other,false,some ⟨14,[.comment],none,false⟩⟩,⟨42,.other,false,some ⟨35,[.nestInc,.comment],none,false⟩⟩,⟨42,.other,false,some ⟨36,[.nestInc,.comment],none,false⟩⟩,⟨47,.other,false,some ⟨22,[.comment],none,false⟩⟩,⟨92,.other,false,some ⟨14,[.comment],none,false⟩⟩]⟩,⟨[3],some 1,[],[⟨0,.other,false,some ⟨23,[],some 1,false⟩⟩,⟨9,.ws,false,some ⟨23,[],some 1,false⟩⟩,⟨10,.lf,false,none⟩,⟨11,.vt,false,some ⟨23,[],some 1,false⟩⟩,⟨12,.ff,false,none⟩,⟨13,.cr,false,none⟩,⟨13,.cr,true,none⟩,⟨34,.other,false,some ⟨23,[],some 1,false⟩⟩,⟨42,.other,false,some ⟨23,[],some 1,false⟩⟩,⟨47,.other,false,some ⟨23,[],some 1,false⟩⟩,⟨92,.other,false,some ⟨23,[],some 1,false⟩⟩]⟩,⟨[25],none,[],[⟨0,.other,false,some ⟨10,[],none,false⟩⟩,⟨9,.ws,false,some ⟨10,[],none,false⟩⟩,⟨10,.lf,false,none⟩,⟨11,.vt,false,some ⟨10,[],none,false⟩⟩,⟨12,.ff,false,none⟩,⟨13,.cr,false,none⟩,⟨13,.cr,true,none⟩,⟨34,.other,false,some ⟨0,[],some 2,true⟩⟩,⟨42,.other,false,some ⟨10,[],none,false⟩⟩,⟨47,.other,false,some ⟨10,[],none,false⟩⟩,⟨92,.other,false,some ⟨11,[],none,false⟩⟩]⟩,⟨[36],none,[],[⟨0,.other,false,some ⟨25,[.code],none,false⟩⟩,⟨9,.ws,false,some ⟨26,[],none,false⟩⟩,⟨10,.lf,false,some ⟨27,[.code],none,false⟩⟩,⟨11,.vt,false,some ⟨25,[.code],none,false⟩⟩,⟨12,.ff,false,some ⟨28,[.code],none,false⟩⟩,⟨13,.cr,false,some ⟨29,[.code],none,false⟩⟩,⟨13,.cr,true,some ⟨30,[.code],none,false⟩⟩,⟨34,.other,false,some ⟨31,[.code],none,false⟩⟩,⟨42,.other,false,some ⟨25,[.code],none,false⟩⟩,⟨47,.other,false,some ⟨25,[.code],none,false⟩⟩,⟨92,.other,false,some ⟨25,[.code],none,false⟩⟩]⟩,⟨[35],none,[],[⟨0,.other,false,some ⟨25,[.code],none,false⟩⟩,⟨9,.ws,false,some ⟨26,[],none,false⟩⟩,⟨10,.lf,false,some ⟨27,[.code],none,false⟩⟩,⟨11,.vt,false,some ⟨25,[.code],none,false⟩⟩,⟨12,.ff,false,some ⟨28,[.code],none,false⟩⟩,⟨13,.cr,false,some ⟨29,[.code],none,false⟩⟩,⟨13,.cr,true,some ⟨30,[.code],none,false⟩⟩,⟨34,.other,false,some ⟨31,[.code],none,false⟩⟩,⟨42,.other,false,some ⟨25,[.code],none,false⟩⟩,⟨47,.other,false,some ⟨25,[.code],none,false⟩⟩,⟨92,.other,false,some ⟨25,[.code],none,false⟩⟩]⟩,⟨[32,36],none,[],[⟨0,.other,false,some ⟨25,[.setEnt .internalNl,.cb,.code],none,false⟩⟩,⟨9,.ws,false,some ⟨26,[.setEnt .internalNl,.cb],none,false⟩⟩,⟨10,.lf,false,some ⟨27,[.setEnt .internalNl,.cb,.code],none,false⟩⟩,⟨11,.vt,false,some ⟨25,[.setEnt .internalNl,.cb,.code],none,false⟩⟩,⟨12,.ff,false,some ⟨28,[.setEnt .internalNl,.cb,.code],none,false⟩⟩,⟨13,.cr,false,some ⟨29,[.setEnt .internalNl,.cb,.code],none,false⟩⟩,⟨13,.cr,true,some ⟨30,[.setEnt .internalNl,.cb,.code],none,false⟩⟩,⟨34,.other,false,some ⟨31,[.setEnt .internalNl,.cb,.code],none,false⟩⟩,⟨42,.other,false,some ⟨25,[.setEnt .internalNl,.cb,.code],none,false⟩⟩,⟨47,.other,false,some ⟨25,[.setEnt .internalNl,.cb,.code],none,false⟩⟩,⟨92,.other,false,some ⟨25,[.setEnt .internalNl,.cb,.code],none,false⟩⟩]⟩,⟨[33,36],none,[],[⟨0,.other,false,some ⟨25,[.setEnt .internalNl,.cb,.code],none,false⟩⟩,⟨9,.ws,false,some ⟨26,[.setEnt .internalNl,.cb],none,false⟩⟩,⟨10,.lf,false,some ⟨27,[.setEnt .internalNl,.cb,.code],none,false⟩⟩,⟨11,.vt,false,some ⟨25,[.setEnt .internalNl,.cb,.code],none,false⟩⟩,⟨12,.ff,false,some ⟨28,[.setEnt .internalNl,.cb,.code],none,false⟩⟩,⟨13,.cr,false,some ⟨29,[.setEnt .internalNl,.cb,.code],none,false⟩⟩,⟨13,.cr,true,some ⟨30,[.setEnt .internalNl,.cb,.code],none,false⟩⟩,⟨34,.other,false,some ⟨31,[.setEnt .internalNl,.cb,.code],none,false⟩⟩,⟨42,.other,false,some ⟨25,[.setEnt .internalNl,.cb,.code],none,false⟩⟩,⟨47,.other,false,some ⟨25,[.setEnt .internalNl,.cb,.code],none,false⟩⟩,⟨92,.other,false,some ⟨25,[.setEnt .internalNl,.cb,.code],none,false⟩⟩]⟩,⟨[30,36],none,[],[⟨0,.other,false,some ⟨25,[.code],none,false⟩⟩,⟨9,.ws,false,some ⟨26,[],none,false⟩⟩,⟨10,.lf,false,some ⟨37,[.code],none,false⟩⟩,⟨11,.vt,false,some ⟨25,[.code],none,false⟩⟩,⟨12,.ff,false,some ⟨28,[.code],none,false⟩⟩,⟨13,.cr,false,some ⟨29,[.code],none,false⟩⟩,⟨13,.cr,true,some ⟨30,[.code],none,false⟩⟩,⟨34,.other,false,some ⟨31,[.code],none,false⟩⟩,⟨42,.other,false,some ⟨25,[.code],none,false⟩⟩,⟨47,.other,false,some ⟨25,[.code],none,false⟩⟩,⟨92,.other,false,some ⟨25,[.code],none,false⟩⟩]⟩,⟨[30,34,36],none,[],[⟨0,.other,false,some ⟨25,[.setEnt .internalNl,.cb,.code],none,false⟩⟩,⟨9,.ws,false,some ⟨26,[.setEnt .internalNl,.cb],none,false⟩⟩,⟨10,.lf,false,some ⟨37,[.setEnt .internalNl,.cb,.code],none,false⟩⟩,⟨11,.vt,false,some ⟨25,[.setEnt .internalNl,.cb,.code],none,false⟩⟩,⟨12,.ff,false,some ⟨28,[.setEnt .internalNl,.cb,.code],none,false⟩⟩,⟨13,.cr,false,some ⟨29,[.setEnt .internalNl,.cb,.code],none,false⟩⟩,⟨13,.cr,true,some ⟨30,[.setEnt .internalNl,.cb,.code],none,false⟩⟩,⟨34,.other,false,some ⟨31,[.setEnt .internalNl,.cb,.code],none,false⟩⟩,⟨42,.other,false,some ⟨25,[.setEnt .internalNl,.cb,.code],none,false⟩⟩,⟨47,.other,false,some ⟨25,[.setEnt .internalNl,.cb,.code],none,false⟩⟩,⟨92,.other,false,some ⟨25,[.setEnt .internalNl,.cb,.code],none,false⟩⟩]⟩,⟨[36,37],none,[],[⟨0,.other,false,some ⟨25,[.code],none,false⟩⟩,⟨9,.ws,false,some ⟨26,[],none,false⟩⟩,⟨10,.lf,false,some ⟨27,[.code],none,false⟩⟩,⟨11,.vt,false,some ⟨25,[.code],none,false⟩⟩,⟨12,.ff,false,some ⟨28,[.code],none,false⟩⟩,⟨13,.cr,false,some ⟨29,[.code],none,false⟩⟩,⟨13,.cr,true,some ⟨30,[.code],none,false⟩⟩,⟨34,.other,false,some ⟨38,[.code],none,false⟩⟩,⟨42,.other,false,some ⟨25,[.code],none,false⟩⟩,⟨47,.other,false,some ⟨25,[.code],none,false⟩⟩,⟨92,.other,false,some ⟨25,[.code],none,false⟩⟩]⟩,⟨[7],none,[],[⟨0,.other,false,some ⟨14,[.setEnt .internalNl,.cb,.comment],none,false⟩⟩,⟨9,.ws,false,some ⟨15,[.setEnt .internalNl,.cb],none,false⟩⟩,⟨10,.lf,false,some ⟨16,[.setEnt .internalNl,.cb],none,false⟩⟩,⟨11,.vt,false,some ⟨14,[.setEnt .internalNl,.cb,.comment],none,false⟩⟩,⟨12,.ff,false,some ⟨17,[.setEnt .internalNl,.cb],none,false⟩⟩,⟨13,.cr,false,some ⟨18,[.setEnt .internalNl,.cb],none,false⟩⟩,⟨13,.cr,true,some ⟨19,[.setEnt .internalNl,.cb],none,false⟩⟩,⟨34,.other,false,some ⟨14,[.setEnt .internalNl,.cb,.comment],none,false⟩⟩,⟨42,.other,false,some ⟨20,[.setEnt .internalNl,.cb,.comment],none,false⟩⟩,⟨42,.other,false,some ⟨21,[.setEnt .internalNl,.cb,.comment],none,false⟩⟩,⟨47,.other,false,some ⟨22,[.setEnt .internalNl,.cb,.comment],none,false⟩⟩,⟨92,.other,false,some ⟨14,[.setEnt .internalNl,.cb,.comment],none,false⟩⟩]⟩,⟨[7,8],none,[],[⟨0,.other,false,some ⟨14,[.setEnt .internalNl,.cb,.comment],none,false⟩⟩,⟨9,.ws,false,some ⟨15,[.setEnt .internalNl,.cb],none,false⟩⟩,⟨10,.lf,false,some ⟨16,[.setEnt .internalNl,.cb],none,false⟩⟩,⟨11,.vt,false,some ⟨14,[.setEnt .internalNl,.cb,.comment],none,false⟩⟩,⟨12,.ff,false,some ⟨17,[.setEnt .internalNl,.cb],none,false⟩⟩,⟨13,.cr,false,some ⟨18,[.setEnt .internalNl,.cb],none,false⟩⟩,⟨13,.cr,true,some ⟨19,[.setEnt .internalNl,.cb],none,false⟩⟩,⟨34,.other,false,some ⟨14,[.setEnt .internalNl,.cb,.comment],none,false⟩⟩,⟨42,.other,false,some ⟨20,[.setEnt .internalNl,.cb,.comment],none,false⟩⟩,⟨42,.other,false,some ⟨21,[.setEnt .internalNl,.cb,.comment],none,false⟩⟩,⟨47,.other,false,some ⟨22,[.setEnt .internalNl,.cb,.comment],none,false⟩⟩,⟨92,.other,false,some ⟨14,[.setEnt .internalNl,.cb,.comment],none,false⟩⟩]⟩,⟨[12,15,16],none,[],[⟨0,.other,false,some ⟨14,[.comment],none,false⟩⟩,⟨9,.ws,false,some ⟨15,[],none,false⟩⟩,⟨10,.lf,false,some ⟨16,[],none,false⟩⟩,⟨11,.vt,false,some ⟨14,[.comment],none,false⟩⟩,⟨12,.ff,false,some ⟨17,[],none,false⟩⟩,⟨13,.cr,false,some ⟨18,[],none,false⟩⟩,⟨13,.cr,true,some ⟨19,[],none,false⟩⟩,⟨34,.other,false,some ⟨14,[.comment],none,false⟩⟩,⟨42,.other,false,some ⟨35,[.nestInc,.comment],none,false⟩⟩,⟨42,.other,false,some ⟨36,[.nestInc,.comment],none,false⟩⟩,⟨47,.other,false,some ⟨22,[.comment],none,false⟩⟩,⟨92,.other,false,some ⟨14,[.comment],none,false⟩⟩]⟩,⟨[13,14,16],none,[],[⟨0,.other,false,some ⟨14,[.comment],none,false⟩⟩,⟨9,.ws,false,some ⟨15,[],none,false⟩⟩,⟨10,.lf,false,some ⟨16,[],none,false⟩⟩,⟨11,.vt,false,some ⟨14,[.comment],none,false⟩⟩,⟨12,.ff,false,some ⟨17,[],none,false⟩⟩,⟨13,.cr,false,some ⟨18,[],none,false⟩⟩,⟨13,.cr,true,some ⟨19,[],none,false⟩⟩,⟨34,.other,false,some ⟨14,[.comment],none,false⟩⟩,⟨42,.other,false,some ⟨20,[.comment],none,false⟩⟩,⟨42,.other,false,some ⟨21,[.comment],none,false⟩⟩,⟨47,.other,false,some ⟨34,[.nestDec,.comment],none,false⟩⟩,⟨92,.other,false,some ⟨14,[.comment],none,false⟩⟩]⟩,⟨[13,14,16,17],none,[],[⟨0,.other,false,some ⟨14,[.comment],none,false⟩⟩,⟨9,.ws,false,some ⟨15,[],none,false⟩⟩,⟨10,.lf,false,some ⟨16,[],none,false⟩⟩,⟨11,.vt,false,some ⟨14,[.comment],none,false⟩⟩,⟨12,.ff,false,some ⟨17,[],none,false⟩⟩,⟨13,.cr,false,some ⟨18,[],none,false⟩⟩,⟨13,.cr,true,some ⟨19,[],none,false⟩⟩,⟨34,.other,false,some ⟨14,[.comment],none,false⟩⟩,⟨42,.other,false,some ⟨20,[.comment],none,false⟩⟩,⟨42,.other,false,some ⟨21,[.comment],none,false⟩⟩,⟨47,.other,false,some ⟨34,[.nestDec,.comment],none,false⟩⟩,⟨47,.other,false,some ⟨0,[.comment],some 1,true⟩⟩,⟨92,.other,false,some ⟨14,[.comment],none,false⟩⟩]⟩,⟨[31,32,36],none,[],[⟨0,.other,false,some ⟨25,[.setEnt .internalNl,.cb,.code],none,false⟩⟩,⟨9,.ws,false,some ⟨26,[.setEnt .internalNl,.cb],none,false⟩⟩,⟨10,.lf,false,some ⟨27,[.setEnt .internalNl,.cb,.code],none,false⟩⟩,⟨11,.vt,false,some ⟨25,[.setEnt .internalNl,.cb,.code],none,false⟩⟩,⟨12,.ff,false,some ⟨28,[.setEnt .internalNl,.cb,.code],none,false⟩⟩,⟨13,.cr,false,some ⟨29,[.setEnt .internalNl,.cb,.code],none,false⟩⟩,⟨13,.cr,true,some ⟨30,[.setEnt .internalNl,.cb,.code],none,false⟩⟩,⟨34,.other,false,some ⟨31,[.setEnt .internalNl,.cb,.code],none,false⟩⟩,⟨42,.other,false,some ⟨25,[.setEnt .internalNl,.cb,.code],none,false⟩⟩,⟨47,.other,false,some ⟨25,[.setEnt .internalNl,.cb,.code],none,false⟩⟩,⟨92,.other,false,some ⟨25,[.setEnt .internalNl,.cb,.code],none,false⟩⟩]⟩,⟨[36,37,38],none,[],[⟨0,.other,false,some ⟨25,[.code],none,false⟩⟩,⟨9,.ws,false,some ⟨26,[],none,false⟩⟩,⟨10,.lf,false,some ⟨27,[.code],none,false⟩⟩,⟨11,.vt,false,some ⟨25,[.code],none,false⟩⟩,⟨12,.ff,false,some ⟨28,[.code],none,false⟩⟩,⟨13,.cr,false,some ⟨29,[.code],none,false⟩⟩,⟨13,.cr,true,some ⟨30,[.code],none,false⟩⟩,⟨34,.other,false,some ⟨39,[.code],some 2,false⟩⟩,⟨42,.other,false,some ⟨25,[.code],none,false⟩⟩,⟨47,.other,false,some ⟨25,[.code],none,false⟩⟩,⟨92,.other,false,some ⟨25,[.code],none,false⟩⟩]⟩,⟨[36,37,38,39],some 2,[],[⟨0,.other,false,some ⟨25,[.code],none,false⟩⟩,⟨9,.ws,false,some ⟨26,[],none,false⟩⟩,⟨10,.lf,false,some ⟨27,[.code],none,false⟩⟩,⟨11,.vt,false,some ⟨25,[.code],none,false⟩⟩,⟨12,.ff,false,some ⟨28,[.code],none,false⟩⟩,⟨13,.cr,false,some ⟨29,[.code],none,false⟩⟩,⟨13,.cr,true,some ⟨30,[.code],none,false⟩⟩,⟨34,.other,false,some ⟨39,[.code],some 2,false⟩⟩,⟨42,.other,false,some ⟨25,[.code],none,false⟩⟩,⟨47,.other,false,some ⟨25,[.code],none,false⟩⟩,⟨92,.other,false,some ⟨25,[.code],none,false⟩⟩]⟩]
theorem kotlin_line_rowsOk : rowsOk kotlin_line_nfa [] (kotlin_line_cs.map (·.1)) kotlin_line_rows = true := by decide +kernel
def kotlin_line_D : Dfa kotlin_line_M.nfa := ⟨kotlin_line_masks, [], kotlin_line_cs, kotlin_line_rows, kotlin_line_masksIn, kotlin_line_repOk, kotlin_line_rowsOk⟩

def lisp_line_nfa : Nfa := ⟨[⟨0,4294967808,[],[(0,.setEnt (.own 0))],0,0⟩,⟨1,576460752303423488,[],[(1,.comment)],0,0⟩,⟨3,17179869184,[],[],0,2⟩,⟨16,17179869184,[],[],0,0⟩,⟨19,17179869184,[],[],0,0⟩,⟨22,17179869184,[],[],0,0⟩,⟨35,8192,[],[(15,.setEnt .newline)],0,0⟩,⟨37,1024,[],[(15,.setEnt .newline)],0,0⟩,⟨38,4096,[],[(15,.setEnt .newline)],0,0⟩,⟨39,8192,[.crAlone],[(15,.setEnt .newline)],0,0⟩,⟨40,115792089237316195423570985008687907853269984665640564039457584007908834656767,[],[(16,.setEnt (.own 3))],0,0⟩],[[⟨0,4294967808,[],[(0,.setEnt (.own 0))],0,0⟩],[⟨2,115792089237316195423570985008687907853269984665640564039457584007913129626623,[],[],0,0⟩],[⟨2,115792089237316195423570985008687907853269984665640564039457584007913129626623,[],[],0,0⟩],[⟨4,17179869184,[],[],0,2⟩],[⟨5,17179869184,[],[(2,.comment)],0,2⟩],[⟨6,8192,[],[],0,2⟩,⟨8,1024,[],[],0,2⟩,⟨9,4096,[],[],0,2⟩,⟨10,8192,[.crAlone],[],0,2⟩,⟨11,4294967808,[],[],0,2⟩,⟨12,115792089237316195423570985008687907853269984665640564039457584007908834658815,[],[(5,.comment)],0,2⟩,⟨13,17179869184,[],[],0,2⟩],[⟨7,1024,[],[],0,2⟩],[⟨6,8192,[],[(3,.setEnt .internalNl),(4,.cb)],0,2⟩,⟨8,1024,[],[(3,.setEnt .internalNl),(4,.cb)],0,2⟩,⟨9,4096,[],[(3,.setEnt .internalNl),(4,.cb)],0,2⟩,⟨10,8192,[.crAlone],[(3,.setEnt .internalNl),(4,.cb)],0,2⟩,⟨11,4294967808,[],[(3,.setEnt .internalNl),(4,.cb)],0,2⟩,⟨12,115792089237316195423570985008687907853269984665640564039457584007908834658815,[],[(3,.setEnt .internalNl),(4,.cb),(5,.comment)],0,2⟩,⟨13,17179869184,[],[(3,.setEnt .internalNl),(4,.cb)],0,2⟩],[⟨6,8192,[],[(3,.setEnt .internalNl),(4,.cb)],0,2⟩,⟨8,1024,[],[(3,.setEnt .internalNl),(4,.cb)],0,2⟩,⟨9,4096,[],[(3,.setEnt .internalNl),(4,.cb)],0,2⟩,⟨10,8192,[.crAlone],[(3,.setEnt .internalNl),(4,.cb)],0,2⟩,⟨11,4294967808,[],[(3,.setEnt .internalNl),(4,.cb)],0,2⟩,⟨12,115792089237316195423570985008687907853269984665640564039457584007908834658815,[],[(3,.setEnt .internalNl),(4,.cb),(5,.comment)],0,2⟩,⟨13,17179869184,[],[(3,.setEnt .internalNl),(4,.cb)],0,2⟩],[⟨6,8192,[],[(3,.setEnt .internalNl),(4,.cb)],0,2⟩,⟨8,1024,[],[(3,.setEnt .internalNl),(4,.cb)],0,2⟩,⟨9,4096,[],[(3,.setEnt .internalNl),(4,.cb)],0,2⟩,⟨10,8192,[.crAlone],[(3,.setEnt .internalNl),(4,.cb)],0,2⟩,⟨11,4294967808,[],[(3,.setEnt .internalNl),(4,.cb)],0,2⟩,⟨12,115792089237316195423570985008687907853269984665640564039457584007908834658815,[],[(3,.setEnt .internalNl),(4,.cb),(5,.comment)],0,2⟩,⟨13,17179869184,[],[(3,.setEnt .internalNl),(4,.cb)],0,2⟩],[⟨6,8192,[],[(3,.setEnt .internalNl),(4,.cb)],0,2⟩,⟨8,1024,[],[(3,.setEnt .internalNl),(4,.cb)],0,2⟩,⟨9,4096,[],[(3,.setEnt .internalNl),(4,.cb)],0,2⟩,⟨10,8192,[.crAlone],[(3,.setEnt .internalNl),(4,.cb)],0,2⟩,⟨11,4294967808,[],[(3,.setEnt .internalNl),(4,.cb)],0,2⟩,⟨12,115792089237316195423570985008687907853269984665640564039457584007908834658815,[],[(3,.setEnt .internalNl),(4,.cb),(5,.comment)],0,2⟩,⟨13,17179869184,[],[(3,.setEnt .internalNl),(4,.cb)],0,2⟩],[⟨6,8192,[],[],0,2⟩,⟨8,1024,[],[],0,2⟩,⟨9,4096,[],[],0,2⟩,⟨10,8192,[.crAlone],[],0,2⟩,⟨11,4294967808,[],[],0,2⟩,⟨12,115792089237316195423570985008687907853269984665640564039457584007908834658815,[],[(5,.comment)],0,2⟩,⟨13,17179869184,[],[],0,2⟩],[⟨6,8192,[],[],0,2⟩,⟨8,1024,[],[],0,2⟩,⟨9,4096,[],[],0,2⟩,⟨10,8192,[.crAlone],[],0,2⟩,⟨11,4294967808,[],[],0,2⟩,⟨12,115792089237316195423570985008687907853269984665640564039457584007908834658815,[],[(5,.comment)],0,2⟩,⟨13,17179869184,[],[],0,2⟩],[⟨14,17179869184,[],[],0,0⟩],[⟨15,17179869184,[],[(6,.comment)],2,0⟩],[],[⟨17,17179869184,[],[],0,0⟩],[⟨18,115792089237316195423570985008687907853269984665640564039457584007895949770751,[],[(7,.fhold 0),(8,.code)],0,0⟩],[],[⟨20,115792089237316195423570985008687907853269984665640564039457584007895949770751,[],[],0,0⟩],[⟨21,17179869184,[],[(9,.code)],0,0⟩],[],[⟨23,115792089237316195423570985008687907853269984665640564039457584007895949770751,[],[],0,0⟩],[⟨24,115792089237316195423570985008687907853269984665640564039457584007895949770751,[],[(10,.code)],0,0⟩],[⟨25,8192,[],[],0,0⟩,⟨27,1024,[],[],0,0⟩,⟨28,4096,[],[],0,0⟩,⟨29,8192,[.crAlone],[],0,0⟩,⟨30,4294967808,[],[],0,0⟩,⟨31,115792089237316195423570985008687907853269984665635612279300442486792058292735,[],[(13,.code)],0,0⟩,⟨32,4951760157141521099596496896,[],[],0,0⟩,⟨34,17179869184,[],[],0,0⟩],[⟨26,1024,[],[],0,0⟩],[⟨25,8192,[],[(11,.setEnt .internalNl),(12,.cb)],0,0⟩,⟨27,1024,[],[(11,.setEnt .internalNl),(12,.cb)],0,0⟩,⟨28,4096,[],[(11,.setEnt .internalNl),(12,.cb)],0,0⟩,⟨29,8192,[.crAlone],[(11,.setEnt .internalNl),(12,.cb)],0,0⟩,⟨30,4294967808,[],[(11,.setEnt .internalNl),(12,.cb)],0,0⟩,⟨31,115792089237316195423570985008687907853269984665635612279300442486792058292735,[],[(11,.setEnt .internalNl),(12,.cb),(13,.code)],0,0⟩,⟨32,4951760157141521099596496896,[],[(11,.setEnt .internalNl),(12,.cb)],0,0⟩,⟨34,17179869184,[],[(11,.setEnt .internalNl),(12,.cb)],0,0⟩],[⟨25,8192,[],[(11,.setEnt .internalNl),(12,.cb)],0,0⟩,⟨27,1024,[],[(11,.setEnt .internalNl),(12,.cb)],0,0⟩,⟨28,4096,[],[(11,.setEnt .internalNl),(12,.cb)],0,0⟩,⟨29,8192,[.crAlone],[(11,.setEnt .internalNl),(12,.cb)],0,0⟩,⟨30,4294967808,[],[(11,.setEnt .internalNl),(12,.cb)],0,0⟩,⟨31,115792089237316195423570985008687907853269984665635612279300442486792058292735,[],[(11,.setEnt .internalNl),(12,.cb),(13,.code)],0,0⟩,⟨32,4951760157141521099596496896,[],[(11,.setEnt .internalNl),(12,.cb)],0,0⟩,⟨34,17179869184,[],[(11,.setEnt .internalNl),(12,.cb)],0,0⟩],[⟨25,8192,[],[(11,.setEnt .internalNl),(12,.cb)],0,0⟩,⟨27,1024,[],[(11,.setEnt .internalNl),(12,.cb)],0,0⟩,⟨28,4096,[],[(11,.setEnt .internalNl),(12,.cb)],0,0⟩,⟨29,8192,[.crAlone],[(11,.setEnt .internalNl),(12,.cb)],0,0⟩,⟨30,4294967808,[],[(11,.setEnt .internalNl),(12,.cb)],0,0⟩,⟨31,115792089237316195423570985008687907853269984665635612279300442486792058292735,[],[(11,.setEnt .internalNl),(12,.cb),(13,.code)],0,0⟩,⟨32,4951760157141521099596496896,[],[(11,.setEnt .internalNl),(12,.cb)],0,0⟩,⟨34,17179869184,[],[(11,.setEnt .internalNl),(12,.cb)],0,0⟩],[⟨25,8192,[],[(11,.setEnt .internalNl),(12,.cb)],0,0⟩,⟨27,1024,[],[(11,.setEnt .internalNl),(12,.cb)],0,0⟩,⟨28,4096,[],[(11,.setEnt .internalNl),(12,.cb)],0,0⟩,⟨29,8192,[.crAlone],[(11,.setEnt .internalNl),(12,.cb)],0,0⟩,⟨30,4294967808,[],[(11,.setEnt .internalNl),(12,.cb)],0,0⟩,⟨31,115792089237316195423570985008687907853269984665635612279300442486792058292735,[],[(11,.setEnt .internalNl),(12,.cb),(13,.code)],0,0⟩,⟨32,4951760157141521099596496896,[],[(11,.setEnt .internalNl),(12,.cb)],0,0⟩,⟨34,17179869184,[],[(11,.setEnt .internalNl),(12,.cb)],0,0⟩],[⟨25,8192,[],[],0,0⟩,⟨27,1024,[],[],0,0⟩,⟨28,4096,[],[],0,0⟩,⟨29,8192,[.crAlone],[],0,0⟩,⟨30,4294967808,[],[],0,0⟩,⟨31,115792089237316195423570985008687907853269984665635612279300442486792058292735,[],[(13,.code)],0,0⟩,⟨32,4951760157141521099596496896,[],[],0,0⟩,⟨34,17179869184,[],[],0,0⟩],[⟨25,8192,[],[],0,0⟩,⟨27,1024,[],[],0,0⟩,⟨28,4096,[],[],0,0⟩,⟨29,8192,[.crAlone],[],0,0⟩,⟨30,4294967808,[],[],0,0⟩,⟨31,115792089237316195423570985008687907853269984665635612279300442486792058292735,[],[(13,.code)],0,0⟩,⟨32,4951760157141521099596496896,[],[],0,0⟩,⟨34,17179869184,[],[],0,0⟩],[⟨33,115792089237316195423570985008687907853269984665640564039457584007913129626623,[],[(14,.code)],0,0⟩],[⟨25,8192,[],[],0,0⟩,⟨27,1024,[],[],0,0⟩,⟨28,4096,[],[],0,0⟩,⟨29,8192,[.crAlone],[],0,0⟩,⟨30,4294967808,[],[],0,0⟩,⟨31,115792089237316195423570985008687907853269984665635612279300442486792058292735,[],[(13,.code)],0,0⟩,⟨32,4951760157141521099596496896,[],[],0,0⟩,⟨34,17179869184,[],[],0,0⟩],[],[⟨36,1024,[],[(15,.setEnt .newline)],0,0⟩],[],[],[],[],[]],[some (0,[]),some (1,[]),some (1,[]),none,none,none,none,none,none,none,none,none,none,none,none,some (1,[]),none,none,some (2,[]),none,none,some (2,[]),none,none,none,none,none,none,none,none,none,none,none,none,some (2,[]),none,some (3,[]),some (3,[]),some (3,[]),some (3,[]),some (4,[])],[1,7,15,16,17]⟩
theorem lisp_line_nfa_eq : Lisp.lisp_line.nfa = lisp_line_nfa := by decide +kernel
/-- The machine of `Lisp.lisp_line`, with its automaton as a literal. -/
def lisp_line_M : Machine := ⟨lisp_line_nfa, Lisp.lisp_line.ends, Lisp.lisp_line.sw⟩
theorem lisp_line_M_eq : Lisp.lisp_line.machine = lisp_line_M := by
  unfold Scanner.machine lisp_line_M; rw [lisp_line_nfa_eq]
def lisp_line_masks : List Nat := [4294967808,576460752303423488,17179869184,8192,1024,4096,115792089237316195423570985008687907853269984665640564039457584007908834656767,115792089237316195423570985008687907853269984665640564039457584007913129626623,115792089237316195423570985008687907853269984665640564039457584007908834658815,115792089237316195423570985008687907853269984665640564039457584007895949770751,115792089237316195423570985008687907853269984665635612279300442486792058292735,4951760157141521099596496896]
def lisp_line_cs : List (Nat × Nat) := [(0,115792089237316195423570985008687907853269984665635612279299866026039754867199),(9,4294967808),(10,1024),(11,2048),(12,4096),(13,8192),(34,17179869184),(59,576460752303423488),(92,4951760157141521099596496896)]
theorem lisp_line_masksIn : masksIn lisp_line_nfa lisp_line_masks = true := by decide +kernel
theorem lisp_line_repOk : repOk lisp_line_masks lisp_line_cs = true := by decide +kernel
def lisp_line_rows : List Row := [⟨[],none,[],[⟨0,.other,false,some ⟨0,[.setEnt (.own 3)],some 4,true⟩⟩,⟨9,.ws,false,some ⟨1,[.setEnt (.own 0)],some 0,false⟩⟩,⟨10,.lf,false,some ⟨0,[.setEnt .newline],some 3,true⟩⟩,⟨11,.vt,false,none⟩,⟨12,.ff,false,some ⟨0,[.setEnt .newline],some 3,true⟩⟩,⟨13,.cr,false,some ⟨2,[.setEnt .newline],none,false⟩⟩,⟨13,.cr,true,some ⟨3,[.setEnt .newline],some 3,false⟩⟩,⟨34,.other,false,some ⟨4,[.setEnt (.own 3)],some 4,false⟩⟩,⟨59,.other,false,some ⟨5,[.comment,.setEnt (.own 3)],some 1,false⟩⟩,⟨92,.other,false,some ⟨0,[.setEnt (.own 3)],some 4,true⟩⟩]⟩,⟨[0],some 0,[],[⟨0,.other,false,none⟩,⟨9,.ws,false,some ⟨1,[.setEnt (.own 0)],some 0,false⟩⟩,⟨10,.lf,false,none⟩,⟨11,.vt,false,none⟩,⟨12,.ff,false,none⟩,⟨13,.cr,false,none⟩,⟨13,.cr,true,none⟩,⟨34,.other,false,none⟩,⟨59,.other,false,none⟩,⟨92,.other,false,none⟩]⟩,⟨[35],none,[],[⟨0,.other,false,none⟩,⟨9,.ws,false,none⟩,⟨10,.lf,false,some ⟨0,[.setEnt .newline],some 3,true⟩⟩,⟨11,.vt,false,none⟩,⟨12,.ff,false,none⟩,⟨13,.cr,false,none⟩,⟨13,.cr,true,none⟩,⟨34,.other,false,none⟩,⟨59,.other,false,none⟩,⟨92,.other,false,none⟩]⟩,⟨[35,39],some 3,[],[⟨0,.other,false,none⟩,⟨9,.ws,false,none⟩,⟨10,.lf,false,some ⟨0,[.setEnt .newline],some 3,true⟩⟩,⟨11,.vt,false,none⟩,⟨12,.ff,false,none⟩,⟨13,.cr,false,none⟩,⟨13,.cr,true,none⟩,⟨34,.other,false,none⟩,⟨59,.other,false,none⟩,⟨92,.other,false,none⟩]⟩,⟨[3,16,19,22,40],some 4,[],[⟨0,.other,false,some ⟨6,[],none,false⟩⟩,⟨9,.ws,false,some ⟨6,[],none,false⟩⟩,⟨10,.lf,false,some ⟨6,[],none,false⟩⟩,⟨11,.vt,false,some ⟨6,[],none,false⟩⟩,⟨12,.ff,false,some ⟨6,[],none,false⟩⟩,⟨13,.cr,false,some ⟨6,[],none,false⟩⟩,⟨13,.cr,true,some ⟨6,[],none,false⟩⟩,⟨34,.other,false,some ⟨7,[],none,false⟩⟩,⟨59,.other,false,some ⟨6,[],none,false⟩⟩,⟨92,.other,false,some ⟨6,[],none,false⟩⟩]⟩,⟨[1,40],some 1,[],[⟨0,.other,false,some ⟨8,[],some 1,false⟩⟩,⟨9,.ws,false,some ⟨8,[],some 1,false⟩⟩,⟨10,.lf,false,none⟩,⟨11,.vt,false,some ⟨8,[],some 1,false⟩⟩,⟨12,.ff,false,none⟩,⟨13,.cr,false,none⟩,⟨13,.cr,true,none⟩,⟨34,.other,false,some ⟨8,[],some 1,false⟩⟩,⟨59,.other,false,some ⟨8,[],some 1,false⟩⟩,⟨92,.other,false,some ⟨8,[],some 1,false⟩⟩]⟩,⟨[20,23],none,[],[⟨0,.other,false,some ⟨9,[.code],none,false⟩⟩,⟨9,.ws,false,some ⟨9,[.code],none,false⟩⟩,⟨10,.lf,false,some ⟨9,[.code],none,false⟩⟩,⟨11,.vt,false,some ⟨9,[.code],none,false⟩⟩,⟨12,.ff,false,some ⟨9,[.code],none,false⟩⟩,⟨13,.cr,false,some ⟨9,[.code],none,false⟩⟩,⟨13,.cr,true,some ⟨9,[.code],none,false⟩⟩,⟨34,.other,false,some ⟨0,[.code],some 2,true⟩⟩,⟨59,.other,false,some ⟨9,[.code],none,false⟩⟩,⟨92,.other,false,some ⟨9,[.code],none,false⟩⟩]⟩,⟨[4,17],none,[],[⟨0,.other,false,some ⟨0,[.fhold 0,.code],some 2,true⟩⟩,⟨9,.ws,false,some ⟨0,[.fhold 0,.code],some 2,true⟩⟩,⟨10,.lf,false,some ⟨0,[.fhold 0,.code],some 2,true⟩⟩,⟨11,.vt,false,some ⟨0,[.fhold 0,.code],some 2,true⟩⟩,⟨12,.ff,false,some ⟨0,[.fhold 0,.code],some 2,true⟩⟩,⟨13,.cr,false,some ⟨0,[.fhold 0,.code],some 2,true⟩⟩,⟨13,.cr,true,some ⟨0,[.fhold 0,.code],some 2,true⟩⟩,⟨34,.other,false,some ⟨10,[.comment],none,false⟩⟩,⟨59,.other,false,some ⟨0,[.fhold 0,.code],some 2,true⟩⟩,⟨92,.other,false,some ⟨0,[.fhold 0,.code],some 2,true⟩⟩]⟩,⟨[2],some 1,[],[⟨0,.other,false,some ⟨8,[],some 1,false⟩⟩,⟨9,.ws,false,some ⟨8,[],some 1,false⟩⟩,⟨10,.lf,false,none⟩,⟨11,.vt,false,some ⟨8,[],some 1,false⟩⟩,⟨12,.ff,false,none⟩,⟨13,.cr,false,none⟩,⟨13,.cr,true,none⟩,⟨34,.other,false,some ⟨8,[],some 1,false⟩⟩,⟨59,.other,false,some ⟨8,[],some 1,false⟩⟩,⟨92,.other,false,some ⟨8,[],some 1,false⟩⟩]⟩,⟨[24],none,[],[⟨0,.other,false,some ⟨11,[.code],none,false⟩⟩,⟨9,.ws,false,some ⟨12,[],none,false⟩⟩,⟨10,.lf,false,some ⟨13,[],none,false⟩⟩,⟨11,.vt,false,some ⟨11,[.code],none,false⟩⟩,⟨12,.ff,false,some ⟨14,[],none,false⟩⟩,⟨13,.cr,false,some ⟨15,[],none,false⟩⟩,⟨13,.cr,true,some ⟨16,[],none,false⟩⟩,⟨34,.other,false,some ⟨0,[],some 2,true⟩⟩,⟨59,.other,false,some ⟨11,[.code],none,false⟩⟩,⟨92,.other,false,some ⟨17,[],none,false⟩⟩]⟩,⟨[5],none,[],[⟨0,.other,false,some ⟨18,[.comment],none,false⟩⟩,⟨9,.ws,false,some ⟨19,[],none,false⟩⟩,⟨10,.lf,false,some ⟨20,[],none,false⟩⟩,⟨11,.vt,false,some ⟨18,[.comment],none,false⟩⟩,⟨12,.ff,false,some ⟨21,[],none,false⟩⟩,⟨13,.cr,false,some ⟨22,[],none,false⟩⟩,⟨13,.cr,true,some ⟨23,[],none,false⟩⟩,⟨34,.other,false,some ⟨24,[.comment],none,false⟩⟩,⟨59,.other,false,some ⟨18,[.comment],none,false⟩⟩,⟨92,.other,false,some ⟨18,[.comment],none,false⟩⟩]⟩,⟨[31],none,[],[⟨0,.other,false,some ⟨11,[.code],none,false⟩⟩,⟨9,.ws,false,some ⟨12,[],none,false⟩⟩,⟨10,.lf,false,some ⟨13,[],none,false⟩⟩,⟨11,.vt,false,some ⟨11,[.code],none,false⟩⟩,⟨12,.ff,false,some ⟨14,[],none,false⟩⟩,⟨13,.cr,false,some ⟨15,[],none,false⟩⟩,⟨13,.cr,true,some ⟨16,[],none,false⟩⟩,⟨34,.other,false,some ⟨0,[],some 2,true⟩⟩,⟨59,.other,false,some ⟨11,[.code],none,false⟩⟩,⟨92,.other,false,some ⟨17,[],none,false⟩⟩]⟩,⟨[30],none,[],[⟨0,.other,false,some ⟨11,[.code],none,false⟩⟩,⟨9,.ws,false,some ⟨12,[],none,false⟩⟩,⟨10,.lf,false,some ⟨13,[],none,false⟩⟩,⟨11,.vt,false,some ⟨11,[.code],none,false⟩⟩,⟨12,.ff,false,some ⟨14,[],none,false⟩⟩,⟨13,.cr,false,some ⟨15,[],none,false⟩⟩,⟨13,.cr,true,some ⟨16,[],none,false⟩⟩,⟨34,.other,false,some ⟨0,[],some 2,true⟩⟩,⟨59,.other,false,some ⟨11,[.code],none,false⟩⟩,⟨92,.other,false,some ⟨17,[],none,false⟩⟩]⟩,⟨[27],none,[],[⟨0,.other,false,some ⟨11,[.setEnt .internalNl,.cb,.code],none,false⟩⟩,⟨9,.ws,false,some ⟨12,[.setEnt .internalNl,.cb],none,false⟩⟩,⟨10,.lf,false,some ⟨13,[.setEnt .internalNl,.cb],none,false⟩⟩,⟨11,.vt,false,some ⟨11,[.setEnt .internalNl,.cb,.code],none,false⟩⟩,⟨12,.ff,false,some ⟨14,[.setEnt .internalNl,.cb],none,false⟩⟩,⟨13,.cr,false,some ⟨15,[.setEnt .internalNl,.cb],none,false⟩⟩,⟨13,.cr,true,some ⟨16,[.setEnt .internalNl,.cb],none,false⟩⟩,⟨34,.other,false,some ⟨0,[.setEnt .internalNl,.cb],some 2,true⟩⟩,⟨59,.other,false,some ⟨11,[.setEnt .internalNl,.cb,.code],none,false⟩⟩,⟨92,.other,false,some ⟨17,[.setEnt .internalNl,.cb],none,false⟩⟩]⟩,⟨[28],none,[],[⟨0,.other,false,some ⟨11,[.setEnt .internalNl,.cb,.code],none,false⟩⟩,⟨9,.ws,false,some ⟨12,[.setEnt .internalNl,.cb],none,false⟩⟩,⟨10,.lf,false,some ⟨13,[.setEnt .internalNl,.cb],none,false⟩⟩,⟨11,.vt,false,some ⟨11,[.setEnt .internalNl,.cb,.code],none,false⟩⟩,⟨12,.ff,false,some ⟨14,[.setEnt .internalNl,.cb],none,false⟩⟩,⟨13,.cr,false,some ⟨15,[.setEnt .internalNl,.cb],none,false⟩⟩,⟨13,.cr,true,some ⟨16,[.setEnt .internalNl,.cb],none,false⟩⟩,⟨34,.other,false,some ⟨0,[.setEnt .internalNl,.cb],some 2,true⟩⟩,⟨59,.other,false,some ⟨11,[.setEnt .internalNl,.cb,.code],none,false⟩⟩,⟨92,.other,false,some ⟨17,[.setEnt .internalNl,.cb],none,false⟩⟩]⟩,⟨[25],none,[],[⟨0,.other,false,none⟩,⟨9,.ws,false,none⟩,⟨10,.lf,false,some ⟨25,[],none,false⟩⟩,⟨11,.vt,false,none⟩,⟨12,.ff,false,none⟩,⟨13,.cr,false,none⟩,⟨13,.cr,true,none⟩,⟨34,.other,false,none⟩,⟨59,.other,false,none⟩,⟨92,.other,false,none⟩]⟩,⟨[25,29],none,[],[⟨0,.other,false,some ⟨11,[.setEnt .internalNl,.cb,.code],none,false⟩⟩,⟨9,.ws,false,some ⟨12,[.setEnt .internalNl,.cb],none,false⟩⟩,⟨10,.lf,false,some ⟨26,[.setEnt .internalNl,.cb],none,false⟩⟩,⟨11,.vt,false,some ⟨11,[.setEnt .internalNl,.cb,.code],none,false⟩⟩,⟨12,.ff,false,some ⟨14,[.setEnt .internalNl,.cb],none,false⟩⟩,⟨13,.cr,false,some ⟨15,[.setEnt .internalNl,.cb],none,false⟩⟩,⟨13,.cr,true,some ⟨16,[.setEnt .internalNl,.cb],none,false⟩⟩,⟨34,.other,false,some ⟨0,[.setEnt .internalNl,.cb],some 2,true⟩⟩,⟨59,.other,false,some ⟨11,[.setEnt .internalNl,.cb,.code],none,false⟩⟩,⟨92,.other,false,some ⟨17,[.setEnt .internalNl,.cb],none,false⟩⟩]⟩,⟨[32],none,[],[⟨0,.other,false,some ⟨27,[.code],none,false⟩⟩,⟨9,.ws,false,some ⟨27,[.code],none,false⟩⟩,⟨10,.lf,false,none⟩,⟨11,.vt,false,some ⟨27,[.code],none,false⟩⟩,⟨12,.ff,false,none⟩,⟨13,.cr,false,none⟩,⟨13,.cr,true,none⟩,⟨34,.other,false,some ⟨27,[.code],none,false⟩⟩,⟨59,.other,false,some ⟨27,[.code],none,false⟩⟩,⟨92,.other,false,some ⟨27,[.code],none,false⟩⟩]⟩,⟨[12],none,[],[⟨0,.other,false,some ⟨18,[.comment],none,false⟩⟩,⟨9,.ws,false,some ⟨19,[],none,false⟩⟩,⟨10,.lf,false,some ⟨20,[],none,false⟩⟩,⟨11,.vt,false,some ⟨18,[.comment],none,false⟩⟩,⟨12,.ff,false,some ⟨21,[],none,false⟩⟩,⟨13,.cr,false,some ⟨22,[],none,false⟩⟩,⟨13,.cr,true,some ⟨23,[],none,false⟩⟩,⟨34,.other,false,some ⟨24,[.comment],none,false⟩⟩,⟨59,.other,false,some ⟨18,[.comment],none,false⟩⟩,⟨92,.other,false,some ⟨18,[.comment],none,false⟩⟩]⟩,⟨[11],none,[],[⟨0,.other,false,some ⟨18,[.comment],none,false⟩⟩,⟨9,.ws,false,some ⟨19,[],none,false⟩⟩,⟨10,.lf,false,some ⟨20,[],none,false⟩⟩,⟨11,.vt,false,some ⟨18,[.comment],none,false⟩⟩,⟨12,.ff,false,some ⟨21,[],none,false⟩⟩,⟨13,.cr,false,some ⟨22,[],none,false⟩⟩,⟨13,.cr,true,some ⟨23,[],none,false⟩⟩,⟨34,.other,false,some ⟨24,[.comment],none,false⟩⟩,⟨59,.other,false,some ⟨18,[.comment],none,false⟩⟩,⟨92,.other,false,some ⟨18,[.comment],none,false⟩⟩]⟩,⟨[8],none,[],[⟨0,.other,false,some ⟨18,[.setEnt .internalNl,.cb,.comment],none,false⟩⟩,⟨9,.ws,false,some ⟨19,[.setEnt .internalNl,.cb],none,false⟩⟩,⟨10,.lf,false,some ⟨20,[.setEnt .internalNl,.cb],none,false⟩⟩,⟨11,.vt,false,some ⟨18,[.setEnt .internalNl,.cb,.comment],none,false⟩⟩,⟨12,.ff,false,some ⟨21,[.setEnt .internalNl,.cb],none,false⟩⟩,⟨13,.cr,false,some ⟨22,[.setEnt .internalNl,.cb],none,false⟩⟩,⟨13,.cr,true,some ⟨23,[.setEnt .internalNl,.cb],none,false⟩⟩,⟨34,.other,false,some ⟨24,[.setEnt .internalNl,.cb,.comment],none,false⟩⟩,⟨59,.other,false,some ⟨18,[.setEnt .internalNl,.cb,.comment],none,false⟩⟩,⟨92,.other,false,some ⟨18,[.setEnt .internalNl,.cb,.comment],none,false⟩⟩]⟩,⟨[9],none,[],[⟨0,.other,false,some ⟨18,[.setEnt .internalNl,.cb,.comment],none,false⟩⟩,⟨9,.ws,false,some ⟨19,[.setEnt .internalNl,.cb],none,false⟩⟩,⟨10,.lf,false,some ⟨20,[.setEnt .internalNl,.cb],none,false⟩⟩,⟨11,.vt,false,some ⟨18,[.setEnt .internalNl,.cb,.comment],none,false⟩⟩,⟨12,.ff,false,some ⟨21,[.setEnt .internalNl,.cb],none,false⟩⟩,⟨13,.cr,false,some ⟨22,[.setEnt .internalNl,.cb],none,false⟩⟩,⟨13,.cr,true,some ⟨23,[.setEnt .internalNl,.cb],none,false⟩⟩,⟨34,.other,false,some ⟨24,[.setEnt .internalNl,.cb,.comment],none,false⟩⟩,⟨59,.other,false,some ⟨18,[.setEnt .internalNl,.cb,.comment],none,false⟩⟩,⟨92,.other,false,some ⟨18,[.setEnt .internalNl,.cb,.comment],none,false⟩⟩]⟩,⟨[6],none,[],[⟨0,.other,false,none⟩,⟨9,.ws,false,none⟩,⟨10,.lf,false,some ⟨28,[],none,false⟩⟩,⟨11,.vt,false,none⟩,⟨12,.ff,false,none⟩,⟨13,.cr,false,none⟩,⟨13,.cr,true,none⟩,⟨34,.other,false,none⟩,⟨59,.other,false,none⟩,⟨92,.other,false,none⟩]⟩,⟨[6,10],none,[],[⟨0,.other,false,some ⟨18,[.setEnt .internalNl,.cb,.comment],none,false⟩⟩,⟨9,.ws,false,some ⟨19,[.setEnt .internalNl,.cb],none,false⟩⟩,⟨10,.lf,false,some ⟨29,[.setEnt .internalNl,.cb],none,false⟩⟩,⟨11,.vt,false,some ⟨18,[.setEnt .internalNl,.cb,.comment],none,false⟩⟩,⟨12,.ff,false,some ⟨21,[.setEnt .internalNl,.cb],none,false⟩⟩,⟨13,.cr,false,some ⟨22,[.setEnt .internalNl,.cb],none,false⟩⟩,⟨13,.cr,true,some ⟨23,[.setEnt .internalNl,.cb],none,false⟩⟩,⟨34,.other,false,some ⟨24,[.setEnt .internalNl,.cb,.comment],none,false⟩⟩,⟨59,.other,false,some ⟨18,[.setEnt .internalNl,.cb,.comment],none,false⟩⟩,⟨92,.other,false,some ⟨18,[.setEnt .internalNl,.cb,.comment],none,false⟩⟩]⟩,⟨[12,13],none,[],[⟨0,.other,false,some ⟨18,[.comment],none,false⟩⟩,⟨9,.ws,false,some ⟨19,[],none,false⟩⟩,⟨10,.lf,false,some ⟨20,[],none,false⟩⟩,⟨11,.vt,false,some ⟨18,[.comment],none,false⟩⟩,⟨12,.ff,false,some ⟨21,[],none,false⟩⟩,⟨13,.cr,false,some ⟨22,[],none,false⟩⟩,⟨13,.cr,true,some ⟨23,[],none,false⟩⟩,⟨34,.other,false,some ⟨30,[.comment],none,false⟩⟩,⟨59,.other,false,some ⟨18,[.comment],none,false⟩⟩,⟨92,.other,false,some ⟨18,[.comment],none,false⟩⟩]⟩,⟨[26],none,[],[⟨0,.other,false,some ⟨11,[.setEnt .internalNl,.cb,.code],none,false⟩⟩,⟨9,.ws,false,some ⟨12,[.setEnt .internalNl,.cb],none,false⟩⟩,⟨10,.lf,false,some ⟨13,[.setEnt .internalNl,.cb],none,false⟩⟩,⟨11,.vt,false,some ⟨11,[.setEnt .internalNl,.cb,.code],none,false⟩⟩,⟨12,.ff,false,some ⟨14,[.setEnt .internalNl,.cb],none,false⟩⟩,⟨13,.cr,false,some ⟨15,[.setEnt .internalNl,.cb],none,false⟩⟩,⟨13,.cr,true,some ⟨16,[.setEnt .internalNl,.cb],none,false⟩⟩,⟨34,.other,false,some ⟨0,[.setEnt .internalNl,.cb],some 2,true⟩⟩,⟨59,.other,false,some ⟨11,[.setEnt .internalNl,.cb,.code],none,false⟩⟩,⟨92,.other,false,some ⟨17,[.setEnt .internalNl,.cb],none,false⟩⟩]⟩,⟨[26,27],none,[],[⟨0,.other,false,some ⟨11,[.setEnt .internalNl,.cb,.code],none,false⟩⟩,⟨9,.ws,false,some ⟨12,[.setEnt .internalNl,.cb],none,false⟩⟩,⟨10,.lf,false,some ⟨13,[.setEnt .internalNl,.cb],none,false⟩⟩,⟨11,.vt,false,some ⟨11,[.setEnt .internalNl,.cb,.code],none,false⟩⟩,⟨12,.ff,false,some ⟨14,[.setEnt .internalNl,.cb],none,false⟩⟩,⟨13,.cr,false,some ⟨15,[.setEnt .internalNl,.cb],none,false⟩⟩,⟨13,.cr,true,some ⟨16,[.setEnt .internalNl,.cb],none,false⟩⟩,⟨34,.other,false,some ⟨0,[.setEnt .internalNl,.cb],some 2,true⟩⟩,⟨59,.other,false,some ⟨11,[.setEnt .internalNl,.cb,.code],none,false⟩⟩,⟨92,.other,false,some ⟨17,[.setEnt .internalNl,.cb],none,false⟩⟩]⟩,⟨[33],none,[],[⟨0,.other,false,some ⟨11,[.code],none,false⟩⟩,⟨9,.ws,false,some ⟨12,[],none,false⟩⟩,⟨10,.lf,false,some ⟨13,[],none,false⟩⟩,⟨11,.vt,false,some ⟨11,[.code],none,false⟩⟩,⟨12,.ff,false,some ⟨14,[],none,false⟩⟩,⟨13,.cr,false,some ⟨15,[],none,false⟩⟩,⟨13,.cr,true,some ⟨16,[],none,false⟩⟩,⟨34,.other,false,some ⟨0,[],some 2,true⟩⟩,⟨59,.other,false,some ⟨11,[.code],none,false⟩⟩,⟨92,.other,false,some ⟨17,[],none,false⟩⟩]⟩,⟨[7],none,[],[⟨0,.other,false,some ⟨18,[.setEnt .internalNl,.cb,.comment],none,false⟩⟩,⟨9,.ws,false,some ⟨19,[.setEnt .internalNl,.cb],none,false⟩⟩,⟨10,.lf,false,some ⟨20,[.setEnt .internalNl,.cb],none,false⟩⟩,⟨11,.vt,false,some ⟨18,[.setEnt .internalNl,.cb,.comment],none,false⟩⟩,⟨12,.ff,false,some ⟨21,[.setEnt .internalNl,.cb],none,false⟩⟩,⟨13,.cr,false,some ⟨22,[.setEnt .internalNl,.cb],none,false⟩⟩,⟨13,.cr,true,some ⟨23,[.setEnt .internalNl,.cb],none,false⟩⟩,⟨34,.other,false,some ⟨24,[.setEnt .internalNl,.cb,.comment],none,false⟩⟩,⟨59,.other,false,some ⟨18,[.setEnt .internalNl,.cb,.comment],none,false⟩⟩,⟨92,.other,false,some ⟨18,[.setEnt .internalNl,.cb,.comment],none,false⟩⟩]⟩,⟨[7,8],none,[],[⟨0,.other,false,some ⟨18,[.setEnt .internalNl,.cb,.comment],none,false⟩⟩,⟨9,.ws,false,some ⟨19,[.setEnt .internalNl,.cb],none,false⟩⟩,⟨10,.lf,false,some ⟨20,[.setEnt .internalNl,.cb],none,false⟩⟩,⟨11,.vt,false,some ⟨18,[.setEnt .internalNl,.cb,.comment],none,false⟩⟩,⟨12,.ff,false,some ⟨21,[.setEnt .internalNl,.cb],none,false⟩⟩,⟨13,.cr,false,some ⟨22,[.setEnt .internalNl,.cb],none,false⟩⟩,⟨13,.cr,true,some ⟨23,[.setEnt .internalNl,.cb],none,false⟩⟩,⟨34,.other,false,some ⟨24,[.setEnt .internalNl,.cb,.comment],none,false⟩⟩,⟨59,.other,false,some ⟨18,[.setEnt .internalNl,.cb,.comment],none,false⟩⟩,⟨92,.other,false,some ⟨18,[.setEnt .internalNl,.cb,.comment],none,false⟩⟩]⟩,⟨[12,13,14],none,[],[⟨0,.other,false,some ⟨18,[.comment],none,false⟩⟩,⟨9,.ws,false,some ⟨19,[],none,false⟩⟩,⟨10,.lf,false,some ⟨20,[],none,false⟩⟩,⟨11,.vt,false,some ⟨18,[.comment],none,false⟩⟩,⟨12,.ff,false,some ⟨21,[],none,false⟩⟩,⟨13,.cr,false,some ⟨22,[],none,false⟩⟩,⟨13,.cr,true,some ⟨23,[],none,false⟩⟩,⟨34,.other,false,some ⟨31,[.comment],some 1,false⟩⟩,⟨59,.other,false,some ⟨18,[.comment],none,false⟩⟩,⟨92,.other,false,some ⟨18,[.comment],none,false⟩⟩]⟩,⟨[14,15],some 1,[],[⟨0,.other,false,none⟩,⟨9,.ws,false,none⟩,⟨10,.lf,false,none⟩,⟨11,.vt,false,none⟩,⟨12,.ff,false,none⟩,⟨13,.cr,false,none⟩,⟨13,.cr,true,none⟩,⟨34,.other,false,some ⟨0,[.comment],some 1,true⟩⟩,⟨59,.other,false,none⟩,⟨92,.other,false,none⟩]⟩]
theorem lisp_line_rowsOk : rowsOk lisp_line_nfa [] (lisp_line_cs.map (·.1)) lisp_line_rows = true := by decide +kernel
def lisp_line_D : Dfa lisp_line_M.nfa := ⟨lisp_line_masks, [], lisp_line_cs, lisp_line_rows, lisp_line_masksIn, lisp_line_repOk, lisp_line_rowsOk⟩

def pike_line_nfa : Nfa := ⟨[⟨0,4294967808,[],[(0,.setEnt (.own 0))],0,0⟩,⟨1,140737488355328,[],[],0,0⟩,⟨4,140737488355328,[],[],0,2⟩,⟨15,549755813888,[],[(6,.code)],0,0⟩,⟨20,17179869184,[],[(7,.code)],0,0⟩,⟨25,8192,[],[(8,.setEnt .newline)],0,0⟩,⟨27,1024,[],[(8,.setEnt .newline)],0,0⟩,⟨28,4096,[],[(8,.setEnt .newline)],0,0⟩,⟨29,8192,[.crAlone],[(8,.setEnt .newline)],0,0⟩,⟨30,115792089237316195423570985008687907853269984665640564039457584007908834656767,[],[(9,.setEnt (.own 3))],0,0⟩],[[⟨0,4294967808,[],[(0,.setEnt (.own 0))],0,0⟩],[⟨2,140737488355328,[],[(1,.comment)],0,0⟩],[⟨3,115792089237316195423570985008687907853269984665640564039457584007913129626623,[],[],0,0⟩],[⟨3,115792089237316195423570985008687907853269984665640564039457584007913129626623,[],[],0,0⟩],[⟨5,4398046511104,[],[(2,.comment)],0,2⟩],[⟨6,8192,[],[],0,2⟩,⟨8,1024,[],[],0,2⟩,⟨9,4096,[],[],0,2⟩,⟨10,8192,[.crAlone],[],0,2⟩,⟨11,4294967808,[],[],0,2⟩,⟨12,115792089237316195423570985008687907853269984665640564039457584007908834658815,[],[(5,.comment)],0,2⟩,⟨13,4398046511104,[],[],0,2⟩],[⟨7,1024,[],[],0,2⟩],[⟨6,8192,[],[(3,.setEnt .internalNl),(4,.cb)],0,2⟩,⟨8,1024,[],[(3,.setEnt .internalNl),(4,.cb)],0,2⟩,⟨9,4096,[],[(3,.setEnt .internalNl),(4,.cb)],0,2⟩,⟨10,8192,[.crAlone],[(3,.setEnt .internalNl),(4,.cb)],0,2⟩,⟨11,4294967808,[],[(3,.setEnt .internalNl),(4,.cb)],0,2⟩,⟨12,115792089237316195423570985008687907853269984665640564039457584007908834658815,[],[(3,.setEnt .internalNl),(4,.cb),(5,.comment)],0,2⟩,⟨13,4398046511104,[],[(3,.setEnt .internalNl),(4,.cb)],0,2⟩],[⟨6,8192,[],[(3,.setEnt .internalNl),(4,.cb)],0,2⟩,⟨8,1024,[],[(3,.setEnt .internalNl),(4,.cb)],0,2⟩,⟨9,4096,[],[(3,.setEnt .internalNl),(4,.cb)],0,2⟩,⟨10,8192,[.crAlone],[(3,.setEnt .internalNl),(4,.cb)],0,2⟩,⟨11,4294967808,[],[(3,.setEnt .internalNl),(4,.cb)],0,2⟩,⟨12,115792089237316195423570985008687907853269984665640564039457584007908834658815,[],[(3,.setEnt .internalNl),(4,.cb),(5,.comment)],0,2⟩,⟨13,4398046511104,[],[(3,.setEnt .internalNl),(4,.cb)],0,2⟩],[⟨6,8192,[],[(3,.setEnt .internalNl),(4,.cb)],0,2⟩,⟨8,1024,[],[(3,.setEnt .internalNl),(4,.cb)],0,2⟩,⟨9,4096,[],[(3,.setEnt .internalNl),(4,.cb)],0,2⟩,⟨10,8192,[.crAlone],[(3,.setEnt .internalNl),(4,.cb)],0,2⟩,⟨11,4294967808,[],[(3,.setEnt .internalNl),(4,.cb)],0,2⟩,⟨12,115792089237316195423570985008687907853269984665640564039457584007908834658815,[],[(3,.setEnt .internalNl),(4,.cb),(5,.comment)],0,2⟩,⟨13,4398046511104,[],[(3,.setEnt .internalNl),(4,.cb)],0,2⟩],[⟨6,8192,[],[(3,.setEnt .internalNl),(4,.cb)],0,2⟩,⟨8,1024,[],[(3,.setEnt .internalNl),(4,.cb)],0,2⟩,⟨9,4096,[],[(3,.setEnt .internalNl),(4,.cb)],0,2⟩,⟨10,8192,[.crAlone],[(3,.setEnt .internalNl),(4,.cb)],0,2⟩,⟨11,4294967808,[],[(3,.setEnt .internalNl),(4,.cb)],0,2⟩,⟨12,115792089237316195423570985008687907853269984665640564039457584007908834658815,[],[(3,.setEnt .internalNl),(4,.cb),(5,.comment)],0,2⟩,⟨13,4398046511104,[],[(3,.setEnt .internalNl),(4,.cb)],0,2⟩],[⟨6,8192,[],[],0,2⟩,⟨8,1024,[],[],0,2⟩,⟨9,4096,[],[],0,2⟩,⟨10,8192,[.crAlone],[],0,2⟩,⟨11,4294967808,[],[],0,2⟩,⟨12,115792089237316195423570985008687907853269984665640564039457584007908834658815,[],[(5,.comment)],0,2⟩,⟨13,4398046511104,[],[],0,2⟩],[⟨6,8192,[],[],0,2⟩,⟨8,1024,[],[],0,2⟩,⟨9,4096,[],[],0,2⟩,⟨10,8192,[.crAlone],[],0,2⟩,⟨11,4294967808,[],[],0,2⟩,⟨12,115792089237316195423570985008687907853269984665640564039457584007908834658815,[],[(5,.comment)],0,2⟩,⟨13,4398046511104,[],[],0,2⟩],[⟨14,140737488355328,[],[],2,0⟩],[],[⟨16,115792089237316195423570985008687907853269984665635612279300442486263777315839,[],[],0,0⟩,⟨17,4951760157141521099596496896,[],[],0,0⟩,⟨19,549755813888,[],[],0,0⟩],[⟨16,115792089237316195423570985008687907853269984665635612279300442486263777315839,[],[],0,0⟩,⟨17,4951760157141521099596496896,[],[],0,0⟩,⟨19,549755813888,[],[],0,0⟩],[⟨18,115792089237316195423570985008687907853269984665640564039457584007913129626623,[],[],0,0⟩],[⟨16,115792089237316195423570985008687907853269984665635612279300442486263777315839,[],[],0,0⟩,⟨17,4951760157141521099596496896,[],[],0,0⟩,⟨19,549755813888,[],[],0,0⟩],[],[⟨21,115792089237316195423570985008687907853269984665635612279300442486796353260543,[],[],0,0⟩,⟨22,4951760157141521099596496896,[],[],0,0⟩,⟨24,17179869184,[],[],0,0⟩],[⟨21,115792089237316195423570985008687907853269984665635612279300442486796353260543,[],[],0,0⟩,⟨22,4951760157141521099596496896,[],[],0,0⟩,⟨24,17179869184,[],[],0,0⟩],[⟨23,115792089237316195423570985008687907853269984665640564039457584007913129626623,[],[],0,0⟩],[⟨21,115792089237316195423570985008687907853269984665635612279300442486796353260543,[],[],0,0⟩,⟨22,4951760157141521099596496896,[],[],0,0⟩,⟨24,17179869184,[],[],0,0⟩],[],[⟨26,1024,[],[(8,.setEnt .newline)],0,0⟩],[],[],[],[],[]],[some (0,[]),none,some (1,[]),some (1,[]),none,none,none,none,none,none,none,none,none,none,some (1,[]),none,none,none,none,some (2,[]),none,none,none,none,some (2,[]),none,some (3,[]),some (3,[]),some (3,[]),some (3,[]),some (4,[])],[1,6,8,9,10]⟩
theorem pike_line_nfa_eq : Pike.pike_line.nfa = pike_line_nfa := by decide +kernel
/-- The machine of `Pike.pike_line`, with its automaton as a literal. -/
def pike_line_M : Machine := ⟨pike_line_nfa, Pike.pike_line.ends, Pike.pike_line.sw⟩
theorem pike_line_M_eq : Pike.pike_line.machine = pike_line_M := by
  unfold Scanner.machine pike_line_M; rw [pike_line_nfa_eq]
def pike_line_masks : List Nat := [4294967808,140737488355328,549755813888,17179869184,8192,1024,4096,115792089237316195423570985008687907853269984665640564039457584007908834656767,115792089237316195423570985008687907853269984665640564039457584007913129626623,4398046511104,115792089237316195423570985008687907853269984665640564039457584007908834658815,115792089237316195423570985008687907853269984665635612279300442486263777315839,4951760157141521099596496896,115792089237316195423570985008687907853269984665635612279300442486796353260543]
def pike_line_cs : List (Nat × Nat) := [(0,115792089237316195423570985008687907853269984665635612279300442341106767610367),(9,4294967808),(10,1024),(11,2048),(12,4096),(13,8192),(34,17179869184),(39,549755813888),(42,4398046511104),(47,140737488355328),(92,4951760157141521099596496896)]
theorem pike_line_masksIn : masksIn pike_line_nfa pike_line_masks = true := by decide +kernel
theorem pike_line_repOk : repOk pike_line_masks pike_line_cs = true := by decide +kernel
def pike_line_rows : List Row := [⟨[],none,[],[⟨256,.other,false,some ⟨0,[.setEnt (.own 3)],some 4,true⟩⟩,⟨256,.ws,false,some ⟨1,[.setEnt (.own 0)],some 0,false⟩⟩,⟨256,.lf,false,some ⟨0,[.setEnt .newline],some 3,true⟩⟩,⟨256,.vt,false,none⟩,⟨256,.ff,false,some ⟨0,[.setEnt .newline],some 3,true⟩⟩,⟨256,.cr,false,some ⟨2,[.setEnt .newline],none,false⟩⟩,⟨256,.cr,true,some ⟨3,[.setEnt .newline],some 3,false⟩⟩,⟨256,.other,false,some ⟨4,[.code,.setEnt (.own 3)],some 4,false⟩⟩,⟨256,.other,false,some ⟨5,[.code,.setEnt (.own 3)],some 4,false⟩⟩,⟨256,.other,false,some ⟨6,[.setEnt (.own 3)],some 4,false⟩⟩]⟩,⟨[0],some 0,[],[⟨256,.other,false,none⟩,⟨256,.ws,false,some ⟨1,[.setEnt (.own 0)],some 0,false⟩⟩,⟨256,.lf,false,none⟩,⟨256,.vt,false,none⟩,⟨256,.ff,false,none⟩,⟨256,.cr,false,none⟩,⟨256,.cr,true,none⟩]⟩,⟨[25],none,[],[⟨256,.other,false,none⟩,⟨256,.ws,false,none⟩,⟨256,.lf,false,some ⟨0,[.setEnt .newline],some 3,true⟩⟩,⟨256,.vt,false,none⟩,⟨256,.ff,false,none⟩,⟨256,.cr,false,none⟩,⟨256,.cr,true,none⟩]⟩,⟨[25,29],some 3,[],[⟨256,.other,false,none⟩,⟨256,.ws,false,none⟩,⟨256,.lf,false,some ⟨0,[.setEnt .newline],some 3,true⟩⟩,⟨256,.vt,false,none⟩,⟨256,.ff,false,none⟩,⟨256,.cr,false,none⟩,⟨256,.cr,true,none⟩]⟩,⟨[20,30],some 4,[],[⟨256,.other,false,some ⟨7,[],none,false⟩⟩,⟨256,.ws,false,some ⟨7,[],none,false⟩⟩,⟨256,.lf,false,none⟩,⟨256,.vt,false,some ⟨7,[],none,false⟩⟩,⟨256,.ff,false,none⟩,⟨256,.cr,false,none⟩,⟨256,.cr,true,none⟩,⟨256,.other,false,some ⟨0,[],some 2,true⟩⟩,⟨256,.other,false,some ⟨8,[],none,false⟩⟩]⟩,⟨[15,30],some 4,[],[⟨256,.other,false,some ⟨9,[],none,false⟩⟩,⟨256,.ws,false,some ⟨9,[],none,false⟩⟩,⟨256,.lf,false,none⟩,⟨256,.vt,false,some ⟨9,[],none,false⟩⟩,⟨256,.ff,false,none⟩,⟨256,.cr,false,none⟩,⟨256,.cr,true,none⟩,⟨256,.other,false,some ⟨0,[],some 2,true⟩⟩,⟨256,.other,false,some ⟨10,[],none,false⟩⟩]⟩,⟨[1,4,30],some 4,[],[⟨256,.other,false,none⟩,⟨256,.ws,false,none⟩,⟨256,.lf,false,none⟩,⟨256,.vt,false,none⟩,⟨256,.ff,false,none⟩,⟨256,.cr,false,none⟩,⟨256,.cr,true,none⟩,⟨256,.other,false,some ⟨11,[.comment],none,false⟩⟩,⟨256,.other,false,some ⟨12,[.comment],some 1,false⟩⟩]⟩,⟨[21],none,[],[⟨256,.other,false,some ⟨7,[],none,false⟩⟩,⟨256,.ws,false,some ⟨7,[],none,false⟩⟩,⟨256,.lf,false,none⟩,⟨256,.vt,false,some ⟨7,[],none,false⟩⟩,⟨256,.ff,false,none⟩,⟨256,.cr,false,none⟩,⟨256,.cr,true,none⟩,⟨256,.other,false,some ⟨0,[],some 2,true⟩⟩,⟨256,.other,false,some ⟨8,[],none,false⟩⟩]⟩,⟨[22],none,[],[⟨256,.other,false,some ⟨13,[],none,false⟩⟩,⟨256,.ws,false,some ⟨13,[],none,false⟩⟩,⟨256,.lf,false,none⟩,⟨256,.vt,false,some ⟨13,[],none,false⟩⟩,⟨256,.ff,false,none⟩,⟨256,.cr,false,none⟩,⟨256,.cr,true,none⟩]⟩,⟨[16],none,[],[⟨256,.other,false,some ⟨9,[],none,false⟩⟩,⟨256,.ws,false,some ⟨9,[],none,false⟩⟩,⟨256,.lf,false,none⟩,⟨256,.vt,false,some ⟨9,[],none,false⟩⟩,⟨256,.ff,false,none⟩,⟨256,.cr,false,none⟩,⟨256,.cr,true,none⟩,⟨256,.other,false,some ⟨0,[],some 2,true⟩⟩,⟨256,.other,false,some ⟨10,[],none,false⟩⟩]⟩,⟨[17],none,[],[⟨256,.other,false,some ⟨14,[],none,false⟩⟩,⟨256,.ws,false,some ⟨14,[],none,false⟩⟩,⟨256,.lf,false,none⟩,⟨256,.vt,false,some ⟨14,[],none,false⟩⟩,⟨256,.ff,false,none⟩,⟨256,.cr,false,none⟩,⟨256,.cr,true,none⟩]⟩,⟨[5],none,[],[⟨256,.other,false,some ⟨15,[.comment],none,false⟩⟩,⟨256,.ws,false,some ⟨16,[],none,false⟩⟩,⟨256,.lf,false,some ⟨17,[],none,false⟩⟩,⟨256,.vt,false,some ⟨15,[.comment],none,false⟩⟩,⟨256,.ff,false,some ⟨18,[],none,false⟩⟩,⟨256,.cr,false,some ⟨19,[],none,false⟩⟩,⟨256,.cr,true,some ⟨20,[],none,false⟩⟩,⟨256,.other,false,some ⟨21,[.comment],none,false⟩⟩]⟩,⟨[2],some 1,[],[⟨256,.other,false,some ⟨22,[],some 1,false⟩⟩,⟨256,.ws,false,some ⟨22,[],some 1,false⟩⟩,⟨256,.lf,false,none⟩,⟨256,.vt,false,some ⟨22,[],some 1,false⟩⟩,⟨256,.ff,false,none⟩,⟨256,.cr,false,none⟩,⟨256,.cr,true,none⟩]⟩,⟨[23],none,[],[⟨256,.other,false,some ⟨7,[],none,false⟩⟩,⟨256,.ws,false,some ⟨7,[],none,false⟩⟩,⟨256,.lf,false,none⟩,⟨256,.vt,false,some ⟨7,[],none,false⟩⟩,⟨256,.ff,false,none⟩,⟨256,.cr,false,none⟩,⟨256,.cr,true,none⟩,⟨256,.other,false,some ⟨0,[],some 2,true⟩⟩,⟨256,.other,false,some ⟨8,[],none,false⟩⟩]⟩,⟨[18],none,[],[⟨256,.other,false,some ⟨9,[],none,false⟩⟩,⟨256,.ws,false,some ⟨9,[],none,false⟩⟩,⟨256,.lf,false,none⟩,⟨256,.vt,false,some ⟨9,[],none,false⟩⟩,⟨256,.ff,false,none⟩,⟨256,.cr,false,none⟩,⟨256,.cr,true,none⟩,⟨256,.other,false,some ⟨0,[],some 2,true⟩⟩,⟨256,.other,false,some ⟨10,[],none,false⟩⟩]⟩,⟨[12],none,[],[⟨256,.other,false,some ⟨15,[.comment],none,false⟩⟩,⟨256,.ws,false,some ⟨16,[],none,false⟩⟩,⟨256,.lf,false,some ⟨17,[],none,false⟩⟩,⟨256,.vt,false,some ⟨15,[.comment],none,false⟩⟩,⟨256,.ff,false,some ⟨18,[],none,false⟩⟩,⟨256,.cr,false,some ⟨19,[],none,false⟩⟩,⟨256,.cr,true,some ⟨20,[],none,false⟩⟩,⟨256,.other,false,some ⟨21,[.comment],none,false⟩⟩]⟩,⟨[11],none,[],[⟨256,.other,false,some ⟨15,[.comment],none,false⟩⟩,⟨256,.ws,false,some ⟨16,[],none,false⟩⟩,⟨256,.lf,false,some ⟨17,[],none,false⟩⟩,⟨256,.vt,false,some ⟨15,[.comment],none,false⟩⟩,⟨256,.ff,false,some ⟨18,[],none,false⟩⟩,⟨256,.cr,false,some ⟨19,[],none,false⟩⟩,⟨256,.cr,true,some ⟨20,[],none,false⟩⟩,⟨256,.other,false,some ⟨21,[.comment],none,false⟩⟩]⟩,⟨[8],none,[],[⟨256,.other,false,some ⟨15,[.setEnt .internalNl,.cb,.comment],none,false⟩⟩,⟨256,.ws,false,some ⟨16,[.setEnt .internalNl,.cb],none,false⟩⟩,⟨256,.lf,false,some ⟨17,[.setEnt .internalNl,.cb],none,false⟩⟩,⟨256,.vt,false,some ⟨15,[.setEnt .internalNl,.cb,.comment],none,false⟩⟩,⟨256,.ff,false,some ⟨18,[.setEnt .internalNl,.cb],none,false⟩⟩,⟨256,.cr,false,some ⟨19,[.setEnt .internalNl,.cb],none,false⟩⟩,⟨256,.cr,true,some ⟨20,[.setEnt .internalNl,.cb],none,false⟩⟩,⟨256,.other,false,some ⟨21,[.setEnt .internalNl,.cb,.comment],none,false⟩⟩]⟩,⟨[9],none,[],[⟨256,.other,false,some ⟨15,[.setEnt .internalNl,.cb,.comment],none,false⟩⟩,⟨256,.ws,false,some ⟨16,[.setEnt .internalNl,.cb],none,false⟩⟩,⟨256,.lf,false,some ⟨17,[.setEnt .internalNl,.cb],none,false⟩⟩,⟨256,.vt,false,some ⟨15,[.setEnt .internalNl,.cb,.comment],none,false⟩⟩,⟨256,.ff,false,some ⟨18,[.setEnt .internalNl,.cb],none,false⟩⟩,⟨256,.cr,false,some ⟨19,[.setEnt .internalNl,.cb],none,false⟩⟩,⟨256,.cr,true,some ⟨20,[.setEnt .internalNl,.cb],none,false⟩⟩,⟨256,.other,false,some ⟨21,[.setEnt .internalNl,.cb,.comment],none,false⟩⟩]⟩,⟨[6],none,[],[⟨256,.other,false,none⟩,⟨256,.ws,false,none⟩,⟨256,.lf,false,some ⟨23,[],none,false⟩⟩,⟨256,.vt,false,none⟩,⟨256,.ff,false,none⟩,⟨256,.cr,false,none⟩,⟨256,.cr,true,none⟩]⟩,⟨[6,10],none,[],[⟨256,.other,false,some ⟨15,[.setEnt .internalNl,.cb,.comment],none,false⟩⟩,⟨256,.ws,false,some ⟨16,[.setEnt .internalNl,.cb],none,false⟩⟩,⟨256,.lf,false,some ⟨24,[.setEnt .internalNl,.cb],none,false⟩⟩,⟨256,.vt,false,some ⟨15,[.setEnt .internalNl,.cb,.comment],none,false⟩⟩,⟨256,.ff,false,some ⟨18,[.setEnt .internalNl,.cb],none,false⟩⟩,⟨256,.cr,false,some ⟨19,[.setEnt .internalNl,.cb],none,false⟩⟩,⟨256,.cr,true,some ⟨20,[.setEnt .internalNl,.cb],none,false⟩⟩,⟨256,.other,false,some ⟨21,[.setEnt .internalNl,.cb,.comment],none,false⟩⟩]⟩,⟨[12,13],none,[],[⟨256,.other,false,some ⟨15,[.comment],none,false⟩⟩,⟨256,.ws,false,some ⟨16,[],none,false⟩⟩,⟨256,.lf,false,some ⟨17,[],none,false⟩⟩,⟨256,.vt,false,some ⟨15,[.comment],none,false⟩⟩,⟨256,.ff,false,some ⟨18,[],none,false⟩⟩,⟨256,.cr,false,some ⟨19,[],none,false⟩⟩,⟨256,.cr,true,some ⟨20,[],none,false⟩⟩,⟨256,.other,false,some ⟨21,[.comment],none,false⟩⟩,⟨256,.other,false,some ⟨0,[],some 1,true⟩⟩]⟩,⟨[3],some 1,[],[⟨256,.other,false,some ⟨22,[],some 1,false⟩⟩,⟨256,.ws,false,some ⟨22,[],some 1,false⟩⟩,⟨256,.lf,false,none⟩,⟨256,.vt,false,some ⟨22,[],some 1,false⟩⟩,⟨256,.ff,false,none⟩,⟨256,.cr,false,none⟩,⟨256,.cr,true,none⟩]⟩,⟨[7],none,[],[⟨256,.other,false,some ⟨15,[.setEnt .internalNl,.cb,.comment],none,false⟩⟩,⟨256,.ws,false,some ⟨16,[.setEnt .internalNl,.cb],none,false⟩⟩,⟨256,.lf,false,some ⟨17,[.setEnt .internalNl,.cb],none,false⟩⟩,⟨256,.vt,false,some ⟨15,[.setEnt .internalNl,.cb,.comment],none,false⟩⟩,⟨256,.ff,false,some ⟨18,[.setEnt .internalNl,.cb],none,false⟩⟩,⟨256,.cr,false,some ⟨19,[.setEnt .internalNl,.cb],none,false⟩⟩,⟨256,.cr,true,some ⟨20,[.setEnt .internalNl,.cb],none,false⟩⟩,⟨256,.other,false,some ⟨21,[.setEnt .internalNl,.cb,.comment],none,false⟩⟩]⟩,⟨[7,8],none,[],[⟨256,.other,false,some ⟨15,[.setEnt .internalNl,.cb,.comment],none,false⟩⟩,⟨256,.ws,false,some ⟨16,[.setEnt .internalNl,.cb],none,false⟩⟩,⟨256,.lf,false,some ⟨17,[.setEnt .internalNl,.cb],none,false⟩⟩,⟨256,.vt,false,some ⟨15,[.setEnt .internalNl,.cb,.comment],none,false⟩⟩,⟨256,.ff,false,some ⟨18,[.setEnt .internalNl,.cb],none,false⟩⟩,⟨256,.cr,false,some ⟨19,[.setEnt .internalNl,.cb],none,false⟩⟩,⟨256,.cr,true,some ⟨20,[.setEnt .internalNl,.cb],none,false⟩⟩,⟨256,.other,false,some ⟨21,[.setEnt .internalNl,.cb,.comment],none,false⟩⟩]⟩]
theorem pike_line_rowsOk : rowsOk pike_line_nfa [] (pike_line_cs.map (·.1)) pike_line_rows = true := by decide +kernel
def pike_line_D : Dfa pike_line_M.nfa := ⟨pike_line_masks, [], pike_line_cs, pike_line_rows, pike_line_masksIn, pike_line_repOk, pike_line_rowsOk⟩

def r_line_nfa : Nfa := ⟨[⟨0,4294967808,[],[(0,.setEnt (.own 0))],0,0⟩,⟨1,34359738368,[],[(1,.comment)],0,0⟩,⟨3,549755813888,[],[(2,.code)],0,0⟩,⟨8,17179869184,[],[(3,.code)],0,0⟩,⟨13,8192,[],[(4,.setEnt .newline)],0,0⟩,⟨15,1024,[],[(4,.setEnt .newline)],0,0⟩,⟨16,4096,[],[(4,.setEnt .newline)],0,0⟩,⟨17,8192,[.crAlone],[(4,.setEnt .newline)],0,0⟩,⟨18,115792089237316195423570985008687907853269984665640564039457584007908834656767,[],[(5,.setEnt (.own 3))],0,0⟩],[[⟨0,4294967808,[],[(0,.setEnt (.own 0))],0,0⟩],[⟨2,115792089237316195423570985008687907853269984665640564039457584007913129626623,[],[],0,0⟩],[⟨2,115792089237316195423570985008687907853269984665640564039457584007913129626623,[],[],0,0⟩],[⟨4,115792089237316195423570985008687907853269984665635612279300442486263777315839,[],[],0,0⟩,⟨5,4951760157141521099596496896,[],[],0,0⟩,⟨7,549755813888,[],[],0,0⟩],[⟨4,115792089237316195423570985008687907853269984665635612279300442486263777315839,[],[],0,0⟩,⟨5,4951760157141521099596496896,[],[],0,0⟩,⟨7,549755813888,[],[],0,0⟩],[⟨6,115792089237316195423570985008687907853269984665640564039457584007913129626623,[],[],0,0⟩],[⟨4,115792089237316195423570985008687907853269984665635612279300442486263777315839,[],[],0,0⟩,⟨5,4951760157141521099596496896,[],[],0,0⟩,⟨7,549755813888,[],[],0,0⟩],[],[⟨9,115792089237316195423570985008687907853269984665635612279300442486796353260543,[],[],0,0⟩,⟨10,4951760157141521099596496896,[],[],0,0⟩,⟨12,17179869184,[],[],0,0⟩],[⟨9,115792089237316195423570985008687907853269984665635612279300442486796353260543,[],[],0,0⟩,⟨10,4951760157141521099596496896,[],[],0,0⟩,⟨12,17179869184,[],[],0,0⟩],[⟨11,115792089237316195423570985008687907853269984665640564039457584007913129626623,[],[],0,0⟩],[⟨9,115792089237316195423570985008687907853269984665635612279300442486796353260543,[],[],0,0⟩,⟨10,4951760157141521099596496896,[],[],0,0⟩,⟨12,17179869184,[],[],0,0⟩],[],[⟨14,1024,[],[(4,.setEnt .newline)],0,0⟩],[],[],[],[],[]],[some (0,[]),some (1,[]),some (1,[]),none,none,none,none,some (2,[]),none,none,none,none,some (2,[]),none,some (3,[]),some (3,[]),some (3,[]),some (3,[]),some (4,[])],[1,2,4,5,6]⟩
theorem r_line_nfa_eq : R.r_line.nfa = r_line_nfa := by decide +kernel
/-- The machine of `R.r_line`, with its automaton as a literal. -/
def r_line_M : Machine := ⟨r_line_nfa, R.r_line.ends, R.r_line.sw⟩
theorem r_line_M_eq : R.r_line.machine = r_line_M := by
  unfold Scanner.machine r_line_M; rw [r_line_nfa_eq]
def r_line_masks : List Nat := [4294967808,34359738368,549755813888,17179869184,8192,1024,4096,115792089237316195423570985008687907853269984665640564039457584007908834656767,115792089237316195423570985008687907853269984665640564039457584007913129626623,115792089237316195423570985008687907853269984665635612279300442486263777315839,4951760157141521099596496896,115792089237316195423570985008687907853269984665635612279300442486796353260543]
def r_line_cs : List (Nat × Nat) := [(0,115792089237316195423570985008687907853269984665635612279300442486207942738431),(9,4294967808),(10,1024),(11,2048),(12,4096),(13,8192),(34,17179869184),(35,34359738368),(39,549755813888),(92,4951760157141521099596496896)]
theorem r_line_masksIn : masksIn r_line_nfa r_line_masks = true := by decide +kernel
theorem r_line_repOk : repOk r_line_masks r_line_cs = true := by decide +kernel
def r_line_rows : List Row := [⟨[],none,[],[⟨256,.other,false,some ⟨0,[.setEnt (.own 3)],some 4,true⟩⟩,⟨256,.ws,false,some ⟨1,[.setEnt (.own 0)],some 0,false⟩⟩,⟨256,.lf,false,some ⟨0,[.setEnt .newline],some 3,true⟩⟩,⟨256,.vt,false,none⟩,⟨256,.ff,false,some ⟨0,[.setEnt .newline],some 3,true⟩⟩,⟨256,.cr,false,some ⟨2,[.setEnt .newline],none,false⟩⟩,⟨256,.cr,true,some ⟨3,[.setEnt .newline],some 3,false⟩⟩,⟨256,.other,false,some ⟨4,[.code,.setEnt (.own 3)],some 4,false⟩⟩,⟨256,.other,false,some ⟨5,[.comment,.setEnt (.own 3)],some 1,false⟩⟩,⟨256,.other,false,some ⟨6,[.code,.setEnt (.own 3)],some 4,false⟩⟩]⟩,⟨[0],some 0,[],[⟨256,.other,false,none⟩,⟨256,.ws,false,some ⟨1,[.setEnt (.own 0)],some 0,false⟩⟩,⟨256,.lf,false,none⟩,⟨256,.vt,false,none⟩,⟨256,.ff,false,none⟩,⟨256,.cr,false,none⟩,⟨256,.cr,true,none⟩]⟩,⟨[13],none,[],[⟨256,.other,false,none⟩,⟨256,.ws,false,none⟩,⟨256,.lf,false,some ⟨0,[.setEnt .newline],some 3,true⟩⟩,⟨256,.vt,false,none⟩,⟨256,.ff,false,none⟩,⟨256,.cr,false,none⟩,⟨256,.cr,true,none⟩]⟩,⟨[13,17],some 3,[],[⟨256,.other,false,none⟩,⟨256,.ws,false,none⟩,⟨256,.lf,false,some ⟨0,[.setEnt .newline],some 3,true⟩⟩,⟨256,.vt,false,none⟩,⟨256,.ff,false,none⟩,⟨256,.cr,false,none⟩,⟨256,.cr,true,none⟩]⟩,⟨[8,18],some 4,[],[⟨256,.other,false,some ⟨7,[],none,false⟩⟩,⟨256,.ws,false,some ⟨7,[],none,false⟩⟩,⟨256,.lf,false,none⟩,⟨256,.vt,false,some ⟨7,[],none,false⟩⟩,⟨256,.ff,false,none⟩,⟨256,.cr,false,none⟩,⟨256,.cr,true,none⟩,⟨256,.other,false,some ⟨0,[],some 2,true⟩⟩,⟨256,.other,false,some ⟨8,[],none,false⟩⟩]⟩,⟨[1,18],some 1,[],[⟨256,.other,false,some ⟨9,[],some 1,false⟩⟩,⟨256,.ws,false,some ⟨9,[],some 1,false⟩⟩,⟨256,.lf,false,none⟩,⟨256,.vt,false,some ⟨9,[],some 1,false⟩⟩,⟨256,.ff,false,none⟩,⟨256,.cr,false,none⟩,⟨256,.cr,true,none⟩]⟩,⟨[3,18],some 4,[],[⟨256,.other,false,some ⟨10,[],none,false⟩⟩,⟨256,.ws,false,some ⟨10,[],none,false⟩⟩,⟨256,.lf,false,none⟩,⟨256,.vt,false,some ⟨10,[],none,false⟩⟩,⟨256,.ff,false,none⟩,⟨256,.cr,false,none⟩,⟨256,.cr,true,none⟩,⟨256,.other,false,some ⟨0,[],some 2,true⟩⟩,⟨256,.other,false,some ⟨11,[],none,false⟩⟩]⟩,⟨[9],none,[],[⟨256,.other,false,some ⟨7,[],none,false⟩⟩,⟨256,.ws,false,some ⟨7,[],none,false⟩⟩,⟨256,.lf,false,none⟩,⟨256,.vt,false,some ⟨7,[],none,false⟩⟩,⟨256,.ff,false,none⟩,⟨256,.cr,false,none⟩,⟨256,.cr,true,none⟩,⟨256,.other,false,some ⟨0,[],some 2,true⟩⟩,⟨256,.other,false,some ⟨8,[],none,false⟩⟩]⟩,⟨[10],none,[],[⟨256,.other,false,some ⟨12,[],none,false⟩⟩,⟨256,.ws,false,some ⟨12,[],none,false⟩⟩,⟨256,.lf,false,none⟩,⟨256,.vt,false,some ⟨12,[],none,false⟩⟩,⟨256,.ff,false,none⟩,⟨256,.cr,false,none⟩,⟨256,.cr,true,none⟩]⟩,⟨[2],some 1,[],[⟨256,.other,false,some ⟨9,[],some 1,false⟩⟩,⟨256,.ws,false,some ⟨9,[],some 1,false⟩⟩,⟨256,.lf,false,none⟩,⟨256,.vt,false,some ⟨9,[],some 1,false⟩⟩,⟨256,.ff,false,none⟩,⟨256,.cr,false,none⟩,⟨256,.cr,true,none⟩]⟩,⟨[4],none,[],[⟨256,.other,false,some ⟨10,[],none,false⟩⟩,⟨256,.ws,false,some ⟨10,[],none,false⟩⟩,⟨256,.lf,false,none⟩,⟨256,.vt,false,some ⟨10,[],none,false⟩⟩,⟨256,.ff,false,none⟩,⟨256,.cr,false,none⟩,⟨256,.cr,true,none⟩,⟨256,.other,false,some ⟨0,[],some 2,true⟩⟩,⟨256,.other,false,some ⟨11,[],none,false⟩⟩]⟩,⟨[5],none,[],[⟨256,.other,false,some ⟨13,[],none,false⟩⟩,⟨256,.ws,false,some ⟨13,[],none,false⟩⟩,⟨256,.lf,false,none⟩,⟨256,.vt,false,some ⟨13,[],none,false⟩⟩,⟨256,.ff,false,none⟩,⟨256,.cr,false,none⟩,⟨256,.cr,true,none⟩]⟩,⟨[11],none,[],[⟨256,.other,false,some ⟨7,[],none,false⟩⟩,⟨256,.ws,false,some ⟨7,[],none,false⟩⟩,⟨256,.lf,false,none⟩,⟨256,.vt,false,some ⟨7,[],none,false⟩⟩,⟨256,.ff,false,none⟩,⟨256,.cr,false,none⟩,⟨256,.cr,true,none⟩,⟨256,.other,false,some ⟨0,[],some 2,true⟩⟩,⟨256,.other,false,some ⟨8,[],none,false⟩⟩]⟩,⟨[6],none,[],[⟨256,.other,false,some ⟨10,[],none,false⟩⟩,⟨256,.ws,false,some ⟨10,[],none,false⟩⟩,⟨256,.lf,false,none⟩,⟨256,.vt,false,some ⟨10,[],none,false⟩⟩,⟨256,.ff,false,none⟩,⟨256,.cr,false,none⟩,⟨256,.cr,true,none⟩,⟨256,.other,false,some ⟨0,[],some 2,true⟩⟩,⟨256,.other,false,some ⟨11,[],none,false⟩⟩]⟩]
theorem r_line_rowsOk : rowsOk r_line_nfa [] (r_line_cs.map (·.1)) r_line_rows = true := by decide +kernel
def r_line_D : Dfa r_line_M.nfa := ⟨r_line_masks, [], r_line_cs, r_line_rows, r_line_masksIn, r_line_repOk, r_line_rowsOk⟩

end Ohcount.Cert
