import Verif.Gram.All
import Verif.RagelCheck

/-! Generated by tools/gen_certs.py. -/

namespace Ohcount.Cert
open Ohcount.Ragel Ohcount.Gram

set_option maxRecDepth 100000

def bat_line_nfa : Nfa := ⟨[⟨0,4294967808,[],[(0,.setEnt (.own 0))],0,0⟩,⟨1,20769187438975013792580502015705088,[],[],0,0⟩,⟨4,18446744073709551616,[],[],0,0⟩,⟨8,288230376151711744,[],[],0,0⟩,⟨11,8192,[],[(2,.setEnt .newline)],0,0⟩,⟨13,1024,[],[(2,.setEnt .newline)],0,0⟩,⟨14,4096,[],[(2,.setEnt .newline)],0,0⟩,⟨15,8192,[.crAlone],[(2,.setEnt .newline)],0,0⟩,⟨16,115792089237316195423570985008687907853269984665640564039457584007908834656767,[],[(3,.setEnt (.own 3))],0,0⟩],[[⟨0,4294967808,[],[(0,.setEnt (.own 0))],0,0⟩],[⟨2,2535301201046754613352112062464,[],[],0,0⟩],[⟨3,649037107467969181018140687990784,[],[(1,.comment)],0,0⟩],[⟨10,115792089237316195423570985008687907853269984665640564039457584007913129626623,[],[],0,0⟩],[⟨5,20769187438975013792580502015705088,[],[],0,0⟩],[⟨6,2535301201046754613352112062464,[],[],0,0⟩],[⟨7,649037107467969181018140687990784,[],[(1,.comment)],0,0⟩],[⟨10,115792089237316195423570985008687907853269984665640564039457584007913129626623,[],[],0,0⟩],[⟨9,288230376151711744,[],[(1,.comment)],0,0⟩],[⟨10,115792089237316195423570985008687907853269984665640564039457584007913129626623,[],[],0,0⟩],[⟨10,115792089237316195423570985008687907853269984665640564039457584007913129626623,[],[],0,0⟩],[⟨12,1024,[],[(2,.setEnt .newline)],0,0⟩],[],[],[],[],[]],[some (0,[]),none,none,some (1,[]),none,none,none,some (1,[]),none,some (1,[]),some (1,[]),none,some (2,[]),some (2,[]),some (2,[]),some (2,[]),some (3,[])],[1,2,3,4]⟩
theorem bat_line_nfa_eq : Bat.bat_line.nfa = bat_line_nfa := by decide +kernel
/-- The machine of `Bat.bat_line`, with its automaton as a literal. -/
def bat_line_M : Machine := ⟨bat_line_nfa, Bat.bat_line.ends, Bat.bat_line.sw⟩
theorem bat_line_M_eq : Bat.bat_line.machine = bat_line_M := by
  unfold Scanner.machine bat_line_M; rw [bat_line_nfa_eq]
def bat_line_masks : List Nat := [4294967808,20769187438975013792580502015705088,18446744073709551616,288230376151711744,8192,1024,4096,115792089237316195423570985008687907853269984665640564039457584007908834656767,2535301201046754613352112062464,649037107467969181018140687990784,115792089237316195423570985008687907853269984665640564039457584007913129626623]
def bat_line_cs : List (Nat × Nat) := [(0,115792089237316195423570985008687907853269963244880716395409120821464157635071),(9,4294967808),(10,1024),(11,2048),(12,4096),(13,8192),(58,288230376151711744),(64,18446744073709551616),(69,2535301201046754613352112062464),(77,649037107467969181018140687990784),(82,20769187438975013792580502015705088)]
theorem bat_line_masksIn : masksIn bat_line_nfa bat_line_masks = true := by decide +kernel
theorem bat_line_repOk : repOk bat_line_masks bat_line_cs = true := by decide +kernel
def bat_line_rows : List Row := [⟨[],none,[],[⟨256,.other,false,some ⟨0,[.setEnt (.own 3)],some 3,true⟩⟩,⟨256,.ws,false,some ⟨1,[.setEnt (.own 0)],some 0,false⟩⟩,⟨256,.lf,false,some ⟨0,[.setEnt .newline],some 2,true⟩⟩,⟨256,.vt,false,none⟩,⟨256,.ff,false,some ⟨0,[.setEnt .newline],some 2,true⟩⟩,⟨256,.cr,false,some ⟨2,[.setEnt .newline],none,false⟩⟩,⟨256,.cr,true,some ⟨3,[.setEnt .newline],some 2,false⟩⟩,⟨256,.other,false,some ⟨4,[.setEnt (.own 3)],some 3,false⟩⟩,⟨256,.other,false,some ⟨5,[.setEnt (.own 3)],some 3,false⟩⟩,⟨256,.other,false,some ⟨6,[.setEnt (.own 3)],some 3,false⟩⟩]⟩,⟨[0],some 0,[],[⟨256,.other,false,none⟩,⟨256,.ws,false,some ⟨1,[.setEnt (.own 0)],some 0,false⟩⟩,⟨256,.lf,false,none⟩,⟨256,.vt,false,none⟩,⟨256,.ff,false,none⟩,⟨256,.cr,false,none⟩,⟨256,.cr,true,none⟩]⟩,⟨[11],none,[],[⟨256,.other,false,none⟩,⟨256,.ws,false,none⟩,⟨256,.lf,false,some ⟨0,[.setEnt .newline],some 2,true⟩⟩,⟨256,.vt,false,none⟩,⟨256,.ff,false,none⟩,⟨256,.cr,false,none⟩,⟨256,.cr,true,none⟩]⟩,⟨[11,15],some 2,[],[⟨256,.other,false,none⟩,⟨256,.ws,false,none⟩,⟨256,.lf,false,some ⟨0,[.setEnt .newline],some 2,true⟩⟩,⟨256,.vt,false,none⟩,⟨256,.ff,false,none⟩,⟨256,.cr,false,none⟩,⟨256,.cr,true,none⟩]⟩,⟨[8,16],some 3,[],[⟨256,.other,false,none⟩,⟨256,.ws,false,none⟩,⟨256,.lf,false,none⟩,⟨256,.vt,false,none⟩,⟨256,.ff,false,none⟩,⟨256,.cr,false,none⟩,⟨256,.cr,true,none⟩,⟨256,.other,false,some ⟨7,[.comment],some 1,false⟩⟩]⟩,⟨[4,16],some 3,[],[⟨256,.other,false,none⟩,⟨256,.ws,false,none⟩,⟨256,.lf,false,none⟩,⟨256,.vt,false,none⟩,⟨256,.ff,false,none⟩,⟨256,.cr,false,none⟩,⟨256,.cr,true,none⟩,⟨256,.other,false,some ⟨8,[],none,false⟩⟩]⟩,⟨[1,16],some 3,[],[⟨256,.other,false,none⟩,⟨256,.ws,false,none⟩,⟨256,.lf,false,none⟩,⟨256,.vt,false,none⟩,⟨256,.ff,false,none⟩,⟨256,.cr,false,none⟩,⟨256,.cr,true,none⟩,⟨256,.other,false,some ⟨9,[],none,false⟩⟩]⟩,⟨[9],some 1,[],[⟨256,.other,false,some ⟨10,[],some 1,false⟩⟩,⟨256,.ws,false,some ⟨10,[],some 1,false⟩⟩,⟨256,.lf,false,none⟩,⟨256,.vt,false,some ⟨10,[],some 1,false⟩⟩,⟨256,.ff,false,none⟩,⟨256,.cr,false,none⟩,⟨256,.cr,true,none⟩]⟩,⟨[5],none,[],[⟨256,.other,false,none⟩,⟨256,.ws,false,none⟩,⟨256,.lf,false,none⟩,⟨256,.vt,false,none⟩,⟨256,.ff,false,none⟩,⟨256,.cr,false,none⟩,⟨256,.cr,true,none⟩,⟨256,.other,false,some ⟨11,[],none,false⟩⟩]⟩,⟨[2],none,[],[⟨256,.other,false,none⟩,⟨256,.ws,false,none⟩,⟨256,.lf,false,none⟩,⟨256,.vt,false,none⟩,⟨256,.ff,false,none⟩,⟨256,.cr,false,none⟩,⟨256,.cr,true,none⟩,⟨256,.other,false,some ⟨12,[.comment],some 1,false⟩⟩]⟩,⟨[10],some 1,[],[⟨256,.other,false,some ⟨10,[],some 1,false⟩⟩,⟨256,.ws,false,some ⟨10,[],some 1,false⟩⟩,⟨256,.lf,false,none⟩,⟨256,.vt,false,some ⟨10,[],some 1,false⟩⟩,⟨256,.ff,false,none⟩,⟨256,.cr,false,none⟩,⟨256,.cr,true,none⟩]⟩,⟨[6],none,[],[⟨256,.other,false,none⟩,⟨256,.ws,false,none⟩,⟨256,.lf,false,none⟩,⟨256,.vt,false,none⟩,⟨256,.ff,false,none⟩,⟨256,.cr,false,none⟩,⟨256,.cr,true,none⟩,⟨256,.other,false,some ⟨13,[.comment],some 1,false⟩⟩]⟩,⟨[3],some 1,[],[⟨256,.other,false,some ⟨10,[],some 1,false⟩⟩,⟨256,.ws,false,some ⟨10,[],some 1,false⟩⟩,⟨256,.lf,false,none⟩,⟨256,.vt,false,some ⟨10,[],some 1,false⟩⟩,⟨256,.ff,false,none⟩,⟨256,.cr,false,none⟩,⟨256,.cr,true,none⟩]⟩,⟨[7],some 1,[],[⟨256,.other,false,some ⟨10,[],some 1,false⟩⟩,⟨256,.ws,false,some ⟨10,[],some 1,false⟩⟩,⟨256,.lf,false,none⟩,⟨256,.vt,false,some ⟨10,[],some 1,false⟩⟩,⟨256,.ff,false,none⟩,⟨256,.cr,false,none⟩,⟨256,.cr,true,none⟩]⟩]
theorem bat_line_rowsOk : rowsOk bat_line_nfa [] (bat_line_cs.map (·.1)) bat_line_rows = true := by decide +kernel
def bat_line_D : Dfa bat_line_M.nfa := ⟨bat_line_masks, [], bat_line_cs, bat_line_rows, bat_line_masksIn, bat_line_repOk, bat_line_rowsOk⟩

def exheres_line_nfa : Nfa := ⟨[⟨0,4294967808,[],[(0,.setEnt (.own 0))],0,0⟩,⟨1,34359738368,[],[(1,.comment)],0,0⟩,⟨3,549755813888,[],[(2,.code)],0,0⟩,⟨8,17179869184,[],[(3,.code)],0,0⟩,⟨13,8192,[],[(4,.setEnt .newline)],0,0⟩,⟨15,1024,[],[(4,.setEnt .newline)],0,0⟩,⟨16,4096,[],[(4,.setEnt .newline)],0,0⟩,⟨17,8192,[.crAlone],[(4,.setEnt .newline)],0,0⟩,⟨18,115792089237316195423570985008687907853269984665640564039457584007908834656767,[],[(5,.setEnt (.own 3))],0,0⟩],[[⟨0,4294967808,[],[(0,.setEnt (.own 0))],0,0⟩],[⟨2,115792089237316195423570985008687907853269984665640564039457584007913129626623,[],[],0,0⟩],[⟨2,115792089237316195423570985008687907853269984665640564039457584007913129626623,[],[],0,0⟩],[⟨4,115792089237316195423570985008687907853269984665635612279300442486263777315839,[],[],0,0⟩,⟨5,4951760157141521099596496896,[],[],0,0⟩,⟨7,549755813888,[],[],0,0⟩],[⟨4,115792089237316195423570985008687907853269984665635612279300442486263777315839,[],[],0,0⟩,⟨5,4951760157141521099596496896,[],[],0,0⟩,⟨7,549755813888,[],[],0,0⟩],[⟨6,115792089237316195423570985008687907853269984665640564039457584007913129626623,[],[],0,0⟩],[⟨4,115792089237316195423570985008687907853269984665635612279300442486263777315839,[],[],0,0⟩,⟨5,4951760157141521099596496896,[],[],0,0⟩,⟨7,549755813888,[],[],0,0⟩],[],[⟨9,115792089237316195423570985008687907853269984665635612279300442486796353260543,[],[],0,0⟩,⟨10,4951760157141521099596496896,[],[],0,0⟩,⟨12,17179869184,[],[],0,0⟩],[⟨9,115792089237316195423570985008687907853269984665635612279300442486796353260543,[],[],0,0⟩,⟨10,4951760157141521099596496896,[],[],0,0⟩,⟨12,17179869184,[],[],0,0⟩],[⟨11,115792089237316195423570985008687907853269984665640564039457584007913129626623,[],[],0,0⟩],[⟨9,115792089237316195423570985008687907853269984665635612279300442486796353260543,[],[],0,0⟩,⟨10,4951760157141521099596496896,[],[],0,0⟩,⟨12,17179869184,[],[],0,0⟩],[],[⟨14,1024,[],[(4,.setEnt .newline)],0,0⟩],[],[],[],[],[]],[some (0,[]),some (1,[]),some (1,[]),none,none,none,none,some (2,[]),none,none,none,none,some (2,[]),none,some (3,[]),some (3,[]),some (3,[]),some (3,[]),some (4,[])],[1,2,4,5,6]⟩
theorem exheres_line_nfa_eq : Exheres.exheres_line.nfa = exheres_line_nfa := by decide +kernel
/-- The machine of `Exheres.exheres_line`, with its automaton as a literal. -/
def exheres_line_M : Machine := ⟨exheres_line_nfa, Exheres.exheres_line.ends, Exheres.exheres_line.sw⟩
theorem exheres_line_M_eq : Exheres.exheres_line.machine = exheres_line_M := by
  unfold Scanner.machine exheres_line_M; rw [exheres_line_nfa_eq]
def exheres_line_masks : List Nat := [4294967808,34359738368,549755813888,17179869184,8192,1024,4096,115792089237316195423570985008687907853269984665640564039457584007908834656767,115792089237316195423570985008687907853269984665640564039457584007913129626623,115792089237316195423570985008687907853269984665635612279300442486263777315839,4951760157141521099596496896,115792089237316195423570985008687907853269984665635612279300442486796353260543]
def exheres_line_cs : List (Nat × Nat) := [(0,115792089237316195423570985008687907853269984665635612279300442486207942738431),(9,4294967808),(10,1024),(11,2048),(12,4096),(13,8192),(34,17179869184),(35,34359738368),(39,549755813888),(92,4951760157141521099596496896)]
theorem exheres_line_masksIn : masksIn exheres_line_nfa exheres_line_masks = true := by decide +kernel
theorem exheres_line_repOk : repOk exheres_line_masks exheres_line_cs = true := by decide +kernel
def exheres_line_rows : List Row := [⟨[],none,[],[⟨256,.other,false,some ⟨0,[.setEnt (.own 3)],some 4,true⟩⟩,⟨256,.ws,false,some ⟨1,[.setEnt (.own 0)],some 0,false⟩⟩,⟨256,.lf,false,some ⟨0,[.setEnt .newline],some 3,true⟩⟩,⟨256,.vt,false,none⟩,⟨256,.ff,false,some ⟨0,[.setEnt .newline],some 3,true⟩⟩,⟨256,.cr,false,some ⟨2,[.setEnt .newline],none,false⟩⟩,⟨256,.cr,true,some ⟨3,[.setEnt .newline],some 3,false⟩⟩,⟨256,.other,false,some ⟨4,[.code,.setEnt (.own 3)],some 4,false⟩⟩,⟨256,.other,false,some ⟨5,[.comment,.setEnt (.own 3)],some 1,false⟩⟩,⟨256,.other,false,some ⟨6,[.code,.setEnt (.own 3)],some 4,false⟩⟩]⟩,⟨[0],some 0,[],[⟨256,.other,false,none⟩,⟨256,.ws,false,some ⟨1,[.setEnt (.own 0)],some 0,false⟩⟩,⟨256,.lf,false,none⟩,⟨256,.vt,false,none⟩,⟨256,.ff,false,none⟩,⟨256,.cr,false,none⟩,⟨256,.cr,true,none⟩]⟩,⟨[13],none,[],[⟨256,.other,false,none⟩,⟨256,.ws,false,none⟩,⟨256,.lf,false,some ⟨0,[.setEnt .newline],some 3,true⟩⟩,⟨256,.vt,false,none⟩,⟨256,.ff,false,none⟩,⟨256,.cr,false,none⟩,⟨256,.cr,true,none⟩]⟩,⟨[13,17],some 3,[],[⟨256,.other,false,none⟩,⟨256,.ws,false,none⟩,⟨256,.lf,false,some ⟨0,[.setEnt .newline],some 3,true⟩⟩,⟨256,.vt,false,none⟩,⟨256,.ff,false,none⟩,⟨256,.cr,false,none⟩,⟨256,.cr,true,none⟩]⟩,⟨[8,18],some 4,[],[⟨256,.other,false,some ⟨7,[],none,false⟩⟩,⟨256,.ws,false,some ⟨7,[],none,false⟩⟩,⟨256,.lf,false,none⟩,⟨256,.vt,false,some ⟨7,[],none,false⟩⟩,⟨256,.ff,false,none⟩,⟨256,.cr,false,none⟩,⟨256,.cr,true,none⟩,⟨256,.other,false,some ⟨0,[],some 2,true⟩⟩,⟨256,.other,false,some ⟨8,[],none,false⟩⟩]⟩,⟨[1,18],some 1,[],[⟨256,.other,false,some ⟨9,[],some 1,false⟩⟩,⟨256,.ws,false,some ⟨9,[],some 1,false⟩⟩,⟨256,.lf,false,none⟩,⟨256,.vt,false,some ⟨9,[],some 1,false⟩⟩,⟨256,.ff,false,none⟩,⟨256,.cr,false,none⟩,⟨256,.cr,true,none⟩]⟩,⟨[3,18],some 4,[],[⟨256,.other,false,some ⟨10,[],none,false⟩⟩,⟨256,.ws,false,some ⟨10,[],none,false⟩⟩,⟨256,.lf,false,none⟩,⟨256,.vt,false,some ⟨10,[],none,false⟩⟩,⟨256,.ff,false,none⟩,⟨256,.cr,false,none⟩,⟨256,.cr,true,none⟩,⟨256,.other,false,some ⟨0,[],some 2,true⟩⟩,⟨256,.other,false,some ⟨11,[],none,false⟩⟩]⟩,⟨[9],none,[],[⟨256,.other,false,some ⟨7,[],none,false⟩⟩,⟨256,.ws,false,some ⟨7,[],none,false⟩⟩,⟨256,.lf,false,none⟩,⟨256,.vt,false,some ⟨7,[],none,false⟩⟩,⟨256,.ff,false,none⟩,⟨256,.cr,false,none⟩,⟨256,.cr,true,none⟩,⟨256,.other,false,some ⟨0,[],some 2,true⟩⟩,⟨256,.other,false,some ⟨8,[],none,false⟩⟩]⟩,⟨[10],none,[],[⟨256,.other,false,some ⟨12,[],none,false⟩⟩,⟨256,.ws,false,some ⟨12,[],none,false⟩⟩,⟨256,.lf,false,none⟩,⟨256,.vt,false,some ⟨12,[],none,false⟩⟩,⟨256,.ff,false,none⟩,⟨256,.cr,false,none⟩,⟨256,.cr,true,none⟩]⟩,⟨[2],some 1,[],[⟨256,.other,false,some ⟨9,[],some 1,false⟩⟩,⟨256,.ws,false,some ⟨9,[],some 1,false⟩⟩,⟨256,.lf,false,none⟩,⟨256,.vt,false,some ⟨9,[],some 1,false⟩⟩,⟨256,.ff,false,none⟩,⟨256,.cr,false,none⟩,⟨256,.cr,true,none⟩]⟩,⟨[4],none,[],[⟨256,.other,false,some ⟨10,[],none,false⟩⟩,⟨256,.ws,false,some ⟨10,[],none,false⟩⟩,⟨256,.lf,false,none⟩,⟨256,.vt,false,some ⟨10,[],none,false⟩⟩,⟨256,.ff,false,none⟩,⟨256,.cr,false,none⟩,⟨256,.cr,true,none⟩,⟨256,.other,false,some ⟨0,[],some 2,true⟩⟩,⟨256,.other,false,some ⟨11,[],none,false⟩⟩]⟩,⟨[5],none,[],[⟨256,.other,false,some ⟨13,[],none,false⟩⟩,⟨256,.ws,false,some ⟨13,[],none,false⟩⟩,⟨256,.lf,false,none⟩,⟨256,.vt,false,some ⟨13,[],none,false⟩⟩,⟨256,.ff,false,none⟩,⟨256,.cr,false,none⟩,⟨256,.cr,true,none⟩]⟩,⟨[11],none,[],[⟨256,.other,false,some ⟨7,[],none,false⟩⟩,⟨256,.ws,false,some ⟨7,[],none,false⟩⟩,⟨256,.lf,false,none⟩,⟨256,.vt,false,some ⟨7,[],none,false⟩⟩,⟨256,.ff,false,none⟩,⟨256,.cr,false,none⟩,⟨256,.cr,true,none⟩,⟨256,.other,false,some ⟨0,[],some 2,true⟩⟩,⟨256,.other,false,some ⟨8,[],none,false⟩⟩]⟩,⟨[6],none,[],[⟨256,.other,false,some ⟨10,[],none,false⟩⟩,⟨256,.ws,false,some ⟨10,[],none,false⟩⟩,⟨256,.lf,false,none⟩,⟨256,.vt,false,some ⟨10,[],none,false⟩⟩,⟨256,.ff,false,none⟩,⟨256,.cr,false,none⟩,⟨256,.cr,true,none⟩,⟨256,.other,false,some ⟨0,[],some 2,true⟩⟩,⟨256,.other,false,some ⟨11,[],none,false⟩⟩]⟩]
theorem exheres_line_rowsOk : rowsOk exheres_line_nfa [] (exheres_line_cs.map (·.1)) exheres_line_rows = true := by decide +kernel
def exheres_line_D : Dfa exheres_line_M.nfa := ⟨exheres_line_masks, [], exheres_line_cs, exheres_line_rows, exheres_line_masksIn, exheres_line_repOk, exheres_line_rowsOk⟩

def factor_line_nfa : Nfa := ⟨[⟨0,4294967808,[],[(0,.setEnt (.own 0))],0,0⟩,⟨1,8589934592,[],[(1,.comment)],0,0⟩,⟨3,17179869184,[],[(2,.code)],0,0⟩,⟨14,8192,[],[(7,.setEnt .newline)],0,0⟩,⟨16,1024,[],[(7,.setEnt .newline)],0,0⟩,⟨17,4096,[],[(7,.setEnt .newline)],0,0⟩,⟨18,8192,[.crAlone],[(7,.setEnt .newline)],0,0⟩,⟨19,115792089237316195423570985008687907853269984665640564039457584007908834656767,[],[(8,.setEnt (.own 3))],0,0⟩],[[⟨0,4294967808,[],[(0,.setEnt (.own 0))],0,0⟩],[⟨2,115792089237316195423570985008687907853269984665640564039457584007913129626623,[],[],0,0⟩],[⟨2,115792089237316195423570985008687907853269984665640564039457584007913129626623,[],[],0,0⟩],[⟨4,8192,[],[],0,0⟩,⟨6,1024,[],[],0,0⟩,⟨7,4096,[],[],0,0⟩,⟨8,8192,[.crAlone],[],0,0⟩,⟨9,4294967808,[],[],0,0⟩,⟨10,115792089237316195423570985008687907853269984665635612279300442486792058292735,[],[(5,.code)],0,0⟩,⟨11,4951760157141521099596496896,[],[],0,0⟩,⟨13,17179869184,[],[],0,0⟩],[⟨5,1024,[],[],0,0⟩],[⟨4,8192,[],[(3,.setEnt .internalNl),(4,.cb)],0,0⟩,⟨6,1024,[],[(3,.setEnt .internalNl),(4,.cb)],0,0⟩,⟨7,4096,[],[(3,.setEnt .internalNl),(4,.cb)],0,0⟩,⟨8,8192,[.crAlone],[(3,.setEnt .internalNl),(4,.cb)],0,0⟩,⟨9,4294967808,[],[(3,.setEnt .internalNl),(4,.cb)],0,0⟩,⟨10,115792089237316195423570985008687907853269984665635612279300442486792058292735,[],[(3,.setEnt .internalNl),(4,.cb),(5,.code)],0,0⟩,⟨11,4951760157141521099596496896,[],[(3,.setEnt .internalNl),(4,.cb)],0,0⟩,⟨13,17179869184,[],[(3,.setEnt .internalNl),(4,.cb)],0,0⟩],[⟨4,8192,[],[(3,.setEnt .internalNl),(4,.cb)],0,0⟩,⟨6,1024,[],[(3,.setEnt .internalNl),(4,.cb)],0,0⟩,⟨7,4096,[],[(3,.setEnt .internalNl),(4,.cb)],0,0⟩,⟨8,8192,[.crAlone],[(3,.setEnt .internalNl),(4,.cb)],0,0⟩,⟨9,4294967808,[],[(3,.setEnt .internalNl),(4,.cb)],0,0⟩,⟨10,115792089237316195423570985008687907853269984665635612279300442486792058292735,[],[(3,.setEnt .internalNl),(4,.cb),(5,.code)],0,0⟩,⟨11,4951760157141521099596496896,[],[(3,.setEnt .internalNl),(4,.cb)],0,0⟩,⟨13,17179869184,[],[(3,.setEnt .internalNl),(4,.cb)],0,0⟩],[⟨4,8192,[],[(3,.setEnt .internalNl),(4,.cb)],0,0⟩,⟨6,1024,[],[(3,.setEnt .internalNl),(4,.cb)],0,0⟩,⟨7,4096,[],[(3,.setEnt .internalNl),(4,.cb)],0,0⟩,⟨8,8192,[.crAlone],[(3,.setEnt .internalNl),(4,.cb)],0,0⟩,⟨9,4294967808,[],[(3,.setEnt .internalNl),(4,.cb)],0,0⟩,⟨10,115792089237316195423570985008687907853269984665635612279300442486792058292735,[],[(3,.setEnt .internalNl),(4,.cb),(5,.code)],0,0⟩,⟨11,4951760157141521099596496896,[],[(3,.setEnt .internalNl),(4,.cb)],0,0⟩,⟨13,17179869184,[],[(3,.setEnt .internalNl),(4,.cb)],0,0⟩],[⟨4,8192,[],[(3,.setEnt .internalNl),(4,.cb)],0,0⟩,⟨6,1024,[],[(3,.setEnt .internalNl),(4,.cb)],0,0⟩,⟨7,4096,[],[(3,.setEnt .internalNl),(4,.cb)],0,0⟩,⟨8,8192,[.crAlone],[(3,.setEnt .internalNl),(4,.cb)],0,0⟩,⟨9,4294967808,[],[(3,.setEnt .internalNl),(4,.cb)],0,0⟩,⟨10,115792089237316195423570985008687907853269984665635612279300442486792058292735,[],[(3,.setEnt .internalNl),(4,.cb),(5,.code)],0,0⟩,⟨11,4951760157141521099596496896,[],[(3,.setEnt .internalNl),(4,.cb)],0,0⟩,⟨13,17179869184,[],[(3,.setEnt .internalNl),(4,.cb)],0,0⟩],[⟨4,8192,[],[],0,0⟩,⟨6,1024,[],[],0,0⟩,⟨7,4096,[],[],0,0⟩,⟨8,8192,[.crAlone],[],0,0⟩,⟨9,4294967808,[],[],0,0⟩,⟨10,115792089237316195423570985008687907853269984665635612279300442486792058292735,[],[(5,.code)],0,0⟩,⟨11,4951760157141521099596496896,[],[],0,0⟩,⟨13,17179869184,[],[],0,0⟩],[⟨4,8192,[],[],0,0⟩,⟨6,1024,[],[],0,0⟩,⟨7,4096,[],[],0,0⟩,⟨8,8192,[.crAlone],[],0,0⟩,⟨9,4294967808,[],[],0,0⟩,⟨10,115792089237316195423570985008687907853269984665635612279300442486792058292735,[],[(5,.code)],0,0⟩,⟨11,4951760157141521099596496896,[],[],0,0⟩,⟨13,17179869184,[],[],0,0⟩],[⟨12,115792089237316195423570985008687907853269984665640564039457584007913129626623,[],[(6,.code)],0,0⟩],[⟨4,8192,[],[],0,0⟩,⟨6,1024,[],[],0,0⟩,⟨7,4096,[],[],0,0⟩,⟨8,8192,[.crAlone],[],0,0⟩,⟨9,4294967808,[],[],0,0⟩,⟨10,115792089237316195423570985008687907853269984665635612279300442486792058292735,[],[(5,.code)],0,0⟩,⟨11,4951760157141521099596496896,[],[],0,0⟩,⟨13,17179869184,[],[],0,0⟩],[],[⟨15,1024,[],[(7,.setEnt .newline)],0,0⟩],[],[],[],[],[]],[some (0,[]),some (1,[]),some (1,[]),none,none,none,none,none,none,none,none,none,none,some (2,[]),none,some (3,[]),some (3,[]),some (3,[]),some (3,[]),some (4,[])],[1,2,7,8,9]⟩
theorem factor_line_nfa_eq : Factor.factor_line.nfa = factor_line_nfa := by decide +kernel
/-- The machine of `Factor.factor_line`, with its automaton as a literal. -/
def factor_line_M : Machine := ⟨factor_line_nfa, Factor.factor_line.ends, Factor.factor_line.sw⟩
theorem factor_line_M_eq : Factor.factor_line.machine = factor_line_M := by
  unfold Scanner.machine factor_line_M; rw [factor_line_nfa_eq]
def factor_line_masks : List Nat := [4294967808,8589934592,17179869184,8192,1024,4096,115792089237316195423570985008687907853269984665640564039457584007908834656767,115792089237316195423570985008687907853269984665640564039457584007913129626623,115792089237316195423570985008687907853269984665635612279300442486792058292735,4951760157141521099596496896]
def factor_line_cs : List (Nat × Nat) := [(0,115792089237316195423570985008687907853269984665635612279300442486783468356095),(9,4294967808),(10,1024),(11,2048),(12,4096),(13,8192),(33,8589934592),(34,17179869184),(92,4951760157141521099596496896)]
theorem factor_line_masksIn : masksIn factor_line_nfa factor_line_masks = true := by decide +kernel
theorem factor_line_repOk : repOk factor_line_masks factor_line_cs = true := by decide +kernel
def factor_line_rows : List Row := [⟨[],none,[],[⟨256,.other,false,some ⟨0,[.setEnt (.own 3)],some 4,true⟩⟩,⟨256,.ws,false,some ⟨1,[.setEnt (.own 0)],some 0,false⟩⟩,⟨256,.lf,false,some ⟨0,[.setEnt .newline],some 3,true⟩⟩,⟨256,.vt,false,none⟩,⟨256,.ff,false,some ⟨0,[.setEnt .newline],some 3,true⟩⟩,⟨256,.cr,false,some ⟨2,[.setEnt .newline],none,false⟩⟩,⟨256,.cr,true,some ⟨3,[.setEnt .newline],some 3,false⟩⟩,⟨256,.other,false,some ⟨4,[.comment,.setEnt (.own 3)],some 1,false⟩⟩,⟨256,.other,false,some ⟨5,[.code,.setEnt (.own 3)],some 4,false⟩⟩]⟩,⟨[0],some 0,[],[⟨256,.other,false,none⟩,⟨256,.ws,false,some ⟨1,[.setEnt (.own 0)],some 0,false⟩⟩,⟨256,.lf,false,none⟩,⟨256,.vt,false,none⟩,⟨256,.ff,false,none⟩,⟨256,.cr,false,none⟩,⟨256,.cr,true,none⟩]⟩,⟨[14],none,[],[⟨256,.other,false,none⟩,⟨256,.ws,false,none⟩,⟨256,.lf,false,some ⟨0,[.setEnt .newline],some 3,true⟩⟩,⟨256,.vt,false,none⟩,⟨256,.ff,false,none⟩,⟨256,.cr,false,none⟩,⟨256,.cr,true,none⟩]⟩,⟨[14,18],some 3,[],[⟨256,.other,false,none⟩,⟨256,.ws,false,none⟩,⟨256,.lf,false,some ⟨0,[.setEnt .newline],some 3,true⟩⟩,⟨256,.vt,false,none⟩,⟨256,.ff,false,none⟩,⟨256,.cr,false,none⟩,⟨256,.cr,true,none⟩]⟩,⟨[1,19],some 1,[],[⟨256,.other,false,some ⟨6,[],some 1,false⟩⟩,⟨256,.ws,false,some ⟨6,[],some 1,false⟩⟩,⟨256,.lf,false,none⟩,⟨256,.vt,false,some ⟨6,[],some 1,false⟩⟩,⟨256,.ff,false,none⟩,⟨256,.cr,false,none⟩,⟨256,.cr,true,none⟩]⟩,⟨[3,19],some 4,[],[⟨256,.other,false,some ⟨7,[.code],none,false⟩⟩,⟨256,.ws,false,some ⟨8,[],none,false⟩⟩,⟨256,.lf,false,some ⟨9,[],none,false⟩⟩,⟨256,.vt,false,some ⟨7,[.code],none,false⟩⟩,⟨256,.ff,false,some ⟨10,[],none,false⟩⟩,⟨256,.cr,false,some ⟨11,[],none,false⟩⟩,⟨256,.cr,true,some ⟨12,[],none,false⟩⟩,⟨256,.other,false,some ⟨0,[],some 2,true⟩⟩,⟨256,.other,false,some ⟨13,[],none,false⟩⟩]⟩,⟨[2],some 1,[],[⟨256,.other,false,some ⟨6,[],some 1,false⟩⟩,⟨256,.ws,false,some ⟨6,[],some 1,false⟩⟩,⟨256,.lf,false,none⟩,⟨256,.vt,false,some ⟨6,[],some 1,false⟩⟩,⟨256,.ff,false,none⟩,⟨256,.cr,false,none⟩,⟨256,.cr,true,none⟩]⟩,⟨[10],none,[],[⟨256,.other,false,some ⟨7,[.code],none,false⟩⟩,⟨256,.ws,false,some ⟨8,[],none,false⟩⟩,⟨256,.lf,false,some ⟨9,[],none,false⟩⟩,⟨256,.vt,false,some ⟨7,[.code],none,false⟩⟩,⟨256,.ff,false,some ⟨10,[],none,false⟩⟩,⟨256,.cr,false,some ⟨11,[],none,false⟩⟩,⟨256,.cr,true,some ⟨12,[],none,false⟩⟩,⟨256,.other,false,some ⟨0,[],some 2,true⟩⟩,⟨256,.other,false,some ⟨13,[],none,false⟩⟩]⟩,⟨[9],none,[],[⟨256,.other,false,some ⟨7,[.code],none,false⟩⟩,⟨256,.ws,false,some ⟨8,[],none,false⟩⟩,⟨256,.lf,false,some ⟨9,[],none,false⟩⟩,⟨256,.vt,false,some ⟨7,[.code],none,false⟩⟩,⟨256,.ff,false,some ⟨10,[],none,false⟩⟩,⟨256,.cr,false,some ⟨11,[],none,false⟩⟩,⟨256,.cr,true,some ⟨12,[],none,false⟩⟩,⟨256,.other,false,some ⟨0,[],some 2,true⟩⟩,⟨256,.other,false,some ⟨13,[],none,false⟩⟩]⟩,⟨[6],none,[],[⟨256,.other,false,some ⟨7,[.setEnt .internalNl,.cb,.code],none,false⟩⟩,⟨256,.ws,false,some ⟨8,[.setEnt .internalNl,.cb],none,false⟩⟩,⟨256,.lf,false,some ⟨9,[.setEnt .internalNl,.cb],none,false⟩⟩,⟨256,.vt,false,some ⟨7,[.setEnt .internalNl,.cb,.code],none,false⟩⟩,⟨256,.ff,false,some ⟨10,[.setEnt .internalNl,.cb],none,false⟩⟩,⟨256,.cr,false,some ⟨11,[.setEnt .internalNl,.cb],none,false⟩⟩,⟨256,.cr,true,some ⟨12,[.setEnt .internalNl,.cb],none,false⟩⟩,⟨256,.other,false,some ⟨0,[.setEnt .internalNl,.cb],some 2,true⟩⟩,⟨256,.other,false,some ⟨13,[.setEnt .internalNl,.cb],none,false⟩⟩]⟩,⟨[7],none,[],[⟨256,.other,false,some ⟨7,[.setEnt .internalNl,.cb,.code],none,false⟩⟩,⟨256,.ws,false,some ⟨8,[.setEnt .internalNl,.cb],none,false⟩⟩,⟨256,.lf,false,some ⟨9,[.setEnt .internalNl,.cb],none,false⟩⟩,⟨256,.vt,false,some ⟨7,[.setEnt .internalNl,.cb,.code],none,false⟩⟩,⟨256,.ff,false,some ⟨10,[.setEnt .internalNl,.cb],none,false⟩⟩,⟨256,.cr,false,some ⟨11,[.setEnt .internalNl,.cb],none,false⟩⟩,⟨256,.cr,true,some ⟨12,[.setEnt .internalNl,.cb],none,false⟩⟩,⟨256,.other,false,some ⟨0,[.setEnt .internalNl,.cb],some 2,true⟩⟩,⟨256,.other,false,some ⟨13,[.setEnt .internalNl,.cb],none,false⟩⟩]⟩,⟨[4],none,[],[⟨256,.other,false,none⟩,⟨256,.ws,false,none⟩,⟨256,.lf,false,some ⟨14,[],none,false⟩⟩,⟨256,.vt,false,none⟩,⟨256,.ff,false,none⟩,⟨256,.cr,false,none⟩,⟨256,.cr,true,none⟩]⟩,⟨[4,8],none,[],[⟨256,.other,false,some ⟨7,[.setEnt .internalNl,.cb,.code],none,false⟩⟩,⟨256,.ws,false,some ⟨8,[.setEnt .internalNl,.cb],none,false⟩⟩,⟨256,.lf,false,some ⟨15,[.setEnt .internalNl,.cb],none,false⟩⟩,⟨256,.vt,false,some ⟨7,[.setEnt .internalNl,.cb,.code],none,false⟩⟩,⟨256,.ff,false,some ⟨10,[.setEnt .internalNl,.cb],none,false⟩⟩,⟨256,.cr,false,some ⟨11,[.setEnt .internalNl,.cb],none,false⟩⟩,⟨256,.cr,true,some ⟨12,[.setEnt .internalNl,.cb],none,false⟩⟩,⟨256,.other,false,some ⟨0,[.setEnt .internalNl,.cb],some 2,true⟩⟩,⟨256,.other,false,some ⟨13,[.setEnt .internalNl,.cb],none,false⟩⟩]⟩,⟨[11],none,[],[⟨256,.other,false,some ⟨16,[.code],none,false⟩⟩,⟨256,.ws,false,some ⟨16,[.code],none,false⟩⟩,⟨256,.lf,false,none⟩,⟨256,.vt,false,some ⟨16,[.code],none,false⟩⟩,⟨256,.ff,false,none⟩,⟨256,.cr,false,none⟩,⟨256,.cr,true,none⟩]⟩,⟨[5],none,[],[⟨256,.other,false,some ⟨7,[.setEnt .internalNl,.cb,.code],none,false⟩⟩,⟨256,.ws,false,some ⟨8,[.setEnt .internalNl,.cb],none,false⟩⟩,⟨256,.lf,false,some ⟨9,[.setEnt .internalNl,.cb],none,false⟩⟩,⟨256,.vt,false,some ⟨7,[.setEnt .internalNl,.cb,.code],none,false⟩⟩,⟨256,.ff,false,some ⟨10,[.setEnt .internalNl,.cb],none,false⟩⟩,⟨256,.cr,false,some ⟨11,[.setEnt .internalNl,.cb],none,false⟩⟩,⟨256,.cr,true,some ⟨12,[.setEnt .internalNl,.cb],none,false⟩⟩,⟨256,.other,false,some ⟨0,[.setEnt .internalNl,.cb],some 2,true⟩⟩,⟨256,.other,false,some ⟨13,[.setEnt .internalNl,.cb],none,false⟩⟩]⟩,⟨[5,6],none,[],[⟨256,.other,false,some ⟨7,[.setEnt .internalNl,.cb,.code],none,false⟩⟩,⟨256,.ws,false,some ⟨8,[.setEnt .internalNl,.cb],none,false⟩⟩,⟨256,.lf,false,some ⟨9,[.setEnt .internalNl,.cb],none,false⟩⟩,⟨256,.vt,false,some ⟨7,[.setEnt .internalNl,.cb,.code],none,false⟩⟩,⟨256,.ff,false,some ⟨10,[.setEnt .internalNl,.cb],none,false⟩⟩,⟨256,.cr,false,some ⟨11,[.setEnt .internalNl,.cb],none,false⟩⟩,⟨256,.cr,true,some ⟨12,[.setEnt .internalNl,.cb],none,false⟩⟩,⟨256,.other,false,some ⟨0,[.setEnt .internalNl,.cb],some 2,true⟩⟩,⟨256,.other,false,some ⟨13,[.setEnt .internalNl,.cb],none,false⟩⟩]⟩,⟨[12],none,[],[⟨256,.other,false,some ⟨7,[.code],none,false⟩⟩,⟨256,.ws,false,some ⟨8,[],none,false⟩⟩,⟨256,.lf,false,some ⟨9,[],none,false⟩⟩,⟨256,.vt,false,some ⟨7,[.code],none,false⟩⟩,⟨256,.ff,false,some ⟨10,[],none,false⟩⟩,⟨256,.cr,false,some ⟨11,[],none,false⟩⟩,⟨256,.cr,true,some ⟨12,[],none,false⟩⟩,⟨256,.other,false,some ⟨0,[],some 2,true⟩⟩,⟨256,.other,false,some ⟨13,[],none,false⟩⟩]⟩]
theorem factor_line_rowsOk : rowsOk factor_line_nfa [] (factor_line_cs.map (·.1)) factor_line_rows = true := by decide +kernel
def factor_line_D : Dfa factor_line_M.nfa := ⟨factor_line_masks, [], factor_line_cs, factor_line_rows, factor_line_masksIn, factor_line_repOk, factor_line_rowsOk⟩

def jam_line_nfa : Nfa := ⟨[⟨0,4294967808,[],[(0,.setEnt (.own 0))],0,0⟩,⟨1,34359738368,[],[(1,.comment)],0,0⟩,⟨3,549755813888,[],[(2,.enqueue),(3,.code)],0,0⟩,⟨14,17179869184,[],[(9,.enqueue),(10,.code)],0,0⟩,⟨25,8192,[],[(16,.setEnt .newline)],0,0⟩,⟨27,1024,[],[(16,.setEnt .newline)],0,0⟩,⟨28,4096,[],[(16,.setEnt .newline)],0,0⟩,⟨29,8192,[.crAlone],[(16,.setEnt .newline)],0,0⟩,⟨30,115792089237316195423570985008687907853269984665640564039457584007908834656767,[],[(17,.setEnt (.own 3))],0,0⟩],[[⟨0,4294967808,[],[(0,.setEnt (.own 0))],0,0⟩],[⟨2,115792089237316195423570985008687907853269984665640564039457584007913129626623,[],[],0,0⟩],[⟨2,115792089237316195423570985008687907853269984665640564039457584007913129626623,[],[],0,0⟩],[⟨4,8192,[],[],0,0⟩,⟨6,1024,[],[],0,0⟩,⟨7,4096,[],[],0,0⟩,⟨8,8192,[.crAlone],[],0,0⟩,⟨9,4294967808,[],[],0,0⟩,⟨10,115792089237316195423570985008687907853269984665635612279300442486259482348031,[],[(6,.code)],0,0⟩,⟨11,4951760157141521099596496896,[],[],0,0⟩,⟨13,549755813888,[],[(8,.commit)],0,0⟩],[⟨5,1024,[],[],0,0⟩],[⟨4,8192,[],[(4,.setEnt .internalNl),(5,.cb)],0,0⟩,⟨6,1024,[],[(4,.setEnt .internalNl),(5,.cb)],0,0⟩,⟨7,4096,[],[(4,.setEnt .internalNl),(5,.cb)],0,0⟩,⟨8,8192,[.crAlone],[(4,.setEnt .internalNl),(5,.cb)],0,0⟩,⟨9,4294967808,[],[(4,.setEnt .internalNl),(5,.cb)],0,0⟩,⟨10,115792089237316195423570985008687907853269984665635612279300442486259482348031,[],[(4,.setEnt .internalNl),(5,.cb),(6,.code)],0,0⟩,⟨11,4951760157141521099596496896,[],[(4,.setEnt .internalNl),(5,.cb)],0,0⟩,⟨13,549755813888,[],[(4,.setEnt .internalNl),(5,.cb),(8,.commit)],0,0⟩],[⟨4,8192,[],[(4,.setEnt .internalNl),(5,.cb)],0,0⟩,⟨6,1024,[],[(4,.setEnt .internalNl),(5,.cb)],0,0⟩,⟨7,4096,[],[(4,.setEnt .internalNl),(5,.cb)],0,0⟩,⟨8,8192,[.crAlone],[(4,.setEnt .internalNl),(5,.cb)],0,0⟩,⟨9,4294967808,[],[(4,.setEnt .internalNl),(5,.cb)],0,0⟩,⟨10,115792089237316195423570985008687907853269984665635612279300442486259482348031,[],[(4,.setEnt .internalNl),(5,.cb),(6,.code)],0,0⟩,⟨11,4951760157141521099596496896,[],[(4,.setEnt .internalNl),(5,.cb)],0,0⟩,⟨13,549755813888,[],[(4,.setEnt .internalNl),(5,.cb),(8,.commit)],0,0⟩],[⟨4,8192,[],[(4,.setEnt .internalNl),(5,.cb)],0,0⟩,⟨6,1024,[],[(4,.setEnt .internalNl),(5,.cb)],0,0⟩,⟨7,4096,[],[(4,.setEnt .internalNl),(5,.cb)],0,0⟩,⟨8,8192,[.crAlone],[(4,.setEnt .internalNl),(5,.cb)],0,0⟩,⟨9,4294967808,[],[(4,.setEnt .internalNl),(5,.cb)],0,0⟩,⟨10,115792089237316195423570985008687907853269984665635612279300442486259482348031,[],[(4,.setEnt .internalNl),(5,.cb),(6,.code)],0,0⟩,⟨11,4951760157141521099596496896,[],[(4,.setEnt .internalNl),(5,.cb)],0,0⟩,⟨13,549755813888,[],[(4,.setEnt .internalNl),(5,.cb),(8,.commit)],0,0⟩],[⟨4,8192,[],[(4,.setEnt .internalNl),(5,.cb)],0,0⟩,⟨6,1024,[],[(4,.setEnt .internalNl),(5,.cb)],0,0⟩,⟨7,4096,[],[(4,.setEnt .internalNl),(5,.cb)],0,0⟩,⟨8,8192,[.crAlone],[(4,.setEnt .internalNl),(5,.cb)],0,0⟩,⟨9,4294967808,[],[(4,.setEnt .internalNl),(5,.cb)],0,0⟩,⟨10,115792089237316195423570985008687907853269984665635612279300442486259482348031,[],[(4,.setEnt .internalNl),(5,.cb),(6,.code)],0,0⟩,⟨11,4951760157141521099596496896,[],[(4,.setEnt .internalNl),(5,.cb)],0,0⟩,⟨13,549755813888,[],[(4,.setEnt .internalNl),(5,.cb),(8,.commit)],0,0⟩],[⟨4,8192,[],[],0,0⟩,⟨6,1024,[],[],0,0⟩,⟨7,4096,[],[],0,0⟩,⟨8,8192,[.crAlone],[],0,0⟩,⟨9,4294967808,[],[],0,0⟩,⟨10,115792089237316195423570985008687907853269984665635612279300442486259482348031,[],[(6,.code)],0,0⟩,⟨11,4951760157141521099596496896,[],[],0,0⟩,⟨13,549755813888,[],[(8,.commit)],0,0⟩],[⟨4,8192,[],[],0,0⟩,⟨6,1024,[],[],0,0⟩,⟨7,4096,[],[],0,0⟩,⟨8,8192,[.crAlone],[],0,0⟩,⟨9,4294967808,[],[],0,0⟩,⟨10,115792089237316195423570985008687907853269984665635612279300442486259482348031,[],[(6,.code)],0,0⟩,⟨11,4951760157141521099596496896,[],[],0,0⟩,⟨13,549755813888,[],[(8,.commit)],0,0⟩],[⟨12,115792089237316195423570985008687907853269984665640564039457584007913129626623,[],[(7,.code)],0,0⟩],[⟨4,8192,[],[],0,0⟩,⟨6,1024,[],[],0,0⟩,⟨7,4096,[],[],0,0⟩,⟨8,8192,[.crAlone],[],0,0⟩,⟨9,4294967808,[],[],0,0⟩,⟨10,115792089237316195423570985008687907853269984665635612279300442486259482348031,[],[(6,.code)],0,0⟩,⟨11,4951760157141521099596496896,[],[],0,0⟩,⟨13,549755813888,[],[(8,.commit)],0,0⟩],[],[⟨15,8192,[],[],0,0⟩,⟨17,1024,[],[],0,0⟩,⟨18,4096,[],[],0,0⟩,⟨19,8192,[.crAlone],[],0,0⟩,⟨20,4294967808,[],[],0,0⟩,⟨21,115792089237316195423570985008687907853269984665635612279300442486792058292735,[],[(13,.code)],0,0⟩,⟨22,4951760157141521099596496896,[],[],0,0⟩,⟨24,17179869184,[],[(15,.commit)],0,0⟩],[⟨16,1024,[],[],0,0⟩],[⟨15,8192,[],[(11,.setEnt .internalNl),(12,.cb)],0,0⟩,⟨17,1024,[],[(11,.setEnt .internalNl),(12,.cb)],0,0⟩,⟨18,4096,[],[(11,.setEnt .internalNl),(12,.cb)],0,0⟩,⟨19,8192,[.crAlone],[(11,.setEnt .internalNl),(12,.cb)],0,0⟩,⟨20,4294967808,[],[(11,.setEnt .internalNl),(12,.cb)],0,0⟩,⟨21,115792089237316195423570985008687907853269984665635612279300442486792058292735,[],[(11,.setEnt .internalNl),(12,.cb),(13,.code)],0,0⟩,⟨22,4951760157141521099596496896,[],[(11,.setEnt .internalNl),(12,.cb)],0,0⟩,⟨24,17179869184,[],[(11,.setEnt .internalNl),(12,.cb),(15,.commit)],0,0⟩],[⟨15,8192,[],[(11,.setEnt .internalNl),(12,.cb)],0,0⟩,⟨17,1024,[],[(11,.setEnt .internalNl),(12,.cb)],0,0⟩,⟨18,4096,[],[(11,.setEnt .internalNl),(12,.cb)],0,0⟩,⟨19,8192,[.crAlone],[(11,.setEnt .internalNl),(12,.cb)],0,0⟩,⟨20,4294967808,[],[(11,.setEnt .internalNl),(12,.cb)],0,0⟩,⟨21,115792089237316195423570985008687907853269984665635612279300442486792058292735,[],[(11,.setEnt .internalNl),(12,.cb),(13,.code)],0,0⟩,⟨22,4951760157141521099596496896,[],[(11,.setEnt .internalNl),(12,.cb)],0,0⟩,⟨24,17179869184,[],[(11,.setEnt .internalNl),(12,.cb),(15,.commit)],0,0⟩],[⟨15,8192,[],[(11,.setEnt .internalNl),(12,.cb)],0,0⟩,⟨17,1024,[],[(11,.setEnt .internalNl),(12,.cb)],0,0⟩,⟨18,4096,[],[(11,.setEnt .internalNl),(12,.cb)],0,0⟩,⟨19,8192,[.crAlone],[(11,.setEnt .internalNl),(12,.cb)],0,0⟩,⟨20,4294967808,[],[(11,.setEnt .internalNl),(12,.cb)],0,0⟩,⟨21,115792089237316195423570985008687907853269984665635612279300442486792058292735,[],[(11,.setEnt .internalNl),(12,.cb),(13,.code)],0,0⟩,⟨22,4951760157141521099596496896,[],[(11,.setEnt .internalNl),(12,.cb)],0,0⟩,⟨24,17179869184,[],[(11,.setEnt .internalNl),(12,.cb),(15,.commit)],0,0⟩],[⟨15,8192,[],[(11,.setEnt .internalNl),(12,.cb)],0,0⟩,⟨17,1024,[],[(11,.setEnt .internalNl),(12,.cb)],0,0⟩,⟨18,4096,[],[(11,.setEnt .internalNl),(12,.cb)],0,0⟩,⟨19,8192,[.crAlone],[(11,.setEnt .internalNl),(12,.cb)],0,0⟩,⟨20,4294967808,[],[(11,.setEnt .internalNl),(12,.cb)],0,0⟩,⟨21,115792089237316195423570985008687907853269984665635612279300442486792058292735,[],[(11,.setEnt .internalNl),(12,.cb),(13,.code)],0,0⟩,⟨22,4951760157141521099596496896,[],[(11,.setEnt .internalNl),(12,.cb)],0,0⟩,⟨24,17179869184,[],[(11,.setEnt .internalNl),(12,.cb),(15,.commit)],0,0⟩],[⟨15,8192,[],[],0,0⟩,⟨17,1024,[],[],0,0⟩,⟨18,4096,[],[],0,0⟩,⟨19,8192,[.crAlone],[],0,0⟩,⟨20,4294967808,[],[],0,0⟩,⟨21,115792089237316195423570985008687907853269984665635612279300442486792058292735,[],[(13,.code)],0,0⟩,⟨22,4951760157141521099596496896,[],[],0,0⟩,⟨24,17179869184,[],[(15,.commit)],0,0⟩],[⟨15,8192,[],[],0,0⟩,⟨17,1024,[],[],0,0⟩,⟨18,4096,[],[],0,0⟩,⟨19,8192,[.crAlone],[],0,0⟩,⟨20,4294967808,[],[],0,0⟩,⟨21,115792089237316195423570985008687907853269984665635612279300442486792058292735,[],[(13,.code)],0,0⟩,⟨22,4951760157141521099596496896,[],[],0,0⟩,⟨24,17179869184,[],[(15,.commit)],0,0⟩],[⟨23,115792089237316195423570985008687907853269984665640564039457584007913129626623,[],[(14,.code)],0,0⟩],[⟨15,8192,[],[],0,0⟩,⟨17,1024,[],[],0,0⟩,⟨18,4096,[],[],0,0⟩,⟨19,8192,[.crAlone],[],0,0⟩,⟨20,4294967808,[],[],0,0⟩,⟨21,115792089237316195423570985008687907853269984665635612279300442486792058292735,[],[(13,.code)],0,0⟩,⟨22,4951760157141521099596496896,[],[],0,0⟩,⟨24,17179869184,[],[(15,.commit)],0,0⟩],[],[⟨26,1024,[],[(16,.setEnt .newline)],0,0⟩],[],[],[],[],[]],[some (0,[]),some (1,[]),some (1,[]),none,none,none,none,none,none,none,none,none,none,some (2,[]),none,none,none,none,none,none,none,none,none,none,some (2,[]),none,some (3,[]),some (3,[]),some (3,[]),some (3,[]),some (4,[])],[1,2,16,17,18]⟩
theorem jam_line_nfa_eq : Jam.jam_line.nfa = jam_line_nfa := by decide +kernel
/-- The machine of `Jam.jam_line`, with its automaton as a literal. -/
def jam_line_M : Machine := ⟨jam_line_nfa, Jam.jam_line.ends, Jam.jam_line.sw⟩
theorem jam_line_M_eq : Jam.jam_line.machine = jam_line_M := by
  unfold Scanner.machine jam_line_M; rw [jam_line_nfa_eq]
def jam_line_masks : List Nat := [4294967808,34359738368,549755813888,17179869184,8192,1024,4096,115792089237316195423570985008687907853269984665640564039457584007908834656767,115792089237316195423570985008687907853269984665640564039457584007913129626623,115792089237316195423570985008687907853269984665635612279300442486259482348031,4951760157141521099596496896,115792089237316195423570985008687907853269984665635612279300442486792058292735]
def jam_line_cs : List (Nat × Nat) := [(0,115792089237316195423570985008687907853269984665635612279300442486207942738431),(9,4294967808),(10,1024),(11,2048),(12,4096),(13,8192),(34,17179869184),(35,34359738368),(39,549755813888),(92,4951760157141521099596496896)]
theorem jam_line_masksIn : masksIn jam_line_nfa jam_line_masks = true := by decide +kernel
theorem jam_line_repOk : repOk jam_line_masks jam_line_cs = true := by decide +kernel
def jam_line_rows : List Row := [⟨[],none,[],[⟨256,.other,false,some ⟨0,[.setEnt (.own 3)],some 4,true⟩⟩,⟨256,.ws,false,some ⟨1,[.setEnt (.own 0)],some 0,false⟩⟩,⟨256,.lf,false,some ⟨0,[.setEnt .newline],some 3,true⟩⟩,⟨256,.vt,false,none⟩,⟨256,.ff,false,some ⟨0,[.setEnt .newline],some 3,true⟩⟩,⟨256,.cr,false,some ⟨2,[.setEnt .newline],none,false⟩⟩,⟨256,.cr,true,some ⟨3,[.setEnt .newline],some 3,false⟩⟩,⟨256,.other,false,some ⟨4,[.enqueue,.code,.setEnt (.own 3)],some 4,false⟩⟩,⟨256,.other,false,some ⟨5,[.comment,.setEnt (.own 3)],some 1,false⟩⟩,⟨256,.other,false,some ⟨6,[.enqueue,.code,.setEnt (.own 3)],some 4,false⟩⟩]⟩,⟨[0],some 0,[],[⟨256,.other,false,none⟩,⟨256,.ws,false,some ⟨1,[.setEnt (.own 0)],some 0,false⟩⟩,⟨256,.lf,false,none⟩,⟨256,.vt,false,none⟩,⟨256,.ff,false,none⟩,⟨256,.cr,false,none⟩,⟨256,.cr,true,none⟩]⟩,⟨[25],none,[],[⟨256,.other,false,none⟩,⟨256,.ws,false,none⟩,⟨256,.lf,false,some ⟨0,[.setEnt .newline],some 3,true⟩⟩,⟨256,.vt,false,none⟩,⟨256,.ff,false,none⟩,⟨256,.cr,false,none⟩,⟨256,.cr,true,none⟩]⟩,⟨[25,29],some 3,[],[⟨256,.other,false,none⟩,⟨256,.ws,false,none⟩,⟨256,.lf,false,some ⟨0,[.setEnt .newline],some 3,true⟩⟩,⟨256,.vt,false,none⟩,⟨256,.ff,false,none⟩,⟨256,.cr,false,none⟩,⟨256,.cr,true,none⟩]⟩,⟨[14,30],some 4,[],[⟨256,.other,false,some ⟨7,[.code],none,false⟩⟩,⟨256,.ws,false,some ⟨8,[],none,false⟩⟩,⟨256,.lf,false,some ⟨9,[],none,false⟩⟩,⟨256,.vt,false,some ⟨7,[.code],none,false⟩⟩,⟨256,.ff,false,some ⟨10,[],none,false⟩⟩,⟨256,.cr,false,some ⟨11,[],none,false⟩⟩,⟨256,.cr,true,some ⟨12,[],none,false⟩⟩,⟨256,.other,false,some ⟨0,[.commit],some 2,true⟩⟩,⟨256,.other,false,some ⟨13,[],none,false⟩⟩]⟩,⟨[1,30],some 1,[],[⟨256,.other,false,some ⟨14,[],some 1,false⟩⟩,⟨256,.ws,false,some ⟨14,[],some 1,false⟩⟩,⟨256,.lf,false,none⟩,⟨256,.vt,false,some ⟨14,[],some 1,false⟩⟩,⟨256,.ff,false,none⟩,⟨256,.cr,false,none⟩,⟨256,.cr,true,none⟩]⟩,⟨[3,30],some 4,[],[⟨256,.other,false,some ⟨15,[.code],none,false⟩⟩,⟨256,.ws,false,some ⟨16,[],none,false⟩⟩,⟨256,.lf,false,some ⟨17,[],none,false⟩⟩,⟨256,.vt,false,some ⟨15,[.code],none,false⟩⟩,⟨256,.ff,false,some ⟨18,[],none,false⟩⟩,⟨256,.cr,false,some ⟨19,[],none,false⟩⟩,⟨256,.cr,true,some ⟨20,[],none,false⟩⟩,⟨256,.other,false,some ⟨0,[.commit],some 2,true⟩⟩,⟨256,.other,false,some ⟨21,[],none,false⟩⟩]⟩,⟨[21],none,[],[⟨256,.other,false,some ⟨7,[.code],none,false⟩⟩,⟨256,.ws,false,some ⟨8,[],none,false⟩⟩,⟨256,.lf,false,some ⟨9,[],none,false⟩⟩,⟨256,.vt,false,some ⟨7,[.code],none,false⟩⟩,⟨256,.ff,false,some ⟨10,[],none,false⟩⟩,⟨256,.cr,false,some ⟨11,[],none,false⟩⟩,⟨256,.cr,true,some ⟨12,[],none,false⟩⟩,⟨256,.other,false,some ⟨0,[.commit],some 2,true⟩⟩,⟨256,.other,false,some ⟨13,[],none,false⟩⟩]⟩,⟨[20],none,[],[⟨256,.other,false,some ⟨7,[.code],none,false⟩⟩,⟨256,.ws,false,some ⟨8,[],none,false⟩⟩,⟨256,.lf,false,some ⟨9,[],none,false⟩⟩,⟨256,.vt,false,some ⟨7,[.code],none,false⟩⟩,⟨256,.ff,false,some ⟨10,[],none,false⟩⟩,⟨256,.cr,false,some ⟨11,[],none,false⟩⟩,⟨256,.cr,true,some ⟨12,[],none,false⟩⟩,⟨256,.other,false,some ⟨0,[.commit],some 2,true⟩⟩,⟨256,.other,false,some ⟨13,[],none,false⟩⟩]⟩,⟨[17],none,[],[⟨256,.other,false,some ⟨7,[.setEnt .internalNl,.cb,.code],none,false⟩⟩,⟨256,.ws,false,some ⟨8,[.setEnt .internalNl,.cb],none,false⟩⟩,⟨256,.lf,false,some ⟨9,[.setEnt .internalNl,.cb],none,false⟩⟩,⟨256,.vt,false,some ⟨7,[.setEnt .internalNl,.cb,.code],none,false⟩⟩,⟨256,.ff,false,some ⟨10,[.setEnt .internalNl,.cb],none,false⟩⟩,⟨256,.cr,false,some ⟨11,[.setEnt .internalNl,.cb],none,false⟩⟩,⟨256,.cr,true,some ⟨12,[.setEnt .internalNl,.cb],none,false⟩⟩,⟨256,.other,false,some ⟨0,[.setEnt .internalNl,.cb,.commit],some 2,true⟩⟩,⟨256,.other,false,some ⟨13,[.setEnt .internalNl,.cb],none,false⟩⟩]⟩,⟨[18],none,[],[⟨256,.other,false,some ⟨7,[.setEnt .internalNl,.cb,.code],none,false⟩⟩,⟨256,.ws,false,some ⟨8,[.setEnt .internalNl,.cb],none,false⟩⟩,⟨256,.lf,false,some ⟨9,[.setEnt .internalNl,.cb],none,false⟩⟩,⟨256,.vt,false,some ⟨7,[.setEnt .internalNl,.cb,.code],none,false⟩⟩,⟨256,.ff,false,some ⟨10,[.setEnt .internalNl,.cb],none,false⟩⟩,⟨256,.cr,false,some ⟨11,[.setEnt .internalNl,.cb],none,false⟩⟩,⟨256,.cr,true,some ⟨12,[.setEnt .internalNl,.cb],none,false⟩⟩,⟨256,.other,false,some ⟨0,[.setEnt .internalNl,.cb,.commit],some 2,true⟩⟩,⟨256,.other,false,some ⟨13,[.setEnt .internalNl,.cb],none,false⟩⟩]⟩,⟨[15],none,[],[⟨256,.other,false,none⟩,⟨256,.ws,false,none⟩,⟨256,.lf,false,some ⟨22,[],none,false⟩⟩,⟨256,.vt,false,none⟩,⟨256,.ff,false,none⟩,⟨256,.cr,false,none⟩,⟨256,.cr,true,none⟩]⟩,⟨[15,19],none,[],[⟨256,.other,false,some ⟨7,[.setEnt .internalNl,.cb,.code],none,false⟩⟩,⟨256,.ws,false,some ⟨8,[.setEnt .internalNl,.cb],none,false⟩⟩,⟨256,.lf,false,some ⟨23,[.setEnt .internalNl,.cb],none,false⟩⟩,⟨256,.vt,false,some ⟨7,[.setEnt .internalNl,.cb,.code],none,false⟩⟩,⟨256,.ff,false,some ⟨10,[.setEnt .internalNl,.cb],none,false⟩⟩,⟨256,.cr,false,some ⟨11,[.setEnt .internalNl,.cb],none,false⟩⟩,⟨256,.cr,true,some ⟨12,[.setEnt .internalNl,.cb],none,false⟩⟩,⟨256,.other,false,some ⟨0,[.setEnt .internalNl,.cb,.commit],some 2,true⟩⟩,⟨256,.other,false,some ⟨13,[.setEnt .internalNl,.cb],none,false⟩⟩]⟩,⟨[22],none,[],[⟨256,.other,false,some ⟨24,[.code],none,false⟩⟩,⟨256,.ws,false,some ⟨24,[.code],none,false⟩⟩,⟨256,.lf,false,none⟩,⟨256,.vt,false,some ⟨24,[.code],none,false⟩⟩,⟨256,.ff,false,none⟩,⟨256,.cr,false,none⟩,⟨256,.cr,true,none⟩]⟩,⟨[2],some 1,[],[⟨256,.other,false,some ⟨14,[],some 1,false⟩⟩,⟨256,.ws,false,some ⟨14,[],some 1,false⟩⟩,⟨256,.lf,false,none⟩,⟨256,.vt,false,some ⟨14,[],some 1,false⟩⟩,⟨256,.ff,false,none⟩,⟨256,.cr,false,none⟩,⟨256,.cr,true,none⟩]⟩,⟨[10],none,[],[⟨256,.other,false,some ⟨15,[.code],none,false⟩⟩,⟨256,.ws,false,some ⟨16,[],none,false⟩⟩,⟨256,.lf,false,some ⟨17,[],none,false⟩⟩,⟨256,.vt,false,some ⟨15,[.code],none,false⟩⟩,⟨256,.ff,false,some ⟨18,[],none,false⟩⟩,⟨256,.cr,false,some ⟨19,[],none,false⟩⟩,⟨256,.cr,true,some ⟨20,[],none,false⟩⟩,⟨256,.other,false,some ⟨0,[.commit],some 2,true⟩⟩,⟨256,.other,false,some ⟨21,[],none,false⟩⟩]⟩,⟨[9],none,[],[⟨256,.other,false,some ⟨15,[.code],none,false⟩⟩,⟨256,.ws,false,some ⟨16,[],none,false⟩⟩,⟨256,.lf,false,some ⟨17,[],none,false⟩⟩,⟨256,.vt,false,some ⟨15,[.code],none,false⟩⟩,⟨256,.ff,false,some ⟨18,[],none,false⟩⟩,⟨256,.cr,false,some ⟨19,[],none,false⟩⟩,⟨256,.cr,true,some ⟨20,[],none,false⟩⟩,⟨256,.other,false,some ⟨0,[.commit],some 2,true⟩⟩,⟨256,.other,false,some ⟨21,[],none,false⟩⟩]⟩,⟨[6],none,[],[⟨256,.other,false,some ⟨15,[.setEnt .internalNl,.cb,.code],none,false⟩⟩,⟨256,.ws,false,some ⟨16,[.setEnt .internalNl,.cb],none,false⟩⟩,⟨256,.lf,false,some ⟨17,[.setEnt .internalNl,.cb],none,false⟩⟩,⟨256,.vt,false,some ⟨15,[.setEnt .internalNl,.cb,.code],none,false⟩⟩,⟨256,.ff,false,some ⟨18,[.setEnt .internalNl,.cb],none,false⟩⟩,⟨256,.cr,false,some ⟨19,[.setEnt .internalNl,.cb],none,false⟩⟩,⟨256,.cr,true,some ⟨20,[.setEnt .internalNl,.cb],none,false⟩⟩,⟨256,.other,false,some ⟨0,[.setEnt .internalNl,.cb,.commit],some 2,true⟩⟩,⟨256,.other,false,some ⟨21,[.setEnt .internalNl,.cb],none,false⟩⟩]⟩,⟨[7],none,[],[⟨256,.other,false,some ⟨15,[.setEnt .internalNl,.cb,.code],none,false⟩⟩,⟨256,.ws,false,some ⟨16,[.setEnt .internalNl,.cb],none,false⟩⟩,⟨256,.lf,false,some ⟨17,[.setEnt .internalNl,.cb],none,false⟩⟩,⟨256,.vt,false,some ⟨15,[.setEnt .internalNl,.cb,.code],none,false⟩⟩,⟨256,.ff,false,some ⟨18,[.setEnt .internalNl,.cb],none,false⟩⟩,⟨256,.cr,false,some ⟨19,[.setEnt .internalNl,.cb],none,false⟩⟩,⟨256,.cr,true,some ⟨20,[.setEnt .internalNl,.cb],none,false⟩⟩,⟨256,.other,false,some ⟨0,[.setEnt .internalNl,.cb,.commit],some 2,true⟩⟩,⟨256,.other,false,some ⟨21,[.setEnt .internalNl,.cb],none,false⟩⟩]⟩,⟨[4],none,[],[⟨256,.other,false,none⟩,⟨256,.ws,false,none⟩,⟨256,.lf,false,some ⟨25,[],none,false⟩⟩,⟨256,.vt,false,none⟩,⟨256,.ff,false,none⟩,⟨256,.cr,false,none⟩,⟨256,.cr,true,none⟩]⟩,⟨[4,8],none,[],[⟨256,.other,false,some ⟨15,[.setEnt .internalNl,.cb,.code],none,false⟩⟩,⟨256,.ws,false,some ⟨16,[.setEnt .internalNl,.cb],none,false⟩⟩,⟨256,.lf,false,some ⟨26,[.setEnt .internalNl,.cb],none,false⟩⟩,⟨256,.vt,false,some ⟨15,[.setEnt .internalNl,.cb,.code],none,false⟩⟩,⟨256,.ff,false,some ⟨18,[.setEnt .internalNl,.cb],none,false⟩⟩,⟨256,.cr,false,some ⟨19,[.setEnt .internalNl,.cb],none,false⟩⟩,⟨256,.cr,true,some ⟨20,[.setEnt .internalNl,.cb],none,false⟩⟩,⟨256,.other,false,some ⟨0,[.setEnt .internalNl,.cb,.commit],some 2,true⟩⟩,⟨256,.other,false,some ⟨21,[.setEnt .internalNl,.cb],none,false⟩⟩]⟩,⟨[11],none,[],[⟨256,.other,false,some ⟨27,[.code],none,false⟩⟩,⟨256,.ws,false,some ⟨27,[.code],none,false⟩⟩,⟨256,.lf,false,none⟩,⟨256,.vt,false,some ⟨27,[.code],none,false⟩⟩,⟨256,.ff,false,none⟩,⟨256,.cr,false,none⟩,⟨256,.cr,true,none⟩]⟩,⟨[16],none,[],[⟨256,.other,false,some ⟨7,[.setEnt .internalNl,.cb,.code],none,false⟩⟩,⟨256,.ws,false,some ⟨8,[.setEnt .internalNl,.cb],none,false⟩⟩,⟨256,.lf,false,some ⟨9,[.setEnt .internalNl,.cb],none,false⟩⟩,⟨256,.vt,false,some ⟨7,[.setEnt .internalNl,.cb,.code],none,false⟩⟩,⟨256,.ff,false,some ⟨10,[.setEnt .internalNl,.cb],none,false⟩⟩,⟨256,.cr,false,some ⟨11,[.setEnt .internalNl,.cb],none,false⟩⟩,⟨256,.cr,true,some ⟨12,[.setEnt .internalNl,.cb],none,false⟩⟩,⟨256,.other,false,some ⟨0,[.setEnt .internalNl,.cb,.commit],some 2,true⟩⟩,⟨256,.other,false,some ⟨13,[.setEnt .internalNl,.cb],none,false⟩⟩]⟩,⟨[16,17],none,[],[⟨256,.other,false,some ⟨7,[.setEnt .internalNl,.cb,.code],none,false⟩⟩,⟨256,.ws,false,some ⟨8,[.setEnt .internalNl,.cb],none,false⟩⟩,⟨256,.lf,false,some ⟨9,[.setEnt .internalNl,.cb],none,false⟩⟩,⟨256,.vt,false,some ⟨7,[.setEnt .internalNl,.cb,.code],none,false⟩⟩,⟨256,.ff,false,some ⟨10,[.setEnt .internalNl,.cb],none,false⟩⟩,⟨256,.cr,false,some ⟨11,[.setEnt .internalNl,.cb],none,false⟩⟩,⟨256,.cr,true,some ⟨12,[.setEnt .internalNl,.cb],none,false⟩⟩,⟨256,.other,false,some ⟨0,[.setEnt .internalNl,.cb,.commit],some 2,true⟩⟩,⟨256,.other,false,some ⟨13,[.setEnt .internalNl,.cb],none,false⟩⟩]⟩,⟨[23],none,[],[⟨256,.other,false,some ⟨7,[.code],none,false⟩⟩,⟨256,.ws,false,some ⟨8,[],none,false⟩⟩,⟨256,.lf,false,some ⟨9,[],none,false⟩⟩,⟨256,.vt,false,some ⟨7,[.code],none,false⟩⟩,⟨256,.ff,false,some ⟨10,[],none,false⟩⟩,⟨256,.cr,false,some ⟨11,[],none,false⟩⟩,⟨256,.cr,true,some ⟨12,[],none,false⟩⟩,⟨256,.other,false,some ⟨0,[.commit],some 2,true⟩⟩,⟨256,.other,false,some ⟨13,[],none,false⟩⟩]⟩,⟨[5],none,[],[⟨256,.other,false,some ⟨15,[.setEnt .internalNl,.cb,.code],none,false⟩⟩,⟨256,.ws,false,some ⟨16,[.setEnt .internalNl,.cb],none,false⟩⟩,⟨256,.lf,false,some ⟨17,[.setEnt .internalNl,.cb],none,false⟩⟩,⟨256,.vt,false,some ⟨15,[.setEnt .internalNl,.cb,.code],none,false⟩⟩,⟨256,.ff,false,some ⟨18,[.setEnt .internalNl,.cb],none,false⟩⟩,⟨256,.cr,false,some ⟨19,[.setEnt .internalNl,.cb],none,false⟩⟩,⟨256,.cr,true,some ⟨20,[.setEnt .internalNl,.cb],none,false⟩⟩,⟨256,.other,false,some ⟨0,[.setEnt .internalNl,.cb,.commit],some 2,true⟩⟩,⟨256,.other,false,some ⟨21,[.setEnt .internalNl,.cb],none,false⟩⟩]⟩,⟨[5,6],none,[],[⟨256,.other,false,some ⟨15,[.setEnt .internalNl,.cb,.code],none,false⟩⟩,⟨256,.ws,false,some ⟨16,[.setEnt .internalNl,.cb],none,false⟩⟩,⟨256,.lf,false,some ⟨17,[.setEnt .internalNl,.cb],none,false⟩⟩,⟨256,.vt,false,some ⟨15,[.setEnt .internalNl,.cb,.code],none,false⟩⟩,⟨256,.ff,false,some ⟨18,[.setEnt .internalNl,.cb],none,false⟩⟩,⟨256,.cr,false,some ⟨19,[.setEnt .internalNl,.cb],none,false⟩⟩,⟨256,.cr,true,some ⟨20,[.setEnt .internalNl,.cb],none,false⟩⟩,⟨256,.other,false,some ⟨0,[.setEnt .internalNl,.cb,.commit],some 2,true⟩⟩,⟨256,.other,false,some ⟨21,[.setEnt .internalNl,.cb],none,false⟩⟩]⟩,⟨[12],none,[],[⟨256,.other,false,some ⟨15,[.code],none,false⟩⟩,⟨256,.ws,false,some ⟨16,[],none,false⟩⟩,⟨256,.lf,false,some ⟨17,[],none,false⟩⟩,⟨256,.vt,false,some ⟨15,[.code],none,false⟩⟩,⟨256,.ff,false,some ⟨18,[],none,false⟩⟩,⟨256,.cr,false,some ⟨19,[],none,false⟩⟩,⟨256,.cr,true,some ⟨20,[],none,false⟩⟩,⟨256,.other,false,some ⟨0,[.commit],some 2,true⟩⟩,⟨256,.other,false,some ⟨21,[],none,false⟩⟩]⟩]
theorem jam_line_rowsOk : rowsOk jam_line_nfa [] (jam_line_cs.map (·.1)) jam_line_rows = true := by decide +kernel
def jam_line_D : Dfa jam_line_M.nfa := ⟨jam_line_masks, [], jam_line_cs, jam_line_rows, jam_line_masksIn, jam_line_repOk, jam_line_rowsOk⟩

def js_line_nfa : Nfa := ⟨[⟨0,4294967808,[],[(0,.setEnt (.own 0))],0,0⟩,⟨1,140737488355328,[],[],0,0⟩,⟨4,140737488355328,[],[],0,2⟩,⟨15,549755813888,[],[(6,.code)],0,0⟩,⟨27,17179869184,[],[(11,.code)],0,0⟩,⟨39,140737488355328,[],[],0,0⟩,⟨45,8192,[],[(17,.setEnt .newline)],0,0⟩,⟨47,1024,[],[(17,.setEnt .newline)],0,0⟩,⟨48,4096,[],[(17,.setEnt .newline)],0,0⟩,⟨49,8192,[.crAlone],[(17,.setEnt .newline)],0,0⟩,⟨50,115792089237316195423570985008687907853269984665640564039457584007908834656767,[],[(18,.setEnt (.own 7))],0,0⟩],[[⟨0,4294967808,[],[(0,.setEnt (.own 0))],0,0⟩],[⟨2,140737488355328,[],[(1,.comment)],0,0⟩],[⟨3,115792089237316195423570985008687907853269984665640564039457584007913129626623,[],[],0,0⟩],[⟨3,115792089237316195423570985008687907853269984665640564039457584007913129626623,[],[],0,0⟩],[⟨5,4398046511104,[],[(2,.comment)],0,2⟩],[⟨6,8192,[],[],0,2⟩,⟨8,1024,[],[],0,2⟩,⟨9,4096,[],[],0,2⟩,⟨10,8192,[.crAlone],[],0,2⟩,⟨11,4294967808,[],[],0,2⟩,⟨12,115792089237316195423570985008687907853269984665640564039457584007908834658815,[],[(5,.comment)],0,2⟩,⟨13,4398046511104,[],[],0,2⟩],[⟨7,1024,[],[],0,2⟩],[⟨6,8192,[],[(3,.setEnt .internalNl),(4,.cb)],0,2⟩,⟨8,1024,[],[(3,.setEnt .internalNl),(4,.cb)],0,2⟩,⟨9,4096,[],[(3,.setEnt .internalNl),(4,.cb)],0,2⟩,⟨10,8192,[.crAlone],[(3,.setEnt .internalNl),(4,.cb)],0,2⟩,⟨11,4294967808,[],[(3,.setEnt .internalNl),(4,.cb)],0,2⟩,⟨12,115792089237316195423570985008687907853269984665640564039457584007908834658815,[],[(3,.setEnt .internalNl),(4,.cb),(5,.comment)],0,2⟩,⟨13,4398046511104,[],[(3,.setEnt .internalNl),(4,.cb)],0,2⟩],[⟨6,8192,[],[(3,.setEnt .internalNl),(4,.cb)],0,2⟩,⟨8,1024,[],[(3,.setEnt .internalNl),(4,.cb)],0,2⟩,⟨9,4096,[],[(3,.setEnt .internalNl),(4,.cb)],0,2⟩,⟨10,8192,[.crAlone],[(3,.setEnt .internalNl),(4,.cb)],0,2⟩,⟨11,4294967808,[],[(3,.setEnt .internalNl),(4,.cb)],0,2⟩,⟨12,115792089237316195423570985008687907853269984665640564039457584007908834658815,[],[(3,.setEnt .internalNl),(4,.cb),(5,.comment)],0,2⟩,⟨13,4398046511104,[],[(3,.setEnt .internalNl),(4,.cb)],0,2⟩],[⟨6,8192,[],[(3,.setEnt .internalNl),(4,.cb)],0,2⟩,⟨8,1024,[],[(3,.setEnt .internalNl),(4,.cb)],0,2⟩,⟨9,4096,[],[(3,.setEnt .internalNl),(4,.cb)],0,2⟩,⟨10,8192,[.crAlone],[(3,.setEnt .internalNl),(4,.cb)],0,2⟩,⟨11,4294967808,[],[(3,.setEnt .internalNl),(4,.cb)],0,2⟩,⟨12,115792089237316195423570985008687907853269984665640564039457584007908834658815,[],[(3,.setEnt .internalNl),(4,.cb),(5,.comment)],0,2⟩,⟨13,4398046511104,[],[(3,.setEnt .internalNl),(4,.cb)],0,2⟩],[⟨6,8192,[],[(3,.setEnt .internalNl),(4,.cb)],0,2⟩,⟨8,1024,[],[(3,.setEnt .internalNl),(4,.cb)],0,2⟩,⟨9,4096,[],[(3,.setEnt .internalNl),(4,.cb)],0,2⟩,⟨10,8192,[.crAlone],[(3,.setEnt .internalNl),(4,.cb)],0,2⟩,⟨11,4294967808,[],[(3,.setEnt .internalNl),(4,.cb)],0,2⟩,⟨12,115792089237316195423570985008687907853269984665640564039457584007908834658815,[],[(3,.setEnt .internalNl),(4,.cb),(5,.comment)],0,2⟩,⟨13,4398046511104,[],[(3,.setEnt .internalNl),(4,.cb)],0,2⟩],[⟨6,8192,[],[],0,2⟩,⟨8,1024,[],[],0,2⟩,⟨9,4096,[],[],0,2⟩,⟨10,8192,[.crAlone],[],0,2⟩,⟨11,4294967808,[],[],0,2⟩,⟨12,115792089237316195423570985008687907853269984665640564039457584007908834658815,[],[(5,.comment)],0,2⟩,⟨13,4398046511104,[],[],0,2⟩],[⟨6,8192,[],[],0,2⟩,⟨8,1024,[],[],0,2⟩,⟨9,4096,[],[],0,2⟩,⟨10,8192,[.crAlone],[],0,2⟩,⟨11,4294967808,[],[],0,2⟩,⟨12,115792089237316195423570985008687907853269984665640564039457584007908834658815,[],[(5,.comment)],0,2⟩,⟨13,4398046511104,[],[],0,2⟩],[⟨14,140737488355328,[],[],2,0⟩],[],[⟨16,4951760157141521099596496896,[],[],0,0⟩,⟨22,4294967808,[],[],0,0⟩,⟨23,115792089237316195423570985008687907853269984665635612279300442486259482361343,[],[(9,.code)],0,0⟩,⟨24,4951760157141521099596496896,[],[],0,0⟩,⟨26,549755813888,[],[],0,0⟩],[⟨17,8192,[],[],0,0⟩,⟨19,1024,[],[],0,0⟩,⟨20,4096,[],[],0,0⟩,⟨21,8192,[.crAlone],[],0,0⟩],[⟨18,1024,[],[],0,0⟩],[⟨16,4951760157141521099596496896,[],[(7,.setEnt .internalNl),(8,.cb)],0,0⟩,⟨22,4294967808,[],[(7,.setEnt .internalNl),(8,.cb)],0,0⟩,⟨23,115792089237316195423570985008687907853269984665635612279300442486259482361343,[],[(7,.setEnt .internalNl),(8,.cb),(9,.code)],0,0⟩,⟨24,4951760157141521099596496896,[],[(7,.setEnt .internalNl),(8,.cb)],0,0⟩,⟨26,549755813888,[],[(7,.setEnt .internalNl),(8,.cb)],0,0⟩],[⟨16,4951760157141521099596496896,[],[(7,.setEnt .internalNl),(8,.cb)],0,0⟩,⟨22,4294967808,[],[(7,.setEnt .internalNl),(8,.cb)],0,0⟩,⟨23,115792089237316195423570985008687907853269984665635612279300442486259482361343,[],[(7,.setEnt .internalNl),(8,.cb),(9,.code)],0,0⟩,⟨24,4951760157141521099596496896,[],[(7,.setEnt .internalNl),(8,.cb)],0,0⟩,⟨26,549755813888,[],[(7,.setEnt .internalNl),(8,.cb)],0,0⟩],[⟨16,4951760157141521099596496896,[],[(7,.setEnt .internalNl),(8,.cb)],0,0⟩,⟨22,4294967808,[],[(7,.setEnt .internalNl),(8,.cb)],0,0⟩,⟨23,115792089237316195423570985008687907853269984665635612279300442486259482361343,[],[(7,.setEnt .internalNl),(8,.cb),(9,.code)],0,0⟩,⟨24,4951760157141521099596496896,[],[(7,.setEnt .internalNl),(8,.cb)],0,0⟩,⟨26,549755813888,[],[(7,.setEnt .internalNl),(8,.cb)],0,0⟩],[⟨16,4951760157141521099596496896,[],[(7,.setEnt .internalNl),(8,.cb)],0,0⟩,⟨22,4294967808,[],[(7,.setEnt .internalNl),(8,.cb)],0,0⟩,⟨23,115792089237316195423570985008687907853269984665635612279300442486259482361343,[],[(7,.setEnt .internalNl),(8,.cb),(9,.code)],0,0⟩,⟨24,4951760157141521099596496896,[],[(7,.setEnt .internalNl),(8,.cb)],0,0⟩,⟨26,549755813888,[],[(7,.setEnt .internalNl),(8,.cb)],0,0⟩],[⟨16,4951760157141521099596496896,[],[],0,0⟩,⟨22,4294967808,[],[],0,0⟩,⟨23,115792089237316195423570985008687907853269984665635612279300442486259482361343,[],[(9,.code)],0,0⟩,⟨24,4951760157141521099596496896,[],[],0,0⟩,⟨26,549755813888,[],[],0,0⟩],[⟨16,4951760157141521099596496896,[],[],0,0⟩,⟨22,4294967808,[],[],0,0⟩,⟨23,115792089237316195423570985008687907853269984665635612279300442486259482361343,[],[(9,.code)],0,0⟩,⟨24,4951760157141521099596496896,[],[],0,0⟩,⟨26,549755813888,[],[],0,0⟩],[⟨25,115792089237316195423570985008687907853269984665640564039457584007913129626623,[],[(10,.code)],0,0⟩],[⟨16,4951760157141521099596496896,[],[],0,0⟩,⟨22,4294967808,[],[],0,0⟩,⟨23,115792089237316195423570985008687907853269984665635612279300442486259482361343,[],[(9,.code)],0,0⟩,⟨24,4951760157141521099596496896,[],[],0,0⟩,⟨26,549755813888,[],[],0,0⟩],[],[⟨28,4951760157141521099596496896,[],[],0,0⟩,⟨34,4294967808,[],[],0,0⟩,⟨35,115792089237316195423570985008687907853269984665635612279300442486792058306047,[],[(14,.code)],0,0⟩,⟨36,4951760157141521099596496896,[],[],0,0⟩,⟨38,17179869184,[],[],0,0⟩],[⟨29,8192,[],[],0,0⟩,⟨31,1024,[],[],0,0⟩,⟨32,4096,[],[],0,0⟩,⟨33,8192,[.crAlone],[],0,0⟩],[⟨30,1024,[],[],0,0⟩],[⟨28,4951760157141521099596496896,[],[(12,.setEnt .internalNl),(13,.cb)],0,0⟩,⟨34,4294967808,[],[(12,.setEnt .internalNl),(13,.cb)],0,0⟩,⟨35,115792089237316195423570985008687907853269984665635612279300442486792058306047,[],[(12,.setEnt .internalNl),(13,.cb),(14,.code)],0,0⟩,⟨36,4951760157141521099596496896,[],[(12,.setEnt .internalNl),(13,.cb)],0,0⟩,⟨38,17179869184,[],[(12,.setEnt .internalNl),(13,.cb)],0,0⟩],[⟨28,4951760157141521099596496896,[],[(12,.setEnt .internalNl),(13,.cb)],0,0⟩,⟨34,4294967808,[],[(12,.setEnt .internalNl),(13,.cb)],0,0⟩,⟨35,115792089237316195423570985008687907853269984665635612279300442486792058306047,[],[(12,.setEnt .internalNl),(13,.cb),(14,.code)],0,0⟩,⟨36,4951760157141521099596496896,[],[(12,.setEnt .internalNl),(13,.cb)],0,0⟩,⟨38,17179869184,[],[(12,.setEnt .internalNl),(13,.cb)],0,0⟩],[⟨28,4951760157141521099596496896,[],[(12,.setEnt .internalNl),(13,.cb)],0,0⟩,⟨34,4294967808,[],[(12,.setEnt .internalNl),(13,.cb)],0,0⟩,⟨35,115792089237316195423570985008687907853269984665635612279300442486792058306047,[],[(12,.setEnt .internalNl),(13,.cb),(14,.code)],0,0⟩,⟨36,4951760157141521099596496896,[],[(12,.setEnt .internalNl),(13,.cb)],0,0⟩,⟨38,17179869184,[],[(12,.setEnt .internalNl),(13,.cb)],0,0⟩],[⟨28,4951760157141521099596496896,[],[(12,.setEnt .internalNl),(13,.cb)],0,0⟩,⟨34,4294967808,[],[(12,.setEnt .internalNl),(13,.cb)],0,0⟩,⟨35,115792089237316195423570985008687907853269984665635612279300442486792058306047,[],[(12,.setEnt .internalNl),(13,.cb),(14,.code)],0,0⟩,⟨36,4951760157141521099596496896,[],[(12,.setEnt .internalNl),(13,.cb)],0,0⟩,⟨38,17179869184,[],[(12,.setEnt .internalNl),(13,.cb)],0,0⟩],[⟨28,4951760157141521099596496896,[],[],0,0⟩,⟨34,4294967808,[],[],0,0⟩,⟨35,115792089237316195423570985008687907853269984665635612279300442486792058306047,[],[(14,.code)],0,0⟩,⟨36,4951760157141521099596496896,[],[],0,0⟩,⟨38,17179869184,[],[],0,0⟩],[⟨28,4951760157141521099596496896,[],[],0,0⟩,⟨34,4294967808,[],[],0,0⟩,⟨35,115792089237316195423570985008687907853269984665635612279300442486792058306047,[],[(14,.code)],0,0⟩,⟨36,4951760157141521099596496896,[],[],0,0⟩,⟨38,17179869184,[],[],0,0⟩],[⟨37,115792089237316195423570985008687907853269984665640564039457584007913129626623,[],[(15,.code)],0,0⟩],[⟨28,4951760157141521099596496896,[],[],0,0⟩,⟨34,4294967808,[],[],0,0⟩,⟨35,115792089237316195423570985008687907853269984665635612279300442486792058306047,[],[(14,.code)],0,0⟩,⟨36,4951760157141521099596496896,[],[],0,0⟩,⟨38,17179869184,[],[],0,0⟩],[],[⟨40,115792089237316195423570985008687907853269984665640564039457583862777594773503,[],[],0,0⟩],[⟨41,115792089237316195423570985008687907853269984665635612279300442346076044774399,[],[],0,0⟩,⟨42,4951760157141521099596496896,[],[],0,0⟩,⟨44,140737488355328,[],[(16,.code)],0,0⟩],[⟨41,115792089237316195423570985008687907853269984665635612279300442346076044774399,[],[],0,0⟩,⟨42,4951760157141521099596496896,[],[],0,0⟩,⟨44,140737488355328,[],[(16,.code)],0,0⟩],[⟨43,115792089237316195423570985008687907853269984665640564039457584007913129626623,[],[],0,0⟩],[⟨41,115792089237316195423570985008687907853269984665635612279300442346076044774399,[],[],0,0⟩,⟨42,4951760157141521099596496896,[],[],0,0⟩,⟨44,140737488355328,[],[(16,.code)],0,0⟩],[],[⟨46,1024,[],[(17,.setEnt .newline)],0,0⟩],[],[],[],[],[]],[some (0,[]),none,some (1,[]),some (1,[]),none,none,none,none,none,none,none,none,none,none,some (1,[]),none,none,none,none,none,none,none,none,none,none,none,some (2,[]),none,none,none,none,none,none,none,none,none,none,none,some (2,[]),none,none,none,none,none,some (2,[]),none,some (3,[]),some (3,[]),some (3,[]),some (3,[]),some (4,[])],[1,6,17,18,19]⟩
theorem js_line_nfa_eq : Javascript.js_line.nfa = js_line_nfa := by decide +kernel
/-- The machine of `Javascript.js_line`, with its automaton as a literal. -/
def js_line_M : Machine := ⟨js_line_nfa, Javascript.js_line.ends, Javascript.js_line.sw⟩
theorem js_line_M_eq : Javascript.js_line.machine = js_line_M := by
  unfold Scanner.machine js_line_M; rw [js_line_nfa_eq]
def js_line_masks : List Nat := [4294967808,140737488355328,549755813888,17179869184,8192,1024,4096,115792089237316195423570985008687907853269984665640564039457584007908834656767,115792089237316195423570985008687907853269984665640564039457584007913129626623,4398046511104,115792089237316195423570985008687907853269984665640564039457584007908834658815,4951760157141521099596496896,115792089237316195423570985008687907853269984665635612279300442486259482361343,115792089237316195423570985008687907853269984665635612279300442486792058306047,115792089237316195423570985008687907853269984665640564039457583862777594773503,115792089237316195423570985008687907853269984665635612279300442346076044774399]
def js_line_cs : List (Nat × Nat) := [(0,115792089237316195423570985008687907853269984665635612279300442341106767610367),(9,4294967808),(10,1024),(11,2048),(12,4096),(13,8192),(34,17179869184),(39,549755813888),(42,4398046511104),(47,140737488355328),(92,4951760157141521099596496896)]
theorem js_line_masksIn : masksIn js_line_nfa js_line_masks = true := by decide +kernel
theorem js_line_repOk : repOk js_line_masks js_line_cs = true := by decide +kernel
def js_line_rows : List Row := [⟨[],none,[],[⟨256,.other,false,some ⟨0,[.setEnt (.own 7)],some 4,true⟩⟩,⟨256,.ws,false,some ⟨1,[.setEnt (.own 0)],some 0,false⟩⟩,⟨256,.lf,false,some ⟨0,[.setEnt .newline],some 3,true⟩⟩,⟨256,.vt,false,none⟩,⟨256,.ff,false,some ⟨0,[.setEnt .newline],some 3,true⟩⟩,⟨256,.cr,false,some ⟨2,[.setEnt .newline],none,false⟩⟩,⟨256,.cr,true,some ⟨3,[.setEnt .newline],some 3,false⟩⟩,⟨256,.other,false,some ⟨4,[.code,.setEnt (.own 7)],some 4,false⟩⟩,⟨256,.other,false,some ⟨5,[.code,.setEnt (.own 7)],some 4,false⟩⟩,⟨256,.other,false,some ⟨6,[.setEnt (.own 7)],some 4,false⟩⟩]⟩,⟨[0],some 0,[],[⟨256,.other,false,none⟩,⟨256,.ws,false,some ⟨1,[.setEnt (.own 0)],some 0,false⟩⟩,⟨256,.lf,false,none⟩,⟨256,.vt,false,none⟩,⟨256,.ff,false,none⟩,⟨256,.cr,false,none⟩,⟨256,.cr,true,none⟩]⟩,⟨[45],none,[],[⟨256,.other,false,none⟩,⟨256,.ws,false,none⟩,⟨256,.lf,false,some ⟨0,[.setEnt .newline],some 3,true⟩⟩,⟨256,.vt,false,none⟩,⟨256,.ff,false,none⟩,⟨256,.cr,false,none⟩,⟨256,.cr,true,none⟩]⟩,⟨[45,49],some 3,[],[⟨256,.other,false,none⟩,⟨256,.ws,false,none⟩,⟨256,.lf,false,some ⟨0,[.setEnt .newline],some 3,true⟩⟩,⟨256,.vt,false,none⟩,⟨256,.ff,false,none⟩,⟨256,.cr,false,none⟩,⟨256,.cr,true,none⟩]⟩,⟨[27,50],some 4,[],[⟨256,.other,false,some ⟨7,[.code],none,false⟩⟩,⟨256,.ws,false,some ⟨8,[],none,false⟩⟩,⟨256,.lf,false,some ⟨7,[.code],none,false⟩⟩,⟨256,.vt,false,some ⟨7,[.code],none,false⟩⟩,⟨256,.ff,false,some ⟨7,[.code],none,false⟩⟩,⟨256,.cr,false,some ⟨7,[.code],none,false⟩⟩,⟨256,.cr,true,some ⟨7,[.code],none,false⟩⟩,⟨256,.other,false,some ⟨0,[],some 2,true⟩⟩,⟨256,.other,false,some ⟨9,[],none,false⟩⟩]⟩,⟨[15,50],some 4,[],[⟨256,.other,false,some ⟨10,[.code],none,false⟩⟩,⟨256,.ws,false,some ⟨11,[],none,false⟩⟩,⟨256,.lf,false,some ⟨10,[.code],none,false⟩⟩,⟨256,.vt,false,some ⟨10,[.code],none,false⟩⟩,⟨256,.ff,false,some ⟨10,[.code],none,false⟩⟩,⟨256,.cr,false,some ⟨10,[.code],none,false⟩⟩,⟨256,.cr,true,some ⟨10,[.code],none,false⟩⟩,⟨256,.other,false,some ⟨0,[],some 2,true⟩⟩,⟨256,.other,false,some ⟨12,[],none,false⟩⟩]⟩,⟨[1,4,39,50],some 4,[],[⟨256,.other,false,some ⟨13,[],none,false⟩⟩,⟨256,.ws,false,some ⟨13,[],none,false⟩⟩,⟨256,.lf,false,some ⟨13,[],none,false⟩⟩,⟨256,.vt,false,some ⟨13,[],none,false⟩⟩,⟨256,.ff,false,some ⟨13,[],none,false⟩⟩,⟨256,.cr,false,some ⟨13,[],none,false⟩⟩,⟨256,.cr,true,some ⟨13,[],none,false⟩⟩,⟨256,.other,false,some ⟨14,[.comment],none,false⟩⟩,⟨256,.other,false,some ⟨15,[.comment],some 1,false⟩⟩]⟩,⟨[35],none,[],[⟨256,.other,false,some ⟨7,[.code],none,false⟩⟩,⟨256,.ws,false,some ⟨8,[],none,false⟩⟩,⟨256,.lf,false,some ⟨7,[.code],none,false⟩⟩,⟨256,.vt,false,some ⟨7,[.code],none,false⟩⟩,⟨256,.ff,false,some ⟨7,[.code],none,false⟩⟩,⟨256,.cr,false,some ⟨7,[.code],none,false⟩⟩,⟨256,.cr,true,some ⟨7,[.code],none,false⟩⟩,⟨256,.other,false,some ⟨0,[],some 2,true⟩⟩,⟨256,.other,false,some ⟨9,[],none,false⟩⟩]⟩,⟨[34],none,[],[⟨256,.other,false,some ⟨7,[.code],none,false⟩⟩,⟨256,.ws,false,some ⟨8,[],none,false⟩⟩,⟨256,.lf,false,some ⟨7,[.code],none,false⟩⟩,⟨256,.vt,false,some ⟨7,[.code],none,false⟩⟩,⟨256,.ff,false,some ⟨7,[.code],none,false⟩⟩,⟨256,.cr,false,some ⟨7,[.code],none,false⟩⟩,⟨256,.cr,true,some ⟨7,[.code],none,false⟩⟩,⟨256,.other,false,some ⟨0,[],some 2,true⟩⟩,⟨256,.other,false,some ⟨9,[],none,false⟩⟩]⟩,⟨[28,36],none,[],[⟨256,.other,false,some ⟨16,[.code],none,false⟩⟩,⟨256,.ws,false,some ⟨16,[.code],none,false⟩⟩,⟨256,.lf,false,some ⟨17,[],none,false⟩⟩,⟨256,.vt,false,some ⟨16,[.code],none,false⟩⟩,⟨256,.ff,false,some ⟨18,[],none,false⟩⟩,⟨256,.cr,false,some ⟨19,[],none,false⟩⟩,⟨256,.cr,true,some ⟨20,[],none,false⟩⟩]⟩,⟨[23],none,[],[⟨256,.other,false,some ⟨10,[.code],none,false⟩⟩,⟨256,.ws,false,some ⟨11,[],none,false⟩⟩,⟨256,.lf,false,some ⟨10,[.code],none,false⟩⟩,⟨256,.vt,false,some ⟨10,[.code],none,false⟩⟩,⟨256,.ff,false,some ⟨10,[.code],none,false⟩⟩,⟨256,.cr,false,some ⟨10,[.code],none,false⟩⟩,⟨256,.cr,true,some ⟨10,[.code],none,false⟩⟩,⟨256,.other,false,some ⟨0,[],some 2,true⟩⟩,⟨256,.other,false,some ⟨12,[],none,false⟩⟩]⟩,⟨[22],none,[],[⟨256,.other,false,some ⟨10,[.code],none,false⟩⟩,⟨256,.ws,false,some ⟨11,[],none,false⟩⟩,⟨256,.lf,false,some ⟨10,[.code],none,false⟩⟩,⟨256,.vt,false,some ⟨10,[.code],none,false⟩⟩,⟨256,.ff,false,some ⟨10,[.code],none,false⟩⟩,⟨256,.cr,false,some ⟨10,[.code],none,false⟩⟩,⟨256,.cr,true,some ⟨10,[.code],none,false⟩⟩,⟨256,.other,false,some ⟨0,[],some 2,true⟩⟩,⟨256,.other,false,some ⟨12,[],none,false⟩⟩]⟩,⟨[16,24],none,[],[⟨256,.other,false,some ⟨21,[.code],none,false⟩⟩,⟨256,.ws,false,some ⟨21,[.code],none,false⟩⟩,⟨256,.lf,false,some ⟨22,[],none,false⟩⟩,⟨256,.vt,false,some ⟨21,[.code],none,false⟩⟩,⟨256,.ff,false,some ⟨23,[],none,false⟩⟩,⟨256,.cr,false,some ⟨24,[],none,false⟩⟩,⟨256,.cr,true,some ⟨25,[],none,false⟩⟩]⟩,⟨[40],none,[],[⟨256,.other,false,some ⟨26,[],none,false⟩⟩,⟨256,.ws,false,some ⟨26,[],none,false⟩⟩,⟨256,.lf,false,none⟩,⟨256,.vt,false,some ⟨26,[],none,false⟩⟩,⟨256,.ff,false,none⟩,⟨256,.cr,false,none⟩,⟨256,.cr,true,none⟩,⟨256,.other,false,some ⟨0,[.code],some 2,true⟩⟩,⟨256,.other,false,some ⟨27,[],none,false⟩⟩]⟩,⟨[5],none,[],[⟨256,.other,false,some ⟨28,[.comment],none,false⟩⟩,⟨256,.ws,false,some ⟨29,[],none,false⟩⟩,⟨256,.lf,false,some ⟨30,[],none,false⟩⟩,⟨256,.vt,false,some ⟨28,[.comment],none,false⟩⟩,⟨256,.ff,false,some ⟨31,[],none,false⟩⟩,⟨256,.cr,false,some ⟨32,[],none,false⟩⟩,⟨256,.cr,true,some ⟨33,[],none,false⟩⟩,⟨256,.other,false,some ⟨34,[.comment],none,false⟩⟩]⟩,⟨[2],some 1,[],[⟨256,.other,false,some ⟨35,[],some 1,false⟩⟩,⟨256,.ws,false,some ⟨35,[],some 1,false⟩⟩,⟨256,.lf,false,none⟩,⟨256,.vt,false,some ⟨35,[],some 1,false⟩⟩,⟨256,.ff,false,none⟩,⟨256,.cr,false,none⟩,⟨256,.cr,true,none⟩]⟩,⟨[37],none,[],[⟨256,.other,false,some ⟨7,[.code],none,false⟩⟩,⟨256,.ws,false,some ⟨8,[],none,false⟩⟩,⟨256,.lf,false,some ⟨7,[.code],none,false⟩⟩,⟨256,.vt,false,some ⟨7,[.code],none,false⟩⟩,⟨256,.ff,false,some ⟨7,[.code],none,false⟩⟩,⟨256,.cr,false,some ⟨7,[.code],none,false⟩⟩,⟨256,.cr,true,some ⟨7,[.code],none,false⟩⟩,⟨256,.other,false,some ⟨0,[],some 2,true⟩⟩,⟨256,.other,false,some ⟨9,[],none,false⟩⟩]⟩,⟨[31],none,[],[⟨256,.other,false,some ⟨7,[.setEnt .internalNl,.cb,.code],none,false⟩⟩,⟨256,.ws,false,some ⟨8,[.setEnt .internalNl,.cb],none,false⟩⟩,⟨256,.lf,false,some ⟨7,[.setEnt .internalNl,.cb,.code],none,false⟩⟩,⟨256,.vt,false,some ⟨7,[.setEnt .internalNl,.cb,.code],none,false⟩⟩,⟨256,.ff,false,some ⟨7,[.setEnt .internalNl,.cb,.code],none,false⟩⟩,⟨256,.cr,false,some ⟨7,[.setEnt .internalNl,.cb,.code],none,false⟩⟩,⟨256,.cr,true,some ⟨7,[.setEnt .internalNl,.cb,.code],none,false⟩⟩,⟨256,.other,false,some ⟨0,[.setEnt .internalNl,.cb],some 2,true⟩⟩,⟨256,.other,false,some ⟨9,[.setEnt .internalNl,.cb],none,false⟩⟩]⟩,⟨[32],none,[],[⟨256,.other,false,some ⟨7,[.setEnt .internalNl,.cb,.code],none,false⟩⟩,⟨256,.ws,false,some ⟨8,[.setEnt .internalNl,.cb],none,false⟩⟩,⟨256,.lf,false,some ⟨7,[.setEnt .internalNl,.cb,.code],none,false⟩⟩,⟨256,.vt,false,some ⟨7,[.setEnt .internalNl,.cb,.code],none,false⟩⟩,⟨256,.ff,false,some ⟨7,[.setEnt .internalNl,.cb,.code],none,false⟩⟩,⟨256,.cr,false,some ⟨7,[.setEnt .internalNl,.cb,.code],none,false⟩⟩,⟨256,.cr,true,some ⟨7,[.setEnt .internalNl,.cb,.code],none,false⟩⟩,⟨256,.other,false,some ⟨0,[.setEnt .internalNl,.cb],some 2,true⟩⟩,⟨256,.other,false,some ⟨9,[.setEnt .internalNl,.cb],none,false⟩⟩]⟩,⟨[29],none,[],[⟨256,.other,false,none⟩,⟨256,.ws,false,none⟩,⟨256,.lf,false,some ⟨36,[],none,false⟩⟩,⟨256,.vt,false,none⟩,⟨256,.ff,false,none⟩,⟨256,.cr,false,none⟩,⟨256,.cr,true,none⟩]⟩,⟨[29,33],none,[],[⟨256,.other,false,some ⟨7,[.setEnt .internalNl,.cb,.code],none,false⟩⟩,⟨256,.ws,false,some ⟨8,[.setEnt .internalNl,.cb],none,false⟩⟩,⟨256,.lf,false,some ⟨37,[.setEnt .internalNl,.cb,.code],none,false⟩⟩,⟨256,.vt,false,some ⟨7,[.setEnt .internalNl,.cb,.code],none,false⟩⟩,⟨256,.ff,false,some ⟨7,[.setEnt .internalNl,.cb,.code],none,false⟩⟩,⟨256,.cr,false,some ⟨7,[.setEnt .internalNl,.cb,.code],none,false⟩⟩,⟨256,.cr,true,some ⟨7,[.setEnt .internalNl,.cb,.code],none,false⟩⟩,⟨256,.other,false,some ⟨0,[.setEnt .internalNl,.cb],some 2,true⟩⟩,⟨256,.other,false,some ⟨9,[.setEnt .internalNl,.cb],none,false⟩⟩]⟩,⟨[25],none,[],[⟨256,.other,false,some ⟨10,[.code],none,false⟩⟩,⟨256,.ws,false,some ⟨11,[],none,false⟩⟩,⟨256,.lf,false,some ⟨10,[.code],none,false⟩⟩,⟨256,.vt,false,some ⟨10,[.code],none,false⟩⟩,⟨256,.ff,false,some ⟨10,[.code],none,false⟩⟩,⟨256,.cr,false,some ⟨10,[.code],none,false⟩⟩,⟨256,.cr,true,some ⟨10,[.code],none,false⟩⟩,⟨256,.other,false,some ⟨0,[],some 2,true⟩⟩,⟨256,.other,false,some ⟨12,[],none,false⟩⟩]⟩,⟨[19],none,[],[⟨256,.other,false,some ⟨10,[.setEnt .internalNl,.cb,.code],none,false⟩⟩,⟨256,.ws,false,some ⟨11,[.setEnt .internalNl,.cb],none,false⟩⟩,⟨256,.lf,false,some ⟨10,[.setEnt .internalNl,.cb,.code],none,false⟩⟩,⟨256,.vt,false,some ⟨10,[.setEnt .internalNl,.cb,.code],none,false⟩⟩,⟨256,.ff,false,some ⟨10,[.setEnt .internalNl,.cb,.code],none,false⟩⟩,⟨256,.cr,false,some ⟨10,[.setEnt .internalNl,.cb,.code],none,false⟩⟩,⟨256,.cr,true,some ⟨10,[.setEnt .internalNl,.cb,.code],none,false⟩⟩,⟨256,.other,false,some ⟨0,[.setEnt .internalNl,.cb],some 2,true⟩⟩,⟨256,.other,false,some ⟨12,[.setEnt .internalNl,.cb],none,false⟩⟩]⟩,⟨[20],none,[],[⟨256,.other,false,some ⟨10,[.setEnt .internalNl,.cb,.code],none,false⟩⟩,⟨256,.ws,false,some ⟨11,[.setEnt .internalNl,.cb],none,false⟩⟩,⟨256,.lf,false,some ⟨10,[.setEnt .internalNl,.cb,.code],none,false⟩⟩,⟨256,.vt,false,some ⟨10,[.setEnt .internalNl,.cb,.code],none,false⟩⟩,⟨256,.ff,false,some ⟨10,[.setEnt .internalNl,.cb,.code],none,false⟩⟩,⟨256,.cr,false,some ⟨10,[.setEnt .internalNl,.cb,.code],none,false⟩⟩,⟨256,.cr,true,some ⟨10,[.setEnt .internalNl,.cb,.code],none,false⟩⟩,⟨256,.other,false,some ⟨0,[.setEnt .internalNl,.cb],some 2,true⟩⟩,⟨256,.other,false,some ⟨12,[.setEnt .internalNl,.cb],none,false⟩⟩]⟩,⟨[17],none,[],[⟨256,.other,false,none⟩,⟨256,.ws,false,none⟩,⟨256,.lf,false,some ⟨38,[],none,false⟩⟩,⟨256,.vt,false,none⟩,⟨256,.ff,false,none⟩,⟨256,.cr,false,none⟩,⟨256,.cr,true,none⟩]⟩,⟨[17,21],none,[],[⟨256,.other,false,some ⟨10,[.setEnt .internalNl,.cb,.code],none,false⟩⟩,⟨256,.ws,false,some ⟨11,[.setEnt .internalNl,.cb],none,false⟩⟩,⟨256,.lf,false,some ⟨39,[.setEnt .internalNl,.cb,.code],none,false⟩⟩,⟨256,.vt,false,some ⟨10,[.setEnt .internalNl,.cb,.code],none,false⟩⟩,⟨256,.ff,false,some ⟨10,[.setEnt .internalNl,.cb,.code],none,false⟩⟩,⟨256,.cr,false,some ⟨10,[.setEnt .internalNl,.cb,.code],none,false⟩⟩,⟨256,.cr,true,some ⟨10,[.setEnt .internalNl,.cb,.code],none,false⟩⟩,⟨256,.other,false,some ⟨0,[.setEnt .internalNl,.cb],some 2,true⟩⟩,⟨256,.other,false,some ⟨12,[.setEnt .internalNl,.cb],none,false⟩⟩]⟩,⟨[41],none,[],[⟨256,.other,false,some ⟨26,[],none,false⟩⟩,⟨256,.ws,false,some ⟨26,[],none,false⟩⟩,⟨256,.lf,false,none⟩,⟨256,.vt,false,some ⟨26,[],none,false⟩⟩,⟨256,.ff,false,none⟩,⟨256,.cr,false,none⟩,⟨256,.cr,true,none⟩,⟨256,.other,false,some ⟨0,[.code],some 2,true⟩⟩,⟨256,.other,false,some ⟨27,[],none,false⟩⟩]⟩,⟨[42],none,[],[⟨256,.other,false,some ⟨40,[],none,false⟩⟩,⟨256,.ws,false,some ⟨40,[],none,false⟩⟩,⟨256,.lf,false,none⟩,⟨256,.vt,false,some ⟨40,[],none,false⟩⟩,⟨256,.ff,false,none⟩,⟨256,.cr,false,none⟩,⟨256,.cr,true,none⟩]⟩,⟨[12],none,[],[⟨256,.other,false,some ⟨28,[.comment],none,false⟩⟩,⟨256,.ws,false,some ⟨29,[],none,false⟩⟩,⟨256,.lf,false,some ⟨30,[],none,false⟩⟩,⟨256,.vt,false,some ⟨28,[.comment],none,false⟩⟩,⟨256,.ff,false,some ⟨31,[],none,false⟩⟩,⟨256,.cr,false,some ⟨32,[],none,false⟩⟩,⟨256,.cr,true,some ⟨33,[],none,false⟩⟩,⟨256,.other,false,some ⟨34,[.comment],none,false⟩⟩]⟩,⟨[11],none,[],[⟨256,.other,false,some ⟨28,[.comment],none,false⟩⟩,⟨256,.ws,false,some ⟨29,[],none,false⟩⟩,⟨256,.lf,false,some ⟨30,[],none,false⟩⟩,⟨256,.vt,false,some ⟨28,[.comment],none,false⟩⟩,⟨256,.ff,false,some ⟨31,[],none,false⟩⟩,⟨256,.cr,false,some ⟨32,[],none,false⟩⟩,⟨256,.cr,true,some ⟨33,[],none,false⟩⟩,⟨256,.other,false,some ⟨34,[.comment],none,false⟩⟩]⟩,⟨[8],none,[],[⟨256,.other,false,some ⟨28,[.setEnt .internalNl,.cb,.comment],none,false⟩⟩,⟨256,.ws,false,some ⟨29,[.setEnt .internalNl,.cb],none,false⟩⟩,⟨256,.lf,false,some ⟨30,[.setEnt .internalNl,.cb],none,false⟩⟩,⟨256,.vt,false,some ⟨28,[.setEnt .internalNl,.cb,.comment],none,false⟩⟩,⟨256,.ff,false,some ⟨31,[.setEnt .internalNl,.cb],none,false⟩⟩,⟨256,.cr,false,some ⟨32,[.setEnt .internalNl,.cb],none,false⟩⟩,⟨256,.cr,true,some ⟨33,[.setEnt .internalNl,.cb],none,false⟩⟩,⟨256,.other,false,some ⟨34,[.setEnt .internalNl,.cb,.comment],none,false⟩⟩]⟩,⟨[9],none,[],[⟨256,.other,false,some ⟨28,[.setEnt .internalNl,.cb,.comment],none,false⟩⟩,⟨256,.ws,false,some ⟨29,[.setEnt .internalNl,.cb],none,false⟩⟩,⟨256,.lf,false,some ⟨30,[.setEnt .internalNl,.cb],none,false⟩⟩,⟨256,.vt,false,some ⟨28,[.setEnt .internalNl,.cb,.comment],none,false⟩⟩,⟨256,.ff,false,some ⟨31,[.setEnt .internalNl,.cb],none,false⟩⟩,⟨256,.cr,false,some ⟨32,[.setEnt .internalNl,.cb],none,false⟩⟩,⟨256,.cr,true,some ⟨33,[.setEnt .internalNl,.cb],none,false⟩⟩,⟨256,.other,false,some ⟨34,[.setEnt .internalNl,.cb,.comment],none,false⟩⟩]⟩,⟨[6],none,[],[⟨256,.other,false,none⟩,⟨256,.ws,false,none⟩,⟨256,.lf,false,some ⟨41,[],none,false⟩⟩,⟨256,.vt,false,none⟩,⟨256,.ff,false,none⟩,⟨256,.cr,false,none⟩,⟨256,.cr,true,none⟩]⟩,⟨[6,10],none,[],[⟨256,.other,false,some ⟨28,[.setEnt .internalNl,.cb,.comment],none,false⟩⟩,⟨256,.ws,false,some ⟨29,[.setEnt .internalNl,.cb],none,false⟩⟩,⟨256,.lf,false,some ⟨42,[.setEnt .internalNl,.cb],none,false⟩⟩,⟨256,.vt,false,some ⟨28,[.setEnt .internalNl,.cb,.comment],none,false⟩⟩,⟨256,.ff,false,some ⟨31,[.setEnt .internalNl,.cb],none,false⟩⟩,⟨256,.cr,false,some ⟨32,[.setEnt .internalNl,.cb],none,false⟩⟩,⟨256,.cr,true,some ⟨33,[.setEnt .internalNl,.cb],none,false⟩⟩,⟨256,.other,false,some ⟨34,[.setEnt .internalNl,.cb,.comment],none,false⟩⟩]⟩,⟨[12,13],none,[],[⟨256,.other,false,some ⟨28,[.comment],none,false⟩⟩,⟨256,.ws,false,some ⟨29,[],none,false⟩⟩,⟨256,.lf,false,some ⟨30,[],none,false⟩⟩,⟨256,.vt,false,some ⟨28,[.comment],none,false⟩⟩,⟨256,.ff,false,some ⟨31,[],none,false⟩⟩,⟨256,.cr,false,some ⟨32,[],none,false⟩⟩,⟨256,.cr,true,some ⟨33,[],none,false⟩⟩,⟨256,.other,false,some ⟨34,[.comment],none,false⟩⟩,⟨256,.other,false,some ⟨0,[],some 1,true⟩⟩]⟩,⟨[3],some 1,[],[⟨256,.other,false,some ⟨35,[],some 1,false⟩⟩,⟨256,.ws,false,some ⟨35,[],some 1,false⟩⟩,⟨256,.lf,false,none⟩,⟨256,.vt,false,some ⟨35,[],some 1,false⟩⟩,⟨256,.ff,false,none⟩,⟨256,.cr,false,none⟩,⟨256,.cr,true,none⟩]⟩,⟨[30],none,[],[⟨256,.other,false,some ⟨7,[.setEnt .internalNl,.cb,.code],none,false⟩⟩,⟨256,.ws,false,some ⟨8,[.setEnt .internalNl,.cb],none,false⟩⟩,⟨256,.lf,false,some ⟨7,[.setEnt .internalNl,.cb,.code],none,false⟩⟩,⟨256,.vt,false,some ⟨7,[.setEnt .internalNl,.cb,.code],none,false⟩⟩,⟨256,.ff,false,some ⟨7,[.setEnt .internalNl,.cb,.code],none,false⟩⟩,⟨256,.cr,false,some ⟨7,[.setEnt .internalNl,.cb,.code],none,false⟩⟩,⟨256,.cr,true,some ⟨7,[.setEnt .internalNl,.cb,.code],none,false⟩⟩,⟨256,.other,false,some ⟨0,[.setEnt .internalNl,.cb],some 2,true⟩⟩,⟨256,.other,false,some ⟨9,[.setEnt .internalNl,.cb],none,false⟩⟩]⟩,⟨[30,35],none,[],[⟨256,.other,false,some ⟨7,[.setEnt .internalNl,.cb,.code],none,false⟩⟩,⟨256,.ws,false,some ⟨8,[.setEnt .internalNl,.cb],none,false⟩⟩,⟨256,.lf,false,some ⟨7,[.setEnt .internalNl,.cb,.code],none,false⟩⟩,⟨256,.vt,false,some ⟨7,[.setEnt .internalNl,.cb,.code],none,false⟩⟩,⟨256,.ff,false,some ⟨7,[.setEnt .internalNl,.cb,.code],none,false⟩⟩,⟨256,.cr,false,some ⟨7,[.setEnt .internalNl,.cb,.code],none,false⟩⟩,⟨256,.cr,true,some ⟨7,[.setEnt .internalNl,.cb,.code],none,false⟩⟩,⟨256,.other,false,some ⟨0,[.setEnt .internalNl,.cb],some 2,true⟩⟩,⟨256,.other,false,some ⟨9,[.setEnt .internalNl,.cb],none,false⟩⟩]⟩,⟨[18],none,[],[⟨256,.other,false,some ⟨10,[.setEnt .internalNl,.cb,.code],none,false⟩⟩,⟨256,.ws,false,some ⟨11,[.setEnt .internalNl,.cb],none,false⟩⟩,⟨256,.lf,false,some ⟨10,[.setEnt .internalNl,.cb,.code],none,false⟩⟩,⟨256,.vt,false,some ⟨10,[.setEnt .internalNl,.cb,.code],none,false⟩⟩,⟨256,.ff,false,some ⟨10,[.setEnt .internalNl,.cb,.code],none,false⟩⟩,⟨256,.cr,false,some ⟨10,[.setEnt .internalNl,.cb,.code],none,false⟩⟩,⟨256,.cr,true,some ⟨10,[.setEnt .internalNl,.cb,.code],none,false⟩⟩,⟨256,.other,false,some ⟨0,[.setEnt .internalNl,.cb],some 2,true⟩⟩,⟨256,.other,false,some ⟨12,[.setEnt .internalNl,.cb],none,false⟩⟩]⟩,⟨[18,23],none,[],[⟨256,.other,false,some ⟨10,[.setEnt .internalNl,.cb,.code],none,false⟩⟩,⟨256,.ws,false,some ⟨11,[.setEnt .internalNl,.cb],none,false⟩⟩,⟨256,.lf,false,some ⟨10,[.setEnt .internalNl,.cb,.code],none,false⟩⟩,⟨256,.vt,false,some ⟨10,[.setEnt .internalNl,.cb,.code],none,false⟩⟩,⟨256,.ff,false,some ⟨10,[.setEnt .internalNl,.cb,.code],none,false⟩⟩,⟨256,.cr,false,some ⟨10,[.setEnt .internalNl,.cb,.code],none,false⟩⟩,⟨256,.cr,true,some ⟨10,[.setEnt .internalNl,.cb,.code],none,false⟩⟩,⟨256,.other,false,some ⟨0,[.setEnt .internalNl,.cb],some 2,true⟩⟩,⟨256,.other,false,some ⟨12,[.setEnt .internalNl,.cb],none,false⟩⟩]⟩,⟨[43],none,[],[⟨256,.other,false,some ⟨26,[],none,false⟩⟩,⟨256,.ws,false,some ⟨26,[],none,false⟩⟩,⟨256,.lf,false,none⟩,⟨256,.vt,false,some ⟨26,[],none,false⟩⟩,⟨256,.ff,false,none⟩,⟨256,.cr,false,none⟩,⟨256,.cr,true,none⟩,⟨256,.other,false,some ⟨0,[.code],some 2,true⟩⟩,⟨256,.other,false,some ⟨27,[],none,false⟩⟩]⟩,⟨[7],none,[],[⟨256,.other,false,some ⟨28,[.setEnt .internalNl,.cb,.comment],none,false⟩⟩,⟨256,.ws,false,some ⟨29,[.setEnt .internalNl,.cb],none,false⟩⟩,⟨256,.lf,false,some ⟨30,[.setEnt .internalNl,.cb],none,false⟩⟩,⟨256,.vt,false,some ⟨28,[.setEnt .internalNl,.cb,.comment],none,false⟩⟩,⟨256,.ff,false,some ⟨31,[.setEnt .internalNl,.cb],none,false⟩⟩,⟨256,.cr,false,some ⟨32,[.setEnt .internalNl,.cb],none,false⟩⟩,⟨256,.cr,true,some ⟨33,[.setEnt .internalNl,.cb],none,false⟩⟩,⟨256,.other,false,some ⟨34,[.setEnt .internalNl,.cb,.comment],none,false⟩⟩]⟩,⟨[7,8],none,[],[⟨256,.other,false,some ⟨28,[.setEnt .internalNl,.cb,.comment],none,false⟩⟩,⟨256,.ws,false,some ⟨29,[.setEnt .internalNl,.cb],none,false⟩⟩,⟨256,.lf,false,some ⟨30,[.setEnt .internalNl,.cb],none,false⟩⟩,⟨256,.vt,false,some ⟨28,[.setEnt .internalNl,.cb,.comment],none,false⟩⟩,⟨256,.ff,false,some ⟨31,[.setEnt .internalNl,.cb],none,false⟩⟩,⟨256,.cr,false,some ⟨32,[.setEnt .internalNl,.cb],none,false⟩⟩,⟨256,.cr,true,some ⟨33,[.setEnt .internalNl,.cb],none,false⟩⟩,⟨256,.other,false,some ⟨34,[.setEnt .internalNl,.cb,.comment],none,false⟩⟩]⟩]
theorem js_line_rowsOk : rowsOk js_line_nfa [] (js_line_cs.map (·.1)) js_line_rows = true := by decide +kernel
def js_line_D : Dfa js_line_M.nfa := ⟨js_line_masks, [], js_line_cs, js_line_rows, js_line_masksIn, js_line_repOk, js_line_rowsOk⟩

def matlab_line_nfa : Nfa := ⟨[⟨0,4294967808,[],[(0,.setEnt (.own 0))],0,0⟩,⟨1,137438953472,[],[],0,0⟩,⟨2,70368744177664,[],[],0,0⟩,⟨7,137438953472,[],[],0,2⟩,⟨18,549755813888,[],[(7,.code)],0,0⟩,⟨23,17179869184,[],[(8,.code)],0,0⟩,⟨28,8192,[],[(9,.setEnt .newline)],0,0⟩,⟨30,1024,[],[(9,.setEnt .newline)],0,0⟩,⟨31,4096,[],[(9,.setEnt .newline)],0,0⟩,⟨32,8192,[.crAlone],[(9,.setEnt .newline)],0,0⟩,⟨33,115792089237316195423570985008687907853269984665640564039457584007908834656767,[],[(10,.setEnt (.own 3))],0,0⟩],[[⟨0,4294967808,[],[(0,.setEnt (.own 0))],0,0⟩],[⟨5,115792089237316195423570985008687907853259350841674284712474353551430886883327,[],[(1,.fhold 0),(2,.comment)],0,0⟩],[⟨3,70368744177664,[],[],0,0⟩],[⟨4,70368744177664,[],[],0,0⟩],[⟨5,115792089237316195423570985008687907853259350841674284712474353551430886883327,[],[(1,.fhold 0),(2,.comment)],0,0⟩],[⟨6,115792089237316195423570985008687907853269984665640564039457584007913129626623,[],[],0,0⟩],[⟨6,115792089237316195423570985008687907853269984665640564039457584007913129626623,[],[],0,0⟩],[⟨8,10633823966279326983230456482242756608,[],[(3,.comment)],0,2⟩],[⟨9,8192,[],[],0,2⟩,⟨11,1024,[],[],0,2⟩,⟨12,4096,[],[],0,2⟩,⟨13,8192,[.crAlone],[],0,2⟩,⟨14,4294967808,[],[],0,2⟩,⟨15,115792089237316195423570985008687907853269984665640564039457584007908834658815,[],[(6,.code)],0,2⟩,⟨16,137438953472,[],[],0,2⟩],[⟨10,1024,[],[],0,2⟩],[⟨9,8192,[],[(4,.setEnt .internalNl),(5,.cb)],0,2⟩,⟨11,1024,[],[(4,.setEnt .internalNl),(5,.cb)],0,2⟩,⟨12,4096,[],[(4,.setEnt .internalNl),(5,.cb)],0,2⟩,⟨13,8192,[.crAlone],[(4,.setEnt .internalNl),(5,.cb)],0,2⟩,⟨14,4294967808,[],[(4,.setEnt .internalNl),(5,.cb)],0,2⟩,⟨15,115792089237316195423570985008687907853269984665640564039457584007908834658815,[],[(4,.setEnt .internalNl),(5,.cb),(6,.code)],0,2⟩,⟨16,137438953472,[],[(4,.setEnt .internalNl),(5,.cb)],0,2⟩],[⟨9,8192,[],[(4,.setEnt .internalNl),(5,.cb)],0,2⟩,⟨11,1024,[],[(4,.setEnt .internalNl),(5,.cb)],0,2⟩,⟨12,4096,[],[(4,.setEnt .internalNl),(5,.cb)],0,2⟩,⟨13,8192,[.crAlone],[(4,.setEnt .internalNl),(5,.cb)],0,2⟩,⟨14,4294967808,[],[(4,.setEnt .internalNl),(5,.cb)],0,2⟩,⟨15,115792089237316195423570985008687907853269984665640564039457584007908834658815,[],[(4,.setEnt .internalNl),(5,.cb),(6,.code)],0,2⟩,⟨16,137438953472,[],[(4,.setEnt .internalNl),(5,.cb)],0,2⟩],[⟨9,8192,[],[(4,.setEnt .internalNl),(5,.cb)],0,2⟩,⟨11,1024,[],[(4,.setEnt .internalNl),(5,.cb)],0,2⟩,⟨12,4096,[],[(4,.setEnt .internalNl),(5,.cb)],0,2⟩,⟨13,8192,[.crAlone],[(4,.setEnt .internalNl),(5,.cb)],0,2⟩,⟨14,4294967808,[],[(4,.setEnt .internalNl),(5,.cb)],0,2⟩,⟨15,115792089237316195423570985008687907853269984665640564039457584007908834658815,[],[(4,.setEnt .internalNl),(5,.cb),(6,.code)],0,2⟩,⟨16,137438953472,[],[(4,.setEnt .internalNl),(5,.cb)],0,2⟩],[⟨9,8192,[],[(4,.setEnt .internalNl),(5,.cb)],0,2⟩,⟨11,1024,[],[(4,.setEnt .internalNl),(5,.cb)],0,2⟩,⟨12,4096,[],[(4,.setEnt .internalNl),(5,.cb)],0,2⟩,⟨13,8192,[.crAlone],[(4,.setEnt .internalNl),(5,.cb)],0,2⟩,⟨14,4294967808,[],[(4,.setEnt .internalNl),(5,.cb)],0,2⟩,⟨15,115792089237316195423570985008687907853269984665640564039457584007908834658815,[],[(4,.setEnt .internalNl),(5,.cb),(6,.code)],0,2⟩,⟨16,137438953472,[],[(4,.setEnt .internalNl),(5,.cb)],0,2⟩],[⟨9,8192,[],[],0,2⟩,⟨11,1024,[],[],0,2⟩,⟨12,4096,[],[],0,2⟩,⟨13,8192,[.crAlone],[],0,2⟩,⟨14,4294967808,[],[],0,2⟩,⟨15,115792089237316195423570985008687907853269984665640564039457584007908834658815,[],[(6,.code)],0,2⟩,⟨16,137438953472,[],[],0,2⟩],[⟨9,8192,[],[],0,2⟩,⟨11,1024,[],[],0,2⟩,⟨12,4096,[],[],0,2⟩,⟨13,8192,[.crAlone],[],0,2⟩,⟨14,4294967808,[],[],0,2⟩,⟨15,115792089237316195423570985008687907853269984665640564039457584007908834658815,[],[(6,.code)],0,2⟩,⟨16,137438953472,[],[],0,2⟩],[⟨17,42535295865117307932921825928971026432,[],[],2,0⟩],[],[⟨19,115792089237316195423570985008687907853269984665635612279300442486263777315839,[],[],0,0⟩,⟨20,4951760157141521099596496896,[],[],0,0⟩,⟨22,549755813888,[],[],0,0⟩],[⟨19,115792089237316195423570985008687907853269984665635612279300442486263777315839,[],[],0,0⟩,⟨20,4951760157141521099596496896,[],[],0,0⟩,⟨22,549755813888,[],[],0,0⟩],[⟨21,115792089237316195423570985008687907853269984665640564039457584007913129626623,[],[],0,0⟩],[⟨19,115792089237316195423570985008687907853269984665635612279300442486263777315839,[],[],0,0⟩,⟨20,4951760157141521099596496896,[],[],0,0⟩,⟨22,549755813888,[],[],0,0⟩],[],[⟨24,115792089237316195423570985008687907853269984665635612279300442486796353260543,[],[],0,0⟩,⟨25,4951760157141521099596496896,[],[],0,0⟩,⟨27,17179869184,[],[],0,0⟩],[⟨24,115792089237316195423570985008687907853269984665635612279300442486796353260543,[],[],0,0⟩,⟨25,4951760157141521099596496896,[],[],0,0⟩,⟨27,17179869184,[],[],0,0⟩],[⟨26,115792089237316195423570985008687907853269984665640564039457584007913129626623,[],[],0,0⟩],[⟨24,115792089237316195423570985008687907853269984665635612279300442486796353260543,[],[],0,0⟩,⟨25,4951760157141521099596496896,[],[],0,0⟩,⟨27,17179869184,[],[],0,0⟩],[],[⟨29,1024,[],[(9,.setEnt .newline)],0,0⟩],[],[],[],[],[]],[some (0,[]),none,none,none,none,some (1,[]),some (1,[]),none,none,none,none,none,none,none,none,none,none,some (1,[]),none,none,none,none,some (2,[]),none,none,none,none,some (2,[]),none,some (3,[]),some (3,[]),some (3,[]),some (3,[]),some (4,[])],[1,7,9,10,11]⟩
theorem matlab_line_nfa_eq : Matlab.matlab_line.nfa = matlab_line_nfa := by decide +kernel
/-- The machine of `Matlab.matlab_line`, with its automaton as a literal. -/
def matlab_line_M : Machine := ⟨matlab_line_nfa, Matlab.matlab_line.ends, Matlab.matlab_line.sw⟩
theorem matlab_line_M_eq : Matlab.matlab_line.machine = matlab_line_M := by
  unfold Scanner.machine matlab_line_M; rw [matlab_line_nfa_eq]
def matlab_line_masks : List Nat := [4294967808,137438953472,70368744177664,549755813888,17179869184,8192,1024,4096,115792089237316195423570985008687907853269984665640564039457584007908834656767,115792089237316195423570985008687907853259350841674284712474353551430886883327,115792089237316195423570985008687907853269984665640564039457584007913129626623,10633823966279326983230456482242756608,115792089237316195423570985008687907853269984665640564039457584007908834658815,42535295865117307932921825928971026432,115792089237316195423570985008687907853269984665635612279300442486263777315839,4951760157141521099596496896,115792089237316195423570985008687907853269984665635612279300442486796353260543]
def matlab_line_cs : List (Nat × Nat) := [(0,115792089237316195423570985008687907853216815545804215644384290133324905562623),(9,4294967808),(10,1024),(11,2048),(12,4096),(13,8192),(34,17179869184),(37,137438953472),(39,549755813888),(46,70368744177664),(92,4951760157141521099596496896),(123,10633823966279326983230456482242756608),(125,42535295865117307932921825928971026432)]
theorem matlab_line_masksIn : masksIn matlab_line_nfa matlab_line_masks = true := by decide +kernel
theorem matlab_line_repOk : repOk matlab_line_masks matlab_line_cs = true := by decide +kernel
def matlab_line_rows : List Row := [⟨[],none,[],[⟨0,.other,false,some ⟨0,[.setEnt (.own 3)],some 4,true⟩⟩,⟨9,.ws,false,some ⟨1,[.setEnt (.own 0)],some 0,false⟩⟩,⟨10,.lf,false,some ⟨0,[.setEnt .newline],some 3,true⟩⟩,⟨11,.vt,false,none⟩,⟨12,.ff,false,some ⟨0,[.setEnt .newline],some 3,true⟩⟩,⟨13,.cr,false,some ⟨2,[.setEnt .newline],none,false⟩⟩,⟨13,.cr,true,some ⟨3,[.setEnt .newline],some 3,false⟩⟩,⟨34,.other,false,some ⟨4,[.code,.setEnt (.own 3)],some 4,false⟩⟩,⟨37,.other,false,some ⟨5,[.setEnt (.own 3)],some 4,false⟩⟩,⟨39,.other,false,some ⟨6,[.code,.setEnt (.own 3)],some 4,false⟩⟩,⟨46,.other,false,some ⟨7,[.setEnt (.own 3)],some 4,false⟩⟩,⟨92,.other,false,some ⟨0,[.setEnt (.own 3)],some 4,true⟩⟩,⟨123,.other,false,some ⟨0,[.setEnt (.own 3)],some 4,true⟩⟩,⟨125,.other,false,some ⟨0,[.setEnt (.own 3)],some 4,true⟩⟩]⟩,⟨[0],some 0,[],[⟨0,.other,false,none⟩,⟨9,.ws,false,some ⟨1,[.setEnt (.own 0)],some 0,false⟩⟩,⟨10,.lf,false,none⟩,⟨11,.vt,false,none⟩,⟨12,.ff,false,none⟩,⟨13,.cr,false,none⟩,⟨13,.cr,true,none⟩,⟨34,.other,false,none⟩,⟨37,.other,false,none⟩,⟨39,.other,false,none⟩,⟨46,.other,false,none⟩,⟨92,.other,false,none⟩,⟨123,.other,false,none⟩,⟨125,.other,false,none⟩]⟩,⟨[28],none,[],[⟨0,.other,false,none⟩,⟨9,.ws,false,none⟩,⟨10,.lf,false,some ⟨0,[.setEnt .newline],some 3,true⟩⟩,⟨11,.vt,false,none⟩,⟨12,.ff,false,none⟩,⟨13,.cr,false,none⟩,⟨13,.cr,true,none⟩,⟨34,.other,false,none⟩,⟨37,.other,false,none⟩,⟨39,.other,false,none⟩,⟨46,.other,false,none⟩,⟨92,.other,false,none⟩,⟨123,.other,false,none⟩,⟨125,.other,false,none⟩]⟩,⟨[28,32],some 3,[],[⟨0,.other,false,none⟩,⟨9,.ws,false,none⟩,⟨10,.lf,false,some ⟨0,[.setEnt .newline],some 3,true⟩⟩,⟨11,.vt,false,none⟩,⟨12,.ff,false,none⟩,⟨13,.cr,false,none⟩,⟨13,.cr,true,none⟩,⟨34,.other,false,none⟩,⟨37,.other,false,none⟩,⟨39,.other,false,none⟩,⟨46,.other,false,none⟩,⟨92,.other,false,none⟩,⟨123,.other,false,none⟩,⟨125,.other,false,none⟩]⟩,⟨[23,33],some 4,[],[⟨0,.other,false,some ⟨8,[],none,false⟩⟩,⟨9,.ws,false,some ⟨8,[],none,false⟩⟩,⟨10,.lf,false,none⟩,⟨11,.vt,false,some ⟨8,[],none,false⟩⟩,⟨12,.ff,false,none⟩,⟨13,.cr,false,none⟩,⟨13,.cr,true,none⟩,⟨34,.other,false,some ⟨0,[],some 2,true⟩⟩,⟨37,.other,false,some ⟨8,[],none,false⟩⟩,⟨39,.other,false,some ⟨8,[],none,false⟩⟩,⟨46,.other,false,some ⟨8,[],none,false⟩⟩,⟨92,.other,false,some ⟨9,[],none,false⟩⟩,⟨123,.other,false,some ⟨8,[],none,false⟩⟩,⟨125,.other,false,some ⟨8,[],none,false⟩⟩]⟩,⟨[1,7,33],some 4,[],[⟨0,.other,false,some ⟨10,[.fhold 0,.comment],some 1,false⟩⟩,⟨9,.ws,false,some ⟨10,[.fhold 0,.comment],some 1,false⟩⟩,⟨10,.lf,false,some ⟨10,[.fhold 0,.comment],some 1,false⟩⟩,⟨11,.vt,false,some ⟨10,[.fhold 0,.comment],some 1,false⟩⟩,⟨12,.ff,false,some ⟨10,[.fhold 0,.comment],some 1,false⟩⟩,⟨13,.cr,false,some ⟨10,[.fhold 0,.comment],some 1,false⟩⟩,⟨13,.cr,true,some ⟨10,[.fhold 0,.comment],some 1,false⟩⟩,⟨34,.other,false,some ⟨10,[.fhold 0,.comment],some 1,false⟩⟩,⟨37,.other,false,some ⟨10,[.fhold 0,.comment],some 1,false⟩⟩,⟨39,.other,false,some ⟨10,[.fhold 0,.comment],some 1,false⟩⟩,⟨46,.other,false,some ⟨10,[.fhold 0,.comment],some 1,false⟩⟩,⟨92,.other,false,some ⟨10,[.fhold 0,.comment],some 1,false⟩⟩,⟨123,.other,false,some ⟨11,[.comment],none,false⟩⟩,⟨125,.other,false,some ⟨10,[.fhold 0,.comment],some 1,false⟩⟩]⟩,⟨[18,33],some 4,[],[⟨0,.other,false,some ⟨12,[],none,false⟩⟩,⟨9,.ws,false,some ⟨12,[],none,false⟩⟩,⟨10,.lf,false,none⟩,⟨11,.vt,false,some ⟨12,[],none,false⟩⟩,⟨12,.ff,false,none⟩,⟨13,.cr,false,none⟩,⟨13,.cr,true,none⟩,⟨34,.other,false,some ⟨12,[],none,false⟩⟩,⟨37,.other,false,some ⟨12,[],none,false⟩⟩,⟨39,.other,false,some ⟨0,[],some 2,true⟩⟩,⟨46,.other,false,some ⟨12,[],none,false⟩⟩,⟨92,.other,false,some ⟨13,[],none,false⟩⟩,⟨123,.other,false,some ⟨12,[],none,false⟩⟩,⟨125,.other,false,some ⟨12,[],none,false⟩⟩]⟩,⟨[2,33],some 4,[],[⟨0,.other,false,none⟩,⟨9,.ws,false,none⟩,⟨10,.lf,false,none⟩,⟨11,.vt,false,none⟩,⟨12,.ff,false,none⟩,⟨13,.cr,false,none⟩,⟨13,.cr,true,none⟩,⟨34,.other,false,none⟩,⟨37,.other,false,none⟩,⟨39,.other,false,none⟩,⟨46,.other,false,some ⟨14,[],none,false⟩⟩,⟨92,.other,false,none⟩,⟨123,.other,false,none⟩,⟨125,.other,false,none⟩]⟩,⟨[24],none,[],[⟨0,.other,false,some ⟨8,[],none,false⟩⟩,⟨9,.ws,false,some ⟨8,[],none,false⟩⟩,⟨10,.lf,false,none⟩,⟨11,.vt,false,some ⟨8,[],none,false⟩⟩,⟨12,.ff,false,none⟩,⟨13,.cr,false,none⟩,⟨13,.cr,true,none⟩,⟨34,.other,false,some ⟨0,[],some 2,true⟩⟩,⟨37,.other,false,some ⟨8,[],none,false⟩⟩,⟨39,.other,false,some ⟨8,[],none,false⟩⟩,⟨46,.other,false,some ⟨8,[],none,false⟩⟩,⟨92,.other,false,some ⟨9,[],none,false⟩⟩,⟨123,.other,false,some ⟨8,[],none,false⟩⟩,⟨125,.other,false,some ⟨8,[],none,false⟩⟩]⟩,⟨[25],none,[],[⟨0,.other,false,some ⟨15,[],none,false⟩⟩,⟨9,.ws,false,some ⟨15,[],none,false⟩⟩,⟨10,.lf,false,none⟩,⟨11,.vt,false,some ⟨15,[],none,false⟩⟩,⟨12,.ff,false,none⟩,⟨13,.cr,false,none⟩,⟨13,.cr,true,none⟩,⟨34,.other,false,some ⟨15,[],none,false⟩⟩,⟨37,.other,false,some ⟨15,[],none,false⟩⟩,⟨39,.other,false,some ⟨15,[],none,false⟩⟩,⟨46,.other,false,some ⟨15,[],none,false⟩⟩,⟨92,.other,false,some ⟨15,[],none,false⟩⟩,⟨123,.other,false,some ⟨15,[],none,false⟩⟩,⟨125,.other,false,some ⟨15,[],none,false⟩⟩]⟩,⟨[5],some 1,[],[⟨0,.other,false,some ⟨16,[],some 1,false⟩⟩,⟨9,.ws,false,some ⟨16,[],some 1,false⟩⟩,⟨10,.lf,false,none⟩,⟨11,.vt,false,some ⟨16,[],some 1,false⟩⟩,⟨12,.ff,false,none⟩,⟨13,.cr,false,none⟩,⟨13,.cr,true,none⟩,⟨34,.other,false,some ⟨16,[],some 1,false⟩⟩,⟨37,.other,false,some ⟨16,[],some 1,false⟩⟩,⟨39,.other,false,some ⟨16,[],some 1,false⟩⟩,⟨46,.other,false,some ⟨16,[],some 1,false⟩⟩,⟨92,.other,false,some ⟨16,[],some 1,false⟩⟩,⟨123,.other,false,some ⟨16,[],some 1,false⟩⟩,⟨125,.other,false,some ⟨16,[],some 1,false⟩⟩]⟩,⟨[8],none,[],[⟨0,.other,false,some ⟨17,[.code],none,false⟩⟩,⟨9,.ws,false,some ⟨18,[],none,false⟩⟩,⟨10,.lf,false,some ⟨19,[],none,false⟩⟩,⟨11,.vt,false,some ⟨17,[.code],none,false⟩⟩,⟨12,.ff,false,some ⟨20,[],none,false⟩⟩,⟨13,.cr,false,some ⟨21,[],none,false⟩⟩,⟨13,.cr,true,some ⟨22,[],none,false⟩⟩,⟨34,.other,false,some ⟨17,[.code],none,false⟩⟩,⟨37,.other,false,some ⟨23,[.code],none,false⟩⟩,⟨39,.other,false,some ⟨17,[.code],none,false⟩⟩,⟨46,.other,false,some ⟨17,[.code],none,false⟩⟩,⟨92,.other,false,some ⟨17,[.code],none,false⟩⟩,⟨123,.other,false,some ⟨17,[.code],none,false⟩⟩,⟨125,.other,false,some ⟨17,[.code],none,false⟩⟩]⟩,⟨[19],none,[],[⟨0,.other,false,some ⟨12,[],none,false⟩⟩,⟨9,.ws,false,some ⟨12,[],none,false⟩⟩,⟨10,.lf,false,none⟩,⟨11,.vt,false,some ⟨12,[],none,false⟩⟩,⟨12,.ff,false,none⟩,⟨13,.cr,false,none⟩,⟨13,.cr,true,none⟩,⟨34,.other,false,some ⟨12,[],none,false⟩⟩,⟨37,.other,false,some ⟨12,[],none,false⟩⟩,⟨39,.other,false,some ⟨0,[],some 2,true⟩⟩,⟨46,.other,false,some ⟨12,[],none,false⟩⟩,⟨92,.other,false,some ⟨13,[],none,false⟩⟩,⟨123,.other,false,some ⟨12,[],none,false⟩⟩,⟨125,.other,false,some ⟨12,[],none,false⟩⟩]⟩,⟨[20],none,[],[⟨0,.other,false,some ⟨24,[],none,false⟩⟩,⟨9,.ws,false,some ⟨24,[],none,false⟩⟩,⟨10,.lf,false,none⟩,⟨11,.vt,false,some ⟨24,[],none,false⟩⟩,⟨12,.ff,false,none⟩,⟨13,.cr,false,none⟩,⟨13,.cr,true,none⟩,⟨34,.other,false,some ⟨24,[],none,false⟩⟩,⟨37,.other,false,some ⟨24,[],none,false⟩⟩,⟨39,.other,false,some ⟨24,[],none,false⟩⟩,⟨46,.other,false,some ⟨24,[],none,false⟩⟩,⟨92,.other,false,some ⟨24,[],none,false⟩⟩,⟨123,.other,false,some ⟨24,[],none,false⟩⟩,⟨125,.other,false,some ⟨24,[],none,false⟩⟩]⟩,⟨[3],none,[],[⟨0,.other,false,none⟩,⟨9,.ws,false,none⟩,⟨10,.lf,false,none⟩,⟨11,.vt,false,none⟩,⟨12,.ff,false,none⟩,⟨13,.cr,false,none⟩,⟨13,.cr,true,none⟩,⟨34,.other,false,none⟩,⟨37,.other,false,none⟩,⟨39,.other,false,none⟩,⟨46,.other,false,some ⟨25,[],none,false⟩⟩,⟨92,.other,false,none⟩,⟨123,.other,false,none⟩,⟨125,.other,false,none⟩]⟩,⟨[26],none,[],[⟨0,.other,false,some ⟨8,[],none,false⟩⟩,⟨9,.ws,false,some ⟨8,[],none,false⟩⟩,⟨10,.lf,false,none⟩,⟨11,.vt,false,some ⟨8,[],none,false⟩⟩,⟨12,.ff,false,none⟩,⟨13,.cr,false,none⟩,⟨13,.cr,true,none⟩,⟨34,.other,false,some ⟨0,[],some 2,true⟩⟩,⟨37,.other,false,some ⟨8,[],none,false⟩⟩,⟨39,.other,false,some ⟨8,[],none,false⟩⟩,⟨46,.other,false,some ⟨8,[],none,false⟩⟩,⟨92,.other,false,some ⟨9,[],none,false⟩⟩,⟨123,.other,false,some ⟨8,[],none,false⟩⟩,⟨125,.other,false,some ⟨8,[],none,false⟩⟩]⟩,⟨[6],some 1,[],[⟨0,.other,false,some ⟨16,[],some 1,false⟩⟩,⟨9,.ws,false,some ⟨16,[],some 1,false⟩⟩,⟨10,.lf,false,none⟩,⟨11,.vt,false,some ⟨16,[],some 1,false⟩⟩,⟨12,.ff,false,none⟩,⟨13,.cr,false,none⟩,⟨13,.cr,true,none⟩,⟨34,.other,false,some ⟨16,[],some 1,false⟩⟩,⟨37,.other,false,some ⟨16,[],some 1,false⟩⟩,⟨39,.other,false,some ⟨16,[],some 1,false⟩⟩,⟨46,.other,false,some ⟨16,[],some 1,false⟩⟩,⟨92,.other,false,some ⟨16,[],some 1,false⟩⟩,⟨123,.other,false,some ⟨16,[],some 1,false⟩⟩,⟨125,.other,false,some ⟨16,[],some 1,false⟩⟩]⟩,⟨[15],none,[],[⟨0,.other,false,some ⟨17,[.code],none,false⟩⟩,⟨9,.ws,false,some ⟨18,[],none,false⟩⟩,⟨10,.lf,false,some ⟨19,[],none,false⟩⟩,⟨11,.vt,false,some ⟨17,[.code],none,false⟩⟩,⟨12,.ff,false,some ⟨20,[],none,false⟩⟩,⟨13,.cr,false,some ⟨21,[],none,false⟩⟩,⟨13,.cr,true,some ⟨22,[],none,false⟩⟩,⟨34,.other,false,some ⟨17,[.code],none,false⟩⟩,⟨37,.other,false,some ⟨23,[.code],none,false⟩⟩,⟨39,.other,false,some ⟨17,[.code],none,false⟩⟩,⟨46,.other,false,some ⟨17,[.code],none,false⟩⟩,⟨92,.other,false,some ⟨17,[.code],none,false⟩⟩,⟨123,.other,false,some ⟨17,[.code],none,false⟩⟩,⟨125,.other,false,some ⟨17,[.code],none,false⟩⟩]⟩,⟨[14],none,[],[⟨0,.other,false,some ⟨17,[.code],none,false⟩⟩,⟨9,.ws,false,some ⟨18,[],none,false⟩⟩,⟨10,.lf,false,some ⟨19,[],none,false⟩⟩,⟨11,.vt,false,some ⟨17,[.code],none,false⟩⟩,⟨12,.ff,false,some ⟨20,[],none,false⟩⟩,⟨13,.cr,false,some ⟨21,[],none,false⟩⟩,⟨13,.cr,true,some ⟨22,[],none,false⟩⟩,⟨34,.other,false,some ⟨17,[.code],none,false⟩⟩,⟨37,.other,false,some ⟨23,[.code],none,false⟩⟩,⟨39,.other,false,some ⟨17,[.code],none,false⟩⟩,⟨46,.other,false,some ⟨17,[.code],none,false⟩⟩,⟨92,.other,false,some ⟨17,[.code],none,false⟩⟩,⟨123,.other,false,some ⟨17,[.code],none,false⟩⟩,⟨125,.other,false,some ⟨17,[.code],none,false⟩⟩]⟩,⟨[11],none,[],[⟨0,.other,false,some ⟨17,[.setEnt .internalNl,.cb,.code],none,false⟩⟩,⟨9,.ws,false,some ⟨18,[.setEnt .internalNl,.cb],none,false⟩⟩,⟨10,.lf,false,some ⟨19,[.setEnt .internalNl,.cb],none,false⟩⟩,⟨11,.vt,false,some ⟨17,[.setEnt .internalNl,.cb,.code],none,false⟩⟩,⟨12,.ff,false,some ⟨20,[.setEnt .internalNl,.cb],none,false⟩⟩,⟨13,.cr,false,some ⟨21,[.setEnt .internalNl,.cb],none,false⟩⟩,⟨13,.cr,true,some ⟨22,[.setEnt .internalNl,.cb],none,false⟩⟩,⟨34,.other,false,some ⟨17,[.setEnt .internalNl,.cb,.code],none,false⟩⟩,⟨37,.other,false,some ⟨23,[.setEnt .internalNl,.cb,.code],none,false⟩⟩,⟨39,.other,false,some ⟨17,[.setEnt .internalNl,.cb,.code],none,false⟩⟩,⟨46,.other,false,some ⟨17,[.setEnt .internalNl,.cb,.code],none,false⟩⟩,⟨92,.other,false,some ⟨17,[.setEnt .internalNl,.cb,.code],none,false⟩⟩,⟨123,.other,false,some ⟨17,[.setEnt .internalNl,.cb,.code],none,false⟩⟩,⟨125,.other,false,some ⟨17,[.setEnt .internalNl,.cb,.code],none,false⟩⟩]⟩,⟨[12],none,[],[⟨0,.other,false,some ⟨17,[.setEnt .internalNl,.cb,.code],none,false⟩⟩,⟨9,.ws,false,some ⟨18,[.setEnt .internalNl,.cb],none,false⟩⟩,⟨10,.lf,false,some ⟨19,[.setEnt .internalNl,.cb],none,false⟩⟩,⟨11,.vt,false,some ⟨17,[.setEnt .internalNl,.cb,.code],none,false⟩⟩,⟨12,.ff,false,some ⟨20,[.setEnt .internalNl,.cb],none,false⟩⟩,⟨13,.cr,false,some ⟨21,[.setEnt .internalNl,.cb],none,false⟩⟩,⟨13,.cr,true,some ⟨22,[.setEnt .internalNl,.cb],none,false⟩⟩,⟨34,.other,false,some ⟨17,[.setEnt .internalNl,.cb,.code],none,false⟩⟩,⟨37,.other,false,some ⟨23,[.setEnt .internalNl,.cb,.code],none,false⟩⟩,⟨39,.other,false,some ⟨17,[.setEnt .internalNl,.cb,.code],none,false⟩⟩,⟨46,.other,false,some ⟨17,[.setEnt .internalNl,.cb,.code],none,false⟩⟩,⟨92,.other,false,some ⟨17,[.setEnt .internalNl,.cb,.code],none,false⟩⟩,⟨123,.other,false,some ⟨17,[.setEnt .internalNl,.cb,.code],none,false⟩⟩,⟨125,.other,false,some ⟨17,[.setEnt .internalNl,.cb,.code],none,false⟩⟩]⟩,⟨[9],none,[],[⟨0,.other,false,none⟩,⟨9,.ws,false,none⟩,⟨10,.lf,false,some ⟨26,[],none,false⟩⟩,⟨11,.vt,false,none⟩,⟨12,.ff,false,none⟩,⟨13,.cr,false,none⟩,⟨13,.cr,true,none⟩,⟨34,.other,false,none⟩,⟨37,.other,false,none⟩,⟨39,.other,false,none⟩,⟨46,.other,false,none⟩,⟨92,.other,false,none⟩,⟨123,.other,false,none⟩,⟨125,.other,false,none⟩]⟩,⟨[9,13],none,[],[⟨0,.other,false,some ⟨17,[.setEnt .internalNl,.cb,.code],none,false⟩⟩,⟨9,.ws,false,some ⟨18,[.setEnt .internalNl,.cb],none,false⟩⟩,⟨10,.lf,false,some ⟨27,[.setEnt .internalNl,.cb],none,false⟩⟩,⟨11,.vt,false,some ⟨17,[.setEnt .internalNl,.cb,.code],none,false⟩⟩,⟨12,.ff,false,some ⟨20,[.setEnt .internalNl,.cb],none,false⟩⟩,⟨13,.cr,false,some ⟨21,[.setEnt .internalNl,.cb],none,false⟩⟩,⟨13,.cr,true,some ⟨22,[.setEnt .internalNl,.cb],none,false⟩⟩,⟨34,.other,false,some ⟨17,[.setEnt .internalNl,.cb,.code],none,false⟩⟩,⟨37,.other,false,some ⟨23,[.setEnt .internalNl,.cb,.code],none,false⟩⟩,⟨39,.other,false,some ⟨17,[.setEnt .internalNl,.cb,.code],none,false⟩⟩,⟨46,.other,false,some ⟨17,[.setEnt .internalNl,.cb,.code],none,false⟩⟩,⟨92,.other,false,some ⟨17,[.setEnt .internalNl,.cb,.code],none,false⟩⟩,⟨123,.other,false,some ⟨17,[.setEnt .internalNl,.cb,.code],none,false⟩⟩,⟨125,.other,false,some ⟨17,[.setEnt .internalNl,.cb,.code],none,false⟩⟩]⟩,⟨[15,16],none,[],[⟨0,.other,false,some ⟨17,[.code],none,false⟩⟩,⟨9,.ws,false,some ⟨18,[],none,false⟩⟩,⟨10,.lf,false,some ⟨19,[],none,false⟩⟩,⟨11,.vt,false,some ⟨17,[.code],none,false⟩⟩,⟨12,.ff,false,some ⟨20,[],none,false⟩⟩,⟨13,.cr,false,some ⟨21,[],none,false⟩⟩,⟨13,.cr,true,some ⟨22,[],none,false⟩⟩,⟨34,.other,false,some ⟨17,[.code],none,false⟩⟩,⟨37,.other,false,some ⟨23,[.code],none,false⟩⟩,⟨39,.other,false,some ⟨17,[.code],none,false⟩⟩,⟨46,.other,false,some ⟨17,[.code],none,false⟩⟩,⟨92,.other,false,some ⟨17,[.code],none,false⟩⟩,⟨123,.other,false,some ⟨17,[.code],none,false⟩⟩,⟨125,.other,false,some ⟨0,[],some 1,true⟩⟩]⟩,⟨[21],none,[],[⟨0,.other,false,some ⟨12,[],none,false⟩⟩,⟨9,.ws,false,some ⟨12,[],none,false⟩⟩,⟨10,.lf,false,none⟩,⟨11,.vt,false,some ⟨12,[],none,false⟩⟩,⟨12,.ff,false,none⟩,⟨13,.cr,false,none⟩,⟨13,.cr,true,none⟩,⟨34,.other,false,some ⟨12,[],none,false⟩⟩,⟨37,.other,false,some ⟨12,[],none,false⟩⟩,⟨39,.other,false,some ⟨0,[],some 2,true⟩⟩,⟨46,.other,false,some ⟨12,[],none,false⟩⟩,⟨92,.other,false,some ⟨13,[],none,false⟩⟩,⟨123,.other,false,some ⟨12,[],none,false⟩⟩,⟨125,.other,false,some ⟨12,[],none,false⟩⟩]⟩,⟨[4],none,[],[⟨0,.other,false,some ⟨10,[.fhold 0,.comment],some 1,false⟩⟩,⟨9,.ws,false,some ⟨10,[.fhold 0,.comment],some 1,false⟩⟩,⟨10,.lf,false,some ⟨10,[.fhold 0,.comment],some 1,false⟩⟩,⟨11,.vt,false,some ⟨10,[.fhold 0,.comment],some 1,false⟩⟩,⟨12,.ff,false,some ⟨10,[.fhold 0,.comment],some 1,false⟩⟩,⟨13,.cr,false,some ⟨10,[.fhold 0,.comment],some 1,false⟩⟩,⟨13,.cr,true,some ⟨10,[.fhold 0,.comment],some 1,false⟩⟩,⟨34,.other,false,some ⟨10,[.fhold 0,.comment],some 1,false⟩⟩,⟨37,.other,false,some ⟨10,[.fhold 0,.comment],some 1,false⟩⟩,⟨39,.other,false,some ⟨10,[.fhold 0,.comment],some 1,false⟩⟩,⟨46,.other,false,some ⟨10,[.fhold 0,.comment],some 1,false⟩⟩,⟨92,.other,false,some ⟨10,[.fhold 0,.comment],some 1,false⟩⟩,⟨123,.other,false,none⟩,⟨125,.other,false,some ⟨10,[.fhold 0,.comment],some 1,false⟩⟩]⟩,⟨[10],none,[],[⟨0,.other,false,some ⟨17,[.setEnt .internalNl,.cb,.code],none,false⟩⟩,⟨9,.ws,false,some ⟨18,[.setEnt .internalNl,.cb],none,false⟩⟩,⟨10,.lf,false,some ⟨19,[.setEnt .internalNl,.cb],none,false⟩⟩,⟨11,.vt,false,some ⟨17,[.setEnt .internalNl,.cb,.code],none,false⟩⟩,⟨12,.ff,false,some ⟨20,[.setEnt .internalNl,.cb],none,false⟩⟩,⟨13,.cr,false,some ⟨21,[.setEnt .internalNl,.cb],none,false⟩⟩,⟨13,.cr,true,some ⟨22,[.setEnt .internalNl,.cb],none,false⟩⟩,⟨34,.other,false,some ⟨17,[.setEnt .internalNl,.cb,.code],none,false⟩⟩,⟨37,.other,false,some ⟨23,[.setEnt .internalNl,.cb,.code],none,false⟩⟩,⟨39,.other,false,some ⟨17,[.setEnt .internalNl,.cb,.code],none,false⟩⟩,⟨46,.other,false,some ⟨17,[.setEnt .internalNl,.cb,.code],none,false⟩⟩,⟨92,.other,false,some ⟨17,[.setEnt .internalNl,.cb,.code],none,false⟩⟩,⟨123,.other,false,some ⟨17,[.setEnt .internalNl,.cb,.code],none,false⟩⟩,⟨125,.other,false,some ⟨17,[.setEnt .internalNl,.cb,.code],none,false⟩⟩]⟩,⟨[10,11],none,[],[⟨0,.other,false,some ⟨17,[.setEnt .internalNl,.cb,.code],none,false⟩⟩,⟨9,.ws,false,some ⟨18,[.setEnt .internalNl,.cb],none,false⟩⟩,⟨10,.lf,false,some ⟨19,[.setEnt .internalNl,.cb],none,false⟩⟩,⟨11,.vt,false,some ⟨17,[.setEnt .internalNl,.cb,.code],none,false⟩⟩,⟨12,.ff,false,some ⟨20,[.setEnt .internalNl,.cb],none,false⟩⟩,⟨13,.cr,false,some ⟨21,[.setEnt .internalNl,.cb],none,false⟩⟩,⟨13,.cr,true,some ⟨22,[.setEnt .internalNl,.cb],none,false⟩⟩,⟨34,.other,false,some ⟨17,[.setEnt .internalNl,.cb,.code],none,false⟩⟩,⟨37,.other,false,some ⟨23,[.setEnt .internalNl,.cb,.code],none,false⟩⟩,⟨39,.other,false,some ⟨17,[.setEnt .internalNl,.cb,.code],none,false⟩⟩,⟨46,.other,false,some ⟨17,[.setEnt .internalNl,.cb,.code],none,false⟩⟩,⟨92,.other,false,some ⟨17,[.setEnt .internalNl,.cb,.code],none,false⟩⟩,⟨123,.other,false,some ⟨17,[.setEnt .internalNl,.cb,.code],none,false⟩⟩,⟨125,.other,false,some ⟨17,[.setEnt .internalNl,.cb,.code],none,false⟩⟩]⟩]
theorem matlab_line_rowsOk : rowsOk matlab_line_nfa [] (matlab_line_cs.map (·.1)) matlab_line_rows = true := by decide +kernel
def matlab_line_D : Dfa matlab_line_M.nfa := ⟨matlab_line_masks, [], matlab_line_cs, matlab_line_rows, matlab_line_masksIn, matlab_line_repOk, matlab_line_rowsOk⟩

def rexx_line_nfa : Nfa := ⟨[⟨0,4294967808,[],[(0,.setEnt (.own 0))],0,0⟩,⟨1,140737488355328,[],[(1,.nestRes)],0,2⟩,⟨16,549755813888,[],[(11,.code)],0,0⟩,⟨21,17179869184,[],[(12,.code)],0,0⟩,⟨26,8192,[],[(13,.setEnt .newline)],0,0⟩,⟨28,1024,[],[(13,.setEnt .newline)],0,0⟩,⟨29,4096,[],[(13,.setEnt .newline)],0,0⟩,⟨30,8192,[.crAlone],[(13,.setEnt .newline)],0,0⟩,⟨31,115792089237316195423570985008687907853269984665640564039457584007908834656767,[],[(14,.setEnt (.own 3))],0,0⟩],[[⟨0,4294967808,[],[(0,.setEnt (.own 0))],0,0⟩],[⟨2,4398046511104,[],[(2,.comment)],0,2⟩],[⟨3,8192,[],[],0,2⟩,⟨5,1024,[],[],0,2⟩,⟨6,4096,[],[],0,2⟩,⟨7,8192,[.crAlone],[],0,2⟩,⟨8,4294967808,[],[],0,2⟩,⟨9,140737488355328,[],[],0,2⟩,⟨11,4398046511104,[],[],0,2⟩,⟨13,115792089237316195423570985008687907853269984665640564039457584007908834656767,[],[(9,.comment)],0,2⟩,⟨14,4398046511104,[.nestZero],[],0,2⟩],[⟨4,1024,[],[],0,2⟩],[⟨3,8192,[],[(3,.setEnt .internalNl),(4,.cb)],0,2⟩,⟨5,1024,[],[(3,.setEnt .internalNl),(4,.cb)],0,2⟩,⟨6,4096,[],[(3,.setEnt .internalNl),(4,.cb)],0,2⟩,⟨7,8192,[.crAlone],[(3,.setEnt .internalNl),(4,.cb)],0,2⟩,⟨8,4294967808,[],[(3,.setEnt .internalNl),(4,.cb)],0,2⟩,⟨9,140737488355328,[],[(3,.setEnt .internalNl),(4,.cb)],0,2⟩,⟨11,4398046511104,[],[(3,.setEnt .internalNl),(4,.cb)],0,2⟩,⟨13,115792089237316195423570985008687907853269984665640564039457584007908834656767,[],[(3,.setEnt .internalNl),(4,.cb),(9,.comment)],0,2⟩,⟨14,4398046511104,[.nestZero],[(3,.setEnt .internalNl),(4,.cb)],0,2⟩],[⟨3,8192,[],[(3,.setEnt .internalNl),(4,.cb)],0,2⟩,⟨5,1024,[],[(3,.setEnt .internalNl),(4,.cb)],0,2⟩,⟨6,4096,[],[(3,.setEnt .internalNl),(4,.cb)],0,2⟩,⟨7,8192,[.crAlone],[(3,.setEnt .internalNl),(4,.cb)],0,2⟩,⟨8,4294967808,[],[(3,.setEnt .internalNl),(4,.cb)],0,2⟩,⟨9,140737488355328,[],[(3,.setEnt .internalNl),(4,.cb)],0,2⟩,⟨11,4398046511104,[],[(3,.setEnt .internalNl),(4,.cb)],0,2⟩,⟨13,115792089237316195423570985008687907853269984665640564039457584007908834656767,[],[(3,.setEnt .internalNl),(4,.cb),(9,.comment)],0,2⟩,⟨14,4398046511104,[.nestZero],[(3,.setEnt .internalNl),(4,.cb)],0,2⟩],[⟨3,8192,[],[(3,.setEnt .internalNl),(4,.cb)],0,2⟩,⟨5,1024,[],[(3,.setEnt .internalNl),(4,.cb)],0,2⟩,⟨6,4096,[],[(3,.setEnt .internalNl),(4,.cb)],0,2⟩,⟨7,8192,[.crAlone],[(3,.setEnt .internalNl),(4,.cb)],0,2⟩,⟨8,4294967808,[],[(3,.setEnt .internalNl),(4,.cb)],0,2⟩,⟨9,140737488355328,[],[(3,.setEnt .internalNl),(4,.cb)],0,2⟩,⟨11,4398046511104,[],[(3,.setEnt .internalNl),(4,.cb)],0,2⟩,⟨13,115792089237316195423570985008687907853269984665640564039457584007908834656767,[],[(3,.setEnt .internalNl),(4,.cb),(9,.comment)],0,2⟩,⟨14,4398046511104,[.nestZero],[(3,.setEnt .internalNl),(4,.cb)],0,2⟩],[⟨3,8192,[],[(3,.setEnt .internalNl),(4,.cb)],0,2⟩,⟨5,1024,[],[(3,.setEnt .internalNl),(4,.cb)],0,2⟩,⟨6,4096,[],[(3,.setEnt .internalNl),(4,.cb)],0,2⟩,⟨7,8192,[.crAlone],[(3,.setEnt .internalNl),(4,.cb)],0,2⟩,⟨8,4294967808,[],[(3,.setEnt .internalNl),(4,.cb)],0,2⟩,⟨9,140737488355328,[],[(3,.setEnt .internalNl),(4,.cb)],0,2⟩,⟨11,4398046511104,[],[(3,.setEnt .internalNl),(4,.cb)],0,2⟩,⟨13,115792089237316195423570985008687907853269984665640564039457584007908834656767,[],[(3,.setEnt .internalNl),(4,.cb),(9,.comment)],0,2⟩,⟨14,4398046511104,[.nestZero],[(3,.setEnt .internalNl),(4,.cb)],0,2⟩],[⟨3,8192,[],[],0,2⟩,⟨5,1024,[],[],0,2⟩,⟨6,4096,[],[],0,2⟩,⟨7,8192,[.crAlone],[],0,2⟩,⟨8,4294967808,[],[],0,2⟩,⟨9,140737488355328,[],[],0,2⟩,⟨11,4398046511104,[],[],0,2⟩,⟨13,115792089237316195423570985008687907853269984665640564039457584007908834656767,[],[(9,.comment)],0,2⟩,⟨14,4398046511104,[.nestZero],[],0,2⟩],[⟨10,4398046511104,[],[(5,.nestInc),(6,.comment)],0,2⟩],[⟨3,8192,[],[],0,2⟩,⟨5,1024,[],[],0,2⟩,⟨6,4096,[],[],0,2⟩,⟨7,8192,[.crAlone],[],0,2⟩,⟨8,4294967808,[],[],0,2⟩,⟨9,140737488355328,[],[],0,2⟩,⟨11,4398046511104,[],[],0,2⟩,⟨13,115792089237316195423570985008687907853269984665640564039457584007908834656767,[],[(9,.comment)],0,2⟩,⟨14,4398046511104,[.nestZero],[],0,2⟩],[⟨12,140737488355328,[],[(7,.nestDec),(8,.comment)],0,2⟩],[⟨3,8192,[],[],0,2⟩,⟨5,1024,[],[],0,2⟩,⟨6,4096,[],[],0,2⟩,⟨7,8192,[.crAlone],[],0,2⟩,⟨8,4294967808,[],[],0,2⟩,⟨9,140737488355328,[],[],0,2⟩,⟨11,4398046511104,[],[],0,2⟩,⟨13,115792089237316195423570985008687907853269984665640564039457584007908834656767,[],[(9,.comment)],0,2⟩,⟨14,4398046511104,[.nestZero],[],0,2⟩],[⟨3,8192,[],[],0,2⟩,⟨5,1024,[],[],0,2⟩,⟨6,4096,[],[],0,2⟩,⟨7,8192,[.crAlone],[],0,2⟩,⟨8,4294967808,[],[],0,2⟩,⟨9,140737488355328,[],[],0,2⟩,⟨11,4398046511104,[],[],0,2⟩,⟨13,115792089237316195423570985008687907853269984665640564039457584007908834656767,[],[(9,.comment)],0,2⟩,⟨14,4398046511104,[.nestZero],[],0,2⟩],[⟨15,140737488355328,[.nestZero],[(10,.comment)],2,0⟩],[],[⟨17,115792089237316195423570985008687907853269984665635612279300442486263777315839,[],[],0,0⟩,⟨18,4951760157141521099596496896,[],[],0,0⟩,⟨20,549755813888,[],[],0,0⟩],[⟨17,115792089237316195423570985008687907853269984665635612279300442486263777315839,[],[],0,0⟩,⟨18,4951760157141521099596496896,[],[],0,0⟩,⟨20,549755813888,[],[],0,0⟩],[⟨19,115792089237316195423570985008687907853269984665640564039457584007913129626623,[],[],0,0⟩],[⟨17,115792089237316195423570985008687907853269984665635612279300442486263777315839,[],[],0,0⟩,⟨18,4951760157141521099596496896,[],[],0,0⟩,⟨20,549755813888,[],[],0,0⟩],[],[⟨22,115792089237316195423570985008687907853269984665635612279300442486796353260543,[],[],0,0⟩,⟨23,4951760157141521099596496896,[],[],0,0⟩,⟨25,17179869184,[],[],0,0⟩],[⟨22,115792089237316195423570985008687907853269984665635612279300442486796353260543,[],[],0,0⟩,⟨23,4951760157141521099596496896,[],[],0,0⟩,⟨25,17179869184,[],[],0,0⟩],[⟨24,115792089237316195423570985008687907853269984665640564039457584007913129626623,[],[],0,0⟩],[⟨22,115792089237316195423570985008687907853269984665635612279300442486796353260543,[],[],0,0⟩,⟨23,4951760157141521099596496896,[],[],0,0⟩,⟨25,17179869184,[],[],0,0⟩],[],[⟨27,1024,[],[(13,.setEnt .newline)],0,0⟩],[],[],[],[],[]],[some (0,[]),none,none,none,none,none,none,none,none,none,none,none,none,none,none,some (1,[]),none,none,none,none,some (2,[]),none,none,none,none,some (2,[]),none,some (3,[]),some (3,[]),some (3,[]),some (3,[]),some (4,[])],[1,11,13,14,15]⟩
theorem rexx_line_nfa_eq : Rexx.rexx_line.nfa = rexx_line_nfa := by decide +kernel
/-- The machine of `Rexx.rexx_line`, with its automaton as a literal. -/
def rexx_line_M : Machine := ⟨rexx_line_nfa, Rexx.rexx_line.ends, Rexx.rexx_line.sw⟩
theorem rexx_line_M_eq : Rexx.rexx_line.machine = rexx_line_M := by
  unfold Scanner.machine rexx_line_M; rw [rexx_line_nfa_eq]
def rexx_line_masks : List Nat := [4294967808,140737488355328,549755813888,17179869184,8192,1024,4096,115792089237316195423570985008687907853269984665640564039457584007908834656767,4398046511104,115792089237316195423570985008687907853269984665635612279300442486263777315839,4951760157141521099596496896,115792089237316195423570985008687907853269984665640564039457584007913129626623,115792089237316195423570985008687907853269984665635612279300442486796353260543]
def rexx_line_cs : List (Nat × Nat) := [(0,115792089237316195423570985008687907853269984665635612279300442341106767610367),(9,4294967808),(10,1024),(11,2048),(12,4096),(13,8192),(34,17179869184),(39,549755813888),(42,4398046511104),(47,140737488355328),(92,4951760157141521099596496896)]
theorem rexx_line_masksIn : masksIn rexx_line_nfa rexx_line_masks = true := by decide +kernel
theorem rexx_line_repOk : repOk rexx_line_masks rexx_line_cs = true := by decide +kernel
def rexx_line_rows : List Row := [⟨[],none,[],[⟨256,.other,false,some ⟨0,[.setEnt (.own 3)],some 4,true⟩⟩,⟨256,.ws,false,some ⟨1,[.setEnt (.own 0)],some 0,false⟩⟩,⟨256,.lf,false,some ⟨0,[.setEnt .newline],some 3,true⟩⟩,⟨256,.vt,false,none⟩,⟨256,.ff,false,some ⟨0,[.setEnt .newline],some 3,true⟩⟩,⟨256,.cr,false,some ⟨2,[.setEnt .newline],none,false⟩⟩,⟨256,.cr,true,some ⟨3,[.setEnt .newline],some 3,false⟩⟩,⟨256,.other,false,some ⟨4,[.code,.setEnt (.own 3)],some 4,false⟩⟩,⟨256,.other,false,some ⟨5,[.code,.setEnt (.own 3)],some 4,false⟩⟩,⟨256,.other,false,some ⟨6,[.nestRes,.setEnt (.own 3)],some 4,false⟩⟩]⟩,⟨[0],some 0,[],[⟨256,.other,false,none⟩,⟨256,.ws,false,some ⟨1,[.setEnt (.own 0)],some 0,false⟩⟩,⟨256,.lf,false,none⟩,⟨256,.vt,false,none⟩,⟨256,.ff,false,none⟩,⟨256,.cr,false,none⟩,⟨256,.cr,true,none⟩]⟩,⟨[26],none,[],[⟨256,.other,false,none⟩,⟨256,.ws,false,none⟩,⟨256,.lf,false,some ⟨0,[.setEnt .newline],some 3,true⟩⟩,⟨256,.vt,false,none⟩,⟨256,.ff,false,none⟩,⟨256,.cr,false,none⟩,⟨256,.cr,true,none⟩]⟩,⟨[26,30],some 3,[],[⟨256,.other,false,none⟩,⟨256,.ws,false,none⟩,⟨256,.lf,false,some ⟨0,[.setEnt .newline],some 3,true⟩⟩,⟨256,.vt,false,none⟩,⟨256,.ff,false,none⟩,⟨256,.cr,false,none⟩,⟨256,.cr,true,none⟩]⟩,⟨[21,31],some 4,[],[⟨256,.other,false,some ⟨7,[],none,false⟩⟩,⟨256,.ws,false,some ⟨7,[],none,false⟩⟩,⟨256,.lf,false,none⟩,⟨256,.vt,false,some ⟨7,[],none,false⟩⟩,⟨256,.ff,false,none⟩,⟨256,.cr,false,none⟩,⟨256,.cr,true,none⟩,⟨256,.other,false,some ⟨0,[],some 2,true⟩⟩,⟨256,.other,false,some ⟨8,[],none,false⟩⟩]⟩,⟨[16,31],some 4,[],[⟨256,.other,false,some ⟨9,[],none,false⟩⟩,⟨256,.ws,false,some ⟨9,[],none,false⟩⟩,⟨256,.lf,false,none⟩,⟨256,.vt,false,some ⟨9,[],none,false⟩⟩,⟨256,.ff,false,none⟩,⟨256,.cr,false,none⟩,⟨256,.cr,true,none⟩,⟨256,.other,false,some ⟨0,[],some 2,true⟩⟩,⟨256,.other,false,some ⟨10,[],none,false⟩⟩]⟩,⟨[1,31],some 4,[],[⟨256,.other,false,none⟩,⟨256,.ws,false,none⟩,⟨256,.lf,false,none⟩,⟨256,.vt,false,none⟩,⟨256,.ff,false,none⟩,⟨256,.cr,false,none⟩,⟨256,.cr,true,none⟩,⟨256,.other,false,some ⟨11,[.comment],none,false⟩⟩]⟩,⟨[22],none,[],[⟨256,.other,false,some ⟨7,[],none,false⟩⟩,⟨256,.ws,false,some ⟨7,[],none,false⟩⟩,⟨256,.lf,false,none⟩,⟨256,.vt,false,some ⟨7,[],none,false⟩⟩,⟨256,.ff,false,none⟩,⟨256,.cr,false,none⟩,⟨256,.cr,true,none⟩,⟨256,.other,false,some ⟨0,[],some 2,true⟩⟩,⟨256,.other,false,some ⟨8,[],none,false⟩⟩]⟩,⟨[23],none,[],[⟨256,.other,false,some ⟨12,[],none,false⟩⟩,⟨256,.ws,false,some ⟨12,[],none,false⟩⟩,⟨256,.lf,false,none⟩,⟨256,.vt,false,some ⟨12,[],none,false⟩⟩,⟨256,.ff,false,none⟩,⟨256,.cr,false,none⟩,⟨256,.cr,true,none⟩]⟩,⟨[17],none,[],[⟨256,.other,false,some ⟨9,[],none,false⟩⟩,⟨256,.ws,false,some ⟨9,[],none,false⟩⟩,⟨256,.lf,false,none⟩,⟨256,.vt,false,some ⟨9,[],none,false⟩⟩,⟨256,.ff,false,none⟩,⟨256,.cr,false,none⟩,⟨256,.cr,true,none⟩,⟨256,.other,false,some ⟨0,[],some 2,true⟩⟩,⟨256,.other,false,some ⟨10,[],none,false⟩⟩]⟩,⟨[18],none,[],[⟨256,.other,false,some ⟨13,[],none,false⟩⟩,⟨256,.ws,false,some ⟨13,[],none,false⟩⟩,⟨256,.lf,false,none⟩,⟨256,.vt,false,some ⟨13,[],none,false⟩⟩,⟨256,.ff,false,none⟩,⟨256,.cr,false,none⟩,⟨256,.cr,true,none⟩]⟩,⟨[2],none,[],[⟨256,.other,false,some ⟨14,[.comment],none,false⟩⟩,⟨256,.ws,false,some ⟨15,[],none,false⟩⟩,⟨256,.lf,false,some ⟨16,[],none,false⟩⟩,⟨256,.vt,false,none⟩,⟨256,.ff,false,some ⟨17,[],none,false⟩⟩,⟨256,.cr,false,some ⟨18,[],none,false⟩⟩,⟨256,.cr,true,some ⟨19,[],none,false⟩⟩,⟨256,.other,false,some ⟨20,[.comment],none,false⟩⟩,⟨256,.other,false,some ⟨21,[.comment],none,false⟩⟩,⟨256,.other,false,some ⟨22,[.comment],none,false⟩⟩]⟩,⟨[24],none,[],[⟨256,.other,false,some ⟨7,[],none,false⟩⟩,⟨256,.ws,false,some ⟨7,[],none,false⟩⟩,⟨256,.lf,false,none⟩,⟨256,.vt,false,some ⟨7,[],none,false⟩⟩,⟨256,.ff,false,none⟩,⟨256,.cr,false,none⟩,⟨256,.cr,true,none⟩,⟨256,.other,false,some ⟨0,[],some 2,true⟩⟩,⟨256,.other,false,some ⟨8,[],none,false⟩⟩]⟩,⟨[19],none,[],[⟨256,.other,false,some ⟨9,[],none,false⟩⟩,⟨256,.ws,false,some ⟨9,[],none,false⟩⟩,⟨256,.lf,false,none⟩,⟨256,.vt,false,some ⟨9,[],none,false⟩⟩,⟨256,.ff,false,none⟩,⟨256,.cr,false,none⟩,⟨256,.cr,true,none⟩,⟨256,.other,false,some ⟨0,[],some 2,true⟩⟩,⟨256,.other,false,some ⟨10,[],none,false⟩⟩]⟩,⟨[13],none,[],[⟨256,.other,false,some ⟨14,[.comment],none,false⟩⟩,⟨256,.ws,false,some ⟨15,[],none,false⟩⟩,⟨256,.lf,false,some ⟨16,[],none,false⟩⟩,⟨256,.vt,false,none⟩,⟨256,.ff,false,some ⟨17,[],none,false⟩⟩,⟨256,.cr,false,some ⟨18,[],none,false⟩⟩,⟨256,.cr,true,some ⟨19,[],none,false⟩⟩,⟨256,.other,false,some ⟨20,[.comment],none,false⟩⟩,⟨256,.other,false,some ⟨21,[.comment],none,false⟩⟩,⟨256,.other,false,some ⟨22,[.comment],none,false⟩⟩]⟩,⟨[8],none,[],[⟨256,.other,false,some ⟨14,[.comment],none,false⟩⟩,⟨256,.ws,false,some ⟨15,[],none,false⟩⟩,⟨256,.lf,false,some ⟨16,[],none,false⟩⟩,⟨256,.vt,false,none⟩,⟨256,.ff,false,some ⟨17,[],none,false⟩⟩,⟨256,.cr,false,some ⟨18,[],none,false⟩⟩,⟨256,.cr,true,some ⟨19,[],none,false⟩⟩,⟨256,.other,false,some ⟨20,[.comment],none,false⟩⟩,⟨256,.other,false,some ⟨21,[.comment],none,false⟩⟩,⟨256,.other,false,some ⟨22,[.comment],none,false⟩⟩]⟩,⟨[5],none,[],[⟨256,.other,false,some ⟨14,[.setEnt .internalNl,.cb,.comment],none,false⟩⟩,⟨256,.ws,false,some ⟨15,[.setEnt .internalNl,.cb],none,false⟩⟩,⟨256,.lf,false,some ⟨16,[.setEnt .internalNl,.cb],none,false⟩⟩,⟨256,.vt,false,none⟩,⟨256,.ff,false,some ⟨17,[.setEnt .internalNl,.cb],none,false⟩⟩,⟨256,.cr,false,some ⟨18,[.setEnt .internalNl,.cb],none,false⟩⟩,⟨256,.cr,true,some ⟨19,[.setEnt .internalNl,.cb],none,false⟩⟩,⟨256,.other,false,some ⟨20,[.setEnt .internalNl,.cb,.comment],none,false⟩⟩,⟨256,.other,false,some ⟨21,[.setEnt .internalNl,.cb,.comment],none,false⟩⟩,⟨256,.other,false,some ⟨22,[.setEnt .internalNl,.cb,.comment],none,false⟩⟩]⟩,⟨[6],none,[],[⟨256,.other,false,some ⟨14,[.setEnt .internalNl,.cb,.comment],none,false⟩⟩,⟨256,.ws,false,some ⟨15,[.setEnt .internalNl,.cb],none,false⟩⟩,⟨256,.lf,false,some ⟨16,[.setEnt .internalNl,.cb],none,false⟩⟩,⟨256,.vt,false,none⟩,⟨256,.ff,false,some ⟨17,[.setEnt .internalNl,.cb],none,false⟩⟩,⟨256,.cr,false,some ⟨18,[.setEnt .internalNl,.cb],none,false⟩⟩,⟨256,.cr,true,some ⟨19,[.setEnt .internalNl,.cb],none,false⟩⟩,⟨256,.other,false,some ⟨20,[.setEnt .internalNl,.cb,.comment],none,false⟩⟩,⟨256,.other,false,some ⟨21,[.setEnt .internalNl,.cb,.comment],none,false⟩⟩,⟨256,.other,false,some ⟨22,[.setEnt .internalNl,.cb,.comment],none,false⟩⟩]⟩,⟨[3],none,[],[⟨256,.other,false,none⟩,⟨256,.ws,false,none⟩,⟨256,.lf,false,some ⟨23,[],none,false⟩⟩,⟨256,.vt,false,none⟩,⟨256,.ff,false,none⟩,⟨256,.cr,false,none⟩,⟨256,.cr,true,none⟩]⟩,⟨[3,7],none,[],[⟨256,.other,false,some ⟨14,[.setEnt .internalNl,.cb,.comment],none,false⟩⟩,⟨256,.ws,false,some ⟨15,[.setEnt .internalNl,.cb],none,false⟩⟩,⟨256,.lf,false,some ⟨24,[.setEnt .internalNl,.cb],none,false⟩⟩,⟨256,.vt,false,none⟩,⟨256,.ff,false,some ⟨17,[.setEnt .internalNl,.cb],none,false⟩⟩,⟨256,.cr,false,some ⟨18,[.setEnt .internalNl,.cb],none,false⟩⟩,⟨256,.cr,true,some ⟨19,[.setEnt .internalNl,.cb],none,false⟩⟩,⟨256,.other,false,some ⟨20,[.setEnt .internalNl,.cb,.comment],none,false⟩⟩,⟨256,.other,false,some ⟨21,[.setEnt .internalNl,.cb,.comment],none,false⟩⟩,⟨256,.other,false,some ⟨22,[.setEnt .internalNl,.cb,.comment],none,false⟩⟩]⟩,⟨[11,13],none,[],[⟨256,.other,false,some ⟨14,[.comment],none,false⟩⟩,⟨256,.ws,false,some ⟨15,[],none,false⟩⟩,⟨256,.lf,false,some ⟨16,[],none,false⟩⟩,⟨256,.vt,false,none⟩,⟨256,.ff,false,some ⟨17,[],none,false⟩⟩,⟨256,.cr,false,some ⟨18,[],none,false⟩⟩,⟨256,.cr,true,some ⟨19,[],none,false⟩⟩,⟨256,.other,false,some ⟨20,[.comment],none,false⟩⟩,⟨256,.other,false,some ⟨21,[.comment],none,false⟩⟩,⟨256,.other,false,some ⟨25,[.nestDec,.comment],none,false⟩⟩]⟩,⟨[11,13,14],none,[],[⟨256,.other,false,some ⟨14,[.comment],none,false⟩⟩,⟨256,.ws,false,some ⟨15,[],none,false⟩⟩,⟨256,.lf,false,some ⟨16,[],none,false⟩⟩,⟨256,.vt,false,none⟩,⟨256,.ff,false,some ⟨17,[],none,false⟩⟩,⟨256,.cr,false,some ⟨18,[],none,false⟩⟩,⟨256,.cr,true,some ⟨19,[],none,false⟩⟩,⟨256,.other,false,some ⟨20,[.comment],none,false⟩⟩,⟨256,.other,false,some ⟨21,[.comment],none,false⟩⟩,⟨256,.other,false,some ⟨25,[.nestDec,.comment],none,false⟩⟩,⟨256,.other,false,some ⟨0,[.comment],some 1,true⟩⟩]⟩,⟨[9,13],none,[],[⟨256,.other,false,some ⟨14,[.comment],none,false⟩⟩,⟨256,.ws,false,some ⟨15,[],none,false⟩⟩,⟨256,.lf,false,some ⟨16,[],none,false⟩⟩,⟨256,.vt,false,none⟩,⟨256,.ff,false,some ⟨17,[],none,false⟩⟩,⟨256,.cr,false,some ⟨18,[],none,false⟩⟩,⟨256,.cr,true,some ⟨19,[],none,false⟩⟩,⟨256,.other,false,some ⟨26,[.nestInc,.comment],none,false⟩⟩,⟨256,.other,false,some ⟨27,[.nestInc,.comment],none,false⟩⟩,⟨256,.other,false,some ⟨22,[.comment],none,false⟩⟩]⟩,⟨[4],none,[],[⟨256,.other,false,some ⟨14,[.setEnt .internalNl,.cb,.comment],none,false⟩⟩,⟨256,.ws,false,some ⟨15,[.setEnt .internalNl,.cb],none,false⟩⟩,⟨256,.lf,false,some ⟨16,[.setEnt .internalNl,.cb],none,false⟩⟩,⟨256,.vt,false,none⟩,⟨256,.ff,false,some ⟨17,[.setEnt .internalNl,.cb],none,false⟩⟩,⟨256,.cr,false,some ⟨18,[.setEnt .internalNl,.cb],none,false⟩⟩,⟨256,.cr,true,some ⟨19,[.setEnt .internalNl,.cb],none,false⟩⟩,⟨256,.other,false,some ⟨20,[.setEnt .internalNl,.cb,.comment],none,false⟩⟩,⟨256,.other,false,some ⟨21,[.setEnt .internalNl,.cb,.comment],none,false⟩⟩,⟨256,.other,false,some ⟨22,[.setEnt .internalNl,.cb,.comment],none,false⟩⟩]⟩,⟨[4,5],none,[],[⟨256,.other,false,some ⟨14,[.setEnt .internalNl,.cb,.comment],none,false⟩⟩,⟨256,.ws,false,some ⟨15,[.setEnt .internalNl,.cb],none,false⟩⟩,⟨256,.lf,false,some ⟨16,[.setEnt .internalNl,.cb],none,false⟩⟩,⟨256,.vt,false,none⟩,⟨256,.ff,false,some ⟨17,[.setEnt .internalNl,.cb],none,false⟩⟩,⟨256,.cr,false,some ⟨18,[.setEnt .internalNl,.cb],none,false⟩⟩,⟨256,.cr,true,some ⟨19,[.setEnt .internalNl,.cb],none,false⟩⟩,⟨256,.other,false,some ⟨20,[.setEnt .internalNl,.cb,.comment],none,false⟩⟩,⟨256,.other,false,some ⟨21,[.setEnt .internalNl,.cb,.comment],none,false⟩⟩,⟨256,.other,false,some ⟨22,[.setEnt .internalNl,.cb,.comment],none,false⟩⟩]⟩,⟨[9,12,13],none,[],[⟨256,.other,false,some ⟨14,[.comment],none,false⟩⟩,⟨256,.ws,false,some ⟨15,[],none,false⟩⟩,⟨256,.lf,false,some ⟨16,[],none,false⟩⟩,⟨256,.vt,false,none⟩,⟨256,.ff,false,some ⟨17,[],none,false⟩⟩,⟨256,.cr,false,some ⟨18,[],none,false⟩⟩,⟨256,.cr,true,some ⟨19,[],none,false⟩⟩,⟨256,.other,false,some ⟨26,[.nestInc,.comment],none,false⟩⟩,⟨256,.other,false,some ⟨27,[.nestInc,.comment],none,false⟩⟩,⟨256,.other,false,some ⟨22,[.comment],none,false⟩⟩]⟩,⟨[10,11,13],none,[],[⟨256,.other,false,some ⟨14,[.comment],none,false⟩⟩,⟨256,.ws,false,some ⟨15,[],none,false⟩⟩,⟨256,.lf,false,some ⟨16,[],none,false⟩⟩,⟨256,.vt,false,none⟩,⟨256,.ff,false,some ⟨17,[],none,false⟩⟩,⟨256,.cr,false,some ⟨18,[],none,false⟩⟩,⟨256,.cr,true,some ⟨19,[],none,false⟩⟩,⟨256,.other,false,some ⟨20,[.comment],none,false⟩⟩,⟨256,.other,false,some ⟨21,[.comment],none,false⟩⟩,⟨256,.other,false,some ⟨25,[.nestDec,.comment],none,false⟩⟩]⟩,⟨[10,11,13,14],none,[],[⟨256,.other,false,some ⟨14,[.comment],none,false⟩⟩,⟨256,.ws,false,some ⟨15,[],none,false⟩⟩,⟨256,.lf,false,some ⟨16,[],none,false⟩⟩,⟨256,.vt,false,none⟩,⟨256,.ff,false,some ⟨17,[],none,false⟩⟩,⟨256,.cr,false,some ⟨18,[],none,false⟩⟩,⟨256,.cr,true,some ⟨19,[],none,false⟩⟩,⟨256,.other,false,some ⟨20,[.comment],none,false⟩⟩,⟨256,.other,false,some ⟨21,[.comment],none,false⟩⟩,⟨256,.other,false,some ⟨25,[.nestDec,.comment],none,false⟩⟩,⟨256,.other,false,some ⟨0,[.comment],some 1,true⟩⟩]⟩]
theorem rexx_line_rowsOk : rowsOk rexx_line_nfa [] (rexx_line_cs.map (·.1)) rexx_line_rows = true := by decide +kernel
def rexx_line_D : Dfa rexx_line_M.nfa := ⟨rexx_line_masks, [], rexx_line_cs, rexx_line_rows, rexx_line_masksIn, rexx_line_repOk, rexx_line_rowsOk⟩

def shell_line_nfa : Nfa := ⟨[⟨0,4294967808,[],[(0,.setEnt (.own 0))],0,0⟩,⟨1,34359738368,[],[(1,.comment)],0,0⟩,⟨3,549755813888,[],[(2,.enqueue),(3,.code)],0,0⟩,⟨20,17179869184,[],[(11,.enqueue),(12,.code)],0,0⟩,⟨37,8192,[],[(20,.setEnt .newline)],0,0⟩,⟨39,1024,[],[(20,.setEnt .newline)],0,0⟩,⟨40,4096,[],[(20,.setEnt .newline)],0,0⟩,⟨41,8192,[.crAlone],[(20,.setEnt .newline)],0,0⟩,⟨42,115792089237316195423570985008687907853269984665640564039457584007908834656767,[],[(21,.setEnt (.own 3))],0,0⟩],[[⟨0,4294967808,[],[(0,.setEnt (.own 0))],0,0⟩],[⟨2,115792089237316195423570985008687907853269984665640564039457584007913129626623,[],[],0,0⟩],[⟨2,115792089237316195423570985008687907853269984665640564039457584007913129626623,[],[],0,0⟩],[⟨4,8192,[],[],0,0⟩,⟨6,1024,[],[],0,0⟩,⟨7,4096,[],[],0,0⟩,⟨8,8192,[.crAlone],[],0,0⟩,⟨9,4951760157141521099596496896,[],[],0,0⟩,⟨15,4294967808,[],[],0,0⟩,⟨16,115792089237316195423570985008687907853269984665635612279300442486259482348031,[],[(8,.code)],0,0⟩,⟨17,4951760157141521099596496896,[],[],0,0⟩,⟨19,549755813888,[],[(10,.commit)],0,0⟩],[⟨5,1024,[],[],0,0⟩],[⟨4,8192,[],[(4,.setEnt .internalNl),(5,.cb)],0,0⟩,⟨6,1024,[],[(4,.setEnt .internalNl),(5,.cb)],0,0⟩,⟨7,4096,[],[(4,.setEnt .internalNl),(5,.cb)],0,0⟩,⟨8,8192,[.crAlone],[(4,.setEnt .internalNl),(5,.cb)],0,0⟩,⟨9,4951760157141521099596496896,[],[(4,.setEnt .internalNl),(5,.cb)],0,0⟩,⟨15,4294967808,[],[(4,.setEnt .internalNl),(5,.cb)],0,0⟩,⟨16,115792089237316195423570985008687907853269984665635612279300442486259482348031,[],[(4,.setEnt .internalNl),(5,.cb),(8,.code)],0,0⟩,⟨17,4951760157141521099596496896,[],[(4,.setEnt .internalNl),(5,.cb)],0,0⟩,⟨19,549755813888,[],[(4,.setEnt .internalNl),(5,.cb),(10,.commit)],0,0⟩],[⟨4,8192,[],[(4,.setEnt .internalNl),(5,.cb)],0,0⟩,⟨6,1024,[],[(4,.setEnt .internalNl),(5,.cb)],0,0⟩,⟨7,4096,[],[(4,.setEnt .internalNl),(5,.cb)],0,0⟩,⟨8,8192,[.crAlone],[(4,.setEnt .internalNl),(5,.cb)],0,0⟩,⟨9,4951760157141521099596496896,[],[(4,.setEnt .internalNl),(5,.cb)],0,0⟩,⟨15,4294967808,[],[(4,.setEnt .internalNl),(5,.cb)],0,0⟩,⟨16,115792089237316195423570985008687907853269984665635612279300442486259482348031,[],[(4,.setEnt .internalNl),(5,.cb),(8,.code)],0,0⟩,⟨17,4951760157141521099596496896,[],[(4,.setEnt .internalNl),(5,.cb)],0,0⟩,⟨19,549755813888,[],[(4,.setEnt .internalNl),(5,.cb),(10,.commit)],0,0⟩],[⟨4,8192,[],[(4,.setEnt .internalNl),(5,.cb)],0,0⟩,⟨6,1024,[],[(4,.setEnt .internalNl),(5,.cb)],0,0⟩,⟨7,4096,[],[(4,.setEnt .internalNl),(5,.cb)],0,0⟩,⟨8,8192,[.crAlone],[(4,.setEnt .internalNl),(5,.cb)],0,0⟩,⟨9,4951760157141521099596496896,[],[(4,.setEnt .internalNl),(5,.cb)],0,0⟩,⟨15,4294967808,[],[(4,.setEnt .internalNl),(5,.cb)],0,0⟩,⟨16,115792089237316195423570985008687907853269984665635612279300442486259482348031,[],[(4,.setEnt .internalNl),(5,.cb),(8,.code)],0,0⟩,⟨17,4951760157141521099596496896,[],[(4,.setEnt .internalNl),(5,.cb)],0,0⟩,⟨19,549755813888,[],[(4,.setEnt .internalNl),(5,.cb),(10,.commit)],0,0⟩],[⟨4,8192,[],[(4,.setEnt .internalNl),(5,.cb)],0,0⟩,⟨6,1024,[],[(4,.setEnt .internalNl),(5,.cb)],0,0⟩,⟨7,4096,[],[(4,.setEnt .internalNl),(5,.cb)],0,0⟩,⟨8,8192,[.crAlone],[(4,.setEnt .internalNl),(5,.cb)],0,0⟩,⟨9,4951760157141521099596496896,[],[(4,.setEnt .internalNl),(5,.cb)],0,0⟩,⟨15,4294967808,[],[(4,.setEnt .internalNl),(5,.cb)],0,0⟩,⟨16,115792089237316195423570985008687907853269984665635612279300442486259482348031,[],[(4,.setEnt .internalNl),(5,.cb),(8,.code)],0,0⟩,⟨17,4951760157141521099596496896,[],[(4,.setEnt .internalNl),(5,.cb)],0,0⟩,⟨19,549755813888,[],[(4,.setEnt .internalNl),(5,.cb),(10,.commit)],0,0⟩],[⟨10,8192,[],[],0,0⟩,⟨12,1024,[],[],0,0⟩,⟨13,4096,[],[],0,0⟩,⟨14,8192,[.crAlone],[],0,0⟩],[⟨11,1024,[],[],0,0⟩],[⟨4,8192,[],[(6,.setEnt .internalNl),(7,.cb)],0,0⟩,⟨6,1024,[],[(6,.setEnt .internalNl),(7,.cb)],0,0⟩,⟨7,4096,[],[(6,.setEnt .internalNl),(7,.cb)],0,0⟩,⟨8,8192,[.crAlone],[(6,.setEnt .internalNl),(7,.cb)],0,0⟩,⟨9,4951760157141521099596496896,[],[(6,.setEnt .internalNl),(7,.cb)],0,0⟩,⟨15,4294967808,[],[(6,.setEnt .internalNl),(7,.cb)],0,0⟩,⟨16,115792089237316195423570985008687907853269984665635612279300442486259482348031,[],[(6,.setEnt .internalNl),(7,.cb),(8,.code)],0,0⟩,⟨17,4951760157141521099596496896,[],[(6,.setEnt .internalNl),(7,.cb)],0,0⟩,⟨19,549755813888,[],[(6,.setEnt .internalNl),(7,.cb),(10,.commit)],0,0⟩],[⟨4,8192,[],[(6,.setEnt .internalNl),(7,.cb)],0,0⟩,⟨6,1024,[],[(6,.setEnt .internalNl),(7,.cb)],0,0⟩,⟨7,4096,[],[(6,.setEnt .internalNl),(7,.cb)],0,0⟩,⟨8,8192,[.crAlone],[(6,.setEnt .internalNl),(7,.cb)],0,0⟩,⟨9,4951760157141521099596496896,[],[(6,.setEnt .internalNl),(7,.cb)],0,0⟩,⟨15,4294967808,[],[(6,.setEnt .internalNl),(7,.cb)],0,0⟩,⟨16,115792089237316195423570985008687907853269984665635612279300442486259482348031,[],[(6,.setEnt .internalNl),(7,.cb),(8,.code)],0,0⟩,⟨17,4951760157141521099596496896,[],[(6,.setEnt .internalNl),(7,.cb)],0,0⟩,⟨19,549755813888,[],[(6,.setEnt .internalNl),(7,.cb),(10,.commit)],0,0⟩],[⟨4,8192,[],[(6,.setEnt .internalNl),(7,.cb)],0,0⟩,⟨6,1024,[],[(6,.setEnt .internalNl),(7,.cb)],0,0⟩,⟨7,4096,[],[(6,.setEnt .internalNl),(7,.cb)],0,0⟩,⟨8,8192,[.crAlone],[(6,.setEnt .internalNl),(7,.cb)],0,0⟩,⟨9,4951760157141521099596496896,[],[(6,.setEnt .internalNl),(7,.cb)],0,0⟩,⟨15,4294967808,[],[(6,.setEnt .internalNl),(7,.cb)],0,0⟩,⟨16,115792089237316195423570985008687907853269984665635612279300442486259482348031,[],[(6,.setEnt .internalNl),(7,.cb),(8,.code)],0,0⟩,⟨17,4951760157141521099596496896,[],[(6,.setEnt .internalNl),(7,.cb)],0,0⟩,⟨19,549755813888,[],[(6,.setEnt .internalNl),(7,.cb),(10,.commit)],0,0⟩],[⟨4,8192,[],[(6,.setEnt .internalNl),(7,.cb)],0,0⟩,⟨6,1024,[],[(6,.setEnt .internalNl),(7,.cb)],0,0⟩,⟨7,4096,[],[(6,.setEnt .internalNl),(7,.cb)],0,0⟩,⟨8,8192,[.crAlone],[(6,.setEnt .internalNl),(7,.cb)],0,0⟩,⟨9,4951760157141521099596496896,[],[(6,.setEnt .internalNl),(7,.cb)],0,0⟩,⟨15,4294967808,[],[(6,.setEnt .internalNl),(7,.cb)],0,0⟩,⟨16,115792089237316195423570985008687907853269984665635612279300442486259482348031,[],[(6,.setEnt .internalNl),(7,.cb),(8,.code)],0,0⟩,⟨17,4951760157141521099596496896,[],[(6,.setEnt .internalNl),(7,.cb)],0,0⟩,⟨19,549755813888,[],[(6,.setEnt .internalNl),(7,.cb),(10,.commit)],0,0⟩],[⟨4,8192,[],[],0,0⟩,⟨6,1024,[],[],0,0⟩,⟨7,4096,[],[],0,0⟩,⟨8,8192,[.crAlone],[],0,0⟩,⟨9,4951760157141521099596496896,[],[],0,0⟩,⟨15,4294967808,[],[],0,0⟩,⟨16,115792089237316195423570985008687907853269984665635612279300442486259482348031,[],[(8,.code)],0,0⟩,⟨17,4951760157141521099596496896,[],[],0,0⟩,⟨19,549755813888,[],[(10,.commit)],0,0⟩],[⟨4,8192,[],[],0,0⟩,⟨6,1024,[],[],0,0⟩,⟨7,4096,[],[],0,0⟩,⟨8,8192,[.crAlone],[],0,0⟩,⟨9,4951760157141521099596496896,[],[],0,0⟩,⟨15,4294967808,[],[],0,0⟩,⟨16,115792089237316195423570985008687907853269984665635612279300442486259482348031,[],[(8,.code)],0,0⟩,⟨17,4951760157141521099596496896,[],[],0,0⟩,⟨19,549755813888,[],[(10,.commit)],0,0⟩],[⟨18,115792089237316195423570985008687907853269984665640564039457584007913129626623,[],[(9,.code)],0,0⟩],[⟨4,8192,[],[],0,0⟩,⟨6,1024,[],[],0,0⟩,⟨7,4096,[],[],0,0⟩,⟨8,8192,[.crAlone],[],0,0⟩,⟨9,4951760157141521099596496896,[],[],0,0⟩,⟨15,4294967808,[],[],0,0⟩,⟨16,115792089237316195423570985008687907853269984665635612279300442486259482348031,[],[(8,.code)],0,0⟩,⟨17,4951760157141521099596496896,[],[],0,0⟩,⟨19,549755813888,[],[(10,.commit)],0,0⟩],[],[⟨21,8192,[],[],0,0⟩,⟨23,1024,[],[],0,0⟩,⟨24,4096,[],[],0,0⟩,⟨25,8192,[.crAlone],[],0,0⟩,⟨26,4951760157141521099596496896,[],[],0,0⟩,⟨32,4294967808,[],[],0,0⟩,⟨33,115792089237316195423570985008687907853269984665635612279300442486792058292735,[],[(17,.code)],0,0⟩,⟨34,4951760157141521099596496896,[],[],0,0⟩,⟨36,17179869184,[],[(19,.commit)],0,0⟩],[⟨22,1024,[],[],0,0⟩],[⟨21,8192,[],[(13,.setEnt .internalNl),(14,.cb)],0,0⟩,⟨23,1024,[],[(13,.setEnt .internalNl),(14,.cb)],0,0⟩,⟨24,4096,[],[(13,.setEnt .internalNl),(14,.cb)],0,0⟩,⟨25,8192,[.crAlone],[(13,.setEnt .internalNl),(14,.cb)],0,0⟩,⟨26,4951760157141521099596496896,[],[(13,.setEnt .internalNl),(14,.cb)],0,0⟩,⟨32,4294967808,[],[(13,.setEnt .internalNl),(14,.cb)],0,0⟩,⟨33,115792089237316195423570985008687907853269984665635612279300442486792058292735,[],[(13,.setEnt .internalNl),(14,.cb),(17,.code)],0,0⟩,⟨34,4951760157141521099596496896,[],[(13,.setEnt .internalNl),(14,.cb)],0,0⟩,⟨36,17179869184,[],[(13,.setEnt .internalNl),(14,.cb),(19,.commit)],0,0⟩],[⟨21,8192,[],[(13,.setEnt .internalNl),(14,.cb)],0,0⟩,⟨23,1024,[],[(13,.setEnt .internalNl),(14,.cb)],0,0⟩,⟨24,4096,[],[(13,.setEnt .internalNl),(14,.cb)],0,0⟩,⟨25,8192,[.crAlone],[(13,.setEnt .internalNl),(14,.cb)],0,0⟩,⟨26,4951760157141521099596496896,[],[(13,.setEnt .internalNl),(14,.cb)],0,0⟩,⟨32,4294967808,[],[(13,.setEnt .internalNl),(14,.cb)],0,0⟩,⟨33,115792089237316195423570985008687907853269984665635612279300442486792058292735,[],[(13,.setEnt .internalNl),(14,.cb),(17,.code)],0,0⟩,⟨34,4951760157141521099596496896,[],[(13,.setEnt .internalNl),(14,.cb)],0,0⟩,⟨36,17179869184,[],[(13,.setEnt .internalNl),(14,.cb),(19,.commit)],0,0⟩],[⟨21,8192,[],[(13,.setEnt .internalNl),(14,.cb)],0,0⟩,⟨23,1024,[],[(13,.setEnt .internalNl),(14,.cb)],0,0⟩,⟨24,4096,[],[(13,.setEnt .internalNl),(14,.cb)],0,0⟩,⟨25,8192,[.crAlone],[(13,.setEnt .internalNl),(14,.cb)],0,0⟩,⟨26,4951760157141521099596496896,[],[(13,.setEnt .internalNl),(14,.cb)],0,0⟩,⟨32,4294967808,[],[(13,.setEnt .internalNl),(14,.cb)],0,0⟩,⟨33,115792089237316195423570985008687907853269984665635612279300442486792058292735,[],[(13,.setEnt .internalNl),(14,.cb),(17,.code)],0,0⟩,⟨34,4951760157141521099596496896,[],[(13,.setEnt .internalNl),(14,.cb)],0,0⟩,⟨36,17179869184,[],[(13,.setEnt .internalNl),(14,.cb),(19,.commit)],0,0⟩],[⟨21,8192,[],[(13,.setEnt .internalNl),(14,.cb)],0,0⟩,⟨23,1024,[],[(13,.setEnt .internalNl),(14,.cb)],0,0⟩,⟨24,4096,[],[(13,.setEnt .internalNl),(14,.cb)],0,0⟩,⟨25,8192,[.crAlone],[(13,.setEnt .internalNl),(14,.cb)],0,0⟩,⟨26,4951760157141521099596496896,[],[(13,.setEnt .internalNl),(14,.cb)],0,0⟩,⟨32,4294967808,[],[(13,.setEnt .internalNl),(14,.cb)],0,0⟩,⟨33,115792089237316195423570985008687907853269984665635612279300442486792058292735,[],[(13,.setEnt .internalNl),(14,.cb),(17,.code)],0,0⟩,⟨34,4951760157141521099596496896,[],[(13,.setEnt .internalNl),(14,.cb)],0,0⟩,⟨36,17179869184,[],[(13,.setEnt .internalNl),(14,.cb),(19,.commit)],0,0⟩],[⟨27,8192,[],[],0,0⟩,⟨29,1024,[],[],0,0⟩,⟨30,4096,[],[],0,0⟩,⟨31,8192,[.crAlone],[],0,0⟩],[⟨28,1024,[],[],0,0⟩],[⟨21,8192,[],[(15,.setEnt .internalNl),(16,.cb)],0,0⟩,⟨23,1024,[],[(15,.setEnt .internalNl),(16,.cb)],0,0⟩,⟨24,4096,[],[(15,.setEnt .internalNl),(16,.cb)],0,0⟩,⟨25,8192,[.crAlone],[(15,.setEnt .internalNl),(16,.cb)],0,0⟩,⟨26,4951760157141521099596496896,[],[(15,.setEnt .internalNl),(16,.cb)],0,0⟩,⟨32,4294967808,[],[(15,.setEnt .internalNl),(16,.cb)],0,0⟩,⟨33,115792089237316195423570985008687907853269984665635612279300442486792058292735,[],[(15,.setEnt .internalNl),(16,.cb),(17,.code)],0,0⟩,⟨34,4951760157141521099596496896,[],[(15,.setEnt .internalNl),(16,.cb)],0,0⟩,⟨36,17179869184,[],[(15,.setEnt .internalNl),(16,.cb),(19,.commit)],0,0⟩],[⟨21,8192,[],[(15,.setEnt .internalNl),(16,.cb)],0,0⟩,⟨23,1024,[],[(15,.setEnt .internalNl),(16,.cb)],0,0⟩,⟨24,4096,[],[(15,.setEnt .internalNl),(16,.cb)],0,0⟩,⟨25,8192,[.crAlone],[(15,.setEnt .internalNl),(16,.cb)],0,0⟩,⟨26,4951760157141521099596496896,[],[(15,.setEnt .internalNl),(16,.cb)],0,0⟩,⟨32,4294967808,[],[(15,.setEnt .internalNl),(16,.cb)],0,0⟩,⟨33,115792089237316195423570985008687907853269984665635612279300442486792058292735,[],[(15,.setEnt .internalNl),(16,.cb),(17,.code)],0,0⟩,⟨34,4951760157141521099596496896,[],[(15,.setEnt .internalNl),(16,.cb)],0,0⟩,⟨36,17179869184,[],[(15,.setEnt .internalNl),(16,.cb),(19,.commit)],0,0⟩],[⟨21,8192,[],[(15,.setEnt .internalNl),(16,.cb)],0,0⟩,⟨23,1024,[],[(15,.setEnt .internalNl),(16,.cb)],0,0⟩,⟨24,4096,[],[(15,.setEnt .internalNl),(16,.cb)],0,0⟩,⟨25,8192,[.crAlone],[(15,.setEnt .internalNl),(16,.cb)],0,0⟩,⟨26,4951760157141521099596496896,[],[(15,.setEnt .internalNl),(16,.cb)],0,0⟩,⟨32,4294967808,[],[(15,.setEnt .internalNl),(16,.cb)],0,0⟩,⟨33,115792089237316195423570985008687907853269984665635612279300442486792058292735,[],[(15,.setEnt .internalNl),(16,.cb),(17,.code)],0,0⟩,⟨34,4951760157141521099596496896,[],[(15,.setEnt .internalNl),(16,.cb)],0,0⟩,⟨36,17179869184,[],[(15,.setEnt .internalNl),(16,.cb),(19,.commit)],0,0⟩],[⟨21,8192,[],[(15,.setEnt .internalNl),(16,.cb)],0,0⟩,⟨23,1024,[],[(15,.setEnt .internalNl),(16,.cb)],0,0⟩,⟨24,4096,[],[(15,.setEnt .internalNl),(16,.cb)],0,0⟩,⟨25,8192,[.crAlone],[(15,.setEnt .internalNl),(16,.cb)],0,0⟩,⟨26,4951760157141521099596496896,[],[(15,.setEnt .internalNl),(16,.cb)],0,0⟩,⟨32,4294967808,[],[(15,.setEnt .internalNl),(16,.cb)],0,0⟩,⟨33,115792089237316195423570985008687907853269984665635612279300442486792058292735,[],[(15,.setEnt .internalNl),(16,.cb),(17,.code)],0,0⟩,⟨34,4951760157141521099596496896,[],[(15,.setEnt .internalNl),(16,.cb)],0,0⟩,⟨36,17179869184,[],[(15,.setEnt .internalNl),(16,.cb),(19,.commit)],0,0⟩],[⟨21,8192,[],[],0,0⟩,⟨23,1024,[],[],0,0⟩,⟨24,4096,[],[],0,0⟩,⟨25,8192,[.crAlone],[],0,0⟩,⟨26,4951760157141521099596496896,[],[],0,0⟩,⟨32,4294967808,[],[],0,0⟩,⟨33,115792089237316195423570985008687907853269984665635612279300442486792058292735,[],[(17,.code)],0,0⟩,⟨34,4951760157141521099596496896,[],[],0,0⟩,⟨36,17179869184,[],[(19,.commit)],0,0⟩],[⟨21,8192,[],[],0,0⟩,⟨23,1024,[],[],0,0⟩,⟨24,4096,[],[],0,0⟩,⟨25,8192,[.crAlone],[],0,0⟩,⟨26,4951760157141521099596496896,[],[],0,0⟩,⟨32,4294967808,[],[],0,0⟩,⟨33,115792089237316195423570985008687907853269984665635612279300442486792058292735,[],[(17,.code)],0,0⟩,⟨34,4951760157141521099596496896,[],[],0,0⟩,⟨36,17179869184,[],[(19,.commit)],0,0⟩],[⟨35,115792089237316195423570985008687907853269984665640564039457584007913129626623,[],[(18,.code)],0,0⟩],[⟨21,8192,[],[],0,0⟩,⟨23,1024,[],[],0,0⟩,⟨24,4096,[],[],0,0⟩,⟨25,8192,[.crAlone],[],0,0⟩,⟨26,4951760157141521099596496896,[],[],0,0⟩,⟨32,4294967808,[],[],0,0⟩,⟨33,115792089237316195423570985008687907853269984665635612279300442486792058292735,[],[(17,.code)],0,0⟩,⟨34,4951760157141521099596496896,[],[],0,0⟩,⟨36,17179869184,[],[(19,.commit)],0,0⟩],[],[⟨38,1024,[],[(20,.setEnt .newline)],0,0⟩],[],[],[],[],[]],[some (0,[]),some (1,[]),some (1,[]),none,none,none,none,none,none,none,none,none,none,none,none,none,none,none,none,some (2,[]),none,none,none,none,none,none,none,none,none,none,none,none,none,none,none,none,some (2,[]),none,some (3,[]),some (3,[]),some (3,[]),some (3,[]),some (4,[])],[1,2,20,21,22]⟩
theorem shell_line_nfa_eq : Shell.shell_line.nfa = shell_line_nfa := by decide +kernel
/-- The machine of `Shell.shell_line`, with its automaton as a literal. -/
def shell_line_M : Machine := ⟨shell_line_nfa, Shell.shell_line.ends, Shell.shell_line.sw⟩
theorem shell_line_M_eq : Shell.shell_line.machine = shell_line_M := by
  unfold Scanner.machine shell_line_M; rw [shell_line_nfa_eq]
def shell_line_masks : List Nat := [4294967808,34359738368,549755813888,17179869184,8192,1024,4096,115792089237316195423570985008687907853269984665640564039457584007908834656767,115792089237316195423570985008687907853269984665640564039457584007913129626623,4951760157141521099596496896,115792089237316195423570985008687907853269984665635612279300442486259482348031,115792089237316195423570985008687907853269984665635612279300442486792058292735]
def shell_line_cs : List (Nat × Nat) := [(0,115792089237316195423570985008687907853269984665635612279300442486207942738431),(9,4294967808),(10,1024),(11,2048),(12,4096),(13,8192),(34,17179869184),(35,34359738368),(39,549755813888),(92,4951760157141521099596496896)]
theorem shell_line_masksIn : masksIn shell_line_nfa shell_line_masks = true := by decide +kernel
theorem shell_line_repOk : repOk shell_line_masks shell_line_cs = true := by decide +kernel
def shell_line_rows : List Row := [⟨[],none,[],[⟨256,.other,false,some ⟨0,[.setEnt (.own 3)],some 4,true⟩⟩,⟨256,.ws,false,some ⟨1,[.setEnt (.own 0)],some 0,false⟩⟩,⟨256,.lf,false,some ⟨0,[.setEnt .newline],some 3,true⟩⟩,⟨256,.vt,false,none⟩,⟨256,.ff,false,some ⟨0,[.setEnt .newline],some 3,true⟩⟩,⟨256,.cr,false,some ⟨2,[.setEnt .newline],none,false⟩⟩,⟨256,.cr,true,some ⟨3,[.setEnt .newline],some 3,false⟩⟩,⟨256,.other,false,some ⟨4,[.enqueue,.code,.setEnt (.own 3)],some 4,false⟩⟩,⟨256,.other,false,some ⟨5,[.comment,.setEnt (.own 3)],some 1,false⟩⟩,⟨256,.other,false,some ⟨6,[.enqueue,.code,.setEnt (.own 3)],some 4,false⟩⟩]⟩,⟨[0],some 0,[],[⟨256,.other,false,none⟩,⟨256,.ws,false,some ⟨1,[.setEnt (.own 0)],some 0,false⟩⟩,⟨256,.lf,false,none⟩,⟨256,.vt,false,none⟩,⟨256,.ff,false,none⟩,⟨256,.cr,false,none⟩,⟨256,.cr,true,none⟩]⟩,⟨[37],none,[],[⟨256,.other,false,none⟩,⟨256,.ws,false,none⟩,⟨256,.lf,false,some ⟨0,[.setEnt .newline],some 3,true⟩⟩,⟨256,.vt,false,none⟩,⟨256,.ff,false,none⟩,⟨256,.cr,false,none⟩,⟨256,.cr,true,none⟩]⟩,⟨[37,41],some 3,[],[⟨256,.other,false,none⟩,⟨256,.ws,false,none⟩,⟨256,.lf,false,some ⟨0,[.setEnt .newline],some 3,true⟩⟩,⟨256,.vt,false,none⟩,⟨256,.ff,false,none⟩,⟨256,.cr,false,none⟩,⟨256,.cr,true,none⟩]⟩,⟨[20,42],some 4,[],[⟨256,.other,false,some ⟨7,[.code],none,false⟩⟩,⟨256,.ws,false,some ⟨8,[],none,false⟩⟩,⟨256,.lf,false,some ⟨9,[],none,false⟩⟩,⟨256,.vt,false,some ⟨7,[.code],none,false⟩⟩,⟨256,.ff,false,some ⟨10,[],none,false⟩⟩,⟨256,.cr,false,some ⟨11,[],none,false⟩⟩,⟨256,.cr,true,some ⟨12,[],none,false⟩⟩,⟨256,.other,false,some ⟨0,[.commit],some 2,true⟩⟩,⟨256,.other,false,some ⟨13,[],none,false⟩⟩]⟩,⟨[1,42],some 1,[],[⟨256,.other,false,some ⟨14,[],some 1,false⟩⟩,⟨256,.ws,false,some ⟨14,[],some 1,false⟩⟩,⟨256,.lf,false,none⟩,⟨256,.vt,false,some ⟨14,[],some 1,false⟩⟩,⟨256,.ff,false,none⟩,⟨256,.cr,false,none⟩,⟨256,.cr,true,none⟩]⟩,⟨[3,42],some 4,[],[⟨256,.other,false,some ⟨15,[.code],none,false⟩⟩,⟨256,.ws,false,some ⟨16,[],none,false⟩⟩,⟨256,.lf,false,some ⟨17,[],none,false⟩⟩,⟨256,.vt,false,some ⟨15,[.code],none,false⟩⟩,⟨256,.ff,false,some ⟨18,[],none,false⟩⟩,⟨256,.cr,false,some ⟨19,[],none,false⟩⟩,⟨256,.cr,true,some ⟨20,[],none,false⟩⟩,⟨256,.other,false,some ⟨0,[.commit],some 2,true⟩⟩,⟨256,.other,false,some ⟨21,[],none,false⟩⟩]⟩,⟨[33],none,[],[⟨256,.other,false,some ⟨7,[.code],none,false⟩⟩,⟨256,.ws,false,some ⟨8,[],none,false⟩⟩,⟨256,.lf,false,some ⟨9,[],none,false⟩⟩,⟨256,.vt,false,some ⟨7,[.code],none,false⟩⟩,⟨256,.ff,false,some ⟨10,[],none,false⟩⟩,⟨256,.cr,false,some ⟨11,[],none,false⟩⟩,⟨256,.cr,true,some ⟨12,[],none,false⟩⟩,⟨256,.other,false,some ⟨0,[.commit],some 2,true⟩⟩,⟨256,.other,false,some ⟨13,[],none,false⟩⟩]⟩,⟨[32],none,[],[⟨256,.other,false,some ⟨7,[.code],none,false⟩⟩,⟨256,.ws,false,some ⟨8,[],none,false⟩⟩,⟨256,.lf,false,some ⟨9,[],none,false⟩⟩,⟨256,.vt,false,some ⟨7,[.code],none,false⟩⟩,⟨256,.ff,false,some ⟨10,[],none,false⟩⟩,⟨256,.cr,false,some ⟨11,[],none,false⟩⟩,⟨256,.cr,true,some ⟨12,[],none,false⟩⟩,⟨256,.other,false,some ⟨0,[.commit],some 2,true⟩⟩,⟨256,.other,false,some ⟨13,[],none,false⟩⟩]⟩,⟨[23],none,[],[⟨256,.other,false,some ⟨7,[.setEnt .internalNl,.cb,.code],none,false⟩⟩,⟨256,.ws,false,some ⟨8,[.setEnt .internalNl,.cb],none,false⟩⟩,⟨256,.lf,false,some ⟨9,[.setEnt .internalNl,.cb],none,false⟩⟩,⟨256,.vt,false,some ⟨7,[.setEnt .internalNl,.cb,.code],none,false⟩⟩,⟨256,.ff,false,some ⟨10,[.setEnt .internalNl,.cb],none,false⟩⟩,⟨256,.cr,false,some ⟨11,[.setEnt .internalNl,.cb],none,false⟩⟩,⟨256,.cr,true,some ⟨12,[.setEnt .internalNl,.cb],none,false⟩⟩,⟨256,.other,false,some ⟨0,[.setEnt .internalNl,.cb,.commit],some 2,true⟩⟩,⟨256,.other,false,some ⟨13,[.setEnt .internalNl,.cb],none,false⟩⟩]⟩,⟨[24],none,[],[⟨256,.other,false,some ⟨7,[.setEnt .internalNl,.cb,.code],none,false⟩⟩,⟨256,.ws,false,some ⟨8,[.setEnt .internalNl,.cb],none,false⟩⟩,⟨256,.lf,false,some ⟨9,[.setEnt .internalNl,.cb],none,false⟩⟩,⟨256,.vt,false,some ⟨7,[.setEnt .internalNl,.cb,.code],none,false⟩⟩,⟨256,.ff,false,some ⟨10,[.setEnt .internalNl,.cb],none,false⟩⟩,⟨256,.cr,false,some ⟨11,[.setEnt .internalNl,.cb],none,false⟩⟩,⟨256,.cr,true,some ⟨12,[.setEnt .internalNl,.cb],none,false⟩⟩,⟨256,.other,false,some ⟨0,[.setEnt .internalNl,.cb,.commit],some 2,true⟩⟩,⟨256,.other,false,some ⟨13,[.setEnt .internalNl,.cb],none,false⟩⟩]⟩,⟨[21],none,[],[⟨256,.other,false,none⟩,⟨256,.ws,false,none⟩,⟨256,.lf,false,some ⟨22,[],none,false⟩⟩,⟨256,.vt,false,none⟩,⟨256,.ff,false,none⟩,⟨256,.cr,false,none⟩,⟨256,.cr,true,none⟩]⟩,⟨[21,25],none,[],[⟨256,.other,false,some ⟨7,[.setEnt .internalNl,.cb,.code],none,false⟩⟩,⟨256,.ws,false,some ⟨8,[.setEnt .internalNl,.cb],none,false⟩⟩,⟨256,.lf,false,some ⟨23,[.setEnt .internalNl,.cb],none,false⟩⟩,⟨256,.vt,false,some ⟨7,[.setEnt .internalNl,.cb,.code],none,false⟩⟩,⟨256,.ff,false,some ⟨10,[.setEnt .internalNl,.cb],none,false⟩⟩,⟨256,.cr,false,some ⟨11,[.setEnt .internalNl,.cb],none,false⟩⟩,⟨256,.cr,true,some ⟨12,[.setEnt .internalNl,.cb],none,false⟩⟩,⟨256,.other,false,some ⟨0,[.setEnt .internalNl,.cb,.commit],some 2,true⟩⟩,⟨256,.other,false,some ⟨13,[.setEnt .internalNl,.cb],none,false⟩⟩]⟩,⟨[26,34],none,[],[⟨256,.other,false,some ⟨24,[.code],none,false⟩⟩,⟨256,.ws,false,some ⟨24,[.code],none,false⟩⟩,⟨256,.lf,false,some ⟨25,[],none,false⟩⟩,⟨256,.vt,false,some ⟨24,[.code],none,false⟩⟩,⟨256,.ff,false,some ⟨26,[],none,false⟩⟩,⟨256,.cr,false,some ⟨27,[],none,false⟩⟩,⟨256,.cr,true,some ⟨28,[],none,false⟩⟩]⟩,⟨[2],some 1,[],[⟨256,.other,false,some ⟨14,[],some 1,false⟩⟩,⟨256,.ws,false,some ⟨14,[],some 1,false⟩⟩,⟨256,.lf,false,none⟩,⟨256,.vt,false,some ⟨14,[],some 1,false⟩⟩,⟨256,.ff,false,none⟩,⟨256,.cr,false,none⟩,⟨256,.cr,true,none⟩]⟩,⟨[16],none,[],[⟨256,.other,false,some ⟨15,[.code],none,false⟩⟩,⟨256,.ws,false,some ⟨16,[],none,false⟩⟩,⟨256,.lf,false,some ⟨17,[],none,false⟩⟩,⟨256,.vt,false,some ⟨15,[.code],none,false⟩⟩,⟨256,.ff,false,some ⟨18,[],none,false⟩⟩,⟨256,.cr,false,some ⟨19,[],none,false⟩⟩,⟨256,.cr,true,some ⟨20,[],none,false⟩⟩,⟨256,.other,false,some ⟨0,[.commit],some 2,true⟩⟩,⟨256,.other,false,some ⟨21,[],none,false⟩⟩]⟩,⟨[15],none,[],[⟨256,.other,false,some ⟨15,[.code],none,false⟩⟩,⟨256,.ws,false,some ⟨16,[],none,false⟩⟩,⟨256,.lf,false,some ⟨17,[],none,false⟩⟩,⟨256,.vt,false,some ⟨15,[.code],none,false⟩⟩,⟨256,.ff,false,some ⟨18,[],none,false⟩⟩,⟨256,.cr,false,some ⟨19,[],none,false⟩⟩,⟨256,.cr,true,some ⟨20,[],none,false⟩⟩,⟨256,.other,false,some ⟨0,[.commit],some 2,true⟩⟩,⟨256,.other,false,some ⟨21,[],none,false⟩⟩]⟩,⟨[6],none,[],[⟨256,.other,false,some ⟨15,[.setEnt .internalNl,.cb,.code],none,false⟩⟩,⟨256,.ws,false,some ⟨16,[.setEnt .internalNl,.cb],none,false⟩⟩,⟨256,.lf,false,some ⟨17,[.setEnt .internalNl,.cb],none,false⟩⟩,⟨256,.vt,false,some ⟨15,[.setEnt .internalNl,.cb,.code],none,false⟩⟩,⟨256,.ff,false,some ⟨18,[.setEnt .internalNl,.cb],none,false⟩⟩,⟨256,.cr,false,some ⟨19,[.setEnt .internalNl,.cb],none,false⟩⟩,⟨256,.cr,true,some ⟨20,[.setEnt .internalNl,.cb],none,false⟩⟩,⟨256,.other,false,some ⟨0,[.setEnt .internalNl,.cb,.commit],some 2,true⟩⟩,⟨256,.other,false,some ⟨21,[.setEnt .internalNl,.cb],none,false⟩⟩]⟩,⟨[7],none,[],[⟨256,.other,false,some ⟨15,[.setEnt .internalNl,.cb,.code],none,false⟩⟩,⟨256,.ws,false,some ⟨16,[.setEnt .internalNl,.cb],none,false⟩⟩,⟨256,.lf,false,some ⟨17,[.setEnt .internalNl,.cb],none,false⟩⟩,⟨256,.vt,false,some ⟨15,[.setEnt .internalNl,.cb,.code],none,false⟩⟩,⟨256,.ff,false,some ⟨18,[.setEnt .internalNl,.cb],none,false⟩⟩,⟨256,.cr,false,some ⟨19,[.setEnt .internalNl,.cb],none,false⟩⟩,⟨256,.cr,true,some ⟨20,[.setEnt .internalNl,.cb],none,false⟩⟩,⟨256,.other,false,some ⟨0,[.setEnt .internalNl,.cb,.commit],some 2,true⟩⟩,⟨256,.other,false,some ⟨21,[.setEnt .internalNl,.cb],none,false⟩⟩]⟩,⟨[4],none,[],[⟨256,.other,false,none⟩,⟨256,.ws,false,none⟩,⟨256,.lf,false,some ⟨29,[],none,false⟩⟩,⟨256,.vt,false,none⟩,⟨256,.ff,false,none⟩,⟨256,.cr,false,none⟩,⟨256,.cr,true,none⟩]⟩,⟨[4,8],none,[],[⟨256,.other,false,some ⟨15,[.setEnt .internalNl,.cb,.code],none,false⟩⟩,⟨256,.ws,false,some ⟨16,[.setEnt .internalNl,.cb],none,false⟩⟩,⟨256,.lf,false,some ⟨30,[.setEnt .internalNl,.cb],none,false⟩⟩,⟨256,.vt,false,some ⟨15,[.setEnt .internalNl,.cb,.code],none,false⟩⟩,⟨256,.ff,false,some ⟨18,[.setEnt .internalNl,.cb],none,false⟩⟩,⟨256,.cr,false,some ⟨19,[.setEnt .internalNl,.cb],none,false⟩⟩,⟨256,.cr,true,some ⟨20,[.setEnt .internalNl,.cb],none,false⟩⟩,⟨256,.other,false,some ⟨0,[.setEnt .internalNl,.cb,.commit],some 2,true⟩⟩,⟨256,.other,false,some ⟨21,[.setEnt .internalNl,.cb],none,false⟩⟩]⟩,⟨[9,17],none,[],[⟨256,.other,false,some ⟨31,[.code],none,false⟩⟩,⟨256,.ws,false,some ⟨31,[.code],none,false⟩⟩,⟨256,.lf,false,some ⟨32,[],none,false⟩⟩,⟨256,.vt,false,some ⟨31,[.code],none,false⟩⟩,⟨256,.ff,false,some ⟨33,[],none,false⟩⟩,⟨256,.cr,false,some ⟨34,[],none,false⟩⟩,⟨256,.cr,true,some ⟨35,[],none,false⟩⟩]⟩,⟨[22],none,[],[⟨256,.other,false,some ⟨7,[.setEnt .internalNl,.cb,.code],none,false⟩⟩,⟨256,.ws,false,some ⟨8,[.setEnt .internalNl,.cb],none,false⟩⟩,⟨256,.lf,false,some ⟨9,[.setEnt .internalNl,.cb],none,false⟩⟩,⟨256,.vt,false,some ⟨7,[.setEnt .internalNl,.cb,.code],none,false⟩⟩,⟨256,.ff,false,some ⟨10,[.setEnt .internalNl,.cb],none,false⟩⟩,⟨256,.cr,false,some ⟨11,[.setEnt .internalNl,.cb],none,false⟩⟩,⟨256,.cr,true,some ⟨12,[.setEnt .internalNl,.cb],none,false⟩⟩,⟨256,.other,false,some ⟨0,[.setEnt .internalNl,.cb,.commit],some 2,true⟩⟩,⟨256,.other,false,some ⟨13,[.setEnt .internalNl,.cb],none,false⟩⟩]⟩,⟨[22,23],none,[],[⟨256,.other,false,some ⟨7,[.setEnt .internalNl,.cb,.code],none,false⟩⟩,⟨256,.ws,false,some ⟨8,[.setEnt .internalNl,.cb],none,false⟩⟩,⟨256,.lf,false,some ⟨9,[.setEnt .internalNl,.cb],none,false⟩⟩,⟨256,.vt,false,some ⟨7,[.setEnt .internalNl,.cb,.code],none,false⟩⟩,⟨256,.ff,false,some ⟨10,[.setEnt .internalNl,.cb],none,false⟩⟩,⟨256,.cr,false,some ⟨11,[.setEnt .internalNl,.cb],none,false⟩⟩,⟨256,.cr,true,some ⟨12,[.setEnt .internalNl,.cb],none,false⟩⟩,⟨256,.other,false,some ⟨0,[.setEnt .internalNl,.cb,.commit],some 2,true⟩⟩,⟨256,.other,false,some ⟨13,[.setEnt .internalNl,.cb],none,false⟩⟩]⟩,⟨[35],none,[],[⟨256,.other,false,some ⟨7,[.code],none,false⟩⟩,⟨256,.ws,false,some ⟨8,[],none,false⟩⟩,⟨256,.lf,false,some ⟨9,[],none,false⟩⟩,⟨256,.vt,false,some ⟨7,[.code],none,false⟩⟩,⟨256,.ff,false,some ⟨10,[],none,false⟩⟩,⟨256,.cr,false,some ⟨11,[],none,false⟩⟩,⟨256,.cr,true,some ⟨12,[],none,false⟩⟩,⟨256,.other,false,some ⟨0,[.commit],some 2,true⟩⟩,⟨256,.other,false,some ⟨13,[],none,false⟩⟩]⟩,⟨[29],none,[],[⟨256,.other,false,some ⟨7,[.setEnt .internalNl,.cb,.code],none,false⟩⟩,⟨256,.ws,false,some ⟨8,[.setEnt .internalNl,.cb],none,false⟩⟩,⟨256,.lf,false,some ⟨9,[.setEnt .internalNl,.cb],none,false⟩⟩,⟨256,.vt,false,some ⟨7,[.setEnt .internalNl,.cb,.code],none,false⟩⟩,⟨256,.ff,false,some ⟨10,[.setEnt .internalNl,.cb],none,false⟩⟩,⟨256,.cr,false,some ⟨11,[.setEnt .internalNl,.cb],none,false⟩⟩,⟨256,.cr,true,some ⟨12,[.setEnt .internalNl,.cb],none,false⟩⟩,⟨256,.other,false,some ⟨0,[.setEnt .internalNl,.cb,.commit],some 2,true⟩⟩,⟨256,.other,false,some ⟨13,[.setEnt .internalNl,.cb],none,false⟩⟩]⟩,⟨[30],none,[],[⟨256,.other,false,some ⟨7,[.setEnt .internalNl,.cb,.code],none,false⟩⟩,⟨256,.ws,false,some ⟨8,[.setEnt .internalNl,.cb],none,false⟩⟩,⟨256,.lf,false,some ⟨9,[.setEnt .internalNl,.cb],none,false⟩⟩,⟨256,.vt,false,some ⟨7,[.setEnt .internalNl,.cb,.code],none,false⟩⟩,⟨256,.ff,false,some ⟨10,[.setEnt .internalNl,.cb],none,false⟩⟩,⟨256,.cr,false,some ⟨11,[.setEnt .internalNl,.cb],none,false⟩⟩,⟨256,.cr,true,some ⟨12,[.setEnt .internalNl,.cb],none,false⟩⟩,⟨256,.other,false,some ⟨0,[.setEnt .internalNl,.cb,.commit],some 2,true⟩⟩,⟨256,.other,false,some ⟨13,[.setEnt .internalNl,.cb],none,false⟩⟩]⟩,⟨[27],none,[],[⟨256,.other,false,none⟩,⟨256,.ws,false,none⟩,⟨256,.lf,false,some ⟨36,[],none,false⟩⟩,⟨256,.vt,false,none⟩,⟨256,.ff,false,none⟩,⟨256,.cr,false,none⟩,⟨256,.cr,true,none⟩]⟩,⟨[27,31],none,[],[⟨256,.other,false,some ⟨7,[.setEnt .internalNl,.cb,.code],none,false⟩⟩,⟨256,.ws,false,some ⟨8,[.setEnt .internalNl,.cb],none,false⟩⟩,⟨256,.lf,false,some ⟨37,[.setEnt .internalNl,.cb],none,false⟩⟩,⟨256,.vt,false,some ⟨7,[.setEnt .internalNl,.cb,.code],none,false⟩⟩,⟨256,.ff,false,some ⟨10,[.setEnt .internalNl,.cb],none,false⟩⟩,⟨256,.cr,false,some ⟨11,[.setEnt .internalNl,.cb],none,false⟩⟩,⟨256,.cr,true,some ⟨12,[.setEnt .internalNl,.cb],none,false⟩⟩,⟨256,.other,false,some ⟨0,[.setEnt .internalNl,.cb,.commit],some 2,true⟩⟩,⟨256,.other,false,some ⟨13,[.setEnt .internalNl,.cb],none,false⟩⟩]⟩,⟨[5],none,[],[⟨256,.other,false,some ⟨15,[.setEnt .internalNl,.cb,.code],none,false⟩⟩,⟨256,.ws,false,some ⟨16,[.setEnt .internalNl,.cb],none,false⟩⟩,⟨256,.lf,false,some ⟨17,[.setEnt .internalNl,.cb],none,false⟩⟩,⟨256,.vt,false,some ⟨15,[.setEnt .internalNl,.cb,.code],none,false⟩⟩,⟨256,.ff,false,some ⟨18,[.setEnt .internalNl,.cb],none,false⟩⟩,⟨256,.cr,false,some ⟨19,[.setEnt .internalNl,.cb],none,false⟩⟩,⟨256,.cr,true,some ⟨20,[.setEnt .internalNl,.cb],none,false⟩⟩,⟨256,.other,false,some ⟨0,[.setEnt .internalNl,.cb,.commit],some 2,true⟩⟩,⟨256,.other,false,some ⟨21,[.setEnt .internalNl,.cb],none,false⟩⟩]⟩,⟨[5,6],none,[],[⟨256,.other,false,some ⟨15,[.setEnt .internalNl,.cb,.code],none,false⟩⟩,⟨256,.ws,false,some ⟨16,[.setEnt .internalNl,.cb],none,false⟩⟩,⟨256,.lf,false,some ⟨17,[.setEnt .internalNl,.cb],none,false⟩⟩,⟨256,.vt,false,some ⟨15,[.setEnt .internalNl,.cb,.code],none,false⟩⟩,⟨256,.ff,false,some ⟨18,[.setEnt .internalNl,.cb],none,false⟩⟩,⟨256,.cr,false,some ⟨19,[.setEnt .internalNl,.cb],none,false⟩⟩,⟨256,.cr,true,some ⟨20,[.setEnt .internalNl,.cb],none,false⟩⟩,⟨256,.other,false,some ⟨0,[.setEnt .internalNl,.cb,.commit],some 2,true⟩⟩,⟨256,.other,false,some ⟨21,[.setEnt .internalNl,.cb],none,false⟩⟩]⟩,⟨[18],none,[],[⟨256,.other,false,some ⟨15,[.code],none,false⟩⟩,⟨256,.ws,false,some ⟨16,[],none,false⟩⟩,⟨256,.lf,false,some ⟨17,[],none,false⟩⟩,⟨256,.vt,false,some ⟨15,[.code],none,false⟩⟩,⟨256,.ff,false,some ⟨18,[],none,false⟩⟩,⟨256,.cr,false,some ⟨19,[],none,false⟩⟩,⟨256,.cr,true,some ⟨20,[],none,false⟩⟩,⟨256,.other,false,some ⟨0,[.commit],some 2,true⟩⟩,⟨256,.other,false,some ⟨21,[],none,false⟩⟩]⟩,⟨[12],none,[],[⟨256,.other,false,some ⟨15,[.setEnt .internalNl,.cb,.code],none,false⟩⟩,⟨256,.ws,false,some ⟨16,[.setEnt .internalNl,.cb],none,false⟩⟩,⟨256,.lf,false,some ⟨17,[.setEnt .internalNl,.cb],none,false⟩⟩,⟨256,.vt,false,some ⟨15,[.setEnt .internalNl,.cb,.code],none,false⟩⟩,⟨256,.ff,false,some ⟨18,[.setEnt .internalNl,.cb],none,false⟩⟩,⟨256,.cr,false,some ⟨19,[.setEnt .internalNl,.cb],none,false⟩⟩,⟨256,.cr,true,some ⟨20,[.setEnt .internalNl,.cb],none,false⟩⟩,⟨256,.other,false,some ⟨0,[.setEnt .internalNl,.cb,.commit],some 2,true⟩⟩,⟨256,.other,false,some ⟨21,[.setEnt .internalNl,.cb],none,false⟩⟩]⟩,⟨[13],none,[],[⟨256,.other,false,some ⟨15,[.setEnt .internalNl,.cb,.code],none,false⟩⟩,⟨256,.ws,false,some ⟨16,[.setEnt .internalNl,.cb],none,false⟩⟩,⟨256,.lf,false,some ⟨17,[.setEnt .internalNl,.cb],none,false⟩⟩,⟨256,.vt,false,some ⟨15,[.setEnt .internalNl,.cb,.code],none,false⟩⟩,⟨256,.ff,false,some ⟨18,[.setEnt .internalNl,.cb],none,false⟩⟩,⟨256,.cr,false,some ⟨19,[.setEnt .internalNl,.cb],none,false⟩⟩,⟨256,.cr,true,some ⟨20,[.setEnt .internalNl,.cb],none,false⟩⟩,⟨256,.other,false,some ⟨0,[.setEnt .internalNl,.cb,.commit],some 2,true⟩⟩,⟨256,.other,false,some ⟨21,[.setEnt .internalNl,.cb],none,false⟩⟩]⟩,⟨[10],none,[],[⟨256,.other,false,none⟩,⟨256,.ws,false,none⟩,⟨256,.lf,false,some ⟨38,[],none,false⟩⟩,⟨256,.vt,false,none⟩,⟨256,.ff,false,none⟩,⟨256,.cr,false,none⟩,⟨256,.cr,true,none⟩]⟩,⟨[10,14],none,[],[⟨256,.other,false,some ⟨15,[.setEnt .internalNl,.cb,.code],none,false⟩⟩,⟨256,.ws,false,some ⟨16,[.setEnt .internalNl,.cb],none,false⟩⟩,⟨256,.lf,false,some ⟨39,[.setEnt .internalNl,.cb],none,false⟩⟩,⟨256,.vt,false,some ⟨15,[.setEnt .internalNl,.cb,.code],none,false⟩⟩,⟨256,.ff,false,some ⟨18,[.setEnt .internalNl,.cb],none,false⟩⟩,⟨256,.cr,false,some ⟨19,[.setEnt .internalNl,.cb],none,false⟩⟩,⟨256,.cr,true,some ⟨20,[.setEnt .internalNl,.cb],none,false⟩⟩,⟨256,.other,false,some ⟨0,[.setEnt .internalNl,.cb,.commit],some 2,true⟩⟩,⟨256,.other,false,some ⟨21,[.setEnt .internalNl,.cb],none,false⟩⟩]⟩,⟨[28],none,[],[⟨256,.other,false,some ⟨7,[.setEnt .internalNl,.cb,.code],none,false⟩⟩,⟨256,.ws,false,some ⟨8,[.setEnt .internalNl,.cb],none,false⟩⟩,⟨256,.lf,false,some ⟨9,[.setEnt .internalNl,.cb],none,false⟩⟩,⟨256,.vt,false,some ⟨7,[.setEnt .internalNl,.cb,.code],none,false⟩⟩,⟨256,.ff,false,some ⟨10,[.setEnt .internalNl,.cb],none,false⟩⟩,⟨256,.cr,false,some ⟨11,[.setEnt .internalNl,.cb],none,false⟩⟩,⟨256,.cr,true,some ⟨12,[.setEnt .internalNl,.cb],none,false⟩⟩,⟨256,.other,false,some ⟨0,[.setEnt .internalNl,.cb,.commit],some 2,true⟩⟩,⟨256,.other,false,some ⟨13,[.setEnt .internalNl,.cb],none,false⟩⟩]⟩,⟨[23,28],none,[],[⟨256,.other,false,some ⟨7,[.setEnt .internalNl,.cb,.code],none,false⟩⟩,⟨256,.ws,false,some ⟨8,[.setEnt .internalNl,.cb],none,false⟩⟩,⟨256,.lf,false,some ⟨9,[.setEnt .internalNl,.cb],none,false⟩⟩,⟨256,.vt,false,some ⟨7,[.setEnt .internalNl,.cb,.code],none,false⟩⟩,⟨256,.ff,false,some ⟨10,[.setEnt .internalNl,.cb],none,false⟩⟩,⟨256,.cr,false,some ⟨11,[.setEnt .internalNl,.cb],none,false⟩⟩,⟨256,.cr,true,some ⟨12,[.setEnt .internalNl,.cb],none,false⟩⟩,⟨256,.other,false,some ⟨0,[.setEnt .internalNl,.cb,.commit],some 2,true⟩⟩,⟨256,.other,false,some ⟨13,[.setEnt .internalNl,.cb],none,false⟩⟩]⟩,⟨[11],none,[],[⟨256,.other,false,some ⟨15,[.setEnt .internalNl,.cb,.code],none,false⟩⟩,⟨256,.ws,false,some ⟨16,[.setEnt .internalNl,.cb],none,false⟩⟩,⟨256,.lf,false,some ⟨17,[.setEnt .internalNl,.cb],none,false⟩⟩,⟨256,.vt,false,some ⟨15,[.setEnt .internalNl,.cb,.code],none,false⟩⟩,⟨256,.ff,false,some ⟨18,[.setEnt .internalNl,.cb],none,false⟩⟩,⟨256,.cr,false,some ⟨19,[.setEnt .internalNl,.cb],none,false⟩⟩,⟨256,.cr,true,some ⟨20,[.setEnt .internalNl,.cb],none,false⟩⟩,⟨256,.other,false,some ⟨0,[.setEnt .internalNl,.cb,.commit],some 2,true⟩⟩,⟨256,.other,false,some ⟨21,[.setEnt .internalNl,.cb],none,false⟩⟩]⟩,⟨[6,11],none,[],[⟨256,.other,false,some ⟨15,[.setEnt .internalNl,.cb,.code],none,false⟩⟩,⟨256,.ws,false,some ⟨16,[.setEnt .internalNl,.cb],none,false⟩⟩,⟨256,.lf,false,some ⟨17,[.setEnt .internalNl,.cb],none,false⟩⟩,⟨256,.vt,false,some ⟨15,[.setEnt .internalNl,.cb,.code],none,false⟩⟩,⟨256,.ff,false,some ⟨18,[.setEnt .internalNl,.cb],none,false⟩⟩,⟨256,.cr,false,some ⟨19,[.setEnt .internalNl,.cb],none,false⟩⟩,⟨256,.cr,true,some ⟨20,[.setEnt .internalNl,.cb],none,false⟩⟩,⟨256,.other,false,some ⟨0,[.setEnt .internalNl,.cb,.commit],some 2,true⟩⟩,⟨256,.other,false,some ⟨21,[.setEnt .internalNl,.cb],none,false⟩⟩]⟩]
theorem shell_line_rowsOk : rowsOk shell_line_nfa [] (shell_line_cs.map (·.1)) shell_line_rows = true := by decide +kernel
def shell_line_D : Dfa shell_line_M.nfa := ⟨shell_line_masks, [], shell_line_cs, shell_line_rows, shell_line_masksIn, shell_line_repOk, shell_line_rowsOk⟩

end Ohcount.Cert
