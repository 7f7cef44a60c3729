import Verif.Gram.All
import Verif.RagelCheck

/-! Generated by tools/gen_certs.py. -/

namespace Ohcount.Cert
open Ohcount.Ragel Ohcount.Gram

set_option maxRecDepth 100000

def ac_line_nfa : Nfa := ⟨[⟨0,4294967808,[],[(0,.setEnt (.own 0))],0,0⟩,⟨1,1267650600228229401496703205376,[],[],0,0⟩,⟨6,2475880078570760549798248448,[],[(2,.nestRes),(3,.code)],0,2⟩,⟨17,8192,[],[(11,.setEnt .newline)],0,0⟩,⟨19,1024,[],[(11,.setEnt .newline)],0,0⟩,⟨20,4096,[],[(11,.setEnt .newline)],0,0⟩,⟨21,8192,[.crAlone],[(11,.setEnt .newline)],0,0⟩,⟨22,115792089237316195423570985008687907853269984665640564039457584007908834656767,[],[(12,.setEnt (.own 3))],0,0⟩],[[⟨0,4294967808,[],[(0,.setEnt (.own 0))],0,0⟩],[⟨2,1298074214633706907132624082305024,[],[],0,0⟩],[⟨3,324518553658426726783156020576256,[],[(1,.comment)],0,0⟩],[⟨4,4294967808,[],[],0,0⟩],[⟨4,4294967808,[],[],0,0⟩,⟨5,115792089237316195423570985008687907853269984665640564039457584007913129626623,[],[],0,0⟩],[⟨5,115792089237316195423570985008687907853269984665640564039457584007913129626623,[],[],0,0⟩],[⟨7,8192,[],[],0,2⟩,⟨9,1024,[],[],0,2⟩,⟨10,4096,[],[],0,2⟩,⟨11,8192,[.crAlone],[],0,2⟩,⟨12,4294967808,[],[],0,2⟩,⟨13,2475880078570760549798248448,[],[(6,.nestInc),(7,.code)],0,2⟩,⟨14,9903520314283042199192993792,[],[(8,.nestDec),(9,.code)],0,2⟩,⟨15,115792089237316195423570985008687907853269984665628184639064730205159843416575,[],[(10,.code)],0,2⟩,⟨16,9903520314283042199192993792,[.nestZero],[],2,0⟩],[⟨8,1024,[],[],0,2⟩],[⟨7,8192,[],[(4,.setEnt .internalNl),(5,.cb)],0,2⟩,⟨9,1024,[],[(4,.setEnt .internalNl),(5,.cb)],0,2⟩,⟨10,4096,[],[(4,.setEnt .internalNl),(5,.cb)],0,2⟩,⟨11,8192,[.crAlone],[(4,.setEnt .internalNl),(5,.cb)],0,2⟩,⟨12,4294967808,[],[(4,.setEnt .internalNl),(5,.cb)],0,2⟩,⟨13,2475880078570760549798248448,[],[(4,.setEnt .internalNl),(5,.cb),(6,.nestInc),(7,.code)],0,2⟩,⟨14,9903520314283042199192993792,[],[(4,.setEnt .internalNl),(5,.cb),(8,.nestDec),(9,.code)],0,2⟩,⟨15,115792089237316195423570985008687907853269984665628184639064730205159843416575,[],[(4,.setEnt .internalNl),(5,.cb),(10,.code)],0,2⟩,⟨16,9903520314283042199192993792,[.nestZero],[(4,.setEnt .internalNl),(5,.cb)],2,0⟩],[⟨7,8192,[],[(4,.setEnt .internalNl),(5,.cb)],0,2⟩,⟨9,1024,[],[(4,.setEnt .internalNl),(5,.cb)],0,2⟩,⟨10,4096,[],[(4,.setEnt .internalNl),(5,.cb)],0,2⟩,⟨11,8192,[.crAlone],[(4,.setEnt .internalNl),(5,.cb)],0,2⟩,⟨12,4294967808,[],[(4,.setEnt .internalNl),(5,.cb)],0,2⟩,⟨13,2475880078570760549798248448,[],[(4,.setEnt .internalNl),(5,.cb),(6,.nestInc),(7,.code)],0,2⟩,⟨14,9903520314283042199192993792,[],[(4,.setEnt .internalNl),(5,.cb),(8,.nestDec),(9,.code)],0,2⟩,⟨15,115792089237316195423570985008687907853269984665628184639064730205159843416575,[],[(4,.setEnt .internalNl),(5,.cb),(10,.code)],0,2⟩,⟨16,9903520314283042199192993792,[.nestZero],[(4,.setEnt .internalNl),(5,.cb)],2,0⟩],[⟨7,8192,[],[(4,.setEnt .internalNl),(5,.cb)],0,2⟩,⟨9,1024,[],[(4,.setEnt .internalNl),(5,.cb)],0,2⟩,⟨10,4096,[],[(4,.setEnt .internalNl),(5,.cb)],0,2⟩,⟨11,8192,[.crAlone],[(4,.setEnt .internalNl),(5,.cb)],0,2⟩,⟨12,4294967808,[],[(4,.setEnt .internalNl),(5,.cb)],0,2⟩,⟨13,2475880078570760549798248448,[],[(4,.setEnt .internalNl),(5,.cb),(6,.nestInc),(7,.code)],0,2⟩,⟨14,9903520314283042199192993792,[],[(4,.setEnt .internalNl),(5,.cb),(8,.nestDec),(9,.code)],0,2⟩,⟨15,115792089237316195423570985008687907853269984665628184639064730205159843416575,[],[(4,.setEnt .internalNl),(5,.cb),(10,.code)],0,2⟩,⟨16,9903520314283042199192993792,[.nestZero],[(4,.setEnt .internalNl),(5,.cb)],2,0⟩],[⟨7,8192,[],[(4,.setEnt .internalNl),(5,.cb)],0,2⟩,⟨9,1024,[],[(4,.setEnt .internalNl),(5,.cb)],0,2⟩,⟨10,4096,[],[(4,.setEnt .internalNl),(5,.cb)],0,2⟩,⟨11,8192,[.crAlone],[(4,.setEnt .internalNl),(5,.cb)],0,2⟩,⟨12,4294967808,[],[(4,.setEnt .internalNl),(5,.cb)],0,2⟩,⟨13,2475880078570760549798248448,[],[(4,.setEnt .internalNl),(5,.cb),(6,.nestInc),(7,.code)],0,2⟩,⟨14,9903520314283042199192993792,[],[(4,.setEnt .internalNl),(5,.cb),(8,.nestDec),(9,.code)],0,2⟩,⟨15,115792089237316195423570985008687907853269984665628184639064730205159843416575,[],[(4,.setEnt .internalNl),(5,.cb),(10,.code)],0,2⟩,⟨16,9903520314283042199192993792,[.nestZero],[(4,.setEnt .internalNl),(5,.cb)],2,0⟩],[⟨7,8192,[],[],0,2⟩,⟨9,1024,[],[],0,2⟩,⟨10,4096,[],[],0,2⟩,⟨11,8192,[.crAlone],[],0,2⟩,⟨12,4294967808,[],[],0,2⟩,⟨13,2475880078570760549798248448,[],[(6,.nestInc),(7,.code)],0,2⟩,⟨14,9903520314283042199192993792,[],[(8,.nestDec),(9,.code)],0,2⟩,⟨15,115792089237316195423570985008687907853269984665628184639064730205159843416575,[],[(10,.code)],0,2⟩,⟨16,9903520314283042199192993792,[.nestZero],[],2,0⟩],[⟨7,8192,[],[],0,2⟩,⟨9,1024,[],[],0,2⟩,⟨10,4096,[],[],0,2⟩,⟨11,8192,[.crAlone],[],0,2⟩,⟨12,4294967808,[],[],0,2⟩,⟨13,2475880078570760549798248448,[],[(6,.nestInc),(7,.code)],0,2⟩,⟨14,9903520314283042199192993792,[],[(8,.nestDec),(9,.code)],0,2⟩,⟨15,115792089237316195423570985008687907853269984665628184639064730205159843416575,[],[(10,.code)],0,2⟩,⟨16,9903520314283042199192993792,[.nestZero],[],2,0⟩],[⟨7,8192,[],[],0,2⟩,⟨9,1024,[],[],0,2⟩,⟨10,4096,[],[],0,2⟩,⟨11,8192,[.crAlone],[],0,2⟩,⟨12,4294967808,[],[],0,2⟩,⟨13,2475880078570760549798248448,[],[(6,.nestInc),(7,.code)],0,2⟩,⟨14,9903520314283042199192993792,[],[(8,.nestDec),(9,.code)],0,2⟩,⟨15,115792089237316195423570985008687907853269984665628184639064730205159843416575,[],[(10,.code)],0,2⟩,⟨16,9903520314283042199192993792,[.nestZero],[],2,0⟩],[⟨7,8192,[],[],0,2⟩,⟨9,1024,[],[],0,2⟩,⟨10,4096,[],[],0,2⟩,⟨11,8192,[.crAlone],[],0,2⟩,⟨12,4294967808,[],[],0,2⟩,⟨13,2475880078570760549798248448,[],[(6,.nestInc),(7,.code)],0,2⟩,⟨14,9903520314283042199192993792,[],[(8,.nestDec),(9,.code)],0,2⟩,⟨15,115792089237316195423570985008687907853269984665628184639064730205159843416575,[],[(10,.code)],0,2⟩,⟨16,9903520314283042199192993792,[.nestZero],[],2,0⟩],[],[⟨18,1024,[],[(11,.setEnt .newline)],0,0⟩],[],[],[],[],[]],[some (0,[]),none,none,some (1,[]),none,some (1,[]),none,none,none,none,none,none,none,none,none,none,some (2,[]),none,some (3,[]),some (3,[]),some (3,[]),some (3,[]),some (4,[])],[1,2,11,12,13]⟩
theorem ac_line_nfa_eq : Autoconf.ac_line.nfa = ac_line_nfa := by decide +kernel
/-- The machine of `Autoconf.ac_line`, with its automaton as a literal. -/
def ac_line_M : Machine := ⟨ac_line_nfa, Autoconf.ac_line.ends, Autoconf.ac_line.sw⟩
theorem ac_line_M_eq : Autoconf.ac_line.machine = ac_line_M := by
  unfold Scanner.machine ac_line_M; rw [ac_line_nfa_eq]
def ac_line_masks : List Nat := [4294967808,1267650600228229401496703205376,2475880078570760549798248448,8192,1024,4096,115792089237316195423570985008687907853269984665640564039457584007908834656767,1298074214633706907132624082305024,324518553658426726783156020576256,115792089237316195423570985008687907853269984665640564039457584007913129626623,9903520314283042199192993792,115792089237316195423570985008687907853269984665628184639064730205159843416575]
def ac_line_cs : List (Nat × Nat) := [(0,115792089237316195423570985008687907853269983041767765746702866887883037327871),(9,4294967808),(10,1024),(11,2048),(12,4096),(13,8192),(91,2475880078570760549798248448),(93,9903520314283042199192993792),(100,1267650600228229401496703205376),(108,324518553658426726783156020576256),(110,1298074214633706907132624082305024)]
theorem ac_line_masksIn : masksIn ac_line_nfa ac_line_masks = true := by decide +kernel
theorem ac_line_repOk : repOk ac_line_masks ac_line_cs = true := by decide +kernel
def ac_line_rows : List Row := [⟨[],none,[],[⟨256,.other,false,some ⟨0,[.setEnt (.own 3)],some 4,true⟩⟩,⟨256,.ws,false,some ⟨1,[.setEnt (.own 0)],some 0,false⟩⟩,⟨256,.lf,false,some ⟨0,[.setEnt .newline],some 3,true⟩⟩,⟨256,.vt,false,none⟩,⟨256,.ff,false,some ⟨0,[.setEnt .newline],some 3,true⟩⟩,⟨256,.cr,false,some ⟨2,[.setEnt .newline],none,false⟩⟩,⟨256,.cr,true,some ⟨3,[.setEnt .newline],some 3,false⟩⟩,⟨256,.other,false,some ⟨4,[.nestRes,.code,.setEnt (.own 3)],some 4,false⟩⟩,⟨256,.other,false,some ⟨5,[.setEnt (.own 3)],some 4,false⟩⟩]⟩,⟨[0],some 0,[],[⟨256,.other,false,none⟩,⟨256,.ws,false,some ⟨1,[.setEnt (.own 0)],some 0,false⟩⟩,⟨256,.lf,false,none⟩,⟨256,.vt,false,none⟩,⟨256,.ff,false,none⟩,⟨256,.cr,false,none⟩,⟨256,.cr,true,none⟩]⟩,⟨[17],none,[],[⟨256,.other,false,none⟩,⟨256,.ws,false,none⟩,⟨256,.lf,false,some ⟨0,[.setEnt .newline],some 3,true⟩⟩,⟨256,.vt,false,none⟩,⟨256,.ff,false,none⟩,⟨256,.cr,false,none⟩,⟨256,.cr,true,none⟩]⟩,⟨[17,21],some 3,[],[⟨256,.other,false,none⟩,⟨256,.ws,false,none⟩,⟨256,.lf,false,some ⟨0,[.setEnt .newline],some 3,true⟩⟩,⟨256,.vt,false,none⟩,⟨256,.ff,false,none⟩,⟨256,.cr,false,none⟩,⟨256,.cr,true,none⟩]⟩,⟨[6,22],some 4,[],[⟨256,.other,false,some ⟨6,[.code],none,false⟩⟩,⟨256,.ws,false,some ⟨7,[],none,false⟩⟩,⟨256,.lf,false,some ⟨8,[],none,false⟩⟩,⟨256,.vt,false,some ⟨6,[.code],none,false⟩⟩,⟨256,.ff,false,some ⟨9,[],none,false⟩⟩,⟨256,.cr,false,some ⟨10,[],none,false⟩⟩,⟨256,.cr,true,some ⟨11,[],none,false⟩⟩,⟨256,.other,false,some ⟨12,[.nestInc,.code],none,false⟩⟩,⟨256,.other,false,some ⟨13,[.nestDec,.code],none,false⟩⟩,⟨256,.other,false,some ⟨0,[],some 2,true⟩⟩]⟩,⟨[1,22],some 4,[],[⟨256,.other,false,none⟩,⟨256,.ws,false,none⟩,⟨256,.lf,false,none⟩,⟨256,.vt,false,none⟩,⟨256,.ff,false,none⟩,⟨256,.cr,false,none⟩,⟨256,.cr,true,none⟩,⟨256,.other,false,some ⟨14,[],none,false⟩⟩]⟩,⟨[15],none,[],[⟨256,.other,false,some ⟨6,[.code],none,false⟩⟩,⟨256,.ws,false,some ⟨7,[],none,false⟩⟩,⟨256,.lf,false,some ⟨8,[],none,false⟩⟩,⟨256,.vt,false,some ⟨6,[.code],none,false⟩⟩,⟨256,.ff,false,some ⟨9,[],none,false⟩⟩,⟨256,.cr,false,some ⟨10,[],none,false⟩⟩,⟨256,.cr,true,some ⟨11,[],none,false⟩⟩,⟨256,.other,false,some ⟨12,[.nestInc,.code],none,false⟩⟩,⟨256,.other,false,some ⟨13,[.nestDec,.code],none,false⟩⟩,⟨256,.other,false,some ⟨0,[],some 2,true⟩⟩]⟩,⟨[12],none,[],[⟨256,.other,false,some ⟨6,[.code],none,false⟩⟩,⟨256,.ws,false,some ⟨7,[],none,false⟩⟩,⟨256,.lf,false,some ⟨8,[],none,false⟩⟩,⟨256,.vt,false,some ⟨6,[.code],none,false⟩⟩,⟨256,.ff,false,some ⟨9,[],none,false⟩⟩,⟨256,.cr,false,some ⟨10,[],none,false⟩⟩,⟨256,.cr,true,some ⟨11,[],none,false⟩⟩,⟨256,.other,false,some ⟨12,[.nestInc,.code],none,false⟩⟩,⟨256,.other,false,some ⟨13,[.nestDec,.code],none,false⟩⟩,⟨256,.other,false,some ⟨0,[],some 2,true⟩⟩]⟩,⟨[9],none,[],[⟨256,.other,false,some ⟨6,[.setEnt .internalNl,.cb,.code],none,false⟩⟩,⟨256,.ws,false,some ⟨7,[.setEnt .internalNl,.cb],none,false⟩⟩,⟨256,.lf,false,some ⟨8,[.setEnt .internalNl,.cb],none,false⟩⟩,⟨256,.vt,false,some ⟨6,[.setEnt .internalNl,.cb,.code],none,false⟩⟩,⟨256,.ff,false,some ⟨9,[.setEnt .internalNl,.cb],none,false⟩⟩,⟨256,.cr,false,some ⟨10,[.setEnt .internalNl,.cb],none,false⟩⟩,⟨256,.cr,true,some ⟨11,[.setEnt .internalNl,.cb],none,false⟩⟩,⟨256,.other,false,some ⟨12,[.setEnt .internalNl,.cb,.nestInc,.code],none,false⟩⟩,⟨256,.other,false,some ⟨13,[.setEnt .internalNl,.cb,.nestDec,.code],none,false⟩⟩,⟨256,.other,false,some ⟨0,[.setEnt .internalNl,.cb],some 2,true⟩⟩]⟩,⟨[10],none,[],[⟨256,.other,false,some ⟨6,[.setEnt .internalNl,.cb,.code],none,false⟩⟩,⟨256,.ws,false,some ⟨7,[.setEnt .internalNl,.cb],none,false⟩⟩,⟨256,.lf,false,some ⟨8,[.setEnt .internalNl,.cb],none,false⟩⟩,⟨256,.vt,false,some ⟨6,[.setEnt .internalNl,.cb,.code],none,false⟩⟩,⟨256,.ff,false,some ⟨9,[.setEnt .internalNl,.cb],none,false⟩⟩,⟨256,.cr,false,some ⟨10,[.setEnt .internalNl,.cb],none,false⟩⟩,⟨256,.cr,true,some ⟨11,[.setEnt .internalNl,.cb],none,false⟩⟩,⟨256,.other,false,some ⟨12,[.setEnt .internalNl,.cb,.nestInc,.code],none,false⟩⟩,⟨256,.other,false,some ⟨13,[.setEnt .internalNl,.cb,.nestDec,.code],none,false⟩⟩,⟨256,.other,false,some ⟨0,[.setEnt .internalNl,.cb],some 2,true⟩⟩]⟩,⟨[7],none,[],[⟨256,.other,false,none⟩,⟨256,.ws,false,none⟩,⟨256,.lf,false,some ⟨15,[],none,false⟩⟩,⟨256,.vt,false,none⟩,⟨256,.ff,false,none⟩,⟨256,.cr,false,none⟩,⟨256,.cr,true,none⟩]⟩,⟨[7,11],none,[],[⟨256,.other,false,some ⟨6,[.setEnt .internalNl,.cb,.code],none,false⟩⟩,⟨256,.ws,false,some ⟨7,[.setEnt .internalNl,.cb],none,false⟩⟩,⟨256,.lf,false,some ⟨16,[.setEnt .internalNl,.cb],none,false⟩⟩,⟨256,.vt,false,some ⟨6,[.setEnt .internalNl,.cb,.code],none,false⟩⟩,⟨256,.ff,false,some ⟨9,[.setEnt .internalNl,.cb],none,false⟩⟩,⟨256,.cr,false,some ⟨10,[.setEnt .internalNl,.cb],none,false⟩⟩,⟨256,.cr,true,some ⟨11,[.setEnt .internalNl,.cb],none,false⟩⟩,⟨256,.other,false,some ⟨12,[.setEnt .internalNl,.cb,.nestInc,.code],none,false⟩⟩,⟨256,.other,false,some ⟨13,[.setEnt .internalNl,.cb,.nestDec,.code],none,false⟩⟩,⟨256,.other,false,some ⟨0,[.setEnt .internalNl,.cb],some 2,true⟩⟩]⟩,⟨[13],none,[],[⟨256,.other,false,some ⟨6,[.code],none,false⟩⟩,⟨256,.ws,false,some ⟨7,[],none,false⟩⟩,⟨256,.lf,false,some ⟨8,[],none,false⟩⟩,⟨256,.vt,false,some ⟨6,[.code],none,false⟩⟩,⟨256,.ff,false,some ⟨9,[],none,false⟩⟩,⟨256,.cr,false,some ⟨10,[],none,false⟩⟩,⟨256,.cr,true,some ⟨11,[],none,false⟩⟩,⟨256,.other,false,some ⟨12,[.nestInc,.code],none,false⟩⟩,⟨256,.other,false,some ⟨13,[.nestDec,.code],none,false⟩⟩,⟨256,.other,false,some ⟨0,[],some 2,true⟩⟩]⟩,⟨[14],none,[],[⟨256,.other,false,some ⟨6,[.code],none,false⟩⟩,⟨256,.ws,false,some ⟨7,[],none,false⟩⟩,⟨256,.lf,false,some ⟨8,[],none,false⟩⟩,⟨256,.vt,false,some ⟨6,[.code],none,false⟩⟩,⟨256,.ff,false,some ⟨9,[],none,false⟩⟩,⟨256,.cr,false,some ⟨10,[],none,false⟩⟩,⟨256,.cr,true,some ⟨11,[],none,false⟩⟩,⟨256,.other,false,some ⟨12,[.nestInc,.code],none,false⟩⟩,⟨256,.other,false,some ⟨13,[.nestDec,.code],none,false⟩⟩,⟨256,.other,false,some ⟨0,[],some 2,true⟩⟩]⟩,⟨[2],none,[],[⟨256,.other,false,none⟩,⟨256,.ws,false,none⟩,⟨256,.lf,false,none⟩,⟨256,.vt,false,none⟩,⟨256,.ff,false,none⟩,⟨256,.cr,false,none⟩,⟨256,.cr,true,none⟩,⟨256,.other,false,some ⟨17,[.comment],some 1,false⟩⟩]⟩,⟨[8],none,[],[⟨256,.other,false,some ⟨6,[.setEnt .internalNl,.cb,.code],none,false⟩⟩,⟨256,.ws,false,some ⟨7,[.setEnt .internalNl,.cb],none,false⟩⟩,⟨256,.lf,false,some ⟨8,[.setEnt .internalNl,.cb],none,false⟩⟩,⟨256,.vt,false,some ⟨6,[.setEnt .internalNl,.cb,.code],none,false⟩⟩,⟨256,.ff,false,some ⟨9,[.setEnt .internalNl,.cb],none,false⟩⟩,⟨256,.cr,false,some ⟨10,[.setEnt .internalNl,.cb],none,false⟩⟩,⟨256,.cr,true,some ⟨11,[.setEnt .internalNl,.cb],none,false⟩⟩,⟨256,.other,false,some ⟨12,[.setEnt .internalNl,.cb,.nestInc,.code],none,false⟩⟩,⟨256,.other,false,some ⟨13,[.setEnt .internalNl,.cb,.nestDec,.code],none,false⟩⟩,⟨256,.other,false,some ⟨0,[.setEnt .internalNl,.cb],some 2,true⟩⟩]⟩,⟨[8,9],none,[],[⟨256,.other,false,some ⟨6,[.setEnt .internalNl,.cb,.code],none,false⟩⟩,⟨256,.ws,false,some ⟨7,[.setEnt .internalNl,.cb],none,false⟩⟩,⟨256,.lf,false,some ⟨8,[.setEnt .internalNl,.cb],none,false⟩⟩,⟨256,.vt,false,some ⟨6,[.setEnt .internalNl,.cb,.code],none,false⟩⟩,⟨256,.ff,false,some ⟨9,[.setEnt .internalNl,.cb],none,false⟩⟩,⟨256,.cr,false,some ⟨10,[.setEnt .internalNl,.cb],none,false⟩⟩,⟨256,.cr,true,some ⟨11,[.setEnt .internalNl,.cb],none,false⟩⟩,⟨256,.other,false,some ⟨12,[.setEnt .internalNl,.cb,.nestInc,.code],none,false⟩⟩,⟨256,.other,false,some ⟨13,[.setEnt .internalNl,.cb,.nestDec,.code],none,false⟩⟩,⟨256,.other,false,some ⟨0,[.setEnt .internalNl,.cb],some 2,true⟩⟩]⟩,⟨[3],some 1,[],[⟨256,.other,false,none⟩,⟨256,.ws,false,some ⟨18,[],none,false⟩⟩,⟨256,.lf,false,none⟩,⟨256,.vt,false,none⟩,⟨256,.ff,false,none⟩,⟨256,.cr,false,none⟩,⟨256,.cr,true,none⟩]⟩,⟨[4],none,[],[⟨256,.other,false,some ⟨19,[],some 1,false⟩⟩,⟨256,.ws,false,some ⟨20,[],some 1,false⟩⟩,⟨256,.lf,false,none⟩,⟨256,.vt,false,some ⟨19,[],some 1,false⟩⟩,⟨256,.ff,false,none⟩,⟨256,.cr,false,none⟩,⟨256,.cr,true,none⟩]⟩,⟨[5],some 1,[],[⟨256,.other,false,some ⟨19,[],some 1,false⟩⟩,⟨256,.ws,false,some ⟨19,[],some 1,false⟩⟩,⟨256,.lf,false,none⟩,⟨256,.vt,false,some ⟨19,[],some 1,false⟩⟩,⟨256,.ff,false,none⟩,⟨256,.cr,false,none⟩,⟨256,.cr,true,none⟩]⟩,⟨[4,5],some 1,[],[⟨256,.other,false,some ⟨19,[],some 1,false⟩⟩,⟨256,.ws,false,some ⟨20,[],some 1,false⟩⟩,⟨256,.lf,false,none⟩,⟨256,.vt,false,some ⟨19,[],some 1,false⟩⟩,⟨256,.ff,false,none⟩,⟨256,.cr,false,none⟩,⟨256,.cr,true,none⟩]⟩]
theorem ac_line_rowsOk : rowsOk ac_line_nfa [] (ac_line_cs.map (·.1)) ac_line_rows = true := by decide +kernel
def ac_line_D : Dfa ac_line_M.nfa := ⟨ac_line_masks, [], ac_line_cs, ac_line_rows, ac_line_masksIn, ac_line_repOk, ac_line_rowsOk⟩

def am_line_nfa : Nfa := ⟨[⟨0,4294967808,[],[(0,.setEnt (.own 0))],0,0⟩,⟨1,34359738368,[],[(1,.comment)],0,0⟩,⟨3,549755813888,[],[(2,.code)],0,0⟩,⟨8,17179869184,[],[(3,.code)],0,0⟩,⟨13,8192,[],[(4,.setEnt .newline)],0,0⟩,⟨15,1024,[],[(4,.setEnt .newline)],0,0⟩,⟨16,4096,[],[(4,.setEnt .newline)],0,0⟩,⟨17,8192,[.crAlone],[(4,.setEnt .newline)],0,0⟩,⟨18,115792089237316195423570985008687907853269984665640564039457584007908834656767,[],[(5,.setEnt (.own 3))],0,0⟩],[[⟨0,4294967808,[],[(0,.setEnt (.own 0))],0,0⟩],[⟨2,115792089237316195423570985008687907853269984665640564039457584007913129626623,[],[],0,0⟩],[⟨2,115792089237316195423570985008687907853269984665640564039457584007913129626623,[],[],0,0⟩],[⟨4,115792089237316195423570985008687907853269984665635612279300442486263777315839,[],[],0,0⟩,⟨5,4951760157141521099596496896,[],[],0,0⟩,⟨7,549755813888,[],[],0,0⟩],[⟨4,115792089237316195423570985008687907853269984665635612279300442486263777315839,[],[],0,0⟩,⟨5,4951760157141521099596496896,[],[],0,0⟩,⟨7,549755813888,[],[],0,0⟩],[⟨6,115792089237316195423570985008687907853269984665640564039457584007913129626623,[],[],0,0⟩],[⟨4,115792089237316195423570985008687907853269984665635612279300442486263777315839,[],[],0,0⟩,⟨5,4951760157141521099596496896,[],[],0,0⟩,⟨7,549755813888,[],[],0,0⟩],[],[⟨9,115792089237316195423570985008687907853269984665635612279300442486796353260543,[],[],0,0⟩,⟨10,4951760157141521099596496896,[],[],0,0⟩,⟨12,17179869184,[],[],0,0⟩],[⟨9,115792089237316195423570985008687907853269984665635612279300442486796353260543,[],[],0,0⟩,⟨10,4951760157141521099596496896,[],[],0,0⟩,⟨12,17179869184,[],[],0,0⟩],[⟨11,115792089237316195423570985008687907853269984665640564039457584007913129626623,[],[],0,0⟩],[⟨9,115792089237316195423570985008687907853269984665635612279300442486796353260543,[],[],0,0⟩,⟨10,4951760157141521099596496896,[],[],0,0⟩,⟨12,17179869184,[],[],0,0⟩],[],[⟨14,1024,[],[(4,.setEnt .newline)],0,0⟩],[],[],[],[],[]],[some (0,[]),some (1,[]),some (1,[]),none,none,none,none,some (2,[]),none,none,none,none,some (2,[]),none,some (3,[]),some (3,[]),some (3,[]),some (3,[]),some (4,[])],[1,2,4,5,6]⟩
theorem am_line_nfa_eq : Automake.am_line.nfa = am_line_nfa := by decide +kernel
/-- The machine of `Automake.am_line`, with its automaton as a literal. -/
def am_line_M : Machine := ⟨am_line_nfa, Automake.am_line.ends, Automake.am_line.sw⟩
theorem am_line_M_eq : Automake.am_line.machine = am_line_M := by
  unfold Scanner.machine am_line_M; rw [am_line_nfa_eq]
def am_line_masks : List Nat := [4294967808,34359738368,549755813888,17179869184,8192,1024,4096,115792089237316195423570985008687907853269984665640564039457584007908834656767,115792089237316195423570985008687907853269984665640564039457584007913129626623,115792089237316195423570985008687907853269984665635612279300442486263777315839,4951760157141521099596496896,115792089237316195423570985008687907853269984665635612279300442486796353260543]
def am_line_cs : List (Nat × Nat) := [(0,115792089237316195423570985008687907853269984665635612279300442486207942738431),(9,4294967808),(10,1024),(11,2048),(12,4096),(13,8192),(34,17179869184),(35,34359738368),(39,549755813888),(92,4951760157141521099596496896)]
theorem am_line_masksIn : masksIn am_line_nfa am_line_masks = true := by decide +kernel
theorem am_line_repOk : repOk am_line_masks am_line_cs = true := by decide +kernel
def am_line_rows : List Row := [⟨[],none,[],[⟨256,.other,false,some ⟨0,[.setEnt (.own 3)],some 4,true⟩⟩,⟨256,.ws,false,some ⟨1,[.setEnt (.own 0)],some 0,false⟩⟩,⟨256,.lf,false,some ⟨0,[.setEnt .newline],some 3,true⟩⟩,⟨256,.vt,false,none⟩,⟨256,.ff,false,some ⟨0,[.setEnt .newline],some 3,true⟩⟩,⟨256,.cr,false,some ⟨2,[.setEnt .newline],none,false⟩⟩,⟨256,.cr,true,some ⟨3,[.setEnt .newline],some 3,false⟩⟩,⟨256,.other,false,some ⟨4,[.code,.setEnt (.own 3)],some 4,false⟩⟩,⟨256,.other,false,some ⟨5,[.comment,.setEnt (.own 3)],some 1,false⟩⟩,⟨256,.other,false,some ⟨6,[.code,.setEnt (.own 3)],some 4,false⟩⟩]⟩,⟨[0],some 0,[],[⟨256,.other,false,none⟩,⟨256,.ws,false,some ⟨1,[.setEnt (.own 0)],some 0,false⟩⟩,⟨256,.lf,false,none⟩,⟨256,.vt,false,none⟩,⟨256,.ff,false,none⟩,⟨256,.cr,false,none⟩,⟨256,.cr,true,none⟩]⟩,⟨[13],none,[],[⟨256,.other,false,none⟩,⟨256,.ws,false,none⟩,⟨256,.lf,false,some ⟨0,[.setEnt .newline],some 3,true⟩⟩,⟨256,.vt,false,none⟩,⟨256,.ff,false,none⟩,⟨256,.cr,false,none⟩,⟨256,.cr,true,none⟩]⟩,⟨[13,17],some 3,[],[⟨256,.other,false,none⟩,⟨256,.ws,false,none⟩,⟨256,.lf,false,some ⟨0,[.setEnt .newline],some 3,true⟩⟩,⟨256,.vt,false,none⟩,⟨256,.ff,false,none⟩,⟨256,.cr,false,none⟩,⟨256,.cr,true,none⟩]⟩,⟨[8,18],some 4,[],[⟨256,.other,false,some ⟨7,[],none,false⟩⟩,⟨256,.ws,false,some ⟨7,[],none,false⟩⟩,⟨256,.lf,false,none⟩,⟨256,.vt,false,some ⟨7,[],none,false⟩⟩,⟨256,.ff,false,none⟩,⟨256,.cr,false,none⟩,⟨256,.cr,true,none⟩,⟨256,.other,false,some ⟨0,[],some 2,true⟩⟩,⟨256,.other,false,some ⟨8,[],none,false⟩⟩]⟩,⟨[1,18],some 1,[],[⟨256,.other,false,some ⟨9,[],some 1,false⟩⟩,⟨256,.ws,false,some ⟨9,[],some 1,false⟩⟩,⟨256,.lf,false,none⟩,⟨256,.vt,false,some ⟨9,[],some 1,false⟩⟩,⟨256,.ff,false,none⟩,⟨256,.cr,false,none⟩,⟨256,.cr,true,none⟩]⟩,⟨[3,18],some 4,[],[⟨256,.other,false,some ⟨10,[],none,false⟩⟩,⟨256,.ws,false,some ⟨10,[],none,false⟩⟩,⟨256,.lf,false,none⟩,⟨256,.vt,false,some ⟨10,[],none,false⟩⟩,⟨256,.ff,false,none⟩,⟨256,.cr,false,none⟩,⟨256,.cr,true,none⟩,⟨256,.other,false,some ⟨0,[],some 2,true⟩⟩,⟨256,.other,false,some ⟨11,[],none,false⟩⟩]⟩,⟨[9],none,[],[⟨256,.other,false,some ⟨7,[],none,false⟩⟩,⟨256,.ws,false,some ⟨7,[],none,false⟩⟩,⟨256,.lf,false,none⟩,⟨256,.vt,false,some ⟨7,[],none,false⟩⟩,⟨256,.ff,false,none⟩,⟨256,.cr,false,none⟩,⟨256,.cr,true,none⟩,⟨256,.other,false,some ⟨0,[],some 2,true⟩⟩,⟨256,.other,false,some ⟨8,[],none,false⟩⟩]⟩,⟨[10],none,[],[⟨256,.other,false,some ⟨12,[],none,false⟩⟩,⟨256,.ws,false,some ⟨12,[],none,false⟩⟩,⟨256,.lf,false,none⟩,⟨256,.vt,false,some ⟨12,[],none,false⟩⟩,⟨256,.ff,false,none⟩,⟨256,.cr,false,none⟩,⟨256,.cr,true,none⟩]⟩,⟨[2],some 1,[],[⟨256,.other,false,some ⟨9,[],some 1,false⟩⟩,⟨256,.ws,false,some ⟨9,[],some 1,false⟩⟩,⟨256,.lf,false,none⟩,⟨256,.vt,false,some ⟨9,[],some 1,false⟩⟩,⟨256,.ff,false,none⟩,⟨256,.cr,false,none⟩,⟨256,.cr,true,none⟩]⟩,⟨[4],none,[],[⟨256,.other,false,some ⟨10,[],none,false⟩⟩,⟨256,.ws,false,some ⟨10,[],none,false⟩⟩,⟨256,.lf,false,none⟩,⟨256,.vt,false,some ⟨10,[],none,false⟩⟩,⟨256,.ff,false,none⟩,⟨256,.cr,false,none⟩,⟨256,.cr,true,none⟩,⟨256,.other,false,some ⟨0,[],some 2,true⟩⟩,⟨256,.other,false,some ⟨11,[],none,false⟩⟩]⟩,⟨[5],none,[],[⟨256,.other,false,some ⟨13,[],none,false⟩⟩,⟨256,.ws,false,some ⟨13,[],none,false⟩⟩,⟨256,.lf,false,none⟩,⟨256,.vt,false,some ⟨13,[],none,false⟩⟩,⟨256,.ff,false,none⟩,⟨256,.cr,false,none⟩,⟨256,.cr,true,none⟩]⟩,⟨[11],none,[],[⟨256,.other,false,some ⟨7,[],none,false⟩⟩,⟨256,.ws,false,some ⟨7,[],none,false⟩⟩,⟨256,.lf,false,none⟩,⟨256,.vt,false,some ⟨7,[],none,false⟩⟩,⟨256,.ff,false,none⟩,⟨256,.cr,false,none⟩,⟨256,.cr,true,none⟩,⟨256,.other,false,some ⟨0,[],some 2,true⟩⟩,⟨256,.other,false,some ⟨8,[],none,false⟩⟩]⟩,⟨[6],none,[],[⟨256,.other,false,some ⟨10,[],none,false⟩⟩,⟨256,.ws,false,some ⟨10,[],none,false⟩⟩,⟨256,.lf,false,none⟩,⟨256,.vt,false,some ⟨10,[],none,false⟩⟩,⟨256,.ff,false,none⟩,⟨256,.cr,false,none⟩,⟨256,.cr,true,none⟩,⟨256,.other,false,some ⟨0,[],some 2,true⟩⟩,⟨256,.other,false,some ⟨11,[],none,false⟩⟩]⟩]
theorem am_line_rowsOk : rowsOk am_line_nfa [] (am_line_cs.map (·.1)) am_line_rows = true := by decide +kernel
def am_line_D : Dfa am_line_M.nfa := ⟨am_line_masks, [], am_line_cs, am_line_rows, am_line_masksIn, am_line_repOk, am_line_rowsOk⟩

def bfpp_line_nfa : Nfa := ⟨[⟨0,4294967808,[],[(0,.setEnt (.own 0))],0,0⟩,⟨1,8192,[],[(1,.setEnt .newline)],0,0⟩,⟨3,1024,[],[(1,.setEnt .newline)],0,0⟩,⟨4,4096,[],[(1,.setEnt .newline)],0,0⟩,⟨5,8192,[.crAlone],[(1,.setEnt .newline)],0,0⟩,⟨6,2305843009213693952,[],[(2,.comment)],0,0⟩,⟨8,18446744073709551616,[],[],0,2⟩,⟨25,32186441028049317920650559488,[],[(7,.code),(8,.setEnt (.own 2))],0,0⟩,⟨26,115792089237316195423570985008687907853269984665640564039457584007908834656767,[],[(9,.setEnt (.own 1))],0,0⟩],[[⟨0,4294967808,[],[(0,.setEnt (.own 0))],0,0⟩],[⟨2,1024,[],[(1,.setEnt .newline)],0,0⟩],[],[],[],[],[⟨7,115792089237316195423570985008687907853269984665640564039457584007913129626623,[],[],0,0⟩],[⟨7,115792089237316195423570985008687907853269984665640564039457584007913129626623,[],[],0,0⟩],[⟨9,40564819207303340847894502572032,[],[],0,2⟩],[⟨10,1298074214633706907132624082305024,[],[],0,2⟩],[⟨11,633825300114114700748351602688,[],[],0,2⟩],[⟨12,324518553658426726783156020576256,[],[],0,2⟩],[⟨13,166153499473114484112975882535043072,[],[],0,2⟩],[⟨14,1267650600228229401496703205376,[],[],0,2⟩],[⟨15,2535301200456458802993406410752,[],[],0,2⟩],[⟨16,1099511627776,[],[(3,.code)],0,2⟩],[⟨17,8192,[],[],0,2⟩,⟨19,1024,[],[],0,2⟩,⟨20,4096,[],[],0,2⟩,⟨21,8192,[.crAlone],[],0,2⟩,⟨22,4294967808,[],[],0,2⟩,⟨23,115792089237316195423570985008687907853269984665640564039457584007908834658815,[],[(6,.code)],0,2⟩,⟨24,2199023255552,[],[],2,0⟩],[⟨18,1024,[],[],0,2⟩],[⟨17,8192,[],[(4,.setEnt .internalNl),(5,.cb)],0,2⟩,⟨19,1024,[],[(4,.setEnt .internalNl),(5,.cb)],0,2⟩,⟨20,4096,[],[(4,.setEnt .internalNl),(5,.cb)],0,2⟩,⟨21,8192,[.crAlone],[(4,.setEnt .internalNl),(5,.cb)],0,2⟩,⟨22,4294967808,[],[(4,.setEnt .internalNl),(5,.cb)],0,2⟩,⟨23,115792089237316195423570985008687907853269984665640564039457584007908834658815,[],[(4,.setEnt .internalNl),(5,.cb),(6,.code)],0,2⟩,⟨24,2199023255552,[],[(4,.setEnt .internalNl),(5,.cb)],2,0⟩],[⟨17,8192,[],[(4,.setEnt .internalNl),(5,.cb)],0,2⟩,⟨19,1024,[],[(4,.setEnt .internalNl),(5,.cb)],0,2⟩,⟨20,4096,[],[(4,.setEnt .internalNl),(5,.cb)],0,2⟩,⟨21,8192,[.crAlone],[(4,.setEnt .internalNl),(5,.cb)],0,2⟩,⟨22,4294967808,[],[(4,.setEnt .internalNl),(5,.cb)],0,2⟩,⟨23,115792089237316195423570985008687907853269984665640564039457584007908834658815,[],[(4,.setEnt .internalNl),(5,.cb),(6,.code)],0,2⟩,⟨24,2199023255552,[],[(4,.setEnt .internalNl),(5,.cb)],2,0⟩],[⟨17,8192,[],[(4,.setEnt .internalNl),(5,.cb)],0,2⟩,⟨19,1024,[],[(4,.setEnt .internalNl),(5,.cb)],0,2⟩,⟨20,4096,[],[(4,.setEnt .internalNl),(5,.cb)],0,2⟩,⟨21,8192,[.crAlone],[(4,.setEnt .internalNl),(5,.cb)],0,2⟩,⟨22,4294967808,[],[(4,.setEnt .internalNl),(5,.cb)],0,2⟩,⟨23,115792089237316195423570985008687907853269984665640564039457584007908834658815,[],[(4,.setEnt .internalNl),(5,.cb),(6,.code)],0,2⟩,⟨24,2199023255552,[],[(4,.setEnt .internalNl),(5,.cb)],2,0⟩],[⟨17,8192,[],[(4,.setEnt .internalNl),(5,.cb)],0,2⟩,⟨19,1024,[],[(4,.setEnt .internalNl),(5,.cb)],0,2⟩,⟨20,4096,[],[(4,.setEnt .internalNl),(5,.cb)],0,2⟩,⟨21,8192,[.crAlone],[(4,.setEnt .internalNl),(5,.cb)],0,2⟩,⟨22,4294967808,[],[(4,.setEnt .internalNl),(5,.cb)],0,2⟩,⟨23,115792089237316195423570985008687907853269984665640564039457584007908834658815,[],[(4,.setEnt .internalNl),(5,.cb),(6,.code)],0,2⟩,⟨24,2199023255552,[],[(4,.setEnt .internalNl),(5,.cb)],2,0⟩],[⟨17,8192,[],[],0,2⟩,⟨19,1024,[],[],0,2⟩,⟨20,4096,[],[],0,2⟩,⟨21,8192,[.crAlone],[],0,2⟩,⟨22,4294967808,[],[],0,2⟩,⟨23,115792089237316195423570985008687907853269984665640564039457584007908834658815,[],[(6,.code)],0,2⟩,⟨24,2199023255552,[],[],2,0⟩],[⟨17,8192,[],[],0,2⟩,⟨19,1024,[],[],0,2⟩,⟨20,4096,[],[],0,2⟩,⟨21,8192,[.crAlone],[],0,2⟩,⟨22,4294967808,[],[],0,2⟩,⟨23,115792089237316195423570985008687907853269984665640564039457584007908834658815,[],[(6,.code)],0,2⟩,⟨24,2199023255552,[],[],2,0⟩],[],[],[]],[some (0,[]),none,some (1,[]),some (1,[]),some (1,[]),some (1,[]),some (2,[]),some (2,[]),none,none,none,none,none,none,none,none,none,none,none,none,none,none,none,none,some (3,[]),some (4,[]),some (5,[])],[1,2,3,7,9,10]⟩
theorem bfpp_line_nfa_eq : Bfpp.bfpp_line.nfa = bfpp_line_nfa := by decide +kernel
/-- The machine of `Bfpp.bfpp_line`, with its automaton as a literal. -/
def bfpp_line_M : Machine := ⟨bfpp_line_nfa, Bfpp.bfpp_line.ends, Bfpp.bfpp_line.sw⟩
theorem bfpp_line_M_eq : Bfpp.bfpp_line.machine = bfpp_line_M := by
  unfold Scanner.machine bfpp_line_M; rw [bfpp_line_nfa_eq]
def bfpp_line_masks : List Nat := [4294967808,8192,1024,4096,2305843009213693952,18446744073709551616,32186441028049317920650559488,115792089237316195423570985008687907853269984665640564039457584007908834656767,115792089237316195423570985008687907853269984665640564039457584007913129626623,40564819207303340847894502572032,1298074214633706907132624082305024,633825300114114700748351602688,324518553658426726783156020576256,166153499473114484112975882535043072,1267650600228229401496703205376,2535301200456458802993406410752,1099511627776,115792089237316195423570985008687907853269984665640564039457584007908834658815,2199023255552]
def bfpp_line_cs : List (Nat × Nat) := [(0,115792089237316195423570985008687907853269816844514539883688891454811124253183),(9,4294967808),(10,1024),(11,2048),(12,4096),(13,8192),(33,32186441028049317920650559488),(40,1099511627776),(41,2199023255552),(61,2305843009213693952),(64,18446744073709551616),(99,633825300114114700748351602688),(100,1267650600228229401496703205376),(101,2535301200456458802993406410752),(105,40564819207303340847894502572032),(108,324518553658426726783156020576256),(110,1298074214633706907132624082305024),(117,166153499473114484112975882535043072)]
theorem bfpp_line_masksIn : masksIn bfpp_line_nfa bfpp_line_masks = true := by decide +kernel
theorem bfpp_line_repOk : repOk bfpp_line_masks bfpp_line_cs = true := by decide +kernel
def bfpp_line_rows : List Row := [⟨[],none,[],[⟨256,.other,false,some ⟨0,[.setEnt (.own 1)],some 5,true⟩⟩,⟨256,.ws,false,some ⟨1,[.setEnt (.own 0)],some 0,false⟩⟩,⟨256,.lf,false,some ⟨0,[.setEnt .newline],some 1,true⟩⟩,⟨256,.vt,false,none⟩,⟨256,.ff,false,some ⟨0,[.setEnt .newline],some 1,true⟩⟩,⟨256,.cr,false,some ⟨2,[.setEnt .newline],none,false⟩⟩,⟨256,.cr,true,some ⟨3,[.setEnt .newline],some 1,false⟩⟩,⟨256,.other,false,some ⟨0,[.code,.setEnt (.own 2)],some 4,true⟩⟩,⟨256,.other,false,some ⟨4,[.comment,.setEnt (.own 1)],some 2,false⟩⟩,⟨256,.other,false,some ⟨5,[.setEnt (.own 1)],some 5,false⟩⟩]⟩,⟨[0],some 0,[],[⟨256,.other,false,none⟩,⟨256,.ws,false,some ⟨1,[.setEnt (.own 0)],some 0,false⟩⟩,⟨256,.lf,false,none⟩,⟨256,.vt,false,none⟩,⟨256,.ff,false,none⟩,⟨256,.cr,false,none⟩,⟨256,.cr,true,none⟩]⟩,⟨[1],none,[],[⟨256,.other,false,none⟩,⟨256,.ws,false,none⟩,⟨256,.lf,false,some ⟨0,[.setEnt .newline],some 1,true⟩⟩,⟨256,.vt,false,none⟩,⟨256,.ff,false,none⟩,⟨256,.cr,false,none⟩,⟨256,.cr,true,none⟩]⟩,⟨[1,5],some 1,[],[⟨256,.other,false,none⟩,⟨256,.ws,false,none⟩,⟨256,.lf,false,some ⟨0,[.setEnt .newline],some 1,true⟩⟩,⟨256,.vt,false,none⟩,⟨256,.ff,false,none⟩,⟨256,.cr,false,none⟩,⟨256,.cr,true,none⟩]⟩,⟨[6,26],some 2,[],[⟨256,.other,false,some ⟨6,[],some 2,false⟩⟩,⟨256,.ws,false,some ⟨6,[],some 2,false⟩⟩,⟨256,.lf,false,none⟩,⟨256,.vt,false,some ⟨6,[],some 2,false⟩⟩,⟨256,.ff,false,none⟩,⟨256,.cr,false,none⟩,⟨256,.cr,true,none⟩]⟩,⟨[8,26],some 5,[],[⟨256,.other,false,none⟩,⟨256,.ws,false,none⟩,⟨256,.lf,false,none⟩,⟨256,.vt,false,none⟩,⟨256,.ff,false,none⟩,⟨256,.cr,false,none⟩,⟨256,.cr,true,none⟩,⟨256,.other,false,some ⟨7,[],none,false⟩⟩]⟩,⟨[7],some 2,[],[⟨256,.other,false,some ⟨6,[],some 2,false⟩⟩,⟨256,.ws,false,some ⟨6,[],some 2,false⟩⟩,⟨256,.lf,false,none⟩,⟨256,.vt,false,some ⟨6,[],some 2,false⟩⟩,⟨256,.ff,false,none⟩,⟨256,.cr,false,none⟩,⟨256,.cr,true,none⟩]⟩,⟨[9],none,[],[⟨256,.other,false,none⟩,⟨256,.ws,false,none⟩,⟨256,.lf,false,none⟩,⟨256,.vt,false,none⟩,⟨256,.ff,false,none⟩,⟨256,.cr,false,none⟩,⟨256,.cr,true,none⟩,⟨256,.other,false,some ⟨8,[],none,false⟩⟩]⟩,⟨[10],none,[],[⟨256,.other,false,none⟩,⟨256,.ws,false,none⟩,⟨256,.lf,false,none⟩,⟨256,.vt,false,none⟩,⟨256,.ff,false,none⟩,⟨256,.cr,false,none⟩,⟨256,.cr,true,none⟩,⟨256,.other,false,some ⟨9,[],none,false⟩⟩]⟩,⟨[11],none,[],[⟨256,.other,false,none⟩,⟨256,.ws,false,none⟩,⟨256,.lf,false,none⟩,⟨256,.vt,false,none⟩,⟨256,.ff,false,none⟩,⟨256,.cr,false,none⟩,⟨256,.cr,true,none⟩,⟨256,.other,false,some ⟨10,[],none,false⟩⟩]⟩,⟨[12],none,[],[⟨256,.other,false,none⟩,⟨256,.ws,false,none⟩,⟨256,.lf,false,none⟩,⟨256,.vt,false,none⟩,⟨256,.ff,false,none⟩,⟨256,.cr,false,none⟩,⟨256,.cr,true,none⟩,⟨256,.other,false,some ⟨11,[],none,false⟩⟩]⟩,⟨[13],none,[],[⟨256,.other,false,none⟩,⟨256,.ws,false,none⟩,⟨256,.lf,false,none⟩,⟨256,.vt,false,none⟩,⟨256,.ff,false,none⟩,⟨256,.cr,false,none⟩,⟨256,.cr,true,none⟩,⟨256,.other,false,some ⟨12,[],none,false⟩⟩]⟩,⟨[14],none,[],[⟨256,.other,false,none⟩,⟨256,.ws,false,none⟩,⟨256,.lf,false,none⟩,⟨256,.vt,false,none⟩,⟨256,.ff,false,none⟩,⟨256,.cr,false,none⟩,⟨256,.cr,true,none⟩,⟨256,.other,false,some ⟨13,[],none,false⟩⟩]⟩,⟨[15],none,[],[⟨256,.other,false,none⟩,⟨256,.ws,false,none⟩,⟨256,.lf,false,none⟩,⟨256,.vt,false,none⟩,⟨256,.ff,false,none⟩,⟨256,.cr,false,none⟩,⟨256,.cr,true,none⟩,⟨256,.other,false,some ⟨14,[.code],none,false⟩⟩]⟩,⟨[16],none,[],[⟨256,.other,false,some ⟨15,[.code],none,false⟩⟩,⟨256,.ws,false,some ⟨16,[],none,false⟩⟩,⟨256,.lf,false,some ⟨17,[],none,false⟩⟩,⟨256,.vt,false,some ⟨15,[.code],none,false⟩⟩,⟨256,.ff,false,some ⟨18,[],none,false⟩⟩,⟨256,.cr,false,some ⟨19,[],none,false⟩⟩,⟨256,.cr,true,some ⟨20,[],none,false⟩⟩,⟨256,.other,false,some ⟨0,[],some 3,true⟩⟩]⟩,⟨[23],none,[],[⟨256,.other,false,some ⟨15,[.code],none,false⟩⟩,⟨256,.ws,false,some ⟨16,[],none,false⟩⟩,⟨256,.lf,false,some ⟨17,[],none,false⟩⟩,⟨256,.vt,false,some ⟨15,[.code],none,false⟩⟩,⟨256,.ff,false,some ⟨18,[],none,false⟩⟩,⟨256,.cr,false,some ⟨19,[],none,false⟩⟩,⟨256,.cr,true,some ⟨20,[],none,false⟩⟩,⟨256,.other,false,some ⟨0,[],some 3,true⟩⟩]⟩,⟨[22],none,[],[⟨256,.other,false,some ⟨15,[.code],none,false⟩⟩,⟨256,.ws,false,some ⟨16,[],none,false⟩⟩,⟨256,.lf,false,some ⟨17,[],none,false⟩⟩,⟨256,.vt,false,some ⟨15,[.code],none,false⟩⟩,⟨256,.ff,false,some ⟨18,[],none,false⟩⟩,⟨256,.cr,false,some ⟨19,[],none,false⟩⟩,⟨256,.cr,true,some ⟨20,[],none,false⟩⟩,⟨256,.other,false,some ⟨0,[],some 3,true⟩⟩]⟩,⟨[19],none,[],[⟨256,.other,false,some ⟨15,[.setEnt .internalNl,.cb,.code],none,false⟩⟩,⟨256,.ws,false,some ⟨16,[.setEnt .internalNl,.cb],none,false⟩⟩,⟨256,.lf,false,some ⟨17,[.setEnt .internalNl,.cb],none,false⟩⟩,⟨256,.vt,false,some ⟨15,[.setEnt .internalNl,.cb,.code],none,false⟩⟩,⟨256,.ff,false,some ⟨18,[.setEnt .internalNl,.cb],none,false⟩⟩,⟨256,.cr,false,some ⟨19,[.setEnt .internalNl,.cb],none,false⟩⟩,⟨256,.cr,true,some ⟨20,[.setEnt .internalNl,.cb],none,false⟩⟩,⟨256,.other,false,some ⟨0,[.setEnt .internalNl,.cb],some 3,true⟩⟩]⟩,⟨[20],none,[],[⟨256,.other,false,some ⟨15,[.setEnt .internalNl,.cb,.code],none,false⟩⟩,⟨256,.ws,false,some ⟨16,[.setEnt .internalNl,.cb],none,false⟩⟩,⟨256,.lf,false,some ⟨17,[.setEnt .internalNl,.cb],none,false⟩⟩,⟨256,.vt,false,some ⟨15,[.setEnt .internalNl,.cb,.code],none,false⟩⟩,⟨256,.ff,false,some ⟨18,[.setEnt .internalNl,.cb],none,false⟩⟩,⟨256,.cr,false,some ⟨19,[.setEnt .internalNl,.cb],none,false⟩⟩,⟨256,.cr,true,some ⟨20,[.setEnt .internalNl,.cb],none,false⟩⟩,⟨256,.other,false,some ⟨0,[.setEnt .internalNl,.cb],some 3,true⟩⟩]⟩,⟨[17],none,[],[⟨256,.other,false,none⟩,⟨256,.ws,false,none⟩,⟨256,.lf,false,some ⟨21,[],none,false⟩⟩,⟨256,.vt,false,none⟩,⟨256,.ff,false,none⟩,⟨256,.cr,false,none⟩,⟨256,.cr,true,none⟩]⟩,⟨[17,21],none,[],[⟨256,.other,false,some ⟨15,[.setEnt .internalNl,.cb,.code],none,false⟩⟩,⟨256,.ws,false,some ⟨16,[.setEnt .internalNl,.cb],none,false⟩⟩,⟨256,.lf,false,some ⟨22,[.setEnt .internalNl,.cb],none,false⟩⟩,⟨256,.vt,false,some ⟨15,[.setEnt .internalNl,.cb,.code],none,false⟩⟩,⟨256,.ff,false,some ⟨18,[.setEnt .internalNl,.cb],none,false⟩⟩,⟨256,.cr,false,some ⟨19,[.setEnt .internalNl,.cb],none,false⟩⟩,⟨256,.cr,true,some ⟨20,[.setEnt .internalNl,.cb],none,false⟩⟩,⟨256,.other,false,some ⟨0,[.setEnt .internalNl,.cb],some 3,true⟩⟩]⟩,⟨[18],none,[],[⟨256,.other,false,some ⟨15,[.setEnt .internalNl,.cb,.code],none,false⟩⟩,⟨256,.ws,false,some ⟨16,[.setEnt .internalNl,.cb],none,false⟩⟩,⟨256,.lf,false,some ⟨17,[.setEnt .internalNl,.cb],none,false⟩⟩,⟨256,.vt,false,some ⟨15,[.setEnt .internalNl,.cb,.code],none,false⟩⟩,⟨256,.ff,false,some ⟨18,[.setEnt .internalNl,.cb],none,false⟩⟩,⟨256,.cr,false,some ⟨19,[.setEnt .internalNl,.cb],none,false⟩⟩,⟨256,.cr,true,some ⟨20,[.setEnt .internalNl,.cb],none,false⟩⟩,⟨256,.other,false,some ⟨0,[.setEnt .internalNl,.cb],some 3,true⟩⟩]⟩,⟨[18,19],none,[],[⟨256,.other,false,some ⟨15,[.setEnt .internalNl,.cb,.code],none,false⟩⟩,⟨256,.ws,false,some ⟨16,[.setEnt .internalNl,.cb],none,false⟩⟩,⟨256,.lf,false,some ⟨17,[.setEnt .internalNl,.cb],none,false⟩⟩,⟨256,.vt,false,some ⟨15,[.setEnt .internalNl,.cb,.code],none,false⟩⟩,⟨256,.ff,false,some ⟨18,[.setEnt .internalNl,.cb],none,false⟩⟩,⟨256,.cr,false,some ⟨19,[.setEnt .internalNl,.cb],none,false⟩⟩,⟨256,.cr,true,some ⟨20,[.setEnt .internalNl,.cb],none,false⟩⟩,⟨256,.other,false,some ⟨0,[.setEnt .internalNl,.cb],some 3,true⟩⟩]⟩]
theorem bfpp_line_rowsOk : rowsOk bfpp_line_nfa [] (bfpp_line_cs.map (·.1)) bfpp_line_rows = true := by decide +kernel
def bfpp_line_D : Dfa bfpp_line_M.nfa := ⟨bfpp_line_masks, [], bfpp_line_cs, bfpp_line_rows, bfpp_line_masksIn, bfpp_line_repOk, bfpp_line_rowsOk⟩

def lua_line_nfa : Nfa := ⟨[⟨0,4294967808,[],[(0,.setEnt (.own 0))],0,0⟩,⟨1,35184372088832,[],[],0,2⟩,⟨16,35184372088832,[],[],0,0⟩,⟨19,549755813888,[],[(11,.code)],0,0⟩,⟨30,17179869184,[],[(16,.code)],0,0⟩,⟨41,2475880078570760549798248448,[],[(21,.nestRes)],0,4⟩,⟨54,8192,[],[(30,.setEnt .newline)],0,0⟩,⟨56,1024,[],[(30,.setEnt .newline)],0,0⟩,⟨57,4096,[],[(30,.setEnt .newline)],0,0⟩,⟨58,8192,[.crAlone],[(30,.setEnt .newline)],0,0⟩,⟨59,115792089237316195423570985008687907853269984665640564039457584007908834656767,[],[(31,.setEnt (.own 7))],0,0⟩],[[⟨0,4294967808,[],[(0,.setEnt (.own 0))],0,0⟩],[⟨2,35184372088832,[],[],0,2⟩],[⟨3,2475880078570760549798248448,[],[(1,.nestRes)],0,2⟩],[⟨4,2305843009213693952,[],[(2,.nestInc)],0,2⟩,⟨5,2475880078570760549798248448,[],[(3,.enqueue),(4,.comment)],0,2⟩],[⟨4,2305843009213693952,[],[(2,.nestInc)],0,2⟩,⟨5,2475880078570760549798248448,[],[(3,.enqueue),(4,.comment)],0,2⟩],[⟨6,8192,[],[],0,2⟩,⟨8,1024,[],[],0,2⟩,⟨9,4096,[],[],0,2⟩,⟨10,8192,[.crAlone],[],0,2⟩,⟨11,4294967808,[],[],0,2⟩,⟨12,115792089237316195423570985008687907853269984665640564039457584007908834658815,[],[(7,.comment)],0,2⟩,⟨13,9903520314283042199192993792,[],[],0,2⟩],[⟨7,1024,[],[],0,2⟩],[⟨6,8192,[],[(5,.setEnt .internalNl),(6,.cb)],0,2⟩,⟨8,1024,[],[(5,.setEnt .internalNl),(6,.cb)],0,2⟩,⟨9,4096,[],[(5,.setEnt .internalNl),(6,.cb)],0,2⟩,⟨10,8192,[.crAlone],[(5,.setEnt .internalNl),(6,.cb)],0,2⟩,⟨11,4294967808,[],[(5,.setEnt .internalNl),(6,.cb)],0,2⟩,⟨12,115792089237316195423570985008687907853269984665640564039457584007908834658815,[],[(5,.setEnt .internalNl),(6,.cb),(7,.comment)],0,2⟩,⟨13,9903520314283042199192993792,[],[(5,.setEnt .internalNl),(6,.cb)],0,2⟩],[⟨6,8192,[],[(5,.setEnt .internalNl),(6,.cb)],0,2⟩,⟨8,1024,[],[(5,.setEnt .internalNl),(6,.cb)],0,2⟩,⟨9,4096,[],[(5,.setEnt .internalNl),(6,.cb)],0,2⟩,⟨10,8192,[.crAlone],[(5,.setEnt .internalNl),(6,.cb)],0,2⟩,⟨11,4294967808,[],[(5,.setEnt .internalNl),(6,.cb)],0,2⟩,⟨12,115792089237316195423570985008687907853269984665640564039457584007908834658815,[],[(5,.setEnt .internalNl),(6,.cb),(7,.comment)],0,2⟩,⟨13,9903520314283042199192993792,[],[(5,.setEnt .internalNl),(6,.cb)],0,2⟩],[⟨6,8192,[],[(5,.setEnt .internalNl),(6,.cb)],0,2⟩,⟨8,1024,[],[(5,.setEnt .internalNl),(6,.cb)],0,2⟩,⟨9,4096,[],[(5,.setEnt .internalNl),(6,.cb)],0,2⟩,⟨10,8192,[.crAlone],[(5,.setEnt .internalNl),(6,.cb)],0,2⟩,⟨11,4294967808,[],[(5,.setEnt .internalNl),(6,.cb)],0,2⟩,⟨12,115792089237316195423570985008687907853269984665640564039457584007908834658815,[],[(5,.setEnt .internalNl),(6,.cb),(7,.comment)],0,2⟩,⟨13,9903520314283042199192993792,[],[(5,.setEnt .internalNl),(6,.cb)],0,2⟩],[⟨6,8192,[],[(5,.setEnt .internalNl),(6,.cb)],0,2⟩,⟨8,1024,[],[(5,.setEnt .internalNl),(6,.cb)],0,2⟩,⟨9,4096,[],[(5,.setEnt .internalNl),(6,.cb)],0,2⟩,⟨10,8192,[.crAlone],[(5,.setEnt .internalNl),(6,.cb)],0,2⟩,⟨11,4294967808,[],[(5,.setEnt .internalNl),(6,.cb)],0,2⟩,⟨12,115792089237316195423570985008687907853269984665640564039457584007908834658815,[],[(5,.setEnt .internalNl),(6,.cb),(7,.comment)],0,2⟩,⟨13,9903520314283042199192993792,[],[(5,.setEnt .internalNl),(6,.cb)],0,2⟩],[⟨6,8192,[],[],0,2⟩,⟨8,1024,[],[],0,2⟩,⟨9,4096,[],[],0,2⟩,⟨10,8192,[.crAlone],[],0,2⟩,⟨11,4294967808,[],[],0,2⟩,⟨12,115792089237316195423570985008687907853269984665640564039457584007908834658815,[],[(7,.comment)],0,2⟩,⟨13,9903520314283042199192993792,[],[],0,2⟩],[⟨6,8192,[],[],0,2⟩,⟨8,1024,[],[],0,2⟩,⟨9,4096,[],[],0,2⟩,⟨10,8192,[.crAlone],[],0,2⟩,⟨11,4294967808,[],[],0,2⟩,⟨12,115792089237316195423570985008687907853269984665640564039457584007908834658815,[],[(7,.comment)],0,2⟩,⟨13,9903520314283042199192993792,[],[],0,2⟩],[⟨14,2305843009213693952,[],[(8,.nestDec)],0,0⟩,⟨15,9903520314283042199192993792,[.nestZero],[(9,.commit)],2,0⟩],[⟨14,2305843009213693952,[],[(8,.nestDec)],0,0⟩,⟨15,9903520314283042199192993792,[.nestZero],[(9,.commit)],2,0⟩],[],[⟨17,35184372088832,[],[(10,.comment)],0,0⟩],[⟨18,115792089237316195423570985008687907853269984665640564039457584007913129626623,[],[],0,0⟩],[⟨18,115792089237316195423570985008687907853269984665640564039457584007913129626623,[],[],0,0⟩],[⟨20,8192,[],[],0,0⟩,⟨22,1024,[],[],0,0⟩,⟨23,4096,[],[],0,0⟩,⟨24,8192,[.crAlone],[],0,0⟩,⟨25,4294967808,[],[],0,0⟩,⟨26,115792089237316195423570985008687907853269984665635612279300442486259482348031,[],[(14,.code)],0,0⟩,⟨27,4951760157141521099596496896,[],[],0,0⟩,⟨29,549755813888,[],[],0,0⟩],[⟨21,1024,[],[],0,0⟩],[⟨20,8192,[],[(12,.setEnt .internalNl),(13,.cb)],0,0⟩,⟨22,1024,[],[(12,.setEnt .internalNl),(13,.cb)],0,0⟩,⟨23,4096,[],[(12,.setEnt .internalNl),(13,.cb)],0,0⟩,⟨24,8192,[.crAlone],[(12,.setEnt .internalNl),(13,.cb)],0,0⟩,⟨25,4294967808,[],[(12,.setEnt .internalNl),(13,.cb)],0,0⟩,⟨26,115792089237316195423570985008687907853269984665635612279300442486259482348031,[],[(12,.setEnt .internalNl),(13,.cb),(14,.code)],0,0⟩,⟨27,4951760157141521099596496896,[],[(12,.setEnt .internalNl),(13,.cb)],0,0⟩,⟨29,549755813888,[],[(12,.setEnt .internalNl),(13,.cb)],0,0⟩],[⟨20,8192,[],[(12,.setEnt .internalNl),(13,.cb)],0,0⟩,⟨22,1024,[],[(12,.setEnt .internalNl),(13,.cb)],0,0⟩,⟨23,4096,[],[(12,.setEnt .internalNl),(13,.cb)],0,0⟩,⟨24,8192,[.crAlone],[(12,.setEnt .internalNl),(13,.cb)],0,0⟩,⟨25,4294967808,[],[(12,.setEnt .internalNl),(13,.cb)],0,0⟩,⟨26,115792089237316195423570985008687907853269984665635612279300442486259482348031,[],[(12,.setEnt .internalNl),(13,.cb),(14,.code)],0,0⟩,⟨27,4951760157141521099596496896,[],[(12,.setEnt .internalNl),(13,.cb)],0,0⟩,⟨29,549755813888,[],[(12,.setEnt .internalNl),(13,.cb)],0,0⟩],[⟨20,8192,[],[(12,.setEnt .internalNl),(13,.cb)],0,0⟩,⟨22,1024,[],[(12,.setEnt .internalNl),(13,.cb)],0,0⟩,⟨23,4096,[],[(12,.setEnt .internalNl),(13,.cb)],0,0⟩,⟨24,8192,[.crAlone],[(12,.setEnt .internalNl),(13,.cb)],0,0⟩,⟨25,4294967808,[],[(12,.setEnt .internalNl),(13,.cb)],0,0⟩,⟨26,115792089237316195423570985008687907853269984665635612279300442486259482348031,[],[(12,.setEnt .internalNl),(13,.cb),(14,.code)],0,0⟩,⟨27,4951760157141521099596496896,[],[(12,.setEnt .internalNl),(13,.cb)],0,0⟩,⟨29,549755813888,[],[(12,.setEnt .internalNl),(13,.cb)],0,0⟩],[⟨20,8192,[],[(12,.setEnt .internalNl),(13,.cb)],0,0⟩,⟨22,1024,[],[(12,.setEnt .internalNl),(13,.cb)],0,0⟩,⟨23,4096,[],[(12,.setEnt .internalNl),(13,.cb)],0,0⟩,⟨24,8192,[.crAlone],[(12,.setEnt .internalNl),(13,.cb)],0,0⟩,⟨25,4294967808,[],[(12,.setEnt .internalNl),(13,.cb)],0,0⟩,⟨26,115792089237316195423570985008687907853269984665635612279300442486259482348031,[],[(12,.setEnt .internalNl),(13,.cb),(14,.code)],0,0⟩,⟨27,4951760157141521099596496896,[],[(12,.setEnt .internalNl),(13,.cb)],0,0⟩,⟨29,549755813888,[],[(12,.setEnt .internalNl),(13,.cb)],0,0⟩],[⟨20,8192,[],[],0,0⟩,⟨22,1024,[],[],0,0⟩,⟨23,4096,[],[],0,0⟩,⟨24,8192,[.crAlone],[],0,0⟩,⟨25,4294967808,[],[],0,0⟩,⟨26,115792089237316195423570985008687907853269984665635612279300442486259482348031,[],[(14,.code)],0,0⟩,⟨27,4951760157141521099596496896,[],[],0,0⟩,⟨29,549755813888,[],[],0,0⟩],[⟨20,8192,[],[],0,0⟩,⟨22,1024,[],[],0,0⟩,⟨23,4096,[],[],0,0⟩,⟨24,8192,[.crAlone],[],0,0⟩,⟨25,4294967808,[],[],0,0⟩,⟨26,115792089237316195423570985008687907853269984665635612279300442486259482348031,[],[(14,.code)],0,0⟩,⟨27,4951760157141521099596496896,[],[],0,0⟩,⟨29,549755813888,[],[],0,0⟩],[⟨28,115792089237316195423570985008687907853269984665640564039457584007913129626623,[],[(15,.code)],0,0⟩],[⟨20,8192,[],[],0,0⟩,⟨22,1024,[],[],0,0⟩,⟨23,4096,[],[],0,0⟩,⟨24,8192,[.crAlone],[],0,0⟩,⟨25,4294967808,[],[],0,0⟩,⟨26,115792089237316195423570985008687907853269984665635612279300442486259482348031,[],[(14,.code)],0,0⟩,⟨27,4951760157141521099596496896,[],[],0,0⟩,⟨29,549755813888,[],[],0,0⟩],[],[⟨31,8192,[],[],0,0⟩,⟨33,1024,[],[],0,0⟩,⟨34,4096,[],[],0,0⟩,⟨35,8192,[.crAlone],[],0,0⟩,⟨36,4294967808,[],[],0,0⟩,⟨37,115792089237316195423570985008687907853269984665635612279300442486792058292735,[],[(19,.code)],0,0⟩,⟨38,4951760157141521099596496896,[],[],0,0⟩,⟨40,17179869184,[],[],0,0⟩],[⟨32,1024,[],[],0,0⟩],[⟨31,8192,[],[(17,.setEnt .internalNl),(18,.cb)],0,0⟩,⟨33,1024,[],[(17,.setEnt .internalNl),(18,.cb)],0,0⟩,⟨34,4096,[],[(17,.setEnt .internalNl),(18,.cb)],0,0⟩,⟨35,8192,[.crAlone],[(17,.setEnt .internalNl),(18,.cb)],0,0⟩,⟨36,4294967808,[],[(17,.setEnt .internalNl),(18,.cb)],0,0⟩,⟨37,115792089237316195423570985008687907853269984665635612279300442486792058292735,[],[(17,.setEnt .internalNl),(18,.cb),(19,.code)],0,0⟩,⟨38,4951760157141521099596496896,[],[(17,.setEnt .internalNl),(18,.cb)],0,0⟩,⟨40,17179869184,[],[(17,.setEnt .internalNl),(18,.cb)],0,0⟩],[⟨31,8192,[],[(17,.setEnt .internalNl),(18,.cb)],0,0⟩,⟨33,1024,[],[(17,.setEnt .internalNl),(18,.cb)],0,0⟩,⟨34,4096,[],[(17,.setEnt .internalNl),(18,.cb)],0,0⟩,⟨35,8192,[.crAlone],[(17,.setEnt .internalNl),(18,.cb)],0,0⟩,⟨36,4294967808,[],[(17,.setEnt .internalNl),(18,.cb)],0,0⟩,⟨37,115792089237316195423570985008687907853269984665635612279300442486792058292735,[],[(17,.setEnt .internalNl),(18,.cb),(19,.code)],0,0⟩,⟨38,4951760157141521099596496896,[],[(17,.setEnt .internalNl),(18,.cb)],0,0⟩,⟨40,17179869184,[],[(17,.setEnt .internalNl),(18,.cb)],0,0⟩],[⟨31,8192,[],[(17,.setEnt .internalNl),(18,.cb)],0,0⟩,⟨33,1024,[],[(17,.setEnt .internalNl),(18,.cb)],0,0⟩,⟨34,4096,[],[(17,.setEnt .internalNl),(18,.cb)],0,0⟩,⟨35,8192,[.crAlone],[(17,.setEnt .internalNl),(18,.cb)],0,0⟩,⟨36,4294967808,[],[(17,.setEnt .internalNl),(18,.cb)],0,0⟩,⟨37,115792089237316195423570985008687907853269984665635612279300442486792058292735,[],[(17,.setEnt .internalNl),(18,.cb),(19,.code)],0,0⟩,⟨38,4951760157141521099596496896,[],[(17,.setEnt .internalNl),(18,.cb)],0,0⟩,⟨40,17179869184,[],[(17,.setEnt .internalNl),(18,.cb)],0,0⟩],[⟨31,8192,[],[(17,.setEnt .internalNl),(18,.cb)],0,0⟩,⟨33,1024,[],[(17,.setEnt .internalNl),(18,.cb)],0,0⟩,⟨34,4096,[],[(17,.setEnt .internalNl),(18,.cb)],0,0⟩,⟨35,8192,[.crAlone],[(17,.setEnt .internalNl),(18,.cb)],0,0⟩,⟨36,4294967808,[],[(17,.setEnt .internalNl),(18,.cb)],0,0⟩,⟨37,115792089237316195423570985008687907853269984665635612279300442486792058292735,[],[(17,.setEnt .internalNl),(18,.cb),(19,.code)],0,0⟩,⟨38,4951760157141521099596496896,[],[(17,.setEnt .internalNl),(18,.cb)],0,0⟩,⟨40,17179869184,[],[(17,.setEnt .internalNl),(18,.cb)],0,0⟩],[⟨31,8192,[],[],0,0⟩,⟨33,1024,[],[],0,0⟩,⟨34,4096,[],[],0,0⟩,⟨35,8192,[.crAlone],[],0,0⟩,⟨36,4294967808,[],[],0,0⟩,⟨37,115792089237316195423570985008687907853269984665635612279300442486792058292735,[],[(19,.code)],0,0⟩,⟨38,4951760157141521099596496896,[],[],0,0⟩,⟨40,17179869184,[],[],0,0⟩],[⟨31,8192,[],[],0,0⟩,⟨33,1024,[],[],0,0⟩,⟨34,4096,[],[],0,0⟩,⟨35,8192,[.crAlone],[],0,0⟩,⟨36,4294967808,[],[],0,0⟩,⟨37,115792089237316195423570985008687907853269984665635612279300442486792058292735,[],[(19,.code)],0,0⟩,⟨38,4951760157141521099596496896,[],[],0,0⟩,⟨40,17179869184,[],[],0,0⟩],[⟨39,115792089237316195423570985008687907853269984665640564039457584007913129626623,[],[(20,.code)],0,0⟩],[⟨31,8192,[],[],0,0⟩,⟨33,1024,[],[],0,0⟩,⟨34,4096,[],[],0,0⟩,⟨35,8192,[.crAlone],[],0,0⟩,⟨36,4294967808,[],[],0,0⟩,⟨37,115792089237316195423570985008687907853269984665635612279300442486792058292735,[],[(19,.code)],0,0⟩,⟨38,4951760157141521099596496896,[],[],0,0⟩,⟨40,17179869184,[],[],0,0⟩],[],[⟨42,2305843009213693952,[],[(22,.nestInc)],0,4⟩,⟨43,2475880078570760549798248448,[],[(23,.enqueue),(24,.code)],0,4⟩],[⟨42,2305843009213693952,[],[(22,.nestInc)],0,4⟩,⟨43,2475880078570760549798248448,[],[(23,.enqueue),(24,.code)],0,4⟩],[⟨44,8192,[],[],0,4⟩,⟨46,1024,[],[],0,4⟩,⟨47,4096,[],[],0,4⟩,⟨48,8192,[.crAlone],[],0,4⟩,⟨49,4294967808,[],[],0,4⟩,⟨50,115792089237316195423570985008687907853269984665640564039457584007908834658815,[],[(27,.code)],0,4⟩,⟨51,9903520314283042199192993792,[],[],0,4⟩],[⟨45,1024,[],[],0,4⟩],[⟨44,8192,[],[(25,.setEnt .internalNl),(26,.cb)],0,4⟩,⟨46,1024,[],[(25,.setEnt .internalNl),(26,.cb)],0,4⟩,⟨47,4096,[],[(25,.setEnt .internalNl),(26,.cb)],0,4⟩,⟨48,8192,[.crAlone],[(25,.setEnt .internalNl),(26,.cb)],0,4⟩,⟨49,4294967808,[],[(25,.setEnt .internalNl),(26,.cb)],0,4⟩,⟨50,115792089237316195423570985008687907853269984665640564039457584007908834658815,[],[(25,.setEnt .internalNl),(26,.cb),(27,.code)],0,4⟩,⟨51,9903520314283042199192993792,[],[(25,.setEnt .internalNl),(26,.cb)],0,4⟩],[⟨44,8192,[],[(25,.setEnt .internalNl),(26,.cb)],0,4⟩,⟨46,1024,[],[(25,.setEnt .internalNl),(26,.cb)],0,4⟩,⟨47,4096,[],[(25,.setEnt .internalNl),(26,.cb)],0,4⟩,⟨48,8192,[.crAlone],[(25,.setEnt .internalNl),(26,.cb)],0,4⟩,⟨49,4294967808,[],[(25,.setEnt .internalNl),(26,.cb)],0,4⟩,⟨50,115792089237316195423570985008687907853269984665640564039457584007908834658815,[],[(25,.setEnt .internalNl),(26,.cb),(27,.code)],0,4⟩,⟨51,9903520314283042199192993792,[],[(25,.setEnt .internalNl),(26,.cb)],0,4⟩],[⟨44,8192,[],[(25,.setEnt .internalNl),(26,.cb)],0,4⟩,⟨46,1024,[],[(25,.setEnt .internalNl),(26,.cb)],0,4⟩,⟨47,4096,[],[(25,.setEnt .internalNl),(26,.cb)],0,4⟩,⟨48,8192,[.crAlone],[(25,.setEnt .internalNl),(26,.cb)],0,4⟩,⟨49,4294967808,[],[(25,.setEnt .internalNl),(26,.cb)],0,4⟩,⟨50,115792089237316195423570985008687907853269984665640564039457584007908834658815,[],[(25,.setEnt .internalNl),(26,.cb),(27,.code)],0,4⟩,⟨51,9903520314283042199192993792,[],[(25,.setEnt .internalNl),(26,.cb)],0,4⟩],[⟨44,8192,[],[(25,.setEnt .internalNl),(26,.cb)],0,4⟩,⟨46,1024,[],[(25,.setEnt .internalNl),(26,.cb)],0,4⟩,⟨47,4096,[],[(25,.setEnt .internalNl),(26,.cb)],0,4⟩,⟨48,8192,[.crAlone],[(25,.setEnt .internalNl),(26,.cb)],0,4⟩,⟨49,4294967808,[],[(25,.setEnt .internalNl),(26,.cb)],0,4⟩,⟨50,115792089237316195423570985008687907853269984665640564039457584007908834658815,[],[(25,.setEnt .internalNl),(26,.cb),(27,.code)],0,4⟩,⟨51,9903520314283042199192993792,[],[(25,.setEnt .internalNl),(26,.cb)],0,4⟩],[⟨44,8192,[],[],0,4⟩,⟨46,1024,[],[],0,4⟩,⟨47,4096,[],[],0,4⟩,⟨48,8192,[.crAlone],[],0,4⟩,⟨49,4294967808,[],[],0,4⟩,⟨50,115792089237316195423570985008687907853269984665640564039457584007908834658815,[],[(27,.code)],0,4⟩,⟨51,9903520314283042199192993792,[],[],0,4⟩],[⟨44,8192,[],[],0,4⟩,⟨46,1024,[],[],0,4⟩,⟨47,4096,[],[],0,4⟩,⟨48,8192,[.crAlone],[],0,4⟩,⟨49,4294967808,[],[],0,4⟩,⟨50,115792089237316195423570985008687907853269984665640564039457584007908834658815,[],[(27,.code)],0,4⟩,⟨51,9903520314283042199192993792,[],[],0,4⟩],[⟨52,2305843009213693952,[],[(28,.nestDec)],0,0⟩,⟨53,9903520314283042199192993792,[.nestZero],[(29,.commit)],4,0⟩],[⟨52,2305843009213693952,[],[(28,.nestDec)],0,0⟩,⟨53,9903520314283042199192993792,[.nestZero],[(29,.commit)],4,0⟩],[],[⟨55,1024,[],[(30,.setEnt .newline)],0,0⟩],[],[],[],[],[]],[some (0,[]),none,none,none,none,none,none,none,none,none,none,none,none,none,none,some (1,[]),none,some (1,[]),some (1,[]),none,none,none,none,none,none,none,none,none,none,some (2,[]),none,none,none,none,none,none,none,none,none,none,some (2,[]),none,none,none,none,none,none,none,none,none,none,none,none,some (2,[]),none,some (3,[]),some (3,[]),some (3,[]),some (3,[]),some (4,[])],[1,11,30,31,32]⟩
theorem lua_line_nfa_eq : Lua.lua_line.nfa = lua_line_nfa := by decide +kernel
/-- The machine of `Lua.lua_line`, with its automaton as a literal. -/
def lua_line_M : Machine := ⟨lua_line_nfa, Lua.lua_line.ends, Lua.lua_line.sw⟩
theorem lua_line_M_eq : Lua.lua_line.machine = lua_line_M := by
  unfold Scanner.machine lua_line_M; rw [lua_line_nfa_eq]
def lua_line_masks : List Nat := [4294967808,35184372088832,549755813888,17179869184,2475880078570760549798248448,8192,1024,4096,115792089237316195423570985008687907853269984665640564039457584007908834656767,2305843009213693952,115792089237316195423570985008687907853269984665640564039457584007908834658815,9903520314283042199192993792,115792089237316195423570985008687907853269984665640564039457584007913129626623,115792089237316195423570985008687907853269984665635612279300442486259482348031,4951760157141521099596496896,115792089237316195423570985008687907853269984665635612279300442486792058292735]
def lua_line_cs : List (Nat × Nat) := [(0,115792089237316195423570985008687907853269984665623232878905282805299725451775),(9,4294967808),(10,1024),(11,2048),(12,4096),(13,8192),(34,17179869184),(39,549755813888),(45,35184372088832),(61,2305843009213693952),(91,2475880078570760549798248448),(92,4951760157141521099596496896),(93,9903520314283042199192993792)]
theorem lua_line_masksIn : masksIn lua_line_nfa lua_line_masks = true := by decide +kernel
theorem lua_line_repOk : repOk lua_line_masks lua_line_cs = true := by decide +kernel
def lua_line_rows : List Row := [⟨[],none,[],[⟨256,.other,false,some ⟨0,[.setEnt (.own 7)],some 4,true⟩⟩,⟨256,.ws,false,some ⟨1,[.setEnt (.own 0)],some 0,false⟩⟩,⟨256,.lf,false,some ⟨0,[.setEnt .newline],some 3,true⟩⟩,⟨256,.vt,false,none⟩,⟨256,.ff,false,some ⟨0,[.setEnt .newline],some 3,true⟩⟩,⟨256,.cr,false,some ⟨2,[.setEnt .newline],none,false⟩⟩,⟨256,.cr,true,some ⟨3,[.setEnt .newline],some 3,false⟩⟩,⟨256,.other,false,some ⟨4,[.code,.setEnt (.own 7)],some 4,false⟩⟩,⟨256,.other,false,some ⟨5,[.code,.setEnt (.own 7)],some 4,false⟩⟩,⟨256,.other,false,some ⟨6,[.setEnt (.own 7)],some 4,false⟩⟩,⟨256,.other,false,some ⟨7,[.nestRes,.setEnt (.own 7)],some 4,false⟩⟩]⟩,⟨[0],some 0,[],[⟨256,.other,false,none⟩,⟨256,.ws,false,some ⟨1,[.setEnt (.own 0)],some 0,false⟩⟩,⟨256,.lf,false,none⟩,⟨256,.vt,false,none⟩,⟨256,.ff,false,none⟩,⟨256,.cr,false,none⟩,⟨256,.cr,true,none⟩]⟩,⟨[54],none,[],[⟨256,.other,false,none⟩,⟨256,.ws,false,none⟩,⟨256,.lf,false,some ⟨0,[.setEnt .newline],some 3,true⟩⟩,⟨256,.vt,false,none⟩,⟨256,.ff,false,none⟩,⟨256,.cr,false,none⟩,⟨256,.cr,true,none⟩]⟩,⟨[54,58],some 3,[],[⟨256,.other,false,none⟩,⟨256,.ws,false,none⟩,⟨256,.lf,false,some ⟨0,[.setEnt .newline],some 3,true⟩⟩,⟨256,.vt,false,none⟩,⟨256,.ff,false,none⟩,⟨256,.cr,false,none⟩,⟨256,.cr,true,none⟩]⟩,⟨[30,59],some 4,[],[⟨256,.other,false,some ⟨8,[.code],none,false⟩⟩,⟨256,.ws,false,some ⟨9,[],none,false⟩⟩,⟨256,.lf,false,some ⟨10,[],none,false⟩⟩,⟨256,.vt,false,some ⟨8,[.code],none,false⟩⟩,⟨256,.ff,false,some ⟨11,[],none,false⟩⟩,⟨256,.cr,false,some ⟨12,[],none,false⟩⟩,⟨256,.cr,true,some ⟨13,[],none,false⟩⟩,⟨256,.other,false,some ⟨0,[],some 2,true⟩⟩,⟨256,.other,false,some ⟨14,[],none,false⟩⟩]⟩,⟨[19,59],some 4,[],[⟨256,.other,false,some ⟨15,[.code],none,false⟩⟩,⟨256,.ws,false,some ⟨16,[],none,false⟩⟩,⟨256,.lf,false,some ⟨17,[],none,false⟩⟩,⟨256,.vt,false,some ⟨15,[.code],none,false⟩⟩,⟨256,.ff,false,some ⟨18,[],none,false⟩⟩,⟨256,.cr,false,some ⟨19,[],none,false⟩⟩,⟨256,.cr,true,some ⟨20,[],none,false⟩⟩,⟨256,.other,false,some ⟨0,[],some 2,true⟩⟩,⟨256,.other,false,some ⟨21,[],none,false⟩⟩]⟩,⟨[1,16,59],some 4,[],[⟨256,.other,false,none⟩,⟨256,.ws,false,none⟩,⟨256,.lf,false,none⟩,⟨256,.vt,false,none⟩,⟨256,.ff,false,none⟩,⟨256,.cr,false,none⟩,⟨256,.cr,true,none⟩,⟨256,.other,false,some ⟨22,[.comment],some 1,false⟩⟩]⟩,⟨[41,59],some 4,[],[⟨256,.other,false,none⟩,⟨256,.ws,false,none⟩,⟨256,.lf,false,none⟩,⟨256,.vt,false,none⟩,⟨256,.ff,false,none⟩,⟨256,.cr,false,none⟩,⟨256,.cr,true,none⟩,⟨256,.other,false,some ⟨23,[.nestInc],none,false⟩⟩,⟨256,.other,false,some ⟨24,[.enqueue,.code],none,false⟩⟩]⟩,⟨[37],none,[],[⟨256,.other,false,some ⟨8,[.code],none,false⟩⟩,⟨256,.ws,false,some ⟨9,[],none,false⟩⟩,⟨256,.lf,false,some ⟨10,[],none,false⟩⟩,⟨256,.vt,false,some ⟨8,[.code],none,false⟩⟩,⟨256,.ff,false,some ⟨11,[],none,false⟩⟩,⟨256,.cr,false,some ⟨12,[],none,false⟩⟩,⟨256,.cr,true,some ⟨13,[],none,false⟩⟩,⟨256,.other,false,some ⟨0,[],some 2,true⟩⟩,⟨256,.other,false,some ⟨14,[],none,false⟩⟩]⟩,⟨[36],none,[],[⟨256,.other,false,some ⟨8,[.code],none,false⟩⟩,⟨256,.ws,false,some ⟨9,[],none,false⟩⟩,⟨256,.lf,false,some ⟨10,[],none,false⟩⟩,⟨256,.vt,false,some ⟨8,[.code],none,false⟩⟩,⟨256,.ff,false,some ⟨11,[],none,false⟩⟩,⟨256,.cr,false,some ⟨12,[],none,false⟩⟩,⟨256,.cr,true,some ⟨13,[],none,false⟩⟩,⟨256,.other,false,some ⟨0,[],some 2,true⟩⟩,⟨256,.other,false,some ⟨14,[],none,false⟩⟩]⟩,⟨[33],none,[],[⟨256,.other,false,some ⟨8,[.setEnt .internalNl,.cb,.code],none,false⟩⟩,⟨256,.ws,false,some ⟨9,[.setEnt .internalNl,.cb],none,false⟩⟩,⟨256,.lf,false,some ⟨10,[.setEnt .internalNl,.cb],none,false⟩⟩,⟨256,.vt,false,some ⟨8,[.setEnt .internalNl,.cb,.code],none,false⟩⟩,⟨256,.ff,false,some ⟨11,[.setEnt .internalNl,.cb],none,false⟩⟩,⟨256,.cr,false,some ⟨12,[.setEnt .internalNl,.cb],none,false⟩⟩,⟨256,.cr,true,some ⟨13,[.setEnt .internalNl,.cb],none,false⟩⟩,⟨256,.other,false,some ⟨0,[.setEnt .internalNl,.cb],some 2,true⟩⟩,⟨256,.other,false,some ⟨14,[.setEnt .internalNl,.cb],none,false⟩⟩]⟩,⟨[34],none,[],[⟨256,.other,false,some ⟨8,[.setEnt .internalNl,.cb,.code],none,false⟩⟩,⟨256,.ws,false,some ⟨9,[.setEnt .internalNl,.cb],none,false⟩⟩,⟨256,.lf,false,some ⟨10,[.setEnt .internalNl,.cb],none,false⟩⟩,⟨256,.vt,false,some ⟨8,[.setEnt .internalNl,.cb,.code],none,false⟩⟩,⟨256,.ff,false,some ⟨11,[.setEnt .internalNl,.cb],none,false⟩⟩,⟨256,.cr,false,some ⟨12,[.setEnt .internalNl,.cb],none,false⟩⟩,⟨256,.cr,true,some ⟨13,[.setEnt .internalNl,.cb],none,false⟩⟩,⟨256,.other,false,some ⟨0,[.setEnt .internalNl,.cb],some 2,true⟩⟩,⟨256,.other,false,some ⟨14,[.setEnt .internalNl,.cb],none,false⟩⟩]⟩,⟨[31],none,[],[⟨256,.other,false,none⟩,⟨256,.ws,false,none⟩,⟨256,.lf,false,some ⟨25,[],none,false⟩⟩,⟨256,.vt,false,none⟩,⟨256,.ff,false,none⟩,⟨256,.cr,false,none⟩,⟨256,.cr,true,none⟩]⟩,⟨[31,35],none,[],[⟨256,.other,false,some ⟨8,[.setEnt .internalNl,.cb,.code],none,false⟩⟩,⟨256,.ws,false,some ⟨9,[.setEnt .internalNl,.cb],none,false⟩⟩,⟨256,.lf,false,some ⟨26,[.setEnt .internalNl,.cb],none,false⟩⟩,⟨256,.vt,false,some ⟨8,[.setEnt .internalNl,.cb,.code],none,false⟩⟩,⟨256,.ff,false,some ⟨11,[.setEnt .internalNl,.cb],none,false⟩⟩,⟨256,.cr,false,some ⟨12,[.setEnt .internalNl,.cb],none,false⟩⟩,⟨256,.cr,true,some ⟨13,[.setEnt .internalNl,.cb],none,false⟩⟩,⟨256,.other,false,some ⟨0,[.setEnt .internalNl,.cb],some 2,true⟩⟩,⟨256,.other,false,some ⟨14,[.setEnt .internalNl,.cb],none,false⟩⟩]⟩,⟨[38],none,[],[⟨256,.other,false,some ⟨27,[.code],none,false⟩⟩,⟨256,.ws,false,some ⟨27,[.code],none,false⟩⟩,⟨256,.lf,false,none⟩,⟨256,.vt,false,some ⟨27,[.code],none,false⟩⟩,⟨256,.ff,false,none⟩,⟨256,.cr,false,none⟩,⟨256,.cr,true,none⟩]⟩,⟨[26],none,[],[⟨256,.other,false,some ⟨15,[.code],none,false⟩⟩,⟨256,.ws,false,some ⟨16,[],none,false⟩⟩,⟨256,.lf,false,some ⟨17,[],none,false⟩⟩,⟨256,.vt,false,some ⟨15,[.code],none,false⟩⟩,⟨256,.ff,false,some ⟨18,[],none,false⟩⟩,⟨256,.cr,false,some ⟨19,[],none,false⟩⟩,⟨256,.cr,true,some ⟨20,[],none,false⟩⟩,⟨256,.other,false,some ⟨0,[],some 2,true⟩⟩,⟨256,.other,false,some ⟨21,[],none,false⟩⟩]⟩,⟨[25],none,[],[⟨256,.other,false,some ⟨15,[.code],none,false⟩⟩,⟨256,.ws,false,some ⟨16,[],none,false⟩⟩,⟨256,.lf,false,some ⟨17,[],none,false⟩⟩,⟨256,.vt,false,some ⟨15,[.code],none,false⟩⟩,⟨256,.ff,false,some ⟨18,[],none,false⟩⟩,⟨256,.cr,false,some ⟨19,[],none,false⟩⟩,⟨256,.cr,true,some ⟨20,[],none,false⟩⟩,⟨256,.other,false,some ⟨0,[],some 2,true⟩⟩,⟨256,.other,false,some ⟨21,[],none,false⟩⟩]⟩,⟨[22],none,[],[⟨256,.other,false,some ⟨15,[.setEnt .internalNl,.cb,.code],none,false⟩⟩,⟨256,.ws,false,some ⟨16,[.setEnt .internalNl,.cb],none,false⟩⟩,⟨256,.lf,false,some ⟨17,[.setEnt .internalNl,.cb],none,false⟩⟩,⟨256,.vt,false,some ⟨15,[.setEnt .internalNl,.cb,.code],none,false⟩⟩,⟨256,.ff,false,some ⟨18,[.setEnt .internalNl,.cb],none,false⟩⟩,⟨256,.cr,false,some ⟨19,[.setEnt .internalNl,.cb],none,false⟩⟩,⟨256,.cr,true,some ⟨20,[.setEnt .internalNl,.cb],none,false⟩⟩,⟨256,.other,false,some ⟨0,[.setEnt .internalNl,.cb],some 2,true⟩⟩,⟨256,.other,false,some ⟨21,[.setEnt .internalNl,.cb],none,false⟩⟩]⟩,⟨[23],none,[],[⟨256,.other,false,some ⟨15,[.setEnt .internalNl,.cb,.code],none,false⟩⟩,⟨256,.ws,false,some ⟨16,[.setEnt .internalNl,.cb],none,false⟩⟩,⟨256,.lf,false,some ⟨17,[.setEnt .internalNl,.cb],none,false⟩⟩,⟨256,.vt,false,some ⟨15,[.setEnt .internalNl,.cb,.code],none,false⟩⟩,⟨256,.ff,false,some ⟨18,[.setEnt .internalNl,.cb],none,false⟩⟩,⟨256,.cr,false,some ⟨19,[.setEnt .internalNl,.cb],none,false⟩⟩,⟨256,.cr,true,some ⟨20,[.setEnt .internalNl,.cb],none,false⟩⟩,⟨256,.other,false,some ⟨0,[.setEnt .internalNl,.cb],some 2,true⟩⟩,⟨256,.other,false,some ⟨21,[.setEnt .internalNl,.cb],none,false⟩⟩]⟩,⟨[20],none,[],[⟨256,.other,false,none⟩,⟨256,.ws,false,none⟩,⟨256,.lf,false,some ⟨28,[],none,false⟩⟩,⟨256,.vt,false,none⟩,⟨256,.ff,false,none⟩,⟨256,.cr,false,none⟩,⟨256,.cr,true,none⟩]⟩,⟨[20,24],none,[],[⟨256,.other,false,some ⟨15,[.setEnt .internalNl,.cb,.code],none,false⟩⟩,⟨256,.ws,false,some ⟨16,[.setEnt .internalNl,.cb],none,false⟩⟩,⟨256,.lf,false,some ⟨29,[.setEnt .internalNl,.cb],none,false⟩⟩,⟨256,.vt,false,some ⟨15,[.setEnt .internalNl,.cb,.code],none,false⟩⟩,⟨256,.ff,false,some ⟨18,[.setEnt .internalNl,.cb],none,false⟩⟩,⟨256,.cr,false,some ⟨19,[.setEnt .internalNl,.cb],none,false⟩⟩,⟨256,.cr,true,some ⟨20,[.setEnt .internalNl,.cb],none,false⟩⟩,⟨256,.other,false,some ⟨0,[.setEnt .internalNl,.cb],some 2,true⟩⟩,⟨256,.other,false,some ⟨21,[.setEnt .internalNl,.cb],none,false⟩⟩]⟩,⟨[27],none,[],[⟨256,.other,false,some ⟨30,[.code],none,false⟩⟩,⟨256,.ws,false,some ⟨30,[.code],none,false⟩⟩,⟨256,.lf,false,none⟩,⟨256,.vt,false,some ⟨30,[.code],none,false⟩⟩,⟨256,.ff,false,none⟩,⟨256,.cr,false,none⟩,⟨256,.cr,true,none⟩]⟩,⟨[2,17],some 1,[],[⟨256,.other,false,some ⟨31,[],some 1,false⟩⟩,⟨256,.ws,false,some ⟨31,[],some 1,false⟩⟩,⟨256,.lf,false,none⟩,⟨256,.vt,false,some ⟨31,[],some 1,false⟩⟩,⟨256,.ff,false,none⟩,⟨256,.cr,false,none⟩,⟨256,.cr,true,none⟩,⟨256,.other,false,some ⟨32,[.nestRes],some 1,false⟩⟩]⟩,⟨[42],none,[],[⟨256,.other,false,none⟩,⟨256,.ws,false,none⟩,⟨256,.lf,false,none⟩,⟨256,.vt,false,none⟩,⟨256,.ff,false,none⟩,⟨256,.cr,false,none⟩,⟨256,.cr,true,none⟩,⟨256,.other,false,some ⟨23,[.nestInc],none,false⟩⟩,⟨256,.other,false,some ⟨24,[.enqueue,.code],none,false⟩⟩]⟩,⟨[43],none,[],[⟨256,.other,false,some ⟨33,[.code],none,false⟩⟩,⟨256,.ws,false,some ⟨34,[],none,false⟩⟩,⟨256,.lf,false,some ⟨35,[],none,false⟩⟩,⟨256,.vt,false,some ⟨33,[.code],none,false⟩⟩,⟨256,.ff,false,some ⟨36,[],none,false⟩⟩,⟨256,.cr,false,some ⟨37,[],none,false⟩⟩,⟨256,.cr,true,some ⟨38,[],none,false⟩⟩,⟨256,.other,false,some ⟨39,[.code],none,false⟩⟩]⟩,⟨[32],none,[],[⟨256,.other,false,some ⟨8,[.setEnt .internalNl,.cb,.code],none,false⟩⟩,⟨256,.ws,false,some ⟨9,[.setEnt .internalNl,.cb],none,false⟩⟩,⟨256,.lf,false,some ⟨10,[.setEnt .internalNl,.cb],none,false⟩⟩,⟨256,.vt,false,some ⟨8,[.setEnt .internalNl,.cb,.code],none,false⟩⟩,⟨256,.ff,false,some ⟨11,[.setEnt .internalNl,.cb],none,false⟩⟩,⟨256,.cr,false,some ⟨12,[.setEnt .internalNl,.cb],none,false⟩⟩,⟨256,.cr,true,some ⟨13,[.setEnt .internalNl,.cb],none,false⟩⟩,⟨256,.other,false,some ⟨0,[.setEnt .internalNl,.cb],some 2,true⟩⟩,⟨256,.other,false,some ⟨14,[.setEnt .internalNl,.cb],none,false⟩⟩]⟩,⟨[32,33],none,[],[⟨256,.other,false,some ⟨8,[.setEnt .internalNl,.cb,.code],none,false⟩⟩,⟨256,.ws,false,some ⟨9,[.setEnt .internalNl,.cb],none,false⟩⟩,⟨256,.lf,false,some ⟨10,[.setEnt .internalNl,.cb],none,false⟩⟩,⟨256,.vt,false,some ⟨8,[.setEnt .internalNl,.cb,.code],none,false⟩⟩,⟨256,.ff,false,some ⟨11,[.setEnt .internalNl,.cb],none,false⟩⟩,⟨256,.cr,false,some ⟨12,[.setEnt .internalNl,.cb],none,false⟩⟩,⟨256,.cr,true,some ⟨13,[.setEnt .internalNl,.cb],none,false⟩⟩,⟨256,.other,false,some ⟨0,[.setEnt .internalNl,.cb],some 2,true⟩⟩,⟨256,.other,false,some ⟨14,[.setEnt .internalNl,.cb],none,false⟩⟩]⟩,⟨[39],none,[],[⟨256,.other,false,some ⟨8,[.code],none,false⟩⟩,⟨256,.ws,false,some ⟨9,[],none,false⟩⟩,⟨256,.lf,false,some ⟨10,[],none,false⟩⟩,⟨256,.vt,false,some ⟨8,[.code],none,false⟩⟩,⟨256,.ff,false,some ⟨11,[],none,false⟩⟩,⟨256,.cr,false,some ⟨12,[],none,false⟩⟩,⟨256,.cr,true,some ⟨13,[],none,false⟩⟩,⟨256,.other,false,some ⟨0,[],some 2,true⟩⟩,⟨256,.other,false,some ⟨14,[],none,false⟩⟩]⟩,⟨[21],none,[],[⟨256,.other,false,some ⟨15,[.setEnt .internalNl,.cb,.code],none,false⟩⟩,⟨256,.ws,false,some ⟨16,[.setEnt .internalNl,.cb],none,false⟩⟩,⟨256,.lf,false,some ⟨17,[.setEnt .internalNl,.cb],none,false⟩⟩,⟨256,.vt,false,some ⟨15,[.setEnt .internalNl,.cb,.code],none,false⟩⟩,⟨256,.ff,false,some ⟨18,[.setEnt .internalNl,.cb],none,false⟩⟩,⟨256,.cr,false,some ⟨19,[.setEnt .internalNl,.cb],none,false⟩⟩,⟨256,.cr,true,some ⟨20,[.setEnt .internalNl,.cb],none,false⟩⟩,⟨256,.other,false,some ⟨0,[.setEnt .internalNl,.cb],some 2,true⟩⟩,⟨256,.other,false,some ⟨21,[.setEnt .internalNl,.cb],none,false⟩⟩]⟩,⟨[21,22],none,[],[⟨256,.other,false,some ⟨15,[.setEnt .internalNl,.cb,.code],none,false⟩⟩,⟨256,.ws,false,some ⟨16,[.setEnt .internalNl,.cb],none,false⟩⟩,⟨256,.lf,false,some ⟨17,[.setEnt .internalNl,.cb],none,false⟩⟩,⟨256,.vt,false,some ⟨15,[.setEnt .internalNl,.cb,.code],none,false⟩⟩,⟨256,.ff,false,some ⟨18,[.setEnt .internalNl,.cb],none,false⟩⟩,⟨256,.cr,false,some ⟨19,[.setEnt .internalNl,.cb],none,false⟩⟩,⟨256,.cr,true,some ⟨20,[.setEnt .internalNl,.cb],none,false⟩⟩,⟨256,.other,false,some ⟨0,[.setEnt .internalNl,.cb],some 2,true⟩⟩,⟨256,.other,false,some ⟨21,[.setEnt .internalNl,.cb],none,false⟩⟩]⟩,⟨[28],none,[],[⟨256,.other,false,some ⟨15,[.code],none,false⟩⟩,⟨256,.ws,false,some ⟨16,[],none,false⟩⟩,⟨256,.lf,false,some ⟨17,[],none,false⟩⟩,⟨256,.vt,false,some ⟨15,[.code],none,false⟩⟩,⟨256,.ff,false,some ⟨18,[],none,false⟩⟩,⟨256,.cr,false,some ⟨19,[],none,false⟩⟩,⟨256,.cr,true,some ⟨20,[],none,false⟩⟩,⟨256,.other,false,some ⟨0,[],some 2,true⟩⟩,⟨256,.other,false,some ⟨21,[],none,false⟩⟩]⟩,⟨[18],some 1,[],[⟨256,.other,false,some ⟨31,[],some 1,false⟩⟩,⟨256,.ws,false,some ⟨31,[],some 1,false⟩⟩,⟨256,.lf,false,none⟩,⟨256,.vt,false,some ⟨31,[],some 1,false⟩⟩,⟨256,.ff,false,none⟩,⟨256,.cr,false,none⟩,⟨256,.cr,true,none⟩]⟩,⟨[3,18],some 1,[],[⟨256,.other,false,some ⟨31,[],some 1,false⟩⟩,⟨256,.ws,false,some ⟨31,[],some 1,false⟩⟩,⟨256,.lf,false,none⟩,⟨256,.vt,false,some ⟨31,[],some 1,false⟩⟩,⟨256,.ff,false,none⟩,⟨256,.cr,false,none⟩,⟨256,.cr,true,none⟩,⟨256,.other,false,some ⟨40,[.nestInc],some 1,false⟩⟩,⟨256,.other,false,some ⟨41,[.enqueue,.comment],some 1,false⟩⟩]⟩,⟨[50],none,[],[⟨256,.other,false,some ⟨33,[.code],none,false⟩⟩,⟨256,.ws,false,some ⟨34,[],none,false⟩⟩,⟨256,.lf,false,some ⟨35,[],none,false⟩⟩,⟨256,.vt,false,some ⟨33,[.code],none,false⟩⟩,⟨256,.ff,false,some ⟨36,[],none,false⟩⟩,⟨256,.cr,false,some ⟨37,[],none,false⟩⟩,⟨256,.cr,true,some ⟨38,[],none,false⟩⟩,⟨256,.other,false,some ⟨39,[.code],none,false⟩⟩]⟩,⟨[49],none,[],[⟨256,.other,false,some ⟨33,[.code],none,false⟩⟩,⟨256,.ws,false,some ⟨34,[],none,false⟩⟩,⟨256,.lf,false,some ⟨35,[],none,false⟩⟩,⟨256,.vt,false,some ⟨33,[.code],none,false⟩⟩,⟨256,.ff,false,some ⟨36,[],none,false⟩⟩,⟨256,.cr,false,some ⟨37,[],none,false⟩⟩,⟨256,.cr,true,some ⟨38,[],none,false⟩⟩,⟨256,.other,false,some ⟨39,[.code],none,false⟩⟩]⟩,⟨[46],none,[],[⟨256,.other,false,some ⟨33,[.setEnt .internalNl,.cb,.code],none,false⟩⟩,⟨256,.ws,false,some ⟨34,[.setEnt .internalNl,.cb],none,false⟩⟩,⟨256,.lf,false,some ⟨35,[.setEnt .internalNl,.cb],none,false⟩⟩,⟨256,.vt,false,some ⟨33,[.setEnt .internalNl,.cb,.code],none,false⟩⟩,⟨256,.ff,false,some ⟨36,[.setEnt .internalNl,.cb],none,false⟩⟩,⟨256,.cr,false,some ⟨37,[.setEnt .internalNl,.cb],none,false⟩⟩,⟨256,.cr,true,some ⟨38,[.setEnt .internalNl,.cb],none,false⟩⟩,⟨256,.other,false,some ⟨39,[.setEnt .internalNl,.cb,.code],none,false⟩⟩]⟩,⟨[47],none,[],[⟨256,.other,false,some ⟨33,[.setEnt .internalNl,.cb,.code],none,false⟩⟩,⟨256,.ws,false,some ⟨34,[.setEnt .internalNl,.cb],none,false⟩⟩,⟨256,.lf,false,some ⟨35,[.setEnt .internalNl,.cb],none,false⟩⟩,⟨256,.vt,false,some ⟨33,[.setEnt .internalNl,.cb,.code],none,false⟩⟩,⟨256,.ff,false,some ⟨36,[.setEnt .internalNl,.cb],none,false⟩⟩,⟨256,.cr,false,some ⟨37,[.setEnt .internalNl,.cb],none,false⟩⟩,⟨256,.cr,true,some ⟨38,[.setEnt .internalNl,.cb],none,false⟩⟩,⟨256,.other,false,some ⟨39,[.setEnt .internalNl,.cb,.code],none,false⟩⟩]⟩,⟨[44],none,[],[⟨256,.other,false,none⟩,⟨256,.ws,false,none⟩,⟨256,.lf,false,some ⟨42,[],none,false⟩⟩,⟨256,.vt,false,none⟩,⟨256,.ff,false,none⟩,⟨256,.cr,false,none⟩,⟨256,.cr,true,none⟩]⟩,⟨[44,48],none,[],[⟨256,.other,false,some ⟨33,[.setEnt .internalNl,.cb,.code],none,false⟩⟩,⟨256,.ws,false,some ⟨34,[.setEnt .internalNl,.cb],none,false⟩⟩,⟨256,.lf,false,some ⟨43,[.setEnt .internalNl,.cb],none,false⟩⟩,⟨256,.vt,false,some ⟨33,[.setEnt .internalNl,.cb,.code],none,false⟩⟩,⟨256,.ff,false,some ⟨36,[.setEnt .internalNl,.cb],none,false⟩⟩,⟨256,.cr,false,some ⟨37,[.setEnt .internalNl,.cb],none,false⟩⟩,⟨256,.cr,true,some ⟨38,[.setEnt .internalNl,.cb],none,false⟩⟩,⟨256,.other,false,some ⟨39,[.setEnt .internalNl,.cb,.code],none,false⟩⟩]⟩,⟨[50,51],none,[],[⟨256,.other,false,some ⟨33,[.code],none,false⟩⟩,⟨256,.ws,false,some ⟨34,[],none,false⟩⟩,⟨256,.lf,false,some ⟨35,[],none,false⟩⟩,⟨256,.vt,false,some ⟨33,[.code],none,false⟩⟩,⟨256,.ff,false,some ⟨36,[],none,false⟩⟩,⟨256,.cr,false,some ⟨37,[],none,false⟩⟩,⟨256,.cr,true,some ⟨38,[],none,false⟩⟩,⟨256,.other,false,some ⟨44,[.code,.nestDec],none,false⟩⟩,⟨256,.other,false,some ⟨39,[.code],none,false⟩⟩,⟨256,.other,false,some ⟨0,[.commit],some 2,true⟩⟩]⟩,⟨[4,18],some 1,[],[⟨256,.other,false,some ⟨31,[],some 1,false⟩⟩,⟨256,.ws,false,some ⟨31,[],some 1,false⟩⟩,⟨256,.lf,false,none⟩,⟨256,.vt,false,some ⟨31,[],some 1,false⟩⟩,⟨256,.ff,false,none⟩,⟨256,.cr,false,none⟩,⟨256,.cr,true,none⟩,⟨256,.other,false,some ⟨40,[.nestInc],some 1,false⟩⟩,⟨256,.other,false,some ⟨41,[.enqueue,.comment],some 1,false⟩⟩]⟩,⟨[5,18],some 1,[],[⟨256,.other,false,some ⟨45,[.comment],some 1,false⟩⟩,⟨256,.ws,false,some ⟨46,[],some 1,false⟩⟩,⟨256,.lf,false,some ⟨47,[],none,false⟩⟩,⟨256,.vt,false,some ⟨45,[.comment],some 1,false⟩⟩,⟨256,.ff,false,some ⟨48,[],none,false⟩⟩,⟨256,.cr,false,some ⟨49,[],none,false⟩⟩,⟨256,.cr,true,some ⟨50,[],none,false⟩⟩,⟨256,.other,false,some ⟨51,[.comment],some 1,false⟩⟩]⟩,⟨[45],none,[],[⟨256,.other,false,some ⟨33,[.setEnt .internalNl,.cb,.code],none,false⟩⟩,⟨256,.ws,false,some ⟨34,[.setEnt .internalNl,.cb],none,false⟩⟩,⟨256,.lf,false,some ⟨35,[.setEnt .internalNl,.cb],none,false⟩⟩,⟨256,.vt,false,some ⟨33,[.setEnt .internalNl,.cb,.code],none,false⟩⟩,⟨256,.ff,false,some ⟨36,[.setEnt .internalNl,.cb],none,false⟩⟩,⟨256,.cr,false,some ⟨37,[.setEnt .internalNl,.cb],none,false⟩⟩,⟨256,.cr,true,some ⟨38,[.setEnt .internalNl,.cb],none,false⟩⟩,⟨256,.other,false,some ⟨39,[.setEnt .internalNl,.cb,.code],none,false⟩⟩]⟩,⟨[45,46],none,[],[⟨256,.other,false,some ⟨33,[.setEnt .internalNl,.cb,.code],none,false⟩⟩,⟨256,.ws,false,some ⟨34,[.setEnt .internalNl,.cb],none,false⟩⟩,⟨256,.lf,false,some ⟨35,[.setEnt .internalNl,.cb],none,false⟩⟩,⟨256,.vt,false,some ⟨33,[.setEnt .internalNl,.cb,.code],none,false⟩⟩,⟨256,.ff,false,some ⟨36,[.setEnt .internalNl,.cb],none,false⟩⟩,⟨256,.cr,false,some ⟨37,[.setEnt .internalNl,.cb],none,false⟩⟩,⟨256,.cr,true,some ⟨38,[.setEnt .internalNl,.cb],none,false⟩⟩,⟨256,.other,false,some ⟨39,[.setEnt .internalNl,.cb,.code],none,false⟩⟩]⟩,⟨[50,52],none,[],[⟨256,.other,false,some ⟨33,[.code],none,false⟩⟩,⟨256,.ws,false,some ⟨34,[],none,false⟩⟩,⟨256,.lf,false,some ⟨35,[],none,false⟩⟩,⟨256,.vt,false,some ⟨33,[.code],none,false⟩⟩,⟨256,.ff,false,some ⟨36,[],none,false⟩⟩,⟨256,.cr,false,some ⟨37,[],none,false⟩⟩,⟨256,.cr,true,some ⟨38,[],none,false⟩⟩,⟨256,.other,false,some ⟨44,[.code,.nestDec],none,false⟩⟩,⟨256,.other,false,some ⟨39,[.code],none,false⟩⟩,⟨256,.other,false,some ⟨0,[.commit],some 2,true⟩⟩]⟩,⟨[12,18],some 1,[],[⟨256,.other,false,some ⟨45,[.comment],some 1,false⟩⟩,⟨256,.ws,false,some ⟨46,[],some 1,false⟩⟩,⟨256,.lf,false,some ⟨47,[],none,false⟩⟩,⟨256,.vt,false,some ⟨45,[.comment],some 1,false⟩⟩,⟨256,.ff,false,some ⟨48,[],none,false⟩⟩,⟨256,.cr,false,some ⟨49,[],none,false⟩⟩,⟨256,.cr,true,some ⟨50,[],none,false⟩⟩,⟨256,.other,false,some ⟨51,[.comment],some 1,false⟩⟩]⟩,⟨[11,18],some 1,[],[⟨256,.other,false,some ⟨45,[.comment],some 1,false⟩⟩,⟨256,.ws,false,some ⟨46,[],some 1,false⟩⟩,⟨256,.lf,false,some ⟨47,[],none,false⟩⟩,⟨256,.vt,false,some ⟨45,[.comment],some 1,false⟩⟩,⟨256,.ff,false,some ⟨48,[],none,false⟩⟩,⟨256,.cr,false,some ⟨49,[],none,false⟩⟩,⟨256,.cr,true,some ⟨50,[],none,false⟩⟩,⟨256,.other,false,some ⟨51,[.comment],some 1,false⟩⟩]⟩,⟨[8],none,[],[⟨256,.other,false,some ⟨52,[.setEnt .internalNl,.cb,.comment],none,false⟩⟩,⟨256,.ws,false,some ⟨53,[.setEnt .internalNl,.cb],none,false⟩⟩,⟨256,.lf,false,some ⟨47,[.setEnt .internalNl,.cb],none,false⟩⟩,⟨256,.vt,false,some ⟨52,[.setEnt .internalNl,.cb,.comment],none,false⟩⟩,⟨256,.ff,false,some ⟨48,[.setEnt .internalNl,.cb],none,false⟩⟩,⟨256,.cr,false,some ⟨49,[.setEnt .internalNl,.cb],none,false⟩⟩,⟨256,.cr,true,some ⟨50,[.setEnt .internalNl,.cb],none,false⟩⟩,⟨256,.other,false,some ⟨54,[.setEnt .internalNl,.cb,.comment],none,false⟩⟩]⟩,⟨[9],none,[],[⟨256,.other,false,some ⟨52,[.setEnt .internalNl,.cb,.comment],none,false⟩⟩,⟨256,.ws,false,some ⟨53,[.setEnt .internalNl,.cb],none,false⟩⟩,⟨256,.lf,false,some ⟨47,[.setEnt .internalNl,.cb],none,false⟩⟩,⟨256,.vt,false,some ⟨52,[.setEnt .internalNl,.cb,.comment],none,false⟩⟩,⟨256,.ff,false,some ⟨48,[.setEnt .internalNl,.cb],none,false⟩⟩,⟨256,.cr,false,some ⟨49,[.setEnt .internalNl,.cb],none,false⟩⟩,⟨256,.cr,true,some ⟨50,[.setEnt .internalNl,.cb],none,false⟩⟩,⟨256,.other,false,some ⟨54,[.setEnt .internalNl,.cb,.comment],none,false⟩⟩]⟩,⟨[6],none,[],[⟨256,.other,false,none⟩,⟨256,.ws,false,none⟩,⟨256,.lf,false,some ⟨55,[],none,false⟩⟩,⟨256,.vt,false,none⟩,⟨256,.ff,false,none⟩,⟨256,.cr,false,none⟩,⟨256,.cr,true,none⟩]⟩,⟨[6,10],none,[],[⟨256,.other,false,some ⟨52,[.setEnt .internalNl,.cb,.comment],none,false⟩⟩,⟨256,.ws,false,some ⟨53,[.setEnt .internalNl,.cb],none,false⟩⟩,⟨256,.lf,false,some ⟨56,[.setEnt .internalNl,.cb],none,false⟩⟩,⟨256,.vt,false,some ⟨52,[.setEnt .internalNl,.cb,.comment],none,false⟩⟩,⟨256,.ff,false,some ⟨48,[.setEnt .internalNl,.cb],none,false⟩⟩,⟨256,.cr,false,some ⟨49,[.setEnt .internalNl,.cb],none,false⟩⟩,⟨256,.cr,true,some ⟨50,[.setEnt .internalNl,.cb],none,false⟩⟩,⟨256,.other,false,some ⟨54,[.setEnt .internalNl,.cb,.comment],none,false⟩⟩]⟩,⟨[12,13,18],some 1,[],[⟨256,.other,false,some ⟨45,[.comment],some 1,false⟩⟩,⟨256,.ws,false,some ⟨46,[],some 1,false⟩⟩,⟨256,.lf,false,some ⟨47,[],none,false⟩⟩,⟨256,.vt,false,some ⟨45,[.comment],some 1,false⟩⟩,⟨256,.ff,false,some ⟨48,[],none,false⟩⟩,⟨256,.cr,false,some ⟨49,[],none,false⟩⟩,⟨256,.cr,true,some ⟨50,[],none,false⟩⟩,⟨256,.other,false,some ⟨57,[.comment,.nestDec],some 1,false⟩⟩,⟨256,.other,false,some ⟨51,[.comment],some 1,false⟩⟩,⟨256,.other,false,some ⟨58,[.commit],some 1,false⟩⟩]⟩,⟨[12],none,[],[⟨256,.other,false,some ⟨52,[.comment],none,false⟩⟩,⟨256,.ws,false,some ⟨53,[],none,false⟩⟩,⟨256,.lf,false,some ⟨47,[],none,false⟩⟩,⟨256,.vt,false,some ⟨52,[.comment],none,false⟩⟩,⟨256,.ff,false,some ⟨48,[],none,false⟩⟩,⟨256,.cr,false,some ⟨49,[],none,false⟩⟩,⟨256,.cr,true,some ⟨50,[],none,false⟩⟩,⟨256,.other,false,some ⟨54,[.comment],none,false⟩⟩]⟩,⟨[11],none,[],[⟨256,.other,false,some ⟨52,[.comment],none,false⟩⟩,⟨256,.ws,false,some ⟨53,[],none,false⟩⟩,⟨256,.lf,false,some ⟨47,[],none,false⟩⟩,⟨256,.vt,false,some ⟨52,[.comment],none,false⟩⟩,⟨256,.ff,false,some ⟨48,[],none,false⟩⟩,⟨256,.cr,false,some ⟨49,[],none,false⟩⟩,⟨256,.cr,true,some ⟨50,[],none,false⟩⟩,⟨256,.other,false,some ⟨54,[.comment],none,false⟩⟩]⟩,⟨[12,13],none,[],[⟨256,.other,false,some ⟨52,[.comment],none,false⟩⟩,⟨256,.ws,false,some ⟨53,[],none,false⟩⟩,⟨256,.lf,false,some ⟨47,[],none,false⟩⟩,⟨256,.vt,false,some ⟨52,[.comment],none,false⟩⟩,⟨256,.ff,false,some ⟨48,[],none,false⟩⟩,⟨256,.cr,false,some ⟨49,[],none,false⟩⟩,⟨256,.cr,true,some ⟨50,[],none,false⟩⟩,⟨256,.other,false,some ⟨59,[.comment,.nestDec],none,false⟩⟩,⟨256,.other,false,some ⟨54,[.comment],none,false⟩⟩,⟨256,.other,false,some ⟨0,[.commit],some 1,true⟩⟩]⟩,⟨[7],none,[],[⟨256,.other,false,some ⟨52,[.setEnt .internalNl,.cb,.comment],none,false⟩⟩,⟨256,.ws,false,some ⟨53,[.setEnt .internalNl,.cb],none,false⟩⟩,⟨256,.lf,false,some ⟨47,[.setEnt .internalNl,.cb],none,false⟩⟩,⟨256,.vt,false,some ⟨52,[.setEnt .internalNl,.cb,.comment],none,false⟩⟩,⟨256,.ff,false,some ⟨48,[.setEnt .internalNl,.cb],none,false⟩⟩,⟨256,.cr,false,some ⟨49,[.setEnt .internalNl,.cb],none,false⟩⟩,⟨256,.cr,true,some ⟨50,[.setEnt .internalNl,.cb],none,false⟩⟩,⟨256,.other,false,some ⟨54,[.setEnt .internalNl,.cb,.comment],none,false⟩⟩]⟩,⟨[7,8],none,[],[⟨256,.other,false,some ⟨52,[.setEnt .internalNl,.cb,.comment],none,false⟩⟩,⟨256,.ws,false,some ⟨53,[.setEnt .internalNl,.cb],none,false⟩⟩,⟨256,.lf,false,some ⟨47,[.setEnt .internalNl,.cb],none,false⟩⟩,⟨256,.vt,false,some ⟨52,[.setEnt .internalNl,.cb,.comment],none,false⟩⟩,⟨256,.ff,false,some ⟨48,[.setEnt .internalNl,.cb],none,false⟩⟩,⟨256,.cr,false,some ⟨49,[.setEnt .internalNl,.cb],none,false⟩⟩,⟨256,.cr,true,some ⟨50,[.setEnt .internalNl,.cb],none,false⟩⟩,⟨256,.other,false,some ⟨54,[.setEnt .internalNl,.cb,.comment],none,false⟩⟩]⟩,⟨[12,14,18],some 1,[],[⟨256,.other,false,some ⟨45,[.comment],some 1,false⟩⟩,⟨256,.ws,false,some ⟨46,[],some 1,false⟩⟩,⟨256,.lf,false,some ⟨47,[],none,false⟩⟩,⟨256,.vt,false,some ⟨45,[.comment],some 1,false⟩⟩,⟨256,.ff,false,some ⟨48,[],none,false⟩⟩,⟨256,.cr,false,some ⟨49,[],none,false⟩⟩,⟨256,.cr,true,some ⟨50,[],none,false⟩⟩,⟨256,.other,false,some ⟨57,[.comment,.nestDec],some 1,false⟩⟩,⟨256,.other,false,some ⟨51,[.comment],some 1,false⟩⟩,⟨256,.other,false,some ⟨58,[.commit],some 1,false⟩⟩]⟩,⟨[15,18],some 1,[],[⟨256,.other,false,some ⟨31,[],some 1,false⟩⟩,⟨256,.ws,false,some ⟨31,[],some 1,false⟩⟩,⟨256,.lf,false,none⟩,⟨256,.vt,false,some ⟨31,[],some 1,false⟩⟩,⟨256,.ff,false,none⟩,⟨256,.cr,false,none⟩,⟨256,.cr,true,none⟩]⟩,⟨[12,14],none,[],[⟨256,.other,false,some ⟨52,[.comment],none,false⟩⟩,⟨256,.ws,false,some ⟨53,[],none,false⟩⟩,⟨256,.lf,false,some ⟨47,[],none,false⟩⟩,⟨256,.vt,false,some ⟨52,[.comment],none,false⟩⟩,⟨256,.ff,false,some ⟨48,[],none,false⟩⟩,⟨256,.cr,false,some ⟨49,[],none,false⟩⟩,⟨256,.cr,true,some ⟨50,[],none,false⟩⟩,⟨256,.other,false,some ⟨59,[.comment,.nestDec],none,false⟩⟩,⟨256,.other,false,some ⟨54,[.comment],none,false⟩⟩,⟨256,.other,false,some ⟨0,[.commit],some 1,true⟩⟩]⟩]
theorem lua_line_rowsOk : rowsOk lua_line_nfa [] (lua_line_cs.map (·.1)) lua_line_rows = true := by decide +kernel
def lua_line_D : Dfa lua_line_M.nfa := ⟨lua_line_masks, [], lua_line_cs, lua_line_rows, lua_line_masksIn, lua_line_repOk, lua_line_rowsOk⟩

def metapost_line_nfa : Nfa := ⟨[⟨0,4294967808,[],[(0,.setEnt (.own 0))],0,0⟩,⟨1,137438953472,[],[(1,.fhold 0),(2,.comment)],0,0⟩,⟨3,17179869184,[],[(3,.code)],0,0⟩,⟨8,8192,[],[(4,.setEnt .newline)],0,0⟩,⟨10,1024,[],[(4,.setEnt .newline)],0,0⟩,⟨11,4096,[],[(4,.setEnt .newline)],0,0⟩,⟨12,8192,[.crAlone],[(4,.setEnt .newline)],0,0⟩,⟨13,115792089237316195423570985008687907853269984665640564039457584007908834656767,[],[(5,.setEnt (.own 3))],0,0⟩],[[⟨0,4294967808,[],[(0,.setEnt (.own 0))],0,0⟩],[⟨2,115792089237316195423570985008687907853269984665640564039457584007913129626623,[],[],0,0⟩],[⟨2,115792089237316195423570985008687907853269984665640564039457584007913129626623,[],[],0,0⟩],[⟨4,115792089237316195423570985008687907853269984665635612279300442486796353260543,[],[],0,0⟩,⟨5,4951760157141521099596496896,[],[],0,0⟩,⟨7,17179869184,[],[],0,0⟩],[⟨4,115792089237316195423570985008687907853269984665635612279300442486796353260543,[],[],0,0⟩,⟨5,4951760157141521099596496896,[],[],0,0⟩,⟨7,17179869184,[],[],0,0⟩],[⟨6,115792089237316195423570985008687907853269984665640564039457584007913129626623,[],[],0,0⟩],[⟨4,115792089237316195423570985008687907853269984665635612279300442486796353260543,[],[],0,0⟩,⟨5,4951760157141521099596496896,[],[],0,0⟩,⟨7,17179869184,[],[],0,0⟩],[],[⟨9,1024,[],[(4,.setEnt .newline)],0,0⟩],[],[],[],[],[]],[some (0,[]),some (1,[]),some (1,[]),none,none,none,none,some (2,[]),none,some (3,[]),some (3,[]),some (3,[]),some (3,[]),some (4,[])],[1,3,4,5,6]⟩
theorem metapost_line_nfa_eq : Metapost.metapost_line.nfa = metapost_line_nfa := by decide +kernel
/-- The machine of `Metapost.metapost_line`, with its automaton as a literal. -/
def metapost_line_M : Machine := ⟨metapost_line_nfa, Metapost.metapost_line.ends, Metapost.metapost_line.sw⟩
theorem metapost_line_M_eq : Metapost.metapost_line.machine = metapost_line_M := by
  unfold Scanner.machine metapost_line_M; rw [metapost_line_nfa_eq]
def metapost_line_masks : List Nat := [4294967808,137438953472,17179869184,8192,1024,4096,115792089237316195423570985008687907853269984665640564039457584007908834656767,115792089237316195423570985008687907853269984665640564039457584007913129626623,115792089237316195423570985008687907853269984665635612279300442486796353260543,4951760157141521099596496896]
def metapost_line_cs : List (Nat × Nat) := [(0,115792089237316195423570985008687907853269984665635612279300442486654619337215),(9,4294967808),(10,1024),(11,2048),(12,4096),(13,8192),(34,17179869184),(37,137438953472),(92,4951760157141521099596496896)]
theorem metapost_line_masksIn : masksIn metapost_line_nfa metapost_line_masks = true := by decide +kernel
theorem metapost_line_repOk : repOk metapost_line_masks metapost_line_cs = true := by decide +kernel
def metapost_line_rows : List Row := [⟨[],none,[],[⟨0,.other,false,some ⟨0,[.setEnt (.own 3)],some 4,true⟩⟩,⟨9,.ws,false,some ⟨1,[.setEnt (.own 0)],some 0,false⟩⟩,⟨10,.lf,false,some ⟨0,[.setEnt .newline],some 3,true⟩⟩,⟨11,.vt,false,none⟩,⟨12,.ff,false,some ⟨0,[.setEnt .newline],some 3,true⟩⟩,⟨13,.cr,false,some ⟨2,[.setEnt .newline],none,false⟩⟩,⟨13,.cr,true,some ⟨3,[.setEnt .newline],some 3,false⟩⟩,⟨34,.other,false,some ⟨4,[.code,.setEnt (.own 3)],some 4,false⟩⟩,⟨37,.other,false,some ⟨5,[.fhold 0,.comment,.setEnt (.own 3)],some 1,false⟩⟩,⟨92,.other,false,some ⟨0,[.setEnt (.own 3)],some 4,true⟩⟩]⟩,⟨[0],some 0,[],[⟨0,.other,false,none⟩,⟨9,.ws,false,some ⟨1,[.setEnt (.own 0)],some 0,false⟩⟩,⟨10,.lf,false,none⟩,⟨11,.vt,false,none⟩,⟨12,.ff,false,none⟩,⟨13,.cr,false,none⟩,⟨13,.cr,true,none⟩,⟨34,.other,false,none⟩,⟨37,.other,false,none⟩,⟨92,.other,false,none⟩]⟩,⟨[8],none,[],[⟨0,.other,false,none⟩,⟨9,.ws,false,none⟩,⟨10,.lf,false,some ⟨0,[.setEnt .newline],some 3,true⟩⟩,⟨11,.vt,false,none⟩,⟨12,.ff,false,none⟩,⟨13,.cr,false,none⟩,⟨13,.cr,true,none⟩,⟨34,.other,false,none⟩,⟨37,.other,false,none⟩,⟨92,.other,false,none⟩]⟩,⟨[8,12],some 3,[],[⟨0,.other,false,none⟩,⟨9,.ws,false,none⟩,⟨10,.lf,false,some ⟨0,[.setEnt .newline],some 3,true⟩⟩,⟨11,.vt,false,none⟩,⟨12,.ff,false,none⟩,⟨13,.cr,false,none⟩,⟨13,.cr,true,none⟩,⟨34,.other,false,none⟩,⟨37,.other,false,none⟩,⟨92,.other,false,none⟩]⟩,⟨[3,13],some 4,[],[⟨0,.other,false,some ⟨6,[],none,false⟩⟩,⟨9,.ws,false,some ⟨6,[],none,false⟩⟩,⟨10,.lf,false,none⟩,⟨11,.vt,false,some ⟨6,[],none,false⟩⟩,⟨12,.ff,false,none⟩,⟨13,.cr,false,none⟩,⟨13,.cr,true,none⟩,⟨34,.other,false,some ⟨0,[],some 2,true⟩⟩,⟨37,.other,false,some ⟨6,[],none,false⟩⟩,⟨92,.other,false,some ⟨7,[],none,false⟩⟩]⟩,⟨[1,13],some 1,[],[⟨0,.other,false,some ⟨8,[],some 1,false⟩⟩,⟨9,.ws,false,some ⟨8,[],some 1,false⟩⟩,⟨10,.lf,false,none⟩,⟨11,.vt,false,some ⟨8,[],some 1,false⟩⟩,⟨12,.ff,false,none⟩,⟨13,.cr,false,none⟩,⟨13,.cr,true,none⟩,⟨34,.other,false,some ⟨8,[],some 1,false⟩⟩,⟨37,.other,false,some ⟨8,[],some 1,false⟩⟩,⟨92,.other,false,some ⟨8,[],some 1,false⟩⟩]⟩,⟨[4],none,[],[⟨0,.other,false,some ⟨6,[],none,false⟩⟩,⟨9,.ws,false,some ⟨6,[],none,false⟩⟩,⟨10,.lf,false,none⟩,⟨11,.vt,false,some ⟨6,[],none,false⟩⟩,⟨12,.ff,false,none⟩,⟨13,.cr,false,none⟩,⟨13,.cr,true,none⟩,⟨34,.other,false,some ⟨0,[],some 2,true⟩⟩,⟨37,.other,false,some ⟨6,[],none,false⟩⟩,⟨92,.other,false,some ⟨7,[],none,false⟩⟩]⟩,⟨[5],none,[],[⟨0,.other,false,some ⟨9,[],none,false⟩⟩,⟨9,.ws,false,some ⟨9,[],none,false⟩⟩,⟨10,.lf,false,none⟩,⟨11,.vt,false,some ⟨9,[],none,false⟩⟩,⟨12,.ff,false,none⟩,⟨13,.cr,false,none⟩,⟨13,.cr,true,none⟩,⟨34,.other,false,some ⟨9,[],none,false⟩⟩,⟨37,.other,false,some ⟨9,[],none,false⟩⟩,⟨92,.other,false,some ⟨9,[],none,false⟩⟩]⟩,⟨[2],some 1,[],[⟨0,.other,false,some ⟨8,[],some 1,false⟩⟩,⟨9,.ws,false,some ⟨8,[],some 1,false⟩⟩,⟨10,.lf,false,none⟩,⟨11,.vt,false,some ⟨8,[],some 1,false⟩⟩,⟨12,.ff,false,none⟩,⟨13,.cr,false,none⟩,⟨13,.cr,true,none⟩,⟨34,.other,false,some ⟨8,[],some 1,false⟩⟩,⟨37,.other,false,some ⟨8,[],some 1,false⟩⟩,⟨92,.other,false,some ⟨8,[],some 1,false⟩⟩]⟩,⟨[6],none,[],[⟨0,.other,false,some ⟨6,[],none,false⟩⟩,⟨9,.ws,false,some ⟨6,[],none,false⟩⟩,⟨10,.lf,false,none⟩,⟨11,.vt,false,some ⟨6,[],none,false⟩⟩,⟨12,.ff,false,none⟩,⟨13,.cr,false,none⟩,⟨13,.cr,true,none⟩,⟨34,.other,false,some ⟨0,[],some 2,true⟩⟩,⟨37,.other,false,some ⟨6,[],none,false⟩⟩,⟨92,.other,false,some ⟨7,[],none,false⟩⟩]⟩]
theorem metapost_line_rowsOk : rowsOk metapost_line_nfa [] (metapost_line_cs.map (·.1)) metapost_line_rows = true := by decide +kernel
def metapost_line_D : Dfa metapost_line_M.nfa := ⟨metapost_line_masks, [], metapost_line_cs, metapost_line_rows, metapost_line_masksIn, metapost_line_repOk, metapost_line_rowsOk⟩

def pascal_line_nfa : Nfa := ⟨[⟨0,4294967808,[],[(0,.setEnt (.own 0))],0,0⟩,⟨1,140737488355328,[],[],0,0⟩,⟨4,1099511627776,[],[],0,2⟩,⟨15,10633823966279326983230456482242756608,[],[(6,.comment)],0,4⟩,⟨24,549755813888,[],[(10,.code)],0,0⟩,⟨35,8192,[],[(15,.setEnt .newline)],0,0⟩,⟨37,1024,[],[(15,.setEnt .newline)],0,0⟩,⟨38,4096,[],[(15,.setEnt .newline)],0,0⟩,⟨39,8192,[.crAlone],[(15,.setEnt .newline)],0,0⟩,⟨40,115792089237316195423570985008687907853269984665640564039457584007908834656767,[],[(16,.setEnt (.own 3))],0,0⟩],[[⟨0,4294967808,[],[(0,.setEnt (.own 0))],0,0⟩],[⟨2,140737488355328,[],[(1,.comment)],0,0⟩],[⟨3,115792089237316195423570985008687907853269984665640564039457584007913129626623,[],[],0,0⟩],[⟨3,115792089237316195423570985008687907853269984665640564039457584007913129626623,[],[],0,0⟩],[⟨5,4398046511104,[],[(2,.comment)],0,2⟩],[⟨6,8192,[],[],0,2⟩,⟨8,1024,[],[],0,2⟩,⟨9,4096,[],[],0,2⟩,⟨10,8192,[.crAlone],[],0,2⟩,⟨11,4294967808,[],[],0,2⟩,⟨12,115792089237316195423570985008687907853269984665640564039457584007908834658815,[],[(5,.code)],0,2⟩,⟨13,4398046511104,[],[],0,2⟩],[⟨7,1024,[],[],0,2⟩],[⟨6,8192,[],[(3,.setEnt .internalNl),(4,.cb)],0,2⟩,⟨8,1024,[],[(3,.setEnt .internalNl),(4,.cb)],0,2⟩,⟨9,4096,[],[(3,.setEnt .internalNl),(4,.cb)],0,2⟩,⟨10,8192,[.crAlone],[(3,.setEnt .internalNl),(4,.cb)],0,2⟩,⟨11,4294967808,[],[(3,.setEnt .internalNl),(4,.cb)],0,2⟩,⟨12,115792089237316195423570985008687907853269984665640564039457584007908834658815,[],[(3,.setEnt .internalNl),(4,.cb),(5,.code)],0,2⟩,⟨13,4398046511104,[],[(3,.setEnt .internalNl),(4,.cb)],0,2⟩],[⟨6,8192,[],[(3,.setEnt .internalNl),(4,.cb)],0,2⟩,⟨8,1024,[],[(3,.setEnt .internalNl),(4,.cb)],0,2⟩,⟨9,4096,[],[(3,.setEnt .internalNl),(4,.cb)],0,2⟩,⟨10,8192,[.crAlone],[(3,.setEnt .internalNl),(4,.cb)],0,2⟩,⟨11,4294967808,[],[(3,.setEnt .internalNl),(4,.cb)],0,2⟩,⟨12,115792089237316195423570985008687907853269984665640564039457584007908834658815,[],[(3,.setEnt .internalNl),(4,.cb),(5,.code)],0,2⟩,⟨13,4398046511104,[],[(3,.setEnt .internalNl),(4,.cb)],0,2⟩],[⟨6,8192,[],[(3,.setEnt .internalNl),(4,.cb)],0,2⟩,⟨8,1024,[],[(3,.setEnt .internalNl),(4,.cb)],0,2⟩,⟨9,4096,[],[(3,.setEnt .internalNl),(4,.cb)],0,2⟩,⟨10,8192,[.crAlone],[(3,.setEnt .internalNl),(4,.cb)],0,2⟩,⟨11,4294967808,[],[(3,.setEnt .internalNl),(4,.cb)],0,2⟩,⟨12,115792089237316195423570985008687907853269984665640564039457584007908834658815,[],[(3,.setEnt .internalNl),(4,.cb),(5,.code)],0,2⟩,⟨13,4398046511104,[],[(3,.setEnt .internalNl),(4,.cb)],0,2⟩],[⟨6,8192,[],[(3,.setEnt .internalNl),(4,.cb)],0,2⟩,⟨8,1024,[],[(3,.setEnt .internalNl),(4,.cb)],0,2⟩,⟨9,4096,[],[(3,.setEnt .internalNl),(4,.cb)],0,2⟩,⟨10,8192,[.crAlone],[(3,.setEnt .internalNl),(4,.cb)],0,2⟩,⟨11,4294967808,[],[(3,.setEnt .internalNl),(4,.cb)],0,2⟩,⟨12,115792089237316195423570985008687907853269984665640564039457584007908834658815,[],[(3,.setEnt .internalNl),(4,.cb),(5,.code)],0,2⟩,⟨13,4398046511104,[],[(3,.setEnt .internalNl),(4,.cb)],0,2⟩],[⟨6,8192,[],[],0,2⟩,⟨8,1024,[],[],0,2⟩,⟨9,4096,[],[],0,2⟩,⟨10,8192,[.crAlone],[],0,2⟩,⟨11,4294967808,[],[],0,2⟩,⟨12,115792089237316195423570985008687907853269984665640564039457584007908834658815,[],[(5,.code)],0,2⟩,⟨13,4398046511104,[],[],0,2⟩],[⟨6,8192,[],[],0,2⟩,⟨8,1024,[],[],0,2⟩,⟨9,4096,[],[],0,2⟩,⟨10,8192,[.crAlone],[],0,2⟩,⟨11,4294967808,[],[],0,2⟩,⟨12,115792089237316195423570985008687907853269984665640564039457584007908834658815,[],[(5,.code)],0,2⟩,⟨13,4398046511104,[],[],0,2⟩],[⟨14,2199023255552,[],[],2,0⟩],[],[⟨16,8192,[],[],0,4⟩,⟨18,1024,[],[],0,4⟩,⟨19,4096,[],[],0,4⟩,⟨20,8192,[.crAlone],[],0,4⟩,⟨21,4294967808,[],[],0,4⟩,⟨22,115792089237316195423570985008687907853269984665640564039457584007908834658815,[],[(9,.comment)],0,4⟩,⟨23,42535295865117307932921825928971026432,[],[],4,0⟩],[⟨17,1024,[],[],0,4⟩],[⟨16,8192,[],[(7,.setEnt .internalNl),(8,.cb)],0,4⟩,⟨18,1024,[],[(7,.setEnt .internalNl),(8,.cb)],0,4⟩,⟨19,4096,[],[(7,.setEnt .internalNl),(8,.cb)],0,4⟩,⟨20,8192,[.crAlone],[(7,.setEnt .internalNl),(8,.cb)],0,4⟩,⟨21,4294967808,[],[(7,.setEnt .internalNl),(8,.cb)],0,4⟩,⟨22,115792089237316195423570985008687907853269984665640564039457584007908834658815,[],[(7,.setEnt .internalNl),(8,.cb),(9,.comment)],0,4⟩,⟨23,42535295865117307932921825928971026432,[],[(7,.setEnt .internalNl),(8,.cb)],4,0⟩],[⟨16,8192,[],[(7,.setEnt .internalNl),(8,.cb)],0,4⟩,⟨18,1024,[],[(7,.setEnt .internalNl),(8,.cb)],0,4⟩,⟨19,4096,[],[(7,.setEnt .internalNl),(8,.cb)],0,4⟩,⟨20,8192,[.crAlone],[(7,.setEnt .internalNl),(8,.cb)],0,4⟩,⟨21,4294967808,[],[(7,.setEnt .internalNl),(8,.cb)],0,4⟩,⟨22,115792089237316195423570985008687907853269984665640564039457584007908834658815,[],[(7,.setEnt .internalNl),(8,.cb),(9,.comment)],0,4⟩,⟨23,42535295865117307932921825928971026432,[],[(7,.setEnt .internalNl),(8,.cb)],4,0⟩],[⟨16,8192,[],[(7,.setEnt .internalNl),(8,.cb)],0,4⟩,⟨18,1024,[],[(7,.setEnt .internalNl),(8,.cb)],0,4⟩,⟨19,4096,[],[(7,.setEnt .internalNl),(8,.cb)],0,4⟩,⟨20,8192,[.crAlone],[(7,.setEnt .internalNl),(8,.cb)],0,4⟩,⟨21,4294967808,[],[(7,.setEnt .internalNl),(8,.cb)],0,4⟩,⟨22,115792089237316195423570985008687907853269984665640564039457584007908834658815,[],[(7,.setEnt .internalNl),(8,.cb),(9,.comment)],0,4⟩,⟨23,42535295865117307932921825928971026432,[],[(7,.setEnt .internalNl),(8,.cb)],4,0⟩],[⟨16,8192,[],[(7,.setEnt .internalNl),(8,.cb)],0,4⟩,⟨18,1024,[],[(7,.setEnt .internalNl),(8,.cb)],0,4⟩,⟨19,4096,[],[(7,.setEnt .internalNl),(8,.cb)],0,4⟩,⟨20,8192,[.crAlone],[(7,.setEnt .internalNl),(8,.cb)],0,4⟩,⟨21,4294967808,[],[(7,.setEnt .internalNl),(8,.cb)],0,4⟩,⟨22,115792089237316195423570985008687907853269984665640564039457584007908834658815,[],[(7,.setEnt .internalNl),(8,.cb),(9,.comment)],0,4⟩,⟨23,42535295865117307932921825928971026432,[],[(7,.setEnt .internalNl),(8,.cb)],4,0⟩],[⟨16,8192,[],[],0,4⟩,⟨18,1024,[],[],0,4⟩,⟨19,4096,[],[],0,4⟩,⟨20,8192,[.crAlone],[],0,4⟩,⟨21,4294967808,[],[],0,4⟩,⟨22,115792089237316195423570985008687907853269984665640564039457584007908834658815,[],[(9,.comment)],0,4⟩,⟨23,42535295865117307932921825928971026432,[],[],4,0⟩],[⟨16,8192,[],[],0,4⟩,⟨18,1024,[],[],0,4⟩,⟨19,4096,[],[],0,4⟩,⟨20,8192,[.crAlone],[],0,4⟩,⟨21,4294967808,[],[],0,4⟩,⟨22,115792089237316195423570985008687907853269984665640564039457584007908834658815,[],[(9,.comment)],0,4⟩,⟨23,42535295865117307932921825928971026432,[],[],4,0⟩],[],[⟨25,8192,[],[],0,0⟩,⟨27,1024,[],[],0,0⟩,⟨28,4096,[],[],0,0⟩,⟨29,8192,[.crAlone],[],0,0⟩,⟨30,4294967808,[],[],0,0⟩,⟨31,115792089237316195423570985008687907853269984665635612279300442486259482348031,[],[(13,.code)],0,0⟩,⟨32,4951760157141521099596496896,[],[],0,0⟩,⟨34,549755813888,[],[],0,0⟩],[⟨26,1024,[],[],0,0⟩],[⟨25,8192,[],[(11,.setEnt .internalNl),(12,.cb)],0,0⟩,⟨27,1024,[],[(11,.setEnt .internalNl),(12,.cb)],0,0⟩,⟨28,4096,[],[(11,.setEnt .internalNl),(12,.cb)],0,0⟩,⟨29,8192,[.crAlone],[(11,.setEnt .internalNl),(12,.cb)],0,0⟩,⟨30,4294967808,[],[(11,.setEnt .internalNl),(12,.cb)],0,0⟩,⟨31,115792089237316195423570985008687907853269984665635612279300442486259482348031,[],[(11,.setEnt .internalNl),(12,.cb),(13,.code)],0,0⟩,⟨32,4951760157141521099596496896,[],[(11,.setEnt .internalNl),(12,.cb)],0,0⟩,⟨34,549755813888,[],[(11,.setEnt .internalNl),(12,.cb)],0,0⟩],[⟨25,8192,[],[(11,.setEnt .internalNl),(12,.cb)],0,0⟩,⟨27,1024,[],[(11,.setEnt .internalNl),(12,.cb)],0,0⟩,⟨28,4096,[],[(11,.setEnt .internalNl),(12,.cb)],0,0⟩,⟨29,8192,[.crAlone],[(11,.setEnt .internalNl),(12,.cb)],0,0⟩,⟨30,4294967808,[],[(11,.setEnt .internalNl),(12,.cb)],0,0⟩,⟨31,115792089237316195423570985008687907853269984665635612279300442486259482348031,[],[(11,.setEnt .internalNl),(12,.cb),(13,.code)],0,0⟩,⟨32,4951760157141521099596496896,[],[(11,.setEnt .internalNl),(12,.cb)],0,0⟩,⟨34,549755813888,[],[(11,.setEnt .internalNl),(12,.cb)],0,0⟩],[⟨25,8192,[],[(11,.setEnt .internalNl),(12,.cb)],0,0⟩,⟨27,1024,[],[(11,.setEnt .internalNl),(12,.cb)],0,0⟩,⟨28,4096,[],[(11,.setEnt .internalNl),(12,.cb)],0,0⟩,⟨29,8192,[.crAlone],[(11,.setEnt .internalNl),(12,.cb)],0,0⟩,⟨30,4294967808,[],[(11,.setEnt .internalNl),(12,.cb)],0,0⟩,⟨31,115792089237316195423570985008687907853269984665635612279300442486259482348031,[],[(11,.setEnt .internalNl),(12,.cb),(13,.code)],0,0⟩,⟨32,4951760157141521099596496896,[],[(11,.setEnt .internalNl),(12,.cb)],0,0⟩,⟨34,549755813888,[],[(11,.setEnt .internalNl),(12,.cb)],0,0⟩],[⟨25,8192,[],[(11,.setEnt .internalNl),(12,.cb)],0,0⟩,⟨27,1024,[],[(11,.setEnt .internalNl),(12,.cb)],0,0⟩,⟨28,4096,[],[(11,.setEnt .internalNl),(12,.cb)],0,0⟩,⟨29,8192,[.crAlone],[(11,.setEnt .internalNl),(12,.cb)],0,0⟩,⟨30,4294967808,[],[(11,.setEnt .internalNl),(12,.cb)],0,0⟩,⟨31,115792089237316195423570985008687907853269984665635612279300442486259482348031,[],[(11,.setEnt .internalNl),(12,.cb),(13,.code)],0,0⟩,⟨32,4951760157141521099596496896,[],[(11,.setEnt .internalNl),(12,.cb)],0,0⟩,⟨34,549755813888,[],[(11,.setEnt .internalNl),(12,.cb)],0,0⟩],[⟨25,8192,[],[],0,0⟩,⟨27,1024,[],[],0,0⟩,⟨28,4096,[],[],0,0⟩,⟨29,8192,[.crAlone],[],0,0⟩,⟨30,4294967808,[],[],0,0⟩,⟨31,115792089237316195423570985008687907853269984665635612279300442486259482348031,[],[(13,.code)],0,0⟩,⟨32,4951760157141521099596496896,[],[],0,0⟩,⟨34,549755813888,[],[],0,0⟩],[⟨25,8192,[],[],0,0⟩,⟨27,1024,[],[],0,0⟩,⟨28,4096,[],[],0,0⟩,⟨29,8192,[.crAlone],[],0,0⟩,⟨30,4294967808,[],[],0,0⟩,⟨31,115792089237316195423570985008687907853269984665635612279300442486259482348031,[],[(13,.code)],0,0⟩,⟨32,4951760157141521099596496896,[],[],0,0⟩,⟨34,549755813888,[],[],0,0⟩],[⟨33,115792089237316195423570985008687907853269984665640564039457584007913129626623,[],[(14,.code)],0,0⟩],[⟨25,8192,[],[],0,0⟩,⟨27,1024,[],[],0,0⟩,⟨28,4096,[],[],0,0⟩,⟨29,8192,[.crAlone],[],0,0⟩,⟨30,4294967808,[],[],0,0⟩,⟨31,115792089237316195423570985008687907853269984665635612279300442486259482348031,[],[(13,.code)],0,0⟩,⟨32,4951760157141521099596496896,[],[],0,0⟩,⟨34,549755813888,[],[],0,0⟩],[],[⟨36,1024,[],[(15,.setEnt .newline)],0,0⟩],[],[],[],[],[]],[some (0,[]),none,some (1,[]),some (1,[]),none,none,none,none,none,none,none,none,none,none,some (1,[]),none,none,none,none,none,none,none,none,some (1,[]),none,none,none,none,none,none,none,none,none,none,some (2,[]),none,some (3,[]),some (3,[]),some (3,[]),some (3,[]),some (4,[])],[1,10,15,16,17]⟩
theorem pascal_line_nfa_eq : Pascal.pascal_line.nfa = pascal_line_nfa := by decide +kernel
/-- The machine of `Pascal.pascal_line`, with its automaton as a literal. -/
def pascal_line_M : Machine := ⟨pascal_line_nfa, Pascal.pascal_line.ends, Pascal.pascal_line.sw⟩
theorem pascal_line_M_eq : Pascal.pascal_line.machine = pascal_line_M := by
  unfold Scanner.machine pascal_line_M; rw [pascal_line_nfa_eq]
def pascal_line_masks : List Nat := [4294967808,140737488355328,1099511627776,10633823966279326983230456482242756608,549755813888,8192,1024,4096,115792089237316195423570985008687907853269984665640564039457584007908834656767,115792089237316195423570985008687907853269984665640564039457584007913129626623,4398046511104,115792089237316195423570985008687907853269984665640564039457584007908834658815,2199023255552,42535295865117307932921825928971026432,115792089237316195423570985008687907853269984665635612279300442486259482348031,4951760157141521099596496896]
def pascal_line_cs : List (Nat × Nat) := [(0,115792089237316195423570985008687907853216815545804215644384290055414198813183),(9,4294967808),(10,1024),(11,2048),(12,4096),(13,8192),(39,549755813888),(40,1099511627776),(41,2199023255552),(42,4398046511104),(47,140737488355328),(92,4951760157141521099596496896),(123,10633823966279326983230456482242756608),(125,42535295865117307932921825928971026432)]
theorem pascal_line_masksIn : masksIn pascal_line_nfa pascal_line_masks = true := by decide +kernel
theorem pascal_line_repOk : repOk pascal_line_masks pascal_line_cs = true := by decide +kernel
def pascal_line_rows : List Row := [⟨[],none,[],[⟨256,.other,false,some ⟨0,[.setEnt (.own 3)],some 4,true⟩⟩,⟨256,.ws,false,some ⟨1,[.setEnt (.own 0)],some 0,false⟩⟩,⟨256,.lf,false,some ⟨0,[.setEnt .newline],some 3,true⟩⟩,⟨256,.vt,false,none⟩,⟨256,.ff,false,some ⟨0,[.setEnt .newline],some 3,true⟩⟩,⟨256,.cr,false,some ⟨2,[.setEnt .newline],none,false⟩⟩,⟨256,.cr,true,some ⟨3,[.setEnt .newline],some 3,false⟩⟩,⟨256,.other,false,some ⟨4,[.code,.setEnt (.own 3)],some 4,false⟩⟩,⟨256,.other,false,some ⟨5,[.setEnt (.own 3)],some 4,false⟩⟩,⟨256,.other,false,some ⟨6,[.setEnt (.own 3)],some 4,false⟩⟩,⟨256,.other,false,some ⟨7,[.comment,.setEnt (.own 3)],some 4,false⟩⟩]⟩,⟨[0],some 0,[],[⟨256,.other,false,none⟩,⟨256,.ws,false,some ⟨1,[.setEnt (.own 0)],some 0,false⟩⟩,⟨256,.lf,false,none⟩,⟨256,.vt,false,none⟩,⟨256,.ff,false,none⟩,⟨256,.cr,false,none⟩,⟨256,.cr,true,none⟩]⟩,⟨[35],none,[],[⟨256,.other,false,none⟩,⟨256,.ws,false,none⟩,⟨256,.lf,false,some ⟨0,[.setEnt .newline],some 3,true⟩⟩,⟨256,.vt,false,none⟩,⟨256,.ff,false,none⟩,⟨256,.cr,false,none⟩,⟨256,.cr,true,none⟩]⟩,⟨[35,39],some 3,[],[⟨256,.other,false,none⟩,⟨256,.ws,false,none⟩,⟨256,.lf,false,some ⟨0,[.setEnt .newline],some 3,true⟩⟩,⟨256,.vt,false,none⟩,⟨256,.ff,false,none⟩,⟨256,.cr,false,none⟩,⟨256,.cr,true,none⟩]⟩,⟨[24,40],some 4,[],[⟨256,.other,false,some ⟨8,[.code],none,false⟩⟩,⟨256,.ws,false,some ⟨9,[],none,false⟩⟩,⟨256,.lf,false,some ⟨10,[],none,false⟩⟩,⟨256,.vt,false,some ⟨8,[.code],none,false⟩⟩,⟨256,.ff,false,some ⟨11,[],none,false⟩⟩,⟨256,.cr,false,some ⟨12,[],none,false⟩⟩,⟨256,.cr,true,some ⟨13,[],none,false⟩⟩,⟨256,.other,false,some ⟨0,[],some 2,true⟩⟩,⟨256,.other,false,some ⟨14,[],none,false⟩⟩]⟩,⟨[4,40],some 4,[],[⟨256,.other,false,none⟩,⟨256,.ws,false,none⟩,⟨256,.lf,false,none⟩,⟨256,.vt,false,none⟩,⟨256,.ff,false,none⟩,⟨256,.cr,false,none⟩,⟨256,.cr,true,none⟩,⟨256,.other,false,some ⟨15,[.comment],none,false⟩⟩]⟩,⟨[1,40],some 4,[],[⟨256,.other,false,none⟩,⟨256,.ws,false,none⟩,⟨256,.lf,false,none⟩,⟨256,.vt,false,none⟩,⟨256,.ff,false,none⟩,⟨256,.cr,false,none⟩,⟨256,.cr,true,none⟩,⟨256,.other,false,some ⟨16,[.comment],some 1,false⟩⟩]⟩,⟨[15,40],some 4,[],[⟨256,.other,false,some ⟨17,[.comment],none,false⟩⟩,⟨256,.ws,false,some ⟨18,[],none,false⟩⟩,⟨256,.lf,false,some ⟨19,[],none,false⟩⟩,⟨256,.vt,false,some ⟨17,[.comment],none,false⟩⟩,⟨256,.ff,false,some ⟨20,[],none,false⟩⟩,⟨256,.cr,false,some ⟨21,[],none,false⟩⟩,⟨256,.cr,true,some ⟨22,[],none,false⟩⟩,⟨256,.other,false,some ⟨0,[],some 1,true⟩⟩]⟩,⟨[31],none,[],[⟨256,.other,false,some ⟨8,[.code],none,false⟩⟩,⟨256,.ws,false,some ⟨9,[],none,false⟩⟩,⟨256,.lf,false,some ⟨10,[],none,false⟩⟩,⟨256,.vt,false,some ⟨8,[.code],none,false⟩⟩,⟨256,.ff,false,some ⟨11,[],none,false⟩⟩,⟨256,.cr,false,some ⟨12,[],none,false⟩⟩,⟨256,.cr,true,some ⟨13,[],none,false⟩⟩,⟨256,.other,false,some ⟨0,[],some 2,true⟩⟩,⟨256,.other,false,some ⟨14,[],none,false⟩⟩]⟩,⟨[30],none,[],[⟨256,.other,false,some ⟨8,[.code],none,false⟩⟩,⟨256,.ws,false,some ⟨9,[],none,false⟩⟩,⟨256,.lf,false,some ⟨10,[],none,false⟩⟩,⟨256,.vt,false,some ⟨8,[.code],none,false⟩⟩,⟨256,.ff,false,some ⟨11,[],none,false⟩⟩,⟨256,.cr,false,some ⟨12,[],none,false⟩⟩,⟨256,.cr,true,some ⟨13,[],none,false⟩⟩,⟨256,.other,false,some ⟨0,[],some 2,true⟩⟩,⟨256,.other,false,some ⟨14,[],none,false⟩⟩]⟩,⟨[27],none,[],[⟨256,.other,false,some ⟨8,[.setEnt .internalNl,.cb,.code],none,false⟩⟩,⟨256,.ws,false,some ⟨9,[.setEnt .internalNl,.cb],none,false⟩⟩,⟨256,.lf,false,some ⟨10,[.setEnt .internalNl,.cb],none,false⟩⟩,⟨256,.vt,false,some ⟨8,[.setEnt .internalNl,.cb,.code],none,false⟩⟩,⟨256,.ff,false,some ⟨11,[.setEnt .internalNl,.cb],none,false⟩⟩,⟨256,.cr,false,some ⟨12,[.setEnt .internalNl,.cb],none,false⟩⟩,⟨256,.cr,true,some ⟨13,[.setEnt .internalNl,.cb],none,false⟩⟩,⟨256,.other,false,some ⟨0,[.setEnt .internalNl,.cb],some 2,true⟩⟩,⟨256,.other,false,some ⟨14,[.setEnt .internalNl,.cb],none,false⟩⟩]⟩,⟨[28],none,[],[⟨256,.other,false,some ⟨8,[.setEnt .internalNl,.cb,.code],none,false⟩⟩,⟨256,.ws,false,some ⟨9,[.setEnt .internalNl,.cb],none,false⟩⟩,⟨256,.lf,false,some ⟨10,[.setEnt .internalNl,.cb],none,false⟩⟩,⟨256,.vt,false,some ⟨8,[.setEnt .internalNl,.cb,.code],none,false⟩⟩,⟨256,.ff,false,some ⟨11,[.setEnt .internalNl,.cb],none,false⟩⟩,⟨256,.cr,false,some ⟨12,[.setEnt .internalNl,.cb],none,false⟩⟩,⟨256,.cr,true,some ⟨13,[.setEnt .internalNl,.cb],none,false⟩⟩,⟨256,.other,false,some ⟨0,[.setEnt .internalNl,.cb],some 2,true⟩⟩,⟨256,.other,false,some ⟨14,[.setEnt .internalNl,.cb],none,false⟩⟩]⟩,⟨[25],none,[],[⟨256,.other,false,none⟩,⟨256,.ws,false,none⟩,⟨256,.lf,false,some ⟨23,[],none,false⟩⟩,⟨256,.vt,false,none⟩,⟨256,.ff,false,none⟩,⟨256,.cr,false,none⟩,⟨256,.cr,true,none⟩]⟩,⟨[25,29],none,[],[⟨256,.other,false,some ⟨8,[.setEnt .internalNl,.cb,.code],none,false⟩⟩,⟨256,.ws,false,some ⟨9,[.setEnt .internalNl,.cb],none,false⟩⟩,⟨256,.lf,false,some ⟨24,[.setEnt .internalNl,.cb],none,false⟩⟩,⟨256,.vt,false,some ⟨8,[.setEnt .internalNl,.cb,.code],none,false⟩⟩,⟨256,.ff,false,some ⟨11,[.setEnt .internalNl,.cb],none,false⟩⟩,⟨256,.cr,false,some ⟨12,[.setEnt .internalNl,.cb],none,false⟩⟩,⟨256,.cr,true,some ⟨13,[.setEnt .internalNl,.cb],none,false⟩⟩,⟨256,.other,false,some ⟨0,[.setEnt .internalNl,.cb],some 2,true⟩⟩,⟨256,.other,false,some ⟨14,[.setEnt .internalNl,.cb],none,false⟩⟩]⟩,⟨[32],none,[],[⟨256,.other,false,some ⟨25,[.code],none,false⟩⟩,⟨256,.ws,false,some ⟨25,[.code],none,false⟩⟩,⟨256,.lf,false,none⟩,⟨256,.vt,false,some ⟨25,[.code],none,false⟩⟩,⟨256,.ff,false,none⟩,⟨256,.cr,false,none⟩,⟨256,.cr,true,none⟩]⟩,⟨[5],none,[],[⟨256,.other,false,some ⟨26,[.code],none,false⟩⟩,⟨256,.ws,false,some ⟨27,[],none,false⟩⟩,⟨256,.lf,false,some ⟨28,[],none,false⟩⟩,⟨256,.vt,false,some ⟨26,[.code],none,false⟩⟩,⟨256,.ff,false,some ⟨29,[],none,false⟩⟩,⟨256,.cr,false,some ⟨30,[],none,false⟩⟩,⟨256,.cr,true,some ⟨31,[],none,false⟩⟩,⟨256,.other,false,some ⟨32,[.code],none,false⟩⟩]⟩,⟨[2],some 1,[],[⟨256,.other,false,some ⟨33,[],some 1,false⟩⟩,⟨256,.ws,false,some ⟨33,[],some 1,false⟩⟩,⟨256,.lf,false,none⟩,⟨256,.vt,false,some ⟨33,[],some 1,false⟩⟩,⟨256,.ff,false,none⟩,⟨256,.cr,false,none⟩,⟨256,.cr,true,none⟩]⟩,⟨[22],none,[],[⟨256,.other,false,some ⟨17,[.comment],none,false⟩⟩,⟨256,.ws,false,some ⟨18,[],none,false⟩⟩,⟨256,.lf,false,some ⟨19,[],none,false⟩⟩,⟨256,.vt,false,some ⟨17,[.comment],none,false⟩⟩,⟨256,.ff,false,some ⟨20,[],none,false⟩⟩,⟨256,.cr,false,some ⟨21,[],none,false⟩⟩,⟨256,.cr,true,some ⟨22,[],none,false⟩⟩,⟨256,.other,false,some ⟨0,[],some 1,true⟩⟩]⟩,⟨[21],none,[],[⟨256,.other,false,some ⟨17,[.comment],none,false⟩⟩,⟨256,.ws,false,some ⟨18,[],none,false⟩⟩,⟨256,.lf,false,some ⟨19,[],none,false⟩⟩,⟨256,.vt,false,some ⟨17,[.comment],none,false⟩⟩,⟨256,.ff,false,some ⟨20,[],none,false⟩⟩,⟨256,.cr,false,some ⟨21,[],none,false⟩⟩,⟨256,.cr,true,some ⟨22,[],none,false⟩⟩,⟨256,.other,false,some ⟨0,[],some 1,true⟩⟩]⟩,⟨[18],none,[],[⟨256,.other,false,some ⟨17,[.setEnt .internalNl,.cb,.comment],none,false⟩⟩,⟨256,.ws,false,some ⟨18,[.setEnt .internalNl,.cb],none,false⟩⟩,⟨256,.lf,false,some ⟨19,[.setEnt .internalNl,.cb],none,false⟩⟩,⟨256,.vt,false,some ⟨17,[.setEnt .internalNl,.cb,.comment],none,false⟩⟩,⟨256,.ff,false,some ⟨20,[.setEnt .internalNl,.cb],none,false⟩⟩,⟨256,.cr,false,some ⟨21,[.setEnt .internalNl,.cb],none,false⟩⟩,⟨256,.cr,true,some ⟨22,[.setEnt .internalNl,.cb],none,false⟩⟩,⟨256,.other,false,some ⟨0,[.setEnt .internalNl,.cb],some 1,true⟩⟩]⟩,⟨[19],none,[],[⟨256,.other,false,some ⟨17,[.setEnt .internalNl,.cb,.comment],none,false⟩⟩,⟨256,.ws,false,some ⟨18,[.setEnt .internalNl,.cb],none,false⟩⟩,⟨256,.lf,false,some ⟨19,[.setEnt .internalNl,.cb],none,false⟩⟩,⟨256,.vt,false,some ⟨17,[.setEnt .internalNl,.cb,.comment],none,false⟩⟩,⟨256,.ff,false,some ⟨20,[.setEnt .internalNl,.cb],none,false⟩⟩,⟨256,.cr,false,some ⟨21,[.setEnt .internalNl,.cb],none,false⟩⟩,⟨256,.cr,true,some ⟨22,[.setEnt .internalNl,.cb],none,false⟩⟩,⟨256,.other,false,some ⟨0,[.setEnt .internalNl,.cb],some 1,true⟩⟩]⟩,⟨[16],none,[],[⟨256,.other,false,none⟩,⟨256,.ws,false,none⟩,⟨256,.lf,false,some ⟨34,[],none,false⟩⟩,⟨256,.vt,false,none⟩,⟨256,.ff,false,none⟩,⟨256,.cr,false,none⟩,⟨256,.cr,true,none⟩]⟩,⟨[16,20],none,[],[⟨256,.other,false,some ⟨17,[.setEnt .internalNl,.cb,.comment],none,false⟩⟩,⟨256,.ws,false,some ⟨18,[.setEnt .internalNl,.cb],none,false⟩⟩,⟨256,.lf,false,some ⟨35,[.setEnt .internalNl,.cb],none,false⟩⟩,⟨256,.vt,false,some ⟨17,[.setEnt .internalNl,.cb,.comment],none,false⟩⟩,⟨256,.ff,false,some ⟨20,[.setEnt .internalNl,.cb],none,false⟩⟩,⟨256,.cr,false,some ⟨21,[.setEnt .internalNl,.cb],none,false⟩⟩,⟨256,.cr,true,some ⟨22,[.setEnt .internalNl,.cb],none,false⟩⟩,⟨256,.other,false,some ⟨0,[.setEnt .internalNl,.cb],some 1,true⟩⟩]⟩,⟨[26],none,[],[⟨256,.other,false,some ⟨8,[.setEnt .internalNl,.cb,.code],none,false⟩⟩,⟨256,.ws,false,some ⟨9,[.setEnt .internalNl,.cb],none,false⟩⟩,⟨256,.lf,false,some ⟨10,[.setEnt .internalNl,.cb],none,false⟩⟩,⟨256,.vt,false,some ⟨8,[.setEnt .internalNl,.cb,.code],none,false⟩⟩,⟨256,.ff,false,some ⟨11,[.setEnt .internalNl,.cb],none,false⟩⟩,⟨256,.cr,false,some ⟨12,[.setEnt .internalNl,.cb],none,false⟩⟩,⟨256,.cr,true,some ⟨13,[.setEnt .internalNl,.cb],none,false⟩⟩,⟨256,.other,false,some ⟨0,[.setEnt .internalNl,.cb],some 2,true⟩⟩,⟨256,.other,false,some ⟨14,[.setEnt .internalNl,.cb],none,false⟩⟩]⟩,⟨[26,27],none,[],[⟨256,.other,false,some ⟨8,[.setEnt .internalNl,.cb,.code],none,false⟩⟩,⟨256,.ws,false,some ⟨9,[.setEnt .internalNl,.cb],none,false⟩⟩,⟨256,.lf,false,some ⟨10,[.setEnt .internalNl,.cb],none,false⟩⟩,⟨256,.vt,false,some ⟨8,[.setEnt .internalNl,.cb,.code],none,false⟩⟩,⟨256,.ff,false,some ⟨11,[.setEnt .internalNl,.cb],none,false⟩⟩,⟨256,.cr,false,some ⟨12,[.setEnt .internalNl,.cb],none,false⟩⟩,⟨256,.cr,true,some ⟨13,[.setEnt .internalNl,.cb],none,false⟩⟩,⟨256,.other,false,some ⟨0,[.setEnt .internalNl,.cb],some 2,true⟩⟩,⟨256,.other,false,some ⟨14,[.setEnt .internalNl,.cb],none,false⟩⟩]⟩,⟨[33],none,[],[⟨256,.other,false,some ⟨8,[.code],none,false⟩⟩,⟨256,.ws,false,some ⟨9,[],none,false⟩⟩,⟨256,.lf,false,some ⟨10,[],none,false⟩⟩,⟨256,.vt,false,some ⟨8,[.code],none,false⟩⟩,⟨256,.ff,false,some ⟨11,[],none,false⟩⟩,⟨256,.cr,false,some ⟨12,[],none,false⟩⟩,⟨256,.cr,true,some ⟨13,[],none,false⟩⟩,⟨256,.other,false,some ⟨0,[],some 2,true⟩⟩,⟨256,.other,false,some ⟨14,[],none,false⟩⟩]⟩,⟨[12],none,[],[⟨256,.other,false,some ⟨26,[.code],none,false⟩⟩,⟨256,.ws,false,some ⟨27,[],none,false⟩⟩,⟨256,.lf,false,some ⟨28,[],none,false⟩⟩,⟨256,.vt,false,some ⟨26,[.code],none,false⟩⟩,⟨256,.ff,false,some ⟨29,[],none,false⟩⟩,⟨256,.cr,false,some ⟨30,[],none,false⟩⟩,⟨256,.cr,true,some ⟨31,[],none,false⟩⟩,⟨256,.other,false,some ⟨32,[.code],none,false⟩⟩]⟩,⟨[11],none,[],[⟨256,.other,false,some ⟨26,[.code],none,false⟩⟩,⟨256,.ws,false,some ⟨27,[],none,false⟩⟩,⟨256,.lf,false,some ⟨28,[],none,false⟩⟩,⟨256,.vt,false,some ⟨26,[.code],none,false⟩⟩,⟨256,.ff,false,some ⟨29,[],none,false⟩⟩,⟨256,.cr,false,some ⟨30,[],none,false⟩⟩,⟨256,.cr,true,some ⟨31,[],none,false⟩⟩,⟨256,.other,false,some ⟨32,[.code],none,false⟩⟩]⟩,⟨[8],none,[],[⟨256,.other,false,some ⟨26,[.setEnt .internalNl,.cb,.code],none,false⟩⟩,⟨256,.ws,false,some ⟨27,[.setEnt .internalNl,.cb],none,false⟩⟩,⟨256,.lf,false,some ⟨28,[.setEnt .internalNl,.cb],none,false⟩⟩,⟨256,.vt,false,some ⟨26,[.setEnt .internalNl,.cb,.code],none,false⟩⟩,⟨256,.ff,false,some ⟨29,[.setEnt .internalNl,.cb],none,false⟩⟩,⟨256,.cr,false,some ⟨30,[.setEnt .internalNl,.cb],none,false⟩⟩,⟨256,.cr,true,some ⟨31,[.setEnt .internalNl,.cb],none,false⟩⟩,⟨256,.other,false,some ⟨32,[.setEnt .internalNl,.cb,.code],none,false⟩⟩]⟩,⟨[9],none,[],[⟨256,.other,false,some ⟨26,[.setEnt .internalNl,.cb,.code],none,false⟩⟩,⟨256,.ws,false,some ⟨27,[.setEnt .internalNl,.cb],none,false⟩⟩,⟨256,.lf,false,some ⟨28,[.setEnt .internalNl,.cb],none,false⟩⟩,⟨256,.vt,false,some ⟨26,[.setEnt .internalNl,.cb,.code],none,false⟩⟩,⟨256,.ff,false,some ⟨29,[.setEnt .internalNl,.cb],none,false⟩⟩,⟨256,.cr,false,some ⟨30,[.setEnt .internalNl,.cb],none,false⟩⟩,⟨256,.cr,true,some ⟨31,[.setEnt .internalNl,.cb],none,false⟩⟩,⟨256,.other,false,some ⟨32,[.setEnt .internalNl,.cb,.code],none,false⟩⟩]⟩,⟨[6],none,[],[⟨256,.other,false,none⟩,⟨256,.ws,false,none⟩,⟨256,.lf,false,some ⟨36,[],none,false⟩⟩,⟨256,.vt,false,none⟩,⟨256,.ff,false,none⟩,⟨256,.cr,false,none⟩,⟨256,.cr,true,none⟩]⟩,⟨[6,10],none,[],[⟨256,.other,false,some ⟨26,[.setEnt .internalNl,.cb,.code],none,false⟩⟩,⟨256,.ws,false,some ⟨27,[.setEnt .internalNl,.cb],none,false⟩⟩,⟨256,.lf,false,some ⟨37,[.setEnt .internalNl,.cb],none,false⟩⟩,⟨256,.vt,false,some ⟨26,[.setEnt .internalNl,.cb,.code],none,false⟩⟩,⟨256,.ff,false,some ⟨29,[.setEnt .internalNl,.cb],none,false⟩⟩,⟨256,.cr,false,some ⟨30,[.setEnt .internalNl,.cb],none,false⟩⟩,⟨256,.cr,true,some ⟨31,[.setEnt .internalNl,.cb],none,false⟩⟩,⟨256,.other,false,some ⟨32,[.setEnt .internalNl,.cb,.code],none,false⟩⟩]⟩,⟨[12,13],none,[],[⟨256,.other,false,some ⟨26,[.code],none,false⟩⟩,⟨256,.ws,false,some ⟨27,[],none,false⟩⟩,⟨256,.lf,false,some ⟨28,[],none,false⟩⟩,⟨256,.vt,false,some ⟨26,[.code],none,false⟩⟩,⟨256,.ff,false,some ⟨29,[],none,false⟩⟩,⟨256,.cr,false,some ⟨30,[],none,false⟩⟩,⟨256,.cr,true,some ⟨31,[],none,false⟩⟩,⟨256,.other,false,some ⟨0,[],some 1,true⟩⟩,⟨256,.other,false,some ⟨32,[.code],none,false⟩⟩]⟩,⟨[3],some 1,[],[⟨256,.other,false,some ⟨33,[],some 1,false⟩⟩,⟨256,.ws,false,some ⟨33,[],some 1,false⟩⟩,⟨256,.lf,false,none⟩,⟨256,.vt,false,some ⟨33,[],some 1,false⟩⟩,⟨256,.ff,false,none⟩,⟨256,.cr,false,none⟩,⟨256,.cr,true,none⟩]⟩,⟨[17],none,[],[⟨256,.other,false,some ⟨17,[.setEnt .internalNl,.cb,.comment],none,false⟩⟩,⟨256,.ws,false,some ⟨18,[.setEnt .internalNl,.cb],none,false⟩⟩,⟨256,.lf,false,some ⟨19,[.setEnt .internalNl,.cb],none,false⟩⟩,⟨256,.vt,false,some ⟨17,[.setEnt .internalNl,.cb,.comment],none,false⟩⟩,⟨256,.ff,false,some ⟨20,[.setEnt .internalNl,.cb],none,false⟩⟩,⟨256,.cr,false,some ⟨21,[.setEnt .internalNl,.cb],none,false⟩⟩,⟨256,.cr,true,some ⟨22,[.setEnt .internalNl,.cb],none,false⟩⟩,⟨256,.other,false,some ⟨0,[.setEnt .internalNl,.cb],some 1,true⟩⟩]⟩,⟨[17,18],none,[],[⟨256,.other,false,some ⟨17,[.setEnt .internalNl,.cb,.comment],none,false⟩⟩,⟨256,.ws,false,some ⟨18,[.setEnt .internalNl,.cb],none,false⟩⟩,⟨256,.lf,false,some ⟨19,[.setEnt .internalNl,.cb],none,false⟩⟩,⟨256,.vt,false,some ⟨17,[.setEnt .internalNl,.cb,.comment],none,false⟩⟩,⟨256,.ff,false,some ⟨20,[.setEnt .internalNl,.cb],none,false⟩⟩,⟨256,.cr,false,some ⟨21,[.setEnt .internalNl,.cb],none,false⟩⟩,⟨256,.cr,true,some ⟨22,[.setEnt .internalNl,.cb],none,false⟩⟩,⟨256,.other,false,some ⟨0,[.setEnt .internalNl,.cb],some 1,true⟩⟩]⟩,⟨[7],none,[],[⟨256,.other,false,some ⟨26,[.setEnt .internalNl,.cb,.code],none,false⟩⟩,⟨256,.ws,false,some ⟨27,[.setEnt .internalNl,.cb],none,false⟩⟩,⟨256,.lf,false,some ⟨28,[.setEnt .internalNl,.cb],none,false⟩⟩,⟨256,.vt,false,some ⟨26,[.setEnt .internalNl,.cb,.code],none,false⟩⟩,⟨256,.ff,false,some ⟨29,[.setEnt .internalNl,.cb],none,false⟩⟩,⟨256,.cr,false,some ⟨30,[.setEnt .internalNl,.cb],none,false⟩⟩,⟨256,.cr,true,some ⟨31,[.setEnt .internalNl,.cb],none,false⟩⟩,⟨256,.other,false,some ⟨32,[.setEnt .internalNl,.cb,.code],none,false⟩⟩]⟩,⟨[7,8],none,[],[⟨256,.other,false,some ⟨26,[.setEnt .internalNl,.cb,.code],none,false⟩⟩,⟨256,.ws,false,some ⟨27,[.setEnt .internalNl,.cb],none,false⟩⟩,⟨256,.lf,false,some ⟨28,[.setEnt .internalNl,.cb],none,false⟩⟩,⟨256,.vt,false,some ⟨26,[.setEnt .internalNl,.cb,.code],none,false⟩⟩,⟨256,.ff,false,some ⟨29,[.setEnt .internalNl,.cb],none,false⟩⟩,⟨256,.cr,false,some ⟨30,[.setEnt .internalNl,.cb],none,false⟩⟩,⟨256,.cr,true,some ⟨31,[.setEnt .internalNl,.cb],none,false⟩⟩,⟨256,.other,false,some ⟨32,[.setEnt .internalNl,.cb,.code],none,false⟩⟩]⟩]
theorem pascal_line_rowsOk : rowsOk pascal_line_nfa [] (pascal_line_cs.map (·.1)) pascal_line_rows = true := by decide +kernel
def pascal_line_D : Dfa pascal_line_M.nfa := ⟨pascal_line_masks, [], pascal_line_cs, pascal_line_rows, pascal_line_masksIn, pascal_line_repOk, pascal_line_rowsOk⟩

def swift_line_nfa : Nfa := ⟨[⟨0,4294967808,[],[(0,.setEnt (.own 0))],0,0⟩,⟨1,140737488355328,[],[],0,0⟩,⟨11,140737488355328,[],[],0,2⟩,⟨22,8192,[],[(9,.setEnt .newline)],0,0⟩,⟨24,1024,[],[(9,.setEnt .newline)],0,0⟩,⟨25,4096,[],[(9,.setEnt .newline)],0,0⟩,⟨26,8192,[.crAlone],[(9,.setEnt .newline)],0,0⟩,⟨27,115792089237316195423570985008687907853269984665640564039457584007908834656767,[],[(10,.setEnt (.own 2))],0,0⟩],[[⟨0,4294967808,[],[(0,.setEnt (.own 0))],0,0⟩],[⟨2,140737488355328,[],[(1,.comment)],0,0⟩],[⟨3,4951760157141521099596496896,[],[],0,0⟩,⟨9,4294967808,[],[],0,0⟩,⟨10,115792089237316195423570985008687907853269984665640564039457584007908834658815,[],[(4,.comment)],0,0⟩],[⟨4,8192,[],[],0,0⟩,⟨6,1024,[],[],0,0⟩,⟨7,4096,[],[],0,0⟩,⟨8,8192,[.crAlone],[],0,0⟩],[⟨5,1024,[],[],0,0⟩],[⟨3,4951760157141521099596496896,[],[(2,.setEnt .internalNl),(3,.cb)],0,0⟩,⟨9,4294967808,[],[(2,.setEnt .internalNl),(3,.cb)],0,0⟩,⟨10,115792089237316195423570985008687907853269984665640564039457584007908834658815,[],[(2,.setEnt .internalNl),(3,.cb),(4,.comment)],0,0⟩],[⟨3,4951760157141521099596496896,[],[(2,.setEnt .internalNl),(3,.cb)],0,0⟩,⟨9,4294967808,[],[(2,.setEnt .internalNl),(3,.cb)],0,0⟩,⟨10,115792089237316195423570985008687907853269984665640564039457584007908834658815,[],[(2,.setEnt .internalNl),(3,.cb),(4,.comment)],0,0⟩],[⟨3,4951760157141521099596496896,[],[(2,.setEnt .internalNl),(3,.cb)],0,0⟩,⟨9,4294967808,[],[(2,.setEnt .internalNl),(3,.cb)],0,0⟩,⟨10,115792089237316195423570985008687907853269984665640564039457584007908834658815,[],[(2,.setEnt .internalNl),(3,.cb),(4,.comment)],0,0⟩],[⟨3,4951760157141521099596496896,[],[(2,.setEnt .internalNl),(3,.cb)],0,0⟩,⟨9,4294967808,[],[(2,.setEnt .internalNl),(3,.cb)],0,0⟩,⟨10,115792089237316195423570985008687907853269984665640564039457584007908834658815,[],[(2,.setEnt .internalNl),(3,.cb),(4,.comment)],0,0⟩],[⟨3,4951760157141521099596496896,[],[],0,0⟩,⟨9,4294967808,[],[],0,0⟩,⟨10,115792089237316195423570985008687907853269984665640564039457584007908834658815,[],[(4,.comment)],0,0⟩],[⟨3,4951760157141521099596496896,[],[],0,0⟩,⟨9,4294967808,[],[],0,0⟩,⟨10,115792089237316195423570985008687907853269984665640564039457584007908834658815,[],[(4,.comment)],0,0⟩],[⟨12,4398046511104,[],[(5,.comment)],0,2⟩],[⟨13,8192,[],[],0,2⟩,⟨15,1024,[],[],0,2⟩,⟨16,4096,[],[],0,2⟩,⟨17,8192,[.crAlone],[],0,2⟩,⟨18,4294967808,[],[],0,2⟩,⟨19,115792089237316195423570985008687907853269984665640564039457584007908834658815,[],[(8,.comment)],0,2⟩,⟨20,4398046511104,[],[],0,2⟩],[⟨14,1024,[],[],0,2⟩],[⟨13,8192,[],[(6,.setEnt .internalNl),(7,.cb)],0,2⟩,⟨15,1024,[],[(6,.setEnt .internalNl),(7,.cb)],0,2⟩,⟨16,4096,[],[(6,.setEnt .internalNl),(7,.cb)],0,2⟩,⟨17,8192,[.crAlone],[(6,.setEnt .internalNl),(7,.cb)],0,2⟩,⟨18,4294967808,[],[(6,.setEnt .internalNl),(7,.cb)],0,2⟩,⟨19,115792089237316195423570985008687907853269984665640564039457584007908834658815,[],[(6,.setEnt .internalNl),(7,.cb),(8,.comment)],0,2⟩,⟨20,4398046511104,[],[(6,.setEnt .internalNl),(7,.cb)],0,2⟩],[⟨13,8192,[],[(6,.setEnt .internalNl),(7,.cb)],0,2⟩,⟨15,1024,[],[(6,.setEnt .internalNl),(7,.cb)],0,2⟩,⟨16,4096,[],[(6,.setEnt .internalNl),(7,.cb)],0,2⟩,⟨17,8192,[.crAlone],[(6,.setEnt .internalNl),(7,.cb)],0,2⟩,⟨18,4294967808,[],[(6,.setEnt .internalNl),(7,.cb)],0,2⟩,⟨19,115792089237316195423570985008687907853269984665640564039457584007908834658815,[],[(6,.setEnt .internalNl),(7,.cb),(8,.comment)],0,2⟩,⟨20,4398046511104,[],[(6,.setEnt .internalNl),(7,.cb)],0,2⟩],[⟨13,8192,[],[(6,.setEnt .internalNl),(7,.cb)],0,2⟩,⟨15,1024,[],[(6,.setEnt .internalNl),(7,.cb)],0,2⟩,⟨16,4096,[],[(6,.setEnt .internalNl),(7,.cb)],0,2⟩,⟨17,8192,[.crAlone],[(6,.setEnt .internalNl),(7,.cb)],0,2⟩,⟨18,4294967808,[],[(6,.setEnt .internalNl),(7,.cb)],0,2⟩,⟨19,115792089237316195423570985008687907853269984665640564039457584007908834658815,[],[(6,.setEnt .internalNl),(7,.cb),(8,.comment)],0,2⟩,⟨20,4398046511104,[],[(6,.setEnt .internalNl),(7,.cb)],0,2⟩],[⟨13,8192,[],[(6,.setEnt .internalNl),(7,.cb)],0,2⟩,⟨15,1024,[],[(6,.setEnt .internalNl),(7,.cb)],0,2⟩,⟨16,4096,[],[(6,.setEnt .internalNl),(7,.cb)],0,2⟩,⟨17,8192,[.crAlone],[(6,.setEnt .internalNl),(7,.cb)],0,2⟩,⟨18,4294967808,[],[(6,.setEnt .internalNl),(7,.cb)],0,2⟩,⟨19,115792089237316195423570985008687907853269984665640564039457584007908834658815,[],[(6,.setEnt .internalNl),(7,.cb),(8,.comment)],0,2⟩,⟨20,4398046511104,[],[(6,.setEnt .internalNl),(7,.cb)],0,2⟩],[⟨13,8192,[],[],0,2⟩,⟨15,1024,[],[],0,2⟩,⟨16,4096,[],[],0,2⟩,⟨17,8192,[.crAlone],[],0,2⟩,⟨18,4294967808,[],[],0,2⟩,⟨19,115792089237316195423570985008687907853269984665640564039457584007908834658815,[],[(8,.comment)],0,2⟩,⟨20,4398046511104,[],[],0,2⟩],[⟨13,8192,[],[],0,2⟩,⟨15,1024,[],[],0,2⟩,⟨16,4096,[],[],0,2⟩,⟨17,8192,[.crAlone],[],0,2⟩,⟨18,4294967808,[],[],0,2⟩,⟨19,115792089237316195423570985008687907853269984665640564039457584007908834658815,[],[(8,.comment)],0,2⟩,⟨20,4398046511104,[],[],0,2⟩],[⟨21,140737488355328,[],[],2,0⟩],[],[⟨23,1024,[],[(9,.setEnt .newline)],0,0⟩],[],[],[],[],[]],[some (0,[]),none,some (1,[]),none,none,some (1,[(2,.setEnt .internalNl),(3,.cb)]),some (1,[(2,.setEnt .internalNl),(3,.cb)]),some (1,[(2,.setEnt .internalNl),(3,.cb)]),some (1,[(2,.setEnt .internalNl),(3,.cb)]),some (1,[]),some (1,[]),none,none,none,none,none,none,none,none,none,none,some (1,[]),none,some (2,[]),some (2,[]),some (2,[]),some (2,[]),some (3,[])],[1,9,10,11]⟩
theorem swift_line_nfa_eq : Swift.swift_line.nfa = swift_line_nfa := by decide +kernel
/-- The machine of `Swift.swift_line`, with its automaton as a literal. -/
def swift_line_M : Machine := ⟨swift_line_nfa, Swift.swift_line.ends, Swift.swift_line.sw⟩
theorem swift_line_M_eq : Swift.swift_line.machine = swift_line_M := by
  unfold Scanner.machine swift_line_M; rw [swift_line_nfa_eq]
def swift_line_masks : List Nat := [4294967808,140737488355328,8192,1024,4096,115792089237316195423570985008687907853269984665640564039457584007908834656767,4951760157141521099596496896,115792089237316195423570985008687907853269984665640564039457584007908834658815,4398046511104]
def swift_line_cs : List (Nat × Nat) := [(0,115792089237316195423570985008687907853269984665635612279300442341673703293439),(9,4294967808),(10,1024),(11,2048),(12,4096),(13,8192),(42,4398046511104),(47,140737488355328),(92,4951760157141521099596496896)]
theorem swift_line_masksIn : masksIn swift_line_nfa swift_line_masks = true := by decide +kernel
theorem swift_line_repOk : repOk swift_line_masks swift_line_cs = true := by decide +kernel
def swift_line_rows : List Row := [⟨[],none,[],[⟨256,.other,false,some ⟨0,[.setEnt (.own 2)],some 3,true⟩⟩,⟨256,.ws,false,some ⟨1,[.setEnt (.own 0)],some 0,false⟩⟩,⟨256,.lf,false,some ⟨0,[.setEnt .newline],some 2,true⟩⟩,⟨256,.vt,false,none⟩,⟨256,.ff,false,some ⟨0,[.setEnt .newline],some 2,true⟩⟩,⟨256,.cr,false,some ⟨2,[.setEnt .newline],none,false⟩⟩,⟨256,.cr,true,some ⟨3,[.setEnt .newline],some 2,false⟩⟩,⟨256,.other,false,some ⟨4,[.setEnt (.own 2)],some 3,false⟩⟩]⟩,⟨[0],some 0,[],[⟨256,.other,false,none⟩,⟨256,.ws,false,some ⟨1,[.setEnt (.own 0)],some 0,false⟩⟩,⟨256,.lf,false,none⟩,⟨256,.vt,false,none⟩,⟨256,.ff,false,none⟩,⟨256,.cr,false,none⟩,⟨256,.cr,true,none⟩]⟩,⟨[22],none,[],[⟨256,.other,false,none⟩,⟨256,.ws,false,none⟩,⟨256,.lf,false,some ⟨0,[.setEnt .newline],some 2,true⟩⟩,⟨256,.vt,false,none⟩,⟨256,.ff,false,none⟩,⟨256,.cr,false,none⟩,⟨256,.cr,true,none⟩]⟩,⟨[22,26],some 2,[],[⟨256,.other,false,none⟩,⟨256,.ws,false,none⟩,⟨256,.lf,false,some ⟨0,[.setEnt .newline],some 2,true⟩⟩,⟨256,.vt,false,none⟩,⟨256,.ff,false,none⟩,⟨256,.cr,false,none⟩,⟨256,.cr,true,none⟩]⟩,⟨[1,11,27],some 3,[],[⟨256,.other,false,none⟩,⟨256,.ws,false,none⟩,⟨256,.lf,false,none⟩,⟨256,.vt,false,none⟩,⟨256,.ff,false,none⟩,⟨256,.cr,false,none⟩,⟨256,.cr,true,none⟩,⟨256,.other,false,some ⟨5,[.comment],none,false⟩⟩,⟨256,.other,false,some ⟨6,[.comment],some 1,false⟩⟩]⟩,⟨[12],none,[],[⟨256,.other,false,some ⟨7,[.comment],none,false⟩⟩,⟨256,.ws,false,some ⟨8,[],none,false⟩⟩,⟨256,.lf,false,some ⟨9,[],none,false⟩⟩,⟨256,.vt,false,some ⟨7,[.comment],none,false⟩⟩,⟨256,.ff,false,some ⟨10,[],none,false⟩⟩,⟨256,.cr,false,some ⟨11,[],none,false⟩⟩,⟨256,.cr,true,some ⟨12,[],none,false⟩⟩,⟨256,.other,false,some ⟨13,[.comment],none,false⟩⟩]⟩,⟨[2],some 1,[],[⟨256,.other,false,some ⟨14,[.comment],some 1,false⟩⟩,⟨256,.ws,false,some ⟨15,[],some 1,false⟩⟩,⟨256,.lf,false,none⟩,⟨256,.vt,false,some ⟨14,[.comment],some 1,false⟩⟩,⟨256,.ff,false,none⟩,⟨256,.cr,false,none⟩,⟨256,.cr,true,none⟩,⟨256,.other,false,some ⟨16,[.comment],some 1,false⟩⟩]⟩,⟨[19],none,[],[⟨256,.other,false,some ⟨7,[.comment],none,false⟩⟩,⟨256,.ws,false,some ⟨8,[],none,false⟩⟩,⟨256,.lf,false,some ⟨9,[],none,false⟩⟩,⟨256,.vt,false,some ⟨7,[.comment],none,false⟩⟩,⟨256,.ff,false,some ⟨10,[],none,false⟩⟩,⟨256,.cr,false,some ⟨11,[],none,false⟩⟩,⟨256,.cr,true,some ⟨12,[],none,false⟩⟩,⟨256,.other,false,some ⟨13,[.comment],none,false⟩⟩]⟩,⟨[18],none,[],[⟨256,.other,false,some ⟨7,[.comment],none,false⟩⟩,⟨256,.ws,false,some ⟨8,[],none,false⟩⟩,⟨256,.lf,false,some ⟨9,[],none,false⟩⟩,⟨256,.vt,false,some ⟨7,[.comment],none,false⟩⟩,⟨256,.ff,false,some ⟨10,[],none,false⟩⟩,⟨256,.cr,false,some ⟨11,[],none,false⟩⟩,⟨256,.cr,true,some ⟨12,[],none,false⟩⟩,⟨256,.other,false,some ⟨13,[.comment],none,false⟩⟩]⟩,⟨[15],none,[],[⟨256,.other,false,some ⟨7,[.setEnt .internalNl,.cb,.comment],none,false⟩⟩,⟨256,.ws,false,some ⟨8,[.setEnt .internalNl,.cb],none,false⟩⟩,⟨256,.lf,false,some ⟨9,[.setEnt .internalNl,.cb],none,false⟩⟩,⟨256,.vt,false,some ⟨7,[.setEnt .internalNl,.cb,.comment],none,false⟩⟩,⟨256,.ff,false,some ⟨10,[.setEnt .internalNl,.cb],none,false⟩⟩,⟨256,.cr,false,some ⟨11,[.setEnt .internalNl,.cb],none,false⟩⟩,⟨256,.cr,true,some ⟨12,[.setEnt .internalNl,.cb],none,false⟩⟩,⟨256,.other,false,some ⟨13,[.setEnt .internalNl,.cb,.comment],none,false⟩⟩]⟩,⟨[16],none,[],[⟨256,.other,false,some ⟨7,[.setEnt .internalNl,.cb,.comment],none,false⟩⟩,⟨256,.ws,false,some ⟨8,[.setEnt .internalNl,.cb],none,false⟩⟩,⟨256,.lf,false,some ⟨9,[.setEnt .internalNl,.cb],none,false⟩⟩,⟨256,.vt,false,some ⟨7,[.setEnt .internalNl,.cb,.comment],none,false⟩⟩,⟨256,.ff,false,some ⟨10,[.setEnt .internalNl,.cb],none,false⟩⟩,⟨256,.cr,false,some ⟨11,[.setEnt .internalNl,.cb],none,false⟩⟩,⟨256,.cr,true,some ⟨12,[.setEnt .internalNl,.cb],none,false⟩⟩,⟨256,.other,false,some ⟨13,[.setEnt .internalNl,.cb,.comment],none,false⟩⟩]⟩,⟨[13],none,[],[⟨256,.other,false,none⟩,⟨256,.ws,false,none⟩,⟨256,.lf,false,some ⟨17,[],none,false⟩⟩,⟨256,.vt,false,none⟩,⟨256,.ff,false,none⟩,⟨256,.cr,false,none⟩,⟨256,.cr,true,none⟩]⟩,⟨[13,17],none,[],[⟨256,.other,false,some ⟨7,[.setEnt .internalNl,.cb,.comment],none,false⟩⟩,⟨256,.ws,false,some ⟨8,[.setEnt .internalNl,.cb],none,false⟩⟩,⟨256,.lf,false,some ⟨18,[.setEnt .internalNl,.cb],none,false⟩⟩,⟨256,.vt,false,some ⟨7,[.setEnt .internalNl,.cb,.comment],none,false⟩⟩,⟨256,.ff,false,some ⟨10,[.setEnt .internalNl,.cb],none,false⟩⟩,⟨256,.cr,false,some ⟨11,[.setEnt .internalNl,.cb],none,false⟩⟩,⟨256,.cr,true,some ⟨12,[.setEnt .internalNl,.cb],none,false⟩⟩,⟨256,.other,false,some ⟨13,[.setEnt .internalNl,.cb,.comment],none,false⟩⟩]⟩,⟨[19,20],none,[],[⟨256,.other,false,some ⟨7,[.comment],none,false⟩⟩,⟨256,.ws,false,some ⟨8,[],none,false⟩⟩,⟨256,.lf,false,some ⟨9,[],none,false⟩⟩,⟨256,.vt,false,some ⟨7,[.comment],none,false⟩⟩,⟨256,.ff,false,some ⟨10,[],none,false⟩⟩,⟨256,.cr,false,some ⟨11,[],none,false⟩⟩,⟨256,.cr,true,some ⟨12,[],none,false⟩⟩,⟨256,.other,false,some ⟨13,[.comment],none,false⟩⟩,⟨256,.other,false,some ⟨0,[],some 1,true⟩⟩]⟩,⟨[10],some 1,[],[⟨256,.other,false,some ⟨14,[.comment],some 1,false⟩⟩,⟨256,.ws,false,some ⟨15,[],some 1,false⟩⟩,⟨256,.lf,false,none⟩,⟨256,.vt,false,some ⟨14,[.comment],some 1,false⟩⟩,⟨256,.ff,false,none⟩,⟨256,.cr,false,none⟩,⟨256,.cr,true,none⟩,⟨256,.other,false,some ⟨16,[.comment],some 1,false⟩⟩]⟩,⟨[9],some 1,[],[⟨256,.other,false,some ⟨14,[.comment],some 1,false⟩⟩,⟨256,.ws,false,some ⟨15,[],some 1,false⟩⟩,⟨256,.lf,false,none⟩,⟨256,.vt,false,some ⟨14,[.comment],some 1,false⟩⟩,⟨256,.ff,false,none⟩,⟨256,.cr,false,none⟩,⟨256,.cr,true,none⟩,⟨256,.other,false,some ⟨16,[.comment],some 1,false⟩⟩]⟩,⟨[3,10],some 1,[],[⟨256,.other,false,some ⟨14,[.comment],some 1,false⟩⟩,⟨256,.ws,false,some ⟨15,[],some 1,false⟩⟩,⟨256,.lf,false,some ⟨19,[],some 1,false⟩⟩,⟨256,.vt,false,some ⟨14,[.comment],some 1,false⟩⟩,⟨256,.ff,false,some ⟨20,[],some 1,false⟩⟩,⟨256,.cr,false,some ⟨21,[],none,false⟩⟩,⟨256,.cr,true,some ⟨22,[],some 1,false⟩⟩,⟨256,.other,false,some ⟨16,[.comment],some 1,false⟩⟩]⟩,⟨[14],none,[],[⟨256,.other,false,some ⟨7,[.setEnt .internalNl,.cb,.comment],none,false⟩⟩,⟨256,.ws,false,some ⟨8,[.setEnt .internalNl,.cb],none,false⟩⟩,⟨256,.lf,false,some ⟨9,[.setEnt .internalNl,.cb],none,false⟩⟩,⟨256,.vt,false,some ⟨7,[.setEnt .internalNl,.cb,.comment],none,false⟩⟩,⟨256,.ff,false,some ⟨10,[.setEnt .internalNl,.cb],none,false⟩⟩,⟨256,.cr,false,some ⟨11,[.setEnt .internalNl,.cb],none,false⟩⟩,⟨256,.cr,true,some ⟨12,[.setEnt .internalNl,.cb],none,false⟩⟩,⟨256,.other,false,some ⟨13,[.setEnt .internalNl,.cb,.comment],none,false⟩⟩]⟩,⟨[14,15],none,[],[⟨256,.other,false,some ⟨7,[.setEnt .internalNl,.cb,.comment],none,false⟩⟩,⟨256,.ws,false,some ⟨8,[.setEnt .internalNl,.cb],none,false⟩⟩,⟨256,.lf,false,some ⟨9,[.setEnt .internalNl,.cb],none,false⟩⟩,⟨256,.vt,false,some ⟨7,[.setEnt .internalNl,.cb,.comment],none,false⟩⟩,⟨256,.ff,false,some ⟨10,[.setEnt .internalNl,.cb],none,false⟩⟩,⟨256,.cr,false,some ⟨11,[.setEnt .internalNl,.cb],none,false⟩⟩,⟨256,.cr,true,some ⟨12,[.setEnt .internalNl,.cb],none,false⟩⟩,⟨256,.other,false,some ⟨13,[.setEnt .internalNl,.cb,.comment],none,false⟩⟩]⟩,⟨[6],some 1,[.setEnt .internalNl,.cb],[⟨256,.other,false,some ⟨14,[.setEnt .internalNl,.cb,.comment],some 1,false⟩⟩,⟨256,.ws,false,some ⟨15,[.setEnt .internalNl,.cb],some 1,false⟩⟩,⟨256,.lf,false,none⟩,⟨256,.vt,false,some ⟨14,[.setEnt .internalNl,.cb,.comment],some 1,false⟩⟩,⟨256,.ff,false,none⟩,⟨256,.cr,false,none⟩,⟨256,.cr,true,none⟩,⟨256,.other,false,some ⟨16,[.setEnt .internalNl,.cb,.comment],some 1,false⟩⟩]⟩,⟨[7],some 1,[.setEnt .internalNl,.cb],[⟨256,.other,false,some ⟨14,[.setEnt .internalNl,.cb,.comment],some 1,false⟩⟩,⟨256,.ws,false,some ⟨15,[.setEnt .internalNl,.cb],some 1,false⟩⟩,⟨256,.lf,false,none⟩,⟨256,.vt,false,some ⟨14,[.setEnt .internalNl,.cb,.comment],some 1,false⟩⟩,⟨256,.ff,false,none⟩,⟨256,.cr,false,none⟩,⟨256,.cr,true,none⟩,⟨256,.other,false,some ⟨16,[.setEnt .internalNl,.cb,.comment],some 1,false⟩⟩]⟩,⟨[4],none,[],[⟨256,.other,false,none⟩,⟨256,.ws,false,none⟩,⟨256,.lf,false,some ⟨23,[],some 1,false⟩⟩,⟨256,.vt,false,none⟩,⟨256,.ff,false,none⟩,⟨256,.cr,false,none⟩,⟨256,.cr,true,none⟩]⟩,⟨[4,8],some 1,[.setEnt .internalNl,.cb],[⟨256,.other,false,some ⟨14,[.setEnt .internalNl,.cb,.comment],some 1,false⟩⟩,⟨256,.ws,false,some ⟨15,[.setEnt .internalNl,.cb],some 1,false⟩⟩,⟨256,.lf,false,some ⟨23,[],some 1,false⟩⟩,⟨256,.vt,false,some ⟨14,[.setEnt .internalNl,.cb,.comment],some 1,false⟩⟩,⟨256,.ff,false,none⟩,⟨256,.cr,false,none⟩,⟨256,.cr,true,none⟩,⟨256,.other,false,some ⟨16,[.setEnt .internalNl,.cb,.comment],some 1,false⟩⟩]⟩,⟨[5],some 1,[.setEnt .internalNl,.cb],[⟨256,.other,false,some ⟨14,[.setEnt .internalNl,.cb,.comment],some 1,false⟩⟩,⟨256,.ws,false,some ⟨15,[.setEnt .internalNl,.cb],some 1,false⟩⟩,⟨256,.lf,false,none⟩,⟨256,.vt,false,some ⟨14,[.setEnt .internalNl,.cb,.comment],some 1,false⟩⟩,⟨256,.ff,false,none⟩,⟨256,.cr,false,none⟩,⟨256,.cr,true,none⟩,⟨256,.other,false,some ⟨16,[.setEnt .internalNl,.cb,.comment],some 1,false⟩⟩]⟩]
theorem swift_line_rowsOk : rowsOk swift_line_nfa [] (swift_line_cs.map (·.1)) swift_line_rows = true := by decide +kernel
def swift_line_D : Dfa swift_line_M.nfa := ⟨swift_line_masks, [], swift_line_cs, swift_line_rows, swift_line_masksIn, swift_line_repOk, swift_line_rowsOk⟩

def tex_line_nfa : Nfa := ⟨[⟨0,4294967808,[],[(0,.setEnt (.own 0))],0,0⟩,⟨1,137438953472,[],[(1,.comment)],0,0⟩,⟨3,8192,[],[(2,.setEnt .newline)],0,0⟩,⟨5,1024,[],[(2,.setEnt .newline)],0,0⟩,⟨6,4096,[],[(2,.setEnt .newline)],0,0⟩,⟨7,8192,[.crAlone],[(2,.setEnt .newline)],0,0⟩,⟨8,115792089237316195423570985008687907853269984665640564039457584007908834656767,[],[(3,.setEnt (.own 3))],0,0⟩],[[⟨0,4294967808,[],[(0,.setEnt (.own 0))],0,0⟩],[⟨2,115792089237316195423570985008687907853269984665640564039457584007913129626623,[],[],0,0⟩],[⟨2,115792089237316195423570985008687907853269984665640564039457584007913129626623,[],[],0,0⟩],[⟨4,1024,[],[(2,.setEnt .newline)],0,0⟩],[],[],[],[],[]],[some (0,[]),some (1,[]),some (1,[]),none,some (2,[]),some (2,[]),some (2,[]),some (2,[]),some (3,[])],[1,2,3,4]⟩
theorem tex_line_nfa_eq : Tex.tex_line.nfa = tex_line_nfa := by decide +kernel
/-- The machine of `Tex.tex_line`, with its automaton as a literal. -/
def tex_line_M : Machine := ⟨tex_line_nfa, Tex.tex_line.ends, Tex.tex_line.sw⟩
theorem tex_line_M_eq : Tex.tex_line.machine = tex_line_M := by
  unfold Scanner.machine tex_line_M; rw [tex_line_nfa_eq]
def tex_line_masks : List Nat := [4294967808,137438953472,8192,1024,4096,115792089237316195423570985008687907853269984665640564039457584007908834656767,115792089237316195423570985008687907853269984665640564039457584007913129626623]
def tex_line_cs : List (Nat × Nat) := [(0,115792089237316195423570985008687907853269984665640564039457584007771395703295),(9,4294967808),(10,1024),(11,2048),(12,4096),(13,8192),(37,137438953472)]
theorem tex_line_masksIn : masksIn tex_line_nfa tex_line_masks = true := by decide +kernel
theorem tex_line_repOk : repOk tex_line_masks tex_line_cs = true := by decide +kernel
def tex_line_rows : List Row := [⟨[],none,[],[⟨256,.other,false,some ⟨0,[.setEnt (.own 3)],some 3,true⟩⟩,⟨256,.ws,false,some ⟨1,[.setEnt (.own 0)],some 0,false⟩⟩,⟨256,.lf,false,some ⟨0,[.setEnt .newline],some 2,true⟩⟩,⟨256,.vt,false,none⟩,⟨256,.ff,false,some ⟨0,[.setEnt .newline],some 2,true⟩⟩,⟨256,.cr,false,some ⟨2,[.setEnt .newline],none,false⟩⟩,⟨256,.cr,true,some ⟨3,[.setEnt .newline],some 2,false⟩⟩,⟨256,.other,false,some ⟨4,[.comment,.setEnt (.own 3)],some 1,false⟩⟩]⟩,⟨[0],some 0,[],[⟨256,.other,false,none⟩,⟨256,.ws,false,some ⟨1,[.setEnt (.own 0)],some 0,false⟩⟩,⟨256,.lf,false,none⟩,⟨256,.vt,false,none⟩,⟨256,.ff,false,none⟩,⟨256,.cr,false,none⟩,⟨256,.cr,true,none⟩]⟩,⟨[3],none,[],[⟨256,.other,false,none⟩,⟨256,.ws,false,none⟩,⟨256,.lf,false,some ⟨0,[.setEnt .newline],some 2,true⟩⟩,⟨256,.vt,false,none⟩,⟨256,.ff,false,none⟩,⟨256,.cr,false,none⟩,⟨256,.cr,true,none⟩]⟩,⟨[3,7],some 2,[],[⟨256,.other,false,none⟩,⟨256,.ws,false,none⟩,⟨256,.lf,false,some ⟨0,[.setEnt .newline],some 2,true⟩⟩,⟨256,.vt,false,none⟩,⟨256,.ff,false,none⟩,⟨256,.cr,false,none⟩,⟨256,.cr,true,none⟩]⟩,⟨[1,8],some 1,[],[⟨256,.other,false,some ⟨5,[],some 1,false⟩⟩,⟨256,.ws,false,some ⟨5,[],some 1,false⟩⟩,⟨256,.lf,false,none⟩,⟨256,.vt,false,some ⟨5,[],some 1,false⟩⟩,⟨256,.ff,false,none⟩,⟨256,.cr,false,none⟩,⟨256,.cr,true,none⟩]⟩,⟨[2],some 1,[],[⟨256,.other,false,some ⟨5,[],some 1,false⟩⟩,⟨256,.ws,false,some ⟨5,[],some 1,false⟩⟩,⟨256,.lf,false,none⟩,⟨256,.vt,false,some ⟨5,[],some 1,false⟩⟩,⟨256,.ff,false,none⟩,⟨256,.cr,false,none⟩,⟨256,.cr,true,none⟩]⟩]
theorem tex_line_rowsOk : rowsOk tex_line_nfa [] (tex_line_cs.map (·.1)) tex_line_rows = true := by decide +kernel
def tex_line_D : Dfa tex_line_M.nfa := ⟨tex_line_masks, [], tex_line_cs, tex_line_rows, tex_line_masksIn, tex_line_repOk, tex_line_rowsOk⟩

def xmlschema_line_nfa : Nfa := ⟨[⟨0,4294967808,[],[(0,.setEnt (.own 0))],0,0⟩,⟨1,1152921504606846976,[],[],0,2⟩,⟨15,549755813888,[],[],0,0⟩,⟨20,17179869184,[],[],0,0⟩,⟨25,1152921504606846976,[],[],0,4⟩,⟨44,8192,[],[(11,.setEnt .newline)],0,0⟩,⟨46,1024,[],[(11,.setEnt .newline)],0,0⟩,⟨47,4096,[],[(11,.setEnt .newline)],0,0⟩,⟨48,8192,[.crAlone],[(11,.setEnt .newline)],0,0⟩,⟨49,115792089237316195423570985008687907853269984665640564039457584007908834656767,[],[(12,.setEnt (.own 5))],0,0⟩],[[⟨0,4294967808,[],[(0,.setEnt (.own 0))],0,0⟩],[⟨2,8589934592,[],[],0,2⟩],[⟨3,35184372088832,[],[],0,2⟩],[⟨4,35184372088832,[],[(1,.comment)],0,2⟩],[⟨5,8192,[],[],0,2⟩,⟨7,1024,[],[],0,2⟩,⟨8,4096,[],[],0,2⟩,⟨9,8192,[.crAlone],[],0,2⟩,⟨10,4294967808,[],[],0,2⟩,⟨11,115792089237316195423570985008687907853269984665640564039457584007908834658815,[],[(4,.comment)],0,2⟩,⟨12,35184372088832,[],[],0,2⟩],[⟨6,1024,[],[],0,2⟩],[⟨5,8192,[],[(2,.setEnt .internalNl),(3,.cb)],0,2⟩,⟨7,1024,[],[(2,.setEnt .internalNl),(3,.cb)],0,2⟩,⟨8,4096,[],[(2,.setEnt .internalNl),(3,.cb)],0,2⟩,⟨9,8192,[.crAlone],[(2,.setEnt .internalNl),(3,.cb)],0,2⟩,⟨10,4294967808,[],[(2,.setEnt .internalNl),(3,.cb)],0,2⟩,⟨11,115792089237316195423570985008687907853269984665640564039457584007908834658815,[],[(2,.setEnt .internalNl),(3,.cb),(4,.comment)],0,2⟩,⟨12,35184372088832,[],[(2,.setEnt .internalNl),(3,.cb)],0,2⟩],[⟨5,8192,[],[(2,.setEnt .internalNl),(3,.cb)],0,2⟩,⟨7,1024,[],[(2,.setEnt .internalNl),(3,.cb)],0,2⟩,⟨8,4096,[],[(2,.setEnt .internalNl),(3,.cb)],0,2⟩,⟨9,8192,[.crAlone],[(2,.setEnt .internalNl),(3,.cb)],0,2⟩,⟨10,4294967808,[],[(2,.setEnt .internalNl),(3,.cb)],0,2⟩,⟨11,115792089237316195423570985008687907853269984665640564039457584007908834658815,[],[(2,.setEnt .internalNl),(3,.cb),(4,.comment)],0,2⟩,⟨12,35184372088832,[],[(2,.setEnt .internalNl),(3,.cb)],0,2⟩],[⟨5,8192,[],[(2,.setEnt .internalNl),(3,.cb)],0,2⟩,⟨7,1024,[],[(2,.setEnt .internalNl),(3,.cb)],0,2⟩,⟨8,4096,[],[(2,.setEnt .internalNl),(3,.cb)],0,2⟩,⟨9,8192,[.crAlone],[(2,.setEnt .internalNl),(3,.cb)],0,2⟩,⟨10,4294967808,[],[(2,.setEnt .internalNl),(3,.cb)],0,2⟩,⟨11,115792089237316195423570985008687907853269984665640564039457584007908834658815,[],[(2,.setEnt .internalNl),(3,.cb),(4,.comment)],0,2⟩,⟨12,35184372088832,[],[(2,.setEnt .internalNl),(3,.cb)],0,2⟩],[⟨5,8192,[],[(2,.setEnt .internalNl),(3,.cb)],0,2⟩,⟨7,1024,[],[(2,.setEnt .internalNl),(3,.cb)],0,2⟩,⟨8,4096,[],[(2,.setEnt .internalNl),(3,.cb)],0,2⟩,⟨9,8192,[.crAlone],[(2,.setEnt .internalNl),(3,.cb)],0,2⟩,⟨10,4294967808,[],[(2,.setEnt .internalNl),(3,.cb)],0,2⟩,⟨11,115792089237316195423570985008687907853269984665640564039457584007908834658815,[],[(2,.setEnt .internalNl),(3,.cb),(4,.comment)],0,2⟩,⟨12,35184372088832,[],[(2,.setEnt .internalNl),(3,.cb)],0,2⟩],[⟨5,8192,[],[],0,2⟩,⟨7,1024,[],[],0,2⟩,⟨8,4096,[],[],0,2⟩,⟨9,8192,[.crAlone],[],0,2⟩,⟨10,4294967808,[],[],0,2⟩,⟨11,115792089237316195423570985008687907853269984665640564039457584007908834658815,[],[(4,.comment)],0,2⟩,⟨12,35184372088832,[],[],0,2⟩],[⟨5,8192,[],[],0,2⟩,⟨7,1024,[],[],0,2⟩,⟨8,4096,[],[],0,2⟩,⟨9,8192,[.crAlone],[],0,2⟩,⟨10,4294967808,[],[],0,2⟩,⟨11,115792089237316195423570985008687907853269984665640564039457584007908834658815,[],[(4,.comment)],0,2⟩,⟨12,35184372088832,[],[],0,2⟩],[⟨13,35184372088832,[],[],0,0⟩],[⟨14,4611686018427387904,[],[],2,0⟩],[],[⟨16,115792089237316195423570985008687907853269984665635612279300442486263777315839,[],[],0,0⟩,⟨17,4951760157141521099596496896,[],[],0,0⟩,⟨19,549755813888,[],[(5,.code)],0,0⟩],[⟨16,115792089237316195423570985008687907853269984665635612279300442486263777315839,[],[],0,0⟩,⟨17,4951760157141521099596496896,[],[],0,0⟩,⟨19,549755813888,[],[(5,.code)],0,0⟩],[⟨18,115792089237316195423570985008687907853269984665640564039457584007913129626623,[],[],0,0⟩],[⟨16,115792089237316195423570985008687907853269984665635612279300442486263777315839,[],[],0,0⟩,⟨17,4951760157141521099596496896,[],[],0,0⟩,⟨19,549755813888,[],[(5,.code)],0,0⟩],[],[⟨21,115792089237316195423570985008687907853269984665635612279300442486796353260543,[],[],0,0⟩,⟨22,4951760157141521099596496896,[],[],0,0⟩,⟨24,17179869184,[],[(6,.code)],0,0⟩],[⟨21,115792089237316195423570985008687907853269984665635612279300442486796353260543,[],[],0,0⟩,⟨22,4951760157141521099596496896,[],[],0,0⟩,⟨24,17179869184,[],[(6,.code)],0,0⟩],[⟨23,115792089237316195423570985008687907853269984665640564039457584007913129626623,[],[],0,0⟩],[⟨21,115792089237316195423570985008687907853269984665635612279300442486796353260543,[],[],0,0⟩,⟨22,4951760157141521099596496896,[],[],0,0⟩,⟨24,17179869184,[],[(6,.code)],0,0⟩],[],[⟨26,8589934592,[],[],0,4⟩],[⟨27,2475880078570760549798248448,[],[],0,4⟩],[⟨28,147573952589676412928,[],[],0,4⟩],[⟨29,295147905179352825856,[],[],0,4⟩],[⟨30,36893488147419103232,[],[],0,4⟩],[⟨31,19342813113834066795298816,[],[],0,4⟩],[⟨32,36893488147419103232,[],[],0,4⟩],[⟨33,2475880078570760549798248448,[],[(7,.code)],0,4⟩],[⟨34,8192,[],[],0,4⟩,⟨36,1024,[],[],0,4⟩,⟨37,4096,[],[],0,4⟩,⟨38,8192,[.crAlone],[],0,4⟩,⟨39,4294967808,[],[],0,4⟩,⟨40,115792089237316195423570985008687907853269984665640564039457584007908834658815,[],[(10,.code)],0,4⟩,⟨41,9903520314283042199192993792,[],[],0,4⟩],[⟨35,1024,[],[],0,4⟩],[⟨34,8192,[],[(8,.setEnt .internalNl),(9,.cb)],0,4⟩,⟨36,1024,[],[(8,.setEnt .internalNl),(9,.cb)],0,4⟩,⟨37,4096,[],[(8,.setEnt .internalNl),(9,.cb)],0,4⟩,⟨38,8192,[.crAlone],[(8,.setEnt .internalNl),(9,.cb)],0,4⟩,⟨39,4294967808,[],[(8,.setEnt .internalNl),(9,.cb)],0,4⟩,⟨40,115792089237316195423570985008687907853269984665640564039457584007908834658815,[],[(8,.setEnt .internalNl),(9,.cb),(10,.code)],0,4⟩,⟨41,9903520314283042199192993792,[],[(8,.setEnt .internalNl),(9,.cb)],0,4⟩],[⟨34,8192,[],[(8,.setEnt .internalNl),(9,.cb)],0,4⟩,⟨36,1024,[],[(8,.setEnt .internalNl),(9,.cb)],0,4⟩,⟨37,4096,[],[(8,.setEnt .internalNl),(9,.cb)],0,4⟩,⟨38,8192,[.crAlone],[(8,.setEnt .internalNl),(9,.cb)],0,4⟩,⟨39,4294967808,[],[(8,.setEnt .internalNl),(9,.cb)],0,4⟩,⟨40,115792089237316195423570985008687907853269984665640564039457584007908834658815,[],[(8,.setEnt .internalNl),(9,.cb),(10,.code)],0,4⟩,⟨41,9903520314283042199192993792,[],[(8,.setEnt .internalNl),(9,.cb)],0,4⟩],[⟨34,8192,[],[(8,.setEnt .internalNl),(9,.cb)],0,4⟩,⟨36,1024,[],[(8,.setEnt .internalNl),(9,.cb)],0,4⟩,⟨37,4096,[],[(8,.setEnt .internalNl),(9,.cb)],0,4⟩,⟨38,8192,[.crAlone],[(8,.setEnt .internalNl),(9,.cb)],0,4⟩,⟨39,4294967808,[],[(8,.setEnt .internalNl),(9,.cb)],0,4⟩,⟨40,115792089237316195423570985008687907853269984665640564039457584007908834658815,[],[(8,.setEnt .internalNl),(9,.cb),(10,.code)],0,4⟩,⟨41,9903520314283042199192993792,[],[(8,.setEnt .internalNl),(9,.cb)],0,4⟩],[⟨34,8192,[],[(8,.setEnt .internalNl),(9,.cb)],0,4⟩,⟨36,1024,[],[(8,.setEnt .internalNl),(9,.cb)],0,4⟩,⟨37,4096,[],[(8,.setEnt .internalNl),(9,.cb)],0,4⟩,⟨38,8192,[.crAlone],[(8,.setEnt .internalNl),(9,.cb)],0,4⟩,⟨39,4294967808,[],[(8,.setEnt .internalNl),(9,.cb)],0,4⟩,⟨40,115792089237316195423570985008687907853269984665640564039457584007908834658815,[],[(8,.setEnt .internalNl),(9,.cb),(10,.code)],0,4⟩,⟨41,9903520314283042199192993792,[],[(8,.setEnt .internalNl),(9,.cb)],0,4⟩],[⟨34,8192,[],[],0,4⟩,⟨36,1024,[],[],0,4⟩,⟨37,4096,[],[],0,4⟩,⟨38,8192,[.crAlone],[],0,4⟩,⟨39,4294967808,[],[],0,4⟩,⟨40,115792089237316195423570985008687907853269984665640564039457584007908834658815,[],[(10,.code)],0,4⟩,⟨41,9903520314283042199192993792,[],[],0,4⟩],[⟨34,8192,[],[],0,4⟩,⟨36,1024,[],[],0,4⟩,⟨37,4096,[],[],0,4⟩,⟨38,8192,[.crAlone],[],0,4⟩,⟨39,4294967808,[],[],0,4⟩,⟨40,115792089237316195423570985008687907853269984665640564039457584007908834658815,[],[(10,.code)],0,4⟩,⟨41,9903520314283042199192993792,[],[],0,4⟩],[⟨42,9903520314283042199192993792,[],[],0,0⟩],[⟨43,4611686018427387904,[],[],4,0⟩],[],[⟨45,1024,[],[(11,.setEnt .newline)],0,0⟩],[],[],[],[],[]],[some (0,[]),none,none,none,none,none,none,none,none,none,none,none,none,none,some (1,[]),none,none,none,none,some (2,[]),none,none,none,none,some (2,[]),none,none,none,none,none,none,none,none,none,none,none,none,none,none,none,none,none,none,some (2,[]),none,some (3,[]),some (3,[]),some (3,[]),some (3,[]),some (4,[])],[1,5,11,12,13]⟩
theorem xmlschema_line_nfa_eq : Xmlschema.xmlschema_line.nfa = xmlschema_line_nfa := by decide +kernel
/-- The machine of `Xmlschema.xmlschema_line`, with its automaton as a literal. -/
def xmlschema_line_M : Machine := ⟨xmlschema_line_nfa, Xmlschema.xmlschema_line.ends, Xmlschema.xmlschema_line.sw⟩
theorem xmlschema_line_M_eq : Xmlschema.xmlschema_line.machine = xmlschema_line_M := by
  unfold Scanner.machine xmlschema_line_M; rw [xmlschema_line_nfa_eq]
def xmlschema_line_masks : List Nat := [4294967808,1152921504606846976,549755813888,17179869184,8192,1024,4096,115792089237316195423570985008687907853269984665640564039457584007908834656767,8589934592,35184372088832,115792089237316195423570985008687907853269984665640564039457584007908834658815,4611686018427387904,115792089237316195423570985008687907853269984665635612279300442486263777315839,4951760157141521099596496896,115792089237316195423570985008687907853269984665640564039457584007913129626623,115792089237316195423570985008687907853269984665635612279300442486796353260543,2475880078570760549798248448,147573952589676412928,295147905179352825856,36893488147419103232,19342813113834066795298816,9903520314283042199192993792]
def xmlschema_line_cs : List (Nat × Nat) := [(0,115792089237316195423570985008687907853269984665623213535609094860794071335423),(9,4294967808),(10,1024),(11,2048),(12,4096),(13,8192),(33,8589934592),(34,17179869184),(39,549755813888),(45,35184372088832),(60,1152921504606846976),(62,4611686018427387904),(65,36893488147419103232),(67,147573952589676412928),(68,295147905179352825856),(84,19342813113834066795298816),(91,2475880078570760549798248448),(92,4951760157141521099596496896),(93,9903520314283042199192993792)]
theorem xmlschema_line_masksIn : masksIn xmlschema_line_nfa xmlschema_line_masks = true := by decide +kernel
theorem xmlschema_line_repOk : repOk xmlschema_line_masks xmlschema_line_cs = true := by decide +kernel
def xmlschema_line_rows : List Row := [⟨[],none,[],[⟨256,.other,false,some ⟨0,[.setEnt (.own 5)],some 4,true⟩⟩,⟨256,.ws,false,some ⟨1,[.setEnt (.own 0)],some 0,false⟩⟩,⟨256,.lf,false,some ⟨0,[.setEnt .newline],some 3,true⟩⟩,⟨256,.vt,false,none⟩,⟨256,.ff,false,some ⟨0,[.setEnt .newline],some 3,true⟩⟩,⟨256,.cr,false,some ⟨2,[.setEnt .newline],none,false⟩⟩,⟨256,.cr,true,some ⟨3,[.setEnt .newline],some 3,false⟩⟩,⟨256,.other,false,some ⟨4,[.setEnt (.own 5)],some 4,false⟩⟩,⟨256,.other,false,some ⟨5,[.setEnt (.own 5)],some 4,false⟩⟩,⟨256,.other,false,some ⟨6,[.setEnt (.own 5)],some 4,false⟩⟩]⟩,⟨[0],some 0,[],[⟨256,.other,false,none⟩,⟨256,.ws,false,some ⟨1,[.setEnt (.own 0)],some 0,false⟩⟩,⟨256,.lf,false,none⟩,⟨256,.vt,false,none⟩,⟨256,.ff,false,none⟩,⟨256,.cr,false,none⟩,⟨256,.cr,true,none⟩]⟩,⟨[44],none,[],[⟨256,.other,false,none⟩,⟨256,.ws,false,none⟩,⟨256,.lf,false,some ⟨0,[.setEnt .newline],some 3,true⟩⟩,⟨256,.vt,false,none⟩,⟨256,.ff,false,none⟩,⟨256,.cr,false,none⟩,⟨256,.cr,true,none⟩]⟩,⟨[44,48],some 3,[],[⟨256,.other,false,none⟩,⟨256,.ws,false,none⟩,⟨256,.lf,false,some ⟨0,[.setEnt .newline],some 3,true⟩⟩,⟨256,.vt,false,none⟩,⟨256,.ff,false,none⟩,⟨256,.cr,false,none⟩,⟨256,.cr,true,none⟩]⟩,⟨[20,49],some 4,[],[⟨256,.other,false,some ⟨7,[],none,false⟩⟩,⟨256,.ws,false,some ⟨7,[],none,false⟩⟩,⟨256,.lf,false,none⟩,⟨256,.vt,false,some ⟨7,[],none,false⟩⟩,⟨256,.ff,false,none⟩,⟨256,.cr,false,none⟩,⟨256,.cr,true,none⟩,⟨256,.other,false,some ⟨0,[.code],some 2,true⟩⟩,⟨256,.other,false,some ⟨8,[],none,false⟩⟩]⟩,⟨[15,49],some 4,[],[⟨256,.other,false,some ⟨9,[],none,false⟩⟩,⟨256,.ws,false,some ⟨9,[],none,false⟩⟩,⟨256,.lf,false,none⟩,⟨256,.vt,false,some ⟨9,[],none,false⟩⟩,⟨256,.ff,false,none⟩,⟨256,.cr,false,none⟩,⟨256,.cr,true,none⟩,⟨256,.other,false,some ⟨0,[.code],some 2,true⟩⟩,⟨256,.other,false,some ⟨10,[],none,false⟩⟩]⟩,⟨[1,25,49],some 4,[],[⟨256,.other,false,none⟩,⟨256,.ws,false,none⟩,⟨256,.lf,false,none⟩,⟨256,.vt,false,none⟩,⟨256,.ff,false,none⟩,⟨256,.cr,false,none⟩,⟨256,.cr,true,none⟩,⟨256,.other,false,some ⟨11,[],none,false⟩⟩]⟩,⟨[21],none,[],[⟨256,.other,false,some ⟨7,[],none,false⟩⟩,⟨256,.ws,false,some ⟨7,[],none,false⟩⟩,⟨256,.lf,false,none⟩,⟨256,.vt,false,some ⟨7,[],none,false⟩⟩,⟨256,.ff,false,none⟩,⟨256,.cr,false,none⟩,⟨256,.cr,true,none⟩,⟨256,.other,false,some ⟨0,[.code],some 2,true⟩⟩,⟨256,.other,false,some ⟨8,[],none,false⟩⟩]⟩,⟨[22],none,[],[⟨256,.other,false,some ⟨12,[],none,false⟩⟩,⟨256,.ws,false,some ⟨12,[],none,false⟩⟩,⟨256,.lf,false,none⟩,⟨256,.vt,false,some ⟨12,[],none,false⟩⟩,⟨256,.ff,false,none⟩,⟨256,.cr,false,none⟩,⟨256,.cr,true,none⟩]⟩,⟨[16],none,[],[⟨256,.other,false,some ⟨9,[],none,false⟩⟩,⟨256,.ws,false,some ⟨9,[],none,false⟩⟩,⟨256,.lf,false,none⟩,⟨256,.vt,false,some ⟨9,[],none,false⟩⟩,⟨256,.ff,false,none⟩,⟨256,.cr,false,none⟩,⟨256,.cr,true,none⟩,⟨256,.other,false,some ⟨0,[.code],some 2,true⟩⟩,⟨256,.other,false,some ⟨10,[],none,false⟩⟩]⟩,⟨[17],none,[],[⟨256,.other,false,some ⟨13,[],none,false⟩⟩,⟨256,.ws,false,some ⟨13,[],none,false⟩⟩,⟨256,.lf,false,none⟩,⟨256,.vt,false,some ⟨13,[],none,false⟩⟩,⟨256,.ff,false,none⟩,⟨256,.cr,false,none⟩,⟨256,.cr,true,none⟩]⟩,⟨[2,26],none,[],[⟨256,.other,false,none⟩,⟨256,.ws,false,none⟩,⟨256,.lf,false,none⟩,⟨256,.vt,false,none⟩,⟨256,.ff,false,none⟩,⟨256,.cr,false,none⟩,⟨256,.cr,true,none⟩,⟨256,.other,false,some ⟨14,[],none,false⟩⟩,⟨256,.other,false,some ⟨15,[],none,false⟩⟩]⟩,⟨[23],none,[],[⟨256,.other,false,some ⟨7,[],none,false⟩⟩,⟨256,.ws,false,some ⟨7,[],none,false⟩⟩,⟨256,.lf,false,none⟩,⟨256,.vt,false,some ⟨7,[],none,false⟩⟩,⟨256,.ff,false,none⟩,⟨256,.cr,false,none⟩,⟨256,.cr,true,none⟩,⟨256,.other,false,some ⟨0,[.code],some 2,true⟩⟩,⟨256,.other,false,some ⟨8,[],none,false⟩⟩]⟩,⟨[18],none,[],[⟨256,.other,false,some ⟨9,[],none,false⟩⟩,⟨256,.ws,false,some ⟨9,[],none,false⟩⟩,⟨256,.lf,false,none⟩,⟨256,.vt,false,some ⟨9,[],none,false⟩⟩,⟨256,.ff,false,none⟩,⟨256,.cr,false,none⟩,⟨256,.cr,true,none⟩,⟨256,.other,false,some ⟨0,[.code],some 2,true⟩⟩,⟨256,.other,false,some ⟨10,[],none,false⟩⟩]⟩,⟨[3],none,[],[⟨256,.other,false,none⟩,⟨256,.ws,false,none⟩,⟨256,.lf,false,none⟩,⟨256,.vt,false,none⟩,⟨256,.ff,false,none⟩,⟨256,.cr,false,none⟩,⟨256,.cr,true,none⟩,⟨256,.other,false,some ⟨16,[.comment],none,false⟩⟩]⟩,⟨[27],none,[],[⟨256,.other,false,none⟩,⟨256,.ws,false,none⟩,⟨256,.lf,false,none⟩,⟨256,.vt,false,none⟩,⟨256,.ff,false,none⟩,⟨256,.cr,false,none⟩,⟨256,.cr,true,none⟩,⟨256,.other,false,some ⟨17,[],none,false⟩⟩]⟩,⟨[4],none,[],[⟨256,.other,false,some ⟨18,[.comment],none,false⟩⟩,⟨256,.ws,false,some ⟨19,[],none,false⟩⟩,⟨256,.lf,false,some ⟨20,[],none,false⟩⟩,⟨256,.vt,false,some ⟨18,[.comment],none,false⟩⟩,⟨256,.ff,false,some ⟨21,[],none,false⟩⟩,⟨256,.cr,false,some ⟨22,[],none,false⟩⟩,⟨256,.cr,true,some ⟨23,[],none,false⟩⟩,⟨256,.other,false,some ⟨24,[.comment],none,false⟩⟩]⟩,⟨[28],none,[],[⟨256,.other,false,none⟩,⟨256,.ws,false,none⟩,⟨256,.lf,false,none⟩,⟨256,.vt,false,none⟩,⟨256,.ff,false,none⟩,⟨256,.cr,false,none⟩,⟨256,.cr,true,none⟩,⟨256,.other,false,some ⟨25,[],none,false⟩⟩]⟩,⟨[11],none,[],[⟨256,.other,false,some ⟨18,[.comment],none,false⟩⟩,⟨256,.ws,false,some ⟨19,[],none,false⟩⟩,⟨256,.lf,false,some ⟨20,[],none,false⟩⟩,⟨256,.vt,false,some ⟨18,[.comment],none,false⟩⟩,⟨256,.ff,false,some ⟨21,[],none,false⟩⟩,⟨256,.cr,false,some ⟨22,[],none,false⟩⟩,⟨256,.cr,true,some ⟨23,[],none,false⟩⟩,⟨256,.other,false,some ⟨24,[.comment],none,false⟩⟩]⟩,⟨[10],none,[],[⟨256,.other,false,some ⟨18,[.comment],none,false⟩⟩,⟨256,.ws,false,some ⟨19,[],none,false⟩⟩,⟨256,.lf,false,some ⟨20,[],none,false⟩⟩,⟨256,.vt,false,some ⟨18,[.comment],none,false⟩⟩,⟨256,.ff,false,some ⟨21,[],none,false⟩⟩,⟨256,.cr,false,some ⟨22,[],none,false⟩⟩,⟨256,.cr,true,some ⟨23,[],none,false⟩⟩,⟨256,.other,false,some ⟨24,[.comment],none,false⟩⟩]⟩,⟨[7],none,[],[⟨256,.other,false,some ⟨18,[.setEnt .internalNl,.cb,.comment],none,false⟩⟩,⟨256,.ws,false,some ⟨19,[.setEnt .internalNl,.cb],none,false⟩⟩,⟨256,.lf,false,some ⟨20,[.setEnt .internalNl,.cb],none,false⟩⟩,⟨256,.vt,false,some ⟨18,[.setEnt .internalNl,.cb,.comment],none,false⟩⟩,⟨256,.ff,false,some ⟨21,[.setEnt .internalNl,.cb],none,false⟩⟩,⟨256,.cr,false,some ⟨22,[.setEnt .internalNl,.cb],none,false⟩⟩,⟨256,.cr,true,some ⟨23,[.setEnt .internalNl,.cb],none,false⟩⟩,⟨256,.other,false,some ⟨24,[.setEnt .internalNl,.cb,.comment],none,false⟩⟩]⟩,⟨[8],none,[],[⟨256,.other,false,some ⟨18,[.setEnt .internalNl,.cb,.comment],none,false⟩⟩,⟨256,.ws,false,some ⟨19,[.setEnt .internalNl,.cb],none,false⟩⟩,⟨256,.lf,false,some ⟨20,[.setEnt .internalNl,.cb],none,false⟩⟩,⟨256,.vt,false,some ⟨18,[.setEnt .internalNl,.cb,.comment],none,false⟩⟩,⟨256,.ff,false,some ⟨21,[.setEnt .internalNl,.cb],none,false⟩⟩,⟨256,.cr,false,some ⟨22,[.setEnt .internalNl,.cb],none,false⟩⟩,⟨256,.cr,true,some ⟨23,[.setEnt .internalNl,.cb],none,false⟩⟩,⟨256,.other,false,some ⟨24,[.setEnt .internalNl,.cb,.comment],none,false⟩⟩]⟩,⟨[5],none,[],[⟨256,.other,false,none⟩,⟨256,.ws,false,none⟩,⟨256,.lf,false,some ⟨26,[],none,false⟩⟩,⟨256,.vt,false,none⟩,⟨256,.ff,false,none⟩,⟨256,.cr,false,none⟩,⟨256,.cr,true,none⟩]⟩,⟨[5,9],none,[],[⟨256,.other,false,some ⟨18,[.setEnt .internalNl,.cb,.comment],none,false⟩⟩,⟨256,.ws,false,some ⟨19,[.setEnt .internalNl,.cb],none,false⟩⟩,⟨256,.lf,false,some ⟨27,[.setEnt .internalNl,.cb],none,false⟩⟩,⟨256,.vt,false,some ⟨18,[.setEnt .internalNl,.cb,.comment],none,false⟩⟩,⟨256,.ff,false,some ⟨21,[.setEnt .internalNl,.cb],none,false⟩⟩,⟨256,.cr,false,some ⟨22,[.setEnt .internalNl,.cb],none,false⟩⟩,⟨256,.cr,true,some ⟨23,[.setEnt .internalNl,.cb],none,false⟩⟩,⟨256,.other,false,some ⟨24,[.setEnt .internalNl,.cb,.comment],none,false⟩⟩]⟩,⟨[11,12],none,[],[⟨256,.other,false,some ⟨18,[.comment],none,false⟩⟩,⟨256,.ws,false,some ⟨19,[],none,false⟩⟩,⟨256,.lf,false,some ⟨20,[],none,false⟩⟩,⟨256,.vt,false,some ⟨18,[.comment],none,false⟩⟩,⟨256,.ff,false,some ⟨21,[],none,false⟩⟩,⟨256,.cr,false,some ⟨22,[],none,false⟩⟩,⟨256,.cr,true,some ⟨23,[],none,false⟩⟩,⟨256,.other,false,some ⟨28,[.comment],none,false⟩⟩]⟩,⟨[29],none,[],[⟨256,.other,false,none⟩,⟨256,.ws,false,none⟩,⟨256,.lf,false,none⟩,⟨256,.vt,false,none⟩,⟨256,.ff,false,none⟩,⟨256,.cr,false,none⟩,⟨256,.cr,true,none⟩,⟨256,.other,false,some ⟨29,[],none,false⟩⟩]⟩,⟨[6],none,[],[⟨256,.other,false,some ⟨18,[.setEnt .internalNl,.cb,.comment],none,false⟩⟩,⟨256,.ws,false,some ⟨19,[.setEnt .internalNl,.cb],none,false⟩⟩,⟨256,.lf,false,some ⟨20,[.setEnt .internalNl,.cb],none,false⟩⟩,⟨256,.vt,false,some ⟨18,[.setEnt .internalNl,.cb,.comment],none,false⟩⟩,⟨256,.ff,false,some ⟨21,[.setEnt .internalNl,.cb],none,false⟩⟩,⟨256,.cr,false,some ⟨22,[.setEnt .internalNl,.cb],none,false⟩⟩,⟨256,.cr,true,some ⟨23,[.setEnt .internalNl,.cb],none,false⟩⟩,⟨256,.other,false,some ⟨24,[.setEnt .internalNl,.cb,.comment],none,false⟩⟩]⟩,⟨[6,7],none,[],[⟨256,.other,false,some ⟨18,[.setEnt .internalNl,.cb,.comment],none,false⟩⟩,⟨256,.ws,false,some ⟨19,[.setEnt .internalNl,.cb],none,false⟩⟩,⟨256,.lf,false,some ⟨20,[.setEnt .internalNl,.cb],none,false⟩⟩,⟨256,.vt,false,some ⟨18,[.setEnt .internalNl,.cb,.comment],none,false⟩⟩,⟨256,.ff,false,some ⟨21,[.setEnt .internalNl,.cb],none,false⟩⟩,⟨256,.cr,false,some ⟨22,[.setEnt .internalNl,.cb],none,false⟩⟩,⟨256,.cr,true,some ⟨23,[.setEnt .internalNl,.cb],none,false⟩⟩,⟨256,.other,false,some ⟨24,[.setEnt .internalNl,.cb,.comment],none,false⟩⟩]⟩,⟨[11,12,13],none,[],[⟨256,.other,false,some ⟨18,[.comment],none,false⟩⟩,⟨256,.ws,false,some ⟨19,[],none,false⟩⟩,⟨256,.lf,false,some ⟨20,[],none,false⟩⟩,⟨256,.vt,false,some ⟨18,[.comment],none,false⟩⟩,⟨256,.ff,false,some ⟨21,[],none,false⟩⟩,⟨256,.cr,false,some ⟨22,[],none,false⟩⟩,⟨256,.cr,true,some ⟨23,[],none,false⟩⟩,⟨256,.other,false,some ⟨28,[.comment],none,false⟩⟩,⟨256,.other,false,some ⟨0,[],some 1,true⟩⟩]⟩,⟨[30],none,[],[⟨256,.other,false,none⟩,⟨256,.ws,false,none⟩,⟨256,.lf,false,none⟩,⟨256,.vt,false,none⟩,⟨256,.ff,false,none⟩,⟨256,.cr,false,none⟩,⟨256,.cr,true,none⟩,⟨256,.other,false,some ⟨30,[],none,false⟩⟩]⟩,⟨[31],none,[],[⟨256,.other,false,none⟩,⟨256,.ws,false,none⟩,⟨256,.lf,false,none⟩,⟨256,.vt,false,none⟩,⟨256,.ff,false,none⟩,⟨256,.cr,false,none⟩,⟨256,.cr,true,none⟩,⟨256,.other,false,some ⟨31,[],none,false⟩⟩]⟩,⟨[32],none,[],[⟨256,.other,false,none⟩,⟨256,.ws,false,none⟩,⟨256,.lf,false,none⟩,⟨256,.vt,false,none⟩,⟨256,.ff,false,none⟩,⟨256,.cr,false,none⟩,⟨256,.cr,true,none⟩,⟨256,.other,false,some ⟨32,[.code],none,false⟩⟩]⟩,⟨[33],none,[],[⟨256,.other,false,some ⟨33,[.code],none,false⟩⟩,⟨256,.ws,false,some ⟨34,[],none,false⟩⟩,⟨256,.lf,false,some ⟨35,[],none,false⟩⟩,⟨256,.vt,false,some ⟨33,[.code],none,false⟩⟩,⟨256,.ff,false,some ⟨36,[],none,false⟩⟩,⟨256,.cr,false,some ⟨37,[],none,false⟩⟩,⟨256,.cr,true,some ⟨38,[],none,false⟩⟩,⟨256,.other,false,some ⟨39,[.code],none,false⟩⟩]⟩,⟨[40],none,[],[⟨256,.other,false,some ⟨33,[.code],none,false⟩⟩,⟨256,.ws,false,some ⟨34,[],none,false⟩⟩,⟨256,.lf,false,some ⟨35,[],none,false⟩⟩,⟨256,.vt,false,some ⟨33,[.code],none,false⟩⟩,⟨256,.ff,false,some ⟨36,[],none,false⟩⟩,⟨256,.cr,false,some ⟨37,[],none,false⟩⟩,⟨256,.cr,true,some ⟨38,[],none,false⟩⟩,⟨256,.other,false,some ⟨39,[.code],none,false⟩⟩]⟩,⟨[39],none,[],[⟨256,.other,false,some ⟨33,[.code],none,false⟩⟩,⟨256,.ws,false,some ⟨34,[],none,false⟩⟩,⟨256,.lf,false,some ⟨35,[],none,false⟩⟩,⟨256,.vt,false,some ⟨33,[.code],none,false⟩⟩,⟨256,.ff,false,some ⟨36,[],none,false⟩⟩,⟨256,.cr,false,some ⟨37,[],none,false⟩⟩,⟨256,.cr,true,some ⟨38,[],none,false⟩⟩,⟨256,.other,false,some ⟨39,[.code],none,false⟩⟩]⟩,⟨[36],none,[],[⟨256,.other,false,some ⟨33,[.setEnt .internalNl,.cb,.code],none,false⟩⟩,⟨256,.ws,false,some ⟨34,[.setEnt .internalNl,.cb],none,false⟩⟩,⟨256,.lf,false,some ⟨35,[.setEnt .internalNl,.cb],none,false⟩⟩,⟨256,.vt,false,some ⟨33,[.setEnt .internalNl,.cb,.code],none,false⟩⟩,⟨256,.ff,false,some ⟨36,[.setEnt .internalNl,.cb],none,false⟩⟩,⟨256,.cr,false,some ⟨37,[.setEnt .internalNl,.cb],none,false⟩⟩,⟨256,.cr,true,some ⟨38,[.setEnt .internalNl,.cb],none,false⟩⟩,⟨256,.other,false,some ⟨39,[.setEnt .internalNl,.cb,.code],none,false⟩⟩]⟩,⟨[37],none,[],[⟨256,.other,false,some ⟨33,[.setEnt .internalNl,.cb,.code],none,false⟩⟩,⟨256,.ws,false,some ⟨34,[.setEnt .internalNl,.cb],none,false⟩⟩,⟨256,.lf,false,some ⟨35,[.setEnt .internalNl,.cb],none,false⟩⟩,⟨256,.vt,false,some ⟨33,[.setEnt .internalNl,.cb,.code],none,false⟩⟩,⟨256,.ff,false,some ⟨36,[.setEnt .internalNl,.cb],none,false⟩⟩,⟨256,.cr,false,some ⟨37,[.setEnt .internalNl,.cb],none,false⟩⟩,⟨256,.cr,true,some ⟨38,[.setEnt .internalNl,.cb],none,false⟩⟩,⟨256,.other,false,some ⟨39,[.setEnt .internalNl,.cb,.code],none,false⟩⟩]⟩,⟨[34],none,[],[⟨256,.other,false,none⟩,⟨256,.ws,false,none⟩,⟨256,.lf,false,some ⟨40,[],none,false⟩⟩,⟨256,.vt,false,none⟩,⟨256,.ff,false,none⟩,⟨256,.cr,false,none⟩,⟨256,.cr,true,none⟩]⟩,⟨[34,38],none,[],[⟨256,.other,false,some ⟨33,[.setEnt .internalNl,.cb,.code],none,false⟩⟩,⟨256,.ws,false,some ⟨34,[.setEnt .internalNl,.cb],none,false⟩⟩,⟨256,.lf,false,some ⟨41,[.setEnt .internalNl,.cb],none,false⟩⟩,⟨256,.vt,false,some ⟨33,[.setEnt .internalNl,.cb,.code],none,false⟩⟩,⟨256,.ff,false,some ⟨36,[.setEnt .internalNl,.cb],none,false⟩⟩,⟨256,.cr,false,some ⟨37,[.setEnt .internalNl,.cb],none,false⟩⟩,⟨256,.cr,true,some ⟨38,[.setEnt .internalNl,.cb],none,false⟩⟩,⟨256,.other,false,some ⟨39,[.setEnt .internalNl,.cb,.code],none,false⟩⟩]⟩,⟨[40,41],none,[],[⟨256,.other,false,some ⟨33,[.code],none,false⟩⟩,⟨256,.ws,false,some ⟨34,[],none,false⟩⟩,⟨256,.lf,false,some ⟨35,[],none,false⟩⟩,⟨256,.vt,false,some ⟨33,[.code],none,false⟩⟩,⟨256,.ff,false,some ⟨36,[],none,false⟩⟩,⟨256,.cr,false,some ⟨37,[],none,false⟩⟩,⟨256,.cr,true,some ⟨38,[],none,false⟩⟩,⟨256,.other,false,some ⟨42,[.code],none,false⟩⟩]⟩,⟨[35],none,[],[⟨256,.other,false,some ⟨33,[.setEnt .internalNl,.cb,.code],none,false⟩⟩,⟨256,.ws,false,some ⟨34,[.setEnt .internalNl,.cb],none,false⟩⟩,⟨256,.lf,false,some ⟨35,[.setEnt .internalNl,.cb],none,false⟩⟩,⟨256,.vt,false,some ⟨33,[.setEnt .internalNl,.cb,.code],none,false⟩⟩,⟨256,.ff,false,some ⟨36,[.setEnt .internalNl,.cb],none,false⟩⟩,⟨256,.cr,false,some ⟨37,[.setEnt .internalNl,.cb],none,false⟩⟩,⟨256,.cr,true,some ⟨38,[.setEnt .internalNl,.cb],none,false⟩⟩,⟨256,.other,false,some ⟨39,[.setEnt .internalNl,.cb,.code],none,false⟩⟩]⟩,⟨[35,36],none,[],[⟨256,.other,false,some ⟨33,[.setEnt .internalNl,.cb,.code],none,false⟩⟩,⟨256,.ws,false,some ⟨34,[.setEnt .internalNl,.cb],none,false⟩⟩,⟨256,.lf,false,some ⟨35,[.setEnt .internalNl,.cb],none,false⟩⟩,⟨256,.vt,false,some ⟨33,[.setEnt .internalNl,.cb,.code],none,false⟩⟩,⟨256,.ff,false,some ⟨36,[.setEnt .internalNl,.cb],none,false⟩⟩,⟨256,.cr,false,some ⟨37,[.setEnt .internalNl,.cb],none,false⟩⟩,⟨256,.cr,true,some ⟨38,[.setEnt .internalNl,.cb],none,false⟩⟩,⟨256,.other,false,some ⟨39,[.setEnt .internalNl,.cb,.code],none,false⟩⟩]⟩,⟨[40,41,42],none,[],[⟨256,.other,false,some ⟨33,[.code],none,false⟩⟩,⟨256,.ws,false,some ⟨34,[],none,false⟩⟩,⟨256,.lf,false,some ⟨35,[],none,false⟩⟩,⟨256,.vt,false,some ⟨33,[.code],none,false⟩⟩,⟨256,.ff,false,some ⟨36,[],none,false⟩⟩,⟨256,.cr,false,some ⟨37,[],none,false⟩⟩,⟨256,.cr,true,some ⟨38,[],none,false⟩⟩,⟨256,.other,false,some ⟨0,[],some 2,true⟩⟩,⟨256,.other,false,some ⟨42,[.code],none,false⟩⟩]⟩]
theorem xmlschema_line_rowsOk : rowsOk xmlschema_line_nfa [] (xmlschema_line_cs.map (·.1)) xmlschema_line_rows = true := by decide +kernel
def xmlschema_line_D : Dfa xmlschema_line_M.nfa := ⟨xmlschema_line_masks, [], xmlschema_line_cs, xmlschema_line_rows, xmlschema_line_masksIn, xmlschema_line_repOk, xmlschema_line_rowsOk⟩

end Ohcount.Cert
