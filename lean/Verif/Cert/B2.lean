import Verif.Cert.N2
import Verif.RagelExact

/-! Generated by tools/gen_certs.py. -/

namespace Ohcount.Cert
open Ohcount.Ragel Ohcount.Gram

set_option maxRecDepth 100000

def ampl_line_bTab : List (List BA) := [[⟨false,false,false,false,false,false,false,true,false,false,false,0,none,none,false,0,none,false,false,0⟩],[⟨false,false,false,false,false,false,false,true,false,false,false,0,some (.own 0),some 0,false,1,none,false,false,0⟩],[⟨false,false,false,false,false,false,false,true,false,false,false,0,some .newline,none,false,1,none,false,false,2⟩],[⟨true,false,false,false,false,false,false,true,false,false,false,0,some .newline,some 2,false,1,none,false,false,1⟩],[⟨false,true,false,true,false,true,false,false,false,false,false,0,some (.own 2),some 1,true,1,none,false,false,0⟩],[⟨false,true,false,false,true,false,false,true,false,false,false,0,some (.own 2),some 3,true,1,none,false,false,0⟩],[⟨false,true,true,true,false,true,false,false,false,false,false,0,some (.own 2),some 1,true,1,none,false,false,0⟩],[⟨false,true,true,true,false,true,false,false,false,false,false,0,some (.own 2),some 3,true,2,none,false,false,0⟩],[⟨false,true,true,true,false,true,false,false,false,false,false,0,some (.own 2),some 3,true,2,none,false,false,0⟩,⟨false,true,false,true,false,true,false,false,true,true,false,0,some .internalNl,some 3,true,2,none,false,false,0⟩,⟨false,true,true,true,false,true,false,false,true,true,false,0,some .internalNl,some 3,true,2,none,false,false,0⟩],[⟨false,true,true,true,false,true,false,false,false,false,false,0,some (.own 2),some 3,true,2,none,false,false,0⟩,⟨false,false,false,false,false,true,false,false,true,true,false,0,some .internalNl,some 3,true,2,none,false,false,0⟩,⟨false,true,true,true,false,true,false,false,true,true,false,0,some .internalNl,some 3,true,2,none,false,false,0⟩],[⟨true,true,true,true,false,true,false,false,false,false,false,0,some (.own 2),some 3,true,2,none,false,false,0⟩,⟨true,false,false,false,false,true,false,false,true,true,false,0,some .internalNl,some 3,true,2,none,false,false,0⟩,⟨true,true,true,true,false,true,false,false,true,true,false,0,some .internalNl,some 3,true,2,none,false,false,0⟩],[⟨true,true,true,true,false,true,false,false,false,false,false,0,some (.own 2),some 3,true,2,none,false,false,0⟩,⟨true,false,false,false,false,true,false,false,true,true,false,0,some .internalNl,some 3,true,2,none,false,false,0⟩,⟨true,true,true,true,false,true,false,false,true,true,false,0,some .internalNl,some 3,true,2,none,false,false,0⟩],[⟨false,true,true,true,false,true,false,false,false,false,false,0,some (.own 2),some 3,true,2,none,false,false,2⟩,⟨false,false,false,false,false,true,false,false,true,true,false,0,some .internalNl,some 3,true,2,none,false,false,2⟩,⟨false,true,true,true,false,true,false,false,true,true,false,0,some .internalNl,some 3,true,2,none,false,false,2⟩],[⟨true,true,true,true,false,true,false,false,false,false,false,0,some (.own 2),some 3,true,2,none,false,false,1⟩,⟨true,false,false,false,false,true,false,false,true,true,false,0,some .internalNl,some 3,true,2,none,false,false,1⟩,⟨true,true,true,true,false,true,false,false,true,true,false,0,some .internalNl,some 3,true,2,none,false,false,1⟩],[⟨false,true,true,true,false,true,false,false,false,false,false,0,some (.own 2),some 3,true,2,none,false,false,0⟩,⟨false,true,false,true,false,true,false,false,true,true,false,0,some .internalNl,some 3,true,2,none,false,false,0⟩,⟨false,true,true,true,false,true,false,false,true,true,false,0,some .internalNl,some 3,true,2,none,false,false,0⟩],[⟨true,true,true,true,false,true,false,false,false,false,false,0,some (.own 2),some 3,true,2,none,false,false,0⟩,⟨true,false,false,false,false,true,false,false,true,true,false,0,some .internalNl,some 3,true,2,none,false,false,0⟩,⟨true,true,true,true,false,true,false,false,true,true,false,0,some .internalNl,some 3,true,2,none,false,false,0⟩],[]]
theorem ampl_line_bClosed : closed ampl_line_rows ampl_line_bTab BA.init (BA.succ ⟨true, true, true, false⟩ ampl_line_M) (BA.eofOk ⟨true, true, true, false⟩ ampl_line_M) = true := by
  decide +kernel
def ampl_line_B : BCert ⟨true, true, true, false⟩ ampl_line_M := ⟨ampl_line_D, ampl_line_bTab, ampl_line_bClosed⟩

def blitzmax_line_bTab : List (List BA) := [[⟨false,false,false,false,false,false,false,true,false,false,false,0,none,none,false,0,none,false,false,0⟩],[⟨false,false,false,false,false,false,false,true,false,false,false,0,some (.own 0),some 0,false,1,none,false,false,0⟩],[⟨false,false,false,false,false,false,false,true,false,false,false,0,some .newline,none,false,1,none,false,false,2⟩],[⟨true,false,false,false,false,false,false,true,false,false,false,0,some .newline,some 3,false,1,none,false,false,1⟩],[⟨false,true,false,true,false,true,false,false,false,false,false,0,some (.own 3),some 4,true,1,none,false,false,0⟩],[⟨false,true,false,true,false,true,false,false,false,false,false,0,some (.own 3),some 1,true,1,none,false,false,0⟩],[⟨false,true,false,false,true,false,false,true,false,false,false,0,some (.own 3),some 4,true,1,none,false,false,0⟩],[⟨false,true,true,true,false,true,false,false,false,false,false,0,some (.own 3),some 4,true,2,none,false,false,0⟩],[⟨false,true,true,true,false,true,false,false,false,false,false,0,some (.own 3),some 4,true,2,none,false,false,0⟩],[⟨false,true,true,true,false,true,false,false,false,false,false,0,some (.own 3),some 1,true,1,none,false,false,0⟩],[⟨false,true,true,false,true,false,false,true,false,false,false,0,some (.own 3),some 4,true,2,none,false,false,0⟩],[⟨false,true,true,true,false,true,false,false,false,false,false,0,some (.own 3),some 4,true,2,none,false,false,0⟩],[⟨false,true,true,true,false,true,false,false,false,false,false,0,some (.own 3),some 4,true,2,none,false,false,0⟩],[⟨false,true,true,true,false,true,false,false,false,false,false,0,some (.own 3),some 4,true,2,none,false,false,0⟩,⟨false,true,false,true,false,true,false,false,true,true,false,0,some .internalNl,some 4,true,2,none,false,false,0⟩,⟨false,true,true,true,false,true,false,false,true,true,false,0,some .internalNl,some 4,true,2,none,false,false,0⟩],[⟨false,true,true,true,false,true,false,false,false,false,false,0,some (.own 3),some 4,true,2,none,false,false,0⟩,⟨false,false,false,false,false,true,false,false,true,true,false,0,some .internalNl,some 4,true,2,none,false,false,0⟩,⟨false,true,true,true,false,true,false,false,true,true,false,0,some .internalNl,some 4,true,2,none,false,false,0⟩],[⟨true,true,true,true,false,true,false,false,false,false,false,0,some (.own 3),some 4,true,2,none,false,false,0⟩,⟨true,false,false,false,false,true,false,false,true,true,false,0,some .internalNl,some 4,true,2,none,false,false,0⟩,⟨true,true,true,true,false,true,false,false,true,true,false,0,some .internalNl,some 4,true,2,none,false,false,0⟩],[⟨true,true,true,true,false,true,false,false,false,false,false,0,some (.own 3),some 4,true,2,none,false,false,0⟩,⟨true,false,false,false,false,true,false,false,true,true,false,0,some .internalNl,some 4,true,2,none,false,false,0⟩,⟨true,true,true,true,false,true,false,false,true,true,false,0,some .internalNl,some 4,true,2,none,false,false,0⟩],[⟨false,true,true,true,false,true,false,false,false,false,false,0,some (.own 3),some 4,true,2,none,false,false,2⟩,⟨false,false,false,false,false,true,false,false,true,true,false,0,some .internalNl,some 4,true,2,none,false,false,2⟩,⟨false,true,true,true,false,true,false,false,true,true,false,0,some .internalNl,some 4,true,2,none,false,false,2⟩],[⟨true,true,true,true,false,true,false,false,false,false,false,0,some (.own 3),some 4,true,2,none,false,false,1⟩,⟨true,false,false,false,false,true,false,false,true,true,false,0,some .internalNl,some 4,true,2,none,false,false,1⟩,⟨true,true,true,true,false,true,false,false,true,true,false,0,some .internalNl,some 4,true,2,none,false,false,1⟩],[⟨false,true,true,true,false,true,false,false,false,false,false,0,some (.own 3),some 4,true,2,none,false,false,0⟩,⟨false,true,false,true,false,true,false,false,true,true,false,0,some .internalNl,some 4,true,2,none,false,false,0⟩,⟨false,true,true,true,false,true,false,false,true,true,false,0,some .internalNl,some 4,true,2,none,false,false,0⟩],[⟨true,true,true,true,false,true,false,false,false,false,false,0,some (.own 3),some 4,true,2,none,false,false,0⟩,⟨true,false,false,false,false,true,false,false,true,true,false,0,some .internalNl,some 4,true,2,none,false,false,0⟩,⟨true,true,true,true,false,true,false,false,true,true,false,0,some .internalNl,some 4,true,2,none,false,false,0⟩],[],[⟨false,true,true,true,false,true,false,false,false,false,false,0,some (.own 3),some 4,true,2,none,false,false,0⟩,⟨false,true,true,true,false,true,false,false,true,true,false,0,some .internalNl,some 4,true,2,none,false,false,0⟩],[⟨false,true,true,true,false,true,false,false,false,false,false,0,some (.own 3),some 4,true,2,none,false,false,0⟩,⟨false,true,true,true,false,true,false,false,true,true,false,0,some .internalNl,some 4,true,2,none,false,false,0⟩],[⟨false,true,true,true,false,true,false,false,false,false,false,0,some (.own 3),some 4,true,2,none,false,false,0⟩,⟨false,true,true,true,false,true,false,false,true,true,false,0,some .internalNl,some 4,true,2,none,false,false,0⟩],[⟨false,true,true,true,false,true,false,false,false,false,false,0,some (.own 3),some 4,true,2,none,false,false,0⟩,⟨false,true,true,true,false,true,false,false,true,true,false,0,some .internalNl,some 4,true,2,none,false,false,0⟩],[⟨false,true,true,true,false,true,false,false,false,false,false,0,some (.own 3),some 4,true,2,none,false,false,0⟩,⟨false,true,true,true,false,true,false,false,true,true,false,0,some .internalNl,some 4,true,2,none,false,false,0⟩],[⟨false,true,true,true,false,true,false,false,false,false,false,0,some (.own 3),some 4,true,2,none,false,false,0⟩,⟨false,true,true,true,false,true,false,false,true,true,false,0,some .internalNl,some 4,true,2,none,false,false,0⟩],[⟨false,true,true,true,false,true,false,false,false,false,false,0,some (.own 3),some 4,true,2,none,false,false,0⟩,⟨false,true,true,true,false,true,false,false,true,true,false,0,some .internalNl,some 4,true,2,none,false,false,0⟩]]
theorem blitzmax_line_bClosed : closed blitzmax_line_rows blitzmax_line_bTab BA.init (BA.succ ⟨true, true, true, false⟩ blitzmax_line_M) (BA.eofOk ⟨true, true, true, false⟩ blitzmax_line_M) = true := by
  decide +kernel
def blitzmax_line_B : BCert ⟨true, true, true, false⟩ blitzmax_line_M := ⟨blitzmax_line_D, blitzmax_line_bTab, blitzmax_line_bClosed⟩

def coq_line_bTab : List (List BA) := [[⟨false,false,false,false,false,false,false,true,false,false,false,0,none,none,false,0,none,false,false,0⟩],[⟨false,false,false,false,false,false,false,true,false,false,false,0,some (.own 0),some 0,false,1,none,false,false,0⟩],[⟨false,false,false,false,false,false,false,true,false,false,false,0,some .newline,none,false,1,none,false,false,2⟩],[⟨true,false,false,false,false,false,false,true,false,false,false,0,some .newline,some 3,false,1,none,false,false,1⟩],[⟨false,true,false,true,false,true,false,false,false,false,false,0,some (.own 3),some 4,true,1,none,false,false,0⟩],[⟨false,true,false,false,true,false,false,true,false,false,false,0,some (.own 3),some 4,true,1,none,false,false,0⟩],[⟨false,true,true,true,false,true,false,false,false,false,false,0,some (.own 3),some 4,true,2,none,false,false,0⟩,⟨false,true,false,true,false,true,false,false,true,true,false,0,some .internalNl,some 4,true,2,none,false,false,0⟩,⟨false,true,true,true,false,true,false,false,true,true,false,0,some .internalNl,some 4,true,2,none,false,false,0⟩],[⟨false,true,true,true,false,true,false,false,false,false,false,0,some (.own 3),some 4,true,2,none,false,false,0⟩,⟨false,false,false,true,false,true,false,false,true,true,false,0,some .internalNl,some 4,true,2,none,false,false,0⟩,⟨false,true,true,true,false,true,false,false,true,true,false,0,some .internalNl,some 4,true,2,none,false,false,0⟩],[⟨true,true,true,true,false,true,false,false,false,false,false,0,some (.own 3),some 4,true,2,none,false,false,0⟩,⟨true,false,false,true,false,true,false,false,true,true,false,0,some .internalNl,some 4,true,2,none,false,false,0⟩,⟨true,true,true,true,false,true,false,false,true,true,false,0,some .internalNl,some 4,true,2,none,false,false,0⟩],[⟨true,true,true,true,false,true,false,false,false,false,false,0,some (.own 3),some 4,true,2,none,false,false,0⟩,⟨true,false,false,true,false,true,false,false,true,true,false,0,some .internalNl,some 4,true,2,none,false,false,0⟩,⟨true,true,true,true,false,true,false,false,true,true,false,0,some .internalNl,some 4,true,2,none,false,false,0⟩],[⟨false,true,true,true,false,true,false,false,false,false,false,0,some (.own 3),some 4,true,2,none,false,false,2⟩,⟨false,false,false,true,false,true,false,false,true,true,false,0,some .internalNl,some 4,true,2,none,false,false,2⟩,⟨false,true,true,true,false,true,false,false,true,true,false,0,some .internalNl,some 4,true,2,none,false,false,2⟩],[⟨true,true,true,true,false,true,false,false,false,false,false,0,some (.own 3),some 4,true,2,none,false,false,1⟩,⟨true,false,false,true,false,true,false,false,true,true,false,0,some .internalNl,some 4,true,2,none,false,false,1⟩,⟨true,true,true,true,false,true,false,false,true,true,false,0,some .internalNl,some 4,true,2,none,false,false,1⟩],[⟨false,true,true,true,false,true,false,false,false,false,false,0,some (.own 3),some 4,true,2,none,false,false,0⟩],[⟨true,true,true,true,false,true,false,false,false,false,false,0,some (.own 3),some 4,true,2,none,false,false,0⟩,⟨true,false,false,true,false,true,false,false,true,true,false,0,some .internalNl,some 4,true,2,none,false,false,0⟩,⟨true,true,true,true,false,true,false,false,true,true,false,0,some .internalNl,some 4,true,2,none,false,false,0⟩],[⟨false,true,true,true,false,true,false,false,false,false,false,0,some (.own 3),some 4,true,2,none,false,false,0⟩,⟨false,true,false,true,false,true,false,false,true,true,false,0,some .internalNl,some 4,true,2,none,false,false,0⟩,⟨false,true,true,true,false,true,false,false,true,true,false,0,some .internalNl,some 4,true,2,none,false,false,0⟩],[⟨false,true,true,true,false,true,false,false,false,false,false,0,some (.own 3),some 4,true,2,none,false,false,0⟩,⟨false,false,false,false,false,true,false,false,true,true,false,0,some .internalNl,some 4,true,2,none,false,false,0⟩,⟨false,true,true,true,false,true,false,false,true,true,false,0,some .internalNl,some 4,true,2,none,false,false,0⟩],[⟨true,true,true,true,false,true,false,false,false,false,false,0,some (.own 3),some 4,true,2,none,false,false,0⟩,⟨true,false,false,false,false,true,false,false,true,true,false,0,some .internalNl,some 4,true,2,none,false,false,0⟩,⟨true,true,true,true,false,true,false,false,true,true,false,0,some .internalNl,some 4,true,2,none,false,false,0⟩],[⟨true,true,true,true,false,true,false,false,false,false,false,0,some (.own 3),some 4,true,2,none,false,false,0⟩,⟨true,false,false,false,false,true,false,false,true,true,false,0,some .internalNl,some 4,true,2,none,false,false,0⟩,⟨true,true,true,true,false,true,false,false,true,true,false,0,some .internalNl,some 4,true,2,none,false,false,0⟩],[⟨false,true,true,true,false,true,false,false,false,false,false,0,some (.own 3),some 4,true,2,none,false,false,2⟩,⟨false,false,false,false,false,true,false,false,true,true,false,0,some .internalNl,some 4,true,2,none,false,false,2⟩,⟨false,true,true,true,false,true,false,false,true,true,false,0,some .internalNl,some 4,true,2,none,false,false,2⟩],[⟨true,true,true,true,false,true,false,false,false,false,false,0,some (.own 3),some 4,true,2,none,false,false,1⟩,⟨true,false,false,false,false,true,false,false,true,true,false,0,some .internalNl,some 4,true,2,none,false,false,1⟩,⟨true,true,true,true,false,true,false,false,true,true,false,0,some .internalNl,some 4,true,2,none,false,false,1⟩],[⟨false,true,true,true,false,true,false,false,false,false,false,0,some (.own 3),some 4,true,2,none,false,false,0⟩,⟨false,true,false,true,false,true,false,false,true,true,false,0,some .internalNl,some 4,true,2,none,false,false,0⟩,⟨false,true,true,true,false,true,false,false,true,true,false,0,some .internalNl,some 4,true,2,none,false,false,0⟩],[⟨false,true,true,true,false,true,false,false,false,false,false,0,some (.own 3),some 4,true,2,none,false,false,0⟩,⟨false,true,false,true,false,true,false,false,true,true,false,0,some .internalNl,some 4,true,2,none,false,false,0⟩,⟨false,true,true,true,false,true,false,false,true,true,false,0,some .internalNl,some 4,true,2,none,false,false,0⟩],[⟨false,true,true,true,false,true,false,false,false,false,false,0,some (.own 3),some 4,true,2,none,false,false,0⟩,⟨false,true,false,true,false,true,false,false,true,true,false,0,some .internalNl,some 4,true,2,none,false,false,0⟩,⟨false,true,true,true,false,true,false,false,true,true,false,0,some .internalNl,some 4,true,2,none,false,false,0⟩],[⟨true,true,true,true,false,true,false,false,false,false,false,0,some (.own 3),some 4,true,2,none,false,false,0⟩,⟨true,false,false,false,false,true,false,false,true,true,false,0,some .internalNl,some 4,true,2,none,false,false,0⟩,⟨true,true,true,true,false,true,false,false,true,true,false,0,some .internalNl,some 4,true,2,none,false,false,0⟩],[],[⟨false,true,true,true,false,true,false,false,false,false,false,0,some (.own 3),some 4,true,2,none,false,false,0⟩,⟨false,true,true,true,false,true,false,false,true,true,false,0,some .internalNl,some 4,true,2,none,false,false,0⟩],[⟨false,true,true,true,false,true,false,false,false,false,false,0,some (.own 3),some 4,true,2,none,false,false,0⟩,⟨false,true,true,true,false,true,false,false,true,true,false,0,some .internalNl,some 4,true,2,none,false,false,0⟩],[⟨false,true,true,true,false,true,false,false,false,false,false,0,some (.own 3),some 4,true,2,none,false,false,0⟩,⟨false,true,true,true,false,true,false,false,true,true,false,0,some .internalNl,some 4,true,2,none,false,false,0⟩]]
theorem coq_line_bClosed : closed coq_line_rows coq_line_bTab BA.init (BA.succ ⟨false, false, true, false⟩ coq_line_M) (BA.eofOk ⟨false, false, true, false⟩ coq_line_M) = true := by
  decide +kernel
def coq_line_B : BCert ⟨false, false, true, false⟩ coq_line_M := ⟨coq_line_D, coq_line_bTab, coq_line_bClosed⟩

def crystal_line_bTab : List (List BA) := [[⟨false,false,false,false,false,false,false,true,false,false,false,0,none,none,false,0,none,false,false,0⟩],[⟨false,false,false,false,false,false,false,true,false,false,false,0,some (.own 0),some 0,false,1,none,false,false,0⟩],[⟨false,false,false,false,false,false,false,true,false,false,false,0,some .newline,none,false,1,none,false,false,2⟩],[⟨true,false,false,false,false,false,false,true,false,false,false,0,some .newline,some 3,false,1,none,false,false,1⟩],[⟨false,true,false,true,false,true,true,false,false,false,false,0,some (.own 3),some 4,true,1,none,false,false,0⟩],[⟨false,true,false,true,false,true,false,false,false,false,false,0,some (.own 3),some 1,true,1,none,false,false,0⟩],[⟨false,true,false,false,true,false,false,true,false,false,false,0,some (.own 3),some 4,true,1,none,false,false,0⟩],[⟨false,true,false,false,true,false,false,true,false,false,false,0,some (.own 3),some 4,true,1,none,false,false,0⟩],[⟨false,true,false,false,true,false,false,true,false,false,false,0,some (.own 3),some 4,true,1,none,false,false,0⟩],[⟨false,true,false,true,false,true,true,false,false,false,false,0,some (.own 3),some 4,true,1,none,false,false,0⟩],[⟨false,true,true,true,false,true,true,false,false,false,false,0,some (.own 3),some 4,true,2,none,false,false,0⟩,⟨false,true,false,true,false,true,true,false,true,true,false,0,some .internalNl,some 4,true,2,none,false,false,0⟩,⟨false,true,true,true,false,true,true,false,true,true,false,0,some .internalNl,some 4,true,2,none,false,false,0⟩],[⟨false,true,true,true,false,true,true,false,false,false,false,0,some (.own 3),some 4,true,2,none,false,false,0⟩,⟨false,false,false,false,false,true,true,false,true,true,false,0,some .internalNl,some 4,true,2,none,false,false,0⟩,⟨false,true,true,true,false,true,true,false,true,true,false,0,some .internalNl,some 4,true,2,none,false,false,0⟩],[⟨true,true,true,true,false,true,true,false,false,false,false,0,some (.own 3),some 4,true,2,none,false,false,0⟩,⟨true,false,false,false,false,true,true,false,true,true,false,0,some .internalNl,some 4,true,2,none,false,false,0⟩,⟨true,true,true,true,false,true,true,false,true,true,false,0,some .internalNl,some 4,true,2,none,false,false,0⟩],[⟨true,true,true,true,false,true,true,false,false,false,false,0,some (.own 3),some 4,true,2,none,false,false,0⟩,⟨true,false,false,false,false,true,true,false,true,true,false,0,some .internalNl,some 4,true,2,none,false,false,0⟩,⟨true,true,true,true,false,true,true,false,true,true,false,0,some .internalNl,some 4,true,2,none,false,false,0⟩],[⟨false,true,true,true,false,true,true,false,false,false,false,0,some (.own 3),some 4,true,2,none,false,false,2⟩,⟨false,false,false,false,false,true,true,false,true,true,false,0,some .internalNl,some 4,true,2,none,false,false,2⟩,⟨false,true,true,true,false,true,true,false,true,true,false,0,some .internalNl,some 4,true,2,none,false,false,2⟩],[⟨true,true,true,true,false,true,true,false,false,false,false,0,some (.own 3),some 4,true,2,none,false,false,1⟩,⟨true,false,false,false,false,true,true,false,true,true,false,0,some .internalNl,some 4,true,2,none,false,false,1⟩,⟨true,true,true,true,false,true,true,false,true,true,false,0,some .internalNl,some 4,true,2,none,false,false,1⟩],[⟨false,true,true,true,false,true,true,false,false,false,false,0,some (.own 3),some 4,true,2,none,false,false,0⟩,⟨false,true,false,false,true,true,true,false,true,true,false,0,some .internalNl,some 4,true,2,none,false,false,0⟩,⟨false,true,true,true,false,true,true,false,true,true,false,0,some .internalNl,some 4,true,2,none,false,false,0⟩],[⟨false,true,true,true,false,true,false,false,false,false,false,0,some (.own 3),some 1,true,1,none,false,false,0⟩],[⟨false,true,true,true,false,true,true,false,false,false,false,0,some (.own 3),some 4,true,2,none,false,false,0⟩],[⟨false,true,true,false,true,false,false,true,false,false,false,0,some (.own 3),some 4,true,2,none,false,false,0⟩],[⟨false,true,true,false,true,false,false,true,false,false,false,0,some (.own 3),some 4,true,2,none,false,false,0⟩],[⟨false,true,true,false,true,false,false,true,false,false,false,0,some (.own 3),some 4,true,2,none,false,false,0⟩],[⟨false,true,true,false,true,false,false,true,false,false,false,0,some (.own 3),some 4,true,2,none,false,false,0⟩],[⟨false,true,true,false,true,false,false,true,false,false,false,0,some (.own 3),some 4,true,2,none,false,false,0⟩],[⟨false,true,true,true,false,true,true,false,false,false,false,0,some (.own 3),some 4,true,2,none,false,false,0⟩,⟨false,true,false,true,false,true,true,false,true,true,false,0,some .internalNl,some 4,true,2,none,false,false,0⟩,⟨false,true,true,true,false,true,true,false,true,true,false,0,some .internalNl,some 4,true,2,none,false,false,0⟩],[⟨false,true,true,true,false,true,true,false,false,false,false,0,some (.own 3),some 4,true,2,none,false,false,0⟩,⟨false,false,false,false,false,true,true,false,true,true,false,0,some .internalNl,some 4,true,2,none,false,false,0⟩,⟨false,true,true,true,false,true,true,false,true,true,false,0,some .internalNl,some 4,true,2,none,false,false,0⟩],[⟨true,true,true,true,false,true,true,false,false,false,false,0,some (.own 3),some 4,true,2,none,false,false,0⟩,⟨true,false,false,false,false,true,true,false,true,true,false,0,some .internalNl,some 4,true,2,none,false,false,0⟩,⟨true,true,true,true,false,true,true,false,true,true,false,0,some .internalNl,some 4,true,2,none,false,false,0⟩],[⟨true,true,true,true,false,true,true,false,false,false,false,0,some (.own 3),some 4,true,2,none,false,false,0⟩,⟨true,false,false,false,false,true,true,false,true,true,false,0,some .internalNl,some 4,true,2,none,false,false,0⟩,⟨true,true,true,true,false,true,true,false,true,true,false,0,some .internalNl,some 4,true,2,none,false,false,0⟩],[⟨false,true,true,true,false,true,true,false,false,false,false,0,some (.own 3),some 4,true,2,none,false,false,2⟩,⟨false,false,false,false,false,true,true,false,true,true,false,0,some .internalNl,some 4,true,2,none,false,false,2⟩,⟨false,true,true,true,false,true,true,false,true,true,false,0,some .internalNl,some 4,true,2,none,false,false,2⟩],[⟨true,true,true,true,false,true,true,false,false,false,false,0,some (.own 3),some 4,true,2,none,false,false,1⟩,⟨true,false,false,false,false,true,true,false,true,true,false,0,some .internalNl,some 4,true,2,none,false,false,1⟩,⟨true,true,true,true,false,true,true,false,true,true,false,0,some .internalNl,some 4,true,2,none,false,false,1⟩],[⟨false,true,true,true,false,true,true,false,false,false,false,0,some (.own 3),some 4,true,2,none,false,false,0⟩,⟨false,true,false,false,true,true,true,false,true,true,false,0,some .internalNl,some 4,true,2,none,false,false,0⟩,⟨false,true,true,true,false,true,true,false,true,true,false,0,some .internalNl,some 4,true,2,none,false,false,0⟩],[⟨true,true,true,true,false,true,true,false,false,false,false,0,some (.own 3),some 4,true,2,none,false,false,0⟩,⟨true,false,false,false,false,true,true,false,true,true,false,0,some .internalNl,some 4,true,2,none,false,false,0⟩,⟨true,true,true,true,false,true,true,false,true,true,false,0,some .internalNl,some 4,true,2,none,false,false,0⟩],[],[⟨false,true,true,true,false,true,true,false,false,false,false,0,some (.own 3),some 4,true,2,none,false,false,0⟩,⟨false,true,true,true,false,true,true,false,true,true,false,0,some .internalNl,some 4,true,2,none,false,false,0⟩],[⟨false,true,true,true,false,true,true,false,false,false,false,0,some (.own 3),some 4,true,2,none,false,false,0⟩,⟨false,true,false,true,false,true,true,false,true,true,false,0,some .internalNl,some 4,true,2,none,false,false,0⟩,⟨false,true,true,true,false,true,true,false,true,true,false,0,some .internalNl,some 4,true,2,none,false,false,0⟩],[⟨false,true,true,true,false,true,true,false,false,false,false,0,some (.own 3),some 4,true,2,none,false,false,0⟩,⟨false,false,false,false,false,true,true,false,true,true,false,0,some .internalNl,some 4,true,2,none,false,false,0⟩,⟨false,true,true,true,false,true,true,false,true,true,false,0,some .internalNl,some 4,true,2,none,false,false,0⟩],[⟨true,true,true,true,false,true,true,false,false,false,false,0,some (.own 3),some 4,true,2,none,false,false,0⟩,⟨true,false,false,false,false,true,true,false,true,true,false,0,some .internalNl,some 4,true,2,none,false,false,0⟩,⟨true,true,true,true,false,true,true,false,true,true,false,0,some .internalNl,some 4,true,2,none,false,false,0⟩],[⟨true,true,true,true,false,true,true,false,false,false,false,0,some (.own 3),some 4,true,2,none,false,false,0⟩,⟨true,false,false,false,false,true,true,false,true,true,false,0,some .internalNl,some 4,true,2,none,false,false,0⟩,⟨true,true,true,true,false,true,true,false,true,true,false,0,some .internalNl,some 4,true,2,none,false,false,0⟩],[⟨false,true,true,true,false,true,true,false,false,false,false,0,some (.own 3),some 4,true,2,none,false,false,2⟩,⟨false,false,false,false,false,true,true,false,true,true,false,0,some .internalNl,some 4,true,2,none,false,false,2⟩,⟨false,true,true,true,false,true,true,false,true,true,false,0,some .internalNl,some 4,true,2,none,false,false,2⟩],[⟨true,true,true,true,false,true,true,false,false,false,false,0,some (.own 3),some 4,true,2,none,false,false,1⟩,⟨true,false,false,false,false,true,true,false,true,true,false,0,some .internalNl,some 4,true,2,none,false,false,1⟩,⟨true,true,true,true,false,true,true,false,true,true,false,0,some .internalNl,some 4,true,2,none,false,false,1⟩],[⟨false,true,true,true,false,true,true,false,false,false,false,0,some (.own 3),some 4,true,2,none,false,false,0⟩,⟨false,true,false,false,true,true,true,false,true,true,false,0,some .internalNl,some 4,true,2,none,false,false,0⟩,⟨false,true,true,true,false,true,true,false,true,true,false,0,some .internalNl,some 4,true,2,none,false,false,0⟩],[⟨false,true,true,true,false,true,true,false,false,false,false,0,some (.own 3),some 4,true,2,none,false,false,0⟩],[⟨false,true,true,false,true,false,false,true,false,false,false,0,some (.own 3),some 4,true,2,none,false,false,0⟩],[⟨false,true,true,false,true,false,false,true,false,false,false,0,some (.own 3),some 4,true,2,none,false,false,0⟩],[⟨true,true,true,true,false,true,true,false,false,false,false,0,some (.own 3),some 4,true,2,none,false,false,0⟩,⟨true,false,false,false,false,true,true,false,true,true,false,0,some .internalNl,some 4,true,2,none,false,false,0⟩,⟨true,true,true,true,false,true,true,false,true,true,false,0,some .internalNl,some 4,true,2,none,false,false,0⟩],[],[⟨false,true,true,true,false,true,true,false,false,false,false,0,some (.own 3),some 4,true,2,none,false,false,0⟩,⟨false,true,true,true,false,true,true,false,true,true,false,0,some .internalNl,some 4,true,2,none,false,false,0⟩],[⟨true,true,true,true,false,true,true,false,false,false,false,0,some (.own 3),some 4,true,2,none,false,false,0⟩,⟨true,false,false,false,false,true,true,false,true,true,false,0,some .internalNl,some 4,true,2,none,false,false,0⟩,⟨true,true,true,true,false,true,true,false,true,true,false,0,some .internalNl,some 4,true,2,none,false,false,0⟩],[],[⟨false,true,true,true,false,true,true,false,false,false,false,0,some (.own 3),some 4,true,2,none,false,false,0⟩,⟨false,true,true,true,false,true,true,false,true,true,false,0,some .internalNl,some 4,true,2,none,false,false,0⟩],[⟨false,true,true,true,false,true,true,false,false,false,false,0,some (.own 3),some 4,true,2,none,false,false,0⟩,⟨false,true,false,true,false,true,true,false,true,true,false,0,some .internalNl,some 4,true,2,none,false,false,0⟩,⟨false,true,true,true,false,true,true,false,true,true,false,0,some .internalNl,some 4,true,2,none,false,false,0⟩],[⟨false,true,true,true,false,true,true,false,false,false,false,0,some (.own 3),some 4,true,2,none,false,false,0⟩,⟨false,false,false,false,false,true,true,false,true,true,false,0,some .internalNl,some 4,true,2,none,false,false,0⟩,⟨false,true,true,true,false,true,true,false,true,true,false,0,some .internalNl,some 4,true,2,none,false,false,0⟩],[⟨true,true,true,true,false,true,true,false,false,false,false,0,some (.own 3),some 4,true,2,none,false,false,0⟩,⟨true,false,false,false,false,true,true,false,true,true,false,0,some .internalNl,some 4,true,2,none,false,false,0⟩,⟨true,true,true,true,false,true,true,false,true,true,false,0,some .internalNl,some 4,true,2,none,false,false,0⟩],[⟨true,true,true,true,false,true,true,false,false,false,false,0,some (.own 3),some 4,true,2,none,false,false,0⟩,⟨true,false,false,false,false,true,true,false,true,true,false,0,some .internalNl,some 4,true,2,none,false,false,0⟩,⟨true,true,true,true,false,true,true,false,true,true,false,0,some .internalNl,some 4,true,2,none,false,false,0⟩],[⟨false,true,true,true,false,true,true,false,false,false,false,0,some (.own 3),some 4,true,2,none,false,false,2⟩,⟨false,false,false,false,false,true,true,false,true,true,false,0,some .internalNl,some 4,true,2,none,false,false,2⟩,⟨false,true,true,true,false,true,true,false,true,true,false,0,some .internalNl,some 4,true,2,none,false,false,2⟩],[⟨true,true,true,true,false,true,true,false,false,false,false,0,some (.own 3),some 4,true,2,none,false,false,1⟩,⟨true,false,false,false,false,true,true,false,true,true,false,0,some .internalNl,some 4,true,2,none,false,false,1⟩,⟨true,true,true,true,false,true,true,false,true,true,false,0,some .internalNl,some 4,true,2,none,false,false,1⟩],[⟨false,true,true,true,false,true,true,false,false,false,false,0,some (.own 3),some 4,true,2,none,false,false,0⟩,⟨false,true,false,false,true,true,true,false,true,true,false,0,some .internalNl,some 4,true,2,none,false,false,0⟩,⟨false,true,true,true,false,true,true,false,true,true,false,0,some .internalNl,some 4,true,2,none,false,false,0⟩],[⟨false,true,true,false,true,false,false,true,false,false,false,0,some (.own 3),some 4,true,2,none,false,false,0⟩],[⟨true,true,true,true,false,true,true,false,false,false,false,0,some (.own 3),some 4,true,2,none,false,false,0⟩,⟨true,false,false,false,false,true,true,false,true,true,false,0,some .internalNl,some 4,true,2,none,false,false,0⟩,⟨true,true,true,true,false,true,true,false,true,true,false,0,some .internalNl,some 4,true,2,none,false,false,0⟩],[],[⟨false,true,true,true,false,true,true,false,false,false,false,0,some (.own 3),some 4,true,2,none,false,false,0⟩,⟨false,true,true,true,false,true,true,false,true,true,false,0,some .internalNl,some 4,true,2,none,false,false,0⟩],[⟨false,true,true,false,true,false,false,true,false,false,false,0,some (.own 3),some 4,true,2,none,false,false,0⟩],[⟨false,true,true,true,false,true,true,false,false,false,false,0,some (.own 3),some 4,true,2,none,false,false,0⟩],[⟨false,true,true,true,false,true,true,false,false,false,false,0,some (.own 3),some 4,true,2,none,false,false,0⟩,⟨false,true,false,true,false,true,true,false,true,true,false,0,some .internalNl,some 4,true,2,none,false,false,0⟩,⟨false,true,true,true,false,true,true,false,true,true,false,0,some .internalNl,some 4,true,2,none,false,false,0⟩],[⟨false,true,true,true,false,true,true,false,false,false,false,0,some (.own 3),some 4,true,2,none,false,false,0⟩,⟨false,false,false,false,false,true,true,false,true,true,false,0,some .internalNl,some 4,true,2,none,false,false,0⟩,⟨false,true,true,true,false,true,true,false,true,true,false,0,some .internalNl,some 4,true,2,none,false,false,0⟩],[⟨true,true,true,true,false,true,true,false,false,false,false,0,some (.own 3),some 4,true,2,none,false,false,0⟩,⟨true,false,false,false,false,true,true,false,true,true,false,0,some .internalNl,some 4,true,2,none,false,false,0⟩,⟨true,true,true,true,false,true,true,false,true,true,false,0,some .internalNl,some 4,true,2,none,false,false,0⟩],[⟨true,true,true,true,false,true,true,false,false,false,false,0,some (.own 3),some 4,true,2,none,false,false,0⟩,⟨true,false,false,false,false,true,true,false,true,true,false,0,some .internalNl,some 4,true,2,none,false,false,0⟩,⟨true,true,true,true,false,true,true,false,true,true,false,0,some .internalNl,some 4,true,2,none,false,false,0⟩],[⟨false,true,true,true,false,true,true,false,false,false,false,0,some (.own 3),some 4,true,2,none,false,false,2⟩,⟨false,false,false,false,false,true,true,false,true,true,false,0,some .internalNl,some 4,true,2,none,false,false,2⟩,⟨false,true,true,true,false,true,true,false,true,true,false,0,some .internalNl,some 4,true,2,none,false,false,2⟩],[⟨true,true,true,true,false,true,true,false,false,false,false,0,some (.own 3),some 4,true,2,none,false,false,1⟩,⟨true,false,false,false,false,true,true,false,true,true,false,0,some .internalNl,some 4,true,2,none,false,false,1⟩,⟨true,true,true,true,false,true,true,false,true,true,false,0,some .internalNl,some 4,true,2,none,false,false,1⟩],[⟨false,true,true,true,false,true,true,false,false,false,false,0,some (.own 3),some 4,true,2,none,false,false,0⟩,⟨false,true,false,true,false,true,true,false,true,true,false,0,some .internalNl,some 4,true,2,none,false,false,0⟩,⟨false,true,true,true,false,true,true,false,true,true,false,0,some .internalNl,some 4,true,2,none,false,false,0⟩],[⟨true,true,true,true,false,true,true,false,false,false,false,0,some (.own 3),some 4,true,2,none,false,false,0⟩,⟨true,false,false,false,false,true,true,false,true,true,false,0,some .internalNl,some 4,true,2,none,false,false,0⟩,⟨true,true,true,true,false,true,true,false,true,true,false,0,some .internalNl,some 4,true,2,none,false,false,0⟩],[],[⟨false,true,true,true,false,true,true,false,false,false,false,0,some (.own 3),some 4,true,2,none,false,false,0⟩,⟨false,true,true,true,false,true,true,false,true,true,false,0,some .internalNl,some 4,true,2,none,false,false,0⟩],[⟨false,true,true,true,false,true,true,false,false,false,false,0,some (.own 3),some 4,true,2,none,false,false,0⟩,⟨false,true,true,true,false,true,true,false,true,true,false,0,some .internalNl,some 4,true,2,none,false,false,0⟩]]
theorem crystal_line_bClosed : closed crystal_line_rows crystal_line_bTab BA.init (BA.succ ⟨true, true, true, false⟩ crystal_line_M) (BA.eofOk ⟨true, true, true, false⟩ crystal_line_M) = true := by
  decide +kernel
def crystal_line_B : BCert ⟨true, true, true, false⟩ crystal_line_M := ⟨crystal_line_D, crystal_line_bTab, crystal_line_bClosed⟩

def ffixed_line_bTab : List (List BA) := [[⟨false,false,false,false,false,false,false,true,false,false,false,0,none,none,false,0,none,false,false,0⟩],[⟨false,false,false,false,false,false,false,true,false,false,false,0,some (.own 0),some 0,false,1,none,false,false,0⟩],[⟨false,false,false,false,false,false,false,true,false,false,false,0,some .newline,none,false,1,none,false,false,2⟩],[⟨true,false,false,false,false,false,false,true,false,false,false,0,some .newline,some 3,false,1,none,false,false,1⟩],[⟨false,true,false,true,false,true,false,false,false,false,false,0,some (.own 3),some 4,true,1,none,false,false,0⟩],[⟨false,true,false,true,false,true,false,false,false,false,false,0,some (.own 3),some 4,true,1,none,false,false,0⟩],[⟨false,true,false,true,false,true,false,false,false,false,false,0,some (.own 3),some 1,true,1,none,false,false,0⟩],[⟨false,true,true,true,false,true,false,false,false,false,false,0,some (.own 3),some 4,true,2,none,false,false,0⟩,⟨false,true,true,true,false,true,false,false,false,false,false,0,some (.own 3),some 2,true,2,none,false,false,0⟩],[⟨false,true,true,true,false,true,false,false,false,false,false,0,some (.own 3),some 2,true,1,none,false,false,0⟩],[⟨false,true,true,true,false,true,false,false,false,false,false,0,some (.own 3),some 4,true,2,none,false,false,0⟩,⟨false,true,true,true,false,true,false,false,false,false,false,0,some (.own 3),some 2,true,2,none,false,false,0⟩],[⟨false,true,true,true,false,true,false,false,false,false,false,0,some (.own 3),some 2,true,1,none,false,false,0⟩],[⟨false,true,true,true,false,true,false,false,false,false,false,0,some (.own 3),some 1,true,1,none,false,false,0⟩]]
theorem ffixed_line_bClosed : closed ffixed_line_rows ffixed_line_bTab BA.init (BA.succ ⟨true, true, false, false⟩ ffixed_line_M) (BA.eofOk ⟨true, true, false, false⟩ ffixed_line_M) = true := by
  decide +kernel
def ffixed_line_B : BCert ⟨true, true, false, false⟩ ffixed_line_M := ⟨ffixed_line_D, ffixed_line_bTab, ffixed_line_bClosed⟩

def modelica_line_bTab : List (List BA) := [[⟨false,false,false,false,false,false,false,true,false,false,false,0,none,none,false,0,none,false,false,0⟩],[⟨false,false,false,false,false,false,false,true,false,false,false,0,some (.own 0),some 0,false,1,none,false,false,0⟩],[⟨false,false,false,false,false,false,false,true,false,false,false,0,some .newline,none,false,1,none,false,false,2⟩],[⟨true,false,false,false,false,false,false,true,false,false,false,0,some .newline,some 2,false,1,none,false,false,1⟩],[⟨false,true,false,true,false,true,false,false,false,false,false,0,some (.own 3),some 5,true,1,none,false,false,0⟩],[⟨false,true,false,false,true,false,false,true,false,false,false,0,some (.own 3),some 5,true,1,none,false,false,0⟩],[⟨false,true,false,false,true,false,false,true,false,false,false,0,some (.own 3),some 3,true,1,none,false,false,0⟩],[⟨false,true,true,true,false,true,false,false,false,false,false,0,some (.own 3),some 5,true,2,none,false,false,0⟩,⟨false,true,false,true,false,true,false,false,true,true,false,0,some (.own 3),some 5,true,2,none,false,false,0⟩,⟨false,true,true,true,false,true,false,false,true,true,false,0,some (.own 3),some 5,true,2,none,false,false,0⟩],[⟨false,true,true,true,false,true,false,false,false,false,false,0,some (.own 3),some 5,true,2,none,false,false,0⟩,⟨false,false,false,false,false,true,false,false,true,true,false,0,some (.own 3),some 5,true,2,none,false,false,0⟩,⟨false,true,true,true,false,true,false,false,true,true,false,0,some (.own 3),some 5,true,2,none,false,false,0⟩],[⟨true,true,true,true,false,true,false,false,false,false,false,0,some (.own 3),some 5,true,2,none,false,false,0⟩,⟨true,false,false,false,false,true,false,false,true,true,false,0,some (.own 3),some 5,true,2,none,false,false,0⟩,⟨true,true,true,true,false,true,false,false,true,true,false,0,some (.own 3),some 5,true,2,none,false,false,0⟩],[⟨true,true,true,true,false,true,false,false,false,false,false,0,some (.own 3),some 5,true,2,none,false,false,0⟩,⟨true,false,false,true,false,true,false,false,true,true,false,0,some (.own 3),some 5,true,2,none,false,false,0⟩,⟨true,true,true,true,false,true,false,false,true,true,false,0,some (.own 3),some 5,true,2,none,false,false,0⟩],[⟨false,true,true,true,false,true,false,false,false,false,false,0,some (.own 3),some 5,true,2,none,false,false,2⟩,⟨false,false,false,true,false,true,false,false,true,true,false,0,some (.own 3),some 5,true,2,none,false,false,2⟩,⟨false,true,true,true,false,true,false,false,true,true,false,0,some (.own 3),some 5,true,2,none,false,false,2⟩],[⟨true,true,true,true,false,true,false,false,false,false,false,0,some (.own 3),some 5,true,2,none,false,false,1⟩,⟨true,false,false,true,false,true,false,false,true,true,false,0,some (.own 3),some 5,true,2,none,false,false,1⟩,⟨true,true,true,true,false,true,false,false,true,true,false,0,some (.own 3),some 5,true,2,none,false,false,1⟩],[⟨false,true,true,true,false,true,false,false,false,false,false,0,some (.own 3),some 5,true,2,none,false,false,0⟩,⟨false,true,false,false,true,true,false,false,true,true,false,0,some (.own 3),some 5,true,2,none,false,false,0⟩,⟨false,true,true,true,false,true,false,false,true,true,false,0,some (.own 3),some 5,true,2,none,false,false,0⟩],[⟨false,true,true,true,false,true,false,false,false,false,false,0,some (.own 3),some 5,true,2,none,false,false,0⟩],[⟨false,true,true,true,false,true,false,false,false,false,false,0,some (.own 3),some 1,true,1,none,false,false,0⟩],[⟨false,true,true,false,true,false,false,true,false,false,false,0,some (.own 3),some 3,true,1,none,false,false,0⟩],[⟨true,true,true,true,false,true,false,false,false,false,false,0,some (.own 3),some 5,true,2,none,false,false,0⟩,⟨true,false,false,true,false,true,false,false,true,true,false,0,some (.own 3),some 5,true,2,none,false,false,0⟩,⟨true,true,true,true,false,true,false,false,true,true,false,0,some (.own 3),some 5,true,2,none,false,false,0⟩],[⟨false,true,true,true,false,true,false,false,false,false,false,0,some (.own 3),some 5,true,2,none,false,false,0⟩,⟨false,true,true,true,false,true,false,false,true,true,false,0,some (.own 3),some 5,true,2,none,false,false,0⟩],[⟨false,true,true,true,false,true,false,false,false,false,false,0,some (.own 3),some 5,true,2,none,false,false,0⟩,⟨false,true,false,true,false,true,false,false,true,true,false,0,some .internalNl,some 5,true,2,none,false,false,0⟩,⟨false,true,true,true,false,true,false,false,true,true,false,0,some .internalNl,some 5,true,2,none,false,false,0⟩],[⟨false,true,true,true,false,true,false,false,false,false,false,0,some (.own 3),some 5,true,2,none,false,false,0⟩,⟨false,false,false,false,false,true,false,false,true,true,false,0,some .internalNl,some 5,true,2,none,false,false,0⟩,⟨false,true,true,true,false,true,false,false,true,true,false,0,some .internalNl,some 5,true,2,none,false,false,0⟩],[⟨true,true,true,true,false,true,false,false,false,false,false,0,some (.own 3),some 5,true,2,none,false,false,0⟩,⟨true,false,false,false,false,true,false,false,true,true,false,0,some .internalNl,some 5,true,2,none,false,false,0⟩,⟨true,true,true,true,false,true,false,false,true,true,false,0,some .internalNl,some 5,true,2,none,false,false,0⟩],[⟨true,true,true,true,false,true,false,false,false,false,false,0,some (.own 3),some 5,true,2,none,false,false,0⟩,⟨true,false,false,false,false,true,false,false,true,true,false,0,some .internalNl,some 5,true,2,none,false,false,0⟩,⟨true,true,true,true,false,true,false,false,true,true,false,0,some .internalNl,some 5,true,2,none,false,false,0⟩],[⟨false,true,true,true,false,true,false,false,false,false,false,0,some (.own 3),some 5,true,2,none,false,false,2⟩,⟨false,false,false,false,false,true,false,false,true,true,false,0,some .internalNl,some 5,true,2,none,false,false,2⟩,⟨false,true,true,true,false,true,false,false,true,true,false,0,some .internalNl,some 5,true,2,none,false,false,2⟩],[⟨true,true,true,true,false,true,false,false,false,false,false,0,some (.own 3),some 5,true,2,none,false,false,1⟩,⟨true,false,false,false,false,true,false,false,true,true,false,0,some .internalNl,some 5,true,2,none,false,false,1⟩,⟨true,true,true,true,false,true,false,false,true,true,false,0,some .internalNl,some 5,true,2,none,false,false,1⟩],[⟨false,true,true,true,false,true,false,false,false,false,false,0,some (.own 3),some 5,true,2,none,false,false,0⟩,⟨false,true,false,true,false,true,false,false,true,true,false,0,some .internalNl,some 5,true,2,none,false,false,0⟩,⟨false,true,true,true,false,true,false,false,true,true,false,0,some .internalNl,some 5,true,2,none,false,false,0⟩],[⟨false,true,true,true,false,true,false,false,false,false,false,0,some (.own 3),some 1,true,1,none,false,false,0⟩],[⟨true,true,true,true,false,true,false,false,false,false,false,0,some (.own 3),some 5,true,2,none,false,false,0⟩,⟨true,false,false,false,false,true,false,false,true,true,false,0,some .internalNl,some 5,true,2,none,false,false,0⟩,⟨true,true,true,true,false,true,false,false,true,true,false,0,some .internalNl,some 5,true,2,none,false,false,0⟩],[]]
theorem modelica_line_bClosed : closed modelica_line_rows modelica_line_bTab BA.init (BA.succ ⟨false, true, true, false⟩ modelica_line_M) (BA.eofOk ⟨false, true, true, false⟩ modelica_line_M) = true := by
  decide +kernel
def modelica_line_B : BCert ⟨false, true, true, false⟩ modelica_line_M := ⟨modelica_line_D, modelica_line_bTab, modelica_line_bClosed⟩

def scala_line_bTab : List (List BA) := [[⟨false,false,false,false,false,false,false,true,false,false,false,0,none,none,false,0,none,false,false,0⟩],[⟨false,false,false,false,false,false,false,true,false,false,false,0,some (.own 0),some 0,false,1,none,false,false,0⟩],[⟨false,false,false,false,false,false,false,true,false,false,false,0,some .newline,none,false,1,none,false,false,2⟩],[⟨true,false,false,false,false,false,false,true,false,false,false,0,some .newline,some 3,false,1,none,false,false,1⟩],[⟨false,true,false,true,false,true,false,false,false,false,false,0,some (.own 3),some 4,true,1,none,false,false,0⟩],[⟨false,true,false,true,false,true,false,false,false,false,false,0,some (.own 3),some 4,true,1,none,false,false,0⟩],[⟨false,true,false,false,true,false,false,true,false,false,false,0,some (.own 3),some 4,true,1,none,false,false,0⟩],[⟨false,true,true,true,false,true,false,false,false,false,false,0,some (.own 3),some 4,true,2,none,false,false,0⟩],[⟨false,true,true,true,false,true,false,false,false,false,false,0,some (.own 3),some 4,true,2,none,false,false,0⟩],[⟨false,true,true,true,false,true,false,false,false,false,false,0,some (.own 3),some 4,true,2,none,false,false,0⟩],[⟨false,true,true,true,false,true,false,false,false,false,false,0,some (.own 3),some 4,true,2,none,false,false,0⟩],[⟨false,true,true,true,false,true,false,false,false,false,false,0,some (.own 3),some 4,true,2,none,false,false,0⟩],[⟨false,true,true,true,false,true,false,false,false,false,false,0,some (.own 3),some 1,true,1,none,false,false,0⟩],[⟨false,true,true,true,false,true,false,false,false,false,false,0,some (.own 3),some 4,true,2,none,false,false,0⟩],[⟨false,true,true,true,false,true,false,false,false,false,false,0,some (.own 3),some 4,true,2,none,false,false,0⟩],[⟨false,true,true,true,false,true,false,false,false,false,false,0,some (.own 3),some 4,true,2,none,false,false,0⟩,⟨false,true,false,true,false,true,false,false,true,true,false,0,some .internalNl,some 4,true,2,none,false,false,0⟩,⟨false,true,true,true,false,true,false,false,true,true,false,0,some .internalNl,some 4,true,2,none,false,false,0⟩],[⟨false,true,true,true,false,true,false,false,false,false,false,0,some (.own 3),some 4,true,2,none,false,false,0⟩,⟨false,false,false,false,false,true,false,false,true,true,false,0,some .internalNl,some 4,true,2,none,false,false,0⟩,⟨false,true,true,true,false,true,false,false,true,true,false,0,some .internalNl,some 4,true,2,none,false,false,0⟩],[⟨true,true,true,true,false,true,false,false,false,false,false,0,some (.own 3),some 4,true,2,none,false,false,0⟩,⟨true,false,false,false,false,true,false,false,true,true,false,0,some .internalNl,some 4,true,2,none,false,false,0⟩,⟨true,true,true,true,false,true,false,false,true,true,false,0,some .internalNl,some 4,true,2,none,false,false,0⟩],[⟨true,true,true,true,false,true,false,false,false,false,false,0,some (.own 3),some 4,true,2,none,false,false,0⟩,⟨true,false,false,false,false,true,false,false,true,true,false,0,some .internalNl,some 4,true,2,none,false,false,0⟩,⟨true,true,true,true,false,true,false,false,true,true,false,0,some .internalNl,some 4,true,2,none,false,false,0⟩],[⟨false,true,true,true,false,true,false,false,false,false,false,0,some (.own 3),some 4,true,2,none,false,false,2⟩,⟨false,false,false,false,false,true,false,false,true,true,false,0,some .internalNl,some 4,true,2,none,false,false,2⟩,⟨false,true,true,true,false,true,false,false,true,true,false,0,some .internalNl,some 4,true,2,none,false,false,2⟩],[⟨true,true,true,true,false,true,false,false,false,false,false,0,some (.own 3),some 4,true,2,none,false,false,1⟩,⟨true,false,false,false,false,true,false,false,true,true,false,0,some .internalNl,some 4,true,2,none,false,false,1⟩,⟨true,true,true,true,false,true,false,false,true,true,false,0,some .internalNl,some 4,true,2,none,false,false,1⟩],[⟨false,true,true,true,false,true,false,false,false,false,false,0,some (.own 3),some 4,true,2,none,false,false,0⟩,⟨false,true,false,true,false,true,false,false,true,true,false,0,some .internalNl,some 4,true,2,none,false,false,0⟩,⟨false,true,true,true,false,true,false,false,true,true,false,0,some .internalNl,some 4,true,2,none,false,false,0⟩],[⟨false,true,true,true,false,true,false,false,false,false,false,0,some (.own 3),some 1,true,1,none,false,false,0⟩],[⟨true,true,true,true,false,true,false,false,false,false,false,0,some (.own 3),some 4,true,2,none,false,false,0⟩,⟨true,false,false,false,false,true,false,false,true,true,false,0,some .internalNl,some 4,true,2,none,false,false,0⟩,⟨true,true,true,true,false,true,false,false,true,true,false,0,some .internalNl,some 4,true,2,none,false,false,0⟩],[]]
theorem scala_line_bClosed : closed scala_line_rows scala_line_bTab BA.init (BA.succ ⟨true, true, true, false⟩ scala_line_M) (BA.eofOk ⟨true, true, true, false⟩ scala_line_M) = true := by
  decide +kernel
def scala_line_B : BCert ⟨true, true, true, false⟩ scala_line_M := ⟨scala_line_D, scala_line_bTab, scala_line_bClosed⟩

end Ohcount.Cert
