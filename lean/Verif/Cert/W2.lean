import Verif.Cert.N2
import Verif.RagelSolid

/-! Generated by tools/gen_solid.py. -/

namespace Ohcount.Cert
open Ohcount.Ragel Ohcount.Gram

set_option maxRecDepth 100000

def ampl_line_wTab : List (List WA) := [[⟨none,false,false,false,none⟩],[⟨some (.own 0),false,false,false,some 0⟩],[⟨some .newline,true,false,false,none⟩],[⟨some .newline,true,false,true,some 2⟩],[⟨some (.own 2),true,false,true,some 1⟩],[⟨some (.own 2),true,false,true,some 3⟩],[⟨some (.own 2),true,true,true,some 1⟩,⟨some (.own 2),false,true,false,some 1⟩,⟨some (.own 2),true,false,true,some 1⟩,⟨some (.own 2),false,false,false,some 1⟩],[⟨some (.own 2),true,true,true,some 3⟩],[⟨some (.own 2),true,true,true,some 3⟩,⟨some .internalNl,true,true,true,some 3⟩,⟨some .internalNl,true,false,true,some 3⟩,⟨some (.own 2),true,false,true,some 3⟩],[⟨some (.own 2),false,true,true,some 3⟩,⟨some .internalNl,false,true,true,some 3⟩,⟨some .internalNl,false,false,true,some 3⟩,⟨some (.own 2),false,false,true,some 3⟩],[⟨some (.own 2),true,true,true,some 3⟩,⟨some .internalNl,true,true,true,some 3⟩,⟨some .internalNl,true,false,true,some 3⟩,⟨some (.own 2),true,false,true,some 3⟩],[⟨some (.own 2),true,true,true,some 3⟩,⟨some .internalNl,true,true,true,some 3⟩,⟨some .internalNl,true,false,true,some 3⟩,⟨some (.own 2),true,false,true,some 3⟩],[⟨some (.own 2),true,true,true,some 3⟩,⟨some .internalNl,true,true,true,some 3⟩,⟨some .internalNl,true,false,true,some 3⟩,⟨some (.own 2),true,false,true,some 3⟩],[⟨some (.own 2),true,true,true,some 3⟩,⟨some .internalNl,true,true,true,some 3⟩,⟨some .internalNl,true,false,true,some 3⟩,⟨some (.own 2),true,false,true,some 3⟩],[⟨some (.own 2),true,true,true,some 3⟩,⟨some .internalNl,true,true,true,some 3⟩,⟨some .internalNl,true,false,true,some 3⟩,⟨some (.own 2),true,false,true,some 3⟩],[⟨some .internalNl,true,true,true,some 3⟩,⟨some (.own 2),true,true,true,some 3⟩],[⟨some .internalNl,true,true,true,some 3⟩]]
theorem ampl_line_wClosed : closed ampl_line_rows ampl_line_wTab WA.init (WA.succ ampl_line_M) (WA.eofOk ampl_line_M) = true := by
  decide +kernel
def ampl_line_W : WCert ampl_line_M := ⟨ampl_line_D, ampl_line_wTab, ampl_line_wClosed⟩

def blitzmax_line_wTab : List (List WA) := [[⟨none,false,false,false,none⟩],[⟨some (.own 0),false,false,false,some 0⟩],[⟨some .newline,true,false,false,none⟩],[⟨some .newline,true,false,true,some 3⟩],[⟨some (.own 3),true,false,true,some 4⟩],[⟨some (.own 3),true,false,true,some 1⟩],[⟨some (.own 3),true,false,true,some 4⟩],[⟨some (.own 3),true,true,true,some 4⟩,⟨some (.own 3),false,true,true,some 4⟩,⟨some (.own 3),true,false,true,some 4⟩,⟨some (.own 3),false,false,true,some 4⟩],[⟨some (.own 3),true,true,true,some 4⟩,⟨some (.own 3),true,false,true,some 4⟩],[⟨some (.own 3),true,true,true,some 1⟩,⟨some (.own 3),false,true,false,some 1⟩,⟨some (.own 3),true,false,true,some 1⟩,⟨some (.own 3),false,false,false,some 1⟩],[⟨some (.own 3),true,true,true,some 4⟩],[⟨some (.own 3),true,true,true,some 4⟩,⟨some (.own 3),false,true,true,some 4⟩],[⟨some (.own 3),true,true,true,some 4⟩],[⟨some (.own 3),true,true,true,some 4⟩,⟨some (.own 3),true,false,true,some 4⟩,⟨some .internalNl,true,true,true,some 4⟩,⟨some .internalNl,true,false,true,some 4⟩],[⟨some (.own 3),false,true,true,some 4⟩,⟨some (.own 3),false,false,true,some 4⟩,⟨some .internalNl,false,true,true,some 4⟩,⟨some .internalNl,false,false,true,some 4⟩],[⟨some (.own 3),true,true,true,some 4⟩,⟨some (.own 3),true,false,true,some 4⟩,⟨some .internalNl,true,true,true,some 4⟩,⟨some .internalNl,true,false,true,some 4⟩],[⟨some (.own 3),true,true,true,some 4⟩,⟨some (.own 3),true,false,true,some 4⟩,⟨some .internalNl,true,true,true,some 4⟩,⟨some .internalNl,true,false,true,some 4⟩],[⟨some (.own 3),true,true,true,some 4⟩,⟨some (.own 3),true,false,true,some 4⟩,⟨some .internalNl,true,true,true,some 4⟩,⟨some .internalNl,true,false,true,some 4⟩],[⟨some (.own 3),true,true,true,some 4⟩,⟨some (.own 3),true,false,true,some 4⟩,⟨some .internalNl,true,true,true,some 4⟩,⟨some .internalNl,true,false,true,some 4⟩],[⟨some (.own 3),true,true,true,some 4⟩,⟨some (.own 3),true,false,true,some 4⟩,⟨some .internalNl,true,true,true,some 4⟩,⟨some .internalNl,true,false,true,some 4⟩],[⟨some .internalNl,true,true,true,some 4⟩,⟨some (.own 3),true,true,true,some 4⟩],[⟨some .internalNl,true,true,true,some 4⟩],[⟨some (.own 3),true,true,true,some 4⟩,⟨some .internalNl,true,true,true,some 4⟩],[⟨some (.own 3),true,true,true,some 4⟩,⟨some .internalNl,true,true,true,some 4⟩],[⟨some (.own 3),false,true,true,some 4⟩,⟨some .internalNl,false,true,true,some 4⟩],[⟨some (.own 3),true,true,true,some 4⟩,⟨some .internalNl,true,true,true,some 4⟩],[⟨some (.own 3),true,false,true,some 4⟩,⟨some .internalNl,true,false,true,some 4⟩],[⟨some (.own 3),true,true,true,some 4⟩,⟨some .internalNl,true,true,true,some 4⟩],[⟨some (.own 3),true,true,true,some 4⟩,⟨some .internalNl,true,true,true,some 4⟩]]
theorem blitzmax_line_wClosed : closed blitzmax_line_rows blitzmax_line_wTab WA.init (WA.succ blitzmax_line_M) (WA.eofOk blitzmax_line_M) = true := by
  decide +kernel
def blitzmax_line_W : WCert blitzmax_line_M := ⟨blitzmax_line_D, blitzmax_line_wTab, blitzmax_line_wClosed⟩

def coq_line_wTab : List (List WA) := [[⟨none,false,false,false,none⟩],[⟨some (.own 0),false,false,false,some 0⟩],[⟨some .newline,true,false,false,none⟩],[⟨some .newline,true,false,true,some 3⟩],[⟨some (.own 3),true,false,true,some 4⟩],[⟨some (.own 3),true,false,true,some 4⟩],[⟨some (.own 3),true,true,true,some 4⟩,⟨some .internalNl,true,true,true,some 4⟩,⟨some .internalNl,true,false,true,some 4⟩,⟨some (.own 3),true,false,true,some 4⟩],[⟨some (.own 3),false,true,true,some 4⟩,⟨some .internalNl,false,true,true,some 4⟩,⟨some .internalNl,false,false,true,some 4⟩,⟨some (.own 3),false,false,true,some 4⟩],[⟨some (.own 3),true,true,true,some 4⟩,⟨some .internalNl,true,true,true,some 4⟩,⟨some .internalNl,true,false,true,some 4⟩,⟨some (.own 3),true,false,true,some 4⟩],[⟨some (.own 3),true,true,true,some 4⟩,⟨some .internalNl,true,true,true,some 4⟩,⟨some .internalNl,true,false,true,some 4⟩,⟨some (.own 3),true,false,true,some 4⟩],[⟨some (.own 3),true,true,true,some 4⟩,⟨some .internalNl,true,true,true,some 4⟩,⟨some .internalNl,true,false,true,some 4⟩,⟨some (.own 3),true,false,true,some 4⟩],[⟨some (.own 3),true,true,true,some 4⟩,⟨some .internalNl,true,true,true,some 4⟩,⟨some .internalNl,true,false,true,some 4⟩,⟨some (.own 3),true,false,true,some 4⟩],[⟨some (.own 3),true,true,true,some 4⟩],[⟨some .internalNl,true,true,true,some 4⟩,⟨some (.own 3),true,true,true,some 4⟩],[⟨some (.own 3),true,true,true,some 4⟩,⟨some .internalNl,true,true,true,some 4⟩,⟨some .internalNl,true,false,true,some 4⟩,⟨some (.own 3),true,false,true,some 4⟩],[⟨some (.own 3),false,true,true,some 4⟩,⟨some .internalNl,false,true,true,some 4⟩,⟨some .internalNl,false,false,true,some 4⟩,⟨some (.own 3),false,false,true,some 4⟩],[⟨some (.own 3),true,true,true,some 4⟩,⟨some .internalNl,true,true,true,some 4⟩,⟨some .internalNl,true,false,true,some 4⟩,⟨some (.own 3),true,false,true,some 4⟩],[⟨some (.own 3),true,true,true,some 4⟩,⟨some .internalNl,true,true,true,some 4⟩,⟨some .internalNl,true,false,true,some 4⟩,⟨some (.own 3),true,false,true,some 4⟩],[⟨some (.own 3),true,true,true,some 4⟩,⟨some .internalNl,true,true,true,some 4⟩,⟨some .internalNl,true,false,true,some 4⟩,⟨some (.own 3),true,false,true,some 4⟩],[⟨some (.own 3),true,true,true,some 4⟩,⟨some .internalNl,true,true,true,some 4⟩,⟨some .internalNl,true,false,true,some 4⟩,⟨some (.own 3),true,false,true,some 4⟩],[⟨some (.own 3),true,true,true,some 4⟩,⟨some .internalNl,true,true,true,some 4⟩,⟨some .internalNl,true,false,true,some 4⟩,⟨some (.own 3),true,false,true,some 4⟩],[⟨some (.own 3),true,true,true,some 4⟩,⟨some .internalNl,true,true,true,some 4⟩,⟨some .internalNl,true,false,true,some 4⟩,⟨some (.own 3),true,false,true,some 4⟩],[⟨some (.own 3),true,true,true,some 4⟩,⟨some .internalNl,true,true,true,some 4⟩,⟨some .internalNl,true,false,true,some 4⟩,⟨some (.own 3),true,false,true,some 4⟩],[⟨some .internalNl,true,true,true,some 4⟩,⟨some (.own 3),true,true,true,some 4⟩],[⟨some .internalNl,true,true,true,some 4⟩],[⟨some (.own 3),true,true,true,some 4⟩,⟨some .internalNl,true,true,true,some 4⟩],[⟨some (.own 3),true,true,true,some 4⟩,⟨some .internalNl,true,true,true,some 4⟩],[⟨some (.own 3),true,true,true,some 4⟩,⟨some .internalNl,true,true,true,some 4⟩]]
theorem coq_line_wClosed : closed coq_line_rows coq_line_wTab WA.init (WA.succ coq_line_M) (WA.eofOk coq_line_M) = true := by
  decide +kernel
def coq_line_W : WCert coq_line_M := ⟨coq_line_D, coq_line_wTab, coq_line_wClosed⟩

def crystal_line_wTab : List (List WA) := [[⟨none,false,false,false,none⟩],[⟨some (.own 0),false,false,false,some 0⟩],[⟨some .newline,true,false,false,none⟩],[⟨some .newline,true,false,true,some 3⟩],[⟨some (.own 3),true,false,true,some 4⟩],[⟨some (.own 3),true,false,true,some 1⟩],[⟨some (.own 3),true,false,true,some 4⟩],[⟨some (.own 3),true,false,true,some 4⟩],[⟨some (.own 3),true,false,true,some 4⟩],[⟨some (.own 3),true,false,true,some 4⟩],[⟨some (.own 3),true,true,true,some 4⟩,⟨some (.own 3),true,false,true,some 4⟩,⟨some .internalNl,true,true,true,some 4⟩,⟨some .internalNl,true,false,true,some 4⟩],[⟨some (.own 3),false,true,true,some 4⟩,⟨some (.own 3),false,false,true,some 4⟩,⟨some .internalNl,false,true,true,some 4⟩,⟨some .internalNl,false,false,true,some 4⟩],[⟨some (.own 3),true,true,true,some 4⟩,⟨some (.own 3),true,false,true,some 4⟩,⟨some .internalNl,true,false,true,some 4⟩,⟨some .internalNl,true,true,true,some 4⟩],[⟨some (.own 3),true,true,true,some 4⟩,⟨some (.own 3),true,false,true,some 4⟩,⟨some .internalNl,true,true,true,some 4⟩,⟨some .internalNl,true,false,true,some 4⟩],[⟨some (.own 3),true,true,true,some 4⟩,⟨some (.own 3),true,false,true,some 4⟩,⟨some .internalNl,true,true,true,some 4⟩,⟨some .internalNl,true,false,true,some 4⟩],[⟨some (.own 3),true,true,true,some 4⟩,⟨some (.own 3),true,false,true,some 4⟩,⟨some .internalNl,true,true,true,some 4⟩,⟨some .internalNl,true,false,true,some 4⟩],[⟨some (.own 3),true,true,true,some 4⟩,⟨some (.own 3),true,false,true,some 4⟩,⟨some .internalNl,true,true,true,some 4⟩,⟨some .internalNl,true,false,true,some 4⟩],[⟨some (.own 3),true,true,true,some 1⟩,⟨some (.own 3),false,true,false,some 1⟩,⟨some (.own 3),true,false,true,some 1⟩,⟨some (.own 3),false,false,false,some 1⟩],[⟨some (.own 3),true,true,true,some 4⟩],[⟨some (.own 3),true,true,true,some 4⟩],[⟨some (.own 3),true,true,true,some 4⟩],[⟨some (.own 3),true,true,true,some 4⟩,⟨some (.own 3),false,true,true,some 4⟩,⟨some (.own 3),true,false,true,some 4⟩,⟨some (.own 3),false,false,true,some 4⟩],[⟨some (.own 3),true,true,true,some 4⟩,⟨some (.own 3),true,false,true,some 4⟩],[⟨some (.own 3),true,true,true,some 4⟩],[⟨some (.own 3),true,true,true,some 4⟩,⟨some (.own 3),true,false,true,some 4⟩,⟨some .internalNl,true,true,true,some 4⟩,⟨some .internalNl,true,false,true,some 4⟩],[⟨some (.own 3),false,true,true,some 4⟩,⟨some (.own 3),false,false,true,some 4⟩,⟨some .internalNl,false,true,true,some 4⟩,⟨some .internalNl,false,false,true,some 4⟩],[⟨some (.own 3),true,true,true,some 4⟩,⟨some (.own 3),true,false,true,some 4⟩,⟨some .internalNl,true,false,true,some 4⟩,⟨some .internalNl,true,true,true,some 4⟩],[⟨some (.own 3),true,true,true,some 4⟩,⟨some (.own 3),true,false,true,some 4⟩,⟨some .internalNl,true,true,true,some 4⟩,⟨some .internalNl,true,false,true,some 4⟩],[⟨some (.own 3),true,true,true,some 4⟩,⟨some (.own 3),true,false,true,some 4⟩,⟨some .internalNl,true,true,true,some 4⟩,⟨some .internalNl,true,false,true,some 4⟩],[⟨some (.own 3),true,true,true,some 4⟩,⟨some (.own 3),true,false,true,some 4⟩,⟨some .internalNl,true,true,true,some 4⟩,⟨some .internalNl,true,false,true,some 4⟩],[⟨some (.own 3),true,true,true,some 4⟩,⟨some (.own 3),true,false,true,some 4⟩,⟨some .internalNl,true,true,true,some 4⟩,⟨some .internalNl,true,false,true,some 4⟩],[⟨some .internalNl,true,true,true,some 4⟩,⟨some (.own 3),true,true,true,some 4⟩],[⟨some .internalNl,true,true,true,some 4⟩],[⟨some (.own 3),true,true,true,some 4⟩,⟨some (.own 3),false,true,true,some 4⟩,⟨some .internalNl,true,true,true,some 4⟩,⟨some .internalNl,false,true,true,some 4⟩],[⟨some (.own 3),true,true,true,some 4⟩,⟨some (.own 3),true,false,true,some 4⟩,⟨some .internalNl,true,true,true,some 4⟩,⟨some .internalNl,true,false,true,some 4⟩],[⟨some (.own 3),false,true,true,some 4⟩,⟨some (.own 3),false,false,true,some 4⟩,⟨some .internalNl,false,true,true,some 4⟩,⟨some .internalNl,false,false,true,some 4⟩],[⟨some (.own 3),true,true,true,some 4⟩,⟨some (.own 3),true,false,true,some 4⟩,⟨some .internalNl,true,false,true,some 4⟩,⟨some .internalNl,true,true,true,some 4⟩],[⟨some (.own 3),true,true,true,some 4⟩,⟨some (.own 3),true,false,true,some 4⟩,⟨some .internalNl,true,true,true,some 4⟩,⟨some .internalNl,true,false,true,some 4⟩],[⟨some (.own 3),true,true,true,some 4⟩,⟨some (.own 3),true,false,true,some 4⟩,⟨some .internalNl,true,true,true,some 4⟩,⟨some .internalNl,true,false,true,some 4⟩],[⟨some (.own 3),true,true,true,some 4⟩,⟨some (.own 3),true,false,true,some 4⟩,⟨some .internalNl,true,true,true,some 4⟩,⟨some .internalNl,true,false,true,some 4⟩],[⟨some (.own 3),true,true,true,some 4⟩,⟨some (.own 3),true,false,true,some 4⟩,⟨some .internalNl,true,true,true,some 4⟩,⟨some .internalNl,true,false,true,some 4⟩],[⟨some (.own 3),true,true,true,some 4⟩],[⟨some (.own 3),true,true,true,some 4⟩,⟨some (.own 3),false,true,true,some 4⟩],[⟨some (.own 3),true,true,true,some 4⟩],[⟨some .internalNl,true,true,true,some 4⟩,⟨some (.own 3),true,true,true,some 4⟩],[⟨some .internalNl,true,true,true,some 4⟩],[⟨some (.own 3),true,true,true,some 4⟩,⟨some (.own 3),false,true,true,some 4⟩,⟨some .internalNl,true,true,true,some 4⟩,⟨some .internalNl,false,true,true,some 4⟩],[⟨some .internalNl,true,true,true,some 4⟩,⟨some (.own 3),true,true,true,some 4⟩],[⟨some .internalNl,true,true,true,some 4⟩],[⟨some (.own 3),true,true,true,some 4⟩,⟨some (.own 3),false,true,true,some 4⟩,⟨some .internalNl,true,true,true,some 4⟩,⟨some .internalNl,false,true,true,some 4⟩],[⟨some (.own 3),true,true,true,some 4⟩,⟨some (.own 3),true,false,true,some 4⟩,⟨some .internalNl,true,true,true,some 4⟩,⟨some .internalNl,true,false,true,some 4⟩],[⟨some (.own 3),false,true,true,some 4⟩,⟨some (.own 3),false,false,true,some 4⟩,⟨some .internalNl,false,true,true,some 4⟩,⟨some .internalNl,false,false,true,some 4⟩],[⟨some (.own 3),true,true,true,some 4⟩,⟨some (.own 3),true,false,true,some 4⟩,⟨some .internalNl,true,false,true,some 4⟩,⟨some .internalNl,true,true,true,some 4⟩],[⟨some (.own 3),true,true,true,some 4⟩,⟨some (.own 3),true,false,true,some 4⟩,⟨some .internalNl,true,true,true,some 4⟩,⟨some .internalNl,true,false,true,some 4⟩],[⟨some (.own 3),true,true,true,some 4⟩,⟨some (.own 3),true,false,true,some 4⟩,⟨some .internalNl,true,true,true,some 4⟩,⟨some .internalNl,true,false,true,some 4⟩],[⟨some (.own 3),true,true,true,some 4⟩,⟨some (.own 3),true,false,true,some 4⟩,⟨some .internalNl,true,true,true,some 4⟩,⟨some .internalNl,true,false,true,some 4⟩],[⟨some (.own 3),true,true,true,some 4⟩,⟨some (.own 3),true,false,true,some 4⟩,⟨some .internalNl,true,true,true,some 4⟩,⟨some .internalNl,true,false,true,some 4⟩],[⟨some (.own 3),true,true,true,some 4⟩],[⟨some .internalNl,true,true,true,some 4⟩,⟨some (.own 3),true,true,true,some 4⟩],[⟨some .internalNl,true,true,true,some 4⟩],[⟨some (.own 3),true,true,true,some 4⟩,⟨some (.own 3),false,true,true,some 4⟩,⟨some .internalNl,true,true,true,some 4⟩,⟨some .internalNl,false,true,true,some 4⟩],[⟨some (.own 3),true,true,true,some 4⟩],[⟨some (.own 3),true,true,true,some 4⟩],[⟨some (.own 3),true,true,true,some 4⟩,⟨some .internalNl,true,true,true,some 4⟩,⟨some .internalNl,true,false,true,some 4⟩,⟨some (.own 3),true,false,true,some 4⟩],[⟨some (.own 3),false,true,true,some 4⟩,⟨some .internalNl,false,true,true,some 4⟩,⟨some .internalNl,false,false,true,some 4⟩,⟨some (.own 3),false,false,true,some 4⟩],[⟨some (.own 3),true,true,true,some 4⟩,⟨some .internalNl,true,true,true,some 4⟩,⟨some .internalNl,true,false,true,some 4⟩,⟨some (.own 3),true,false,true,some 4⟩],[⟨some (.own 3),true,true,true,some 4⟩,⟨some .internalNl,true,true,true,some 4⟩,⟨some .internalNl,true,false,true,some 4⟩,⟨some (.own 3),true,false,true,some 4⟩],[⟨some (.own 3),true,true,true,some 4⟩,⟨some .internalNl,true,true,true,some 4⟩,⟨some .internalNl,true,false,true,some 4⟩,⟨some (.own 3),true,false,true,some 4⟩],[⟨some (.own 3),true,true,true,some 4⟩,⟨some .internalNl,true,true,true,some 4⟩,⟨some .internalNl,true,false,true,some 4⟩,⟨some (.own 3),true,false,true,some 4⟩],[⟨some (.own 3),true,true,true,some 4⟩,⟨some .internalNl,true,true,true,some 4⟩,⟨some .internalNl,true,false,true,some 4⟩,⟨some (.own 3),true,false,true,some 4⟩],[⟨some .internalNl,true,true,true,some 4⟩,⟨some (.own 3),true,true,true,some 4⟩],[⟨some .internalNl,true,true,true,some 4⟩],[⟨some (.own 3),true,true,true,some 4⟩,⟨some .internalNl,true,true,true,some 4⟩],[⟨some (.own 3),true,true,true,some 4⟩,⟨some .internalNl,true,true,true,some 4⟩]]
theorem crystal_line_wClosed : closed crystal_line_rows crystal_line_wTab WA.init (WA.succ crystal_line_M) (WA.eofOk crystal_line_M) = true := by
  decide +kernel
def crystal_line_W : WCert crystal_line_M := ⟨crystal_line_D, crystal_line_wTab, crystal_line_wClosed⟩

def ffixed_line_wTab : List (List WA) := [[⟨none,false,false,false,none⟩],[⟨some (.own 0),false,false,false,some 0⟩],[⟨some .newline,true,false,false,none⟩],[⟨some .newline,true,false,true,some 3⟩],[⟨some (.own 3),true,false,true,some 4⟩],[⟨some (.own 3),true,false,true,some 4⟩],[⟨some (.own 3),true,false,true,some 1⟩],[⟨some (.own 3),true,true,true,some 4⟩,⟨some (.own 3),false,true,true,some 4⟩,⟨some (.own 3),true,true,true,some 2⟩,⟨some (.own 3),false,true,true,some 2⟩,⟨some (.own 3),true,false,true,some 2⟩,⟨some (.own 3),false,false,true,some 2⟩,⟨some (.own 3),true,false,true,some 4⟩,⟨some (.own 3),false,false,true,some 4⟩],[⟨some (.own 3),true,true,true,some 2⟩,⟨some (.own 3),true,false,true,some 2⟩],[⟨some (.own 3),true,true,true,some 4⟩,⟨some (.own 3),false,true,true,some 4⟩,⟨some (.own 3),true,true,true,some 2⟩,⟨some (.own 3),false,true,true,some 2⟩,⟨some (.own 3),true,false,true,some 2⟩,⟨some (.own 3),false,false,true,some 2⟩,⟨some (.own 3),true,false,true,some 4⟩,⟨some (.own 3),false,false,true,some 4⟩],[⟨some (.own 3),true,true,true,some 2⟩,⟨some (.own 3),true,false,true,some 2⟩],[⟨some (.own 3),true,true,true,some 1⟩,⟨some (.own 3),false,true,false,some 1⟩,⟨some (.own 3),true,false,true,some 1⟩,⟨some (.own 3),false,false,false,some 1⟩]]
theorem ffixed_line_wClosed : closed ffixed_line_rows ffixed_line_wTab WA.init (WA.succ ffixed_line_M) (WA.eofOk ffixed_line_M) = true := by
  decide +kernel
def ffixed_line_W : WCert ffixed_line_M := ⟨ffixed_line_D, ffixed_line_wTab, ffixed_line_wClosed⟩

def modelica_line_wTab : List (List WA) := [[⟨none,false,false,false,none⟩],[⟨some (.own 0),false,false,false,some 0⟩],[⟨some .newline,true,false,false,none⟩],[⟨some .newline,true,false,true,some 2⟩],[⟨some (.own 3),true,false,true,some 5⟩],[⟨some (.own 3),true,false,true,some 5⟩],[⟨some (.own 3),true,false,true,some 3⟩],[⟨some (.own 3),true,true,true,some 5⟩,⟨some (.own 3),true,false,true,some 5⟩],[⟨some (.own 3),false,true,true,some 5⟩,⟨some (.own 3),false,false,true,some 5⟩],[⟨some (.own 3),true,true,true,some 5⟩,⟨some (.own 3),true,false,true,some 5⟩],[⟨some (.own 3),true,true,true,some 5⟩,⟨some (.own 3),true,false,true,some 5⟩],[⟨some (.own 3),true,true,true,some 5⟩,⟨some (.own 3),true,false,true,some 5⟩],[⟨some (.own 3),true,true,true,some 5⟩,⟨some (.own 3),true,false,true,some 5⟩],[⟨some (.own 3),true,true,true,some 5⟩,⟨some (.own 3),true,false,true,some 5⟩],[⟨some (.own 3),true,true,true,some 5⟩],[⟨some (.own 3),true,true,true,some 1⟩],[⟨some (.own 3),true,true,true,some 3⟩],[⟨some (.own 3),true,true,true,some 5⟩],[⟨some (.own 3),true,true,true,some 5⟩],[⟨some (.own 3),true,true,true,some 5⟩,⟨some .internalNl,true,true,true,some 5⟩,⟨some .internalNl,true,false,true,some 5⟩,⟨some (.own 3),true,false,true,some 5⟩],[⟨some (.own 3),false,true,true,some 5⟩,⟨some .internalNl,false,true,true,some 5⟩,⟨some .internalNl,false,false,true,some 5⟩,⟨some (.own 3),false,false,true,some 5⟩],[⟨some (.own 3),true,true,true,some 5⟩,⟨some .internalNl,true,true,true,some 5⟩,⟨some .internalNl,true,false,true,some 5⟩,⟨some (.own 3),true,false,true,some 5⟩],[⟨some (.own 3),true,true,true,some 5⟩,⟨some .internalNl,true,true,true,some 5⟩,⟨some .internalNl,true,false,true,some 5⟩,⟨some (.own 3),true,false,true,some 5⟩],[⟨some (.own 3),true,true,true,some 5⟩,⟨some .internalNl,true,true,true,some 5⟩,⟨some .internalNl,true,false,true,some 5⟩,⟨some (.own 3),true,false,true,some 5⟩],[⟨some (.own 3),true,true,true,some 5⟩,⟨some .internalNl,true,true,true,some 5⟩,⟨some .internalNl,true,false,true,some 5⟩,⟨some (.own 3),true,false,true,some 5⟩],[⟨some (.own 3),true,true,true,some 5⟩,⟨some .internalNl,true,true,true,some 5⟩,⟨some .internalNl,true,false,true,some 5⟩,⟨some (.own 3),true,false,true,some 5⟩],[⟨some (.own 3),true,true,true,some 1⟩,⟨some (.own 3),false,true,false,some 1⟩,⟨some (.own 3),true,false,true,some 1⟩,⟨some (.own 3),false,false,false,some 1⟩],[⟨some .internalNl,true,true,true,some 5⟩,⟨some (.own 3),true,true,true,some 5⟩],[⟨some .internalNl,true,true,true,some 5⟩]]
theorem modelica_line_wClosed : closed modelica_line_rows modelica_line_wTab WA.init (WA.succ modelica_line_M) (WA.eofOk modelica_line_M) = true := by
  decide +kernel
def modelica_line_W : WCert modelica_line_M := ⟨modelica_line_D, modelica_line_wTab, modelica_line_wClosed⟩

def scala_line_wTab : List (List WA) := [[⟨none,false,false,false,none⟩],[⟨some (.own 0),false,false,false,some 0⟩],[⟨some .newline,true,false,false,none⟩],[⟨some .newline,true,false,true,some 3⟩],[⟨some (.own 3),true,false,true,some 4⟩],[⟨some (.own 3),true,false,true,some 4⟩],[⟨some (.own 3),true,false,true,some 4⟩],[⟨some (.own 3),true,true,true,some 4⟩,⟨some (.own 3),false,true,true,some 4⟩,⟨some (.own 3),true,false,true,some 4⟩,⟨some (.own 3),false,false,true,some 4⟩],[⟨some (.own 3),true,true,true,some 4⟩,⟨some (.own 3),true,false,true,some 4⟩],[⟨some (.own 3),true,true,true,some 4⟩,⟨some (.own 3),false,true,true,some 4⟩,⟨some (.own 3),true,false,true,some 4⟩,⟨some (.own 3),false,false,true,some 4⟩],[⟨some (.own 3),true,true,true,some 4⟩,⟨some (.own 3),true,false,true,some 4⟩],[⟨some (.own 3),true,true,true,some 4⟩],[⟨some (.own 3),true,true,true,some 1⟩],[⟨some (.own 3),true,true,true,some 4⟩,⟨some (.own 3),false,true,true,some 4⟩],[⟨some (.own 3),true,true,true,some 4⟩,⟨some (.own 3),false,true,true,some 4⟩],[⟨some (.own 3),true,true,true,some 4⟩,⟨some .internalNl,true,true,true,some 4⟩,⟨some .internalNl,true,false,true,some 4⟩,⟨some (.own 3),true,false,true,some 4⟩],[⟨some (.own 3),false,true,true,some 4⟩,⟨some .internalNl,false,true,true,some 4⟩,⟨some .internalNl,false,false,true,some 4⟩,⟨some (.own 3),false,false,true,some 4⟩],[⟨some (.own 3),true,true,true,some 4⟩,⟨some .internalNl,true,true,true,some 4⟩,⟨some .internalNl,true,false,true,some 4⟩,⟨some (.own 3),true,false,true,some 4⟩],[⟨some (.own 3),true,true,true,some 4⟩,⟨some .internalNl,true,true,true,some 4⟩,⟨some .internalNl,true,false,true,some 4⟩,⟨some (.own 3),true,false,true,some 4⟩],[⟨some (.own 3),true,true,true,some 4⟩,⟨some .internalNl,true,true,true,some 4⟩,⟨some .internalNl,true,false,true,some 4⟩,⟨some (.own 3),true,false,true,some 4⟩],[⟨some (.own 3),true,true,true,some 4⟩,⟨some .internalNl,true,true,true,some 4⟩,⟨some .internalNl,true,false,true,some 4⟩,⟨some (.own 3),true,false,true,some 4⟩],[⟨some (.own 3),true,true,true,some 4⟩,⟨some .internalNl,true,true,true,some 4⟩,⟨some .internalNl,true,false,true,some 4⟩,⟨some (.own 3),true,false,true,some 4⟩],[⟨some (.own 3),true,true,true,some 1⟩,⟨some (.own 3),false,true,false,some 1⟩,⟨some (.own 3),true,false,true,some 1⟩,⟨some (.own 3),false,false,false,some 1⟩],[⟨some .internalNl,true,true,true,some 4⟩,⟨some (.own 3),true,true,true,some 4⟩],[⟨some .internalNl,true,true,true,some 4⟩]]
theorem scala_line_wClosed : closed scala_line_rows scala_line_wTab WA.init (WA.succ scala_line_M) (WA.eofOk scala_line_M) = true := by
  decide +kernel
def scala_line_W : WCert scala_line_M := ⟨scala_line_D, scala_line_wTab, scala_line_wClosed⟩

end Ohcount.Cert
