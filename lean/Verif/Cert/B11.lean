import Verif.Cert.N11
import Verif.RagelExact

/-! Generated by tools/gen_certs.py. -/

namespace Ohcount.Cert
open Ohcount.Ragel Ohcount.Gram

set_option maxRecDepth 100000

def as_line_bTab : List (List BA) := [[⟨false,false,false,false,false,false,false,true,false,false,false,0,none,none,false,0,none,false,false,0⟩],[⟨false,false,false,false,false,false,false,true,false,false,false,0,some (.own 0),some 0,false,1,none,false,false,0⟩],[⟨false,false,false,false,false,false,false,true,false,false,false,0,some .newline,none,false,1,none,false,false,2⟩],[⟨true,false,false,false,false,false,false,true,false,false,false,0,some .newline,some 3,false,1,none,false,false,1⟩],[⟨false,true,false,true,false,true,false,false,false,false,false,0,some (.own 3),some 4,true,1,none,false,false,0⟩],[⟨false,true,false,true,false,true,false,false,false,false,false,0,some (.own 3),some 4,true,1,none,false,false,0⟩],[⟨false,true,false,false,true,false,false,true,false,false,false,0,some (.own 3),some 4,true,1,none,false,false,0⟩],[⟨false,true,false,false,true,false,false,true,false,false,false,0,some (.own 3),some 4,true,1,none,false,false,0⟩],[⟨false,true,true,true,false,true,false,false,false,false,false,0,some (.own 3),some 4,true,2,none,false,false,0⟩],[⟨false,true,true,true,false,true,false,false,false,false,false,0,some (.own 3),some 4,true,2,none,false,false,0⟩],[⟨false,true,true,true,false,true,false,false,false,false,false,0,some (.own 3),some 4,true,2,none,false,false,0⟩],[⟨false,true,true,true,false,true,false,false,false,false,false,0,some (.own 3),some 4,true,2,none,false,false,0⟩],[⟨false,true,true,true,false,true,false,false,false,false,false,0,some (.own 3),some 4,true,2,none,false,false,0⟩],[⟨false,true,true,true,false,true,false,false,false,false,false,0,some (.own 3),some 1,true,1,none,false,false,0⟩],[⟨false,true,true,false,true,false,false,true,false,false,false,0,some (.own 3),some 4,true,2,none,false,false,0⟩],[⟨false,true,true,true,false,true,false,false,false,false,false,0,some (.own 3),some 4,true,2,none,false,false,0⟩],[⟨false,true,true,true,false,true,false,false,false,false,false,0,some (.own 3),some 4,true,2,none,false,false,0⟩],[⟨false,true,true,true,false,true,false,false,false,false,false,0,some (.own 3),some 4,true,2,none,false,false,0⟩,⟨false,true,false,true,false,true,false,false,true,true,false,0,some .internalNl,some 4,true,2,none,false,false,0⟩,⟨false,true,true,true,false,true,false,false,true,true,false,0,some .internalNl,some 4,true,2,none,false,false,0⟩],[⟨false,true,true,true,false,true,false,false,false,false,false,0,some (.own 3),some 4,true,2,none,false,false,0⟩,⟨false,false,false,false,false,true,false,false,true,true,false,0,some .internalNl,some 4,true,2,none,false,false,0⟩,⟨false,true,true,true,false,true,false,false,true,true,false,0,some .internalNl,some 4,true,2,none,false,false,0⟩],[⟨true,true,true,true,false,true,false,false,false,false,false,0,some (.own 3),some 4,true,2,none,false,false,0⟩,⟨true,false,false,false,false,true,false,false,true,true,false,0,some .internalNl,some 4,true,2,none,false,false,0⟩,⟨true,true,true,true,false,true,false,false,true,true,false,0,some .internalNl,some 4,true,2,none,false,false,0⟩],[⟨true,true,true,true,false,true,false,false,false,false,false,0,some (.own 3),some 4,true,2,none,false,false,0⟩,⟨true,false,false,false,false,true,false,false,true,true,false,0,some .internalNl,some 4,true,2,none,false,false,0⟩,⟨true,true,true,true,false,true,false,false,true,true,false,0,some .internalNl,some 4,true,2,none,false,false,0⟩],[⟨false,true,true,true,false,true,false,false,false,false,false,0,some (.own 3),some 4,true,2,none,false,false,2⟩,⟨false,false,false,false,false,true,false,false,true,true,false,0,some .internalNl,some 4,true,2,none,false,false,2⟩,⟨false,true,true,true,false,true,false,false,true,true,false,0,some .internalNl,some 4,true,2,none,false,false,2⟩],[⟨true,true,true,true,false,true,false,false,false,false,false,0,some (.own 3),some 4,true,2,none,false,false,1⟩,⟨true,false,false,false,false,true,false,false,true,true,false,0,some .internalNl,some 4,true,2,none,false,false,1⟩,⟨true,true,true,true,false,true,false,false,true,true,false,0,some .internalNl,some 4,true,2,none,false,false,1⟩],[⟨false,true,true,true,false,true,false,false,false,false,false,0,some (.own 3),some 4,true,2,none,false,false,0⟩,⟨false,true,false,true,false,true,false,false,true,true,false,0,some .internalNl,some 4,true,2,none,false,false,0⟩,⟨false,true,true,true,false,true,false,false,true,true,false,0,some .internalNl,some 4,true,2,none,false,false,0⟩],[⟨false,true,true,true,false,true,false,false,false,false,false,0,some (.own 3),some 1,true,1,none,false,false,0⟩],[⟨false,true,true,false,true,false,false,true,false,false,false,0,some (.own 3),some 4,true,2,none,false,false,0⟩],[⟨true,true,true,true,false,true,false,false,false,false,false,0,some (.own 3),some 4,true,2,none,false,false,0⟩,⟨true,false,false,false,false,true,false,false,true,true,false,0,some .internalNl,some 4,true,2,none,false,false,0⟩,⟨true,true,true,true,false,true,false,false,true,true,false,0,some .internalNl,some 4,true,2,none,false,false,0⟩],[],[⟨false,true,true,false,true,false,false,true,false,false,false,0,some (.own 3),some 4,true,2,none,false,false,0⟩],[⟨false,true,true,false,true,false,false,true,false,false,false,0,some (.own 3),some 4,true,2,none,false,false,0⟩],[⟨false,true,true,false,true,false,false,true,false,false,false,0,some (.own 3),some 4,true,2,none,false,false,0⟩],[⟨false,true,true,false,true,false,false,true,false,false,false,0,some (.own 3),some 4,true,2,none,false,false,0⟩],[⟨false,true,true,false,true,false,false,true,false,false,false,0,some (.own 3),some 4,true,2,none,false,false,0⟩],[⟨false,true,true,true,false,true,false,false,false,false,false,0,some (.own 3),some 4,true,2,none,false,false,0⟩],[⟨false,true,true,true,false,true,false,false,false,false,false,0,some (.own 3),some 4,true,2,none,false,false,0⟩,⟨false,true,false,true,false,true,false,false,true,true,false,0,some .internalNl,some 4,true,2,none,false,false,0⟩,⟨false,true,true,true,false,true,false,false,true,true,false,0,some .internalNl,some 4,true,2,none,false,false,0⟩],[⟨false,true,true,true,false,true,false,false,false,false,false,0,some (.own 3),some 4,true,2,none,false,false,0⟩,⟨false,false,false,false,false,true,false,false,true,true,false,0,some .internalNl,some 4,true,2,none,false,false,0⟩,⟨false,true,true,true,false,true,false,false,true,true,false,0,some .internalNl,some 4,true,2,none,false,false,0⟩],[⟨true,true,true,true,false,true,false,false,false,false,false,0,some (.own 3),some 4,true,2,none,false,false,0⟩,⟨true,false,false,false,false,true,false,false,true,true,false,0,some .internalNl,some 4,true,2,none,false,false,0⟩,⟨true,true,true,true,false,true,false,false,true,true,false,0,some .internalNl,some 4,true,2,none,false,false,0⟩],[⟨true,true,true,true,false,true,false,false,false,false,false,0,some (.own 3),some 4,true,2,none,false,false,0⟩,⟨true,false,false,false,false,true,false,false,true,true,false,0,some .internalNl,some 4,true,2,none,false,false,0⟩,⟨true,true,true,true,false,true,false,false,true,true,false,0,some .internalNl,some 4,true,2,none,false,false,0⟩],[⟨false,true,true,true,false,true,false,false,false,false,false,0,some (.own 3),some 4,true,2,none,false,false,2⟩,⟨false,false,false,false,false,true,false,false,true,true,false,0,some .internalNl,some 4,true,2,none,false,false,2⟩,⟨false,true,true,true,false,true,false,false,true,true,false,0,some .internalNl,some 4,true,2,none,false,false,2⟩],[⟨true,true,true,true,false,true,false,false,false,false,false,0,some (.own 3),some 4,true,2,none,false,false,1⟩,⟨true,false,false,false,false,true,false,false,true,true,false,0,some .internalNl,some 4,true,2,none,false,false,1⟩,⟨true,true,true,true,false,true,false,false,true,true,false,0,some .internalNl,some 4,true,2,none,false,false,1⟩],[⟨false,true,true,true,false,true,false,false,false,false,false,0,some (.own 3),some 4,true,2,none,false,false,0⟩,⟨false,true,false,true,false,true,false,false,true,true,false,0,some .internalNl,some 4,true,2,none,false,false,0⟩,⟨false,true,true,true,false,true,false,false,true,true,false,0,some .internalNl,some 4,true,2,none,false,false,0⟩],[⟨true,true,true,true,false,true,false,false,false,false,false,0,some (.own 3),some 4,true,2,none,false,false,0⟩,⟨true,false,false,false,false,true,false,false,true,true,false,0,some .internalNl,some 4,true,2,none,false,false,0⟩,⟨true,true,true,true,false,true,false,false,true,true,false,0,some .internalNl,some 4,true,2,none,false,false,0⟩],[],[⟨false,true,true,true,false,true,false,false,false,false,false,0,some (.own 3),some 4,true,2,none,false,false,0⟩,⟨false,true,true,true,false,true,false,false,true,true,false,0,some .internalNl,some 4,true,2,none,false,false,0⟩]]
theorem as_line_bClosed : closed as_line_rows as_line_bTab BA.init (BA.succ ⟨true, true, true, false⟩ as_line_M) (BA.eofOk ⟨true, true, true, false⟩ as_line_M) = true := by
  decide +kernel
def as_line_B : BCert ⟨true, true, true, false⟩ as_line_M := ⟨as_line_D, as_line_bTab, as_line_bClosed⟩

def dcl_line_bTab : List (List BA) := [[⟨false,false,false,false,false,false,false,true,false,false,false,0,none,none,false,0,none,false,false,0⟩],[⟨false,false,false,false,false,false,false,true,false,false,false,0,some (.own 0),some 1,false,1,none,false,false,0⟩],[⟨false,false,false,false,false,false,false,true,false,false,false,0,some .newline,none,false,1,none,false,false,2⟩],[⟨true,false,false,false,false,false,false,true,false,false,false,0,some .newline,some 4,false,1,none,false,false,1⟩],[⟨false,true,false,true,false,true,false,false,false,false,false,0,some (.own 4),some 2,true,1,none,false,false,0⟩],[⟨false,true,false,true,false,true,false,false,false,false,false,0,some (.own 4),some 5,true,1,none,false,false,0⟩],[⟨false,true,true,true,false,true,false,false,false,false,false,0,some (.own 4),some 2,true,1,none,false,false,0⟩],[⟨false,true,true,true,false,true,false,false,false,false,false,0,some (.own 4),some 5,true,2,none,false,false,0⟩],[⟨false,true,true,true,false,true,false,false,false,false,false,0,some (.own 4),some 5,true,2,none,false,false,0⟩],[⟨false,true,true,true,false,true,false,false,false,false,false,0,some (.own 4),some 5,true,2,none,false,false,0⟩]]
theorem dcl_line_bClosed : closed dcl_line_rows dcl_line_bTab BA.init (BA.succ ⟨true, false, false, false⟩ dcl_line_M) (BA.eofOk ⟨true, false, false, false⟩ dcl_line_M) = true := by
  decide +kernel
def dcl_line_B : BCert ⟨true, false, false, false⟩ dcl_line_M := ⟨dcl_line_D, dcl_line_bTab, dcl_line_bClosed⟩

def fsharp_line_bTab : List (List BA) := [[⟨false,false,false,false,false,false,false,true,false,false,false,0,none,none,false,0,none,false,false,0⟩],[⟨false,false,false,false,false,false,false,true,false,false,false,0,some (.own 0),some 0,false,1,none,false,false,0⟩],[⟨false,false,false,false,false,false,false,true,false,false,false,0,some .newline,none,false,1,none,false,false,2⟩],[⟨true,false,false,false,false,false,false,true,false,false,false,0,some .newline,some 3,false,1,none,false,false,1⟩],[⟨false,true,false,true,false,true,false,false,false,false,false,0,some (.own 8),some 4,true,1,none,false,false,0⟩],[⟨false,true,false,true,false,true,false,false,false,false,false,0,some (.own 8),some 4,true,1,none,false,false,0⟩],[⟨false,true,false,false,true,false,false,true,false,false,false,0,some (.own 8),some 4,true,1,none,false,false,0⟩],[⟨false,true,false,false,true,false,false,true,false,false,false,0,some (.own 8),some 4,true,1,none,false,false,0⟩],[⟨false,true,true,true,false,true,false,false,false,false,false,0,some (.own 8),some 4,true,2,none,false,false,0⟩,⟨true,true,true,true,false,true,false,false,false,false,false,0,some (.own 8),some 4,true,2,none,false,false,0⟩,⟨false,true,true,true,false,true,false,false,false,false,false,0,some (.own 8),some 4,true,2,none,false,false,2⟩,⟨true,true,true,true,false,true,false,false,false,false,false,0,some (.own 8),some 4,true,2,none,false,false,1⟩,⟨false,true,false,true,false,true,false,false,true,true,false,0,some .internalNl,some 4,true,2,none,false,false,0⟩,⟨true,false,false,true,false,true,false,false,true,true,false,0,some .internalNl,some 4,true,2,none,false,true,0⟩,⟨false,false,false,true,false,true,false,false,true,true,false,0,some .internalNl,some 4,true,2,none,false,true,2⟩,⟨true,false,false,true,false,true,false,false,true,true,false,0,some .internalNl,some 4,true,2,none,false,true,1⟩,⟨false,true,true,true,false,true,false,false,true,true,false,0,some .internalNl,some 4,true,2,none,false,false,0⟩,⟨true,true,true,true,false,true,false,false,true,true,false,0,some .internalNl,some 4,true,2,none,false,false,0⟩,⟨false,true,true,true,false,true,false,false,true,true,false,0,some .internalNl,some 4,true,2,none,false,false,2⟩,⟨true,true,true,true,false,true,false,false,true,true,false,0,some .internalNl,some 4,true,2,none,false,false,1⟩],[⟨false,true,true,true,false,true,false,false,false,false,false,0,some (.own 8),some 4,true,2,none,false,false,0⟩,⟨false,false,false,false,false,true,false,false,true,true,false,0,some .internalNl,some 4,true,2,none,false,false,0⟩,⟨false,true,true,true,false,true,false,false,true,true,false,0,some .internalNl,some 4,true,2,none,false,false,0⟩],[⟨false,true,true,true,false,true,false,false,false,false,false,0,some (.own 8),some 4,true,2,none,false,false,0⟩,⟨false,true,false,false,true,true,false,false,true,true,false,0,some .internalNl,some 4,true,2,none,false,false,0⟩,⟨false,true,true,true,false,true,false,false,true,true,false,0,some .internalNl,some 4,true,2,none,false,false,0⟩],[⟨false,true,true,true,false,true,false,false,false,false,false,0,some (.own 8),some 4,true,2,none,false,false,0⟩,⟨true,true,true,true,false,true,false,false,false,false,false,0,some (.own 8),some 4,true,2,none,false,false,0⟩,⟨false,true,true,true,false,true,false,false,false,false,false,0,some (.own 8),some 4,true,2,none,false,false,2⟩,⟨true,true,true,true,false,true,false,false,false,false,false,0,some (.own 8),some 4,true,2,none,false,false,1⟩,⟨false,true,false,true,false,true,false,false,true,true,false,0,some .internalNl,some 4,true,2,none,false,false,0⟩,⟨true,false,false,true,false,true,false,false,true,true,false,0,some .internalNl,some 4,true,2,none,false,true,0⟩,⟨false,false,false,true,false,true,false,false,true,true,false,0,some .internalNl,some 4,true,2,none,false,true,2⟩,⟨true,false,false,true,false,true,false,false,true,true,false,0,some .internalNl,some 4,true,2,none,false,true,1⟩,⟨false,true,true,true,false,true,false,false,true,true,false,0,some .internalNl,some 4,true,2,none,false,false,0⟩,⟨true,true,true,true,false,true,false,false,true,true,false,0,some .internalNl,some 4,true,2,none,false,false,0⟩,⟨false,true,true,true,false,true,false,false,true,true,false,0,some .internalNl,some 4,true,2,none,false,false,2⟩,⟨true,true,true,true,false,true,false,false,true,true,false,0,some .internalNl,some 4,true,2,none,false,false,1⟩],[⟨false,true,true,true,false,true,false,false,false,false,false,0,some (.own 8),some 4,true,2,none,false,false,0⟩,⟨false,false,false,false,false,true,false,false,true,true,false,0,some .internalNl,some 4,true,2,none,false,false,0⟩,⟨false,true,true,true,false,true,false,false,true,true,false,0,some .internalNl,some 4,true,2,none,false,false,0⟩],[⟨false,true,true,true,false,true,false,false,false,false,false,0,some (.own 8),some 4,true,2,none,false,false,0⟩,⟨false,true,false,false,true,true,false,false,true,true,false,0,some .internalNl,some 4,true,2,none,false,false,0⟩,⟨false,true,true,true,false,true,false,false,true,true,false,0,some .internalNl,some 4,true,2,none,false,false,0⟩],[⟨false,true,true,true,false,true,false,false,false,false,false,0,some (.own 8),some 4,true,2,none,false,false,0⟩],[⟨false,true,true,true,false,true,false,false,false,false,false,0,some (.own 8),some 1,true,1,none,false,false,0⟩],[⟨false,true,true,true,false,true,false,false,false,false,false,0,some (.own 8),some 4,true,2,none,false,false,0⟩,⟨false,true,true,true,false,true,false,false,true,true,false,0,some .internalNl,some 4,true,2,none,false,false,0⟩],[⟨true,true,true,true,false,true,false,false,false,false,false,0,some (.own 8),some 4,true,2,none,false,false,0⟩,⟨true,true,true,false,true,true,false,false,true,true,false,0,some .internalNl,some 4,true,2,none,false,false,0⟩,⟨true,true,true,true,false,true,false,false,true,true,false,0,some .internalNl,some 4,true,2,none,false,false,0⟩],[⟨true,true,true,true,false,true,false,false,false,false,false,0,some (.own 8),some 4,true,2,none,false,false,0⟩,⟨true,true,true,false,true,true,false,false,true,true,false,0,some .internalNl,some 4,true,2,none,false,false,0⟩,⟨true,true,true,true,false,true,false,false,true,true,false,0,some .internalNl,some 4,true,2,none,false,false,0⟩],[⟨false,true,true,true,false,true,false,false,false,false,false,0,some (.own 8),some 4,true,2,none,false,false,2⟩,⟨false,true,true,false,true,true,false,false,true,true,false,0,some .internalNl,some 4,true,2,none,false,false,2⟩,⟨false,true,true,true,false,true,false,false,true,true,false,0,some .internalNl,some 4,true,2,none,false,false,2⟩],[⟨true,true,true,true,false,true,false,false,false,false,false,0,some (.own 8),some 4,true,2,none,false,false,1⟩,⟨true,true,true,false,true,true,false,false,true,true,false,0,some .internalNl,some 4,true,2,none,false,false,1⟩,⟨true,true,true,true,false,true,false,false,true,true,false,0,some .internalNl,some 4,true,2,none,false,false,1⟩],[⟨false,true,true,true,false,true,false,false,false,false,false,0,some (.own 8),some 4,true,2,none,false,false,0⟩,⟨false,true,true,true,false,true,false,false,true,true,false,0,some .internalNl,some 4,true,2,none,false,false,0⟩],[⟨true,true,true,true,false,true,false,false,false,false,false,0,some (.own 8),some 4,true,2,none,false,false,0⟩,⟨true,true,true,false,true,true,false,false,true,true,false,0,some .internalNl,some 4,true,2,none,false,false,0⟩,⟨true,true,true,true,false,true,false,false,true,true,false,0,some .internalNl,some 4,true,2,none,false,false,0⟩],[⟨true,true,true,true,false,true,false,false,false,false,false,0,some (.own 8),some 4,true,2,none,false,false,0⟩,⟨true,true,true,false,true,true,false,false,true,true,false,0,some .internalNl,some 4,true,2,none,false,false,0⟩,⟨true,true,true,true,false,true,false,false,true,true,false,0,some .internalNl,some 4,true,2,none,false,false,0⟩],[⟨false,true,true,true,false,true,false,false,false,false,false,0,some (.own 8),some 4,true,2,none,false,false,2⟩,⟨false,true,true,false,true,true,false,false,true,true,false,0,some .internalNl,some 4,true,2,none,false,false,2⟩,⟨false,true,true,true,false,true,false,false,true,true,false,0,some .internalNl,some 4,true,2,none,false,false,2⟩],[⟨true,true,true,true,false,true,false,false,false,false,false,0,some (.own 8),some 4,true,2,none,false,false,1⟩,⟨true,true,true,false,true,true,false,false,true,true,false,0,some .internalNl,some 4,true,2,none,false,false,1⟩,⟨true,true,true,true,false,true,false,false,true,true,false,0,some .internalNl,some 4,true,2,none,false,false,1⟩],[⟨false,true,true,true,false,true,false,false,false,false,false,0,some (.own 8),some 4,true,2,none,false,false,0⟩,⟨false,true,false,true,false,true,false,false,true,true,false,0,some .internalNl,some 4,true,2,none,false,false,0⟩,⟨false,true,true,true,false,true,false,false,true,true,false,0,some .internalNl,some 4,true,2,none,false,false,0⟩],[⟨false,true,true,true,false,true,false,false,false,false,false,0,some (.own 8),some 4,true,2,none,false,false,0⟩,⟨false,false,false,false,false,true,false,false,true,true,false,0,some .internalNl,some 4,true,2,none,false,false,0⟩,⟨false,true,true,true,false,true,false,false,true,true,false,0,some .internalNl,some 4,true,2,none,false,false,0⟩],[⟨true,true,true,true,false,true,false,false,false,false,false,0,some (.own 8),some 4,true,2,none,false,false,0⟩,⟨true,false,false,false,false,true,false,false,true,true,false,0,some .internalNl,some 4,true,2,none,false,false,0⟩,⟨true,true,true,true,false,true,false,false,true,true,false,0,some .internalNl,some 4,true,2,none,false,false,0⟩],[⟨true,true,true,true,false,true,false,false,false,false,false,0,some (.own 8),some 4,true,2,none,false,false,0⟩,⟨true,false,false,false,false,true,false,false,true,true,false,0,some .internalNl,some 4,true,2,none,false,false,0⟩,⟨true,true,true,true,false,true,false,false,true,true,false,0,some .internalNl,some 4,true,2,none,false,false,0⟩],[⟨false,true,true,true,false,true,false,false,false,false,false,0,some (.own 8),some 4,true,2,none,false,false,2⟩,⟨false,false,false,false,false,true,false,false,true,true,false,0,some .internalNl,some 4,true,2,none,false,false,2⟩,⟨false,true,true,true,false,true,false,false,true,true,false,0,some .internalNl,some 4,true,2,none,false,false,2⟩],[⟨true,true,true,true,false,true,false,false,false,false,false,0,some (.own 8),some 4,true,2,none,false,false,1⟩,⟨true,false,false,false,false,true,false,false,true,true,false,0,some .internalNl,some 4,true,2,none,false,false,1⟩,⟨true,true,true,true,false,true,false,false,true,true,false,0,some .internalNl,some 4,true,2,none,false,false,1⟩],[⟨false,true,true,true,false,true,false,false,false,false,false,0,some (.own 8),some 4,true,2,none,false,false,0⟩,⟨false,true,false,true,false,true,false,false,true,true,false,0,some .internalNl,some 4,true,2,none,false,false,0⟩,⟨false,true,true,true,false,true,false,false,true,true,false,0,some .internalNl,some 4,true,2,none,false,false,0⟩],[⟨false,true,true,true,false,true,false,false,false,false,false,0,some (.own 8),some 1,true,1,none,false,false,0⟩,⟨false,true,false,true,false,true,false,false,true,false,false,0,some .internalNl,some 1,true,1,none,false,false,0⟩,⟨false,true,true,true,false,true,false,false,true,false,false,0,some .internalNl,some 1,true,1,none,false,false,0⟩],[⟨false,true,true,true,false,true,false,false,false,false,false,0,some (.own 8),some 1,true,1,none,false,false,0⟩,⟨false,false,false,false,false,true,false,false,true,false,false,0,some .internalNl,some 1,false,1,none,false,false,0⟩,⟨false,true,true,true,false,true,false,false,true,false,false,0,some .internalNl,some 1,true,1,none,false,false,0⟩],[⟨false,true,true,true,false,true,false,false,false,false,false,0,some (.own 8),some 1,true,1,none,false,false,0⟩,⟨false,true,false,true,false,true,false,false,true,false,false,0,some .internalNl,some 1,true,1,none,false,false,0⟩,⟨false,true,true,true,false,true,false,false,true,false,false,0,some .internalNl,some 1,true,1,none,false,false,0⟩],[⟨true,true,true,true,false,true,false,false,false,false,false,0,some (.own 8),some 4,true,2,none,false,false,0⟩,⟨true,true,true,false,true,true,false,false,true,true,false,0,some .internalNl,some 4,true,2,none,false,false,0⟩,⟨true,true,true,true,false,true,false,false,true,true,false,0,some .internalNl,some 4,true,2,none,false,false,0⟩],[],[⟨true,true,true,true,false,true,false,false,false,false,false,0,some (.own 8),some 4,true,2,none,false,false,0⟩,⟨true,true,true,false,true,true,false,false,true,true,false,0,some .internalNl,some 4,true,2,none,false,false,0⟩,⟨true,true,true,true,false,true,false,false,true,true,false,0,some .internalNl,some 4,true,2,none,false,false,0⟩],[],[⟨true,true,true,true,false,true,false,false,false,false,false,0,some (.own 8),some 4,true,2,none,false,false,0⟩,⟨true,false,false,false,false,true,false,false,true,true,false,0,some .internalNl,some 4,true,2,none,false,false,0⟩,⟨true,true,true,true,false,true,false,false,true,true,false,0,some .internalNl,some 4,true,2,none,false,false,0⟩],[],[⟨true,true,true,true,false,true,false,false,false,false,false,0,some (.own 8),some 1,true,1,none,false,false,0⟩,⟨true,true,true,true,false,true,false,false,true,false,false,0,some .internalNl,some 1,true,1,none,false,false,0⟩],[⟨true,true,true,true,false,true,false,false,false,false,false,0,some (.own 8),some 1,true,1,none,false,false,0⟩,⟨true,true,true,true,false,true,false,false,true,false,false,0,some .internalNl,some 1,true,1,none,false,false,0⟩],[⟨false,true,true,true,false,true,false,false,false,false,false,0,some (.own 8),some 1,true,2,none,false,false,2⟩,⟨false,true,true,true,false,true,false,false,true,false,false,0,some .internalNl,some 1,true,2,none,false,false,2⟩],[⟨true,true,true,true,false,true,false,false,false,false,false,0,some (.own 8),some 1,true,1,none,false,false,1⟩,⟨true,true,true,true,false,true,false,false,true,false,false,0,some .internalNl,some 1,true,1,none,false,false,1⟩],[⟨true,true,true,true,false,true,false,false,false,false,false,0,some (.own 8),some 1,true,1,none,false,false,0⟩,⟨true,true,true,true,false,true,false,false,true,false,false,0,some .internalNl,some 1,true,1,none,false,false,0⟩]]
theorem fsharp_line_bClosed : closed fsharp_line_rows fsharp_line_bTab BA.init (BA.succ ⟨true, false, true, true⟩ fsharp_line_M) (BA.eofOk ⟨true, false, true, true⟩ fsharp_line_M) = true := by
  decide +kernel
def fsharp_line_B : BCert ⟨true, false, true, true⟩ fsharp_line_M := ⟨fsharp_line_D, fsharp_line_bTab, fsharp_line_bClosed⟩

def glsl_line_bTab : List (List BA) := [[⟨false,false,false,false,false,false,false,true,false,false,false,0,none,none,false,0,none,false,false,0⟩],[⟨false,false,false,false,false,false,false,true,false,false,false,0,some (.own 0),some 0,false,1,none,false,false,0⟩],[⟨false,false,false,false,false,false,false,true,false,false,false,0,some .newline,none,false,1,none,false,false,2⟩],[⟨true,false,false,false,false,false,false,true,false,false,false,0,some .newline,some 3,false,1,none,false,false,1⟩],[⟨false,true,false,true,false,true,false,false,false,false,false,0,some (.own 8),some 4,true,1,none,false,false,0⟩],[⟨false,true,false,true,false,true,false,false,false,false,false,0,some (.own 8),some 4,true,1,none,false,false,0⟩],[⟨false,true,false,false,true,false,false,true,false,false,false,0,some (.own 8),some 4,true,1,none,false,false,0⟩],[⟨false,true,true,true,false,true,false,false,false,false,false,0,some (.own 8),some 4,true,2,none,false,false,0⟩,⟨true,true,true,true,false,true,false,false,false,false,false,0,some (.own 8),some 4,true,2,none,false,false,0⟩,⟨false,true,true,true,false,true,false,false,false,false,false,0,some (.own 8),some 4,true,2,none,false,false,2⟩,⟨true,true,true,true,false,true,false,false,false,false,false,0,some (.own 8),some 4,true,2,none,false,false,1⟩,⟨false,true,false,true,false,true,false,false,true,true,false,0,some .internalNl,some 4,true,2,none,false,false,0⟩,⟨true,false,false,true,false,true,false,false,true,true,false,0,some .internalNl,some 4,true,2,none,false,true,0⟩,⟨false,false,false,true,false,true,false,false,true,true,false,0,some .internalNl,some 4,true,2,none,false,true,2⟩,⟨true,false,false,true,false,true,false,false,true,true,false,0,some .internalNl,some 4,true,2,none,false,true,1⟩,⟨false,true,true,true,false,true,false,false,true,true,false,0,some .internalNl,some 4,true,2,none,false,false,0⟩,⟨true,true,true,true,false,true,false,false,true,true,false,0,some .internalNl,some 4,true,2,none,false,false,0⟩,⟨false,true,true,true,false,true,false,false,true,true,false,0,some .internalNl,some 4,true,2,none,false,false,2⟩,⟨true,true,true,true,false,true,false,false,true,true,false,0,some .internalNl,some 4,true,2,none,false,false,1⟩],[⟨false,true,true,true,false,true,false,false,false,false,false,0,some (.own 8),some 4,true,2,none,false,false,0⟩,⟨false,false,false,false,false,true,false,false,true,true,false,0,some .internalNl,some 4,true,2,none,false,false,0⟩,⟨false,true,true,true,false,true,false,false,true,true,false,0,some .internalNl,some 4,true,2,none,false,false,0⟩],[⟨false,true,true,true,false,true,false,false,false,false,false,0,some (.own 8),some 4,true,2,none,false,false,0⟩,⟨false,true,false,false,true,true,false,false,true,true,false,0,some .internalNl,some 4,true,2,none,false,false,0⟩,⟨false,true,true,true,false,true,false,false,true,true,false,0,some .internalNl,some 4,true,2,none,false,false,0⟩],[⟨false,true,true,true,false,true,false,false,false,false,false,0,some (.own 8),some 4,true,2,none,false,false,0⟩,⟨true,true,true,true,false,true,false,false,false,false,false,0,some (.own 8),some 4,true,2,none,false,false,0⟩,⟨false,true,true,true,false,true,false,false,false,false,false,0,some (.own 8),some 4,true,2,none,false,false,2⟩,⟨true,true,true,true,false,true,false,false,false,false,false,0,some (.own 8),some 4,true,2,none,false,false,1⟩,⟨false,true,false,true,false,true,false,false,true,true,false,0,some .internalNl,some 4,true,2,none,false,false,0⟩,⟨true,false,false,true,false,true,false,false,true,true,false,0,some .internalNl,some 4,true,2,none,false,true,0⟩,⟨false,false,false,true,false,true,false,false,true,true,false,0,some .internalNl,some 4,true,2,none,false,true,2⟩,⟨true,false,false,true,false,true,false,false,true,true,false,0,some .internalNl,some 4,true,2,none,false,true,1⟩,⟨false,true,true,true,false,true,false,false,true,true,false,0,some .internalNl,some 4,true,2,none,false,false,0⟩,⟨true,true,true,true,false,true,false,false,true,true,false,0,some .internalNl,some 4,true,2,none,false,false,0⟩,⟨false,true,true,true,false,true,false,false,true,true,false,0,some .internalNl,some 4,true,2,none,false,false,2⟩,⟨true,true,true,true,false,true,false,false,true,true,false,0,some .internalNl,some 4,true,2,none,false,false,1⟩],[⟨false,true,true,true,false,true,false,false,false,false,false,0,some (.own 8),some 4,true,2,none,false,false,0⟩,⟨false,false,false,false,false,true,false,false,true,true,false,0,some .internalNl,some 4,true,2,none,false,false,0⟩,⟨false,true,true,true,false,true,false,false,true,true,false,0,some .internalNl,some 4,true,2,none,false,false,0⟩],[⟨false,true,true,true,false,true,false,false,false,false,false,0,some (.own 8),some 4,true,2,none,false,false,0⟩,⟨false,true,false,false,true,true,false,false,true,true,false,0,some .internalNl,some 4,true,2,none,false,false,0⟩,⟨false,true,true,true,false,true,false,false,true,true,false,0,some .internalNl,some 4,true,2,none,false,false,0⟩],[⟨false,true,true,true,false,true,false,false,false,false,false,0,some (.own 8),some 4,true,2,none,false,false,0⟩],[⟨false,true,true,true,false,true,false,false,false,false,false,0,some (.own 8),some 1,true,1,none,false,false,0⟩],[⟨false,true,true,true,false,true,false,false,false,false,false,0,some (.own 8),some 4,true,2,none,false,false,0⟩,⟨false,true,true,true,false,true,false,false,true,true,false,0,some .internalNl,some 4,true,2,none,false,false,0⟩],[⟨true,true,true,true,false,true,false,false,false,false,false,0,some (.own 8),some 4,true,2,none,false,false,0⟩,⟨true,true,true,false,true,true,false,false,true,true,false,0,some .internalNl,some 4,true,2,none,false,false,0⟩,⟨true,true,true,true,false,true,false,false,true,true,false,0,some .internalNl,some 4,true,2,none,false,false,0⟩],[⟨true,true,true,true,false,true,false,false,false,false,false,0,some (.own 8),some 4,true,2,none,false,false,0⟩,⟨true,true,true,false,true,true,false,false,true,true,false,0,some .internalNl,some 4,true,2,none,false,false,0⟩,⟨true,true,true,true,false,true,false,false,true,true,false,0,some .internalNl,some 4,true,2,none,false,false,0⟩],[⟨false,true,true,true,false,true,false,false,false,false,false,0,some (.own 8),some 4,true,2,none,false,false,2⟩,⟨false,true,true,false,true,true,false,false,true,true,false,0,some .internalNl,some 4,true,2,none,false,false,2⟩,⟨false,true,true,true,false,true,false,false,true,true,false,0,some .internalNl,some 4,true,2,none,false,false,2⟩],[⟨true,true,true,true,false,true,false,false,false,false,false,0,some (.own 8),some 4,true,2,none,false,false,1⟩,⟨true,true,true,false,true,true,false,false,true,true,false,0,some .internalNl,some 4,true,2,none,false,false,1⟩,⟨true,true,true,true,false,true,false,false,true,true,false,0,some .internalNl,some 4,true,2,none,false,false,1⟩],[⟨false,true,true,true,false,true,false,false,false,false,false,0,some (.own 8),some 4,true,2,none,false,false,0⟩,⟨false,true,true,true,false,true,false,false,true,true,false,0,some .internalNl,some 4,true,2,none,false,false,0⟩],[⟨true,true,true,true,false,true,false,false,false,false,false,0,some (.own 8),some 4,true,2,none,false,false,0⟩,⟨true,true,true,false,true,true,false,false,true,true,false,0,some .internalNl,some 4,true,2,none,false,false,0⟩,⟨true,true,true,true,false,true,false,false,true,true,false,0,some .internalNl,some 4,true,2,none,false,false,0⟩],[⟨true,true,true,true,false,true,false,false,false,false,false,0,some (.own 8),some 4,true,2,none,false,false,0⟩,⟨true,true,true,false,true,true,false,false,true,true,false,0,some .internalNl,some 4,true,2,none,false,false,0⟩,⟨true,true,true,true,false,true,false,false,true,true,false,0,some .internalNl,some 4,true,2,none,false,false,0⟩],[⟨false,true,true,true,false,true,false,false,false,false,false,0,some (.own 8),some 4,true,2,none,false,false,2⟩,⟨false,true,true,false,true,true,false,false,true,true,false,0,some .internalNl,some 4,true,2,none,false,false,2⟩,⟨false,true,true,true,false,true,false,false,true,true,false,0,some .internalNl,some 4,true,2,none,false,false,2⟩],[⟨true,true,true,true,false,true,false,false,false,false,false,0,some (.own 8),some 4,true,2,none,false,false,1⟩,⟨true,true,true,false,true,true,false,false,true,true,false,0,some .internalNl,some 4,true,2,none,false,false,1⟩,⟨true,true,true,true,false,true,false,false,true,true,false,0,some .internalNl,some 4,true,2,none,false,false,1⟩],[⟨false,true,true,true,false,true,false,false,false,false,false,0,some (.own 8),some 4,true,2,none,false,false,0⟩,⟨false,true,false,true,false,true,false,false,true,true,false,0,some .internalNl,some 4,true,2,none,false,false,0⟩,⟨false,true,true,true,false,true,false,false,true,true,false,0,some .internalNl,some 4,true,2,none,false,false,0⟩],[⟨false,true,true,true,false,true,false,false,false,false,false,0,some (.own 8),some 4,true,2,none,false,false,0⟩,⟨false,false,false,false,false,true,false,false,true,true,false,0,some .internalNl,some 4,true,2,none,false,false,0⟩,⟨false,true,true,true,false,true,false,false,true,true,false,0,some .internalNl,some 4,true,2,none,false,false,0⟩],[⟨true,true,true,true,false,true,false,false,false,false,false,0,some (.own 8),some 4,true,2,none,false,false,0⟩,⟨true,false,false,false,false,true,false,false,true,true,false,0,some .internalNl,some 4,true,2,none,false,false,0⟩,⟨true,true,true,true,false,true,false,false,true,true,false,0,some .internalNl,some 4,true,2,none,false,false,0⟩],[⟨true,true,true,true,false,true,false,false,false,false,false,0,some (.own 8),some 4,true,2,none,false,false,0⟩,⟨true,false,false,false,false,true,false,false,true,true,false,0,some .internalNl,some 4,true,2,none,false,false,0⟩,⟨true,true,true,true,false,true,false,false,true,true,false,0,some .internalNl,some 4,true,2,none,false,false,0⟩],[⟨false,true,true,true,false,true,false,false,false,false,false,0,some (.own 8),some 4,true,2,none,false,false,2⟩,⟨false,false,false,false,false,true,false,false,true,true,false,0,some .internalNl,some 4,true,2,none,false,false,2⟩,⟨false,true,true,true,false,true,false,false,true,true,false,0,some .internalNl,some 4,true,2,none,false,false,2⟩],[⟨true,true,true,true,false,true,false,false,false,false,false,0,some (.own 8),some 4,true,2,none,false,false,1⟩,⟨true,false,false,false,false,true,false,false,true,true,false,0,some .internalNl,some 4,true,2,none,false,false,1⟩,⟨true,true,true,true,false,true,false,false,true,true,false,0,some .internalNl,some 4,true,2,none,false,false,1⟩],[⟨false,true,true,true,false,true,false,false,false,false,false,0,some (.own 8),some 4,true,2,none,false,false,0⟩,⟨false,true,false,true,false,true,false,false,true,true,false,0,some .internalNl,some 4,true,2,none,false,false,0⟩,⟨false,true,true,true,false,true,false,false,true,true,false,0,some .internalNl,some 4,true,2,none,false,false,0⟩],[⟨false,true,true,true,false,true,false,false,false,false,false,0,some (.own 8),some 1,true,1,none,false,false,0⟩,⟨false,true,false,true,false,true,false,false,true,false,false,0,some .internalNl,some 1,true,1,none,false,false,0⟩,⟨false,true,true,true,false,true,false,false,true,false,false,0,some .internalNl,some 1,true,1,none,false,false,0⟩],[⟨false,true,true,true,false,true,false,false,false,false,false,0,some (.own 8),some 1,true,1,none,false,false,0⟩,⟨false,false,false,false,false,true,false,false,true,false,false,0,some .internalNl,some 1,false,1,none,false,false,0⟩,⟨false,true,true,true,false,true,false,false,true,false,false,0,some .internalNl,some 1,true,1,none,false,false,0⟩],[⟨false,true,true,true,false,true,false,false,false,false,false,0,some (.own 8),some 1,true,1,none,false,false,0⟩,⟨false,true,false,true,false,true,false,false,true,false,false,0,some .internalNl,some 1,true,1,none,false,false,0⟩,⟨false,true,true,true,false,true,false,false,true,false,false,0,some .internalNl,some 1,true,1,none,false,false,0⟩],[⟨true,true,true,true,false,true,false,false,false,false,false,0,some (.own 8),some 4,true,2,none,false,false,0⟩,⟨true,true,true,false,true,true,false,false,true,true,false,0,some .internalNl,some 4,true,2,none,false,false,0⟩,⟨true,true,true,true,false,true,false,false,true,true,false,0,some .internalNl,some 4,true,2,none,false,false,0⟩],[],[⟨true,true,true,true,false,true,false,false,false,false,false,0,some (.own 8),some 4,true,2,none,false,false,0⟩,⟨true,true,true,false,true,true,false,false,true,true,false,0,some .internalNl,some 4,true,2,none,false,false,0⟩,⟨true,true,true,true,false,true,false,false,true,true,false,0,some .internalNl,some 4,true,2,none,false,false,0⟩],[],[⟨true,true,true,true,false,true,false,false,false,false,false,0,some (.own 8),some 4,true,2,none,false,false,0⟩,⟨true,false,false,false,false,true,false,false,true,true,false,0,some .internalNl,some 4,true,2,none,false,false,0⟩,⟨true,true,true,true,false,true,false,false,true,true,false,0,some .internalNl,some 4,true,2,none,false,false,0⟩],[],[⟨true,true,true,true,false,true,false,false,false,false,false,0,some (.own 8),some 1,true,1,none,false,false,0⟩,⟨true,true,true,true,false,true,false,false,true,false,false,0,some .internalNl,some 1,true,1,none,false,false,0⟩],[⟨true,true,true,true,false,true,false,false,false,false,false,0,some (.own 8),some 1,true,1,none,false,false,0⟩,⟨true,true,true,true,false,true,false,false,true,false,false,0,some .internalNl,some 1,true,1,none,false,false,0⟩],[⟨false,true,true,true,false,true,false,false,false,false,false,0,some (.own 8),some 1,true,2,none,false,false,2⟩,⟨false,true,true,true,false,true,false,false,true,false,false,0,some .internalNl,some 1,true,2,none,false,false,2⟩],[⟨true,true,true,true,false,true,false,false,false,false,false,0,some (.own 8),some 1,true,1,none,false,false,1⟩,⟨true,true,true,true,false,true,false,false,true,false,false,0,some .internalNl,some 1,true,1,none,false,false,1⟩],[⟨true,true,true,true,false,true,false,false,false,false,false,0,some (.own 8),some 1,true,1,none,false,false,0⟩,⟨true,true,true,true,false,true,false,false,true,false,false,0,some .internalNl,some 1,true,1,none,false,false,0⟩]]
theorem glsl_line_bClosed : closed glsl_line_rows glsl_line_bTab BA.init (BA.succ ⟨true, false, true, true⟩ glsl_line_M) (BA.eofOk ⟨true, false, true, true⟩ glsl_line_M) = true := by
  decide +kernel
def glsl_line_B : BCert ⟨true, false, true, true⟩ glsl_line_M := ⟨glsl_line_D, glsl_line_bTab, glsl_line_bClosed⟩

def limbo_line_bTab : List (List BA) := [[⟨false,false,false,false,false,false,false,true,false,false,false,0,none,none,false,0,none,false,false,0⟩],[⟨false,false,false,false,false,false,false,true,false,false,false,0,some (.own 0),some 0,false,1,none,false,false,0⟩],[⟨false,false,false,false,false,false,false,true,false,false,false,0,some .newline,none,false,1,none,false,false,2⟩],[⟨true,false,false,false,false,false,false,true,false,false,false,0,some .newline,some 3,false,1,none,false,false,1⟩],[⟨false,true,false,true,false,true,true,false,false,false,false,0,some (.own 7),some 4,true,1,none,false,false,0⟩],[⟨false,true,false,true,false,true,false,false,false,false,false,0,some (.own 7),some 1,true,1,none,false,false,0⟩],[⟨false,true,false,true,false,true,false,false,false,false,false,0,some (.own 7),some 4,true,1,none,false,false,0⟩],[⟨false,true,true,true,false,true,true,false,false,false,false,0,some (.own 7),some 4,true,2,none,false,false,0⟩],[⟨false,true,true,true,false,true,true,false,false,false,false,0,some (.own 7),some 4,true,2,none,false,false,0⟩],[⟨false,true,true,true,false,true,false,false,false,false,false,0,some (.own 7),some 1,true,1,none,false,false,0⟩],[⟨false,true,true,true,false,true,false,false,false,false,false,0,some (.own 7),some 4,true,2,none,false,false,0⟩],[⟨false,true,true,true,false,true,false,false,false,false,false,0,some (.own 7),some 4,true,2,none,false,false,0⟩],[⟨false,true,true,true,false,true,true,false,false,false,false,0,some (.own 7),some 4,true,2,none,false,false,0⟩],[⟨false,true,true,true,false,true,false,false,false,false,false,0,some (.own 7),some 4,true,2,none,false,false,0⟩]]
theorem limbo_line_bClosed : closed limbo_line_rows limbo_line_bTab BA.init (BA.succ ⟨true, true, false, false⟩ limbo_line_M) (BA.eofOk ⟨true, true, false, false⟩ limbo_line_M) = true := by
  decide +kernel
def limbo_line_B : BCert ⟨true, true, false, false⟩ limbo_line_M := ⟨limbo_line_D, limbo_line_bTab, limbo_line_bClosed⟩

def objc_line_bTab : List (List BA) := [[⟨false,false,false,false,false,false,false,true,false,false,false,0,none,none,false,0,none,false,false,0⟩],[⟨false,false,false,false,false,false,false,true,false,false,false,0,some (.own 0),some 0,false,1,none,false,false,0⟩],[⟨false,false,false,false,false,false,false,true,false,false,false,0,some .newline,none,false,1,none,false,false,2⟩],[⟨true,false,false,false,false,false,false,true,false,false,false,0,some .newline,some 3,false,1,none,false,false,1⟩],[⟨false,true,false,true,false,true,false,false,false,false,false,0,some (.own 3),some 4,true,1,none,false,false,0⟩],[⟨false,true,false,true,false,true,false,false,false,false,false,0,some (.own 3),some 4,true,1,none,false,false,0⟩],[⟨false,true,false,false,true,false,false,true,false,false,false,0,some (.own 3),some 4,true,1,none,false,false,0⟩],[⟨false,true,true,true,false,true,false,false,false,false,false,0,some (.own 3),some 4,true,2,none,false,false,0⟩],[⟨false,true,true,true,false,true,false,false,false,false,false,0,some (.own 3),some 4,true,2,none,false,false,0⟩],[⟨false,true,true,true,false,true,false,false,false,false,false,0,some (.own 3),some 4,true,2,none,false,false,0⟩],[⟨false,true,true,true,false,true,false,false,false,false,false,0,some (.own 3),some 4,true,2,none,false,false,0⟩],[⟨false,true,true,true,false,true,false,false,false,false,false,0,some (.own 3),some 4,true,2,none,false,false,0⟩],[⟨false,true,true,true,false,true,false,false,false,false,false,0,some (.own 3),some 1,true,1,none,false,false,0⟩],[⟨false,true,true,true,false,true,false,false,false,false,false,0,some (.own 3),some 4,true,2,none,false,false,0⟩],[⟨false,true,true,true,false,true,false,false,false,false,false,0,some (.own 3),some 4,true,2,none,false,false,0⟩],[⟨false,true,true,true,false,true,false,false,false,false,false,0,some (.own 3),some 4,true,2,none,false,false,0⟩,⟨false,true,false,true,false,true,false,false,true,true,false,0,some .internalNl,some 4,true,2,none,false,false,0⟩,⟨false,true,true,true,false,true,false,false,true,true,false,0,some .internalNl,some 4,true,2,none,false,false,0⟩],[⟨false,true,true,true,false,true,false,false,false,false,false,0,some (.own 3),some 4,true,2,none,false,false,0⟩,⟨false,false,false,false,false,true,false,false,true,true,false,0,some .internalNl,some 4,true,2,none,false,false,0⟩,⟨false,true,true,true,false,true,false,false,true,true,false,0,some .internalNl,some 4,true,2,none,false,false,0⟩],[⟨true,true,true,true,false,true,false,false,false,false,false,0,some (.own 3),some 4,true,2,none,false,false,0⟩,⟨true,false,false,false,false,true,false,false,true,true,false,0,some .internalNl,some 4,true,2,none,false,false,0⟩,⟨true,true,true,true,false,true,false,false,true,true,false,0,some .internalNl,some 4,true,2,none,false,false,0⟩],[⟨true,true,true,true,false,true,false,false,false,false,false,0,some (.own 3),some 4,true,2,none,false,false,0⟩,⟨true,false,false,false,false,true,false,false,true,true,false,0,some .internalNl,some 4,true,2,none,false,false,0⟩,⟨true,true,true,true,false,true,false,false,true,true,false,0,some .internalNl,some 4,true,2,none,false,false,0⟩],[⟨false,true,true,true,false,true,false,false,false,false,false,0,some (.own 3),some 4,true,2,none,false,false,2⟩,⟨false,false,false,false,false,true,false,false,true,true,false,0,some .internalNl,some 4,true,2,none,false,false,2⟩,⟨false,true,true,true,false,true,false,false,true,true,false,0,some .internalNl,some 4,true,2,none,false,false,2⟩],[⟨true,true,true,true,false,true,false,false,false,false,false,0,some (.own 3),some 4,true,2,none,false,false,1⟩,⟨true,false,false,false,false,true,false,false,true,true,false,0,some .internalNl,some 4,true,2,none,false,false,1⟩,⟨true,true,true,true,false,true,false,false,true,true,false,0,some .internalNl,some 4,true,2,none,false,false,1⟩],[⟨false,true,true,true,false,true,false,false,false,false,false,0,some (.own 3),some 4,true,2,none,false,false,0⟩,⟨false,true,false,true,false,true,false,false,true,true,false,0,some .internalNl,some 4,true,2,none,false,false,0⟩,⟨false,true,true,true,false,true,false,false,true,true,false,0,some .internalNl,some 4,true,2,none,false,false,0⟩],[⟨false,true,true,true,false,true,false,false,false,false,false,0,some (.own 3),some 1,true,1,none,false,false,0⟩,⟨false,true,false,true,false,true,false,false,true,false,false,0,some .internalNl,some 1,true,1,none,false,false,0⟩,⟨false,true,true,true,false,true,false,false,true,false,false,0,some .internalNl,some 1,true,1,none,false,false,0⟩],[⟨false,true,true,true,false,true,false,false,false,false,false,0,some (.own 3),some 1,true,1,none,false,false,0⟩,⟨false,false,false,false,false,true,false,false,true,false,false,0,some .internalNl,some 1,false,1,none,false,false,0⟩,⟨false,true,true,true,false,true,false,false,true,false,false,0,some .internalNl,some 1,true,1,none,false,false,0⟩],[⟨false,true,true,true,false,true,false,false,false,false,false,0,some (.own 3),some 1,true,1,none,false,false,0⟩,⟨false,true,false,true,false,true,false,false,true,false,false,0,some .internalNl,some 1,true,1,none,false,false,0⟩,⟨false,true,true,true,false,true,false,false,true,false,false,0,some .internalNl,some 1,true,1,none,false,false,0⟩],[⟨true,true,true,true,false,true,false,false,false,false,false,0,some (.own 3),some 4,true,2,none,false,false,0⟩,⟨true,false,false,false,false,true,false,false,true,true,false,0,some .internalNl,some 4,true,2,none,false,false,0⟩,⟨true,true,true,true,false,true,false,false,true,true,false,0,some .internalNl,some 4,true,2,none,false,false,0⟩],[],[⟨true,true,true,true,false,true,false,false,false,false,false,0,some (.own 3),some 1,true,1,none,false,false,0⟩,⟨true,true,true,true,false,true,false,false,true,false,false,0,some .internalNl,some 1,true,1,none,false,false,0⟩],[⟨true,true,true,true,false,true,false,false,false,false,false,0,some (.own 3),some 1,true,1,none,false,false,0⟩,⟨true,true,true,true,false,true,false,false,true,false,false,0,some .internalNl,some 1,true,1,none,false,false,0⟩],[⟨false,true,true,true,false,true,false,false,false,false,false,0,some (.own 3),some 1,true,2,none,false,false,2⟩,⟨false,true,true,true,false,true,false,false,true,false,false,0,some .internalNl,some 1,true,2,none,false,false,2⟩],[⟨true,true,true,true,false,true,false,false,false,false,false,0,some (.own 3),some 1,true,1,none,false,false,1⟩,⟨true,true,true,true,false,true,false,false,true,false,false,0,some .internalNl,some 1,true,1,none,false,false,1⟩],[⟨true,true,true,true,false,true,false,false,false,false,false,0,some (.own 3),some 1,true,1,none,false,false,0⟩,⟨true,true,true,true,false,true,false,false,true,false,false,0,some .internalNl,some 1,true,1,none,false,false,0⟩]]
theorem objc_line_bClosed : closed objc_line_rows objc_line_bTab BA.init (BA.succ ⟨true, true, true, false⟩ objc_line_M) (BA.eofOk ⟨true, true, true, false⟩ objc_line_M) = true := by
  decide +kernel
def objc_line_B : BCert ⟨true, true, true, false⟩ objc_line_M := ⟨objc_line_D, objc_line_bTab, objc_line_bClosed⟩

def octave_line_bTab : List (List BA) := [[⟨false,false,false,false,false,false,false,true,false,false,false,0,none,none,false,0,none,false,false,0⟩],[⟨false,false,false,false,false,false,false,true,false,false,false,0,some (.own 0),some 0,false,1,none,false,false,0⟩],[⟨false,false,false,false,false,false,false,true,false,false,false,0,some .newline,none,false,1,none,false,false,2⟩],[⟨true,false,false,false,false,false,false,true,false,false,false,0,some .newline,some 3,false,1,none,false,false,1⟩],[⟨false,true,false,true,false,true,false,false,false,false,false,0,some (.own 3),some 4,true,1,none,false,false,0⟩],[⟨false,true,false,true,false,true,false,false,false,false,false,0,some (.own 3),some 1,true,1,none,false,false,0⟩],[⟨false,true,false,false,true,false,false,true,false,false,false,0,some (.own 3),some 4,true,1,none,false,false,0⟩],[⟨false,true,false,true,false,true,false,false,false,false,false,0,some (.own 3),some 4,true,1,none,false,false,0⟩],[⟨false,true,false,false,true,false,false,true,false,false,false,0,some (.own 3),some 4,true,1,none,false,false,0⟩],[⟨false,true,true,true,false,true,false,false,false,false,false,0,some (.own 3),some 4,true,2,none,false,false,0⟩],[⟨false,true,true,true,false,true,false,false,false,false,false,0,some (.own 3),some 4,true,2,none,false,false,0⟩],[⟨false,true,true,true,false,true,false,false,false,false,false,0,some (.own 3),some 1,true,1,none,false,false,0⟩],[⟨false,true,false,true,false,true,false,false,false,false,false,0,some (.own 3),some 1,true,0,some 0,false,false,0⟩,⟨false,true,false,true,false,true,false,false,false,false,false,0,some (.own 3),some 1,true,0,some 9,false,false,0⟩,⟨false,true,false,true,false,true,false,false,false,false,false,0,some (.own 3),some 1,true,0,some 10,false,false,0⟩,⟨false,true,false,true,false,true,false,false,false,false,false,0,some (.own 3),some 1,true,0,some 11,false,false,0⟩,⟨false,true,false,true,false,true,false,false,false,false,false,0,some (.own 3),some 1,true,0,some 12,false,false,0⟩,⟨false,true,false,true,false,true,false,false,false,false,false,0,some (.own 3),some 1,true,0,some 13,false,false,0⟩,⟨false,true,false,true,false,true,false,false,false,false,false,0,some (.own 3),some 1,true,0,some 34,false,false,0⟩,⟨false,true,false,true,false,true,false,false,false,false,false,0,some (.own 3),some 1,true,0,some 35,false,false,0⟩,⟨false,true,false,true,false,true,false,false,false,false,false,0,some (.own 3),some 1,true,0,some 37,false,false,0⟩,⟨false,true,false,true,false,true,false,false,false,false,false,0,some (.own 3),some 1,true,0,some 39,false,false,0⟩,⟨false,true,false,true,false,true,false,false,false,false,false,0,some (.own 3),some 1,true,0,some 46,false,false,0⟩,⟨false,true,false,true,false,true,false,false,false,false,false,0,some (.own 3),some 1,true,0,some 92,false,false,0⟩,⟨false,true,false,true,false,true,false,false,false,false,false,0,some (.own 3),some 1,true,0,some 125,false,false,0⟩],[⟨false,true,true,true,false,true,false,false,false,false,false,0,some (.own 3),some 4,true,2,none,false,false,0⟩],[⟨false,true,true,true,false,true,false,false,false,false,false,0,some (.own 3),some 4,true,2,none,false,false,0⟩],[⟨false,true,true,true,false,true,false,false,false,false,false,0,some (.own 3),some 4,true,2,none,false,false,0⟩],[⟨false,true,true,false,true,false,false,true,false,false,false,0,some (.own 3),some 4,true,2,none,false,false,0⟩],[⟨false,true,true,true,false,true,false,false,false,false,false,0,some (.own 3),some 4,true,2,none,false,false,0⟩],[⟨false,true,true,true,false,true,false,false,false,false,false,0,some (.own 3),some 4,true,2,none,false,false,0⟩,⟨false,true,false,true,false,true,false,false,true,true,false,0,some .internalNl,some 4,true,2,none,false,false,0⟩,⟨false,true,true,true,false,true,false,false,true,true,false,0,some .internalNl,some 4,true,2,none,false,false,0⟩],[⟨false,true,true,true,false,true,false,false,false,false,false,0,some (.own 3),some 4,true,2,none,false,false,0⟩,⟨false,false,false,false,false,true,false,false,true,true,false,0,some .internalNl,some 4,true,2,none,false,false,0⟩,⟨false,true,true,true,false,true,false,false,true,true,false,0,some .internalNl,some 4,true,2,none,false,false,0⟩],[⟨true,true,true,true,false,true,false,false,false,false,false,0,some (.own 3),some 4,true,2,none,false,false,0⟩,⟨true,false,false,false,false,true,false,false,true,true,false,0,some .internalNl,some 4,true,2,none,false,false,0⟩,⟨true,true,true,true,false,true,false,false,true,true,false,0,some .internalNl,some 4,true,2,none,false,false,0⟩],[⟨true,true,true,true,false,true,false,false,false,false,false,0,some (.own 3),some 4,true,2,none,false,false,0⟩,⟨true,false,false,false,false,true,false,false,true,true,false,0,some .internalNl,some 4,true,2,none,false,false,0⟩,⟨true,true,true,true,false,true,false,false,true,true,false,0,some .internalNl,some 4,true,2,none,false,false,0⟩],[⟨false,true,true,true,false,true,false,false,false,false,false,0,some (.own 3),some 4,true,2,none,false,false,2⟩,⟨false,false,false,false,false,true,false,false,true,true,false,0,some .internalNl,some 4,true,2,none,false,false,2⟩,⟨false,true,true,true,false,true,false,false,true,true,false,0,some .internalNl,some 4,true,2,none,false,false,2⟩],[⟨true,true,true,true,false,true,false,false,false,false,false,0,some (.own 3),some 4,true,2,none,false,false,1⟩,⟨true,false,false,false,false,true,false,false,true,true,false,0,some .internalNl,some 4,true,2,none,false,false,1⟩,⟨true,true,true,true,false,true,false,false,true,true,false,0,some .internalNl,some 4,true,2,none,false,false,1⟩],[⟨false,true,true,true,false,true,false,false,false,false,false,0,some (.own 3),some 4,true,2,none,false,false,0⟩,⟨false,true,false,true,false,true,false,false,true,true,false,0,some .internalNl,some 4,true,2,none,false,false,0⟩,⟨false,true,true,true,false,true,false,false,true,true,false,0,some .internalNl,some 4,true,2,none,false,false,0⟩],[⟨false,true,true,true,false,true,false,false,false,false,false,0,some (.own 3),some 4,true,2,none,false,false,0⟩],[⟨false,true,true,false,true,false,false,true,false,false,false,0,some (.own 3),some 4,true,2,none,false,false,0⟩],[⟨true,true,true,true,false,true,false,false,false,false,false,0,some (.own 3),some 4,true,2,none,false,false,0⟩,⟨true,false,false,false,false,true,false,false,true,true,false,0,some .internalNl,some 4,true,2,none,false,false,0⟩,⟨true,true,true,true,false,true,false,false,true,true,false,0,some .internalNl,some 4,true,2,none,false,false,0⟩],[]]
theorem octave_line_bClosed : closed octave_line_rows octave_line_bTab BA.init (BA.succ ⟨true, true, true, false⟩ octave_line_M) (BA.eofOk ⟨true, true, true, false⟩ octave_line_M) = true := by
  decide +kernel
def octave_line_B : BCert ⟨true, true, true, false⟩ octave_line_M := ⟨octave_line_D, octave_line_bTab, octave_line_bClosed⟩

def postscript_line_bTab : List (List BA) := [[⟨false,false,false,false,false,false,false,true,false,false,false,0,none,none,false,0,none,false,false,0⟩],[⟨false,false,false,false,false,false,false,true,false,false,false,0,some (.own 0),some 0,false,1,none,false,false,0⟩],[⟨false,false,false,false,false,false,false,true,false,false,false,0,some .newline,none,false,1,none,false,false,2⟩],[⟨true,false,false,false,false,false,false,true,false,false,false,0,some .newline,some 3,false,1,none,false,false,1⟩],[⟨false,true,false,true,false,true,false,false,false,false,false,0,some (.own 3),some 1,true,1,none,false,false,0⟩],[⟨false,true,false,true,false,true,false,false,false,false,false,0,some (.own 3),some 4,true,1,none,false,false,0⟩],[⟨false,true,true,true,false,true,false,false,false,false,false,0,some (.own 3),some 1,true,1,none,false,false,0⟩],[⟨false,true,true,true,false,true,false,false,false,false,false,0,some (.own 3),some 4,true,2,none,false,false,0⟩,⟨false,true,true,true,false,true,false,false,false,false,false,0,some (.own 3),some 2,true,2,none,false,false,0⟩],[⟨false,true,true,true,false,true,false,false,false,false,false,0,some (.own 3),some 2,true,1,none,false,false,0⟩]]
theorem postscript_line_bClosed : closed postscript_line_rows postscript_line_bTab BA.init (BA.succ ⟨true, true, false, false⟩ postscript_line_M) (BA.eofOk ⟨true, true, false, false⟩ postscript_line_M) = true := by
  decide +kernel
def postscript_line_B : BCert ⟨true, true, false, false⟩ postscript_line_M := ⟨postscript_line_D, postscript_line_bTab, postscript_line_bClosed⟩

def umple_line_bTab : List (List BA) := [[⟨false,false,false,false,false,false,false,true,false,false,false,0,none,none,false,0,none,false,false,0⟩],[⟨false,false,false,false,false,false,false,true,false,false,false,0,some (.own 0),some 0,false,1,none,false,false,0⟩],[⟨false,false,false,false,false,false,false,true,false,false,false,0,some .newline,none,false,1,none,false,false,2⟩],[⟨true,false,false,false,false,false,false,true,false,false,false,0,some .newline,some 3,false,1,none,false,false,1⟩],[⟨false,true,false,true,false,true,false,false,false,false,false,0,some (.own 7),some 4,true,1,none,false,false,0⟩],[⟨false,true,false,true,false,true,false,false,false,false,false,0,some (.own 7),some 4,true,1,none,false,false,0⟩],[⟨false,true,false,false,true,false,false,true,false,false,false,0,some (.own 7),some 4,true,1,none,false,false,0⟩],[⟨false,true,true,true,false,true,false,false,false,false,false,0,some (.own 7),some 4,true,2,none,false,false,0⟩],[⟨false,true,true,true,false,true,false,false,false,false,false,0,some (.own 7),some 4,true,2,none,false,false,0⟩],[⟨false,true,true,true,false,true,false,false,false,false,false,0,some (.own 7),some 4,true,2,none,false,false,0⟩],[⟨false,true,true,true,false,true,false,false,false,false,false,0,some (.own 7),some 4,true,2,none,false,false,0⟩],[⟨false,true,true,true,false,true,false,false,false,false,false,0,some (.own 7),some 4,true,2,none,false,false,0⟩],[⟨false,true,true,true,false,true,false,false,false,false,false,0,some (.own 7),some 1,true,1,none,false,false,0⟩],[⟨false,true,true,true,false,true,false,false,false,false,false,0,some (.own 7),some 4,true,2,none,false,false,0⟩],[⟨false,true,true,true,false,true,false,false,false,false,false,0,some (.own 7),some 4,true,2,none,false,false,0⟩],[⟨false,true,true,true,false,true,false,false,false,false,false,0,some (.own 7),some 4,true,2,none,false,false,0⟩,⟨false,true,false,true,false,true,false,false,true,true,false,0,some .internalNl,some 4,true,2,none,false,false,0⟩,⟨false,true,true,true,false,true,false,false,true,true,false,0,some .internalNl,some 4,true,2,none,false,false,0⟩],[⟨false,true,true,true,false,true,false,false,false,false,false,0,some (.own 7),some 4,true,2,none,false,false,0⟩,⟨false,false,false,false,false,true,false,false,true,true,false,0,some .internalNl,some 4,true,2,none,false,false,0⟩,⟨false,true,true,true,false,true,false,false,true,true,false,0,some .internalNl,some 4,true,2,none,false,false,0⟩],[⟨true,true,true,true,false,true,false,false,false,false,false,0,some (.own 7),some 4,true,2,none,false,false,0⟩,⟨true,false,false,false,false,true,false,false,true,true,false,0,some .internalNl,some 4,true,2,none,false,false,0⟩,⟨true,true,true,true,false,true,false,false,true,true,false,0,some .internalNl,some 4,true,2,none,false,false,0⟩],[⟨true,true,true,true,false,true,false,false,false,false,false,0,some (.own 7),some 4,true,2,none,false,false,0⟩,⟨true,false,false,false,false,true,false,false,true,true,false,0,some .internalNl,some 4,true,2,none,false,false,0⟩,⟨true,true,true,true,false,true,false,false,true,true,false,0,some .internalNl,some 4,true,2,none,false,false,0⟩],[⟨false,true,true,true,false,true,false,false,false,false,false,0,some (.own 7),some 4,true,2,none,false,false,2⟩,⟨false,false,false,false,false,true,false,false,true,true,false,0,some .internalNl,some 4,true,2,none,false,false,2⟩,⟨false,true,true,true,false,true,false,false,true,true,false,0,some .internalNl,some 4,true,2,none,false,false,2⟩],[⟨true,true,true,true,false,true,false,false,false,false,false,0,some (.own 7),some 4,true,2,none,false,false,1⟩,⟨true,false,false,false,false,true,false,false,true,true,false,0,some .internalNl,some 4,true,2,none,false,false,1⟩,⟨true,true,true,true,false,true,false,false,true,true,false,0,some .internalNl,some 4,true,2,none,false,false,1⟩],[⟨false,true,true,true,false,true,false,false,false,false,false,0,some (.own 7),some 4,true,2,none,false,false,0⟩,⟨false,true,false,true,false,true,false,false,true,true,false,0,some .internalNl,some 4,true,2,none,false,false,0⟩,⟨false,true,true,true,false,true,false,false,true,true,false,0,some .internalNl,some 4,true,2,none,false,false,0⟩],[⟨false,true,true,true,false,true,false,false,false,false,false,0,some (.own 7),some 1,true,1,none,false,false,0⟩],[⟨true,true,true,true,false,true,false,false,false,false,false,0,some (.own 7),some 4,true,2,none,false,false,0⟩,⟨true,false,false,false,false,true,false,false,true,true,false,0,some .internalNl,some 4,true,2,none,false,false,0⟩,⟨true,true,true,true,false,true,false,false,true,true,false,0,some .internalNl,some 4,true,2,none,false,false,0⟩],[]]
theorem umple_line_bClosed : closed umple_line_rows umple_line_bTab BA.init (BA.succ ⟨true, true, true, false⟩ umple_line_M) (BA.eofOk ⟨true, true, true, false⟩ umple_line_M) = true := by
  decide +kernel
def umple_line_B : BCert ⟨true, true, true, false⟩ umple_line_M := ⟨umple_line_D, umple_line_bTab, umple_line_bClosed⟩

end Ohcount.Cert
