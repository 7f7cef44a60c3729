import Verif.Cert.N10
import Verif.RagelExact

/-! Generated by tools/gen_certs.py. -/

namespace Ohcount.Cert
open Ohcount.Ragel Ohcount.Gram

set_option maxRecDepth 100000

def asm_line_bTab : List (List BA) := [[⟨false,false,false,false,false,false,false,true,false,false,false,0,none,none,false,0,none,false,false,0⟩],[⟨false,false,false,false,false,false,false,true,false,false,false,0,some (.own 0),some 0,false,1,none,false,false,0⟩],[⟨false,false,false,false,false,false,false,true,false,false,false,0,some .newline,none,false,1,none,false,false,2⟩],[⟨true,false,false,false,false,false,false,true,false,false,false,0,some .newline,some 3,false,1,none,false,false,1⟩],[⟨false,true,false,true,false,true,false,false,false,false,false,0,some (.own 7),some 1,true,1,none,false,false,0⟩],[⟨false,true,false,true,false,true,false,false,false,false,false,0,some (.own 7),some 4,true,1,none,false,false,0⟩],[⟨false,true,false,false,true,false,false,true,false,false,false,0,some (.own 7),some 4,true,1,none,false,false,0⟩],[⟨false,true,false,true,false,true,false,false,false,false,false,0,some (.own 7),some 1,true,1,none,false,false,0⟩],[⟨false,true,true,true,false,true,false,false,false,false,false,0,some (.own 7),some 1,true,1,none,false,false,0⟩],[⟨false,true,true,true,false,true,false,false,false,false,false,0,some (.own 7),some 4,true,2,none,false,false,0⟩],[⟨false,true,true,true,false,true,false,false,false,false,false,0,some (.own 7),some 4,true,2,none,false,false,0⟩],[⟨false,true,true,true,false,true,false,false,false,false,false,0,some (.own 7),some 4,true,2,none,false,false,0⟩],[⟨false,true,true,true,false,true,false,false,false,false,false,0,some (.own 7),some 1,true,1,none,false,false,0⟩],[⟨false,true,true,true,false,true,false,false,false,false,false,0,some (.own 7),some 4,true,2,none,false,false,0⟩],[⟨false,true,true,true,false,true,false,false,false,false,false,0,some (.own 7),some 4,true,2,none,false,false,0⟩,⟨false,true,false,true,false,true,false,false,true,true,false,0,some .internalNl,some 4,true,2,none,false,false,0⟩,⟨false,true,true,true,false,true,false,false,true,true,false,0,some .internalNl,some 4,true,2,none,false,false,0⟩],[⟨false,true,true,true,false,true,false,false,false,false,false,0,some (.own 7),some 4,true,2,none,false,false,0⟩,⟨false,false,false,false,false,true,false,false,true,true,false,0,some .internalNl,some 4,true,2,none,false,false,0⟩,⟨false,true,true,true,false,true,false,false,true,true,false,0,some .internalNl,some 4,true,2,none,false,false,0⟩],[⟨true,true,true,true,false,true,false,false,false,false,false,0,some (.own 7),some 4,true,2,none,false,false,0⟩,⟨true,false,false,false,false,true,false,false,true,true,false,0,some .internalNl,some 4,true,2,none,false,false,0⟩,⟨true,true,true,true,false,true,false,false,true,true,false,0,some .internalNl,some 4,true,2,none,false,false,0⟩],[⟨true,true,true,true,false,true,false,false,false,false,false,0,some (.own 7),some 4,true,2,none,false,false,0⟩,⟨true,false,false,false,false,true,false,false,true,true,false,0,some .internalNl,some 4,true,2,none,false,false,0⟩,⟨true,true,true,true,false,true,false,false,true,true,false,0,some .internalNl,some 4,true,2,none,false,false,0⟩],[⟨false,true,true,true,false,true,false,false,false,false,false,0,some (.own 7),some 4,true,2,none,false,false,2⟩,⟨false,false,false,false,false,true,false,false,true,true,false,0,some .internalNl,some 4,true,2,none,false,false,2⟩,⟨false,true,true,true,false,true,false,false,true,true,false,0,some .internalNl,some 4,true,2,none,false,false,2⟩],[⟨true,true,true,true,false,true,false,false,false,false,false,0,some (.own 7),some 4,true,2,none,false,false,1⟩,⟨true,false,false,false,false,true,false,false,true,true,false,0,some .internalNl,some 4,true,2,none,false,false,1⟩,⟨true,true,true,true,false,true,false,false,true,true,false,0,some .internalNl,some 4,true,2,none,false,false,1⟩],[⟨false,true,true,true,false,true,false,false,false,false,false,0,some (.own 7),some 4,true,2,none,false,false,0⟩,⟨false,true,false,true,false,true,false,false,true,true,false,0,some .internalNl,some 4,true,2,none,false,false,0⟩,⟨false,true,true,true,false,true,false,false,true,true,false,0,some .internalNl,some 4,true,2,none,false,false,0⟩],[⟨true,true,true,true,false,true,false,false,false,false,false,0,some (.own 7),some 4,true,2,none,false,false,0⟩,⟨true,false,false,false,false,true,false,false,true,true,false,0,some .internalNl,some 4,true,2,none,false,false,0⟩,⟨true,true,true,true,false,true,false,false,true,true,false,0,some .internalNl,some 4,true,2,none,false,false,0⟩],[]]
theorem asm_line_bClosed : closed asm_line_rows asm_line_bTab BA.init (BA.succ ⟨true, true, true, false⟩ asm_line_M) (BA.eofOk ⟨true, true, true, false⟩ asm_line_M) = true := by
  decide +kernel
def asm_line_B : BCert ⟨true, true, true, false⟩ asm_line_M := ⟨asm_line_D, asm_line_bTab, asm_line_bClosed⟩

def awk_line_bTab : List (List BA) := [[⟨false,false,false,false,false,false,false,true,false,false,false,0,none,none,false,0,none,false,false,0⟩],[⟨false,false,false,false,false,false,false,true,false,false,false,0,some (.own 0),some 0,false,1,none,false,false,0⟩],[⟨false,false,false,false,false,false,false,true,false,false,false,0,some .newline,none,false,1,none,false,false,2⟩],[⟨true,false,false,false,false,false,false,true,false,false,false,0,some .newline,some 3,false,1,none,false,false,1⟩],[⟨false,true,false,true,false,true,false,false,false,false,false,0,some (.own 3),some 4,true,1,none,false,false,0⟩],[⟨false,true,false,true,false,true,false,false,false,false,false,0,some (.own 3),some 1,true,1,none,false,false,0⟩],[⟨false,true,false,true,false,true,false,false,false,false,false,0,some (.own 3),some 4,true,1,none,false,false,0⟩],[⟨false,true,true,true,false,true,false,false,false,false,false,0,some (.own 3),some 4,true,2,none,false,false,0⟩],[⟨false,true,true,true,false,true,false,false,false,false,false,0,some (.own 3),some 4,true,2,none,false,false,0⟩],[⟨false,true,true,true,false,true,false,false,false,false,false,0,some (.own 3),some 1,true,1,none,false,false,0⟩],[⟨false,true,true,true,false,true,false,false,false,false,false,0,some (.own 3),some 4,true,2,none,false,false,0⟩],[⟨false,true,true,true,false,true,false,false,false,false,false,0,some (.own 3),some 4,true,2,none,false,false,0⟩],[⟨false,true,true,true,false,true,false,false,false,false,false,0,some (.own 3),some 4,true,2,none,false,false,0⟩],[⟨false,true,true,true,false,true,false,false,false,false,false,0,some (.own 3),some 4,true,2,none,false,false,0⟩]]
theorem awk_line_bClosed : closed awk_line_rows awk_line_bTab BA.init (BA.succ ⟨true, true, false, false⟩ awk_line_M) (BA.eofOk ⟨true, true, false, false⟩ awk_line_M) = true := by
  decide +kernel
def awk_line_B : BCert ⟨true, true, false, false⟩ awk_line_M := ⟨awk_line_D, awk_line_bTab, awk_line_bClosed⟩

def c_line_bTab : List (List BA) := [[⟨false,false,false,false,false,false,false,true,false,false,false,0,none,none,false,0,none,false,false,0⟩],[⟨false,false,false,false,false,false,false,true,false,false,false,0,some (.own 0),some 0,false,1,none,false,false,0⟩],[⟨false,false,false,false,false,false,false,true,false,false,false,0,some .newline,none,false,1,none,false,false,2⟩],[⟨true,false,false,false,false,false,false,true,false,false,false,0,some .newline,some 3,false,1,none,false,false,1⟩],[⟨false,true,false,true,false,true,false,false,false,false,false,0,some (.own 8),some 4,true,1,none,false,false,0⟩],[⟨false,true,false,true,false,true,false,false,false,false,false,0,some (.own 8),some 4,true,1,none,false,false,0⟩],[⟨false,true,false,false,true,false,false,true,false,false,false,0,some (.own 8),some 4,true,1,none,false,false,0⟩],[⟨false,true,true,true,false,true,false,false,false,false,false,0,some (.own 8),some 4,true,2,none,false,false,0⟩,⟨true,true,true,true,false,true,false,false,false,false,false,0,some (.own 8),some 4,true,2,none,false,false,0⟩,⟨false,true,true,true,false,true,false,false,false,false,false,0,some (.own 8),some 4,true,2,none,false,false,2⟩,⟨true,true,true,true,false,true,false,false,false,false,false,0,some (.own 8),some 4,true,2,none,false,false,1⟩,⟨false,true,false,true,false,true,false,false,true,true,false,0,some .internalNl,some 4,true,2,none,false,false,0⟩,⟨true,false,false,true,false,true,false,false,true,true,false,0,some .internalNl,some 4,true,2,none,false,true,0⟩,⟨false,false,false,true,false,true,false,false,true,true,false,0,some .internalNl,some 4,true,2,none,false,true,2⟩,⟨true,false,false,true,false,true,false,false,true,true,false,0,some .internalNl,some 4,true,2,none,false,true,1⟩,⟨false,true,true,true,false,true,false,false,true,true,false,0,some .internalNl,some 4,true,2,none,false,false,0⟩,⟨true,true,true,true,false,true,false,false,true,true,false,0,some .internalNl,some 4,true,2,none,false,false,0⟩,⟨false,true,true,true,false,true,false,false,true,true,false,0,some .internalNl,some 4,true,2,none,false,false,2⟩,⟨true,true,true,true,false,true,false,false,true,true,false,0,some .internalNl,some 4,true,2,none,false,false,1⟩],[⟨false,true,true,true,false,true,false,false,false,false,false,0,some (.own 8),some 4,true,2,none,false,false,0⟩,⟨false,false,false,false,false,true,false,false,true,true,false,0,some .internalNl,some 4,true,2,none,false,false,0⟩,⟨false,true,true,true,false,true,false,false,true,true,false,0,some .internalNl,some 4,true,2,none,false,false,0⟩],[⟨false,true,true,true,false,true,false,false,false,false,false,0,some (.own 8),some 4,true,2,none,false,false,0⟩,⟨false,true,false,false,true,true,false,false,true,true,false,0,some .internalNl,some 4,true,2,none,false,false,0⟩,⟨false,true,true,true,false,true,false,false,true,true,false,0,some .internalNl,some 4,true,2,none,false,false,0⟩],[⟨false,true,true,true,false,true,false,false,false,false,false,0,some (.own 8),some 4,true,2,none,false,false,0⟩,⟨true,true,true,true,false,true,false,false,false,false,false,0,some (.own 8),some 4,true,2,none,false,false,0⟩,⟨false,true,true,true,false,true,false,false,false,false,false,0,some (.own 8),some 4,true,2,none,false,false,2⟩,⟨true,true,true,true,false,true,false,false,false,false,false,0,some (.own 8),some 4,true,2,none,false,false,1⟩,⟨false,true,false,true,false,true,false,false,true,true,false,0,some .internalNl,some 4,true,2,none,false,false,0⟩,⟨true,false,false,true,false,true,false,false,true,true,false,0,some .internalNl,some 4,true,2,none,false,true,0⟩,⟨false,false,false,true,false,true,false,false,true,true,false,0,some .internalNl,some 4,true,2,none,false,true,2⟩,⟨true,false,false,true,false,true,false,false,true,true,false,0,some .internalNl,some 4,true,2,none,false,true,1⟩,⟨false,true,true,true,false,true,false,false,true,true,false,0,some .internalNl,some 4,true,2,none,false,false,0⟩,⟨true,true,true,true,false,true,false,false,true,true,false,0,some .internalNl,some 4,true,2,none,false,false,0⟩,⟨false,true,true,true,false,true,false,false,true,true,false,0,some .internalNl,some 4,true,2,none,false,false,2⟩,⟨true,true,true,true,false,true,false,false,true,true,false,0,some .internalNl,some 4,true,2,none,false,false,1⟩],[⟨false,true,true,true,false,true,false,false,false,false,false,0,some (.own 8),some 4,true,2,none,false,false,0⟩,⟨false,false,false,false,false,true,false,false,true,true,false,0,some .internalNl,some 4,true,2,none,false,false,0⟩,⟨false,true,true,true,false,true,false,false,true,true,false,0,some .internalNl,some 4,true,2,none,false,false,0⟩],[⟨false,true,true,true,false,true,false,false,false,false,false,0,some (.own 8),some 4,true,2,none,false,false,0⟩,⟨false,true,false,false,true,true,false,false,true,true,false,0,some .internalNl,some 4,true,2,none,false,false,0⟩,⟨false,true,true,true,false,true,false,false,true,true,false,0,some .internalNl,some 4,true,2,none,false,false,0⟩],[⟨false,true,true,true,false,true,false,false,false,false,false,0,some (.own 8),some 4,true,2,none,false,false,0⟩],[⟨false,true,true,true,false,true,false,false,false,false,false,0,some (.own 8),some 1,true,1,none,false,false,0⟩],[⟨false,true,true,true,false,true,false,false,false,false,false,0,some (.own 8),some 4,true,2,none,false,false,0⟩,⟨false,true,true,true,false,true,false,false,true,true,false,0,some .internalNl,some 4,true,2,none,false,false,0⟩],[⟨true,true,true,true,false,true,false,false,false,false,false,0,some (.own 8),some 4,true,2,none,false,false,0⟩,⟨true,true,true,false,true,true,false,false,true,true,false,0,some .internalNl,some 4,true,2,none,false,false,0⟩,⟨true,true,true,true,false,true,false,false,true,true,false,0,some .internalNl,some 4,true,2,none,false,false,0⟩],[⟨true,true,true,true,false,true,false,false,false,false,false,0,some (.own 8),some 4,true,2,none,false,false,0⟩,⟨true,true,true,false,true,true,false,false,true,true,false,0,some .internalNl,some 4,true,2,none,false,false,0⟩,⟨true,true,true,true,false,true,false,false,true,true,false,0,some .internalNl,some 4,true,2,none,false,false,0⟩],[⟨false,true,true,true,false,true,false,false,false,false,false,0,some (.own 8),some 4,true,2,none,false,false,2⟩,⟨false,true,true,false,true,true,false,false,true,true,false,0,some .internalNl,some 4,true,2,none,false,false,2⟩,⟨false,true,true,true,false,true,false,false,true,true,false,0,some .internalNl,some 4,true,2,none,false,false,2⟩],[⟨true,true,true,true,false,true,false,false,false,false,false,0,some (.own 8),some 4,true,2,none,false,false,1⟩,⟨true,true,true,false,true,true,false,false,true,true,false,0,some .internalNl,some 4,true,2,none,false,false,1⟩,⟨true,true,true,true,false,true,false,false,true,true,false,0,some .internalNl,some 4,true,2,none,false,false,1⟩],[⟨false,true,true,true,false,true,false,false,false,false,false,0,some (.own 8),some 4,true,2,none,false,false,0⟩,⟨false,true,true,true,false,true,false,false,true,true,false,0,some .internalNl,some 4,true,2,none,false,false,0⟩],[⟨true,true,true,true,false,true,false,false,false,false,false,0,some (.own 8),some 4,true,2,none,false,false,0⟩,⟨true,true,true,false,true,true,false,false,true,true,false,0,some .internalNl,some 4,true,2,none,false,false,0⟩,⟨true,true,true,true,false,true,false,false,true,true,false,0,some .internalNl,some 4,true,2,none,false,false,0⟩],[⟨true,true,true,true,false,true,false,false,false,false,false,0,some (.own 8),some 4,true,2,none,false,false,0⟩,⟨true,true,true,false,true,true,false,false,true,true,false,0,some .internalNl,some 4,true,2,none,false,false,0⟩,⟨true,true,true,true,false,true,false,false,true,true,false,0,some .internalNl,some 4,true,2,none,false,false,0⟩],[⟨false,true,true,true,false,true,false,false,false,false,false,0,some (.own 8),some 4,true,2,none,false,false,2⟩,⟨false,true,true,false,true,true,false,false,true,true,false,0,some .internalNl,some 4,true,2,none,false,false,2⟩,⟨false,true,true,true,false,true,false,false,true,true,false,0,some .internalNl,some 4,true,2,none,false,false,2⟩],[⟨true,true,true,true,false,true,false,false,false,false,false,0,some (.own 8),some 4,true,2,none,false,false,1⟩,⟨true,true,true,false,true,true,false,false,true,true,false,0,some .internalNl,some 4,true,2,none,false,false,1⟩,⟨true,true,true,true,false,true,false,false,true,true,false,0,some .internalNl,some 4,true,2,none,false,false,1⟩],[⟨false,true,true,true,false,true,false,false,false,false,false,0,some (.own 8),some 4,true,2,none,false,false,0⟩,⟨false,true,false,true,false,true,false,false,true,true,false,0,some .internalNl,some 4,true,2,none,false,false,0⟩,⟨false,true,true,true,false,true,false,false,true,true,false,0,some .internalNl,some 4,true,2,none,false,false,0⟩],[⟨false,true,true,true,false,true,false,false,false,false,false,0,some (.own 8),some 4,true,2,none,false,false,0⟩,⟨false,false,false,false,false,true,false,false,true,true,false,0,some .internalNl,some 4,true,2,none,false,false,0⟩,⟨false,true,true,true,false,true,false,false,true,true,false,0,some .internalNl,some 4,true,2,none,false,false,0⟩],[⟨true,true,true,true,false,true,false,false,false,false,false,0,some (.own 8),some 4,true,2,none,false,false,0⟩,⟨true,false,false,false,false,true,false,false,true,true,false,0,some .internalNl,some 4,true,2,none,false,false,0⟩,⟨true,true,true,true,false,true,false,false,true,true,false,0,some .internalNl,some 4,true,2,none,false,false,0⟩],[⟨true,true,true,true,false,true,false,false,false,false,false,0,some (.own 8),some 4,true,2,none,false,false,0⟩,⟨true,false,false,false,false,true,false,false,true,true,false,0,some .internalNl,some 4,true,2,none,false,false,0⟩,⟨true,true,true,true,false,true,false,false,true,true,false,0,some .internalNl,some 4,true,2,none,false,false,0⟩],[⟨false,true,true,true,false,true,false,false,false,false,false,0,some (.own 8),some 4,true,2,none,false,false,2⟩,⟨false,false,false,false,false,true,false,false,true,true,false,0,some .internalNl,some 4,true,2,none,false,false,2⟩,⟨false,true,true,true,false,true,false,false,true,true,false,0,some .internalNl,some 4,true,2,none,false,false,2⟩],[⟨true,true,true,true,false,true,false,false,false,false,false,0,some (.own 8),some 4,true,2,none,false,false,1⟩,⟨true,false,false,false,false,true,false,false,true,true,false,0,some .internalNl,some 4,true,2,none,false,false,1⟩,⟨true,true,true,true,false,true,false,false,true,true,false,0,some .internalNl,some 4,true,2,none,false,false,1⟩],[⟨false,true,true,true,false,true,false,false,false,false,false,0,some (.own 8),some 4,true,2,none,false,false,0⟩,⟨false,true,false,true,false,true,false,false,true,true,false,0,some .internalNl,some 4,true,2,none,false,false,0⟩,⟨false,true,true,true,false,true,false,false,true,true,false,0,some .internalNl,some 4,true,2,none,false,false,0⟩],[⟨false,true,true,true,false,true,false,false,false,false,false,0,some (.own 8),some 1,true,1,none,false,false,0⟩,⟨false,true,false,true,false,true,false,false,true,false,false,0,some .internalNl,some 1,true,1,none,false,false,0⟩,⟨false,true,true,true,false,true,false,false,true,false,false,0,some .internalNl,some 1,true,1,none,false,false,0⟩],[⟨false,true,true,true,false,true,false,false,false,false,false,0,some (.own 8),some 1,true,1,none,false,false,0⟩,⟨false,false,false,false,false,true,false,false,true,false,false,0,some .internalNl,some 1,false,1,none,false,false,0⟩,⟨false,true,true,true,false,true,false,false,true,false,false,0,some .internalNl,some 1,true,1,none,false,false,0⟩],[⟨false,true,true,true,false,true,false,false,false,false,false,0,some (.own 8),some 1,true,1,none,false,false,0⟩,⟨false,true,false,true,false,true,false,false,true,false,false,0,some .internalNl,some 1,true,1,none,false,false,0⟩,⟨false,true,true,true,false,true,false,false,true,false,false,0,some .internalNl,some 1,true,1,none,false,false,0⟩],[⟨true,true,true,true,false,true,false,false,false,false,false,0,some (.own 8),some 4,true,2,none,false,false,0⟩,⟨true,true,true,false,true,true,false,false,true,true,false,0,some .internalNl,some 4,true,2,none,false,false,0⟩,⟨true,true,true,true,false,true,false,false,true,true,false,0,some .internalNl,some 4,true,2,none,false,false,0⟩],[],[⟨true,true,true,true,false,true,false,false,false,false,false,0,some (.own 8),some 4,true,2,none,false,false,0⟩,⟨true,true,true,false,true,true,false,false,true,true,false,0,some .internalNl,some 4,true,2,none,false,false,0⟩,⟨true,true,true,true,false,true,false,false,true,true,false,0,some .internalNl,some 4,true,2,none,false,false,0⟩],[],[⟨true,true,true,true,false,true,false,false,false,false,false,0,some (.own 8),some 4,true,2,none,false,false,0⟩,⟨true,false,false,false,false,true,false,false,true,true,false,0,some .internalNl,some 4,true,2,none,false,false,0⟩,⟨true,true,true,true,false,true,false,false,true,true,false,0,some .internalNl,some 4,true,2,none,false,false,0⟩],[],[⟨true,true,true,true,false,true,false,false,false,false,false,0,some (.own 8),some 1,true,1,none,false,false,0⟩,⟨true,true,true,true,false,true,false,false,true,false,false,0,some .internalNl,some 1,true,1,none,false,false,0⟩],[⟨true,true,true,true,false,true,false,false,false,false,false,0,some (.own 8),some 1,true,1,none,false,false,0⟩,⟨true,true,true,true,false,true,false,false,true,false,false,0,some .internalNl,some 1,true,1,none,false,false,0⟩],[⟨false,true,true,true,false,true,false,false,false,false,false,0,some (.own 8),some 1,true,2,none,false,false,2⟩,⟨false,true,true,true,false,true,false,false,true,false,false,0,some .internalNl,some 1,true,2,none,false,false,2⟩],[⟨true,true,true,true,false,true,false,false,false,false,false,0,some (.own 8),some 1,true,1,none,false,false,1⟩,⟨true,true,true,true,false,true,false,false,true,false,false,0,some .internalNl,some 1,true,1,none,false,false,1⟩],[⟨true,true,true,true,false,true,false,false,false,false,false,0,some (.own 8),some 1,true,1,none,false,false,0⟩,⟨true,true,true,true,false,true,false,false,true,false,false,0,some .internalNl,some 1,true,1,none,false,false,0⟩]]
theorem c_line_bClosed : closed c_line_rows c_line_bTab BA.init (BA.succ ⟨true, false, true, true⟩ c_line_M) (BA.eofOk ⟨true, false, true, true⟩ c_line_M) = true := by
  decide +kernel
def c_line_B : BCert ⟨true, false, true, true⟩ c_line_M := ⟨c_line_D, c_line_bTab, c_line_bClosed⟩

def dart_line_bTab : List (List BA) := [[⟨false,false,false,false,false,false,false,true,false,false,false,0,none,none,false,0,none,false,false,0⟩],[⟨false,false,false,false,false,false,false,true,false,false,false,0,some (.own 0),some 0,false,1,none,false,false,0⟩],[⟨false,false,false,false,false,false,false,true,false,false,false,0,some .newline,none,false,1,none,false,false,2⟩],[⟨true,false,false,false,false,false,false,true,false,false,false,0,some .newline,some 2,false,1,none,false,false,1⟩],[⟨false,true,false,false,true,false,false,true,false,false,false,0,some (.own 2),some 3,true,1,none,false,false,0⟩],[⟨false,true,true,true,false,true,false,false,false,false,false,0,some (.own 2),some 3,true,2,none,false,false,0⟩],[⟨false,true,true,true,false,true,false,false,false,false,false,0,some (.own 2),some 1,true,1,none,false,false,0⟩],[⟨false,true,true,true,false,true,false,false,false,false,false,0,some (.own 2),some 3,true,2,none,false,false,0⟩,⟨false,true,false,true,false,true,false,false,true,true,false,0,some .internalNl,some 3,true,2,none,false,false,0⟩,⟨false,true,true,true,false,true,false,false,true,true,false,0,some .internalNl,some 3,true,2,none,false,false,0⟩],[⟨false,true,true,true,false,true,false,false,false,false,false,0,some (.own 2),some 3,true,2,none,false,false,0⟩,⟨false,false,false,false,false,true,false,false,true,true,false,0,some .internalNl,some 3,true,2,none,false,false,0⟩,⟨false,true,true,true,false,true,false,false,true,true,false,0,some .internalNl,some 3,true,2,none,false,false,0⟩],[⟨true,true,true,true,false,true,false,false,false,false,false,0,some (.own 2),some 3,true,2,none,false,false,0⟩,⟨true,false,false,false,false,true,false,false,true,true,false,0,some .internalNl,some 3,true,2,none,false,false,0⟩,⟨true,true,true,true,false,true,false,false,true,true,false,0,some .internalNl,some 3,true,2,none,false,false,0⟩],[⟨true,true,true,true,false,true,false,false,false,false,false,0,some (.own 2),some 3,true,2,none,false,false,0⟩,⟨true,false,false,false,false,true,false,false,true,true,false,0,some .internalNl,some 3,true,2,none,false,false,0⟩,⟨true,true,true,true,false,true,false,false,true,true,false,0,some .internalNl,some 3,true,2,none,false,false,0⟩],[⟨false,true,true,true,false,true,false,false,false,false,false,0,some (.own 2),some 3,true,2,none,false,false,2⟩,⟨false,false,false,false,false,true,false,false,true,true,false,0,some .internalNl,some 3,true,2,none,false,false,2⟩,⟨false,true,true,true,false,true,false,false,true,true,false,0,some .internalNl,some 3,true,2,none,false,false,2⟩],[⟨true,true,true,true,false,true,false,false,false,false,false,0,some (.own 2),some 3,true,2,none,false,false,1⟩,⟨true,false,false,false,false,true,false,false,true,true,false,0,some .internalNl,some 3,true,2,none,false,false,1⟩,⟨true,true,true,true,false,true,false,false,true,true,false,0,some .internalNl,some 3,true,2,none,false,false,1⟩],[⟨false,true,true,true,false,true,false,false,false,false,false,0,some (.own 2),some 3,true,2,none,false,false,0⟩,⟨false,true,false,true,false,true,false,false,true,true,false,0,some .internalNl,some 3,true,2,none,false,false,0⟩,⟨false,true,true,true,false,true,false,false,true,true,false,0,some .internalNl,some 3,true,2,none,false,false,0⟩],[⟨false,true,true,true,false,true,false,false,false,false,false,0,some (.own 2),some 1,true,1,none,false,false,0⟩,⟨false,true,false,true,false,true,false,false,true,false,false,0,some .internalNl,some 1,true,1,none,false,false,0⟩,⟨false,true,true,true,false,true,false,false,true,false,false,0,some .internalNl,some 1,true,1,none,false,false,0⟩],[⟨false,true,true,true,false,true,false,false,false,false,false,0,some (.own 2),some 1,true,1,none,false,false,0⟩,⟨false,false,false,false,false,true,false,false,true,false,false,0,some .internalNl,some 1,false,1,none,false,false,0⟩,⟨false,true,true,true,false,true,false,false,true,false,false,0,some .internalNl,some 1,true,1,none,false,false,0⟩],[⟨false,true,true,true,false,true,false,false,false,false,false,0,some (.own 2),some 1,true,1,none,false,false,0⟩,⟨false,true,false,true,false,true,false,false,true,false,false,0,some .internalNl,some 1,true,1,none,false,false,0⟩,⟨false,true,true,true,false,true,false,false,true,false,false,0,some .internalNl,some 1,true,1,none,false,false,0⟩],[⟨true,true,true,true,false,true,false,false,false,false,false,0,some (.own 2),some 3,true,2,none,false,false,0⟩,⟨true,false,false,false,false,true,false,false,true,true,false,0,some .internalNl,some 3,true,2,none,false,false,0⟩,⟨true,true,true,true,false,true,false,false,true,true,false,0,some .internalNl,some 3,true,2,none,false,false,0⟩],[],[⟨true,true,true,true,false,true,false,false,false,false,false,0,some (.own 2),some 1,true,1,none,false,false,0⟩,⟨true,true,true,true,false,true,false,false,true,false,false,0,some .internalNl,some 1,true,1,none,false,false,0⟩],[⟨true,true,true,true,false,true,false,false,false,false,false,0,some (.own 2),some 1,true,1,none,false,false,0⟩,⟨true,true,true,true,false,true,false,false,true,false,false,0,some .internalNl,some 1,true,1,none,false,false,0⟩],[⟨false,true,true,true,false,true,false,false,false,false,false,0,some (.own 2),some 1,true,2,none,false,false,2⟩,⟨false,true,true,true,false,true,false,false,true,false,false,0,some .internalNl,some 1,true,2,none,false,false,2⟩],[⟨true,true,true,true,false,true,false,false,false,false,false,0,some (.own 2),some 1,true,1,none,false,false,1⟩,⟨true,true,true,true,false,true,false,false,true,false,false,0,some .internalNl,some 1,true,1,none,false,false,1⟩],[⟨true,true,true,true,false,true,false,false,false,false,false,0,some (.own 2),some 1,true,1,none,false,false,0⟩,⟨true,true,true,true,false,true,false,false,true,false,false,0,some .internalNl,some 1,true,1,none,false,false,0⟩]]
theorem dart_line_bClosed : closed dart_line_rows dart_line_bTab BA.init (BA.succ ⟨true, true, true, false⟩ dart_line_M) (BA.eofOk ⟨true, true, true, false⟩ dart_line_M) = true := by
  decide +kernel
def dart_line_B : BCert ⟨true, true, true, false⟩ dart_line_M := ⟨dart_line_D, dart_line_bTab, dart_line_bClosed⟩

def eiffel_line_bTab : List (List BA) := [[⟨false,false,false,false,false,false,false,true,false,false,false,0,none,none,false,0,none,false,false,0⟩],[⟨false,false,false,false,false,false,false,true,false,false,false,0,some (.own 0),some 0,false,1,none,false,false,0⟩],[⟨false,false,false,false,false,false,false,true,false,false,false,0,some .newline,none,false,1,none,false,false,2⟩],[⟨true,false,false,false,false,false,false,true,false,false,false,0,some .newline,some 3,false,1,none,false,false,1⟩],[⟨false,true,false,true,false,true,false,false,false,false,false,0,some (.own 3),some 4,true,1,none,false,false,0⟩],[⟨false,true,false,false,true,false,false,true,false,false,false,0,some (.own 3),some 4,true,1,none,false,false,0⟩],[⟨false,true,true,true,false,true,false,false,false,false,false,0,some (.own 3),some 4,true,2,none,false,false,0⟩],[⟨false,true,true,true,false,true,false,false,false,false,false,0,some (.own 3),some 1,true,1,none,false,false,0⟩],[⟨false,true,true,true,false,true,false,false,false,false,false,0,some (.own 3),some 1,true,1,none,false,false,0⟩]]
theorem eiffel_line_bClosed : closed eiffel_line_rows eiffel_line_bTab BA.init (BA.succ ⟨true, true, false, false⟩ eiffel_line_M) (BA.eofOk ⟨true, true, false, false⟩ eiffel_line_M) = true := by
  decide +kernel
def eiffel_line_B : BCert ⟨true, true, false, false⟩ eiffel_line_M := ⟨eiffel_line_D, eiffel_line_bTab, eiffel_line_bClosed⟩

def groovy_line_bTab : List (List BA) := [[⟨false,false,false,false,false,false,false,true,false,false,false,0,none,none,false,0,none,false,false,0⟩],[⟨false,false,false,false,false,false,false,true,false,false,false,0,some (.own 0),some 0,false,1,none,false,false,0⟩],[⟨false,false,false,false,false,false,false,true,false,false,false,0,some .newline,none,false,1,none,false,false,2⟩],[⟨true,false,false,false,false,false,false,true,false,false,false,0,some .newline,some 3,false,1,none,false,false,1⟩],[⟨false,true,false,true,false,true,false,false,false,false,false,0,some (.own 3),some 4,true,1,none,false,false,0⟩],[⟨false,true,false,true,false,true,false,false,false,false,false,0,some (.own 3),some 4,true,1,none,false,false,0⟩],[⟨false,true,false,false,true,false,false,true,false,false,false,0,some (.own 3),some 4,true,1,none,false,false,0⟩],[⟨false,true,true,true,false,true,false,false,false,false,false,0,some (.own 3),some 4,true,2,none,false,false,0⟩,⟨true,true,true,true,false,true,false,false,false,false,false,0,some (.own 3),some 4,true,2,none,false,false,0⟩,⟨false,true,true,true,false,true,false,false,false,false,false,0,some (.own 3),some 4,true,2,none,false,false,2⟩,⟨true,true,true,true,false,true,false,false,false,false,false,0,some (.own 3),some 4,true,2,none,false,false,1⟩,⟨false,true,false,true,false,true,false,false,true,true,false,0,some .internalNl,some 4,true,2,none,false,false,0⟩,⟨true,false,false,true,false,true,false,false,true,true,false,0,some .internalNl,some 4,true,2,none,false,true,0⟩,⟨false,false,false,true,false,true,false,false,true,true,false,0,some .internalNl,some 4,true,2,none,false,true,2⟩,⟨true,false,false,true,false,true,false,false,true,true,false,0,some .internalNl,some 4,true,2,none,false,true,1⟩,⟨false,true,true,true,false,true,false,false,true,true,false,0,some .internalNl,some 4,true,2,none,false,false,0⟩,⟨true,true,true,true,false,true,false,false,true,true,false,0,some .internalNl,some 4,true,2,none,false,false,0⟩,⟨false,true,true,true,false,true,false,false,true,true,false,0,some .internalNl,some 4,true,2,none,false,false,2⟩,⟨true,true,true,true,false,true,false,false,true,true,false,0,some .internalNl,some 4,true,2,none,false,false,1⟩],[⟨false,true,true,true,false,true,false,false,false,false,false,0,some (.own 3),some 4,true,2,none,false,false,0⟩,⟨false,false,false,false,false,true,false,false,true,true,false,0,some .internalNl,some 4,true,2,none,false,false,0⟩,⟨false,true,true,true,false,true,false,false,true,true,false,0,some .internalNl,some 4,true,2,none,false,false,0⟩],[⟨false,true,true,true,false,true,false,false,false,false,false,0,some (.own 3),some 4,true,2,none,false,false,0⟩,⟨false,true,false,false,true,true,false,false,true,true,false,0,some .internalNl,some 4,true,2,none,false,false,0⟩,⟨false,true,true,true,false,true,false,false,true,true,false,0,some .internalNl,some 4,true,2,none,false,false,0⟩],[⟨false,true,true,true,false,true,false,false,false,false,false,0,some (.own 3),some 4,true,2,none,false,false,0⟩,⟨true,true,true,true,false,true,false,false,false,false,false,0,some (.own 3),some 4,true,2,none,false,false,0⟩,⟨false,true,true,true,false,true,false,false,false,false,false,0,some (.own 3),some 4,true,2,none,false,false,2⟩,⟨true,true,true,true,false,true,false,false,false,false,false,0,some (.own 3),some 4,true,2,none,false,false,1⟩,⟨false,true,false,true,false,true,false,false,true,true,false,0,some .internalNl,some 4,true,2,none,false,false,0⟩,⟨true,false,false,true,false,true,false,false,true,true,false,0,some .internalNl,some 4,true,2,none,false,true,0⟩,⟨false,false,false,true,false,true,false,false,true,true,false,0,some .internalNl,some 4,true,2,none,false,true,2⟩,⟨true,false,false,true,false,true,false,false,true,true,false,0,some .internalNl,some 4,true,2,none,false,true,1⟩,⟨false,true,true,true,false,true,false,false,true,true,false,0,some .internalNl,some 4,true,2,none,false,false,0⟩,⟨true,true,true,true,false,true,false,false,true,true,false,0,some .internalNl,some 4,true,2,none,false,false,0⟩,⟨false,true,true,true,false,true,false,false,true,true,false,0,some .internalNl,some 4,true,2,none,false,false,2⟩,⟨true,true,true,true,false,true,false,false,true,true,false,0,some .internalNl,some 4,true,2,none,false,false,1⟩],[⟨false,true,true,true,false,true,false,false,false,false,false,0,some (.own 3),some 4,true,2,none,false,false,0⟩,⟨false,false,false,false,false,true,false,false,true,true,false,0,some .internalNl,some 4,true,2,none,false,false,0⟩,⟨false,true,true,true,false,true,false,false,true,true,false,0,some .internalNl,some 4,true,2,none,false,false,0⟩],[⟨false,true,true,true,false,true,false,false,false,false,false,0,some (.own 3),some 4,true,2,none,false,false,0⟩,⟨false,true,false,false,true,true,false,false,true,true,false,0,some .internalNl,some 4,true,2,none,false,false,0⟩,⟨false,true,true,true,false,true,false,false,true,true,false,0,some .internalNl,some 4,true,2,none,false,false,0⟩],[⟨false,true,true,true,false,true,false,false,false,false,false,0,some (.own 3),some 4,true,2,none,false,false,0⟩],[⟨false,true,true,true,false,true,false,false,false,false,false,0,some (.own 3),some 1,true,1,none,false,false,0⟩],[⟨false,true,true,true,false,true,false,false,false,false,false,0,some (.own 3),some 4,true,2,none,false,false,0⟩,⟨false,true,true,true,false,true,false,false,true,true,false,0,some .internalNl,some 4,true,2,none,false,false,0⟩],[⟨true,true,true,true,false,true,false,false,false,false,false,0,some (.own 3),some 4,true,2,none,false,false,0⟩,⟨true,true,true,false,true,true,false,false,true,true,false,0,some .internalNl,some 4,true,2,none,false,false,0⟩,⟨true,true,true,true,false,true,false,false,true,true,false,0,some .internalNl,some 4,true,2,none,false,false,0⟩],[⟨true,true,true,true,false,true,false,false,false,false,false,0,some (.own 3),some 4,true,2,none,false,false,0⟩,⟨true,true,true,false,true,true,false,false,true,true,false,0,some .internalNl,some 4,true,2,none,false,false,0⟩,⟨true,true,true,true,false,true,false,false,true,true,false,0,some .internalNl,some 4,true,2,none,false,false,0⟩],[⟨false,true,true,true,false,true,false,false,false,false,false,0,some (.own 3),some 4,true,2,none,false,false,2⟩,⟨false,true,true,false,true,true,false,false,true,true,false,0,some .internalNl,some 4,true,2,none,false,false,2⟩,⟨false,true,true,true,false,true,false,false,true,true,false,0,some .internalNl,some 4,true,2,none,false,false,2⟩],[⟨true,true,true,true,false,true,false,false,false,false,false,0,some (.own 3),some 4,true,2,none,false,false,1⟩,⟨true,true,true,false,true,true,false,false,true,true,false,0,some .internalNl,some 4,true,2,none,false,false,1⟩,⟨true,true,true,true,false,true,false,false,true,true,false,0,some .internalNl,some 4,true,2,none,false,false,1⟩],[⟨false,true,true,true,false,true,false,false,false,false,false,0,some (.own 3),some 4,true,2,none,false,false,0⟩,⟨false,true,true,true,false,true,false,false,true,true,false,0,some .internalNl,some 4,true,2,none,false,false,0⟩],[⟨true,true,true,true,false,true,false,false,false,false,false,0,some (.own 3),some 4,true,2,none,false,false,0⟩,⟨true,true,true,false,true,true,false,false,true,true,false,0,some .internalNl,some 4,true,2,none,false,false,0⟩,⟨true,true,true,true,false,true,false,false,true,true,false,0,some .internalNl,some 4,true,2,none,false,false,0⟩],[⟨true,true,true,true,false,true,false,false,false,false,false,0,some (.own 3),some 4,true,2,none,false,false,0⟩,⟨true,true,true,false,true,true,false,false,true,true,false,0,some .internalNl,some 4,true,2,none,false,false,0⟩,⟨true,true,true,true,false,true,false,false,true,true,false,0,some .internalNl,some 4,true,2,none,false,false,0⟩],[⟨false,true,true,true,false,true,false,false,false,false,false,0,some (.own 3),some 4,true,2,none,false,false,2⟩,⟨false,true,true,false,true,true,false,false,true,true,false,0,some .internalNl,some 4,true,2,none,false,false,2⟩,⟨false,true,true,true,false,true,false,false,true,true,false,0,some .internalNl,some 4,true,2,none,false,false,2⟩],[⟨true,true,true,true,false,true,false,false,false,false,false,0,some (.own 3),some 4,true,2,none,false,false,1⟩,⟨true,true,true,false,true,true,false,false,true,true,false,0,some .internalNl,some 4,true,2,none,false,false,1⟩,⟨true,true,true,true,false,true,false,false,true,true,false,0,some .internalNl,some 4,true,2,none,false,false,1⟩],[⟨false,true,true,true,false,true,false,false,false,false,false,0,some (.own 3),some 4,true,2,none,false,false,0⟩,⟨false,true,false,true,false,true,false,false,true,true,false,0,some .internalNl,some 4,true,2,none,false,false,0⟩,⟨false,true,true,true,false,true,false,false,true,true,false,0,some .internalNl,some 4,true,2,none,false,false,0⟩],[⟨false,true,true,true,false,true,false,false,false,false,false,0,some (.own 3),some 4,true,2,none,false,false,0⟩,⟨false,false,false,false,false,true,false,false,true,true,false,0,some .internalNl,some 4,true,2,none,false,false,0⟩,⟨false,true,true,true,false,true,false,false,true,true,false,0,some .internalNl,some 4,true,2,none,false,false,0⟩],[⟨true,true,true,true,false,true,false,false,false,false,false,0,some (.own 3),some 4,true,2,none,false,false,0⟩,⟨true,false,false,false,false,true,false,false,true,true,false,0,some .internalNl,some 4,true,2,none,false,false,0⟩,⟨true,true,true,true,false,true,false,false,true,true,false,0,some .internalNl,some 4,true,2,none,false,false,0⟩],[⟨true,true,true,true,false,true,false,false,false,false,false,0,some (.own 3),some 4,true,2,none,false,false,0⟩,⟨true,false,false,false,false,true,false,false,true,true,false,0,some .internalNl,some 4,true,2,none,false,false,0⟩,⟨true,true,true,true,false,true,false,false,true,true,false,0,some .internalNl,some 4,true,2,none,false,false,0⟩],[⟨false,true,true,true,false,true,false,false,false,false,false,0,some (.own 3),some 4,true,2,none,false,false,2⟩,⟨false,false,false,false,false,true,false,false,true,true,false,0,some .internalNl,some 4,true,2,none,false,false,2⟩,⟨false,true,true,true,false,true,false,false,true,true,false,0,some .internalNl,some 4,true,2,none,false,false,2⟩],[⟨true,true,true,true,false,true,false,false,false,false,false,0,some (.own 3),some 4,true,2,none,false,false,1⟩,⟨true,false,false,false,false,true,false,false,true,true,false,0,some .internalNl,some 4,true,2,none,false,false,1⟩,⟨true,true,true,true,false,true,false,false,true,true,false,0,some .internalNl,some 4,true,2,none,false,false,1⟩],[⟨false,true,true,true,false,true,false,false,false,false,false,0,some (.own 3),some 4,true,2,none,false,false,0⟩,⟨false,true,false,true,false,true,false,false,true,true,false,0,some .internalNl,some 4,true,2,none,false,false,0⟩,⟨false,true,true,true,false,true,false,false,true,true,false,0,some .internalNl,some 4,true,2,none,false,false,0⟩],[⟨false,true,true,true,false,true,false,false,false,false,false,0,some (.own 3),some 1,true,1,none,false,false,0⟩,⟨false,true,false,true,false,true,false,false,true,false,false,0,some .internalNl,some 1,true,1,none,false,false,0⟩,⟨false,true,true,true,false,true,false,false,true,false,false,0,some .internalNl,some 1,true,1,none,false,false,0⟩],[⟨false,true,true,true,false,true,false,false,false,false,false,0,some (.own 3),some 1,true,1,none,false,false,0⟩,⟨false,false,false,false,false,true,false,false,true,false,false,0,some .internalNl,some 1,false,1,none,false,false,0⟩,⟨false,true,true,true,false,true,false,false,true,false,false,0,some .internalNl,some 1,true,1,none,false,false,0⟩],[⟨false,true,true,true,false,true,false,false,false,false,false,0,some (.own 3),some 1,true,1,none,false,false,0⟩,⟨false,true,false,true,false,true,false,false,true,false,false,0,some .internalNl,some 1,true,1,none,false,false,0⟩,⟨false,true,true,true,false,true,false,false,true,false,false,0,some .internalNl,some 1,true,1,none,false,false,0⟩],[⟨true,true,true,true,false,true,false,false,false,false,false,0,some (.own 3),some 4,true,2,none,false,false,0⟩,⟨true,true,true,false,true,true,false,false,true,true,false,0,some .internalNl,some 4,true,2,none,false,false,0⟩,⟨true,true,true,true,false,true,false,false,true,true,false,0,some .internalNl,some 4,true,2,none,false,false,0⟩],[],[⟨true,true,true,true,false,true,false,false,false,false,false,0,some (.own 3),some 4,true,2,none,false,false,0⟩,⟨true,true,true,false,true,true,false,false,true,true,false,0,some .internalNl,some 4,true,2,none,false,false,0⟩,⟨true,true,true,true,false,true,false,false,true,true,false,0,some .internalNl,some 4,true,2,none,false,false,0⟩],[],[⟨true,true,true,true,false,true,false,false,false,false,false,0,some (.own 3),some 4,true,2,none,false,false,0⟩,⟨true,false,false,false,false,true,false,false,true,true,false,0,some .internalNl,some 4,true,2,none,false,false,0⟩,⟨true,true,true,true,false,true,false,false,true,true,false,0,some .internalNl,some 4,true,2,none,false,false,0⟩],[],[⟨true,true,true,true,false,true,false,false,false,false,false,0,some (.own 3),some 1,true,1,none,false,false,0⟩,⟨true,true,true,true,false,true,false,false,true,false,false,0,some .internalNl,some 1,true,1,none,false,false,0⟩],[⟨true,true,true,true,false,true,false,false,false,false,false,0,some (.own 3),some 1,true,1,none,false,false,0⟩,⟨true,true,true,true,false,true,false,false,true,false,false,0,some .internalNl,some 1,true,1,none,false,false,0⟩],[⟨false,true,true,true,false,true,false,false,false,false,false,0,some (.own 3),some 1,true,2,none,false,false,2⟩,⟨false,true,true,true,false,true,false,false,true,false,false,0,some .internalNl,some 1,true,2,none,false,false,2⟩],[⟨true,true,true,true,false,true,false,false,false,false,false,0,some (.own 3),some 1,true,1,none,false,false,1⟩,⟨true,true,true,true,false,true,false,false,true,false,false,0,some .internalNl,some 1,true,1,none,false,false,1⟩],[⟨true,true,true,true,false,true,false,false,false,false,false,0,some (.own 3),some 1,true,1,none,false,false,0⟩,⟨true,true,true,true,false,true,false,false,true,false,false,0,some .internalNl,some 1,true,1,none,false,false,0⟩]]
theorem groovy_line_bClosed : closed groovy_line_rows groovy_line_bTab BA.init (BA.succ ⟨true, false, true, true⟩ groovy_line_M) (BA.eofOk ⟨true, false, true, true⟩ groovy_line_M) = true := by
  decide +kernel
def groovy_line_B : BCert ⟨true, false, true, true⟩ groovy_line_M := ⟨groovy_line_D, groovy_line_bTab, groovy_line_bClosed⟩

def metafont_line_bTab : List (List BA) := [[⟨false,false,false,false,false,false,false,true,false,false,false,0,none,none,false,0,none,false,false,0⟩],[⟨false,false,false,false,false,false,false,true,false,false,false,0,some (.own 0),some 0,false,1,none,false,false,0⟩],[⟨false,false,false,false,false,false,false,true,false,false,false,0,some .newline,none,false,1,none,false,false,2⟩],[⟨true,false,false,false,false,false,false,true,false,false,false,0,some .newline,some 3,false,1,none,false,false,1⟩],[⟨false,true,false,true,false,true,false,false,false,false,false,0,some (.own 3),some 4,true,1,none,false,false,0⟩],[⟨false,false,false,true,false,true,false,false,false,false,false,0,some (.own 3),some 1,true,0,some 37,true,false,0⟩],[⟨false,true,true,true,false,true,false,false,false,false,false,0,some (.own 3),some 4,true,2,none,false,false,0⟩],[⟨false,true,true,true,false,true,false,false,false,false,false,0,some (.own 3),some 4,true,2,none,false,false,0⟩],[⟨false,true,false,true,false,true,false,false,false,false,false,0,some (.own 3),some 1,true,1,none,false,false,0⟩,⟨false,true,true,true,false,true,false,false,false,false,false,0,some (.own 3),some 1,true,1,none,false,false,0⟩],[⟨false,true,true,true,false,true,false,false,false,false,false,0,some (.own 3),some 4,true,2,none,false,false,0⟩]]
theorem metafont_line_bClosed : closed metafont_line_rows metafont_line_bTab BA.init (BA.succ ⟨true, true, false, false⟩ metafont_line_M) (BA.eofOk ⟨true, true, false, false⟩ metafont_line_M) = true := by
  decide +kernel
def metafont_line_B : BCert ⟨true, true, false, false⟩ metafont_line_M := ⟨metafont_line_D, metafont_line_bTab, metafont_line_bClosed⟩

def xml_line_bTab : List (List BA) := [[⟨false,false,false,false,false,false,false,true,false,false,false,0,none,none,false,0,none,false,false,0⟩],[⟨false,false,false,false,false,false,false,true,false,false,false,0,some (.own 0),some 0,false,1,none,false,false,0⟩],[⟨false,false,false,false,false,false,false,true,false,false,false,0,some .newline,none,false,1,none,false,false,2⟩],[⟨true,false,false,false,false,false,false,true,false,false,false,0,some .newline,some 3,false,1,none,false,false,1⟩],[⟨false,true,false,false,true,false,false,true,false,false,false,0,some (.own 5),some 4,true,1,none,false,false,0⟩],[⟨false,true,false,false,true,false,false,true,false,false,false,0,some (.own 5),some 4,true,1,none,false,false,0⟩],[⟨false,true,false,false,true,false,false,true,false,false,false,0,some (.own 5),some 4,true,1,none,false,false,0⟩],[⟨false,true,true,false,true,false,false,true,false,false,false,0,some (.own 5),some 4,true,2,none,false,false,0⟩],[⟨false,true,true,false,true,false,false,true,false,false,false,0,some (.own 5),some 4,true,2,none,false,false,0⟩],[⟨false,true,true,false,true,false,false,true,false,false,false,0,some (.own 5),some 4,true,2,none,false,false,0⟩],[⟨false,true,true,false,true,false,false,true,false,false,false,0,some (.own 5),some 4,true,2,none,false,false,0⟩],[⟨false,true,true,false,true,false,false,true,false,false,false,0,some (.own 5),some 4,true,2,none,false,false,0⟩],[⟨false,true,true,true,false,true,false,false,false,false,false,0,some (.own 5),some 4,true,2,none,false,false,0⟩],[⟨false,true,true,false,true,false,false,true,false,false,false,0,some (.own 5),some 4,true,2,none,false,false,0⟩],[⟨false,true,true,true,false,true,false,false,false,false,false,0,some (.own 5),some 4,true,2,none,false,false,0⟩,⟨false,true,false,true,false,true,false,false,true,true,false,0,some .internalNl,some 4,true,2,none,false,false,0⟩,⟨false,true,true,true,false,true,false,false,true,true,false,0,some .internalNl,some 4,true,2,none,false,false,0⟩],[⟨false,true,true,true,false,true,false,false,false,false,false,0,some (.own 5),some 4,true,2,none,false,false,0⟩,⟨false,false,false,false,false,true,false,false,true,true,false,0,some .internalNl,some 4,true,2,none,false,false,0⟩,⟨false,true,true,true,false,true,false,false,true,true,false,0,some .internalNl,some 4,true,2,none,false,false,0⟩],[⟨true,true,true,true,false,true,false,false,false,false,false,0,some (.own 5),some 4,true,2,none,false,false,0⟩,⟨true,false,false,false,false,true,false,false,true,true,false,0,some .internalNl,some 4,true,2,none,false,false,0⟩,⟨true,true,true,true,false,true,false,false,true,true,false,0,some .internalNl,some 4,true,2,none,false,false,0⟩],[⟨true,true,true,true,false,true,false,false,false,false,false,0,some (.own 5),some 4,true,2,none,false,false,0⟩,⟨true,false,false,false,false,true,false,false,true,true,false,0,some .internalNl,some 4,true,2,none,false,false,0⟩,⟨true,true,true,true,false,true,false,false,true,true,false,0,some .internalNl,some 4,true,2,none,false,false,0⟩],[⟨false,true,true,true,false,true,false,false,false,false,false,0,some (.own 5),some 4,true,2,none,false,false,2⟩,⟨false,false,false,false,false,true,false,false,true,true,false,0,some .internalNl,some 4,true,2,none,false,false,2⟩,⟨false,true,true,true,false,true,false,false,true,true,false,0,some .internalNl,some 4,true,2,none,false,false,2⟩],[⟨true,true,true,true,false,true,false,false,false,false,false,0,some (.own 5),some 4,true,2,none,false,false,1⟩,⟨true,false,false,false,false,true,false,false,true,true,false,0,some .internalNl,some 4,true,2,none,false,false,1⟩,⟨true,true,true,true,false,true,false,false,true,true,false,0,some .internalNl,some 4,true,2,none,false,false,1⟩],[⟨false,true,true,true,false,true,false,false,false,false,false,0,some (.own 5),some 4,true,2,none,false,false,0⟩,⟨false,true,false,true,false,true,false,false,true,true,false,0,some .internalNl,some 4,true,2,none,false,false,0⟩,⟨false,true,true,true,false,true,false,false,true,true,false,0,some .internalNl,some 4,true,2,none,false,false,0⟩],[⟨false,true,true,false,true,false,false,true,false,false,false,0,some (.own 5),some 4,true,2,none,false,false,0⟩],[⟨true,true,true,true,false,true,false,false,false,false,false,0,some (.own 5),some 4,true,2,none,false,false,0⟩,⟨true,false,false,false,false,true,false,false,true,true,false,0,some .internalNl,some 4,true,2,none,false,false,0⟩,⟨true,true,true,true,false,true,false,false,true,true,false,0,some .internalNl,some 4,true,2,none,false,false,0⟩],[],[⟨false,true,true,true,false,true,false,false,false,false,false,0,some (.own 5),some 4,true,2,none,false,false,0⟩,⟨false,true,true,true,false,true,false,false,true,true,false,0,some .internalNl,some 4,true,2,none,false,false,0⟩],[⟨false,true,true,false,true,false,false,true,false,false,false,0,some (.own 5),some 4,true,2,none,false,false,0⟩],[⟨false,true,true,false,true,false,false,true,false,false,false,0,some (.own 5),some 4,true,2,none,false,false,0⟩],[⟨false,true,true,false,true,false,false,true,false,false,false,0,some (.own 5),some 4,true,2,none,false,false,0⟩],[⟨false,true,true,true,false,true,false,false,false,false,false,0,some (.own 5),some 4,true,2,none,false,false,0⟩],[⟨false,true,true,true,false,true,false,false,false,false,false,0,some (.own 5),some 4,true,2,none,false,false,0⟩,⟨false,true,false,true,false,true,false,false,true,true,false,0,some .internalNl,some 4,true,2,none,false,false,0⟩,⟨false,true,true,true,false,true,false,false,true,true,false,0,some .internalNl,some 4,true,2,none,false,false,0⟩],[⟨false,true,true,true,false,true,false,false,false,false,false,0,some (.own 5),some 4,true,2,none,false,false,0⟩,⟨false,false,false,false,false,true,false,false,true,true,false,0,some .internalNl,some 4,true,2,none,false,false,0⟩,⟨false,true,true,true,false,true,false,false,true,true,false,0,some .internalNl,some 4,true,2,none,false,false,0⟩],[⟨true,true,true,true,false,true,false,false,false,false,false,0,some (.own 5),some 4,true,2,none,false,false,0⟩,⟨true,false,false,false,false,true,false,false,true,true,false,0,some .internalNl,some 4,true,2,none,false,false,0⟩,⟨true,true,true,true,false,true,false,false,true,true,false,0,some .internalNl,some 4,true,2,none,false,false,0⟩],[⟨true,true,true,true,false,true,false,false,false,false,false,0,some (.own 5),some 4,true,2,none,false,false,0⟩,⟨true,false,false,false,false,true,false,false,true,true,false,0,some .internalNl,some 4,true,2,none,false,false,0⟩,⟨true,true,true,true,false,true,false,false,true,true,false,0,some .internalNl,some 4,true,2,none,false,false,0⟩],[⟨false,true,true,true,false,true,false,false,false,false,false,0,some (.own 5),some 4,true,2,none,false,false,2⟩,⟨false,false,false,false,false,true,false,false,true,true,false,0,some .internalNl,some 4,true,2,none,false,false,2⟩,⟨false,true,true,true,false,true,false,false,true,true,false,0,some .internalNl,some 4,true,2,none,false,false,2⟩],[⟨true,true,true,true,false,true,false,false,false,false,false,0,some (.own 5),some 4,true,2,none,false,false,1⟩,⟨true,false,false,false,false,true,false,false,true,true,false,0,some .internalNl,some 4,true,2,none,false,false,1⟩,⟨true,true,true,true,false,true,false,false,true,true,false,0,some .internalNl,some 4,true,2,none,false,false,1⟩],[⟨false,true,true,true,false,true,false,false,false,false,false,0,some (.own 5),some 4,true,2,none,false,false,0⟩,⟨false,true,false,true,false,true,false,false,true,true,false,0,some .internalNl,some 4,true,2,none,false,false,0⟩,⟨false,true,true,true,false,true,false,false,true,true,false,0,some .internalNl,some 4,true,2,none,false,false,0⟩],[⟨true,true,true,true,false,true,false,false,false,false,false,0,some (.own 5),some 4,true,2,none,false,false,0⟩,⟨true,false,false,false,false,true,false,false,true,true,false,0,some .internalNl,some 4,true,2,none,false,false,0⟩,⟨true,true,true,true,false,true,false,false,true,true,false,0,some .internalNl,some 4,true,2,none,false,false,0⟩],[],[⟨false,true,true,true,false,true,false,false,false,false,false,0,some (.own 5),some 4,true,2,none,false,false,0⟩,⟨false,true,true,true,false,true,false,false,true,true,false,0,some .internalNl,some 4,true,2,none,false,false,0⟩]]
theorem xml_line_bClosed : closed xml_line_rows xml_line_bTab BA.init (BA.succ ⟨true, true, true, false⟩ xml_line_M) (BA.eofOk ⟨true, true, true, false⟩ xml_line_M) = true := by
  decide +kernel
def xml_line_B : BCert ⟨true, true, true, false⟩ xml_line_M := ⟨xml_line_D, xml_line_bTab, xml_line_bClosed⟩

end Ohcount.Cert
