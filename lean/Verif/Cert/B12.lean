import Verif.Cert.N12
import Verif.RagelExact

/-! Generated by tools/gen_certs.py. -/

namespace Ohcount.Cert
open Ohcount.Ragel Ohcount.Gram

set_option maxRecDepth 100000

def erlang_line_bTab : List (List BA) := [[⟨false,false,false,false,false,false,false,true,false,false,false,0,none,none,false,0,none,false,false,0⟩],[⟨false,false,false,false,false,false,false,true,false,false,false,0,some (.own 0),some 0,false,1,none,false,false,0⟩],[⟨false,false,false,false,false,false,false,true,false,false,false,0,some .newline,none,false,1,none,false,false,2⟩],[⟨true,false,false,false,false,false,false,true,false,false,false,0,some .newline,some 3,false,1,none,false,false,1⟩],[⟨false,true,false,true,false,true,false,false,false,false,false,0,some (.own 3),some 4,true,1,none,false,false,0⟩],[⟨false,true,false,false,true,false,false,true,false,false,false,0,some (.own 3),some 4,true,1,none,false,false,0⟩],[⟨false,true,false,true,false,true,false,false,false,false,false,0,some (.own 3),some 4,true,1,none,false,false,0⟩],[⟨false,true,true,true,false,true,false,false,false,false,false,0,some (.own 3),some 4,true,2,none,false,false,0⟩],[⟨false,true,true,true,false,true,false,false,false,false,false,0,some (.own 3),some 4,true,2,none,false,false,0⟩],[⟨false,true,true,true,false,true,false,false,false,false,false,0,some (.own 3),some 1,true,1,none,false,false,0⟩],[⟨false,true,true,true,false,true,false,false,false,false,false,0,some (.own 3),some 4,true,2,none,false,false,0⟩],[⟨false,true,true,true,false,true,false,false,false,false,false,0,some (.own 3),some 4,true,2,none,false,false,0⟩],[⟨false,true,true,true,false,true,false,false,false,false,false,0,some (.own 3),some 4,true,2,none,false,false,0⟩],[⟨false,true,true,true,false,true,false,false,false,false,false,0,some (.own 3),some 1,true,1,none,false,false,0⟩],[⟨false,true,true,true,false,true,false,false,false,false,false,0,some (.own 3),some 4,true,2,none,false,false,0⟩]]
theorem erlang_line_bClosed : closed erlang_line_rows erlang_line_bTab BA.init (BA.succ ⟨true, true, false, false⟩ erlang_line_M) (BA.eofOk ⟨true, true, false, false⟩ erlang_line_M) = true := by
  decide +kernel
def erlang_line_B : BCert ⟨true, true, false, false⟩ erlang_line_M := ⟨erlang_line_D, erlang_line_bTab, erlang_line_bClosed⟩

def golang_line_bTab : List (List BA) := [[⟨false,false,false,false,false,false,false,true,false,false,false,0,none,none,false,0,none,false,false,0⟩],[⟨false,false,false,false,false,false,false,true,false,false,false,0,some (.own 0),some 0,false,1,none,false,false,0⟩],[⟨false,false,false,false,false,false,false,true,false,false,false,0,some .newline,none,false,1,none,false,false,2⟩],[⟨true,false,false,false,false,false,false,true,false,false,false,0,some .newline,some 3,false,1,none,false,false,1⟩],[⟨false,true,false,true,false,true,false,false,false,false,false,0,some (.own 8),some 4,true,1,none,false,false,0⟩],[⟨false,true,false,true,false,true,false,false,false,false,false,0,some (.own 8),some 4,true,1,none,false,false,0⟩],[⟨false,true,false,false,true,false,false,true,false,false,false,0,some (.own 8),some 4,true,1,none,false,false,0⟩],[⟨false,true,true,true,false,true,false,false,false,false,false,0,some (.own 8),some 4,true,2,none,false,false,0⟩,⟨true,true,true,true,false,true,false,false,false,false,false,0,some (.own 8),some 4,true,2,none,false,false,0⟩,⟨false,true,true,true,false,true,false,false,false,false,false,0,some (.own 8),some 4,true,2,none,false,false,2⟩,⟨true,true,true,true,false,true,false,false,false,false,false,0,some (.own 8),some 4,true,2,none,false,false,1⟩,⟨false,true,false,true,false,true,false,false,true,true,false,0,some .internalNl,some 4,true,2,none,false,false,0⟩,⟨true,false,false,true,false,true,false,false,true,true,false,0,some .internalNl,some 4,true,2,none,false,true,0⟩,⟨false,false,false,true,false,true,false,false,true,true,false,0,some .internalNl,some 4,true,2,none,false,true,2⟩,⟨true,false,false,true,false,true,false,false,true,true,false,0,some .internalNl,some 4,true,2,none,false,true,1⟩,⟨false,true,true,true,false,true,false,false,true,true,false,0,some .internalNl,some 4,true,2,none,false,false,0⟩,⟨true,true,true,true,false,true,false,false,true,true,false,0,some .internalNl,some 4,true,2,none,false,false,0⟩,⟨false,true,true,true,false,true,false,false,true,true,false,0,some .internalNl,some 4,true,2,none,false,false,2⟩,⟨true,true,true,true,false,true,false,false,true,true,false,0,some .internalNl,some 4,true,2,none,false,false,1⟩],[⟨false,true,true,true,false,true,false,false,false,false,false,0,some (.own 8),some 4,true,2,none,false,false,0⟩,⟨false,false,false,false,false,true,false,false,true,true,false,0,some .internalNl,some 4,true,2,none,false,false,0⟩,⟨false,true,true,true,false,true,false,false,true,true,false,0,some .internalNl,some 4,true,2,none,false,false,0⟩],[⟨false,true,true,true,false,true,false,false,false,false,false,0,some (.own 8),some 4,true,2,none,false,false,0⟩,⟨false,true,false,false,true,true,false,false,true,true,false,0,some .internalNl,some 4,true,2,none,false,false,0⟩,⟨false,true,true,true,false,true,false,false,true,true,false,0,some .internalNl,some 4,true,2,none,false,false,0⟩],[⟨false,true,true,true,false,true,false,false,false,false,false,0,some (.own 8),some 4,true,2,none,false,false,0⟩,⟨true,true,true,true,false,true,false,false,false,false,false,0,some (.own 8),some 4,true,2,none,false,false,0⟩,⟨false,true,true,true,false,true,false,false,false,false,false,0,some (.own 8),some 4,true,2,none,false,false,2⟩,⟨true,true,true,true,false,true,false,false,false,false,false,0,some (.own 8),some 4,true,2,none,false,false,1⟩,⟨false,true,false,true,false,true,false,false,true,true,false,0,some .internalNl,some 4,true,2,none,false,false,0⟩,⟨true,false,false,true,false,true,false,false,true,true,false,0,some .internalNl,some 4,true,2,none,false,true,0⟩,⟨false,false,false,true,false,true,false,false,true,true,false,0,some .internalNl,some 4,true,2,none,false,true,2⟩,⟨true,false,false,true,false,true,false,false,true,true,false,0,some .internalNl,some 4,true,2,none,false,true,1⟩,⟨false,true,true,true,false,true,false,false,true,true,false,0,some .internalNl,some 4,true,2,none,false,false,0⟩,⟨true,true,true,true,false,true,false,false,true,true,false,0,some .internalNl,some 4,true,2,none,false,false,0⟩,⟨false,true,true,true,false,true,false,false,true,true,false,0,some .internalNl,some 4,true,2,none,false,false,2⟩,⟨true,true,true,true,false,true,false,false,true,true,false,0,some .internalNl,some 4,true,2,none,false,false,1⟩],[⟨false,true,true,true,false,true,false,false,false,false,false,0,some (.own 8),some 4,true,2,none,false,false,0⟩,⟨false,false,false,false,false,true,false,false,true,true,false,0,some .internalNl,some 4,true,2,none,false,false,0⟩,⟨false,true,true,true,false,true,false,false,true,true,false,0,some .internalNl,some 4,true,2,none,false,false,0⟩],[⟨false,true,true,true,false,true,false,false,false,false,false,0,some (.own 8),some 4,true,2,none,false,false,0⟩,⟨false,true,false,false,true,true,false,false,true,true,false,0,some .internalNl,some 4,true,2,none,false,false,0⟩,⟨false,true,true,true,false,true,false,false,true,true,false,0,some .internalNl,some 4,true,2,none,false,false,0⟩],[⟨false,true,true,true,false,true,false,false,false,false,false,0,some (.own 8),some 4,true,2,none,false,false,0⟩],[⟨false,true,true,true,false,true,false,false,false,false,false,0,some (.own 8),some 1,true,1,none,false,false,0⟩],[⟨false,true,true,true,false,true,false,false,false,false,false,0,some (.own 8),some 4,true,2,none,false,false,0⟩,⟨false,true,true,true,false,true,false,false,true,true,false,0,some .internalNl,some 4,true,2,none,false,false,0⟩],[⟨true,true,true,true,false,true,false,false,false,false,false,0,some (.own 8),some 4,true,2,none,false,false,0⟩,⟨true,true,true,false,true,true,false,false,true,true,false,0,some .internalNl,some 4,true,2,none,false,false,0⟩,⟨true,true,true,true,false,true,false,false,true,true,false,0,some .internalNl,some 4,true,2,none,false,false,0⟩],[⟨true,true,true,true,false,true,false,false,false,false,false,0,some (.own 8),some 4,true,2,none,false,false,0⟩,⟨true,true,true,false,true,true,false,false,true,true,false,0,some .internalNl,some 4,true,2,none,false,false,0⟩,⟨true,true,true,true,false,true,false,false,true,true,false,0,some .internalNl,some 4,true,2,none,false,false,0⟩],[⟨false,true,true,true,false,true,false,false,false,false,false,0,some (.own 8),some 4,true,2,none,false,false,2⟩,⟨false,true,true,false,true,true,false,false,true,true,false,0,some .internalNl,some 4,true,2,none,false,false,2⟩,⟨false,true,true,true,false,true,false,false,true,true,false,0,some .internalNl,some 4,true,2,none,false,false,2⟩],[⟨true,true,true,true,false,true,false,false,false,false,false,0,some (.own 8),some 4,true,2,none,false,false,1⟩,⟨true,true,true,false,true,true,false,false,true,true,false,0,some .internalNl,some 4,true,2,none,false,false,1⟩,⟨true,true,true,true,false,true,false,false,true,true,false,0,some .internalNl,some 4,true,2,none,false,false,1⟩],[⟨false,true,true,true,false,true,false,false,false,false,false,0,some (.own 8),some 4,true,2,none,false,false,0⟩,⟨false,true,true,true,false,true,false,false,true,true,false,0,some .internalNl,some 4,true,2,none,false,false,0⟩],[⟨true,true,true,true,false,true,false,false,false,false,false,0,some (.own 8),some 4,true,2,none,false,false,0⟩,⟨true,true,true,false,true,true,false,false,true,true,false,0,some .internalNl,some 4,true,2,none,false,false,0⟩,⟨true,true,true,true,false,true,false,false,true,true,false,0,some .internalNl,some 4,true,2,none,false,false,0⟩],[⟨true,true,true,true,false,true,false,false,false,false,false,0,some (.own 8),some 4,true,2,none,false,false,0⟩,⟨true,true,true,false,true,true,false,false,true,true,false,0,some .internalNl,some 4,true,2,none,false,false,0⟩,⟨true,true,true,true,false,true,false,false,true,true,false,0,some .internalNl,some 4,true,2,none,false,false,0⟩],[⟨false,true,true,true,false,true,false,false,false,false,false,0,some (.own 8),some 4,true,2,none,false,false,2⟩,⟨false,true,true,false,true,true,false,false,true,true,false,0,some .internalNl,some 4,true,2,none,false,false,2⟩,⟨false,true,true,true,false,true,false,false,true,true,false,0,some .internalNl,some 4,true,2,none,false,false,2⟩],[⟨true,true,true,true,false,true,false,false,false,false,false,0,some (.own 8),some 4,true,2,none,false,false,1⟩,⟨true,true,true,false,true,true,false,false,true,true,false,0,some .internalNl,some 4,true,2,none,false,false,1⟩,⟨true,true,true,true,false,true,false,false,true,true,false,0,some .internalNl,some 4,true,2,none,false,false,1⟩],[⟨false,true,true,true,false,true,false,false,false,false,false,0,some (.own 8),some 4,true,2,none,false,false,0⟩,⟨false,true,false,true,false,true,false,false,true,true,false,0,some .internalNl,some 4,true,2,none,false,false,0⟩,⟨false,true,true,true,false,true,false,false,true,true,false,0,some .internalNl,some 4,true,2,none,false,false,0⟩],[⟨false,true,true,true,false,true,false,false,false,false,false,0,some (.own 8),some 4,true,2,none,false,false,0⟩,⟨false,false,false,false,false,true,false,false,true,true,false,0,some .internalNl,some 4,true,2,none,false,false,0⟩,⟨false,true,true,true,false,true,false,false,true,true,false,0,some .internalNl,some 4,true,2,none,false,false,0⟩],[⟨true,true,true,true,false,true,false,false,false,false,false,0,some (.own 8),some 4,true,2,none,false,false,0⟩,⟨true,false,false,false,false,true,false,false,true,true,false,0,some .internalNl,some 4,true,2,none,false,false,0⟩,⟨true,true,true,true,false,true,false,false,true,true,false,0,some .internalNl,some 4,true,2,none,false,false,0⟩],[⟨true,true,true,true,false,true,false,false,false,false,false,0,some (.own 8),some 4,true,2,none,false,false,0⟩,⟨true,false,false,false,false,true,false,false,true,true,false,0,some .internalNl,some 4,true,2,none,false,false,0⟩,⟨true,true,true,true,false,true,false,false,true,true,false,0,some .internalNl,some 4,true,2,none,false,false,0⟩],[⟨false,true,true,true,false,true,false,false,false,false,false,0,some (.own 8),some 4,true,2,none,false,false,2⟩,⟨false,false,false,false,false,true,false,false,true,true,false,0,some .internalNl,some 4,true,2,none,false,false,2⟩,⟨false,true,true,true,false,true,false,false,true,true,false,0,some .internalNl,some 4,true,2,none,false,false,2⟩],[⟨true,true,true,true,false,true,false,false,false,false,false,0,some (.own 8),some 4,true,2,none,false,false,1⟩,⟨true,false,false,false,false,true,false,false,true,true,false,0,some .internalNl,some 4,true,2,none,false,false,1⟩,⟨true,true,true,true,false,true,false,false,true,true,false,0,some .internalNl,some 4,true,2,none,false,false,1⟩],[⟨false,true,true,true,false,true,false,false,false,false,false,0,some (.own 8),some 4,true,2,none,false,false,0⟩,⟨false,true,false,true,false,true,false,false,true,true,false,0,some .internalNl,some 4,true,2,none,false,false,0⟩,⟨false,true,true,true,false,true,false,false,true,true,false,0,some .internalNl,some 4,true,2,none,false,false,0⟩],[⟨false,true,true,true,false,true,false,false,false,false,false,0,some (.own 8),some 1,true,1,none,false,false,0⟩,⟨false,true,false,true,false,true,false,false,true,false,false,0,some .internalNl,some 1,true,1,none,false,false,0⟩,⟨false,true,true,true,false,true,false,false,true,false,false,0,some .internalNl,some 1,true,1,none,false,false,0⟩],[⟨false,true,true,true,false,true,false,false,false,false,false,0,some (.own 8),some 1,true,1,none,false,false,0⟩,⟨false,false,false,false,false,true,false,false,true,false,false,0,some .internalNl,some 1,false,1,none,false,false,0⟩,⟨false,true,true,true,false,true,false,false,true,false,false,0,some .internalNl,some 1,true,1,none,false,false,0⟩],[⟨false,true,true,true,false,true,false,false,false,false,false,0,some (.own 8),some 1,true,1,none,false,false,0⟩,⟨false,true,false,true,false,true,false,false,true,false,false,0,some .internalNl,some 1,true,1,none,false,false,0⟩,⟨false,true,true,true,false,true,false,false,true,false,false,0,some .internalNl,some 1,true,1,none,false,false,0⟩],[⟨true,true,true,true,false,true,false,false,false,false,false,0,some (.own 8),some 4,true,2,none,false,false,0⟩,⟨true,true,true,false,true,true,false,false,true,true,false,0,some .internalNl,some 4,true,2,none,false,false,0⟩,⟨true,true,true,true,false,true,false,false,true,true,false,0,some .internalNl,some 4,true,2,none,false,false,0⟩],[],[⟨true,true,true,true,false,true,false,false,false,false,false,0,some (.own 8),some 4,true,2,none,false,false,0⟩,⟨true,true,true,false,true,true,false,false,true,true,false,0,some .internalNl,some 4,true,2,none,false,false,0⟩,⟨true,true,true,true,false,true,false,false,true,true,false,0,some .internalNl,some 4,true,2,none,false,false,0⟩],[],[⟨true,true,true,true,false,true,false,false,false,false,false,0,some (.own 8),some 4,true,2,none,false,false,0⟩,⟨true,false,false,false,false,true,false,false,true,true,false,0,some .internalNl,some 4,true,2,none,false,false,0⟩,⟨true,true,true,true,false,true,false,false,true,true,false,0,some .internalNl,some 4,true,2,none,false,false,0⟩],[],[⟨true,true,true,true,false,true,false,false,false,false,false,0,some (.own 8),some 1,true,1,none,false,false,0⟩,⟨true,true,true,true,false,true,false,false,true,false,false,0,some .internalNl,some 1,true,1,none,false,false,0⟩],[⟨true,true,true,true,false,true,false,false,false,false,false,0,some (.own 8),some 1,true,1,none,false,false,0⟩,⟨true,true,true,true,false,true,false,false,true,false,false,0,some .internalNl,some 1,true,1,none,false,false,0⟩],[⟨false,true,true,true,false,true,false,false,false,false,false,0,some (.own 8),some 1,true,2,none,false,false,2⟩,⟨false,true,true,true,false,true,false,false,true,false,false,0,some .internalNl,some 1,true,2,none,false,false,2⟩],[⟨true,true,true,true,false,true,false,false,false,false,false,0,some (.own 8),some 1,true,1,none,false,false,1⟩,⟨true,true,true,true,false,true,false,false,true,false,false,0,some .internalNl,some 1,true,1,none,false,false,1⟩],[⟨true,true,true,true,false,true,false,false,false,false,false,0,some (.own 8),some 1,true,1,none,false,false,0⟩,⟨true,true,true,true,false,true,false,false,true,false,false,0,some .internalNl,some 1,true,1,none,false,false,0⟩]]
theorem golang_line_bClosed : closed golang_line_rows golang_line_bTab BA.init (BA.succ ⟨true, false, true, true⟩ golang_line_M) (BA.eofOk ⟨true, false, true, true⟩ golang_line_M) = true := by
  decide +kernel
def golang_line_B : BCert ⟨true, false, true, true⟩ golang_line_M := ⟨golang_line_D, golang_line_bTab, golang_line_bClosed⟩

def haskell_line_bTab : List (List BA) := [[⟨false,false,false,false,false,false,false,true,false,false,false,0,none,none,false,0,none,false,false,0⟩],[⟨false,false,false,false,false,false,false,true,false,false,false,0,some (.own 0),some 0,false,1,none,false,false,0⟩],[⟨false,false,false,false,false,false,false,true,false,false,false,0,some .newline,none,false,1,none,false,false,2⟩],[⟨true,false,false,false,false,false,false,true,false,false,false,0,some .newline,some 3,false,1,none,false,false,1⟩],[⟨false,true,false,true,false,true,false,false,false,false,false,0,some (.own 3),some 4,true,1,none,false,false,0⟩],[⟨false,true,false,true,false,true,false,false,false,false,false,0,some (.own 3),some 4,true,1,none,false,false,0⟩],[⟨false,true,false,false,true,false,false,true,false,false,false,0,some (.own 3),some 4,true,1,none,false,false,0⟩],[⟨false,true,false,false,true,false,false,true,false,false,false,0,some (.own 3),some 4,true,1,none,false,false,0⟩],[⟨false,true,true,true,false,true,false,false,false,false,false,0,some (.own 3),some 4,true,2,none,false,false,0⟩,⟨true,true,true,true,false,true,false,false,false,false,false,0,some (.own 3),some 4,true,2,none,false,false,0⟩,⟨false,true,true,true,false,true,false,false,false,false,false,0,some (.own 3),some 4,true,2,none,false,false,2⟩,⟨true,true,true,true,false,true,false,false,false,false,false,0,some (.own 3),some 4,true,2,none,false,false,1⟩,⟨false,true,false,true,false,true,false,false,true,true,false,0,some .internalNl,some 4,true,2,none,false,false,0⟩,⟨true,false,false,true,false,true,false,false,true,true,false,0,some .internalNl,some 4,true,2,none,false,true,0⟩,⟨false,false,false,true,false,true,false,false,true,true,false,0,some .internalNl,some 4,true,2,none,false,true,2⟩,⟨true,false,false,true,false,true,false,false,true,true,false,0,some .internalNl,some 4,true,2,none,false,true,1⟩,⟨false,true,true,true,false,true,false,false,true,true,false,0,some .internalNl,some 4,true,2,none,false,false,0⟩,⟨true,true,true,true,false,true,false,false,true,true,false,0,some .internalNl,some 4,true,2,none,false,false,0⟩,⟨false,true,true,true,false,true,false,false,true,true,false,0,some .internalNl,some 4,true,2,none,false,false,2⟩,⟨true,true,true,true,false,true,false,false,true,true,false,0,some .internalNl,some 4,true,2,none,false,false,1⟩],[⟨false,true,true,true,false,true,false,false,false,false,false,0,some (.own 3),some 4,true,2,none,false,false,0⟩,⟨false,false,false,false,false,true,false,false,true,true,false,0,some .internalNl,some 4,true,2,none,false,false,0⟩,⟨false,true,true,true,false,true,false,false,true,true,false,0,some .internalNl,some 4,true,2,none,false,false,0⟩],[⟨false,true,true,true,false,true,false,false,false,false,false,0,some (.own 3),some 4,true,2,none,false,false,0⟩,⟨false,true,false,false,true,true,false,false,true,true,false,0,some .internalNl,some 4,true,2,none,false,false,0⟩,⟨false,true,true,true,false,true,false,false,true,true,false,0,some .internalNl,some 4,true,2,none,false,false,0⟩],[⟨false,true,true,true,false,true,false,false,false,false,false,0,some (.own 3),some 4,true,2,none,false,false,0⟩],[⟨false,true,true,true,false,true,false,false,false,false,false,0,some (.own 3),some 4,true,2,none,false,false,0⟩],[⟨false,true,true,false,true,false,false,true,false,false,false,0,some (.own 3),some 4,true,2,none,false,false,0⟩],[⟨false,true,true,true,false,true,false,false,false,false,false,0,some (.own 3),some 4,true,2,none,false,false,0⟩],[⟨false,true,true,true,false,true,false,false,false,false,false,0,some (.own 3),some 4,true,2,none,false,false,0⟩,⟨false,true,true,true,false,true,false,false,true,true,false,0,some .internalNl,some 4,true,2,none,false,false,0⟩],[⟨true,true,true,true,false,true,false,false,false,false,false,0,some (.own 3),some 4,true,2,none,false,false,0⟩,⟨true,true,true,false,true,true,false,false,true,true,false,0,some .internalNl,some 4,true,2,none,false,false,0⟩,⟨true,true,true,true,false,true,false,false,true,true,false,0,some .internalNl,some 4,true,2,none,false,false,0⟩],[⟨true,true,true,true,false,true,false,false,false,false,false,0,some (.own 3),some 4,true,2,none,false,false,0⟩,⟨true,true,true,false,true,true,false,false,true,true,false,0,some .internalNl,some 4,true,2,none,false,false,0⟩,⟨true,true,true,true,false,true,false,false,true,true,false,0,some .internalNl,some 4,true,2,none,false,false,0⟩],[⟨false,true,true,true,false,true,false,false,false,false,false,0,some (.own 3),some 4,true,2,none,false,false,2⟩,⟨false,true,true,false,true,true,false,false,true,true,false,0,some .internalNl,some 4,true,2,none,false,false,2⟩,⟨false,true,true,true,false,true,false,false,true,true,false,0,some .internalNl,some 4,true,2,none,false,false,2⟩],[⟨true,true,true,true,false,true,false,false,false,false,false,0,some (.own 3),some 4,true,2,none,false,false,1⟩,⟨true,true,true,false,true,true,false,false,true,true,false,0,some .internalNl,some 4,true,2,none,false,false,1⟩,⟨true,true,true,true,false,true,false,false,true,true,false,0,some .internalNl,some 4,true,2,none,false,false,1⟩],[⟨false,true,true,true,false,true,false,false,false,false,false,0,some (.own 3),some 4,true,2,none,false,false,0⟩],[⟨false,true,false,true,false,true,false,false,false,false,false,0,some (.own 3),some 1,true,0,some 0,false,false,0⟩,⟨false,true,false,true,false,true,false,false,false,false,false,0,some (.own 3),some 1,true,0,some 9,false,false,0⟩,⟨false,true,false,true,false,true,false,false,false,false,false,0,some (.own 3),some 1,true,0,some 10,false,false,0⟩,⟨false,true,false,true,false,true,false,false,false,false,false,0,some (.own 3),some 1,true,0,some 11,false,false,0⟩,⟨false,true,false,true,false,true,false,false,false,false,false,0,some (.own 3),some 1,true,0,some 12,false,false,0⟩,⟨false,true,false,true,false,true,false,false,false,false,false,0,some (.own 3),some 1,true,0,some 13,false,false,0⟩,⟨false,true,false,true,false,true,false,false,false,false,false,0,some (.own 3),some 1,true,0,some 34,false,false,0⟩,⟨false,true,false,true,false,true,false,false,false,false,false,0,some (.own 3),some 1,true,0,some 39,false,false,0⟩,⟨false,true,false,true,false,true,false,false,false,false,false,0,some (.own 3),some 1,true,0,some 45,false,false,0⟩,⟨false,true,false,true,false,true,false,false,false,false,false,0,some (.own 3),some 1,true,0,some 92,false,false,0⟩,⟨false,true,false,true,false,true,false,false,false,false,false,0,some (.own 3),some 1,true,0,some 123,false,false,0⟩,⟨false,true,false,true,false,true,false,false,false,false,false,0,some (.own 3),some 1,true,0,some 125,false,false,0⟩],[⟨false,true,true,true,false,true,false,false,false,false,false,0,some (.own 3),some 4,true,2,none,false,false,0⟩,⟨false,true,false,true,false,true,false,false,true,true,false,0,some .internalNl,some 4,true,2,none,false,false,0⟩,⟨false,true,true,true,false,true,false,false,true,true,false,0,some .internalNl,some 4,true,2,none,false,false,0⟩],[⟨false,true,true,true,false,true,false,false,false,false,false,0,some (.own 3),some 4,true,2,none,false,false,0⟩,⟨false,false,false,false,false,true,false,false,true,true,false,0,some .internalNl,some 4,true,2,none,false,false,0⟩,⟨false,true,true,true,false,true,false,false,true,true,false,0,some .internalNl,some 4,true,2,none,false,false,0⟩],[⟨true,true,true,true,false,true,false,false,false,false,false,0,some (.own 3),some 4,true,2,none,false,false,0⟩,⟨true,false,false,false,false,true,false,false,true,true,false,0,some .internalNl,some 4,true,2,none,false,false,0⟩,⟨true,true,true,true,false,true,false,false,true,true,false,0,some .internalNl,some 4,true,2,none,false,false,0⟩],[⟨true,true,true,true,false,true,false,false,false,false,false,0,some (.own 3),some 4,true,2,none,false,false,0⟩,⟨true,false,false,false,false,true,false,false,true,true,false,0,some .internalNl,some 4,true,2,none,false,false,0⟩,⟨true,true,true,true,false,true,false,false,true,true,false,0,some .internalNl,some 4,true,2,none,false,false,0⟩],[⟨false,true,true,true,false,true,false,false,false,false,false,0,some (.own 3),some 4,true,2,none,false,false,2⟩,⟨false,false,false,false,false,true,false,false,true,true,false,0,some .internalNl,some 4,true,2,none,false,false,2⟩,⟨false,true,true,true,false,true,false,false,true,true,false,0,some .internalNl,some 4,true,2,none,false,false,2⟩],[⟨true,true,true,true,false,true,false,false,false,false,false,0,some (.own 3),some 4,true,2,none,false,false,1⟩,⟨true,false,false,false,false,true,false,false,true,true,false,0,some .internalNl,some 4,true,2,none,false,false,1⟩,⟨true,true,true,true,false,true,false,false,true,true,false,0,some .internalNl,some 4,true,2,none,false,false,1⟩],[⟨false,true,true,true,false,true,false,false,false,false,false,0,some (.own 3),some 4,true,2,none,false,false,0⟩,⟨false,true,false,true,false,true,false,false,true,true,false,0,some .internalNl,some 4,true,2,none,false,false,0⟩,⟨false,true,true,true,false,true,false,false,true,true,false,0,some .internalNl,some 4,true,2,none,false,false,0⟩],[⟨false,true,true,true,false,true,false,false,false,false,false,0,some (.own 3),some 4,true,2,none,false,false,0⟩,⟨false,true,false,true,false,true,false,false,true,true,false,0,some .internalNl,some 4,true,2,none,false,false,0⟩,⟨false,true,true,true,false,true,false,false,true,true,false,0,some .internalNl,some 4,true,2,none,false,false,0⟩],[⟨false,true,true,true,false,true,false,false,false,false,false,0,some (.own 3),some 4,true,2,none,false,false,0⟩,⟨false,true,false,true,false,true,false,false,true,true,false,0,some .internalNl,some 4,true,2,none,false,false,0⟩,⟨false,true,true,true,false,true,false,false,true,true,false,0,some .internalNl,some 4,true,2,none,false,false,0⟩],[⟨true,true,true,true,false,true,false,false,false,false,false,0,some (.own 3),some 4,true,2,none,false,false,0⟩,⟨true,true,true,false,true,true,false,false,true,true,false,0,some .internalNl,some 4,true,2,none,false,false,0⟩,⟨true,true,true,true,false,true,false,false,true,true,false,0,some .internalNl,some 4,true,2,none,false,false,0⟩],[],[⟨false,true,true,true,false,true,false,false,false,false,false,0,some (.own 3),some 1,true,1,none,false,false,0⟩],[⟨true,true,true,true,false,true,false,false,false,false,false,0,some (.own 3),some 4,true,2,none,false,false,0⟩,⟨true,false,false,false,false,true,false,false,true,true,false,0,some .internalNl,some 4,true,2,none,false,false,0⟩,⟨true,true,true,true,false,true,false,false,true,true,false,0,some .internalNl,some 4,true,2,none,false,false,0⟩],[],[⟨false,true,true,true,false,true,false,false,false,false,false,0,some (.own 3),some 4,true,2,none,false,false,0⟩,⟨false,true,true,true,false,true,false,false,true,true,false,0,some .internalNl,some 4,true,2,none,false,false,0⟩],[⟨false,true,true,true,false,true,false,false,false,false,false,0,some (.own 3),some 4,true,2,none,false,false,0⟩,⟨false,true,true,true,false,true,false,false,true,true,false,0,some .internalNl,some 4,true,2,none,false,false,0⟩],[⟨false,true,true,true,false,true,false,false,false,false,false,0,some (.own 3),some 4,true,2,none,false,false,0⟩,⟨false,true,true,true,false,true,false,false,true,true,false,0,some .internalNl,some 4,true,2,none,false,false,0⟩]]
theorem haskell_line_bClosed : closed haskell_line_rows haskell_line_bTab BA.init (BA.succ ⟨true, false, true, true⟩ haskell_line_M) (BA.eofOk ⟨true, false, true, true⟩ haskell_line_M) = true := by
  decide +kernel
def haskell_line_B : BCert ⟨true, false, true, true⟩ haskell_line_M := ⟨haskell_line_D, haskell_line_bTab, haskell_line_bClosed⟩

def idl_pvwave_line_bTab : List (List BA) := [[⟨false,false,false,false,false,false,false,true,false,false,false,0,none,none,false,0,none,false,false,0⟩],[⟨false,false,false,false,false,false,false,true,false,false,false,0,some (.own 0),some 0,false,1,none,false,false,0⟩],[⟨false,false,false,false,false,false,false,true,false,false,false,0,some .newline,none,false,1,none,false,false,2⟩],[⟨true,false,false,false,false,false,false,true,false,false,false,0,some .newline,some 2,false,1,none,false,false,1⟩],[⟨false,true,false,true,false,true,false,false,false,false,false,0,some (.own 3),some 1,true,1,none,false,false,0⟩],[⟨false,true,true,true,false,true,false,false,false,false,false,0,some (.own 3),some 1,true,1,none,false,false,0⟩]]
theorem idl_pvwave_line_bClosed : closed idl_pvwave_line_rows idl_pvwave_line_bTab BA.init (BA.succ ⟨true, true, false, false⟩ idl_pvwave_line_M) (BA.eofOk ⟨true, true, false, false⟩ idl_pvwave_line_M) = true := by
  decide +kernel
def idl_pvwave_line_B : BCert ⟨true, true, false, false⟩ idl_pvwave_line_M := ⟨idl_pvwave_line_D, idl_pvwave_line_bTab, idl_pvwave_line_bClosed⟩

def modula2_line_bTab : List (List BA) := [[⟨false,false,false,false,false,false,false,true,false,false,false,0,none,none,false,0,none,false,false,0⟩],[⟨false,false,false,false,false,false,false,true,false,false,false,0,some (.own 0),some 0,false,1,none,false,false,0⟩],[⟨false,false,false,false,false,false,false,true,false,false,false,0,some .newline,none,false,1,none,false,false,2⟩],[⟨true,false,false,false,false,false,false,true,false,false,false,0,some .newline,some 3,false,1,none,false,false,1⟩],[⟨false,true,false,true,false,true,false,false,false,false,false,0,some (.own 3),some 4,true,1,none,false,false,0⟩],[⟨false,true,false,true,false,true,false,false,false,false,false,0,some (.own 3),some 4,true,1,none,false,false,0⟩],[⟨false,true,false,false,true,false,false,true,false,false,false,0,some (.own 3),some 4,true,1,none,false,false,0⟩],[⟨false,true,true,true,false,true,false,false,false,false,false,0,some (.own 3),some 4,true,2,none,false,false,0⟩],[⟨false,true,true,true,false,true,false,false,false,false,false,0,some (.own 3),some 4,true,2,none,false,false,0⟩,⟨false,true,true,true,false,true,false,false,false,false,false,0,some (.own 3),some 2,true,2,none,false,false,0⟩],[⟨false,true,true,true,false,true,false,false,false,false,false,0,some (.own 3),some 2,true,1,none,false,false,0⟩],[⟨false,true,true,true,false,true,false,false,false,false,false,0,some (.own 3),some 4,true,2,none,false,false,0⟩],[⟨false,true,true,true,false,true,false,false,false,false,false,0,some (.own 3),some 4,true,2,none,false,false,0⟩,⟨false,true,false,true,false,true,false,false,true,true,false,0,some .internalNl,some 4,true,2,none,false,false,0⟩,⟨false,true,true,true,false,true,false,false,true,true,false,0,some .internalNl,some 4,true,2,none,false,false,0⟩],[⟨false,true,true,true,false,true,false,false,false,false,false,0,some (.own 3),some 4,true,2,none,false,false,0⟩,⟨false,false,false,false,false,true,false,false,true,true,false,0,some .internalNl,some 4,true,2,none,false,false,0⟩,⟨false,true,true,true,false,true,false,false,true,true,false,0,some .internalNl,some 4,true,2,none,false,false,0⟩],[⟨true,true,true,true,false,true,false,false,false,false,false,0,some (.own 3),some 4,true,2,none,false,false,0⟩,⟨true,false,false,false,false,true,false,false,true,true,false,0,some .internalNl,some 4,true,2,none,false,false,0⟩,⟨true,true,true,true,false,true,false,false,true,true,false,0,some .internalNl,some 4,true,2,none,false,false,0⟩],[⟨true,true,true,true,false,true,false,false,false,false,false,0,some (.own 3),some 4,true,2,none,false,false,0⟩,⟨true,false,false,false,false,true,false,false,true,true,false,0,some .internalNl,some 4,true,2,none,false,false,0⟩,⟨true,true,true,true,false,true,false,false,true,true,false,0,some .internalNl,some 4,true,2,none,false,false,0⟩],[⟨false,true,true,true,false,true,false,false,false,false,false,0,some (.own 3),some 4,true,2,none,false,false,2⟩,⟨false,false,false,false,false,true,false,false,true,true,false,0,some .internalNl,some 4,true,2,none,false,false,2⟩,⟨false,true,true,true,false,true,false,false,true,true,false,0,some .internalNl,some 4,true,2,none,false,false,2⟩],[⟨true,true,true,true,false,true,false,false,false,false,false,0,some (.own 3),some 4,true,2,none,false,false,1⟩,⟨true,false,false,false,false,true,false,false,true,true,false,0,some .internalNl,some 4,true,2,none,false,false,1⟩,⟨true,true,true,true,false,true,false,false,true,true,false,0,some .internalNl,some 4,true,2,none,false,false,1⟩],[⟨false,true,true,true,false,true,false,false,false,false,false,0,some (.own 3),some 4,true,2,none,false,false,0⟩,⟨false,true,false,true,false,true,false,false,true,true,false,0,some .internalNl,some 4,true,2,none,false,false,0⟩,⟨false,true,true,true,false,true,false,false,true,true,false,0,some .internalNl,some 4,true,2,none,false,false,0⟩],[⟨false,true,true,true,false,true,false,false,false,false,false,0,some (.own 3),some 4,true,2,none,false,false,0⟩,⟨false,true,false,true,false,true,false,false,true,true,false,0,some .internalNl,some 4,true,2,none,false,false,0⟩,⟨false,true,true,true,false,true,false,false,true,true,false,0,some .internalNl,some 4,true,2,none,false,false,0⟩],[⟨false,true,true,true,false,true,false,false,false,false,false,0,some (.own 3),some 4,true,2,none,false,false,0⟩,⟨false,true,false,true,false,true,false,false,true,true,false,0,some .internalNl,some 4,true,2,none,false,false,0⟩,⟨false,true,true,true,false,true,false,false,true,true,false,0,some .internalNl,some 4,true,2,none,false,false,0⟩],[⟨true,true,true,true,false,true,false,false,false,false,false,0,some (.own 3),some 4,true,2,none,false,false,0⟩,⟨true,false,false,false,false,true,false,false,true,true,false,0,some .internalNl,some 4,true,2,none,false,false,0⟩,⟨true,true,true,true,false,true,false,false,true,true,false,0,some .internalNl,some 4,true,2,none,false,false,0⟩],[],[⟨false,true,true,true,false,true,false,false,false,false,false,0,some (.own 3),some 4,true,2,none,false,false,0⟩,⟨false,true,true,true,false,true,false,false,true,true,false,0,some .internalNl,some 4,true,2,none,false,false,0⟩],[⟨false,true,true,true,false,true,false,false,false,false,false,0,some (.own 3),some 4,true,2,none,false,false,0⟩,⟨false,true,true,true,false,true,false,false,true,true,false,0,some .internalNl,some 4,true,2,none,false,false,0⟩],[⟨false,true,true,true,false,true,false,false,false,false,false,0,some (.own 3),some 4,true,2,none,false,false,0⟩,⟨false,true,true,true,false,true,false,false,true,true,false,0,some .internalNl,some 4,true,2,none,false,false,0⟩]]
theorem modula2_line_bClosed : closed modula2_line_rows modula2_line_bTab BA.init (BA.succ ⟨true, true, true, false⟩ modula2_line_M) (BA.eofOk ⟨true, true, true, false⟩ modula2_line_M) = true := by
  decide +kernel
def modula2_line_B : BCert ⟨true, true, true, false⟩ modula2_line_M := ⟨modula2_line_D, modula2_line_bTab, modula2_line_bClosed⟩

def modula3_line_bTab : List (List BA) := [[⟨false,false,false,false,false,false,false,true,false,false,false,0,none,none,false,0,none,false,false,0⟩],[⟨false,false,false,false,false,false,false,true,false,false,false,0,some (.own 0),some 0,false,1,none,false,false,0⟩],[⟨false,false,false,false,false,false,false,true,false,false,false,0,some .newline,none,false,1,none,false,false,2⟩],[⟨true,false,false,false,false,false,false,true,false,false,false,0,some .newline,some 3,false,1,none,false,false,1⟩],[⟨false,true,false,true,false,true,false,false,false,false,false,0,some (.own 3),some 4,true,1,none,false,false,0⟩],[⟨false,true,false,true,false,true,false,false,false,false,false,0,some (.own 3),some 4,true,1,none,false,false,0⟩],[⟨false,true,false,false,true,false,false,true,false,false,false,0,some (.own 3),some 4,true,1,none,false,false,0⟩],[⟨false,true,true,true,false,true,false,false,false,false,false,0,some (.own 3),some 4,true,2,none,false,false,0⟩,⟨true,true,true,true,false,true,false,false,false,false,false,0,some (.own 3),some 4,true,2,none,false,false,0⟩,⟨false,true,true,true,false,true,false,false,false,false,false,0,some (.own 3),some 4,true,2,none,false,false,2⟩,⟨true,true,true,true,false,true,false,false,false,false,false,0,some (.own 3),some 4,true,2,none,false,false,1⟩,⟨false,true,false,true,false,true,false,false,true,true,false,0,some .internalNl,some 4,true,2,none,false,false,0⟩,⟨true,false,false,true,false,true,false,false,true,true,false,0,some .internalNl,some 4,true,2,none,false,true,0⟩,⟨false,false,false,true,false,true,false,false,true,true,false,0,some .internalNl,some 4,true,2,none,false,true,2⟩,⟨true,false,false,true,false,true,false,false,true,true,false,0,some .internalNl,some 4,true,2,none,false,true,1⟩,⟨false,true,true,true,false,true,false,false,true,true,false,0,some .internalNl,some 4,true,2,none,false,false,0⟩,⟨true,true,true,true,false,true,false,false,true,true,false,0,some .internalNl,some 4,true,2,none,false,false,0⟩,⟨false,true,true,true,false,true,false,false,true,true,false,0,some .internalNl,some 4,true,2,none,false,false,2⟩,⟨true,true,true,true,false,true,false,false,true,true,false,0,some .internalNl,some 4,true,2,none,false,false,1⟩],[⟨false,true,true,true,false,true,false,false,false,false,false,0,some (.own 3),some 4,true,2,none,false,false,0⟩,⟨false,false,false,false,false,true,false,false,true,true,false,0,some .internalNl,some 4,true,2,none,false,false,0⟩,⟨false,true,true,true,false,true,false,false,true,true,false,0,some .internalNl,some 4,true,2,none,false,false,0⟩],[⟨false,true,true,true,false,true,false,false,false,false,false,0,some (.own 3),some 4,true,2,none,false,false,0⟩,⟨false,true,false,false,true,true,false,false,true,true,false,0,some .internalNl,some 4,true,2,none,false,false,0⟩,⟨false,true,true,true,false,true,false,false,true,true,false,0,some .internalNl,some 4,true,2,none,false,false,0⟩],[⟨false,true,true,true,false,true,false,false,false,false,false,0,some (.own 3),some 4,true,2,none,false,false,0⟩,⟨true,true,true,true,false,true,false,false,false,false,false,0,some (.own 3),some 4,true,2,none,false,false,0⟩,⟨false,true,true,true,false,true,false,false,false,false,false,0,some (.own 3),some 4,true,2,none,false,false,2⟩,⟨true,true,true,true,false,true,false,false,false,false,false,0,some (.own 3),some 4,true,2,none,false,false,1⟩,⟨false,true,false,true,false,true,false,false,true,true,false,0,some .internalNl,some 4,true,2,none,false,false,0⟩,⟨true,false,false,true,false,true,false,false,true,true,false,0,some .internalNl,some 4,true,2,none,false,true,0⟩,⟨false,false,false,true,false,true,false,false,true,true,false,0,some .internalNl,some 4,true,2,none,false,true,2⟩,⟨true,false,false,true,false,true,false,false,true,true,false,0,some .internalNl,some 4,true,2,none,false,true,1⟩,⟨false,true,true,true,false,true,false,false,true,true,false,0,some .internalNl,some 4,true,2,none,false,false,0⟩,⟨true,true,true,true,false,true,false,false,true,true,false,0,some .internalNl,some 4,true,2,none,false,false,0⟩,⟨false,true,true,true,false,true,false,false,true,true,false,0,some .internalNl,some 4,true,2,none,false,false,2⟩,⟨true,true,true,true,false,true,false,false,true,true,false,0,some .internalNl,some 4,true,2,none,false,false,1⟩],[⟨false,true,true,true,false,true,false,false,false,false,false,0,some (.own 3),some 4,true,2,none,false,false,0⟩,⟨false,false,false,false,false,true,false,false,true,true,false,0,some .internalNl,some 4,true,2,none,false,false,0⟩,⟨false,true,true,true,false,true,false,false,true,true,false,0,some .internalNl,some 4,true,2,none,false,false,0⟩],[⟨false,true,true,true,false,true,false,false,false,false,false,0,some (.own 3),some 4,true,2,none,false,false,0⟩,⟨false,true,false,false,true,true,false,false,true,true,false,0,some .internalNl,some 4,true,2,none,false,false,0⟩,⟨false,true,true,true,false,true,false,false,true,true,false,0,some .internalNl,some 4,true,2,none,false,false,0⟩],[⟨false,true,true,true,false,true,false,false,false,false,false,0,some (.own 3),some 4,true,2,none,false,false,0⟩],[⟨false,true,true,true,false,true,false,false,false,false,false,0,some (.own 3),some 4,true,2,none,false,false,0⟩,⟨false,true,true,true,false,true,false,false,true,true,false,0,some .internalNl,some 4,true,2,none,false,false,0⟩],[⟨true,true,true,true,false,true,false,false,false,false,false,0,some (.own 3),some 4,true,2,none,false,false,0⟩,⟨true,true,true,false,true,true,false,false,true,true,false,0,some .internalNl,some 4,true,2,none,false,false,0⟩,⟨true,true,true,true,false,true,false,false,true,true,false,0,some .internalNl,some 4,true,2,none,false,false,0⟩],[⟨true,true,true,true,false,true,false,false,false,false,false,0,some (.own 3),some 4,true,2,none,false,false,0⟩,⟨true,true,true,false,true,true,false,false,true,true,false,0,some .internalNl,some 4,true,2,none,false,false,0⟩,⟨true,true,true,true,false,true,false,false,true,true,false,0,some .internalNl,some 4,true,2,none,false,false,0⟩],[⟨false,true,true,true,false,true,false,false,false,false,false,0,some (.own 3),some 4,true,2,none,false,false,2⟩,⟨false,true,true,false,true,true,false,false,true,true,false,0,some .internalNl,some 4,true,2,none,false,false,2⟩,⟨false,true,true,true,false,true,false,false,true,true,false,0,some .internalNl,some 4,true,2,none,false,false,2⟩],[⟨true,true,true,true,false,true,false,false,false,false,false,0,some (.own 3),some 4,true,2,none,false,false,1⟩,⟨true,true,true,false,true,true,false,false,true,true,false,0,some .internalNl,some 4,true,2,none,false,false,1⟩,⟨true,true,true,true,false,true,false,false,true,true,false,0,some .internalNl,some 4,true,2,none,false,false,1⟩],[⟨false,true,true,true,false,true,false,false,false,false,false,0,some (.own 3),some 4,true,2,none,false,false,0⟩,⟨false,true,true,true,false,true,false,false,true,true,false,0,some .internalNl,some 4,true,2,none,false,false,0⟩],[⟨true,true,true,true,false,true,false,false,false,false,false,0,some (.own 3),some 4,true,2,none,false,false,0⟩,⟨true,true,true,false,true,true,false,false,true,true,false,0,some .internalNl,some 4,true,2,none,false,false,0⟩,⟨true,true,true,true,false,true,false,false,true,true,false,0,some .internalNl,some 4,true,2,none,false,false,0⟩],[⟨true,true,true,true,false,true,false,false,false,false,false,0,some (.own 3),some 4,true,2,none,false,false,0⟩,⟨true,true,true,false,true,true,false,false,true,true,false,0,some .internalNl,some 4,true,2,none,false,false,0⟩,⟨true,true,true,true,false,true,false,false,true,true,false,0,some .internalNl,some 4,true,2,none,false,false,0⟩],[⟨false,true,true,true,false,true,false,false,false,false,false,0,some (.own 3),some 4,true,2,none,false,false,2⟩,⟨false,true,true,false,true,true,false,false,true,true,false,0,some .internalNl,some 4,true,2,none,false,false,2⟩,⟨false,true,true,true,false,true,false,false,true,true,false,0,some .internalNl,some 4,true,2,none,false,false,2⟩],[⟨true,true,true,true,false,true,false,false,false,false,false,0,some (.own 3),some 4,true,2,none,false,false,1⟩,⟨true,true,true,false,true,true,false,false,true,true,false,0,some .internalNl,some 4,true,2,none,false,false,1⟩,⟨true,true,true,true,false,true,false,false,true,true,false,0,some .internalNl,some 4,true,2,none,false,false,1⟩],[⟨false,true,true,true,false,true,false,false,false,false,false,0,some (.own 3),some 4,true,2,none,false,false,0⟩,⟨false,true,false,true,false,true,false,false,true,true,false,0,some .internalNl,some 4,true,2,none,false,false,0⟩,⟨false,true,true,true,false,true,false,false,true,true,false,0,some .internalNl,some 4,true,2,none,false,false,0⟩],[⟨false,true,true,true,false,true,false,false,false,false,false,0,some (.own 3),some 4,true,2,none,false,false,0⟩,⟨false,false,false,false,false,true,false,false,true,true,false,0,some .internalNl,some 4,true,2,none,false,false,0⟩,⟨false,true,true,true,false,true,false,false,true,true,false,0,some .internalNl,some 4,true,2,none,false,false,0⟩],[⟨true,true,true,true,false,true,false,false,false,false,false,0,some (.own 3),some 4,true,2,none,false,false,0⟩,⟨true,false,false,false,false,true,false,false,true,true,false,0,some .internalNl,some 4,true,2,none,false,false,0⟩,⟨true,true,true,true,false,true,false,false,true,true,false,0,some .internalNl,some 4,true,2,none,false,false,0⟩],[⟨true,true,true,true,false,true,false,false,false,false,false,0,some (.own 3),some 4,true,2,none,false,false,0⟩,⟨true,false,false,false,false,true,false,false,true,true,false,0,some .internalNl,some 4,true,2,none,false,false,0⟩,⟨true,true,true,true,false,true,false,false,true,true,false,0,some .internalNl,some 4,true,2,none,false,false,0⟩],[⟨false,true,true,true,false,true,false,false,false,false,false,0,some (.own 3),some 4,true,2,none,false,false,2⟩,⟨false,false,false,false,false,true,false,false,true,true,false,0,some .internalNl,some 4,true,2,none,false,false,2⟩,⟨false,true,true,true,false,true,false,false,true,true,false,0,some .internalNl,some 4,true,2,none,false,false,2⟩],[⟨true,true,true,true,false,true,false,false,false,false,false,0,some (.own 3),some 4,true,2,none,false,false,1⟩,⟨true,false,false,false,false,true,false,false,true,true,false,0,some .internalNl,some 4,true,2,none,false,false,1⟩,⟨true,true,true,true,false,true,false,false,true,true,false,0,some .internalNl,some 4,true,2,none,false,false,1⟩],[⟨false,true,true,true,false,true,false,false,false,false,false,0,some (.own 3),some 4,true,2,none,false,false,0⟩,⟨false,true,false,true,false,true,false,false,true,true,false,0,some .internalNl,some 4,true,2,none,false,false,0⟩,⟨false,true,true,true,false,true,false,false,true,true,false,0,some .internalNl,some 4,true,2,none,false,false,0⟩],[⟨false,true,true,true,false,true,false,false,false,false,false,0,some (.own 3),some 4,true,2,none,false,false,0⟩,⟨false,true,false,true,false,true,false,false,true,true,false,0,some .internalNl,some 4,true,2,none,false,false,0⟩,⟨false,true,true,true,false,true,false,false,true,true,false,0,some .internalNl,some 4,true,2,none,false,false,0⟩],[⟨false,true,true,true,false,true,false,false,false,false,false,0,some (.own 3),some 4,true,2,none,false,false,0⟩,⟨false,true,false,true,false,true,false,false,true,true,false,0,some .internalNl,some 4,true,2,none,false,false,0⟩,⟨false,true,true,true,false,true,false,false,true,true,false,0,some .internalNl,some 4,true,2,none,false,false,0⟩],[⟨true,true,true,true,false,true,false,false,false,false,false,0,some (.own 3),some 4,true,2,none,false,false,0⟩,⟨true,true,true,false,true,true,false,false,true,true,false,0,some .internalNl,some 4,true,2,none,false,false,0⟩,⟨true,true,true,true,false,true,false,false,true,true,false,0,some .internalNl,some 4,true,2,none,false,false,0⟩],[],[⟨true,true,true,true,false,true,false,false,false,false,false,0,some (.own 3),some 4,true,2,none,false,false,0⟩,⟨true,true,true,false,true,true,false,false,true,true,false,0,some .internalNl,some 4,true,2,none,false,false,0⟩,⟨true,true,true,true,false,true,false,false,true,true,false,0,some .internalNl,some 4,true,2,none,false,false,0⟩],[],[⟨true,true,true,true,false,true,false,false,false,false,false,0,some (.own 3),some 4,true,2,none,false,false,0⟩,⟨true,false,false,false,false,true,false,false,true,true,false,0,some .internalNl,some 4,true,2,none,false,false,0⟩,⟨true,true,true,true,false,true,false,false,true,true,false,0,some .internalNl,some 4,true,2,none,false,false,0⟩],[],[⟨false,true,true,true,false,true,false,false,false,false,false,0,some (.own 3),some 4,true,2,none,false,false,0⟩,⟨false,true,true,true,false,true,false,false,true,true,false,0,some .internalNl,some 4,true,2,none,false,false,0⟩],[⟨false,true,true,true,false,true,false,false,false,false,false,0,some (.own 3),some 4,true,2,none,false,false,0⟩,⟨false,true,true,true,false,true,false,false,true,true,false,0,some .internalNl,some 4,true,2,none,false,false,0⟩],[⟨false,true,true,true,false,true,false,false,false,false,false,0,some (.own 3),some 4,true,2,none,false,false,0⟩,⟨false,true,true,true,false,true,false,false,true,true,false,0,some .internalNl,some 4,true,2,none,false,false,0⟩]]
theorem modula3_line_bClosed : closed modula3_line_rows modula3_line_bTab BA.init (BA.succ ⟨true, false, true, true⟩ modula3_line_M) (BA.eofOk ⟨true, false, true, true⟩ modula3_line_M) = true := by
  decide +kernel
def modula3_line_B : BCert ⟨true, false, true, true⟩ modula3_line_M := ⟨modula3_line_D, modula3_line_bTab, modula3_line_bClosed⟩

def objj_line_bTab : List (List BA) := [[⟨false,false,false,false,false,false,false,true,false,false,false,0,none,none,false,0,none,false,false,0⟩],[⟨false,false,false,false,false,false,false,true,false,false,false,0,some (.own 0),some 0,false,1,none,false,false,0⟩],[⟨false,false,false,false,false,false,false,true,false,false,false,0,some .newline,none,false,1,none,false,false,2⟩],[⟨true,false,false,false,false,false,false,true,false,false,false,0,some .newline,some 3,false,1,none,false,false,1⟩],[⟨false,true,false,true,false,true,false,false,false,false,false,0,some (.own 3),some 4,true,1,none,false,false,0⟩],[⟨false,true,false,true,false,true,false,false,false,false,false,0,some (.own 3),some 4,true,1,none,false,false,0⟩],[⟨false,true,false,false,true,false,false,true,false,false,false,0,some (.own 3),some 4,true,1,none,false,false,0⟩],[⟨false,true,true,true,false,true,false,false,false,false,false,0,some (.own 3),some 4,true,2,none,false,false,0⟩],[⟨false,true,true,true,false,true,false,false,false,false,false,0,some (.own 3),some 4,true,2,none,false,false,0⟩],[⟨false,true,true,true,false,true,false,false,false,false,false,0,some (.own 3),some 4,true,2,none,false,false,0⟩],[⟨false,true,true,true,false,true,false,false,false,false,false,0,some (.own 3),some 4,true,2,none,false,false,0⟩],[⟨false,true,true,true,false,true,false,false,false,false,false,0,some (.own 3),some 4,true,2,none,false,false,0⟩],[⟨false,true,true,true,false,true,false,false,false,false,false,0,some (.own 3),some 1,true,1,none,false,false,0⟩],[⟨false,true,true,true,false,true,false,false,false,false,false,0,some (.own 3),some 4,true,2,none,false,false,0⟩],[⟨false,true,true,true,false,true,false,false,false,false,false,0,some (.own 3),some 4,true,2,none,false,false,0⟩],[⟨false,true,true,true,false,true,false,false,false,false,false,0,some (.own 3),some 4,true,2,none,false,false,0⟩,⟨false,true,false,true,false,true,false,false,true,true,false,0,some .internalNl,some 4,true,2,none,false,false,0⟩,⟨false,true,true,true,false,true,false,false,true,true,false,0,some .internalNl,some 4,true,2,none,false,false,0⟩],[⟨false,true,true,true,false,true,false,false,false,false,false,0,some (.own 3),some 4,true,2,none,false,false,0⟩,⟨false,false,false,false,false,true,false,false,true,true,false,0,some .internalNl,some 4,true,2,none,false,false,0⟩,⟨false,true,true,true,false,true,false,false,true,true,false,0,some .internalNl,some 4,true,2,none,false,false,0⟩],[⟨true,true,true,true,false,true,false,false,false,false,false,0,some (.own 3),some 4,true,2,none,false,false,0⟩,⟨true,false,false,false,false,true,false,false,true,true,false,0,some .internalNl,some 4,true,2,none,false,false,0⟩,⟨true,true,true,true,false,true,false,false,true,true,false,0,some .internalNl,some 4,true,2,none,false,false,0⟩],[⟨true,true,true,true,false,true,false,false,false,false,false,0,some (.own 3),some 4,true,2,none,false,false,0⟩,⟨true,false,false,false,false,true,false,false,true,true,false,0,some .internalNl,some 4,true,2,none,false,false,0⟩,⟨true,true,true,true,false,true,false,false,true,true,false,0,some .internalNl,some 4,true,2,none,false,false,0⟩],[⟨false,true,true,true,false,true,false,false,false,false,false,0,some (.own 3),some 4,true,2,none,false,false,2⟩,⟨false,false,false,false,false,true,false,false,true,true,false,0,some .internalNl,some 4,true,2,none,false,false,2⟩,⟨false,true,true,true,false,true,false,false,true,true,false,0,some .internalNl,some 4,true,2,none,false,false,2⟩],[⟨true,true,true,true,false,true,false,false,false,false,false,0,some (.own 3),some 4,true,2,none,false,false,1⟩,⟨true,false,false,false,false,true,false,false,true,true,false,0,some .internalNl,some 4,true,2,none,false,false,1⟩,⟨true,true,true,true,false,true,false,false,true,true,false,0,some .internalNl,some 4,true,2,none,false,false,1⟩],[⟨false,true,true,true,false,true,false,false,false,false,false,0,some (.own 3),some 4,true,2,none,false,false,0⟩,⟨false,true,false,true,false,true,false,false,true,true,false,0,some .internalNl,some 4,true,2,none,false,false,0⟩,⟨false,true,true,true,false,true,false,false,true,true,false,0,some .internalNl,some 4,true,2,none,false,false,0⟩],[⟨false,true,true,true,false,true,false,false,false,false,false,0,some (.own 3),some 1,true,1,none,false,false,0⟩,⟨false,true,false,true,false,true,false,false,true,false,false,0,some .internalNl,some 1,true,1,none,false,false,0⟩,⟨false,true,true,true,false,true,false,false,true,false,false,0,some .internalNl,some 1,true,1,none,false,false,0⟩],[⟨false,true,true,true,false,true,false,false,false,false,false,0,some (.own 3),some 1,true,1,none,false,false,0⟩,⟨false,false,false,false,false,true,false,false,true,false,false,0,some .internalNl,some 1,false,1,none,false,false,0⟩,⟨false,true,true,true,false,true,false,false,true,false,false,0,some .internalNl,some 1,true,1,none,false,false,0⟩],[⟨false,true,true,true,false,true,false,false,false,false,false,0,some (.own 3),some 1,true,1,none,false,false,0⟩,⟨false,true,false,true,false,true,false,false,true,false,false,0,some .internalNl,some 1,true,1,none,false,false,0⟩,⟨false,true,true,true,false,true,false,false,true,false,false,0,some .internalNl,some 1,true,1,none,false,false,0⟩],[⟨true,true,true,true,false,true,false,false,false,false,false,0,some (.own 3),some 4,true,2,none,false,false,0⟩,⟨true,false,false,false,false,true,false,false,true,true,false,0,some .internalNl,some 4,true,2,none,false,false,0⟩,⟨true,true,true,true,false,true,false,false,true,true,false,0,some .internalNl,some 4,true,2,none,false,false,0⟩],[],[⟨true,true,true,true,false,true,false,false,false,false,false,0,some (.own 3),some 1,true,1,none,false,false,0⟩,⟨true,true,true,true,false,true,false,false,true,false,false,0,some .internalNl,some 1,true,1,none,false,false,0⟩],[⟨true,true,true,true,false,true,false,false,false,false,false,0,some (.own 3),some 1,true,1,none,false,false,0⟩,⟨true,true,true,true,false,true,false,false,true,false,false,0,some .internalNl,some 1,true,1,none,false,false,0⟩],[⟨false,true,true,true,false,true,false,false,false,false,false,0,some (.own 3),some 1,true,2,none,false,false,2⟩,⟨false,true,true,true,false,true,false,false,true,false,false,0,some .internalNl,some 1,true,2,none,false,false,2⟩],[⟨true,true,true,true,false,true,false,false,false,false,false,0,some (.own 3),some 1,true,1,none,false,false,1⟩,⟨true,true,true,true,false,true,false,false,true,false,false,0,some .internalNl,some 1,true,1,none,false,false,1⟩],[⟨true,true,true,true,false,true,false,false,false,false,false,0,some (.own 3),some 1,true,1,none,false,false,0⟩,⟨true,true,true,true,false,true,false,false,true,false,false,0,some .internalNl,some 1,true,1,none,false,false,0⟩]]
theorem objj_line_bClosed : closed objj_line_rows objj_line_bTab BA.init (BA.succ ⟨true, true, true, false⟩ objj_line_M) (BA.eofOk ⟨true, true, true, false⟩ objj_line_M) = true := by
  decide +kernel
def objj_line_B : BCert ⟨true, true, true, false⟩ objj_line_M := ⟨objj_line_D, objj_line_bTab, objj_line_bClosed⟩

def prolog_line_bTab : List (List BA) := [[⟨false,false,false,false,false,false,false,true,false,false,false,0,none,none,false,0,none,false,false,0⟩],[⟨false,false,false,false,false,false,false,true,false,false,false,0,some (.own 0),some 0,false,1,none,false,false,0⟩],[⟨false,false,false,false,false,false,false,true,false,false,false,0,some .newline,none,false,1,none,false,false,2⟩],[⟨true,false,false,false,false,false,false,true,false,false,false,0,some .newline,some 3,false,1,none,false,false,1⟩],[⟨false,true,false,true,false,true,false,false,false,false,false,0,some (.own 3),some 4,true,1,none,false,false,0⟩],[⟨false,true,false,true,false,true,false,false,false,false,false,0,some (.own 3),some 1,true,1,none,false,false,0⟩],[⟨false,true,false,true,false,true,false,false,false,false,false,0,some (.own 3),some 4,true,1,none,false,false,0⟩],[⟨false,true,false,false,true,false,false,true,false,false,false,0,some (.own 3),some 4,true,1,none,false,false,0⟩],[⟨false,true,true,true,false,true,false,false,false,false,false,0,some (.own 3),some 4,true,2,none,false,false,0⟩],[⟨false,true,true,true,false,true,false,false,false,false,false,0,some (.own 3),some 4,true,2,none,false,false,0⟩],[⟨false,true,true,true,false,true,false,false,false,false,false,0,some (.own 3),some 1,true,1,none,false,false,0⟩],[⟨false,true,true,true,false,true,false,false,false,false,false,0,some (.own 3),some 4,true,2,none,false,false,0⟩],[⟨false,true,true,true,false,true,false,false,false,false,false,0,some (.own 3),some 4,true,2,none,false,false,0⟩],[⟨false,true,true,true,false,true,false,false,false,false,false,0,some (.own 3),some 4,true,2,none,false,false,0⟩],[⟨false,true,true,true,false,true,false,false,false,false,false,0,some (.own 3),some 4,true,2,none,false,false,0⟩],[⟨false,true,true,true,false,true,false,false,false,false,false,0,some (.own 3),some 4,true,2,none,false,false,0⟩],[⟨false,true,true,true,false,true,false,false,false,false,false,0,some (.own 3),some 4,true,2,none,false,false,0⟩,⟨false,true,false,true,false,true,false,false,true,true,false,0,some .internalNl,some 4,true,2,none,false,false,0⟩,⟨false,true,true,true,false,true,false,false,true,true,false,0,some .internalNl,some 4,true,2,none,false,false,0⟩],[⟨false,true,true,true,false,true,false,false,false,false,false,0,some (.own 3),some 4,true,2,none,false,false,0⟩,⟨false,false,false,false,false,true,false,false,true,true,false,0,some .internalNl,some 4,true,2,none,false,false,0⟩,⟨false,true,true,true,false,true,false,false,true,true,false,0,some .internalNl,some 4,true,2,none,false,false,0⟩],[⟨true,true,true,true,false,true,false,false,false,false,false,0,some (.own 3),some 4,true,2,none,false,false,0⟩,⟨true,false,false,false,false,true,false,false,true,true,false,0,some .internalNl,some 4,true,2,none,false,false,0⟩,⟨true,true,true,true,false,true,false,false,true,true,false,0,some .internalNl,some 4,true,2,none,false,false,0⟩],[⟨true,true,true,true,false,true,false,false,false,false,false,0,some (.own 3),some 4,true,2,none,false,false,0⟩,⟨true,false,false,false,false,true,false,false,true,true,false,0,some .internalNl,some 4,true,2,none,false,false,0⟩,⟨true,true,true,true,false,true,false,false,true,true,false,0,some .internalNl,some 4,true,2,none,false,false,0⟩],[⟨false,true,true,true,false,true,false,false,false,false,false,0,some (.own 3),some 4,true,2,none,false,false,2⟩,⟨false,false,false,false,false,true,false,false,true,true,false,0,some .internalNl,some 4,true,2,none,false,false,2⟩,⟨false,true,true,true,false,true,false,false,true,true,false,0,some .internalNl,some 4,true,2,none,false,false,2⟩],[⟨true,true,true,true,false,true,false,false,false,false,false,0,some (.own 3),some 4,true,2,none,false,false,1⟩,⟨true,false,false,false,false,true,false,false,true,true,false,0,some .internalNl,some 4,true,2,none,false,false,1⟩,⟨true,true,true,true,false,true,false,false,true,true,false,0,some .internalNl,some 4,true,2,none,false,false,1⟩],[⟨false,true,true,true,false,true,false,false,false,false,false,0,some (.own 3),some 4,true,2,none,false,false,0⟩,⟨false,true,false,true,false,true,false,false,true,true,false,0,some .internalNl,some 4,true,2,none,false,false,0⟩,⟨false,true,true,true,false,true,false,false,true,true,false,0,some .internalNl,some 4,true,2,none,false,false,0⟩],[⟨true,true,true,true,false,true,false,false,false,false,false,0,some (.own 3),some 4,true,2,none,false,false,0⟩,⟨true,false,false,false,false,true,false,false,true,true,false,0,some .internalNl,some 4,true,2,none,false,false,0⟩,⟨true,true,true,true,false,true,false,false,true,true,false,0,some .internalNl,some 4,true,2,none,false,false,0⟩],[]]
theorem prolog_line_bClosed : closed prolog_line_rows prolog_line_bTab BA.init (BA.succ ⟨true, true, true, false⟩ prolog_line_M) (BA.eofOk ⟨true, true, true, false⟩ prolog_line_M) = true := by
  decide +kernel
def prolog_line_B : BCert ⟨true, true, true, false⟩ prolog_line_M := ⟨prolog_line_D, prolog_line_bTab, prolog_line_bClosed⟩

def vb_line_bTab : List (List BA) := [[⟨false,false,false,false,false,false,false,true,false,false,false,0,none,none,false,0,none,false,false,0⟩],[⟨false,false,false,false,false,false,false,true,false,false,false,0,some (.own 0),some 0,false,1,none,false,false,0⟩],[⟨false,false,false,false,false,false,false,true,false,false,false,0,some .newline,none,false,1,none,false,false,2⟩],[⟨true,false,false,false,false,false,false,true,false,false,false,0,some .newline,some 3,false,1,none,false,false,1⟩],[⟨false,true,false,true,false,true,false,false,false,false,false,0,some (.own 3),some 4,true,1,none,false,false,0⟩],[⟨false,true,false,true,false,true,false,false,false,false,false,0,some (.own 3),some 1,true,1,none,false,false,0⟩],[⟨false,true,false,false,true,false,false,true,false,false,false,0,some (.own 3),some 4,true,1,none,false,false,0⟩],[⟨false,true,true,true,false,true,false,false,false,false,false,0,some (.own 3),some 4,true,2,none,false,false,0⟩],[⟨false,true,true,true,false,true,false,false,false,false,false,0,some (.own 3),some 4,true,2,none,false,false,0⟩],[⟨false,true,true,true,false,true,false,false,false,false,false,0,some (.own 3),some 1,true,1,none,false,false,0⟩],[⟨false,true,true,false,true,false,false,true,false,false,false,0,some (.own 3),some 4,true,2,none,false,false,0⟩],[⟨false,true,true,true,false,true,false,false,false,false,false,0,some (.own 3),some 4,true,2,none,false,false,0⟩],[⟨false,true,true,true,false,true,false,false,false,false,false,0,some (.own 3),some 1,true,1,none,false,false,0⟩]]
theorem vb_line_bClosed : closed vb_line_rows vb_line_bTab BA.init (BA.succ ⟨true, true, false, false⟩ vb_line_M) (BA.eofOk ⟨true, true, false, false⟩ vb_line_M) = true := by
  decide +kernel
def vb_line_B : BCert ⟨true, true, false, false⟩ vb_line_M := ⟨vb_line_D, vb_line_bTab, vb_line_bClosed⟩

end Ohcount.Cert
