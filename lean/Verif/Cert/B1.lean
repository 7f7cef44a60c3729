import Verif.Cert.N1
import Verif.RagelExact

/-! Generated by tools/gen_certs.py. -/

namespace Ohcount.Cert
open Ohcount.Ragel Ohcount.Gram

set_option maxRecDepth 100000

def cs_line_bTab : List (List BA) := [[⟨false,false,false,false,false,false,false,true,false,false,false,0,none,none,false,0,none,false,false,0⟩],[⟨false,false,false,false,false,false,false,true,false,false,false,0,some (.own 0),some 0,false,1,none,false,false,0⟩],[⟨false,false,false,false,false,false,false,true,false,false,false,0,some .newline,none,false,1,none,false,false,2⟩],[⟨true,false,false,false,false,false,false,true,false,false,false,0,some .newline,some 3,false,1,none,false,false,1⟩],[⟨false,true,false,true,false,true,false,false,false,false,false,0,some (.own 3),some 4,true,1,none,false,false,0⟩],[⟨false,true,false,true,false,true,false,false,false,false,false,0,some (.own 3),some 1,true,1,none,false,false,0⟩],[⟨false,true,true,true,false,true,false,false,false,false,false,0,some (.own 3),some 4,true,2,none,false,false,0⟩],[⟨false,true,true,true,false,true,false,false,false,false,false,0,some (.own 3),some 4,true,2,none,false,false,0⟩],[⟨false,true,true,true,false,true,false,false,false,false,false,0,some (.own 3),some 1,true,1,none,false,false,0⟩],[⟨false,true,true,true,false,true,false,false,false,false,false,0,some (.own 3),some 4,true,2,none,false,false,0⟩]]
theorem cs_line_bClosed : closed cs_line_rows cs_line_bTab BA.init (BA.succ ⟨true, true, false, false⟩ cs_line_M) (BA.eofOk ⟨true, true, false, false⟩ cs_line_M) = true := by
  decide +kernel
def cs_line_B : BCert ⟨true, true, false, false⟩ cs_line_M := ⟨cs_line_D, cs_line_bTab, cs_line_bClosed⟩

def cmake_line_bTab : List (List BA) := [[⟨false,false,false,false,false,false,false,true,false,false,false,0,none,none,false,0,none,false,false,0⟩],[⟨false,false,false,false,false,false,false,true,false,false,false,0,some (.own 0),some 0,false,1,none,false,false,0⟩],[⟨false,false,false,false,false,false,false,true,false,false,false,0,some .newline,none,false,1,none,false,false,2⟩],[⟨true,false,false,false,false,false,false,true,false,false,false,0,some .newline,some 3,false,1,none,false,false,1⟩],[⟨false,true,false,true,false,true,true,false,false,false,false,0,some (.own 3),some 4,true,1,none,false,false,0⟩],[⟨false,true,false,true,false,true,false,false,false,false,false,0,some (.own 3),some 1,true,1,none,false,false,0⟩],[⟨false,true,true,true,false,true,true,false,false,false,false,0,some (.own 3),some 4,true,2,none,false,false,0⟩,⟨false,true,false,true,false,true,true,false,true,true,false,0,some .internalNl,some 4,true,2,none,false,false,0⟩,⟨false,true,true,true,false,true,true,false,true,true,false,0,some .internalNl,some 4,true,2,none,false,false,0⟩],[⟨false,true,true,true,false,true,true,false,false,false,false,0,some (.own 3),some 4,true,2,none,false,false,0⟩,⟨false,false,false,false,false,true,true,false,true,true,false,0,some .internalNl,some 4,true,2,none,false,false,0⟩,⟨false,true,true,true,false,true,true,false,true,true,false,0,some .internalNl,some 4,true,2,none,false,false,0⟩],[⟨true,true,true,true,false,true,true,false,false,false,false,0,some (.own 3),some 4,true,2,none,false,false,0⟩,⟨true,false,false,false,false,true,true,false,true,true,false,0,some .internalNl,some 4,true,2,none,false,false,0⟩,⟨true,true,true,true,false,true,true,false,true,true,false,0,some .internalNl,some 4,true,2,none,false,false,0⟩],[⟨true,true,true,true,false,true,true,false,false,false,false,0,some (.own 3),some 4,true,2,none,false,false,0⟩,⟨true,false,false,false,false,true,true,false,true,true,false,0,some .internalNl,some 4,true,2,none,false,false,0⟩,⟨true,true,true,true,false,true,true,false,true,true,false,0,some .internalNl,some 4,true,2,none,false,false,0⟩],[⟨false,true,true,true,false,true,true,false,false,false,false,0,some (.own 3),some 4,true,2,none,false,false,2⟩,⟨false,false,false,false,false,true,true,false,true,true,false,0,some .internalNl,some 4,true,2,none,false,false,2⟩,⟨false,true,true,true,false,true,true,false,true,true,false,0,some .internalNl,some 4,true,2,none,false,false,2⟩],[⟨true,true,true,true,false,true,true,false,false,false,false,0,some (.own 3),some 4,true,2,none,false,false,1⟩,⟨true,false,false,false,false,true,true,false,true,true,false,0,some .internalNl,some 4,true,2,none,false,false,1⟩,⟨true,true,true,true,false,true,true,false,true,true,false,0,some .internalNl,some 4,true,2,none,false,false,1⟩],[⟨false,true,true,true,false,true,true,false,false,false,false,0,some (.own 3),some 4,true,2,none,false,false,0⟩,⟨false,true,false,false,true,true,true,false,true,true,false,0,some .internalNl,some 4,true,2,none,false,false,0⟩,⟨false,true,true,true,false,true,true,false,true,true,false,0,some .internalNl,some 4,true,2,none,false,false,0⟩],[⟨false,true,true,true,false,true,false,false,false,false,false,0,some (.own 3),some 1,true,1,none,false,false,0⟩],[⟨true,true,true,true,false,true,true,false,false,false,false,0,some (.own 3),some 4,true,2,none,false,false,0⟩,⟨true,false,false,false,false,true,true,false,true,true,false,0,some .internalNl,some 4,true,2,none,false,false,0⟩,⟨true,true,true,true,false,true,true,false,true,true,false,0,some .internalNl,some 4,true,2,none,false,false,0⟩],[],[⟨false,true,true,true,false,true,true,false,false,false,false,0,some (.own 3),some 4,true,2,none,false,false,0⟩,⟨false,true,true,true,false,true,true,false,true,true,false,0,some .internalNl,some 4,true,2,none,false,false,0⟩]]
theorem cmake_line_bClosed : closed cmake_line_rows cmake_line_bTab BA.init (BA.succ ⟨true, true, true, false⟩ cmake_line_M) (BA.eofOk ⟨true, true, true, false⟩ cmake_line_M) = true := by
  decide +kernel
def cmake_line_B : BCert ⟨true, true, true, false⟩ cmake_line_M := ⟨cmake_line_D, cmake_line_bTab, cmake_line_bClosed⟩

def ebuild_line_bTab : List (List BA) := [[⟨false,false,false,false,false,false,false,true,false,false,false,0,none,none,false,0,none,false,false,0⟩],[⟨false,false,false,false,false,false,false,true,false,false,false,0,some (.own 0),some 0,false,1,none,false,false,0⟩],[⟨false,false,false,false,false,false,false,true,false,false,false,0,some .newline,none,false,1,none,false,false,2⟩],[⟨true,false,false,false,false,false,false,true,false,false,false,0,some .newline,some 3,false,1,none,false,false,1⟩],[⟨false,true,false,true,false,true,false,false,false,false,false,0,some (.own 3),some 4,true,1,none,false,false,0⟩],[⟨false,true,false,true,false,true,false,false,false,false,false,0,some (.own 3),some 1,true,1,none,false,false,0⟩],[⟨false,true,false,true,false,true,false,false,false,false,false,0,some (.own 3),some 4,true,1,none,false,false,0⟩],[⟨false,true,true,true,false,true,false,false,false,false,false,0,some (.own 3),some 4,true,2,none,false,false,0⟩],[⟨false,true,true,true,false,true,false,false,false,false,false,0,some (.own 3),some 4,true,2,none,false,false,0⟩],[⟨false,true,true,true,false,true,false,false,false,false,false,0,some (.own 3),some 1,true,1,none,false,false,0⟩],[⟨false,true,true,true,false,true,false,false,false,false,false,0,some (.own 3),some 4,true,2,none,false,false,0⟩],[⟨false,true,true,true,false,true,false,false,false,false,false,0,some (.own 3),some 4,true,2,none,false,false,0⟩],[⟨false,true,true,true,false,true,false,false,false,false,false,0,some (.own 3),some 4,true,2,none,false,false,0⟩],[⟨false,true,true,true,false,true,false,false,false,false,false,0,some (.own 3),some 4,true,2,none,false,false,0⟩]]
theorem ebuild_line_bClosed : closed ebuild_line_rows ebuild_line_bTab BA.init (BA.succ ⟨true, true, false, false⟩ ebuild_line_M) (BA.eofOk ⟨true, true, false, false⟩ ebuild_line_M) = true := by
  decide +kernel
def ebuild_line_B : BCert ⟨true, true, false, false⟩ ebuild_line_M := ⟨ebuild_line_D, ebuild_line_bTab, ebuild_line_bClosed⟩

def ffree_line_bTab : List (List BA) := [[⟨false,false,false,false,false,false,false,true,false,false,false,0,none,none,false,0,none,false,false,0⟩],[⟨false,false,false,false,false,false,false,true,false,false,false,0,some (.own 0),some 0,false,1,none,false,false,0⟩],[⟨false,false,false,false,false,false,false,true,false,false,false,0,some .newline,none,false,1,none,false,false,2⟩],[⟨true,false,false,false,false,false,false,true,false,false,false,0,some .newline,some 3,false,1,none,false,false,1⟩],[⟨false,true,false,true,false,true,false,false,false,false,false,0,some (.own 3),some 1,true,1,none,false,false,0⟩],[⟨false,true,false,true,false,true,false,false,false,false,false,0,some (.own 3),some 4,true,1,none,false,false,0⟩],[⟨false,true,false,true,false,true,false,false,false,false,false,0,some (.own 3),some 4,true,1,none,false,false,0⟩],[⟨false,true,true,true,false,true,false,false,false,false,false,0,some (.own 3),some 1,true,1,none,false,false,0⟩],[⟨false,true,true,true,false,true,false,false,false,false,false,0,some (.own 3),some 4,true,2,none,false,false,0⟩,⟨false,true,false,true,false,true,false,false,true,true,false,0,some .internalNl,some 4,true,2,none,false,false,0⟩,⟨false,true,true,true,false,true,false,false,true,true,false,0,some .internalNl,some 4,true,2,none,false,false,0⟩],[⟨false,true,true,true,false,true,false,false,false,false,false,0,some (.own 3),some 4,true,2,none,false,false,0⟩,⟨false,false,false,false,false,true,false,false,true,true,false,0,some .internalNl,some 4,true,2,none,false,false,0⟩,⟨false,true,true,true,false,true,false,false,true,true,false,0,some .internalNl,some 4,true,2,none,false,false,0⟩],[⟨true,true,true,true,false,true,false,false,false,false,false,0,some (.own 3),some 4,true,2,none,false,false,0⟩,⟨true,false,false,false,false,true,false,false,true,true,false,0,some .internalNl,some 4,true,2,none,false,false,0⟩,⟨true,true,true,true,false,true,false,false,true,true,false,0,some .internalNl,some 4,true,2,none,false,false,0⟩],[⟨true,true,true,true,false,true,false,false,false,false,false,0,some (.own 3),some 4,true,2,none,false,false,0⟩,⟨true,false,false,false,false,true,false,false,true,true,false,0,some .internalNl,some 4,true,2,none,false,false,0⟩,⟨true,true,true,true,false,true,false,false,true,true,false,0,some .internalNl,some 4,true,2,none,false,false,0⟩],[⟨false,true,true,true,false,true,false,false,false,false,false,0,some (.own 3),some 4,true,2,none,false,false,2⟩,⟨false,false,false,false,false,true,false,false,true,true,false,0,some .internalNl,some 4,true,2,none,false,false,2⟩,⟨false,true,true,true,false,true,false,false,true,true,false,0,some .internalNl,some 4,true,2,none,false,false,2⟩],[⟨true,true,true,true,false,true,false,false,false,false,false,0,some (.own 3),some 4,true,2,none,false,false,1⟩,⟨true,false,false,false,false,true,false,false,true,true,false,0,some .internalNl,some 4,true,2,none,false,false,1⟩,⟨true,true,true,true,false,true,false,false,true,true,false,0,some .internalNl,some 4,true,2,none,false,false,1⟩],[⟨false,true,true,true,false,true,false,false,false,false,false,0,some (.own 3),some 4,true,2,none,false,false,0⟩,⟨false,true,false,true,false,true,false,false,true,true,false,0,some .internalNl,some 4,true,2,none,false,false,0⟩,⟨false,true,true,true,false,true,false,false,true,true,false,0,some .internalNl,some 4,true,2,none,false,false,0⟩],[⟨false,true,true,true,false,true,false,false,false,false,false,0,some (.own 3),some 4,true,2,none,false,false,0⟩,⟨false,false,false,false,false,true,false,false,true,true,false,0,some .internalNl,some 4,true,2,none,false,false,0⟩,⟨false,true,true,true,false,true,false,false,true,true,false,0,some .internalNl,some 4,true,2,none,false,false,0⟩],[⟨true,true,true,true,false,true,false,false,false,false,false,0,some (.own 3),some 4,true,2,none,false,false,0⟩,⟨true,false,false,false,false,true,false,false,true,true,false,0,some .internalNl,some 4,true,2,none,false,false,0⟩,⟨true,true,true,true,false,true,false,false,true,true,false,0,some .internalNl,some 4,true,2,none,false,false,0⟩],[⟨true,true,true,true,false,true,false,false,false,false,false,0,some (.own 3),some 4,true,2,none,false,false,0⟩,⟨true,false,false,false,false,true,false,false,true,true,false,0,some .internalNl,some 4,true,2,none,false,false,0⟩,⟨true,true,true,true,false,true,false,false,true,true,false,0,some .internalNl,some 4,true,2,none,false,false,0⟩],[⟨false,true,true,true,false,true,false,false,false,false,false,0,some (.own 3),some 4,true,2,none,false,false,2⟩,⟨false,false,false,false,false,true,false,false,true,true,false,0,some .internalNl,some 4,true,2,none,false,false,2⟩,⟨false,true,true,true,false,true,false,false,true,true,false,0,some .internalNl,some 4,true,2,none,false,false,2⟩],[⟨true,true,true,true,false,true,false,false,false,false,false,0,some (.own 3),some 4,true,2,none,false,false,1⟩,⟨true,false,false,false,false,true,false,false,true,true,false,0,some .internalNl,some 4,true,2,none,false,false,1⟩,⟨true,true,true,true,false,true,false,false,true,true,false,0,some .internalNl,some 4,true,2,none,false,false,1⟩],[⟨true,true,true,true,false,true,false,false,false,false,false,0,some (.own 3),some 4,true,2,none,false,false,0⟩,⟨true,false,false,false,false,true,false,false,true,true,false,0,some .internalNl,some 4,true,2,none,false,false,0⟩,⟨true,true,true,true,false,true,false,false,true,true,false,0,some .internalNl,some 4,true,2,none,false,false,0⟩],[],[⟨true,true,true,true,false,true,false,false,false,false,false,0,some (.own 3),some 4,true,2,none,false,false,0⟩,⟨true,false,false,false,false,true,false,false,true,true,false,0,some .internalNl,some 4,true,2,none,false,false,0⟩,⟨true,true,true,true,false,true,false,false,true,true,false,0,some .internalNl,some 4,true,2,none,false,false,0⟩],[]]
theorem ffree_line_bClosed : closed ffree_line_rows ffree_line_bTab BA.init (BA.succ ⟨true, false, true, false⟩ ffree_line_M) (BA.eofOk ⟨true, false, true, false⟩ ffree_line_M) = true := by
  decide +kernel
def ffree_line_B : BCert ⟨true, false, true, false⟩ ffree_line_M := ⟨ffree_line_D, ffree_line_bTab, ffree_line_bClosed⟩

def mathematica_line_bTab : List (List BA) := [[⟨false,false,false,false,false,false,false,true,false,false,false,0,none,none,false,0,none,false,false,0⟩],[⟨false,false,false,false,false,false,false,true,false,false,false,0,some (.own 0),some 0,false,1,none,false,false,0⟩],[⟨false,false,false,false,false,false,false,true,false,false,false,0,some .newline,none,false,1,none,false,false,2⟩],[⟨true,false,false,false,false,false,false,true,false,false,false,0,some .newline,some 3,false,1,none,false,false,1⟩],[⟨false,true,false,true,false,true,false,false,false,false,false,0,some (.own 3),some 4,true,1,none,false,false,0⟩],[⟨false,true,false,false,true,false,false,true,false,false,false,0,some (.own 3),some 4,true,1,none,false,false,0⟩],[⟨false,true,true,true,false,true,false,false,false,false,false,0,some (.own 3),some 4,true,2,none,false,false,0⟩,⟨true,true,true,true,false,true,false,false,false,false,false,0,some (.own 3),some 4,true,2,none,false,false,0⟩,⟨false,true,true,true,false,true,false,false,false,false,false,0,some (.own 3),some 4,true,2,none,false,false,2⟩,⟨true,true,true,true,false,true,false,false,false,false,false,0,some (.own 3),some 4,true,2,none,false,false,1⟩],[⟨false,true,true,true,false,true,false,false,false,false,false,0,some (.own 3),some 4,true,2,none,false,false,0⟩],[⟨false,true,true,true,false,true,false,false,false,false,false,0,some (.own 3),some 4,true,2,none,false,false,0⟩,⟨false,true,false,true,false,true,false,false,true,true,false,0,some .internalNl,some 4,true,2,none,false,false,0⟩,⟨false,true,true,true,false,true,false,false,true,true,false,0,some .internalNl,some 4,true,2,none,false,false,0⟩],[⟨false,true,true,true,false,true,false,false,false,false,false,0,some (.own 3),some 4,true,2,none,false,false,0⟩,⟨false,false,false,false,false,true,false,false,true,true,false,0,some .internalNl,some 4,true,2,none,false,false,0⟩,⟨false,true,true,true,false,true,false,false,true,true,false,0,some .internalNl,some 4,true,2,none,false,false,0⟩],[⟨true,true,true,true,false,true,false,false,false,false,false,0,some (.own 3),some 4,true,2,none,false,false,0⟩,⟨true,false,false,false,false,true,false,false,true,true,false,0,some .internalNl,some 4,true,2,none,false,false,0⟩,⟨true,true,true,true,false,true,false,false,true,true,false,0,some .internalNl,some 4,true,2,none,false,false,0⟩],[⟨true,true,true,true,false,true,false,false,false,false,false,0,some (.own 3),some 4,true,2,none,false,false,0⟩,⟨true,false,false,false,false,true,false,false,true,true,false,0,some .internalNl,some 4,true,2,none,false,false,0⟩,⟨true,true,true,true,false,true,false,false,true,true,false,0,some .internalNl,some 4,true,2,none,false,false,0⟩],[⟨false,true,true,true,false,true,false,false,false,false,false,0,some (.own 3),some 4,true,2,none,false,false,2⟩,⟨false,false,false,false,false,true,false,false,true,true,false,0,some .internalNl,some 4,true,2,none,false,false,2⟩,⟨false,true,true,true,false,true,false,false,true,true,false,0,some .internalNl,some 4,true,2,none,false,false,2⟩],[⟨true,true,true,true,false,true,false,false,false,false,false,0,some (.own 3),some 4,true,2,none,false,false,1⟩,⟨true,false,false,false,false,true,false,false,true,true,false,0,some .internalNl,some 4,true,2,none,false,false,1⟩,⟨true,true,true,true,false,true,false,false,true,true,false,0,some .internalNl,some 4,true,2,none,false,false,1⟩],[⟨false,true,true,true,false,true,false,false,false,false,false,0,some (.own 3),some 4,true,2,none,false,false,0⟩,⟨false,true,false,true,false,true,false,false,true,true,false,0,some .internalNl,some 4,true,2,none,false,false,0⟩,⟨false,true,true,true,false,true,false,false,true,true,false,0,some .internalNl,some 4,true,2,none,false,false,0⟩],[⟨false,true,true,true,false,true,false,false,false,false,false,0,some (.own 3),some 4,true,2,none,false,false,0⟩,⟨false,true,false,true,false,true,false,false,true,true,false,0,some .internalNl,some 4,true,2,none,false,false,0⟩,⟨false,true,true,true,false,true,false,false,true,true,false,0,some .internalNl,some 4,true,2,none,false,false,0⟩],[⟨false,true,true,true,false,true,false,false,false,false,false,0,some (.own 3),some 4,true,2,none,false,false,0⟩,⟨false,true,false,true,false,true,false,false,true,true,false,0,some .internalNl,some 4,true,2,none,false,false,0⟩,⟨false,true,true,true,false,true,false,false,true,true,false,0,some .internalNl,some 4,true,2,none,false,false,0⟩],[⟨true,true,true,true,false,true,false,false,false,false,false,0,some (.own 3),some 4,true,2,none,false,false,0⟩,⟨true,false,false,false,false,true,false,false,true,true,false,0,some .internalNl,some 4,true,2,none,false,false,0⟩,⟨true,true,true,true,false,true,false,false,true,true,false,0,some .internalNl,some 4,true,2,none,false,false,0⟩],[],[⟨false,true,true,true,false,true,false,false,false,false,false,0,some (.own 3),some 4,true,2,none,false,false,0⟩,⟨false,true,true,true,false,true,false,false,true,true,false,0,some .internalNl,some 4,true,2,none,false,false,0⟩],[⟨false,true,true,true,false,true,false,false,false,false,false,0,some (.own 3),some 4,true,2,none,false,false,0⟩,⟨false,true,true,true,false,true,false,false,true,true,false,0,some .internalNl,some 4,true,2,none,false,false,0⟩],[⟨false,true,true,true,false,true,false,false,false,false,false,0,some (.own 3),some 4,true,2,none,false,false,0⟩,⟨false,true,true,true,false,true,false,false,true,true,false,0,some .internalNl,some 4,true,2,none,false,false,0⟩]]
theorem mathematica_line_bClosed : closed mathematica_line_rows mathematica_line_bTab BA.init (BA.succ ⟨true, true, true, true⟩ mathematica_line_M) (BA.eofOk ⟨true, true, true, true⟩ mathematica_line_M) = true := by
  decide +kernel
def mathematica_line_B : BCert ⟨true, true, true, true⟩ mathematica_line_M := ⟨mathematica_line_D, mathematica_line_bTab, mathematica_line_bClosed⟩

def ruby_line_bTab : List (List BA) := [[⟨false,false,false,false,false,false,false,true,false,false,false,0,none,none,false,0,none,false,false,0⟩],[⟨false,false,false,false,false,false,false,true,false,false,false,0,some (.own 0),some 0,false,1,none,false,false,0⟩],[⟨false,false,false,false,false,false,false,true,false,false,false,0,some .newline,none,false,1,none,false,false,2⟩],[⟨true,false,false,false,false,false,false,true,false,false,false,0,some .newline,some 3,false,1,none,false,false,1⟩],[⟨false,true,false,true,false,true,true,false,false,false,false,0,some (.own 3),some 4,true,1,none,false,false,0⟩],[⟨false,true,false,true,false,true,false,false,false,false,false,0,some (.own 3),some 1,true,1,none,false,false,0⟩],[⟨false,true,false,false,true,false,false,true,false,false,false,0,some (.own 3),some 4,true,1,none,false,false,0⟩],[⟨false,true,false,true,false,true,true,false,false,false,false,0,some (.own 3),some 4,true,1,none,false,false,0⟩],[⟨false,true,false,false,true,false,false,true,false,false,false,0,some (.own 3),some 4,true,1,none,false,false,0⟩],[⟨false,true,false,false,true,false,false,true,false,false,false,0,some (.own 3),some 4,true,1,none,false,false,0⟩],[⟨false,true,false,true,false,true,true,false,false,false,false,0,some (.own 3),some 4,true,1,none,false,false,0⟩],[⟨false,true,true,true,false,true,true,false,false,false,false,0,some (.own 3),some 4,true,2,none,false,false,0⟩,⟨false,true,false,true,false,true,true,false,true,true,false,0,some .internalNl,some 4,true,2,none,false,false,0⟩,⟨false,true,true,true,false,true,true,false,true,true,false,0,some .internalNl,some 4,true,2,none,false,false,0⟩],[⟨false,true,true,true,false,true,true,false,false,false,false,0,some (.own 3),some 4,true,2,none,false,false,0⟩,⟨false,false,false,false,false,true,true,false,true,true,false,0,some .internalNl,some 4,true,2,none,false,false,0⟩,⟨false,true,true,true,false,true,true,false,true,true,false,0,some .internalNl,some 4,true,2,none,false,false,0⟩],[⟨true,true,true,true,false,true,true,false,false,false,false,0,some (.own 3),some 4,true,2,none,false,false,0⟩,⟨true,false,false,false,false,true,true,false,true,true,false,0,some .internalNl,some 4,true,2,none,false,false,0⟩,⟨true,true,true,true,false,true,true,false,true,true,false,0,some .internalNl,some 4,true,2,none,false,false,0⟩],[⟨true,true,true,true,false,true,true,false,false,false,false,0,some (.own 3),some 4,true,2,none,false,false,0⟩,⟨true,false,false,false,false,true,true,false,true,true,false,0,some .internalNl,some 4,true,2,none,false,false,0⟩,⟨true,true,true,true,false,true,true,false,true,true,false,0,some .internalNl,some 4,true,2,none,false,false,0⟩],[⟨false,true,true,true,false,true,true,false,false,false,false,0,some (.own 3),some 4,true,2,none,false,false,2⟩,⟨false,false,false,false,false,true,true,false,true,true,false,0,some .internalNl,some 4,true,2,none,false,false,2⟩,⟨false,true,true,true,false,true,true,false,true,true,false,0,some .internalNl,some 4,true,2,none,false,false,2⟩],[⟨true,true,true,true,false,true,true,false,false,false,false,0,some (.own 3),some 4,true,2,none,false,false,1⟩,⟨true,false,false,false,false,true,true,false,true,true,false,0,some .internalNl,some 4,true,2,none,false,false,1⟩,⟨true,true,true,true,false,true,true,false,true,true,false,0,some .internalNl,some 4,true,2,none,false,false,1⟩],[⟨false,true,true,true,false,true,true,false,false,false,false,0,some (.own 3),some 4,true,2,none,false,false,0⟩,⟨false,true,false,false,true,true,true,false,true,true,false,0,some .internalNl,some 4,true,2,none,false,false,0⟩,⟨false,true,true,true,false,true,true,false,true,true,false,0,some .internalNl,some 4,true,2,none,false,false,0⟩],[⟨false,true,true,true,false,true,false,false,false,false,false,0,some (.own 3),some 1,true,1,none,false,false,0⟩],[⟨false,true,true,true,false,true,true,false,false,false,false,0,some (.own 3),some 4,true,2,none,false,false,0⟩],[⟨false,true,true,false,true,false,false,true,false,false,false,0,some (.own 3),some 4,true,2,none,false,false,0⟩],[⟨false,true,true,false,true,false,false,true,false,false,false,0,some (.own 3),some 4,true,2,none,false,false,0⟩],[⟨false,true,true,true,false,true,true,false,false,false,false,0,some (.own 3),some 4,true,2,none,false,false,0⟩,⟨false,true,false,true,false,true,true,false,true,true,false,0,some .internalNl,some 4,true,2,none,false,false,0⟩,⟨false,true,true,true,false,true,true,false,true,true,false,0,some .internalNl,some 4,true,2,none,false,false,0⟩],[⟨false,true,true,true,false,true,true,false,false,false,false,0,some (.own 3),some 4,true,2,none,false,false,0⟩,⟨false,false,false,false,false,true,true,false,true,true,false,0,some .internalNl,some 4,true,2,none,false,false,0⟩,⟨false,true,true,true,false,true,true,false,true,true,false,0,some .internalNl,some 4,true,2,none,false,false,0⟩],[⟨true,true,true,true,false,true,true,false,false,false,false,0,some (.own 3),some 4,true,2,none,false,false,0⟩,⟨true,false,false,false,false,true,true,false,true,true,false,0,some .internalNl,some 4,true,2,none,false,false,0⟩,⟨true,true,true,true,false,true,true,false,true,true,false,0,some .internalNl,some 4,true,2,none,false,false,0⟩],[⟨true,true,true,true,false,true,true,false,false,false,false,0,some (.own 3),some 4,true,2,none,false,false,0⟩,⟨true,false,false,false,false,true,true,false,true,true,false,0,some .internalNl,some 4,true,2,none,false,false,0⟩,⟨true,true,true,true,false,true,true,false,true,true,false,0,some .internalNl,some 4,true,2,none,false,false,0⟩],[⟨false,true,true,true,false,true,true,false,false,false,false,0,some (.own 3),some 4,true,2,none,false,false,2⟩,⟨false,false,false,false,false,true,true,false,true,true,false,0,some .internalNl,some 4,true,2,none,false,false,2⟩,⟨false,true,true,true,false,true,true,false,true,true,false,0,some .internalNl,some 4,true,2,none,false,false,2⟩],[⟨true,true,true,true,false,true,true,false,false,false,false,0,some (.own 3),some 4,true,2,none,false,false,1⟩,⟨true,false,false,false,false,true,true,false,true,true,false,0,some .internalNl,some 4,true,2,none,false,false,1⟩,⟨true,true,true,true,false,true,true,false,true,true,false,0,some .internalNl,some 4,true,2,none,false,false,1⟩],[⟨false,true,true,true,false,true,true,false,false,false,false,0,some (.own 3),some 4,true,2,none,false,false,0⟩,⟨false,true,false,false,true,true,true,false,true,true,false,0,some .internalNl,some 4,true,2,none,false,false,0⟩,⟨false,true,true,true,false,true,true,false,true,true,false,0,some .internalNl,some 4,true,2,none,false,false,0⟩],[⟨false,true,true,false,true,false,false,true,false,false,false,0,some (.own 3),some 4,true,2,none,false,false,0⟩],[⟨false,true,true,false,true,false,false,true,false,false,false,0,some (.own 3),some 4,true,2,none,false,false,0⟩],[⟨false,true,true,false,true,false,false,true,false,false,false,0,some (.own 3),some 4,true,2,none,false,false,0⟩],[⟨false,true,true,true,false,true,true,false,false,false,false,0,some (.own 3),some 4,true,2,none,false,false,0⟩,⟨false,true,false,true,false,true,true,false,true,true,false,0,some .internalNl,some 4,true,2,none,false,false,0⟩,⟨false,true,true,true,false,true,true,false,true,true,false,0,some .internalNl,some 4,true,2,none,false,false,0⟩],[⟨false,true,true,true,false,true,true,false,false,false,false,0,some (.own 3),some 4,true,2,none,false,false,0⟩,⟨false,false,false,false,false,true,true,false,true,true,false,0,some .internalNl,some 4,true,2,none,false,false,0⟩,⟨false,true,true,true,false,true,true,false,true,true,false,0,some .internalNl,some 4,true,2,none,false,false,0⟩],[⟨true,true,true,true,false,true,true,false,false,false,false,0,some (.own 3),some 4,true,2,none,false,false,0⟩,⟨true,false,false,false,false,true,true,false,true,true,false,0,some .internalNl,some 4,true,2,none,false,false,0⟩,⟨true,true,true,true,false,true,true,false,true,true,false,0,some .internalNl,some 4,true,2,none,false,false,0⟩],[⟨true,true,true,true,false,true,true,false,false,false,false,0,some (.own 3),some 4,true,2,none,false,false,0⟩,⟨true,false,false,false,false,true,true,false,true,true,false,0,some .internalNl,some 4,true,2,none,false,false,0⟩,⟨true,true,true,true,false,true,true,false,true,true,false,0,some .internalNl,some 4,true,2,none,false,false,0⟩],[⟨false,true,true,true,false,true,true,false,false,false,false,0,some (.own 3),some 4,true,2,none,false,false,2⟩,⟨false,false,false,false,false,true,true,false,true,true,false,0,some .internalNl,some 4,true,2,none,false,false,2⟩,⟨false,true,true,true,false,true,true,false,true,true,false,0,some .internalNl,some 4,true,2,none,false,false,2⟩],[⟨true,true,true,true,false,true,true,false,false,false,false,0,some (.own 3),some 4,true,2,none,false,false,1⟩,⟨true,false,false,false,false,true,true,false,true,true,false,0,some .internalNl,some 4,true,2,none,false,false,1⟩,⟨true,true,true,true,false,true,true,false,true,true,false,0,some .internalNl,some 4,true,2,none,false,false,1⟩],[⟨false,true,true,true,false,true,true,false,false,false,false,0,some (.own 3),some 4,true,2,none,false,false,0⟩,⟨false,true,false,false,true,true,true,false,true,true,false,0,some .internalNl,some 4,true,2,none,false,false,0⟩,⟨false,true,true,true,false,true,true,false,true,true,false,0,some .internalNl,some 4,true,2,none,false,false,0⟩],[⟨true,true,true,true,false,true,true,false,false,false,false,0,some (.own 3),some 4,true,2,none,false,false,0⟩,⟨true,false,false,false,false,true,true,false,true,true,false,0,some .internalNl,some 4,true,2,none,false,false,0⟩,⟨true,true,true,true,false,true,true,false,true,true,false,0,some .internalNl,some 4,true,2,none,false,false,0⟩],[],[⟨false,true,true,true,false,true,true,false,false,false,false,0,some (.own 3),some 4,true,2,none,false,false,0⟩,⟨false,true,true,true,false,true,true,false,true,true,false,0,some .internalNl,some 4,true,2,none,false,false,0⟩],[⟨false,true,true,true,false,true,true,false,false,false,false,0,some (.own 3),some 4,true,2,none,false,false,0⟩,⟨false,true,false,true,false,true,true,false,true,true,false,0,some .internalNl,some 4,true,2,none,false,false,0⟩,⟨false,true,true,true,false,true,true,false,true,true,false,0,some .internalNl,some 4,true,2,none,false,false,0⟩],[⟨false,true,true,true,false,true,true,false,false,false,false,0,some (.own 3),some 4,true,2,none,false,false,0⟩,⟨false,false,false,false,false,true,true,false,true,true,false,0,some .internalNl,some 4,true,2,none,false,false,0⟩,⟨false,true,true,true,false,true,true,false,true,true,false,0,some .internalNl,some 4,true,2,none,false,false,0⟩],[⟨true,true,true,true,false,true,true,false,false,false,false,0,some (.own 3),some 4,true,2,none,false,false,0⟩,⟨true,false,false,false,false,true,true,false,true,true,false,0,some .internalNl,some 4,true,2,none,false,false,0⟩,⟨true,true,true,true,false,true,true,false,true,true,false,0,some .internalNl,some 4,true,2,none,false,false,0⟩],[⟨true,true,true,true,false,true,true,false,false,false,false,0,some (.own 3),some 4,true,2,none,false,false,0⟩,⟨true,false,false,false,false,true,true,false,true,true,false,0,some .internalNl,some 4,true,2,none,false,false,0⟩,⟨true,true,true,true,false,true,true,false,true,true,false,0,some .internalNl,some 4,true,2,none,false,false,0⟩],[⟨false,true,true,true,false,true,true,false,false,false,false,0,some (.own 3),some 4,true,2,none,false,false,2⟩,⟨false,false,false,false,false,true,true,false,true,true,false,0,some .internalNl,some 4,true,2,none,false,false,2⟩,⟨false,true,true,true,false,true,true,false,true,true,false,0,some .internalNl,some 4,true,2,none,false,false,2⟩],[⟨true,true,true,true,false,true,true,false,false,false,false,0,some (.own 3),some 4,true,2,none,false,false,1⟩,⟨true,false,false,false,false,true,true,false,true,true,false,0,some .internalNl,some 4,true,2,none,false,false,1⟩,⟨true,true,true,true,false,true,true,false,true,true,false,0,some .internalNl,some 4,true,2,none,false,false,1⟩],[⟨false,true,true,true,false,true,true,false,false,false,false,0,some (.own 3),some 4,true,2,none,false,false,0⟩,⟨false,true,false,false,true,true,true,false,true,true,false,0,some .internalNl,some 4,true,2,none,false,false,0⟩,⟨false,true,true,true,false,true,true,false,true,true,false,0,some .internalNl,some 4,true,2,none,false,false,0⟩],[⟨false,true,true,true,false,true,true,false,false,false,false,0,some (.own 3),some 4,true,2,none,false,false,0⟩],[⟨true,true,true,true,false,true,true,false,false,false,false,0,some (.own 3),some 4,true,2,none,false,false,0⟩,⟨true,false,false,false,false,true,true,false,true,true,false,0,some .internalNl,some 4,true,2,none,false,false,0⟩,⟨true,true,true,true,false,true,true,false,true,true,false,0,some .internalNl,some 4,true,2,none,false,false,0⟩],[],[⟨false,true,true,true,false,true,true,false,false,false,false,0,some (.own 3),some 4,true,2,none,false,false,0⟩,⟨false,true,true,true,false,true,true,false,true,true,false,0,some .internalNl,some 4,true,2,none,false,false,0⟩],[⟨false,true,true,false,true,false,false,true,false,false,false,0,some (.own 3),some 4,true,2,none,false,false,0⟩],[⟨false,true,true,false,true,false,false,true,false,false,false,0,some (.own 3),some 4,true,2,none,false,false,0⟩],[⟨true,true,true,true,false,true,true,false,false,false,false,0,some (.own 3),some 4,true,2,none,false,false,0⟩,⟨true,false,false,false,false,true,true,false,true,true,false,0,some .internalNl,some 4,true,2,none,false,false,0⟩,⟨true,true,true,true,false,true,true,false,true,true,false,0,some .internalNl,some 4,true,2,none,false,false,0⟩],[],[⟨false,true,true,true,false,true,true,false,false,false,false,0,some (.own 3),some 4,true,2,none,false,false,0⟩,⟨false,true,true,true,false,true,true,false,true,true,false,0,some .internalNl,some 4,true,2,none,false,false,0⟩],[⟨true,true,true,true,false,true,true,false,false,false,false,0,some (.own 3),some 4,true,2,none,false,false,0⟩,⟨true,false,false,false,false,true,true,false,true,true,false,0,some .internalNl,some 4,true,2,none,false,false,0⟩,⟨true,true,true,true,false,true,true,false,true,true,false,0,some .internalNl,some 4,true,2,none,false,false,0⟩],[],[⟨false,true,true,true,false,true,true,false,false,false,false,0,some (.own 3),some 4,true,2,none,false,false,0⟩,⟨false,true,true,true,false,true,true,false,true,true,false,0,some .internalNl,some 4,true,2,none,false,false,0⟩],[⟨false,true,true,true,false,true,true,false,false,false,false,0,some (.own 3),some 4,true,2,none,false,false,0⟩,⟨false,true,false,true,false,true,true,false,true,true,false,0,some .internalNl,some 4,true,2,none,false,false,0⟩,⟨false,true,true,true,false,true,true,false,true,true,false,0,some .internalNl,some 4,true,2,none,false,false,0⟩],[⟨false,true,true,true,false,true,true,false,false,false,false,0,some (.own 3),some 4,true,2,none,false,false,0⟩,⟨false,false,false,false,false,true,true,false,true,true,false,0,some .internalNl,some 4,true,2,none,false,false,0⟩,⟨false,true,true,true,false,true,true,false,true,true,false,0,some .internalNl,some 4,true,2,none,false,false,0⟩],[⟨true,true,true,true,false,true,true,false,false,false,false,0,some (.own 3),some 4,true,2,none,false,false,0⟩,⟨true,false,false,false,false,true,true,false,true,true,false,0,some .internalNl,some 4,true,2,none,false,false,0⟩,⟨true,true,true,true,false,true,true,false,true,true,false,0,some .internalNl,some 4,true,2,none,false,false,0⟩],[⟨true,true,true,true,false,true,true,false,false,false,false,0,some (.own 3),some 4,true,2,none,false,false,0⟩,⟨true,false,false,false,false,true,true,false,true,true,false,0,some .internalNl,some 4,true,2,none,false,false,0⟩,⟨true,true,true,true,false,true,true,false,true,true,false,0,some .internalNl,some 4,true,2,none,false,false,0⟩],[⟨false,true,true,true,false,true,true,false,false,false,false,0,some (.own 3),some 4,true,2,none,false,false,2⟩,⟨false,false,false,false,false,true,true,false,true,true,false,0,some .internalNl,some 4,true,2,none,false,false,2⟩,⟨false,true,true,true,false,true,true,false,true,true,false,0,some .internalNl,some 4,true,2,none,false,false,2⟩],[⟨true,true,true,true,false,true,true,false,false,false,false,0,some (.own 3),some 4,true,2,none,false,false,1⟩,⟨true,false,false,false,false,true,true,false,true,true,false,0,some .internalNl,some 4,true,2,none,false,false,1⟩,⟨true,true,true,true,false,true,true,false,true,true,false,0,some .internalNl,some 4,true,2,none,false,false,1⟩],[⟨false,true,true,true,false,true,true,false,false,false,false,0,some (.own 3),some 4,true,2,none,false,false,0⟩,⟨false,true,false,false,true,true,true,false,true,true,false,0,some .internalNl,some 4,true,2,none,false,false,0⟩,⟨false,true,true,true,false,true,true,false,true,true,false,0,some .internalNl,some 4,true,2,none,false,false,0⟩],[⟨false,true,true,false,true,false,false,true,false,false,false,0,some (.own 3),some 4,true,2,none,false,false,0⟩],[⟨true,true,true,true,false,true,true,false,false,false,false,0,some (.own 3),some 4,true,2,none,false,false,0⟩,⟨true,false,false,false,false,true,true,false,true,true,false,0,some .internalNl,some 4,true,2,none,false,false,0⟩,⟨true,true,true,true,false,true,true,false,true,true,false,0,some .internalNl,some 4,true,2,none,false,false,0⟩],[],[⟨false,true,true,true,false,true,true,false,false,false,false,0,some (.own 3),some 4,true,2,none,false,false,0⟩,⟨false,true,true,true,false,true,true,false,true,true,false,0,some .internalNl,some 4,true,2,none,false,false,0⟩],[⟨false,true,true,false,true,false,false,true,false,false,false,0,some (.own 3),some 4,true,2,none,false,false,0⟩],[⟨false,true,true,true,false,true,true,false,false,false,false,0,some (.own 3),some 4,true,2,none,false,false,0⟩],[⟨false,true,true,true,false,true,true,false,false,false,false,0,some (.own 3),some 4,true,2,none,false,false,0⟩,⟨false,true,false,true,false,true,true,false,true,true,false,0,some .internalNl,some 4,true,2,none,false,false,0⟩,⟨false,true,true,true,false,true,true,false,true,true,false,0,some .internalNl,some 4,true,2,none,false,false,0⟩],[⟨false,true,true,true,false,true,true,false,false,false,false,0,some (.own 3),some 4,true,2,none,false,false,0⟩,⟨false,false,false,false,false,true,true,false,true,true,false,0,some .internalNl,some 4,true,2,none,false,false,0⟩,⟨false,true,true,true,false,true,true,false,true,true,false,0,some .internalNl,some 4,true,2,none,false,false,0⟩],[⟨true,true,true,true,false,true,true,false,false,false,false,0,some (.own 3),some 4,true,2,none,false,false,0⟩,⟨true,false,false,false,false,true,true,false,true,true,false,0,some .internalNl,some 4,true,2,none,false,false,0⟩,⟨true,true,true,true,false,true,true,false,true,true,false,0,some .internalNl,some 4,true,2,none,false,false,0⟩],[⟨true,true,true,true,false,true,true,false,false,false,false,0,some (.own 3),some 4,true,2,none,false,false,0⟩,⟨true,false,false,false,false,true,true,false,true,true,false,0,some .internalNl,some 4,true,2,none,false,false,0⟩,⟨true,true,true,true,false,true,true,false,true,true,false,0,some .internalNl,some 4,true,2,none,false,false,0⟩],[⟨false,true,true,true,false,true,true,false,false,false,false,0,some (.own 3),some 4,true,2,none,false,false,2⟩,⟨false,false,false,false,false,true,true,false,true,true,false,0,some .internalNl,some 4,true,2,none,false,false,2⟩,⟨false,true,true,true,false,true,true,false,true,true,false,0,some .internalNl,some 4,true,2,none,false,false,2⟩],[⟨true,true,true,true,false,true,true,false,false,false,false,0,some (.own 3),some 4,true,2,none,false,false,1⟩,⟨true,false,false,false,false,true,true,false,true,true,false,0,some .internalNl,some 4,true,2,none,false,false,1⟩,⟨true,true,true,true,false,true,true,false,true,true,false,0,some .internalNl,some 4,true,2,none,false,false,1⟩],[⟨false,true,true,true,false,true,true,false,false,false,false,0,some (.own 3),some 4,true,2,none,false,false,0⟩,⟨false,true,false,true,false,true,true,false,true,true,false,0,some .internalNl,some 4,true,2,none,false,false,0⟩,⟨false,true,true,true,false,true,true,false,true,true,false,0,some .internalNl,some 4,true,2,none,false,false,0⟩],[⟨true,true,true,true,false,true,true,false,false,false,false,0,some (.own 3),some 4,true,2,none,false,false,0⟩,⟨true,false,false,false,false,true,true,false,true,true,false,0,some .internalNl,some 4,true,2,none,false,false,0⟩,⟨true,true,true,true,false,true,true,false,true,true,false,0,some .internalNl,some 4,true,2,none,false,false,0⟩],[],[⟨false,true,true,true,false,true,true,false,false,false,false,0,some (.own 3),some 4,true,2,none,false,false,0⟩,⟨false,true,true,true,false,true,true,false,true,true,false,0,some .internalNl,some 4,true,2,none,false,false,0⟩],[⟨false,true,true,true,false,true,true,false,false,false,false,0,some (.own 3),some 4,true,2,none,false,false,0⟩,⟨false,true,true,true,false,true,true,false,true,true,false,0,some .internalNl,some 4,true,2,none,false,false,0⟩]]
theorem ruby_line_bClosed : closed ruby_line_rows ruby_line_bTab BA.init (BA.succ ⟨true, true, true, false⟩ ruby_line_M) (BA.eofOk ⟨true, true, true, false⟩ ruby_line_M) = true := by
  decide +kernel
def ruby_line_B : BCert ⟨true, true, true, false⟩ ruby_line_M := ⟨ruby_line_D, ruby_line_bTab, ruby_line_bClosed⟩

def sql_line_bTab : List (List BA) := [[⟨false,false,false,false,false,false,false,true,false,false,false,0,none,none,false,0,none,false,false,0⟩],[⟨false,false,false,false,false,false,false,true,false,false,false,0,some (.own 0),some 0,false,1,none,false,false,0⟩],[⟨false,false,false,false,false,false,false,true,false,false,false,0,some .newline,none,false,1,none,false,false,2⟩],[⟨true,false,false,false,false,false,false,true,false,false,false,0,some .newline,some 3,false,1,none,false,false,1⟩],[⟨false,true,false,true,false,true,false,false,false,false,false,0,some (.own 3),some 4,true,1,none,false,false,0⟩],[⟨false,true,false,true,false,true,false,false,false,false,false,0,some (.own 3),some 1,true,1,none,false,false,0⟩],[⟨false,true,false,true,false,true,false,false,false,false,false,0,some (.own 3),some 4,true,1,none,false,false,0⟩],[⟨false,true,false,false,true,false,false,true,false,false,false,0,some (.own 3),some 4,true,1,none,false,false,0⟩],[⟨false,true,false,false,true,false,false,true,false,false,false,0,some (.own 3),some 4,true,1,none,false,false,0⟩],[⟨false,true,false,true,false,true,false,false,false,false,false,0,some (.own 3),some 4,true,1,none,false,false,0⟩],[⟨false,true,true,true,false,true,false,false,false,false,false,0,some (.own 3),some 4,true,2,none,false,false,0⟩],[⟨false,true,true,true,false,true,false,false,false,false,false,0,some (.own 3),some 4,true,2,none,false,false,0⟩],[⟨false,true,true,true,false,true,false,false,false,false,false,0,some (.own 3),some 1,true,1,none,false,false,0⟩],[⟨false,true,true,true,false,true,false,false,false,false,false,0,some (.own 3),some 4,true,2,none,false,false,0⟩],[⟨false,true,true,true,false,true,false,false,false,false,false,0,some (.own 3),some 4,true,2,none,false,false,0⟩],[⟨false,true,true,true,false,true,false,false,false,false,false,0,some (.own 3),some 1,true,1,none,false,false,0⟩],[⟨false,true,true,true,false,true,false,false,false,false,false,0,some (.own 3),some 4,true,2,none,false,false,0⟩],[⟨false,true,true,true,false,true,false,false,false,false,false,0,some (.own 3),some 1,true,1,none,false,false,0⟩],[⟨false,true,true,true,false,true,false,false,false,false,false,0,some (.own 3),some 4,true,2,none,false,false,0⟩,⟨false,true,false,true,false,true,false,false,true,true,false,0,some .internalNl,some 4,true,2,none,false,false,0⟩,⟨false,true,true,true,false,true,false,false,true,true,false,0,some .internalNl,some 4,true,2,none,false,false,0⟩],[⟨false,true,true,true,false,true,false,false,false,false,false,0,some (.own 3),some 4,true,2,none,false,false,0⟩,⟨false,false,false,false,false,true,false,false,true,true,false,0,some .internalNl,some 4,true,2,none,false,false,0⟩,⟨false,true,true,true,false,true,false,false,true,true,false,0,some .internalNl,some 4,true,2,none,false,false,0⟩],[⟨true,true,true,true,false,true,false,false,false,false,false,0,some (.own 3),some 4,true,2,none,false,false,0⟩,⟨true,false,false,false,false,true,false,false,true,true,false,0,some .internalNl,some 4,true,2,none,false,false,0⟩,⟨true,true,true,true,false,true,false,false,true,true,false,0,some .internalNl,some 4,true,2,none,false,false,0⟩],[⟨true,true,true,true,false,true,false,false,false,false,false,0,some (.own 3),some 4,true,2,none,false,false,0⟩,⟨true,false,false,false,false,true,false,false,true,true,false,0,some .internalNl,some 4,true,2,none,false,false,0⟩,⟨true,true,true,true,false,true,false,false,true,true,false,0,some .internalNl,some 4,true,2,none,false,false,0⟩],[⟨false,true,true,true,false,true,false,false,false,false,false,0,some (.own 3),some 4,true,2,none,false,false,2⟩,⟨false,false,false,false,false,true,false,false,true,true,false,0,some .internalNl,some 4,true,2,none,false,false,2⟩,⟨false,true,true,true,false,true,false,false,true,true,false,0,some .internalNl,some 4,true,2,none,false,false,2⟩],[⟨true,true,true,true,false,true,false,false,false,false,false,0,some (.own 3),some 4,true,2,none,false,false,1⟩,⟨true,false,false,false,false,true,false,false,true,true,false,0,some .internalNl,some 4,true,2,none,false,false,1⟩,⟨true,true,true,true,false,true,false,false,true,true,false,0,some .internalNl,some 4,true,2,none,false,false,1⟩],[⟨false,true,true,true,false,true,false,false,false,false,false,0,some (.own 3),some 4,true,2,none,false,false,0⟩],[⟨false,true,true,true,false,true,false,false,false,false,false,0,some (.own 3),some 4,true,2,none,false,false,0⟩],[⟨false,true,true,true,false,true,false,false,false,false,false,0,some (.own 3),some 4,true,2,none,false,false,0⟩,⟨false,true,false,true,false,true,false,false,true,true,false,0,some .internalNl,some 4,true,2,none,false,false,0⟩,⟨false,true,true,true,false,true,false,false,true,true,false,0,some .internalNl,some 4,true,2,none,false,false,0⟩],[⟨false,true,true,true,false,true,false,false,false,false,false,0,some (.own 3),some 4,true,2,none,false,false,0⟩,⟨false,false,false,false,false,true,false,false,true,true,false,0,some .internalNl,some 4,true,2,none,false,false,0⟩,⟨false,true,true,true,false,true,false,false,true,true,false,0,some .internalNl,some 4,true,2,none,false,false,0⟩],[⟨true,true,true,true,false,true,false,false,false,false,false,0,some (.own 3),some 4,true,2,none,false,false,0⟩,⟨true,false,false,false,false,true,false,false,true,true,false,0,some .internalNl,some 4,true,2,none,false,false,0⟩,⟨true,true,true,true,false,true,false,false,true,true,false,0,some .internalNl,some 4,true,2,none,false,false,0⟩],[⟨true,true,true,true,false,true,false,false,false,false,false,0,some (.own 3),some 4,true,2,none,false,false,0⟩,⟨true,false,false,false,false,true,false,false,true,true,false,0,some .internalNl,some 4,true,2,none,false,false,0⟩,⟨true,true,true,true,false,true,false,false,true,true,false,0,some .internalNl,some 4,true,2,none,false,false,0⟩],[⟨false,true,true,true,false,true,false,false,false,false,false,0,some (.own 3),some 4,true,2,none,false,false,2⟩,⟨false,false,false,false,false,true,false,false,true,true,false,0,some .internalNl,some 4,true,2,none,false,false,2⟩,⟨false,true,true,true,false,true,false,false,true,true,false,0,some .internalNl,some 4,true,2,none,false,false,2⟩],[⟨true,true,true,true,false,true,false,false,false,false,false,0,some (.own 3),some 4,true,2,none,false,false,1⟩,⟨true,false,false,false,false,true,false,false,true,true,false,0,some .internalNl,some 4,true,2,none,false,false,1⟩,⟨true,true,true,true,false,true,false,false,true,true,false,0,some .internalNl,some 4,true,2,none,false,false,1⟩],[⟨false,true,true,true,false,true,false,false,false,false,false,0,some (.own 3),some 4,true,2,none,false,false,0⟩,⟨false,true,false,true,false,true,false,false,true,true,false,0,some .internalNl,some 4,true,2,none,false,false,0⟩,⟨false,true,true,true,false,true,false,false,true,true,false,0,some .internalNl,some 4,true,2,none,false,false,0⟩],[⟨true,true,true,true,false,true,false,false,false,false,false,0,some (.own 3),some 4,true,2,none,false,false,0⟩,⟨true,false,false,false,false,true,false,false,true,true,false,0,some .internalNl,some 4,true,2,none,false,false,0⟩,⟨true,true,true,true,false,true,false,false,true,true,false,0,some .internalNl,some 4,true,2,none,false,false,0⟩],[],[⟨true,true,true,true,false,true,false,false,false,false,false,0,some (.own 3),some 4,true,2,none,false,false,0⟩,⟨true,false,false,false,false,true,false,false,true,true,false,0,some .internalNl,some 4,true,2,none,false,false,0⟩,⟨true,true,true,true,false,true,false,false,true,true,false,0,some .internalNl,some 4,true,2,none,false,false,0⟩],[]]
theorem sql_line_bClosed : closed sql_line_rows sql_line_bTab BA.init (BA.succ ⟨true, false, true, false⟩ sql_line_M) (BA.eofOk ⟨true, false, true, false⟩ sql_line_M) = true := by
  decide +kernel
def sql_line_B : BCert ⟨true, false, true, false⟩ sql_line_M := ⟨sql_line_D, sql_line_bTab, sql_line_bClosed⟩

end Ohcount.Cert
