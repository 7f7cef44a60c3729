import Verif.Cert.N1
import Verif.RagelSolid

/-! Generated by tools/gen_solid.py. -/

namespace Ohcount.Cert
open Ohcount.Ragel Ohcount.Gram

set_option maxRecDepth 100000

def cs_line_wTab : List (List WA) := [[⟨none,false,false,false,none⟩],[⟨some (.own 0),false,false,false,some 0⟩],[⟨some .newline,true,false,false,none⟩],[⟨some .newline,true,false,true,some 3⟩],[⟨some (.own 3),true,false,true,some 4⟩],[⟨some (.own 3),true,false,true,some 1⟩],[⟨some (.own 3),true,true,true,some 4⟩,⟨some (.own 3),false,true,true,some 4⟩,⟨some (.own 3),true,false,true,some 4⟩,⟨some (.own 3),false,false,true,some 4⟩],[⟨some (.own 3),true,true,true,some 4⟩,⟨some (.own 3),true,false,true,some 4⟩],[⟨some (.own 3),true,true,true,some 1⟩,⟨some (.own 3),false,true,false,some 1⟩,⟨some (.own 3),true,false,true,some 1⟩,⟨some (.own 3),false,false,false,some 1⟩],[⟨some (.own 3),true,true,true,some 4⟩,⟨some (.own 3),false,true,true,some 4⟩]]
theorem cs_line_wClosed : closed cs_line_rows cs_line_wTab WA.init (WA.succ cs_line_M) (WA.eofOk cs_line_M) = true := by
  decide +kernel
def cs_line_W : WCert cs_line_M := ⟨cs_line_D, cs_line_wTab, cs_line_wClosed⟩

def cmake_line_wTab : List (List WA) := [[⟨none,false,false,false,none⟩],[⟨some (.own 0),false,false,false,some 0⟩],[⟨some .newline,true,false,false,none⟩],[⟨some .newline,true,false,true,some 3⟩],[⟨some (.own 3),true,false,true,some 4⟩],[⟨some (.own 3),true,false,true,some 1⟩],[⟨some (.own 3),true,true,true,some 4⟩,⟨some (.own 3),true,false,true,some 4⟩,⟨some .internalNl,true,true,true,some 4⟩,⟨some .internalNl,true,false,true,some 4⟩],[⟨some (.own 3),false,true,true,some 4⟩,⟨some (.own 3),false,false,true,some 4⟩,⟨some .internalNl,false,true,true,some 4⟩,⟨some .internalNl,false,false,true,some 4⟩],[⟨some (.own 3),true,true,true,some 4⟩,⟨some (.own 3),true,false,true,some 4⟩,⟨some .internalNl,true,false,true,some 4⟩,⟨some .internalNl,true,true,true,some 4⟩],[⟨some (.own 3),true,true,true,some 4⟩,⟨some (.own 3),true,false,true,some 4⟩,⟨some .internalNl,true,true,true,some 4⟩,⟨some .internalNl,true,false,true,some 4⟩],[⟨some (.own 3),true,true,true,some 4⟩,⟨some (.own 3),true,false,true,some 4⟩,⟨some .internalNl,true,true,true,some 4⟩,⟨some .internalNl,true,false,true,some 4⟩],[⟨some (.own 3),true,true,true,some 4⟩,⟨some (.own 3),true,false,true,some 4⟩,⟨some .internalNl,true,true,true,some 4⟩,⟨some .internalNl,true,false,true,some 4⟩],[⟨some (.own 3),true,true,true,some 4⟩,⟨some (.own 3),true,false,true,some 4⟩,⟨some .internalNl,true,true,true,some 4⟩,⟨some .internalNl,true,false,true,some 4⟩],[⟨some (.own 3),true,true,true,some 1⟩,⟨some (.own 3),false,true,false,some 1⟩,⟨some (.own 3),true,false,true,some 1⟩,⟨some (.own 3),false,false,false,some 1⟩],[⟨some .internalNl,true,true,true,some 4⟩,⟨some (.own 3),true,true,true,some 4⟩],[⟨some .internalNl,true,true,true,some 4⟩],[⟨some (.own 3),true,true,true,some 4⟩,⟨some (.own 3),false,true,true,some 4⟩,⟨some .internalNl,true,true,true,some 4⟩,⟨some .internalNl,false,true,true,some 4⟩]]
theorem cmake_line_wClosed : closed cmake_line_rows cmake_line_wTab WA.init (WA.succ cmake_line_M) (WA.eofOk cmake_line_M) = true := by
  decide +kernel
def cmake_line_W : WCert cmake_line_M := ⟨cmake_line_D, cmake_line_wTab, cmake_line_wClosed⟩

def ebuild_line_wTab : List (List WA) := [[⟨none,false,false,false,none⟩],[⟨some (.own 0),false,false,false,some 0⟩],[⟨some .newline,true,false,false,none⟩],[⟨some .newline,true,false,true,some 3⟩],[⟨some (.own 3),true,false,true,some 4⟩],[⟨some (.own 3),true,false,true,some 1⟩],[⟨some (.own 3),true,false,true,some 4⟩],[⟨some (.own 3),true,true,true,some 4⟩,⟨some (.own 3),false,true,true,some 4⟩,⟨some (.own 3),true,false,true,some 4⟩,⟨some (.own 3),false,false,true,some 4⟩],[⟨some (.own 3),true,true,true,some 4⟩,⟨some (.own 3),true,false,true,some 4⟩],[⟨some (.own 3),true,true,true,some 1⟩,⟨some (.own 3),false,true,false,some 1⟩,⟨some (.own 3),true,false,true,some 1⟩,⟨some (.own 3),false,false,false,some 1⟩],[⟨some (.own 3),true,true,true,some 4⟩,⟨some (.own 3),false,true,true,some 4⟩,⟨some (.own 3),true,false,true,some 4⟩,⟨some (.own 3),false,false,true,some 4⟩],[⟨some (.own 3),true,true,true,some 4⟩,⟨some (.own 3),true,false,true,some 4⟩],[⟨some (.own 3),true,true,true,some 4⟩,⟨some (.own 3),false,true,true,some 4⟩],[⟨some (.own 3),true,true,true,some 4⟩,⟨some (.own 3),false,true,true,some 4⟩]]
theorem ebuild_line_wClosed : closed ebuild_line_rows ebuild_line_wTab WA.init (WA.succ ebuild_line_M) (WA.eofOk ebuild_line_M) = true := by
  decide +kernel
def ebuild_line_W : WCert ebuild_line_M := ⟨ebuild_line_D, ebuild_line_wTab, ebuild_line_wClosed⟩

def ffree_line_wTab : List (List WA) := [[⟨none,false,false,false,none⟩],[⟨some (.own 0),false,false,false,some 0⟩],[⟨some .newline,true,false,false,none⟩],[⟨some .newline,true,false,true,some 3⟩],[⟨some (.own 3),true,false,true,some 1⟩],[⟨some (.own 3),true,false,true,some 4⟩],[⟨some (.own 3),true,false,true,some 4⟩],[⟨some (.own 3),true,true,true,some 1⟩,⟨some (.own 3),false,true,false,some 1⟩,⟨some (.own 3),true,false,true,some 1⟩,⟨some (.own 3),false,false,false,some 1⟩],[⟨some (.own 3),true,true,true,some 4⟩,⟨some .internalNl,true,true,true,some 4⟩,⟨some .internalNl,true,false,true,some 4⟩,⟨some (.own 3),true,false,true,some 4⟩],[⟨some (.own 3),false,true,true,some 4⟩,⟨some .internalNl,false,true,true,some 4⟩,⟨some .internalNl,false,false,true,some 4⟩,⟨some (.own 3),false,false,true,some 4⟩],[⟨some (.own 3),true,true,true,some 4⟩,⟨some .internalNl,true,true,true,some 4⟩,⟨some .internalNl,true,false,true,some 4⟩,⟨some (.own 3),true,false,true,some 4⟩],[⟨some (.own 3),true,true,true,some 4⟩,⟨some .internalNl,true,true,true,some 4⟩,⟨some .internalNl,true,false,true,some 4⟩,⟨some (.own 3),true,false,true,some 4⟩],[⟨some (.own 3),true,true,true,some 4⟩,⟨some .internalNl,true,true,true,some 4⟩,⟨some .internalNl,true,false,true,some 4⟩,⟨some (.own 3),true,false,true,some 4⟩],[⟨some (.own 3),true,true,true,some 4⟩,⟨some .internalNl,true,true,true,some 4⟩,⟨some .internalNl,true,false,true,some 4⟩,⟨some (.own 3),true,false,true,some 4⟩],[⟨some (.own 3),true,true,true,some 4⟩,⟨some .internalNl,true,true,true,some 4⟩,⟨some .internalNl,true,false,true,some 4⟩,⟨some (.own 3),true,false,true,some 4⟩],[⟨some (.own 3),false,true,true,some 4⟩,⟨some .internalNl,false,true,true,some 4⟩,⟨some .internalNl,false,false,true,some 4⟩,⟨some (.own 3),false,false,true,some 4⟩],[⟨some (.own 3),true,true,true,some 4⟩,⟨some .internalNl,true,true,true,some 4⟩,⟨some .internalNl,true,false,true,some 4⟩,⟨some (.own 3),true,false,true,some 4⟩],[⟨some (.own 3),true,true,true,some 4⟩,⟨some .internalNl,true,true,true,some 4⟩,⟨some .internalNl,true,false,true,some 4⟩,⟨some (.own 3),true,false,true,some 4⟩],[⟨some (.own 3),true,true,true,some 4⟩,⟨some .internalNl,true,true,true,some 4⟩,⟨some .internalNl,true,false,true,some 4⟩,⟨some (.own 3),true,false,true,some 4⟩],[⟨some (.own 3),true,true,true,some 4⟩,⟨some .internalNl,true,true,true,some 4⟩,⟨some .internalNl,true,false,true,some 4⟩,⟨some (.own 3),true,false,true,some 4⟩],[⟨some .internalNl,true,true,true,some 4⟩,⟨some (.own 3),true,true,true,some 4⟩],[⟨some .internalNl,true,true,true,some 4⟩],[⟨some .internalNl,true,true,true,some 4⟩,⟨some (.own 3),true,true,true,some 4⟩],[⟨some .internalNl,true,true,true,some 4⟩]]
theorem ffree_line_wClosed : closed ffree_line_rows ffree_line_wTab WA.init (WA.succ ffree_line_M) (WA.eofOk ffree_line_M) = true := by
  decide +kernel
def ffree_line_W : WCert ffree_line_M := ⟨ffree_line_D, ffree_line_wTab, ffree_line_wClosed⟩

def mathematica_line_wTab : List (List WA) := [[⟨none,false,false,false,none⟩],[⟨some (.own 0),false,false,false,some 0⟩],[⟨some .newline,true,false,false,none⟩],[⟨some .newline,true,false,true,some 3⟩],[⟨some (.own 3),true,false,true,some 4⟩],[⟨some (.own 3),true,false,true,some 4⟩],[⟨some (.own 3),true,true,true,some 4⟩,⟨some (.own 3),false,true,true,some 4⟩],[⟨some (.own 3),true,true,true,some 4⟩],[⟨some (.own 3),true,true,true,some 4⟩,⟨some .internalNl,true,true,true,some 4⟩,⟨some .internalNl,true,false,true,some 4⟩,⟨some (.own 3),true,false,true,some 4⟩],[⟨some (.own 3),false,true,true,some 4⟩,⟨some .internalNl,false,true,true,some 4⟩,⟨some .internalNl,false,false,true,some 4⟩,⟨some (.own 3),false,false,true,some 4⟩],[⟨some (.own 3),true,true,true,some 4⟩,⟨some .internalNl,true,true,true,some 4⟩,⟨some .internalNl,true,false,true,some 4⟩,⟨some (.own 3),true,false,true,some 4⟩],[⟨some (.own 3),true,true,true,some 4⟩,⟨some .internalNl,true,true,true,some 4⟩,⟨some .internalNl,true,false,true,some 4⟩,⟨some (.own 3),true,false,true,some 4⟩],[⟨some (.own 3),true,true,true,some 4⟩,⟨some .internalNl,true,true,true,some 4⟩,⟨some .internalNl,true,false,true,some 4⟩,⟨some (.own 3),true,false,true,some 4⟩],[⟨some (.own 3),true,true,true,some 4⟩,⟨some .internalNl,true,true,true,some 4⟩,⟨some .internalNl,true,false,true,some 4⟩,⟨some (.own 3),true,false,true,some 4⟩],[⟨some (.own 3),true,true,true,some 4⟩,⟨some .internalNl,true,true,true,some 4⟩,⟨some .internalNl,true,false,true,some 4⟩,⟨some (.own 3),true,false,true,some 4⟩],[⟨some (.own 3),true,true,true,some 4⟩,⟨some .internalNl,true,true,true,some 4⟩,⟨some .internalNl,true,false,true,some 4⟩,⟨some (.own 3),true,false,true,some 4⟩],[⟨some (.own 3),true,true,true,some 4⟩,⟨some .internalNl,true,true,true,some 4⟩,⟨some .internalNl,true,false,true,some 4⟩,⟨some (.own 3),true,false,true,some 4⟩],[⟨some .internalNl,true,true,true,some 4⟩,⟨some (.own 3),true,true,true,some 4⟩],[⟨some .internalNl,true,true,true,some 4⟩],[⟨some (.own 3),true,true,true,some 4⟩,⟨some .internalNl,true,true,true,some 4⟩],[⟨some (.own 3),true,true,true,some 4⟩,⟨some .internalNl,true,true,true,some 4⟩],[⟨some (.own 3),true,true,true,some 4⟩,⟨some .internalNl,true,true,true,some 4⟩]]
theorem mathematica_line_wClosed : closed mathematica_line_rows mathematica_line_wTab WA.init (WA.succ mathematica_line_M) (WA.eofOk mathematica_line_M) = true := by
  decide +kernel
def mathematica_line_W : WCert mathematica_line_M := ⟨mathematica_line_D, mathematica_line_wTab, mathematica_line_wClosed⟩

def ruby_line_wTab : List (List WA) := [[⟨none,false,false,false,none⟩],[⟨some (.own 0),false,false,false,some 0⟩],[⟨some .newline,true,false,false,none⟩],[⟨some .newline,true,false,true,some 3⟩],[⟨some (.own 3),true,false,true,some 4⟩],[⟨some (.own 3),true,false,true,some 1⟩],[⟨some (.own 3),true,false,true,some 4⟩],[⟨some (.own 3),true,false,true,some 4⟩],[⟨some (.own 3),true,false,true,some 4⟩],[⟨some (.own 3),true,false,true,some 4⟩],[⟨some (.own 3),true,false,true,some 4⟩],[⟨some (.own 3),true,true,true,some 4⟩,⟨some (.own 3),true,false,true,some 4⟩,⟨some .internalNl,true,true,true,some 4⟩,⟨some .internalNl,true,false,true,some 4⟩],[⟨some (.own 3),false,true,true,some 4⟩,⟨some (.own 3),false,false,true,some 4⟩,⟨some .internalNl,false,true,true,some 4⟩,⟨some .internalNl,false,false,true,some 4⟩],[⟨some (.own 3),true,true,true,some 4⟩,⟨some (.own 3),true,false,true,some 4⟩,⟨some .internalNl,true,false,true,some 4⟩,⟨some .internalNl,true,true,true,some 4⟩],[⟨some (.own 3),true,true,true,some 4⟩,⟨some (.own 3),true,false,true,some 4⟩,⟨some .internalNl,true,true,true,some 4⟩,⟨some .internalNl,true,false,true,some 4⟩],[⟨some (.own 3),true,true,true,some 4⟩,⟨some (.own 3),true,false,true,some 4⟩,⟨some .internalNl,true,true,true,some 4⟩,⟨some .internalNl,true,false,true,some 4⟩],[⟨some (.own 3),true,true,true,some 4⟩,⟨some (.own 3),true,false,true,some 4⟩,⟨some .internalNl,true,true,true,some 4⟩,⟨some .internalNl,true,false,true,some 4⟩],[⟨some (.own 3),true,true,true,some 4⟩,⟨some (.own 3),true,false,true,some 4⟩,⟨some .internalNl,true,true,true,some 4⟩,⟨some .internalNl,true,false,true,some 4⟩],[⟨some (.own 3),true,true,true,some 1⟩,⟨some (.own 3),false,true,false,some 1⟩,⟨some (.own 3),true,false,true,some 1⟩,⟨some (.own 3),false,false,false,some 1⟩],[⟨some (.own 3),true,true,true,some 4⟩],[⟨some (.own 3),true,true,true,some 4⟩],[⟨some (.own 3),true,true,true,some 4⟩],[⟨some (.own 3),true,true,true,some 4⟩,⟨some (.own 3),true,false,true,some 4⟩,⟨some .internalNl,true,true,true,some 4⟩,⟨some .internalNl,true,false,true,some 4⟩],[⟨some (.own 3),false,true,true,some 4⟩,⟨some (.own 3),false,false,true,some 4⟩,⟨some .internalNl,false,true,true,some 4⟩,⟨some .internalNl,false,false,true,some 4⟩],[⟨some (.own 3),true,true,true,some 4⟩,⟨some (.own 3),true,false,true,some 4⟩,⟨some .internalNl,true,false,true,some 4⟩,⟨some .internalNl,true,true,true,some 4⟩],[⟨some (.own 3),true,true,true,some 4⟩,⟨some (.own 3),true,false,true,some 4⟩,⟨some .internalNl,true,true,true,some 4⟩,⟨some .internalNl,true,false,true,some 4⟩],[⟨some (.own 3),true,true,true,some 4⟩,⟨some (.own 3),true,false,true,some 4⟩,⟨some .internalNl,true,true,true,some 4⟩,⟨some .internalNl,true,false,true,some 4⟩],[⟨some (.own 3),true,true,true,some 4⟩,⟨some (.own 3),true,false,true,some 4⟩,⟨some .internalNl,true,true,true,some 4⟩,⟨some .internalNl,true,false,true,some 4⟩],[⟨some (.own 3),true,true,true,some 4⟩,⟨some (.own 3),true,false,true,some 4⟩,⟨some .internalNl,true,true,true,some 4⟩,⟨some .internalNl,true,false,true,some 4⟩],[⟨some (.own 3),true,true,true,some 4⟩,⟨some (.own 3),false,true,true,some 4⟩,⟨some (.own 3),true,false,true,some 4⟩,⟨some (.own 3),false,false,true,some 4⟩],[⟨some (.own 3),true,true,true,some 4⟩,⟨some (.own 3),true,false,true,some 4⟩],[⟨some (.own 3),true,true,true,some 4⟩],[⟨some (.own 3),true,true,true,some 4⟩,⟨some (.own 3),true,false,true,some 4⟩,⟨some .internalNl,true,true,true,some 4⟩,⟨some .internalNl,true,false,true,some 4⟩],[⟨some (.own 3),false,true,true,some 4⟩,⟨some (.own 3),false,false,true,some 4⟩,⟨some .internalNl,false,true,true,some 4⟩,⟨some .internalNl,false,false,true,some 4⟩],[⟨some (.own 3),true,true,true,some 4⟩,⟨some (.own 3),true,false,true,some 4⟩,⟨some .internalNl,true,false,true,some 4⟩,⟨some .internalNl,true,true,true,some 4⟩],[⟨some (.own 3),true,true,true,some 4⟩,⟨some (.own 3),true,false,true,some 4⟩,⟨some .internalNl,true,true,true,some 4⟩,⟨some .internalNl,true,false,true,some 4⟩],[⟨some (.own 3),true,true,true,some 4⟩,⟨some (.own 3),true,false,true,some 4⟩,⟨some .internalNl,true,true,true,some 4⟩,⟨some .internalNl,true,false,true,some 4⟩],[⟨some (.own 3),true,true,true,some 4⟩,⟨some (.own 3),true,false,true,some 4⟩,⟨some .internalNl,true,true,true,some 4⟩,⟨some .internalNl,true,false,true,some 4⟩],[⟨some (.own 3),true,true,true,some 4⟩,⟨some (.own 3),true,false,true,some 4⟩,⟨some .internalNl,true,true,true,some 4⟩,⟨some .internalNl,true,false,true,some 4⟩],[⟨some .internalNl,true,true,true,some 4⟩,⟨some (.own 3),true,true,true,some 4⟩],[⟨some .internalNl,true,true,true,some 4⟩],[⟨some (.own 3),true,true,true,some 4⟩,⟨some (.own 3),false,true,true,some 4⟩,⟨some .internalNl,true,true,true,some 4⟩,⟨some .internalNl,false,true,true,some 4⟩],[⟨some (.own 3),true,true,true,some 4⟩,⟨some (.own 3),true,false,true,some 4⟩,⟨some .internalNl,true,true,true,some 4⟩,⟨some .internalNl,true,false,true,some 4⟩],[⟨some (.own 3),false,true,true,some 4⟩,⟨some (.own 3),false,false,true,some 4⟩,⟨some .internalNl,false,true,true,some 4⟩,⟨some .internalNl,false,false,true,some 4⟩],[⟨some (.own 3),true,true,true,some 4⟩,⟨some (.own 3),true,false,true,some 4⟩,⟨some .internalNl,true,false,true,some 4⟩,⟨some .internalNl,true,true,true,some 4⟩],[⟨some (.own 3),true,true,true,some 4⟩,⟨some (.own 3),true,false,true,some 4⟩,⟨some .internalNl,true,true,true,some 4⟩,⟨some .internalNl,true,false,true,some 4⟩],[⟨some (.own 3),true,true,true,some 4⟩,⟨some (.own 3),true,false,true,some 4⟩,⟨some .internalNl,true,true,true,some 4⟩,⟨some .internalNl,true,false,true,some 4⟩],[⟨some (.own 3),true,true,true,some 4⟩,⟨some (.own 3),true,false,true,some 4⟩,⟨some .internalNl,true,true,true,some 4⟩,⟨some .internalNl,true,false,true,some 4⟩],[⟨some (.own 3),true,true,true,some 4⟩,⟨some (.own 3),true,false,true,some 4⟩,⟨some .internalNl,true,true,true,some 4⟩,⟨some .internalNl,true,false,true,some 4⟩],[⟨some (.own 3),true,true,true,some 4⟩],[⟨some .internalNl,true,true,true,some 4⟩,⟨some (.own 3),true,true,true,some 4⟩],[⟨some .internalNl,true,true,true,some 4⟩],[⟨some (.own 3),true,true,true,some 4⟩,⟨some (.own 3),false,true,true,some 4⟩,⟨some .internalNl,true,true,true,some 4⟩,⟨some .internalNl,false,true,true,some 4⟩],[⟨some (.own 3),true,true,true,some 4⟩,⟨some (.own 3),false,true,true,some 4⟩],[⟨some (.own 3),true,true,true,some 4⟩],[⟨some .internalNl,true,true,true,some 4⟩,⟨some (.own 3),true,true,true,some 4⟩],[⟨some .internalNl,true,true,true,some 4⟩],[⟨some (.own 3),true,true,true,some 4⟩,⟨some (.own 3),false,true,true,some 4⟩,⟨some .internalNl,true,true,true,some 4⟩,⟨some .internalNl,false,true,true,some 4⟩],[⟨some .internalNl,true,true,true,some 4⟩,⟨some (.own 3),true,true,true,some 4⟩],[⟨some .internalNl,true,true,true,some 4⟩],[⟨some (.own 3),true,true,true,some 4⟩,⟨some (.own 3),false,true,true,some 4⟩,⟨some .internalNl,true,true,true,some 4⟩,⟨some .internalNl,false,true,true,some 4⟩],[⟨some (.own 3),true,true,true,some 4⟩,⟨some (.own 3),true,false,true,some 4⟩,⟨some .internalNl,true,true,true,some 4⟩,⟨some .internalNl,true,false,true,some 4⟩],[⟨some (.own 3),false,true,true,some 4⟩,⟨some (.own 3),false,false,true,some 4⟩,⟨some .internalNl,false,true,true,some 4⟩,⟨some .internalNl,false,false,true,some 4⟩],[⟨some (.own 3),true,true,true,some 4⟩,⟨some (.own 3),true,false,true,some 4⟩,⟨some .internalNl,true,false,true,some 4⟩,⟨some .internalNl,true,true,true,some 4⟩],[⟨some (.own 3),true,true,true,some 4⟩,⟨some (.own 3),true,false,true,some 4⟩,⟨some .internalNl,true,true,true,some 4⟩,⟨some .internalNl,true,false,true,some 4⟩],[⟨some (.own 3),true,true,true,some 4⟩,⟨some (.own 3),true,false,true,some 4⟩,⟨some .internalNl,true,true,true,some 4⟩,⟨some .internalNl,true,false,true,some 4⟩],[⟨some (.own 3),true,true,true,some 4⟩,⟨some (.own 3),true,false,true,some 4⟩,⟨some .internalNl,true,true,true,some 4⟩,⟨some .internalNl,true,false,true,some 4⟩],[⟨some (.own 3),true,true,true,some 4⟩,⟨some (.own 3),true,false,true,some 4⟩,⟨some .internalNl,true,true,true,some 4⟩,⟨some .internalNl,true,false,true,some 4⟩],[⟨some (.own 3),true,true,true,some 4⟩],[⟨some .internalNl,true,true,true,some 4⟩,⟨some (.own 3),true,true,true,some 4⟩],[⟨some .internalNl,true,true,true,some 4⟩],[⟨some (.own 3),true,true,true,some 4⟩,⟨some (.own 3),false,true,true,some 4⟩,⟨some .internalNl,true,true,true,some 4⟩,⟨some .internalNl,false,true,true,some 4⟩],[⟨some (.own 3),true,true,true,some 4⟩],[⟨some (.own 3),true,true,true,some 4⟩],[⟨some (.own 3),true,true,true,some 4⟩,⟨some .internalNl,true,true,true,some 4⟩,⟨some .internalNl,true,false,true,some 4⟩,⟨some (.own 3),true,false,true,some 4⟩],[⟨some (.own 3),false,true,true,some 4⟩,⟨some .internalNl,false,true,true,some 4⟩,⟨some .internalNl,false,false,true,some 4⟩,⟨some (.own 3),false,false,true,some 4⟩],[⟨some (.own 3),true,true,true,some 4⟩,⟨some .internalNl,true,true,true,some 4⟩,⟨some .internalNl,true,false,true,some 4⟩,⟨some (.own 3),true,false,true,some 4⟩],[⟨some (.own 3),true,true,true,some 4⟩,⟨some .internalNl,true,true,true,some 4⟩,⟨some .internalNl,true,false,true,some 4⟩,⟨some (.own 3),true,false,true,some 4⟩],[⟨some (.own 3),true,true,true,some 4⟩,⟨some .internalNl,true,true,true,some 4⟩,⟨some .internalNl,true,false,true,some 4⟩,⟨some (.own 3),true,false,true,some 4⟩],[⟨some (.own 3),true,true,true,some 4⟩,⟨some .internalNl,true,true,true,some 4⟩,⟨some .internalNl,true,false,true,some 4⟩,⟨some (.own 3),true,false,true,some 4⟩],[⟨some (.own 3),true,true,true,some 4⟩,⟨some .internalNl,true,true,true,some 4⟩,⟨some .internalNl,true,false,true,some 4⟩,⟨some (.own 3),true,false,true,some 4⟩],[⟨some .internalNl,true,true,true,some 4⟩,⟨some (.own 3),true,true,true,some 4⟩],[⟨some .internalNl,true,true,true,some 4⟩],[⟨some (.own 3),true,true,true,some 4⟩,⟨some .internalNl,true,true,true,some 4⟩],[⟨some (.own 3),true,true,true,some 4⟩,⟨some .internalNl,true,true,true,some 4⟩]]
theorem ruby_line_wClosed : closed ruby_line_rows ruby_line_wTab WA.init (WA.succ ruby_line_M) (WA.eofOk ruby_line_M) = true := by
  decide +kernel
def ruby_line_W : WCert ruby_line_M := ⟨ruby_line_D, ruby_line_wTab, ruby_line_wClosed⟩

def sql_line_wTab : List (List WA) := [[⟨none,false,false,false,none⟩],[⟨some (.own 0),false,false,false,some 0⟩],[⟨some .newline,true,false,false,none⟩],[⟨some .newline,true,false,true,some 3⟩],[⟨some (.own 3),true,false,true,some 4⟩],[⟨some (.own 3),true,false,true,some 1⟩],[⟨some (.own 3),true,false,true,some 4⟩],[⟨some (.own 3),true,false,true,some 4⟩],[⟨some (.own 3),true,false,true,some 4⟩],[⟨some (.own 3),true,false,true,some 4⟩],[⟨some (.own 3),true,true,true,some 4⟩,⟨some (.own 3),false,true,true,some 4⟩,⟨some (.own 3),true,false,true,some 4⟩,⟨some (.own 3),false,false,true,some 4⟩],[⟨some (.own 3),true,true,true,some 4⟩,⟨some (.own 3),true,false,true,some 4⟩],[⟨some (.own 3),true,true,true,some 1⟩,⟨some (.own 3),false,true,false,some 1⟩,⟨some (.own 3),true,false,true,some 1⟩,⟨some (.own 3),false,false,false,some 1⟩],[⟨some (.own 3),true,true,true,some 4⟩,⟨some (.own 3),false,true,true,some 4⟩,⟨some (.own 3),true,false,true,some 4⟩,⟨some (.own 3),false,false,true,some 4⟩],[⟨some (.own 3),true,true,true,some 4⟩,⟨some (.own 3),true,false,true,some 4⟩],[⟨some (.own 3),true,true,true,some 1⟩],[⟨some (.own 3),true,true,true,some 4⟩],[⟨some (.own 3),true,true,true,some 1⟩],[⟨some (.own 3),true,true,true,some 4⟩,⟨some .internalNl,true,true,true,some 4⟩,⟨some .internalNl,true,false,true,some 4⟩,⟨some (.own 3),true,false,true,some 4⟩],[⟨some (.own 3),false,true,true,some 4⟩,⟨some .internalNl,false,true,true,some 4⟩,⟨some .internalNl,false,false,true,some 4⟩,⟨some (.own 3),false,false,true,some 4⟩],[⟨some (.own 3),true,true,true,some 4⟩,⟨some .internalNl,true,true,true,some 4⟩,⟨some .internalNl,true,false,true,some 4⟩,⟨some (.own 3),true,false,true,some 4⟩],[⟨some (.own 3),true,true,true,some 4⟩,⟨some .internalNl,true,true,true,some 4⟩,⟨some .internalNl,true,false,true,some 4⟩,⟨some (.own 3),true,false,true,some 4⟩],[⟨some (.own 3),true,true,true,some 4⟩,⟨some .internalNl,true,true,true,some 4⟩,⟨some .internalNl,true,false,true,some 4⟩,⟨some (.own 3),true,false,true,some 4⟩],[⟨some (.own 3),true,true,true,some 4⟩,⟨some .internalNl,true,true,true,some 4⟩,⟨some .internalNl,true,false,true,some 4⟩,⟨some (.own 3),true,false,true,some 4⟩],[⟨some (.own 3),true,true,true,some 4⟩,⟨some (.own 3),false,true,true,some 4⟩],[⟨some (.own 3),true,true,true,some 4⟩,⟨some (.own 3),false,true,true,some 4⟩],[⟨some (.own 3),true,true,true,some 4⟩,⟨some .internalNl,true,true,true,some 4⟩,⟨some .internalNl,true,false,true,some 4⟩,⟨some (.own 3),true,false,true,some 4⟩],[⟨some (.own 3),false,true,true,some 4⟩,⟨some .internalNl,false,true,true,some 4⟩,⟨some .internalNl,false,false,true,some 4⟩,⟨some (.own 3),false,false,true,some 4⟩],[⟨some (.own 3),true,true,true,some 4⟩,⟨some .internalNl,true,true,true,some 4⟩,⟨some .internalNl,true,false,true,some 4⟩,⟨some (.own 3),true,false,true,some 4⟩],[⟨some (.own 3),true,true,true,some 4⟩,⟨some .internalNl,true,true,true,some 4⟩,⟨some .internalNl,true,false,true,some 4⟩,⟨some (.own 3),true,false,true,some 4⟩],[⟨some (.own 3),true,true,true,some 4⟩,⟨some .internalNl,true,true,true,some 4⟩,⟨some .internalNl,true,false,true,some 4⟩,⟨some (.own 3),true,false,true,some 4⟩],[⟨some (.own 3),true,true,true,some 4⟩,⟨some .internalNl,true,true,true,some 4⟩,⟨some .internalNl,true,false,true,some 4⟩,⟨some (.own 3),true,false,true,some 4⟩],[⟨some (.own 3),true,true,true,some 4⟩,⟨some .internalNl,true,true,true,some 4⟩,⟨some .internalNl,true,false,true,some 4⟩,⟨some (.own 3),true,false,true,some 4⟩],[⟨some .internalNl,true,true,true,some 4⟩,⟨some (.own 3),true,true,true,some 4⟩],[⟨some .internalNl,true,true,true,some 4⟩],[⟨some .internalNl,true,true,true,some 4⟩,⟨some (.own 3),true,true,true,some 4⟩],[⟨some .internalNl,true,true,true,some 4⟩]]
theorem sql_line_wClosed : closed sql_line_rows sql_line_wTab WA.init (WA.succ sql_line_M) (WA.eofOk sql_line_M) = true := by
  decide +kernel
def sql_line_W : WCert sql_line_M := ⟨sql_line_D, sql_line_wTab, sql_line_wClosed⟩

end Ohcount.Cert
