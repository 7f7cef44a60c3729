import Verif.Cert.N10
import Verif.RagelSolid

/-! Generated by tools/gen_solid.py. -/

namespace Ohcount.Cert
open Ohcount.Ragel Ohcount.Gram

set_option maxRecDepth 100000

def asm_line_wTab : List (List WA) := [[⟨none,false,false,false,none⟩],[⟨some (.own 0),false,false,false,some 0⟩],[⟨some .newline,true,false,false,none⟩],[⟨some .newline,true,false,true,some 3⟩],[⟨some (.own 7),true,false,true,some 1⟩],[⟨some (.own 7),true,false,true,some 4⟩],[⟨some (.own 7),true,false,true,some 4⟩],[⟨some (.own 7),true,false,true,some 1⟩],[⟨some (.own 7),true,true,true,some 1⟩,⟨some (.own 7),false,true,false,some 1⟩,⟨some (.own 7),true,false,true,some 1⟩,⟨some (.own 7),false,false,false,some 1⟩],[⟨some (.own 7),true,true,true,some 4⟩,⟨some (.own 7),false,true,true,some 4⟩,⟨some (.own 7),true,false,true,some 4⟩,⟨some (.own 7),false,false,true,some 4⟩],[⟨some (.own 7),true,true,true,some 4⟩,⟨some (.own 7),true,false,true,some 4⟩],[⟨some (.own 7),true,true,true,some 4⟩],[⟨some (.own 7),true,true,true,some 1⟩],[⟨some (.own 7),true,true,true,some 4⟩,⟨some (.own 7),false,true,true,some 4⟩],[⟨some (.own 7),true,true,true,some 4⟩,⟨some .internalNl,true,true,true,some 4⟩,⟨some .internalNl,true,false,true,some 4⟩,⟨some (.own 7),true,false,true,some 4⟩],[⟨some (.own 7),false,true,true,some 4⟩,⟨some .internalNl,false,true,true,some 4⟩,⟨some .internalNl,false,false,true,some 4⟩,⟨some (.own 7),false,false,true,some 4⟩],[⟨some (.own 7),true,true,true,some 4⟩,⟨some .internalNl,true,true,true,some 4⟩,⟨some .internalNl,true,false,true,some 4⟩,⟨some (.own 7),true,false,true,some 4⟩],[⟨some (.own 7),true,true,true,some 4⟩,⟨some .internalNl,true,true,true,some 4⟩,⟨some .internalNl,true,false,true,some 4⟩,⟨some (.own 7),true,false,true,some 4⟩],[⟨some (.own 7),true,true,true,some 4⟩,⟨some .internalNl,true,true,true,some 4⟩,⟨some .internalNl,true,false,true,some 4⟩,⟨some (.own 7),true,false,true,some 4⟩],[⟨some (.own 7),true,true,true,some 4⟩,⟨some .internalNl,true,true,true,some 4⟩,⟨some .internalNl,true,false,true,some 4⟩,⟨some (.own 7),true,false,true,some 4⟩],[⟨some (.own 7),true,true,true,some 4⟩,⟨some .internalNl,true,true,true,some 4⟩,⟨some .internalNl,true,false,true,some 4⟩,⟨some (.own 7),true,false,true,some 4⟩],[⟨some .internalNl,true,true,true,some 4⟩,⟨some (.own 7),true,true,true,some 4⟩],[⟨some .internalNl,true,true,true,some 4⟩]]
theorem asm_line_wClosed : closed asm_line_rows asm_line_wTab WA.init (WA.succ asm_line_M) (WA.eofOk asm_line_M) = true := by
  decide +kernel
def asm_line_W : WCert asm_line_M := ⟨asm_line_D, asm_line_wTab, asm_line_wClosed⟩

def awk_line_wTab : List (List WA) := [[⟨none,false,false,false,none⟩],[⟨some (.own 0),false,false,false,some 0⟩],[⟨some .newline,true,false,false,none⟩],[⟨some .newline,true,false,true,some 3⟩],[⟨some (.own 3),true,false,true,some 4⟩],[⟨some (.own 3),true,false,true,some 1⟩],[⟨some (.own 3),true,false,true,some 4⟩],[⟨some (.own 3),true,true,true,some 4⟩,⟨some (.own 3),false,true,true,some 4⟩,⟨some (.own 3),true,false,true,some 4⟩,⟨some (.own 3),false,false,true,some 4⟩],[⟨some (.own 3),true,true,true,some 4⟩,⟨some (.own 3),true,false,true,some 4⟩],[⟨some (.own 3),true,true,true,some 1⟩,⟨some (.own 3),false,true,false,some 1⟩,⟨some (.own 3),true,false,true,some 1⟩,⟨some (.own 3),false,false,false,some 1⟩],[⟨some (.own 3),true,true,true,some 4⟩,⟨some (.own 3),false,true,true,some 4⟩,⟨some (.own 3),true,false,true,some 4⟩,⟨some (.own 3),false,false,true,some 4⟩],[⟨some (.own 3),true,true,true,some 4⟩,⟨some (.own 3),true,false,true,some 4⟩],[⟨some (.own 3),true,true,true,some 4⟩,⟨some (.own 3),false,true,true,some 4⟩],[⟨some (.own 3),true,true,true,some 4⟩,⟨some (.own 3),false,true,true,some 4⟩]]
theorem awk_line_wClosed : closed awk_line_rows awk_line_wTab WA.init (WA.succ awk_line_M) (WA.eofOk awk_line_M) = true := by
  decide +kernel
def awk_line_W : WCert awk_line_M := ⟨awk_line_D, awk_line_wTab, awk_line_wClosed⟩

def c_line_wTab : List (List WA) := [[⟨none,false,false,false,none⟩],[⟨some (.own 0),false,false,false,some 0⟩],[⟨some .newline,true,false,false,none⟩],[⟨some .newline,true,false,true,some 3⟩],[⟨some (.own 8),true,false,true,some 4⟩],[⟨some (.own 8),true,false,true,some 4⟩],[⟨some (.own 8),true,false,true,some 4⟩],[⟨some (.own 8),true,true,true,some 4⟩,⟨some .internalNl,true,true,true,some 4⟩,⟨some .internalNl,true,false,true,some 4⟩,⟨some (.own 8),true,false,true,some 4⟩],[⟨some (.own 8),false,true,true,some 4⟩,⟨some .internalNl,false,true,true,some 4⟩,⟨some .internalNl,false,false,true,some 4⟩,⟨some (.own 8),false,false,true,some 4⟩],[⟨some (.own 8),true,true,true,some 4⟩,⟨some .internalNl,true,true,true,some 4⟩,⟨some .internalNl,true,false,true,some 4⟩,⟨some (.own 8),true,false,true,some 4⟩],[⟨some (.own 8),true,true,true,some 4⟩,⟨some .internalNl,true,true,true,some 4⟩,⟨some .internalNl,true,false,true,some 4⟩,⟨some (.own 8),true,false,true,some 4⟩],[⟨some (.own 8),false,true,true,some 4⟩,⟨some .internalNl,false,true,true,some 4⟩,⟨some .internalNl,false,false,true,some 4⟩,⟨some (.own 8),false,false,true,some 4⟩],[⟨some (.own 8),true,true,true,some 4⟩,⟨some .internalNl,true,true,true,some 4⟩,⟨some .internalNl,true,false,true,some 4⟩,⟨some (.own 8),true,false,true,some 4⟩],[⟨some (.own 8),true,true,true,some 4⟩],[⟨some (.own 8),true,true,true,some 1⟩],[⟨some (.own 8),true,true,true,some 4⟩,⟨some (.own 8),false,true,true,some 4⟩,⟨some .internalNl,true,true,true,some 4⟩,⟨some .internalNl,false,true,true,some 4⟩],[⟨some (.own 8),true,true,true,some 4⟩,⟨some .internalNl,true,true,true,some 4⟩],[⟨some (.own 8),true,true,true,some 4⟩,⟨some .internalNl,true,true,true,some 4⟩],[⟨some (.own 8),true,true,true,some 4⟩,⟨some .internalNl,true,true,true,some 4⟩],[⟨some (.own 8),true,true,true,some 4⟩,⟨some .internalNl,true,true,true,some 4⟩],[⟨some (.own 8),true,true,true,some 4⟩,⟨some (.own 8),false,true,true,some 4⟩,⟨some .internalNl,true,true,true,some 4⟩,⟨some .internalNl,false,true,true,some 4⟩],[⟨some (.own 8),true,true,true,some 4⟩,⟨some .internalNl,true,true,true,some 4⟩],[⟨some (.own 8),true,true,true,some 4⟩,⟨some .internalNl,true,true,true,some 4⟩],[⟨some (.own 8),true,true,true,some 4⟩,⟨some .internalNl,true,true,true,some 4⟩],[⟨some (.own 8),true,true,true,some 4⟩,⟨some .internalNl,true,true,true,some 4⟩],[⟨some (.own 8),true,true,true,some 4⟩,⟨some .internalNl,true,true,true,some 4⟩,⟨some .internalNl,true,false,true,some 4⟩,⟨some (.own 8),true,false,true,some 4⟩],[⟨some (.own 8),false,true,true,some 4⟩,⟨some .internalNl,false,true,true,some 4⟩,⟨some .internalNl,false,false,true,some 4⟩,⟨some (.own 8),false,false,true,some 4⟩],[⟨some (.own 8),true,true,true,some 4⟩,⟨some .internalNl,true,true,true,some 4⟩,⟨some .internalNl,true,false,true,some 4⟩,⟨some (.own 8),true,false,true,some 4⟩],[⟨some (.own 8),true,true,true,some 4⟩,⟨some .internalNl,true,true,true,some 4⟩,⟨some .internalNl,true,false,true,some 4⟩,⟨some (.own 8),true,false,true,some 4⟩],[⟨some (.own 8),true,true,true,some 4⟩,⟨some .internalNl,true,true,true,some 4⟩,⟨some .internalNl,true,false,true,some 4⟩,⟨some (.own 8),true,false,true,some 4⟩],[⟨some (.own 8),true,true,true,some 4⟩,⟨some .internalNl,true,true,true,some 4⟩,⟨some .internalNl,true,false,true,some 4⟩,⟨some (.own 8),true,false,true,some 4⟩],[⟨some (.own 8),true,true,true,some 4⟩,⟨some .internalNl,true,true,true,some 4⟩,⟨some .internalNl,true,false,true,some 4⟩,⟨some (.own 8),true,false,true,some 4⟩],[⟨some (.own 8),true,true,true,some 1⟩,⟨some .internalNl,true,true,true,some 1⟩,⟨some .internalNl,true,false,true,some 1⟩,⟨some (.own 8),true,false,true,some 1⟩],[⟨some (.own 8),false,true,false,some 1⟩,⟨some .internalNl,false,true,false,some 1⟩,⟨some .internalNl,false,false,false,some 1⟩,⟨some (.own 8),false,false,false,some 1⟩],[⟨some (.own 8),true,true,true,some 1⟩,⟨some .internalNl,true,true,true,some 1⟩,⟨some .internalNl,true,false,true,some 1⟩,⟨some (.own 8),true,false,true,some 1⟩],[⟨some .internalNl,true,true,true,some 4⟩,⟨some (.own 8),true,true,true,some 4⟩],[⟨some .internalNl,true,true,true,some 4⟩],[⟨some .internalNl,true,true,true,some 4⟩,⟨some (.own 8),true,true,true,some 4⟩],[⟨some .internalNl,true,true,true,some 4⟩],[⟨some .internalNl,true,true,true,some 4⟩,⟨some (.own 8),true,true,true,some 4⟩],[⟨some .internalNl,true,true,true,some 4⟩],[⟨some (.own 8),true,true,true,some 1⟩,⟨some .internalNl,true,true,true,some 1⟩],[⟨some (.own 8),true,true,true,some 1⟩,⟨some .internalNl,true,true,true,some 1⟩],[⟨some (.own 8),true,true,true,some 1⟩,⟨some .internalNl,true,true,true,some 1⟩],[⟨some (.own 8),true,true,true,some 1⟩,⟨some .internalNl,true,true,true,some 1⟩],[⟨some (.own 8),true,true,true,some 1⟩,⟨some .internalNl,true,true,true,some 1⟩]]
theorem c_line_wClosed : closed c_line_rows c_line_wTab WA.init (WA.succ c_line_M) (WA.eofOk c_line_M) = true := by
  decide +kernel
def c_line_W : WCert c_line_M := ⟨c_line_D, c_line_wTab, c_line_wClosed⟩

def dart_line_wTab : List (List WA) := [[⟨none,false,false,false,none⟩],[⟨some (.own 0),false,false,false,some 0⟩],[⟨some .newline,true,false,false,none⟩],[⟨some .newline,true,false,true,some 2⟩],[⟨some (.own 2),true,false,true,some 3⟩],[⟨some (.own 2),true,true,true,some 3⟩],[⟨some (.own 2),true,true,true,some 1⟩],[⟨some (.own 2),true,true,true,some 3⟩,⟨some .internalNl,true,true,true,some 3⟩,⟨some .internalNl,true,false,true,some 3⟩,⟨some (.own 2),true,false,true,some 3⟩],[⟨some (.own 2),false,true,true,some 3⟩,⟨some .internalNl,false,true,true,some 3⟩,⟨some .internalNl,false,false,true,some 3⟩,⟨some (.own 2),false,false,true,some 3⟩],[⟨some (.own 2),true,true,true,some 3⟩,⟨some .internalNl,true,true,true,some 3⟩,⟨some .internalNl,true,false,true,some 3⟩,⟨some (.own 2),true,false,true,some 3⟩],[⟨some (.own 2),true,true,true,some 3⟩,⟨some .internalNl,true,true,true,some 3⟩,⟨some .internalNl,true,false,true,some 3⟩,⟨some (.own 2),true,false,true,some 3⟩],[⟨some (.own 2),true,true,true,some 3⟩,⟨some .internalNl,true,true,true,some 3⟩,⟨some .internalNl,true,false,true,some 3⟩,⟨some (.own 2),true,false,true,some 3⟩],[⟨some (.own 2),true,true,true,some 3⟩,⟨some .internalNl,true,true,true,some 3⟩,⟨some .internalNl,true,false,true,some 3⟩,⟨some (.own 2),true,false,true,some 3⟩],[⟨some (.own 2),true,true,true,some 3⟩,⟨some .internalNl,true,true,true,some 3⟩,⟨some .internalNl,true,false,true,some 3⟩,⟨some (.own 2),true,false,true,some 3⟩],[⟨some (.own 2),true,true,true,some 1⟩,⟨some .internalNl,true,true,true,some 1⟩,⟨some .internalNl,true,false,true,some 1⟩,⟨some (.own 2),true,false,true,some 1⟩],[⟨some (.own 2),false,true,false,some 1⟩,⟨some .internalNl,false,true,false,some 1⟩,⟨some .internalNl,false,false,false,some 1⟩,⟨some (.own 2),false,false,false,some 1⟩],[⟨some (.own 2),true,true,true,some 1⟩,⟨some .internalNl,true,true,true,some 1⟩,⟨some .internalNl,true,false,true,some 1⟩,⟨some (.own 2),true,false,true,some 1⟩],[⟨some .internalNl,true,true,true,some 3⟩,⟨some (.own 2),true,true,true,some 3⟩],[⟨some .internalNl,true,true,true,some 3⟩],[⟨some (.own 2),true,true,true,some 1⟩,⟨some .internalNl,true,true,true,some 1⟩],[⟨some (.own 2),true,true,true,some 1⟩,⟨some .internalNl,true,true,true,some 1⟩],[⟨some (.own 2),true,true,true,some 1⟩,⟨some .internalNl,true,true,true,some 1⟩],[⟨some (.own 2),true,true,true,some 1⟩,⟨some .internalNl,true,true,true,some 1⟩],[⟨some (.own 2),true,true,true,some 1⟩,⟨some .internalNl,true,true,true,some 1⟩]]
theorem dart_line_wClosed : closed dart_line_rows dart_line_wTab WA.init (WA.succ dart_line_M) (WA.eofOk dart_line_M) = true := by
  decide +kernel
def dart_line_W : WCert dart_line_M := ⟨dart_line_D, dart_line_wTab, dart_line_wClosed⟩

def eiffel_line_wTab : List (List WA) := [[⟨none,false,false,false,none⟩],[⟨some (.own 0),false,false,false,some 0⟩],[⟨some .newline,true,false,false,none⟩],[⟨some .newline,true,false,true,some 3⟩],[⟨some (.own 3),true,false,true,some 4⟩],[⟨some (.own 3),true,false,true,some 4⟩],[⟨some (.own 3),true,true,true,some 4⟩,⟨some (.own 3),false,true,true,some 4⟩,⟨some (.own 3),true,false,true,some 4⟩,⟨some (.own 3),false,false,true,some 4⟩],[⟨some (.own 3),true,true,true,some 1⟩],[⟨some (.own 3),true,true,true,some 1⟩,⟨some (.own 3),false,true,false,some 1⟩,⟨some (.own 3),true,false,true,some 1⟩,⟨some (.own 3),false,false,false,some 1⟩]]
theorem eiffel_line_wClosed : closed eiffel_line_rows eiffel_line_wTab WA.init (WA.succ eiffel_line_M) (WA.eofOk eiffel_line_M) = true := by
  decide +kernel
def eiffel_line_W : WCert eiffel_line_M := ⟨eiffel_line_D, eiffel_line_wTab, eiffel_line_wClosed⟩

def groovy_line_wTab : List (List WA) := [[⟨none,false,false,false,none⟩],[⟨some (.own 0),false,false,false,some 0⟩],[⟨some .newline,true,false,false,none⟩],[⟨some .newline,true,false,true,some 3⟩],[⟨some (.own 3),true,false,true,some 4⟩],[⟨some (.own 3),true,false,true,some 4⟩],[⟨some (.own 3),true,false,true,some 4⟩],[⟨some (.own 3),true,true,true,some 4⟩,⟨some .internalNl,true,true,true,some 4⟩,⟨some .internalNl,true,false,true,some 4⟩,⟨some (.own 3),true,false,true,some 4⟩],[⟨some (.own 3),false,true,true,some 4⟩,⟨some .internalNl,false,true,true,some 4⟩,⟨some .internalNl,false,false,true,some 4⟩,⟨some (.own 3),false,false,true,some 4⟩],[⟨some (.own 3),true,true,true,some 4⟩,⟨some .internalNl,true,true,true,some 4⟩,⟨some .internalNl,true,false,true,some 4⟩,⟨some (.own 3),true,false,true,some 4⟩],[⟨some (.own 3),true,true,true,some 4⟩,⟨some .internalNl,true,true,true,some 4⟩,⟨some .internalNl,true,false,true,some 4⟩,⟨some (.own 3),true,false,true,some 4⟩],[⟨some (.own 3),false,true,true,some 4⟩,⟨some .internalNl,false,true,true,some 4⟩,⟨some .internalNl,false,false,true,some 4⟩,⟨some (.own 3),false,false,true,some 4⟩],[⟨some (.own 3),true,true,true,some 4⟩,⟨some .internalNl,true,true,true,some 4⟩,⟨some .internalNl,true,false,true,some 4⟩,⟨some (.own 3),true,false,true,some 4⟩],[⟨some (.own 3),true,true,true,some 4⟩],[⟨some (.own 3),true,true,true,some 1⟩],[⟨some (.own 3),true,true,true,some 4⟩,⟨some (.own 3),false,true,true,some 4⟩,⟨some .internalNl,true,true,true,some 4⟩,⟨some .internalNl,false,true,true,some 4⟩],[⟨some (.own 3),true,true,true,some 4⟩,⟨some .internalNl,true,true,true,some 4⟩],[⟨some (.own 3),true,true,true,some 4⟩,⟨some .internalNl,true,true,true,some 4⟩],[⟨some (.own 3),true,true,true,some 4⟩,⟨some .internalNl,true,true,true,some 4⟩],[⟨some (.own 3),true,true,true,some 4⟩,⟨some .internalNl,true,true,true,some 4⟩],[⟨some (.own 3),true,true,true,some 4⟩,⟨some (.own 3),false,true,true,some 4⟩,⟨some .internalNl,true,true,true,some 4⟩,⟨some .internalNl,false,true,true,some 4⟩],[⟨some (.own 3),true,true,true,some 4⟩,⟨some .internalNl,true,true,true,some 4⟩],[⟨some (.own 3),true,true,true,some 4⟩,⟨some .internalNl,true,true,true,some 4⟩],[⟨some (.own 3),true,true,true,some 4⟩,⟨some .internalNl,true,true,true,some 4⟩],[⟨some (.own 3),true,true,true,some 4⟩,⟨some .internalNl,true,true,true,some 4⟩],[⟨some (.own 3),true,true,true,some 4⟩,⟨some .internalNl,true,true,true,some 4⟩,⟨some .internalNl,true,false,true,some 4⟩,⟨some (.own 3),true,false,true,some 4⟩],[⟨some (.own 3),false,true,true,some 4⟩,⟨some .internalNl,false,true,true,some 4⟩,⟨some .internalNl,false,false,true,some 4⟩,⟨some (.own 3),false,false,true,some 4⟩],[⟨some (.own 3),true,true,true,some 4⟩,⟨some .internalNl,true,true,true,some 4⟩,⟨some .internalNl,true,false,true,some 4⟩,⟨some (.own 3),true,false,true,some 4⟩],[⟨some (.own 3),true,true,true,some 4⟩,⟨some .internalNl,true,true,true,some 4⟩,⟨some .internalNl,true,false,true,some 4⟩,⟨some (.own 3),true,false,true,some 4⟩],[⟨some (.own 3),true,true,true,some 4⟩,⟨some .internalNl,true,true,true,some 4⟩,⟨some .internalNl,true,false,true,some 4⟩,⟨some (.own 3),true,false,true,some 4⟩],[⟨some (.own 3),true,true,true,some 4⟩,⟨some .internalNl,true,true,true,some 4⟩,⟨some .internalNl,true,false,true,some 4⟩,⟨some (.own 3),true,false,true,some 4⟩],[⟨some (.own 3),true,true,true,some 4⟩,⟨some .internalNl,true,true,true,some 4⟩,⟨some .internalNl,true,false,true,some 4⟩,⟨some (.own 3),true,false,true,some 4⟩],[⟨some (.own 3),true,true,true,some 1⟩,⟨some .internalNl,true,true,true,some 1⟩,⟨some .internalNl,true,false,true,some 1⟩,⟨some (.own 3),true,false,true,some 1⟩],[⟨some (.own 3),false,true,false,some 1⟩,⟨some .internalNl,false,true,false,some 1⟩,⟨some .internalNl,false,false,false,some 1⟩,⟨some (.own 3),false,false,false,some 1⟩],[⟨some (.own 3),true,true,true,some 1⟩,⟨some .internalNl,true,true,true,some 1⟩,⟨some .internalNl,true,false,true,some 1⟩,⟨some (.own 3),true,false,true,some 1⟩],[⟨some .internalNl,true,true,true,some 4⟩,⟨some (.own 3),true,true,true,some 4⟩],[⟨some .internalNl,true,true,true,some 4⟩],[⟨some .internalNl,true,true,true,some 4⟩,⟨some (.own 3),true,true,true,some 4⟩],[⟨some .internalNl,true,true,true,some 4⟩],[⟨some .internalNl,true,true,true,some 4⟩,⟨some (.own 3),true,true,true,some 4⟩],[⟨some .internalNl,true,true,true,some 4⟩],[⟨some (.own 3),true,true,true,some 1⟩,⟨some .internalNl,true,true,true,some 1⟩],[⟨some (.own 3),true,true,true,some 1⟩,⟨some .internalNl,true,true,true,some 1⟩],[⟨some (.own 3),true,true,true,some 1⟩,⟨some .internalNl,true,true,true,some 1⟩],[⟨some (.own 3),true,true,true,some 1⟩,⟨some .internalNl,true,true,true,some 1⟩],[⟨some (.own 3),true,true,true,some 1⟩,⟨some .internalNl,true,true,true,some 1⟩]]
theorem groovy_line_wClosed : closed groovy_line_rows groovy_line_wTab WA.init (WA.succ groovy_line_M) (WA.eofOk groovy_line_M) = true := by
  decide +kernel
def groovy_line_W : WCert groovy_line_M := ⟨groovy_line_D, groovy_line_wTab, groovy_line_wClosed⟩

def metafont_line_wTab : List (List WA) := [[⟨none,false,false,false,none⟩],[⟨some (.own 0),false,false,false,some 0⟩],[⟨some .newline,true,false,false,none⟩],[⟨some .newline,true,false,true,some 3⟩],[⟨some (.own 3),true,false,true,some 4⟩],[⟨some (.own 3),false,false,true,some 1⟩],[⟨some (.own 3),true,true,true,some 4⟩,⟨some (.own 3),false,true,true,some 4⟩,⟨some (.own 3),true,false,true,some 4⟩,⟨some (.own 3),false,false,true,some 4⟩],[⟨some (.own 3),true,true,true,some 4⟩,⟨some (.own 3),true,false,true,some 4⟩],[⟨some (.own 3),true,false,true,some 1⟩,⟨some (.own 3),false,false,false,some 1⟩,⟨some (.own 3),true,true,true,some 1⟩,⟨some (.own 3),false,true,false,some 1⟩],[⟨some (.own 3),true,true,true,some 4⟩,⟨some (.own 3),false,true,true,some 4⟩]]
theorem metafont_line_wClosed : closed metafont_line_rows metafont_line_wTab WA.init (WA.succ metafont_line_M) (WA.eofOk metafont_line_M) = true := by
  decide +kernel
def metafont_line_W : WCert metafont_line_M := ⟨metafont_line_D, metafont_line_wTab, metafont_line_wClosed⟩

def rebol_line_wTab : List (List WA) := [[⟨none,false,false,false,none⟩],[⟨some (.own 0),false,false,false,some 0⟩],[⟨some .newline,true,false,false,none⟩],[⟨some .newline,true,false,true,some 3⟩],[⟨some (.own 3),true,false,true,some 4⟩],[⟨some (.own 3),true,false,true,some 1⟩],[⟨some (.own 3),true,false,true,some 4⟩],[⟨some (.own 3),true,true,true,some 4⟩,⟨some (.own 3),false,true,true,some 4⟩,⟨some (.own 3),true,true,true,some 2⟩,⟨some (.own 3),false,true,true,some 2⟩,⟨some (.own 3),true,false,true,some 2⟩,⟨some (.own 3),false,false,true,some 2⟩,⟨some (.own 3),true,false,true,some 4⟩,⟨some (.own 3),false,false,true,some 4⟩],[⟨some (.own 3),true,true,true,some 4⟩,⟨some (.own 3),true,true,true,some 2⟩,⟨some (.own 3),true,false,true,some 2⟩,⟨some (.own 3),true,false,true,some 4⟩],[⟨some (.own 3),true,true,true,some 1⟩,⟨some (.own 3),false,true,false,some 1⟩,⟨some (.own 3),true,false,true,some 1⟩,⟨some (.own 3),false,false,false,some 1⟩],[⟨some (.own 3),true,true,true,some 4⟩,⟨some (.own 3),false,true,true,some 4⟩,⟨some (.own 3),true,true,true,some 2⟩,⟨some (.own 3),false,true,true,some 2⟩,⟨some .internalNl,true,true,true,some 2⟩,⟨some .internalNl,false,true,true,some 2⟩,⟨some .internalNl,true,false,true,some 2⟩,⟨some .internalNl,false,false,true,some 2⟩,⟨some (.own 3),true,false,true,some 2⟩,⟨some (.own 3),false,false,true,some 2⟩,⟨some .internalNl,true,true,true,some 4⟩,⟨some .internalNl,false,true,true,some 4⟩,⟨some .internalNl,true,false,true,some 4⟩,⟨some .internalNl,false,false,true,some 4⟩,⟨some (.own 3),true,false,true,some 4⟩,⟨some (.own 3),false,false,true,some 4⟩],[⟨some (.own 3),true,true,true,some 4⟩,⟨some (.own 3),true,true,true,some 2⟩,⟨some .internalNl,true,true,true,some 2⟩,⟨some .internalNl,true,false,true,some 2⟩,⟨some (.own 3),true,false,true,some 2⟩,⟨some .internalNl,true,true,true,some 4⟩,⟨some .internalNl,true,false,true,some 4⟩,⟨some (.own 3),true,false,true,some 4⟩],[⟨some (.own 3),true,true,true,some 4⟩,⟨some (.own 3),true,true,true,some 2⟩,⟨some .internalNl,true,true,true,some 2⟩,⟨some .internalNl,true,false,true,some 2⟩,⟨some (.own 3),true,false,true,some 2⟩,⟨some .internalNl,true,true,true,some 4⟩,⟨some .internalNl,true,false,true,some 4⟩,⟨some (.own 3),true,false,true,some 4⟩],[⟨some (.own 3),true,true,true,some 4⟩,⟨some (.own 3),true,true,true,some 2⟩,⟨some .internalNl,true,true,true,some 2⟩,⟨some .internalNl,true,false,true,some 2⟩,⟨some (.own 3),true,false,true,some 2⟩,⟨some .internalNl,true,true,true,some 4⟩,⟨some .internalNl,true,false,true,some 4⟩,⟨some (.own 3),true,false,true,some 4⟩],[⟨some (.own 3),true,true,true,some 4⟩,⟨some (.own 3),true,true,true,some 2⟩,⟨some .internalNl,true,true,true,some 2⟩,⟨some .internalNl,true,false,true,some 2⟩,⟨some (.own 3),true,false,true,some 2⟩,⟨some .internalNl,true,true,true,some 4⟩,⟨some .internalNl,true,false,true,some 4⟩,⟨some (.own 3),true,false,true,some 4⟩],[⟨some (.own 3),true,true,true,some 4⟩,⟨some (.own 3),true,true,true,some 2⟩,⟨some .internalNl,true,true,true,some 2⟩,⟨some .internalNl,true,false,true,some 2⟩,⟨some (.own 3),true,false,true,some 2⟩,⟨some .internalNl,true,true,true,some 4⟩,⟨some .internalNl,true,false,true,some 4⟩,⟨some (.own 3),true,false,true,some 4⟩],[⟨some (.own 3),true,true,true,some 4⟩,⟨some (.own 3),true,true,true,some 2⟩,⟨some .internalNl,true,true,true,some 2⟩,⟨some .internalNl,true,false,true,some 2⟩,⟨some (.own 3),true,false,true,some 2⟩,⟨some .internalNl,true,true,true,some 4⟩,⟨some .internalNl,true,false,true,some 4⟩,⟨some (.own 3),true,false,true,some 4⟩],[⟨some (.own 3),true,true,true,some 2⟩,⟨some .internalNl,true,true,true,some 2⟩,⟨some .internalNl,true,false,true,some 2⟩,⟨some (.own 3),true,false,true,some 2⟩],[⟨some (.own 3),true,true,true,some 2⟩],[⟨some .internalNl,true,true,true,some 2⟩,⟨some (.own 3),true,true,true,some 2⟩,⟨some .internalNl,true,true,true,some 4⟩,⟨some (.own 3),true,true,true,some 4⟩],[⟨some (.own 3),true,true,true,some 2⟩,⟨some .internalNl,true,true,true,some 2⟩,⟨some (.own 3),true,true,true,some 4⟩,⟨some .internalNl,true,true,true,some 4⟩],[⟨some (.own 3),true,true,true,some 2⟩,⟨some .internalNl,true,true,true,some 2⟩],[⟨some (.own 3),true,true,true,some 2⟩,⟨some .internalNl,true,true,true,some 2⟩]]
theorem rebol_line_wClosed : closed rebol_line_rows rebol_line_wTab WA.init (WA.succ rebol_line_M) (WA.eofOk rebol_line_M) = true := by
  decide +kernel
def rebol_line_W : WCert rebol_line_M := ⟨rebol_line_D, rebol_line_wTab, rebol_line_wClosed⟩

def xml_line_wTab : List (List WA) := [[⟨none,false,false,false,none⟩],[⟨some (.own 0),false,false,false,some 0⟩],[⟨some .newline,true,false,false,none⟩],[⟨some .newline,true,false,true,some 3⟩],[⟨some (.own 5),true,false,true,some 4⟩],[⟨some (.own 5),true,false,true,some 4⟩],[⟨some (.own 5),true,false,true,some 4⟩],[⟨some (.own 5),true,true,true,some 4⟩,⟨some (.own 5),false,true,true,some 4⟩,⟨some (.own 5),true,false,true,some 4⟩,⟨some (.own 5),false,false,true,some 4⟩],[⟨some (.own 5),true,true,true,some 4⟩,⟨some (.own 5),false,true,true,some 4⟩,⟨some (.own 5),true,false,true,some 4⟩,⟨some (.own 5),false,false,true,some 4⟩],[⟨some (.own 5),true,true,true,some 4⟩],[⟨some (.own 5),true,true,true,some 4⟩],[⟨some (.own 5),true,true,true,some 4⟩],[⟨some (.own 5),true,true,true,some 4⟩],[⟨some (.own 5),true,true,true,some 4⟩],[⟨some (.own 5),true,true,true,some 4⟩,⟨some .internalNl,true,true,true,some 4⟩,⟨some .internalNl,true,false,true,some 4⟩,⟨some (.own 5),true,false,true,some 4⟩],[⟨some (.own 5),false,true,true,some 4⟩,⟨some .internalNl,false,true,true,some 4⟩,⟨some .internalNl,false,false,true,some 4⟩,⟨some (.own 5),false,false,true,some 4⟩],[⟨some (.own 5),true,true,true,some 4⟩,⟨some .internalNl,true,true,true,some 4⟩,⟨some .internalNl,true,false,true,some 4⟩,⟨some (.own 5),true,false,true,some 4⟩],[⟨some (.own 5),true,true,true,some 4⟩,⟨some .internalNl,true,true,true,some 4⟩,⟨some .internalNl,true,false,true,some 4⟩,⟨some (.own 5),true,false,true,some 4⟩],[⟨some (.own 5),true,true,true,some 4⟩,⟨some .internalNl,true,true,true,some 4⟩,⟨some .internalNl,true,false,true,some 4⟩,⟨some (.own 5),true,false,true,some 4⟩],[⟨some (.own 5),true,true,true,some 4⟩,⟨some .internalNl,true,true,true,some 4⟩,⟨some .internalNl,true,false,true,some 4⟩,⟨some (.own 5),true,false,true,some 4⟩],[⟨some (.own 5),true,true,true,some 4⟩,⟨some .internalNl,true,true,true,some 4⟩,⟨some .internalNl,true,false,true,some 4⟩,⟨some (.own 5),true,false,true,some 4⟩],[⟨some (.own 5),true,true,true,some 4⟩],[⟨some .internalNl,true,true,true,some 4⟩,⟨some (.own 5),true,true,true,some 4⟩],[⟨some .internalNl,true,true,true,some 4⟩],[⟨some (.own 5),true,true,true,some 4⟩,⟨some .internalNl,true,true,true,some 4⟩],[⟨some (.own 5),true,true,true,some 4⟩],[⟨some (.own 5),true,true,true,some 4⟩],[⟨some (.own 5),true,true,true,some 4⟩],[⟨some (.own 5),true,true,true,some 4⟩],[⟨some (.own 5),true,true,true,some 4⟩,⟨some .internalNl,true,true,true,some 4⟩,⟨some .internalNl,true,false,true,some 4⟩,⟨some (.own 5),true,false,true,some 4⟩],[⟨some (.own 5),false,true,true,some 4⟩,⟨some .internalNl,false,true,true,some 4⟩,⟨some .internalNl,false,false,true,some 4⟩,⟨some (.own 5),false,false,true,some 4⟩],[⟨some (.own 5),true,true,true,some 4⟩,⟨some .internalNl,true,true,true,some 4⟩,⟨some .internalNl,true,false,true,some 4⟩,⟨some (.own 5),true,false,true,some 4⟩],[⟨some (.own 5),true,true,true,some 4⟩,⟨some .internalNl,true,true,true,some 4⟩,⟨some .internalNl,true,false,true,some 4⟩,⟨some (.own 5),true,false,true,some 4⟩],[⟨some (.own 5),true,true,true,some 4⟩,⟨some .internalNl,true,true,true,some 4⟩,⟨some .internalNl,true,false,true,some 4⟩,⟨some (.own 5),true,false,true,some 4⟩],[⟨some (.own 5),true,true,true,some 4⟩,⟨some .internalNl,true,true,true,some 4⟩,⟨some .internalNl,true,false,true,some 4⟩,⟨some (.own 5),true,false,true,some 4⟩],[⟨some (.own 5),true,true,true,some 4⟩,⟨some .internalNl,true,true,true,some 4⟩,⟨some .internalNl,true,false,true,some 4⟩,⟨some (.own 5),true,false,true,some 4⟩],[⟨some .internalNl,true,true,true,some 4⟩,⟨some (.own 5),true,true,true,some 4⟩],[⟨some .internalNl,true,true,true,some 4⟩],[⟨some (.own 5),true,true,true,some 4⟩,⟨some .internalNl,true,true,true,some 4⟩]]
theorem xml_line_wClosed : closed xml_line_rows xml_line_wTab WA.init (WA.succ xml_line_M) (WA.eofOk xml_line_M) = true := by
  decide +kernel
def xml_line_W : WCert xml_line_M := ⟨xml_line_D, xml_line_wTab, xml_line_wClosed⟩

end Ohcount.Cert
