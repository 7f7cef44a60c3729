import Verif.Cert.N11
import Verif.RagelSolid

/-! Generated by tools/gen_solid.py. -/

namespace Ohcount.Cert
open Ohcount.Ragel Ohcount.Gram

set_option maxRecDepth 100000

def as_line_wTab : List (List WA) := [[⟨none,false,false,false,none⟩],[⟨some (.own 0),false,false,false,some 0⟩],[⟨some .newline,true,false,false,none⟩],[⟨some .newline,true,false,true,some 3⟩],[⟨some (.own 3),true,false,true,some 4⟩],[⟨some (.own 3),true,false,true,some 4⟩],[⟨some (.own 3),true,false,true,some 4⟩],[⟨some (.own 3),true,false,true,some 4⟩],[⟨some (.own 3),true,true,true,some 4⟩,⟨some (.own 3),false,true,true,some 4⟩,⟨some (.own 3),true,false,true,some 4⟩,⟨some (.own 3),false,false,true,some 4⟩],[⟨some (.own 3),true,true,true,some 4⟩,⟨some (.own 3),true,false,true,some 4⟩],[⟨some (.own 3),true,true,true,some 4⟩,⟨some (.own 3),false,true,true,some 4⟩,⟨some (.own 3),true,false,true,some 4⟩,⟨some (.own 3),false,false,true,some 4⟩],[⟨some (.own 3),true,true,true,some 4⟩,⟨some (.own 3),true,false,true,some 4⟩],[⟨some (.own 3),true,true,true,some 4⟩],[⟨some (.own 3),true,true,true,some 1⟩],[⟨some (.own 3),true,true,true,some 4⟩],[⟨some (.own 3),true,true,true,some 4⟩,⟨some (.own 3),false,true,true,some 4⟩],[⟨some (.own 3),true,true,true,some 4⟩,⟨some (.own 3),false,true,true,some 4⟩],[⟨some (.own 3),true,true,true,some 4⟩,⟨some .internalNl,true,true,true,some 4⟩,⟨some .internalNl,true,false,true,some 4⟩,⟨some (.own 3),true,false,true,some 4⟩],[⟨some (.own 3),false,true,true,some 4⟩,⟨some .internalNl,false,true,true,some 4⟩,⟨some .internalNl,false,false,true,some 4⟩,⟨some (.own 3),false,false,true,some 4⟩],[⟨some (.own 3),true,true,true,some 4⟩,⟨some .internalNl,true,true,true,some 4⟩,⟨some .internalNl,true,false,true,some 4⟩,⟨some (.own 3),true,false,true,some 4⟩],[⟨some (.own 3),true,true,true,some 4⟩,⟨some .internalNl,true,true,true,some 4⟩,⟨some .internalNl,true,false,true,some 4⟩,⟨some (.own 3),true,false,true,some 4⟩],[⟨some (.own 3),true,true,true,some 4⟩,⟨some .internalNl,true,true,true,some 4⟩,⟨some .internalNl,true,false,true,some 4⟩,⟨some (.own 3),true,false,true,some 4⟩],[⟨some (.own 3),true,true,true,some 4⟩,⟨some .internalNl,true,true,true,some 4⟩,⟨some .internalNl,true,false,true,some 4⟩,⟨some (.own 3),true,false,true,some 4⟩],[⟨some (.own 3),true,true,true,some 4⟩,⟨some .internalNl,true,true,true,some 4⟩,⟨some .internalNl,true,false,true,some 4⟩,⟨some (.own 3),true,false,true,some 4⟩],[⟨some (.own 3),true,true,true,some 1⟩,⟨some (.own 3),false,true,false,some 1⟩,⟨some (.own 3),true,false,true,some 1⟩,⟨some (.own 3),false,false,false,some 1⟩],[⟨some (.own 3),true,true,true,some 4⟩],[⟨some .internalNl,true,true,true,some 4⟩,⟨some (.own 3),true,true,true,some 4⟩],[⟨some .internalNl,true,true,true,some 4⟩],[⟨some (.own 3),true,true,true,some 4⟩],[⟨some (.own 3),true,true,true,some 4⟩],[⟨some (.own 3),true,true,true,some 4⟩],[⟨some (.own 3),true,true,true,some 4⟩],[⟨some (.own 3),true,true,true,some 4⟩],[⟨some (.own 3),true,true,true,some 4⟩],[⟨some (.own 3),true,true,true,some 4⟩,⟨some .internalNl,true,true,true,some 4⟩,⟨some .internalNl,true,false,true,some 4⟩,⟨some (.own 3),true,false,true,some 4⟩],[⟨some (.own 3),false,true,true,some 4⟩,⟨some .internalNl,false,true,true,some 4⟩,⟨some .internalNl,false,false,true,some 4⟩,⟨some (.own 3),false,false,true,some 4⟩],[⟨some (.own 3),true,true,true,some 4⟩,⟨some .internalNl,true,true,true,some 4⟩,⟨some .internalNl,true,false,true,some 4⟩,⟨some (.own 3),true,false,true,some 4⟩],[⟨some (.own 3),true,true,true,some 4⟩,⟨some .internalNl,true,true,true,some 4⟩,⟨some .internalNl,true,false,true,some 4⟩,⟨some (.own 3),true,false,true,some 4⟩],[⟨some (.own 3),true,true,true,some 4⟩,⟨some .internalNl,true,true,true,some 4⟩,⟨some .internalNl,true,false,true,some 4⟩,⟨some (.own 3),true,false,true,some 4⟩],[⟨some (.own 3),true,true,true,some 4⟩,⟨some .internalNl,true,true,true,some 4⟩,⟨some .internalNl,true,false,true,some 4⟩,⟨some (.own 3),true,false,true,some 4⟩],[⟨some (.own 3),true,true,true,some 4⟩,⟨some .internalNl,true,true,true,some 4⟩,⟨some .internalNl,true,false,true,some 4⟩,⟨some (.own 3),true,false,true,some 4⟩],[⟨some .internalNl,true,true,true,some 4⟩,⟨some (.own 3),true,true,true,some 4⟩],[⟨some .internalNl,true,true,true,some 4⟩],[⟨some (.own 3),true,true,true,some 4⟩,⟨some .internalNl,true,true,true,some 4⟩]]
theorem as_line_wClosed : closed as_line_rows as_line_wTab WA.init (WA.succ as_line_M) (WA.eofOk as_line_M) = true := by
  decide +kernel
def as_line_W : WCert as_line_M := ⟨as_line_D, as_line_wTab, as_line_wClosed⟩

def dcl_line_wTab : List (List WA) := [[⟨none,false,false,false,none⟩],[⟨some (.own 0),false,false,false,some 1⟩],[⟨some .newline,true,false,false,none⟩],[⟨some .newline,true,false,true,some 4⟩],[⟨some (.own 4),true,false,true,some 2⟩],[⟨some (.own 4),true,false,true,some 5⟩],[⟨some (.own 4),true,true,true,some 2⟩,⟨some (.own 4),false,true,false,some 2⟩,⟨some (.own 4),true,false,true,some 2⟩,⟨some (.own 4),false,false,false,some 2⟩],[⟨some (.own 4),true,true,true,some 5⟩,⟨some (.own 4),false,true,true,some 5⟩,⟨some (.own 4),true,false,true,some 5⟩,⟨some (.own 4),false,false,true,some 5⟩],[⟨some (.own 4),true,true,true,some 5⟩,⟨some (.own 4),true,false,true,some 5⟩],[⟨some (.own 4),true,true,true,some 5⟩,⟨some (.own 4),false,true,true,some 5⟩]]
theorem dcl_line_wClosed : closed dcl_line_rows dcl_line_wTab WA.init (WA.succ dcl_line_M) (WA.eofOk dcl_line_M) = true := by
  decide +kernel
def dcl_line_W : WCert dcl_line_M := ⟨dcl_line_D, dcl_line_wTab, dcl_line_wClosed⟩

def fsharp_line_wTab : List (List WA) := [[⟨none,false,false,false,none⟩],[⟨some (.own 0),false,false,false,some 0⟩],[⟨some .newline,true,false,false,none⟩],[⟨some .newline,true,false,true,some 3⟩],[⟨some (.own 8),true,false,true,some 4⟩],[⟨some (.own 8),true,false,true,some 4⟩],[⟨some (.own 8),true,false,true,some 4⟩],[⟨some (.own 8),true,false,true,some 4⟩],[⟨some (.own 8),true,true,true,some 4⟩,⟨some .internalNl,true,true,true,some 4⟩,⟨some .internalNl,true,false,true,some 4⟩,⟨some (.own 8),true,false,true,some 4⟩],[⟨some (.own 8),false,true,true,some 4⟩,⟨some .internalNl,false,true,true,some 4⟩,⟨some .internalNl,false,false,true,some 4⟩,⟨some (.own 8),false,false,true,some 4⟩],[⟨some (.own 8),true,true,true,some 4⟩,⟨some .internalNl,true,true,true,some 4⟩,⟨some .internalNl,true,false,true,some 4⟩,⟨some (.own 8),true,false,true,some 4⟩],[⟨some (.own 8),true,true,true,some 4⟩,⟨some .internalNl,true,true,true,some 4⟩,⟨some .internalNl,true,false,true,some 4⟩,⟨some (.own 8),true,false,true,some 4⟩],[⟨some (.own 8),false,true,true,some 4⟩,⟨some .internalNl,false,true,true,some 4⟩,⟨some .internalNl,false,false,true,some 4⟩,⟨some (.own 8),false,false,true,some 4⟩],[⟨some (.own 8),true,true,true,some 4⟩,⟨some .internalNl,true,true,true,some 4⟩,⟨some .internalNl,true,false,true,some 4⟩,⟨some (.own 8),true,false,true,some 4⟩],[⟨some (.own 8),true,true,true,some 4⟩],[⟨some (.own 8),true,true,true,some 1⟩],[⟨some (.own 8),true,true,true,some 4⟩,⟨some (.own 8),false,true,true,some 4⟩,⟨some .internalNl,true,true,true,some 4⟩,⟨some .internalNl,false,true,true,some 4⟩],[⟨some (.own 8),true,true,true,some 4⟩,⟨some .internalNl,true,true,true,some 4⟩],[⟨some (.own 8),true,true,true,some 4⟩,⟨some .internalNl,true,true,true,some 4⟩],[⟨some (.own 8),true,true,true,some 4⟩,⟨some .internalNl,true,true,true,some 4⟩],[⟨some (.own 8),true,true,true,some 4⟩,⟨some .internalNl,true,true,true,some 4⟩],[⟨some (.own 8),true,true,true,some 4⟩,⟨some (.own 8),false,true,true,some 4⟩,⟨some .internalNl,true,true,true,some 4⟩,⟨some .internalNl,false,true,true,some 4⟩],[⟨some (.own 8),true,true,true,some 4⟩,⟨some .internalNl,true,true,true,some 4⟩],[⟨some (.own 8),true,true,true,some 4⟩,⟨some .internalNl,true,true,true,some 4⟩],[⟨some (.own 8),true,true,true,some 4⟩,⟨some .internalNl,true,true,true,some 4⟩],[⟨some (.own 8),true,true,true,some 4⟩,⟨some .internalNl,true,true,true,some 4⟩],[⟨some (.own 8),true,true,true,some 4⟩,⟨some .internalNl,true,true,true,some 4⟩,⟨some .internalNl,true,false,true,some 4⟩,⟨some (.own 8),true,false,true,some 4⟩],[⟨some (.own 8),false,true,true,some 4⟩,⟨some .internalNl,false,true,true,some 4⟩,⟨some .internalNl,false,false,true,some 4⟩,⟨some (.own 8),false,false,true,some 4⟩],[⟨some (.own 8),true,true,true,some 4⟩,⟨some .internalNl,true,true,true,some 4⟩,⟨some .internalNl,true,false,true,some 4⟩,⟨some (.own 8),true,false,true,some 4⟩],[⟨some (.own 8),true,true,true,some 4⟩,⟨some .internalNl,true,true,true,some 4⟩,⟨some .internalNl,true,false,true,some 4⟩,⟨some (.own 8),true,false,true,some 4⟩],[⟨some (.own 8),true,true,true,some 4⟩,⟨some .internalNl,true,true,true,some 4⟩,⟨some .internalNl,true,false,true,some 4⟩,⟨some (.own 8),true,false,true,some 4⟩],[⟨some (.own 8),true,true,true,some 4⟩,⟨some .internalNl,true,true,true,some 4⟩,⟨some .internalNl,true,false,true,some 4⟩,⟨some (.own 8),true,false,true,some 4⟩],[⟨some (.own 8),true,true,true,some 4⟩,⟨some .internalNl,true,true,true,some 4⟩,⟨some .internalNl,true,false,true,some 4⟩,⟨some (.own 8),true,false,true,some 4⟩],[⟨some (.own 8),true,true,true,some 1⟩,⟨some .internalNl,true,true,true,some 1⟩,⟨some .internalNl,true,false,true,some 1⟩,⟨some (.own 8),true,false,true,some 1⟩],[⟨some (.own 8),false,true,false,some 1⟩,⟨some .internalNl,false,true,false,some 1⟩,⟨some .internalNl,false,false,false,some 1⟩,⟨some (.own 8),false,false,false,some 1⟩],[⟨some (.own 8),true,true,true,some 1⟩,⟨some .internalNl,true,true,true,some 1⟩,⟨some .internalNl,true,false,true,some 1⟩,⟨some (.own 8),true,false,true,some 1⟩],[⟨some .internalNl,true,true,true,some 4⟩,⟨some (.own 8),true,true,true,some 4⟩],[⟨some .internalNl,true,true,true,some 4⟩],[⟨some .internalNl,true,true,true,some 4⟩,⟨some (.own 8),true,true,true,some 4⟩],[⟨some .internalNl,true,true,true,some 4⟩],[⟨some .internalNl,true,true,true,some 4⟩,⟨some (.own 8),true,true,true,some 4⟩],[⟨some .internalNl,true,true,true,some 4⟩],[⟨some (.own 8),true,true,true,some 1⟩,⟨some .internalNl,true,true,true,some 1⟩],[⟨some (.own 8),true,true,true,some 1⟩,⟨some .internalNl,true,true,true,some 1⟩],[⟨some (.own 8),true,true,true,some 1⟩,⟨some .internalNl,true,true,true,some 1⟩],[⟨some (.own 8),true,true,true,some 1⟩,⟨some .internalNl,true,true,true,some 1⟩],[⟨some (.own 8),true,true,true,some 1⟩,⟨some .internalNl,true,true,true,some 1⟩]]
theorem fsharp_line_wClosed : closed fsharp_line_rows fsharp_line_wTab WA.init (WA.succ fsharp_line_M) (WA.eofOk fsharp_line_M) = true := by
  decide +kernel
def fsharp_line_W : WCert fsharp_line_M := ⟨fsharp_line_D, fsharp_line_wTab, fsharp_line_wClosed⟩

def glsl_line_wTab : List (List WA) := [[⟨none,false,false,false,none⟩],[⟨some (.own 0),false,false,false,some 0⟩],[⟨some .newline,true,false,false,none⟩],[⟨some .newline,true,false,true,some 3⟩],[⟨some (.own 8),true,false,true,some 4⟩],[⟨some (.own 8),true,false,true,some 4⟩],[⟨some (.own 8),true,false,true,some 4⟩],[⟨some (.own 8),true,true,true,some 4⟩,⟨some .internalNl,true,true,true,some 4⟩,⟨some .internalNl,true,false,true,some 4⟩,⟨some (.own 8),true,false,true,some 4⟩],[⟨some (.own 8),false,true,true,some 4⟩,⟨some .internalNl,false,true,true,some 4⟩,⟨some .internalNl,false,false,true,some 4⟩,⟨some (.own 8),false,false,true,some 4⟩],[⟨some (.own 8),true,true,true,some 4⟩,⟨some .internalNl,true,true,true,some 4⟩,⟨some .internalNl,true,false,true,some 4⟩,⟨some (.own 8),true,false,true,some 4⟩],[⟨some (.own 8),true,true,true,some 4⟩,⟨some .internalNl,true,true,true,some 4⟩,⟨some .internalNl,true,false,true,some 4⟩,⟨some (.own 8),true,false,true,some 4⟩],[⟨some (.own 8),false,true,true,some 4⟩,⟨some .internalNl,false,true,true,some 4⟩,⟨some .internalNl,false,false,true,some 4⟩,⟨some (.own 8),false,false,true,some 4⟩],[⟨some (.own 8),true,true,true,some 4⟩,⟨some .internalNl,true,true,true,some 4⟩,⟨some .internalNl,true,false,true,some 4⟩,⟨some (.own 8),true,false,true,some 4⟩],[⟨some (.own 8),true,true,true,some 4⟩],[⟨some (.own 8),true,true,true,some 1⟩],[⟨some (.own 8),true,true,true,some 4⟩,⟨some (.own 8),false,true,true,some 4⟩,⟨some .internalNl,true,true,true,some 4⟩,⟨some .internalNl,false,true,true,some 4⟩],[⟨some (.own 8),true,true,true,some 4⟩,⟨some .internalNl,true,true,true,some 4⟩],[⟨some (.own 8),true,true,true,some 4⟩,⟨some .internalNl,true,true,true,some 4⟩],[⟨some (.own 8),true,true,true,some 4⟩,⟨some .internalNl,true,true,true,some 4⟩],[⟨some (.own 8),true,true,true,some 4⟩,⟨some .internalNl,true,true,true,some 4⟩],[⟨some (.own 8),true,true,true,some 4⟩,⟨some (.own 8),false,true,true,some 4⟩,⟨some .internalNl,true,true,true,some 4⟩,⟨some .internalNl,false,true,true,some 4⟩],[⟨some (.own 8),true,true,true,some 4⟩,⟨some .internalNl,true,true,true,some 4⟩],[⟨some (.own 8),true,true,true,some 4⟩,⟨some .internalNl,true,true,true,some 4⟩],[⟨some (.own 8),true,true,true,some 4⟩,⟨some .internalNl,true,true,true,some 4⟩],[⟨some (.own 8),true,true,true,some 4⟩,⟨some .internalNl,true,true,true,some 4⟩],[⟨some (.own 8),true,true,true,some 4⟩,⟨some .internalNl,true,true,true,some 4⟩,⟨some .internalNl,true,false,true,some 4⟩,⟨some (.own 8),true,false,true,some 4⟩],[⟨some (.own 8),false,true,true,some 4⟩,⟨some .internalNl,false,true,true,some 4⟩,⟨some .internalNl,false,false,true,some 4⟩,⟨some (.own 8),false,false,true,some 4⟩],[⟨some (.own 8),true,true,true,some 4⟩,⟨some .internalNl,true,true,true,some 4⟩,⟨some .internalNl,true,false,true,some 4⟩,⟨some (.own 8),true,false,true,some 4⟩],[⟨some (.own 8),true,true,true,some 4⟩,⟨some .internalNl,true,true,true,some 4⟩,⟨some .internalNl,true,false,true,some 4⟩,⟨some (.own 8),true,false,true,some 4⟩],[⟨some (.own 8),true,true,true,some 4⟩,⟨some .internalNl,true,true,true,some 4⟩,⟨some .internalNl,true,false,true,some 4⟩,⟨some (.own 8),true,false,true,some 4⟩],[⟨some (.own 8),true,true,true,some 4⟩,⟨some .internalNl,true,true,true,some 4⟩,⟨some .internalNl,true,false,true,some 4⟩,⟨some (.own 8),true,false,true,some 4⟩],[⟨some (.own 8),true,true,true,some 4⟩,⟨some .internalNl,true,true,true,some 4⟩,⟨some .internalNl,true,false,true,some 4⟩,⟨some (.own 8),true,false,true,some 4⟩],[⟨some (.own 8),true,true,true,some 1⟩,⟨some .internalNl,true,true,true,some 1⟩,⟨some .internalNl,true,false,true,some 1⟩,⟨some (.own 8),true,false,true,some 1⟩],[⟨some (.own 8),false,true,false,some 1⟩,⟨some .internalNl,false,true,false,some 1⟩,⟨some .internalNl,false,false,false,some 1⟩,⟨some (.own 8),false,false,false,some 1⟩],[⟨some (.own 8),true,true,true,some 1⟩,⟨some .internalNl,true,true,true,some 1⟩,⟨some .internalNl,true,false,true,some 1⟩,⟨some (.own 8),true,false,true,some 1⟩],[⟨some .internalNl,true,true,true,some 4⟩,⟨some (.own 8),true,true,true,some 4⟩],[⟨some .internalNl,true,true,true,some 4⟩],[⟨some .internalNl,true,true,true,some 4⟩,⟨some (.own 8),true,true,true,some 4⟩],[⟨some .internalNl,true,true,true,some 4⟩],[⟨some .internalNl,true,true,true,some 4⟩,⟨some (.own 8),true,true,true,some 4⟩],[⟨some .internalNl,true,true,true,some 4⟩],[⟨some (.own 8),true,true,true,some 1⟩,⟨some .internalNl,true,true,true,some 1⟩],[⟨some (.own 8),true,true,true,some 1⟩,⟨some .internalNl,true,true,true,some 1⟩],[⟨some (.own 8),true,true,true,some 1⟩,⟨some .internalNl,true,true,true,some 1⟩],[⟨some (.own 8),true,true,true,some 1⟩,⟨some .internalNl,true,true,true,some 1⟩],[⟨some (.own 8),true,true,true,some 1⟩,⟨some .internalNl,true,true,true,some 1⟩]]
theorem glsl_line_wClosed : closed glsl_line_rows glsl_line_wTab WA.init (WA.succ glsl_line_M) (WA.eofOk glsl_line_M) = true := by
  decide +kernel
def glsl_line_W : WCert glsl_line_M := ⟨glsl_line_D, glsl_line_wTab, glsl_line_wClosed⟩

def limbo_line_wTab : List (List WA) := [[⟨none,false,false,false,none⟩],[⟨some (.own 0),false,false,false,some 0⟩],[⟨some .newline,true,false,false,none⟩],[⟨some .newline,true,false,true,some 3⟩],[⟨some (.own 7),true,false,true,some 4⟩],[⟨some (.own 7),true,false,true,some 1⟩],[⟨some (.own 7),true,false,true,some 4⟩],[⟨some (.own 7),true,true,true,some 4⟩,⟨some (.own 7),true,false,true,some 4⟩],[⟨some (.own 7),true,true,true,some 4⟩,⟨some (.own 7),true,false,true,some 4⟩],[⟨some (.own 7),true,true,true,some 1⟩,⟨some (.own 7),false,true,false,some 1⟩,⟨some (.own 7),true,false,true,some 1⟩,⟨some (.own 7),false,false,false,some 1⟩],[⟨some (.own 7),true,true,true,some 4⟩,⟨some (.own 7),true,false,true,some 4⟩],[⟨some (.own 7),true,true,true,some 4⟩,⟨some (.own 7),true,false,true,some 4⟩],[⟨some (.own 7),true,true,true,some 4⟩,⟨some (.own 7),false,true,true,some 4⟩],[⟨some (.own 7),true,true,true,some 4⟩,⟨some (.own 7),false,true,true,some 4⟩]]
theorem limbo_line_wClosed : closed limbo_line_rows limbo_line_wTab WA.init (WA.succ limbo_line_M) (WA.eofOk limbo_line_M) = true := by
  decide +kernel
def limbo_line_W : WCert limbo_line_M := ⟨limbo_line_D, limbo_line_wTab, limbo_line_wClosed⟩

def objc_line_wTab : List (List WA) := [[⟨none,false,false,false,none⟩],[⟨some (.own 0),false,false,false,some 0⟩],[⟨some .newline,true,false,false,none⟩],[⟨some .newline,true,false,true,some 3⟩],[⟨some (.own 3),true,false,true,some 4⟩],[⟨some (.own 3),true,false,true,some 4⟩],[⟨some (.own 3),true,false,true,some 4⟩],[⟨some (.own 3),true,true,true,some 4⟩,⟨some (.own 3),false,true,true,some 4⟩,⟨some (.own 3),true,false,true,some 4⟩,⟨some (.own 3),false,false,true,some 4⟩],[⟨some (.own 3),true,true,true,some 4⟩,⟨some (.own 3),true,false,true,some 4⟩],[⟨some (.own 3),true,true,true,some 4⟩,⟨some (.own 3),false,true,true,some 4⟩,⟨some (.own 3),true,false,true,some 4⟩,⟨some (.own 3),false,false,true,some 4⟩],[⟨some (.own 3),true,true,true,some 4⟩,⟨some (.own 3),true,false,true,some 4⟩],[⟨some (.own 3),true,true,true,some 4⟩],[⟨some (.own 3),true,true,true,some 1⟩],[⟨some (.own 3),true,true,true,some 4⟩,⟨some (.own 3),false,true,true,some 4⟩],[⟨some (.own 3),true,true,true,some 4⟩,⟨some (.own 3),false,true,true,some 4⟩],[⟨some (.own 3),true,true,true,some 4⟩,⟨some .internalNl,true,true,true,some 4⟩,⟨some .internalNl,true,false,true,some 4⟩,⟨some (.own 3),true,false,true,some 4⟩],[⟨some (.own 3),false,true,true,some 4⟩,⟨some .internalNl,false,true,true,some 4⟩,⟨some .internalNl,false,false,true,some 4⟩,⟨some (.own 3),false,false,true,some 4⟩],[⟨some (.own 3),true,true,true,some 4⟩,⟨some .internalNl,true,true,true,some 4⟩,⟨some .internalNl,true,false,true,some 4⟩,⟨some (.own 3),true,false,true,some 4⟩],[⟨some (.own 3),true,true,true,some 4⟩,⟨some .internalNl,true,true,true,some 4⟩,⟨some .internalNl,true,false,true,some 4⟩,⟨some (.own 3),true,false,true,some 4⟩],[⟨some (.own 3),true,true,true,some 4⟩,⟨some .internalNl,true,true,true,some 4⟩,⟨some .internalNl,true,false,true,some 4⟩,⟨some (.own 3),true,false,true,some 4⟩],[⟨some (.own 3),true,true,true,some 4⟩,⟨some .internalNl,true,true,true,some 4⟩,⟨some .internalNl,true,false,true,some 4⟩,⟨some (.own 3),true,false,true,some 4⟩],[⟨some (.own 3),true,true,true,some 4⟩,⟨some .internalNl,true,true,true,some 4⟩,⟨some .internalNl,true,false,true,some 4⟩,⟨some (.own 3),true,false,true,some 4⟩],[⟨some (.own 3),true,true,true,some 1⟩,⟨some .internalNl,true,true,true,some 1⟩,⟨some .internalNl,true,false,true,some 1⟩,⟨some (.own 3),true,false,true,some 1⟩],[⟨some (.own 3),false,true,false,some 1⟩,⟨some .internalNl,false,true,false,some 1⟩,⟨some .internalNl,false,false,false,some 1⟩,⟨some (.own 3),false,false,false,some 1⟩],[⟨some (.own 3),true,true,true,some 1⟩,⟨some .internalNl,true,true,true,some 1⟩,⟨some .internalNl,true,false,true,some 1⟩,⟨some (.own 3),true,false,true,some 1⟩],[⟨some .internalNl,true,true,true,some 4⟩,⟨some (.own 3),true,true,true,some 4⟩],[⟨some .internalNl,true,true,true,some 4⟩],[⟨some (.own 3),true,true,true,some 1⟩,⟨some .internalNl,true,true,true,some 1⟩],[⟨some (.own 3),true,true,true,some 1⟩,⟨some .internalNl,true,true,true,some 1⟩],[⟨some (.own 3),true,true,true,some 1⟩,⟨some .internalNl,true,true,true,some 1⟩],[⟨some (.own 3),true,true,true,some 1⟩,⟨some .internalNl,true,true,true,some 1⟩],[⟨some (.own 3),true,true,true,some 1⟩,⟨some .internalNl,true,true,true,some 1⟩]]
theorem objc_line_wClosed : closed objc_line_rows objc_line_wTab WA.init (WA.succ objc_line_M) (WA.eofOk objc_line_M) = true := by
  decide +kernel
def objc_line_W : WCert objc_line_M := ⟨objc_line_D, objc_line_wTab, objc_line_wClosed⟩

def octave_line_wTab : List (List WA) := [[⟨none,false,false,false,none⟩],[⟨some (.own 0),false,false,false,some 0⟩],[⟨some .newline,true,false,false,none⟩],[⟨some .newline,true,false,true,some 3⟩],[⟨some (.own 3),true,false,true,some 4⟩],[⟨some (.own 3),true,false,true,some 1⟩],[⟨some (.own 3),true,false,true,some 4⟩],[⟨some (.own 3),true,false,true,some 4⟩],[⟨some (.own 3),true,false,true,some 4⟩],[⟨some (.own 3),true,true,true,some 4⟩,⟨some (.own 3),false,true,true,some 4⟩,⟨some (.own 3),true,false,true,some 4⟩,⟨some (.own 3),false,false,true,some 4⟩],[⟨some (.own 3),true,true,true,some 4⟩,⟨some (.own 3),true,false,true,some 4⟩],[⟨some (.own 3),true,true,true,some 1⟩,⟨some (.own 3),false,true,false,some 1⟩,⟨some (.own 3),true,false,true,some 1⟩,⟨some (.own 3),false,false,false,some 1⟩],[⟨some (.own 3),true,false,true,some 1⟩,⟨some (.own 3),true,false,false,some 1⟩],[⟨some (.own 3),true,true,true,some 4⟩],[⟨some (.own 3),true,true,true,some 4⟩,⟨some (.own 3),false,true,true,some 4⟩,⟨some (.own 3),true,false,true,some 4⟩,⟨some (.own 3),false,false,true,some 4⟩],[⟨some (.own 3),true,true,true,some 4⟩,⟨some (.own 3),true,false,true,some 4⟩],[⟨some (.own 3),true,true,true,some 4⟩],[⟨some (.own 3),true,true,true,some 4⟩,⟨some (.own 3),false,true,true,some 4⟩],[⟨some (.own 3),true,true,true,some 4⟩,⟨some .internalNl,true,true,true,some 4⟩,⟨some .internalNl,true,false,true,some 4⟩,⟨some (.own 3),true,false,true,some 4⟩],[⟨some (.own 3),false,true,true,some 4⟩,⟨some .internalNl,false,true,true,some 4⟩,⟨some .internalNl,false,false,true,some 4⟩,⟨some (.own 3),false,false,true,some 4⟩],[⟨some (.own 3),true,true,true,some 4⟩,⟨some .internalNl,true,true,true,some 4⟩,⟨some .internalNl,true,false,true,some 4⟩,⟨some (.own 3),true,false,true,some 4⟩],[⟨some (.own 3),true,true,true,some 4⟩,⟨some .internalNl,true,true,true,some 4⟩,⟨some .internalNl,true,false,true,some 4⟩,⟨some (.own 3),true,false,true,some 4⟩],[⟨some (.own 3),true,true,true,some 4⟩,⟨some .internalNl,true,true,true,some 4⟩,⟨some .internalNl,true,false,true,some 4⟩,⟨some (.own 3),true,false,true,some 4⟩],[⟨some (.own 3),true,true,true,some 4⟩,⟨some .internalNl,true,true,true,some 4⟩,⟨some .internalNl,true,false,true,some 4⟩,⟨some (.own 3),true,false,true,some 4⟩],[⟨some (.own 3),true,true,true,some 4⟩,⟨some .internalNl,true,true,true,some 4⟩,⟨some .internalNl,true,false,true,some 4⟩,⟨some (.own 3),true,false,true,some 4⟩],[⟨some (.own 3),true,true,true,some 4⟩,⟨some (.own 3),false,true,true,some 4⟩],[⟨some (.own 3),true,true,true,some 4⟩],[⟨some .internalNl,true,true,true,some 4⟩,⟨some (.own 3),true,true,true,some 4⟩],[⟨some .internalNl,true,true,true,some 4⟩]]
theorem octave_line_wClosed : closed octave_line_rows octave_line_wTab WA.init (WA.succ octave_line_M) (WA.eofOk octave_line_M) = true := by
  decide +kernel
def octave_line_W : WCert octave_line_M := ⟨octave_line_D, octave_line_wTab, octave_line_wClosed⟩

def postscript_line_wTab : List (List WA) := [[⟨none,false,false,false,none⟩],[⟨some (.own 0),false,false,false,some 0⟩],[⟨some .newline,true,false,false,none⟩],[⟨some .newline,true,false,true,some 3⟩],[⟨some (.own 3),true,false,true,some 1⟩],[⟨some (.own 3),true,false,true,some 4⟩],[⟨some (.own 3),true,true,true,some 1⟩,⟨some (.own 3),false,true,false,some 1⟩,⟨some (.own 3),true,false,true,some 1⟩,⟨some (.own 3),false,false,false,some 1⟩],[⟨some (.own 3),true,true,true,some 4⟩,⟨some (.own 3),false,true,true,some 4⟩,⟨some (.own 3),true,true,true,some 2⟩,⟨some (.own 3),false,true,true,some 2⟩,⟨some (.own 3),true,false,true,some 2⟩,⟨some (.own 3),false,false,true,some 2⟩,⟨some (.own 3),true,false,true,some 4⟩,⟨some (.own 3),false,false,true,some 4⟩],[⟨some (.own 3),true,true,true,some 2⟩,⟨some (.own 3),true,false,true,some 2⟩]]
theorem postscript_line_wClosed : closed postscript_line_rows postscript_line_wTab WA.init (WA.succ postscript_line_M) (WA.eofOk postscript_line_M) = true := by
  decide +kernel
def postscript_line_W : WCert postscript_line_M := ⟨postscript_line_D, postscript_line_wTab, postscript_line_wClosed⟩

def umple_line_wTab : List (List WA) := [[⟨none,false,false,false,none⟩],[⟨some (.own 0),false,false,false,some 0⟩],[⟨some .newline,true,false,false,none⟩],[⟨some .newline,true,false,true,some 3⟩],[⟨some (.own 7),true,false,true,some 4⟩],[⟨some (.own 7),true,false,true,some 4⟩],[⟨some (.own 7),true,false,true,some 4⟩],[⟨some (.own 7),true,true,true,some 4⟩,⟨some (.own 7),false,true,true,some 4⟩,⟨some (.own 7),true,false,true,some 4⟩,⟨some (.own 7),false,false,true,some 4⟩],[⟨some (.own 7),true,true,true,some 4⟩,⟨some (.own 7),true,false,true,some 4⟩],[⟨some (.own 7),true,true,true,some 4⟩,⟨some (.own 7),false,true,true,some 4⟩,⟨some (.own 7),true,false,true,some 4⟩,⟨some (.own 7),false,false,true,some 4⟩],[⟨some (.own 7),true,true,true,some 4⟩,⟨some (.own 7),true,false,true,some 4⟩],[⟨some (.own 7),true,true,true,some 4⟩],[⟨some (.own 7),true,true,true,some 1⟩],[⟨some (.own 7),true,true,true,some 4⟩,⟨some (.own 7),false,true,true,some 4⟩],[⟨some (.own 7),true,true,true,some 4⟩,⟨some (.own 7),false,true,true,some 4⟩],[⟨some (.own 7),true,true,true,some 4⟩,⟨some .internalNl,true,true,true,some 4⟩,⟨some .internalNl,true,false,true,some 4⟩,⟨some (.own 7),true,false,true,some 4⟩],[⟨some (.own 7),false,true,true,some 4⟩,⟨some .internalNl,false,true,true,some 4⟩,⟨some .internalNl,false,false,true,some 4⟩,⟨some (.own 7),false,false,true,some 4⟩],[⟨some (.own 7),true,true,true,some 4⟩,⟨some .internalNl,true,true,true,some 4⟩,⟨some .internalNl,true,false,true,some 4⟩,⟨some (.own 7),true,false,true,some 4⟩],[⟨some (.own 7),true,true,true,some 4⟩,⟨some .internalNl,true,true,true,some 4⟩,⟨some .internalNl,true,false,true,some 4⟩,⟨some (.own 7),true,false,true,some 4⟩],[⟨some (.own 7),true,true,true,some 4⟩,⟨some .internalNl,true,true,true,some 4⟩,⟨some .internalNl,true,false,true,some 4⟩,⟨some (.own 7),true,false,true,some 4⟩],[⟨some (.own 7),true,true,true,some 4⟩,⟨some .internalNl,true,true,true,some 4⟩,⟨some .internalNl,true,false,true,some 4⟩,⟨some (.own 7),true,false,true,some 4⟩],[⟨some (.own 7),true,true,true,some 4⟩,⟨some .internalNl,true,true,true,some 4⟩,⟨some .internalNl,true,false,true,some 4⟩,⟨some (.own 7),true,false,true,some 4⟩],[⟨some (.own 7),true,true,true,some 1⟩,⟨some (.own 7),false,true,false,some 1⟩,⟨some (.own 7),true,false,true,some 1⟩,⟨some (.own 7),false,false,false,some 1⟩],[⟨some .internalNl,true,true,true,some 4⟩,⟨some (.own 7),true,true,true,some 4⟩],[⟨some .internalNl,true,true,true,some 4⟩]]
theorem umple_line_wClosed : closed umple_line_rows umple_line_wTab WA.init (WA.succ umple_line_M) (WA.eofOk umple_line_M) = true := by
  decide +kernel
def umple_line_W : WCert umple_line_M := ⟨umple_line_D, umple_line_wTab, umple_line_wClosed⟩

end Ohcount.Cert
