import Verif.Cert.N12
import Verif.RagelSolid

/-! Generated by tools/gen_solid.py. -/

namespace Ohcount.Cert
open Ohcount.Ragel Ohcount.Gram

set_option maxRecDepth 100000

def erlang_line_wTab : List (List WA) := [[⟨none,false,false,false,none⟩],[⟨some (.own 0),false,false,false,some 0⟩],[⟨some .newline,true,false,false,none⟩],[⟨some .newline,true,false,true,some 3⟩],[⟨some (.own 3),true,false,true,some 4⟩],[⟨some (.own 3),true,false,true,some 4⟩],[⟨some (.own 3),true,false,true,some 4⟩],[⟨some (.own 3),true,true,true,some 4⟩,⟨some (.own 3),false,true,true,some 4⟩,⟨some (.own 3),true,false,true,some 4⟩,⟨some (.own 3),false,false,true,some 4⟩],[⟨some (.own 3),true,true,true,some 4⟩,⟨some (.own 3),true,false,true,some 4⟩],[⟨some (.own 3),true,true,true,some 1⟩],[⟨some (.own 3),true,true,true,some 4⟩,⟨some (.own 3),false,true,true,some 4⟩,⟨some (.own 3),true,false,true,some 4⟩,⟨some (.own 3),false,false,true,some 4⟩],[⟨some (.own 3),true,true,true,some 4⟩,⟨some (.own 3),true,false,true,some 4⟩],[⟨some (.own 3),true,true,true,some 4⟩,⟨some (.own 3),false,true,true,some 4⟩],[⟨some (.own 3),true,true,true,some 1⟩,⟨some (.own 3),false,true,false,some 1⟩,⟨some (.own 3),true,false,true,some 1⟩,⟨some (.own 3),false,false,false,some 1⟩],[⟨some (.own 3),true,true,true,some 4⟩,⟨some (.own 3),false,true,true,some 4⟩]]
theorem erlang_line_wClosed : closed erlang_line_rows erlang_line_wTab WA.init (WA.succ erlang_line_M) (WA.eofOk erlang_line_M) = true := by
  decide +kernel
def erlang_line_W : WCert erlang_line_M := ⟨erlang_line_D, erlang_line_wTab, erlang_line_wClosed⟩

def golang_line_wTab : List (List WA) := [[⟨none,false,false,false,none⟩],[⟨some (.own 0),false,false,false,some 0⟩],[⟨some .newline,true,false,false,none⟩],[⟨some .newline,true,false,true,some 3⟩],[⟨some (.own 8),true,false,true,some 4⟩],[⟨some (.own 8),true,false,true,some 4⟩],[⟨some (.own 8),true,false,true,some 4⟩],[⟨some (.own 8),true,true,true,some 4⟩,⟨some .internalNl,true,true,true,some 4⟩,⟨some .internalNl,true,false,true,some 4⟩,⟨some (.own 8),true,false,true,some 4⟩],[⟨some (.own 8),false,true,true,some 4⟩,⟨some .internalNl,false,true,true,some 4⟩,⟨some .internalNl,false,false,true,some 4⟩,⟨some (.own 8),false,false,true,some 4⟩],[⟨some (.own 8),true,true,true,some 4⟩,⟨some .internalNl,true,true,true,some 4⟩,⟨some .internalNl,true,false,true,some 4⟩,⟨some (.own 8),true,false,true,some 4⟩],[⟨some (.own 8),true,true,true,some 4⟩,⟨some .internalNl,true,true,true,some 4⟩,⟨some .internalNl,true,false,true,some 4⟩,⟨some (.own 8),true,false,true,some 4⟩],[⟨some (.own 8),false,true,true,some 4⟩,⟨some .internalNl,false,true,true,some 4⟩,⟨some .internalNl,false,false,true,some 4⟩,⟨some (.own 8),false,false,true,some 4⟩],[⟨some (.own 8),true,true,true,some 4⟩,⟨some .internalNl,true,true,true,some 4⟩,⟨some .internalNl,true,false,true,some 4⟩,⟨some (.own 8),true,false,true,some 4⟩],[⟨some (.own 8),true,true,true,some 4⟩],[⟨some (.own 8),true,true,true,some 1⟩],[⟨some (.own 8),true,true,true,some 4⟩,⟨some (.own 8),false,true,true,some 4⟩,⟨some .internalNl,true,true,true,some 4⟩,⟨some .internalNl,false,true,true,some 4⟩],[⟨some (.own 8),true,true,true,some 4⟩,⟨some .internalNl,true,true,true,some 4⟩],[⟨some (.own 8),true,true,true,some 4⟩,⟨some .internalNl,true,true,true,some 4⟩],[⟨some (.own 8),true,true,true,some 4⟩,⟨some .internalNl,true,true,true,some 4⟩],[⟨some (.own 8),true,true,true,some 4⟩,⟨some .internalNl,true,true,true,some 4⟩],[⟨some (.own 8),true,true,true,some 4⟩,⟨some (.own 8),false,true,true,some 4⟩,⟨some .internalNl,true,true,true,some 4⟩,⟨some .internalNl,false,true,true,some 4⟩],[⟨some (.own 8),true,true,true,some 4⟩,⟨some .internalNl,true,true,true,some 4⟩],[⟨some (.own 8),true,true,true,some 4⟩,⟨some .internalNl,true,true,true,some 4⟩],[⟨some (.own 8),true,true,true,some 4⟩,⟨some .internalNl,true,true,true,some 4⟩],[⟨some (.own 8),true,true,true,some 4⟩,⟨some .internalNl,true,true,true,some 4⟩],[⟨some (.own 8),true,true,true,some 4⟩,⟨some .internalNl,true,true,true,some 4⟩,⟨some .internalNl,true,false,true,some 4⟩,⟨some (.own 8),true,false,true,some 4⟩],[⟨some (.own 8),false,true,true,some 4⟩,⟨some .internalNl,false,true,true,some 4⟩,⟨some .internalNl,false,false,true,some 4⟩,⟨some (.own 8),false,false,true,some 4⟩],[⟨some (.own 8),true,true,true,some 4⟩,⟨some .internalNl,true,true,true,some 4⟩,⟨some .internalNl,true,false,true,some 4⟩,⟨some (.own 8),true,false,true,some 4⟩],[⟨some (.own 8),true,true,true,some 4⟩,⟨some .internalNl,true,true,true,some 4⟩,⟨some .internalNl,true,false,true,some 4⟩,⟨some (.own 8),true,false,true,some 4⟩],[⟨some (.own 8),true,true,true,some 4⟩,⟨some .internalNl,true,true,true,some 4⟩,⟨some .internalNl,true,false,true,some 4⟩,⟨some (.own 8),true,false,true,some 4⟩],[⟨some (.own 8),true,true,true,some 4⟩,⟨some .internalNl,true,true,true,some 4⟩,⟨some .internalNl,true,false,true,some 4⟩,⟨some (.own 8),true,false,true,some 4⟩],[⟨some (.own 8),true,true,true,some 4⟩,⟨some .internalNl,true,true,true,some 4⟩,⟨some .internalNl,true,false,true,some 4⟩,⟨some (.own 8),true,false,true,some 4⟩],[⟨some (.own 8),true,true,true,some 1⟩,⟨some .internalNl,true,true,true,some 1⟩,⟨some .internalNl,true,false,true,some 1⟩,⟨some (.own 8),true,false,true,some 1⟩],[⟨some (.own 8),false,true,false,some 1⟩,⟨some .internalNl,false,true,false,some 1⟩,⟨some .internalNl,false,false,false,some 1⟩,⟨some (.own 8),false,false,false,some 1⟩],[⟨some (.own 8),true,true,true,some 1⟩,⟨some .internalNl,true,true,true,some 1⟩,⟨some .internalNl,true,false,true,some 1⟩,⟨some (.own 8),true,false,true,some 1⟩],[⟨some .internalNl,true,true,true,some 4⟩,⟨some (.own 8),true,true,true,some 4⟩],[⟨some .internalNl,true,true,true,some 4⟩],[⟨some .internalNl,true,true,true,some 4⟩,⟨some (.own 8),true,true,true,some 4⟩],[⟨some .internalNl,true,true,true,some 4⟩],[⟨some .internalNl,true,true,true,some 4⟩,⟨some (.own 8),true,true,true,some 4⟩],[⟨some .internalNl,true,true,true,some 4⟩],[⟨some (.own 8),true,true,true,some 1⟩,⟨some .internalNl,true,true,true,some 1⟩],[⟨some (.own 8),true,true,true,some 1⟩,⟨some .internalNl,true,true,true,some 1⟩],[⟨some (.own 8),true,true,true,some 1⟩,⟨some .internalNl,true,true,true,some 1⟩],[⟨some (.own 8),true,true,true,some 1⟩,⟨some .internalNl,true,true,true,some 1⟩],[⟨some (.own 8),true,true,true,some 1⟩,⟨some .internalNl,true,true,true,some 1⟩]]
theorem golang_line_wClosed : closed golang_line_rows golang_line_wTab WA.init (WA.succ golang_line_M) (WA.eofOk golang_line_M) = true := by
  decide +kernel
def golang_line_W : WCert golang_line_M := ⟨golang_line_D, golang_line_wTab, golang_line_wClosed⟩

def haskell_line_wTab : List (List WA) := [[⟨none,false,false,false,none⟩],[⟨some (.own 0),false,false,false,some 0⟩],[⟨some .newline,true,false,false,none⟩],[⟨some .newline,true,false,true,some 3⟩],[⟨some (.own 3),true,false,true,some 4⟩],[⟨some (.own 3),true,false,true,some 4⟩],[⟨some (.own 3),true,false,true,some 4⟩],[⟨some (.own 3),true,false,true,some 4⟩],[⟨some (.own 3),true,true,true,some 4⟩,⟨some .internalNl,true,true,true,some 4⟩,⟨some .internalNl,true,false,true,some 4⟩,⟨some (.own 3),true,false,true,some 4⟩],[⟨some (.own 3),false,true,true,some 4⟩,⟨some .internalNl,false,true,true,some 4⟩,⟨some .internalNl,false,false,true,some 4⟩,⟨some (.own 3),false,false,true,some 4⟩],[⟨some (.own 3),true,true,true,some 4⟩,⟨some .internalNl,true,true,true,some 4⟩,⟨some .internalNl,true,false,true,some 4⟩,⟨some (.own 3),true,false,true,some 4⟩],[⟨some (.own 3),true,true,true,some 4⟩,⟨some (.own 3),false,true,true,some 4⟩],[⟨some (.own 3),true,true,true,some 4⟩],[⟨some (.own 3),true,true,true,some 4⟩],[⟨some (.own 3),true,true,true,some 4⟩],[⟨some (.own 3),true,true,true,some 4⟩,⟨some (.own 3),false,true,true,some 4⟩,⟨some .internalNl,true,true,true,some 4⟩,⟨some .internalNl,false,true,true,some 4⟩],[⟨some (.own 3),true,true,true,some 4⟩,⟨some .internalNl,true,true,true,some 4⟩],[⟨some (.own 3),true,true,true,some 4⟩,⟨some .internalNl,true,true,true,some 4⟩],[⟨some (.own 3),true,true,true,some 4⟩,⟨some .internalNl,true,true,true,some 4⟩],[⟨some (.own 3),true,true,true,some 4⟩,⟨some .internalNl,true,true,true,some 4⟩],[⟨some (.own 3),true,true,true,some 4⟩,⟨some (.own 3),false,true,true,some 4⟩],[⟨some (.own 3),true,false,true,some 1⟩,⟨some (.own 3),true,false,false,some 1⟩],[⟨some (.own 3),true,true,true,some 4⟩,⟨some .internalNl,true,true,true,some 4⟩,⟨some .internalNl,true,false,true,some 4⟩,⟨some (.own 3),true,false,true,some 4⟩],[⟨some (.own 3),false,true,true,some 4⟩,⟨some .internalNl,false,true,true,some 4⟩,⟨some .internalNl,false,false,true,some 4⟩,⟨some (.own 3),false,false,true,some 4⟩],[⟨some (.own 3),true,true,true,some 4⟩,⟨some .internalNl,true,true,true,some 4⟩,⟨some .internalNl,true,false,true,some 4⟩,⟨some (.own 3),true,false,true,some 4⟩],[⟨some (.own 3),true,true,true,some 4⟩,⟨some .internalNl,true,true,true,some 4⟩,⟨some .internalNl,true,false,true,some 4⟩,⟨some (.own 3),true,false,true,some 4⟩],[⟨some (.own 3),true,true,true,some 4⟩,⟨some .internalNl,true,true,true,some 4⟩,⟨some .internalNl,true,false,true,some 4⟩,⟨some (.own 3),true,false,true,some 4⟩],[⟨some (.own 3),true,true,true,some 4⟩,⟨some .internalNl,true,true,true,some 4⟩,⟨some .internalNl,true,false,true,some 4⟩,⟨some (.own 3),true,false,true,some 4⟩],[⟨some (.own 3),true,true,true,some 4⟩,⟨some .internalNl,true,true,true,some 4⟩,⟨some .internalNl,true,false,true,some 4⟩,⟨some (.own 3),true,false,true,some 4⟩],[⟨some (.own 3),true,true,true,some 4⟩,⟨some .internalNl,true,true,true,some 4⟩,⟨some .internalNl,true,false,true,some 4⟩,⟨some (.own 3),true,false,true,some 4⟩],[⟨some (.own 3),true,true,true,some 4⟩,⟨some .internalNl,true,true,true,some 4⟩,⟨some .internalNl,true,false,true,some 4⟩,⟨some (.own 3),true,false,true,some 4⟩],[⟨some .internalNl,true,true,true,some 4⟩,⟨some (.own 3),true,true,true,some 4⟩],[⟨some .internalNl,true,true,true,some 4⟩],[⟨some (.own 3),true,true,true,some 1⟩,⟨some (.own 3),false,true,false,some 1⟩,⟨some (.own 3),true,false,true,some 1⟩,⟨some (.own 3),false,false,false,some 1⟩],[⟨some .internalNl,true,true,true,some 4⟩,⟨some (.own 3),true,true,true,some 4⟩],[⟨some .internalNl,true,true,true,some 4⟩],[⟨some (.own 3),true,true,true,some 4⟩,⟨some .internalNl,true,true,true,some 4⟩],[⟨some (.own 3),true,true,true,some 4⟩,⟨some .internalNl,true,true,true,some 4⟩],[⟨some (.own 3),true,true,true,some 4⟩,⟨some .internalNl,true,true,true,some 4⟩]]
theorem haskell_line_wClosed : closed haskell_line_rows haskell_line_wTab WA.init (WA.succ haskell_line_M) (WA.eofOk haskell_line_M) = true := by
  decide +kernel
def haskell_line_W : WCert haskell_line_M := ⟨haskell_line_D, haskell_line_wTab, haskell_line_wClosed⟩

def idl_pvwave_line_wTab : List (List WA) := [[⟨none,false,false,false,none⟩],[⟨some (.own 0),false,false,false,some 0⟩],[⟨some .newline,true,false,false,none⟩],[⟨some .newline,true,false,true,some 2⟩],[⟨some (.own 3),true,false,true,some 1⟩],[⟨some (.own 3),true,true,true,some 1⟩,⟨some (.own 3),false,true,false,some 1⟩,⟨some (.own 3),true,false,true,some 1⟩,⟨some (.own 3),false,false,false,some 1⟩]]
theorem idl_pvwave_line_wClosed : closed idl_pvwave_line_rows idl_pvwave_line_wTab WA.init (WA.succ idl_pvwave_line_M) (WA.eofOk idl_pvwave_line_M) = true := by
  decide +kernel
def idl_pvwave_line_W : WCert idl_pvwave_line_M := ⟨idl_pvwave_line_D, idl_pvwave_line_wTab, idl_pvwave_line_wClosed⟩

def modula2_line_wTab : List (List WA) := [[⟨none,false,false,false,none⟩],[⟨some (.own 0),false,false,false,some 0⟩],[⟨some .newline,true,false,false,none⟩],[⟨some .newline,true,false,true,some 3⟩],[⟨some (.own 3),true,false,true,some 4⟩],[⟨some (.own 3),true,false,true,some 4⟩],[⟨some (.own 3),true,false,true,some 4⟩],[⟨some (.own 3),true,true,true,some 4⟩,⟨some (.own 3),false,true,true,some 4⟩,⟨some (.own 3),true,false,true,some 4⟩,⟨some (.own 3),false,false,true,some 4⟩],[⟨some (.own 3),true,true,true,some 4⟩,⟨some (.own 3),false,true,true,some 4⟩,⟨some (.own 3),true,true,true,some 2⟩,⟨some (.own 3),false,true,true,some 2⟩,⟨some (.own 3),true,false,true,some 2⟩,⟨some (.own 3),false,false,true,some 2⟩,⟨some (.own 3),true,false,true,some 4⟩,⟨some (.own 3),false,false,true,some 4⟩],[⟨some (.own 3),true,true,true,some 2⟩,⟨some (.own 3),true,false,true,some 2⟩],[⟨some (.own 3),true,true,true,some 4⟩],[⟨some (.own 3),true,true,true,some 4⟩,⟨some .internalNl,true,true,true,some 4⟩,⟨some .internalNl,true,false,true,some 4⟩,⟨some (.own 3),true,false,true,some 4⟩],[⟨some (.own 3),false,true,true,some 4⟩,⟨some .internalNl,false,true,true,some 4⟩,⟨some .internalNl,false,false,true,some 4⟩,⟨some (.own 3),false,false,true,some 4⟩],[⟨some (.own 3),true,true,true,some 4⟩,⟨some .internalNl,true,true,true,some 4⟩,⟨some .internalNl,true,false,true,some 4⟩,⟨some (.own 3),true,false,true,some 4⟩],[⟨some (.own 3),true,true,true,some 4⟩,⟨some .internalNl,true,true,true,some 4⟩,⟨some .internalNl,true,false,true,some 4⟩,⟨some (.own 3),true,false,true,some 4⟩],[⟨some (.own 3),true,true,true,some 4⟩,⟨some .internalNl,true,true,true,some 4⟩,⟨some .internalNl,true,false,true,some 4⟩,⟨some (.own 3),true,false,true,some 4⟩],[⟨some (.own 3),true,true,true,some 4⟩,⟨some .internalNl,true,true,true,some 4⟩,⟨some .internalNl,true,false,true,some 4⟩,⟨some (.own 3),true,false,true,some 4⟩],[⟨some (.own 3),true,true,true,some 4⟩,⟨some .internalNl,true,true,true,some 4⟩,⟨some .internalNl,true,false,true,some 4⟩,⟨some (.own 3),true,false,true,some 4⟩],[⟨some (.own 3),true,true,true,some 4⟩,⟨some .internalNl,true,true,true,some 4⟩,⟨some .internalNl,true,false,true,some 4⟩,⟨some (.own 3),true,false,true,some 4⟩],[⟨some (.own 3),true,true,true,some 4⟩,⟨some .internalNl,true,true,true,some 4⟩,⟨some .internalNl,true,false,true,some 4⟩,⟨some (.own 3),true,false,true,some 4⟩],[⟨some .internalNl,true,true,true,some 4⟩,⟨some (.own 3),true,true,true,some 4⟩],[⟨some .internalNl,true,true,true,some 4⟩],[⟨some (.own 3),true,true,true,some 4⟩,⟨some .internalNl,true,true,true,some 4⟩],[⟨some (.own 3),true,true,true,some 4⟩,⟨some .internalNl,true,true,true,some 4⟩],[⟨some (.own 3),true,true,true,some 4⟩,⟨some .internalNl,true,true,true,some 4⟩]]
theorem modula2_line_wClosed : closed modula2_line_rows modula2_line_wTab WA.init (WA.succ modula2_line_M) (WA.eofOk modula2_line_M) = true := by
  decide +kernel
def modula2_line_W : WCert modula2_line_M := ⟨modula2_line_D, modula2_line_wTab, modula2_line_wClosed⟩

def modula3_line_wTab : List (List WA) := [[⟨none,false,false,false,none⟩],[⟨some (.own 0),false,false,false,some 0⟩],[⟨some .newline,true,false,false,none⟩],[⟨some .newline,true,false,true,some 3⟩],[⟨some (.own 3),true,false,true,some 4⟩],[⟨some (.own 3),true,false,true,some 4⟩],[⟨some (.own 3),true,false,true,some 4⟩],[⟨some (.own 3),true,true,true,some 4⟩,⟨some .internalNl,true,true,true,some 4⟩,⟨some .internalNl,true,false,true,some 4⟩,⟨some (.own 3),true,false,true,some 4⟩],[⟨some (.own 3),false,true,true,some 4⟩,⟨some .internalNl,false,true,true,some 4⟩,⟨some .internalNl,false,false,true,some 4⟩,⟨some (.own 3),false,false,true,some 4⟩],[⟨some (.own 3),true,true,true,some 4⟩,⟨some .internalNl,true,true,true,some 4⟩,⟨some .internalNl,true,false,true,some 4⟩,⟨some (.own 3),true,false,true,some 4⟩],[⟨some (.own 3),true,true,true,some 4⟩,⟨some .internalNl,true,true,true,some 4⟩,⟨some .internalNl,true,false,true,some 4⟩,⟨some (.own 3),true,false,true,some 4⟩],[⟨some (.own 3),false,true,true,some 4⟩,⟨some .internalNl,false,true,true,some 4⟩,⟨some .internalNl,false,false,true,some 4⟩,⟨some (.own 3),false,false,true,some 4⟩],[⟨some (.own 3),true,true,true,some 4⟩,⟨some .internalNl,true,true,true,some 4⟩,⟨some .internalNl,true,false,true,some 4⟩,⟨some (.own 3),true,false,true,some 4⟩],[⟨some (.own 3),true,true,true,some 4⟩],[⟨some (.own 3),true,true,true,some 4⟩,⟨some (.own 3),false,true,true,some 4⟩,⟨some .internalNl,true,true,true,some 4⟩,⟨some .internalNl,false,true,true,some 4⟩],[⟨some (.own 3),true,true,true,some 4⟩,⟨some .internalNl,true,true,true,some 4⟩],[⟨some (.own 3),true,true,true,some 4⟩,⟨some .internalNl,true,true,true,some 4⟩],[⟨some (.own 3),true,true,true,some 4⟩,⟨some .internalNl,true,true,true,some 4⟩],[⟨some (.own 3),true,true,true,some 4⟩,⟨some .internalNl,true,true,true,some 4⟩],[⟨some (.own 3),true,true,true,some 4⟩,⟨some (.own 3),false,true,true,some 4⟩,⟨some .internalNl,true,true,true,some 4⟩,⟨some .internalNl,false,true,true,some 4⟩],[⟨some (.own 3),true,true,true,some 4⟩,⟨some .internalNl,true,true,true,some 4⟩],[⟨some (.own 3),true,true,true,some 4⟩,⟨some .internalNl,true,true,true,some 4⟩],[⟨some (.own 3),true,true,true,some 4⟩,⟨some .internalNl,true,true,true,some 4⟩],[⟨some (.own 3),true,true,true,some 4⟩,⟨some .internalNl,true,true,true,some 4⟩],[⟨some (.own 3),true,true,true,some 4⟩,⟨some .internalNl,true,true,true,some 4⟩,⟨some .internalNl,true,false,true,some 4⟩,⟨some (.own 3),true,false,true,some 4⟩],[⟨some (.own 3),false,true,true,some 4⟩,⟨some .internalNl,false,true,true,some 4⟩,⟨some .internalNl,false,false,true,some 4⟩,⟨some (.own 3),false,false,true,some 4⟩],[⟨some (.own 3),true,true,true,some 4⟩,⟨some .internalNl,true,true,true,some 4⟩,⟨some .internalNl,true,false,true,some 4⟩,⟨some (.own 3),true,false,true,some 4⟩],[⟨some (.own 3),true,true,true,some 4⟩,⟨some .internalNl,true,true,true,some 4⟩,⟨some .internalNl,true,false,true,some 4⟩,⟨some (.own 3),true,false,true,some 4⟩],[⟨some (.own 3),true,true,true,some 4⟩,⟨some .internalNl,true,true,true,some 4⟩,⟨some .internalNl,true,false,true,some 4⟩,⟨some (.own 3),true,false,true,some 4⟩],[⟨some (.own 3),true,true,true,some 4⟩,⟨some .internalNl,true,true,true,some 4⟩,⟨some .internalNl,true,false,true,some 4⟩,⟨some (.own 3),true,false,true,some 4⟩],[⟨some (.own 3),true,true,true,some 4⟩,⟨some .internalNl,true,true,true,some 4⟩,⟨some .internalNl,true,false,true,some 4⟩,⟨some (.own 3),true,false,true,some 4⟩],[⟨some (.own 3),true,true,true,some 4⟩,⟨some .internalNl,true,true,true,some 4⟩,⟨some .internalNl,true,false,true,some 4⟩,⟨some (.own 3),true,false,true,some 4⟩],[⟨some (.own 3),true,true,true,some 4⟩,⟨some .internalNl,true,true,true,some 4⟩,⟨some .internalNl,true,false,true,some 4⟩,⟨some (.own 3),true,false,true,some 4⟩],[⟨some .internalNl,true,true,true,some 4⟩,⟨some (.own 3),true,true,true,some 4⟩],[⟨some .internalNl,true,true,true,some 4⟩],[⟨some .internalNl,true,true,true,some 4⟩,⟨some (.own 3),true,true,true,some 4⟩],[⟨some .internalNl,true,true,true,some 4⟩],[⟨some .internalNl,true,true,true,some 4⟩,⟨some (.own 3),true,true,true,some 4⟩],[⟨some .internalNl,true,true,true,some 4⟩],[⟨some (.own 3),true,true,true,some 4⟩,⟨some .internalNl,true,true,true,some 4⟩],[⟨some (.own 3),true,true,true,some 4⟩,⟨some .internalNl,true,true,true,some 4⟩],[⟨some (.own 3),true,true,true,some 4⟩,⟨some .internalNl,true,true,true,some 4⟩]]
theorem modula3_line_wClosed : closed modula3_line_rows modula3_line_wTab WA.init (WA.succ modula3_line_M) (WA.eofOk modula3_line_M) = true := by
  decide +kernel
def modula3_line_W : WCert modula3_line_M := ⟨modula3_line_D, modula3_line_wTab, modula3_line_wClosed⟩

def objj_line_wTab : List (List WA) := [[⟨none,false,false,false,none⟩],[⟨some (.own 0),false,false,false,some 0⟩],[⟨some .newline,true,false,false,none⟩],[⟨some .newline,true,false,true,some 3⟩],[⟨some (.own 3),true,false,true,some 4⟩],[⟨some (.own 3),true,false,true,some 4⟩],[⟨some (.own 3),true,false,true,some 4⟩],[⟨some (.own 3),true,true,true,some 4⟩,⟨some (.own 3),false,true,true,some 4⟩,⟨some (.own 3),true,false,true,some 4⟩,⟨some (.own 3),false,false,true,some 4⟩],[⟨some (.own 3),true,true,true,some 4⟩,⟨some (.own 3),true,false,true,some 4⟩],[⟨some (.own 3),true,true,true,some 4⟩,⟨some (.own 3),false,true,true,some 4⟩,⟨some (.own 3),true,false,true,some 4⟩,⟨some (.own 3),false,false,true,some 4⟩],[⟨some (.own 3),true,true,true,some 4⟩,⟨some (.own 3),true,false,true,some 4⟩],[⟨some (.own 3),true,true,true,some 4⟩],[⟨some (.own 3),true,true,true,some 1⟩],[⟨some (.own 3),true,true,true,some 4⟩,⟨some (.own 3),false,true,true,some 4⟩],[⟨some (.own 3),true,true,true,some 4⟩,⟨some (.own 3),false,true,true,some 4⟩],[⟨some (.own 3),true,true,true,some 4⟩,⟨some .internalNl,true,true,true,some 4⟩,⟨some .internalNl,true,false,true,some 4⟩,⟨some (.own 3),true,false,true,some 4⟩],[⟨some (.own 3),false,true,true,some 4⟩,⟨some .internalNl,false,true,true,some 4⟩,⟨some .internalNl,false,false,true,some 4⟩,⟨some (.own 3),false,false,true,some 4⟩],[⟨some (.own 3),true,true,true,some 4⟩,⟨some .internalNl,true,true,true,some 4⟩,⟨some .internalNl,true,false,true,some 4⟩,⟨some (.own 3),true,false,true,some 4⟩],[⟨some (.own 3),true,true,true,some 4⟩,⟨some .internalNl,true,true,true,some 4⟩,⟨some .internalNl,true,false,true,some 4⟩,⟨some (.own 3),true,false,true,some 4⟩],[⟨some (.own 3),true,true,true,some 4⟩,⟨some .internalNl,true,true,true,some 4⟩,⟨some .internalNl,true,false,true,some 4⟩,⟨some (.own 3),true,false,true,some 4⟩],[⟨some (.own 3),true,true,true,some 4⟩,⟨some .internalNl,true,true,true,some 4⟩,⟨some .internalNl,true,false,true,some 4⟩,⟨some (.own 3),true,false,true,some 4⟩],[⟨some (.own 3),true,true,true,some 4⟩,⟨some .internalNl,true,true,true,some 4⟩,⟨some .internalNl,true,false,true,some 4⟩,⟨some (.own 3),true,false,true,some 4⟩],[⟨some (.own 3),true,true,true,some 1⟩,⟨some .internalNl,true,true,true,some 1⟩,⟨some .internalNl,true,false,true,some 1⟩,⟨some (.own 3),true,false,true,some 1⟩],[⟨some (.own 3),false,true,false,some 1⟩,⟨some .internalNl,false,true,false,some 1⟩,⟨some .internalNl,false,false,false,some 1⟩,⟨some (.own 3),false,false,false,some 1⟩],[⟨some (.own 3),true,true,true,some 1⟩,⟨some .internalNl,true,true,true,some 1⟩,⟨some .internalNl,true,false,true,some 1⟩,⟨some (.own 3),true,false,true,some 1⟩],[⟨some .internalNl,true,true,true,some 4⟩,⟨some (.own 3),true,true,true,some 4⟩],[⟨some .internalNl,true,true,true,some 4⟩],[⟨some (.own 3),true,true,true,some 1⟩,⟨some .internalNl,true,true,true,some 1⟩],[⟨some (.own 3),true,true,true,some 1⟩,⟨some .internalNl,true,true,true,some 1⟩],[⟨some (.own 3),true,true,true,some 1⟩,⟨some .internalNl,true,true,true,some 1⟩],[⟨some (.own 3),true,true,true,some 1⟩,⟨some .internalNl,true,true,true,some 1⟩],[⟨some (.own 3),true,true,true,some 1⟩,⟨some .internalNl,true,true,true,some 1⟩]]
theorem objj_line_wClosed : closed objj_line_rows objj_line_wTab WA.init (WA.succ objj_line_M) (WA.eofOk objj_line_M) = true := by
  decide +kernel
def objj_line_W : WCert objj_line_M := ⟨objj_line_D, objj_line_wTab, objj_line_wClosed⟩

def prolog_line_wTab : List (List WA) := [[⟨none,false,false,false,none⟩],[⟨some (.own 0),false,false,false,some 0⟩],[⟨some .newline,true,false,false,none⟩],[⟨some .newline,true,false,true,some 3⟩],[⟨some (.own 3),true,false,true,some 4⟩],[⟨some (.own 3),true,false,true,some 1⟩],[⟨some (.own 3),true,false,true,some 4⟩],[⟨some (.own 3),true,false,true,some 4⟩],[⟨some (.own 3),true,true,true,some 4⟩,⟨some (.own 3),false,true,true,some 4⟩,⟨some (.own 3),true,false,true,some 4⟩,⟨some (.own 3),false,false,true,some 4⟩],[⟨some (.own 3),true,true,true,some 4⟩,⟨some (.own 3),true,false,true,some 4⟩],[⟨some (.own 3),true,true,true,some 1⟩,⟨some (.own 3),false,true,false,some 1⟩,⟨some (.own 3),true,false,true,some 1⟩,⟨some (.own 3),false,false,false,some 1⟩],[⟨some (.own 3),true,true,true,some 4⟩,⟨some (.own 3),false,true,true,some 4⟩,⟨some (.own 3),true,false,true,some 4⟩,⟨some (.own 3),false,false,true,some 4⟩],[⟨some (.own 3),true,true,true,some 4⟩,⟨some (.own 3),true,false,true,some 4⟩],[⟨some (.own 3),true,true,true,some 4⟩],[⟨some (.own 3),true,true,true,some 4⟩,⟨some (.own 3),false,true,true,some 4⟩],[⟨some (.own 3),true,true,true,some 4⟩,⟨some (.own 3),false,true,true,some 4⟩],[⟨some (.own 3),true,true,true,some 4⟩,⟨some .internalNl,true,true,true,some 4⟩,⟨some .internalNl,true,false,true,some 4⟩,⟨some (.own 3),true,false,true,some 4⟩],[⟨some (.own 3),false,true,true,some 4⟩,⟨some .internalNl,false,true,true,some 4⟩,⟨some .internalNl,false,false,true,some 4⟩,⟨some (.own 3),false,false,true,some 4⟩],[⟨some (.own 3),true,true,true,some 4⟩,⟨some .internalNl,true,true,true,some 4⟩,⟨some .internalNl,true,false,true,some 4⟩,⟨some (.own 3),true,false,true,some 4⟩],[⟨some (.own 3),true,true,true,some 4⟩,⟨some .internalNl,true,true,true,some 4⟩,⟨some .internalNl,true,false,true,some 4⟩,⟨some (.own 3),true,false,true,some 4⟩],[⟨some (.own 3),true,true,true,some 4⟩,⟨some .internalNl,true,true,true,some 4⟩,⟨some .internalNl,true,false,true,some 4⟩,⟨some (.own 3),true,false,true,some 4⟩],[⟨some (.own 3),true,true,true,some 4⟩,⟨some .internalNl,true,true,true,some 4⟩,⟨some .internalNl,true,false,true,some 4⟩,⟨some (.own 3),true,false,true,some 4⟩],[⟨some (.own 3),true,true,true,some 4⟩,⟨some .internalNl,true,true,true,some 4⟩,⟨some .internalNl,true,false,true,some 4⟩,⟨some (.own 3),true,false,true,some 4⟩],[⟨some .internalNl,true,true,true,some 4⟩,⟨some (.own 3),true,true,true,some 4⟩],[⟨some .internalNl,true,true,true,some 4⟩]]
theorem prolog_line_wClosed : closed prolog_line_rows prolog_line_wTab WA.init (WA.succ prolog_line_M) (WA.eofOk prolog_line_M) = true := by
  decide +kernel
def prolog_line_W : WCert prolog_line_M := ⟨prolog_line_D, prolog_line_wTab, prolog_line_wClosed⟩

def vb_line_wTab : List (List WA) := [[⟨none,false,false,false,none⟩],[⟨some (.own 0),false,false,false,some 0⟩],[⟨some .newline,true,false,false,none⟩],[⟨some .newline,true,false,true,some 3⟩],[⟨some (.own 3),true,false,true,some 4⟩],[⟨some (.own 3),true,false,true,some 1⟩],[⟨some (.own 3),true,false,true,some 4⟩],[⟨some (.own 3),true,true,true,some 4⟩,⟨some (.own 3),false,true,true,some 4⟩,⟨some (.own 3),true,false,true,some 4⟩,⟨some (.own 3),false,false,true,some 4⟩],[⟨some (.own 3),true,true,true,some 4⟩,⟨some (.own 3),true,false,true,some 4⟩],[⟨some (.own 3),true,true,true,some 1⟩,⟨some (.own 3),false,true,false,some 1⟩,⟨some (.own 3),true,false,true,some 1⟩,⟨some (.own 3),false,false,false,some 1⟩],[⟨some (.own 3),true,true,true,some 4⟩],[⟨some (.own 3),true,true,true,some 4⟩,⟨some (.own 3),false,true,true,some 4⟩],[⟨some (.own 3),true,true,true,some 1⟩]]
theorem vb_line_wClosed : closed vb_line_rows vb_line_wTab WA.init (WA.succ vb_line_M) (WA.eofOk vb_line_M) = true := by
  decide +kernel
def vb_line_W : WCert vb_line_M := ⟨vb_line_D, vb_line_wTab, vb_line_wClosed⟩

end Ohcount.Cert
