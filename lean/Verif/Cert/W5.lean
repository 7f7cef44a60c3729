import Verif.Cert.N5
import Verif.RagelSolid

/-! Generated by tools/gen_solid.py. -/

namespace Ohcount.Cert
open Ohcount.Ragel Ohcount.Gram

set_option maxRecDepth 100000

def ac_line_wTab : List (List WA) := [[⟨none,false,false,false,none⟩],[⟨some (.own 0),false,false,false,some 0⟩],[⟨some .newline,true,false,false,none⟩],[⟨some .newline,true,false,true,some 3⟩],[⟨some (.own 3),true,false,true,some 4⟩],[⟨some (.own 3),true,false,true,some 4⟩],[⟨some (.own 3),true,true,true,some 4⟩,⟨some .internalNl,true,true,true,some 4⟩,⟨some .internalNl,true,false,true,some 4⟩,⟨some (.own 3),true,false,true,some 4⟩],[⟨some (.own 3),false,true,true,some 4⟩,⟨some .internalNl,false,true,true,some 4⟩,⟨some .internalNl,false,false,true,some 4⟩,⟨some (.own 3),false,false,true,some 4⟩],[⟨some (.own 3),true,true,true,some 4⟩,⟨some .internalNl,true,true,true,some 4⟩,⟨some .internalNl,true,false,true,some 4⟩,⟨some (.own 3),true,false,true,some 4⟩],[⟨some (.own 3),true,true,true,some 4⟩,⟨some .internalNl,true,true,true,some 4⟩,⟨some .internalNl,true,false,true,some 4⟩,⟨some (.own 3),true,false,true,some 4⟩],[⟨some (.own 3),true,true,true,some 4⟩,⟨some .internalNl,true,true,true,some 4⟩,⟨some .internalNl,true,false,true,some 4⟩,⟨some (.own 3),true,false,true,some 4⟩],[⟨some (.own 3),true,true,true,some 4⟩,⟨some .internalNl,true,true,true,some 4⟩,⟨some .internalNl,true,false,true,some 4⟩,⟨some (.own 3),true,false,true,some 4⟩],[⟨some (.own 3),true,true,true,some 4⟩,⟨some .internalNl,true,true,true,some 4⟩,⟨some .internalNl,true,false,true,some 4⟩,⟨some (.own 3),true,false,true,some 4⟩],[⟨some (.own 3),true,true,true,some 4⟩,⟨some .internalNl,true,true,true,some 4⟩,⟨some .internalNl,true,false,true,some 4⟩,⟨some (.own 3),true,false,true,some 4⟩],[⟨some (.own 3),true,true,true,some 4⟩],[⟨some .internalNl,true,true,true,some 4⟩,⟨some (.own 3),true,true,true,some 4⟩],[⟨some .internalNl,true,true,true,some 4⟩],[⟨some (.own 3),true,true,true,some 1⟩],[⟨some (.own 3),false,true,true,some 1⟩],[⟨some (.own 3),true,false,true,some 1⟩,⟨some (.own 3),true,true,true,some 1⟩,⟨some (.own 3),false,true,false,some 1⟩,⟨some (.own 3),false,false,false,some 1⟩],[⟨some (.own 3),false,false,false,some 1⟩]]
theorem ac_line_wClosed : closed ac_line_rows ac_line_wTab WA.init (WA.succ ac_line_M) (WA.eofOk ac_line_M) = true := by
  decide +kernel
def ac_line_W : WCert ac_line_M := ⟨ac_line_D, ac_line_wTab, ac_line_wClosed⟩

def am_line_wTab : List (List WA) := [[⟨none,false,false,false,none⟩],[⟨some (.own 0),false,false,false,some 0⟩],[⟨some .newline,true,false,false,none⟩],[⟨some .newline,true,false,true,some 3⟩],[⟨some (.own 3),true,false,true,some 4⟩],[⟨some (.own 3),true,false,true,some 1⟩],[⟨some (.own 3),true,false,true,some 4⟩],[⟨some (.own 3),true,true,true,some 4⟩,⟨some (.own 3),false,true,true,some 4⟩,⟨some (.own 3),true,false,true,some 4⟩,⟨some (.own 3),false,false,true,some 4⟩],[⟨some (.own 3),true,true,true,some 4⟩,⟨some (.own 3),true,false,true,some 4⟩],[⟨some (.own 3),true,true,true,some 1⟩,⟨some (.own 3),false,true,false,some 1⟩,⟨some (.own 3),true,false,true,some 1⟩,⟨some (.own 3),false,false,false,some 1⟩],[⟨some (.own 3),true,true,true,some 4⟩,⟨some (.own 3),false,true,true,some 4⟩,⟨some (.own 3),true,false,true,some 4⟩,⟨some (.own 3),false,false,true,some 4⟩],[⟨some (.own 3),true,true,true,some 4⟩,⟨some (.own 3),true,false,true,some 4⟩],[⟨some (.own 3),true,true,true,some 4⟩,⟨some (.own 3),false,true,true,some 4⟩],[⟨some (.own 3),true,true,true,some 4⟩,⟨some (.own 3),false,true,true,some 4⟩]]
theorem am_line_wClosed : closed am_line_rows am_line_wTab WA.init (WA.succ am_line_M) (WA.eofOk am_line_M) = true := by
  decide +kernel
def am_line_W : WCert am_line_M := ⟨am_line_D, am_line_wTab, am_line_wClosed⟩

def bfpp_line_wTab : List (List WA) := [[⟨none,false,false,false,none⟩],[⟨some (.own 0),false,false,false,some 0⟩],[⟨some .newline,true,false,false,none⟩],[⟨some .newline,true,false,true,some 1⟩],[⟨some (.own 1),true,false,true,some 2⟩],[⟨some (.own 1),true,false,true,some 5⟩],[⟨some (.own 1),true,true,true,some 2⟩,⟨some (.own 1),false,true,false,some 2⟩,⟨some (.own 1),true,false,true,some 2⟩,⟨some (.own 1),false,false,false,some 2⟩],[⟨some (.own 1),true,true,true,some 5⟩],[⟨some (.own 1),true,true,true,some 5⟩],[⟨some (.own 1),true,true,true,some 5⟩],[⟨some (.own 1),true,true,true,some 5⟩],[⟨some (.own 1),true,true,true,some 5⟩],[⟨some (.own 1),true,true,true,some 5⟩],[⟨some (.own 1),true,true,true,some 5⟩],[⟨some (.own 1),true,true,true,some 5⟩],[⟨some (.own 1),true,true,true,some 5⟩,⟨some .internalNl,true,true,true,some 5⟩,⟨some .internalNl,true,false,true,some 5⟩,⟨some (.own 1),true,false,true,some 5⟩],[⟨some (.own 1),false,true,true,some 5⟩,⟨some .internalNl,false,true,true,some 5⟩,⟨some .internalNl,false,false,true,some 5⟩,⟨some (.own 1),false,false,true,some 5⟩],[⟨some (.own 1),true,true,true,some 5⟩,⟨some .internalNl,true,true,true,some 5⟩,⟨some .internalNl,true,false,true,some 5⟩,⟨some (.own 1),true,false,true,some 5⟩],[⟨some (.own 1),true,true,true,some 5⟩,⟨some .internalNl,true,true,true,some 5⟩,⟨some .internalNl,true,false,true,some 5⟩,⟨some (.own 1),true,false,true,some 5⟩],[⟨some (.own 1),true,true,true,some 5⟩,⟨some .internalNl,true,true,true,some 5⟩,⟨some .internalNl,true,false,true,some 5⟩,⟨some (.own 1),true,false,true,some 5⟩],[⟨some (.own 1),true,true,true,some 5⟩,⟨some .internalNl,true,true,true,some 5⟩,⟨some .internalNl,true,false,true,some 5⟩,⟨some (.own 1),true,false,true,some 5⟩],[⟨some .internalNl,true,true,true,some 5⟩,⟨some (.own 1),true,true,true,some 5⟩],[⟨some .internalNl,true,true,true,some 5⟩]]
theorem bfpp_line_wClosed : closed bfpp_line_rows bfpp_line_wTab WA.init (WA.succ bfpp_line_M) (WA.eofOk bfpp_line_M) = true := by
  decide +kernel
def bfpp_line_W : WCert bfpp_line_M := ⟨bfpp_line_D, bfpp_line_wTab, bfpp_line_wClosed⟩

def lua_line_wTab : List (List WA) := [[⟨none,false,false,false,none⟩],[⟨some (.own 0),false,false,false,some 0⟩],[⟨some .newline,true,false,false,none⟩],[⟨some .newline,true,false,true,some 3⟩],[⟨some (.own 7),true,false,true,some 4⟩],[⟨some (.own 7),true,false,true,some 4⟩],[⟨some (.own 7),true,false,true,some 4⟩],[⟨some (.own 7),true,false,true,some 4⟩],[⟨some (.own 7),true,true,true,some 4⟩,⟨some (.own 7),true,false,true,some 4⟩,⟨some .internalNl,true,true,true,some 4⟩,⟨some .internalNl,true,false,true,some 4⟩],[⟨some (.own 7),false,true,true,some 4⟩,⟨some (.own 7),false,false,true,some 4⟩,⟨some .internalNl,false,true,true,some 4⟩,⟨some .internalNl,false,false,true,some 4⟩],[⟨some (.own 7),true,true,true,some 4⟩,⟨some (.own 7),true,false,true,some 4⟩,⟨some .internalNl,true,false,true,some 4⟩,⟨some .internalNl,true,true,true,some 4⟩],[⟨some (.own 7),true,true,true,some 4⟩,⟨some (.own 7),true,false,true,some 4⟩,⟨some .internalNl,true,true,true,some 4⟩,⟨some .internalNl,true,false,true,some 4⟩],[⟨some (.own 7),true,true,true,some 4⟩,⟨some (.own 7),true,false,true,some 4⟩,⟨some .internalNl,true,true,true,some 4⟩,⟨some .internalNl,true,false,true,some 4⟩],[⟨some (.own 7),true,true,true,some 4⟩,⟨some (.own 7),true,false,true,some 4⟩,⟨some .internalNl,true,true,true,some 4⟩,⟨some .internalNl,true,false,true,some 4⟩],[⟨some (.own 7),true,true,true,some 4⟩,⟨some (.own 7),true,false,true,some 4⟩,⟨some .internalNl,true,true,true,some 4⟩,⟨some .internalNl,true,false,true,some 4⟩],[⟨some (.own 7),true,true,true,some 4⟩,⟨some (.own 7),true,false,true,some 4⟩,⟨some .internalNl,true,true,true,some 4⟩,⟨some .internalNl,true,false,true,some 4⟩],[⟨some (.own 7),false,true,true,some 4⟩,⟨some (.own 7),false,false,true,some 4⟩,⟨some .internalNl,false,true,true,some 4⟩,⟨some .internalNl,false,false,true,some 4⟩],[⟨some (.own 7),true,true,true,some 4⟩,⟨some (.own 7),true,false,true,some 4⟩,⟨some .internalNl,true,false,true,some 4⟩,⟨some .internalNl,true,true,true,some 4⟩],[⟨some (.own 7),true,true,true,some 4⟩,⟨some (.own 7),true,false,true,some 4⟩,⟨some .internalNl,true,true,true,some 4⟩,⟨some .internalNl,true,false,true,some 4⟩],[⟨some (.own 7),true,true,true,some 4⟩,⟨some (.own 7),true,false,true,some 4⟩,⟨some .internalNl,true,true,true,some 4⟩,⟨some .internalNl,true,false,true,some 4⟩],[⟨some (.own 7),true,true,true,some 4⟩,⟨some (.own 7),true,false,true,some 4⟩,⟨some .internalNl,true,true,true,some 4⟩,⟨some .internalNl,true,false,true,some 4⟩],[⟨some (.own 7),true,true,true,some 4⟩,⟨some (.own 7),true,false,true,some 4⟩,⟨some .internalNl,true,true,true,some 4⟩,⟨some .internalNl,true,false,true,some 4⟩],[⟨some (.own 7),true,true,true,some 1⟩],[⟨some (.own 7),true,true,true,some 4⟩],[⟨some (.own 7),true,true,true,some 4⟩],[⟨some .internalNl,true,true,true,some 4⟩,⟨some (.own 7),true,true,true,some 4⟩],[⟨some .internalNl,true,true,true,some 4⟩],[⟨some (.own 7),true,true,true,some 4⟩,⟨some (.own 7),false,true,true,some 4⟩,⟨some .internalNl,true,true,true,some 4⟩,⟨some .internalNl,false,true,true,some 4⟩],[⟨some .internalNl,true,true,true,some 4⟩,⟨some (.own 7),true,true,true,some 4⟩],[⟨some .internalNl,true,true,true,some 4⟩],[⟨some (.own 7),true,true,true,some 4⟩,⟨some (.own 7),false,true,true,some 4⟩,⟨some .internalNl,true,true,true,some 4⟩,⟨some .internalNl,false,true,true,some 4⟩],[⟨some (.own 7),true,true,true,some 1⟩,⟨some (.own 7),false,true,false,some 1⟩,⟨some (.own 7),true,false,true,some 1⟩,⟨some (.own 7),false,false,false,some 1⟩],[⟨some (.own 7),true,true,true,some 1⟩],[⟨some (.own 7),true,true,true,some 4⟩,⟨some .internalNl,true,true,true,some 4⟩,⟨some .internalNl,true,false,true,some 4⟩,⟨some (.own 7),true,false,true,some 4⟩],[⟨some (.own 7),false,true,true,some 4⟩,⟨some .internalNl,false,true,true,some 4⟩,⟨some .internalNl,false,false,true,some 4⟩,⟨some (.own 7),false,false,true,some 4⟩],[⟨some (.own 7),true,true,true,some 4⟩,⟨some .internalNl,true,true,true,some 4⟩,⟨some .internalNl,true,false,true,some 4⟩,⟨some (.own 7),true,false,true,some 4⟩],[⟨some (.own 7),true,true,true,some 4⟩,⟨some .internalNl,true,true,true,some 4⟩,⟨some .internalNl,true,false,true,some 4⟩,⟨some (.own 7),true,false,true,some 4⟩],[⟨some (.own 7),true,true,true,some 4⟩,⟨some .internalNl,true,true,true,some 4⟩,⟨some .internalNl,true,false,true,some 4⟩,⟨some (.own 7),true,false,true,some 4⟩],[⟨some (.own 7),true,true,true,some 4⟩,⟨some .internalNl,true,true,true,some 4⟩,⟨some .internalNl,true,false,true,some 4⟩,⟨some (.own 7),true,false,true,some 4⟩],[⟨some (.own 7),true,true,true,some 4⟩,⟨some .internalNl,true,true,true,some 4⟩,⟨some .internalNl,true,false,true,some 4⟩,⟨some (.own 7),true,false,true,some 4⟩],[⟨some (.own 7),true,true,true,some 1⟩],[⟨some (.own 7),true,true,true,some 1⟩],[⟨some .internalNl,true,true,true,some 4⟩,⟨some (.own 7),true,true,true,some 4⟩],[⟨some .internalNl,true,true,true,some 4⟩],[⟨some (.own 7),true,true,true,some 4⟩,⟨some .internalNl,true,true,true,some 4⟩],[⟨some (.own 7),true,true,true,some 1⟩,⟨some (.own 7),true,false,true,some 1⟩],[⟨some (.own 7),false,true,false,some 1⟩,⟨some (.own 7),false,false,false,some 1⟩],[⟨some (.own 7),true,true,true,some 1⟩,⟨some .internalNl,true,true,true,some 1⟩,⟨some .internalNl,true,false,true,some 1⟩,⟨some (.own 7),true,false,false,some 1⟩,⟨some .internalNl,true,true,false,some 1⟩,⟨some .internalNl,true,false,false,some 1⟩],[⟨some (.own 7),true,true,true,some 1⟩,⟨some .internalNl,true,true,true,some 1⟩,⟨some .internalNl,true,false,true,some 1⟩,⟨some (.own 7),true,false,false,some 1⟩,⟨some .internalNl,true,true,false,some 1⟩,⟨some .internalNl,true,false,false,some 1⟩],[⟨some (.own 7),true,true,true,some 1⟩,⟨some .internalNl,true,true,true,some 1⟩,⟨some .internalNl,true,false,true,some 1⟩,⟨some (.own 7),true,false,false,some 1⟩,⟨some .internalNl,true,true,false,some 1⟩,⟨some .internalNl,true,false,false,some 1⟩],[⟨some (.own 7),true,true,true,some 1⟩,⟨some .internalNl,true,true,true,some 1⟩,⟨some .internalNl,true,false,true,some 1⟩,⟨some (.own 7),true,false,false,some 1⟩,⟨some .internalNl,true,true,false,some 1⟩,⟨some .internalNl,true,false,false,some 1⟩],[⟨some (.own 7),true,true,true,some 1⟩,⟨some (.own 7),true,false,true,some 1⟩],[⟨some .internalNl,true,true,true,some 1⟩,⟨some .internalNl,true,false,true,some 1⟩,⟨some .internalNl,true,true,false,some 1⟩,⟨some .internalNl,true,false,false,some 1⟩],[⟨some .internalNl,false,true,true,some 1⟩,⟨some .internalNl,false,false,true,some 1⟩,⟨some .internalNl,false,true,false,some 1⟩,⟨some .internalNl,false,false,false,some 1⟩],[⟨some .internalNl,true,true,true,some 1⟩,⟨some .internalNl,true,false,true,some 1⟩,⟨some .internalNl,true,true,false,some 1⟩,⟨some .internalNl,true,false,false,some 1⟩],[⟨some .internalNl,true,true,true,some 1⟩,⟨some (.own 7),true,true,true,some 1⟩,⟨some .internalNl,true,true,false,some 1⟩,⟨some (.own 7),true,true,false,some 1⟩],[⟨some .internalNl,true,true,true,some 1⟩,⟨some .internalNl,true,true,false,some 1⟩],[⟨some (.own 7),true,true,true,some 1⟩],[⟨some (.own 7),true,true,true,some 1⟩],[⟨some .internalNl,true,true,true,some 1⟩,⟨some .internalNl,true,true,false,some 1⟩]]
theorem lua_line_wClosed : closed lua_line_rows lua_line_wTab WA.init (WA.succ lua_line_M) (WA.eofOk lua_line_M) = true := by
  decide +kernel
def lua_line_W : WCert lua_line_M := ⟨lua_line_D, lua_line_wTab, lua_line_wClosed⟩

def metapost_line_wTab : List (List WA) := [[⟨none,false,false,false,none⟩],[⟨some (.own 0),false,false,false,some 0⟩],[⟨some .newline,true,false,false,none⟩],[⟨some .newline,true,false,true,some 3⟩],[⟨some (.own 3),true,false,true,some 4⟩],[⟨some (.own 3),false,false,true,some 1⟩],[⟨some (.own 3),true,true,true,some 4⟩,⟨some (.own 3),false,true,true,some 4⟩,⟨some (.own 3),true,false,true,some 4⟩,⟨some (.own 3),false,false,true,some 4⟩],[⟨some (.own 3),true,true,true,some 4⟩,⟨some (.own 3),true,false,true,some 4⟩],[⟨some (.own 3),true,false,true,some 1⟩,⟨some (.own 3),false,false,false,some 1⟩,⟨some (.own 3),true,true,true,some 1⟩,⟨some (.own 3),false,true,false,some 1⟩],[⟨some (.own 3),true,true,true,some 4⟩,⟨some (.own 3),false,true,true,some 4⟩]]
theorem metapost_line_wClosed : closed metapost_line_rows metapost_line_wTab WA.init (WA.succ metapost_line_M) (WA.eofOk metapost_line_M) = true := by
  decide +kernel
def metapost_line_W : WCert metapost_line_M := ⟨metapost_line_D, metapost_line_wTab, metapost_line_wClosed⟩

def pascal_line_wTab : List (List WA) := [[⟨none,false,false,false,none⟩],[⟨some (.own 0),false,false,false,some 0⟩],[⟨some .newline,true,false,false,none⟩],[⟨some .newline,true,false,true,some 3⟩],[⟨some (.own 3),true,false,true,some 4⟩],[⟨some (.own 3),true,false,true,some 4⟩],[⟨some (.own 3),true,false,true,some 4⟩],[⟨some (.own 3),true,false,true,some 4⟩],[⟨some (.own 3),true,true,true,some 4⟩,⟨some (.own 3),true,false,true,some 4⟩,⟨some .internalNl,true,true,true,some 4⟩,⟨some .internalNl,true,false,true,some 4⟩],[⟨some (.own 3),false,true,true,some 4⟩,⟨some (.own 3),false,false,true,some 4⟩,⟨some .internalNl,false,true,true,some 4⟩,⟨some .internalNl,false,false,true,some 4⟩],[⟨some (.own 3),true,true,true,some 4⟩,⟨some (.own 3),true,false,true,some 4⟩,⟨some .internalNl,true,false,true,some 4⟩,⟨some .internalNl,true,true,true,some 4⟩],[⟨some (.own 3),true,true,true,some 4⟩,⟨some (.own 3),true,false,true,some 4⟩,⟨some .internalNl,true,true,true,some 4⟩,⟨some .internalNl,true,false,true,some 4⟩],[⟨some (.own 3),true,true,true,some 4⟩,⟨some (.own 3),true,false,true,some 4⟩,⟨some .internalNl,true,true,true,some 4⟩,⟨some .internalNl,true,false,true,some 4⟩],[⟨some (.own 3),true,true,true,some 4⟩,⟨some (.own 3),true,false,true,some 4⟩,⟨some .internalNl,true,true,true,some 4⟩,⟨some .internalNl,true,false,true,some 4⟩],[⟨some (.own 3),true,true,true,some 4⟩,⟨some (.own 3),true,false,true,some 4⟩,⟨some .internalNl,true,true,true,some 4⟩,⟨some .internalNl,true,false,true,some 4⟩],[⟨some (.own 3),true,true,true,some 4⟩],[⟨some (.own 3),true,true,true,some 1⟩],[⟨some (.own 3),true,true,true,some 4⟩,⟨some .internalNl,true,true,true,some 4⟩,⟨some .internalNl,true,false,true,some 4⟩,⟨some (.own 3),true,false,true,some 4⟩],[⟨some (.own 3),false,true,true,some 4⟩,⟨some .internalNl,false,true,true,some 4⟩,⟨some .internalNl,false,false,true,some 4⟩,⟨some (.own 3),false,false,true,some 4⟩],[⟨some (.own 3),true,true,true,some 4⟩,⟨some .internalNl,true,true,true,some 4⟩,⟨some .internalNl,true,false,true,some 4⟩,⟨some (.own 3),true,false,true,some 4⟩],[⟨some (.own 3),true,true,true,some 4⟩,⟨some .internalNl,true,true,true,some 4⟩,⟨some .internalNl,true,false,true,some 4⟩,⟨some (.own 3),true,false,true,some 4⟩],[⟨some (.own 3),true,true,true,some 4⟩,⟨some .internalNl,true,true,true,some 4⟩,⟨some .internalNl,true,false,true,some 4⟩,⟨some (.own 3),true,false,true,some 4⟩],[⟨some (.own 3),true,true,true,some 4⟩,⟨some .internalNl,true,true,true,some 4⟩,⟨some .internalNl,true,false,true,some 4⟩,⟨some (.own 3),true,false,true,some 4⟩],[⟨some .internalNl,true,true,true,some 4⟩,⟨some (.own 3),true,true,true,some 4⟩],[⟨some .internalNl,true,true,true,some 4⟩],[⟨some (.own 3),true,true,true,some 4⟩,⟨some (.own 3),false,true,true,some 4⟩,⟨some .internalNl,true,true,true,some 4⟩,⟨some .internalNl,false,true,true,some 4⟩],[⟨some (.own 3),true,true,true,some 4⟩,⟨some .internalNl,true,true,true,some 4⟩,⟨some .internalNl,true,false,true,some 4⟩,⟨some (.own 3),true,false,true,some 4⟩],[⟨some (.own 3),false,true,true,some 4⟩,⟨some .internalNl,false,true,true,some 4⟩,⟨some .internalNl,false,false,true,some 4⟩,⟨some (.own 3),false,false,true,some 4⟩],[⟨some (.own 3),true,true,true,some 4⟩,⟨some .internalNl,true,true,true,some 4⟩,⟨some .internalNl,true,false,true,some 4⟩,⟨some (.own 3),true,false,true,some 4⟩],[⟨some (.own 3),true,true,true,some 4⟩,⟨some .internalNl,true,true,true,some 4⟩,⟨some .internalNl,true,false,true,some 4⟩,⟨some (.own 3),true,false,true,some 4⟩],[⟨some (.own 3),true,true,true,some 4⟩,⟨some .internalNl,true,true,true,some 4⟩,⟨some .internalNl,true,false,true,some 4⟩,⟨some (.own 3),true,false,true,some 4⟩],[⟨some (.own 3),true,true,true,some 4⟩,⟨some .internalNl,true,true,true,some 4⟩,⟨some .internalNl,true,false,true,some 4⟩,⟨some (.own 3),true,false,true,some 4⟩],[⟨some (.own 3),true,true,true,some 4⟩,⟨some .internalNl,true,true,true,some 4⟩,⟨some .internalNl,true,false,true,some 4⟩,⟨some (.own 3),true,false,true,some 4⟩],[⟨some (.own 3),true,true,true,some 1⟩,⟨some (.own 3),false,true,false,some 1⟩,⟨some (.own 3),true,false,true,some 1⟩,⟨some (.own 3),false,false,false,some 1⟩],[⟨some .internalNl,true,true,true,some 4⟩,⟨some (.own 3),true,true,true,some 4⟩],[⟨some .internalNl,true,true,true,some 4⟩],[⟨some .internalNl,true,true,true,some 4⟩,⟨some (.own 3),true,true,true,some 4⟩],[⟨some .internalNl,true,true,true,some 4⟩]]
theorem pascal_line_wClosed : closed pascal_line_rows pascal_line_wTab WA.init (WA.succ pascal_line_M) (WA.eofOk pascal_line_M) = true := by
  decide +kernel
def pascal_line_W : WCert pascal_line_M := ⟨pascal_line_D, pascal_line_wTab, pascal_line_wClosed⟩

def swift_line_wTab : List (List WA) := [[⟨none,false,false,false,none⟩],[⟨some (.own 0),false,false,false,some 0⟩],[⟨some .newline,true,false,false,none⟩],[⟨some .newline,true,false,true,some 2⟩],[⟨some (.own 2),true,false,true,some 3⟩],[⟨some (.own 2),true,true,true,some 3⟩],[⟨some (.own 2),true,true,true,some 1⟩],[⟨some (.own 2),true,true,true,some 3⟩,⟨some .internalNl,true,true,true,some 3⟩,⟨some .internalNl,true,false,true,some 3⟩,⟨some (.own 2),true,false,true,some 3⟩],[⟨some (.own 2),false,true,true,some 3⟩,⟨some .internalNl,false,true,true,some 3⟩,⟨some .internalNl,false,false,true,some 3⟩,⟨some (.own 2),false,false,true,some 3⟩],[⟨some (.own 2),true,true,true,some 3⟩,⟨some .internalNl,true,true,true,some 3⟩,⟨some .internalNl,true,false,true,some 3⟩,⟨some (.own 2),true,false,true,some 3⟩],[⟨some (.own 2),true,true,true,some 3⟩,⟨some .internalNl,true,true,true,some 3⟩,⟨some .internalNl,true,false,true,some 3⟩,⟨some (.own 2),true,false,true,some 3⟩],[⟨some (.own 2),true,true,true,some 3⟩,⟨some .internalNl,true,true,true,some 3⟩,⟨some .internalNl,true,false,true,some 3⟩,⟨some (.own 2),true,false,true,some 3⟩],[⟨some (.own 2),true,true,true,some 3⟩,⟨some .internalNl,true,true,true,some 3⟩,⟨some .internalNl,true,false,true,some 3⟩,⟨some (.own 2),true,false,true,some 3⟩],[⟨some (.own 2),true,true,true,some 3⟩,⟨some .internalNl,true,true,true,some 3⟩,⟨some .internalNl,true,false,true,some 3⟩,⟨some (.own 2),true,false,true,some 3⟩],[⟨some (.own 2),true,true,true,some 1⟩,⟨some .internalNl,true,true,true,some 1⟩,⟨some .internalNl,true,false,true,some 1⟩,⟨some (.own 2),true,false,true,some 1⟩],[⟨some (.own 2),false,true,false,some 1⟩,⟨some .internalNl,false,true,false,some 1⟩,⟨some .internalNl,false,false,false,some 1⟩,⟨some (.own 2),false,false,false,some 1⟩],[⟨some (.own 2),true,true,true,some 1⟩,⟨some .internalNl,true,true,true,some 1⟩,⟨some .internalNl,true,false,true,some 1⟩,⟨some (.own 2),true,false,true,some 1⟩],[⟨some .internalNl,true,true,true,some 3⟩,⟨some (.own 2),true,true,true,some 3⟩],[⟨some .internalNl,true,true,true,some 3⟩],[⟨some (.own 2),true,true,true,some 1⟩,⟨some .internalNl,true,true,true,some 1⟩],[⟨some (.own 2),true,true,true,some 1⟩,⟨some .internalNl,true,true,true,some 1⟩],[⟨some (.own 2),true,true,true,some 1⟩,⟨some .internalNl,true,true,true,some 1⟩],[⟨some (.own 2),true,true,true,some 1⟩,⟨some .internalNl,true,true,true,some 1⟩],[⟨some (.own 2),true,true,true,some 1⟩,⟨some .internalNl,true,true,true,some 1⟩]]
theorem swift_line_wClosed : closed swift_line_rows swift_line_wTab WA.init (WA.succ swift_line_M) (WA.eofOk swift_line_M) = true := by
  decide +kernel
def swift_line_W : WCert swift_line_M := ⟨swift_line_D, swift_line_wTab, swift_line_wClosed⟩

def tex_line_wTab : List (List WA) := [[⟨none,false,false,false,none⟩],[⟨some (.own 0),false,false,false,some 0⟩],[⟨some .newline,true,false,false,none⟩],[⟨some .newline,true,false,true,some 2⟩],[⟨some (.own 3),true,false,true,some 1⟩],[⟨some (.own 3),true,true,true,some 1⟩,⟨some (.own 3),false,true,false,some 1⟩,⟨some (.own 3),true,false,true,some 1⟩,⟨some (.own 3),false,false,false,some 1⟩]]
theorem tex_line_wClosed : closed tex_line_rows tex_line_wTab WA.init (WA.succ tex_line_M) (WA.eofOk tex_line_M) = true := by
  decide +kernel
def tex_line_W : WCert tex_line_M := ⟨tex_line_D, tex_line_wTab, tex_line_wClosed⟩

def xmlschema_line_wTab : List (List WA) := [[⟨none,false,false,false,none⟩],[⟨some (.own 0),false,false,false,some 0⟩],[⟨some .newline,true,false,false,none⟩],[⟨some .newline,true,false,true,some 3⟩],[⟨some (.own 5),true,false,true,some 4⟩],[⟨some (.own 5),true,false,true,some 4⟩],[⟨some (.own 5),true,false,true,some 4⟩],[⟨some (.own 5),true,true,true,some 4⟩,⟨some (.own 5),false,true,true,some 4⟩,⟨some (.own 5),true,false,true,some 4⟩,⟨some (.own 5),false,false,true,some 4⟩],[⟨some (.own 5),true,true,true,some 4⟩,⟨some (.own 5),true,false,true,some 4⟩],[⟨some (.own 5),true,true,true,some 4⟩,⟨some (.own 5),false,true,true,some 4⟩,⟨some (.own 5),true,false,true,some 4⟩,⟨some (.own 5),false,false,true,some 4⟩],[⟨some (.own 5),true,true,true,some 4⟩,⟨some (.own 5),true,false,true,some 4⟩],[⟨some (.own 5),true,true,true,some 4⟩],[⟨some (.own 5),true,true,true,some 4⟩,⟨some (.own 5),false,true,true,some 4⟩],[⟨some (.own 5),true,true,true,some 4⟩,⟨some (.own 5),false,true,true,some 4⟩],[⟨some (.own 5),true,true,true,some 4⟩],[⟨some (.own 5),true,true,true,some 4⟩],[⟨some (.own 5),true,true,true,some 4⟩],[⟨some (.own 5),true,true,true,some 4⟩],[⟨some (.own 5),true,true,true,some 4⟩,⟨some .internalNl,true,true,true,some 4⟩,⟨some .internalNl,true,false,true,some 4⟩,⟨some (.own 5),true,false,true,some 4⟩],[⟨some (.own 5),false,true,true,some 4⟩,⟨some .internalNl,false,true,true,some 4⟩,⟨some .internalNl,false,false,true,some 4⟩,⟨some (.own 5),false,false,true,some 4⟩],[⟨some (.own 5),true,true,true,some 4⟩,⟨some .internalNl,true,true,true,some 4⟩,⟨some .internalNl,true,false,true,some 4⟩,⟨some (.own 5),true,false,true,some 4⟩],[⟨some (.own 5),true,true,true,some 4⟩,⟨some .internalNl,true,true,true,some 4⟩,⟨some .internalNl,true,false,true,some 4⟩,⟨some (.own 5),true,false,true,some 4⟩],[⟨some (.own 5),true,true,true,some 4⟩,⟨some .internalNl,true,true,true,some 4⟩,⟨some .internalNl,true,false,true,some 4⟩,⟨some (.own 5),true,false,true,some 4⟩],[⟨some (.own 5),true,true,true,some 4⟩,⟨some .internalNl,true,true,true,some 4⟩,⟨some .internalNl,true,false,true,some 4⟩,⟨some (.own 5),true,false,true,some 4⟩],[⟨some (.own 5),true,true,true,some 4⟩,⟨some .internalNl,true,true,true,some 4⟩,⟨some .internalNl,true,false,true,some 4⟩,⟨some (.own 5),true,false,true,some 4⟩],[⟨some (.own 5),true,true,true,some 4⟩],[⟨some .internalNl,true,true,true,some 4⟩,⟨some (.own 5),true,true,true,some 4⟩],[⟨some .internalNl,true,true,true,some 4⟩],[⟨some (.own 5),true,true,true,some 4⟩,⟨some .internalNl,true,true,true,some 4⟩],[⟨some (.own 5),true,true,true,some 4⟩],[⟨some (.own 5),true,true,true,some 4⟩],[⟨some (.own 5),true,true,true,some 4⟩],[⟨some (.own 5),true,true,true,some 4⟩],[⟨some (.own 5),true,true,true,some 4⟩,⟨some .internalNl,true,true,true,some 4⟩,⟨some .internalNl,true,false,true,some 4⟩,⟨some (.own 5),true,false,true,some 4⟩],[⟨some (.own 5),false,true,true,some 4⟩,⟨some .internalNl,false,true,true,some 4⟩,⟨some .internalNl,false,false,true,some 4⟩,⟨some (.own 5),false,false,true,some 4⟩],[⟨some (.own 5),true,true,true,some 4⟩,⟨some .internalNl,true,true,true,some 4⟩,⟨some .internalNl,true,false,true,some 4⟩,⟨some (.own 5),true,false,true,some 4⟩],[⟨some (.own 5),true,true,true,some 4⟩,⟨some .internalNl,true,true,true,some 4⟩,⟨some .internalNl,true,false,true,some 4⟩,⟨some (.own 5),true,false,true,some 4⟩],[⟨some (.own 5),true,true,true,some 4⟩,⟨some .internalNl,true,true,true,some 4⟩,⟨some .internalNl,true,false,true,some 4⟩,⟨some (.own 5),true,false,true,some 4⟩],[⟨some (.own 5),true,true,true,some 4⟩,⟨some .internalNl,true,true,true,some 4⟩,⟨some .internalNl,true,false,true,some 4⟩,⟨some (.own 5),true,false,true,some 4⟩],[⟨some (.own 5),true,true,true,some 4⟩,⟨some .internalNl,true,true,true,some 4⟩,⟨some .internalNl,true,false,true,some 4⟩,⟨some (.own 5),true,false,true,some 4⟩],[⟨some .internalNl,true,true,true,some 4⟩,⟨some (.own 5),true,true,true,some 4⟩],[⟨some .internalNl,true,true,true,some 4⟩],[⟨some (.own 5),true,true,true,some 4⟩,⟨some .internalNl,true,true,true,some 4⟩]]
theorem xmlschema_line_wClosed : closed xmlschema_line_rows xmlschema_line_wTab WA.init (WA.succ xmlschema_line_M) (WA.eofOk xmlschema_line_M) = true := by
  decide +kernel
def xmlschema_line_W : WCert xmlschema_line_M := ⟨xmlschema_line_D, xmlschema_line_wTab, xmlschema_line_wClosed⟩

end Ohcount.Cert
