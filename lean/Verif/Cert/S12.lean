import Verif.Cert.N12
import Verif.RagelSafe

/-! Generated by tools/gen_certs.py. -/

namespace Ohcount.Cert
open Ohcount.Ragel Ohcount.Gram

set_option maxRecDepth 100000

def erlang_line_sTab : List (List SA) := [[⟨0,0,false,none,none,none⟩],[⟨1,0,false,some (.own 0),some 0,none⟩,⟨2,0,false,some (.own 0),some 0,none⟩,⟨3,0,false,some (.own 0),some 0,none⟩],[⟨1,0,false,some .newline,none,none⟩],[⟨1,0,false,some .newline,some 3,none⟩],[⟨1,0,true,some (.own 3),some 4,none⟩],[⟨1,0,false,some (.own 3),some 4,none⟩],[⟨1,0,true,some (.own 3),some 4,none⟩],[⟨2,0,true,some (.own 3),some 4,none⟩,⟨3,0,true,some (.own 3),some 4,none⟩],[⟨2,0,true,some (.own 3),some 4,none⟩,⟨3,0,true,some (.own 3),some 4,none⟩],[⟨2,0,true,some (.own 3),some 1,none⟩],[⟨2,0,true,some (.own 3),some 4,none⟩,⟨3,0,true,some (.own 3),some 4,none⟩],[⟨2,0,true,some (.own 3),some 4,none⟩,⟨3,0,true,some (.own 3),some 4,none⟩],[⟨3,0,true,some (.own 3),some 4,none⟩],[⟨3,0,true,some (.own 3),some 1,none⟩],[⟨3,0,true,some (.own 3),some 4,none⟩]]
theorem erlang_line_sClosed : closed erlang_line_rows erlang_line_sTab SA.init (SA.succ erlang_line_M) (SA.eofOk erlang_line_M) = true := by
  decide +kernel
def erlang_line_S : SCert erlang_line_M := ⟨erlang_line_D, erlang_line_sTab, erlang_line_sClosed⟩

def golang_line_sTab : List (List SA) := [[⟨0,0,false,none,none,none⟩],[⟨1,0,false,some (.own 0),some 0,none⟩,⟨2,0,false,some (.own 0),some 0,none⟩,⟨3,0,false,some (.own 0),some 0,none⟩],[⟨1,0,false,some .newline,none,none⟩],[⟨1,0,false,some .newline,some 3,none⟩],[⟨1,0,true,some (.own 8),some 4,none⟩],[⟨1,0,true,some (.own 8),some 4,none⟩],[⟨1,0,false,some (.own 8),some 4,none⟩],[⟨2,0,true,some (.own 8),some 4,none⟩,⟨3,0,true,some (.own 8),some 4,none⟩,⟨3,0,true,some .internalNl,some 4,none⟩],[⟨2,0,true,some (.own 8),some 4,none⟩,⟨3,0,true,some (.own 8),some 4,none⟩,⟨3,0,true,some .internalNl,some 4,none⟩],[⟨2,0,true,some (.own 8),some 4,none⟩,⟨3,0,true,some (.own 8),some 4,none⟩,⟨3,0,true,some .internalNl,some 4,none⟩],[⟨2,0,true,some (.own 8),some 4,none⟩,⟨3,0,true,some (.own 8),some 4,none⟩,⟨3,0,true,some .internalNl,some 4,none⟩],[⟨2,0,true,some (.own 8),some 4,none⟩,⟨3,0,true,some (.own 8),some 4,none⟩,⟨3,0,true,some .internalNl,some 4,none⟩],[⟨2,0,true,some (.own 8),some 4,none⟩,⟨3,0,true,some (.own 8),some 4,none⟩,⟨3,0,true,some .internalNl,some 4,none⟩],[⟨2,0,true,some (.own 8),some 4,none⟩],[⟨2,0,true,some (.own 8),some 1,none⟩],[⟨3,0,true,some (.own 8),some 4,none⟩,⟨3,0,true,some .internalNl,some 4,none⟩],[⟨3,0,true,some (.own 8),some 4,none⟩,⟨3,0,true,some .internalNl,some 4,none⟩],[⟨3,0,true,some (.own 8),some 4,none⟩,⟨3,0,true,some .internalNl,some 4,none⟩],[⟨3,0,true,some (.own 8),some 4,none⟩,⟨3,0,true,some .internalNl,some 4,none⟩],[⟨3,0,true,some (.own 8),some 4,none⟩,⟨3,0,true,some .internalNl,some 4,none⟩],[⟨3,0,true,some (.own 8),some 4,none⟩,⟨3,0,true,some .internalNl,some 4,none⟩],[⟨3,0,true,some (.own 8),some 4,none⟩,⟨3,0,true,some .internalNl,some 4,none⟩],[⟨3,0,true,some (.own 8),some 4,none⟩,⟨3,0,true,some .internalNl,some 4,none⟩],[⟨3,0,true,some (.own 8),some 4,none⟩,⟨3,0,true,some .internalNl,some 4,none⟩],[⟨3,0,true,some (.own 8),some 4,none⟩,⟨3,0,true,some .internalNl,some 4,none⟩],[⟨3,0,true,some (.own 8),some 4,none⟩,⟨3,0,true,some .internalNl,some 4,none⟩],[⟨3,0,true,some (.own 8),some 4,none⟩,⟨3,0,true,some .internalNl,some 4,none⟩],[⟨3,0,true,some (.own 8),some 4,none⟩,⟨3,0,true,some .internalNl,some 4,none⟩],[⟨3,0,true,some (.own 8),some 4,none⟩,⟨3,0,true,some .internalNl,some 4,none⟩],[⟨3,0,true,some (.own 8),some 4,none⟩,⟨3,0,true,some .internalNl,some 4,none⟩],[⟨3,0,true,some (.own 8),some 4,none⟩,⟨3,0,true,some .internalNl,some 4,none⟩],[⟨3,0,true,some (.own 8),some 4,none⟩,⟨3,0,true,some .internalNl,some 4,none⟩],[⟨3,0,true,some (.own 8),some 1,none⟩,⟨3,0,true,some .internalNl,some 1,none⟩],[⟨3,0,true,some (.own 8),some 1,none⟩,⟨3,0,true,some .internalNl,some 1,none⟩],[⟨3,0,true,some (.own 8),some 1,none⟩,⟨3,0,true,some .internalNl,some 1,none⟩],[⟨3,0,true,some (.own 8),some 4,none⟩,⟨3,0,true,some .internalNl,some 4,none⟩],[⟨3,0,true,some .internalNl,some 4,none⟩],[⟨3,0,true,some (.own 8),some 4,none⟩,⟨3,0,true,some .internalNl,some 4,none⟩],[⟨3,0,true,some .internalNl,some 4,none⟩],[⟨3,0,true,some (.own 8),some 4,none⟩,⟨3,0,true,some .internalNl,some 4,none⟩],[⟨3,0,true,some .internalNl,some 4,none⟩],[⟨3,0,true,some (.own 8),some 1,none⟩,⟨3,0,true,some .internalNl,some 1,none⟩],[⟨3,0,true,some (.own 8),some 1,none⟩,⟨3,0,true,some .internalNl,some 1,none⟩],[⟨3,0,true,some (.own 8),some 1,none⟩,⟨3,0,true,some .internalNl,some 1,none⟩],[⟨3,0,true,some (.own 8),some 1,none⟩,⟨3,0,true,some .internalNl,some 1,none⟩],[⟨3,0,true,some (.own 8),some 1,none⟩,⟨3,0,true,some .internalNl,some 1,none⟩]]
theorem golang_line_sClosed : closed golang_line_rows golang_line_sTab SA.init (SA.succ golang_line_M) (SA.eofOk golang_line_M) = true := by
  decide +kernel
def golang_line_S : SCert golang_line_M := ⟨golang_line_D, golang_line_sTab, golang_line_sClosed⟩

def haskell_line_sTab : List (List SA) := [[⟨0,0,false,none,none,none⟩],[⟨1,0,false,some (.own 0),some 0,none⟩,⟨2,0,false,some (.own 0),some 0,none⟩,⟨3,0,false,some (.own 0),some 0,none⟩],[⟨1,0,false,some .newline,none,none⟩],[⟨1,0,false,some .newline,some 3,none⟩],[⟨1,0,true,some (.own 3),some 4,none⟩],[⟨1,0,true,some (.own 3),some 4,none⟩],[⟨1,0,false,some (.own 3),some 4,none⟩],[⟨1,0,false,some (.own 3),some 4,none⟩],[⟨2,0,true,some (.own 3),some 4,none⟩,⟨3,0,true,some (.own 3),some 4,none⟩,⟨3,0,true,some .internalNl,some 4,none⟩],[⟨2,0,true,some (.own 3),some 4,none⟩,⟨3,0,true,some (.own 3),some 4,none⟩,⟨3,0,true,some .internalNl,some 4,none⟩],[⟨2,0,true,some (.own 3),some 4,none⟩,⟨3,0,true,some (.own 3),some 4,none⟩,⟨3,0,true,some .internalNl,some 4,none⟩],[⟨2,0,true,some (.own 3),some 4,none⟩],[⟨2,0,true,some (.own 3),some 4,none⟩],[⟨2,0,false,some (.own 3),some 4,none⟩],[⟨2,0,true,some (.own 3),some 4,none⟩],[⟨3,0,true,some (.own 3),some 4,none⟩,⟨3,0,true,some .internalNl,some 4,none⟩],[⟨3,0,true,some (.own 3),some 4,none⟩,⟨3,0,true,some .internalNl,some 4,none⟩],[⟨3,0,true,some (.own 3),some 4,none⟩,⟨3,0,true,some .internalNl,some 4,none⟩],[⟨3,0,true,some (.own 3),some 4,none⟩,⟨3,0,true,some .internalNl,some 4,none⟩],[⟨3,0,true,some (.own 3),some 4,none⟩,⟨3,0,true,some .internalNl,some 4,none⟩],[⟨3,0,true,some (.own 3),some 4,none⟩],[⟨2,1,true,some (.own 3),some 1,some 0⟩,⟨2,1,true,some (.own 3),some 1,some 9⟩,⟨2,1,true,some (.own 3),some 1,some 10⟩,⟨2,1,true,some (.own 3),some 1,some 11⟩,⟨2,1,true,some (.own 3),some 1,some 12⟩,⟨2,1,true,some (.own 3),some 1,some 13⟩,⟨2,1,true,some (.own 3),some 1,some 34⟩,⟨2,1,true,some (.own 3),some 1,some 39⟩,⟨2,1,true,some (.own 3),some 1,some 45⟩,⟨2,1,true,some (.own 3),some 1,some 92⟩,⟨2,1,true,some (.own 3),some 1,some 123⟩,⟨2,1,true,some (.own 3),some 1,some 125⟩],[⟨3,0,true,some (.own 3),some 4,none⟩,⟨3,0,true,some .internalNl,some 4,none⟩],[⟨3,0,true,some (.own 3),some 4,none⟩,⟨3,0,true,some .internalNl,some 4,none⟩],[⟨3,0,true,some (.own 3),some 4,none⟩,⟨3,0,true,some .internalNl,some 4,none⟩],[⟨3,0,true,some (.own 3),some 4,none⟩,⟨3,0,true,some .internalNl,some 4,none⟩],[⟨3,0,true,some (.own 3),some 4,none⟩,⟨3,0,true,some .internalNl,some 4,none⟩],[⟨3,0,true,some (.own 3),some 4,none⟩,⟨3,0,true,some .internalNl,some 4,none⟩],[⟨3,0,true,some (.own 3),some 4,none⟩,⟨3,0,true,some .internalNl,some 4,none⟩],[⟨3,0,true,some (.own 3),some 4,none⟩,⟨3,0,true,some .internalNl,some 4,none⟩],[⟨3,0,true,some (.own 3),some 4,none⟩,⟨3,0,true,some .internalNl,some 4,none⟩],[⟨3,0,true,some (.own 3),some 4,none⟩,⟨3,0,true,some .internalNl,some 4,none⟩],[⟨3,0,true,some .internalNl,some 4,none⟩],[⟨3,1,true,some (.own 3),some 1,none⟩],[⟨3,0,true,some (.own 3),some 4,none⟩,⟨3,0,true,some .internalNl,some 4,none⟩],[⟨3,0,true,some .internalNl,some 4,none⟩],[⟨3,0,true,some (.own 3),some 4,none⟩,⟨3,0,true,some .internalNl,some 4,none⟩],[⟨3,0,true,some (.own 3),some 4,none⟩,⟨3,0,true,some .internalNl,some 4,none⟩],[⟨3,0,true,some (.own 3),some 4,none⟩,⟨3,0,true,some .internalNl,some 4,none⟩]]
theorem haskell_line_sClosed : closed haskell_line_rows haskell_line_sTab SA.init (SA.succ haskell_line_M) (SA.eofOk haskell_line_M) = true := by
  decide +kernel
def haskell_line_S : SCert haskell_line_M := ⟨haskell_line_D, haskell_line_sTab, haskell_line_sClosed⟩

def idl_pvwave_line_sTab : List (List SA) := [[⟨0,0,false,none,none,none⟩],[⟨1,0,false,some (.own 0),some 0,none⟩,⟨2,0,false,some (.own 0),some 0,none⟩,⟨3,0,false,some (.own 0),some 0,none⟩],[⟨1,0,false,some .newline,none,none⟩],[⟨1,0,false,some .newline,some 2,none⟩],[⟨1,0,true,some (.own 3),some 1,none⟩],[⟨2,0,true,some (.own 3),some 1,none⟩,⟨3,0,true,some (.own 3),some 1,none⟩]]
theorem idl_pvwave_line_sClosed : closed idl_pvwave_line_rows idl_pvwave_line_sTab SA.init (SA.succ idl_pvwave_line_M) (SA.eofOk idl_pvwave_line_M) = true := by
  decide +kernel
def idl_pvwave_line_S : SCert idl_pvwave_line_M := ⟨idl_pvwave_line_D, idl_pvwave_line_sTab, idl_pvwave_line_sClosed⟩

def modula2_line_sTab : List (List SA) := [[⟨0,0,false,none,none,none⟩],[⟨1,0,false,some (.own 0),some 0,none⟩,⟨2,0,false,some (.own 0),some 0,none⟩,⟨3,0,false,some (.own 0),some 0,none⟩],[⟨1,0,false,some .newline,none,none⟩],[⟨1,0,false,some .newline,some 3,none⟩],[⟨1,0,true,some (.own 3),some 4,none⟩],[⟨1,0,true,some (.own 3),some 4,none⟩],[⟨1,0,false,some (.own 3),some 4,none⟩],[⟨2,0,true,some (.own 3),some 4,none⟩,⟨3,0,true,some (.own 3),some 4,none⟩],[⟨2,0,true,some (.own 3),some 4,none⟩,⟨3,0,true,some (.own 3),some 4,none⟩,⟨3,0,true,some (.own 3),some 2,none⟩],[⟨2,0,true,some (.own 3),some 2,none⟩,⟨3,0,true,some (.own 3),some 2,none⟩],[⟨2,0,true,some (.own 3),some 4,none⟩],[⟨3,0,true,some (.own 3),some 4,none⟩,⟨3,0,true,some .internalNl,some 4,none⟩],[⟨3,0,true,some (.own 3),some 4,none⟩,⟨3,0,true,some .internalNl,some 4,none⟩],[⟨3,0,true,some (.own 3),some 4,none⟩,⟨3,0,true,some .internalNl,some 4,none⟩],[⟨3,0,true,some (.own 3),some 4,none⟩,⟨3,0,true,some .internalNl,some 4,none⟩],[⟨3,0,true,some (.own 3),some 4,none⟩,⟨3,0,true,some .internalNl,some 4,none⟩],[⟨3,0,true,some (.own 3),some 4,none⟩,⟨3,0,true,some .internalNl,some 4,none⟩],[⟨3,0,true,some (.own 3),some 4,none⟩,⟨3,0,true,some .internalNl,some 4,none⟩],[⟨3,0,true,some (.own 3),some 4,none⟩,⟨3,0,true,some .internalNl,some 4,none⟩],[⟨3,0,true,some (.own 3),some 4,none⟩,⟨3,0,true,some .internalNl,some 4,none⟩],[⟨3,0,true,some (.own 3),some 4,none⟩,⟨3,0,true,some .internalNl,some 4,none⟩],[⟨3,0,true,some .internalNl,some 4,none⟩],[⟨3,0,true,some (.own 3),some 4,none⟩,⟨3,0,true,some .internalNl,some 4,none⟩],[⟨3,0,true,some (.own 3),some 4,none⟩,⟨3,0,true,some .internalNl,some 4,none⟩],[⟨3,0,true,some (.own 3),some 4,none⟩,⟨3,0,true,some .internalNl,some 4,none⟩]]
theorem modula2_line_sClosed : closed modula2_line_rows modula2_line_sTab SA.init (SA.succ modula2_line_M) (SA.eofOk modula2_line_M) = true := by
  decide +kernel
def modula2_line_S : SCert modula2_line_M := ⟨modula2_line_D, modula2_line_sTab, modula2_line_sClosed⟩

def modula3_line_sTab : List (List SA) := [[⟨0,0,false,none,none,none⟩],[⟨1,0,false,some (.own 0),some 0,none⟩,⟨2,0,false,some (.own 0),some 0,none⟩,⟨3,0,false,some (.own 0),some 0,none⟩],[⟨1,0,false,some .newline,none,none⟩],[⟨1,0,false,some .newline,some 3,none⟩],[⟨1,0,true,some (.own 3),some 4,none⟩],[⟨1,0,true,some (.own 3),some 4,none⟩],[⟨1,0,false,some (.own 3),some 4,none⟩],[⟨2,0,true,some (.own 3),some 4,none⟩,⟨3,0,true,some (.own 3),some 4,none⟩,⟨3,0,true,some .internalNl,some 4,none⟩],[⟨2,0,true,some (.own 3),some 4,none⟩,⟨3,0,true,some (.own 3),some 4,none⟩,⟨3,0,true,some .internalNl,some 4,none⟩],[⟨2,0,true,some (.own 3),some 4,none⟩,⟨3,0,true,some (.own 3),some 4,none⟩,⟨3,0,true,some .internalNl,some 4,none⟩],[⟨2,0,true,some (.own 3),some 4,none⟩,⟨3,0,true,some (.own 3),some 4,none⟩,⟨3,0,true,some .internalNl,some 4,none⟩],[⟨2,0,true,some (.own 3),some 4,none⟩,⟨3,0,true,some (.own 3),some 4,none⟩,⟨3,0,true,some .internalNl,some 4,none⟩],[⟨2,0,true,some (.own 3),some 4,none⟩,⟨3,0,true,some (.own 3),some 4,none⟩,⟨3,0,true,some .internalNl,some 4,none⟩],[⟨2,0,true,some (.own 3),some 4,none⟩],[⟨3,0,true,some (.own 3),some 4,none⟩,⟨3,0,true,some .internalNl,some 4,none⟩],[⟨3,0,true,some (.own 3),some 4,none⟩,⟨3,0,true,some .internalNl,some 4,none⟩],[⟨3,0,true,some (.own 3),some 4,none⟩,⟨3,0,true,some .internalNl,some 4,none⟩],[⟨3,0,true,some (.own 3),some 4,none⟩,⟨3,0,true,some .internalNl,some 4,none⟩],[⟨3,0,true,some (.own 3),some 4,none⟩,⟨3,0,true,some .internalNl,some 4,none⟩],[⟨3,0,true,some (.own 3),some 4,none⟩,⟨3,0,true,some .internalNl,some 4,none⟩],[⟨3,0,true,some (.own 3),some 4,none⟩,⟨3,0,true,some .internalNl,some 4,none⟩],[⟨3,0,true,some (.own 3),some 4,none⟩,⟨3,0,true,some .internalNl,some 4,none⟩],[⟨3,0,true,some (.own 3),some 4,none⟩,⟨3,0,true,some .internalNl,some 4,none⟩],[⟨3,0,true,some (.own 3),some 4,none⟩,⟨3,0,true,some .internalNl,some 4,none⟩],[⟨3,0,true,some (.own 3),some 4,none⟩,⟨3,0,true,some .internalNl,some 4,none⟩],[⟨3,0,true,some (.own 3),some 4,none⟩,⟨3,0,true,some .internalNl,some 4,none⟩],[⟨3,0,true,some (.own 3),some 4,none⟩,⟨3,0,true,some .internalNl,some 4,none⟩],[⟨3,0,true,some (.own 3),some 4,none⟩,⟨3,0,true,some .internalNl,some 4,none⟩],[⟨3,0,true,some (.own 3),some 4,none⟩,⟨3,0,true,some .internalNl,some 4,none⟩],[⟨3,0,true,some (.own 3),some 4,none⟩,⟨3,0,true,some .internalNl,some 4,none⟩],[⟨3,0,true,some (.own 3),some 4,none⟩,⟨3,0,true,some .internalNl,some 4,none⟩],[⟨3,0,true,some (.own 3),some 4,none⟩,⟨3,0,true,some .internalNl,some 4,none⟩],[⟨3,0,true,some (.own 3),some 4,none⟩,⟨3,0,true,some .internalNl,some 4,none⟩],[⟨3,0,true,some (.own 3),some 4,none⟩,⟨3,0,true,some .internalNl,some 4,none⟩],[⟨3,0,true,some .internalNl,some 4,none⟩],[⟨3,0,true,some (.own 3),some 4,none⟩,⟨3,0,true,some .internalNl,some 4,none⟩],[⟨3,0,true,some .internalNl,some 4,none⟩],[⟨3,0,true,some (.own 3),some 4,none⟩,⟨3,0,true,some .internalNl,some 4,none⟩],[⟨3,0,true,some .internalNl,some 4,none⟩],[⟨3,0,true,some (.own 3),some 4,none⟩,⟨3,0,true,some .internalNl,some 4,none⟩],[⟨3,0,true,some (.own 3),some 4,none⟩,⟨3,0,true,some .internalNl,some 4,none⟩],[⟨3,0,true,some (.own 3),some 4,none⟩,⟨3,0,true,some .internalNl,some 4,none⟩]]
theorem modula3_line_sClosed : closed modula3_line_rows modula3_line_sTab SA.init (SA.succ modula3_line_M) (SA.eofOk modula3_line_M) = true := by
  decide +kernel
def modula3_line_S : SCert modula3_line_M := ⟨modula3_line_D, modula3_line_sTab, modula3_line_sClosed⟩

def objj_line_sTab : List (List SA) := [[⟨0,0,false,none,none,none⟩],[⟨1,0,false,some (.own 0),some 0,none⟩,⟨2,0,false,some (.own 0),some 0,none⟩,⟨3,0,false,some (.own 0),some 0,none⟩],[⟨1,0,false,some .newline,none,none⟩],[⟨1,0,false,some .newline,some 3,none⟩],[⟨1,0,true,some (.own 3),some 4,none⟩],[⟨1,0,true,some (.own 3),some 4,none⟩],[⟨1,0,false,some (.own 3),some 4,none⟩],[⟨2,0,true,some (.own 3),some 4,none⟩,⟨3,0,true,some (.own 3),some 4,none⟩],[⟨2,0,true,some (.own 3),some 4,none⟩,⟨3,0,true,some (.own 3),some 4,none⟩],[⟨2,0,true,some (.own 3),some 4,none⟩,⟨3,0,true,some (.own 3),some 4,none⟩],[⟨2,0,true,some (.own 3),some 4,none⟩,⟨3,0,true,some (.own 3),some 4,none⟩],[⟨2,0,true,some (.own 3),some 4,none⟩],[⟨2,0,true,some (.own 3),some 1,none⟩],[⟨3,0,true,some (.own 3),some 4,none⟩],[⟨3,0,true,some (.own 3),some 4,none⟩],[⟨3,0,true,some (.own 3),some 4,none⟩,⟨3,0,true,some .internalNl,some 4,none⟩],[⟨3,0,true,some (.own 3),some 4,none⟩,⟨3,0,true,some .internalNl,some 4,none⟩],[⟨3,0,true,some (.own 3),some 4,none⟩,⟨3,0,true,some .internalNl,some 4,none⟩],[⟨3,0,true,some (.own 3),some 4,none⟩,⟨3,0,true,some .internalNl,some 4,none⟩],[⟨3,0,true,some (.own 3),some 4,none⟩,⟨3,0,true,some .internalNl,some 4,none⟩],[⟨3,0,true,some (.own 3),some 4,none⟩,⟨3,0,true,some .internalNl,some 4,none⟩],[⟨3,0,true,some (.own 3),some 4,none⟩,⟨3,0,true,some .internalNl,some 4,none⟩],[⟨3,0,true,some (.own 3),some 1,none⟩,⟨3,0,true,some .internalNl,some 1,none⟩],[⟨3,0,true,some (.own 3),some 1,none⟩,⟨3,0,true,some .internalNl,some 1,none⟩],[⟨3,0,true,some (.own 3),some 1,none⟩,⟨3,0,true,some .internalNl,some 1,none⟩],[⟨3,0,true,some (.own 3),some 4,none⟩,⟨3,0,true,some .internalNl,some 4,none⟩],[⟨3,0,true,some .internalNl,some 4,none⟩],[⟨3,0,true,some (.own 3),some 1,none⟩,⟨3,0,true,some .internalNl,some 1,none⟩],[⟨3,0,true,some (.own 3),some 1,none⟩,⟨3,0,true,some .internalNl,some 1,none⟩],[⟨3,0,true,some (.own 3),some 1,none⟩,⟨3,0,true,some .internalNl,some 1,none⟩],[⟨3,0,true,some (.own 3),some 1,none⟩,⟨3,0,true,some .internalNl,some 1,none⟩],[⟨3,0,true,some (.own 3),some 1,none⟩,⟨3,0,true,some .internalNl,some 1,none⟩]]
theorem objj_line_sClosed : closed objj_line_rows objj_line_sTab SA.init (SA.succ objj_line_M) (SA.eofOk objj_line_M) = true := by
  decide +kernel
def objj_line_S : SCert objj_line_M := ⟨objj_line_D, objj_line_sTab, objj_line_sClosed⟩

def prolog_line_sTab : List (List SA) := [[⟨0,0,false,none,none,none⟩],[⟨1,0,false,some (.own 0),some 0,none⟩,⟨2,0,false,some (.own 0),some 0,none⟩,⟨3,0,false,some (.own 0),some 0,none⟩],[⟨1,0,false,some .newline,none,none⟩],[⟨1,0,false,some .newline,some 3,none⟩],[⟨1,0,true,some (.own 3),some 4,none⟩],[⟨1,0,true,some (.own 3),some 1,none⟩],[⟨1,0,true,some (.own 3),some 4,none⟩],[⟨1,0,false,some (.own 3),some 4,none⟩],[⟨2,0,true,some (.own 3),some 4,none⟩,⟨3,0,true,some (.own 3),some 4,none⟩],[⟨2,0,true,some (.own 3),some 4,none⟩,⟨3,0,true,some (.own 3),some 4,none⟩],[⟨2,0,true,some (.own 3),some 1,none⟩,⟨3,0,true,some (.own 3),some 1,none⟩],[⟨2,0,true,some (.own 3),some 4,none⟩,⟨3,0,true,some (.own 3),some 4,none⟩],[⟨2,0,true,some (.own 3),some 4,none⟩,⟨3,0,true,some (.own 3),some 4,none⟩],[⟨2,0,true,some (.own 3),some 4,none⟩],[⟨3,0,true,some (.own 3),some 4,none⟩],[⟨3,0,true,some (.own 3),some 4,none⟩],[⟨3,0,true,some (.own 3),some 4,none⟩,⟨3,0,true,some .internalNl,some 4,none⟩],[⟨3,0,true,some (.own 3),some 4,none⟩,⟨3,0,true,some .internalNl,some 4,none⟩],[⟨3,0,true,some (.own 3),some 4,none⟩,⟨3,0,true,some .internalNl,some 4,none⟩],[⟨3,0,true,some (.own 3),some 4,none⟩,⟨3,0,true,some .internalNl,some 4,none⟩],[⟨3,0,true,some (.own 3),some 4,none⟩,⟨3,0,true,some .internalNl,some 4,none⟩],[⟨3,0,true,some (.own 3),some 4,none⟩,⟨3,0,true,some .internalNl,some 4,none⟩],[⟨3,0,true,some (.own 3),some 4,none⟩,⟨3,0,true,some .internalNl,some 4,none⟩],[⟨3,0,true,some (.own 3),some 4,none⟩,⟨3,0,true,some .internalNl,some 4,none⟩],[⟨3,0,true,some .internalNl,some 4,none⟩]]
theorem prolog_line_sClosed : closed prolog_line_rows prolog_line_sTab SA.init (SA.succ prolog_line_M) (SA.eofOk prolog_line_M) = true := by
  decide +kernel
def prolog_line_S : SCert prolog_line_M := ⟨prolog_line_D, prolog_line_sTab, prolog_line_sClosed⟩

def vb_line_sTab : List (List SA) := [[⟨0,0,false,none,none,none⟩],[⟨1,0,false,some (.own 0),some 0,none⟩,⟨2,0,false,some (.own 0),some 0,none⟩,⟨3,0,false,some (.own 0),some 0,none⟩],[⟨1,0,false,some .newline,none,none⟩],[⟨1,0,false,some .newline,some 3,none⟩],[⟨1,0,true,some (.own 3),some 4,none⟩],[⟨1,0,true,some (.own 3),some 1,none⟩],[⟨1,0,false,some (.own 3),some 4,none⟩],[⟨2,0,true,some (.own 3),some 4,none⟩,⟨3,0,true,some (.own 3),some 4,none⟩],[⟨2,0,true,some (.own 3),some 4,none⟩,⟨3,0,true,some (.own 3),some 4,none⟩],[⟨2,0,true,some (.own 3),some 1,none⟩,⟨3,0,true,some (.own 3),some 1,none⟩],[⟨2,0,false,some (.own 3),some 4,none⟩],[⟨3,0,true,some (.own 3),some 4,none⟩],[⟨3,0,true,some (.own 3),some 1,none⟩]]
theorem vb_line_sClosed : closed vb_line_rows vb_line_sTab SA.init (SA.succ vb_line_M) (SA.eofOk vb_line_M) = true := by
  decide +kernel
def vb_line_S : SCert vb_line_M := ⟨vb_line_D, vb_line_sTab, vb_line_sClosed⟩

end Ohcount.Cert
