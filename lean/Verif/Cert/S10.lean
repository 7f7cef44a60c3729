import Verif.Cert.N10
import Verif.RagelSafe

/-! Generated by tools/gen_certs.py. -/

namespace Ohcount.Cert
open Ohcount.Ragel Ohcount.Gram

set_option maxRecDepth 100000

def asm_line_sTab : List (List SA) := [[⟨0,0,false,none,none,none⟩],[⟨1,0,false,some (.own 0),some 0,none⟩,⟨2,0,false,some (.own 0),some 0,none⟩,⟨3,0,false,some (.own 0),some 0,none⟩],[⟨1,0,false,some .newline,none,none⟩],[⟨1,0,false,some .newline,some 3,none⟩],[⟨1,0,true,some (.own 7),some 1,none⟩],[⟨1,0,true,some (.own 7),some 4,none⟩],[⟨1,0,false,some (.own 7),some 4,none⟩],[⟨1,0,true,some (.own 7),some 1,none⟩],[⟨2,0,true,some (.own 7),some 1,none⟩,⟨3,0,true,some (.own 7),some 1,none⟩],[⟨2,0,true,some (.own 7),some 4,none⟩,⟨3,0,true,some (.own 7),some 4,none⟩],[⟨2,0,true,some (.own 7),some 4,none⟩,⟨3,0,true,some (.own 7),some 4,none⟩],[⟨2,0,true,some (.own 7),some 4,none⟩],[⟨2,0,true,some (.own 7),some 1,none⟩],[⟨3,0,true,some (.own 7),some 4,none⟩],[⟨3,0,true,some (.own 7),some 4,none⟩,⟨3,0,true,some .internalNl,some 4,none⟩],[⟨3,0,true,some (.own 7),some 4,none⟩,⟨3,0,true,some .internalNl,some 4,none⟩],[⟨3,0,true,some (.own 7),some 4,none⟩,⟨3,0,true,some .internalNl,some 4,none⟩],[⟨3,0,true,some (.own 7),some 4,none⟩,⟨3,0,true,some .internalNl,some 4,none⟩],[⟨3,0,true,some (.own 7),some 4,none⟩,⟨3,0,true,some .internalNl,some 4,none⟩],[⟨3,0,true,some (.own 7),some 4,none⟩,⟨3,0,true,some .internalNl,some 4,none⟩],[⟨3,0,true,some (.own 7),some 4,none⟩,⟨3,0,true,some .internalNl,some 4,none⟩],[⟨3,0,true,some (.own 7),some 4,none⟩,⟨3,0,true,some .internalNl,some 4,none⟩],[⟨3,0,true,some .internalNl,some 4,none⟩]]
theorem asm_line_sClosed : closed asm_line_rows asm_line_sTab SA.init (SA.succ asm_line_M) (SA.eofOk asm_line_M) = true := by
  decide +kernel
def asm_line_S : SCert asm_line_M := ⟨asm_line_D, asm_line_sTab, asm_line_sClosed⟩

def awk_line_sTab : List (List SA) := [[⟨0,0,false,none,none,none⟩],[⟨1,0,false,some (.own 0),some 0,none⟩,⟨2,0,false,some (.own 0),some 0,none⟩,⟨3,0,false,some (.own 0),some 0,none⟩],[⟨1,0,false,some .newline,none,none⟩],[⟨1,0,false,some .newline,some 3,none⟩],[⟨1,0,true,some (.own 3),some 4,none⟩],[⟨1,0,true,some (.own 3),some 1,none⟩],[⟨1,0,true,some (.own 3),some 4,none⟩],[⟨2,0,true,some (.own 3),some 4,none⟩,⟨3,0,true,some (.own 3),some 4,none⟩],[⟨2,0,true,some (.own 3),some 4,none⟩,⟨3,0,true,some (.own 3),some 4,none⟩],[⟨2,0,true,some (.own 3),some 1,none⟩,⟨3,0,true,some (.own 3),some 1,none⟩],[⟨2,0,true,some (.own 3),some 4,none⟩,⟨3,0,true,some (.own 3),some 4,none⟩],[⟨2,0,true,some (.own 3),some 4,none⟩,⟨3,0,true,some (.own 3),some 4,none⟩],[⟨3,0,true,some (.own 3),some 4,none⟩],[⟨3,0,true,some (.own 3),some 4,none⟩]]
theorem awk_line_sClosed : closed awk_line_rows awk_line_sTab SA.init (SA.succ awk_line_M) (SA.eofOk awk_line_M) = true := by
  decide +kernel
def awk_line_S : SCert awk_line_M := ⟨awk_line_D, awk_line_sTab, awk_line_sClosed⟩

def c_line_sTab : List (List SA) := [[⟨0,0,false,none,none,none⟩],[⟨1,0,false,some (.own 0),some 0,none⟩,⟨2,0,false,some (.own 0),some 0,none⟩,⟨3,0,false,some (.own 0),some 0,none⟩],[⟨1,0,false,some .newline,none,none⟩],[⟨1,0,false,some .newline,some 3,none⟩],[⟨1,0,true,some (.own 8),some 4,none⟩],[⟨1,0,true,some (.own 8),some 4,none⟩],[⟨1,0,false,some (.own 8),some 4,none⟩],[⟨2,0,true,some (.own 8),some 4,none⟩,⟨3,0,true,some (.own 8),some 4,none⟩,⟨3,0,true,some .internalNl,some 4,none⟩],[⟨2,0,true,some (.own 8),some 4,none⟩,⟨3,0,true,some (.own 8),some 4,none⟩,⟨3,0,true,some .internalNl,some 4,none⟩],[⟨2,0,true,some (.own 8),some 4,none⟩,⟨3,0,true,some (.own 8),some 4,none⟩,⟨3,0,true,some .internalNl,some 4,none⟩],[⟨2,0,true,some (.own 8),some 4,none⟩,⟨3,0,true,some (.own 8),some 4,none⟩,⟨3,0,true,some .internalNl,some 4,none⟩],[⟨2,0,true,some (.own 8),some 4,none⟩,⟨3,0,true,some (.own 8),some 4,none⟩,⟨3,0,true,some .internalNl,some 4,none⟩],[⟨2,0,true,some (.own 8),some 4,none⟩,⟨3,0,true,some (.own 8),some 4,none⟩,⟨3,0,true,some .internalNl,some 4,none⟩],[⟨2,0,true,some (.own 8),some 4,none⟩],[⟨2,0,true,some (.own 8),some 1,none⟩],[⟨3,0,true,some (.own 8),some 4,none⟩,⟨3,0,true,some .internalNl,some 4,none⟩],[⟨3,0,true,some (.own 8),some 4,none⟩,⟨3,0,true,some .internalNl,some 4,none⟩],[⟨3,0,true,some (.own 8),some 4,none⟩,⟨3,0,true,some .internalNl,some 4,none⟩],[⟨3,0,true,some (.own 8),some 4,none⟩,⟨3,0,true,some .internalNl,some 4,none⟩],[⟨3,0,true,some (.own 8),some 4,none⟩,⟨3,0,true,some .internalNl,some 4,none⟩],[⟨3,0,true,some (.own 8),some 4,none⟩,⟨3,0,true,some .internalNl,some 4,none⟩],[⟨3,0,true,some (.own 8),some 4,none⟩,⟨3,0,true,some .internalNl,some 4,none⟩],[⟨3,0,true,some (.own 8),some 4,none⟩,⟨3,0,true,some .internalNl,some 4,none⟩],[⟨3,0,true,some (.own 8),some 4,none⟩,⟨3,0,true,some .internalNl,some 4,none⟩],[⟨3,0,true,some (.own 8),some 4,none⟩,⟨3,0,true,some .internalNl,some 4,none⟩],[⟨3,0,true,some (.own 8),some 4,none⟩,⟨3,0,true,some .internalNl,some 4,none⟩],[⟨3,0,true,some (.own 8),some 4,none⟩,⟨3,0,true,some .internalNl,some 4,none⟩],[⟨3,0,true,some (.own 8),some 4,none⟩,⟨3,0,true,some .internalNl,some 4,none⟩],[⟨3,0,true,some (.own 8),some 4,none⟩,⟨3,0,true,some .internalNl,some 4,none⟩],[⟨3,0,true,some (.own 8),some 4,none⟩,⟨3,0,true,some .internalNl,some 4,none⟩],[⟨3,0,true,some (.own 8),some 4,none⟩,⟨3,0,true,some .internalNl,some 4,none⟩],[⟨3,0,true,some (.own 8),some 4,none⟩,⟨3,0,true,some .internalNl,some 4,none⟩],[⟨3,0,true,some (.own 8),some 1,none⟩,⟨3,0,true,some .internalNl,some 1,none⟩],[⟨3,0,true,some (.own 8),some 1,none⟩,⟨3,0,true,some .internalNl,some 1,none⟩],[⟨3,0,true,some (.own 8),some 1,none⟩,⟨3,0,true,some .internalNl,some 1,none⟩],[⟨3,0,true,some (.own 8),some 4,none⟩,⟨3,0,true,some .internalNl,some 4,none⟩],[⟨3,0,true,some .internalNl,some 4,none⟩],[⟨3,0,true,some (.own 8),some 4,none⟩,⟨3,0,true,some .internalNl,some 4,none⟩],[⟨3,0,true,some .internalNl,some 4,none⟩],[⟨3,0,true,some (.own 8),some 4,none⟩,⟨3,0,true,some .internalNl,some 4,none⟩],[⟨3,0,true,some .internalNl,some 4,none⟩],[⟨3,0,true,some (.own 8),some 1,none⟩,⟨3,0,true,some .internalNl,some 1,none⟩],[⟨3,0,true,some (.own 8),some 1,none⟩,⟨3,0,true,some .internalNl,some 1,none⟩],[⟨3,0,true,some (.own 8),some 1,none⟩,⟨3,0,true,some .internalNl,some 1,none⟩],[⟨3,0,true,some (.own 8),some 1,none⟩,⟨3,0,true,some .internalNl,some 1,none⟩],[⟨3,0,true,some (.own 8),some 1,none⟩,⟨3,0,true,some .internalNl,some 1,none⟩]]
theorem c_line_sClosed : closed c_line_rows c_line_sTab SA.init (SA.succ c_line_M) (SA.eofOk c_line_M) = true := by
  decide +kernel
def c_line_S : SCert c_line_M := ⟨c_line_D, c_line_sTab, c_line_sClosed⟩

def dart_line_sTab : List (List SA) := [[⟨0,0,false,none,none,none⟩],[⟨1,0,false,some (.own 0),some 0,none⟩,⟨2,0,false,some (.own 0),some 0,none⟩,⟨3,0,false,some (.own 0),some 0,none⟩],[⟨1,0,false,some .newline,none,none⟩],[⟨1,0,false,some .newline,some 2,none⟩],[⟨1,0,false,some (.own 2),some 3,none⟩],[⟨2,0,true,some (.own 2),some 3,none⟩],[⟨2,0,true,some (.own 2),some 1,none⟩],[⟨3,0,true,some (.own 2),some 3,none⟩,⟨3,0,true,some .internalNl,some 3,none⟩],[⟨3,0,true,some (.own 2),some 3,none⟩,⟨3,0,true,some .internalNl,some 3,none⟩],[⟨3,0,true,some (.own 2),some 3,none⟩,⟨3,0,true,some .internalNl,some 3,none⟩],[⟨3,0,true,some (.own 2),some 3,none⟩,⟨3,0,true,some .internalNl,some 3,none⟩],[⟨3,0,true,some (.own 2),some 3,none⟩,⟨3,0,true,some .internalNl,some 3,none⟩],[⟨3,0,true,some (.own 2),some 3,none⟩,⟨3,0,true,some .internalNl,some 3,none⟩],[⟨3,0,true,some (.own 2),some 3,none⟩,⟨3,0,true,some .internalNl,some 3,none⟩],[⟨3,0,true,some (.own 2),some 1,none⟩,⟨3,0,true,some .internalNl,some 1,none⟩],[⟨3,0,true,some (.own 2),some 1,none⟩,⟨3,0,true,some .internalNl,some 1,none⟩],[⟨3,0,true,some (.own 2),some 1,none⟩,⟨3,0,true,some .internalNl,some 1,none⟩],[⟨3,0,true,some (.own 2),some 3,none⟩,⟨3,0,true,some .internalNl,some 3,none⟩],[⟨3,0,true,some .internalNl,some 3,none⟩],[⟨3,0,true,some (.own 2),some 1,none⟩,⟨3,0,true,some .internalNl,some 1,none⟩],[⟨3,0,true,some (.own 2),some 1,none⟩,⟨3,0,true,some .internalNl,some 1,none⟩],[⟨3,0,true,some (.own 2),some 1,none⟩,⟨3,0,true,some .internalNl,some 1,none⟩],[⟨3,0,true,some (.own 2),some 1,none⟩,⟨3,0,true,some .internalNl,some 1,none⟩],[⟨3,0,true,some (.own 2),some 1,none⟩,⟨3,0,true,some .internalNl,some 1,none⟩]]
theorem dart_line_sClosed : closed dart_line_rows dart_line_sTab SA.init (SA.succ dart_line_M) (SA.eofOk dart_line_M) = true := by
  decide +kernel
def dart_line_S : SCert dart_line_M := ⟨dart_line_D, dart_line_sTab, dart_line_sClosed⟩

def eiffel_line_sTab : List (List SA) := [[⟨0,0,false,none,none,none⟩],[⟨1,0,false,some (.own 0),some 0,none⟩,⟨2,0,false,some (.own 0),some 0,none⟩,⟨3,0,false,some (.own 0),some 0,none⟩],[⟨1,0,false,some .newline,none,none⟩],[⟨1,0,false,some .newline,some 3,none⟩],[⟨1,0,true,some (.own 3),some 4,none⟩],[⟨1,0,false,some (.own 3),some 4,none⟩],[⟨2,0,true,some (.own 3),some 4,none⟩,⟨3,0,true,some (.own 3),some 4,none⟩],[⟨2,0,true,some (.own 3),some 1,none⟩],[⟨3,0,true,some (.own 3),some 1,none⟩]]
theorem eiffel_line_sClosed : closed eiffel_line_rows eiffel_line_sTab SA.init (SA.succ eiffel_line_M) (SA.eofOk eiffel_line_M) = true := by
  decide +kernel
def eiffel_line_S : SCert eiffel_line_M := ⟨eiffel_line_D, eiffel_line_sTab, eiffel_line_sClosed⟩

def groovy_line_sTab : List (List SA) := [[⟨0,0,false,none,none,none⟩],[⟨1,0,false,some (.own 0),some 0,none⟩,⟨2,0,false,some (.own 0),some 0,none⟩,⟨3,0,false,some (.own 0),some 0,none⟩],[⟨1,0,false,some .newline,none,none⟩],[⟨1,0,false,some .newline,some 3,none⟩],[⟨1,0,true,some (.own 3),some 4,none⟩],[⟨1,0,true,some (.own 3),some 4,none⟩],[⟨1,0,false,some (.own 3),some 4,none⟩],[⟨2,0,true,some (.own 3),some 4,none⟩,⟨3,0,true,some (.own 3),some 4,none⟩,⟨3,0,true,some .internalNl,some 4,none⟩],[⟨2,0,true,some (.own 3),some 4,none⟩,⟨3,0,true,some (.own 3),some 4,none⟩,⟨3,0,true,some .internalNl,some 4,none⟩],[⟨2,0,true,some (.own 3),some 4,none⟩,⟨3,0,true,some (.own 3),some 4,none⟩,⟨3,0,true,some .internalNl,some 4,none⟩],[⟨2,0,true,some (.own 3),some 4,none⟩,⟨3,0,true,some (.own 3),some 4,none⟩,⟨3,0,true,some .internalNl,some 4,none⟩],[⟨2,0,true,some (.own 3),some 4,none⟩,⟨3,0,true,some (.own 3),some 4,none⟩,⟨3,0,true,some .internalNl,some 4,none⟩],[⟨2,0,true,some (.own 3),some 4,none⟩,⟨3,0,true,some (.own 3),some 4,none⟩,⟨3,0,true,some .internalNl,some 4,none⟩],[⟨2,0,true,some (.own 3),some 4,none⟩],[⟨2,0,true,some (.own 3),some 1,none⟩],[⟨3,0,true,some (.own 3),some 4,none⟩,⟨3,0,true,some .internalNl,some 4,none⟩],[⟨3,0,true,some (.own 3),some 4,none⟩,⟨3,0,true,some .internalNl,some 4,none⟩],[⟨3,0,true,some (.own 3),some 4,none⟩,⟨3,0,true,some .internalNl,some 4,none⟩],[⟨3,0,true,some (.own 3),some 4,none⟩,⟨3,0,true,some .internalNl,some 4,none⟩],[⟨3,0,true,some (.own 3),some 4,none⟩,⟨3,0,true,some .internalNl,some 4,none⟩],[⟨3,0,true,some (.own 3),some 4,none⟩,⟨3,0,true,some .internalNl,some 4,none⟩],[⟨3,0,true,some (.own 3),some 4,none⟩,⟨3,0,true,some .internalNl,some 4,none⟩],[⟨3,0,true,some (.own 3),some 4,none⟩,⟨3,0,true,some .internalNl,some 4,none⟩],[⟨3,0,true,some (.own 3),some 4,none⟩,⟨3,0,true,some .internalNl,some 4,none⟩],[⟨3,0,true,some (.own 3),some 4,none⟩,⟨3,0,true,some .internalNl,some 4,none⟩],[⟨3,0,true,some (.own 3),some 4,none⟩,⟨3,0,true,some .internalNl,some 4,none⟩],[⟨3,0,true,some (.own 3),some 4,none⟩,⟨3,0,true,some .internalNl,some 4,none⟩],[⟨3,0,true,some (.own 3),some 4,none⟩,⟨3,0,true,some .internalNl,some 4,none⟩],[⟨3,0,true,some (.own 3),some 4,none⟩,⟨3,0,true,some .internalNl,some 4,none⟩],[⟨3,0,true,some (.own 3),some 4,none⟩,⟨3,0,true,some .internalNl,some 4,none⟩],[⟨3,0,true,some (.own 3),some 4,none⟩,⟨3,0,true,some .internalNl,some 4,none⟩],[⟨3,0,true,some (.own 3),some 4,none⟩,⟨3,0,true,some .internalNl,some 4,none⟩],[⟨3,0,true,some (.own 3),some 1,none⟩,⟨3,0,true,some .internalNl,some 1,none⟩],[⟨3,0,true,some (.own 3),some 1,none⟩,⟨3,0,true,some .internalNl,some 1,none⟩],[⟨3,0,true,some (.own 3),some 1,none⟩,⟨3,0,true,some .internalNl,some 1,none⟩],[⟨3,0,true,some (.own 3),some 4,none⟩,⟨3,0,true,some .internalNl,some 4,none⟩],[⟨3,0,true,some .internalNl,some 4,none⟩],[⟨3,0,true,some (.own 3),some 4,none⟩,⟨3,0,true,some .internalNl,some 4,none⟩],[⟨3,0,true,some .internalNl,some 4,none⟩],[⟨3,0,true,some (.own 3),some 4,none⟩,⟨3,0,true,some .internalNl,some 4,none⟩],[⟨3,0,true,some .internalNl,some 4,none⟩],[⟨3,0,true,some (.own 3),some 1,none⟩,⟨3,0,true,some .internalNl,some 1,none⟩],[⟨3,0,true,some (.own 3),some 1,none⟩,⟨3,0,true,some .internalNl,some 1,none⟩],[⟨3,0,true,some (.own 3),some 1,none⟩,⟨3,0,true,some .internalNl,some 1,none⟩],[⟨3,0,true,some (.own 3),some 1,none⟩,⟨3,0,true,some .internalNl,some 1,none⟩],[⟨3,0,true,some (.own 3),some 1,none⟩,⟨3,0,true,some .internalNl,some 1,none⟩]]
theorem groovy_line_sClosed : closed groovy_line_rows groovy_line_sTab SA.init (SA.succ groovy_line_M) (SA.eofOk groovy_line_M) = true := by
  decide +kernel
def groovy_line_S : SCert groovy_line_M := ⟨groovy_line_D, groovy_line_sTab, groovy_line_sClosed⟩

def metafont_line_sTab : List (List SA) := [[⟨0,0,false,none,none,none⟩],[⟨1,0,false,some (.own 0),some 0,none⟩,⟨2,0,false,some (.own 0),some 0,none⟩,⟨3,0,false,some (.own 0),some 0,none⟩],[⟨1,0,false,some .newline,none,none⟩],[⟨1,0,false,some .newline,some 3,none⟩],[⟨1,0,true,some (.own 3),some 4,none⟩],[⟨0,1,true,some (.own 3),some 1,some 37⟩],[⟨2,0,true,some (.own 3),some 4,none⟩,⟨3,0,true,some (.own 3),some 4,none⟩],[⟨2,0,true,some (.own 3),some 4,none⟩,⟨3,0,true,some (.own 3),some 4,none⟩],[⟨1,1,true,some (.own 3),some 1,none⟩,⟨2,1,true,some (.own 3),some 1,none⟩,⟨3,1,true,some (.own 3),some 1,none⟩],[⟨3,0,true,some (.own 3),some 4,none⟩]]
theorem metafont_line_sClosed : closed metafont_line_rows metafont_line_sTab SA.init (SA.succ metafont_line_M) (SA.eofOk metafont_line_M) = true := by
  decide +kernel
def metafont_line_S : SCert metafont_line_M := ⟨metafont_line_D, metafont_line_sTab, metafont_line_sClosed⟩

def rebol_line_sTab : List (List SA) := [[⟨0,0,false,none,none,none⟩],[⟨1,0,false,some (.own 0),some 0,none⟩,⟨2,0,false,some (.own 0),some 0,none⟩,⟨3,0,false,some (.own 0),some 0,none⟩],[⟨1,0,false,some .newline,none,none⟩],[⟨1,0,false,some .newline,some 3,none⟩],[⟨1,0,true,some (.own 3),some 4,none⟩],[⟨1,0,true,some (.own 3),some 1,none⟩],[⟨1,0,true,some (.own 3),some 4,none⟩],[⟨2,0,true,some (.own 3),some 4,none⟩,⟨3,0,true,some (.own 3),some 4,none⟩,⟨3,0,true,some (.own 3),some 2,none⟩],[⟨2,0,true,some (.own 3),some 4,none⟩,⟨3,0,true,some (.own 3),some 4,none⟩,⟨3,0,true,some (.own 3),some 2,none⟩],[⟨2,0,true,some (.own 3),some 1,none⟩,⟨3,0,true,some (.own 3),some 1,none⟩],[⟨2,0,true,some (.own 3),some 4,none⟩,⟨3,0,true,some (.own 3),some 4,none⟩,⟨3,0,true,some .internalNl,some 4,none⟩,⟨3,0,true,some (.own 3),some 2,none⟩,⟨3,0,true,some .internalNl,some 2,none⟩],[⟨2,0,true,some (.own 3),some 4,none⟩,⟨3,0,true,some (.own 3),some 4,none⟩,⟨3,0,true,some .internalNl,some 4,none⟩,⟨3,0,true,some (.own 3),some 2,none⟩,⟨3,0,true,some .internalNl,some 2,none⟩],[⟨2,0,true,some (.own 3),some 4,none⟩,⟨3,0,true,some (.own 3),some 4,none⟩,⟨3,0,true,some .internalNl,some 4,none⟩,⟨3,0,true,some (.own 3),some 2,none⟩,⟨3,0,true,some .internalNl,some 2,none⟩],[⟨2,0,true,some (.own 3),some 4,none⟩,⟨3,0,true,some (.own 3),some 4,none⟩,⟨3,0,true,some .internalNl,some 4,none⟩,⟨3,0,true,some (.own 3),some 2,none⟩,⟨3,0,true,some .internalNl,some 2,none⟩],[⟨2,0,true,some (.own 3),some 4,none⟩,⟨3,0,true,some (.own 3),some 4,none⟩,⟨3,0,true,some .internalNl,some 4,none⟩,⟨3,0,true,some (.own 3),some 2,none⟩,⟨3,0,true,some .internalNl,some 2,none⟩],[⟨2,0,true,some (.own 3),some 4,none⟩,⟨3,0,true,some (.own 3),some 4,none⟩,⟨3,0,true,some .internalNl,some 4,none⟩,⟨3,0,true,some (.own 3),some 2,none⟩,⟨3,0,true,some .internalNl,some 2,none⟩],[⟨2,0,true,some (.own 3),some 4,none⟩,⟨3,0,true,some (.own 3),some 4,none⟩,⟨3,0,true,some .internalNl,some 4,none⟩,⟨3,0,true,some (.own 3),some 2,none⟩,⟨3,0,true,some .internalNl,some 2,none⟩],[⟨2,0,true,some (.own 3),some 2,none⟩,⟨3,0,true,some (.own 3),some 2,none⟩,⟨3,0,true,some .internalNl,some 2,none⟩],[⟨3,0,true,some (.own 3),some 2,none⟩],[⟨3,0,true,some (.own 3),some 4,none⟩,⟨3,0,true,some .internalNl,some 4,none⟩,⟨3,0,true,some (.own 3),some 2,none⟩,⟨3,0,true,some .internalNl,some 2,none⟩],[⟨3,0,true,some (.own 3),some 4,none⟩,⟨3,0,true,some .internalNl,some 4,none⟩,⟨3,0,true,some (.own 3),some 2,none⟩,⟨3,0,true,some .internalNl,some 2,none⟩],[⟨3,0,true,some (.own 3),some 2,none⟩,⟨3,0,true,some .internalNl,some 2,none⟩],[⟨3,0,true,some (.own 3),some 2,none⟩,⟨3,0,true,some .internalNl,some 2,none⟩]]
theorem rebol_line_sClosed : closed rebol_line_rows rebol_line_sTab SA.init (SA.succ rebol_line_M) (SA.eofOk rebol_line_M) = true := by
  decide +kernel
def rebol_line_S : SCert rebol_line_M := ⟨rebol_line_D, rebol_line_sTab, rebol_line_sClosed⟩

def xml_line_sTab : List (List SA) := [[⟨0,0,false,none,none,none⟩],[⟨1,0,false,some (.own 0),some 0,none⟩,⟨2,0,false,some (.own 0),some 0,none⟩,⟨3,0,false,some (.own 0),some 0,none⟩],[⟨1,0,false,some .newline,none,none⟩],[⟨1,0,false,some .newline,some 3,none⟩],[⟨1,0,false,some (.own 5),some 4,none⟩],[⟨1,0,false,some (.own 5),some 4,none⟩],[⟨1,0,false,some (.own 5),some 4,none⟩],[⟨2,0,false,some (.own 5),some 4,none⟩,⟨3,0,false,some (.own 5),some 4,none⟩],[⟨2,0,false,some (.own 5),some 4,none⟩,⟨3,0,false,some (.own 5),some 4,none⟩],[⟨2,0,false,some (.own 5),some 4,none⟩],[⟨3,0,false,some (.own 5),some 4,none⟩],[⟨3,0,false,some (.own 5),some 4,none⟩],[⟨3,0,true,some (.own 5),some 4,none⟩],[⟨3,0,false,some (.own 5),some 4,none⟩],[⟨3,0,true,some (.own 5),some 4,none⟩,⟨3,0,true,some .internalNl,some 4,none⟩],[⟨3,0,true,some (.own 5),some 4,none⟩,⟨3,0,true,some .internalNl,some 4,none⟩],[⟨3,0,true,some (.own 5),some 4,none⟩,⟨3,0,true,some .internalNl,some 4,none⟩],[⟨3,0,true,some (.own 5),some 4,none⟩,⟨3,0,true,some .internalNl,some 4,none⟩],[⟨3,0,true,some (.own 5),some 4,none⟩,⟨3,0,true,some .internalNl,some 4,none⟩],[⟨3,0,true,some (.own 5),some 4,none⟩,⟨3,0,true,some .internalNl,some 4,none⟩],[⟨3,0,true,some (.own 5),some 4,none⟩,⟨3,0,true,some .internalNl,some 4,none⟩],[⟨3,0,false,some (.own 5),some 4,none⟩],[⟨3,0,true,some (.own 5),some 4,none⟩,⟨3,0,true,some .internalNl,some 4,none⟩],[⟨3,0,true,some .internalNl,some 4,none⟩],[⟨3,0,true,some (.own 5),some 4,none⟩,⟨3,0,true,some .internalNl,some 4,none⟩],[⟨3,0,false,some (.own 5),some 4,none⟩],[⟨3,0,false,some (.own 5),some 4,none⟩],[⟨3,0,false,some (.own 5),some 4,none⟩],[⟨3,0,true,some (.own 5),some 4,none⟩],[⟨3,0,true,some (.own 5),some 4,none⟩,⟨3,0,true,some .internalNl,some 4,none⟩],[⟨3,0,true,some (.own 5),some 4,none⟩,⟨3,0,true,some .internalNl,some 4,none⟩],[⟨3,0,true,some (.own 5),some 4,none⟩,⟨3,0,true,some .internalNl,some 4,none⟩],[⟨3,0,true,some (.own 5),some 4,none⟩,⟨3,0,true,some .internalNl,some 4,none⟩],[⟨3,0,true,some (.own 5),some 4,none⟩,⟨3,0,true,some .internalNl,some 4,none⟩],[⟨3,0,true,some (.own 5),some 4,none⟩,⟨3,0,true,some .internalNl,some 4,none⟩],[⟨3,0,true,some (.own 5),some 4,none⟩,⟨3,0,true,some .internalNl,some 4,none⟩],[⟨3,0,true,some (.own 5),some 4,none⟩,⟨3,0,true,some .internalNl,some 4,none⟩],[⟨3,0,true,some .internalNl,some 4,none⟩],[⟨3,0,true,some (.own 5),some 4,none⟩,⟨3,0,true,some .internalNl,some 4,none⟩]]
theorem xml_line_sClosed : closed xml_line_rows xml_line_sTab SA.init (SA.succ xml_line_M) (SA.eofOk xml_line_M) = true := by
  decide +kernel
def xml_line_S : SCert xml_line_M := ⟨xml_line_D, xml_line_sTab, xml_line_sClosed⟩

end Ohcount.Cert
