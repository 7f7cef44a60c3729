import Verif.Cert.N1
import Verif.RagelSafe

/-! Generated by tools/gen_certs.py. -/

namespace Ohcount.Cert
open Ohcount.Ragel Ohcount.Gram

set_option maxRecDepth 100000

def cs_line_sTab : List (List SA) := [[⟨0,0,false,none,none,none⟩],[⟨1,0,false,some (.own 0),some 0,none⟩,⟨2,0,false,some (.own 0),some 0,none⟩,⟨3,0,false,some (.own 0),some 0,none⟩],[⟨1,0,false,some .newline,none,none⟩],[⟨1,0,false,some .newline,some 3,none⟩],[⟨1,0,true,some (.own 3),some 4,none⟩],[⟨1,0,true,some (.own 3),some 1,none⟩],[⟨2,0,true,some (.own 3),some 4,none⟩,⟨3,0,true,some (.own 3),some 4,none⟩],[⟨2,0,true,some (.own 3),some 4,none⟩,⟨3,0,true,some (.own 3),some 4,none⟩],[⟨2,0,true,some (.own 3),some 1,none⟩,⟨3,0,true,some (.own 3),some 1,none⟩],[⟨3,0,true,some (.own 3),some 4,none⟩]]
theorem cs_line_sClosed : closed cs_line_rows cs_line_sTab SA.init (SA.succ cs_line_M) (SA.eofOk cs_line_M) = true := by
  decide +kernel
def cs_line_S : SCert cs_line_M := ⟨cs_line_D, cs_line_sTab, cs_line_sClosed⟩

def cmake_line_sTab : List (List SA) := [[⟨0,0,false,none,none,none⟩],[⟨1,0,false,some (.own 0),some 0,none⟩,⟨2,0,false,some (.own 0),some 0,none⟩,⟨3,0,false,some (.own 0),some 0,none⟩],[⟨1,0,false,some .newline,none,none⟩],[⟨1,0,false,some .newline,some 3,none⟩],[⟨1,0,true,some (.own 3),some 4,none⟩],[⟨1,0,true,some (.own 3),some 1,none⟩],[⟨2,0,true,some (.own 3),some 4,none⟩,⟨3,0,true,some (.own 3),some 4,none⟩,⟨3,0,true,some .internalNl,some 4,none⟩],[⟨2,0,true,some (.own 3),some 4,none⟩,⟨3,0,true,some (.own 3),some 4,none⟩,⟨3,0,true,some .internalNl,some 4,none⟩],[⟨2,0,true,some (.own 3),some 4,none⟩,⟨3,0,true,some (.own 3),some 4,none⟩,⟨3,0,true,some .internalNl,some 4,none⟩],[⟨2,0,true,some (.own 3),some 4,none⟩,⟨3,0,true,some (.own 3),some 4,none⟩,⟨3,0,true,some .internalNl,some 4,none⟩],[⟨2,0,true,some (.own 3),some 4,none⟩,⟨3,0,true,some (.own 3),some 4,none⟩,⟨3,0,true,some .internalNl,some 4,none⟩],[⟨2,0,true,some (.own 3),some 4,none⟩,⟨3,0,true,some (.own 3),some 4,none⟩,⟨3,0,true,some .internalNl,some 4,none⟩],[⟨2,0,true,some (.own 3),some 4,none⟩,⟨3,0,true,some (.own 3),some 4,none⟩,⟨3,0,true,some .internalNl,some 4,none⟩],[⟨2,0,true,some (.own 3),some 1,none⟩,⟨3,0,true,some (.own 3),some 1,none⟩],[⟨3,0,true,some (.own 3),some 4,none⟩,⟨3,0,true,some .internalNl,some 4,none⟩],[⟨3,0,true,some .internalNl,some 4,none⟩],[⟨3,0,true,some (.own 3),some 4,none⟩,⟨3,0,true,some .internalNl,some 4,none⟩]]
theorem cmake_line_sClosed : closed cmake_line_rows cmake_line_sTab SA.init (SA.succ cmake_line_M) (SA.eofOk cmake_line_M) = true := by
  decide +kernel
def cmake_line_S : SCert cmake_line_M := ⟨cmake_line_D, cmake_line_sTab, cmake_line_sClosed⟩

def ebuild_line_sTab : List (List SA) := [[⟨0,0,false,none,none,none⟩],[⟨1,0,false,some (.own 0),some 0,none⟩,⟨2,0,false,some (.own 0),some 0,none⟩,⟨3,0,false,some (.own 0),some 0,none⟩],[⟨1,0,false,some .newline,none,none⟩],[⟨1,0,false,some .newline,some 3,none⟩],[⟨1,0,true,some (.own 3),some 4,none⟩],[⟨1,0,true,some (.own 3),some 1,none⟩],[⟨1,0,true,some (.own 3),some 4,none⟩],[⟨2,0,true,some (.own 3),some 4,none⟩,⟨3,0,true,some (.own 3),some 4,none⟩],[⟨2,0,true,some (.own 3),some 4,none⟩,⟨3,0,true,some (.own 3),some 4,none⟩],[⟨2,0,true,some (.own 3),some 1,none⟩,⟨3,0,true,some (.own 3),some 1,none⟩],[⟨2,0,true,some (.own 3),some 4,none⟩,⟨3,0,true,some (.own 3),some 4,none⟩],[⟨2,0,true,some (.own 3),some 4,none⟩,⟨3,0,true,some (.own 3),some 4,none⟩],[⟨3,0,true,some (.own 3),some 4,none⟩],[⟨3,0,true,some (.own 3),some 4,none⟩]]
theorem ebuild_line_sClosed : closed ebuild_line_rows ebuild_line_sTab SA.init (SA.succ ebuild_line_M) (SA.eofOk ebuild_line_M) = true := by
  decide +kernel
def ebuild_line_S : SCert ebuild_line_M := ⟨ebuild_line_D, ebuild_line_sTab, ebuild_line_sClosed⟩

def ffree_line_sTab : List (List SA) := [[⟨0,0,false,none,none,none⟩],[⟨1,0,false,some (.own 0),some 0,none⟩,⟨2,0,false,some (.own 0),some 0,none⟩,⟨3,0,false,some (.own 0),some 0,none⟩],[⟨1,0,false,some .newline,none,none⟩],[⟨1,0,false,some .newline,some 3,none⟩],[⟨1,0,true,some (.own 3),some 1,none⟩],[⟨1,0,true,some (.own 3),some 4,none⟩],[⟨1,0,true,some (.own 3),some 4,none⟩],[⟨2,0,true,some (.own 3),some 1,none⟩,⟨3,0,true,some (.own 3),some 1,none⟩],[⟨2,0,true,some (.own 3),some 4,none⟩,⟨3,0,true,some (.own 3),some 4,none⟩,⟨3,0,true,some .internalNl,some 4,none⟩],[⟨2,0,true,some (.own 3),some 4,none⟩,⟨3,0,true,some (.own 3),some 4,none⟩,⟨3,0,true,some .internalNl,some 4,none⟩],[⟨2,0,true,some (.own 3),some 4,none⟩,⟨3,0,true,some (.own 3),some 4,none⟩,⟨3,0,true,some .internalNl,some 4,none⟩],[⟨2,0,true,some (.own 3),some 4,none⟩,⟨3,0,true,some (.own 3),some 4,none⟩,⟨3,0,true,some .internalNl,some 4,none⟩],[⟨2,0,true,some (.own 3),some 4,none⟩,⟨3,0,true,some (.own 3),some 4,none⟩,⟨3,0,true,some .internalNl,some 4,none⟩],[⟨2,0,true,some (.own 3),some 4,none⟩,⟨3,0,true,some (.own 3),some 4,none⟩,⟨3,0,true,some .internalNl,some 4,none⟩],[⟨2,0,true,some (.own 3),some 4,none⟩,⟨3,0,true,some (.own 3),some 4,none⟩,⟨3,0,true,some .internalNl,some 4,none⟩],[⟨2,0,true,some (.own 3),some 4,none⟩,⟨3,0,true,some (.own 3),some 4,none⟩,⟨3,0,true,some .internalNl,some 4,none⟩],[⟨2,0,true,some (.own 3),some 4,none⟩,⟨3,0,true,some (.own 3),some 4,none⟩,⟨3,0,true,some .internalNl,some 4,none⟩],[⟨2,0,true,some (.own 3),some 4,none⟩,⟨3,0,true,some (.own 3),some 4,none⟩,⟨3,0,true,some .internalNl,some 4,none⟩],[⟨2,0,true,some (.own 3),some 4,none⟩,⟨3,0,true,some (.own 3),some 4,none⟩,⟨3,0,true,some .internalNl,some 4,none⟩],[⟨2,0,true,some (.own 3),some 4,none⟩,⟨3,0,true,some (.own 3),some 4,none⟩,⟨3,0,true,some .internalNl,some 4,none⟩],[⟨3,0,true,some (.own 3),some 4,none⟩,⟨3,0,true,some .internalNl,some 4,none⟩],[⟨3,0,true,some .internalNl,some 4,none⟩],[⟨3,0,true,some (.own 3),some 4,none⟩,⟨3,0,true,some .internalNl,some 4,none⟩],[⟨3,0,true,some .internalNl,some 4,none⟩]]
theorem ffree_line_sClosed : closed ffree_line_rows ffree_line_sTab SA.init (SA.succ ffree_line_M) (SA.eofOk ffree_line_M) = true := by
  decide +kernel
def ffree_line_S : SCert ffree_line_M := ⟨ffree_line_D, ffree_line_sTab, ffree_line_sClosed⟩

def mathematica_line_sTab : List (List SA) := [[⟨0,0,false,none,none,none⟩],[⟨1,0,false,some (.own 0),some 0,none⟩,⟨2,0,false,some (.own 0),some 0,none⟩,⟨3,0,false,some (.own 0),some 0,none⟩],[⟨1,0,false,some .newline,none,none⟩],[⟨1,0,false,some .newline,some 3,none⟩],[⟨1,0,true,some (.own 3),some 4,none⟩],[⟨1,0,false,some (.own 3),some 4,none⟩],[⟨2,0,true,some (.own 3),some 4,none⟩],[⟨2,0,true,some (.own 3),some 4,none⟩],[⟨3,0,true,some (.own 3),some 4,none⟩,⟨3,0,true,some .internalNl,some 4,none⟩],[⟨3,0,true,some (.own 3),some 4,none⟩,⟨3,0,true,some .internalNl,some 4,none⟩],[⟨3,0,true,some (.own 3),some 4,none⟩,⟨3,0,true,some .internalNl,some 4,none⟩],[⟨3,0,true,some (.own 3),some 4,none⟩,⟨3,0,true,some .internalNl,some 4,none⟩],[⟨3,0,true,some (.own 3),some 4,none⟩,⟨3,0,true,some .internalNl,some 4,none⟩],[⟨3,0,true,some (.own 3),some 4,none⟩,⟨3,0,true,some .internalNl,some 4,none⟩],[⟨3,0,true,some (.own 3),some 4,none⟩,⟨3,0,true,some .internalNl,some 4,none⟩],[⟨3,0,true,some (.own 3),some 4,none⟩,⟨3,0,true,some .internalNl,some 4,none⟩],[⟨3,0,true,some (.own 3),some 4,none⟩,⟨3,0,true,some .internalNl,some 4,none⟩],[⟨3,0,true,some (.own 3),some 4,none⟩,⟨3,0,true,some .internalNl,some 4,none⟩],[⟨3,0,true,some .internalNl,some 4,none⟩],[⟨3,0,true,some (.own 3),some 4,none⟩,⟨3,0,true,some .internalNl,some 4,none⟩],[⟨3,0,true,some (.own 3),some 4,none⟩,⟨3,0,true,some .internalNl,some 4,none⟩],[⟨3,0,true,some (.own 3),some 4,none⟩,⟨3,0,true,some .internalNl,some 4,none⟩]]
theorem mathematica_line_sClosed : closed mathematica_line_rows mathematica_line_sTab SA.init (SA.succ mathematica_line_M) (SA.eofOk mathematica_line_M) = true := by
  decide +kernel
def mathematica_line_S : SCert mathematica_line_M := ⟨mathematica_line_D, mathematica_line_sTab, mathematica_line_sClosed⟩

def ruby_line_sTab : List (List SA) := [[⟨0,0,false,none,none,none⟩],[⟨1,0,false,some (.own 0),some 0,none⟩,⟨2,0,false,some (.own 0),some 0,none⟩,⟨3,0,false,some (.own 0),some 0,none⟩],[⟨1,0,false,some .newline,none,none⟩],[⟨1,0,false,some .newline,some 3,none⟩],[⟨1,0,true,some (.own 3),some 4,none⟩],[⟨1,0,true,some (.own 3),some 1,none⟩],[⟨1,0,false,some (.own 3),some 4,none⟩],[⟨1,0,true,some (.own 3),some 4,none⟩],[⟨1,0,false,some (.own 3),some 4,none⟩],[⟨1,0,false,some (.own 3),some 4,none⟩],[⟨1,0,true,some (.own 3),some 4,none⟩],[⟨2,0,true,some (.own 3),some 4,none⟩,⟨3,0,true,some (.own 3),some 4,none⟩,⟨3,0,true,some .internalNl,some 4,none⟩],[⟨2,0,true,some (.own 3),some 4,none⟩,⟨3,0,true,some (.own 3),some 4,none⟩,⟨3,0,true,some .internalNl,some 4,none⟩],[⟨2,0,true,some (.own 3),some 4,none⟩,⟨3,0,true,some (.own 3),some 4,none⟩,⟨3,0,true,some .internalNl,some 4,none⟩],[⟨2,0,true,some (.own 3),some 4,none⟩,⟨3,0,true,some (.own 3),some 4,none⟩,⟨3,0,true,some .internalNl,some 4,none⟩],[⟨2,0,true,some (.own 3),some 4,none⟩,⟨3,0,true,some (.own 3),some 4,none⟩,⟨3,0,true,some .internalNl,some 4,none⟩],[⟨2,0,true,some (.own 3),some 4,none⟩,⟨3,0,true,some (.own 3),some 4,none⟩,⟨3,0,true,some .internalNl,some 4,none⟩],[⟨2,0,true,some (.own 3),some 4,none⟩,⟨3,0,true,some (.own 3),some 4,none⟩,⟨3,0,true,some .internalNl,some 4,none⟩],[⟨2,0,true,some (.own 3),some 1,none⟩,⟨3,0,true,some (.own 3),some 1,none⟩],[⟨2,0,true,some (.own 3),some 4,none⟩,⟨3,0,true,some (.own 3),some 4,none⟩],[⟨2,0,false,some (.own 3),some 4,none⟩],[⟨2,0,false,some (.own 3),some 4,none⟩],[⟨2,0,true,some (.own 3),some 4,none⟩,⟨3,0,true,some (.own 3),some 4,none⟩,⟨3,0,true,some .internalNl,some 4,none⟩],[⟨2,0,true,some (.own 3),some 4,none⟩,⟨3,0,true,some (.own 3),some 4,none⟩,⟨3,0,true,some .internalNl,some 4,none⟩],[⟨2,0,true,some (.own 3),some 4,none⟩,⟨3,0,true,some (.own 3),some 4,none⟩,⟨3,0,true,some .internalNl,some 4,none⟩],[⟨2,0,true,some (.own 3),some 4,none⟩,⟨3,0,true,some (.own 3),some 4,none⟩,⟨3,0,true,some .internalNl,some 4,none⟩],[⟨2,0,true,some (.own 3),some 4,none⟩,⟨3,0,true,some (.own 3),some 4,none⟩,⟨3,0,true,some .internalNl,some 4,none⟩],[⟨2,0,true,some (.own 3),some 4,none⟩,⟨3,0,true,some (.own 3),some 4,none⟩,⟨3,0,true,some .internalNl,some 4,none⟩],[⟨2,0,true,some (.own 3),some 4,none⟩,⟨3,0,true,some (.own 3),some 4,none⟩,⟨3,0,true,some .internalNl,some 4,none⟩],[⟨2,0,false,some (.own 3),some 4,none⟩,⟨3,0,false,some (.own 3),some 4,none⟩],[⟨2,0,false,some (.own 3),some 4,none⟩,⟨3,0,false,some (.own 3),some 4,none⟩],[⟨2,0,false,some (.own 3),some 4,none⟩],[⟨2,0,true,some (.own 3),some 4,none⟩,⟨3,0,true,some (.own 3),some 4,none⟩,⟨3,0,true,some .internalNl,some 4,none⟩],[⟨2,0,true,some (.own 3),some 4,none⟩,⟨3,0,true,some (.own 3),some 4,none⟩,⟨3,0,true,some .internalNl,some 4,none⟩],[⟨2,0,true,some (.own 3),some 4,none⟩,⟨3,0,true,some (.own 3),some 4,none⟩,⟨3,0,true,some .internalNl,some 4,none⟩],[⟨2,0,true,some (.own 3),some 4,none⟩,⟨3,0,true,some (.own 3),some 4,none⟩,⟨3,0,true,some .internalNl,some 4,none⟩],[⟨2,0,true,some (.own 3),some 4,none⟩,⟨3,0,true,some (.own 3),some 4,none⟩,⟨3,0,true,some .internalNl,some 4,none⟩],[⟨2,0,true,some (.own 3),some 4,none⟩,⟨3,0,true,some (.own 3),some 4,none⟩,⟨3,0,true,some .internalNl,some 4,none⟩],[⟨2,0,true,some (.own 3),some 4,none⟩,⟨3,0,true,some (.own 3),some 4,none⟩,⟨3,0,true,some .internalNl,some 4,none⟩],[⟨3,0,true,some (.own 3),some 4,none⟩,⟨3,0,true,some .internalNl,some 4,none⟩],[⟨3,0,true,some .internalNl,some 4,none⟩],[⟨3,0,true,some (.own 3),some 4,none⟩,⟨3,0,true,some .internalNl,some 4,none⟩],[⟨3,0,true,some (.own 3),some 4,none⟩,⟨3,0,true,some .internalNl,some 4,none⟩],[⟨3,0,true,some (.own 3),some 4,none⟩,⟨3,0,true,some .internalNl,some 4,none⟩],[⟨3,0,true,some (.own 3),some 4,none⟩,⟨3,0,true,some .internalNl,some 4,none⟩],[⟨3,0,true,some (.own 3),some 4,none⟩,⟨3,0,true,some .internalNl,some 4,none⟩],[⟨3,0,true,some (.own 3),some 4,none⟩,⟨3,0,true,some .internalNl,some 4,none⟩],[⟨3,0,true,some (.own 3),some 4,none⟩,⟨3,0,true,some .internalNl,some 4,none⟩],[⟨3,0,true,some (.own 3),some 4,none⟩,⟨3,0,true,some .internalNl,some 4,none⟩],[⟨3,0,true,some (.own 3),some 4,none⟩],[⟨3,0,true,some (.own 3),some 4,none⟩,⟨3,0,true,some .internalNl,some 4,none⟩],[⟨3,0,true,some .internalNl,some 4,none⟩],[⟨3,0,true,some (.own 3),some 4,none⟩,⟨3,0,true,some .internalNl,some 4,none⟩],[⟨3,0,false,some (.own 3),some 4,none⟩],[⟨3,0,false,some (.own 3),some 4,none⟩],[⟨3,0,true,some (.own 3),some 4,none⟩,⟨3,0,true,some .internalNl,some 4,none⟩],[⟨3,0,true,some .internalNl,some 4,none⟩],[⟨3,0,true,some (.own 3),some 4,none⟩,⟨3,0,true,some .internalNl,some 4,none⟩],[⟨3,0,true,some (.own 3),some 4,none⟩,⟨3,0,true,some .internalNl,some 4,none⟩],[⟨3,0,true,some .internalNl,some 4,none⟩],[⟨3,0,true,some (.own 3),some 4,none⟩,⟨3,0,true,some .internalNl,some 4,none⟩],[⟨3,0,true,some (.own 3),some 4,none⟩,⟨3,0,true,some .internalNl,some 4,none⟩],[⟨3,0,true,some (.own 3),some 4,none⟩,⟨3,0,true,some .internalNl,some 4,none⟩],[⟨3,0,true,some (.own 3),some 4,none⟩,⟨3,0,true,some .internalNl,some 4,none⟩],[⟨3,0,true,some (.own 3),some 4,none⟩,⟨3,0,true,some .internalNl,some 4,none⟩],[⟨3,0,true,some (.own 3),some 4,none⟩,⟨3,0,true,some .internalNl,some 4,none⟩],[⟨3,0,true,some (.own 3),some 4,none⟩,⟨3,0,true,some .internalNl,some 4,none⟩],[⟨3,0,true,some (.own 3),some 4,none⟩,⟨3,0,true,some .internalNl,some 4,none⟩],[⟨3,0,false,some (.own 3),some 4,none⟩],[⟨3,0,true,some (.own 3),some 4,none⟩,⟨3,0,true,some .internalNl,some 4,none⟩],[⟨3,0,true,some .internalNl,some 4,none⟩],[⟨3,0,true,some (.own 3),some 4,none⟩,⟨3,0,true,some .internalNl,some 4,none⟩],[⟨3,0,false,some (.own 3),some 4,none⟩],[⟨3,0,true,some (.own 3),some 4,none⟩],[⟨3,0,true,some (.own 3),some 4,none⟩,⟨3,0,true,some .internalNl,some 4,none⟩],[⟨3,0,true,some (.own 3),some 4,none⟩,⟨3,0,true,some .internalNl,some 4,none⟩],[⟨3,0,true,some (.own 3),some 4,none⟩,⟨3,0,true,some .internalNl,some 4,none⟩],[⟨3,0,true,some (.own 3),some 4,none⟩,⟨3,0,true,some .internalNl,some 4,none⟩],[⟨3,0,true,some (.own 3),some 4,none⟩,⟨3,0,true,some .internalNl,some 4,none⟩],[⟨3,0,true,some (.own 3),some 4,none⟩,⟨3,0,true,some .internalNl,some 4,none⟩],[⟨3,0,true,some (.own 3),some 4,none⟩,⟨3,0,true,some .internalNl,some 4,none⟩],[⟨3,0,true,some (.own 3),some 4,none⟩,⟨3,0,true,some .internalNl,some 4,none⟩],[⟨3,0,true,some .internalNl,some 4,none⟩],[⟨3,0,true,some (.own 3),some 4,none⟩,⟨3,0,true,some .internalNl,some 4,none⟩],[⟨3,0,true,some (.own 3),some 4,none⟩,⟨3,0,true,some .internalNl,some 4,none⟩]]
theorem ruby_line_sClosed : closed ruby_line_rows ruby_line_sTab SA.init (SA.succ ruby_line_M) (SA.eofOk ruby_line_M) = true := by
  decide +kernel
def ruby_line_S : SCert ruby_line_M := ⟨ruby_line_D, ruby_line_sTab, ruby_line_sClosed⟩

def sql_line_sTab : List (List SA) := [[⟨0,0,false,none,none,none⟩],[⟨1,0,false,some (.own 0),some 0,none⟩,⟨2,0,false,some (.own 0),some 0,none⟩,⟨3,0,false,some (.own 0),some 0,none⟩],[⟨1,0,false,some .newline,none,none⟩],[⟨1,0,false,some .newline,some 3,none⟩],[⟨1,0,true,some (.own 3),some 4,none⟩],[⟨1,0,true,some (.own 3),some 1,none⟩],[⟨1,0,true,some (.own 3),some 4,none⟩],[⟨1,0,false,some (.own 3),some 4,none⟩],[⟨1,0,false,some (.own 3),some 4,none⟩],[⟨1,0,true,some (.own 3),some 4,none⟩],[⟨2,0,true,some (.own 3),some 4,none⟩,⟨3,0,true,some (.own 3),some 4,none⟩],[⟨2,0,true,some (.own 3),some 4,none⟩,⟨3,0,true,some (.own 3),some 4,none⟩],[⟨2,0,true,some (.own 3),some 1,none⟩,⟨3,0,true,some (.own 3),some 1,none⟩],[⟨2,0,true,some (.own 3),some 4,none⟩,⟨3,0,true,some (.own 3),some 4,none⟩],[⟨2,0,true,some (.own 3),some 4,none⟩,⟨3,0,true,some (.own 3),some 4,none⟩],[⟨2,0,true,some (.own 3),some 1,none⟩],[⟨2,0,true,some (.own 3),some 4,none⟩],[⟨2,0,true,some (.own 3),some 1,none⟩],[⟨2,0,true,some (.own 3),some 4,none⟩,⟨3,0,true,some (.own 3),some 4,none⟩,⟨3,0,true,some .internalNl,some 4,none⟩],[⟨2,0,true,some (.own 3),some 4,none⟩,⟨3,0,true,some (.own 3),some 4,none⟩,⟨3,0,true,some .internalNl,some 4,none⟩],[⟨2,0,true,some (.own 3),some 4,none⟩,⟨3,0,true,some (.own 3),some 4,none⟩,⟨3,0,true,some .internalNl,some 4,none⟩],[⟨2,0,true,some (.own 3),some 4,none⟩,⟨3,0,true,some (.own 3),some 4,none⟩,⟨3,0,true,some .internalNl,some 4,none⟩],[⟨2,0,true,some (.own 3),some 4,none⟩,⟨3,0,true,some (.own 3),some 4,none⟩,⟨3,0,true,some .internalNl,some 4,none⟩],[⟨2,0,true,some (.own 3),some 4,none⟩,⟨3,0,true,some (.own 3),some 4,none⟩,⟨3,0,true,some .internalNl,some 4,none⟩],[⟨3,0,true,some (.own 3),some 4,none⟩],[⟨3,0,true,some (.own 3),some 4,none⟩],[⟨3,0,true,some (.own 3),some 4,none⟩,⟨3,0,true,some .internalNl,some 4,none⟩],[⟨3,0,true,some (.own 3),some 4,none⟩,⟨3,0,true,some .internalNl,some 4,none⟩],[⟨3,0,true,some (.own 3),some 4,none⟩,⟨3,0,true,some .internalNl,some 4,none⟩],[⟨3,0,true,some (.own 3),some 4,none⟩,⟨3,0,true,some .internalNl,some 4,none⟩],[⟨3,0,true,some (.own 3),some 4,none⟩,⟨3,0,true,some .internalNl,some 4,none⟩],[⟨3,0,true,some (.own 3),some 4,none⟩,⟨3,0,true,some .internalNl,some 4,none⟩],[⟨3,0,true,some (.own 3),some 4,none⟩,⟨3,0,true,some .internalNl,some 4,none⟩],[⟨3,0,true,some (.own 3),some 4,none⟩,⟨3,0,true,some .internalNl,some 4,none⟩],[⟨3,0,true,some .internalNl,some 4,none⟩],[⟨3,0,true,some (.own 3),some 4,none⟩,⟨3,0,true,some .internalNl,some 4,none⟩],[⟨3,0,true,some .internalNl,some 4,none⟩]]
theorem sql_line_sClosed : closed sql_line_rows sql_line_sTab SA.init (SA.succ sql_line_M) (SA.eofOk sql_line_M) = true := by
  decide +kernel
def sql_line_S : SCert sql_line_M := ⟨sql_line_D, sql_line_sTab, sql_line_sClosed⟩

end Ohcount.Cert
