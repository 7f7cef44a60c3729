import Verif.Cert.N11
import Verif.RagelSafe

/-! Generated by tools/gen_certs.py. -/

namespace Ohcount.Cert
open Ohcount.Ragel Ohcount.Gram

set_option maxRecDepth 100000

def as_line_sTab : List (List SA) := [[⟨0,0,false,none,none,none⟩],[⟨1,0,false,some (.own 0),some 0,none⟩,⟨2,0,false,some (.own 0),some 0,none⟩,⟨3,0,false,some (.own 0),some 0,none⟩],[⟨1,0,false,some .newline,none,none⟩],[⟨1,0,false,some .newline,some 3,none⟩],[⟨1,0,true,some (.own 3),some 4,none⟩],[⟨1,0,true,some (.own 3),some 4,none⟩],[⟨1,0,false,some (.own 3),some 4,none⟩],[⟨1,0,false,some (.own 3),some 4,none⟩],[⟨2,0,true,some (.own 3),some 4,none⟩,⟨3,0,true,some (.own 3),some 4,none⟩],[⟨2,0,true,some (.own 3),some 4,none⟩,⟨3,0,true,some (.own 3),some 4,none⟩],[⟨2,0,true,some (.own 3),some 4,none⟩,⟨3,0,true,some (.own 3),some 4,none⟩],[⟨2,0,true,some (.own 3),some 4,none⟩,⟨3,0,true,some (.own 3),some 4,none⟩],[⟨2,0,true,some (.own 3),some 4,none⟩],[⟨2,0,true,some (.own 3),some 1,none⟩],[⟨2,0,false,some (.own 3),some 4,none⟩],[⟨3,0,true,some (.own 3),some 4,none⟩],[⟨3,0,true,some (.own 3),some 4,none⟩],[⟨3,0,true,some (.own 3),some 4,none⟩,⟨3,0,true,some .internalNl,some 4,none⟩],[⟨3,0,true,some (.own 3),some 4,none⟩,⟨3,0,true,some .internalNl,some 4,none⟩],[⟨3,0,true,some (.own 3),some 4,none⟩,⟨3,0,true,some .internalNl,some 4,none⟩],[⟨3,0,true,some (.own 3),some 4,none⟩,⟨3,0,true,some .internalNl,some 4,none⟩],[⟨3,0,true,some (.own 3),some 4,none⟩,⟨3,0,true,some .internalNl,some 4,none⟩],[⟨3,0,true,some (.own 3),some 4,none⟩,⟨3,0,true,some .internalNl,some 4,none⟩],[⟨3,0,true,some (.own 3),some 4,none⟩,⟨3,0,true,some .internalNl,some 4,none⟩],[⟨3,0,true,some (.own 3),some 1,none⟩],[⟨3,0,false,some (.own 3),some 4,none⟩],[⟨3,0,true,some (.own 3),some 4,none⟩,⟨3,0,true,some .internalNl,some 4,none⟩],[⟨3,0,true,some .internalNl,some 4,none⟩],[⟨3,0,false,some (.own 3),some 4,none⟩],[⟨3,0,false,some (.own 3),some 4,none⟩],[⟨3,0,false,some (.own 3),some 4,none⟩],[⟨3,0,false,some (.own 3),some 4,none⟩],[⟨3,0,false,some (.own 3),some 4,none⟩],[⟨3,0,true,some (.own 3),some 4,none⟩],[⟨3,0,true,some (.own 3),some 4,none⟩,⟨3,0,true,some .internalNl,some 4,none⟩],[⟨3,0,true,some (.own 3),some 4,none⟩,⟨3,0,true,some .internalNl,some 4,none⟩],[⟨3,0,true,some (.own 3),some 4,none⟩,⟨3,0,true,some .internalNl,some 4,none⟩],[⟨3,0,true,some (.own 3),some 4,none⟩,⟨3,0,true,some .internalNl,some 4,none⟩],[⟨3,0,true,some (.own 3),some 4,none⟩,⟨3,0,true,some .internalNl,some 4,none⟩],[⟨3,0,true,some (.own 3),some 4,none⟩,⟨3,0,true,some .internalNl,some 4,none⟩],[⟨3,0,true,some (.own 3),some 4,none⟩,⟨3,0,true,some .internalNl,some 4,none⟩],[⟨3,0,true,some (.own 3),some 4,none⟩,⟨3,0,true,some .internalNl,some 4,none⟩],[⟨3,0,true,some .internalNl,some 4,none⟩],[⟨3,0,true,some (.own 3),some 4,none⟩,⟨3,0,true,some .internalNl,some 4,none⟩]]
theorem as_line_sClosed : closed as_line_rows as_line_sTab SA.init (SA.succ as_line_M) (SA.eofOk as_line_M) = true := by
  decide +kernel
def as_line_S : SCert as_line_M := ⟨as_line_D, as_line_sTab, as_line_sClosed⟩

def dcl_line_sTab : List (List SA) := [[⟨0,0,false,none,none,none⟩],[⟨1,0,false,some (.own 0),some 1,none⟩,⟨2,0,false,some (.own 0),some 1,none⟩,⟨3,0,false,some (.own 0),some 1,none⟩],[⟨1,0,false,some .newline,none,none⟩],[⟨1,0,false,some .newline,some 4,none⟩],[⟨1,0,true,some (.own 4),some 2,none⟩],[⟨1,0,true,some (.own 4),some 5,none⟩],[⟨2,0,true,some (.own 4),some 2,none⟩,⟨3,0,true,some (.own 4),some 2,none⟩],[⟨2,0,true,some (.own 4),some 5,none⟩,⟨3,0,true,some (.own 4),some 5,none⟩],[⟨2,0,true,some (.own 4),some 5,none⟩,⟨3,0,true,some (.own 4),some 5,none⟩],[⟨3,0,true,some (.own 4),some 5,none⟩]]
theorem dcl_line_sClosed : closed dcl_line_rows dcl_line_sTab SA.init (SA.succ dcl_line_M) (SA.eofOk dcl_line_M) = true := by
  decide +kernel
def dcl_line_S : SCert dcl_line_M := ⟨dcl_line_D, dcl_line_sTab, dcl_line_sClosed⟩

def fsharp_line_sTab : List (List SA) := [[⟨0,0,false,none,none,none⟩],[⟨1,0,false,some (.own 0),some 0,none⟩,⟨2,0,false,some (.own 0),some 0,none⟩,⟨3,0,false,some (.own 0),some 0,none⟩],[⟨1,0,false,some .newline,none,none⟩],[⟨1,0,false,some .newline,some 3,none⟩],[⟨1,0,true,some (.own 8),some 4,none⟩],[⟨1,0,true,some (.own 8),some 4,none⟩],[⟨1,0,false,some (.own 8),some 4,none⟩],[⟨1,0,false,some (.own 8),some 4,none⟩],[⟨2,0,true,some (.own 8),some 4,none⟩,⟨3,0,true,some (.own 8),some 4,none⟩,⟨3,0,true,some .internalNl,some 4,none⟩],[⟨2,0,true,some (.own 8),some 4,none⟩,⟨3,0,true,some (.own 8),some 4,none⟩,⟨3,0,true,some .internalNl,some 4,none⟩],[⟨2,0,true,some (.own 8),some 4,none⟩,⟨3,0,true,some (.own 8),some 4,none⟩,⟨3,0,true,some .internalNl,some 4,none⟩],[⟨2,0,true,some (.own 8),some 4,none⟩,⟨3,0,true,some (.own 8),some 4,none⟩,⟨3,0,true,some .internalNl,some 4,none⟩],[⟨2,0,true,some (.own 8),some 4,none⟩,⟨3,0,true,some (.own 8),some 4,none⟩,⟨3,0,true,some .internalNl,some 4,none⟩],[⟨2,0,true,some (.own 8),some 4,none⟩,⟨3,0,true,some (.own 8),some 4,none⟩,⟨3,0,true,some .internalNl,some 4,none⟩],[⟨2,0,true,some (.own 8),some 4,none⟩],[⟨2,0,true,some (.own 8),some 1,none⟩],[⟨3,0,true,some (.own 8),some 4,none⟩,⟨3,0,true,some .internalNl,some 4,none⟩],[⟨3,0,true,some (.own 8),some 4,none⟩,⟨3,0,true,some .internalNl,some 4,none⟩],[⟨3,0,true,some (.own 8),some 4,none⟩,⟨3,0,true,some .internalNl,some 4,none⟩],[⟨3,0,true,some (.own 8),some 4,none⟩,⟨3,0,true,some .internalNl,some 4,none⟩],[⟨3,0,true,some (.own 8),some 4,none⟩,⟨3,0,true,some .internalNl,some 4,none⟩],[⟨3,0,true,some (.own 8),some 4,none⟩,⟨3,0,true,some .internalNl,some 4,none⟩],[⟨3,0,true,some (.own 8),some 4,none⟩,⟨3,0,true,some .internalNl,some 4,none⟩],[⟨3,0,true,some (.own 8),some 4,none⟩,⟨3,0,true,some .internalNl,some 4,none⟩],[⟨3,0,true,some (.own 8),some 4,none⟩,⟨3,0,true,some .internalNl,some 4,none⟩],[⟨3,0,true,some (.own 8),some 4,none⟩,⟨3,0,true,some .internalNl,some 4,none⟩],[⟨3,0,true,some (.own 8),some 4,none⟩,⟨3,0,true,some .internalNl,some 4,none⟩],[⟨3,0,true,some (.own 8),some 4,none⟩,⟨3,0,true,some .internalNl,some 4,none⟩],[⟨3,0,true,some (.own 8),some 4,none⟩,⟨3,0,true,some .internalNl,some 4,none⟩],[⟨3,0,true,some (.own 8),some 4,none⟩,⟨3,0,true,some .internalNl,some 4,none⟩],[⟨3,0,true,some (.own 8),some 4,none⟩,⟨3,0,true,some .internalNl,some 4,none⟩],[⟨3,0,true,some (.own 8),some 4,none⟩,⟨3,0,true,some .internalNl,some 4,none⟩],[⟨3,0,true,some (.own 8),some 4,none⟩,⟨3,0,true,some .internalNl,some 4,none⟩],[⟨3,0,true,some (.own 8),some 1,none⟩,⟨3,0,true,some .internalNl,some 1,none⟩],[⟨3,0,true,some (.own 8),some 1,none⟩,⟨3,0,true,some .internalNl,some 1,none⟩],[⟨3,0,true,some (.own 8),some 1,none⟩,⟨3,0,true,some .internalNl,some 1,none⟩],[⟨3,0,true,some (.own 8),some 4,none⟩,⟨3,0,true,some .internalNl,some 4,none⟩],[⟨3,0,true,some .internalNl,some 4,none⟩],[⟨3,0,true,some (.own 8),some 4,none⟩,⟨3,0,true,some .internalNl,some 4,none⟩],[⟨3,0,true,some .internalNl,some 4,none⟩],[⟨3,0,true,some (.own 8),some 4,none⟩,⟨3,0,true,some .internalNl,some 4,none⟩],[⟨3,0,true,some .internalNl,some 4,none⟩],[⟨3,0,true,some (.own 8),some 1,none⟩,⟨3,0,true,some .internalNl,some 1,none⟩],[⟨3,0,true,some (.own 8),some 1,none⟩,⟨3,0,true,some .internalNl,some 1,none⟩],[⟨3,0,true,some (.own 8),some 1,none⟩,⟨3,0,true,some .internalNl,some 1,none⟩],[⟨3,0,true,some (.own 8),some 1,none⟩,⟨3,0,true,some .internalNl,some 1,none⟩],[⟨3,0,true,some (.own 8),some 1,none⟩,⟨3,0,true,some .internalNl,some 1,none⟩]]
theorem fsharp_line_sClosed : closed fsharp_line_rows fsharp_line_sTab SA.init (SA.succ fsharp_line_M) (SA.eofOk fsharp_line_M) = true := by
  decide +kernel
def fsharp_line_S : SCert fsharp_line_M := ⟨fsharp_line_D, fsharp_line_sTab, fsharp_line_sClosed⟩

def glsl_line_sTab : List (List SA) := [[⟨0,0,false,none,none,none⟩],[⟨1,0,false,some (.own 0),some 0,none⟩,⟨2,0,false,some (.own 0),some 0,none⟩,⟨3,0,false,some (.own 0),some 0,none⟩],[⟨1,0,false,some .newline,none,none⟩],[⟨1,0,false,some .newline,some 3,none⟩],[⟨1,0,true,some (.own 8),some 4,none⟩],[⟨1,0,true,some (.own 8),some 4,none⟩],[⟨1,0,false,some (.own 8),some 4,none⟩],[⟨2,0,true,some (.own 8),some 4,none⟩,⟨3,0,true,some (.own 8),some 4,none⟩,⟨3,0,true,some .internalNl,some 4,none⟩],[⟨2,0,true,some (.own 8),some 4,none⟩,⟨3,0,true,some (.own 8),some 4,none⟩,⟨3,0,true,some .internalNl,some 4,none⟩],[⟨2,0,true,some (.own 8),some 4,none⟩,⟨3,0,true,some (.own 8),some 4,none⟩,⟨3,0,true,some .internalNl,some 4,none⟩],[⟨2,0,true,some (.own 8),some 4,none⟩,⟨3,0,true,some (.own 8),some 4,none⟩,⟨3,0,true,some .internalNl,some 4,none⟩],[⟨2,0,true,some (.own 8),some 4,none⟩,⟨3,0,true,some (.own 8),some 4,none⟩,⟨3,0,true,some .internalNl,some 4,none⟩],[⟨2,0,true,some (.own 8),some 4,none⟩,⟨3,0,true,some (.own 8),some 4,none⟩,⟨3,0,true,some .internalNl,some 4,none⟩],[⟨2,0,true,some (.own 8),some 4,none⟩],[⟨2,0,true,some (.own 8),some 1,none⟩],[⟨3,0,true,some (.own 8),some 4,none⟩,⟨3,0,true,some .internalNl,some 4,none⟩],[⟨3,0,true,some (.own 8),some 4,none⟩,⟨3,0,true,some .internalNl,some 4,none⟩],[⟨3,0,true,some (.own 8),some 4,none⟩,⟨3,0,true,some .internalNl,some 4,none⟩],[⟨3,0,true,some (.own 8),some 4,none⟩,⟨3,0,true,some .internalNl,some 4,none⟩],[⟨3,0,true,some (.own 8),some 4,none⟩,⟨3,0,true,some .internalNl,some 4,none⟩],[⟨3,0,true,some (.own 8),some 4,none⟩,⟨3,0,true,some .internalNl,some 4,none⟩],[⟨3,0,true,some (.own 8),some 4,none⟩,⟨3,0,true,some .internalNl,some 4,none⟩],[⟨3,0,true,some (.own 8),some 4,none⟩,⟨3,0,true,some .internalNl,some 4,none⟩],[⟨3,0,true,some (.own 8),some 4,none⟩,⟨3,0,true,some .internalNl,some 4,none⟩],[⟨3,0,true,some (.own 8),some 4,none⟩,⟨3,0,true,some .internalNl,some 4,none⟩],[⟨3,0,true,some (.own 8),some 4,none⟩,⟨3,0,true,some .internalNl,some 4,none⟩],[⟨3,0,true,some (.own 8),some 4,none⟩,⟨3,0,true,some .internalNl,some 4,none⟩],[⟨3,0,true,some (.own 8),some 4,none⟩,⟨3,0,true,some .internalNl,some 4,none⟩],[⟨3,0,true,some (.own 8),some 4,none⟩,⟨3,0,true,some .internalNl,some 4,none⟩],[⟨3,0,true,some (.own 8),some 4,none⟩,⟨3,0,true,some .internalNl,some 4,none⟩],[⟨3,0,true,some (.own 8),some 4,none⟩,⟨3,0,true,some .internalNl,some 4,none⟩],[⟨3,0,true,some (.own 8),some 4,none⟩,⟨3,0,true,some .internalNl,some 4,none⟩],[⟨3,0,true,some (.own 8),some 1,none⟩,⟨3,0,true,some .internalNl,some 1,none⟩],[⟨3,0,true,some (.own 8),some 1,none⟩,⟨3,0,true,some .internalNl,some 1,none⟩],[⟨3,0,true,some (.own 8),some 1,none⟩,⟨3,0,true,some .internalNl,some 1,none⟩],[⟨3,0,true,some (.own 8),some 4,none⟩,⟨3,0,true,some .internalNl,some 4,none⟩],[⟨3,0,true,some .internalNl,some 4,none⟩],[⟨3,0,true,some (.own 8),some 4,none⟩,⟨3,0,true,some .internalNl,some 4,none⟩],[⟨3,0,true,some .internalNl,some 4,none⟩],[⟨3,0,true,some (.own 8),some 4,none⟩,⟨3,0,true,some .internalNl,some 4,none⟩],[⟨3,0,true,some .internalNl,some 4,none⟩],[⟨3,0,true,some (.own 8),some 1,none⟩,⟨3,0,true,some .internalNl,some 1,none⟩],[⟨3,0,true,some (.own 8),some 1,none⟩,⟨3,0,true,some .internalNl,some 1,none⟩],[⟨3,0,true,some (.own 8),some 1,none⟩,⟨3,0,true,some .internalNl,some 1,none⟩],[⟨3,0,true,some (.own 8),some 1,none⟩,⟨3,0,true,some .internalNl,some 1,none⟩],[⟨3,0,true,some (.own 8),some 1,none⟩,⟨3,0,true,some .internalNl,some 1,none⟩]]
theorem glsl_line_sClosed : closed glsl_line_rows glsl_line_sTab SA.init (SA.succ glsl_line_M) (SA.eofOk glsl_line_M) = true := by
  decide +kernel
def glsl_line_S : SCert glsl_line_M := ⟨glsl_line_D, glsl_line_sTab, glsl_line_sClosed⟩

def limbo_line_sTab : List (List SA) := [[⟨0,0,false,none,none,none⟩],[⟨1,0,false,some (.own 0),some 0,none⟩,⟨2,0,false,some (.own 0),some 0,none⟩,⟨3,0,false,some (.own 0),some 0,none⟩],[⟨1,0,false,some .newline,none,none⟩],[⟨1,0,false,some .newline,some 3,none⟩],[⟨1,0,true,some (.own 7),some 4,none⟩],[⟨1,0,true,some (.own 7),some 1,none⟩],[⟨1,0,true,some (.own 7),some 4,none⟩],[⟨2,0,true,some (.own 7),some 4,none⟩,⟨3,0,true,some (.own 7),some 4,none⟩],[⟨2,0,true,some (.own 7),some 4,none⟩,⟨3,0,true,some (.own 7),some 4,none⟩],[⟨2,0,true,some (.own 7),some 1,none⟩,⟨3,0,true,some (.own 7),some 1,none⟩],[⟨2,0,true,some (.own 7),some 4,none⟩,⟨3,0,true,some (.own 7),some 4,none⟩],[⟨2,0,true,some (.own 7),some 4,none⟩,⟨3,0,true,some (.own 7),some 4,none⟩],[⟨3,0,true,some (.own 7),some 4,none⟩],[⟨3,0,true,some (.own 7),some 4,none⟩]]
theorem limbo_line_sClosed : closed limbo_line_rows limbo_line_sTab SA.init (SA.succ limbo_line_M) (SA.eofOk limbo_line_M) = true := by
  decide +kernel
def limbo_line_S : SCert limbo_line_M := ⟨limbo_line_D, limbo_line_sTab, limbo_line_sClosed⟩

def objc_line_sTab : List (List SA) := [[⟨0,0,false,none,none,none⟩],[⟨1,0,false,some (.own 0),some 0,none⟩,⟨2,0,false,some (.own 0),some 0,none⟩,⟨3,0,false,some (.own 0),some 0,none⟩],[⟨1,0,false,some .newline,none,none⟩],[⟨1,0,false,some .newline,some 3,none⟩],[⟨1,0,true,some (.own 3),some 4,none⟩],[⟨1,0,true,some (.own 3),some 4,none⟩],[⟨1,0,false,some (.own 3),some 4,none⟩],[⟨2,0,true,some (.own 3),some 4,none⟩,⟨3,0,true,some (.own 3),some 4,none⟩],[⟨2,0,true,some (.own 3),some 4,none⟩,⟨3,0,true,some (.own 3),some 4,none⟩],[⟨2,0,true,some (.own 3),some 4,none⟩,⟨3,0,true,some (.own 3),some 4,none⟩],[⟨2,0,true,some (.own 3),some 4,none⟩,⟨3,0,true,some (.own 3),some 4,none⟩],[⟨2,0,true,some (.own 3),some 4,none⟩],[⟨2,0,true,some (.own 3),some 1,none⟩],[⟨3,0,true,some (.own 3),some 4,none⟩],[⟨3,0,true,some (.own 3),some 4,none⟩],[⟨3,0,true,some (.own 3),some 4,none⟩,⟨3,0,true,some .internalNl,some 4,none⟩],[⟨3,0,true,some (.own 3),some 4,none⟩,⟨3,0,true,some .internalNl,some 4,none⟩],[⟨3,0,true,some (.own 3),some 4,none⟩,⟨3,0,true,some .internalNl,some 4,none⟩],[⟨3,0,true,some (.own 3),some 4,none⟩,⟨3,0,true,some .internalNl,some 4,none⟩],[⟨3,0,true,some (.own 3),some 4,none⟩,⟨3,0,true,some .internalNl,some 4,none⟩],[⟨3,0,true,some (.own 3),some 4,none⟩,⟨3,0,true,some .internalNl,some 4,none⟩],[⟨3,0,true,some (.own 3),some 4,none⟩,⟨3,0,true,some .internalNl,some 4,none⟩],[⟨3,0,true,some (.own 3),some 1,none⟩,⟨3,0,true,some .internalNl,some 1,none⟩],[⟨3,0,true,some (.own 3),some 1,none⟩,⟨3,0,true,some .internalNl,some 1,none⟩],[⟨3,0,true,some (.own 3),some 1,none⟩,⟨3,0,true,some .internalNl,some 1,none⟩],[⟨3,0,true,some (.own 3),some 4,none⟩,⟨3,0,true,some .internalNl,some 4,none⟩],[⟨3,0,true,some .internalNl,some 4,none⟩],[⟨3,0,true,some (.own 3),some 1,none⟩,⟨3,0,true,some .internalNl,some 1,none⟩],[⟨3,0,true,some (.own 3),some 1,none⟩,⟨3,0,true,some .internalNl,some 1,none⟩],[⟨3,0,true,some (.own 3),some 1,none⟩,⟨3,0,true,some .internalNl,some 1,none⟩],[⟨3,0,true,some (.own 3),some 1,none⟩,⟨3,0,true,some .internalNl,some 1,none⟩],[⟨3,0,true,some (.own 3),some 1,none⟩,⟨3,0,true,some .internalNl,some 1,none⟩]]
theorem objc_line_sClosed : closed objc_line_rows objc_line_sTab SA.init (SA.succ objc_line_M) (SA.eofOk objc_line_M) = true := by
  decide +kernel
def objc_line_S : SCert objc_line_M := ⟨objc_line_D, objc_line_sTab, objc_line_sClosed⟩

def octave_line_sTab : List (List SA) := [[⟨0,0,false,none,none,none⟩],[⟨1,0,false,some (.own 0),some 0,none⟩,⟨2,0,false,some (.own 0),some 0,none⟩,⟨3,0,false,some (.own 0),some 0,none⟩],[⟨1,0,false,some .newline,none,none⟩],[⟨1,0,false,some .newline,some 3,none⟩],[⟨1,0,true,some (.own 3),some 4,none⟩],[⟨1,0,true,some (.own 3),some 1,none⟩],[⟨1,0,false,some (.own 3),some 4,none⟩],[⟨1,0,true,some (.own 3),some 4,none⟩],[⟨1,0,false,some (.own 3),some 4,none⟩],[⟨2,0,true,some (.own 3),some 4,none⟩,⟨3,0,true,some (.own 3),some 4,none⟩],[⟨2,0,true,some (.own 3),some 4,none⟩,⟨3,0,true,some (.own 3),some 4,none⟩],[⟨2,0,true,some (.own 3),some 1,none⟩,⟨3,0,true,some (.own 3),some 1,none⟩,⟨2,1,true,some (.own 3),some 1,none⟩,⟨3,1,true,some (.own 3),some 1,none⟩],[⟨1,1,true,some (.own 3),some 1,some 0⟩,⟨1,1,true,some (.own 3),some 1,some 9⟩,⟨1,1,true,some (.own 3),some 1,some 10⟩,⟨1,1,true,some (.own 3),some 1,some 11⟩,⟨1,1,true,some (.own 3),some 1,some 12⟩,⟨1,1,true,some (.own 3),some 1,some 13⟩,⟨1,1,true,some (.own 3),some 1,some 34⟩,⟨1,1,true,some (.own 3),some 1,some 35⟩,⟨1,1,true,some (.own 3),some 1,some 37⟩,⟨1,1,true,some (.own 3),some 1,some 39⟩,⟨1,1,true,some (.own 3),some 1,some 46⟩,⟨1,1,true,some (.own 3),some 1,some 92⟩,⟨1,1,true,some (.own 3),some 1,some 125⟩,⟨2,1,true,some (.own 3),some 1,some 0⟩,⟨2,1,true,some (.own 3),some 1,some 9⟩,⟨2,1,true,some (.own 3),some 1,some 10⟩,⟨2,1,true,some (.own 3),some 1,some 11⟩,⟨2,1,true,some (.own 3),some 1,some 12⟩,⟨2,1,true,some (.own 3),some 1,some 13⟩,⟨2,1,true,some (.own 3),some 1,some 34⟩,⟨2,1,true,some (.own 3),some 1,some 35⟩,⟨2,1,true,some (.own 3),some 1,some 37⟩,⟨2,1,true,some (.own 3),some 1,some 39⟩,⟨2,1,true,some (.own 3),some 1,some 46⟩,⟨2,1,true,some (.own 3),some 1,some 92⟩,⟨2,1,true,some (.own 3),some 1,some 125⟩],[⟨2,0,true,some (.own 3),some 4,none⟩],[⟨2,0,true,some (.own 3),some 4,none⟩,⟨3,0,true,some (.own 3),some 4,none⟩],[⟨2,0,true,some (.own 3),some 4,none⟩,⟨3,0,true,some (.own 3),some 4,none⟩],[⟨2,0,false,some (.own 3),some 4,none⟩],[⟨3,0,true,some (.own 3),some 4,none⟩],[⟨3,0,true,some (.own 3),some 4,none⟩,⟨3,0,true,some .internalNl,some 4,none⟩],[⟨3,0,true,some (.own 3),some 4,none⟩,⟨3,0,true,some .internalNl,some 4,none⟩],[⟨3,0,true,some (.own 3),some 4,none⟩,⟨3,0,true,some .internalNl,some 4,none⟩],[⟨3,0,true,some (.own 3),some 4,none⟩,⟨3,0,true,some .internalNl,some 4,none⟩],[⟨3,0,true,some (.own 3),some 4,none⟩,⟨3,0,true,some .internalNl,some 4,none⟩],[⟨3,0,true,some (.own 3),some 4,none⟩,⟨3,0,true,some .internalNl,some 4,none⟩],[⟨3,0,true,some (.own 3),some 4,none⟩,⟨3,0,true,some .internalNl,some 4,none⟩],[⟨3,0,true,some (.own 3),some 4,none⟩],[⟨3,0,false,some (.own 3),some 4,none⟩],[⟨3,0,true,some (.own 3),some 4,none⟩,⟨3,0,true,some .internalNl,some 4,none⟩],[⟨3,0,true,some .internalNl,some 4,none⟩]]
theorem octave_line_sClosed : closed octave_line_rows octave_line_sTab SA.init (SA.succ octave_line_M) (SA.eofOk octave_line_M) = true := by
  decide +kernel
def octave_line_S : SCert octave_line_M := ⟨octave_line_D, octave_line_sTab, octave_line_sClosed⟩

def postscript_line_sTab : List (List SA) := [[⟨0,0,false,none,none,none⟩],[⟨1,0,false,some (.own 0),some 0,none⟩,⟨2,0,false,some (.own 0),some 0,none⟩,⟨3,0,false,some (.own 0),some 0,none⟩],[⟨1,0,false,some .newline,none,none⟩],[⟨1,0,false,some .newline,some 3,none⟩],[⟨1,0,true,some (.own 3),some 1,none⟩],[⟨1,0,true,some (.own 3),some 4,none⟩],[⟨2,0,true,some (.own 3),some 1,none⟩,⟨3,0,true,some (.own 3),some 1,none⟩],[⟨2,0,true,some (.own 3),some 4,none⟩,⟨3,0,true,some (.own 3),some 4,none⟩,⟨3,0,true,some (.own 3),some 2,none⟩],[⟨2,0,true,some (.own 3),some 2,none⟩,⟨3,0,true,some (.own 3),some 2,none⟩]]
theorem postscript_line_sClosed : closed postscript_line_rows postscript_line_sTab SA.init (SA.succ postscript_line_M) (SA.eofOk postscript_line_M) = true := by
  decide +kernel
def postscript_line_S : SCert postscript_line_M := ⟨postscript_line_D, postscript_line_sTab, postscript_line_sClosed⟩

def umple_line_sTab : List (List SA) := [[⟨0,0,false,none,none,none⟩],[⟨1,0,false,some (.own 0),some 0,none⟩,⟨2,0,false,some (.own 0),some 0,none⟩,⟨3,0,false,some (.own 0),some 0,none⟩],[⟨1,0,false,some .newline,none,none⟩],[⟨1,0,false,some .newline,some 3,none⟩],[⟨1,0,true,some (.own 7),some 4,none⟩],[⟨1,0,true,some (.own 7),some 4,none⟩],[⟨1,0,false,some (.own 7),some 4,none⟩],[⟨2,0,true,some (.own 7),some 4,none⟩,⟨3,0,true,some (.own 7),some 4,none⟩],[⟨2,0,true,some (.own 7),some 4,none⟩,⟨3,0,true,some (.own 7),some 4,none⟩],[⟨2,0,true,some (.own 7),some 4,none⟩,⟨3,0,true,some (.own 7),some 4,none⟩],[⟨2,0,true,some (.own 7),some 4,none⟩,⟨3,0,true,some (.own 7),some 4,none⟩],[⟨2,0,true,some (.own 7),some 4,none⟩],[⟨2,0,true,some (.own 7),some 1,none⟩],[⟨3,0,true,some (.own 7),some 4,none⟩],[⟨3,0,true,some (.own 7),some 4,none⟩],[⟨3,0,true,some (.own 7),some 4,none⟩,⟨3,0,true,some .internalNl,some 4,none⟩],[⟨3,0,true,some (.own 7),some 4,none⟩,⟨3,0,true,some .internalNl,some 4,none⟩],[⟨3,0,true,some (.own 7),some 4,none⟩,⟨3,0,true,some .internalNl,some 4,none⟩],[⟨3,0,true,some (.own 7),some 4,none⟩,⟨3,0,true,some .internalNl,some 4,none⟩],[⟨3,0,true,some (.own 7),some 4,none⟩,⟨3,0,true,some .internalNl,some 4,none⟩],[⟨3,0,true,some (.own 7),some 4,none⟩,⟨3,0,true,some .internalNl,some 4,none⟩],[⟨3,0,true,some (.own 7),some 4,none⟩,⟨3,0,true,some .internalNl,some 4,none⟩],[⟨3,0,true,some (.own 7),some 1,none⟩],[⟨3,0,true,some (.own 7),some 4,none⟩,⟨3,0,true,some .internalNl,some 4,none⟩],[⟨3,0,true,some .internalNl,some 4,none⟩]]
theorem umple_line_sClosed : closed umple_line_rows umple_line_sTab SA.init (SA.succ umple_line_M) (SA.eofOk umple_line_M) = true := by
  decide +kernel
def umple_line_S : SCert umple_line_M := ⟨umple_line_D, umple_line_sTab, umple_line_sClosed⟩

end Ohcount.Cert
