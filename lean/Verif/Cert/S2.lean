import Verif.Cert.N2
import Verif.RagelSafe

/-! Generated by tools/gen_certs.py. -/

namespace Ohcount.Cert
open Ohcount.Ragel Ohcount.Gram

set_option maxRecDepth 100000

def ampl_line_sTab : List (List SA) := [[⟨0,0,false,none,none,none⟩],[⟨1,0,false,some (.own 0),some 0,none⟩,⟨2,0,false,some (.own 0),some 0,none⟩,⟨3,0,false,some (.own 0),some 0,none⟩],[⟨1,0,false,some .newline,none,none⟩],[⟨1,0,false,some .newline,some 2,none⟩],[⟨1,0,true,some (.own 2),some 1,none⟩],[⟨1,0,false,some (.own 2),some 3,none⟩],[⟨2,0,true,some (.own 2),some 1,none⟩,⟨3,0,true,some (.own 2),some 1,none⟩],[⟨2,0,true,some (.own 2),some 3,none⟩],[⟨3,0,true,some (.own 2),some 3,none⟩,⟨3,0,true,some .internalNl,some 3,none⟩],[⟨3,0,true,some (.own 2),some 3,none⟩,⟨3,0,true,some .internalNl,some 3,none⟩],[⟨3,0,true,some (.own 2),some 3,none⟩,⟨3,0,true,some .internalNl,some 3,none⟩],[⟨3,0,true,some (.own 2),some 3,none⟩,⟨3,0,true,some .internalNl,some 3,none⟩],[⟨3,0,true,some (.own 2),some 3,none⟩,⟨3,0,true,some .internalNl,some 3,none⟩],[⟨3,0,true,some (.own 2),some 3,none⟩,⟨3,0,true,some .internalNl,some 3,none⟩],[⟨3,0,true,some (.own 2),some 3,none⟩,⟨3,0,true,some .internalNl,some 3,none⟩],[⟨3,0,true,some (.own 2),some 3,none⟩,⟨3,0,true,some .internalNl,some 3,none⟩],[⟨3,0,true,some .internalNl,some 3,none⟩]]
theorem ampl_line_sClosed : closed ampl_line_rows ampl_line_sTab SA.init (SA.succ ampl_line_M) (SA.eofOk ampl_line_M) = true := by
  decide +kernel
def ampl_line_S : SCert ampl_line_M := ⟨ampl_line_D, ampl_line_sTab, ampl_line_sClosed⟩

def blitzmax_line_sTab : List (List SA) := [[⟨0,0,false,none,none,none⟩],[⟨1,0,false,some (.own 0),some 0,none⟩,⟨2,0,false,some (.own 0),some 0,none⟩,⟨3,0,false,some (.own 0),some 0,none⟩],[⟨1,0,false,some .newline,none,none⟩],[⟨1,0,false,some .newline,some 3,none⟩],[⟨1,0,true,some (.own 3),some 4,none⟩],[⟨1,0,true,some (.own 3),some 1,none⟩],[⟨1,0,false,some (.own 3),some 4,none⟩],[⟨2,0,true,some (.own 3),some 4,none⟩,⟨3,0,true,some (.own 3),some 4,none⟩],[⟨2,0,true,some (.own 3),some 4,none⟩,⟨3,0,true,some (.own 3),some 4,none⟩],[⟨2,0,true,some (.own 3),some 1,none⟩,⟨3,0,true,some (.own 3),some 1,none⟩],[⟨2,0,false,some (.own 3),some 4,none⟩],[⟨3,0,true,some (.own 3),some 4,none⟩],[⟨3,0,true,some (.own 3),some 4,none⟩],[⟨3,0,true,some (.own 3),some 4,none⟩,⟨3,0,true,some .internalNl,some 4,none⟩],[⟨3,0,true,some (.own 3),some 4,none⟩,⟨3,0,true,some .internalNl,some 4,none⟩],[⟨3,0,true,some (.own 3),some 4,none⟩,⟨3,0,true,some .internalNl,some 4,none⟩],[⟨3,0,true,some (.own 3),some 4,none⟩,⟨3,0,true,some .internalNl,some 4,none⟩],[⟨3,0,true,some (.own 3),some 4,none⟩,⟨3,0,true,some .internalNl,some 4,none⟩],[⟨3,0,true,some (.own 3),some 4,none⟩,⟨3,0,true,some .internalNl,some 4,none⟩],[⟨3,0,true,some (.own 3),some 4,none⟩,⟨3,0,true,some .internalNl,some 4,none⟩],[⟨3,0,true,some (.own 3),some 4,none⟩,⟨3,0,true,some .internalNl,some 4,none⟩],[⟨3,0,true,some .internalNl,some 4,none⟩],[⟨3,0,true,some (.own 3),some 4,none⟩,⟨3,0,true,some .internalNl,some 4,none⟩],[⟨3,0,true,some (.own 3),some 4,none⟩,⟨3,0,true,some .internalNl,some 4,none⟩],[⟨3,0,true,some (.own 3),some 4,none⟩,⟨3,0,true,some .internalNl,some 4,none⟩],[⟨3,0,true,some (.own 3),some 4,none⟩,⟨3,0,true,some .internalNl,some 4,none⟩],[⟨3,0,true,some (.own 3),some 4,none⟩,⟨3,0,true,some .internalNl,some 4,none⟩],[⟨3,0,true,some (.own 3),some 4,none⟩,⟨3,0,true,some .internalNl,some 4,none⟩],[⟨3,0,true,some (.own 3),some 4,none⟩,⟨3,0,true,some .internalNl,some 4,none⟩]]
theorem blitzmax_line_sClosed : closed blitzmax_line_rows blitzmax_line_sTab SA.init (SA.succ blitzmax_line_M) (SA.eofOk blitzmax_line_M) = true := by
  decide +kernel
def blitzmax_line_S : SCert blitzmax_line_M := ⟨blitzmax_line_D, blitzmax_line_sTab, blitzmax_line_sClosed⟩

def coq_line_sTab : List (List SA) := [[⟨0,0,false,none,none,none⟩],[⟨1,0,false,some (.own 0),some 0,none⟩,⟨2,0,false,some (.own 0),some 0,none⟩,⟨3,0,false,some (.own 0),some 0,none⟩],[⟨1,0,false,some .newline,none,none⟩],[⟨1,0,false,some .newline,some 3,none⟩],[⟨1,0,true,some (.own 3),some 4,none⟩],[⟨1,0,false,some (.own 3),some 4,none⟩],[⟨2,0,true,some (.own 3),some 4,none⟩,⟨3,0,true,some (.own 3),some 4,none⟩,⟨3,0,true,some .internalNl,some 4,none⟩],[⟨2,0,true,some (.own 3),some 4,none⟩,⟨3,0,true,some (.own 3),some 4,none⟩,⟨3,0,true,some .internalNl,some 4,none⟩],[⟨2,0,true,some (.own 3),some 4,none⟩,⟨3,0,true,some (.own 3),some 4,none⟩,⟨3,0,true,some .internalNl,some 4,none⟩],[⟨2,0,true,some (.own 3),some 4,none⟩,⟨3,0,true,some (.own 3),some 4,none⟩,⟨3,0,true,some .internalNl,some 4,none⟩],[⟨2,0,true,some (.own 3),some 4,none⟩,⟨3,0,true,some (.own 3),some 4,none⟩,⟨3,0,true,some .internalNl,some 4,none⟩],[⟨2,0,true,some (.own 3),some 4,none⟩,⟨3,0,true,some (.own 3),some 4,none⟩,⟨3,0,true,some .internalNl,some 4,none⟩],[⟨2,0,true,some (.own 3),some 4,none⟩],[⟨3,0,true,some (.own 3),some 4,none⟩,⟨3,0,true,some .internalNl,some 4,none⟩],[⟨3,0,true,some (.own 3),some 4,none⟩,⟨3,0,true,some .internalNl,some 4,none⟩],[⟨3,0,true,some (.own 3),some 4,none⟩,⟨3,0,true,some .internalNl,some 4,none⟩],[⟨3,0,true,some (.own 3),some 4,none⟩,⟨3,0,true,some .internalNl,some 4,none⟩],[⟨3,0,true,some (.own 3),some 4,none⟩,⟨3,0,true,some .internalNl,some 4,none⟩],[⟨3,0,true,some (.own 3),some 4,none⟩,⟨3,0,true,some .internalNl,some 4,none⟩],[⟨3,0,true,some (.own 3),some 4,none⟩,⟨3,0,true,some .internalNl,some 4,none⟩],[⟨3,0,true,some (.own 3),some 4,none⟩,⟨3,0,true,some .internalNl,some 4,none⟩],[⟨3,0,true,some (.own 3),some 4,none⟩,⟨3,0,true,some .internalNl,some 4,none⟩],[⟨3,0,true,some (.own 3),some 4,none⟩,⟨3,0,true,some .internalNl,some 4,none⟩],[⟨3,0,true,some (.own 3),some 4,none⟩,⟨3,0,true,some .internalNl,some 4,none⟩],[⟨3,0,true,some .internalNl,some 4,none⟩],[⟨3,0,true,some (.own 3),some 4,none⟩,⟨3,0,true,some .internalNl,some 4,none⟩],[⟨3,0,true,some (.own 3),some 4,none⟩,⟨3,0,true,some .internalNl,some 4,none⟩],[⟨3,0,true,some (.own 3),some 4,none⟩,⟨3,0,true,some .internalNl,some 4,none⟩]]
theorem coq_line_sClosed : closed coq_line_rows coq_line_sTab SA.init (SA.succ coq_line_M) (SA.eofOk coq_line_M) = true := by
  decide +kernel
def coq_line_S : SCert coq_line_M := ⟨coq_line_D, coq_line_sTab, coq_line_sClosed⟩

def crystal_line_sTab : List (List SA) := [[⟨0,0,false,none,none,none⟩],[⟨1,0,false,some (.own 0),some 0,none⟩,⟨2,0,false,some (.own 0),some 0,none⟩,⟨3,0,false,some (.own 0),some 0,none⟩],[⟨1,0,false,some .newline,none,none⟩],[⟨1,0,false,some .newline,some 3,none⟩],[⟨1,0,true,some (.own 3),some 4,none⟩],[⟨1,0,true,some (.own 3),some 1,none⟩],[⟨1,0,false,some (.own 3),some 4,none⟩],[⟨1,0,false,some (.own 3),some 4,none⟩],[⟨1,0,false,some (.own 3),some 4,none⟩],[⟨1,0,true,some (.own 3),some 4,none⟩],[⟨2,0,true,some (.own 3),some 4,none⟩,⟨3,0,true,some (.own 3),some 4,none⟩,⟨3,0,true,some .internalNl,some 4,none⟩],[⟨2,0,true,some (.own 3),some 4,none⟩,⟨3,0,true,some (.own 3),some 4,none⟩,⟨3,0,true,some .internalNl,some 4,none⟩],[⟨2,0,true,some (.own 3),some 4,none⟩,⟨3,0,true,some (.own 3),some 4,none⟩,⟨3,0,true,some .internalNl,some 4,none⟩],[⟨2,0,true,some (.own 3),some 4,none⟩,⟨3,0,true,some (.own 3),some 4,none⟩,⟨3,0,true,some .internalNl,some 4,none⟩],[⟨2,0,true,some (.own 3),some 4,none⟩,⟨3,0,true,some (.own 3),some 4,none⟩,⟨3,0,true,some .internalNl,some 4,none⟩],[⟨2,0,true,some (.own 3),some 4,none⟩,⟨3,0,true,some (.own 3),some 4,none⟩,⟨3,0,true,some .internalNl,some 4,none⟩],[⟨2,0,true,some (.own 3),some 4,none⟩,⟨3,0,true,some (.own 3),some 4,none⟩,⟨3,0,true,some .internalNl,some 4,none⟩],[⟨2,0,true,some (.own 3),some 1,none⟩,⟨3,0,true,some (.own 3),some 1,none⟩],[⟨2,0,true,some (.own 3),some 4,none⟩,⟨3,0,true,some (.own 3),some 4,none⟩],[⟨2,0,false,some (.own 3),some 4,none⟩],[⟨2,0,false,some (.own 3),some 4,none⟩],[⟨2,0,false,some (.own 3),some 4,none⟩,⟨3,0,false,some (.own 3),some 4,none⟩],[⟨2,0,false,some (.own 3),some 4,none⟩,⟨3,0,false,some (.own 3),some 4,none⟩],[⟨2,0,false,some (.own 3),some 4,none⟩],[⟨2,0,true,some (.own 3),some 4,none⟩,⟨3,0,true,some (.own 3),some 4,none⟩,⟨3,0,true,some .internalNl,some 4,none⟩],[⟨2,0,true,some (.own 3),some 4,none⟩,⟨3,0,true,some (.own 3),some 4,none⟩,⟨3,0,true,some .internalNl,some 4,none⟩],[⟨2,0,true,some (.own 3),some 4,none⟩,⟨3,0,true,some (.own 3),some 4,none⟩,⟨3,0,true,some .internalNl,some 4,none⟩],[⟨2,0,true,some (.own 3),some 4,none⟩,⟨3,0,true,some (.own 3),some 4,none⟩,⟨3,0,true,some .internalNl,some 4,none⟩],[⟨2,0,true,some (.own 3),some 4,none⟩,⟨3,0,true,some (.own 3),some 4,none⟩,⟨3,0,true,some .internalNl,some 4,none⟩],[⟨2,0,true,some (.own 3),some 4,none⟩,⟨3,0,true,some (.own 3),some 4,none⟩,⟨3,0,true,some .internalNl,some 4,none⟩],[⟨2,0,true,some (.own 3),some 4,none⟩,⟨3,0,true,some (.own 3),some 4,none⟩,⟨3,0,true,some .internalNl,some 4,none⟩],[⟨3,0,true,some (.own 3),some 4,none⟩,⟨3,0,true,some .internalNl,some 4,none⟩],[⟨3,0,true,some .internalNl,some 4,none⟩],[⟨3,0,true,some (.own 3),some 4,none⟩,⟨3,0,true,some .internalNl,some 4,none⟩],[⟨3,0,true,some (.own 3),some 4,none⟩,⟨3,0,true,some .internalNl,some 4,none⟩],[⟨3,0,true,some (.own 3),some 4,none⟩,⟨3,0,true,some .internalNl,some 4,none⟩],[⟨3,0,true,some (.own 3),some 4,none⟩,⟨3,0,true,some .internalNl,some 4,none⟩],[⟨3,0,true,some (.own 3),some 4,none⟩,⟨3,0,true,some .internalNl,some 4,none⟩],[⟨3,0,true,some (.own 3),some 4,none⟩,⟨3,0,true,some .internalNl,some 4,none⟩],[⟨3,0,true,some (.own 3),some 4,none⟩,⟨3,0,true,some .internalNl,some 4,none⟩],[⟨3,0,true,some (.own 3),some 4,none⟩,⟨3,0,true,some .internalNl,some 4,none⟩],[⟨3,0,true,some (.own 3),some 4,none⟩],[⟨3,0,false,some (.own 3),some 4,none⟩],[⟨3,0,false,some (.own 3),some 4,none⟩],[⟨3,0,true,some (.own 3),some 4,none⟩,⟨3,0,true,some .internalNl,some 4,none⟩],[⟨3,0,true,some .internalNl,some 4,none⟩],[⟨3,0,true,some (.own 3),some 4,none⟩,⟨3,0,true,some .internalNl,some 4,none⟩],[⟨3,0,true,some (.own 3),some 4,none⟩,⟨3,0,true,some .internalNl,some 4,none⟩],[⟨3,0,true,some .internalNl,some 4,none⟩],[⟨3,0,true,some (.own 3),some 4,none⟩,⟨3,0,true,some .internalNl,some 4,none⟩],[⟨3,0,true,some (.own 3),some 4,none⟩,⟨3,0,true,some .internalNl,some 4,none⟩],[⟨3,0,true,some (.own 3),some 4,none⟩,⟨3,0,true,some .internalNl,some 4,none⟩],[⟨3,0,true,some (.own 3),some 4,none⟩,⟨3,0,true,some .internalNl,some 4,none⟩],[⟨3,0,true,some (.own 3),some 4,none⟩,⟨3,0,true,some .internalNl,some 4,none⟩],[⟨3,0,true,some (.own 3),some 4,none⟩,⟨3,0,true,some .internalNl,some 4,none⟩],[⟨3,0,true,some (.own 3),some 4,none⟩,⟨3,0,true,some .internalNl,some 4,none⟩],[⟨3,0,true,some (.own 3),some 4,none⟩,⟨3,0,true,some .internalNl,some 4,none⟩],[⟨3,0,false,some (.own 3),some 4,none⟩],[⟨3,0,true,some (.own 3),some 4,none⟩,⟨3,0,true,some .internalNl,some 4,none⟩],[⟨3,0,true,some .internalNl,some 4,none⟩],[⟨3,0,true,some (.own 3),some 4,none⟩,⟨3,0,true,some .internalNl,some 4,none⟩],[⟨3,0,false,some (.own 3),some 4,none⟩],[⟨3,0,true,some (.own 3),some 4,none⟩],[⟨3,0,true,some (.own 3),some 4,none⟩,⟨3,0,true,some .internalNl,some 4,none⟩],[⟨3,0,true,some (.own 3),some 4,none⟩,⟨3,0,true,some .internalNl,some 4,none⟩],[⟨3,0,true,some (.own 3),some 4,none⟩,⟨3,0,true,some .internalNl,some 4,none⟩],[⟨3,0,true,some (.own 3),some 4,none⟩,⟨3,0,true,some .internalNl,some 4,none⟩],[⟨3,0,true,some (.own 3),some 4,none⟩,⟨3,0,true,some .internalNl,some 4,none⟩],[⟨3,0,true,some (.own 3),some 4,none⟩,⟨3,0,true,some .internalNl,some 4,none⟩],[⟨3,0,true,some (.own 3),some 4,none⟩,⟨3,0,true,some .internalNl,some 4,none⟩],[⟨3,0,true,some (.own 3),some 4,none⟩,⟨3,0,true,some .internalNl,some 4,none⟩],[⟨3,0,true,some .internalNl,some 4,none⟩],[⟨3,0,true,some (.own 3),some 4,none⟩,⟨3,0,true,some .internalNl,some 4,none⟩],[⟨3,0,true,some (.own 3),some 4,none⟩,⟨3,0,true,some .internalNl,some 4,none⟩]]
theorem crystal_line_sClosed : closed crystal_line_rows crystal_line_sTab SA.init (SA.succ crystal_line_M) (SA.eofOk crystal_line_M) = true := by
  decide +kernel
def crystal_line_S : SCert crystal_line_M := ⟨crystal_line_D, crystal_line_sTab, crystal_line_sClosed⟩

def ffixed_line_sTab : List (List SA) := [[⟨0,0,false,none,none,none⟩],[⟨1,0,false,some (.own 0),some 0,none⟩,⟨2,0,false,some (.own 0),some 0,none⟩,⟨3,0,false,some (.own 0),some 0,none⟩],[⟨1,0,false,some .newline,none,none⟩],[⟨1,0,false,some .newline,some 3,none⟩],[⟨1,0,true,some (.own 3),some 4,none⟩],[⟨1,0,true,some (.own 3),some 4,none⟩],[⟨1,0,true,some (.own 3),some 1,none⟩],[⟨2,0,true,some (.own 3),some 4,none⟩,⟨3,0,true,some (.own 3),some 4,none⟩,⟨3,0,true,some (.own 3),some 2,none⟩],[⟨2,0,true,some (.own 3),some 2,none⟩,⟨3,0,true,some (.own 3),some 2,none⟩],[⟨2,0,true,some (.own 3),some 4,none⟩,⟨3,0,true,some (.own 3),some 4,none⟩,⟨3,0,true,some (.own 3),some 2,none⟩],[⟨2,0,true,some (.own 3),some 2,none⟩,⟨3,0,true,some (.own 3),some 2,none⟩],[⟨2,0,true,some (.own 3),some 1,none⟩,⟨3,0,true,some (.own 3),some 1,none⟩]]
theorem ffixed_line_sClosed : closed ffixed_line_rows ffixed_line_sTab SA.init (SA.succ ffixed_line_M) (SA.eofOk ffixed_line_M) = true := by
  decide +kernel
def ffixed_line_S : SCert ffixed_line_M := ⟨ffixed_line_D, ffixed_line_sTab, ffixed_line_sClosed⟩

def modelica_line_sTab : List (List SA) := [[⟨0,0,false,none,none,none⟩],[⟨1,0,false,some (.own 0),some 0,none⟩,⟨2,0,false,some (.own 0),some 0,none⟩,⟨3,0,false,some (.own 0),some 0,none⟩],[⟨1,0,false,some .newline,none,none⟩],[⟨1,0,false,some .newline,some 2,none⟩],[⟨1,0,true,some (.own 3),some 5,none⟩],[⟨1,0,false,some (.own 3),some 5,none⟩],[⟨1,0,false,some (.own 3),some 3,none⟩],[⟨2,0,true,some (.own 3),some 5,none⟩,⟨3,0,true,some (.own 3),some 5,none⟩],[⟨2,0,true,some (.own 3),some 5,none⟩,⟨3,0,true,some (.own 3),some 5,none⟩],[⟨2,0,true,some (.own 3),some 5,none⟩,⟨3,0,true,some (.own 3),some 5,none⟩],[⟨2,0,true,some (.own 3),some 5,none⟩,⟨3,0,true,some (.own 3),some 5,none⟩],[⟨2,0,true,some (.own 3),some 5,none⟩,⟨3,0,true,some (.own 3),some 5,none⟩],[⟨2,0,true,some (.own 3),some 5,none⟩,⟨3,0,true,some (.own 3),some 5,none⟩],[⟨2,0,true,some (.own 3),some 5,none⟩,⟨3,0,true,some (.own 3),some 5,none⟩],[⟨2,0,true,some (.own 3),some 5,none⟩],[⟨2,0,true,some (.own 3),some 1,none⟩],[⟨2,0,false,some (.own 3),some 3,none⟩,⟨3,0,false,some (.own 3),some 3,none⟩],[⟨3,0,true,some (.own 3),some 5,none⟩],[⟨3,0,true,some (.own 3),some 5,none⟩],[⟨3,0,true,some (.own 3),some 5,none⟩,⟨3,0,true,some .internalNl,some 5,none⟩],[⟨3,0,true,some (.own 3),some 5,none⟩,⟨3,0,true,some .internalNl,some 5,none⟩],[⟨3,0,true,some (.own 3),some 5,none⟩,⟨3,0,true,some .internalNl,some 5,none⟩],[⟨3,0,true,some (.own 3),some 5,none⟩,⟨3,0,true,some .internalNl,some 5,none⟩],[⟨3,0,true,some (.own 3),some 5,none⟩,⟨3,0,true,some .internalNl,some 5,none⟩],[⟨3,0,true,some (.own 3),some 5,none⟩,⟨3,0,true,some .internalNl,some 5,none⟩],[⟨3,0,true,some (.own 3),some 5,none⟩,⟨3,0,true,some .internalNl,some 5,none⟩],[⟨3,0,true,some (.own 3),some 1,none⟩],[⟨3,0,true,some (.own 3),some 5,none⟩,⟨3,0,true,some .internalNl,some 5,none⟩],[⟨3,0,true,some .internalNl,some 5,none⟩]]
theorem modelica_line_sClosed : closed modelica_line_rows modelica_line_sTab SA.init (SA.succ modelica_line_M) (SA.eofOk modelica_line_M) = true := by
  decide +kernel
def modelica_line_S : SCert modelica_line_M := ⟨modelica_line_D, modelica_line_sTab, modelica_line_sClosed⟩

def scala_line_sTab : List (List SA) := [[⟨0,0,false,none,none,none⟩],[⟨1,0,false,some (.own 0),some 0,none⟩,⟨2,0,false,some (.own 0),some 0,none⟩,⟨3,0,false,some (.own 0),some 0,none⟩],[⟨1,0,false,some .newline,none,none⟩],[⟨1,0,false,some .newline,some 3,none⟩],[⟨1,0,true,some (.own 3),some 4,none⟩],[⟨1,0,true,some (.own 3),some 4,none⟩],[⟨1,0,false,some (.own 3),some 4,none⟩],[⟨2,0,true,some (.own 3),some 4,none⟩,⟨3,0,true,some (.own 3),some 4,none⟩],[⟨2,0,true,some (.own 3),some 4,none⟩,⟨3,0,true,some (.own 3),some 4,none⟩],[⟨2,0,true,some (.own 3),some 4,none⟩,⟨3,0,true,some (.own 3),some 4,none⟩],[⟨2,0,true,some (.own 3),some 4,none⟩,⟨3,0,true,some (.own 3),some 4,none⟩],[⟨2,0,true,some (.own 3),some 4,none⟩],[⟨2,0,true,some (.own 3),some 1,none⟩],[⟨3,0,true,some (.own 3),some 4,none⟩],[⟨3,0,true,some (.own 3),some 4,none⟩],[⟨3,0,true,some (.own 3),some 4,none⟩,⟨3,0,true,some .internalNl,some 4,none⟩],[⟨3,0,true,some (.own 3),some 4,none⟩,⟨3,0,true,some .internalNl,some 4,none⟩],[⟨3,0,true,some (.own 3),some 4,none⟩,⟨3,0,true,some .internalNl,some 4,none⟩],[⟨3,0,true,some (.own 3),some 4,none⟩,⟨3,0,true,some .internalNl,some 4,none⟩],[⟨3,0,true,some (.own 3),some 4,none⟩,⟨3,0,true,some .internalNl,some 4,none⟩],[⟨3,0,true,some (.own 3),some 4,none⟩,⟨3,0,true,some .internalNl,some 4,none⟩],[⟨3,0,true,some (.own 3),some 4,none⟩,⟨3,0,true,some .internalNl,some 4,none⟩],[⟨3,0,true,some (.own 3),some 1,none⟩],[⟨3,0,true,some (.own 3),some 4,none⟩,⟨3,0,true,some .internalNl,some 4,none⟩],[⟨3,0,true,some .internalNl,some 4,none⟩]]
theorem scala_line_sClosed : closed scala_line_rows scala_line_sTab SA.init (SA.succ scala_line_M) (SA.eofOk scala_line_M) = true := by
  decide +kernel
def scala_line_S : SCert scala_line_M := ⟨scala_line_D, scala_line_sTab, scala_line_sClosed⟩

end Ohcount.Cert
