import Verif.Cert.N1
import Verif.Cert.N2
import Verif.Cert.N3
import Verif.Cert.N4
import Verif.Cert.N5
import Verif.Cert.N6
import Verif.Cert.N7
import Verif.Cert.N8
import Verif.Cert.N9
import Verif.Cert.N10
import Verif.Cert.N11
import Verif.Cert.N12
import Verif.RagelQueue

/-! Generated by tools/gen_certs.py. -/

namespace Ohcount.Cert
open Ohcount.Ragel Ohcount.Gram

set_option maxRecDepth 100000

def cmake_line_qTab : List (List QA) := [[⟨false,false,false,false,0,none,none,false,0,0⟩],[⟨false,false,false,false,0,some (.own 0),some 0,false,1,0⟩],[⟨false,false,false,false,0,some .newline,none,false,2,2⟩],[⟨true,false,false,false,0,some .newline,some 3,true,1,1⟩],[⟨false,true,false,false,1,some (.own 3),some 4,false,1,0⟩],[⟨false,true,false,false,0,some (.own 3),some 1,false,1,0⟩],[⟨false,true,false,false,1,some (.own 3),some 4,false,2,0⟩,⟨false,true,true,true,1,some .internalNl,some 4,false,2,0⟩],[⟨false,true,false,false,1,some (.own 3),some 4,false,2,0⟩,⟨false,true,true,true,1,some .internalNl,some 4,false,2,0⟩],[⟨true,true,false,false,1,some (.own 3),some 4,false,2,0⟩,⟨true,true,true,true,1,some .internalNl,some 4,false,2,0⟩],[⟨true,true,false,false,1,some (.own 3),some 4,false,2,0⟩,⟨true,true,true,true,1,some .internalNl,some 4,false,2,0⟩],[⟨false,true,false,false,1,some (.own 3),some 4,false,2,2⟩,⟨false,true,true,true,1,some .internalNl,some 4,false,2,2⟩],[⟨true,true,false,false,1,some (.own 3),some 4,false,2,1⟩,⟨true,true,true,true,1,some .internalNl,some 4,false,2,1⟩],[⟨false,true,false,false,1,some (.own 3),some 4,false,2,0⟩,⟨false,true,true,true,1,some .internalNl,some 4,false,2,0⟩],[⟨false,true,false,false,0,some (.own 3),some 1,false,1,0⟩],[⟨true,true,false,false,1,some (.own 3),some 4,false,2,0⟩,⟨true,true,true,true,1,some .internalNl,some 4,false,2,0⟩],[],[⟨false,true,false,false,1,some (.own 3),some 4,false,2,0⟩,⟨false,true,true,true,1,some .internalNl,some 4,false,2,0⟩]]
theorem cmake_line_qClosed : closed cmake_line_rows cmake_line_qTab QA.init (QA.succ true cmake_line_M) (QA.eofOk true cmake_line_M) = true := by
  decide +kernel
def cmake_line_Q : QCert true cmake_line_M := ⟨cmake_line_D, cmake_line_qTab, cmake_line_qClosed⟩

def crystal_line_qTab : List (List QA) := [[⟨false,false,false,false,0,none,none,false,0,0⟩],[⟨false,false,false,false,0,some (.own 0),some 0,false,1,0⟩],[⟨false,false,false,false,0,some .newline,none,false,2,2⟩],[⟨true,false,false,false,0,some .newline,some 3,true,1,1⟩],[⟨false,true,false,false,1,some (.own 3),some 4,false,1,0⟩],[⟨false,true,false,false,0,some (.own 3),some 1,false,1,0⟩],[⟨false,false,false,false,0,some (.own 3),some 4,false,1,0⟩],[⟨false,false,false,false,0,some (.own 3),some 4,false,1,0⟩],[⟨false,false,false,false,0,some (.own 3),some 4,false,1,0⟩],[⟨false,true,false,false,1,some (.own 3),some 4,false,1,0⟩],[⟨false,true,false,false,1,some (.own 3),some 4,false,2,0⟩,⟨false,true,true,true,1,some .internalNl,some 4,false,2,0⟩],[⟨false,true,false,false,1,some (.own 3),some 4,false,2,0⟩,⟨false,true,true,true,1,some .internalNl,some 4,false,2,0⟩],[⟨true,true,false,false,1,some (.own 3),some 4,false,2,0⟩,⟨true,true,true,true,1,some .internalNl,some 4,false,2,0⟩],[⟨true,true,false,false,1,some (.own 3),some 4,false,2,0⟩,⟨true,true,true,true,1,some .internalNl,some 4,false,2,0⟩],[⟨false,true,false,false,1,some (.own 3),some 4,false,2,2⟩,⟨false,true,true,true,1,some .internalNl,some 4,false,2,2⟩],[⟨true,true,false,false,1,some (.own 3),some 4,false,2,1⟩,⟨true,true,true,true,1,some .internalNl,some 4,false,2,1⟩],[⟨false,true,false,false,1,some (.own 3),some 4,false,2,0⟩,⟨false,true,true,true,1,some .internalNl,some 4,false,2,0⟩],[⟨false,true,false,false,0,some (.own 3),some 1,false,1,0⟩],[⟨false,true,false,false,1,some (.own 3),some 4,false,2,0⟩],[⟨false,false,false,false,0,some (.own 3),some 4,false,2,0⟩],[⟨false,false,false,false,0,some (.own 3),some 4,false,2,0⟩],[⟨false,false,false,false,0,some (.own 3),some 4,false,2,0⟩],[⟨false,false,false,false,0,some (.own 3),some 4,false,2,0⟩],[⟨false,false,false,false,0,some (.own 3),some 4,false,2,0⟩],[⟨false,true,false,false,1,some (.own 3),some 4,false,2,0⟩,⟨false,true,true,true,1,some .internalNl,some 4,false,2,0⟩],[⟨false,true,false,false,1,some (.own 3),some 4,false,2,0⟩,⟨false,true,true,true,1,some .internalNl,some 4,false,2,0⟩],[⟨true,true,false,false,1,some (.own 3),some 4,false,2,0⟩,⟨true,true,true,true,1,some .internalNl,some 4,false,2,0⟩],[⟨true,true,false,false,1,some (.own 3),some 4,false,2,0⟩,⟨true,true,true,true,1,some .internalNl,some 4,false,2,0⟩],[⟨false,true,false,false,1,some (.own 3),some 4,false,2,2⟩,⟨false,true,true,true,1,some .internalNl,some 4,false,2,2⟩],[⟨true,true,false,false,1,some (.own 3),some 4,false,2,1⟩,⟨true,true,true,true,1,some .internalNl,some 4,false,2,1⟩],[⟨false,true,false,false,1,some (.own 3),some 4,false,2,0⟩,⟨false,true,true,true,1,some .internalNl,some 4,false,2,0⟩],[⟨true,true,false,false,1,some (.own 3),some 4,false,2,0⟩,⟨true,true,true,true,1,some .internalNl,some 4,false,2,0⟩],[],[⟨false,true,false,false,1,some (.own 3),some 4,false,2,0⟩,⟨false,true,true,true,1,some .internalNl,some 4,false,2,0⟩],[⟨false,true,false,false,1,some (.own 3),some 4,false,2,0⟩,⟨false,true,true,true,1,some .internalNl,some 4,false,2,0⟩],[⟨false,true,false,false,1,some (.own 3),some 4,false,2,0⟩,⟨false,true,true,true,1,some .internalNl,some 4,false,2,0⟩],[⟨true,true,false,false,1,some (.own 3),some 4,false,2,0⟩,⟨true,true,true,true,1,some .internalNl,some 4,false,2,0⟩],[⟨true,true,false,false,1,some (.own 3),some 4,false,2,0⟩,⟨true,true,true,true,1,some .internalNl,some 4,false,2,0⟩],[⟨false,true,false,false,1,some (.own 3),some 4,false,2,2⟩,⟨false,true,true,true,1,some .internalNl,some 4,false,2,2⟩],[⟨true,true,false,false,1,some (.own 3),some 4,false,2,1⟩,⟨true,true,true,true,1,some .internalNl,some 4,false,2,1⟩],[⟨false,true,false,false,1,some (.own 3),some 4,false,2,0⟩,⟨false,true,true,true,1,some .internalNl,some 4,false,2,0⟩],[⟨false,true,false,false,1,some (.own 3),some 4,false,2,0⟩],[⟨false,false,false,false,0,some (.own 3),some 4,false,2,0⟩],[⟨false,false,false,false,0,some (.own 3),some 4,false,2,0⟩],[⟨true,true,false,false,1,some (.own 3),some 4,false,2,0⟩,⟨true,true,true,true,1,some .internalNl,some 4,false,2,0⟩],[],[⟨false,true,false,false,1,some (.own 3),some 4,false,2,0⟩,⟨false,true,true,true,1,some .internalNl,some 4,false,2,0⟩],[⟨true,true,false,false,1,some (.own 3),some 4,false,2,0⟩,⟨true,true,true,true,1,some .internalNl,some 4,false,2,0⟩],[],[⟨false,true,false,false,1,some (.own 3),some 4,false,2,0⟩,⟨false,true,true,true,1,some .internalNl,some 4,false,2,0⟩],[⟨false,true,false,false,1,some (.own 3),some 4,false,2,0⟩,⟨false,true,true,true,1,some .internalNl,some 4,false,2,0⟩],[⟨false,true,false,false,1,some (.own 3),some 4,false,2,0⟩,⟨false,true,true,true,1,some .internalNl,some 4,false,2,0⟩],[⟨true,true,false,false,1,some (.own 3),some 4,false,2,0⟩,⟨true,true,true,true,1,some .internalNl,some 4,false,2,0⟩],[⟨true,true,false,false,1,some (.own 3),some 4,false,2,0⟩,⟨true,true,true,true,1,some .internalNl,some 4,false,2,0⟩],[⟨false,true,false,false,1,some (.own 3),some 4,false,2,2⟩,⟨false,true,true,true,1,some .internalNl,some 4,false,2,2⟩],[⟨true,true,false,false,1,some (.own 3),some 4,false,2,1⟩,⟨true,true,true,true,1,some .internalNl,some 4,false,2,1⟩],[⟨false,true,false,false,1,some (.own 3),some 4,false,2,0⟩,⟨false,true,true,true,1,some .internalNl,some 4,false,2,0⟩],[⟨false,false,false,false,0,some (.own 3),some 4,false,2,0⟩],[⟨true,true,false,false,1,some (.own 3),some 4,false,2,0⟩,⟨true,true,true,true,1,some .internalNl,some 4,false,2,0⟩],[],[⟨false,true,false,false,1,some (.own 3),some 4,false,2,0⟩,⟨false,true,true,true,1,some .internalNl,some 4,false,2,0⟩],[⟨false,false,false,false,0,some (.own 3),some 4,false,2,0⟩],[⟨false,true,false,false,1,some (.own 3),some 4,false,2,0⟩],[⟨false,true,false,false,1,some (.own 3),some 4,false,2,0⟩,⟨false,true,true,true,1,some .internalNl,some 4,false,2,0⟩],[⟨false,true,false,false,1,some (.own 3),some 4,false,2,0⟩,⟨false,true,true,true,1,some .internalNl,some 4,false,2,0⟩],[⟨true,true,false,false,1,some (.own 3),some 4,false,2,0⟩,⟨true,true,true,true,1,some .internalNl,some 4,false,2,0⟩],[⟨true,true,false,false,1,some (.own 3),some 4,false,2,0⟩,⟨true,true,true,true,1,some .internalNl,some 4,false,2,0⟩],[⟨false,true,false,false,1,some (.own 3),some 4,false,2,2⟩,⟨false,true,true,true,1,some .internalNl,some 4,false,2,2⟩],[⟨true,true,false,false,1,some (.own 3),some 4,false,2,1⟩,⟨true,true,true,true,1,some .internalNl,some 4,false,2,1⟩],[⟨false,true,false,false,1,some (.own 3),some 4,false,2,0⟩,⟨false,true,true,true,1,some .internalNl,some 4,false,2,0⟩],[⟨true,true,false,false,1,some (.own 3),some 4,false,2,0⟩,⟨true,true,true,true,1,some .internalNl,some 4,false,2,0⟩],[],[⟨false,true,false,false,1,some (.own 3),some 4,false,2,0⟩,⟨false,true,true,true,1,some .internalNl,some 4,false,2,0⟩],[⟨false,true,false,false,1,some (.own 3),some 4,false,2,0⟩,⟨false,true,true,true,1,some .internalNl,some 4,false,2,0⟩]]
theorem crystal_line_qClosed : closed crystal_line_rows crystal_line_qTab QA.init (QA.succ true crystal_line_M) (QA.eofOk true crystal_line_M) = true := by
  decide +kernel
def crystal_line_Q : QCert true crystal_line_M := ⟨crystal_line_D, crystal_line_qTab, crystal_line_qClosed⟩

def grace_line_qTab : List (List QA) := [[⟨false,false,false,false,0,none,none,false,0,0⟩],[⟨false,false,false,false,0,some (.own 0),some 0,false,1,0⟩],[⟨false,false,false,false,0,some .newline,none,false,2,2⟩],[⟨true,false,false,false,0,some .newline,some 3,true,1,1⟩],[⟨false,true,false,false,1,some (.own 3),some 4,false,1,0⟩],[⟨false,false,false,false,0,some (.own 3),some 4,false,1,0⟩],[⟨false,true,false,false,1,some (.own 3),some 4,false,2,0⟩,⟨false,true,true,true,1,some .internalNl,some 4,false,2,0⟩],[⟨false,true,false,false,1,some (.own 3),some 4,false,2,0⟩,⟨false,true,true,true,1,some .internalNl,some 4,false,2,0⟩],[⟨true,true,false,false,1,some (.own 3),some 4,false,2,0⟩,⟨true,true,true,true,1,some .internalNl,some 4,false,2,0⟩],[⟨true,true,false,false,1,some (.own 3),some 4,false,2,0⟩,⟨true,true,true,true,1,some .internalNl,some 4,false,2,0⟩],[⟨false,true,false,false,1,some (.own 3),some 4,false,2,2⟩,⟨false,true,true,true,1,some .internalNl,some 4,false,2,2⟩],[⟨true,true,false,false,1,some (.own 3),some 4,false,2,1⟩,⟨true,true,true,true,1,some .internalNl,some 4,false,2,1⟩],[⟨false,true,false,false,0,some (.own 3),some 1,false,1,0⟩],[⟨true,true,false,false,1,some (.own 3),some 4,false,2,0⟩,⟨true,true,true,true,1,some .internalNl,some 4,false,2,0⟩],[],[⟨false,true,false,false,0,some (.own 3),some 1,false,1,0⟩]]
theorem grace_line_qClosed : closed grace_line_rows grace_line_qTab QA.init (QA.succ true grace_line_M) (QA.eofOk true grace_line_M) = true := by
  decide +kernel
def grace_line_Q : QCert true grace_line_M := ⟨grace_line_D, grace_line_qTab, grace_line_qClosed⟩

def jam_line_qTab : List (List QA) := [[⟨false,false,false,false,0,none,none,false,0,0⟩],[⟨false,false,false,false,0,some (.own 0),some 0,false,1,0⟩],[⟨false,false,false,false,0,some .newline,none,false,2,2⟩],[⟨true,false,false,false,0,some .newline,some 3,true,1,1⟩],[⟨false,true,false,false,1,some (.own 3),some 4,false,1,0⟩],[⟨false,true,false,false,0,some (.own 3),some 1,false,1,0⟩],[⟨false,true,false,false,1,some (.own 3),some 4,false,1,0⟩],[⟨false,true,false,false,1,some (.own 3),some 4,false,2,0⟩,⟨false,true,true,true,1,some .internalNl,some 4,false,2,0⟩],[⟨false,true,false,false,1,some (.own 3),some 4,false,2,0⟩,⟨false,true,true,true,1,some .internalNl,some 4,false,2,0⟩],[⟨true,true,false,false,1,some (.own 3),some 4,false,2,0⟩,⟨true,true,true,true,1,some .internalNl,some 4,false,2,0⟩],[⟨true,true,false,false,1,some (.own 3),some 4,false,2,0⟩,⟨true,true,true,true,1,some .internalNl,some 4,false,2,0⟩],[⟨false,true,false,false,1,some (.own 3),some 4,false,2,2⟩,⟨false,true,true,true,1,some .internalNl,some 4,false,2,2⟩],[⟨true,true,false,false,1,some (.own 3),some 4,false,2,1⟩,⟨true,true,true,true,1,some .internalNl,some 4,false,2,1⟩],[⟨false,true,false,false,1,some (.own 3),some 4,false,2,0⟩,⟨false,true,true,true,1,some .internalNl,some 4,false,2,0⟩],[⟨false,true,false,false,0,some (.own 3),some 1,false,1,0⟩],[⟨false,true,false,false,1,some (.own 3),some 4,false,2,0⟩,⟨false,true,true,true,1,some .internalNl,some 4,false,2,0⟩],[⟨false,true,false,false,1,some (.own 3),some 4,false,2,0⟩,⟨false,true,true,true,1,some .internalNl,some 4,false,2,0⟩],[⟨true,true,false,false,1,some (.own 3),some 4,false,2,0⟩,⟨true,true,true,true,1,some .internalNl,some 4,false,2,0⟩],[⟨true,true,false,false,1,some (.own 3),some 4,false,2,0⟩,⟨true,true,true,true,1,some .internalNl,some 4,false,2,0⟩],[⟨false,true,false,false,1,some (.own 3),some 4,false,2,2⟩,⟨false,true,true,true,1,some .internalNl,some 4,false,2,2⟩],[⟨true,true,false,false,1,some (.own 3),some 4,false,2,1⟩,⟨true,true,true,true,1,some .internalNl,some 4,false,2,1⟩],[⟨false,true,false,false,1,some (.own 3),some 4,false,2,0⟩,⟨false,true,true,true,1,some .internalNl,some 4,false,2,0⟩],[⟨true,true,false,false,1,some (.own 3),some 4,false,2,0⟩,⟨true,true,true,true,1,some .internalNl,some 4,false,2,0⟩],[],[⟨false,true,false,false,1,some (.own 3),some 4,false,2,0⟩,⟨false,true,true,true,1,some .internalNl,some 4,false,2,0⟩],[⟨true,true,false,false,1,some (.own 3),some 4,false,2,0⟩,⟨true,true,true,true,1,some .internalNl,some 4,false,2,0⟩],[],[⟨false,true,false,false,1,some (.own 3),some 4,false,2,0⟩,⟨false,true,true,true,1,some .internalNl,some 4,false,2,0⟩]]
theorem jam_line_qClosed : closed jam_line_rows jam_line_qTab QA.init (QA.succ true jam_line_M) (QA.eofOk true jam_line_M) = true := by
  decide +kernel
def jam_line_Q : QCert true jam_line_M := ⟨jam_line_D, jam_line_qTab, jam_line_qClosed⟩

def limbo_line_qTab : List (List QA) := [[⟨false,false,false,false,0,none,none,false,0,0⟩],[⟨false,false,false,false,0,some (.own 0),some 0,false,1,0⟩],[⟨false,false,false,false,0,some .newline,none,false,2,2⟩],[⟨true,false,false,false,0,some .newline,some 3,true,1,1⟩],[⟨false,true,false,false,1,some (.own 7),some 4,false,1,0⟩],[⟨false,true,false,false,0,some (.own 7),some 1,false,1,0⟩],[⟨false,true,false,false,0,some (.own 7),some 4,false,1,0⟩],[⟨false,true,false,false,1,some (.own 7),some 4,false,2,0⟩],[⟨false,true,false,false,1,some (.own 7),some 4,false,2,0⟩],[⟨false,true,false,false,0,some (.own 7),some 1,false,1,0⟩],[⟨false,true,false,false,0,some (.own 7),some 4,false,2,0⟩],[⟨false,true,false,false,0,some (.own 7),some 4,false,2,0⟩],[⟨false,true,false,false,1,some (.own 7),some 4,false,2,0⟩],[⟨false,true,false,false,0,some (.own 7),some 4,false,2,0⟩]]
theorem limbo_line_qClosed : closed limbo_line_rows limbo_line_qTab QA.init (QA.succ false limbo_line_M) (QA.eofOk false limbo_line_M) = true := by
  decide +kernel
def limbo_line_Q : QCert false limbo_line_M := ⟨limbo_line_D, limbo_line_qTab, limbo_line_qClosed⟩

def ruby_line_qTab : List (List QA) := [[⟨false,false,false,false,0,none,none,false,0,0⟩],[⟨false,false,false,false,0,some (.own 0),some 0,false,1,0⟩],[⟨false,false,false,false,0,some .newline,none,false,2,2⟩],[⟨true,false,false,false,0,some .newline,some 3,true,1,1⟩],[⟨false,true,false,false,1,some (.own 3),some 4,false,1,0⟩],[⟨false,true,false,false,0,some (.own 3),some 1,false,1,0⟩],[⟨false,false,false,false,0,some (.own 3),some 4,false,1,0⟩],[⟨false,true,false,false,1,some (.own 3),some 4,false,1,0⟩],[⟨false,false,false,false,0,some (.own 3),some 4,false,1,0⟩],[⟨false,false,false,false,0,some (.own 3),some 4,false,1,0⟩],[⟨false,true,false,false,1,some (.own 3),some 4,false,1,0⟩],[⟨false,true,false,false,1,some (.own 3),some 4,false,2,0⟩,⟨false,true,true,true,1,some .internalNl,some 4,false,2,0⟩],[⟨false,true,false,false,1,some (.own 3),some 4,false,2,0⟩,⟨false,true,true,true,1,some .internalNl,some 4,false,2,0⟩],[⟨true,true,false,false,1,some (.own 3),some 4,false,2,0⟩,⟨true,true,true,true,1,some .internalNl,some 4,false,2,0⟩],[⟨true,true,false,false,1,some (.own 3),some 4,false,2,0⟩,⟨true,true,true,true,1,some .internalNl,some 4,false,2,0⟩],[⟨false,true,false,false,1,some (.own 3),some 4,false,2,2⟩,⟨false,true,true,true,1,some .internalNl,some 4,false,2,2⟩],[⟨true,true,false,false,1,some (.own 3),some 4,false,2,1⟩,⟨true,true,true,true,1,some .internalNl,some 4,false,2,1⟩],[⟨false,true,false,false,1,some (.own 3),some 4,false,2,0⟩,⟨false,true,true,true,1,some .internalNl,some 4,false,2,0⟩],[⟨false,true,false,false,0,some (.own 3),some 1,false,1,0⟩],[⟨false,true,false,false,1,some (.own 3),some 4,false,2,0⟩],[⟨false,false,false,false,0,some (.own 3),some 4,false,2,0⟩],[⟨false,false,false,false,0,some (.own 3),some 4,false,2,0⟩],[⟨false,true,false,false,1,some (.own 3),some 4,false,2,0⟩,⟨false,true,true,true,1,some .internalNl,some 4,false,2,0⟩],[⟨false,true,false,false,1,some (.own 3),some 4,false,2,0⟩,⟨false,true,true,true,1,some .internalNl,some 4,false,2,0⟩],[⟨true,true,false,false,1,some (.own 3),some 4,false,2,0⟩,⟨true,true,true,true,1,some .internalNl,some 4,false,2,0⟩],[⟨true,true,false,false,1,some (.own 3),some 4,false,2,0⟩,⟨true,true,true,true,1,some .internalNl,some 4,false,2,0⟩],[⟨false,true,false,false,1,some (.own 3),some 4,false,2,2⟩,⟨false,true,true,true,1,some .internalNl,some 4,false,2,2⟩],[⟨true,true,false,false,1,some (.own 3),some 4,false,2,1⟩,⟨true,true,true,true,1,some .internalNl,some 4,false,2,1⟩],[⟨false,true,false,false,1,some (.own 3),some 4,false,2,0⟩,⟨false,true,true,true,1,some .internalNl,some 4,false,2,0⟩],[⟨false,false,false,false,0,some (.own 3),some 4,false,2,0⟩],[⟨false,false,false,false,0,some (.own 3),some 4,false,2,0⟩],[⟨false,false,false,false,0,some (.own 3),some 4,false,2,0⟩],[⟨false,true,false,false,1,some (.own 3),some 4,false,2,0⟩,⟨false,true,true,true,1,some .internalNl,some 4,false,2,0⟩],[⟨false,true,false,false,1,some (.own 3),some 4,false,2,0⟩,⟨false,true,true,true,1,some .internalNl,some 4,false,2,0⟩],[⟨true,true,false,false,1,some (.own 3),some 4,false,2,0⟩,⟨true,true,true,true,1,some .internalNl,some 4,false,2,0⟩],[⟨true,true,false,false,1,some (.own 3),some 4,false,2,0⟩,⟨true,true,true,true,1,some .internalNl,some 4,false,2,0⟩],[⟨false,true,false,false,1,some (.own 3),some 4,false,2,2⟩,⟨false,true,true,true,1,some .internalNl,some 4,false,2,2⟩],[⟨true,true,false,false,1,some (.own 3),some 4,false,2,1⟩,⟨true,true,true,true,1,some .internalNl,some 4,false,2,1⟩],[⟨false,true,false,false,1,some (.own 3),some 4,false,2,0⟩,⟨false,true,true,true,1,some .internalNl,some 4,false,2,0⟩],[⟨true,true,false,false,1,some (.own 3),some 4,false,2,0⟩,⟨true,true,true,true,1,some .internalNl,some 4,false,2,0⟩],[],[⟨false,true,false,false,1,some (.own 3),some 4,false,2,0⟩,⟨false,true,true,true,1,some .internalNl,some 4,false,2,0⟩],[⟨false,true,false,false,1,some (.own 3),some 4,false,2,0⟩,⟨false,true,true,true,1,some .internalNl,some 4,false,2,0⟩],[⟨false,true,false,false,1,some (.own 3),some 4,false,2,0⟩,⟨false,true,true,true,1,some .internalNl,some 4,false,2,0⟩],[⟨true,true,false,false,1,some (.own 3),some 4,false,2,0⟩,⟨true,true,true,true,1,some .internalNl,some 4,false,2,0⟩],[⟨true,true,false,false,1,some (.own 3),some 4,false,2,0⟩,⟨true,true,true,true,1,some .internalNl,some 4,false,2,0⟩],[⟨false,true,false,false,1,some (.own 3),some 4,false,2,2⟩,⟨false,true,true,true,1,some .internalNl,some 4,false,2,2⟩],[⟨true,true,false,false,1,some (.own 3),some 4,false,2,1⟩,⟨true,true,true,true,1,some .internalNl,some 4,false,2,1⟩],[⟨false,true,false,false,1,some (.own 3),some 4,false,2,0⟩,⟨false,true,true,true,1,some .internalNl,some 4,false,2,0⟩],[⟨false,true,false,false,1,some (.own 3),some 4,false,2,0⟩],[⟨true,true,false,false,1,some (.own 3),some 4,false,2,0⟩,⟨true,true,true,true,1,some .internalNl,some 4,false,2,0⟩],[],[⟨false,true,false,false,1,some (.own 3),some 4,false,2,0⟩,⟨false,true,true,true,1,some .internalNl,some 4,false,2,0⟩],[⟨false,false,false,false,0,some (.own 3),some 4,false,2,0⟩],[⟨false,false,false,false,0,some (.own 3),some 4,false,2,0⟩],[⟨true,true,false,false,1,some (.own 3),some 4,false,2,0⟩,⟨true,true,true,true,1,some .internalNl,some 4,false,2,0⟩],[],[⟨false,true,false,false,1,some (.own 3),some 4,false,2,0⟩,⟨false,true,true,true,1,some .internalNl,some 4,false,2,0⟩],[⟨true,true,false,false,1,some (.own 3),some 4,false,2,0⟩,⟨true,true,true,true,1,some .internalNl,some 4,false,2,0⟩],[],[⟨false,true,false,false,1,some (.own 3),some 4,false,2,0⟩,⟨false,true,true,true,1,some .internalNl,some 4,false,2,0⟩],[⟨false,true,false,false,1,some (.own 3),some 4,false,2,0⟩,⟨false,true,true,true,1,some .internalNl,some 4,false,2,0⟩],[⟨false,true,false,false,1,some (.own 3),some 4,false,2,0⟩,⟨false,true,true,true,1,some .internalNl,some 4,false,2,0⟩],[⟨true,true,false,false,1,some (.own 3),some 4,false,2,0⟩,⟨true,true,true,true,1,some .internalNl,some 4,false,2,0⟩],[⟨true,true,false,false,1,some (.own 3),some 4,false,2,0⟩,⟨true,true,true,true,1,some .internalNl,some 4,false,2,0⟩],[⟨false,true,false,false,1,some (.own 3),some 4,false,2,2⟩,⟨false,true,true,true,1,some .internalNl,some 4,false,2,2⟩],[⟨true,true,false,false,1,some (.own 3),some 4,false,2,1⟩,⟨true,true,true,true,1,some .internalNl,some 4,false,2,1⟩],[⟨false,true,false,false,1,some (.own 3),some 4,false,2,0⟩,⟨false,true,true,true,1,some .internalNl,some 4,false,2,0⟩],[⟨false,false,false,false,0,some (.own 3),some 4,false,2,0⟩],[⟨true,true,false,false,1,some (.own 3),some 4,false,2,0⟩,⟨true,true,true,true,1,some .internalNl,some 4,false,2,0⟩],[],[⟨false,true,false,false,1,some (.own 3),some 4,false,2,0⟩,⟨false,true,true,true,1,some .internalNl,some 4,false,2,0⟩],[⟨false,false,false,false,0,some (.own 3),some 4,false,2,0⟩],[⟨false,true,false,false,1,some (.own 3),some 4,false,2,0⟩],[⟨false,true,false,false,1,some (.own 3),some 4,false,2,0⟩,⟨false,true,true,true,1,some .internalNl,some 4,false,2,0⟩],[⟨false,true,false,false,1,some (.own 3),some 4,false,2,0⟩,⟨false,true,true,true,1,some .internalNl,some 4,false,2,0⟩],[⟨true,true,false,false,1,some (.own 3),some 4,false,2,0⟩,⟨true,true,true,true,1,some .internalNl,some 4,false,2,0⟩],[⟨true,true,false,false,1,some (.own 3),some 4,false,2,0⟩,⟨true,true,true,true,1,some .internalNl,some 4,false,2,0⟩],[⟨false,true,false,false,1,some (.own 3),some 4,false,2,2⟩,⟨false,true,true,true,1,some .internalNl,some 4,false,2,2⟩],[⟨true,true,false,false,1,some (.own 3),some 4,false,2,1⟩,⟨true,true,true,true,1,some .internalNl,some 4,false,2,1⟩],[⟨false,true,false,false,1,some (.own 3),some 4,false,2,0⟩,⟨false,true,true,true,1,some .internalNl,some 4,false,2,0⟩],[⟨true,true,false,false,1,some (.own 3),some 4,false,2,0⟩,⟨true,true,true,true,1,some .internalNl,some 4,false,2,0⟩],[],[⟨false,true,false,false,1,some (.own 3),some 4,false,2,0⟩,⟨false,true,true,true,1,some .internalNl,some 4,false,2,0⟩],[⟨false,true,false,false,1,some (.own 3),some 4,false,2,0⟩,⟨false,true,true,true,1,some .internalNl,some 4,false,2,0⟩]]
theorem ruby_line_qClosed : closed ruby_line_rows ruby_line_qTab QA.init (QA.succ true ruby_line_M) (QA.eofOk true ruby_line_M) = true := by
  decide +kernel
def ruby_line_Q : QCert true ruby_line_M := ⟨ruby_line_D, ruby_line_qTab, ruby_line_qClosed⟩

def shell_line_qTab : List (List QA) := [[⟨false,false,false,false,0,none,none,false,0,0⟩],[⟨false,false,false,false,0,some (.own 0),some 0,false,1,0⟩],[⟨false,false,false,false,0,some .newline,none,false,2,2⟩],[⟨true,false,false,false,0,some .newline,some 3,true,1,1⟩],[⟨false,true,false,false,1,some (.own 3),some 4,false,1,0⟩],[⟨false,true,false,false,0,some (.own 3),some 1,false,1,0⟩],[⟨false,true,false,false,1,some (.own 3),some 4,false,1,0⟩],[⟨false,true,false,false,1,some (.own 3),some 4,false,2,0⟩,⟨false,true,true,true,1,some .internalNl,some 4,false,2,0⟩],[⟨false,true,false,false,1,some (.own 3),some 4,false,2,0⟩,⟨false,true,true,true,1,some .internalNl,some 4,false,2,0⟩],[⟨true,true,false,false,1,some (.own 3),some 4,false,2,0⟩,⟨true,true,true,true,1,some .internalNl,some 4,false,2,0⟩],[⟨true,true,false,false,1,some (.own 3),some 4,false,2,0⟩,⟨true,true,true,true,1,some .internalNl,some 4,false,2,0⟩],[⟨false,true,false,false,1,some (.own 3),some 4,false,2,2⟩,⟨false,true,true,true,1,some .internalNl,some 4,false,2,2⟩],[⟨true,true,false,false,1,some (.own 3),some 4,false,2,1⟩,⟨true,true,true,true,1,some .internalNl,some 4,false,2,1⟩],[⟨false,true,false,false,1,some (.own 3),some 4,false,2,0⟩,⟨false,true,true,true,1,some .internalNl,some 4,false,2,0⟩],[⟨false,true,false,false,0,some (.own 3),some 1,false,1,0⟩],[⟨false,true,false,false,1,some (.own 3),some 4,false,2,0⟩,⟨false,true,true,true,1,some .internalNl,some 4,false,2,0⟩],[⟨false,true,false,false,1,some (.own 3),some 4,false,2,0⟩,⟨false,true,true,true,1,some .internalNl,some 4,false,2,0⟩],[⟨true,true,false,false,1,some (.own 3),some 4,false,2,0⟩,⟨true,true,true,true,1,some .internalNl,some 4,false,2,0⟩],[⟨true,true,false,false,1,some (.own 3),some 4,false,2,0⟩,⟨true,true,true,true,1,some .internalNl,some 4,false,2,0⟩],[⟨false,true,false,false,1,some (.own 3),some 4,false,2,2⟩,⟨false,true,true,true,1,some .internalNl,some 4,false,2,2⟩],[⟨true,true,false,false,1,some (.own 3),some 4,false,2,1⟩,⟨true,true,true,true,1,some .internalNl,some 4,false,2,1⟩],[⟨false,true,false,false,1,some (.own 3),some 4,false,2,0⟩,⟨false,true,true,true,1,some .internalNl,some 4,false,2,0⟩],[⟨true,true,false,false,1,some (.own 3),some 4,false,2,0⟩,⟨true,true,true,true,1,some .internalNl,some 4,false,2,0⟩],[],[⟨false,true,false,false,1,some (.own 3),some 4,false,2,0⟩,⟨false,true,true,true,1,some .internalNl,some 4,false,2,0⟩],[⟨true,true,false,false,1,some (.own 3),some 4,false,2,0⟩,⟨true,true,true,true,1,some .internalNl,some 4,false,2,0⟩],[⟨true,true,false,false,1,some (.own 3),some 4,false,2,0⟩,⟨true,true,true,true,1,some .internalNl,some 4,false,2,0⟩],[⟨false,true,false,false,1,some (.own 3),some 4,false,2,2⟩,⟨false,true,true,true,1,some .internalNl,some 4,false,2,2⟩],[⟨true,true,false,false,1,some (.own 3),some 4,false,2,1⟩,⟨true,true,true,true,1,some .internalNl,some 4,false,2,1⟩],[⟨true,true,false,false,1,some (.own 3),some 4,false,2,0⟩,⟨true,true,true,true,1,some .internalNl,some 4,false,2,0⟩],[],[⟨false,true,false,false,1,some (.own 3),some 4,false,2,0⟩,⟨false,true,true,true,1,some .internalNl,some 4,false,2,0⟩],[⟨true,true,false,false,1,some (.own 3),some 4,false,2,0⟩,⟨true,true,true,true,1,some .internalNl,some 4,false,2,0⟩],[⟨true,true,false,false,1,some (.own 3),some 4,false,2,0⟩,⟨true,true,true,true,1,some .internalNl,some 4,false,2,0⟩],[⟨false,true,false,false,1,some (.own 3),some 4,false,2,2⟩,⟨false,true,true,true,1,some .internalNl,some 4,false,2,2⟩],[⟨true,true,false,false,1,some (.own 3),some 4,false,2,1⟩,⟨true,true,true,true,1,some .internalNl,some 4,false,2,1⟩],[⟨true,true,false,false,1,some (.own 3),some 4,false,2,0⟩,⟨true,true,true,true,1,some .internalNl,some 4,false,2,0⟩],[],[⟨true,true,false,false,1,some (.own 3),some 4,false,2,0⟩,⟨true,true,true,true,1,some .internalNl,some 4,false,2,0⟩],[]]
theorem shell_line_qClosed : closed shell_line_rows shell_line_qTab QA.init (QA.succ true shell_line_M) (QA.eofOk true shell_line_M) = true := by
  decide +kernel
def shell_line_Q : QCert true shell_line_M := ⟨shell_line_D, shell_line_qTab, shell_line_qClosed⟩

/-- Parsers that queue what may be given up and pass the check of RagelQueue.lean. -/
def queued : List Parser := [
  parse_cmake, parse_crystal, parse_grace, parse_jam, parse_limbo, parse_ruby, parse_shell]

theorem queued_cert : ∀ P ∈ queued, ∃ st, Nonempty (QCert st P.line.machine) :=
  (List.forall_mem_cons.mpr ⟨⟨_, ⟨cmake_line_M_eq ▸ cmake_line_Q⟩⟩,
  (List.forall_mem_cons.mpr ⟨⟨_, ⟨crystal_line_M_eq ▸ crystal_line_Q⟩⟩,
  (List.forall_mem_cons.mpr ⟨⟨_, ⟨grace_line_M_eq ▸ grace_line_Q⟩⟩,
  (List.forall_mem_cons.mpr ⟨⟨_, ⟨jam_line_M_eq ▸ jam_line_Q⟩⟩,
  (List.forall_mem_cons.mpr ⟨⟨_, ⟨limbo_line_M_eq ▸ limbo_line_Q⟩⟩,
  (List.forall_mem_cons.mpr ⟨⟨_, ⟨ruby_line_M_eq ▸ ruby_line_Q⟩⟩,
  (List.forall_mem_cons.mpr ⟨⟨_, ⟨shell_line_M_eq ▸ shell_line_Q⟩⟩,
  (fun _ h => nomatch h)⟩)⟩)⟩)⟩)⟩)⟩)⟩)

theorem queued_sub : ∀ P ∈ queued, P ∈ parsers :=
  (List.forall_mem_cons.mpr ⟨List.mem_of_getElem? (i := 23) rfl,
  (List.forall_mem_cons.mpr ⟨List.mem_of_getElem? (i := 25) rfl,
  (List.forall_mem_cons.mpr ⟨List.mem_of_getElem? (i := 43) rfl,
  (List.forall_mem_cons.mpr ⟨List.mem_of_getElem? (i := 48) rfl,
  (List.forall_mem_cons.mpr ⟨List.mem_of_getElem? (i := 55) rfl,
  (List.forall_mem_cons.mpr ⟨List.mem_of_getElem? (i := 89) rfl,
  (List.forall_mem_cons.mpr ⟨List.mem_of_getElem? (i := 93) rfl,
  (fun _ h => nomatch h)⟩)⟩)⟩)⟩)⟩)⟩)⟩)

end Ohcount.Cert
