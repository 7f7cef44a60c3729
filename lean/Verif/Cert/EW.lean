import Verif.Cert.EAll
import Verif.EmbedSolid

/-! Generated by tools/gen_solid.py. -/

namespace Ohcount.Cert
open Ohcount.Ragel Ohcount.Gram

set_option maxRecDepth 100000

def html_wopt : WOpt := ⟨false, false, [2, 0, 1]⟩
def html_w2_tab : List (List XA) := [[⟨none,false,false,false,none,false,false,false,false,false,false⟩],[⟨some (.own 0),false,false,false,some 2,false,false,false,false,false,false⟩],[⟨some .newline,true,false,false,none,false,false,false,false,false,false⟩],[⟨some .newline,true,false,true,some 5,false,false,false,false,false,false⟩],[⟨some (.own 5),true,false,true,some 6,false,false,false,false,false,false⟩],[⟨some (.own 5),true,false,true,some 6,false,false,false,false,false,false⟩],[⟨some (.own 5),true,false,true,some 6,false,false,false,false,false,false⟩],[⟨some (.own 5),true,false,true,some 6,false,false,false,false,false,false⟩,⟨some (.own 5),false,true,true,some 6,false,false,false,false,false,false⟩,⟨some (.own 5),false,false,true,some 6,false,false,false,false,false,false⟩],[⟨some (.own 5),true,false,true,some 6,false,false,false,false,false,false⟩],[⟨some (.own 5),true,false,true,some 6,false,false,false,false,false,false⟩,⟨some (.own 5),false,true,true,some 6,false,false,false,false,false,false⟩,⟨some (.own 5),false,false,true,some 6,false,false,false,false,false,false⟩],[⟨some (.own 5),true,false,true,some 6,false,false,false,false,false,false⟩],[⟨some (.own 5),true,false,true,some 6,false,false,false,false,false,false⟩],[⟨some (.own 5),true,false,true,some 6,false,false,false,false,false,false⟩],[⟨some (.own 5),true,false,true,some 6,false,false,false,false,false,false⟩,⟨some (.own 5),false,true,true,some 6,false,false,false,false,false,false⟩],[⟨some (.own 5),true,false,true,some 6,false,false,false,false,false,false⟩,⟨some (.own 5),false,true,true,some 6,false,false,false,false,false,false⟩],[⟨some (.own 5),true,false,true,some 6,false,false,false,false,false,false⟩],[⟨some (.own 5),true,false,true,some 6,false,false,false,false,false,false⟩],[⟨some (.own 5),true,false,true,some 6,false,false,false,false,false,false⟩],[⟨some (.own 5),true,false,true,some 6,false,false,false,false,false,false⟩],[⟨some (.own 5),true,false,true,some 6,false,false,false,false,false,false⟩],[⟨some (.own 5),true,false,true,some 6,false,false,false,false,false,false⟩],[⟨some (.own 5),true,false,true,some 6,false,false,false,false,false,false⟩,⟨some .internalNl,true,false,true,some 6,false,false,false,false,false,false⟩],[⟨some (.own 5),false,true,true,some 6,false,false,false,false,false,false⟩,⟨some .internalNl,false,true,true,some 6,false,false,false,false,false,false⟩,⟨some .internalNl,false,false,true,some 6,false,false,false,false,false,false⟩,⟨some (.own 5),false,false,true,some 6,false,false,false,false,false,false⟩],[⟨some (.own 5),true,false,true,some 6,false,false,false,false,false,false⟩,⟨some .internalNl,true,false,true,some 6,false,false,false,false,false,false⟩],[⟨some (.own 5),true,false,true,some 6,false,false,false,false,false,false⟩,⟨some .internalNl,true,false,true,some 6,false,false,false,false,false,false⟩],[⟨some (.own 5),true,false,true,some 6,false,false,false,false,false,false⟩,⟨some .internalNl,true,false,true,some 6,false,false,false,false,false,false⟩],[⟨some (.own 5),true,false,true,some 6,false,false,false,false,false,false⟩,⟨some .internalNl,true,false,true,some 6,false,false,false,false,false,false⟩],[⟨some (.own 5),true,false,true,some 6,false,false,false,false,false,false⟩,⟨some .internalNl,true,false,true,some 6,false,false,false,false,false,false⟩],[⟨some (.own 5),true,false,true,some 6,false,false,false,false,false,false⟩],[⟨some (.own 5),true,false,true,some 6,false,false,false,false,false,false⟩],[⟨some .internalNl,true,false,true,some 6,false,false,false,false,false,false⟩,⟨some (.own 5),true,false,true,some 6,false,false,false,false,false,false⟩],[⟨some .internalNl,true,false,true,some 6,false,false,false,false,false,false⟩],[⟨some (.own 5),true,false,true,some 6,false,false,false,false,false,false⟩,⟨some .internalNl,true,false,true,some 6,false,false,false,false,false,false⟩],[⟨some (.own 5),true,false,true,some 6,false,false,false,false,false,false⟩],[⟨some (.own 5),true,false,true,some 6,false,false,false,false,false,false⟩],[⟨some (.own 5),true,false,true,some 6,false,false,false,false,false,false⟩],[⟨some (.own 5),true,false,true,some 6,false,false,false,false,false,false⟩,⟨some (.own 5),false,true,true,some 6,false,false,false,false,false,false⟩,⟨some (.own 5),false,false,true,some 6,false,false,false,false,false,false⟩],[⟨some (.own 5),true,false,true,some 6,false,false,false,false,false,false⟩,⟨some (.own 5),false,true,true,some 6,false,false,false,false,false,false⟩,⟨some (.own 5),false,false,true,some 6,false,false,false,false,false,false⟩],[⟨some (.own 5),true,false,true,some 6,false,false,false,false,false,false⟩],[⟨some (.own 5),true,false,true,some 6,false,false,false,false,false,false⟩],[⟨some (.own 5),true,false,true,some 6,false,false,false,false,false,false⟩],[⟨some (.own 5),true,false,true,some 6,false,false,false,false,false,false⟩],[⟨some (.own 5),true,false,true,some 6,false,false,false,false,false,false⟩],[⟨some (.own 5),true,false,true,some 6,false,false,false,false,false,false⟩],[⟨some (.own 5),true,false,true,some 6,false,false,false,false,false,false⟩],[⟨some (.own 5),true,false,true,some 6,false,false,false,false,false,false⟩],[⟨some (.own 5),true,false,true,some 6,false,false,false,false,false,false⟩],[⟨some (.own 5),true,false,true,some 6,false,false,false,false,false,false⟩],[⟨some (.own 5),true,false,true,some 6,false,false,false,false,false,false⟩],[⟨some (.own 5),true,false,true,some 6,false,false,false,false,false,false⟩],[⟨some (.own 5),true,false,true,some 6,false,false,false,false,false,false⟩],[⟨some (.own 5),true,false,true,some 6,false,false,false,false,false,false⟩],[⟨some (.own 5),true,false,true,some 6,false,false,false,false,false,false⟩],[⟨some (.own 5),true,false,true,some 6,false,false,false,false,false,false⟩],[⟨some (.own 5),true,false,true,some 6,false,false,false,false,false,false⟩,⟨some (.own 5),false,true,true,some 6,false,false,false,false,false,false⟩,⟨some (.own 5),false,false,true,some 6,false,false,false,false,false,false⟩],[⟨some (.own 5),true,false,true,some 6,false,false,false,false,false,false⟩],[⟨some (.own 5),true,false,true,some 6,false,false,false,false,false,false⟩],[⟨some (.own 5),true,false,true,some 6,false,false,false,false,false,false⟩],[⟨some (.own 5),true,false,true,some 6,false,false,false,false,false,false⟩],[⟨some (.own 5),true,false,true,some 6,false,false,false,false,false,false⟩],[⟨some (.own 5),true,false,true,some 6,false,false,false,false,false,false⟩],[⟨some (.own 5),true,false,true,some 6,false,false,false,false,false,false⟩],[⟨some (.own 5),true,false,true,some 6,false,false,false,false,false,false⟩,⟨some (.own 5),false,true,true,some 6,false,false,false,false,false,false⟩,⟨some (.own 5),false,false,true,some 6,false,false,false,false,false,false⟩]]
theorem html_w2_closed : closed emb2_rows html_w2_tab (XA.init html_wopt) (XA.succ html_M html_wopt 2) (XA.eofOk html_M html_wopt 2) = true := by
  decide +kernel
def html_w2 : XCert html_M html_wopt 2 := ⟨emb2_D, html_w2_tab, html_w2_closed⟩
def html_w0_tab : List (List XA) := [[⟨none,false,false,false,none,false,false,false,false,false,false⟩],[⟨some (.own 0),false,false,false,some 1,false,false,false,false,false,false⟩],[⟨some .newline,true,false,false,none,false,false,false,false,false,false⟩],[⟨some .newline,true,false,true,some 4,false,false,false,false,false,false⟩],[⟨some (.own 9),true,false,true,some 5,false,false,false,false,false,false⟩],[⟨some (.own 9),true,false,true,some 5,false,false,false,false,false,false⟩],[⟨some (.own 9),true,false,true,some 5,false,false,false,false,false,false⟩],[⟨some (.own 9),true,false,true,some 5,false,false,false,false,false,false⟩],[⟨some (.own 9),true,false,true,some 5,false,false,false,false,false,false⟩,⟨some .internalNl,true,false,true,some 5,false,false,false,false,false,false⟩],[⟨some (.own 9),false,true,true,some 5,false,false,false,false,false,false⟩,⟨some (.own 9),false,false,true,some 5,false,false,false,false,false,false⟩,⟨some .internalNl,false,true,true,some 5,false,false,false,false,false,false⟩,⟨some .internalNl,false,false,true,some 5,false,false,false,false,false,false⟩],[⟨some (.own 9),true,false,true,some 5,false,false,false,false,false,false⟩,⟨some .internalNl,true,false,true,some 5,false,false,false,false,false,false⟩],[⟨some (.own 9),true,false,true,some 5,false,false,false,false,false,false⟩,⟨some .internalNl,true,false,true,some 5,false,false,false,false,false,false⟩],[⟨some (.own 9),true,false,true,some 5,false,false,false,false,false,false⟩,⟨some .internalNl,true,false,true,some 5,false,false,false,false,false,false⟩],[⟨some (.own 9),true,false,true,some 5,false,false,false,false,false,false⟩,⟨some .internalNl,true,false,true,some 5,false,false,false,false,false,false⟩],[⟨some (.own 9),true,false,true,some 5,false,false,false,false,false,false⟩,⟨some .internalNl,true,false,true,some 5,false,false,false,false,false,false⟩],[⟨some (.own 9),true,false,true,some 5,false,false,false,false,false,false⟩,⟨some .internalNl,true,false,true,some 5,false,false,false,false,false,false⟩],[⟨some (.own 9),false,true,true,some 5,false,false,false,false,false,false⟩,⟨some (.own 9),false,false,true,some 5,false,false,false,false,false,false⟩,⟨some .internalNl,false,true,true,some 5,false,false,false,false,false,false⟩,⟨some .internalNl,false,false,true,some 5,false,false,false,false,false,false⟩],[⟨some (.own 9),true,false,true,some 5,false,false,false,false,false,false⟩,⟨some .internalNl,true,false,true,some 5,false,false,false,false,false,false⟩],[⟨some (.own 9),true,false,true,some 5,false,false,false,false,false,false⟩,⟨some .internalNl,true,false,true,some 5,false,false,false,false,false,false⟩],[⟨some (.own 9),true,false,true,some 5,false,false,false,false,false,false⟩,⟨some .internalNl,true,false,true,some 5,false,false,false,false,false,false⟩],[⟨some (.own 9),true,false,true,some 5,false,false,false,false,false,false⟩,⟨some .internalNl,true,false,true,some 5,false,false,false,false,false,false⟩],[⟨some (.own 9),true,false,true,some 5,false,false,false,false,false,false⟩,⟨some .internalNl,true,false,true,some 5,false,false,false,false,false,false⟩],[⟨some (.own 9),true,false,true,some 5,false,false,false,false,false,false⟩],[⟨some (.own 9),true,false,true,some 5,false,false,false,false,false,false⟩],[⟨some .internalNl,true,false,true,some 5,false,false,false,false,false,false⟩,⟨some (.own 9),true,false,true,some 5,false,false,false,false,false,false⟩],[⟨some .internalNl,true,false,true,some 5,false,false,false,false,false,false⟩],[⟨some (.own 9),true,false,true,some 5,false,false,false,false,false,false⟩,⟨some (.own 9),false,true,true,some 5,false,false,false,false,false,false⟩,⟨some .internalNl,true,false,true,some 5,false,false,false,false,false,false⟩,⟨some .internalNl,false,true,true,some 5,false,false,false,false,false,false⟩],[⟨some .internalNl,true,false,true,some 5,false,false,false,false,false,false⟩,⟨some (.own 9),true,false,true,some 5,false,false,false,false,false,false⟩],[⟨some .internalNl,true,false,true,some 5,false,false,false,false,false,false⟩],[⟨some (.own 9),true,false,true,some 5,false,false,false,false,false,false⟩,⟨some (.own 9),false,true,true,some 5,false,false,false,false,false,false⟩,⟨some .internalNl,true,false,true,some 5,false,false,false,false,false,false⟩,⟨some .internalNl,false,true,true,some 5,false,false,false,false,false,false⟩],[⟨some (.own 9),true,false,true,some 5,false,false,false,false,false,false⟩,⟨some .internalNl,true,false,true,some 5,false,false,false,false,false,false⟩],[⟨some (.own 9),false,true,true,some 5,false,false,false,false,false,false⟩,⟨some .internalNl,false,true,true,some 5,false,false,false,false,false,false⟩,⟨some .internalNl,false,false,true,some 5,false,false,false,false,false,false⟩,⟨some (.own 9),false,false,true,some 5,false,false,false,false,false,false⟩],[⟨some (.own 9),true,false,true,some 5,false,false,false,false,false,false⟩,⟨some .internalNl,true,false,true,some 5,false,false,false,false,false,false⟩],[⟨some (.own 9),true,false,true,some 5,false,false,false,false,false,false⟩,⟨some .internalNl,true,false,true,some 5,false,false,false,false,false,false⟩],[⟨some (.own 9),true,false,true,some 5,false,false,false,false,false,false⟩,⟨some .internalNl,true,false,true,some 5,false,false,false,false,false,false⟩],[⟨some (.own 9),true,false,true,some 5,false,false,false,false,false,false⟩,⟨some .internalNl,true,false,true,some 5,false,false,false,false,false,false⟩],[⟨some (.own 9),true,false,true,some 5,false,false,false,false,false,false⟩,⟨some .internalNl,true,false,true,some 5,false,false,false,false,false,false⟩],[⟨some (.own 9),true,false,true,some 5,false,false,false,false,false,false⟩],[⟨some .internalNl,true,false,true,some 5,false,false,false,false,false,false⟩,⟨some (.own 9),true,false,true,some 5,false,false,false,false,false,false⟩],[⟨some .internalNl,true,false,true,some 5,false,false,false,false,false,false⟩],[⟨some (.own 9),true,false,true,some 5,false,false,false,false,false,false⟩],[⟨some (.own 9),true,false,true,some 5,false,false,false,false,false,false⟩],[⟨some (.own 9),true,false,true,some 5,false,false,false,false,false,false⟩],[⟨some (.own 9),true,false,true,some 5,false,false,false,false,false,false⟩],[⟨some (.own 9),false,true,true,some 5,false,false,false,false,false,false⟩,⟨some .internalNl,false,true,true,some 5,false,false,false,false,false,false⟩,⟨some .internalNl,false,false,true,some 5,false,false,false,false,false,false⟩,⟨some (.own 9),false,false,true,some 5,false,false,false,false,false,false⟩],[⟨some .internalNl,true,false,true,some 5,false,false,false,false,false,false⟩],[⟨some .internalNl,true,false,true,some 5,false,false,false,false,false,false⟩],[⟨some (.own 9),true,false,true,some 5,false,false,false,false,false,false⟩,⟨some .internalNl,true,false,true,some 5,false,false,false,false,false,false⟩],[⟨some .internalNl,true,false,true,some 5,false,false,false,false,false,false⟩],[⟨some .internalNl,true,false,true,some 5,false,false,false,false,false,false⟩],[⟨some .internalNl,true,false,true,some 5,false,false,false,false,false,false⟩]]
theorem html_w0_closed : closed emb0_rows html_w0_tab (XA.init html_wopt) (XA.succ html_M html_wopt 0) (XA.eofOk html_M html_wopt 0) = true := by
  decide +kernel
def html_w0 : XCert html_M html_wopt 0 := ⟨emb0_D, html_w0_tab, html_w0_closed⟩
def html_w1_tab : List (List XA) := [[⟨none,false,false,false,none,false,false,false,false,false,false⟩],[⟨some (.own 0),false,false,false,some 1,false,false,false,false,false,false⟩],[⟨some .newline,true,false,false,none,false,false,false,false,false,false⟩],[⟨some .newline,true,false,true,some 4,false,false,false,false,false,false⟩],[⟨some (.own 7),true,false,true,some 5,false,false,false,false,false,false⟩],[⟨some (.own 7),true,false,true,some 5,false,false,false,false,false,false⟩],[⟨some (.own 7),true,false,true,some 5,false,false,false,false,false,false⟩],[⟨some (.own 7),true,false,true,some 5,false,false,false,false,false,false⟩],[⟨some (.own 7),true,false,true,some 5,false,false,false,false,false,false⟩,⟨some .internalNl,true,false,true,some 5,false,false,false,false,false,false⟩],[⟨some (.own 7),false,true,true,some 5,false,false,false,false,false,false⟩,⟨some .internalNl,false,true,true,some 5,false,false,false,false,false,false⟩,⟨some .internalNl,false,false,true,some 5,false,false,false,false,false,false⟩,⟨some (.own 7),false,false,true,some 5,false,false,false,false,false,false⟩],[⟨some (.own 7),true,false,true,some 5,false,false,false,false,false,false⟩,⟨some .internalNl,true,false,true,some 5,false,false,false,false,false,false⟩],[⟨some (.own 7),true,false,true,some 5,false,false,false,false,false,false⟩,⟨some .internalNl,true,false,true,some 5,false,false,false,false,false,false⟩],[⟨some (.own 7),false,true,true,some 5,false,false,false,false,false,false⟩,⟨some .internalNl,false,true,true,some 5,false,false,false,false,false,false⟩,⟨some .internalNl,false,false,true,some 5,false,false,false,false,false,false⟩,⟨some (.own 7),false,false,true,some 5,false,false,false,false,false,false⟩],[⟨some (.own 7),true,false,true,some 5,false,false,false,false,false,false⟩,⟨some .internalNl,true,false,true,some 5,false,false,false,false,false,false⟩],[⟨some (.own 7),true,false,true,some 5,false,false,false,false,false,false⟩,⟨some (.own 7),false,true,true,some 5,false,false,false,false,false,false⟩],[⟨some (.own 7),true,false,true,some 5,false,false,false,false,false,false⟩],[⟨some (.own 7),true,false,true,some 2,false,false,false,false,false,false⟩],[⟨some (.own 7),true,false,true,some 5,false,false,false,false,false,false⟩],[⟨some (.own 7),true,false,true,some 5,false,false,false,false,false,false⟩,⟨some (.own 7),false,true,true,some 5,false,false,false,false,false,false⟩,⟨some .internalNl,true,false,true,some 5,false,false,false,false,false,false⟩,⟨some .internalNl,false,true,true,some 5,false,false,false,false,false,false⟩],[⟨some (.own 7),true,false,true,some 5,false,false,false,false,false,false⟩,⟨some .internalNl,true,false,true,some 5,false,false,false,false,false,false⟩],[⟨some (.own 7),true,false,true,some 5,false,false,false,false,false,false⟩,⟨some .internalNl,true,false,true,some 5,false,false,false,false,false,false⟩],[⟨some (.own 7),true,false,true,some 5,false,false,false,false,false,false⟩,⟨some .internalNl,true,false,true,some 5,false,false,false,false,false,false⟩],[⟨some (.own 7),true,false,true,some 5,false,false,false,false,false,false⟩,⟨some .internalNl,true,false,true,some 5,false,false,false,false,false,false⟩],[⟨some (.own 7),true,false,true,some 5,false,false,false,false,false,false⟩,⟨some (.own 7),false,true,true,some 5,false,false,false,false,false,false⟩,⟨some .internalNl,true,false,true,some 5,false,false,false,false,false,false⟩,⟨some .internalNl,false,true,true,some 5,false,false,false,false,false,false⟩],[⟨some (.own 7),true,false,true,some 5,false,false,false,false,false,false⟩,⟨some .internalNl,true,false,true,some 5,false,false,false,false,false,false⟩],[⟨some (.own 7),true,false,true,some 5,false,false,false,false,false,false⟩,⟨some .internalNl,true,false,true,some 5,false,false,false,false,false,false⟩],[⟨some (.own 7),true,false,true,some 5,false,false,false,false,false,false⟩,⟨some .internalNl,true,false,true,some 5,false,false,false,false,false,false⟩],[⟨some (.own 7),true,false,true,some 5,false,false,false,false,false,false⟩,⟨some .internalNl,true,false,true,some 5,false,false,false,false,false,false⟩],[⟨some (.own 7),true,false,true,some 5,false,false,false,false,false,false⟩,⟨some (.own 7),false,false,true,some 5,false,false,false,false,false,false⟩,⟨some (.own 7),false,true,true,some 5,false,false,false,false,false,false⟩],[⟨some (.own 7),true,false,true,some 5,false,false,false,false,false,false⟩],[⟨some (.own 7),true,false,true,some 5,false,false,false,false,false,false⟩,⟨some .internalNl,true,false,true,some 5,false,false,false,false,false,false⟩],[⟨some (.own 7),false,true,true,some 5,false,false,false,false,false,false⟩,⟨some .internalNl,false,true,true,some 5,false,false,false,false,false,false⟩,⟨some .internalNl,false,false,true,some 5,false,false,false,false,false,false⟩,⟨some (.own 7),false,false,true,some 5,false,false,false,false,false,false⟩],[⟨some (.own 7),true,false,true,some 5,false,false,false,false,false,false⟩,⟨some .internalNl,true,false,true,some 5,false,false,false,false,false,false⟩],[⟨some (.own 7),true,false,true,some 5,false,false,false,false,false,false⟩,⟨some .internalNl,true,false,true,some 5,false,false,false,false,false,false⟩],[⟨some (.own 7),true,false,true,some 5,false,false,false,false,false,false⟩,⟨some .internalNl,true,false,true,some 5,false,false,false,false,false,false⟩],[⟨some (.own 7),true,false,true,some 5,false,false,false,false,false,false⟩,⟨some .internalNl,true,false,true,some 5,false,false,false,false,false,false⟩],[⟨some (.own 7),true,false,true,some 5,false,false,false,false,false,false⟩,⟨some .internalNl,true,false,true,some 5,false,false,false,false,false,false⟩],[⟨some (.own 7),true,false,true,some 2,false,false,false,false,false,false⟩,⟨some (.own 7),false,true,false,some 2,false,false,false,false,false,false⟩,⟨some (.own 7),false,false,false,some 2,false,false,false,false,false,false⟩],[⟨some (.own 7),true,false,true,some 5,false,false,false,false,false,false⟩],[⟨some .internalNl,true,false,true,some 5,false,false,false,false,false,false⟩,⟨some (.own 7),true,false,true,some 5,false,false,false,false,false,false⟩],[⟨some .internalNl,true,false,true,some 5,false,false,false,false,false,false⟩],[⟨some .internalNl,true,false,true,some 5,false,false,false,false,false,false⟩,⟨some (.own 7),true,false,true,some 5,false,false,false,false,false,false⟩],[⟨some .internalNl,true,false,true,some 5,false,false,false,false,false,false⟩],[⟨some (.own 7),true,false,true,some 5,false,false,false,false,false,false⟩,⟨some (.own 7),false,true,true,some 5,false,false,false,false,false,false⟩],[⟨some .internalNl,true,false,true,some 5,false,false,false,false,false,false⟩,⟨some (.own 7),true,false,true,some 5,false,false,false,false,false,false⟩],[⟨some .internalNl,true,false,true,some 5,false,false,false,false,false,false⟩],[⟨some (.own 7),true,false,true,some 5,false,false,false,false,false,false⟩],[⟨some (.own 7),true,false,true,some 5,false,false,false,false,false,false⟩],[⟨some (.own 7),true,false,true,some 5,false,false,false,false,false,false⟩],[⟨some (.own 7),true,false,true,some 5,false,false,false,false,false,false⟩],[⟨some (.own 7),true,false,true,some 5,false,false,false,false,false,false⟩],[⟨some (.own 7),false,true,true,some 5,false,false,false,false,false,false⟩,⟨some .internalNl,false,true,true,some 5,false,false,false,false,false,false⟩,⟨some .internalNl,false,false,true,some 5,false,false,false,false,false,false⟩,⟨some (.own 7),false,false,true,some 5,false,false,false,false,false,false⟩],[⟨some .internalNl,true,false,true,some 5,false,false,false,false,false,false⟩],[⟨some .internalNl,true,false,true,some 5,false,false,false,false,false,false⟩],[⟨some (.own 7),true,false,true,some 5,false,false,false,false,false,false⟩,⟨some .internalNl,true,false,true,some 5,false,false,false,false,false,false⟩],[⟨some .internalNl,true,false,true,some 5,false,false,false,false,false,false⟩],[⟨some .internalNl,true,false,true,some 5,false,false,false,false,false,false⟩],[⟨some .internalNl,true,false,true,some 5,false,false,false,false,false,false⟩]]
theorem html_w1_closed : closed emb1_rows html_w1_tab (XA.init html_wopt) (XA.succ html_M html_wopt 1) (XA.eofOk html_M html_wopt 1) = true := by
  decide +kernel
def html_w1 : XCert html_M html_wopt 1 := ⟨emb1_D, html_w1_tab, html_w1_closed⟩
theorem html_solid : ∀ m ∈ html_wopt.use, Nonempty (XCert html_M html_wopt m) :=
  (List.forall_mem_cons.mpr ⟨⟨html_w2⟩,
  (List.forall_mem_cons.mpr ⟨⟨html_w0⟩,
  (List.forall_mem_cons.mpr ⟨⟨html_w1⟩,
  (fun _ h => nomatch h)⟩)⟩)⟩)

def mxml_wopt : WOpt := ⟨false, false, [2, 0, 1]⟩
def mxml_w2_tab : List (List XA) := [[⟨none,false,false,false,none,false,false,false,false,false,false⟩],[⟨some (.own 0),false,false,false,some 2,false,false,false,false,false,false⟩],[⟨some .newline,true,false,false,none,false,false,false,false,false,false⟩],[⟨some .newline,true,false,true,some 5,false,false,false,false,false,false⟩],[⟨some (.own 5),true,false,true,some 6,false,false,false,false,false,false⟩],[⟨some (.own 5),true,false,true,some 6,false,false,false,false,false,false⟩],[⟨some (.own 5),true,false,true,some 6,false,false,false,false,false,false⟩],[⟨some (.own 5),true,false,true,some 6,false,false,false,false,false,false⟩,⟨some .internalNl,true,false,true,some 6,false,false,false,false,false,false⟩],[⟨some (.own 5),false,true,true,some 6,false,false,false,false,false,false⟩,⟨some (.own 5),false,false,true,some 6,false,false,false,false,false,false⟩,⟨some .internalNl,false,true,true,some 6,false,false,false,false,false,false⟩,⟨some .internalNl,false,false,true,some 6,false,false,false,false,false,false⟩],[⟨some (.own 5),true,false,true,some 6,false,false,false,false,false,false⟩,⟨some .internalNl,true,false,true,some 6,false,false,false,false,false,false⟩],[⟨some (.own 5),true,false,true,some 6,false,false,false,false,false,false⟩,⟨some .internalNl,true,false,true,some 6,false,false,false,false,false,false⟩],[⟨some (.own 5),true,false,true,some 6,false,false,false,false,false,false⟩,⟨some .internalNl,true,false,true,some 6,false,false,false,false,false,false⟩],[⟨some (.own 5),true,false,true,some 6,false,false,false,false,false,false⟩,⟨some .internalNl,true,false,true,some 6,false,false,false,false,false,false⟩],[⟨some (.own 5),true,false,true,some 6,false,false,false,false,false,false⟩,⟨some .internalNl,true,false,true,some 6,false,false,false,false,false,false⟩],[⟨some (.own 5),true,false,true,some 6,false,false,false,false,false,false⟩,⟨some .internalNl,true,false,true,some 6,false,false,false,false,false,false⟩],[⟨some (.own 5),false,true,true,some 6,false,false,false,false,false,false⟩,⟨some (.own 5),false,false,true,some 6,false,false,false,false,false,false⟩,⟨some .internalNl,false,true,true,some 6,false,false,false,false,false,false⟩,⟨some .internalNl,false,false,true,some 6,false,false,false,false,false,false⟩],[⟨some (.own 5),true,false,true,some 6,false,false,false,false,false,false⟩,⟨some .internalNl,true,false,true,some 6,false,false,false,false,false,false⟩],[⟨some (.own 5),true,false,true,some 6,false,false,false,false,false,false⟩,⟨some .internalNl,true,false,true,some 6,false,false,false,false,false,false⟩],[⟨some (.own 5),true,false,true,some 6,false,false,false,false,false,false⟩,⟨some .internalNl,true,false,true,some 6,false,false,false,false,false,false⟩],[⟨some (.own 5),true,false,true,some 6,false,false,false,false,false,false⟩,⟨some .internalNl,true,false,true,some 6,false,false,false,false,false,false⟩],[⟨some (.own 5),true,false,true,some 6,false,false,false,false,false,false⟩,⟨some .internalNl,true,false,true,some 6,false,false,false,false,false,false⟩],[⟨some (.own 5),true,false,true,some 6,false,false,false,false,false,false⟩],[⟨some (.own 5),true,false,true,some 6,false,false,false,false,false,false⟩],[⟨some .internalNl,true,false,true,some 6,false,false,false,false,false,false⟩,⟨some (.own 5),true,false,true,some 6,false,false,false,false,false,false⟩],[⟨some .internalNl,true,false,true,some 6,false,false,false,false,false,false⟩],[⟨some (.own 5),true,false,true,some 6,false,false,false,false,false,false⟩,⟨some (.own 5),false,true,true,some 6,false,false,false,false,false,false⟩,⟨some .internalNl,true,false,true,some 6,false,false,false,false,false,false⟩,⟨some .internalNl,false,true,true,some 6,false,false,false,false,false,false⟩],[⟨some .internalNl,true,false,true,some 6,false,false,false,false,false,false⟩,⟨some (.own 5),true,false,true,some 6,false,false,false,false,false,false⟩],[⟨some .internalNl,true,false,true,some 6,false,false,false,false,false,false⟩],[⟨some (.own 5),true,false,true,some 6,false,false,false,false,false,false⟩,⟨some (.own 5),false,true,true,some 6,false,false,false,false,false,false⟩,⟨some .internalNl,true,false,true,some 6,false,false,false,false,false,false⟩,⟨some .internalNl,false,true,true,some 6,false,false,false,false,false,false⟩],[⟨some (.own 5),true,false,true,some 6,false,false,false,false,false,false⟩],[⟨some (.own 5),true,false,true,some 6,false,false,false,false,false,false⟩],[⟨some (.own 5),true,false,true,some 6,false,false,false,false,false,false⟩],[⟨some (.own 5),true,false,true,some 6,false,false,false,false,false,false⟩],[⟨some (.own 5),true,false,true,some 6,false,false,false,false,false,false⟩,⟨some .internalNl,true,false,true,some 6,false,false,false,false,false,false⟩],[⟨some (.own 5),false,true,true,some 6,false,false,false,false,false,false⟩,⟨some .internalNl,false,true,true,some 6,false,false,false,false,false,false⟩,⟨some .internalNl,false,false,true,some 6,false,false,false,false,false,false⟩,⟨some (.own 5),false,false,true,some 6,false,false,false,false,false,false⟩],[⟨some (.own 5),true,false,true,some 6,false,false,false,false,false,false⟩,⟨some .internalNl,true,false,true,some 6,false,false,false,false,false,false⟩],[⟨some (.own 5),true,false,true,some 6,false,false,false,false,false,false⟩,⟨some .internalNl,true,false,true,some 6,false,false,false,false,false,false⟩],[⟨some (.own 5),true,false,true,some 6,false,false,false,false,false,false⟩,⟨some .internalNl,true,false,true,some 6,false,false,false,false,false,false⟩],[⟨some (.own 5),true,false,true,some 6,false,false,false,false,false,false⟩,⟨some .internalNl,true,false,true,some 6,false,false,false,false,false,false⟩],[⟨some (.own 5),true,false,true,some 6,false,false,false,false,false,false⟩,⟨some .internalNl,true,false,true,some 6,false,false,false,false,false,false⟩],[⟨some (.own 5),true,false,true,some 6,false,false,false,false,false,false⟩],[⟨some .internalNl,true,false,true,some 6,false,false,false,false,false,false⟩,⟨some (.own 5),true,false,true,some 6,false,false,false,false,false,false⟩],[⟨some .internalNl,true,false,true,some 6,false,false,false,false,false,false⟩],[⟨some (.own 5),true,false,true,some 6,false,false,false,false,false,false⟩,⟨some .internalNl,true,false,true,some 6,false,false,false,false,false,false⟩],[⟨some (.own 5),true,false,true,some 6,false,false,false,false,false,false⟩],[⟨some (.own 5),true,false,true,some 6,false,false,false,false,false,false⟩],[⟨some (.own 5),true,false,true,some 6,false,false,false,false,false,false⟩],[⟨some (.own 5),true,false,true,some 6,false,false,false,false,false,false⟩],[⟨some (.own 5),true,false,true,some 6,false,false,false,false,false,false⟩],[⟨some (.own 5),true,false,true,some 6,false,false,false,false,false,false⟩],[⟨some (.own 5),true,false,true,some 6,false,false,false,false,false,false⟩],[⟨some (.own 5),true,false,true,some 6,false,false,false,false,false,false⟩],[⟨some (.own 5),true,false,true,some 6,false,false,false,false,false,false⟩]]
theorem mxml_w2_closed : closed emb8_rows mxml_w2_tab (XA.init mxml_wopt) (XA.succ mxml_M mxml_wopt 2) (XA.eofOk mxml_M mxml_wopt 2) = true := by
  decide +kernel
def mxml_w2 : XCert mxml_M mxml_wopt 2 := ⟨emb8_D, mxml_w2_tab, mxml_w2_closed⟩
def mxml_w0_tab : List (List XA) := [[⟨none,false,false,false,none,false,false,false,false,false,false⟩],[⟨some (.own 0),false,false,false,some 1,false,false,false,false,false,false⟩],[⟨some .newline,true,false,false,none,false,false,false,false,false,false⟩],[⟨some .newline,true,false,true,some 4,false,false,false,false,false,false⟩],[⟨some (.own 9),true,false,true,some 5,false,false,false,false,false,false⟩],[⟨some (.own 9),true,false,true,some 5,false,false,false,false,false,false⟩],[⟨some (.own 9),true,false,true,some 5,false,false,false,false,false,false⟩],[⟨some (.own 9),true,false,true,some 5,false,false,false,false,false,false⟩],[⟨some (.own 9),true,false,true,some 5,false,false,false,false,false,false⟩,⟨some .internalNl,true,false,true,some 5,false,false,false,false,false,false⟩],[⟨some (.own 9),false,true,true,some 5,false,false,false,false,false,false⟩,⟨some (.own 9),false,false,true,some 5,false,false,false,false,false,false⟩,⟨some .internalNl,false,true,true,some 5,false,false,false,false,false,false⟩,⟨some .internalNl,false,false,true,some 5,false,false,false,false,false,false⟩],[⟨some (.own 9),true,false,true,some 5,false,false,false,false,false,false⟩,⟨some .internalNl,true,false,true,some 5,false,false,false,false,false,false⟩],[⟨some (.own 9),true,false,true,some 5,false,false,false,false,false,false⟩,⟨some .internalNl,true,false,true,some 5,false,false,false,false,false,false⟩],[⟨some (.own 9),true,false,true,some 5,false,false,false,false,false,false⟩,⟨some .internalNl,true,false,true,some 5,false,false,false,false,false,false⟩],[⟨some (.own 9),true,false,true,some 5,false,false,false,false,false,false⟩,⟨some .internalNl,true,false,true,some 5,false,false,false,false,false,false⟩],[⟨some (.own 9),true,false,true,some 5,false,false,false,false,false,false⟩,⟨some .internalNl,true,false,true,some 5,false,false,false,false,false,false⟩],[⟨some (.own 9),true,false,true,some 5,false,false,false,false,false,false⟩,⟨some .internalNl,true,false,true,some 5,false,false,false,false,false,false⟩],[⟨some (.own 9),false,true,true,some 5,false,false,false,false,false,false⟩,⟨some (.own 9),false,false,true,some 5,false,false,false,false,false,false⟩,⟨some .internalNl,false,true,true,some 5,false,false,false,false,false,false⟩,⟨some .internalNl,false,false,true,some 5,false,false,false,false,false,false⟩],[⟨some (.own 9),true,false,true,some 5,false,false,false,false,false,false⟩,⟨some .internalNl,true,false,true,some 5,false,false,false,false,false,false⟩],[⟨some (.own 9),true,false,true,some 5,false,false,false,false,false,false⟩,⟨some .internalNl,true,false,true,some 5,false,false,false,false,false,false⟩],[⟨some (.own 9),true,false,true,some 5,false,false,false,false,false,false⟩,⟨some .internalNl,true,false,true,some 5,false,false,false,false,false,false⟩],[⟨some (.own 9),true,false,true,some 5,false,false,false,false,false,false⟩,⟨some .internalNl,true,false,true,some 5,false,false,false,false,false,false⟩],[⟨some (.own 9),true,false,true,some 5,false,false,false,false,false,false⟩,⟨some .internalNl,true,false,true,some 5,false,false,false,false,false,false⟩],[⟨some (.own 9),true,false,true,some 5,false,false,false,false,false,false⟩],[⟨some (.own 9),true,false,true,some 5,false,false,false,false,false,false⟩],[⟨some .internalNl,true,false,true,some 5,false,false,false,false,false,false⟩,⟨some (.own 9),true,false,true,some 5,false,false,false,false,false,false⟩],[⟨some .internalNl,true,false,true,some 5,false,false,false,false,false,false⟩],[⟨some (.own 9),true,false,true,some 5,false,false,false,false,false,false⟩,⟨some (.own 9),false,true,true,some 5,false,false,false,false,false,false⟩,⟨some .internalNl,true,false,true,some 5,false,false,false,false,false,false⟩,⟨some .internalNl,false,true,true,some 5,false,false,false,false,false,false⟩],[⟨some .internalNl,true,false,true,some 5,false,false,false,false,false,false⟩,⟨some (.own 9),true,false,true,some 5,false,false,false,false,false,false⟩],[⟨some .internalNl,true,false,true,some 5,false,false,false,false,false,false⟩],[⟨some (.own 9),true,false,true,some 5,false,false,false,false,false,false⟩,⟨some (.own 9),false,true,true,some 5,false,false,false,false,false,false⟩,⟨some .internalNl,true,false,true,some 5,false,false,false,false,false,false⟩,⟨some .internalNl,false,true,true,some 5,false,false,false,false,false,false⟩],[⟨some (.own 9),true,false,true,some 5,false,false,false,false,false,false⟩,⟨some .internalNl,true,false,true,some 5,false,false,false,false,false,false⟩],[⟨some (.own 9),false,true,true,some 5,false,false,false,false,false,false⟩,⟨some .internalNl,false,true,true,some 5,false,false,false,false,false,false⟩,⟨some .internalNl,false,false,true,some 5,false,false,false,false,false,false⟩,⟨some (.own 9),false,false,true,some 5,false,false,false,false,false,false⟩],[⟨some (.own 9),true,false,true,some 5,false,false,false,false,false,false⟩,⟨some .internalNl,true,false,true,some 5,false,false,false,false,false,false⟩],[⟨some (.own 9),true,false,true,some 5,false,false,false,false,false,false⟩,⟨some .internalNl,true,false,true,some 5,false,false,false,false,false,false⟩],[⟨some (.own 9),true,false,true,some 5,false,false,false,false,false,false⟩,⟨some .internalNl,true,false,true,some 5,false,false,false,false,false,false⟩],[⟨some (.own 9),true,false,true,some 5,false,false,false,false,false,false⟩,⟨some .internalNl,true,false,true,some 5,false,false,false,false,false,false⟩],[⟨some (.own 9),true,false,true,some 5,false,false,false,false,false,false⟩,⟨some .internalNl,true,false,true,some 5,false,false,false,false,false,false⟩],[⟨some (.own 9),true,false,true,some 5,false,false,false,false,false,false⟩],[⟨some .internalNl,true,false,true,some 5,false,false,false,false,false,false⟩,⟨some (.own 9),true,false,true,some 5,false,false,false,false,false,false⟩],[⟨some .internalNl,true,false,true,some 5,false,false,false,false,false,false⟩],[⟨some (.own 9),true,false,true,some 5,false,false,false,false,false,false⟩],[⟨some (.own 9),true,false,true,some 5,false,false,false,false,false,false⟩],[⟨some (.own 9),true,false,true,some 5,false,false,false,false,false,false⟩],[⟨some (.own 9),true,false,true,some 5,false,false,false,false,false,false⟩],[⟨some (.own 9),true,false,true,some 5,false,false,false,false,false,false⟩],[⟨some (.own 9),true,false,true,some 5,false,false,false,false,false,false⟩],[⟨some (.own 9),true,false,true,some 5,false,false,false,false,false,false⟩]]
theorem mxml_w0_closed : closed emb6_rows mxml_w0_tab (XA.init mxml_wopt) (XA.succ mxml_M mxml_wopt 0) (XA.eofOk mxml_M mxml_wopt 0) = true := by
  decide +kernel
def mxml_w0 : XCert mxml_M mxml_wopt 0 := ⟨emb6_D, mxml_w0_tab, mxml_w0_closed⟩
def mxml_w1_tab : List (List XA) := [[⟨none,false,false,false,none,false,false,false,false,false,false⟩],[⟨some (.own 0),false,false,false,some 1,false,false,false,false,false,false⟩],[⟨some .newline,true,false,false,none,false,false,false,false,false,false⟩],[⟨some .newline,true,false,true,some 4,false,false,false,false,false,false⟩],[⟨some (.own 3),true,false,true,some 5,false,false,false,false,false,false⟩],[⟨some (.own 3),true,false,true,some 5,false,false,false,false,false,false⟩],[⟨some (.own 3),true,false,true,some 5,false,false,false,false,false,false⟩],[⟨some (.own 3),true,false,true,some 5,false,false,false,false,false,false⟩],[⟨some (.own 3),true,false,true,some 5,false,false,false,false,false,false⟩,⟨some (.own 3),false,true,true,some 5,false,false,false,false,false,false⟩,⟨some (.own 3),false,false,true,some 5,false,false,false,false,false,false⟩],[⟨some (.own 3),true,false,true,some 5,false,false,false,false,false,false⟩],[⟨some (.own 3),true,false,true,some 5,false,false,false,false,false,false⟩,⟨some (.own 3),false,true,true,some 5,false,false,false,false,false,false⟩,⟨some (.own 3),false,false,true,some 5,false,false,false,false,false,false⟩],[⟨some (.own 3),true,false,true,some 5,false,false,false,false,false,false⟩],[⟨some (.own 3),true,false,true,some 5,false,false,false,false,false,false⟩],[⟨some (.own 3),true,false,true,some 2,false,false,false,false,false,false⟩],[⟨some (.own 3),true,false,true,some 5,false,false,false,false,false,false⟩],[⟨some (.own 3),true,false,true,some 5,false,false,false,false,false,false⟩],[⟨some (.own 3),true,false,true,some 5,false,false,false,false,false,false⟩,⟨some (.own 3),false,true,true,some 5,false,false,false,false,false,false⟩],[⟨some (.own 3),true,false,true,some 5,false,false,false,false,false,false⟩,⟨some (.own 3),false,true,true,some 5,false,false,false,false,false,false⟩],[⟨some (.own 3),true,false,true,some 5,false,false,false,false,false,false⟩,⟨some .internalNl,true,false,true,some 5,false,false,false,false,false,false⟩],[⟨some (.own 3),false,true,true,some 5,false,false,false,false,false,false⟩,⟨some .internalNl,false,true,true,some 5,false,false,false,false,false,false⟩,⟨some .internalNl,false,false,true,some 5,false,false,false,false,false,false⟩,⟨some (.own 3),false,false,true,some 5,false,false,false,false,false,false⟩],[⟨some (.own 3),true,false,true,some 5,false,false,false,false,false,false⟩,⟨some .internalNl,true,false,true,some 5,false,false,false,false,false,false⟩],[⟨some (.own 3),true,false,true,some 5,false,false,false,false,false,false⟩,⟨some .internalNl,true,false,true,some 5,false,false,false,false,false,false⟩],[⟨some (.own 3),true,false,true,some 5,false,false,false,false,false,false⟩,⟨some .internalNl,true,false,true,some 5,false,false,false,false,false,false⟩],[⟨some (.own 3),true,false,true,some 5,false,false,false,false,false,false⟩,⟨some .internalNl,true,false,true,some 5,false,false,false,false,false,false⟩],[⟨some (.own 3),true,false,true,some 5,false,false,false,false,false,false⟩,⟨some .internalNl,true,false,true,some 5,false,false,false,false,false,false⟩],[⟨some (.own 3),true,false,true,some 2,false,false,false,false,false,false⟩,⟨some (.own 3),false,true,false,some 2,false,false,false,false,false,false⟩,⟨some (.own 3),false,false,false,some 2,false,false,false,false,false,false⟩],[⟨some (.own 3),true,false,true,some 5,false,false,false,false,false,false⟩],[⟨some (.own 3),true,false,true,some 5,false,false,false,false,false,false⟩],[⟨some .internalNl,true,false,true,some 5,false,false,false,false,false,false⟩,⟨some (.own 3),true,false,true,some 5,false,false,false,false,false,false⟩],[⟨some .internalNl,true,false,true,some 5,false,false,false,false,false,false⟩],[⟨some (.own 3),true,false,true,some 5,false,false,false,false,false,false⟩],[⟨some (.own 3),true,false,true,some 5,false,false,false,false,false,false⟩],[⟨some (.own 3),true,false,true,some 5,false,false,false,false,false,false⟩],[⟨some (.own 3),true,false,true,some 5,false,false,false,false,false,false⟩],[⟨some (.own 3),true,false,true,some 5,false,false,false,false,false,false⟩],[⟨some (.own 3),true,false,true,some 5,false,false,false,false,false,false⟩],[⟨some (.own 3),true,false,true,some 5,false,false,false,false,false,false⟩],[⟨some (.own 3),true,false,true,some 5,false,false,false,false,false,false⟩],[⟨some (.own 3),true,false,true,some 5,false,false,false,false,false,false⟩],[⟨some (.own 3),true,false,true,some 5,false,false,false,false,false,false⟩],[⟨some (.own 3),true,false,true,some 5,false,false,false,false,false,false⟩],[⟨some (.own 3),true,false,true,some 5,false,false,false,false,false,false⟩],[⟨some (.own 3),true,false,true,some 5,false,false,false,false,false,false⟩,⟨some .internalNl,true,false,true,some 5,false,false,false,false,false,false⟩],[⟨some (.own 3),false,true,true,some 5,false,false,false,false,false,false⟩,⟨some .internalNl,false,true,true,some 5,false,false,false,false,false,false⟩,⟨some .internalNl,false,false,true,some 5,false,false,false,false,false,false⟩,⟨some (.own 3),false,false,true,some 5,false,false,false,false,false,false⟩],[⟨some (.own 3),true,false,true,some 5,false,false,false,false,false,false⟩,⟨some .internalNl,true,false,true,some 5,false,false,false,false,false,false⟩],[⟨some (.own 3),true,false,true,some 5,false,false,false,false,false,false⟩,⟨some .internalNl,true,false,true,some 5,false,false,false,false,false,false⟩],[⟨some (.own 3),true,false,true,some 5,false,false,false,false,false,false⟩,⟨some .internalNl,true,false,true,some 5,false,false,false,false,false,false⟩],[⟨some (.own 3),true,false,true,some 5,false,false,false,false,false,false⟩,⟨some .internalNl,true,false,true,some 5,false,false,false,false,false,false⟩],[⟨some (.own 3),true,false,true,some 5,false,false,false,false,false,false⟩,⟨some .internalNl,true,false,true,some 5,false,false,false,false,false,false⟩],[⟨some (.own 3),true,false,true,some 5,false,false,false,false,false,false⟩],[⟨some .internalNl,true,false,true,some 5,false,false,false,false,false,false⟩,⟨some (.own 3),true,false,true,some 5,false,false,false,false,false,false⟩],[⟨some .internalNl,true,false,true,some 5,false,false,false,false,false,false⟩],[⟨some (.own 3),true,false,true,some 5,false,false,false,false,false,false⟩,⟨some .internalNl,true,false,true,some 5,false,false,false,false,false,false⟩],[⟨some (.own 3),true,false,true,some 5,false,false,false,false,false,false⟩]]
theorem mxml_w1_closed : closed emb7_rows mxml_w1_tab (XA.init mxml_wopt) (XA.succ mxml_M mxml_wopt 1) (XA.eofOk mxml_M mxml_wopt 1) = true := by
  decide +kernel
def mxml_w1 : XCert mxml_M mxml_wopt 1 := ⟨emb7_D, mxml_w1_tab, mxml_w1_closed⟩
theorem mxml_solid : ∀ m ∈ mxml_wopt.use, Nonempty (XCert mxml_M mxml_wopt m) :=
  (List.forall_mem_cons.mpr ⟨⟨mxml_w2⟩,
  (List.forall_mem_cons.mpr ⟨⟨mxml_w0⟩,
  (List.forall_mem_cons.mpr ⟨⟨mxml_w1⟩,
  (fun _ h => nomatch h)⟩)⟩)⟩)

def nix_wopt : WOpt := ⟨false, false, [2, 0, 1]⟩
def nix_w2_tab : List (List XA) := [[⟨none,false,false,false,none,false,false,false,false,false,false⟩],[⟨some (.own 0),false,false,false,some 2,false,false,false,false,false,false⟩],[⟨some .newline,true,false,false,none,false,false,false,false,false,false⟩],[⟨some .newline,true,false,true,some 4,false,false,false,false,false,false⟩],[⟨some (.own 2),true,false,true,some 3,false,false,false,false,false,false⟩],[⟨some (.own 2),true,false,true,some 5,false,false,false,false,false,false⟩],[⟨some (.own 2),true,false,true,some 5,false,false,false,false,false,false⟩],[⟨some (.own 2),true,false,true,some 3,false,false,false,false,false,false⟩,⟨some (.own 2),false,true,false,some 3,false,false,false,false,false,false⟩,⟨some (.own 2),false,false,false,some 3,false,false,false,false,false,false⟩],[⟨some (.own 2),true,false,true,some 5,false,false,false,false,false,false⟩],[⟨some (.own 2),true,false,true,some 5,false,false,false,false,false,false⟩,⟨some .internalNl,true,false,true,some 5,false,false,false,false,false,false⟩],[⟨some (.own 2),false,true,true,some 5,false,false,false,false,false,false⟩,⟨some .internalNl,false,true,true,some 5,false,false,false,false,false,false⟩,⟨some .internalNl,false,false,true,some 5,false,false,false,false,false,false⟩,⟨some (.own 2),false,false,true,some 5,false,false,false,false,false,false⟩],[⟨some (.own 2),true,false,true,some 5,false,false,false,false,false,false⟩,⟨some .internalNl,true,false,true,some 5,false,false,false,false,false,false⟩],[⟨some (.own 2),true,false,true,some 5,false,false,false,false,false,false⟩,⟨some .internalNl,true,false,true,some 5,false,false,false,false,false,false⟩],[⟨some (.own 2),true,false,true,some 5,false,false,false,false,false,false⟩,⟨some .internalNl,true,false,true,some 5,false,false,false,false,false,false⟩],[⟨some (.own 2),true,false,true,some 5,false,false,false,false,false,false⟩,⟨some .internalNl,true,false,true,some 5,false,false,false,false,false,false⟩],[⟨some (.own 2),true,false,true,some 5,false,false,false,false,false,false⟩,⟨some .internalNl,true,false,true,some 5,false,false,false,false,false,false⟩],[⟨some .internalNl,true,false,true,some 5,false,false,false,false,false,false⟩,⟨some (.own 2),true,false,true,some 5,false,false,false,false,false,false⟩],[⟨some .internalNl,true,false,true,some 5,false,false,false,false,false,false⟩]]
theorem nix_w2_closed : closed emb14_rows nix_w2_tab (XA.init nix_wopt) (XA.succ nix_M nix_wopt 2) (XA.eofOk nix_M nix_wopt 2) = true := by
  decide +kernel
def nix_w2 : XCert nix_M nix_wopt 2 := ⟨emb14_D, nix_w2_tab, nix_w2_closed⟩
def nix_w0_tab : List (List XA) := [[⟨none,false,false,false,none,false,false,false,false,false,false⟩],[⟨some (.own 0),false,false,false,some 1,false,false,false,false,false,false⟩],[⟨some .newline,true,false,false,none,false,false,false,false,false,false⟩],[⟨some .newline,true,false,true,some 4,false,false,false,false,false,false⟩],[],[⟨some (.own 3),true,false,true,some 2,false,false,false,false,false,false⟩],[⟨some (.own 3),true,false,true,some 5,false,false,false,false,false,false⟩],[],[],[],[],[],[],[],[⟨some (.own 3),true,false,true,some 2,false,false,false,false,false,false⟩,⟨some (.own 3),false,true,false,some 2,false,false,false,false,false,false⟩,⟨some (.own 3),false,false,false,some 2,false,false,false,false,false,false⟩],[⟨some (.own 3),true,false,true,some 5,false,false,false,false,false,false⟩,⟨some .internalNl,true,false,true,some 5,false,false,false,false,false,false⟩],[⟨some (.own 3),false,true,true,some 5,false,false,false,false,false,false⟩,⟨some .internalNl,false,true,true,some 5,false,false,false,false,false,false⟩,⟨some .internalNl,false,false,true,some 5,false,false,false,false,false,false⟩,⟨some (.own 3),false,false,true,some 5,false,false,false,false,false,false⟩],[⟨some (.own 3),true,false,true,some 5,false,false,false,false,false,false⟩,⟨some .internalNl,true,false,true,some 5,false,false,false,false,false,false⟩],[⟨some (.own 3),true,false,true,some 5,false,false,false,false,false,false⟩,⟨some .internalNl,true,false,true,some 5,false,false,false,false,false,false⟩],[⟨some (.own 3),true,false,true,some 5,false,false,false,false,false,false⟩,⟨some .internalNl,true,false,true,some 5,false,false,false,false,false,false⟩],[⟨some (.own 3),true,false,true,some 5,false,false,false,false,false,false⟩,⟨some .internalNl,true,false,true,some 5,false,false,false,false,false,false⟩],[⟨some (.own 3),true,false,true,some 5,false,false,false,false,false,false⟩,⟨some .internalNl,true,false,true,some 5,false,false,false,false,false,false⟩],[],[],[],[],[],[],[],[⟨some .internalNl,true,false,true,some 5,false,false,false,false,false,false⟩,⟨some (.own 3),true,false,true,some 5,false,false,false,false,false,false⟩],[⟨some .internalNl,true,false,true,some 5,false,false,false,false,false,false⟩],[⟨some (.own 3),true,false,true,some 5,false,false,false,false,false,false⟩,⟨some (.own 3),false,true,true,some 5,false,false,false,false,false,false⟩,⟨some .internalNl,true,false,true,some 5,false,false,false,false,false,false⟩,⟨some .internalNl,false,true,true,some 5,false,false,false,false,false,false⟩],[⟨some (.own 3),true,false,true,some 5,false,false,false,false,false,false⟩,⟨some .internalNl,true,false,true,some 5,false,false,false,false,false,false⟩],[⟨some (.own 3),true,false,true,some 5,false,false,false,false,false,false⟩,⟨some .internalNl,true,false,true,some 5,false,false,false,false,false,false⟩],[⟨some (.own 3),true,false,true,some 5,false,false,false,false,false,false⟩,⟨some .internalNl,true,false,true,some 5,false,false,false,false,false,false⟩],[⟨some (.own 3),true,false,true,some 5,false,false,false,false,false,false⟩,⟨some .internalNl,true,false,true,some 5,false,false,false,false,false,false⟩],[],[],[⟨some .internalNl,true,false,true,some 5,false,false,false,false,false,false⟩,⟨some (.own 3),true,false,true,some 5,false,false,false,false,false,false⟩],[⟨some .internalNl,true,false,true,some 5,false,false,false,false,false,false⟩]]
theorem nix_w0_closed : closed emb12_rows nix_w0_tab (XA.init nix_wopt) (XA.succ nix_M nix_wopt 0) (XA.eofOk nix_M nix_wopt 0) = true := by
  decide +kernel
def nix_w0 : XCert nix_M nix_wopt 0 := ⟨emb12_D, nix_w0_tab, nix_w0_closed⟩
def nix_w1_tab : List (List XA) := [[⟨none,false,false,false,none,false,false,false,false,false,false⟩],[⟨some (.own 0),false,false,false,some 1,false,false,false,false,false,false⟩],[⟨some .newline,true,false,false,none,false,false,false,false,false,false⟩],[⟨some .newline,true,false,true,some 4,false,false,false,false,false,false⟩],[⟨some (.own 3),true,false,true,some 5,false,false,false,false,false,false⟩],[⟨some (.own 3),true,false,true,some 2,false,false,false,false,false,false⟩],[⟨some (.own 3),true,false,true,some 5,false,false,false,false,false,false⟩],[⟨some (.own 3),true,false,true,some 5,false,false,false,false,false,false⟩,⟨some .internalNl,true,false,true,some 5,false,false,false,false,false,false⟩],[⟨some (.own 3),false,true,true,some 5,false,false,false,false,false,false⟩,⟨some .internalNl,false,true,true,some 5,false,false,false,false,false,false⟩,⟨some .internalNl,false,false,true,some 5,false,false,false,false,false,false⟩,⟨some (.own 3),false,false,true,some 5,false,false,false,false,false,false⟩],[⟨some (.own 3),true,false,true,some 5,false,false,false,false,false,false⟩,⟨some .internalNl,true,false,true,some 5,false,false,false,false,false,false⟩],[⟨some (.own 3),true,false,true,some 5,false,false,false,false,false,false⟩,⟨some .internalNl,true,false,true,some 5,false,false,false,false,false,false⟩],[⟨some (.own 3),true,false,true,some 5,false,false,false,false,false,false⟩,⟨some .internalNl,true,false,true,some 5,false,false,false,false,false,false⟩],[⟨some (.own 3),true,false,true,some 5,false,false,false,false,false,false⟩,⟨some .internalNl,true,false,true,some 5,false,false,false,false,false,false⟩],[⟨some (.own 3),true,false,true,some 5,false,false,false,false,false,false⟩,⟨some .internalNl,true,false,true,some 5,false,false,false,false,false,false⟩],[⟨some (.own 3),true,false,true,some 2,false,false,false,false,false,false⟩,⟨some (.own 3),false,true,false,some 2,false,false,false,false,false,false⟩,⟨some (.own 3),false,false,false,some 2,false,false,false,false,false,false⟩],[⟨some (.own 3),true,false,true,some 5,false,false,false,false,false,false⟩,⟨some .internalNl,true,false,true,some 5,false,false,false,false,false,false⟩],[⟨some (.own 3),false,true,true,some 5,false,false,false,false,false,false⟩,⟨some .internalNl,false,true,true,some 5,false,false,false,false,false,false⟩,⟨some .internalNl,false,false,true,some 5,false,false,false,false,false,false⟩,⟨some (.own 3),false,false,true,some 5,false,false,false,false,false,false⟩],[⟨some (.own 3),true,false,true,some 5,false,false,false,false,false,false⟩,⟨some .internalNl,true,false,true,some 5,false,false,false,false,false,false⟩],[⟨some (.own 3),true,false,true,some 5,false,false,false,false,false,false⟩,⟨some .internalNl,true,false,true,some 5,false,false,false,false,false,false⟩],[⟨some (.own 3),true,false,true,some 5,false,false,false,false,false,false⟩,⟨some .internalNl,true,false,true,some 5,false,false,false,false,false,false⟩],[⟨some (.own 3),true,false,true,some 5,false,false,false,false,false,false⟩,⟨some .internalNl,true,false,true,some 5,false,false,false,false,false,false⟩],[⟨some (.own 3),true,false,true,some 5,false,false,false,false,false,false⟩,⟨some .internalNl,true,false,true,some 5,false,false,false,false,false,false⟩],[⟨some .internalNl,true,false,true,some 5,false,false,false,false,false,false⟩,⟨some (.own 3),true,false,true,some 5,false,false,false,false,false,false⟩],[⟨some .internalNl,true,false,true,some 5,false,false,false,false,false,false⟩],[⟨some (.own 3),true,false,true,some 5,false,false,false,false,false,false⟩,⟨some (.own 3),false,true,true,some 5,false,false,false,false,false,false⟩,⟨some .internalNl,true,false,true,some 5,false,false,false,false,false,false⟩,⟨some .internalNl,false,true,true,some 5,false,false,false,false,false,false⟩],[⟨some (.own 3),true,false,true,some 5,false,false,false,false,false,false⟩,⟨some .internalNl,true,false,true,some 5,false,false,false,false,false,false⟩],[⟨some (.own 3),true,false,true,some 5,false,false,false,false,false,false⟩,⟨some .internalNl,true,false,true,some 5,false,false,false,false,false,false⟩],[⟨some (.own 3),true,false,true,some 5,false,false,false,false,false,false⟩,⟨some .internalNl,true,false,true,some 5,false,false,false,false,false,false⟩],[⟨some (.own 3),true,false,true,some 5,false,false,false,false,false,false⟩,⟨some .internalNl,true,false,true,some 5,false,false,false,false,false,false⟩],[⟨some .internalNl,true,false,true,some 5,false,false,false,false,false,false⟩,⟨some (.own 3),true,false,true,some 5,false,false,false,false,false,false⟩],[⟨some .internalNl,true,false,true,some 5,false,false,false,false,false,false⟩],[⟨some (.own 3),true,false,true,some 5,false,false,false,false,false,false⟩,⟨some (.own 3),false,true,true,some 5,false,false,false,false,false,false⟩,⟨some .internalNl,true,false,true,some 5,false,false,false,false,false,false⟩,⟨some .internalNl,false,true,true,some 5,false,false,false,false,false,false⟩],[⟨some (.own 3),true,false,true,some 5,false,false,false,false,false,false⟩,⟨some .internalNl,true,false,true,some 5,false,false,false,false,false,false⟩],[⟨some (.own 3),true,false,true,some 5,false,false,false,false,false,false⟩,⟨some .internalNl,true,false,true,some 5,false,false,false,false,false,false⟩],[⟨some (.own 3),true,false,true,some 5,false,false,false,false,false,false⟩,⟨some .internalNl,true,false,true,some 5,false,false,false,false,false,false⟩],[⟨some (.own 3),true,false,true,some 5,false,false,false,false,false,false⟩,⟨some .internalNl,true,false,true,some 5,false,false,false,false,false,false⟩],[⟨some .internalNl,true,false,true,some 5,false,false,false,false,false,false⟩,⟨some (.own 3),true,false,true,some 5,false,false,false,false,false,false⟩],[⟨some .internalNl,true,false,true,some 5,false,false,false,false,false,false⟩],[⟨some .internalNl,true,false,true,some 5,false,false,false,false,false,false⟩,⟨some (.own 3),true,false,true,some 5,false,false,false,false,false,false⟩],[⟨some .internalNl,true,false,true,some 5,false,false,false,false,false,false⟩]]
theorem nix_w1_closed : closed emb13_rows nix_w1_tab (XA.init nix_wopt) (XA.succ nix_M nix_wopt 1) (XA.eofOk nix_M nix_wopt 1) = true := by
  decide +kernel
def nix_w1 : XCert nix_M nix_wopt 1 := ⟨emb13_D, nix_w1_tab, nix_w1_closed⟩
theorem nix_solid : ∀ m ∈ nix_wopt.use, Nonempty (XCert nix_M nix_wopt m) :=
  (List.forall_mem_cons.mpr ⟨⟨nix_w2⟩,
  (List.forall_mem_cons.mpr ⟨⟨nix_w0⟩,
  (List.forall_mem_cons.mpr ⟨⟨nix_w1⟩,
  (fun _ h => nomatch h)⟩)⟩)⟩)

def coffeescript_wopt : WOpt := ⟨true, false, [1, 0]⟩
def coffeescript_w1_tab : List (List XA) := [[⟨none,false,false,false,none,true,false,false,false,false,false⟩],[⟨some (.own 0),false,false,false,some 1,false,false,true,false,false,false⟩],[⟨some .newline,true,false,false,none,false,false,false,false,false,false⟩],[⟨some .newline,true,false,true,some 4,false,false,true,false,false,false⟩],[⟨some (.own 3),true,false,true,some 5,false,false,true,false,false,false⟩],[⟨some (.own 3),true,false,true,some 2,false,false,true,false,false,false⟩],[⟨some (.own 3),true,false,true,some 5,false,false,true,false,false,false⟩],[⟨some (.own 3),true,false,true,some 5,false,false,false,false,false,false⟩,⟨some .internalNl,true,false,true,some 5,false,false,false,false,false,false⟩,⟨some .internalNl,true,false,true,some 5,false,false,false,true,false,false⟩],[⟨some (.own 3),false,true,true,some 5,false,false,false,false,false,false⟩,⟨some (.own 3),false,false,true,some 5,false,false,false,false,false,false⟩,⟨some .internalNl,false,true,true,some 5,false,false,false,false,false,false⟩,⟨some .internalNl,false,false,true,some 5,false,false,false,false,false,false⟩,⟨some .internalNl,false,true,true,some 5,false,false,false,true,false,false⟩,⟨some .internalNl,false,false,true,some 5,false,false,false,true,false,false⟩],[⟨some (.own 3),true,false,true,some 5,false,false,false,true,false,false⟩,⟨some (.own 3),true,false,true,some 5,false,false,false,false,false,false⟩,⟨some .internalNl,true,false,true,some 5,false,false,false,false,false,false⟩,⟨some .internalNl,true,false,true,some 5,false,false,false,true,false,false⟩],[⟨some (.own 3),true,false,true,some 5,false,false,false,true,false,false⟩,⟨some (.own 3),true,false,true,some 5,false,false,false,false,false,false⟩,⟨some .internalNl,true,false,true,some 5,false,false,false,false,false,false⟩,⟨some .internalNl,true,false,true,some 5,false,false,false,true,false,false⟩],[⟨some (.own 3),true,false,true,some 5,false,false,false,true,false,false⟩,⟨some (.own 3),true,false,true,some 5,false,false,false,false,false,false⟩,⟨some .internalNl,true,false,true,some 5,false,false,false,false,false,false⟩,⟨some .internalNl,true,false,true,some 5,false,false,false,true,false,false⟩],[⟨some (.own 3),true,false,true,some 5,false,false,false,true,false,false⟩,⟨some (.own 3),true,false,true,some 5,false,false,false,false,false,false⟩,⟨some .internalNl,true,false,true,some 5,false,false,false,false,false,false⟩,⟨some .internalNl,true,false,true,some 5,false,false,false,true,false,false⟩],[⟨some (.own 3),true,false,true,some 3,false,false,true,false,false,false⟩],[⟨some (.own 3),true,false,true,some 5,false,false,false,false,false,false⟩,⟨some .internalNl,true,false,true,some 5,false,false,false,false,false,false⟩,⟨some .internalNl,true,false,true,some 5,false,false,false,true,false,false⟩],[⟨some (.own 3),true,false,true,some 2,false,false,true,false,false,false⟩,⟨some (.own 3),false,true,false,some 2,false,false,true,false,false,false⟩,⟨some (.own 3),false,false,false,some 2,false,false,true,false,false,false⟩],[⟨some (.own 3),true,false,true,some 2,false,false,true,false,false,false⟩],[⟨some (.own 3),true,false,true,some 5,false,false,false,false,false,false⟩,⟨some .internalNl,true,false,true,some 5,false,false,false,false,false,false⟩,⟨some .internalNl,true,false,true,some 5,false,false,false,true,false,false⟩],[⟨some (.own 3),false,true,true,some 5,false,false,false,false,false,false⟩,⟨some (.own 3),false,false,true,some 5,false,false,false,false,false,false⟩,⟨some .internalNl,false,true,true,some 5,false,false,false,false,false,false⟩,⟨some .internalNl,false,false,true,some 5,false,false,false,false,false,false⟩,⟨some .internalNl,false,true,true,some 5,false,false,false,true,false,false⟩,⟨some .internalNl,false,false,true,some 5,false,false,false,true,false,false⟩],[⟨some (.own 3),true,false,true,some 5,false,false,false,true,false,false⟩,⟨some (.own 3),true,false,true,some 5,false,false,false,false,false,false⟩,⟨some .internalNl,true,false,true,some 5,false,false,false,false,false,false⟩,⟨some .internalNl,true,false,true,some 5,false,false,false,true,false,false⟩],[⟨some (.own 3),true,false,true,some 5,false,false,false,true,false,false⟩,⟨some (.own 3),true,false,true,some 5,false,false,false,false,false,false⟩,⟨some .internalNl,true,false,true,some 5,false,false,false,false,false,false⟩,⟨some .internalNl,true,false,true,some 5,false,false,false,true,false,false⟩],[⟨some (.own 3),true,false,true,some 5,false,false,false,true,false,false⟩,⟨some (.own 3),true,false,true,some 5,false,false,false,false,false,false⟩,⟨some .internalNl,true,false,true,some 5,false,false,false,false,false,false⟩,⟨some .internalNl,true,false,true,some 5,false,false,false,true,false,false⟩],[⟨some (.own 3),true,false,true,some 5,false,false,false,true,false,false⟩,⟨some (.own 3),true,false,true,some 5,false,false,false,false,false,false⟩,⟨some .internalNl,true,false,true,some 5,false,false,false,false,false,false⟩,⟨some .internalNl,true,false,true,some 5,false,false,false,true,false,false⟩],[⟨some (.own 3),true,false,true,some 3,false,false,true,false,false,false⟩],[⟨some (.own 3),true,false,true,some 5,false,false,false,false,false,false⟩,⟨some .internalNl,true,false,true,some 5,false,false,false,false,false,false⟩,⟨some .internalNl,true,false,true,some 5,false,false,false,true,false,false⟩],[⟨some .internalNl,true,false,true,some 5,false,false,false,false,false,false⟩,⟨some (.own 3),true,false,true,some 5,false,false,false,false,false,false⟩,⟨some .internalNl,true,false,true,some 5,false,false,false,true,false,false⟩,⟨some (.own 3),true,false,true,some 5,false,false,false,true,false,false⟩],[⟨some .internalNl,true,false,true,some 5,false,false,false,false,false,false⟩,⟨some .internalNl,true,false,true,some 5,false,false,false,true,false,false⟩],[⟨some (.own 3),true,false,true,some 3,false,false,false,false,false,false⟩],[⟨some (.own 3),true,false,true,some 5,false,false,false,false,false,false⟩,⟨some (.own 3),false,true,true,some 5,false,false,false,false,false,false⟩,⟨some .internalNl,true,false,true,some 5,false,false,false,false,false,false⟩,⟨some .internalNl,false,true,true,some 5,false,false,false,false,false,false⟩,⟨some .internalNl,true,false,true,some 5,false,false,false,true,false,false⟩,⟨some .internalNl,false,true,true,some 5,false,false,false,true,false,false⟩],[⟨some (.own 3),true,false,true,some 2,false,false,true,false,false,false⟩],[⟨some .internalNl,true,false,true,some 5,false,false,false,false,false,false⟩,⟨some (.own 3),true,false,true,some 5,false,false,false,false,false,false⟩,⟨some .internalNl,true,false,true,some 5,false,false,false,true,false,false⟩,⟨some (.own 3),true,false,true,some 5,false,false,false,true,false,false⟩],[⟨some .internalNl,true,false,true,some 5,false,false,false,false,false,false⟩,⟨some .internalNl,true,false,true,some 5,false,false,false,true,false,false⟩],[⟨some (.own 3),true,false,true,some 3,false,false,false,false,false,false⟩],[⟨some (.own 3),true,false,true,some 5,false,false,false,false,false,false⟩,⟨some (.own 3),false,true,true,some 5,false,false,false,false,false,false⟩,⟨some .internalNl,true,false,true,some 5,false,false,false,false,false,false⟩,⟨some .internalNl,false,true,true,some 5,false,false,false,false,false,false⟩,⟨some .internalNl,true,false,true,some 5,false,false,false,true,false,false⟩,⟨some .internalNl,false,true,true,some 5,false,false,false,true,false,false⟩],[⟨some (.own 3),true,false,true,some 3,false,false,false,false,false,false⟩,⟨some .internalNl,true,false,true,some 3,false,false,false,false,false,false⟩],[⟨some (.own 3),false,true,true,some 3,false,false,false,false,false,false⟩,⟨some .internalNl,false,true,true,some 3,false,false,false,false,false,false⟩,⟨some .internalNl,false,false,true,some 3,false,false,false,false,false,false⟩,⟨some (.own 3),false,false,true,some 3,false,false,false,false,false,false⟩],[⟨some (.own 3),true,false,true,some 3,false,false,false,false,false,false⟩,⟨some .internalNl,true,false,true,some 3,false,false,false,false,false,false⟩],[⟨some (.own 3),true,false,true,some 3,false,false,false,false,false,false⟩,⟨some .internalNl,true,false,true,some 3,false,false,false,false,false,false⟩],[⟨some (.own 3),true,false,true,some 3,false,false,false,false,false,false⟩,⟨some .internalNl,true,false,true,some 3,false,false,false,false,false,false⟩],[⟨some (.own 3),true,false,true,some 3,false,false,false,false,false,false⟩,⟨some .internalNl,true,false,true,some 3,false,false,false,false,false,false⟩],[⟨some (.own 3),true,false,true,some 3,false,false,false,false,false,false⟩,⟨some .internalNl,true,false,true,some 3,false,false,false,false,false,false⟩],[⟨some (.own 3),true,false,true,some 2,false,false,true,false,false,false⟩],[⟨some (.own 3),false,true,false,some 2,false,false,true,false,false,false⟩,⟨some (.own 3),false,false,false,some 2,false,false,true,false,false,false⟩],[⟨some (.own 3),true,false,true,some 2,false,false,false,true,false,false⟩,⟨some .internalNl,true,false,true,some 2,false,false,false,true,false,false⟩,⟨some (.own 3),true,false,false,some 2,false,false,false,true,false,false⟩,⟨some .internalNl,true,false,false,some 2,false,false,false,true,false,false⟩],[⟨some (.own 3),true,false,true,some 2,false,false,false,true,false,false⟩,⟨some .internalNl,true,false,true,some 2,false,false,false,true,false,false⟩,⟨some (.own 3),true,false,false,some 2,false,false,false,true,false,false⟩,⟨some .internalNl,true,false,false,some 2,false,false,false,true,false,false⟩],[⟨some (.own 3),true,false,true,some 2,false,false,false,true,false,false⟩,⟨some .internalNl,true,false,true,some 2,false,false,false,true,false,false⟩,⟨some (.own 3),true,false,false,some 2,false,false,false,true,false,false⟩,⟨some .internalNl,true,false,false,some 2,false,false,false,true,false,false⟩],[⟨some (.own 3),true,false,true,some 2,false,false,false,true,false,false⟩,⟨some .internalNl,true,false,true,some 2,false,false,false,true,false,false⟩,⟨some (.own 3),true,false,false,some 2,false,false,false,true,false,false⟩,⟨some .internalNl,true,false,false,some 2,false,false,false,true,false,false⟩],[⟨some (.own 3),true,false,true,some 2,false,false,true,false,false,false⟩],[⟨some (.own 3),true,false,true,some 3,false,false,false,false,false,false⟩,⟨some .internalNl,true,false,true,some 3,false,false,false,false,false,false⟩],[⟨some (.own 3),false,true,true,some 3,false,false,false,false,false,false⟩,⟨some .internalNl,false,true,true,some 3,false,false,false,false,false,false⟩,⟨some .internalNl,false,false,true,some 3,false,false,false,false,false,false⟩,⟨some (.own 3),false,false,true,some 3,false,false,false,false,false,false⟩],[⟨some (.own 3),true,false,true,some 3,false,false,false,false,false,false⟩,⟨some .internalNl,true,false,true,some 3,false,false,false,false,false,false⟩],[⟨some (.own 3),true,false,true,some 3,false,false,false,false,false,false⟩,⟨some .internalNl,true,false,true,some 3,false,false,false,false,false,false⟩],[⟨some (.own 3),true,false,true,some 3,false,false,false,false,false,false⟩,⟨some .internalNl,true,false,true,some 3,false,false,false,false,false,false⟩],[⟨some (.own 3),true,false,true,some 3,false,false,false,false,false,false⟩,⟨some .internalNl,true,false,true,some 3,false,false,false,false,false,false⟩],[⟨some (.own 3),true,false,true,some 3,false,false,false,false,false,false⟩,⟨some .internalNl,true,false,true,some 3,false,false,false,false,false,false⟩],[⟨some .internalNl,true,false,true,some 3,false,false,false,false,false,false⟩,⟨some (.own 3),true,false,true,some 3,false,false,false,false,false,false⟩],[⟨some .internalNl,true,false,true,some 3,false,false,false,false,false,false⟩],[⟨some (.own 3),true,false,true,some 3,false,false,false,false,false,false⟩,⟨some .internalNl,true,false,true,some 3,false,false,false,false,false,false⟩],[⟨some .internalNl,true,false,true,some 2,false,false,false,true,false,false⟩,⟨some .internalNl,true,false,false,some 2,false,false,false,true,false,false⟩],[⟨some .internalNl,false,true,true,some 2,false,false,false,true,false,false⟩,⟨some .internalNl,false,false,true,some 2,false,false,false,true,false,false⟩,⟨some .internalNl,false,true,false,some 2,false,false,false,true,false,false⟩,⟨some .internalNl,false,false,false,some 2,false,false,false,true,false,false⟩],[⟨some .internalNl,true,false,true,some 2,false,false,false,true,false,false⟩,⟨some .internalNl,true,false,false,some 2,false,false,false,true,false,false⟩],[⟨some .internalNl,true,false,true,some 2,false,false,false,true,false,false⟩,⟨some (.own 3),true,false,true,some 2,false,false,false,true,false,false⟩,⟨some .internalNl,true,false,false,some 2,false,false,false,true,false,false⟩,⟨some (.own 3),true,false,false,some 2,false,false,false,true,false,false⟩],[⟨some .internalNl,true,false,true,some 2,false,false,false,true,false,false⟩,⟨some .internalNl,true,false,false,some 2,false,false,false,true,false,false⟩],[⟨some (.own 3),true,false,true,some 2,false,false,true,false,false,false⟩],[⟨some .internalNl,true,false,true,some 3,false,false,false,false,false,false⟩,⟨some (.own 3),true,false,true,some 3,false,false,false,false,false,false⟩],[⟨some .internalNl,true,false,true,some 3,false,false,false,false,false,false⟩],[⟨some (.own 3),true,false,true,some 3,false,false,false,false,false,false⟩,⟨some .internalNl,true,false,true,some 3,false,false,false,false,false,false⟩],[⟨some (.own 3),true,false,true,some 3,false,false,true,false,false,false⟩,⟨some .internalNl,true,false,true,some 3,false,false,true,false,false,false⟩],[⟨some .internalNl,true,false,true,some 2,false,false,false,true,false,false⟩,⟨some .internalNl,true,false,false,some 2,false,false,false,true,false,false⟩],[⟨some (.own 3),true,false,true,some 2,false,false,true,false,false,false⟩],[⟨some (.own 3),true,false,true,some 3,false,false,true,false,false,false⟩,⟨some .internalNl,true,false,true,some 3,false,false,true,false,false,false⟩],[⟨some .internalNl,true,false,true,some 2,false,false,true,false,false,false⟩],[⟨some (.own 3),true,false,true,some 2,false,false,true,false,false,false⟩]]
theorem coffeescript_w1_closed : closed emb19_rows coffeescript_w1_tab (XA.init coffeescript_wopt) (XA.succ coffeescript_M coffeescript_wopt 1) (XA.eofOk coffeescript_M coffeescript_wopt 1) = true := by
  decide +kernel
def coffeescript_w1 : XCert coffeescript_M coffeescript_wopt 1 := ⟨emb19_D, coffeescript_w1_tab, coffeescript_w1_closed⟩
def coffeescript_w0_tab : List (List XA) := [[⟨none,false,false,false,none,true,false,false,false,false,false⟩],[⟨some (.own 0),false,false,false,some 1,false,false,true,false,false,false⟩],[⟨some .newline,true,false,false,none,false,false,false,false,false,false⟩],[⟨some .newline,true,false,true,some 4,false,false,true,false,false,false⟩],[⟨some (.own 7),true,false,true,some 5,false,false,true,false,false,false⟩],[⟨some (.own 7),true,false,true,some 5,false,false,true,false,false,false⟩],[⟨some (.own 7),true,false,true,some 5,false,false,true,false,false,false⟩],[⟨some (.own 7),true,false,true,some 5,false,false,false,false,false,false⟩,⟨some (.own 7),true,false,true,some 5,false,false,false,true,false,false⟩,⟨some .internalNl,true,false,true,some 5,false,false,false,false,false,false⟩,⟨some .internalNl,true,false,true,some 5,false,false,false,true,false,false⟩],[⟨some (.own 7),false,true,true,some 5,false,false,false,false,false,false⟩,⟨some .internalNl,false,true,true,some 5,false,false,false,false,false,false⟩,⟨some .internalNl,false,false,true,some 5,false,false,false,false,false,false⟩,⟨some (.own 7),false,false,true,some 5,false,false,false,false,false,false⟩,⟨some (.own 7),false,true,true,some 5,false,false,false,true,false,false⟩,⟨some .internalNl,false,true,true,some 5,false,false,false,true,false,false⟩,⟨some .internalNl,false,false,true,some 5,false,false,false,true,false,false⟩,⟨some (.own 7),false,false,true,some 5,false,false,false,true,false,false⟩],[⟨some (.own 7),true,false,true,some 5,false,false,false,false,false,false⟩,⟨some .internalNl,true,false,true,some 5,false,false,false,false,false,false⟩,⟨some (.own 7),true,false,true,some 5,false,false,false,true,false,false⟩,⟨some .internalNl,true,false,true,some 5,false,false,false,true,false,false⟩],[⟨some (.own 7),true,false,true,some 5,false,false,false,false,false,false⟩,⟨some (.own 7),true,false,true,some 5,false,false,false,true,false,false⟩,⟨some .internalNl,true,false,true,some 5,false,false,false,false,false,false⟩,⟨some .internalNl,true,false,true,some 5,false,false,false,true,false,false⟩],[⟨some (.own 7),false,true,true,some 5,false,false,false,false,false,false⟩,⟨some .internalNl,false,true,true,some 5,false,false,false,false,false,false⟩,⟨some .internalNl,false,false,true,some 5,false,false,false,false,false,false⟩,⟨some (.own 7),false,false,true,some 5,false,false,false,false,false,false⟩,⟨some (.own 7),false,true,true,some 5,false,false,false,true,false,false⟩,⟨some .internalNl,false,true,true,some 5,false,false,false,true,false,false⟩,⟨some .internalNl,false,false,true,some 5,false,false,false,true,false,false⟩,⟨some (.own 7),false,false,true,some 5,false,false,false,true,false,false⟩],[⟨some (.own 7),true,false,true,some 5,false,false,false,false,false,false⟩,⟨some .internalNl,true,false,true,some 5,false,false,false,false,false,false⟩,⟨some (.own 7),true,false,true,some 5,false,false,false,true,false,false⟩,⟨some .internalNl,true,false,true,some 5,false,false,false,true,false,false⟩],[⟨some (.own 7),true,false,true,some 5,false,false,false,false,false,false⟩,⟨some (.own 7),false,true,true,some 5,false,false,false,false,false,false⟩,⟨some (.own 7),true,false,true,some 5,false,false,false,true,false,false⟩],[⟨some (.own 7),true,false,true,some 5,false,false,false,false,false,false⟩],[⟨some (.own 7),true,false,true,some 2,false,false,true,false,false,false⟩],[⟨some (.own 7),true,false,true,some 5,false,false,false,false,false,false⟩,⟨some (.own 7),false,true,true,some 5,false,false,false,false,false,false⟩,⟨some .internalNl,true,false,true,some 5,false,false,false,false,false,false⟩,⟨some .internalNl,false,true,true,some 5,false,false,false,false,false,false⟩,⟨some (.own 7),true,false,true,some 5,false,false,false,true,false,false⟩,⟨some (.own 7),false,true,true,some 5,false,false,false,true,false,false⟩,⟨some .internalNl,true,false,true,some 5,false,false,false,true,false,false⟩,⟨some .internalNl,false,true,true,some 5,false,false,false,true,false,false⟩],[⟨some (.own 7),true,false,true,some 5,false,false,false,false,false,false⟩,⟨some .internalNl,true,false,true,some 5,false,false,false,false,false,false⟩,⟨some (.own 7),true,false,true,some 5,false,false,false,true,false,false⟩,⟨some .internalNl,true,false,true,some 5,false,false,false,true,false,false⟩],[⟨some (.own 7),true,false,true,some 5,false,false,false,false,false,false⟩,⟨some .internalNl,true,false,true,some 5,false,false,false,false,false,false⟩,⟨some (.own 7),true,false,true,some 5,false,false,false,true,false,false⟩,⟨some .internalNl,true,false,true,some 5,false,false,false,true,false,false⟩],[⟨some (.own 7),true,false,true,some 5,false,false,false,false,false,false⟩,⟨some .internalNl,true,false,true,some 5,false,false,false,false,false,false⟩,⟨some (.own 7),true,false,true,some 5,false,false,false,true,false,false⟩,⟨some .internalNl,true,false,true,some 5,false,false,false,true,false,false⟩],[⟨some (.own 7),true,false,true,some 5,false,false,false,false,false,false⟩,⟨some .internalNl,true,false,true,some 5,false,false,false,false,false,false⟩,⟨some (.own 7),true,false,true,some 5,false,false,false,true,false,false⟩,⟨some .internalNl,true,false,true,some 5,false,false,false,true,false,false⟩],[⟨some (.own 7),true,false,true,some 5,false,false,false,false,false,false⟩,⟨some (.own 7),false,true,true,some 5,false,false,false,false,false,false⟩,⟨some .internalNl,true,false,true,some 5,false,false,false,false,false,false⟩,⟨some .internalNl,false,true,true,some 5,false,false,false,false,false,false⟩,⟨some (.own 7),true,false,true,some 5,false,false,false,true,false,false⟩,⟨some (.own 7),false,true,true,some 5,false,false,false,true,false,false⟩,⟨some .internalNl,true,false,true,some 5,false,false,false,true,false,false⟩,⟨some .internalNl,false,true,true,some 5,false,false,false,true,false,false⟩],[⟨some (.own 7),true,false,true,some 5,false,false,false,false,false,false⟩,⟨some .internalNl,true,false,true,some 5,false,false,false,false,false,false⟩,⟨some (.own 7),true,false,true,some 5,false,false,false,true,false,false⟩,⟨some .internalNl,true,false,true,some 5,false,false,false,true,false,false⟩],[⟨some (.own 7),true,false,true,some 5,false,false,false,false,false,false⟩,⟨some .internalNl,true,false,true,some 5,false,false,false,false,false,false⟩,⟨some (.own 7),true,false,true,some 5,false,false,false,true,false,false⟩,⟨some .internalNl,true,false,true,some 5,false,false,false,true,false,false⟩],[⟨some (.own 7),true,false,true,some 5,false,false,false,false,false,false⟩,⟨some .internalNl,true,false,true,some 5,false,false,false,false,false,false⟩,⟨some (.own 7),true,false,true,some 5,false,false,false,true,false,false⟩,⟨some .internalNl,true,false,true,some 5,false,false,false,true,false,false⟩],[⟨some (.own 7),true,false,true,some 5,false,false,false,false,false,false⟩,⟨some .internalNl,true,false,true,some 5,false,false,false,false,false,false⟩,⟨some (.own 7),true,false,true,some 5,false,false,false,true,false,false⟩,⟨some .internalNl,true,false,true,some 5,false,false,false,true,false,false⟩],[⟨some (.own 7),true,false,true,some 5,false,false,false,true,false,false⟩,⟨some (.own 7),false,true,true,some 5,false,false,false,true,false,false⟩,⟨some (.own 7),false,false,true,some 5,false,false,false,true,false,false⟩,⟨some (.own 7),true,false,true,some 5,false,false,false,false,false,false⟩,⟨some (.own 7),false,false,true,some 5,false,false,false,false,false,false⟩,⟨some (.own 7),false,true,true,some 5,false,false,false,false,false,false⟩],[⟨some (.own 7),true,false,true,some 5,false,false,false,true,false,false⟩,⟨some (.own 7),true,false,true,some 5,false,false,false,false,false,false⟩],[⟨some (.own 7),true,false,true,some 5,false,false,false,false,false,false⟩,⟨some .internalNl,true,false,true,some 5,false,false,false,false,false,false⟩],[⟨some (.own 7),false,true,true,some 5,false,false,false,false,false,false⟩,⟨some .internalNl,false,true,true,some 5,false,false,false,false,false,false⟩,⟨some .internalNl,false,false,true,some 5,false,false,false,false,false,false⟩,⟨some (.own 7),false,false,true,some 5,false,false,false,false,false,false⟩],[⟨some (.own 7),true,false,true,some 5,false,false,false,false,false,false⟩,⟨some .internalNl,true,false,true,some 5,false,false,false,false,false,false⟩],[⟨some (.own 7),true,false,true,some 5,false,false,false,false,false,false⟩,⟨some .internalNl,true,false,true,some 5,false,false,false,false,false,false⟩],[⟨some (.own 7),true,false,true,some 5,false,false,false,false,false,false⟩,⟨some .internalNl,true,false,true,some 5,false,false,false,false,false,false⟩],[⟨some (.own 7),true,false,true,some 5,false,false,false,false,false,false⟩,⟨some .internalNl,true,false,true,some 5,false,false,false,false,false,false⟩],[⟨some (.own 7),true,false,true,some 5,false,false,false,false,false,false⟩,⟨some .internalNl,true,false,true,some 5,false,false,false,false,false,false⟩],[⟨some (.own 7),true,false,true,some 2,false,false,true,false,false,false⟩,⟨some (.own 7),false,true,false,some 2,false,false,true,false,false,false⟩,⟨some (.own 7),false,false,false,some 2,false,false,true,false,false,false⟩],[⟨some .internalNl,true,false,true,some 5,false,false,false,false,false,false⟩,⟨some (.own 7),true,false,true,some 5,false,false,false,false,false,false⟩,⟨some .internalNl,true,false,true,some 5,false,false,false,true,false,false⟩,⟨some (.own 7),true,false,true,some 5,false,false,false,true,false,false⟩],[⟨some .internalNl,true,false,true,some 5,false,false,false,false,false,false⟩,⟨some .internalNl,true,false,true,some 5,false,false,false,true,false,false⟩],[⟨some .internalNl,true,false,true,some 5,false,false,false,false,false,false⟩,⟨some (.own 7),true,false,true,some 5,false,false,false,false,false,false⟩,⟨some .internalNl,true,false,true,some 5,false,false,false,true,false,false⟩,⟨some (.own 7),true,false,true,some 5,false,false,false,true,false,false⟩],[⟨some .internalNl,true,false,true,some 5,false,false,false,false,false,false⟩,⟨some .internalNl,true,false,true,some 5,false,false,false,true,false,false⟩],[⟨some (.own 7),true,false,true,some 5,false,false,false,true,false,false⟩,⟨some (.own 7),false,true,true,some 5,false,false,false,true,false,false⟩,⟨some (.own 7),true,false,true,some 5,false,false,false,false,false,false⟩,⟨some (.own 7),false,true,true,some 5,false,false,false,false,false,false⟩],[⟨some .internalNl,true,false,true,some 5,false,false,false,false,false,false⟩,⟨some (.own 7),true,false,true,some 5,false,false,false,false,false,false⟩],[⟨some .internalNl,true,false,true,some 5,false,false,false,false,false,false⟩]]
theorem coffeescript_w0_closed : closed emb18_rows coffeescript_w0_tab (XA.init coffeescript_wopt) (XA.succ coffeescript_M coffeescript_wopt 0) (XA.eofOk coffeescript_M coffeescript_wopt 0) = true := by
  decide +kernel
def coffeescript_w0 : XCert coffeescript_M coffeescript_wopt 0 := ⟨emb18_D, coffeescript_w0_tab, coffeescript_w0_closed⟩
theorem coffeescript_solid : ∀ m ∈ coffeescript_wopt.use, Nonempty (XCert coffeescript_M coffeescript_wopt m) :=
  (List.forall_mem_cons.mpr ⟨⟨coffeescript_w1⟩,
  (List.forall_mem_cons.mpr ⟨⟨coffeescript_w0⟩,
  (fun _ h => nomatch h)⟩)⟩)

def metapostWithTex_wopt : WOpt := ⟨false, false, [1, 0]⟩
def metapostWithTex_w1_tab : List (List XA) := [[⟨none,false,false,false,none,false,false,false,false,false,false⟩],[⟨some (.own 0),false,false,false,some 1,false,false,false,false,false,false⟩],[⟨some .newline,true,false,false,none,false,false,false,false,false,false⟩],[⟨some .newline,true,false,true,some 4,false,false,false,false,false,false⟩],[⟨some (.own 3),true,false,true,some 5,false,false,false,false,false,false⟩],[⟨some (.own 3),false,false,true,some 2,false,false,false,false,false,false⟩],[⟨some (.own 3),true,false,true,some 5,false,false,false,false,false,false⟩],[⟨some (.own 3),true,false,true,some 5,false,false,false,false,false,false⟩],[⟨some (.own 3),true,false,true,some 5,false,false,false,false,false,false⟩,⟨some (.own 3),false,true,true,some 5,false,false,false,false,false,false⟩,⟨some (.own 3),false,false,true,some 5,false,false,false,false,false,false⟩],[⟨some (.own 3),true,false,true,some 5,false,false,false,false,false,false⟩],[⟨some (.own 3),true,false,true,some 2,false,false,false,false,false,false⟩,⟨some (.own 3),false,false,false,some 2,false,false,false,false,false,false⟩,⟨some (.own 3),false,true,false,some 2,false,false,false,false,false,false⟩],[⟨some (.own 3),true,false,true,some 5,false,false,false,false,false,false⟩],[⟨some (.own 3),true,false,true,some 5,false,false,false,false,false,false⟩],[⟨some (.own 3),true,false,true,some 5,false,false,false,false,false,false⟩,⟨some (.own 3),false,true,true,some 5,false,false,false,false,false,false⟩],[⟨some (.own 3),true,false,true,some 5,false,false,false,false,false,false⟩],[⟨some (.own 3),true,false,true,some 5,false,false,false,false,false,false⟩],[⟨some (.own 3),true,false,true,some 5,false,false,false,false,false,false⟩],[⟨some (.own 3),true,false,true,some 5,false,false,false,false,false,false⟩],[⟨some (.own 3),true,false,true,some 5,false,false,false,false,false,false⟩],[⟨some (.own 3),true,false,true,some 5,false,false,false,false,false,false⟩],[⟨some (.own 3),true,false,true,some 5,false,false,false,false,false,false⟩],[⟨some (.own 3),true,false,true,some 5,false,false,false,false,false,false⟩],[⟨some (.own 3),true,false,true,some 5,false,false,false,false,false,false⟩]]
theorem metapostWithTex_w1_closed : closed emb22_rows metapostWithTex_w1_tab (XA.init metapostWithTex_wopt) (XA.succ metapostWithTex_M metapostWithTex_wopt 1) (XA.eofOk metapostWithTex_M metapostWithTex_wopt 1) = true := by
  decide +kernel
def metapostWithTex_w1 : XCert metapostWithTex_M metapostWithTex_wopt 1 := ⟨emb22_D, metapostWithTex_w1_tab, metapostWithTex_w1_closed⟩
def metapostWithTex_w0_tab : List (List XA) := [[⟨none,false,false,false,none,false,false,false,false,false,false⟩],[⟨some (.own 0),false,false,false,some 1,false,false,false,false,false,false⟩],[⟨some .newline,true,false,false,none,false,false,false,false,false,false⟩],[⟨some .newline,true,false,true,some 3,false,false,false,false,false,false⟩],[⟨some (.own 3),true,false,true,some 2,false,false,false,false,false,false⟩],[⟨some (.own 3),true,false,true,some 4,false,false,false,false,false,false⟩],[⟨some (.own 3),true,false,true,some 2,false,false,false,false,false,false⟩,⟨some (.own 3),false,true,false,some 2,false,false,false,false,false,false⟩,⟨some (.own 3),false,false,false,some 2,false,false,false,false,false,false⟩],[⟨some (.own 3),true,false,true,some 4,false,false,false,false,false,false⟩],[⟨some (.own 3),true,false,true,some 4,false,false,false,false,false,false⟩]]
theorem metapostWithTex_w0_closed : closed emb21_rows metapostWithTex_w0_tab (XA.init metapostWithTex_wopt) (XA.succ metapostWithTex_M metapostWithTex_wopt 0) (XA.eofOk metapostWithTex_M metapostWithTex_wopt 0) = true := by
  decide +kernel
def metapostWithTex_w0 : XCert metapostWithTex_M metapostWithTex_wopt 0 := ⟨emb21_D, metapostWithTex_w0_tab, metapostWithTex_w0_closed⟩
theorem metapostWithTex_solid : ∀ m ∈ metapostWithTex_wopt.use, Nonempty (XCert metapostWithTex_M metapostWithTex_wopt m) :=
  (List.forall_mem_cons.mpr ⟨⟨metapostWithTex_w1⟩,
  (List.forall_mem_cons.mpr ⟨⟨metapostWithTex_w0⟩,
  (fun _ h => nomatch h)⟩)⟩)

def jsp_wopt : WOpt := ⟨false, false, [6, 3, 4, 5, 0, 1, 2]⟩
def jsp_w6_tab : List (List XA) := [[⟨none,false,false,false,none,false,false,false,false,false,false⟩],[⟨some (.own 0),false,false,false,some 3,false,false,false,false,false,false⟩],[⟨some .newline,true,false,false,none,false,false,false,false,false,false⟩],[⟨some .newline,true,false,true,some 7,false,false,false,false,false,false⟩],[⟨some (.own 5),true,false,true,some 8,false,false,false,false,false,false⟩],[⟨some (.own 5),true,false,true,some 8,false,false,false,false,false,false⟩],[⟨some (.own 5),true,false,true,some 8,false,false,false,false,false,false⟩],[⟨some (.own 5),true,false,true,some 8,false,false,false,false,false,false⟩],[⟨some (.own 5),true,false,true,some 8,false,false,false,false,false,false⟩],[⟨some (.own 5),true,false,true,some 8,false,false,false,false,false,false⟩],[⟨some (.own 5),true,false,true,some 8,false,false,false,false,false,false⟩],[⟨some (.own 5),true,false,true,some 8,false,false,false,false,false,false⟩],[⟨some (.own 5),true,false,true,some 8,false,false,false,false,false,false⟩],[⟨some (.own 5),true,false,true,some 8,false,false,false,false,false,false⟩],[⟨some (.own 5),true,false,true,some 8,false,false,false,false,false,false⟩],[⟨some (.own 5),true,false,true,some 8,false,false,false,false,false,false⟩],[⟨some (.own 5),true,false,true,some 8,false,false,false,false,false,false⟩],[⟨some (.own 5),true,false,true,some 8,false,false,false,false,false,false⟩,⟨some (.own 5),false,true,true,some 8,false,false,false,false,false,false⟩,⟨some (.own 5),false,false,true,some 8,false,false,false,false,false,false⟩],[⟨some (.own 5),true,false,true,some 8,false,false,false,false,false,false⟩,⟨some (.own 5),false,true,true,some 8,false,false,false,false,false,false⟩,⟨some (.own 5),false,false,true,some 8,false,false,false,false,false,false⟩],[⟨some (.own 5),true,false,true,some 8,false,false,false,false,false,false⟩],[⟨some (.own 5),true,false,true,some 8,false,false,false,false,false,false⟩],[⟨some (.own 5),true,false,true,some 8,false,false,false,false,false,false⟩],[⟨some (.own 5),true,false,true,some 8,false,false,false,false,false,false⟩],[⟨some (.own 5),true,false,true,some 8,false,false,false,false,false,false⟩],[⟨some (.own 5),true,false,true,some 8,false,false,false,false,false,false⟩],[⟨some (.own 5),true,false,true,some 8,false,false,false,false,false,false⟩],[⟨some (.own 5),true,false,true,some 8,false,false,false,false,false,false⟩],[⟨some (.own 5),true,false,true,some 8,false,false,false,false,false,false⟩],[⟨some (.own 5),true,false,true,some 8,false,false,false,false,false,false⟩],[⟨some (.own 5),true,false,true,some 8,false,false,false,false,false,false⟩],[⟨some (.own 5),true,false,true,some 8,false,false,false,false,false,false⟩],[⟨some (.own 5),true,false,true,some 8,false,false,false,false,false,false⟩],[⟨some (.own 5),true,false,true,some 8,false,false,false,false,false,false⟩],[⟨some (.own 5),true,false,true,some 8,false,false,false,false,false,false⟩],[⟨some (.own 5),true,false,true,some 8,false,false,false,false,false,false⟩],[⟨some (.own 5),true,false,true,some 8,false,false,false,false,false,false⟩,⟨some (.own 5),false,true,true,some 8,false,false,false,false,false,false⟩,⟨some (.own 5),false,false,true,some 8,false,false,false,false,false,false⟩],[⟨some (.own 5),true,false,true,some 8,false,false,false,false,false,false⟩],[⟨some (.own 5),true,false,true,some 8,false,false,false,false,false,false⟩],[⟨some (.own 5),true,false,true,some 8,false,false,false,false,false,false⟩],[⟨some (.own 5),true,false,true,some 8,false,false,false,false,false,false⟩],[⟨some (.own 5),true,false,true,some 8,false,false,false,false,false,false⟩],[⟨some (.own 5),true,false,true,some 8,false,false,false,false,false,false⟩],[⟨some (.own 5),true,false,true,some 8,false,false,false,false,false,false⟩],[⟨some (.own 5),true,false,true,some 8,false,false,false,false,false,false⟩,⟨some (.own 5),false,true,true,some 8,false,false,false,false,false,false⟩,⟨some (.own 5),false,false,true,some 8,false,false,false,false,false,false⟩]]
theorem jsp_w6_closed : closed emb29_rows jsp_w6_tab (XA.init jsp_wopt) (XA.succ jsp_M jsp_wopt 6) (XA.eofOk jsp_M jsp_wopt 6) = true := by
  decide +kernel
def jsp_w6 : XCert jsp_M jsp_wopt 6 := ⟨emb29_D, jsp_w6_tab, jsp_w6_closed⟩
def jsp_w3_tab : List (List XA) := [[⟨none,false,false,false,none,false,false,false,false,false,false⟩],[⟨some (.own 0),false,false,false,some 1,false,false,false,false,false,false⟩],[⟨some .newline,true,false,false,none,false,false,false,false,false,false⟩],[⟨some .newline,true,false,true,some 4,false,false,false,false,false,false⟩],[⟨some (.own 9),true,false,true,some 5,false,false,false,false,false,false⟩],[⟨some (.own 9),true,false,true,some 5,false,false,false,false,false,false⟩],[⟨some (.own 9),true,false,true,some 5,false,false,false,false,false,false⟩],[⟨some (.own 9),true,false,true,some 5,false,false,false,false,false,false⟩],[⟨some (.own 9),true,false,true,some 5,false,false,false,false,false,false⟩,⟨some .internalNl,true,false,true,some 5,false,false,false,false,false,false⟩],[⟨some (.own 9),false,true,true,some 5,false,false,false,false,false,false⟩,⟨some (.own 9),false,false,true,some 5,false,false,false,false,false,false⟩,⟨some .internalNl,false,true,true,some 5,false,false,false,false,false,false⟩,⟨some .internalNl,false,false,true,some 5,false,false,false,false,false,false⟩],[⟨some (.own 9),true,false,true,some 5,false,false,false,false,false,false⟩,⟨some .internalNl,true,false,true,some 5,false,false,false,false,false,false⟩],[⟨some (.own 9),true,false,true,some 5,false,false,false,false,false,false⟩,⟨some .internalNl,true,false,true,some 5,false,false,false,false,false,false⟩],[⟨some (.own 9),true,false,true,some 5,false,false,false,false,false,false⟩,⟨some .internalNl,true,false,true,some 5,false,false,false,false,false,false⟩],[⟨some (.own 9),true,false,true,some 5,false,false,false,false,false,false⟩,⟨some .internalNl,true,false,true,some 5,false,false,false,false,false,false⟩],[⟨some (.own 9),true,false,true,some 5,false,false,false,false,false,false⟩,⟨some .internalNl,true,false,true,some 5,false,false,false,false,false,false⟩],[⟨some (.own 9),true,false,true,some 5,false,false,false,false,false,false⟩,⟨some .internalNl,true,false,true,some 5,false,false,false,false,false,false⟩],[⟨some (.own 9),false,true,true,some 5,false,false,false,false,false,false⟩,⟨some (.own 9),false,false,true,some 5,false,false,false,false,false,false⟩,⟨some .internalNl,false,true,true,some 5,false,false,false,false,false,false⟩,⟨some .internalNl,false,false,true,some 5,false,false,false,false,false,false⟩],[⟨some (.own 9),true,false,true,some 5,false,false,false,false,false,false⟩,⟨some .internalNl,true,false,true,some 5,false,false,false,false,false,false⟩],[⟨some (.own 9),true,false,true,some 5,false,false,false,false,false,false⟩,⟨some .internalNl,true,false,true,some 5,false,false,false,false,false,false⟩],[⟨some (.own 9),true,false,true,some 5,false,false,false,false,false,false⟩,⟨some .internalNl,true,false,true,some 5,false,false,false,false,false,false⟩],[⟨some (.own 9),true,false,true,some 5,false,false,false,false,false,false⟩,⟨some .internalNl,true,false,true,some 5,false,false,false,false,false,false⟩],[⟨some (.own 9),true,false,true,some 5,false,false,false,false,false,false⟩,⟨some .internalNl,true,false,true,some 5,false,false,false,false,false,false⟩],[⟨some (.own 9),true,false,true,some 5,false,false,false,false,false,false⟩],[⟨some (.own 9),true,false,true,some 5,false,false,false,false,false,false⟩],[⟨some .internalNl,true,false,true,some 5,false,false,false,false,false,false⟩,⟨some (.own 9),true,false,true,some 5,false,false,false,false,false,false⟩],[⟨some .internalNl,true,false,true,some 5,false,false,false,false,false,false⟩],[⟨some (.own 9),true,false,true,some 5,false,false,false,false,false,false⟩,⟨some (.own 9),false,true,true,some 5,false,false,false,false,false,false⟩,⟨some .internalNl,true,false,true,some 5,false,false,false,false,false,false⟩,⟨some .internalNl,false,true,true,some 5,false,false,false,false,false,false⟩],[⟨some .internalNl,true,false,true,some 5,false,false,false,false,false,false⟩,⟨some (.own 9),true,false,true,some 5,false,false,false,false,false,false⟩],[⟨some .internalNl,true,false,true,some 5,false,false,false,false,false,false⟩],[⟨some (.own 9),true,false,true,some 5,false,false,false,false,false,false⟩,⟨some (.own 9),false,true,true,some 5,false,false,false,false,false,false⟩,⟨some .internalNl,true,false,true,some 5,false,false,false,false,false,false⟩,⟨some .internalNl,false,true,true,some 5,false,false,false,false,false,false⟩],[⟨some (.own 9),true,false,true,some 5,false,false,false,false,false,false⟩,⟨some .internalNl,true,false,true,some 5,false,false,false,false,false,false⟩],[⟨some (.own 9),false,true,true,some 5,false,false,false,false,false,false⟩,⟨some .internalNl,false,true,true,some 5,false,false,false,false,false,false⟩,⟨some .internalNl,false,false,true,some 5,false,false,false,false,false,false⟩,⟨some (.own 9),false,false,true,some 5,false,false,false,false,false,false⟩],[⟨some (.own 9),true,false,true,some 5,false,false,false,false,false,false⟩,⟨some .internalNl,true,false,true,some 5,false,false,false,false,false,false⟩],[⟨some (.own 9),true,false,true,some 5,false,false,false,false,false,false⟩,⟨some .internalNl,true,false,true,some 5,false,false,false,false,false,false⟩],[⟨some (.own 9),true,false,true,some 5,false,false,false,false,false,false⟩,⟨some .internalNl,true,false,true,some 5,false,false,false,false,false,false⟩],[⟨some (.own 9),true,false,true,some 5,false,false,false,false,false,false⟩,⟨some .internalNl,true,false,true,some 5,false,false,false,false,false,false⟩],[⟨some (.own 9),true,false,true,some 5,false,false,false,false,false,false⟩,⟨some .internalNl,true,false,true,some 5,false,false,false,false,false,false⟩],[⟨some (.own 9),true,false,true,some 5,false,false,false,false,false,false⟩],[⟨some .internalNl,true,false,true,some 5,false,false,false,false,false,false⟩,⟨some (.own 9),true,false,true,some 5,false,false,false,false,false,false⟩],[⟨some .internalNl,true,false,true,some 5,false,false,false,false,false,false⟩],[⟨some (.own 9),true,false,true,some 5,false,false,false,false,false,false⟩],[⟨some (.own 9),true,false,true,some 5,false,false,false,false,false,false⟩],[⟨some (.own 9),true,false,true,some 5,false,false,false,false,false,false⟩],[⟨some (.own 9),true,false,true,some 5,false,false,false,false,false,false⟩],[⟨some (.own 9),false,true,true,some 5,false,false,false,false,false,false⟩,⟨some .internalNl,false,true,true,some 5,false,false,false,false,false,false⟩,⟨some .internalNl,false,false,true,some 5,false,false,false,false,false,false⟩,⟨some (.own 9),false,false,true,some 5,false,false,false,false,false,false⟩],[⟨some .internalNl,true,false,true,some 5,false,false,false,false,false,false⟩],[⟨some .internalNl,true,false,true,some 5,false,false,false,false,false,false⟩],[⟨some (.own 9),true,false,true,some 5,false,false,false,false,false,false⟩,⟨some .internalNl,true,false,true,some 5,false,false,false,false,false,false⟩],[⟨some .internalNl,true,false,true,some 5,false,false,false,false,false,false⟩],[⟨some .internalNl,true,false,true,some 5,false,false,false,false,false,false⟩],[⟨some .internalNl,true,false,true,some 5,false,false,false,false,false,false⟩]]
theorem jsp_w3_closed : closed emb0_rows jsp_w3_tab (XA.init jsp_wopt) (XA.succ jsp_M jsp_wopt 3) (XA.eofOk jsp_M jsp_wopt 3) = true := by
  decide +kernel
def jsp_w3 : XCert jsp_M jsp_wopt 3 := ⟨emb0_D, jsp_w3_tab, jsp_w3_closed⟩
def jsp_w4_tab : List (List XA) := [[⟨none,false,false,false,none,false,false,false,false,false,false⟩],[⟨some (.own 0),false,false,false,some 1,false,false,false,false,false,false⟩],[⟨some .newline,true,false,false,none,false,false,false,false,false,false⟩],[⟨some .newline,true,false,true,some 4,false,false,false,false,false,false⟩],[⟨some (.own 7),true,false,true,some 5,false,false,false,false,false,false⟩],[⟨some (.own 7),true,false,true,some 5,false,false,false,false,false,false⟩],[⟨some (.own 7),true,false,true,some 5,false,false,false,false,false,false⟩],[⟨some (.own 7),true,false,true,some 5,false,false,false,false,false,false⟩],[⟨some (.own 7),true,false,true,some 5,false,false,false,false,false,false⟩,⟨some .internalNl,true,false,true,some 5,false,false,false,false,false,false⟩],[⟨some (.own 7),false,true,true,some 5,false,false,false,false,false,false⟩,⟨some .internalNl,false,true,true,some 5,false,false,false,false,false,false⟩,⟨some .internalNl,false,false,true,some 5,false,false,false,false,false,false⟩,⟨some (.own 7),false,false,true,some 5,false,false,false,false,false,false⟩],[⟨some (.own 7),true,false,true,some 5,false,false,false,false,false,false⟩,⟨some .internalNl,true,false,true,some 5,false,false,false,false,false,false⟩],[⟨some (.own 7),true,false,true,some 5,false,false,false,false,false,false⟩,⟨some .internalNl,true,false,true,some 5,false,false,false,false,false,false⟩],[⟨some (.own 7),false,true,true,some 5,false,false,false,false,false,false⟩,⟨some .internalNl,false,true,true,some 5,false,false,false,false,false,false⟩,⟨some .internalNl,false,false,true,some 5,false,false,false,false,false,false⟩,⟨some (.own 7),false,false,true,some 5,false,false,false,false,false,false⟩],[⟨some (.own 7),true,false,true,some 5,false,false,false,false,false,false⟩,⟨some .internalNl,true,false,true,some 5,false,false,false,false,false,false⟩],[⟨some (.own 7),true,false,true,some 5,false,false,false,false,false,false⟩,⟨some (.own 7),false,true,true,some 5,false,false,false,false,false,false⟩],[⟨some (.own 7),true,false,true,some 5,false,false,false,false,false,false⟩],[⟨some (.own 7),true,false,true,some 2,false,false,false,false,false,false⟩],[⟨some (.own 7),true,false,true,some 5,false,false,false,false,false,false⟩],[⟨some (.own 7),true,false,true,some 5,false,false,false,false,false,false⟩,⟨some (.own 7),false,true,true,some 5,false,false,false,false,false,false⟩,⟨some .internalNl,true,false,true,some 5,false,false,false,false,false,false⟩,⟨some .internalNl,false,true,true,some 5,false,false,false,false,false,false⟩],[⟨some (.own 7),true,false,true,some 5,false,false,false,false,false,false⟩,⟨some .internalNl,true,false,true,some 5,false,false,false,false,false,false⟩],[⟨some (.own 7),true,false,true,some 5,false,false,false,false,false,false⟩,⟨some .internalNl,true,false,true,some 5,false,false,false,false,false,false⟩],[⟨some (.own 7),true,false,true,some 5,false,false,false,false,false,false⟩,⟨some .internalNl,true,false,true,some 5,false,false,false,false,false,false⟩],[⟨some (.own 7),true,false,true,some 5,false,false,false,false,false,false⟩,⟨some .internalNl,true,false,true,some 5,false,false,false,false,false,false⟩],[⟨some (.own 7),true,false,true,some 5,false,false,false,false,false,false⟩,⟨some (.own 7),false,true,true,some 5,false,false,false,false,false,false⟩,⟨some .internalNl,true,false,true,some 5,false,false,false,false,false,false⟩,⟨some .internalNl,false,true,true,some 5,false,false,false,false,false,false⟩],[⟨some (.own 7),true,false,true,some 5,false,false,false,false,false,false⟩,⟨some .internalNl,true,false,true,some 5,false,false,false,false,false,false⟩],[⟨some (.own 7),true,false,true,some 5,false,false,false,false,false,false⟩,⟨some .internalNl,true,false,true,some 5,false,false,false,false,false,false⟩],[⟨some (.own 7),true,false,true,some 5,false,false,false,false,false,false⟩,⟨some .internalNl,true,false,true,some 5,false,false,false,false,false,false⟩],[⟨some (.own 7),true,false,true,some 5,false,false,false,false,false,false⟩,⟨some .internalNl,true,false,true,some 5,false,false,false,false,false,false⟩],[⟨some (.own 7),true,false,true,some 5,false,false,false,false,false,false⟩,⟨some (.own 7),false,false,true,some 5,false,false,false,false,false,false⟩,⟨some (.own 7),false,true,true,some 5,false,false,false,false,false,false⟩],[⟨some (.own 7),true,false,true,some 5,false,false,false,false,false,false⟩],[⟨some (.own 7),true,false,true,some 5,false,false,false,false,false,false⟩,⟨some .internalNl,true,false,true,some 5,false,false,false,false,false,false⟩],[⟨some (.own 7),false,true,true,some 5,false,false,false,false,false,false⟩,⟨some .internalNl,false,true,true,some 5,false,false,false,false,false,false⟩,⟨some .internalNl,false,false,true,some 5,false,false,false,false,false,false⟩,⟨some (.own 7),false,false,true,some 5,false,false,false,false,false,false⟩],[⟨some (.own 7),true,false,true,some 5,false,false,false,false,false,false⟩,⟨some .internalNl,true,false,true,some 5,false,false,false,false,false,false⟩],[⟨some (.own 7),true,false,true,some 5,false,false,false,false,false,false⟩,⟨some .internalNl,true,false,true,some 5,false,false,false,false,false,false⟩],[⟨some (.own 7),true,false,true,some 5,false,false,false,false,false,false⟩,⟨some .internalNl,true,false,true,some 5,false,false,false,false,false,false⟩],[⟨some (.own 7),true,false,true,some 5,false,false,false,false,false,false⟩,⟨some .internalNl,true,false,true,some 5,false,false,false,false,false,false⟩],[⟨some (.own 7),true,false,true,some 5,false,false,false,false,false,false⟩,⟨some .internalNl,true,false,true,some 5,false,false,false,false,false,false⟩],[⟨some (.own 7),true,false,true,some 2,false,false,false,false,false,false⟩,⟨some (.own 7),false,true,false,some 2,false,false,false,false,false,false⟩,⟨some (.own 7),false,false,false,some 2,false,false,false,false,false,false⟩],[⟨some (.own 7),true,false,true,some 5,false,false,false,false,false,false⟩],[⟨some .internalNl,true,false,true,some 5,false,false,false,false,false,false⟩,⟨some (.own 7),true,false,true,some 5,false,false,false,false,false,false⟩],[⟨some .internalNl,true,false,true,some 5,false,false,false,false,false,false⟩],[⟨some .internalNl,true,false,true,some 5,false,false,false,false,false,false⟩,⟨some (.own 7),true,false,true,some 5,false,false,false,false,false,false⟩],[⟨some .internalNl,true,false,true,some 5,false,false,false,false,false,false⟩],[⟨some (.own 7),true,false,true,some 5,false,false,false,false,false,false⟩,⟨some (.own 7),false,true,true,some 5,false,false,false,false,false,false⟩],[⟨some .internalNl,true,false,true,some 5,false,false,false,false,false,false⟩,⟨some (.own 7),true,false,true,some 5,false,false,false,false,false,false⟩],[⟨some .internalNl,true,false,true,some 5,false,false,false,false,false,false⟩],[⟨some (.own 7),true,false,true,some 5,false,false,false,false,false,false⟩],[⟨some (.own 7),true,false,true,some 5,false,false,false,false,false,false⟩],[⟨some (.own 7),true,false,true,some 5,false,false,false,false,false,false⟩],[⟨some (.own 7),true,false,true,some 5,false,false,false,false,false,false⟩],[⟨some (.own 7),true,false,true,some 5,false,false,false,false,false,false⟩],[⟨some (.own 7),false,true,true,some 5,false,false,false,false,false,false⟩,⟨some .internalNl,false,true,true,some 5,false,false,false,false,false,false⟩,⟨some .internalNl,false,false,true,some 5,false,false,false,false,false,false⟩,⟨some (.own 7),false,false,true,some 5,false,false,false,false,false,false⟩],[⟨some .internalNl,true,false,true,some 5,false,false,false,false,false,false⟩],[⟨some .internalNl,true,false,true,some 5,false,false,false,false,false,false⟩],[⟨some (.own 7),true,false,true,some 5,false,false,false,false,false,false⟩,⟨some .internalNl,true,false,true,some 5,false,false,false,false,false,false⟩],[⟨some .internalNl,true,false,true,some 5,false,false,false,false,false,false⟩],[⟨some .internalNl,true,false,true,some 5,false,false,false,false,false,false⟩],[⟨some .internalNl,true,false,true,some 5,false,false,false,false,false,false⟩]]
theorem jsp_w4_closed : closed emb1_rows jsp_w4_tab (XA.init jsp_wopt) (XA.succ jsp_M jsp_wopt 4) (XA.eofOk jsp_M jsp_wopt 4) = true := by
  decide +kernel
def jsp_w4 : XCert jsp_M jsp_wopt 4 := ⟨emb1_D, jsp_w4_tab, jsp_w4_closed⟩
def jsp_w5_tab : List (List XA) := [[⟨none,false,false,false,none,false,false,false,false,false,false⟩],[⟨some (.own 0),false,false,false,some 1,false,false,false,false,false,false⟩],[⟨some .newline,true,false,false,none,false,false,false,false,false,false⟩],[⟨some .newline,true,false,true,some 4,false,false,false,false,false,false⟩],[⟨some (.own 7),true,false,true,some 5,false,false,false,false,false,false⟩],[⟨some (.own 7),true,false,true,some 5,false,false,false,false,false,false⟩],[⟨some (.own 7),true,false,true,some 5,false,false,false,false,false,false⟩],[⟨some (.own 7),true,false,true,some 5,false,false,false,false,false,false⟩],[⟨some (.own 7),true,false,true,some 5,false,false,false,false,false,false⟩,⟨some (.own 7),false,true,true,some 5,false,false,false,false,false,false⟩,⟨some (.own 7),false,false,true,some 5,false,false,false,false,false,false⟩],[⟨some (.own 7),true,false,true,some 5,false,false,false,false,false,false⟩],[⟨some (.own 7),true,false,true,some 5,false,false,false,false,false,false⟩,⟨some (.own 7),false,true,true,some 5,false,false,false,false,false,false⟩,⟨some (.own 7),false,false,true,some 5,false,false,false,false,false,false⟩],[⟨some (.own 7),true,false,true,some 5,false,false,false,false,false,false⟩],[⟨some (.own 7),true,false,true,some 5,false,false,false,false,false,false⟩],[⟨some (.own 7),true,false,true,some 2,false,false,false,false,false,false⟩],[⟨some (.own 7),true,false,true,some 5,false,false,false,false,false,false⟩,⟨some (.own 7),false,true,true,some 5,false,false,false,false,false,false⟩],[⟨some (.own 7),true,false,true,some 5,false,false,false,false,false,false⟩,⟨some (.own 7),false,true,true,some 5,false,false,false,false,false,false⟩],[⟨some (.own 7),true,false,true,some 5,false,false,false,false,false,false⟩,⟨some .internalNl,true,false,true,some 5,false,false,false,false,false,false⟩],[⟨some (.own 7),false,true,true,some 5,false,false,false,false,false,false⟩,⟨some .internalNl,false,true,true,some 5,false,false,false,false,false,false⟩,⟨some .internalNl,false,false,true,some 5,false,false,false,false,false,false⟩,⟨some (.own 7),false,false,true,some 5,false,false,false,false,false,false⟩],[⟨some (.own 7),true,false,true,some 5,false,false,false,false,false,false⟩,⟨some .internalNl,true,false,true,some 5,false,false,false,false,false,false⟩],[⟨some (.own 7),true,false,true,some 5,false,false,false,false,false,false⟩,⟨some .internalNl,true,false,true,some 5,false,false,false,false,false,false⟩],[⟨some (.own 7),true,false,true,some 5,false,false,false,false,false,false⟩,⟨some .internalNl,true,false,true,some 5,false,false,false,false,false,false⟩],[⟨some (.own 7),true,false,true,some 5,false,false,false,false,false,false⟩,⟨some .internalNl,true,false,true,some 5,false,false,false,false,false,false⟩],[⟨some (.own 7),true,false,true,some 5,false,false,false,false,false,false⟩,⟨some .internalNl,true,false,true,some 5,false,false,false,false,false,false⟩],[⟨some (.own 7),true,false,true,some 2,false,false,false,false,false,false⟩,⟨some (.own 7),false,true,false,some 2,false,false,false,false,false,false⟩,⟨some (.own 7),false,false,false,some 2,false,false,false,false,false,false⟩],[⟨some .internalNl,true,false,true,some 5,false,false,false,false,false,false⟩,⟨some (.own 7),true,false,true,some 5,false,false,false,false,false,false⟩],[⟨some .internalNl,true,false,true,some 5,false,false,false,false,false,false⟩]]
theorem jsp_w5_closed : closed emb28_rows jsp_w5_tab (XA.init jsp_wopt) (XA.succ jsp_M jsp_wopt 5) (XA.eofOk jsp_M jsp_wopt 5) = true := by
  decide +kernel
def jsp_w5 : XCert jsp_M jsp_wopt 5 := ⟨emb28_D, jsp_w5_tab, jsp_w5_closed⟩
def jsp_w0_tab : List (List XA) := [[⟨none,false,false,false,none,false,false,false,false,false,false⟩],[⟨none,true,false,false,none,false,false,false,false,false,false⟩,⟨some .internalNl,true,false,false,none,false,false,false,false,false,false⟩],[⟨none,false,false,false,none,false,false,false,false,false,false⟩,⟨some .internalNl,false,true,false,none,false,false,false,false,false,false⟩,⟨some .internalNl,false,false,false,none,false,false,false,false,false,false⟩,⟨none,false,true,false,none,false,false,false,false,false,false⟩],[⟨none,true,false,false,none,false,false,false,false,false,false⟩,⟨some .internalNl,true,false,false,none,false,false,false,false,false,false⟩],[⟨none,true,false,false,none,false,false,false,false,false,false⟩,⟨some .internalNl,true,false,false,none,false,false,false,false,false,false⟩],[⟨none,true,false,false,none,false,false,false,false,false,false⟩,⟨some .internalNl,true,false,false,none,false,false,false,false,false,false⟩],[⟨none,true,false,false,none,false,false,false,false,false,false⟩,⟨some .internalNl,true,false,false,none,false,false,false,false,false,false⟩],[⟨none,true,false,false,none,false,false,false,false,false,false⟩,⟨some .internalNl,true,false,false,none,false,false,false,false,false,false⟩],[⟨none,true,false,false,none,false,false,false,false,false,false⟩,⟨some .internalNl,true,false,false,none,false,false,false,false,false,false⟩],[⟨some .internalNl,true,false,false,none,false,false,false,false,false,false⟩,⟨none,true,false,false,none,false,false,false,false,false,false⟩],[⟨some .internalNl,true,false,false,none,false,false,false,false,false,false⟩],[⟨none,true,false,false,none,false,false,false,false,false,false⟩,⟨some .internalNl,true,false,false,none,false,false,false,false,false,false⟩],[⟨none,true,false,false,none,false,false,false,false,false,false⟩,⟨some .internalNl,true,false,false,none,false,false,false,false,false,false⟩],[⟨none,false,true,false,none,false,false,false,false,false,false⟩,⟨some .internalNl,false,true,false,none,false,false,false,false,false,false⟩],[⟨none,true,false,false,none,false,false,false,false,false,false⟩,⟨some .internalNl,true,false,false,none,false,false,false,false,false,false⟩],[⟨none,true,false,false,none,false,false,false,false,false,false⟩,⟨some .internalNl,true,false,false,none,false,false,false,false,false,false⟩],[⟨none,true,false,false,none,false,false,false,false,false,false⟩,⟨some .internalNl,true,false,false,none,false,false,false,false,false,false⟩],[⟨none,true,false,false,none,false,false,false,false,false,false⟩,⟨some .internalNl,true,false,false,none,false,false,false,false,false,false⟩],[⟨none,true,false,false,none,false,false,false,false,false,false⟩,⟨some .internalNl,true,false,false,none,false,false,false,false,false,false⟩],[⟨none,false,false,false,none,false,false,false,false,false,false⟩],[⟨none,true,false,false,none,false,false,false,false,false,false⟩,⟨some .internalNl,true,false,false,none,false,false,false,false,false,false⟩],[⟨none,true,false,false,none,false,false,false,false,false,false⟩,⟨some .internalNl,true,false,false,none,false,false,false,false,false,false⟩],[⟨none,true,false,false,none,false,false,false,false,false,false⟩,⟨some .internalNl,true,false,false,none,false,false,false,false,false,false⟩],[⟨none,false,true,false,none,false,false,false,false,false,false⟩,⟨some .internalNl,false,true,false,none,false,false,false,false,false,false⟩,⟨some .internalNl,false,false,false,none,false,false,false,false,false,false⟩,⟨none,false,false,false,none,false,false,false,false,false,false⟩],[⟨none,true,false,false,none,false,false,false,false,false,false⟩,⟨some .internalNl,true,false,false,none,false,false,false,false,false,false⟩],[⟨none,true,false,false,none,false,false,false,false,false,false⟩,⟨some .internalNl,true,false,false,none,false,false,false,false,false,false⟩],[⟨none,true,false,false,none,false,false,false,false,false,false⟩,⟨some .internalNl,true,false,false,none,false,false,false,false,false,false⟩],[⟨none,true,false,false,none,false,false,false,false,false,false⟩,⟨some .internalNl,true,false,false,none,false,false,false,false,false,false⟩],[⟨none,true,false,false,none,false,false,false,false,false,false⟩,⟨some .internalNl,true,false,false,none,false,false,false,false,false,false⟩],[⟨some .internalNl,true,false,false,none,false,false,false,false,false,false⟩,⟨none,true,false,false,none,false,false,false,false,false,false⟩],[⟨none,true,false,false,none,false,false,false,false,false,false⟩,⟨some .internalNl,true,false,false,none,false,false,false,false,false,false⟩],[⟨some .internalNl,true,false,false,none,false,false,false,false,false,false⟩,⟨none,true,false,false,none,false,false,false,false,false,false⟩],[⟨none,true,false,false,none,false,false,false,false,false,false⟩],[⟨none,false,false,false,none,false,false,false,false,false,false⟩],[⟨none,true,false,false,none,false,false,false,false,false,false⟩],[⟨none,true,false,false,none,false,false,false,false,false,false⟩],[⟨none,true,false,false,none,false,false,false,false,false,false⟩],[⟨none,true,false,false,none,false,false,false,false,false,false⟩],[⟨none,true,false,false,none,false,false,false,false,false,false⟩],[⟨none,true,false,false,none,false,false,false,false,false,false⟩],[⟨none,true,false,false,none,false,false,false,false,false,false⟩],[⟨none,true,false,false,none,false,false,false,false,false,false⟩,⟨some .internalNl,true,false,false,none,false,false,false,false,false,false⟩],[⟨none,true,false,false,none,false,false,false,false,false,false⟩,⟨some .internalNl,true,false,false,none,false,false,false,false,false,false⟩],[⟨none,false,true,false,none,false,false,false,false,false,false⟩,⟨some .internalNl,false,true,false,none,false,false,false,false,false,false⟩],[⟨none,true,false,false,none,false,false,false,false,false,false⟩,⟨some .internalNl,true,false,false,none,false,false,false,false,false,false⟩],[⟨none,true,false,false,none,false,false,false,false,false,false⟩,⟨some .internalNl,true,false,false,none,false,false,false,false,false,false⟩],[⟨none,true,false,false,none,false,false,false,false,false,false⟩,⟨some .internalNl,true,false,false,none,false,false,false,false,false,false⟩],[⟨none,true,false,false,none,false,false,false,false,false,false⟩,⟨some .internalNl,true,false,false,none,false,false,false,false,false,false⟩],[⟨none,true,false,false,none,false,false,false,false,false,false⟩,⟨some .internalNl,true,false,false,none,false,false,false,false,false,false⟩],[⟨none,false,false,false,none,false,false,false,false,false,false⟩],[⟨none,true,false,false,none,false,false,false,false,false,false⟩,⟨some .internalNl,true,false,false,none,false,false,false,false,false,false⟩],[⟨none,true,false,false,none,false,false,false,false,false,false⟩,⟨some .internalNl,true,false,false,none,false,false,false,false,false,false⟩],[⟨none,true,false,false,none,false,false,false,false,false,false⟩],[⟨none,false,false,false,none,false,false,false,false,false,false⟩],[⟨none,true,false,false,none,false,false,false,false,false,false⟩],[⟨none,true,false,false,none,false,false,false,false,false,false⟩],[⟨none,true,false,false,none,false,false,false,false,false,false⟩],[⟨none,true,false,false,none,false,false,false,false,false,false⟩],[⟨none,true,false,false,none,false,false,false,false,false,false⟩],[⟨none,true,false,false,none,false,false,false,false,false,false⟩],[⟨none,true,false,false,none,false,false,false,false,false,false⟩]]
theorem jsp_w0_closed : closed emb25_rows jsp_w0_tab (XA.init jsp_wopt) (XA.succ jsp_M jsp_wopt 0) (XA.eofOk jsp_M jsp_wopt 0) = true := by
  decide +kernel
def jsp_w0 : XCert jsp_M jsp_wopt 0 := ⟨emb25_D, jsp_w0_tab, jsp_w0_closed⟩
def jsp_w1_tab : List (List XA) := [[⟨none,false,false,false,none,false,false,false,false,false,false⟩],[⟨none,true,false,false,none,false,false,false,false,false,false⟩,⟨some .internalNl,true,false,false,none,false,false,false,false,false,false⟩],[⟨none,false,false,false,none,false,false,false,false,false,false⟩,⟨none,false,true,false,none,false,false,false,false,false,false⟩,⟨some .internalNl,false,true,false,none,false,false,false,false,false,false⟩,⟨some .internalNl,false,false,false,none,false,false,false,false,false,false⟩],[⟨none,true,false,false,none,false,false,false,false,false,false⟩,⟨some .internalNl,true,false,false,none,false,false,false,false,false,false⟩],[⟨none,true,false,false,none,false,false,false,false,false,false⟩,⟨some .internalNl,true,false,false,none,false,false,false,false,false,false⟩],[⟨none,true,false,false,none,false,false,false,false,false,false⟩,⟨some .internalNl,true,false,false,none,false,false,false,false,false,false⟩],[⟨none,true,false,false,none,false,false,false,false,false,false⟩,⟨some .internalNl,true,false,false,none,false,false,false,false,false,false⟩],[⟨none,true,false,false,none,false,false,false,false,false,false⟩,⟨some .internalNl,true,false,false,none,false,false,false,false,false,false⟩],[⟨none,true,false,false,none,false,false,false,false,false,false⟩,⟨some .internalNl,true,false,false,none,false,false,false,false,false,false⟩],[⟨some .internalNl,true,false,false,none,false,false,false,false,false,false⟩,⟨none,true,false,false,none,false,false,false,false,false,false⟩],[⟨some .internalNl,true,false,false,none,false,false,false,false,false,false⟩],[⟨none,true,false,false,none,false,false,false,false,false,false⟩,⟨some .internalNl,true,false,false,none,false,false,false,false,false,false⟩],[⟨none,false,true,false,none,false,false,false,false,false,false⟩,⟨some .internalNl,false,true,false,none,false,false,false,false,false,false⟩],[⟨none,true,false,false,none,false,false,false,false,false,false⟩,⟨some .internalNl,true,false,false,none,false,false,false,false,false,false⟩],[⟨none,true,false,false,none,false,false,false,false,false,false⟩,⟨some .internalNl,true,false,false,none,false,false,false,false,false,false⟩],[⟨none,true,false,false,none,false,false,false,false,false,false⟩,⟨some .internalNl,true,false,false,none,false,false,false,false,false,false⟩],[⟨none,true,false,false,none,false,false,false,false,false,false⟩,⟨some .internalNl,true,false,false,none,false,false,false,false,false,false⟩],[⟨none,false,false,false,none,false,false,false,false,false,false⟩],[],[⟨none,true,false,false,none,false,false,false,false,false,false⟩,⟨some .internalNl,true,false,false,none,false,false,false,false,false,false⟩],[⟨none,true,false,false,none,false,false,false,false,false,false⟩,⟨some .internalNl,true,false,false,none,false,false,false,false,false,false⟩],[⟨none,true,false,false,none,false,false,false,false,false,false⟩,⟨none,false,true,false,none,false,false,false,false,false,false⟩,⟨some .internalNl,true,false,false,none,false,false,false,false,false,false⟩,⟨some .internalNl,false,true,false,none,false,false,false,false,false,false⟩],[⟨some .internalNl,true,false,false,none,false,false,false,false,false,false⟩,⟨none,true,false,false,none,false,false,false,false,false,false⟩],[⟨some .internalNl,false,true,false,none,false,false,false,false,false,false⟩,⟨some .internalNl,false,false,false,none,false,false,false,false,false,false⟩,⟨none,false,true,false,none,false,false,false,false,false,false⟩,⟨none,false,false,false,none,false,false,false,false,false,false⟩],[⟨none,true,false,false,none,false,false,false,false,false,false⟩,⟨some .internalNl,true,false,false,none,false,false,false,false,false,false⟩],[⟨none,true,false,false,none,false,false,false,false,false,false⟩,⟨some .internalNl,true,false,false,none,false,false,false,false,false,false⟩],[⟨none,true,false,false,none,false,false,false,false,false,false⟩,⟨some .internalNl,true,false,false,none,false,false,false,false,false,false⟩],[⟨none,true,false,false,none,false,false,false,false,false,false⟩,⟨some .internalNl,true,false,false,none,false,false,false,false,false,false⟩],[],[⟨some .internalNl,true,false,false,none,false,false,false,false,false,false⟩,⟨none,true,false,false,none,false,false,false,false,false,false⟩],[⟨some .internalNl,true,false,false,none,false,false,false,false,false,false⟩,⟨none,true,false,false,none,false,false,false,false,false,false⟩],[⟨some .internalNl,true,false,false,none,false,false,false,false,false,false⟩,⟨none,true,false,false,none,false,false,false,false,false,false⟩],[⟨none,true,false,false,none,false,false,false,false,false,false⟩],[⟨none,false,false,false,none,false,false,false,false,false,false⟩],[⟨none,true,false,false,none,false,false,false,false,false,false⟩],[⟨none,true,false,false,none,false,false,false,false,false,false⟩],[⟨none,true,false,false,none,false,false,false,false,false,false⟩],[⟨none,true,false,false,none,false,false,false,false,false,false⟩],[],[⟨none,true,false,false,none,false,false,false,false,false,false⟩],[⟨none,true,false,false,none,false,false,false,false,false,false⟩],[⟨none,true,false,false,none,false,false,false,false,false,false⟩,⟨some .internalNl,true,false,false,none,false,false,false,false,false,false⟩],[⟨none,false,true,false,none,false,false,false,false,false,false⟩,⟨some .internalNl,false,true,false,none,false,false,false,false,false,false⟩],[⟨none,true,false,false,none,false,false,false,false,false,false⟩,⟨some .internalNl,true,false,false,none,false,false,false,false,false,false⟩],[⟨none,true,false,false,none,false,false,false,false,false,false⟩,⟨some .internalNl,true,false,false,none,false,false,false,false,false,false⟩],[⟨none,true,false,false,none,false,false,false,false,false,false⟩,⟨some .internalNl,true,false,false,none,false,false,false,false,false,false⟩],[⟨none,true,false,false,none,false,false,false,false,false,false⟩,⟨some .internalNl,true,false,false,none,false,false,false,false,false,false⟩],[⟨none,false,false,false,none,false,false,false,false,false,false⟩],[],[⟨none,true,false,false,none,false,false,false,false,false,false⟩,⟨some .internalNl,true,false,false,none,false,false,false,false,false,false⟩],[⟨none,true,false,false,none,false,false,false,false,false,false⟩,⟨some .internalNl,true,false,false,none,false,false,false,false,false,false⟩],[⟨none,true,false,false,none,false,false,false,false,false,false⟩,⟨some .internalNl,true,false,false,none,false,false,false,false,false,false⟩],[⟨none,false,true,false,none,false,false,false,false,false,false⟩,⟨some .internalNl,false,true,false,none,false,false,false,false,false,false⟩],[],[⟨none,true,false,false,none,false,false,false,false,false,false⟩,⟨some .internalNl,true,false,false,none,false,false,false,false,false,false⟩],[⟨none,true,false,false,none,false,false,false,false,false,false⟩,⟨some .internalNl,true,false,false,none,false,false,false,false,false,false⟩],[⟨none,true,false,false,none,false,false,false,false,false,false⟩],[⟨none,false,false,false,none,false,false,false,false,false,false⟩],[⟨none,true,false,false,none,false,false,false,false,false,false⟩],[⟨none,true,false,false,none,false,false,false,false,false,false⟩],[⟨none,true,false,false,none,false,false,false,false,false,false⟩],[⟨none,true,false,false,none,false,false,false,false,false,false⟩],[],[⟨none,true,false,false,none,false,false,false,false,false,false⟩],[⟨none,true,false,false,none,false,false,false,false,false,false⟩]]
theorem jsp_w1_closed : closed emb26_rows jsp_w1_tab (XA.init jsp_wopt) (XA.succ jsp_M jsp_wopt 1) (XA.eofOk jsp_M jsp_wopt 1) = true := by
  decide +kernel
def jsp_w1 : XCert jsp_M jsp_wopt 1 := ⟨emb26_D, jsp_w1_tab, jsp_w1_closed⟩
def jsp_w2_tab : List (List XA) := [[⟨none,false,false,false,none,false,false,false,false,false,false⟩],[⟨none,true,false,false,none,false,false,false,false,false,false⟩,⟨some .internalNl,true,false,false,none,false,false,false,false,false,false⟩],[⟨none,false,false,false,none,false,false,false,false,false,false⟩,⟨none,false,true,false,none,false,false,false,false,false,false⟩,⟨some .internalNl,false,true,false,none,false,false,false,false,false,false⟩,⟨some .internalNl,false,false,false,none,false,false,false,false,false,false⟩],[⟨none,true,false,false,none,false,false,false,false,false,false⟩,⟨some .internalNl,true,false,false,none,false,false,false,false,false,false⟩],[⟨none,true,false,false,none,false,false,false,false,false,false⟩,⟨some .internalNl,true,false,false,none,false,false,false,false,false,false⟩],[⟨none,true,false,false,none,false,false,false,false,false,false⟩,⟨some .internalNl,true,false,false,none,false,false,false,false,false,false⟩],[⟨none,true,false,false,none,false,false,false,false,false,false⟩,⟨some .internalNl,true,false,false,none,false,false,false,false,false,false⟩],[⟨none,true,false,false,none,false,false,false,false,false,false⟩,⟨some .internalNl,true,false,false,none,false,false,false,false,false,false⟩],[⟨none,true,false,false,none,false,false,false,false,false,false⟩,⟨some .internalNl,true,false,false,none,false,false,false,false,false,false⟩],[⟨some .internalNl,true,false,false,none,false,false,false,false,false,false⟩,⟨none,true,false,false,none,false,false,false,false,false,false⟩],[⟨some .internalNl,true,false,false,none,false,false,false,false,false,false⟩],[⟨none,true,false,false,none,false,false,false,false,false,false⟩,⟨some .internalNl,true,false,false,none,false,false,false,false,false,false⟩],[⟨none,false,true,false,none,false,false,false,false,false,false⟩,⟨some .internalNl,false,true,false,none,false,false,false,false,false,false⟩],[⟨none,true,false,false,none,false,false,false,false,false,false⟩,⟨some .internalNl,true,false,false,none,false,false,false,false,false,false⟩],[⟨none,true,false,false,none,false,false,false,false,false,false⟩,⟨some .internalNl,true,false,false,none,false,false,false,false,false,false⟩],[⟨none,true,false,false,none,false,false,false,false,false,false⟩,⟨some .internalNl,true,false,false,none,false,false,false,false,false,false⟩],[⟨none,true,false,false,none,false,false,false,false,false,false⟩,⟨some .internalNl,true,false,false,none,false,false,false,false,false,false⟩],[],[⟨none,false,false,false,none,false,false,false,false,false,false⟩],[⟨none,true,false,false,none,false,false,false,false,false,false⟩,⟨some .internalNl,true,false,false,none,false,false,false,false,false,false⟩],[⟨none,true,false,false,none,false,false,false,false,false,false⟩,⟨some .internalNl,true,false,false,none,false,false,false,false,false,false⟩],[⟨none,true,false,false,none,false,false,false,false,false,false⟩,⟨none,false,true,false,none,false,false,false,false,false,false⟩,⟨some .internalNl,true,false,false,none,false,false,false,false,false,false⟩,⟨some .internalNl,false,true,false,none,false,false,false,false,false,false⟩],[⟨some .internalNl,true,false,false,none,false,false,false,false,false,false⟩,⟨none,true,false,false,none,false,false,false,false,false,false⟩],[⟨some .internalNl,false,true,false,none,false,false,false,false,false,false⟩,⟨some .internalNl,false,false,false,none,false,false,false,false,false,false⟩,⟨none,false,true,false,none,false,false,false,false,false,false⟩,⟨none,false,false,false,none,false,false,false,false,false,false⟩],[⟨none,true,false,false,none,false,false,false,false,false,false⟩,⟨some .internalNl,true,false,false,none,false,false,false,false,false,false⟩],[⟨none,true,false,false,none,false,false,false,false,false,false⟩,⟨some .internalNl,true,false,false,none,false,false,false,false,false,false⟩],[⟨none,true,false,false,none,false,false,false,false,false,false⟩,⟨some .internalNl,true,false,false,none,false,false,false,false,false,false⟩],[⟨none,true,false,false,none,false,false,false,false,false,false⟩,⟨some .internalNl,true,false,false,none,false,false,false,false,false,false⟩],[],[⟨some .internalNl,true,false,false,none,false,false,false,false,false,false⟩,⟨none,true,false,false,none,false,false,false,false,false,false⟩],[⟨some .internalNl,true,false,false,none,false,false,false,false,false,false⟩,⟨none,true,false,false,none,false,false,false,false,false,false⟩],[⟨some .internalNl,true,false,false,none,false,false,false,false,false,false⟩,⟨none,true,false,false,none,false,false,false,false,false,false⟩],[⟨none,true,false,false,none,false,false,false,false,false,false⟩],[⟨none,false,false,false,none,false,false,false,false,false,false⟩],[⟨none,true,false,false,none,false,false,false,false,false,false⟩],[⟨none,true,false,false,none,false,false,false,false,false,false⟩],[⟨none,true,false,false,none,false,false,false,false,false,false⟩],[⟨none,true,false,false,none,false,false,false,false,false,false⟩],[],[⟨none,true,false,false,none,false,false,false,false,false,false⟩],[⟨none,true,false,false,none,false,false,false,false,false,false⟩],[⟨none,true,false,false,none,false,false,false,false,false,false⟩,⟨some .internalNl,true,false,false,none,false,false,false,false,false,false⟩],[⟨none,false,true,false,none,false,false,false,false,false,false⟩,⟨some .internalNl,false,true,false,none,false,false,false,false,false,false⟩],[⟨none,true,false,false,none,false,false,false,false,false,false⟩,⟨some .internalNl,true,false,false,none,false,false,false,false,false,false⟩],[⟨none,true,false,false,none,false,false,false,false,false,false⟩,⟨some .internalNl,true,false,false,none,false,false,false,false,false,false⟩],[⟨none,true,false,false,none,false,false,false,false,false,false⟩,⟨some .internalNl,true,false,false,none,false,false,false,false,false,false⟩],[⟨none,true,false,false,none,false,false,false,false,false,false⟩,⟨some .internalNl,true,false,false,none,false,false,false,false,false,false⟩],[],[⟨none,false,false,false,none,false,false,false,false,false,false⟩],[⟨none,true,false,false,none,false,false,false,false,false,false⟩,⟨some .internalNl,true,false,false,none,false,false,false,false,false,false⟩],[⟨none,true,false,false,none,false,false,false,false,false,false⟩,⟨some .internalNl,true,false,false,none,false,false,false,false,false,false⟩],[⟨none,true,false,false,none,false,false,false,false,false,false⟩,⟨some .internalNl,true,false,false,none,false,false,false,false,false,false⟩],[⟨none,false,true,false,none,false,false,false,false,false,false⟩,⟨some .internalNl,false,true,false,none,false,false,false,false,false,false⟩],[],[⟨none,true,false,false,none,false,false,false,false,false,false⟩,⟨some .internalNl,true,false,false,none,false,false,false,false,false,false⟩],[⟨none,true,false,false,none,false,false,false,false,false,false⟩,⟨some .internalNl,true,false,false,none,false,false,false,false,false,false⟩],[⟨none,true,false,false,none,false,false,false,false,false,false⟩],[⟨none,false,false,false,none,false,false,false,false,false,false⟩],[⟨none,true,false,false,none,false,false,false,false,false,false⟩],[⟨none,true,false,false,none,false,false,false,false,false,false⟩],[⟨none,true,false,false,none,false,false,false,false,false,false⟩],[⟨none,true,false,false,none,false,false,false,false,false,false⟩],[],[⟨none,true,false,false,none,false,false,false,false,false,false⟩],[⟨none,true,false,false,none,false,false,false,false,false,false⟩]]
theorem jsp_w2_closed : closed emb27_rows jsp_w2_tab (XA.init jsp_wopt) (XA.succ jsp_M jsp_wopt 2) (XA.eofOk jsp_M jsp_wopt 2) = true := by
  decide +kernel
def jsp_w2 : XCert jsp_M jsp_wopt 2 := ⟨emb27_D, jsp_w2_tab, jsp_w2_closed⟩
theorem jsp_solid : ∀ m ∈ jsp_wopt.use, Nonempty (XCert jsp_M jsp_wopt m) :=
  (List.forall_mem_cons.mpr ⟨⟨jsp_w6⟩,
  (List.forall_mem_cons.mpr ⟨⟨jsp_w3⟩,
  (List.forall_mem_cons.mpr ⟨⟨jsp_w4⟩,
  (List.forall_mem_cons.mpr ⟨⟨jsp_w5⟩,
  (List.forall_mem_cons.mpr ⟨⟨jsp_w0⟩,
  (List.forall_mem_cons.mpr ⟨⟨jsp_w1⟩,
  (List.forall_mem_cons.mpr ⟨⟨jsp_w2⟩,
  (fun _ h => nomatch h)⟩)⟩)⟩)⟩)⟩)⟩)⟩)

def phphtml_wopt : WOpt := ⟨false, false, [6, 3, 4, 5, 0, 1, 2]⟩
def phphtml_w6_tab : List (List XA) := [[⟨none,false,false,false,none,false,false,false,false,false,false⟩],[⟨some (.own 0),false,false,false,some 3,false,false,false,false,false,false⟩],[⟨some .newline,true,false,false,none,false,false,false,false,false,false⟩],[⟨some .newline,true,false,true,some 7,false,false,false,false,false,false⟩],[⟨some (.own 5),true,false,true,some 8,false,false,false,false,false,false⟩],[⟨some (.own 5),true,false,true,some 8,false,false,false,false,false,false⟩],[⟨some .checkBlank,true,false,true,some 2,false,false,false,false,false,false⟩],[⟨some (.own 5),true,false,true,some 8,false,false,false,false,false,false⟩],[⟨some (.own 5),true,false,true,some 8,false,false,false,false,false,false⟩],[⟨some .checkBlank,true,false,true,some 2,false,false,false,false,false,false⟩],[⟨some (.own 5),true,false,true,some 8,false,false,false,false,false,false⟩],[⟨some (.own 5),true,false,true,some 8,false,false,false,false,false,false⟩],[⟨some .checkBlank,true,false,true,some 2,false,false,false,false,false,false⟩],[⟨some (.own 5),true,false,true,some 8,false,false,false,false,false,false⟩],[⟨some (.own 5),true,false,true,some 8,false,false,false,false,false,false⟩],[⟨some (.own 5),true,false,true,some 8,false,false,false,false,false,false⟩],[⟨some (.own 5),true,false,true,some 8,false,false,false,false,false,false⟩],[⟨some (.own 5),true,false,true,some 8,false,false,false,false,false,false⟩],[⟨some (.own 5),true,false,true,some 8,false,false,false,false,false,false⟩],[⟨some (.own 5),true,false,true,some 8,false,false,false,false,false,false⟩],[⟨some (.own 5),true,false,true,some 8,false,false,false,false,false,false⟩,⟨some (.own 5),false,true,true,some 8,false,false,false,false,false,false⟩,⟨some (.own 5),false,false,true,some 8,false,false,false,false,false,false⟩],[⟨some (.own 5),true,false,true,some 8,false,false,false,false,false,false⟩,⟨some (.own 5),false,true,true,some 8,false,false,false,false,false,false⟩,⟨some (.own 5),false,false,true,some 8,false,false,false,false,false,false⟩],[⟨some (.own 5),true,false,true,some 8,false,false,false,false,false,false⟩],[⟨some (.own 5),true,false,true,some 8,false,false,false,false,false,false⟩],[⟨some (.own 5),true,false,true,some 8,false,false,false,false,false,false⟩],[⟨some (.own 5),true,false,true,some 8,false,false,false,false,false,false⟩],[⟨some (.own 5),true,false,true,some 8,false,false,false,false,false,false⟩],[⟨some (.own 5),true,false,true,some 8,false,false,false,false,false,false⟩],[⟨some (.own 5),true,false,true,some 8,false,false,false,false,false,false⟩],[⟨some (.own 5),true,false,true,some 8,false,false,false,false,false,false⟩],[⟨some (.own 5),true,false,true,some 8,false,false,false,false,false,false⟩],[⟨some (.own 5),true,false,true,some 8,false,false,false,false,false,false⟩],[⟨some (.own 5),true,false,true,some 8,false,false,false,false,false,false⟩],[⟨some (.own 5),true,false,true,some 8,false,false,false,false,false,false⟩],[⟨some (.own 5),true,false,true,some 8,false,false,false,false,false,false⟩],[⟨some (.own 5),true,false,true,some 8,false,false,false,false,false,false⟩],[⟨some (.own 5),true,false,true,some 8,false,false,false,false,false,false⟩],[⟨some (.own 5),true,false,true,some 8,false,false,false,false,false,false⟩],[⟨some (.own 5),true,false,true,some 8,false,false,false,false,false,false⟩,⟨some (.own 5),false,true,true,some 8,false,false,false,false,false,false⟩,⟨some (.own 5),false,false,true,some 8,false,false,false,false,false,false⟩],[⟨some (.own 5),true,false,true,some 8,false,false,false,false,false,false⟩],[⟨some (.own 5),true,false,true,some 8,false,false,false,false,false,false⟩],[⟨some (.own 5),true,false,true,some 8,false,false,false,false,false,false⟩],[⟨some (.own 5),true,false,true,some 8,false,false,false,false,false,false⟩],[⟨some (.own 5),true,false,true,some 8,false,false,false,false,false,false⟩],[⟨some (.own 5),true,false,true,some 8,false,false,false,false,false,false⟩],[⟨some (.own 5),true,false,true,some 8,false,false,false,false,false,false⟩],[⟨some (.own 5),true,false,true,some 8,false,false,false,false,false,false⟩,⟨some (.own 5),false,true,true,some 8,false,false,false,false,false,false⟩,⟨some (.own 5),false,false,true,some 8,false,false,false,false,false,false⟩]]
theorem phphtml_w6_closed : closed emb36_rows phphtml_w6_tab (XA.init phphtml_wopt) (XA.succ phphtml_M phphtml_wopt 6) (XA.eofOk phphtml_M phphtml_wopt 6) = true := by
  decide +kernel
def phphtml_w6 : XCert phphtml_M phphtml_wopt 6 := ⟨emb36_D, phphtml_w6_tab, phphtml_w6_closed⟩
def phphtml_w3_tab : List (List XA) := [[⟨none,false,false,false,none,false,false,false,false,false,false⟩],[⟨some (.own 0),false,false,false,some 1,false,false,false,false,false,false⟩],[⟨some .newline,true,false,false,none,false,false,false,false,false,false⟩],[⟨some .newline,true,false,true,some 4,false,false,false,false,false,false⟩],[⟨some (.own 9),true,false,true,some 5,false,false,false,false,false,false⟩],[⟨some (.own 9),true,false,true,some 5,false,false,false,false,false,false⟩],[⟨some (.own 9),true,false,true,some 5,false,false,false,false,false,false⟩],[⟨some (.own 9),true,false,true,some 5,false,false,false,false,false,false⟩],[⟨some (.own 9),true,false,true,some 5,false,false,false,false,false,false⟩,⟨some .internalNl,true,false,true,some 5,false,false,false,false,false,false⟩],[⟨some (.own 9),false,true,true,some 5,false,false,false,false,false,false⟩,⟨some (.own 9),false,false,true,some 5,false,false,false,false,false,false⟩,⟨some .internalNl,false,true,true,some 5,false,false,false,false,false,false⟩,⟨some .internalNl,false,false,true,some 5,false,false,false,false,false,false⟩],[⟨some (.own 9),true,false,true,some 5,false,false,false,false,false,false⟩,⟨some .internalNl,true,false,true,some 5,false,false,false,false,false,false⟩],[⟨some (.own 9),true,false,true,some 5,false,false,false,false,false,false⟩,⟨some .internalNl,true,false,true,some 5,false,false,false,false,false,false⟩],[⟨some (.own 9),true,false,true,some 5,false,false,false,false,false,false⟩,⟨some .internalNl,true,false,true,some 5,false,false,false,false,false,false⟩],[⟨some (.own 9),true,false,true,some 5,false,false,false,false,false,false⟩,⟨some .internalNl,true,false,true,some 5,false,false,false,false,false,false⟩],[⟨some (.own 9),true,false,true,some 5,false,false,false,false,false,false⟩,⟨some .internalNl,true,false,true,some 5,false,false,false,false,false,false⟩],[⟨some (.own 9),true,false,true,some 5,false,false,false,false,false,false⟩,⟨some .internalNl,true,false,true,some 5,false,false,false,false,false,false⟩],[⟨some (.own 9),false,true,true,some 5,false,false,false,false,false,false⟩,⟨some (.own 9),false,false,true,some 5,false,false,false,false,false,false⟩,⟨some .internalNl,false,true,true,some 5,false,false,false,false,false,false⟩,⟨some .internalNl,false,false,true,some 5,false,false,false,false,false,false⟩],[⟨some (.own 9),true,false,true,some 5,false,false,false,false,false,false⟩,⟨some .internalNl,true,false,true,some 5,false,false,false,false,false,false⟩],[⟨some (.own 9),true,false,true,some 5,false,false,false,false,false,false⟩,⟨some .internalNl,true,false,true,some 5,false,false,false,false,false,false⟩],[⟨some (.own 9),true,false,true,some 5,false,false,false,false,false,false⟩,⟨some .internalNl,true,false,true,some 5,false,false,false,false,false,false⟩],[⟨some (.own 9),true,false,true,some 5,false,false,false,false,false,false⟩,⟨some .internalNl,true,false,true,some 5,false,false,false,false,false,false⟩],[⟨some (.own 9),true,false,true,some 5,false,false,false,false,false,false⟩,⟨some .internalNl,true,false,true,some 5,false,false,false,false,false,false⟩],[⟨some (.own 9),true,false,true,some 5,false,false,false,false,false,false⟩],[⟨some (.own 9),true,false,true,some 5,false,false,false,false,false,false⟩],[⟨some .internalNl,true,false,true,some 5,false,false,false,false,false,false⟩,⟨some (.own 9),true,false,true,some 5,false,false,false,false,false,false⟩],[⟨some .internalNl,true,false,true,some 5,false,false,false,false,false,false⟩],[⟨some (.own 9),true,false,true,some 5,false,false,false,false,false,false⟩,⟨some (.own 9),false,true,true,some 5,false,false,false,false,false,false⟩,⟨some .internalNl,true,false,true,some 5,false,false,false,false,false,false⟩,⟨some .internalNl,false,true,true,some 5,false,false,false,false,false,false⟩],[⟨some .internalNl,true,false,true,some 5,false,false,false,false,false,false⟩,⟨some (.own 9),true,false,true,some 5,false,false,false,false,false,false⟩],[⟨some .internalNl,true,false,true,some 5,false,false,false,false,false,false⟩],[⟨some (.own 9),true,false,true,some 5,false,false,false,false,false,false⟩,⟨some (.own 9),false,true,true,some 5,false,false,false,false,false,false⟩,⟨some .internalNl,true,false,true,some 5,false,false,false,false,false,false⟩,⟨some .internalNl,false,true,true,some 5,false,false,false,false,false,false⟩],[⟨some (.own 9),true,false,true,some 5,false,false,false,false,false,false⟩,⟨some .internalNl,true,false,true,some 5,false,false,false,false,false,false⟩],[⟨some (.own 9),false,true,true,some 5,false,false,false,false,false,false⟩,⟨some .internalNl,false,true,true,some 5,false,false,false,false,false,false⟩,⟨some .internalNl,false,false,true,some 5,false,false,false,false,false,false⟩,⟨some (.own 9),false,false,true,some 5,false,false,false,false,false,false⟩],[⟨some (.own 9),true,false,true,some 5,false,false,false,false,false,false⟩,⟨some .internalNl,true,false,true,some 5,false,false,false,false,false,false⟩],[⟨some (.own 9),true,false,true,some 5,false,false,false,false,false,false⟩,⟨some .internalNl,true,false,true,some 5,false,false,false,false,false,false⟩],[⟨some (.own 9),true,false,true,some 5,false,false,false,false,false,false⟩,⟨some .internalNl,true,false,true,some 5,false,false,false,false,false,false⟩],[⟨some (.own 9),true,false,true,some 5,false,false,false,false,false,false⟩,⟨some .internalNl,true,false,true,some 5,false,false,false,false,false,false⟩],[⟨some (.own 9),true,false,true,some 5,false,false,false,false,false,false⟩,⟨some .internalNl,true,false,true,some 5,false,false,false,false,false,false⟩],[⟨some (.own 9),true,false,true,some 5,false,false,false,false,false,false⟩],[⟨some .internalNl,true,false,true,some 5,false,false,false,false,false,false⟩,⟨some (.own 9),true,false,true,some 5,false,false,false,false,false,false⟩],[⟨some .internalNl,true,false,true,some 5,false,false,false,false,false,false⟩],[⟨some (.own 9),true,false,true,some 5,false,false,false,false,false,false⟩],[⟨some (.own 9),true,false,true,some 5,false,false,false,false,false,false⟩],[⟨some (.own 9),true,false,true,some 5,false,false,false,false,false,false⟩],[⟨some (.own 9),true,false,true,some 5,false,false,false,false,false,false⟩],[⟨some (.own 9),false,true,true,some 5,false,false,false,false,false,false⟩,⟨some .internalNl,false,true,true,some 5,false,false,false,false,false,false⟩,⟨some .internalNl,false,false,true,some 5,false,false,false,false,false,false⟩,⟨some (.own 9),false,false,true,some 5,false,false,false,false,false,false⟩],[⟨some .internalNl,true,false,true,some 5,false,false,false,false,false,false⟩],[⟨some .internalNl,true,false,true,some 5,false,false,false,false,false,false⟩],[⟨some (.own 9),true,false,true,some 5,false,false,false,false,false,false⟩,⟨some .internalNl,true,false,true,some 5,false,false,false,false,false,false⟩],[⟨some .internalNl,true,false,true,some 5,false,false,false,false,false,false⟩],[⟨some .internalNl,true,false,true,some 5,false,false,false,false,false,false⟩],[⟨some .internalNl,true,false,true,some 5,false,false,false,false,false,false⟩]]
theorem phphtml_w3_closed : closed emb0_rows phphtml_w3_tab (XA.init phphtml_wopt) (XA.succ phphtml_M phphtml_wopt 3) (XA.eofOk phphtml_M phphtml_wopt 3) = true := by
  decide +kernel
def phphtml_w3 : XCert phphtml_M phphtml_wopt 3 := ⟨emb0_D, phphtml_w3_tab, phphtml_w3_closed⟩
def phphtml_w4_tab : List (List XA) := [[⟨none,false,false,false,none,false,false,false,false,false,false⟩],[⟨some (.own 0),false,false,false,some 1,false,false,false,false,false,false⟩],[⟨some .newline,true,false,false,none,false,false,false,false,false,false⟩],[⟨some .newline,true,false,true,some 4,false,false,false,false,false,false⟩],[⟨some (.own 7),true,false,true,some 5,false,false,false,false,false,false⟩],[⟨some (.own 7),true,false,true,some 5,false,false,false,false,false,false⟩],[⟨some (.own 7),true,false,true,some 5,false,false,false,false,false,false⟩],[⟨some (.own 7),true,false,true,some 5,false,false,false,false,false,false⟩],[⟨some (.own 7),true,false,true,some 5,false,false,false,false,false,false⟩,⟨some .internalNl,true,false,true,some 5,false,false,false,false,false,false⟩],[⟨some (.own 7),false,true,true,some 5,false,false,false,false,false,false⟩,⟨some .internalNl,false,true,true,some 5,false,false,false,false,false,false⟩,⟨some .internalNl,false,false,true,some 5,false,false,false,false,false,false⟩,⟨some (.own 7),false,false,true,some 5,false,false,false,false,false,false⟩],[⟨some (.own 7),true,false,true,some 5,false,false,false,false,false,false⟩,⟨some .internalNl,true,false,true,some 5,false,false,false,false,false,false⟩],[⟨some (.own 7),true,false,true,some 5,false,false,false,false,false,false⟩,⟨some .internalNl,true,false,true,some 5,false,false,false,false,false,false⟩],[⟨some (.own 7),false,true,true,some 5,false,false,false,false,false,false⟩,⟨some .internalNl,false,true,true,some 5,false,false,false,false,false,false⟩,⟨some .internalNl,false,false,true,some 5,false,false,false,false,false,false⟩,⟨some (.own 7),false,false,true,some 5,false,false,false,false,false,false⟩],[⟨some (.own 7),true,false,true,some 5,false,false,false,false,false,false⟩,⟨some .internalNl,true,false,true,some 5,false,false,false,false,false,false⟩],[⟨some (.own 7),true,false,true,some 5,false,false,false,false,false,false⟩,⟨some (.own 7),false,true,true,some 5,false,false,false,false,false,false⟩],[⟨some (.own 7),true,false,true,some 5,false,false,false,false,false,false⟩],[⟨some (.own 7),true,false,true,some 2,false,false,false,false,false,false⟩],[⟨some (.own 7),true,false,true,some 5,false,false,false,false,false,false⟩],[⟨some (.own 7),true,false,true,some 5,false,false,false,false,false,false⟩,⟨some (.own 7),false,true,true,some 5,false,false,false,false,false,false⟩,⟨some .internalNl,true,false,true,some 5,false,false,false,false,false,false⟩,⟨some .internalNl,false,true,true,some 5,false,false,false,false,false,false⟩],[⟨some (.own 7),true,false,true,some 5,false,false,false,false,false,false⟩,⟨some .internalNl,true,false,true,some 5,false,false,false,false,false,false⟩],[⟨some (.own 7),true,false,true,some 5,false,false,false,false,false,false⟩,⟨some .internalNl,true,false,true,some 5,false,false,false,false,false,false⟩],[⟨some (.own 7),true,false,true,some 5,false,false,false,false,false,false⟩,⟨some .internalNl,true,false,true,some 5,false,false,false,false,false,false⟩],[⟨some (.own 7),true,false,true,some 5,false,false,false,false,false,false⟩,⟨some .internalNl,true,false,true,some 5,false,false,false,false,false,false⟩],[⟨some (.own 7),true,false,true,some 5,false,false,false,false,false,false⟩,⟨some (.own 7),false,true,true,some 5,false,false,false,false,false,false⟩,⟨some .internalNl,true,false,true,some 5,false,false,false,false,false,false⟩,⟨some .internalNl,false,true,true,some 5,false,false,false,false,false,false⟩],[⟨some (.own 7),true,false,true,some 5,false,false,false,false,false,false⟩,⟨some .internalNl,true,false,true,some 5,false,false,false,false,false,false⟩],[⟨some (.own 7),true,false,true,some 5,false,false,false,false,false,false⟩,⟨some .internalNl,true,false,true,some 5,false,false,false,false,false,false⟩],[⟨some (.own 7),true,false,true,some 5,false,false,false,false,false,false⟩,⟨some .internalNl,true,false,true,some 5,false,false,false,false,false,false⟩],[⟨some (.own 7),true,false,true,some 5,false,false,false,false,false,false⟩,⟨some .internalNl,true,false,true,some 5,false,false,false,false,false,false⟩],[⟨some (.own 7),true,false,true,some 5,false,false,false,false,false,false⟩,⟨some (.own 7),false,false,true,some 5,false,false,false,false,false,false⟩,⟨some (.own 7),false,true,true,some 5,false,false,false,false,false,false⟩],[⟨some (.own 7),true,false,true,some 5,false,false,false,false,false,false⟩],[⟨some (.own 7),true,false,true,some 5,false,false,false,false,false,false⟩,⟨some .internalNl,true,false,true,some 5,false,false,false,false,false,false⟩],[⟨some (.own 7),false,true,true,some 5,false,false,false,false,false,false⟩,⟨some .internalNl,false,true,true,some 5,false,false,false,false,false,false⟩,⟨some .internalNl,false,false,true,some 5,false,false,false,false,false,false⟩,⟨some (.own 7),false,false,true,some 5,false,false,false,false,false,false⟩],[⟨some (.own 7),true,false,true,some 5,false,false,false,false,false,false⟩,⟨some .internalNl,true,false,true,some 5,false,false,false,false,false,false⟩],[⟨some (.own 7),true,false,true,some 5,false,false,false,false,false,false⟩,⟨some .internalNl,true,false,true,some 5,false,false,false,false,false,false⟩],[⟨some (.own 7),true,false,true,some 5,false,false,false,false,false,false⟩,⟨some .internalNl,true,false,true,some 5,false,false,false,false,false,false⟩],[⟨some (.own 7),true,false,true,some 5,false,false,false,false,false,false⟩,⟨some .internalNl,true,false,true,some 5,false,false,false,false,false,false⟩],[⟨some (.own 7),true,false,true,some 5,false,false,false,false,false,false⟩,⟨some .internalNl,true,false,true,some 5,false,false,false,false,false,false⟩],[⟨some (.own 7),true,false,true,some 2,false,false,false,false,false,false⟩,⟨some (.own 7),false,true,false,some 2,false,false,false,false,false,false⟩,⟨some (.own 7),false,false,false,some 2,false,false,false,false,false,false⟩],[⟨some (.own 7),true,false,true,some 5,false,false,false,false,false,false⟩],[⟨some .internalNl,true,false,true,some 5,false,false,false,false,false,false⟩,⟨some (.own 7),true,false,true,some 5,false,false,false,false,false,false⟩],[⟨some .internalNl,true,false,true,some 5,false,false,false,false,false,false⟩],[⟨some .internalNl,true,false,true,some 5,false,false,false,false,false,false⟩,⟨some (.own 7),true,false,true,some 5,false,false,false,false,false,false⟩],[⟨some .internalNl,true,false,true,some 5,false,false,false,false,false,false⟩],[⟨some (.own 7),true,false,true,some 5,false,false,false,false,false,false⟩,⟨some (.own 7),false,true,true,some 5,false,false,false,false,false,false⟩],[⟨some .internalNl,true,false,true,some 5,false,false,false,false,false,false⟩,⟨some (.own 7),true,false,true,some 5,false,false,false,false,false,false⟩],[⟨some .internalNl,true,false,true,some 5,false,false,false,false,false,false⟩],[⟨some (.own 7),true,false,true,some 5,false,false,false,false,false,false⟩],[⟨some (.own 7),true,false,true,some 5,false,false,false,false,false,false⟩],[⟨some (.own 7),true,false,true,some 5,false,false,false,false,false,false⟩],[⟨some (.own 7),true,false,true,some 5,false,false,false,false,false,false⟩],[⟨some (.own 7),true,false,true,some 5,false,false,false,false,false,false⟩],[⟨some (.own 7),false,true,true,some 5,false,false,false,false,false,false⟩,⟨some .internalNl,false,true,true,some 5,false,false,false,false,false,false⟩,⟨some .internalNl,false,false,true,some 5,false,false,false,false,false,false⟩,⟨some (.own 7),false,false,true,some 5,false,false,false,false,false,false⟩],[⟨some .internalNl,true,false,true,some 5,false,false,false,false,false,false⟩],[⟨some .internalNl,true,false,true,some 5,false,false,false,false,false,false⟩],[⟨some (.own 7),true,false,true,some 5,false,false,false,false,false,false⟩,⟨some .internalNl,true,false,true,some 5,false,false,false,false,false,false⟩],[⟨some .internalNl,true,false,true,some 5,false,false,false,false,false,false⟩],[⟨some .internalNl,true,false,true,some 5,false,false,false,false,false,false⟩],[⟨some .internalNl,true,false,true,some 5,false,false,false,false,false,false⟩]]
theorem phphtml_w4_closed : closed emb1_rows phphtml_w4_tab (XA.init phphtml_wopt) (XA.succ phphtml_M phphtml_wopt 4) (XA.eofOk phphtml_M phphtml_wopt 4) = true := by
  decide +kernel
def phphtml_w4 : XCert phphtml_M phphtml_wopt 4 := ⟨emb1_D, phphtml_w4_tab, phphtml_w4_closed⟩
def phphtml_w5_tab : List (List XA) := [[⟨none,false,false,false,none,false,false,false,false,false,false⟩],[⟨some (.own 0),false,false,false,some 1,false,false,false,false,false,false⟩],[⟨some .newline,true,false,false,none,false,false,false,false,false,false⟩],[⟨some .newline,true,false,true,some 4,false,false,false,false,false,false⟩],[⟨some (.own 3),true,false,true,some 5,false,false,false,false,false,false⟩],[⟨some (.own 3),true,false,true,some 2,false,false,false,false,false,false⟩],[⟨some (.own 3),true,false,true,some 5,false,false,false,false,false,false⟩],[⟨some (.own 3),true,false,true,some 5,false,false,false,false,false,false⟩],[],[⟨some (.own 3),true,false,true,some 5,false,false,false,false,false,false⟩,⟨some .internalNl,true,false,true,some 5,false,false,false,false,false,false⟩],[⟨some (.own 3),false,true,true,some 5,false,false,false,false,false,false⟩,⟨some (.own 3),false,false,true,some 5,false,false,false,false,false,false⟩,⟨some .internalNl,false,true,true,some 5,false,false,false,false,false,false⟩,⟨some .internalNl,false,false,true,some 5,false,false,false,false,false,false⟩],[⟨some (.own 3),true,false,true,some 5,false,false,false,false,false,false⟩,⟨some .internalNl,true,false,true,some 5,false,false,false,false,false,false⟩],[⟨some (.own 3),true,false,true,some 5,false,false,false,false,false,false⟩,⟨some .internalNl,true,false,true,some 5,false,false,false,false,false,false⟩],[⟨some (.own 3),true,false,true,some 5,false,false,false,false,false,false⟩,⟨some .internalNl,true,false,true,some 5,false,false,false,false,false,false⟩],[⟨some (.own 3),true,false,true,some 5,false,false,false,false,false,false⟩,⟨some .internalNl,true,false,true,some 5,false,false,false,false,false,false⟩],[⟨some (.own 3),true,false,true,some 5,false,false,false,false,false,false⟩,⟨some .internalNl,true,false,true,some 5,false,false,false,false,false,false⟩],[⟨some (.own 3),true,false,true,some 2,false,false,false,false,false,false⟩,⟨some (.own 3),false,true,false,some 2,false,false,false,false,false,false⟩,⟨some (.own 3),false,false,false,some 2,false,false,false,false,false,false⟩],[⟨some (.own 3),true,false,true,some 5,false,false,false,false,false,false⟩,⟨some .internalNl,true,false,true,some 5,false,false,false,false,false,false⟩],[⟨some (.own 3),false,true,true,some 5,false,false,false,false,false,false⟩,⟨some (.own 3),false,false,true,some 5,false,false,false,false,false,false⟩,⟨some .internalNl,false,true,true,some 5,false,false,false,false,false,false⟩,⟨some .internalNl,false,false,true,some 5,false,false,false,false,false,false⟩],[⟨some (.own 3),true,false,true,some 5,false,false,false,false,false,false⟩,⟨some .internalNl,true,false,true,some 5,false,false,false,false,false,false⟩],[⟨some (.own 3),true,false,true,some 5,false,false,false,false,false,false⟩,⟨some .internalNl,true,false,true,some 5,false,false,false,false,false,false⟩],[⟨some (.own 3),true,false,true,some 5,false,false,false,false,false,false⟩,⟨some .internalNl,true,false,true,some 5,false,false,false,false,false,false⟩],[⟨some (.own 3),true,false,true,some 5,false,false,false,false,false,false⟩,⟨some .internalNl,true,false,true,some 5,false,false,false,false,false,false⟩],[⟨some (.own 3),true,false,true,some 5,false,false,false,false,false,false⟩,⟨some .internalNl,true,false,true,some 5,false,false,false,false,false,false⟩],[⟨some (.own 3),true,false,true,some 5,false,false,false,false,false,false⟩],[⟨some (.own 3),true,false,true,some 2,false,false,false,false,false,false⟩],[⟨some .internalNl,true,false,true,some 5,false,false,false,false,false,false⟩,⟨some (.own 3),true,false,true,some 5,false,false,false,false,false,false⟩],[⟨some .internalNl,true,false,true,some 5,false,false,false,false,false,false⟩],[⟨some (.own 3),true,false,true,some 5,false,false,false,false,false,false⟩,⟨some (.own 3),false,true,true,some 5,false,false,false,false,false,false⟩,⟨some .internalNl,true,false,true,some 5,false,false,false,false,false,false⟩,⟨some .internalNl,false,true,true,some 5,false,false,false,false,false,false⟩],[⟨some .internalNl,true,false,true,some 5,false,false,false,false,false,false⟩,⟨some (.own 3),true,false,true,some 5,false,false,false,false,false,false⟩],[⟨some .internalNl,true,false,true,some 5,false,false,false,false,false,false⟩],[⟨some (.own 3),true,false,true,some 5,false,false,false,false,false,false⟩,⟨some (.own 3),false,true,true,some 5,false,false,false,false,false,false⟩,⟨some .internalNl,true,false,true,some 5,false,false,false,false,false,false⟩,⟨some .internalNl,false,true,true,some 5,false,false,false,false,false,false⟩],[⟨some (.own 3),true,false,true,some 5,false,false,false,false,false,false⟩,⟨some .internalNl,true,false,true,some 5,false,false,false,false,false,false⟩],[⟨some (.own 3),false,true,true,some 5,false,false,false,false,false,false⟩,⟨some .internalNl,false,true,true,some 5,false,false,false,false,false,false⟩,⟨some .internalNl,false,false,true,some 5,false,false,false,false,false,false⟩,⟨some (.own 3),false,false,true,some 5,false,false,false,false,false,false⟩],[⟨some (.own 3),true,false,true,some 5,false,false,false,false,false,false⟩,⟨some .internalNl,true,false,true,some 5,false,false,false,false,false,false⟩],[⟨some (.own 3),true,false,true,some 5,false,false,false,false,false,false⟩,⟨some .internalNl,true,false,true,some 5,false,false,false,false,false,false⟩],[⟨some (.own 3),true,false,true,some 5,false,false,false,false,false,false⟩,⟨some .internalNl,true,false,true,some 5,false,false,false,false,false,false⟩],[⟨some (.own 3),true,false,true,some 5,false,false,false,false,false,false⟩,⟨some .internalNl,true,false,true,some 5,false,false,false,false,false,false⟩],[⟨some (.own 3),true,false,true,some 5,false,false,false,false,false,false⟩,⟨some .internalNl,true,false,true,some 5,false,false,false,false,false,false⟩],[⟨some .internalNl,true,false,true,some 5,false,false,false,false,false,false⟩,⟨some (.own 3),true,false,true,some 5,false,false,false,false,false,false⟩],[⟨some .internalNl,true,false,true,some 5,false,false,false,false,false,false⟩]]
theorem phphtml_w5_closed : closed emb35_rows phphtml_w5_tab (XA.init phphtml_wopt) (XA.succ phphtml_M phphtml_wopt 5) (XA.eofOk phphtml_M phphtml_wopt 5) = true := by
  decide +kernel
def phphtml_w5 : XCert phphtml_M phphtml_wopt 5 := ⟨emb35_D, phphtml_w5_tab, phphtml_w5_closed⟩
def phphtml_w0_tab : List (List XA) := [[⟨none,false,false,false,none,false,false,false,false,false,false⟩],[⟨none,true,false,false,none,false,false,false,false,false,false⟩,⟨some .internalNl,true,false,false,none,false,false,false,false,false,false⟩],[⟨none,false,false,false,none,false,false,false,false,false,false⟩,⟨some .internalNl,false,true,false,none,false,false,false,false,false,false⟩,⟨some .internalNl,false,false,false,none,false,false,false,false,false,false⟩,⟨none,false,true,false,none,false,false,false,false,false,false⟩],[⟨none,true,false,false,none,false,false,false,false,false,false⟩,⟨some .internalNl,true,false,false,none,false,false,false,false,false,false⟩],[⟨none,true,false,false,none,false,false,false,false,false,false⟩,⟨some .internalNl,true,false,false,none,false,false,false,false,false,false⟩],[⟨none,true,false,false,none,false,false,false,false,false,false⟩,⟨some .internalNl,true,false,false,none,false,false,false,false,false,false⟩],[⟨none,true,false,false,none,false,false,false,false,false,false⟩,⟨some .internalNl,true,false,false,none,false,false,false,false,false,false⟩],[⟨none,true,false,false,none,false,false,false,false,false,false⟩,⟨some .internalNl,true,false,false,none,false,false,false,false,false,false⟩],[⟨none,true,false,false,none,false,false,false,false,false,false⟩,⟨some .internalNl,true,false,false,none,false,false,false,false,false,false⟩],[⟨some .internalNl,true,false,false,none,false,false,false,false,false,false⟩,⟨none,true,false,false,none,false,false,false,false,false,false⟩],[⟨some .internalNl,true,false,false,none,false,false,false,false,false,false⟩],[⟨none,true,false,false,none,false,false,false,false,false,false⟩,⟨some .internalNl,true,false,false,none,false,false,false,false,false,false⟩],[⟨none,true,false,false,none,false,false,false,false,false,false⟩,⟨some .internalNl,true,false,false,none,false,false,false,false,false,false⟩],[⟨none,false,true,false,none,false,false,false,false,false,false⟩,⟨some .internalNl,false,true,false,none,false,false,false,false,false,false⟩],[⟨none,true,false,false,none,false,false,false,false,false,false⟩,⟨some .internalNl,true,false,false,none,false,false,false,false,false,false⟩],[⟨none,true,false,false,none,false,false,false,false,false,false⟩,⟨some .internalNl,true,false,false,none,false,false,false,false,false,false⟩],[⟨none,true,false,false,none,false,false,false,false,false,false⟩,⟨some .internalNl,true,false,false,none,false,false,false,false,false,false⟩],[⟨none,true,false,false,none,false,false,false,false,false,false⟩,⟨some .internalNl,true,false,false,none,false,false,false,false,false,false⟩],[⟨none,true,false,false,none,false,false,false,false,false,false⟩,⟨some .internalNl,true,false,false,none,false,false,false,false,false,false⟩],[⟨none,true,false,false,none,false,false,false,false,false,false⟩,⟨some .internalNl,true,false,false,none,false,false,false,false,false,false⟩],[⟨none,true,false,false,none,false,false,false,false,false,false⟩,⟨some .internalNl,true,false,false,none,false,false,false,false,false,false⟩],[⟨none,true,false,false,none,false,false,false,false,false,false⟩,⟨some .internalNl,true,false,false,none,false,false,false,false,false,false⟩],[⟨none,true,false,false,none,false,false,false,false,false,false⟩,⟨some .internalNl,true,false,false,none,false,false,false,false,false,false⟩],[⟨none,false,true,false,none,false,false,false,false,false,false⟩,⟨some .internalNl,false,true,false,none,false,false,false,false,false,false⟩,⟨some .internalNl,false,false,false,none,false,false,false,false,false,false⟩,⟨none,false,false,false,none,false,false,false,false,false,false⟩],[⟨none,true,false,false,none,false,false,false,false,false,false⟩,⟨some .internalNl,true,false,false,none,false,false,false,false,false,false⟩],[⟨none,true,false,false,none,false,false,false,false,false,false⟩,⟨some .internalNl,true,false,false,none,false,false,false,false,false,false⟩],[⟨none,true,false,false,none,false,false,false,false,false,false⟩,⟨some .internalNl,true,false,false,none,false,false,false,false,false,false⟩],[⟨none,true,false,false,none,false,false,false,false,false,false⟩,⟨some .internalNl,true,false,false,none,false,false,false,false,false,false⟩],[⟨none,true,false,false,none,false,false,false,false,false,false⟩,⟨some .internalNl,true,false,false,none,false,false,false,false,false,false⟩],[⟨some .internalNl,true,false,false,none,false,false,false,false,false,false⟩,⟨none,true,false,false,none,false,false,false,false,false,false⟩],[⟨none,true,false,false,none,false,false,false,false,false,false⟩,⟨some .internalNl,true,false,false,none,false,false,false,false,false,false⟩],[⟨some .internalNl,true,false,false,none,false,false,false,false,false,false⟩,⟨none,true,false,false,none,false,false,false,false,false,false⟩],[⟨none,true,false,false,none,false,false,false,false,false,false⟩,⟨some .internalNl,true,false,false,none,false,false,false,false,false,false⟩],[⟨none,true,false,false,none,false,false,false,false,false,false⟩,⟨some .internalNl,true,false,false,none,false,false,false,false,false,false⟩],[⟨none,false,true,false,none,false,false,false,false,false,false⟩,⟨some .internalNl,false,true,false,none,false,false,false,false,false,false⟩],[⟨none,true,false,false,none,false,false,false,false,false,false⟩,⟨some .internalNl,true,false,false,none,false,false,false,false,false,false⟩],[⟨none,true,false,false,none,false,false,false,false,false,false⟩,⟨some .internalNl,true,false,false,none,false,false,false,false,false,false⟩],[⟨none,true,false,false,none,false,false,false,false,false,false⟩,⟨some .internalNl,true,false,false,none,false,false,false,false,false,false⟩],[⟨none,true,false,false,none,false,false,false,false,false,false⟩,⟨some .internalNl,true,false,false,none,false,false,false,false,false,false⟩],[⟨none,true,false,false,none,false,false,false,false,false,false⟩,⟨some .internalNl,true,false,false,none,false,false,false,false,false,false⟩],[⟨none,true,false,false,none,false,false,false,false,false,false⟩,⟨some .internalNl,true,false,false,none,false,false,false,false,false,false⟩],[⟨none,true,false,false,none,false,false,false,false,false,false⟩,⟨some .internalNl,true,false,false,none,false,false,false,false,false,false⟩],[⟨none,true,false,false,none,false,false,false,false,false,false⟩,⟨some .internalNl,true,false,false,none,false,false,false,false,false,false⟩],[⟨none,true,false,false,none,false,false,false,false,false,false⟩,⟨some .internalNl,true,false,false,none,false,false,false,false,false,false⟩],[⟨none,false,true,false,none,false,false,false,false,false,false⟩,⟨some .internalNl,false,true,false,none,false,false,false,false,false,false⟩],[⟨none,true,false,false,none,false,false,false,false,false,false⟩,⟨some .internalNl,true,false,false,none,false,false,false,false,false,false⟩],[⟨none,true,false,false,none,false,false,false,false,false,false⟩,⟨some .internalNl,true,false,false,none,false,false,false,false,false,false⟩],[⟨none,true,false,false,none,false,false,false,false,false,false⟩,⟨some .internalNl,true,false,false,none,false,false,false,false,false,false⟩],[⟨none,true,false,false,none,false,false,false,false,false,false⟩,⟨some .internalNl,true,false,false,none,false,false,false,false,false,false⟩],[⟨none,true,false,false,none,false,false,false,false,false,false⟩,⟨some .internalNl,true,false,false,none,false,false,false,false,false,false⟩],[⟨none,true,false,false,none,false,false,false,false,false,false⟩,⟨some .internalNl,true,false,false,none,false,false,false,false,false,false⟩],[⟨none,true,false,false,none,false,false,false,false,false,false⟩,⟨some .internalNl,true,false,false,none,false,false,false,false,false,false⟩],[⟨none,true,false,false,none,false,false,false,false,false,false⟩,⟨some .internalNl,true,false,false,none,false,false,false,false,false,false⟩],[⟨none,true,false,false,none,false,false,false,false,false,false⟩,⟨some .internalNl,true,false,false,none,false,false,false,false,false,false⟩],[⟨none,false,true,false,none,false,false,false,false,false,false⟩,⟨some .internalNl,false,true,false,none,false,false,false,false,false,false⟩],[⟨none,true,false,false,none,false,false,false,false,false,false⟩,⟨some .internalNl,true,false,false,none,false,false,false,false,false,false⟩],[⟨none,true,false,false,none,false,false,false,false,false,false⟩,⟨some .internalNl,true,false,false,none,false,false,false,false,false,false⟩],[⟨none,true,false,false,none,false,false,false,false,false,false⟩,⟨some .internalNl,true,false,false,none,false,false,false,false,false,false⟩],[⟨none,true,false,false,none,false,false,false,false,false,false⟩,⟨some .internalNl,true,false,false,none,false,false,false,false,false,false⟩],[⟨none,true,false,false,none,false,false,false,false,false,false⟩,⟨some .internalNl,true,false,false,none,false,false,false,false,false,false⟩],[⟨none,true,false,false,none,false,false,false,false,false,false⟩,⟨some .internalNl,true,false,false,none,false,false,false,false,false,false⟩],[⟨none,true,false,false,none,false,false,false,false,false,false⟩,⟨some .internalNl,true,false,false,none,false,false,false,false,false,false⟩],[⟨none,true,false,false,none,false,false,false,false,false,false⟩,⟨some .internalNl,true,false,false,none,false,false,false,false,false,false⟩],[⟨none,true,false,false,none,false,false,false,false,false,false⟩,⟨some .internalNl,true,false,false,none,false,false,false,false,false,false⟩],[⟨none,false,true,false,none,false,false,false,false,false,false⟩,⟨some .internalNl,false,true,false,none,false,false,false,false,false,false⟩],[⟨none,true,false,false,none,false,false,false,false,false,false⟩,⟨some .internalNl,true,false,false,none,false,false,false,false,false,false⟩],[⟨none,true,false,false,none,false,false,false,false,false,false⟩,⟨some .internalNl,true,false,false,none,false,false,false,false,false,false⟩],[⟨none,true,false,false,none,false,false,false,false,false,false⟩,⟨some .internalNl,true,false,false,none,false,false,false,false,false,false⟩],[⟨none,true,false,false,none,false,false,false,false,false,false⟩,⟨some .internalNl,true,false,false,none,false,false,false,false,false,false⟩],[⟨none,true,false,false,none,false,false,false,false,false,false⟩,⟨some .internalNl,true,false,false,none,false,false,false,false,false,false⟩],[⟨none,true,false,false,none,false,false,false,false,false,false⟩,⟨some .internalNl,true,false,false,none,false,false,false,false,false,false⟩],[⟨none,true,false,false,none,false,false,false,false,false,false⟩,⟨some .internalNl,true,false,false,none,false,false,false,false,false,false⟩],[⟨none,true,false,false,none,false,false,false,false,false,false⟩,⟨some .internalNl,true,false,false,none,false,false,false,false,false,false⟩],[⟨none,true,false,false,none,false,false,false,false,false,false⟩,⟨some .internalNl,true,false,false,none,false,false,false,false,false,false⟩],[⟨none,false,true,false,none,false,false,false,false,false,false⟩,⟨some .internalNl,false,true,false,none,false,false,false,false,false,false⟩],[⟨none,true,false,false,none,false,false,false,false,false,false⟩,⟨some .internalNl,true,false,false,none,false,false,false,false,false,false⟩],[⟨none,true,false,false,none,false,false,false,false,false,false⟩,⟨some .internalNl,true,false,false,none,false,false,false,false,false,false⟩],[⟨none,true,false,false,none,false,false,false,false,false,false⟩,⟨some .internalNl,true,false,false,none,false,false,false,false,false,false⟩],[⟨none,true,false,false,none,false,false,false,false,false,false⟩,⟨some .internalNl,true,false,false,none,false,false,false,false,false,false⟩],[⟨none,true,false,false,none,false,false,false,false,false,false⟩,⟨some .internalNl,true,false,false,none,false,false,false,false,false,false⟩],[⟨none,true,false,false,none,false,false,false,false,false,false⟩,⟨some .internalNl,true,false,false,none,false,false,false,false,false,false⟩],[⟨none,true,false,false,none,false,false,false,false,false,false⟩,⟨some .internalNl,true,false,false,none,false,false,false,false,false,false⟩],[⟨none,true,false,false,none,false,false,false,false,false,false⟩,⟨some .internalNl,true,false,false,none,false,false,false,false,false,false⟩],[⟨none,true,false,false,none,false,false,false,false,false,false⟩,⟨some .internalNl,true,false,false,none,false,false,false,false,false,false⟩],[⟨none,false,true,false,none,false,false,false,false,false,false⟩,⟨some .internalNl,false,true,false,none,false,false,false,false,false,false⟩],[⟨none,true,false,false,none,false,false,false,false,false,false⟩,⟨some .internalNl,true,false,false,none,false,false,false,false,false,false⟩],[⟨none,true,false,false,none,false,false,false,false,false,false⟩,⟨some .internalNl,true,false,false,none,false,false,false,false,false,false⟩],[⟨none,true,false,false,none,false,false,false,false,false,false⟩,⟨some .internalNl,true,false,false,none,false,false,false,false,false,false⟩],[⟨none,true,false,false,none,false,false,false,false,false,false⟩,⟨some .internalNl,true,false,false,none,false,false,false,false,false,false⟩],[⟨none,true,false,false,none,false,false,false,false,false,false⟩,⟨some .internalNl,true,false,false,none,false,false,false,false,false,false⟩],[⟨none,true,false,false,none,false,false,false,false,false,false⟩,⟨some .internalNl,true,false,false,none,false,false,false,false,false,false⟩],[⟨none,true,false,false,none,false,false,false,false,false,false⟩,⟨some .internalNl,true,false,false,none,false,false,false,false,false,false⟩],[⟨none,false,false,false,none,false,false,false,false,false,false⟩],[⟨none,true,false,false,none,false,false,false,false,false,false⟩,⟨some .internalNl,true,false,false,none,false,false,false,false,false,false⟩],[⟨none,false,true,false,none,false,false,false,false,false,false⟩,⟨some .internalNl,false,true,false,none,false,false,false,false,false,false⟩],[⟨none,true,false,false,none,false,false,false,false,false,false⟩,⟨some .internalNl,true,false,false,none,false,false,false,false,false,false⟩],[⟨none,true,false,false,none,false,false,false,false,false,false⟩,⟨some .internalNl,true,false,false,none,false,false,false,false,false,false⟩],[⟨none,true,false,false,none,false,false,false,false,false,false⟩,⟨some .internalNl,true,false,false,none,false,false,false,false,false,false⟩],[⟨none,true,false,false,none,false,false,false,false,false,false⟩,⟨some .internalNl,true,false,false,none,false,false,false,false,false,false⟩],[⟨none,true,false,false,none,false,false,false,false,false,false⟩,⟨some .internalNl,true,false,false,none,false,false,false,false,false,false⟩],[⟨none,true,false,false,none,false,false,false,false,false,false⟩,⟨some .internalNl,true,false,false,none,false,false,false,false,false,false⟩],[⟨none,true,false,false,none,false,false,false,false,false,false⟩,⟨some .internalNl,true,false,false,none,false,false,false,false,false,false⟩],[⟨none,false,false,false,none,false,false,false,false,false,false⟩],[⟨none,true,false,false,none,false,false,false,false,false,false⟩],[⟨none,false,false,false,none,false,false,false,false,false,false⟩],[⟨none,true,false,false,none,false,false,false,false,false,false⟩],[⟨none,true,false,false,none,false,false,false,false,false,false⟩],[⟨none,true,false,false,none,false,false,false,false,false,false⟩],[⟨none,true,false,false,none,false,false,false,false,false,false⟩],[⟨none,true,false,false,none,false,false,false,false,false,false⟩],[⟨none,true,false,false,none,false,false,false,false,false,false⟩],[⟨none,true,false,false,none,false,false,false,false,false,false⟩],[⟨none,true,false,false,none,false,false,false,false,false,false⟩],[⟨none,false,false,false,none,false,false,false,false,false,false⟩],[⟨none,true,false,false,none,false,false,false,false,false,false⟩],[⟨none,true,false,false,none,false,false,false,false,false,false⟩],[⟨none,true,false,false,none,false,false,false,false,false,false⟩],[⟨none,true,false,false,none,false,false,false,false,false,false⟩],[⟨none,true,false,false,none,false,false,false,false,false,false⟩],[⟨none,true,false,false,none,false,false,false,false,false,false⟩],[⟨none,true,false,false,none,false,false,false,false,false,false⟩]]
theorem phphtml_w0_closed : closed emb32_rows phphtml_w0_tab (XA.init phphtml_wopt) (XA.succ phphtml_M phphtml_wopt 0) (XA.eofOk phphtml_M phphtml_wopt 0) = true := by
  decide +kernel
def phphtml_w0 : XCert phphtml_M phphtml_wopt 0 := ⟨emb32_D, phphtml_w0_tab, phphtml_w0_closed⟩
def phphtml_w1_tab : List (List XA) := [[⟨none,false,false,false,none,false,false,false,false,false,false⟩],[⟨none,true,false,false,none,false,false,false,false,false,false⟩,⟨some .internalNl,true,false,false,none,false,false,false,false,false,false⟩],[⟨none,false,false,false,none,false,false,false,false,false,false⟩,⟨none,false,true,false,none,false,false,false,false,false,false⟩,⟨some .internalNl,false,true,false,none,false,false,false,false,false,false⟩,⟨some .internalNl,false,false,false,none,false,false,false,false,false,false⟩],[⟨none,true,false,false,none,false,false,false,false,false,false⟩,⟨some .internalNl,true,false,false,none,false,false,false,false,false,false⟩],[⟨none,true,false,false,none,false,false,false,false,false,false⟩,⟨some .internalNl,true,false,false,none,false,false,false,false,false,false⟩],[⟨none,true,false,false,none,false,false,false,false,false,false⟩,⟨some .internalNl,true,false,false,none,false,false,false,false,false,false⟩],[⟨none,true,false,false,none,false,false,false,false,false,false⟩,⟨some .internalNl,true,false,false,none,false,false,false,false,false,false⟩],[⟨none,true,false,false,none,false,false,false,false,false,false⟩,⟨some .internalNl,true,false,false,none,false,false,false,false,false,false⟩],[⟨none,true,false,false,none,false,false,false,false,false,false⟩,⟨some .internalNl,true,false,false,none,false,false,false,false,false,false⟩],[⟨some .internalNl,true,false,false,none,false,false,false,false,false,false⟩,⟨none,true,false,false,none,false,false,false,false,false,false⟩],[⟨some .internalNl,true,false,false,none,false,false,false,false,false,false⟩],[⟨none,true,false,false,none,false,false,false,false,false,false⟩,⟨some .internalNl,true,false,false,none,false,false,false,false,false,false⟩],[⟨none,false,true,false,none,false,false,false,false,false,false⟩,⟨some .internalNl,false,true,false,none,false,false,false,false,false,false⟩],[⟨none,true,false,false,none,false,false,false,false,false,false⟩,⟨some .internalNl,true,false,false,none,false,false,false,false,false,false⟩],[⟨none,true,false,false,none,false,false,false,false,false,false⟩,⟨some .internalNl,true,false,false,none,false,false,false,false,false,false⟩],[⟨none,true,false,false,none,false,false,false,false,false,false⟩,⟨some .internalNl,true,false,false,none,false,false,false,false,false,false⟩],[⟨none,true,false,false,none,false,false,false,false,false,false⟩,⟨some .internalNl,true,false,false,none,false,false,false,false,false,false⟩],[],[⟨none,true,false,false,none,false,false,false,false,false,false⟩,⟨some .internalNl,true,false,false,none,false,false,false,false,false,false⟩],[⟨none,true,false,false,none,false,false,false,false,false,false⟩,⟨some .internalNl,true,false,false,none,false,false,false,false,false,false⟩],[⟨none,true,false,false,none,false,false,false,false,false,false⟩,⟨some .internalNl,true,false,false,none,false,false,false,false,false,false⟩],[⟨none,true,false,false,none,false,false,false,false,false,false⟩,⟨none,false,true,false,none,false,false,false,false,false,false⟩,⟨some .internalNl,true,false,false,none,false,false,false,false,false,false⟩,⟨some .internalNl,false,true,false,none,false,false,false,false,false,false⟩],[⟨some .internalNl,true,false,false,none,false,false,false,false,false,false⟩,⟨none,true,false,false,none,false,false,false,false,false,false⟩],[⟨some .internalNl,false,true,false,none,false,false,false,false,false,false⟩,⟨some .internalNl,false,false,false,none,false,false,false,false,false,false⟩,⟨none,false,true,false,none,false,false,false,false,false,false⟩,⟨none,false,false,false,none,false,false,false,false,false,false⟩],[⟨none,true,false,false,none,false,false,false,false,false,false⟩,⟨some .internalNl,true,false,false,none,false,false,false,false,false,false⟩],[⟨none,true,false,false,none,false,false,false,false,false,false⟩,⟨some .internalNl,true,false,false,none,false,false,false,false,false,false⟩],[⟨none,true,false,false,none,false,false,false,false,false,false⟩,⟨some .internalNl,true,false,false,none,false,false,false,false,false,false⟩],[⟨none,true,false,false,none,false,false,false,false,false,false⟩,⟨some .internalNl,true,false,false,none,false,false,false,false,false,false⟩],[],[⟨some .internalNl,true,false,false,none,false,false,false,false,false,false⟩,⟨none,true,false,false,none,false,false,false,false,false,false⟩],[⟨some .internalNl,true,false,false,none,false,false,false,false,false,false⟩,⟨none,true,false,false,none,false,false,false,false,false,false⟩],[⟨some .internalNl,true,false,false,none,false,false,false,false,false,false⟩,⟨none,true,false,false,none,false,false,false,false,false,false⟩],[⟨none,true,false,false,none,false,false,false,false,false,false⟩,⟨some .internalNl,true,false,false,none,false,false,false,false,false,false⟩],[⟨none,false,true,false,none,false,false,false,false,false,false⟩,⟨some .internalNl,false,true,false,none,false,false,false,false,false,false⟩],[⟨none,true,false,false,none,false,false,false,false,false,false⟩,⟨some .internalNl,true,false,false,none,false,false,false,false,false,false⟩],[⟨none,true,false,false,none,false,false,false,false,false,false⟩,⟨some .internalNl,true,false,false,none,false,false,false,false,false,false⟩],[⟨none,true,false,false,none,false,false,false,false,false,false⟩,⟨some .internalNl,true,false,false,none,false,false,false,false,false,false⟩],[⟨none,true,false,false,none,false,false,false,false,false,false⟩,⟨some .internalNl,true,false,false,none,false,false,false,false,false,false⟩],[],[⟨none,true,false,false,none,false,false,false,false,false,false⟩,⟨some .internalNl,true,false,false,none,false,false,false,false,false,false⟩],[⟨none,true,false,false,none,false,false,false,false,false,false⟩,⟨some .internalNl,true,false,false,none,false,false,false,false,false,false⟩],[⟨none,true,false,false,none,false,false,false,false,false,false⟩,⟨some .internalNl,true,false,false,none,false,false,false,false,false,false⟩],[⟨none,true,false,false,none,false,false,false,false,false,false⟩,⟨some .internalNl,true,false,false,none,false,false,false,false,false,false⟩],[⟨none,false,true,false,none,false,false,false,false,false,false⟩,⟨some .internalNl,false,true,false,none,false,false,false,false,false,false⟩],[⟨none,true,false,false,none,false,false,false,false,false,false⟩,⟨some .internalNl,true,false,false,none,false,false,false,false,false,false⟩],[⟨none,true,false,false,none,false,false,false,false,false,false⟩,⟨some .internalNl,true,false,false,none,false,false,false,false,false,false⟩],[⟨none,true,false,false,none,false,false,false,false,false,false⟩,⟨some .internalNl,true,false,false,none,false,false,false,false,false,false⟩],[⟨none,true,false,false,none,false,false,false,false,false,false⟩,⟨some .internalNl,true,false,false,none,false,false,false,false,false,false⟩],[],[⟨none,true,false,false,none,false,false,false,false,false,false⟩,⟨some .internalNl,true,false,false,none,false,false,false,false,false,false⟩],[⟨none,true,false,false,none,false,false,false,false,false,false⟩,⟨some .internalNl,true,false,false,none,false,false,false,false,false,false⟩],[⟨none,true,false,false,none,false,false,false,false,false,false⟩,⟨some .internalNl,true,false,false,none,false,false,false,false,false,false⟩],[⟨none,true,false,false,none,false,false,false,false,false,false⟩,⟨some .internalNl,true,false,false,none,false,false,false,false,false,false⟩],[⟨none,false,true,false,none,false,false,false,false,false,false⟩,⟨some .internalNl,false,true,false,none,false,false,false,false,false,false⟩],[],[⟨none,true,false,false,none,false,false,false,false,false,false⟩,⟨some .internalNl,true,false,false,none,false,false,false,false,false,false⟩],[⟨none,true,false,false,none,false,false,false,false,false,false⟩,⟨some .internalNl,true,false,false,none,false,false,false,false,false,false⟩],[⟨none,true,false,false,none,false,false,false,false,false,false⟩,⟨some .internalNl,true,false,false,none,false,false,false,false,false,false⟩],[⟨none,false,true,false,none,false,false,false,false,false,false⟩,⟨some .internalNl,false,true,false,none,false,false,false,false,false,false⟩],[⟨none,true,false,false,none,false,false,false,false,false,false⟩,⟨some .internalNl,true,false,false,none,false,false,false,false,false,false⟩],[⟨none,true,false,false,none,false,false,false,false,false,false⟩,⟨some .internalNl,true,false,false,none,false,false,false,false,false,false⟩],[⟨none,true,false,false,none,false,false,false,false,false,false⟩,⟨some .internalNl,true,false,false,none,false,false,false,false,false,false⟩],[⟨none,true,false,false,none,false,false,false,false,false,false⟩,⟨some .internalNl,true,false,false,none,false,false,false,false,false,false⟩],[],[⟨none,true,false,false,none,false,false,false,false,false,false⟩,⟨some .internalNl,true,false,false,none,false,false,false,false,false,false⟩],[⟨none,true,false,false,none,false,false,false,false,false,false⟩,⟨some .internalNl,true,false,false,none,false,false,false,false,false,false⟩],[⟨none,true,false,false,none,false,false,false,false,false,false⟩,⟨some .internalNl,true,false,false,none,false,false,false,false,false,false⟩],[⟨none,true,false,false,none,false,false,false,false,false,false⟩,⟨some .internalNl,true,false,false,none,false,false,false,false,false,false⟩],[⟨none,false,true,false,none,false,false,false,false,false,false⟩,⟨some .internalNl,false,true,false,none,false,false,false,false,false,false⟩],[⟨none,true,false,false,none,false,false,false,false,false,false⟩,⟨some .internalNl,true,false,false,none,false,false,false,false,false,false⟩],[⟨none,true,false,false,none,false,false,false,false,false,false⟩,⟨some .internalNl,true,false,false,none,false,false,false,false,false,false⟩],[⟨none,true,false,false,none,false,false,false,false,false,false⟩,⟨some .internalNl,true,false,false,none,false,false,false,false,false,false⟩],[⟨none,true,false,false,none,false,false,false,false,false,false⟩,⟨some .internalNl,true,false,false,none,false,false,false,false,false,false⟩],[],[⟨none,true,false,false,none,false,false,false,false,false,false⟩,⟨some .internalNl,true,false,false,none,false,false,false,false,false,false⟩],[⟨none,true,false,false,none,false,false,false,false,false,false⟩,⟨some .internalNl,true,false,false,none,false,false,false,false,false,false⟩],[⟨none,true,false,false,none,false,false,false,false,false,false⟩,⟨some .internalNl,true,false,false,none,false,false,false,false,false,false⟩],[⟨none,true,false,false,none,false,false,false,false,false,false⟩,⟨some .internalNl,true,false,false,none,false,false,false,false,false,false⟩],[⟨none,false,true,false,none,false,false,false,false,false,false⟩,⟨some .internalNl,false,true,false,none,false,false,false,false,false,false⟩],[⟨none,true,false,false,none,false,false,false,false,false,false⟩,⟨some .internalNl,true,false,false,none,false,false,false,false,false,false⟩],[⟨none,true,false,false,none,false,false,false,false,false,false⟩,⟨some .internalNl,true,false,false,none,false,false,false,false,false,false⟩],[⟨none,true,false,false,none,false,false,false,false,false,false⟩,⟨some .internalNl,true,false,false,none,false,false,false,false,false,false⟩],[⟨none,true,false,false,none,false,false,false,false,false,false⟩,⟨some .internalNl,true,false,false,none,false,false,false,false,false,false⟩],[],[⟨none,true,false,false,none,false,false,false,false,false,false⟩,⟨some .internalNl,true,false,false,none,false,false,false,false,false,false⟩],[⟨none,true,false,false,none,false,false,false,false,false,false⟩,⟨some .internalNl,true,false,false,none,false,false,false,false,false,false⟩],[⟨none,true,false,false,none,false,false,false,false,false,false⟩,⟨some .internalNl,true,false,false,none,false,false,false,false,false,false⟩],[⟨none,true,false,false,none,false,false,false,false,false,false⟩,⟨some .internalNl,true,false,false,none,false,false,false,false,false,false⟩],[⟨none,false,true,false,none,false,false,false,false,false,false⟩,⟨some .internalNl,false,true,false,none,false,false,false,false,false,false⟩],[⟨none,true,false,false,none,false,false,false,false,false,false⟩,⟨some .internalNl,true,false,false,none,false,false,false,false,false,false⟩],[⟨none,true,false,false,none,false,false,false,false,false,false⟩,⟨some .internalNl,true,false,false,none,false,false,false,false,false,false⟩],[⟨none,true,false,false,none,false,false,false,false,false,false⟩,⟨some .internalNl,true,false,false,none,false,false,false,false,false,false⟩],[⟨none,true,false,false,none,false,false,false,false,false,false⟩,⟨some .internalNl,true,false,false,none,false,false,false,false,false,false⟩],[],[⟨none,true,false,false,none,false,false,false,false,false,false⟩,⟨some .internalNl,true,false,false,none,false,false,false,false,false,false⟩],[⟨none,true,false,false,none,false,false,false,false,false,false⟩,⟨some .internalNl,true,false,false,none,false,false,false,false,false,false⟩],[⟨none,false,false,false,none,false,false,false,false,false,false⟩],[⟨none,true,false,false,none,false,false,false,false,false,false⟩,⟨some .internalNl,true,false,false,none,false,false,false,false,false,false⟩],[⟨none,false,true,false,none,false,false,false,false,false,false⟩,⟨some .internalNl,false,true,false,none,false,false,false,false,false,false⟩],[⟨none,true,false,false,none,false,false,false,false,false,false⟩,⟨some .internalNl,true,false,false,none,false,false,false,false,false,false⟩],[⟨none,true,false,false,none,false,false,false,false,false,false⟩,⟨some .internalNl,true,false,false,none,false,false,false,false,false,false⟩],[⟨none,true,false,false,none,false,false,false,false,false,false⟩,⟨some .internalNl,true,false,false,none,false,false,false,false,false,false⟩],[⟨none,true,false,false,none,false,false,false,false,false,false⟩,⟨some .internalNl,true,false,false,none,false,false,false,false,false,false⟩],[],[⟨none,true,false,false,none,false,false,false,false,false,false⟩,⟨some .internalNl,true,false,false,none,false,false,false,false,false,false⟩],[⟨none,true,false,false,none,false,false,false,false,false,false⟩,⟨some .internalNl,true,false,false,none,false,false,false,false,false,false⟩],[⟨none,false,false,false,none,false,false,false,false,false,false⟩],[⟨none,true,false,false,none,false,false,false,false,false,false⟩],[⟨none,false,false,false,none,false,false,false,false,false,false⟩],[⟨none,true,false,false,none,false,false,false,false,false,false⟩],[⟨none,true,false,false,none,false,false,false,false,false,false⟩],[⟨none,true,false,false,none,false,false,false,false,false,false⟩],[⟨none,true,false,false,none,false,false,false,false,false,false⟩],[],[⟨none,true,false,false,none,false,false,false,false,false,false⟩],[⟨none,true,false,false,none,false,false,false,false,false,false⟩],[⟨none,true,false,false,none,false,false,false,false,false,false⟩],[⟨none,false,false,false,none,false,false,false,false,false,false⟩],[⟨none,true,false,false,none,false,false,false,false,false,false⟩],[⟨none,true,false,false,none,false,false,false,false,false,false⟩],[⟨none,true,false,false,none,false,false,false,false,false,false⟩],[⟨none,true,false,false,none,false,false,false,false,false,false⟩],[],[⟨none,true,false,false,none,false,false,false,false,false,false⟩],[⟨none,true,false,false,none,false,false,false,false,false,false⟩]]
theorem phphtml_w1_closed : closed emb33_rows phphtml_w1_tab (XA.init phphtml_wopt) (XA.succ phphtml_M phphtml_wopt 1) (XA.eofOk phphtml_M phphtml_wopt 1) = true := by
  decide +kernel
def phphtml_w1 : XCert phphtml_M phphtml_wopt 1 := ⟨emb33_D, phphtml_w1_tab, phphtml_w1_closed⟩
def phphtml_w2_tab : List (List XA) := [[⟨none,false,false,false,none,false,false,false,false,false,false⟩],[⟨none,true,false,false,none,false,false,false,false,false,false⟩,⟨some .internalNl,true,false,false,none,false,false,false,false,false,false⟩],[⟨none,false,false,false,none,false,false,false,false,false,false⟩,⟨none,false,true,false,none,false,false,false,false,false,false⟩,⟨some .internalNl,false,true,false,none,false,false,false,false,false,false⟩,⟨some .internalNl,false,false,false,none,false,false,false,false,false,false⟩],[⟨none,true,false,false,none,false,false,false,false,false,false⟩,⟨some .internalNl,true,false,false,none,false,false,false,false,false,false⟩],[⟨none,true,false,false,none,false,false,false,false,false,false⟩,⟨some .internalNl,true,false,false,none,false,false,false,false,false,false⟩],[⟨none,true,false,false,none,false,false,false,false,false,false⟩,⟨some .internalNl,true,false,false,none,false,false,false,false,false,false⟩],[⟨none,true,false,false,none,false,false,false,false,false,false⟩,⟨some .internalNl,true,false,false,none,false,false,false,false,false,false⟩],[⟨none,true,false,false,none,false,false,false,false,false,false⟩,⟨some .internalNl,true,false,false,none,false,false,false,false,false,false⟩],[⟨none,true,false,false,none,false,false,false,false,false,false⟩,⟨some .internalNl,true,false,false,none,false,false,false,false,false,false⟩],[⟨some .internalNl,true,false,false,none,false,false,false,false,false,false⟩,⟨none,true,false,false,none,false,false,false,false,false,false⟩],[⟨some .internalNl,true,false,false,none,false,false,false,false,false,false⟩],[⟨none,true,false,false,none,false,false,false,false,false,false⟩,⟨some .internalNl,true,false,false,none,false,false,false,false,false,false⟩],[⟨none,false,true,false,none,false,false,false,false,false,false⟩,⟨some .internalNl,false,true,false,none,false,false,false,false,false,false⟩],[⟨none,true,false,false,none,false,false,false,false,false,false⟩,⟨some .internalNl,true,false,false,none,false,false,false,false,false,false⟩],[⟨none,true,false,false,none,false,false,false,false,false,false⟩,⟨some .internalNl,true,false,false,none,false,false,false,false,false,false⟩],[⟨none,true,false,false,none,false,false,false,false,false,false⟩,⟨some .internalNl,true,false,false,none,false,false,false,false,false,false⟩],[⟨none,true,false,false,none,false,false,false,false,false,false⟩,⟨some .internalNl,true,false,false,none,false,false,false,false,false,false⟩],[],[⟨none,true,false,false,none,false,false,false,false,false,false⟩,⟨some .internalNl,true,false,false,none,false,false,false,false,false,false⟩],[⟨none,true,false,false,none,false,false,false,false,false,false⟩,⟨some .internalNl,true,false,false,none,false,false,false,false,false,false⟩],[⟨none,true,false,false,none,false,false,false,false,false,false⟩,⟨some .internalNl,true,false,false,none,false,false,false,false,false,false⟩],[⟨none,true,false,false,none,false,false,false,false,false,false⟩,⟨none,false,true,false,none,false,false,false,false,false,false⟩,⟨some .internalNl,true,false,false,none,false,false,false,false,false,false⟩,⟨some .internalNl,false,true,false,none,false,false,false,false,false,false⟩],[⟨some .internalNl,true,false,false,none,false,false,false,false,false,false⟩,⟨none,true,false,false,none,false,false,false,false,false,false⟩],[⟨some .internalNl,false,true,false,none,false,false,false,false,false,false⟩,⟨some .internalNl,false,false,false,none,false,false,false,false,false,false⟩,⟨none,false,true,false,none,false,false,false,false,false,false⟩,⟨none,false,false,false,none,false,false,false,false,false,false⟩],[⟨none,true,false,false,none,false,false,false,false,false,false⟩,⟨some .internalNl,true,false,false,none,false,false,false,false,false,false⟩],[⟨none,true,false,false,none,false,false,false,false,false,false⟩,⟨some .internalNl,true,false,false,none,false,false,false,false,false,false⟩],[⟨none,true,false,false,none,false,false,false,false,false,false⟩,⟨some .internalNl,true,false,false,none,false,false,false,false,false,false⟩],[⟨none,true,false,false,none,false,false,false,false,false,false⟩,⟨some .internalNl,true,false,false,none,false,false,false,false,false,false⟩],[],[⟨some .internalNl,true,false,false,none,false,false,false,false,false,false⟩,⟨none,true,false,false,none,false,false,false,false,false,false⟩],[⟨some .internalNl,true,false,false,none,false,false,false,false,false,false⟩,⟨none,true,false,false,none,false,false,false,false,false,false⟩],[⟨some .internalNl,true,false,false,none,false,false,false,false,false,false⟩,⟨none,true,false,false,none,false,false,false,false,false,false⟩],[⟨none,true,false,false,none,false,false,false,false,false,false⟩,⟨some .internalNl,true,false,false,none,false,false,false,false,false,false⟩],[⟨none,false,true,false,none,false,false,false,false,false,false⟩,⟨some .internalNl,false,true,false,none,false,false,false,false,false,false⟩],[⟨none,true,false,false,none,false,false,false,false,false,false⟩,⟨some .internalNl,true,false,false,none,false,false,false,false,false,false⟩],[⟨none,true,false,false,none,false,false,false,false,false,false⟩,⟨some .internalNl,true,false,false,none,false,false,false,false,false,false⟩],[⟨none,true,false,false,none,false,false,false,false,false,false⟩,⟨some .internalNl,true,false,false,none,false,false,false,false,false,false⟩],[⟨none,true,false,false,none,false,false,false,false,false,false⟩,⟨some .internalNl,true,false,false,none,false,false,false,false,false,false⟩],[],[⟨none,true,false,false,none,false,false,false,false,false,false⟩,⟨some .internalNl,true,false,false,none,false,false,false,false,false,false⟩],[⟨none,true,false,false,none,false,false,false,false,false,false⟩,⟨some .internalNl,true,false,false,none,false,false,false,false,false,false⟩],[⟨none,true,false,false,none,false,false,false,false,false,false⟩,⟨some .internalNl,true,false,false,none,false,false,false,false,false,false⟩],[⟨none,true,false,false,none,false,false,false,false,false,false⟩,⟨some .internalNl,true,false,false,none,false,false,false,false,false,false⟩],[⟨none,false,true,false,none,false,false,false,false,false,false⟩,⟨some .internalNl,false,true,false,none,false,false,false,false,false,false⟩],[⟨none,true,false,false,none,false,false,false,false,false,false⟩,⟨some .internalNl,true,false,false,none,false,false,false,false,false,false⟩],[⟨none,true,false,false,none,false,false,false,false,false,false⟩,⟨some .internalNl,true,false,false,none,false,false,false,false,false,false⟩],[⟨none,true,false,false,none,false,false,false,false,false,false⟩,⟨some .internalNl,true,false,false,none,false,false,false,false,false,false⟩],[⟨none,true,false,false,none,false,false,false,false,false,false⟩,⟨some .internalNl,true,false,false,none,false,false,false,false,false,false⟩],[],[⟨none,true,false,false,none,false,false,false,false,false,false⟩,⟨some .internalNl,true,false,false,none,false,false,false,false,false,false⟩],[⟨none,true,false,false,none,false,false,false,false,false,false⟩,⟨some .internalNl,true,false,false,none,false,false,false,false,false,false⟩],[⟨none,true,false,false,none,false,false,false,false,false,false⟩,⟨some .internalNl,true,false,false,none,false,false,false,false,false,false⟩],[⟨none,true,false,false,none,false,false,false,false,false,false⟩,⟨some .internalNl,true,false,false,none,false,false,false,false,false,false⟩],[⟨none,false,true,false,none,false,false,false,false,false,false⟩,⟨some .internalNl,false,true,false,none,false,false,false,false,false,false⟩],[],[⟨none,true,false,false,none,false,false,false,false,false,false⟩,⟨some .internalNl,true,false,false,none,false,false,false,false,false,false⟩],[⟨none,true,false,false,none,false,false,false,false,false,false⟩,⟨some .internalNl,true,false,false,none,false,false,false,false,false,false⟩],[⟨none,true,false,false,none,false,false,false,false,false,false⟩,⟨some .internalNl,true,false,false,none,false,false,false,false,false,false⟩],[⟨none,false,true,false,none,false,false,false,false,false,false⟩,⟨some .internalNl,false,true,false,none,false,false,false,false,false,false⟩],[⟨none,true,false,false,none,false,false,false,false,false,false⟩,⟨some .internalNl,true,false,false,none,false,false,false,false,false,false⟩],[⟨none,true,false,false,none,false,false,false,false,false,false⟩,⟨some .internalNl,true,false,false,none,false,false,false,false,false,false⟩],[⟨none,true,false,false,none,false,false,false,false,false,false⟩,⟨some .internalNl,true,false,false,none,false,false,false,false,false,false⟩],[⟨none,true,false,false,none,false,false,false,false,false,false⟩,⟨some .internalNl,true,false,false,none,false,false,false,false,false,false⟩],[],[⟨none,true,false,false,none,false,false,false,false,false,false⟩,⟨some .internalNl,true,false,false,none,false,false,false,false,false,false⟩],[⟨none,true,false,false,none,false,false,false,false,false,false⟩,⟨some .internalNl,true,false,false,none,false,false,false,false,false,false⟩],[⟨none,true,false,false,none,false,false,false,false,false,false⟩,⟨some .internalNl,true,false,false,none,false,false,false,false,false,false⟩],[⟨none,true,false,false,none,false,false,false,false,false,false⟩,⟨some .internalNl,true,false,false,none,false,false,false,false,false,false⟩],[⟨none,false,true,false,none,false,false,false,false,false,false⟩,⟨some .internalNl,false,true,false,none,false,false,false,false,false,false⟩],[⟨none,true,false,false,none,false,false,false,false,false,false⟩,⟨some .internalNl,true,false,false,none,false,false,false,false,false,false⟩],[⟨none,true,false,false,none,false,false,false,false,false,false⟩,⟨some .internalNl,true,false,false,none,false,false,false,false,false,false⟩],[⟨none,true,false,false,none,false,false,false,false,false,false⟩,⟨some .internalNl,true,false,false,none,false,false,false,false,false,false⟩],[⟨none,true,false,false,none,false,false,false,false,false,false⟩,⟨some .internalNl,true,false,false,none,false,false,false,false,false,false⟩],[],[⟨none,true,false,false,none,false,false,false,false,false,false⟩,⟨some .internalNl,true,false,false,none,false,false,false,false,false,false⟩],[⟨none,true,false,false,none,false,false,false,false,false,false⟩,⟨some .internalNl,true,false,false,none,false,false,false,false,false,false⟩],[⟨none,true,false,false,none,false,false,false,false,false,false⟩,⟨some .internalNl,true,false,false,none,false,false,false,false,false,false⟩],[⟨none,true,false,false,none,false,false,false,false,false,false⟩,⟨some .internalNl,true,false,false,none,false,false,false,false,false,false⟩],[⟨none,false,true,false,none,false,false,false,false,false,false⟩,⟨some .internalNl,false,true,false,none,false,false,false,false,false,false⟩],[⟨none,true,false,false,none,false,false,false,false,false,false⟩,⟨some .internalNl,true,false,false,none,false,false,false,false,false,false⟩],[⟨none,true,false,false,none,false,false,false,false,false,false⟩,⟨some .internalNl,true,false,false,none,false,false,false,false,false,false⟩],[⟨none,true,false,false,none,false,false,false,false,false,false⟩,⟨some .internalNl,true,false,false,none,false,false,false,false,false,false⟩],[⟨none,true,false,false,none,false,false,false,false,false,false⟩,⟨some .internalNl,true,false,false,none,false,false,false,false,false,false⟩],[],[⟨none,true,false,false,none,false,false,false,false,false,false⟩,⟨some .internalNl,true,false,false,none,false,false,false,false,false,false⟩],[⟨none,true,false,false,none,false,false,false,false,false,false⟩,⟨some .internalNl,true,false,false,none,false,false,false,false,false,false⟩],[⟨none,true,false,false,none,false,false,false,false,false,false⟩,⟨some .internalNl,true,false,false,none,false,false,false,false,false,false⟩],[⟨none,true,false,false,none,false,false,false,false,false,false⟩,⟨some .internalNl,true,false,false,none,false,false,false,false,false,false⟩],[⟨none,false,true,false,none,false,false,false,false,false,false⟩,⟨some .internalNl,false,true,false,none,false,false,false,false,false,false⟩],[⟨none,true,false,false,none,false,false,false,false,false,false⟩,⟨some .internalNl,true,false,false,none,false,false,false,false,false,false⟩],[⟨none,true,false,false,none,false,false,false,false,false,false⟩,⟨some .internalNl,true,false,false,none,false,false,false,false,false,false⟩],[⟨none,true,false,false,none,false,false,false,false,false,false⟩,⟨some .internalNl,true,false,false,none,false,false,false,false,false,false⟩],[⟨none,true,false,false,none,false,false,false,false,false,false⟩,⟨some .internalNl,true,false,false,none,false,false,false,false,false,false⟩],[],[⟨none,true,false,false,none,false,false,false,false,false,false⟩,⟨some .internalNl,true,false,false,none,false,false,false,false,false,false⟩],[⟨none,true,false,false,none,false,false,false,false,false,false⟩,⟨some .internalNl,true,false,false,none,false,false,false,false,false,false⟩],[⟨none,false,false,false,none,false,false,false,false,false,false⟩],[⟨none,true,false,false,none,false,false,false,false,false,false⟩,⟨some .internalNl,true,false,false,none,false,false,false,false,false,false⟩],[⟨none,false,true,false,none,false,false,false,false,false,false⟩,⟨some .internalNl,false,true,false,none,false,false,false,false,false,false⟩],[⟨none,true,false,false,none,false,false,false,false,false,false⟩,⟨some .internalNl,true,false,false,none,false,false,false,false,false,false⟩],[⟨none,true,false,false,none,false,false,false,false,false,false⟩,⟨some .internalNl,true,false,false,none,false,false,false,false,false,false⟩],[⟨none,true,false,false,none,false,false,false,false,false,false⟩,⟨some .internalNl,true,false,false,none,false,false,false,false,false,false⟩],[⟨none,true,false,false,none,false,false,false,false,false,false⟩,⟨some .internalNl,true,false,false,none,false,false,false,false,false,false⟩],[],[⟨none,true,false,false,none,false,false,false,false,false,false⟩,⟨some .internalNl,true,false,false,none,false,false,false,false,false,false⟩],[⟨none,true,false,false,none,false,false,false,false,false,false⟩,⟨some .internalNl,true,false,false,none,false,false,false,false,false,false⟩],[⟨none,false,false,false,none,false,false,false,false,false,false⟩],[⟨none,true,false,false,none,false,false,false,false,false,false⟩],[⟨none,false,false,false,none,false,false,false,false,false,false⟩],[⟨none,true,false,false,none,false,false,false,false,false,false⟩],[⟨none,true,false,false,none,false,false,false,false,false,false⟩],[⟨none,true,false,false,none,false,false,false,false,false,false⟩],[⟨none,true,false,false,none,false,false,false,false,false,false⟩],[],[⟨none,true,false,false,none,false,false,false,false,false,false⟩],[⟨none,true,false,false,none,false,false,false,false,false,false⟩],[⟨none,true,false,false,none,false,false,false,false,false,false⟩],[⟨none,false,false,false,none,false,false,false,false,false,false⟩],[⟨none,true,false,false,none,false,false,false,false,false,false⟩],[⟨none,true,false,false,none,false,false,false,false,false,false⟩],[⟨none,true,false,false,none,false,false,false,false,false,false⟩],[⟨none,true,false,false,none,false,false,false,false,false,false⟩],[],[⟨none,true,false,false,none,false,false,false,false,false,false⟩],[⟨none,true,false,false,none,false,false,false,false,false,false⟩]]
theorem phphtml_w2_closed : closed emb34_rows phphtml_w2_tab (XA.init phphtml_wopt) (XA.succ phphtml_M phphtml_wopt 2) (XA.eofOk phphtml_M phphtml_wopt 2) = true := by
  decide +kernel
def phphtml_w2 : XCert phphtml_M phphtml_wopt 2 := ⟨emb34_D, phphtml_w2_tab, phphtml_w2_closed⟩
theorem phphtml_solid : ∀ m ∈ phphtml_wopt.use, Nonempty (XCert phphtml_M phphtml_wopt m) :=
  (List.forall_mem_cons.mpr ⟨⟨phphtml_w6⟩,
  (List.forall_mem_cons.mpr ⟨⟨phphtml_w3⟩,
  (List.forall_mem_cons.mpr ⟨⟨phphtml_w4⟩,
  (List.forall_mem_cons.mpr ⟨⟨phphtml_w5⟩,
  (List.forall_mem_cons.mpr ⟨⟨phphtml_w0⟩,
  (List.forall_mem_cons.mpr ⟨⟨phphtml_w1⟩,
  (List.forall_mem_cons.mpr ⟨⟨phphtml_w2⟩,
  (fun _ h => nomatch h)⟩)⟩)⟩)⟩)⟩)⟩)⟩)

def clearsilverhtml_wopt : WOpt := ⟨false, false, [6, 3, 4, 5, 0, 1, 2]⟩
def clearsilverhtml_w6_tab : List (List XA) := [[⟨none,false,false,false,none,false,false,false,false,false,false⟩],[⟨some (.own 0),false,false,false,some 3,false,false,false,false,false,false⟩],[⟨some .newline,true,false,false,none,false,false,false,false,false,false⟩],[⟨some .newline,true,false,true,some 7,false,false,false,false,false,false⟩],[⟨some (.own 5),true,false,true,some 8,false,false,false,false,false,false⟩],[⟨some (.own 5),true,false,true,some 8,false,false,false,false,false,false⟩],[⟨some (.own 5),true,false,true,some 8,false,false,false,false,false,false⟩],[⟨some (.own 5),true,false,true,some 8,false,false,false,false,false,false⟩],[⟨some (.own 5),true,false,true,some 8,false,false,false,false,false,false⟩],[⟨some (.own 5),true,false,true,some 8,false,false,false,false,false,false⟩],[⟨some (.own 5),true,false,true,some 8,false,false,false,false,false,false⟩],[⟨some (.own 5),true,false,true,some 8,false,false,false,false,false,false⟩],[⟨some (.own 5),true,false,true,some 8,false,false,false,false,false,false⟩],[⟨some (.own 5),true,false,true,some 8,false,false,false,false,false,false⟩],[⟨some (.own 5),true,false,true,some 8,false,false,false,false,false,false⟩],[⟨some (.own 5),true,false,true,some 8,false,false,false,false,false,false⟩],[⟨some (.own 5),true,false,true,some 8,false,false,false,false,false,false⟩],[⟨some (.own 5),true,false,true,some 8,false,false,false,false,false,false⟩],[⟨some (.own 5),true,false,true,some 8,false,false,false,false,false,false⟩],[⟨some (.own 5),true,false,true,some 8,false,false,false,false,false,false⟩,⟨some (.own 5),false,true,true,some 8,false,false,false,false,false,false⟩,⟨some (.own 5),false,false,true,some 8,false,false,false,false,false,false⟩],[⟨some (.own 5),true,false,true,some 8,false,false,false,false,false,false⟩,⟨some (.own 5),false,true,true,some 8,false,false,false,false,false,false⟩,⟨some (.own 5),false,false,true,some 8,false,false,false,false,false,false⟩],[⟨some (.own 5),true,false,true,some 8,false,false,false,false,false,false⟩],[⟨some (.own 5),true,false,true,some 8,false,false,false,false,false,false⟩],[⟨some (.own 5),true,false,true,some 8,false,false,false,false,false,false⟩],[⟨some (.own 5),true,false,true,some 8,false,false,false,false,false,false⟩],[⟨some (.own 5),true,false,true,some 8,false,false,false,false,false,false⟩],[⟨some (.own 5),true,false,true,some 8,false,false,false,false,false,false⟩],[⟨some (.own 5),true,false,true,some 8,false,false,false,false,false,false⟩],[⟨some (.own 5),true,false,true,some 8,false,false,false,false,false,false⟩],[⟨some (.own 5),true,false,true,some 8,false,false,false,false,false,false⟩],[⟨some (.own 5),true,false,true,some 8,false,false,false,false,false,false⟩],[⟨some (.own 5),true,false,true,some 8,false,false,false,false,false,false⟩],[⟨some (.own 5),true,false,true,some 8,false,false,false,false,false,false⟩],[⟨some (.own 5),true,false,true,some 8,false,false,false,false,false,false⟩],[⟨some (.own 5),true,false,true,some 8,false,false,false,false,false,false⟩],[⟨some (.own 5),true,false,true,some 8,false,false,false,false,false,false⟩],[⟨some (.own 5),true,false,true,some 8,false,false,false,false,false,false⟩],[⟨some (.own 5),true,false,true,some 8,false,false,false,false,false,false⟩,⟨some (.own 5),false,true,true,some 8,false,false,false,false,false,false⟩,⟨some (.own 5),false,false,true,some 8,false,false,false,false,false,false⟩],[⟨some (.own 5),true,false,true,some 8,false,false,false,false,false,false⟩],[⟨some (.own 5),true,false,true,some 8,false,false,false,false,false,false⟩],[⟨some (.own 5),true,false,true,some 8,false,false,false,false,false,false⟩],[⟨some (.own 5),true,false,true,some 8,false,false,false,false,false,false⟩],[⟨some (.own 5),true,false,true,some 8,false,false,false,false,false,false⟩],[⟨some (.own 5),true,false,true,some 8,false,false,false,false,false,false⟩],[⟨some (.own 5),true,false,true,some 8,false,false,false,false,false,false⟩],[⟨some (.own 5),true,false,true,some 8,false,false,false,false,false,false⟩,⟨some (.own 5),false,true,true,some 8,false,false,false,false,false,false⟩,⟨some (.own 5),false,false,true,some 8,false,false,false,false,false,false⟩]]
theorem clearsilverhtml_w6_closed : closed emb43_rows clearsilverhtml_w6_tab (XA.init clearsilverhtml_wopt) (XA.succ clearsilverhtml_M clearsilverhtml_wopt 6) (XA.eofOk clearsilverhtml_M clearsilverhtml_wopt 6) = true := by
  decide +kernel
def clearsilverhtml_w6 : XCert clearsilverhtml_M clearsilverhtml_wopt 6 := ⟨emb43_D, clearsilverhtml_w6_tab, clearsilverhtml_w6_closed⟩
def clearsilverhtml_w3_tab : List (List XA) := [[⟨none,false,false,false,none,false,false,false,false,false,false⟩],[⟨some (.own 0),false,false,false,some 1,false,false,false,false,false,false⟩],[⟨some .newline,true,false,false,none,false,false,false,false,false,false⟩],[⟨some .newline,true,false,true,some 4,false,false,false,false,false,false⟩],[⟨some (.own 9),true,false,true,some 5,false,false,false,false,false,false⟩],[⟨some (.own 9),true,false,true,some 5,false,false,false,false,false,false⟩],[⟨some (.own 9),true,false,true,some 5,false,false,false,false,false,false⟩],[⟨some (.own 9),true,false,true,some 5,false,false,false,false,false,false⟩],[⟨some (.own 9),true,false,true,some 5,false,false,false,false,false,false⟩,⟨some .internalNl,true,false,true,some 5,false,false,false,false,false,false⟩],[⟨some (.own 9),false,true,true,some 5,false,false,false,false,false,false⟩,⟨some (.own 9),false,false,true,some 5,false,false,false,false,false,false⟩,⟨some .internalNl,false,true,true,some 5,false,false,false,false,false,false⟩,⟨some .internalNl,false,false,true,some 5,false,false,false,false,false,false⟩],[⟨some (.own 9),true,false,true,some 5,false,false,false,false,false,false⟩,⟨some .internalNl,true,false,true,some 5,false,false,false,false,false,false⟩],[⟨some (.own 9),true,false,true,some 5,false,false,false,false,false,false⟩,⟨some .internalNl,true,false,true,some 5,false,false,false,false,false,false⟩],[⟨some (.own 9),true,false,true,some 5,false,false,false,false,false,false⟩,⟨some .internalNl,true,false,true,some 5,false,false,false,false,false,false⟩],[⟨some (.own 9),true,false,true,some 5,false,false,false,false,false,false⟩,⟨some .internalNl,true,false,true,some 5,false,false,false,false,false,false⟩],[⟨some (.own 9),true,false,true,some 5,false,false,false,false,false,false⟩,⟨some .internalNl,true,false,true,some 5,false,false,false,false,false,false⟩],[⟨some (.own 9),true,false,true,some 5,false,false,false,false,false,false⟩,⟨some .internalNl,true,false,true,some 5,false,false,false,false,false,false⟩],[⟨some (.own 9),false,true,true,some 5,false,false,false,false,false,false⟩,⟨some (.own 9),false,false,true,some 5,false,false,false,false,false,false⟩,⟨some .internalNl,false,true,true,some 5,false,false,false,false,false,false⟩,⟨some .internalNl,false,false,true,some 5,false,false,false,false,false,false⟩],[⟨some (.own 9),true,false,true,some 5,false,false,false,false,false,false⟩,⟨some .internalNl,true,false,true,some 5,false,false,false,false,false,false⟩],[⟨some (.own 9),true,false,true,some 5,false,false,false,false,false,false⟩,⟨some .internalNl,true,false,true,some 5,false,false,false,false,false,false⟩],[⟨some (.own 9),true,false,true,some 5,false,false,false,false,false,false⟩,⟨some .internalNl,true,false,true,some 5,false,false,false,false,false,false⟩],[⟨some (.own 9),true,false,true,some 5,false,false,false,false,false,false⟩,⟨some .internalNl,true,false,true,some 5,false,false,false,false,false,false⟩],[⟨some (.own 9),true,false,true,some 5,false,false,false,false,false,false⟩,⟨some .internalNl,true,false,true,some 5,false,false,false,false,false,false⟩],[⟨some (.own 9),true,false,true,some 5,false,false,false,false,false,false⟩],[⟨some (.own 9),true,false,true,some 5,false,false,false,false,false,false⟩],[⟨some .internalNl,true,false,true,some 5,false,false,false,false,false,false⟩,⟨some (.own 9),true,false,true,some 5,false,false,false,false,false,false⟩],[⟨some .internalNl,true,false,true,some 5,false,false,false,false,false,false⟩],[⟨some (.own 9),true,false,true,some 5,false,false,false,false,false,false⟩,⟨some (.own 9),false,true,true,some 5,false,false,false,false,false,false⟩,⟨some .internalNl,true,false,true,some 5,false,false,false,false,false,false⟩,⟨some .internalNl,false,true,true,some 5,false,false,false,false,false,false⟩],[⟨some .internalNl,true,false,true,some 5,false,false,false,false,false,false⟩,⟨some (.own 9),true,false,true,some 5,false,false,false,false,false,false⟩],[⟨some .internalNl,true,false,true,some 5,false,false,false,false,false,false⟩],[⟨some (.own 9),true,false,true,some 5,false,false,false,false,false,false⟩,⟨some (.own 9),false,true,true,some 5,false,false,false,false,false,false⟩,⟨some .internalNl,true,false,true,some 5,false,false,false,false,false,false⟩,⟨some .internalNl,false,true,true,some 5,false,false,false,false,false,false⟩],[⟨some (.own 9),true,false,true,some 5,false,false,false,false,false,false⟩,⟨some .internalNl,true,false,true,some 5,false,false,false,false,false,false⟩],[⟨some (.own 9),false,true,true,some 5,false,false,false,false,false,false⟩,⟨some .internalNl,false,true,true,some 5,false,false,false,false,false,false⟩,⟨some .internalNl,false,false,true,some 5,false,false,false,false,false,false⟩,⟨some (.own 9),false,false,true,some 5,false,false,false,false,false,false⟩],[⟨some (.own 9),true,false,true,some 5,false,false,false,false,false,false⟩,⟨some .internalNl,true,false,true,some 5,false,false,false,false,false,false⟩],[⟨some (.own 9),true,false,true,some 5,false,false,false,false,false,false⟩,⟨some .internalNl,true,false,true,some 5,false,false,false,false,false,false⟩],[⟨some (.own 9),true,false,true,some 5,false,false,false,false,false,false⟩,⟨some .internalNl,true,false,true,some 5,false,false,false,false,false,false⟩],[⟨some (.own 9),true,false,true,some 5,false,false,false,false,false,false⟩,⟨some .internalNl,true,false,true,some 5,false,false,false,false,false,false⟩],[⟨some (.own 9),true,false,true,some 5,false,false,false,false,false,false⟩,⟨some .internalNl,true,false,true,some 5,false,false,false,false,false,false⟩],[⟨some (.own 9),true,false,true,some 5,false,false,false,false,false,false⟩],[⟨some .internalNl,true,false,true,some 5,false,false,false,false,false,false⟩,⟨some (.own 9),true,false,true,some 5,false,false,false,false,false,false⟩],[⟨some .internalNl,true,false,true,some 5,false,false,false,false,false,false⟩],[⟨some (.own 9),true,false,true,some 5,false,false,false,false,false,false⟩],[⟨some (.own 9),true,false,true,some 5,false,false,false,false,false,false⟩],[⟨some (.own 9),true,false,true,some 5,false,false,false,false,false,false⟩],[⟨some (.own 9),true,false,true,some 5,false,false,false,false,false,false⟩],[⟨some (.own 9),false,true,true,some 5,false,false,false,false,false,false⟩,⟨some .internalNl,false,true,true,some 5,false,false,false,false,false,false⟩,⟨some .internalNl,false,false,true,some 5,false,false,false,false,false,false⟩,⟨some (.own 9),false,false,true,some 5,false,false,false,false,false,false⟩],[⟨some .internalNl,true,false,true,some 5,false,false,false,false,false,false⟩],[⟨some .internalNl,true,false,true,some 5,false,false,false,false,false,false⟩],[⟨some (.own 9),true,false,true,some 5,false,false,false,false,false,false⟩,⟨some .internalNl,true,false,true,some 5,false,false,false,false,false,false⟩],[⟨some .internalNl,true,false,true,some 5,false,false,false,false,false,false⟩],[⟨some .internalNl,true,false,true,some 5,false,false,false,false,false,false⟩],[⟨some .internalNl,true,false,true,some 5,false,false,false,false,false,false⟩]]
theorem clearsilverhtml_w3_closed : closed emb0_rows clearsilverhtml_w3_tab (XA.init clearsilverhtml_wopt) (XA.succ clearsilverhtml_M clearsilverhtml_wopt 3) (XA.eofOk clearsilverhtml_M clearsilverhtml_wopt 3) = true := by
  decide +kernel
def clearsilverhtml_w3 : XCert clearsilverhtml_M clearsilverhtml_wopt 3 := ⟨emb0_D, clearsilverhtml_w3_tab, clearsilverhtml_w3_closed⟩
def clearsilverhtml_w4_tab : List (List XA) := [[⟨none,false,false,false,none,false,false,false,false,false,false⟩],[⟨some (.own 0),false,false,false,some 1,false,false,false,false,false,false⟩],[⟨some .newline,true,false,false,none,false,false,false,false,false,false⟩],[⟨some .newline,true,false,true,some 4,false,false,false,false,false,false⟩],[⟨some (.own 7),true,false,true,some 5,false,false,false,false,false,false⟩],[⟨some (.own 7),true,false,true,some 5,false,false,false,false,false,false⟩],[⟨some (.own 7),true,false,true,some 5,false,false,false,false,false,false⟩],[⟨some (.own 7),true,false,true,some 5,false,false,false,false,false,false⟩],[⟨some (.own 7),true,false,true,some 5,false,false,false,false,false,false⟩,⟨some .internalNl,true,false,true,some 5,false,false,false,false,false,false⟩],[⟨some (.own 7),false,true,true,some 5,false,false,false,false,false,false⟩,⟨some .internalNl,false,true,true,some 5,false,false,false,false,false,false⟩,⟨some .internalNl,false,false,true,some 5,false,false,false,false,false,false⟩,⟨some (.own 7),false,false,true,some 5,false,false,false,false,false,false⟩],[⟨some (.own 7),true,false,true,some 5,false,false,false,false,false,false⟩,⟨some .internalNl,true,false,true,some 5,false,false,false,false,false,false⟩],[⟨some (.own 7),true,false,true,some 5,false,false,false,false,false,false⟩,⟨some .internalNl,true,false,true,some 5,false,false,false,false,false,false⟩],[⟨some (.own 7),false,true,true,some 5,false,false,false,false,false,false⟩,⟨some .internalNl,false,true,true,some 5,false,false,false,false,false,false⟩,⟨some .internalNl,false,false,true,some 5,false,false,false,false,false,false⟩,⟨some (.own 7),false,false,true,some 5,false,false,false,false,false,false⟩],[⟨some (.own 7),true,false,true,some 5,false,false,false,false,false,false⟩,⟨some .internalNl,true,false,true,some 5,false,false,false,false,false,false⟩],[⟨some (.own 7),true,false,true,some 5,false,false,false,false,false,false⟩,⟨some (.own 7),false,true,true,some 5,false,false,false,false,false,false⟩],[⟨some (.own 7),true,false,true,some 5,false,false,false,false,false,false⟩],[⟨some (.own 7),true,false,true,some 2,false,false,false,false,false,false⟩],[⟨some (.own 7),true,false,true,some 5,false,false,false,false,false,false⟩],[⟨some (.own 7),true,false,true,some 5,false,false,false,false,false,false⟩,⟨some (.own 7),false,true,true,some 5,false,false,false,false,false,false⟩,⟨some .internalNl,true,false,true,some 5,false,false,false,false,false,false⟩,⟨some .internalNl,false,true,true,some 5,false,false,false,false,false,false⟩],[⟨some (.own 7),true,false,true,some 5,false,false,false,false,false,false⟩,⟨some .internalNl,true,false,true,some 5,false,false,false,false,false,false⟩],[⟨some (.own 7),true,false,true,some 5,false,false,false,false,false,false⟩,⟨some .internalNl,true,false,true,some 5,false,false,false,false,false,false⟩],[⟨some (.own 7),true,false,true,some 5,false,false,false,false,false,false⟩,⟨some .internalNl,true,false,true,some 5,false,false,false,false,false,false⟩],[⟨some (.own 7),true,false,true,some 5,false,false,false,false,false,false⟩,⟨some .internalNl,true,false,true,some 5,false,false,false,false,false,false⟩],[⟨some (.own 7),true,false,true,some 5,false,false,false,false,false,false⟩,⟨some (.own 7),false,true,true,some 5,false,false,false,false,false,false⟩,⟨some .internalNl,true,false,true,some 5,false,false,false,false,false,false⟩,⟨some .internalNl,false,true,true,some 5,false,false,false,false,false,false⟩],[⟨some (.own 7),true,false,true,some 5,false,false,false,false,false,false⟩,⟨some .internalNl,true,false,true,some 5,false,false,false,false,false,false⟩],[⟨some (.own 7),true,false,true,some 5,false,false,false,false,false,false⟩,⟨some .internalNl,true,false,true,some 5,false,false,false,false,false,false⟩],[⟨some (.own 7),true,false,true,some 5,false,false,false,false,false,false⟩,⟨some .internalNl,true,false,true,some 5,false,false,false,false,false,false⟩],[⟨some (.own 7),true,false,true,some 5,false,false,false,false,false,false⟩,⟨some .internalNl,true,false,true,some 5,false,false,false,false,false,false⟩],[⟨some (.own 7),true,false,true,some 5,false,false,false,false,false,false⟩,⟨some (.own 7),false,false,true,some 5,false,false,false,false,false,false⟩,⟨some (.own 7),false,true,true,some 5,false,false,false,false,false,false⟩],[⟨some (.own 7),true,false,true,some 5,false,false,false,false,false,false⟩],[⟨some (.own 7),true,false,true,some 5,false,false,false,false,false,false⟩,⟨some .internalNl,true,false,true,some 5,false,false,false,false,false,false⟩],[⟨some (.own 7),false,true,true,some 5,false,false,false,false,false,false⟩,⟨some .internalNl,false,true,true,some 5,false,false,false,false,false,false⟩,⟨some .internalNl,false,false,true,some 5,false,false,false,false,false,false⟩,⟨some (.own 7),false,false,true,some 5,false,false,false,false,false,false⟩],[⟨some (.own 7),true,false,true,some 5,false,false,false,false,false,false⟩,⟨some .internalNl,true,false,true,some 5,false,false,false,false,false,false⟩],[⟨some (.own 7),true,false,true,some 5,false,false,false,false,false,false⟩,⟨some .internalNl,true,false,true,some 5,false,false,false,false,false,false⟩],[⟨some (.own 7),true,false,true,some 5,false,false,false,false,false,false⟩,⟨some .internalNl,true,false,true,some 5,false,false,false,false,false,false⟩],[⟨some (.own 7),true,false,true,some 5,false,false,false,false,false,false⟩,⟨some .internalNl,true,false,true,some 5,false,false,false,false,false,false⟩],[⟨some (.own 7),true,false,true,some 5,false,false,false,false,false,false⟩,⟨some .internalNl,true,false,true,some 5,false,false,false,false,false,false⟩],[⟨some (.own 7),true,false,true,some 2,false,false,false,false,false,false⟩,⟨some (.own 7),false,true,false,some 2,false,false,false,false,false,false⟩,⟨some (.own 7),false,false,false,some 2,false,false,false,false,false,false⟩],[⟨some (.own 7),true,false,true,some 5,false,false,false,false,false,false⟩],[⟨some .internalNl,true,false,true,some 5,false,false,false,false,false,false⟩,⟨some (.own 7),true,false,true,some 5,false,false,false,false,false,false⟩],[⟨some .internalNl,true,false,true,some 5,false,false,false,false,false,false⟩],[⟨some .internalNl,true,false,true,some 5,false,false,false,false,false,false⟩,⟨some (.own 7),true,false,true,some 5,false,false,false,false,false,false⟩],[⟨some .internalNl,true,false,true,some 5,false,false,false,false,false,false⟩],[⟨some (.own 7),true,false,true,some 5,false,false,false,false,false,false⟩,⟨some (.own 7),false,true,true,some 5,false,false,false,false,false,false⟩],[⟨some .internalNl,true,false,true,some 5,false,false,false,false,false,false⟩,⟨some (.own 7),true,false,true,some 5,false,false,false,false,false,false⟩],[⟨some .internalNl,true,false,true,some 5,false,false,false,false,false,false⟩],[⟨some (.own 7),true,false,true,some 5,false,false,false,false,false,false⟩],[⟨some (.own 7),true,false,true,some 5,false,false,false,false,false,false⟩],[⟨some (.own 7),true,false,true,some 5,false,false,false,false,false,false⟩],[⟨some (.own 7),true,false,true,some 5,false,false,false,false,false,false⟩],[⟨some (.own 7),true,false,true,some 5,false,false,false,false,false,false⟩],[⟨some (.own 7),false,true,true,some 5,false,false,false,false,false,false⟩,⟨some .internalNl,false,true,true,some 5,false,false,false,false,false,false⟩,⟨some .internalNl,false,false,true,some 5,false,false,false,false,false,false⟩,⟨some (.own 7),false,false,true,some 5,false,false,false,false,false,false⟩],[⟨some .internalNl,true,false,true,some 5,false,false,false,false,false,false⟩],[⟨some .internalNl,true,false,true,some 5,false,false,false,false,false,false⟩],[⟨some (.own 7),true,false,true,some 5,false,false,false,false,false,false⟩,⟨some .internalNl,true,false,true,some 5,false,false,false,false,false,false⟩],[⟨some .internalNl,true,false,true,some 5,false,false,false,false,false,false⟩],[⟨some .internalNl,true,false,true,some 5,false,false,false,false,false,false⟩],[⟨some .internalNl,true,false,true,some 5,false,false,false,false,false,false⟩]]
theorem clearsilverhtml_w4_closed : closed emb1_rows clearsilverhtml_w4_tab (XA.init clearsilverhtml_wopt) (XA.succ clearsilverhtml_M clearsilverhtml_wopt 4) (XA.eofOk clearsilverhtml_M clearsilverhtml_wopt 4) = true := by
  decide +kernel
def clearsilverhtml_w4 : XCert clearsilverhtml_M clearsilverhtml_wopt 4 := ⟨emb1_D, clearsilverhtml_w4_tab, clearsilverhtml_w4_closed⟩
def clearsilverhtml_w5_tab : List (List XA) := [[⟨none,false,false,false,none,false,false,false,false,false,false⟩],[⟨some (.own 0),false,false,false,some 1,false,false,false,false,false,false⟩],[⟨some .newline,true,false,false,none,false,false,false,false,false,false⟩],[⟨some .newline,true,false,true,some 4,false,false,false,false,false,false⟩],[⟨some (.own 3),true,false,true,some 5,false,false,false,false,false,false⟩],[⟨some (.own 3),true,false,true,some 2,false,false,false,false,false,false⟩],[⟨some (.own 3),true,false,true,some 5,false,false,false,false,false,false⟩],[⟨some (.own 3),true,false,true,some 5,false,false,false,false,false,false⟩,⟨some (.own 3),false,true,true,some 5,false,false,false,false,false,false⟩,⟨some (.own 3),false,false,true,some 5,false,false,false,false,false,false⟩],[⟨some (.own 3),true,false,true,some 5,false,false,false,false,false,false⟩],[⟨some (.own 3),true,false,true,some 2,false,false,false,false,false,false⟩,⟨some (.own 3),false,true,false,some 2,false,false,false,false,false,false⟩,⟨some (.own 3),false,false,false,some 2,false,false,false,false,false,false⟩],[⟨some (.own 3),true,false,true,some 5,false,false,false,false,false,false⟩,⟨some (.own 3),false,true,true,some 5,false,false,false,false,false,false⟩]]
theorem clearsilverhtml_w5_closed : closed emb42_rows clearsilverhtml_w5_tab (XA.init clearsilverhtml_wopt) (XA.succ clearsilverhtml_M clearsilverhtml_wopt 5) (XA.eofOk clearsilverhtml_M clearsilverhtml_wopt 5) = true := by
  decide +kernel
def clearsilverhtml_w5 : XCert clearsilverhtml_M clearsilverhtml_wopt 5 := ⟨emb42_D, clearsilverhtml_w5_tab, clearsilverhtml_w5_closed⟩
def clearsilverhtml_w0_tab : List (List XA) := [[⟨none,false,false,false,none,false,false,false,false,false,false⟩],[⟨none,true,false,false,none,false,false,false,false,false,false⟩,⟨some .internalNl,true,false,false,none,false,false,false,false,false,false⟩],[⟨none,false,false,false,none,false,false,false,false,false,false⟩,⟨some .internalNl,false,true,false,none,false,false,false,false,false,false⟩,⟨some .internalNl,false,false,false,none,false,false,false,false,false,false⟩,⟨none,false,true,false,none,false,false,false,false,false,false⟩],[⟨none,true,false,false,none,false,false,false,false,false,false⟩,⟨some .internalNl,true,false,false,none,false,false,false,false,false,false⟩],[⟨none,true,false,false,none,false,false,false,false,false,false⟩,⟨some .internalNl,true,false,false,none,false,false,false,false,false,false⟩],[⟨none,true,false,false,none,false,false,false,false,false,false⟩,⟨some .internalNl,true,false,false,none,false,false,false,false,false,false⟩],[⟨none,true,false,false,none,false,false,false,false,false,false⟩,⟨some .internalNl,true,false,false,none,false,false,false,false,false,false⟩],[⟨none,true,false,false,none,false,false,false,false,false,false⟩,⟨some .internalNl,true,false,false,none,false,false,false,false,false,false⟩],[⟨none,true,false,false,none,false,false,false,false,false,false⟩,⟨some .internalNl,true,false,false,none,false,false,false,false,false,false⟩],[⟨some .internalNl,true,false,false,none,false,false,false,false,false,false⟩,⟨none,true,false,false,none,false,false,false,false,false,false⟩],[⟨some .internalNl,true,false,false,none,false,false,false,false,false,false⟩],[⟨none,true,false,false,none,false,false,false,false,false,false⟩,⟨some .internalNl,true,false,false,none,false,false,false,false,false,false⟩],[⟨none,true,false,false,none,false,false,false,false,false,false⟩,⟨some .internalNl,true,false,false,none,false,false,false,false,false,false⟩],[⟨none,false,true,false,none,false,false,false,false,false,false⟩,⟨some .internalNl,false,true,false,none,false,false,false,false,false,false⟩],[⟨none,true,false,false,none,false,false,false,false,false,false⟩,⟨some .internalNl,true,false,false,none,false,false,false,false,false,false⟩],[⟨none,true,false,false,none,false,false,false,false,false,false⟩,⟨some .internalNl,true,false,false,none,false,false,false,false,false,false⟩],[⟨none,true,false,false,none,false,false,false,false,false,false⟩,⟨some .internalNl,true,false,false,none,false,false,false,false,false,false⟩],[⟨none,true,false,false,none,false,false,false,false,false,false⟩,⟨some .internalNl,true,false,false,none,false,false,false,false,false,false⟩],[⟨none,true,false,false,none,false,false,false,false,false,false⟩,⟨some .internalNl,true,false,false,none,false,false,false,false,false,false⟩],[⟨none,true,false,false,none,false,false,false,false,false,false⟩,⟨some .internalNl,true,false,false,none,false,false,false,false,false,false⟩],[⟨none,true,false,false,none,false,false,false,false,false,false⟩,⟨some .internalNl,true,false,false,none,false,false,false,false,false,false⟩],[⟨none,true,false,false,none,false,false,false,false,false,false⟩,⟨some .internalNl,true,false,false,none,false,false,false,false,false,false⟩],[⟨none,true,false,false,none,false,false,false,false,false,false⟩,⟨some .internalNl,true,false,false,none,false,false,false,false,false,false⟩],[⟨none,false,true,false,none,false,false,false,false,false,false⟩,⟨some .internalNl,false,true,false,none,false,false,false,false,false,false⟩,⟨some .internalNl,false,false,false,none,false,false,false,false,false,false⟩,⟨none,false,false,false,none,false,false,false,false,false,false⟩],[⟨none,true,false,false,none,false,false,false,false,false,false⟩,⟨some .internalNl,true,false,false,none,false,false,false,false,false,false⟩],[⟨none,true,false,false,none,false,false,false,false,false,false⟩,⟨some .internalNl,true,false,false,none,false,false,false,false,false,false⟩],[⟨none,true,false,false,none,false,false,false,false,false,false⟩,⟨some .internalNl,true,false,false,none,false,false,false,false,false,false⟩],[⟨none,true,false,false,none,false,false,false,false,false,false⟩,⟨some .internalNl,true,false,false,none,false,false,false,false,false,false⟩],[⟨none,true,false,false,none,false,false,false,false,false,false⟩,⟨some .internalNl,true,false,false,none,false,false,false,false,false,false⟩],[⟨some .internalNl,true,false,false,none,false,false,false,false,false,false⟩,⟨none,true,false,false,none,false,false,false,false,false,false⟩],[⟨none,true,false,false,none,false,false,false,false,false,false⟩,⟨some .internalNl,true,false,false,none,false,false,false,false,false,false⟩],[⟨some .internalNl,true,false,false,none,false,false,false,false,false,false⟩,⟨none,true,false,false,none,false,false,false,false,false,false⟩],[⟨none,true,false,false,none,false,false,false,false,false,false⟩,⟨some .internalNl,true,false,false,none,false,false,false,false,false,false⟩],[⟨none,true,false,false,none,false,false,false,false,false,false⟩,⟨some .internalNl,true,false,false,none,false,false,false,false,false,false⟩],[⟨none,false,true,false,none,false,false,false,false,false,false⟩,⟨some .internalNl,false,true,false,none,false,false,false,false,false,false⟩],[⟨none,true,false,false,none,false,false,false,false,false,false⟩,⟨some .internalNl,true,false,false,none,false,false,false,false,false,false⟩],[⟨none,true,false,false,none,false,false,false,false,false,false⟩,⟨some .internalNl,true,false,false,none,false,false,false,false,false,false⟩],[⟨none,true,false,false,none,false,false,false,false,false,false⟩,⟨some .internalNl,true,false,false,none,false,false,false,false,false,false⟩],[⟨none,true,false,false,none,false,false,false,false,false,false⟩,⟨some .internalNl,true,false,false,none,false,false,false,false,false,false⟩],[⟨none,true,false,false,none,false,false,false,false,false,false⟩,⟨some .internalNl,true,false,false,none,false,false,false,false,false,false⟩],[⟨none,true,false,false,none,false,false,false,false,false,false⟩,⟨some .internalNl,true,false,false,none,false,false,false,false,false,false⟩],[⟨none,true,false,false,none,false,false,false,false,false,false⟩,⟨some .internalNl,true,false,false,none,false,false,false,false,false,false⟩],[⟨none,true,false,false,none,false,false,false,false,false,false⟩,⟨some .internalNl,true,false,false,none,false,false,false,false,false,false⟩],[⟨none,true,false,false,none,false,false,false,false,false,false⟩,⟨some .internalNl,true,false,false,none,false,false,false,false,false,false⟩],[⟨none,false,true,false,none,false,false,false,false,false,false⟩,⟨some .internalNl,false,true,false,none,false,false,false,false,false,false⟩],[⟨none,true,false,false,none,false,false,false,false,false,false⟩,⟨some .internalNl,true,false,false,none,false,false,false,false,false,false⟩],[⟨none,true,false,false,none,false,false,false,false,false,false⟩,⟨some .internalNl,true,false,false,none,false,false,false,false,false,false⟩],[⟨none,true,false,false,none,false,false,false,false,false,false⟩,⟨some .internalNl,true,false,false,none,false,false,false,false,false,false⟩],[⟨none,true,false,false,none,false,false,false,false,false,false⟩,⟨some .internalNl,true,false,false,none,false,false,false,false,false,false⟩],[⟨none,true,false,false,none,false,false,false,false,false,false⟩,⟨some .internalNl,true,false,false,none,false,false,false,false,false,false⟩],[⟨none,true,false,false,none,false,false,false,false,false,false⟩,⟨some .internalNl,true,false,false,none,false,false,false,false,false,false⟩],[⟨none,true,false,false,none,false,false,false,false,false,false⟩,⟨some .internalNl,true,false,false,none,false,false,false,false,false,false⟩],[⟨none,true,false,false,none,false,false,false,false,false,false⟩,⟨some .internalNl,true,false,false,none,false,false,false,false,false,false⟩],[⟨none,true,false,false,none,false,false,false,false,false,false⟩,⟨some .internalNl,true,false,false,none,false,false,false,false,false,false⟩],[⟨none,false,true,false,none,false,false,false,false,false,false⟩,⟨some .internalNl,false,true,false,none,false,false,false,false,false,false⟩],[⟨none,true,false,false,none,false,false,false,false,false,false⟩,⟨some .internalNl,true,false,false,none,false,false,false,false,false,false⟩],[⟨none,true,false,false,none,false,false,false,false,false,false⟩,⟨some .internalNl,true,false,false,none,false,false,false,false,false,false⟩],[⟨none,true,false,false,none,false,false,false,false,false,false⟩,⟨some .internalNl,true,false,false,none,false,false,false,false,false,false⟩],[⟨none,true,false,false,none,false,false,false,false,false,false⟩,⟨some .internalNl,true,false,false,none,false,false,false,false,false,false⟩],[⟨none,true,false,false,none,false,false,false,false,false,false⟩,⟨some .internalNl,true,false,false,none,false,false,false,false,false,false⟩],[⟨none,true,false,false,none,false,false,false,false,false,false⟩,⟨some .internalNl,true,false,false,none,false,false,false,false,false,false⟩],[⟨none,true,false,false,none,false,false,false,false,false,false⟩,⟨some .internalNl,true,false,false,none,false,false,false,false,false,false⟩],[⟨none,true,false,false,none,false,false,false,false,false,false⟩,⟨some .internalNl,true,false,false,none,false,false,false,false,false,false⟩],[⟨none,true,false,false,none,false,false,false,false,false,false⟩,⟨some .internalNl,true,false,false,none,false,false,false,false,false,false⟩],[⟨none,false,true,false,none,false,false,false,false,false,false⟩,⟨some .internalNl,false,true,false,none,false,false,false,false,false,false⟩],[⟨none,true,false,false,none,false,false,false,false,false,false⟩,⟨some .internalNl,true,false,false,none,false,false,false,false,false,false⟩],[⟨none,true,false,false,none,false,false,false,false,false,false⟩,⟨some .internalNl,true,false,false,none,false,false,false,false,false,false⟩],[⟨none,true,false,false,none,false,false,false,false,false,false⟩,⟨some .internalNl,true,false,false,none,false,false,false,false,false,false⟩],[⟨none,true,false,false,none,false,false,false,false,false,false⟩,⟨some .internalNl,true,false,false,none,false,false,false,false,false,false⟩],[⟨none,true,false,false,none,false,false,false,false,false,false⟩,⟨some .internalNl,true,false,false,none,false,false,false,false,false,false⟩],[⟨none,true,false,false,none,false,false,false,false,false,false⟩,⟨some .internalNl,true,false,false,none,false,false,false,false,false,false⟩],[⟨none,true,false,false,none,false,false,false,false,false,false⟩,⟨some .internalNl,true,false,false,none,false,false,false,false,false,false⟩],[⟨none,false,false,false,none,false,false,false,false,false,false⟩],[⟨none,true,false,false,none,false,false,false,false,false,false⟩,⟨some .internalNl,true,false,false,none,false,false,false,false,false,false⟩],[⟨none,false,true,false,none,false,false,false,false,false,false⟩,⟨some .internalNl,false,true,false,none,false,false,false,false,false,false⟩],[⟨none,true,false,false,none,false,false,false,false,false,false⟩,⟨some .internalNl,true,false,false,none,false,false,false,false,false,false⟩],[⟨none,true,false,false,none,false,false,false,false,false,false⟩,⟨some .internalNl,true,false,false,none,false,false,false,false,false,false⟩],[⟨none,true,false,false,none,false,false,false,false,false,false⟩,⟨some .internalNl,true,false,false,none,false,false,false,false,false,false⟩],[⟨none,true,false,false,none,false,false,false,false,false,false⟩,⟨some .internalNl,true,false,false,none,false,false,false,false,false,false⟩],[⟨none,true,false,false,none,false,false,false,false,false,false⟩,⟨some .internalNl,true,false,false,none,false,false,false,false,false,false⟩],[⟨none,true,false,false,none,false,false,false,false,false,false⟩,⟨some .internalNl,true,false,false,none,false,false,false,false,false,false⟩],[⟨none,true,false,false,none,false,false,false,false,false,false⟩,⟨some .internalNl,true,false,false,none,false,false,false,false,false,false⟩],[⟨none,false,false,false,none,false,false,false,false,false,false⟩],[⟨none,true,false,false,none,false,false,false,false,false,false⟩],[⟨none,false,false,false,none,false,false,false,false,false,false⟩],[⟨none,true,false,false,none,false,false,false,false,false,false⟩],[⟨none,true,false,false,none,false,false,false,false,false,false⟩],[⟨none,true,false,false,none,false,false,false,false,false,false⟩],[⟨none,true,false,false,none,false,false,false,false,false,false⟩],[⟨none,true,false,false,none,false,false,false,false,false,false⟩],[⟨none,true,false,false,none,false,false,false,false,false,false⟩],[⟨none,true,false,false,none,false,false,false,false,false,false⟩],[⟨none,true,false,false,none,false,false,false,false,false,false⟩],[⟨none,false,false,false,none,false,false,false,false,false,false⟩],[⟨none,true,false,false,none,false,false,false,false,false,false⟩],[⟨none,true,false,false,none,false,false,false,false,false,false⟩],[⟨none,true,false,false,none,false,false,false,false,false,false⟩],[⟨none,true,false,false,none,false,false,false,false,false,false⟩],[⟨none,true,false,false,none,false,false,false,false,false,false⟩],[⟨none,true,false,false,none,false,false,false,false,false,false⟩],[⟨none,true,false,false,none,false,false,false,false,false,false⟩]]
theorem clearsilverhtml_w0_closed : closed emb39_rows clearsilverhtml_w0_tab (XA.init clearsilverhtml_wopt) (XA.succ clearsilverhtml_M clearsilverhtml_wopt 0) (XA.eofOk clearsilverhtml_M clearsilverhtml_wopt 0) = true := by
  decide +kernel
def clearsilverhtml_w0 : XCert clearsilverhtml_M clearsilverhtml_wopt 0 := ⟨emb39_D, clearsilverhtml_w0_tab, clearsilverhtml_w0_closed⟩
def clearsilverhtml_w1_tab : List (List XA) := [[⟨none,false,false,false,none,false,false,false,false,false,false⟩],[⟨none,true,false,false,none,false,false,false,false,false,false⟩,⟨some .internalNl,true,false,false,none,false,false,false,false,false,false⟩],[⟨none,false,false,false,none,false,false,false,false,false,false⟩,⟨none,false,true,false,none,false,false,false,false,false,false⟩,⟨some .internalNl,false,true,false,none,false,false,false,false,false,false⟩,⟨some .internalNl,false,false,false,none,false,false,false,false,false,false⟩],[⟨none,true,false,false,none,false,false,false,false,false,false⟩,⟨some .internalNl,true,false,false,none,false,false,false,false,false,false⟩],[⟨none,true,false,false,none,false,false,false,false,false,false⟩,⟨some .internalNl,true,false,false,none,false,false,false,false,false,false⟩],[⟨none,true,false,false,none,false,false,false,false,false,false⟩,⟨some .internalNl,true,false,false,none,false,false,false,false,false,false⟩],[⟨none,true,false,false,none,false,false,false,false,false,false⟩,⟨some .internalNl,true,false,false,none,false,false,false,false,false,false⟩],[⟨none,true,false,false,none,false,false,false,false,false,false⟩,⟨some .internalNl,true,false,false,none,false,false,false,false,false,false⟩],[⟨none,true,false,false,none,false,false,false,false,false,false⟩,⟨some .internalNl,true,false,false,none,false,false,false,false,false,false⟩],[⟨some .internalNl,true,false,false,none,false,false,false,false,false,false⟩,⟨none,true,false,false,none,false,false,false,false,false,false⟩],[⟨some .internalNl,true,false,false,none,false,false,false,false,false,false⟩],[⟨none,true,false,false,none,false,false,false,false,false,false⟩,⟨some .internalNl,true,false,false,none,false,false,false,false,false,false⟩],[⟨none,false,true,false,none,false,false,false,false,false,false⟩,⟨some .internalNl,false,true,false,none,false,false,false,false,false,false⟩],[⟨none,true,false,false,none,false,false,false,false,false,false⟩,⟨some .internalNl,true,false,false,none,false,false,false,false,false,false⟩],[⟨none,true,false,false,none,false,false,false,false,false,false⟩,⟨some .internalNl,true,false,false,none,false,false,false,false,false,false⟩],[⟨none,true,false,false,none,false,false,false,false,false,false⟩,⟨some .internalNl,true,false,false,none,false,false,false,false,false,false⟩],[⟨none,true,false,false,none,false,false,false,false,false,false⟩,⟨some .internalNl,true,false,false,none,false,false,false,false,false,false⟩],[],[⟨none,true,false,false,none,false,false,false,false,false,false⟩,⟨some .internalNl,true,false,false,none,false,false,false,false,false,false⟩],[⟨none,true,false,false,none,false,false,false,false,false,false⟩,⟨some .internalNl,true,false,false,none,false,false,false,false,false,false⟩],[⟨none,true,false,false,none,false,false,false,false,false,false⟩,⟨some .internalNl,true,false,false,none,false,false,false,false,false,false⟩],[⟨none,true,false,false,none,false,false,false,false,false,false⟩,⟨none,false,true,false,none,false,false,false,false,false,false⟩,⟨some .internalNl,true,false,false,none,false,false,false,false,false,false⟩,⟨some .internalNl,false,true,false,none,false,false,false,false,false,false⟩],[⟨some .internalNl,true,false,false,none,false,false,false,false,false,false⟩,⟨none,true,false,false,none,false,false,false,false,false,false⟩],[⟨some .internalNl,false,true,false,none,false,false,false,false,false,false⟩,⟨some .internalNl,false,false,false,none,false,false,false,false,false,false⟩,⟨none,false,true,false,none,false,false,false,false,false,false⟩,⟨none,false,false,false,none,false,false,false,false,false,false⟩],[⟨none,true,false,false,none,false,false,false,false,false,false⟩,⟨some .internalNl,true,false,false,none,false,false,false,false,false,false⟩],[⟨none,true,false,false,none,false,false,false,false,false,false⟩,⟨some .internalNl,true,false,false,none,false,false,false,false,false,false⟩],[⟨none,true,false,false,none,false,false,false,false,false,false⟩,⟨some .internalNl,true,false,false,none,false,false,false,false,false,false⟩],[⟨none,true,false,false,none,false,false,false,false,false,false⟩,⟨some .internalNl,true,false,false,none,false,false,false,false,false,false⟩],[],[⟨some .internalNl,true,false,false,none,false,false,false,false,false,false⟩,⟨none,true,false,false,none,false,false,false,false,false,false⟩],[⟨some .internalNl,true,false,false,none,false,false,false,false,false,false⟩,⟨none,true,false,false,none,false,false,false,false,false,false⟩],[⟨some .internalNl,true,false,false,none,false,false,false,false,false,false⟩,⟨none,true,false,false,none,false,false,false,false,false,false⟩],[⟨none,true,false,false,none,false,false,false,false,false,false⟩,⟨some .internalNl,true,false,false,none,false,false,false,false,false,false⟩],[⟨none,false,true,false,none,false,false,false,false,false,false⟩,⟨some .internalNl,false,true,false,none,false,false,false,false,false,false⟩],[⟨none,true,false,false,none,false,false,false,false,false,false⟩,⟨some .internalNl,true,false,false,none,false,false,false,false,false,false⟩],[⟨none,true,false,false,none,false,false,false,false,false,false⟩,⟨some .internalNl,true,false,false,none,false,false,false,false,false,false⟩],[⟨none,true,false,false,none,false,false,false,false,false,false⟩,⟨some .internalNl,true,false,false,none,false,false,false,false,false,false⟩],[⟨none,true,false,false,none,false,false,false,false,false,false⟩,⟨some .internalNl,true,false,false,none,false,false,false,false,false,false⟩],[],[⟨none,true,false,false,none,false,false,false,false,false,false⟩,⟨some .internalNl,true,false,false,none,false,false,false,false,false,false⟩],[⟨none,true,false,false,none,false,false,false,false,false,false⟩,⟨some .internalNl,true,false,false,none,false,false,false,false,false,false⟩],[⟨none,true,false,false,none,false,false,false,false,false,false⟩,⟨some .internalNl,true,false,false,none,false,false,false,false,false,false⟩],[⟨none,true,false,false,none,false,false,false,false,false,false⟩,⟨some .internalNl,true,false,false,none,false,false,false,false,false,false⟩],[⟨none,false,true,false,none,false,false,false,false,false,false⟩,⟨some .internalNl,false,true,false,none,false,false,false,false,false,false⟩],[⟨none,true,false,false,none,false,false,false,false,false,false⟩,⟨some .internalNl,true,false,false,none,false,false,false,false,false,false⟩],[⟨none,true,false,false,none,false,false,false,false,false,false⟩,⟨some .internalNl,true,false,false,none,false,false,false,false,false,false⟩],[⟨none,true,false,false,none,false,false,false,false,false,false⟩,⟨some .internalNl,true,false,false,none,false,false,false,false,false,false⟩],[⟨none,true,false,false,none,false,false,false,false,false,false⟩,⟨some .internalNl,true,false,false,none,false,false,false,false,false,false⟩],[],[⟨none,true,false,false,none,false,false,false,false,false,false⟩,⟨some .internalNl,true,false,false,none,false,false,false,false,false,false⟩],[⟨none,true,false,false,none,false,false,false,false,false,false⟩,⟨some .internalNl,true,false,false,none,false,false,false,false,false,false⟩],[⟨none,true,false,false,none,false,false,false,false,false,false⟩,⟨some .internalNl,true,false,false,none,false,false,false,false,false,false⟩],[⟨none,true,false,false,none,false,false,false,false,false,false⟩,⟨some .internalNl,true,false,false,none,false,false,false,false,false,false⟩],[⟨none,false,true,false,none,false,false,false,false,false,false⟩,⟨some .internalNl,false,true,false,none,false,false,false,false,false,false⟩],[],[⟨none,true,false,false,none,false,false,false,false,false,false⟩,⟨some .internalNl,true,false,false,none,false,false,false,false,false,false⟩],[⟨none,true,false,false,none,false,false,false,false,false,false⟩,⟨some .internalNl,true,false,false,none,false,false,false,false,false,false⟩],[⟨none,true,false,false,none,false,false,false,false,false,false⟩,⟨some .internalNl,true,false,false,none,false,false,false,false,false,false⟩],[⟨none,false,true,false,none,false,false,false,false,false,false⟩,⟨some .internalNl,false,true,false,none,false,false,false,false,false,false⟩],[⟨none,true,false,false,none,false,false,false,false,false,false⟩,⟨some .internalNl,true,false,false,none,false,false,false,false,false,false⟩],[⟨none,true,false,false,none,false,false,false,false,false,false⟩,⟨some .internalNl,true,false,false,none,false,false,false,false,false,false⟩],[⟨none,true,false,false,none,false,false,false,false,false,false⟩,⟨some .internalNl,true,false,false,none,false,false,false,false,false,false⟩],[⟨none,true,false,false,none,false,false,false,false,false,false⟩,⟨some .internalNl,true,false,false,none,false,false,false,false,false,false⟩],[],[⟨none,true,false,false,none,false,false,false,false,false,false⟩,⟨some .internalNl,true,false,false,none,false,false,false,false,false,false⟩],[⟨none,true,false,false,none,false,false,false,false,false,false⟩,⟨some .internalNl,true,false,false,none,false,false,false,false,false,false⟩],[⟨none,true,false,false,none,false,false,false,false,false,false⟩,⟨some .internalNl,true,false,false,none,false,false,false,false,false,false⟩],[⟨none,true,false,false,none,false,false,false,false,false,false⟩,⟨some .internalNl,true,false,false,none,false,false,false,false,false,false⟩],[⟨none,false,true,false,none,false,false,false,false,false,false⟩,⟨some .internalNl,false,true,false,none,false,false,false,false,false,false⟩],[⟨none,true,false,false,none,false,false,false,false,false,false⟩,⟨some .internalNl,true,false,false,none,false,false,false,false,false,false⟩],[⟨none,true,false,false,none,false,false,false,false,false,false⟩,⟨some .internalNl,true,false,false,none,false,false,false,false,false,false⟩],[⟨none,true,false,false,none,false,false,false,false,false,false⟩,⟨some .internalNl,true,false,false,none,false,false,false,false,false,false⟩],[⟨none,true,false,false,none,false,false,false,false,false,false⟩,⟨some .internalNl,true,false,false,none,false,false,false,false,false,false⟩],[],[⟨none,true,false,false,none,false,false,false,false,false,false⟩,⟨some .internalNl,true,false,false,none,false,false,false,false,false,false⟩],[⟨none,true,false,false,none,false,false,false,false,false,false⟩,⟨some .internalNl,true,false,false,none,false,false,false,false,false,false⟩],[⟨none,false,false,false,none,false,false,false,false,false,false⟩],[⟨none,true,false,false,none,false,false,false,false,false,false⟩,⟨some .internalNl,true,false,false,none,false,false,false,false,false,false⟩],[⟨none,false,true,false,none,false,false,false,false,false,false⟩,⟨some .internalNl,false,true,false,none,false,false,false,false,false,false⟩],[⟨none,true,false,false,none,false,false,false,false,false,false⟩,⟨some .internalNl,true,false,false,none,false,false,false,false,false,false⟩],[⟨none,true,false,false,none,false,false,false,false,false,false⟩,⟨some .internalNl,true,false,false,none,false,false,false,false,false,false⟩],[⟨none,true,false,false,none,false,false,false,false,false,false⟩,⟨some .internalNl,true,false,false,none,false,false,false,false,false,false⟩],[⟨none,true,false,false,none,false,false,false,false,false,false⟩,⟨some .internalNl,true,false,false,none,false,false,false,false,false,false⟩],[],[⟨none,true,false,false,none,false,false,false,false,false,false⟩,⟨some .internalNl,true,false,false,none,false,false,false,false,false,false⟩],[⟨none,true,false,false,none,false,false,false,false,false,false⟩,⟨some .internalNl,true,false,false,none,false,false,false,false,false,false⟩],[⟨none,false,false,false,none,false,false,false,false,false,false⟩],[⟨none,true,false,false,none,false,false,false,false,false,false⟩],[⟨none,false,false,false,none,false,false,false,false,false,false⟩],[⟨none,true,false,false,none,false,false,false,false,false,false⟩],[⟨none,true,false,false,none,false,false,false,false,false,false⟩],[⟨none,true,false,false,none,false,false,false,false,false,false⟩],[⟨none,true,false,false,none,false,false,false,false,false,false⟩],[],[⟨none,true,false,false,none,false,false,false,false,false,false⟩],[⟨none,true,false,false,none,false,false,false,false,false,false⟩],[⟨none,true,false,false,none,false,false,false,false,false,false⟩],[⟨none,false,false,false,none,false,false,false,false,false,false⟩],[⟨none,true,false,false,none,false,false,false,false,false,false⟩],[⟨none,true,false,false,none,false,false,false,false,false,false⟩],[⟨none,true,false,false,none,false,false,false,false,false,false⟩],[⟨none,true,false,false,none,false,false,false,false,false,false⟩],[],[⟨none,true,false,false,none,false,false,false,false,false,false⟩],[⟨none,true,false,false,none,false,false,false,false,false,false⟩]]
theorem clearsilverhtml_w1_closed : closed emb40_rows clearsilverhtml_w1_tab (XA.init clearsilverhtml_wopt) (XA.succ clearsilverhtml_M clearsilverhtml_wopt 1) (XA.eofOk clearsilverhtml_M clearsilverhtml_wopt 1) = true := by
  decide +kernel
def clearsilverhtml_w1 : XCert clearsilverhtml_M clearsilverhtml_wopt 1 := ⟨emb40_D, clearsilverhtml_w1_tab, clearsilverhtml_w1_closed⟩
def clearsilverhtml_w2_tab : List (List XA) := [[⟨none,false,false,false,none,false,false,false,false,false,false⟩],[⟨none,true,false,false,none,false,false,false,false,false,false⟩,⟨some .internalNl,true,false,false,none,false,false,false,false,false,false⟩],[⟨none,false,false,false,none,false,false,false,false,false,false⟩,⟨none,false,true,false,none,false,false,false,false,false,false⟩,⟨some .internalNl,false,true,false,none,false,false,false,false,false,false⟩,⟨some .internalNl,false,false,false,none,false,false,false,false,false,false⟩],[⟨none,true,false,false,none,false,false,false,false,false,false⟩,⟨some .internalNl,true,false,false,none,false,false,false,false,false,false⟩],[⟨none,true,false,false,none,false,false,false,false,false,false⟩,⟨some .internalNl,true,false,false,none,false,false,false,false,false,false⟩],[⟨none,true,false,false,none,false,false,false,false,false,false⟩,⟨some .internalNl,true,false,false,none,false,false,false,false,false,false⟩],[⟨none,true,false,false,none,false,false,false,false,false,false⟩,⟨some .internalNl,true,false,false,none,false,false,false,false,false,false⟩],[⟨none,true,false,false,none,false,false,false,false,false,false⟩,⟨some .internalNl,true,false,false,none,false,false,false,false,false,false⟩],[⟨none,true,false,false,none,false,false,false,false,false,false⟩,⟨some .internalNl,true,false,false,none,false,false,false,false,false,false⟩],[⟨some .internalNl,true,false,false,none,false,false,false,false,false,false⟩,⟨none,true,false,false,none,false,false,false,false,false,false⟩],[⟨some .internalNl,true,false,false,none,false,false,false,false,false,false⟩],[⟨none,true,false,false,none,false,false,false,false,false,false⟩,⟨some .internalNl,true,false,false,none,false,false,false,false,false,false⟩],[⟨none,false,true,false,none,false,false,false,false,false,false⟩,⟨some .internalNl,false,true,false,none,false,false,false,false,false,false⟩],[⟨none,true,false,false,none,false,false,false,false,false,false⟩,⟨some .internalNl,true,false,false,none,false,false,false,false,false,false⟩],[⟨none,true,false,false,none,false,false,false,false,false,false⟩,⟨some .internalNl,true,false,false,none,false,false,false,false,false,false⟩],[⟨none,true,false,false,none,false,false,false,false,false,false⟩,⟨some .internalNl,true,false,false,none,false,false,false,false,false,false⟩],[⟨none,true,false,false,none,false,false,false,false,false,false⟩,⟨some .internalNl,true,false,false,none,false,false,false,false,false,false⟩],[],[⟨none,true,false,false,none,false,false,false,false,false,false⟩,⟨some .internalNl,true,false,false,none,false,false,false,false,false,false⟩],[⟨none,true,false,false,none,false,false,false,false,false,false⟩,⟨some .internalNl,true,false,false,none,false,false,false,false,false,false⟩],[⟨none,true,false,false,none,false,false,false,false,false,false⟩,⟨some .internalNl,true,false,false,none,false,false,false,false,false,false⟩],[⟨none,true,false,false,none,false,false,false,false,false,false⟩,⟨none,false,true,false,none,false,false,false,false,false,false⟩,⟨some .internalNl,true,false,false,none,false,false,false,false,false,false⟩,⟨some .internalNl,false,true,false,none,false,false,false,false,false,false⟩],[⟨some .internalNl,true,false,false,none,false,false,false,false,false,false⟩,⟨none,true,false,false,none,false,false,false,false,false,false⟩],[⟨some .internalNl,false,true,false,none,false,false,false,false,false,false⟩,⟨some .internalNl,false,false,false,none,false,false,false,false,false,false⟩,⟨none,false,true,false,none,false,false,false,false,false,false⟩,⟨none,false,false,false,none,false,false,false,false,false,false⟩],[⟨none,true,false,false,none,false,false,false,false,false,false⟩,⟨some .internalNl,true,false,false,none,false,false,false,false,false,false⟩],[⟨none,true,false,false,none,false,false,false,false,false,false⟩,⟨some .internalNl,true,false,false,none,false,false,false,false,false,false⟩],[⟨none,true,false,false,none,false,false,false,false,false,false⟩,⟨some .internalNl,true,false,false,none,false,false,false,false,false,false⟩],[⟨none,true,false,false,none,false,false,false,false,false,false⟩,⟨some .internalNl,true,false,false,none,false,false,false,false,false,false⟩],[],[⟨some .internalNl,true,false,false,none,false,false,false,false,false,false⟩,⟨none,true,false,false,none,false,false,false,false,false,false⟩],[⟨some .internalNl,true,false,false,none,false,false,false,false,false,false⟩,⟨none,true,false,false,none,false,false,false,false,false,false⟩],[⟨some .internalNl,true,false,false,none,false,false,false,false,false,false⟩,⟨none,true,false,false,none,false,false,false,false,false,false⟩],[⟨none,true,false,false,none,false,false,false,false,false,false⟩,⟨some .internalNl,true,false,false,none,false,false,false,false,false,false⟩],[⟨none,false,true,false,none,false,false,false,false,false,false⟩,⟨some .internalNl,false,true,false,none,false,false,false,false,false,false⟩],[⟨none,true,false,false,none,false,false,false,false,false,false⟩,⟨some .internalNl,true,false,false,none,false,false,false,false,false,false⟩],[⟨none,true,false,false,none,false,false,false,false,false,false⟩,⟨some .internalNl,true,false,false,none,false,false,false,false,false,false⟩],[⟨none,true,false,false,none,false,false,false,false,false,false⟩,⟨some .internalNl,true,false,false,none,false,false,false,false,false,false⟩],[⟨none,true,false,false,none,false,false,false,false,false,false⟩,⟨some .internalNl,true,false,false,none,false,false,false,false,false,false⟩],[],[⟨none,true,false,false,none,false,false,false,false,false,false⟩,⟨some .internalNl,true,false,false,none,false,false,false,false,false,false⟩],[⟨none,true,false,false,none,false,false,false,false,false,false⟩,⟨some .internalNl,true,false,false,none,false,false,false,false,false,false⟩],[⟨none,true,false,false,none,false,false,false,false,false,false⟩,⟨some .internalNl,true,false,false,none,false,false,false,false,false,false⟩],[⟨none,true,false,false,none,false,false,false,false,false,false⟩,⟨some .internalNl,true,false,false,none,false,false,false,false,false,false⟩],[⟨none,false,true,false,none,false,false,false,false,false,false⟩,⟨some .internalNl,false,true,false,none,false,false,false,false,false,false⟩],[⟨none,true,false,false,none,false,false,false,false,false,false⟩,⟨some .internalNl,true,false,false,none,false,false,false,false,false,false⟩],[⟨none,true,false,false,none,false,false,false,false,false,false⟩,⟨some .internalNl,true,false,false,none,false,false,false,false,false,false⟩],[⟨none,true,false,false,none,false,false,false,false,false,false⟩,⟨some .internalNl,true,false,false,none,false,false,false,false,false,false⟩],[⟨none,true,false,false,none,false,false,false,false,false,false⟩,⟨some .internalNl,true,false,false,none,false,false,false,false,false,false⟩],[],[⟨none,true,false,false,none,false,false,false,false,false,false⟩,⟨some .internalNl,true,false,false,none,false,false,false,false,false,false⟩],[⟨none,true,false,false,none,false,false,false,false,false,false⟩,⟨some .internalNl,true,false,false,none,false,false,false,false,false,false⟩],[⟨none,true,false,false,none,false,false,false,false,false,false⟩,⟨some .internalNl,true,false,false,none,false,false,false,false,false,false⟩],[⟨none,true,false,false,none,false,false,false,false,false,false⟩,⟨some .internalNl,true,false,false,none,false,false,false,false,false,false⟩],[⟨none,false,true,false,none,false,false,false,false,false,false⟩,⟨some .internalNl,false,true,false,none,false,false,false,false,false,false⟩],[],[⟨none,true,false,false,none,false,false,false,false,false,false⟩,⟨some .internalNl,true,false,false,none,false,false,false,false,false,false⟩],[⟨none,true,false,false,none,false,false,false,false,false,false⟩,⟨some .internalNl,true,false,false,none,false,false,false,false,false,false⟩],[⟨none,true,false,false,none,false,false,false,false,false,false⟩,⟨some .internalNl,true,false,false,none,false,false,false,false,false,false⟩],[⟨none,false,true,false,none,false,false,false,false,false,false⟩,⟨some .internalNl,false,true,false,none,false,false,false,false,false,false⟩],[⟨none,true,false,false,none,false,false,false,false,false,false⟩,⟨some .internalNl,true,false,false,none,false,false,false,false,false,false⟩],[⟨none,true,false,false,none,false,false,false,false,false,false⟩,⟨some .internalNl,true,false,false,none,false,false,false,false,false,false⟩],[⟨none,true,false,false,none,false,false,false,false,false,false⟩,⟨some .internalNl,true,false,false,none,false,false,false,false,false,false⟩],[⟨none,true,false,false,none,false,false,false,false,false,false⟩,⟨some .internalNl,true,false,false,none,false,false,false,false,false,false⟩],[],[⟨none,true,false,false,none,false,false,false,false,false,false⟩,⟨some .internalNl,true,false,false,none,false,false,false,false,false,false⟩],[⟨none,true,false,false,none,false,false,false,false,false,false⟩,⟨some .internalNl,true,false,false,none,false,false,false,false,false,false⟩],[⟨none,true,false,false,none,false,false,false,false,false,false⟩,⟨some .internalNl,true,false,false,none,false,false,false,false,false,false⟩],[⟨none,true,false,false,none,false,false,false,false,false,false⟩,⟨some .internalNl,true,false,false,none,false,false,false,false,false,false⟩],[⟨none,false,true,false,none,false,false,false,false,false,false⟩,⟨some .internalNl,false,true,false,none,false,false,false,false,false,false⟩],[⟨none,true,false,false,none,false,false,false,false,false,false⟩,⟨some .internalNl,true,false,false,none,false,false,false,false,false,false⟩],[⟨none,true,false,false,none,false,false,false,false,false,false⟩,⟨some .internalNl,true,false,false,none,false,false,false,false,false,false⟩],[⟨none,true,false,false,none,false,false,false,false,false,false⟩,⟨some .internalNl,true,false,false,none,false,false,false,false,false,false⟩],[⟨none,true,false,false,none,false,false,false,false,false,false⟩,⟨some .internalNl,true,false,false,none,false,false,false,false,false,false⟩],[],[⟨none,true,false,false,none,false,false,false,false,false,false⟩,⟨some .internalNl,true,false,false,none,false,false,false,false,false,false⟩],[⟨none,true,false,false,none,false,false,false,false,false,false⟩,⟨some .internalNl,true,false,false,none,false,false,false,false,false,false⟩],[⟨none,false,false,false,none,false,false,false,false,false,false⟩],[⟨none,true,false,false,none,false,false,false,false,false,false⟩,⟨some .internalNl,true,false,false,none,false,false,false,false,false,false⟩],[⟨none,false,true,false,none,false,false,false,false,false,false⟩,⟨some .internalNl,false,true,false,none,false,false,false,false,false,false⟩],[⟨none,true,false,false,none,false,false,false,false,false,false⟩,⟨some .internalNl,true,false,false,none,false,false,false,false,false,false⟩],[⟨none,true,false,false,none,false,false,false,false,false,false⟩,⟨some .internalNl,true,false,false,none,false,false,false,false,false,false⟩],[⟨none,true,false,false,none,false,false,false,false,false,false⟩,⟨some .internalNl,true,false,false,none,false,false,false,false,false,false⟩],[⟨none,true,false,false,none,false,false,false,false,false,false⟩,⟨some .internalNl,true,false,false,none,false,false,false,false,false,false⟩],[],[⟨none,true,false,false,none,false,false,false,false,false,false⟩,⟨some .internalNl,true,false,false,none,false,false,false,false,false,false⟩],[⟨none,true,false,false,none,false,false,false,false,false,false⟩,⟨some .internalNl,true,false,false,none,false,false,false,false,false,false⟩],[⟨none,false,false,false,none,false,false,false,false,false,false⟩],[⟨none,true,false,false,none,false,false,false,false,false,false⟩],[⟨none,false,false,false,none,false,false,false,false,false,false⟩],[⟨none,true,false,false,none,false,false,false,false,false,false⟩],[⟨none,true,false,false,none,false,false,false,false,false,false⟩],[⟨none,true,false,false,none,false,false,false,false,false,false⟩],[⟨none,true,false,false,none,false,false,false,false,false,false⟩],[],[⟨none,true,false,false,none,false,false,false,false,false,false⟩],[⟨none,true,false,false,none,false,false,false,false,false,false⟩],[⟨none,true,false,false,none,false,false,false,false,false,false⟩],[⟨none,false,false,false,none,false,false,false,false,false,false⟩],[⟨none,true,false,false,none,false,false,false,false,false,false⟩],[⟨none,true,false,false,none,false,false,false,false,false,false⟩],[⟨none,true,false,false,none,false,false,false,false,false,false⟩],[⟨none,true,false,false,none,false,false,false,false,false,false⟩],[],[⟨none,true,false,false,none,false,false,false,false,false,false⟩],[⟨none,true,false,false,none,false,false,false,false,false,false⟩]]
theorem clearsilverhtml_w2_closed : closed emb41_rows clearsilverhtml_w2_tab (XA.init clearsilverhtml_wopt) (XA.succ clearsilverhtml_M clearsilverhtml_wopt 2) (XA.eofOk clearsilverhtml_M clearsilverhtml_wopt 2) = true := by
  decide +kernel
def clearsilverhtml_w2 : XCert clearsilverhtml_M clearsilverhtml_wopt 2 := ⟨emb41_D, clearsilverhtml_w2_tab, clearsilverhtml_w2_closed⟩
theorem clearsilverhtml_solid : ∀ m ∈ clearsilverhtml_wopt.use, Nonempty (XCert clearsilverhtml_M clearsilverhtml_wopt m) :=
  (List.forall_mem_cons.mpr ⟨⟨clearsilverhtml_w6⟩,
  (List.forall_mem_cons.mpr ⟨⟨clearsilverhtml_w3⟩,
  (List.forall_mem_cons.mpr ⟨⟨clearsilverhtml_w4⟩,
  (List.forall_mem_cons.mpr ⟨⟨clearsilverhtml_w5⟩,
  (List.forall_mem_cons.mpr ⟨⟨clearsilverhtml_w0⟩,
  (List.forall_mem_cons.mpr ⟨⟨clearsilverhtml_w1⟩,
  (List.forall_mem_cons.mpr ⟨⟨clearsilverhtml_w2⟩,
  (fun _ h => nomatch h)⟩)⟩)⟩)⟩)⟩)⟩)⟩)

def csAspx_wopt : WOpt := ⟨false, false, [6, 3, 4, 5, 0, 1, 2]⟩
def csAspx_w6_tab : List (List XA) := [[⟨none,false,false,false,none,false,false,false,false,false,false⟩],[⟨some (.own 0),false,false,false,some 3,false,false,false,false,false,false⟩],[⟨some .newline,true,false,false,none,false,false,false,false,false,false⟩],[⟨some .newline,true,false,true,some 7,false,false,false,false,false,false⟩],[⟨some (.own 5),true,false,true,some 8,false,false,false,false,false,false⟩],[⟨some (.own 5),true,false,true,some 8,false,false,false,false,false,false⟩],[⟨some (.own 5),true,false,true,some 8,false,false,false,false,false,false⟩],[⟨some (.own 5),true,false,true,some 8,false,false,false,false,false,false⟩],[⟨some (.own 5),true,false,true,some 8,false,false,false,false,false,false⟩],[⟨some (.own 5),true,false,true,some 8,false,false,false,false,false,false⟩],[⟨some (.own 5),true,false,true,some 8,false,false,false,false,false,false⟩],[⟨some (.own 5),true,false,true,some 8,false,false,false,false,false,false⟩],[⟨some (.own 5),true,false,true,some 8,false,false,false,false,false,false⟩],[⟨some (.own 5),true,false,true,some 8,false,false,false,false,false,false⟩],[⟨some (.own 5),true,false,true,some 8,false,false,false,false,false,false⟩],[⟨some (.own 5),true,false,true,some 8,false,false,false,false,false,false⟩],[⟨some (.own 5),true,false,true,some 8,false,false,false,false,false,false⟩],[⟨some (.own 5),true,false,true,some 8,false,false,false,false,false,false⟩,⟨some (.own 5),false,true,true,some 8,false,false,false,false,false,false⟩,⟨some (.own 5),false,false,true,some 8,false,false,false,false,false,false⟩],[⟨some (.own 5),true,false,true,some 8,false,false,false,false,false,false⟩,⟨some (.own 5),false,true,true,some 8,false,false,false,false,false,false⟩,⟨some (.own 5),false,false,true,some 8,false,false,false,false,false,false⟩],[⟨some (.own 5),true,false,true,some 8,false,false,false,false,false,false⟩],[⟨some (.own 5),true,false,true,some 8,false,false,false,false,false,false⟩],[⟨some (.own 5),true,false,true,some 8,false,false,false,false,false,false⟩],[⟨some (.own 5),true,false,true,some 8,false,false,false,false,false,false⟩],[⟨some (.own 5),true,false,true,some 8,false,false,false,false,false,false⟩],[⟨some (.own 5),true,false,true,some 8,false,false,false,false,false,false⟩],[⟨some (.own 5),true,false,true,some 8,false,false,false,false,false,false⟩],[⟨some (.own 5),true,false,true,some 8,false,false,false,false,false,false⟩],[⟨some (.own 5),true,false,true,some 8,false,false,false,false,false,false⟩],[⟨some (.own 5),true,false,true,some 8,false,false,false,false,false,false⟩],[⟨some (.own 5),true,false,true,some 8,false,false,false,false,false,false⟩],[⟨some (.own 5),true,false,true,some 8,false,false,false,false,false,false⟩],[⟨some (.own 5),true,false,true,some 8,false,false,false,false,false,false⟩],[⟨some (.own 5),true,false,true,some 8,false,false,false,false,false,false⟩],[⟨some (.own 5),true,false,true,some 8,false,false,false,false,false,false⟩],[⟨some (.own 5),true,false,true,some 8,false,false,false,false,false,false⟩],[⟨some (.own 5),true,false,true,some 8,false,false,false,false,false,false⟩],[⟨some (.own 5),true,false,true,some 8,false,false,false,false,false,false⟩],[⟨some (.own 5),true,false,true,some 8,false,false,false,false,false,false⟩],[⟨some (.own 5),true,false,true,some 8,false,false,false,false,false,false⟩,⟨some (.own 5),false,true,true,some 8,false,false,false,false,false,false⟩,⟨some (.own 5),false,false,true,some 8,false,false,false,false,false,false⟩],[⟨some (.own 5),true,false,true,some 8,false,false,false,false,false,false⟩],[⟨some (.own 5),true,false,true,some 8,false,false,false,false,false,false⟩],[⟨some (.own 5),true,false,true,some 8,false,false,false,false,false,false⟩],[⟨some (.own 5),true,false,true,some 8,false,false,false,false,false,false⟩],[⟨some (.own 5),true,false,true,some 8,false,false,false,false,false,false⟩],[⟨some (.own 5),true,false,true,some 8,false,false,false,false,false,false⟩,⟨some (.own 5),false,true,true,some 8,false,false,false,false,false,false⟩,⟨some (.own 5),false,false,true,some 8,false,false,false,false,false,false⟩],[⟨some (.own 5),true,false,true,some 8,false,false,false,false,false,false⟩],[⟨some (.own 5),true,false,true,some 8,false,false,false,false,false,false⟩],[⟨some (.own 5),true,false,true,some 8,false,false,false,false,false,false⟩],[⟨some (.own 5),true,false,true,some 8,false,false,false,false,false,false⟩],[⟨some (.own 5),true,false,true,some 8,false,false,false,false,false,false⟩],[⟨some (.own 5),true,false,true,some 8,false,false,false,false,false,false⟩],[⟨some (.own 5),true,false,true,some 8,false,false,false,false,false,false⟩],[⟨some (.own 5),true,false,true,some 8,false,false,false,false,false,false⟩],[⟨some (.own 5),true,false,true,some 8,false,false,false,false,false,false⟩],[⟨some (.own 5),true,false,true,some 8,false,false,false,false,false,false⟩],[⟨some (.own 5),true,false,true,some 8,false,false,false,false,false,false⟩],[⟨some (.own 5),true,false,true,some 8,false,false,false,false,false,false⟩],[⟨some (.own 5),true,false,true,some 8,false,false,false,false,false,false⟩],[⟨some (.own 5),true,false,true,some 8,false,false,false,false,false,false⟩],[⟨some (.own 5),true,false,true,some 8,false,false,false,false,false,false⟩],[⟨some (.own 5),true,false,true,some 8,false,false,false,false,false,false⟩,⟨some (.own 5),false,true,true,some 8,false,false,false,false,false,false⟩,⟨some (.own 5),false,false,true,some 8,false,false,false,false,false,false⟩],[⟨some (.own 5),true,false,true,some 8,false,false,false,false,false,false⟩],[⟨some (.own 5),true,false,true,some 8,false,false,false,false,false,false⟩],[⟨some (.own 5),true,false,true,some 8,false,false,false,false,false,false⟩],[⟨some (.own 5),true,false,true,some 8,false,false,false,false,false,false⟩],[⟨some (.own 5),true,false,true,some 8,false,false,false,false,false,false⟩],[⟨some (.own 5),true,false,true,some 8,false,false,false,false,false,false⟩],[⟨some (.own 5),true,false,true,some 8,false,false,false,false,false,false⟩],[⟨some (.own 5),true,false,true,some 8,false,false,false,false,false,false⟩],[⟨some (.own 5),true,false,true,some 8,false,false,false,false,false,false⟩],[⟨some (.own 5),true,false,true,some 8,false,false,false,false,false,false⟩],[⟨some (.own 5),true,false,true,some 8,false,false,false,false,false,false⟩],[⟨some (.own 5),true,false,true,some 8,false,false,false,false,false,false⟩,⟨some (.own 5),false,true,true,some 8,false,false,false,false,false,false⟩,⟨some (.own 5),false,false,true,some 8,false,false,false,false,false,false⟩]]
theorem csAspx_w6_closed : closed emb47_rows csAspx_w6_tab (XA.init csAspx_wopt) (XA.succ csAspx_M csAspx_wopt 6) (XA.eofOk csAspx_M csAspx_wopt 6) = true := by
  decide +kernel
def csAspx_w6 : XCert csAspx_M csAspx_wopt 6 := ⟨emb47_D, csAspx_w6_tab, csAspx_w6_closed⟩
def csAspx_w3_tab : List (List XA) := [[⟨none,false,false,false,none,false,false,false,false,false,false⟩],[⟨some (.own 0),false,false,false,some 1,false,false,false,false,false,false⟩],[⟨some .newline,true,false,false,none,false,false,false,false,false,false⟩],[⟨some .newline,true,false,true,some 4,false,false,false,false,false,false⟩],[⟨some (.own 9),true,false,true,some 5,false,false,false,false,false,false⟩],[⟨some (.own 9),true,false,true,some 5,false,false,false,false,false,false⟩],[⟨some (.own 9),true,false,true,some 5,false,false,false,false,false,false⟩],[⟨some (.own 9),true,false,true,some 5,false,false,false,false,false,false⟩],[⟨some (.own 9),true,false,true,some 5,false,false,false,false,false,false⟩,⟨some .internalNl,true,false,true,some 5,false,false,false,false,false,false⟩],[⟨some (.own 9),false,true,true,some 5,false,false,false,false,false,false⟩,⟨some (.own 9),false,false,true,some 5,false,false,false,false,false,false⟩,⟨some .internalNl,false,true,true,some 5,false,false,false,false,false,false⟩,⟨some .internalNl,false,false,true,some 5,false,false,false,false,false,false⟩],[⟨some (.own 9),true,false,true,some 5,false,false,false,false,false,false⟩,⟨some .internalNl,true,false,true,some 5,false,false,false,false,false,false⟩],[⟨some (.own 9),true,false,true,some 5,false,false,false,false,false,false⟩,⟨some .internalNl,true,false,true,some 5,false,false,false,false,false,false⟩],[⟨some (.own 9),true,false,true,some 5,false,false,false,false,false,false⟩,⟨some .internalNl,true,false,true,some 5,false,false,false,false,false,false⟩],[⟨some (.own 9),true,false,true,some 5,false,false,false,false,false,false⟩,⟨some .internalNl,true,false,true,some 5,false,false,false,false,false,false⟩],[⟨some (.own 9),true,false,true,some 5,false,false,false,false,false,false⟩,⟨some .internalNl,true,false,true,some 5,false,false,false,false,false,false⟩],[⟨some (.own 9),true,false,true,some 5,false,false,false,false,false,false⟩,⟨some .internalNl,true,false,true,some 5,false,false,false,false,false,false⟩],[⟨some (.own 9),false,true,true,some 5,false,false,false,false,false,false⟩,⟨some (.own 9),false,false,true,some 5,false,false,false,false,false,false⟩,⟨some .internalNl,false,true,true,some 5,false,false,false,false,false,false⟩,⟨some .internalNl,false,false,true,some 5,false,false,false,false,false,false⟩],[⟨some (.own 9),true,false,true,some 5,false,false,false,false,false,false⟩,⟨some .internalNl,true,false,true,some 5,false,false,false,false,false,false⟩],[⟨some (.own 9),true,false,true,some 5,false,false,false,false,false,false⟩,⟨some .internalNl,true,false,true,some 5,false,false,false,false,false,false⟩],[⟨some (.own 9),true,false,true,some 5,false,false,false,false,false,false⟩,⟨some .internalNl,true,false,true,some 5,false,false,false,false,false,false⟩],[⟨some (.own 9),true,false,true,some 5,false,false,false,false,false,false⟩,⟨some .internalNl,true,false,true,some 5,false,false,false,false,false,false⟩],[⟨some (.own 9),true,false,true,some 5,false,false,false,false,false,false⟩,⟨some .internalNl,true,false,true,some 5,false,false,false,false,false,false⟩],[⟨some (.own 9),true,false,true,some 5,false,false,false,false,false,false⟩],[⟨some (.own 9),true,false,true,some 5,false,false,false,false,false,false⟩],[⟨some .internalNl,true,false,true,some 5,false,false,false,false,false,false⟩,⟨some (.own 9),true,false,true,some 5,false,false,false,false,false,false⟩],[⟨some .internalNl,true,false,true,some 5,false,false,false,false,false,false⟩],[⟨some (.own 9),true,false,true,some 5,false,false,false,false,false,false⟩,⟨some (.own 9),false,true,true,some 5,false,false,false,false,false,false⟩,⟨some .internalNl,true,false,true,some 5,false,false,false,false,false,false⟩,⟨some .internalNl,false,true,true,some 5,false,false,false,false,false,false⟩],[⟨some .internalNl,true,false,true,some 5,false,false,false,false,false,false⟩,⟨some (.own 9),true,false,true,some 5,false,false,false,false,false,false⟩],[⟨some .internalNl,true,false,true,some 5,false,false,false,false,false,false⟩],[⟨some (.own 9),true,false,true,some 5,false,false,false,false,false,false⟩,⟨some (.own 9),false,true,true,some 5,false,false,false,false,false,false⟩,⟨some .internalNl,true,false,true,some 5,false,false,false,false,false,false⟩,⟨some .internalNl,false,true,true,some 5,false,false,false,false,false,false⟩],[⟨some (.own 9),true,false,true,some 5,false,false,false,false,false,false⟩,⟨some .internalNl,true,false,true,some 5,false,false,false,false,false,false⟩],[⟨some (.own 9),false,true,true,some 5,false,false,false,false,false,false⟩,⟨some .internalNl,false,true,true,some 5,false,false,false,false,false,false⟩,⟨some .internalNl,false,false,true,some 5,false,false,false,false,false,false⟩,⟨some (.own 9),false,false,true,some 5,false,false,false,false,false,false⟩],[⟨some (.own 9),true,false,true,some 5,false,false,false,false,false,false⟩,⟨some .internalNl,true,false,true,some 5,false,false,false,false,false,false⟩],[⟨some (.own 9),true,false,true,some 5,false,false,false,false,false,false⟩,⟨some .internalNl,true,false,true,some 5,false,false,false,false,false,false⟩],[⟨some (.own 9),true,false,true,some 5,false,false,false,false,false,false⟩,⟨some .internalNl,true,false,true,some 5,false,false,false,false,false,false⟩],[⟨some (.own 9),true,false,true,some 5,false,false,false,false,false,false⟩,⟨some .internalNl,true,false,true,some 5,false,false,false,false,false,false⟩],[⟨some (.own 9),true,false,true,some 5,false,false,false,false,false,false⟩,⟨some .internalNl,true,false,true,some 5,false,false,false,false,false,false⟩],[⟨some (.own 9),true,false,true,some 5,false,false,false,false,false,false⟩],[⟨some .internalNl,true,false,true,some 5,false,false,false,false,false,false⟩,⟨some (.own 9),true,false,true,some 5,false,false,false,false,false,false⟩],[⟨some .internalNl,true,false,true,some 5,false,false,false,false,false,false⟩],[⟨some (.own 9),true,false,true,some 5,false,false,false,false,false,false⟩],[⟨some (.own 9),true,false,true,some 5,false,false,false,false,false,false⟩],[⟨some (.own 9),true,false,true,some 5,false,false,false,false,false,false⟩],[⟨some (.own 9),true,false,true,some 5,false,false,false,false,false,false⟩],[⟨some (.own 9),false,true,true,some 5,false,false,false,false,false,false⟩,⟨some .internalNl,false,true,true,some 5,false,false,false,false,false,false⟩,⟨some .internalNl,false,false,true,some 5,false,false,false,false,false,false⟩,⟨some (.own 9),false,false,true,some 5,false,false,false,false,false,false⟩],[⟨some .internalNl,true,false,true,some 5,false,false,false,false,false,false⟩],[⟨some .internalNl,true,false,true,some 5,false,false,false,false,false,false⟩],[⟨some (.own 9),true,false,true,some 5,false,false,false,false,false,false⟩,⟨some .internalNl,true,false,true,some 5,false,false,false,false,false,false⟩],[⟨some .internalNl,true,false,true,some 5,false,false,false,false,false,false⟩],[⟨some .internalNl,true,false,true,some 5,false,false,false,false,false,false⟩],[⟨some .internalNl,true,false,true,some 5,false,false,false,false,false,false⟩]]
theorem csAspx_w3_closed : closed emb0_rows csAspx_w3_tab (XA.init csAspx_wopt) (XA.succ csAspx_M csAspx_wopt 3) (XA.eofOk csAspx_M csAspx_wopt 3) = true := by
  decide +kernel
def csAspx_w3 : XCert csAspx_M csAspx_wopt 3 := ⟨emb0_D, csAspx_w3_tab, csAspx_w3_closed⟩
def csAspx_w4_tab : List (List XA) := [[⟨none,false,false,false,none,false,false,false,false,false,false⟩],[⟨some (.own 0),false,false,false,some 1,false,false,false,false,false,false⟩],[⟨some .newline,true,false,false,none,false,false,false,false,false,false⟩],[⟨some .newline,true,false,true,some 4,false,false,false,false,false,false⟩],[⟨some (.own 7),true,false,true,some 5,false,false,false,false,false,false⟩],[⟨some (.own 7),true,false,true,some 5,false,false,false,false,false,false⟩],[⟨some (.own 7),true,false,true,some 5,false,false,false,false,false,false⟩],[⟨some (.own 7),true,false,true,some 5,false,false,false,false,false,false⟩],[⟨some (.own 7),true,false,true,some 5,false,false,false,false,false,false⟩,⟨some .internalNl,true,false,true,some 5,false,false,false,false,false,false⟩],[⟨some (.own 7),false,true,true,some 5,false,false,false,false,false,false⟩,⟨some .internalNl,false,true,true,some 5,false,false,false,false,false,false⟩,⟨some .internalNl,false,false,true,some 5,false,false,false,false,false,false⟩,⟨some (.own 7),false,false,true,some 5,false,false,false,false,false,false⟩],[⟨some (.own 7),true,false,true,some 5,false,false,false,false,false,false⟩,⟨some .internalNl,true,false,true,some 5,false,false,false,false,false,false⟩],[⟨some (.own 7),true,false,true,some 5,false,false,false,false,false,false⟩,⟨some .internalNl,true,false,true,some 5,false,false,false,false,false,false⟩],[⟨some (.own 7),false,true,true,some 5,false,false,false,false,false,false⟩,⟨some .internalNl,false,true,true,some 5,false,false,false,false,false,false⟩,⟨some .internalNl,false,false,true,some 5,false,false,false,false,false,false⟩,⟨some (.own 7),false,false,true,some 5,false,false,false,false,false,false⟩],[⟨some (.own 7),true,false,true,some 5,false,false,false,false,false,false⟩,⟨some .internalNl,true,false,true,some 5,false,false,false,false,false,false⟩],[⟨some (.own 7),true,false,true,some 5,false,false,false,false,false,false⟩,⟨some (.own 7),false,true,true,some 5,false,false,false,false,false,false⟩],[⟨some (.own 7),true,false,true,some 5,false,false,false,false,false,false⟩],[⟨some (.own 7),true,false,true,some 2,false,false,false,false,false,false⟩],[⟨some (.own 7),true,false,true,some 5,false,false,false,false,false,false⟩],[⟨some (.own 7),true,false,true,some 5,false,false,false,false,false,false⟩,⟨some (.own 7),false,true,true,some 5,false,false,false,false,false,false⟩,⟨some .internalNl,true,false,true,some 5,false,false,false,false,false,false⟩,⟨some .internalNl,false,true,true,some 5,false,false,false,false,false,false⟩],[⟨some (.own 7),true,false,true,some 5,false,false,false,false,false,false⟩,⟨some .internalNl,true,false,true,some 5,false,false,false,false,false,false⟩],[⟨some (.own 7),true,false,true,some 5,false,false,false,false,false,false⟩,⟨some .internalNl,true,false,true,some 5,false,false,false,false,false,false⟩],[⟨some (.own 7),true,false,true,some 5,false,false,false,false,false,false⟩,⟨some .internalNl,true,false,true,some 5,false,false,false,false,false,false⟩],[⟨some (.own 7),true,false,true,some 5,false,false,false,false,false,false⟩,⟨some .internalNl,true,false,true,some 5,false,false,false,false,false,false⟩],[⟨some (.own 7),true,false,true,some 5,false,false,false,false,false,false⟩,⟨some (.own 7),false,true,true,some 5,false,false,false,false,false,false⟩,⟨some .internalNl,true,false,true,some 5,false,false,false,false,false,false⟩,⟨some .internalNl,false,true,true,some 5,false,false,false,false,false,false⟩],[⟨some (.own 7),true,false,true,some 5,false,false,false,false,false,false⟩,⟨some .internalNl,true,false,true,some 5,false,false,false,false,false,false⟩],[⟨some (.own 7),true,false,true,some 5,false,false,false,false,false,false⟩,⟨some .internalNl,true,false,true,some 5,false,false,false,false,false,false⟩],[⟨some (.own 7),true,false,true,some 5,false,false,false,false,false,false⟩,⟨some .internalNl,true,false,true,some 5,false,false,false,false,false,false⟩],[⟨some (.own 7),true,false,true,some 5,false,false,false,false,false,false⟩,⟨some .internalNl,true,false,true,some 5,false,false,false,false,false,false⟩],[⟨some (.own 7),true,false,true,some 5,false,false,false,false,false,false⟩,⟨some (.own 7),false,false,true,some 5,false,false,false,false,false,false⟩,⟨some (.own 7),false,true,true,some 5,false,false,false,false,false,false⟩],[⟨some (.own 7),true,false,true,some 5,false,false,false,false,false,false⟩],[⟨some (.own 7),true,false,true,some 5,false,false,false,false,false,false⟩,⟨some .internalNl,true,false,true,some 5,false,false,false,false,false,false⟩],[⟨some (.own 7),false,true,true,some 5,false,false,false,false,false,false⟩,⟨some .internalNl,false,true,true,some 5,false,false,false,false,false,false⟩,⟨some .internalNl,false,false,true,some 5,false,false,false,false,false,false⟩,⟨some (.own 7),false,false,true,some 5,false,false,false,false,false,false⟩],[⟨some (.own 7),true,false,true,some 5,false,false,false,false,false,false⟩,⟨some .internalNl,true,false,true,some 5,false,false,false,false,false,false⟩],[⟨some (.own 7),true,false,true,some 5,false,false,false,false,false,false⟩,⟨some .internalNl,true,false,true,some 5,false,false,false,false,false,false⟩],[⟨some (.own 7),true,false,true,some 5,false,false,false,false,false,false⟩,⟨some .internalNl,true,false,true,some 5,false,false,false,false,false,false⟩],[⟨some (.own 7),true,false,true,some 5,false,false,false,false,false,false⟩,⟨some .internalNl,true,false,true,some 5,false,false,false,false,false,false⟩],[⟨some (.own 7),true,false,true,some 5,false,false,false,false,false,false⟩,⟨some .internalNl,true,false,true,some 5,false,false,false,false,false,false⟩],[⟨some (.own 7),true,false,true,some 2,false,false,false,false,false,false⟩,⟨some (.own 7),false,true,false,some 2,false,false,false,false,false,false⟩,⟨some (.own 7),false,false,false,some 2,false,false,false,false,false,false⟩],[⟨some (.own 7),true,false,true,some 5,false,false,false,false,false,false⟩],[⟨some .internalNl,true,false,true,some 5,false,false,false,false,false,false⟩,⟨some (.own 7),true,false,true,some 5,false,false,false,false,false,false⟩],[⟨some .internalNl,true,false,true,some 5,false,false,false,false,false,false⟩],[⟨some .internalNl,true,false,true,some 5,false,false,false,false,false,false⟩,⟨some (.own 7),true,false,true,some 5,false,false,false,false,false,false⟩],[⟨some .internalNl,true,false,true,some 5,false,false,false,false,false,false⟩],[⟨some (.own 7),true,false,true,some 5,false,false,false,false,false,false⟩,⟨some (.own 7),false,true,true,some 5,false,false,false,false,false,false⟩],[⟨some .internalNl,true,false,true,some 5,false,false,false,false,false,false⟩,⟨some (.own 7),true,false,true,some 5,false,false,false,false,false,false⟩],[⟨some .internalNl,true,false,true,some 5,false,false,false,false,false,false⟩],[⟨some (.own 7),true,false,true,some 5,false,false,false,false,false,false⟩],[⟨some (.own 7),true,false,true,some 5,false,false,false,false,false,false⟩],[⟨some (.own 7),true,false,true,some 5,false,false,false,false,false,false⟩],[⟨some (.own 7),true,false,true,some 5,false,false,false,false,false,false⟩],[⟨some (.own 7),true,false,true,some 5,false,false,false,false,false,false⟩],[⟨some (.own 7),false,true,true,some 5,false,false,false,false,false,false⟩,⟨some .internalNl,false,true,true,some 5,false,false,false,false,false,false⟩,⟨some .internalNl,false,false,true,some 5,false,false,false,false,false,false⟩,⟨some (.own 7),false,false,true,some 5,false,false,false,false,false,false⟩],[⟨some .internalNl,true,false,true,some 5,false,false,false,false,false,false⟩],[⟨some .internalNl,true,false,true,some 5,false,false,false,false,false,false⟩],[⟨some (.own 7),true,false,true,some 5,false,false,false,false,false,false⟩,⟨some .internalNl,true,false,true,some 5,false,false,false,false,false,false⟩],[⟨some .internalNl,true,false,true,some 5,false,false,false,false,false,false⟩],[⟨some .internalNl,true,false,true,some 5,false,false,false,false,false,false⟩],[⟨some .internalNl,true,false,true,some 5,false,false,false,false,false,false⟩]]
theorem csAspx_w4_closed : closed emb1_rows csAspx_w4_tab (XA.init csAspx_wopt) (XA.succ csAspx_M csAspx_wopt 4) (XA.eofOk csAspx_M csAspx_wopt 4) = true := by
  decide +kernel
def csAspx_w4 : XCert csAspx_M csAspx_wopt 4 := ⟨emb1_D, csAspx_w4_tab, csAspx_w4_closed⟩
def csAspx_w5_tab : List (List XA) := [[⟨none,false,false,false,none,false,false,false,false,false,false⟩],[⟨some (.own 0),false,false,false,some 1,false,false,false,false,false,false⟩],[⟨some .newline,true,false,false,none,false,false,false,false,false,false⟩],[⟨some .newline,true,false,true,some 4,false,false,false,false,false,false⟩],[⟨some (.own 8),true,false,true,some 5,false,false,false,false,false,false⟩],[⟨some (.own 8),true,false,true,some 5,false,false,false,false,false,false⟩],[⟨some (.own 8),true,false,true,some 5,false,false,false,false,false,false⟩],[⟨some (.own 8),true,false,true,some 5,false,false,false,false,false,false⟩],[⟨some (.own 8),true,false,true,some 5,false,false,false,false,false,false⟩],[⟨some (.own 8),true,false,true,some 5,false,false,false,false,false,false⟩,⟨some .internalNl,true,false,true,some 5,false,false,false,false,false,false⟩],[⟨some (.own 8),false,true,true,some 5,false,false,false,false,false,false⟩,⟨some .internalNl,false,true,true,some 5,false,false,false,false,false,false⟩,⟨some .internalNl,false,false,true,some 5,false,false,false,false,false,false⟩,⟨some (.own 8),false,false,true,some 5,false,false,false,false,false,false⟩],[⟨some (.own 8),true,false,true,some 5,false,false,false,false,false,false⟩,⟨some .internalNl,true,false,true,some 5,false,false,false,false,false,false⟩],[⟨some (.own 8),true,false,true,some 5,false,false,false,false,false,false⟩,⟨some .internalNl,true,false,true,some 5,false,false,false,false,false,false⟩],[⟨some (.own 8),false,true,true,some 5,false,false,false,false,false,false⟩,⟨some .internalNl,false,true,true,some 5,false,false,false,false,false,false⟩,⟨some .internalNl,false,false,true,some 5,false,false,false,false,false,false⟩,⟨some (.own 8),false,false,true,some 5,false,false,false,false,false,false⟩],[⟨some (.own 8),true,false,true,some 5,false,false,false,false,false,false⟩,⟨some .internalNl,true,false,true,some 5,false,false,false,false,false,false⟩],[⟨some (.own 8),true,false,true,some 5,false,false,false,false,false,false⟩],[⟨some (.own 8),true,false,true,some 2,false,false,false,false,false,false⟩],[⟨some (.own 8),true,false,true,some 5,false,false,false,false,false,false⟩],[⟨some (.own 8),true,false,true,some 5,false,false,false,false,false,false⟩,⟨some (.own 8),false,true,true,some 5,false,false,false,false,false,false⟩,⟨some .internalNl,true,false,true,some 5,false,false,false,false,false,false⟩,⟨some .internalNl,false,true,true,some 5,false,false,false,false,false,false⟩],[⟨some (.own 8),true,false,true,some 5,false,false,false,false,false,false⟩,⟨some .internalNl,true,false,true,some 5,false,false,false,false,false,false⟩],[⟨some (.own 8),true,false,true,some 5,false,false,false,false,false,false⟩,⟨some .internalNl,true,false,true,some 5,false,false,false,false,false,false⟩],[⟨some (.own 8),true,false,true,some 5,false,false,false,false,false,false⟩,⟨some .internalNl,true,false,true,some 5,false,false,false,false,false,false⟩],[⟨some (.own 8),true,false,true,some 5,false,false,false,false,false,false⟩,⟨some .internalNl,true,false,true,some 5,false,false,false,false,false,false⟩],[⟨some (.own 8),true,false,true,some 5,false,false,false,false,false,false⟩,⟨some (.own 8),false,true,true,some 5,false,false,false,false,false,false⟩,⟨some .internalNl,true,false,true,some 5,false,false,false,false,false,false⟩,⟨some .internalNl,false,true,true,some 5,false,false,false,false,false,false⟩],[⟨some (.own 8),true,false,true,some 5,false,false,false,false,false,false⟩,⟨some .internalNl,true,false,true,some 5,false,false,false,false,false,false⟩],[⟨some (.own 8),true,false,true,some 5,false,false,false,false,false,false⟩,⟨some .internalNl,true,false,true,some 5,false,false,false,false,false,false⟩],[⟨some (.own 8),true,false,true,some 5,false,false,false,false,false,false⟩,⟨some .internalNl,true,false,true,some 5,false,false,false,false,false,false⟩],[⟨some (.own 8),true,false,true,some 5,false,false,false,false,false,false⟩,⟨some .internalNl,true,false,true,some 5,false,false,false,false,false,false⟩],[⟨some (.own 8),true,false,true,some 5,false,false,false,false,false,false⟩,⟨some .internalNl,true,false,true,some 5,false,false,false,false,false,false⟩],[⟨some (.own 8),false,true,true,some 5,false,false,false,false,false,false⟩,⟨some .internalNl,false,true,true,some 5,false,false,false,false,false,false⟩,⟨some .internalNl,false,false,true,some 5,false,false,false,false,false,false⟩,⟨some (.own 8),false,false,true,some 5,false,false,false,false,false,false⟩],[⟨some (.own 8),true,false,true,some 5,false,false,false,false,false,false⟩,⟨some .internalNl,true,false,true,some 5,false,false,false,false,false,false⟩],[⟨some (.own 8),true,false,true,some 5,false,false,false,false,false,false⟩,⟨some .internalNl,true,false,true,some 5,false,false,false,false,false,false⟩],[⟨some (.own 8),true,false,true,some 5,false,false,false,false,false,false⟩,⟨some .internalNl,true,false,true,some 5,false,false,false,false,false,false⟩],[⟨some (.own 8),true,false,true,some 5,false,false,false,false,false,false⟩,⟨some .internalNl,true,false,true,some 5,false,false,false,false,false,false⟩],[⟨some (.own 8),true,false,true,some 5,false,false,false,false,false,false⟩,⟨some .internalNl,true,false,true,some 5,false,false,false,false,false,false⟩],[⟨some (.own 8),true,false,true,some 2,false,false,false,false,false,false⟩,⟨some .internalNl,true,false,true,some 2,false,false,false,false,false,false⟩],[⟨some (.own 8),false,true,false,some 2,false,false,false,false,false,false⟩,⟨some .internalNl,false,true,false,some 2,false,false,false,false,false,false⟩,⟨some .internalNl,false,false,false,some 2,false,false,false,false,false,false⟩,⟨some (.own 8),false,false,false,some 2,false,false,false,false,false,false⟩],[⟨some (.own 8),true,false,true,some 2,false,false,false,false,false,false⟩,⟨some .internalNl,true,false,true,some 2,false,false,false,false,false,false⟩],[⟨some (.own 8),true,false,true,some 5,false,false,false,false,false,false⟩],[⟨some .internalNl,true,false,true,some 5,false,false,false,false,false,false⟩,⟨some (.own 8),true,false,true,some 5,false,false,false,false,false,false⟩],[⟨some .internalNl,true,false,true,some 5,false,false,false,false,false,false⟩],[⟨some .internalNl,true,false,true,some 5,false,false,false,false,false,false⟩,⟨some (.own 8),true,false,true,some 5,false,false,false,false,false,false⟩],[⟨some .internalNl,true,false,true,some 5,false,false,false,false,false,false⟩],[⟨some .internalNl,true,false,true,some 5,false,false,false,false,false,false⟩,⟨some (.own 8),true,false,true,some 5,false,false,false,false,false,false⟩],[⟨some .internalNl,true,false,true,some 5,false,false,false,false,false,false⟩],[⟨some (.own 8),true,false,true,some 2,false,false,false,false,false,false⟩,⟨some .internalNl,true,false,true,some 2,false,false,false,false,false,false⟩],[⟨some (.own 8),true,false,true,some 2,false,false,false,false,false,false⟩,⟨some .internalNl,true,false,true,some 2,false,false,false,false,false,false⟩],[⟨some (.own 8),true,false,true,some 2,false,false,false,false,false,false⟩,⟨some .internalNl,true,false,true,some 2,false,false,false,false,false,false⟩],[⟨some (.own 8),true,false,true,some 2,false,false,false,false,false,false⟩,⟨some .internalNl,true,false,true,some 2,false,false,false,false,false,false⟩],[⟨some (.own 8),true,false,true,some 5,false,false,false,false,false,false⟩],[⟨some (.own 8),true,false,true,some 2,false,false,false,false,false,false⟩,⟨some .internalNl,true,false,true,some 2,false,false,false,false,false,false⟩],[⟨some (.own 8),true,false,true,some 5,false,false,false,false,false,false⟩],[⟨some (.own 8),true,false,true,some 5,false,false,false,false,false,false⟩],[⟨some (.own 8),true,false,true,some 5,false,false,false,false,false,false⟩],[⟨some (.own 8),true,false,true,some 5,false,false,false,false,false,false⟩],[⟨some (.own 8),false,true,true,some 5,false,false,false,false,false,false⟩,⟨some .internalNl,false,true,true,some 5,false,false,false,false,false,false⟩,⟨some .internalNl,false,false,true,some 5,false,false,false,false,false,false⟩,⟨some (.own 8),false,false,true,some 5,false,false,false,false,false,false⟩],[⟨some .internalNl,true,false,true,some 5,false,false,false,false,false,false⟩],[⟨some .internalNl,true,false,true,some 5,false,false,false,false,false,false⟩],[⟨some (.own 8),true,false,true,some 5,false,false,false,false,false,false⟩,⟨some .internalNl,true,false,true,some 5,false,false,false,false,false,false⟩],[⟨some .internalNl,true,false,true,some 5,false,false,false,false,false,false⟩],[⟨some .internalNl,true,false,true,some 5,false,false,false,false,false,false⟩],[⟨some .internalNl,true,false,true,some 5,false,false,false,false,false,false⟩]]
theorem csAspx_w5_closed : closed emb46_rows csAspx_w5_tab (XA.init csAspx_wopt) (XA.succ csAspx_M csAspx_wopt 5) (XA.eofOk csAspx_M csAspx_wopt 5) = true := by
  decide +kernel
def csAspx_w5 : XCert csAspx_M csAspx_wopt 5 := ⟨emb46_D, csAspx_w5_tab, csAspx_w5_closed⟩
def csAspx_w0_tab : List (List XA) := [[⟨none,false,false,false,none,false,false,false,false,false,false⟩],[⟨none,true,false,false,none,false,false,false,false,false,false⟩,⟨some .internalNl,true,false,false,none,false,false,false,false,false,false⟩],[⟨none,false,false,false,none,false,false,false,false,false,false⟩,⟨some .internalNl,false,true,false,none,false,false,false,false,false,false⟩,⟨some .internalNl,false,false,false,none,false,false,false,false,false,false⟩,⟨none,false,true,false,none,false,false,false,false,false,false⟩],[⟨none,true,false,false,none,false,false,false,false,false,false⟩,⟨some .internalNl,true,false,false,none,false,false,false,false,false,false⟩],[⟨none,true,false,false,none,false,false,false,false,false,false⟩,⟨some .internalNl,true,false,false,none,false,false,false,false,false,false⟩],[⟨none,true,false,false,none,false,false,false,false,false,false⟩,⟨some .internalNl,true,false,false,none,false,false,false,false,false,false⟩],[⟨none,true,false,false,none,false,false,false,false,false,false⟩,⟨some .internalNl,true,false,false,none,false,false,false,false,false,false⟩],[⟨none,true,false,false,none,false,false,false,false,false,false⟩,⟨some .internalNl,true,false,false,none,false,false,false,false,false,false⟩],[⟨none,true,false,false,none,false,false,false,false,false,false⟩,⟨some .internalNl,true,false,false,none,false,false,false,false,false,false⟩],[⟨some .internalNl,true,false,false,none,false,false,false,false,false,false⟩,⟨none,true,false,false,none,false,false,false,false,false,false⟩],[⟨some .internalNl,true,false,false,none,false,false,false,false,false,false⟩],[⟨none,true,false,false,none,false,false,false,false,false,false⟩,⟨some .internalNl,true,false,false,none,false,false,false,false,false,false⟩],[⟨none,true,false,false,none,false,false,false,false,false,false⟩,⟨some .internalNl,true,false,false,none,false,false,false,false,false,false⟩],[⟨none,false,true,false,none,false,false,false,false,false,false⟩,⟨some .internalNl,false,true,false,none,false,false,false,false,false,false⟩],[⟨none,true,false,false,none,false,false,false,false,false,false⟩,⟨some .internalNl,true,false,false,none,false,false,false,false,false,false⟩],[⟨none,true,false,false,none,false,false,false,false,false,false⟩,⟨some .internalNl,true,false,false,none,false,false,false,false,false,false⟩],[⟨none,true,false,false,none,false,false,false,false,false,false⟩,⟨some .internalNl,true,false,false,none,false,false,false,false,false,false⟩],[⟨none,true,false,false,none,false,false,false,false,false,false⟩,⟨some .internalNl,true,false,false,none,false,false,false,false,false,false⟩],[⟨none,true,false,false,none,false,false,false,false,false,false⟩,⟨some .internalNl,true,false,false,none,false,false,false,false,false,false⟩],[⟨none,false,false,false,none,false,false,false,false,false,false⟩],[⟨none,true,false,false,none,false,false,false,false,false,false⟩,⟨some .internalNl,true,false,false,none,false,false,false,false,false,false⟩],[⟨none,true,false,false,none,false,false,false,false,false,false⟩,⟨some .internalNl,true,false,false,none,false,false,false,false,false,false⟩],[⟨none,true,false,false,none,false,false,false,false,false,false⟩,⟨some .internalNl,true,false,false,none,false,false,false,false,false,false⟩],[⟨none,false,true,false,none,false,false,false,false,false,false⟩,⟨some .internalNl,false,true,false,none,false,false,false,false,false,false⟩,⟨some .internalNl,false,false,false,none,false,false,false,false,false,false⟩,⟨none,false,false,false,none,false,false,false,false,false,false⟩],[⟨none,true,false,false,none,false,false,false,false,false,false⟩,⟨some .internalNl,true,false,false,none,false,false,false,false,false,false⟩],[⟨none,true,false,false,none,false,false,false,false,false,false⟩,⟨some .internalNl,true,false,false,none,false,false,false,false,false,false⟩],[⟨none,true,false,false,none,false,false,false,false,false,false⟩,⟨some .internalNl,true,false,false,none,false,false,false,false,false,false⟩],[⟨none,true,false,false,none,false,false,false,false,false,false⟩,⟨some .internalNl,true,false,false,none,false,false,false,false,false,false⟩],[⟨none,true,false,false,none,false,false,false,false,false,false⟩,⟨some .internalNl,true,false,false,none,false,false,false,false,false,false⟩],[⟨some .internalNl,true,false,false,none,false,false,false,false,false,false⟩,⟨none,true,false,false,none,false,false,false,false,false,false⟩],[⟨none,true,false,false,none,false,false,false,false,false,false⟩,⟨some .internalNl,true,false,false,none,false,false,false,false,false,false⟩],[⟨some .internalNl,true,false,false,none,false,false,false,false,false,false⟩,⟨none,true,false,false,none,false,false,false,false,false,false⟩],[⟨none,true,false,false,none,false,false,false,false,false,false⟩],[⟨none,false,false,false,none,false,false,false,false,false,false⟩],[⟨none,true,false,false,none,false,false,false,false,false,false⟩],[⟨none,true,false,false,none,false,false,false,false,false,false⟩],[⟨none,true,false,false,none,false,false,false,false,false,false⟩],[⟨none,true,false,false,none,false,false,false,false,false,false⟩],[⟨none,true,false,false,none,false,false,false,false,false,false⟩],[⟨none,true,false,false,none,false,false,false,false,false,false⟩],[⟨none,true,false,false,none,false,false,false,false,false,false⟩],[⟨none,true,false,false,none,false,false,false,false,false,false⟩,⟨some .internalNl,true,false,false,none,false,false,false,false,false,false⟩],[⟨none,true,false,false,none,false,false,false,false,false,false⟩,⟨some .internalNl,true,false,false,none,false,false,false,false,false,false⟩],[⟨none,false,true,false,none,false,false,false,false,false,false⟩,⟨some .internalNl,false,true,false,none,false,false,false,false,false,false⟩],[⟨none,true,false,false,none,false,false,false,false,false,false⟩,⟨some .internalNl,true,false,false,none,false,false,false,false,false,false⟩],[⟨none,true,false,false,none,false,false,false,false,false,false⟩,⟨some .internalNl,true,false,false,none,false,false,false,false,false,false⟩],[⟨none,true,false,false,none,false,false,false,false,false,false⟩,⟨some .internalNl,true,false,false,none,false,false,false,false,false,false⟩],[⟨none,true,false,false,none,false,false,false,false,false,false⟩,⟨some .internalNl,true,false,false,none,false,false,false,false,false,false⟩],[⟨none,true,false,false,none,false,false,false,false,false,false⟩,⟨some .internalNl,true,false,false,none,false,false,false,false,false,false⟩],[⟨none,false,false,false,none,false,false,false,false,false,false⟩],[⟨none,true,false,false,none,false,false,false,false,false,false⟩,⟨some .internalNl,true,false,false,none,false,false,false,false,false,false⟩],[⟨none,true,false,false,none,false,false,false,false,false,false⟩,⟨some .internalNl,true,false,false,none,false,false,false,false,false,false⟩],[⟨none,true,false,false,none,false,false,false,false,false,false⟩],[⟨none,false,false,false,none,false,false,false,false,false,false⟩],[⟨none,true,false,false,none,false,false,false,false,false,false⟩],[⟨none,true,false,false,none,false,false,false,false,false,false⟩],[⟨none,true,false,false,none,false,false,false,false,false,false⟩],[⟨none,true,false,false,none,false,false,false,false,false,false⟩],[⟨none,true,false,false,none,false,false,false,false,false,false⟩],[⟨none,true,false,false,none,false,false,false,false,false,false⟩],[⟨none,true,false,false,none,false,false,false,false,false,false⟩]]
theorem csAspx_w0_closed : closed emb25_rows csAspx_w0_tab (XA.init csAspx_wopt) (XA.succ csAspx_M csAspx_wopt 0) (XA.eofOk csAspx_M csAspx_wopt 0) = true := by
  decide +kernel
def csAspx_w0 : XCert csAspx_M csAspx_wopt 0 := ⟨emb25_D, csAspx_w0_tab, csAspx_w0_closed⟩
def csAspx_w1_tab : List (List XA) := [[⟨none,false,false,false,none,false,false,false,false,false,false⟩],[⟨none,true,false,false,none,false,false,false,false,false,false⟩,⟨some .internalNl,true,false,false,none,false,false,false,false,false,false⟩],[⟨none,false,false,false,none,false,false,false,false,false,false⟩,⟨none,false,true,false,none,false,false,false,false,false,false⟩,⟨some .internalNl,false,true,false,none,false,false,false,false,false,false⟩,⟨some .internalNl,false,false,false,none,false,false,false,false,false,false⟩],[⟨none,true,false,false,none,false,false,false,false,false,false⟩,⟨some .internalNl,true,false,false,none,false,false,false,false,false,false⟩],[⟨none,true,false,false,none,false,false,false,false,false,false⟩,⟨some .internalNl,true,false,false,none,false,false,false,false,false,false⟩],[⟨none,true,false,false,none,false,false,false,false,false,false⟩,⟨some .internalNl,true,false,false,none,false,false,false,false,false,false⟩],[⟨none,true,false,false,none,false,false,false,false,false,false⟩,⟨some .internalNl,true,false,false,none,false,false,false,false,false,false⟩],[⟨none,true,false,false,none,false,false,false,false,false,false⟩,⟨some .internalNl,true,false,false,none,false,false,false,false,false,false⟩],[⟨none,true,false,false,none,false,false,false,false,false,false⟩,⟨some .internalNl,true,false,false,none,false,false,false,false,false,false⟩],[⟨some .internalNl,true,false,false,none,false,false,false,false,false,false⟩,⟨none,true,false,false,none,false,false,false,false,false,false⟩],[⟨some .internalNl,true,false,false,none,false,false,false,false,false,false⟩],[⟨none,true,false,false,none,false,false,false,false,false,false⟩,⟨some .internalNl,true,false,false,none,false,false,false,false,false,false⟩],[⟨none,false,true,false,none,false,false,false,false,false,false⟩,⟨some .internalNl,false,true,false,none,false,false,false,false,false,false⟩],[⟨none,true,false,false,none,false,false,false,false,false,false⟩,⟨some .internalNl,true,false,false,none,false,false,false,false,false,false⟩],[⟨none,true,false,false,none,false,false,false,false,false,false⟩,⟨some .internalNl,true,false,false,none,false,false,false,false,false,false⟩],[⟨none,true,false,false,none,false,false,false,false,false,false⟩,⟨some .internalNl,true,false,false,none,false,false,false,false,false,false⟩],[⟨none,true,false,false,none,false,false,false,false,false,false⟩,⟨some .internalNl,true,false,false,none,false,false,false,false,false,false⟩],[⟨none,false,false,false,none,false,false,false,false,false,false⟩],[],[⟨none,true,false,false,none,false,false,false,false,false,false⟩,⟨some .internalNl,true,false,false,none,false,false,false,false,false,false⟩],[⟨none,true,false,false,none,false,false,false,false,false,false⟩,⟨some .internalNl,true,false,false,none,false,false,false,false,false,false⟩],[⟨none,true,false,false,none,false,false,false,false,false,false⟩,⟨none,false,true,false,none,false,false,false,false,false,false⟩,⟨some .internalNl,true,false,false,none,false,false,false,false,false,false⟩,⟨some .internalNl,false,true,false,none,false,false,false,false,false,false⟩],[⟨some .internalNl,true,false,false,none,false,false,false,false,false,false⟩,⟨none,true,false,false,none,false,false,false,false,false,false⟩],[⟨some .internalNl,false,true,false,none,false,false,false,false,false,false⟩,⟨some .internalNl,false,false,false,none,false,false,false,false,false,false⟩,⟨none,false,true,false,none,false,false,false,false,false,false⟩,⟨none,false,false,false,none,false,false,false,false,false,false⟩],[⟨none,true,false,false,none,false,false,false,false,false,false⟩,⟨some .internalNl,true,false,false,none,false,false,false,false,false,false⟩],[⟨none,true,false,false,none,false,false,false,false,false,false⟩,⟨some .internalNl,true,false,false,none,false,false,false,false,false,false⟩],[⟨none,true,false,false,none,false,false,false,false,false,false⟩,⟨some .internalNl,true,false,false,none,false,false,false,false,false,false⟩],[⟨none,true,false,false,none,false,false,false,false,false,false⟩,⟨some .internalNl,true,false,false,none,false,false,false,false,false,false⟩],[],[⟨some .internalNl,true,false,false,none,false,false,false,false,false,false⟩,⟨none,true,false,false,none,false,false,false,false,false,false⟩],[⟨some .internalNl,true,false,false,none,false,false,false,false,false,false⟩,⟨none,true,false,false,none,false,false,false,false,false,false⟩],[⟨some .internalNl,true,false,false,none,false,false,false,false,false,false⟩,⟨none,true,false,false,none,false,false,false,false,false,false⟩],[⟨none,true,false,false,none,false,false,false,false,false,false⟩],[⟨none,false,false,false,none,false,false,false,false,false,false⟩],[⟨none,true,false,false,none,false,false,false,false,false,false⟩],[⟨none,true,false,false,none,false,false,false,false,false,false⟩],[⟨none,true,false,false,none,false,false,false,false,false,false⟩],[⟨none,true,false,false,none,false,false,false,false,false,false⟩],[],[⟨none,true,false,false,none,false,false,false,false,false,false⟩],[⟨none,true,false,false,none,false,false,false,false,false,false⟩],[⟨none,true,false,false,none,false,false,false,false,false,false⟩,⟨some .internalNl,true,false,false,none,false,false,false,false,false,false⟩],[⟨none,false,true,false,none,false,false,false,false,false,false⟩,⟨some .internalNl,false,true,false,none,false,false,false,false,false,false⟩],[⟨none,true,false,false,none,false,false,false,false,false,false⟩,⟨some .internalNl,true,false,false,none,false,false,false,false,false,false⟩],[⟨none,true,false,false,none,false,false,false,false,false,false⟩,⟨some .internalNl,true,false,false,none,false,false,false,false,false,false⟩],[⟨none,true,false,false,none,false,false,false,false,false,false⟩,⟨some .internalNl,true,false,false,none,false,false,false,false,false,false⟩],[⟨none,true,false,false,none,false,false,false,false,false,false⟩,⟨some .internalNl,true,false,false,none,false,false,false,false,false,false⟩],[⟨none,false,false,false,none,false,false,false,false,false,false⟩],[],[⟨none,true,false,false,none,false,false,false,false,false,false⟩,⟨some .internalNl,true,false,false,none,false,false,false,false,false,false⟩],[⟨none,true,false,false,none,false,false,false,false,false,false⟩,⟨some .internalNl,true,false,false,none,false,false,false,false,false,false⟩],[⟨none,true,false,false,none,false,false,false,false,false,false⟩,⟨some .internalNl,true,false,false,none,false,false,false,false,false,false⟩],[⟨none,false,true,false,none,false,false,false,false,false,false⟩,⟨some .internalNl,false,true,false,none,false,false,false,false,false,false⟩],[],[⟨none,true,false,false,none,false,false,false,false,false,false⟩,⟨some .internalNl,true,false,false,none,false,false,false,false,false,false⟩],[⟨none,true,false,false,none,false,false,false,false,false,false⟩,⟨some .internalNl,true,false,false,none,false,false,false,false,false,false⟩],[⟨none,true,false,false,none,false,false,false,false,false,false⟩],[⟨none,false,false,false,none,false,false,false,false,false,false⟩],[⟨none,true,false,false,none,false,false,false,false,false,false⟩],[⟨none,true,false,false,none,false,false,false,false,false,false⟩],[⟨none,true,false,false,none,false,false,false,false,false,false⟩],[⟨none,true,false,false,none,false,false,false,false,false,false⟩],[],[⟨none,true,false,false,none,false,false,false,false,false,false⟩],[⟨none,true,false,false,none,false,false,false,false,false,false⟩]]
theorem csAspx_w1_closed : closed emb26_rows csAspx_w1_tab (XA.init csAspx_wopt) (XA.succ csAspx_M csAspx_wopt 1) (XA.eofOk csAspx_M csAspx_wopt 1) = true := by
  decide +kernel
def csAspx_w1 : XCert csAspx_M csAspx_wopt 1 := ⟨emb26_D, csAspx_w1_tab, csAspx_w1_closed⟩
def csAspx_w2_tab : List (List XA) := [[⟨none,false,false,false,none,false,false,false,false,false,false⟩],[⟨none,true,false,false,none,false,false,false,false,false,false⟩,⟨some .internalNl,true,false,false,none,false,false,false,false,false,false⟩],[⟨none,false,false,false,none,false,false,false,false,false,false⟩,⟨none,false,true,false,none,false,false,false,false,false,false⟩,⟨some .internalNl,false,true,false,none,false,false,false,false,false,false⟩,⟨some .internalNl,false,false,false,none,false,false,false,false,false,false⟩],[⟨none,true,false,false,none,false,false,false,false,false,false⟩,⟨some .internalNl,true,false,false,none,false,false,false,false,false,false⟩],[⟨none,true,false,false,none,false,false,false,false,false,false⟩,⟨some .internalNl,true,false,false,none,false,false,false,false,false,false⟩],[⟨none,true,false,false,none,false,false,false,false,false,false⟩,⟨some .internalNl,true,false,false,none,false,false,false,false,false,false⟩],[⟨none,true,false,false,none,false,false,false,false,false,false⟩,⟨some .internalNl,true,false,false,none,false,false,false,false,false,false⟩],[⟨none,true,false,false,none,false,false,false,false,false,false⟩,⟨some .internalNl,true,false,false,none,false,false,false,false,false,false⟩],[⟨none,true,false,false,none,false,false,false,false,false,false⟩,⟨some .internalNl,true,false,false,none,false,false,false,false,false,false⟩],[⟨some .internalNl,true,false,false,none,false,false,false,false,false,false⟩,⟨none,true,false,false,none,false,false,false,false,false,false⟩],[⟨some .internalNl,true,false,false,none,false,false,false,false,false,false⟩],[⟨none,true,false,false,none,false,false,false,false,false,false⟩,⟨some .internalNl,true,false,false,none,false,false,false,false,false,false⟩],[⟨none,false,true,false,none,false,false,false,false,false,false⟩,⟨some .internalNl,false,true,false,none,false,false,false,false,false,false⟩],[⟨none,true,false,false,none,false,false,false,false,false,false⟩,⟨some .internalNl,true,false,false,none,false,false,false,false,false,false⟩],[⟨none,true,false,false,none,false,false,false,false,false,false⟩,⟨some .internalNl,true,false,false,none,false,false,false,false,false,false⟩],[⟨none,true,false,false,none,false,false,false,false,false,false⟩,⟨some .internalNl,true,false,false,none,false,false,false,false,false,false⟩],[⟨none,true,false,false,none,false,false,false,false,false,false⟩,⟨some .internalNl,true,false,false,none,false,false,false,false,false,false⟩],[],[⟨none,false,false,false,none,false,false,false,false,false,false⟩],[⟨none,true,false,false,none,false,false,false,false,false,false⟩,⟨some .internalNl,true,false,false,none,false,false,false,false,false,false⟩],[⟨none,true,false,false,none,false,false,false,false,false,false⟩,⟨some .internalNl,true,false,false,none,false,false,false,false,false,false⟩],[⟨none,true,false,false,none,false,false,false,false,false,false⟩,⟨none,false,true,false,none,false,false,false,false,false,false⟩,⟨some .internalNl,true,false,false,none,false,false,false,false,false,false⟩,⟨some .internalNl,false,true,false,none,false,false,false,false,false,false⟩],[⟨some .internalNl,true,false,false,none,false,false,false,false,false,false⟩,⟨none,true,false,false,none,false,false,false,false,false,false⟩],[⟨some .internalNl,false,true,false,none,false,false,false,false,false,false⟩,⟨some .internalNl,false,false,false,none,false,false,false,false,false,false⟩,⟨none,false,true,false,none,false,false,false,false,false,false⟩,⟨none,false,false,false,none,false,false,false,false,false,false⟩],[⟨none,true,false,false,none,false,false,false,false,false,false⟩,⟨some .internalNl,true,false,false,none,false,false,false,false,false,false⟩],[⟨none,true,false,false,none,false,false,false,false,false,false⟩,⟨some .internalNl,true,false,false,none,false,false,false,false,false,false⟩],[⟨none,true,false,false,none,false,false,false,false,false,false⟩,⟨some .internalNl,true,false,false,none,false,false,false,false,false,false⟩],[⟨none,true,false,false,none,false,false,false,false,false,false⟩,⟨some .internalNl,true,false,false,none,false,false,false,false,false,false⟩],[],[⟨some .internalNl,true,false,false,none,false,false,false,false,false,false⟩,⟨none,true,false,false,none,false,false,false,false,false,false⟩],[⟨some .internalNl,true,false,false,none,false,false,false,false,false,false⟩,⟨none,true,false,false,none,false,false,false,false,false,false⟩],[⟨some .internalNl,true,false,false,none,false,false,false,false,false,false⟩,⟨none,true,false,false,none,false,false,false,false,false,false⟩],[⟨none,true,false,false,none,false,false,false,false,false,false⟩],[⟨none,false,false,false,none,false,false,false,false,false,false⟩],[⟨none,true,false,false,none,false,false,false,false,false,false⟩],[⟨none,true,false,false,none,false,false,false,false,false,false⟩],[⟨none,true,false,false,none,false,false,false,false,false,false⟩],[⟨none,true,false,false,none,false,false,false,false,false,false⟩],[],[⟨none,true,false,false,none,false,false,false,false,false,false⟩],[⟨none,true,false,false,none,false,false,false,false,false,false⟩],[⟨none,true,false,false,none,false,false,false,false,false,false⟩,⟨some .internalNl,true,false,false,none,false,false,false,false,false,false⟩],[⟨none,false,true,false,none,false,false,false,false,false,false⟩,⟨some .internalNl,false,true,false,none,false,false,false,false,false,false⟩],[⟨none,true,false,false,none,false,false,false,false,false,false⟩,⟨some .internalNl,true,false,false,none,false,false,false,false,false,false⟩],[⟨none,true,false,false,none,false,false,false,false,false,false⟩,⟨some .internalNl,true,false,false,none,false,false,false,false,false,false⟩],[⟨none,true,false,false,none,false,false,false,false,false,false⟩,⟨some .internalNl,true,false,false,none,false,false,false,false,false,false⟩],[⟨none,true,false,false,none,false,false,false,false,false,false⟩,⟨some .internalNl,true,false,false,none,false,false,false,false,false,false⟩],[],[⟨none,false,false,false,none,false,false,false,false,false,false⟩],[⟨none,true,false,false,none,false,false,false,false,false,false⟩,⟨some .internalNl,true,false,false,none,false,false,false,false,false,false⟩],[⟨none,true,false,false,none,false,false,false,false,false,false⟩,⟨some .internalNl,true,false,false,none,false,false,false,false,false,false⟩],[⟨none,true,false,false,none,false,false,false,false,false,false⟩,⟨some .internalNl,true,false,false,none,false,false,false,false,false,false⟩],[⟨none,false,true,false,none,false,false,false,false,false,false⟩,⟨some .internalNl,false,true,false,none,false,false,false,false,false,false⟩],[],[⟨none,true,false,false,none,false,false,false,false,false,false⟩,⟨some .internalNl,true,false,false,none,false,false,false,false,false,false⟩],[⟨none,true,false,false,none,false,false,false,false,false,false⟩,⟨some .internalNl,true,false,false,none,false,false,false,false,false,false⟩],[⟨none,true,false,false,none,false,false,false,false,false,false⟩],[⟨none,false,false,false,none,false,false,false,false,false,false⟩],[⟨none,true,false,false,none,false,false,false,false,false,false⟩],[⟨none,true,false,false,none,false,false,false,false,false,false⟩],[⟨none,true,false,false,none,false,false,false,false,false,false⟩],[⟨none,true,false,false,none,false,false,false,false,false,false⟩],[],[⟨none,true,false,false,none,false,false,false,false,false,false⟩],[⟨none,true,false,false,none,false,false,false,false,false,false⟩]]
theorem csAspx_w2_closed : closed emb27_rows csAspx_w2_tab (XA.init csAspx_wopt) (XA.succ csAspx_M csAspx_wopt 2) (XA.eofOk csAspx_M csAspx_wopt 2) = true := by
  decide +kernel
def csAspx_w2 : XCert csAspx_M csAspx_wopt 2 := ⟨emb27_D, csAspx_w2_tab, csAspx_w2_closed⟩
theorem csAspx_solid : ∀ m ∈ csAspx_wopt.use, Nonempty (XCert csAspx_M csAspx_wopt m) :=
  (List.forall_mem_cons.mpr ⟨⟨csAspx_w6⟩,
  (List.forall_mem_cons.mpr ⟨⟨csAspx_w3⟩,
  (List.forall_mem_cons.mpr ⟨⟨csAspx_w4⟩,
  (List.forall_mem_cons.mpr ⟨⟨csAspx_w5⟩,
  (List.forall_mem_cons.mpr ⟨⟨csAspx_w0⟩,
  (List.forall_mem_cons.mpr ⟨⟨csAspx_w1⟩,
  (List.forall_mem_cons.mpr ⟨⟨csAspx_w2⟩,
  (fun _ h => nomatch h)⟩)⟩)⟩)⟩)⟩)⟩)⟩)

def rhtml_wopt : WOpt := ⟨false, false, [6, 3, 4, 5, 0, 1, 2]⟩
def rhtml_w6_tab : List (List XA) := [[⟨none,false,false,false,none,false,false,false,false,false,false⟩],[⟨some (.own 0),false,false,false,some 3,false,false,false,false,false,false⟩],[⟨some .newline,true,false,false,none,false,false,false,false,false,false⟩],[⟨some .newline,true,false,true,some 7,false,false,false,false,false,false⟩],[⟨some (.own 5),true,false,true,some 8,false,false,false,false,false,false⟩],[⟨some (.own 5),true,false,true,some 8,false,false,false,false,false,false⟩],[⟨some (.own 5),true,false,true,some 8,false,false,false,false,false,false⟩],[⟨some (.own 5),true,false,true,some 8,false,false,false,false,false,false⟩],[⟨some (.own 5),true,false,true,some 8,false,false,false,false,false,false⟩],[⟨some (.own 5),true,false,true,some 8,false,false,false,false,false,false⟩],[⟨some (.own 5),true,false,true,some 8,false,false,false,false,false,false⟩],[⟨some (.own 5),true,false,true,some 8,false,false,false,false,false,false⟩],[⟨some (.own 5),true,false,true,some 8,false,false,false,false,false,false⟩],[⟨some (.own 5),true,false,true,some 8,false,false,false,false,false,false⟩],[⟨some (.own 5),true,false,true,some 8,false,false,false,false,false,false⟩],[⟨some (.own 5),true,false,true,some 8,false,false,false,false,false,false⟩],[⟨some (.own 5),true,false,true,some 8,false,false,false,false,false,false⟩],[⟨some (.own 5),true,false,true,some 8,false,false,false,false,false,false⟩,⟨some (.own 5),false,true,true,some 8,false,false,false,false,false,false⟩,⟨some (.own 5),false,false,true,some 8,false,false,false,false,false,false⟩],[⟨some (.own 5),true,false,true,some 8,false,false,false,false,false,false⟩,⟨some (.own 5),false,true,true,some 8,false,false,false,false,false,false⟩,⟨some (.own 5),false,false,true,some 8,false,false,false,false,false,false⟩],[⟨some (.own 5),true,false,true,some 8,false,false,false,false,false,false⟩],[⟨some (.own 5),true,false,true,some 8,false,false,false,false,false,false⟩],[⟨some (.own 5),true,false,true,some 8,false,false,false,false,false,false⟩],[⟨some (.own 5),true,false,true,some 8,false,false,false,false,false,false⟩],[⟨some (.own 5),true,false,true,some 8,false,false,false,false,false,false⟩],[⟨some (.own 5),true,false,true,some 8,false,false,false,false,false,false⟩],[⟨some (.own 5),true,false,true,some 8,false,false,false,false,false,false⟩],[⟨some (.own 5),true,false,true,some 8,false,false,false,false,false,false⟩],[⟨some (.own 5),true,false,true,some 8,false,false,false,false,false,false⟩],[⟨some (.own 5),true,false,true,some 8,false,false,false,false,false,false⟩],[⟨some (.own 5),true,false,true,some 8,false,false,false,false,false,false⟩],[⟨some (.own 5),true,false,true,some 8,false,false,false,false,false,false⟩],[⟨some (.own 5),true,false,true,some 8,false,false,false,false,false,false⟩],[⟨some (.own 5),true,false,true,some 8,false,false,false,false,false,false⟩],[⟨some (.own 5),true,false,true,some 8,false,false,false,false,false,false⟩],[⟨some (.own 5),true,false,true,some 8,false,false,false,false,false,false⟩],[⟨some (.own 5),true,false,true,some 8,false,false,false,false,false,false⟩,⟨some (.own 5),false,true,true,some 8,false,false,false,false,false,false⟩,⟨some (.own 5),false,false,true,some 8,false,false,false,false,false,false⟩],[⟨some (.own 5),true,false,true,some 8,false,false,false,false,false,false⟩],[⟨some (.own 5),true,false,true,some 8,false,false,false,false,false,false⟩],[⟨some (.own 5),true,false,true,some 8,false,false,false,false,false,false⟩],[⟨some (.own 5),true,false,true,some 8,false,false,false,false,false,false⟩],[⟨some (.own 5),true,false,true,some 8,false,false,false,false,false,false⟩],[⟨some (.own 5),true,false,true,some 8,false,false,false,false,false,false⟩],[⟨some (.own 5),true,false,true,some 8,false,false,false,false,false,false⟩],[⟨some (.own 5),true,false,true,some 8,false,false,false,false,false,false⟩,⟨some (.own 5),false,true,true,some 8,false,false,false,false,false,false⟩,⟨some (.own 5),false,false,true,some 8,false,false,false,false,false,false⟩]]
theorem rhtml_w6_closed : closed emb29_rows rhtml_w6_tab (XA.init rhtml_wopt) (XA.succ rhtml_M rhtml_wopt 6) (XA.eofOk rhtml_M rhtml_wopt 6) = true := by
  decide +kernel
def rhtml_w6 : XCert rhtml_M rhtml_wopt 6 := ⟨emb29_D, rhtml_w6_tab, rhtml_w6_closed⟩
def rhtml_w3_tab : List (List XA) := [[⟨none,false,false,false,none,false,false,false,false,false,false⟩],[⟨some (.own 0),false,false,false,some 1,false,false,false,false,false,false⟩],[⟨some .newline,true,false,false,none,false,false,false,false,false,false⟩],[⟨some .newline,true,false,true,some 4,false,false,false,false,false,false⟩],[⟨some (.own 9),true,false,true,some 5,false,false,false,false,false,false⟩],[⟨some (.own 9),true,false,true,some 5,false,false,false,false,false,false⟩],[⟨some (.own 9),true,false,true,some 5,false,false,false,false,false,false⟩],[⟨some (.own 9),true,false,true,some 5,false,false,false,false,false,false⟩],[⟨some (.own 9),true,false,true,some 5,false,false,false,false,false,false⟩,⟨some .internalNl,true,false,true,some 5,false,false,false,false,false,false⟩],[⟨some (.own 9),false,true,true,some 5,false,false,false,false,false,false⟩,⟨some (.own 9),false,false,true,some 5,false,false,false,false,false,false⟩,⟨some .internalNl,false,true,true,some 5,false,false,false,false,false,false⟩,⟨some .internalNl,false,false,true,some 5,false,false,false,false,false,false⟩],[⟨some (.own 9),true,false,true,some 5,false,false,false,false,false,false⟩,⟨some .internalNl,true,false,true,some 5,false,false,false,false,false,false⟩],[⟨some (.own 9),true,false,true,some 5,false,false,false,false,false,false⟩,⟨some .internalNl,true,false,true,some 5,false,false,false,false,false,false⟩],[⟨some (.own 9),true,false,true,some 5,false,false,false,false,false,false⟩,⟨some .internalNl,true,false,true,some 5,false,false,false,false,false,false⟩],[⟨some (.own 9),true,false,true,some 5,false,false,false,false,false,false⟩,⟨some .internalNl,true,false,true,some 5,false,false,false,false,false,false⟩],[⟨some (.own 9),true,false,true,some 5,false,false,false,false,false,false⟩,⟨some .internalNl,true,false,true,some 5,false,false,false,false,false,false⟩],[⟨some (.own 9),true,false,true,some 5,false,false,false,false,false,false⟩,⟨some .internalNl,true,false,true,some 5,false,false,false,false,false,false⟩],[⟨some (.own 9),false,true,true,some 5,false,false,false,false,false,false⟩,⟨some (.own 9),false,false,true,some 5,false,false,false,false,false,false⟩,⟨some .internalNl,false,true,true,some 5,false,false,false,false,false,false⟩,⟨some .internalNl,false,false,true,some 5,false,false,false,false,false,false⟩],[⟨some (.own 9),true,false,true,some 5,false,false,false,false,false,false⟩,⟨some .internalNl,true,false,true,some 5,false,false,false,false,false,false⟩],[⟨some (.own 9),true,false,true,some 5,false,false,false,false,false,false⟩,⟨some .internalNl,true,false,true,some 5,false,false,false,false,false,false⟩],[⟨some (.own 9),true,false,true,some 5,false,false,false,false,false,false⟩,⟨some .internalNl,true,false,true,some 5,false,false,false,false,false,false⟩],[⟨some (.own 9),true,false,true,some 5,false,false,false,false,false,false⟩,⟨some .internalNl,true,false,true,some 5,false,false,false,false,false,false⟩],[⟨some (.own 9),true,false,true,some 5,false,false,false,false,false,false⟩,⟨some .internalNl,true,false,true,some 5,false,false,false,false,false,false⟩],[⟨some (.own 9),true,false,true,some 5,false,false,false,false,false,false⟩],[⟨some (.own 9),true,false,true,some 5,false,false,false,false,false,false⟩],[⟨some .internalNl,true,false,true,some 5,false,false,false,false,false,false⟩,⟨some (.own 9),true,false,true,some 5,false,false,false,false,false,false⟩],[⟨some .internalNl,true,false,true,some 5,false,false,false,false,false,false⟩],[⟨some (.own 9),true,false,true,some 5,false,false,false,false,false,false⟩,⟨some (.own 9),false,true,true,some 5,false,false,false,false,false,false⟩,⟨some .internalNl,true,false,true,some 5,false,false,false,false,false,false⟩,⟨some .internalNl,false,true,true,some 5,false,false,false,false,false,false⟩],[⟨some .internalNl,true,false,true,some 5,false,false,false,false,false,false⟩,⟨some (.own 9),true,false,true,some 5,false,false,false,false,false,false⟩],[⟨some .internalNl,true,false,true,some 5,false,false,false,false,false,false⟩],[⟨some (.own 9),true,false,true,some 5,false,false,false,false,false,false⟩,⟨some (.own 9),false,true,true,some 5,false,false,false,false,false,false⟩,⟨some .internalNl,true,false,true,some 5,false,false,false,false,false,false⟩,⟨some .internalNl,false,true,true,some 5,false,false,false,false,false,false⟩],[⟨some (.own 9),true,false,true,some 5,false,false,false,false,false,false⟩,⟨some .internalNl,true,false,true,some 5,false,false,false,false,false,false⟩],[⟨some (.own 9),false,true,true,some 5,false,false,false,false,false,false⟩,⟨some .internalNl,false,true,true,some 5,false,false,false,false,false,false⟩,⟨some .internalNl,false,false,true,some 5,false,false,false,false,false,false⟩,⟨some (.own 9),false,false,true,some 5,false,false,false,false,false,false⟩],[⟨some (.own 9),true,false,true,some 5,false,false,false,false,false,false⟩,⟨some .internalNl,true,false,true,some 5,false,false,false,false,false,false⟩],[⟨some (.own 9),true,false,true,some 5,false,false,false,false,false,false⟩,⟨some .internalNl,true,false,true,some 5,false,false,false,false,false,false⟩],[⟨some (.own 9),true,false,true,some 5,false,false,false,false,false,false⟩,⟨some .internalNl,true,false,true,some 5,false,false,false,false,false,false⟩],[⟨some (.own 9),true,false,true,some 5,false,false,false,false,false,false⟩,⟨some .internalNl,true,false,true,some 5,false,false,false,false,false,false⟩],[⟨some (.own 9),true,false,true,some 5,false,false,false,false,false,false⟩,⟨some .internalNl,true,false,true,some 5,false,false,false,false,false,false⟩],[⟨some (.own 9),true,false,true,some 5,false,false,false,false,false,false⟩],[⟨some .internalNl,true,false,true,some 5,false,false,false,false,false,false⟩,⟨some (.own 9),true,false,true,some 5,false,false,false,false,false,false⟩],[⟨some .internalNl,true,false,true,some 5,false,false,false,false,false,false⟩],[⟨some (.own 9),true,false,true,some 5,false,false,false,false,false,false⟩],[⟨some (.own 9),true,false,true,some 5,false,false,false,false,false,false⟩],[⟨some (.own 9),true,false,true,some 5,false,false,false,false,false,false⟩],[⟨some (.own 9),true,false,true,some 5,false,false,false,false,false,false⟩],[⟨some (.own 9),false,true,true,some 5,false,false,false,false,false,false⟩,⟨some .internalNl,false,true,true,some 5,false,false,false,false,false,false⟩,⟨some .internalNl,false,false,true,some 5,false,false,false,false,false,false⟩,⟨some (.own 9),false,false,true,some 5,false,false,false,false,false,false⟩],[⟨some .internalNl,true,false,true,some 5,false,false,false,false,false,false⟩],[⟨some .internalNl,true,false,true,some 5,false,false,false,false,false,false⟩],[⟨some (.own 9),true,false,true,some 5,false,false,false,false,false,false⟩,⟨some .internalNl,true,false,true,some 5,false,false,false,false,false,false⟩],[⟨some .internalNl,true,false,true,some 5,false,false,false,false,false,false⟩],[⟨some .internalNl,true,false,true,some 5,false,false,false,false,false,false⟩],[⟨some .internalNl,true,false,true,some 5,false,false,false,false,false,false⟩]]
theorem rhtml_w3_closed : closed emb0_rows rhtml_w3_tab (XA.init rhtml_wopt) (XA.succ rhtml_M rhtml_wopt 3) (XA.eofOk rhtml_M rhtml_wopt 3) = true := by
  decide +kernel
def rhtml_w3 : XCert rhtml_M rhtml_wopt 3 := ⟨emb0_D, rhtml_w3_tab, rhtml_w3_closed⟩
def rhtml_w4_tab : List (List XA) := [[⟨none,false,false,false,none,false,false,false,false,false,false⟩],[⟨some (.own 0),false,false,false,some 1,false,false,false,false,false,false⟩],[⟨some .newline,true,false,false,none,false,false,false,false,false,false⟩],[⟨some .newline,true,false,true,some 4,false,false,false,false,false,false⟩],[⟨some (.own 7),true,false,true,some 5,false,false,false,false,false,false⟩],[⟨some (.own 7),true,false,true,some 5,false,false,false,false,false,false⟩],[⟨some (.own 7),true,false,true,some 5,false,false,false,false,false,false⟩],[⟨some (.own 7),true,false,true,some 5,false,false,false,false,false,false⟩],[⟨some (.own 7),true,false,true,some 5,false,false,false,false,false,false⟩,⟨some .internalNl,true,false,true,some 5,false,false,false,false,false,false⟩],[⟨some (.own 7),false,true,true,some 5,false,false,false,false,false,false⟩,⟨some .internalNl,false,true,true,some 5,false,false,false,false,false,false⟩,⟨some .internalNl,false,false,true,some 5,false,false,false,false,false,false⟩,⟨some (.own 7),false,false,true,some 5,false,false,false,false,false,false⟩],[⟨some (.own 7),true,false,true,some 5,false,false,false,false,false,false⟩,⟨some .internalNl,true,false,true,some 5,false,false,false,false,false,false⟩],[⟨some (.own 7),true,false,true,some 5,false,false,false,false,false,false⟩,⟨some .internalNl,true,false,true,some 5,false,false,false,false,false,false⟩],[⟨some (.own 7),false,true,true,some 5,false,false,false,false,false,false⟩,⟨some .internalNl,false,true,true,some 5,false,false,false,false,false,false⟩,⟨some .internalNl,false,false,true,some 5,false,false,false,false,false,false⟩,⟨some (.own 7),false,false,true,some 5,false,false,false,false,false,false⟩],[⟨some (.own 7),true,false,true,some 5,false,false,false,false,false,false⟩,⟨some .internalNl,true,false,true,some 5,false,false,false,false,false,false⟩],[⟨some (.own 7),true,false,true,some 5,false,false,false,false,false,false⟩,⟨some (.own 7),false,true,true,some 5,false,false,false,false,false,false⟩],[⟨some (.own 7),true,false,true,some 5,false,false,false,false,false,false⟩],[⟨some (.own 7),true,false,true,some 2,false,false,false,false,false,false⟩],[⟨some (.own 7),true,false,true,some 5,false,false,false,false,false,false⟩],[⟨some (.own 7),true,false,true,some 5,false,false,false,false,false,false⟩,⟨some (.own 7),false,true,true,some 5,false,false,false,false,false,false⟩,⟨some .internalNl,true,false,true,some 5,false,false,false,false,false,false⟩,⟨some .internalNl,false,true,true,some 5,false,false,false,false,false,false⟩],[⟨some (.own 7),true,false,true,some 5,false,false,false,false,false,false⟩,⟨some .internalNl,true,false,true,some 5,false,false,false,false,false,false⟩],[⟨some (.own 7),true,false,true,some 5,false,false,false,false,false,false⟩,⟨some .internalNl,true,false,true,some 5,false,false,false,false,false,false⟩],[⟨some (.own 7),true,false,true,some 5,false,false,false,false,false,false⟩,⟨some .internalNl,true,false,true,some 5,false,false,false,false,false,false⟩],[⟨some (.own 7),true,false,true,some 5,false,false,false,false,false,false⟩,⟨some .internalNl,true,false,true,some 5,false,false,false,false,false,false⟩],[⟨some (.own 7),true,false,true,some 5,false,false,false,false,false,false⟩,⟨some (.own 7),false,true,true,some 5,false,false,false,false,false,false⟩,⟨some .internalNl,true,false,true,some 5,false,false,false,false,false,false⟩,⟨some .internalNl,false,true,true,some 5,false,false,false,false,false,false⟩],[⟨some (.own 7),true,false,true,some 5,false,false,false,false,false,false⟩,⟨some .internalNl,true,false,true,some 5,false,false,false,false,false,false⟩],[⟨some (.own 7),true,false,true,some 5,false,false,false,false,false,false⟩,⟨some .internalNl,true,false,true,some 5,false,false,false,false,false,false⟩],[⟨some (.own 7),true,false,true,some 5,false,false,false,false,false,false⟩,⟨some .internalNl,true,false,true,some 5,false,false,false,false,false,false⟩],[⟨some (.own 7),true,false,true,some 5,false,false,false,false,false,false⟩,⟨some .internalNl,true,false,true,some 5,false,false,false,false,false,false⟩],[⟨some (.own 7),true,false,true,some 5,false,false,false,false,false,false⟩,⟨some (.own 7),false,false,true,some 5,false,false,false,false,false,false⟩,⟨some (.own 7),false,true,true,some 5,false,false,false,false,false,false⟩],[⟨some (.own 7),true,false,true,some 5,false,false,false,false,false,false⟩],[⟨some (.own 7),true,false,true,some 5,false,false,false,false,false,false⟩,⟨some .internalNl,true,false,true,some 5,false,false,false,false,false,false⟩],[⟨some (.own 7),false,true,true,some 5,false,false,false,false,false,false⟩,⟨some .internalNl,false,true,true,some 5,false,false,false,false,false,false⟩,⟨some .internalNl,false,false,true,some 5,false,false,false,false,false,false⟩,⟨some (.own 7),false,false,true,some 5,false,false,false,false,false,false⟩],[⟨some (.own 7),true,false,true,some 5,false,false,false,false,false,false⟩,⟨some .internalNl,true,false,true,some 5,false,false,false,false,false,false⟩],[⟨some (.own 7),true,false,true,some 5,false,false,false,false,false,false⟩,⟨some .internalNl,true,false,true,some 5,false,false,false,false,false,false⟩],[⟨some (.own 7),true,false,true,some 5,false,false,false,false,false,false⟩,⟨some .internalNl,true,false,true,some 5,false,false,false,false,false,false⟩],[⟨some (.own 7),true,false,true,some 5,false,false,false,false,false,false⟩,⟨some .internalNl,true,false,true,some 5,false,false,false,false,false,false⟩],[⟨some (.own 7),true,false,true,some 5,false,false,false,false,false,false⟩,⟨some .internalNl,true,false,true,some 5,false,false,false,false,false,false⟩],[⟨some (.own 7),true,false,true,some 2,false,false,false,false,false,false⟩,⟨some (.own 7),false,true,false,some 2,false,false,false,false,false,false⟩,⟨some (.own 7),false,false,false,some 2,false,false,false,false,false,false⟩],[⟨some (.own 7),true,false,true,some 5,false,false,false,false,false,false⟩],[⟨some .internalNl,true,false,true,some 5,false,false,false,false,false,false⟩,⟨some (.own 7),true,false,true,some 5,false,false,false,false,false,false⟩],[⟨some .internalNl,true,false,true,some 5,false,false,false,false,false,false⟩],[⟨some .internalNl,true,false,true,some 5,false,false,false,false,false,false⟩,⟨some (.own 7),true,false,true,some 5,false,false,false,false,false,false⟩],[⟨some .internalNl,true,false,true,some 5,false,false,false,false,false,false⟩],[⟨some (.own 7),true,false,true,some 5,false,false,false,false,false,false⟩,⟨some (.own 7),false,true,true,some 5,false,false,false,false,false,false⟩],[⟨some .internalNl,true,false,true,some 5,false,false,false,false,false,false⟩,⟨some (.own 7),true,false,true,some 5,false,false,false,false,false,false⟩],[⟨some .internalNl,true,false,true,some 5,false,false,false,false,false,false⟩],[⟨some (.own 7),true,false,true,some 5,false,false,false,false,false,false⟩],[⟨some (.own 7),true,false,true,some 5,false,false,false,false,false,false⟩],[⟨some (.own 7),true,false,true,some 5,false,false,false,false,false,false⟩],[⟨some (.own 7),true,false,true,some 5,false,false,false,false,false,false⟩],[⟨some (.own 7),true,false,true,some 5,false,false,false,false,false,false⟩],[⟨some (.own 7),false,true,true,some 5,false,false,false,false,false,false⟩,⟨some .internalNl,false,true,true,some 5,false,false,false,false,false,false⟩,⟨some .internalNl,false,false,true,some 5,false,false,false,false,false,false⟩,⟨some (.own 7),false,false,true,some 5,false,false,false,false,false,false⟩],[⟨some .internalNl,true,false,true,some 5,false,false,false,false,false,false⟩],[⟨some .internalNl,true,false,true,some 5,false,false,false,false,false,false⟩],[⟨some (.own 7),true,false,true,some 5,false,false,false,false,false,false⟩,⟨some .internalNl,true,false,true,some 5,false,false,false,false,false,false⟩],[⟨some .internalNl,true,false,true,some 5,false,false,false,false,false,false⟩],[⟨some .internalNl,true,false,true,some 5,false,false,false,false,false,false⟩],[⟨some .internalNl,true,false,true,some 5,false,false,false,false,false,false⟩]]
theorem rhtml_w4_closed : closed emb1_rows rhtml_w4_tab (XA.init rhtml_wopt) (XA.succ rhtml_M rhtml_wopt 4) (XA.eofOk rhtml_M rhtml_wopt 4) = true := by
  decide +kernel
def rhtml_w4 : XCert rhtml_M rhtml_wopt 4 := ⟨emb1_D, rhtml_w4_tab, rhtml_w4_closed⟩
def rhtml_w5_tab : List (List XA) := [[⟨none,false,false,false,none,false,false,false,false,false,false⟩],[⟨some (.own 0),false,false,false,some 1,false,false,false,false,false,false⟩],[⟨some .newline,true,false,false,none,false,false,false,false,false,false⟩],[⟨some .newline,true,false,true,some 4,false,false,false,false,false,false⟩],[⟨some (.own 3),true,false,true,some 5,false,false,false,false,false,false⟩],[⟨some (.own 3),true,false,true,some 2,false,false,false,false,false,false⟩],[⟨some (.own 3),true,false,true,some 5,false,false,false,false,false,false⟩],[⟨some (.own 3),true,false,true,some 5,false,false,false,false,false,false⟩],[⟨some (.own 3),true,false,true,some 5,false,false,false,false,false,false⟩],[⟨some (.own 3),true,false,true,some 5,false,false,false,false,false,false⟩],[⟨some (.own 3),true,false,true,some 5,false,false,false,false,false,false⟩],[⟨some (.own 3),true,false,true,some 5,false,false,false,false,false,false⟩,⟨some .internalNl,true,false,true,some 5,false,false,false,false,false,false⟩],[⟨some (.own 3),false,true,true,some 5,false,false,false,false,false,false⟩,⟨some (.own 3),false,false,true,some 5,false,false,false,false,false,false⟩,⟨some .internalNl,false,true,true,some 5,false,false,false,false,false,false⟩,⟨some .internalNl,false,false,true,some 5,false,false,false,false,false,false⟩],[⟨some (.own 3),true,false,true,some 5,false,false,false,false,false,false⟩,⟨some .internalNl,true,false,true,some 5,false,false,false,false,false,false⟩],[⟨some (.own 3),true,false,true,some 5,false,false,false,false,false,false⟩,⟨some .internalNl,true,false,true,some 5,false,false,false,false,false,false⟩],[⟨some (.own 3),true,false,true,some 5,false,false,false,false,false,false⟩,⟨some .internalNl,true,false,true,some 5,false,false,false,false,false,false⟩],[⟨some (.own 3),true,false,true,some 5,false,false,false,false,false,false⟩,⟨some .internalNl,true,false,true,some 5,false,false,false,false,false,false⟩],[⟨some (.own 3),true,false,true,some 5,false,false,false,false,false,false⟩,⟨some .internalNl,true,false,true,some 5,false,false,false,false,false,false⟩],[⟨some (.own 3),true,false,true,some 2,false,false,false,false,false,false⟩,⟨some (.own 3),false,true,false,some 2,false,false,false,false,false,false⟩,⟨some (.own 3),false,false,false,some 2,false,false,false,false,false,false⟩],[⟨some (.own 3),true,false,true,some 5,false,false,false,false,false,false⟩],[⟨some (.own 3),true,false,true,some 5,false,false,false,false,false,false⟩],[⟨some (.own 3),true,false,true,some 5,false,false,false,false,false,false⟩],[⟨some (.own 3),true,false,true,some 5,false,false,false,false,false,false⟩,⟨some .internalNl,true,false,true,some 5,false,false,false,false,false,false⟩],[⟨some (.own 3),false,true,true,some 5,false,false,false,false,false,false⟩,⟨some (.own 3),false,false,true,some 5,false,false,false,false,false,false⟩,⟨some .internalNl,false,true,true,some 5,false,false,false,false,false,false⟩,⟨some .internalNl,false,false,true,some 5,false,false,false,false,false,false⟩],[⟨some (.own 3),true,false,true,some 5,false,false,false,false,false,false⟩,⟨some .internalNl,true,false,true,some 5,false,false,false,false,false,false⟩],[⟨some (.own 3),true,false,true,some 5,false,false,false,false,false,false⟩,⟨some .internalNl,true,false,true,some 5,false,false,false,false,false,false⟩],[⟨some (.own 3),true,false,true,some 5,false,false,false,false,false,false⟩,⟨some .internalNl,true,false,true,some 5,false,false,false,false,false,false⟩],[⟨some (.own 3),true,false,true,some 5,false,false,false,false,false,false⟩,⟨some .internalNl,true,false,true,some 5,false,false,false,false,false,false⟩],[⟨some (.own 3),true,false,true,some 5,false,false,false,false,false,false⟩,⟨some .internalNl,true,false,true,some 5,false,false,false,false,false,false⟩],[⟨some (.own 3),true,false,true,some 5,false,false,false,false,false,false⟩,⟨some (.own 3),false,true,true,some 5,false,false,false,false,false,false⟩,⟨some (.own 3),false,false,true,some 5,false,false,false,false,false,false⟩],[⟨some (.own 3),true,false,true,some 5,false,false,false,false,false,false⟩],[⟨some (.own 3),true,false,true,some 5,false,false,false,false,false,false⟩],[⟨some (.own 3),true,false,true,some 5,false,false,false,false,false,false⟩,⟨some .internalNl,true,false,true,some 5,false,false,false,false,false,false⟩],[⟨some (.own 3),false,true,true,some 5,false,false,false,false,false,false⟩,⟨some (.own 3),false,false,true,some 5,false,false,false,false,false,false⟩,⟨some .internalNl,false,true,true,some 5,false,false,false,false,false,false⟩,⟨some .internalNl,false,false,true,some 5,false,false,false,false,false,false⟩],[⟨some (.own 3),true,false,true,some 5,false,false,false,false,false,false⟩,⟨some .internalNl,true,false,true,some 5,false,false,false,false,false,false⟩],[⟨some (.own 3),true,false,true,some 5,false,false,false,false,false,false⟩,⟨some .internalNl,true,false,true,some 5,false,false,false,false,false,false⟩],[⟨some (.own 3),true,false,true,some 5,false,false,false,false,false,false⟩,⟨some .internalNl,true,false,true,some 5,false,false,false,false,false,false⟩],[⟨some (.own 3),true,false,true,some 5,false,false,false,false,false,false⟩,⟨some .internalNl,true,false,true,some 5,false,false,false,false,false,false⟩],[⟨some (.own 3),true,false,true,some 5,false,false,false,false,false,false⟩,⟨some .internalNl,true,false,true,some 5,false,false,false,false,false,false⟩],[⟨some .internalNl,true,false,true,some 5,false,false,false,false,false,false⟩,⟨some (.own 3),true,false,true,some 5,false,false,false,false,false,false⟩],[⟨some .internalNl,true,false,true,some 5,false,false,false,false,false,false⟩],[⟨some (.own 3),true,false,true,some 5,false,false,false,false,false,false⟩,⟨some (.own 3),false,true,true,some 5,false,false,false,false,false,false⟩,⟨some .internalNl,true,false,true,some 5,false,false,false,false,false,false⟩,⟨some .internalNl,false,true,true,some 5,false,false,false,false,false,false⟩],[⟨some (.own 3),true,false,true,some 5,false,false,false,false,false,false⟩,⟨some .internalNl,true,false,true,some 5,false,false,false,false,false,false⟩],[⟨some (.own 3),false,true,true,some 5,false,false,false,false,false,false⟩,⟨some (.own 3),false,false,true,some 5,false,false,false,false,false,false⟩,⟨some .internalNl,false,true,true,some 5,false,false,false,false,false,false⟩,⟨some .internalNl,false,false,true,some 5,false,false,false,false,false,false⟩],[⟨some (.own 3),true,false,true,some 5,false,false,false,false,false,false⟩,⟨some .internalNl,true,false,true,some 5,false,false,false,false,false,false⟩],[⟨some (.own 3),true,false,true,some 5,false,false,false,false,false,false⟩,⟨some .internalNl,true,false,true,some 5,false,false,false,false,false,false⟩],[⟨some (.own 3),true,false,true,some 5,false,false,false,false,false,false⟩,⟨some .internalNl,true,false,true,some 5,false,false,false,false,false,false⟩],[⟨some (.own 3),true,false,true,some 5,false,false,false,false,false,false⟩,⟨some .internalNl,true,false,true,some 5,false,false,false,false,false,false⟩],[⟨some (.own 3),true,false,true,some 5,false,false,false,false,false,false⟩,⟨some .internalNl,true,false,true,some 5,false,false,false,false,false,false⟩],[⟨some (.own 3),true,false,true,some 5,false,false,false,false,false,false⟩],[⟨some .internalNl,true,false,true,some 5,false,false,false,false,false,false⟩,⟨some (.own 3),true,false,true,some 5,false,false,false,false,false,false⟩],[⟨some .internalNl,true,false,true,some 5,false,false,false,false,false,false⟩],[⟨some (.own 3),true,false,true,some 5,false,false,false,false,false,false⟩,⟨some (.own 3),false,true,true,some 5,false,false,false,false,false,false⟩,⟨some .internalNl,true,false,true,some 5,false,false,false,false,false,false⟩,⟨some .internalNl,false,true,true,some 5,false,false,false,false,false,false⟩],[⟨some (.own 3),true,false,true,some 5,false,false,false,false,false,false⟩,⟨some (.own 3),false,true,true,some 5,false,false,false,false,false,false⟩],[⟨some (.own 3),true,false,true,some 5,false,false,false,false,false,false⟩],[⟨some .internalNl,true,false,true,some 5,false,false,false,false,false,false⟩,⟨some (.own 3),true,false,true,some 5,false,false,false,false,false,false⟩],[⟨some .internalNl,true,false,true,some 5,false,false,false,false,false,false⟩],[⟨some (.own 3),true,false,true,some 5,false,false,false,false,false,false⟩,⟨some (.own 3),false,true,true,some 5,false,false,false,false,false,false⟩,⟨some .internalNl,true,false,true,some 5,false,false,false,false,false,false⟩,⟨some .internalNl,false,true,true,some 5,false,false,false,false,false,false⟩],[⟨some .internalNl,true,false,true,some 5,false,false,false,false,false,false⟩,⟨some (.own 3),true,false,true,some 5,false,false,false,false,false,false⟩],[⟨some .internalNl,true,false,true,some 5,false,false,false,false,false,false⟩],[⟨some (.own 3),true,false,true,some 5,false,false,false,false,false,false⟩,⟨some (.own 3),false,true,true,some 5,false,false,false,false,false,false⟩,⟨some .internalNl,true,false,true,some 5,false,false,false,false,false,false⟩,⟨some .internalNl,false,true,true,some 5,false,false,false,false,false,false⟩],[⟨some (.own 3),true,false,true,some 5,false,false,false,false,false,false⟩,⟨some .internalNl,true,false,true,some 5,false,false,false,false,false,false⟩],[⟨some (.own 3),false,true,true,some 5,false,false,false,false,false,false⟩,⟨some (.own 3),false,false,true,some 5,false,false,false,false,false,false⟩,⟨some .internalNl,false,true,true,some 5,false,false,false,false,false,false⟩,⟨some .internalNl,false,false,true,some 5,false,false,false,false,false,false⟩],[⟨some (.own 3),true,false,true,some 5,false,false,false,false,false,false⟩,⟨some .internalNl,true,false,true,some 5,false,false,false,false,false,false⟩],[⟨some (.own 3),true,false,true,some 5,false,false,false,false,false,false⟩,⟨some .internalNl,true,false,true,some 5,false,false,false,false,false,false⟩],[⟨some (.own 3),true,false,true,some 5,false,false,false,false,false,false⟩,⟨some .internalNl,true,false,true,some 5,false,false,false,false,false,false⟩],[⟨some (.own 3),true,false,true,some 5,false,false,false,false,false,false⟩,⟨some .internalNl,true,false,true,some 5,false,false,false,false,false,false⟩],[⟨some (.own 3),true,false,true,some 5,false,false,false,false,false,false⟩,⟨some .internalNl,true,false,true,some 5,false,false,false,false,false,false⟩],[⟨some (.own 3),true,false,true,some 5,false,false,false,false,false,false⟩],[⟨some .internalNl,true,false,true,some 5,false,false,false,false,false,false⟩,⟨some (.own 3),true,false,true,some 5,false,false,false,false,false,false⟩],[⟨some .internalNl,true,false,true,some 5,false,false,false,false,false,false⟩],[⟨some (.own 3),true,false,true,some 5,false,false,false,false,false,false⟩,⟨some (.own 3),false,true,true,some 5,false,false,false,false,false,false⟩,⟨some .internalNl,true,false,true,some 5,false,false,false,false,false,false⟩,⟨some .internalNl,false,true,true,some 5,false,false,false,false,false,false⟩],[⟨some (.own 3),true,false,true,some 5,false,false,false,false,false,false⟩],[⟨some (.own 3),true,false,true,some 5,false,false,false,false,false,false⟩],[⟨some (.own 3),true,false,true,some 5,false,false,false,false,false,false⟩,⟨some .internalNl,true,false,true,some 5,false,false,false,false,false,false⟩],[⟨some (.own 3),false,true,true,some 5,false,false,false,false,false,false⟩,⟨some .internalNl,false,true,true,some 5,false,false,false,false,false,false⟩,⟨some .internalNl,false,false,true,some 5,false,false,false,false,false,false⟩,⟨some (.own 3),false,false,true,some 5,false,false,false,false,false,false⟩],[⟨some (.own 3),true,false,true,some 5,false,false,false,false,false,false⟩,⟨some .internalNl,true,false,true,some 5,false,false,false,false,false,false⟩],[⟨some (.own 3),true,false,true,some 5,false,false,false,false,false,false⟩,⟨some .internalNl,true,false,true,some 5,false,false,false,false,false,false⟩],[⟨some (.own 3),true,false,true,some 5,false,false,false,false,false,false⟩,⟨some .internalNl,true,false,true,some 5,false,false,false,false,false,false⟩],[⟨some (.own 3),true,false,true,some 5,false,false,false,false,false,false⟩,⟨some .internalNl,true,false,true,some 5,false,false,false,false,false,false⟩],[⟨some (.own 3),true,false,true,some 5,false,false,false,false,false,false⟩,⟨some .internalNl,true,false,true,some 5,false,false,false,false,false,false⟩],[⟨some .internalNl,true,false,true,some 5,false,false,false,false,false,false⟩,⟨some (.own 3),true,false,true,some 5,false,false,false,false,false,false⟩],[⟨some .internalNl,true,false,true,some 5,false,false,false,false,false,false⟩],[⟨some (.own 3),true,false,true,some 5,false,false,false,false,false,false⟩,⟨some .internalNl,true,false,true,some 5,false,false,false,false,false,false⟩],[⟨some (.own 3),true,false,true,some 5,false,false,false,false,false,false⟩,⟨some .internalNl,true,false,true,some 5,false,false,false,false,false,false⟩]]
theorem rhtml_w5_closed : closed emb50_rows rhtml_w5_tab (XA.init rhtml_wopt) (XA.succ rhtml_M rhtml_wopt 5) (XA.eofOk rhtml_M rhtml_wopt 5) = true := by
  decide +kernel
def rhtml_w5 : XCert rhtml_M rhtml_wopt 5 := ⟨emb50_D, rhtml_w5_tab, rhtml_w5_closed⟩
def rhtml_w0_tab : List (List XA) := [[⟨none,false,false,false,none,false,false,false,false,false,false⟩],[⟨none,true,false,false,none,false,false,false,false,false,false⟩,⟨some .internalNl,true,false,false,none,false,false,false,false,false,false⟩],[⟨none,false,false,false,none,false,false,false,false,false,false⟩,⟨some .internalNl,false,true,false,none,false,false,false,false,false,false⟩,⟨some .internalNl,false,false,false,none,false,false,false,false,false,false⟩,⟨none,false,true,false,none,false,false,false,false,false,false⟩],[⟨none,true,false,false,none,false,false,false,false,false,false⟩,⟨some .internalNl,true,false,false,none,false,false,false,false,false,false⟩],[⟨none,true,false,false,none,false,false,false,false,false,false⟩,⟨some .internalNl,true,false,false,none,false,false,false,false,false,false⟩],[⟨none,true,false,false,none,false,false,false,false,false,false⟩,⟨some .internalNl,true,false,false,none,false,false,false,false,false,false⟩],[⟨none,true,false,false,none,false,false,false,false,false,false⟩,⟨some .internalNl,true,false,false,none,false,false,false,false,false,false⟩],[⟨none,true,false,false,none,false,false,false,false,false,false⟩,⟨some .internalNl,true,false,false,none,false,false,false,false,false,false⟩],[⟨none,true,false,false,none,false,false,false,false,false,false⟩,⟨some .internalNl,true,false,false,none,false,false,false,false,false,false⟩],[⟨some .internalNl,true,false,false,none,false,false,false,false,false,false⟩,⟨none,true,false,false,none,false,false,false,false,false,false⟩],[⟨some .internalNl,true,false,false,none,false,false,false,false,false,false⟩],[⟨none,true,false,false,none,false,false,false,false,false,false⟩,⟨some .internalNl,true,false,false,none,false,false,false,false,false,false⟩],[⟨none,true,false,false,none,false,false,false,false,false,false⟩,⟨some .internalNl,true,false,false,none,false,false,false,false,false,false⟩],[⟨none,false,true,false,none,false,false,false,false,false,false⟩,⟨some .internalNl,false,true,false,none,false,false,false,false,false,false⟩],[⟨none,true,false,false,none,false,false,false,false,false,false⟩,⟨some .internalNl,true,false,false,none,false,false,false,false,false,false⟩],[⟨none,true,false,false,none,false,false,false,false,false,false⟩,⟨some .internalNl,true,false,false,none,false,false,false,false,false,false⟩],[⟨none,true,false,false,none,false,false,false,false,false,false⟩,⟨some .internalNl,true,false,false,none,false,false,false,false,false,false⟩],[⟨none,true,false,false,none,false,false,false,false,false,false⟩,⟨some .internalNl,true,false,false,none,false,false,false,false,false,false⟩],[⟨none,true,false,false,none,false,false,false,false,false,false⟩,⟨some .internalNl,true,false,false,none,false,false,false,false,false,false⟩],[⟨none,false,false,false,none,false,false,false,false,false,false⟩],[⟨none,true,false,false,none,false,false,false,false,false,false⟩,⟨some .internalNl,true,false,false,none,false,false,false,false,false,false⟩],[⟨none,true,false,false,none,false,false,false,false,false,false⟩,⟨some .internalNl,true,false,false,none,false,false,false,false,false,false⟩],[⟨none,true,false,false,none,false,false,false,false,false,false⟩,⟨some .internalNl,true,false,false,none,false,false,false,false,false,false⟩],[⟨none,false,true,false,none,false,false,false,false,false,false⟩,⟨some .internalNl,false,true,false,none,false,false,false,false,false,false⟩,⟨some .internalNl,false,false,false,none,false,false,false,false,false,false⟩,⟨none,false,false,false,none,false,false,false,false,false,false⟩],[⟨none,true,false,false,none,false,false,false,false,false,false⟩,⟨some .internalNl,true,false,false,none,false,false,false,false,false,false⟩],[⟨none,true,false,false,none,false,false,false,false,false,false⟩,⟨some .internalNl,true,false,false,none,false,false,false,false,false,false⟩],[⟨none,true,false,false,none,false,false,false,false,false,false⟩,⟨some .internalNl,true,false,false,none,false,false,false,false,false,false⟩],[⟨none,true,false,false,none,false,false,false,false,false,false⟩,⟨some .internalNl,true,false,false,none,false,false,false,false,false,false⟩],[⟨none,true,false,false,none,false,false,false,false,false,false⟩,⟨some .internalNl,true,false,false,none,false,false,false,false,false,false⟩],[⟨some .internalNl,true,false,false,none,false,false,false,false,false,false⟩,⟨none,true,false,false,none,false,false,false,false,false,false⟩],[⟨none,true,false,false,none,false,false,false,false,false,false⟩,⟨some .internalNl,true,false,false,none,false,false,false,false,false,false⟩],[⟨some .internalNl,true,false,false,none,false,false,false,false,false,false⟩,⟨none,true,false,false,none,false,false,false,false,false,false⟩],[⟨none,true,false,false,none,false,false,false,false,false,false⟩],[⟨none,false,false,false,none,false,false,false,false,false,false⟩],[⟨none,true,false,false,none,false,false,false,false,false,false⟩],[⟨none,true,false,false,none,false,false,false,false,false,false⟩],[⟨none,true,false,false,none,false,false,false,false,false,false⟩],[⟨none,true,false,false,none,false,false,false,false,false,false⟩],[⟨none,true,false,false,none,false,false,false,false,false,false⟩],[⟨none,true,false,false,none,false,false,false,false,false,false⟩],[⟨none,true,false,false,none,false,false,false,false,false,false⟩],[⟨none,true,false,false,none,false,false,false,false,false,false⟩,⟨some .internalNl,true,false,false,none,false,false,false,false,false,false⟩],[⟨none,true,false,false,none,false,false,false,false,false,false⟩,⟨some .internalNl,true,false,false,none,false,false,false,false,false,false⟩],[⟨none,false,true,false,none,false,false,false,false,false,false⟩,⟨some .internalNl,false,true,false,none,false,false,false,false,false,false⟩],[⟨none,true,false,false,none,false,false,false,false,false,false⟩,⟨some .internalNl,true,false,false,none,false,false,false,false,false,false⟩],[⟨none,true,false,false,none,false,false,false,false,false,false⟩,⟨some .internalNl,true,false,false,none,false,false,false,false,false,false⟩],[⟨none,true,false,false,none,false,false,false,false,false,false⟩,⟨some .internalNl,true,false,false,none,false,false,false,false,false,false⟩],[⟨none,true,false,false,none,false,false,false,false,false,false⟩,⟨some .internalNl,true,false,false,none,false,false,false,false,false,false⟩],[⟨none,true,false,false,none,false,false,false,false,false,false⟩,⟨some .internalNl,true,false,false,none,false,false,false,false,false,false⟩],[⟨none,false,false,false,none,false,false,false,false,false,false⟩],[⟨none,true,false,false,none,false,false,false,false,false,false⟩,⟨some .internalNl,true,false,false,none,false,false,false,false,false,false⟩],[⟨none,true,false,false,none,false,false,false,false,false,false⟩,⟨some .internalNl,true,false,false,none,false,false,false,false,false,false⟩],[⟨none,true,false,false,none,false,false,false,false,false,false⟩],[⟨none,false,false,false,none,false,false,false,false,false,false⟩],[⟨none,true,false,false,none,false,false,false,false,false,false⟩],[⟨none,true,false,false,none,false,false,false,false,false,false⟩],[⟨none,true,false,false,none,false,false,false,false,false,false⟩],[⟨none,true,false,false,none,false,false,false,false,false,false⟩],[⟨none,true,false,false,none,false,false,false,false,false,false⟩],[⟨none,true,false,false,none,false,false,false,false,false,false⟩],[⟨none,true,false,false,none,false,false,false,false,false,false⟩]]
theorem rhtml_w0_closed : closed emb25_rows rhtml_w0_tab (XA.init rhtml_wopt) (XA.succ rhtml_M rhtml_wopt 0) (XA.eofOk rhtml_M rhtml_wopt 0) = true := by
  decide +kernel
def rhtml_w0 : XCert rhtml_M rhtml_wopt 0 := ⟨emb25_D, rhtml_w0_tab, rhtml_w0_closed⟩
def rhtml_w1_tab : List (List XA) := [[⟨none,false,false,false,none,false,false,false,false,false,false⟩],[⟨none,true,false,false,none,false,false,false,false,false,false⟩,⟨some .internalNl,true,false,false,none,false,false,false,false,false,false⟩],[⟨none,false,false,false,none,false,false,false,false,false,false⟩,⟨none,false,true,false,none,false,false,false,false,false,false⟩,⟨some .internalNl,false,true,false,none,false,false,false,false,false,false⟩,⟨some .internalNl,false,false,false,none,false,false,false,false,false,false⟩],[⟨none,true,false,false,none,false,false,false,false,false,false⟩,⟨some .internalNl,true,false,false,none,false,false,false,false,false,false⟩],[⟨none,true,false,false,none,false,false,false,false,false,false⟩,⟨some .internalNl,true,false,false,none,false,false,false,false,false,false⟩],[⟨none,true,false,false,none,false,false,false,false,false,false⟩,⟨some .internalNl,true,false,false,none,false,false,false,false,false,false⟩],[⟨none,true,false,false,none,false,false,false,false,false,false⟩,⟨some .internalNl,true,false,false,none,false,false,false,false,false,false⟩],[⟨none,true,false,false,none,false,false,false,false,false,false⟩,⟨some .internalNl,true,false,false,none,false,false,false,false,false,false⟩],[⟨none,true,false,false,none,false,false,false,false,false,false⟩,⟨some .internalNl,true,false,false,none,false,false,false,false,false,false⟩],[⟨some .internalNl,true,false,false,none,false,false,false,false,false,false⟩,⟨none,true,false,false,none,false,false,false,false,false,false⟩],[⟨some .internalNl,true,false,false,none,false,false,false,false,false,false⟩],[⟨none,true,false,false,none,false,false,false,false,false,false⟩,⟨some .internalNl,true,false,false,none,false,false,false,false,false,false⟩],[⟨none,false,true,false,none,false,false,false,false,false,false⟩,⟨some .internalNl,false,true,false,none,false,false,false,false,false,false⟩],[⟨none,true,false,false,none,false,false,false,false,false,false⟩,⟨some .internalNl,true,false,false,none,false,false,false,false,false,false⟩],[⟨none,true,false,false,none,false,false,false,false,false,false⟩,⟨some .internalNl,true,false,false,none,false,false,false,false,false,false⟩],[⟨none,true,false,false,none,false,false,false,false,false,false⟩,⟨some .internalNl,true,false,false,none,false,false,false,false,false,false⟩],[⟨none,true,false,false,none,false,false,false,false,false,false⟩,⟨some .internalNl,true,false,false,none,false,false,false,false,false,false⟩],[⟨none,false,false,false,none,false,false,false,false,false,false⟩],[],[⟨none,true,false,false,none,false,false,false,false,false,false⟩,⟨some .internalNl,true,false,false,none,false,false,false,false,false,false⟩],[⟨none,true,false,false,none,false,false,false,false,false,false⟩,⟨some .internalNl,true,false,false,none,false,false,false,false,false,false⟩],[⟨none,true,false,false,none,false,false,false,false,false,false⟩,⟨none,false,true,false,none,false,false,false,false,false,false⟩,⟨some .internalNl,true,false,false,none,false,false,false,false,false,false⟩,⟨some .internalNl,false,true,false,none,false,false,false,false,false,false⟩],[⟨some .internalNl,true,false,false,none,false,false,false,false,false,false⟩,⟨none,true,false,false,none,false,false,false,false,false,false⟩],[⟨some .internalNl,false,true,false,none,false,false,false,false,false,false⟩,⟨some .internalNl,false,false,false,none,false,false,false,false,false,false⟩,⟨none,false,true,false,none,false,false,false,false,false,false⟩,⟨none,false,false,false,none,false,false,false,false,false,false⟩],[⟨none,true,false,false,none,false,false,false,false,false,false⟩,⟨some .internalNl,true,false,false,none,false,false,false,false,false,false⟩],[⟨none,true,false,false,none,false,false,false,false,false,false⟩,⟨some .internalNl,true,false,false,none,false,false,false,false,false,false⟩],[⟨none,true,false,false,none,false,false,false,false,false,false⟩,⟨some .internalNl,true,false,false,none,false,false,false,false,false,false⟩],[⟨none,true,false,false,none,false,false,false,false,false,false⟩,⟨some .internalNl,true,false,false,none,false,false,false,false,false,false⟩],[],[⟨some .internalNl,true,false,false,none,false,false,false,false,false,false⟩,⟨none,true,false,false,none,false,false,false,false,false,false⟩],[⟨some .internalNl,true,false,false,none,false,false,false,false,false,false⟩,⟨none,true,false,false,none,false,false,false,false,false,false⟩],[⟨some .internalNl,true,false,false,none,false,false,false,false,false,false⟩,⟨none,true,false,false,none,false,false,false,false,false,false⟩],[⟨none,true,false,false,none,false,false,false,false,false,false⟩],[⟨none,false,false,false,none,false,false,false,false,false,false⟩],[⟨none,true,false,false,none,false,false,false,false,false,false⟩],[⟨none,true,false,false,none,false,false,false,false,false,false⟩],[⟨none,true,false,false,none,false,false,false,false,false,false⟩],[⟨none,true,false,false,none,false,false,false,false,false,false⟩],[],[⟨none,true,false,false,none,false,false,false,false,false,false⟩],[⟨none,true,false,false,none,false,false,false,false,false,false⟩],[⟨none,true,false,false,none,false,false,false,false,false,false⟩,⟨some .internalNl,true,false,false,none,false,false,false,false,false,false⟩],[⟨none,false,true,false,none,false,false,false,false,false,false⟩,⟨some .internalNl,false,true,false,none,false,false,false,false,false,false⟩],[⟨none,true,false,false,none,false,false,false,false,false,false⟩,⟨some .internalNl,true,false,false,none,false,false,false,false,false,false⟩],[⟨none,true,false,false,none,false,false,false,false,false,false⟩,⟨some .internalNl,true,false,false,none,false,false,false,false,false,false⟩],[⟨none,true,false,false,none,false,false,false,false,false,false⟩,⟨some .internalNl,true,false,false,none,false,false,false,false,false,false⟩],[⟨none,true,false,false,none,false,false,false,false,false,false⟩,⟨some .internalNl,true,false,false,none,false,false,false,false,false,false⟩],[⟨none,false,false,false,none,false,false,false,false,false,false⟩],[],[⟨none,true,false,false,none,false,false,false,false,false,false⟩,⟨some .internalNl,true,false,false,none,false,false,false,false,false,false⟩],[⟨none,true,false,false,none,false,false,false,false,false,false⟩,⟨some .internalNl,true,false,false,none,false,false,false,false,false,false⟩],[⟨none,true,false,false,none,false,false,false,false,false,false⟩,⟨some .internalNl,true,false,false,none,false,false,false,false,false,false⟩],[⟨none,false,true,false,none,false,false,false,false,false,false⟩,⟨some .internalNl,false,true,false,none,false,false,false,false,false,false⟩],[],[⟨none,true,false,false,none,false,false,false,false,false,false⟩,⟨some .internalNl,true,false,false,none,false,false,false,false,false,false⟩],[⟨none,true,false,false,none,false,false,false,false,false,false⟩,⟨some .internalNl,true,false,false,none,false,false,false,false,false,false⟩],[⟨none,true,false,false,none,false,false,false,false,false,false⟩],[⟨none,false,false,false,none,false,false,false,false,false,false⟩],[⟨none,true,false,false,none,false,false,false,false,false,false⟩],[⟨none,true,false,false,none,false,false,false,false,false,false⟩],[⟨none,true,false,false,none,false,false,false,false,false,false⟩],[⟨none,true,false,false,none,false,false,false,false,false,false⟩],[],[⟨none,true,false,false,none,false,false,false,false,false,false⟩],[⟨none,true,false,false,none,false,false,false,false,false,false⟩]]
theorem rhtml_w1_closed : closed emb26_rows rhtml_w1_tab (XA.init rhtml_wopt) (XA.succ rhtml_M rhtml_wopt 1) (XA.eofOk rhtml_M rhtml_wopt 1) = true := by
  decide +kernel
def rhtml_w1 : XCert rhtml_M rhtml_wopt 1 := ⟨emb26_D, rhtml_w1_tab, rhtml_w1_closed⟩
def rhtml_w2_tab : List (List XA) := [[⟨none,false,false,false,none,false,false,false,false,false,false⟩],[⟨none,true,false,false,none,false,false,false,false,false,false⟩,⟨some .internalNl,true,false,false,none,false,false,false,false,false,false⟩],[⟨none,false,false,false,none,false,false,false,false,false,false⟩,⟨none,false,true,false,none,false,false,false,false,false,false⟩,⟨some .internalNl,false,true,false,none,false,false,false,false,false,false⟩,⟨some .internalNl,false,false,false,none,false,false,false,false,false,false⟩],[⟨none,true,false,false,none,false,false,false,false,false,false⟩,⟨some .internalNl,true,false,false,none,false,false,false,false,false,false⟩],[⟨none,true,false,false,none,false,false,false,false,false,false⟩,⟨some .internalNl,true,false,false,none,false,false,false,false,false,false⟩],[⟨none,true,false,false,none,false,false,false,false,false,false⟩,⟨some .internalNl,true,false,false,none,false,false,false,false,false,false⟩],[⟨none,true,false,false,none,false,false,false,false,false,false⟩,⟨some .internalNl,true,false,false,none,false,false,false,false,false,false⟩],[⟨none,true,false,false,none,false,false,false,false,false,false⟩,⟨some .internalNl,true,false,false,none,false,false,false,false,false,false⟩],[⟨none,true,false,false,none,false,false,false,false,false,false⟩,⟨some .internalNl,true,false,false,none,false,false,false,false,false,false⟩],[⟨some .internalNl,true,false,false,none,false,false,false,false,false,false⟩,⟨none,true,false,false,none,false,false,false,false,false,false⟩],[⟨some .internalNl,true,false,false,none,false,false,false,false,false,false⟩],[⟨none,true,false,false,none,false,false,false,false,false,false⟩,⟨some .internalNl,true,false,false,none,false,false,false,false,false,false⟩],[⟨none,false,true,false,none,false,false,false,false,false,false⟩,⟨some .internalNl,false,true,false,none,false,false,false,false,false,false⟩],[⟨none,true,false,false,none,false,false,false,false,false,false⟩,⟨some .internalNl,true,false,false,none,false,false,false,false,false,false⟩],[⟨none,true,false,false,none,false,false,false,false,false,false⟩,⟨some .internalNl,true,false,false,none,false,false,false,false,false,false⟩],[⟨none,true,false,false,none,false,false,false,false,false,false⟩,⟨some .internalNl,true,false,false,none,false,false,false,false,false,false⟩],[⟨none,true,false,false,none,false,false,false,false,false,false⟩,⟨some .internalNl,true,false,false,none,false,false,false,false,false,false⟩],[],[⟨none,false,false,false,none,false,false,false,false,false,false⟩],[⟨none,true,false,false,none,false,false,false,false,false,false⟩,⟨some .internalNl,true,false,false,none,false,false,false,false,false,false⟩],[⟨none,true,false,false,none,false,false,false,false,false,false⟩,⟨some .internalNl,true,false,false,none,false,false,false,false,false,false⟩],[⟨none,true,false,false,none,false,false,false,false,false,false⟩,⟨none,false,true,false,none,false,false,false,false,false,false⟩,⟨some .internalNl,true,false,false,none,false,false,false,false,false,false⟩,⟨some .internalNl,false,true,false,none,false,false,false,false,false,false⟩],[⟨some .internalNl,true,false,false,none,false,false,false,false,false,false⟩,⟨none,true,false,false,none,false,false,false,false,false,false⟩],[⟨some .internalNl,false,true,false,none,false,false,false,false,false,false⟩,⟨some .internalNl,false,false,false,none,false,false,false,false,false,false⟩,⟨none,false,true,false,none,false,false,false,false,false,false⟩,⟨none,false,false,false,none,false,false,false,false,false,false⟩],[⟨none,true,false,false,none,false,false,false,false,false,false⟩,⟨some .internalNl,true,false,false,none,false,false,false,false,false,false⟩],[⟨none,true,false,false,none,false,false,false,false,false,false⟩,⟨some .internalNl,true,false,false,none,false,false,false,false,false,false⟩],[⟨none,true,false,false,none,false,false,false,false,false,false⟩,⟨some .internalNl,true,false,false,none,false,false,false,false,false,false⟩],[⟨none,true,false,false,none,false,false,false,false,false,false⟩,⟨some .internalNl,true,false,false,none,false,false,false,false,false,false⟩],[],[⟨some .internalNl,true,false,false,none,false,false,false,false,false,false⟩,⟨none,true,false,false,none,false,false,false,false,false,false⟩],[⟨some .internalNl,true,false,false,none,false,false,false,false,false,false⟩,⟨none,true,false,false,none,false,false,false,false,false,false⟩],[⟨some .internalNl,true,false,false,none,false,false,false,false,false,false⟩,⟨none,true,false,false,none,false,false,false,false,false,false⟩],[⟨none,true,false,false,none,false,false,false,false,false,false⟩],[⟨none,false,false,false,none,false,false,false,false,false,false⟩],[⟨none,true,false,false,none,false,false,false,false,false,false⟩],[⟨none,true,false,false,none,false,false,false,false,false,false⟩],[⟨none,true,false,false,none,false,false,false,false,false,false⟩],[⟨none,true,false,false,none,false,false,false,false,false,false⟩],[],[⟨none,true,false,false,none,false,false,false,false,false,false⟩],[⟨none,true,false,false,none,false,false,false,false,false,false⟩],[⟨none,true,false,false,none,false,false,false,false,false,false⟩,⟨some .internalNl,true,false,false,none,false,false,false,false,false,false⟩],[⟨none,false,true,false,none,false,false,false,false,false,false⟩,⟨some .internalNl,false,true,false,none,false,false,false,false,false,false⟩],[⟨none,true,false,false,none,false,false,false,false,false,false⟩,⟨some .internalNl,true,false,false,none,false,false,false,false,false,false⟩],[⟨none,true,false,false,none,false,false,false,false,false,false⟩,⟨some .internalNl,true,false,false,none,false,false,false,false,false,false⟩],[⟨none,true,false,false,none,false,false,false,false,false,false⟩,⟨some .internalNl,true,false,false,none,false,false,false,false,false,false⟩],[⟨none,true,false,false,none,false,false,false,false,false,false⟩,⟨some .internalNl,true,false,false,none,false,false,false,false,false,false⟩],[],[⟨none,false,false,false,none,false,false,false,false,false,false⟩],[⟨none,true,false,false,none,false,false,false,false,false,false⟩,⟨some .internalNl,true,false,false,none,false,false,false,false,false,false⟩],[⟨none,true,false,false,none,false,false,false,false,false,false⟩,⟨some .internalNl,true,false,false,none,false,false,false,false,false,false⟩],[⟨none,true,false,false,none,false,false,false,false,false,false⟩,⟨some .internalNl,true,false,false,none,false,false,false,false,false,false⟩],[⟨none,false,true,false,none,false,false,false,false,false,false⟩,⟨some .internalNl,false,true,false,none,false,false,false,false,false,false⟩],[],[⟨none,true,false,false,none,false,false,false,false,false,false⟩,⟨some .internalNl,true,false,false,none,false,false,false,false,false,false⟩],[⟨none,true,false,false,none,false,false,false,false,false,false⟩,⟨some .internalNl,true,false,false,none,false,false,false,false,false,false⟩],[⟨none,true,false,false,none,false,false,false,false,false,false⟩],[⟨none,false,false,false,none,false,false,false,false,false,false⟩],[⟨none,true,false,false,none,false,false,false,false,false,false⟩],[⟨none,true,false,false,none,false,false,false,false,false,false⟩],[⟨none,true,false,false,none,false,false,false,false,false,false⟩],[⟨none,true,false,false,none,false,false,false,false,false,false⟩],[],[⟨none,true,false,false,none,false,false,false,false,false,false⟩],[⟨none,true,false,false,none,false,false,false,false,false,false⟩]]
theorem rhtml_w2_closed : closed emb27_rows rhtml_w2_tab (XA.init rhtml_wopt) (XA.succ rhtml_M rhtml_wopt 2) (XA.eofOk rhtml_M rhtml_wopt 2) = true := by
  decide +kernel
def rhtml_w2 : XCert rhtml_M rhtml_wopt 2 := ⟨emb27_D, rhtml_w2_tab, rhtml_w2_closed⟩
theorem rhtml_solid : ∀ m ∈ rhtml_wopt.use, Nonempty (XCert rhtml_M rhtml_wopt m) :=
  (List.forall_mem_cons.mpr ⟨⟨rhtml_w6⟩,
  (List.forall_mem_cons.mpr ⟨⟨rhtml_w3⟩,
  (List.forall_mem_cons.mpr ⟨⟨rhtml_w4⟩,
  (List.forall_mem_cons.mpr ⟨⟨rhtml_w5⟩,
  (List.forall_mem_cons.mpr ⟨⟨rhtml_w0⟩,
  (List.forall_mem_cons.mpr ⟨⟨rhtml_w1⟩,
  (List.forall_mem_cons.mpr ⟨⟨rhtml_w2⟩,
  (fun _ h => nomatch h)⟩)⟩)⟩)⟩)⟩)⟩)⟩)

def vbAspx_wopt : WOpt := ⟨false, false, [6, 3, 4, 5, 0, 1, 2]⟩
def vbAspx_w6_tab : List (List XA) := [[⟨none,false,false,false,none,false,false,false,false,false,false⟩],[⟨some (.own 0),false,false,false,some 3,false,false,false,false,false,false⟩],[⟨some .newline,true,false,false,none,false,false,false,false,false,false⟩],[⟨some .newline,true,false,true,some 7,false,false,false,false,false,false⟩],[⟨some (.own 5),true,false,true,some 8,false,false,false,false,false,false⟩],[⟨some (.own 5),true,false,true,some 8,false,false,false,false,false,false⟩],[⟨some (.own 5),true,false,true,some 8,false,false,false,false,false,false⟩],[⟨some (.own 5),true,false,true,some 8,false,false,false,false,false,false⟩],[⟨some (.own 5),true,false,true,some 8,false,false,false,false,false,false⟩],[⟨some (.own 5),true,false,true,some 8,false,false,false,false,false,false⟩],[⟨some (.own 5),true,false,true,some 8,false,false,false,false,false,false⟩],[⟨some (.own 5),true,false,true,some 8,false,false,false,false,false,false⟩],[⟨some (.own 5),true,false,true,some 8,false,false,false,false,false,false⟩],[⟨some (.own 5),true,false,true,some 8,false,false,false,false,false,false⟩],[⟨some (.own 5),true,false,true,some 8,false,false,false,false,false,false⟩],[⟨some (.own 5),true,false,true,some 8,false,false,false,false,false,false⟩],[⟨some (.own 5),true,false,true,some 8,false,false,false,false,false,false⟩],[⟨some (.own 5),true,false,true,some 8,false,false,false,false,false,false⟩,⟨some (.own 5),false,true,true,some 8,false,false,false,false,false,false⟩,⟨some (.own 5),false,false,true,some 8,false,false,false,false,false,false⟩],[⟨some (.own 5),true,false,true,some 8,false,false,false,false,false,false⟩,⟨some (.own 5),false,true,true,some 8,false,false,false,false,false,false⟩,⟨some (.own 5),false,false,true,some 8,false,false,false,false,false,false⟩],[⟨some (.own 5),true,false,true,some 8,false,false,false,false,false,false⟩],[⟨some (.own 5),true,false,true,some 8,false,false,false,false,false,false⟩],[⟨some (.own 5),true,false,true,some 8,false,false,false,false,false,false⟩],[⟨some (.own 5),true,false,true,some 8,false,false,false,false,false,false⟩],[⟨some (.own 5),true,false,true,some 8,false,false,false,false,false,false⟩],[⟨some (.own 5),true,false,true,some 8,false,false,false,false,false,false⟩],[⟨some (.own 5),true,false,true,some 8,false,false,false,false,false,false⟩],[⟨some (.own 5),true,false,true,some 8,false,false,false,false,false,false⟩],[⟨some (.own 5),true,false,true,some 8,false,false,false,false,false,false⟩],[⟨some (.own 5),true,false,true,some 8,false,false,false,false,false,false⟩],[⟨some (.own 5),true,false,true,some 8,false,false,false,false,false,false⟩],[⟨some (.own 5),true,false,true,some 8,false,false,false,false,false,false⟩],[⟨some (.own 5),true,false,true,some 8,false,false,false,false,false,false⟩],[⟨some (.own 5),true,false,true,some 8,false,false,false,false,false,false⟩],[⟨some (.own 5),true,false,true,some 8,false,false,false,false,false,false⟩],[⟨some (.own 5),true,false,true,some 8,false,false,false,false,false,false⟩],[⟨some (.own 5),true,false,true,some 8,false,false,false,false,false,false⟩],[⟨some (.own 5),true,false,true,some 8,false,false,false,false,false,false⟩],[⟨some (.own 5),true,false,true,some 8,false,false,false,false,false,false⟩],[⟨some (.own 5),true,false,true,some 8,false,false,false,false,false,false⟩,⟨some (.own 5),false,true,true,some 8,false,false,false,false,false,false⟩,⟨some (.own 5),false,false,true,some 8,false,false,false,false,false,false⟩],[⟨some (.own 5),true,false,true,some 8,false,false,false,false,false,false⟩],[⟨some (.own 5),true,false,true,some 8,false,false,false,false,false,false⟩],[⟨some (.own 5),true,false,true,some 8,false,false,false,false,false,false⟩],[⟨some (.own 5),true,false,true,some 8,false,false,false,false,false,false⟩],[⟨some (.own 5),true,false,true,some 8,false,false,false,false,false,false⟩],[⟨some (.own 5),true,false,true,some 8,false,false,false,false,false,false⟩,⟨some (.own 5),false,true,true,some 8,false,false,false,false,false,false⟩,⟨some (.own 5),false,false,true,some 8,false,false,false,false,false,false⟩],[⟨some (.own 5),true,false,true,some 8,false,false,false,false,false,false⟩],[⟨some (.own 5),true,false,true,some 8,false,false,false,false,false,false⟩],[⟨some (.own 5),true,false,true,some 8,false,false,false,false,false,false⟩],[⟨some (.own 5),true,false,true,some 8,false,false,false,false,false,false⟩],[⟨some (.own 5),true,false,true,some 8,false,false,false,false,false,false⟩],[⟨some (.own 5),true,false,true,some 8,false,false,false,false,false,false⟩],[⟨some (.own 5),true,false,true,some 8,false,false,false,false,false,false⟩],[⟨some (.own 5),true,false,true,some 8,false,false,false,false,false,false⟩],[⟨some (.own 5),true,false,true,some 8,false,false,false,false,false,false⟩],[⟨some (.own 5),true,false,true,some 8,false,false,false,false,false,false⟩],[⟨some (.own 5),true,false,true,some 8,false,false,false,false,false,false⟩],[⟨some (.own 5),true,false,true,some 8,false,false,false,false,false,false⟩],[⟨some (.own 5),true,false,true,some 8,false,false,false,false,false,false⟩],[⟨some (.own 5),true,false,true,some 8,false,false,false,false,false,false⟩],[⟨some (.own 5),true,false,true,some 8,false,false,false,false,false,false⟩],[⟨some (.own 5),true,false,true,some 8,false,false,false,false,false,false⟩,⟨some (.own 5),false,true,true,some 8,false,false,false,false,false,false⟩,⟨some (.own 5),false,false,true,some 8,false,false,false,false,false,false⟩],[⟨some (.own 5),true,false,true,some 8,false,false,false,false,false,false⟩],[⟨some (.own 5),true,false,true,some 8,false,false,false,false,false,false⟩],[⟨some (.own 5),true,false,true,some 8,false,false,false,false,false,false⟩],[⟨some (.own 5),true,false,true,some 8,false,false,false,false,false,false⟩],[⟨some (.own 5),true,false,true,some 8,false,false,false,false,false,false⟩],[⟨some (.own 5),true,false,true,some 8,false,false,false,false,false,false⟩],[⟨some (.own 5),true,false,true,some 8,false,false,false,false,false,false⟩],[⟨some (.own 5),true,false,true,some 8,false,false,false,false,false,false⟩],[⟨some (.own 5),true,false,true,some 8,false,false,false,false,false,false⟩],[⟨some (.own 5),true,false,true,some 8,false,false,false,false,false,false⟩],[⟨some (.own 5),true,false,true,some 8,false,false,false,false,false,false⟩],[⟨some (.own 5),true,false,true,some 8,false,false,false,false,false,false⟩,⟨some (.own 5),false,true,true,some 8,false,false,false,false,false,false⟩,⟨some (.own 5),false,false,true,some 8,false,false,false,false,false,false⟩]]
theorem vbAspx_w6_closed : closed emb47_rows vbAspx_w6_tab (XA.init vbAspx_wopt) (XA.succ vbAspx_M vbAspx_wopt 6) (XA.eofOk vbAspx_M vbAspx_wopt 6) = true := by
  decide +kernel
def vbAspx_w6 : XCert vbAspx_M vbAspx_wopt 6 := ⟨emb47_D, vbAspx_w6_tab, vbAspx_w6_closed⟩
def vbAspx_w3_tab : List (List XA) := [[⟨none,false,false,false,none,false,false,false,false,false,false⟩],[⟨some (.own 0),false,false,false,some 1,false,false,false,false,false,false⟩],[⟨some .newline,true,false,false,none,false,false,false,false,false,false⟩],[⟨some .newline,true,false,true,some 4,false,false,false,false,false,false⟩],[⟨some (.own 9),true,false,true,some 5,false,false,false,false,false,false⟩],[⟨some (.own 9),true,false,true,some 5,false,false,false,false,false,false⟩],[⟨some (.own 9),true,false,true,some 5,false,false,false,false,false,false⟩],[⟨some (.own 9),true,false,true,some 5,false,false,false,false,false,false⟩],[⟨some (.own 9),true,false,true,some 5,false,false,false,false,false,false⟩,⟨some .internalNl,true,false,true,some 5,false,false,false,false,false,false⟩],[⟨some (.own 9),false,true,true,some 5,false,false,false,false,false,false⟩,⟨some (.own 9),false,false,true,some 5,false,false,false,false,false,false⟩,⟨some .internalNl,false,true,true,some 5,false,false,false,false,false,false⟩,⟨some .internalNl,false,false,true,some 5,false,false,false,false,false,false⟩],[⟨some (.own 9),true,false,true,some 5,false,false,false,false,false,false⟩,⟨some .internalNl,true,false,true,some 5,false,false,false,false,false,false⟩],[⟨some (.own 9),true,false,true,some 5,false,false,false,false,false,false⟩,⟨some .internalNl,true,false,true,some 5,false,false,false,false,false,false⟩],[⟨some (.own 9),true,false,true,some 5,false,false,false,false,false,false⟩,⟨some .internalNl,true,false,true,some 5,false,false,false,false,false,false⟩],[⟨some (.own 9),true,false,true,some 5,false,false,false,false,false,false⟩,⟨some .internalNl,true,false,true,some 5,false,false,false,false,false,false⟩],[⟨some (.own 9),true,false,true,some 5,false,false,false,false,false,false⟩,⟨some .internalNl,true,false,true,some 5,false,false,false,false,false,false⟩],[⟨some (.own 9),true,false,true,some 5,false,false,false,false,false,false⟩,⟨some .internalNl,true,false,true,some 5,false,false,false,false,false,false⟩],[⟨some (.own 9),false,true,true,some 5,false,false,false,false,false,false⟩,⟨some (.own 9),false,false,true,some 5,false,false,false,false,false,false⟩,⟨some .internalNl,false,true,true,some 5,false,false,false,false,false,false⟩,⟨some .internalNl,false,false,true,some 5,false,false,false,false,false,false⟩],[⟨some (.own 9),true,false,true,some 5,false,false,false,false,false,false⟩,⟨some .internalNl,true,false,true,some 5,false,false,false,false,false,false⟩],[⟨some (.own 9),true,false,true,some 5,false,false,false,false,false,false⟩,⟨some .internalNl,true,false,true,some 5,false,false,false,false,false,false⟩],[⟨some (.own 9),true,false,true,some 5,false,false,false,false,false,false⟩,⟨some .internalNl,true,false,true,some 5,false,false,false,false,false,false⟩],[⟨some (.own 9),true,false,true,some 5,false,false,false,false,false,false⟩,⟨some .internalNl,true,false,true,some 5,false,false,false,false,false,false⟩],[⟨some (.own 9),true,false,true,some 5,false,false,false,false,false,false⟩,⟨some .internalNl,true,false,true,some 5,false,false,false,false,false,false⟩],[⟨some (.own 9),true,false,true,some 5,false,false,false,false,false,false⟩],[⟨some (.own 9),true,false,true,some 5,false,false,false,false,false,false⟩],[⟨some .internalNl,true,false,true,some 5,false,false,false,false,false,false⟩,⟨some (.own 9),true,false,true,some 5,false,false,false,false,false,false⟩],[⟨some .internalNl,true,false,true,some 5,false,false,false,false,false,false⟩],[⟨some (.own 9),true,false,true,some 5,false,false,false,false,false,false⟩,⟨some (.own 9),false,true,true,some 5,false,false,false,false,false,false⟩,⟨some .internalNl,true,false,true,some 5,false,false,false,false,false,false⟩,⟨some .internalNl,false,true,true,some 5,false,false,false,false,false,false⟩],[⟨some .internalNl,true,false,true,some 5,false,false,false,false,false,false⟩,⟨some (.own 9),true,false,true,some 5,false,false,false,false,false,false⟩],[⟨some .internalNl,true,false,true,some 5,false,false,false,false,false,false⟩],[⟨some (.own 9),true,false,true,some 5,false,false,false,false,false,false⟩,⟨some (.own 9),false,true,true,some 5,false,false,false,false,false,false⟩,⟨some .internalNl,true,false,true,some 5,false,false,false,false,false,false⟩,⟨some .internalNl,false,true,true,some 5,false,false,false,false,false,false⟩],[⟨some (.own 9),true,false,true,some 5,false,false,false,false,false,false⟩,⟨some .internalNl,true,false,true,some 5,false,false,false,false,false,false⟩],[⟨some (.own 9),false,true,true,some 5,false,false,false,false,false,false⟩,⟨some .internalNl,false,true,true,some 5,false,false,false,false,false,false⟩,⟨some .internalNl,false,false,true,some 5,false,false,false,false,false,false⟩,⟨some (.own 9),false,false,true,some 5,false,false,false,false,false,false⟩],[⟨some (.own 9),true,false,true,some 5,false,false,false,false,false,false⟩,⟨some .internalNl,true,false,true,some 5,false,false,false,false,false,false⟩],[⟨some (.own 9),true,false,true,some 5,false,false,false,false,false,false⟩,⟨some .internalNl,true,false,true,some 5,false,false,false,false,false,false⟩],[⟨some (.own 9),true,false,true,some 5,false,false,false,false,false,false⟩,⟨some .internalNl,true,false,true,some 5,false,false,false,false,false,false⟩],[⟨some (.own 9),true,false,true,some 5,false,false,false,false,false,false⟩,⟨some .internalNl,true,false,true,some 5,false,false,false,false,false,false⟩],[⟨some (.own 9),true,false,true,some 5,false,false,false,false,false,false⟩,⟨some .internalNl,true,false,true,some 5,false,false,false,false,false,false⟩],[⟨some (.own 9),true,false,true,some 5,false,false,false,false,false,false⟩],[⟨some .internalNl,true,false,true,some 5,false,false,false,false,false,false⟩,⟨some (.own 9),true,false,true,some 5,false,false,false,false,false,false⟩],[⟨some .internalNl,true,false,true,some 5,false,false,false,false,false,false⟩],[⟨some (.own 9),true,false,true,some 5,false,false,false,false,false,false⟩],[⟨some (.own 9),true,false,true,some 5,false,false,false,false,false,false⟩],[⟨some (.own 9),true,false,true,some 5,false,false,false,false,false,false⟩],[⟨some (.own 9),true,false,true,some 5,false,false,false,false,false,false⟩],[⟨some (.own 9),false,true,true,some 5,false,false,false,false,false,false⟩,⟨some .internalNl,false,true,true,some 5,false,false,false,false,false,false⟩,⟨some .internalNl,false,false,true,some 5,false,false,false,false,false,false⟩,⟨some (.own 9),false,false,true,some 5,false,false,false,false,false,false⟩],[⟨some .internalNl,true,false,true,some 5,false,false,false,false,false,false⟩],[⟨some .internalNl,true,false,true,some 5,false,false,false,false,false,false⟩],[⟨some (.own 9),true,false,true,some 5,false,false,false,false,false,false⟩,⟨some .internalNl,true,false,true,some 5,false,false,false,false,false,false⟩],[⟨some .internalNl,true,false,true,some 5,false,false,false,false,false,false⟩],[⟨some .internalNl,true,false,true,some 5,false,false,false,false,false,false⟩],[⟨some .internalNl,true,false,true,some 5,false,false,false,false,false,false⟩]]
theorem vbAspx_w3_closed : closed emb0_rows vbAspx_w3_tab (XA.init vbAspx_wopt) (XA.succ vbAspx_M vbAspx_wopt 3) (XA.eofOk vbAspx_M vbAspx_wopt 3) = true := by
  decide +kernel
def vbAspx_w3 : XCert vbAspx_M vbAspx_wopt 3 := ⟨emb0_D, vbAspx_w3_tab, vbAspx_w3_closed⟩
def vbAspx_w4_tab : List (List XA) := [[⟨none,false,false,false,none,false,false,false,false,false,false⟩],[⟨some (.own 0),false,false,false,some 1,false,false,false,false,false,false⟩],[⟨some .newline,true,false,false,none,false,false,false,false,false,false⟩],[⟨some .newline,true,false,true,some 4,false,false,false,false,false,false⟩],[⟨some (.own 7),true,false,true,some 5,false,false,false,false,false,false⟩],[⟨some (.own 7),true,false,true,some 5,false,false,false,false,false,false⟩],[⟨some (.own 7),true,false,true,some 5,false,false,false,false,false,false⟩],[⟨some (.own 7),true,false,true,some 5,false,false,false,false,false,false⟩],[⟨some (.own 7),true,false,true,some 5,false,false,false,false,false,false⟩,⟨some .internalNl,true,false,true,some 5,false,false,false,false,false,false⟩],[⟨some (.own 7),false,true,true,some 5,false,false,false,false,false,false⟩,⟨some .internalNl,false,true,true,some 5,false,false,false,false,false,false⟩,⟨some .internalNl,false,false,true,some 5,false,false,false,false,false,false⟩,⟨some (.own 7),false,false,true,some 5,false,false,false,false,false,false⟩],[⟨some (.own 7),true,false,true,some 5,false,false,false,false,false,false⟩,⟨some .internalNl,true,false,true,some 5,false,false,false,false,false,false⟩],[⟨some (.own 7),true,false,true,some 5,false,false,false,false,false,false⟩,⟨some .internalNl,true,false,true,some 5,false,false,false,false,false,false⟩],[⟨some (.own 7),false,true,true,some 5,false,false,false,false,false,false⟩,⟨some .internalNl,false,true,true,some 5,false,false,false,false,false,false⟩,⟨some .internalNl,false,false,true,some 5,false,false,false,false,false,false⟩,⟨some (.own 7),false,false,true,some 5,false,false,false,false,false,false⟩],[⟨some (.own 7),true,false,true,some 5,false,false,false,false,false,false⟩,⟨some .internalNl,true,false,true,some 5,false,false,false,false,false,false⟩],[⟨some (.own 7),true,false,true,some 5,false,false,false,false,false,false⟩,⟨some (.own 7),false,true,true,some 5,false,false,false,false,false,false⟩],[⟨some (.own 7),true,false,true,some 5,false,false,false,false,false,false⟩],[⟨some (.own 7),true,false,true,some 2,false,false,false,false,false,false⟩],[⟨some (.own 7),true,false,true,some 5,false,false,false,false,false,false⟩],[⟨some (.own 7),true,false,true,some 5,false,false,false,false,false,false⟩,⟨some (.own 7),false,true,true,some 5,false,false,false,false,false,false⟩,⟨some .internalNl,true,false,true,some 5,false,false,false,false,false,false⟩,⟨some .internalNl,false,true,true,some 5,false,false,false,false,false,false⟩],[⟨some (.own 7),true,false,true,some 5,false,false,false,false,false,false⟩,⟨some .internalNl,true,false,true,some 5,false,false,false,false,false,false⟩],[⟨some (.own 7),true,false,true,some 5,false,false,false,false,false,false⟩,⟨some .internalNl,true,false,true,some 5,false,false,false,false,false,false⟩],[⟨some (.own 7),true,false,true,some 5,false,false,false,false,false,false⟩,⟨some .internalNl,true,false,true,some 5,false,false,false,false,false,false⟩],[⟨some (.own 7),true,false,true,some 5,false,false,false,false,false,false⟩,⟨some .internalNl,true,false,true,some 5,false,false,false,false,false,false⟩],[⟨some (.own 7),true,false,true,some 5,false,false,false,false,false,false⟩,⟨some (.own 7),false,true,true,some 5,false,false,false,false,false,false⟩,⟨some .internalNl,true,false,true,some 5,false,false,false,false,false,false⟩,⟨some .internalNl,false,true,true,some 5,false,false,false,false,false,false⟩],[⟨some (.own 7),true,false,true,some 5,false,false,false,false,false,false⟩,⟨some .internalNl,true,false,true,some 5,false,false,false,false,false,false⟩],[⟨some (.own 7),true,false,true,some 5,false,false,false,false,false,false⟩,⟨some .internalNl,true,false,true,some 5,false,false,false,false,false,false⟩],[⟨some (.own 7),true,false,true,some 5,false,false,false,false,false,false⟩,⟨some .internalNl,true,false,true,some 5,false,false,false,false,false,false⟩],[⟨some (.own 7),true,false,true,some 5,false,false,false,false,false,false⟩,⟨some .internalNl,true,false,true,some 5,false,false,false,false,false,false⟩],[⟨some (.own 7),true,false,true,some 5,false,false,false,false,false,false⟩,⟨some (.own 7),false,false,true,some 5,false,false,false,false,false,false⟩,⟨some (.own 7),false,true,true,some 5,false,false,false,false,false,false⟩],[⟨some (.own 7),true,false,true,some 5,false,false,false,false,false,false⟩],[⟨some (.own 7),true,false,true,some 5,false,false,false,false,false,false⟩,⟨some .internalNl,true,false,true,some 5,false,false,false,false,false,false⟩],[⟨some (.own 7),false,true,true,some 5,false,false,false,false,false,false⟩,⟨some .internalNl,false,true,true,some 5,false,false,false,false,false,false⟩,⟨some .internalNl,false,false,true,some 5,false,false,false,false,false,false⟩,⟨some (.own 7),false,false,true,some 5,false,false,false,false,false,false⟩],[⟨some (.own 7),true,false,true,some 5,false,false,false,false,false,false⟩,⟨some .internalNl,true,false,true,some 5,false,false,false,false,false,false⟩],[⟨some (.own 7),true,false,true,some 5,false,false,false,false,false,false⟩,⟨some .internalNl,true,false,true,some 5,false,false,false,false,false,false⟩],[⟨some (.own 7),true,false,true,some 5,false,false,false,false,false,false⟩,⟨some .internalNl,true,false,true,some 5,false,false,false,false,false,false⟩],[⟨some (.own 7),true,false,true,some 5,false,false,false,false,false,false⟩,⟨some .internalNl,true,false,true,some 5,false,false,false,false,false,false⟩],[⟨some (.own 7),true,false,true,some 5,false,false,false,false,false,false⟩,⟨some .internalNl,true,false,true,some 5,false,false,false,false,false,false⟩],[⟨some (.own 7),true,false,true,some 2,false,false,false,false,false,false⟩,⟨some (.own 7),false,true,false,some 2,false,false,false,false,false,false⟩,⟨some (.own 7),false,false,false,some 2,false,false,false,false,false,false⟩],[⟨some (.own 7),true,false,true,some 5,false,false,false,false,false,false⟩],[⟨some .internalNl,true,false,true,some 5,false,false,false,false,false,false⟩,⟨some (.own 7),true,false,true,some 5,false,false,false,false,false,false⟩],[⟨some .internalNl,true,false,true,some 5,false,false,false,false,false,false⟩],[⟨some .internalNl,true,false,true,some 5,false,false,false,false,false,false⟩,⟨some (.own 7),true,false,true,some 5,false,false,false,false,false,false⟩],[⟨some .internalNl,true,false,true,some 5,false,false,false,false,false,false⟩],[⟨some (.own 7),true,false,true,some 5,false,false,false,false,false,false⟩,⟨some (.own 7),false,true,true,some 5,false,false,false,false,false,false⟩],[⟨some .internalNl,true,false,true,some 5,false,false,false,false,false,false⟩,⟨some (.own 7),true,false,true,some 5,false,false,false,false,false,false⟩],[⟨some .internalNl,true,false,true,some 5,false,false,false,false,false,false⟩],[⟨some (.own 7),true,false,true,some 5,false,false,false,false,false,false⟩],[⟨some (.own 7),true,false,true,some 5,false,false,false,false,false,false⟩],[⟨some (.own 7),true,false,true,some 5,false,false,false,false,false,false⟩],[⟨some (.own 7),true,false,true,some 5,false,false,false,false,false,false⟩],[⟨some (.own 7),true,false,true,some 5,false,false,false,false,false,false⟩],[⟨some (.own 7),false,true,true,some 5,false,false,false,false,false,false⟩,⟨some .internalNl,false,true,true,some 5,false,false,false,false,false,false⟩,⟨some .internalNl,false,false,true,some 5,false,false,false,false,false,false⟩,⟨some (.own 7),false,false,true,some 5,false,false,false,false,false,false⟩],[⟨some .internalNl,true,false,true,some 5,false,false,false,false,false,false⟩],[⟨some .internalNl,true,false,true,some 5,false,false,false,false,false,false⟩],[⟨some (.own 7),true,false,true,some 5,false,false,false,false,false,false⟩,⟨some .internalNl,true,false,true,some 5,false,false,false,false,false,false⟩],[⟨some .internalNl,true,false,true,some 5,false,false,false,false,false,false⟩],[⟨some .internalNl,true,false,true,some 5,false,false,false,false,false,false⟩],[⟨some .internalNl,true,false,true,some 5,false,false,false,false,false,false⟩]]
theorem vbAspx_w4_closed : closed emb1_rows vbAspx_w4_tab (XA.init vbAspx_wopt) (XA.succ vbAspx_M vbAspx_wopt 4) (XA.eofOk vbAspx_M vbAspx_wopt 4) = true := by
  decide +kernel
def vbAspx_w4 : XCert vbAspx_M vbAspx_wopt 4 := ⟨emb1_D, vbAspx_w4_tab, vbAspx_w4_closed⟩
def vbAspx_w5_tab : List (List XA) := [[⟨none,false,false,false,none,false,false,false,false,false,false⟩],[⟨some (.own 0),false,false,false,some 1,false,false,false,false,false,false⟩],[⟨some .newline,true,false,false,none,false,false,false,false,false,false⟩],[⟨some .newline,true,false,true,some 4,false,false,false,false,false,false⟩],[⟨some (.own 3),true,false,true,some 5,false,false,false,false,false,false⟩],[⟨some (.own 3),true,false,true,some 5,false,false,false,false,false,false⟩],[⟨some (.own 3),true,false,true,some 2,false,false,false,false,false,false⟩],[⟨some (.own 3),true,false,true,some 5,false,false,false,false,false,false⟩],[⟨some (.own 3),true,false,true,some 5,false,false,false,false,false,false⟩],[⟨some (.own 3),true,false,true,some 5,false,false,false,false,false,false⟩,⟨some (.own 3),false,true,true,some 5,false,false,false,false,false,false⟩,⟨some (.own 3),false,false,true,some 5,false,false,false,false,false,false⟩],[⟨some (.own 3),true,false,true,some 5,false,false,false,false,false,false⟩],[⟨some (.own 3),true,false,true,some 2,false,false,false,false,false,false⟩,⟨some (.own 3),false,true,false,some 2,false,false,false,false,false,false⟩,⟨some (.own 3),false,false,false,some 2,false,false,false,false,false,false⟩],[⟨some (.own 3),true,false,true,some 5,false,false,false,false,false,false⟩],[⟨some (.own 3),true,false,true,some 5,false,false,false,false,false,false⟩],[⟨some (.own 3),true,false,true,some 5,false,false,false,false,false,false⟩,⟨some (.own 3),false,true,true,some 5,false,false,false,false,false,false⟩],[⟨some (.own 3),true,false,true,some 5,false,false,false,false,false,false⟩],[⟨some (.own 3),true,false,true,some 2,false,false,false,false,false,false⟩],[⟨some (.own 3),true,false,true,some 5,false,false,false,false,false,false⟩],[⟨some (.own 3),true,false,true,some 5,false,false,false,false,false,false⟩],[⟨some (.own 3),true,false,true,some 5,false,false,false,false,false,false⟩],[⟨some (.own 3),true,false,true,some 5,false,false,false,false,false,false⟩],[⟨some (.own 3),true,false,true,some 5,false,false,false,false,false,false⟩],[⟨some (.own 3),false,true,true,some 5,false,false,false,false,false,false⟩,⟨some .internalNl,false,true,true,some 5,false,false,false,false,false,false⟩,⟨some .internalNl,false,false,true,some 5,false,false,false,false,false,false⟩,⟨some (.own 3),false,false,true,some 5,false,false,false,false,false,false⟩],[⟨some .internalNl,true,false,true,some 5,false,false,false,false,false,false⟩],[⟨some .internalNl,true,false,true,some 5,false,false,false,false,false,false⟩],[⟨some (.own 3),true,false,true,some 5,false,false,false,false,false,false⟩,⟨some .internalNl,true,false,true,some 5,false,false,false,false,false,false⟩],[⟨some .internalNl,true,false,true,some 5,false,false,false,false,false,false⟩],[⟨some .internalNl,true,false,true,some 5,false,false,false,false,false,false⟩],[⟨some .internalNl,true,false,true,some 5,false,false,false,false,false,false⟩]]
theorem vbAspx_w5_closed : closed emb52_rows vbAspx_w5_tab (XA.init vbAspx_wopt) (XA.succ vbAspx_M vbAspx_wopt 5) (XA.eofOk vbAspx_M vbAspx_wopt 5) = true := by
  decide +kernel
def vbAspx_w5 : XCert vbAspx_M vbAspx_wopt 5 := ⟨emb52_D, vbAspx_w5_tab, vbAspx_w5_closed⟩
def vbAspx_w0_tab : List (List XA) := [[⟨none,false,false,false,none,false,false,false,false,false,false⟩],[⟨none,true,false,false,none,false,false,false,false,false,false⟩,⟨some .internalNl,true,false,false,none,false,false,false,false,false,false⟩],[⟨none,false,false,false,none,false,false,false,false,false,false⟩,⟨some .internalNl,false,true,false,none,false,false,false,false,false,false⟩,⟨some .internalNl,false,false,false,none,false,false,false,false,false,false⟩,⟨none,false,true,false,none,false,false,false,false,false,false⟩],[⟨none,true,false,false,none,false,false,false,false,false,false⟩,⟨some .internalNl,true,false,false,none,false,false,false,false,false,false⟩],[⟨none,true,false,false,none,false,false,false,false,false,false⟩,⟨some .internalNl,true,false,false,none,false,false,false,false,false,false⟩],[⟨none,true,false,false,none,false,false,false,false,false,false⟩,⟨some .internalNl,true,false,false,none,false,false,false,false,false,false⟩],[⟨none,true,false,false,none,false,false,false,false,false,false⟩,⟨some .internalNl,true,false,false,none,false,false,false,false,false,false⟩],[⟨none,true,false,false,none,false,false,false,false,false,false⟩,⟨some .internalNl,true,false,false,none,false,false,false,false,false,false⟩],[⟨none,true,false,false,none,false,false,false,false,false,false⟩,⟨some .internalNl,true,false,false,none,false,false,false,false,false,false⟩],[⟨some .internalNl,true,false,false,none,false,false,false,false,false,false⟩,⟨none,true,false,false,none,false,false,false,false,false,false⟩],[⟨some .internalNl,true,false,false,none,false,false,false,false,false,false⟩],[⟨none,true,false,false,none,false,false,false,false,false,false⟩,⟨some .internalNl,true,false,false,none,false,false,false,false,false,false⟩],[⟨none,true,false,false,none,false,false,false,false,false,false⟩,⟨some .internalNl,true,false,false,none,false,false,false,false,false,false⟩],[⟨none,false,true,false,none,false,false,false,false,false,false⟩,⟨some .internalNl,false,true,false,none,false,false,false,false,false,false⟩],[⟨none,true,false,false,none,false,false,false,false,false,false⟩,⟨some .internalNl,true,false,false,none,false,false,false,false,false,false⟩],[⟨none,true,false,false,none,false,false,false,false,false,false⟩,⟨some .internalNl,true,false,false,none,false,false,false,false,false,false⟩],[⟨none,true,false,false,none,false,false,false,false,false,false⟩,⟨some .internalNl,true,false,false,none,false,false,false,false,false,false⟩],[⟨none,true,false,false,none,false,false,false,false,false,false⟩,⟨some .internalNl,true,false,false,none,false,false,false,false,false,false⟩],[⟨none,true,false,false,none,false,false,false,false,false,false⟩,⟨some .internalNl,true,false,false,none,false,false,false,false,false,false⟩],[⟨none,false,false,false,none,false,false,false,false,false,false⟩],[⟨none,true,false,false,none,false,false,false,false,false,false⟩,⟨some .internalNl,true,false,false,none,false,false,false,false,false,false⟩],[⟨none,true,false,false,none,false,false,false,false,false,false⟩,⟨some .internalNl,true,false,false,none,false,false,false,false,false,false⟩],[⟨none,true,false,false,none,false,false,false,false,false,false⟩,⟨some .internalNl,true,false,false,none,false,false,false,false,false,false⟩],[⟨none,false,true,false,none,false,false,false,false,false,false⟩,⟨some .internalNl,false,true,false,none,false,false,false,false,false,false⟩,⟨some .internalNl,false,false,false,none,false,false,false,false,false,false⟩,⟨none,false,false,false,none,false,false,false,false,false,false⟩],[⟨none,true,false,false,none,false,false,false,false,false,false⟩,⟨some .internalNl,true,false,false,none,false,false,false,false,false,false⟩],[⟨none,true,false,false,none,false,false,false,false,false,false⟩,⟨some .internalNl,true,false,false,none,false,false,false,false,false,false⟩],[⟨none,true,false,false,none,false,false,false,false,false,false⟩,⟨some .internalNl,true,false,false,none,false,false,false,false,false,false⟩],[⟨none,true,false,false,none,false,false,false,false,false,false⟩,⟨some .internalNl,true,false,false,none,false,false,false,false,false,false⟩],[⟨none,true,false,false,none,false,false,false,false,false,false⟩,⟨some .internalNl,true,false,false,none,false,false,false,false,false,false⟩],[⟨some .internalNl,true,false,false,none,false,false,false,false,false,false⟩,⟨none,true,false,false,none,false,false,false,false,false,false⟩],[⟨none,true,false,false,none,false,false,false,false,false,false⟩,⟨some .internalNl,true,false,false,none,false,false,false,false,false,false⟩],[⟨some .internalNl,true,false,false,none,false,false,false,false,false,false⟩,⟨none,true,false,false,none,false,false,false,false,false,false⟩],[⟨none,true,false,false,none,false,false,false,false,false,false⟩],[⟨none,false,false,false,none,false,false,false,false,false,false⟩],[⟨none,true,false,false,none,false,false,false,false,false,false⟩],[⟨none,true,false,false,none,false,false,false,false,false,false⟩],[⟨none,true,false,false,none,false,false,false,false,false,false⟩],[⟨none,true,false,false,none,false,false,false,false,false,false⟩],[⟨none,true,false,false,none,false,false,false,false,false,false⟩],[⟨none,true,false,false,none,false,false,false,false,false,false⟩],[⟨none,true,false,false,none,false,false,false,false,false,false⟩],[⟨none,true,false,false,none,false,false,false,false,false,false⟩,⟨some .internalNl,true,false,false,none,false,false,false,false,false,false⟩],[⟨none,true,false,false,none,false,false,false,false,false,false⟩,⟨some .internalNl,true,false,false,none,false,false,false,false,false,false⟩],[⟨none,false,true,false,none,false,false,false,false,false,false⟩,⟨some .internalNl,false,true,false,none,false,false,false,false,false,false⟩],[⟨none,true,false,false,none,false,false,false,false,false,false⟩,⟨some .internalNl,true,false,false,none,false,false,false,false,false,false⟩],[⟨none,true,false,false,none,false,false,false,false,false,false⟩,⟨some .internalNl,true,false,false,none,false,false,false,false,false,false⟩],[⟨none,true,false,false,none,false,false,false,false,false,false⟩,⟨some .internalNl,true,false,false,none,false,false,false,false,false,false⟩],[⟨none,true,false,false,none,false,false,false,false,false,false⟩,⟨some .internalNl,true,false,false,none,false,false,false,false,false,false⟩],[⟨none,true,false,false,none,false,false,false,false,false,false⟩,⟨some .internalNl,true,false,false,none,false,false,false,false,false,false⟩],[⟨none,false,false,false,none,false,false,false,false,false,false⟩],[⟨none,true,false,false,none,false,false,false,false,false,false⟩,⟨some .internalNl,true,false,false,none,false,false,false,false,false,false⟩],[⟨none,true,false,false,none,false,false,false,false,false,false⟩,⟨some .internalNl,true,false,false,none,false,false,false,false,false,false⟩],[⟨none,true,false,false,none,false,false,false,false,false,false⟩],[⟨none,false,false,false,none,false,false,false,false,false,false⟩],[⟨none,true,false,false,none,false,false,false,false,false,false⟩],[⟨none,true,false,false,none,false,false,false,false,false,false⟩],[⟨none,true,false,false,none,false,false,false,false,false,false⟩],[⟨none,true,false,false,none,false,false,false,false,false,false⟩],[⟨none,true,false,false,none,false,false,false,false,false,false⟩],[⟨none,true,false,false,none,false,false,false,false,false,false⟩],[⟨none,true,false,false,none,false,false,false,false,false,false⟩]]
theorem vbAspx_w0_closed : closed emb25_rows vbAspx_w0_tab (XA.init vbAspx_wopt) (XA.succ vbAspx_M vbAspx_wopt 0) (XA.eofOk vbAspx_M vbAspx_wopt 0) = true := by
  decide +kernel
def vbAspx_w0 : XCert vbAspx_M vbAspx_wopt 0 := ⟨emb25_D, vbAspx_w0_tab, vbAspx_w0_closed⟩
def vbAspx_w1_tab : List (List XA) := [[⟨none,false,false,false,none,false,false,false,false,false,false⟩],[⟨none,true,false,false,none,false,false,false,false,false,false⟩,⟨some .internalNl,true,false,false,none,false,false,false,false,false,false⟩],[⟨none,false,false,false,none,false,false,false,false,false,false⟩,⟨none,false,true,false,none,false,false,false,false,false,false⟩,⟨some .internalNl,false,true,false,none,false,false,false,false,false,false⟩,⟨some .internalNl,false,false,false,none,false,false,false,false,false,false⟩],[⟨none,true,false,false,none,false,false,false,false,false,false⟩,⟨some .internalNl,true,false,false,none,false,false,false,false,false,false⟩],[⟨none,true,false,false,none,false,false,false,false,false,false⟩,⟨some .internalNl,true,false,false,none,false,false,false,false,false,false⟩],[⟨none,true,false,false,none,false,false,false,false,false,false⟩,⟨some .internalNl,true,false,false,none,false,false,false,false,false,false⟩],[⟨none,true,false,false,none,false,false,false,false,false,false⟩,⟨some .internalNl,true,false,false,none,false,false,false,false,false,false⟩],[⟨none,true,false,false,none,false,false,false,false,false,false⟩,⟨some .internalNl,true,false,false,none,false,false,false,false,false,false⟩],[⟨none,true,false,false,none,false,false,false,false,false,false⟩,⟨some .internalNl,true,false,false,none,false,false,false,false,false,false⟩],[⟨some .internalNl,true,false,false,none,false,false,false,false,false,false⟩,⟨none,true,false,false,none,false,false,false,false,false,false⟩],[⟨some .internalNl,true,false,false,none,false,false,false,false,false,false⟩],[⟨none,true,false,false,none,false,false,false,false,false,false⟩,⟨some .internalNl,true,false,false,none,false,false,false,false,false,false⟩],[⟨none,false,true,false,none,false,false,false,false,false,false⟩,⟨some .internalNl,false,true,false,none,false,false,false,false,false,false⟩],[⟨none,true,false,false,none,false,false,false,false,false,false⟩,⟨some .internalNl,true,false,false,none,false,false,false,false,false,false⟩],[⟨none,true,false,false,none,false,false,false,false,false,false⟩,⟨some .internalNl,true,false,false,none,false,false,false,false,false,false⟩],[⟨none,true,false,false,none,false,false,false,false,false,false⟩,⟨some .internalNl,true,false,false,none,false,false,false,false,false,false⟩],[⟨none,true,false,false,none,false,false,false,false,false,false⟩,⟨some .internalNl,true,false,false,none,false,false,false,false,false,false⟩],[⟨none,false,false,false,none,false,false,false,false,false,false⟩],[],[⟨none,true,false,false,none,false,false,false,false,false,false⟩,⟨some .internalNl,true,false,false,none,false,false,false,false,false,false⟩],[⟨none,true,false,false,none,false,false,false,false,false,false⟩,⟨some .internalNl,true,false,false,none,false,false,false,false,false,false⟩],[⟨none,true,false,false,none,false,false,false,false,false,false⟩,⟨none,false,true,false,none,false,false,false,false,false,false⟩,⟨some .internalNl,true,false,false,none,false,false,false,false,false,false⟩,⟨some .internalNl,false,true,false,none,false,false,false,false,false,false⟩],[⟨some .internalNl,true,false,false,none,false,false,false,false,false,false⟩,⟨none,true,false,false,none,false,false,false,false,false,false⟩],[⟨some .internalNl,false,true,false,none,false,false,false,false,false,false⟩,⟨some .internalNl,false,false,false,none,false,false,false,false,false,false⟩,⟨none,false,true,false,none,false,false,false,false,false,false⟩,⟨none,false,false,false,none,false,false,false,false,false,false⟩],[⟨none,true,false,false,none,false,false,false,false,false,false⟩,⟨some .internalNl,true,false,false,none,false,false,false,false,false,false⟩],[⟨none,true,false,false,none,false,false,false,false,false,false⟩,⟨some .internalNl,true,false,false,none,false,false,false,false,false,false⟩],[⟨none,true,false,false,none,false,false,false,false,false,false⟩,⟨some .internalNl,true,false,false,none,false,false,false,false,false,false⟩],[⟨none,true,false,false,none,false,false,false,false,false,false⟩,⟨some .internalNl,true,false,false,none,false,false,false,false,false,false⟩],[],[⟨some .internalNl,true,false,false,none,false,false,false,false,false,false⟩,⟨none,true,false,false,none,false,false,false,false,false,false⟩],[⟨some .internalNl,true,false,false,none,false,false,false,false,false,false⟩,⟨none,true,false,false,none,false,false,false,false,false,false⟩],[⟨some .internalNl,true,false,false,none,false,false,false,false,false,false⟩,⟨none,true,false,false,none,false,false,false,false,false,false⟩],[⟨none,true,false,false,none,false,false,false,false,false,false⟩],[⟨none,false,false,false,none,false,false,false,false,false,false⟩],[⟨none,true,false,false,none,false,false,false,false,false,false⟩],[⟨none,true,false,false,none,false,false,false,false,false,false⟩],[⟨none,true,false,false,none,false,false,false,false,false,false⟩],[⟨none,true,false,false,none,false,false,false,false,false,false⟩],[],[⟨none,true,false,false,none,false,false,false,false,false,false⟩],[⟨none,true,false,false,none,false,false,false,false,false,false⟩],[⟨none,true,false,false,none,false,false,false,false,false,false⟩,⟨some .internalNl,true,false,false,none,false,false,false,false,false,false⟩],[⟨none,false,true,false,none,false,false,false,false,false,false⟩,⟨some .internalNl,false,true,false,none,false,false,false,false,false,false⟩],[⟨none,true,false,false,none,false,false,false,false,false,false⟩,⟨some .internalNl,true,false,false,none,false,false,false,false,false,false⟩],[⟨none,true,false,false,none,false,false,false,false,false,false⟩,⟨some .internalNl,true,false,false,none,false,false,false,false,false,false⟩],[⟨none,true,false,false,none,false,false,false,false,false,false⟩,⟨some .internalNl,true,false,false,none,false,false,false,false,false,false⟩],[⟨none,true,false,false,none,false,false,false,false,false,false⟩,⟨some .internalNl,true,false,false,none,false,false,false,false,false,false⟩],[⟨none,false,false,false,none,false,false,false,false,false,false⟩],[],[⟨none,true,false,false,none,false,false,false,false,false,false⟩,⟨some .internalNl,true,false,false,none,false,false,false,false,false,false⟩],[⟨none,true,false,false,none,false,false,false,false,false,false⟩,⟨some .internalNl,true,false,false,none,false,false,false,false,false,false⟩],[⟨none,true,false,false,none,false,false,false,false,false,false⟩,⟨some .internalNl,true,false,false,none,false,false,false,false,false,false⟩],[⟨none,false,true,false,none,false,false,false,false,false,false⟩,⟨some .internalNl,false,true,false,none,false,false,false,false,false,false⟩],[],[⟨none,true,false,false,none,false,false,false,false,false,false⟩,⟨some .internalNl,true,false,false,none,false,false,false,false,false,false⟩],[⟨none,true,false,false,none,false,false,false,false,false,false⟩,⟨some .internalNl,true,false,false,none,false,false,false,false,false,false⟩],[⟨none,true,false,false,none,false,false,false,false,false,false⟩],[⟨none,false,false,false,none,false,false,false,false,false,false⟩],[⟨none,true,false,false,none,false,false,false,false,false,false⟩],[⟨none,true,false,false,none,false,false,false,false,false,false⟩],[⟨none,true,false,false,none,false,false,false,false,false,false⟩],[⟨none,true,false,false,none,false,false,false,false,false,false⟩],[],[⟨none,true,false,false,none,false,false,false,false,false,false⟩],[⟨none,true,false,false,none,false,false,false,false,false,false⟩]]
theorem vbAspx_w1_closed : closed emb26_rows vbAspx_w1_tab (XA.init vbAspx_wopt) (XA.succ vbAspx_M vbAspx_wopt 1) (XA.eofOk vbAspx_M vbAspx_wopt 1) = true := by
  decide +kernel
def vbAspx_w1 : XCert vbAspx_M vbAspx_wopt 1 := ⟨emb26_D, vbAspx_w1_tab, vbAspx_w1_closed⟩
def vbAspx_w2_tab : List (List XA) := [[⟨none,false,false,false,none,false,false,false,false,false,false⟩],[⟨none,true,false,false,none,false,false,false,false,false,false⟩,⟨some .internalNl,true,false,false,none,false,false,false,false,false,false⟩],[⟨none,false,false,false,none,false,false,false,false,false,false⟩,⟨none,false,true,false,none,false,false,false,false,false,false⟩,⟨some .internalNl,false,true,false,none,false,false,false,false,false,false⟩,⟨some .internalNl,false,false,false,none,false,false,false,false,false,false⟩],[⟨none,true,false,false,none,false,false,false,false,false,false⟩,⟨some .internalNl,true,false,false,none,false,false,false,false,false,false⟩],[⟨none,true,false,false,none,false,false,false,false,false,false⟩,⟨some .internalNl,true,false,false,none,false,false,false,false,false,false⟩],[⟨none,true,false,false,none,false,false,false,false,false,false⟩,⟨some .internalNl,true,false,false,none,false,false,false,false,false,false⟩],[⟨none,true,false,false,none,false,false,false,false,false,false⟩,⟨some .internalNl,true,false,false,none,false,false,false,false,false,false⟩],[⟨none,true,false,false,none,false,false,false,false,false,false⟩,⟨some .internalNl,true,false,false,none,false,false,false,false,false,false⟩],[⟨none,true,false,false,none,false,false,false,false,false,false⟩,⟨some .internalNl,true,false,false,none,false,false,false,false,false,false⟩],[⟨some .internalNl,true,false,false,none,false,false,false,false,false,false⟩,⟨none,true,false,false,none,false,false,false,false,false,false⟩],[⟨some .internalNl,true,false,false,none,false,false,false,false,false,false⟩],[⟨none,true,false,false,none,false,false,false,false,false,false⟩,⟨some .internalNl,true,false,false,none,false,false,false,false,false,false⟩],[⟨none,false,true,false,none,false,false,false,false,false,false⟩,⟨some .internalNl,false,true,false,none,false,false,false,false,false,false⟩],[⟨none,true,false,false,none,false,false,false,false,false,false⟩,⟨some .internalNl,true,false,false,none,false,false,false,false,false,false⟩],[⟨none,true,false,false,none,false,false,false,false,false,false⟩,⟨some .internalNl,true,false,false,none,false,false,false,false,false,false⟩],[⟨none,true,false,false,none,false,false,false,false,false,false⟩,⟨some .internalNl,true,false,false,none,false,false,false,false,false,false⟩],[⟨none,true,false,false,none,false,false,false,false,false,false⟩,⟨some .internalNl,true,false,false,none,false,false,false,false,false,false⟩],[],[⟨none,false,false,false,none,false,false,false,false,false,false⟩],[⟨none,true,false,false,none,false,false,false,false,false,false⟩,⟨some .internalNl,true,false,false,none,false,false,false,false,false,false⟩],[⟨none,true,false,false,none,false,false,false,false,false,false⟩,⟨some .internalNl,true,false,false,none,false,false,false,false,false,false⟩],[⟨none,true,false,false,none,false,false,false,false,false,false⟩,⟨none,false,true,false,none,false,false,false,false,false,false⟩,⟨some .internalNl,true,false,false,none,false,false,false,false,false,false⟩,⟨some .internalNl,false,true,false,none,false,false,false,false,false,false⟩],[⟨some .internalNl,true,false,false,none,false,false,false,false,false,false⟩,⟨none,true,false,false,none,false,false,false,false,false,false⟩],[⟨some .internalNl,false,true,false,none,false,false,false,false,false,false⟩,⟨some .internalNl,false,false,false,none,false,false,false,false,false,false⟩,⟨none,false,true,false,none,false,false,false,false,false,false⟩,⟨none,false,false,false,none,false,false,false,false,false,false⟩],[⟨none,true,false,false,none,false,false,false,false,false,false⟩,⟨some .internalNl,true,false,false,none,false,false,false,false,false,false⟩],[⟨none,true,false,false,none,false,false,false,false,false,false⟩,⟨some .internalNl,true,false,false,none,false,false,false,false,false,false⟩],[⟨none,true,false,false,none,false,false,false,false,false,false⟩,⟨some .internalNl,true,false,false,none,false,false,false,false,false,false⟩],[⟨none,true,false,false,none,false,false,false,false,false,false⟩,⟨some .internalNl,true,false,false,none,false,false,false,false,false,false⟩],[],[⟨some .internalNl,true,false,false,none,false,false,false,false,false,false⟩,⟨none,true,false,false,none,false,false,false,false,false,false⟩],[⟨some .internalNl,true,false,false,none,false,false,false,false,false,false⟩,⟨none,true,false,false,none,false,false,false,false,false,false⟩],[⟨some .internalNl,true,false,false,none,false,false,false,false,false,false⟩,⟨none,true,false,false,none,false,false,false,false,false,false⟩],[⟨none,true,false,false,none,false,false,false,false,false,false⟩],[⟨none,false,false,false,none,false,false,false,false,false,false⟩],[⟨none,true,false,false,none,false,false,false,false,false,false⟩],[⟨none,true,false,false,none,false,false,false,false,false,false⟩],[⟨none,true,false,false,none,false,false,false,false,false,false⟩],[⟨none,true,false,false,none,false,false,false,false,false,false⟩],[],[⟨none,true,false,false,none,false,false,false,false,false,false⟩],[⟨none,true,false,false,none,false,false,false,false,false,false⟩],[⟨none,true,false,false,none,false,false,false,false,false,false⟩,⟨some .internalNl,true,false,false,none,false,false,false,false,false,false⟩],[⟨none,false,true,false,none,false,false,false,false,false,false⟩,⟨some .internalNl,false,true,false,none,false,false,false,false,false,false⟩],[⟨none,true,false,false,none,false,false,false,false,false,false⟩,⟨some .internalNl,true,false,false,none,false,false,false,false,false,false⟩],[⟨none,true,false,false,none,false,false,false,false,false,false⟩,⟨some .internalNl,true,false,false,none,false,false,false,false,false,false⟩],[⟨none,true,false,false,none,false,false,false,false,false,false⟩,⟨some .internalNl,true,false,false,none,false,false,false,false,false,false⟩],[⟨none,true,false,false,none,false,false,false,false,false,false⟩,⟨some .internalNl,true,false,false,none,false,false,false,false,false,false⟩],[],[⟨none,false,false,false,none,false,false,false,false,false,false⟩],[⟨none,true,false,false,none,false,false,false,false,false,false⟩,⟨some .internalNl,true,false,false,none,false,false,false,false,false,false⟩],[⟨none,true,false,false,none,false,false,false,false,false,false⟩,⟨some .internalNl,true,false,false,none,false,false,false,false,false,false⟩],[⟨none,true,false,false,none,false,false,false,false,false,false⟩,⟨some .internalNl,true,false,false,none,false,false,false,false,false,false⟩],[⟨none,false,true,false,none,false,false,false,false,false,false⟩,⟨some .internalNl,false,true,false,none,false,false,false,false,false,false⟩],[],[⟨none,true,false,false,none,false,false,false,false,false,false⟩,⟨some .internalNl,true,false,false,none,false,false,false,false,false,false⟩],[⟨none,true,false,false,none,false,false,false,false,false,false⟩,⟨some .internalNl,true,false,false,none,false,false,false,false,false,false⟩],[⟨none,true,false,false,none,false,false,false,false,false,false⟩],[⟨none,false,false,false,none,false,false,false,false,false,false⟩],[⟨none,true,false,false,none,false,false,false,false,false,false⟩],[⟨none,true,false,false,none,false,false,false,false,false,false⟩],[⟨none,true,false,false,none,false,false,false,false,false,false⟩],[⟨none,true,false,false,none,false,false,false,false,false,false⟩],[],[⟨none,true,false,false,none,false,false,false,false,false,false⟩],[⟨none,true,false,false,none,false,false,false,false,false,false⟩]]
theorem vbAspx_w2_closed : closed emb27_rows vbAspx_w2_tab (XA.init vbAspx_wopt) (XA.succ vbAspx_M vbAspx_wopt 2) (XA.eofOk vbAspx_M vbAspx_wopt 2) = true := by
  decide +kernel
def vbAspx_w2 : XCert vbAspx_M vbAspx_wopt 2 := ⟨emb27_D, vbAspx_w2_tab, vbAspx_w2_closed⟩
theorem vbAspx_solid : ∀ m ∈ vbAspx_wopt.use, Nonempty (XCert vbAspx_M vbAspx_wopt m) :=
  (List.forall_mem_cons.mpr ⟨⟨vbAspx_w6⟩,
  (List.forall_mem_cons.mpr ⟨⟨vbAspx_w3⟩,
  (List.forall_mem_cons.mpr ⟨⟨vbAspx_w4⟩,
  (List.forall_mem_cons.mpr ⟨⟨vbAspx_w5⟩,
  (List.forall_mem_cons.mpr ⟨⟨vbAspx_w0⟩,
  (List.forall_mem_cons.mpr ⟨⟨vbAspx_w1⟩,
  (List.forall_mem_cons.mpr ⟨⟨vbAspx_w2⟩,
  (fun _ h => nomatch h)⟩)⟩)⟩)⟩)⟩)⟩)⟩)

def perl_wopt : WOpt := ⟨false, false, [0]⟩
def perl_w0_tab : List (List XA) := [[⟨none,false,false,false,none,false,false,false,false,false,false⟩],[⟨some (.own 0),false,false,false,some 0,false,false,false,false,false,false⟩],[⟨some .newline,true,false,false,none,false,false,false,false,false,false⟩],[⟨some .newline,true,false,true,some 3,false,false,false,false,false,false⟩],[⟨some (.own 3),true,false,true,some 5,false,false,false,false,false,false⟩],[⟨some (.own 3),true,false,true,some 1,false,false,false,false,false,false⟩],[⟨some (.own 3),true,false,true,some 5,false,false,false,false,false,false⟩],[⟨some (.own 3),true,false,true,some 5,false,false,false,false,false,false⟩],[⟨none,true,false,false,none,false,false,false,false,false,false⟩],[⟨none,true,false,true,some 4,false,false,false,false,false,false⟩],[⟨some (.own 3),true,false,true,some 5,false,false,false,false,false,false⟩],[⟨some (.own 3),true,false,true,some 5,false,false,false,false,false,false⟩,⟨some .internalNl,true,false,true,some 5,false,false,false,false,false,false⟩],[⟨some (.own 3),false,true,true,some 5,false,false,false,false,false,false⟩,⟨some (.own 3),false,false,true,some 5,false,false,false,false,false,false⟩,⟨some .internalNl,false,true,true,some 5,false,false,false,false,false,false⟩,⟨some .internalNl,false,false,true,some 5,false,false,false,false,false,false⟩],[⟨some (.own 3),true,false,true,some 5,false,false,false,false,false,false⟩,⟨some .internalNl,true,false,true,some 5,false,false,false,false,false,false⟩],[⟨some (.own 3),true,false,true,some 5,false,false,false,false,false,false⟩,⟨some .internalNl,true,false,true,some 5,false,false,false,false,false,false⟩],[⟨some (.own 3),true,false,true,some 5,false,false,false,false,false,false⟩,⟨some .internalNl,true,false,true,some 5,false,false,false,false,false,false⟩],[⟨some (.own 3),true,false,true,some 5,false,false,false,false,false,false⟩,⟨some .internalNl,true,false,true,some 5,false,false,false,false,false,false⟩],[⟨some (.own 3),true,false,true,some 5,false,false,false,false,false,false⟩,⟨some .internalNl,true,false,true,some 5,false,false,false,false,false,false⟩],[⟨some (.own 3),true,false,true,some 1,false,false,false,false,false,false⟩,⟨some (.own 3),false,true,false,some 1,false,false,false,false,false,false⟩,⟨some (.own 3),false,false,false,some 1,false,false,false,false,false,false⟩],[⟨some (.own 3),true,false,true,some 5,false,false,false,false,false,false⟩,⟨some .internalNl,true,false,true,some 5,false,false,false,false,false,false⟩],[⟨some (.own 3),false,true,true,some 5,false,false,false,false,false,false⟩,⟨some (.own 3),false,false,true,some 5,false,false,false,false,false,false⟩,⟨some .internalNl,false,true,true,some 5,false,false,false,false,false,false⟩,⟨some .internalNl,false,false,true,some 5,false,false,false,false,false,false⟩],[⟨some (.own 3),true,false,true,some 5,false,false,false,false,false,false⟩,⟨some .internalNl,true,false,true,some 5,false,false,false,false,false,false⟩],[⟨some (.own 3),true,false,true,some 5,false,false,false,false,false,false⟩,⟨some .internalNl,true,false,true,some 5,false,false,false,false,false,false⟩],[⟨some (.own 3),true,false,true,some 5,false,false,false,false,false,false⟩,⟨some .internalNl,true,false,true,some 5,false,false,false,false,false,false⟩],[⟨some (.own 3),true,false,true,some 5,false,false,false,false,false,false⟩,⟨some .internalNl,true,false,true,some 5,false,false,false,false,false,false⟩],[⟨some (.own 3),true,false,true,some 5,false,false,false,false,false,false⟩,⟨some .internalNl,true,false,true,some 5,false,false,false,false,false,false⟩],[⟨some (.own 3),true,false,true,some 5,false,false,false,false,false,false⟩,⟨some (.own 3),false,true,true,some 5,false,false,false,false,false,false⟩,⟨some (.own 3),false,false,true,some 5,false,false,false,false,false,false⟩],[⟨some (.own 3),true,false,true,some 5,false,false,false,false,false,false⟩],[⟨none,true,false,true,some 1,false,false,false,false,false,false⟩,⟨none,false,true,false,some 1,false,false,false,false,false,false⟩],[⟨some (.own 3),true,false,true,some 5,false,false,false,false,false,false⟩,⟨some .internalNl,true,false,true,some 5,false,false,false,false,false,false⟩],[⟨some (.own 3),false,true,true,some 5,false,false,false,false,false,false⟩,⟨some (.own 3),false,false,true,some 5,false,false,false,false,false,false⟩,⟨some .internalNl,false,true,true,some 5,false,false,false,false,false,false⟩,⟨some .internalNl,false,false,true,some 5,false,false,false,false,false,false⟩],[⟨some (.own 3),true,false,true,some 5,false,false,false,false,false,false⟩,⟨some .internalNl,true,false,true,some 5,false,false,false,false,false,false⟩],[⟨some (.own 3),true,false,true,some 5,false,false,false,false,false,false⟩,⟨some .internalNl,true,false,true,some 5,false,false,false,false,false,false⟩],[⟨some (.own 3),true,false,true,some 5,false,false,false,false,false,false⟩,⟨some .internalNl,true,false,true,some 5,false,false,false,false,false,false⟩],[⟨some (.own 3),true,false,true,some 5,false,false,false,false,false,false⟩,⟨some .internalNl,true,false,true,some 5,false,false,false,false,false,false⟩],[⟨some (.own 3),true,false,true,some 5,false,false,false,false,false,false⟩,⟨some .internalNl,true,false,true,some 5,false,false,false,false,false,false⟩],[⟨some .internalNl,true,false,true,some 5,false,false,false,false,false,false⟩,⟨some (.own 3),true,false,true,some 5,false,false,false,false,false,false⟩],[⟨some .internalNl,true,false,true,some 5,false,false,false,false,false,false⟩],[⟨some (.own 3),true,false,true,some 5,false,false,false,false,false,false⟩,⟨some (.own 3),false,true,true,some 5,false,false,false,false,false,false⟩,⟨some .internalNl,true,false,true,some 5,false,false,false,false,false,false⟩,⟨some .internalNl,false,true,true,some 5,false,false,false,false,false,false⟩],[⟨some .internalNl,true,false,true,some 5,false,false,false,false,false,false⟩,⟨some (.own 3),true,false,true,some 5,false,false,false,false,false,false⟩],[⟨some .internalNl,true,false,true,some 5,false,false,false,false,false,false⟩],[⟨some (.own 3),true,false,true,some 5,false,false,false,false,false,false⟩,⟨some (.own 3),false,true,true,some 5,false,false,false,false,false,false⟩,⟨some .internalNl,true,false,true,some 5,false,false,false,false,false,false⟩,⟨some .internalNl,false,true,true,some 5,false,false,false,false,false,false⟩],[⟨some (.own 3),true,false,true,some 5,false,false,false,false,false,false⟩,⟨some (.own 3),false,true,true,some 5,false,false,false,false,false,false⟩],[⟨none,true,false,true,some 1,false,false,false,false,false,false⟩],[⟨none,false,false,false,some 1,false,false,false,false,false,false⟩,⟨none,false,true,false,some 1,false,false,false,false,false,false⟩],[⟨none,true,false,true,some 1,false,false,false,false,false,false⟩,⟨some .internalNl,true,false,true,some 1,false,false,false,false,false,false⟩],[⟨none,true,false,true,some 1,false,false,false,false,false,false⟩,⟨some .internalNl,true,false,true,some 1,false,false,false,false,false,false⟩],[⟨none,true,false,false,some 1,false,false,false,false,false,false⟩,⟨none,true,false,true,some 1,false,false,false,false,false,false⟩,⟨some .internalNl,true,false,true,some 1,false,false,false,false,false,false⟩,⟨some .internalNl,true,false,false,some 1,false,false,false,false,false,false⟩],[⟨none,true,false,true,some 1,false,false,false,false,false,false⟩,⟨some .internalNl,true,false,true,some 1,false,false,false,false,false,false⟩],[⟨none,true,false,true,some 1,false,false,false,false,false,false⟩],[⟨some .internalNl,true,false,true,some 5,false,false,false,false,false,false⟩,⟨some (.own 3),true,false,true,some 5,false,false,false,false,false,false⟩],[⟨some .internalNl,true,false,true,some 5,false,false,false,false,false,false⟩],[⟨some (.own 3),true,false,true,some 5,false,false,false,false,false,false⟩,⟨some (.own 3),false,true,true,some 5,false,false,false,false,false,false⟩,⟨some .internalNl,true,false,true,some 5,false,false,false,false,false,false⟩,⟨some .internalNl,false,true,true,some 5,false,false,false,false,false,false⟩],[⟨some .internalNl,true,false,true,some 1,false,false,false,false,false,false⟩],[⟨some .internalNl,false,true,false,some 1,false,false,false,false,false,false⟩,⟨some .internalNl,false,false,false,some 1,false,false,false,false,false,false⟩],[⟨some .internalNl,true,false,true,some 1,false,false,false,false,false,false⟩],[⟨none,true,false,true,some 1,false,false,false,false,false,false⟩,⟨some .internalNl,true,false,true,some 1,false,false,false,false,false,false⟩],[⟨some .internalNl,true,false,true,some 1,false,false,false,false,false,false⟩],[⟨none,true,false,true,some 1,false,false,false,false,false,false⟩],[⟨some .internalNl,true,false,true,some 1,false,false,false,false,false,false⟩],[⟨none,true,false,true,some 1,false,false,false,false,false,false⟩],[⟨some .internalNl,true,false,true,some 1,false,false,false,false,false,false⟩],[],[]]
theorem perl_w0_closed : closed emb54_rows perl_w0_tab (XA.init perl_wopt) (XA.succ perl_M perl_wopt 0) (XA.eofOk perl_M perl_wopt 0) = true := by
  decide +kernel
def perl_w0 : XCert perl_M perl_wopt 0 := ⟨emb54_D, perl_w0_tab, perl_w0_closed⟩
theorem perl_solid : ∀ m ∈ perl_wopt.use, Nonempty (XCert perl_M perl_wopt m) :=
  (List.forall_mem_cons.mpr ⟨⟨perl_w0⟩,
  (fun _ h => nomatch h)⟩)

def haml_wopt : WOpt := ⟨false, true, [1, 0]⟩
def haml_w1_tab : List (List XA) := [[⟨none,false,false,false,none,false,false,false,false,false,false⟩],[⟨some (.own 7),true,false,true,some 3,false,false,false,false,true,false⟩],[⟨some (.own 0),false,false,false,some 1,false,false,false,false,true,false⟩],[⟨none,true,false,true,some 3,false,false,false,false,true,false⟩,⟨some (.own 0),true,false,true,some 3,false,false,false,false,true,false⟩],[⟨some .newline,true,false,false,none,false,false,false,false,false,false⟩],[⟨some .newline,true,false,true,some 4,false,false,false,false,true,false⟩],[⟨some (.own 0),false,false,false,some 1,false,false,false,false,true,false⟩],[⟨some (.own 7),true,false,true,some 3,false,false,false,false,true,false⟩],[⟨some (.own 7),true,false,true,some 5,false,false,false,false,true,false⟩],[⟨some (.own 7),true,false,true,some 5,false,false,false,false,true,false⟩],[⟨some (.own 7),true,false,true,some 2,false,false,false,false,true,false⟩],[⟨some (.own 7),true,false,true,some 5,false,false,false,false,true,false⟩],[⟨some (.own 7),true,false,true,some 5,false,false,false,false,true,false⟩],[⟨some (.own 7),true,false,true,some 3,false,false,false,false,true,false⟩,⟨some (.own 7),false,true,false,some 3,false,false,false,false,true,false⟩,⟨some .internalNl,true,false,true,some 3,false,false,false,false,true,false⟩,⟨some .internalNl,false,true,false,some 3,false,false,false,false,true,false⟩,⟨some .internalNl,false,false,false,some 3,false,false,false,false,true,false⟩,⟨some .checkBlank,true,false,true,some 3,false,false,false,false,true,false⟩,⟨some .checkBlank,false,false,false,some 3,false,false,false,false,true,false⟩,⟨some .checkBlank,false,true,false,some 3,false,false,false,false,true,false⟩,⟨some (.own 7),false,false,false,some 3,false,false,false,false,true,false⟩,⟨some (.own 0),true,false,true,some 3,false,false,false,false,true,false⟩,⟨some (.own 0),false,true,false,some 3,false,false,false,false,true,false⟩,⟨some (.own 0),false,false,false,some 3,false,false,false,false,true,false⟩,⟨none,true,false,true,some 3,false,false,false,false,true,false⟩,⟨none,false,true,false,some 3,false,false,false,false,true,false⟩,⟨none,false,false,false,some 3,false,false,false,false,true,false⟩],[⟨some (.own 7),true,false,true,some 3,false,false,false,false,true,false⟩,⟨some .internalNl,true,false,true,some 3,false,false,false,false,true,false⟩,⟨some .checkBlank,true,false,true,some 3,false,false,false,false,true,false⟩,⟨some (.own 0),true,false,true,some 3,false,false,false,false,true,false⟩,⟨none,true,false,true,some 3,false,false,false,false,true,false⟩],[⟨some (.own 0),false,false,false,some 1,false,false,false,false,true,false⟩],[⟨some (.own 0),false,false,false,some 1,false,false,false,false,true,false⟩],[⟨some (.own 0),false,false,false,some 1,false,false,false,false,true,false⟩],[⟨some (.own 7),true,false,true,some 3,false,false,false,false,true,false⟩,⟨some (.own 0),true,false,true,some 3,false,false,false,false,true,false⟩],[⟨some (.own 7),true,false,true,some 5,false,false,false,false,true,false⟩,⟨some (.own 0),true,false,false,some 1,false,false,false,false,true,false⟩],[⟨some (.own 7),true,false,true,some 5,false,false,false,false,true,false⟩,⟨some (.own 0),true,false,false,some 1,false,false,false,false,true,false⟩],[⟨some (.own 7),true,false,true,some 5,false,false,false,false,true,false⟩,⟨some (.own 0),true,false,false,some 1,false,false,false,false,true,false⟩],[⟨some (.own 7),true,false,true,some 5,false,false,false,false,true,false⟩,⟨some (.own 0),true,false,false,some 1,false,false,false,false,true,false⟩],[⟨some (.own 7),true,false,true,some 5,false,false,false,false,true,false⟩,⟨some (.own 0),true,false,false,some 1,false,false,false,false,true,false⟩],[⟨some (.own 7),true,false,true,some 5,false,false,false,false,true,false⟩,⟨some (.own 0),true,false,false,some 1,false,false,false,false,true,false⟩],[⟨some (.own 7),true,false,true,some 2,false,false,false,false,true,false⟩,⟨some (.own 0),true,false,true,some 2,false,false,false,false,true,false⟩],[⟨some (.own 7),true,false,true,some 2,false,false,false,false,true,false⟩,⟨some .internalNl,true,false,true,some 2,false,false,false,false,true,false⟩,⟨some (.own 0),true,false,true,some 2,false,false,false,false,true,false⟩],[⟨some (.own 7),false,true,false,some 2,false,false,false,false,true,false⟩,⟨some .internalNl,false,false,false,some 2,false,false,false,false,true,false⟩,⟨some .internalNl,false,true,false,some 2,false,false,false,false,true,false⟩,⟨some (.own 7),false,false,false,some 2,false,false,false,false,true,false⟩,⟨some (.own 0),false,true,false,some 2,false,false,false,false,true,false⟩,⟨some (.own 0),false,false,false,some 2,false,false,false,false,true,false⟩],[⟨some (.own 7),true,false,true,some 2,false,false,false,false,true,false⟩,⟨some .internalNl,true,false,false,some 2,false,false,false,false,true,false⟩,⟨some .internalNl,true,false,true,some 2,false,false,false,false,true,false⟩,⟨some (.own 7),true,false,false,some 2,false,false,false,false,true,false⟩,⟨some (.own 0),true,false,true,some 2,false,false,false,false,true,false⟩,⟨some (.own 0),true,false,false,some 2,false,false,false,false,true,false⟩],[⟨some (.own 7),true,false,true,some 2,false,false,false,false,true,false⟩,⟨some .internalNl,true,false,false,some 2,false,false,false,false,true,false⟩,⟨some .internalNl,true,false,true,some 2,false,false,false,false,true,false⟩,⟨some (.own 7),true,false,false,some 2,false,false,false,false,true,false⟩,⟨some (.own 0),true,false,true,some 2,false,false,false,false,true,false⟩,⟨some (.own 0),true,false,false,some 2,false,false,false,false,true,false⟩],[⟨some (.own 7),true,false,true,some 2,false,false,false,false,true,false⟩,⟨some .internalNl,true,false,false,some 2,false,false,false,false,true,false⟩,⟨some .internalNl,true,false,true,some 2,false,false,false,false,true,false⟩,⟨some (.own 7),true,false,false,some 2,false,false,false,false,true,false⟩,⟨some (.own 0),true,false,true,some 2,false,false,false,false,true,false⟩,⟨some (.own 0),true,false,false,some 2,false,false,false,false,true,false⟩],[⟨some (.own 7),true,false,true,some 2,false,false,false,false,true,false⟩,⟨some .internalNl,true,false,false,some 2,false,false,false,false,true,false⟩,⟨some .internalNl,true,false,true,some 2,false,false,false,false,true,false⟩,⟨some (.own 7),true,false,false,some 2,false,false,false,false,true,false⟩,⟨some (.own 0),true,false,true,some 2,false,false,false,false,true,false⟩,⟨some (.own 0),true,false,false,some 2,false,false,false,false,true,false⟩],[⟨some (.own 7),true,false,true,some 5,false,false,false,false,true,false⟩,⟨some .internalNl,true,false,true,some 5,false,false,false,false,true,true⟩,⟨some (.own 0),true,false,false,some 1,false,false,false,false,true,false⟩,⟨some .internalNl,true,false,false,some 1,false,false,false,false,true,true⟩],[⟨some (.own 7),true,false,true,some 3,false,false,false,false,true,false⟩,⟨some .internalNl,true,false,true,some 3,false,false,false,false,true,false⟩,⟨some .checkBlank,true,false,true,some 3,false,false,false,false,true,false⟩,⟨some (.own 0),true,false,true,some 3,false,false,false,false,true,false⟩,⟨none,true,false,true,some 3,false,false,false,false,true,false⟩],[⟨some (.own 7),true,false,true,some 3,false,false,false,false,true,false⟩,⟨some .internalNl,true,false,true,some 3,false,false,false,false,true,false⟩,⟨some .checkBlank,true,false,true,some 3,false,false,false,false,true,false⟩,⟨some (.own 0),true,false,true,some 3,false,false,false,false,true,false⟩,⟨none,true,false,true,some 3,false,false,false,false,true,false⟩],[⟨some (.own 7),true,false,true,some 3,false,false,false,false,true,false⟩,⟨some .internalNl,true,false,true,some 3,false,false,false,false,true,false⟩,⟨some .checkBlank,true,false,true,some 3,false,false,false,false,true,false⟩,⟨some (.own 0),true,false,true,some 3,false,false,false,false,true,false⟩,⟨none,true,false,true,some 3,false,false,false,false,true,false⟩],[⟨some (.own 7),true,false,true,some 3,false,false,false,false,true,false⟩,⟨some .internalNl,true,false,true,some 3,false,false,false,false,true,false⟩,⟨some .checkBlank,true,false,true,some 3,false,false,false,false,true,false⟩,⟨some (.own 0),true,false,true,some 3,false,false,false,false,true,false⟩,⟨none,true,false,true,some 3,false,false,false,false,true,false⟩],[⟨some (.own 0),false,false,false,some 1,false,false,false,false,true,false⟩],[⟨some (.own 0),true,false,true,some 3,false,false,false,false,true,false⟩],[⟨some (.own 0),true,false,false,some 1,false,false,false,false,true,false⟩],[⟨some (.own 0),true,false,false,some 1,false,false,false,false,true,false⟩],[⟨some (.own 0),true,false,true,some 2,false,false,false,false,true,false⟩],[⟨some (.own 7),true,false,true,some 5,false,false,false,false,true,false⟩,⟨some .internalNl,true,false,true,some 5,false,false,false,false,true,true⟩,⟨some (.own 0),true,false,false,some 1,false,false,false,false,true,false⟩,⟨some .internalNl,true,false,false,some 1,false,false,false,false,true,true⟩],[⟨some (.own 7),true,false,true,some 5,false,false,false,false,true,false⟩,⟨some .internalNl,true,false,true,some 5,false,false,false,false,true,true⟩,⟨some (.own 0),true,false,false,some 1,false,false,false,false,true,false⟩,⟨some .internalNl,true,false,false,some 1,false,false,false,false,true,true⟩],[⟨some .checkBlank,false,true,false,some 0,false,false,false,false,true,false⟩],[⟨some (.own 7),true,false,true,some 5,false,false,false,false,true,false⟩,⟨some (.own 0),true,false,false,some 1,false,false,false,false,true,false⟩],[⟨some (.own 7),true,false,true,some 5,false,false,false,false,true,false⟩,⟨some (.own 0),true,false,false,some 1,false,false,false,false,true,false⟩],[⟨some (.own 7),true,false,true,some 5,false,false,false,false,true,false⟩,⟨some (.own 0),true,false,false,some 1,false,false,false,false,true,false⟩],[⟨some (.own 7),true,false,true,some 5,false,false,false,false,true,false⟩,⟨some (.own 0),true,false,false,some 1,false,false,false,false,true,false⟩],[⟨some (.own 7),true,false,true,some 5,false,false,false,false,true,false⟩,⟨some (.own 0),true,false,false,some 1,false,false,false,false,true,false⟩],[⟨some (.own 7),true,false,true,some 5,false,false,false,false,true,false⟩,⟨some (.own 0),true,false,false,some 1,false,false,false,false,true,false⟩],[⟨some (.own 7),true,false,true,some 5,false,false,false,false,true,false⟩,⟨some (.own 0),true,false,false,some 1,false,false,false,false,true,false⟩],[⟨some (.own 7),true,false,true,some 5,false,false,false,false,true,false⟩,⟨some (.own 0),true,false,false,some 1,false,false,false,false,true,false⟩],[⟨some (.own 7),true,false,true,some 5,false,false,false,false,true,false⟩,⟨some (.own 0),true,false,false,some 1,false,false,false,false,true,false⟩],[⟨some (.own 7),true,false,true,some 5,false,false,false,false,true,false⟩,⟨some (.own 0),true,false,false,some 1,false,false,false,false,true,false⟩],[⟨some (.own 7),true,false,true,some 5,false,false,false,false,true,false⟩,⟨some (.own 0),true,false,false,some 1,false,false,false,false,true,false⟩],[⟨some (.own 7),true,false,true,some 5,false,false,false,false,true,false⟩,⟨some (.own 0),true,false,false,some 1,false,false,false,false,true,false⟩],[⟨some (.own 7),true,false,true,some 5,false,false,false,false,true,false⟩,⟨some (.own 0),true,false,false,some 1,false,false,false,false,true,false⟩],[⟨some (.own 7),true,false,true,some 5,false,false,false,false,true,false⟩,⟨some (.own 0),true,false,false,some 1,false,false,false,false,true,false⟩],[⟨some (.own 7),true,false,true,some 5,false,false,false,false,true,false⟩,⟨some (.own 0),true,false,false,some 1,false,false,false,false,true,false⟩],[⟨some (.own 7),true,false,true,some 5,false,false,false,false,true,false⟩,⟨some (.own 0),true,false,false,some 1,false,false,false,false,true,false⟩],[⟨some (.own 7),true,false,true,some 5,false,false,false,false,true,false⟩,⟨some (.own 0),true,false,false,some 1,false,false,false,false,true,false⟩],[⟨some (.own 7),true,false,true,some 5,false,false,false,false,true,false⟩,⟨some (.own 0),true,false,false,some 1,false,false,false,false,true,false⟩],[⟨some (.own 7),true,false,true,some 5,false,false,false,false,true,false⟩,⟨some (.own 0),true,false,false,some 1,false,false,false,false,true,false⟩],[⟨some (.own 7),true,false,true,some 5,false,false,false,false,true,false⟩,⟨some (.own 0),true,false,false,some 1,false,false,false,false,true,false⟩],[⟨some (.own 7),true,false,true,some 5,false,false,false,false,true,false⟩,⟨some (.own 0),true,false,false,some 1,false,false,false,false,true,false⟩],[⟨some (.own 7),true,false,true,some 5,false,false,false,false,true,false⟩,⟨some (.own 0),true,false,false,some 1,false,false,false,false,true,false⟩],[⟨some (.own 7),true,false,true,some 5,false,false,false,false,true,false⟩,⟨some (.own 0),true,false,false,some 1,false,false,false,false,true,false⟩],[⟨some (.own 7),true,false,true,some 5,false,false,false,false,true,false⟩,⟨some (.own 0),true,false,false,some 1,false,false,false,false,true,false⟩],[⟨some .internalNl,true,false,false,some 2,false,false,false,false,true,true⟩,⟨some .internalNl,true,false,true,some 2,false,false,false,false,true,true⟩],[⟨some .internalNl,true,false,true,some 2,false,false,false,false,true,true⟩,⟨some .internalNl,true,false,false,some 2,false,false,false,false,true,true⟩],[⟨some .internalNl,true,false,true,some 2,false,false,false,false,true,true⟩,⟨some .internalNl,true,false,false,some 2,false,false,false,false,true,true⟩],[⟨some .internalNl,true,false,true,some 2,false,false,false,false,true,true⟩,⟨some .internalNl,true,false,false,some 2,false,false,false,false,true,true⟩],[⟨some .internalNl,false,true,true,some 2,false,false,false,false,true,true⟩,⟨some .internalNl,false,true,false,some 2,false,false,false,false,true,true⟩,⟨some .internalNl,false,false,false,some 2,false,false,false,false,true,true⟩,⟨some .internalNl,false,false,true,some 2,false,false,false,false,true,true⟩],[⟨some .internalNl,false,true,true,some 2,false,false,false,false,true,true⟩,⟨some .internalNl,false,true,false,some 2,false,false,false,false,true,true⟩,⟨some .internalNl,false,false,false,some 2,false,false,false,false,true,true⟩,⟨some .internalNl,false,false,true,some 2,false,false,false,false,true,true⟩],[⟨some .internalNl,false,true,true,some 2,false,false,false,false,true,true⟩,⟨some .internalNl,false,true,false,some 2,false,false,false,false,true,true⟩,⟨some .internalNl,false,false,false,some 2,false,false,false,false,true,true⟩,⟨some .internalNl,false,false,true,some 2,false,false,false,false,true,true⟩],[⟨some .internalNl,true,false,false,some 2,false,false,false,false,true,false⟩,⟨some .internalNl,true,false,true,some 2,false,false,false,false,true,false⟩,⟨some (.own 7),true,false,true,some 2,false,false,false,false,true,false⟩,⟨some (.own 7),true,false,false,some 2,false,false,false,false,true,false⟩,⟨some (.own 0),true,false,true,some 2,false,false,false,false,true,false⟩,⟨some (.own 0),true,false,false,some 2,false,false,false,false,true,false⟩],[⟨some .internalNl,true,false,true,some 2,false,false,false,false,true,true⟩,⟨some .internalNl,true,false,false,some 2,false,false,false,false,true,true⟩],[⟨some (.own 7),true,false,true,some 3,false,false,false,false,true,false⟩,⟨some .internalNl,true,false,true,some 3,false,false,false,false,true,false⟩,⟨some .checkBlank,true,false,true,some 3,false,false,false,false,true,false⟩,⟨some (.own 0),true,false,true,some 3,false,false,false,false,true,false⟩,⟨none,true,false,true,some 3,false,false,false,false,true,false⟩],[⟨some (.own 0),false,false,false,some 1,false,false,false,false,true,false⟩],[⟨some (.own 7),true,false,true,some 5,false,false,false,false,true,false⟩,⟨some (.own 0),true,false,false,some 1,false,false,false,false,true,false⟩],[⟨some (.own 7),true,false,true,some 5,false,false,false,false,true,false⟩,⟨some (.own 0),true,false,false,some 1,false,false,false,false,true,false⟩],[⟨some (.own 7),true,false,true,some 5,false,false,false,false,true,false⟩,⟨some .internalNl,true,false,true,some 5,false,false,false,false,true,true⟩,⟨some (.own 0),true,false,false,some 1,false,false,false,false,true,false⟩,⟨some .internalNl,true,false,false,some 1,false,false,false,false,true,true⟩],[⟨some (.own 7),false,true,true,some 5,false,false,false,false,true,false⟩,⟨some .internalNl,false,true,true,some 5,false,false,false,false,true,true⟩,⟨some .internalNl,false,false,true,some 5,false,false,false,false,true,true⟩,⟨some (.own 7),false,false,true,some 5,false,false,false,false,true,false⟩,⟨some (.own 0),false,true,false,some 1,false,false,false,false,true,false⟩,⟨some .internalNl,false,true,false,some 1,false,false,false,false,true,true⟩,⟨some .internalNl,false,false,false,some 1,false,false,false,false,true,true⟩,⟨some (.own 0),false,false,false,some 1,false,false,false,false,true,false⟩],[⟨some (.own 7),true,false,true,some 5,false,false,false,false,true,false⟩,⟨some .internalNl,true,false,true,some 5,false,false,false,false,true,true⟩,⟨some (.own 0),true,false,false,some 1,false,false,false,false,true,false⟩,⟨some .internalNl,true,false,false,some 1,false,false,false,false,true,true⟩],[⟨some (.own 7),true,false,true,some 5,false,false,false,false,true,false⟩,⟨some .internalNl,true,false,true,some 5,false,false,false,false,true,true⟩,⟨some (.own 0),true,false,false,some 1,false,false,false,false,true,false⟩,⟨some .internalNl,true,false,false,some 1,false,false,false,false,true,true⟩],[⟨some (.own 7),true,false,true,some 5,false,false,false,false,true,false⟩,⟨some .internalNl,true,false,true,some 5,false,false,false,false,true,true⟩,⟨some (.own 0),true,false,false,some 1,false,false,false,false,true,false⟩,⟨some .internalNl,true,false,false,some 1,false,false,false,false,true,true⟩],[⟨some (.own 7),true,false,true,some 5,false,false,false,false,true,false⟩,⟨some .internalNl,true,false,true,some 5,false,false,false,false,true,true⟩,⟨some (.own 0),true,false,false,some 1,false,false,false,false,true,false⟩,⟨some .internalNl,true,false,false,some 1,false,false,false,false,true,true⟩],[⟨some (.own 7),true,false,true,some 5,false,false,false,false,true,false⟩,⟨some .internalNl,true,false,true,some 5,false,false,false,false,true,true⟩,⟨some (.own 0),true,false,false,some 1,false,false,false,false,true,false⟩,⟨some .internalNl,true,false,false,some 1,false,false,false,false,true,true⟩],[⟨some (.own 7),true,false,true,some 5,false,false,false,false,true,false⟩,⟨some .internalNl,true,false,true,some 5,false,false,false,false,true,true⟩,⟨some (.own 0),true,false,false,some 1,false,false,false,false,true,false⟩,⟨some .internalNl,true,false,false,some 1,false,false,false,false,true,true⟩],[⟨some (.own 7),true,false,true,some 5,false,false,false,false,true,false⟩,⟨some .internalNl,true,false,true,some 5,false,false,false,false,true,true⟩,⟨some (.own 0),true,false,false,some 1,false,false,false,false,true,false⟩,⟨some .internalNl,true,false,false,some 1,false,false,false,false,true,true⟩],[⟨some (.own 7),true,false,true,some 5,false,false,false,false,true,false⟩,⟨some .internalNl,true,false,true,some 5,false,false,false,false,true,true⟩,⟨some (.own 0),true,false,false,some 1,false,false,false,false,true,false⟩,⟨some .internalNl,true,false,false,some 1,false,false,false,false,true,true⟩],[⟨some (.own 7),false,true,true,some 5,false,false,false,false,true,false⟩,⟨some .internalNl,false,true,true,some 5,false,false,false,false,true,true⟩,⟨some .internalNl,false,false,true,some 5,false,false,false,false,true,true⟩,⟨some (.own 7),false,false,true,some 5,false,false,false,false,true,false⟩,⟨some (.own 0),false,true,false,some 1,false,false,false,false,true,false⟩,⟨some .internalNl,false,true,false,some 1,false,false,false,false,true,true⟩,⟨some .internalNl,false,false,false,some 1,false,false,false,false,true,true⟩,⟨some (.own 0),false,false,false,some 1,false,false,false,false,true,false⟩],[⟨some (.own 7),true,false,true,some 5,false,false,false,false,true,false⟩,⟨some .internalNl,true,false,true,some 5,false,false,false,false,true,true⟩,⟨some (.own 0),true,false,false,some 1,false,false,false,false,true,false⟩,⟨some .internalNl,true,false,false,some 1,false,false,false,false,true,true⟩],[⟨some (.own 7),true,false,true,some 5,false,false,false,false,true,false⟩,⟨some .internalNl,true,false,true,some 5,false,false,false,false,true,true⟩,⟨some (.own 0),true,false,false,some 1,false,false,false,false,true,false⟩,⟨some .internalNl,true,false,false,some 1,false,false,false,false,true,true⟩],[⟨some (.own 7),true,false,true,some 5,false,false,false,false,true,false⟩,⟨some .internalNl,true,false,true,some 5,false,false,false,false,true,true⟩,⟨some (.own 0),true,false,false,some 1,false,false,false,false,true,false⟩,⟨some .internalNl,true,false,false,some 1,false,false,false,false,true,true⟩],[⟨some (.own 7),true,false,true,some 5,false,false,false,false,true,false⟩,⟨some .internalNl,true,false,true,some 5,false,false,false,false,true,true⟩,⟨some (.own 0),true,false,false,some 1,false,false,false,false,true,false⟩,⟨some .internalNl,true,false,false,some 1,false,false,false,false,true,true⟩],[⟨some (.own 7),true,false,true,some 5,false,false,false,false,true,false⟩,⟨some .internalNl,true,false,true,some 5,false,false,false,false,true,true⟩,⟨some (.own 0),true,false,false,some 1,false,false,false,false,true,false⟩,⟨some .internalNl,true,false,false,some 1,false,false,false,false,true,true⟩],[⟨some (.own 7),true,false,true,some 5,false,false,false,false,true,false⟩,⟨some .internalNl,true,false,true,some 5,false,false,false,false,true,true⟩,⟨some (.own 0),true,false,false,some 1,false,false,false,false,true,false⟩,⟨some .internalNl,true,false,false,some 1,false,false,false,false,true,true⟩],[⟨some (.own 7),true,false,true,some 5,false,false,false,false,true,false⟩,⟨some .internalNl,true,false,true,some 5,false,false,false,false,true,true⟩,⟨some (.own 0),true,false,false,some 1,false,false,false,false,true,false⟩,⟨some .internalNl,true,false,false,some 1,false,false,false,false,true,true⟩],[⟨some (.own 7),true,false,true,some 5,false,false,false,false,true,false⟩,⟨some (.own 0),true,false,false,some 1,false,false,false,false,true,false⟩],[⟨some (.own 7),true,false,true,some 5,false,false,false,false,true,false⟩,⟨some (.own 0),true,false,false,some 1,false,false,false,false,true,false⟩],[⟨some (.own 7),true,false,true,some 5,false,false,false,false,true,false⟩,⟨some (.own 0),true,false,false,some 1,false,false,false,false,true,false⟩],[⟨some (.own 7),true,false,true,some 5,false,false,false,false,true,false⟩,⟨some (.own 0),true,false,false,some 1,false,false,false,false,true,false⟩],[⟨some (.own 7),true,false,true,some 5,false,false,false,false,true,false⟩,⟨some (.own 0),true,false,false,some 1,false,false,false,false,true,false⟩],[⟨some (.own 7),true,false,true,some 5,false,false,false,false,true,false⟩,⟨some (.own 0),true,false,false,some 1,false,false,false,false,true,false⟩],[⟨some (.own 7),true,false,true,some 5,false,false,false,false,true,false⟩,⟨some (.own 0),true,false,false,some 1,false,false,false,false,true,false⟩],[⟨some (.own 7),true,false,true,some 5,false,false,false,false,true,false⟩,⟨some (.own 0),true,false,false,some 1,false,false,false,false,true,false⟩],[⟨some (.own 7),true,false,true,some 5,false,false,false,false,true,false⟩,⟨some (.own 0),true,false,false,some 1,false,false,false,false,true,false⟩],[⟨some (.own 7),true,false,true,some 5,false,false,false,false,true,false⟩,⟨some (.own 0),true,false,false,some 1,false,false,false,false,true,false⟩],[⟨some (.own 7),true,false,true,some 5,false,false,false,false,true,false⟩,⟨some (.own 0),true,false,false,some 1,false,false,false,false,true,false⟩],[⟨some (.own 7),true,false,true,some 5,false,false,false,false,true,false⟩,⟨some (.own 0),true,false,false,some 1,false,false,false,false,true,false⟩],[⟨some (.own 7),true,false,true,some 5,false,false,false,false,true,false⟩,⟨some (.own 0),true,false,false,some 1,false,false,false,false,true,false⟩],[⟨some (.own 7),true,false,true,some 5,false,false,false,false,true,false⟩,⟨some (.own 0),true,false,false,some 1,false,false,false,false,true,false⟩],[⟨some (.own 7),true,false,true,some 5,false,false,false,false,true,false⟩,⟨some (.own 0),true,false,false,some 1,false,false,false,false,true,false⟩],[⟨some (.own 7),true,false,true,some 5,false,false,false,false,true,false⟩,⟨some (.own 0),true,false,false,some 1,false,false,false,false,true,false⟩],[⟨some (.own 7),true,false,true,some 5,false,false,false,false,true,false⟩,⟨some (.own 0),true,false,false,some 1,false,false,false,false,true,false⟩],[⟨some (.own 7),true,false,true,some 5,false,false,false,false,true,false⟩,⟨some (.own 0),true,false,false,some 1,false,false,false,false,true,false⟩],[⟨some (.own 7),true,false,true,some 5,false,false,false,false,true,false⟩,⟨some (.own 0),true,false,false,some 1,false,false,false,false,true,false⟩],[⟨some (.own 7),true,false,true,some 5,false,false,false,false,true,false⟩,⟨some (.own 0),true,false,false,some 1,false,false,false,false,true,false⟩],[⟨some (.own 7),true,false,true,some 5,false,false,false,false,true,false⟩,⟨some (.own 0),true,false,false,some 1,false,false,false,false,true,false⟩],[⟨some (.own 7),true,false,true,some 5,false,false,false,false,true,false⟩,⟨some (.own 0),true,false,false,some 1,false,false,false,false,true,false⟩],[⟨some (.own 7),true,false,true,some 5,false,false,false,false,true,false⟩,⟨some (.own 0),true,false,false,some 1,false,false,false,false,true,false⟩],[⟨some (.own 7),true,false,true,some 5,false,false,false,false,true,false⟩,⟨some (.own 0),true,false,false,some 1,false,false,false,false,true,false⟩],[⟨some (.own 7),true,false,true,some 5,false,false,false,false,true,false⟩,⟨some (.own 0),true,false,false,some 1,false,false,false,false,true,false⟩],[⟨some (.own 7),true,false,true,some 5,false,false,false,false,true,false⟩,⟨some (.own 0),true,false,false,some 1,false,false,false,false,true,false⟩],[⟨some (.own 7),true,false,true,some 5,false,false,false,false,true,false⟩,⟨some (.own 0),true,false,false,some 1,false,false,false,false,true,false⟩],[⟨some (.own 7),true,false,true,some 5,false,false,false,false,true,false⟩,⟨some (.own 0),true,false,false,some 1,false,false,false,false,true,false⟩],[⟨some (.own 7),true,false,true,some 5,false,false,false,false,true,false⟩,⟨some (.own 0),true,false,false,some 1,false,false,false,false,true,false⟩],[⟨some (.own 7),true,false,true,some 5,false,false,false,false,true,false⟩,⟨some (.own 0),true,false,false,some 1,false,false,false,false,true,false⟩],[⟨some (.own 7),true,false,true,some 5,false,false,false,false,true,false⟩,⟨some (.own 0),true,false,false,some 1,false,false,false,false,true,false⟩],[⟨some (.own 7),true,false,true,some 5,false,false,false,false,true,false⟩,⟨some (.own 0),true,false,false,some 1,false,false,false,false,true,false⟩],[⟨some (.own 7),true,false,true,some 5,false,false,false,false,true,false⟩,⟨some (.own 0),true,false,false,some 1,false,false,false,false,true,false⟩],[⟨some (.own 7),true,false,true,some 5,false,false,false,false,true,false⟩,⟨some (.own 0),true,false,false,some 1,false,false,false,false,true,false⟩],[⟨some (.own 7),true,false,true,some 5,false,false,false,false,true,false⟩,⟨some (.own 0),true,false,false,some 1,false,false,false,false,true,false⟩],[⟨some .internalNl,true,false,false,some 2,false,false,false,false,true,true⟩,⟨some .internalNl,true,false,true,some 2,false,false,false,false,true,true⟩],[⟨some .internalNl,true,false,false,some 2,false,false,false,false,true,true⟩,⟨some .internalNl,true,false,true,some 2,false,false,false,false,true,true⟩],[⟨some .internalNl,false,false,false,some 2,false,false,false,false,true,false⟩],[⟨some .internalNl,false,false,true,some 2,false,false,false,false,true,true⟩,⟨some .internalNl,false,false,false,some 2,false,false,false,false,true,true⟩],[⟨some .internalNl,false,false,false,some 2,false,false,false,false,true,false⟩],[⟨some .internalNl,true,false,true,some 5,false,false,false,false,true,true⟩,⟨some (.own 7),true,false,true,some 5,false,false,false,false,true,false⟩,⟨some .internalNl,true,false,false,some 1,false,false,false,false,true,true⟩,⟨some (.own 0),true,false,false,some 1,false,false,false,false,true,false⟩],[⟨some .internalNl,true,false,true,some 5,false,false,false,false,true,true⟩,⟨some .internalNl,true,false,false,some 1,false,false,false,false,true,true⟩],[⟨some (.own 7),true,false,true,some 5,false,false,false,false,true,false⟩,⟨some .internalNl,true,false,true,some 5,false,false,false,false,true,true⟩,⟨some (.own 0),true,false,false,some 1,false,false,false,false,true,false⟩,⟨some .internalNl,true,false,false,some 1,false,false,false,false,true,true⟩],[⟨some (.own 7),true,false,true,some 5,false,false,false,false,true,false⟩,⟨some .internalNl,true,false,true,some 5,false,false,false,false,true,true⟩,⟨some (.own 0),true,false,false,some 1,false,false,false,false,true,false⟩,⟨some .internalNl,true,false,false,some 1,false,false,false,false,true,true⟩],[⟨some (.own 7),true,false,true,some 5,false,false,false,false,true,false⟩,⟨some .internalNl,true,false,true,some 5,false,false,false,false,true,true⟩,⟨some (.own 0),true,false,false,some 1,false,false,false,false,true,false⟩,⟨some .internalNl,true,false,false,some 1,false,false,false,false,true,true⟩],[⟨some .internalNl,true,false,true,some 5,false,false,false,false,true,true⟩,⟨some (.own 7),true,false,true,some 5,false,false,false,false,true,false⟩,⟨some .internalNl,true,false,false,some 1,false,false,false,false,true,true⟩,⟨some (.own 0),true,false,false,some 1,false,false,false,false,true,false⟩],[⟨some .internalNl,true,false,true,some 5,false,false,false,false,true,true⟩,⟨some .internalNl,true,false,false,some 1,false,false,false,false,true,true⟩],[⟨some (.own 7),true,false,true,some 5,false,false,false,false,true,false⟩,⟨some (.own 0),true,false,false,some 1,false,false,false,false,true,false⟩],[⟨some (.own 7),true,false,true,some 5,false,false,false,false,true,false⟩,⟨some (.own 0),true,false,false,some 1,false,false,false,false,true,false⟩],[⟨some (.own 7),true,false,true,some 5,false,false,false,false,true,false⟩,⟨some (.own 0),true,false,false,some 1,false,false,false,false,true,false⟩],[⟨some (.own 7),true,false,true,some 5,false,false,false,false,true,false⟩,⟨some (.own 0),true,false,false,some 1,false,false,false,false,true,false⟩],[⟨some (.own 7),true,false,true,some 5,false,false,false,false,true,false⟩,⟨some (.own 0),true,false,false,some 1,false,false,false,false,true,false⟩],[⟨some (.own 7),true,false,true,some 5,false,false,false,false,true,false⟩,⟨some (.own 0),true,false,false,some 1,false,false,false,false,true,false⟩],[⟨some (.own 7),true,false,true,some 5,false,false,false,false,true,false⟩,⟨some (.own 0),true,false,false,some 1,false,false,false,false,true,false⟩],[⟨some (.own 7),true,false,true,some 5,false,false,false,false,true,false⟩,⟨some (.own 0),true,false,false,some 1,false,false,false,false,true,false⟩],[⟨some (.own 7),true,false,true,some 5,false,false,false,false,true,false⟩,⟨some (.own 0),true,false,false,some 1,false,false,false,false,true,false⟩],[⟨some (.own 7),true,false,true,some 5,false,false,false,false,true,false⟩,⟨some (.own 0),true,false,false,some 1,false,false,false,false,true,false⟩],[⟨some (.own 7),true,false,true,some 5,false,false,false,false,true,false⟩,⟨some (.own 0),true,false,false,some 1,false,false,false,false,true,false⟩],[⟨some (.own 7),true,false,true,some 5,false,false,false,false,true,false⟩,⟨some (.own 0),true,false,false,some 1,false,false,false,false,true,false⟩],[⟨some (.own 7),true,false,true,some 5,false,false,false,false,true,false⟩,⟨some (.own 0),true,false,false,some 1,false,false,false,false,true,false⟩],[⟨some (.own 7),true,false,true,some 5,false,false,false,false,true,false⟩,⟨some (.own 0),true,false,false,some 1,false,false,false,false,true,false⟩],[⟨some (.own 7),true,false,true,some 5,false,false,false,false,true,false⟩,⟨some (.own 0),true,false,false,some 1,false,false,false,false,true,false⟩],[⟨some (.own 7),true,false,true,some 5,false,false,false,false,true,false⟩,⟨some (.own 0),true,false,false,some 1,false,false,false,false,true,false⟩],[⟨some (.own 7),true,false,true,some 5,false,false,false,false,true,false⟩,⟨some (.own 0),true,false,false,some 1,false,false,false,false,true,false⟩],[⟨some (.own 7),true,false,true,some 5,false,false,false,false,true,false⟩,⟨some (.own 0),true,false,false,some 1,false,false,false,false,true,false⟩],[⟨some (.own 7),true,false,true,some 5,false,false,false,false,true,false⟩,⟨some (.own 0),true,false,false,some 1,false,false,false,false,true,false⟩],[⟨some (.own 7),true,false,true,some 5,false,false,false,false,true,false⟩,⟨some (.own 0),true,false,false,some 1,false,false,false,false,true,false⟩],[⟨some (.own 7),true,false,true,some 5,false,false,false,false,true,false⟩,⟨some (.own 0),true,false,false,some 1,false,false,false,false,true,false⟩],[⟨some (.own 7),true,false,true,some 5,false,false,false,false,true,false⟩,⟨some (.own 0),true,false,false,some 1,false,false,false,false,true,false⟩],[⟨some (.own 7),true,false,true,some 5,false,false,false,false,true,false⟩,⟨some (.own 0),true,false,false,some 1,false,false,false,false,true,false⟩],[⟨some .internalNl,false,false,false,some 2,false,false,false,false,true,false⟩],[⟨some .internalNl,false,false,false,some 2,false,false,false,false,true,false⟩],[⟨some .internalNl,false,false,false,some 2,false,false,false,false,true,false⟩],[⟨some (.own 7),true,false,true,some 5,false,false,false,false,true,false⟩,⟨some .internalNl,true,false,true,some 5,false,false,false,false,true,true⟩,⟨some (.own 0),true,false,false,some 1,false,false,false,false,true,false⟩,⟨some .internalNl,true,false,false,some 1,false,false,false,false,true,true⟩],[⟨some (.own 7),true,false,true,some 5,false,false,false,false,true,false⟩,⟨some .internalNl,true,false,true,some 5,false,false,false,false,true,true⟩,⟨some (.own 0),true,false,false,some 1,false,false,false,false,true,false⟩,⟨some .internalNl,true,false,false,some 1,false,false,false,false,true,true⟩],[⟨some (.own 7),true,false,true,some 5,false,false,false,false,true,false⟩,⟨some (.own 0),true,false,false,some 1,false,false,false,false,true,false⟩],[⟨some (.own 7),true,false,true,some 5,false,false,false,false,true,false⟩,⟨some (.own 0),true,false,false,some 1,false,false,false,false,true,false⟩],[⟨some (.own 7),true,false,true,some 5,false,false,false,false,true,false⟩,⟨some (.own 0),true,false,false,some 1,false,false,false,false,true,false⟩],[⟨some (.own 7),true,false,true,some 5,false,false,false,false,true,false⟩,⟨some (.own 0),true,false,false,some 1,false,false,false,false,true,false⟩],[⟨some (.own 7),true,false,true,some 5,false,false,false,false,true,false⟩,⟨some (.own 0),true,false,false,some 1,false,false,false,false,true,false⟩],[⟨some (.own 7),true,false,true,some 5,false,false,false,false,true,false⟩,⟨some (.own 0),true,false,false,some 1,false,false,false,false,true,false⟩],[⟨some .internalNl,false,false,false,some 2,false,false,false,false,true,false⟩],[⟨some .internalNl,false,false,false,some 2,false,false,false,false,true,false⟩],[⟨some .internalNl,false,false,false,some 2,false,false,false,false,true,false⟩]]
theorem haml_w1_closed : closed emb57_rows haml_w1_tab (XA.init haml_wopt) (XA.succ haml_M haml_wopt 1) (XA.eofOk haml_M haml_wopt 1) = true := by
  decide +kernel
def haml_w1 : XCert haml_M haml_wopt 1 := ⟨emb57_D, haml_w1_tab, haml_w1_closed⟩
def haml_w0_tab : List (List XA) := [[⟨none,false,false,false,none,false,false,false,false,false,false⟩],[⟨some (.own 0),false,false,false,some 1,false,false,false,false,true,false⟩],[⟨some .newline,true,false,true,some 4,false,false,false,false,true,false⟩],[⟨some .newline,true,false,true,some 4,false,false,false,false,true,false⟩],[⟨some .newline,true,false,false,none,false,false,false,false,false,false⟩],[⟨some .newline,true,false,true,some 4,false,false,false,false,true,false⟩],[⟨some (.own 3),true,false,true,some 5,false,false,false,false,true,false⟩],[⟨some (.own 3),true,false,true,some 2,false,false,false,false,true,false⟩],[⟨some (.own 3),true,false,true,some 5,false,false,false,false,true,false⟩],[⟨some (.own 3),true,false,true,some 5,false,false,false,false,true,false⟩],[⟨some (.own 3),true,false,true,some 5,false,false,false,false,true,false⟩],[⟨some (.own 3),true,false,true,some 5,false,false,false,false,true,false⟩],[⟨some (.own 3),true,false,true,some 5,false,false,false,false,true,false⟩],[⟨some .newline,true,false,true,some 4,false,false,false,false,true,false⟩],[],[⟨some (.own 3),true,false,true,some 5,false,false,false,false,true,false⟩,⟨some .internalNl,true,false,true,some 5,false,false,false,false,true,true⟩],[⟨some (.own 3),false,true,true,some 5,false,false,false,false,true,false⟩,⟨some (.own 3),false,false,true,some 5,false,false,false,false,true,false⟩,⟨some .internalNl,false,true,true,some 5,false,false,false,false,true,true⟩,⟨some .internalNl,false,false,true,some 5,false,false,false,false,true,true⟩],[⟨some (.own 3),true,false,true,some 5,false,false,false,false,true,false⟩,⟨some .internalNl,true,false,true,some 5,false,false,false,false,true,true⟩],[⟨some (.own 3),true,false,true,some 5,false,false,false,false,true,false⟩,⟨some .internalNl,true,false,true,some 5,false,false,false,false,true,true⟩],[⟨some (.own 3),true,false,true,some 5,false,false,false,false,true,false⟩,⟨some .internalNl,true,false,true,some 5,false,false,false,false,true,true⟩],[⟨some (.own 3),true,false,true,some 5,false,false,false,false,true,false⟩,⟨some .internalNl,true,false,true,some 5,false,false,false,false,true,true⟩],[⟨some (.own 3),true,false,true,some 5,false,false,false,false,true,false⟩,⟨some .internalNl,true,false,true,some 5,false,false,false,false,true,true⟩],[⟨some (.own 3),true,false,true,some 2,false,false,false,false,true,false⟩,⟨some (.own 3),false,true,false,some 2,false,false,false,false,true,false⟩,⟨some (.own 3),false,false,false,some 2,false,false,false,false,true,false⟩],[⟨some (.own 3),true,false,true,some 5,false,false,false,false,true,false⟩],[⟨some (.own 3),true,false,true,some 5,false,false,false,false,true,false⟩],[⟨some (.own 3),true,false,true,some 5,false,false,false,false,true,false⟩],[⟨some (.own 3),true,false,true,some 5,false,false,false,false,true,false⟩,⟨some .internalNl,true,false,true,some 5,false,false,false,false,true,true⟩],[⟨some (.own 3),false,true,true,some 5,false,false,false,false,true,false⟩,⟨some (.own 3),false,false,true,some 5,false,false,false,false,true,false⟩,⟨some .internalNl,false,true,true,some 5,false,false,false,false,true,true⟩,⟨some .internalNl,false,false,true,some 5,false,false,false,false,true,true⟩],[⟨some (.own 3),true,false,true,some 5,false,false,false,false,true,false⟩,⟨some .internalNl,true,false,true,some 5,false,false,false,false,true,true⟩],[⟨some (.own 3),true,false,true,some 5,false,false,false,false,true,false⟩,⟨some .internalNl,true,false,true,some 5,false,false,false,false,true,true⟩],[⟨some (.own 3),true,false,true,some 5,false,false,false,false,true,false⟩,⟨some .internalNl,true,false,true,some 5,false,false,false,false,true,true⟩],[⟨some (.own 3),true,false,true,some 5,false,false,false,false,true,false⟩,⟨some .internalNl,true,false,true,some 5,false,false,false,false,true,true⟩],[⟨some (.own 3),true,false,true,some 5,false,false,false,false,true,false⟩,⟨some .internalNl,true,false,true,some 5,false,false,false,false,true,true⟩],[⟨some (.own 3),true,false,true,some 5,false,false,false,false,true,false⟩,⟨some (.own 3),false,true,true,some 5,false,false,false,false,true,false⟩,⟨some (.own 3),false,false,true,some 5,false,false,false,false,true,false⟩],[⟨some (.own 3),true,false,true,some 5,false,false,false,false,true,false⟩],[⟨some (.own 3),true,false,true,some 5,false,false,false,false,true,false⟩],[⟨some (.own 3),true,false,true,some 5,false,false,false,false,true,false⟩,⟨some .internalNl,true,false,true,some 5,false,false,false,false,true,true⟩],[⟨some (.own 3),false,true,true,some 5,false,false,false,false,true,false⟩,⟨some (.own 3),false,false,true,some 5,false,false,false,false,true,false⟩,⟨some .internalNl,false,true,true,some 5,false,false,false,false,true,true⟩,⟨some .internalNl,false,false,true,some 5,false,false,false,false,true,true⟩],[⟨some (.own 3),true,false,true,some 5,false,false,false,false,true,false⟩,⟨some .internalNl,true,false,true,some 5,false,false,false,false,true,true⟩],[⟨some (.own 3),true,false,true,some 5,false,false,false,false,true,false⟩,⟨some .internalNl,true,false,true,some 5,false,false,false,false,true,true⟩],[⟨some (.own 3),true,false,true,some 5,false,false,false,false,true,false⟩,⟨some .internalNl,true,false,true,some 5,false,false,false,false,true,true⟩],[⟨some (.own 3),true,false,true,some 5,false,false,false,false,true,false⟩,⟨some .internalNl,true,false,true,some 5,false,false,false,false,true,true⟩],[⟨some (.own 3),true,false,true,some 5,false,false,false,false,true,false⟩,⟨some .internalNl,true,false,true,some 5,false,false,false,false,true,true⟩],[⟨some .internalNl,true,false,true,some 5,false,false,false,false,true,true⟩,⟨some (.own 3),true,false,true,some 5,false,false,false,false,true,false⟩],[⟨some .internalNl,true,false,true,some 5,false,false,false,false,true,true⟩],[⟨some (.own 3),true,false,true,some 5,false,false,false,false,true,false⟩,⟨some (.own 3),false,true,true,some 5,false,false,false,false,true,false⟩,⟨some .internalNl,true,false,true,some 5,false,false,false,false,true,true⟩,⟨some .internalNl,false,true,true,some 5,false,false,false,false,true,true⟩],[⟨some (.own 3),true,false,true,some 5,false,false,false,false,true,false⟩,⟨some .internalNl,true,false,true,some 5,false,false,false,false,true,true⟩],[⟨some (.own 3),false,true,true,some 5,false,false,false,false,true,false⟩,⟨some (.own 3),false,false,true,some 5,false,false,false,false,true,false⟩,⟨some .internalNl,false,true,true,some 5,false,false,false,false,true,true⟩,⟨some .internalNl,false,false,true,some 5,false,false,false,false,true,true⟩],[⟨some (.own 3),true,false,true,some 5,false,false,false,false,true,false⟩,⟨some .internalNl,true,false,true,some 5,false,false,false,false,true,true⟩],[⟨some (.own 3),true,false,true,some 5,false,false,false,false,true,false⟩,⟨some .internalNl,true,false,true,some 5,false,false,false,false,true,true⟩],[⟨some (.own 3),true,false,true,some 5,false,false,false,false,true,false⟩,⟨some .internalNl,true,false,true,some 5,false,false,false,false,true,true⟩],[⟨some (.own 3),true,false,true,some 5,false,false,false,false,true,false⟩,⟨some .internalNl,true,false,true,some 5,false,false,false,false,true,true⟩],[⟨some (.own 3),true,false,true,some 5,false,false,false,false,true,false⟩,⟨some .internalNl,true,false,true,some 5,false,false,false,false,true,true⟩],[⟨some (.own 3),true,false,true,some 5,false,false,false,false,true,false⟩],[⟨some .internalNl,true,false,true,some 5,false,false,false,false,true,true⟩,⟨some (.own 3),true,false,true,some 5,false,false,false,false,true,false⟩],[⟨some .internalNl,true,false,true,some 5,false,false,false,false,true,true⟩],[⟨some (.own 3),true,false,true,some 5,false,false,false,false,true,false⟩,⟨some (.own 3),false,true,true,some 5,false,false,false,false,true,false⟩,⟨some .internalNl,true,false,true,some 5,false,false,false,false,true,true⟩,⟨some .internalNl,false,true,true,some 5,false,false,false,false,true,true⟩],[⟨some (.own 3),true,false,true,some 5,false,false,false,false,true,false⟩,⟨some (.own 3),false,true,true,some 5,false,false,false,false,true,false⟩],[⟨some (.own 3),true,false,true,some 5,false,false,false,false,true,false⟩],[⟨some .internalNl,true,false,true,some 5,false,false,false,false,true,true⟩,⟨some (.own 3),true,false,true,some 5,false,false,false,false,true,false⟩],[⟨some .internalNl,true,false,true,some 5,false,false,false,false,true,true⟩],[⟨some (.own 3),true,false,true,some 5,false,false,false,false,true,false⟩,⟨some (.own 3),false,true,true,some 5,false,false,false,false,true,false⟩,⟨some .internalNl,true,false,true,some 5,false,false,false,false,true,true⟩,⟨some .internalNl,false,true,true,some 5,false,false,false,false,true,true⟩],[⟨some .internalNl,true,false,true,some 5,false,false,false,false,true,true⟩,⟨some (.own 3),true,false,true,some 5,false,false,false,false,true,false⟩],[⟨some .internalNl,true,false,true,some 5,false,false,false,false,true,true⟩],[⟨some (.own 3),true,false,true,some 5,false,false,false,false,true,false⟩,⟨some (.own 3),false,true,true,some 5,false,false,false,false,true,false⟩,⟨some .internalNl,true,false,true,some 5,false,false,false,false,true,true⟩,⟨some .internalNl,false,true,true,some 5,false,false,false,false,true,true⟩],[⟨some (.own 3),true,false,true,some 5,false,false,false,false,true,false⟩,⟨some .internalNl,true,false,true,some 5,false,false,false,false,true,true⟩],[⟨some (.own 3),false,true,true,some 5,false,false,false,false,true,false⟩,⟨some (.own 3),false,false,true,some 5,false,false,false,false,true,false⟩,⟨some .internalNl,false,true,true,some 5,false,false,false,false,true,true⟩,⟨some .internalNl,false,false,true,some 5,false,false,false,false,true,true⟩],[⟨some (.own 3),true,false,true,some 5,false,false,false,false,true,false⟩,⟨some .internalNl,true,false,true,some 5,false,false,false,false,true,true⟩],[⟨some (.own 3),true,false,true,some 5,false,false,false,false,true,false⟩,⟨some .internalNl,true,false,true,some 5,false,false,false,false,true,true⟩],[⟨some (.own 3),true,false,true,some 5,false,false,false,false,true,false⟩,⟨some .internalNl,true,false,true,some 5,false,false,false,false,true,true⟩],[⟨some (.own 3),true,false,true,some 5,false,false,false,false,true,false⟩,⟨some .internalNl,true,false,true,some 5,false,false,false,false,true,true⟩],[⟨some (.own 3),true,false,true,some 5,false,false,false,false,true,false⟩,⟨some .internalNl,true,false,true,some 5,false,false,false,false,true,true⟩],[⟨some (.own 3),true,false,true,some 5,false,false,false,false,true,false⟩],[⟨some .internalNl,true,false,true,some 5,false,false,false,false,true,true⟩,⟨some (.own 3),true,false,true,some 5,false,false,false,false,true,false⟩],[⟨some .internalNl,true,false,true,some 5,false,false,false,false,true,true⟩],[⟨some (.own 3),true,false,true,some 5,false,false,false,false,true,false⟩,⟨some (.own 3),false,true,true,some 5,false,false,false,false,true,false⟩,⟨some .internalNl,true,false,true,some 5,false,false,false,false,true,true⟩,⟨some .internalNl,false,true,true,some 5,false,false,false,false,true,true⟩],[⟨some (.own 3),true,false,true,some 5,false,false,false,false,true,false⟩],[⟨some (.own 3),true,false,true,some 5,false,false,false,false,true,false⟩],[⟨some (.own 3),true,false,true,some 5,false,false,false,false,true,false⟩,⟨some .internalNl,true,false,true,some 5,false,false,false,false,true,true⟩],[⟨some (.own 3),false,true,true,some 5,false,false,false,false,true,false⟩,⟨some .internalNl,false,true,true,some 5,false,false,false,false,true,true⟩,⟨some .internalNl,false,false,true,some 5,false,false,false,false,true,true⟩,⟨some (.own 3),false,false,true,some 5,false,false,false,false,true,false⟩],[⟨some (.own 3),true,false,true,some 5,false,false,false,false,true,false⟩,⟨some .internalNl,true,false,true,some 5,false,false,false,false,true,true⟩],[⟨some (.own 3),true,false,true,some 5,false,false,false,false,true,false⟩,⟨some .internalNl,true,false,true,some 5,false,false,false,false,true,true⟩],[⟨some (.own 3),true,false,true,some 5,false,false,false,false,true,false⟩,⟨some .internalNl,true,false,true,some 5,false,false,false,false,true,true⟩],[⟨some (.own 3),true,false,true,some 5,false,false,false,false,true,false⟩,⟨some .internalNl,true,false,true,some 5,false,false,false,false,true,true⟩],[⟨some (.own 3),true,false,true,some 5,false,false,false,false,true,false⟩,⟨some .internalNl,true,false,true,some 5,false,false,false,false,true,true⟩],[⟨some .internalNl,true,false,true,some 5,false,false,false,false,true,true⟩,⟨some (.own 3),true,false,true,some 5,false,false,false,false,true,false⟩],[⟨some .internalNl,true,false,true,some 5,false,false,false,false,true,true⟩],[⟨some (.own 3),true,false,true,some 5,false,false,false,false,true,false⟩,⟨some .internalNl,true,false,true,some 5,false,false,false,false,true,true⟩],[⟨some (.own 3),true,false,true,some 5,false,false,false,false,true,false⟩,⟨some .internalNl,true,false,true,some 5,false,false,false,false,true,true⟩]]
theorem haml_w0_closed : closed emb56_rows haml_w0_tab (XA.init haml_wopt) (XA.succ haml_M haml_wopt 0) (XA.eofOk haml_M haml_wopt 0) = true := by
  decide +kernel
def haml_w0 : XCert haml_M haml_wopt 0 := ⟨emb56_D, haml_w0_tab, haml_w0_closed⟩
theorem haml_solid : ∀ m ∈ haml_wopt.use, Nonempty (XCert haml_M haml_wopt m) :=
  (List.forall_mem_cons.mpr ⟨⟨haml_w1⟩,
  (List.forall_mem_cons.mpr ⟨⟨haml_w0⟩,
  (fun _ h => nomatch h)⟩)⟩)

theorem embSolidAll : ∀ P ∈ embParsers, SolidLine P :=
  (List.forall_mem_cons.mpr ⟨⟨html_wopt, by decide, html_M_eq ▸ html_solid⟩,
  (List.forall_mem_cons.mpr ⟨⟨mxml_wopt, by decide, mxml_M_eq ▸ mxml_solid⟩,
  (List.forall_mem_cons.mpr ⟨⟨nix_wopt, by decide, nix_M_eq ▸ nix_solid⟩,
  (List.forall_mem_cons.mpr ⟨⟨coffeescript_wopt, by decide, coffeescript_M_eq ▸ coffeescript_solid⟩,
  (List.forall_mem_cons.mpr ⟨⟨metapostWithTex_wopt, by decide, metapostWithTex_M_eq ▸ metapostWithTex_solid⟩,
  (List.forall_mem_cons.mpr ⟨⟨jsp_wopt, by decide, jsp_M_eq ▸ jsp_solid⟩,
  (List.forall_mem_cons.mpr ⟨⟨phphtml_wopt, by decide, phphtml_M_eq ▸ phphtml_solid⟩,
  (List.forall_mem_cons.mpr ⟨⟨clearsilverhtml_wopt, by decide, clearsilverhtml_M_eq ▸ clearsilverhtml_solid⟩,
  (List.forall_mem_cons.mpr ⟨⟨csAspx_wopt, by decide, csAspx_M_eq ▸ csAspx_solid⟩,
  (List.forall_mem_cons.mpr ⟨⟨rhtml_wopt, by decide, rhtml_M_eq ▸ rhtml_solid⟩,
  (List.forall_mem_cons.mpr ⟨⟨vbAspx_wopt, by decide, vbAspx_M_eq ▸ vbAspx_solid⟩,
  (List.forall_mem_cons.mpr ⟨⟨perl_wopt, by decide, perl_M_eq ▸ perl_solid⟩,
  (List.forall_mem_cons.mpr ⟨⟨haml_wopt, by decide, haml_M_eq ▸ haml_solid⟩,
  (fun _ h => nomatch h)⟩)⟩)⟩)⟩)⟩)⟩)⟩)⟩)⟩)⟩)⟩)⟩)⟩)

end Ohcount.Cert
