import Verif.Cert.EAll
import Verif.EmbedNull

/-! Generated by tools/gen_solid.py. -/

namespace Ohcount.Cert
open Ohcount.Ragel Ohcount.Gram

set_option maxRecDepth 100000

def haml_nopt : NOpt := ⟨[1, 0], [0]⟩
def haml_n1_tab : List (List NA) := [[⟨none,false,none⟩],[⟨some (.own 7),true,some 3⟩],[⟨some (.own 0),true,some 1⟩],[⟨none,true,some 3⟩,⟨some (.own 0),true,some 3⟩],[⟨some .newline,false,none⟩],[⟨some .newline,false,some 4⟩],[⟨some (.own 0),false,some 1⟩],[⟨some (.own 7),true,some 3⟩],[⟨some (.own 7),false,some 5⟩],[⟨some (.own 7),false,some 5⟩],[⟨some (.own 7),true,some 2⟩],[⟨some (.own 7),false,some 5⟩],[⟨some (.own 7),false,some 5⟩],[⟨some (.own 7),true,some 3⟩,⟨some .internalNl,true,some 3⟩,⟨some .checkBlank,true,some 3⟩,⟨some (.own 0),true,some 3⟩,⟨none,true,some 3⟩],[⟨some (.own 7),true,some 3⟩,⟨some .internalNl,true,some 3⟩,⟨some .checkBlank,true,some 3⟩,⟨some (.own 0),true,some 3⟩,⟨none,true,some 3⟩],[⟨some (.own 0),true,some 1⟩],[⟨some (.own 0),false,some 1⟩],[⟨some (.own 0),false,some 1⟩],[⟨some (.own 7),true,some 3⟩,⟨some (.own 0),true,some 3⟩],[⟨some (.own 7),false,some 5⟩,⟨some (.own 0),false,some 1⟩],[⟨some (.own 7),false,some 5⟩,⟨some (.own 0),false,some 1⟩],[⟨some (.own 7),false,some 5⟩,⟨some (.own 0),false,some 1⟩],[⟨some (.own 7),false,some 5⟩,⟨some (.own 0),false,some 1⟩],[⟨some (.own 7),false,some 5⟩,⟨some (.own 0),false,some 1⟩],[⟨some (.own 7),false,some 5⟩,⟨some (.own 0),false,some 1⟩],[⟨some (.own 7),true,some 2⟩,⟨some (.own 0),true,some 2⟩],[⟨some (.own 7),true,some 2⟩,⟨some .internalNl,true,some 2⟩,⟨some (.own 0),true,some 2⟩],[⟨some (.own 7),true,some 2⟩,⟨some .internalNl,true,some 2⟩,⟨some (.own 0),true,some 2⟩],[⟨some (.own 7),true,some 2⟩,⟨some .internalNl,true,some 2⟩,⟨some (.own 0),true,some 2⟩],[⟨some (.own 7),true,some 2⟩,⟨some .internalNl,true,some 2⟩,⟨some (.own 0),true,some 2⟩],[⟨some (.own 7),true,some 2⟩,⟨some .internalNl,true,some 2⟩,⟨some (.own 0),true,some 2⟩],[⟨some (.own 7),true,some 2⟩,⟨some .internalNl,true,some 2⟩,⟨some (.own 0),true,some 2⟩],[⟨some (.own 7),false,some 5⟩,⟨some (.own 7),true,some 5⟩,⟨some .internalNl,true,some 5⟩,⟨some (.own 0),false,some 1⟩,⟨some (.own 0),true,some 1⟩,⟨some .internalNl,true,some 1⟩],[⟨some (.own 7),true,some 3⟩,⟨some .internalNl,true,some 3⟩,⟨some .checkBlank,true,some 3⟩,⟨some (.own 0),true,some 3⟩,⟨none,true,some 3⟩],[⟨some (.own 7),true,some 3⟩,⟨some .internalNl,true,some 3⟩,⟨some .checkBlank,true,some 3⟩,⟨some (.own 0),true,some 3⟩,⟨none,true,some 3⟩],[⟨some (.own 7),true,some 3⟩,⟨some .internalNl,true,some 3⟩,⟨some .checkBlank,true,some 3⟩,⟨some (.own 0),true,some 3⟩,⟨none,true,some 3⟩],[⟨some (.own 7),true,some 3⟩,⟨some .internalNl,true,some 3⟩,⟨some .checkBlank,true,some 3⟩,⟨some (.own 0),true,some 3⟩,⟨none,true,some 3⟩],[⟨some (.own 0),false,some 1⟩],[⟨some (.own 0),true,some 3⟩],[⟨some (.own 0),false,some 1⟩],[⟨some (.own 0),false,some 1⟩],[⟨some (.own 0),true,some 2⟩],[⟨some (.own 7),true,some 5⟩,⟨some .internalNl,true,some 5⟩,⟨some (.own 0),false,some 1⟩,⟨some (.own 0),true,some 1⟩,⟨some .internalNl,true,some 1⟩],[⟨some (.own 7),true,some 5⟩,⟨some .internalNl,true,some 5⟩,⟨some (.own 0),false,some 1⟩,⟨some (.own 0),true,some 1⟩,⟨some .internalNl,true,some 1⟩],[⟨some .checkBlank,true,some 0⟩],[⟨some (.own 7),false,some 5⟩,⟨some (.own 0),false,some 1⟩],[⟨some (.own 7),false,some 5⟩,⟨some (.own 0),false,some 1⟩],[⟨some (.own 7),false,some 5⟩,⟨some (.own 0),false,some 1⟩],[⟨some (.own 7),false,some 5⟩,⟨some (.own 0),false,some 1⟩],[⟨some (.own 7),false,some 5⟩,⟨some (.own 0),false,some 1⟩],[⟨some (.own 7),true,some 5⟩,⟨some (.own 0),true,some 1⟩],[⟨some (.own 7),true,some 5⟩,⟨some (.own 0),true,some 1⟩],[⟨some (.own 7),false,some 5⟩,⟨some (.own 0),false,some 1⟩],[⟨some (.own 7),false,some 5⟩,⟨some (.own 0),false,some 1⟩],[⟨some (.own 7),false,some 5⟩,⟨some (.own 0),false,some 1⟩],[⟨some (.own 7),false,some 5⟩,⟨some (.own 0),false,some 1⟩],[⟨some (.own 7),false,some 5⟩,⟨some (.own 0),false,some 1⟩],[⟨some (.own 7),false,some 5⟩,⟨some (.own 0),false,some 1⟩],[⟨some (.own 7),false,some 5⟩,⟨some (.own 0),false,some 1⟩],[⟨some (.own 7),false,some 5⟩,⟨some (.own 0),false,some 1⟩],[⟨some (.own 7),false,some 5⟩,⟨some (.own 0),false,some 1⟩],[⟨some (.own 7),false,some 5⟩,⟨some (.own 0),false,some 1⟩],[⟨some (.own 7),false,some 5⟩,⟨some (.own 0),false,some 1⟩],[⟨some (.own 7),false,some 5⟩,⟨some (.own 0),false,some 1⟩],[⟨some (.own 7),false,some 5⟩,⟨some (.own 0),false,some 1⟩],[⟨some (.own 7),false,some 5⟩,⟨some (.own 0),false,some 1⟩],[⟨some (.own 7),false,some 5⟩,⟨some (.own 0),false,some 1⟩],[⟨some (.own 7),false,some 5⟩,⟨some (.own 0),false,some 1⟩],[⟨some (.own 7),false,some 5⟩,⟨some (.own 0),false,some 1⟩],[⟨some .internalNl,true,some 2⟩],[⟨some .internalNl,true,some 2⟩],[⟨some .internalNl,true,some 2⟩],[⟨some .internalNl,true,some 2⟩],[⟨some .internalNl,true,some 2⟩],[⟨some .internalNl,true,some 2⟩],[⟨some .internalNl,true,some 2⟩],[⟨some .internalNl,true,some 2⟩,⟨some (.own 7),true,some 2⟩,⟨some (.own 0),true,some 2⟩],[⟨some .internalNl,true,some 2⟩],[⟨some (.own 7),true,some 3⟩,⟨some .internalNl,true,some 3⟩,⟨some .checkBlank,true,some 3⟩,⟨some (.own 0),true,some 3⟩,⟨none,true,some 3⟩],[⟨some (.own 0),false,some 1⟩],[⟨some (.own 7),false,some 5⟩,⟨some (.own 0),false,some 1⟩],[⟨some (.own 7),false,some 5⟩,⟨some (.own 0),false,some 1⟩],[⟨some (.own 7),true,some 5⟩,⟨some .internalNl,true,some 5⟩,⟨some (.own 0),true,some 1⟩,⟨some .internalNl,true,some 1⟩],[⟨some (.own 7),true,some 5⟩,⟨some .internalNl,true,some 5⟩,⟨some (.own 0),true,some 1⟩,⟨some .internalNl,true,some 1⟩],[⟨some (.own 7),true,some 5⟩,⟨some .internalNl,true,some 5⟩,⟨some (.own 0),true,some 1⟩,⟨some .internalNl,true,some 1⟩],[⟨some (.own 7),true,some 5⟩,⟨some .internalNl,true,some 5⟩,⟨some (.own 0),true,some 1⟩,⟨some .internalNl,true,some 1⟩],[⟨some (.own 7),true,some 5⟩,⟨some .internalNl,true,some 5⟩,⟨some (.own 0),true,some 1⟩,⟨some .internalNl,true,some 1⟩],[⟨some (.own 7),true,some 5⟩,⟨some .internalNl,true,some 5⟩,⟨some (.own 0),true,some 1⟩,⟨some .internalNl,true,some 1⟩],[⟨some (.own 7),true,some 5⟩,⟨some .internalNl,true,some 5⟩,⟨some (.own 0),true,some 1⟩,⟨some .internalNl,true,some 1⟩],[⟨some (.own 7),true,some 5⟩,⟨some .internalNl,true,some 5⟩,⟨some (.own 0),true,some 1⟩,⟨some .internalNl,true,some 1⟩],[⟨some (.own 7),true,some 5⟩,⟨some .internalNl,true,some 5⟩,⟨some (.own 0),true,some 1⟩,⟨some .internalNl,true,some 1⟩],[⟨some (.own 7),true,some 5⟩,⟨some .internalNl,true,some 5⟩,⟨some (.own 0),true,some 1⟩,⟨some .internalNl,true,some 1⟩],[⟨some (.own 7),true,some 5⟩,⟨some .internalNl,true,some 5⟩,⟨some (.own 0),true,some 1⟩,⟨some .internalNl,true,some 1⟩],[⟨some (.own 7),true,some 5⟩,⟨some .internalNl,true,some 5⟩,⟨some (.own 0),true,some 1⟩,⟨some .internalNl,true,some 1⟩],[⟨some (.own 7),true,some 5⟩,⟨some .internalNl,true,some 5⟩,⟨some (.own 0),true,some 1⟩,⟨some .internalNl,true,some 1⟩],[⟨some (.own 7),true,some 5⟩,⟨some .internalNl,true,some 5⟩,⟨some (.own 0),true,some 1⟩,⟨some .internalNl,true,some 1⟩],[⟨some (.own 7),true,some 5⟩,⟨some .internalNl,true,some 5⟩,⟨some (.own 0),true,some 1⟩,⟨some .internalNl,true,some 1⟩],[⟨some (.own 7),true,some 5⟩,⟨some .internalNl,true,some 5⟩,⟨some (.own 0),true,some 1⟩,⟨some .internalNl,true,some 1⟩],[⟨some (.own 7),true,some 5⟩,⟨some .internalNl,true,some 5⟩,⟨some (.own 0),true,some 1⟩,⟨some .internalNl,true,some 1⟩],[⟨some (.own 7),true,some 5⟩,⟨some .internalNl,true,some 5⟩,⟨some (.own 0),true,some 1⟩,⟨some .internalNl,true,some 1⟩],[⟨some (.own 7),false,some 5⟩,⟨some (.own 0),false,some 1⟩],[⟨some (.own 7),false,some 5⟩,⟨some (.own 0),false,some 1⟩],[⟨some (.own 7),false,some 5⟩,⟨some (.own 0),false,some 1⟩],[⟨some (.own 7),false,some 5⟩,⟨some (.own 0),false,some 1⟩],[⟨some (.own 7),false,some 5⟩,⟨some (.own 0),false,some 1⟩],[⟨some (.own 7),false,some 5⟩,⟨some (.own 0),false,some 1⟩],[⟨some (.own 7),false,some 5⟩,⟨some (.own 0),false,some 1⟩],[⟨some (.own 7),false,some 5⟩,⟨some (.own 0),false,some 1⟩],[⟨some (.own 7),false,some 5⟩,⟨some (.own 0),false,some 1⟩],[⟨some (.own 7),false,some 5⟩,⟨some (.own 0),false,some 1⟩],[⟨some (.own 7),false,some 5⟩,⟨some (.own 0),false,some 1⟩],[⟨some (.own 7),false,some 5⟩,⟨some (.own 0),false,some 1⟩],[⟨some (.own 7),false,some 5⟩,⟨some (.own 0),false,some 1⟩],[⟨some (.own 7),false,some 5⟩,⟨some (.own 0),false,some 1⟩],[⟨some (.own 7),false,some 5⟩,⟨some (.own 0),false,some 1⟩],[⟨some (.own 7),false,some 5⟩,⟨some (.own 0),false,some 1⟩],[⟨some (.own 7),false,some 5⟩,⟨some (.own 0),false,some 1⟩],[⟨some (.own 7),false,some 5⟩,⟨some (.own 0),false,some 1⟩],[⟨some (.own 7),false,some 5⟩,⟨some (.own 0),false,some 1⟩],[⟨some (.own 7),false,some 5⟩,⟨some (.own 0),false,some 1⟩],[⟨some (.own 7),false,some 5⟩,⟨some (.own 0),false,some 1⟩],[⟨some (.own 7),false,some 5⟩,⟨some (.own 0),false,some 1⟩],[⟨some (.own 7),false,some 5⟩,⟨some (.own 0),false,some 1⟩],[⟨some (.own 7),false,some 5⟩,⟨some (.own 0),false,some 1⟩],[⟨some (.own 7),false,some 5⟩,⟨some (.own 0),false,some 1⟩],[⟨some (.own 7),false,some 5⟩,⟨some (.own 0),false,some 1⟩],[⟨some (.own 7),false,some 5⟩,⟨some (.own 0),false,some 1⟩],[⟨some (.own 7),false,some 5⟩,⟨some (.own 0),false,some 1⟩],[⟨some (.own 7),false,some 5⟩,⟨some (.own 0),false,some 1⟩],[⟨some (.own 7),false,some 5⟩,⟨some (.own 0),false,some 1⟩],[⟨some (.own 7),false,some 5⟩,⟨some (.own 0),false,some 1⟩],[⟨some (.own 7),false,some 5⟩,⟨some (.own 0),false,some 1⟩],[⟨some (.own 7),false,some 5⟩,⟨some (.own 0),false,some 1⟩],[⟨some (.own 7),false,some 5⟩,⟨some (.own 0),false,some 1⟩],[⟨some (.own 7),false,some 5⟩,⟨some (.own 0),false,some 1⟩],[⟨some .internalNl,true,some 2⟩],[⟨some .internalNl,true,some 2⟩],[⟨some .internalNl,true,some 2⟩],[⟨some .internalNl,true,some 2⟩],[⟨some .internalNl,true,some 2⟩],[⟨some .internalNl,true,some 5⟩,⟨some (.own 7),true,some 5⟩,⟨some .internalNl,true,some 1⟩,⟨some (.own 0),true,some 1⟩],[⟨some .internalNl,true,some 5⟩,⟨some .internalNl,true,some 1⟩],[⟨some (.own 7),true,some 5⟩,⟨some .internalNl,true,some 5⟩,⟨some (.own 0),true,some 1⟩,⟨some .internalNl,true,some 1⟩],[⟨some (.own 7),true,some 5⟩,⟨some .internalNl,true,some 5⟩,⟨some (.own 0),true,some 1⟩,⟨some .internalNl,true,some 1⟩],[⟨some (.own 7),true,some 5⟩,⟨some .internalNl,true,some 5⟩,⟨some (.own 0),true,some 1⟩,⟨some .internalNl,true,some 1⟩],[⟨some .internalNl,true,some 5⟩,⟨some (.own 7),true,some 5⟩,⟨some .internalNl,true,some 1⟩,⟨some (.own 0),true,some 1⟩],[⟨some .internalNl,true,some 5⟩,⟨some .internalNl,true,some 1⟩],[⟨some (.own 7),false,some 5⟩,⟨some (.own 0),false,some 1⟩],[⟨some (.own 7),false,some 5⟩,⟨some (.own 0),false,some 1⟩],[⟨some (.own 7),false,some 5⟩,⟨some (.own 0),false,some 1⟩],[⟨some (.own 7),false,some 5⟩,⟨some (.own 0),false,some 1⟩],[⟨some (.own 7),false,some 5⟩,⟨some (.own 0),false,some 1⟩],[⟨some (.own 7),false,some 5⟩,⟨some (.own 0),false,some 1⟩],[⟨some (.own 7),false,some 5⟩,⟨some (.own 0),false,some 1⟩],[⟨some (.own 7),false,some 5⟩,⟨some (.own 0),false,some 1⟩],[⟨some (.own 7),false,some 5⟩,⟨some (.own 0),false,some 1⟩],[⟨some (.own 7),false,some 5⟩,⟨some (.own 0),false,some 1⟩],[⟨some (.own 7),false,some 5⟩,⟨some (.own 0),false,some 1⟩],[⟨some (.own 7),false,some 5⟩,⟨some (.own 0),false,some 1⟩],[⟨some (.own 7),false,some 5⟩,⟨some (.own 0),false,some 1⟩],[⟨some (.own 7),false,some 5⟩,⟨some (.own 0),false,some 1⟩],[⟨some (.own 7),false,some 5⟩,⟨some (.own 0),false,some 1⟩],[⟨some (.own 7),false,some 5⟩,⟨some (.own 0),false,some 1⟩],[⟨some (.own 7),false,some 5⟩,⟨some (.own 0),false,some 1⟩],[⟨some (.own 7),false,some 5⟩,⟨some (.own 0),false,some 1⟩],[⟨some (.own 7),false,some 5⟩,⟨some (.own 0),false,some 1⟩],[⟨some (.own 7),false,some 5⟩,⟨some (.own 0),false,some 1⟩],[⟨some (.own 7),false,some 5⟩,⟨some (.own 0),false,some 1⟩],[⟨some (.own 7),false,some 5⟩,⟨some (.own 0),false,some 1⟩],[⟨some (.own 7),false,some 5⟩,⟨some (.own 0),false,some 1⟩],[⟨some .internalNl,true,some 2⟩],[⟨some .internalNl,true,some 2⟩],[⟨some .internalNl,true,some 2⟩],[⟨some (.own 7),true,some 5⟩,⟨some .internalNl,true,some 5⟩,⟨some (.own 0),true,some 1⟩,⟨some .internalNl,true,some 1⟩],[⟨some (.own 7),true,some 5⟩,⟨some .internalNl,true,some 5⟩,⟨some (.own 0),true,some 1⟩,⟨some .internalNl,true,some 1⟩],[⟨some (.own 7),false,some 5⟩,⟨some (.own 0),false,some 1⟩],[⟨some (.own 7),false,some 5⟩,⟨some (.own 0),false,some 1⟩],[⟨some (.own 7),false,some 5⟩,⟨some (.own 0),false,some 1⟩],[⟨some (.own 7),false,some 5⟩,⟨some (.own 0),false,some 1⟩],[⟨some (.own 7),false,some 5⟩,⟨some (.own 0),false,some 1⟩],[⟨some (.own 7),false,some 5⟩,⟨some (.own 0),false,some 1⟩],[⟨some .internalNl,true,some 2⟩],[⟨some .internalNl,true,some 2⟩],[⟨some .internalNl,true,some 2⟩]]
theorem haml_n1_closed : closed emb57_rows haml_n1_tab (NA.init haml_nopt 1) (NA.succ haml_M haml_nopt 1) (NA.eofOk haml_M haml_nopt 1) = true := by
  decide +kernel
def haml_n1 : NCert haml_M haml_nopt 1 := ⟨emb57_D, haml_n1_tab, haml_n1_closed⟩
def haml_n0_tab : List (List NA) := [[⟨none,true,none⟩],[⟨some (.own 0),true,some 1⟩],[⟨some .newline,true,some 4⟩],[⟨some .newline,true,some 4⟩],[⟨some .newline,true,none⟩],[⟨some .newline,true,some 4⟩],[⟨some (.own 3),true,some 5⟩],[⟨some (.own 3),true,some 2⟩],[⟨some (.own 3),true,some 5⟩],[⟨some (.own 3),true,some 5⟩],[⟨some (.own 3),true,some 5⟩],[⟨some (.own 3),true,some 5⟩],[⟨some (.own 3),true,some 5⟩],[⟨some .newline,true,some 4⟩],[],[⟨some (.own 3),true,some 5⟩,⟨some .internalNl,true,some 5⟩],[⟨some (.own 3),true,some 5⟩,⟨some .internalNl,true,some 5⟩],[⟨some (.own 3),true,some 5⟩,⟨some .internalNl,true,some 5⟩],[⟨some (.own 3),true,some 5⟩,⟨some .internalNl,true,some 5⟩],[⟨some (.own 3),true,some 5⟩,⟨some .internalNl,true,some 5⟩],[⟨some (.own 3),true,some 5⟩,⟨some .internalNl,true,some 5⟩],[⟨some (.own 3),true,some 5⟩,⟨some .internalNl,true,some 5⟩],[⟨some (.own 3),true,some 2⟩],[⟨some (.own 3),true,some 5⟩],[⟨some (.own 3),true,some 5⟩],[⟨some (.own 3),true,some 5⟩],[⟨some (.own 3),true,some 5⟩,⟨some .internalNl,true,some 5⟩],[⟨some (.own 3),true,some 5⟩,⟨some .internalNl,true,some 5⟩],[⟨some (.own 3),true,some 5⟩,⟨some .internalNl,true,some 5⟩],[⟨some (.own 3),true,some 5⟩,⟨some .internalNl,true,some 5⟩],[⟨some (.own 3),true,some 5⟩,⟨some .internalNl,true,some 5⟩],[⟨some (.own 3),true,some 5⟩,⟨some .internalNl,true,some 5⟩],[⟨some (.own 3),true,some 5⟩,⟨some .internalNl,true,some 5⟩],[⟨some (.own 3),true,some 5⟩],[⟨some (.own 3),true,some 5⟩],[⟨some (.own 3),true,some 5⟩],[⟨some (.own 3),true,some 5⟩,⟨some .internalNl,true,some 5⟩],[⟨some (.own 3),true,some 5⟩,⟨some .internalNl,true,some 5⟩],[⟨some (.own 3),true,some 5⟩,⟨some .internalNl,true,some 5⟩],[⟨some (.own 3),true,some 5⟩,⟨some .internalNl,true,some 5⟩],[⟨some (.own 3),true,some 5⟩,⟨some .internalNl,true,some 5⟩],[⟨some (.own 3),true,some 5⟩,⟨some .internalNl,true,some 5⟩],[⟨some (.own 3),true,some 5⟩,⟨some .internalNl,true,some 5⟩],[⟨some .internalNl,true,some 5⟩,⟨some (.own 3),true,some 5⟩],[⟨some .internalNl,true,some 5⟩],[⟨some (.own 3),true,some 5⟩,⟨some .internalNl,true,some 5⟩],[⟨some (.own 3),true,some 5⟩,⟨some .internalNl,true,some 5⟩],[⟨some (.own 3),true,some 5⟩,⟨some .internalNl,true,some 5⟩],[⟨some (.own 3),true,some 5⟩,⟨some .internalNl,true,some 5⟩],[⟨some (.own 3),true,some 5⟩,⟨some .internalNl,true,some 5⟩],[⟨some (.own 3),true,some 5⟩,⟨some .internalNl,true,some 5⟩],[⟨some (.own 3),true,some 5⟩,⟨some .internalNl,true,some 5⟩],[⟨some (.own 3),true,some 5⟩,⟨some .internalNl,true,some 5⟩],[⟨some (.own 3),true,some 5⟩],[⟨some .internalNl,true,some 5⟩,⟨some (.own 3),true,some 5⟩],[⟨some .internalNl,true,some 5⟩],[⟨some (.own 3),true,some 5⟩,⟨some .internalNl,true,some 5⟩],[⟨some (.own 3),true,some 5⟩],[⟨some (.own 3),true,some 5⟩],[⟨some .internalNl,true,some 5⟩,⟨some (.own 3),true,some 5⟩],[⟨some .internalNl,true,some 5⟩],[⟨some (.own 3),true,some 5⟩,⟨some .internalNl,true,some 5⟩],[⟨some .internalNl,true,some 5⟩,⟨some (.own 3),true,some 5⟩],[⟨some .internalNl,true,some 5⟩],[⟨some (.own 3),true,some 5⟩,⟨some .internalNl,true,some 5⟩],[⟨some (.own 3),true,some 5⟩,⟨some .internalNl,true,some 5⟩],[⟨some (.own 3),true,some 5⟩,⟨some .internalNl,true,some 5⟩],[⟨some (.own 3),true,some 5⟩,⟨some .internalNl,true,some 5⟩],[⟨some (.own 3),true,some 5⟩,⟨some .internalNl,true,some 5⟩],[⟨some (.own 3),true,some 5⟩,⟨some .internalNl,true,some 5⟩],[⟨some (.own 3),true,some 5⟩,⟨some .internalNl,true,some 5⟩],[⟨some (.own 3),true,some 5⟩,⟨some .internalNl,true,some 5⟩],[⟨some (.own 3),true,some 5⟩],[⟨some .internalNl,true,some 5⟩,⟨some (.own 3),true,some 5⟩],[⟨some .internalNl,true,some 5⟩],[⟨some (.own 3),true,some 5⟩,⟨some .internalNl,true,some 5⟩],[⟨some (.own 3),true,some 5⟩],[⟨some (.own 3),true,some 5⟩],[⟨some (.own 3),true,some 5⟩,⟨some .internalNl,true,some 5⟩],[⟨some (.own 3),true,some 5⟩,⟨some .internalNl,true,some 5⟩],[⟨some (.own 3),true,some 5⟩,⟨some .internalNl,true,some 5⟩],[⟨some (.own 3),true,some 5⟩,⟨some .internalNl,true,some 5⟩],[⟨some (.own 3),true,some 5⟩,⟨some .internalNl,true,some 5⟩],[⟨some (.own 3),true,some 5⟩,⟨some .internalNl,true,some 5⟩],[⟨some (.own 3),true,some 5⟩,⟨some .internalNl,true,some 5⟩],[⟨some .internalNl,true,some 5⟩,⟨some (.own 3),true,some 5⟩],[⟨some .internalNl,true,some 5⟩],[⟨some (.own 3),true,some 5⟩,⟨some .internalNl,true,some 5⟩],[⟨some (.own 3),true,some 5⟩,⟨some .internalNl,true,some 5⟩]]
theorem haml_n0_closed : closed emb56_rows haml_n0_tab (NA.init haml_nopt 0) (NA.succ haml_M haml_nopt 0) (NA.eofOk haml_M haml_nopt 0) = true := by
  decide +kernel
def haml_n0 : NCert haml_M haml_nopt 0 := ⟨emb56_D, haml_n0_tab, haml_n0_closed⟩
theorem haml_null : ∀ m ∈ haml_nopt.use, Nonempty (NCert haml_M haml_nopt m) :=
  (List.forall_mem_cons.mpr ⟨⟨haml_n1⟩,
  (List.forall_mem_cons.mpr ⟨⟨haml_n0⟩,
  (fun _ h => nomatch h)⟩)⟩)

theorem haml_not_null (l : ELeft) (buf : List Byte) : (Emb.Haml.parser.final Emb.Haml.parser.multi l buf).d.ub = false :=
  final_not_null haml_nopt (by decide) (by decide) (haml_M_eq ▸ haml_null) l buf

end Ohcount.Cert
