import Verif.Cert.EAll
import Verif.EmbedWhole

/-! Generated by tools/gen_embcerts.py. -/

namespace Ohcount.Cert
open Ohcount.Ragel Ohcount.Gram

set_option maxRecDepth 100000

def html_lineE : List Nat := [2,0,1]
def html_lineE_tab2 : List (List Bool) := [[false],[true],[true],[true],[true],[true],[true],[true],[true],[true],[true],[true],[true],[true],[true],[true],[true],[true],[true],[true],[true],[true],[true],[true],[true],[true],[true],[true],[true],[true],[true],[true],[true],[true],[true],[true],[true],[true],[true],[true],[true],[true],[true],[true],[true],[true],[true],[true],[true],[true],[true],[true],[true],[true],[true],[true],[true],[true],[true],[true],[true],[true],[true]]
theorem html_lineE_closed2 : closed emb2_rows html_lineE_tab2 false (entSucc html_lineE (html_M.mach 2)) (entEof html_lineE (html_M.mach 2)) = true := by
  decide +kernel
def html_lineE_tab0 : List (List Bool) := [[false],[true],[true],[true],[true],[true],[true],[true],[true],[true],[true],[true],[true],[true],[true],[true],[true],[true],[true],[true],[true],[true],[true],[true],[true],[true],[true],[true],[true],[true],[true],[true],[true],[true],[true],[true],[true],[true],[true],[true],[true],[true],[true],[true],[true],[true],[true],[true],[true],[true],[true]]
theorem html_lineE_closed0 : closed emb0_rows html_lineE_tab0 false (entSucc html_lineE (html_M.mach 0)) (entEof html_lineE (html_M.mach 0)) = true := by
  decide +kernel
def html_lineE_tab1 : List (List Bool) := [[false],[true],[true],[true],[true],[true],[true],[true],[true],[true],[true],[true],[true],[true],[true],[true],[true],[true],[true],[true],[true],[true],[true],[true],[true],[true],[true],[true],[true],[true],[true],[true],[true],[true],[true],[true],[true],[true],[true],[true],[true],[true],[true],[true],[true],[true],[true],[true],[true],[true],[true],[true],[true],[true],[true],[true],[true],[true]]
theorem html_lineE_closed1 : closed emb1_rows html_lineE_tab1 false (entSucc html_lineE (html_M.mach 1)) (entEof html_lineE (html_M.mach 1)) = true := by
  decide +kernel
theorem html_lineE_certs : ∀ m ∈ html_lineE, Nonempty (EntCert html_lineE (html_M.mach m)) :=
  (List.forall_mem_cons.mpr ⟨⟨⟨emb2_D, html_lineE_tab2, html_lineE_closed2⟩⟩,
  (List.forall_mem_cons.mpr ⟨⟨⟨emb0_D, html_lineE_tab0, html_lineE_closed0⟩⟩,
  (List.forall_mem_cons.mpr ⟨⟨⟨emb1_D, html_lineE_tab1, html_lineE_closed1⟩⟩,
  (fun _ h => nomatch h)⟩)⟩)⟩)

def mxml_lineE : List Nat := [2,0,1]
def mxml_lineE_tab2 : List (List Bool) := [[false],[true],[true],[true],[true],[true],[true],[true],[true],[true],[true],[true],[true],[true],[true],[true],[true],[true],[true],[true],[true],[true],[true],[true],[true],[true],[true],[true],[true],[true],[true],[true],[true],[true],[true],[true],[true],[true],[true],[true],[true],[true],[true],[true],[true],[true],[true],[true],[true],[true],[true],[true],[true]]
theorem mxml_lineE_closed2 : closed emb8_rows mxml_lineE_tab2 false (entSucc mxml_lineE (mxml_M.mach 2)) (entEof mxml_lineE (mxml_M.mach 2)) = true := by
  decide +kernel
def mxml_lineE_tab0 : List (List Bool) := [[false],[true],[true],[true],[true],[true],[true],[true],[true],[true],[true],[true],[true],[true],[true],[true],[true],[true],[true],[true],[true],[true],[true],[true],[true],[true],[true],[true],[true],[true],[true],[true],[true],[true],[true],[true],[true],[true],[true],[true],[true],[true],[true],[true],[true],[true],[true]]
theorem mxml_lineE_closed0 : closed emb6_rows mxml_lineE_tab0 false (entSucc mxml_lineE (mxml_M.mach 0)) (entEof mxml_lineE (mxml_M.mach 0)) = true := by
  decide +kernel
def mxml_lineE_tab1 : List (List Bool) := [[false],[true],[true],[true],[true],[true],[true],[true],[true],[true],[true],[true],[true],[true],[true],[true],[true],[true],[true],[true],[true],[true],[true],[true],[true],[true],[true],[true],[true],[true],[true],[true],[true],[true],[true],[true],[true],[true],[true],[true],[true],[true],[true],[true],[true],[true],[true],[true],[true],[true],[true],[true],[true],[true]]
theorem mxml_lineE_closed1 : closed emb7_rows mxml_lineE_tab1 false (entSucc mxml_lineE (mxml_M.mach 1)) (entEof mxml_lineE (mxml_M.mach 1)) = true := by
  decide +kernel
theorem mxml_lineE_certs : ∀ m ∈ mxml_lineE, Nonempty (EntCert mxml_lineE (mxml_M.mach m)) :=
  (List.forall_mem_cons.mpr ⟨⟨⟨emb8_D, mxml_lineE_tab2, mxml_lineE_closed2⟩⟩,
  (List.forall_mem_cons.mpr ⟨⟨⟨emb6_D, mxml_lineE_tab0, mxml_lineE_closed0⟩⟩,
  (List.forall_mem_cons.mpr ⟨⟨⟨emb7_D, mxml_lineE_tab1, mxml_lineE_closed1⟩⟩,
  (fun _ h => nomatch h)⟩)⟩)⟩)

def nix_lineE : List Nat := [2,0,1]
def nix_lineE_tab2 : List (List Bool) := [[false],[true],[true],[true],[true],[true],[true],[true],[true],[true],[true],[true],[true],[true],[true],[true],[true],[true]]
theorem nix_lineE_closed2 : closed emb14_rows nix_lineE_tab2 false (entSucc nix_lineE (nix_M.mach 2)) (entEof nix_lineE (nix_M.mach 2)) = true := by
  decide +kernel
def nix_lineE_tab0 : List (List Bool) := [[false],[true],[true],[true],[],[true],[true],[],[],[],[],[],[],[],[true],[true],[true],[true],[true],[true],[true],[true],[],[],[],[],[],[],[],[true],[true],[true],[true],[true],[true],[true],[],[],[true],[true]]
theorem nix_lineE_closed0 : closed emb12_rows nix_lineE_tab0 false (entSucc nix_lineE (nix_M.mach 0)) (entEof nix_lineE (nix_M.mach 0)) = true := by
  decide +kernel
def nix_lineE_tab1 : List (List Bool) := [[false],[true],[true],[true],[true],[true],[true],[true],[true],[true],[true],[true],[true],[true],[true],[true],[true],[true],[true],[true],[true],[true],[true],[true],[true],[true],[true],[true],[true],[true],[true],[true],[true],[true],[true],[true],[true],[true],[true],[true]]
theorem nix_lineE_closed1 : closed emb13_rows nix_lineE_tab1 false (entSucc nix_lineE (nix_M.mach 1)) (entEof nix_lineE (nix_M.mach 1)) = true := by
  decide +kernel
theorem nix_lineE_certs : ∀ m ∈ nix_lineE, Nonempty (EntCert nix_lineE (nix_M.mach m)) :=
  (List.forall_mem_cons.mpr ⟨⟨⟨emb14_D, nix_lineE_tab2, nix_lineE_closed2⟩⟩,
  (List.forall_mem_cons.mpr ⟨⟨⟨emb12_D, nix_lineE_tab0, nix_lineE_closed0⟩⟩,
  (List.forall_mem_cons.mpr ⟨⟨⟨emb13_D, nix_lineE_tab1, nix_lineE_closed1⟩⟩,
  (fun _ h => nomatch h)⟩)⟩)⟩)

def jsp_lineE : List Nat := [6,3,4,5,0,1,2]
def jsp_lineE_tab6 : List (List Bool) := [[false],[true],[true],[true],[true],[true],[true],[true],[true],[true],[true],[true],[true],[true],[true],[true],[true],[true],[true],[true],[true],[true],[true],[true],[true],[true],[true],[true],[true],[true],[true],[true],[true],[true],[true],[true],[true],[true],[true],[true],[true],[true],[true],[true]]
theorem jsp_lineE_closed6 : closed emb29_rows jsp_lineE_tab6 false (entSucc jsp_lineE (jsp_M.mach 6)) (entEof jsp_lineE (jsp_M.mach 6)) = true := by
  decide +kernel
def jsp_lineE_tab3 : List (List Bool) := [[false],[true],[true],[true],[true],[true],[true],[true],[true],[true],[true],[true],[true],[true],[true],[true],[true],[true],[true],[true],[true],[true],[true],[true],[true],[true],[true],[true],[true],[true],[true],[true],[true],[true],[true],[true],[true],[true],[true],[true],[true],[true],[true],[true],[true],[true],[true],[true],[true],[true],[true]]
theorem jsp_lineE_closed3 : closed emb0_rows jsp_lineE_tab3 false (entSucc jsp_lineE (jsp_M.mach 3)) (entEof jsp_lineE (jsp_M.mach 3)) = true := by
  decide +kernel
def jsp_lineE_tab4 : List (List Bool) := [[false],[true],[true],[true],[true],[true],[true],[true],[true],[true],[true],[true],[true],[true],[true],[true],[true],[true],[true],[true],[true],[true],[true],[true],[true],[true],[true],[true],[true],[true],[true],[true],[true],[true],[true],[true],[true],[true],[true],[true],[true],[true],[true],[true],[true],[true],[true],[true],[true],[true],[true],[true],[true],[true],[true],[true],[true],[true]]
theorem jsp_lineE_closed4 : closed emb1_rows jsp_lineE_tab4 false (entSucc jsp_lineE (jsp_M.mach 4)) (entEof jsp_lineE (jsp_M.mach 4)) = true := by
  decide +kernel
def jsp_lineE_tab5 : List (List Bool) := [[false],[true],[true],[true],[true],[true],[true],[true],[true],[true],[true],[true],[true],[true],[true],[true],[true],[true],[true],[true],[true],[true],[true],[true],[true],[true]]
theorem jsp_lineE_closed5 : closed emb28_rows jsp_lineE_tab5 false (entSucc jsp_lineE (jsp_M.mach 5)) (entEof jsp_lineE (jsp_M.mach 5)) = true := by
  decide +kernel
def jsp_lineE_tab0 : List (List Bool) := [[false],[false,true],[false,true],[false,true],[false,true],[false,true],[false,true],[false,true],[false,true],[false,true],[true],[false,true],[false,true],[false,true],[false,true],[false,true],[false,true],[false,true],[false,true],[false],[false,true],[false,true],[false,true],[false,true],[false,true],[false,true],[false,true],[false,true],[false,true],[false,true],[false,true],[false,true],[false],[false],[false],[false],[false],[false],[false],[false],[false],[false,true],[false,true],[false,true],[false,true],[false,true],[false,true],[false,true],[false,true],[false],[false,true],[false,true],[false],[false],[false],[false],[false],[false],[false],[false],[false]]
theorem jsp_lineE_closed0 : closed emb25_rows jsp_lineE_tab0 false (entSucc jsp_lineE (jsp_M.mach 0)) (entEof jsp_lineE (jsp_M.mach 0)) = true := by
  decide +kernel
def jsp_lineE_tab1 : List (List Bool) := [[false],[false,true],[false,true],[false,true],[false,true],[false,true],[false,true],[false,true],[false,true],[false,true],[true],[false,true],[false,true],[false,true],[false,true],[false,true],[false,true],[false],[],[false,true],[false,true],[false,true],[false,true],[false,true],[false,true],[false,true],[false,true],[false,true],[],[false,true],[false,true],[false,true],[false],[false],[false],[false],[false],[false],[],[false],[false],[false,true],[false,true],[false,true],[false,true],[false,true],[false,true],[false],[],[false,true],[false,true],[false,true],[false,true],[],[false,true],[false,true],[false],[false],[false],[false],[false],[false],[],[false],[false]]
theorem jsp_lineE_closed1 : closed emb26_rows jsp_lineE_tab1 false (entSucc jsp_lineE (jsp_M.mach 1)) (entEof jsp_lineE (jsp_M.mach 1)) = true := by
  decide +kernel
def jsp_lineE_tab2 : List (List Bool) := [[false],[false,true],[false,true],[false,true],[false,true],[false,true],[false,true],[false,true],[false,true],[false,true],[true],[false,true],[false,true],[false,true],[false,true],[false,true],[false,true],[],[false],[false,true],[false,true],[false,true],[false,true],[false,true],[false,true],[false,true],[false,true],[false,true],[],[false,true],[false,true],[false,true],[false],[false],[false],[false],[false],[false],[],[false],[false],[false,true],[false,true],[false,true],[false,true],[false,true],[false,true],[],[false],[false,true],[false,true],[false,true],[false,true],[],[false,true],[false,true],[false],[false],[false],[false],[false],[false],[],[false],[false]]
theorem jsp_lineE_closed2 : closed emb27_rows jsp_lineE_tab2 false (entSucc jsp_lineE (jsp_M.mach 2)) (entEof jsp_lineE (jsp_M.mach 2)) = true := by
  decide +kernel
theorem jsp_lineE_certs : ∀ m ∈ jsp_lineE, Nonempty (EntCert jsp_lineE (jsp_M.mach m)) :=
  (List.forall_mem_cons.mpr ⟨⟨⟨emb29_D, jsp_lineE_tab6, jsp_lineE_closed6⟩⟩,
  (List.forall_mem_cons.mpr ⟨⟨⟨emb0_D, jsp_lineE_tab3, jsp_lineE_closed3⟩⟩,
  (List.forall_mem_cons.mpr ⟨⟨⟨emb1_D, jsp_lineE_tab4, jsp_lineE_closed4⟩⟩,
  (List.forall_mem_cons.mpr ⟨⟨⟨emb28_D, jsp_lineE_tab5, jsp_lineE_closed5⟩⟩,
  (List.forall_mem_cons.mpr ⟨⟨⟨emb25_D, jsp_lineE_tab0, jsp_lineE_closed0⟩⟩,
  (List.forall_mem_cons.mpr ⟨⟨⟨emb26_D, jsp_lineE_tab1, jsp_lineE_closed1⟩⟩,
  (List.forall_mem_cons.mpr ⟨⟨⟨emb27_D, jsp_lineE_tab2, jsp_lineE_closed2⟩⟩,
  (fun _ h => nomatch h)⟩)⟩)⟩)⟩)⟩)⟩)⟩)

def phphtml_lineE : List Nat := [6,3,4,5,0,1,2]
def phphtml_lineE_tab6 : List (List Bool) := [[false],[true],[true],[true],[true],[true],[true],[true],[true],[true],[true],[true],[true],[true],[true],[true],[true],[true],[true],[true],[true],[true],[true],[true],[true],[true],[true],[true],[true],[true],[true],[true],[true],[true],[true],[true],[true],[true],[true],[true],[true],[true],[true],[true],[true],[true],[true]]
theorem phphtml_lineE_closed6 : closed emb36_rows phphtml_lineE_tab6 false (entSucc phphtml_lineE (phphtml_M.mach 6)) (entEof phphtml_lineE (phphtml_M.mach 6)) = true := by
  decide +kernel
def phphtml_lineE_tab3 : List (List Bool) := [[false],[true],[true],[true],[true],[true],[true],[true],[true],[true],[true],[true],[true],[true],[true],[true],[true],[true],[true],[true],[true],[true],[true],[true],[true],[true],[true],[true],[true],[true],[true],[true],[true],[true],[true],[true],[true],[true],[true],[true],[true],[true],[true],[true],[true],[true],[true],[true],[true],[true],[true]]
theorem phphtml_lineE_closed3 : closed emb0_rows phphtml_lineE_tab3 false (entSucc phphtml_lineE (phphtml_M.mach 3)) (entEof phphtml_lineE (phphtml_M.mach 3)) = true := by
  decide +kernel
def phphtml_lineE_tab4 : List (List Bool) := [[false],[true],[true],[true],[true],[true],[true],[true],[true],[true],[true],[true],[true],[true],[true],[true],[true],[true],[true],[true],[true],[true],[true],[true],[true],[true],[true],[true],[true],[true],[true],[true],[true],[true],[true],[true],[true],[true],[true],[true],[true],[true],[true],[true],[true],[true],[true],[true],[true],[true],[true],[true],[true],[true],[true],[true],[true],[true]]
theorem phphtml_lineE_closed4 : closed emb1_rows phphtml_lineE_tab4 false (entSucc phphtml_lineE (phphtml_M.mach 4)) (entEof phphtml_lineE (phphtml_M.mach 4)) = true := by
  decide +kernel
def phphtml_lineE_tab5 : List (List Bool) := [[false],[true],[true],[true],[true],[true],[true],[true],[],[true],[true],[true],[true],[true],[true],[true],[true],[true],[true],[true],[true],[true],[true],[true],[true],[true],[true],[true],[true],[true],[true],[true],[true],[true],[true],[true],[true],[true],[true],[true],[true]]
theorem phphtml_lineE_closed5 : closed emb35_rows phphtml_lineE_tab5 false (entSucc phphtml_lineE (phphtml_M.mach 5)) (entEof phphtml_lineE (phphtml_M.mach 5)) = true := by
  decide +kernel
def phphtml_lineE_tab0 : List (List Bool) := [[false],[false,true],[false,true],[false,true],[false,true],[false,true],[false,true],[false,true],[false,true],[false,true],[true],[false,true],[false,true],[false,true],[false,true],[false,true],[false,true],[false,true],[false,true],[false,true],[false,true],[false,true],[false,true],[false,true],[false,true],[false,true],[false,true],[false,true],[false,true],[false,true],[false,true],[false,true],[false,true],[false,true],[false,true],[false,true],[false,true],[false,true],[false,true],[false,true],[false,true],[false,true],[false,true],[false,true],[false,true],[false,true],[false,true],[false,true],[false,true],[false,true],[false,true],[false,true],[false,true],[false,true],[false,true],[false,true],[false,true],[false,true],[false,true],[false,true],[false,true],[false,true],[false,true],[false,true],[false,true],[false,true],[false,true],[false,true],[false,true],[false,true],[false,true],[false,true],[false,true],[false,true],[false,true],[false,true],[false,true],[false,true],[false,true],[false,true],[false,true],[false,true],[false,true],[false,true],[false,true],[false,true],[false,true],[false,true],[false,true],[false,true],[false,true],[false,true],[false],[false,true],[false,true],[false,true],[false,true],[false,true],[false,true],[false,true],[false,true],[false,true],[false],[false],[false],[false],[false],[false],[false],[false],[false],[false],[false],[false],[false],[false],[false],[false],[false],[false],[false]]
theorem phphtml_lineE_closed0 : closed emb32_rows phphtml_lineE_tab0 false (entSucc phphtml_lineE (phphtml_M.mach 0)) (entEof phphtml_lineE (phphtml_M.mach 0)) = true := by
  decide +kernel
def phphtml_lineE_tab1 : List (List Bool) := [[false],[false,true],[false,true],[false,true],[false,true],[false,true],[false,true],[false,true],[false,true],[false,true],[true],[false,true],[false,true],[false,true],[false,true],[false,true],[false,true],[],[false,true],[false,true],[false,true],[false,true],[false,true],[false,true],[false,true],[false,true],[false,true],[false,true],[],[false,true],[false,true],[false,true],[false,true],[false,true],[false,true],[false,true],[false,true],[false,true],[],[false,true],[false,true],[false,true],[false,true],[false,true],[false,true],[false,true],[false,true],[false,true],[],[false,true],[false,true],[false,true],[false,true],[false,true],[],[false,true],[false,true],[false,true],[false,true],[false,true],[false,true],[false,true],[false,true],[],[false,true],[false,true],[false,true],[false,true],[false,true],[false,true],[false,true],[false,true],[false,true],[],[false,true],[false,true],[false,true],[false,true],[false,true],[false,true],[false,true],[false,true],[false,true],[],[false,true],[false,true],[false,true],[false,true],[false,true],[false,true],[false,true],[false,true],[false,true],[],[false,true],[false,true],[false],[false,true],[false,true],[false,true],[false,true],[false,true],[false,true],[],[false,true],[false,true],[false],[false],[false],[false],[false],[false],[false],[],[false],[false],[false],[false],[false],[false],[false],[false],[],[false],[false]]
theorem phphtml_lineE_closed1 : closed emb33_rows phphtml_lineE_tab1 false (entSucc phphtml_lineE (phphtml_M.mach 1)) (entEof phphtml_lineE (phphtml_M.mach 1)) = true := by
  decide +kernel
def phphtml_lineE_tab2 : List (List Bool) := [[false],[false,true],[false,true],[false,true],[false,true],[false,true],[false,true],[false,true],[false,true],[false,true],[true],[false,true],[false,true],[false,true],[false,true],[false,true],[false,true],[],[false,true],[false,true],[false,true],[false,true],[false,true],[false,true],[false,true],[false,true],[false,true],[false,true],[],[false,true],[false,true],[false,true],[false,true],[false,true],[false,true],[false,true],[false,true],[false,true],[],[false,true],[false,true],[false,true],[false,true],[false,true],[false,true],[false,true],[false,true],[false,true],[],[false,true],[false,true],[false,true],[false,true],[false,true],[],[false,true],[false,true],[false,true],[false,true],[false,true],[false,true],[false,true],[false,true],[],[false,true],[false,true],[false,true],[false,true],[false,true],[false,true],[false,true],[false,true],[false,true],[],[false,true],[false,true],[false,true],[false,true],[false,true],[false,true],[false,true],[false,true],[false,true],[],[false,true],[false,true],[false,true],[false,true],[false,true],[false,true],[false,true],[false,true],[false,true],[],[false,true],[false,true],[false],[false,true],[false,true],[false,true],[false,true],[false,true],[false,true],[],[false,true],[false,true],[false],[false],[false],[false],[false],[false],[false],[],[false],[false],[false],[false],[false],[false],[false],[false],[],[false],[false]]
theorem phphtml_lineE_closed2 : closed emb34_rows phphtml_lineE_tab2 false (entSucc phphtml_lineE (phphtml_M.mach 2)) (entEof phphtml_lineE (phphtml_M.mach 2)) = true := by
  decide +kernel
theorem phphtml_lineE_certs : ∀ m ∈ phphtml_lineE, Nonempty (EntCert phphtml_lineE (phphtml_M.mach m)) :=
  (List.forall_mem_cons.mpr ⟨⟨⟨emb36_D, phphtml_lineE_tab6, phphtml_lineE_closed6⟩⟩,
  (List.forall_mem_cons.mpr ⟨⟨⟨emb0_D, phphtml_lineE_tab3, phphtml_lineE_closed3⟩⟩,
  (List.forall_mem_cons.mpr ⟨⟨⟨emb1_D, phphtml_lineE_tab4, phphtml_lineE_closed4⟩⟩,
  (List.forall_mem_cons.mpr ⟨⟨⟨emb35_D, phphtml_lineE_tab5, phphtml_lineE_closed5⟩⟩,
  (List.forall_mem_cons.mpr ⟨⟨⟨emb32_D, phphtml_lineE_tab0, phphtml_lineE_closed0⟩⟩,
  (List.forall_mem_cons.mpr ⟨⟨⟨emb33_D, phphtml_lineE_tab1, phphtml_lineE_closed1⟩⟩,
  (List.forall_mem_cons.mpr ⟨⟨⟨emb34_D, phphtml_lineE_tab2, phphtml_lineE_closed2⟩⟩,
  (fun _ h => nomatch h)⟩)⟩)⟩)⟩)⟩)⟩)⟩)

def clearsilverhtml_lineE : List Nat := [6,3,4,5,0,1,2]
def clearsilverhtml_lineE_tab6 : List (List Bool) := [[false],[true],[true],[true],[true],[true],[true],[true],[true],[true],[true],[true],[true],[true],[true],[true],[true],[true],[true],[true],[true],[true],[true],[true],[true],[true],[true],[true],[true],[true],[true],[true],[true],[true],[true],[true],[true],[true],[true],[true],[true],[true],[true],[true],[true],[true]]
theorem clearsilverhtml_lineE_closed6 : closed emb43_rows clearsilverhtml_lineE_tab6 false (entSucc clearsilverhtml_lineE (clearsilverhtml_M.mach 6)) (entEof clearsilverhtml_lineE (clearsilverhtml_M.mach 6)) = true := by
  decide +kernel
def clearsilverhtml_lineE_tab3 : List (List Bool) := [[false],[true],[true],[true],[true],[true],[true],[true],[true],[true],[true],[true],[true],[true],[true],[true],[true],[true],[true],[true],[true],[true],[true],[true],[true],[true],[true],[true],[true],[true],[true],[true],[true],[true],[true],[true],[true],[true],[true],[true],[true],[true],[true],[true],[true],[true],[true],[true],[true],[true],[true]]
theorem clearsilverhtml_lineE_closed3 : closed emb0_rows clearsilverhtml_lineE_tab3 false (entSucc clearsilverhtml_lineE (clearsilverhtml_M.mach 3)) (entEof clearsilverhtml_lineE (clearsilverhtml_M.mach 3)) = true := by
  decide +kernel
def clearsilverhtml_lineE_tab4 : List (List Bool) := [[false],[true],[true],[true],[true],[true],[true],[true],[true],[true],[true],[true],[true],[true],[true],[true],[true],[true],[true],[true],[true],[true],[true],[true],[true],[true],[true],[true],[true],[true],[true],[true],[true],[true],[true],[true],[true],[true],[true],[true],[true],[true],[true],[true],[true],[true],[true],[true],[true],[true],[true],[true],[true],[true],[true],[true],[true],[true]]
theorem clearsilverhtml_lineE_closed4 : closed emb1_rows clearsilverhtml_lineE_tab4 false (entSucc clearsilverhtml_lineE (clearsilverhtml_M.mach 4)) (entEof clearsilverhtml_lineE (clearsilverhtml_M.mach 4)) = true := by
  decide +kernel
def clearsilverhtml_lineE_tab5 : List (List Bool) := [[false],[true],[true],[true],[true],[true],[true],[true],[true],[true],[true]]
theorem clearsilverhtml_lineE_closed5 : closed emb42_rows clearsilverhtml_lineE_tab5 false (entSucc clearsilverhtml_lineE (clearsilverhtml_M.mach 5)) (entEof clearsilverhtml_lineE (clearsilverhtml_M.mach 5)) = true := by
  decide +kernel
def clearsilverhtml_lineE_tab0 : List (List Bool) := [[false],[false,true],[false,true],[false,true],[false,true],[false,true],[false,true],[false,true],[false,true],[false,true],[true],[false,true],[false,true],[false,true],[false,true],[false,true],[false,true],[false,true],[false,true],[false,true],[false,true],[false,true],[false,true],[false,true],[false,true],[false,true],[false,true],[false,true],[false,true],[false,true],[false,true],[false,true],[false,true],[false,true],[false,true],[false,true],[false,true],[false,true],[false,true],[false,true],[false,true],[false,true],[false,true],[false,true],[false,true],[false,true],[false,true],[false,true],[false,true],[false,true],[false,true],[false,true],[false,true],[false,true],[false,true],[false,true],[false,true],[false,true],[false,true],[false,true],[false,true],[false,true],[false,true],[false,true],[false,true],[false,true],[false,true],[false,true],[false,true],[false,true],[false,true],[false,true],[false],[false,true],[false,true],[false,true],[false,true],[false,true],[false,true],[false,true],[false,true],[false,true],[false],[false],[false],[false],[false],[false],[false],[false],[false],[false],[false],[false],[false],[false],[false],[false],[false],[false],[false]]
theorem clearsilverhtml_lineE_closed0 : closed emb39_rows clearsilverhtml_lineE_tab0 false (entSucc clearsilverhtml_lineE (clearsilverhtml_M.mach 0)) (entEof clearsilverhtml_lineE (clearsilverhtml_M.mach 0)) = true := by
  decide +kernel
def clearsilverhtml_lineE_tab1 : List (List Bool) := [[false],[false,true],[false,true],[false,true],[false,true],[false,true],[false,true],[false,true],[false,true],[false,true],[true],[false,true],[false,true],[false,true],[false,true],[false,true],[false,true],[],[false,true],[false,true],[false,true],[false,true],[false,true],[false,true],[false,true],[false,true],[false,true],[false,true],[],[false,true],[false,true],[false,true],[false,true],[false,true],[false,true],[false,true],[false,true],[false,true],[],[false,true],[false,true],[false,true],[false,true],[false,true],[false,true],[false,true],[false,true],[false,true],[],[false,true],[false,true],[false,true],[false,true],[false,true],[],[false,true],[false,true],[false,true],[false,true],[false,true],[false,true],[false,true],[false,true],[],[false,true],[false,true],[false,true],[false,true],[false,true],[false,true],[false,true],[false,true],[false,true],[],[false,true],[false,true],[false],[false,true],[false,true],[false,true],[false,true],[false,true],[false,true],[],[false,true],[false,true],[false],[false],[false],[false],[false],[false],[false],[],[false],[false],[false],[false],[false],[false],[false],[false],[],[false],[false]]
theorem clearsilverhtml_lineE_closed1 : closed emb40_rows clearsilverhtml_lineE_tab1 false (entSucc clearsilverhtml_lineE (clearsilverhtml_M.mach 1)) (entEof clearsilverhtml_lineE (clearsilverhtml_M.mach 1)) = true := by
  decide +kernel
def clearsilverhtml_lineE_tab2 : List (List Bool) := [[false],[false,true],[false,true],[false,true],[false,true],[false,true],[false,true],[false,true],[false,true],[false,true],[true],[false,true],[false,true],[false,true],[false,true],[false,true],[false,true],[],[false,true],[false,true],[false,true],[false,true],[false,true],[false,true],[false,true],[false,true],[false,true],[false,true],[],[false,true],[false,true],[false,true],[false,true],[false,true],[false,true],[false,true],[false,true],[false,true],[],[false,true],[false,true],[false,true],[false,true],[false,true],[false,true],[false,true],[false,true],[false,true],[],[false,true],[false,true],[false,true],[false,true],[false,true],[],[false,true],[false,true],[false,true],[false,true],[false,true],[false,true],[false,true],[false,true],[],[false,true],[false,true],[false,true],[false,true],[false,true],[false,true],[false,true],[false,true],[false,true],[],[false,true],[false,true],[false],[false,true],[false,true],[false,true],[false,true],[false,true],[false,true],[],[false,true],[false,true],[false],[false],[false],[false],[false],[false],[false],[],[false],[false],[false],[false],[false],[false],[false],[false],[],[false],[false]]
theorem clearsilverhtml_lineE_closed2 : closed emb41_rows clearsilverhtml_lineE_tab2 false (entSucc clearsilverhtml_lineE (clearsilverhtml_M.mach 2)) (entEof clearsilverhtml_lineE (clearsilverhtml_M.mach 2)) = true := by
  decide +kernel
theorem clearsilverhtml_lineE_certs : ∀ m ∈ clearsilverhtml_lineE, Nonempty (EntCert clearsilverhtml_lineE (clearsilverhtml_M.mach m)) :=
  (List.forall_mem_cons.mpr ⟨⟨⟨emb43_D, clearsilverhtml_lineE_tab6, clearsilverhtml_lineE_closed6⟩⟩,
  (List.forall_mem_cons.mpr ⟨⟨⟨emb0_D, clearsilverhtml_lineE_tab3, clearsilverhtml_lineE_closed3⟩⟩,
  (List.forall_mem_cons.mpr ⟨⟨⟨emb1_D, clearsilverhtml_lineE_tab4, clearsilverhtml_lineE_closed4⟩⟩,
  (List.forall_mem_cons.mpr ⟨⟨⟨emb42_D, clearsilverhtml_lineE_tab5, clearsilverhtml_lineE_closed5⟩⟩,
  (List.forall_mem_cons.mpr ⟨⟨⟨emb39_D, clearsilverhtml_lineE_tab0, clearsilverhtml_lineE_closed0⟩⟩,
  (List.forall_mem_cons.mpr ⟨⟨⟨emb40_D, clearsilverhtml_lineE_tab1, clearsilverhtml_lineE_closed1⟩⟩,
  (List.forall_mem_cons.mpr ⟨⟨⟨emb41_D, clearsilverhtml_lineE_tab2, clearsilverhtml_lineE_closed2⟩⟩,
  (fun _ h => nomatch h)⟩)⟩)⟩)⟩)⟩)⟩)⟩)

def csAspx_lineE : List Nat := [6,3,4,5,0,1,2]
def csAspx_lineE_tab6 : List (List Bool) := [[false],[true],[true],[true],[true],[true],[true],[true],[true],[true],[true],[true],[true],[true],[true],[true],[true],[true],[true],[true],[true],[true],[true],[true],[true],[true],[true],[true],[true],[true],[true],[true],[true],[true],[true],[true],[true],[true],[true],[true],[true],[true],[true],[true],[true],[true],[true],[true],[true],[true],[true],[true],[true],[true],[true],[true],[true],[true],[true],[true],[true],[true],[true],[true],[true],[true],[true],[true],[true],[true],[true],[true],[true]]
theorem csAspx_lineE_closed6 : closed emb47_rows csAspx_lineE_tab6 false (entSucc csAspx_lineE (csAspx_M.mach 6)) (entEof csAspx_lineE (csAspx_M.mach 6)) = true := by
  decide +kernel
def csAspx_lineE_tab3 : List (List Bool) := [[false],[true],[true],[true],[true],[true],[true],[true],[true],[true],[true],[true],[true],[true],[true],[true],[true],[true],[true],[true],[true],[true],[true],[true],[true],[true],[true],[true],[true],[true],[true],[true],[true],[true],[true],[true],[true],[true],[true],[true],[true],[true],[true],[true],[true],[true],[true],[true],[true],[true],[true]]
theorem csAspx_lineE_closed3 : closed emb0_rows csAspx_lineE_tab3 false (entSucc csAspx_lineE (csAspx_M.mach 3)) (entEof csAspx_lineE (csAspx_M.mach 3)) = true := by
  decide +kernel
def csAspx_lineE_tab4 : List (List Bool) := [[false],[true],[true],[true],[true],[true],[true],[true],[true],[true],[true],[true],[true],[true],[true],[true],[true],[true],[true],[true],[true],[true],[true],[true],[true],[true],[true],[true],[true],[true],[true],[true],[true],[true],[true],[true],[true],[true],[true],[true],[true],[true],[true],[true],[true],[true],[true],[true],[true],[true],[true],[true],[true],[true],[true],[true],[true],[true]]
theorem csAspx_lineE_closed4 : closed emb1_rows csAspx_lineE_tab4 false (entSucc csAspx_lineE (csAspx_M.mach 4)) (entEof csAspx_lineE (csAspx_M.mach 4)) = true := by
  decide +kernel
def csAspx_lineE_tab5 : List (List Bool) := [[false],[true],[true],[true],[true],[true],[true],[true],[true],[true],[true],[true],[true],[true],[true],[true],[true],[true],[true],[true],[true],[true],[true],[true],[true],[true],[true],[true],[true],[true],[true],[true],[true],[true],[true],[true],[true],[true],[true],[true],[true],[true],[true],[true],[true],[true],[true],[true],[true],[true],[true],[true],[true],[true],[true],[true],[true],[true],[true],[true],[true],[true]]
theorem csAspx_lineE_closed5 : closed emb46_rows csAspx_lineE_tab5 false (entSucc csAspx_lineE (csAspx_M.mach 5)) (entEof csAspx_lineE (csAspx_M.mach 5)) = true := by
  decide +kernel
def csAspx_lineE_tab0 : List (List Bool) := [[false],[false,true],[false,true],[false,true],[false,true],[false,true],[false,true],[false,true],[false,true],[false,true],[true],[false,true],[false,true],[false,true],[false,true],[false,true],[false,true],[false,true],[false,true],[false],[false,true],[false,true],[false,true],[false,true],[false,true],[false,true],[false,true],[false,true],[false,true],[false,true],[false,true],[false,true],[false],[false],[false],[false],[false],[false],[false],[false],[false],[false,true],[false,true],[false,true],[false,true],[false,true],[false,true],[false,true],[false,true],[false],[false,true],[false,true],[false],[false],[false],[false],[false],[false],[false],[false],[false]]
theorem csAspx_lineE_closed0 : closed emb25_rows csAspx_lineE_tab0 false (entSucc csAspx_lineE (csAspx_M.mach 0)) (entEof csAspx_lineE (csAspx_M.mach 0)) = true := by
  decide +kernel
def csAspx_lineE_tab1 : List (List Bool) := [[false],[false,true],[false,true],[false,true],[false,true],[false,true],[false,true],[false,true],[false,true],[false,true],[true],[false,true],[false,true],[false,true],[false,true],[false,true],[false,true],[false],[],[false,true],[false,true],[false,true],[false,true],[false,true],[false,true],[false,true],[false,true],[false,true],[],[false,true],[false,true],[false,true],[false],[false],[false],[false],[false],[false],[],[false],[false],[false,true],[false,true],[false,true],[false,true],[false,true],[false,true],[false],[],[false,true],[false,true],[false,true],[false,true],[],[false,true],[false,true],[false],[false],[false],[false],[false],[false],[],[false],[false]]
theorem csAspx_lineE_closed1 : closed emb26_rows csAspx_lineE_tab1 false (entSucc csAspx_lineE (csAspx_M.mach 1)) (entEof csAspx_lineE (csAspx_M.mach 1)) = true := by
  decide +kernel
def csAspx_lineE_tab2 : List (List Bool) := [[false],[false,true],[false,true],[false,true],[false,true],[false,true],[false,true],[false,true],[false,true],[false,true],[true],[false,true],[false,true],[false,true],[false,true],[false,true],[false,true],[],[false],[false,true],[false,true],[false,true],[false,true],[false,true],[false,true],[false,true],[false,true],[false,true],[],[false,true],[false,true],[false,true],[false],[false],[false],[false],[false],[false],[],[false],[false],[false,true],[false,true],[false,true],[false,true],[false,true],[false,true],[],[false],[false,true],[false,true],[false,true],[false,true],[],[false,true],[false,true],[false],[false],[false],[false],[false],[false],[],[false],[false]]
theorem csAspx_lineE_closed2 : closed emb27_rows csAspx_lineE_tab2 false (entSucc csAspx_lineE (csAspx_M.mach 2)) (entEof csAspx_lineE (csAspx_M.mach 2)) = true := by
  decide +kernel
theorem csAspx_lineE_certs : ∀ m ∈ csAspx_lineE, Nonempty (EntCert csAspx_lineE (csAspx_M.mach m)) :=
  (List.forall_mem_cons.mpr ⟨⟨⟨emb47_D, csAspx_lineE_tab6, csAspx_lineE_closed6⟩⟩,
  (List.forall_mem_cons.mpr ⟨⟨⟨emb0_D, csAspx_lineE_tab3, csAspx_lineE_closed3⟩⟩,
  (List.forall_mem_cons.mpr ⟨⟨⟨emb1_D, csAspx_lineE_tab4, csAspx_lineE_closed4⟩⟩,
  (List.forall_mem_cons.mpr ⟨⟨⟨emb46_D, csAspx_lineE_tab5, csAspx_lineE_closed5⟩⟩,
  (List.forall_mem_cons.mpr ⟨⟨⟨emb25_D, csAspx_lineE_tab0, csAspx_lineE_closed0⟩⟩,
  (List.forall_mem_cons.mpr ⟨⟨⟨emb26_D, csAspx_lineE_tab1, csAspx_lineE_closed1⟩⟩,
  (List.forall_mem_cons.mpr ⟨⟨⟨emb27_D, csAspx_lineE_tab2, csAspx_lineE_closed2⟩⟩,
  (fun _ h => nomatch h)⟩)⟩)⟩)⟩)⟩)⟩)⟩)

def rhtml_lineE : List Nat := [6,3,4,5,0,1,2]
def rhtml_lineE_tab6 : List (List Bool) := [[false],[true],[true],[true],[true],[true],[true],[true],[true],[true],[true],[true],[true],[true],[true],[true],[true],[true],[true],[true],[true],[true],[true],[true],[true],[true],[true],[true],[true],[true],[true],[true],[true],[true],[true],[true],[true],[true],[true],[true],[true],[true],[true],[true]]
theorem rhtml_lineE_closed6 : closed emb29_rows rhtml_lineE_tab6 false (entSucc rhtml_lineE (rhtml_M.mach 6)) (entEof rhtml_lineE (rhtml_M.mach 6)) = true := by
  decide +kernel
def rhtml_lineE_tab3 : List (List Bool) := [[false],[true],[true],[true],[true],[true],[true],[true],[true],[true],[true],[true],[true],[true],[true],[true],[true],[true],[true],[true],[true],[true],[true],[true],[true],[true],[true],[true],[true],[true],[true],[true],[true],[true],[true],[true],[true],[true],[true],[true],[true],[true],[true],[true],[true],[true],[true],[true],[true],[true],[true]]
theorem rhtml_lineE_closed3 : closed emb0_rows rhtml_lineE_tab3 false (entSucc rhtml_lineE (rhtml_M.mach 3)) (entEof rhtml_lineE (rhtml_M.mach 3)) = true := by
  decide +kernel
def rhtml_lineE_tab4 : List (List Bool) := [[false],[true],[true],[true],[true],[true],[true],[true],[true],[true],[true],[true],[true],[true],[true],[true],[true],[true],[true],[true],[true],[true],[true],[true],[true],[true],[true],[true],[true],[true],[true],[true],[true],[true],[true],[true],[true],[true],[true],[true],[true],[true],[true],[true],[true],[true],[true],[true],[true],[true],[true],[true],[true],[true],[true],[true],[true],[true]]
theorem rhtml_lineE_closed4 : closed emb1_rows rhtml_lineE_tab4 false (entSucc rhtml_lineE (rhtml_M.mach 4)) (entEof rhtml_lineE (rhtml_M.mach 4)) = true := by
  decide +kernel
def rhtml_lineE_tab5 : List (List Bool) := [[false],[true],[true],[true],[true],[true],[true],[true],[true],[true],[true],[true],[true],[true],[true],[true],[true],[true],[true],[true],[true],[true],[true],[true],[true],[true],[true],[true],[true],[true],[true],[true],[true],[true],[true],[true],[true],[true],[true],[true],[true],[true],[true],[true],[true],[true],[true],[true],[true],[true],[true],[true],[true],[true],[true],[true],[true],[true],[true],[true],[true],[true],[true],[true],[true],[true],[true],[true],[true],[true],[true],[true],[true],[true],[true],[true],[true],[true],[true],[true],[true],[true],[true],[true],[true]]
theorem rhtml_lineE_closed5 : closed emb50_rows rhtml_lineE_tab5 false (entSucc rhtml_lineE (rhtml_M.mach 5)) (entEof rhtml_lineE (rhtml_M.mach 5)) = true := by
  decide +kernel
def rhtml_lineE_tab0 : List (List Bool) := [[false],[false,true],[false,true],[false,true],[false,true],[false,true],[false,true],[false,true],[false,true],[false,true],[true],[false,true],[false,true],[false,true],[false,true],[false,true],[false,true],[false,true],[false,true],[false],[false,true],[false,true],[false,true],[false,true],[false,true],[false,true],[false,true],[false,true],[false,true],[false,true],[false,true],[false,true],[false],[false],[false],[false],[false],[false],[false],[false],[false],[false,true],[false,true],[false,true],[false,true],[false,true],[false,true],[false,true],[false,true],[false],[false,true],[false,true],[false],[false],[false],[false],[false],[false],[false],[false],[false]]
theorem rhtml_lineE_closed0 : closed emb25_rows rhtml_lineE_tab0 false (entSucc rhtml_lineE (rhtml_M.mach 0)) (entEof rhtml_lineE (rhtml_M.mach 0)) = true := by
  decide +kernel
def rhtml_lineE_tab1 : List (List Bool) := [[false],[false,true],[false,true],[false,true],[false,true],[false,true],[false,true],[false,true],[false,true],[false,true],[true],[false,true],[false,true],[false,true],[false,true],[false,true],[false,true],[false],[],[false,true],[false,true],[false,true],[false,true],[false,true],[false,true],[false,true],[false,true],[false,true],[],[false,true],[false,true],[false,true],[false],[false],[false],[false],[false],[false],[],[false],[false],[false,true],[false,true],[false,true],[false,true],[false,true],[false,true],[false],[],[false,true],[false,true],[false,true],[false,true],[],[false,true],[false,true],[false],[false],[false],[false],[false],[false],[],[false],[false]]
theorem rhtml_lineE_closed1 : closed emb26_rows rhtml_lineE_tab1 false (entSucc rhtml_lineE (rhtml_M.mach 1)) (entEof rhtml_lineE (rhtml_M.mach 1)) = true := by
  decide +kernel
def rhtml_lineE_tab2 : List (List Bool) := [[false],[false,true],[false,true],[false,true],[false,true],[false,true],[false,true],[false,true],[false,true],[false,true],[true],[false,true],[false,true],[false,true],[false,true],[false,true],[false,true],[],[false],[false,true],[false,true],[false,true],[false,true],[false,true],[false,true],[false,true],[false,true],[false,true],[],[false,true],[false,true],[false,true],[false],[false],[false],[false],[false],[false],[],[false],[false],[false,true],[false,true],[false,true],[false,true],[false,true],[false,true],[],[false],[false,true],[false,true],[false,true],[false,true],[],[false,true],[false,true],[false],[false],[false],[false],[false],[false],[],[false],[false]]
theorem rhtml_lineE_closed2 : closed emb27_rows rhtml_lineE_tab2 false (entSucc rhtml_lineE (rhtml_M.mach 2)) (entEof rhtml_lineE (rhtml_M.mach 2)) = true := by
  decide +kernel
theorem rhtml_lineE_certs : ∀ m ∈ rhtml_lineE, Nonempty (EntCert rhtml_lineE (rhtml_M.mach m)) :=
  (List.forall_mem_cons.mpr ⟨⟨⟨emb29_D, rhtml_lineE_tab6, rhtml_lineE_closed6⟩⟩,
  (List.forall_mem_cons.mpr ⟨⟨⟨emb0_D, rhtml_lineE_tab3, rhtml_lineE_closed3⟩⟩,
  (List.forall_mem_cons.mpr ⟨⟨⟨emb1_D, rhtml_lineE_tab4, rhtml_lineE_closed4⟩⟩,
  (List.forall_mem_cons.mpr ⟨⟨⟨emb50_D, rhtml_lineE_tab5, rhtml_lineE_closed5⟩⟩,
  (List.forall_mem_cons.mpr ⟨⟨⟨emb25_D, rhtml_lineE_tab0, rhtml_lineE_closed0⟩⟩,
  (List.forall_mem_cons.mpr ⟨⟨⟨emb26_D, rhtml_lineE_tab1, rhtml_lineE_closed1⟩⟩,
  (List.forall_mem_cons.mpr ⟨⟨⟨emb27_D, rhtml_lineE_tab2, rhtml_lineE_closed2⟩⟩,
  (fun _ h => nomatch h)⟩)⟩)⟩)⟩)⟩)⟩)⟩)

def vbAspx_lineE : List Nat := [6,3,4,5,0,1,2]
def vbAspx_lineE_tab6 : List (List Bool) := [[false],[true],[true],[true],[true],[true],[true],[true],[true],[true],[true],[true],[true],[true],[true],[true],[true],[true],[true],[true],[true],[true],[true],[true],[true],[true],[true],[true],[true],[true],[true],[true],[true],[true],[true],[true],[true],[true],[true],[true],[true],[true],[true],[true],[true],[true],[true],[true],[true],[true],[true],[true],[true],[true],[true],[true],[true],[true],[true],[true],[true],[true],[true],[true],[true],[true],[true],[true],[true],[true],[true],[true],[true]]
theorem vbAspx_lineE_closed6 : closed emb47_rows vbAspx_lineE_tab6 false (entSucc vbAspx_lineE (vbAspx_M.mach 6)) (entEof vbAspx_lineE (vbAspx_M.mach 6)) = true := by
  decide +kernel
def vbAspx_lineE_tab3 : List (List Bool) := [[false],[true],[true],[true],[true],[true],[true],[true],[true],[true],[true],[true],[true],[true],[true],[true],[true],[true],[true],[true],[true],[true],[true],[true],[true],[true],[true],[true],[true],[true],[true],[true],[true],[true],[true],[true],[true],[true],[true],[true],[true],[true],[true],[true],[true],[true],[true],[true],[true],[true],[true]]
theorem vbAspx_lineE_closed3 : closed emb0_rows vbAspx_lineE_tab3 false (entSucc vbAspx_lineE (vbAspx_M.mach 3)) (entEof vbAspx_lineE (vbAspx_M.mach 3)) = true := by
  decide +kernel
def vbAspx_lineE_tab4 : List (List Bool) := [[false],[true],[true],[true],[true],[true],[true],[true],[true],[true],[true],[true],[true],[true],[true],[true],[true],[true],[true],[true],[true],[true],[true],[true],[true],[true],[true],[true],[true],[true],[true],[true],[true],[true],[true],[true],[true],[true],[true],[true],[true],[true],[true],[true],[true],[true],[true],[true],[true],[true],[true],[true],[true],[true],[true],[true],[true],[true]]
theorem vbAspx_lineE_closed4 : closed emb1_rows vbAspx_lineE_tab4 false (entSucc vbAspx_lineE (vbAspx_M.mach 4)) (entEof vbAspx_lineE (vbAspx_M.mach 4)) = true := by
  decide +kernel
def vbAspx_lineE_tab5 : List (List Bool) := [[false],[true],[true],[true],[true],[true],[true],[true],[true],[true],[true],[true],[true],[true],[true],[true],[true],[true],[true],[true],[true],[true],[true],[true],[true],[true],[true],[true],[true]]
theorem vbAspx_lineE_closed5 : closed emb52_rows vbAspx_lineE_tab5 false (entSucc vbAspx_lineE (vbAspx_M.mach 5)) (entEof vbAspx_lineE (vbAspx_M.mach 5)) = true := by
  decide +kernel
def vbAspx_lineE_tab0 : List (List Bool) := [[false],[false,true],[false,true],[false,true],[false,true],[false,true],[false,true],[false,true],[false,true],[false,true],[true],[false,true],[false,true],[false,true],[false,true],[false,true],[false,true],[false,true],[false,true],[false],[false,true],[false,true],[false,true],[false,true],[false,true],[false,true],[false,true],[false,true],[false,true],[false,true],[false,true],[false,true],[false],[false],[false],[false],[false],[false],[false],[false],[false],[false,true],[false,true],[false,true],[false,true],[false,true],[false,true],[false,true],[false,true],[false],[false,true],[false,true],[false],[false],[false],[false],[false],[false],[false],[false],[false]]
theorem vbAspx_lineE_closed0 : closed emb25_rows vbAspx_lineE_tab0 false (entSucc vbAspx_lineE (vbAspx_M.mach 0)) (entEof vbAspx_lineE (vbAspx_M.mach 0)) = true := by
  decide +kernel
def vbAspx_lineE_tab1 : List (List Bool) := [[false],[false,true],[false,true],[false,true],[false,true],[false,true],[false,true],[false,true],[false,true],[false,true],[true],[false,true],[false,true],[false,true],[false,true],[false,true],[false,true],[false],[],[false,true],[false,true],[false,true],[false,true],[false,true],[false,true],[false,true],[false,true],[false,true],[],[false,true],[false,true],[false,true],[false],[false],[false],[false],[false],[false],[],[false],[false],[false,true],[false,true],[false,true],[false,true],[false,true],[false,true],[false],[],[false,true],[false,true],[false,true],[false,true],[],[false,true],[false,true],[false],[false],[false],[false],[false],[false],[],[false],[false]]
theorem vbAspx_lineE_closed1 : closed emb26_rows vbAspx_lineE_tab1 false (entSucc vbAspx_lineE (vbAspx_M.mach 1)) (entEof vbAspx_lineE (vbAspx_M.mach 1)) = true := by
  decide +kernel
def vbAspx_lineE_tab2 : List (List Bool) := [[false],[false,true],[false,true],[false,true],[false,true],[false,true],[false,true],[false,true],[false,true],[false,true],[true],[false,true],[false,true],[false,true],[false,true],[false,true],[false,true],[],[false],[false,true],[false,true],[false,true],[false,true],[false,true],[false,true],[false,true],[false,true],[false,true],[],[false,true],[false,true],[false,true],[false],[false],[false],[false],[false],[false],[],[false],[false],[false,true],[false,true],[false,true],[false,true],[false,true],[false,true],[],[false],[false,true],[false,true],[false,true],[false,true],[],[false,true],[false,true],[false],[false],[false],[false],[false],[false],[],[false],[false]]
theorem vbAspx_lineE_closed2 : closed emb27_rows vbAspx_lineE_tab2 false (entSucc vbAspx_lineE (vbAspx_M.mach 2)) (entEof vbAspx_lineE (vbAspx_M.mach 2)) = true := by
  decide +kernel
theorem vbAspx_lineE_certs : ∀ m ∈ vbAspx_lineE, Nonempty (EntCert vbAspx_lineE (vbAspx_M.mach m)) :=
  (List.forall_mem_cons.mpr ⟨⟨⟨emb47_D, vbAspx_lineE_tab6, vbAspx_lineE_closed6⟩⟩,
  (List.forall_mem_cons.mpr ⟨⟨⟨emb0_D, vbAspx_lineE_tab3, vbAspx_lineE_closed3⟩⟩,
  (List.forall_mem_cons.mpr ⟨⟨⟨emb1_D, vbAspx_lineE_tab4, vbAspx_lineE_closed4⟩⟩,
  (List.forall_mem_cons.mpr ⟨⟨⟨emb52_D, vbAspx_lineE_tab5, vbAspx_lineE_closed5⟩⟩,
  (List.forall_mem_cons.mpr ⟨⟨⟨emb25_D, vbAspx_lineE_tab0, vbAspx_lineE_closed0⟩⟩,
  (List.forall_mem_cons.mpr ⟨⟨⟨emb26_D, vbAspx_lineE_tab1, vbAspx_lineE_closed1⟩⟩,
  (List.forall_mem_cons.mpr ⟨⟨⟨emb27_D, vbAspx_lineE_tab2, vbAspx_lineE_closed2⟩⟩,
  (fun _ h => nomatch h)⟩)⟩)⟩)⟩)⟩)⟩)⟩)

/-- The parsers that read lines in the same way anywhere in a buffer. -/
def embShiftLine : List EParser := [Emb.Html.parser, Emb.Mxml.parser, Emb.Nix.parser, Emb.Jsp.parser, Emb.Phphtml.parser, Emb.Clearsilverhtml.parser, Emb.CsAspx.parser, Emb.Rhtml.parser, Emb.VbAspx.parser]
theorem embShiftLineAll : ∀ P ∈ embShiftLine, Shiftable P P.line :=
  (List.forall_mem_cons.mpr ⟨Shiftable.of html_M_eq html_lineE_certs (by decide) (by decide +kernel),
  (List.forall_mem_cons.mpr ⟨Shiftable.of mxml_M_eq mxml_lineE_certs (by decide) (by decide +kernel),
  (List.forall_mem_cons.mpr ⟨Shiftable.of nix_M_eq nix_lineE_certs (by decide) (by decide +kernel),
  (List.forall_mem_cons.mpr ⟨Shiftable.of jsp_M_eq jsp_lineE_certs (by decide) (by decide +kernel),
  (List.forall_mem_cons.mpr ⟨Shiftable.of phphtml_M_eq phphtml_lineE_certs (by decide) (by decide +kernel),
  (List.forall_mem_cons.mpr ⟨Shiftable.of clearsilverhtml_M_eq clearsilverhtml_lineE_certs (by decide) (by decide +kernel),
  (List.forall_mem_cons.mpr ⟨Shiftable.of csAspx_M_eq csAspx_lineE_certs (by decide) (by decide +kernel),
  (List.forall_mem_cons.mpr ⟨Shiftable.of rhtml_M_eq rhtml_lineE_certs (by decide) (by decide +kernel),
  (List.forall_mem_cons.mpr ⟨Shiftable.of vbAspx_M_eq vbAspx_lineE_certs (by decide) (by decide +kernel),
  (fun _ h => nomatch h)⟩)⟩)⟩)⟩)⟩)⟩)⟩)⟩)⟩)

end Ohcount.Cert
