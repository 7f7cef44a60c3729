import Verif.EmbedExact
import Verif.Cert.EAll

/-!
The check of EmbedExact.lean for the parser for MetaPost with TeX (metapost_with_tex.rl).  The tables were found by running
`PA.succ` from `PA.init`; nothing about them is trusted.
-/

namespace Ohcount.Cert

open Ohcount.Ragel Ohcount.Gram

set_option maxRecDepth 100000

def metapostWithTex_p1_tab : List (List PA) := [[⟨none,true,false,true,false,none,0,none⟩],[⟨some (.own 0),true,false,true,true,some 1,0,none⟩],[⟨some .newline,true,false,true,false,none,2,none⟩],[⟨some .newline,false,true,true,false,some 4,1,none⟩],[⟨some (.own 3),true,false,true,true,some 5,0,none⟩],[⟨some (.own 3),true,false,true,true,some 2,0,some .other⟩],[⟨some (.own 3),true,false,true,true,some 5,0,none⟩],[⟨some (.own 3),true,false,true,true,some 5,0,none⟩],[⟨some (.own 3),true,false,true,true,some 5,0,none⟩],[⟨some (.own 3),true,false,true,true,some 5,0,none⟩],[⟨some (.own 3),true,false,true,true,some 2,0,none⟩],[⟨some (.own 3),true,false,true,true,some 5,0,none⟩],[⟨some (.own 3),true,false,true,true,some 5,0,none⟩],[⟨some (.own 3),true,false,true,true,some 5,0,none⟩],[⟨some (.own 3),true,false,true,true,some 5,0,none⟩],[⟨some (.own 3),true,false,true,true,some 5,0,none⟩],[⟨some (.own 3),true,false,true,true,some 5,0,none⟩],[⟨some (.own 3),true,false,true,true,some 5,0,none⟩],[⟨some (.own 3),true,false,true,true,some 5,0,none⟩],[⟨some (.own 3),true,false,true,true,some 5,0,none⟩],[⟨some (.own 3),true,false,true,true,some 5,0,none⟩],[⟨some (.own 3),true,false,true,true,some 5,0,none⟩],[⟨some (.own 3),true,false,true,true,some 5,0,none⟩]]
theorem metapostWithTex_p1_closed : closed emb22_rows metapostWithTex_p1_tab PA.init (PA.succ metapostWithTex_M [1, 0] 1) (PA.eofOk metapostWithTex_M [1, 0] 1) = true := by
  decide +kernel
def metapostWithTex_p1 : PCert metapostWithTex_M [1, 0] 1 := ⟨emb22_D, metapostWithTex_p1_tab, metapostWithTex_p1_closed⟩
def metapostWithTex_p0_tab : List (List PA) := [[⟨none,true,false,true,false,none,0,none⟩],[⟨some (.own 0),true,false,true,true,some 1,0,none⟩],[⟨some .newline,true,false,true,false,none,2,none⟩],[⟨some .newline,false,true,true,false,some 3,1,none⟩],[⟨some (.own 3),true,false,true,true,some 2,0,none⟩],[⟨some (.own 3),true,false,true,true,some 4,0,none⟩],[⟨some (.own 3),true,false,true,true,some 2,0,none⟩],[⟨some (.own 3),true,false,true,true,some 4,0,none⟩],[⟨some (.own 3),true,false,true,true,some 4,0,none⟩]]
theorem metapostWithTex_p0_closed : closed emb21_rows metapostWithTex_p0_tab PA.init (PA.succ metapostWithTex_M [1, 0] 0) (PA.eofOk metapostWithTex_M [1, 0] 0) = true := by
  decide +kernel
def metapostWithTex_p0 : PCert metapostWithTex_M [1, 0] 0 := ⟨emb21_D, metapostWithTex_p0_tab, metapostWithTex_p0_closed⟩

theorem metapostWithTex_exact : ∀ m ∈ [1, 0], Nonempty (PCert Emb.MetapostWithTex.parser.multi [1, 0] m) := by
  rw [metapostWithTex_M_eq]
  intro m hm
  simp only [List.mem_cons, List.not_mem_nil, or_false] at hm
  rcases hm with rfl | rfl
  · exact ⟨metapostWithTex_p1⟩
  · exact ⟨metapostWithTex_p0⟩

end Ohcount.Cert
