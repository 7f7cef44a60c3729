import Verif.Cert.EN1
import Verif.Cert.EN2
import Verif.Cert.EN3
import Verif.Cert.EN4
import Verif.EmbedSafe

/-! Generated by tools/gen_embcerts.py. -/

namespace Ohcount.Cert
open Ohcount.Ragel Ohcount.Gram

set_option maxRecDepth 100000

theorem csAspx_m0 : Emb.CsAspx.cs_aspx_comment.mach = ⟨emb25_nfa, [.none], false⟩ := by decide +kernel
theorem csAspx_m1 : Emb.CsAspx.cs_aspx_sq_str.mach = ⟨emb26_nfa, [.none], false⟩ := by decide +kernel
theorem csAspx_m2 : Emb.CsAspx.cs_aspx_dq_str.mach = ⟨emb27_nfa, [.none], false⟩ := by decide +kernel
theorem csAspx_m3 : Emb.CsAspx.cs_aspx_css_line.mach = ⟨emb0_nfa, [.none,.cb 1,.none,.none,.cb 1,.cb 1], true⟩ := by decide +kernel
theorem csAspx_m4 : Emb.CsAspx.cs_aspx_js_line.mach = ⟨emb1_nfa, [.none,.cb 2,.none,.none,.cb 2,.cb 2], true⟩ := by decide +kernel
theorem csAspx_m5 : Emb.CsAspx.cs_aspx_cs_line.mach = ⟨emb46_nfa, [.none,.cb 3,.none,.none,.cb 3,.cb 3], true⟩ := by decide +kernel
theorem csAspx_m6 : Emb.CsAspx.cs_aspx_line.mach = ⟨emb47_nfa, [.call 3,.call 4,.call 5,.cb 0,.goto 0,.goto 1,.goto 2,.cb 0,.cb 0], true⟩ := by decide +kernel
theorem csAspx_m7 : Emb.CsAspx.cs_aspx_css_entity.mach = ⟨emb3_nfa, [.none,.ecb 1,.ecb 1,.none], true⟩ := by decide +kernel
theorem csAspx_m8 : Emb.CsAspx.cs_aspx_js_entity.mach = ⟨emb4_nfa, [.none,.ecb 2,.ecb 2,.none], true⟩ := by decide +kernel
theorem csAspx_m9 : Emb.CsAspx.cs_aspx_cs_entity.mach = ⟨emb48_nfa, [.none,.ecb 3,.ecb 3,.none], true⟩ := by decide +kernel
theorem csAspx_m10 : Emb.CsAspx.cs_aspx_entity.mach = ⟨emb49_nfa, [.call 7,.call 8,.call 9,.ecb 0,.ecb 0,.none], true⟩ := by decide +kernel

/-- The machines of `Emb.CsAspx.parser`, with their automata as literals. -/
def csAspx_M : Multi := ⟨Emb.CsAspx.parser.sws, [
  ⟨emb25_nfa, [.none], false⟩,
  ⟨emb26_nfa, [.none], false⟩,
  ⟨emb27_nfa, [.none], false⟩,
  ⟨emb0_nfa, [.none,.cb 1,.none,.none,.cb 1,.cb 1], true⟩,
  ⟨emb1_nfa, [.none,.cb 2,.none,.none,.cb 2,.cb 2], true⟩,
  ⟨emb46_nfa, [.none,.cb 3,.none,.none,.cb 3,.cb 3], true⟩,
  ⟨emb47_nfa, [.call 3,.call 4,.call 5,.cb 0,.goto 0,.goto 1,.goto 2,.cb 0,.cb 0], true⟩,
  ⟨emb3_nfa, [.none,.ecb 1,.ecb 1,.none], true⟩,
  ⟨emb4_nfa, [.none,.ecb 2,.ecb 2,.none], true⟩,
  ⟨emb48_nfa, [.none,.ecb 3,.ecb 3,.none], true⟩,
  ⟨emb49_nfa, [.call 7,.call 8,.call 9,.ecb 0,.ecb 0,.none], true⟩]⟩
theorem csAspx_M_eq : Emb.CsAspx.parser.multi = csAspx_M := by
  show Multi.mk _ [Emb.CsAspx.cs_aspx_comment.mach, Emb.CsAspx.cs_aspx_sq_str.mach, Emb.CsAspx.cs_aspx_dq_str.mach, Emb.CsAspx.cs_aspx_css_line.mach, Emb.CsAspx.cs_aspx_js_line.mach, Emb.CsAspx.cs_aspx_cs_line.mach, Emb.CsAspx.cs_aspx_line.mach, Emb.CsAspx.cs_aspx_css_entity.mach, Emb.CsAspx.cs_aspx_js_entity.mach, Emb.CsAspx.cs_aspx_cs_entity.mach, Emb.CsAspx.cs_aspx_entity.mach] = _
  rw [csAspx_m0, csAspx_m1, csAspx_m2, csAspx_m3, csAspx_m4, csAspx_m5, csAspx_m6, csAspx_m7, csAspx_m8, csAspx_m9, csAspx_m10]; rfl

def csAspx_line : EOpt := ⟨false, false, false, [(6,false),(3,true),(4,true),(5,true),(0,false),(1,false),(2,false)], 4⟩
def csAspx_line_tab6false : List (List EA) := [[⟨0,0,false,none,none,none,false,false,0⟩],[⟨1,0,false,some (.own 0),some 3,none,false,true,0⟩,⟨2,0,false,some (.own 0),some 3,none,false,true,0⟩,⟨3,0,false,some (.own 0),some 3,none,false,true,0⟩],[⟨1,0,false,some .newline,none,none,false,false,0⟩],[⟨1,0,false,some .newline,some 7,none,false,false,0⟩],[⟨1,0,false,some (.own 5),some 8,none,false,true,0⟩],[⟨2,0,false,some (.own 5),some 8,none,false,true,0⟩],[⟨2,0,false,some (.own 5),some 8,none,false,true,0⟩],[⟨3,0,false,some (.own 5),some 8,none,false,true,0⟩],[⟨3,0,false,some (.own 5),some 8,none,false,true,0⟩],[⟨3,0,false,some (.own 5),some 8,none,false,true,0⟩],[⟨3,0,false,some (.own 5),some 8,none,false,true,0⟩],[⟨3,0,false,some (.own 5),some 8,none,false,true,0⟩],[⟨3,0,false,some (.own 5),some 8,none,false,true,0⟩],[⟨3,0,false,some (.own 5),some 8,none,false,true,0⟩],[⟨3,0,false,some (.own 5),some 8,none,false,true,0⟩],[⟨3,0,false,some (.own 5),some 8,none,false,true,0⟩],[⟨3,0,false,some (.own 5),some 8,none,false,true,0⟩],[⟨3,0,false,some (.own 5),some 8,none,false,true,0⟩],[⟨3,0,false,some (.own 5),some 8,none,false,true,0⟩],[⟨3,0,false,some (.own 5),some 8,none,false,true,0⟩],[⟨3,0,false,some (.own 5),some 8,none,false,true,0⟩],[⟨3,0,false,some (.own 5),some 8,none,false,true,0⟩],[⟨3,0,false,some (.own 5),some 8,none,false,true,0⟩],[⟨3,0,false,some (.own 5),some 8,none,false,true,0⟩],[⟨3,0,false,some (.own 5),some 8,none,false,true,0⟩],[⟨3,0,false,some (.own 5),some 8,none,false,true,0⟩],[⟨3,0,false,some (.own 5),some 8,none,false,true,0⟩],[⟨3,0,false,some (.own 5),some 8,none,false,true,0⟩],[⟨3,0,false,some (.own 5),some 8,none,false,true,0⟩],[⟨3,0,false,some (.own 5),some 8,none,false,true,0⟩],[⟨3,0,false,some (.own 5),some 8,none,false,true,0⟩],[⟨3,0,false,some (.own 5),some 8,none,false,true,0⟩],[⟨3,0,false,some (.own 5),some 8,none,false,true,0⟩],[⟨3,0,false,some (.own 5),some 8,none,false,true,0⟩],[⟨3,0,false,some (.own 5),some 8,none,false,true,0⟩],[⟨3,0,false,some (.own 5),some 8,none,false,true,0⟩],[⟨3,0,false,some (.own 5),some 8,none,false,true,0⟩],[⟨3,0,false,some (.own 5),some 8,none,false,true,0⟩],[⟨3,0,false,some (.own 5),some 8,none,false,true,0⟩],[⟨3,0,false,some (.own 5),some 8,none,false,true,0⟩],[⟨3,0,false,some (.own 5),some 8,none,false,true,0⟩],[⟨3,0,false,some (.own 5),some 8,none,false,true,0⟩],[⟨3,0,false,some (.own 5),some 8,none,false,true,0⟩],[⟨3,0,false,some (.own 5),some 8,none,false,true,0⟩],[⟨3,0,false,some (.own 5),some 8,none,false,true,0⟩],[⟨3,0,false,some (.own 5),some 8,none,false,true,0⟩],[⟨3,0,false,some (.own 5),some 8,none,false,true,0⟩],[⟨3,0,false,some (.own 5),some 8,none,false,true,0⟩],[⟨3,0,false,some (.own 5),some 8,none,false,true,0⟩],[⟨3,0,false,some (.own 5),some 8,none,false,true,0⟩],[⟨3,0,false,some (.own 5),some 8,none,false,true,0⟩],[⟨3,0,false,some (.own 5),some 8,none,false,true,0⟩],[⟨3,0,false,some (.own 5),some 8,none,false,true,0⟩],[⟨3,0,false,some (.own 5),some 8,none,false,true,0⟩],[⟨3,0,false,some (.own 5),some 8,none,false,true,0⟩],[⟨3,0,false,some (.own 5),some 8,none,false,true,0⟩],[⟨3,0,false,some (.own 5),some 8,none,false,true,0⟩],[⟨3,0,false,some (.own 5),some 8,none,false,true,0⟩],[⟨3,0,false,some (.own 5),some 8,none,false,true,0⟩],[⟨3,0,false,some (.own 5),some 8,none,false,true,0⟩],[⟨3,0,false,some (.own 5),some 8,none,false,true,0⟩],[⟨3,0,false,some (.own 5),some 8,none,false,true,0⟩],[⟨3,0,false,some (.own 5),some 8,none,false,true,0⟩],[⟨3,0,false,some (.own 5),some 8,none,false,true,0⟩],[⟨3,0,false,some (.own 5),some 8,none,false,true,0⟩],[⟨3,0,false,some (.own 5),some 8,none,false,true,0⟩],[⟨3,0,false,some (.own 5),some 8,none,false,true,0⟩],[⟨3,0,false,some (.own 5),some 8,none,false,true,0⟩],[⟨3,0,false,some (.own 5),some 8,none,false,true,0⟩],[⟨3,0,false,some (.own 5),some 8,none,false,true,0⟩],[⟨3,0,false,some (.own 5),some 8,none,false,true,0⟩],[⟨3,0,false,some (.own 5),some 8,none,false,true,0⟩],[⟨3,0,false,some (.own 5),some 8,none,false,true,0⟩]]
theorem csAspx_line_closed6false : closed emb47_rows csAspx_line_tab6false (EA.start csAspx_M csAspx_line 6) (EA.succ csAspx_M csAspx_line (6, false)) (EA.eofOk csAspx_M csAspx_line (6, false)) = true := by
  decide +kernel
def csAspx_line_C6false : MCert csAspx_M csAspx_line (6, false) := ⟨emb47_D, csAspx_line_tab6false, csAspx_line_closed6false, (fun h => nomatch h)⟩
def csAspx_line_tab3true : List (List EA) := [[⟨0,0,false,none,none,none,false,false,0⟩],[⟨1,0,false,some (.own 0),some 1,none,false,true,0⟩,⟨2,0,false,some (.own 0),some 1,none,false,true,0⟩,⟨3,0,false,some (.own 0),some 1,none,false,true,0⟩],[⟨1,0,false,some .newline,none,none,false,false,0⟩],[⟨1,0,false,some .newline,some 4,none,false,false,0⟩],[⟨1,0,true,some (.own 9),some 5,none,true,true,0⟩],[⟨1,0,true,some (.own 9),some 5,none,true,true,0⟩],[⟨1,0,false,some (.own 9),some 5,none,false,true,0⟩],[⟨1,0,false,some (.own 9),some 5,none,false,true,0⟩],[⟨2,0,true,some (.own 9),some 5,none,true,true,0⟩,⟨3,0,true,some (.own 9),some 5,none,true,true,0⟩,⟨3,0,true,some .internalNl,some 5,none,true,true,0⟩],[⟨2,0,true,some (.own 9),some 5,none,true,true,0⟩,⟨3,0,true,some (.own 9),some 5,none,true,true,0⟩,⟨3,0,true,some .internalNl,some 5,none,false,true,0⟩,⟨3,0,true,some .internalNl,some 5,none,true,true,0⟩],[⟨2,0,true,some (.own 9),some 5,none,true,true,0⟩,⟨3,0,true,some (.own 9),some 5,none,true,true,0⟩,⟨3,0,true,some .internalNl,some 5,none,false,true,0⟩,⟨3,0,true,some .internalNl,some 5,none,true,true,0⟩],[⟨2,0,true,some (.own 9),some 5,none,true,true,0⟩,⟨3,0,true,some (.own 9),some 5,none,true,true,0⟩,⟨3,0,true,some .internalNl,some 5,none,false,true,0⟩,⟨3,0,true,some .internalNl,some 5,none,true,true,0⟩],[⟨2,0,true,some (.own 9),some 5,none,true,true,0⟩,⟨3,0,true,some (.own 9),some 5,none,true,true,0⟩,⟨3,0,true,some .internalNl,some 5,none,false,true,0⟩,⟨3,0,true,some .internalNl,some 5,none,true,true,0⟩],[⟨2,0,true,some (.own 9),some 5,none,true,true,0⟩,⟨3,0,true,some (.own 9),some 5,none,true,true,0⟩,⟨3,0,true,some .internalNl,some 5,none,false,true,0⟩,⟨3,0,true,some .internalNl,some 5,none,true,true,0⟩],[⟨2,0,true,some (.own 9),some 5,none,true,true,0⟩,⟨3,0,true,some (.own 9),some 5,none,true,true,0⟩,⟨3,0,true,some .internalNl,some 5,none,false,true,0⟩,⟨3,0,true,some .internalNl,some 5,none,true,true,0⟩],[⟨2,0,true,some (.own 9),some 5,none,true,true,0⟩,⟨3,0,true,some (.own 9),some 5,none,true,true,0⟩,⟨3,0,true,some .internalNl,some 5,none,true,true,0⟩],[⟨2,0,true,some (.own 9),some 5,none,true,true,0⟩,⟨3,0,true,some (.own 9),some 5,none,true,true,0⟩,⟨3,0,true,some .internalNl,some 5,none,false,true,0⟩,⟨3,0,true,some .internalNl,some 5,none,true,true,0⟩],[⟨2,0,true,some (.own 9),some 5,none,true,true,0⟩,⟨3,0,true,some (.own 9),some 5,none,true,true,0⟩,⟨3,0,true,some .internalNl,some 5,none,false,true,0⟩,⟨3,0,true,some .internalNl,some 5,none,true,true,0⟩],[⟨2,0,true,some (.own 9),some 5,none,true,true,0⟩,⟨3,0,true,some (.own 9),some 5,none,true,true,0⟩,⟨3,0,true,some .internalNl,some 5,none,false,true,0⟩,⟨3,0,true,some .internalNl,some 5,none,true,true,0⟩],[⟨2,0,true,some (.own 9),some 5,none,true,true,0⟩,⟨3,0,true,some (.own 9),some 5,none,true,true,0⟩,⟨3,0,true,some .internalNl,some 5,none,false,true,0⟩,⟨3,0,true,some .internalNl,some 5,none,true,true,0⟩],[⟨2,0,true,some (.own 9),some 5,none,true,true,0⟩,⟨3,0,true,some (.own 9),some 5,none,true,true,0⟩,⟨3,0,true,some .internalNl,some 5,none,false,true,0⟩,⟨3,0,true,some .internalNl,some 5,none,true,true,0⟩],[⟨2,0,true,some (.own 9),some 5,none,true,true,0⟩,⟨3,0,true,some (.own 9),some 5,none,true,true,0⟩,⟨3,0,true,some .internalNl,some 5,none,false,true,0⟩,⟨3,0,true,some .internalNl,some 5,none,true,true,0⟩],[⟨2,0,true,some (.own 9),some 5,none,false,true,0⟩],[⟨2,0,false,some (.own 9),some 5,none,false,true,0⟩],[⟨3,0,true,some (.own 9),some 5,none,true,true,0⟩,⟨3,0,true,some .internalNl,some 5,none,false,true,0⟩,⟨3,0,true,some .internalNl,some 5,none,true,true,0⟩],[⟨3,0,true,some .internalNl,some 5,none,false,true,0⟩],[⟨3,0,true,some (.own 9),some 5,none,true,true,0⟩,⟨3,0,true,some .internalNl,some 5,none,true,true,0⟩],[⟨3,0,true,some (.own 9),some 5,none,true,true,0⟩,⟨3,0,true,some .internalNl,some 5,none,false,true,0⟩,⟨3,0,true,some .internalNl,some 5,none,true,true,0⟩],[⟨3,0,true,some .internalNl,some 5,none,false,true,0⟩],[⟨3,0,true,some (.own 9),some 5,none,true,true,0⟩,⟨3,0,true,some .internalNl,some 5,none,true,true,0⟩],[⟨3,0,true,some (.own 9),some 5,none,false,true,0⟩,⟨3,0,true,some .internalNl,some 5,none,false,true,0⟩],[⟨3,0,true,some (.own 9),some 5,none,false,true,0⟩,⟨3,0,true,some .internalNl,some 5,none,false,true,0⟩],[⟨3,0,true,some (.own 9),some 5,none,false,true,0⟩,⟨3,0,true,some .internalNl,some 5,none,false,true,0⟩],[⟨3,0,true,some (.own 9),some 5,none,false,true,0⟩,⟨3,0,true,some .internalNl,some 5,none,false,true,0⟩],[⟨3,0,true,some (.own 9),some 5,none,false,true,0⟩,⟨3,0,true,some .internalNl,some 5,none,false,true,0⟩],[⟨3,0,true,some (.own 9),some 5,none,false,true,0⟩,⟨3,0,true,some .internalNl,some 5,none,false,true,0⟩],[⟨3,0,true,some (.own 9),some 5,none,false,true,0⟩,⟨3,0,true,some .internalNl,some 5,none,false,true,0⟩],[⟨3,0,false,some (.own 9),some 5,none,false,true,0⟩],[⟨3,0,true,some (.own 9),some 5,none,false,true,0⟩,⟨3,0,true,some .internalNl,some 5,none,false,true,0⟩],[⟨3,0,true,some .internalNl,some 5,none,false,true,0⟩],[⟨3,0,false,some (.own 9),some 5,none,false,true,0⟩],[⟨3,0,false,some (.own 9),some 5,none,false,true,0⟩],[⟨3,0,false,some (.own 9),some 5,none,false,true,0⟩],[⟨3,0,false,some (.own 9),some 5,none,false,true,0⟩],[⟨3,0,false,some (.own 9),some 5,none,false,true,0⟩,⟨3,0,true,some .internalNl,some 5,none,false,true,0⟩],[⟨3,0,false,some .internalNl,some 5,none,false,true,0⟩,⟨3,0,true,some .internalNl,some 5,none,false,true,0⟩],[⟨3,0,false,some .internalNl,some 5,none,false,true,0⟩,⟨3,0,true,some .internalNl,some 5,none,false,true,0⟩],[⟨3,0,false,some (.own 9),some 5,none,false,true,0⟩,⟨3,0,true,some .internalNl,some 5,none,false,true,0⟩],[⟨3,0,false,some .internalNl,some 5,none,false,true,0⟩,⟨3,0,true,some .internalNl,some 5,none,false,true,0⟩],[⟨3,0,false,some .internalNl,some 5,none,false,true,0⟩,⟨3,0,true,some .internalNl,some 5,none,false,true,0⟩],[⟨3,0,true,some .internalNl,some 5,none,false,true,0⟩]]
theorem csAspx_line_closed3true : closed emb0_rows csAspx_line_tab3true (EA.start csAspx_M csAspx_line 3) (EA.succ csAspx_M csAspx_line (3, true)) (EA.eofOk csAspx_M csAspx_line (3, true)) = true := by
  decide +kernel
def csAspx_line_C3true : MCert csAspx_M csAspx_line (3, true) := ⟨emb0_D, csAspx_line_tab3true, csAspx_line_closed3true, (fun h => nomatch h)⟩
def csAspx_line_tab4true : List (List EA) := [[⟨0,0,false,none,none,none,false,false,0⟩],[⟨1,0,false,some (.own 0),some 1,none,false,true,0⟩,⟨2,0,false,some (.own 0),some 1,none,false,true,0⟩,⟨3,0,false,some (.own 0),some 1,none,false,true,0⟩],[⟨1,0,false,some .newline,none,none,false,false,0⟩],[⟨1,0,false,some .newline,some 4,none,false,false,0⟩],[⟨1,0,true,some (.own 7),some 5,none,true,true,0⟩],[⟨1,0,true,some (.own 7),some 5,none,true,true,0⟩],[⟨1,0,false,some (.own 7),some 5,none,false,true,0⟩],[⟨1,0,false,some (.own 7),some 5,none,false,true,0⟩],[⟨2,0,true,some (.own 7),some 5,none,true,true,0⟩,⟨3,0,true,some (.own 7),some 5,none,true,true,0⟩,⟨3,0,true,some .internalNl,some 5,none,true,true,0⟩],[⟨2,0,true,some (.own 7),some 5,none,true,true,0⟩,⟨3,0,true,some (.own 7),some 5,none,true,true,0⟩,⟨3,0,true,some .internalNl,some 5,none,false,true,0⟩,⟨3,0,true,some .internalNl,some 5,none,true,true,0⟩],[⟨2,0,true,some (.own 7),some 5,none,true,true,0⟩,⟨3,0,true,some (.own 7),some 5,none,true,true,0⟩,⟨3,0,true,some .internalNl,some 5,none,false,true,0⟩,⟨3,0,true,some .internalNl,some 5,none,true,true,0⟩],[⟨2,0,true,some (.own 7),some 5,none,true,true,0⟩,⟨3,0,true,some (.own 7),some 5,none,true,true,0⟩,⟨3,0,true,some .internalNl,some 5,none,true,true,0⟩],[⟨2,0,true,some (.own 7),some 5,none,true,true,0⟩,⟨3,0,true,some (.own 7),some 5,none,true,true,0⟩,⟨3,0,true,some .internalNl,some 5,none,false,true,0⟩,⟨3,0,true,some .internalNl,some 5,none,true,true,0⟩],[⟨2,0,true,some (.own 7),some 5,none,true,true,0⟩,⟨3,0,true,some (.own 7),some 5,none,true,true,0⟩,⟨3,0,true,some .internalNl,some 5,none,false,true,0⟩,⟨3,0,true,some .internalNl,some 5,none,true,true,0⟩],[⟨2,0,false,some (.own 7),some 5,none,false,true,0⟩],[⟨2,0,true,some (.own 7),some 5,none,false,true,0⟩],[⟨2,0,true,some (.own 7),some 2,none,false,true,0⟩],[⟨2,0,false,some (.own 7),some 5,none,false,true,0⟩],[⟨3,0,true,some (.own 7),some 5,none,true,true,0⟩,⟨3,0,true,some .internalNl,some 5,none,true,true,0⟩],[⟨3,0,true,some (.own 7),some 5,none,true,true,0⟩,⟨3,0,true,some .internalNl,some 5,none,false,true,0⟩,⟨3,0,true,some .internalNl,some 5,none,true,true,0⟩],[⟨3,0,true,some (.own 7),some 5,none,true,true,0⟩,⟨3,0,true,some .internalNl,some 5,none,false,true,0⟩,⟨3,0,true,some .internalNl,some 5,none,true,true,0⟩],[⟨3,0,true,some (.own 7),some 5,none,true,true,0⟩,⟨3,0,true,some .internalNl,some 5,none,false,true,0⟩,⟨3,0,true,some .internalNl,some 5,none,true,true,0⟩],[⟨3,0,true,some (.own 7),some 5,none,true,true,0⟩,⟨3,0,true,some .internalNl,some 5,none,false,true,0⟩,⟨3,0,true,some .internalNl,some 5,none,true,true,0⟩],[⟨3,0,true,some (.own 7),some 5,none,true,true,0⟩,⟨3,0,true,some .internalNl,some 5,none,true,true,0⟩],[⟨3,0,true,some (.own 7),some 5,none,true,true,0⟩,⟨3,0,true,some .internalNl,some 5,none,false,true,0⟩,⟨3,0,true,some .internalNl,some 5,none,true,true,0⟩],[⟨3,0,true,some (.own 7),some 5,none,true,true,0⟩,⟨3,0,true,some .internalNl,some 5,none,false,true,0⟩,⟨3,0,true,some .internalNl,some 5,none,true,true,0⟩],[⟨3,0,true,some (.own 7),some 5,none,true,true,0⟩,⟨3,0,true,some .internalNl,some 5,none,false,true,0⟩,⟨3,0,true,some .internalNl,some 5,none,true,true,0⟩],[⟨3,0,true,some (.own 7),some 5,none,true,true,0⟩,⟨3,0,true,some .internalNl,some 5,none,false,true,0⟩,⟨3,0,true,some .internalNl,some 5,none,true,true,0⟩],[⟨3,0,false,some (.own 7),some 5,none,false,true,0⟩],[⟨3,0,false,some (.own 7),some 5,none,false,true,0⟩],[⟨3,0,true,some (.own 7),some 5,none,false,true,0⟩,⟨3,0,true,some .internalNl,some 5,none,false,true,0⟩],[⟨3,0,true,some (.own 7),some 5,none,false,true,0⟩,⟨3,0,true,some .internalNl,some 5,none,false,true,0⟩],[⟨3,0,true,some (.own 7),some 5,none,false,true,0⟩,⟨3,0,true,some .internalNl,some 5,none,false,true,0⟩],[⟨3,0,true,some (.own 7),some 5,none,false,true,0⟩,⟨3,0,true,some .internalNl,some 5,none,false,true,0⟩],[⟨3,0,true,some (.own 7),some 5,none,false,true,0⟩,⟨3,0,true,some .internalNl,some 5,none,false,true,0⟩],[⟨3,0,true,some (.own 7),some 5,none,false,true,0⟩,⟨3,0,true,some .internalNl,some 5,none,false,true,0⟩],[⟨3,0,true,some (.own 7),some 5,none,false,true,0⟩,⟨3,0,true,some .internalNl,some 5,none,false,true,0⟩],[⟨3,0,true,some (.own 7),some 2,none,false,true,0⟩],[⟨3,0,false,some (.own 7),some 5,none,false,true,0⟩],[⟨3,0,true,some (.own 7),some 5,none,true,true,0⟩,⟨3,0,true,some .internalNl,some 5,none,false,true,0⟩,⟨3,0,true,some .internalNl,some 5,none,true,true,0⟩],[⟨3,0,true,some .internalNl,some 5,none,true,true,0⟩],[⟨3,0,true,some (.own 7),some 5,none,true,true,0⟩,⟨3,0,true,some .internalNl,some 5,none,false,true,0⟩,⟨3,0,true,some .internalNl,some 5,none,true,true,0⟩],[⟨3,0,true,some .internalNl,some 5,none,true,true,0⟩],[⟨3,0,false,some (.own 7),some 5,none,false,true,0⟩],[⟨3,0,true,some (.own 7),some 5,none,false,true,0⟩,⟨3,0,true,some .internalNl,some 5,none,false,true,0⟩],[⟨3,0,true,some .internalNl,some 5,none,false,true,0⟩],[⟨3,0,false,some (.own 7),some 5,none,false,true,0⟩],[⟨3,0,false,some (.own 7),some 5,none,false,true,0⟩],[⟨3,0,false,some (.own 7),some 5,none,false,true,0⟩],[⟨3,0,false,some (.own 7),some 5,none,false,true,0⟩],[⟨3,0,false,some (.own 7),some 5,none,false,true,0⟩],[⟨3,0,false,some (.own 7),some 5,none,false,true,0⟩,⟨3,0,true,some .internalNl,some 5,none,false,true,0⟩],[⟨3,0,false,some .internalNl,some 5,none,false,true,0⟩,⟨3,0,true,some .internalNl,some 5,none,false,true,0⟩],[⟨3,0,false,some .internalNl,some 5,none,false,true,0⟩,⟨3,0,true,some .internalNl,some 5,none,false,true,0⟩],[⟨3,0,false,some (.own 7),some 5,none,false,true,0⟩,⟨3,0,true,some .internalNl,some 5,none,false,true,0⟩],[⟨3,0,false,some .internalNl,some 5,none,false,true,0⟩,⟨3,0,true,some .internalNl,some 5,none,false,true,0⟩],[⟨3,0,false,some .internalNl,some 5,none,false,true,0⟩,⟨3,0,true,some .internalNl,some 5,none,false,true,0⟩],[⟨3,0,true,some .internalNl,some 5,none,false,true,0⟩]]
theorem csAspx_line_closed4true : closed emb1_rows csAspx_line_tab4true (EA.start csAspx_M csAspx_line 4) (EA.succ csAspx_M csAspx_line (4, true)) (EA.eofOk csAspx_M csAspx_line (4, true)) = true := by
  decide +kernel
def csAspx_line_C4true : MCert csAspx_M csAspx_line (4, true) := ⟨emb1_D, csAspx_line_tab4true, csAspx_line_closed4true, (fun h => nomatch h)⟩
def csAspx_line_tab5true : List (List EA) := [[⟨0,0,false,none,none,none,false,false,0⟩],[⟨1,0,false,some (.own 0),some 1,none,false,true,0⟩,⟨2,0,false,some (.own 0),some 1,none,false,true,0⟩,⟨3,0,false,some (.own 0),some 1,none,false,true,0⟩],[⟨1,0,false,some .newline,none,none,false,false,0⟩],[⟨1,0,false,some .newline,some 4,none,false,false,0⟩],[⟨1,0,true,some (.own 8),some 5,none,true,true,0⟩],[⟨1,0,false,some (.own 8),some 5,none,false,true,0⟩],[⟨1,0,true,some (.own 8),some 5,none,true,true,0⟩],[⟨1,0,false,some (.own 8),some 5,none,false,true,0⟩],[⟨1,0,false,some (.own 8),some 5,none,false,true,0⟩],[⟨2,0,true,some (.own 8),some 5,none,true,true,0⟩,⟨3,0,true,some (.own 8),some 5,none,true,true,0⟩,⟨3,0,true,some .internalNl,some 5,none,true,true,0⟩],[⟨2,0,true,some (.own 8),some 5,none,true,true,0⟩,⟨3,0,true,some (.own 8),some 5,none,true,true,0⟩,⟨3,0,true,some .internalNl,some 5,none,false,true,0⟩,⟨3,0,true,some .internalNl,some 5,none,true,true,0⟩],[⟨2,0,true,some (.own 8),some 5,none,true,true,0⟩,⟨3,0,true,some (.own 8),some 5,none,true,true,0⟩,⟨3,0,true,some .internalNl,some 5,none,false,true,0⟩,⟨3,0,true,some .internalNl,some 5,none,true,true,0⟩],[⟨2,0,true,some (.own 8),some 5,none,true,true,0⟩,⟨3,0,true,some (.own 8),some 5,none,true,true,0⟩,⟨3,0,true,some .internalNl,some 5,none,true,true,0⟩],[⟨2,0,true,some (.own 8),some 5,none,true,true,0⟩,⟨3,0,true,some (.own 8),some 5,none,true,true,0⟩,⟨3,0,true,some .internalNl,some 5,none,false,true,0⟩,⟨3,0,true,some .internalNl,some 5,none,true,true,0⟩],[⟨2,0,true,some (.own 8),some 5,none,true,true,0⟩,⟨3,0,true,some (.own 8),some 5,none,true,true,0⟩,⟨3,0,true,some .internalNl,some 5,none,false,true,0⟩,⟨3,0,true,some .internalNl,some 5,none,true,true,0⟩],[⟨2,0,true,some (.own 8),some 5,none,false,true,0⟩],[⟨2,0,true,some (.own 8),some 2,none,false,true,0⟩],[⟨2,0,false,some (.own 8),some 5,none,false,true,0⟩],[⟨3,0,true,some (.own 8),some 5,none,true,true,0⟩,⟨3,0,true,some .internalNl,some 5,none,true,true,0⟩],[⟨3,0,true,some (.own 8),some 5,none,true,true,0⟩,⟨3,0,true,some .internalNl,some 5,none,false,true,0⟩,⟨3,0,true,some .internalNl,some 5,none,true,true,0⟩],[⟨3,0,true,some (.own 8),some 5,none,true,true,0⟩,⟨3,0,true,some .internalNl,some 5,none,false,true,0⟩,⟨3,0,true,some .internalNl,some 5,none,true,true,0⟩],[⟨3,0,true,some (.own 8),some 5,none,true,true,0⟩,⟨3,0,true,some .internalNl,some 5,none,false,true,0⟩,⟨3,0,true,some .internalNl,some 5,none,true,true,0⟩],[⟨3,0,true,some (.own 8),some 5,none,true,true,0⟩,⟨3,0,true,some .internalNl,some 5,none,false,true,0⟩,⟨3,0,true,some .internalNl,some 5,none,true,true,0⟩],[⟨3,0,true,some (.own 8),some 5,none,true,true,0⟩,⟨3,0,true,some .internalNl,some 5,none,true,true,0⟩],[⟨3,0,true,some (.own 8),some 5,none,true,true,0⟩,⟨3,0,true,some .internalNl,some 5,none,false,true,0⟩,⟨3,0,true,some .internalNl,some 5,none,true,true,0⟩],[⟨3,0,true,some (.own 8),some 5,none,true,true,0⟩,⟨3,0,true,some .internalNl,some 5,none,false,true,0⟩,⟨3,0,true,some .internalNl,some 5,none,true,true,0⟩],[⟨3,0,true,some (.own 8),some 5,none,true,true,0⟩,⟨3,0,true,some .internalNl,some 5,none,false,true,0⟩,⟨3,0,true,some .internalNl,some 5,none,true,true,0⟩],[⟨3,0,true,some (.own 8),some 5,none,true,true,0⟩,⟨3,0,true,some .internalNl,some 5,none,false,true,0⟩,⟨3,0,true,some .internalNl,some 5,none,true,true,0⟩],[⟨3,0,true,some (.own 8),some 5,none,false,true,0⟩,⟨3,0,true,some .internalNl,some 5,none,false,true,0⟩],[⟨3,0,true,some (.own 8),some 5,none,false,true,0⟩,⟨3,0,true,some .internalNl,some 5,none,false,true,0⟩],[⟨3,0,true,some (.own 8),some 5,none,false,true,0⟩,⟨3,0,true,some .internalNl,some 5,none,false,true,0⟩],[⟨3,0,true,some (.own 8),some 5,none,false,true,0⟩,⟨3,0,true,some .internalNl,some 5,none,false,true,0⟩],[⟨3,0,true,some (.own 8),some 5,none,false,true,0⟩,⟨3,0,true,some .internalNl,some 5,none,false,true,0⟩],[⟨3,0,true,some (.own 8),some 5,none,false,true,0⟩,⟨3,0,true,some .internalNl,some 5,none,false,true,0⟩],[⟨3,0,true,some (.own 8),some 5,none,false,true,0⟩,⟨3,0,true,some .internalNl,some 5,none,false,true,0⟩],[⟨3,0,true,some (.own 8),some 2,none,false,true,0⟩,⟨3,0,true,some .internalNl,some 2,none,false,true,0⟩],[⟨3,0,true,some (.own 8),some 2,none,false,true,0⟩,⟨3,0,true,some .internalNl,some 2,none,false,true,0⟩],[⟨3,0,true,some (.own 8),some 2,none,false,true,0⟩,⟨3,0,true,some .internalNl,some 2,none,false,true,0⟩],[⟨3,0,false,some (.own 8),some 5,none,false,true,0⟩],[⟨3,0,true,some (.own 8),some 5,none,true,true,0⟩,⟨3,0,true,some .internalNl,some 5,none,false,true,0⟩,⟨3,0,true,some .internalNl,some 5,none,true,true,0⟩],[⟨3,0,true,some .internalNl,some 5,none,true,true,0⟩],[⟨3,0,true,some (.own 8),some 5,none,true,true,0⟩,⟨3,0,true,some .internalNl,some 5,none,false,true,0⟩,⟨3,0,true,some .internalNl,some 5,none,true,true,0⟩],[⟨3,0,true,some .internalNl,some 5,none,true,true,0⟩],[⟨3,0,true,some (.own 8),some 5,none,false,true,0⟩,⟨3,0,true,some .internalNl,some 5,none,false,true,0⟩],[⟨3,0,true,some .internalNl,some 5,none,false,true,0⟩],[⟨3,0,true,some (.own 8),some 2,none,false,true,0⟩,⟨3,0,true,some .internalNl,some 2,none,false,true,0⟩],[⟨3,0,true,some (.own 8),some 2,none,false,true,0⟩,⟨3,0,true,some .internalNl,some 2,none,false,true,0⟩],[⟨3,0,true,some (.own 8),some 2,none,false,true,0⟩,⟨3,0,true,some .internalNl,some 2,none,false,true,0⟩],[⟨3,0,true,some (.own 8),some 2,none,false,true,0⟩,⟨3,0,true,some .internalNl,some 2,none,false,true,0⟩],[⟨3,0,false,some (.own 8),some 5,none,false,true,0⟩],[⟨3,0,true,some (.own 8),some 2,none,false,true,0⟩,⟨3,0,true,some .internalNl,some 2,none,false,true,0⟩],[⟨3,0,false,some (.own 8),some 5,none,false,true,0⟩],[⟨3,0,false,some (.own 8),some 5,none,false,true,0⟩],[⟨3,0,false,some (.own 8),some 5,none,false,true,0⟩],[⟨3,0,false,some (.own 8),some 5,none,false,true,0⟩],[⟨3,0,false,some (.own 8),some 5,none,false,true,0⟩,⟨3,0,true,some .internalNl,some 5,none,false,true,0⟩],[⟨3,0,false,some .internalNl,some 5,none,false,true,0⟩,⟨3,0,true,some .internalNl,some 5,none,false,true,0⟩],[⟨3,0,false,some .internalNl,some 5,none,false,true,0⟩,⟨3,0,true,some .internalNl,some 5,none,false,true,0⟩],[⟨3,0,false,some (.own 8),some 5,none,false,true,0⟩,⟨3,0,true,some .internalNl,some 5,none,false,true,0⟩],[⟨3,0,false,some .internalNl,some 5,none,false,true,0⟩,⟨3,0,true,some .internalNl,some 5,none,false,true,0⟩],[⟨3,0,false,some .internalNl,some 5,none,false,true,0⟩,⟨3,0,true,some .internalNl,some 5,none,false,true,0⟩],[⟨3,0,true,some .internalNl,some 5,none,false,true,0⟩]]
theorem csAspx_line_closed5true : closed emb46_rows csAspx_line_tab5true (EA.start csAspx_M csAspx_line 5) (EA.succ csAspx_M csAspx_line (5, true)) (EA.eofOk csAspx_M csAspx_line (5, true)) = true := by
  decide +kernel
def csAspx_line_C5true : MCert csAspx_M csAspx_line (5, true) := ⟨emb46_D, csAspx_line_tab5true, csAspx_line_closed5true, (fun h => nomatch h)⟩
def csAspx_line_tab0false : List (List EA) := [[⟨0,0,true,none,none,none,false,false,0⟩],[⟨0,0,true,none,none,none,false,false,0⟩,⟨0,0,true,some .internalNl,none,none,false,true,0⟩],[⟨0,0,true,none,none,none,false,false,0⟩,⟨0,0,true,some .internalNl,none,none,false,true,0⟩],[⟨0,0,true,none,none,none,false,false,0⟩,⟨0,0,true,some .internalNl,none,none,false,true,0⟩],[⟨0,0,true,none,none,none,false,false,0⟩,⟨0,0,true,some .internalNl,none,none,false,true,0⟩],[⟨0,0,true,none,none,none,false,false,0⟩,⟨0,0,true,some .internalNl,none,none,false,true,0⟩],[⟨0,0,true,none,none,none,false,false,0⟩,⟨0,0,true,some .internalNl,none,none,false,true,0⟩],[⟨0,0,true,none,none,none,false,false,0⟩,⟨0,0,true,some .internalNl,none,none,false,true,0⟩],[⟨0,0,true,none,none,none,false,false,0⟩,⟨0,0,true,some .internalNl,none,none,false,true,0⟩],[⟨0,0,true,none,none,none,false,false,0⟩,⟨0,0,true,some .internalNl,none,none,false,true,0⟩],[⟨0,0,true,some .internalNl,none,none,false,true,0⟩],[⟨0,0,true,none,none,none,false,false,0⟩,⟨0,0,true,some .internalNl,none,none,false,true,0⟩],[⟨0,0,true,none,none,none,false,false,0⟩,⟨0,0,true,some .internalNl,none,none,false,true,0⟩],[⟨0,0,true,none,none,none,false,false,0⟩,⟨0,0,true,some .internalNl,none,none,false,true,0⟩],[⟨0,0,true,none,none,none,false,false,0⟩,⟨0,0,true,some .internalNl,none,none,false,true,0⟩],[⟨0,0,true,none,none,none,false,false,0⟩,⟨0,0,true,some .internalNl,none,none,false,true,0⟩],[⟨0,0,true,none,none,none,false,false,0⟩,⟨0,0,true,some .internalNl,none,none,false,true,0⟩],[⟨0,0,true,none,none,none,false,false,0⟩,⟨0,0,true,some .internalNl,none,none,false,true,0⟩],[⟨0,0,true,none,none,none,false,false,0⟩,⟨0,0,true,some .internalNl,none,none,false,true,0⟩],[⟨0,0,false,none,none,none,false,false,0⟩],[⟨0,0,true,none,none,none,false,false,0⟩,⟨0,0,true,some .internalNl,none,none,false,true,0⟩],[⟨0,0,true,none,none,none,false,false,0⟩,⟨0,0,true,some .internalNl,none,none,false,true,0⟩],[⟨0,0,true,none,none,none,false,false,0⟩,⟨0,0,true,some .internalNl,none,none,false,true,0⟩],[⟨0,0,true,none,none,none,false,false,0⟩,⟨0,0,true,some .internalNl,none,none,false,true,0⟩,⟨0,0,false,none,none,none,false,false,0⟩],[⟨0,0,true,none,none,none,false,false,0⟩,⟨0,0,true,some .internalNl,none,none,false,true,0⟩,⟨0,0,false,none,none,none,false,false,0⟩],[⟨0,0,true,none,none,none,false,false,0⟩,⟨0,0,true,some .internalNl,none,none,false,true,0⟩,⟨0,0,false,none,none,none,false,false,0⟩],[⟨0,0,true,none,none,none,false,false,0⟩,⟨0,0,true,some .internalNl,none,none,false,true,0⟩,⟨0,0,false,none,none,none,false,false,0⟩],[⟨0,0,true,none,none,none,false,false,0⟩,⟨0,0,true,some .internalNl,none,none,false,true,0⟩,⟨0,0,false,none,none,none,false,false,0⟩],[⟨0,0,true,none,none,none,false,false,0⟩,⟨0,0,true,some .internalNl,none,none,false,true,0⟩,⟨0,0,false,none,none,none,false,false,0⟩],[⟨0,0,true,none,none,none,false,false,0⟩,⟨0,0,true,some .internalNl,none,none,false,true,0⟩,⟨0,0,false,none,none,none,false,false,0⟩],[⟨0,0,true,none,none,none,false,false,0⟩,⟨0,0,true,some .internalNl,none,none,false,true,0⟩,⟨0,0,false,none,none,none,false,false,0⟩],[⟨0,0,true,none,none,none,false,false,0⟩,⟨0,0,true,some .internalNl,none,none,false,true,0⟩,⟨0,0,false,none,none,none,false,false,0⟩],[⟨0,0,true,none,none,none,false,false,0⟩],[⟨0,0,false,none,none,none,false,false,0⟩],[⟨0,0,false,none,none,none,false,false,0⟩],[⟨0,0,false,none,none,none,false,false,0⟩],[⟨0,0,false,none,none,none,false,false,0⟩],[⟨0,0,false,none,none,none,false,false,0⟩],[⟨0,0,false,none,none,none,false,false,0⟩],[⟨0,0,false,none,none,none,false,false,0⟩],[⟨0,0,false,none,none,none,false,false,0⟩],[⟨0,0,true,none,none,none,false,false,0⟩,⟨0,0,true,some .internalNl,none,none,false,true,0⟩,⟨0,0,false,none,none,none,false,false,0⟩],[⟨0,0,true,none,none,none,false,false,0⟩,⟨0,0,true,some .internalNl,none,none,false,true,0⟩],[⟨0,0,true,none,none,none,false,false,0⟩,⟨0,0,true,some .internalNl,none,none,false,true,0⟩,⟨0,0,false,none,none,none,false,false,0⟩],[⟨0,0,true,none,none,none,false,false,0⟩,⟨0,0,true,some .internalNl,none,none,false,true,0⟩,⟨0,0,false,none,none,none,false,false,0⟩],[⟨0,0,true,none,none,none,false,false,0⟩,⟨0,0,true,some .internalNl,none,none,false,true,0⟩,⟨0,0,false,none,none,none,false,false,0⟩],[⟨0,0,true,none,none,none,false,false,0⟩,⟨0,0,true,some .internalNl,none,none,false,true,0⟩,⟨0,0,false,none,none,none,false,false,0⟩],[⟨0,0,true,none,none,none,false,false,0⟩,⟨0,0,true,some .internalNl,none,none,false,true,0⟩,⟨0,0,false,none,none,none,false,false,0⟩],[⟨0,0,true,none,none,none,false,false,0⟩,⟨0,0,true,some .internalNl,none,none,false,true,0⟩,⟨0,0,false,none,none,none,false,false,0⟩],[⟨0,0,false,none,none,none,false,false,0⟩],[⟨0,0,true,none,none,none,false,false,0⟩,⟨0,0,true,some .internalNl,none,none,false,true,0⟩,⟨0,0,false,none,none,none,false,false,0⟩],[⟨0,0,true,none,none,none,false,false,0⟩,⟨0,0,true,some .internalNl,none,none,false,true,0⟩,⟨0,0,false,none,none,none,false,false,0⟩],[⟨0,0,true,none,none,none,false,false,0⟩],[⟨0,0,false,none,none,none,false,false,0⟩],[⟨0,0,false,none,none,none,false,false,0⟩],[⟨0,0,false,none,none,none,false,false,0⟩],[⟨0,0,false,none,none,none,false,false,0⟩],[⟨0,0,false,none,none,none,false,false,0⟩],[⟨0,0,false,none,none,none,false,false,0⟩],[⟨0,0,false,none,none,none,false,false,0⟩],[⟨0,0,false,none,none,none,false,false,0⟩]]
theorem csAspx_line_closed0false : closed emb25_rows csAspx_line_tab0false (EA.start csAspx_M csAspx_line 0) (EA.succ csAspx_M csAspx_line (0, false)) (EA.eofOk csAspx_M csAspx_line (0, false)) = true := by
  decide +kernel
def csAspx_line_C0false : MCert csAspx_M csAspx_line (0, false) := ⟨emb25_D, csAspx_line_tab0false, csAspx_line_closed0false, (fun h => nomatch h)⟩
def csAspx_line_tab1false : List (List EA) := [[⟨0,0,true,none,none,none,false,false,0⟩],[⟨0,0,true,none,none,none,true,false,0⟩,⟨0,0,true,some .internalNl,none,none,true,true,0⟩],[⟨0,0,true,none,none,none,false,false,0⟩,⟨0,0,true,none,none,none,true,false,0⟩,⟨0,0,true,some .internalNl,none,none,false,true,0⟩,⟨0,0,true,some .internalNl,none,none,true,true,0⟩],[⟨0,0,true,none,none,none,false,false,0⟩,⟨0,0,true,none,none,none,true,false,0⟩,⟨0,0,true,some .internalNl,none,none,false,true,0⟩,⟨0,0,true,some .internalNl,none,none,true,true,0⟩],[⟨0,0,true,none,none,none,false,false,0⟩,⟨0,0,true,none,none,none,true,false,0⟩,⟨0,0,true,some .internalNl,none,none,false,true,0⟩,⟨0,0,true,some .internalNl,none,none,true,true,0⟩],[⟨0,0,true,none,none,none,false,false,0⟩,⟨0,0,true,none,none,none,true,false,0⟩,⟨0,0,true,some .internalNl,none,none,false,true,0⟩,⟨0,0,true,some .internalNl,none,none,true,true,0⟩],[⟨0,0,true,none,none,none,false,false,0⟩,⟨0,0,true,none,none,none,true,false,0⟩,⟨0,0,true,some .internalNl,none,none,false,true,0⟩,⟨0,0,true,some .internalNl,none,none,true,true,0⟩],[⟨0,0,true,none,none,none,false,false,0⟩,⟨0,0,true,none,none,none,true,false,0⟩,⟨0,0,true,some .internalNl,none,none,false,true,0⟩,⟨0,0,true,some .internalNl,none,none,true,true,0⟩],[⟨0,0,true,none,none,none,false,false,0⟩,⟨0,0,true,none,none,none,true,false,0⟩,⟨0,0,true,some .internalNl,none,none,false,true,0⟩,⟨0,0,true,some .internalNl,none,none,true,true,0⟩],[⟨0,0,true,none,none,none,false,false,0⟩,⟨0,0,true,none,none,none,true,false,0⟩,⟨0,0,true,some .internalNl,none,none,false,true,0⟩,⟨0,0,true,some .internalNl,none,none,true,true,0⟩],[⟨0,0,true,some .internalNl,none,none,false,true,0⟩],[⟨0,0,true,none,none,none,true,false,0⟩,⟨0,0,true,some .internalNl,none,none,true,true,0⟩],[⟨0,0,true,none,none,none,false,false,0⟩,⟨0,0,true,none,none,none,true,false,0⟩,⟨0,0,true,some .internalNl,none,none,false,true,0⟩,⟨0,0,true,some .internalNl,none,none,true,true,0⟩],[⟨0,0,true,none,none,none,false,false,0⟩,⟨0,0,true,none,none,none,true,false,0⟩,⟨0,0,true,some .internalNl,none,none,false,true,0⟩,⟨0,0,true,some .internalNl,none,none,true,true,0⟩],[⟨0,0,true,none,none,none,false,false,0⟩,⟨0,0,true,none,none,none,true,false,0⟩,⟨0,0,true,some .internalNl,none,none,false,true,0⟩,⟨0,0,true,some .internalNl,none,none,true,true,0⟩],[⟨0,0,true,none,none,none,false,false,0⟩,⟨0,0,true,none,none,none,true,false,0⟩,⟨0,0,true,some .internalNl,none,none,false,true,0⟩,⟨0,0,true,some .internalNl,none,none,true,true,0⟩],[⟨0,0,true,none,none,none,false,false,0⟩,⟨0,0,true,none,none,none,true,false,0⟩,⟨0,0,true,some .internalNl,none,none,false,true,0⟩,⟨0,0,true,some .internalNl,none,none,true,true,0⟩],[⟨0,0,false,none,none,none,false,false,0⟩],[],[⟨0,0,true,none,none,none,false,false,0⟩,⟨0,0,true,none,none,none,true,false,0⟩,⟨0,0,true,some .internalNl,none,none,false,true,0⟩,⟨0,0,true,some .internalNl,none,none,true,true,0⟩],[⟨0,0,true,none,none,none,false,false,0⟩,⟨0,0,true,none,none,none,true,false,0⟩,⟨0,0,true,some .internalNl,none,none,false,true,0⟩,⟨0,0,true,some .internalNl,none,none,true,true,0⟩],[⟨0,0,true,none,none,none,true,false,0⟩,⟨0,0,true,some .internalNl,none,none,true,true,0⟩],[⟨0,0,true,none,none,none,true,false,0⟩,⟨0,0,true,some .internalNl,none,none,true,true,0⟩],[⟨0,0,true,none,none,none,true,false,0⟩,⟨0,0,true,none,none,none,false,false,0⟩,⟨0,0,true,some .internalNl,none,none,false,true,0⟩,⟨0,0,true,some .internalNl,none,none,true,true,0⟩,⟨0,0,false,none,none,none,false,false,0⟩],[⟨0,0,true,none,none,none,true,false,0⟩,⟨0,0,true,none,none,none,false,false,0⟩,⟨0,0,true,some .internalNl,none,none,false,true,0⟩,⟨0,0,true,some .internalNl,none,none,true,true,0⟩,⟨0,0,false,none,none,none,false,false,0⟩],[⟨0,0,true,none,none,none,true,false,0⟩,⟨0,0,true,none,none,none,false,false,0⟩,⟨0,0,true,some .internalNl,none,none,false,true,0⟩,⟨0,0,true,some .internalNl,none,none,true,true,0⟩,⟨0,0,false,none,none,none,false,false,0⟩],[⟨0,0,true,none,none,none,true,false,0⟩,⟨0,0,true,none,none,none,false,false,0⟩,⟨0,0,true,some .internalNl,none,none,false,true,0⟩,⟨0,0,true,some .internalNl,none,none,true,true,0⟩,⟨0,0,false,none,none,none,false,false,0⟩],[⟨0,0,true,none,none,none,true,false,0⟩,⟨0,0,true,none,none,none,false,false,0⟩,⟨0,0,true,some .internalNl,none,none,false,true,0⟩,⟨0,0,true,some .internalNl,none,none,true,true,0⟩,⟨0,0,false,none,none,none,false,false,0⟩],[],[⟨0,0,true,none,none,none,true,false,0⟩,⟨0,0,true,none,none,none,false,false,0⟩,⟨0,0,true,some .internalNl,none,none,false,true,0⟩,⟨0,0,true,some .internalNl,none,none,true,true,0⟩,⟨0,0,false,none,none,none,false,false,0⟩],[⟨0,0,true,none,none,none,true,false,0⟩,⟨0,0,true,none,none,none,false,false,0⟩,⟨0,0,true,some .internalNl,none,none,false,true,0⟩,⟨0,0,true,some .internalNl,none,none,true,true,0⟩,⟨0,0,false,none,none,none,false,false,0⟩],[⟨0,0,true,none,none,none,false,false,0⟩,⟨0,0,true,some .internalNl,none,none,false,true,0⟩,⟨0,0,true,none,none,none,true,false,0⟩,⟨0,0,false,none,none,none,false,false,0⟩,⟨0,0,true,some .internalNl,none,none,true,true,0⟩],[⟨0,0,true,none,none,none,true,false,0⟩],[⟨0,0,false,none,none,none,false,false,0⟩],[⟨0,0,false,none,none,none,false,false,0⟩],[⟨0,0,false,none,none,none,false,false,0⟩],[⟨0,0,false,none,none,none,false,false,0⟩],[⟨0,0,false,none,none,none,false,false,0⟩],[],[⟨0,0,false,none,none,none,false,false,0⟩],[⟨0,0,false,none,none,none,false,false,0⟩],[⟨0,0,true,none,none,none,true,false,0⟩,⟨0,0,true,some .internalNl,none,none,true,true,0⟩],[⟨0,0,true,none,none,none,false,false,0⟩,⟨0,0,true,none,none,none,true,false,0⟩,⟨0,0,true,some .internalNl,none,none,false,true,0⟩,⟨0,0,false,none,none,none,false,false,0⟩,⟨0,0,true,some .internalNl,none,none,true,true,0⟩],[⟨0,0,true,none,none,none,false,false,0⟩,⟨0,0,true,none,none,none,true,false,0⟩,⟨0,0,true,some .internalNl,none,none,false,true,0⟩,⟨0,0,false,none,none,none,false,false,0⟩,⟨0,0,true,some .internalNl,none,none,true,true,0⟩],[⟨0,0,true,none,none,none,false,false,0⟩,⟨0,0,true,none,none,none,true,false,0⟩,⟨0,0,true,some .internalNl,none,none,false,true,0⟩,⟨0,0,false,none,none,none,false,false,0⟩,⟨0,0,true,some .internalNl,none,none,true,true,0⟩],[⟨0,0,true,none,none,none,false,false,0⟩,⟨0,0,true,none,none,none,true,false,0⟩,⟨0,0,true,some .internalNl,none,none,false,true,0⟩,⟨0,0,false,none,none,none,false,false,0⟩,⟨0,0,true,some .internalNl,none,none,true,true,0⟩],[⟨0,0,true,none,none,none,false,false,0⟩,⟨0,0,true,none,none,none,true,false,0⟩,⟨0,0,true,some .internalNl,none,none,false,true,0⟩,⟨0,0,false,none,none,none,false,false,0⟩,⟨0,0,true,some .internalNl,none,none,true,true,0⟩],[⟨0,0,false,none,none,none,false,false,0⟩],[],[⟨0,0,true,none,none,none,false,false,0⟩,⟨0,0,true,none,none,none,true,false,0⟩,⟨0,0,true,some .internalNl,none,none,false,true,0⟩,⟨0,0,false,none,none,none,false,false,0⟩,⟨0,0,true,some .internalNl,none,none,true,true,0⟩],[⟨0,0,true,none,none,none,false,false,0⟩,⟨0,0,true,none,none,none,true,false,0⟩,⟨0,0,true,some .internalNl,none,none,false,true,0⟩,⟨0,0,false,none,none,none,false,false,0⟩,⟨0,0,true,some .internalNl,none,none,true,true,0⟩],[⟨0,0,true,none,none,none,true,false,0⟩,⟨0,0,true,some .internalNl,none,none,true,true,0⟩],[⟨0,0,true,none,none,none,true,false,0⟩,⟨0,0,true,some .internalNl,none,none,true,true,0⟩],[],[⟨0,0,true,none,none,none,true,false,0⟩,⟨0,0,true,some .internalNl,none,none,true,true,0⟩],[⟨0,0,true,none,none,none,true,false,0⟩,⟨0,0,true,some .internalNl,none,none,true,true,0⟩],[⟨0,0,true,none,none,none,true,false,0⟩],[⟨0,0,false,none,none,none,false,false,0⟩],[⟨0,0,false,none,none,none,false,false,0⟩],[⟨0,0,false,none,none,none,false,false,0⟩],[⟨0,0,false,none,none,none,false,false,0⟩],[⟨0,0,false,none,none,none,false,false,0⟩],[],[⟨0,0,false,none,none,none,false,false,0⟩],[⟨0,0,false,none,none,none,false,false,0⟩]]
theorem csAspx_line_closed1false : closed emb26_rows csAspx_line_tab1false (EA.start csAspx_M csAspx_line 1) (EA.succ csAspx_M csAspx_line (1, false)) (EA.eofOk csAspx_M csAspx_line (1, false)) = true := by
  decide +kernel
def csAspx_line_C1false : MCert csAspx_M csAspx_line (1, false) := ⟨emb26_D, csAspx_line_tab1false, csAspx_line_closed1false, (fun h => nomatch h)⟩
def csAspx_line_tab2false : List (List EA) := [[⟨0,0,true,none,none,none,false,false,0⟩],[⟨0,0,true,none,none,none,true,false,0⟩,⟨0,0,true,some .internalNl,none,none,true,true,0⟩],[⟨0,0,true,none,none,none,false,false,0⟩,⟨0,0,true,none,none,none,true,false,0⟩,⟨0,0,true,some .internalNl,none,none,false,true,0⟩,⟨0,0,true,some .internalNl,none,none,true,true,0⟩],[⟨0,0,true,none,none,none,false,false,0⟩,⟨0,0,true,none,none,none,true,false,0⟩,⟨0,0,true,some .internalNl,none,none,false,true,0⟩,⟨0,0,true,some .internalNl,none,none,true,true,0⟩],[⟨0,0,true,none,none,none,false,false,0⟩,⟨0,0,true,none,none,none,true,false,0⟩,⟨0,0,true,some .internalNl,none,none,false,true,0⟩,⟨0,0,true,some .internalNl,none,none,true,true,0⟩],[⟨0,0,true,none,none,none,false,false,0⟩,⟨0,0,true,none,none,none,true,false,0⟩,⟨0,0,true,some .internalNl,none,none,false,true,0⟩,⟨0,0,true,some .internalNl,none,none,true,true,0⟩],[⟨0,0,true,none,none,none,false,false,0⟩,⟨0,0,true,none,none,none,true,false,0⟩,⟨0,0,true,some .internalNl,none,none,false,true,0⟩,⟨0,0,true,some .internalNl,none,none,true,true,0⟩],[⟨0,0,true,none,none,none,false,false,0⟩,⟨0,0,true,none,none,none,true,false,0⟩,⟨0,0,true,some .internalNl,none,none,false,true,0⟩,⟨0,0,true,some .internalNl,none,none,true,true,0⟩],[⟨0,0,true,none,none,none,false,false,0⟩,⟨0,0,true,none,none,none,true,false,0⟩,⟨0,0,true,some .internalNl,none,none,false,true,0⟩,⟨0,0,true,some .internalNl,none,none,true,true,0⟩],[⟨0,0,true,none,none,none,false,false,0⟩,⟨0,0,true,none,none,none,true,false,0⟩,⟨0,0,true,some .internalNl,none,none,false,true,0⟩,⟨0,0,true,some .internalNl,none,none,true,true,0⟩],[⟨0,0,true,some .internalNl,none,none,false,true,0⟩],[⟨0,0,true,none,none,none,true,false,0⟩,⟨0,0,true,some .internalNl,none,none,true,true,0⟩],[⟨0,0,true,none,none,none,false,false,0⟩,⟨0,0,true,none,none,none,true,false,0⟩,⟨0,0,true,some .internalNl,none,none,false,true,0⟩,⟨0,0,true,some .internalNl,none,none,true,true,0⟩],[⟨0,0,true,none,none,none,false,false,0⟩,⟨0,0,true,none,none,none,true,false,0⟩,⟨0,0,true,some .internalNl,none,none,false,true,0⟩,⟨0,0,true,some .internalNl,none,none,true,true,0⟩],[⟨0,0,true,none,none,none,false,false,0⟩,⟨0,0,true,none,none,none,true,false,0⟩,⟨0,0,true,some .internalNl,none,none,false,true,0⟩,⟨0,0,true,some .internalNl,none,none,true,true,0⟩],[⟨0,0,true,none,none,none,false,false,0⟩,⟨0,0,true,none,none,none,true,false,0⟩,⟨0,0,true,some .internalNl,none,none,false,true,0⟩,⟨0,0,true,some .internalNl,none,none,true,true,0⟩],[⟨0,0,true,none,none,none,false,false,0⟩,⟨0,0,true,none,none,none,true,false,0⟩,⟨0,0,true,some .internalNl,none,none,false,true,0⟩,⟨0,0,true,some .internalNl,none,none,true,true,0⟩],[],[⟨0,0,false,none,none,none,false,false,0⟩],[⟨0,0,true,none,none,none,false,false,0⟩,⟨0,0,true,none,none,none,true,false,0⟩,⟨0,0,true,some .internalNl,none,none,false,true,0⟩,⟨0,0,true,some .internalNl,none,none,true,true,0⟩],[⟨0,0,true,none,none,none,false,false,0⟩,⟨0,0,true,none,none,none,true,false,0⟩,⟨0,0,true,some .internalNl,none,none,false,true,0⟩,⟨0,0,true,some .internalNl,none,none,true,true,0⟩],[⟨0,0,true,none,none,none,true,false,0⟩,⟨0,0,true,some .internalNl,none,none,true,true,0⟩],[⟨0,0,true,none,none,none,true,false,0⟩,⟨0,0,true,some .internalNl,none,none,true,true,0⟩],[⟨0,0,true,none,none,none,true,false,0⟩,⟨0,0,true,none,none,none,false,false,0⟩,⟨0,0,true,some .internalNl,none,none,false,true,0⟩,⟨0,0,true,some .internalNl,none,none,true,true,0⟩,⟨0,0,false,none,none,none,false,false,0⟩],[⟨0,0,true,none,none,none,true,false,0⟩,⟨0,0,true,none,none,none,false,false,0⟩,⟨0,0,true,some .internalNl,none,none,false,true,0⟩,⟨0,0,true,some .internalNl,none,none,true,true,0⟩,⟨0,0,false,none,none,none,false,false,0⟩],[⟨0,0,true,none,none,none,true,false,0⟩,⟨0,0,true,none,none,none,false,false,0⟩,⟨0,0,true,some .internalNl,none,none,false,true,0⟩,⟨0,0,true,some .internalNl,none,none,true,true,0⟩,⟨0,0,false,none,none,none,false,false,0⟩],[⟨0,0,true,none,none,none,true,false,0⟩,⟨0,0,true,none,none,none,false,false,0⟩,⟨0,0,true,some .internalNl,none,none,false,true,0⟩,⟨0,0,true,some .internalNl,none,none,true,true,0⟩,⟨0,0,false,none,none,none,false,false,0⟩],[⟨0,0,true,none,none,none,true,false,0⟩,⟨0,0,true,none,none,none,false,false,0⟩,⟨0,0,true,some .internalNl,none,none,false,true,0⟩,⟨0,0,true,some .internalNl,none,none,true,true,0⟩,⟨0,0,false,none,none,none,false,false,0⟩],[],[⟨0,0,true,none,none,none,true,false,0⟩,⟨0,0,true,none,none,none,false,false,0⟩,⟨0,0,true,some .internalNl,none,none,false,true,0⟩,⟨0,0,true,some .internalNl,none,none,true,true,0⟩,⟨0,0,false,none,none,none,false,false,0⟩],[⟨0,0,true,none,none,none,true,false,0⟩,⟨0,0,true,none,none,none,false,false,0⟩,⟨0,0,true,some .internalNl,none,none,false,true,0⟩,⟨0,0,true,some .internalNl,none,none,true,true,0⟩,⟨0,0,false,none,none,none,false,false,0⟩],[⟨0,0,true,none,none,none,false,false,0⟩,⟨0,0,true,some .internalNl,none,none,false,true,0⟩,⟨0,0,true,none,none,none,true,false,0⟩,⟨0,0,false,none,none,none,false,false,0⟩,⟨0,0,true,some .internalNl,none,none,true,true,0⟩],[⟨0,0,true,none,none,none,true,false,0⟩],[⟨0,0,false,none,none,none,false,false,0⟩],[⟨0,0,false,none,none,none,false,false,0⟩],[⟨0,0,false,none,none,none,false,false,0⟩],[⟨0,0,false,none,none,none,false,false,0⟩],[⟨0,0,false,none,none,none,false,false,0⟩],[],[⟨0,0,false,none,none,none,false,false,0⟩],[⟨0,0,false,none,none,none,false,false,0⟩],[⟨0,0,true,none,none,none,true,false,0⟩,⟨0,0,true,some .internalNl,none,none,true,true,0⟩],[⟨0,0,true,none,none,none,false,false,0⟩,⟨0,0,true,none,none,none,true,false,0⟩,⟨0,0,true,some .internalNl,none,none,false,true,0⟩,⟨0,0,false,none,none,none,false,false,0⟩,⟨0,0,true,some .internalNl,none,none,true,true,0⟩],[⟨0,0,true,none,none,none,false,false,0⟩,⟨0,0,true,none,none,none,true,false,0⟩,⟨0,0,true,some .internalNl,none,none,false,true,0⟩,⟨0,0,false,none,none,none,false,false,0⟩,⟨0,0,true,some .internalNl,none,none,true,true,0⟩],[⟨0,0,true,none,none,none,false,false,0⟩,⟨0,0,true,none,none,none,true,false,0⟩,⟨0,0,true,some .internalNl,none,none,false,true,0⟩,⟨0,0,false,none,none,none,false,false,0⟩,⟨0,0,true,some .internalNl,none,none,true,true,0⟩],[⟨0,0,true,none,none,none,false,false,0⟩,⟨0,0,true,none,none,none,true,false,0⟩,⟨0,0,true,some .internalNl,none,none,false,true,0⟩,⟨0,0,false,none,none,none,false,false,0⟩,⟨0,0,true,some .internalNl,none,none,true,true,0⟩],[⟨0,0,true,none,none,none,false,false,0⟩,⟨0,0,true,none,none,none,true,false,0⟩,⟨0,0,true,some .internalNl,none,none,false,true,0⟩,⟨0,0,false,none,none,none,false,false,0⟩,⟨0,0,true,some .internalNl,none,none,true,true,0⟩],[],[⟨0,0,false,none,none,none,false,false,0⟩],[⟨0,0,true,none,none,none,false,false,0⟩,⟨0,0,true,none,none,none,true,false,0⟩,⟨0,0,true,some .internalNl,none,none,false,true,0⟩,⟨0,0,false,none,none,none,false,false,0⟩,⟨0,0,true,some .internalNl,none,none,true,true,0⟩],[⟨0,0,true,none,none,none,false,false,0⟩,⟨0,0,true,none,none,none,true,false,0⟩,⟨0,0,true,some .internalNl,none,none,false,true,0⟩,⟨0,0,false,none,none,none,false,false,0⟩,⟨0,0,true,some .internalNl,none,none,true,true,0⟩],[⟨0,0,true,none,none,none,true,false,0⟩,⟨0,0,true,some .internalNl,none,none,true,true,0⟩],[⟨0,0,true,none,none,none,true,false,0⟩,⟨0,0,true,some .internalNl,none,none,true,true,0⟩],[],[⟨0,0,true,none,none,none,true,false,0⟩,⟨0,0,true,some .internalNl,none,none,true,true,0⟩],[⟨0,0,true,none,none,none,true,false,0⟩,⟨0,0,true,some .internalNl,none,none,true,true,0⟩],[⟨0,0,true,none,none,none,true,false,0⟩],[⟨0,0,false,none,none,none,false,false,0⟩],[⟨0,0,false,none,none,none,false,false,0⟩],[⟨0,0,false,none,none,none,false,false,0⟩],[⟨0,0,false,none,none,none,false,false,0⟩],[⟨0,0,false,none,none,none,false,false,0⟩],[],[⟨0,0,false,none,none,none,false,false,0⟩],[⟨0,0,false,none,none,none,false,false,0⟩]]
theorem csAspx_line_closed2false : closed emb27_rows csAspx_line_tab2false (EA.start csAspx_M csAspx_line 2) (EA.succ csAspx_M csAspx_line (2, false)) (EA.eofOk csAspx_M csAspx_line (2, false)) = true := by
  decide +kernel
def csAspx_line_C2false : MCert csAspx_M csAspx_line (2, false) := ⟨emb27_D, csAspx_line_tab2false, csAspx_line_closed2false, (fun h => nomatch h)⟩
theorem csAspx_line_certs : ∀ u ∈ csAspx_line.use, Nonempty (MCert csAspx_M csAspx_line u) :=
  (List.forall_mem_cons.mpr ⟨⟨csAspx_line_C6false⟩,
  (List.forall_mem_cons.mpr ⟨⟨csAspx_line_C3true⟩,
  (List.forall_mem_cons.mpr ⟨⟨csAspx_line_C4true⟩,
  (List.forall_mem_cons.mpr ⟨⟨csAspx_line_C5true⟩,
  (List.forall_mem_cons.mpr ⟨⟨csAspx_line_C0false⟩,
  (List.forall_mem_cons.mpr ⟨⟨csAspx_line_C1false⟩,
  (List.forall_mem_cons.mpr ⟨⟨csAspx_line_C2false⟩,
  (fun _ h => nomatch h)⟩)⟩)⟩)⟩)⟩)⟩)⟩)

def csAspx_entity : EOpt := ⟨false, false, false, [(10,false),(7,true),(8,true),(9,true)], 4⟩
def csAspx_entity_tab10false : List (List EA) := [[⟨0,0,false,none,none,none,false,false,0⟩],[⟨1,0,false,some (.own 0),some 3,none,false,true,0⟩,⟨2,0,false,some (.own 0),some 3,none,false,true,0⟩,⟨3,0,false,some (.own 0),some 3,none,false,true,0⟩],[⟨1,0,false,some (.own 1),some 5,none,false,true,0⟩],[⟨2,0,false,some (.own 1),some 5,none,false,true,0⟩],[⟨2,0,false,some (.own 1),some 5,none,false,true,0⟩],[⟨3,0,false,some (.own 1),some 5,none,false,true,0⟩],[⟨3,0,false,some (.own 1),some 5,none,false,true,0⟩],[⟨3,0,false,some (.own 1),some 5,none,false,true,0⟩],[⟨3,0,false,some (.own 1),some 5,none,false,true,0⟩],[⟨3,0,false,some (.own 1),some 5,none,false,true,0⟩],[⟨3,0,false,some (.own 1),some 5,none,false,true,0⟩],[⟨3,0,false,some (.own 1),some 5,none,false,true,0⟩],[⟨3,0,false,some (.own 1),some 5,none,false,true,0⟩],[⟨3,0,false,some (.own 1),some 5,none,false,true,0⟩],[⟨3,0,false,some (.own 1),some 5,none,false,true,0⟩],[⟨3,0,false,some (.own 1),some 5,none,false,true,0⟩],[⟨3,0,false,some (.own 1),some 5,none,false,true,0⟩],[⟨3,0,false,some (.own 1),some 5,none,false,true,0⟩],[⟨3,0,false,some (.own 1),some 5,none,false,true,0⟩],[⟨3,0,false,some (.own 1),some 5,none,false,true,0⟩],[⟨3,0,false,some (.own 1),some 5,none,false,true,0⟩],[⟨3,0,false,some (.own 1),some 5,none,false,true,0⟩],[⟨3,0,false,some (.own 1),some 5,none,false,true,0⟩],[⟨3,0,false,some (.own 1),some 5,none,false,true,0⟩],[⟨3,0,false,some (.own 1),some 5,none,false,true,0⟩],[⟨3,0,false,some (.own 1),some 5,none,false,true,0⟩],[⟨3,0,false,some (.own 1),some 5,none,false,true,0⟩],[⟨3,0,false,some (.own 1),some 5,none,false,true,0⟩],[⟨3,0,false,some (.own 1),some 5,none,false,true,0⟩],[⟨3,0,false,some (.own 1),some 5,none,false,true,0⟩],[⟨3,0,false,some (.own 1),some 5,none,false,true,0⟩],[⟨3,0,false,some (.own 1),some 5,none,false,true,0⟩],[⟨3,0,false,some (.own 1),some 5,none,false,true,0⟩],[⟨3,0,false,some (.own 1),some 5,none,false,true,0⟩],[⟨3,0,false,some (.own 1),some 5,none,false,true,0⟩],[⟨3,0,false,some (.own 1),some 5,none,false,true,0⟩],[⟨3,0,false,some (.own 1),some 5,none,false,true,0⟩],[⟨3,0,false,some (.own 1),some 5,none,false,true,0⟩],[⟨3,0,false,some (.own 1),some 5,none,false,true,0⟩],[⟨3,0,false,some (.own 1),some 5,none,false,true,0⟩],[⟨3,0,false,some (.own 1),some 5,none,false,true,0⟩],[⟨3,0,false,some (.own 1),some 5,none,false,true,0⟩],[⟨3,0,false,some (.own 1),some 5,none,false,true,0⟩],[⟨3,0,false,some (.own 1),some 5,none,false,true,0⟩],[⟨3,0,false,some (.own 1),some 5,none,false,true,0⟩],[⟨3,0,false,some (.own 1),some 5,none,false,true,0⟩],[⟨3,0,false,some (.own 1),some 5,none,false,true,0⟩],[⟨3,0,false,some (.own 1),some 5,none,false,true,0⟩],[⟨3,0,false,some (.own 1),some 5,none,false,true,0⟩],[⟨3,0,false,some (.own 1),some 5,none,false,true,0⟩],[⟨3,0,false,some (.own 1),some 5,none,false,true,0⟩],[⟨3,0,false,some (.own 1),some 5,none,false,true,0⟩],[⟨3,0,false,some (.own 1),some 5,none,false,true,0⟩],[⟨3,0,false,some (.own 1),some 5,none,false,true,0⟩],[⟨3,0,false,some (.own 1),some 5,none,false,true,0⟩],[⟨3,0,false,some (.own 1),some 5,none,false,true,0⟩],[⟨3,0,false,some (.own 1),some 5,none,false,true,0⟩],[⟨3,0,false,some (.own 1),some 5,none,false,true,0⟩],[⟨3,0,false,some (.own 1),some 5,none,false,true,0⟩],[⟨3,0,false,some (.own 1),some 5,none,false,true,0⟩],[⟨3,0,false,some (.own 1),some 5,none,false,true,0⟩],[⟨3,0,false,some (.own 1),some 5,none,false,true,0⟩],[⟨3,0,false,some (.own 1),some 5,none,false,true,0⟩],[⟨3,0,false,some (.own 1),some 5,none,false,true,0⟩],[⟨3,0,false,some (.own 1),some 5,none,false,true,0⟩],[⟨3,0,false,some (.own 1),some 5,none,false,true,0⟩],[⟨3,0,false,some (.own 1),some 5,none,false,true,0⟩],[⟨3,0,false,some (.own 1),some 5,none,false,true,0⟩],[⟨3,0,false,some (.own 1),some 5,none,false,true,0⟩],[⟨3,0,false,some (.own 1),some 5,none,false,true,0⟩],[⟨3,0,false,some (.own 1),some 5,none,false,true,0⟩],[⟨3,0,false,some (.own 1),some 5,none,false,true,0⟩],[⟨3,0,false,some (.own 1),some 5,none,false,true,0⟩],[⟨3,0,false,some (.own 1),some 5,none,false,true,0⟩],[⟨3,0,false,some (.own 1),some 5,none,false,true,0⟩]]
theorem csAspx_entity_closed10false : closed emb49_rows csAspx_entity_tab10false (EA.start csAspx_M csAspx_entity 10) (EA.succ csAspx_M csAspx_entity (10, false)) (EA.eofOk csAspx_M csAspx_entity (10, false)) = true := by
  decide +kernel
def csAspx_entity_C10false : MCert csAspx_M csAspx_entity (10, false) := ⟨emb49_D, csAspx_entity_tab10false, csAspx_entity_closed10false, (fun h => nomatch h)⟩
def csAspx_entity_tab7true : List (List EA) := [[⟨0,0,false,none,none,none,false,false,0⟩],[⟨1,0,false,some (.own 0),some 1,none,false,true,0⟩,⟨2,0,false,some (.own 0),some 1,none,false,true,0⟩,⟨3,0,false,some (.own 0),some 1,none,false,true,0⟩],[⟨1,0,false,some (.own 1),some 3,none,false,true,0⟩],[⟨1,0,false,none,some 3,none,false,false,0⟩],[⟨2,0,false,some (.own 1),some 3,none,false,true,0⟩],[⟨2,0,false,none,some 3,none,false,false,0⟩],[⟨3,0,false,some (.own 1),some 3,none,false,true,0⟩],[⟨3,0,false,some (.own 1),some 3,none,false,true,0⟩],[⟨3,0,false,none,some 3,none,false,false,0⟩],[⟨3,0,false,none,some 3,none,false,false,0⟩],[⟨3,0,false,none,some 3,none,false,false,0⟩],[⟨3,0,false,none,some 3,none,false,false,0⟩],[⟨3,0,false,none,some 3,none,false,false,0⟩],[⟨3,0,false,none,some 3,none,false,false,0⟩,⟨3,0,true,some .internalNl,some 3,none,false,true,0⟩],[⟨3,0,false,some .internalNl,some 3,none,false,true,0⟩,⟨3,0,true,some .internalNl,some 3,none,false,true,0⟩],[⟨3,0,false,some .internalNl,some 3,none,false,true,0⟩,⟨3,0,true,some .internalNl,some 3,none,false,true,0⟩],[⟨3,0,false,none,some 3,none,false,false,0⟩,⟨3,0,true,some .internalNl,some 3,none,false,true,0⟩],[⟨3,0,false,some .internalNl,some 3,none,false,true,0⟩,⟨3,0,true,some .internalNl,some 3,none,false,true,0⟩],[⟨3,0,false,some .internalNl,some 3,none,false,true,0⟩,⟨3,0,true,some .internalNl,some 3,none,false,true,0⟩],[⟨3,0,true,some .internalNl,some 3,none,false,true,0⟩]]
theorem csAspx_entity_closed7true : closed emb3_rows csAspx_entity_tab7true (EA.start csAspx_M csAspx_entity 7) (EA.succ csAspx_M csAspx_entity (7, true)) (EA.eofOk csAspx_M csAspx_entity (7, true)) = true := by
  decide +kernel
def csAspx_entity_C7true : MCert csAspx_M csAspx_entity (7, true) := ⟨emb3_D, csAspx_entity_tab7true, csAspx_entity_closed7true, (fun h => nomatch h)⟩
def csAspx_entity_tab8true : List (List EA) := [[⟨0,0,false,none,none,none,false,false,0⟩],[⟨1,0,false,some (.own 0),some 1,none,false,true,0⟩,⟨2,0,false,some (.own 0),some 1,none,false,true,0⟩,⟨3,0,false,some (.own 0),some 1,none,false,true,0⟩],[⟨1,0,false,some (.own 1),some 3,none,false,true,0⟩],[⟨1,0,false,none,some 3,none,false,false,0⟩],[⟨2,0,false,some (.own 1),some 3,none,false,true,0⟩],[⟨2,0,false,some (.own 1),some 2,none,false,true,0⟩],[⟨2,0,false,none,some 3,none,false,false,0⟩],[⟨3,0,false,some (.own 1),some 3,none,false,true,0⟩],[⟨3,0,false,some (.own 1),some 3,none,false,true,0⟩],[⟨3,0,false,some (.own 1),some 2,none,false,true,0⟩],[⟨3,0,false,none,some 3,none,false,false,0⟩],[⟨3,0,false,none,some 3,none,false,false,0⟩],[⟨3,0,false,none,some 3,none,false,false,0⟩],[⟨3,0,false,none,some 3,none,false,false,0⟩],[⟨3,0,false,none,some 3,none,false,false,0⟩],[⟨3,0,false,none,some 3,none,false,false,0⟩],[⟨3,0,false,none,some 3,none,false,false,0⟩,⟨3,0,true,some .internalNl,some 3,none,false,true,0⟩],[⟨3,0,false,some .internalNl,some 3,none,false,true,0⟩,⟨3,0,true,some .internalNl,some 3,none,false,true,0⟩],[⟨3,0,false,some .internalNl,some 3,none,false,true,0⟩,⟨3,0,true,some .internalNl,some 3,none,false,true,0⟩],[⟨3,0,false,none,some 3,none,false,false,0⟩,⟨3,0,true,some .internalNl,some 3,none,false,true,0⟩],[⟨3,0,false,some .internalNl,some 3,none,false,true,0⟩,⟨3,0,true,some .internalNl,some 3,none,false,true,0⟩],[⟨3,0,false,some .internalNl,some 3,none,false,true,0⟩,⟨3,0,true,some .internalNl,some 3,none,false,true,0⟩],[⟨3,0,true,some .internalNl,some 3,none,false,true,0⟩]]
theorem csAspx_entity_closed8true : closed emb4_rows csAspx_entity_tab8true (EA.start csAspx_M csAspx_entity 8) (EA.succ csAspx_M csAspx_entity (8, true)) (EA.eofOk csAspx_M csAspx_entity (8, true)) = true := by
  decide +kernel
def csAspx_entity_C8true : MCert csAspx_M csAspx_entity (8, true) := ⟨emb4_D, csAspx_entity_tab8true, csAspx_entity_closed8true, (fun h => nomatch h)⟩
def csAspx_entity_tab9true : List (List EA) := [[⟨0,0,false,none,none,none,false,false,0⟩],[⟨1,0,false,some (.own 0),some 1,none,false,true,0⟩,⟨2,0,false,some (.own 0),some 1,none,false,true,0⟩,⟨3,0,false,some (.own 0),some 1,none,false,true,0⟩],[⟨1,0,false,none,some 3,none,false,false,0⟩],[⟨1,0,false,some (.own 1),some 3,none,false,true,0⟩],[⟨1,0,false,none,some 3,none,false,false,0⟩],[⟨2,0,false,some (.own 1),some 3,none,false,true,0⟩],[⟨2,0,false,some (.own 1),some 2,none,false,true,0⟩],[⟨2,0,false,none,some 3,none,false,false,0⟩],[⟨3,0,false,some (.own 1),some 3,none,false,true,0⟩],[⟨3,0,false,some (.own 1),some 3,none,false,true,0⟩],[⟨3,0,false,some (.own 1),some 2,none,false,true,0⟩],[⟨3,0,false,some (.own 1),some 2,none,false,true,0⟩],[⟨3,0,false,none,some 3,none,false,false,0⟩],[⟨3,0,false,some (.own 1),some 2,none,false,true,0⟩],[⟨3,0,false,some (.own 1),some 2,none,false,true,0⟩],[⟨3,0,false,some (.own 1),some 2,none,false,true,0⟩],[⟨3,0,false,some (.own 1),some 2,none,false,true,0⟩],[⟨3,0,false,none,some 3,none,false,false,0⟩],[⟨3,0,false,some (.own 1),some 2,none,false,true,0⟩],[⟨3,0,false,none,some 3,none,false,false,0⟩],[⟨3,0,false,none,some 3,none,false,false,0⟩],[⟨3,0,false,none,some 3,none,false,false,0⟩],[⟨3,0,false,none,some 3,none,false,false,0⟩],[⟨3,0,false,none,some 3,none,false,false,0⟩,⟨3,0,true,some .internalNl,some 3,none,false,true,0⟩],[⟨3,0,false,some .internalNl,some 3,none,false,true,0⟩,⟨3,0,true,some .internalNl,some 3,none,false,true,0⟩],[⟨3,0,false,some .internalNl,some 3,none,false,true,0⟩,⟨3,0,true,some .internalNl,some 3,none,false,true,0⟩],[⟨3,0,false,none,some 3,none,false,false,0⟩,⟨3,0,true,some .internalNl,some 3,none,false,true,0⟩],[⟨3,0,false,some .internalNl,some 3,none,false,true,0⟩,⟨3,0,true,some .internalNl,some 3,none,false,true,0⟩],[⟨3,0,false,some .internalNl,some 3,none,false,true,0⟩,⟨3,0,true,some .internalNl,some 3,none,false,true,0⟩],[⟨3,0,true,some .internalNl,some 3,none,false,true,0⟩]]
theorem csAspx_entity_closed9true : closed emb48_rows csAspx_entity_tab9true (EA.start csAspx_M csAspx_entity 9) (EA.succ csAspx_M csAspx_entity (9, true)) (EA.eofOk csAspx_M csAspx_entity (9, true)) = true := by
  decide +kernel
def csAspx_entity_C9true : MCert csAspx_M csAspx_entity (9, true) := ⟨emb48_D, csAspx_entity_tab9true, csAspx_entity_closed9true, (fun h => nomatch h)⟩
theorem csAspx_entity_certs : ∀ u ∈ csAspx_entity.use, Nonempty (MCert csAspx_M csAspx_entity u) :=
  (List.forall_mem_cons.mpr ⟨⟨csAspx_entity_C10false⟩,
  (List.forall_mem_cons.mpr ⟨⟨csAspx_entity_C7true⟩,
  (List.forall_mem_cons.mpr ⟨⟨csAspx_entity_C8true⟩,
  (List.forall_mem_cons.mpr ⟨⟨csAspx_entity_C9true⟩,
  (fun _ h => nomatch h)⟩)⟩)⟩)⟩)

def csAspx_entityt : EOpt := ⟨true, true, false, [(10,false),(7,true),(8,true),(9,true)], 4⟩
def csAspx_entityt_tab10false : List (List EA) := [[⟨0,0,false,none,none,none,false,false,0⟩],[⟨1,0,false,some (.own 0),some 3,none,false,true,0⟩,⟨2,0,false,some (.own 0),some 3,none,false,true,0⟩,⟨3,0,false,some (.own 0),some 3,none,false,true,0⟩],[⟨1,0,false,some (.own 1),some 5,none,false,true,1⟩],[⟨2,0,false,some (.own 1),some 5,none,false,true,0⟩],[⟨2,0,false,some (.own 1),some 5,none,false,true,0⟩],[⟨3,0,false,some (.own 1),some 5,none,false,true,0⟩],[⟨3,0,false,some (.own 1),some 5,none,false,true,0⟩],[⟨3,0,false,some (.own 1),some 5,none,false,true,0⟩],[⟨3,0,false,some (.own 1),some 5,none,false,true,0⟩],[⟨3,0,false,some (.own 1),some 5,none,false,true,0⟩],[⟨3,0,false,some (.own 1),some 5,none,false,true,0⟩],[⟨3,0,false,some (.own 1),some 5,none,false,true,0⟩],[⟨3,0,false,some (.own 1),some 5,none,false,true,0⟩],[⟨3,0,false,some (.own 1),some 5,none,false,true,0⟩],[⟨3,0,false,some (.own 1),some 5,none,false,true,0⟩],[⟨3,0,false,some (.own 1),some 5,none,false,true,0⟩],[⟨3,0,false,some (.own 1),some 5,none,false,true,0⟩],[⟨3,0,false,some (.own 1),some 5,none,false,true,0⟩],[⟨3,0,false,some (.own 1),some 5,none,false,true,0⟩],[⟨3,0,false,some (.own 1),some 5,none,false,true,0⟩],[⟨3,0,false,some (.own 1),some 5,none,false,true,0⟩],[⟨3,0,false,some (.own 1),some 5,none,false,true,0⟩],[⟨3,0,false,some (.own 1),some 5,none,false,true,0⟩],[⟨3,0,false,some (.own 1),some 5,none,false,true,0⟩],[⟨3,0,false,some (.own 1),some 5,none,false,true,0⟩],[⟨3,0,false,some (.own 1),some 5,none,false,true,0⟩],[⟨3,0,false,some (.own 1),some 5,none,false,true,0⟩],[⟨3,0,false,some (.own 1),some 5,none,false,true,0⟩],[⟨3,0,false,some (.own 1),some 5,none,false,true,0⟩],[⟨3,0,false,some (.own 1),some 5,none,false,true,0⟩],[⟨3,0,false,some (.own 1),some 5,none,false,true,0⟩],[⟨3,0,false,some (.own 1),some 5,none,false,true,0⟩],[⟨3,0,false,some (.own 1),some 5,none,false,true,0⟩],[⟨3,0,false,some (.own 1),some 5,none,false,true,0⟩],[⟨3,0,false,some (.own 1),some 5,none,false,true,0⟩],[⟨3,0,false,some (.own 1),some 5,none,false,true,0⟩],[⟨3,0,false,some (.own 1),some 5,none,false,true,0⟩],[⟨3,0,false,some (.own 1),some 5,none,false,true,0⟩],[⟨3,0,false,some (.own 1),some 5,none,false,true,0⟩],[⟨3,0,false,some (.own 1),some 5,none,false,true,0⟩],[⟨3,0,false,some (.own 1),some 5,none,false,true,0⟩],[⟨3,0,false,some (.own 1),some 5,none,false,true,0⟩],[⟨3,0,false,some (.own 1),some 5,none,false,true,0⟩],[⟨3,0,false,some (.own 1),some 5,none,false,true,0⟩],[⟨3,0,false,some (.own 1),some 5,none,false,true,0⟩],[⟨3,0,false,some (.own 1),some 5,none,false,true,0⟩],[⟨3,0,false,some (.own 1),some 5,none,false,true,0⟩],[⟨3,0,false,some (.own 1),some 5,none,false,true,0⟩],[⟨3,0,false,some (.own 1),some 5,none,false,true,0⟩],[⟨3,0,false,some (.own 1),some 5,none,false,true,0⟩],[⟨3,0,false,some (.own 1),some 5,none,false,true,0⟩],[⟨3,0,false,some (.own 1),some 5,none,false,true,0⟩],[⟨3,0,false,some (.own 1),some 5,none,false,true,0⟩],[⟨3,0,false,some (.own 1),some 5,none,false,true,0⟩],[⟨3,0,false,some (.own 1),some 5,none,false,true,0⟩],[⟨3,0,false,some (.own 1),some 5,none,false,true,0⟩],[⟨3,0,false,some (.own 1),some 5,none,false,true,0⟩],[⟨3,0,false,some (.own 1),some 5,none,false,true,0⟩],[⟨3,0,false,some (.own 1),some 5,none,false,true,0⟩],[⟨3,0,false,some (.own 1),some 5,none,false,true,0⟩],[⟨3,0,false,some (.own 1),some 5,none,false,true,0⟩],[⟨3,0,false,some (.own 1),some 5,none,false,true,0⟩],[⟨3,0,false,some (.own 1),some 5,none,false,true,0⟩],[⟨3,0,false,some (.own 1),some 5,none,false,true,0⟩],[⟨3,0,false,some (.own 1),some 5,none,false,true,0⟩],[⟨3,0,false,some (.own 1),some 5,none,false,true,0⟩],[⟨3,0,false,some (.own 1),some 5,none,false,true,0⟩],[⟨3,0,false,some (.own 1),some 5,none,false,true,0⟩],[⟨3,0,false,some (.own 1),some 5,none,false,true,0⟩],[⟨3,0,false,some (.own 1),some 5,none,false,true,0⟩],[⟨3,0,false,some (.own 1),some 5,none,false,true,0⟩],[⟨3,0,false,some (.own 1),some 5,none,false,true,0⟩],[⟨3,0,false,some (.own 1),some 5,none,false,true,0⟩],[⟨3,0,false,some (.own 1),some 5,none,false,true,0⟩],[⟨3,0,false,some (.own 1),some 5,none,false,true,0⟩]]
theorem csAspx_entityt_closed10false : closed emb49_rowst csAspx_entityt_tab10false (EA.start csAspx_M csAspx_entityt 10) (EA.succ csAspx_M csAspx_entityt (10, false)) (EA.eofOk csAspx_M csAspx_entityt (10, false)) = true := by
  decide +kernel
def csAspx_entityt_C10false : MCert csAspx_M csAspx_entityt (10, false) := ⟨emb49_Dt, csAspx_entityt_tab10false, csAspx_entityt_closed10false, (fun _ => ⟨by decide +kernel, by decide +kernel, by decide +kernel⟩)⟩
def csAspx_entityt_tab7true : List (List EA) := [[⟨0,0,false,none,none,none,false,false,0⟩],[⟨1,0,false,some (.own 0),some 1,none,false,true,0⟩,⟨2,0,false,some (.own 0),some 1,none,false,true,0⟩,⟨3,0,false,some (.own 0),some 1,none,false,true,0⟩],[⟨1,0,false,some (.own 1),some 3,none,false,true,0⟩],[⟨1,0,false,none,some 3,none,false,false,1⟩],[⟨2,0,false,some (.own 1),some 3,none,false,true,0⟩],[⟨2,0,false,none,some 3,none,false,false,2⟩],[⟨3,0,false,some (.own 1),some 3,none,false,true,0⟩],[⟨3,0,false,some (.own 1),some 3,none,false,true,0⟩],[⟨3,0,false,none,some 3,none,false,false,2⟩],[⟨3,0,false,none,some 3,none,false,false,2⟩],[⟨3,0,false,none,some 3,none,false,false,2⟩],[⟨3,0,false,none,some 3,none,false,false,2⟩],[⟨3,0,false,none,some 3,none,false,false,2⟩],[⟨3,0,false,none,some 3,none,false,false,2⟩],[],[],[],[],[],[]]
theorem csAspx_entityt_closed7true : closed emb3_rowst csAspx_entityt_tab7true (EA.start csAspx_M csAspx_entityt 7) (EA.succ csAspx_M csAspx_entityt (7, true)) (EA.eofOk csAspx_M csAspx_entityt (7, true)) = true := by
  decide +kernel
def csAspx_entityt_C7true : MCert csAspx_M csAspx_entityt (7, true) := ⟨emb3_Dt, csAspx_entityt_tab7true, csAspx_entityt_closed7true, (fun _ => ⟨by decide +kernel, by decide +kernel, by decide +kernel⟩)⟩
def csAspx_entityt_tab8true : List (List EA) := [[⟨0,0,false,none,none,none,false,false,0⟩],[⟨1,0,false,some (.own 0),some 1,none,false,true,0⟩,⟨2,0,false,some (.own 0),some 1,none,false,true,0⟩,⟨3,0,false,some (.own 0),some 1,none,false,true,0⟩],[⟨1,0,false,some (.own 1),some 3,none,false,true,0⟩],[⟨1,0,false,none,some 3,none,false,false,1⟩],[⟨2,0,false,some (.own 1),some 3,none,false,true,0⟩],[⟨2,0,false,some (.own 1),some 2,none,false,true,0⟩],[⟨2,0,false,none,some 3,none,false,false,2⟩],[⟨3,0,false,some (.own 1),some 3,none,false,true,0⟩],[⟨3,0,false,some (.own 1),some 3,none,false,true,0⟩],[⟨3,0,false,some (.own 1),some 2,none,false,true,0⟩],[⟨3,0,false,none,some 3,none,false,false,2⟩],[⟨3,0,false,none,some 3,none,false,false,2⟩],[⟨3,0,false,none,some 3,none,false,false,2⟩],[⟨3,0,false,none,some 3,none,false,false,2⟩],[⟨3,0,false,none,some 3,none,false,false,2⟩],[⟨3,0,false,none,some 3,none,false,false,2⟩],[⟨3,0,false,none,some 3,none,false,false,2⟩],[],[],[],[],[],[]]
theorem csAspx_entityt_closed8true : closed emb4_rowst csAspx_entityt_tab8true (EA.start csAspx_M csAspx_entityt 8) (EA.succ csAspx_M csAspx_entityt (8, true)) (EA.eofOk csAspx_M csAspx_entityt (8, true)) = true := by
  decide +kernel
def csAspx_entityt_C8true : MCert csAspx_M csAspx_entityt (8, true) := ⟨emb4_Dt, csAspx_entityt_tab8true, csAspx_entityt_closed8true, (fun _ => ⟨by decide +kernel, by decide +kernel, by decide +kernel⟩)⟩
def csAspx_entityt_tab9true : List (List EA) := [[⟨0,0,false,none,none,none,false,false,0⟩],[⟨1,0,false,some (.own 0),some 1,none,false,true,0⟩,⟨2,0,false,some (.own 0),some 1,none,false,true,0⟩,⟨3,0,false,some (.own 0),some 1,none,false,true,0⟩],[⟨1,0,false,none,some 3,none,false,false,0⟩],[⟨1,0,false,some (.own 1),some 3,none,false,true,0⟩],[⟨1,0,false,none,some 3,none,false,false,1⟩],[⟨2,0,false,some (.own 1),some 3,none,false,true,0⟩],[⟨2,0,false,some (.own 1),some 2,none,false,true,0⟩],[⟨2,0,false,none,some 3,none,false,false,2⟩],[⟨3,0,false,some (.own 1),some 3,none,false,true,0⟩],[⟨3,0,false,some (.own 1),some 3,none,false,true,0⟩],[⟨3,0,false,some (.own 1),some 2,none,false,true,0⟩],[⟨3,0,false,some (.own 1),some 2,none,false,true,0⟩],[⟨3,0,false,none,some 3,none,false,false,2⟩],[⟨3,0,false,some (.own 1),some 2,none,false,true,0⟩],[⟨3,0,false,some (.own 1),some 2,none,false,true,0⟩],[⟨3,0,false,some (.own 1),some 2,none,false,true,0⟩],[⟨3,0,false,some (.own 1),some 2,none,false,true,0⟩],[⟨3,0,false,none,some 3,none,false,false,2⟩],[⟨3,0,false,some (.own 1),some 2,none,false,true,0⟩],[⟨3,0,false,none,some 3,none,false,false,2⟩],[⟨3,0,false,none,some 3,none,false,false,2⟩],[⟨3,0,false,none,some 3,none,false,false,2⟩],[⟨3,0,false,none,some 3,none,false,false,2⟩],[⟨3,0,false,none,some 3,none,false,false,2⟩],[],[],[],[],[],[]]
theorem csAspx_entityt_closed9true : closed emb48_rowst csAspx_entityt_tab9true (EA.start csAspx_M csAspx_entityt 9) (EA.succ csAspx_M csAspx_entityt (9, true)) (EA.eofOk csAspx_M csAspx_entityt (9, true)) = true := by
  decide +kernel
def csAspx_entityt_C9true : MCert csAspx_M csAspx_entityt (9, true) := ⟨emb48_Dt, csAspx_entityt_tab9true, csAspx_entityt_closed9true, (fun _ => ⟨by decide +kernel, by decide +kernel, by decide +kernel⟩)⟩
theorem csAspx_entityt_certs : ∀ u ∈ csAspx_entityt.use, Nonempty (MCert csAspx_M csAspx_entityt u) :=
  (List.forall_mem_cons.mpr ⟨⟨csAspx_entityt_C10false⟩,
  (List.forall_mem_cons.mpr ⟨⟨csAspx_entityt_C7true⟩,
  (List.forall_mem_cons.mpr ⟨⟨csAspx_entityt_C8true⟩,
  (List.forall_mem_cons.mpr ⟨⟨csAspx_entityt_C9true⟩,
  (fun _ h => nomatch h)⟩)⟩)⟩)⟩)

theorem haml_m0 : Emb.Haml.haml_ruby_line.mach = ⟨emb56_nfa, [.none,.cb 1,.none,.none,.cb 1,.cb 1], true⟩ := by decide +kernel
theorem haml_m1 : Emb.Haml.haml_line.mach = ⟨emb57_nfa, [.call 0,.cb 0,.none,.none,.cb 0,.cb 0], true⟩ := by decide +kernel
theorem haml_m2 : Emb.Haml.haml_entity.mach = ⟨emb58_nfa, [.ecb 0,.ecb 0,.ecb 0,.ecb 0,.ecb 0,.ecb 0,.ecb 0], true⟩ := by decide +kernel

/-- The machines of `Emb.Haml.parser`, with their automata as literals. -/
def haml_M : Multi := ⟨Emb.Haml.parser.sws, [
  ⟨emb56_nfa, [.none,.cb 1,.none,.none,.cb 1,.cb 1], true⟩,
  ⟨emb57_nfa, [.call 0,.cb 0,.none,.none,.cb 0,.cb 0], true⟩,
  ⟨emb58_nfa, [.ecb 0,.ecb 0,.ecb 0,.ecb 0,.ecb 0,.ecb 0,.ecb 0], true⟩]⟩
theorem haml_M_eq : Emb.Haml.parser.multi = haml_M := by
  show Multi.mk _ [Emb.Haml.haml_ruby_line.mach, Emb.Haml.haml_line.mach, Emb.Haml.haml_entity.mach] = _
  rw [haml_m0, haml_m1, haml_m2]; rfl

def haml_line : EOpt := ⟨false, false, false, [(1,false),(0,true)], 2⟩
def haml_line_tab1false : List (List EA) := [[⟨0,0,false,none,none,none,false,false,0⟩],[⟨1,0,true,some (.own 7),some 3,none,true,true,0⟩],[⟨1,0,true,some (.own 0),some 1,none,true,true,0⟩,⟨3,0,true,some (.own 0),some 1,none,true,true,0⟩],[⟨1,0,true,none,some 3,none,true,false,0⟩,⟨3,0,true,some (.own 0),some 3,none,true,true,0⟩],[⟨1,0,false,some .newline,none,none,false,false,0⟩],[⟨1,0,false,some .newline,some 4,none,false,false,0⟩],[⟨1,0,false,some (.own 0),some 1,none,false,true,0⟩],[⟨1,0,true,some (.own 7),some 3,none,true,true,0⟩],[⟨1,0,false,some (.own 7),some 5,none,false,true,0⟩],[⟨1,0,false,some (.own 7),some 5,none,false,true,0⟩],[⟨1,0,true,some (.own 7),some 2,none,false,true,0⟩],[⟨1,0,false,some (.own 7),some 5,none,false,true,0⟩],[⟨1,0,false,some (.own 7),some 5,none,false,true,0⟩],[⟨2,0,true,some (.own 7),some 3,none,true,true,0⟩,⟨2,0,true,some (.own 0),some 3,none,true,true,0⟩,⟨2,0,true,none,some 3,none,true,false,0⟩,⟨3,0,true,some (.own 7),some 3,none,true,true,0⟩,⟨3,0,true,some (.own 0),some 3,none,true,true,0⟩,⟨3,0,true,none,some 3,none,true,false,0⟩,⟨3,0,true,some .internalNl,some 3,none,true,true,0⟩,⟨3,0,true,some .checkBlank,some 3,none,true,true,0⟩],[⟨2,0,true,some (.own 7),some 3,none,true,true,0⟩,⟨2,0,true,some (.own 0),some 3,none,true,true,0⟩,⟨2,0,true,none,some 3,none,true,false,0⟩,⟨3,0,true,some (.own 7),some 3,none,true,true,0⟩,⟨3,0,true,some (.own 0),some 3,none,true,true,0⟩,⟨3,0,true,none,some 3,none,true,false,0⟩,⟨3,0,true,some .internalNl,some 3,none,true,true,0⟩,⟨3,0,true,some .checkBlank,some 3,none,true,true,0⟩],[⟨2,0,true,some (.own 0),some 1,none,true,true,0⟩,⟨3,0,true,some (.own 0),some 1,none,true,true,0⟩],[⟨2,0,false,some (.own 0),some 1,none,false,true,0⟩,⟨3,0,false,some (.own 0),some 1,none,false,true,0⟩],[⟨2,0,false,some (.own 0),some 1,none,false,true,0⟩],[⟨2,0,true,some (.own 7),some 3,none,true,true,0⟩,⟨3,0,true,some (.own 0),some 3,none,true,true,0⟩],[⟨2,0,false,some (.own 7),some 5,none,false,true,0⟩,⟨3,0,false,some (.own 0),some 1,none,false,true,0⟩],[⟨2,0,false,some (.own 7),some 5,none,false,true,0⟩,⟨3,0,false,some (.own 0),some 1,none,false,true,0⟩],[⟨2,0,false,some (.own 7),some 5,none,false,true,0⟩,⟨3,0,false,some (.own 0),some 1,none,false,true,0⟩],[⟨2,0,false,some (.own 7),some 5,none,false,true,0⟩,⟨3,0,false,some (.own 0),some 1,none,false,true,0⟩],[⟨2,0,false,some (.own 7),some 5,none,false,true,0⟩,⟨3,0,false,some (.own 0),some 1,none,false,true,0⟩],[⟨2,0,false,some (.own 7),some 5,none,false,true,0⟩,⟨3,0,false,some (.own 0),some 1,none,false,true,0⟩],[⟨2,0,true,some (.own 7),some 2,none,false,true,0⟩,⟨3,0,true,some (.own 0),some 2,none,false,true,0⟩],[⟨2,0,true,some (.own 7),some 2,none,false,true,0⟩,⟨3,0,true,some (.own 7),some 2,none,false,true,0⟩,⟨3,0,true,some (.own 0),some 2,none,false,true,0⟩,⟨3,0,true,some .internalNl,some 2,none,false,true,0⟩],[⟨2,0,true,some (.own 7),some 2,none,false,true,0⟩,⟨3,0,true,some (.own 7),some 2,none,false,true,0⟩,⟨3,0,true,some (.own 0),some 2,none,false,true,0⟩,⟨3,0,true,some .internalNl,some 2,none,false,true,0⟩],[⟨2,0,true,some (.own 7),some 2,none,false,true,0⟩,⟨3,0,true,some (.own 7),some 2,none,false,true,0⟩,⟨3,0,true,some (.own 0),some 2,none,false,true,0⟩,⟨3,0,true,some .internalNl,some 2,none,false,true,0⟩],[⟨2,0,true,some (.own 7),some 2,none,false,true,0⟩,⟨3,0,true,some (.own 7),some 2,none,false,true,0⟩,⟨3,0,true,some (.own 0),some 2,none,false,true,0⟩,⟨3,0,true,some .internalNl,some 2,none,false,true,0⟩],[⟨2,0,true,some (.own 7),some 2,none,false,true,0⟩,⟨3,0,true,some (.own 7),some 2,none,false,true,0⟩,⟨3,0,true,some (.own 0),some 2,none,false,true,0⟩,⟨3,0,true,some .internalNl,some 2,none,false,true,0⟩],[⟨2,0,true,some (.own 7),some 2,none,false,true,0⟩,⟨3,0,true,some (.own 7),some 2,none,false,true,0⟩,⟨3,0,true,some (.own 0),some 2,none,false,true,0⟩,⟨3,0,true,some .internalNl,some 2,none,false,true,0⟩],[⟨2,0,false,some (.own 7),some 5,none,false,true,0⟩,⟨3,0,false,some (.own 0),some 1,none,false,true,0⟩,⟨3,0,true,some (.own 7),some 5,none,true,true,0⟩,⟨3,0,true,some .internalNl,some 5,none,true,true,0⟩,⟨3,0,true,some (.own 0),some 1,none,true,true,0⟩,⟨3,0,true,some .internalNl,some 1,none,true,true,0⟩],[⟨3,0,true,some (.own 7),some 3,none,true,true,0⟩,⟨3,0,true,some (.own 0),some 3,none,true,true,0⟩,⟨3,0,true,none,some 3,none,true,false,0⟩,⟨3,0,true,some .internalNl,some 3,none,true,true,0⟩,⟨3,0,true,some .checkBlank,some 3,none,true,true,0⟩],[⟨3,0,true,some (.own 7),some 3,none,true,true,0⟩,⟨3,0,true,some (.own 0),some 3,none,true,true,0⟩,⟨3,0,true,none,some 3,none,true,false,0⟩,⟨3,0,true,some .internalNl,some 3,none,true,true,0⟩,⟨3,0,true,some .checkBlank,some 3,none,true,true,0⟩],[⟨3,0,true,some (.own 7),some 3,none,true,true,0⟩,⟨3,0,true,some (.own 0),some 3,none,true,true,0⟩,⟨3,0,true,none,some 3,none,true,false,0⟩,⟨3,0,true,some .internalNl,some 3,none,true,true,0⟩,⟨3,0,true,some .checkBlank,some 3,none,true,true,0⟩],[⟨3,0,true,some (.own 7),some 3,none,true,true,0⟩,⟨3,0,true,some (.own 0),some 3,none,true,true,0⟩,⟨3,0,true,none,some 3,none,true,false,0⟩,⟨3,0,true,some .internalNl,some 3,none,true,true,0⟩,⟨3,0,true,some .checkBlank,some 3,none,true,true,0⟩],[⟨3,0,false,some (.own 0),some 1,none,false,true,0⟩],[⟨3,0,true,some (.own 0),some 3,none,true,true,0⟩],[⟨3,0,false,some (.own 0),some 1,none,false,true,0⟩],[⟨3,0,false,some (.own 0),some 1,none,false,true,0⟩],[⟨3,0,true,some (.own 0),some 2,none,false,true,0⟩],[⟨3,0,false,some (.own 0),some 1,none,false,true,0⟩,⟨3,0,true,some (.own 7),some 5,none,true,true,0⟩,⟨3,0,true,some .internalNl,some 5,none,true,true,0⟩,⟨3,0,true,some (.own 0),some 1,none,true,true,0⟩,⟨3,0,true,some .internalNl,some 1,none,true,true,0⟩],[⟨3,0,false,some (.own 0),some 1,none,false,true,0⟩,⟨3,0,true,some (.own 7),some 5,none,true,true,0⟩,⟨3,0,true,some .internalNl,some 5,none,true,true,0⟩,⟨3,0,true,some (.own 0),some 1,none,true,true,0⟩,⟨3,0,true,some .internalNl,some 1,none,true,true,0⟩],[⟨3,0,true,some .checkBlank,some 0,none,false,true,0⟩],[⟨3,0,false,some (.own 7),some 5,none,false,true,0⟩,⟨3,0,false,some (.own 0),some 1,none,false,true,0⟩],[⟨3,0,false,some (.own 7),some 5,none,false,true,0⟩,⟨3,0,false,some (.own 0),some 1,none,false,true,0⟩],[⟨3,0,false,some (.own 7),some 5,none,false,true,0⟩,⟨3,0,false,some (.own 0),some 1,none,false,true,0⟩],[⟨3,0,false,some (.own 7),some 5,none,false,true,0⟩,⟨3,0,false,some (.own 0),some 1,none,false,true,0⟩],[⟨3,0,false,some (.own 7),some 5,none,false,true,0⟩,⟨3,0,false,some (.own 0),some 1,none,false,true,0⟩],[⟨3,0,true,some (.own 7),some 5,none,true,true,0⟩,⟨3,0,true,some (.own 0),some 1,none,true,true,0⟩],[⟨3,0,true,some (.own 7),some 5,none,true,true,0⟩,⟨3,0,true,some (.own 0),some 1,none,true,true,0⟩],[⟨3,0,false,some (.own 7),some 5,none,false,true,0⟩,⟨3,0,false,some (.own 0),some 1,none,false,true,0⟩],[⟨3,0,false,some (.own 7),some 5,none,false,true,0⟩,⟨3,0,false,some (.own 0),some 1,none,false,true,0⟩],[⟨3,0,false,some (.own 7),some 5,none,false,true,0⟩,⟨3,0,false,some (.own 0),some 1,none,false,true,0⟩],[⟨3,0,false,some (.own 7),some 5,none,false,true,0⟩,⟨3,0,false,some (.own 0),some 1,none,false,true,0⟩],[⟨3,0,false,some (.own 7),some 5,none,false,true,0⟩,⟨3,0,false,some (.own 0),some 1,none,false,true,0⟩],[⟨3,0,false,some (.own 7),some 5,none,false,true,0⟩,⟨3,0,false,some (.own 0),some 1,none,false,true,0⟩],[⟨3,0,false,some (.own 7),some 5,none,false,true,0⟩,⟨3,0,false,some (.own 0),some 1,none,false,true,0⟩],[⟨3,0,false,some (.own 7),some 5,none,false,true,0⟩,⟨3,0,false,some (.own 0),some 1,none,false,true,0⟩],[⟨3,0,false,some (.own 7),some 5,none,false,true,0⟩,⟨3,0,false,some (.own 0),some 1,none,false,true,0⟩],[⟨3,0,false,some (.own 7),some 5,none,false,true,0⟩,⟨3,0,false,some (.own 0),some 1,none,false,true,0⟩],[⟨3,0,false,some (.own 7),some 5,none,false,true,0⟩,⟨3,0,false,some (.own 0),some 1,none,false,true,0⟩],[⟨3,0,false,some (.own 7),some 5,none,false,true,0⟩,⟨3,0,false,some (.own 0),some 1,none,false,true,0⟩],[⟨3,0,false,some (.own 7),some 5,none,false,true,0⟩,⟨3,0,false,some (.own 0),some 1,none,false,true,0⟩],[⟨3,0,false,some (.own 7),some 5,none,false,true,0⟩,⟨3,0,false,some (.own 0),some 1,none,false,true,0⟩],[⟨3,0,false,some (.own 7),some 5,none,false,true,0⟩,⟨3,0,false,some (.own 0),some 1,none,false,true,0⟩],[⟨3,0,false,some (.own 7),some 5,none,false,true,0⟩,⟨3,0,false,some (.own 0),some 1,none,false,true,0⟩],[⟨3,0,false,some (.own 7),some 5,none,false,true,0⟩,⟨3,0,false,some (.own 0),some 1,none,false,true,0⟩],[⟨3,0,true,some .internalNl,some 2,none,false,true,0⟩],[⟨3,0,true,some .internalNl,some 2,none,false,true,0⟩],[⟨3,0,true,some .internalNl,some 2,none,false,true,0⟩],[⟨3,0,true,some .internalNl,some 2,none,false,true,0⟩],[⟨3,0,true,some .internalNl,some 2,none,false,true,0⟩],[⟨3,0,true,some .internalNl,some 2,none,false,true,0⟩],[⟨3,0,true,some .internalNl,some 2,none,false,true,0⟩],[⟨3,0,true,some (.own 7),some 2,none,false,true,0⟩,⟨3,0,true,some (.own 0),some 2,none,false,true,0⟩,⟨3,0,true,some .internalNl,some 2,none,false,true,0⟩],[⟨3,0,true,some .internalNl,some 2,none,false,true,0⟩],[⟨3,0,true,some (.own 7),some 3,none,true,true,0⟩,⟨3,0,true,some (.own 0),some 3,none,true,true,0⟩,⟨3,0,true,none,some 3,none,true,false,0⟩,⟨3,0,true,some .internalNl,some 3,none,true,true,0⟩,⟨3,0,true,some .checkBlank,some 3,none,true,true,0⟩],[⟨3,0,false,some (.own 0),some 1,none,false,true,0⟩],[⟨3,0,false,some (.own 7),some 5,none,false,true,0⟩,⟨3,0,false,some (.own 0),some 1,none,false,true,0⟩],[⟨3,0,false,some (.own 7),some 5,none,false,true,0⟩,⟨3,0,false,some (.own 0),some 1,none,false,true,0⟩],[⟨3,0,true,some (.own 7),some 5,none,true,true,0⟩,⟨3,0,true,some .internalNl,some 5,none,true,true,0⟩,⟨3,0,true,some (.own 0),some 1,none,true,true,0⟩,⟨3,0,true,some .internalNl,some 1,none,true,true,0⟩],[⟨3,0,true,some (.own 7),some 5,none,true,true,0⟩,⟨3,0,true,some .internalNl,some 5,none,false,true,0⟩,⟨3,0,true,some (.own 0),some 1,none,true,true,0⟩,⟨3,0,true,some .internalNl,some 5,none,true,true,0⟩,⟨3,0,true,some .internalNl,some 1,none,false,true,0⟩,⟨3,0,true,some .internalNl,some 1,none,true,true,0⟩],[⟨3,0,true,some (.own 7),some 5,none,true,true,0⟩,⟨3,0,true,some .internalNl,some 5,none,false,true,0⟩,⟨3,0,true,some (.own 0),some 1,none,true,true,0⟩,⟨3,0,true,some .internalNl,some 5,none,true,true,0⟩,⟨3,0,true,some .internalNl,some 1,none,false,true,0⟩,⟨3,0,true,some .internalNl,some 1,none,true,true,0⟩],[⟨3,0,true,some (.own 7),some 5,none,true,true,0⟩,⟨3,0,true,some .internalNl,some 5,none,false,true,0⟩,⟨3,0,true,some (.own 0),some 1,none,true,true,0⟩,⟨3,0,true,some .internalNl,some 5,none,true,true,0⟩,⟨3,0,true,some .internalNl,some 1,none,false,true,0⟩,⟨3,0,true,some .internalNl,some 1,none,true,true,0⟩],[⟨3,0,true,some (.own 7),some 5,none,true,true,0⟩,⟨3,0,true,some .internalNl,some 5,none,false,true,0⟩,⟨3,0,true,some (.own 0),some 1,none,true,true,0⟩,⟨3,0,true,some .internalNl,some 5,none,true,true,0⟩,⟨3,0,true,some .internalNl,some 1,none,false,true,0⟩,⟨3,0,true,some .internalNl,some 1,none,true,true,0⟩],[⟨3,0,true,some (.own 7),some 5,none,true,true,0⟩,⟨3,0,true,some .internalNl,some 5,none,false,true,0⟩,⟨3,0,true,some (.own 0),some 1,none,true,true,0⟩,⟨3,0,true,some .internalNl,some 5,none,true,true,0⟩,⟨3,0,true,some .internalNl,some 1,none,false,true,0⟩,⟨3,0,true,some .internalNl,some 1,none,true,true,0⟩],[⟨3,0,true,some (.own 7),some 5,none,true,true,0⟩,⟨3,0,true,some .internalNl,some 5,none,false,true,0⟩,⟨3,0,true,some (.own 0),some 1,none,true,true,0⟩,⟨3,0,true,some .internalNl,some 5,none,true,true,0⟩,⟨3,0,true,some .internalNl,some 1,none,false,true,0⟩,⟨3,0,true,some .internalNl,some 1,none,true,true,0⟩],[⟨3,0,true,some (.own 7),some 5,none,true,true,0⟩,⟨3,0,true,some .internalNl,some 5,none,false,true,0⟩,⟨3,0,true,some (.own 0),some 1,none,true,true,0⟩,⟨3,0,true,some .internalNl,some 5,none,true,true,0⟩,⟨3,0,true,some .internalNl,some 1,none,false,true,0⟩,⟨3,0,true,some .internalNl,some 1,none,true,true,0⟩],[⟨3,0,true,some (.own 7),some 5,none,true,true,0⟩,⟨3,0,true,some .internalNl,some 5,none,true,true,0⟩,⟨3,0,true,some (.own 0),some 1,none,true,true,0⟩,⟨3,0,true,some .internalNl,some 1,none,true,true,0⟩],[⟨3,0,true,some (.own 7),some 5,none,true,true,0⟩,⟨3,0,true,some .internalNl,some 5,none,true,true,0⟩,⟨3,0,true,some (.own 0),some 1,none,true,true,0⟩,⟨3,0,true,some .internalNl,some 1,none,true,true,0⟩],[⟨3,0,true,some (.own 7),some 5,none,true,true,0⟩,⟨3,0,true,some .internalNl,some 5,none,false,true,0⟩,⟨3,0,true,some (.own 0),some 1,none,true,true,0⟩,⟨3,0,true,some .internalNl,some 5,none,true,true,0⟩,⟨3,0,true,some .internalNl,some 1,none,false,true,0⟩,⟨3,0,true,some .internalNl,some 1,none,true,true,0⟩],[⟨3,0,true,some (.own 7),some 5,none,true,true,0⟩,⟨3,0,true,some .internalNl,some 5,none,false,true,0⟩,⟨3,0,true,some (.own 0),some 1,none,true,true,0⟩,⟨3,0,true,some .internalNl,some 5,none,true,true,0⟩,⟨3,0,true,some .internalNl,some 1,none,false,true,0⟩,⟨3,0,true,some .internalNl,some 1,none,true,true,0⟩],[⟨3,0,true,some (.own 7),some 5,none,true,true,0⟩,⟨3,0,true,some .internalNl,some 5,none,false,true,0⟩,⟨3,0,true,some (.own 0),some 1,none,true,true,0⟩,⟨3,0,true,some .internalNl,some 5,none,true,true,0⟩,⟨3,0,true,some .internalNl,some 1,none,false,true,0⟩,⟨3,0,true,some .internalNl,some 1,none,true,true,0⟩],[⟨3,0,true,some (.own 7),some 5,none,true,true,0⟩,⟨3,0,true,some .internalNl,some 5,none,false,true,0⟩,⟨3,0,true,some (.own 0),some 1,none,true,true,0⟩,⟨3,0,true,some .internalNl,some 5,none,true,true,0⟩,⟨3,0,true,some .internalNl,some 1,none,false,true,0⟩,⟨3,0,true,some .internalNl,some 1,none,true,true,0⟩],[⟨3,0,true,some (.own 7),some 5,none,true,true,0⟩,⟨3,0,true,some .internalNl,some 5,none,false,true,0⟩,⟨3,0,true,some (.own 0),some 1,none,true,true,0⟩,⟨3,0,true,some .internalNl,some 5,none,true,true,0⟩,⟨3,0,true,some .internalNl,some 1,none,false,true,0⟩,⟨3,0,true,some .internalNl,some 1,none,true,true,0⟩],[⟨3,0,true,some (.own 7),some 5,none,true,true,0⟩,⟨3,0,true,some .internalNl,some 5,none,false,true,0⟩,⟨3,0,true,some (.own 0),some 1,none,true,true,0⟩,⟨3,0,true,some .internalNl,some 5,none,true,true,0⟩,⟨3,0,true,some .internalNl,some 1,none,false,true,0⟩,⟨3,0,true,some .internalNl,some 1,none,true,true,0⟩],[⟨3,0,true,some (.own 7),some 5,none,true,true,0⟩,⟨3,0,true,some .internalNl,some 5,none,false,true,0⟩,⟨3,0,true,some (.own 0),some 1,none,true,true,0⟩,⟨3,0,true,some .internalNl,some 5,none,true,true,0⟩,⟨3,0,true,some .internalNl,some 1,none,false,true,0⟩,⟨3,0,true,some .internalNl,some 1,none,true,true,0⟩],[⟨3,0,true,some (.own 7),some 5,none,true,true,0⟩,⟨3,0,true,some .internalNl,some 5,none,true,true,0⟩,⟨3,0,true,some (.own 0),some 1,none,true,true,0⟩,⟨3,0,true,some .internalNl,some 1,none,true,true,0⟩],[⟨3,0,false,some (.own 7),some 5,none,false,true,0⟩,⟨3,0,false,some (.own 0),some 1,none,false,true,0⟩],[⟨3,0,false,some (.own 7),some 5,none,false,true,0⟩,⟨3,0,false,some (.own 0),some 1,none,false,true,0⟩],[⟨3,0,false,some (.own 7),some 5,none,false,true,0⟩,⟨3,0,false,some (.own 0),some 1,none,false,true,0⟩],[⟨3,0,false,some (.own 7),some 5,none,false,true,0⟩,⟨3,0,false,some (.own 0),some 1,none,false,true,0⟩],[⟨3,0,false,some (.own 7),some 5,none,false,true,0⟩,⟨3,0,false,some (.own 0),some 1,none,false,true,0⟩],[⟨3,0,false,some (.own 7),some 5,none,false,true,0⟩,⟨3,0,false,some (.own 0),some 1,none,false,true,0⟩],[⟨3,0,false,some (.own 7),some 5,none,false,true,0⟩,⟨3,0,false,some (.own 0),some 1,none,false,true,0⟩],[⟨3,0,false,some (.own 7),some 5,none,false,true,0⟩,⟨3,0,false,some (.own 0),some 1,none,false,true,0⟩],[⟨3,0,false,some (.own 7),some 5,none,false,true,0⟩,⟨3,0,false,some (.own 0),some 1,none,false,true,0⟩],[⟨3,0,false,some (.own 7),some 5,none,false,true,0⟩,⟨3,0,false,some (.own 0),some 1,none,false,true,0⟩],[⟨3,0,false,some (.own 7),some 5,none,false,true,0⟩,⟨3,0,false,some (.own 0),some 1,none,false,true,0⟩],[⟨3,0,false,some (.own 7),some 5,none,false,true,0⟩,⟨3,0,false,some (.own 0),some 1,none,false,true,0⟩],[⟨3,0,false,some (.own 7),some 5,none,false,true,0⟩,⟨3,0,false,some (.own 0),some 1,none,false,true,0⟩],[⟨3,0,false,some (.own 7),some 5,none,false,true,0⟩,⟨3,0,false,some (.own 0),some 1,none,false,true,0⟩],[⟨3,0,false,some (.own 7),some 5,none,false,true,0⟩,⟨3,0,false,some (.own 0),some 1,none,false,true,0⟩],[⟨3,0,false,some (.own 7),some 5,none,false,true,0⟩,⟨3,0,false,some (.own 0),some 1,none,false,true,0⟩],[⟨3,0,false,some (.own 7),some 5,none,false,true,0⟩,⟨3,0,false,some (.own 0),some 1,none,false,true,0⟩],[⟨3,0,false,some (.own 7),some 5,none,false,true,0⟩,⟨3,0,false,some (.own 0),some 1,none,false,true,0⟩],[⟨3,0,false,some (.own 7),some 5,none,false,true,0⟩,⟨3,0,false,some (.own 0),some 1,none,false,true,0⟩],[⟨3,0,false,some (.own 7),some 5,none,false,true,0⟩,⟨3,0,false,some (.own 0),some 1,none,false,true,0⟩],[⟨3,0,false,some (.own 7),some 5,none,false,true,0⟩,⟨3,0,false,some (.own 0),some 1,none,false,true,0⟩],[⟨3,0,false,some (.own 7),some 5,none,false,true,0⟩,⟨3,0,false,some (.own 0),some 1,none,false,true,0⟩],[⟨3,0,false,some (.own 7),some 5,none,false,true,0⟩,⟨3,0,false,some (.own 0),some 1,none,false,true,0⟩],[⟨3,0,false,some (.own 7),some 5,none,false,true,0⟩,⟨3,0,false,some (.own 0),some 1,none,false,true,0⟩],[⟨3,0,false,some (.own 7),some 5,none,false,true,0⟩,⟨3,0,false,some (.own 0),some 1,none,false,true,0⟩],[⟨3,0,false,some (.own 7),some 5,none,false,true,0⟩,⟨3,0,false,some (.own 0),some 1,none,false,true,0⟩],[⟨3,0,false,some (.own 7),some 5,none,false,true,0⟩,⟨3,0,false,some (.own 0),some 1,none,false,true,0⟩],[⟨3,0,false,some (.own 7),some 5,none,false,true,0⟩,⟨3,0,false,some (.own 0),some 1,none,false,true,0⟩],[⟨3,0,false,some (.own 7),some 5,none,false,true,0⟩,⟨3,0,false,some (.own 0),some 1,none,false,true,0⟩],[⟨3,0,false,some (.own 7),some 5,none,false,true,0⟩,⟨3,0,false,some (.own 0),some 1,none,false,true,0⟩],[⟨3,0,false,some (.own 7),some 5,none,false,true,0⟩,⟨3,0,false,some (.own 0),some 1,none,false,true,0⟩],[⟨3,0,false,some (.own 7),some 5,none,false,true,0⟩,⟨3,0,false,some (.own 0),some 1,none,false,true,0⟩],[⟨3,0,false,some (.own 7),some 5,none,false,true,0⟩,⟨3,0,false,some (.own 0),some 1,none,false,true,0⟩],[⟨3,0,false,some (.own 7),some 5,none,false,true,0⟩,⟨3,0,false,some (.own 0),some 1,none,false,true,0⟩],[⟨3,0,false,some (.own 7),some 5,none,false,true,0⟩,⟨3,0,false,some (.own 0),some 1,none,false,true,0⟩],[⟨3,0,true,some .internalNl,some 2,none,false,true,0⟩],[⟨3,0,true,some .internalNl,some 2,none,false,true,0⟩],[⟨3,0,true,some .internalNl,some 2,none,false,true,0⟩],[⟨3,0,true,some .internalNl,some 2,none,false,true,0⟩],[⟨3,0,true,some .internalNl,some 2,none,false,true,0⟩],[⟨3,0,true,some (.own 7),some 5,none,true,true,0⟩,⟨3,0,true,some .internalNl,some 5,none,false,true,0⟩,⟨3,0,true,some (.own 0),some 1,none,true,true,0⟩,⟨3,0,true,some .internalNl,some 5,none,true,true,0⟩,⟨3,0,true,some .internalNl,some 1,none,false,true,0⟩,⟨3,0,true,some .internalNl,some 1,none,true,true,0⟩],[⟨3,0,true,some .internalNl,some 5,none,false,true,0⟩,⟨3,0,true,some .internalNl,some 1,none,false,true,0⟩],[⟨3,0,true,some (.own 7),some 5,none,true,true,0⟩,⟨3,0,true,some .internalNl,some 5,none,true,true,0⟩,⟨3,0,true,some (.own 0),some 1,none,true,true,0⟩,⟨3,0,true,some .internalNl,some 1,none,true,true,0⟩],[⟨3,0,true,some (.own 7),some 5,none,true,true,0⟩,⟨3,0,true,some .internalNl,some 5,none,true,true,0⟩,⟨3,0,true,some (.own 0),some 1,none,true,true,0⟩,⟨3,0,true,some .internalNl,some 1,none,true,true,0⟩],[⟨3,0,true,some (.own 7),some 5,none,true,true,0⟩,⟨3,0,true,some .internalNl,some 5,none,true,true,0⟩,⟨3,0,true,some (.own 0),some 1,none,true,true,0⟩,⟨3,0,true,some .internalNl,some 1,none,true,true,0⟩],[⟨3,0,true,some (.own 7),some 5,none,true,true,0⟩,⟨3,0,true,some .internalNl,some 5,none,false,true,0⟩,⟨3,0,true,some (.own 0),some 1,none,true,true,0⟩,⟨3,0,true,some .internalNl,some 5,none,true,true,0⟩,⟨3,0,true,some .internalNl,some 1,none,false,true,0⟩,⟨3,0,true,some .internalNl,some 1,none,true,true,0⟩],[⟨3,0,true,some .internalNl,some 5,none,false,true,0⟩,⟨3,0,true,some .internalNl,some 1,none,false,true,0⟩],[⟨3,0,false,some (.own 7),some 5,none,false,true,0⟩,⟨3,0,false,some (.own 0),some 1,none,false,true,0⟩],[⟨3,0,false,some (.own 7),some 5,none,false,true,0⟩,⟨3,0,false,some (.own 0),some 1,none,false,true,0⟩],[⟨3,0,false,some (.own 7),some 5,none,false,true,0⟩,⟨3,0,false,some (.own 0),some 1,none,false,true,0⟩],[⟨3,0,false,some (.own 7),some 5,none,false,true,0⟩,⟨3,0,false,some (.own 0),some 1,none,false,true,0⟩],[⟨3,0,false,some (.own 7),some 5,none,false,true,0⟩,⟨3,0,false,some (.own 0),some 1,none,false,true,0⟩],[⟨3,0,false,some (.own 7),some 5,none,false,true,0⟩,⟨3,0,false,some (.own 0),some 1,none,false,true,0⟩],[⟨3,0,false,some (.own 7),some 5,none,false,true,0⟩,⟨3,0,false,some (.own 0),some 1,none,false,true,0⟩],[⟨3,0,false,some (.own 7),some 5,none,false,true,0⟩,⟨3,0,false,some (.own 0),some 1,none,false,true,0⟩],[⟨3,0,false,some (.own 7),some 5,none,false,true,0⟩,⟨3,0,false,some (.own 0),some 1,none,false,true,0⟩],[⟨3,0,false,some (.own 7),some 5,none,false,true,0⟩,⟨3,0,false,some (.own 0),some 1,none,false,true,0⟩],[⟨3,0,false,some (.own 7),some 5,none,false,true,0⟩,⟨3,0,false,some (.own 0),some 1,none,false,true,0⟩],[⟨3,0,false,some (.own 7),some 5,none,false,true,0⟩,⟨3,0,false,some (.own 0),some 1,none,false,true,0⟩],[⟨3,0,false,some (.own 7),some 5,none,false,true,0⟩,⟨3,0,false,some (.own 0),some 1,none,false,true,0⟩],[⟨3,0,false,some (.own 7),some 5,none,false,true,0⟩,⟨3,0,false,some (.own 0),some 1,none,false,true,0⟩],[⟨3,0,false,some (.own 7),some 5,none,false,true,0⟩,⟨3,0,false,some (.own 0),some 1,none,false,true,0⟩],[⟨3,0,false,some (.own 7),some 5,none,false,true,0⟩,⟨3,0,false,some (.own 0),some 1,none,false,true,0⟩],[⟨3,0,false,some (.own 7),some 5,none,false,true,0⟩,⟨3,0,false,some (.own 0),some 1,none,false,true,0⟩],[⟨3,0,false,some (.own 7),some 5,none,false,true,0⟩,⟨3,0,false,some (.own 0),some 1,none,false,true,0⟩],[⟨3,0,false,some (.own 7),some 5,none,false,true,0⟩,⟨3,0,false,some (.own 0),some 1,none,false,true,0⟩],[⟨3,0,false,some (.own 7),some 5,none,false,true,0⟩,⟨3,0,false,some (.own 0),some 1,none,false,true,0⟩],[⟨3,0,false,some (.own 7),some 5,none,false,true,0⟩,⟨3,0,false,some (.own 0),some 1,none,false,true,0⟩],[⟨3,0,false,some (.own 7),some 5,none,false,true,0⟩,⟨3,0,false,some (.own 0),some 1,none,false,true,0⟩],[⟨3,0,false,some (.own 7),some 5,none,false,true,0⟩,⟨3,0,false,some (.own 0),some 1,none,false,true,0⟩],[⟨3,0,true,some .internalNl,some 2,none,false,true,0⟩],[⟨3,0,true,some .internalNl,some 2,none,false,true,0⟩],[⟨3,0,true,some .internalNl,some 2,none,false,true,0⟩],[⟨3,0,true,some (.own 7),some 5,none,true,true,0⟩,⟨3,0,true,some .internalNl,some 5,none,true,true,0⟩,⟨3,0,true,some (.own 0),some 1,none,true,true,0⟩,⟨3,0,true,some .internalNl,some 1,none,true,true,0⟩],[⟨3,0,true,some (.own 7),some 5,none,true,true,0⟩,⟨3,0,true,some .internalNl,some 5,none,true,true,0⟩,⟨3,0,true,some (.own 0),some 1,none,true,true,0⟩,⟨3,0,true,some .internalNl,some 1,none,true,true,0⟩],[⟨3,0,false,some (.own 7),some 5,none,false,true,0⟩,⟨3,0,false,some (.own 0),some 1,none,false,true,0⟩],[⟨3,0,false,some (.own 7),some 5,none,false,true,0⟩,⟨3,0,false,some (.own 0),some 1,none,false,true,0⟩],[⟨3,0,false,some (.own 7),some 5,none,false,true,0⟩,⟨3,0,false,some (.own 0),some 1,none,false,true,0⟩],[⟨3,0,false,some (.own 7),some 5,none,false,true,0⟩,⟨3,0,false,some (.own 0),some 1,none,false,true,0⟩],[⟨3,0,false,some (.own 7),some 5,none,false,true,0⟩,⟨3,0,false,some (.own 0),some 1,none,false,true,0⟩],[⟨3,0,false,some (.own 7),some 5,none,false,true,0⟩,⟨3,0,false,some (.own 0),some 1,none,false,true,0⟩],[⟨3,0,true,some .internalNl,some 2,none,false,true,0⟩],[⟨3,0,true,some .internalNl,some 2,none,false,true,0⟩],[⟨3,0,true,some .internalNl,some 2,none,false,true,0⟩]]
theorem haml_line_closed1false : closed emb57_rows haml_line_tab1false (EA.start haml_M haml_line 1) (EA.succ haml_M haml_line (1, false)) (EA.eofOk haml_M haml_line (1, false)) = true := by
  decide +kernel
def haml_line_C1false : MCert haml_M haml_line (1, false) := ⟨emb57_D, haml_line_tab1false, haml_line_closed1false, (fun h => nomatch h)⟩
def haml_line_tab0true : List (List EA) := [[⟨0,0,false,none,none,none,false,false,0⟩],[⟨1,0,false,some (.own 0),some 1,none,false,true,0⟩,⟨2,0,false,some (.own 0),some 1,none,false,true,0⟩,⟨3,0,false,some (.own 0),some 1,none,false,true,0⟩],[⟨1,0,false,some .newline,some 4,none,false,false,0⟩],[⟨1,0,false,some .newline,some 4,none,false,false,0⟩],[⟨1,0,false,some .newline,none,none,false,false,0⟩],[⟨1,0,false,some .newline,some 4,none,false,false,0⟩],[⟨1,0,true,some (.own 3),some 5,none,true,true,0⟩],[⟨1,0,true,some (.own 3),some 2,none,false,true,0⟩],[⟨1,0,false,some (.own 3),some 5,none,false,true,0⟩],[⟨1,0,true,some (.own 3),some 5,none,true,true,0⟩],[⟨1,0,false,some (.own 3),some 5,none,false,true,0⟩],[⟨1,0,false,some (.own 3),some 5,none,false,true,0⟩],[⟨1,0,true,some (.own 3),some 5,none,true,true,0⟩],[⟨2,0,false,some .newline,some 4,none,false,false,0⟩],[],[⟨2,0,true,some (.own 3),some 5,none,true,true,0⟩,⟨3,0,true,some (.own 3),some 5,none,true,true,0⟩,⟨3,0,true,some .internalNl,some 5,none,true,true,0⟩],[⟨2,0,true,some (.own 3),some 5,none,true,true,0⟩,⟨3,0,true,some (.own 3),some 5,none,true,true,0⟩,⟨3,0,true,some .internalNl,some 5,none,false,true,0⟩,⟨3,0,true,some .internalNl,some 5,none,true,true,0⟩],[⟨2,0,true,some (.own 3),some 5,none,true,true,0⟩,⟨3,0,true,some (.own 3),some 5,none,true,true,0⟩,⟨3,0,true,some .internalNl,some 5,none,false,true,0⟩,⟨3,0,true,some .internalNl,some 5,none,true,true,0⟩],[⟨2,0,true,some (.own 3),some 5,none,true,true,0⟩,⟨3,0,true,some (.own 3),some 5,none,true,true,0⟩,⟨3,0,true,some .internalNl,some 5,none,false,true,0⟩,⟨3,0,true,some .internalNl,some 5,none,true,true,0⟩],[⟨2,0,true,some (.own 3),some 5,none,true,true,0⟩,⟨3,0,true,some (.own 3),some 5,none,true,true,0⟩,⟨3,0,true,some .internalNl,some 5,none,false,true,0⟩,⟨3,0,true,some .internalNl,some 5,none,true,true,0⟩],[⟨2,0,true,some (.own 3),some 5,none,true,true,0⟩,⟨3,0,true,some (.own 3),some 5,none,true,true,0⟩,⟨3,0,true,some .internalNl,some 5,none,false,true,0⟩,⟨3,0,true,some .internalNl,some 5,none,true,true,0⟩],[⟨2,0,true,some (.own 3),some 5,none,true,true,0⟩,⟨3,0,true,some (.own 3),some 5,none,true,true,0⟩,⟨3,0,true,some .internalNl,some 5,none,false,true,0⟩,⟨3,0,true,some .internalNl,some 5,none,true,true,0⟩],[⟨2,0,true,some (.own 3),some 2,none,false,true,0⟩,⟨3,0,true,some (.own 3),some 2,none,false,true,0⟩],[⟨2,0,true,some (.own 3),some 5,none,true,true,0⟩,⟨3,0,true,some (.own 3),some 5,none,true,true,0⟩],[⟨2,0,false,some (.own 3),some 5,none,false,true,0⟩],[⟨2,0,false,some (.own 3),some 5,none,false,true,0⟩],[⟨2,0,true,some (.own 3),some 5,none,true,true,0⟩,⟨3,0,true,some (.own 3),some 5,none,true,true,0⟩,⟨3,0,true,some .internalNl,some 5,none,true,true,0⟩],[⟨2,0,true,some (.own 3),some 5,none,true,true,0⟩,⟨3,0,true,some (.own 3),some 5,none,true,true,0⟩,⟨3,0,true,some .internalNl,some 5,none,false,true,0⟩,⟨3,0,true,some .internalNl,some 5,none,true,true,0⟩],[⟨2,0,true,some (.own 3),some 5,none,true,true,0⟩,⟨3,0,true,some (.own 3),some 5,none,true,true,0⟩,⟨3,0,true,some .internalNl,some 5,none,false,true,0⟩,⟨3,0,true,some .internalNl,some 5,none,true,true,0⟩],[⟨2,0,true,some (.own 3),some 5,none,true,true,0⟩,⟨3,0,true,some (.own 3),some 5,none,true,true,0⟩,⟨3,0,true,some .internalNl,some 5,none,false,true,0⟩,⟨3,0,true,some .internalNl,some 5,none,true,true,0⟩],[⟨2,0,true,some (.own 3),some 5,none,true,true,0⟩,⟨3,0,true,some (.own 3),some 5,none,true,true,0⟩,⟨3,0,true,some .internalNl,some 5,none,false,true,0⟩,⟨3,0,true,some .internalNl,some 5,none,true,true,0⟩],[⟨2,0,true,some (.own 3),some 5,none,true,true,0⟩,⟨3,0,true,some (.own 3),some 5,none,true,true,0⟩,⟨3,0,true,some .internalNl,some 5,none,false,true,0⟩,⟨3,0,true,some .internalNl,some 5,none,true,true,0⟩],[⟨2,0,true,some (.own 3),some 5,none,true,true,0⟩,⟨3,0,true,some (.own 3),some 5,none,true,true,0⟩,⟨3,0,true,some .internalNl,some 5,none,false,true,0⟩,⟨3,0,true,some .internalNl,some 5,none,true,true,0⟩],[⟨2,0,false,some (.own 3),some 5,none,false,true,0⟩,⟨3,0,false,some (.own 3),some 5,none,false,true,0⟩],[⟨2,0,false,some (.own 3),some 5,none,false,true,0⟩,⟨3,0,false,some (.own 3),some 5,none,false,true,0⟩],[⟨2,0,false,some (.own 3),some 5,none,false,true,0⟩],[⟨2,0,true,some (.own 3),some 5,none,true,true,0⟩,⟨3,0,true,some (.own 3),some 5,none,true,true,0⟩,⟨3,0,true,some .internalNl,some 5,none,true,true,0⟩],[⟨2,0,true,some (.own 3),some 5,none,true,true,0⟩,⟨3,0,true,some (.own 3),some 5,none,true,true,0⟩,⟨3,0,true,some .internalNl,some 5,none,false,true,0⟩,⟨3,0,true,some .internalNl,some 5,none,true,true,0⟩],[⟨2,0,true,some (.own 3),some 5,none,true,true,0⟩,⟨3,0,true,some (.own 3),some 5,none,true,true,0⟩,⟨3,0,true,some .internalNl,some 5,none,false,true,0⟩,⟨3,0,true,some .internalNl,some 5,none,true,true,0⟩],[⟨2,0,true,some (.own 3),some 5,none,true,true,0⟩,⟨3,0,true,some (.own 3),some 5,none,true,true,0⟩,⟨3,0,true,some .internalNl,some 5,none,false,true,0⟩,⟨3,0,true,some .internalNl,some 5,none,true,true,0⟩],[⟨2,0,true,some (.own 3),some 5,none,true,true,0⟩,⟨3,0,true,some (.own 3),some 5,none,true,true,0⟩,⟨3,0,true,some .internalNl,some 5,none,false,true,0⟩,⟨3,0,true,some .internalNl,some 5,none,true,true,0⟩],[⟨2,0,true,some (.own 3),some 5,none,true,true,0⟩,⟨3,0,true,some (.own 3),some 5,none,true,true,0⟩,⟨3,0,true,some .internalNl,some 5,none,false,true,0⟩,⟨3,0,true,some .internalNl,some 5,none,true,true,0⟩],[⟨2,0,true,some (.own 3),some 5,none,true,true,0⟩,⟨3,0,true,some (.own 3),some 5,none,true,true,0⟩,⟨3,0,true,some .internalNl,some 5,none,false,true,0⟩,⟨3,0,true,some .internalNl,some 5,none,true,true,0⟩],[⟨3,0,true,some (.own 3),some 5,none,true,true,0⟩,⟨3,0,true,some .internalNl,some 5,none,false,true,0⟩,⟨3,0,true,some .internalNl,some 5,none,true,true,0⟩],[⟨3,0,true,some .internalNl,some 5,none,false,true,0⟩],[⟨3,0,true,some (.own 3),some 5,none,true,true,0⟩,⟨3,0,true,some .internalNl,some 5,none,true,true,0⟩],[⟨3,0,true,some (.own 3),some 5,none,true,true,0⟩,⟨3,0,true,some .internalNl,some 5,none,true,true,0⟩],[⟨3,0,true,some (.own 3),some 5,none,true,true,0⟩,⟨3,0,true,some .internalNl,some 5,none,false,true,0⟩,⟨3,0,true,some .internalNl,some 5,none,true,true,0⟩],[⟨3,0,true,some (.own 3),some 5,none,true,true,0⟩,⟨3,0,true,some .internalNl,some 5,none,false,true,0⟩,⟨3,0,true,some .internalNl,some 5,none,true,true,0⟩],[⟨3,0,true,some (.own 3),some 5,none,true,true,0⟩,⟨3,0,true,some .internalNl,some 5,none,false,true,0⟩,⟨3,0,true,some .internalNl,some 5,none,true,true,0⟩],[⟨3,0,true,some (.own 3),some 5,none,true,true,0⟩,⟨3,0,true,some .internalNl,some 5,none,false,true,0⟩,⟨3,0,true,some .internalNl,some 5,none,true,true,0⟩],[⟨3,0,true,some (.own 3),some 5,none,true,true,0⟩,⟨3,0,true,some .internalNl,some 5,none,false,true,0⟩,⟨3,0,true,some .internalNl,some 5,none,true,true,0⟩],[⟨3,0,true,some (.own 3),some 5,none,true,true,0⟩,⟨3,0,true,some .internalNl,some 5,none,false,true,0⟩,⟨3,0,true,some .internalNl,some 5,none,true,true,0⟩],[⟨3,0,true,some (.own 3),some 5,none,true,true,0⟩],[⟨3,0,true,some (.own 3),some 5,none,true,true,0⟩,⟨3,0,true,some .internalNl,some 5,none,false,true,0⟩,⟨3,0,true,some .internalNl,some 5,none,true,true,0⟩],[⟨3,0,true,some .internalNl,some 5,none,false,true,0⟩],[⟨3,0,true,some (.own 3),some 5,none,true,true,0⟩,⟨3,0,true,some .internalNl,some 5,none,true,true,0⟩],[⟨3,0,false,some (.own 3),some 5,none,false,true,0⟩],[⟨3,0,false,some (.own 3),some 5,none,false,true,0⟩],[⟨3,0,true,some (.own 3),some 5,none,true,true,0⟩,⟨3,0,true,some .internalNl,some 5,none,false,true,0⟩,⟨3,0,true,some .internalNl,some 5,none,true,true,0⟩],[⟨3,0,true,some .internalNl,some 5,none,false,true,0⟩],[⟨3,0,true,some (.own 3),some 5,none,true,true,0⟩,⟨3,0,true,some .internalNl,some 5,none,true,true,0⟩],[⟨3,0,true,some (.own 3),some 5,none,true,true,0⟩,⟨3,0,true,some .internalNl,some 5,none,false,true,0⟩,⟨3,0,true,some .internalNl,some 5,none,true,true,0⟩],[⟨3,0,true,some .internalNl,some 5,none,false,true,0⟩],[⟨3,0,true,some (.own 3),some 5,none,true,true,0⟩,⟨3,0,true,some .internalNl,some 5,none,true,true,0⟩],[⟨3,0,true,some (.own 3),some 5,none,true,true,0⟩,⟨3,0,true,some .internalNl,some 5,none,true,true,0⟩],[⟨3,0,true,some (.own 3),some 5,none,true,true,0⟩,⟨3,0,true,some .internalNl,some 5,none,false,true,0⟩,⟨3,0,true,some .internalNl,some 5,none,true,true,0⟩],[⟨3,0,true,some (.own 3),some 5,none,true,true,0⟩,⟨3,0,true,some .internalNl,some 5,none,false,true,0⟩,⟨3,0,true,some .internalNl,some 5,none,true,true,0⟩],[⟨3,0,true,some (.own 3),some 5,none,true,true,0⟩,⟨3,0,true,some .internalNl,some 5,none,false,true,0⟩,⟨3,0,true,some .internalNl,some 5,none,true,true,0⟩],[⟨3,0,true,some (.own 3),some 5,none,true,true,0⟩,⟨3,0,true,some .internalNl,some 5,none,false,true,0⟩,⟨3,0,true,some .internalNl,some 5,none,true,true,0⟩],[⟨3,0,true,some (.own 3),some 5,none,true,true,0⟩,⟨3,0,true,some .internalNl,some 5,none,false,true,0⟩,⟨3,0,true,some .internalNl,some 5,none,true,true,0⟩],[⟨3,0,true,some (.own 3),some 5,none,true,true,0⟩,⟨3,0,true,some .internalNl,some 5,none,false,true,0⟩,⟨3,0,true,some .internalNl,some 5,none,true,true,0⟩],[⟨3,0,false,some (.own 3),some 5,none,false,true,0⟩],[⟨3,0,true,some (.own 3),some 5,none,true,true,0⟩,⟨3,0,true,some .internalNl,some 5,none,false,true,0⟩,⟨3,0,true,some .internalNl,some 5,none,true,true,0⟩],[⟨3,0,true,some .internalNl,some 5,none,false,true,0⟩],[⟨3,0,true,some (.own 3),some 5,none,true,true,0⟩,⟨3,0,true,some .internalNl,some 5,none,true,true,0⟩],[⟨3,0,false,some (.own 3),some 5,none,false,true,0⟩],[⟨3,0,true,some (.own 3),some 5,none,false,true,0⟩],[⟨3,0,true,some (.own 3),some 5,none,false,true,0⟩,⟨3,0,true,some .internalNl,some 5,none,false,true,0⟩],[⟨3,0,true,some (.own 3),some 5,none,false,true,0⟩,⟨3,0,true,some .internalNl,some 5,none,false,true,0⟩],[⟨3,0,true,some (.own 3),some 5,none,false,true,0⟩,⟨3,0,true,some .internalNl,some 5,none,false,true,0⟩],[⟨3,0,true,some (.own 3),some 5,none,false,true,0⟩,⟨3,0,true,some .internalNl,some 5,none,false,true,0⟩],[⟨3,0,true,some (.own 3),some 5,none,false,true,0⟩,⟨3,0,true,some .internalNl,some 5,none,false,true,0⟩],[⟨3,0,true,some (.own 3),some 5,none,false,true,0⟩,⟨3,0,true,some .internalNl,some 5,none,false,true,0⟩],[⟨3,0,true,some (.own 3),some 5,none,false,true,0⟩,⟨3,0,true,some .internalNl,some 5,none,false,true,0⟩],[⟨3,0,true,some (.own 3),some 5,none,false,true,0⟩,⟨3,0,true,some .internalNl,some 5,none,false,true,0⟩],[⟨3,0,true,some .internalNl,some 5,none,false,true,0⟩],[⟨3,0,true,some (.own 3),some 5,none,false,true,0⟩,⟨3,0,true,some .internalNl,some 5,none,false,true,0⟩],[⟨3,0,true,some (.own 3),some 5,none,false,true,0⟩,⟨3,0,true,some .internalNl,some 5,none,false,true,0⟩]]
theorem haml_line_closed0true : closed emb56_rows haml_line_tab0true (EA.start haml_M haml_line 0) (EA.succ haml_M haml_line (0, true)) (EA.eofOk haml_M haml_line (0, true)) = true := by
  decide +kernel
def haml_line_C0true : MCert haml_M haml_line (0, true) := ⟨emb56_D, haml_line_tab0true, haml_line_closed0true, (fun h => nomatch h)⟩
theorem haml_line_certs : ∀ u ∈ haml_line.use, Nonempty (MCert haml_M haml_line u) :=
  (List.forall_mem_cons.mpr ⟨⟨haml_line_C1false⟩,
  (List.forall_mem_cons.mpr ⟨⟨haml_line_C0true⟩,
  (fun _ h => nomatch h)⟩)⟩)

def haml_entity : EOpt := ⟨true, false, false, [(2,false)], 2⟩
def haml_entity_tab2false : List (List EA) := [[⟨0,0,false,none,none,none,false,false,0⟩],[⟨1,0,false,some (.own 7),some 5,none,false,true,0⟩],[⟨1,0,false,some (.own 2),some 0,none,false,true,0⟩],[⟨1,0,false,some (.own 0),some 0,none,false,true,0⟩,⟨2,0,false,some (.own 0),some 0,none,false,true,0⟩,⟨3,0,false,some (.own 0),some 0,none,false,true,0⟩],[⟨1,0,false,some (.own 7),some 5,none,false,true,0⟩],[⟨1,0,false,some (.own 7),some 6,none,false,true,0⟩],[⟨1,0,false,some (.own 7),some 6,none,false,true,0⟩],[⟨1,0,false,some (.own 7),some 6,none,false,true,0⟩],[⟨1,0,false,some (.own 7),some 4,none,false,true,0⟩],[⟨2,0,false,some (.own 2),some 5,none,false,true,0⟩,⟨3,0,false,some (.own 2),some 5,none,false,true,0⟩],[⟨2,0,false,some (.own 2),some 5,none,false,true,0⟩,⟨3,0,false,some (.own 2),some 5,none,false,true,0⟩],[⟨2,0,false,some (.own 2),some 0,none,false,true,0⟩,⟨3,0,false,some (.own 2),some 0,none,false,true,0⟩],[⟨2,0,false,some (.own 2),some 4,none,false,true,0⟩],[⟨2,0,false,some (.own 5),some 3,none,false,true,0⟩,⟨3,0,false,some (.own 5),some 3,none,false,true,0⟩],[⟨2,0,false,some (.own 3),some 1,none,false,true,0⟩,⟨3,0,false,some (.own 3),some 1,none,false,true,0⟩],[⟨2,0,false,some (.own 4),some 2,none,false,true,0⟩,⟨3,0,false,some (.own 4),some 2,none,false,true,0⟩],[⟨3,0,false,some (.own 2),some 5,none,false,true,0⟩],[⟨3,0,false,some (.own 2),some 5,none,false,true,0⟩],[⟨3,0,false,some (.own 2),some 5,none,false,true,0⟩],[⟨3,0,false,some (.own 2),some 5,none,false,true,0⟩],[⟨3,0,false,some (.own 2),some 5,none,false,true,0⟩]]
theorem haml_entity_closed2false : closed emb58_rows haml_entity_tab2false (EA.start haml_M haml_entity 2) (EA.succ haml_M haml_entity (2, false)) (EA.eofOk haml_M haml_entity (2, false)) = true := by
  decide +kernel
def haml_entity_C2false : MCert haml_M haml_entity (2, false) := ⟨emb58_D, haml_entity_tab2false, haml_entity_closed2false, (fun h => nomatch h)⟩
theorem haml_entity_certs : ∀ u ∈ haml_entity.use, Nonempty (MCert haml_M haml_entity u) :=
  (List.forall_mem_cons.mpr ⟨⟨haml_entity_C2false⟩,
  (fun _ h => nomatch h)⟩)

theorem nix_m0 : Emb.Nix.nix_dq_shell_line.mach = ⟨emb12_nfa, [.none,.cb 1,.none,.none,.cb 1,.cb 1], true⟩ := by decide +kernel
theorem nix_m1 : Emb.Nix.nix_dsq_shell_line.mach = ⟨emb13_nfa, [.none,.cb 1,.none,.none,.cb 1,.cb 1], true⟩ := by decide +kernel
theorem nix_m2 : Emb.Nix.nix_line.mach = ⟨emb14_nfa, [.call 0,.call 1,.cb 0,.none,.cb 0,.cb 0], true⟩ := by decide +kernel
theorem nix_m3 : Emb.Nix.nix_dq_shell_entity.mach = ⟨emb15_nfa, [.none,.ecb 1,.ecb 1,.none], true⟩ := by decide +kernel
theorem nix_m4 : Emb.Nix.nix_dsq_shell_entity.mach = ⟨emb16_nfa, [.none,.ecb 1,.ecb 1,.none], true⟩ := by decide +kernel
theorem nix_m5 : Emb.Nix.nix_entity.mach = ⟨emb17_nfa, [.call 3,.call 4,.ecb 0,.ecb 0,.none], true⟩ := by decide +kernel

/-- The machines of `Emb.Nix.parser`, with their automata as literals. -/
def nix_M : Multi := ⟨Emb.Nix.parser.sws, [
  ⟨emb12_nfa, [.none,.cb 1,.none,.none,.cb 1,.cb 1], true⟩,
  ⟨emb13_nfa, [.none,.cb 1,.none,.none,.cb 1,.cb 1], true⟩,
  ⟨emb14_nfa, [.call 0,.call 1,.cb 0,.none,.cb 0,.cb 0], true⟩,
  ⟨emb15_nfa, [.none,.ecb 1,.ecb 1,.none], true⟩,
  ⟨emb16_nfa, [.none,.ecb 1,.ecb 1,.none], true⟩,
  ⟨emb17_nfa, [.call 3,.call 4,.ecb 0,.ecb 0,.none], true⟩]⟩
theorem nix_M_eq : Emb.Nix.parser.multi = nix_M := by
  show Multi.mk _ [Emb.Nix.nix_dq_shell_line.mach, Emb.Nix.nix_dsq_shell_line.mach, Emb.Nix.nix_line.mach, Emb.Nix.nix_dq_shell_entity.mach, Emb.Nix.nix_dsq_shell_entity.mach, Emb.Nix.nix_entity.mach] = _
  rw [nix_m0, nix_m1, nix_m2, nix_m3, nix_m4, nix_m5]; rfl

def nix_line : EOpt := ⟨true, false, false, [(2,false),(0,true),(1,true)], 2⟩
def nix_line_tab2false : List (List EA) := [[⟨0,0,false,none,none,none,false,false,0⟩],[⟨1,0,false,some (.own 0),some 2,none,false,true,0⟩,⟨2,0,false,some (.own 0),some 2,none,false,true,0⟩,⟨3,0,false,some (.own 0),some 2,none,false,true,0⟩],[⟨1,0,false,some .newline,none,none,false,false,0⟩],[⟨1,0,false,some .newline,some 4,none,false,false,0⟩],[⟨1,0,true,some (.own 2),some 3,none,false,true,0⟩],[⟨1,0,false,some (.own 2),some 5,none,false,true,0⟩],[⟨1,0,false,some (.own 2),some 5,none,false,true,0⟩],[⟨2,0,true,some (.own 2),some 3,none,false,true,0⟩,⟨3,0,true,some (.own 2),some 3,none,false,true,0⟩],[⟨2,0,true,some (.own 2),some 5,none,false,true,0⟩],[⟨3,0,true,some (.own 2),some 5,none,false,true,0⟩,⟨3,0,true,some .internalNl,some 5,none,false,true,0⟩],[⟨3,0,true,some (.own 2),some 5,none,false,true,0⟩,⟨3,0,true,some .internalNl,some 5,none,false,true,0⟩],[⟨3,0,true,some (.own 2),some 5,none,false,true,0⟩,⟨3,0,true,some .internalNl,some 5,none,false,true,0⟩],[⟨3,0,true,some (.own 2),some 5,none,false,true,0⟩,⟨3,0,true,some .internalNl,some 5,none,false,true,0⟩],[⟨3,0,true,some (.own 2),some 5,none,false,true,0⟩,⟨3,0,true,some .internalNl,some 5,none,false,true,0⟩],[⟨3,0,true,some (.own 2),some 5,none,false,true,0⟩,⟨3,0,true,some .internalNl,some 5,none,false,true,0⟩],[⟨3,0,true,some (.own 2),some 5,none,false,true,0⟩,⟨3,0,true,some .internalNl,some 5,none,false,true,0⟩],[⟨3,0,true,some (.own 2),some 5,none,false,true,0⟩,⟨3,0,true,some .internalNl,some 5,none,false,true,0⟩],[⟨3,0,true,some .internalNl,some 5,none,false,true,0⟩]]
theorem nix_line_closed2false : closed emb14_rows nix_line_tab2false (EA.start nix_M nix_line 2) (EA.succ nix_M nix_line (2, false)) (EA.eofOk nix_M nix_line (2, false)) = true := by
  decide +kernel
def nix_line_C2false : MCert nix_M nix_line (2, false) := ⟨emb14_D, nix_line_tab2false, nix_line_closed2false, (fun h => nomatch h)⟩
def nix_line_tab0true : List (List EA) := [[⟨0,0,false,none,none,none,false,false,0⟩],[⟨1,0,false,some (.own 0),some 1,none,false,true,0⟩,⟨2,0,false,some (.own 0),some 1,none,false,true,0⟩,⟨3,0,false,some (.own 0),some 1,none,false,true,0⟩],[⟨1,0,false,some .newline,none,none,false,false,0⟩],[⟨1,0,false,some .newline,some 4,none,false,false,0⟩],[],[⟨1,0,true,some (.own 3),some 2,none,false,true,0⟩],[⟨1,0,true,some (.own 3),some 5,none,true,true,0⟩],[],[],[],[],[],[],[],[⟨2,0,true,some (.own 3),some 2,none,false,true,0⟩,⟨3,0,true,some (.own 3),some 2,none,false,true,0⟩],[⟨2,0,true,some (.own 3),some 5,none,true,true,0⟩,⟨3,0,true,some (.own 3),some 5,none,true,true,0⟩,⟨3,0,true,some .internalNl,some 5,none,true,true,0⟩],[⟨2,0,true,some (.own 3),some 5,none,true,true,0⟩,⟨3,0,true,some (.own 3),some 5,none,true,true,0⟩,⟨3,0,true,some .internalNl,some 5,none,false,true,0⟩,⟨3,0,true,some .internalNl,some 5,none,true,true,0⟩],[⟨2,0,true,some (.own 3),some 5,none,true,true,0⟩,⟨3,0,true,some (.own 3),some 5,none,true,true,0⟩,⟨3,0,true,some .internalNl,some 5,none,false,true,0⟩,⟨3,0,true,some .internalNl,some 5,none,true,true,0⟩],[⟨2,0,true,some (.own 3),some 5,none,true,true,0⟩,⟨3,0,true,some (.own 3),some 5,none,true,true,0⟩,⟨3,0,true,some .internalNl,some 5,none,false,true,0⟩,⟨3,0,true,some .internalNl,some 5,none,true,true,0⟩],[⟨2,0,true,some (.own 3),some 5,none,true,true,0⟩,⟨3,0,true,some (.own 3),some 5,none,true,true,0⟩,⟨3,0,true,some .internalNl,some 5,none,false,true,0⟩,⟨3,0,true,some .internalNl,some 5,none,true,true,0⟩],[⟨2,0,true,some (.own 3),some 5,none,true,true,0⟩,⟨3,0,true,some (.own 3),some 5,none,true,true,0⟩,⟨3,0,true,some .internalNl,some 5,none,false,true,0⟩,⟨3,0,true,some .internalNl,some 5,none,true,true,0⟩],[⟨2,0,true,some (.own 3),some 5,none,true,true,0⟩,⟨3,0,true,some (.own 3),some 5,none,true,true,0⟩,⟨3,0,true,some .internalNl,some 5,none,false,true,0⟩,⟨3,0,true,some .internalNl,some 5,none,true,true,0⟩],[],[],[],[],[],[],[],[⟨3,0,true,some (.own 3),some 5,none,true,true,0⟩,⟨3,0,true,some .internalNl,some 5,none,false,true,0⟩,⟨3,0,true,some .internalNl,some 5,none,true,true,0⟩],[⟨3,0,true,some .internalNl,some 5,none,false,true,0⟩],[⟨3,0,true,some (.own 3),some 5,none,true,true,0⟩,⟨3,0,true,some .internalNl,some 5,none,true,true,0⟩],[⟨3,0,true,some (.own 3),some 5,none,true,true,0⟩,⟨3,0,true,some .internalNl,some 5,none,false,true,0⟩,⟨3,0,true,some .internalNl,some 5,none,true,true,0⟩],[⟨3,0,true,some (.own 3),some 5,none,true,true,0⟩,⟨3,0,true,some .internalNl,some 5,none,false,true,0⟩,⟨3,0,true,some .internalNl,some 5,none,true,true,0⟩],[⟨3,0,true,some (.own 3),some 5,none,true,true,0⟩,⟨3,0,true,some .internalNl,some 5,none,false,true,0⟩,⟨3,0,true,some .internalNl,some 5,none,true,true,0⟩],[⟨3,0,true,some (.own 3),some 5,none,true,true,0⟩,⟨3,0,true,some .internalNl,some 5,none,false,true,0⟩,⟨3,0,true,some .internalNl,some 5,none,true,true,0⟩],[],[],[⟨3,0,true,some (.own 3),some 5,none,true,true,0⟩,⟨3,0,true,some .internalNl,some 5,none,false,true,0⟩,⟨3,0,true,some .internalNl,some 5,none,true,true,0⟩],[⟨3,0,true,some .internalNl,some 5,none,false,true,0⟩]]
theorem nix_line_closed0true : closed emb12_rows nix_line_tab0true (EA.start nix_M nix_line 0) (EA.succ nix_M nix_line (0, true)) (EA.eofOk nix_M nix_line (0, true)) = true := by
  decide +kernel
def nix_line_C0true : MCert nix_M nix_line (0, true) := ⟨emb12_D, nix_line_tab0true, nix_line_closed0true, (fun h => nomatch h)⟩
def nix_line_tab1true : List (List EA) := [[⟨0,0,false,none,none,none,false,false,0⟩],[⟨1,0,false,some (.own 0),some 1,none,false,true,0⟩,⟨2,0,false,some (.own 0),some 1,none,false,true,0⟩,⟨3,0,false,some (.own 0),some 1,none,false,true,0⟩],[⟨1,0,false,some .newline,none,none,false,false,0⟩],[⟨1,0,false,some .newline,some 4,none,false,false,0⟩],[⟨1,0,true,some (.own 3),some 5,none,true,true,0⟩],[⟨1,0,true,some (.own 3),some 2,none,false,true,0⟩],[⟨1,0,true,some (.own 3),some 5,none,true,true,0⟩],[⟨2,0,true,some (.own 3),some 5,none,true,true,0⟩,⟨3,0,true,some (.own 3),some 5,none,true,true,0⟩,⟨3,0,true,some .internalNl,some 5,none,true,true,0⟩],[⟨2,0,true,some (.own 3),some 5,none,true,true,0⟩,⟨3,0,true,some (.own 3),some 5,none,true,true,0⟩,⟨3,0,true,some .internalNl,some 5,none,false,true,0⟩,⟨3,0,true,some .internalNl,some 5,none,true,true,0⟩],[⟨2,0,true,some (.own 3),some 5,none,true,true,0⟩,⟨3,0,true,some (.own 3),some 5,none,true,true,0⟩,⟨3,0,true,some .internalNl,some 5,none,false,true,0⟩,⟨3,0,true,some .internalNl,some 5,none,true,true,0⟩],[⟨2,0,true,some (.own 3),some 5,none,true,true,0⟩,⟨3,0,true,some (.own 3),some 5,none,true,true,0⟩,⟨3,0,true,some .internalNl,some 5,none,false,true,0⟩,⟨3,0,true,some .internalNl,some 5,none,true,true,0⟩],[⟨2,0,true,some (.own 3),some 5,none,true,true,0⟩,⟨3,0,true,some (.own 3),some 5,none,true,true,0⟩,⟨3,0,true,some .internalNl,some 5,none,false,true,0⟩,⟨3,0,true,some .internalNl,some 5,none,true,true,0⟩],[⟨2,0,true,some (.own 3),some 5,none,true,true,0⟩,⟨3,0,true,some (.own 3),some 5,none,true,true,0⟩,⟨3,0,true,some .internalNl,some 5,none,false,true,0⟩,⟨3,0,true,some .internalNl,some 5,none,true,true,0⟩],[⟨2,0,true,some (.own 3),some 5,none,true,true,0⟩,⟨3,0,true,some (.own 3),some 5,none,true,true,0⟩,⟨3,0,true,some .internalNl,some 5,none,false,true,0⟩,⟨3,0,true,some .internalNl,some 5,none,true,true,0⟩],[⟨2,0,true,some (.own 3),some 2,none,false,true,0⟩,⟨3,0,true,some (.own 3),some 2,none,false,true,0⟩],[⟨2,0,true,some (.own 3),some 5,none,true,true,0⟩,⟨3,0,true,some (.own 3),some 5,none,true,true,0⟩,⟨3,0,true,some .internalNl,some 5,none,true,true,0⟩],[⟨2,0,true,some (.own 3),some 5,none,true,true,0⟩,⟨3,0,true,some (.own 3),some 5,none,true,true,0⟩,⟨3,0,true,some .internalNl,some 5,none,false,true,0⟩,⟨3,0,true,some .internalNl,some 5,none,true,true,0⟩],[⟨2,0,true,some (.own 3),some 5,none,true,true,0⟩,⟨3,0,true,some (.own 3),some 5,none,true,true,0⟩,⟨3,0,true,some .internalNl,some 5,none,false,true,0⟩,⟨3,0,true,some .internalNl,some 5,none,true,true,0⟩],[⟨2,0,true,some (.own 3),some 5,none,true,true,0⟩,⟨3,0,true,some (.own 3),some 5,none,true,true,0⟩,⟨3,0,true,some .internalNl,some 5,none,false,true,0⟩,⟨3,0,true,some .internalNl,some 5,none,true,true,0⟩],[⟨2,0,true,some (.own 3),some 5,none,true,true,0⟩,⟨3,0,true,some (.own 3),some 5,none,true,true,0⟩,⟨3,0,true,some .internalNl,some 5,none,false,true,0⟩,⟨3,0,true,some .internalNl,some 5,none,true,true,0⟩],[⟨2,0,true,some (.own 3),some 5,none,true,true,0⟩,⟨3,0,true,some (.own 3),some 5,none,true,true,0⟩,⟨3,0,true,some .internalNl,some 5,none,false,true,0⟩,⟨3,0,true,some .internalNl,some 5,none,true,true,0⟩],[⟨2,0,true,some (.own 3),some 5,none,true,true,0⟩,⟨3,0,true,some (.own 3),some 5,none,true,true,0⟩,⟨3,0,true,some .internalNl,some 5,none,false,true,0⟩,⟨3,0,true,some .internalNl,some 5,none,true,true,0⟩],[⟨3,0,true,some (.own 3),some 5,none,true,true,0⟩,⟨3,0,true,some .internalNl,some 5,none,false,true,0⟩,⟨3,0,true,some .internalNl,some 5,none,true,true,0⟩],[⟨3,0,true,some .internalNl,some 5,none,false,true,0⟩],[⟨3,0,true,some (.own 3),some 5,none,true,true,0⟩,⟨3,0,true,some .internalNl,some 5,none,true,true,0⟩],[⟨3,0,true,some (.own 3),some 5,none,true,true,0⟩,⟨3,0,true,some .internalNl,some 5,none,false,true,0⟩,⟨3,0,true,some .internalNl,some 5,none,true,true,0⟩],[⟨3,0,true,some (.own 3),some 5,none,true,true,0⟩,⟨3,0,true,some .internalNl,some 5,none,false,true,0⟩,⟨3,0,true,some .internalNl,some 5,none,true,true,0⟩],[⟨3,0,true,some (.own 3),some 5,none,true,true,0⟩,⟨3,0,true,some .internalNl,some 5,none,false,true,0⟩,⟨3,0,true,some .internalNl,some 5,none,true,true,0⟩],[⟨3,0,true,some (.own 3),some 5,none,true,true,0⟩,⟨3,0,true,some .internalNl,some 5,none,false,true,0⟩,⟨3,0,true,some .internalNl,some 5,none,true,true,0⟩],[⟨3,0,true,some (.own 3),some 5,none,true,true,0⟩,⟨3,0,true,some .internalNl,some 5,none,false,true,0⟩,⟨3,0,true,some .internalNl,some 5,none,true,true,0⟩],[⟨3,0,true,some .internalNl,some 5,none,false,true,0⟩],[⟨3,0,true,some (.own 3),some 5,none,true,true,0⟩,⟨3,0,true,some .internalNl,some 5,none,true,true,0⟩],[⟨3,0,true,some (.own 3),some 5,none,true,true,0⟩,⟨3,0,true,some .internalNl,some 5,none,false,true,0⟩,⟨3,0,true,some .internalNl,some 5,none,true,true,0⟩],[⟨3,0,true,some (.own 3),some 5,none,true,true,0⟩,⟨3,0,true,some .internalNl,some 5,none,false,true,0⟩,⟨3,0,true,some .internalNl,some 5,none,true,true,0⟩],[⟨3,0,true,some (.own 3),some 5,none,true,true,0⟩,⟨3,0,true,some .internalNl,some 5,none,false,true,0⟩,⟨3,0,true,some .internalNl,some 5,none,true,true,0⟩],[⟨3,0,true,some (.own 3),some 5,none,true,true,0⟩,⟨3,0,true,some .internalNl,some 5,none,false,true,0⟩,⟨3,0,true,some .internalNl,some 5,none,true,true,0⟩],[⟨3,0,true,some (.own 3),some 5,none,true,true,0⟩,⟨3,0,true,some .internalNl,some 5,none,false,true,0⟩,⟨3,0,true,some .internalNl,some 5,none,true,true,0⟩],[⟨3,0,true,some .internalNl,some 5,none,false,true,0⟩],[⟨3,0,true,some (.own 3),some 5,none,true,true,0⟩,⟨3,0,true,some .internalNl,some 5,none,false,true,0⟩,⟨3,0,true,some .internalNl,some 5,none,true,true,0⟩],[⟨3,0,true,some .internalNl,some 5,none,false,true,0⟩]]
theorem nix_line_closed1true : closed emb13_rows nix_line_tab1true (EA.start nix_M nix_line 1) (EA.succ nix_M nix_line (1, true)) (EA.eofOk nix_M nix_line (1, true)) = true := by
  decide +kernel
def nix_line_C1true : MCert nix_M nix_line (1, true) := ⟨emb13_D, nix_line_tab1true, nix_line_closed1true, (fun h => nomatch h)⟩
theorem nix_line_certs : ∀ u ∈ nix_line.use, Nonempty (MCert nix_M nix_line u) :=
  (List.forall_mem_cons.mpr ⟨⟨nix_line_C2false⟩,
  (List.forall_mem_cons.mpr ⟨⟨nix_line_C0true⟩,
  (List.forall_mem_cons.mpr ⟨⟨nix_line_C1true⟩,
  (fun _ h => nomatch h)⟩)⟩)⟩)

def nix_entity : EOpt := ⟨true, false, false, [(5,false),(3,true),(4,true)], 2⟩
def nix_entity_tab5false : List (List EA) := [[⟨0,0,false,none,none,none,false,false,0⟩],[⟨1,0,false,some (.own 0),some 2,none,false,true,0⟩,⟨2,0,false,some (.own 0),some 2,none,false,true,0⟩,⟨3,0,false,some (.own 0),some 2,none,false,true,0⟩],[⟨1,0,false,some (.own 1),some 3,none,false,true,0⟩],[⟨1,0,false,none,some 4,none,false,false,0⟩],[⟨1,0,false,some (.own 1),some 4,none,false,true,0⟩],[⟨2,0,false,some (.own 1),some 3,none,false,true,0⟩,⟨3,0,false,some (.own 1),some 3,none,false,true,0⟩],[⟨2,0,false,some (.own 1),some 4,none,false,true,0⟩],[⟨3,0,false,some (.own 1),some 4,none,false,true,0⟩],[⟨3,0,false,some (.own 1),some 4,none,false,true,0⟩]]
theorem nix_entity_closed5false : closed emb17_rows nix_entity_tab5false (EA.start nix_M nix_entity 5) (EA.succ nix_M nix_entity (5, false)) (EA.eofOk nix_M nix_entity (5, false)) = true := by
  decide +kernel
def nix_entity_C5false : MCert nix_M nix_entity (5, false) := ⟨emb17_D, nix_entity_tab5false, nix_entity_closed5false, (fun h => nomatch h)⟩
def nix_entity_tab3true : List (List EA) := [[⟨0,0,false,none,none,none,false,false,0⟩],[⟨1,0,false,some (.own 0),some 1,none,false,true,0⟩,⟨2,0,false,some (.own 0),some 1,none,false,true,0⟩,⟨3,0,false,some (.own 0),some 1,none,false,true,0⟩],[⟨1,0,false,some (.own 1),some 2,none,false,true,0⟩],[⟨2,0,false,some (.own 1),some 2,none,false,true,0⟩,⟨3,0,false,some (.own 1),some 2,none,false,true,0⟩]]
theorem nix_entity_closed3true : closed emb15_rows nix_entity_tab3true (EA.start nix_M nix_entity 3) (EA.succ nix_M nix_entity (3, true)) (EA.eofOk nix_M nix_entity (3, true)) = true := by
  decide +kernel
def nix_entity_C3true : MCert nix_M nix_entity (3, true) := ⟨emb15_D, nix_entity_tab3true, nix_entity_closed3true, (fun h => nomatch h)⟩
def nix_entity_tab4true : List (List EA) := [[⟨0,0,false,none,none,none,false,false,0⟩],[⟨1,0,false,some (.own 0),some 1,none,false,true,0⟩,⟨2,0,false,some (.own 0),some 1,none,false,true,0⟩,⟨3,0,false,some (.own 0),some 1,none,false,true,0⟩],[⟨1,0,false,some (.own 1),some 2,none,false,true,0⟩],[⟨1,0,false,none,some 3,none,false,false,0⟩],[⟨2,0,false,some (.own 1),some 2,none,false,true,0⟩,⟨3,0,false,some (.own 1),some 2,none,false,true,0⟩]]
theorem nix_entity_closed4true : closed emb16_rows nix_entity_tab4true (EA.start nix_M nix_entity 4) (EA.succ nix_M nix_entity (4, true)) (EA.eofOk nix_M nix_entity (4, true)) = true := by
  decide +kernel
def nix_entity_C4true : MCert nix_M nix_entity (4, true) := ⟨emb16_D, nix_entity_tab4true, nix_entity_closed4true, (fun h => nomatch h)⟩
theorem nix_entity_certs : ∀ u ∈ nix_entity.use, Nonempty (MCert nix_M nix_entity u) :=
  (List.forall_mem_cons.mpr ⟨⟨nix_entity_C5false⟩,
  (List.forall_mem_cons.mpr ⟨⟨nix_entity_C3true⟩,
  (List.forall_mem_cons.mpr ⟨⟨nix_entity_C4true⟩,
  (fun _ h => nomatch h)⟩)⟩)⟩)

end Ohcount.Cert
